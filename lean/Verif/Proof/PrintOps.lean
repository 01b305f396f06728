import Verif.Proof.PrintExpr

/-!
# Printed expressions, one kind at a time, continued
-/

namespace Ressa.Print
open Ressa.Gr

variable {C : Cfg} {Γ : Env}

/-- Nothing is proved of an expression that is not printed. -/
theorem expr_none {e : Expr} (h : expr Γ e = none) : ExprOk C Γ e := by
  intro i o hh
  rw [h] at hh
  exact (sp_none.1 hh).elim

/-! ## Leaves -/

theorem name_ok {n : Txt} {i o : List Tok} (h : Sp C (name n) i o) :
    ∃ t, i = t :: o ∧ t.item.token = .ident ∧ C.text t = n ∧ n ≠ t!"async" ∧ n ≠ t!"await" := by
  simp only [name, sp_only, decide_eq_true_eq, sp_cons, sp_nil, matches_word] at h
  obtain ⟨⟨h1, h2, h3⟩, t, _, rfl, ⟨h4, h5⟩, rfl⟩ := h
  exact ⟨t, rfl, h4.trans h1, h5, h2, h3⟩

theorem str_ok {s : Txt} {i o : List Tok} (h : Sp C (str s) i o) :
    ∃ t, i = t :: o ∧ t.item.token = .string ∧ C.text t = s ∧ s ≠ t!"async" := by
  simp only [str, sp_only, decide_eq_true_eq, sp_cons, sp_nil] at h
  obtain ⟨h1, t, _, rfl, ⟨h4, h5, -⟩, rfl⟩ := h
  exact ⟨t, rfl, h4, h5, h1⟩

theorem num_ok {s : Txt} {i o : List Tok} (h : Sp C (num s) i o) :
    ∃ t, i = t :: o ∧ t.item.token = .numeric ∧ C.text t = s ∧ s ≠ t!"async" := by
  simp only [num, sp_only, decide_eq_true_eq, sp_cons, sp_nil] at h
  obtain ⟨h1, t, _, rfl, ⟨h4, h5, -⟩, rfl⟩ := h
  exact ⟨t, rfl, h4, h5, h1⟩

theorem W.ofPrimary {f : Flags} {e : Expr} {t : Tok} {i o : List Tok} {x : Token}
    (hΓ : Γ.allowIn = true) (ht : t.item.token = x) (hx : Print.front 20 x = true)
    (ha : C.text t ≠ t!"async") (h : Core C Γ (.primary f e) (t :: i) o) :
    W C Γ 20 f e (t :: i) o :=
  ⟨fun _ => ha, by show Print.front 20 t.item.token = true; rw [ht, hx], .primary (toWithin hΓ h)⟩

theorem expr_ident {n : Txt} (hΓ : Γ.allowIn = true) : ExprOk C Γ (.ident n) := by
  intro i o h _
  simp only [expr] at h
  obtain ⟨t, rfl, h1, rfl, h3, -⟩ := name_ok h
  exact W.ofPrimary hΓ h1 rfl h3 (.primIdent h1 (.inl h3))

theorem expr_this (hx : ExtOk C.ext) (hΓ : Γ.allowIn = true) : ExprOk C Γ .this := by
  intro i o h _
  simp only [expr, sp_cons, sp_nil, matches_k] at h
  obtain ⟨t, _, rfl, ⟨h1, h2⟩, rfl⟩ := h
  exact W.ofPrimary hΓ h1 rfl (by rw [h2]; decide) (.primThis h1 fun _ => hx.this)

theorem expr_super : ExprOk C Γ .super := by
  intro i o h _
  simp only [expr, sp_only, sp_cons, sp_nil, matches_k] at h
  obtain ⟨h0, t, _, rfl, ⟨h1, h2⟩, rfl⟩ := h
  exact ⟨t, rfl, h1, by rw [h2]; decide, h0⟩

theorem expr_literal {l : Literal} (hΓ : Γ.allowIn = true) : ExprOk C Γ (.literal l) := by
  intro i o h _
  simp only [expr] at h
  cases l with
  | null => exact (sp_none.1 h).elim
  | string s =>
    obtain ⟨t, rfl, h1, rfl, h3⟩ := str_ok h
    exact W.ofPrimary hΓ h1 rfl h3 (.primString h1)
  | number s =>
    obtain ⟨t, rfl, h1, rfl, h3⟩ := num_ok h
    exact W.ofPrimary hΓ h1 rfl h3 (.primNumber h1)
  | boolean b =>
    simp only [literal, sp_cons, sp_nil] at h
    obtain ⟨t, _, rfl, ⟨h1, h2, -⟩, rfl⟩ := h
    refine W.ofPrimary hΓ h1 rfl ?_ (.primBool h1)
    rw [h2]; cases b <;> decide
  | regex r =>
    obtain ⟨pat, fl⟩ := r
    simp only [literal, sp_only, sp_cons, sp_nil] at h
    obtain ⟨h0, t, _, rfl, ⟨h1, h2, -⟩, rfl⟩ := h
    refine W.ofPrimary hΓ h1 rfl ?_ (.primRegex h1 h2 (by simpa using h0))
    rw [h2]; intro h
    injection h with h
    revert h; decide

theorem expr_template {es qs} (hΓ : Γ.allowIn = true) (ih : TplOk C Γ es qs) :
    ExprOk C Γ (.template es qs) := by
  intro i o h _
  simp only [expr] at h
  obtain ⟨h1, h2, h3⟩ := ih _ _ h
  refine ⟨fun _ => h2, ?_, .primary (toWithin hΓ (.primTemplate h3))⟩
  rcases h1 with h1 | h1 <;> rw [h1] <;> rfl

theorem expr_array {l} (hΓ : Γ.allowIn = true) (ih : ElemsOk C Γ l) : ExprOk C Γ (.array l) := by
  intro i o h _
  simp only [expr, sp_cat, sp_cons, sp_nil, matches_p] at h
  obtain ⟨_, ⟨t, _, rfl, ⟨h1, h2⟩, rfl⟩, j, h3, t', _, rfl, ⟨h4, -⟩, rfl⟩ := h
  exact W.ofPrimary hΓ h1 rfl (by rw [h2]; decide) (.primArray h1 (ih _ _ h3 h4) h4)

theorem expr_object {l} (hΓ : Γ.allowIn = true) (ih : PropsOk C Γ l) : ExprOk C Γ (.object l) := by
  intro i o h _
  simp only [expr, sp_only, sp_cat, sp_cons, sp_nil, matches_p] at h
  obtain ⟨h0, _, ⟨t, _, rfl, ⟨h1, h2⟩, rfl⟩, j, h3, t', _, rfl, ⟨h4, -⟩, rfl⟩ := h
  exact W.ofPrimary hΓ h1 rfl (by rw [h2]; decide)
    (.primObject h1 (ih _ _ _ h3 h4) h4 (.inl (by simpa using h0)))

theorem expr_spread {e} (hΓ : Γ.allowIn = true) (ih : ExprOk C Γ e) : ExprOk C Γ (.spread e) := by
  intro i o h ho
  simp only [expr, sp_cat, sp_cons, sp_nil, matches_p] at h
  obtain ⟨_, ⟨t, _, rfl, ⟨h1, -⟩, rfl⟩, h3⟩ := h
  obtain ⟨-, n, h4, -, h5⟩ := sub_ok hΓ ih (by omega) h3 ho
  exact ⟨t, _, n, rfl, h1, h4, h5⟩

theorem expr_sequence {e l} (hΓ : Γ.allowIn = true) (ihe : ExprOk C Γ e) (ih : SeqOk C Γ l) :
    ExprOk C Γ (.sequence (e :: l)) := by
  intro i o h _
  simp only [expr, sp_only, sp_cat] at h
  obtain ⟨h0, j, h1, h2⟩ := h
  have hl : l ≠ [] := by simpa using h0
  obtain ⟨h3, h4⟩ := ih _ _ h2
  have h5 : head j = .punct .comma := by
    rcases h3 with ⟨h3, -⟩ | ⟨-, h3⟩
    · exact absurd h3 hl
    · exact h3
  obtain ⟨-, n, h6, -, h7⟩ := sub_ok hΓ ihe (by omega) h1 (by rw [h5]; decide)
  refine ⟨fun h => absurd h (by simp [level]), front_mono h7.front (by simp [level]), ?_⟩
  exact .sequence rfl hl rfl (h7.assign h6 (by rw [h5, hΓ]; decide)) (by rw [hΓ]; exact h4)

/-! ## Calls and members -/

theorem expr_call {c l} (hΓ : Γ.allowIn = true) (ihc : ExprOk C Γ c) (ih : ArgsOk C Γ l) :
    ExprOk C Γ (.call c l) := by
  intro i o h _
  simp only [expr, sp_cat, sp_cons, sp_nil, matches_p] at h
  obtain ⟨j, h0, _, ⟨t, _, rfl, ⟨h1, -⟩, rfl⟩, j', h3, t', _, rfl, ⟨h4, -⟩, rfl⟩ := h
  have ha := args_ok ih h3 h1 rfl h4
  have hj : ∀ k, head (t :: k) ≠ .punct .fatArrow := by
    intro k; show t.item.token ≠ _; rw [h1]; decide
  rw [obj] at h0
  split at h0
  · cases c <;> simp only [isSuper, Bool.false_eq_true] at *
    obtain ⟨u, rfl, h5, h6, h7⟩ := ihc _ _ h0 (hj _)
    refine ⟨fun _ => h6, by show front 18 u.item.token = true; rw [h5]; rfl, .call fun f' e' o' hh => ?_⟩
    exact .callSuper h5 h6 h7 (.inl h1) (.callArgs (toWithin hΓ ha) nofun hh)
  · obtain ⟨-, n, h5, -, h6⟩ := sub_ok hΓ ihc (by omega) h0 (hj _)
    exact ⟨fun _ => h6.other h5, front_mono h6.front h5, .call fun f' e' o' hh =>
      h6.call h5 (.callArgs (toWithin hΓ ha) nofun hh)⟩

/-- What follows the object of a member access. -/
theorem W.access {e e' : Expr} {f' : Flags} {n : Nat} {i j o : List Tok}
    (h : W C Γ n (flags e) e i j) (hn : 18 ≤ n) (hl : n = level e ∨ n = 20)
    (hm : ∀ e'' o', Core C (Γ.within true) (.memTail e' e'') o o' →
      Core C (Γ.within true) (.memTail e e'') j o')
    (hc : ∀ f'' e'' o', Core C (Γ.within true) (.callTail false f' e' f'' e'') o o' →
      Core C (Γ.within true) (.callTail false (flags e) e f'' e'') j o') :
    W C Γ (if level e = 18 then 18 else 19) f' e' i o := by
  split
  · exact ⟨fun _ => h.other hn, front_mono h.front hn, .call fun _ _ _ hh => h.call hn (hc _ _ _ hh)⟩
  · have hn' : 19 ≤ n := by omega
    exact ⟨fun _ => h.other hn, front_mono h.front hn', .member (fun _ _ hh => h.member hn' (hm _ _ hh))
      (fun _ _ _ hh => h.call hn (hc _ _ _ hh))⟩

/-- The same for `super`. -/
theorem W.superAccess {e' : Expr} {f' : Flags} {t : Tok} {j o : List Tok}
    (h1 : Kw t .super) (h2 : C.text t ≠ t!"async") (h3 : Γ.inFn = true)
    (hj : head j = .punct .openBracket ∨ head j = .punct .period)
    (hm : ∀ e'' o', Core C (Γ.within true) (.memTail e' e'') o o' →
      Core C (Γ.within true) (.memTail .super e'') j o')
    (hc : ∀ f'' e'' o', Core C (Γ.within true) (.callTail false f' e' f'' e'') o o' →
      Core C (Γ.within true) (.callTail false (true, true) .super f'' e'') j o') :
    W C Γ 19 f' e' (t :: j) o :=
  ⟨fun _ => h2, by show Print.front 19 t.item.token = true; rw [h1]; rfl, .member
    (fun _ _ hh => .memSuper h1 h3 hj (hm _ _ hh))
    (fun _ _ _ hh => .callSuper h1 h2 h3 (.inr hj) (hc _ _ _ hh))⟩

theorem expr_member_dot {c n} (hΓ : Γ.allowIn = true) (ihc : ExprOk C Γ c) :
    ExprOk C Γ (.member c (.ident n) false) := by
  intro i o h _
  simp only [expr, sp_cat, sp_cons, sp_nil, matches_p, matches_word] at h
  obtain ⟨j, h0, t, _, rfl, ⟨h1, -⟩, t', _, rfl, ⟨-, rfl⟩, rfl⟩ := h
  have hj : ∀ k, head (t :: k) ≠ .punct .fatArrow := by
    intro k; show t.item.token ≠ _; rw [h1]; decide
  rw [obj] at h0
  show W _ _ (level _) _ _ _ _
  simp only [level]
  split at h0
  · cases c <;> simp only [isSuper, Bool.false_eq_true] at *
    obtain ⟨u, rfl, h5, h6, h7⟩ := ihc _ _ h0 (hj _)
    exact .superAccess h5 h6 h7 (.inr h1) (fun _ _ hh => .memDot h1 hh)
      (fun _ _ _ hh => .callDot h1 hh)
  · obtain ⟨-, n, h5, h7, h6⟩ := sub_ok hΓ ihc (by omega) h0 (hj _)
    exact h6.access h5 h7 (fun _ _ hh => .memDot h1 hh) (fun _ _ _ hh => .callDot h1 hh)

theorem expr_member_index {c x} (hΓ : Γ.allowIn = true) (ihc : ExprOk C Γ c)
    (ihx : ExprOk C Γ x) : ExprOk C Γ (.member c x true) := by
  intro i o h _
  simp only [expr, sp_cat, sp_cons, sp_nil, matches_p] at h
  obtain ⟨j, h0, _, ⟨t, _, rfl, ⟨h1, -⟩, rfl⟩, k, hx, t', _, rfl, ⟨h4, -⟩, rfl⟩ := h
  have hj : ∀ k, head (t :: k) ≠ .punct .fatArrow := by
    intro k; show t.item.token ≠ _; rw [h1]; decide
  have hx' := sub_expression hΓ ihx hx (by
    show stop0 true t'.item.token = true; rw [h4]; decide)
  rw [← within_true hΓ] at hx'
  rw [obj] at h0
  show W _ _ (level _) _ _ _ _
  simp only [level]
  split at h0
  · cases c <;> simp only [isSuper, Bool.false_eq_true] at *
    obtain ⟨u, rfl, h5, h6, h7⟩ := ihc _ _ h0 (hj _)
    exact .superAccess h5 h6 h7 (.inl h1) (fun _ _ hh => .memIndex h1 hx' h4 hh)
      (fun _ _ _ hh => .callIndex h1 hx' h4 hh)
  · obtain ⟨-, n, h5, h7, h6⟩ := sub_ok hΓ ihc (by omega) h0 (hj _)
    exact h6.access h5 h7 (fun _ _ hh => .memIndex h1 hx' h4 hh)
      (fun _ _ _ hh => .callIndex h1 hx' h4 hh)

theorem expr_tagged {c es qs} (hΓ : Γ.allowIn = true) (ihc : ExprOk C Γ c)
    (ih : TplOk C Γ es qs) : ExprOk C Γ (.taggedTemplate c es qs) := by
  intro i o h _
  simp only [expr, sp_cat] at h
  obtain ⟨j, h0, h1⟩ := h
  obtain ⟨h2, -, h3⟩ := ih _ _ h1
  rw [← within_true hΓ] at h3
  show W _ _ (level _) _ _ _ _
  simp only [level]
  obtain ⟨-, n, h5, h7, h6⟩ := sub_ok hΓ ihc (by omega) h0 (by
    rcases h2 with h2 | h2 <;> rw [h2] <;> decide)
  exact h6.access h5 h7 (fun _ _ hh => .memTemplate h3 hh) (fun _ _ _ hh => .callTemplate h3 hh)

theorem expr_meta {m n} : ExprOk C Γ (.metaProperty m n) := by
  intro i o h _
  simp only [expr, sp_only, sp_cons, sp_nil, Bool.and_eq_true, decide_eq_true_eq, matches_p,
    matches_k, matches_word] at h
  obtain ⟨⟨⟨rfl, rfl⟩, h0⟩, t, _, rfl, ⟨h1, h2⟩, t', _, rfl, ⟨h3, -⟩, t'', o, rfl, ⟨-, h4⟩, rfl⟩ := h
  have := Core.newTarget (C := C) (Γ := Γ.within true) (o := o) h1 h3 h4 h0
  rw [h4] at this
  have ha : C.text t ≠ t!"async" := by rw [h2]; decide
  have hn : ∀ l, head (t :: l) ≠ .keyword .super := by
    intro l; show t.item.token ≠ _; rw [h1]; decide
  exact ⟨fun _ => ha, by show front 19 t.item.token = true; rw [h1]; rfl, .member
    (fun _ _ hh => .member (hn _) (.opNew this) hh)
    (fun _ _ _ hh => .call (fun _ => ha) (hn _) (.opNew this) hh)⟩

theorem expr_new {c l} (hΓ : Γ.allowIn = true) (ihc : ExprOk C Γ c) (ih : ArgsOk C Γ l) :
    ExprOk C Γ (.new c l) := by
  intro i o h _
  simp only [expr, sp_cat, sp_cons, sp_nil, matches_p, matches_k] at h
  obtain ⟨_, ⟨t0, i, rfl, ⟨k1, k2⟩, rfl⟩, j, h0, _, ⟨t, _, rfl, ⟨h1, -⟩, rfl⟩, j', h3, t', _, rfl,
    ⟨h4, -⟩, rfl⟩ := h
  have ha := args_ok ih h3 h1 rfl h4
  have hj : ∀ k, head (t :: k) ≠ .punct .fatArrow := by
    intro k; show t.item.token ≠ _; rw [h1]; decide
  obtain ⟨-, n, h5, -, h6⟩ := sub_ok hΓ ihc (by omega) h0 (hj _)
  have hm := h6.member h5 (.memStop (by show memberMore t.item.token = false; rw [h1]; rfl))
  have hi : head i ≠ .keyword .import := by
    intro hh
    have := front_mono h6.front (Nat.zero_le n)
    rw [hh] at this
    exact absurd this (by decide)
  have := Core.newArgs k1 hi hm (toWithin hΓ ha)
  have ha : C.text t0 ≠ t!"async" := by rw [k2]; decide
  have hn : ∀ l, head (t0 :: l) ≠ .keyword .super := by
    intro l; show t0.item.token ≠ _; rw [k1]; decide
  exact ⟨fun _ => ha, by show front 19 t0.item.token = true; rw [k1]; rfl, .member
    (fun _ _ hh => .member (hn _) (.opNew this) hh)
    (fun _ _ _ hh => .call (fun _ => ha) (hn _) (.opNew this) hh)⟩

/-! ## Operators -/

theorem expr_unary {op e pre} (hΓ : Γ.allowIn = true) (ih : ExprOk C Γ e) :
    ExprOk C Γ (.unary op e pre) := by
  intro i o h ho
  simp only [expr, sp_only, sp_cat, sp_cons, sp_nil, Bool.and_eq_true] at h
  obtain ⟨⟨rfl, h0⟩, _, ⟨t, _, rfl, ⟨h1, h2, -⟩, rfl⟩, h3⟩ := h
  have h1 : t.item.token = unaryToken op := h1
  have h2 : C.text t = tokenText (unaryToken op) := h2
  obtain ⟨-, n, h5, -, h6⟩ := sub_ok hΓ ih (by omega) h3 ho
  refine ⟨fun _ => ?_, ?_, .unary fun hs => .unaryOp (by rw [h1]; cases op <;> rfl) (h6.unary h5 hs) ?_⟩
  · simp only [Cfg.other, h2]; cases op <;> decide
  · show front 16 t.item.token = true; rw [h1]; cases op <;> rfl
  · rintro rfl hs he
    simp [hs, he] at h0

theorem expr_await {e} (hΓ : Γ.allowIn = true) (ih : ExprOk C Γ e) : ExprOk C Γ (.await e) := by
  intro i o h ho
  simp only [expr, sp_only, sp_cat, sp_cons, sp_nil, matches_k] at h
  obtain ⟨h0, _, ⟨t, _, rfl, ⟨h1, h2⟩, rfl⟩, h3⟩ := h
  obtain ⟨-, n, h5, -, h6⟩ := sub_ok hΓ ih (by omega) h3 ho
  refine ⟨fun h => absurd h (by simp [level]), ?_, .unary fun hs =>
    .unaryAwait h1 h0 (h6.unary h5 hs)⟩
  show front 16 t.item.token = true; rw [h1]; rfl

theorem yielding_true (h : Γ.gen = true) : Γ.yielding true = Γ := by
  cases Γ; cases h; rfl

theorem sp_glue {r : Out} {i o : List Tok} (h : Sp C (r.map glue) i o) :
    Sp C r i o ∧ (C.nl i = false ∨ i = o) := by
  obtain ⟨l, h1, h2⟩ := h
  cases r with
  | none => cases h1
  | some l' =>
    simp only [Option.map_some, Option.some.injEq] at h1
    subst h1
    cases l' with
    | nil => exact ⟨⟨[], rfl, h2⟩, .inr h2⟩
    | cons x l =>
      obtain ⟨t, j, rfl, ⟨a, b, c, d⟩, h3⟩ := h2
      exact ⟨⟨_, rfl, t, j, rfl, ⟨a, b, fun _ => c rfl, d⟩, h3⟩, .inl (c rfl)⟩

theorem expr_yield_none {d} : ExprOk C Γ (.yield none d) := by
  intro i o h ho
  simp only [expr, sp_only, sp_cons, sp_nil, matches_k, Bool.and_eq_true] at h
  obtain ⟨⟨h0, h0'⟩, t, _, rfl, ⟨h1, h2⟩, rfl⟩ := h
  obtain rfl : d = false := by simpa using h0'
  refine ⟨fun h => absurd h (by simp [level]), by show front 1 t.item.token = true; rw [h1]; rfl,
    .assign fun hs => .assign (.yieldNone h1 h0 (.inr ⟨?_, ?_⟩))⟩
  · intro hh; rw [hh] at hs; revert hs; cases Γ.allowIn <;> decide
  · simp only [stop2, Bool.and_eq_true] at hs
    simpa using hs.2

theorem expr_yield_some {e} (hΓ : Γ.allowIn = true) (ih : ExprOk C Γ e) :
    ExprOk C Γ (.yield (some e) false) := by
  intro i o h ho
  simp only [expr, sp_only, sp_cat, sp_cons, sp_nil, matches_k] at h
  obtain ⟨h0, _, ⟨t, _, rfl, ⟨h1, h2⟩, rfl⟩, h3⟩ := h
  obtain ⟨h3, h4⟩ := sp_glue h3
  obtain ⟨⟨u, j, rfl, h5⟩, n, h6, h7⟩ := shield_ok (by decide) hΓ ih (by omega) h3 ho
  have h5 : yieldStart u.item.token = true := by simpa [badYield] using h5
  refine ⟨fun h => absurd h (by simp [level]), by show front 1 t.item.token = true; rw [h1]; rfl,
    .assign fun hs => .assignYield h1 h0 ?_ h5 ?_⟩
  · rcases h4 with h4 | rfl
    · exact h4
    · simp only [stop2, head, h5, Bool.not_true, Bool.and_false, Bool.false_eq_true] at hs
  · rw [yielding_true h0]
    exact h7.assign h6 hs

theorem expr_yield_all {e} (hΓ : Γ.allowIn = true) (ih : ExprOk C Γ e) :
    ExprOk C Γ (.yield (some e) true) := by
  intro i o h ho
  simp only [expr, sp_only, sp_cat, sp_cons, sp_nil, matches_k, glue] at h
  obtain ⟨h0, _, ⟨t, _, rfl, ⟨h1, h2⟩, t', _, rfl, ⟨h4, -, h5, -⟩, rfl⟩, h3⟩ := h
  obtain ⟨-, n, h7, -, h6⟩ := sub_ok hΓ ih (by omega) h3 ho
  refine ⟨fun h => absurd h (by simp [level]), by show front 1 t.item.token = true; rw [h1]; rfl,
    .assign fun hs => .assignYieldAll h1 h0 (h5 rfl) h4 ?_⟩
  rw [yielding_true h0]
  exact h6.assign h7 hs

theorem updateToken {op : UpdateOperator} {t : Tok} (h : Is t (updatePunct op)) :
    Is t .increment ∧ op = .increment ∨ Is t .decrement ∧ op = .decrement := by
  cases op
  · exact .inl ⟨h, rfl⟩
  · exact .inr ⟨h, rfl⟩

theorem expr_prefix {op e} (hΓ : Γ.allowIn = true) (ih : ExprOk C Γ e) :
    ExprOk C Γ (.update op e true) := by
  intro i o h ho
  simp only [expr, sp_only, sp_cat, sp_cons, sp_nil, Bool.and_eq_true, matches_p] at h
  obtain ⟨⟨h0, h0'⟩, _, ⟨t, _, rfl, ⟨h1, h2⟩, rfl⟩, h3⟩ := h
  obtain ⟨-, n, h5, -, h6⟩ := sub_ok hΓ ih (by omega) h3 ho
  refine ⟨fun _ => ?_, ?_, .update fun hs => .updPrefix (updateToken h1) (h6.unary h5 hs) ?_ (.inl h0)⟩
  · simp only [Cfg.other, h2]; cases op <;> decide
  · show front 17 t.item.token = true; rw [h1]; cases op <;> rfl
  · intro hs he
    simp [hs, he] at h0'

theorem expr_postfix {op e} (hΓ : Γ.allowIn = true) (ih : ExprOk C Γ e) :
    ExprOk C Γ (.update op e false) := by
  intro i o h ho
  simp only [expr, sp_only, sp_cat, sp_cons, sp_nil, Bool.and_eq_true, glue] at h
  obtain ⟨⟨h0, h0'⟩, _, h3, t, _, rfl, ⟨h1, -, h2, -⟩, rfl⟩ := h
  have h1 : Is t (updatePunct op) := h1
  obtain ⟨-, n, h5, -, h6⟩ := sub_ok hΓ ih (by omega) h3 (by
    show t.item.token ≠ _; rw [h1]; cases op <;> decide)
  have hf := front_mono h6.front h5
  refine ⟨fun _ => h6.other h5, front_mono h6.front (by simp only [level]; omega), .update fun hs =>
    .updPostfix (h6.call h5 (.callStop ?_)) ?_ ?_ (h2 rfl) (updateToken h1) ?_ (.inl h0)⟩
  · show callMore t.item.token = false; rw [h1]; cases op <;> rfl
  · intro hh; rw [hh] at hf; exact absurd hf (by decide)
  · intro hh; rw [hh] at hf; exact absurd hf (by decide)
  · intro hs
    simpa [hs] using h0'

theorem expr_power {l r} (hΓ : Γ.allowIn = true) (ihl : ExprOk C Γ l) (ihr : ExprOk C Γ r) :
    ExprOk C Γ (.binary .powerOf l r) := by
  intro i o h ho
  simp only [expr, sp_cat, sp_cons, sp_nil, if_true] at h
  obtain ⟨_, h1, _, ⟨t, _, rfl, ⟨h2, -⟩, rfl⟩, h3⟩ := h
  have h2 : Is t .exponent := h2
  obtain ⟨-, n, h5, -, h6⟩ := sub_ok hΓ ihl (by omega) h1 (by
    show t.item.token ≠ _; rw [h2]; decide)
  obtain ⟨-, m, k5, -, k6⟩ := sub_ok hΓ ihr (by omega) h3 ho
  refine ⟨fun h => absurd h (by simp [level, Op.level]), front_mono h6.front (by simp only [level, Op.level]; omega), .expo fun hs =>
    .expo (h6.unary h5 (by show stop17 t.item.token = true; rw [h2]; rfl)) h2 (k6.expo k5 hs)⟩

/-- Two operands and a binary operator. -/
theorem W.node {op : Op} {l r : Expr} {f g : Flags} {n m : Nat} {t : Tok} {i j o : List Tok}
    (hp : op ≠ .bin .powerOf) (hΓ : op = .bin .in → Γ.allowIn = true) (h : W C Γ n f l i (t :: j))
    (hn : op.level + 3 ≤ n) (ht : t.item.token = op.token) (h' : W C Γ m g r j o)
    (hm : op.level + 4 ≤ m) : W C Γ (op.level + 3) (false, false) (op.node l r) i o := by
  have h1 : 1 ≤ op.level ∧ op.level ≤ 11 := by
    rcases op with o | o <;> cases o <;> first | exact absurd rfl hp | decide
  have h2 : stop15 (head (t :: j)) = true := by
    show stop15 t.item.token = true
    rw [ht]
    rcases op with o | o <;> cases o <;> first | exact absurd rfl hp | decide
  refine ⟨fun _ => h.other (by omega), front_mono h.front hn, .ops (by omega) (by omega) fun hs => ?_⟩
  obtain ⟨f', x, L, k, a1, a2, a3, a4, -⟩ := h.ops (by omega) h2
  obtain ⟨g', y, R, k', b1, b2, b3, b4, -⟩ := h'.ops (by omega) hs
  refine ⟨f', x, L ++ (op, y) :: R, k, a1, fun l' o' hh => ?_, .node ?_ ?_ a3 b3, ?_, by simp, rfl⟩
  · have := a2 _ _ (Core.opMore ht hp hΓ b1 (b2 _ _ hh))
    simpa using this
  · intro q hq; have := a4 q hq; omega
  · intro q hq; have := b4 q hq; omega
  · intro q hq
    simp only [List.mem_append, List.mem_cons] at hq
    rcases hq with hq | rfl | hq
    · have := a4 q hq; omega
    · exact Nat.le_refl _
    · have := b4 q hq; omega

theorem expr_binary {op l r} (hop : op ≠ .powerOf) (hΓ : Γ.allowIn = true) (ihl : ExprOk C Γ l)
    (ihr : ExprOk C Γ r) : ExprOk C Γ (.binary op l r) := by
  intro i o h ho
  simp only [expr, sp_cat, sp_cons, sp_nil, hop, if_false] at h
  obtain ⟨_, h1, _, ⟨t, _, rfl, ⟨h2, -⟩, rfl⟩, h3⟩ := h
  have h2 : t.item.token = (Op.bin op).token := h2
  have hl : (Op.bin op).level + 4 ≤ 20 := by cases op <;> decide
  obtain ⟨-, n, h5, -, h6⟩ := sub_ok hΓ ihl (by omega) h1 (by
    show t.item.token ≠ _; rw [h2]; cases op <;> decide)
  obtain ⟨-, m, k5, -, k6⟩ := sub_ok hΓ ihr (by omega) h3 ho
  exact h6.node (by simpa using hop) (fun _ => hΓ) h5 h2 k6 k5

theorem expr_logical {op l r} (hΓ : Γ.allowIn = true) (ihl : ExprOk C Γ l)
    (ihr : ExprOk C Γ r) : ExprOk C Γ (.logical op l r) := by
  intro i o h ho
  simp only [expr, sp_cat, sp_cons, sp_nil] at h
  obtain ⟨_, h1, _, ⟨t, _, rfl, ⟨h2, -⟩, rfl⟩, h3⟩ := h
  have h2 : t.item.token = (Op.log op).token := h2
  have hl : (Op.log op).level + 4 ≤ 20 := by cases op <;> decide
  obtain ⟨-, n, h5, -, h6⟩ := sub_ok hΓ ihl (by omega) h1 (by
    show t.item.token ≠ _; rw [h2]; cases op <;> decide)
  obtain ⟨-, m, k5, -, k6⟩ := sub_ok hΓ ihr (by omega) h3 ho
  exact h6.node (by simp) (fun _ => hΓ) h5 h2 k6 k5

theorem expr_conditional {t b a} (hΓ : Γ.allowIn = true) (iht : ExprOk C Γ t)
    (iha : ExprOk C Γ a) (ihb : ExprOk C Γ b) : ExprOk C Γ (.conditional t b a) := by
  intro i o h ho
  simp only [expr, sp_cat, sp_cons, sp_nil, matches_p] at h
  obtain ⟨_, h1, _, ⟨q, _, rfl, ⟨h2, -⟩, rfl⟩, _, h3, _, ⟨q', _, rfl, ⟨h4, -⟩, rfl⟩, h5⟩ := h
  obtain ⟨-, n, k1, -, k2⟩ := sub_ok hΓ iht (by omega) h1 (by
    show q.item.token ≠ _; rw [h2]; decide)
  have ha := sub_assign hΓ iha h3 (by show stop2 true q'.item.token = true; rw [h4]; decide)
  refine ⟨fun h => absurd h (by simp [level]), front_mono k2.front (by simp only [level]; omega), .cond fun hs => ?_⟩
  rw [hΓ] at hs
  exact .cond (k2.bin k1 (by rw [hΓ]; show stop4 true q.item.token = true; rw [h2]; decide)) h2
    (toWithin hΓ ha) h4 (sub_assign hΓ ihb h5 hs)

theorem expr_assignment {op l r} (hΓ : Γ.allowIn = true) (ihl : ExprOk C Γ l)
    (ihr : ExprOk C Γ r) : ExprOk C Γ (.assignment op l r) := by
  intro i o h ho
  simp only [expr, sp_only, sp_cat, sp_cons, sp_nil, matches_p, Bool.and_eq_true] at h
  obtain ⟨⟨h0, h0'⟩, _, h1, _, ⟨t, _, rfl, ⟨h2, -⟩, rfl⟩, h3⟩ := h
  obtain ⟨-, n, k1, -, k2⟩ := sub_ok hΓ ihl (by omega) h1 (by
    show t.item.token ≠ _; rw [h2]; cases op <;> decide)
  have hc := k2.cond (by omega) (by
    rw [hΓ]; show stop3 true t.item.token = true; rw [h2]; cases op <;> decide)
  have hn : ∀ n, l = .ident n → Γ.strict = true →
      isRestrictedWord n = false ∧ isStrictReservedWord n = false := by
    rintro n rfl hs
    simpa [hs, strictTarget] using h0'
  refine ⟨fun h => absurd h (by simp [level]), front_mono k2.front (by simp only [level]; omega), .assign fun hs => ?_⟩
  rw [hΓ] at hs
  have hr := sub_assign hΓ ihr h3 hs
  by_cases hop : op = .equal
  · subst hop
    exact .assignEq (k2.not_yield (by omega)) hc (.inl h0) h2 hn hr
  · have hf : flags (.assignment op l r) = (false, false) := by
      cases op <;> first | exact absurd rfl hop | rfl
    rw [hf]
    exact .assignOp (k2.not_yield (by omega)) hc (.inl h0) h2 (by cases op <;> rfl) hn hr

end Ressa.Print
