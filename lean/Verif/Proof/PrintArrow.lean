import Verif.Proof.PrintFn

/-!
# Printed arrow functions
-/

namespace Ressa.Print
open Ressa.Gr

variable {C : Cfg} {Γ : Env}

/-- What is proved of the parameters of an arrow function. -/
def ArrowSeqOk (C : Cfg) (Γ : Env) (l : List FunctionArg) : Prop :=
  (∀ i o, Sp C (arrowSeq Γ l) i o → head o = .punct .closeParen → l.all arrowArg = true →
    l = [] ∧ i = o ∨ ∃ e es j, l = .expr e :: es.map .expr ∧ Core C Γ (.assign (flags e) e) i j ∧
      Core C Γ (.seqTail (seqFlags es) es) j o ∧ (es = [] → j = o)) ∧
  (∀ q, l = [.pat q] → PatOk C Γ q) ∧
  ∀ t' i o, Sp C (arrowSeq Γ l) i (t' :: o) → Is t' .closeParen → restSeq l = true →
    (∀ t, Is t .comma → Core C Γ (.groupTail true l) (t :: i) o) ∧
    ∀ e l', l = .expr e :: l' → (flags e).2 = true ∧ ∃ j, Core C Γ (.assign (flags e) e) i j ∧
      Core C Γ (.groupTail true l') j o

theorem arrowSeq_nil : ArrowSeqOk C Γ [] := by
  refine ⟨fun i o h _ _ => ?_, fun q h => (by cases h), fun _ _ _ _ _ h => by cases h⟩
  simp only [arrowSeq, sp_nil] at h
  exact .inl ⟨rfl, h⟩

theorem arrowSeq_pat {q l} (hΓ : Γ.allowIn = true) (ihq : PatOk C Γ q) :
    ArrowSeqOk C Γ (.pat q :: l) := by
  refine ⟨fun i o h _ ha => ?_, fun q' h => ?_, fun t' i o h ht' hp =>
    ⟨fun t ht => ?_, fun _ _ h => by cases h⟩⟩
  · simp [arrowArg] at ha
  · injection h with h
    injection h with h
    subst h
    exact ihq
  · cases l with
    | cons => simp [restSeq] at hp
    | nil =>
      cases q <;> simp only [restSeq, isRest, Bool.false_eq_true] at hp
      simp only [arrowSeq, sp_cat] at h
      obtain ⟨j, h1, k, h2, h3⟩ := h
      have h2 := sp_nil.1 h2
      have h3 := sp_nil.1 h3
      subst h2 h3
      obtain ⟨u, k, rfl, h4, h5⟩ := ihq _ _ h1
      have h5 := h5 true
      rw [within_true hΓ] at h5
      exact .groupRest ht h4 h5 ht'

theorem arrowSeq_expr {e l} (hΓ : Γ.allowIn = true) (ihe : ExprOk C Γ e)
    (ih : ArrowSeqOk C Γ l) : ArrowSeqOk C Γ (.expr e :: l) := by
  refine ⟨fun i o h ho ha => .inr ?_, fun q h => (by cases h), fun t' i o h ht' hp => ?_⟩
  rotate_left
  · simp only [restSeq, arrowArg, Bool.and_eq_true] at hp
    simp only [arrowSeq, sp_cat] at h
    obtain ⟨j, h1, k, h2, h3⟩ := h
    rcases sp_sep h2 with ⟨rfl, rfl⟩ | ⟨hl, u, rfl, h4⟩
    · simp [restSeq] at hp
    · have h5 := sub_assign hΓ ihe h1 (o := u :: k) (by
        show stop2 true u.item.token = true; rw [h4]; decide)
      have h6 := (ih.2.2 _ _ _ h3 ht' hp.2).1 u h4
      refine ⟨fun t ht => .groupMore ht h5 (fun _ => hp.1.1) h6, fun e' l' hh => ?_⟩
      cases hh
      exact ⟨hp.1.1, _, h5, h6⟩
  simp only [arrowSeq, sp_cat] at h
  obtain ⟨j, h1, k, h2, h3⟩ := h
  rcases sp_sep h2 with ⟨rfl, rfl⟩ | ⟨hl, t, rfl, h4⟩
  · simp only [arrowSeq, sp_nil] at h3
    subst h3
    exact ⟨e, [], _, rfl, sub_assign hΓ ihe h1 (by rw [ho]; decide), .seqStop (by rw [ho]; decide),
      fun _ => rfl⟩
  · rcases ih.1 _ _ h3 ho (by simp only [List.all_cons, Bool.and_eq_true] at ha; exact ha.2) with
      ⟨h5, -⟩ | ⟨x, xs, m, rfl, h5, h6, -⟩
    · exact absurd h5 hl
    · refine ⟨e, x :: xs, _, rfl, sub_assign hΓ ihe h1 ?_, .seqMore h4 h5 h6, by simp⟩
      show stop2 true t.item.token = true; rw [h4]; decide

theorem seqFlags_arrow {es : List Expr} (h : (es.map FunctionArg.expr).all arrowArg = true) :
    (seqFlags es).2 = true := by
  induction es with
  | nil => rfl
  | cons e es ih =>
    simp only [List.map_cons, List.all_cons, Bool.and_eq_true, arrowArg] at h
    simp only [seqFlags, Flags.and, Bool.and_eq_true]
    exact ⟨h.1.1, ih h.2⟩

theorem plain_arrow {l : List FunctionArg} (h : l.all arrowArg = true) :
    l.all plainArg = true := by
  simp only [List.all_eq_true] at h ⊢
  intro a ha
  have := h a ha
  cases a with
  | expr e => simp only [arrowArg, Bool.and_eq_true] at this; exact this.2
  | pat q => simp [arrowArg] at this

theorem plain_rest {l : List FunctionArg} (h : restSeq l = true) : l.all plainArg = true := by
  induction l with
  | nil => rfl
  | cons a l ih =>
    cases a with
    | expr e =>
      simp only [restSeq, arrowArg, Bool.and_eq_true] at h
      simp only [List.all_cons, Bool.and_eq_true]
      exact ⟨h.1.2, ih h.2⟩
    | pat q =>
      cases l with
      | nil => cases q <;> first | rfl | simp [restSeq, isRest] at h
      | cons => simp [restSeq] at h

theorem arrow_head {ps} {t t' : Tok} {i o : List Tok} (hΓ : Γ.allowIn = true)
    (ih : ArrowSeqOk C Γ ps) (hp : arrowOk ps = true) (h : Sp C (arrowSeq Γ ps) i (t' :: o))
    (ht : Is t .openParen) (ht' : Is t' .closeParen) (ho : head o = .punct .fatArrow) :
    Core C Γ (.arrowHead ps) (t :: i) o ∧ ps.all plainArg = true := by
  unfold arrowOk at hp
  split at hp
  · simp only [arrowSeq, sp_nil] at h
    subst h
    exact ⟨.arrowNone ht ht' ho, rfl⟩
  · rename_i q
    cases q <;> simp only [isRest, Bool.false_eq_true] at hp
    simp only [arrowSeq, sp_cat] at h
    obtain ⟨j, h1, k, h2, h3⟩ := h
    have h2 := sp_nil.1 h2
    have h3 := sp_nil.1 h3
    subst h2 h3
    obtain ⟨u, k, rfl, h4, h5⟩ := ih.2.1 _ rfl _ _ h1
    have h5 := h5 true
    rw [within_true hΓ] at h5
    exact ⟨.arrowRest ht h4 h5 ht' ho, rfl⟩
  · rename_i e
    simp only [Bool.and_eq_true] at hp
    rcases ih.1 _ _ h ht' (by simpa using hp.1) with ⟨h1, -⟩ | ⟨x, es, j, h1, h2, -, h3⟩
    · cases h1
    · injection h1 with h1 h4
      injection h1 with h1
      subst h1
      cases es with
      | cons => cases h4
      | nil =>
        cases h3 rfl
        refine ⟨.arrowOne ht h2 ht' ho ?_ ?_, plain_arrow (by simpa using hp.1)⟩
        · simp only [arrowArg, Bool.and_eq_true] at hp; exact hp.1.1
        · rintro l rfl; simp [isSequence] at hp
  · rename_i hne0 hne1 hne2
    rcases Bool.or_eq_true_iff.1 hp with hp | hp
    rotate_left
    · match ps, ih, hp, h, hne1 with
      | [.pat _], _, _, _, hne => exact absurd rfl (hne _)
      | .expr e :: l, ih, hp, h, _ =>
        obtain ⟨h1, j, h2, h3⟩ := (ih.2.2 _ _ _ h ht' hp).2 _ _ rfl
        exact ⟨.arrowGroup ht h2 (fun _ => h1) h3 ho, plain_rest hp⟩
    rcases ih.1 _ _ h ht' hp with ⟨h1, -⟩ | ⟨x, es, j, rfl, h2, h3, -⟩
    · exact absurd h1 (by assumption)
    · refine ⟨.arrowMany ht h2 h3 ?_ ht' ho ?_, plain_arrow hp⟩
      · rintro rfl; exact hne2 x rfl
      · simp only [List.all_cons, Bool.and_eq_true, arrowArg] at hp
        simp only [Flags.and, Bool.and_eq_true]
        exact ⟨hp.1.1, seqFlags_arrow hp.2⟩

/-- What is proved of the parameters of an `async` arrow function. -/
def ArrowArgsOk (C : Cfg) (Γ : Env) (l : List FunctionArg) : Prop :=
  ∀ i o, Sp C (arrowArgs Γ l) i o → head o = .punct .closeParen →
    ∃ es : List Expr, l = es.map .expr ∧ l.all plainArg = true ∧ es.all notAwait = true ∧
      (es = [] ∧ i = o ∨ es ≠ [] ∧ Core C Γ (.argSeq es) i o)

theorem arrowArgs_nil : ArrowArgsOk C Γ [] := by
  intro i o h _
  simp only [arrowArgs, sp_nil] at h
  exact ⟨[], rfl, rfl, rfl, .inl ⟨rfl, h⟩⟩

theorem arrowArgs_pat {q l} : ArrowArgsOk C Γ (.pat q :: l) := by
  intro i o h _
  simp only [arrowArgs, sp_none] at h

theorem arrowArgs_expr {e l} (hΓ : Γ.allowIn = true) (ihe : ExprOk C Γ e)
    (ih : ArrowArgsOk C Γ l) : ArrowArgsOk C Γ (.expr e :: l) := by
  intro i o h ho
  simp only [arrowArgs, sp_cat, sp_only, Bool.and_eq_true] at h
  obtain ⟨j, ⟨⟨h1, h2⟩, h3⟩, k, h4, h5⟩ := h
  obtain ⟨es, rfl, h6, h7, h8⟩ := ih _ _ h5 ho
  refine ⟨e :: es, rfl, by simp [h1, h6], by simp [h2, h7], .inr ⟨by simp, ?_⟩⟩
  rcases sp_sep h4 with ⟨hl, rfl⟩ | ⟨hl, t, rfl, h9⟩
  · rcases h8 with ⟨rfl, rfl⟩ | ⟨h8, -⟩
    · exact .argLast (arg_ok hΓ ihe h3 (by rw [ho]; decide)) ho
    · exact absurd (List.map_eq_nil_iff.1 hl) h8
  · rcases h8 with ⟨rfl, -⟩ | ⟨-, h8⟩
    · exact absurd rfl hl
    · exact .argMore (arg_ok hΓ ihe h3 (by
        show stop2 true t.item.token = true; rw [h9]; decide)) h9 h8

theorem async_head {ps e r} {i j o : List Tok} (hΓ : Γ.allowIn = true) (ih : ArrowArgsOk C Γ ps)
    (h : Sp C (arrowHead r (arrowArgs Γ ps) true ps) i j)
    (hb : Core C Γ (.arrowBody true ps e) j o) :
    head i = .ident ∧ Core C Γ (.single (false, false) e) i o := by
  unfold arrowHead at h
  split at h
  · cases ‹true = false›
  · rename_i n _
    simp only [sp_cat, sp_cons, sp_nil, sp_only] at h
    obtain ⟨_, ⟨t, _, rfl, ⟨h1, h2, -, h3⟩, rfl⟩, -, h4⟩ := h
    obtain ⟨u, rfl, h5, rfl, h6, h7⟩ := name_ok h4
    obtain ⟨u', _, h8, h9⟩ := h3 rfl
    cases h8
    exact ⟨h1, .asyncArrow h1 h2 h5 h7 h9 hb⟩
  · simp only [inParens, sp_cat, sp_cons, sp_nil, matches_p] at h
    obtain ⟨_, ⟨t, _, rfl, ⟨h1, h2, -, h3⟩, rfl⟩, _, ⟨u, _, rfl, ⟨h4, -⟩, rfl⟩, k, h5, w, _, rfl,
      ⟨h6, -⟩, rfl⟩ := h
    obtain ⟨u', _, h8, h9⟩ := h3 rfl
    cases h8
    obtain ⟨es, rfl, k1, k2, k3⟩ := ih _ _ h5 h6
    refine ⟨h1, .asyncArrows h1 h2 h9 (toWithin hΓ ?_) k1 k2 hb⟩
    rcases k3 with ⟨rfl, rfl⟩ | ⟨-, k3⟩
    · exact .argsNone h4 h6
    · exact .args h4 k3 h6

/-- The arrow and what comes before it. -/
theorem arrow_ok {ps e a} {i j o : List Tok} (hΓ : Γ.allowIn = true) (ihp : ArrowSeqOk C Γ ps)
    (iha : ArrowArgsOk C Γ ps)
    (h : Sp C (arrowHead (arrowSeq Γ ps) (arrowArgs Γ ps) a ps) i j)
    (hj : head j = .punct .fatArrow) : front 2 (head i) = true ∧
      (Core C Γ (.arrowBody a ps e) j o → Core C Γ (.single (false, false) e) i o) := by
  cases a with
  | true =>
    constructor
    · have : head i = .ident := by
        have hh : ∃ r, Sp C (lit [async] +++ r) i j := by
          unfold arrowHead at h
          split at h
          · cases ‹true = false›
          · exact ⟨_, h⟩
          · exact ⟨_, h⟩
        obtain ⟨r, hh⟩ := hh
        simp only [sp_cat, sp_cons, sp_nil] at hh
        obtain ⟨_, ⟨t, _, rfl, ⟨h1, -⟩, rfl⟩, -⟩ := hh
        exact h1
      rw [this]; rfl
    · exact fun hb => (async_head hΓ iha h hb).2
  | false =>
    have h : Sp C (only (arrowOk ps) (inParens (arrowSeq Γ ps))) i j := by
      unfold arrowHead at h
      split at h
      · exact h
      · cases ‹false = true›
      · simp at *
    simp only [sp_only, inParens, sp_cat, sp_cons, sp_nil, matches_p] at h
    obtain ⟨g, _, ⟨t, _, rfl, ⟨h1, h2⟩, rfl⟩, k, h3, t', _, rfl, ⟨h4, -⟩, rfl⟩ := h
    obtain ⟨k1, k2⟩ := arrow_head hΓ ihp g h3 h1 h4 hj
    refine ⟨by show front 2 t.item.token = true; rw [h1]; rfl, fun hb => ?_⟩
    exact .singleArrows (show C.text t ≠ _ by rw [h2]; decide) (toWithin hΓ k1) k2 hb

theorem expr_arrowBlock {ps b x g a} (hΓ : Γ.allowIn = true) (ihp : ArrowSeqOk C Γ ps)
    (iha : ArrowArgsOk C Γ ps) (ihb : BodyOk C Γ b) : ExprOk C Γ (.arrowBlock ps b x g a) := by
  intro i o h _
  simp only [expr, sp_only, sp_cat, sp_cons, sp_nil, matches_p, Bool.and_eq_true] at h
  obtain ⟨⟨g1, g2⟩, j, h3, _, ⟨u, _, rfl, ⟨h5, -⟩, rfl⟩, h6⟩ := h
  have g1 : x = false := by simpa using g1
  have g2 : g = false := by simpa using g2
  subst g1 g2
  obtain ⟨k1, k2⟩ := arrow_ok hΓ ihp iha h3 h5
  exact ⟨fun h => absurd h (by simp [level]), k1, .single fun _ => k2
    (.arrowBlock h5 (toWithin hΓ (ihb _ _ h6)))⟩

theorem expr_arrowExpr {ps e x g a} (hΓ : Γ.allowIn = true) (ihp : ArrowSeqOk C Γ ps)
    (iha : ArrowArgsOk C Γ ps) (ihe : ExprOk C Γ e) : ExprOk C Γ (.arrowExpr ps e x g a) := by
  intro i o h ho
  simp only [expr, sp_only, sp_cat, sp_cons, sp_nil, matches_p, Bool.and_eq_true] at h
  obtain ⟨⟨g1, g2⟩, j, h3, _, ⟨u, _, rfl, ⟨h5, -⟩, rfl⟩, h6⟩ := h
  have g2 : g = false := by simpa using g2
  subst g1 g2
  obtain ⟨k1, k2⟩ := arrow_ok hΓ ihp iha h3 h5
  obtain ⟨⟨w, _, rfl, m1⟩, n, m2, m3⟩ := shield_ok (bad := badArrow) rfl hΓ ihe (by omega) h6 ho
  refine ⟨fun h => absurd h (by simp [level]), k1, .single fun hs => k2
    (.arrowExpr h5 ?_ (m3.assign m2 hs))⟩
  intro hh
  rw [show w.item.token = _ from hh] at m1
  cases m1

end Ressa.Print
