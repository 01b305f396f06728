import Verif.Spec.Print

/-!
# What a printed expression is good for

`W C Γ n f e i o`: the items from `i` to `o` print the expression `e` with the binding strength
`n`.  From it follow the phrases of `Core` of all weaker kinds, as far as the token after it allows.
-/

namespace Ressa.Print
open Ressa.Gr

/-! ## Spelling -/

variable {C : Cfg}

theorem sp_none {i o : List Tok} : Sp C none i o ↔ False := by
  simp [Sp]

theorem sp_nil {i o : List Tok} : Sp C (lit []) i o ↔ i = o := by
  simp [Sp, lit, Spelled]

theorem sp_cons {x : Pc} {l : List Pc} {i o : List Tok} :
    Sp C (lit (x :: l)) i o ↔ ∃ t j, i = t :: j ∧ Matches C x t j ∧ Sp C (lit l) j o := by
  simp [Sp, lit, Spelled]

theorem spelled_append {a b : List Pc} {i o : List Tok} :
    Spelled C (a ++ b) i o ↔ ∃ j, Spelled C a i j ∧ Spelled C b j o := by
  induction a generalizing i with
  | nil => simp [Spelled]
  | cons x a ih =>
    simp only [List.cons_append, Spelled, ih]
    constructor
    · rintro ⟨t, j, h, m, k, h1, h2⟩
      exact ⟨k, ⟨t, j, h, m, h1⟩, h2⟩
    · rintro ⟨k, ⟨t, j, h, m, h1⟩, h2⟩
      exact ⟨t, j, h, m, k, h1, h2⟩

theorem sp_cat {a b : Out} {i o : List Tok} :
    Sp C (a +++ b) i o ↔ ∃ j, Sp C a i j ∧ Sp C b j o := by
  cases a with
  | none => simp [Sp, cat]
  | some a =>
    cases b with
    | none => simp [Sp, cat]
    | some b => simp [Sp, cat, spelled_append]

theorem sp_only {c : Bool} {r : Out} {i o : List Tok} :
    Sp C (only c r) i o ↔ c = true ∧ Sp C r i o := by
  cases c <;> simp [only, Sp]

theorem matches_p {x : Punct} {t : Tok} {j : List Tok} :
    Matches C (p x) t j ↔ Is t x ∧ C.text t = x.text := by
  simp [Matches, p, tk, tokenText, Is]

theorem matches_k {x : Keyword} {t : Tok} {j : List Tok} :
    Matches C (k x) t j ↔ Kw t x ∧ C.text t = x.text := by
  simp [Matches, k, tk, tokenText, Kw]

theorem matches_word {w : Txt} {t : Tok} {j : List Tok} :
    Matches C (word w) t j ↔ t.item.token = wordToken w ∧ C.text t = w := by
  simp [Matches, word]

theorem sp_paren {l : List Pc} {i o : List Tok} (h : Sp C (some (paren l)) i o) :
    ∃ t j t', i = t :: j ∧ Is t .openParen ∧ C.text t = t!"(" ∧ Sp C (some l) j (t' :: o) ∧
      Is t' .closeParen := by
  simp only [paren, Sp, Option.some.injEq, exists_eq_left', Spelled, spelled_append,
    matches_p] at h
  obtain ⟨t, j, rfl, ⟨h1, h2⟩, k, h3, t', j', rfl, ⟨h4, -⟩, rfl⟩ := h
  exact ⟨t, j, t', rfl, h1, h2, ⟨l, rfl, h3⟩, h4⟩

theorem within_true {Γ : Env} (h : Γ.allowIn = true) : Γ.within true = Γ := by
  cases Γ; cases h; rfl

theorem toWithin {Γ : Env} {x : CT} {i o : List Tok} (h : Γ.allowIn = true)
    (hc : Core C Γ x i o) : Core C (Γ.within true) x i o := by
  rwa [within_true h]

/-! ## What may follow -/

/-- Nothing that continues a call or makes it an update. -/
def stop17 (t : Token) : Bool :=
  !callMore t && t != .punct .increment && t != .punct .decrement
/-- Nor `**`. -/
def stop15 (t : Token) : Bool := stop17 t && t != .punct .exponent
/-- Nor any binary operator. -/
def stop4 (b : Bool) (t : Token) : Bool := stop15 t && binPrecedence b t == 0
/-- Nor `?`. -/
def stop3 (b : Bool) (t : Token) : Bool := stop4 b t && t != .punct .questionMark
/-- Nor `=>` or an assignment. -/
def soft2 (b : Bool) (t : Token) : Bool :=
  stop3 b t && t != .punct .fatArrow && !isAssignOp t
/-- Nor an operand of `yield`. -/
def stop2 (b : Bool) (t : Token) : Bool := soft2 b t && !yieldStart t
/-- Nor a comma. -/
def stop0 (b : Bool) (t : Token) : Bool := stop2 b t && t != .punct .comma

/-- What printed expressions start with. -/
def starts : Token → Bool
  | .ident | .numeric | .string | .boolean _ | .regex => true
  | .template k => k == .head || k == .noSub
  | .punct p => p == .openParen || p == .openBracket || p == .openBrace || p == .plus ||
      p == .minus || p == .not || p == .bitwiseNot || p == .increment || p == .decrement
  | .keyword k => k == .this || k == .function || k == .class || k == .new || k == .super ||
      k == .typeOf || k == .void || k == .delete || k == .await || k == .yield
  | _ => false

/-- What expressions of the given strength start with. -/
def front (n : Nat) (t : Token) : Bool :=
  (starts t || decide (n < 20) && t == .keyword .let) && (decide (n < 2) || t != .keyword .yield) &&
    (decide (n < 17) || (unaryOperator t).isNone && t != .keyword .await) &&
    (decide (n < 18) || (t != .punct .increment && t != .punct .decrement)) &&
    (decide (n < 20) || (t != .keyword .new && t != .keyword .super))

theorem front_mono {n m : Nat} {t : Token} (h : front n t = true) (hm : m ≤ n) :
    front m t = true := by
  simp only [front, Bool.and_eq_true, Bool.or_eq_true, decide_eq_true_eq] at *
  obtain ⟨⟨⟨⟨h1, h0⟩, h2⟩, h3⟩, h4⟩ := h
  exact ⟨⟨⟨⟨h1.imp_right fun h => ⟨by omega, h.2⟩, h0.imp_left fun _ => by omega⟩, h2.imp_left fun _ => by omega⟩,
    h3.imp_left fun _ => by omega⟩, h4.imp_left fun _ => by omega⟩

/-! ## The facts -/

/-- See the head of the file. -/
inductive Fact (C : Cfg) (Γ : Env) (f : Flags) (e : Expr) (i o : List Tok) : Nat → Prop
  | primary : Core C (Γ.within true) (.primary f e) i o → Fact C Γ f e i o 20
  | member : (∀ e' o', Core C (Γ.within true) (.memTail e e') o o' →
        Core C (Γ.within true) (.member e') i o') →
      (∀ f' e' o', Core C (Γ.within true) (.callTail false f e f' e') o o' →
        Core C Γ (.call f' e') i o') → Fact C Γ f e i o 19
  | call : (∀ f' e' o', Core C (Γ.within true) (.callTail false f e f' e') o o' →
      Core C Γ (.call f' e') i o') → Fact C Γ f e i o 18
  | update : (stop17 (head o) = true → Core C Γ (.update f e) i o) → Fact C Γ f e i o 17
  | unary : (stop17 (head o) = true → Core C Γ (.unary f e) i o) → Fact C Γ f e i o 16
  | expo : (stop15 (head o) = true → Core C Γ (.expo f e) i o) → Fact C Γ f e i o 15
  | ops {n} : 4 ≤ n → n ≤ 14 → (stop15 (head o) = true → ∃ f' x l j, Core C Γ (.expo f' x) i j ∧
      (∀ l' o', Core C Γ (.opTail l') o o' → Core C Γ (.opTail (l ++ l')) j o') ∧
      Groups x l e ∧ (∀ p ∈ l, n ≤ p.1.level + 3) ∧ l ≠ [] ∧ f = (false, false)) →
      Fact C Γ f e i o n
  | cond : (stop2 Γ.allowIn (head o) = true → Core C Γ (.cond f e) i o) → Fact C Γ f e i o 3
  | single : (stop2 Γ.allowIn (head o) = true → Core C Γ (.single f e) i o) → Fact C Γ f e i o 2
  | assign : (stop2 Γ.allowIn (head o) = true → Core C Γ (.assign f e) i o) → Fact C Γ f e i o 1
  | sequence {l j g g' x} : e = .sequence (x :: l) → l ≠ [] → f = g.and g' →
      Core C Γ (.assign g x) i j → (stop0 Γ.allowIn (head o) = true → Core C Γ (.seqTail g' l) j o) →
      Fact C Γ f e i o 0

/-- See the head of the file. -/
structure W (C : Cfg) (Γ : Env) (n : Nat) (f : Flags) (e : Expr) (i o : List Tok) : Prop where
  other : 18 ≤ n → C.other t!"async" i
  front : front n (head i) = true
  fact : Fact C Γ f e i o n

namespace W

variable {Γ : Env} {n : Nat} {f : Flags} {e : Expr} {i o : List Tok}

theorem not_new (h : W C Γ n f e i o) (hn : 20 ≤ n) :
    head i ≠ .keyword .new ∧ head i ≠ .keyword .super := by
  have := front_mono h.front hn
  constructor <;> intro hh <;> rw [hh] at this <;> exact absurd this (by decide)

theorem member (h : W C Γ n f e i o) (hn : 19 ≤ n) {e' : Expr} {o' : List Tok}
    (ht : Core C (Γ.within true) (.memTail e e') o o') :
    Core C (Γ.within true) (.member e') i o' := by
  have h0 := h.fact
  cases h0 with
  | primary hp => exact .member (h.not_new (by omega)).2 (.opPrimary hp (h.not_new (by omega)).1) ht
  | member hm => exact hm _ _ ht
  | _ => omega

theorem call (h : W C Γ n f e i o) (hn : 18 ≤ n) {f' : Flags} {e' : Expr} {o' : List Tok}
    (ht : Core C (Γ.within true) (.callTail false f e f' e') o o') : Core C Γ (.call f' e') i o' := by
  have h0 := h.fact
  cases h0 with
  | primary hp =>
    exact .call (fun _ => h.other hn) (h.not_new (by omega)).2 (.opPrimary hp (h.not_new (by omega)).1) ht
  | member _ hc => exact hc _ _ _ ht
  | call hc => exact hc _ _ _ ht
  | _ => omega

theorem update (h : W C Γ n f e i o) (hn : 17 ≤ n) (hs : stop17 (head o) = true) :
    Core C Γ (.update f e) i o := by
  by_cases hm : 18 ≤ n
  · have hf := front_mono h.front hm
    refine .updNone (h.call hm (.callStop ?_)) ?_ ?_ (.inr ⟨?_, ?_⟩)
    · simp only [stop17, Bool.and_eq_true] at hs
      simpa using hs.1.1
    · intro hh; rw [hh] at hf; exact absurd hf (by decide)
    · intro hh; rw [hh] at hf; exact absurd hf (by decide)
    · intro hh; rw [hh] at hs; exact absurd hs (by decide)
    · intro hh; rw [hh] at hs; exact absurd hs (by decide)
  · have h0 := h.fact
    cases h0 with
    | update hu => exact hu hs
    | _ => omega

theorem unary (h : W C Γ n f e i o) (hn : 16 ≤ n) (hs : stop17 (head o) = true) :
    Core C Γ (.unary f e) i o := by
  by_cases hm : 17 ≤ n
  · have hf := front_mono h.front hm
    refine .unaryUpdate ?_ ?_ (h.update hm hs)
    · simp only [Print.front, Bool.and_eq_true, Bool.or_eq_true] at hf
      simpa using (hf.1.1.2.resolve_left (by decide)).1
    · intro _ hh; rw [hh] at hf; exact absurd hf (by decide)
  · have h0 := h.fact
    cases h0 with
    | unary hu => exact hu hs
    | _ => omega

theorem expo (h : W C Γ n f e i o) (hn : 15 ≤ n) (hs : stop15 (head o) = true) :
    Core C Γ (.expo f e) i o := by
  by_cases hm : 16 ≤ n
  · simp only [stop15, Bool.and_eq_true] at hs
    refine .expoOne (h.unary hm hs.1) ?_
    simpa using hs.2
  · have h0 := h.fact
    cases h0 with
    | expo hu => exact hu hs
    | _ => omega

theorem ops (h : W C Γ n f e i o) (hn : 4 ≤ n) (hs : stop15 (head o) = true) :
    ∃ f' x l j, Core C Γ (.expo f' x) i j ∧
      (∀ l' o', Core C Γ (.opTail l') o o' → Core C Γ (.opTail (l ++ l')) j o') ∧
      Groups x l e ∧ (∀ p ∈ l, n ≤ p.1.level + 3) ∧
      (l = [] ∧ f' = f ∧ x = e ∧ j = o ∨ l ≠ [] ∧ f = (false, false)) := by
  by_cases hm : 15 ≤ n
  · exact ⟨f, e, [], o, h.expo hm hs, fun _ _ h => h, .one, by simp, .inl ⟨rfl, rfl, rfl, rfl⟩⟩
  · have h0 := h.fact
    cases h0 with
    | ops _ _ hb =>
      obtain ⟨f', x, l, j, h1, h2, h3, h4, h5⟩ := hb hs
      exact ⟨f', x, l, j, h1, h2, h3, h4, .inr h5⟩
    | _ => omega

theorem bin (h : W C Γ n f e i o) (hn : 4 ≤ n) (hs : stop4 Γ.allowIn (head o) = true) :
    Core C Γ (.bin f e) i o := by
  simp only [stop4, Bool.and_eq_true, beq_iff_eq] at hs
  obtain ⟨f', x, l, j, h1, h2, h3, -, h5⟩ := h.ops hn hs.1
  rcases h5 with ⟨rfl, rfl, rfl, rfl⟩ | ⟨h5, rfl⟩
  · exact .binOne h1 hs.2
  · exact .bin h1 (by simpa using h2 [] o (.opStop hs.2)) h5 h3

theorem cond (h : W C Γ n f e i o) (hn : 4 ≤ n) (hs : stop3 Γ.allowIn (head o) = true) :
    Core C Γ (.cond f e) i o := by
  simp only [stop3, Bool.and_eq_true] at hs
  exact .condOne (h.bin hn hs.1) (by simpa using hs.2)

theorem not_yield (h : W C Γ n f e i o) (hn : 2 ≤ n) : head i ≠ .keyword .yield := by
  have hf := front_mono h.front hn
  intro hh; rw [hh] at hf; exact absurd hf (by decide)

theorem stop2_soft2 {b : Bool} {t : Token} (h : stop2 b t = true) : soft2 b t = true ∧
    t ≠ .ident ∧ t ≠ .keyword .yield := by
  simp only [stop2, Bool.and_eq_true] at h
  refine ⟨h.1, ?_, ?_⟩ <;> rintro rfl <;> exact absurd h.2 (by decide)

theorem single_soft (h : W C Γ n f e i o) (hn : 4 ≤ n) (hs : soft2 Γ.allowIn (head o) = true)
    (ha : C.other t!"async" i ∨ head o ≠ .ident ∧ head o ≠ .keyword .yield) :
    Core C Γ (.single f e) i o := by
  simp only [soft2, Bool.and_eq_true] at hs
  exact .singleCond ha (h.not_yield (by omega)) (h.cond hn hs.1.1) (by simpa using hs.1.2)
    (by simpa using hs.2)

theorem single (h : W C Γ n f e i o) (hn : 2 ≤ n) (hs : stop2 Γ.allowIn (head o) = true) :
    Core C Γ (.single f e) i o := by
  obtain ⟨hs', ha⟩ := stop2_soft2 hs
  by_cases hm : 4 ≤ n
  · exact h.single_soft hm hs' (.inr ha)
  · have h0 := h.fact
    cases h0 with
    | single hu => exact hu hs
    | cond hu =>
      simp only [soft2, Bool.and_eq_true] at hs'
      exact .singleCond (.inr ha) (h.not_yield (by omega)) (hu hs) (by simpa using hs'.1.2)
        (by simpa using hs'.2)
    | _ => omega

theorem assign (h : W C Γ n f e i o) (hn : 1 ≤ n) (hs : stop2 Γ.allowIn (head o) = true) :
    Core C Γ (.assign f e) i o := by
  by_cases hm : 2 ≤ n
  · exact .assign (h.single hm hs)
  · have h0 := h.fact
    cases h0 with
    | assign hu => exact hu hs
    | _ => omega

theorem stop0_stop2 {b : Bool} {t : Token} (h : stop0 b t = true) :
    stop2 b t = true ∧ t ≠ .punct .comma := by
  simpa [stop0] using h

theorem expression (h : W C Γ n f e i o) (hs : stop0 Γ.allowIn (head o) = true) :
    Core C Γ (.expression e) i o := by
  by_cases hm : 1 ≤ n
  · exact .expression (h.assign hm (stop0_stop2 hs).1) (stop0_stop2 hs).2
  · have h0 := h.fact
    cases h0 with
    | sequence he hl _ h1 h2 => subst he; exact .sequence h1 (h2 hs) hl
    | _ => omega

/-- In parentheses everything is a primary expression. -/
theorem paren {t t' : Tok} (h : W C Γ n f e i (t' :: o)) (hΓ : Γ.allowIn = true)
    (ht : Is t .openParen) (hx : C.text t = t!"(") (ht' : Is t' .closeParen)
    (ho : head o ≠ .punct .fatArrow) : W C Γ 20 f e (t :: i) o := by
  have hs : stop0 Γ.allowIn (head (t' :: o)) = true := by
    rw [hΓ]; show stop0 true t'.item.token = true; rw [ht']; rfl
  refine ⟨fun _ => by simp only [Cfg.other, hx]; decide, by show Print.front 20 t.item.token = true; rw [ht]; rfl,
    .primary ?_⟩
  rw [within_true hΓ]
  by_cases hm : 1 ≤ n
  · exact .primGroup ht (h.assign hm (stop0_stop2 hs).1) ht' ho
  · have h0 := h.fact
    cases h0 with
    | sequence he hl hf h1 h2 => subst he hf; exact .primSequence ht h1 (h2 hs) hl ht' ho
    | _ => omega

/-- A primary expression does not depend on the operator `in`. -/
theorem within (h : W C Γ 20 f e i o) (b : Bool) : W C (Γ.within b) 20 f e i o := by
  have h0 := h.fact
  refine ⟨h.other, h.front, ?_⟩
  cases h0 with
  | primary hp => exact .primary hp
  | ops => omega

end W

/-! ## Operands -/

/-- What is proved of a printed expression. -/
def Result (C : Cfg) (Γ : Env) (i o : List Tok) : Expr → Prop
  | .super => ∃ t, i = t :: o ∧ Kw t .super ∧ C.text t ≠ t!"async" ∧ Γ.inFn = true
  | .spread x => ∃ t j n, i = t :: j ∧ Is t .spread ∧ 1 ≤ n ∧ W C Γ n (flags x) x j o
  | e => W C Γ (level e) (flags e) e i o

/-- Every spelling of the expression is good. -/
def ExprOk (C : Cfg) (Γ : Env) (e : Expr) : Prop :=
  ∀ i o, Sp C (expr Γ e) i o → head o ≠ .punct .fatArrow → Result C Γ i o e

theorem Result.w {Γ : Env} {e : Expr} {i o : List Tok} (h : Result C Γ i o e)
    (he : isSpecial e = false) : W C Γ (level e) (flags e) e i o := by
  cases e <;> first | exact h | cases he

theorem sub_ok {Γ : Env} {e : Expr} {m : Nat} {i o : List Tok} (hΓ : Γ.allowIn = true)
    (ih : ExprOk C Γ e) (hm : m ≤ 20) (h : Sp C (sub m e (expr Γ e)) i o)
    (ho : head o ≠ .punct .fatArrow) :
    isSpecial e = false ∧ ∃ n, m ≤ n ∧ (n = level e ∨ n = 20) ∧ W C Γ n (flags e) e i o := by
  rw [sub, sp_only] at h
  obtain ⟨he, h⟩ := h
  have he : isSpecial e = false := by simpa using he
  refine ⟨he, ?_⟩
  cases hp : expr Γ e with
  | none => simp [hp, Sp] at h
  | some l =>
    rw [hp, Option.map_some] at h
    by_cases hl : m ≤ level e
    · rw [if_pos hl, ← hp] at h
      exact ⟨_, hl, .inl rfl, (ih _ _ h ho).w he⟩
    · rw [if_neg hl] at h
      obtain ⟨t, j, t', rfl, h1, h2, h3, h4⟩ := sp_paren h
      rw [← hp] at h3
      refine ⟨20, hm, .inr rfl, ((ih _ _ h3 ?_).w he).paren hΓ h1 h2 h4 ho⟩
      show t'.item.token ≠ _
      rw [h4]; decide

theorem level_le (e : Expr) : level e ≤ 20 := by
  cases e
  case binary o l r => simp only [level]; cases o <;> decide
  case logical o l r => simp only [level]; cases o <;> decide
  case function f => cases f; simp only [level]; split <;> omega
  all_goals simp only [level] <;> first | omega | (split <;> omega)

theorem soft2_arrow {b : Bool} {t : Token} (h : soft2 b t = true) : t ≠ .punct .fatArrow := by
  rintro rfl; revert h; simp [soft2]

theorem stop2_arrow {b : Bool} {t : Token} (h : stop2 b t = true) : t ≠ .punct .fatArrow :=
  soft2_arrow (W.stop2_soft2 h).1

/-- A concrete token. -/
macro "tok" h:term : term => `(by simp only [head, ($h : _)]; decide)

section Subs
variable {Γ : Env} {e : Expr} {i o : List Tok}

theorem sub_assign (hΓ : Γ.allowIn = true) (ih : ExprOk C Γ e)
    (h : Sp C (sub 1 e (expr Γ e)) i o) (hs : stop2 true (head o) = true) :
    Core C Γ (.assign (flags e) e) i o := by
  obtain ⟨-, n, h1, -, h2⟩ := sub_ok hΓ ih (by omega) h (stop2_arrow hs)
  exact h2.assign h1 (hΓ ▸ hs)

theorem sub_single (hΓ : Γ.allowIn = true) (ih : ExprOk C Γ e)
    (h : Sp C (sub 2 e (expr Γ e)) i o) (hs : stop2 true (head o) = true) :
    Core C Γ (.single (flags e) e) i o := by
  obtain ⟨-, n, h1, -, h2⟩ := sub_ok hΓ ih (by omega) h (stop2_arrow hs)
  exact h2.single h1 (hΓ ▸ hs)

theorem sub_expression (hΓ : Γ.allowIn = true) (ih : ExprOk C Γ e)
    (h : Sp C (sub 0 e (expr Γ e)) i o) (hs : stop0 true (head o) = true) :
    Core C Γ (.expression e) i o := by
  obtain ⟨-, n, h1, -, h2⟩ := sub_ok hΓ ih (by omega) h (stop2_arrow (W.stop0_stop2 hs).1)
  exact h2.expression (hΓ ▸ hs)

theorem sub_closed (hΓ : Γ.allowIn = true) (ih : ExprOk C Γ e)
    (h : Sp C (sub 20 e (expr Γ e)) i o) (ho : head o ≠ .punct .fatArrow) (b : Bool) :
    W C (Γ.within b) 20 (flags e) e i o := by
  obtain ⟨-, n, h1, h3, h2⟩ := sub_ok hΓ ih (by omega) h ho
  have : n = 20 := by have := level_le e; omega
  subst this
  exact h2.within b

theorem sub_closed_single (hΓ : Γ.allowIn = true) (ih : ExprOk C Γ e)
    (h : Sp C (sub 20 e (expr Γ e)) i o) (b : Bool) (hs : soft2 b (head o) = true) :
    Core C (Γ.within b) (.single (flags e) e) i o :=
  have hw := sub_closed hΓ ih h (soft2_arrow hs) b
  hw.single_soft (by omega) hs (.inl (hw.other (by omega)))

theorem sub_closed_assign (hΓ : Γ.allowIn = true) (ih : ExprOk C Γ e)
    (h : Sp C (sub 20 e (expr Γ e)) i o) (b : Bool) (hs : soft2 b (head o) = true) :
    Core C (Γ.within b) (.assign (flags e) e) i o :=
  .assign (sub_closed_single hΓ ih h b hs)

theorem sub_closed_expression (hΓ : Γ.allowIn = true) (ih : ExprOk C Γ e)
    (h : Sp C (sub 20 e (expr Γ e)) i o) (hs : soft2 true (head o) = true)
    (hc : head o ≠ .punct .comma) : Core C Γ (.expression e) i o := by
  have h1 := sub_closed_assign hΓ ih h true hs
  rw [within_true hΓ] at h1
  exact .expression h1 hc

theorem arg_ok (hΓ : Γ.allowIn = true) (ih : ExprOk C Γ e)
    (h : Sp C (arg e (expr Γ e)) i o) (hs : stop2 true (head o) = true) :
    Core C Γ (.arg e) i o := by
  rw [arg] at h
  split at h
  · cases e <;> simp only [isSpread, Bool.false_eq_true] at *
    obtain ⟨t, j, n, rfl, h1, h2, h3⟩ := ih _ _ h (stop2_arrow hs)
    exact .argSpread h1 (h3.assign h2 (hΓ ▸ hs))
  · exact .arg (sub_assign hΓ ih h hs)

theorem shield_ok {m : Nat} {bad : Token → Txt → Bool}
    (hb : bad (.punct .openParen) t!"(" = false)
    (hΓ : Γ.allowIn = true) (ih : ExprOk C Γ e) (hm : m ≤ 20)
    (h : Sp C (shield bad (sub m e (expr Γ e))) i o) (ho : head o ≠ .punct .fatArrow) :
    (∃ t j, i = t :: j ∧ bad t.item.token (C.text t) = false) ∧
      ∃ n, m ≤ n ∧ W C Γ n (flags e) e i o := by
  rw [shield] at h
  cases hp : sub m e (expr Γ e) with
  | none => simp [hp, Sp] at h
  | some l =>
    rw [hp, Option.map_some] at h
    by_cases hl : (l.isEmpty || startsWith bad l) = true
    · rw [if_pos hl] at h
      obtain ⟨t, j, t', rfl, h1, h2, h3, h4⟩ := sp_paren h
      rw [← hp] at h3
      have h5 : head (t' :: o) ≠ .punct .fatArrow := by
        show t'.item.token ≠ _; rw [h4]; decide
      obtain ⟨-, n, -, -, h6⟩ := sub_ok hΓ ih hm h3 h5
      exact ⟨⟨t, j, rfl, by rw [h1, h2, hb]⟩, 20, hm, h6.paren hΓ h1 h2 h4 ho⟩
    · rw [if_neg hl] at h
      refine ⟨?_, ?_⟩
      · cases l with
        | nil => simp at hl
        | cons x l =>
          obtain ⟨l', hl', h⟩ := h
          cases hl'
          obtain ⟨t, j, rfl, ⟨h1, h2, -⟩, -⟩ := h
          refine ⟨t, j, rfl, ?_⟩
          rw [h1, h2]
          simpa [startsWith] using hl
      · obtain ⟨-, n, h7, -, h6⟩ := sub_ok hΓ ih hm (hp ▸ h) ho
        exact ⟨n, h7, h6⟩

end Subs

end Ressa.Print
