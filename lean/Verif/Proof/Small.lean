import Verif.Spec.Small
import Verif.Proof.PrintOps

/-!
# The small language is accepted
-/

namespace Ressa.Gr

open Print

variable {C : Cfg} {fns : Bool}

/-- A regular expression begins with `/`, a template is in backquotes. -/
def wordOk (C : Cfg) (t : Tok) : Prop :=
  (t.item.token = .regex → ∃ w, C.text t = '/' :: w) ∧
    (t.item.token = .template .noSub → ∃ w, C.text t = '`' :: (w ++ ['`']))

/-- A text with well-formed regular expressions and templates. -/
def Ready (C : Cfg) (fns : Bool) : List Tok → Prop
  | [] => True
  | t :: r => smallToken fns t.item.token = true ∧ C.text t ≠ t!"async" ∧ C.text t ≠ t!"await" ∧
      (t.nl = true → smallLine t.item.token = true) ∧
      (∀ t' r', r = t' :: r' → smallPair t.item.token t'.item.token = true ∧
        (fns = true → fnPair t.item.token t'.item.token = true)) ∧
      (t.item.token = .keyword .function → plainHead r = true) ∧
      (t.item.token = .keyword .catch → head r = .punct .openBrace ∨ plainHead r = true) ∧
      (t.item.token = .keyword .for → forOk C r) ∧
      wordOk C t ∧ letOk C t r ∧ Ready C fns r

theorem Ready.of {l : List Tok} (h : SmallText C fns l) (hw : ∀ t ∈ l, wordOk C t) :
    Ready C fns l := by
  induction l with
  | nil => trivial
  | cons t l ih =>
    obtain ⟨h1, h2, h3, h4, h5, h6, h7, h8, h9, h10⟩ := h
    exact ⟨h1, h2, h3, h4, h5, h6, h7, h8, hw t (by simp), h9,
      ih h10 fun x hx => hw x (by simp [hx])⟩

theorem Ready.tail {t : Tok} {i : List Tok} (h : Ready C fns (t :: i)) : Ready C fns i :=
  h.2.2.2.2.2.2.2.2.2.2

theorem Ready.letOk {t : Tok} {i : List Tok} (h : Ready C fns (t :: i)) : letOk C t i :=
  h.2.2.2.2.2.2.2.2.2.1

theorem Ready.suffix {u o : List Tok} (h : Ready C fns (u ++ o)) : Ready C fns o := by
  induction u with
  | nil => exact h
  | cons t u ih => exact ih h.tail

theorem Ready.token {i : List Tok} (h : Ready C fns i) :
    smallToken fns (head i) = true := by
  cases i with
  | nil => rfl
  | cons t i => exact h.1

theorem smallToken_true {t : Token} (h : smallToken fns t = true) : smallToken true t = true := by
  cases fns with
  | true => exact h
  | false =>
    cases t with
    | keyword k => cases k <;> first | rfl | cases h
    | template k => cases k <;> first | rfl | cases h
    | _ => exact h

theorem ends_text {j o : List Tok} (h : C.ends j o) (hj : Ready C fns j) : Ready C fns o := by
  rcases h with ⟨t, -, rfl⟩ | ⟨rfl, -⟩
  · exact hj.tail
  · exact hj

theorem Small.text {f ls k i o} (h : Small C f ls k i o) : Ready C fns i → Ready C fns o := by
  have hd : ∀ {t : Tok} {i : List Tok}, Ready C fns (t :: i) → Ready C fns i :=
    fun h => h.tail
  have he : ∀ {j o : List Tok}, C.ends j o → Ready C fns j → Ready C fns o := ends_text
  induction h <;> intro hi <;> grind

theorem Small.forOk {f ls k i o} (h : Small C f ls k i o) : forOk C i → forOk C o := by
  have hd : ∀ {t : Tok} {i : List Tok}, Gr.forOk C (t :: i) → Gr.forOk C i := fun h => h.2.2
  have he : ∀ {j o : List Tok}, C.ends j o → Gr.forOk C j → Gr.forOk C o := by
    rintro j o (⟨t, -, rfl⟩ | ⟨rfl, -⟩) h
    · exact h.2.2
    · exact h
  induction h <;> intro hi <;> grind

theorem forOk_other {t : Tok} {i : List Tok} (h : forOk C (t :: i)) : C.other t!"of" (t :: i) := h.1

/-- What an expression starts with. -/
def smallStart : Token → Bool
  | .ident | .numeric | .string | .boolean _ | .regex | .template .noSub => true
  | .punct p => p == .openParen || p == .openBracket || p == .plus || p == .minus || p == .not ||
      p == .bitwiseNot || p == .increment || p == .decrement
  | .keyword k => k == .this || k == .function || k == .new || k == .typeOf || k == .void ||
      k == .delete || k == .let
  | _ => false

theorem smallStart_stmt {t : Token} (h : smallStart t = true) (hf : t ≠ .keyword .function) :
    exprStmtStart t = true ∧ (t ≠ .keyword .let → itemIsStmt t = true) := by
  cases t with
  | punct p => cases p <;> first | (cases h; done) | exact ⟨rfl, fun _ => rfl⟩
  | keyword k =>
    cases k <;> first | (cases h; done) | exact ⟨rfl, fun _ => rfl⟩ | exact absurd rfl hf |
      exact ⟨rfl, fun h => absurd rfl h⟩
  | _ => first | (cases h; done) | exact ⟨rfl, fun _ => rfl⟩

theorem smallStart_init {i : List Tok} (h : smallStart (head i) = true) :
    head i ≠ .keyword .var ∧ head i ≠ .keyword .const := by
  refine ⟨?_, ?_⟩ <;> intro hh <;> rw [hh] at h <;> cases h

theorem smallStart_other {i : List Tok} (h : smallStart (head i) = true) (hi : Ready C fns i) :
    C.other t!"async" i := by
  cases i with
  | nil => cases h
  | cons t i => exact hi.2.1

theorem soft2_any {b : Bool} {t : Token} (h : soft2 true t = true) : soft2 b t = true := by
  cases b with
  | true => exact h
  | false =>
    cases t with
    | keyword k => cases k <;> first | rfl | cases h
    | template k => cases k <;> first | rfl | cases h
    | _ => exact h

theorem ends_semi {Γ : Env} {b : Bool} {j o : List Tok} (h : C.ends j o)
    (hj : Ready C fns j) : soft2 b (head j) = true ∧ head j ≠ .punct .comma ∧ head j ≠ .punct .colon ∧
      Core C Γ .semi j o := by
  suffices hs : soft2 true (head j) = true ∧ head j ≠ .punct .comma ∧ head j ≠ .punct .colon ∧
      Core C Γ .semi j o from ⟨soft2_any hs.1, hs.2⟩
  rcases h with ⟨t, ht, rfl⟩ | ⟨rfl, h⟩
  · have : head (t :: o) = .punct .semiColon := ht
    rw [this]
    exact ⟨rfl, nofun, nofun, .semiToken ht⟩
  · by_cases hn : C.nl j = true
    · cases j with
      | nil => exact ⟨rfl, nofun, nofun, .semiEnd (.inl rfl)⟩
      | cons t j =>
        have h1 := smallToken_true hj.1
        have h2 := hj.2.2.2.1 hn
        have : soft2 true t.item.token = true ∧ t.item.token ≠ .punct .comma ∧
            t.item.token ≠ .punct .colon ∧ t.item.token ≠ .punct .semiColon := by
          revert h1 h2
          generalize t.item.token = x
          intro h1 h2
          cases x with
          | punct p => cases p <;> first | (cases h2; done) | exact ⟨rfl, nofun, nofun, nofun⟩
          | keyword k =>
            cases k <;> first | (cases h1; done) | (cases h2; done) | exact ⟨rfl, nofun, nofun, nofun⟩
          | _ => first | (cases h1; done) | (cases h2; done) | exact ⟨rfl, nofun, nofun, nofun⟩
        exact ⟨this.1, this.2.1, this.2.2.1, .semiLine hn this.2.2.2⟩
    · have h' := h.resolve_left hn
      refine ⟨?_, ?_, ?_, .semiEnd h'.symm⟩ <;> rcases h' with h | h <;> rw [h] <;>
        first | rfl | nofun

/-- A comma, or the end of a list. -/
theorem soft2_comma {b : Bool} {t : Tok} {j : List Tok} (h : Is t .comma) :
    soft2 b (head (t :: j)) = true := by
  show soft2 b t.item.token = true
  rw [h]; cases b <;> rfl

theorem soft2_close {b : Bool} {t : Tok} {p : Punct} {j : List Tok} (h : Is t p)
    (hp : p = .closeParen ∨ p = .closeBracket ∨ p = .colon ∨ p = .semiColon) :
    soft2 b (head (t :: j)) = true ∧ head (t :: j) ≠ .punct .comma := by
  show soft2 b t.item.token = true ∧ t.item.token ≠ _
  rw [h]; rcases hp with rfl | rfl | rfl | rfl <;> cases b <;> exact ⟨rfl, nofun⟩

mutual
theorem target_flags : ∀ e, target e = true → (flags e).1 = true ∧ isSpread e = false
  | .ident _, _ => ⟨rfl, rfl⟩
  | .member _ _ _, _ => ⟨rfl, rfl⟩
  | .assignment op l r, h => by
    cases op <;> simp only [target, Bool.false_eq_true] at h
    simp only [flags]; exact ⟨(target_flags l h).1, rfl⟩
  | .sequence l, h => by
    simp only [target] at h
    simp only [flags]; exact ⟨targets_flags l h, rfl⟩
  | .array l, h => by
    simp only [target] at h
    simp only [flags]; exact ⟨targetElems_flags l h, rfl⟩
  | .template _ _, h => ⟨by simp only [flags], rfl⟩
  | .taggedTemplate e _ _, h => by
    simp only [target] at h
    simp only [flags]; exact ⟨(target_flags e h).1, rfl⟩
  | .this, h | .super, h | .literal _, h | .object _, h
  | .function _, h | .class _, h | .metaProperty _ _, h | .new _ _, h
  | .call _ _, h | .unary _ _ _, h | .update _ _ _, h | .binary _ _ _, h
  | .logical _ _ _, h | .conditional _ _ _, h | .arrowBlock _ _ _ _ _, h | .arrowExpr _ _ _ _ _, h
  | .yield _ _, h | .await _, h | .spread _, h | .arrowParamPlaceHolder _ _, h => by
    simp [target] at h
theorem targets_flags : ∀ l, targets l = true → (seqFlags l).1 = true
  | [], _ => rfl
  | e :: l, h => by
    simp only [targets, Bool.and_eq_true] at h
    simp only [seqFlags, Flags.and, Bool.and_eq_true]
    exact ⟨(target_flags e h.1).1, targets_flags l h.2⟩
theorem targetElems_flags : ∀ l, targetElems l = true → (elemFlags l).1 = true
  | [], _ => rfl
  | none :: l, h => by
    simp only [targetElems] at h
    simp only [elemFlags]; exact targetElems_flags l h
  | some e :: l, h => by
    simp only [targetElems, Bool.and_eq_true] at h
    have h1 := target_flags e h.1
    simp only [elemFlags, h1.2, Bool.false_and, Bool.false_eq_true, if_false, Flags.and,
      Bool.and_eq_true]
    exact ⟨h1.1, targetElems_flags l h.2⟩
end

/-- The environment at a place, inside labels. -/
abbrev envOf (f : Place) (ls : List Txt) : Env :=
  { strict := false, await := false, inFn := f.fn, allowIn := f.inOk, labels := ls.map ('$' :: ·) }

/-- A comma list, as the tail of a sequence. -/
def SeqCore (C : Cfg) (Γ : Env) (l : List Expr) (i o : List Tok) : Prop :=
  ∃ x l' f g j, l = x :: l' ∧ seqFlags l = f.and g ∧ Core C Γ (.assign f x) i j ∧
    Core C Γ (.seqTail g l') j o

/-- The end of a case clause. -/
def caseEnd (o : List Tok) : Prop :=
  head o = .punct .closeBrace ∨ head o = .keyword .default ∨ head o = .keyword .case

/-- What is proved of each kind of phrase. -/
def Fit (C : Cfg) (Γ : Env) (i o : List Tok) : SK → Prop
  | .expr n e => smallStart (head i) = true ∧ isSpread e = false ∧
      (4 ≤ n → ∃ m, n ≤ m ∧ W C Γ m (flags e) e i o) ∧
      (1 ≤ n → soft2 Γ.allowIn (head o) = true → Core C Γ (.assign (flags e) e) i o) ∧
      (soft2 Γ.allowIn (head o) = true → head o ≠ .punct .comma →
        Core C Γ (.assign (flags e) e) i o ∨
          ∃ l, e = .sequence l ∧ 2 ≤ l.length ∧ SeqCore C Γ l i o)
  | .list l => smallStart (head i) = true ∧
      (head o = .punct .closeParen → Core C Γ (.argSeq l) i o) ∧
      (soft2 Γ.allowIn (head o) = true → head o ≠ .punct .comma → SeqCore C Γ l i o)
  | .elems l => head o = .punct .closeBracket → Core C Γ (.elems (elemFlags l) l) i o
  | .args l => Core C Γ (.args l) i o ∧ head i = .punct .openParen
  | .fnName n => Core C Γ (.declName true n) i o ∧ Core C Γ (.exprName n) i o ∧
      head i ≠ .punct .asterisk
  | .names l => head o = .punct .closeParen →
      ∃ b, Core C Γ (.paramSeq b (l.map fun n => .pat (.identifier n))) i o
  | .params l => ∃ b, Core C Γ (.params b (l.map fun n => .pat (.identifier n))) i o
  | .fn g => head i = .keyword .function ∧ Core C Γ (.fnDecl true g) i o ∧
      Core C Γ (.fnExpr (.function g)) i o
  | .decl d => ∀ a b, soft2 Γ.allowIn (head o) = true → Core C Γ (.varD a b d) i o
  | .decls l => ∀ a b, soft2 Γ.allowIn (head o) = true → head o ≠ .punct .comma →
      Core C Γ (.varDs a b l) i o
  | .lex k d => ∀ b, soft2 Γ.allowIn (head o) = true → Core C Γ (.lexD k b d) i o
  | .lexs k l => ∀ b, soft2 Γ.allowIn (head o) = true → head o ≠ .punct .comma →
      Core C Γ (.lexDs k b l) i o
  | .block l => ∃ t t' r, i = t :: r ∧ Is t .openBrace ∧ head r ≠ .string ∧
      Core C Γ (.items l) r (t' :: o) ∧ Is t' .closeBrace
  | .handler c => Core C Γ (.handler c) i o
  | .final l => Core C Γ (.finalizer l) i o
  | .cases d l => head o = .punct .closeBrace → Core C Γ (.cases d l) i o ∧ caseEnd i
  | .label n => Core C Γ (.optLabel n) i o
  | .init x => forOk C i → head o = .punct .semiColon → ∀ s o', Core C Γ (.forCont x s) o o' →
      Core C Γ (.forHead false false s) i o'
  | .opt e => ∀ p, head o = .punct p → p = .semiColon ∨ p = .closeParen →
      Core C Γ (.optExpr p e) i o
  | .stmt s => (head i ≠ .keyword .function → head i ≠ .keyword .let →
        itemIsStmt (head i) = true) ∧
      (head i = .keyword .function → ∃ g, s = .expr (.function g) ∧ Core C Γ (.fnDecl true g) i o) ∧
      Core C Γ (.stmt s) i o
  | .part p => Core C Γ (.listItem p) i o
  | .stmts l => Core C Γ (.items l) i o ∧
      (head o = .eof → ∀ past, past = true ∨ head i ≠ .string → Core C Γ (.parts past l) i o)

theorem ofPrim {f : Place} {g : Flags} {e : Expr} {t : Tok} {i o : List Tok} {x : Token}
    {ls : List Txt} (ht : t.item.token = x) (hx : Print.front 20 x = true)
    (ha : C.text t ≠ t!"async") (h : Core C (envOf f.all ls) (.primary g e) (t :: i) o) :
    W C (envOf f ls) 20 g e (t :: i) o :=
  ⟨fun _ => ha, by show Print.front 20 t.item.token = true; rw [ht, hx], .primary h⟩

/-- From a fact to the rest. -/
theorem fit_of_w {f ls n m e i o} (hi : Ready C fns i) (hs : smallStart (head i) = true)
    (he : isSpread e = false) (hn : n ≤ m) (hm : 4 ≤ m) (h : W C (envOf f ls) m (flags e) e i o) :
    Fit C (envOf f ls) i o (.expr n e) := by
  have ha : soft2 f.inOk (head o) = true → Core C (envOf f ls) (.assign (flags e) e) i o := fun ho =>
    .assign (h.single_soft hm ho (.inl (smallStart_other hs hi)))
  exact ⟨hs, he, fun _ => ⟨m, hn, h⟩, fun _ => ha, fun ho _ => .inl (ha ho)⟩

/-- From an assignment to the rest. -/
theorem fit_of_assign {Γ n e i o} (hs : smallStart (head i) = true) (he : isSpread e = false)
    (hn : n ≤ 3) (h : soft2 Γ.allowIn (head o) = true → Core C Γ (.assign (flags e) e) i o) :
    Fit C Γ i o (.expr n e) :=
  ⟨hs, he, fun h => by omega, fun _ => h, fun ho _ => .inl (h ho)⟩

theorem Fit.expression {Γ n e i o} (h : Fit C Γ i o (.expr n e)) (ho : soft2 Γ.allowIn (head o) = true)
    (hc : head o ≠ .punct .comma) : Core C Γ (.expression e) i o := by
  rcases h.2.2.2.2 ho hc with h | ⟨l, rfl, hl, x, l', f, g, j, rfl, -, h1, h2⟩
  · exact .expression h hc
  · exact .sequence h1 h2 (by rintro rfl; simp at hl)

theorem Fit.paren {f ls n e t t' i o} (h : Fit C (envOf f.all ls) i (t' :: o) (.expr n e))
    (hi : Ready C fns (t :: i)) (ho : Ready C fns o) (ht : Is t .openParen)
    (ht' : Is t' .closeParen) : W C (envOf f ls) 20 (flags e) e (t :: i) o := by
  have hf : head o ≠ .punct .fatArrow := by
    intro hh; have := ho.token; rw [hh] at this; cases this
  refine ofPrim ht rfl hi.2.1 ?_
  have hp := soft2_close (b := true) (j := o) ht' (.inl rfl)
  rcases h.2.2.2.2 hp.1 hp.2 with h | ⟨l, rfl, hl, x, l', f, g, j, rfl, hg, h1, h2⟩
  · exact .primGroup ht h ht' hf
  · show Core C _ (.primary (seqFlags (x :: l')) _) _ _
    rw [hg]
    exact .primSequence ht h1 h2 (by rintro rfl; simp at hl) ht' hf

theorem keyword_head {t : Tok} {k : Keyword} {i : List Tok} (h : Kw t k) :
    head (t :: i) = .keyword k := h

theorem Ready.notString {t : Tok} {i : List Tok} (h : Ready C fns (t :: i))
    (ht : Is t .openBrace) : head i ≠ .string := by
  cases i with
  | nil => nofun
  | cons t' i =>
    intro hh
    have := (h.2.2.2.2.1 _ _ rfl).1
    rw [show t'.item.token = .string from hh, ht] at this
    cases this

/-- A statement that starts with a keyword. -/
theorem fit_stmt {Γ s t k i o} (ht : Kw t k) (hk : itemIsStmt (.keyword k) = true)
    (hf : k ≠ .function) (h : Core C Γ (.stmt s) (t :: i) o) : Fit C Γ (t :: i) o (.stmt s) := by
  have := keyword_head (i := i) ht
  refine ⟨fun _ _ => by rw [this, hk], fun hh => ?_, h⟩
  rw [this] at hh; cases hh; exact absurd rfl hf

set_option maxHeartbeats 2000000 in
theorem small_fit {f ls k i o}
    (hx : ∀ k, smallToken true (.keyword k) = true → k ≠ .let →
      C.ext.isStrictReserved (.keyword k) = false)
    (h : Small C f ls k i o) (hi : Ready C fns i) : Fit C (envOf f ls) i o k := by
  induction h with
  | @name f ls t o ht =>
    have hs : smallStart t.item.token = true := by rw [ht]; rfl
    exact fit_of_w hi hs rfl (Nat.le_refl _) (by omega)
      (ofPrim ht rfl hi.2.1 (.primIdent ht (.inl hi.2.1)))
  | @letName f ls t o ht =>
    have hs : smallStart t.item.token = true := by rw [show t.item.token = _ from ht]; rfl
    have hh : head (t :: o) = .keyword .let := ht
    have hp : Core C (envOf f.all ls) (.operand (true, true) (.ident (C.text t))) (t :: o) o :=
      .opPrimary (.primLet ht rfl) (by rw [hh]; nofun)
    exact fit_of_w hi hs rfl (Nat.le_refl _) (by omega) ⟨fun _ => hi.2.1, by rw [hh]; rfl,
      .member (fun _ _ h => .member (by rw [hh]; nofun) hp h)
        (fun _ _ _ h => .call (fun _ => hi.2.1) (by rw [hh]; nofun) hp h)⟩
  | @number f ls t o ht =>
    have hs : smallStart t.item.token = true := by rw [ht]; rfl
    exact fit_of_w hi hs rfl (Nat.le_refl _) (by omega) (ofPrim ht rfl hi.2.1 (.primNumber ht))
  | @string f ls t o ht =>
    have hs : smallStart t.item.token = true := by rw [ht]; rfl
    exact fit_of_w hi hs rfl (Nat.le_refl _) (by omega) (ofPrim ht rfl hi.2.1 (.primString ht))
  | @boolean f ls t _ o ht =>
    have hs : smallStart t.item.token = true := by rw [ht]; rfl
    exact fit_of_w hi hs rfl (Nat.le_refl _) (by omega) (ofPrim ht rfl hi.2.1 (.primBool ht))
  | @regex f ls t _ _ o ht hc hf =>
    have hs : smallStart t.item.token = true := by rw [ht]; rfl
    exact fit_of_w hi hs rfl (Nat.le_refl _) (by omega) (ofPrim ht rfl hi.2.1 (.primRegex ht hc hf))
  | @template f ls t w o ht hc =>
    have hs : smallStart t.item.token = true := by rw [ht]; rfl
    exact fit_of_w hi hs rfl (Nat.le_refl _) (by omega)
      (ofPrim ht rfl hi.2.1 (.primTemplate (.tplPlain ht hc)))
  | @this f ls t o ht =>
    have hs : smallStart t.item.token = true := by rw [ht]; rfl
    exact fit_of_w hi hs rfl (Nat.le_refl _) (by omega)
      (ofPrim ht rfl hi.2.1 (.primThis ht fun _ => hx _ rfl nofun))
  | @paren f ls t t' e i o ht h ht' ih =>
    have hs : smallStart t.item.token = true := by rw [ht]; rfl
    exact fit_of_w hi hs (ih hi.tail).2.1 (Nat.le_refl _) (by omega)
      ((ih hi.tail).paren hi (h.text hi.tail).tail ht ht')
  | @array f ls t t' l i o ht h ht' ih =>
    have hs : smallStart t.item.token = true := by rw [ht]; rfl
    exact fit_of_w hi hs rfl (Nat.le_refl _) (by omega)
      (ofPrim ht rfl hi.2.1 (.primArray ht (ih hi.tail ht') ht'))
  | @fnExpr f ls g i o h ih =>
    obtain ⟨h1, -, h2⟩ := ih hi
    cases i with
    | nil => cases h1
    | cons t i =>
      have hs : smallStart (head (t :: i)) = true := by rw [h1]; rfl
      exact fit_of_w hi hs rfl (Nat.le_refl _) (by omega)
        (ofPrim h1 rfl hi.2.1 (.primFunction (fun _ _ => hx _ rfl nofun) h2))
  | @dot f ls n t t' e i o hn h ht ht' ih =>
    obtain ⟨hs, -, hw0, -, -⟩ := ih hi
    have hw0 := hw0 (by omega)
    rcases hn with rfl | rfl
    · obtain ⟨m, hm, hw⟩ := hw0
      exact fit_of_w hi hs rfl (Nat.le_refl _) (by omega) ⟨fun _ => hw.other hm,
        front_mono hw.front hm, .call fun f' e' o' hh => hw.call hm (.callDot ht hh)⟩
    · obtain ⟨m, hm, hw⟩ := hw0
      exact fit_of_w hi hs rfl (Nat.le_refl _) (by omega) ⟨fun _ => hw.other (by omega),
        front_mono hw.front hm, .member (fun e' o' hh => hw.member hm (.memDot ht hh))
          fun f' e' o' hh => hw.call (by omega) (.callDot ht hh)⟩
  | @tagged f ls n t w e i o hn h ht hc ih =>
    obtain ⟨hs, -, hw0, -, -⟩ := ih hi
    have hw0 := hw0 (by omega)
    rcases hn with rfl | rfl
    · obtain ⟨m, hm, hw⟩ := hw0
      exact fit_of_w hi hs rfl (Nat.le_refl _) (by omega) ⟨fun _ => hw.other hm,
        front_mono hw.front hm, .call fun f' e' o' hh => hw.call hm (.callTemplate (.tplPlain ht hc) hh)⟩
    · obtain ⟨m, hm, hw⟩ := hw0
      exact fit_of_w hi hs rfl (Nat.le_refl _) (by omega) ⟨fun _ => hw.other (by omega),
        front_mono hw.front hm,
          .member (fun e' o' hh => hw.member hm (.memTemplate (.tplPlain ht hc) hh))
          fun f' e' o' hh => hw.call (by omega) (.callTemplate (.tplPlain ht hc) hh)⟩
  | @index f ls n t t' e x i j o hn h ht h' ht' ih ih' =>
    obtain ⟨hs, -, hw0, -, -⟩ := ih hi
    have hw0 := hw0 (by omega)
    have hp := soft2_close (b := true) (j := o) ht' (.inr (.inl rfl))
    have hx := (ih' (h.text hi).tail).expression hp.1 hp.2
    rcases hn with rfl | rfl
    · obtain ⟨m, hm, hw⟩ := hw0
      exact fit_of_w hi hs rfl (Nat.le_refl _) (by omega) ⟨fun _ => hw.other hm,
        front_mono hw.front hm, .call fun f' e' o' hh => hw.call hm (.callIndex ht hx ht' hh)⟩
    · obtain ⟨m, hm, hw⟩ := hw0
      exact fit_of_w hi hs rfl (Nat.le_refl _) (by omega) ⟨fun _ => hw.other (by omega),
        front_mono hw.front hm, .member (fun e' o' hh => hw.member hm (.memIndex ht hx ht' hh))
          fun f' e' o' hh => hw.call (by omega) (.callIndex ht hx ht' hh)⟩
  | @newArgs f ls t e l i j o ht h h' ih ih' =>
    obtain ⟨hs', -, hw, -, -⟩ := ih hi.tail
    obtain ⟨m, hm, hw⟩ := hw (by omega)
    obtain ⟨ha, hj⟩ := ih' (h.text hi.tail)
    have hs : smallStart t.item.token = true := by rw [ht]; rfl
    have hn : ∀ l, head (t :: l) ≠ .keyword .super := by
      intro l; show t.item.token ≠ _; rw [ht]; decide
    have hi' : head i ≠ .keyword .import := by intro hh; rw [hh] at hs'; cases hs'
    have := Core.newArgs ht hi' (hw.member hm (.memStop (by rw [hj]; rfl))) ha
    exact fit_of_w hi hs rfl (Nat.le_refl _) (by omega) ⟨fun _ => hi.2.1,
      by show front 19 t.item.token = true; rw [ht]; rfl, .member
      (fun _ _ hh => .member (hn _) (.opNew this) hh)
      (fun _ _ _ hh => .call (fun _ => hi.2.1) (hn _) (.opNew this) hh)⟩
  | @new f ls t e i o ht h hm' ho ih =>
    obtain ⟨hs', -, hw, -, -⟩ := ih hi.tail
    obtain ⟨m, hm, hw⟩ := hw (by omega)
    have hs : smallStart t.item.token = true := by rw [ht]; rfl
    have hn : ∀ l, head (t :: l) ≠ .keyword .super := by
      intro l; show t.item.token ≠ _; rw [ht]; decide
    have hi' : head i ≠ .keyword .import := by intro hh; rw [hh] at hs'; cases hs'
    have h1 : memberMore (head o) = false ∧ callMore (head o) = false := by
      obtain ⟨h1, h2, h3⟩ := hm'
      revert h1 h2 h3 ho
      generalize head o = x
      intro ho h1 h2 h3
      cases x with
      | punct p => cases p <;> first | exact ⟨rfl, rfl⟩ | simp at *
      | template => cases h3
      | _ => exact ⟨rfl, rfl⟩
    have := Core.newBare ht hi' (hw.member hm (.memStop h1.1)) ho
    refine fit_of_w hi hs rfl (Nat.le_refl _) (by omega) ⟨fun _ => hi.2.1,
      by show front 17 t.item.token = true; rw [ht]; rfl, .update fun hh =>
        .updNone (.callNone (hn _) (.opNew this) h1.2) ?_ ?_ (.inr ⟨?_, ?_⟩)⟩
    · show t.item.token ≠ _; rw [ht]; decide
    · show t.item.token ≠ _; rw [ht]; decide
    · intro hh'; rw [hh'] at hh; exact absurd hh (by decide)
    · intro hh'; rw [hh'] at hh; exact absurd hh (by decide)
  | @call f ls e l i j o h h' ih ih' =>
    obtain ⟨hs, -, hw, -, -⟩ := ih hi
    obtain ⟨m, hm, hw⟩ := hw (by omega)
    have ha := (ih' (h.text hi)).1
    refine fit_of_w hi hs rfl (Nat.le_refl _) (by omega) ⟨fun _ => hw.other hm,
      front_mono hw.front hm, .call fun f' e' o' hh => hw.call hm (.callArgs ha nofun hh)⟩
  | @argsNone f ls t t' o ht ht' => exact ⟨.argsNone ht ht', ht⟩
  | @args f ls t t' l i o ht h ht' ih =>
    exact ⟨.args ht ((ih hi.tail).2.1 ht') ht', ht⟩
  | @«prefix» f ls t op e i o ht h he ih =>
    obtain ⟨-, -, hw, -, -⟩ := ih hi.tail
    obtain ⟨m, hm, hw⟩ := hw (by omega)
    have hs : smallStart t.item.token = true ∧ front 17 t.item.token = true := by
      rw [ht]; cases op <;> exact ⟨rfl, rfl⟩
    refine fit_of_w hi hs.1 rfl (Nat.le_refl _) (by omega) ⟨fun h => by omega, hs.2,
      .update fun hh => .updPrefix ?_ (hw.unary hm hh) nofun (.inl (target_flags _ he).1)⟩
    cases op
    · exact .inl ⟨ht, rfl⟩
    · exact .inr ⟨ht, rfl⟩
  | @«postfix» f ls t op e i o h he ht hn ih =>
    obtain ⟨hs, -, hw, -, -⟩ := ih hi
    obtain ⟨m, hm, hw⟩ := hw (by omega)
    have hf := front_mono hw.front hm
    refine fit_of_w hi hs rfl (Nat.le_refl _) (by omega) ⟨fun h => by omega, front_mono hf (by omega),
      .update fun hh => .updPostfix (hw.call hm (.callStop ?_)) ?_ ?_ hn ?_ nofun
        (.inl (target_flags _ he).1)⟩
    · show callMore t.item.token = false
      rw [ht]; cases op <;> rfl
    · intro hh; rw [hh] at hf; exact absurd hf (by decide)
    · intro hh; rw [hh] at hf; exact absurd hf (by decide)
    · cases op
      · exact .inl ⟨ht, rfl⟩
      · exact .inr ⟨ht, rfl⟩
  | @unary f ls t op e i o ht h ih =>
    obtain ⟨-, -, hw, -, -⟩ := ih hi.tail
    obtain ⟨m, hm, hw⟩ := hw (by omega)
    have hs : smallStart t.item.token = true ∧ front 16 t.item.token = true := by
      revert ht
      generalize t.item.token = x
      intro ht
      unfold unaryOperator at ht
      split at ht <;> cases ht <;> exact ⟨rfl, rfl⟩
    exact fit_of_w hi hs.1 rfl (Nat.le_refl _) (by omega) ⟨fun h => by omega, hs.2,
      .unary fun hh => .unaryOp ht (hw.unary hm hh) nofun⟩
  | @power f ls t l r i j o h ht h' ih ih' =>
    obtain ⟨hs, -, hw, -, -⟩ := ih hi
    obtain ⟨m, hm, hw⟩ := hw (by omega)
    obtain ⟨-, -, hw', -, -⟩ := ih' (h.text hi).tail
    obtain ⟨m', hm', hw'⟩ := hw' (by omega)
    exact fit_of_w hi hs rfl (Nat.le_refl _) (by omega) ⟨fun h => by omega,
      front_mono hw.front (by omega), .expo fun hh =>
        .expo (hw.unary hm (by show stop17 t.item.token = true; rw [ht]; rfl)) ht (hw'.expo hm' hh)⟩
  | @binary f ls t op l r i j o h ht hp hin h' ih ih' =>
    have h1 : 1 ≤ op.level ∧ op.level ≤ 11 := by
      rcases op with o | o <;> cases o <;> first | exact absurd rfl hp | decide
    obtain ⟨hs, -, hw, -, -⟩ := ih hi
    obtain ⟨m, hm, hw⟩ := hw (by omega)
    obtain ⟨-, -, hw', -, -⟩ := ih' (h.text hi).tail
    obtain ⟨m', hm', hw'⟩ := hw' (by omega)
    have := hw.node hp hin hm ht hw' hm'
    have hf : flags (op.node l r) = (false, false) := by cases op <;> rfl
    rw [← hf] at this
    exact fit_of_w hi hs (by cases op <;> rfl) (Nat.le_refl _) (by omega) this
  | @cond f ls t t' c a b i j k o h ht h' ht' h'' ih ih' ih'' =>
    obtain ⟨hs, -, hw, -, -⟩ := ih hi
    obtain ⟨m, hm, hw⟩ := hw (by omega)
    have hj := (h.text hi).tail
    obtain ⟨-, -, -, ha, -⟩ := ih' hj
    obtain ⟨-, -, -, hb, -⟩ := ih'' (h'.text hj).tail
    refine fit_of_assign hs rfl (by omega) fun ho => ?_
    have hc := hw.bin hm (by show stop4 f.inOk t.item.token = true; rw [ht]; cases f.inOk <;> rfl)
    have h1 := Core.cond hc ht (ha (by omega) (soft2_close ht' (.inr (.inr (.inl rfl)))).1) ht'
      (hb (by omega) ho)
    simp only [soft2, Bool.and_eq_true, bne_iff_ne, Bool.not_eq_true'] at ho
    exact .assign (.singleCond (.inl (smallStart_other hs hi)) (hw.not_yield (by omega)) h1
      ho.1.2 ho.2)
  | @assign f ls t p op l r i j o h hl ht hp h' ih ih' =>
    obtain ⟨hs, -, hw, -, -⟩ := ih hi
    obtain ⟨m, hm, hw⟩ := hw (by omega)
    obtain ⟨-, -, -, hr, -⟩ := ih' (h.text hi).tail
    refine fit_of_assign hs rfl (by omega) fun ho => ?_
    have hc := hw.cond hm (by
      show stop3 f.inOk t.item.token = true
      rw [ht]; cases f.inOk <;> cases p <;> first | (cases hp; done) | rfl)
    have hy := hw.not_yield (by omega)
    by_cases hop : op = .equal
    · subst hop
      have : p = .assign := by cases p <;> first | rfl | (cases hp; done)
      subst this
      exact .assignEq hy hc (.inl (target_flags _ hl).1) ht nofun (hr (by omega) ho)
    · have hf : flags (.assignment op l r) = (false, false) := by
        cases op <;> first | exact absurd rfl hop | rfl
      rw [hf]
      exact .assignOp hy hc (.inl (target_flags _ hl).1) ht hp nofun (hr (by omega) ho)
  | @comma f ls l i o h hl ih =>
    obtain ⟨hs, -, hq⟩ := ih hi
    exact ⟨hs, rfl, fun h => by omega, fun h => by omega, fun ho hc => .inr ⟨l, rfl, hl, hq ho hc⟩⟩
  | @weaken f ls n m e i o h hm ih =>
    obtain ⟨hs, he, h1, h2, h3⟩ := ih hi
    refine ⟨hs, he, fun h => ?_, fun h => h2 (by omega), h3⟩
    obtain ⟨m', h4, h5⟩ := h1 (by omega)
    exact ⟨m', by omega, h5⟩
  | @listOne f ls e i o h ih =>
    obtain ⟨hs, -, -, h1, -⟩ := ih hi
    refine ⟨hs, fun ho => .argLast (.arg (h1 (Nat.le_refl _) (by rw [ho]; exact soft2_any rfl))) ho, fun ho hc =>
      ⟨e, [], flags e, (true, true), o, rfl, rfl, h1 (Nat.le_refl _) ho, .seqStop hc⟩⟩
  | @listMore f ls e l t i j o h ht h' ih ih' =>
    obtain ⟨hs, -, -, h1, -⟩ := ih hi
    obtain ⟨-, h2, h3⟩ := ih' (h.text hi).tail
    have ha := h1 (Nat.le_refl _) (soft2_comma ht)
    refine ⟨hs, fun ho => .argMore (.arg ha) ht (h2 ho), fun ho hc => ?_⟩
    obtain ⟨x, l', f, g, k, rfl, hg, h4, h5⟩ := h3 ho hc
    exact ⟨e, x :: l', flags e, f.and g, t :: j, rfl, by rw [seqFlags, hg], ha, .seqMore ht h4 h5⟩
  | elemsNone => exact fun ho => .elemsEnd ho
  | @elemsHole f ls t l i o ht h ih => exact fun ho => .elemsHole ht (ih hi.tail ho)
  | @elemsMore f ls t e l i j o h ht h' ih ih' =>
    intro ho
    obtain ⟨-, he, -, h1, -⟩ := ih hi
    have := Core.elemsMore (h1 (by omega) (soft2_comma ht)) ht (ih' (h.text hi).tail ho)
    simpa only [elemFlags, he, Bool.false_and, Bool.false_eq_true, if_false] using this
  | @elemsLast f ls e i o h ih =>
    intro ho
    obtain ⟨-, he, -, h1, -⟩ := ih hi
    have := Core.elemsLast (h1 (by omega) (by rw [ho]; exact soft2_any rfl)) ho
    simpa [elemFlags, he, Flags.and] using this
  | @fnAnonymous f ls o ho => exact ⟨.declNameNone ho, .exprNameNone ho, by rw [ho]; nofun⟩
  | @fnNamed f ls t o ht =>
    exact ⟨.declName (.ident ht fun _ => hi.2.2.1) nofun, .exprName (.ident ht fun _ => hi.2.2.1) nofun,
      by show t.item.token ≠ _; rw [ht]; nofun⟩
  | @namesOne f ls t o ht =>
    exact fun ho => ⟨_, .paramLast (.param (.patNoDefault (.patIdent (.ident ht fun _ => hi.2.2.1))
      (by rw [ho]; nofun))) ho⟩
  | @namesMore f ls t t' l i o ht ht' h ih =>
    intro ho
    obtain ⟨b, hb⟩ := ih hi.tail.tail ho
    exact ⟨_, .paramMore (.param (.patNoDefault (.patIdent (.ident ht fun _ => hi.2.2.1))
      (by show t'.item.token ≠ _; rw [ht']; nofun))) ht' hb⟩
  | @paramsNone f ls t t' o ht ht' => exact ⟨_, .paramsNone ht ht'⟩
  | @params f ls t t' l i o ht h ht' ih =>
    obtain ⟨b, hb⟩ := ih hi.tail ht'
    exact ⟨b, .params ht hb ht'⟩
  | @fn f ls t id ps b i j k o ht h h' h'' ih ih' ih'' =>
    obtain ⟨h1, h2, h3⟩ := ih hi.tail
    have hj := h.text hi.tail
    obtain ⟨_, h4⟩ := ih' hj
    obtain ⟨t1, t2, r, rfl, h5, h6, h7, h8⟩ := ih'' (h'.text hj)
    have hb : Core C (envOf f ls) (.body b) (t1 :: r) o :=
      .body (ds := []) h5 (.prologueEnd h6) h7 h8
    exact ⟨ht, .fnDecl (.fnPlain ht hi.2.1) (.starNo h3) rfl h1 h4 hb,
      .fnExpr (.fnPlain ht hi.2.1) (.starNo h3) h2 h4 hb nofun⟩
  | @declare f ls t o ht =>
    intro a b ho
    refine .varNone (.patIdent (.ident ht fun _ => hi.2.2.1)) ?_ ?_ (.inl rfl)
    · intro hh; rw [hh] at ho; generalize Env.allowIn _ = b at ho; cases b <;> cases ho
    · exact fun _ h => nomatch h
  | @declareInit f ls t t' e i o ht ht' h ih =>
    intro a b ho
    exact .varInit (.patIdent (.ident ht fun _ => hi.2.2.1)) ht' (fun _ h => nomatch h)
      ((ih hi.tail.tail).2.2.2.1 (Nat.le_refl _) ho)
  | @declareKey f ls t k o ht hlet =>
    intro a b ho
    have h1 := hi.1
    rw [show t.item.token = _ from ht] at h1
    refine .varNone (.patKeyword ht hlet ?_ rfl) ?_ (fun _ h => nomatch h) (.inl rfl)
    · rintro rfl; cases h1
    · intro hh; rw [hh] at ho; generalize Env.allowIn _ = b at ho; cases b <;> cases ho
  | @declareKeyInit f ls t k t' e i o ht hlet ht' h ih =>
    intro a b ho
    have h1 := hi.1
    rw [show t.item.token = _ from ht] at h1
    refine .varInit (.patKeyword ht hlet ?_ rfl) ht' (fun _ h => nomatch h)
      ((ih hi.tail.tail).2.2.2.1 (Nat.le_refl _) ho)
    · rintro rfl; cases h1
  | @declsOne f ls d i o h ih => exact fun a b ho hc => .varLast (ih hi a b ho) hc
  | @declsMore f ls d l t i j o h ht h' ih ih' =>
    exact fun a b ho hc =>
      .varMore (ih hi a b (soft2_comma ht)) ht (ih' (h.text hi).tail a b ho hc)
  | @lexInit f ls k t t' e i o ht ht' h ih =>
    intro b ho
    exact .lexInit (by show lexStart t.item.token = true; rw [ht]; rfl)
      (.patIdent (.ident ht fun _ => hi.2.2.1)) ht' (hi.tail.letOk.2.2.2 ht')
      (fun h => nomatch h) ((ih hi.tail.tail).2.2.2.1 (Nat.le_refl _) ho)
  | @lexNone f ls t o ht =>
    intro b ho
    refine .lexNone (by show lexStart t.item.token = true; rw [ht]; rfl)
      (.patIdent (.ident ht fun _ => hi.2.2.1)) ?_ (fun h => nomatch h) (.inl rfl)
    intro hh; rw [hh] at ho; generalize Env.allowIn _ = b at ho; cases b <;> cases ho
  | @lexsOne f ls k d i o h ih => exact fun b ho hc => .lexLast (ih hi b ho) hc
  | @lexsMore f ls k d l t i j o h ht h' ih ih' =>
    exact fun b ho hc =>
      .lexMore (ih hi b (soft2_comma ht)) ht (ih' (h.text hi).tail b ho hc)
  | @braces f ls t t' l i o ht h ht' ih =>
    exact ⟨t, t', i, rfl, ht, hi.notString ht, (ih hi.tail).1, ht'⟩
  | noCatch ho => exact .handlerNone ho
  | @catchAll f ls t l i o ht h ih =>
    obtain ⟨t1, t2, r, rfl, h5, h6, h7, h8⟩ := ih hi.tail
    refine .handler ht (.catchNone ?_) (.block h5 h7 h8)
    show t1.item.token ≠ _; rw [h5]; nofun
  | @«catch» f ls t t' t'' t3 l i o ht ht' ht'' ht3 h ih =>
    obtain ⟨t1, t2, r, rfl, h5, h6, h7, h8⟩ := ih hi.tail.tail.tail.tail
    exact .handler ht (.catchParam ht' (.patIdent (.ident ht'' fun _ => hi.tail.tail.2.2.1)) ht3)
      (.block h5 h7 h8)
  | noFinally ho => exact .finalizerNone ho
  | @«finally» f ls t l i o ht h ih =>
    obtain ⟨t1, t2, r, rfl, h5, h6, h7, h8⟩ := ih hi.tail
    exact .finalizer ht (.block h5 h7 h8)
  | casesNone => exact fun ho => ⟨.casesEnd ho, .inl ho⟩
  | @case f ls d t t' e b l i j k o ht h ht' h' h'' ih ih' ih'' =>
    intro ho
    have hj := (h.text hi.tail).tail
    obtain ⟨h1, h2⟩ := ih'' (h'.text hj) ho
    have hp := soft2_close (b := f.inOk) (j := j) ht' (.inr (.inr (.inl rfl)))
    have he := (ih hi.tail).expression hp.1 hp.2
    refine ⟨.casesMore (.case ht he ht' (ih' hj).1 h2) rfl ?_, .inr (.inr ht)⟩
    simpa [isDefault] using h1
  | @default f ls t t' b l i j o ht ht' h h' ih ih' =>
    intro ho
    have hj := h.text hi.tail.tail
    obtain ⟨h1, h2⟩ := ih' hj ho
    exact ⟨.casesMore (.caseDefault ht ht' (ih hi.tail.tail).1 h2) rfl h1, .inr (.inl ht)⟩
  | @noLabel f ls i o he =>
    obtain ⟨-, -, -, h4⟩ := ends_semi (Γ := envOf f ls) (b := f.inOk) he hi
    refine .labelNone ?_ h4
    rcases he with ⟨t, ht, rfl⟩ | ⟨rfl, h | h | h⟩
    · left; show t.item.token ≠ _; rw [ht]; nofun
    · exact .inr h
    · left; rw [h]; nofun
    · left; rw [h]; nofun
  | @label f ls t i o ht hn he =>
    obtain ⟨-, -, -, h4⟩ := ends_semi (Γ := envOf f ls) (b := f.inOk) he hi.tail
    exact .label hn (.ident ht fun _ => hi.2.2.1) h4
  | initNone h => exact fun _ _ _ _ hc => .forSemi hc
  | @initExpr f ls e i o hlet h ih =>
    intro hk ho s o' hc
    have hfit := ih hi
    have hs := smallStart_init hfit.1
    refine .forExpr hlet (hfit.2.2.2.1 (Nat.le_refl _) (by rw [ho]; rfl)) ?_ hc hs.1 hs.2
    cases o with
    | nil => cases ho
    | cons t o => exact forOk_other (h.forOk hk)
  | @initSeq f ls e l t i j o hlet h ht h' ih ih' =>
    intro hk ho s o' hc
    have hfit := ih hi
    have hs := smallStart_init hfit.1
    obtain ⟨x, l', a, g, k, rfl, -, h1, h2⟩ := (ih' (h.text hi).tail).2.2
      (by rw [ho]; exact soft2_any rfl) (by rw [ho]; nofun)
    exact .forExprSeq hlet (hfit.2.2.2.1 (Nat.le_refl _) (soft2_comma ht)) (forOk_other (h.forOk hk))
      (.seqMore ht h1 h2) nofun hc hs.1 hs.2
  | @initVar f ls t l i o ht h ih =>
    intro hk ho s o' hc
    refine .forVar ht (ih hi.tail _ _ (by rw [ho]; rfl) (by rw [ho]; nofun)) ?_ hc
    cases o with
    | nil => cases ho
    | cons t o => exact forOk_other (h.forOk hk.2.2)
  | @initLex f ls t k l i o ht h ih =>
    intro hk ho s o' hc
    refine .forLex ht (ih hi.tail _ (by rw [ho]; rfl) (by rw [ho]; nofun)) ?_ hc
    cases o with
    | nil => cases ho
    | cons t o => exact forOk_other (h.forOk hk.2.2)
  | @optNone f ls o h => exact fun p hp _ => .optNone hp
  | @optSome f ls e i o h ih =>
    intro p hp hp'
    have h1 : soft2 f.inOk (head o) = true ∧ head o ≠ .punct .comma ∧
        exprStart (.punct p) = false := by
      rw [hp]
      rcases hp' with rfl | rfl <;> exact ⟨soft2_any rfl, nofun, rfl⟩
    exact .optSome h1.2.2 ((ih hi).expression h1.1 h1.2.1)
  | @empty f ls t o ht =>
    have : head (t :: o) = .punct .semiColon := ht
    exact ⟨fun _ _ => by rw [this]; rfl, fun hh => (by rw [this] at hh; cases hh), .stEmpty ht⟩
  | @expr f ls e i j o hf h he ih =>
    have hfit := ih hi
    have hs := smallStart_stmt hfit.1 hf
    obtain ⟨h1, h2, h3, h4⟩ := ends_semi (Γ := envOf f ls) (b := f.inOk) he (h.text hi)
    refine ⟨fun _ => hs.2, fun hh => absurd hh hf, .stExpr hs.1 ?_ (hfit.expression h1 h2) h3 h4⟩
    have := smallStart_other hfit.1 hi
    cases i with
    | nil => cases this
    | cons t i => exact .inl this
  | @fnStmt f ls g i o h ih =>
    obtain ⟨h1, h2, -⟩ := ih hi
    exact ⟨fun hh => absurd h1 hh, fun _ => ⟨g, rfl, h2⟩, .stFunction h2⟩
  | @var f ls t l i j o ht h he ih =>
    obtain ⟨h1, h2, h3, h4⟩ := ends_semi (Γ := envOf f ls) (b := f.inOk) he (h.text hi.tail)
    exact fit_stmt ht rfl nofun (.stVar ht (ih hi.tail _ _ h1 h2) h4)
  | @block f ls l i o h ih =>
    obtain ⟨t1, t2, r, rfl, h5, h6, h7, h8⟩ := ih hi
    have : head (t1 :: r) = .punct .openBrace := h5
    exact ⟨fun _ _ => by rw [this]; rfl, fun hh => (by rw [this] at hh; cases hh),
      .stBlock (.block h5 h7 h8)⟩
  | @labeled f ls t t' s i o ht ht' hl h ih =>
    obtain ⟨h1, h2, h3⟩ := ih hi.tail.tail
    have hh : head (t :: t' :: i) = .ident := ht
    refine ⟨fun _ _ => by rw [hh]; rfl, fun h => (by rw [hh] at h; cases h), ?_⟩
    have hp := soft2_close (b := f.inOk) (j := i) ht' (.inr (.inr (.inl rfl)))
    have hw : W C (envOf f ls) 20 (flags (.ident (C.text t))) (.ident (C.text t)) (t :: t' :: i)
      (t' :: i) := ofPrim ht rfl hi.2.1 (.primIdent ht (.inl hi.2.1))
    have he := (fit_of_w hi (by rw [hh]; rfl) rfl (Nat.zero_le _) (by omega) hw).expression hp.1 hp.2
    refine .stLabeled hh (.inl hi.2.1) he ht' (by simpa using hl) ?_
    by_cases hf : head i = .keyword .function
    · obtain ⟨g, rfl, h4⟩ := h2 hf
      exact .labelFunction hf h4
    · refine .labelStmt h3 ?_ hf
      intro hc
      have := hi.tail.tail.token
      rw [hc] at this; cases this
  | @«break» f ls t n i o ht h ih => exact fit_stmt ht rfl nofun (.stBreak ht (ih hi.tail))
  | @«continue» f ls t n i o ht h ih => exact fit_stmt ht rfl nofun (.stContinue ht (ih hi.tail))
  | @debugger f ls t i o ht he =>
    exact fit_stmt ht rfl nofun (.stDebugger ht (ends_semi (b := true) he hi.tail).2.2.2)
  | @«return» f ls t i o hf ht he =>
    refine fit_stmt ht rfl nofun (.stReturn ht hf ?_ (ends_semi (b := true) he hi.tail).2.2.2)
    have hl : C.nl i = true → (head i).isString = false ∧ (head i).isTemplate = false := by
      cases i with
      | nil => exact fun _ => ⟨rfl, rfl⟩
      | cons t' i =>
        intro hn
        have h1 := hi.tail.2.2.2.1 hn
        have h2 := hi.tail.1
        revert h1 h2
        show _ → _ → Token.isString t'.item.token = false ∧ Token.isTemplate t'.item.token = false
        generalize t'.item.token = x
        intro h1 h2
        cases x <;> first | exact ⟨rfl, rfl⟩ | (cases h1; done) | (cases h2; done)
    unfold Cfg.returnArg
    split
    · rw [(hl ‹_›).1, (hl ‹_›).2]; rfl
    · rcases he with ⟨t, ht, rfl⟩ | ⟨rfl, h | h | h⟩
      · rw [show head (t :: o) = _ from ht]; rfl
      · exact absurd h ‹_›
      · rw [h]; rfl
      · rw [h]; rfl
  | @returnValue f ls t e i j o hf ht hn h he ih =>
    have hfit := ih hi.tail
    obtain ⟨h1, h2, h3, h4⟩ := ends_semi (Γ := envOf f ls) (b := f.inOk) he (h.text hi.tail)
    refine fit_stmt ht rfl nofun (.stReturnArg ht hf ?_ (hfit.expression h1 h2) h4)
    have hs := hfit.1
    simp only [Cfg.returnArg, hn, Bool.false_eq_true, if_false]
    revert hs
    generalize head i = x
    intro hs
    cases x with
    | punct p => cases p <;> first | rfl | cases hs
    | _ => first | rfl | cases hs
  | @«throw» f ls t e i j o ht h he ih =>
    obtain ⟨h1, h2, h3, h4⟩ := ends_semi (Γ := envOf f ls) (b := f.inOk) he (h.text hi.tail)
    exact fit_stmt ht rfl nofun (.stThrow ht ((ih hi.tail).expression h1 h2) h4)
  | @«try» f ls t l h g i j k o ht h1 h2 h3 ih ih' ih'' =>
    obtain ⟨t1, t2, r, rfl, h5, h6, h7, h8⟩ := ih hi.tail
    have hj := h1.text hi.tail
    exact fit_stmt ht rfl nofun (.stTry ht (.block h5 h7 h8) (ih' hj) (ih'' (h2.text hj)))
  | @switch f ls t t' t'' t3 t4 e l i j o ht ht' h ht'' ht3 h' ht4 ih ih' =>
    have hp := soft2_close (b := f.inOk) (j := t3 :: j) ht'' (.inl rfl)
    exact fit_stmt ht rfl nofun (.stSwitch ht ht' ((ih hi.tail.tail).expression hp.1 hp.2) ht'' ht3
      (ih' (h.text hi.tail.tail).tail.tail ht4).1 ht4)
  | @«while» f ls t t' t'' e s i j o ht ht' h ht'' h' ih ih' =>
    have hp := soft2_close (b := f.inOk) (j := j) ht'' (.inl rfl)
    exact fit_stmt ht rfl nofun (.stWhile ht ht' ((ih hi.tail.tail).expression hp.1 hp.2) ht''
      (ih' (h.text hi.tail.tail).tail).2.2)
  | @doWhile f ls t t' t'' t3 e s i j o ht h ht' ht'' h' ht3 ho ih ih' =>
    have hp := soft2_close (b := f.inOk) (j := o) ht3 (.inl rfl)
    exact fit_stmt ht rfl nofun (.stDoWhile ht (ih hi.tail).2.2 ht' ht''
      ((ih' (h.text hi.tail).tail.tail).expression hp.1 hp.2) ht3 ho)
  | @doWhileSemi f ls t t' t'' t3 t4 e s i j o ht h ht' ht'' h' ht3 ht4 ih ih' =>
    have hp := soft2_close (b := f.inOk) (j := t4 :: o) ht3 (.inl rfl)
    exact fit_stmt ht rfl nofun (.stDoWhileSemi ht (ih hi.tail).2.2 ht' ht''
      ((ih' (h.text hi.tail).tail.tail).expression hp.1 hp.2) ht3 ht4)
  | @«with» f ls t t' t'' e s i j o ht ht' h ht'' h' ih ih' =>
    have hp := soft2_close (b := f.inOk) (j := j) ht'' (.inl rfl)
    exact fit_stmt ht rfl nofun (.stWith ht nofun ht' ((ih hi.tail.tail).expression hp.1 hp.2) ht''
      (ih' (h.text hi.tail.tail).tail).2.2)
  | @«for» f ls t t' t1 t2 t3 x a b s i j k l o ht ht' h1 ht1 h2 ht2 h3 ht3 h4 ih1 ih2 ih3 ih4 =>
    have hk := (hi.2.2.2.2.2.2.2.1 ht).2.2
    have k1 := (h1.text hi.tail.tail).tail
    have k2 := (h2.text k1).tail
    have k3 := (h3.text k2).tail
    exact fit_stmt ht rfl nofun (.stFor (.forStmt ht ht' (ih1 hi.tail.tail hk ht1 _ _
      (.forCont ht1 (ih2 k1 _ ht2 (.inl rfl)) ht2 (ih3 k2 _ ht3 (.inr rfl))
        (.loopBody ht3 (ih4 k3).2.2)))))
  | @forIn f ls t t' t1 t2 e r s i j k o ht ht' hlet h1 ht1 h2 ht2 h3 ih1 ih2 ih3 =>
    have k1 := (h1.text hi.tail.tail).tail
    have k2 := (h2.text k1).tail
    have hfit := ih1 hi.tail.tail
    have hs := smallStart_init hfit.1
    have hp := soft2_close (b := f.inOk) (j := k) ht2 (.inl rfl)
    exact fit_stmt ht rfl nofun (.stFor (.forStmt ht ht' (.forExprIn hlet
      (hfit.2.2.2.1 (Nat.le_refl _) (by rw [keyword_head ht1]; rfl))
      (.forIn ht1 ((ih2 k1).expression hp.1 hp.2) (.loopBody ht2 (ih3 k2).2.2)) hs.1 hs.2)))
  | @forVarIn f ls t t' t0 t1 t2 d r s i j k o ht ht' ht0 h1 ht1 h2 ht2 h3 ih1 ih2 ih3 =>
    have k1 := (h1.text hi.tail.tail.tail).tail
    have k2 := (h2.text k1).tail
    have hp := soft2_close (b := f.inOk) (j := k) ht2 (.inl rfl)
    exact fit_stmt ht rfl nofun (.stFor (.forStmt ht ht' (.forVarIn ht0
      (.varLast (ih1 hi.tail.tail.tail _ _ (by rw [keyword_head ht1]; rfl))
        (by rw [keyword_head ht1]; nofun))
      (.forIn ht1 ((ih2 k1).expression hp.1 hp.2) (.loopBody ht2 (ih3 k2).2.2)))))
  | @forLexIn f ls t t' t0 n t1 t2 k r s i j o ht ht' ht0 hn ht1 h2 ht2 h3 ih2 ih3 =>
    have k0 := hi.tail.tail.tail
    have k2 := (h2.text k0.tail.tail).tail
    have hp := soft2_close (b := f.inOk) (j := j) ht2 (.inl rfl)
    have hl : lexStart (head (n :: t1 :: i)) = true := by
      show lexStart n.item.token = true; rw [hn]; rfl
    have hd : Core C (envOf f.head ls) (.lexD k true (.mk (.identifier (C.text n)) none))
        (n :: t1 :: i) (t1 :: i) := by
      rcases ht0 with ⟨-, rfl⟩ | ⟨-, rfl⟩
      · exact .lexNone hl (.patIdent (.ident hn fun _ => k0.2.2.1))
          (by rw [keyword_head ht1]; nofun) (fun h => nomatch h) (.inl rfl)
      · exact .lexConstIn hl (.patIdent (.ident hn fun _ => k0.2.2.1)) (.inl ht1)
          (fun h => nomatch h)
    exact fit_stmt ht rfl nofun (.stFor (.forStmt ht ht' (.forLexIn ht0
      (.lexLast hd (by rw [keyword_head ht1]; nofun)) rfl
      (.forIn ht1 ((ih2 k0.tail.tail).expression hp.1 hp.2) (.loopBody ht2 (ih3 k2).2.2)))))
  | @«if» f ls t t' t'' e s i j o ht ht' h ht'' h' ho ih ih' =>
    have hp := soft2_close (b := f.inOk) (j := j) ht'' (.inl rfl)
    exact fit_stmt ht rfl nofun (.stIf ht ht' ((ih hi.tail.tail).expression hp.1 hp.2) ht''
      (.clause nofun (ih' (h.text hi.tail.tail).tail).2.2) ho)
  | @ifElse f ls t t' t'' t3 e a b i j k o ht ht' h ht'' h' ht3 h'' ih ih' ih'' =>
    have hp := soft2_close (b := f.inOk) (j := j) ht'' (.inl rfl)
    have hj := (h.text hi.tail.tail).tail
    exact fit_stmt ht rfl nofun (.stIfElse ht ht' ((ih hi.tail.tail).expression hp.1 hp.2) ht''
      (.clause nofun (ih' hj).2.2) ht3 (.clause nofun (ih'' (h'.text hj).tail).2.2))
  | @fnPart f ls g i o h ih =>
    obtain ⟨h1, h2, -⟩ := ih hi
    exact .itemFunction h1 h2
  | @lexPart f ls t k l i j o ht h he ih =>
    obtain ⟨h1, h2, h3, h4⟩ := ends_semi (Γ := envOf f ls) (b := f.inOk) he (h.text hi.tail)
    have := ih hi.tail false h1 h2
    rcases ht with ⟨ht, rfl⟩ | ⟨ht, rfl⟩
    · exact .itemLexical (.lexLet ht this h4)
    · exact .itemLexical (.lexConst ht this h4)
  | @stmtPart f ls s i o hf hn h ih =>
    by_cases hl : head i = .keyword .let
    · cases i with
      | nil => cases hl
      | cons t i =>
        refine .itemLet hl ?_ (ih hi).2.2
        have hn := hn hl
        cases i with
        | nil => rfl
        | cons t' i =>
          have h1 := (hi.2.2.2.2.1 _ _ rfl).1
          have h2 := smallToken_true hi.tail.1
          rw [show t.item.token = _ from hl] at h1
          revert h1 h2 hn
          show t'.item.token ≠ _ → _ → _ → letDecl t'.item.token = false
          generalize t'.item.token = x
          intro hn h1 h2
          cases x with
          | punct p => cases p <;> first | rfl | cases h1
          | keyword k => cases k <;> first | rfl | (cases h1; done) | cases h2
          | ident => exact absurd rfl hn
          | _ => rfl
    · exact .itemStmt ((ih hi).1 hf hl) (ih hi).2.2
  | stop => exact ⟨.itemsEnd, fun h _ _ => .partsEnd h⟩
  | @more f ls p l i j o h h' ih ih' =>
    obtain ⟨h4, h5⟩ := ih' (h.text hi)
    exact ⟨.itemsMore (ih hi) h4, fun ho past hp => .partsItem hp (ih hi) (h5 ho true (.inl rfl))⟩

end Ressa.Gr
