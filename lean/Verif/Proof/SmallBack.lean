import Verif.Proof.Small
import Verif.Proof.Brackets
import Verif.Props.Operators

/-!
# Nothing but the small language is accepted
-/

namespace Ressa.Gr

open Print

variable {C : Cfg} {fns : Bool} {f : Place} {ls : List Txt}

/-! ## Lists in both directions -/

theorem Small.listSnoc {k i j o} (h : Small C f ls k i j) : ∀ {l e t j'}, k = .list l → j = t :: j' →
    Is t .comma → Small C f ls (.expr 1 e) j' o → Small C f ls (.list (l ++ [e])) i o := by
  induction h with
  | listOne h => intro l e t j' hk hj ht he; cases hk; subst hj; exact .listMore h ht (.listOne he)
  | listMore h ht' _ _ ih =>
    intro l e t j' hk hj ht he; cases hk
    exact .listMore h ht' (ih rfl hj ht he)
  | _ => intro l e t j' hk; cases hk

theorem Small.declsSnoc {k i j o} (h : Small C f ls k i j) : ∀ {l d t j'}, k = .decls l →
    j = t :: j' → Is t .comma → Small C f ls (.decl d) j' o →
    Small C f ls (.decls (l ++ [d])) i o := by
  induction h with
  | declsOne h => intro l e t j' hk hj ht he; cases hk; subst hj; exact .declsMore h ht (.declsOne he)
  | declsMore h ht' _ _ ih =>
    intro l e t j' hk hj ht he; cases hk
    exact .declsMore h ht' (ih rfl hj ht he)
  | _ => intro l e t j' hk; cases hk

theorem Small.lexsSnoc {k i j o} (h : Small C f ls k i j) : ∀ {v l d t j'}, k = .lexs v l →
    j = t :: j' → Is t .comma → Small C f ls (.lex v d) j' o →
    Small C f ls (.lexs v (l ++ [d])) i o := by
  induction h with
  | lexsOne h => intro v l e t j' hk hj ht he; cases hk; subst hj; exact .lexsMore h ht (.lexsOne he)
  | lexsMore h ht' _ _ ih =>
    intro v l e t j' hk hj ht he; cases hk
    exact .lexsMore h ht' (ih rfl hj ht he)
  | _ => intro v l e t j' hk; cases hk

theorem small_lexs_length {k i o} (h : Small C f ls k i o) : ∀ {v l}, k = .lexs v l →
    1 ≤ l.length := by
  induction h with
  | lexsOne => intro v l hk; cases hk; simp
  | lexsMore => intro v l hk; cases hk; simp
  | _ => intro v l hk; cases hk

theorem small_lexs_one {v d i o} (h : Small C f ls (.lexs v [d]) i o) :
    Small C f ls (.lex v d) i o := by
  generalize hk : SK.lexs v [d] = k at h
  cases h with
  | lexsOne h => cases hk; exact h
  | lexsMore _ _ h => cases hk; generalize hk' : SK.lexs v [] = k' at h; cases h <;> cases hk'
  | _ => cases hk

theorem Small.namesSnoc {k i j o} (h : Small C f ls k i j) : ∀ {l t t'}, k = .names l →
    j = t :: t' :: o → Is t .comma → t'.item.token = .ident →
    Small C f ls (.names (l ++ [C.text t'])) i o := by
  induction h with
  | namesOne h =>
    intro l t t' hk hj ht he; cases hk; subst hj; exact .namesMore h ht (.namesOne he)
  | namesMore h ht' _ ih =>
    intro l t t' hk hj ht he; cases hk
    exact .namesMore h ht' (ih rfl hj ht he)
  | _ => intro l t t' hk; cases hk

theorem Small.stmtsSnoc {k i j o} (h : Small C f ls k i j) : ∀ {l p}, k = .stmts l →
    Small C f ls (.part p) j o → Small C f ls (.stmts (l ++ [p])) i o := by
  induction h with
  | stop => intro l s hk hs; cases hk; exact .more hs .stop
  | more h _ _ ih =>
    intro l s hk hs; cases hk
    exact .more h (ih rfl hs)
  | _ => intro l s hk; cases hk

theorem small_list_one {e i o} (h : Small C f ls (.list [e]) i o) :
    Small C f ls (.expr 1 e) i o := by
  generalize hk : SK.list [e] = k at h
  cases h with
  | listOne h => cases hk; exact h
  | listMore _ _ h => cases hk; generalize hk' : SK.list [] = k' at h; cases h <;> cases hk'
  | _ => cases hk

theorem small_args_head {l i o} (h : Small C f ls (.args l) i o) :
    head i = .punct .openParen := by
  generalize hk : SK.args l = k at h
  cases h with
  | argsNone ht | args ht => exact ht
  | _ => cases hk

theorem small_list_length {k i o} (h : Small C f ls k i o) : ∀ {l}, k = .list l → 1 ≤ l.length := by
  induction h with
  | listOne => intro l hk; cases hk; simp
  | listMore => intro l hk; cases hk; simp
  | _ => intro l hk; cases hk

theorem small_decls_one {d i o} (h : Small C f ls (.decls [d]) i o) :
    Small C f ls (.decl d) i o := by
  generalize hk : SK.decls [d] = k at h
  cases h with
  | declsOne h => cases hk; exact h
  | declsMore _ _ h => cases hk; generalize hk' : SK.decls [] = k' at h; cases h <;> cases hk'
  | _ => cases hk

/-! ## Places -/

/-- What is a phrase where `in` is no operator is one where it is. -/
theorem Small.everywhere {k i o} (h : Small C f ls k i o) : Small C f.all ls k i o := by
  induction h
  case binary h ht hp _ h' ih ih' => exact .binary ih ht hp (fun _ => rfl) ih'
  all_goals first
    | (constructor <;> assumption)
    | grind [Small, Place.all, Place.body, Place.head]

/-- Calls and members may be anywhere. -/
theorem Small.closed {f' k i o} (h : Small C f' ls k i o) : ∀ {n e f}, k = .expr n e → f' = f.all →
    18 ≤ n ∨ 17 ≤ n ∧ head i = .keyword .new → Small C f ls k i o := by
  induction h with
  | name h => intro n e f hk hf hn; exact .name h
  | letName h => intro n e f hk hf hn; exact .letName h
  | number h => intro n e f hk hf hn; exact .number h
  | string h => intro n e f hk hf hn; exact .string h
  | boolean h => intro n e f hk hf hn; exact .boolean h
  | regex h h' h'' => intro n e f hk hf hn; exact .regex h h' h''
  | template h h' => intro n e f hk hf hn; exact .template h h'
  | this h => intro n e f hk hf hn; exact .this h
  | paren h1 h2 h3 => intro n e f hk hf hn; subst hf; exact .paren h1 h2 h3
  | array h1 h2 h3 => intro n e f hk hf hn; subst hf; exact .array h1 h2 h3
  | fnExpr h => intro n e f hk hf hn; subst hf; exact .fnExpr h
  | dot hm h h1 h2 ih =>
    intro n e f hk hf hn
    exact .dot hm (ih rfl hf (.inl (by omega))) h1 h2
  | tagged hm h h1 h2 ih =>
    intro n e f hk hf hn
    exact .tagged hm (ih rfl hf (.inl (by omega))) h1 h2
  | index hm h h1 h2 h3 ih =>
    intro n e f hk hf hn
    have := ih rfl hf (.inl (by omega))
    subst hf; exact .index hm this h1 h2 h3
  | newArgs h1 h2 h3 ih =>
    intro n e f hk hf hn
    have := ih rfl hf (.inl (by omega))
    subst hf; exact .newArgs h1 this h3
  | new h1 h2 h3 h4 ih =>
    intro n e f hk hf hn
    exact .new h1 (ih rfl hf (.inl (by omega))) h3 h4
  | call h1 h2 ih =>
    intro n e f hk hf hn
    have := ih rfl hf (.inl (by omega))
    subst hf; exact .call this h2
  | @«prefix» _ _ t op _ _ _ ht =>
    intro n e f hk hf hn
    cases hk
    rcases hn with hn | ⟨-, hn⟩
    · omega
    · simp only [head] at hn
      rw [ht] at hn
      cases op <;> cases hn
  | «postfix» h h1 h2 h3 ih =>
    intro n e f hk hf hn
    exact .postfix (ih rfl hf (.inl (by omega))) h1 h2 h3
  | weaken h hm ih =>
    intro n e f hk hf hn
    cases hk
    exact .weaken (ih rfl hf (hn.imp (by omega) fun ⟨h1, h2⟩ => ⟨by omega, h2⟩)) hm
  | @binary _ _ _ op _ _ _ _ _ _ _ hp =>
    intro n e f hk hf hn
    cases hk
    have : op.level ≤ 11 := by
      rcases op with o | o <;> cases o <;> first | exact absurd rfl hp | decide
    omega
  | unary | power | cond | assign | comma => intro n e f hk hf hn; cases hk; omega
  | _ => intro n e f hk; cases hk

/-! ## Tokens -/

theorem Ready.no {t : Tok} {i : List Tok} {x : Token} (h : Ready C fns (t :: i))
    (ht : t.item.token = x) (hx : smallToken true x = false) : False := by
  have := smallToken_true h.1
  rw [ht, hx] at this
  cases this

theorem Ready.pair {t t' : Tok} {i : List Tok} {x : Token} (h : Ready C fns (t :: t' :: i))
    (ht : t.item.token = x) : smallPair x t'.item.token = true := ht ▸ (h.2.2.2.2.1 _ _ rfl).1

theorem Ready.notNext {t : Tok} {i : List Tok} {x y : Token} (h : Ready C fns (t :: i))
    (ht : t.item.token = x) (hx : smallPair x y = false) (hy : y ≠ .eof) : head i ≠ y := by
  cases i with
  | nil => exact fun h => hy h.symm
  | cons t' i =>
    intro hh
    have := h.pair ht
    rw [show t'.item.token = y from hh, hx] at this
    cases this

/-- No array in a text with functions. -/
def bracketOk (fns : Bool) (i : List Tok) : Prop := fns = true → head i ≠ .punct .openBracket

/-- Neither an object nor, in a text with functions, an array. -/
def okStart (fns : Bool) (i : List Tok) : Prop := head i ≠ .punct .openBrace ∧ bracketOk fns i

theorem Ready.bracket {t : Tok} {i : List Tok} {x : Token} (h : Ready C fns (t :: i))
    (ht : t.item.token = x) (hy : fnPair x (.punct .openBracket) = false) : bracketOk fns i := by
  intro hf hh
  cases i with
  | nil => cases hh
  | cons t' i =>
    have := (h.2.2.2.2.1 _ _ rfl).2 hf
    rw [ht, show t'.item.token = _ from hh, hy] at this
    cases this

theorem Ready.start {t : Tok} {i : List Tok} {x : Token} (h : Ready C fns (t :: i))
    (ht : t.item.token = x) (hx : smallPair x (.punct .openBrace) = false)
    (hy : fnPair x (.punct .openBracket) = false) : okStart fns i :=
  ⟨h.notNext ht hx nofun, h.bracket ht hy⟩

theorem G.text {Γ nt i o} (h : G C Γ nt i o) (hi : Ready C fns i) : Ready C fns o := by
  obtain ⟨u, rfl⟩ := suffix_of_G h
  exact hi.suffix

theorem forOk.suffix {u o : List Tok} (h : forOk C (u ++ o)) : forOk C o := by
  induction u with
  | nil => exact h
  | cons t u ih => exact ih h.2.2

theorem G.forOk {Γ nt i o} (h : G C Γ nt i o) (hi : forOk C i) : forOk C o := by
  obtain ⟨u, rfl⟩ := suffix_of_G h
  exact hi.suffix

theorem noOf.suffix {u o : List Tok} (h : noOf C (u ++ o)) : noOf C o := by
  induction u with
  | nil => exact h
  | cons t u ih => exact ih h.2.2

theorem G.noOf {Γ nt i o} (h : G C Γ nt i o) (hi : noOf C i) : noOf C o := by
  obtain ⟨u, rfl⟩ := suffix_of_G h
  exact hi.suffix

theorem ends_of_semi {Γ j o} (h : G C Γ .semi j o) (hj : Ready C fns j) :
    C.ends j o ∧ bracketOk fns o := by
  cases h with
  | semiToken h => exact ⟨.inl ⟨_, h, rfl⟩, hj.bracket h rfl⟩
  | semiLine h =>
    refine ⟨.inr ⟨rfl, .inl h⟩, fun _ hh => ?_⟩
    cases j with
    | nil => cases hh
    | cons t j =>
      have := hj.2.2.2.1 h
      rw [show t.item.token = _ from hh] at this
      cases this
  | semiEnd h =>
    refine ⟨.inr ⟨rfl, .inr h.symm⟩, fun _ hh => ?_⟩
    rw [hh] at h; rcases h with h | h <;> cases h

theorem comma_of_sep {Γ j o} (hC : C.tolerant = false) (h : G C Γ .sep j o) :
    ∃ t, Is t .comma ∧ j = t :: o := by
  cases h with
  | sepComma h => exact ⟨_, h, rfl⟩
  | sepNone h => rw [hC] at h; cases h

/-! ## Targets -/

/-- Without functions, what the parser takes for a target is one. -/
def Aim : SK → Prop
  | .expr _ e => cover true e = true → target e = true
  | .list l => coverAll true l = true → targets l = true
  | .elems l => coverElems true l = true → targetElems l = true
  | _ => True

theorem small_aim {k i o} (h : Small C f ls k i o) (hi : Ready C false i) : Aim k := by
  induction h with
  | name | letName | template => exact fun _ => rfl
  | number | string | boolean | regex | this => intro h; simp [cover] at h
  | paren _ _ _ ih => exact ih hi.tail
  | array _ _ _ ih => intro h; simp only [cover] at h; simpa only [target] using ih hi.tail h
  | fnExpr h =>
    cases h with
    | fn ht =>
      have := hi.1
      rw [ht] at this; cases this
  | dot | index => exact fun _ => rfl
  | tagged _ _ _ _ ih => intro h; simp only [cover] at h; simpa only [target] using ih hi h
  | newArgs | new | call | «prefix» | «postfix» | unary | power | cond => intro h; simp [cover] at h
  | @binary _ _ _ op => intro h; cases op <;> simp [cover, Op.node] at h
  | @assign _ _ t p op _ _ _ _ _ _ hl =>
    intro h
    cases op <;> simp only [cover, Bool.false_eq_true] at h
    simpa only [target]
  | comma _ _ ih => intro h; simp only [cover] at h; simpa only [target] using ih hi h
  | weaken _ _ ih => exact ih hi
  | listOne _ ih =>
    intro h; simp only [coverAll, Bool.and_true] at h
    simpa only [targets, Bool.and_true] using ih hi h
  | listMore h' _ _ ih ih' =>
    intro h; simp only [coverAll, Bool.and_eq_true] at h
    simp only [targets, Bool.and_eq_true]
    exact ⟨ih hi h.1, ih' (h'.text hi).tail h.2⟩
  | elemsNone => exact fun _ => rfl
  | elemsHole _ _ ih =>
    intro h; simp only [coverElems] at h
    simpa only [targetElems] using ih hi.tail h
  | elemsMore h' _ _ ih ih' =>
    intro h; simp only [coverElems, Bool.and_eq_true] at h
    simp only [targetElems, Bool.and_eq_true]
    exact ⟨ih hi h.1, ih' (h'.text hi).tail h.2⟩
  | elemsLast _ ih =>
    intro h; simp only [coverElems, Bool.and_true] at h
    simpa only [targetElems, Bool.and_true] using ih hi h
  | _ => exact True.intro

/-- The last item of a phrase. -/
def Last (t : Tok) (i o : List Tok) : Prop := ∃ u, i = u ++ t :: o

theorem suffix_of_small {k i o} (h : Small C f ls k i o) : ∃ u, i = u ++ o := by
  have h0 : ∀ o : List Tok, ∃ u, o = u ++ o := fun o => ⟨[], rfl⟩
  have h1 : ∀ {t : Tok} {i o : List Tok}, (∃ u, i = u ++ o) → ∃ u, t :: i = u ++ o :=
    fun {t _ _} ⟨u, h⟩ => ⟨t :: u, by simp [h]⟩
  have h2 : ∀ {t : Tok} {i o : List Tok}, (∃ u, i = u ++ t :: o) → ∃ u, i = u ++ o :=
    fun {t _ _} ⟨u, h⟩ => ⟨u ++ [t], by simp [h]⟩
  have h3 : ∀ {i j o : List Tok}, (∃ u, i = u ++ j) → (∃ u, j = u ++ o) → ∃ u, i = u ++ o :=
    fun ⟨u, h⟩ ⟨v, h'⟩ => ⟨u ++ v, by simp [h, h']⟩
  have he : ∀ {j o : List Tok}, C.ends j o → ∃ u, j = u ++ o := by
    rintro j o (⟨t, -, rfl⟩ | ⟨rfl, -⟩)
    · exact ⟨[t], rfl⟩
    · exact ⟨[], rfl⟩
  have hS : ∃ S : List Tok → List Tok → Prop, S = fun i o => ∃ u, i = u ++ o := ⟨_, rfl⟩
  obtain ⟨S, hS⟩ := hS
  have hS' : ∀ i o, S i o = ∃ u, i = u ++ o := fun i o => by rw [hS]
  simp only [← hS'] at *
  clear hS hS'
  induction h <;> grind

theorem fn_last {g i o} (h : Small C f ls (.fn g) i o) :
    head i = .keyword .function ∧ ∃ t, Is t .closeBrace ∧ Last t i o := by
  cases h with
  | @fn _ _ t _ _ _ _ _ _ _ ht h h' h'' =>
    refine ⟨ht, ?_⟩
    obtain ⟨u, rfl⟩ := suffix_of_small h
    obtain ⟨v, rfl⟩ := suffix_of_small h'
    cases h'' with
    | @braces _ _ t1 _ _ _ _ h1 h2 h3 =>
      obtain ⟨w, rfl⟩ := suffix_of_small h2
      exact ⟨_, h3, t :: (u ++ (v ++ t1 :: w)), by simp⟩

/-- With functions, neither, unless it is in parentheses, an array or a function, with tags. -/
theorem small_root {k i o} (h : Small C f ls k i o) : ∀ {n e}, k = .expr n e → 4 ≤ n →
    cover true e = true → target e = true ∨ head i = .punct .openBracket ∨
      (head i = .punct .openParen ∨ head i = .keyword .function) ∧
        ∃ t, (Is t .closeParen ∨ Is t .closeBrace ∨ t.item.token = .template .noSub) ∧
          Last t i o := by
  induction h with
  | name | letName | template => intro n e hk _ _; cases hk; exact .inl rfl
  | tagged hm h ht _ ih =>
    intro n e hk _ hc; cases hk
    simp only [cover] at hc
    rcases ih rfl (by omega) hc with h1 | h1 | ⟨h1, -⟩
    · exact .inl (by simpa only [target] using h1)
    · exact .inr (.inl h1)
    · obtain ⟨u, hu⟩ := suffix_of_small h
      exact .inr (.inr ⟨h1, _, .inr (.inr ht), u, hu⟩)
  | dot | index => intro n e hk _ _; cases hk; exact .inl rfl
  | number | string | boolean | regex | this | newArgs | new | call | «prefix» | «postfix» | unary | power =>
    intro n e hk _ h; cases hk; simp [cover] at h
  | @binary _ _ _ op => intro n e hk _ h; cases hk; cases op <;> simp [cover, Op.node] at h
  | @paren _ _ t _ _ _ _ ht h ht' =>
    intro n e hk _ _; cases hk
    obtain ⟨u, rfl⟩ := suffix_of_small h
    exact .inr (.inr ⟨.inl ht, _, .inl ht', t :: u, by simp⟩)
  | array ht => intro n e hk _ _; cases hk; exact .inr (.inl ht)
  | fnExpr h =>
    intro n e hk _ _; cases hk
    obtain ⟨h1, t, h2, h3⟩ := fn_last h
    exact .inr (.inr ⟨.inr h1, t, .inr (.inl h2), h3⟩)
  | weaken _ hm ih => intro n e hk hn h; cases hk; exact ih rfl (by omega) h
  | cond | assign | comma => intro n e hk hn _; cases hk; omega
  | _ => intro n e hk; cases hk

/-- What is assigned to. -/
theorem aim_left {n e t i o} (h : Small C f ls (.expr n e) i (t :: o)) (hi : Ready C fns i)
    (hb : okStart fns i) (hn : 4 ≤ n) (ht : assigns t.item.token = true)
    (he : cover true e = true) : target e = true := by
  cases fns with
  | false => exact small_aim h hi he
  | true =>
    rcases small_root h rfl hn he with h1 | h1 | ⟨-, t', h2, u, rfl⟩
    · exact h1
    · exact absurd h1 (hb.2 rfl)
    · have := (hi.suffix.2.2.2.2.1 _ _ rfl).2 rfl
      have ha : t.item.token ≠ .punct .openBracket := by
        intro hh; rw [hh] at ht; cases ht
      have : assigns t.item.token = false := by
        revert this ha
        generalize t.item.token = x
        intro this ha
        rcases h2 with h2 | h2 | h2 <;> rw [show t'.item.token = _ from h2] at this <;>
          (unfold fnPair at this; split at this <;> simp_all)
      rw [this] at ht; cases ht

/-- What is incremented. -/
theorem aim_right {n e t i o} {op : UpdateOperator} (h : Small C f ls (.expr n e) i o)
    (hi : Ready C fns (t :: i)) (hn : 4 ≤ n) (ht : t.item.token = updateToken op)
    (he : cover true e = true) : target e = true := by
  cases fns with
  | false => exact small_aim h hi.tail he
  | true =>
    have hp : ∀ x, fnPair (updateToken op) x = false → x ≠ .eof → head i ≠ x := by
      intro x hx hx' hh
      cases i with
      | nil => exact hx' hh.symm
      | cons t' i =>
        have := (hi.2.2.2.2.1 _ _ rfl).2 rfl
        rw [ht, show t'.item.token = x from hh, hx] at this
        cases this
    rcases small_root h rfl hn he with h1 | h1 | ⟨h1 | h1, -⟩
    · exact h1
    · exact absurd h1 (hp _ (by cases op <;> rfl) nofun)
    · exact absurd h1 (hp _ (by cases op <;> rfl) nofun)
    · exact absurd h1 (hp _ (by cases op <;> rfl) nofun)

/-! ## Names -/

theorem ident_of_small {k i o} (h : Small C f ls k i o) : ∀ {n m}, k = .expr n (.ident m) →
    head i = .ident → ∃ t, t.item.token = .ident ∧ i = t :: o ∧ m = C.text t := by
  induction h with
  | name h => intro n m hk _; cases hk; exact ⟨_, h, rfl, rfl⟩
  | paren ht => intro n m hk hh; simp only [head] at hh; rw [show _ = _ from ht] at hh; cases hh
  | letName ht => intro n m hk hh; simp only [head] at hh; rw [show _ = _ from ht] at hh; cases hh
  | weaken _ _ ih => intro n m hk hh; cases hk; exact ih rfl hh
  | @binary _ _ _ op =>
    intro n m hk _
    rcases op with o | o <;> cases o <;> simp [Op.node] at hk
  | _ => intro n m hk; cases hk

theorem plainHead_ident {t : Tok} {i : List Tok} (h : plainHead (t :: i) = true)
    (ht : t.item.token = .ident) : plainHead i = true := by
  simpa only [plainHead, ht] using h

theorem plainHead_open {t : Tok} {i : List Tok} (h : plainHead (t :: i) = true)
    (ht : Is t .openParen) : plainHead i = true := by
  simpa only [plainHead, show t.item.token = _ from ht] using h

theorem plainHead_comma {t : Tok} {i : List Tok} (h : plainHead (t :: i) = true)
    (ht : Is t .comma) : plainHead i = true := by
  simpa only [plainHead, show t.item.token = _ from ht] using h

theorem plainHead_no {t : Tok} {i : List Tok} {x : Token} (h : plainHead (t :: i) = true)
    (ht : t.item.token = x)
    (hx : x ≠ .punct .closeParen ∧ x ≠ .ident ∧ x ≠ .punct .openParen ∧ x ≠ .punct .comma) :
    False := by
  subst ht
  unfold plainHead at h
  split at h <;> simp_all

theorem name_of_pattern {Γ b p i o} (h : G C Γ (.pattern none b p) i o)
    (hi : plainHead i = true) :
    ∃ t, t.item.token = .ident ∧ i = t :: o ∧ p = .identifier (C.text t) := by
  cases h with
  | patIdent h =>
    cases h with
    | identIdent h => exact ⟨_, h, rfl, rfl⟩
    | identYield h => exact (plainHead_no hi h (by simp)).elim
    | identKeyword h => exact (plainHead_no hi h (by simp)).elim
  | patArray h => exact (plainHead_no hi h (by simp)).elim
  | patObject h => exact (plainHead_no hi h (by simp)).elim

theorem name_of_param {Γ b a i o} (h : G C Γ (.param b a) i o) (hi : plainHead i = true) :
    ∃ t, t.item.token = .ident ∧ i = t :: o ∧ a = .pat (.identifier (C.text t)) := by
  cases h with
  | paramRest h => cases h with | rest h => exact (plainHead_no hi h (by simp)).elim
  | param h =>
    cases h with
    | patNoDefault h =>
      obtain ⟨t, h1, h2, rfl⟩ := name_of_pattern h hi
      exact ⟨t, h1, h2, rfl⟩
    | patDefault h h' =>
      obtain ⟨t, h1, rfl, rfl⟩ := name_of_pattern h hi
      exact (plainHead_no (plainHead_ident hi h1) h' (by simp)).elim

theorem prologue_head {Γ nt i j} (h : G C Γ nt i j) : ∀ {l}, nt = .prologue l →
    l = [] ∧ i = j ∨ head i = .string := by
  induction h
  case prologueNil => intro l hk; cases hk; exact .inl ⟨rfl, rfl⟩
  case prologueMore h _ ih _ =>
    intro l hk
    rcases ih rfl with ⟨-, rfl⟩ | h1
    · exact .inr h
    · exact .inr h1
  all_goals intro l hk; cases hk

theorem name_of_decl {Γ opt id i o} (h : G C Γ (.declName opt id) i o) (hi : Ready C fns i)
    (hp : plainHead i = true) : Small C f ls (.fnName id) i o ∧ plainHead o = true := by
  cases h with
  | declNameNone h => exact ⟨.fnAnonymous h, hp⟩
  | declName h =>
    cases h with
    | identIdent h => exact ⟨.fnNamed h, plainHead_ident hp h⟩
    | identYield h => exact (hi.no h rfl).elim

theorem name_of_expr {Γ id i o} (h : G C Γ (.exprName id) i o) (hi : Ready C fns i)
    (hp : plainHead i = true) : Small C f ls (.fnName id) i o ∧ plainHead o = true := by
  cases h with
  | exprNameNone h => exact ⟨.fnAnonymous h, hp⟩
  | exprName h =>
    cases h with
    | fnName h =>
      cases h with
      | identIdent h => exact ⟨.fnNamed h, plainHead_ident hp h⟩
      | identYield h => exact (hi.no h rfl).elim
    | fnNameYield h => exact (hi.no h rfl).elim

theorem not_async {Γ a t i i'} (h : G C Γ (.asyncOpt a) i (t :: i')) (hi : Ready C fns i) :
    a = false ∧ i = t :: i' := by
  cases h with
  | asyncNo => exact ⟨rfl, rfl⟩
  | asyncYes h => exact absurd h hi.2.1

theorem not_star {Γ g i j} (h : G C Γ (.starOpt g) i j) (hi : plainHead i = true) :
    g = false ∧ i = j := by
  cases h with
  | starNo => exact ⟨rfl, rfl⟩
  | starYes h => exact (plainHead_no hi h (by simp)).elim

/-- Neither array nor object. -/
def okPat (i : List Tok) : Prop := head i ≠ .punct .openBracket ∧ head i ≠ .punct .openBrace

theorem Ready.pat {t : Tok} {i : List Tok} {x : Token} (h : Ready C fns (t :: i))
    (ht : t.item.token = x) (hx : smallPair x (.punct .openBrace) = false)
    (hy : smallPair x (.punct .openBracket) = false) : okPat i :=
  ⟨h.notNext ht hy nofun, h.notNext ht hx nofun⟩

theorem name_of_var {Γ b p i o} (h : G C Γ (.pattern (some .var) b p) i o)
    (hi : Ready C fns i) (hp : okPat i) :
    ∃ t, i = t :: o ∧ (t.item.token = .ident ∧ p = .identifier (C.text t) ∨
      ∃ k, Kw t k ∧ k ≠ .let ∧ p = .identifier k.text) := by
  cases h with
  | patVar h =>
    cases h with
    | identIdent h => exact ⟨_, rfl, .inl ⟨h, rfl⟩⟩
    | identYield h => exact (hi.no h rfl).elim
    | identKeyword h h' => exact ⟨_, rfl, .inr ⟨_, h, h', rfl⟩⟩
  | patLexical h => rcases h with h | h <;> cases h
  | patArray h => exact absurd h hp.1
  | patObject h => exact absurd h hp.2

theorem name_of_lex {Γ k b p i o} (h : G C Γ (.pattern (some k) b p) i o) (hk : k = .let ∨ k = .const)
    (hi : Ready C fns i) (hp : okPat i) :
    ∃ t, i = t :: o ∧ t.item.token = .ident ∧ p = .identifier (C.text t) := by
  cases h with
  | patVar h => rcases hk with h | h <;> cases h
  | patLexical _ _ h =>
    cases h with
    | identIdent h => exact ⟨_, rfl, h, rfl⟩
    | identYield h => exact (hi.no h rfl).elim
  | patArray h => exact absurd h hp.1
  | patObject h => exact absurd h hp.2

/-- An expression does not go on from `let` to a name. -/
theorem let_stuck {k i o} (h : Small C f ls k i o) : ∀ {t t' r},
    (∃ n e, k = .expr n e) ∨ (∃ l, k = .list l) → i = t :: t' :: r → Kw t .let →
    t'.item.token = .ident → o = t' :: r := by
  induction h with
  | letName ht => intro t t' r _ hi _ _; cases hi; rfl
  | name ht | number ht | string ht | boolean ht | regex ht | template ht | this ht | paren ht | array ht
  | newArgs ht | new ht =>
    intro t t' r _ hi h1 _; cases hi
    cases (show _ = _ from ht).symm.trans (show _ = _ from h1)
  | fnExpr h =>
    intro t t' r _ hi h1 _; subst hi
    have := (fn_last h).1
    cases (show _ = _ from h1).symm.trans this
  | @«prefix» _ _ _ op _ _ _ ht =>
    intro t t' r _ hi h1 _; cases hi
    rw [show _ = _ from h1] at ht; cases op <;> cases ht
  | unary ht =>
    intro t t' r _ hi h1 _; cases hi
    rw [show _ = _ from h1] at ht; cases ht
  | dot _ _ ht _ ih | tagged _ _ ht _ ih | index _ _ ht _ _ ih _ | power _ ht _ ih _ | cond _ ht _ _ _ ih _ _
  | assign _ _ ht _ _ ih _ =>
    intro t t' r _ hi h1 h2
    cases ih (.inl ⟨_, _, rfl⟩) hi h1 h2
    rw [show _ = _ from ht] at h2; cases h2
  | call _ h ih =>
    intro t t' r _ hi h1 h2
    cases ih (.inl ⟨_, _, rfl⟩) hi h1 h2
    cases h2.symm.trans (small_args_head h)
  | @«postfix» _ _ _ op _ _ _ _ _ ht _ ih =>
    intro t t' r _ hi h1 h2
    cases ih (.inl ⟨_, _, rfl⟩) hi h1 h2
    rw [h2] at ht; cases op <;> cases ht
  | @binary _ _ _ op _ _ _ _ _ _ ht _ _ _ ih =>
    intro t t' r _ hi h1 h2
    cases ih (.inl ⟨_, _, rfl⟩) hi h1 h2
    rw [h2] at ht
    rcases op with o | o <;> cases o <;> cases ht
  | comma _ _ ih => intro t t' r _ hi h1 h2; exact ih (.inr ⟨_, rfl⟩) hi h1 h2
  | weaken _ _ ih => intro t t' r _ hi h1 h2; exact ih (.inl ⟨_, _, rfl⟩) hi h1 h2
  | listOne _ ih => intro t t' r _ hi h1 h2; exact ih (.inl ⟨_, _, rfl⟩) hi h1 h2
  | listMore _ ht _ ih =>
    intro t t' r _ hi h1 h2
    cases ih (.inl ⟨_, _, rfl⟩) hi h1 h2
    rw [show _ = _ from ht] at h2; cases h2
  | _ => intro t t' r hk; rcases hk with ⟨n, e, hk⟩ | ⟨l, hk⟩ <;> cases hk

theorem ends_not_in {j : List Tok} (h : Ready C fns j) (hj : head j = .keyword .in)
    (hn : C.nl j = true) : False := by
  cases j with
  | nil => cases hj
  | cons t j =>
    have := h.2.2.2.1 hn
    rw [show t.item.token = _ from hj] at this; cases this

theorem lexKind_or {t : Tok} {k : VariableKind} (h : lexKind t k) : k = .let ∨ k = .const :=
  h.imp (·.2) (·.2)

theorem Ready.lexPat {t : Tok} {k : VariableKind} {i : List Tok} (hi : Ready C fns (t :: i))
    (h : lexKind t k) : okPat i := by
  rcases h with ⟨h, -⟩ | ⟨h, -⟩ <;> exact hi.pat h rfl rfl

theorem Ready.lexOf {t : Tok} {k : VariableKind} {i : List Tok} (hi : Ready C fns (t :: i))
    (h : lexKind t k) (hk : k = .const) : noOf C i := by
  subst hk
  rcases h with ⟨-, h⟩ | ⟨h, -⟩
  · cases h
  · exact hi.letOk.2.2.1 h

/-- What may follow `let`, and where. -/
def letNext (i : List Tok) : Prop := head i = .keyword .let → head i.tail = .ident

theorem not_let {n e i o} {x : Token} (h : Small C f ls (.expr n e) i o) (hi : letNext i)
    (ho : head o = x) (hx : x ≠ .ident) : head i ≠ .keyword .let := by
  intro hh
  have h1 := hi hh
  rcases i with _ | ⟨t, _ | ⟨t', r⟩⟩
  · cases hh
  · cases h1
  · have := let_stuck h (.inl ⟨_, _, rfl⟩) rfl hh h1
    subst this
    exact hx (ho.symm.trans h1)

theorem stmt_not_let {s i o} (h : Small C f ls (.stmt s) i o) (hi : Ready C fns i)
    (hh : head i = .keyword .let) : head i.tail ≠ .ident := by
  intro h1
  rcases i with _ | ⟨t, _ | ⟨t', r⟩⟩
  · cases hh
  · cases h1
  · have hn := hi.letOk.1 hh h1
    have hh : t.item.token = .keyword .let := hh
    have h1 : t'.item.token = .ident := h1
    generalize hk : SK.stmt s = k at h
    generalize hj : t :: t' :: r = j at h
    cases h with
    | expr hf h he =>
      subst hj
      have := let_stuck h (.inl ⟨_, _, rfl⟩) rfl hh h1
      subst this
      rcases he with ⟨x, hx, he⟩ | ⟨rfl, he | he | he⟩
      · cases he; cases h1.symm.trans hx
      · rw [hn] at he; cases he
      · simp only [head, h1] at he; cases he
      · simp only [head, h1] at he; cases he
    | fnStmt h =>
      subst hj
      have := (fn_last h).1
      simp only [head, hh] at this; cases this
    | block h =>
      subst hj
      cases h with | braces ht => cases hh.symm.trans ht
    | _ =>
      first
        | (cases hk; done)
        | (cases hj; simp_all)

theorem update_token {t : Tok} {op : UpdateOperator}
    (h : Is t .increment ∧ op = .increment ∨ Is t .decrement ∧ op = .decrement) :
    t.item.token = updateToken op := by
  rcases h with ⟨h, rfl⟩ | ⟨h, rfl⟩ <;> exact h

theorem assigns_update {t : Tok} {op : UpdateOperator} (h : t.item.token = updateToken op) :
    assigns t.item.token = true := by
  rw [h]; cases op <;> rfl

/-! ## From the grammar of the parser to the small language -/

/-- A `new` without arguments, which nothing that continues it follows. -/
def BareNew (C : Cfg) (f : Place) (ls : List Txt) (e : Expr) (i o : List Tok) : Prop :=
  Small C f ls (.expr 17 e) i o ∧ head i = .keyword .new ∧ memEnd o ∧
    head o ≠ .punct .openParen ∧ cover true e = false

/-- What is proved of each kind of phrase. -/
def Back' (C : Cfg) (fns : Bool) (f : Place) (ls : List Txt) (i o : List Tok) : NT → Prop
  | .primary e => okStart fns i → Small C f ls (.expr 19 e) i o
  | .group e | .array e => Small C f ls (.expr 20 e) i o
  | .elems l => okStart fns i →
      (okStart fns o ∧ ∀ l' o', Small C f ls (.elems l') o o' →
        Small C f ls (.elems (l ++ l')) i o') ∨
      head o = .punct .closeBracket ∧ Small C f ls (.elems l) i o
  | .newExpr e | .operand e => okStart fns i →
      Small C f ls (.expr 19 e) i o ∨ BareNew C f ls e i o
  | .member e => okStart fns i → head i ≠ .keyword .new → Small C f ls (.expr 19 e) i o
  | .call e => okStart fns i → Small C f ls (.expr 18 e) i o ∨ BareNew C f ls e i o
  | .update e => okStart fns i → Small C f ls (.expr 17 e) i o
  | .unary e => okStart fns i → Small C f ls (.expr 16 e) i o
  | .expo e => okStart fns i → Small C f ls (.expr 15 e) i o
  | .bin n e => okStart fns i → n ≤ 12 → Small C f ls (.expr (n + 3) e) i o
  | .cond e => okStart fns i →
      Small C f ls (.expr 4 e) i o ∨ Small C f ls (.expr 3 e) i o ∧ cover true e = false
  | .assign e | .arg e => okStart fns i → Small C f ls (.expr 1 e) i o
  | .expression e => okStart fns i → Small C f ls (.expr 0 e) i o
  | .groupSeq l | .argSeq l | .exprSeq l => okStart fns i → Small C f ls (.list l) i o
  | .args l => Small C f ls (.args l) i o
  | .tplSeq es qs | .tpl es qs => ∃ t w, t.item.token = .template .noSub ∧
      C.text t = '`' :: (w ++ ['`']) ∧ i = t :: o ∧ es = [] ∧ qs = [⟨C.text t, w, true⟩]
  | .body l => Small C f.body [] (.block l) i o ∧ bracketOk fns o
  | .paramSeq _ l => plainHead i = true → plainHead o = true ∧
      ∃ ns : List Txt, l = ns.map (fun n => .pat (.identifier n)) ∧ Small C f ls (.names ns) i o
  | .params _ l => plainHead i = true →
      ∃ ns : List Txt, l = ns.map (fun n => .pat (.identifier n)) ∧ Small C f ls (.params ns) i o
  | .fnDecl _ g => Small C f ls (.fn g) i o ∧ bracketOk fns o ∧ head i = .keyword .function
  | .fnExpr e => ∃ g, e = .function g ∧ Small C f ls (.fn g) i o
  | .block l => Small C f ls (.block l) i o ∧ bracketOk fns o
  | .varDecl _ _ d => okPat i → Small C f ls (.decl d) i o
  | .varDecls _ _ l => okPat i → Small C f ls (.decls l) i o
  | .lexDecl k _ d => okPat i → k = .let ∨ k = .const → (k = .const → noOf C i) →
      Small C f ls (.lex k d) i o ∨ k = .const ∧ head o = .keyword .in ∧
        ∃ t, t.item.token = .ident ∧ i = t :: o ∧ d = .mk (.identifier (C.text t)) none
  | .lexDecls k _ l => okPat i → k = .let ∨ k = .const → (k = .const → noOf C i) →
      Small C f ls (.lexs k l) i o ∨ k = .const ∧ head o = .keyword .in ∧
        (2 ≤ l.length ∨
          ∃ t, t.item.token = .ident ∧ i = t :: o ∧ l = [.mk (.identifier (C.text t)) none])
  | .lexical _ d => Small C f ls (.part (.decl d)) i o ∧ bracketOk fns o
  | .catchClause c => Small C f ls (.handler (some c)) i o ∧ bracketOk fns o
  | .handler c => Small C f ls (.handler c) i o ∧ (bracketOk fns i → bracketOk fns o)
  | .finalizer c => Small C f ls (.final c) i o ∧ (bracketOk fns i → bracketOk fns o)
  | .caseTest none => ∃ t, Kw t .default ∧ i = t :: o
  | .caseTest (some e) => ∃ t i', Kw t .case ∧ i = t :: i' ∧ Small C f ls (.expr 0 e) i' o
  | .switchCase c => ∀ d l' o', (isDefault c = true → d = false) →
      Small C f ls (.cases (d || isDefault c) l') o o' → Small C f ls (.cases d (c :: l')) i o'
  | .cases d l => ∀ l' o', Small C f ls (.cases d l') o o' →
      Small C f ls (.cases false (l ++ l')) i o'
  | .optLabel k n => bracketOk fns o ∧ ∃ t i', Kw t k ∧ i = t :: i' ∧
      Small C f ls (.label n) i' o
  | .loopBody s => bracketOk fns o ∧ ∃ t i', Is t .closeParen ∧ i = t :: i' ∧
      Small C f ls (.stmt s) i' o
  | .optExpr p e => okStart fns i → p = .semiColon ∨ p = .closeParen → Small C f ls (.opt e) i o
  | .forCont x s => forOk C i → bracketOk fns o ∧ head i = .punct .semiColon ∧
      ∀ t t' i', Kw t .for → Is t' .openParen → Small C f ls (.init x) i' i →
        Small C f ls (.stmt s) (t :: t' :: i') o
  | .forSeq l => okStart fns i → ∃ e l', l = e :: l' ∧
      (l' = [] ∧ Small C f.head ls (.expr 1 e) i o ∨
        ∃ t j, Small C f.head ls (.expr 1 e) i (t :: j) ∧ Is t .comma ∧
          Small C f ls (.list l') j o)
  | .forHead _ s => letNext i → forOk C i → okStart fns i → bracketOk fns o ∧
      ∀ t t', Kw t .for → Is t' .openParen → Small C f ls (.stmt s) (t :: t' :: i) o
  | .exprStmt e => okStart fns i →
      (∃ j, Small C f ls (.expr 0 e) i j ∧ C.ends j o) ∧ bracketOk fns o
  | .stmt s | .labelBody s => bracketOk fns i → Small C f ls (.stmt s) i o ∧ bracketOk fns o
  | .listItem p => bracketOk fns i → Small C f ls (.part p) i o ∧ bracketOk fns o
  | .items l => bracketOk fns i → Small C f ls (.stmts l) i o ∧ bracketOk fns o
  | _ => True

/-- See above. -/
def Back (C : Cfg) (fns : Bool) (Γ : Env) (i o : List Tok) (nt : NT) : Prop :=
  ∀ ls : List Txt, Γ.labels = ls.map ('$' :: ·) → Ready C fns i →
    Back' C fns ⟨Γ.inFn, Γ.allowIn⟩ ls i o nt

set_option maxHeartbeats 4000000 in
theorem small_back {Γ nt i o} (hC : C.tolerant = false)
    (hx : ∀ k, smallToken true (.keyword k) = true → k ≠ .let →
      C.ext.isStrictReserved (.keyword k) = false)
    (h : G C Γ nt i o) : Back C fns Γ i o nt := by
  induction h
  all_goals try exact fun _ _ _ => True.intro
  case tplFirst hh h _ =>
    intro ls hl hi
    cases h with
    | tplMid h => rcases h with h | h <;> exact (hi.no h rfl).elim
    | tplEnd h h' =>
      rcases h with h | h
      · exact (hi.no h rfl).elim
      · obtain ⟨w, hw⟩ := hi.2.2.2.2.2.2.2.2.1.2 h
        refine ⟨_, w, h, hw, rfl, rfl, ?_⟩
        have h1 : sliceB ('`' :: (w ++ ['`'])) 1 (blen ('`' :: (w ++ ['`'])) - 1) = some w :=
          sliceB_iff.2 ⟨['`'], ['`'], by simp, by decide, by
            simp [show '`'.utf8Size = 1 by decide]; omega⟩
        rw [hw, h1] at h'
        rw [Option.some.inj h']
  case tplMore hq _ _ ih _ _ =>
    intro ls hl hi
    obtain ⟨t, w, -, -, -, -, rfl⟩ := ih ls hl hi
    cases hq
  case tpl ih => exact ih
  case argSpread h _ => intro ls hl hi _; cases h with | spread h => exact (hi.no h rfl).elim
  case arg ih => exact ih
  case argFirst ih => exact fun ls hl hi hb => .listOne (ih ls hl hi hb)
  case argMore h hs _ ih _ ih' =>
    intro ls hl hi hb
    obtain ⟨t, ht, rfl⟩ := comma_of_sep hC hs
    have := h.text hi
    exact (ih ls hl hi hb).listSnoc rfl rfl ht (ih' ls hl this.tail (this.start ht rfl rfl))
  case argsNone ht ht' => exact fun _ _ _ => .argsNone ht ht'
  case args ht h ht' ih =>
    exact fun ls hl hi => .args ht (ih ls hl hi.tail (hi.start ht rfl rfl)) ht'
  case argsSep ht h hs ht' ih _ =>
    intro ls hl hi
    obtain ⟨t, h1, rfl⟩ := comma_of_sep hC hs
    have := (h.text hi.tail).pair h1
    rw [ht'] at this
    cases this
  case elemsNil => exact fun ls hl hi hb => .inl ⟨hb, fun _ _ h => h⟩
  case elemsHole h ht ih =>
    intro ls hl hi hb
    rcases ih ls hl hi hb with ⟨-, h1⟩ | ⟨h1, -⟩
    · refine .inl ⟨(h.text hi).start ht rfl rfl, fun l' o' h' => ?_⟩
      simpa using h1 _ _ (.elemsHole ht h')
    · simp only [head, show _ = _ from ht] at h1; cases h1
  case elemsComma h h' ht ih ih' =>
    intro ls hl hi hb
    have h1 := h.text hi
    rcases ih ls hl hi hb with ⟨hb', h2⟩ | ⟨h2, -⟩
    · refine .inl ⟨(h'.text h1).start ht rfl rfl, fun l' o' h3 => ?_⟩
      simpa using h2 _ _ (.elemsMore (ih' ls hl h1 hb') ht h3)
    · have h3 := ih' ls hl h1 ⟨by rw [h2]; nofun, fun _ => by rw [h2]; nofun⟩
      have := (small_fit hx h3 h1).1
      rw [h2] at this; cases this
  case elemsLast h h' ho ih ih' =>
    intro ls hl hi hb
    have h1 := h.text hi
    rcases ih ls hl hi hb with ⟨hb', h2⟩ | ⟨h2, -⟩
    · exact .inr ⟨ho, h2 _ _ (.elemsLast (ih' ls hl h1 hb'))⟩
    · have h3 := ih' ls hl h1 ⟨by rw [h2]; nofun, fun _ => by rw [h2]; nofun⟩
      have := (small_fit hx h3 h1).1
      rw [h2] at this; cases this
  case array ht h ht' ih =>
    intro ls hl hi
    rcases ih ls hl hi.tail (hi.start ht rfl rfl) with ⟨-, h1⟩ | ⟨-, h1⟩
    · refine .array ht (Small.everywhere ?_) ht'
      simpa using h1 _ _ .elemsNone
    · exact .array ht h1.everywhere ht'
  case groupFirst ih => exact fun ls hl hi hb => .listOne (ih ls hl hi hb)
  case groupMore h ht _ ih ih' =>
    intro ls hl hi hb
    have := h.text hi
    exact (ih ls hl hi hb).listSnoc rfl rfl ht (ih' ls hl this.tail (this.start ht rfl rfl))
  case group l _ _ _ _ ht h ht' _ ih =>
    intro ls hl hi
    have h1 := ih ls hl hi.tail (hi.start ht rfl rfl)
    refine .paren ht (Small.everywhere ?_) ht'
    cases l with
    | nil => have := small_list_length h1 rfl; simp at this
    | cons e l =>
      cases l with
      | nil => exact .weaken (small_list_one h1) (by omega)
      | cons e' l => exact .comma h1 (by simp)
  case groupArrow ht h ht' ho _ ih =>
    intro ls hl hi
    have := smallToken_true (h.text hi.tail).tail.token
    rw [ho] at this; cases this
  case groupNone ht ht' ho =>
    intro ls hl hi
    have := smallToken_true hi.tail.tail.token
    rw [ho] at this; cases this
  case groupRest ht h ht' ho _ =>
    intro ls hl hi
    have := smallToken_true (h.text hi.tail).tail.token
    rw [ho] at this; cases this
  case groupTrailing ht h ht' ht'' ih =>
    intro ls hl hi
    have := (h.text hi.tail).pair ht'
    rw [ht''] at this; cases this
  case groupSeqRest ht h ht' _ hr ht'' ih _ =>
    intro ls hl hi
    cases hr with
    | rest h1 => exact ((h.text hi.tail).tail.no h1 rfl).elim
  case primIdent ht => exact fun _ _ _ _ => .weaken (.name ht) (by omega)
  case primKeyword k _ ht _ hk =>
    intro ls hl hi _
    have h1 := smallToken_true hi.1
    rw [ht] at h1
    rcases hk with ⟨rfl, -⟩ | rfl | hk
    · cases h1
    · exact .letName ht
    · by_cases hl : k = .let
      · subst hl; exact .letName ht
      · rw [hx k h1 hl] at hk; cases hk
  case primImport ht _ => exact fun ls hl hi _ => (hi.no ht rfl).elim
  case primFunction ih =>
    intro ls hl hi _
    obtain ⟨g, rfl, h⟩ := ih ls hl hi
    exact .weaken (.fnExpr h.everywhere) (by omega)
  case primNumber ht => exact fun _ _ _ _ => .weaken (.number ht) (by omega)
  case primString ht => exact fun _ _ _ _ => .weaken (.string ht) (by omega)
  case primBool ht => exact fun _ _ _ _ => .weaken (.boolean ht) (by omega)
  case primRegex ht hc hf =>
    intro ls hl hi _
    obtain ⟨w, hw⟩ := hi.2.2.2.2.2.2.2.2.1.1 ht
    rw [hw] at hc
    simp only [List.cons_append, List.cons.injEq] at hc
    obtain ⟨rfl, rfl⟩ := hc
    exact .weaken (.regex ht hw hf) (by omega)
  case primTemplate ih =>
    intro ls hl hi _
    obtain ⟨t, w, ht, hw, rfl, rfl, rfl⟩ := ih ls hl hi
    exact .weaken (.template ht hw) (by omega)
  case primGroup ih => exact fun ls hl hi _ => .weaken (ih ls hl hi) (by omega)
  case primArray ih => exact fun ls hl hi _ => .weaken (ih ls hl hi) (by omega)
  case primObject h _ => intro ls hl hi hb; cases h with | object h => exact absurd h hb.1
  case primThis ht => exact fun _ _ _ _ => .weaken (.this ht) (by omega)
  case primClass h _ => intro ls hl hi _; cases h <;> exact (hi.no ‹_› rfl).elim
  case newTarget ht ht' _ _ =>
    intro ls hl hi _
    have := hi.pair ht
    rw [ht'] at this; cases this
  case newBare ht _ h ho ho' ih =>
    intro ls hl hi _
    have h1 := ih ls hl hi.tail (hi.start ht rfl rfl) (hi.notNext ht rfl nofun)
    exact .inr ⟨.new ht h1 ho ho', ht, ho, ho', rfl⟩
  case newArgs ht _ h _ ih ih' =>
    intro ls hl hi _
    have h1 := ih ls hl hi.tail (hi.start ht rfl rfl) (hi.notNext ht rfl nofun)
    exact .inl (.newArgs ht h1 (ih' ls hl (h.text hi.tail)).everywhere)
  case opNew ih => exact ih
  case opPrimary ih => exact fun ls hl hi hb => .inl (ih ls hl hi hb)
  case memSuper ht _ _ => exact fun ls hl hi _ => (hi.no ht rfl).elim
  case memOperand ih =>
    intro ls hl hi hb hn
    rcases ih ls hl hi hb with h | ⟨-, h, -⟩
    · exact h
    · exact absurd h hn
  case memDot h ht hn ih _ =>
    intro ls hl hi hb hh
    cases hn with
    | name =>
      have := (h.text hi).pair ht
      refine .dot (.inr rfl) (ih ls hl hi hb hh) ht ?_
      revert this
      generalize Item.token _ = x
      intro h
      cases x with
      | punct p => cases p <;> cases h
      | _ => first | rfl | cases h
  case memIndex h ht h' ht' ih ih' =>
    intro ls hl hi hb hh
    have h1 := h.text hi
    exact .index (.inr rfl) (ih ls hl hi hb hh) ht
      (ih' ls hl h1.tail (h1.start ht rfl rfl)).everywhere ht'
  case memTemplate h _ ih ih' =>
    intro ls hl hi hb hh
    obtain ⟨t, w, ht, hw, rfl, rfl, rfl⟩ := ih' ls hl (h.text hi)
    exact .tagged (.inr rfl) (ih ls hl hi hb hh) ht hw
  case callSuper ht _ _ => exact fun ls hl hi _ => (hi.no ht rfl).elim
  case callOperand ih =>
    exact fun ls hl hi hb => (ih ls hl hi hb).imp_left fun h => .weaken h (by omega)
  case callDot h ht hn ih _ =>
    intro ls hl hi hb
    rcases ih ls hl hi hb with h1 | ⟨-, -, h1, -⟩
    · left
      cases hn with
      | name =>
        have := (h.text hi).pair ht
        refine .dot (.inl rfl) h1 ht ?_
        revert this
        generalize Item.token _ = x
        intro h
        cases x with
        | punct p => cases p <;> cases h
        | _ => first | rfl | cases h
    · exact absurd ht h1.1
  case callIndex h ht h' ht' ih ih' =>
    intro ls hl hi hb
    rcases ih ls hl hi hb with h1 | ⟨-, -, h1, -⟩
    · have h2 := h.text hi
      exact .inl (.index (.inl rfl) h1 ht
        (ih' ls hl h2.tail (h2.start ht rfl rfl)).everywhere ht')
    · exact absurd ht h1.2.1
  case callTemplate h _ ih ih' =>
    intro ls hl hi hb
    obtain ⟨t, w, ht, hw, rfl, rfl, rfl⟩ := ih' ls hl (h.text hi)
    rcases ih ls hl hi hb with h1 | ⟨-, -, h1, -⟩
    · exact .inl (.tagged (.inl rfl) h1 ht hw)
    · have := h1.2.2
      simp only [head, ht] at this; cases this
  case callArgs h h' ih ih' =>
    intro ls hl hi hb
    have h2 := ih' ls hl (h.text hi)
    rcases ih ls hl hi hb with h1 | ⟨-, -, -, h1, -⟩
    · exact .inl (.call h1 h2.everywhere)
    · exact absurd (small_args_head h2) h1
  case callAsync h h' ho _ _ =>
    intro ls hl hi hb
    have := smallToken_true (h'.text (h.text hi)).token
    rw [ho] at this; cases this
  case updPrefix ht _ _ hm ih =>
    intro ls hl hi _
    have ht := update_token ht
    have h1 := ih ls hl hi.tail (hi.start ht (by cases ‹UpdateOperator› <;> rfl)
      (by cases ‹UpdateOperator› <;> rfl))
    exact .prefix ht h1 (aim_right h1 hi (by omega) ht (hm.resolve_right (by rw [hC]; nofun)))
  case updPostfix h hn ht _ hm ih =>
    intro ls hl hi hb
    have ht := update_token ht
    have hm := hm.resolve_right (by rw [hC]; nofun)
    rcases ih ls hl hi hb with h1 | ⟨-, -, -, -, h1⟩
    · have h1 := h1.closed (f := ⟨Env.inFn _, Env.allowIn ‹_›⟩) rfl rfl (.inl (Nat.le_refl _))
      exact .postfix h1 (aim_left h1 hi hb (by omega) (assigns_update ht) hm) ht hn
    · rw [show cover true _ = true from hm] at h1; cases h1
  case updNone ih =>
    intro ls hl hi hb
    rcases ih ls hl hi hb with h1 | h1
    · exact .weaken (h1.closed rfl rfl (.inl (Nat.le_refl _))) (by omega)
    · exact h1.1.closed rfl rfl (.inr ⟨Nat.le_refl _, h1.2.1⟩)
  case unaryOp t _ _ _ _ ht _ _ ih =>
    intro ls hl hi _
    refine .unary ht (ih ls hl hi.tail (hi.start rfl ?_ ?_)) <;>
    · revert ht
      generalize t.item.token = x
      intro h
      unfold unaryOperator at h
      split at h <;> first | rfl | cases h
  case unaryAwait ht _ _ _ => exact fun ls hl hi _ => (hi.no ht rfl).elim
  case unaryUpdate ih => exact fun ls hl hi hb => .weaken (ih ls hl hi hb) (by omega)
  case expoOne ih => exact fun ls hl hi hb => .weaken (ih ls hl hi hb) (by omega)
  case expo h ht _ ih ih' =>
    intro ls hl hi hb
    have := h.text hi
    exact .power (ih ls hl hi hb) ht (ih' ls hl this.tail (this.start ht rfl rfl))
  case binOne ih => exact fun ls hl hi hb _ => .weaken (ih ls hl hi hb) (by omega)
  case bin t op _ _ _ _ _ h ht hin hn _ ih ih' =>
    intro ls hl hi hb _
    have htok := opOf_token ht
    have hp : op ≠ .bin .powerOf := by
      rintro rfl
      rw [htok] at ht; cases ht
    have hl' : op.level ≤ 11 := by
      rcases op with o | o <;> cases o <;> first | exact absurd rfl hp | decide
    have h1 := h.text hi
    refine .weaken (.binary (ih ls hl hi hb (by omega)) htok hp (fun h => hin (by unfold Kw; rw [htok, h]; rfl))
      (ih' ls hl h1.tail (h1.start htok ?_ ?_) (by omega))) (by omega)
    · rcases op with o | o <;> cases o <;> rfl
    · rcases op with o | o <;> cases o <;> rfl
  case condOne ih => exact fun ls hl hi hb => .inl (ih ls hl hi hb (by omega))
  case cond h ht h' ht' _ ih ih' ih'' =>
    intro ls hl hi hb
    have h1 := h.text hi
    have h2 := h'.text h1.tail
    exact .inr ⟨.cond (ih ls hl hi hb (by omega)) ht (ih' ls hl h1.tail (h1.start ht rfl rfl)) ht'
      (ih'' ls hl h2.tail (h2.start ht' rfl rfl)), rfl⟩
  case assignCond ih =>
    intro ls hl hi hb
    rcases ih ls hl hi hb with h | ⟨h, -⟩ <;> exact .weaken h (by omega)
  case assignOp p _ _ _ _ _ h _ hm _ ht hp _ ih ih' =>
    intro ls hl hi hb
    have h1 := h.text hi
    have hm := hm.resolve_right (by rw [hC]; nofun)
    rcases ih ls hl hi hb with h2 | ⟨-, h2⟩
    · refine .assign h2 (aim_left h2 hi hb (by omega) ?_ hm) ht hp
        (ih' ls hl h1.tail (h1.start ht ?_ ?_))
      · rw [show _ = _ from ht]; simp [assigns, hp]
      · cases p <;> first | rfl | cases hp
      · cases p <;> first | rfl | cases hp
    · rw [show cover true _ = true from hm] at h2; cases h2
  case arrowBlock h _ _ _ ht _ _ _ => exact fun ls hl hi _ => ((h.text hi).no ht rfl).elim
  case arrowExpr h _ _ _ ht _ _ _ => exact fun ls hl hi _ => ((h.text hi).no ht rfl).elim
  case yieldBare ht _ => exact fun ls hl hi _ => (hi.no ht rfl).elim
  case yieldStar ht _ _ _ _ _ => exact fun ls hl hi _ => (hi.no ht rfl).elim
  case yieldArg ht _ _ _ _ => exact fun ls hl hi _ => (hi.no ht rfl).elim
  case exprFirst ih => exact fun ls hl hi hb => .listOne (ih ls hl hi hb)
  case exprMore h ht _ ih ih' =>
    intro ls hl hi hb
    have := h.text hi
    exact (ih ls hl hi hb).listSnoc rfl rfl ht (ih' ls hl this.tail (this.start ht rfl rfl))
  case expression ih => exact fun ls hl hi hb => .weaken (ih ls hl hi hb) (by omega)
  case exprSequence hl' ih => exact fun ls hl hi hb => .comma (ih ls hl hi hb) hl'
  -- Functions
  case body ht hp hj h ht' _ ih =>
    intro ls hl hi
    rcases prologue_head hp rfl with ⟨rfl, rfl⟩ | h1
    · exact ⟨.braces ht (ih [] rfl hi.tail (hi.bracket ht rfl)).1 ht',
        (h.text hi.tail).bracket ht' rfl⟩
    · exact absurd h1 (hi.notNext ht rfl nofun)
  case paramFirst h _ =>
    intro ls hl hi hp
    obtain ⟨t, h1, rfl, rfl⟩ := name_of_param h hp
    exact ⟨plainHead_ident hp h1, [_], rfl, .namesOne h1⟩
  case paramMore h ht h' ih _ =>
    intro ls hl hi hp
    obtain ⟨hp', ns, rfl, h2⟩ := ih ls hl hi hp
    have hp'' := plainHead_comma hp' ht
    obtain ⟨t, h1, rfl, rfl⟩ := name_of_param h' hp''
    exact ⟨plainHead_ident hp'' h1, ns ++ [C.text t], by simp, h2.namesSnoc rfl rfl ht h1⟩
  case paramsNone ht ht' => exact fun _ _ _ _ => ⟨[], rfl, .paramsNone ht ht'⟩
  case params ht _ ht' ih =>
    intro ls hl hi hp
    obtain ⟨-, ns, rfl, h⟩ := ih ls hl hi.tail (plainHead_open hp ht)
    exact ⟨ns, rfl, .params ht h ht'⟩
  case paramsComma ht h ht' ht'' ih =>
    intro ls hl hi hp
    have := (h.text hi.tail).pair ht'
    rw [ht''] at this; cases this
  case fnDecl ha ht hs _ hd h h' _ _ _ ih ih' =>
    intro ls hl hi
    obtain ⟨rfl, rfl⟩ := not_async ha hi
    have hp := hi.2.2.2.2.2.1 ht
    obtain ⟨rfl, rfl⟩ := not_star hs hp
    obtain ⟨hn, hp'⟩ := name_of_decl hd hi.tail hp
    have h1 := hd.text hi.tail
    obtain ⟨ns, rfl, h2⟩ := ih ls hl h1 hp'
    obtain ⟨h3, h4⟩ := ih' ls hl (h.text h1)
    exact ⟨.fn ht hn h2 h3, h4, ht⟩
  case fnExpr ha ht hs hd h h' _ _ _ _ ih ih' =>
    intro ls hl hi
    obtain ⟨rfl, rfl⟩ := not_async ha hi
    have hp := hi.2.2.2.2.2.1 ht
    obtain ⟨rfl, rfl⟩ := not_star hs hp
    obtain ⟨hn, hp'⟩ := name_of_expr hd hi.tail hp
    have h1 := hd.text hi.tail
    obtain ⟨ns, rfl, h2⟩ := ih ls hl h1 hp'
    obtain ⟨h3, h4⟩ := ih' ls hl (h.text h1)
    exact ⟨_, rfl, .fn ht hn h2 h3⟩
  -- Statements
  case block ht h ht' ih =>
    exact fun ls hl hi => ⟨.braces ht (ih ls hl hi.tail (hi.bracket ht rfl)).1 ht',
      (h.text hi.tail).bracket ht' rfl⟩
  case varInit h ht _ _ _ ih =>
    intro ls hl hi hh
    have h1 := h.text hi
    have h2 := ih ls hl h1.tail (h1.start ht rfl rfl)
    obtain ⟨t, rfl, ⟨h3, rfl⟩ | ⟨k, h3, h4, rfl⟩⟩ := name_of_var h hi hh
    · exact .declareInit h3 ht h2
    · exact .declareKeyInit h3 h4 ht h2
  case varNone h _ _ _ =>
    intro ls hl hi hh
    obtain ⟨t, rfl, ⟨h3, rfl⟩ | ⟨k, h3, h4, rfl⟩⟩ := name_of_var h hi hh
    · exact .declare h3
    · exact .declareKey h3 h4
  case varFirst ih => exact fun ls hl hi hh => .declsOne (ih ls hl hi hh)
  case varMore h ht hd ih ih' =>
    intro ls hl hi hh
    have h1 := h.text hi
    exact (ih ls hl hi hh).declsSnoc rfl rfl ht (ih' ls hl h1.tail (h1.pat ht rfl rfl))
  case lexInit h ht _ _ _ ih =>
    intro ls hl hi hp hk _
    obtain ⟨t, rfl, h1, rfl⟩ := name_of_lex h hk hi hp
    exact .inl (.lexInit h1 ht (ih ls hl hi.tail.tail (hi.tail.start ht rfl rfl)))
  case lexNone h _ hc _ _ =>
    intro ls hl hi hp hk ho
    obtain ⟨t, rfl, h1, rfl⟩ := name_of_lex h hk hi hp
    rcases hk with rfl | rfl
    · exact .inl (.lexNone h1)
    · refine .inr ⟨rfl, (hc rfl).resolve_right fun h2 => ?_, t, h1, rfl, rfl⟩
      have h3 := ho rfl
      rename_i o _ _ _
      cases o with
      | nil => have := h3.2.1 rfl; rw [h1] at this; cases this
      | cons t' o => exact h3.2.2.1 (h2.2 rfl)
  case lexFirst ih =>
    intro ls hl hi hp hk ho
    rcases ih ls hl hi hp hk ho with h | ⟨h1, h2, t, h3, h4, rfl⟩
    · exact .inl (.lexsOne h)
    · exact .inr ⟨h1, h2, .inr ⟨t, h3, h4, rfl⟩⟩
  case lexMore h ht _ ih ih' =>
    intro ls hl hi hp hk ho
    have h1 := h.text hi
    rcases ih ls hl hi hp hk ho with h2 | ⟨-, h2, -⟩
    · rcases ih' ls hl h1.tail (h1.pat ht rfl rfl) hk fun hk => (h.noOf (ho hk)).2.2 with
        h3 | ⟨h3, h4, -⟩
      · exact .inl (h2.lexsSnoc rfl rfl ht h3)
      · refine .inr ⟨h3, h4, .inl ?_⟩
        have := small_lexs_length h2 rfl
        simp; omega
    · cases (show _ = _ from ht).symm.trans h2
  case lexLet ht h hs ih _ =>
    intro ls hl hi
    obtain ⟨h1, h2⟩ := ends_of_semi hs (h.text hi.tail)
    refine ⟨.lexPart (.inl ⟨ht, rfl⟩) ?_ h1, h2⟩
    exact (ih ls hl hi.tail (hi.pat ht rfl rfl) (.inl rfl) nofun).resolve_right fun h => nomatch h.1
  case lexConst ht h hs ih _ =>
    intro ls hl hi
    have h0 := h.text hi.tail
    obtain ⟨h1, h2⟩ := ends_of_semi hs h0
    refine ⟨.lexPart (.inr ⟨ht, rfl⟩) ?_ h1, h2⟩
    refine (ih ls hl hi.tail (hi.pat ht rfl rfl) (.inr rfl)
      fun _ => hi.letOk.2.2.1 ht).resolve_right fun ⟨_, h, _⟩ => ?_
    rcases h1 with ⟨t, ht, rfl⟩ | ⟨rfl, h1 | h1 | h1⟩
    · cases (show _ = _ from ht).symm.trans h
    · rename_i j _ _ _ _
      revert h h1 h0
      exact fun h0 h h1 => ends_not_in h0 h h1
    · rw [h] at h1; cases h1
    · rw [h] at h1; cases h1
  case catchClause ht hp h _ ih =>
    intro ls hl hi
    have h1 := hp.text hi.tail
    obtain ⟨h2, h3⟩ := ih ls hl h1
    cases hp with
    | catchNone => exact ⟨.catchAll ht h2, h3⟩
    | catchParam ht' hp ht'' =>
      have h4 := hi.2.2.2.2.2.2.1 ht
      have h5 : plainHead _ = true := h4.resolve_left fun h => by
        simp only [head] at h; rw [show _ = _ from ht'] at h; cases h
      obtain ⟨t, h6, rfl, rfl⟩ := name_of_pattern hp (plainHead_open h5 ht')
      exact ⟨.catch ht ht' h6 ht'' h2, h3⟩
  case handlerNone h => exact fun _ _ _ => ⟨.noCatch h, id⟩
  case handler ih => exact fun ls hl hi => ⟨(ih ls hl hi).1, fun _ => (ih ls hl hi).2⟩
  case finalizerNone h => exact fun _ _ _ => ⟨.noFinally h, id⟩
  case finalizer ht _ ih =>
    exact fun ls hl hi => ⟨.finally ht (ih ls hl hi.tail).1, fun _ => (ih ls hl hi.tail).2⟩
  case caseDefault ht => exact fun _ _ _ => ⟨_, ht, rfl⟩
  case caseTest ht _ ih =>
    exact fun ls hl hi => ⟨_, _, ht, rfl, ih ls hl hi.tail (hi.start ht rfl rfl)⟩
  case switchCase e _ _ _ _ _ h ht _ _ ih ih' =>
    intro ls hl hi d l' o' hd hc
    have h1 := h.text hi
    have h2 := (ih' ls hl h1.tail (h1.bracket ht rfl)).1
    cases e with
    | none =>
      obtain ⟨t, h3, rfl⟩ := ih ls hl hi
      cases hd rfl
      exact .default h3 ht h2 hc
    | some e =>
      obtain ⟨t, i', h3, rfl, h4⟩ := ih ls hl hi
      refine .case h3 h4 ht h2 ?_
      simpa [isDefault] using hc
  case casesNil => exact fun _ _ _ _ _ h => h
  case casesMore h _ hd ih ih' =>
    intro ls hl hi l' o' h'
    have := ih ls hl hi _ _ (ih' ls hl (h.text hi) _ _ _ hd h')
    simpa using this
  case labelNone ht _ hs _ =>
    intro ls hl hi
    obtain ⟨h1, h2⟩ := ends_of_semi hs hi.tail
    exact ⟨h2, _, _, ht, rfl, .noLabel h1⟩
  case label ht ht' hn h hs _ _ =>
    intro ls hl hi
    obtain ⟨h1, h2⟩ := ends_of_semi hs hi.tail.tail
    cases h with
    | identIdent h => exact ⟨h2, _, _, ht, rfl, .label h hn h1⟩
    | identYield h => rw [h] at ht'; cases ht'
  case labelClass h _ _ => rw [hC] at h; cases h
  case labelFunction ih =>
    intro ls hl hi _
    obtain ⟨h1, h2, -⟩ := ih ls hl hi
    exact ⟨.fnStmt h1, h2⟩
  case labelStmt ih => exact ih
  case exprStmt h hs ih _ =>
    intro ls hl hi hb
    obtain ⟨h1, h2⟩ := ends_of_semi hs (h.text hi)
    exact ⟨⟨_, ih ls hl hi hb, h1⟩, h2⟩
  case stExpr hb hf _ ih =>
    intro ls hl hi hb'
    obtain ⟨⟨j, h1, h2⟩, h3⟩ := ih ls hl hi ⟨hb, hb'⟩
    exact ⟨.expr hf h1 h2, h3⟩
  case stBlock ih =>
    intro ls hl hi _
    obtain ⟨h1, h2⟩ := ih ls hl hi
    exact ⟨.block h1, h2⟩
  case stEmpty ht => exact fun ls hl hi _ => ⟨.empty ht, hi.bracket ht rfl⟩
  case stFunction ih =>
    intro ls hl hi _
    obtain ⟨h1, h2, -⟩ := ih ls hl hi
    exact ⟨.fnStmt h1, h2⟩
  case stLabeled hh h ht hn _ ih ih' =>
    intro ls hl hi hb
    obtain ⟨t, h1, rfl, rfl⟩ := ident_of_small (ih ls hl hi ⟨by rw [hh]; nofun, hb⟩) rfl hh
    obtain ⟨h2, h3⟩ := ih' (C.text t :: ls) (by simp [Env.label, hl]) hi.tail.tail
      (hi.tail.bracket ht rfl)
    refine ⟨.labeled h1 ht ?_ h2, h3⟩
    rw [hl] at hn
    exact fun h => hn (List.mem_map_of_mem h)
  case stBreak ih =>
    intro ls hl hi _
    obtain ⟨h1, t, i', ht, rfl, h2⟩ := ih ls hl hi
    exact ⟨.break ht h2, h1⟩
  case stContinue ih =>
    intro ls hl hi _
    obtain ⟨h1, t, i', ht, rfl, h2⟩ := ih ls hl hi
    exact ⟨.continue ht h2, h1⟩
  case stDebugger ht hs _ =>
    intro ls hl hi _
    obtain ⟨h1, h2⟩ := ends_of_semi hs hi.tail
    exact ⟨.debugger ht h1, h2⟩
  case stDoWhile ht h ht' ht'' h' ht3 ho ih ih' =>
    intro ls hl hi _
    have h1 := h.text hi.tail
    have h2 := (ih ls hl hi.tail (hi.bracket ht rfl)).1
    have h3 := ih' ls hl h1.tail.tail (h1.tail.start ht'' rfl rfl)
    have h4 := h'.text h1.tail.tail
    rcases ho with ⟨rfl, ho⟩ | ⟨t4, ht4, rfl⟩
    · exact ⟨.doWhile ht h2 ht' ht'' h3 ht3 ho, h4.bracket ht3 rfl⟩
    · exact ⟨.doWhileSemi ht h2 ht' ht'' h3 ht3 ht4, h4.tail.bracket ht4 rfl⟩
  case loopBody ht _ ih =>
    intro ls hl hi
    obtain ⟨h1, h2⟩ := ih ls hl hi.tail (hi.bracket ht rfl)
    exact ⟨h2, _, _, ht, rfl, h1⟩
  case optNone ho =>
    intro ls hl hi _ hp
    refine .optNone ?_
    rw [ho]
    exact hp.imp (congrArg _) (congrArg _)
  case optSome ih => exact fun ls hl hi hb _ => .optSome (ih ls hl hi hb)
  case forCont ht h ht' h' _ ih ih' ih'' =>
    intro ls hl hi hk
    have k1 := h.text hi.tail
    have j1 := h.forOk hk.2.2
    obtain ⟨h1, t3, l, h2, rfl, h3⟩ := ih'' ls hl (h'.text k1.tail)
    exact ⟨h1, ht, fun t0 t0' i' ht0 ht0' h0 => .for ht0 ht0' h0 ht
      (ih ls hl hi.tail ⟨hk.2.1 ht, hi.bracket ht rfl⟩ (.inl rfl)) ht'
      (ih' ls hl k1.tail ⟨j1.2.1 ht', k1.bracket ht' rfl⟩ (.inr rfl)) h2 h3⟩
  case forSeqFirst ih => exact fun ls hl hi hb => ⟨_, _, rfl, .inl ⟨rfl, ih ls hl hi hb⟩⟩
  case forSeqMore h ht _ ih ih' =>
    intro ls hl hi hb
    have h1 := h.text hi
    have h2 := ih' ls hl h1.tail (h1.start ht rfl rfl)
    obtain ⟨e, l', rfl, ⟨rfl, h3⟩ | ⟨t', j', h3, h4, h5⟩⟩ := ih ls hl hi hb
    · exact ⟨_, _, rfl, .inr ⟨_, _, h3, ht, .listOne h2⟩⟩
    · exact ⟨_, _, rfl, .inr ⟨_, _, h3, h4, h5.listSnoc rfl rfl ht h2⟩⟩
  case forSemi ih =>
    intro ls hl hi _ hk _
    obtain ⟨h1, h2, h3⟩ := ih ls hl hi hk
    exact ⟨h1, fun t t' ht ht' => h3 t t' _ ht ht' (.initNone h2)⟩
  case forVarIn ht h ht' h' _ ih ih' ih'' =>
    intro ls hl hi _ hk _
    have k1 := h.text hi.tail
    obtain ⟨h1, t3, l, h2, rfl, h3⟩ := ih'' ls hl (h'.text k1.tail)
    exact ⟨h1, fun t0 t0' ht0 ht0' => .forVarIn ht0 ht0' ht
      (small_decls_one (ih ls hl hi.tail (hi.pat ht rfl rfl))) ht'
      (ih' ls hl k1.tail (k1.start ht' rfl rfl)) h2 h3⟩
  case forVarOf h ht' _ _ _ _ _ => exact fun ls hl hi _ hk _ => absurd ht' (h.forOk hk.2.2).1
  case forVar ht h _ ih ih' =>
    intro ls hl hi _ hk _
    obtain ⟨h1, h2, h3⟩ := ih' ls hl (h.text hi.tail) (h.forOk hk.2.2)
    exact ⟨h1, fun t t' ht0 ht' => h3 t t' _ ht0 ht'
      (.initVar ht (ih ls hl hi.tail (hi.pat ht rfl rfl)))⟩
  case forKindIn ht _ ht' _ _ _ _ =>
    intro ls hl hi hn
    rcases ht with ⟨ht, -⟩ | ⟨ht, -⟩
    · have h1 := hn ht
      simp only [List.tail, head] at h1
      rw [show _ = _ from ht'] at h1; cases h1
    · have := hi.pair ht
      rw [show _ = _ from ht'] at this; cases this
  case forLexIn ht h hd ht' h' _ ih ih' ih'' =>
    intro ls hl hi _ hk _
    have k1 := h.text hi.tail
    obtain ⟨h1, t3, l, h2, rfl, h3⟩ := ih'' ls hl (h'.text k1.tail)
    have h4 := ih' ls hl k1.tail (k1.start ht' rfl rfl)
    refine ⟨h1, fun t0 t0' ht0 ht0' => ?_⟩
    rcases ih ls hl hi.tail (hi.lexPat ht) (lexKind_or ht) (hi.lexOf ht) with
      h5 | ⟨-, -, h5 | ⟨t, h5, rfl, h6⟩⟩
    · cases small_lexs_one h5 with
      | lexInit => cases hd
      | lexNone h7 => exact .forLexIn ht0 ht0' ht h7 ht' h4 h2 h3
    · simp at h5
    · cases h6
      exact .forLexIn ht0 ht0' ht h5 ht' h4 h2 h3
  case forLexOf h _ ht' _ _ _ _ _ => exact fun ls hl hi _ hk _ => absurd ht' (h.forOk hk.2.2).1
  case forLex ht h _ ih ih' =>
    intro ls hl hi _ hk _
    obtain ⟨h1, h2, h3⟩ := ih' ls hl (h.text hi.tail) (h.forOk hk.2.2)
    refine ⟨h1, fun t t' ht0 ht' => h3 t t' _ ht0 ht' (.initLex ht ?_)⟩
    rcases ih ls hl hi.tail (hi.lexPat ht) (lexKind_or ht) (hi.lexOf ht) with h5 | ⟨-, h5, -⟩
    · exact h5
    · rw [h2] at h5; cases h5
  case forExprIn h ht' h' _ ih ih' ih'' =>
    intro ls hl hi hn hk hb
    have k1 := h.text hi
    obtain ⟨h1, t3, l, h2, rfl, h3⟩ := ih'' ls hl (h'.text k1.tail)
    have h0 := ih ls hl hi hb
    exact ⟨h1, fun t0 t0' ht0 ht0' => .forIn ht0 ht0' (not_let h0 hn ht' nofun) h0 ht'
      (ih' ls hl k1.tail (k1.start ht' rfl rfl)) h2 h3⟩
  case forExprOf h ht' _ _ _ _ _ => exact fun ls hl hi _ hk _ => absurd ht' (h.forOk hk).1
  case forExprSeq h hn _ ih ih' =>
    intro ls hl hi hlet hk hb
    obtain ⟨h1, h2, h3⟩ := ih' ls hl (h.text hi) (h.forOk hk)
    obtain ⟨e, l', rfl, ⟨rfl, -⟩ | ⟨t', j', h4, h5, h6⟩⟩ := ih ls hl hi hb
    · simp at hn
    · exact ⟨h1, fun t t' ht0 ht' => h3 t t' _ ht0 ht'
        (.initSeq (not_let h4 hlet h5 nofun) h4 h5 h6)⟩
  case forExpr h _ ih ih' =>
    intro ls hl hi hn hk hb
    have h0 := ih ls hl hi hb
    obtain ⟨h1, h2, h3⟩ := ih' ls hl (h.text hi) (h.forOk hk)
    exact ⟨h1, fun t t' ht0 ht' => h3 t t' _ ht0 ht'
      (.initExpr (not_let h0 hn h2 nofun) h0)⟩
  case stFor ht ht' _ ih =>
    intro ls hl hi _
    obtain ⟨h1, h2⟩ := ih ls hl hi.tail.tail (hi.tail.letOk.2.1 ht')
      (hi.2.2.2.2.2.2.2.1 ht).2.2 (hi.tail.start ht' rfl rfl)
    exact ⟨h2 _ _ ht ht', h1⟩
  case stForAwait ht' _ _ _ => exact fun ls hl hi => (hi.tail.no ht' rfl).elim
  case stIf ht ht' h ht'' _ h' ho ih ih' =>
    intro ls hl hi _
    have h1 := hi.tail.tail
    have h2 := h.text h1
    obtain ⟨h3, h4⟩ := ih' ls hl h2.tail (h2.bracket ht'' rfl)
    exact ⟨.if ht ht' (ih ls hl h1 (hi.tail.start ht' rfl rfl)) ht'' h3 ho, h4⟩
  case stIfElse ht ht' h ht'' _ h' ht3 _ h'' ih ih' ih'' =>
    intro ls hl hi _
    have h1 := hi.tail.tail
    have h2 := h.text h1
    have h3 := ih' ls hl h2.tail (h2.bracket ht'' rfl)
    have h4 := h'.text h2.tail
    obtain ⟨h5, h6⟩ := ih'' ls hl h4.tail (h4.bracket ht3 rfl)
    exact ⟨.ifElse ht ht' (ih ls hl h1 (hi.tail.start ht' rfl rfl)) ht'' h3.1 ht3 h5, h6⟩
  case stIfOpen h _ => rw [hC] at h; cases h
  case stReturn ht hf hs _ =>
    intro ls hl hi _
    obtain ⟨h1, h2⟩ := ends_of_semi hs hi.tail
    exact ⟨.return hf ht h1, h2⟩
  case stReturnArg i _ _ ht hf hn h hs ih _ =>
    intro ls hl hi _
    obtain ⟨h1, h2⟩ := ends_of_semi hs (h.text hi.tail)
    have h3 := ih ls hl hi.tail (hi.start ht rfl rfl)
    refine ⟨?_, h2⟩
    refine .returnValue hf ht ?_ h3 h1
    cases hc : C.nl i with
    | false => rfl
    | true =>
      cases i with
      | nil => rcases hn hc with h | h <;> cases h
      | cons t i =>
        rcases hn hc with h | h
        · have := hi.tail.2.2.2.1 hc
          rw [show t.item.token = _ from h] at this; cases this
        · have := hi.tail.2.2.2.1 hc
          revert h this
          show t.item.token.isTemplate = true → _
          generalize t.item.token = x
          intro h this
          cases x <;> first | (cases h; done) | cases this
  case stSwitch ht ht' h ht'' ht3 h' ht4 ih ih' =>
    intro ls hl hi _
    have h1 := hi.tail.tail
    have h2 := h.text h1
    have h3 := ih' ls hl h2.tail.tail _ _ .casesNone
    rw [List.append_nil] at h3
    exact ⟨.switch ht ht' (ih ls hl h1 (hi.tail.start ht' rfl rfl)) ht'' ht3 h3 ht4,
      (h'.text h2.tail.tail).bracket ht4 rfl⟩
  case stThrow ht h hs ih _ =>
    intro ls hl hi _
    obtain ⟨h1, h2⟩ := ends_of_semi hs (h.text hi.tail)
    exact ⟨.throw ht (ih ls hl hi.tail (hi.start ht rfl rfl)) h1, h2⟩
  case stTry ht h h' h'' ih ih' ih'' =>
    intro ls hl hi _
    obtain ⟨h1, h2⟩ := ih ls hl hi.tail
    have h3 := h.text hi.tail
    obtain ⟨h4, h5⟩ := ih' ls hl h3
    obtain ⟨h6, h7⟩ := ih'' ls hl (h'.text h3)
    exact ⟨.try ht h1 h4 h6, h7 (h5 h2)⟩
  case stVar ht hd hs ih _ =>
    intro ls hl hi _
    obtain ⟨h1, h2⟩ := ends_of_semi hs (hd.text hi.tail)
    exact ⟨.var ht (ih ls hl hi.tail (hi.pat ht rfl rfl)) h1, h2⟩
  case stWhile ht ht' h ht'' h' ih ih' =>
    intro ls hl hi _
    have h1 := hi.tail.tail
    have h2 := h.text h1
    obtain ⟨h3, h4⟩ := ih' ls hl h2.tail (h2.bracket ht'' rfl)
    exact ⟨.while ht ht' (ih ls hl h1 (hi.tail.start ht' rfl rfl)) ht'' h3, h4⟩
  case stWhileOpen h _ => rw [hC] at h; cases h
  case stWith ht _ ht' h ht'' h' ih ih' =>
    intro ls hl hi _
    have h1 := hi.tail.tail
    have h2 := h.text h1
    obtain ⟨h3, h4⟩ := ih' ls hl h2.tail (h2.bracket ht'' rfl)
    exact ⟨.with ht ht' (ih ls hl h1 (hi.tail.start ht' rfl rfl)) ht'' h3, h4⟩
  case stWithOpen h _ => rw [hC] at h; cases h
  case itemsNil => exact fun ls hl hi hb => ⟨.stop, hb⟩
  case itemsMore h _ ih ih' =>
    intro ls hl hi hb
    obtain ⟨h1, h2⟩ := ih ls hl hi hb
    obtain ⟨h3, h4⟩ := ih' ls hl (h.text hi) h2
    exact ⟨h1.stmtsSnoc rfl h3, h4⟩
  case itemStmt hf _ ih =>
    intro ls hl hi hb
    obtain ⟨h1, h2⟩ := ih ls hl hi hb
    exact ⟨.stmtPart hf (stmt_not_let h1 hi) h1, h2⟩
  case itemImport h _ => intro ls hl hi; cases h <;> exact (hi.no ‹_› rfl).elim
  case itemExport h _ => intro ls hl hi; cases h <;> exact (hi.no ‹Kw _ .export› rfl).elim
  case itemLexical ih => exact fun ls hl hi _ => ih ls hl hi
  case itemFunction ih =>
    intro ls hl hi _
    obtain ⟨h1, h2, -⟩ := ih ls hl hi
    exact ⟨.fnPart h1, h2⟩
  case itemClass h _ => intro ls hl hi; cases h <;> exact (hi.no ‹_› rfl).elim

end Ressa.Gr
