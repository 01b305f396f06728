import Verif.Proof.CoreMeans

/-!
# Names, patterns and functions

One theorem for each rule of `Core`.
-/

namespace Ressa.Gr

variable {C : Cfg}

set_option linter.unusedVariables false

theorem braceLoop (b : List ProgramPart → P (List ProgramPart)) (x : List ProgramPart) :
    untilP (P.or (lookIs (·.isEof)) (atPunct .closeBrace)) b x =
      untilP (lookIs fun t => t.isEof || t.matchesPunct .closeBrace) b x :=
  congrArg (fun c => untilP c b x) (get_or _ _)

theorem paramsMore_eq {a : FunctionArg} {l : List FunctionArg} {b b' : Bool} {acc : FormalParams} :
    (⟨(acc.simple && (acc.simple && isSimpleArg a)) && l.all isSimpleArg, (acc.params ++ [a]) ++ l,
      (acc.foundRestricted || b) || b'⟩ : FormalParams) =
    ⟨acc.simple && (a :: l).all isSimpleArg, acc.params ++ a :: l,
      acc.foundRestricted || (b || b')⟩ := by
  simp [Bool.and_assoc, Bool.or_assoc]

theorem Means.ident {Γ t o} (h1 : t.item.token = .ident)
    (h2 : (C.isModule = true ∨ Γ.await = true → C.text t ≠ t!"await")) :
    Means C Γ (.ident (C.text t)) (t :: o) o := by
  pre
  cases hm : C.isModule <;> cases ha : Γ.await <;> ex

theorem Means.keyString {Γ t o} (h1 : t.item.token = .string) :
    Means C Γ (.key (.literal (.string (C.text t)))) (t :: o) o := by fw

theorem Means.keyNumber {Γ t o} (h1 : t.item.token = .numeric) :
    Means C Γ (.key (.literal (.number (C.text t)))) (t :: o) o := by fw

theorem Means.keyName {Γ t o}
    (h1 : (t.item.token.isIdent || t.item.token.isBool || t.item.token.isNull ||
    t.item.token.isKeyword) = true) :
    Means C Γ (.key (.expr (.ident (C.text t)))) (t :: o) o := by
  pre
  cases ht : t.item.token <;> simp [ht, Token.isIdent, Token.isBool, Token.isNull, Token.isKeyword] at h1 <;>
    ex

theorem Means.keyComputed {Γ t t' f e i o} (h1 : Is t .openBracket)
    (h2 : Ok C Γ (.assign f e) i (t' :: o)) (h3 : Is t' .closeBracket) :
    Means C Γ (.key (computedKey e)) (t :: i) o := by fw

theorem Means.semiToken {Γ t o} (h1 : Is t .semiColon) :
    Means C Γ .semi (t :: o) o := by
  exact fun f => Exec.last (Exec.consumeSemicolon (.semiToken h1) .pure)

theorem Means.semiLine {Γ o} (h1 : C.nl o = true) (h2 : head o ≠ .punct .semiColon) :
    Means C Γ .semi o o := by
  exact fun f => Exec.last (Exec.consumeSemicolon (.semiLine h1 h2) .pure)

theorem Means.semiEnd {Γ o} (h1 : head o = .eof ∨ head o = .punct .closeBrace) :
    Means C Γ .semi o o := by
  exact fun f => Exec.last (Exec.consumeSemicolon (.semiEnd h1) .pure)

theorem PatRun.name {Γ k b p i o} (h : ∀ f, Exec C Γ f i (pattern full k) (b, p) f o) :
    PatRun C Γ k b p i o := ⟨fun f _ => h f, fun f => (h f).to_bot⟩

theorem PatRun.other {Γ k b p i o} (hp : isPatIdent p = false)
    (h : ∀ f, Exec C Γ f i (pattern full k) (b, p) .none o) : PatRun C Γ k b p i o :=
  ⟨fun _ h => (by rw [hp] at h; cases h), h⟩

theorem Means.patIdent {Γ n i o} (h1 : Ok C Γ (.ident n) i o) :
    Means C Γ (.pattern (isRestrictedWord n) (.identifier n)) i o := by
  have h : ∀ f k, Exec C Γ f i (pattern full k) (isRestrictedWord n, .identifier n) f o := by
    unpack
    intro f k
    rcases k with _ | (_ | _ | _) <;> ex
  refine ⟨⟨.name fun f => h f none, .name fun f => h f (some .var)⟩, fun _ k => .name fun f => h f k⟩

theorem Means.patKeyword {Γ t k o} (h1 : Kw t k) (h2 : k ≠ .let) (h3 : k ≠ .yield)
    (h4 : Γ.strict = false) :
    Means C Γ (.pattern (isRestrictedWord k.text) (.identifier k.text)) (t :: o) o := by
  have hv : ∀ f, Exec C Γ f (t :: o) (varIdent true) k.text f o := by
    intro f
    ex
  refine ⟨⟨.name fun f => ?_, .name fun f => ?_⟩, fun h k => ?_⟩
  · ex
  · ex
  · rw [head_cons, h1] at h
    cases h

theorem Means.patArray {Γ t t' l i o} (h1 : Is t .openBracket)
    (h2 : Ok C Γ (.patElems l) i (t' :: o)) (h3 : Is t' .closeBracket) :
    Means C Γ (.pattern false (.array l)) (t :: i) o := by
  have h : ∀ f k, Exec C Γ f (t :: i) (pattern full k) (false, .array l) .none o := by fw
  exact ⟨⟨.other rfl fun f => h f _, .other rfl fun f => h f _⟩, fun _ k => .other rfl fun f => h f _⟩

theorem Means.patObject {Γ t t' l i o} (h1 : Is t .openBrace)
    (h2 : Ok C Γ (.patProps l) i (t' :: o)) (h3 : Is t' .closeBrace) :
    Means C Γ (.pattern false (.object l)) (t :: i) o := by
  have h : ∀ f k, Exec C Γ f (t :: i) (pattern full k) (false, .object l) .none o := by fw
  exact ⟨⟨.other rfl fun f => h f _, .other rfl fun f => h f _⟩, fun _ k => .other rfl fun f => h f _⟩

theorem Means.patNoDefault {Γ b p i o} (h1 : Ok C Γ (.pattern b p) i o)
    (h2 : head o ≠ .punct .assign) :
    Means C Γ (.patDefault b p) i o := by fw

theorem Means.patDefault {Γ b p t f e i j o} (h1 : Ok C Γ (.pattern b p) i (t :: j))
    (h2 : Is t .assign) (h3 : Ok C (Γ.yielding false) (.assign f e) j o) :
    Means C Γ (.patDefault b (.assignment p e)) i o := by fw

theorem Means.patElemsEnd {Γ o} (h1 : head o = .punct .closeBracket) :
    Means C Γ (.patElems []) o o := by pre; halt

theorem Means.patElemsHole {Γ l t i o} (h1 : Is t .comma) (h2 : Ok C Γ (.patElems l) i o) :
    Means C Γ (.patElems (none :: l)) (t :: i) o := by pre; more

theorem Means.patElemsMore {Γ l b p t i j o} (h1 : Ok C Γ (.patDefault b p) i (t :: j))
    (h2 : Is t .comma) (h3 : Ok C Γ (.patElems l) j o) :
    Means C Γ (.patElems (some (.pat p) :: l)) i o := by pre; more

theorem Means.patElemsLast {Γ b p i o} (h1 : Ok C Γ (.patDefault b p) i o)
    (h2 : head o = .punct .closeBracket) :
    Means C Γ (.patElems [some (.pat p)]) i o := by
  pre
  more
  halt

theorem Means.patElemsRest {Γ b p t i o} (h1 : Is t .spread) (h2 : Ok C Γ (.pattern b p) i o)
    (h3 : head o = .punct .closeBracket) :
    Means C Γ (.patElems [some (.pat p)]) (t :: i) o := by pre; final

theorem Means.patPropRest {Γ b p t i o} (h1 : Is t .spread) (h2 : Ok C Γ (.pattern b p) i o) :
    Means C Γ (.patProp (.rest (.restElement p))) (t :: i) o := by fw

theorem Means.patPropInit {Γ n t f e i j o} (h1 : Ok C Γ (.ident n) i (t :: j))
    (h2 : Is t .assign) (h3 : Ok C Γ (.single f e) j o) :
    Means C Γ (.patProp (.assignment (.mk (.expr (.ident n)) (.expr e) .init false false true))) i
    o := by fw

theorem Means.patPropName {Γ n t b p i j o} (h1 : Ok C Γ (.ident n) i (t :: j))
    (h2 : Is t .colon) (h3 : Ok C Γ (.patDefault b p) j o) :
    Means C Γ (.patProp (.assignment (.mk (.expr (.ident n)) (.pat p) .init false false false))) i
    o := by fw

theorem Means.patPropShort {Γ n i o} (h1 : Ok C Γ (.ident n) i o)
    (h2 : head o = .punct .comma ∨ head o = .punct .closeBrace) :
    Means C Γ (.patProp (.assignment (.mk (.expr (.ident n)) .none .init false false true))) i o :=
    by
  pre
  rcases h2 with h2 | h2 <;> ex

theorem Means.patPropKey {Γ k t b p i j o} (h1 : head i ≠ .ident)
    (h2 : Ok C Γ (.key k) i (t :: j)) (h3 : Is t .colon) (h4 : Ok C Γ (.patDefault b p) j o) :
    Means C Γ (.patProp (.assignment (.mk k (.pat p) .init false (atBracket i) false))) i o := by fw

theorem Means.patPropsEnd {Γ o} (h1 : head o = .punct .closeBrace) :
    Means C Γ (.patProps []) o o := by pre; halt

theorem Means.patPropsMore {Γ l p t i j o} (h1 : Ok C Γ (.patProp p) i (t :: j))
    (h2 : Is t .comma) (h3 : Ok C Γ (.patProps l) j o) :
    Means C Γ (.patProps (p :: l)) i o := by pre; more

theorem Means.patPropsLast {Γ p i o} (h1 : Ok C Γ (.patProp p) i o)
    (h2 : head o = .punct .closeBrace) :
    Means C Γ (.patProps [p]) i o := by
  pre
  more
  halt

theorem Means.prologueEnd {Γ o} (h1 : head o ≠ .string) :
    Means C Γ (.prologue []) o o := by pre; halt

theorem Means.prologueDir {Γ s l i j k o} (h1 : head i = .string)
    (h2 : Ok C Γ (.expression (.literal (.string s))) i j) (h3 : s ≠ t!"use strict")
    (h4 : Ok C Γ .semi j k) (h5 : Ok C Γ (.prologue l) k o) :
    Means C Γ (.prologue (.dir s (trimQuotes s) :: l)) i o := by pre; more

theorem Means.prologueExpr {Γ e l i j k o} (h1 : head i = .string)
    (h2 : Ok C Γ (.expression e) i j) (h3 : (∀ l, e ≠ .literal l))
    (h4 : (∀ es qs, e ≠ .template es qs)) (h5 : Ok C Γ .semi j k) (h6 : Ok C Γ (.prologue l) k o) :
    Means C Γ (.prologue (.stmt (.expr e) :: l)) i o := by
  pre
  cases e <;> first | exact absurd rfl (h3 _) | exact absurd rfl (h4 _ _) | more

theorem Means.itemsEnd {Γ o} :
    Means C Γ (.items []) o o := by pre; halt

theorem Means.itemsMore {Γ p l i j o} (h1 : Ok C Γ (.listItem p) i j) (h2 : Ok C Γ (.items l) j o) :
    Means C Γ (.items (p :: l)) i o := by pre; more

theorem Means.body {Γ t t' ds l i j o} (h1 : Is t .openBrace) (h2 : Ok C Γ (.prologue ds) i j)
    (h3 : Ok C Γ.body (.items l) j (t' :: o)) (h4 : Is t' .closeBrace) :
    Means C Γ (.body (ds ++ l)) (t :: i) o := by
  fw
  apply Exec.eqB (braceLoop _ _)
  ex
  intro t h1 h2
  cases t <;> simp_all [Token.isEof, Token.matchesPunct]

theorem Means.paramRest {Γ b p t i o} (h1 : Is t .spread) (h2 : Ok C Γ (.pattern b p) i o)
    (h3 : head o = .punct .closeParen) :
    Means C Γ (.param b (.pat (.restElement p))) (t :: i) o := by fw

theorem Means.param {Γ b p i o} (h1 : Ok C Γ (.patDefault b p) i o) :
    Means C Γ (.param b (.pat p)) i o := by fw

theorem Means.paramLast {Γ b a i o} (h1 : Ok C Γ (.param b a) i o)
    (h2 : head o = .punct .closeParen) :
    Means C Γ (.paramSeq b [a]) i o := by pre; final

theorem Means.paramTrail {Γ b a t i o} (h1 : Ok C Γ (.param b a) i (t :: o)) (h2 : Is t .comma)
    (h3 : head o = .punct .closeParen) :
    Means C Γ (.paramSeq b [a]) i o := by pre; final

theorem Means.paramMore {Γ b b' a l t i j o} (h1 : Ok C Γ (.param b a) i (t :: j))
    (h2 : Is t .comma) (h3 : Ok C Γ (.paramSeq b' l) j o) :
    Means C Γ (.paramSeq (b || b') (a :: l)) i o := by
  pre
  rw [← paramsMore_eq]
  more

theorem Means.paramsNone {Γ t t' o} (h1 : Is t .openParen) (h2 : Is t' .closeParen) :
    Means C Γ (.params false []) (t :: t' :: o) o := by fw

theorem Means.params {Γ b l t t' i o} (h1 : Is t .openParen)
    (h2 : Ok C Γ (.paramSeq b l) i (t' :: o)) (h3 : Is t' .closeParen) :
    Means C Γ (.params b l) (t :: i) o := by fw

theorem Means.starNo {Γ o} (h1 : head o ≠ .punct .asterisk) :
    Means C Γ (.star false) o o := by
  exact .inl ⟨rfl, rfl, h1⟩

theorem Means.starYes {Γ t o} (h1 : Is t .asterisk) :
    Means C Γ (.star true) (t :: o) o := by
  exact .inr ⟨rfl, t, rfl, h1⟩

theorem Means.declNameNone {Γ o} (h1 : head o = .punct .openParen) :
    Means C Γ (.declName true none) o o := by
  refine ⟨none, by simp, fun f => ?_⟩
  ex

theorem Core.ident_text {Γ n i o} (h : Core C Γ (.ident n) i o) :
    ∃ t, i = t :: o ∧ t.item.token = .ident ∧ C.text t = n := by
  cases h
  exact ⟨_, rfl, ‹_›, rfl⟩

theorem Means.declName {Γ opt n i o} (h1 : Ok C Γ (.ident n) i o)
    (h2 : (Γ.strict = true → C.ext.isRestricted .ident n = false)) :
    Means C Γ (.declName opt (some n)) i o := by
  obtain ⟨t, rfl, ht, hn⟩ := h1.core.ident_text
  unpack
  have hn' : C.ext.isRestricted .ident (C.textOf t.item) = C.ext.isRestricted .ident n := by
    rw [show C.textOf t.item = n from hn]
  cases hs : Γ.strict
  · cases hr : C.ext.isRestricted .ident n || C.ext.isStrictReserved .ident
    · exact ⟨none, by simp, fun f => by cases opt <;> ex⟩
    · refine ⟨some t.item, by simp [hs], fun f => ?_⟩
      cases opt <;> ex
  · exact ⟨none, by simp, fun f => by cases opt <;> ex⟩

theorem Means.fnPlain {Γ t o} (h1 : Kw t .function) (h2 : C.text t ≠ t!"async") :
    Means C Γ (.fnStart false) (t :: o) o := .inl ⟨rfl, t, rfl, h1, h2⟩

theorem Means.fnAsync {Γ t t' o} (h1 : t.item.token = .ident) (h2 : C.text t = t!"async")
    (h3 : Kw t' .function) (h4 : C.joined t t') :
    Means C Γ (.fnStart true) (t :: t' :: o) o := .inr ⟨rfl, t, t', rfl, h1, h2, h3, h4⟩

theorem Means.fnDecl {Γ a g opt id b ps l h i j k m o} (h1 : Ok C Γ (.fnStart a) h i)
    (h2 : Ok C Γ (.star g) i j) (h3 : (a && g) = false) (h4 : Ok C Γ (.declName opt id) j k)
    (h5 : Ok C (Γ.fn a g) (.params b ps) k m) (h6 : Ok C (Γ.fn a g) (.body l) m o) :
    Means C Γ (.fnDecl opt (.mk id ps l g a)) h o := by
  unpack
  obtain ⟨r, hr, hd⟩ := h4.means
  have hr : r ≠ none → (Γ.fn a g).strict = false := hr
  rcases h1.means with ⟨rfl, t, rfl, h8, h9⟩ | ⟨rfl, t, u, rfl, h8, h9, h10, h11⟩ <;>
    rcases h2.means with ⟨rfl, rfl, h12⟩ | ⟨rfl, t', rfl, h12⟩ <;>
    simp at h3 <;> simp only [Means] <;> intro f <;>
    apply Exec.to_bot <;> cases r <;> ex

theorem Means.exprNameNone {Γ o} (h1 : head o = .punct .openParen) :
    Means C Γ (.exprName none) o o := by
  refine ⟨false, by simp, fun f g _ => ?_⟩
  ex

theorem Means.exprName {Γ n i o} (h1 : Ok C Γ (.ident n) i o)
    (h2 : (Γ.strict = true → (C.ext.isRestricted .ident n || C.ext.isStrictReserved .ident) = true →
    C.tolerant = true)) :
    Means C Γ (.exprName (some n)) i o := by
  obtain ⟨t, rfl, ht, hn⟩ := h1.core.ident_text
  unpack
  have hn' : C.ext.isRestricted .ident (C.textOf t.item) = C.ext.isRestricted .ident n := by
    rw [show C.textOf t.item = n from hn]
  cases hs : Γ.strict
  · refine ⟨C.ext.isRestricted .ident n || C.ext.isStrictReserved .ident, by simp [hs],
      fun f g _ => ?_⟩
    ex
  · cases hr : C.ext.isRestricted .ident n
    · refine ⟨C.ext.isStrictReserved .ident, fun _ h => h2 hs (by simp [h]), fun f g _ => ?_⟩
      ex
    · refine ⟨C.ext.isStrictReserved .ident, fun _ h => h2 hs (by simp [h]), fun f g _ => ?_⟩
      have := h2 hs (by simp [hr])
      ex

theorem Means.exprYield {Γ t o} (h1 : Kw t .yield) (h2 : Γ.strict = true) (h3 : Γ.gen = false)
    (h4 : (C.ext.isRestricted (.keyword .yield) (C.text t) ||
      C.ext.isStrictReserved (.keyword .yield)) = true → C.tolerant = true) :
    Means C Γ (.exprName (some (C.text t))) (t :: o) o := by
  have hn' : C.ext.isRestricted (.keyword .yield) (C.textOf t.item) =
    C.ext.isRestricted (.keyword .yield) (C.text t) := rfl
  cases hr : C.ext.isRestricted (.keyword .yield) (C.text t)
  · refine ⟨C.ext.isStrictReserved (.keyword .yield), fun _ h => h4 (by simp [h]), fun f g hg => ?_⟩
    rw [h3] at hg
    subst hg
    ex
  · refine ⟨C.ext.isStrictReserved (.keyword .yield), fun _ h => h4 (by simp [h]), fun f g hg => ?_⟩
    have := h4 (by simp [hr])
    rw [h3] at hg
    subst hg
    ex

theorem Means.fnExpr {Γ a g id b ps l h i j k m o} (h1 : Ok C Γ (.fnStart a) h i)
    (h2 : Ok C Γ (.star g) i j) (h3 : Ok C (Γ.fn a g) (.exprName id) j k)
    (h4 : Ok C (Γ.fn a g) (.params b ps) k m) (h5 : Ok C (Γ.fn a g) (.body l) m o)
    (h6 : (Γ.strict = true → b = true → C.tolerant = true)) :
    Means C Γ (.fnExpr (.function (.mk id ps l g a))) h o := by
  unpack
  obtain ⟨r, hr, hd⟩ := h3.means
  have hd := fun f => hd f g rfl
  have hr : ((Γ.fn a g).strict && (r || b)) = true → C.tolerant = true := by
    intro h
    simp only [Bool.and_eq_true, Bool.or_eq_true] at h
    rcases h with ⟨h, h' | h'⟩
    · exact hr h h'
    · exact h6 h h'
  rcases h1.means with ⟨rfl, t, rfl, h8, h9⟩ | ⟨rfl, t, u, rfl, h8, h9, h10, h11⟩ <;>
    rcases h2.means with ⟨rfl, rfl, h12⟩ | ⟨rfl, t', rfl, h12⟩ <;>
    simp only [Means] <;> intro f <;> apply Exec.to_bot <;> ex

theorem Means.method {Γ b ps l i j o} (h1 : Ok C (Γ.yielding true) (.params b ps) i j)
    (h2 : Ok C (Γ.yielding true) (.body l) j o)
    (h3 : (Γ.strict = true → b = true → C.tolerant = true)) :
    Means C Γ (.method false false (.expr (.function (.mk none ps l false false)))) i o := by
  have h3 : (Γ.yielding true).strict = true → b = true → C.tolerant = true := h3
  fw

theorem Means.methodGen {Γ b ps l i j o} (h1 : Ok C (Γ.yielding false) (.params b ps) i j)
    (h2 : Ok C (Γ.yielding true) (.body l) j o)
    (h3 : (Γ.strict = true → b = true → C.tolerant = true)) :
    Means C Γ (.method false true (.expr (.function (.mk none ps l true false)))) i o := by
  have h3 : (Γ.yielding true).strict = true → b = true → C.tolerant = true := h3
  fw

theorem Means.methodAsync {Γ b ps l i j o} (h1 : Ok C (Γ.fn true true) (.params b ps) i j)
    (h2 : Ok C (Γ.fn true true) (.body l) j o)
    (h3 : (Γ.strict = true → b = true → C.tolerant = true)) :
    Means C Γ (.method true false (.expr (.function (.mk none ps l false true)))) i o := by
  have h3 : (Γ.fn true true).strict = true → b = true → C.tolerant = true := h3
  fw

theorem Means.getter {Γ b ps l i j o} (h1 : Ok C Γ (.params b ps) i j)
    (h2 : (ps = [] ∨ C.tolerant = true)) (h3 : Ok C Γ (.body l) j o)
    (h4 : (Γ.strict = true → b = true → C.tolerant = true)) :
    Means C Γ (.getter (.expr (.function (.mk none ps l false false)))) i o := by
  fw
  intro h
  rcases h2 with rfl | h2
  · simp at h
  · exact h2

theorem Means.setter {Γ b ps l i j o} (h1 : Ok C (Γ.yielding false) (.params b ps) i j)
    (h2 : ((∃ a, ps = [a] ∧ isRestArg a = false) ∨ C.tolerant = true))
    (h3 : Ok C Γ (.body l) j o) (h4 : (Γ.strict = true → b = true → C.tolerant = true)) :
    Means C Γ (.setter (.expr (.function (.mk none ps l false false)))) i o := by
  pre
  rcases h2 with ⟨a, rfl, h2⟩ | h2
  · ex
  · rcases ps with _ | ⟨a, _ | ⟨a', ps⟩⟩ <;> ex

end Ressa.Gr
