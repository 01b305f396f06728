import Verif.Proof.CoreMeans

/-!
# Variables and statements

One theorem for each rule of `Core`.
-/

namespace Ressa.Gr

variable {C : Cfg}

set_option linter.unusedVariables false

theorem CommaSep.run {Γ item l i o} (h : CommaSep C Γ item l i o) :
    ∀ f, Exec C Γ f i (commaList item) l .none o := by
  obtain ⟨d, r, j, rfl, -, -, h1, -, h2⟩ := h
  intro f
  exact (h1 f).bind (h2 _ [d])

theorem CommaSep.plain {Γ item d i o} (h : CommaSep C Γ item [d] i o) (hd : plainDecl d = true) :
    ∀ f, Exec C Γ f i (commaList item) [d] f o := by
  obtain ⟨d', r, j, hl, -, h1, -, h2, -⟩ := h
  cases hl
  obtain ⟨rfl, h2⟩ := h2 rfl
  intro f
  refine (h1 f hd).bind ?_
  halt

theorem CommaSep.one {Γ item d i o}
    (h : (∀ f, plainDecl d = true → Exec C Γ f i item d f o) ∧ ∀ f, Exec C Γ f i item d .none o)
    (hl : o.length < i.length) (ho : head o ≠ .punct .comma) : CommaSep C Γ item [d] i o := by
  refine ⟨d, [], o, rfl, hl, h.1, h.2, fun _ => ⟨rfl, ho⟩, fun f acc => ?_⟩
  apply Exec.to_bot
  halt

theorem CommaSep.more {Γ item d l t i j o}
    (h : (∀ f, plainDecl d = true → Exec C Γ f i item d f (t :: j)) ∧
      ∀ f, Exec C Γ f i item d .none (t :: j))
    (hl : (t :: j).length < i.length) (ht : Is t .comma) (h' : CommaSep C Γ item l j o) :
    CommaSep C Γ item (d :: l) i o := by
  obtain ⟨e, r, k, rfl, h1, -, h2, -, h3⟩ := h'
  refine ⟨d, e :: r, t :: j, rfl, hl, h.1, h.2, nofun, fun f acc => ?_⟩
  apply Exec.to_bot
  more

theorem caseLoop_eq (b : List ProgramPart → P (List ProgramPart)) (x : List ProgramPart) :
    untilP (P.or (atPunct .closeBrace) (P.or (atKeyword .default) (atKeyword .case))) b x =
      untilP (lookIs fun t => t.matchesPunct .closeBrace || (t.matchesKeyword .default ||
        t.matchesKeyword .case)) b x :=
  congrArg (fun c => untilP c b x) ((congrArg _ (get_or _ _)).trans (get_or _ _))

theorem Exec.stmtKw {Γ f t k i a f' o} (h : Kw t k)
    (hk : Exec C Γ f (t :: i) (keywordStmt full k) a f' o) :
    Exec C Γ f (t :: i) (statement full) a f' o := by
  unfold statement
  apply Exec.lookTok
  rw [head_cons, h]
  exact hk

theorem Exec.stmtIdent {Γ f i a f' o} (h : head i = .ident)
    (hk : Exec C Γ f i (do
      if ← atAsyncFunction then
        let f ← functionDecl full true
        return .expr (.function f)
      else labelledStmt full) a f' o) :
    Exec C Γ f i (statement full) a f' o := by
  unfold statement
  apply Exec.lookTok
  rw [h]
  exact hk

theorem forStmt_eq : keywordStmt full .for = (do
    expectKeyword .for
    let a ← (do
      if ← atKeyword .await then
        skipItem
        pure true
      else pure false : P Bool)
    expectPunct .openParen
    forRest full a) := rfl

macro "kw" : tactic => `(tactic| (pre; apply Exec.stmtKw (by assumption); ex))

/-- Declarations of single names leave the flags alone. -/
macro "decl " h1:term : tactic => `(tactic| (
  have hn := ($h1).1
  have hm := ($h1).2
  simp only [Means]
  unpack
  constructor
  · intro f hp
    have hk := fun f => hn f hp
    clear hn hm
    ex
  · clear hn
    intro f
    apply Exec.to_bot
    ex))

theorem Means.varInit {Γ s f b p t g e i j o} (h1 : Ok C Γ (.pattern b p) i (t :: j))
    (h2 : Is t .assign)
    (h3 : (s = true → Γ.strict = true → isRestrictedPat p = true → C.tolerant = true))
    (h4 : Ok C Γ (.assign g e) j o) :
    Means C Γ (.varD s f (.mk p (some e))) i o := by
  cases s
  · decl h1.means.1.2
  · cases hs : Γ.strict
    · decl h1.means.1.2
    · have h3 := h3 rfl hs
      decl h1.means.1.2

theorem Means.varNone {Γ s f b p i o} (h1 : Ok C Γ (.pattern b p) i o)
    (h2 : head o ≠ .punct .assign)
    (h3 : (s = true → Γ.strict = true → isRestrictedPat p = true → C.tolerant = true))
    (h4 : isPatIdent p = true ∨ f = true) :
    Means C Γ (.varD s f (.mk p none)) i o := by
  cases s
  · rcases h4 with h4 | rfl <;> decl h1.means.1.2
  · cases hs : Γ.strict
    · rcases h4 with h4 | rfl <;> decl h1.means.1.2
    · have h3 := h3 rfl hs
      rcases h4 with h4 | rfl <;> decl h1.means.1.2

theorem Means.varLast {Γ s f d i o} (h1 : Ok C Γ (.varD s f d) i o) (h2 : head o ≠ .punct .comma) :
    Means C Γ (.varDs s f [d]) i o := by
  cases s <;> exact .one h1.means (by have := h1.length; len) h2

theorem Means.varMore {Γ s f d l t i j o} (h1 : Ok C Γ (.varD s f d) i (t :: j))
    (h2 : Is t .comma) (h3 : Ok C Γ (.varDs s f l) j o) :
    Means C Γ (.varDs s f (d :: l)) i o := by
  cases s <;> exact .more h1.means (by have := h1.length; len) h2 h3.means

theorem Means.lexInit {Γ k f b p t g e i j o} (h0 : lexStart (head i) = true)
    (h1 : Ok C Γ (.pattern b p) i (t :: j))
    (h2 : Is t .assign) (h3 : C.text t ≠ t!"of")
    (h4 : (Γ.strict = true → isRestrictedPat p = true → C.tolerant = true))
    (h5 : Ok C Γ (.assign g e) j o) :
    Means C Γ (.lexD k f (.mk p (some e))) i o := by
  have h6 := h1.means.2 h0 k
  cases hf : (!f && !isPatIdent p) <;> cases k <;> cases hs : Γ.strict <;> (try have h4 := h4 hs) <;> decl h6

theorem Means.lexNone {Γ f b p i o} (h0 : lexStart (head i) = true)
    (h1 : Ok C Γ (.pattern b p) i o)
    (h2 : head o ≠ .punct .assign)
    (h3 : (Γ.strict = true → isRestrictedPat p = true → C.tolerant = true))
    (h4 : isPatIdent p = true ∨ f = true) :
    Means C Γ (.lexD .let f (.mk p none)) i o := by
  cases hs : Γ.strict
  · rcases h4 with h4 | rfl <;> decl h1.means.2 h0 .let
  · have h3 := h3 hs
    rcases h4 with h4 | rfl <;> decl h1.means.2 h0 .let

theorem Means.lexConstIn {Γ f b p t i o} (h0 : lexStart (head i) = true)
    (h1 : Ok C Γ (.pattern b p) i (t :: o))
    (h2 : Kw t .in ∨ C.text t = t!"of")
    (h3 : (Γ.strict = true → isRestrictedPat p = true → C.tolerant = true)) :
    Means C Γ (.lexD .const f (.mk p none)) i (t :: o) := by
  cases hk : t.item.token.matchesKeyword .in <;> cases hs : Γ.strict <;> (try have h3 := h3 hs) <;>
    rcases h2 with h2 | h2 <;> (try simp [h2, Token.matchesKeyword] at hk) <;> decl h1.means.2 h0 .const

theorem Means.lexLast {Γ k f d i o} (h1 : Ok C Γ (.lexD k f d) i o) (h2 : head o ≠ .punct .comma) :
    Means C Γ (.lexDs k f [d]) i o := by
  exact .one h1.means (by have := h1.length; len) h2

theorem Means.lexMore {Γ k f d l t i j o} (h1 : Ok C Γ (.lexD k f d) i (t :: j))
    (h2 : Is t .comma) (h3 : Ok C Γ (.lexDs k f l) j o) :
    Means C Γ (.lexDs k f (d :: l)) i o := by
  exact .more h1.means (by have := h1.length; len) h2 h3.means

theorem Means.lexLet {Γ t l i j o} (h1 : Kw t .let) (h2 : Ok C Γ (.lexDs .let false l) i j)
    (h3 : Ok C Γ .semi j o) :
    Means C Γ (.lexical (.variable .let l)) (t :: i) o := by
  have hr := CommaSep.run h2.means
  fw

theorem Means.lexConst {Γ t l i j o} (h1 : Kw t .const) (h2 : Ok C Γ (.lexDs .const false l) i j)
    (h3 : Ok C Γ .semi j o) :
    Means C Γ (.lexical (.variable .const l)) (t :: i) o := by
  have hr := CommaSep.run h2.means
  fw

theorem Means.block {Γ t t' l i o} (h1 : Is t .openBrace) (h2 : Ok C Γ (.items l) i (t' :: o))
    (h3 : Is t' .closeBrace) :
    Means C Γ (.block l) (t :: i) o := by
  have hi : ∀ f, Exec C Γ f i (untilP (atPunct .closeBrace) (fun acc => do
      return acc ++ [← full.listItem]) []) l .none (t' :: o) :=
    fun f => h2.means f [] _ (by
      intro t h1 h2
      cases t <;> simp_all [Token.matchesPunct]) (by simp [head_cons, h3, Token.matchesPunct])
  fw

theorem Means.loopBody {Γ t s i o} (h1 : Is t .closeParen) (h2 : Ok C Γ (.stmt s) i o) :
    Means C Γ (.loopBody s) (t :: i) o := by fw

theorem Means.loopBodyFor {Γ t s i o} (h1 : Is t .closeParen) (h2 : Ok C Γ (.forStmt true s) i o) :
    Means C Γ (.loopBody s) (t :: i) o := by fw

theorem Means.optNone {Γ p o} (h1 : head o = .punct p) :
    Means C Γ (.optExpr p none) o o := by fw

theorem Means.optSome {Γ p e i o} (h1 : exprStart (.punct p) = false)
    (h2 : Ok C Γ (.expression e) i o) :
    Means C Γ (.optExpr p (some e)) i o := by
  have : head i ≠ .punct p := fun h => by
    have := h2.start.1
    rw [h, h1] at this
    cases this
  fw

theorem Means.forCont {Γ x t t' a b s i j k o} (h1 : Is t .semiColon)
    (h2 : Ok C Γ (.optExpr .semiColon a) i (t' :: j)) (h3 : Is t' .semiColon)
    (h4 : Ok C Γ (.optExpr .closeParen b) j k) (h5 : Ok C Γ (.loopBody s) k o) :
    Means C Γ (.forCont x (.for x a b s)) (t :: i) o := by fw

theorem Means.forIn {Γ x t r s i j o} (h1 : Kw t .in) (h2 : Ok C Γ (.expression r) i j)
    (h3 : Ok C Γ (.loopBody s) j o) :
    Means C Γ (.forIn x (.forIn x r s)) (t :: i) o := by fw

theorem Means.forOf {Γ free x t a f r s i j o} (h1 : C.text t = t!"of")
    (h2 : t.item.token ≠ .keyword .in) (h3 : Ok C Γ (.single f r) i j)
    (h4 : Ok C Γ (.loopBody s) j o) :
    Means C Γ (.forOf free a x (.forOf x r s a)) (t :: i) o := by fw

theorem Means.forOfAssign {Γ x t a f r s i j o} (h1 : C.text t = t!"of")
    (h2 : t.item.token ≠ .keyword .in) (h3 : Ok C Γ (.assign f r) i j)
    (h4 : Ok C Γ (.loopBody s) j o) :
    Means C Γ (.forOf true a x (.forOf x r s a)) (t :: i) o := by
  simp only [Means]
  intro f' hf
  have hf := hf trivial
  unpack
  apply Exec.to_bot
  ex

theorem Means.forSemi {Γ free a s i o} (h1 : Ok C Γ (.forCont none s) i o) :
    Means C Γ (.forHead free a s) i o := by fw

theorem Means.forVarIn {Γ free a t d s i j o} (h1 : Kw t .var)
    (h2 : Ok C (Γ.within false) (.varDs true true [d]) i j)
    (h3 : Ok C Γ (.forIn (.variable .var d) s) j o) :
    Means C Γ (.forHead free a s) (t :: i) o := by
  have hr := CommaSep.run h2.means
  fw

theorem Means.forVarOf {Γ free a t d s i j o} (h0 : free = true → plainDecl d = true) (h1 : Kw t .var)
    (h2 : Ok C (Γ.within false) (.varDs true true [d]) i j)
    (h3 : Ok C Γ (.forOf free a (.variable .var d) s) j o) :
    Means C Γ (.forHead free a s) (t :: i) o := by
  cases free
  · have hr := CommaSep.run h2.means
    fw
  · have hr := CommaSep.plain h2.means (h0 rfl)
    fw

theorem Means.forVar {Γ free a t l s i j o} (h1 : Kw t .var)
    (h2 : Ok C (Γ.within false) (.varDs true true l) i j) (h3 : C.other t!"of" j)
    (h4 : Ok C Γ (.forCont (some (.variable .var l)) s) j o) :
    Means C Γ (.forHead free a s) (t :: i) o := by
  have hr := CommaSep.run h2.means
  obtain ⟨u, j', rfl, hu⟩ := other_split h3
  rcases l with _ | ⟨d, _ | ⟨d', l⟩⟩ <;> fw

theorem Means.forLexIn {Γ free a k t d s i j o} (h1 : Kw t .let ∧ k = .let ∨ Kw t .const ∧ k = .const)
    (h2 : Ok C (Γ.within false) (.lexDs k true [d]) i j) (h3 : noInit d = true)
    (h4 : Ok C Γ (.forIn (.variable k d) s) j o) :
    Means C Γ (.forHead free a s) (t :: i) o := by
  have hr := CommaSep.run h2.means
  rcases h1 with ⟨h1, rfl⟩ | ⟨h1, rfl⟩ <;> cases hs : Γ.strict <;> fw

theorem Means.forLexOf {Γ free a k t d s i j o} (h0 : free = true → plainDecl d = true)
    (h1 : Kw t .let ∧ k = .let ∨ Kw t .const ∧ k = .const)
    (h2 : Ok C (Γ.within false) (.lexDs k true [d]) i j) (h3 : noInit d = true)
    (h4 : Ok C Γ (.forOf free a (.variable k d) s) j o) :
    Means C Γ (.forHead free a s) (t :: i) o := by
  cases free
  · have hr := CommaSep.run h2.means
    rcases h1 with ⟨h1, rfl⟩ | ⟨h1, rfl⟩ <;> cases hs : Γ.strict <;> fw
  · have hr := CommaSep.plain h2.means (h0 rfl)
    rcases h1 with ⟨h1, rfl⟩ | ⟨h1, rfl⟩ <;> cases hs : Γ.strict <;> fw

theorem Means.forNameIn {Γ free a k t s i o}
    (h1 : Kw t .let ∧ k = .let ∨ Kw t .const ∧ k = .const) (h2 : Γ.strict = false)
    (h3 : Ok C Γ (.forIn (.expr (.ident (kindName k))) s) i o) :
    Means C Γ (.forHead free a s) (t :: i) o := by
  rcases h1 with ⟨h1, rfl⟩ | ⟨h1, rfl⟩ <;> fw

theorem Means.forLex {Γ free a k t l s i j o} (h1 : Kw t .let ∧ k = .let ∨ Kw t .const ∧ k = .const)
    (h2 : Ok C (Γ.within false) (.lexDs k true l) i j) (h3 : C.other t!"of" j)
    (h4 : Ok C Γ (.forCont (some (.variable k l)) s) j o) :
    Means C Γ (.forHead free a s) (t :: i) o := by
  have hr := CommaSep.run h2.means
  obtain ⟨u, j', rfl, hu⟩ := other_split h3
  rcases h1 with ⟨h1, rfl⟩ | ⟨h1, rfl⟩ <;> cases hs : Γ.strict <;>
    rcases l with _ | ⟨d, _ | ⟨d', l⟩⟩ <;> (try cases hn : noInit d) <;> fw

theorem Means.forExprIn {Γ free a f e s i j o} (h1 : head i ≠ .keyword .let)
    (h2 : Ok C (Γ.within false) (.assign f e) i j) (h3 : Ok C Γ (.forIn (.expr e) s) j o)
    (h4 : head i ≠ .keyword .var) (h5 : head i ≠ .keyword .const) :
    Means C Γ (.forHead free a s) i o := by fw

theorem Means.forExprOf {Γ free a f e s i j o} (h0 : free = true → f.1 = true)
    (h1 : head i ≠ .keyword .let)
    (h2 : Ok C (Γ.within false) (.assign f e) i j) (h3 : Ok C Γ (.forOf free a (.expr e) s) j o)
    (h4 : head i ≠ .keyword .var) (h5 : head i ≠ .keyword .const) :
    Means C Γ (.forHead free a s) i o := by
  cases free
  · fw
  · have h0 := h0 rfl
    fw
    simp_all [Flags.and]

theorem Means.forExpr {Γ free a f e s i j o} (h1 : head i ≠ .keyword .let)
    (h2 : Ok C (Γ.within false) (.assign f e) i j) (h3 : C.other t!"of" j)
    (h4 : Ok C Γ (.forCont (some (.expr e)) s) j o) (h5 : head i ≠ .keyword .var)
    (h6 : head i ≠ .keyword .const) :
    Means C Γ (.forHead free a s) i o := by
  obtain ⟨u, j', rfl, hu⟩ := other_split h3
  fw

theorem Means.forExprSeq {Γ free a f g e l s i j k o} (h1 : head i ≠ .keyword .let)
    (h2 : Ok C (Γ.within false) (.assign f e) i j) (h3 : C.other t!"of" j)
    (h4 : Ok C Γ (.seqTail g l) j k) (h5 : l ≠ [])
    (h6 : Ok C Γ (.forCont (some (.expr (.sequence (e :: l)))) s) k o)
    (h7 : head i ≠ .keyword .var) (h8 : head i ≠ .keyword .const) :
    Means C Γ (.forHead free a s) i o := by
  obtain ⟨u, j', rfl, hu⟩ := other_split h3
  have := h4.core.seqComma h5
  have hc : ∀ f, Exec C Γ f k (forLoopCont full (some (.expr (.sequence ([e] ++ l))))) s .none o := h6.means
  fw

theorem Means.catchNone {Γ o} (h1 : head o ≠ .punct .openParen) :
    Means C Γ (.catchParam none) o o := by fw

theorem Means.catchParam {Γ t t' b p i o} (h1 : Is t .openParen)
    (h2 : Ok C Γ (.pattern b p) i (t' :: o)) (h3 : Is t' .closeParen) :
    Means C Γ (.catchParam (some p)) (t :: i) o := by fw

theorem Means.handlerNone {Γ o} (h1 : head o ≠ .keyword .catch) :
    Means C Γ (.handler none) o o := by fw

theorem Means.handler {Γ t p l i j o} (h1 : Kw t .catch) (h2 : Ok C Γ (.catchParam p) i j)
    (h3 : Ok C Γ (.block l) j o) :
    Means C Γ (.handler (some (.mk p l))) (t :: i) o := by fw

theorem Means.finalizerNone {Γ o} (h1 : head o ≠ .keyword .finally) :
    Means C Γ (.finalizer none) o o := by fw

theorem Means.finalizer {Γ t l i o} (h1 : Kw t .finally) (h2 : Ok C Γ (.block l) i o) :
    Means C Γ (.finalizer (some l)) (t :: i) o := by fw

theorem Means.caseDefault {Γ t t' l i o} (h1 : Kw t .default) (h2 : Is t' .colon)
    (h3 : Ok C Γ (.items l) i o)
    (h4 : head o = .punct .closeBrace ∨ head o = .keyword .default ∨ head o = .keyword .case) :
    Means C Γ (.switchCase (.mk none l)) (t :: t' :: i) o := by
  have hi : ∀ f, Exec C Γ f i (untilP
      (P.or (atPunct .closeBrace) (P.or (atKeyword .default) (atKeyword .case))) (fun acc => do
      return acc ++ [← full.listItem]) []) l .none o := by
    intro f
    rw [caseLoop_eq]
    refine h3.means f [] _ ?_ ?_
    · intro t h1 h2
      cases t <;> simp_all [Token.matchesPunct, Token.matchesKeyword]
    · rcases h4 with h4 | h4 | h4 <;> rw [h4] <;> rfl
  fw

theorem Means.case {Γ t t' e l i j o} (h1 : Kw t .case) (h2 : Ok C Γ (.expression e) i (t' :: j))
    (h3 : Is t' .colon) (h4 : Ok C Γ (.items l) j o)
    (h5 : head o = .punct .closeBrace ∨ head o = .keyword .default ∨ head o = .keyword .case) :
    Means C Γ (.switchCase (.mk (some e) l)) (t :: i) o := by
  have hi : ∀ f, Exec C Γ f j (untilP
      (P.or (atPunct .closeBrace) (P.or (atKeyword .default) (atKeyword .case))) (fun acc => do
      return acc ++ [← full.listItem]) []) l .none o := by
    intro f
    rw [caseLoop_eq]
    refine h4.means f [] _ ?_ ?_
    · intro t h1 h2
      cases t <;> simp_all [Token.matchesPunct, Token.matchesKeyword]
    · rcases h5 with h4 | h4 | h4 <;> rw [h4] <;> rfl
  fw

theorem Means.casesEnd {Γ f o} (h1 : head o = .punct .closeBrace) :
    Means C Γ (.cases f []) o o := by
  refine ⟨f, fun f acc => ?_⟩
  apply Exec.to_bot
  halt

theorem Means.casesMore {Γ f c l i j o} (h1 : Ok C Γ (.switchCase c) i j)
    (h2 : (isDefault c && f) = false) (h3 : Ok C Γ (.cases (f || isDefault c) l) j o) :
    Means C Γ (.cases f (c :: l)) i o := by
  unpack
  rename_i c' hc
  refine ⟨c', fun f acc => ?_⟩
  apply Exec.to_bot
  rcases h1.start with h | h <;> more

theorem Means.labelNone {Γ i o} (h1 : head i ≠ .ident ∨ C.nl i = true) (h2 : Ok C Γ .semi i o) :
    Means C Γ (.optLabel none) i o := by
  rcases h1 with h1 | h1
  · fw
  · cases hd : (head i).isIdent <;> fw

theorem Means.label {Γ n i j o} (h1 : C.nl i = false) (h2 : Ok C Γ (.ident n) i j)
    (h3 : Ok C Γ .semi j o) :
    Means C Γ (.optLabel (some n)) i o := by fw

theorem Means.labelClass {Γ t l i o} (h1 : Kw t .class) (h2 : C.tolerant = true)
    (h3 : Ok C Γ (.classBody l) i o) :
    Means C Γ (.labelBody (.expr (.class (.mk none none l)))) (t :: i) o := by fw

theorem Means.labelFunction {Γ f i o} (h0 : head i = .keyword .function)
    (h1 : Ok C Γ (.fnDecl true f) i o) :
    Means C Γ (.labelBody (.expr (.function f))) i o := by fw

theorem Means.labelStmt {Γ s i o} (h1 : Ok C Γ (.stmt s) i o) (h2 : head i ≠ .keyword .class)
    (h3 : head i ≠ .keyword .function) :
    Means C Γ (.labelBody s) i o := by fw

theorem Means.clause {Γ s i o}
    (h1 : (Γ.strict = true → head i = .keyword .function → C.tolerant = true))
    (h2 : Ok C Γ (.stmt s) i o) :
    Means C Γ (.clause s) i o := by
  cases hs : Γ.strict
  · fw
  · have h1 := h1 hs
    by_cases hf : head i = .keyword .function
    · have := h1 hf
      fw
    · fw

theorem Means.stExpr {Γ e i j o} (h1 : exprStmtStart (head i) = true) (h5 : C.noAsyncFn i)
    (h2 : Ok C Γ (.expression e) i j) (h3 : head j ≠ .punct .colon) (h4 : Ok C Γ .semi j o) :
    Means C Γ (.stmt (.expr e)) i o := by
  have hE : ∀ f, Exec C Γ f i (do let e ← expressionStmt full; return Stmt.expr e) (Stmt.expr e)
      .none o := by
    have h := h2.means
    have h' := h4.means
    simp only [Means] at h h'
    intro f
    apply Exec.to_bot
    ex
  obtain ⟨u, i, rfl, hu⟩ := noAsyncFn_split h5
  simp only [Means]
  intro f
  unfold statement
  apply Exec.lookTok
  simp only [head_cons] at *
  cases ht : u.item.token
  case punct p => cases p <;> first | exact hE f | (rw [ht] at h1; cases h1)
  case keyword k => cases k <;> first | exact hE f | (rw [ht] at h1; cases h1)
  case ident =>
    pre
    cases e <;> ex
  all_goals first | exact hE f | (rw [ht] at h1; cases h1)

theorem Means.stBlock {Γ l i o} (h1 : Ok C Γ (.block l) i o) :
    Means C Γ (.stmt (.block l)) i o := by fw

theorem Means.stEmpty {Γ t o} (h1 : Is t .semiColon) :
    Means C Γ (.stmt .empty) (t :: o) o := by
  simp only [Means]
  intro f
  unfold statement
  apply Exec.to_bot
  apply Exec.lookTok
  rw [head_cons, h1]
  ex

theorem Means.stFunction {Γ f i o} (h1 : Ok C Γ (.fnDecl true f) i o) :
    Means C Γ (.stmt (.expr (.function f))) i o := by
  rcases h1.start with h | ⟨t, t', j, rfl, ht, ha, hf, hj⟩
  · fw
  · have h1 := h1.means
    simp only [Means] at h1 ⊢
    intro f
    apply Exec.to_bot
    apply Exec.stmtIdent (i := t :: t' :: j) ht
    ex

theorem Means.stLabeled {Γ t n s i j o} (h1 : head i = .ident) (h6 : C.noAsyncFn i)
    (h2 : Ok C Γ (.expression (.ident n)) i (t :: j)) (h3 : Is t .colon)
    (h4 : '$' :: n ∉ Γ.labels) (h5 : Ok C (Γ.label n) (.labelBody s) j o) :
    Means C Γ (.stmt (.labeled n s)) i o := by
  obtain ⟨u, i, rfl, hu⟩ := noAsyncFn_split h6
  have h5' := h5.means
  have h2' := h2.means
  simp only [Means] at h5' h2' ⊢
  intro f
  apply Exec.to_bot
  apply Exec.stmtIdent h1
  ex

theorem Means.stBreak {Γ t l i o} (h1 : Kw t .break) (h2 : Ok C Γ (.optLabel l) i o) :
    Means C Γ (.stmt (.break l)) (t :: i) o := by
  kw

theorem Means.stContinue {Γ t l i o} (h1 : Kw t .continue) (h2 : Ok C Γ (.optLabel l) i o) :
    Means C Γ (.stmt (.continue l)) (t :: i) o := by
  kw

theorem Means.stDebugger {Γ t i o} (h1 : Kw t .debugger) (h2 : Ok C Γ .semi i o) :
    Means C Γ (.stmt .debugger) (t :: i) o := by
  kw

theorem Means.stDoWhile {Γ t t' t'' t3 s e i j o} (h1 : Kw t .do)
    (h2 : Ok C Γ (.stmt s) i (t' :: t'' :: j)) (h3 : Kw t' .while) (h4 : Is t'' .openParen)
    (h5 : Ok C Γ (.expression e) j (t3 :: o)) (h6 : Is t3 .closeParen)
    (h7 : head o ≠ .punct .semiColon) :
    Means C Γ (.stmt (.doWhile e s)) (t :: i) o := by
  kw

theorem Means.stDoWhileSemi {Γ t t' t'' t3 t4 s e i j o} (h1 : Kw t .do)
    (h2 : Ok C Γ (.stmt s) i (t' :: t'' :: j)) (h3 : Kw t' .while) (h4 : Is t'' .openParen)
    (h5 : Ok C Γ (.expression e) j (t3 :: t4 :: o)) (h6 : Is t3 .closeParen)
    (h7 : Is t4 .semiColon) :
    Means C Γ (.stmt (.doWhile e s)) (t :: i) o := by
  kw

theorem Means.stFor {Γ s i o} (h1 : Ok C Γ (.forStmt false s) i o) : Means C Γ (.stmt s) i o :=
  fun f => h1.means f nofun

theorem Means.forStmt {Γ free t t' s i o} (h1 : Kw t .for) (h2 : Is t' .openParen)
    (h3 : Ok C Γ (.forHead free false s) i o) :
    Means C Γ (.forStmt free s) (t :: t' :: i) o := by
  pre
  apply Exec.stmtKw h1
  apply Exec.eqT forStmt_eq
  ex

theorem Means.forAwait {Γ free t t' t'' s i o} (h1 : Kw t .for) (h2 : Kw t' .await)
    (h3 : Is t'' .openParen) (h4 : Ok C Γ (.forHead free true s) i o) :
    Means C Γ (.forStmt free s) (t :: t' :: t'' :: i) o := by
  pre
  apply Exec.stmtKw h1
  apply Exec.eqT forStmt_eq
  ex

theorem Means.stIf {Γ t t' t'' e s i j o} (h1 : Kw t .if) (h2 : Is t' .openParen)
    (h3 : Ok C Γ (.expression e) i (t'' :: j)) (h4 : Is t'' .closeParen)
    (h5 : Ok C Γ (.clause s) j o) (h6 : head o ≠ .keyword .else) :
    Means C Γ (.stmt (.if e s none)) (t :: t' :: i) o := by
  kw

theorem Means.stIfElse {Γ t t' t'' t3 e a b i j k o} (h1 : Kw t .if) (h2 : Is t' .openParen)
    (h3 : Ok C Γ (.expression e) i (t'' :: j)) (h4 : Is t'' .closeParen)
    (h5 : Ok C Γ (.clause a) j (t3 :: k)) (h6 : Kw t3 .else) (h7 : Ok C Γ (.clause b) k o) :
    Means C Γ (.stmt (.if e a (some b))) (t :: t' :: i) o := by
  kw

theorem Means.stIfOpen {Γ t t' e i o} (h1 : Kw t .if) (h2 : Is t' .openParen)
    (h3 : Ok C Γ (.expression e) i o) (h4 : head o ≠ .punct .closeParen) (h5 : C.tolerant = true) :
    Means C Γ (.stmt (.if e .empty none)) (t :: t' :: i) o := by
  kw

theorem Means.stReturn {Γ t i o} (h1 : Kw t .return) (h2 : Γ.inFn = true)
    (h3 : C.returnArg i = false) (h4 : Ok C Γ .semi i o) :
    Means C Γ (.stmt (.return none)) (t :: i) o := by
  cases hn : C.nl i
  · simp [Cfg.returnArg, hn] at h3
    by_cases ha : head i = .punct .semiColon
    · kw
    · by_cases hb : head i = .punct .closeBrace
      · kw
      · have hc := h3 ha hb
        clear h3
        kw
  · simp only [Cfg.returnArg, hn, if_true] at h3
    kw

theorem Means.stReturnArg {Γ t e i j o} (h1 : Kw t .return) (h2 : Γ.inFn = true)
    (h3 : C.returnArg i = true) (h4 : Ok C Γ (.expression e) i j) (h5 : Ok C Γ .semi j o) :
    Means C Γ (.stmt (.return (some e))) (t :: i) o := by
  cases hn : C.nl i <;> simp [Cfg.returnArg, hn] at h3 <;> kw

theorem Means.stSwitch {Γ t t' t'' t3 t4 e l i j o} (h1 : Kw t .switch) (h2 : Is t' .openParen)
    (h3 : Ok C Γ (.expression e) i (t'' :: t3 :: j)) (h4 : Is t'' .closeParen)
    (h5 : Is t3 .openBrace) (h6 : Ok C Γ (.cases false l) j (t4 :: o)) (h7 : Is t4 .closeBrace) :
    Means C Γ (.stmt (.switch e l)) (t :: t' :: i) o := by
  kw

theorem Means.stThrow {Γ t e i j o} (h1 : Kw t .throw) (h2 : Ok C Γ (.expression e) i j)
    (h3 : Ok C Γ .semi j o) :
    Means C Γ (.stmt (.throw e)) (t :: i) o := by
  kw

theorem Means.stTry {Γ t l h f i j k o} (h1 : Kw t .try) (h2 : Ok C Γ (.block l) i j)
    (h3 : Ok C Γ (.handler h) j k) (h4 : Ok C Γ (.finalizer f) k o) :
    Means C Γ (.stmt (.try l h f)) (t :: i) o := by
  kw

theorem Means.stVar {Γ t l i j o} (h1 : Kw t .var) (h2 : Ok C Γ (.varDs false false l) i j)
    (h3 : Ok C Γ .semi j o) :
    Means C Γ (.stmt (.var l)) (t :: i) o := by
  have hr := CommaSep.run h2.means
  kw

theorem Means.stWhile {Γ t t' t'' e s i j o} (h1 : Kw t .while) (h2 : Is t' .openParen)
    (h3 : Ok C Γ (.expression e) i (t'' :: j)) (h4 : Is t'' .closeParen)
    (h5 : Ok C Γ (.stmt s) j o) :
    Means C Γ (.stmt (.while e s)) (t :: t' :: i) o := by
  kw

theorem Means.stWhileOpen {Γ t t' e i o} (h1 : Kw t .while) (h2 : Is t' .openParen)
    (h3 : Ok C Γ (.expression e) i o) (h4 : head o ≠ .punct .closeParen) (h5 : C.tolerant = true) :
    Means C Γ (.stmt (.while e .empty)) (t :: t' :: i) o := by
  kw

theorem Means.stWithOpen {Γ t t' e i o} (h1 : Kw t .with) (h2 : Is t' .openParen)
    (h3 : Ok C Γ (.expression e) i o) (h4 : head o ≠ .punct .closeParen) (h5 : C.tolerant = true) :
    Means C Γ (.stmt (.with e .empty)) (t :: t' :: i) o := by
  cases hs : Γ.strict <;> kw

theorem Means.stWith {Γ t t' t'' e s i j o} (h1 : Kw t .with)
    (h2 : (Γ.strict = true → C.tolerant = true)) (h3 : Is t' .openParen)
    (h4 : Ok C Γ (.expression e) i (t'' :: j)) (h5 : Is t'' .closeParen)
    (h6 : Ok C Γ (.stmt s) j o) :
    Means C Γ (.stmt (.with e s)) (t :: t' :: i) o := by
  cases hs : Γ.strict <;> (try have h2 := h2 hs) <;> kw

end Ressa.Gr
