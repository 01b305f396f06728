import Verif.Proof.ExecRules

/-!
# How the phrases of `Core` begin and end
-/

open Lean Meta Elab Tactic in
/-- Forget the derivations. -/
elab "clear_core" : tactic => liftMetaTactic fun g => g.withContext do
  let mut g := g
  for d in (← getLCtx).decls.toArray.reverse.filterMap id do
    if d.isImplementationDetail then continue
    let t ← instantiateMVars d.type
    if t.getAppFn.isConstOf `Ressa.Gr.Core then g ← g.clear d.fvarId
  return [g]

namespace Ressa.Gr

/-- The least number of items of a phrase. -/
def CT.least : CT → Nat
  | .semi | .patElems _ | .patProps _ | .prologue _ | .items _ | .star _ | .declName _ _
  | .exprName _ | .classEls _ _ | .heritage _ | .className _ _ | .props _ _ _ | .elems _ _
  | .memTail _ _ | .callTail _ _ _ _ _ | .opTail _ | .seqTail _ _ | .optExpr _ _ | .catchParam _
  | .handler _ | .finalizer _ | .cases _ _ | .optLabel _ | .importSeq _ | .exportSeq _ _
  | .parts _ _ => 0
  | _ => 1

/-- A phrase consumes items. -/
theorem Core.length {C : Cfg} {Γ : Env} {nt : CT} {i o : List Tok} (h : Core C Γ nt i o) :
    o.length + nt.least ≤ i.length := by
  induction h <;> simp only [CT.least, List.length_cons] at * <;> omega

/-- May a property key start with this token? -/
def keyStart : Token → Bool
  | .ident | .string | .numeric | .boolean _ | .null | .keyword _ => true
  | .punct p => p == .openBracket
  | _ => false

/-- May a pattern start with this token? -/
def patStart : Token → Bool
  | .ident => true
  | .keyword k => k != .let
  | .punct p => p == .openBracket || p == .openBrace
  | _ => false

/-- `async function` stands here. -/
def Cfg.asyncFn (C : Cfg) (i : List Tok) : Prop :=
  ∃ t t' j, i = t :: t' :: j ∧ t.item.token = .ident ∧ C.text t = t!"async" ∧
    t'.item.token = .keyword .function ∧ C.joined t t'

theorem Cfg.asyncFn.head {C : Cfg} {i : List Tok} (h : C.asyncFn i) : head i = .ident := by
  obtain ⟨t, t', j, rfl, h, -⟩ := h
  exact h

/-- Phrases of which `Core.start` says something. -/
def CT.Start (C : Cfg) (nt : CT) (i o : List Tok) : Prop :=
  match nt with
  | .ident _ => head i = .ident
  | .pattern _ _ | .patDefault _ _ | .varD _ _ _ | .varDs _ _ _ => patStart (head i) = true
  | .lexD _ _ _ | .lexDs _ _ _ => patStart (head i) = true ∧ lexStart (head i) = true
  | .param _ _ | .paramSeq _ _ => patStart (head i) = true ∨ head i = .punct .spread
  | .patProp _ => head i ≠ .punct .closeBrace ∧ head i ≠ .eof
  | .key _ | .propKey _ _ => keyStart (head i) = true
  | .tpl _ _ => head i = .template .head ∨ head i = .template .noSub
  | .fnExpr e => (head i = .keyword .function ∨ C.asyncFn i) ∧ ∃ f, e = .function f
  | .fnStart _ | .fnDecl _ _ => head i = .keyword .function ∨ C.asyncFn i
  | .cls _ _ => head i = .keyword .class
  | .params _ _ | .args _ | .method _ _ _ | .getter _ | .setter _ => head i = .punct .openParen
  | .body _ | .block _ | .classBody _ | .named _ => head i = .punct .openBrace
  | .newExpr _ e => head i = .keyword .new ∧ isPlaceHolder e = false
  | .primary _ e | .operand _ e | .call _ e | .update _ e | .unary _ e | .expo _ e | .bin _ e
  | .cond _ e => exprStart (head i) = true ∧ isPlaceHolder e = false
  | .member _ => exprStart (head i) = true
  | .callTail _ _ e _ e' => isPlaceHolder e = false → isPlaceHolder e' = false
  | .single _ e | .assign _ e | .expression e => exprStart (head i) = true ∧
    isPlaceHolder e = false
  | .arg _ | .argSeq _ => exprStart (head i) = true ∨ head i = .punct .spread
  | .prop _ _ _ => head i ≠ .punct .closeBrace ∧ head i ≠ .eof
  | .groupTail _ _ => head i = .punct .comma
  | .arrowHead _ => head i = .punct .openParen ∧ head o = .punct .fatArrow
  | .arrowBody _ _ e => head i = .punct .fatArrow ∧ isPlaceHolder e = false
  | .importSpec _ | .exportSpec _ _ => head i ≠ .punct .closeBrace
  | .nsImport _ => head i = .punct .asterisk
  | .imports _ => importable (head i) = true ∨ head i = .punct .asterisk ∨ head i = .punct .openBrace
  | .lexical _ => ∃ t j, i = t :: j ∧ (t.item.token = .keyword .let ∨ t.item.token = .keyword .const) ∧
      patStart (head j) = true ∧ lexStart (head j) = true
  | .loopBody _ => head i = .punct .closeParen
  | .forCont _ _ => head i = .punct .semiColon
  | .forIn _ _ => head i = .keyword .in
  | .forOf _ _ _ _ => head i ≠ .keyword .in ∧ ∃ t j, i = t :: j ∧ C.text t = t!"of"
  | .forStmt _ _ => head i = .keyword .for
  | .switchCase _ => head i = .keyword .case ∨ head i = .keyword .default
  | .classEl _ _ _ => head i ≠ .punct .closeBrace ∧ head i ≠ .punct .semiColon
  | .elBody _ _ => head i ≠ .punct .closeBrace ∧ head i ≠ .punct .semiColon
  | .stmt _ | .labelBody _ | .clause _ | .listItem _ => head i ≠ .punct .closeBrace ∧
      head i ≠ .eof ∧ head i ≠ .keyword .case ∧ head i ≠ .keyword .default
  | .importDecl _ => ∃ t j, i = t :: j ∧ t.item.token = .keyword .import ∧ head j ≠ .punct .openParen
  | .exportDecl _ => head i = .keyword .export
  | _ => True

theorem Groups.notPlace {x : Expr} {l : List (Op × Expr)} {e : Expr} (h : Groups x l e)
    (hl : l ≠ []) : isPlaceHolder e = false := by
  cases h with
  | one => exact absurd rfl hl
  | node => unfold Op.node; split <;> rfl

theorem keyStart_ne {t : Token} {p : Punct} (h : keyStart t = true) (hp : p ≠ .openBracket) :
    t ≠ .punct p := by
  rintro rfl
  exact hp (by simpa [keyStart] using h)

theorem keyStart_eof {t : Token} (h : keyStart t = true) : t ≠ .eof := by
  rintro rfl
  cases h

theorem unaryOperator_start {t : Token} {op} (h : unaryOperator t = some op) :
    exprStart t = true := by
  unfold unaryOperator at h
  split at h <;> first | rfl | cases h

theorem named_ne {t : Token} (h : t.isIdent = true ∨ t.isKeyword = true) {p : Punct} :
    t ≠ .punct p := by
  rintro rfl
  rcases h with h | h <;> cases h

/-- The front of a phrase. -/
theorem Core.start {C : Cfg} {Γ : Env} {nt : CT} {i o : List Tok} (h : Core C Γ nt i o) :
    nt.Start C i o := by
  induction h <;> clear_core <;> simp only [CT.Start, head_cons, Is, Kw] at * <;>
    first | trivial | assumption | (exact Or.inl ‹_›) | (exact Or.inr (Or.inl ‹_›)) | (exact Or.inr (Or.inr ‹_›)) | (simp [*, exprStart, keyStart, isPlaceHolder]; done) | skip
  case keyName =>
    rename_i t _ h
    revert h
    cases t.item.token <;> simp [Token.isIdent, Token.isBool, Token.isNull, Token.isKeyword, keyStart]
  case patPropKey => exact ⟨keyStart_ne ‹_› (by simp), keyStart_eof ‹_›⟩
  case patIdent => rename_i h; simp [h, patStart]
  case patKeyword => rename_i h1 h2 _ _; simp [h1, patStart, h2]
  case patArray => rename_i h1 _ _; simp [h1, patStart]
  case patObject => rename_i h1 _ _; simp [h1, patStart]
  case elMethod => exact ⟨keyStart_ne ‹_› (by simp), keyStart_ne ‹_› (by simp)⟩
  case classElStatic => exact ⟨named_ne ‹_›, named_ne ‹_›⟩
  case arg => rename_i h; exact .inl h.1
  case propInit => exact ⟨keyStart_ne ‹_› (by simp), keyStart_eof ‹_›⟩
  case propAssign => exact ⟨keyStart_ne ‹_› (by simp), keyStart_eof ‹_›⟩
  case propMethod => exact ⟨keyStart_ne ‹_› (by simp), keyStart_eof ‹_›⟩
  case primTemplate => rename_i h; rcases h with h | h <;> simp [h, exprStart, isPlaceHolder]
  case primFunction =>
    rename_i h
    obtain ⟨h1, _, rfl⟩ := h
    rcases h1 with h1 | h1
    · simp [h1, exprStart, isPlaceHolder]
    · simp [h1.head, exprStart, isPlaceHolder]
  case primGroup => rename_i h1 _ _ h; exact ⟨by simp [h1, exprStart], h.2⟩
  case opNew => rename_i h; exact ⟨by simp [h.1, exprStart], h.2⟩
  case member => rename_i h _; exact h.1
  case callDot => rename_i h; exact fun _ => h rfl
  case callIndex => rename_i h; exact fun _ => h rfl
  case callTemplate => rename_i h; exact fun _ => h rfl
  case callArgs => rename_i h; exact fun _ => h rfl
  case callSuper => rename_i h1 _ _ _ h; exact ⟨by simp [h1, exprStart], h rfl⟩
  case call => rename_i h h'; exact ⟨h.1, h' h.2⟩
  case updPrefix =>
    rename_i h _ _ _; rcases h with ⟨h, -⟩ | ⟨h, -⟩ <;> simp [h, exprStart, isPlaceHolder]
  case updPostfix => rename_i h; exact ⟨h.1, rfl⟩
  case unaryOp => exact ⟨unaryOperator_start ‹_›, rfl⟩
  case expo => rename_i h _; exact ⟨h.1, rfl⟩
  case bin => rename_i h1 h2 h _; exact ⟨h.1, h2.notPlace h1⟩
  case cond => rename_i h _ _; exact ⟨h.1, rfl⟩
  case singleArrow =>
    rename_i h1 h2 h
    refine ⟨?_, h.2⟩
    rcases h1 with h1 | ⟨-, h1, -⟩ <;> simp [h1, exprStart]
  case singleArrows => rename_i h1 _ h2 h; exact ⟨by simp [h2.1, exprStart], h.2⟩
  case asyncArrow => rename_i h1 _ _ _ _ h; exact ⟨by simp [h1, exprStart], h.2⟩
  case asyncArrows => rename_i h1 _ _ _ _ _ h; exact ⟨by simp [h1, exprStart], h.2⟩
  case assignEq => rename_i h _; exact ⟨h.1, rfl⟩
  case assignOp => rename_i h _; exact ⟨h.1, rfl⟩
  case sequence => rename_i h _; exact ⟨h.1, rfl⟩
  case fnAsync => exact .inr ⟨_, _, _, rfl, ‹_›, ‹_›, ‹_›, ‹_›⟩
  case stFunction =>
    rename_i h
    rcases h with h | h
    · simp [h]
    · simp [h.head]
  case lexLet => rename_i h1 h _; exact ⟨_, _, rfl, .inl h1, h⟩
  case lexConst => rename_i h1 h _; exact ⟨_, _, rfl, .inr h1, h⟩
  case stExpr =>
    rename_i h _ _ h' _
    refine ⟨fun e => ?_, fun e => ?_, fun e => ?_, fun e => ?_⟩ <;> rw [e] at h h' <;>
      simp [exprStart, exprStmtStart] at h h'
  case importBare => rename_i h1 h2 _; exact ⟨_, _, rfl, h1, by simp [h2, head_cons]⟩
  case importFrom =>
    rename_i h1 _ _ h _
    refine ⟨_, _, rfl, h1, ?_⟩
    rcases h with h | h | h <;> intro h' <;> simp [h', importable, Token.isIdent, Token.isKeyword, Token.isBool,
      Token.isNull] at h
  case itemImport => rename_i h; obtain ⟨t, j, rfl, h1, -⟩ := h; simp [head_cons, h1]
  case itemLexical =>
    rename_i h; obtain ⟨t, j, rfl, h1, -⟩ := h; rcases h1 with h1 | h1 <;> simp [head_cons, h1]

end Ressa.Gr
