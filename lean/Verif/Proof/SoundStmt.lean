import Verif.Proof.SoundExpr
import Verif.Model.Stmt

/-!
# Every successful run is a derivation: statements
-/

namespace Ressa

open Gr

variable {C : Cfg} {Γ : Env} {i : List Tok} {R : Rec}

namespace Rn

variable [RecOk C R]

theorem block : Run C Γ i (block R) fun l o => G C Γ (.block l) i o := by
  unfold Ressa.block
  sx
  rename_i j _ _
  refine Run.untilP (fun l o => G C Γ (.items l) j o) .itemsNil (fun _ => by tst) ?_ ?_
  · intro l o hl; sxg
  · intro l o hl; sxg

theorem expressionStmt : Run C Γ i (expressionStmt R) fun e o => G C Γ (.exprStmt e) i o := by
  unfold Ressa.expressionStmt
  sxg

/-! ## Variables -/

theorem initializer : Run C Γ i (initializer R) fun x o =>
    ∃ e, x = some e ∧ G C Γ (.assign e) i o := by
  unfold Ressa.initializer
  sxg

theorem varDecl {f} : Run C Γ i (varDecl R f) fun d o => G C Γ (.varDecl false f d) i o := by
  unfold Ressa.varDecl
  sxg

theorem varDeclList {f} : Run C Γ i (varDeclList R f) fun l o => G C Γ (.varDecls false f l) i o := by
  unfold Ressa.varDeclList Ressa.commaList
  sx
  refine Run.untilP (fun l o => G C Γ (.varDecls false f l) i o) (.varFirst ‹_›) (fun _ => by tst) ?_ ?_
  · intro l o hl; sxg
  · intro l o hl; sxg

theorem varStmt : Run C Γ i (varStmt R) fun s o => G C Γ (.stmt s) i o := by
  unfold Ressa.varStmt
  sxg

theorem variableDecl {f} : Run C Γ i (variableDecl R f) fun d o => G C Γ (.varDecl true f d) i o := by
  unfold Ressa.variableDecl
  sxg

theorem variableDeclList {f} :
    Run C Γ i (variableDeclList R f) fun l o => G C Γ (.varDecls true f l) i o := by
  unfold Ressa.variableDeclList Ressa.commaList
  sx
  refine Run.untilP (fun l o => G C Γ (.varDecls true f l) i o) (.varFirst ‹_›) (fun _ => by tst) ?_ ?_
  · intro l o hl; sxg
  · intro l o hl; sxg

theorem lexicalInit {k f p} : Run C Γ i (lexicalInit R k f p) fun x o =>
    (∃ t j e, i = t :: j ∧ Is t .assign ∧ x = some e ∧ G C Γ (.assign e) j o) ∨
    (x = none ∧ o = i ∧ (k = .const → head o = .keyword .in ∨ C.textIs t!"of" o true) ∧
      (k ≠ .const → isPatIdent p = true ∨ f = true)) := by
  unfold Ressa.lexicalInit
  sxg
  · exact .inl ⟨_, _, _, rfl, ‹_›, rfl, ‹_›⟩
  · exact .inl ⟨_, _, _, rfl, ‹_›, rfl, ‹_›⟩

theorem lexicalBinding {k f} :
    Run C Γ i (lexicalBinding R k f) fun d o => G C Γ (.lexDecl k f d) i o := by
  unfold Ressa.lexicalBinding
  sx
  all_goals
    rename_i h
    rcases h with ⟨t, j, e, rfl, h1, rfl, h2⟩ | ⟨rfl, rfl, h1, h2⟩
    · exact .lexInit ‹_› h1 (by simp_all [Env.ctx]) h2
    · exact .lexNone ‹_› (by simp_all [Env.ctx]) h1 h2

theorem bindingList {k f} :
    Run C Γ i (bindingList R k f) fun l o => G C Γ (.lexDecls k f l) i o := by
  unfold Ressa.bindingList Ressa.commaList
  sx
  refine Run.untilP (fun l o => G C Γ (.lexDecls k f l) i o) (.lexFirst ‹_›) (fun _ => by tst) ?_ ?_
  · intro l o hl; sxg
  · intro l o hl; sxg

theorem lexicalKind {it} : Run C Γ i (lexicalKind it) fun k o => o = i ∧
    (it.token = .keyword .let ∧ k = .let ∨ it.token = .keyword .const ∧ k = .const) := by
  unfold Ressa.lexicalKind
  sxg

theorem lexicalDecl {f} : Run C Γ i (lexicalDecl R f) fun d o => G C Γ (.lexical f d) i o := by
  unfold Ressa.lexicalDecl
  sx
  rename_i h _ _ _ _ _ _
  rcases h with ⟨h, rfl⟩ | ⟨h, rfl⟩
  · exact .lexLet h ‹_› ‹_›
  · exact .lexConst h ‹_› ‹_›

/-! ## Loops -/

theorem loopBody : Run C Γ i (loopBody R) fun s o => G C Γ (.loopBody s) i o := by
  unfold Ressa.loopBody
  sxg

theorem optExpr {p} : Run C Γ i (optExpr R p) fun e o => G C Γ (.optExpr p e) i o := by
  unfold Ressa.optExpr
  sxg

theorem forLoopCont {x} : Run C Γ i (forLoopCont R x) fun s o => G C Γ (.forCont x s) i o := by
  unfold Ressa.forLoopCont
  sxg

theorem forInLoop {l} : Run C Γ i (forInLoop R l) fun x o => ∃ t j k e s, i = t :: j ∧
    G C Γ (.expression e) j k ∧ G C Γ (.loopBody s) k o ∧ x = .forIn l e s := by
  unfold Ressa.forInLoop
  sx
  exact ⟨_, _, _, _, _, rfl, ‹_›, ‹_›, rfl⟩

theorem forOfLoop {l a} : Run C Γ i (forOfLoop R l a) fun x o => ∃ t j k e s, i = t :: j ∧
    G C Γ (.assign e) j k ∧ G C Γ (.loopBody s) k o ∧ x = .forOf l e s a := by
  unfold Ressa.forOfLoop
  sx
  exact ⟨_, _, _, _, _, rfl, ‹_›, ‹_›, rfl⟩

theorem forVar {a} (h : head i = .keyword .var) :
    Run C Γ i (forVar R a) fun s o => G C Γ (.forHead a s) i o := by
  unfold Ressa.forVar
  sxg

theorem forLexicalKind {it} : Run C Γ i (forLexicalKind it) fun k o => o = i ∧
    (it.token = .keyword .let ∧ k = .let ∨ it.token = .keyword .const ∧ k = .const) := by
  unfold Ressa.forLexicalKind
  sxg

theorem forLexical {a} : Run C Γ i (forLexical R a) fun s o => G C Γ (.forHead a s) i o := by
  unfold Ressa.forLexical
  sxg

theorem forSeq_two {l : List Expr} {e j o} (h : G C Γ (.forSeq l) j o) :
    2 ≤ (l ++ [e]).length := by
  cases h <;> simp

theorem forExpr {a} : Run C Γ i (forExpr R a) fun s o => G C Γ (.forHead a s) i o := by
  unfold Ressa.forExpr
  sxg
  refine Run.untilP (fun l o => G C Γ (.forSeq l) i o ∧ (2 ≤ l.length ∨ head o = .punct .comma))
    ⟨.forSeqFirst ‹_›, .inr ‹_›⟩ (fun _ => by tst) ?_ ?_
  · intro l o hl; sxg
  · intro l o hl; sx
    exact ⟨.forSeqMore ‹_› ‹_› ‹_›, .inl (forSeq_two ‹_›)⟩

theorem forStmt : Run C Γ i (forStmt R) fun s o => G C Γ (.stmt s) i o := by
  unfold Ressa.forStmt Ressa.forLoop
  sxg

theorem whileStmt : Run C Γ i (whileStmt R) fun s o => G C Γ (.stmt s) i o := by
  unfold Ressa.whileStmt
  sxg

theorem doWhileStmt : Run C Γ i (doWhileStmt R) fun s o => G C Γ (.stmt s) i o := by
  unfold Ressa.doWhileStmt
  sxg

/-! ## Other statements -/

theorem withStmt : Run C Γ i (withStmt R) fun s o => G C Γ (.stmt s) i o := by
  unfold Ressa.withStmt
  sxg

theorem catchClause : Run C Γ i (catchClause R) fun s o => G C Γ (.catchClause s) i o := by
  unfold Ressa.catchClause
  sxg

theorem finallyClause : Run C Γ i (finallyClause R) fun s o => G C Γ (.finalizer (some s)) i o := by
  unfold Ressa.finallyClause
  sxg

theorem tryStmt : Run C Γ i (tryStmt R) fun s o => G C Γ (.stmt s) i o := by
  unfold Ressa.tryStmt
  sxg

theorem throwStmt : Run C Γ i (throwStmt R) fun s o => G C Γ (.stmt s) i o := by
  unfold Ressa.throwStmt
  sxg

theorem caseTest : Run C Γ i (caseTest R) fun s o => G C Γ (.caseTest s) i o := by
  unfold Ressa.caseTest
  sxg

theorem switchCase : Run C Γ i (switchCase R) fun s o => G C Γ (.switchCase s) i o := by
  unfold Ressa.switchCase
  sx
  rename_i j _ _ _
  refine Run.untilP (fun l o => G C Γ (.items l) j o) .itemsNil (fun _ => by tst) ?_ ?_
  · intro l o hl; sxg
  · intro l o hl; sxg

theorem switchStmt : Run C Γ i (switchStmt R) fun s o => G C Γ (.stmt s) i o := by
  unfold Ressa.switchStmt
  sx
  refine Run.untilP (fun l o => G C Γ (.cases l.1 l.2) _ o) .casesNil (fun _ => by tst) ?_ ?_
  · intro l o hl; sxg
  · intro l o hl; sxg

theorem returnStmt : Run C Γ i (returnStmt R) fun s o => G C Γ (.stmt s) i o := by
  unfold Ressa.returnStmt
  sxg

theorem ifClause : Run C Γ i (ifClause R) fun s o => G C Γ (.stmt s) i o ∧
    (Γ.strict = true → head i = .keyword .function → C.tolerant = true) := by
  unfold Ressa.ifClause
  sx
  · exact ⟨‹_›, fun _ _ => ‹_›⟩
  · refine ⟨‹_›, fun h1 h2 => ?_⟩
    rename_i h3 _ _ _
    rcases h3 with ⟨x, hx⟩ | hx
    · simp [Env.ctx, h1] at hx
    · exact absurd h2 hx

theorem ifStmt : Run C Γ i (ifStmt R) fun s o => G C Γ (.stmt s) i o := by
  unfold Ressa.ifStmt
  sxg

theorem fnStmt : Run C Γ i (fnStmt R) fun s o => G C Γ (.stmt s) i o := by
  unfold Ressa.fnStmt
  sxg

theorem ident_cons {v n o} (h : G C Γ (.ident v n) i o) : ∃ t, i = t :: o := by
  cases h <;> exact ⟨_, rfl⟩

theorem optLabel {k} : Run C Γ i (optLabel k) fun s o => G C Γ (.optLabel k s) i o := by
  unfold Ressa.optLabel
  sxg
  rename_i h1 h2 _ h3 _ _ h4 _ _ h5
  obtain ⟨t, rfl⟩ := ident_cons h4
  exact .label h1 (Token.isIdent_iff.1 h2) (by simpa [Env.ctx, nl_cons] using h3) h4 h5

theorem debuggerStmt : Run C Γ i debuggerStmt fun s o => G C Γ (.stmt s) i o := by
  unfold Ressa.debuggerStmt
  sxg

theorem labelledBody : Run C Γ i (labelledBody R) fun s o => G C Γ (.labelBody s) i o := by
  unfold Ressa.labelledBody
  sxg

theorem labelledStmt (h : head i = .ident) : Run C Γ i (labelledStmt R) fun s o => G C Γ (.stmt s) i o := by
  unfold Ressa.labelledStmt
  sxg

theorem keywordStmt {k} (h : head i = .keyword k) : Run C Γ i (keywordStmt R k) fun s o => G C Γ (.stmt s) i o := by
  unfold Ressa.keywordStmt
  sxg

theorem statement : Run C Γ i (statement R) fun s o => G C Γ (.stmt s) i o := by
  unfold Ressa.statement
  sxg

/-! ## Modules -/

theorem moduleSpecifier : Run C Γ i moduleSpecifier fun s o => G C Γ (.source s) i o := by
  unfold Ressa.moduleSpecifier
  sxg

/-- A failing `next_item` fails again. -/
theorem nextItemGo_err {ts : List Tok} : ∀ {span s e s'},
    nextItemGo span ts s = .err e s' →
    (∀ t ∈ ts, t.item.token.isComment = true →
      (sliceB s.stream t.item.span.start t.item.span.stop).isSome = true) →
    ∀ a s'', Ressa.nextItem s' ≠ .ok a s'' := by
  induction ts with
  | nil =>
    intro span s e s' h hc a s'' h'
    simp only [nextItemGo] at h
    split at h
    · next he =>
      split at h
      · next hf => cases h; simp [Ressa.nextItem, nextItemGo, he, hf] at h'
      · exact nomatch h
    · next he => cases h; simp [Ressa.nextItem, nextItemGo, he] at h'
  | cons t ts ih =>
    intro span s e s' h hc
    simp only [nextItemGo] at h
    cases hu : updatePositions s.stream s.lookPos span t.item.span.start with
    | none => rw [hu] at h; exact nomatch h
    | some q =>
      rw [hu] at h
      simp only at h
      cases ht : t.item.token with
      | comment kind =>
        rw [ht] at h
        simp only at h
        split at h
        · next hs =>
          have := hc t (by simp) (by rw [ht]; rfl)
          rw [hs] at this
          exact nomatch this
        · exact ih h (fun t' ht' => hc t' (List.mem_cons_of_mem _ ht'))
      | _ => rw [ht] at h; exact nomatch h

/-- Discarding the error of `next_item` goes unnoticed when `next_item` is called again. -/
theorem ignoreNext {α} {k : Unit → P α} {R}
    (hk : ∀ t o, i = t :: o → Run C Γ o (k ()) R)
    (hs : ∀ s, (∀ a s', Ressa.nextItem s ≠ .ok a s') → ∀ a s', k () s ≠ .ok a s') :
    Run C Γ i (P.ignoreErr Ressa.nextItem >>= k) R := by
  intro s a s' hs' hm
  obtain ⟨u, s1, h1, h2⟩ := bind_eq_ok.1 hm
  unfold P.ignoreErr at h1
  cases hn : Ressa.nextItem s with
  | ok a1 s2 =>
    rw [hn] at h1
    cases h1
    obtain ⟨t, o, rfl, -, ho⟩ := hs'.next hn
    exact hk t o rfl _ _ _ ho h2
  | err e s2 =>
    rw [hn] at h1
    cases h1
    exact absurd h2 (hs _ (nextItemGo_err hn hs'.comments) _ _)
  | panic => rw [hn] at h1; exact nomatch h1
  | diverge => rw [hn] at h1; exact nomatch h1

theorem varIdent_stuck {f : Txt → ImportSpecifier} (s) (h : ∀ a s', Ressa.nextItem s ≠ .ok a s')
    (a s') :
    (do let l ← Ressa.varIdent false; pure (f l) : P ImportSpecifier) s ≠ .ok a s' := by
  intro h'
  obtain ⟨a', s1, h1, -⟩ := bind_eq_ok.1 h'
  obtain ⟨a', s1, h1, -⟩ := bind_eq_ok.1 h1
  exact h _ _ h1

theorem importSpecifier : Run C Γ i importSpecifier fun s o => G C Γ (.importSpec s) i o := by
  unfold Ressa.importSpecifier
  refine Run.test Test.lookIs ?_ ?_
  · intro h
    refine Run.bind (varIdent.mono ?_)
    intro n j hn
    refine Run.test Test.atContextual ?_ ?_
    · intro h'
      refine ignoreNext ?_ (varIdent_stuck (f := fun x => .normal n (some x)))
      rintro t o rfl
      sx
      exact .importAs (.importIdent hn) (by simp_all [Cfg.textIs]) ‹_›
    · sx
      exact .importSpec (.importIdent ‹_›)
  sx
  · exact .importAs (.importName .name) (by simp_all [Cfg.textIs]) ‹_›
  · exact .importSpec (.importName .name)

theorem namedImports : Run C Γ i namedImports fun s o => G C Γ (.namedImports s) i o := by
  unfold Ressa.namedImports
  sx
  rename_i j _ _
  refine Run.untilP (fun l o => G C Γ (.importSeq l) j o) .importSeqNil (fun _ => by tst) ?_ ?_
  · intro l o hl; sxg
  · intro l o hl; sxg

theorem namespaceSpecifier : Run C Γ i namespaceSpecifier fun s o => G C Γ (.nsImport s) i o := by
  unfold Ressa.namespaceSpecifier
  sxg

theorem defaultImports : Run C Γ i defaultImports fun s o =>
    atWord i = true → head i ≠ .keyword .default → G C Γ (.imports s) i o := by
  unfold Ressa.defaultImports
  sx
  all_goals gx

theorem importSpecifiers : Run C Γ i importSpecifiers fun s o => G C Γ (.imports s) i o := by
  unfold Ressa.importSpecifiers
  sxg

theorem importDecl : Run C Γ i importDecl fun s o => G C Γ (.importDecl s) i o := by
  unfold Ressa.importDecl
  sxg

theorem exportSpecifier : Run C Γ i exportSpecifier fun s o => G C Γ (.exportSpec s) i o := by
  unfold Ressa.exportSpecifier
  sxg

theorem exportDefault : Run C Γ i (exportDefault R) fun s o => ∃ t j, i = t :: j ∧
    ∀ t', Kw t' .export → Kw t .default → G C Γ (.exportDecl s) (t' :: t :: j) o := by
  unfold Ressa.exportDefault
  sx
  all_goals exact ⟨_, _, rfl, fun t' h h' => by gx⟩

theorem exportAll : Run C Γ i exportAll fun s o => ∃ t j, i = t :: j ∧
    ∀ t', Kw t' .export → Is t .asterisk → G C Γ (.exportDecl s) (t' :: t :: j) o := by
  unfold Ressa.exportAll
  sx
  exact ⟨_, _, rfl, fun t' h h' => by gx⟩

theorem exportKeyword : Run C Γ i (exportKeyword R) fun s o =>
    ∀ t, Kw t .export → G C Γ (.exportDecl s) (t :: i) o := by
  unfold Ressa.exportKeyword
  sx
  all_goals gx

theorem exportNamed : Run C Γ i exportNamed fun s o =>
    ∀ t, Kw t .export → G C Γ (.exportDecl s) (t :: i) o := by
  unfold Ressa.exportNamed
  sx
  rename_i j _ _
  refine Run.untilP (fun l o => G C Γ (.exportSeq l.1 l.2) j o) .exportSeqNil (fun _ => by tst) ?_ ?_
  · intro l o hl; sxg
  · intro l o hl; sxg

theorem exportDecl : Run C Γ i (exportDecl R) fun s o => G C Γ (.exportDecl s) i o := by
  unfold Ressa.exportDecl
  sx
  · rename_i h _ _ _ _ h1 h2; exact h1 _ h h2
  · rename_i h _ _ _ _ h1 _ h2; exact h1 _ h h2
  · rename_i h1; exact h1 _ ‹_›
  · gx
  · rename_i h1; exact h1 _ ‹_›

theorem stmtPart (h : head i ≠ .keyword .class) (h' : head i ≠ .keyword .function) : Run C Γ i (stmtPart R) fun s o => G C Γ (.listItem s) i o := by
  unfold Ressa.stmtPart
  sxg

theorem statementListItem :
    Run C Γ i (statementListItem R) fun s o => G C Γ (.listItem s) i o := by
  unfold Ressa.statementListItem
  sxg

end Rn
end Ressa
