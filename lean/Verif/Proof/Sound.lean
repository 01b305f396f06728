import Verif.Proof.RunTac
import Verif.Proof.TextLemmas
import Verif.Proof.Leaves

/-!
# Every successful run is a derivation

One lemma per function of the model, under the hypothesis `RecOk` that the recursive calls are
derivations.
-/

namespace Ressa

open Gr

/-- The recursive calls are derivations, and the flags after an expression are bounded by its
tree. -/
class RecOk (C : Cfg) (R : Rec) : Prop where
  assign : ∀ Γ f i, RunF C Γ f i R.assign fun e g o => g = canBe e ∧ G C Γ (.assign e) i o
  expression : ∀ Γ i, Run C Γ i R.expression fun e o => G C Γ (.expression e) i o
  keeps : Keeps R.expression
  unary : ∀ Γ f i, RunF C Γ f i R.unary fun e g o => g = canBe e ∧ G C Γ (.unary e) i o
  expo : ∀ Γ f i, RunF C Γ f i R.expo fun e g o => g = canBe e ∧ G C Γ (.expo e) i o
  lhs : ∀ Γ f i, RunF C Γ f i R.lhs fun e g o => g = canBe e ∧ G C Γ (.member e) i o ∧ memEnd o
  stmt : ∀ Γ i, Run C Γ i R.stmt fun e o => G C Γ (.stmt e) i o
  listItem : ∀ Γ i, Run C Γ i R.listItem fun e o => G C Γ (.listItem e) i o
  pattern : ∀ Γ i k, Run C Γ i (R.pattern k) fun e o => G C Γ (.pattern k e.1 e.2) i o

variable {C : Cfg} {Γ : Env} {i : List Tok} {R : Rec} {f : Flags}

namespace Fl.Rec
variable [h : RecOk C R]
theorem assign : RunF C Γ f i R.assign fun e g o => g = canBe e ∧ G C Γ (.assign e) i o :=
  h.assign Γ f i
theorem unary : RunF C Γ f i R.unary fun e g o => g = canBe e ∧ G C Γ (.unary e) i o :=
  h.unary Γ f i
theorem expo : RunF C Γ f i R.expo fun e g o => g = canBe e ∧ G C Γ (.expo e) i o :=
  h.expo Γ f i
theorem lhs : RunF C Γ f i R.lhs fun e g o => g = canBe e ∧ G C Γ (.member e) i o ∧ memEnd o :=
  h.lhs Γ f i
end Fl.Rec

namespace Rn

namespace Rec
variable [h : RecOk C R]
theorem assign : Run C Γ i R.assign fun e o => G C Γ (.assign e) i o := (Fl.Rec.assign).toRun
theorem expression : Run C Γ i R.expression fun e o => G C Γ (.expression e) i o := h.expression Γ i
theorem unary : Run C Γ i R.unary fun e o => G C Γ (.unary e) i o := (Fl.Rec.unary).toRun
theorem expo : Run C Γ i R.expo fun e o => G C Γ (.expo e) i o := (Fl.Rec.expo).toRun
theorem lhs : Run C Γ i R.lhs fun e o => G C Γ (.member e) i o ∧ memEnd o := (Fl.Rec.lhs).toRun
theorem stmt : Run C Γ i R.stmt fun e o => G C Γ (.stmt e) i o := h.stmt Γ i
theorem listItem : Run C Γ i R.listItem fun e o => G C Γ (.listItem e) i o := h.listItem Γ i
theorem pattern {k} : Run C Γ i (R.pattern k) fun e o => G C Γ (.pattern k e.1 e.2) i o :=
  h.pattern Γ i k
end Rec

/-! ## Names and keys -/

theorem qualifiedPropName : Run C Γ i qualifiedPropName fun _ o => o = i :=
  Test.qualifiedPropName.mono fun _ _ h => h.1

theorem consumeSemicolon : Run C Γ i consumeSemicolon fun _ o => G C Γ .semi i o := by
  unfold Ressa.consumeSemicolon
  sxg

theorem identName : Run C Γ i identName fun n o => ∃ t, i = t :: o ∧ n = C.text t := by
  unfold Ressa.identName
  sx
  exact ⟨_, rfl, rfl⟩

theorem varIdent {v} : Run C Γ i (varIdent v) fun n o => G C Γ (.ident v n) i o := by
  unfold Ressa.varIdent Ressa.varIdentText
  sxg

theorem fnName {g} : Run C Γ i (fnName g) fun n o => G C Γ (.fnName n) i o := by
  unfold Ressa.fnName
  sxg

variable [RecOk C R]

theorem objectPropertyKey : Run C Γ i (objectPropertyKey R) fun k o => G C Γ (.key k) i o := by
  unfold Ressa.objectPropertyKey
  sxg

/-! ## Patterns -/

theorem patternWithDefault :
    Run C Γ i (patternWithDefault R) fun p o => G C Γ (.patDefault p.1 p.2) i o := by
  unfold Ressa.patternWithDefault
  sxg

theorem restElement : Run C Γ i (restElement R) fun p o => G C Γ (.rest p.1 p.2) i o := by
  unfold Ressa.restElement
  sxg

theorem bindingRestEl : Run C Γ i (bindingRestEl R) fun p o => ∃ t j, i = t :: j ∧
    Is t .spread ∧ G C Γ (.pattern none p.1 p.2) j o := by
  unfold Ressa.bindingRestEl
  sx
  exact ⟨_, _, rfl, ‹_›, ‹_›⟩

theorem arrayPattern :
    Run C Γ i (arrayPattern R) fun p o => ∀ k, G C Γ (.pattern k p.1 p.2) i o := by
  unfold Ressa.arrayPattern
  sx
  refine Run.loopP (fun l o => G C Γ (.patElems l) _ o) .patElemsNil ?_
  intro l o hl
  sxg

theorem restProp : Run C Γ i (restProp R) fun p o => G C Γ (.patProp p) i o := by
  unfold Ressa.restProp
  sxg

theorem propertyPattern : Run C Γ i (propertyPattern R) fun p o => G C Γ (.patProp p) i o := by
  unfold Ressa.propertyPattern
  sxg

theorem objectPattern :
    Run C Γ i (objectPattern R) fun p o => ∀ k, G C Γ (.pattern k p.1 p.2) i o := by
  unfold Ressa.objectPattern
  sx
  refine Run.untilP (fun l o => G C Γ (.patProps l) _ o) .patPropsNil (fun _ => by tst) ?_ ?_
  · intro l o hl; sxg
  · intro l o hl; sxg

theorem patternIdent {v} : Run C Γ i (patternIdent v) fun p o => ∃ n, G C Γ (.ident v n) i o ∧
    p = (isRestrictedWord n, .identifier n) := by
  unfold Ressa.patternIdent
  sx
  exact ⟨_, ‹_›, rfl⟩

theorem pattern {k} : Run C Γ i (pattern R k) fun p o => G C Γ (.pattern k p.1 p.2) i o := by
  unfold Ressa.pattern
  sxg

/-! ## Function bodies and parameters -/

theorem directive : Run C Γ i (directive R) fun p o => G C Γ (.directive p) i o := by
  unfold Ressa.directive
  sxg

theorem directivePrologues :
    Run C Γ i (directivePrologues R) fun l o => G C Γ (.prologue l) i o ∧ head o ≠ .string := by
  unfold Ressa.directivePrologues
  refine Run.untilP (fun l o => G C Γ (.prologue l) _ o) .prologueNil (fun _ => by tst) ?_ ?_
  · intro l o hl; sxg
  · intro l o hl; sxg

theorem functionSourceEl : Run C Γ i (functionSourceEl R) fun l o => G C Γ (.body l) i o := by
  unfold Ressa.functionSourceEl
  sx
  rename_i ds j hds hj
  refine Run.untilP (fun l o => ∃ l', l = ds ++ l' ∧ G C Γ.body (.items l') j o)
    ⟨[], by simp, .itemsNil⟩ (fun _ => by tst) ?_ ?_
  · intro l o hl; sxg
  · intro l o hl
    sx
    exact ⟨_, List.append_assoc .., .itemsMore ‹_› ‹_›⟩

theorem formalParam {b} : Run C Γ i (formalParam R b) fun p o => G C Γ (.param p.2.1 p.2.2) i o := by
  unfold Ressa.formalParam
  sxg

theorem formalParams :
    Run C Γ i (formalParams R) fun p o => G C Γ (.params p.foundRestricted p.params) i o := by
  unfold Ressa.formalParams
  sx
  · gx
  · rename_i j _ _ _
    refine Run.loopP (fun p o => ∀ b a o', G C Γ (.param b a) o o' →
      G C Γ (.paramSeq (p.foundRestricted || b) (p.params ++ [a])) j o') ?_ ?_
    · intro b a o' h
      exact .paramFirst h
    intro l o hl
    sx
    · gx
    all_goals have := hl _ _ _ ‹_›
    all_goals gx

theorem functionDeclName {opt} :
    Run C Γ i (functionDeclName opt) fun p o => G C Γ (.declName opt p.1) i o := by
  unfold Ressa.functionDeclName
  sxg

theorem functionDecl {opt} :
    Run C Γ i (functionDecl R opt) fun f o => G C Γ (.fnDecl opt f) i o := by
  unfold Ressa.functionDecl
  sxg

/-! ## Methods and classes -/

theorem propertyMethodBody {a b} : Run C Γ i (propertyMethodBody R a b) fun l o =>
    G C Γ (.body l) i o ∧ (Γ.strict = true → b = true → C.tolerant = true) := by
  unfold Ressa.propertyMethodBody
  sx
  · exact ⟨‹_›, by gr_side⟩
  · exact ⟨‹_›, by gr_side⟩

theorem methodBody {a b} : Run C Γ i (methodBody R a b) fun l o =>
    G C Γ (.body l) i o ∧ (Γ.strict = true → b = true → C.tolerant = true) := by
  unfold Ressa.methodBody
  sx
  · exact ⟨‹_›, by gr_side⟩
  · exact ⟨‹_›, by gr_side⟩

omit [RecOk C R] in
theorem _root_.Ressa.Clears.propertyMethodBody {a b} : Clears (Ressa.propertyMethodBody R a b) :=
  Clears.left Clears.notTarget fun _ => by kp

omit [RecOk C R] in
theorem _root_.Ressa.Clears.methodBody {a b} : Clears (Ressa.methodBody R a b) :=
  Clears.left Clears.notTarget fun _ => by kp

theorem asyncPropertyMethod :
    Run C Γ i (asyncPropertyMethod R) fun v o => G C Γ (.method true false v) i o := by
  unfold Ressa.asyncPropertyMethod
  sxg

theorem propertyMethod :
    Run C Γ i (propertyMethod R) fun v o => G C Γ (.method false false v) i o := by
  unfold Ressa.propertyMethod
  sxg

theorem generatorMethod :
    Run C Γ i (generatorMethod R) fun v o => G C Γ (.method false true v) i o := by
  unfold Ressa.generatorMethod
  refine Sc.withYieldSet ?_
  sxg

theorem getterMethod : Run C Γ i (getterMethod R) fun v o => G C Γ (.getter v) i o := by
  unfold Ressa.getterMethod
  sxg

theorem checkSetterParams {pos l} : Run C Γ i (checkSetterParams pos l) fun _ o => o = i ∧
    ((∃ a, l = [a] ∧ isRestArg a = false) ∨ C.tolerant = true) := by
  unfold Ressa.checkSetterParams
  sx
  all_goals simp_all

theorem setterMethod : Run C Γ i (setterMethod R) fun v o => G C Γ (.setter v) i o := by
  unfold Ressa.setterMethod
  sxg

/-! ### The flags after a method -/

omit [RecOk C R] in
theorem _root_.Ressa.Clears.asyncPropertyMethod : Clears (Ressa.asyncPropertyMethod R) :=
  Clears.inScope (fun _ _ => rfl) (Clears.right fun _ => Clears.left Clears.propertyMethodBody
    fun _ => Keeps.pure)

omit [RecOk C R] in
theorem _root_.Ressa.Clears.propertyMethod : Clears (Ressa.propertyMethod R) :=
  Clears.inScope (fun _ _ => rfl) (Clears.right fun _ => Clears.left Clears.propertyMethodBody
    fun _ => Keeps.pure)

omit [RecOk C R] in
theorem _root_.Ressa.Clears.generatorMethod : Clears (Ressa.generatorMethod R) :=
  Clears.inScope (fun _ _ => rfl) (Clears.right fun _ => Clears.right fun _ =>
    Clears.left Clears.methodBody fun _ => Keeps.pure)

omit [RecOk C R] in
theorem _root_.Ressa.Clears.getterMethod : Clears (Ressa.getterMethod R) :=
  Clears.inScope (fun _ _ => rfl) (Clears.right fun _ => Clears.right fun _ => Clears.right fun _ =>
    Clears.left Clears.methodBody fun _ => Keeps.pure)

omit [RecOk C R] in
theorem _root_.Ressa.Clears.setterMethod : Clears (Ressa.setterMethod R) :=
  Clears.right fun _ => Clears.right fun _ => Clears.right fun _ =>
    Clears.left Clears.propertyMethodBody fun _ => Keeps.pure

end Rn

namespace Kp
theorem asyncPropertyMethod : Keeps (asyncPropertyMethod R) := Clears.asyncPropertyMethod.keeps
theorem propertyMethod : Keeps (propertyMethod R) := Clears.propertyMethod.keeps
theorem generatorMethod : Keeps (generatorMethod R) := Clears.generatorMethod.keeps
theorem getterMethod : Keeps (getterMethod R) := Clears.getterMethod.keeps
theorem setterMethod : Keeps (setterMethod R) := Clears.setterMethod.keeps
end Kp

namespace Fl
variable [RecOk C R]
theorem asyncPropertyMethod : RunF C Γ f i (asyncPropertyMethod R) fun v g o =>
    g = (false, false) ∧ G C Γ (.method true false v) i o :=
  RunF.of_clears Clears.asyncPropertyMethod Rn.asyncPropertyMethod
theorem propertyMethod : RunF C Γ f i (propertyMethod R) fun v g o =>
    g = (false, false) ∧ G C Γ (.method false false v) i o :=
  RunF.of_clears Clears.propertyMethod Rn.propertyMethod
theorem generatorMethod : RunF C Γ f i (generatorMethod R) fun v g o =>
    g = (false, false) ∧ G C Γ (.method false true v) i o :=
  RunF.of_clears Clears.generatorMethod Rn.generatorMethod
theorem getterMethod : RunF C Γ f i (getterMethod R) fun v g o =>
    g = (false, false) ∧ G C Γ (.getter v) i o :=
  RunF.of_clears Clears.getterMethod Rn.getterMethod
theorem setterMethod : RunF C Γ f i (setterMethod R) fun v g o =>
    g = (false, false) ∧ G C Γ (.setter v) i o :=
  RunF.of_clears Clears.setterMethod Rn.setterMethod
end Fl

namespace Rn
variable [RecOk C R]

omit [RecOk C R] in
theorem noAsync₁ {tok o} (h : (!(head o).matchesPunct .colon && !(head o).matchesPunct .openParen &&
    !(head o).matchesPunct .asterisk) = false) : C.noAsync tok o := by
  intro _ _
  cases hh : head o <;> simp_all [Token.matchesPunct]
  grind

omit [RecOk C R] in
theorem noAsync₂ {tok : Token} {o} (h : tok.isIdent = false ∨
    (∃ x, (!(Γ.ctx (C.nl o) x).hasLineTerm) = false) ∨ C.textIs t!"async" o false) :
    C.noAsync tok o := by
  rintro rfl hn
  simp_all [Token.isIdent, Env.ctx]

omit [RecOk C R] in
/-- A key `get` is spelled by an item `get`. -/
theorem key_get {k o} (h : G C Γ (.key k) i o) (hk : isKey k t!"get" = true) :
    ∃ t ∈ i, C.text t = t!"get" := by
  obtain ⟨l, hl, hs⟩ : ∃ l, l ∈ (Tree.Node.key k).leaves ∧
      (l = .word t!"get" ∨ l = .string t!"get") := by
    unfold isKey at hk
    split at hk <;> simp at hk <;> subst hk <;>
      simp [Tree.leaves_con, Tree.Node.kids, Tree.exprKids, Tree.leaves_leaf, Tree.leafOf]
  have hsp : Tree.Spell C (Tree.Node.key k).leaves i o := Tree.leaves_of_G h
  clear h
  generalize (Tree.Node.key k).leaves = ls at hl hsp
  induction hsp with
  | nil => simp at hl
  | skip _ ih => obtain ⟨t, ht, h⟩ := ih hl; exact ⟨t, .tail _ ht, h⟩
  | take hx _ ih =>
    rcases List.mem_cons.1 hl with rfl | hl
    · rcases hs with rfl | rfl
      · rcases hx with hx | ⟨k, -, hk⟩
        · exact ⟨_, .head _, hx⟩
        · cases k <;> simp [Keyword.text] at hk
      · exact ⟨_, .head _, hx.2⟩
    · obtain ⟨t, ht, h⟩ := ih hl; exact ⟨t, .tail _ ht, h⟩

theorem classElHead' {t} : Run C Γ i (classElHead R t) fun h o => G C Γ (.elHead t h) i o := by
  unfold Ressa.classElHead
  sx <;> first
    | exact .elStatic ‹_› (by simp_all) ‹_› (noAsync₁ ‹_›)
    | exact .elStatic ‹_› (by simp_all) ‹_› (noAsync₂ ‹_›)
    | exact .elKey ‹_› (noAsync₁ ‹_›)
    | exact .elKey ‹_› (noAsync₂ ‹_›)
    | gx

omit [RecOk C R] in
theorem key_suffix {k o t} (h : G C Γ (.key k) i o) (ht : t ∈ o) : t ∈ i := by
  have hsp : Tree.Spell C (Tree.Node.key k).leaves i o := Tree.leaves_of_G h
  clear h
  generalize (Tree.Node.key k).leaves = ls at hsp
  induction hsp with
  | nil => exact ht
  | skip _ ih => exact .tail _ (ih ht)
  | take _ _ ih => exact .tail _ (ih ht)

omit [RecOk C R] in
theorem elHead_get {t h o} (hg : C.exact = true → ∀ t ∈ i, C.text t ≠ t!"get")
    (hh : G C Γ (.elHead t h) i o) :
    C.exact = true → ∀ k, h.key = some k → isKey k t!"get" = false := by
  intro he k hk
  cases hk' : isKey k t!"get"
  · rfl
  · cases hh with
    | elStar => cases hk
    | elKey h1 _ =>
      cases hk
      obtain ⟨t, ht, h⟩ := key_get h1 hk'
      exact (hg he t ht h).elim
    | elStaticStar => cases hk
    | elStatic h1 _ h2 _ =>
      cases hk
      obtain ⟨t, ht, h⟩ := key_get h2 hk'
      exact (hg he t (key_suffix h1 ht) h).elim

theorem classElHead {t} : Run C Γ i (classElHead R t) fun h o => G C Γ (.elHead t h) i o ∧
    (C.exact = true → ∀ k, h.key = some k → isKey k t!"get" = false) :=
  Run.noGet fun hg => Run.mono classElHead' fun _ _ h => ⟨h, elHead_get hg h⟩

theorem classElAccessor {h} (hk : C.exact = true → ∀ k, h.key = some k → isKey k t!"get" = false) :
    Run C Γ i (classElAccessor R h) fun b o => G C Γ (.elBody h b) i o := by
  unfold Ressa.classElAccessor
  sxg

theorem classElMethod {a b} :
    Run C Γ i (classElMethod R a b) fun b' o => G C Γ (.elMethod a b b') i o := by
  unfold Ressa.classElMethod
  sxg

theorem classElFinish {c st b} : Run C Γ i (classElFinish c st b) fun r o => o = i ∧
    Finish c st b r.1 r.2 := by
  unfold Ressa.classElFinish Ressa.classElCtor
  sx
  · exact ⟨rfl, by simpa using Finish.other ‹_› ‹_› ‹_› (.inl ‹_›)⟩
  · refine ⟨rfl, ?_⟩
    simp_all
    obtain ⟨h1, h2⟩ := ‹_ ∧ b.method = true›
    refine .ctor ?_ ‹_› ‹_› ‹_› ‹_› ‹_› rfl ?_ rfl
    · by_cases hk : ‹PropertyKind› = .init <;> simp_all
    · grind
  · exact ⟨rfl, by simpa using Finish.other ‹_› ‹_› ‹_› (by grind)⟩

theorem classEl {c} : Run C Γ i (classEl R c) fun r o => G C Γ (.classEl c r.1 r.2) i o := by
  unfold Ressa.classEl
  sxg

theorem classBody : Run C Γ i (classBody R) fun l o => G C Γ (.classBody l) i o := by
  unfold Ressa.classBody
  sx
  rename_i j _ _
  refine Run.untilP (fun p o => G C Γ (.classEls p.1 p.2) j o) .classElsNil (fun _ => by tst) ?_ ?_
  · intro l o hl; sxg
  · intro l o hl; sxg

theorem classHeritage : Run C Γ i (classHeritage R) fun e o =>
    G C Γ (.heritage e) i o ∧ (e = none → o = i) := by
  unfold Ressa.classHeritage
  sx
  · exact ⟨by gx, by simp⟩
  · exact ⟨by gx, by simp⟩

theorem classDecl {opt} : Run C Γ i (classDecl R opt) fun c o => G C Γ (.cls opt c) i o := by
  unfold Ressa.classDecl
  sx
  · rename_i e _ _ h _ _ _ _ _ _ _ _ _
    cases e with
    | none => obtain rfl := h rfl; gx
    | some e => simp_all
  · rename_i e _ _ h _ _ _ _ _
    cases e with
    | none => simp_all
    | some e => gx
  · rename_i e _ _ h _ _ _ _ _ _ _ _ _ _ _ _
    cases e with
    | none => obtain rfl := h rfl; gx
    | some e => simp_all
  · rename_i e _ _ h _ _ _ _ _ _ _ _
    cases e with
    | none => simp_all
    | some e => gx

omit [RecOk C R] in
theorem _root_.Ressa.Kp.classBody : Keeps (Ressa.classBody R) := by
  unfold Ressa.classBody
  kp

omit [RecOk C R] in
theorem _root_.Ressa.Kp.classDecl {opt} : Keeps (Ressa.classDecl R opt) := by kp

/-! ## Primary expressions -/

theorem templateElement :
    Run C Γ i templateElement fun q o => G C Γ (.tplElem q) i o := by
  unfold Ressa.templateElement
  sxg

theorem templateLiteral :
    Run C Γ i (templateLiteral R) fun p o => G C Γ (.tpl p.1 p.2) i o := by
  unfold Ressa.templateLiteral
  sx
  refine Run.loopP (fun st o => G C Γ (.tplSeq st.1 st.2.1) _ o ∧ st.2.2 = lastTail st.2.1)
    ⟨.tplFirst ‹_› ‹_›, rfl⟩ ?_
  rintro ⟨es, qs, b⟩ o hl
  sx
  · gx
  · exact ⟨.tplMore ‹_› (by simp_all) ‹_› ‹_›, by simp [lastTail]⟩

theorem functionExprName {g} :
    Run C Γ i (functionExprName g) fun p o => G C Γ (.exprName p.1) i o := by
  unfold Ressa.functionExprName
  sxg

theorem functionExpr : Run C Γ i (functionExpr R) fun e o => G C Γ (.fnExpr e) i o := by
  unfold Ressa.functionExpr
  sxg

end Rn
end Ressa
