import Verif.Model.Ast

/-!
# Walking over syntax trees

Vocabulary for statements about all the nodes of a tree, whatever their type: `Node` is the sum of
the syntactic categories, `Node.kids` lists the immediate components of a node in source order,
`Sub m n` says that `m` occurs in `n`, `Out m n` that it does so outside every function body in
`n`, and `Node.leaves` is the sequence of names and literals of a tree.

Nothing here refers to the parser.
-/

namespace Ressa.Tree

/-- The names and literals of a tree. -/
inductive Leaf
  | word (w : Txt)
  | string (s : Txt)
  | number (s : Txt)
  | boolean (b : Bool)
  | regex (r : RegEx)
  | template (q : TemplateElement)
  | null
  deriving DecidableEq

/-- A component of a tree. -/
inductive Node
  | leaf (l : Leaf)
  | expr (e : Expr)
  | pat (p : Pat)
  | arrPart (p : ArrayPatPart)
  | objPart (p : ObjectPatPart)
  | objProp (p : ObjectProperty)
  | prop (p : Property)
  | key (k : PropertyKey)
  | value (v : PropertyValue)
  | arg (a : FunctionArg)
  | fn (f : Function)
  | cls (c : Class)
  | varDecl (d : VariableDecl)
  | loopInit (l : LoopInit)
  | loopLeft (l : LoopLeft)
  | case (c : SwitchCase)
  | catch (c : CatchClause)
  | stmt (s : Stmt)
  | decl (d : Decl)
  | modExport (e : ModExport)
  | part (p : ProgramPart)

/-- How a node contains a component: as the body of a function, below a label, or otherwise. -/
inductive Edge
  | inner
  | body
  | label (l : Txt)
  deriving DecidableEq

/-- A literal as a leaf. -/
def leafOf : Literal → Leaf
  | .null => .null
  | .string s => .string s
  | .number s => .number s
  | .boolean b => .boolean b
  | .regex r => .regex r

/-- A component that is neither a function body nor below a label. -/
abbrev inn (n : Node) : Edge × Node := (.inner, n)
/-- A name. -/
abbrev word (w : Txt) : Edge × Node := (.inner, .leaf (.word w))
/-- A string. -/
abbrev str (s : Txt) : Edge × Node := (.inner, .leaf (.string s))

/-- The text pieces and the expressions of a template, interleaved. -/
def pieces : List TemplateElement → List Expr → List (Edge × Node)
  | q :: qs, e :: es => inn (.leaf (.template q)) :: inn (.expr e) :: pieces qs es
  | q :: qs, [] => inn (.leaf (.template q)) :: pieces qs []
  | [], es => es.map fun e => inn (.expr e)

/-- The names of an import specifier. -/
def importLeaves : ImportSpecifier → List (Edge × Node)
  | .normal n l => word n :: l.toList.map word
  | .default n => [word n]
  | .namespace n => [word n]

/-- The names of an export specifier. -/
def exportLeaves (s : ExportSpecifier) : List (Edge × Node) :=
  word s.local_ :: s.exported.toList.map word

/-- Components of an expression. -/
def exprKids : Expr → List (Edge × Node)
  | .array es => (es.filterMap id).map fun e => inn (.expr e)
  | .arrowBlock ps b _ _ _ => ps.map (fun a => inn (.arg a)) ++ b.map fun p => (.body, .part p)
  | .arrowExpr ps b _ _ _ => ps.map (fun a => inn (.arg a)) ++ [inn (.expr b)]
  | .arrowParamPlaceHolder ps _ => ps.map fun a => inn (.arg a)
  | .assignment _ l r => [inn (.expr l), inn (.expr r)]
  | .await e => [inn (.expr e)]
  | .binary _ l r => [inn (.expr l), inn (.expr r)]
  | .call f as => inn (.expr f) :: as.map fun e => inn (.expr e)
  | .class c => [inn (.cls c)]
  | .conditional t a c => [inn (.expr t), inn (.expr c), inn (.expr a)]
  | .function f => [inn (.fn f)]
  | .ident n => [word n]
  | .literal l => [inn (.leaf (leafOf l))]
  | .template es qs => pieces qs es
  | .logical _ l r => [inn (.expr l), inn (.expr r)]
  | .member o p _ => [inn (.expr o), inn (.expr p)]
  | .metaProperty _ p => [word p]
  | .new f as => inn (.expr f) :: as.map fun e => inn (.expr e)
  | .object ps => ps.map fun p => inn (.objProp p)
  | .sequence es => es.map fun e => inn (.expr e)
  | .spread e => [inn (.expr e)]
  | .super => []
  | .taggedTemplate t es qs => inn (.expr t) :: pieces qs es
  | .this => []
  | .unary _ e _ => [inn (.expr e)]
  | .update _ e _ => [inn (.expr e)]
  | .yield e _ => word t!"yield" :: e.toList.map fun e => inn (.expr e)

/-- Components of a statement. -/
def stmtKids : Stmt → List (Edge × Node)
  | .expr e => [inn (.expr e)]
  | .block b => b.map fun p => inn (.part p)
  | .empty => []
  | .debugger => []
  | .with o b => [inn (.expr o), inn (.stmt b)]
  | .return e => e.toList.map fun e => inn (.expr e)
  | .labeled l b => [word l, (.label l, .stmt b)]
  | .break l => l.toList.map word
  | .continue l => l.toList.map word
  | .if t c a => inn (.expr t) :: inn (.stmt c) :: a.toList.map fun s => inn (.stmt s)
  | .switch d cs => inn (.expr d) :: cs.map fun c => inn (.case c)
  | .throw e => [inn (.expr e)]
  | .try b h f => b.map (fun p => inn (.part p)) ++ h.toList.map (fun c => inn (.catch c)) ++
      (f.getD []).map fun p => inn (.part p)
  | .while t b => [inn (.expr t), inn (.stmt b)]
  | .doWhile t b => [inn (.stmt b), inn (.expr t)]
  | .for i t u b => i.toList.map (fun l => inn (.loopInit l)) ++ t.toList.map (fun e => inn (.expr e)) ++
      u.toList.map (fun e => inn (.expr e)) ++ [inn (.stmt b)]
  | .forIn l r b => [inn (.loopLeft l), inn (.expr r), inn (.stmt b)]
  | .forOf l r b _ => [inn (.loopLeft l), inn (.expr r), inn (.stmt b)]
  | .var ds => ds.map fun d => inn (.varDecl d)

/-- The immediate components of a node, in source order. -/
def Node.kids : Node → List (Edge × Node)
  | .leaf _ => []
  | .expr e => exprKids e
  | .pat (.identifier n) => [word n]
  | .pat (.object ps) => ps.map fun p => inn (.objPart p)
  | .pat (.array ps) => (ps.filterMap id).map fun p => inn (.arrPart p)
  | .pat (.restElement p) => [inn (.pat p)]
  | .pat (.assignment l r) => [inn (.pat l), inn (.expr r)]
  | .arrPart (.pat p) => [inn (.pat p)]
  | .arrPart (.expr e) => [inn (.expr e)]
  | .objPart (.assignment p) => [inn (.prop p)]
  | .objPart (.rest p) => [inn (.pat p)]
  | .objProp (.property p) => [inn (.prop p)]
  | .objProp (.spread e) => [inn (.expr e)]
  | .prop (.mk k v _ _ _ _) => [inn (.key k), inn (.value v)]
  | .key (.literal l) => [inn (.leaf (leafOf l))]
  | .key (.expr e) => [inn (.expr e)]
  | .key (.pat p) => [inn (.pat p)]
  | .value (.expr e) => [inn (.expr e)]
  | .value (.pat p) => [inn (.pat p)]
  | .value .none => []
  | .arg (.expr e) => [inn (.expr e)]
  | .arg (.pat p) => [inn (.pat p)]
  | .fn (.mk id ps b _ _) => id.toList.map word ++ ps.map (fun a => inn (.arg a)) ++
      b.map fun p => (.body, .part p)
  | .cls (.mk id sup b) => id.toList.map word ++ sup.toList.map (fun e => inn (.expr e)) ++
      b.map fun p => inn (.prop p)
  | .varDecl (.mk p e) => inn (.pat p) :: e.toList.map fun e => inn (.expr e)
  | .loopInit (.variable _ ds) => ds.map fun d => inn (.varDecl d)
  | .loopInit (.expr e) => [inn (.expr e)]
  | .loopLeft (.variable _ d) => [inn (.varDecl d)]
  | .loopLeft (.expr e) => [inn (.expr e)]
  | .case (.mk t b) => t.toList.map (fun e => inn (.expr e)) ++ b.map fun p => inn (.part p)
  | .catch (.mk p b) => p.toList.map (fun p => inn (.pat p)) ++ b.map fun p => inn (.part p)
  | .stmt s => stmtKids s
  | .decl (.variable _ ds) => ds.map fun d => inn (.varDecl d)
  | .decl (.function f) => [inn (.fn f)]
  | .decl (.class c) => [inn (.cls c)]
  | .decl (.import i) => i.specifiers.flatMap importLeaves ++ [str i.source]
  | .decl (.export e) => [inn (.modExport e)]
  | .modExport (.defaultDecl d) => [inn (.decl d)]
  | .modExport (.defaultExpr e) => [inn (.expr e)]
  | .modExport (.namedDecl d) => [inn (.decl d)]
  | .modExport (.namedSpecifier ss s) => ss.flatMap exportLeaves ++ s.toList.map str
  | .modExport (.all s) => [str s]
  | .part (.dir e _) => [str e]
  | .part (.decl d) => [inn (.decl d)]
  | .part (.stmt s) => [inn (.stmt s)]

/-- `m` occurs in `n`. -/
inductive Sub (m : Node) : Node → Prop
  | refl : Sub m m
  | step {n c : Node} {e : Edge} : (e, c) ∈ n.kids → Sub m c → Sub m n

/-- `m` occurs in `n` outside every function body inside `n`. -/
inductive Out (m : Node) : Node → Prop
  | refl : Out m m
  | step {n c : Node} {e : Edge} : (e, c) ∈ n.kids → e ≠ .body → Out m c → Out m n

/-- `m` occurs in the parts. -/
def Within (m : Node) (ps : List ProgramPart) : Prop := ∃ p ∈ ps, Sub m (.part p)

/-- `m` occurs in the parts outside every function body. -/
def Outside (m : Node) (ps : List ProgramPart) : Prop := ∃ p ∈ ps, Out m (.part p)

/-- The size of a component. -/
noncomputable def Node.size : Node → Nat
  | .leaf _ => 0
  | .expr e => sizeOf e
  | .pat p => sizeOf p
  | .arrPart p => sizeOf p
  | .objPart p => sizeOf p
  | .objProp p => sizeOf p
  | .prop p => sizeOf p
  | .key k => sizeOf k
  | .value v => sizeOf v
  | .arg a => sizeOf a
  | .fn f => sizeOf f
  | .cls c => sizeOf c
  | .varDecl d => sizeOf d
  | .loopInit l => sizeOf l
  | .loopLeft l => sizeOf l
  | .case c => sizeOf c
  | .catch c => sizeOf c
  | .stmt s => sizeOf s
  | .decl d => sizeOf d
  | .modExport e => sizeOf e
  | .part p => sizeOf p

theorem mem_pieces {x : Edge × Node} : ∀ {qs : List TemplateElement} {es : List Expr},
    x ∈ pieces qs es ↔ (∃ q ∈ qs, x = inn (.leaf (.template q))) ∨ ∃ e ∈ es, x = inn (.expr e)
  | [], es => by simp [pieces, eq_comm]
  | q :: qs, [] => by simp [pieces, mem_pieces (qs := qs)]
  | q :: qs, e :: es => by
    simp only [pieces, List.mem_cons, mem_pieces (qs := qs) (es := es), exists_eq_or_imp]
    grind

theorem lt_of_mem_map {α : Type} [SizeOf α] {x : Edge × Node} {l : List α} {f : α → Edge × Node}
    (hf : ∀ a, (f a).2.size ≤ sizeOf a) (h : x ∈ l.map f) : x.2.size < sizeOf l := by
  obtain ⟨a, ha, rfl⟩ := List.mem_map.1 h
  exact Nat.lt_of_le_of_lt (hf a) (List.sizeOf_lt_of_mem ha)

theorem lt_of_mem_opt {α : Type} [SizeOf α] {x : Edge × Node} {l : Option α} {f : α → Edge × Node}
    (hf : ∀ a, (f a).2.size ≤ sizeOf a) (h : x ∈ l.toList.map f) : x.2.size < sizeOf l := by
  cases l <;> simp at h
  subst h
  have := hf ‹_›
  simp
  omega

theorem lt_of_mem_opts {α : Type} [SizeOf α] {x : Edge × Node} {l : List (Option α)}
    {f : α → Edge × Node} (hf : ∀ a, (f a).2.size ≤ sizeOf a)
    (h : x ∈ (l.filterMap id).map f) : x.2.size < sizeOf l := by
  simp only [List.mem_map, List.mem_filterMap, id] at h
  obtain ⟨a, ⟨_, ha, rfl⟩, rfl⟩ := h
  have := List.sizeOf_lt_of_mem ha
  have := hf a
  simp at *
  omega

theorem lt_of_mem_pieces {x : Edge × Node} {qs : List TemplateElement} {es : List Expr}
    (h : x ∈ pieces qs es) : x.2.size < 1 + sizeOf es + sizeOf qs := by
  rcases mem_pieces.1 h with ⟨q, hq, rfl⟩ | ⟨e, he, rfl⟩
  · simp [Node.size]; omega
  · have := List.sizeOf_lt_of_mem he
    simp [Node.size]; omega

theorem lt_of_mem_leaves {α : Type} {x : Edge × Node} {l : List α} {f : α → List (Edge × Node)}
    (hf : ∀ a, ∀ y ∈ f a, y.2.size = 0) (h : x ∈ l.flatMap f) : x.2.size = 0 := by
  obtain ⟨a, _, h⟩ := List.mem_flatMap.1 h
  exact hf a x h

theorem importLeaves_size (a : ImportSpecifier) : ∀ y ∈ importLeaves a, y.2.size = 0 := by
  cases a <;> simp [importLeaves, Node.size]

theorem exportLeaves_size (a : ExportSpecifier) : ∀ y ∈ exportLeaves a, y.2.size = 0 := by
  simp [exportLeaves, Node.size]

set_option hygiene false in
/-- Closes the goals of `kids_size`. -/
local macro "sz" : tactic => `(tactic| (
  simp only [Node.kids, exprKids, stmtKids, List.mem_append, List.mem_cons, List.not_mem_nil,
    or_false] at h
  repeat' (refine Or.elim h ?_ ?_ <;> clear h <;> intro h)
  all_goals first
    | (subst h; simp [Node.size] <;> omega)
    | exact h.elim
    | (simp only [List.map_nil, List.not_mem_nil] at h; done)
    | (have := lt_of_mem_map (fun a => by simp [Node.size]) h; generalize x.2.size = k at *; simp [Node.size] <;> omega)
    | (have := lt_of_mem_opt (fun a => by simp [Node.size]) h; generalize x.2.size = k at *; simp [Node.size] <;> omega)
    | (have := lt_of_mem_opts (fun a => by simp [Node.size]) h; generalize x.2.size = k at *; simp [Node.size] <;> omega)
    | (have := lt_of_mem_pieces h; generalize x.2.size = k at *; simp [Node.size] <;> omega)
    | (have := lt_of_mem_leaves importLeaves_size h; rw [this]; simp [Node.size] <;> omega)
    | (have := lt_of_mem_leaves exportLeaves_size h; rw [this]; simp [Node.size] <;> omega)))

/-- Components are smaller. -/
theorem kids_size {x : Edge × Node} {n : Node} (h : x ∈ n.kids) : x.2.size < n.size := by
  cases n with
  | leaf l => cases h
  | expr e => cases e <;> sz
  | stmt s =>
    cases s with
    | «try» b c f => cases f <;> simp only [Option.getD_none, Option.getD_some, Node.kids, stmtKids] at h <;> sz
    | _ => sz
  | prop p => obtain ⟨k, v, _, _, _, _⟩ := p; sz
  | fn p => obtain ⟨_, _, _, _, _⟩ := p; sz
  | cls p => obtain ⟨_, _, _⟩ := p; sz
  | varDecl p => obtain ⟨_, _⟩ := p; sz
  | case p => obtain ⟨_, _⟩ := p; sz
  | «catch» p => obtain ⟨_, _⟩ := p; sz
  | pat p => cases p <;> sz
  | arrPart p => cases p <;> sz
  | objPart p => cases p <;> sz
  | objProp p => cases p <;> sz
  | key p => cases p <;> sz
  | value p => cases p <;> sz
  | arg p => cases p <;> sz
  | loopInit p => cases p <;> sz
  | loopLeft p => cases p <;> sz
  | decl p => cases p <;> sz
  | modExport p => cases p <;> sz
  | part p => cases p <;> sz

/-- The names and literals of a component, in source order. -/
noncomputable def Node.leaves (n : Node) : List Leaf :=
  match n with
  | .leaf l => [l]
  | n => n.kids.attach.flatMap fun x => x.1.2.leaves
termination_by n.size
decreasing_by exact kids_size x.2

theorem leaves_leaf (l : Leaf) : (Node.leaf l).leaves = [l] := by
  rw [Node.leaves]

theorem leaves_eq {n : Node} (h : ∀ l, n ≠ .leaf l) :
    n.leaves = n.kids.flatMap fun x => x.2.leaves := by
  rw [Node.leaves]
  · rw [List.flatMap_subtype (g := fun x => x.2.leaves) (fun _ _ => rfl), List.unattach_attach]
  · exact h

end Ressa.Tree
