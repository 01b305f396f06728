import Verif.Spec.Count
import Verif.Proof.Trees

/-!
# The size of a tree is bounded by the number of items of its derivation
-/

namespace Ressa.Tree
open Ressa.Gr

/-- What a component is charged with: more than its slots, so that reading an expression as a pattern or as
parameters does not cost anything. -/
def Node.own : Node → Nat
  | .expr (.array es) => 1 + 2 * es.length
  | .expr (.sequence es) => 1 + es.length
  | .pat (.array ps) => 1 + ps.length
  | _ => 1

/-- What a tree is charged with. -/
noncomputable def Node.weight (n : Node) : Nat :=
  n.own + (n.kids.attach.map fun x => x.1.2.weight).sum
termination_by n.size
decreasing_by exact kids_size x.2

theorem weight_eq (n : Node) : n.weight = n.own + (n.kids.map fun x => x.2.weight).sum := by
  rw [Node.weight, List.map_subtype (g := fun x => x.2.weight) (fun _ _ => rfl), List.unattach_attach]

theorem slots_le (n : Node) : n.slots ≤ n.own := by
  unfold Node.slots
  split
  · simp [Node.own]; omega
  · simp [Node.own]
  · unfold Node.own; split <;> omega

theorem count_le (n : Node) : n.count ≤ n.weight := by
  rw [count_eq, weight_eq]
  refine Nat.add_le_add (slots_le n) ?_
  have key : ∀ l : List (Edge × Node), (∀ x ∈ l, x ∈ n.kids) →
      (l.map fun x => x.2.count).sum ≤ (l.map fun x => x.2.weight).sum := by
    intro l
    induction l with
    | nil => simp
    | cons x l ih =>
      intro h
      have h1 : x ∈ n.kids := h x (.head _)
      have := kids_size h1
      have := count_le x.2
      have := ih fun y hy => h y (.tail _ hy)
      simp
      omega
  exact key _ fun _ => id
termination_by n.size

theorem weight_con {n : Node} [Con n] : n.weight = n.own + (n.kids.map fun x => x.2.weight).sum :=
  weight_eq n

@[simp] theorem weight_leaf (l : Leaf) : (Node.leaf l).weight = 1 := by
  rw [weight_eq]; rfl

/-- The weight of a list. -/
noncomputable def ws {α : Type} (f : α → Node) (l : List α) : Nat := (l.map fun a => (f a).weight).sum

/-- The weight of a class element. -/
noncomputable def elWeight (b : ElBody) : Nat :=
  ws .key b.key.toList + ws .value b.value.toList + b.value.toList.length

/-- What each kind of phrase weighs, at `6` for each item. -/
def Wt (i o : List Tok) : NT → Prop
  | .name _ | .ident _ _ | .fnName _ | .importName _ | .source _ | .tplElem _ => o.length + 1 ≤ i.length
  | .key k => (Node.key k).weight + 3 + 6 * o.length ≤ 6 * i.length
  | .pattern _ _ p | .patDefault _ p | .rest _ p =>
      (Node.pat p).weight + 2 + 6 * o.length ≤ 6 * i.length
  | .patElems l | .patArray l =>
      ws .arrPart (l.filterMap id) + l.length + 6 * o.length ≤ 6 * i.length
  | .patProp p => (Node.objPart p).weight + 6 * o.length ≤ 6 * i.length
  | .patProps l => ws .objPart l + 6 * o.length ≤ 6 * i.length
  | .directive p | .listItem p => (Node.part p).weight + 6 * o.length ≤ 6 * i.length
  | .prologue l | .items l => ws .part l + 6 * o.length ≤ 6 * i.length
  | .block l | .body l => ws .part l + 12 + 6 * o.length ≤ 6 * i.length
  | .param _ a => (Node.arg a).weight + 6 * o.length ≤ 6 * i.length
  | .paramSeq _ l => ws .arg l + 6 * o.length ≤ 6 * i.length
  | .params _ l => ws .arg l + 12 + 6 * o.length ≤ 6 * i.length
  | .declName _ n | .exprName n | .className _ n =>
      6 * n.toList.length + 6 * o.length ≤ 6 * i.length
  | .optLabel _ n => 6 * n.toList.length + 6 + 6 * o.length ≤ 6 * i.length
  | .fnDecl _ f => (Node.fn f).weight + 4 + 6 * o.length ≤ 6 * i.length
  | .method _ _ v | .getter v | .setter v => (Node.value v).weight + 2 + 6 * o.length ≤ 6 * i.length
  | .elHead _ h => ws .key h.key.toList + 6 * o.length ≤ 6 * i.length
  | .elBody h b => elWeight b + 6 * o.length ≤ 6 * i.length + ws .key h.key.toList
  | .elMethod _ b b' => elWeight b' + 6 * o.length ≤ 6 * i.length + elWeight b
  | .classEl _ _ p => (Node.prop p).weight + 6 * o.length ≤ 6 * i.length
  | .classEls _ l => ws .prop l + 6 * o.length ≤ 6 * i.length
  | .classBody l => ws .prop l + 12 + 6 * o.length ≤ 6 * i.length
  | .heritage e | .init e | .optExpr _ e | .caseTest e => ws .expr e.toList + 6 * o.length ≤ 6 * i.length
  | .cls _ c => (Node.cls c).weight + 5 + 6 * o.length ≤ 6 * i.length
  | .tplSeq es qs | .tpl es qs => 6 + ((pieces qs es).map fun x => x.2.weight).sum + 6 * o.length ≤
      6 * i.length + 1 ∧ qs.length = es.length + 1
  | .propHead k _ _ => ws .key k.toList + 3 + 6 * o.length ≤ 6 * i.length
  | .objProp p => (Node.objProp p).weight + 6 * o.length ≤ 6 * i.length
  | .objProps l => ws .objProp l + 6 * o.length ≤ 6 * i.length
  | .elems l => ws .expr (l.filterMap id) + 2 * l.length + 6 * o.length ≤ 6 * i.length
  | .argSeq l | .groupSeq l | .exprSeq l | .forSeq l =>
      ws .expr l + 3 * l.length + 6 * o.length ≤ 6 * i.length
  | .args l => ws .expr l + 3 * l.length + 12 + 6 * o.length ≤ 6 * i.length
  | .fnExpr e | .spread e | .arg e | .object e | .array e | .group e | .primary e | .newExpr e
  | .operand e | .member e | .call e | .update e | .unary e | .expo e | .bin _ e | .cond e
  | .arrowHead e | .assign e | .expression e | .exprStmt e =>
      (Node.expr e).weight + 3 + 6 * o.length ≤ 6 * i.length
  | .varDecl _ _ d | .lexDecl _ _ d => (Node.varDecl d).weight + 6 * o.length ≤ 6 * i.length
  | .varDecls _ _ l | .lexDecls _ _ l => ws .varDecl l + 6 * o.length ≤ 6 * i.length
  | .lexical _ d => (Node.decl d).weight + 2 + 6 * o.length ≤ 6 * i.length
  | .loopBody s | .labelBody s | .stmt s | .forHead _ s =>
      (Node.stmt s).weight + 1 + 6 * o.length ≤ 6 * i.length
  | .forCont x s => (Node.stmt s).weight + 4 + 6 * o.length ≤ 6 * i.length + ws .loopInit x.toList
  | .catchParam p => ws .pat p.toList + 6 * o.length ≤ 6 * i.length
  | .catchClause c => (Node.catch c).weight + 6 * o.length ≤ 6 * i.length
  | .handler c => ws .catch c.toList + 6 * o.length ≤ 6 * i.length
  | .finalizer l => ws .part (l.getD []) + 6 * o.length ≤ 6 * i.length
  | .switchCase c => (Node.case c).weight + 6 * o.length ≤ 6 * i.length
  | .cases _ l => ws .case l + 6 * o.length ≤ 6 * i.length
  | .importSpec s | .nsImport s =>
      ((importLeaves s).map fun x => x.2.weight).sum + 6 * o.length ≤ 6 * i.length
  | .importSeq l | .namedImports l | .imports l =>
      ((l.flatMap importLeaves).map fun x => x.2.weight).sum + 6 * o.length ≤ 6 * i.length
  | .importDecl d => (Node.decl (.import d)).weight + 1 + 6 * o.length ≤ 6 * i.length
  | .exportSpec s => ((exportLeaves s).map fun x => x.2.weight).sum + 6 * o.length ≤ 6 * i.length
  | .exportSeq _ l => ((l.flatMap exportLeaves).map fun x => x.2.weight).sum + 6 * o.length ≤ 6 * i.length
  | .exportDecl e => (Node.modExport e).weight + 2 + 6 * o.length ≤ 6 * i.length
  | .semi | .sep | .asyncOpt _ | .starOpt _ => o.length ≤ i.length

@[simp] theorem weight_word (n : Txt) : (word n).2.weight = 1 := weight_leaf _

theorem sum_one {α : Type} (l : List α) (f : α → Nat) :
    (l.map fun a => 1 + f a).sum = l.length + (l.map f).sum := by
  induction l with
  | nil => rfl
  | cons a l ih => simp [ih]; omega

theorem weight_groupOf (l : List Expr) : (Node.expr (groupOf l)).weight ≤ 1 + l.length + ws .expr l := by
  unfold groupOf
  split
  · simp [ws]
  · simp [weight_con, Node.own, Node.kids, exprKids, ws, Function.comp_def]

theorem weight_arrowArgs (e : Expr) : ws .arg (arrowArgs e) ≤ (Node.expr e).weight + 1 := by
  unfold arrowArgs
  split
  · simp [weight_con, Node.own, Node.kids, exprKids, ws, Function.comp_def, sum_one]
    omega
  · simp [weight_con (n := .arg _), Node.own, Node.kids, ws]; omega

theorem weight_computedKey (e : Expr) : (Node.key (computedKey e)).weight ≤ (Node.expr e).weight + 1 := by
  unfold computedKey
  split <;> simp [weight_con (n := .key _), weight_con (n := .expr (.literal _)), Node.own, Node.kids, exprKids] <;> omega

mutual
theorem weight_reinterpretPat : ∀ {e p}, reinterpretPat e = some p →
    (Node.pat p).weight ≤ (Node.expr e).weight
  | .array es, p, hp => by
    simp only [reinterpretPat, Option.some.injEq] at hp; subst hp
    simp only [weight_con, Node.own, Node.kids, exprKids, List.map_map, Function.comp_def, List.length_map]
    have : ((List.filterMap id (es.map (Option.map ArrayPatPart.expr))).map fun x =>
        (Node.arrPart x).weight).sum ≤ es.length + ((es.filterMap id).map fun x => (Node.expr x).weight).sum := by
      induction es with
      | nil => simp
      | cons e es ih =>
        cases e with
        | none => simp at ih ⊢; omega
        | some e => simp [weight_con (n := .arrPart (.expr e)), Node.own, Node.kids] at ih ⊢; omega
    omega
  | .spread e, p, hp => by
    simp only [reinterpretPat] at hp
    obtain ⟨p', hp', rfl⟩ := Option.map_eq_some_iff.1 hp
    have := weight_reinterpretPat hp'
    simp [weight_con (n := .pat (.restElement _)), weight_con (n := .expr (.spread _)), Node.own, Node.kids, exprKids]
    omega
  | .object ps, p, hp => by
    simp only [reinterpretPat] at hp
    obtain ⟨p', hp', rfl⟩ := Option.map_eq_some_iff.1 hp
    have := weight_reinterpretProps hp'
    simpa [weight_con (n := .pat (.object _)), weight_con (n := .expr (.object _)), Node.own, Node.kids,
      exprKids, ws, Function.comp_def] using this
  | .assignment op l r, p, hp => by
    simp only [reinterpretPat] at hp
    obtain ⟨p', hp', rfl⟩ := Option.map_eq_some_iff.1 hp
    have := weight_reinterpretPat hp'
    simp [weight_con (n := .pat (.assignment _ _)), weight_con (n := .expr (.assignment _ _ _)), Node.own,
      Node.kids, exprKids]
    omega
  | .ident i, p, hp => by
    simp only [reinterpretPat, Option.some.injEq] at hp; subst hp
    simp [weight_con, Node.own, Node.kids, exprKids]
theorem weight_reinterpretProps : ∀ {ps qs}, reinterpretProps ps = some qs →
    ws .objPart qs ≤ ws .objProp ps
  | [], _, h => by
    simp only [reinterpretProps, Option.some.injEq] at h; subst h; simp [ws]
  | p :: ps, _, h => by
    simp only [reinterpretProps] at h
    split at h
    · cases h
    · rename_i hq
      obtain ⟨qs', hqs, rfl⟩ := Option.map_eq_some_iff.1 h
      have h1 := weight_reinterpretProp hq
      have h2 := weight_reinterpretProps hqs
      simp only [ws, List.map_cons, List.sum_cons] at h2 ⊢
      omega
theorem weight_reinterpretProp : ∀ {p q}, reinterpretProp p = some q →
    (Node.objPart q).weight ≤ (Node.objProp p).weight
  | .property p, q, h => by
    simp only [reinterpretProp, Option.some.injEq] at h; subst h
    simp [weight_con (n := .objPart (.assignment _)), weight_con (n := .objProp (.property _)), Node.own, Node.kids]
  | .spread e, q, h => by
    simp only [reinterpretProp] at h
    obtain ⟨p', hp', rfl⟩ := Option.map_eq_some_iff.1 h
    have := weight_reinterpretPat hp'
    simpa [weight_con (n := .objPart (.rest _)), weight_con (n := .objProp (.spread _)), Node.own, Node.kids] using this
end

theorem weight_coverSource {e ps a} (he : coverSource e = some (ps, a)) :
    ws .arg ps ≤ (Node.expr e).weight + 1 := by
  unfold coverSource at he
  split at he
  · cases he
    simp [ws, weight_con (n := .arg (.expr _)), weight_con (n := .expr (.ident _)), Node.own, Node.kids, exprKids]
  · cases he
    simp [ws, weight_con (n := .expr (.arrowParamPlaceHolder _ _)), Node.own, Node.kids, exprKids,
      Function.comp_def]
    omega
  · cases he

theorem weight_coverParam (a p) : (Node.arg (coverParam a p).1).weight ≤ (Node.arg p).weight := by
  unfold coverParam
  split
  all_goals first
    | exact Nat.le_refl _
    | (simp [weight_con (n := .arg _), weight_con (n := .pat (.identifier _)),
        weight_con (n := .expr (.ident _)), weight_con (n := .pat (.assignment _ _)),
        weight_con (n := .expr (.assignment _ _ _)), weight_con (n := .expr (.yield _ _)),
        Node.own, Node.kids, exprKids]; omega)

theorem weight_coverParams (a) (ps : List FunctionArg) :
    ws .arg (ps.map fun p => (coverParam a p).1) ≤ ws .arg ps := by
  induction ps with
  | nil => simp
  | cons p ps ih =>
    have := weight_coverParam a p
    simp only [ws, List.map_cons, List.sum_cons] at ih ⊢
    omega

theorem pieces_concat' {qs : List TemplateElement} {es : List Expr} {q e}
    (h : qs.length = es.length + 1) :
    pieces (qs ++ [q]) (es ++ [e]) = pieces qs es ++ [inn (.expr e), inn (.leaf (.template q))] := by
  induction es generalizing qs with
  | nil =>
    obtain ⟨q', rfl⟩ := List.length_eq_one_iff.1 h
    rfl
  | cons e' es ih =>
    cases qs with
    | nil => simp at h
    | cons q' qs => simp [pieces, ih (by simpa using h)]

set_option maxHeartbeats 4000000 in
/-- The size of a tree is bounded by the number of items of its derivation. -/
theorem weight_of_G {C Γ nt i o} (h : G C Γ nt i o) : Wt i o nt := by
  induction h
  all_goals simp only [Wt, List.length_cons] at *
  all_goals try with_reducible assumption
  all_goals try omega
  all_goals try (
    simp [ws]
    done)
  all_goals try (
    simp [weight_con, Node.own, Node.kids, exprKids, stmtKids, ws, elWeight, Function.comp_def,
      importLeaves, exportLeaves, sum_one, List.map_const', List.sum_replicate_nat] at *
    omega)
  case keyComputed =>
    have := weight_computedKey ‹_›
    omega
  case classEl hf _ _ _ _ =>
    cases hf with
    | ctor _ hk hv _ _ _ _ _ _ => simp [weight_con, Node.own, Node.kids, elWeight, hk, hv, ws] at *; omega
    | other _ hk hv _ => simp [weight_con, Node.own, Node.kids, elWeight, hk, hv, ws] at *; omega
  case tplFirst => simp [pieces]; omega
  case tplMore ih1 ih2 ih3 =>
    refine ⟨?_, by simp [ih1.2]⟩
    rw [pieces_concat' ih1.2]
    simp
    omega
  case group =>
    have := weight_groupOf ‹_›
    omega
  case groupArrow =>
    have h1 := weight_groupOf ‹_›
    have h2 := weight_arrowArgs (groupOf ‹_›)
    simp [weight_con (n := .expr (.arrowParamPlaceHolder _ _)), Node.own, Node.kids, exprKids, ws,
      Function.comp_def] at *
    omega
  case bin op _ _ _ _ _ _ _ _ _ _ ih ih' =>
    cases op <;> simp [Op.node, weight_con (n := .expr (.binary _ _ _)),
      weight_con (n := .expr (.logical _ _ _)), Node.own, Node.kids, exprKids] <;> omega
  case arrowHeadAsync hp ih ih' =>
    have := weight_reinterpretPat hp
    simp [weight_con (n := .expr (.arrowParamPlaceHolder _ _)), weight_con (n := .arg _), Node.own,
      Node.kids, exprKids]
    omega
  case arrowBlock hs _ _ _ _ ih ih' =>
    have h1 := weight_coverSource hs
    have h2 := weight_coverParams ‹_› ‹_›
    simp [weight_con (n := .expr (.arrowBlock _ _ _ _ _)), Node.own, Node.kids, exprKids, ws,
      Function.comp_def] at *
    omega
  case arrowExpr hs _ _ _ _ ih ih' =>
    have h1 := weight_coverSource hs
    have h2 := weight_coverParams ‹_› ‹_›
    simp [weight_con (n := .expr (.arrowExpr _ _ _ _ _)), Node.own, Node.kids, exprKids, ws,
      Function.comp_def] at *
    omega
  case stDoWhile ho ih ih' =>
    rcases ho with ⟨rfl, -⟩ | ⟨_, _, rfl⟩ <;>
      simp [weight_con (n := .stmt (.doWhile _ _)), Node.own, Node.kids, stmtKids] at * <;> omega
end Ressa.Tree
