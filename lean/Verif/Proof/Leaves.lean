import Verif.Spec.Spell
import Verif.Proof.Trees

/-!
# Every derived tree is spelled by the items of its derivation
-/

namespace Ressa.Tree
open Ressa.Gr

namespace Spell

theorem trans {C X Y i j o} (h : Spell C X i j) (h' : Spell C Y j o) : Spell C (X ++ Y) i o := by
  induction h with
  | nil => exact h'
  | skip _ ih => exact .skip (ih h')
  | take hl _ ih => exact .take hl (ih h')

theorem sub {C X Y i o} (h : Spell C Y i o) (hs : X.Sublist Y) : Spell C X i o := by
  induction h generalizing X with
  | nil => cases hs; exact .nil
  | skip _ ih => exact .skip (ih hs)
  | take hl _ ih =>
    cases hs with
    | cons _ hs => exact .skip (ih hs)
    | cons_cons _ hs => exact .take hl (ih hs)

theorem of_sub {C X Y i o} (h : Spell C Y i o) (hs : X.Sublist Y) : Spell C X i o := h.sub hs

theorem of_eq {C X Y i o} (h : Spell C Y i o) (hs : X = Y) : Spell C X i o := hs ▸ h

end Spell

theorem leaves_con {n} [h : Con n] : n.leaves = n.kids.flatMap fun x => x.2.leaves :=
  leaves_eq h.not_leaf

/-- The names and literals of a list. -/
noncomputable def lvs {α : Type} (f : α → Node) (l : List α) : List Leaf :=
  l.flatMap fun a => (f a).leaves

@[simp] theorem lvs_nil {α : Type} (f : α → Node) : lvs f [] = [] := rfl
@[simp] theorem lvs_cons {α : Type} (f : α → Node) (a l) : lvs f (a :: l) = (f a).leaves ++ lvs f l := by
  simp [lvs]
@[simp] theorem lvs_append {α : Type} (f : α → Node) (l l') : lvs f (l ++ l') = lvs f l ++ lvs f l' := by
  simp [lvs]

/-- The names and literals of a class element. -/
noncomputable def elLeaves (b : ElBody) : List Leaf := lvs .key b.key.toList ++ lvs .value b.value.toList

/-- What each kind of phrase spells. -/
def Lv (C : Cfg) (i o : List Tok) : NT → Prop
  | .name n | .ident _ n | .fnName n | .importName n => Spell C [.word n] i o
  | .key k => Spell C (Node.key k).leaves i o
  | .pattern _ _ p | .patDefault _ p | .rest _ p => Spell C (Node.pat p).leaves i o
  | .patElems l | .patArray l => Spell C (lvs .arrPart (l.filterMap id)) i o
  | .patProp p => Spell C (Node.objPart p).leaves i o
  | .patProps l => Spell C (lvs .objPart l) i o
  | .directive p | .listItem p => Spell C (Node.part p).leaves i o
  | .prologue l | .items l | .block l | .body l => Spell C (lvs .part l) i o
  | .param _ a => Spell C (Node.arg a).leaves i o
  | .paramSeq _ l | .params _ l => Spell C (lvs .arg l) i o
  | .declName _ n | .exprName n | .className _ n | .optLabel _ n =>
      Spell C (n.toList.map .word) i o
  | .fnDecl _ f => Spell C (Node.fn f).leaves i o
  | .method _ _ v | .getter v | .setter v => Spell C (Node.value v).leaves i o
  | .elHead _ h => Spell C (lvs .key h.key.toList) i o
  | .elBody h b => ∀ i', Spell C (lvs .key h.key.toList) i' i → Spell C (elLeaves b) i' o
  | .elMethod _ b b' => ∀ i', Spell C (elLeaves b) i' i → Spell C (elLeaves b') i' o
  | .classEl _ _ p => Spell C (Node.prop p).leaves i o
  | .classEls _ l | .classBody l => Spell C (lvs .prop l) i o
  | .heritage e | .init e | .optExpr _ e | .caseTest e => Spell C (lvs .expr e.toList) i o
  | .cls _ c => Spell C (Node.cls c).leaves i o
  | .tplElem q => Spell C [.template q] i o
  | .tplSeq es qs | .tpl es qs =>
      Spell C ((pieces qs es).flatMap fun x => x.2.leaves) i o ∧ qs.length = es.length + 1
  | .propHead k _ _ => Spell C (lvs .key k.toList) i o
  | .objProp p => Spell C (Node.objProp p).leaves i o
  | .objProps l => Spell C (lvs .objProp l) i o
  | .elems l => Spell C (lvs .expr (l.filterMap id)) i o
  | .argSeq l | .args l | .groupSeq l | .exprSeq l | .forSeq l => Spell C (lvs .expr l) i o
  | .fnExpr e | .spread e | .arg e | .object e | .array e | .group e | .primary e | .newExpr e
  | .operand e | .member e | .call e | .update e | .unary e | .expo e | .bin _ e | .cond e
  | .arrowHead e | .assign e | .expression e | .exprStmt e => Spell C (Node.expr e).leaves i o
  | .varDecl _ _ d | .lexDecl _ _ d => Spell C (Node.varDecl d).leaves i o
  | .varDecls _ _ l | .lexDecls _ _ l => Spell C (lvs .varDecl l) i o
  | .lexical _ d => Spell C (Node.decl d).leaves i o
  | .loopBody s | .forHead _ s | .labelBody s | .stmt s => Spell C (Node.stmt s).leaves i o
  | .forCont x s => ∀ i', Spell C (lvs .loopInit x.toList) i' i → Spell C (Node.stmt s).leaves i' o
  | .catchParam p => Spell C (lvs .pat p.toList) i o
  | .catchClause c => Spell C (Node.catch c).leaves i o
  | .handler c => Spell C (lvs .catch c.toList) i o
  | .finalizer l => Spell C (lvs .part (l.getD [])) i o
  | .switchCase c => Spell C (Node.case c).leaves i o
  | .cases _ l => Spell C (lvs .case l) i o
  | .source s => Spell C [.string s] i o
  | .importSpec s | .nsImport s => Spell C ((importLeaves s).flatMap fun x => x.2.leaves) i o
  | .importSeq l | .namedImports l | .imports l =>
      Spell C ((l.flatMap importLeaves).flatMap fun x => x.2.leaves) i o
  | .importDecl d => Spell C (Node.decl (.import d)).leaves i o
  | .exportSpec s => Spell C ((exportLeaves s).flatMap fun x => x.2.leaves) i o
  | .exportSeq _ l => Spell C ((l.flatMap exportLeaves).flatMap fun x => x.2.leaves) i o
  | .exportDecl e => Spell C (Node.modExport e).leaves i o
  | .semi | .sep | .asyncOpt _ | .starOpt _ => Spell C [] i o

/-- Spells a sequence of phrases and skipped items. -/
macro "chain" : tactic => `(tactic| (
  apply Spell.of_sub
  case h =>
    repeat' (first
      | exact Spell.nil
      | with_reducible assumption
      | (with_reducible apply Spell.trans; with_reducible assumption)
      | apply Spell.skip)))

theorem leaves_groupOf (l : List Expr) : (Node.expr (groupOf l)).leaves = lvs .expr l := by
  unfold groupOf
  split <;> simp [leaves_con, Node.kids, exprKids, List.flatMap_map, lvs]

theorem leaves_arrowArgs (e : Expr) : lvs .arg (arrowArgs e) = (Node.expr e).leaves := by
  unfold arrowArgs
  split <;> simp [leaves_con, Node.kids, exprKids, List.flatMap_map, lvs]

theorem leaves_computedKey (e : Expr) : (Node.key (computedKey e)).leaves = (Node.expr e).leaves := by
  unfold computedKey
  split <;> simp [leaves_con, Node.kids, exprKids]

theorem words_eq (l : List Txt) : (l.flatMap fun w => [Leaf.word w]) = l.map .word := by
  induction l <;> simp_all

mutual
theorem leaves_reinterpretPat : ∀ {e p}, reinterpretPat e = some p →
    (Node.pat p).leaves = (Node.expr e).leaves
  | .array es, p, hp => by
    simp only [reinterpretPat, Option.some.injEq] at hp; subst hp
    simp only [leaves_con, Node.kids, exprKids, List.flatMap_map]
    induction es with
    | nil => rfl
    | cons e es ih =>
      cases e with
      | none => simpa using ih
      | some e => simpa [leaves_con (n := .arrPart (.expr e)), Node.kids] using ih
  | .spread e, p, hp => by
    simp only [reinterpretPat] at hp
    obtain ⟨p', hp', rfl⟩ := Option.map_eq_some_iff.1 hp
    simp [leaves_con, Node.kids, exprKids, leaves_reinterpretPat hp']
  | .object ps, p, hp => by
    simp only [reinterpretPat] at hp
    obtain ⟨p', hp', rfl⟩ := Option.map_eq_some_iff.1 hp
    have := leaves_reinterpretProps hp'
    simpa [leaves_con, Node.kids, exprKids, List.flatMap_map, lvs] using this
  | .assignment op l r, p, hp => by
    simp only [reinterpretPat] at hp
    obtain ⟨p', hp', rfl⟩ := Option.map_eq_some_iff.1 hp
    simp [leaves_con, Node.kids, exprKids, leaves_reinterpretPat hp']
  | .ident i, p, hp => by
    simp only [reinterpretPat, Option.some.injEq] at hp; subst hp
    simp [leaves_con, Node.kids, exprKids]
theorem leaves_reinterpretProps : ∀ {ps qs}, reinterpretProps ps = some qs →
    lvs .objPart qs = lvs .objProp ps
  | [], _, h => by
    simp only [reinterpretProps, Option.some.injEq] at h; subst h; simp
  | p :: ps, _, h => by
    simp only [reinterpretProps] at h
    split at h
    · cases h
    · rename_i hq
      obtain ⟨qs', hqs, rfl⟩ := Option.map_eq_some_iff.1 h
      simp [leaves_reinterpretProp hq, leaves_reinterpretProps hqs]
theorem leaves_reinterpretProp : ∀ {p q}, reinterpretProp p = some q →
    (Node.objPart q).leaves = (Node.objProp p).leaves
  | .property p, q, h => by
    simp only [reinterpretProp, Option.some.injEq] at h; subst h
    simp [leaves_con, Node.kids]
  | .spread e, q, h => by
    simp only [reinterpretProp] at h
    obtain ⟨p', hp', rfl⟩ := Option.map_eq_some_iff.1 h
    simp [leaves_con, Node.kids, leaves_reinterpretPat hp']
end

theorem leaves_coverSource {e ps a} (he : coverSource e = some (ps, a)) :
    (Node.expr e).leaves = lvs .arg ps := by
  unfold coverSource at he
  split at he
  · cases he; simp [leaves_con, Node.kids, exprKids]
  · cases he; simp [leaves_con, Node.kids, exprKids, lvs, List.flatMap_map]
  · cases he

theorem leaves_coverParam (a p) :
    (Node.arg (coverParam a p).1).leaves.Sublist (Node.arg p).leaves := by
  unfold coverParam
  split <;> simp [leaves_con, Node.kids, exprKids]

theorem leaves_coverParams (a) (ps : List FunctionArg) :
    (lvs .arg (ps.map fun p => (coverParam a p).1)).Sublist (lvs .arg ps) := by
  induction ps with
  | nil => simp
  | cons p ps ih => simpa using (leaves_coverParam a p).append ih

theorem pieces_concat {qs : List TemplateElement} {es : List Expr} {q e}
    (h : qs.length = es.length + 1) :
    pieces (qs ++ [q]) (es ++ [e]) = pieces qs es ++ [inn (.expr e), inn (.leaf (.template q))] := by
  induction es generalizing qs with
  | nil =>
    obtain ⟨q', rfl⟩ := List.length_eq_one_iff.1 h
    rfl
  | cons e' es ih =>
    cases qs with
    | nil => simp at h
    | cons q' qs => simp [pieces, ih (by simpa using h)]

set_option maxHeartbeats 4000000 in
/-- Every derived tree is spelled by the items of its derivation. -/
theorem leaves_of_G {C Γ nt i o} (h : G C Γ nt i o) : Lv C i o nt := by
  induction h
  all_goals simp only [Lv] at *
  all_goals try with_reducible assumption
  all_goals try (
    chain
    simp [leaves_con, Node.kids, exprKids, stmtKids, lvs, List.flatMap_map, leaves_groupOf,
      leaves_leaf, leafOf, importLeaves, exportLeaves, words_eq]
    done)
  all_goals try (
    simp only [leaves_con, Node.kids, exprKids, List.flatMap_cons, List.flatMap_nil, leaves_leaf, leafOf,
      List.append_nil, lvs, List.cons_append, List.nil_append, Option.toList]
    refine Spell.take ?_ Spell.nil; simp_all [Spelled]; done)
  case name => exact .take (.inl rfl) .nil
  case identIdent => exact .take (.inl rfl) .nil
  case identYield hk _ _ => exact .take (.inr ⟨_, hk, rfl⟩) .nil
  case identKeyword hk _ _ _ => exact .take (.inr ⟨_, hk, rfl⟩) .nil
  case fnNameYield => exact .take (.inl rfl) .nil
  case keyComputed => rw [leaves_computedKey]; chain; simp
  case elGet => intro i' h'; chain; simp [elLeaves]
  case elSet => intro i' h'; chain; simp [elLeaves]
  case elGen => intro i' h'; chain; simp [elLeaves]
  case elPlain => intro i' h'; chain; simp [elLeaves]
  case elMethod => intro i' h'; chain; simp [elLeaves]
  case elDone => exact fun _ => id
  case classEl hf h1 h2 h3 h4 =>
    refine (h1.trans (h4 _ (h3 _ h2))).sub ?_
    cases hf with
    | ctor _ hk hv _ _ _ _ _ _ => simp [leaves_con, Node.kids, elLeaves, hk, hv]
    | other _ hk hv _ => simp [leaves_con, Node.kids, elLeaves, hk, hv]
  case tplMid h1 h2 => exact .take ⟨rfl, h1, h2⟩ .nil
  case tplEnd h1 h2 => exact .take ⟨rfl, h1, h2⟩ .nil
  case tplFirst ih => exact ⟨by simpa [pieces, leaves_leaf] using ih, rfl⟩
  case tplMore ih1 ih2 ih3 =>
    refine ⟨?_, by simp [ih1.2]⟩
    rw [pieces_concat ih1.2]
    simpa [leaves_leaf] using ih1.1.trans (ih2.trans ih3)
  case groupArrow =>
    chain
    simp [leaves_con, Node.kids, exprKids, List.flatMap_map]
    have := leaves_arrowArgs (groupOf ‹_›)
    rw [leaves_groupOf] at this
    simp only [lvs] at this ⊢
    rw [this]; simp
  case primTemplate ih => exact ih.1.of_eq leaves_con
  case newTarget =>
    simp only [leaves_con, Node.kids, exprKids, List.flatMap_cons, List.flatMap_nil, leaves_leaf,
      List.append_nil]
    exact .skip (.skip (.take (.inl rfl) .nil))
  case memTemplate ih ih' => exact (ih.trans ih'.1).of_eq (by simp [leaves_con, Node.kids, exprKids])
  case callTemplate ih ih' => exact (ih.trans ih'.1).of_eq (by simp [leaves_con, Node.kids, exprKids])
  case bin op _ _ _ _ _ _ _ _ _ _ ih ih' =>
    refine (ih.trans ih'.skip).of_eq ?_
    cases op <;> simp [Op.node, leaves_con, Node.kids, exprKids]
  case arrowHeadAsync hp ih ih' =>
    refine (ih.trans ih').sub ?_
    simp [leaves_con, Node.kids, exprKids, leaves_reinterpretPat hp]
  case arrowBlock hs _ _ _ _ ih ih' =>
    refine (ih.trans ih'.skip).sub ?_
    rw [leaves_coverSource hs, leaves_con]
    simpa [Node.kids, exprKids, List.flatMap_map, lvs] using leaves_coverParams _ _
  case arrowExpr hs _ _ _ _ ih ih' =>
    refine (ih.trans ih'.skip).sub ?_
    rw [leaves_coverSource hs, leaves_con]
    simpa [Node.kids, exprKids, List.flatMap_map, lvs] using leaves_coverParams _ _
  case yieldBare hk _ =>
    refine (Spell.take (l := .word t!"yield") (.inr ⟨_, hk, rfl⟩) .nil).of_eq ?_
    simp [leaves_con, Node.kids, exprKids, leaves_leaf]
  case yieldStar hk _ _ _ _ ih =>
    refine (Spell.take (l := .word t!"yield") (.inr ⟨_, hk, rfl⟩) ih.skip).of_eq ?_
    simp [leaves_con, Node.kids, exprKids, leaves_leaf]
  case yieldArg hk _ _ _ ih =>
    refine (Spell.take (l := .word t!"yield") (.inr ⟨_, hk, rfl⟩) ih).of_eq ?_
    simp [leaves_con, Node.kids, exprKids, leaves_leaf]
  case forCont =>
    intro i' h'
    chain
    simp [leaves_con, Node.kids, stmtKids, lvs, List.flatMap_map]
  case forSemi ih => exact ih _ .nil
  case forVar ih ih' =>
    exact ih' _ (ih.skip.of_eq (by simp [leaves_con, Node.kids, lvs, List.flatMap_map]))
  case forKindIn hk _ _ _ _ ih ih' =>
    rcases hk with ⟨hk, rfl⟩ | ⟨hk, rfl⟩
    · refine (Spell.take (l := .word t!"let") (.inr ⟨_, hk, rfl⟩) (ih.trans ih').skip).of_eq ?_
      simp [leaves_con, Node.kids, exprKids, stmtKids, leaves_leaf, kindName]
    · refine (Spell.take (l := .word t!"const") (.inr ⟨_, hk, rfl⟩) (ih.trans ih').skip).of_eq ?_
      simp [leaves_con, Node.kids, exprKids, stmtKids, leaves_leaf, kindName]
  case forLex ih ih' =>
    exact ih' _ (ih.skip.of_eq (by simp [leaves_con, Node.kids, lvs, List.flatMap_map]))
  case forExprSeq ih ih' =>
    exact ih' _ (ih.of_eq (by simp [leaves_con, Node.kids, exprKids, lvs, List.flatMap_map]))
  case forExpr ih ih' =>
    exact ih' _ (ih.of_eq (by simp [leaves_con, Node.kids]))
  case stDoWhile ho ih ih' =>
    rcases ho with ⟨rfl, -⟩ | ⟨_, _, rfl⟩
    · exact ((ih.trans (ih'.trans (.skip .nil)).skip.skip).skip).of_eq
        (by simp [leaves_con, Node.kids, stmtKids])
    · exact ((ih.trans (ih'.trans (.skip (.skip .nil))).skip.skip).skip).of_eq
        (by simp [leaves_con, Node.kids, stmtKids])
  case source h => exact .take ⟨h, rfl⟩ .nil
end Ressa.Tree
