import Verif.Proof.Brackets
import Verif.Proof.Trees

/-!
# Where placeholders remain

`Expr::ArrowParamPlaceHolder` stands for the parameters of an arrow function until the `=>` is
read.  `Pure n`: no node of `n` is a placeholder.  `pure_of_G` proves that a derived tree is pure
up to what stands directly before a `=>`, in texts where no `,` is directly followed by `)` or by
`...`.
-/

namespace Ressa.Tree
open Ressa.Gr

/-- No node is a placeholder. -/
inductive Pure : Node → Prop
  | mk {n} : (∀ ps a, n ≠ .expr (.arrowParamPlaceHolder ps a)) → (∀ x ∈ n.kids, Pure x.2) → Pure n

theorem pure_iff {n} : Pure n ↔ (∀ ps a, n ≠ .expr (.arrowParamPlaceHolder ps a)) ∧
    ∀ x ∈ n.kids, Pure x.2 :=
  ⟨fun | .mk h h' => ⟨h, h'⟩, fun h => .mk h.1 h.2⟩

/-- See `Con`. -/
theorem pure_con {n} [Con n] : Pure n ↔ (∀ ps a, n ≠ .expr (.arrowParamPlaceHolder ps a)) ∧
    ∀ x ∈ n.kids, Pure x.2 := pure_iff

@[simp] theorem pure_leaf {l} : Pure (.leaf l) := pure_iff.2 (by simp [Node.kids])

theorem not_pure {ps a} : ¬ Pure (.expr (.arrowParamPlaceHolder ps a)) :=
  fun h => (pure_iff.1 h).1 _ _ rfl

/-- A placeholder does not occur in a pure tree. -/
theorem Pure.sub {m n} (hs : Sub m n) (h : Pure n) : Pure m := by
  induction hs with
  | refl => exact h
  | step hx _ ih => exact ih ((pure_iff.1 h).2 _ hx)

/-- All elements of a list. -/
def PureL {α : Type} (f : α → Node) (l : List α) : Prop := ∀ a ∈ l, Pure (f a)

/-- The item at the front is `=>`. -/
def AtArrow (o : List Tok) : Prop := head o = .punct .fatArrow

/-- No `,` is directly followed by `)` or `...`, and every `=>` is spelled so. -/
def Tidy (C : Cfg) : List Tok → Prop
  | [] => True
  | t :: r => (Is t .comma → head r ≠ .punct .closeParen ∧ head r ≠ .punct .spread) ∧
      (Is t .fatArrow → C.text t = t!"=>") ∧ Tidy C r

/-- How phrases begin: not with `=>`, unless they are empty. -/
def Begin (i o : List Tok) : NT → Prop
  | .sep | .asyncOpt _ | .starOpt _ | .patElems _ | .patArray _ | .patProps _ | .prologue _
  | .items _ | .semi | .elBody _ _ | .elMethod _ _ _ | .classEls _ _ | .heritage _
  | .className _ _ | .objProps _ | .elems _ | .catchParam _ | .handler _
  | .finalizer _ | .cases _ _ => AtArrow i → o = i
  | .optExpr p _ => AtArrow i → p = .fatArrow
  | .name _ | .importName _ | .importSpec _ | .importSeq _ | .imports _ | .exportSpec _
  | .exportSeq _ _ => True
  | _ => ¬ AtArrow i

/-- A parameter list to be is pure. -/
def CoverPure (e : Expr) : Prop := ∀ ps a, coverSource e = some (ps, a) → PureL .arg ps

theorem no_placeHolder {e p} (h : reinterpretPat e = some p) : ¬ isPlaceHolder e = true := by
  cases e <;> simp_all [isPlaceHolder, reinterpretPat]

/-- What is known of a class element while it is read. -/
def ElPure (b : ElBody) : Prop :=
  (∀ k, b.key = some k → Pure (.key k)) ∧ ∀ v, b.value = some v → Pure (.value v)

/-- The invariant of each kind of phrase. -/
def GoodPure (o : List Tok) : NT → Prop
  | .key k => Pure (.key k)
  | .pattern _ _ p | .rest _ p => Pure (.pat p)
  | .patDefault _ p => Pure (.pat p) ∨ AtArrow o
  | .patElems l | .patArray l => PureL .arrPart (l.filterMap id)
  | .patProp p => Pure (.objPart p) ∨ AtArrow o
  | .patProps l => PureL .objPart l
  | .directive p | .listItem p => Pure (.part p) ∨ AtArrow o
  | .prologue l | .items l => PureL .part l ∨ AtArrow o
  | .block l | .body l => PureL .part l
  | .param _ a => Pure (.arg a) ∨ AtArrow o
  | .paramSeq _ l => PureL .arg l ∨ AtArrow o
  | .params _ l => PureL .arg l
  | .fnDecl _ f => Pure (.fn f)
  | .method _ _ v | .getter v | .setter v => Pure (.value v)
  | .elHead _ h => ∀ k, h.key = some k → Pure (.key k)
  | .elBody h b => (∀ k, h.key = some k → Pure (.key k)) → ElPure b
  | .elMethod _ b b' => ElPure b → ElPure b'
  | .classEl _ _ p => Pure (.prop p)
  | .classEls _ l | .classBody l => PureL .prop l
  | .heritage e | .init e | .optExpr _ e | .caseTest e => PureL .expr e.toList ∨ AtArrow o
  | .cls _ c => Pure (.cls c)
  | .tplSeq es _ | .tpl es _ => PureL .expr es
  | .propHead k _ _ => PureL .key k.toList
  | .objProp p => Pure (.objProp p) ∨ AtArrow o
  | .objProps l => PureL .objProp l ∨ AtArrow o
  | .elems l => PureL .expr (l.filterMap id)
  | .args l => PureL .expr l
  | .argSeq l | .groupSeq l | .exprSeq l | .forSeq l => PureL .expr l ∨ AtArrow o
  | .fnExpr e | .object e | .array e => Pure (.expr e)
  | .group e | .primary e => Pure (.expr e) ∨ isPlaceHolder e = true ∧ CoverPure e ∧ AtArrow o
  | .newExpr e | .operand e | .member e | .call e | .update e | .unary e | .expo e | .bin _ e
  | .cond e => (Pure (.expr e) ∨ AtArrow o) ∧ CoverPure e
  | .arrowHead e => CoverPure e
  | .spread e | .arg e | .assign e | .expression e | .exprStmt e => Pure (.expr e) ∨ AtArrow o
  | .varDecl _ _ d | .lexDecl _ _ d => Pure (.varDecl d) ∨ AtArrow o
  | .varDecls _ _ l | .lexDecls _ _ l => PureL .varDecl l ∨ AtArrow o
  | .lexical _ d => Pure (.decl d) ∨ AtArrow o
  | .loopBody s | .forHead _ s | .labelBody s | .stmt s => Pure (.stmt s) ∨ AtArrow o
  | .forCont i s => PureL .loopInit i.toList → Pure (.stmt s) ∨ AtArrow o
  | .catchParam p => PureL .pat p.toList
  | .catchClause c => Pure (.catch c)
  | .handler c => PureL .catch c.toList
  | .finalizer l => PureL .part (l.getD [])
  | .switchCase c => Pure (.case c) ∨ AtArrow o
  | .cases _ l => PureL .case l ∨ AtArrow o
  | .exportDecl e => Pure (.modExport e) ∨ AtArrow o
  | _ => True

theorem pure_computedKey {e} (h : Pure (.expr e)) : Pure (.key (computedKey e)) := by
  unfold computedKey
  split <;> simp_all [pure_con, Node.kids]

theorem pure_groupOf {l} (h : ∀ e ∈ l, Pure (.expr e)) : Pure (.expr (groupOf l)) := by
  unfold groupOf
  split <;> simp_all [pure_con, Node.kids, exprKids]

theorem pure_arrowArgs {e} (h : Pure (.expr e)) : ∀ a ∈ arrowArgs e, Pure (.arg a) := by
  unfold arrowArgs
  split <;> simp_all [pure_con, Node.kids, exprKids]

mutual
theorem pure_reinterpretPat : ∀ {e p}, reinterpretPat e = some p → Pure (.expr e) → Pure (.pat p)
  | .array es, p, hp, h => by
    simp only [reinterpretPat, Option.some.injEq] at hp; subst hp
    rw [pure_con] at h ⊢
    refine ⟨by simp, ?_⟩
    have h := h.2
    simp only [Node.kids, exprKids, List.mem_map, List.mem_filterMap, id] at h ⊢
    rintro _ ⟨a, ⟨_, ⟨x, hx, rfl⟩, ha⟩, rfl⟩
    obtain ⟨e, rfl, rfl⟩ := Option.map_eq_some_iff.1 ha
    simpa [pure_con, Node.kids] using h _ ⟨e, ⟨_, hx, rfl⟩, rfl⟩
  | .spread e, p, hp, h => by
    simp only [reinterpretPat] at hp
    obtain ⟨p', hp', rfl⟩ := Option.map_eq_some_iff.1 hp
    have := pure_reinterpretPat hp' (by simpa [pure_con, Node.kids, exprKids] using h)
    simpa [pure_con, Node.kids] using this
  | .object ps, p, hp, h => by
    simp only [reinterpretPat] at hp
    obtain ⟨p', hp', rfl⟩ := Option.map_eq_some_iff.1 hp
    have := pure_reinterpretProps hp' (by simpa [pure_con, Node.kids, exprKids] using h)
    simpa [pure_con, Node.kids] using this
  | .assignment op l r, p, hp, h => by
    simp only [reinterpretPat] at hp
    obtain ⟨p', hp', rfl⟩ := Option.map_eq_some_iff.1 hp
    have h : Pure (.expr l) ∧ Pure (.expr r) := by
      simpa [Node.kids, exprKids] using (pure_con.1 h).2
    have := pure_reinterpretPat hp' h.1
    simpa [pure_con, Node.kids] using ⟨this, h.2⟩
  | .ident i, p, hp, h => by
    simp only [reinterpretPat, Option.some.injEq] at hp; subst hp
    simp [pure_con, Node.kids]
theorem pure_reinterpretProps : ∀ {ps qs}, reinterpretProps ps = some qs →
    (∀ p ∈ ps, Pure (.objProp p)) → ∀ q ∈ qs, Pure (.objPart q)
  | [], _, h, _ => by
    simp only [reinterpretProps, Option.some.injEq] at h; subst h; simp
  | p :: ps, _, h, hps => by
    simp only [reinterpretProps] at h
    split at h
    · cases h
    · rename_i hq
      obtain ⟨qs', hqs, rfl⟩ := Option.map_eq_some_iff.1 h
      have h1 := pure_reinterpretProp hq (hps p (by simp))
      have h2 := pure_reinterpretProps hqs fun p hp => hps p (by simp [hp])
      simpa using ⟨h1, h2⟩
theorem pure_reinterpretProp : ∀ {p q}, reinterpretProp p = some q → Pure (.objProp p) →
    Pure (.objPart q)
  | .property p, q, h, hp => by
    simp only [reinterpretProp, Option.some.injEq] at h; subst h
    simpa [pure_con, Node.kids] using hp
  | .spread e, q, h, hp => by
    simp only [reinterpretProp] at h
    obtain ⟨p', hp', rfl⟩ := Option.map_eq_some_iff.1 h
    have := pure_reinterpretPat hp' (by simpa [pure_con, Node.kids] using hp)
    simpa [pure_con, Node.kids] using this
end

theorem coverPure_of_pure {e} (h : Pure (.expr e)) : CoverPure e := by
  intro ps a he
  unfold coverSource at he
  split at he
  · cases he; simp [PureL, pure_con, Node.kids, exprKids]
  · exact absurd h not_pure
  · cases he

theorem coverPure_of_none {e} (h : coverSource e = none) : CoverPure e := by
  intro ps a he
  rw [h] at he
  cases he

theorem pure_coverParam {a p} (h : Pure (.arg p)) : Pure (.arg (coverParam a p).1) := by
  unfold coverParam
  split <;> simp_all [pure_con, Node.kids, exprKids]

theorem pure_importLeaves {s : ImportSpecifier} {x : Edge × Node} (h : x ∈ importLeaves s) :
    Pure x.2 := by
  cases s <;> simp [importLeaves] at h
  · rcases h with rfl | ⟨w, _, rfl⟩ <;> exact pure_leaf
  all_goals subst h; exact pure_leaf

theorem pure_exportLeaves {s : ExportSpecifier} {x : Edge × Node} (h : x ∈ exportLeaves s) :
    Pure x.2 := by
  simp [exportLeaves] at h
  rcases h with rfl | ⟨w, _, rfl⟩ <;> exact pure_leaf

theorem pure_tagged {e es qs} (h : Pure (.expr e)) (h' : ∀ e ∈ es, Pure (.expr e)) :
    Pure (.expr (.taggedTemplate e es qs)) := by
  refine pure_con.2 ⟨by simp, fun x hx => ?_⟩
  rcases List.mem_cons.1 hx with rfl | hx
  · exact h
  · rcases mem_pieces.1 hx with ⟨_, _, rfl⟩ | ⟨e, he, rfl⟩
    · exact pure_leaf
    · exact h' e he

theorem Tidy.suffix {C u o} (h : Tidy C (u ++ o)) : Tidy C o := by
  induction u with
  | nil => exact h
  | cons t u ih => exact ih h.2.2

theorem tidy_of_G {C Γ nt i o} (h : G C Γ nt i o) (hi : Tidy C i) : Tidy C o := by
  obtain ⟨u, rfl⟩ := suffix_of_G h
  exact hi.suffix

@[simp] theorem atArrow_cons {t : Tok} {o} : AtArrow (t :: o) ↔ t.item.token = .punct .fatArrow :=
  Iff.rfl

set_option maxHeartbeats 4000000 in
/-- No phrase but the empty one begins with `=>`. -/
theorem begin_of_G {C Γ nt i o} (h : G C Γ nt i o) : Tidy C i → Begin i o nt := by
  induction h
  all_goals intro hT
  all_goals simp only [Begin] at *
  all_goals try exact True.intro
  all_goals try (
    simp_all [Is, Kw]
    done)
  all_goals try grind [tidy_of_G, AtArrow, head]
  case keyName h => intro ha; rw [atArrow_cons] at ha; simp [ha, Token.isIdent, Token.isBool, Token.isNull, Token.isKeyword] at h
  case asyncYes h => exact fun ha => by rw [hT.2.1 ha] at h; cases h
  case heritage h _ _ => exact fun ha => by rw [hT.2.1 ha] at h; cases h
  case unaryOp h _ _ _ => intro ha; rw [atArrow_cons] at ha; simp [ha, unaryOperator] at h

theorem ahead_of_G {C Γ nt i o} (h : G C Γ nt i o) (hT : Tidy C i) : Tidy C o ∧ Begin i o nt :=
  ⟨tidy_of_G h hT, begin_of_G h hT⟩

open Lean Meta Elab Tactic in
/-- Adds `ahead_of_G` for every derivation among the hypotheses. -/
elab "aheads" : tactic => withMainContext do
  let mut g ← getMainGoal
  for d in (← getLCtx) do
    if d.isImplementationDetail then continue
    if (← instantiateMVars d.type).isAppOfArity ``G 5 then
      let e ← mkAppM ``ahead_of_G #[d.toExpr]
      g ← g.assert `hA (← inferType e) e
      g := (← g.intro1).2
  replaceMainGoal [g]

set_option maxHeartbeats 4000000 in
/-- Derived trees are pure up to what stands before a `=>`. -/
theorem pure_of_G {C Γ nt i o} (h : G C Γ nt i o) : Tidy C i → GoodPure o nt := by
  induction h
  all_goals intro hT
  all_goals simp only [GoodPure, PureL] at *
  all_goals try exact True.intro
  all_goals try (
    simp_all [pure_con, Node.kids, exprKids, stmtKids]
    done)
  all_goals aheads
  all_goals try simp only [Begin] at *
  all_goals try simp only [Tidy, atArrow_cons, Is, Kw] at *
  all_goals try (
    simp (failIfUnchanged := false) only [pure_con, Node.kids, exprKids, stmtKids]
    simp_all [or_imp, forall_and, mem_pieces]
    done)
  all_goals try (
    simp [pure_con, Node.kids, exprKids, stmtKids, or_imp, forall_and, mem_pieces]
    grind)
  all_goals try (
    refine ⟨?_, coverPure_of_none rfl⟩
    simp [pure_con, Node.kids, exprKids, or_imp, forall_and, mem_pieces]
    grind)
  all_goals try (
    simp only [AtArrow] at *
    simp (failIfUnchanged := false) [or_imp, forall_and]
    grind [ElPure, head])
  case keyComputed ih => exact pure_computedKey (by grind)
  case classEl hf _ h2 h3 h4 hA1 hA2 hA3 _ =>
    have hj := (hA1 hT).1
    have hk := (hA2 hj).1
    obtain ⟨hk, hv⟩ := h4 (hA3 hk).1 (h3 hk (h2 hj))
    cases hf with
    | ctor h1 hkey hval hc _ hg _ hk' hct => simp [pure_con, Node.kids, hk _ hkey, hv _ hval]
    | @other kind _ _ h1 hkey hval _ => simp [pure_con, Node.kids, hk _ hkey, hv _ hval]
  case group ih => exact .inl (pure_groupOf (by grind))
  case opPrimary ih => exact ⟨by grind, by grind [coverPure_of_pure]⟩
  case patElemsLast l _ p _ _ _ _ _ ho ih1 ih2 hA _ =>
    have h1 := ih1 hT
    have h2 := ih2 (hA hT).1
    simp only [AtArrow, ho] at h2
    simp only [List.filterMap_append, List.mem_append, or_imp, forall_and]
    exact ⟨h1, by simpa [pure_con, Node.kids] using h2⟩
  case elPlain => exact fun h => ⟨h, fun v hv => by cases hv⟩
  case groupArrow ho _ _ ih =>
    refine .inr ⟨rfl, fun ps a h => ?_, ho⟩
    cases h
    exact pure_arrowArgs (pure_groupOf (by grind))
  case groupNone ho =>
    exact .inr ⟨rfl, fun ps a h => by cases h; simp [PureL], ho⟩
  case groupRest ho ih _ =>
    refine .inr ⟨rfl, fun ps a h => ?_, ho⟩
    cases h
    simpa [PureL, pure_con, Node.kids] using ih hT.2.2
  case groupSeqRest hc _ hr _ _ h1 _ _ =>
    have := ((h1 hT.2.2).1.1 hc).2
    cases hr with
    | rest h => exact absurd h this
  case newTarget => exact ⟨.inl (by simp [pure_con, Node.kids, exprKids]), coverPure_of_none rfl⟩
  case memSuper => exact ⟨.inl (by simp [pure_con, Node.kids, exprKids]), coverPure_of_none rfl⟩
  case callSuper => exact ⟨.inl (by simp [pure_con, Node.kids, exprKids]), coverPure_of_none rfl⟩
  case memTemplate ih1 ih2 h1 h2 =>
    exact ⟨.inl (pure_tagged ((ih1 hT).1.resolve_right (h2 (h1 hT).1).2) (ih2 (h1 hT).1)),
      coverPure_of_none rfl⟩
  case callTemplate ih1 ih2 h1 h2 =>
    exact ⟨.inl (pure_tagged ((ih1 hT).1.resolve_right (h2 (h1 hT).1).2) (ih2 (h1 hT).1)),
      coverPure_of_none rfl⟩
  case callAsync ho ih1 ih2 h1 h2 =>
    refine ⟨.inr ho, fun ps a h => ?_⟩
    cases h
    simpa [PureL, pure_con, Node.kids] using ih2 (h1 hT).1
  case bin t op _ _ _ _ _ _ hop _ _ _ ih2 h1 _ ih1 =>
    have ha : t.item.token ≠ .punct .fatArrow := by
      intro ha
      simp [ha, opOf, logicalOperator, binaryOperator] at hop
    have hl := (ih1 hT).1.resolve_right ha
    have hr := (ih2 (h1 hT).1.2.2).1
    cases op <;> refine ⟨hr.imp_left fun hr => ?_, coverPure_of_none rfl⟩ <;>
      simp [Op.node, pure_con, Node.kids, exprKids, hl, hr]
  case arrowHeadAsync hp _ ih h1 h2 =>
    have h := pure_reinterpretPat hp ((ih (h1 hT).1).resolve_right fun h => no_placeHolder hp h.1)
    intro ps a he
    cases he
    simpa [PureL, pure_con, Node.kids] using h
  case assignOp t p _ _ _ _ _ _ _ _ _ ht hop _ ih2 h1 _ ih1 =>
    have ha : t.item.token ≠ .punct .fatArrow := by
      intro ha
      rw [ha] at ht
      cases ht
      cases hop
    have hl := (ih1 hT).1.resolve_right ha
    exact (ih2 (h1 hT).1.2.2).imp_left fun hr => by simp [pure_con, Node.kids, exprKids, hl, hr]
  case arrowBlock hs _ _ _ _ ih1 ih2 h1 _ =>
    refine .inl (pure_con.2 ⟨by simp, ?_⟩)
    simp [Node.kids, exprKids, or_imp, forall_and]
    exact ⟨fun a ha => pure_coverParam (ih1 hT _ _ hs a ha), ih2 (h1 hT).1.2.2⟩
  case arrowExpr hs _ _ _ _ ih1 ih2 h1 _ =>
    refine (ih2 (h1 hT).1.2.2).imp_left fun hb => pure_con.2 ⟨by simp, ?_⟩
    simp [Node.kids, exprKids, or_imp, forall_and, hb]
    exact fun a ha => pure_coverParam (ih1 hT _ _ hs a ha)
  case forVar ih1 ih2 h1 h2 =>
    have h := (ih1 hT.2.2).resolve_right (h2 (h1 hT.2.2).1).2
    exact ih2 (h1 hT.2.2).1 (by simpa [pure_con, Node.kids] using h)
  case forLex ih1 ih2 h1 h2 =>
    have h := (ih1 hT.2.2).resolve_right (h2 (h1 hT.2.2).1).2
    exact ih2 (h1 hT.2.2).1 (by simpa [pure_con, Node.kids] using h)
  case forExprSeq ih1 ih2 h1 h2 =>
    have h := (ih1 hT).resolve_right (h2 (h1 hT).1).2
    exact ih2 (h1 hT).1 (by simpa [pure_con, Node.kids, exprKids] using h)
  case forExpr ih1 ih2 h1 h2 =>
    have h := (ih1 hT).resolve_right (h2 (h1 hT).1).2
    exact ih2 (h1 hT).1 (by simpa [pure_con, Node.kids] using h)
  case exportNamed =>
    refine .inl (pure_con.2 ⟨by simp, fun x hx => ?_⟩)
    obtain ⟨s, hs, hx⟩ := List.mem_flatMap.1 (by simpa [Node.kids] using hx)
    exact pure_exportLeaves hx
  case exportFrom =>
    refine .inl (pure_con.2 ⟨by simp, fun x hx => ?_⟩)
    rcases List.mem_append.1 hx with hx | hx
    · obtain ⟨s, hs, hx⟩ := List.mem_flatMap.1 hx
      exact pure_exportLeaves hx
    · cases List.mem_singleton.1 hx; exact pure_leaf
  case itemImport =>
    refine .inl (pure_con.2 ⟨by simp, fun x hx => ?_⟩)
    cases List.mem_singleton.1 hx
    refine pure_con.2 ⟨by simp, fun x hx => ?_⟩
    rcases List.mem_append.1 hx with hx | hx
    · obtain ⟨s, hs, hx⟩ := List.mem_flatMap.1 hx
      exact pure_importLeaves hx
    · cases List.mem_singleton.1 hx; exact pure_leaf

end Ressa.Tree
