import Verif.Proof.Trees

/-!
# Where `yield` is an operator

`Calm y n`: every `yield` expression of `n` is inside a generator function or a method, or `y` says
that `n` is.  `calm_of_G` proves it for every tree of a derivation that follows `yield`.
-/

namespace Ressa.Tree
open Ressa.Gr

/-- Is the component `c` of the node inside a generator function or a method?  A plain function
without name may be a method or an accessor. -/
def yieldsIn (y : Bool) : Node → Node → Bool
  | .fn (.mk id _ _ g _), _ => g || (y && id.isNone)
  | .prop (.mk _ _ _ m _ _), .value _ => y || m
  | _, _ => y

/-- The condition at a single node. -/
def YieldAt (y : Bool) : Node → Prop
  | .expr (.yield _ _) => y = true
  | _ => True

/-- The condition holds at every node. -/
inductive Calm : Bool → Node → Prop
  | mk {y n} : YieldAt y n → (∀ x ∈ n.kids, Calm (yieldsIn y n x.2) x.2) → Calm y n

theorem calm_iff {y n} :
    Calm y n ↔ YieldAt y n ∧ ∀ x ∈ n.kids, Calm (yieldsIn y n x.2) x.2 :=
  ⟨fun | .mk h h' => ⟨h, h'⟩, fun h => .mk h.1 h.2⟩

/-- See `Con`. -/
theorem calm_con {y n} [Con n] :
    Calm y n ↔ YieldAt y n ∧ ∀ x ∈ n.kids, Calm (yieldsIn y n x.2) x.2 := calm_iff

@[simp] theorem calm_leaf {y l} : Calm y (.leaf l) := calm_iff.2 ⟨trivial, by simp [Node.kids]⟩

theorem yieldsIn_mono {y y' n c} (h : y = true → y' = true) (hy : yieldsIn y n c = true) :
    yieldsIn y' n c = true := by
  unfold yieldsIn at *
  split at hy <;> simp_all
  · rcases hy with h' | ⟨h1, h2⟩
    · exact .inl h'
    · exact .inr ⟨h h1, h2⟩
  · exact hy.imp_left h

theorem Calm.mono {y n} (hn : Calm y n) : ∀ {y'}, (y = true → y' = true) → Calm y' n := by
  induction hn with
  | @mk y n hs _ ih =>
    intro y' h
    refine .mk ?_ fun x hx => ih x hx (yieldsIn_mono h)
    unfold YieldAt at *
    split at hs
    · exact h hs
    · trivial

/-- All elements of a list. -/
def CalmL {α : Type} (y : Bool) (f : α → Node) (l : List α) : Prop := ∀ a ∈ l, Calm y (f a)

/-- What is known of a class element while it is read. -/
def ElCalm (y : Bool) (b : ElBody) : Prop :=
  (∀ k, b.key = some k → Calm y (.key k)) ∧
  (∀ v, b.value = some v → Calm (y || b.method) (.value v))

/-- The invariant of each kind of phrase. -/
def GoodYield (y : Bool) : NT → Prop
  | .key k => Calm y (.key k)
  | .pattern _ _ p | .patDefault _ p | .rest _ p => Calm y (.pat p)
  | .patElems l | .patArray l => CalmL y .arrPart (l.filterMap id)
  | .patProp p => Calm y (.objPart p)
  | .patProps l => CalmL y .objPart l
  | .directive p | .listItem p => Calm y (.part p)
  | .prologue l | .items l | .block l | .body l => CalmL y .part l
  | .param _ a => Calm y (.arg a)
  | .paramSeq _ l | .params _ l => CalmL y .arg l
  | .fnDecl _ f => Calm y (.fn f)
  | .method _ _ v => Calm true (.value v)
  | .getter v | .setter v => Calm y (.value v)
  | .elHead _ h => ∀ k, h.key = some k → Calm y (.key k)
  | .elBody h b => (∀ k, h.key = some k → Calm y (.key k)) → ElCalm y b
  | .elMethod _ b b' => ElCalm y b → ElCalm y b'
  | .classEl _ _ p => Calm y (.prop p)
  | .classEls _ l | .classBody l => CalmL y .prop l
  | .heritage e | .init e | .optExpr _ e | .caseTest e => ∀ x ∈ e, Calm y (.expr x)
  | .cls _ c => Calm y (.cls c)
  | .tplSeq es _ | .tpl es _ => ∀ e ∈ es, Calm y (.expr e)
  | .propHead k _ _ => CalmL y .key k.toList
  | .objProp p => Calm y (.objProp p)
  | .objProps l => CalmL y .objProp l
  | .elems l => CalmL y .expr (l.filterMap id)
  | .argSeq l | .args l => CalmL y .expr l
  | .groupSeq l | .exprSeq l | .forSeq l => ∀ e ∈ l, Calm y (.expr e)
  | .spread e | .arg e => Calm y (.expr e)
  | .fnExpr e | .object e | .array e | .group e | .primary e | .newExpr e
  | .operand e | .member e | .call e | .update e | .unary e | .expo e | .bin _ e | .cond e
  | .arrowHead e | .assign e | .expression e | .exprStmt e => Calm y (.expr e)
  | .varDecl _ _ d => Calm y (.varDecl d)
  | .varDecls _ _ l => CalmL y .varDecl l
  | .lexDecl _ _ d => Calm y (.varDecl d)
  | .lexDecls _ _ l => CalmL y .varDecl l
  | .lexical _ d => Calm y (.decl d)
  | .loopBody s | .forHead _ s | .labelBody s | .stmt s => Calm y (.stmt s)
  | .forCont i s => CalmL y .loopInit i.toList → Calm y (.stmt s)
  | .catchParam p => CalmL y .pat p.toList
  | .catchClause c => Calm y (.catch c)
  | .handler c => CalmL y .catch c.toList
  | .finalizer l => CalmL y .part (l.getD [])
  | .switchCase c => Calm y (.case c)
  | .cases _ l => CalmL y .case l
  | .exportDecl e => Calm y (.modExport e)
  | _ => True

theorem calm_computedKey {y e} (h : Calm y (.expr e)) : Calm y (.key (computedKey e)) := by
  unfold computedKey
  split <;> simp_all [calm_con, YieldAt, Node.kids, yieldsIn]

theorem calm_groupOf {y l} (h : ∀ e ∈ l, Calm y (.expr e)) : Calm y (.expr (groupOf l)) := by
  unfold groupOf
  split
  · simp_all
  · simpa [calm_con, YieldAt, Node.kids, exprKids, yieldsIn] using h

theorem calm_arrowArgs {y e} (h : Calm y (.expr e)) : ∀ a ∈ arrowArgs e, Calm y (.arg a) := by
  unfold arrowArgs
  split <;> simp_all [calm_con, YieldAt, Node.kids, exprKids, yieldsIn]

mutual
theorem calm_reinterpretPat {y} : ∀ {e p}, reinterpretPat e = some p → Calm y (.expr e) →
    Calm y (.pat p)
  | .array es, p, hp, h => by
    simp only [reinterpretPat, Option.some.injEq] at hp; subst hp
    simp only [calm_con, YieldAt, Node.kids, exprKids, true_and, List.mem_map, List.mem_filterMap, id,
      yieldsIn] at h ⊢
    rintro _ ⟨a, ⟨_, ⟨x, hx, rfl⟩, ha⟩, rfl⟩
    obtain ⟨e, rfl, rfl⟩ := Option.map_eq_some_iff.1 ha
    simpa [calm_con, YieldAt, Node.kids, yieldsIn] using h _ ⟨e, ⟨_, hx, rfl⟩, rfl⟩
  | .spread e, p, hp, h => by
    simp only [reinterpretPat] at hp
    obtain ⟨p', hp', rfl⟩ := Option.map_eq_some_iff.1 hp
    have := calm_reinterpretPat hp' ((calm_iff.1 h).2 _ (by simp [Node.kids, exprKids]; rfl))
    simpa [calm_con, YieldAt, Node.kids, yieldsIn] using this
  | .object ps, p, hp, h => by
    simp only [reinterpretPat] at hp
    obtain ⟨p', hp', rfl⟩ := Option.map_eq_some_iff.1 hp
    have h := (calm_iff.1 h).2
    have := calm_reinterpretProps (y := y) hp' (by
      simpa [Node.kids, exprKids, yieldsIn] using h)
    simpa [calm_con, YieldAt, Node.kids, yieldsIn] using this
  | .assignment op l r, p, hp, h => by
    simp only [reinterpretPat] at hp
    obtain ⟨p', hp', rfl⟩ := Option.map_eq_some_iff.1 hp
    have h : Calm y (.expr l) ∧ Calm y (.expr r) := by
      simpa [Node.kids, exprKids, yieldsIn] using (calm_con.1 h).2
    have := calm_reinterpretPat hp' h.1
    simpa [calm_con, YieldAt, Node.kids, yieldsIn] using ⟨this, h.2⟩
  | .ident i, p, hp, h => by
    simp only [reinterpretPat, Option.some.injEq] at hp; subst hp
    simp [calm_con, YieldAt, Node.kids]
theorem calm_reinterpretProps {y} : ∀ {ps qs}, reinterpretProps ps = some qs →
    (∀ p ∈ ps, Calm y (.objProp p)) → ∀ q ∈ qs, Calm y (.objPart q)
  | [], _, h, _ => by
    simp only [reinterpretProps, Option.some.injEq] at h; subst h; simp
  | p :: ps, _, h, hps => by
    simp only [reinterpretProps] at h
    split at h
    · cases h
    · rename_i hq
      obtain ⟨qs', hqs, rfl⟩ := Option.map_eq_some_iff.1 h
      have h1 := calm_reinterpretProp hq (hps p (by simp))
      have h2 := calm_reinterpretProps hqs fun p hp => hps p (by simp [hp])
      simpa using ⟨h1, h2⟩
theorem calm_reinterpretProp {y} : ∀ {p q}, reinterpretProp p = some q →
    Calm y (.objProp p) → Calm y (.objPart q)
  | .property p, q, h, hp => by
    simp only [reinterpretProp, Option.some.injEq] at h; subst h
    simpa [calm_con, YieldAt, Node.kids, yieldsIn] using hp
  | .spread e, q, h, hp => by
    simp only [reinterpretProp] at h
    obtain ⟨p', hp', rfl⟩ := Option.map_eq_some_iff.1 h
    have := calm_reinterpretPat (y := y) hp' (by
      simpa [Node.kids, yieldsIn, calm_con, YieldAt] using (calm_con.1 hp).2)
    simpa [calm_con, YieldAt, Node.kids, yieldsIn] using this
end

theorem calm_coverSource {y e ps a} (he : coverSource e = some (ps, a))
    (h : Calm y (.expr e)) : ∀ p ∈ ps, Calm y (.arg p) := by
  unfold coverSource at he
  split at he
  · cases he; simp [calm_con, YieldAt, Node.kids, exprKids]
  · cases he; simpa [Node.kids, exprKids, yieldsIn] using (calm_con.1 h).2
  · cases he

theorem calm_coverParam {y a p} (h : Calm y (.arg p)) : Calm y (.arg (coverParam a p).1) := by
  unfold coverParam
  split <;> first
    | exact h
    | simp [calm_con, YieldAt, Node.kids, exprKids]

theorem calm_importLeaves {y : Bool} {s : ImportSpecifier} {x : Edge × Node}
    (h : x ∈ importLeaves s) : Calm y x.2 := by
  have : ∃ w, x = word w := by
    cases s <;> simp [importLeaves] at h <;> first | exact ⟨_, h⟩ | skip
    rcases h with h | ⟨w, _, h⟩
    · exact ⟨_, h⟩
    · exact ⟨w, h.symm⟩
  obtain ⟨w, rfl⟩ := this
  exact calm_leaf

theorem calm_exportLeaves {y : Bool} {s : ExportSpecifier} {x : Edge × Node}
    (h : x ∈ exportLeaves s) : Calm y x.2 := by
  have : ∃ w, x = word w := by
    simp [exportLeaves] at h
    rcases h with h | ⟨w, _, h⟩
    · exact ⟨_, h⟩
    · exact ⟨w, h.symm⟩
  obtain ⟨w, rfl⟩ := this
  exact calm_leaf

theorem calm_fn {y y' id ps l g a} (hm : y' = true → (g || (y && id.isNone)) = true)
    (hps : ∀ p ∈ ps, Calm y' (.arg p))
    (hl : ∀ p ∈ l, Calm y' (.part p)) : Calm y (.fn (.mk id ps l g a)) := by
  refine calm_iff.2 ⟨trivial, fun x hx => ?_⟩
  simp only [Node.kids, List.mem_append, List.mem_map] at hx
  rcases hx with (⟨w, _, rfl⟩ | ⟨p, hp, rfl⟩) | ⟨p, hp, rfl⟩
  · exact calm_leaf
  · exact (hps p hp).mono hm
  · exact (hl p hp).mono hm

theorem calm_fnExpr {y f} (h : Calm y (.fn f)) : Calm y (.expr (.function f)) :=
  calm_iff.2 ⟨trivial, by simpa [Node.kids, exprKids, yieldsIn] using h⟩

theorem calm_method {y y' ps l g a} (hm : y' = true → y = true ∨ g = true)
    (hps : ∀ p ∈ ps, Calm y' (.arg p)) (hl : ∀ p ∈ l, Calm y (.part p)) :
    Calm y (.value (.expr (.function (.mk none ps l g a)))) := by
  have h : Calm y (.fn (.mk none ps l g a)) := by
    refine calm_fn (y' := y || g) (fun h => ?_) (fun p hp => (hps p hp).mono ?_)
      fun p hp => (hl p hp).mono (by simp +contextual)
    · simpa [or_comm] using h
    · simpa using hm
  exact calm_iff.2 ⟨trivial, by simpa [Node.kids, yieldsIn] using calm_fnExpr h⟩

theorem calm_prop {y k v kind m c s} (hk : Calm y (.key k)) (hv : Calm (y || m) (.value v)) :
    Calm y (.prop (.mk k v kind m c s)) :=
  calm_iff.2 ⟨trivial, by simp [Node.kids, yieldsIn, hk, hv]⟩

theorem calm_cls {y id sup l} (hs : ∀ e ∈ sup, Calm y (.expr e))
    (hl : ∀ p ∈ l, Calm y (.prop p)) : Calm y (.cls (.mk id sup l)) := by
  refine calm_iff.2 ⟨trivial, fun x hx => ?_⟩
  simp only [Node.kids, List.mem_append, List.mem_map, Option.mem_toList] at hx
  rcases hx with (⟨w, _, rfl⟩ | ⟨e, he, rfl⟩) | ⟨p, hp, rfl⟩
  · exact calm_leaf
  · exact hs e he
  · exact hl p hp

theorem calm_pieces {y x} {es : List Expr} {qs : List TemplateElement}
    (h : ∀ e ∈ es, Calm y (.expr e)) (hx : x ∈ pieces qs es) : Calm y x.2 := by
  rcases mem_pieces.1 hx with ⟨_, _, rfl⟩ | ⟨e, he, rfl⟩
  · exact calm_leaf
  · exact h e he

set_option maxHeartbeats 4000000 in
/-- Every derived tree satisfies the condition everywhere. -/
theorem calm_of_G {C Γ nt i o} (hC : C.exact = true) (h : G C Γ nt i o) : GoodYield Γ.gen nt := by
  induction h
  all_goals simp only [GoodYield, Env.within, Env.fn, Env.yielding, Env.strictly,
    Env.label, Env.body, CalmL, hC, Bool.and_true] at *
  all_goals try exact True.intro
  all_goals try with_reducible assumption
  all_goals try (
    simp [*, calm_con, YieldAt, Node.kids, exprKids, stmtKids, or_imp, forall_and, yieldsIn]
    done)
  all_goals try (
    simp [calm_con, YieldAt, Node.kids, exprKids, stmtKids, or_imp, forall_and, yieldsIn, mem_pieces]
    grind)
  case keyComputed => exact calm_computedKey ‹_›
  case patDefault Γ' _ _ _ _ _ _ _ _ _ _ ih ih' =>
    have := ih'.mono (y' := Γ'.gen) (fun h => nomatch h)
    simpa [calm_con, YieldAt, Node.kids, yieldsIn] using ⟨ih, this⟩
  case fnDecl ih ih' => exact calm_fn (by simp +contextual) ih ih'
  case fnExpr ih ih' => exact calm_fnExpr (calm_fn (by simp +contextual) ih ih')
  case method ih ih' => exact calm_method (by simp) ih ih'
  case setter ih ih' => exact calm_method (y' := false) (fun h => nomatch h) ih ih'
  case elGet ih1 ih2 =>
    exact fun _ => ⟨fun k hk => by cases hk; exact ih1, fun v hv => by cases hv; simpa using ih2⟩
  case elSet ih1 ih2 =>
    exact fun _ => ⟨fun k hk => by cases hk; exact ih1, fun v hv => by cases hv; simpa using ih2⟩
  case elGen ih1 ih2 =>
    exact fun _ => ⟨fun k hk => by cases hk; exact ih1, fun v hv => by cases hv; simpa using ih2⟩
  case elPlain => exact fun h => ⟨h, by intro v hv; cases hv⟩
  case elMethod ih => exact fun h => ⟨h.1, fun v hv => by cases hv; simpa using ih⟩
  case classEl hf _ h2 h3 h4 =>
    obtain ⟨hk, hv⟩ := h4 (h3 h2)
    cases hf with
    | ctor h1 hkey hval hc hme hg _ hk' hct =>
      exact calm_prop (hk _ hkey) (hme ▸ hv _ hval)
    | other h1 hkey hval _ => exact calm_prop (hk _ hkey) (hv _ hval)
  case group ih => exact calm_groupOf ih
  case groupArrow ih =>
    refine calm_iff.2 ⟨trivial, ?_⟩
    simpa [Node.kids, exprKids, yieldsIn] using calm_arrowArgs (calm_groupOf ih)
  case primTemplate ih => exact calm_iff.2 ⟨trivial, fun x hx => calm_pieces ih hx⟩
  case memTemplate ih ih' =>
    refine calm_iff.2 ⟨trivial, fun x hx => ?_⟩
    rcases List.mem_cons.1 hx with rfl | hx
    · exact ih
    · exact calm_pieces ih' hx
  case callTemplate ih ih' =>
    refine calm_iff.2 ⟨trivial, fun x hx => ?_⟩
    rcases List.mem_cons.1 hx with rfl | hx
    · exact ih
    · exact calm_pieces ih' hx
  case bin op _ _ _ _ _ _ _ _ _ _ _ _ =>
    cases op <;> simp [*, Op.node, calm_con, YieldAt, Node.kids, exprKids, yieldsIn]
  case arrowHeadAsync hp he ha =>
    simpa [calm_con, YieldAt, Node.kids, exprKids, yieldsIn] using calm_reinterpretPat hp ha
  case arrowBlock hs _ _ _ _ he hb =>
    refine calm_iff.2 ⟨trivial, ?_⟩
    simp [Node.kids, exprKids, or_imp, forall_and, yieldsIn]
    exact ⟨fun a ha => calm_coverParam (calm_coverSource hs he a ha), hb⟩
  case arrowExpr hs _ _ _ _ he hb =>
    refine calm_iff.2 ⟨trivial, ?_⟩
    simp [Node.kids, exprKids, or_imp, forall_and, yieldsIn, hb]
    exact fun a ha => calm_coverParam (calm_coverSource hs he a ha)
  case forSemi ih => exact ih (by simp)
  case forVar ih ih' => exact ih' (by simpa [calm_con, YieldAt, Node.kids, yieldsIn] using ih)
  case forLex ih ih' => exact ih' (by simpa [calm_con, YieldAt, Node.kids, yieldsIn] using ih)
  case forExprSeq ih ih' =>
    exact ih' (by simpa [calm_con, YieldAt, Node.kids, exprKids, yieldsIn] using ih)
  case forExpr ih ih' => exact ih' (by simpa [calm_con, YieldAt, Node.kids, yieldsIn] using ih)
  case exportNamed =>
    refine calm_iff.2 ⟨trivial, fun x hx => ?_⟩
    obtain ⟨s, hs, hx⟩ := List.mem_flatMap.1 (by simpa [Node.kids] using hx)
    exact calm_exportLeaves hx
  case exportFrom =>
    refine calm_iff.2 ⟨trivial, fun x hx => ?_⟩
    rcases List.mem_append.1 hx with hx | hx
    · obtain ⟨s, hs, hx⟩ := List.mem_flatMap.1 hx
      exact calm_exportLeaves hx
    · cases List.mem_singleton.1 hx; exact calm_leaf
  case itemImport =>
    refine calm_iff.2 ⟨trivial, fun x hx => ?_⟩
    cases List.mem_singleton.1 hx
    refine calm_iff.2 ⟨trivial, fun x hx => ?_⟩
    rcases List.mem_append.1 hx with hx | hx
    · obtain ⟨s, hs, hx⟩ := List.mem_flatMap.1 hx
      exact calm_importLeaves hx
    · cases List.mem_singleton.1 hx; exact calm_leaf

end Ressa.Tree
