import Verif.Proof.Trees

/-!
# The shape of derived trees

`Fit tol aw n`: every node of `n` satisfies the conditions `Shape`, where `aw` says whether the
node is inside an async function.  `fit_of_G` proves it for every tree of a derivation.
-/

namespace Ressa.Tree
open Ressa.Gr

/-- The statement ends with an `if` without `else`. -/
def opensIf : Stmt → Bool
  | .if _ _ none => true
  | .if _ _ (some b) => opensIf b
  | .while _ b | .with _ b | .for _ _ _ b | .forIn _ _ b | .forOf _ _ b _ | .labeled _ b => opensIf b
  | _ => false

/-- A spread element. -/
def isSpreadExpr : Expr → Bool
  | .spread _ => true
  | _ => false

section
@[simp] theorem sp_array {a} : isSpreadExpr (.array a) = false := rfl
@[simp] theorem sp_arrowBlock {a b c d e} : isSpreadExpr (.arrowBlock a b c d e) = false := rfl
@[simp] theorem sp_arrowExpr {a b c d e} : isSpreadExpr (.arrowExpr a b c d e) = false := rfl
@[simp] theorem sp_arrowParamPlaceHolder {a b} : isSpreadExpr (.arrowParamPlaceHolder a b) = false := rfl
@[simp] theorem sp_assignment {a b c} : isSpreadExpr (.assignment a b c) = false := rfl
@[simp] theorem sp_await {a} : isSpreadExpr (.await a) = false := rfl
@[simp] theorem sp_class {a} : isSpreadExpr (.class a) = false := rfl
@[simp] theorem sp_super : isSpreadExpr (.super) = false := rfl
@[simp] theorem sp_this : isSpreadExpr (.this) = false := rfl
@[simp] theorem sp_new {a b} : isSpreadExpr (.new a b) = false := rfl
@[simp] theorem sp_binary {a b c} : isSpreadExpr (.binary a b c) = false := rfl
@[simp] theorem sp_call {a b} : isSpreadExpr (.call a b) = false := rfl
@[simp] theorem sp_conditional {a b c} : isSpreadExpr (.conditional a b c) = false := rfl
@[simp] theorem sp_function {a} : isSpreadExpr (.function a) = false := rfl
@[simp] theorem sp_ident {a} : isSpreadExpr (.ident a) = false := rfl
@[simp] theorem sp_literal {a} : isSpreadExpr (.literal a) = false := rfl
@[simp] theorem sp_template {a b} : isSpreadExpr (.template a b) = false := rfl
@[simp] theorem sp_logical {a b c} : isSpreadExpr (.logical a b c) = false := rfl
@[simp] theorem sp_member {a b c} : isSpreadExpr (.member a b c) = false := rfl
@[simp] theorem sp_metaProperty {a b} : isSpreadExpr (.metaProperty a b) = false := rfl
@[simp] theorem sp_object {a} : isSpreadExpr (.object a) = false := rfl
@[simp] theorem sp_sequence {a} : isSpreadExpr (.sequence a) = false := rfl
@[simp] theorem sp_spread {a} : isSpreadExpr (.spread a) = true := rfl
@[simp] theorem sp_taggedTemplate {a b c} : isSpreadExpr (.taggedTemplate a b c) = false := rfl
@[simp] theorem sp_unary {a b c} : isSpreadExpr (.unary a b c) = false := rfl
@[simp] theorem sp_update {a b c} : isSpreadExpr (.update a b c) = false := rfl
@[simp] theorem sp_yield {a b} : isSpreadExpr (.yield a b) = false := rfl
end

/-- A spread element. -/
def isSpread : Node → Bool
  | .expr e => isSpreadExpr e
  | _ => false

/-- The nodes that may contain a spread element directly. -/
def holdsSpread : Node → Bool
  | .expr (.array _) | .expr (.call _ _) | .expr (.new _ _) | .objProp _ | .arg _ | .arrPart _ => true
  | _ => false

/-- A declaration of a pattern has an initializer. -/
def Initialized : VariableDecl → Prop
  | .mk p e => isPatIdent p = false → e.isSome = true

/-- A class member is a method, an accessor or the constructor, and its value is a function. -/
def IsMember : Property → Prop
  | .mk _ v kind _ _ short => kind ≠ .init ∧ short = false ∧
      ∃ ps b g a, v = .expr (.function (.mk none ps b g a))

/-- A parameter whose default is a `yield` expression. -/
def yieldDefault : FunctionArg → Bool
  | .pat (.assignment _ (.yield _ _)) | .expr (.assignment _ _ (.yield _ _)) => true
  | _ => false

/-- The conditions on a single node apart from spread elements. -/
def ShapeAt (tol aw : Bool) : Node → Prop
  | .expr (.await _) => aw = true
  | .expr (.sequence es) => 2 ≤ es.length
  | .expr (.member _ p c) => c = false → ∃ n, p = .ident n
  | .expr (.arrowBlock ps _ x g _) => x = false ∧ g = false ∧ ∀ p ∈ ps, yieldDefault p = false
  | .expr (.arrowExpr ps _ x g _) => x = true ∧ g = false ∧ ∀ p ∈ ps, yieldDefault p = false
  | .expr (.unary _ _ p) => p = true
  | .stmt (.if _ a (some _)) => tol = false → opensIf a = false
  | .stmt (.var ds) => ∀ d ∈ ds, Initialized d
  | .stmt (.forIn (.variable k d) _ _) => k ≠ .var → noInit d = true
  | .stmt (.forOf (.variable k d) _ _ _) => k ≠ .var → noInit d = true
  | .decl (.variable k ds) => k ≠ .const → ∀ d ∈ ds, Initialized d
  | .cls (.mk _ _ ps) => ∀ p ∈ ps, IsMember p
  | .part (.decl (.class (.mk id _ _))) => id.isSome = true
  | _ => True

/-- The conditions on a single node. -/
def Shape (tol aw : Bool) (n : Node) : Prop :=
  ShapeAt tol aw n ∧ ∀ x ∈ n.kids, isSpread x.2 = true → holdsSpread n = true

/-- Are the components of the node inside an async function?  A plain function without name may be
a method, which does not change the meaning of `await`. -/
def awaits (aw : Bool) : Node → Bool
  | .fn (.mk id _ _ _ a) => a || (aw && id.isNone)
  | _ => aw

/-- The conditions hold at every node. -/
inductive Fit (tol : Bool) : Bool → Node → Prop
  | mk {aw n} : Shape tol aw n → (∀ x ∈ n.kids, Fit tol (awaits aw n) x.2) → Fit tol aw n

theorem fit_iff {tol aw n} :
    Fit tol aw n ↔ Shape tol aw n ∧ ∀ x ∈ n.kids, Fit tol (awaits aw n) x.2 :=
  ⟨fun | .mk h h' => ⟨h, h'⟩, fun h => .mk h.1 h.2⟩

/-- See `Con`. -/
theorem fit_con {tol aw n} [Con n] :
    Fit tol aw n ↔ (ShapeAt tol aw n ∧ ∀ x ∈ n.kids, isSpread x.2 = true → holdsSpread n = true) ∧
      ∀ x ∈ n.kids, Fit tol (awaits aw n) x.2 := fit_iff

@[simp] theorem fit_leaf {tol aw l} : Fit tol aw (.leaf l) :=
  fit_iff.2 ⟨⟨trivial, by simp [Node.kids]⟩, by simp [Node.kids]⟩

theorem ShapeAt.mono {tol aw aw' n} (h : aw = true → aw' = true) (hs : ShapeAt tol aw n) :
    ShapeAt tol aw' n := by
  unfold ShapeAt at *
  split at hs <;> first | exact h hs | exact hs

theorem Fit.mono {tol aw n} (hn : Fit tol aw n) : ∀ {aw'}, (aw = true → aw' = true) →
    Fit tol aw' n := by
  induction hn with
  | @mk aw n hs _ ih =>
    intro aw' h
    refine .mk ⟨hs.1.mono h, hs.2⟩ fun x hx => ih x hx ?_
    cases n with
    | fn f =>
      obtain ⟨id, ps, b, g, a⟩ := f
      simp only [awaits, Bool.or_eq_true, Bool.and_eq_true]
      rintro (h' | ⟨h1, h2⟩)
      · exact .inl h'
      · exact .inr ⟨h h1, h2⟩
    | _ => exact h

/-- All elements of a list. -/
def FitL {α : Type} (tol aw : Bool) (f : α → Node) (l : List α) : Prop :=
  ∀ a ∈ l, Fit tol aw (f a)

/-- An expression that is not a spread element. -/
def FitE (tol aw : Bool) (e : Expr) : Prop := Fit tol aw (.expr e) ∧ isSpreadExpr e = false

/-- A statement, with what may follow it. -/
def FitS (tol aw : Bool) (o : List Tok) (s : Stmt) : Prop :=
  Fit tol aw (.stmt s) ∧ (tol = false → opensIf s = true → head o ≠ .keyword .else)

/-- What is known of a class element while it is read. -/
def ElFit (tol aw : Bool) (b : ElBody) : Prop :=
  (∀ k, b.key = some k → Fit tol aw (.key k)) ∧
  (∀ v, b.value = some v → Fit tol aw (.value v) ∧
    ∃ ps l g a, v = .expr (.function (.mk none ps l g a)))

/-- The invariant of each kind of phrase. -/
def GoodShape (C : Cfg) (aw : Bool) (o : List Tok) : NT → Prop
  | .key k => Fit C.tolerant aw (.key k)
  | .pattern _ _ p | .patDefault _ p | .rest _ p => Fit C.tolerant aw (.pat p)
  | .patElems l | .patArray l => FitL C.tolerant aw .arrPart (l.filterMap id)
  | .patProp p => Fit C.tolerant aw (.objPart p)
  | .patProps l => FitL C.tolerant aw .objPart l
  | .directive p | .listItem p => Fit C.tolerant aw (.part p)
  | .prologue l | .items l | .block l | .body l => FitL C.tolerant aw .part l
  | .param _ a => Fit C.tolerant aw (.arg a)
  | .paramSeq _ l | .params _ l => FitL C.tolerant aw .arg l
  | .fnDecl _ f => Fit C.tolerant aw (.fn f)
  | .method _ _ v | .getter v | .setter v => Fit C.tolerant aw (.value v) ∧
      ∃ ps l g a, v = .expr (.function (.mk none ps l g a))
  | .elHead _ h => ∀ k, h.key = some k → Fit C.tolerant aw (.key k)
  | .elBody h b => (∀ k, h.key = some k → Fit C.tolerant aw (.key k)) → ElFit C.tolerant aw b
  | .elMethod _ b b' => ElFit C.tolerant aw b → ElFit C.tolerant aw b'
  | .classEl _ _ p => Fit C.tolerant aw (.prop p) ∧ IsMember p
  | .classEls _ l | .classBody l => FitL C.tolerant aw .prop l ∧ ∀ p ∈ l, IsMember p
  | .heritage e | .init e | .optExpr _ e | .caseTest e => ∀ x ∈ e, FitE C.tolerant aw x
  | .className opt id => opt = false → id.isSome = true
  | .cls opt c => Fit C.tolerant aw (.cls c) ∧ (opt = false → ∃ n sup l, c = .mk (some n) sup l)
  | .tplSeq es _ | .tpl es _ => ∀ e ∈ es, FitE C.tolerant aw e
  | .propHead k _ _ => FitL C.tolerant aw .key k.toList
  | .objProp p => Fit C.tolerant aw (.objProp p)
  | .objProps l => FitL C.tolerant aw .objProp l
  | .elems l => FitL C.tolerant aw .expr (l.filterMap id)
  | .argSeq l | .args l => FitL C.tolerant aw .expr l
  | .groupSeq l | .exprSeq l | .forSeq l => l ≠ [] ∧ ∀ e ∈ l, FitE C.tolerant aw e
  | .spread e | .arg e => Fit C.tolerant aw (.expr e)
  | .fnExpr e | .object e | .array e | .group e | .primary e | .newExpr e
  | .operand e | .member e | .call e | .update e | .unary e | .expo e | .bin _ e | .cond e
  | .arrowHead e | .assign e | .expression e | .exprStmt e => FitE C.tolerant aw e
  | .varDecl _ f d => Fit C.tolerant aw (.varDecl d) ∧ (f = false → Initialized d)
  | .varDecls _ f l => FitL C.tolerant aw .varDecl l ∧ (f = false → ∀ d ∈ l, Initialized d)
  | .lexDecl k f d => Fit C.tolerant aw (.varDecl d) ∧ (f = false → k ≠ .const → Initialized d)
  | .lexDecls k f l => FitL C.tolerant aw .varDecl l ∧
      (f = false → k ≠ .const → ∀ d ∈ l, Initialized d)
  | .lexical f d => f = false → Fit C.tolerant aw (.decl d) ∧ ∀ c, d ≠ .class c
  | .loopBody s | .forHead _ s | .labelBody s | .stmt s => FitS C.tolerant aw o s
  | .forCont i s => FitL C.tolerant aw .loopInit i.toList → FitS C.tolerant aw o s
  | .catchParam p => FitL C.tolerant aw .pat p.toList
  | .catchClause c => Fit C.tolerant aw (.catch c)
  | .handler c => FitL C.tolerant aw .catch c.toList
  | .finalizer l => FitL C.tolerant aw .part (l.getD [])
  | .switchCase c => Fit C.tolerant aw (.case c)
  | .cases _ l => FitL C.tolerant aw .case l
  | .exportDecl e => Fit C.tolerant aw (.modExport e)
  | _ => True

theorem fit_computedKey {tol aw e} (h : FitE tol aw e) : Fit tol aw (.key (computedKey e)) := by
  unfold computedKey
  split <;> simp_all [FitE, fit_con, ShapeAt, Node.kids, awaits, isSpread]

theorem fit_groupOf {tol aw l} (hn : l ≠ []) (h : ∀ e ∈ l, FitE tol aw e) :
    FitE tol aw (groupOf l) := by
  unfold groupOf
  split
  · simp_all
  · rename_i hne
    have : 2 ≤ l.length := by
      match l, hn, hne with
      | [], hn, _ => exact absurd rfl hn
      | [e], _, hne => exact absurd rfl (hne e)
      | _ :: _ :: _, _, _ => simp
    refine ⟨?_, rfl⟩
    simp only [fit_con, ShapeAt, Node.kids, exprKids, awaits]
    refine ⟨⟨this, ?_⟩, ?_⟩
    · intro x hx hs
      obtain ⟨e, he, rfl⟩ := List.mem_map.1 hx
      rw [isSpread, (h e he).2] at hs; cases hs
    · intro x hx
      obtain ⟨e, he, rfl⟩ := List.mem_map.1 hx
      exact (h e he).1

theorem fit_arrowArgs {tol aw e} (h : FitE tol aw e) : ∀ a ∈ arrowArgs e, Fit tol aw (.arg a) := by
  have h := h.1
  unfold arrowArgs
  split <;> simp_all [fit_con, ShapeAt, Node.kids, exprKids, awaits, holdsSpread]

mutual
theorem fit_reinterpretPat {tol aw} : ∀ {e p}, reinterpretPat e = some p → Fit tol aw (.expr e) →
    Fit tol aw (.pat p)
  | .array es, p, hp, h => by
    simp only [reinterpretPat, Option.some.injEq] at hp; subst hp
    simp only [fit_con, ShapeAt, Node.kids, exprKids, true_and, List.mem_map, List.mem_filterMap, id,
      awaits] at h ⊢
    refine ⟨?_, ?_⟩
    · rintro _ ⟨a, ⟨_, ⟨x, hx, rfl⟩, ha⟩, rfl⟩ hs
      cases hs
    rintro _ ⟨a, ⟨_, ⟨x, hx, rfl⟩, ha⟩, rfl⟩
    obtain ⟨e, rfl, rfl⟩ := Option.map_eq_some_iff.1 ha
    simpa [fit_con, ShapeAt, Node.kids, holdsSpread, awaits] using h.2 _ ⟨e, ⟨_, hx, rfl⟩, rfl⟩
  | .spread e, p, hp, h => by
    simp only [reinterpretPat] at hp
    obtain ⟨p', hp', rfl⟩ := Option.map_eq_some_iff.1 hp
    have := fit_reinterpretPat hp' ((fit_iff.1 h).2 _ (by simp [Node.kids, exprKids]; rfl))
    simpa [fit_con, ShapeAt, Node.kids, isSpread, awaits] using this
  | .object ps, p, hp, h => by
    simp only [reinterpretPat] at hp
    obtain ⟨p', hp', rfl⟩ := Option.map_eq_some_iff.1 hp
    have h := (fit_iff.1 h).2
    have := fit_reinterpretProps (tol := tol) (aw := aw) hp' (by
      simpa [Node.kids, exprKids, awaits] using h)
    simpa [fit_con, ShapeAt, Node.kids, isSpread, awaits] using this
  | .assignment op l r, p, hp, h => by
    simp only [reinterpretPat] at hp
    obtain ⟨p', hp', rfl⟩ := Option.map_eq_some_iff.1 hp
    have h' := (fit_iff.1 h).1.2
    have h : Fit tol aw (.expr l) ∧ Fit tol aw (.expr r) := by
      simpa [Node.kids, exprKids, awaits] using (fit_con.1 h).2
    have := fit_reinterpretPat hp' h.1
    simp only [Node.kids, exprKids, List.forall_mem_cons, holdsSpread] at h'
    simpa [fit_con, ShapeAt, Node.kids, isSpread, awaits, holdsSpread] using ⟨by simpa [isSpread] using h'.2.1, this, h.2⟩
  | .ident i, p, hp, h => by
    simp only [reinterpretPat, Option.some.injEq] at hp; subst hp
    simp [fit_con, ShapeAt, Node.kids, isSpread]
theorem fit_reinterpretProps {tol aw} : ∀ {ps qs}, reinterpretProps ps = some qs →
    (∀ p ∈ ps, Fit tol aw (.objProp p)) → ∀ q ∈ qs, Fit tol aw (.objPart q)
  | [], _, h, _ => by
    simp only [reinterpretProps, Option.some.injEq] at h; subst h; simp
  | p :: ps, _, h, hps => by
    simp only [reinterpretProps] at h
    split at h
    · cases h
    · rename_i hq
      obtain ⟨qs', hqs, rfl⟩ := Option.map_eq_some_iff.1 h
      have h1 := fit_reinterpretProp hq (hps p (by simp))
      have h2 := fit_reinterpretProps hqs fun p hp => hps p (by simp [hp])
      simpa using ⟨h1, h2⟩
theorem fit_reinterpretProp {tol aw} : ∀ {p q}, reinterpretProp p = some q →
    Fit tol aw (.objProp p) → Fit tol aw (.objPart q)
  | .property p, q, h, hp => by
    simp only [reinterpretProp, Option.some.injEq] at h; subst h
    simpa [fit_con, ShapeAt, Node.kids, isSpread, awaits] using hp
  | .spread e, q, h, hp => by
    simp only [reinterpretProp] at h
    obtain ⟨p', hp', rfl⟩ := Option.map_eq_some_iff.1 h
    have := fit_reinterpretPat (tol := tol) (aw := aw) hp' (by
      simpa [Node.kids, awaits] using (fit_con.1 hp).2)
    simpa [fit_con, ShapeAt, Node.kids, isSpread, awaits] using this
end

theorem fit_coverSource {tol aw e ps a} (he : coverSource e = some (ps, a))
    (h : Fit tol aw (.expr e)) : ∀ p ∈ ps, Fit tol aw (.arg p) := by
  unfold coverSource at he
  split at he
  · cases he; simp [fit_con, ShapeAt, Node.kids, exprKids, isSpread, holdsSpread]
  · cases he; simpa [Node.kids, exprKids, awaits] using (fit_con.1 h).2
  · cases he

theorem coverParam_default {a p} (h : (coverParam a p).2 = false) :
    yieldDefault (coverParam a p).1 = false := by
  unfold yieldDefault
  split
  · rename_i l r d hp
    unfold coverParam at h hp
    cases r <;> cases d <;> split at hp <;> simp_all
  · rename_i op l r d hp
    unfold coverParam at h hp
    cases r <;> cases d <;> split at hp <;> simp_all
  · rfl

theorem coverParams_default {a} {ps : List FunctionArg}
    (h : (ps.map (coverParam a)).any (·.2) = false) :
    ∀ p ∈ ps.map (fun p => (coverParam a p).1), yieldDefault p = false := by
  intro p hp
  obtain ⟨q, hq, rfl⟩ := List.mem_map.1 hp
  exact coverParam_default (Bool.eq_false_iff.2
    (by simpa using (List.any_eq_false.1 h) _ (List.mem_map.2 ⟨q, hq, rfl⟩)))

theorem fit_coverParam {tol aw a p} (h : Fit tol aw (.arg p)) :
    Fit tol aw (.arg (coverParam a p).1) := by
  unfold coverParam
  split <;> simp_all [fit_con, ShapeAt, Node.kids, exprKids, awaits, isSpread, holdsSpread]

theorem fit_importLeaves {tol aw : Bool} {s : ImportSpecifier} {x : Edge × Node}
    (h : x ∈ importLeaves s) : Fit tol aw x.2 ∧ isSpread x.2 = false := by
  have : ∃ w, x = word w := by
    cases s <;> simp [importLeaves] at h <;> first | exact ⟨_, h⟩ | skip
    rcases h with h | ⟨w, _, h⟩
    · exact ⟨_, h⟩
    · exact ⟨w, h.symm⟩
  obtain ⟨w, rfl⟩ := this
  exact ⟨fit_leaf, rfl⟩

theorem fit_exportLeaves {tol aw : Bool} {s : ExportSpecifier} {x : Edge × Node}
    (h : x ∈ exportLeaves s) : Fit tol aw x.2 ∧ isSpread x.2 = false := by
  have : ∃ w, x = word w := by
    simp [exportLeaves] at h
    rcases h with h | ⟨w, _, h⟩
    · exact ⟨_, h⟩
    · exact ⟨w, h.symm⟩
  obtain ⟨w, rfl⟩ := this
  exact ⟨fit_leaf, rfl⟩

/-- The conditions at a node with the given components. -/
theorem fit_mk {tol aw n} (h : ShapeAt tol aw n)
    (hk : ∀ x ∈ n.kids, Fit tol (awaits aw n) x.2 ∧ isSpread x.2 = false) : Fit tol aw n :=
  fit_iff.2 ⟨⟨h, fun x hx hs => by rw [(hk x hx).2] at hs; cases hs⟩, fun x hx => (hk x hx).1⟩

theorem fit_fn {tol aw id ps l g a} (hps : ∀ p ∈ ps, Fit tol a (.arg p))
    (hl : ∀ p ∈ l, Fit tol a (.part p)) : Fit tol aw (.fn (.mk id ps l g a)) := by
  refine fit_mk trivial fun x hx => ?_
  have hm : a = true → awaits aw (.fn (.mk id ps l g a)) = true := by simp +contextual [awaits]
  simp only [Node.kids, List.mem_append, List.mem_map] at hx
  rcases hx with (⟨w, _, rfl⟩ | ⟨p, hp, rfl⟩) | ⟨p, hp, rfl⟩
  · exact ⟨fit_leaf, rfl⟩
  · exact ⟨(hps p hp).mono hm, rfl⟩
  · exact ⟨(hl p hp).mono hm, rfl⟩

theorem fit_cls {tol aw id sup l} (hs : ∀ e ∈ sup, FitE tol aw e)
    (hl : ∀ p ∈ l, Fit tol aw (.prop p)) (hm : ∀ p ∈ l, IsMember p) :
    Fit tol aw (.cls (.mk id sup l)) := by
  refine fit_mk hm fun x hx => ?_
  simp only [Node.kids, List.mem_append, List.mem_map, Option.mem_toList] at hx
  rcases hx with (⟨w, _, rfl⟩ | ⟨e, he, rfl⟩) | ⟨p, hp, rfl⟩
  · exact ⟨fit_leaf, rfl⟩
  · exact hs e he
  · exact ⟨hl p hp, rfl⟩

theorem fit_pieces {tol aw x} {es : List Expr} {qs : List TemplateElement} (h : ∀ e ∈ es, FitE tol aw e)
    (hx : x ∈ pieces qs es) : Fit tol aw x.2 ∧ isSpread x.2 = false := by
  rcases mem_pieces.1 hx with ⟨_, _, rfl⟩ | ⟨e, he, rfl⟩
  · exact ⟨fit_leaf, rfl⟩
  · exact h e he

set_option maxHeartbeats 4000000 in
/-- Every derived tree satisfies the conditions everywhere. -/
theorem fit_of_G {C Γ nt i o} (h : G C Γ nt i o) : GoodShape C Γ.await o nt := by
  induction h
  all_goals simp only [GoodShape, Env.within, Env.awaiting, Env.fn, Env.yielding, Env.strictly, Env.label, Env.body,
    FitL, FitE, FitS] at *
  all_goals try exact True.intro
  all_goals try with_reducible assumption
  all_goals try (
    simp [*, fit_con, ShapeAt, Node.kids, exprKids, stmtKids, or_imp, forall_and, isSpread,
      holdsSpread, awaits, opensIf]
    done)
  all_goals try (
    simp [fit_con, ShapeAt, Node.kids, exprKids, stmtKids, or_imp, forall_and, isSpread,
      holdsSpread, awaits, opensIf, Initialized, mem_pieces]
    grind)
  case keyComputed => exact fit_computedKey ‹_›
  case fnDecl ih ih' => exact fit_fn ih ih'
  case fnExpr ih ih' =>
    exact ⟨fit_mk trivial (by simpa [Node.kids, exprKids, isSpread] using fit_fn ih ih'), rfl⟩
  case elGet ih1 ih2 =>
    exact fun _ => ⟨fun k hk => by cases hk; exact ih1, fun v hv => by cases hv; exact ih2⟩
  case elSet ih1 ih2 =>
    exact fun _ => ⟨fun k hk => by cases hk; exact ih1, fun v hv => by cases hv; exact ih2⟩
  case elGen ih1 ih2 =>
    exact fun _ => ⟨fun k hk => by cases hk; exact ih1, fun v hv => by cases hv; exact ih2⟩
  case elPlain => exact fun h => ⟨h, by intro v hv; cases hv⟩
  case elMethod ih => exact fun h => ⟨h.1, fun v hv => by cases hv; exact ih⟩
  case classEl hf _ h2 h3 h4 =>
    obtain ⟨hk, hv⟩ := h4 (h3 h2)
    cases hf with
    | ctor h1 hkey hval hc _ hg _ hk' hct =>
      have := hk _ hkey
      have h5 := hv _ hval
      exact ⟨fit_mk trivial (by simp [Node.kids, isSpread, awaits, this, h5.1]),
        by simp, rfl, h5.2⟩
    | @other kind _ _ h1 hkey hval _ =>
      have := hk _ hkey
      have h5 := hv _ hval
      exact ⟨fit_mk trivial (by simp [Node.kids, isSpread, awaits, this, h5.1]),
        by split <;> simp_all, rfl, h5.2⟩
  case cls opt _ id _ _ _ _ _ _ _ _ _ _ hn hs hl =>
    refine ⟨fit_cls hs hl.1 hl.2, fun ho => ?_⟩
    obtain ⟨n, rfl⟩ := Option.isSome_iff_exists.1 (hn ho)
    exact ⟨_, _, _, rfl⟩
  case clsDropped hs hn hl =>
    refine ⟨fit_cls (by simp) hl.1 hl.2, fun ho => ?_⟩
    obtain ⟨n, rfl⟩ := Option.isSome_iff_exists.1 (hn ho)
    exact ⟨_, _, _, rfl⟩
  case group ih => exact fit_groupOf ih.1 ih.2
  case groupArrow ih =>
    refine ⟨fit_mk trivial ?_, rfl⟩
    simpa [Node.kids, exprKids, isSpread, awaits] using fit_arrowArgs (fit_groupOf ih.1 ih.2)
  case primTemplate ih => exact ⟨fit_mk trivial fun x hx => fit_pieces ih hx, rfl⟩
  case memTemplate ih ih' =>
    refine ⟨fit_mk trivial fun x hx => ?_, rfl⟩
    rcases List.mem_cons.1 hx with rfl | hx
    · exact ih
    · exact fit_pieces ih' hx
  case callTemplate ih ih' =>
    refine ⟨fit_mk trivial fun x hx => ?_, rfl⟩
    rcases List.mem_cons.1 hx with rfl | hx
    · exact ih
    · exact fit_pieces ih' hx
  case bin op _ _ _ _ _ _ _ _ _ _ _ _ =>
    cases op <;> simp [*, Op.node, fit_con, ShapeAt, Node.kids, exprKids, isSpread, awaits]
  case arrowHeadAsync hp he ha =>
    refine ⟨fit_mk trivial ?_, rfl⟩
    simpa [fit_con, ShapeAt, Node.kids, exprKids, isSpread, awaits] using
      fit_reinterpretPat hp ha.1
  case arrowBlock hs hy _ _ _ he hb =>
    refine ⟨fit_mk ⟨rfl, rfl, coverParams_default hy⟩ ?_, rfl⟩
    simp [Node.kids, exprKids, or_imp, forall_and, isSpread, awaits]
    exact ⟨fun a ha => fit_coverParam (fit_coverSource hs he.1 a ha), hb⟩
  case arrowExpr hs hy _ _ _ he hb =>
    refine ⟨fit_mk ⟨rfl, rfl, coverParams_default hy⟩ ?_, rfl⟩
    simp [Node.kids, exprKids, or_imp, forall_and, isSpread, awaits, hb]
    exact fun a ha => fit_coverParam (fit_coverSource hs he.1 a ha)
  case varFirst ih => simpa using ih
  case varMore ih ih' =>
    simp only [List.mem_append, or_imp, forall_and, List.mem_singleton, forall_eq]
    exact ⟨⟨ih.1, ih'.1⟩, ih.2, ih'.2⟩
  case lexFirst ih => simpa using ih
  case lexMore ih ih' =>
    simp only [List.mem_append, or_imp, forall_and, List.mem_singleton, forall_eq]
    exact ⟨⟨ih.1, ih'.1⟩, ih.2, ih'.2⟩
  case lexLet ih _ =>
    refine fun hf => ⟨fit_mk (fun hk => ih.2 hf (by simp)) ?_, by simp⟩
    simpa [Node.kids, isSpread, awaits] using ih.1
  case forVar ih ih' =>
    exact ih' (by simpa [fit_con, ShapeAt, Node.kids, isSpread, awaits] using ih.1)
  case forLex ih ih' =>
    exact ih' (by simpa [fit_con, ShapeAt, Node.kids, isSpread, awaits] using ih.1)
  case forExprSeq hl _ ih ih' =>
    refine ih' ?_
    simp [fit_con, ShapeAt, Node.kids, exprKids, isSpread, awaits, holdsSpread, hl]
    exact ⟨fun e he => (ih.2 e he).2, fun e he => (ih.2 e he).1⟩
  case forExpr ih ih' =>
    exact ih' (by simpa [fit_con, ShapeAt, Node.kids, isSpread, awaits, holdsSpread] using ih.symm)
  case stIfElse hk _ _ ih1 ih2 ih3 =>
    refine ⟨fit_mk (fun ht => ?_) ?_, by simpa [opensIf] using ih3.2⟩
    · cases ho : opensIf _ with
      | false => rfl
      | true => exact absurd hk (ih2.2 ht ho)
    · simp [Node.kids, stmtKids, isSpread, awaits, ih1, ih2.1, ih3.1]
  case stVar ih =>
    refine ⟨fit_mk (ih.2 trivial) ?_, by simp [opensIf]⟩
    simpa [Node.kids, stmtKids, isSpread, awaits] using ih.1
  case exportVar ih =>
    refine fit_mk trivial ?_
    simp only [Node.kids, List.mem_singleton, forall_eq, isSpread, and_true, awaits]
    refine fit_mk (fun _ => ih.2 trivial) ?_
    simpa [Node.kids, isSpread, awaits] using ih.1
  case exportNamed =>
    refine fit_mk trivial fun x hx => ?_
    obtain ⟨s, hs, hx⟩ := List.mem_flatMap.1 (by simpa [Node.kids] using hx)
    exact fit_exportLeaves hx
  case exportFrom =>
    refine fit_mk trivial fun x hx => ?_
    rcases List.mem_append.1 hx with hx | hx
    · obtain ⟨s, hs, hx⟩ := List.mem_flatMap.1 hx
      exact fit_exportLeaves hx
    · cases List.mem_singleton.1 hx; exact ⟨fit_leaf, rfl⟩
  case itemImport =>
    refine fit_mk trivial fun x hx => ?_
    cases List.mem_singleton.1 hx
    refine ⟨fit_mk trivial fun x hx => ?_, rfl⟩
    rcases List.mem_append.1 hx with hx | hx
    · obtain ⟨s, hs, hx⟩ := List.mem_flatMap.1 hx
      exact fit_importLeaves hx
    · cases List.mem_singleton.1 hx; exact ⟨fit_leaf, rfl⟩

end Ressa.Tree
