import Verif.Spec.Grammar
import Verif.Spec.Tree

/-!
# What holds at every node of a derived tree

`Ev tol σ n`: every node of `n` satisfies the local conditions `Local`, where the scope `σ` says
whether the node is inside a function body, which labels are above it in that body, and whether it
is inside a class.
`good_of_G` proves it for every tree of a derivation, by induction on derivations.
-/

namespace Ressa.Tree
open Ressa.Gr

/-- Are we inside a function body, below which labels, and inside a class. -/
structure Scope where
  inFn : Bool
  labels : List Txt
  strict : Bool

/-- The scope of a component. -/
def Scope.enter (σ : Scope) : Edge → Scope
  | .inner => σ
  | .body => ⟨true, [], σ.strict⟩
  | .label l => ⟨σ.inFn, ('$' :: l) :: σ.labels, σ.strict⟩

/-- The scope inside a node. -/
def Scope.at (σ : Scope) : Node → Scope
  | .cls _ => ⟨σ.inFn, σ.labels, true⟩
  | _ => σ

@[simp] theorem enter_inner (σ : Scope) : σ.enter .inner = σ := rfl
@[simp] theorem enter_body (σ : Scope) : σ.enter .body = ⟨true, [], σ.strict⟩ := rfl
@[simp] theorem enter_label (σ : Scope) (l : Txt) :
    σ.enter (.label l) = ⟨σ.inFn, ('$' :: l) :: σ.labels, σ.strict⟩ := rfl

section
variable (σ : Scope)
@[simp] theorem at_leaf {a} : σ.at (.leaf a) = σ := rfl
@[simp] theorem at_expr {a} : σ.at (.expr a) = σ := rfl
@[simp] theorem at_pat {a} : σ.at (.pat a) = σ := rfl
@[simp] theorem at_arrPart {a} : σ.at (.arrPart a) = σ := rfl
@[simp] theorem at_objPart {a} : σ.at (.objPart a) = σ := rfl
@[simp] theorem at_objProp {a} : σ.at (.objProp a) = σ := rfl
@[simp] theorem at_prop {a} : σ.at (.prop a) = σ := rfl
@[simp] theorem at_key {a} : σ.at (.key a) = σ := rfl
@[simp] theorem at_value {a} : σ.at (.value a) = σ := rfl
@[simp] theorem at_arg {a} : σ.at (.arg a) = σ := rfl
@[simp] theorem at_fn {a} : σ.at (.fn a) = σ := rfl
@[simp] theorem at_cls {a} : σ.at (.cls a) = ⟨σ.inFn, σ.labels, true⟩ := rfl
@[simp] theorem at_varDecl {a} : σ.at (.varDecl a) = σ := rfl
@[simp] theorem at_loopInit {a} : σ.at (.loopInit a) = σ := rfl
@[simp] theorem at_loopLeft {a} : σ.at (.loopLeft a) = σ := rfl
@[simp] theorem at_case {a} : σ.at (.case a) = σ := rfl
@[simp] theorem at_catch {a} : σ.at (.catch a) = σ := rfl
@[simp] theorem at_stmt {a} : σ.at (.stmt a) = σ := rfl
@[simp] theorem at_decl {a} : σ.at (.decl a) = σ := rfl
@[simp] theorem at_modExport {a} : σ.at (.modExport a) = σ := rfl
@[simp] theorem at_part {a} : σ.at (.part a) = σ := rfl
end

/-- Is the property a constructor? -/
def isCtor : Property → Bool
  | .mk _ _ .ctor _ _ _ => true
  | _ => false

/-- The conditions on a property by its kind. -/
def PropOk (tol : Bool) (key : PropertyKey) (value : PropertyValue) (computed : Bool) :
    PropertyKind → Prop
  | .ctor => computed = false ∧ isKey key t!"constructor" = true ∧
      ∃ ps b a, value = .expr (.function (.mk none ps b false a))
  | .get => ∃ ps b, value = .expr (.function (.mk none ps b false false)) ∧ (tol = false → ps = [])
  | .set => ∃ ps b, value = .expr (.function (.mk none ps b false false)) ∧
      (tol = false → ∃ a, ps = [a] ∧ isRestArg a = false)
  | _ => True

/-- The pieces of a template fit together. -/
def TplOk (es : List Expr) (qs : List TemplateElement) : Prop :=
  qs.length = es.length + 1 ∧ (∀ q ∈ qs.dropLast, q.tail = false) ∧
    ∀ q, qs.getLast? = some q → q.tail = true

/-- Rest parameters come last. -/
def RestLast (ps : List FunctionArg) : Prop := ∀ a ∈ ps.dropLast, isRestArg a = false

/-- A directive or an expression statement. -/
def isDirOrExpr : ProgramPart → Bool
  | .dir _ _ => true
  | .stmt (.expr _) => true
  | _ => false

/-- Directives only in a prologue of directives and expression statements. -/
def BodyDirs (b : List ProgramPart) : Prop :=
  ∃ ds l, b = ds ++ l ∧ (∀ p ∈ ds, isDirOrExpr p = true) ∧ ∀ p ∈ l, isDir p = false

/-- No directives. -/
def NoDir (b : List ProgramPart) : Prop := ∀ p ∈ b, isDir p = false

/-- Does the declaration bind the plain name `eval` or `arguments`? -/
def bindsRestricted : VariableDecl → Bool
  | .mk p _ => isRestrictedPat p

/-- The conditions on a single node. -/
def Local (tol : Bool) (σ : Scope) : Node → Prop
  | .expr .super => σ.inFn = true
  | .expr (.metaProperty _ _) => σ.inFn = true
  | .expr (.template es qs) => TplOk es qs
  | .expr (.taggedTemplate _ es qs) => TplOk es qs
  | .expr (.arrowBlock _ b _ _ _) => BodyDirs b
  | .expr (.assignment _ l _) => tol = false → mayAssign l = true ∧
      (σ.strict = true → isStrictName l = false)
  | .expr (.update _ e _) => tol = false → mayAssign e = true ∧
      (σ.strict = true → isRestrictedIdent e = false)
  | .expr (.unary op e _) => tol = false → σ.strict = true → op = .delete → isIdentExpr e = false
  | .fn (.mk _ ps b _ _) => RestLast ps ∧ BodyDirs b
  | .prop (.mk k v kind _ c _) => PropOk tol k v c kind
  | .cls (.mk _ _ ps) => (ps.filter isCtor).length ≤ 1
  | .stmt (.return _) => σ.inFn = true
  | .stmt (.with _ _) => tol = false → σ.strict = false
  | .stmt (.labeled l _) => '$' :: l ∉ σ.labels
  | .stmt (.switch _ cs) => (cs.filter isDefault).length ≤ 1
  | .stmt (.block b) => NoDir b
  | .stmt (.try b _ f) => NoDir b ∧ NoDir (f.getD [])
  | .case (.mk _ b) => NoDir b
  | .catch (.mk _ b) => NoDir b
  | .decl (.variable _ ds) => tol = false → σ.strict = true → ∀ d ∈ ds, bindsRestricted d = false
  | .loopInit (.variable _ ds) =>
      tol = false → σ.strict = true → ∀ d ∈ ds, bindsRestricted d = false
  | .loopLeft (.variable _ d) => tol = false → σ.strict = true → bindsRestricted d = false
  | .part (.dir s d) => d = trimQuotes s
  | _ => True

/-- The local conditions hold at every node. -/
inductive Ev (tol : Bool) : Scope → Node → Prop
  | mk {σ n} : Local tol σ n → (∀ x ∈ n.kids, Ev tol ((σ.at n).enter x.1) x.2) → Ev tol σ n

theorem ev_iff {tol σ n} :
    Ev tol σ n ↔ Local tol σ n ∧ ∀ x ∈ n.kids, Ev tol ((σ.at n).enter x.1) x.2 :=
  ⟨fun | .mk h h' => ⟨h, h'⟩, fun h => .mk h.1 h.2⟩

/-- The outermost constructor of the node is known.  The class has an instance for every
constructor and serves to unfold `Ev` and `Node.leaves` at known constructors only. -/
class Con (n : Node) : Prop where
  not_leaf : ∀ l, n ≠ .leaf l

instance {a} : Con (.expr (.array a)) := ⟨by simp⟩
instance {a b c d e} : Con (.expr (.arrowBlock a b c d e)) := ⟨by simp⟩
instance {a b c d e} : Con (.expr (.arrowExpr a b c d e)) := ⟨by simp⟩
instance {a b} : Con (.expr (.arrowParamPlaceHolder a b)) := ⟨by simp⟩
instance {a b c} : Con (.expr (.assignment a b c)) := ⟨by simp⟩
instance {a} : Con (.expr (.await a)) := ⟨by simp⟩
instance {a} : Con (.expr (.class a)) := ⟨by simp⟩
instance : Con (.expr (.super)) := ⟨by simp⟩
instance : Con (.expr (.this)) := ⟨by simp⟩
instance {a b} : Con (.expr (.new a b)) := ⟨by simp⟩
instance {a b c} : Con (.expr (.binary a b c)) := ⟨by simp⟩
instance {a b} : Con (.expr (.call a b)) := ⟨by simp⟩
instance {a b c} : Con (.expr (.conditional a b c)) := ⟨by simp⟩
instance {a} : Con (.expr (.function a)) := ⟨by simp⟩
instance {a} : Con (.expr (.ident a)) := ⟨by simp⟩
instance {a} : Con (.expr (.literal a)) := ⟨by simp⟩
instance {a b} : Con (.expr (.template a b)) := ⟨by simp⟩
instance {a b c} : Con (.expr (.logical a b c)) := ⟨by simp⟩
instance {a b c} : Con (.expr (.member a b c)) := ⟨by simp⟩
instance {a b} : Con (.expr (.metaProperty a b)) := ⟨by simp⟩
instance {a} : Con (.expr (.object a)) := ⟨by simp⟩
instance {a} : Con (.expr (.sequence a)) := ⟨by simp⟩
instance {a} : Con (.expr (.spread a)) := ⟨by simp⟩
instance {a b c} : Con (.expr (.taggedTemplate a b c)) := ⟨by simp⟩
instance {a b c} : Con (.expr (.unary a b c)) := ⟨by simp⟩
instance {a b c} : Con (.expr (.update a b c)) := ⟨by simp⟩
instance {a b} : Con (.expr (.yield a b)) := ⟨by simp⟩
instance {a} : Con (.pat (.identifier a)) := ⟨by simp⟩
instance {a} : Con (.pat (.object a)) := ⟨by simp⟩
instance {a} : Con (.pat (.array a)) := ⟨by simp⟩
instance {a} : Con (.pat (.restElement a)) := ⟨by simp⟩
instance {a b} : Con (.pat (.assignment a b)) := ⟨by simp⟩
instance {a} : Con (.arrPart (.pat a)) := ⟨by simp⟩
instance {a} : Con (.arrPart (.expr a)) := ⟨by simp⟩
instance {a} : Con (.objPart (.assignment a)) := ⟨by simp⟩
instance {a} : Con (.objPart (.rest a)) := ⟨by simp⟩
instance {a} : Con (.objProp (.property a)) := ⟨by simp⟩
instance {a} : Con (.objProp (.spread a)) := ⟨by simp⟩
instance {a b c d e f} : Con (.prop (.mk a b c d e f)) := ⟨by simp⟩
instance {a} : Con (.key (.literal a)) := ⟨by simp⟩
instance {a} : Con (.key (.expr a)) := ⟨by simp⟩
instance {a} : Con (.key (.pat a)) := ⟨by simp⟩
instance {a} : Con (.value (.expr a)) := ⟨by simp⟩
instance {a} : Con (.value (.pat a)) := ⟨by simp⟩
instance : Con (.value (.none)) := ⟨by simp⟩
instance {a} : Con (.arg (.expr a)) := ⟨by simp⟩
instance {a} : Con (.arg (.pat a)) := ⟨by simp⟩
instance {a b c d e} : Con (.fn (.mk a b c d e)) := ⟨by simp⟩
instance {a b c} : Con (.cls (.mk a b c)) := ⟨by simp⟩
instance {a b} : Con (.varDecl (.mk a b)) := ⟨by simp⟩
instance {a b} : Con (.loopInit (.variable a b)) := ⟨by simp⟩
instance {a} : Con (.loopInit (.expr a)) := ⟨by simp⟩
instance {a b} : Con (.loopLeft (.variable a b)) := ⟨by simp⟩
instance {a} : Con (.loopLeft (.expr a)) := ⟨by simp⟩
instance {a b} : Con (.case (.mk a b)) := ⟨by simp⟩
instance {a b} : Con (.catch (.mk a b)) := ⟨by simp⟩
instance {a} : Con (.stmt (.expr a)) := ⟨by simp⟩
instance {a} : Con (.stmt (.block a)) := ⟨by simp⟩
instance : Con (.stmt (.empty)) := ⟨by simp⟩
instance : Con (.stmt (.debugger)) := ⟨by simp⟩
instance {a b} : Con (.stmt (.with a b)) := ⟨by simp⟩
instance {a} : Con (.stmt (.return a)) := ⟨by simp⟩
instance {a b} : Con (.stmt (.labeled a b)) := ⟨by simp⟩
instance {a} : Con (.stmt (.break a)) := ⟨by simp⟩
instance {a} : Con (.stmt (.continue a)) := ⟨by simp⟩
instance {a b c} : Con (.stmt (.if a b c)) := ⟨by simp⟩
instance {a b} : Con (.stmt (.switch a b)) := ⟨by simp⟩
instance {a} : Con (.stmt (.throw a)) := ⟨by simp⟩
instance {a b c} : Con (.stmt (.try a b c)) := ⟨by simp⟩
instance {a b} : Con (.stmt (.while a b)) := ⟨by simp⟩
instance {a b} : Con (.stmt (.doWhile a b)) := ⟨by simp⟩
instance {a b c d} : Con (.stmt (.for a b c d)) := ⟨by simp⟩
instance {a b c} : Con (.stmt (.forIn a b c)) := ⟨by simp⟩
instance {a b c d} : Con (.stmt (.forOf a b c d)) := ⟨by simp⟩
instance {a} : Con (.stmt (.var a)) := ⟨by simp⟩
instance {a b} : Con (.decl (.variable a b)) := ⟨by simp⟩
instance {a} : Con (.decl (.function a)) := ⟨by simp⟩
instance {a} : Con (.decl (.class a)) := ⟨by simp⟩
instance {a} : Con (.decl (.import a)) := ⟨by simp⟩
instance {a} : Con (.decl (.export a)) := ⟨by simp⟩
instance {a} : Con (.modExport (.defaultDecl a)) := ⟨by simp⟩
instance {a} : Con (.modExport (.defaultExpr a)) := ⟨by simp⟩
instance {a} : Con (.modExport (.namedDecl a)) := ⟨by simp⟩
instance {a b} : Con (.modExport (.namedSpecifier a b)) := ⟨by simp⟩
instance {a} : Con (.modExport (.all a)) := ⟨by simp⟩
instance {a b} : Con (.part (.dir a b)) := ⟨by simp⟩
instance {a} : Con (.part (.decl a)) := ⟨by simp⟩
instance {a} : Con (.part (.stmt a)) := ⟨by simp⟩

theorem ev_con {tol σ n} [Con n] :
    Ev tol σ n ↔ Local tol σ n ∧ ∀ x ∈ n.kids, Ev tol ((σ.at n).enter x.1) x.2 := ev_iff

@[simp] theorem ev_leaf {tol σ l} : Ev tol σ (.leaf l) := ev_iff.2 ⟨trivial, by simp [Node.kids]⟩

/-- All elements of a list. -/
def EvL {α : Type} (tol : Bool) (σ : Scope) (f : α → Node) (l : List α) : Prop :=
  ∀ a ∈ l, Ev tol σ (f a)

/-- A scope that allows at least as much. -/
def Scope.le (tol : Bool) (σ τ : Scope) : Prop := (σ.inFn = true → τ.inFn = true) ∧
  (∀ l ∈ τ.labels, l ∈ σ.labels) ∧ (tol = false → σ.strict = τ.strict)

theorem Local.mono {tol} {σ τ : Scope} {n} (h : σ.le tol τ) (hl : Local tol σ n) : Local tol τ n := by
  unfold Local at *
  split at hl <;> first | exact h.1 hl | exact fun hm => hl (h.2.1 _ hm) | exact hl | exact fun ht => h.2.2 ht ▸ hl ht

theorem Scope.le.enter {tol} {σ τ : Scope} (h : σ.le tol τ) (e : Edge) :
    (σ.enter e).le tol (τ.enter e) := by
  cases e
  · exact h
  · exact ⟨id, fun _ => id, h.2.2⟩
  · refine ⟨h.1, fun l hl => ?_, h.2.2⟩
    rcases List.mem_cons.1 hl with rfl | hl
    · exact List.mem_cons_self
    · exact List.mem_cons_of_mem _ (h.2.1 l hl)

theorem Scope.le.at {tol} {σ τ : Scope} (h : σ.le tol τ) (n : Node) : (σ.at n).le tol (τ.at n) := by
  cases n <;> first | exact h | exact ⟨h.1, h.2.1, fun _ => rfl⟩

theorem Ev.mono {tol σ n} (hn : Ev tol σ n) : ∀ {τ}, σ.le tol τ → Ev tol τ n := by
  induction hn with
  | mk hl _ ih => exact fun h => .mk (hl.mono h) fun x hx => ih x hx ((h.at _).enter x.1)

theorem scope_le_body {tol} (σ : Scope) : σ.le tol ⟨true, [], σ.strict⟩ :=
  ⟨fun _ => rfl, by simp, fun _ => rfl⟩

theorem ev_computedKey {tol σ e} (h : Ev tol σ (.expr e)) : Ev tol σ (.key (computedKey e)) := by
  unfold computedKey
  split <;> simp_all [ev_con, Local, Node.kids]

theorem ev_groupOf {tol σ l} (h : ∀ e ∈ l, Ev tol σ (.expr e)) : Ev tol σ (.expr (groupOf l)) := by
  unfold groupOf
  split <;> simp_all [ev_con, Local, Node.kids, exprKids]

theorem ev_arrowArgs {tol σ e} (h : Ev tol σ (.expr e)) : ∀ a ∈ arrowArgs e, Ev tol σ (.arg a) := by
  unfold arrowArgs
  split <;> simp_all [ev_con, Local, Node.kids, exprKids]

mutual
theorem ev_reinterpretPat {tol σ} : ∀ {e p}, reinterpretPat e = some p → Ev tol σ (.expr e) →
    Ev tol σ (.pat p)
  | .array es, p, hp, h => by
    simp only [reinterpretPat, Option.some.injEq] at hp; subst hp
    simp only [ev_con, Local, Node.kids, exprKids, true_and, List.mem_map, List.mem_filterMap, id]
      at h ⊢
    rintro _ ⟨a, ⟨_, ⟨x, hx, rfl⟩, ha⟩, rfl⟩
    obtain ⟨e, rfl, rfl⟩ := Option.map_eq_some_iff.1 ha
    simpa [ev_con, Local, Node.kids] using h _ ⟨e, ⟨_, hx, rfl⟩, rfl⟩
  | .spread e, p, hp, h => by
    simp only [reinterpretPat] at hp
    obtain ⟨p', hp', rfl⟩ := Option.map_eq_some_iff.1 hp
    have := ev_reinterpretPat hp' (by simpa [ev_con, Local, Node.kids, exprKids] using h)
    simpa [ev_con, Local, Node.kids] using this
  | .object ps, p, hp, h => by
    simp only [reinterpretPat] at hp
    obtain ⟨p', hp', rfl⟩ := Option.map_eq_some_iff.1 hp
    have := ev_reinterpretProps hp' (by simpa [ev_con, Local, Node.kids, exprKids] using h)
    simpa [ev_con, Local, Node.kids] using this
  | .assignment op l r, p, hp, h => by
    simp only [reinterpretPat] at hp
    obtain ⟨p', hp', rfl⟩ := Option.map_eq_some_iff.1 hp
    have h : Ev tol σ (.expr l) ∧ Ev tol σ (.expr r) := by
      simpa [Node.kids, exprKids] using (ev_con.1 h).2
    have := ev_reinterpretPat hp' h.1
    simpa [ev_con, Local, Node.kids] using ⟨this, h.2⟩
  | .ident i, p, hp, h => by
    simp only [reinterpretPat, Option.some.injEq] at hp; subst hp
    simp [ev_con, Local, Node.kids]
theorem ev_reinterpretProps {tol σ} : ∀ {ps qs}, reinterpretProps ps = some qs →
    (∀ p ∈ ps, Ev tol σ (.objProp p)) → ∀ q ∈ qs, Ev tol σ (.objPart q)
  | [], _, h, _ => by
    simp only [reinterpretProps, Option.some.injEq] at h; subst h; simp
  | p :: ps, _, h, hps => by
    simp only [reinterpretProps] at h
    split at h
    · cases h
    · rename_i hq
      obtain ⟨qs', hqs, rfl⟩ := Option.map_eq_some_iff.1 h
      have h1 := ev_reinterpretProp hq (hps p (by simp))
      have h2 := ev_reinterpretProps hqs fun p hp => hps p (by simp [hp])
      simpa using ⟨h1, h2⟩
theorem ev_reinterpretProp {tol σ} : ∀ {p q}, reinterpretProp p = some q → Ev tol σ (.objProp p) →
    Ev tol σ (.objPart q)
  | .property p, q, h, hp => by
    simp only [reinterpretProp, Option.some.injEq] at h; subst h
    simpa [ev_con, Local, Node.kids] using hp
  | .spread e, q, h, hp => by
    simp only [reinterpretProp] at h
    obtain ⟨p', hp', rfl⟩ := Option.map_eq_some_iff.1 h
    have := ev_reinterpretPat hp' (by simpa [ev_con, Local, Node.kids] using hp)
    simpa [ev_con, Local, Node.kids] using this
end

theorem ev_coverSource {tol σ e ps a} (he : coverSource e = some (ps, a)) (h : Ev tol σ (.expr e)) :
    ∀ p ∈ ps, Ev tol σ (.arg p) := by
  unfold coverSource at he
  split at he
  · cases he; simp [ev_con, Local, Node.kids, exprKids]
  · cases he; simpa [ev_con, Local, Node.kids, exprKids] using h
  · cases he

theorem ev_coverParam {tol σ a p} (h : Ev tol σ (.arg p)) : Ev tol σ (.arg (coverParam a p).1) := by
  unfold coverParam
  split <;> simp_all [ev_con, Local, Node.kids, exprKids]

/-- The scope of an environment. -/
def scopeOf (Γ : Env) : Scope := ⟨Γ.inFn, Γ.labels, Γ.strict⟩

@[simp] theorem scopeOf_within (Γ : Env) (b) : scopeOf (Γ.within b) = scopeOf Γ := rfl
@[simp] theorem scopeOf_awaiting (Γ : Env) (b) : scopeOf (Γ.awaiting b) = scopeOf Γ := rfl
@[simp] theorem scopeOf_fn (Γ : Env) (a g) : scopeOf (Γ.fn a g) = scopeOf Γ := rfl
@[simp] theorem scopeOf_yielding (Γ : Env) (g) : scopeOf (Γ.yielding g) = scopeOf Γ := rfl
@[simp] theorem scopeOf_strictly (Γ : Env) : scopeOf Γ.strictly = ⟨Γ.inFn, Γ.labels, true⟩ := rfl
@[simp] theorem scopeOf_body (Γ : Env) : scopeOf Γ.body = ⟨true, [], Γ.strict⟩ := rfl
@[simp] theorem scopeOf_label (Γ : Env) (l) :
    scopeOf (Γ.label l) = ⟨Γ.inFn, ('$' :: l) :: Γ.labels, Γ.strict⟩ := rfl
@[simp] theorem scopeOf_inFn (Γ : Env) : (scopeOf Γ).inFn = Γ.inFn := rfl
@[simp] theorem scopeOf_labels (Γ : Env) : (scopeOf Γ).labels = Γ.labels := rfl
@[simp] theorem scopeOf_strict (Γ : Env) : (scopeOf Γ).strict = Γ.strict := rfl

/-- What is known of a class element while it is read. -/
def ElOk (tol : Bool) (σ : Scope) (b : ElBody) : Prop :=
  (∀ k, b.key = some k → Ev tol σ (.key k)) ∧
  (∀ v, b.value = some v → Ev tol σ (.value v) ∧
    ∃ ps l g a, v = .expr (.function (.mk none ps l g a))) ∧
  (∀ k, b.kind = some k → k ≠ .ctor ∧ k ≠ .method ∧
    ∀ key v c, b.key = some key → b.value = some v → PropOk tol key v c k)

/-- The invariant of each kind of phrase. -/
def Good (C : Cfg) (σ : Scope) (o : List Tok) : NT → Prop
  | .key k => Ev C.tolerant σ (.key k)
  | .pattern _ _ p | .patDefault _ p => Ev C.tolerant σ (.pat p) ∧ isRestArg (.pat p) = false
  | .rest _ p => Ev C.tolerant σ (.pat p) ∧ head o = .punct .closeParen
  | .patElems l | .patArray l => EvL C.tolerant σ .arrPart (l.filterMap id)
  | .patProp p => Ev C.tolerant σ (.objPart p)
  | .patProps l => EvL C.tolerant σ .objPart l
  | .directive p => Ev C.tolerant σ (.part p) ∧ isDirOrExpr p = true
  | .prologue l => EvL C.tolerant σ .part l ∧ ∀ p ∈ l, isDirOrExpr p = true
  | .items l | .block l => EvL C.tolerant σ .part l ∧ NoDir l
  | .body l => EvL C.tolerant ⟨true, [], σ.strict⟩ .part l ∧ BodyDirs l
  | .param _ a => Ev C.tolerant σ (.arg a) ∧ (isRestArg a = true → head o = .punct .closeParen)
  | .paramSeq _ l => EvL C.tolerant σ .arg l ∧ RestLast l ∧
      ∀ a ∈ l, isRestArg a = true → head o = .punct .closeParen
  | .params _ l => EvL C.tolerant σ .arg l ∧ RestLast l
  | .fnDecl _ f => Ev C.tolerant σ (.fn f)
  | .method a g v => Ev C.tolerant σ (.value v) ∧
      ∃ ps l, v = .expr (.function (.mk none ps l g a))
  | .getter v => Ev C.tolerant σ (.value v) ∧ ∀ k c, PropOk C.tolerant k v c .get
  | .setter v => Ev C.tolerant σ (.value v) ∧ ∀ k c, PropOk C.tolerant k v c .set
  | .elHead _ h => ∀ k, h.key = some k → Ev C.tolerant σ (.key k)
  | .elBody h b => (∀ k, h.key = some k → Ev C.tolerant σ (.key k)) → ElOk C.tolerant σ b
  | .elMethod _ b b' => ElOk C.tolerant σ b → ElOk C.tolerant σ b'
  | .classEl c c' p => Ev C.tolerant σ (.prop p) ∧
      (if isCtor p then c = false ∧ c' = true else c' = c)
  | .classEls c l => EvL C.tolerant σ .prop l ∧ (l.filter isCtor).length = if c then 1 else 0
  | .classBody l => EvL C.tolerant σ .prop l ∧ (l.filter isCtor).length ≤ 1
  | .heritage e | .init e | .optExpr _ e | .caseTest e => EvL C.tolerant σ .expr e.toList
  | .cls _ c => Ev C.tolerant σ (.cls c)
  | .tplSeq es qs => EvL C.tolerant σ .expr es ∧ qs.length = es.length + 1 ∧
      (∀ q ∈ qs.dropLast, q.tail = false)
  | .tpl es qs => EvL C.tolerant σ .expr es ∧ TplOk es qs
  | .propHead k _ _ => EvL C.tolerant σ .key k.toList
  | .objProp p => Ev C.tolerant σ (.objProp p)
  | .objProps l => EvL C.tolerant σ .objProp l
  | .elems l => EvL C.tolerant σ .expr (l.filterMap id)
  | .argSeq l | .args l | .groupSeq l | .exprSeq l | .forSeq l => EvL C.tolerant σ .expr l
  | .fnExpr e | .spread e | .arg e | .object e | .array e | .group e | .primary e | .newExpr e
  | .operand e | .member e | .call e | .update e | .unary e | .expo e | .bin _ e | .cond e
  | .arrowHead e | .assign e | .expression e | .exprStmt e => Ev C.tolerant σ (.expr e)
  | .varDecl s _ d => Ev C.tolerant σ (.varDecl d) ∧
      (s = true → C.tolerant = false → σ.strict = true → bindsRestricted d = false)
  | .varDecls s _ l => EvL C.tolerant σ .varDecl l ∧
      (s = true → C.tolerant = false → σ.strict = true → ∀ d ∈ l, bindsRestricted d = false)
  | .lexDecl _ _ d => Ev C.tolerant σ (.varDecl d) ∧
      (C.tolerant = false → σ.strict = true → bindsRestricted d = false)
  | .lexDecls _ _ l => EvL C.tolerant σ .varDecl l ∧
      (C.tolerant = false → σ.strict = true → ∀ d ∈ l, bindsRestricted d = false)
  | .lexical _ d => Ev C.tolerant σ (.decl d)
  | .loopBody s | .forHead _ s | .labelBody s | .stmt s => Ev C.tolerant σ (.stmt s)
  | .forCont i s => EvL C.tolerant σ .loopInit i.toList → Ev C.tolerant σ (.stmt s)
  | .catchParam p => EvL C.tolerant σ .pat p.toList
  | .catchClause c => Ev C.tolerant σ (.catch c)
  | .handler c => EvL C.tolerant σ .catch c.toList
  | .finalizer l => EvL C.tolerant σ .part (l.getD []) ∧ NoDir (l.getD [])
  | .switchCase c => Ev C.tolerant σ (.case c)
  | .cases f l => EvL C.tolerant σ .case l ∧ (l.filter isDefault).length = if f then 1 else 0
  | .exportDecl e => Ev C.tolerant σ (.modExport e)
  | .listItem p => Ev C.tolerant σ (.part p) ∧ isDir p = false
  | _ => True

theorem ev_importLeaves {tol : Bool} {σ : Scope} {s : ImportSpecifier} {x : Edge × Node} (h : x ∈ importLeaves s) :
    Ev tol (σ.enter x.1) x.2 := by
  have : ∃ w, x = word w := by
    cases s <;> simp [importLeaves] at h <;> first | exact ⟨_, h⟩ | skip
    rcases h with h | ⟨w, _, h⟩
    · exact ⟨_, h⟩
    · exact ⟨w, h.symm⟩
  obtain ⟨w, rfl⟩ := this
  exact ev_leaf

theorem ev_exportLeaves {tol : Bool} {σ : Scope} {s : ExportSpecifier} {x : Edge × Node} (h : x ∈ exportLeaves s) :
    Ev tol (σ.enter x.1) x.2 := by
  have : ∃ w, x = word w := by
    simp [exportLeaves] at h
    rcases h with h | ⟨w, _, h⟩
    · exact ⟨_, h⟩
    · exact ⟨w, h.symm⟩
  obtain ⟨w, rfl⟩ := this
  exact ev_leaf

theorem unaryOperator_delete {t : Token} (h : unaryOperator t = some .delete) :
    t = .keyword .delete := by
  unfold unaryOperator at h
  split at h <;> simp_all

set_option maxHeartbeats 4000000 in
/-- Every derived tree satisfies the local conditions everywhere. -/
theorem good_of_G {C Γ nt i o} (h : G C Γ nt i o) : Good C (scopeOf Γ) o nt := by
  induction h
  all_goals simp only [Good, scopeOf_within, scopeOf_awaiting, scopeOf_fn, scopeOf_yielding,
    scopeOf_strictly, scopeOf_label, scopeOf_strict, EvL] at *
  all_goals try exact True.intro
  all_goals try with_reducible assumption
  all_goals try (
    simp [*, ev_con, Local, Node.kids, exprKids, stmtKids, or_imp, forall_and, isRestArg,
      isDirOrExpr, isDir]
    done)
  all_goals try (
    simp [ev_con, Local, Node.kids, exprKids, stmtKids, or_imp, forall_and, isRestArg, isDirOrExpr,
      isDir, NoDir, PropOk, mem_pieces]
    grind)
  all_goals try (
    simp only [NoDir, RestLast] at *
    simp [ev_con, Local, Node.kids, exprKids, stmtKids, or_imp, forall_and, NoDir, RestLast, PropOk]
    grind)
  case unaryOp ho _ hd _ =>
    refine ev_iff.2 ⟨fun ht hs hop => ?_, by simpa [Node.kids, exprKids] using ‹_›⟩
    subst hop
    have hk : Kw _ .delete := unaryOperator_delete ho
    cases hi : isIdentExpr _
    · rfl
    · rw [hd hk hs hi] at ht; cases ht
  case labelClass ht _ ih =>
    have hl : ∀ p ∈ _, Ev _ _ _ := fun p hp => (ih.1 p hp).mono (τ := ⟨_, _, true⟩)
      ⟨id, fun _ => id, by simp [ht]⟩
    simp [ev_con, Local, Node.kids, exprKids, stmtKids, ih.2]
    exact hl
  case keyComputed => exact ev_computedKey ‹_›
  case group => exact ev_groupOf ‹_›
  case groupArrow =>
    simpa [ev_con, Local, Node.kids, exprKids] using ev_arrowArgs (ev_groupOf ‹_›)
  case arrowHeadAsync hp he ha =>
    simpa [ev_con, Local, Node.kids, exprKids] using ev_reinterpretPat hp ha
  case arrowBlock hs _ _ _ _ he hb =>
    simp [ev_con, Local, Node.kids, exprKids, or_imp, forall_and, hb.2]
    exact ⟨fun a ha => ev_coverParam (ev_coverSource hs he a ha), hb.1⟩
  case arrowExpr hs _ _ _ _ he hb =>
    simp [ev_con, Local, Node.kids, exprKids, or_imp, forall_and, hb]
    exact fun a ha => ev_coverParam (ev_coverSource hs he a ha)
  case body hds hl =>
    refine ⟨fun p hp => ?_, _, _, rfl, hds.2, hl.2⟩
    rcases List.mem_append.1 hp with hp | hp
    · exact (hds.1 p hp).mono (scope_le_body _)
    · exact hl.1 p hp
  case elGet ih1 ih2 =>
    refine fun _ => ⟨fun k hk => ?_, fun v hv => ?_, fun k hk => ?_⟩
    · cases hk; exact ih1
    · cases hv
      obtain ⟨ps, b, rfl, -⟩ := ih2.2 (.pat (.identifier [])) false
      exact ⟨ih2.1, _, _, _, _, rfl⟩
    · cases hk; exact ⟨by simp, by simp, fun k v c hk hv => by cases hv; exact ih2.2 k c⟩
  case elSet ih1 ih2 =>
    refine fun _ => ⟨fun k hk => ?_, fun v hv => ?_, fun k hk => ?_⟩
    · cases hk; exact ih1
    · cases hv
      obtain ⟨ps, b, rfl, -⟩ := ih2.2 (.pat (.identifier [])) false
      exact ⟨ih2.1, _, _, _, _, rfl⟩
    · cases hk; exact ⟨by simp, by simp, fun k v c hk hv => by cases hv; exact ih2.2 k c⟩
  case elGen ih1 ih2 =>
    refine fun _ => ⟨fun k hk => ?_, fun v hv => ?_, fun k hk => ?_⟩
    · cases hk; exact ih1
    · cases hv
      obtain ⟨ps, b, rfl⟩ := ih2.2
      exact ⟨ih2.1, _, _, _, _, rfl⟩
    · cases hk; exact ⟨by simp, by simp, fun k v c hk hv => trivial⟩
  case elPlain =>
    exact fun h => ⟨h, ⟨(by intro v hv; cases hv), (by intro v hv; cases hv)⟩⟩
  case elMethod ih =>
    refine fun h => ⟨h.1, fun v hv => ?_, fun k hk => ?_⟩
    · cases hv
      obtain ⟨ps, b, rfl⟩ := ih.2
      exact ⟨ih.1, _, _, _, _, rfl⟩
    · cases hk; exact ⟨by simp, by simp, fun k v c hk hv => trivial⟩
  case classEl hf _ h2 h3 h4 =>
    obtain ⟨hk, hv, hkind⟩ := h4 (h3 h2)
    cases hf with
    | ctor h1 hkey hval hc _ hg _ hk' hct =>
      obtain ⟨h5, ps, l, g, a, rfl⟩ := hv _ hval
      have hg : g = false := hg
      subst hg
      have := hk _ hkey
      exact ⟨ev_iff.2 ⟨⟨rfl, hk', _, _, _, rfl⟩, by simp [Node.kids, this, h5]⟩, hct, rfl⟩
    | @other kind _ _ h1 hkey hval _ =>
      have h5 := hk _ hkey
      have h6 := (hv _ hval).1
      obtain ⟨h7, h8, h9⟩ := hkind _ h1
      have h10 := fun c => h9 _ _ c hkey hval
      refine ⟨ev_iff.2 ⟨?_, by simp [Node.kids, h5, h6]⟩, ?_⟩
      · cases kind <;> first | exact True.intro | simpa [Local] using h10 _
      · cases kind <;> simp_all [isCtor]
  case tplMore qs _ _ _ _ _ _ _ ht _ _ ih ih' _ =>
    refine ⟨?_, by simp [ih.2.1], ?_⟩
    · intro a ha
      rcases List.mem_append.1 ha with ha | ha
      · exact ih.1 a ha
      · rw [List.mem_singleton.1 ha]; exact ih'
    · rw [List.dropLast_concat]
      intro q hq
      rcases List.eq_nil_or_concat qs with rfl | ⟨qs', q', rfl⟩
      · cases hq
      · rw [List.concat_eq_append] at *
        rcases List.mem_append.1 hq with hq | hq
        · exact ih.2.2 q (by simpa using hq)
        · rw [List.mem_singleton.1 hq]; simpa [lastTail] using ht
  case tpl ht ih =>
    refine ⟨ih.1, ih.2.1, ih.2.2, fun q hq => ?_⟩
    simpa [lastTail, hq] using ht
  case primTemplate ih =>
    refine ev_iff.2 ⟨ih.2, fun x hx => ?_⟩
    rcases mem_pieces.1 hx with ⟨_, _, rfl⟩ | ⟨_, h, rfl⟩
    · exact ev_leaf
    · exact ih.1 _ h
  case memTemplate ih ih' =>
    refine ev_iff.2 ⟨ih'.2, fun x hx => ?_⟩
    rcases List.mem_cons.1 hx with rfl | hx
    · exact ih
    rcases mem_pieces.1 hx with ⟨_, _, rfl⟩ | ⟨_, h, rfl⟩
    · exact ev_leaf
    · exact ih'.1 _ h
  case callTemplate ih ih' =>
    refine ev_iff.2 ⟨ih'.2, fun x hx => ?_⟩
    rcases List.mem_cons.1 hx with rfl | hx
    · exact ih
    rcases mem_pieces.1 hx with ⟨_, _, rfl⟩ | ⟨_, h, rfl⟩
    · exact ev_leaf
    · exact ih'.1 _ h
  case bin op _ _ _ _ _ _ _ _ _ _ _ _ =>
    cases op <;> simp [*, Op.node, ev_con, Local, Node.kids, exprKids]
  case forSemi ih => exact ih (by simp)
  case varInit hr _ ih ih' =>
    refine ⟨by simp [ev_con, Local, Node.kids, ih.1, ih'], fun hs ht hσ => ?_⟩
    exact Bool.eq_false_iff.2 fun h => by simp [hr hs hσ h] at ht
  case varNone hr _ ih =>
    refine ⟨by simp [ev_con, Local, Node.kids, ih.1], fun hs ht hσ => ?_⟩
    exact Bool.eq_false_iff.2 fun h => by simp [hr hs hσ h] at ht
  case lexInit hr _ ih ih' =>
    refine ⟨by simp [ev_con, Local, Node.kids, ih.1, ih'], fun ht hσ => ?_⟩
    exact Bool.eq_false_iff.2 fun h => by simp [hr hσ h] at ht
  case lexNone hr _ _ ih =>
    refine ⟨by simp [ev_con, Local, Node.kids, ih.1], fun ht hσ => ?_⟩
    exact Bool.eq_false_iff.2 fun h => by simp [hr hσ h] at ht
  case forVar ih ih' =>
    exact ih (by simpa [ev_con, Local, Node.kids] using ⟨ih'.2 trivial, ih'.1⟩)
  case forLex ih ih' => exact ih' (by simpa [ev_con, Local, Node.kids] using ⟨ih.2, ih.1⟩)
  case forExprSeq ih ih' => exact ih' (by simpa [ev_con, Local, Node.kids, exprKids] using ih)
  case forExpr ih ih' => exact ih' (by simpa [ev_con, Local, Node.kids] using ih)
  case exportNamed =>
    refine ev_iff.2 ⟨trivial, fun x hx => ?_⟩
    obtain ⟨s, hs, hx⟩ := List.mem_flatMap.1 (by simpa [Node.kids] using hx)
    exact ev_exportLeaves hx
  case exportFrom =>
    refine ev_iff.2 ⟨trivial, fun x hx => ?_⟩
    rcases List.mem_append.1 hx with hx | hx
    · obtain ⟨s, hs, hx⟩ := List.mem_flatMap.1 hx
      exact ev_exportLeaves hx
    · cases List.mem_singleton.1 hx; exact ev_leaf
  case itemImport =>
    refine ⟨ev_iff.2 ⟨trivial, fun x hx => ?_⟩, rfl⟩
    cases List.mem_singleton.1 hx
    refine ev_iff.2 ⟨trivial, fun x hx => ?_⟩
    rcases List.mem_append.1 hx with hx | hx
    · obtain ⟨s, hs, hx⟩ := List.mem_flatMap.1 hx
      exact ev_importLeaves hx
    · cases List.mem_singleton.1 hx; exact ev_leaf
  case patPropShort => simp [ev_con, Local, Node.kids, exprKids, PropOk]
  case prologueMore ih ih' =>
    simp only [List.mem_append, or_imp, forall_and, List.mem_singleton, forall_eq]
    exact ⟨⟨ih.1, ih'.1⟩, ih.2, ih'.2⟩
  case itemsNil => simp [NoDir]
  case param ih => exact ⟨by simpa [ev_con, Local, Node.kids] using ih.1, by simp [ih.2]⟩
  case paramMore ht _ ih ih' =>
    simp only [List.mem_append, or_imp, forall_and, List.mem_singleton, forall_eq]
    have hr : ∀ a, a ∈ _ → isRestArg a = false := fun a ha => by
      cases hb : isRestArg a with
      | false => rfl
      | true =>
        have := ih.2.2 a ha hb
        rw [head, show _ = _ from ht] at this
        cases this
    refine ⟨⟨ih.1, ih'.1⟩, fun a ha => ?_, fun a ha h => ?_, ih'.2⟩
    · rw [List.dropLast_concat] at ha; exact hr a ha
    · rw [hr a ha] at h; cases h
  case paramsNone => simp [RestLast]
  case params ih => exact ⟨ih.1, ih.2.1⟩
  case paramsComma ih => exact ⟨ih.1, ih.2.1⟩
  case classBody ih => exact ⟨ih.1, by rw [ih.2]; split <;> simp⟩
  case finalizerNone => simp [NoDir]

end Ressa.Tree
