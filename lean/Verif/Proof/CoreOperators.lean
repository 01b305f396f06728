import Verif.Proof.CoreMeans
import Verif.Props.Operators

/-!
# Left-hand sides, operators and assignments

One theorem for each rule of `Core`.
-/

namespace Ressa.Gr

variable {C : Cfg}

set_option linter.unusedVariables false

theorem Op.level_lt {op : Op} (h : op ≠ .bin .powerOf) : op.level < 12 ∧ 0 < op.level := by
  rcases op with op | op <;> cases op <;> simp_all [Op.level]

theorem Op.precedence {op : Op} {b : Bool} (h : op ≠ .bin .powerOf) (hb : op = .bin .in → b = true) :
    binPrecedence b op.token = op.level := by
  rcases op with op | op <;> cases op <;>
    simp_all [Op.level, Op.token, binPrecedence, determinePrecedence]

theorem mkBinary_op {op : Op} (h : op ≠ .bin .powerOf) (a b : Expr) :
    mkBinary op.token a b = pure (op.node a b) := by
  rcases op with op | op <;> cases op <;> first | rfl | exact absurd rfl h

/-- The operators of the last operand are only bounded from below. -/
theorem Held.lower {x l L m stack ops precs} (h : Held x l L stack ops precs) (hm : m ≤ L)
    (hq : ∀ q ∈ precs.head?, q < m) : Held x l m stack ops precs := by
  cases h with
  | one h h' => exact .one h fun p hp => Nat.le_trans hm (h' p hp)
  | push h1 ho h2 h3 h4 => exact .push h1 ho h2 (fun p hp => Nat.le_trans hm (h3 p hp)) (hq _ rfl)

/-- Joining the last two operands. -/
theorem Held.join {x l L e stack ops precs op y r b}
    (h : Held x l op.level (e :: stack) ops precs) (h2 : Groups y r b)
    (h3 : ∀ p ∈ r, L ≤ p.1.level) (h4 : op.level < L) :
    Held x (l ++ (op, y) :: r) op.level (op.node e b :: stack) ops precs := by
  have hr : ∀ p ∈ r, op.level < p.1.level := fun p hp => Nat.lt_of_lt_of_le h4 (h3 p hp)
  have hall : ∀ {l' : List (Op × Expr)}, (∀ p ∈ l', op.level ≤ p.1.level) →
      ∀ p ∈ l' ++ (op, y) :: r, op.level ≤ p.1.level := by
    intro l' hl p hp
    rcases List.mem_append.1 hp with hp | hp
    · exact hl p hp
    · rcases List.mem_cons.1 hp with rfl | hp
      · exact Nat.le_refl _
      · exact Nat.le_of_lt (hr p hp)
  cases h with
  | one h h' => exact .one (.node h' hr h h2) (hall h')
  | push g1 go g2 g3 g4 =>
    rw [List.append_assoc, List.cons_append]
    exact .push g1 go (.node g3 hr g2 h2) (hall g3) g4

theorem Held.reduceWhile {Γ x l L prec i} {stack ops precs} (h : Held x l L stack ops precs)
    (hL : prec ≤ L) : ∃ st : BinStack, Held x l prec st.stack st.ops st.precs ∧
      ∀ f, Exec C Γ f i (reduceWhile prec ops stack precs) st f i := by
  induction ops generalizing stack precs L with
  | nil =>
    cases h with
    | one h h' =>
      exact ⟨⟨_, _, _⟩, .one h fun p hp => Nat.le_trans hL (h' p hp), fun f => Exec.pure⟩
  | cons t ops ih =>
    cases h with
    | @push l _ e stack _ precs op y r b h1 ho h2 h3 h4 =>
      unfold Ressa.reduceWhile
      by_cases hp : prec ≤ op.level
      · obtain ⟨st, hs, hx⟩ := ih (h1.join h2 h3 h4) hp
        refine ⟨st, hs, fun f => ?_⟩
        show Exec C Γ f i (if prec ≤ op.level then _ else _) _ _ _
        rw [if_pos hp, mkBinary_op ho]
        exact .pureBind (hx f)
      · refine ⟨⟨_, _, _⟩, (Held.push h1 ho h2 h3 h4).lower hL ?_, fun f => ?_⟩
        · intro q hq; cases hq; omega
        · show Exec C Γ f i (if prec ≤ op.level then _ else _) _ _ _
          rw [if_neg hp]; exact .pure

theorem Held.reduceAll {Γ x l L i} {top stack ops precs} (h : Held x l L (top :: stack) ops precs) :
    ∃ e, Groups x l e ∧ ∀ f, Exec C Γ f i (reduceAll ops stack top) e f i := by
  induction ops generalizing stack precs L top with
  | nil => cases h with | one h h' => exact ⟨_, h, fun f => Exec.pure⟩
  | cons t ops ih =>
    cases h with
    | @push l _ e stack _ precs op y r b h1 ho h2 h3 h4 =>
      unfold Ressa.reduceAll
      obtain ⟨e', hs, hx⟩ := ih (h1.join h2 h3 h4)
      refine ⟨e', hs, fun f => ?_⟩
      rw [mkBinary_op ho]
      exact .pureBind (hx f)

theorem unary_none {t : Token} (h : unaryOperator t = none) : t ≠ .punct .plus ∧
    t ≠ .punct .minus ∧ t ≠ .punct .bitwiseNot ∧ t ≠ .punct .not ∧ t ≠ .keyword .delete ∧
    t ≠ .keyword .void ∧ t ≠ .keyword .typeOf := by
  refine ⟨?_, ?_, ?_, ?_, ?_, ?_, ?_⟩ <;> rintro rfl <;> simp [unaryOperator] at h

theorem unary_some {t : Token} {op : UnaryOperator} (h : unaryOperator t = some op) :
    t = .punct .plus ∧ op = .plus ∨ t = .punct .minus ∧ op = .minus ∨
    t = .punct .bitwiseNot ∧ op = .tilde ∨ t = .punct .not ∧ op = .not ∨
    t = .keyword .delete ∧ op = .delete ∨ t = .keyword .void ∧ op = .void ∨
    t = .keyword .typeOf ∧ op = .typeOf := by
  unfold unaryOperator at h
  split at h <;> simp_all

theorem memberMore_ne {t : Token} (h : memberMore t = false) :
    (t.matchesPunct .openBracket || t.matchesPunct .period || t.isTemplate) = false := by
  cases t <;> simp_all [memberMore, Token.matchesPunct, Token.isTemplate]

theorem callMore_ne {t : Token} (h : callMore t = false) :
    (t.matchesPunct .period || t.matchesPunct .openParen || t.matchesPunct .openBracket ||
      t.isTemplateHead) = false := by
  cases t with
  | template k => cases k <;> simp_all [callMore, Token.matchesPunct, Token.isTemplateHead]
  | _ => simp_all [callMore, Token.matchesPunct, Token.isTemplateHead]

theorem assign_ne {t : Token} (h : isAssignOp t = false) :
    (t.matchesPunct .assign || t.matchesPunct .multiplyAssign || t.matchesPunct .exponentAssign ||
    t.matchesPunct .divideAssign || t.matchesPunct .moduloAssign || t.matchesPunct .addAssign ||
    t.matchesPunct .subtractAssign || t.matchesPunct .leftShiftAssign ||
    t.matchesPunct .rightShiftAssign || t.matchesPunct .unsignedRightShiftAssign ||
    t.matchesPunct .addAssign || t.matchesPunct .bitwiseOrAssign ||
    t.matchesPunct .bitwiseXOrAssign || t.matchesPunct .bitwiseAndAssign) = false := by
  cases t with
  | punct p => cases p <;> first | rfl | simp [isAssignOp, assignmentOperator] at h
  | _ => rfl

theorem checkTarget {Γ e i} {f : Flags} (h : f.1 = true ∨ C.tolerant = true)
    (h' : ∀ n, e = .ident n → Γ.strict = true →
      isRestrictedWord n = false ∧ isStrictReservedWord n = false) :
    Exec C Γ f i (checkAssignTarget e) () f i := by
  unfold checkAssignTarget
  cases e
  case ident n =>
    cases hs : Γ.strict
    · ex
    · obtain ⟨h1, h2⟩ := h' n rfl hs
      ex
  all_goals ex

theorem start_split {i : List Tok} (h : exprStart (head i) = true) : ∃ u j, i = u :: j := by
  cases i with
  | nil => cases h
  | cons u j => exact ⟨u, j, rfl⟩

theorem callEnd {Γ f e o} (h1 : callMore (head o) = false) (b pos) :
    Exec C Γ f o (callLoop full b pos e) e f o := by
  have h2 := callMore_ne h1
  clear h1
  halt

/-- From a call up to a conditional expression, in front of `=>` or of a name. -/
theorem throughCall {Γ f e i o} (h : Exec C Γ .all i (lhsAllowCall full) e f o)
    (h2 : head i = .ident ∨ head i = .punct .openParen ∨ head i = .keyword .let)
    (h3 : head o = .punct .fatArrow ∨ head o = .ident) :
    ∀ f', Exec C Γ f' i (conditionalExpr full) e (f.and f') o := by
  intro f'
  have hb : binPrecedence Γ.allowIn (.punct .fatArrow) = 0 := rfl
  have hi : binPrecedence Γ.allowIn .ident = 0 := rfl
  rcases h2 with h2 | h2 | h2 <;> rcases h3 with h3 | h3 <;> cases hn : C.nl o <;> ex

/-- From a primary expression up to a conditional expression, in front of `=>` or of a name. -/
theorem through {Γ f e i o} (h : Exec C (Γ.within true) .all i (primary full) e f o)
    (h2 : head i = .ident ∨ head i = .punct .openParen ∨ head i = .keyword .let)
    (h3 : head o = .punct .fatArrow ∨ head o = .ident) :
    ∀ f', Exec C Γ f' i (conditionalExpr full) e (f.and f') o := by
  obtain ⟨u, j, rfl⟩ : ∃ u j, i = u :: j := by
    cases i with
    | nil => simp [head] at h2
    | cons u j => exact ⟨u, j, rfl⟩
  have hc : ∀ f b pos, Exec C (Γ.within true) f o (callLoop full b pos e) e f o :=
    fun f b pos => callEnd (by rcases h3 with h3 | h3 <;> rw [h3] <;> rfl) b pos
  refine throughCall ?_ h2 h3
  rcases h2 with h2 | h2 | h2 <;> ex

theorem coverParam_plain {b : Bool} {a : FunctionArg} (h : plainArg a = true)
    (h' : (b && isAwaitArg a) = false) : coverParam b a = (a, false) := by
  cases a with
  | expr e =>
    cases e with
    | assignment op l r => cases r <;> first | rfl | cases h
    | yield => cases h
    | _ => exact congrArg (Prod.mk _) h'
  | pat p =>
    cases p with
    | assignment l r => cases r <;> first | rfl | cases h
    | _ => exact congrArg (Prod.mk _) h'

theorem coverFormals_plain {Γ f i} {b : Bool} {l : List FunctionArg} (h : l.all plainArg = true)
    (h' : l.all (fun a => !(b && isAwaitArg a)) = true) :
    Exec C Γ f i (coverFormals l b) l f i := by
  have hm : l.map (coverParam b) = l.map fun a => (a, false) :=
    List.map_congr_left fun a ha => coverParam_plain (List.all_eq_true.1 h a ha)
      (by rw [← Bool.not_eq_true']; exact List.all_eq_true.1 h' a ha)
  have hy : l.any isYieldArg = false := by
    rw [List.any_eq_false]
    intro a ha
    have := List.all_eq_true.1 h a ha
    unfold plainArg at this
    unfold isYieldArg
    split at this <;> split <;> simp_all
  have hp : ((l.map (coverParam b)).any fun x => x.2) = false := by rw [hm]; simp
  have hq : ((l.map (coverParam b)).any fun x => isYieldArg x.1) = false := by
    rw [hm, List.any_map]; exact hy
  have hl : (l.map (coverParam b)).map (fun x => x.1) = l := by
    rw [hm, List.map_map]
    show l.map (fun a => a) = l
    simp
  unfold coverFormals
  simp only [hp, hq, hl, Bool.and_false]
  ex

/-- No parameter of an arrow function after `async`. -/
theorem noAsyncParam {Γ f o} {t : Tok} {e : Expr} (ht : ItemOk C.stream t.item) (h1 : head o ≠ .ident)
    (h2 : head o ≠ .keyword .yield) (a b : Nat) :
    Exec C Γ f o (asyncParam full t.item a b e) e f o := by
  cases h : (C.text t == t!"async" && b == a)
  · ex
  · ex

/-- The parameters of an `async` arrow function are read like arguments. -/
theorem asyncCall {Γ l t t' i j} (h1 : t.item.token = .ident) (h2 : C.text t = t!"async")
    (h3 : C.joined t t') (h4 : Ok C (Γ.within true) (.args l) (t' :: i) j)
    (h5 : head j = .punct .fatArrow) :
    Exec C Γ .all (t :: t' :: i) (lhsAllowCall full) (.arrowParamPlaceHolder (l.map .expr) true)
      .none j := by
  apply Exec.here
  intro ht
  have hl := h3.line ht h2
  have hlf := h3.1
  have hc : ∀ f b pos, Exec C (Γ.within true) f j
      (callLoop full b pos (.arrowParamPlaceHolder (l.map .expr) true))
      (.arrowParamPlaceHolder (l.map .expr) true) f j :=
    fun f b pos => callEnd (by rw [h5]; rfl) b pos
  have hm : ∀ f n, Exec C (Γ.within true) f (t' :: i)
      (callLoop full (C.text t == t!"async") ⟨C.lineAt t, n⟩ (.ident (C.text t)))
      (.arrowParamPlaceHolder (l.map .expr) true) .none j := by
    intro f n
    apply Exec.to_bot
    unpack
    more
  unpack
  simp only [head_cons] at *
  ex

theorem Held.nonempty {x l L stack ops precs} (h : Held x l L stack ops precs) :
    ∃ top rest, stack = top :: rest := by
  cases h <;> exact ⟨_, _, rfl⟩

theorem Means.newTarget {Γ t t' t'' o} (h1 : Kw t .new) (h2 : Is t' .period)
    (h3 : C.text t'' = t!"target") (h4 : Γ.inFn = true) :
    Means C Γ (.newExpr (true, true) (.metaProperty t!"new" (C.text t''))) (t :: t' :: t'' :: o) o
    := by fw

theorem Means.newBare {Γ t e i o} (h1 : Kw t .new) (h2 : head i ≠ .keyword .import)
    (h3 : Ok C Γ (.member e) i o) (h4 : head o ≠ .punct .openParen) :
    Means C Γ (.newExpr (false, false) (.new e [])) (t :: i) o := by fw

theorem Means.newArgs {Γ t e l i j o} (h1 : Kw t .new) (h2 : head i ≠ .keyword .import)
    (h3 : Ok C Γ (.member e) i j) (h4 : Ok C Γ (.args l) j o) :
    Means C Γ (.newExpr (false, false) (.new e l)) (t :: i) o := by fw

theorem Means.opNew {Γ f e i o} (h1 : Ok C Γ (.newExpr f e) i o) :
    Means C Γ (.operand f e) i o := by fw

theorem Means.opPrimary {Γ f e i o} (h1 : Ok C Γ (.primary f e) i o) (h2 : head i ≠ .keyword .new) :
    Means C Γ (.operand f e) i o := by fw

theorem Means.memStop {Γ e o} (h1 : memberMore (head o) = false) :
    Means C Γ (.memTail e e) o o := by
  pre
  have h2 := memberMore_ne h1
  halt

theorem Means.memDot {Γ t t' e e' i o} (h1 : Is t .period)
    (h2 : Ok C Γ (.memTail (.member e (.ident (C.text t')) false) e') i o) :
    Means C Γ (.memTail e e') (t :: t' :: i) o := by pre; more

theorem Means.memIndex {Γ t t' x e e' i j o} (h1 : Is t .openBracket)
    (h2 : Ok C Γ (.expression x) i (t' :: j)) (h3 : Is t' .closeBracket)
    (h4 : Ok C Γ (.memTail (.member e x true) e') j o) :
    Means C Γ (.memTail e e') (t :: i) o := by pre; more

theorem Means.memTemplate {Γ es qs e e' i j o} (h1 : Ok C Γ (.tpl es qs) i j)
    (h2 : Ok C Γ (.memTail (.taggedTemplate e es qs) e') j o) :
    Means C Γ (.memTail e e') i o := by
  pre
  rcases h1.start with h | h <;> more

theorem Means.memSuper {Γ t e i o} (h1 : Kw t .super) (h2 : Γ.inFn = true)
    (h3 : head i = .punct .openBracket ∨ head i = .punct .period)
    (h4 : Ok C Γ (.memTail .super e) i o) :
    Means C Γ (.member e) (t :: i) o := by
  pre
  rcases h3 with h3 | h3 <;> ex

theorem Means.member {Γ f e e' i j o} (h1 : head i ≠ .keyword .super)
    (h2 : Ok C Γ (.operand f e) i j) (h3 : Ok C Γ (.memTail e e') j o) :
    Means C Γ (.member e') i o := by fw

theorem Means.callStop {Γ a f e o} (h1 : callMore (head o) = false) :
    Means C Γ (.callTail a f e f e) o o := by
  pre
  exact callEnd h1 _ _

theorem Means.callDot {Γ a t t' f e f' e' i o} (h1 : Is t .period)
    (h2 : Ok C Γ (.callTail a (true, false) (.member e (.ident (C.text t')) false) f' e') i o) :
    Means C Γ (.callTail a f e f' e') (t :: t' :: i) o := by pre; more

theorem Means.callIndex {Γ a t t' x f e f' e' i j o} (h1 : Is t .openBracket)
    (h2 : Ok C Γ (.expression x) i (t' :: j)) (h3 : Is t' .closeBracket)
    (h4 : Ok C Γ (.callTail a (true, false) (.member e x true) f' e') j o) :
    Means C Γ (.callTail a f e f' e') (t :: i) o := by pre; more

theorem Means.callTemplate {Γ a es qs f e f' e' i j o} (h1 : Ok C Γ (.tpl es qs) i j)
    (h2 : Ok C Γ (.callTail a f (.taggedTemplate e es qs) f' e') j o) :
    Means C Γ (.callTail a f e f' e') i o := by
  pre
  rcases h1.start with h | h <;> more

theorem Means.callArgs {Γ a l f e f' e' i j o} (h1 : Ok C Γ (.args l) i j)
    (h2 : a = true → head j ≠ .punct .fatArrow)
    (h3 : Ok C Γ (.callTail a (false, false) (.call e l) f' e') j o) :
    Means C Γ (.callTail a f e f' e') i o := by
  pre
  rename_i b pos hb
  have hs : ∀ f, Exec C Γ f i (callSuffix full b pos e) (.call e l) .none j := by
    intro f
    cases b
    · ex
    · have := h2 (hb rfl)
      ex
      rename_i p
      generalize (true && pos.line == p.line) = q
      cases q <;> ex
  more

theorem Means.callSuper {Γ t f e i o} (h1 : Kw t .super) (h2 : C.text t ≠ t!"async")
    (h3 : Γ.inFn = true)
    (h4 : head i = .punct .openParen ∨ head i = .punct .openBracket ∨ head i = .punct .period)
    (h5 : Ok C (Γ.within true) (.callTail false (true, true) .super f e) i o) :
    Means C Γ (.call f e) (t :: i) o := by
  pre
  rcases h4 with h4 | h4 | h4 <;> ex

theorem Means.call {Γ a f e f' e' i j o} (h1 : a = false → C.other t!"async" i)
    (h2 : head i ≠ .keyword .super) (h3 : Ok C (Γ.within true) (.operand f e) i j)
    (h4 : Ok C (Γ.within true) (.callTail a f e f' e') j o) :
    Means C Γ (.call f' e') i o := by
  obtain ⟨u, j', rfl⟩ := start_split h3.start.1
  have ho : Exec C (Γ.within true) .all (u :: j') (newOrPrimary full) e f j := by
    have := h3.means .all
    rwa [Flags.and_top] at this
  have hc := fun pos => h4.means (C.text u == t!"async") pos (by
    intro h
    cases a with
    | false => exact absurd (by simpa using h) (h1 rfl)
    | true => rfl)
  clear h3 h4
  fw

theorem Means.callNone {Γ f e i o} (h1 : head i ≠ .keyword .super)
    (h2 : Ok C (Γ.within true) (.operand f e) i o) (h3 : callMore (head o) = false) :
    Means C Γ (.call f e) i o := by
  have ho : Exec C (Γ.within true) .all i (newOrPrimary full) e f o := by
    have := h2.means .all
    rwa [Flags.and_top] at this
  have hc : ∀ f b pos, Exec C (Γ.within true) f o (callLoop full b pos e) e f o :=
    fun f b pos => callEnd h3 b pos
  obtain ⟨u, j, rfl⟩ := start_split h2.start.1
  clear h2
  fw

theorem Means.updNone {Γ f e i o} (h1 : Ok C Γ (.call f e) i o) (h2 : head i ≠ .punct .increment)
    (h3 : head i ≠ .punct .decrement)
    (h4 : (C.nl o = true ∨ head o ≠ .punct .increment ∧ head o ≠ .punct .decrement)) :
    Means C Γ (.update f e) i o := by
  pre
  cases hn : C.nl o
  · have h4 : head o ≠ .punct .increment ∧ head o ≠ .punct .decrement := by simpa [hn] using h4
    obtain ⟨h4, h5⟩ := h4
    ex
  · ex

theorem Means.updPrefix {Γ t op f e i o}
    (h1 : Is t .increment ∧ op = .increment ∨ Is t .decrement ∧ op = .decrement)
    (h2 : Ok C Γ (.unary f e) i o)
    (h3 : (Γ.strict = true → isRestrictedIdent e = true → C.tolerant = true))
    (h4 : f.1 = true ∨ C.tolerant = true) :
    Means C Γ (.update (false, false) (.update op e true)) (t :: i) o := by
  pre
  rcases h1 with ⟨h1, rfl⟩ | ⟨h1, rfl⟩ <;> ex

theorem Means.updPostfix {Γ t op f e i o} (h1 : Ok C Γ (.call f e) i (t :: o))
    (h2 : head i ≠ .punct .increment) (h3 : head i ≠ .punct .decrement) (h4 : t.nl = false)
    (h5 : Is t .increment ∧ op = .increment ∨ Is t .decrement ∧ op = .decrement)
    (h6 : (Γ.strict = true → isRestrictedIdent e = false)) (h7 : f.1 = true ∨ C.tolerant = true) :
    Means C Γ (.update (false, false) (.update op e false)) i o := by
  pre
  cases hs : Γ.strict
  · rcases h5 with ⟨h5, rfl⟩ | ⟨h5, rfl⟩ <;> ex
  · have := h6 hs
    rcases h5 with ⟨h5, rfl⟩ | ⟨h5, rfl⟩ <;> ex

theorem Means.unaryUpdate {Γ f e i o} (h1 : unaryOperator (head i) = none)
    (h2 : (Γ.await = true → head i ≠ .keyword .await)) (h3 : Ok C Γ (.update f e) i o) :
    Means C Γ (.unary f e) i o := by
  obtain ⟨h4, h5, h6, h7, h8, h9, h10⟩ := unary_none h1
  pre
  cases hs : Γ.await
  · ex
  · have := h2 hs
    ex

theorem Means.unaryOp {Γ t op f e i o} (h1 : unaryOperator t.item.token = some op)
    (h2 : Ok C Γ (.unary f e) i o)
    (h3 : (op = .delete → Γ.strict = true → isIdentExpr e = true → C.tolerant = true)) :
    Means C Γ (.unary (false, false) (.unary op e true)) (t :: i) o := by
  pre
  rcases unary_some h1 with h | h | h | h | h | h | h <;> obtain ⟨h1, rfl⟩ := h <;> ex

theorem Means.unaryAwait {Γ t f e i o} (h1 : Kw t .await) (h2 : Γ.await = true)
    (h3 : Ok C Γ (.unary f e) i o) :
    Means C Γ (.unary f (.await e)) (t :: i) o := by fw

theorem Means.expoOne {Γ f e i o} (h1 : Ok C Γ (.unary f e) i o) (h2 : head o ≠ .punct .exponent) :
    Means C Γ (.expo f e) i o := by fw

theorem Means.expo {Γ t f g l r i j o} (h1 : Ok C Γ (.unary f l) i (t :: j))
    (h2 : Is t .exponent) (h3 : Ok C Γ (.expo g r) j o) :
    Means C Γ (.expo (false, false) (.binary .powerOf l r)) i o := by fw

theorem Means.opStop {Γ o} (h1 : binPrecedence Γ.allowIn (head o) = 0) :
    Means C Γ (.opTail []) o o := by
  refine ⟨fun x l₀ st h => ⟨st, by simpa using h, fun f => by halt⟩, ?_⟩
  intro op y r h
  cases h

theorem Means.opMore {Γ op t f e l i j o} (h1 : t.item.token = op.token)
    (h2 : op ≠ .bin .powerOf) (h3 : (op = .bin .in → Γ.allowIn = true))
    (h4 : Ok C Γ (.expo f e) i j) (h5 : Ok C Γ (.opTail l) j o) :
    Means C Γ (.opTail ((op, e) :: l)) (t :: i) o := by
  refine ⟨fun x l₀ st h => ?_, ?_⟩
  · unpack
    have hl := Op.level_lt h2
    have hz : op.level ≠ 0 := by omega
    have hp := Op.precedence h2 h3
    obtain ⟨st', hh, hx⟩ := h.reduceWhile (C := C) (Γ := Γ) (i := t :: i) (Nat.le_of_lt hl.1)
    obtain ⟨top, rest, hs⟩ := hh.nonempty
    rw [hs] at hh
    have hn : Held x (l₀ ++ [(op, e)]) 12 (e :: st'.stack) (t.item.token :: st'.ops)
        (op.level :: st'.precs) := by
      rw [hs, h1]
      exact .push hh h2 .one (by simp) hl.1
    obtain ⟨st₂, h6, h7⟩ := h5.means.1 x _ ⟨_, _, _⟩ hn
    refine ⟨st₂, by simpa using h6, fun f => ?_⟩
    have hd : op.level = binPrecedence Γ.allowIn (head (t :: i)) := by rw [head_cons, h1, hp]
    rw [hd] at hx h7
    clear hd
    more
  · intro op' y r h
    cases h
    exact ⟨t, i, f, j, rfl, h1, h2, h3, h4.means, h5.means.1⟩

theorem Means.binOne {Γ f e i o} (h1 : Ok C Γ (.expo f e) i o) (h2 : binPrecedence Γ.allowIn
    (head o) = 0) :
    Means C Γ (.bin f e) i o := by fw

theorem Means.bin {Γ f x l e i j o} (h1 : Ok C Γ (.expo f x) i j) (h2 : Ok C Γ (.opTail l) j o)
    (h3 : l ≠ []) (h4 : Groups x l e) :
    Means C Γ (.bin (false, false) e) i o := by
  obtain ⟨⟨op, y⟩, r, rfl⟩ := List.exists_cons_of_ne_nil h3
  obtain ⟨t, i', f', k, rfl, g1, g2, g3, g4, g5⟩ := h2.means.2 _ _ _ rfl
  have hl := Op.level_lt g2
  have hz : op.level ≠ 0 := by omega
  have hp := Op.precedence g2 g3
  have hn : Held x [(op, y)] 12 [y, x] [op.token] [op.level] :=
    .push (l := []) (.one .one (by simp)) g2 .one (by simp) hl.1
  obtain ⟨st, h6, h7⟩ := g5 x _ ⟨_, _, _⟩ hn
  obtain ⟨top, rest, hs⟩ := h6.nonempty
  rw [hs] at h6
  obtain ⟨e', h8, h9⟩ := h6.reduceAll (C := C) (Γ := Γ) (i := o)
  obtain rfl := h4.unique h8
  have hd : op.level = binPrecedence Γ.allowIn (head (t :: i')) := by rw [head_cons, g1, hp]
  rw [hd, ← g1, ← head_cons (t := t) (o := i')] at h7
  clear hd
  unpack
  simp only [Means]
  apply Exec.to_bot
  ex

theorem Means.condOne {Γ f e i o} (h1 : Ok C Γ (.bin f e) i o)
    (h2 : head o ≠ .punct .questionMark) :
    Means C Γ (.cond f e) i o := by fw

theorem Means.cond {Γ t t' f g h e a b i j k o} (h1 : Ok C Γ (.bin f e) i (t :: j))
    (h2 : Is t .questionMark) (h3 : Ok C (Γ.within true) (.assign g a) j (t' :: k))
    (h4 : Is t' .colon) (h5 : Ok C Γ (.assign h b) k o) :
    Means C Γ (.cond (false, false) (.conditional e b a)) i o := by fw

theorem Means.arrowNone {Γ t t' o} (h1 : Is t .openParen) (h2 : Is t' .closeParen)
    (h3 : head o = .punct .fatArrow) :
    Means C Γ (.arrowHead []) (t :: t' :: o) o := by fw

theorem Means.arrowRest {Γ b p t t' t'' i o} (h1 : Is t .openParen) (h2 : Is t' .spread)
    (h3 : Ok C Γ (.pattern b p) i (t'' :: o)) (h4 : Is t'' .closeParen)
    (h5 : head o = .punct .fatArrow) :
    Means C Γ (.arrowHead [.pat (.restElement p)]) (t :: t' :: i) o := by fw

theorem Means.arrowOne {Γ f e t t' i o} (h1 : Is t .openParen)
    (h2 : Ok C Γ (.assign f e) i (t' :: o)) (h3 : Is t' .closeParen)
    (h4 : head o = .punct .fatArrow) (h5 : f.2 = true) (h6 : (∀ l, e ≠ .sequence l)) :
    Means C Γ (.arrowHead [.expr e]) (t :: i) o := by
  cases e <;> first | exact absurd rfl (h6 _) | fw

theorem Means.arrowMany {Γ f g e l t t' i j o} (h1 : Is t .openParen)
    (h2 : Ok C Γ (.assign f e) i j) (h3 : Ok C Γ (.seqTail g l) j (t' :: o)) (h4 : l ≠ [])
    (h5 : Is t' .closeParen) (h6 : head o = .punct .fatArrow) (h7 : (f.and g).2 = true) :
    Means C Γ (.arrowHead (.expr e :: l.map .expr)) (t :: i) o := by
  have := h3.core.seqComma h4
  obtain ⟨h8, h9⟩ : f.2 = true ∧ g.2 = true := by simpa [Flags.and] using h7
  fw

theorem Means.groupTrail {Γ t t' o} (h1 : Is t .comma) (h2 : Is t' .closeParen) :
    Means C Γ (.groupTail false []) (t :: t' :: o) o := by
  pre
  final

theorem Means.groupRest {Γ t t' t'' b p i o} (h1 : Is t .comma) (h2 : Is t' .spread)
    (h3 : Ok C Γ (.pattern b p) i (t'' :: o)) (h4 : Is t'' .closeParen) :
    Means C Γ (.groupTail true [.pat (.restElement p)]) (t :: t' :: i) o := by
  pre
  rename_i hb
  have hb := hb trivial
  final

theorem Means.groupMore {Γ r t f e l i j o} (h1 : Is t .comma) (h2 : Ok C Γ (.assign f e) i j)
    (h3 : r = true → f.2 = true) (h4 : Ok C Γ (.groupTail r l) j o) :
    Means C Γ (.groupTail r (.expr e :: l)) (t :: i) o := by
  have hm := fun f acc hb => h4.means f acc hb
  pre
  rename_i f' acc hb
  have hm := hm (f.and f') (acc ++ [e]) (fun h => by simp [Flags.and, h3 h, hb h])
  simp only [List.map_append, List.map_cons, List.map_nil, List.append_assoc, List.cons_append,
    List.nil_append] at hm
  more
  rw [Flags.and_top]
  exact hm

theorem Means.arrowGroup {Γ r t f e l i j o} (h1 : Is t .openParen)
    (h2 : Ok C Γ (.assign f e) i j) (h3 : r = true → f.2 = true)
    (h4 : Ok C Γ (.groupTail r l) j o) (h5 : head o = .punct .fatArrow) :
    Means C Γ (.arrowHead (.expr e :: l)) (t :: i) o := by
  have hm := h4.means f [e] h3
  have := h4.start
  fw

theorem Means.arrowBlock {Γ a l b t i o} (h1 : Is t .fatArrow)
    (h2 : Ok C (Γ.within true) (.body b) i o) :
    Means C Γ (.arrowBody a l (.arrowBlock l b false false a)) (t :: i) o := by fw

theorem Means.arrowExpr {Γ a l f e t i o} (h1 : Is t .fatArrow) (h2 : head i ≠ .punct .openBrace)
    (h3 : Ok C Γ (.assign f e) i o) :
    Means C Γ (.arrowBody a l (.arrowExpr l e true false a)) (t :: i) o := by fw

theorem Means.singleCond {Γ f e i o}
    (h1 : C.other t!"async" i ∨ head o ≠ .ident ∧ head o ≠ .keyword .yield)
    (h2 : head i ≠ .keyword .yield)
    (h3 : Ok C Γ (.cond f e) i o) (h4 : head o ≠ .punct .fatArrow) (h5 : isAssignOp
    (head o) = false) :
    Means C Γ (.single f e) i o := by
  have h6 := assign_ne h5
  clear h5
  rcases h1 with h1 | ⟨h1, h5⟩
  · obtain ⟨u, j, rfl, hu⟩ := other_split h1
    fw
  · obtain ⟨u, j, rfl⟩ := start_split h3.start.1
    pre
    apply Exec.here
    intro ht
    have hx : ∀ f a b, Exec C Γ f o (asyncParam full u.item a b e) e f o := fun f a b =>
      noAsyncParam ht h1 h5 a b
    ex

theorem Means.singleArrow {Γ t e i o}
    (h1 : t.item.token = .ident ∨ Γ.strict = false ∧ Kw t .let ∧ C.text t ≠ t!"async")
    (h3 : head i = .punct .fatArrow)
    (h4 : Ok C Γ (.arrowBody false [.expr (.ident (C.text t))] e) i o) :
    Means C Γ (.single (false, false) e) (t :: i) o := by
  have hp : Exec C (Γ.within true) .all (t :: i) (primary full) (.ident (C.text t)) .all i := by
    rcases h1 with h1 | ⟨h1, h2, -⟩ <;> ex
  have ht := through (C := C) (Γ := Γ) hp (h1.imp id fun h => .inr h.2.1) (.inl h3)
  have hc : ∀ f, Exec C Γ f i (coverFormals [.expr (.ident (C.text t))] false) _ f i :=
    fun f => coverFormals_plain rfl (by simp)
  have hb : ∀ f, Exec C Γ f i (arrowBody full [.expr (.ident (C.text t))] (isAsyncExpr (.ident (C.text t)))) e .none o :=
    h4.means
  pre
  apply Exec.here
  intro hok
  have hx : ∀ f a b e, Exec C Γ f i (asyncParam full t.item a b e) e f i := fun f a b e =>
    noAsyncParam hok (by simp [h3]) (by simp [h3]) a b
  rcases h1 with h1 | ⟨h1, h2, -⟩ <;> ex

theorem Means.singleArrows {Γ l e i j o} (h1 : C.other t!"async" i)
    (h2 : Ok C (Γ.within true) (.arrowHead l) i j) (h3 : l.all plainArg = true)
    (h4 : Ok C Γ (.arrowBody false l e) j o) :
    Means C Γ (.single (false, false) e) i o := by
  have ht := through (C := C) (Γ := Γ) h2.means (.inr (.inl h2.start.1)) (.inl h2.start.2)
  have hc : ∀ f, Exec C Γ f j (coverFormals l false) l f j := fun f =>
    coverFormals_plain h3 (by simp)
  have hb : ∀ f, Exec C Γ f j (arrowBody full l (isAsyncExpr (.arrowParamPlaceHolder l false))) e .none o :=
    h4.means
  obtain ⟨u, j, rfl, hu⟩ := other_split h1
  fw

theorem Means.asyncArrow {Γ t t' e i o} (h1 : t.item.token = .ident) (h2 : C.text t = t!"async")
    (h3 : t'.item.token = .ident) (h5 : C.text t' ≠ t!"await")
    (h6 : C.joined t t') (h7 : Ok C Γ (.arrowBody true [.pat (.identifier (C.text t'))] e) i o) :
    Means C Γ (.single (false, false) e) (t :: t' :: i) o := by
  have hi := h7.start.1
  have hp : Exec C (Γ.within true) .all (t :: t' :: i) (primary full) (.ident (C.text t)) .all
      (t' :: i) := by ex
  have hp' : ∀ f, Exec C Γ f (t' :: i) (primary full) (.ident (C.text t')) f i := by
    intro f; ex
  have ht := through (C := C) (Γ := Γ) hp (.inl h1) (.inr h3)
  have hc : ∀ f, Exec C Γ f i (coverFormals [.pat (.identifier (C.text t'))] true) _ f i :=
    fun f => coverFormals_plain rfl (by simp [isAwaitArg, h5])
  have hb : ∀ f, Exec C Γ f i (arrowBody full [.pat (.identifier (C.text t'))]
      (isAsyncExpr (.arrowParamPlaceHolder [.pat (.identifier (C.text t'))] true))) e .none o :=
    h7.means
  pre
  apply Exec.here
  intro hok
  have hl := h6.line hok h2
  have hlf := h6.1
  ex

theorem Means.asyncArrows {Γ t t' l e i j o} (h1 : t.item.token = .ident)
    (h2 : C.text t = t!"async") (h3 : C.joined t t')
    (h4 : Ok C (Γ.within true) (.args l) (t' :: i) j) (h5 : (l.map .expr).all plainArg = true)
    (h6 : l.all notAwait = true) (h7 : Ok C Γ (.arrowBody true (l.map .expr) e) j o) :
    Means C Γ (.single (false, false) e) (t :: t' :: i) o := by
  have hj := h7.start.1
  have ht := throughCall (asyncCall h1 h2 h3 h4 hj) (.inl h1) (.inl hj)
  have hc : ∀ f, Exec C Γ f j (coverFormals (l.map .expr) true) _ f j :=
    fun f => coverFormals_plain h5 (by
      rw [List.all_map]
      rw [List.all_eq_true] at h6 ⊢
      intro x hx
      have := h6 x hx
      cases x <;> simp_all [notAwait, isAwaitArg])
  have hb : ∀ f, Exec C Γ f j (arrowBody full (l.map .expr)
      (isAsyncExpr (.arrowParamPlaceHolder (l.map .expr) true))) e .none o :=
    h7.means
  pre
  apply Exec.here
  intro hok
  have hx : ∀ f a b e, Exec C Γ f j (asyncParam full t.item a b e) e f j := fun f a b e =>
    noAsyncParam hok (by simp [hj]) (by simp [hj]) a b
  ex

theorem Means.yieldNone {Γ t o} (h1 : Kw t .yield) (h2 : Γ.gen = true)
    (h3 : C.nl o = true ∨ head o ≠ .punct .asterisk ∧ yieldStart (head o) = false) :
    Means C Γ (.single (true, true) (.yield none false)) (t :: o) o := by
  pre
  cases hn : C.nl o
  · have h4 : head o ≠ .punct .asterisk ∧ yieldStart (head o) = false := by simpa [hn] using h3
    obtain ⟨h5, h6⟩ := h4
    have hd : ∀ f, Exec C Γ f o (withYield false (do
        if ← atPunct .asterisk then
          skipItem
          let arg ← full.assign
          return .yield (some arg) true
        else if ← isStartOfExpr then
          let arg ← full.assign
          return .yield (some arg) false
        else return .yield none false : P Expr)) (.yield none false) f o := by
      intro f
      refine Exec.withYield (y := true) ?_ (.inl rfl)
      ex
    ex
  · ex

theorem Means.yield {Γ t f e i o} (h1 : Kw t .yield) (h2 : Γ.gen = true) (h3 : C.nl i = false)
    (h4 : yieldStart (head i) = true) (h5 : Ok C (Γ.yielding true) (.single f e) i o) :
    Means C Γ (.single f (.yield (some e) false)) (t :: i) o := by fw

theorem Means.yieldAll {Γ t t' f e i o} (h1 : Kw t .yield) (h2 : Γ.gen = true) (h3 : t'.nl = false)
    (h4 : Is t' .asterisk) (h5 : Ok C (Γ.yielding true) (.single f e) i o) :
    Means C Γ (.single f (.yield (some e) true)) (t :: t' :: i) o := by fw

theorem Means.assignYield {Γ t f e i o} (h1 : Kw t .yield) (h2 : Γ.gen = true) (h3 : C.nl i = false)
    (h4 : yieldStart (head i) = true) (h5 : Ok C (Γ.yielding true) (.assign f e) i o) :
    Means C Γ (.assign f (.yield (some e) false)) (t :: i) o := by fw

theorem Means.assignYieldAll {Γ t t' f e i o} (h1 : Kw t .yield) (h2 : Γ.gen = true)
    (h3 : t'.nl = false) (h4 : Is t' .asterisk) (h5 : Ok C (Γ.yielding true) (.assign f e) i o) :
    Means C Γ (.assign f (.yield (some e) true)) (t :: t' :: i) o := by fw

theorem Means.assign {Γ f e i o} (h1 : Ok C Γ (.single f e) i o) :
    Means C Γ (.assign f e) i o := by fw

theorem Means.assignEq {Γ f g e r t i j o} (h2 : head i ≠ .keyword .yield) (h3 : Ok C Γ (.cond f e) i (t :: j))
    (h4 : f.1 = true ∨ C.tolerant = true) (h5 : Is t .assign)
    (h6 : (∀ n, e = .ident n → Γ.strict = true → isRestrictedWord n = false ∧ isStrictReservedWord
    n = false)) (h7 : Ok C Γ (.assign g r) j o) :
    Means C Γ (.assign f (.assignment .equal e r)) i o := by
  obtain ⟨u, j, rfl⟩ := start_split h3.start.1
  unpack
  intro f' hf
  apply Exec.here
  intro ht
  have ht1 : t.item.token ≠ .ident := by simp [show t.item.token = _ from h5]
  have ht2 : t.item.token ≠ .keyword .yield := by simp [show t.item.token = _ from h5]
  have hx : ∀ f i a b, Exec C Γ f (t :: i) (asyncParam full u.item a b e) e f (t :: i) :=
    fun f i a b => noAsyncParam (o := t :: i) ht ht1 ht2 a b
  have hc : ∀ {i}, Exec C Γ (f.and f') i (checkAssignTarget e) () (f.and f') i := checkTarget (by
    rcases h4 with h4 | h4 <;> rcases hf with hf | hf <;> simp [Flags.and, *]) h6
  simp only [head_cons] at *
  ex

theorem Means.assignOp {Γ f g e r t p op i j o} (h2 : head i ≠ .keyword .yield) (h3 : Ok C Γ (.cond f e) i (t :: j))
    (h4 : f.1 = true ∨ C.tolerant = true) (h5 : Is t p) (h6 : assignmentOperator p = some op)
    (h7 : (∀ n, e = .ident n → Γ.strict = true → isRestrictedWord n = false ∧ isStrictReservedWord
    n = false)) (h8 : Ok C Γ (.assign g r) j o) :
    Means C Γ (.assign (false, false) (.assignment op e r)) i o := by
  obtain ⟨u, j, rfl⟩ := start_split h3.start.1
  unpack
  intro f' hf
  apply Exec.here
  intro ht
  have ht1 : t.item.token ≠ .ident := by simp [show t.item.token = _ from h5]
  have ht2 : t.item.token ≠ .keyword .yield := by simp [show t.item.token = _ from h5]
  have hx : ∀ f i a b, Exec C Γ f (t :: i) (asyncParam full u.item a b e) e f (t :: i) :=
    fun f i a b => noAsyncParam (o := t :: i) ht ht1 ht2 a b
  have hc : ∀ {i}, Exec C Γ (f.and f') i (checkAssignTarget e) () (f.and f') i := checkTarget (by
    rcases h4 with h4 | h4 <;> rcases hf with hf | hf <;> simp [Flags.and, *]) h7
  simp only [head_cons] at *
  cases p <;> simp [assignmentOperator] at h6 <;> subst h6 <;> apply Exec.to_bot <;> ex

theorem Means.seqStop {Γ o} (h1 : head o ≠ .punct .comma) :
    Means C Γ (.seqTail (true, true) []) o o := by
  refine ⟨?_, ?_, ?_⟩ <;> intro f acc
  · cases he : (head o).isEof <;> halt
  · cases he : (head o).isEof <;> halt
  · apply Exec.to_bot
    halt

theorem Means.seqMore {Γ f g e l t i j o} (h1 : Is t .comma) (h2 : Ok C Γ (.assign f e) i j)
    (h3 : Ok C Γ (.seqTail g l) j o) :
    Means C Γ (.seqTail (f.and g) (e :: l)) (t :: i) o := by
  unpack
  refine ⟨?_, ?_, ?_⟩ <;> intro f' acc
  · more
  · more
  · apply Exec.to_bot
    more

theorem Means.expression {Γ f e i o} (h1 : Ok C Γ (.assign f e) i o) (h2 : head o ≠ .punct .comma) :
    Means C Γ (.expression e) i o := by fw

theorem Means.sequence {Γ f g e l i j o} (h1 : Ok C Γ (.assign f e) i j)
    (h2 : Ok C Γ (.seqTail g l) j o) (h3 : l ≠ []) :
    Means C Γ (.expression (.sequence (e :: l))) i o := by
  have := h2.core.seqComma h3
  fw

end Ressa.Gr
