import Verif.Proof.Closed

/-!
# Unreachable arms

`unreachable!()`, the index panic and the operator conversion errors of the source are guarded by
a test on the look-ahead token.  Each function containing one equals a variant without it.
-/

namespace Ressa

/-! ## Running computations -/

section
variable {α β : Type}

theorem bind_def (m : P α) (f : α → P β) (s : St) :
    (m >>= f) s = match m s with
      | .ok a s' => f a s'
      | .err e s' => .err e s'
      | .panic => .panic
      | .diverge => .diverge := rfl

theorem bind_ok {m : P α} {f : α → P β} {s s' a} (h : m s = .ok a s') : (m >>= f) s = f a s' := by
  rw [bind_def, h]

theorem bind_eq_ok {m : P α} {f : α → P β} {s s'' b} :
    (m >>= f) s = .ok b s'' ↔ ∃ a s', m s = .ok a s' ∧ f a s' = .ok b s'' := by
  rw [bind_def]
  cases h : m s with
  | ok a s' =>
    simp only [Res.ok.injEq]
    constructor
    · intro h; exact ⟨_, _, ⟨rfl, rfl⟩, h⟩
    · rintro ⟨_, _, ⟨rfl, rfl⟩, h⟩; exact h
  | _ => simp

theorem bind_eq_err {m : P α} {f : α → P β} {s s'' e} :
    (m >>= f) s = .err e s'' ↔
      m s = .err e s'' ∨ ∃ a s', m s = .ok a s' ∧ f a s' = .err e s'' := by
  rw [bind_def]
  cases h : m s with
  | ok a s' =>
    simp only [Res.ok.injEq, reduceCtorEq, false_or]
    constructor
    · intro h; exact ⟨_, _, ⟨rfl, rfl⟩, h⟩
    · rintro ⟨_, _, ⟨rfl, rfl⟩, h⟩; exact h
  | _ => simp

theorem bind_eq_panic {m : P α} {f : α → P β} {s} :
    (m >>= f) s = .panic ↔ m s = .panic ∨ ∃ a s', m s = .ok a s' ∧ f a s' = .panic := by
  rw [bind_def]
  cases h : m s with
  | ok a s' =>
    simp only [Res.ok.injEq, reduceCtorEq, false_or]
    constructor
    · intro h; exact ⟨_, _, ⟨rfl, rfl⟩, h⟩
    · rintro ⟨_, _, ⟨rfl, rfl⟩, h⟩; exact h
  | _ => simp

theorem bind_eq_diverge {m : P α} {f : α → P β} {s} :
    (m >>= f) s = .diverge ↔ m s = .diverge ∨ ∃ a s', m s = .ok a s' ∧ f a s' = .diverge := by
  rw [bind_def]
  cases h : m s with
  | ok a s' =>
    simp only [Res.ok.injEq, reduceCtorEq, false_or]
    constructor
    · intro h; exact ⟨_, _, ⟨rfl, rfl⟩, h⟩
    · rintro ⟨_, _, ⟨rfl, rfl⟩, h⟩; exact h
  | _ => simp

theorem ite_run {p : Prop} [Decidable p] (a b : P α) (s : St) :
    (if p then a else b : P α) s = if p then a s else b s := by split <;> rfl
@[simp] theorem pure_run (a : α) (s : St) : (pure a : P α) s = .ok a s := rfl
@[simp] theorem get_bind (f : St → α) (k : α → P β) (s : St) : (P.get f >>= k) s = k (f s) s := rfl
@[simp] theorem get_run (f : St → α) (s : St) : P.get f s = .ok (f s) s := rfl
@[simp] theorem lookIs_bind (f) (k : Bool → P β) (s : St) :
    (lookIs f >>= k) s = k (f s.look.token) s := rfl
@[simp] theorem atPunct_bind (p) (k : Bool → P β) (s : St) :
    (atPunct p >>= k) s = k (s.look.token.matchesPunct p) s := rfl
@[simp] theorem atKeyword_bind (p) (k : Bool → P β) (s : St) :
    (atKeyword p >>= k) s = k (s.look.token.matchesKeyword p) s := rfl
@[simp] theorem readC_bind (f : Ctx → α) (k : α → P β) (s : St) :
    (readC f >>= k) s = k (f s.ctx) s := rfl
@[simp] theorem look_bind (k : Item → P β) (s : St) : (look >>= k) s = k s.look s := rfl
@[simp] theorem lookTok_bind (k : Token → P β) (s : St) :
    (lookTok >>= k) s = k s.look.token s := rfl
@[simp] theorem lookPrecedence_bind (k : Nat → P β) (s : St) :
    (lookPrecedence >>= k) s = k (binPrecedence s.ctx.allowIn s.look.token) s := rfl
theorem modC_bind (f : Ctx → Ctx) (k : Unit → P β) (s : St) :
    (P.modC f >>= k) s = k () { s with ctx := f s.ctx } := rfl

theorem pure_bind' (a : α) (k : α → P β) : (pure a >>= k : P β) = k a := rfl

theorem bind_assoc' {γ : Type} (m : P α) (f : α → P β) (g : β → P γ) :
    (m >>= f) >>= g = m >>= fun a => f a >>= g := by
  funext s
  simp only [bind_def]
  cases m s <;> rfl

theorem bind_congr' {m : P α} {f f' : α → P β} {s}
    (h : ∀ a s', m s = .ok a s' → f a s' = f' a s') : (m >>= f) s = (m >>= f') s := by
  simp only [bind_def]
  cases hm : m s with
  | ok a s' => exact h a s' hm
  | _ => rfl

end

/-! ## `nextItem` returns the look-ahead -/

theorem nextItemGo_look {ts : List Tok} : ∀ {span s i s'}, nextItemGo span ts s = .ok i s' →
    i = s.look := by
  induction ts with
  | nil =>
    intro span s i s' h
    simp only [nextItemGo] at h
    split at h
    · split at h <;> simp_all
    · simp at h
  | cons t ts ih =>
    intro span s i s' h
    simp only [nextItemGo] at h
    split at h
    · simp at h
    · split at h
      · split at h
        · simp at h
        · have := ih h; simpa using this
      · simp_all

theorem nextItem_look {s i s'} (h : nextItem s = .ok i s') : i = s.look := nextItemGo_look h

theorem nextItem_bind_congr {β} {k k' : Item → P β} {s} (h : k s.look = k' s.look) :
    (nextItem >>= k) s = (nextItem >>= k') s :=
  bind_congr' fun _ _ hs => by rw [nextItem_look hs, h]

/-! ## Loops -/

theorem loopN_congr {σ α : Type} {test : σ → P (Option α)} {body body' : σ → P (σ ⊕ α)}
    (I : σ → Prop)
    (h : ∀ x s s', I x → test x s = .ok none s' → body x s' = body' x s' ∧
      ∀ x' s'', body x s' = .ok (.inl x') s'' → I x') :
    ∀ n x s, I x → loopN n test body x s = loopN n test body' x s := by
  intro n
  induction n with
  | zero => intros; rfl
  | succ n ih =>
    intro x s hx
    simp only [loopN]
    apply bind_congr'
    intro o s' ho
    cases o with
    | some a => rfl
    | none =>
      obtain ⟨h1, h2⟩ := h x s s' hx ho
      simp only [bind_def]
      rw [← h1]
      cases hb : body x s' with
      | ok r s'' =>
        cases r with
        | inl x' => exact ih x' s'' (h2 x' s'' hb)
        | inr a => rfl
      | _ => rfl

theorem loopN_post {σ α : Type} {test : σ → P (Option α)} {body : σ → P (σ ⊕ α)}
    (I : σ → Prop) (Q : α → Prop)
    (ht : ∀ x s s' a, I x → test x s = .ok (some a) s' → Q a)
    (h : ∀ x s s', I x → test x s = .ok none s' →
      (∀ x' s'', body x s' = .ok (.inl x') s'' → I x') ∧
      (∀ a s'', body x s' = .ok (.inr a) s'' → Q a)) :
    ∀ n x s a s', I x → loopN n test body x s = .ok a s' → Q a := by
  intro n
  induction n with
  | zero => intro x s a s' _ h; simp [loopN] at h
  | succ n ih =>
    intro x s a s' hx hr
    simp only [loopN] at hr
    rw [bind_eq_ok] at hr
    obtain ⟨o, s1, ho, hr⟩ := hr
    cases o with
    | some b =>
      have : b = a ∧ s1 = s' := by simpa using hr
      exact this.1 ▸ ht x s s1 b hx ho
    | none =>
      simp only [bind_eq_ok] at hr
      obtain ⟨r, s2, hb, hr⟩ := hr
      cases r with
      | inl x' => exact ih x' s2 a s' ((h x s s1 hx ho).1 x' s2 hb) hr
      | inr b =>
        have : b = a ∧ s2 = s' := by simpa using hr
        exact this.1 ▸ (h x s s1 hx ho).2 b s2 hb

/-! ## Literals -/

/-- `numberOrString` without the unreachable arm. -/
def numberOrString' : P Expr := do
  notTarget
  let item ← nextItem
  match item.token with
  | .numeric => return .literal (.number (← stringForOrEmpty item))
  | .string => return .literal (.string (← stringForOrEmpty item))
  | _ => expectedLook []

/-- `booleanLiteral` without the unreachable arm. -/
def booleanLiteral' : P Expr := do
  notTarget
  let item ← nextItem
  match item.token with
  | .boolean b => return .literal (.boolean b)
  | _ => expectedLook []

theorem numberOrString_eq {s : St} (h : s.look.token.isNumber || s.look.token.isString) :
    numberOrString s = numberOrString' s := by
  refine nextItem_bind_congr (s := { s with ctx := _ }) ?_
  revert h
  simp only
  cases s.look.token <;> simp [Token.isNumber, Token.isString]

theorem booleanLiteral_eq {s : St} (h : s.look.token.isBool) :
    booleanLiteral s = booleanLiteral' s := by
  refine nextItem_bind_congr (s := { s with ctx := _ }) ?_
  revert h
  simp only
  cases s.look.token <;> simp [Token.isBool]

theorem regexLiteral_eq {s : St} (h : s.look.token.isRegex) :
    regexLiteral s = regexLiteral' s := by
  refine nextItem_bind_congr (s := { s with ctx := _ }) ?_
  revert h
  simp only
  cases s.look.token <;> simp [Token.isRegex] <;> rfl

/-- `primaryIdent` without the check that never fires. -/
def primaryIdent' (R : Rec) : P Expr := do
  if ← atAsyncFunction then functionExpr R
  else
    let ident ← nextItem
    return .ident (← getString ident)

theorem primaryIdent_eq {R : Rec} {s : St} (h : s.look.token.isIdent) :
    primaryIdent R s = primaryIdent' R s := by
  have : P.when (P.and (P.or readModule (readC (·.await))) (atKeyword .await))
      (ifNotTolerant (unexpectedLook
        t!"Modules do not allow 'await' to be used as an identifier")) s = .ok () s := by
    have hk : atKeyword .await s = .ok false s := by
      revert h
      simp only [atKeyword, lookIs, P.get]
      cases s.look.token <;> simp [Token.isIdent, Token.matchesKeyword]
    have : P.and (P.or readModule (readC (·.await))) (atKeyword .await) s = .ok false s := by
      simp only [P.and, P.or, readModule, readC, bind_def, P.get]
      cases s.isModule
      · cases ha : s.ctx.await
        · simp [ha]
        · simp [ha, hk]
      · simp only [if_true]; exact hk
    rw [P.when, bind_def, this]
    rfl
  unfold primaryIdent primaryIdent'
  rw [bind_def, this]

/-- `primary` without the unreachable arms. -/
def primary' (R : Rec) : P Expr := do
  if ← lookIs (·.isIdent) then primaryIdent' R
  else if ← lookIs (fun t => t.isNumber || t.isString) then numberOrString'
  else if ← lookIs (·.isBool) then booleanLiteral'
  else if ← lookIs (·.isTemplate) then
    let (es, qs) ← templateLiteral R
    return .template es qs
  else if ← lookIs (·.isPunct) then primaryPunct R
  else if ← lookIs (·.isRegex) then regexLiteral'
  else if ← lookIs (·.isKeyword) then primaryKeyword R
  else
    expectedLook (words [t!"[identifier]", t!"async", t!"[Number]", t!"[String]", t!"[RegEx]",
      t!"yield", t!"let", t!"function", t!"this", t!"class", t!"import"])

theorem primary_eq (R : Rec) : primary R = primary' R := by
  funext s
  simp only [primary, primary', lookIs_bind]
  split
  · next h => exact primaryIdent_eq h
  · simp only [lookIs_bind]
    split
    · next h => exact numberOrString_eq h
    · simp only [lookIs_bind]
      split
      · next h => exact booleanLiteral_eq h
      · simp only [lookIs_bind]
        split
        · rfl
        · simp only [lookIs_bind]
          split
          · rfl
          · simp only [lookIs_bind]
            split
            · next h => exact regexLiteral_eq h
            · rfl

/-! ## Updates and prefix operators -/

/-- `prefixUpdate` without the unreachable arm. -/
def prefixUpdate' (R : Rec) : P Expr := do
  let op ← nextItem
  let operator ← (match op.token with
    | .punct .increment => pure .increment
    | .punct .decrement => pure .decrement
    | _ => expectedLook [] : P UpdateOperator)
  let start ← look
  let ex ← inherited R.unary
  P.when (readC (fun c => c.strict && isRestrictedIdent ex))
    (ifNotTolerant (unexpectedTokenError start t!"restricted ident"))
  P.when (readC (fun c => !c.isAssignmentTarget))
    (ifNotTolerant (unexpectedTokenError op t!"Cannot increment when not at assignment target"))
  notTarget
  return .update operator ex true

/-- `updateExpr` without the unreachable arm. -/
def updateExpr' (R : Rec) : P Expr := do
  let start ← look
  if ← P.or (atPunct .increment) (atPunct .decrement) then prefixUpdate' R
  else
    let expr ← inherited (lhsAllowCall R)
    if ← P.and (readC (fun c => !c.hasLineTerm)) (P.or (atPunct .increment) (atPunct .decrement))
    then postfixUpdate start expr
    else pure expr

theorem or_at_bind {β} (p q : Punct) (k : Bool → P β) (s : St) :
    (P.or (atPunct p) (atPunct q) >>= k) s
      = k (s.look.token.matchesPunct p || s.look.token.matchesPunct q) s := by
  simp only [P.or, bind_def, atPunct, lookIs, P.get]
  cases s.look.token.matchesPunct p <;> rfl

theorem updateExpr_eq (R : Rec) : updateExpr R = updateExpr' R := by
  funext s
  simp only [updateExpr, updateExpr', look_bind, or_at_bind]
  split
  · next h =>
    refine nextItem_bind_congr ?_
    simp only [Bool.or_eq_true, Token.matchesPunct, beq_iff_eq] at h
    rcases h with h | h <;> simp only [h]
  · rfl

/-- `unaryOp` without the unreachable error. -/
def unaryOp' (t : Token) : P UnaryOperator :=
  match unaryOperator t with
  | some op => pure op
  | none => expectedLook []

/-- `prefixUnary` without the unreachable error. -/
def prefixUnary' (R : Rec) : P Expr := do
  let op ← nextItem
  let arg ← inherited R.unary
  P.when (readC (fun c => op.token.matchesKeyword .delete && c.strict && isIdentExpr arg))
    (ifNotTolerant (unexpectedTokenError op t!"Cannot delete ident in strict mode"))
  notTarget
  let operator ← unaryOp' op.token
  return .unary operator arg true

/-- `unaryExpr` without the unreachable error. -/
def unaryExpr' (R : Rec) : P Expr := do
  if ← lookIs (fun t => t.matchesPunct .plus || t.matchesPunct .minus ||
      t.matchesPunct .bitwiseNot || t.matchesPunct .not || t.matchesKeyword .delete ||
      t.matchesKeyword .void || t.matchesKeyword .typeOf) then prefixUnary' R
  else if ← P.and (readC (·.await)) (atKeyword .await) then awaitExpr R
  else updateExpr R

theorem unaryExpr_eq (R : Rec) : unaryExpr R = unaryExpr' R := by
  funext s
  simp only [unaryExpr, unaryExpr', lookIs_bind]
  split
  · next h =>
    refine nextItem_bind_congr ?_
    simp only [Bool.or_eq_true, Token.matchesPunct, Token.matchesKeyword, beq_iff_eq] at h
    rcases h with (((((h | h) | h) | h) | h) | h) | h <;>
      simp only [h, unaryOp, unaryOp', unaryOperator]
  · rfl

/-! ## Binary operators -/

/-- `mkBinary` without the unreachable errors. -/
def mkBinary' (op : Token) (left right : Expr) : P Expr :=
  if op.matchesPunct .logicalAnd || op.matchesPunct .logicalOr then
    match logicalOperator op with
    | some o => pure (.logical o left right)
    | none => expectedLook []
  else
    match binaryOperator op with
    | some o => pure (.binary o left right)
    | none => expectedLook []

/-- `reduceWhile` without the unreachable panic. -/
def reduceWhile' (prec : Nat) : List Token → List Expr → List Nat → P BinStack
  | op :: ops, right :: left :: stack, precs =>
    match precs with
    | [] => expectedLook []
    | p :: ps =>
      if prec ≤ p then do
        let e ← mkBinary' op left right
        reduceWhile' prec ops (e :: stack) ps
      else pure ⟨right :: left :: stack, op :: ops, p :: ps⟩
  | ops, stack, precs => pure ⟨stack, ops, precs⟩

/-- `reduceAll` without the unreachable errors. -/
def reduceAll' : List Token → List Expr → Expr → P Expr
  | op :: ops, left :: stack, current => do
    let e ← mkBinary' op left current
    reduceAll' ops stack e
  | _, _, current => pure current

/-- `binaryExpr` without the unreachable arms. -/
def binaryExpr' (R : Rec) : P Expr := do
  let current ← inherited (expoExpr R)
  let tok ← lookTok
  let prec ← lookPrecedence
  if prec > 0 then
    skipItem
    notTarget
    let right ← isolated (expoExpr R)
    let st ← loopP
      (fun (st : BinStack) => do
        if (← lookPrecedence) = 0 then pure (some st) else pure none)
      (fun st => do
        let prec ← lookPrecedence
        let st ← reduceWhile' prec st.ops st.stack st.precs
        let op ← nextItem
        let exp ← isolated (expoExpr R)
        return .inl ⟨exp :: st.stack, op.token :: st.ops, prec :: st.precs⟩)
      ⟨[right, current], [tok], [prec]⟩
    match st.stack with
    | [] => expectedLook []
    | top :: stack => reduceAll' st.ops stack top
  else pure current

/-- The node built for an operator token. -/
def binNode (op : Token) (l r : Expr) : Option Expr :=
  match logicalOperator op with
  | some o => some (.logical o l r)
  | none => (binaryOperator op).map (.binary · l r)

/-- Tokens that are binary operators in some context. -/
def IsBinOp (t : Token) : Prop := ∃ a, binPrecedence a t ≠ 0

theorem binNode_isSome {op : Token} (h : IsBinOp op) (l r : Expr) :
    ∃ e, binNode op l r = some e := by
  obtain ⟨a, h⟩ := h
  revert h
  cases op with
  | punct p => cases p <;> simp [binPrecedence, determinePrecedence, binNode, logicalOperator,
      binaryOperator]
  | keyword k => cases k <;> simp [binPrecedence, binNode, logicalOperator, binaryOperator]
  | _ => simp [binPrecedence]

theorem mkBinary_eq {op : Token} {l r e : Expr} (h : binNode op l r = some e) :
    mkBinary op l r = pure e ∧ mkBinary' op l r = pure e := by
  unfold mkBinary mkBinary'
  unfold binNode at h
  cases hl : logicalOperator op with
  | some o =>
    rw [hl] at h
    simp only [Option.some.injEq] at h
    have : op = .punct .logicalAnd ∨ op = .punct .logicalOr := by
      revert hl; unfold logicalOperator; split <;> simp_all
    rcases this with rfl | rfl <;> simp [Token.matchesPunct, h]
  | none =>
    have h1 : ¬ (op = .punct .logicalAnd) := by rintro rfl; simp [logicalOperator] at hl
    have h2 : ¬ (op = .punct .logicalOr) := by rintro rfl; simp [logicalOperator] at hl
    rw [hl] at h
    cases hb : binaryOperator op with
    | none => simp [hb] at h
    | some o => simp_all [Token.matchesPunct]

/-- The invariant of the operator stacks. -/
def BinStack.Inv (st : BinStack) : Prop :=
  (∀ t ∈ st.ops, IsBinOp t) ∧ st.precs.length = st.ops.length ∧
    st.stack.length = st.ops.length + 1

theorem reduceWhile_eq (prec : Nat) : ∀ (ops : List Token) (stack : List Expr) (precs : List Nat),
    (BinStack.mk stack ops precs).Inv →
    ∃ st : BinStack, st.Inv ∧ reduceWhile prec ops stack precs = pure st ∧
      reduceWhile' prec ops stack precs = pure st
  | [], stack, precs, h => ⟨⟨stack, [], precs⟩, h, by simp [reduceWhile], by simp [reduceWhile']⟩
  | op :: ops, [], _, h => by simp [BinStack.Inv] at h
  | op :: ops, [_], _, h => by simp [BinStack.Inv] at h
  | op :: ops, right :: left :: stack, [], h => by simp [BinStack.Inv] at h
  | op :: ops, right :: left :: stack, p :: ps, h => by
    by_cases hp : prec ≤ p
    · obtain ⟨e, he⟩ := binNode_isSome (h.1 op (by simp)) left right
      obtain ⟨h1, h2⟩ := mkBinary_eq he
      have hi : (BinStack.mk (e :: stack) ops ps).Inv := by
        refine ⟨fun t ht => h.1 t (by simp [ht]), ?_, ?_⟩
        · have := h.2.1; simpa using this
        · have := h.2.2; simpa using this
      obtain ⟨st, hst, e1, e2⟩ := reduceWhile_eq prec ops (e :: stack) ps hi
      refine ⟨st, hst, ?_, ?_⟩
      · simp only [reduceWhile, if_pos hp, h1]; exact e1
      · simp only [reduceWhile', if_pos hp, h2]; exact e2
    · exact ⟨_, h, by simp [reduceWhile, hp], by simp [reduceWhile', hp]⟩

theorem reduceAll_eq : ∀ (ops : List Token) (stack : List Expr) (cur : Expr),
    (∀ t ∈ ops, IsBinOp t) →
    ∃ e, reduceAll ops stack cur = pure e ∧ reduceAll' ops stack cur = pure e
  | [], stack, cur, _ => ⟨cur, by simp [reduceAll], by simp [reduceAll']⟩
  | op :: ops, [], cur, _ => ⟨cur, by simp [reduceAll], by simp [reduceAll']⟩
  | op :: ops, left :: stack, cur, h => by
    obtain ⟨e, he⟩ := binNode_isSome (h op (by simp)) left cur
    obtain ⟨h1, h2⟩ := mkBinary_eq he
    obtain ⟨r, e1, e2⟩ := reduceAll_eq ops stack e (fun t ht => h t (by simp [ht]))
    refine ⟨r, ?_, ?_⟩
    · simp only [reduceAll, h1]; exact e1
    · simp only [reduceAll', h2]; exact e2

theorem binaryExpr_eq (R : Rec) : binaryExpr R = binaryExpr' R := by
  funext s
  unfold binaryExpr binaryExpr'
  apply bind_congr'
  intro current s1 _
  simp only [lookTok_bind, lookPrecedence_bind]
  split
  · next hprec =>
    apply bind_congr'
    intro _ s2 _
    apply bind_congr'
    intro _ s3 _
    apply bind_congr'
    intro right s4 _
    have hinv : (BinStack.mk [right, current] [s1.look.token]
        [binPrecedence s1.ctx.allowIn s1.look.token]).Inv := by
      refine ⟨?_, rfl, rfl⟩
      intro t ht
      rw [List.mem_singleton.mp ht]
      exact ⟨_, Nat.pos_iff_ne_zero.mp hprec⟩
    have key : ∀ (x : BinStack) (s s' : St), x.Inv →
        (do if (← lookPrecedence) = 0 then pure (some x) else pure none : P (Option BinStack)) s
          = .ok none s' → s = s' ∧ IsBinOp s'.look.token := by
      intro x s s' _ ht
      simp only [lookPrecedence_bind] at ht
      split at ht
      · simp at ht
      · next h0 => simp at ht; exact ⟨ht, _, ht ▸ h0⟩
    rw [bind_def, bind_def]
    have hl : ∀ n s, loopN n
        (fun (st : BinStack) => do
          if (← lookPrecedence) = 0 then pure (some st) else pure none)
        (fun st => do
          let prec ← lookPrecedence
          let st ← reduceWhile prec st.ops st.stack st.precs
          let op ← nextItem
          let exp ← isolated (expoExpr R)
          return .inl ⟨exp :: st.stack, op.token :: st.ops, prec :: st.precs⟩)
        ⟨[right, current], [s1.look.token], [binPrecedence s1.ctx.allowIn s1.look.token]⟩ s =
      loopN n
        (fun (st : BinStack) => do
          if (← lookPrecedence) = 0 then pure (some st) else pure none)
        (fun st => do
          let prec ← lookPrecedence
          let st ← reduceWhile' prec st.ops st.stack st.precs
          let op ← nextItem
          let exp ← isolated (expoExpr R)
          return .inl ⟨exp :: st.stack, op.token :: st.ops, prec :: st.precs⟩)
        ⟨[right, current], [s1.look.token], [binPrecedence s1.ctx.allowIn s1.look.token]⟩ s := by
      intro n s
      refine loopN_congr BinStack.Inv ?_ n _ s hinv
      intro x s s' hx ht
      obtain ⟨rfl, hop⟩ := key x s s' hx ht
      obtain ⟨st, hst, e1, e2⟩ := reduceWhile_eq (binPrecedence s.ctx.allowIn s.look.token)
        x.ops x.stack x.precs hx
      simp only [lookPrecedence_bind, e1, e2, pure_bind']
      refine ⟨trivial, ?_⟩
      intro x' s'' hb
      simp only [bind_eq_ok] at hb
      obtain ⟨op, s5, hn, exp, s6, _, hr⟩ := hb
      simp only [pure_run, Res.ok.injEq, Sum.inl.injEq] at hr
      rw [← hr.1]
      have := nextItem_look hn
      refine ⟨?_, ?_, ?_⟩
      · intro t ht
        rcases List.mem_cons.mp ht with rfl | ht
        · rw [this]; exact hop
        · exact hst.1 t ht
      · simp [hst.2.1]
      · simp [hst.2.2]
    have hpost : ∀ n s a s', loopN n
        (fun (st : BinStack) => do
          if (← lookPrecedence) = 0 then pure (some st) else pure none)
        (fun st => do
          let prec ← lookPrecedence
          let st ← reduceWhile prec st.ops st.stack st.precs
          let op ← nextItem
          let exp ← isolated (expoExpr R)
          return .inl ⟨exp :: st.stack, op.token :: st.ops, prec :: st.precs⟩)
        ⟨[right, current], [s1.look.token], [binPrecedence s1.ctx.allowIn s1.look.token]⟩ s
          = .ok a s' → a.Inv := by
      intro n s a s' h
      refine loopN_post BinStack.Inv BinStack.Inv ?_ ?_ n _ s a s' hinv h
      · intro x s s' a hx ht
        simp only [lookPrecedence_bind] at ht
        split at ht
        · simp at ht; exact ht.1 ▸ hx
        · simp at ht
      · intro x s s' hx ht
        obtain ⟨rfl, hop⟩ := key x s s' hx ht
        obtain ⟨st, hst, e1, e2⟩ := reduceWhile_eq (binPrecedence s.ctx.allowIn s.look.token)
          x.ops x.stack x.precs hx
        simp only [lookPrecedence_bind, e1, pure_bind']
        constructor
        · intro x' s'' hb
          simp only [bind_eq_ok] at hb
          obtain ⟨op, s5, hn, exp, s6, _, hr⟩ := hb
          simp only [pure_run, Res.ok.injEq, Sum.inl.injEq] at hr
          rw [← hr.1]
          have := nextItem_look hn
          refine ⟨?_, ?_, ?_⟩
          · intro t ht
            rcases List.mem_cons.mp ht with rfl | ht
            · rw [this]; exact hop
            · exact hst.1 t ht
          · simp [hst.2.1]
          · simp [hst.2.2]
        · intro a s'' hb
          simp only [bind_eq_ok] at hb
          obtain ⟨op, s5, hn, exp, s6, _, hr⟩ := hb
          simp at hr
    unfold loopP
    rw [← hl]
    cases hr : loopN (mu s4 + 1) _ _ _ s4 with
    | ok st s5 =>
      have hst := hpost _ _ _ _ hr
      simp only
      obtain ⟨stack, ops, precs⟩ := st
      cases stack with
      | nil => simp [BinStack.Inv] at hst
      | cons top stack =>
        obtain ⟨e, e1, e2⟩ := reduceAll_eq ops stack top hst.1
        simp only [e1, e2]
    | _ => rfl
  · rfl

/-! ## `for` -/

/-- `forLexicalKind` without the unreachable arm. -/
def forLexicalKind' (item : Item) : P VariableKind :=
  match item.token with
  | .keyword .const => pure .const
  | .keyword .let => pure .let
  | _ => expectedTokenError item (words [t!"const", t!"let"])

/-- `forLexical` without the unreachable arm. -/
def forLexical' (R : Rec) (isAwait : Bool) : P Stmt := do
  let item ← nextItem
  let kind ← forLexicalKind' item
  if ← P.and (readC (fun c => !c.strict)) (atKeyword .in) then
    forInLoop R (.expr (.ident (kindName kind)))
  else
    let decls ← withAllowIn false (bindingList R kind true)
    match decls with
    | [decl] =>
      if ← P.and (pure (noInit decl)) (atKeyword .in) then forInLoop R (.variable kind decl)
      else if ← P.and (pure (noInit decl)) (atContextual t!"of") then
        forOfLoop R (.variable kind decl) isAwait
      else forLoopCont R (some (.variable kind [decl]))
    | decls => forLoopCont R (some (.variable kind decls))

/-- `forStmt` without the unreachable arm. -/
def forStmt' (R : Rec) : P Stmt := do
  expectKeyword .for
  let isAwait ← (do
    if ← atKeyword .await then
      skipItem
      pure true
    else pure false : P Bool)
  expectPunct .openParen
  if ← atPunct .semiColon then forLoop R .var
  else if ← atKeyword .var then forVar R isAwait
  else if ← P.or (atKeyword .const) (atKeyword .let) then forLexical' R isAwait
  else forExpr R isAwait

theorem or_atKeyword_bind {β} (p q : Keyword) (k : Bool → P β) (s : St) :
    (P.or (atKeyword p) (atKeyword q) >>= k) s
      = k (s.look.token.matchesKeyword p || s.look.token.matchesKeyword q) s := by
  simp only [P.or, bind_def, atKeyword, lookIs, P.get]
  cases s.look.token.matchesKeyword p <;> rfl

theorem forStmt_eq (R : Rec) : forStmt R = forStmt' R := by
  funext s
  unfold forStmt forStmt'
  apply bind_congr'
  intro _ s1 _
  apply bind_congr'
  intro isAwait s2 _
  apply bind_congr'
  intro _ s3 _
  simp only [atPunct_bind]
  split
  · rfl
  · simp only [atKeyword_bind]
    split
    · rfl
    · simp only [or_atKeyword_bind]
      split
      · next h =>
        refine nextItem_bind_congr ?_
        simp only [Bool.or_eq_true, Token.matchesKeyword, beq_iff_eq] at h
        rcases h with h | h <;> simp only [h, forLexicalKind, forLexicalKind'] <;> rfl
      · rfl

end Ressa
