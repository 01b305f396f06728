import Verif.Spec.Grammar

/-!
# Operands joined by operators

What it means for a tree to group a sequence of operands and binary operators by binding
strength, equal strengths from left to right, and to group a chain of `**` from right to left.
-/

namespace Ressa.Gr

/-- How an operator is written. -/
def Op.token : Op → Token
  | .log .or => .punct .logicalOr
  | .log .and => .punct .logicalAnd
  | .bin .or => .punct .pipe
  | .bin .xOr => .punct .caret
  | .bin .and => .punct .and
  | .bin .equal => .punct .equal
  | .bin .notEqual => .punct .notEqual
  | .bin .strictEqual => .punct .strictEquals
  | .bin .strictNotEqual => .punct .strictNotEquals
  | .bin .lessThan => .punct .lessThan
  | .bin .greaterThan => .punct .greaterThan
  | .bin .lessThanEqual => .punct .lessThanEqual
  | .bin .greaterThanEqual => .punct .greaterThanEqual
  | .bin .instanceOf => .keyword .instanceOf
  | .bin .in => .keyword .in
  | .bin .leftShift => .punct .leftShift
  | .bin .rightShift => .punct .rightShift
  | .bin .unsignedRightShift => .punct .unsignedRightShift
  | .bin .plus => .punct .plus
  | .bin .minus => .punct .minus
  | .bin .times => .punct .asterisk
  | .bin .over => .punct .forwardSlash
  | .bin .mod => .punct .modulo
  | .bin .powerOf => .punct .exponent

/-- `Groups x l e`: the tree `e` groups the operand `x` followed by the operators and operands
`l`.  A single operand stands for itself.  Otherwise some operator is the root: no operator to its
left binds weaker, every operator to its right binds stronger, and both sides are grouped. -/
inductive Groups : Expr → List (Op × Expr) → Expr → Prop
  | one {x} : Groups x [] x
  | node {x l op y r a b} : (∀ p ∈ l, op.level ≤ p.1.level) → (∀ p ∈ r, op.level < p.1.level) →
      Groups x l a → Groups y r b → Groups x (l ++ (op, y) :: r) (op.node a b)

/-- `Joined C Γ x l i o`: the items from `i` up to `o` are the operand `x` and then, for every
entry of `l`, its operator and its operand.  An operand is a whole `**` chain. -/
inductive Joined (C : Cfg) (Γ : Env) : Expr → List (Op × Expr) → List Tok → List Tok → Prop
  | one {x i o} : G C Γ (.expo x) i o → Joined C Γ x [] i o
  | more {x op y l t i j o} : G C Γ (.expo x) i (t :: j) → t.item.token = op.token →
      Joined C Γ y l j o → Joined C Γ x ((op, y) :: l) i o

/-- The tree of a `**` chain with first operand `x`. -/
def powers (x : Expr) : List Expr → Expr
  | [] => x
  | y :: ys => .binary .powerOf x (powers y ys)

/-- `Chain C Γ x l i o`: the items from `i` up to `o` are the unary operand `x` and then, for every
entry of `l`, the operator `**` and the operand. -/
inductive Chain (C : Cfg) (Γ : Env) : Expr → List Expr → List Tok → List Tok → Prop
  | one {x i o} : G C Γ (.unary x) i o → Chain C Γ x [] i o
  | more {x y l t i j o} : G C Γ (.unary x) i (t :: j) → t.item.token = .punct .exponent →
      Chain C Γ y l j o → Chain C Γ x (y :: l) i o

end Ressa.Gr
