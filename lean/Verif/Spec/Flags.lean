import Verif.Model.Ast

/-!
# What may be assigned to

The parser decides with two flags whether an expression it has read may stand on the left of an
assignment and whether it may stand for the parameters of an arrow function.  `cover` is an upper
bound for the two flags that depends on the tree only: `cover true e` bounds the first and
`cover false e` the second; they differ in the member accesses.
-/

namespace Ressa.Gr

/-- May the expression be assigned to; may it stand for parameters. -/
abbrev Flags := Bool × Bool

/-- What is known of two expressions together. -/
def Flags.and (f g : Flags) : Flags := (f.1 && g.1, f.2 && g.2)

mutual

/-- May the expression be a target?  `m`: member accesses are targets.

*(quirk)* Besides names, member accesses, arrays and objects these are assignments, sequences,
templates, `new.target`, `await`, `yield`, and functions, which the standard excludes. -/
def cover (m : Bool) : Expr → Bool
  | .ident _ => true
  | .super => true
  | .member _ _ _ => m
  | .array l => coverElems m l
  | .object l => coverProps m l
  | .spread e => cover m e
  | .assignment .equal l _ => cover m l
  | .sequence l => coverAll m l
  | .template _ _ => true
  | .taggedTemplate t _ _ => cover m t
  | .metaProperty _ _ => true
  | .await e => cover m e
  | .yield none _ => true
  | .yield (some e) _ => cover m e
  | .function _ => true
  | .arrowBlock _ _ _ _ _ => true
  | .arrowParamPlaceHolder l _ => coverArgs m l
  | _ => false

/-- All of them. -/
def coverAll (m : Bool) : List Expr → Bool
  | [] => true
  | e :: l => cover m e && coverAll m l

/-- The elements of an array. -/
def coverElems (m : Bool) : List (Option Expr) → Bool
  | [] => true
  | none :: l => coverElems m l
  | some e :: l => cover m e && coverElems m l

/-- The properties of an object. -/
def coverProps (m : Bool) : List ObjectProperty → Bool
  | [] => true
  | p :: l => coverProp m p && coverProps m l

/-- A property: methods and accessors are not targets, abbreviations are. -/
def coverProp (m : Bool) : ObjectProperty → Bool
  | .spread e => cover m e
  | .property (.mk _ _ _ _ _ true) => true
  | .property (.mk _ v .init false _ false) => coverValue m v
  | .property (.mk _ _ _ _ _ false) => false

/-- The value of a property. -/
def coverValue (m : Bool) : PropertyValue → Bool
  | .expr e => cover m e
  | _ => true

/-- The expressions between parentheses. -/
def coverArgs (m : Bool) : List FunctionArg → Bool
  | [] => true
  | .expr e :: l => cover m e && coverArgs m l
  | .pat _ :: l => coverArgs m l

end

/-- May the expression stand on the left of an assignment? -/
def mayAssign (e : Expr) : Bool := cover true e

/-- May the expression stand for the parameters of an arrow function? -/
def mayBind (e : Expr) : Bool := cover false e

end Ressa.Gr
