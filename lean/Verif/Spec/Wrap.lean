import Verif.Spec.Small

/-!
# The same items with other line breaks
-/

namespace Ressa.Gr

/-- Keywords after which a line break means something. -/
def jump : Token → Bool
  | .keyword k => k == .return || k == .break || k == .continue || k == .let
  | _ => false

/-- After these punctuators an expression goes on, or a new statement begins. -/
def opens : Token → Bool
  | .punct p => p != .closeParen && p != .closeBracket && p != .closeBrace && p != .increment &&
      p != .decrement
  | _ => false

/-- The second list has the same items, all line breaks of the first except for those after the
punctuators above, and more line breaks only before items that may begin a line, and not after the
keywords above.  The flag says whether the item before is such a punctuator. -/
inductive Wrap (C C' : Cfg) : Bool → List Tok → List Tok → Prop
  | nil {f} : Wrap C C' f [] []
  | cons {f t t' r r'} : t'.item.token = t.item.token → C'.text t' = C.text t →
      (t.nl = true → f = true ∨ t'.nl = true) →
      (t'.nl = true → t.nl = true ∨ smallLine t.item.token = true) →
      (jump t.item.token = true → C'.nl r' = true → C.nl r = true) →
      Wrap C C' (opens t.item.token) r r' → Wrap C C' f (t :: r) (t' :: r')

end Ressa.Gr
