import Verif.Spec.Tree

/-!
# The number of components of a tree
-/

namespace Ressa.Tree

/-- A component by itself; an array has a slot for each element and each hole. -/
def Node.slots : Node → Nat
  | .expr (.array es) => 1 + es.length
  | .pat (.array ps) => 1 + ps.length
  | _ => 1

/-- The number of components of a tree, with the slots of its arrays. -/
noncomputable def Node.count (n : Node) : Nat :=
  n.slots + (n.kids.attach.map fun x => x.1.2.count).sum
termination_by n.size
decreasing_by exact kids_size x.2

theorem count_eq (n : Node) : n.count = n.slots + (n.kids.map fun x => x.2.count).sum := by
  rw [Node.count, List.map_subtype (g := fun x => x.2.count) (fun _ _ => rfl), List.unattach_attach]

end Ressa.Tree
