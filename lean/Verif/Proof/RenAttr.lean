import Lean

/-!
# The simp set of renaming

See `Verif.Proof.Ren`.
-/

/-- Equations that push a renaming inwards or remove it. -/
register_simp_attr ren_simp
