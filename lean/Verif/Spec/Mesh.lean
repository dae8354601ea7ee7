/-
Assumptions on one mesh direction; `Props/Parser.lean` proves that the parser delivers them.
-/
import Verif.Model.Mesh
import Mathlib.Algebra.BigOperators.Group.List.Defs

namespace PetIBM.Spec

variable {K : Type*} [Field K] [LinearOrder K]

/-- At least one cell, positive widths that add up to the length of the domain. -/
structure AxisOK (a : Axis K) : Prop where
  nonempty : a.dL ≠ []
  pos : ∀ w ∈ a.dL, 0 < w
  total : a.max = a.min + a.dL.sum

end PetIBM.Spec
