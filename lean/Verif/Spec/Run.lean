/-
A simulation as far as mesh and boundary conditions are concerned.
-/
import Verif.Spec.Field
import Verif.Spec.Partition

namespace PetIBM.Spec

/-- A mesh object, PETSc's distribution of it, boundary conditions that agree with its periodic directions, and the
boundary objects `B` that all processes construct from them. (`Props/MeshInit.lean` shows that these exist for
every accepted configuration.) -/
structure Constructed {K : Type} [Field K] [LinearOrder K] (debug : Bool) (L : Layout) (G : Geom K) (axes : ℕ → Axis K)
    (T : BCTable K) (B : ℕ → Boundary K) : Prop where
  setup : Setup L G axes
  part : Partitioned L
  table : TableOK L T
  init : ∀ r, r < L.mpiSize → boundaryInit debug L G r T = .ok (B r)

end PetIBM.Spec
