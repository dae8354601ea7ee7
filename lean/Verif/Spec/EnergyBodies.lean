/-
Energy of flows with bodies.
-/
import Verif.Spec.Energy
import Verif.Spec.Ibpm

namespace PetIBM.Spec

variable {K : Type} [Field K]

/-- What the pressure and the body forces in the composite vector `l` of the coupled solver take from the momentum: the pressure gradient minus
the spread forces. -/
def reaction (L : Layout) (bodies : BodyPack K) (Gr Δ : Mat K) (l : ℤ → K) (c : ℤ) : K :=
  Mat.mult L.pN Gr (subPressure (nestCounts L bodies) l) c - spread (bodies.nPts * bodies.dim) Δ (subForces (nestCounts L bodies) l) c

end PetIBM.Spec
