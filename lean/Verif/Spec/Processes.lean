/-
Two distributions of one mesh over processes.
-/
import Verif.Spec.Poisson
import Verif.Spec.Convection

namespace PetIBM.Spec

variable {K : Type} [Field K] [LinearOrder K]

/-- Two packed velocity vectors, of two distributions of one mesh, hold the same value at every velocity point. -/
def SameVelocity (debug : Bool) (L₁ L₂ : Layout) (q₁ q₂ : ℤ → K) : Prop :=
  ∀ f s i j, f < L₁.dim → Inside L₁.toMeshInfo f s → L₁.getPackedGlobalIndex debug f s = .ok i →
    L₂.getPackedGlobalIndex debug f s = .ok j → q₁ i = q₂ j

/-- Two pressure vectors hold the same values up to one constant. -/
def SamePressure (debug : Bool) (L₁ L₂ : Layout) (p₁ p₂ : ℤ → K) : Prop :=
  ∃ c, ∀ s i j, Inside L₁.toMeshInfo 3 s → L₁.getPackedGlobalIndex debug 3 s = .ok i →
    L₂.getPackedGlobalIndex debug 3 s = .ok j → p₁ i = p₂ j + c

/-- Two runs start with the initial conditions, or both from one file and with schemes that use no explicit term of an earlier step. -/
def SameStart (P : NSParams K) (disk₁ disk₂ : Disk K) : Prop :=
  P.nstart = 0 ∨ disk₁ (stepPath P.output P.nstart) = disk₂ (stepPath P.output P.nstart) ∧ P.conv.nExplicit ≤ 1 ∧ P.diff.nExplicit ≤ 1

end PetIBM.Spec
