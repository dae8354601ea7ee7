/-
The discretised momentum equation with body forces.
-/
import Verif.Spec.Steady
import Verif.Spec.Ibpm

namespace PetIBM.Spec

variable {K : Type} [Field K] [LinearOrder K]

/-- Minus the weighted convective terms of the levels `0, …, k`, at the velocity point `u`, of the fields as its process has them. -/
noncomputable def convectiveTerms (L : Layout) (G : Geom K) (P : NSParams K) (k : ℕ) (V : ℕ → ℕ → Stencil → K) (u : Unknown) : K :=
  -∑ m ∈ Finset.range (k + 1), levelWeight P.conv k m * convective L.dim G (seenBy L u.rank (V m)) u.comp ⟨u.k, u.j, u.i, 0⟩

/-- Viscosity times the weighted second differences of the levels `0, …, k` and of the intermediate velocity `W`. -/
def viscousTerms (L : Layout) (G : Geom K) (P : NSParams K) (k : ℕ) (V : ℕ → ℕ → Stencil → K) (W : ℕ → Stencil → K) (u : Unknown) : K :=
  P.nu * (∑ m ∈ Finset.range (k + 1), levelWeight P.diff k m * laplace L.dim G u.comp ⟨u.k, u.j, u.i, 0⟩ (V m u.comp)
    + P.diff.implicitCoeff * laplace L.dim G u.comp ⟨u.k, u.j, u.i, 0⟩ (W u.comp))

/-- The momentum equation of the step from level `k` at every velocity point: the change to the intermediate velocity `W` over the time step is
the sum of pressure slope, force, convective and viscous terms. -/
def Momentum (debug : Bool) (L : Layout) (G : Geom K) (axes : ℕ → Axis K) (P : NSParams K) (k : ℕ) (V : ℕ → ℕ → Stencil → K)
    (W : ℕ → Stencil → K) (p : Stencil → K) (force : ℤ → K) : Prop :=
  ∀ u idx, IsUnknown L u → L.getPackedGlobalIndex debug u.comp ⟨u.k, u.j, u.i, 0⟩ = .ok idx →
    (W u.comp ⟨u.k, u.j, u.i, 0⟩ - V k u.comp ⟨u.k, u.j, u.i, 0⟩) / P.dt =
      -pressureSlope L G axes p u.comp ⟨u.k, u.j, u.i, 0⟩ + force idx + convectiveTerms L G P k V u + viscousTerms L G P k V W u

/-- The steady momentum equation with a force at every velocity point. The factor `w` of the convective term is one in the equations. -/
def SteadyMomentum (debug : Bool) (L : Layout) (G : Geom K) (axes : ℕ → Axis K) (nu w : K) (V : ℕ → Stencil → K) (p : Stencil → K)
    (force : ℤ → K) : Prop :=
  ∀ u idx, IsUnknown L u → L.getPackedGlobalIndex debug u.comp ⟨u.k, u.j, u.i, 0⟩ = .ok idx →
    w * convective L.dim G (seenBy L u.rank V) u.comp ⟨u.k, u.j, u.i, 0⟩ + pressureSlope L G axes p u.comp ⟨u.k, u.j, u.i, 0⟩ =
      nu * laplace L.dim G u.comp ⟨u.k, u.j, u.i, 0⟩ (V u.comp) + force idx

end PetIBM.Spec
