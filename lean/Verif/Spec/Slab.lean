/-
A plane flow in two and in three dimensions.
-/
import Verif.Spec.Poisson
import Verif.Spec.Convection

namespace PetIBM.Spec

variable {K : Type} [Field K] [LinearOrder K]

/-- The point of the plane below a point in space. -/
def below (s : Stencil) : Stencil := ⟨0, s.j, s.i, s.c⟩

/-- The second configuration is the first, plane one, continued in the third direction: the same axes and boundary conditions in the plane; the sides
around it let the third component be zero; the third direction is periodic, or its ends let the fluid slip and let none through. -/
structure Slab (L₁ L₂ : Layout) (axes₁ axes₂ : ℕ → Axis K) (T₁ T₂ : BCTable K) : Prop where
  dim₁ : L₁.dim = 2
  dim₂ : L₂.dim = 3
  periodic : ∀ d, d < 2 → L₂.periodic 0 d = L₁.periodic 0 d
  axes : ∀ d, d < 2 → axes₂ d = axes₁ d
  table : ∀ f loc, f < 2 → loc < 4 → T₂ f loc = T₁ f loc
  third : ∀ loc, loc < 6 → L₂.periodic 0 (loc / 2) = false → T₂ 2 loc = (.DIRICHLET, 0) ∨ T₂ 2 loc = (.NEUMANN, 0) ∨ (T₂ 2 loc).1 = .CONVECTIVE
  ends : ∀ f loc, f < 2 → loc / 2 = 2 → L₂.periodic 0 2 = false → T₂ f loc = (.NEUMANN, 0)

/-- `e'` is the function `e` of the plane, at every height. -/
def SameBelow (e e' : Expr K) : Prop := ∀ x y z time nu, e' x y z time nu = e x y 0 time nu

/-- The initial conditions in space are those of the plane, and the third component is zero. -/
def SlabFlow (flow₁ flow₂ : Option (FlowNode K)) : Prop :=
  ∃ nu es₁ es₂ p₁ p₂, flow₁ = some ⟨nu, some es₁, p₁⟩ ∧ flow₂ = some ⟨nu, some es₂, p₂⟩ ∧
    (∀ f, f < 2 → ∃ e₁ e₂, es₁[f]? = some e₁ ∧ es₂[f]? = some e₂ ∧ SameBelow e₁ e₂) ∧
    (∃ e, es₂[2]? = some e ∧ ∀ x y z time nu, e x y z time nu = 0) ∧
    ((p₁ = none ∧ p₂ = none) ∨ ∃ e₁ e₂, p₁ = some e₁ ∧ p₂ = some e₂ ∧ SameBelow e₁ e₂)

/-- The velocity `q₂` in space is the velocity `q₁` of the plane at every height, with a third component zero. -/
def SlabVelocity (debug : Bool) (L₁ L₂ : Layout) (q₁ q₂ : ℤ → K) : Prop :=
  (∀ f s i j, f < 2 → Inside L₂.toMeshInfo f s → L₁.getPackedGlobalIndex debug f (below s) = .ok i →
    L₂.getPackedGlobalIndex debug f s = .ok j → q₂ j = q₁ i) ∧
  ∀ s j, Inside L₂.toMeshInfo 2 s → L₂.getPackedGlobalIndex debug 2 s = .ok j → q₂ j = 0

/-- The pressure `p₂` in space is the pressure `p₁` of the plane at every height, up to a constant. -/
def SlabPressure (debug : Bool) (L₁ L₂ : Layout) (p₁ p₂ : ℤ → K) : Prop :=
  ∃ c, ∀ s i j, Inside L₂.toMeshInfo 3 s → L₁.getPackedGlobalIndex debug 3 (below s) = .ok i →
    L₂.getPackedGlobalIndex debug 3 s = .ok j → p₂ j = p₁ i + c

end PetIBM.Spec
