/-
Linear combinations of configurations and of fields.
-/
import Verif.Spec.Poisson
import Verif.Spec.Ibpm

namespace PetIBM.Spec

variable {K : Type} [Field K] [LinearOrder K]

/-- `z` is the combination of `x` and `y` with the factors `a` and `b`. -/
def Mixed (a b : K) (x y z : ℤ → K) : Prop := ∀ i, z i = a * x i + b * y i

/-- The same for pressures, which are known up to a constant. -/
def MixedPressure (N : ℕ) (a b : K) (x y z : ℤ → K) : Prop := ∃ c, ∀ i : ℤ, 0 ≤ i → i < N → z i = a * x i + b * y i + c

/-- The same for functions of position, time and viscosity. -/
def MixedExpr (a b : K) (x y z : Expr K) : Prop := ∀ p q r t nu, z p q r t nu = a * x p q r t nu + b * y p q r t nu

/-- The boundary conditions have the same types; the values of the third ones are the combination of those of the others. The value of a convective
condition is the speed of the waves, which is the same in all. -/
def MixedTable (dim : ℕ) (a b : K) (T₁ T₂ T₃ : BCTable K) : Prop := ∀ f loc, f < dim → loc < dim * 2 →
  (T₂ f loc).1 = (T₁ f loc).1 ∧ (T₃ f loc).1 = (T₁ f loc).1 ∧
  ((T₁ f loc).1 = .CONVECTIVE → (T₂ f loc).2 = (T₁ f loc).2 ∧ (T₃ f loc).2 = (T₁ f loc).2) ∧
  ((T₁ f loc).1 ≠ .CONVECTIVE → (T₃ f loc).2 = a * (T₁ f loc).2 + b * (T₂ f loc).2)

/-- The third initial conditions are the combination of the others; an initial pressure that is not given is zero. -/
def MixedFlow (dim : ℕ) (a b : K) (flow₁ flow₂ flow₃ : Option (FlowNode K)) : Prop :=
  ∃ nu es₁ es₂ es₃ p₁ p₂ p₃, flow₁ = some ⟨nu, some es₁, p₁⟩ ∧ flow₂ = some ⟨nu, some es₂, p₂⟩ ∧ flow₃ = some ⟨nu, some es₃, p₃⟩ ∧
    (∀ f, f < dim → ∃ e₁ e₂ e₃, es₁[f]? = some e₁ ∧ es₂[f]? = some e₂ ∧ es₃[f]? = some e₃ ∧ MixedExpr a b e₁ e₂ e₃) ∧
    MixedExpr a b (p₁.getD fun _ _ _ _ _ => 0) (p₂.getD fun _ _ _ _ _ => 0) (p₃.getD fun _ _ _ _ _ => 0)

/-- The bodies move in the same way; the velocities that are prescribed at their points superpose. -/
def MixedMotion (a b : K) (M₁ M₂ M₃ : Motion K) : Prop :=
  M₂.coordinates = M₁.coordinates ∧ M₃.coordinates = M₁.coordinates ∧
    ∀ t bodies u₁ u₂ u₃, Mixed a b u₁ u₂ u₃ → Mixed a b (M₁.velocity t bodies u₁) (M₂.velocity t bodies u₂) (M₃.velocity t bodies u₃)

end PetIBM.Spec
