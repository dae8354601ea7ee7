/-
Specification of a regularised delta function on a uniform grid of spacing `h` with support radius `s * h`.
-/
import Mathlib.Topology.Algebra.Monoid
import Mathlib.Topology.Instances.Real.Lemmas
import Mathlib.Algebra.BigOperators.Finprod
import Mathlib.Algebra.Order.Floor.Ring
import Mathlib.Data.Real.Basic

namespace PetIBM.Spec

/-- `φ` is a regularised delta function: continuous, even, positive exactly within `s` cells, and on every shifted grid
the weights add up to one and have no first moment; the sum of their squares does not depend on the shift. -/
structure DiscreteDelta (φ : ℝ → ℝ) (h s q : ℝ) : Prop where
  continuous : Continuous φ
  even : ∀ r, φ (-r) = φ r
  inside : ∀ r, |r| < s * h → 0 < φ r
  outside : ∀ r, s * h ≤ |r| → φ r = 0
  unity : ∀ r, ∑ᶠ i : ℤ, h * φ (r - i * h) = 1
  moment : ∀ r, ∑ᶠ i : ℤ, h * ((r - i * h) * φ (r - i * h)) = 0
  squares : ∀ r, ∑ᶠ i : ℤ, (h * φ (r - i * h)) ^ 2 = q

end PetIBM.Spec
