/-
The course of bodies with prescribed motion.
-/
import Verif.Spec.Ibpm

namespace PetIBM.Spec

variable {K : Type} [Field K] [LinearOrder K]

/-- `pos k` and `vel k` are the bodies and the velocities of their points after `k` steps of length `dt` from time `t₀`, as the motion prescribes
them. They do not depend on the flow. -/
structure Course (M : Motion K) (bodies : BodyPack K) (t₀ dt : K) (pos : ℕ → BodyPack K) (vel : ℕ → ℤ → K) : Prop where
  start : pos 0 = bodies
  rest : vel 0 = fun _ => 0
  move : ∀ k : ℕ, pos (k + 1) = M.coordinates (t₀ + (k + 1) * dt) (pos k)
  speed : ∀ k : ℕ, vel (k + 1) = M.velocity (t₀ + (k + 1) * dt) (pos (k + 1)) (vel k)

/-- The velocities `v` of the points can be those of a flow: forces at the points that spread to zero everywhere on the grid do no work on
them. -/
def Admissible (L : Layout) (nF : ℕ) (Δ : Mat K) (v : ℤ → K) : Prop :=
  ∀ F : ℤ → K, (∀ c : ℤ, 0 ≤ c → c < L.UN → spread nF Δ F c = 0) → ∑ i ∈ Finset.range nF, v i * F i = 0

end PetIBM.Spec
