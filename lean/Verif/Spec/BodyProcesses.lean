/-
Bodies distributed over different numbers of processes.
-/
import Verif.Spec.Processes
import Verif.Spec.Ibpm

namespace PetIBM.Spec

variable {K : Type} [Field K] [LinearOrder K]

/-- Two packs hold the same bodies: as many of them, with the same points. They may be distributed over different processes. -/
structure SameBodies (P₁ P₂ : BodyPack K) : Prop where
  dim : P₁.dim = P₂.dim
  number : P₁.bodies.length = P₂.bodies.length
  points : ∀ (b : ℕ) (x y : SingleBody K), P₁.bodies[b]? = some x → P₂.bodies[b]? = some y → x.nPts = y.nPts ∧ x.coords = y.coords

/-- Two packed vectors, of two distributions of the same bodies, hold the same value for every component at every point. -/
def SameForces (P₁ P₂ : BodyPack K) (f₁ f₂ : ℤ → K) : Prop :=
  ∀ b i d x y, P₁.getPackedGlobalIndex b i d = .ok x → P₂.getPackedGlobalIndex b i d = .ok y → f₁ x = f₂ y

/-- All points of a body lie in cells of the same widths, in the sense that the cell and its neighbours have them, and not in the last
cell of a direction. -/
def OneWidth (L : Layout) (axes : ℕ → Axis K) (bodies : BodyPack K) : Prop :=
  ∀ body ∈ bodies.bodies, ∃ h : ℕ → K, ∀ p ∈ body.coords, ∀ d x, d < L.dim → p[d]? = some x →
    LocallyUniform (axes d) (h d) 1 x ∧ x + h d < (axes d).max

/-- No distribution of forces over the points of the bodies, except zero, gives zero everywhere on the grid. -/
def IndependentPoints (L : Layout) (nF : ℕ) (H : Mat K) : Prop :=
  ∀ F : ℤ → K, (∀ c : ℤ, 0 ≤ c → c < L.UN → Mat.mult nF H F c = 0) → ∀ k : ℤ, 0 ≤ k → k < nF → F k = 0

/-- No forces at the points of the bodies, except zero, spread to the gradient of a pressure. -/
def IndependentOfGradients (debug : Bool) (L : Layout) (G : Geom K) (axes : ℕ → Axis K) (B : ℕ → Boundary K) (bodies : BodyPack K)
    (kernel : DeltaKernel K) (window : ℕ) : Prop :=
  ∀ Δ Gr, IsDelta debug L axes B bodies kernel window Δ → createGradient debug L G false = .ok Gr → ∀ p F : ℤ → K,
    (∀ c : ℤ, 0 ≤ c → c < L.UN → Mat.mult L.pN Gr p c = spread (bodies.nPts * bodies.dim) Δ F c) →
    ∀ k : ℤ, 0 ≤ k → k < (bodies.nPts * bodies.dim : ℕ) → F k = 0

/-- Two prescribed motions that do the same with two distributions of the same bodies. They move points, not their distribution. -/
structure MovesAlike (L₁ L₂ : Layout) (M₁ M₂ : Motion K) : Prop where
  coordinates : ∀ t P₁ P₂, BodiesOK L₁ P₁ → BodiesOK L₂ P₂ → SameBodies P₁ P₂ → SameBodies (M₁.coordinates t P₁) (M₂.coordinates t P₂)
  velocity : ∀ t P₁ P₂ u₁ u₂, BodiesOK L₁ P₁ → BodiesOK L₂ P₂ → SameBodies P₁ P₂ → SameForces P₁ P₂ u₁ u₂ →
    SameForces P₁ P₂ (M₁.velocity t P₁ u₁) (M₂.velocity t P₂ u₂)
  keeps₁ : ∀ t P₁, (M₁.coordinates t P₁).bodies.map (fun b => (b.nPts, b.lcl)) = P₁.bodies.map fun b => (b.nPts, b.lcl)
  keeps₂ : ∀ t P₂, (M₂.coordinates t P₂).bodies.map (fun b => (b.nPts, b.lcl)) = P₂.bodies.map fun b => (b.nPts, b.lcl)

end PetIBM.Spec
