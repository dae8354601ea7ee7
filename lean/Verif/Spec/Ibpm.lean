/-
Runs of the solvers with immersed bodies.
-/
import Verif.Model.Ibpm
import Verif.Spec.NavierStokes
import Verif.Spec.Body
import Verif.Spec.Delta

namespace PetIBM.Spec

variable {K : Type} [Field K] [LinearOrder K]

/-- `vol` holds the volume (in 2D the area) of the cell around every velocity point: the product of its widths. -/
def IsVolume (debug : Bool) (L : Layout) (G : Geom K) (vol : ℤ → K) : Prop :=
  ∀ f s idx, f < L.dim → Inside L.toMeshInfo f s → L.getPackedGlobalIndex debug f s = .ok idx →
    vol idx = ∏ d ∈ Finset.range L.dim, G.dL f d (coordOf s d)

/-- Velocity at the body points: the values on the grid, weighted with the delta operator `Δ` and the volumes. -/
def interpolated (N : ℕ) (Δ : Mat K) (vol q : ℤ → K) (row : ℤ) : K := ∑ c ∈ Finset.range N, Δ row c * vol c * q c

/-- Force per volume on the grid: the forces of the body points, weighted with the delta operator. -/
def spread (nF : ℕ) (Δ : Mat K) (F : ℤ → K) (c : ℤ) : K := ∑ k ∈ Finset.range nF, Δ k c * F k

/-- `Δ` is the delta operator between the grid and the bodies where they are now. -/
def IsDelta (debug : Bool) (L : Layout) (axes : ℕ → Axis K) (B : ℕ → Boundary K) (bodies : BodyPack K) (kernel : DeltaKernel K) (window : ℕ)
    (Δ : Mat K) : Prop :=
  ∃ idx, bodies.updateMeshIdx axes = .ok idx ∧ createDelta debug L axes B bodies (meshIdxAt idx) kernel window = .ok Δ

/-- Bodies that fit to the flow domain and its distribution over processes. -/
structure BodiesOK (L : Layout) (bodies : BodyPack K) : Prop where
  pack : PackOK bodies
  dim : bodies.dim = L.dim
  procs : bodies.mpiSize = L.mpiSize

/-- Around every point of every body the grid is uniform with widths `h` within the window `w` of the kernel, and the support of the
kernel, `s` cells, lies in the domain, with more room if there are periodic directions (see C29). -/
def NearUniform (L : Layout) (axes : ℕ → Axis ℝ) (bodies : BodyPack ℝ) (h : ℕ → ℝ) (s : ℝ) (w : ℕ) : Prop :=
  ∀ body ∈ bodies.bodies, ∀ i, i < body.nPts → ∃ p, body.coords[i]? = some p ∧ ∀ d, d < L.dim → ∃ x, p[d]? = some x ∧
    LocallyUniform (axes d) (h d) w x ∧
    ((∀ e, e < L.dim → L.periodic 0 e = false) ∧ AwayFromEnds (axes d) (s * h d) x ∨ AwayFromEnds (axes d) ((w + 2) * h d) x)

/-- `q` is one at the points of velocity component `f` and zero at those of the others. -/
def IsComponent {K : Type} [Field K] (debug : Bool) (L : Layout) (f : ℕ) (q : ℤ → K) : Prop :=
  ∀ g s idx, g < L.dim → Inside L.toMeshInfo g s → L.getPackedGlobalIndex debug g s = .ok idx → q idx = if g = f then 1 else 0

/-- Every velocity point holds the expression of its component at its coordinates at time zero. -/
def InitialVelocity (L : Layout) (G : Geom K) (nu : K) (es : List (Expr K)) (U : ℤ → K) : Prop :=
  ∀ f i j k e idx, f < L.dim → i < L.n f 0 → j < L.n f 1 → k < L.n f 2 → es[f]? = some e →
    L.getPackedGlobalIndex false f ⟨k, j, i, 0⟩ = .ok idx → U idx = e (G.coord f 0 i) (G.coord f 1 j) (G.coord f 2 k) 0 nu

/-- Every pressure point holds the expression `e` at its coordinates at time zero. -/
def InitialPressure (L : Layout) (G : Geom K) (nu : K) (e : Expr K) (p : ℤ → K) : Prop :=
  ∀ i j k idx, i < L.n 3 0 → j < L.n 3 1 → k < L.n 3 2 → L.getPackedGlobalIndex false 3 ⟨k, j, i, 0⟩ = .ok idx →
    p idx = e (G.coord 3 0 i) (G.coord 3 1 j) (G.coord 3 2 k) 0 nu

/-- A decoupled solver that has been initialised. -/
structure IBStarted (debug : Bool) (L : Layout) (G : Geom K) (axes : ℕ → Axis K) (T : BCTable K) (B : ℕ → Boundary K)
    (P : NSParams K) (flow : Option (FlowNode K)) (bodies : BodyPack K) (kernel : DeltaKernel K) (window : ℕ) (ops : NSOps K)
    (ib : IBOps K) (disk : Disk K) (s : IBState K) (disk' : Disk K) : Prop where
  constructed : Constructed debug L G axes T B
  params : ∃ haveAmgX output node, readParams haveAmgX output node flow = .ok P
  fit : BodiesOK L bodies
  init : ∃ s₀, decoupledInit debug L G axes P flow B bodies kernel window = .ok (ops, ib, s₀) ∧
    decoupledIoInitialData L P ib s₀ disk = .ok (s, disk')

/-- `n` consecutive steps of the decoupled solver. -/
def IBTrajectory (L : Layout) (G : Geom K) (P : NSParams K) (ops : NSOps K) (ib : IBOps K) (vSolve fSolve pSolve : LinSolve K)
    (x : ℕ → IBState K) (n : ℕ) : Prop :=
  ∀ k, k < n → decoupledAdvance L G P ops ib none vSolve fSolve pSolve (x k) = .ok (x (k + 1))

/-- The solver with prescribed motion right after its initialisation; the motion keeps the numbers of points. -/
structure RigidStarted (debug : Bool) (L : Layout) (G : Geom K) (axes : ℕ → Axis K) (T : BCTable K) (B : ℕ → Boundary K)
    (P : NSParams K) (flow : Option (FlowNode K)) (bodies : BodyPack K) (M : Motion K) (kernel : DeltaKernel K) (window : ℕ)
    (ops : NSOps K) (disk : Disk K) (s : RigidState K) (disk' : Disk K) : Prop where
  started : IBStarted debug L G axes T B P flow bodies kernel window ops s.ib disk s.toIBState disk'
  same : s.bodies = bodies
  UB : s.UB = fun _ => 0
  motion : ∀ t b, BodiesOK L b → BodiesOK L (M.coordinates t b)

def RigidTrajectory (debug : Bool) (L : Layout) (G : Geom K) (axes : ℕ → Axis K) (P : NSParams K) (ops : NSOps K) (M : Motion K)
    (kernel : DeltaKernel K) (window : ℕ) (vSolve fSolve pSolve : LinSolve K) (x : ℕ → RigidState K) (n : ℕ) : Prop :=
  ∀ k, k < n → rigidAdvance debug L G axes P ops M kernel window vSolve fSolve pSolve (x k) = .ok (x (k + 1))

/-- A coupled solver that has been initialised. -/
structure CoupledStarted (debug : Bool) (L : Layout) (G : Geom K) (axes : ℕ → Axis K) (T : BCTable K) (B : ℕ → Boundary K)
    (P : NSParams K) (flow : Option (FlowNode K)) (bodies : BodyPack K) (kernel : DeltaKernel K) (window : ℕ) (ops : NSOps K)
    (disk : Disk K) (s : NSState K) (disk' : Disk K) : Prop where
  constructed : Constructed debug L G axes T B
  params : ∃ haveAmgX output node, readParams haveAmgX output node flow = .ok P
  fit : BodiesOK L bodies
  init : ∃ s₀ EH, ibpmInit debug L G axes P flow B bodies kernel window = .ok ((ops, EH), s₀) ∧
    ibpmIoInitialData L P (nestCounts L bodies) (bodies.nPts * bodies.dim) s₀ disk = .ok (s, disk')

def CoupledTrajectory (L : Layout) (G : Geom K) (P : NSParams K) (counts : List (ℕ × ℕ)) (ops : NSOps K) (vSolve pSolve : LinSolve K)
    (x : ℕ → NSState K) (n : ℕ) : Prop :=
  ∀ k, k < n → ibpmAdvance L G P counts ops vSolve pSolve (x k) = .ok (x (k + 1))

end PetIBM.Spec
