/-
Bounds for the velocity: what the explicit terms give, and what the boundary conditions allow.
-/
import Verif.Spec.Momentum

namespace PetIBM.Spec

variable {K : Type} [Field K] [LinearOrder K]

/-- The velocity that the explicit terms of the step from level `k` alone would give at the velocity point `u` with index `idx`. -/
noncomputable def explicitVelocity (L : Layout) (G : Geom K) (axes : ℕ → Axis K) (P : NSParams K) (k : ℕ) (V : ℕ → ℕ → Stencil → K)
    (p : Stencil → K) (force : ℤ → K) (u : Unknown) (idx : ℤ) : K :=
  V k u.comp ⟨u.k, u.j, u.i, 0⟩ + P.dt * (-pressureSlope L G axes p u.comp ⟨u.k, u.j, u.i, 0⟩ + force idx + convectiveTerms L G P k V u +
    P.nu * ∑ m ∈ Finset.range (k + 1), levelWeight P.diff k m * laplace L.dim G u.comp ⟨u.k, u.j, u.i, 0⟩ (V m u.comp))

/-- The conditions of component `f` on the sides ask for no value above `c`: prescribed values and those carried outwards from the field `v`
are at most `c`, prescribed slopes do not rise outwards. -/
def SidesBelow (L : Layout) (G : Geom K) (T : BCTable K) (dt : K) (f : ℕ) (v : Stencil → K) (c : K) : Prop :=
  ∀ loc s t, loc < L.dim * 2 → OnFace L.toMeshInfo f loc s → AcrossFace L.toMeshInfo f loc s t →
    match (T f loc).1 with
    | .DIRICHLET => (T f loc).2 ≤ c
    | .NEUMANN => (T f loc).2 * signedDistance G f loc s t ≤ 0
    | .CONVECTIVE => boundaryValue loc f (v s) (v t) - dt * (T f loc).2 * ((v s - v t) / signedDistance G f loc s t) ≤ c
    | _ => True

/-- They ask for no value below `c`. -/
def SidesAbove (L : Layout) (G : Geom K) (T : BCTable K) (dt : K) (f : ℕ) (v : Stencil → K) (c : K) : Prop :=
  ∀ loc s t, loc < L.dim * 2 → OnFace L.toMeshInfo f loc s → AcrossFace L.toMeshInfo f loc s t →
    match (T f loc).1 with
    | .DIRICHLET => c ≤ (T f loc).2
    | .NEUMANN => 0 ≤ (T f loc).2 * signedDistance G f loc s t
    | .CONVECTIVE => c ≤ boundaryValue loc f (v s) (v t) - dt * (T f loc).2 * ((v s - v t) / signedDistance G f loc s t)
    | _ => True

/-- The field is at most `c` on the convective sides. -/
def OutflowBelow (L : Layout) (T : BCTable K) (f : ℕ) (v : Stencil → K) (c : K) : Prop :=
  ∀ loc s t, loc < L.dim * 2 → OnFace L.toMeshInfo f loc s → AcrossFace L.toMeshInfo f loc s t → (T f loc).1 = .CONVECTIVE →
    boundaryValue loc f (v s) (v t) ≤ c

/-- The field is at least `c` on the convective sides. -/
def OutflowAbove (L : Layout) (T : BCTable K) (f : ℕ) (v : Stencil → K) (c : K) : Prop :=
  ∀ loc s t, loc < L.dim * 2 → OnFace L.toMeshInfo f loc s → AcrossFace L.toMeshInfo f loc s t → (T f loc).1 = .CONVECTIVE →
    c ≤ boundaryValue loc f (v s) (v t)

/-- Sum over the neighbours of a point of the rates at which differences to them diffuse: one over distance and width. -/
def diffusionRate (L : Layout) (G : Geom K) (f : ℕ) (s : Stencil) : K :=
  ∑ d ∈ Finset.range L.dim, (1 / (G.coord f d (coordOf s d + 1) - G.coord f d (coordOf s d)) +
    1 / (G.coord f d (coordOf s d) - G.coord f d (coordOf s d - 1))) / G.dL f d (coordOf s d)

/-- The values of component `f` in `q` are at most `c` if the explicit terms and the sides give at most `c`, and at least `c` if these give at
least `c`. -/
def NoNewExtrema (debug : Bool) (L : Layout) (G : Geom K) (axes : ℕ → Axis K) (T : BCTable K) (P : NSParams K) (k : ℕ) (V : ℕ → ℕ → Stencil → K)
    (p : Stencil → K) (force q : ℤ → K) (f : ℕ) (c : K) : Prop :=
  ((∀ u idx, IsUnknown L u → u.comp = f → L.getPackedGlobalIndex debug f ⟨u.k, u.j, u.i, 0⟩ = .ok idx →
      explicitVelocity L G axes P k V p force u idx ≤ c) → SidesBelow L G T P.dt f (V k f) c →
    ∀ s idx, Inside L.toMeshInfo f s → L.getPackedGlobalIndex debug f s = .ok idx → q idx ≤ c) ∧
  ((∀ u idx, IsUnknown L u → u.comp = f → L.getPackedGlobalIndex debug f ⟨u.k, u.j, u.i, 0⟩ = .ok idx →
      c ≤ explicitVelocity L G axes P k V p force u idx) → SidesAbove L G T P.dt f (V k f) c →
    ∀ s idx, Inside L.toMeshInfo f s → L.getPackedGlobalIndex debug f s = .ok idx → c ≤ q idx)

end PetIBM.Spec
