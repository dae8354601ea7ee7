/-
Specifications for probes.
-/
import Verif.Spec.Field
import Verif.Model.Probe

namespace PetIBM.Spec

variable {K : Type} [Field K] [LinearOrder K]

/-- `x` lies between the first and the last grid line of field `f` in direction `d`. -/
def BetweenLines (M : MeshInfo) (G : Geom K) (f d : ℕ) (x : K) : Prop :=
  G.coord f d 0 ≤ x ∧ x ≤ G.coord f d ((M.n f d : ℤ) - 1)

/-- Grid line `s` is next to `x`: the last one not beyond `x` or the first one not before `x`. -/
def NextTo (M : MeshInfo) (G : Geom K) (f d : ℕ) (x : K) (s : ℤ) : Prop :=
  (G.coord f d s ≤ x ∧ ∀ t : ℤ, 0 ≤ t → t < M.n f d → G.coord f d t ≤ x → G.coord f d t ≤ G.coord f d s) ∨
  (x ≤ G.coord f d s ∧ ∀ t : ℤ, 0 ≤ t → t < M.n f d → x ≤ G.coord f d t → G.coord f d s ≤ G.coord f d t)

/-- `s` is one of the grid points that surround the point `x`. -/
def Surrounds (M : MeshInfo) (G : Geom K) (f : ℕ) (x : ℕ → K) (s : Stencil) : Prop :=
  Inside M f s ∧ ∀ d, d < M.dim → NextTo M G f d (x d) (coordOf s d)

/-- A function that is linear in each of the three coordinates. -/
def multilinear (c : ℕ → K) (x y z : K) : K :=
  c 0 + c 1 * x + c 2 * y + c 3 * z + c 4 * x * y + c 5 * x * z + c 6 * y * z + c 7 * x * y * z

/-- What an interpolated value `v` of the field stored in `q` has to satisfy. -/
def Interpolates (L : Layout) (G : Geom K) (f : ℕ) (x : ℕ → K) (q : ℤ → K) (v : K) : Prop :=
  (∀ lo hi, (∀ s idx, Surrounds L.toMeshInfo G f x s → L.getPackedGlobalIndex false f s = .ok idx → lo ≤ q idx ∧ q idx ≤ hi) →
    lo ≤ v ∧ v ≤ hi) ∧
  (∀ c, (∀ s idx, Surrounds L.toMeshInfo G f x s → L.getPackedGlobalIndex false f s = .ok idx →
      q idx = multilinear c (G.coord f 0 s.i) (G.coord f 1 s.j) (G.coord f 2 s.k)) →
    v = multilinear c (x 0) (x 1) (x 2))

/-- The grid point is inside the box up to the tolerance. -/
def InVolume (M : MeshInfo) (G : Geom K) (f : ℕ) (box : ℕ → K × K) (atol : K) (i j k : ℕ) : Prop :=
  (i < M.n f 0 ∧ j < M.n f 1 ∧ k < M.n f 2) ∧
  ∀ d, d < M.dim → (box d).1 - atol ≤ G.coord f d (coordOf ⟨k, j, i, 0⟩ d) ∧ G.coord f d (coordOf ⟨k, j, i, 0⟩ d) ≤ (box d).2 + atol

/-- Natural index of a grid point: x fastest, then y, then z -/
def naturalOf (M : MeshInfo) (f i j k : ℕ) : ℤ := i + M.n f 0 * (j + M.n f 1 * k)

/-- What the index sets of a probe have to satisfy. -/
structure Selects (L : Layout) (G : Geom K) (f : ℕ) (box : ℕ → K × K) (atol : K) (P : VolumeProbe K) : Prop where
  /-- the recorded points are those in the box -/
  points : ∀ g : ℤ, g ∈ P.isNatural ↔ ∃ i j k : ℕ, InVolume L.toMeshInfo G f box atol i j k ∧ g = naturalOf L.toMeshInfo f i j k
  /-- each of them once, on whichever process -/
  once : P.isNatural.Nodup
  /-- and the reported number is their number -/
  number : P.mesh.total = P.isNatural.length
  /-- the coordinates written to the file are those of the grid lines in the box, in increasing order -/
  grid : P.coord.length = L.dim ∧ ∀ (d : ℕ) (l : List K), P.coord[d]? = some l → l.Pairwise (· < ·) ∧ P.mesh.nPts d = l.length ∧
    ∀ x, x ∈ l ↔ ∃ i : ℕ, i < L.n f d ∧ x = G.coord f d i ∧ (box d).1 - atol ≤ x ∧ x ≤ (box d).2 + atol
  /-- the extracted sub-vector holds the values at the recorded points in the recorded order -/
  values : ∀ q : ℤ → K, ∃ vs, subVector L f q P.isPetsc = .ok vs ∧ vs.length = P.isNatural.length ∧
    ∀ (m i j k : ℕ) (idx : ℤ), i < L.n f 0 → j < L.n f 1 → k < L.n f 2 → P.isNatural[m]? = some (naturalOf L.toMeshInfo f i j k) →
      L.getPackedGlobalIndex false f ⟨k, j, i, 0⟩ = .ok idx → vs[m]? = some (q idx)

/-- The probe is asked to sample in this step. -/
def Due (T : ProbeTimes K) (s : Snapshot K) : Prop := T.nMonitor ∣ s.n ∧ T.tStart ≤ s.t ∧ s.t ≤ T.tEnd

instance (T : ProbeTimes K) (s : Snapshot K) : Decidable (Due T s) := by unfold Due; infer_instance

/-- The steps in which the probe samples. -/
def dueSteps (T : ProbeTimes K) (h : List (Snapshot K)) : List (Snapshot K) := h.filter fun s => decide (Due T s)

/-- Field `f` in a snapshot: component `f` of the velocity, or the pressure. -/
def fieldOf (dim f : ℕ) (s : Snapshot K) : ℤ → K := if f < dim then s.U else s.p

/-- Output `o` of a probe holds, for every recorded point, the value `val` of the packed index of the point. -/
def Records (L : Layout) (f : ℕ) (P : VolumeProbe K) (o : ProbeOutput K) (val : ℤ → K) : Prop :=
  o.values.length = P.isNatural.length ∧
  ∀ (m i j k : ℕ) (idx : ℤ), i < L.n f 0 → j < L.n f 1 → k < L.n f 2 → P.isNatural[m]? = some (naturalOf L.toMeshInfo f i j k) →
    L.getPackedGlobalIndex false f ⟨k, j, i, 0⟩ = .ok idx → o.values[m]? = some (val idx)

/-- Mean over a list of steps of the field at one index. -/
def meanOf (dim f : ℕ) (w : List (Snapshot K)) (idx : ℤ) : K := (w.map fun s => fieldOf dim f s idx).sum / w.length

end PetIBM.Spec
