/-
Specifications for the grid-point numberings. They mention the mesh data but none of the index functions.
-/
import Verif.Model.Index

namespace PetIBM.Spec

/-- A field of a mesh is usable: 3D, or 2D with a single layer in z, and at least one point per direction. -/
def GridOK (M : MeshInfo) (f : ℕ) : Prop :=
  (M.dim = 3 ∨ (M.dim = 2 ∧ M.n f 2 = 1)) ∧ 0 < M.n f 0 ∧ 0 < M.n f 1 ∧ 0 < M.n f 2

/-- `(i,j,k)` is a point of the grid of field `f`. -/
def InGrid (M : MeshInfo) (f : ℕ) (i j k : ℤ) : Prop :=
  (0 ≤ i ∧ i < M.n f 0) ∧ (0 ≤ j ∧ j < M.n f 1) ∧ (0 ≤ k ∧ k < M.n f 2)

/-- `(i,j,k)` is a point of the grid extended by one ghost layer on all sides. -/
def InHalo (M : MeshInfo) (f : ℕ) (i j k : ℤ) : Prop :=
  (-1 ≤ i ∧ i ≤ M.n f 0) ∧ (-1 ≤ j ∧ j ≤ M.n f 1) ∧ (-1 ≤ k ∧ k ≤ M.n f 2)

/-- The grid line a coordinate stands for: itself inside the grid, the wrapped line outside a periodic
direction, nothing outside a non-periodic one. -/
def image (per : Bool) (n : ℕ) (x : ℤ) : Option ℤ :=
  if 0 ≤ x ∧ x < n then some x else if per then some (x % n) else none

/-- Index demanded for a stencil: row-major index of its image (x fastest), or -1 without image. -/
def indexOrMinusOne (M : MeshInfo) (f : ℕ) (i j k : ℤ) : ℤ :=
  match image (M.periodic 0 0) (M.n f 0) i, image (M.periodic 0 1) (M.n f 1) j,
      image (M.periodic 0 2) (M.n f 2) k with
  | some i', some j', some k' => i' + M.n f 0 * (j' + M.n f 1 * k')
  | _, _, _ => -1

/-- A distribution over processes is consistent: for every existing field the per-column counts cover all
grid lines, one entry per process column. Columns may be empty. -/
structure LayoutOK (L : Layout) : Prop where
  dim : L.dim = 2 ∨ L.dim = 3
  flat : L.dim = 2 → ∀ f, f < 4 → L.n f 2 = 1
  procs : ∀ d, d < 3 → 0 < L.nProc d
  cols : ∀ f d, f < L.dim ∨ f = 3 → d < 3 → (L.own f d).length = L.nProc d
  lines : ∀ f d, f < L.dim ∨ f = 3 → d < 3 → (L.own f d).sum = L.n f d

/-- Rank `r` owns grid point `(i,j,k)` of field `f`: each coordinate lies between the number of lines owned
by the process columns before it and the number owned up to and including its own. -/
def Owns (L : Layout) (f r i j k : ℕ) : Prop :=
  let px := r % L.nProc 0
  let py := r / L.nProc 0 % L.nProc 1
  let pz := r / (L.nProc 0 * L.nProc 1)
  (((L.own f 0).take px).sum ≤ i ∧ i < ((L.own f 0).take (px + 1)).sum) ∧
  (((L.own f 1).take py).sum ≤ j ∧ j < ((L.own f 1).take (py + 1)).sum) ∧
  (((L.own f 2).take pz).sum ≤ k ∧ k < ((L.own f 2).take (pz + 1)).sum)

/-- An unknown: rank that owns it, component and grid point. -/
structure Unknown where
  rank : ℕ
  comp : ℕ
  i : ℕ
  j : ℕ
  k : ℕ
deriving DecidableEq

/-- The demanded storage order: by rank, then component, then `k`, `j`, `i`. -/
def Before (a b : Unknown) : Prop :=
  a.rank < b.rank ∨ (a.rank = b.rank ∧ (a.comp < b.comp ∨ (a.comp = b.comp ∧ (a.k < b.k ∨ (a.k = b.k ∧
    (a.j < b.j ∨ (a.j = b.j ∧ a.i < b.i)))))))

/-- `u` is a velocity unknown of the mesh: its component exists, its point is on the grid and its rank is
the owner of the point. -/
def IsUnknown (L : Layout) (u : Unknown) : Prop :=
  u.comp < L.dim ∧ u.i < L.n u.comp 0 ∧ u.j < L.n u.comp 1 ∧ u.k < L.n u.comp 2 ∧
    u.rank < L.nProc 0 * L.nProc 1 * L.nProc 2 ∧ Owns L u.comp u.rank u.i u.j u.k

end PetIBM.Spec
