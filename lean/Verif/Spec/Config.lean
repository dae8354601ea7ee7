/-
Specification of the configuration files: what mesh and boundary sections describe.
-/
import Verif.Spec.Parser

namespace PetIBM.Spec

variable {K : Type} [Field K] [LinearOrder K]

/-- A mesh section with one entry for each direction, cells and positive ratios, and ends that increase. -/
structure DescribedMesh (dim : ℕ) (nodes : List (AxisNode K)) : Prop where
  dims : dim = 2 ∨ dim = 3
  directions : (nodes.map fun a => dirNamed a.direction).Perm ((List.range dim).map some)
  cells : ∀ a ∈ nodes, a.subDomains ≠ [] ∧ ∀ s ∈ a.subDomains, 1 ≤ s.cells ∧ 0 < s.stretchRatio
  forward : ∀ a ∈ nodes, Forward a.start a.subDomains

/-- The components agree in every direction: all periodic at both ends or none at any end. -/
def PeriodicAlike (dim : ℕ) (T : BCTable K) : Prop :=
  ∀ d, d < dim → (∀ f, f < dim → (T f (2 * d)).1 = .PERIODIC ∧ (T f (2 * d + 1)).1 = .PERIODIC) ∨
    ∀ f, f < dim → (T f (2 * d)).1 ≠ .PERIODIC ∧ (T f (2 * d + 1)).1 ≠ .PERIODIC

/-- A list of boundary conditions with known names that says `T f b` (last) for component `f` at face `b`, for all components and faces and no others. -/
structure DescribedWalls (dim : ℕ) (bs : List (BCNode K)) (T : BCTable K) : Prop where
  entries : ∃ es, allEntries bs = some es ∧ (∀ e ∈ es, e.comp < dim ∧ e.loc < dim * 2) ∧
    ∀ f b, f < dim → b < dim * 2 → lastFor es f b = some (T f b)
  complete : ∀ f b, f < dim → b < dim * 2 → (T f b).1 ≠ .NOBC
  alike : PeriodicAlike dim T

/-- Number of cells in one direction. -/
def cellCount (a : AxisNode K) : ℤ := (a.subDomains.map (·.cells)).sum

/-- A process grid in which every process gets points of every field: with walls a component has one point less than cells in its own direction. -/
def GridFits (dim : ℕ) (nodes : List (AxisNode K)) (T : BCTable K) (nProc : ℕ → ℕ) : Prop :=
  (∀ a ∈ nodes, ∀ d, dirNamed a.direction = some d →
    0 < nProc d ∧ (nProc d : ℤ) + (if (T 0 (2 * d)).1 = .PERIODIC then 0 else 1) ≤ cellCount a) ∧
  ∀ d, dim ≤ d → d < 3 → nProc d = 1

/-- The lines of the mesh objects are those of the section: each direction starts and ends where the file says, and its cells are those of the
sub-domains. -/
def MeshOf (nodes : List (AxisNode K)) (axes : ℕ → Axis K) : Prop :=
  ∀ a ∈ nodes, ∀ d, dirNamed a.direction = some d →
    (axes d).min = a.start ∧ (axes d).max = lastEnd a.start a.subDomains ∧
      ∃ segs, (axes d).dL = segs.flatten ∧ Segments a.start a.subDomains segs

end PetIBM.Spec
