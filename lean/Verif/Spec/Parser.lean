/-
Specifications for the mesh section, the boundary-condition section and the periodicity check.
-/
import Verif.Model.Parser
import Verif.Spec.Mesh
import Mathlib.Algebra.BigOperators.Group.List.Defs

namespace PetIBM.Spec

variable {K : Type*} [Field K] [LinearOrder K]

/-- What the user asked for in one sub-domain that begins at `start`: the number of cells, the total length, the
ratio of neighbouring cells (exact, or up to `10^-12` when the requested ratio is that close to one), and positive
widths for a forward interval and a positive ratio. -/
structure Segment (start : K) (s : SubDomain K) (widths : List K) : Prop where
  count : (widths.length : ℤ) = s.cells
  length : widths.sum = s.end_ - start
  ratio : |s.stretchRatio - 1| > 1 / 10 ^ 12 →
    ∀ j (h : j + 1 < widths.length), widths[j + 1] = s.stretchRatio * widths[j]
  ratio_near_one : |s.stretchRatio - 1| ≤ 1 / 10 ^ 12 →
    ∀ j (h : j + 1 < widths.length), |widths[j + 1] - s.stretchRatio * widths[j]| ≤ 1 / 10 ^ 12 * |widths[j]|
  pos : start < s.end_ → 0 < s.stretchRatio → ∀ w ∈ widths, 0 < w

/-- A list of sub-domains, each starting where the previous one ended. -/
def Segments (start : K) : List (SubDomain K) → List (List K) → Prop
  | [], [] => True
  | s :: ss, w :: ws => Segment start s w ∧ Segments s.end_ ss ws
  | _, _ => False

/-- End of the last sub-domain. -/
def lastEnd (start : K) : List (SubDomain K) → K
  | [] => start
  | s :: ss => lastEnd s.end_ ss

/-- Ends of the sub-domains increase. -/
def Forward (start : K) : List (SubDomain K) → Prop
  | [] => True
  | s :: ss => start < s.end_ ∧ Forward s.end_ ss

/-- Direction named by a string. -/
def dirNamed : String → Option ℕ
  | "x" => some 0
  | "y" => some 1
  | "z" => some 2
  | _ => none

/-- Boundary named by a string: 0/1 for the two x-boundaries, 2/3 for y, 4/5 for z. -/
def locNamed : String → Option ℕ
  | "left" => some 0 | "xMinus" => some 0 | "XMINUS" => some 0
  | "right" => some 1 | "xPlus" => some 1 | "XPLUS" => some 1
  | "bottom" => some 2 | "yMinus" => some 2 | "YMINUS" => some 2
  | "top" => some 3 | "yPlus" => some 3 | "YPLUS" => some 3
  | "back" => some 4 | "zMinus" => some 4 | "ZMINUS" => some 4
  | "front" => some 5 | "zPlus" => some 5 | "ZPLUS" => some 5
  | _ => none

/-- Velocity component named by a string. -/
def compNamed : String → Option ℕ
  | "u" => some 0
  | "v" => some 1
  | "w" => some 2
  | _ => none

/-- Type of boundary condition named by a string. -/
def typeNamed : String → Option BCType
  | "NOBC" => some .NOBC
  | "PERIODIC" => some .PERIODIC
  | "DIRICHLET" => some .DIRICHLET
  | "NEUMANN" => some .NEUMANN
  | "CONVECTIVE" => some .CONVECTIVE
  | _ => none

/-- One thing the user wrote: component, boundary, type and value. -/
structure Entry (K : Type*) where
  comp : ℕ
  loc : ℕ
  type : BCType
  value : K

/-- The entries of one map of the list `boundaryConditions`, if all its names are known. -/
def entriesOf (b : BCNode K) : Option (List (Entry K)) :=
  b.location.bind fun l => (locNamed l).bind fun loc =>
    (b.items.filter (fun it => it.1 ≠ "location")).mapM fun it =>
      (compNamed it.1).bind fun c => (typeNamed it.2.1).map fun t => ⟨c, loc, t, it.2.2⟩

/-- All entries in file order. -/
def allEntries (bs : List (BCNode K)) : Option (List (Entry K)) := (bs.mapM entriesOf).map List.flatten

/-- What the user wrote last for a component and boundary. -/
def lastFor (es : List (Entry K)) (c b : ℕ) : Option (BCType × K) :=
  ((es.filter fun e => e.comp = c ∧ e.loc = b).getLast?).map fun e => (e.type, e.value)

/-- Component `f` is periodic on both / on none of the boundaries of direction `d`. -/
def BothPeriodic (T : ℕ → ℕ → BCType) (f d : ℕ) : Prop := T f (2 * d) = .PERIODIC ∧ T f (2 * d + 1) = .PERIODIC
def NonePeriodic (T : ℕ → ℕ → BCType) (f d : ℕ) : Prop := T f (2 * d) ≠ .PERIODIC ∧ T f (2 * d + 1) ≠ .PERIODIC

/-- The first `comps` components agree in direction `d`: all periodic on both sides or none on any side; the other
components are not periodic. -/
def Consistent (T : ℕ → ℕ → BCType) (comps d : ℕ) : Prop :=
  ((∀ f, f < comps → BothPeriodic T f d) ∧ ∀ f, comps ≤ f → f < 3 → NonePeriodic T f d) ∨
    ∀ f, f < 3 → NonePeriodic T f d

end PetIBM.Spec
