/-
Specification of the grid file.
-/
import Verif.Spec.Config
import Verif.Model.Xdmf

namespace PetIBM.Spec

variable {K : Type} [Field K] [LinearOrder K]

/-- End number `i` of cells with these widths. -/
def cellEnd (start : K) (widths : List K) (i : ℕ) : K := start + (widths.take i).sum

/-- Middle of cell number `i`. -/
def cellMiddle (start : K) (widths : List K) (i : ℕ) : K := (cellEnd start widths i + cellEnd start widths (i + 1)) / 2

/-- What a grid file says about one direction: the ends of all cells; their middles for the pressure and the components along the other directions; the
ends inside the domain (and the last one, if the direction is periodic) for the component along this direction. -/
structure LinesOf (dim : ℕ) (a : AxisNode K) (d : ℕ) (periodic : Prop) (file : H5File K) (widths : List K) : Prop where
  vertices : file.data ("/vertex/" ++ a.direction) = some ((List.range (widths.length + 1)).map (cellEnd a.start widths))
  pressure : file.data ("/p/" ++ a.direction) = some ((List.range widths.length).map (cellMiddle a.start widths))
  across : ∀ f name, f < dim → f ≠ d → ["u", "v", "w"][f]? = some name →
    file.data ("/" ++ name ++ "/" ++ a.direction) = some ((List.range widths.length).map (cellMiddle a.start widths))
  along : ∀ name, ["u", "v", "w"][d]? = some name → ∃ n, (periodic → n = widths.length) ∧ (¬ periodic → n + 1 = widths.length) ∧
    file.data ("/" ++ name ++ "/" ++ a.direction) = some ((List.range n).map fun i => cellEnd a.start widths (i + 1))

/-- The grid file of a mesh section. -/
def GridFileOf (dim : ℕ) (nodes : List (AxisNode K)) (T : BCTable K) (file : H5File K) : Prop :=
  ∀ a ∈ nodes, ∀ d, dirNamed a.direction = some d → ∃ segs, Segments a.start a.subDomains segs ∧
    LinesOf dim a d ((T d (2 * d)).1 = .PERIODIC) file segs.flatten

end PetIBM.Spec
