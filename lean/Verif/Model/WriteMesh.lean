/-
The program `writemesh`.
-/
import Verif.Model.Config
import Verif.Model.Xdmf

namespace PetIBM

variable {K : Type} [Field K] [LinearOrder K]

/-- `main` of `applications/writemesh/main.cpp` 24-54 after `getSettings`: `output` is the entry of the settings, `file` the option `-file`. A mesh object
whose `init` stopped has empty pointers `coord` (`src/mesh/cartesianmesh.cpp` 93), which `write` follows. Simplification: if `init` stopped because of a
process grid that is too fine, the lines are there; the result is undefined here. -/
def writemesh (nProc : ℕ → ℕ) (output : String) (file : Option String) (mesh : Option (List (AxisNode K))) (flow : Option (Option (List (BCNode K))))
    (disk : Disk K) : Except Error (Disk K) := do
  match ← createMesh nProc mesh flow with
  | none => .error .ub
  | some (L, G, _) => return gridWrite L G disk (file.getD (output ++ "/grid.h5"))

end PetIBM
