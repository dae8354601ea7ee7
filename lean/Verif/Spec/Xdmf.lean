/-
What the references of an XDMF file have to satisfy.
-/
import Verif.Model.Xdmf

namespace PetIBM.Spec

variable {K : Type}

/-- The data set exists and has the given number of entries. -/
def HasEntries (disk : Disk K) (path name : String) (n : ℕ) : Prop := ∃ file v, disk path = some file ∧ file.data name = some v ∧ v.length = n

/-- Three directions, each with as many coordinates as the size says (a literal counts one). -/
def GeometryResolves (disk : Disk K) (X : Xdmf) : Prop :=
  X.size.length = 3 ∧ X.geometry.length = 3 ∧ ∀ (d n : ℕ) (g : Option (String × String)), X.size[d]? = some n → X.geometry[d]? = some g →
    match g with
    | none => n = 1
    | some (path, name) => HasEntries disk path name n

/-- The data of step `t` has as many entries as the size says. -/
def DataResolves (disk : Disk K) (X : Xdmf) (t : ℤ) : Prop :=
  ∀ path name, (t, path, name) ∈ X.data → HasEntries disk path name X.size.prod

end PetIBM.Spec
