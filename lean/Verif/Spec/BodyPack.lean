/-
Specification of the bodies that a configuration describes.
-/
import Verif.Model.Body
import Verif.Spec.BodyFile

namespace PetIBM.Spec

variable {K : Type}

/-- A path that starts with `/`. -/
def AbsolutePath (f : String) : Prop := ∃ rest, f.toList = '/' :: rest

/-- Where the file of a body is: at the given path, if it is absolute, else at this path in the directory of the simulation. -/
def FileOf (node : BodiesNode) (f path : String) : Prop :=
  (AbsolutePath f ∧ path = f) ∨ (¬ AbsolutePath f ∧ ∃ d, node.directory = some d ∧ path = d ++ "/" ++ f)

/-- `b` has the points of the file of the entry `bn`, which all have dimension `dim`; `Accepts file n coords` says that the file holds `n` points with the
coordinates `coords`. -/
def BodyFrom (Accepts : TextFile → ℕ → List (List K) → Prop) (fs : String → Option TextFile) (dim : ℕ) (node : BodiesNode) (bn : BodyNode) (b : SingleBody K) : Prop :=
  (bn.type = none ∨ bn.type = some "points") ∧ ∃ f path file, bn.file = some f ∧ FileOf node f path ∧ fs path = some file ∧
    Accepts file b.nPts b.coords ∧ (∀ x ∈ b.coords, x.length = dim) ∧ b.dim = dim

/-- The entry `bn` describes a body. -/
def Describes (R : Reader K) (fs : String → Option TextFile) (dim : ℕ) (node : BodiesNode) (bn : BodyNode) : Prop :=
  ∃ b, BodyFrom (BodyFileOK R) fs dim node bn b

end PetIBM.Spec
