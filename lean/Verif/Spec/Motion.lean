/-
What body files and prescribed motions have to satisfy.
-/
import Verif.Model.Motion
import Verif.Spec.Ibpm

namespace PetIBM.Spec

variable {K : Type}

/-- The file has one line per point, in order, with the printed coordinates of the point separated by tabs. -/
def HoldsPoints (fmt : K → List Char) (file : TextFile) (coords : List (List K)) : Prop :=
  file.lines.length = coords.length ∧ file.terminated = true ∧
    ∀ (k : ℕ) (x : List K), coords[k]? = some x → file.lines[k]? = some (List.intercalate ['\t'] (x.map fmt))

/-- Every body has its points, each with as many coordinates as the dimension. -/
def PointsOK (P : BodyPack K) : Prop :=
  ∀ b ∈ P.bodies, b.coords.length = b.nPts ∧ ∀ x ∈ b.coords, x.length = b.dim

/-- Coordinate `d` of point `k` of body `b`. -/
def bodyCoord (P : BodyPack K) (b k d : ℕ) : Option K := (P.bodies[b]?).bind fun body => (body.coords[k]?).bind fun x => x[d]?

end PetIBM.Spec
