/-
Specifications for the numbering of body forces.
-/
import Verif.Model.Body

namespace PetIBM.Spec

variable {K : Type}

/-- A consistent pack of bodies: every body has the dimension of the pack and its points are distributed over all
processes (in any way; processes may be without points). -/
structure PackOK (P : BodyPack K) : Prop where
  dim_pos : 0 < P.dim
  dim : ∀ b ∈ P.bodies, b.dim = P.dim
  procs : ∀ b ∈ P.bodies, b.lcl.length = P.mpiSize
  points : ∀ b ∈ P.bodies, b.lcl.sum = b.nPts

/-- A component of the force at a point of a body, with the process that owns the point. -/
structure LagDof where
  rank : ℕ
  body : ℕ
  point : ℕ
  comp : ℕ
deriving DecidableEq

/-- Process `r` owns point `i` of the body: `i` lies between the number of points of the processes before it and the
number of points up to and including its own. -/
def OwnsPoint (b : SingleBody K) (r i : ℕ) : Prop := (b.lcl.take r).sum ≤ i ∧ i < (b.lcl.take (r + 1)).sum

/-- The degree of freedom exists, and its process is the owner. -/
def IsLagDof (P : BodyPack K) (u : LagDof) : Prop :=
  u.comp < P.dim ∧ u.rank < P.mpiSize ∧
    ∃ b, P.bodies[u.body]? = some b ∧ u.point < b.nPts ∧ OwnsPoint b u.rank u.point

/-- The demanded order: by process, then body, then point, then component. -/
def LagBefore (a b : LagDof) : Prop :=
  a.rank < b.rank ∨ (a.rank = b.rank ∧ (a.body < b.body ∨ (a.body = b.body ∧ (a.point < b.point ∨
    (a.point = b.point ∧ a.comp < b.comp)))))

end PetIBM.Spec
