/-
Complete runs with prescribed motion.
-/
import Verif.Spec.Motion
import Verif.Spec.IbpmRun

namespace PetIBM.Spec

variable {K : Type} [Field K] [LinearOrder K]

/-- The motion moves the points of the bodies and changes nothing else that matters: numbers of points and processes and the
dimension of the coordinates are kept. -/
structure MovesPoints (L : Layout) (M : Motion K) : Prop where
  ok : ∀ t b, BodiesOK L b → BodiesOK L (M.coordinates t b)
  points : ∀ t b, BodiesOK L b → PointsOK b → PointsOK (M.coordinates t b)
  same : ∀ t b, (M.coordinates t b).bodies.map (·.nPts) = b.bodies.map (·.nPts)

/-- Positions and velocities of the points of `b` are functions of time: they do not depend on the time at which the points were moved before. -/
structure FollowsTime (M : Motion K) (b : BodyPack K) : Prop where
  position : ∀ t t', M.coordinates t (M.coordinates t' b) = M.coordinates t b
  velocity : ∀ t t', M.velocity t (M.coordinates t b) (M.velocity t' (M.coordinates t' b) fun _ => 0) = M.velocity t (M.coordinates t b) fun _ => 0

/-- The file of forces has one line for each of the `n` steps, with the time and the forces on the bodies, as they are after the step. -/
def MovingForcesFile (fmt : K → List Char) (bodies : ℕ → BodyPack K) (n : ℕ) (ns : ℕ → NSState K) (f : ℕ → ℤ → K) (file : TextFile) : Prop :=
  file.terminated = true ∧ file.lines.length = n ∧ ∀ k, k < n → ∃ avg, TotalForces (bodies (k + 1)) (f (k + 1)) avg ∧
    file.lines[k]? = some (((ns (k + 1)).t :: avg.flatten).flatMap fun x => fmt x ++ ['\t'])

/-- The text files `text'` of a run of `n` steps with the bodies `bodies k` after step `k`, besides the file of forces, if they were `text` before:
* every body has, for the start and for every step that is a multiple of `nsave`, a file with its points;
* nothing else has changed. -/
structure BodyFiles (fmt : K → List Char) (P : NSParams K) (names : List String) (dim : ℕ) (n : ℕ) (bodies : ℕ → BodyPack K)
    (text text' : TextDisk) : Prop where
  saved : ∀ k : ℕ, k ≤ n → k = 0 ∨ P.nsave ∣ P.nstart + k → ∀ (i : ℕ) (name : String) (b : SingleBody K), names[i]? = some name →
    (bodies k).bodies[i]? = some b → ∃ file, text' (bodyPath P.output name (P.nstart + k) dim) = some file ∧ HoldsPoints fmt file b.coords
  other : ∀ path, path ≠ forcesPath P.output P.nstart → (∀ k : ℕ, k ≤ n → k = 0 ∨ P.nsave ∣ P.nstart + k → ∀ name ∈ names,
    path ≠ bodyPath P.output name (P.nstart + k) dim) → text' path = text path

end PetIBM.Spec
