/-
Files of a run with immersed bodies.
-/
import Verif.Model.IbpmRun
import Verif.Spec.Ibpm
import Verif.Spec.Files

namespace PetIBM.Spec

variable {K : Type} [Field K] [LinearOrder K]

/-- The file holds the Lagrangian forces. -/
def ForceIn (nF : ℕ) (file : H5File K) (f : ℤ → K) : Prop :=
  ∃ v : List K, file.data "/force" = some v ∧ v.length = nF ∧ ∀ m : ℕ, m < nF → v[m]? = some (f m)

/-- The files `d` that a run of `n` steps with the flows `ns k` and the Lagrangian forces `f k` after step `k` leaves, if the files were `disk` before:
* every step that is a multiple of `nsave` has a file with velocity, pressure and time, and nothing else unless it is a multiple of
  `nrestart`;
* every step that is a multiple of `nrestart` has a file with the explicit terms and the Lagrangian forces, and with the solution unless there was a file;
* a run from step 0 leaves the initial solution;
* nothing else has changed. -/
structure RunFiles (L : Layout) (P : NSParams K) (nF : ℕ) (n : ℕ) (ns : ℕ → NSState K) (f : ℕ → ℤ → K) (disk d : Disk K) : Prop where
  saved : ∀ k : ℕ, 1 ≤ k → k ≤ n → P.nsave ∣ P.nstart + k → ∃ file, d (stepPath P.output (P.nstart + k)) = some file ∧ SolutionIn L file (ns k) ∧
    (¬ P.nrestart ∣ P.nstart + k → file.data "/force" = none ∧
      ∀ i : ℕ, file.data ("/convection/" ++ toString i) = none ∧ file.data ("/diffusion/" ++ toString i) = none)
  restart : ∀ k : ℕ, 1 ≤ k → k ≤ n → P.nrestart ∣ P.nstart + k → ∃ file, d (stepPath P.output (P.nstart + k)) = some file ∧ RestartIn L file (ns k) ∧
    ForceIn nF file (f k) ∧ (disk (stepPath P.output (P.nstart + k)) = none → SolutionIn L file (ns k))
  initial : P.nstart = 0 → ∃ file, d (stepPath P.output 0) = some file ∧ SolutionIn L file (ns 0)
  other : ∀ path, (∀ k : ℕ, 1 ≤ k → k ≤ n → P.nsave ∣ P.nstart + k ∨ P.nrestart ∣ P.nstart + k → path ≠ stepPath P.output (P.nstart + k)) →
    (P.nstart = 0 → path ≠ stepPath P.output 0) → d path = disk path

/-- `avg` has, for every body and every direction, minus the sum of the forces of its points. -/
def TotalForces (bodies : BodyPack K) (f : ℤ → K) (avg : List (List K)) : Prop :=
  avg.length = bodies.bodies.length ∧ ∀ (b : ℕ) (x : SingleBody K), bodies.bodies[b]? = some x → ∃ l : List K, avg[b]? = some l ∧ l.length = bodies.dim ∧
    ∀ d : ℕ, d < bodies.dim → ∀ F : ℕ → K, (∀ i : ℕ, i < x.nPts → ∃ idx, bodies.getPackedGlobalIndex b i d = .ok idx ∧ F i = f idx) →
      l[d]? = some (-((List.range x.nPts).map F).sum)

/-- The file of forces has one line for each of the `n` steps, with the time and the forces on the bodies after the step. -/
def ForcesFile (fmt : K → List Char) (bodies : BodyPack K) (n : ℕ) (ns : ℕ → NSState K) (f : ℕ → ℤ → K) (file : TextFile) : Prop :=
  file.terminated = true ∧ file.lines.length = n ∧ ∀ k, k < n → ∃ avg, TotalForces bodies (f (k + 1)) avg ∧
    file.lines[k]? = some (((ns (k + 1)).t :: avg.flatten).flatMap fun x => fmt x ++ ['\t'])

end PetIBM.Spec
