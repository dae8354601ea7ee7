/-
What the program `petibm-vorticity` does with the file of a time step.
-/
import Verif.Spec.Vorticity
import Verif.Model.VorticityRun

namespace PetIBM.Spec

variable {K : Type} [Field K] [LinearOrder K]

/-- `file` is `old` with the vorticity of the velocity that `old` holds: computed with new objects from this file alone, on all its points, the first
index running fastest. Everything else is as in `old`. -/
structure AddsVorticity (L : Layout) (G : Geom K) (B : ℕ → Boundary K) (old file : H5File K) : Prop where
  time : file.time = old.time
  others : ∀ name, name ≠ "/wx" → name ≠ "/wy" → name ≠ "/wz" → file.data name = old.data name
  values : ∃ U p, solutionRead L (fun _ => 0) (fun _ => 0) (fun _ => some old) "" = .ok (U, p) ∧
    ∀ f name, (vorticityNames L.dim)[f]? = some name → ∃ z v,
      calculateVorticity L G (fun r => (B r).setGhostICs U) U f (fun _ => 0) = .ok z ∧ file.data ("/" ++ name) = some v ∧
      v.length = vorticityCount L.toMeshInfo f 0 * vorticityCount L.toMeshInfo f 1 * vorticityCount L.toMeshInfo f 2 ∧
      ∀ i j k, i < vorticityCount L.toMeshInfo f 0 → j < vorticityCount L.toMeshInfo f 1 → k < vorticityCount L.toMeshInfo f 2 →
        v[(k * vorticityCount L.toMeshInfo f 1 + j) * vorticityCount L.toMeshInfo f 0 + i]? = some (z (i, j, k))

/-- The steps of the loop of the program. -/
def Visited (bg ed step t : ℤ) : Prop := bg ≤ t ∧ t ≤ ed ∧ step ∣ t - bg

/-- A separate process `one` for the file of every step that `for (int i = bg; i <= ed; i += step)` visits; `none` if the loop is still running after
`fuel` steps. -/
def eachAlone (one : Disk K → String → Except Error (Disk K)) (output : String) (ed step : ℤ) : ℕ → ℤ → Disk K → Option (Except Error (Disk K))
  | fuel, i, d =>
    if i ≤ ed then
      match fuel with
      | 0 => none
      | fuel + 1 =>
        match one d (stepPath output i) with
        | .error e => some (.error e)
        | .ok d => eachAlone one output ed step fuel (i + step) d
    else some (.ok d)

end PetIBM.Spec
