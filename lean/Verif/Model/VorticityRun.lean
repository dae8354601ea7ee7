/-
The program `petibm-vorticity` as a whole.
-/
import Verif.Model.Vorticity
import Verif.Model.PostProcess
import Verif.Model.Xdmf
import Verif.Model.NavierStokes

namespace PetIBM

variable {K : Type} [Field K] [LinearOrder K]

/-- The objects that `main` keeps over the time steps: the vectors of `soln`, the boundary objects of all ranks, the vectors `w`, and the files.
(`applications/vorticity/main.cpp` 71-85) -/
structure VorticityState (K : Type) where
  U : ℤ → K
  p : ℤ → K
  B : ℕ → Boundary K
  w : ℕ → ℕ × ℕ × ℕ → K
  disk : Disk K

/-- One pass of the loop, `applications/vorticity/main.cpp` 134-166, with the objects as the previous pass left them. -/
def vorticityPass (L : Layout) (G : Geom K) (path : String) (s : VorticityState K) : Except Error (VorticityState K) := do
  let (U, p) ← solutionRead L s.U s.p s.disk path
  let B := fun r => (s.B r).setGhostICs U
  let ws ← (List.range (vorticityNames L.dim).length).mapM fun f => calculateVorticity L G B U f (s.w f)
  let w := fun f => (ws[f]?).getD (s.w f)
  let vecs := (List.range (vorticityNames L.dim).length).map fun f => (gridList (vorticityLayout L).toMeshInfo f).map (w f)
  return { U := U, p := p, B := B, w := w, disk := writeHDF5Vecs s.disk path "/" (vorticityNames L.dim) vecs .append }

/-- `for (int i = bg; i <= ed; i += step)`, `applications/vorticity/main.cpp` 134-167; the file names of lines 141-143 are those of the solver. At most
`fuel` iterations, `none` if the loop is still running. -/
def vorticityLoop (L : Layout) (G : Geom K) (output : String) (ed step : ℤ) :
    ℕ → ℤ → VorticityState K → Option (Except Error (VorticityState K))
  | fuel, i, s =>
    if i ≤ ed then
      match fuel with
      | 0 => none
      | fuel + 1 =>
        match vorticityPass L G (stepPath output i) s with
        | .error e => some (.error e)
        | .ok s => vorticityLoop L G output ed step fuel (i + step) s
    else some (.ok s)

/-- `main`, `applications/vorticity/main.cpp` 65-183, after the creation of mesh and boundaries (lines 87-93): `bg`, `ed`, `step` are the options of the
command line, `startStep`, `nt`, `nsave` the entries of `parameters`, `output` the entry of the settings. The vectors are zero when they have been
created. -/
def runVorticity (L : Layout) (G : Geom K) (B : ℕ → Boundary K) (output : String) (bg ed step startStep nt nsave : Option ℤ) (fuel : ℕ) (disk : Disk K) :
    Option (Except Error (Disk K)) :=
  let disk := gridAppendVorticity L G disk (output ++ "/grid.h5")
  match toolRange bg ed step startStep nt nsave with
  | .error e => some (.error e)
  | .ok (bg, ed, step) =>
    (vorticityLoop L G output ed step fuel bg ⟨fun _ => 0, fun _ => 0, B, fun _ _ => 0, disk⟩).map (Except.map (·.disk))

end PetIBM
