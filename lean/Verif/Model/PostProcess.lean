/-
Model of the loops of the post-processing tools over the saved steps.
-/
import Verif.Model.NavierStokes

namespace PetIBM

/-- Range of the steps of the post-processing tools, `applications/createxdmf/main.cpp` 66-75 and
`applications/vorticity/main.cpp` 110-119: the command-line options if they are given, else the values of
`config["parameters"]`. -/
def toolRange (bg ed step startStep nt nsave : Option ℤ) : Except Error (ℤ × ℤ × ℤ) := do
  let bg := match bg with
    | some b => b
    | none => startStep.getD 0
  let ed ← match ed with
    | some e => pure e
    | none => (required nt).map (bg + ·)
  let step ← match step with
    | some s => pure s
    | none => required nsave
  return (bg, ed, step)

/-- The steps that `for (int i = bg; i <= ed; i += step)` visits, `applications/createxdmf/main.cpp` 220 and
`applications/vorticity/main.cpp` 134; at most `fuel` iterations, `none` if the loop is still running. -/
def toolSteps (ed step : ℤ) : ℕ → ℤ → Option (List ℤ)
  | fuel, i =>
    if i ≤ ed then
      match fuel with
      | 0 => none
      | fuel + 1 => (toolSteps ed step fuel (i + step)).map (i :: ·)
    else some []

/-- `printf("%07d", t)`, `applications/createxdmf/main.cpp` 230 and 250: the zeros come after the sign. -/
def printf07 (t : ℤ) : String :=
  if t < 0 then
    let d := (toString (-t)).toList
    String.ofList ('-' :: (List.replicate (6 - d.length) '0' ++ d))
  else
    let d := (toString t).toList
    String.ofList (List.replicate (7 - d.length) '0' ++ d)

/-- The file of a step that an XDMF file refers to, `applications/createxdmf/main.cpp` 248-251 (`CaseDir` is the directory of the XDMF
file, which is the output directory). -/
def xdmfPath (output : String) (t : ℤ) : String := output ++ "/" ++ printf07 t ++ ".h5"

/-- The file of a step that the vorticity tool reads and appends to, `applications/vorticity/main.cpp` 141-143. -/
def vorticityPath (output : String) (t : ℤ) : String := output ++ "/" ++ stepDigits t ++ ".h5"

end PetIBM
