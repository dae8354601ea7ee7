/-
Probes in a run: what the solvers hand to them, data sets in HDF5 files, restarts.
-/
import Verif.Model.Probe
import Verif.Model.Ibpm
import Mathlib.Data.Rat.Floor
import Mathlib.Algebra.Order.Floor.Ring

namespace PetIBM

/-- `NavierStokesSolver::monitorProbes`, `applications/navierstokes/navierstokes.cpp` 840-855, called at the end of `write`
(lines 304-305): the probes get `solution`, `ite` and `t`. In the coupled solver `solution->pGlobal` is the composite vector at
that time (`applications/ibpm/ibpm.cpp` 218-222; 325-332 swap it only while the solution is written), as in `ibpmAdvance`. -/
def monitorSnapshot {K : Type} (s : NSState K) : Snapshot K := ⟨s.ite, s.t, s.U, s.p⟩

/-- `std::to_string(t)` (`src/misc/probes.cpp` 562, 567): `%f`, six decimals, rounded to nearest, ties to even; represented by the number of
millionths. (The sign of a negative time that rounds to zero would be printed and is not represented.) -/
def toMicro (t : ℚ) : ℤ :=
  let x := t * 1000000
  let r := x - ⌊x⌋
  if r < 1 / 2 then ⌊x⌋ else if 1 / 2 < r then ⌊x⌋ + 1 else if ⌊x⌋ % 2 = 0 then ⌊x⌋ else ⌊x⌋ + 1

/-- `ProbeVolume::writeVec_HDF5`, `src/misc/probes.cpp` 553-573, on the data sets of the group of the field: `VecView` overwrites a
data set that exists. The attribute is not represented. -/
def putDataset (file : List (ℤ × List ℚ)) (o : ProbeOutput ℚ) : List (ℤ × List ℚ) :=
  if file.any fun x => x.1 == toMicro o.t then file.map fun x => if x.1 == toMicro o.t then (x.1, o.values) else x
  else file ++ [(toMicro o.t, o.values)]

/-- All outputs of a run, starting with a new file. (`src/misc/probes.cpp` 553-573) -/
def datasets (outs : List (ProbeOutput ℚ)) : List (ℤ × List ℚ) := outs.foldl putDataset []

/-- Contents of the output file of a volume probe after several executions (a run and its restarts), given what each execution monitors:
every execution creates the probe anew and opens the file with `FILE_MODE_WRITE` (`writeGrid_HDF5` line 370, `writeGrid_ASCII` line 409). (`src/misc/probes.cpp`) -/
def fileAfterRuns {K : Type} [Field K] [LinearOrder K] (L : Layout) (axes : ℕ → Axis K) (f : ℕ) (box : ℕ → K × K) (atol : K) (T : ProbeTimes K)
    (nSum : ℤ) (hs : List (List (Snapshot K))) : Except Error (List (ProbeOutput K)) :=
  hs.foldlM (fun _ h => do
    let o ← volumeRun L axes f box atol T nSum h
    return o.2) []

end PetIBM
