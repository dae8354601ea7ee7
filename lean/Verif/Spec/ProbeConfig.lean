/-
Specifications for the entries of `probes` and for the files of the probes.
-/
import Verif.Spec.Probe
import Verif.Spec.Parser
import Verif.Model.ProbeConfig

namespace PetIBM.Spec

variable {K : Type} [Field K] [LinearOrder K]

/-- Field named by a string, if a mesh with `dim` directions has it: velocity components and pressure. -/
def fieldNamed (dim : ℕ) : String → Option ℕ
  | "u" => some 0
  | "v" => some 1
  | "w" => if dim = 3 then some 2 else none
  | "p" => some 3
  | _ => none

/-- The times an entry asks for: every step from 0 to 10¹², unless it says otherwise. -/
structure AsksTimes (node : ProbeNode K) (T : ProbeTimes K) : Prop where
  period : ∀ n, node.nMonitor = some n → T.nMonitor = n
  every : node.nMonitor = none → T.nMonitor = 1
  start : ∀ t, node.tStart = some t → T.tStart = t
  zero : node.tStart = none → T.tStart = 0
  stop : ∀ t, node.tEnd = some t → T.tEnd = t
  forever : node.tEnd = none → T.tEnd = 1000000000000

/-- What an entry for a sub-volume asks for, if all its names are known. -/
structure AsksVolume (dim : ℕ) (node : ProbeNode K) (f : ℕ) (box : ℕ → K × K) (atol : K) (T : ProbeTimes K) (nSum : ℤ) (viewer : ViewerType) : Prop where
  type : node.type = none ∨ node.type = some "VOLUME"
  field : ∃ s, node.field = some s ∧ fieldNamed dim s = some f
  times : AsksTimes node T
  viewer : (viewer = .ascii ∧ (node.viewer = none ∨ node.viewer = some "ascii")) ∨ (viewer = .hdf5 ∧ node.viewer = some "hdf5")
  tolerance : (∀ a, node.atol = some a → atol = a) ∧ (node.atol = none → atol = 1 / 1000000)
  window : (∀ m, node.nSum = some m → nSum = m) ∧ (node.nSum = none → nSum = 0)
  /-- the limits that are listed are those of the box -/
  listed : ∀ e ∈ node.box, ∃ d lo hi, dirNamed e.1 = some d ∧ e.2.1 = some lo ∧ e.2.2 = some hi ∧ box d = (lo, hi)
  /-- the others are zero -/
  unlisted : ∀ d, (∀ e ∈ node.box, dirNamed e.1 ≠ some d) → box d = (0, 0)

/-- What an entry for a point asks for. -/
structure AsksPoint (dim : ℕ) (node : ProbeNode K) (f : ℕ) (x : ℕ → K) (T : ProbeTimes K) : Prop where
  type : node.type = some "POINT"
  field : ∃ s, node.field = some s ∧ fieldNamed dim s = some f
  times : AsksTimes node T
  loc : ∀ d, d < dim → node.loc[d]? = some (x d)
  flat : ∀ d, dim ≤ d → x d = 0

/-- What a volume probe writes during the steps `h`: the samples of the steps that are due, or their means over consecutive windows, each with the time
of the last sample and the number of samples. -/
def Outputs (L : Layout) (f : ℕ) (P : VolumeProbe K) (T : ProbeTimes K) (nSum : ℤ) (h : List (Snapshot K)) (outs : List (ProbeOutput K)) : Prop :=
  (nSum = 0 → List.Forall₂ (fun s o => o.t = s.t ∧ o.count = 0 ∧ Records L f P o (fieldOf L.dim f s)) (dueSteps T h) outs) ∧
  (nSum ≠ 0 → outs.length = (dueSteps T h).length / nSum.natAbs ∧
    ∀ (j : ℕ) (o : ProbeOutput K), outs[j]? = some o →
      (∃ s, (dueSteps T h)[j * nSum.natAbs + nSum.natAbs - 1]? = some s ∧ o.t = s.t) ∧ o.count = nSum.natAbs ∧
      Records L f P o (meanOf L.dim f (((dueSteps T h).drop (j * nSum.natAbs)).take nSum.natAbs)))

/-- Names of the directions and fields in the files. -/
def dirLetter : ℕ → String
  | 0 => "x" | 1 => "y" | _ => "z"

/-- Name of a field -/
def fieldLetter : ℕ → String
  | 0 => "u" | 1 => "v" | 2 => "w" | _ => "p"

/-- The file of a volume probe after the outputs `outs`: the grid lines, the index set, and the outputs, in an HDF5 file under their names, the last one
for each name. -/
def HoldsVolume (label : K → String) (f : ℕ) (viewer : ViewerType) (P : VolumeProbe K) (outs : List (ProbeOutput K)) (file : ProbeFile K) : Prop :=
  match viewer with
  | .ascii => ∃ g : List (ProbeBlock K), file = .ascii (g ++ .indices P.isNatural ::
        outs.flatMap fun o => if o.count = 0 then [ProbeBlock.time o.t, ProbeBlock.vector "" o.values]
          else [ProbeBlock.time o.t, ProbeBlock.count o.count, ProbeBlock.vector "" o.values]) ∧
      g.length = P.coord.length ∧ ∀ d l, P.coord[d]? = some l → g[d]? = some (ProbeBlock.vector (dirLetter d) l)
  | .hdf5 => ∃ g data, file = .hdf5 g (some P.isNatural) data ∧
      (g.length = P.coord.length ∧ ∀ d l, P.coord[d]? = some l → g[d]? = some (dirLetter d, l)) ∧
      (data.map fun x => (x.group, x.name)).Nodup ∧
      ∀ x, x ∈ data ↔ ∃ l o r, outs = l ++ o :: r ∧
        x = ⟨fieldLetter f, label o.t, o.values, if o.count = 0 then none else some o.count⟩ ∧ ∀ o' ∈ r, label o'.t ≠ label o.t

/-- The file of a point probe after the steps `h`: one line for each step that is due, with the time and an interpolated value. -/
def HoldsPoint (L : Layout) (G : Geom K) (f : ℕ) (x : ℕ → K) (T : ProbeTimes K) (h : List (Snapshot K)) (file : ProbeFile K) : Prop :=
  ∃ lines, file = .ascii lines ∧
    List.Forall₂ (fun s b => ∃ y, b = ProbeBlock.line s.t y ∧ Interpolates L G f x (fieldOf L.dim f s) y) (dueSteps T h) lines

/-- The point of a probe for which C34 is proved: between the first and the last line of a velocity component; strictly behind the first line and before
the first line of the last processes for the pressure. -/
def Within (L : Layout) (G : Geom K) (f : ℕ) (x : ℕ → K) : Prop :=
  (f < L.dim ∧ ∀ d, d < L.dim → BetweenLines L.toMeshInfo G f d (x d)) ∨
  (f = 3 ∧ ∀ d, d < L.dim → startOf (L.own 3 d) (L.nProc d - 1) < L.n 3 d ∧ G.coord 3 d 0 < x d ∧ x d < G.coord 3 d (startOf (L.own 3 d) (L.nProc d - 1)))

/-- The entry asks for a sub-volume whose limits are in order, or a point inside; every so many steps, but not
every zero steps. -/
def Answerable (L : Layout) (G : Geom K) (node : ProbeNode K) : Prop :=
  (∃ f box atol T nSum viewer, AsksVolume L.dim node f box atol T nSum viewer ∧ (∀ d, d < L.dim → (box d).1 - atol ≤ (box d).2 + atol) ∧ T.nMonitor ≠ 0) ∨
  (∃ f x T, AsksPoint L.dim node f x T ∧ Within L G f x ∧ T.nMonitor ≠ 0)

/-- The file is the answer to the entry after the steps `h`. -/
def Answers (L : Layout) (G : Geom K) (label : K → String) (node : ProbeNode K) (h : List (Snapshot K)) (file : ProbeFile K) : Prop :=
  (∃ f box atol T nSum viewer P outs, AsksVolume L.dim node f box atol T nSum viewer ∧ Selects L G f box atol P ∧ Outputs L f P T nSum h outs ∧
    HoldsVolume label f viewer P outs file) ∨
  (∃ f x T, AsksPoint L.dim node f x T ∧ HoldsPoint L G f x T h file)

end PetIBM.Spec
