/-
Probes: interpolation at a point, selection of a sub-volume, sampling times and averaging
(`src/misc/lininterp.cpp`, `src/misc/probes.cpp`).
-/
import Verif.Model.Delta
import Verif.Model.Local

namespace PetIBM

variable {K : Type} [Field K] [LinearOrder K]

/-! ### Points -/

/-- `std::lower_bound(first, last, x) - first`: number of leading elements that are smaller. (`src/misc/lininterp.cpp` 104) -/
def lowerBoundK (v : List K) (x : K) : ℕ := (v.takeWhile fun a => decide (a < x)).length

/-- `type::RealVec1D line(coord[f][d], coord[f][d] + n[f][d])`, e.g. `src/misc/lininterp.cpp` 101-102. -/
def gridLine (L : Layout) (axes : ℕ → Axis K) (f d : ℕ) : Except Error (List K) :=
  (List.range (L.n f d)).mapM fun i : ℕ => meshCoord L axes f d i

/-- The test of one direction in `isPointOnLocalProc`, `src/mesh/cartesianmesh.cpp` 831-833: is the point outside of the
sub-domain of rank `r`? The second coordinate is read only if the first test fails. -/
def outsideDir (L : Layout) (axes : ℕ → Axis K) (f r d : ℕ) (x : K) : Except Error Bool := do
  let lo ← meshCoord L axes f d (L.bg f r d)
  if x < lo then return true
  let hi ← meshCoord L axes f d (L.ed f r d)
  return decide (hi ≤ x)

/-- The loop of `isPointOnLocalProc` over the given directions; it returns at the first direction that fails. (`src/mesh/cartesianmesh.cpp` 825-841) -/
def onLocalDirs (L : Layout) (axes : ℕ → Axis K) (f r : ℕ) (point : ℕ → K) : List ℕ → Except Error Bool
  | [] => .ok true
  | d :: ds => do
    let out ← outsideDir L axes f r d (point d)
    if out then return false else onLocalDirs L axes f r point ds

/-- `CartesianMesh::isPointOnLocalProc`, `src/mesh/cartesianmesh.cpp` 825-841, on rank `r`. -/
def isPointOnLocalProc (L : Layout) (axes : ℕ → Axis K) (f r : ℕ) (point : ℕ → K) : Except Error Bool :=
  onLocalDirs L axes f r point (List.range L.dim)

/-- The members of `LinInterpBase` for one direction: `idxDirs[d]`, `bl[d]`, `tr[d]`, `target[d]`. (`include/petibm/lininterp.h` 50-59) -/
structure BoxDir (K : Type) where
  idx : ℤ
  bl : K
  tr : K
  target : K

/-- `getBLGridlineIndices` and `getBoxCoords` in direction `d`, `src/misc/lininterp.cpp` 92-128. -/
def boxDir (L : Layout) (axes : ℕ → Axis K) (f d : ℕ) (x : K) : Except Error (BoxDir K) := do
  let line ← gridLine L axes f d
  let idx : ℤ := (lowerBoundK line x : ℤ) - 1
  let bl ← meshCoord L axes f d idx
  let tr ← meshCoord L axes f d (idx + 1)
  return ⟨idx, bl, tr, x⟩

/-- `LinInterpBase::init`, `src/misc/lininterp.cpp` 70-89, after the check of the dimension in `createLinInterp`, 16-37.
The constructors ignore the error code of `init` (lines 136-142); out-of-range coordinates are undefined behaviour anyway. -/
def createLinInterp (L : Layout) (axes : ℕ → Axis K) (f : ℕ) (point : ℕ → K) : Except Error (List (BoxDir K)) :=
  if L.dim = 2 ∨ L.dim = 3 then (List.range L.dim).mapM fun d => boxDir L axes f d (point d)
  else .error .argUnknownType

/-- `xd`, `yd`, `zd`, e.g. `src/misc/lininterp.cpp` 158-160. -/
def BoxDir.frac (b : BoxDir K) : K := (b.target - b.bl) / (b.tr - b.bl)

/-- `BiLinInterp::interpolate` and `TriLinInterp::interpolate`, `src/misc/lininterp.cpp` 187-209 and 144-171, on the local
vector `v` of rank `r`. -/
def interpolate (L : Layout) (f r : ℕ) (v : ℤ → K) (boxes : List (BoxDir K)) : Except Error K :=
  let a (k j i : ℤ) : Except Error K := readLocal L f r v k j i
  match boxes with
  | [b0, b1] => do
    let xd := b0.frac
    let yd := b1.frac
    let c0 := (1 - xd) * (← a 0 b1.idx b0.idx) + xd * (← a 0 b1.idx (b0.idx + 1))
    let c1 := (1 - xd) * (← a 0 (b1.idx + 1) b0.idx) + xd * (← a 0 (b1.idx + 1) (b0.idx + 1))
    return (1 - yd) * c0 + yd * c1
  | [b0, b1, b2] => do
    let xd := b0.frac
    let yd := b1.frac
    let zd := b2.frac
    let c00 := (1 - xd) * (← a b2.idx b1.idx b0.idx) + xd * (← a b2.idx b1.idx (b0.idx + 1))
    let c01 := (1 - xd) * (← a b2.idx (b1.idx + 1) b0.idx) + xd * (← a b2.idx (b1.idx + 1) (b0.idx + 1))
    let c10 := (1 - xd) * (← a (b2.idx + 1) b1.idx b0.idx) + xd * (← a (b2.idx + 1) b1.idx (b0.idx + 1))
    let c11 := (1 - xd) * (← a (b2.idx + 1) (b1.idx + 1) b0.idx) + xd * (← a (b2.idx + 1) (b1.idx + 1) (b0.idx + 1))
    let c0 := (1 - yd) * c00 + yd * c01
    let c1 := (1 - yd) * c10 + yd * c11
    return (1 - zd) * c0 + zd * c1
  | _ => .error .ub

/-- The members of `ProbePoint` on one process: `interp` if `pointOnLocalProc`, and the local vector `svec`. (`include/petibm/probes.h` 307-319) -/
structure PointProbe (K : Type) where
  interp : Option (List (BoxDir K))
  svec : ℤ → K

/-- `ProbePoint::init`, `src/misc/probes.cpp` 607-645, on rank `r`, without the viewer. `DMCreateLocalVector` gives a vector
of zeros. -/
def pointInit (L : Layout) (axes : ℕ → Axis K) (f : ℕ) (loc : ℕ → K) (r : ℕ) : Except Error (PointProbe K) := do
  let on ← isPointOnLocalProc L axes f r loc
  if on then
    let b ← createLinInterp L axes f loc
    return ⟨some b, fun _ => 0⟩
  else return ⟨none, fun _ => 0⟩

/-- `ProbePoint::monitorVec`, `src/misc/probes.cpp` 665-687, on rank `r`: new state and the value printed to the file, if
this process prints one. `q` is the packed vector that holds the field. -/
def pointMonitor (L : Layout) (f r : ℕ) (P : PointProbe K) (q : ℤ → K) : Except Error (PointProbe K × Option K) :=
  let svec := scatterLocal L f r q P.svec
  match P.interp with
  | some b => do
    let v ← interpolate L f r svec b
    return (⟨P.interp, svec⟩, some v)
  | none => .ok (⟨P.interp, svec⟩, none)

/-- One call of `monitorVec`; the printed values are collected. (`src/misc/probes.cpp` 665-687) -/
def pointStep (L : Layout) (f r : ℕ) (st : PointProbe K × List (Option K)) (q : ℤ → K) :
    Except Error (PointProbe K × List (Option K)) := do
  let o ← pointMonitor L f r st.1 q
  return (o.1, st.2 ++ [o.2])

/-- The life of a point probe on rank `r`: initialisation and one call of `monitorVec` for each of the given vectors. (`src/misc/probes.cpp` 607-687) -/
def pointRun (L : Layout) (axes : ℕ → Axis K) (f : ℕ) (loc : ℕ → K) (r : ℕ) (qs : List (ℤ → K)) :
    Except Error (PointProbe K × List (Option K)) := do
  let P ← pointInit L axes f loc r
  qs.foldlM (pointStep L f r) (P, [])

/-! ### Sampling times -/

/-- The members of `ProbeBase` read by `monitor`; defaults of `ProbeBase::init`, `src/misc/probes.cpp` 74-76. -/
structure ProbeTimes (K : Type) where
  nMonitor : ℤ := 1
  tStart : K
  tEnd : K

/-- What a probe samples. (`src/misc/probes.cpp` 126-145) -/
inductive ProbeSource where
  | velocity (f : ℕ)
  | pressure
deriving DecidableEq

/-- `ProbeBase::monitor`, `src/misc/probes.cpp` 114-148: what is handed to `monitorVec` in time step `n` at time `t`, if
anything. `%` truncates; the remainder by zero is undefined. -/
def probeMonitor (dim field : ℕ) (P : ProbeTimes K) (n : ℤ) (t : K) : Except Error (Option ProbeSource) :=
  if P.nMonitor = 0 then .error .ub
  else if Int.tmod n P.nMonitor = 0 ∧ t ≥ P.tStart ∧ t ≤ P.tEnd then
    if field < dim then .ok (some (.velocity field))
    else if field = 3 then .ok (some .pressure)
    else .error .unsupported
  else .ok none

/-! ### Volumes -/

/-- The members `startIdxDir`, `nPtsDir` and `nPts` of `ProbeVolume`. (`include/petibm/probes.h` 160-166) -/
structure SubMesh where
  start : ℕ → ℤ
  nPts : ℕ → ℤ
  total : ℤ

/-- `startIdxDir[d]` and `nPtsDir[d]`, `ProbeVolume::getInfo`, `src/misc/probes.cpp` 251-256. -/
def infoDir (L : Layout) (axes : ℕ → Axis K) (f : ℕ) (box : ℕ → K × K) (atol : K) (d : ℕ) : Except Error (ℤ × ℤ) := do
  let line ← gridLine L axes f d
  let low : ℤ := lowerBoundK line ((box d).1 - atol)
  let up : ℤ := SingleBody.upperBoundK line ((box d).2 + atol)
  return (low, up - low)

/-- `ProbeVolume::getInfo`, `src/misc/probes.cpp` 240-264. The initial values of directions beyond `dim` are those of
lines 198-199. -/
def getInfo (L : Layout) (axes : ℕ → Axis K) (f : ℕ) (box : ℕ → K × K) (atol : K) : Except Error SubMesh := do
  let l ← (List.range L.dim).mapM fun d => infoDir L axes f box atol d
  let start (d : ℕ) : ℤ := match l[d]? with | some p => p.1 | none => 0
  let nPts (d : ℕ) : ℤ := match l[d]? with | some p => p.2 | none => 1
  return ⟨start, nPts, nPts 0 * nPts 1 * nPts 2⟩

/-- `ProbeVolume::createGrid`, `src/misc/probes.cpp` 313-329; `reserve` of a negative number throws. -/
def createGrid (L : Layout) (axes : ℕ → Axis K) (f : ℕ) (M : SubMesh) : Except Error (List (List K)) :=
  (List.range L.dim).mapM fun d =>
    if M.nPts d < 0 then .error .exception
    else (List.range (M.nPts d).toNat).mapM fun i : ℕ => meshCoord L axes f d (M.start d + i)

/-- The test of lines 283-285 of `createIS`. (`src/misc/probes.cpp`) -/
def SubMesh.selects (M : SubMesh) (p : ℕ × ℕ × ℕ) : Bool :=
  decide ((p.1 : ℤ) ≥ M.start 0 ∧ (p.1 : ℤ) < M.start 0 + M.nPts 0 ∧
    (p.2.1 : ℤ) ≥ M.start 1 ∧ (p.2.1 : ℤ) < M.start 1 + M.nPts 1 ∧
    (p.2.2 : ℤ) ≥ M.start 2 ∧ (p.2.2 : ℤ) < M.start 2 + M.nPts 2)

/-- `ProbeVolume::createIS`, `src/misc/probes.cpp` 267-310, on rank `r`: `isNatural` and `isPetsc`. More points than
`nPts` would be written beyond the end of `indices`. (`&indices[0]` of an empty vector is only passed on with length 0
and is not treated as an error.) -/
def createIS (L : Layout) (f : ℕ) (M : SubMesh) (r : ℕ) : Except Error (List ℤ × List ℤ) :=
  if M.total < 0 then .error .exception
  else
    let indices : List ℤ := ((L.box f r).filter M.selects).map fun p => (p.2.2 : ℤ) * (L.n f 1 * L.n f 0) + p.2.1 * L.n f 0 + p.1
    if (indices.length : ℤ) > M.total then .error .ub
    else .ok (indices, indices.map (L.aoApplicationToPetsc f))

/-- The members of `ProbeVolume` that do not change after `init`; the index sets of all processes in rank order. (`include/petibm/probes.h` 145-166) -/
structure VolumeProbe (K : Type) where
  mesh : SubMesh
  coord : List (List K)
  isNatural : List ℤ
  isPetsc : List ℤ

/-- `ProbeVolume::init`, `src/misc/probes.cpp` 163-222, without the files. -/
def volumeInit (L : Layout) (axes : ℕ → Axis K) (f : ℕ) (box : ℕ → K × K) (atol : K) : Except Error (VolumeProbe K) := do
  let M ← getInfo L axes f box atol
  let c ← createGrid L axes f M
  let s ← (List.range L.mpiSize).mapM fun r => createIS L f M r
  return ⟨M, c, s.flatMap (·.1), s.flatMap (·.2)⟩

/-- The grid points of field `f` in PETSc's global order (`DMDAGetAO`, compare `Layout.aoList`). (`src/misc/probes.cpp` 300) -/
def petscOrder (L : Layout) (f : ℕ) : List (ℕ × ℕ × ℕ) := (List.range L.mpiSize).flatMap fun r => L.box f r

/-- Entry `g` of the vector of a DMDA that `DMCompositeGetAccessArray` exposes (`src/misc/probes.cpp` 129-131), or of
`pGlobal`, if the packed vector of the field is `q`. -/
def dmdaEntry (L : Layout) (f : ℕ) (q : ℤ → K) (g : ℤ) : Except Error K :=
  if g < 0 then .error .argOutOfRange
  else match (petscOrder L f)[g.toNat]? with
    | none => .error .argOutOfRange
    | some p => do
      let idx ← L.getPackedGlobalIndex false f ⟨p.2.2, p.2.1, p.1, 0⟩
      return q idx

/-- `VecGetSubVector(fvec, isPetsc, &svec)`, `src/misc/probes.cpp` 500: all processes together, in rank order. -/
def subVector (L : Layout) (f : ℕ) (q : ℤ → K) (is : List ℤ) : Except Error (List K) := is.mapM (dmdaEntry L f q)

/-- The members `dvec` and `count` of `ProbeVolume`. (`include/petibm/probes.h` 154, 175) -/
structure Accumulator (K : Type) where
  dvec : Option (List K)
  count : ℤ

/-- `ProbeVolume::init` line 187 and the initial value of `count`, `include/petibm/probes.h` 175. -/
def Accumulator.init : Accumulator K := ⟨none, 0⟩

/-- What one call of `writeVec` puts into the file: time, `count` and the vector. (`src/misc/probes.cpp` 529-592) -/
structure ProbeOutput (K : Type) where
  t : K
  count : ℤ
  values : List K

/-- `ProbeVolume::monitorVec`, `src/misc/probes.cpp` 501-522, with the sub-vector `svec`: new members and the output, if any. -/
def accumulate (nSum : ℤ) (A : Accumulator K) (svec : List K) (t : K) : Accumulator K × Option (ProbeOutput K) :=
  if nSum ≠ 0 then
    let dvec := A.dvec.getD (svec.map fun _ => 0)
    let dvec := List.zipWith (· + ·) dvec svec
    let count := A.count + 1
    if Int.tmod count nSum = 0 then
      let scaled := dvec.map fun x => 1 / (count : K) * x
      (⟨some (scaled.map fun _ => 0), 0⟩, some ⟨t, count, scaled⟩)
    else (⟨some dvec, count⟩, none)
  else (A, some ⟨t, A.count, svec⟩)

/-- One time step as the probes see it: step number, time, `UGlobal` and `pGlobal`. (`applications/navierstokes/navierstokes.cpp` 840-855) -/
structure Snapshot (K : Type) where
  n : ℤ
  t : K
  U : ℤ → K
  p : ℤ → K

/-- `ProbeBase::monitor` of a volume probe. (`src/misc/probes.cpp` 114-148) -/
def volumeMonitor (L : Layout) (f : ℕ) (T : ProbeTimes K) (nSum : ℤ) (P : VolumeProbe K) (A : Accumulator K) (s : Snapshot K) :
    Except Error (Accumulator K × Option (ProbeOutput K)) := do
  match ← probeMonitor L.dim f T s.n s.t with
  | none => return (A, none)
  | some .pressure =>
    let v ← subVector L f s.p P.isPetsc
    return accumulate nSum A v s.t
  | some (.velocity _) =>
    let v ← subVector L f s.U P.isPetsc
    return accumulate nSum A v s.t

/-- One call of `monitor`; the outputs are collected. (`src/misc/probes.cpp` 114-148) -/
def volumeStep (L : Layout) (f : ℕ) (T : ProbeTimes K) (nSum : ℤ) (P : VolumeProbe K) (st : Accumulator K × List (ProbeOutput K))
    (s : Snapshot K) : Except Error (Accumulator K × List (ProbeOutput K)) := do
  let o ← volumeMonitor L f T nSum P st.1 s
  return (o.1, st.2 ++ o.2.toList)

/-- All calls of `monitor` in a run (`NavierStokesSolver::monitorProbes`, `applications/navierstokes/navierstokes.cpp`
840-855, is called once per time step): the outputs in the order in which they are written. -/
def volumeMonitors (L : Layout) (f : ℕ) (T : ProbeTimes K) (nSum : ℤ) (P : VolumeProbe K) (A : Accumulator K)
    (h : List (Snapshot K)) : Except Error (Accumulator K × List (ProbeOutput K)) :=
  h.foldlM (volumeStep L f T nSum P) (A, [])

/-- The life of a volume probe. (`src/misc/probes.cpp` 163-222, 114-148) -/
def volumeRun (L : Layout) (axes : ℕ → Axis K) (f : ℕ) (box : ℕ → K × K) (atol : K) (T : ProbeTimes K) (nSum : ℤ)
    (h : List (Snapshot K)) : Except Error (VolumeProbe K × List (ProbeOutput K)) := do
  let P ← volumeInit L axes f box atol
  let o ← volumeMonitors L f T nSum P Accumulator.init h
  return (P, o.2)

end PetIBM
