/-
Ghost points and boundary conditions.
-/
import Verif.Model.StdMap
import Verif.Model.Parser

namespace PetIBM

/-- The arrays `dL[f][d]` and `coord[f][d]` of the mesh (ghosted access). Simplification: total functions; nothing is
known about the values outside the arrays built by `fieldAxis` (see `Spec.GeomOf`), so a theorem can only hold if the
code stays inside. (`include/petibm/mesh.h` 84-87) -/
structure Geom (K : Type) where
  dL : ℕ → ℕ → ℤ → K
  coord : ℕ → ℕ → ℤ → K

/-- `GhostPointInfo`, `include/petibm/type.h` 160-174. -/
structure GhostPointInfo (K : Type) where
  lclId : ℤ
  targetStencil : Stencil
  targetPackedId : ℤ
  area : K
  dL : K
  a0 : K
  a1 : K
  value : K

/-- `GhostPointsList`, `include/petibm/type.h` 177. -/
abbrev GhostPointsList (K : Type) := StencilMap (GhostPointInfo K)

namespace Layout

/-- Process column of rank `r` in direction `d`. (`src/mesh/cartesianmesh.cpp` 526-535) -/
def column (L : Layout) (r d : ℕ) : ℕ :=
  if d = 0 then (L.procCoord r).1 else if d = 1 then (L.procCoord r).2.1 else (L.procCoord r).2.2

/-- `bg[f][d]` on rank `r` (`src/mesh/cartesianmesh.cpp` 526-528). -/
def bg (L : Layout) (f r d : ℕ) : ℕ := startOf (L.own f d) (L.column r d)

/-- `m[f][d]` on rank `r` (lines 530-532). (`src/mesh/cartesianmesh.cpp`) -/
def m (L : Layout) (f r d : ℕ) : ℕ := sizeOf' (L.own f d) (L.column r d)

/-- `ed[f][d]` on rank `r` (lines 534-535). (`src/mesh/cartesianmesh.cpp`) -/
def ed (L : Layout) (f r d : ℕ) : ℕ := L.bg f r d + L.m f r d

/-- `CartesianMesh::getLocalIndex`, `src/mesh/cartesianmesh.cpp` 679-691, i.e. PETSc's `DMDAConvertToCell`: position in
the local array, which has one ghost layer on every side of the owned box (stencil width 1, boundary types GHOSTED
and PERIODIC, line 500-521). A 2D DMDA ignores `k`. -/
def getLocalIndex (L : Layout) (f r : ℕ) (s : Stencil) : Except Error ℤ :=
  let lo (d : ℕ) : ℤ := (L.bg f r d : ℤ) - 1
  let hi (d : ℕ) : ℤ := (L.ed f r d : ℤ) + 1
  let mx := hi 0 - lo 0
  let my := hi 1 - lo 1
  if s.i < lo 0 ∨ s.i ≥ hi 0 then .error .argOutOfRange
  else if s.j < lo 1 ∨ s.j ≥ hi 1 then .error .argOutOfRange
  else if L.dim > 2 ∧ (s.k < lo 2 ∨ s.k ≥ hi 2) then .error .argOutOfRange
  else
    let kl := if L.dim > 2 then s.k - lo 2 else 0
    .ok ((kl * my + (s.j - lo 1)) * mx + (s.i - lo 0))

end Layout

/-- `checkBoundaryProc`, `src/misc/misc.cpp` 85-127. `DMDAGetProcessorSubset(da, dir, gp, &comm)` gives a
communicator exactly on the processes whose owned range in `dir` contains grid line `gp`, and fails for a negative
`gp`. Other values of `loc` leave the communicator uninitialised. -/
def checkBoundaryProc (L : Layout) (f r loc : ℕ) : Except Error Bool :=
  if loc < 6 then
    let d := loc / 2
    let gp : ℤ := if loc % 2 = 0 then 0 else (L.n f d : ℤ) - 1
    if gp < 0 then .error .argOutOfRange
    else .ok (decide ((L.bg f r d : ℤ) ≤ gp ∧ gp < (L.ed f r d : ℤ)))
  else .error .ub

/-- `getPerpendAxes`, `src/misc/misc.cpp` 199-224. -/
def getPerpendAxes : ℕ → Except Error (ℕ × ℕ)
  | 0 => .ok (1, 2)
  | 1 => .ok (0, 2)
  | 2 => .ok (0, 1)
  | _ => .error .argWrong

/-- `getGhostTargetStencil`, `src/misc/misc.cpp` 226-267; the result is `(ghost, target)`. -/
def getGhostTargetStencil (n : ℕ → ℕ) (loc : ℕ) (p0 p1 : ℤ) : Except Error (Stencil × Stencil) :=
  match loc with
  | 0 => .ok (⟨p1, p0, -1, 0⟩, ⟨p1, p0, 0, 0⟩)
  | 1 => .ok (⟨p1, p0, n 0, 0⟩, ⟨p1, p0, (n 0 : ℤ) - 1, 0⟩)
  | 2 => .ok (⟨p1, -1, p0, 0⟩, ⟨p1, 0, p0, 0⟩)
  | 3 => .ok (⟨p1, n 1, p0, 0⟩, ⟨p1, (n 1 : ℤ) - 1, p0, 0⟩)
  | 4 => .ok (⟨-1, p1, p0, 0⟩, ⟨0, p1, p0, 0⟩)
  | 5 => .ok (⟨n 2, p1, p0, 0⟩, ⟨(n 2 : ℤ) - 1, p1, p0, 0⟩)
  | _ => .error .argWrong

variable {K : Type} [Field K]

/-- Body of the double loop of `getGhostPointList`, `src/misc/misc.cpp` 154-192. -/
def ghostRecord (debug : Bool) (L : Layout) (G : Geom K) (f r loc p0 p1 : ℕ) (a b : ℕ) :
    Except Error (Stencil × GhostPointInfo K) := do
  let axis := loc / 2
  let (ghost, target) ← getGhostTargetStencil (L.n f) loc a b
  let targetId ← L.getPackedGlobalIndex debug f target
  let ghostId ← L.getLocalIndex f r ghost
  let area := G.dL f p0 a * G.dL f p1 b
  let n : ℤ := L.n f axis
  let d := if loc = 1 ∨ loc = 3 ∨ loc = 5 then G.coord f axis n - G.coord f axis (n - 1)
    else G.coord f axis 0 - G.coord f axis (-1)
  return (ghost, { lclId := ghostId, targetStencil := target, targetPackedId := targetId, area := area, dL := d,
                   a0 := 0, a1 := 0, value := 0 })

/-- `getGhostPointList`, `src/misc/misc.cpp` 129-197, on rank `r`. -/
def getGhostPointList (debug : Bool) (L : Layout) (G : Geom K) (f r loc : ℕ) : Except Error (GhostPointsList K) := do
  let (p0, p1) ← getPerpendAxes (loc / 2)
  let pairs := (List.range' (L.bg f r p1) (L.m f r p1)).flatMap fun b =>
    (List.range' (L.bg f r p0) (L.m f r p0)).map fun a => (a, b)
  let recs ← pairs.mapM fun ab => ghostRecord debug L G f r loc p0 p1 ab.1 ab.2
  return StencilMap.ofAssignments recs

/-- The members of `SingleBoundaryBase` on one process (`include/petibm/singleboundary.h`). -/
structure SingleBoundary (K : Type) where
  loc : ℕ
  field : ℕ
  type : BCType
  value : K
  onThisProc : Bool
  points : GhostPointsList K

namespace SingleBoundary

/-- `normal`, `src/boundary/singleboundarybase.cpp` 88. -/
def normal (b : SingleBoundary K) : K := if b.loc % 2 = 0 then -1 else 1

/-- `kernelConvectiveDiffDir`, `src/boundary/singleboundaryconvective.cpp` 12-25. -/
def kernelDiffDir (targetValue dt normal value : K) (p : GhostPointInfo K) : GhostPointInfo K :=
  { p with a0 := -1, a1 := p.value + targetValue - 2 * normal * dt * value * (p.value - targetValue) / p.dL }

/-- `kernelConvectiveSameDir`, `src/boundary/singleboundaryconvective.cpp` 27-39. -/
def kernelSameDir (targetValue dt normal value : K) (p : GhostPointInfo K) : GhostPointInfo K :=
  { p with a0 := 0, a1 := p.value - normal * dt * value * (p.value - targetValue) / p.dL }

/-- The choice of `kernel` in the constructor, `src/boundary/singleboundaryconvective.cpp` 52-57. -/
def kernel (b : SingleBoundary K) : K → K → K → K → GhostPointInfo K → GhostPointInfo K :=
  if b.loc / 2 = b.field then kernelSameDir else kernelDiffDir

/-- `setGhostICsKernel` of the four classes: `singleboundarydirichlet.cpp` 22-47, `singleboundaryneumann.cpp` 22-33,
`singleboundaryconvective.cpp` 69-85, `singleboundaryperiodic.cpp` (nothing) in `src/boundary`. -/
def setGhostICsKernel (b : SingleBoundary K) (t : K) (p : GhostPointInfo K) : GhostPointInfo K :=
  match b.type with
  | .DIRICHLET =>
    let p := if b.loc / 2 = b.field then { p with a0 := 0, a1 := b.value } else { p with a0 := -1, a1 := 2 * b.value }
    { p with value := p.a0 * t + p.a1 }
  | .NEUMANN =>
    let p := { p with a0 := 1, a1 := b.normal * p.dL * b.value }
    { p with value := p.a0 * t + p.a1 }
  | .CONVECTIVE => b.kernel t 0 b.normal b.value { p with value := t }
  | .PERIODIC => p
  | .NOBC => p

/-- `updateEqsKernel` of the four classes (same files; only the convective one, lines 87-97, does something). (`src/boundary/singleboundaryconvective.cpp` 87-97) -/
def updateEqsKernel (b : SingleBoundary K) (t dt : K) (p : GhostPointInfo K) : GhostPointInfo K :=
  match b.type with
  | .CONVECTIVE => b.kernel t dt b.normal b.value p
  | _ => p

/-- `for (auto &it : points)`: the records are changed in place, the keys stay. (`src/boundary/singleboundarybase.cpp` 107-163) -/
def mapPoints (b : SingleBoundary K) (g : GhostPointInfo K → GhostPointInfo K) : SingleBoundary K :=
  { b with points := b.points.map fun kp => (kp.1, g kp.2) }

/-- `setGhostICs`, `src/boundary/singleboundarybase.cpp` 107-124. The PETSc vector is a function of the packed index. -/
def setGhostICs (b : SingleBoundary K) (vec : ℤ → K) : SingleBoundary K :=
  b.mapPoints fun p => b.setGhostICsKernel (vec p.targetPackedId) p

/-- `updateEqs`, `src/boundary/singleboundarybase.cpp` 126-144. -/
def updateEqs (b : SingleBoundary K) (vec : ℤ → K) (dt : K) : SingleBoundary K :=
  b.mapPoints fun p => b.updateEqsKernel (vec p.targetPackedId) dt p

/-- `updateGhostValues`, `src/boundary/singleboundarybase.cpp` 146-163. -/
def updateGhostValues (b : SingleBoundary K) (vec : ℤ → K) : SingleBoundary K :=
  b.mapPoints fun p => { p with value := p.a0 * vec p.targetPackedId + p.a1 }

/-- `copyValues2LocalVec`, `src/boundary/singleboundarybase.cpp` 165-178; the local vector is a function of the local
index, `VecSetValue` with `INSERT_VALUES` ignores negative indices. -/
def copyValues2LocalVec (b : SingleBoundary K) (lcl : ℤ → K) : ℤ → K :=
  b.points.foldl (fun v kp => if kp.2.lclId < 0 then v else Function.update v kp.2.lclId kp.2.value) lcl

end SingleBoundary

/-- `createSingleBoundary`, `src/boundary/singleboundary.cpp` 19-53, with the constructors (`SingleBoundaryBase::init`,
`singleboundarybase.cpp` 55-105; `SingleBoundaryPeriodic`, `singleboundaryperiodic.cpp` 14-44, registers no points).
Simplification: the constructor of the base class ignores the error code of `init`; here the error is passed on. The constructor of
`SingleBoundaryPeriodic` leaves `onThisProc` uninitialised; here it is `false`. The operators read it, but with either value they loop over
no points. -/
def createSingleBoundary (debug : Bool) (L : Layout) (G : Geom K) (r loc f : ℕ) (value : K) (type : BCType) :
    Except Error (SingleBoundary K) :=
  match type with
  | .NOBC => .error .argWrong
  | .PERIODIC => .ok { loc := loc, field := f, type := .PERIODIC, value := value, onThisProc := false, points := [] }
  | t => do
    let onThisProc ← checkBoundaryProc L f r loc
    let points ← if onThisProc then getGhostPointList debug L G f r loc else pure []
    return { loc := loc, field := f, type := t, value := value, onThisProc := onThisProc, points := points }

/-- `BoundarySimple::bds` on one process: `bds[f][b]`. (`include/petibm/boundary.h` 85) -/
abbrev Boundary (K : Type) := List (List (SingleBoundary K))

/-- `BoundarySimple::init` on rank `r`, `src/boundary/boundarysimple.cpp` 52-65. -/
def boundaryInit (debug : Bool) (L : Layout) (G : Geom K) (r : ℕ) (T : BCTable K) : Except Error (Boundary K) :=
  (List.range L.dim).mapM fun f => (List.range (L.dim * 2)).mapM fun b =>
    createSingleBoundary debug L G r b f (T f b).2 (T f b).1

namespace Boundary

/-- `BoundarySimple::setGhostICs`, `src/boundary/boundarysimple.cpp` 70-88. -/
def setGhostICs (B : Boundary K) (vec : ℤ → K) : Boundary K := B.map fun l => l.map fun b => b.setGhostICs vec

/-- `BoundarySimple::updateEqs`, `src/boundary/boundarysimple.cpp` 90-108. -/
def updateEqs (B : Boundary K) (vec : ℤ → K) (dt : K) : Boundary K := B.map fun l => l.map fun b => b.updateEqs vec dt

/-- `BoundarySimple::updateGhostValues`, `src/boundary/boundarysimple.cpp` 110-127. -/
def updateGhostValues (B : Boundary K) (vec : ℤ → K) : Boundary K := B.map fun l => l.map fun b => b.updateGhostValues vec

/-- `BoundarySimple::copyValues2LocalVecs`, `src/boundary/boundarysimple.cpp` 129-146. -/
def copyValues2LocalVecs (B : Boundary K) (lcl : ℕ → ℤ → K) : ℕ → ℤ → K := fun f =>
  match B[f]? with
  | some l => l.foldl (fun v b => b.copyValues2LocalVec v) (lcl f)
  | none => lcl f

/-- The calls a solver can make on the boundary object between two reads. (`include/petibm/boundary.h` 88-145) -/
inductive Op (K : Type) where
  | setGhostICs (vec : ℤ → K)
  | updateEqs (vec : ℤ → K) (dt : K)
  | updateGhostValues (vec : ℤ → K)

/-- One call. (`src/boundary/boundarysimple.cpp` 71-146) -/
def step (B : Boundary K) : Op K → Boundary K
  | .setGhostICs v => B.setGhostICs v
  | .updateEqs v dt => B.updateEqs v dt
  | .updateGhostValues v => B.updateGhostValues v

/-- A history of calls. (`src/boundary/boundarysimple.cpp` 71-146) -/
def run (B : Boundary K) (h : List (Op K)) : Boundary K := h.foldl step B

end Boundary

end PetIBM
