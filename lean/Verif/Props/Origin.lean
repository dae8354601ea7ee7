/-
C99: a run depends neither on the origin of the coordinates nor on the time shown at its start.
-/
import Verif.Lemmas.OriginBodies
import Verif.Props.Ibpm
import Verif.Props.UnitsBodies

namespace PetIBM

open Spec

set_option linter.unusedSectionVars false

variable {K : Type} [Field K] [LinearOrder K] [IsStrictOrderedRing K] {o : Origin K} {debug : Bool} {L : Layout} {G : Geom K} {axes : ℕ → Axis K}
  {T : BCTable K} {B : ℕ → Boundary K} {P : NSParams K} {bodies : BodyPack K} {kernel : DeltaKernel K} {window : ℕ} {fmt : K → List Char}
  {vSolve fSolve pSolve : LinSolve K}

theorem subDomain_origin (w : K) (sub : SubDomain K) (bg : K) :
    parseOneSubDomain { sub with end_ := sub.end_ + w } (bg + w) = (parseOneSubDomain sub bg).map fun x => (x.1, x.2.1 + w, x.2.2) := by
  unfold parseOneSubDomain stretchGrid
  have e : sub.end_ + w - (bg + w) = sub.end_ - bg := add_sub_add_right_eq_sub ..
  simp only [e]
  split_ifs <;> rfl

theorem subDomains_origin (w : K) (subs : List (SubDomain K)) (n : ℤ) (ed : K) (dL : List K) :
    parseSubDomainsLoop (subs.map fun s => { s with end_ := s.end_ + w }) (n, ed + w, dL) =
      (parseSubDomainsLoop subs (n, ed, dL)).map fun x => (x.1, x.2.1 + w, x.2.2) := by
  induction subs generalizing n ed dL with
  | nil => rfl
  | cons sub rest ih =>
    simp only [List.map_cons, parseSubDomainsLoop, subDomain_origin]
    cases parseOneSubDomain sub ed with
    | error _ => rfl
    | ok x => exact ih _ _ _

theorem parseMeshLoop_origin (nodes : List (AxisNode K)) (m m' : MeshData K) (hn : m'.n = m.n) (hd : m'.dL = m.dL)
    (h : ∀ d, (∀ a ∈ nodes, str2dir a.direction ≠ d) → m'.bg d = m.bg d + o.shift d ∧ m'.ed d = m.ed d + o.shift d) :
    parseMeshLoop (nodes.map o.entry) m' = (parseMeshLoop nodes m).map o.meshData := by
  induction nodes generalizing m m' with
  | nil =>
    obtain ⟨bg, ed, n, dL⟩ := m
    obtain ⟨bg', ed', n', dL'⟩ := m'
    cases hn
    cases hd
    have h1 : bg' = fun d => bg d + o.shift d := funext fun d => (h d fun _ ha => (by cases ha)).1
    have h2 : ed' = fun d => ed d + o.shift d := funext fun d => (h d fun _ ha => (by cases ha)).2
    rw [h1, h2]
    rfl
  | cons a rest ih =>
    simp only [List.map_cons, parseMeshLoop]
    have e : parseSubDomains (o.entry a).subDomains (o.entry a).start =
        (parseSubDomains a.subDomains a.start).map fun x => (x.1, x.2.1 + o.shift (str2dir a.direction), x.2.2) := subDomains_origin ..
    rw [e]
    cases parseSubDomains a.subDomains a.start with
    | error _ => rfl
    | ok x =>
      refine ih _ _ ?_ ?_ fun d hd' => ?_
      · change Function.update m'.n _ _ = Function.update m.n _ _
        rw [hn]
        rfl
      · change Function.update m'.dL _ _ = Function.update m.dL _ _
        rw [hd]
        rfl
      · change Function.update m'.bg (str2dir a.direction) _ d = Function.update m.bg _ _ d + _ ∧
          Function.update m'.ed (str2dir a.direction) _ d = Function.update m.ed _ _ d + _
        by_cases hq : d = str2dir a.direction
        · subst hq
          rw [Function.update_self, Function.update_self, Function.update_self, Function.update_self]
          exact ⟨rfl, rfl⟩
        · simp only [Function.update_of_ne hq]
          refine h d fun b hb => ?_
          rcases List.mem_cons.1 hb with rfl | hb
          · exact fun h => hq h.symm
          · exact hd' b hb

/-- C99, section `mesh`: moving the starts and the ends of all parts by the same distance gives the same numbers and widths of cells, and the same
errors. -/
theorem C99_section (nodes : List (AxisNode K)) (h0 : ∀ d, (∀ a ∈ nodes, str2dir a.direction ≠ d) → o.shift d = 0) :
    parseMesh (nodes.map o.entry) = (parseMesh nodes).map fun x => (x.1, o.meshData x.2) := by
  unfold parseMesh
  rw [parseMeshLoop_origin nodes MeshData.default MeshData.default rfl rfl fun d hd => by
    rw [h0 d hd, add_zero, add_zero]
    exact ⟨rfl, rfl⟩, List.length_map]
  cases parseMeshLoop nodes MeshData.default <;> rfl

/-- C99, mesh and boundaries: moving the domain moves the grid points by the same distance and leaves the boundary objects as they are. -/
theorem C99_mesh (h0 : ∀ d, L.dim ≤ d → o.shift d = 0) (C : Constructed debug L G axes T B) :
    Constructed debug L (o.geom L.dim G) (fun d => o.axis d (axes d)) T B where
  setup := setup_origin h0 C.setup
  part := C.part
  table := C.table
  init r hr := by
    rw [boundaryInit_origin]
    exact C.init r hr

/-- C99, parameters: with another entry `t` only the time changes. -/
theorem C99_parameters {amgx : Bool} {output : String} {node : Option (ParamNode K)} {F : Option (FlowNode K)} (h : readParams amgx output node F = .ok P) :
    readParams amgx output (node.map fun n => { n with t := some (n.t.getD 0 + o.clock) }) (F.map o.flow) = .ok (o.params P) := by
  cases node with
  | none => cases h
  | some n =>
    unfold readParams at h ⊢
    have e : (F.map o.flow).bind (fun x => x.nu) = F.bind fun x => x.nu := by cases F <;> rfl
    simp only [Option.map_some, e]
    obtain ⟨_, a1, h⟩ := bind_ok h
    cases a1
    obtain ⟨_, a2, h⟩ := bind_ok h
    obtain ⟨_, a3, h⟩ := bind_ok h
    obtain ⟨_, a4, h⟩ := bind_ok h
    obtain ⟨_, a5, h⟩ := bind_ok h
    obtain ⟨_, a6, h⟩ := bind_ok h
    obtain ⟨_, a7, h⟩ := bind_ok h
    obtain ⟨_, a8, h⟩ := bind_ok h
    obtain ⟨_, a9, h⟩ := bind_ok h
    obtain ⟨_, a10, h⟩ := bind_ok h
    cases h
    change (required n.dt).bind _ = _
    rw [a2]
    change (required n.nt).bind _ = _
    rw [a3]
    change (required n.nsave).bind _ = _
    rw [a4]
    change (required n.nrestart).bind _ = _
    rw [a5]
    change (required (F.bind fun x => x.nu)).bind _ = _
    rw [a6]
    change (createTimeIntegration "convection" (some n.schemes)).bind _ = _
    rw [a7]
    change (createTimeIntegration "diffusion" (some n.schemes)).bind _ = _
    rw [a8]
    change (createLinSolver amgx n.velocitySolver).bind _ = _
    rw [a9]
    change (createLinSolver amgx n.poissonSolver).bind _ = _
    rw [a10]
    rfl

/-- C99, flow solver: the whole program, from the initialisation to the last file. It ends with the same velocities and pressures and the same
files, in which only the times differ; it stops with the same error or goes on forever in the same cases. -/
theorem C99_run (F : Option (FlowNode K)) (fuel : ℕ) (d : Disk K) :
    runSolver debug L (o.geom L.dim G) (o.params P) (F.map o.flow) B vSolve pSolve fuel (o.disk d) =
      (runSolver debug L G P F B vSolve pSolve fuel d).map (Except.map fun x => (o.state x.1, o.disk x.2)) := by
  unfold runSolver
  rw [solverInit_origin]
  cases solverInit debug L G P F B with
  | error _ => rfl
  | ok x =>
    simp only [Except.map, ioInitial_origin]
    cases ioInitialData L P x.2 d with
    | error _ => rfl
    | ok y =>
      exact mainLoop_origin ..

/-- C99, bodies at rest (decoupled solver): the same with the forces. The file of forces shows the time, and it is the same if the time is. -/
theorem C99_run_decoupled (h0 : ∀ d, L.dim ≤ d → o.shift d = 0) (fit : BodiesOK L bodies) (F : Option (FlowNode K)) (fuel : ℕ) (d : Disk K)
    (text : TextDisk) :
    (runDecoupled debug L (o.geom L.dim G) (fun d => o.axis d (axes d)) (o.params P) (F.map o.flow) B (o.bodies bodies) kernel window fmt vSolve fSolve
        pSolve fuel (o.disk d) text).map (Except.map fun x => (x.1, x.2.1)) =
      (runDecoupled debug L G axes P F B bodies kernel window fmt vSolve fSolve pSolve fuel d text).map
        (Except.map fun x => (o.ibState x.1, o.disk x.2.1)) ∧
    (o.clock = 0 → runDecoupled debug L (o.geom L.dim G) (fun d => o.axis d (axes d)) (o.params P) (F.map o.flow) B (o.bodies bodies) kernel window fmt
        vSolve fSolve pSolve fuel (o.disk d) text =
      (runDecoupled debug L G axes P F B bodies kernel window fmt vSolve fSolve pSolve fuel d text).map
        (Except.map fun x => (o.ibState x.1, o.disk x.2.1, x.2.2))) := by
  have hb : ∀ b ∈ bodies.bodies, b.dim ≤ L.dim := fun b hb => by rw [fit.pack.dim b hb, fit.dim]
  unfold runDecoupled
  rw [decoupledInit_origin h0 hb]
  cases decoupledInit debug L G axes P F B bodies kernel window with
  | error _ => exact ⟨rfl, fun _ => rfl⟩
  | ok x =>
    obtain ⟨ops, ib, s⟩ := x
    simp only [Except.map, decoupledIo_origin]
    cases decoupledIoInitialData L P ib s d with
    | error _ => exact ⟨rfl, fun _ => rfl⟩
    | ok y =>
      exact bodyLoop_origin (h := o.ibState) (fun _ => rfl) (fun s => decoupledAdvance_origin ..) (fun s d => decoupledWriteStep_origin ..) fuel y.1 y.2 _ _

/-- C99, bodies at rest (coupled solver). -/
theorem C99_run_coupled (h0 : ∀ d, L.dim ≤ d → o.shift d = 0) (fit : BodiesOK L bodies) (F : Option (FlowNode K)) (fuel : ℕ) (d : Disk K)
    (text : TextDisk) :
    (runCoupled debug L (o.geom L.dim G) (fun d => o.axis d (axes d)) (o.params P) (F.map o.flow) B (o.bodies bodies) kernel window fmt vSolve
        pSolve fuel (o.disk d) text).map (Except.map fun x => (x.1, x.2.1)) =
      (runCoupled debug L G axes P F B bodies kernel window fmt vSolve pSolve fuel d text).map (Except.map fun x => (o.state x.1, o.disk x.2.1)) ∧
    (o.clock = 0 → runCoupled debug L (o.geom L.dim G) (fun d => o.axis d (axes d)) (o.params P) (F.map o.flow) B (o.bodies bodies) kernel window fmt
        vSolve pSolve fuel (o.disk d) text =
      (runCoupled debug L G axes P F B bodies kernel window fmt vSolve pSolve fuel d text).map
        (Except.map fun x => (o.state x.1, o.disk x.2.1, x.2.2))) := by
  have hb : ∀ b ∈ bodies.bodies, b.dim ≤ L.dim := fun b hb => by rw [fit.pack.dim b hb, fit.dim]
  unfold runCoupled
  rw [ibpmInit_origin h0 hb, nestCounts_origin, nPts_origin]
  cases ibpmInit debug L G axes P F B bodies kernel window with
  | error _ => exact ⟨rfl, fun _ => rfl⟩
  | ok x =>
    obtain ⟨⟨ops, EH⟩, s⟩ := x
    simp only [Except.map]
    rw [show (o.bodies bodies).dim = bodies.dim from rfl, ibpmIo_origin]
    cases ibpmIoInitialData L P (nestCounts L bodies) (bodies.nPts * bodies.dim) s d with
    | error _ => exact ⟨rfl, fun _ => rfl⟩
    | ok y =>
      exact bodyLoop_origin (ns := id) (h := o.state) (fun _ => rfl) (fun s => ibpmAdvance_origin ..) (fun s d => ibpmWriteStep_origin ..) fuel y.1 y.2 _ _

/-- C99, bodies with a prescribed motion: with the motion moved likewise, the same holds for the flow, the forces and the HDF5 files. The files of
the bodies hold their coordinates, which are other ones. -/
theorem C99_run_moving (h0 : ∀ d, L.dim ≤ d → o.shift d = 0) (fit : BodiesOK L bodies) {M M' : Motion K}
    (hM : SameMotion o M M') (keep : ∀ t b, BodiesOK L b → BodiesOK L (M.coordinates t b)) (names : List String) (F : Option (FlowNode K)) (fuel : ℕ)
    (d : Disk K) (text : TextDisk) :
    (runRigid debug L (o.geom L.dim G) (fun d => o.axis d (axes d)) (o.params P) (F.map o.flow) B (o.bodies bodies) names M' kernel window fmt vSolve
        fSolve pSolve fuel (o.disk d) text).map (Except.map fun x => (x.1, x.2.1)) =
      (runRigid debug L G axes P F B bodies names M kernel window fmt vSolve fSolve pSolve fuel d text).map
        (Except.map fun x => (o.rigid x.1, o.disk x.2.1)) := by
  have dims : ∀ b : BodyPack K, BodiesOK L b → ∀ c ∈ b.bodies, c.dim ≤ L.dim := fun b h c hc => by rw [h.pack.dim c hc, h.dim]
  unfold runRigid rigidInit
  rw [decoupledInit_origin h0 (dims _ fit)]
  cases decoupledInit debug L G axes P F B bodies kernel window with
  | error _ => rfl
  | ok x =>
    obtain ⟨ops, ib, s⟩ := x
    simp only [Except.map, bind, Except.bind, pure, Except.pure]
    unfold rigidIoInitialData
    dsimp only
    rw [decoupledIo_origin]
    cases decoupledIoInitialData L P ib s d with
    | error _ => rfl
    | ok y =>
      obtain ⟨s', d'⟩ := y
      simp only [Except.map, bind, Except.bind, pure, Except.pure]
      have hw := writeBodies_origin (o := o) (bodies := bodies) fmt P.output s'.ns.ite names (openForces P.output s.ns.ite text)
        (openForces P.output s.ns.ite text)
      rw [show (o.params P).output = P.output from rfl, show (o.ibState s').ns.ite = s'.ns.ite from rfl, show (o.ibState s).ns.ite = s.ns.ite from rfl]
      cases hA : writeBodies fmt P.output s'.ns.ite names (o.bodies bodies) (openForces P.output s.ns.ite text) with
      | error e =>
        rw [hA] at hw
        cases hB : writeBodies fmt P.output s'.ns.ite names bodies (openForces P.output s.ns.ite text) with
        | error e' =>
          rw [hB] at hw
          cases hw
          rfl
        | ok _ =>
          rw [hB] at hw
          cases hw
      | ok a =>
        rw [hA] at hw
        cases hB : writeBodies fmt P.output s'.ns.ite names bodies (openForces P.output s.ns.ite text) with
        | error e' =>
          rw [hB] at hw
          cases hw
        | ok b =>
          exact rigidLoop_origin h0 hM keep P ops vSolve fSolve pSolve fmt names fuel ⟨s', bodies, fun _ => 0, ib⟩ d' b a fit

/-! ### Examples -/

/-- The origin is moved by 3 to the left and by 1 upwards, and the clock is put forward by 5. -/
def movedOrigin : Origin ℚ := ⟨fun d => if d = 0 then 3 else if d = 1 then -1 else 0, 5⟩

theorem movedOrigin_flat : ∀ d, twoByTwo.dim ≤ d → movedOrigin.shift d = 0 := by
  intro d hd
  have : 2 ≤ d := hd
  unfold movedOrigin
  simp only
  rw [if_neg (by omega), if_neg (by omega)]

/-- The rising point seen from the other origin. -/
def risingMoved : Motion ℚ where
  coordinates := fun t P => { P with bodies := P.bodies.map fun b => { b with coords := b.coords.map fun _ => [17/4, -1/4 + (t - 5) / 8] } }
  velocity := fun _ _ UB => fun i => if i = 1 then 1 / 8 else UB i

theorem rising_moved : SameMotion movedOrigin risingMotion risingMoved := by
  constructor
  · intro t b
    obtain ⟨dm, m, l⟩ := b
    simp only [risingMotion, risingMoved, Origin.bodies, List.map_map]
    congr 1
    refine List.map_congr_left fun c _ => ?_
    obtain ⟨d, n, cs, lc⟩ := c
    simp only [Function.comp, Origin.body, List.map_map]
    congr 1
    refine List.map_congr_left fun p _ => ?_
    simp only [Function.comp, Origin.point, List.mapIdx_cons, List.mapIdx_nil]
    congr 1
    · norm_num [movedOrigin]
    · congr 1
      simp [movedOrigin]
      ring
  · intro t b x
    rfl

/-- The hypotheses of `C99_run_moving` are met by the point that rises through the flow, and the run ends without an error; the other origin is
another one. -/
example : (∀ d, twoByTwo.dim ≤ d → movedOrigin.shift d = 0) ∧ BodiesOK twoByTwo pointPack ∧ SameMotion movedOrigin risingMotion risingMoved ∧
    (∀ t b, BodiesOK twoByTwo b → BodiesOK twoByTwo (risingMotion.coordinates t b)) ∧
    ((runRigid true twoByTwo tailGeom twoAxes tailParams (some (pushedFlow none)) throughB pointPack ["body0"] risingMotion hatKernel 1 (fun _ => ['0'])
      (gaussSolve 4) (gaussSolve 2) (gaussSolve 4) 2 (fun _ => none) (fun _ => none)).bind Except.toOption).isSome = true ∧
    (movedOrigin.geom 2 tailGeom).coord 0 0 0 ≠ tailGeom.coord 0 0 0 ∧ (movedOrigin.bodies pointPack).bodies.map (·.coords) = [[[17/4, -1/4]]] :=
  ⟨movedOrigin_flat, pointPack_ok, rising_moved, risingMotion_ok, by decide +kernel, by decide +kernel, by decide +kernel⟩

/-- The same point at rest, with both solvers, and the flow alone (`C99_run_decoupled`, `C99_run_coupled`, `C99_run`). -/
example : ((runDecoupled true twoByTwo tailGeom twoAxes tailParams (some (pushedFlow none)) throughB pointPack hatKernel 1 (fun _ => ['0'])
      (gaussSolve 4) (gaussSolve 2) (gaussSolve 4) 2 (fun _ => none) (fun _ => none)).bind Except.toOption).isSome = true ∧
    ((runCoupled true twoByTwo tailGeom twoAxes tailParams (some (pushedFlow none)) throughB pointPack hatKernel 1 (fun _ => ['0'])
      (jacobi 4) (jacobi 6) 2 (fun _ => none) (fun _ => none)).bind Except.toOption).isSome = true ∧
    ((runSolver true twoByTwo tailGeom tailParams (some (pushedFlow none)) throughB (gaussSolve 4) (gaussSolve 4) 2 (fun _ => none)).bind
      Except.toOption).isSome = true := by
  decide +kernel

/-- `C99_mesh` and `C99_parameters` for it. -/
example : Constructed true twoByTwo (movedOrigin.geom 2 tailGeom) (fun d => movedOrigin.axis d (twoAxes d)) throughTable throughB ∧
    ∃ node, readParams false "out" node (some (movedOrigin.flow (pushedFlow none))) = .ok { tailParams with t := 5 } := by
  have h : readParams false "out" (some tailNode) (some (pushedFlow none)) = .ok tailParams := rfl
  have h' := C99_parameters (o := movedOrigin) h
  rw [show movedOrigin.params tailParams = { tailParams with t := 5 } by
    unfold Origin.params
    rw [show tailParams.t + movedOrigin.clock = 5 from by decide +kernel]] at h'
  exact ⟨C99_mesh (o := movedOrigin) movedOrigin_flat through_constructed, _, h'⟩

/-- `C99_section` for a direction with a uniform and a stretched part. -/
example : (∀ d, (∀ a ∈ [(⟨"x", 0, [⟨2, 1, 1⟩, ⟨2, 4, 2⟩]⟩ : AxisNode ℚ), ⟨"y", 0, [⟨2, 1, 1⟩]⟩], str2dir a.direction ≠ d) → movedOrigin.shift d = 0) ∧
    ((parseMesh [(⟨"x", 0, [⟨2, 1, 1⟩, ⟨2, 4, 2⟩]⟩ : AxisNode ℚ), ⟨"y", 0, [⟨2, 1, 1⟩]⟩]).toOption.map fun x => (x.1, x.2.dL 0, x.2.dL 1)) =
      some (2, [1/2, 1/2, 1, 2], [1/2, 1/2]) := by
  refine ⟨fun d hd => ?_, by decide +kernel⟩
  have h0 : 0 ≠ d := hd ⟨"x", 0, [⟨2, 1, 1⟩, ⟨2, 4, 2⟩]⟩ (by simp)
  have h1 : 1 ≠ d := hd ⟨"y", 0, [⟨2, 1, 1⟩]⟩ (by simp)
  unfold movedOrigin
  simp only
  rw [if_neg (Ne.symm h0), if_neg (Ne.symm h1)]

end PetIBM
