/-
Runs that do not change any more: examples, and a case where C94 is false.
-/
import Verif.Props.Converged
import Verif.Props.MovingRuns

set_option linter.unusedSectionVars false

namespace PetIBM

open Spec

section

variable {K : Type} [Field K] [LinearOrder K] [IsStrictOrderedRing K] {debug : Bool} {L : Layout} {G : Geom K} {axes : ℕ → Axis K}
  {T : BCTable K} {B : ℕ → Boundary K}

/-- With given velocities on all sides the ghost values depend on the velocity only. -/
theorem dirichlet_filled (C : Constructed debug L G axes T B) (hT : ∀ f loc, (T f loc).1 = .DIRICHLET) {h h' : List (Boundary.Op K)}
    (hi : Initialised h) (hi' : Initialised h') {q q' : ℤ → K} (hj : JustRefreshed h q) (hj' : JustRefreshed h' q')
    (hq : ∀ i : ℤ, 0 ≤ i → i < L.UN → q' i = q i) {V : ℕ → Stencil → K} (hV : Filled debug L (fun r => (B r).run h) q V) :
    Filled debug L (fun r => (B r).run h') q' V := by
  have hd := C.setup.dim_le
  have hin : ∀ f s idx, f < L.dim → Inside L.toMeshInfo f s → L.getPackedGlobalIndex debug f s = .ok idx → q' idx = q idx := by
    intro f s idx hf hs hidx
    have hc := col_inside C.setup.layout (Or.inl hf) debug hs
    obtain ⟨u, _, hu, rfl, rfl⟩ := exists_unknown C.setup.layout hf hs
    have hr := col_range C.setup.layout hu
    rw [hc.1] at hidx
    cases hidx
    exact hq _ hr.1 hr.2
  refine ⟨fun f s idx hf hs hidx => by rw [hin f s idx hf hs hidx]; exact hV.inside f s idx hf hs hidx, hV.periodic, ?_⟩
  intro r f loc s b p hr hp
  obtain ⟨b0, p0, hp0, -, -⟩ := point_run hp
  have hp1 := run_point (h := h) hp0
  obtain ⟨hf, hl, -, -, -, -, good⟩ := point_boundaryInit C.setup.layout (C.init r hr) C.pos hp0
  obtain ⟨t, idx, ha, hidx, e⟩ := C14_dirichlet debug L C.setup.layout G (by norm_num) r T (B r) (C.init r hr) C.pos h' hi' q' hj' f loc (hT f loc) s b p hp
  obtain ⟨t1, idx1, ha1, hidx1, e1⟩ := C14_dirichlet debug L C.setup.layout G (by norm_num) r T (B r) (C.init r hr) C.pos h hi q hj f loc (hT f loc) s _ _ hp1
  obtain rfl := across_unique ha ha1
  rw [hidx] at hidx1
  cases hidx1
  have htin : Inside L.toMeshInfo f t := (face_point C h hf hl (by rw [hT]; simp) good.face ha).1
  rw [hin f t idx hf htin hidx] at e
  rw [← e1] at e
  rw [hV.ghost r f loc s _ _ hr hp1]
  unfold boundaryValue at e
  split_ifs at e
  · exact e.symm
  · linarith

end

/-! ### A steady state without convection -/

/-- Two steps in the closed box. -/
def coastRun (P : NSParams ℚ) (flow : FlowNode ℚ) : Except Error (NSOps ℚ × NSState ℚ × NSState ℚ × NSState ℚ) := do
  let (ops, s) ← solverInit true (seamLayout 2) seamGeom P (some flow) (seamB closedTable 2)
  let a ← advance (seamLayout 2) seamGeom P ops (gaussSolve 7) (gaussSolve 6) s
  let b ← advance (seamLayout 2) seamGeom P ops (gaussSolve 7) (gaussSolve 6) a
  return (ops, s, a, b)

/-- Nothing changes, the pressure is zero, but the convective terms are not. -/
def coastCheck (q : NSOps ℚ × NSState ℚ × NSState ℚ × NSState ℚ) : Bool :=
  ((List.range 7).all fun i : ℕ => decide (q.2.2.1.U i = q.2.1.U i) && decide (q.2.2.2.U i = q.2.1.U i)) &&
  ((List.range 6).all fun i : ℕ => decide (q.2.2.1.p i = 0) && decide (q.2.2.2.p i = 0)) &&
  decide ((convectionMult (seamLayout 2) seamGeom q.2.1.B (fun _ _ _ => 0) q.2.1.U (fun _ => 0)).toOption.map (fun w => decide (w 0 ≠ 0)) = some true)

theorem coast_check : (coastRun (boxParams (1 / 4) 0 eulerImplicit eulerExplicit) (vortexFlow 0)).toOption.map coastCheck = some true := by decide +kernel

/-- C94 is false for the implicit schemes of the convective terms: a vortex in a closed box that should convect itself stays as
it is, with exact solvers, although the momentum is not balanced. `createTimeIntegration` accepts EULER_IMPLICIT and CRANK_NICOLSON for the
convective terms, but the implicit part of the convective terms is nowhere. -/
theorem C94_false_implicit_convection : ∃ (L : Layout) (G : Geom ℚ) (axes : ℕ → Axis ℚ) (T : BCTable ℚ) (B : ℕ → Boundary ℚ) (P : NSParams ℚ)
    (flow : Option (FlowNode ℚ)) (ops : NSOps ℚ) (disk disk' : Disk ℚ) (s : NSState ℚ) (x : ℕ → NSState ℚ) (v p : LinSolve ℚ)
    (V : ℕ → Stencil → ℚ) (pr : Stencil → ℚ),
    Started true L G axes T B P flow ops disk s disk' ∧ x 0 = s ∧ Trajectory L G P ops v p x 2 ∧ Solves L.UN v ops.A ∧ Solves L.pN p ops.DBNG ∧
    P.nstart = 0 ∧ P.pType = .ksp ∧ 0 < P.dt ∧ P.conv = eulerImplicit ∧ (∀ d, L.periodic 0 d = false) ∧
    (∀ m, m ≤ 2 → Filled true L (x m).B (x m).U V) ∧ Stored true L 3 (x 1).p pr ∧ (∀ i : ℤ, 0 ≤ i → i < L.pN → (x 2).p i = (x 1).p i) ∧
    ¬ Balanced L G axes P.nu V pr := by
  obtain ⟨⟨ops, s, a, b⟩, h, hch⟩ := Option.map_eq_some_iff.1 coast_check
  have h := toOption_ok h
  obtain ⟨⟨ops', s'⟩, h1, h⟩ := bind_ok h
  obtain ⟨a', h2, h⟩ := bind_ok h
  obtain ⟨b', h3, h⟩ := bind_ok h
  cases h
  have hrun : boxRun (boxParams (1 / 4) 0 eulerImplicit eulerExplicit) (vortexFlow 0) 2 0 = .ok (ops, s, s) := by
    unfold boxRun
    rw [h1]
    rfl
  obtain ⟨d, -, S, -⟩ := box_run (node := boxNode (1 / 4) "EULER_IMPLICIT" "EULER_EXPLICIT") rfl rfl (Or.inr rfl) hrun
  have C := S.constructed
  obtain ⟨u1, u2, u3, u4⟩ := seam_sizes
  let x : ℕ → NSState ℚ := fun m => if m = 0 then s else if m = 1 then a else b
  have hx : Trajectory (seamLayout 2) seamGeom (boxParams (1 / 4) 0 eulerImplicit eulerExplicit) ops (gaussSolve 7) (gaussSolve 6) x 2 := by
    intro k hk
    interval_cases k
    · exact h2
    · exact h3
  obtain ⟨u₀, hops, R⟩ := S.reach_at (x := x) rfl hx
  unfold coastCheck at hch
  simp only [Bool.and_eq_true, List.all_eq_true, List.mem_range, decide_eq_true_eq] at hch
  obtain ⟨⟨c1, c2⟩, c3⟩ := hch
  obtain ⟨h0, hB0, hj0⟩ := (R 0 (by omega)).hist
  obtain ⟨V, hV⟩ := exists_filled (debug := true) C.setup C.part (C.ghosts ([.setGhostICs u₀] ++ h0)) s.U
  have hfill : ∀ m, m ≤ 2 → Filled true (seamLayout 2) (x m).B (x m).U V := by
    intro m hm
    obtain ⟨hm', hB, hj⟩ := (R m hm).hist
    rw [hB]
    refine dirichlet_filled C (fun _ _ => rfl) ⟨u₀, h0, rfl⟩ ⟨u₀, hm', rfl⟩ hj0 hj (fun i i0 i1 => ?_) hV
    rw [u2] at i1
    obtain ⟨i, rfl⟩ := Int.eq_ofNat_of_zero_le i0
    interval_cases m
    · rfl
    · exact (c1 i (by omega)).1
    · exact (c1 i (by omega)).2
  have hp : ∀ m, 1 ≤ m → m ≤ 2 → ∀ i : ℤ, 0 ≤ i → i < ((seamLayout 2).pN : ℕ) → (x m).p i = 0 := by
    intro m h1 h2 i i0 i1
    rw [u4] at i1
    obtain ⟨i, rfl⟩ := Int.eq_ofNat_of_zero_le i0
    interval_cases m
    · exact (c2 i (by omega)).1
    · exact (c2 i (by omega)).2
  refine ⟨_, _, _, _, _, _, _, ops, _, d, s, x, _, _, V, fun _ => 0, S, rfl, hx, by rw [u2]; exact gaussSolve_exact _ _, by rw [u4]; exact gaussSolve_exact _ _,
    rfl, rfl, by norm_num [boxParams], rfl, fun _ => rfl, hfill, ⟨fun st idx hin hi => ?_, fun _ _ _ _ _ _ _ => rfl⟩, fun i i0 i1 => ?_, ?_⟩
  · rw [(col_inside C.setup.layout (Or.inr rfl) true hin).1] at hi
    cases hi
    exact (hp 1 le_rfl (by omega) _ (pcol_range C.setup.layout hin).1 (pcol_range C.setup.layout hin).2).symm
  · rw [hp 1 le_rfl (by omega) i i0 i1, hp 2 (by omega) le_rfl i i0 i1]
  · intro hbal
    obtain ⟨w, hw, hw0⟩ := Option.map_eq_some_iff.1 c3
    have hw := toOption_ok hw
    have hin : Inside (seamLayout 2).toMeshInfo 0 ⟨0, 0, 0, 0⟩ := by
      refine ⟨fun d hd => ?_, rfl⟩
      interval_cases d <;> decide
    obtain ⟨u, _, hu, hcomp, hst⟩ := exists_unknown C.setup.layout (show 0 < (seamLayout 2).dim by decide) hin
    have hidx : (seamLayout 2).getPackedGlobalIndex true u.comp u.st = .ok 0 := by
      rw [hcomp, hst]
      decide +kernel
    obtain ⟨z, hz, hval⟩ := C58_convection_of_seen (debug := true) C ([.setGhostICs u₀] ++ h0) s.U (fun _ => 0)
    have hB0 : s.B = fun r => (seamB closedTable 2 r).run ([.setGhostICs u₀] ++ h0) := hB0
    rw [hB0, hz] at hw
    cases hw
    have e := hval V hV u 0 hu hidx
    have e' := hbal u hu
    simp only [boxParams, zero_mul] at e'
    unfold pressureSlope at e'
    simp only [sub_self, zero_div, add_zero] at e'
    rw [e'] at e
    rw [e] at hw0
    simp at hw0

/-! ### Forces that do not change any more -/

/-- Two points right below the lid of the cavity. -/
def shieldPack : BodyPack ℚ := ⟨2, 1, [⟨2, 2, [[1, 3/2], [2, 3/2]], [2]⟩]⟩

def restFlow : FlowNode ℚ := ⟨some 1, some [fun _ _ _ _ _ => 0, fun _ _ _ _ _ => 0], none⟩

def shieldParams : NSParams ℚ := boxParams (1 / 4) 1 eulerExplicit eulerExplicit

/-- Points that stay where they are. -/
def stayMotion : Motion ℚ := ⟨fun _ b => b, fun _ _ _ => fun _ => 0⟩

def shieldDecoupled : Except Error (NSOps ℚ × IBOps ℚ × IBState ℚ × IBState ℚ × IBState ℚ) := do
  let (ops, ib, s) ← decoupledInit true (seamLayout 1) seamGeom seamAxes shieldParams (some restFlow) (seamB lidTable 1) shieldPack hatKernel 1
  let a ← decoupledAdvance (seamLayout 1) seamGeom shieldParams ops ib none (gaussSolve 7) (gaussSolve 4) (gaussSolve 6) s
  let b ← decoupledAdvance (seamLayout 1) seamGeom shieldParams ops ib none (gaussSolve 7) (gaussSolve 4) (gaussSolve 6) a
  return (ops, ib, s, a, b)

def shieldMoving : Except Error (NSOps ℚ × RigidState ℚ × RigidState ℚ × RigidState ℚ) := do
  let (ops, ib, s) ← decoupledInit true (seamLayout 1) seamGeom seamAxes shieldParams (some restFlow) (seamB lidTable 1) shieldPack hatKernel 1
  let a ← rigidAdvance true (seamLayout 1) seamGeom seamAxes shieldParams ops stayMotion hatKernel 1 (gaussSolve 7) (gaussSolve 4) (gaussSolve 6)
    ⟨s, shieldPack, fun _ => 0, ib⟩
  let b ← rigidAdvance true (seamLayout 1) seamGeom seamAxes shieldParams ops stayMotion hatKernel 1 (gaussSolve 7) (gaussSolve 4) (gaussSolve 6) a
  return (ops, ⟨s, shieldPack, fun _ => 0, ib⟩, a, b)

def shieldCoupled : Except Error (NSOps ℚ × NSState ℚ × NSState ℚ × NSState ℚ) := do
  let ((ops, _), s) ← ibpmInit true (seamLayout 1) seamGeom seamAxes shieldParams (some restFlow) (seamB lidTable 1) shieldPack hatKernel 1
  let a ← ibpmAdvance (seamLayout 1) seamGeom shieldParams (nestCounts (seamLayout 1) shieldPack) ops (gaussSolve 7) (gaussSolve 10) s
  let b ← ibpmAdvance (seamLayout 1) seamGeom shieldParams (nestCounts (seamLayout 1) shieldPack) ops (gaussSolve 7) (gaussSolve 10) a
  return (ops, s, a, b)

/-- Velocities of all levels and pressures of the last two are the same; so are the forces, which are not zero. -/
def shieldCheck (n m : ℕ) (s a b : ℤ → ℚ) (p p' f f' : ℤ → ℚ) : Bool :=
  ((List.range 7).all fun i : ℕ => decide (a i = s i) && decide (b i = s i)) && ((List.range n).all fun i : ℕ => decide (p' i = p i)) &&
    ((List.range m).all fun i : ℕ => decide (f' i = f i)) && decide (f 0 ≠ 0)

theorem shield_decoupled : shieldDecoupled.toOption.map
    (fun q => shieldCheck 6 4 q.2.2.1.ns.U q.2.2.2.1.ns.U q.2.2.2.2.ns.U q.2.2.2.1.ns.p q.2.2.2.2.ns.p q.2.2.2.1.f q.2.2.2.2.f) = some true := by
  decide +kernel

theorem shield_moving : shieldMoving.toOption.map
    (fun q => shieldCheck 6 4 q.2.1.ns.U q.2.2.1.ns.U q.2.2.2.ns.U q.2.2.1.ns.p q.2.2.2.ns.p q.2.2.1.f q.2.2.2.f) = some true := by
  decide +kernel

theorem shield_coupled : shieldCoupled.toOption.map
    (fun q => shieldCheck 6 4 q.2.1.U q.2.2.1.U q.2.2.2.U (subPressure (nestCounts (seamLayout 1) shieldPack) q.2.2.1.p)
      (subPressure (nestCounts (seamLayout 1) shieldPack) q.2.2.2.p) (subForces (nestCounts (seamLayout 1) shieldPack) q.2.2.1.p)
      (subForces (nestCounts (seamLayout 1) shieldPack) q.2.2.2.p)) = some true := by
  decide +kernel

/-- The history of two steps. -/
theorem shield_filled {R : Type} (x : ℕ → R) {ns : R → NSState ℚ} {N : ℕ} {u₀ : ℤ → ℚ}
    (hist : ∀ m, m ≤ 2 → Reach (seamLayout 1) (seamB lidTable 1) shieldParams N u₀ (ns (x m)))
    (hU : ∀ m, m ≤ 2 → ∀ i : ℕ, i < 7 → (ns (x m)).U i = (ns (x 0)).U i) :
    ∃ V, ∀ m, 0 ≤ m → m ≤ 0 + 2 → Filled true (seamLayout 1) (ns (x m)).B (ns (x m)).U V := by
  have C := seam_constructed lidTable (fun _ _ => rfl) 1 (Or.inl rfl)
  obtain ⟨h0, hB0, hj0⟩ := (hist 0 (by omega)).hist
  obtain ⟨V, hV⟩ := exists_filled (debug := true) C.setup C.part (C.ghosts ([.setGhostICs u₀] ++ h0)) (ns (x 0)).U
  refine ⟨V, fun m _ hm => ?_⟩
  obtain ⟨hm', hB, hj⟩ := (hist m (by omega)).hist
  rw [hB]
  refine dirichlet_filled C (fun _ _ => rfl) ⟨u₀, h0, rfl⟩ ⟨u₀, hm', rfl⟩ hj0 hj (fun i i0 i1 => ?_) hV
  rw [seam_sizes.1] at i1
  obtain ⟨i, rfl⟩ := Int.eq_ofNat_of_zero_le i0
  exact hU m (by omega) i (by omega)

theorem shield_ok : BodiesOK (seamLayout 1) shieldPack := ⟨by constructor <;> simp [shieldPack], rfl, rfl⟩

theorem shield_values {n m : ℕ} {s a b p p' f f' : ℤ → ℚ} (h : shieldCheck n m s a b p p' f f' = true) :
    (∀ i : ℕ, i < 7 → a i = s i ∧ b i = s i) ∧ (∀ i : ℕ, i < n → p' i = p i) ∧ (∀ i : ℕ, i < m → f' i = f i) ∧ f 0 ≠ 0 := by
  unfold shieldCheck at h
  simp only [Bool.and_eq_true, List.all_eq_true, List.mem_range, decide_eq_true_eq] at h
  exact ⟨h.1.1.1, h.1.1.2, h.1.2, h.2⟩

theorem shield_started {ops : NSOps ℚ} {ib : IBOps ℚ} {s : IBState ℚ}
    (h1 : decoupledInit true (seamLayout 1) seamGeom seamAxes shieldParams (some restFlow) (seamB lidTable 1) shieldPack hatKernel 1 = .ok (ops, ib, s)) :
    ∃ d, IBStarted true (seamLayout 1) seamGeom seamAxes lidTable (seamB lidTable 1) shieldParams (some restFlow) shieldPack hatKernel 1 ops ib
      (fun _ => none) s d := by
  have C := seam_constructed lidTable (fun _ _ => rfl) 1 (Or.inl rfl)
  have hi : s.ns.ite = 0 := by
    obtain ⟨⟨ops', ns⟩, h3, h1⟩ := bind_ok h1
    obtain ⟨idx, h4, h1⟩ := bind_ok h1
    obtain ⟨ib', h5, h1⟩ := bind_ok h1
    cases h1
    obtain ⟨_, _, _, _, rfl⟩ := solverInit_ok h3
    rfl
  obtain ⟨file, hf, _⟩ := writeSolution_spec C.setup.layout s.ns (fun _ => none) (stepPath shieldParams.output s.ns.ite)
  refine ⟨Function.update (fun _ => none) (stepPath shieldParams.output s.ns.ite) (some file), C,
    ⟨false, "out", some (boxNode (1 / 4) "EULER_EXPLICIT" "EULER_EXPLICIT"), rfl⟩, shield_ok, s, h1, ?_⟩
  unfold decoupledIoInitialData
  rw [if_pos hi, hf]
  rfl

/-- C94, decoupled solver: below the moving lid of the cavity the points of the body keep the fluid at rest; the forces do not change after the
first step, and they are not zero. -/
example : ∃ ops ib s d x V, IBStarted true (seamLayout 1) seamGeom seamAxes lidTable (seamB lidTable 1) shieldParams (some restFlow) shieldPack hatKernel 1
      ops ib (fun _ => none) s d ∧ x 0 = s ∧ IBTrajectory (seamLayout 1) seamGeom shieldParams ops ib (gaussSolve 7) (gaussSolve 4) (gaussSolve 6) x 2 ∧
    Solves (seamLayout 1).UN (gaussSolve 7) ops.A ∧ Solves ib.nF (gaussSolve 4) ib.EBNH ∧ Solves (seamLayout 1).pN (gaussSolve 6) ops.DBNG ∧
    (∀ m, 0 ≤ m → m ≤ 0 + 2 → Filled true (seamLayout 1) (x m).ns.B (x m).ns.U V) ∧
    (∀ i : ℤ, 0 ≤ i → i < (seamLayout 1).pN → (x 2).ns.p i = (x 1).ns.p i + 0) ∧
    (∀ i : ℤ, 0 ≤ i → i < (shieldPack.nPts * shieldPack.dim : ℕ) → (x 2).f i = (x 1).f i) ∧ (x 1).f 0 ≠ 0 := by
  obtain ⟨⟨ops, ib, s, a, b⟩, h, hch⟩ := Option.map_eq_some_iff.1 shield_decoupled
  have h := toOption_ok h
  obtain ⟨⟨ops', ib', s'⟩, h1, h⟩ := bind_ok h
  obtain ⟨a', h2, h⟩ := bind_ok h
  obtain ⟨b', h3, h⟩ := bind_ok h
  cases h
  obtain ⟨d, S⟩ := shield_started h1
  obtain ⟨c1, c2, c3, c4⟩ := shield_values hch
  have hx : IBTrajectory (seamLayout 1) seamGeom shieldParams ops ib (gaussSolve 7) (gaussSolve 4) (gaussSolve 6)
      (fun m => if m = 0 then s else if m = 1 then a else b) 2 := by
    intro k hk
    interval_cases k
    · exact h2
    · exact h3
  obtain ⟨u₀, -, R⟩ := S.reach_at rfl hx
  obtain ⟨V, hV⟩ := shield_filled (fun m => if m = 0 then s else if m = 1 then a else b) (ns := fun q : IBState ℚ => q.ns) R fun m hm i hi => by
    interval_cases m
    · rfl
    · exact (c1 i hi).1
    · exact (c1 i hi).2
  obtain ⟨Δ₁, BN₁, i1, iBN, i2, i3, i4, i5, i6⟩ := S.operators
  refine ⟨ops, ib, s, d, _, V, S, rfl, hx, by rw [seam_sizes.1]; exact gaussSolve_exact _ _, by rw [i2]; exact gaussSolve_exact _ _,
    by rw [seam_sizes.2.2.1]; exact gaussSolve_exact _ _, hV, fun i i0 i1 => ?_, fun i i0 i1 => ?_, c4⟩
  · rw [seam_sizes.2.2.1] at i1
    obtain ⟨i, rfl⟩ := Int.eq_ofNat_of_zero_le i0
    rw [add_zero]
    exact c2 i (by omega)
  · obtain ⟨i, rfl⟩ := Int.eq_ofNat_of_zero_le i0
    have : shieldPack.nPts * shieldPack.dim = 4 := rfl
    exact c3 i (by omega)

/-- C94, prescribed motion: the same with points that are told to stay. -/
example : ∃ ops s d x V, RigidStarted true (seamLayout 1) seamGeom seamAxes lidTable (seamB lidTable 1) shieldParams (some restFlow) shieldPack stayMotion
      hatKernel 1 ops (fun _ => none) s d ∧ x 0 = s ∧ RigidTrajectory true (seamLayout 1) seamGeom seamAxes shieldParams ops stayMotion hatKernel 1
        (gaussSolve 7) (gaussSolve 4) (gaussSolve 6) x 2 ∧
    Solves (seamLayout 1).UN (gaussSolve 7) ops.A ∧ (∀ A, Solves (x 2).ib.nF (gaussSolve 4) A) ∧
    (∀ m, 0 ≤ m → m ≤ 0 + 2 → Filled true (seamLayout 1) (x m).ns.B (x m).ns.U V) ∧
    (∀ i : ℤ, 0 ≤ i → i < (seamLayout 1).pN → (x 2).ns.p i = (x 1).ns.p i + 0) ∧
    (∀ i : ℤ, 0 ≤ i → i < ((x 2).bodies.nPts * (x 2).bodies.dim : ℕ) → (x 2).f i = (x 1).f i) ∧ (x 1).f 0 ≠ 0 := by
  obtain ⟨⟨ops, s, a, b⟩, h, hch⟩ := Option.map_eq_some_iff.1 shield_moving
  have h := toOption_ok h
  obtain ⟨⟨ops', ib', s'⟩, h1, h⟩ := bind_ok h
  obtain ⟨a', h2, h⟩ := bind_ok h
  obtain ⟨b', h3, h⟩ := bind_ok h
  cases h
  obtain ⟨d, S'⟩ := shield_started h1
  have S : RigidStarted true (seamLayout 1) seamGeom seamAxes lidTable (seamB lidTable 1) shieldParams (some restFlow) shieldPack stayMotion
      hatKernel 1 ops (fun _ => none) ⟨s', shieldPack, fun _ => 0, ib'⟩ d := ⟨S', rfl, rfl, fun _ _ h => h⟩
  obtain ⟨c1, c2, c3, c4⟩ := shield_values hch
  have hx : RigidTrajectory true (seamLayout 1) seamGeom seamAxes shieldParams ops stayMotion hatKernel 1 (gaussSolve 7) (gaussSolve 4) (gaussSolve 6)
      (fun m => if m = 0 then ⟨s', shieldPack, fun _ => 0, ib'⟩ else if m = 1 then a else b) 2 := by
    intro k hk
    interval_cases k
    · exact h2
    · exact h3
  obtain ⟨u₀, -, R⟩ := S.reach_at rfl hx
  obtain ⟨V, hV⟩ := shield_filled (fun m => if m = 0 then ⟨s', shieldPack, fun _ => 0, ib'⟩ else if m = 1 then a else b) (ns := fun q : RigidState ℚ => q.ns) (fun m hm => (R m hm).1) fun m hm i hi => by
    interval_cases m
    · rfl
    · exact (c1 i hi).1
    · exact (c1 i hi).2
  have e1 : a.bodies = shieldPack := (rigid_ok h2).1
  have e2 : b.bodies = shieldPack := ((rigid_ok h3).1).trans e1
  refine ⟨ops, _, d, _, V, S, rfl, hx, by rw [seam_sizes.1]; exact gaussSolve_exact _ _, fun A => ?_,
    hV, fun i i0 i1 => ?_, fun i i0 i1 => ?_, c4⟩
  · have hnF : b.ib.nF = 4 := by
      obtain ⟨_, _, ⟨idx, hi, hE⟩, -⟩ := rigid_ok h3
      obtain ⟨hh, hB', -⟩ := (R 1 (by omega)).1.hist
      have hB' : a.ns.B = fun r => (seamB lidTable 1 r).run ([.setGhostICs u₀] ++ hh) := hB'
      rw [hB'] at hE
      obtain ⟨Δ, BN', g1, hBN', g2, _⟩ := createExtra_ok S'.constructed hi hE
      rw [g2, e2]
      rfl
    show Solves b.ib.nF _ A
    rw [hnF]
    exact gaussSolve_exact _ _
  · rw [seam_sizes.2.2.1] at i1
    obtain ⟨i, rfl⟩ := Int.eq_ofNat_of_zero_le i0
    rw [add_zero]
    exact c2 i (by omega)
  · obtain ⟨i, rfl⟩ := Int.eq_ofNat_of_zero_le i0
    have : shieldPack.nPts * shieldPack.dim = 4 := rfl
    have i1 : (i : ℤ) < (b.bodies.nPts * b.bodies.dim : ℕ) := i1
    rw [e2] at i1
    exact c3 i (by omega)

/-- C94, coupled solver: the same. -/
example : ∃ ops s d x V, CoupledStarted true (seamLayout 1) seamGeom seamAxes lidTable (seamB lidTable 1) shieldParams (some restFlow) shieldPack hatKernel 1
      ops (fun _ => none) s d ∧ x 0 = s ∧ CoupledTrajectory (seamLayout 1) seamGeom shieldParams (nestCounts (seamLayout 1) shieldPack) ops
        (gaussSolve 7) (gaussSolve 10) x 2 ∧
    Solves (seamLayout 1).UN (gaussSolve 7) ops.A ∧ Solves ops.pN (gaussSolve 10) ops.DBNG ∧
    (∀ m, 0 ≤ m → m ≤ 0 + 2 → Filled true (seamLayout 1) (x m).B (x m).U V) ∧
    (∀ i : ℕ, i < (seamLayout 1).pN → subPressure (nestCounts (seamLayout 1) shieldPack) (x 2).p i = subPressure (nestCounts (seamLayout 1) shieldPack) (x 1).p i + 0) ∧
    (∀ i : ℕ, i < shieldPack.nPts * shieldPack.dim →
      subForces (nestCounts (seamLayout 1) shieldPack) (x 2).p i = subForces (nestCounts (seamLayout 1) shieldPack) (x 1).p i) ∧
    subForces (nestCounts (seamLayout 1) shieldPack) (x 1).p 0 ≠ 0 := by
  obtain ⟨⟨ops, s, a, b⟩, h, hch⟩ := Option.map_eq_some_iff.1 shield_coupled
  have h := toOption_ok h
  obtain ⟨⟨⟨ops', EH⟩, s'⟩, h1, h⟩ := bind_ok h
  obtain ⟨a', h2, h⟩ := bind_ok h
  obtain ⟨b', h3, h⟩ := bind_ok h
  cases h
  have C := seam_constructed lidTable (fun _ _ => rfl) 1 (Or.inl rfl)
  have hi : s.ite = 0 := by
    obtain ⟨⟨U, p⟩, h3, h1⟩ := bind_ok h1
    obtain ⟨⟨ops', E', H'⟩, h4, h1⟩ := bind_ok h1
    cases h1
    rfl
  obtain ⟨file, hf, _⟩ := writeSolution_spec C.setup.layout { s with p := subPressure (nestCounts (seamLayout 1) shieldPack) s.p }
    (fun _ => none) (stepPath shieldParams.output s.ite)
  have S : CoupledStarted true (seamLayout 1) seamGeom seamAxes lidTable (seamB lidTable 1) shieldParams (some restFlow) shieldPack hatKernel 1
      ops (fun _ => none) s (Function.update (fun _ => none) (stepPath shieldParams.output s.ite) (some file)) := by
    refine ⟨C, ⟨false, "out", some (boxNode (1 / 4) "EULER_EXPLICIT" "EULER_EXPLICIT"), rfl⟩, shield_ok, s, EH, h1, ?_⟩
    unfold ibpmIoInitialData ibpmWriteSolution
    rw [if_pos hi, hf]
    rfl
  obtain ⟨c1, c2, c3, c4⟩ := shield_values hch
  have hx : CoupledTrajectory (seamLayout 1) seamGeom shieldParams (nestCounts (seamLayout 1) shieldPack) ops (gaussSolve 7) (gaussSolve 10)
      (fun m => if m = 0 then s else if m = 1 then a else b) 2 := by
    intro k hk
    interval_cases k
    · exact h2
    · exact h3
  obtain ⟨u₀, E, H, hops, R⟩ := S.reach_at rfl hx
  obtain ⟨V, hV⟩ := shield_filled (fun m => if m = 0 then s else if m = 1 then a else b) (ns := fun q : NSState ℚ => q) R fun m hm i hi => by
    interval_cases m
    · rfl
    · exact (c1 i hi).1
    · exact (c1 i hi).2
  obtain ⟨D, Dm, Gr, La, Lm, BN, idx, o1, o2, o3, o4, o5, o6, hop⟩ := ibpmCreate_ok hops
  have hpN : ops.pN = 10 := by
    rw [hop]
    show (seamLayout 1).pN + shieldPack.nPts * shieldPack.dim = 10
    rw [seam_sizes.2.2.1]
    rfl
  refine ⟨ops, s, _, _, V, S, rfl, hx, by rw [seam_sizes.1]; exact gaussSolve_exact _ _, by rw [hpN]; exact gaussSolve_exact _ _,
    hV, fun i i1 => ?_, fun i i1 => ?_, c4⟩
  · rw [seam_sizes.2.2.1] at i1
    rw [add_zero]
    exact c2 i i1
  · exact c3 i i1

/-- C94 without bodies: the steady suction flow below a moving wall (the case of C86). -/
example : ∃ o i d x, Started true (seamLayout 1) seamGeom seamAxes suctionTable (seamB suctionTable 1) (seamParams eulerExplicit) (some suctionFlow) o
      (fun _ => none) i d ∧ x 0 = i ∧ Trajectory (seamLayout 1) seamGeom (seamParams eulerExplicit) o (gaussSolve 7) (gaussSolve 6) x 2 ∧
    Solves (seamLayout 1).UN (gaussSolve 7) o.A ∧ Solves (seamLayout 1).pN (gaussSolve 6) o.DBNG ∧
    (∀ m, 0 ≤ m → m ≤ 0 + 2 → Filled true (seamLayout 1) (x m).B (x m).U suctionField) ∧ (∃ p, Stored true (seamLayout 1) 3 (x (0 + 1)).p p) ∧
    ∃ c, ∀ i : ℤ, 0 ≤ i → i < (seamLayout 1).pN → (x (0 + 2)).p i = (x (0 + 1)).p i + c := by
  obtain ⟨⟨o, i, e⟩, h, hv⟩ := Option.map_eq_some_iff.1 (suction_start eulerExplicit (Or.inl rfl))
  obtain ⟨d, x, S, x0, -, t⟩ := seam_run (conv := "EULER_EXPLICIT") (fun _ _ => rfl) rfl (Or.inl rfl) (of_toOption h)
  have C := S.constructed
  have hm := suction_meets (congrArg Prod.fst hv)
  have exV : Solves (seamLayout 1).UN (gaussSolve 7) o.A := by rw [seam_sizes.1]; exact gaussSolve_exact _ _
  have exP : Solves (seamLayout 1).pN (gaussSolve 6) o.DBNG := by rw [seam_sizes.2.2.1]; exact gaussSolve_exact _ _
  have kept : ∀ m, m ≤ 2 → Kept (seamLayout 1) (seamB suctionTable 1) i (x m) := fun m h2 =>
    steady_run S rfl x0 t (fun _ _ _ _ hp => by cases hp) (fun _ _ _ _ => by simp [suctionTable]) (Or.inl rfl) (by norm_num [seamParams])
      (by norm_num [seamParams]) exV exP (meets_filled C hm (S.kept rfl).B) (suction_pressure (congrArg Prod.snd hv)) suction_solenoidal
      suction_balanced (Or.inl rfl) (Or.inl fun h => by simpa [seamParams, eulerExplicit, adamsBashforth2] using congrArg TimeScheme.nExplicit h) h2
  obtain ⟨c1, k1⟩ := (kept 1 (by omega)).p
  obtain ⟨c2, k2⟩ := (kept 2 (by omega)).p
  refine ⟨o, i, d, x, S, x0, t, exV, exP, fun m _ h2 => ?_, ⟨fun _ => c1, fun st idx hin hi => ?_, fun _ _ _ _ _ _ _ => rfl⟩, c2 - c1, fun j j0 j1 => ?_⟩
  · rw [(kept m (by omega)).U]
    exact meets_filled C hm (kept m (by omega)).B
  · rw [(col_inside C.setup.layout (Or.inr rfl) true hin).1] at hi
    cases hi
    have hr := pcol_range C.setup.layout hin
    rw [k1 _ hr.1 hr.2, ← (suction_pressure (congrArg Prod.snd hv)).inside _ _ hin (col_inside C.setup.layout (Or.inr rfl) true hin).1, zero_add]
  · rw [k1 j j0 j1, k2 j j0 j1]
    ring

end PetIBM
