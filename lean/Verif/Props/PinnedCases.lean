import Verif.Props.Pinned
import Verif.Props.ConvergedCases

/-!
Runs with the pinned Poisson system that meet the hypotheses of the theorems of `Props/Pinned.lean`.
-/

set_option linter.unusedSectionVars false

namespace PetIBM

open Spec

/-! ### The flow solver -/

def pinnedNode (conv diff : String) : ParamNode ℚ := { boxNode (1 / 4) conv diff with poissonSolver := some "GPU" }

def pinnedParams (nu : ℚ) (conv diff : TimeScheme ℚ) : NSParams ℚ := { boxParams (1 / 4) nu conv diff with pType := .amgx }

/-- Runs of any length in the closed box, on two processes, with the pinned system: the hypotheses of `C43_same_run_partial`, `C43_runs_partial` and
`C84_decay_pinned_partial` hold. -/
example (conv diff : TimeScheme ℚ) (h : conv = eulerExplicit ∧ diff = eulerImplicit ∨ conv = eulerImplicit ∧ (diff = eulerImplicit ∨ diff = crankNicolson)) :
    ∃ ops s d x, Started true (seamLayout 2) seamGeom seamAxes closedTable (seamB closedTable 2) (pinnedParams 1 conv diff)
      (some (vortexFlow 1)) ops (fun _ => none) s d ∧ x 0 = s ∧
      (∀ n, Trajectory (seamLayout 2) seamGeom (pinnedParams 1 conv diff) ops (exactSolve (seamLayout 2).UN) (exactSolve (seamLayout 2).pN) x n) ∧
      (pinnedParams 1 conv diff).pType = .amgx ∧ (∀ d, (seamLayout 2).periodic 0 d = false) ∧ WallsAtRest (seamLayout 2) closedTable ∧
      NormalVelocityGiven (seamLayout 2).toMeshInfo closedTable ∧ boundaryFlux (seamLayout 2).toMeshInfo seamGeom closedTable = 0 ∧
      Finds (seamLayout 2).UN (exactSolve (seamLayout 2).UN) ops.A ∧ Finds (seamLayout 2).pN (exactSolve (seamLayout 2).pN) ops.DBNG ∧
      Solves (seamLayout 2).UN (exactSolve (seamLayout 2).UN) ops.A ∧ Solves (seamLayout 2).pN (exactSolve (seamLayout 2).pN) ops.DBNG := by
  have C := seam_constructed closedTable (fun _ _ => rfl) 2 (Or.inr rfl)
  obtain ⟨ops, s, d, S⟩ := C60_start (P := pinnedParams 1 conv diff) C 1
    [fun x y _ _ _ => 2 * (1 - y) * x, fun x _ _ _ _ => 3 / 2 * (x - 1 / 2) * (x - 3 / 2) - 1] none (le_refl 2) (by decide) (by
      rcases h with ⟨rfl, rfl⟩ | ⟨rfl, rfl | rfl⟩
      · exact ⟨true, "out", some (pinnedNode "EULER_EXPLICIT" "EULER_IMPLICIT"), rfl⟩
      · exact ⟨true, "out", some (pinnedNode "EULER_IMPLICIT" "EULER_IMPLICIT"), rfl⟩
      · exact ⟨true, "out", some (pinnedNode "EULER_IMPLICIT" "CRANK_NICOLSON"), rfl⟩) (le_refl 1) rfl (fun _ => none)
  obtain ⟨x, x0, hx⟩ := C43_runs_partial S (vSolve := exactSolve (seamLayout 2).UN) (pSolve := exactSolve (seamLayout 2).pN)
    (fun _ _ _ _ hp => by cases hp) (fun _ _ _ _ => by simp [closedTable]) (Or.inl rfl) rfl (by norm_num [pinnedParams, boxParams])
    (by norm_num [pinnedParams, boxParams]) (exactSolve_finds _ _) (exactSolve_finds _ _)
  exact ⟨ops, s, d, x, S, x0, hx, rfl, fun _ => rfl, closed_rest 2, fun _ _ _ _ => Or.inl rfl, by decide +kernel, exactSolve_finds _ _,
    exactSolve_finds _ _, exactSolve_solves _ _, exactSolve_solves _ _⟩

/-- C94, pinned system: the vortex that stays as it is (see `C94_false_implicit_convection`) also does so with the pinned system. -/
theorem pinned_coast : (coastRun (pinnedParams 0 eulerImplicit eulerExplicit) (vortexFlow 0)).toOption.map coastCheck = some true := by decide +kernel

example : ∃ ops s d x V pr, Started true (seamLayout 2) seamGeom seamAxes closedTable (seamB closedTable 2)
      (pinnedParams 0 eulerImplicit eulerExplicit) (some (vortexFlow 0)) ops (fun _ => none) s d ∧ x 0 = s ∧
      Trajectory (seamLayout 2) seamGeom (pinnedParams 0 eulerImplicit eulerExplicit) ops (gaussSolve 7) (gaussSolve 6) x 2 ∧
      (pinnedParams 0 eulerImplicit eulerExplicit).pType = .amgx ∧ (∀ d, (seamLayout 2).periodic 0 d = false) ∧
      (∀ f loc, (closedTable f loc).1 ≠ .CONVECTIVE) ∧ NormalVelocityGiven (seamLayout 2).toMeshInfo closedTable ∧
      boundaryFlux (seamLayout 2).toMeshInfo seamGeom closedTable = 0 ∧ Solves (seamLayout 2).UN (gaussSolve 7) ops.A ∧
      Solves (seamLayout 2).pN (gaussSolve 6) ops.DBNG ∧ (∀ m, m ≤ 2 → Filled true (seamLayout 2) (x m).B (x m).U V) ∧
      Stored true (seamLayout 2) 3 (x 1).p pr ∧ ∀ i : ℤ, 0 ≤ i → i < (seamLayout 2).pN → (x 2).p i = (x 1).p i + 0 := by
  obtain ⟨⟨ops, s, a, b⟩, h, hch⟩ := Option.map_eq_some_iff.1 pinned_coast
  have h := toOption_ok h
  obtain ⟨⟨ops', s'⟩, h1, h⟩ := bind_ok h
  obtain ⟨a', h2, h⟩ := bind_ok h
  obtain ⟨b', h3, h⟩ := bind_ok h
  cases h
  have C := seam_constructed closedTable (fun _ _ => rfl) 2 (Or.inr rfl)
  have hi : s.ite = 0 := by
    obtain ⟨_, _, _, _, rfl⟩ := solverInit_ok h1
    rfl
  obtain ⟨file, hf, _⟩ := writeSolution_spec C.setup.layout s (fun _ => none) (stepPath "out" s.ite)
  have S : Started true (seamLayout 2) seamGeom seamAxes closedTable (seamB closedTable 2) (pinnedParams 0 eulerImplicit eulerExplicit)
      (some (vortexFlow 0)) ops (fun _ => none) s (Function.update (fun _ => none) (stepPath "out" s.ite) (some file)) := by
    refine ⟨C, ⟨true, "out", some (pinnedNode "EULER_IMPLICIT" "EULER_EXPLICIT"), rfl⟩, s, h1, ?_⟩
    unfold ioInitialData
    rw [if_pos hi]
    change (writeSolutionHDF5 _ s _ (stepPath "out" s.ite) >>= _) = _
    rw [hf]
    rfl
  obtain ⟨u1, u2, u3, u4⟩ := seam_sizes
  let x : ℕ → NSState ℚ := fun m => if m = 0 then s else if m = 1 then a else b
  have hx : Trajectory (seamLayout 2) seamGeom (pinnedParams 0 eulerImplicit eulerExplicit) ops (gaussSolve 7) (gaussSolve 6) x 2 := by
    intro k hk
    interval_cases k
    · exact h2
    · exact h3
  obtain ⟨u₀, hops, R⟩ := S.reach_at (x := x) rfl hx
  unfold coastCheck at hch
  simp only [Bool.and_eq_true, List.all_eq_true, List.mem_range, decide_eq_true_eq] at hch
  obtain ⟨⟨c1, c2⟩, c3⟩ := hch
  obtain ⟨h0, hB0, hj0⟩ := (R 0 (by omega)).hist
  obtain ⟨V, hV⟩ := exists_filled (debug := true) C.setup C.part (C.ghosts ([.setGhostICs u₀] ++ h0)) s.U
  have hfill : ∀ m, m ≤ 2 → Filled true (seamLayout 2) (x m).B (x m).U V := by
    intro m hm
    obtain ⟨hm', hB, hj⟩ := (R m hm).hist
    rw [hB]
    refine dirichlet_filled C (fun _ _ => rfl) ⟨u₀, h0, rfl⟩ ⟨u₀, hm', rfl⟩ hj0 hj (fun i i0 i1 => ?_) hV
    rw [u2] at i1
    obtain ⟨i, rfl⟩ := Int.eq_ofNat_of_zero_le i0
    interval_cases m
    · rfl
    · exact (c1 i (by omega)).1
    · exact (c1 i (by omega)).2
  have hp : ∀ m, 1 ≤ m → m ≤ 2 → ∀ i : ℤ, 0 ≤ i → i < ((seamLayout 2).pN : ℕ) → (x m).p i = 0 := by
    intro m h1 h2 i i0 i1
    rw [u4] at i1
    obtain ⟨i, rfl⟩ := Int.eq_ofNat_of_zero_le i0
    interval_cases m
    · exact (c2 i (by omega)).1
    · exact (c2 i (by omega)).2
  refine ⟨ops, s, _, x, V, fun _ => 0, S, rfl, hx, rfl, fun _ => rfl, fun _ _ => by simp [closedTable], fun _ _ _ _ => Or.inl rfl, by decide +kernel,
    by rw [u2]; exact gaussSolve_exact _ _, by rw [u4]; exact gaussSolve_exact _ _, hfill, ⟨fun st idx hin hi => ?_, fun _ _ _ _ _ _ _ => rfl⟩,
    fun i i0 i1 => ?_⟩
  · rw [(col_inside C.setup.layout (Or.inr rfl) true hin).1] at hi
    cases hi
    exact (hp 1 le_rfl (by omega) _ (pcol_range C.setup.layout hin).1 (pcol_range C.setup.layout hin).2).symm
  · rw [hp 1 le_rfl (by omega) i i0 i1, hp 2 (by omega) le_rfl i i0 i1, add_zero]

/-- C102, pinned system: runs of any length in a box with two lids. The half turn takes the pinned cell to another one. -/
example : ∃ ops s d x, Started true centredLayout centredGeom centredAxes twoLids centredB (pinnedParams 1 eulerExplicit eulerImplicit)
      (some shearFlow) ops (fun _ => none) s d ∧ Turned halfTurn centredLayout centredLayout centredAxes centredAxes twoLids twoLids ∧
    halfTurn.SameFlow centredLayout.dim (some shearFlow) (some shearFlow) ∧ (pinnedParams 1 eulerExplicit eulerImplicit).nstart = 0 ∧
    (∀ d, centredLayout.periodic 0 d = false) ∧ (∀ u : Unknown, KnowsWalls centredLayout twoLids u.rank u.comp ⟨u.k, u.j, u.i, 0⟩) ∧
    NormalVelocityGiven centredLayout.toMeshInfo twoLids ∧ boundaryFlux centredLayout.toMeshInfo centredGeom twoLids = 0 ∧
    GoodOrder centredLayout (pinnedParams 1 eulerExplicit eulerImplicit) ops.A ∧
    Solves centredLayout.UN (exactSolve centredLayout.UN) ops.A ∧ Solves centredLayout.pN (exactSolve centredLayout.pN) ops.DBNG ∧ x 0 = s ∧
    ∀ n, Trajectory centredLayout centredGeom (pinnedParams 1 eulerExplicit eulerImplicit) ops (exactSolve centredLayout.UN)
      (exactSolve centredLayout.pN) x n := by
  have C := centred_constructed
  have hN : NormalVelocityGiven centredLayout.toMeshInfo twoLids := fun _ _ _ _ => by left; unfold twoLids; split_ifs <;> rfl
  obtain ⟨ops, s, d, S⟩ := C60_start (P := pinnedParams 1 eulerExplicit eulerImplicit) C 1
    [fun _ y _ _ _ => y, fun x _ _ _ _ => x] none (le_refl 2) (by decide) ⟨true, "out", some (pinnedNode "EULER_EXPLICIT" "EULER_IMPLICIT"), rfl⟩
    (le_refl 1) rfl (fun _ => none)
  obtain ⟨x, x0, hx⟩ := C43_runs_partial S (vSolve := exactSolve centredLayout.UN) (pSolve := exactSolve centredLayout.pN)
    (fun _ _ _ _ hp => by cases hp) (fun f loc hf hl => by rcases hN f loc hf hl with h | h <;> rw [h] <;> simp) (Or.inl rfl) rfl
    (by norm_num [pinnedParams, boxParams]) (by norm_num [pinnedParams, boxParams]) (exactSolve_finds _ _) (exactSolve_finds _ _)
  refine ⟨ops, s, d, x, S, centred_turned, centred_flow, rfl, fun _ => rfl, ?_, hN, by decide +kernel, Or.inl rfl, exactSolve_solves _ _,
    exactSolve_solves _ _, x0, hx⟩
  intro u loc hl hne _ _
  left
  unfold Closed twoLids
  rw [if_neg (by omega), if_neg (by omega)]

/-! ### Bodies -/

abbrev pinnedB (T : BCTable ℚ) : ℕ → Boundary ℚ := boundaries true twoByTwo tailGeom T

theorem still_constructed : Constructed true twoByTwo tailGeom twoAxes closedTable (pinnedB closedTable) := by
  apply constructed_boundaries
  apply C57_construction true (Or.inl rfl) _ (fun _ _ _ _ => rfl) (fun _ _ => by decide)
  · intro f d hf hd
    rcases hf with hf | rfl
    · interval_cases d <;> interval_cases f <;> decide
    · interval_cases d <;> decide
  · intro f loc _ _; unfold closedTable; simp
  · intro f loc _ _; unfold closedTable; simp
  · intro d _
    exact ⟨by simp [twoAxes], by simp [twoAxes], by norm_num [twoAxes]⟩

/-- A swirl, viscosity `nu`. -/
def swirlFlow (nu : ℚ) : FlowNode ℚ := ⟨some nu, some [fun _ y _ _ _ => y, fun x _ _ _ _ => x * x], none⟩

def pinnedDecoupled (T : BCTable ℚ) (nu : ℚ) : Except Error (NSOps ℚ × IBOps ℚ × IBState ℚ × IBState ℚ) := do
  let (ops, ib, s) ← decoupledInit true twoByTwo tailGeom twoAxes (pinnedParams nu eulerImplicit eulerImplicit) (some (swirlFlow nu)) (pinnedB T)
    pointPack hatKernel 1
  let t ← steps (decoupledAdvance twoByTwo tailGeom (pinnedParams nu eulerImplicit eulerImplicit) ops ib none (gaussSolve 4) (gaussSolve 2)
    (gaussSolve 4)) 3 s
  return (ops, ib, s, t)

theorem pinned_decoupled {T : BCTable ℚ} {nu : ℚ} (C : Constructed true twoByTwo tailGeom twoAxes T (pinnedB T))
    (h : (pinnedDecoupled T nu).toOption.isSome = true) : ∃ ops ib s d x,
    IBStarted true twoByTwo tailGeom twoAxes T (pinnedB T) (pinnedParams nu eulerImplicit eulerImplicit) (some (swirlFlow nu)) pointPack hatKernel 1
      ops ib (fun _ => none) s d ∧ x 0 = s ∧
    IBTrajectory twoByTwo tailGeom (pinnedParams nu eulerImplicit eulerImplicit) ops ib (gaussSolve 4) (gaussSolve 2) (gaussSolve 4) x 3 ∧
    Solves twoByTwo.UN (gaussSolve 4) ops.A ∧ Solves ib.nF (gaussSolve 2) ib.EBNH ∧ Solves twoByTwo.pN (gaussSolve 4) ops.DBNG := by
  obtain ⟨⟨ops, ib, s, t⟩, h⟩ := pick h
  obtain ⟨⟨ops', ib', s'⟩, h1, h⟩ := bind_ok h
  obtain ⟨t', h2, h⟩ := bind_ok h
  cases h
  obtain ⟨x, x0, _, hx⟩ := steps_ok h2
  have hi : s.ns.ite = 0 := by
    obtain ⟨⟨ops', ns⟩, h3, h1⟩ := bind_ok h1
    obtain ⟨idx, h4, h1⟩ := bind_ok h1
    obtain ⟨ib', h5, h1⟩ := bind_ok h1
    cases h1
    obtain ⟨_, _, _, _, rfl⟩ := solverInit_ok h3
    rfl
  obtain ⟨file, hf, _⟩ := writeSolution_spec C.setup.layout s.ns (fun _ => none) (stepPath "out" s.ns.ite)
  have S : IBStarted true twoByTwo tailGeom twoAxes T (pinnedB T) (pinnedParams nu eulerImplicit eulerImplicit) (some (swirlFlow nu)) pointPack
      hatKernel 1 ops ib (fun _ => none) s (Function.update (fun _ => none) (stepPath "out" s.ns.ite) (some file)) := by
    refine ⟨C, ⟨true, "out", some (pinnedNode "EULER_IMPLICIT" "EULER_IMPLICIT"), rfl⟩, pointPack_ok, s, h1, ?_⟩
    unfold decoupledIoInitialData
    rw [if_pos hi]
    change (writeSolutionHDF5 _ s.ns _ (stepPath "out" s.ns.ite) >>= _) = _
    rw [hf]
    rfl
  obtain ⟨_, _, hn, _⟩ := C55_adjoint S
  refine ⟨ops, ib, s, _, x, S, x0, hx, gaussSolve_exact _ _, ?_, gaussSolve_exact _ _⟩
  rw [hn]
  exact gaussSolve_exact _ _

/-- C43, C44, decoupled: a point in a flow through the domain. -/
example : ∃ ops ib s d x,
    IBStarted true twoByTwo tailGeom twoAxes throughTable (pinnedB throughTable) (pinnedParams 1 eulerImplicit eulerImplicit) (some (swirlFlow 1))
      pointPack hatKernel 1 ops ib (fun _ => none) s d ∧ x 0 = s ∧
    IBTrajectory twoByTwo tailGeom (pinnedParams 1 eulerImplicit eulerImplicit) ops ib (gaussSolve 4) (gaussSolve 2) (gaussSolve 4) x 3 ∧
    (pinnedParams 1 eulerImplicit eulerImplicit).pType = .amgx ∧ (∀ d, twoByTwo.periodic 0 d = false) ∧
    NormalVelocityGiven twoByTwo.toMeshInfo throughTable ∧ boundaryFlux twoByTwo.toMeshInfo tailGeom throughTable = 0 ∧
    Solves twoByTwo.pN (gaussSolve 4) ops.DBNG := by
  obtain ⟨ops, ib, s, d, x, S, x0, hx, _, _, e⟩ := pinned_decoupled through_constructed (nu := 1) (by decide +kernel)
  exact ⟨ops, ib, s, d, x, S, x0, hx, rfl, fun _ => rfl, fun _ _ _ _ => by left; unfold throughTable; split_ifs <;> rfl, by decide +kernel, e⟩

/-- C92, pinned system: a point in a closed box without viscosity. -/
example : ∃ ops ib s d x,
    IBStarted true twoByTwo tailGeom twoAxes closedTable (pinnedB closedTable) (pinnedParams 0 eulerImplicit eulerImplicit) (some (swirlFlow 0))
      pointPack hatKernel 1 ops ib (fun _ => none) s d ∧ x 0 = s ∧
    IBTrajectory twoByTwo tailGeom (pinnedParams 0 eulerImplicit eulerImplicit) ops ib (gaussSolve 4) (gaussSolve 2) (gaussSolve 4) x 3 ∧
    (∀ d, twoByTwo.periodic 0 d = false) ∧ AllClosed twoByTwo closedTable ∧ (pinnedParams 0 eulerImplicit eulerImplicit).BN = 1 ∧
    (pinnedParams 0 eulerImplicit eulerImplicit).pType = .amgx ∧ Solves twoByTwo.UN (gaussSolve 4) ops.A ∧ Solves ib.nF (gaussSolve 2) ib.EBNH ∧
    Solves twoByTwo.pN (gaussSolve 4) ops.DBNG := by
  obtain ⟨ops, ib, s, d, x, S, x0, hx, e1, e2, e3⟩ := pinned_decoupled still_constructed (nu := 0) (by decide +kernel)
  exact ⟨ops, ib, s, d, x, S, x0, hx, fun _ => rfl, fun _ _ _ => rfl, rfl, rfl, e1, e2, e3⟩

def pinnedMoving : Except Error (NSOps ℚ × RigidState ℚ × RigidState ℚ) := do
  let (ops, ib, s) ← decoupledInit true twoByTwo tailGeom twoAxes (pinnedParams 1 eulerImplicit eulerImplicit) (some (swirlFlow 1)) throughB
    pointPack hatKernel 1
  let s : RigidState ℚ := { toIBState := s, bodies := pointPack, UB := fun _ => 0, ib := ib }
  let t ← steps (rigidAdvance true twoByTwo tailGeom twoAxes (pinnedParams 1 eulerImplicit eulerImplicit) ops risingMotion hatKernel 1 (gaussSolve 4)
    (gaussSolve 2) (gaussSolve 4)) 2 s
  return (ops, s, t)

theorem pinnedMoving_ok : pinnedMoving.toOption.isSome = true := by decide +kernel

/-- C43, prescribed motion: a rising point. -/
example : ∃ ops s d x, RigidStarted true twoByTwo tailGeom twoAxes throughTable throughB (pinnedParams 1 eulerImplicit eulerImplicit)
      (some (swirlFlow 1)) pointPack risingMotion hatKernel 1 ops (fun _ => none) s d ∧ x 0 = s ∧
    RigidTrajectory true twoByTwo tailGeom twoAxes (pinnedParams 1 eulerImplicit eulerImplicit) ops risingMotion hatKernel 1 (gaussSolve 4)
      (gaussSolve 2) (gaussSolve 4) x 2 ∧ (pinnedParams 1 eulerImplicit eulerImplicit).pType = .amgx ∧ (∀ d, twoByTwo.periodic 0 d = false) ∧
    NormalVelocityGiven twoByTwo.toMeshInfo throughTable ∧ boundaryFlux twoByTwo.toMeshInfo tailGeom throughTable = 0 ∧
    Solves twoByTwo.pN (gaussSolve 4) ops.DBNG := by
  obtain ⟨⟨ops, s, t⟩, h⟩ := pick pinnedMoving_ok
  obtain ⟨⟨ops', ib', s'⟩, h1, h⟩ := bind_ok h
  obtain ⟨t', h2, h⟩ := bind_ok h
  cases h
  obtain ⟨x, x0, _, hx⟩ := steps_ok h2
  have hi : s'.ns.ite = 0 := by
    obtain ⟨⟨ops', ns⟩, h3, h1⟩ := bind_ok h1
    obtain ⟨idx, h4, h1⟩ := bind_ok h1
    obtain ⟨ib', h5, h1⟩ := bind_ok h1
    cases h1
    obtain ⟨_, _, _, _, rfl⟩ := solverInit_ok h3
    rfl
  obtain ⟨file, hf, _⟩ := writeSolution_spec through_constructed.setup.layout s'.ns (fun _ => none) (stepPath "out" s'.ns.ite)
  have S : IBStarted true twoByTwo tailGeom twoAxes throughTable throughB (pinnedParams 1 eulerImplicit eulerImplicit) (some (swirlFlow 1)) pointPack
      hatKernel 1 ops ib' (fun _ => none) s' (Function.update (fun _ => none) (stepPath "out" s'.ns.ite) (some file)) := by
    refine ⟨through_constructed, ⟨true, "out", some (pinnedNode "EULER_IMPLICIT" "EULER_IMPLICIT"), rfl⟩, pointPack_ok, s', h1, ?_⟩
    unfold decoupledIoInitialData
    rw [if_pos hi]
    change (writeSolutionHDF5 _ s'.ns _ (stepPath "out" s'.ns.ite) >>= _) = _
    rw [hf]
    rfl
  exact ⟨ops, _, _, x, ⟨S, rfl, rfl, risingMotion_ok⟩, x0, hx, rfl, fun _ => rfl, fun _ _ _ _ => by left; unfold throughTable; split_ifs <;> rfl,
    by decide +kernel, gaussSolve_exact _ _⟩

def pinnedCoupled (T : BCTable ℚ) : Except Error ((NSOps ℚ × Mat ℚ × Mat ℚ) × NSState ℚ × NSState ℚ) := do
  let (ops, s) ← ibpmInit true twoByTwo tailGeom twoAxes (pinnedParams 1 eulerImplicit eulerImplicit) (some (swirlFlow 1)) (pinnedB T) pointPack
    hatKernel 1
  let t ← steps (ibpmAdvance twoByTwo tailGeom (pinnedParams 1 eulerImplicit eulerImplicit) (nestCounts twoByTwo pointPack) ops.1 (gaussSolve 4)
    (gaussSolve 6)) 2 s
  return (ops, s, t)

theorem pinned_coupled {T : BCTable ℚ} (C : Constructed true twoByTwo tailGeom twoAxes T (pinnedB T))
    (h : (pinnedCoupled T).toOption.isSome = true) :
    ∃ ops s d x, CoupledStarted true twoByTwo tailGeom twoAxes T (pinnedB T) (pinnedParams 1 eulerImplicit eulerImplicit) (some (swirlFlow 1))
      pointPack hatKernel 1 ops (fun _ => none) s d ∧ x 0 = s ∧
    CoupledTrajectory twoByTwo tailGeom (pinnedParams 1 eulerImplicit eulerImplicit) (nestCounts twoByTwo pointPack) ops (gaussSolve 4) (gaussSolve 6)
      x 2 ∧ Solves twoByTwo.UN (gaussSolve 4) ops.A ∧ Solves ops.pN (gaussSolve 6) ops.DBNG := by
  obtain ⟨⟨⟨ops, E, H⟩, s, t⟩, h⟩ := pick h
  obtain ⟨⟨⟨ops', E', H'⟩, s'⟩, h1, h⟩ := bind_ok h
  obtain ⟨t', h2, h⟩ := bind_ok h
  cases h
  obtain ⟨x, x0, _, hx⟩ := steps_ok h2
  have hi : s.ite = 0 ∧ ops.pN = 6 := by
    obtain ⟨⟨U, p⟩, h3, h1⟩ := bind_ok h1
    obtain ⟨⟨ops', E', H'⟩, h4, h1⟩ := bind_ok h1
    cases h1
    obtain ⟨D, Dm, Gr, La, Lm, BN, idx, _, _, _, _, _, _, e⟩ := ibpmCreate_ok h4
    exact ⟨rfl, by rw [e]; rfl⟩
  obtain ⟨file, hf, _⟩ := writeSolution_spec C.setup.layout { s with p := subPressure (nestCounts twoByTwo pointPack) s.p }
    (fun _ => none) (stepPath "out" s.ite)
  refine ⟨ops, s, Function.update (fun _ => none) (stepPath "out" s.ite) (some file), x,
    ⟨C, ⟨true, "out", some (pinnedNode "EULER_IMPLICIT" "EULER_IMPLICIT"), rfl⟩, pointPack_ok, s, (E, H), h1, ?_⟩, x0, hx, gaussSolve_exact _ _, ?_⟩
  · unfold ibpmIoInitialData ibpmWriteSolution
    rw [if_pos hi.1]
    change (writeSolutionHDF5 _ _ _ (stepPath "out" s.ite) >>= _) = _
    rw [hf]
    rfl
  · rw [hi.2]; exact gaussSolve_exact _ _

/-- C43, C44, coupled solver: a point in a flow through the domain. -/
example : ∃ ops s d x, CoupledStarted true twoByTwo tailGeom twoAxes throughTable (pinnedB throughTable) (pinnedParams 1 eulerImplicit eulerImplicit)
      (some (swirlFlow 1)) pointPack hatKernel 1 ops (fun _ => none) s d ∧ x 0 = s ∧
    CoupledTrajectory twoByTwo tailGeom (pinnedParams 1 eulerImplicit eulerImplicit) (nestCounts twoByTwo pointPack) ops (gaussSolve 4) (gaussSolve 6)
      x 2 ∧ (pinnedParams 1 eulerImplicit eulerImplicit).pType = .amgx ∧ (∀ d, twoByTwo.periodic 0 d = false) ∧
    NormalVelocityGiven twoByTwo.toMeshInfo throughTable ∧ boundaryFlux twoByTwo.toMeshInfo tailGeom throughTable = 0 ∧
    0 < (twoByTwo.box 3 0).length ∧ Solves ops.pN (gaussSolve 6) ops.DBNG := by
  obtain ⟨ops, s, d, x, S, x0, hx, _, e⟩ := pinned_coupled through_constructed (by decide +kernel)
  exact ⟨ops, s, d, x, S, x0, hx, rfl, fun _ => rfl, fun _ _ _ _ => by left; unfold throughTable; split_ifs <;> rfl, by decide +kernel,
    by decide +kernel, e⟩

/-- C91, pinned system: a point in a closed box. -/
example : ∃ ops s d x, CoupledStarted true twoByTwo tailGeom twoAxes closedTable (pinnedB closedTable) (pinnedParams 1 eulerImplicit eulerImplicit)
      (some (swirlFlow 1)) pointPack hatKernel 1 ops (fun _ => none) s d ∧ x 0 = s ∧
    CoupledTrajectory twoByTwo tailGeom (pinnedParams 1 eulerImplicit eulerImplicit) (nestCounts twoByTwo pointPack) ops (gaussSolve 4) (gaussSolve 6)
      x 2 ∧ (pinnedParams 1 eulerImplicit eulerImplicit).pType = .amgx ∧ (∀ d, twoByTwo.periodic 0 d = false) ∧ WallsAtRest twoByTwo closedTable ∧
    0 < (twoByTwo.box 3 0).length ∧ Solves twoByTwo.UN (gaussSolve 4) ops.A ∧ Solves ops.pN (gaussSolve 6) ops.DBNG := by
  obtain ⟨ops, s, d, x, S, x0, hx, e1, e⟩ := pinned_coupled still_constructed (by decide +kernel)
  exact ⟨ops, s, d, x, S, x0, hx, rfl, fun _ => rfl, ⟨fun _ _ _ => rfl, fun _ _ _ _ _ _ => ⟨Or.inl rfl, rfl⟩⟩, by decide +kernel, e1, e⟩

end PetIBM
