/-
C93: when runs with prescribed motion stop.
-/
import Verif.Spec.Course
import Verif.Props.BodyRuns
import Verif.Props.RigidRun

set_option linter.unusedSectionVars false

namespace PetIBM

open Spec

variable {K : Type} [Field K] [LinearOrder K] [IsStrictOrderedRing K]
variable {debug : Bool} {L : Layout} {G : Geom K} {axes : ℕ → Axis K} {T : BCTable K} {B : ℕ → Boundary K}
variable {P : NSParams K} {flow : Option (FlowNode K)} {ops : NSOps K} {ib : IBOps K} {disk disk' : Disk K}
variable {bodies : BodyPack K} {M : Motion K} {kernel : DeltaKernel K} {window : ℕ} {s : RigidState K} {x : ℕ → RigidState K}
variable {vSolve fSolve pSolve : LinSolve K} {n : ℕ} {pos : ℕ → BodyPack K} {vel : ℕ → ℤ → K}

/-- the bodies of a run follow their course -/
theorem run_course (S : RigidStarted debug L G axes T B P flow bodies M kernel window ops disk s disk') (h0 : x 0 = s)
    (hx : RigidTrajectory debug L G axes P ops M kernel window vSolve fSolve pSolve x n) (hC : Course M bodies s.ns.t P.dt pos vel) :
    ∀ k, k ≤ n → (x k).ns.t = s.ns.t + k * P.dt ∧ (x k).bodies = pos k ∧ (x k).UB = vel k := by
  obtain ⟨u, _, R⟩ := S.reach_at h0 hx
  have F := S.started.started
  intro k
  induction k with
  | zero => intro _; rw [h0]; exact ⟨by simp, by rw [S.same, hC.start], by rw [S.UB, hC.rest]⟩
  | succ k ih =>
    intro hk
    obtain ⟨a, b, c⟩ := ih (by omega)
    obtain ⟨e1, e2, _, h⟩ := rigid_ok (hx k (by omega))
    obtain ⟨w, Us, df, _, _, _, ha, _⟩ := decoupled_ok F.constructed F.schemes.1.1 F.schemes.2.1 (R k (by omega)).1 h
    obtain ⟨_, _, _, _, _, _, _, _, _, _, _, _, ht, _⟩ := advance_ok F.constructed F.schemes.1.1 F.schemes.2.1 (R k (by omega)).1 ha
    have et : (x k).ns.t + P.dt = s.ns.t + (k + 1) * P.dt := by rw [a]; ring
    have eb : (x (k + 1)).bodies = pos (k + 1) := by rw [e1, et, b, hC.move]
    refine ⟨by rw [ht, et]; push_cast; ring, eb, ?_⟩
    rw [e2, et, eb, c, hC.speed]

/-- the operators for bodies exist if the delta operator does -/
theorem extra_exists (C : Constructed debug L G axes T B) {u : ℤ → K}
    (hops : createOperators debug L G P (fun r => (B r).run [.setGhostICs u]) = .ok ops) (hist : List (Boundary.Op K)) {Δ : Mat K}
    (hΔ : IsDelta debug L axes B bodies kernel window Δ) : ∃ idx ib, bodies.updateMeshIdx axes = .ok idx ∧
      createExtraOperators debug L G axes P ops (fun r => (B r).run hist) bodies (meshIdxAt idx) kernel window = .ok ib := by
  obtain ⟨idx, h1, h2⟩ := hΔ
  obtain ⟨R, _, MH, _, _, r1, _, r2, _⟩ := C25_diagonals debug C.setup
  obtain ⟨D, Dm, Gr, La, Lm, BN, _, _, _, o4, eops⟩ := createOperators_ok hops
  have o4' : createBnHead L.UN ops.L P.dt (P.diff.implicitCoeff * P.nu) P.BN = .ok BN := by rw [eops]; exact o4
  refine ⟨idx, ?_⟩
  unfold createExtraOperators createEH
  rw [createDelta_run C]
  simp only [r1, r2, h2, o4', bind, Except.bind, pure, Except.pure]
  exact ⟨_, h1, rfl⟩

/-- the force system with prescribed velocities has a solution if and only if the velocities are admissible -/
theorem moving_solvable (C : Constructed debug L G axes T B) {u : ℤ → K}
    (hops : createOperators debug L G P (fun r => (B r).run [.setGhostICs u]) = .ok ops) {hist : List (Boundary.Op K)}
    {idx : List (List (List (List ℤ)))} (hidx : bodies.updateMeshIdx axes = .ok idx)
    (h : createExtraOperators debug L G axes P ops (fun r => (B r).run hist) bodies (meshIdxAt idx) kernel window = .ok ib)
    (himp : 0 ≤ P.diff.implicitCoeff) (hBN : GoodOrder L P ops.A) (hdt : P.dt ≠ 0) (v U : ℤ → K) :
    ∃ Δ, IsDelta debug L axes B bodies kernel window Δ ∧ ((∃ F, IsSolution ib.nF ib.EBNH (assembleRHSForces L ib (some v) U) F) ↔
      Admissible L (bodies.nPts * bodies.dim) Δ v) := by
  obtain ⟨Δ, BN, h1, _, h3, h4, _⟩ := createExtra_ok C hidx h
  refine ⟨Δ, h1, ?_⟩
  have key := force_solvable C hops hidx h himp hBN hdt
  rw [(key _).1]
  unfold Admissible
  have e : ∀ F, (∀ c : ℤ, 0 ≤ c → c < L.UN → Mat.mult ib.nF ib.H F c = 0) →
      ∑ i ∈ Finset.range ib.nF, assembleRHSForces L ib (some v) U i * F i = ∑ i ∈ Finset.range ib.nF, v i * F i := by
    intro F hF
    rw [← sub_eq_zero, ← Finset.sum_sub_distrib, ← neg_zero, ← (key fun _ => 0).2 U F hF, ← Finset.sum_neg_distrib]
    refine Finset.sum_congr rfl fun i hi => ?_
    have hi := Finset.mem_range.1 hi
    unfold assembleRHSForces
    simp only
    rw [vec, if_pos ⟨by omega, by omega⟩]
    ring
  have eH : ∀ F c, Mat.mult ib.nF ib.H F c = spread (bodies.nPts * bodies.dim) Δ F c := by
    intro F c
    rw [h4, h3]
    rfl
  constructor
  · intro h F hF
    rw [← h3, ← e F fun c c0 c1 => by rw [eH, hF c c0 c1]]
    exact h F fun c c0 c1 => by rw [eH, hF c c0 c1]
  · intro h F hF
    rw [e F hF, h3]
    exact h F fun c c0 c1 => by rw [← eH, hF c c0 c1]

/-- a run goes on as long as the velocities are admissible only -/
theorem moving_admissible (S : RigidStarted debug L G axes T B P flow bodies M kernel window ops disk s disk')
    (hC : Course M bodies s.ns.t P.dt pos vel) (hBN : GoodOrder L P ops.A) (hdt : P.dt ≠ 0)
    (hf' : ∀ k A, Solves ((pos (k + 1)).nPts * (pos (k + 1)).dim) fSolve A) (h0 : x 0 = s)
    (hx : RigidTrajectory debug L G axes P ops M kernel window vSolve fSolve pSolve x n) (k : ℕ) (hk : k < n) :
    ∃ Δ, IsDelta debug L axes B (pos (k + 1)) kernel window Δ ∧ Admissible L ((pos (k + 1)).nPts * (pos (k + 1)).dim) Δ (vel (k + 1)) := by
  have F := S.started.started
  have C := S.started.constructed
  obtain ⟨u, hops, R⟩ := S.reach_at h0 hx
  obtain ⟨_, _, ⟨idx, e3, e4⟩, h⟩ := rigid_ok (hx k hk)
  obtain ⟨w, Us, df, _, _, hs, _⟩ := decoupled_ok C F.schemes.1.1 F.schemes.2.1 (R k hk.le).1 h
  obtain ⟨_, eb, ev⟩ := run_course S h0 hx hC (k + 1) hk
  obtain ⟨hh, hB, _⟩ := (R k hk.le).1.hist
  rw [hB] at e4
  obtain ⟨_, _, _, _, h3, _⟩ := createExtra_ok C e3 e4
  obtain ⟨Δ, h1, h2⟩ := moving_solvable C hops e3 e4 (implicit_nonneg S.started.params) hBN hdt (x (k + 1)).UB (vec L.UN Us)
  rw [eb, ev] at h2
  rw [eb] at h1
  refine ⟨Δ, h1, h2.1 ⟨df, ?_⟩⟩
  have := hf' k (x (k + 1)).ib.EBNH _ _ _ hs
  rw [eb] at h3
  rw [← h3, ev] at this
  exact this

/-- C93. If all walls prescribe their normal velocity and the prescribed fluxes cancel, and the linear solvers find solutions where there are any,
the solver with prescribed motion makes `n` steps if and only if at each of these times the delta operator of the bodies exists and the velocities
prescribed for the points are admissible. In particular a run never stops if the points stay where the operator exists and only the zero force
spreads to zero. Missing: as in `C62_poisson_system_partial`. -/
theorem C93_moving_runs_partial (S : RigidStarted debug L G axes T B P flow bodies M kernel window ops disk s disk')
    (hC : Course M bodies s.ns.t P.dt pos vel) (hn : ∀ f d, f < L.dim → d < L.dim → L.periodic 0 d = true → 2 ≤ L.n f d)
    (hT : NormalVelocityGiven L.toMeshInfo T) (hflux : boundaryFlux L.toMeshInfo G T = 0) (hBN : GoodOrder L P ops.A) (hp : P.pType = .ksp)
    (hdt : 0 < P.dt) (hnu : 0 ≤ P.nu) (hv : Finds L.UN vSolve ops.A) (hpr : Finds L.pN pSolve ops.DBNG)
    (hf : ∀ k A, Finds ((pos (k + 1)).nPts * (pos (k + 1)).dim) fSolve A)
    (hf' : ∀ k A, Solves ((pos (k + 1)).nPts * (pos (k + 1)).dim) fSolve A) (n : ℕ) :
    (∃ x, x 0 = s ∧ RigidTrajectory debug L G axes P ops M kernel window vSolve fSolve pSolve x n) ↔
      ∀ k, k < n → ∃ Δ, IsDelta debug L axes B (pos (k + 1)) kernel window Δ ∧
        Admissible L ((pos (k + 1)).nPts * (pos (k + 1)).dim) Δ (vel (k + 1)) := by
  have F := S.started.started
  have C := S.started.constructed
  constructor
  · rintro ⟨x, h0, hx⟩ k hk
    exact moving_admissible S hC hBN hdt.ne' hf' h0 hx k hk
  · intro h
    induction n with
    | zero => exact ⟨fun _ => s, rfl, fun k hk => by omega⟩
    | succ n ih =>
      obtain ⟨x, h0, hx⟩ := ih fun k hk => h k (by omega)
      obtain ⟨u, hops, R⟩ := S.reach_at h0 hx
      have R := (R n le_rfl).1
      obtain ⟨et, eb, ev⟩ := run_course S h0 hx hC n le_rfl
      have et' : (x n).ns.t + P.dt = s.ns.t + (n + 1) * P.dt := by rw [et]; ring
      obtain ⟨Δ, hΔ, hA⟩ := h n (by omega)
      obtain ⟨hh, hB, _⟩ := R.hist
      obtain ⟨idx, ib, h1, h2⟩ := extra_exists C hops ([.setGhostICs u] ++ hh) hΔ
      obtain ⟨_, _, _, _, h3, _⟩ := createExtra_ok C h1 h2
      have hsys : ∀ U, ∃ F, IsSolution ib.nF ib.EBNH (assembleRHSForces L ib (some (vel (n + 1))) U) F := by
        intro U
        obtain ⟨Δ', hΔ', key⟩ := moving_solvable C hops h1 h2 (implicit_nonneg S.started.params) hBN hdt.ne' (vel (n + 1)) U
        obtain ⟨i1, j1, k1⟩ := hΔ
        obtain ⟨i2, j2, k2⟩ := hΔ'
        rw [j1] at j2
        cases j2
        rw [k1] at k2
        cases k2
        exact key.2 hA
      obtain ⟨st, hst⟩ := decoupled_goes F hn hT hflux hBN hp hdt hnu hops (y := (x n).toIBState) R hsys hv (by rw [h3]; exact hf n _) hpr
      have step : rigidAdvance debug L G axes P ops M kernel window vSolve fSolve pSolve (x n) = .ok ⟨st, pos (n + 1), vel (n + 1), ib⟩ := by
        rw [rigid_eq, et', eb, ev, ← hC.move, ← hC.speed, h1]
        simp only [Except.bind]
        have hB' : (x n).ns.B = fun r => (B r).run ([.setGhostICs u] ++ hh) := by
          funext r
          rw [hB]
        rw [hB', h2]
        simp only
        rw [hst]
      refine ⟨fun k => if k ≤ n then x k else ⟨st, pos (n + 1), vel (n + 1), ib⟩, by simpa using h0, fun k hk => ?_⟩
      rcases Nat.lt_succ_iff_lt_or_eq.1 hk with hk | rfl
      · simp only [if_pos hk.le, if_pos (show k + 1 ≤ n by omega)]
        exact hx k hk
      · simp only [le_refl, if_true, if_neg (show ¬k + 1 ≤ k by omega)]
        exact step

/-! ### Examples -/

/-- The points of `boxBody`, reflected at the middle of the box. -/
def swungBody : BodyPack ℚ := ⟨2, 2, [⟨2, 2, [[3/4, 5/4], [7/4, 1/2]], [1, 1]⟩]⟩

/-- Points that jump to and fro, with prescribed velocity one. -/
def swingMotion : Motion ℚ where
  coordinates := fun _ b => { b with bodies := b.bodies.map fun b => { b with coords := b.coords.map fun p => [p.getD 0 0, 2 - p.getD 1 0] } }
  velocity := fun _ _ _ => fun _ => 1

/-- All points meet at one place, where they move in opposite directions. -/
def clashMotion : Motion ℚ where
  coordinates := fun _ b => { b with bodies := b.bodies.map fun b => { b with coords := b.coords.map fun _ => [5/4, 3/4] } }
  velocity := fun _ _ _ => fun i => if i < 2 then 1 else -1

theorem points_moved (g : List ℚ → List ℚ) (b : BodyPack ℚ) (h : BodiesOK (seamLayout 2) b) :
    BodiesOK (seamLayout 2) { b with bodies := b.bodies.map fun b => { b with coords := b.coords.map g } } := by
  refine ⟨⟨h.pack.dim_pos, ?_, ?_, ?_⟩, h.dim, h.procs⟩ <;> intro x hx <;> obtain ⟨y, hy, rfl⟩ := List.mem_map.1 hx
  · exact h.pack.dim y hy
  · exact h.pack.procs y hy
  · exact h.pack.points y hy

theorem box_moving {nu : ℚ} {node : ParamNode ℚ} {P : NSParams ℚ} (hP : readParams false "out" (some node) (some (vortexFlow nu)) = .ok P)
    (hs : P.nstart = 0) (h : (decoupledInit true (seamLayout 2) seamGeom seamAxes P (some (vortexFlow nu)) (seamB closedTable 2) boxBody hatKernel 1).toOption.isSome = true)
    (M : Motion ℚ) (hM : ∀ t b, BodiesOK (seamLayout 2) b → BodiesOK (seamLayout 2) (M.coordinates t b)) :
    ∃ ops s d, RigidStarted true (seamLayout 2) seamGeom seamAxes closedTable (seamB closedTable 2) P (some (vortexFlow nu)) boxBody M hatKernel 1
      ops (fun _ => none) s d := by
  obtain ⟨ops, ib, s, d, S⟩ := box_decoupled hP hs h
  exact ⟨ops, ⟨s, boxBody, fun _ => 0, ib⟩, d, S, rfl, rfl, hM⟩

/-- The delta operator of a pack. -/
def boxDelta (b : BodyPack ℚ) : Except Error (Mat ℚ) := do
  let idx ← b.updateMeshIdx seamAxes
  createDelta true (seamLayout 2) seamAxes (seamB closedTable 2) b (meshIdxAt idx) hatKernel 1

theorem boxDelta_ok {b : BodyPack ℚ} {g : Mat ℚ → Bool} (h : (boxDelta b).toOption.map g = some true) :
    ∃ Δ, IsDelta true (seamLayout 2) seamAxes (seamB closedTable 2) b hatKernel 1 Δ ∧ g Δ = true := by
  obtain ⟨Δ, h1, h2⟩ := Option.map_eq_some_iff.1 h
  obtain ⟨idx, h3, h4⟩ := bind_ok (toOption_ok h1)
  exact ⟨Δ, ⟨idx, h3, h4⟩, h2⟩

/-- Every component of every point acts on a velocity point that no other one reaches. -/
def boxApart (Δ : Mat ℚ) : Bool :=
  (List.range 4).all fun k : ℕ => (List.range 7).any fun c : ℕ => decide (Δ k c ≠ 0) && (List.range 4).all fun j : ℕ => decide (j = k ∨ Δ j c = 0)

theorem boxApart_admissible {Δ : Mat ℚ} (h : boxApart Δ = true) (v : ℤ → ℚ) : Admissible (seamLayout 2) 4 Δ v := by
  intro F hF
  refine Finset.sum_eq_zero fun k hk => ?_
  simp only [boxApart, List.all_eq_true, List.any_eq_true, Bool.and_eq_true, decide_eq_true_eq] at h
  obtain ⟨c, hc, h1, h2⟩ := h k (List.mem_range.2 (Finset.mem_range.1 hk))
  have hc := List.mem_range.1 hc
  have := hF c (by omega) (by rw [seam_sizes.2.1]; omega)
  unfold spread at this
  rw [Finset.sum_eq_single k (fun j hj hjk => by rw [(h2 j (List.mem_range.2 (Finset.mem_range.1 hj))).resolve_left hjk, zero_mul])
    fun h => absurd hk h] at this
  rw [(mul_eq_zero.1 this).resolve_left h1, mul_zero]

/-- C93, prescribed motion: all hypotheses hold for the points that jump to and fro; runs of any length exist, with viscosity and implicit diffusion,
on two processes. -/
example : ∃ ops s d pos vel, RigidStarted true (seamLayout 2) seamGeom seamAxes closedTable (seamB closedTable 2)
      (boxParams (1 / 4) 1 eulerExplicit eulerImplicit) (some (vortexFlow 1)) boxBody swingMotion hatKernel 1 ops (fun _ => none) s d ∧
    Course swingMotion boxBody s.ns.t (1 / 4) pos vel ∧ pos 1 ≠ boxBody ∧
    ∀ n, ∃ x, x 0 = s ∧ RigidTrajectory true (seamLayout 2) seamGeom seamAxes (boxParams (1 / 4) 1 eulerExplicit eulerImplicit) ops swingMotion
      hatKernel 1 (exactSolve (seamLayout 2).UN) (exactSolve 4) (exactSolve (seamLayout 2).pN) x n := by
  obtain ⟨ops, s, d, S⟩ := box_moving (nu := 1) (node := boxNode (1 / 4) "EULER_EXPLICIT" "EULER_IMPLICIT")
    (P := boxParams (1 / 4) 1 eulerExplicit eulerImplicit) rfl rfl (by decide +kernel) swingMotion fun _ b => points_moved _ b
  have swing : ∀ t, swingMotion.coordinates t boxBody = swungBody ∧ swingMotion.coordinates t swungBody = boxBody := by
    intro t
    constructor <;> norm_num [swingMotion, boxBody, swungBody]
  have hC : Course swingMotion boxBody s.ns.t (boxParams (1 / 4) 1 eulerExplicit eulerImplicit).dt (fun k => if k % 2 = 0 then boxBody else swungBody)
      fun k => if k = 0 then fun _ => 0 else fun _ => 1 := by
    refine ⟨rfl, rfl, fun k => ?_, fun k => rfl⟩
    rcases Nat.mod_two_eq_zero_or_one k with h | h
    · simp only [h, if_true, if_neg (show ¬(k + 1) % 2 = 0 by omega), (swing _).1]
    · simp only [h, one_ne_zero, if_false, if_pos (show (k + 1) % 2 = 0 by omega), (swing _).2]
  have hsize : ∀ k, (if k % 2 = 0 then boxBody else swungBody).nPts * (if k % 2 = 0 then boxBody else swungBody).dim = 4 := by
    intro k
    split_ifs <;> rfl
  refine ⟨ops, s, d, _, _, S, hC, ?_, fun n => ?_⟩
  · norm_num [boxBody, swungBody]
  refine (C93_moving_runs_partial S hC (fun _ _ _ _ hp => by cases hp) (fun _ _ _ _ => Or.inl rfl) (by decide +kernel) (Or.inl rfl) rfl
    (by norm_num [boxParams]) (by norm_num [boxParams]) (exactSolve_finds _ _) (exactSolve_finds _ _)
    (fun k A => by rw [hsize]; exact exactSolve_finds _ _) (fun k A => by rw [hsize]; exact exactSolve_solves _ _) n).2 fun k _ => ?_
  rw [hsize]
  have h1 : ∃ Δ, IsDelta true (seamLayout 2) seamAxes (seamB closedTable 2) boxBody hatKernel 1 Δ ∧ boxApart Δ = true := boxDelta_ok (by decide +kernel)
  have h2 : ∃ Δ, IsDelta true (seamLayout 2) seamAxes (seamB closedTable 2) swungBody hatKernel 1 Δ ∧ boxApart Δ = true := boxDelta_ok (by decide +kernel)
  by_cases hk : (k + 1) % 2 = 0
  · rw [if_pos hk]
    obtain ⟨Δ, a, b⟩ := h1
    exact ⟨Δ, a, boxApart_admissible b _⟩
  · rw [if_neg hk]
    obtain ⟨Δ, a, b⟩ := h2
    exact ⟨Δ, a, boxApart_admissible b _⟩

/-! ### A case where it is false -/

/-- C93 is false for bodies in motion, even if all points stay inside of the domain, all walls are closed and all delta operators exist: where two
points of bodies meet and move in different directions, no forces give the prescribed velocities, and the step fails with all solvers of which that of
the force system does not return what is no solution. -/
theorem C93_false_collision : ∃ (L : Layout) (G : Geom ℚ) (axes : ℕ → Axis ℚ) (T : BCTable ℚ) (B : ℕ → Boundary ℚ) (P : NSParams ℚ)
    (flow : Option (FlowNode ℚ)) (bodies : BodyPack ℚ) (M : Motion ℚ) (ops : NSOps ℚ) (disk disk' : Disk ℚ) (s : RigidState ℚ),
    RigidStarted true L G axes T B P flow bodies M hatKernel 1 ops disk s disk' ∧ (∀ d, L.periodic 0 d = false) ∧ AllClosed L T ∧
    GoodOrder L P ops.A ∧ P.pType = .ksp ∧ 0 < P.dt ∧ 0 ≤ P.nu ∧
    (∃ Δ, IsDelta true L axes B (M.coordinates P.dt bodies) hatKernel 1 Δ) ∧
    ∀ vSolve fSolve pSolve s', (∀ A, Solves (bodies.nPts * bodies.dim) fSolve A) →
      rigidAdvance true L G axes P ops M hatKernel 1 vSolve fSolve pSolve s ≠ .ok s' := by
  obtain ⟨ops, s, d, S⟩ := box_moving (nu := 1) (node := boxNode (1 / 4) "EULER_EXPLICIT" "EULER_IMPLICIT")
    (P := boxParams (1 / 4) 1 eulerExplicit eulerImplicit) rfl rfl (by decide +kernel) clashMotion fun _ b => points_moved _ b
  have h1 : ∃ Δ, IsDelta true (seamLayout 2) seamAxes (seamB closedTable 2) (clashMotion.coordinates (1 / 4) boxBody) hatKernel 1 Δ ∧
      ((List.range 7).all fun c : ℕ => decide (Δ 0 c = Δ 2 c)) = true := boxDelta_ok (by decide +kernel)
  obtain ⟨Δ, h1, h2⟩ := h1
  refine ⟨_, _, _, _, _, _, _, _, _, ops, _, d, s, S, fun _ => rfl, (closed_rest 2).1, Or.inl rfl, rfl, by norm_num [boxParams], by norm_num [boxParams],
    ⟨Δ, h1⟩, fun vSolve fSolve pSolve s' hf h => ?_⟩
  have hC : Course clashMotion boxBody s.ns.t (boxParams (1 / 4) 1 eulerExplicit eulerImplicit).dt
      (fun k => if k = 0 then boxBody else clashMotion.coordinates (1 / 4) boxBody)
      fun k => if k = 0 then fun _ => 0 else fun i => if i < 2 then 1 else -1 := by
    refine ⟨rfl, rfl, fun k => ?_, fun k => rfl⟩
    by_cases h : k = 0
    · subst h
      rfl
    · rw [if_neg h, if_neg (by omega)]
      rfl
  obtain ⟨Δ', h3, h4⟩ := moving_admissible S hC (Or.inl rfl) (by norm_num [boxParams]) (fun k A => hf A) (x := fun k => if k = 0 then s else s') (n := 1)
    rfl (fun k hk => by have : k = 0 := by omega
                        subst this
                        exact h) 0 (by omega)
  have e : Δ' = Δ := by
    obtain ⟨i1, j1, k1⟩ := h1
    obtain ⟨i2, j2, k2⟩ := h3
    have j1 : (clashMotion.coordinates (1 / 4) boxBody).updateMeshIdx seamAxes = .ok i2 := j2
    rw [‹BodyPack.updateMeshIdx _ _ = Except.ok i1›] at j1
    cases j1
    exact Except.ok.inj (k2.symm.trans k1)
  subst e
  have h4 := h4 (fun i => if i = 0 then 1 else if i = 2 then -1 else 0) fun c c0 c1 => by
    rw [seam_sizes.2.1] at c1
    obtain ⟨c, rfl⟩ := Int.eq_ofNat_of_zero_le c0
    simp only [List.all_eq_true, decide_eq_true_eq] at h2
    have := h2 c (List.mem_range.2 (by omega))
    change ∑ k ∈ Finset.range 4, _ = (0 : ℚ)
    simp [Finset.sum_range_succ, this]
  change ∑ i ∈ Finset.range 4, _ = (0 : ℚ) at h4
  norm_num [Finset.sum_range_succ] at h4

end PetIBM
