/-
C60: start of the Navier-Stokes solver, and an example used by the other files.
-/
import Verif.Lemmas.RunFiles
import Verif.Lemmas.PoissonSum

namespace PetIBM

open Spec

set_option linter.unusedSectionVars false

variable {K : Type} [Field K] [LinearOrder K] [IsStrictOrderedRing K]
variable {debug : Bool} {L : Layout} {G : Geom K} {axes : ℕ → Axis K} {T : BCTable K} {B : ℕ → Boundary K}
variable {P : NSParams K} {flow : Option (FlowNode K)} {ops : NSOps K} {disk disk' : Disk K} {s : NSState K}
variable {vSolve pSolve : LinSolve K} {x : ℕ → NSState K} {n : ℕ}

/-! ### C60 -/

/-- C60. For every constructed mesh and boundary, accepted parameters with a positive order of the approximate inverse, and a list
of initial conditions with at least one expression per component and at most four, a run from step 0 is initialised without
error. -/
theorem C60_start (C : Constructed debug L G axes T B) (nu : K) (es : List (Expr K)) (pe : Option (Expr K))
    (enough : L.dim ≤ es.length) (few : es.length ≤ 4)
    (hP : ∃ haveAmgX output node, readParams haveAmgX output node (some ⟨some nu, some es, pe⟩) = .ok P) (hBN : 1 ≤ P.BN)
    (hs : P.nstart = 0) (disk : Disk K) :
    ∃ ops s disk', Started debug L G axes T B P (some ⟨some nu, some es, pe⟩) ops disk s disk' := by
  have hL := C.setup.layout
  obtain ⟨U, p, hU, _⟩ := C56_initial_conditions hL G nu es pe enough few (fun _ => 0) fun _ => 0
  obtain ⟨ops, hops⟩ := createOperators_total C P hBN [.setGhostICs U]
  let s₀ : NSState K := { U := U, p := p, dP := fun _ => 0, conv := List.replicate P.conv.nExplicit fun _ => 0,
                          diff := List.replicate P.diff.nExplicit fun _ => 0, B := fun r => (B r).setGhostICs U,
                          loc := fun _ _ _ => 0, t := P.t, ite := P.nstart }
  obtain ⟨file, hw, _⟩ := writeSolution_spec hL s₀ disk (stepPath P.output s₀.ite)
  refine ⟨ops, s₀, Function.update disk (stepPath P.output s₀.ite) (some file), C, hP, s₀, ?_, ?_⟩
  · unfold solverInit
    rw [hU]
    have : createOperators debug L G P (fun r => (B r).setGhostICs U) = .ok ops := hops
    simp only [bind, Except.bind, this]
    rfl
  · unfold ioInitialData
    rw [if_pos (show s₀.ite = 0 from hs), hw]
    rfl

/-- C60. A step fails only with an error that one of the linear solvers returned. -/
theorem C60_step_errors (S : Started debug L G axes T B P flow ops disk s disk') (h0 : x 0 = s)
    (hx : Trajectory L G P ops vSolve pSolve x n) (e : Error) (he : advance L G P ops vSolve pSolve (x n) = .error e) :
    (∃ rhs, vSolve ops.A (x n).U rhs = .error e) ∨ ∃ rhs, pSolve ops.DBNG (x n).dP rhs = .error e := by
  obtain ⟨u, _, R⟩ := S.reach_at h0 hx
  obtain ⟨w, _, _, loc, _, h⟩ := advance_eq S.constructed S.schemes.1.1 S.schemes.2.1 ops vSolve pSolve (R n le_rfl)
  rw [he] at h
  cases hv : vSolve ops.A (x n).U (momentumRhs L P ops (x n) (pushTerm (x n).conv fun i => -1 * w i) (pushTerm (x n).diff (diffTerm L P.nu ops (x n)))) with
  | error a =>
    rw [hv] at h
    cases h
    exact Or.inl ⟨_, hv⟩
  | ok U =>
    rw [hv] at h
    simp only [Except.bind] at h
    cases hp : pSolve ops.DBNG (x n).dP (poissonRhs L ops (fun r => ((x n).B r).updateEqs (x n).U P.dt) (vec L.UN U)) with
    | error a =>
      rw [hp] at h
      cases h
      exact Or.inr ⟨_, hp⟩
    | ok dP =>
      rw [hp] at h
      cases h

/-- C60. With linear solvers that always return something, every number of steps can be made. -/
theorem C60_runs (S : Started debug L G axes T B P flow ops disk s disk')
    (hv : ∀ guess rhs, ∃ y, vSolve ops.A guess rhs = .ok y) (hp : ∀ guess rhs, ∃ y, pSolve ops.DBNG guess rhs = .ok y) :
    ∃ x, x 0 = s ∧ ∀ n, Trajectory L G P ops vSolve pSolve x n := by
  let next : NSState K → NSState K := fun s => match advance L G P ops vSolve pSolve s with
    | .ok s' => s'
    | .error _ => s
  refine ⟨fun n => next^[n] s, rfl, ?_⟩
  intro n
  induction n with
  | zero => intro k hk; omega
  | succ n ih =>
    intro k hk
    by_cases hkn : k < n
    · exact ih k hkn
    · have : k = n := by omega
      subst this
      simp only [Function.iterate_succ_apply']
      cases h : advance L G P ops vSolve pSolve (next^[k] s) with
      | ok s' => simp only [next, h]
      | error e =>
        rcases C60_step_errors S (x := fun n => next^[n] s) rfl ih e h with ⟨r, hr⟩ | ⟨r, hr⟩
        · obtain ⟨y, hy⟩ := hv (next^[k] s).U r
          rw [hy] at hr
          cases hr
        · obtain ⟨y, hy⟩ := hp (next^[k] s).dP r
          rw [hy] at hr
          cases hr

/-! ### Example -/

/-- `parameters` of the example: Adams-Bashforth for convection, Crank-Nicolson for diffusion, solution every second step, restart
data every third. -/
def exampleNode (solver : String) : ParamNode ℚ :=
  { dt := some (1 / 10), startStep := none, t := none, nt := some 4, nsave := some 2, nrestart := some 3, BN := none,
    schemes := fun key => if key = "convection" then some "ADAMS_BASHFORTH_2" else some "CRANK_NICOLSON",
    velocitySolver := none, poissonSolver := some solver }

/-- `flow` of the example: a flow that is not divergence free. -/
def exampleFlow : FlowNode ℚ := ⟨some (1 / 100), some [fun x y _ _ _ => 1 + x * y, fun x _ _ _ _ => x], none⟩

def exampleParams (t : SolverType) : NSParams ℚ :=
  { dt := 1 / 10, nstart := 0, t := 0, nt := 4, nsave := 2, nrestart := 3, nu := 1 / 100, BN := 1,
    conv := ⟨0, 2, [3 / 2, -(1 / 2)]⟩, diff := ⟨1 / 2, 1, [1 / 2]⟩, vType := .ksp, pType := t, output := "out" }

theorem exampleParams_read (t : SolverType) : ∃ haveAmgX output node, readParams haveAmgX output node (some exampleFlow) = .ok (exampleParams t) := by
  cases t
  · exact ⟨false, "out", some (exampleNode "CPU"), rfl⟩
  · exact ⟨true, "out", some (exampleNode "GPU"), rfl⟩

/-- Two processes, a box with walls through which the fluid moves with velocity one in both directions. -/
theorem exampleStarted (t : SolverType) (disk : Disk ℚ) :
    ∃ ops s disk', Started true (exampleWalls 2 1) exampleWallsGeom exampleAxes unitWalls
      (boundaries true (exampleWalls 2 1) exampleWallsGeom unitWalls) (exampleParams t) (some exampleFlow) ops disk s disk' :=
  C60_start unitWalls_constructed _ _ _ (by decide) (by decide) (exampleParams_read t) (le_refl 1) rfl disk

/-- It runs for ever with any linear solvers that do not fail. -/
theorem exampleRun (t : SolverType) (disk : Disk ℚ) (vSolve pSolve : LinSolve ℚ) (hv : ∀ A g r, ∃ y, vSolve A g r = .ok y)
    (hp : ∀ A g r, ∃ y, pSolve A g r = .ok y) :
    ∃ ops s disk' x, Started true (exampleWalls 2 1) exampleWallsGeom exampleAxes unitWalls
      (boundaries true (exampleWalls 2 1) exampleWallsGeom unitWalls) (exampleParams t) (some exampleFlow) ops disk s disk' ∧
      x 0 = s ∧ ∀ n, Trajectory (exampleWalls 2 1) exampleWallsGeom (exampleParams t) ops vSolve pSolve x n := by
  obtain ⟨ops, s, disk', S⟩ := exampleStarted t disk
  obtain ⟨x, h0, hx⟩ := C60_runs S (hv ops.A) (hp ops.DBNG)
  exact ⟨ops, s, disk', x, S, h0, hx⟩

example (disk : Disk ℚ) : ∃ ops s disk' x, Started true (exampleWalls 2 1) exampleWallsGeom exampleAxes unitWalls
    (boundaries true (exampleWalls 2 1) exampleWallsGeom unitWalls) (exampleParams .ksp) (some exampleFlow) ops disk s disk' ∧
    x 0 = s ∧ ∀ n, Trajectory (exampleWalls 2 1) exampleWallsGeom (exampleParams .ksp) ops (fun _ g _ => .ok g) (fun _ _ r => .ok r) x n :=
  exampleRun .ksp disk _ _ (fun _ g _ => ⟨g, rfl⟩) fun _ _ r => ⟨r, rfl⟩

end PetIBM
