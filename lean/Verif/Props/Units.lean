/-
C98: a run does not depend on the system of units.
-/
import Verif.Lemmas.UnitsRun
import Verif.Props.Start

namespace PetIBM

open Spec

set_option linter.unusedSectionVars false

variable {K : Type} [Field K] [LinearOrder K] [IsStrictOrderedRing K] {u : Scales K} {debug : Bool} {L : Layout} {G : Geom K} {axes : ℕ → Axis K}
  {T : BCTable K} {B : ℕ → Boundary K} {P : NSParams K} {F : FlowNode K} {ops : NSOps K} {vSolve pSolve : LinSolve K} {disk disk' : Disk K}
  {s : NSState K} {x : ℕ → NSState K} {n : ℕ}

theorem condition_type (t : BCType × K) : (u.condition t).1 = t.1 := rfl

/-- The objects of a run in other units are constructed. -/
theorem constructed_units (hl : 0 < u.len) (C : Constructed debug L G axes T B) :
    Constructed debug L (u.geom L.dim G) (fun d => u.axis (axes d)) (fun f b => u.condition (T f b)) fun r => u.boundary L.dim (B r) where
  setup := setup_units hl C.setup
  part := C.part
  table := C.table
  init r hr := by rw [boundaryInit_units C.setup.layout.dim, C.init r hr]; rfl

theorem readParams_units {haveAmgX : Bool} {output : String} {node : Option (ParamNode K)} (h : readParams haveAmgX output node (some F) = .ok P) :
    ∃ node', readParams haveAmgX output node' (some (u.flow F)) = .ok (u.params P) := by
  obtain ⟨nu, es, pe⟩ := F
  cases node with
  | none => cases h
  | some N =>
    refine ⟨some { N with dt := N.dt.map (u.time * ·), t := N.t.map (u.time * ·) }, ?_⟩
    obtain ⟨dt, st, t, nt, ns, nr, bn, sch, v, p⟩ := N
    unfold readParams at h ⊢
    simp only [required, bind, Except.bind, Option.bind_some, Scales.flow] at h ⊢
    cases dt with
    | none => cases h
    | some dt =>
      cases nt with
      | none => cases h
      | some nt =>
        cases ns with
        | none => cases h
        | some ns =>
          cases nr with
          | none => cases h
          | some nr =>
            cases nu with
            | none => cases h
            | some nu =>
              simp only [required, Option.map_some] at h ⊢
              cases hc : createTimeIntegration (K := K) "convection" (some sch) with
              | error _ => rw [hc] at h; cases h
              | ok a =>
                rw [hc] at h
                cases hf : createTimeIntegration (K := K) "diffusion" (some sch) with
                | error _ => rw [hf] at h; cases h
                | ok b =>
                  rw [hf] at h
                  simp only at h ⊢
                  cases hv : createLinSolver haveAmgX v with
                  | error _ => rw [hv] at h; cases h
                  | ok vt =>
                    rw [hv] at h
                    simp only at h ⊢
                    cases hp : createLinSolver haveAmgX p with
                    | error _ => rw [hp] at h; cases h
                    | ok pt =>
                      rw [hp] at h
                      cases Except.ok.inj h
                      simp only [pure, Except.pure, Scales.params, Except.ok.injEq, NSParams.mk.injEq, true_and, and_true]
                      cases t <;> simp

/-- C98. A configuration written in other units (lengths of the mesh, boundary values, initial conditions, viscosity, time step) starts, with the
same mesh (or restarts from a file whose numbers are in those units), and does the same steps: at every step the velocities, pressures and times are
those of the first run in the other units. A step of the first run ends with an error if and only if that of the
second does. The linear solvers do not
depend on units either; since the equation of the pinned cell of the type GPU has no factor, that solver must not depend on factors of single
equations. -/
theorem C98_units (hl : 0 < u.len) (hv : 0 < u.vel) (S : Started debug L G axes T B P (some F) ops disk s disk') (h0 : x 0 = s)
    (hx : Trajectory L G P ops vSolve pSolve x n) (hV : UnitFree vSolve) (hP : UnitFree pSolve)
    (hR : P.pType = .amgx → RowFree pSolve) (d : Disk K)
    (hf : P.nstart ≠ 0 → ∃ file file', disk (stepPath P.output P.nstart) = some file ∧ d (stepPath P.output P.nstart) = some file' ∧
      FileInUnits u file file') :
    ∃ B₂ ops₂ s₂ d₂, Started debug L (u.geom L.dim G) (fun d => u.axis (axes d)) (fun f b => u.condition (T f b)) B₂ (u.params P) (some (u.flow F))
        ops₂ d s₂ d₂ ∧
      ∃ y, y 0 = s₂ ∧ Trajectory L (u.geom L.dim G) (u.params P) ops₂ vSolve pSolve y n ∧ (∀ k, k ≤ n → InUnits u (x k) (y k)) ∧
        ∀ e, advance L G P ops vSolve pSolve (x n) = .error e ↔ advance L (u.geom L.dim G) (u.params P) ops₂ vSolve pSolve (y n) = .error e := by
  have hL := S.constructed.setup.layout
  obtain ⟨s₀, i1, i2⟩ := S.init
  have hi := init_units (u := u) (debug := debug) (G := G) (P := P) hl.ne' hv.ne' hL.dim F B
  rw [i1] at hi
  obtain ⟨U, p, c1, c2, es⟩ := solverInit_ok i1
  have hr : ops.isRefP = true → RowFree pSolve := by
    obtain ⟨D, Dm, Gr, La, Lm, BN, o1, o2, o3, o4, rfl⟩ := createOperators_ok c2
    intro h
    refine hR ?_
    cases ht : P.pType with
    | ksp =>
      simp only [setNullSpace, ht] at h
      cases h
    | amgx => rfl
  have hite : s₀.ite = P.nstart := by rw [es]
  have hio : ∃ d₂, ioInitialData L (u.params P) (u.state L.dim s₀) d = .ok (u.state L.dim s, d₂) := by
    unfold ioInitialData at i2 ⊢
    by_cases e0 : s₀.ite = 0
    · rw [if_pos e0] at i2
      obtain ⟨_, _, i3⟩ := bind_ok i2
      cases i3
      obtain ⟨file, hw, _⟩ := writeSolution_spec hL (u.state L.dim s) d (stepPath (u.params P).output (u.state L.dim s).ite)
      rw [if_pos (show (u.state L.dim s).ite = 0 from e0), hw]
      exact ⟨_, rfl⟩
    · rw [if_neg e0] at i2
      obtain ⟨_, i4, i3⟩ := bind_ok i2
      cases i3
      obtain ⟨file, file', f1, f2, f3⟩ := hf (hite ▸ e0)
      rw [← hite] at f1 f2
      rw [if_neg (show ¬ (u.state L.dim s₀).ite = 0 from e0)]
      have : readRestartDataHDF5 L (u.state L.dim s₀) d (stepPath (u.params P).output (u.state L.dim s₀).ite) = .ok (u.state L.dim s) :=
        readRestart_units hl.ne' hv.ne' hL.dim f1 f2 f3 i4
      rw [this]
      exact ⟨_, rfl⟩
  obtain ⟨d₂, hio⟩ := hio
  refine ⟨_, u.ops L.dim ops, u.state L.dim s, d₂, ⟨constructed_units hl S.constructed, ?_, ⟨_, hi, hio⟩⟩, fun k => u.state L.dim (x k), ?_, ?_, ?_, ?_⟩
  · obtain ⟨h, o, node, hp⟩ := S.params
    obtain ⟨node', hp'⟩ := readParams_units (u := u) hp
    exact ⟨h, o, node', hp'⟩
  · change u.state L.dim (x 0) = _
    rw [h0]
  · intro k hk
    rw [advance_units hl.ne' hv.ne' hL.dim hV hP hr, hx k hk]
    rfl
  · exact fun k _ => ⟨fun _ => rfl, fun _ => rfl, rfl, rfl⟩
  · intro e
    rw [advance_units hl.ne' hv.ne' hL.dim hV hP hr]
    cases advance L G P ops vSolve pSolve (x n) with
    | error e' => exact Iff.rfl
    | ok q => exact ⟨fun h => (by cases h), fun h => (by cases h)⟩

/-- One sweep of Jacobi's method for systems with `N` unknowns. -/
def jacobi (N : ℕ) : LinSolve ℚ := fun A g r => .ok fun i => g i + (A i i)⁻¹ * (r i - Mat.mult N A g i)

theorem jacobi_rowFree (N : ℕ) : RowFree (jacobi N) := by
  intro α c hα hc A g r
  unfold jacobi
  refine congrArg Except.ok (funext fun i => ?_)
  have h : Mat.mult N (fun i j => α i * A i j) (fun i => c * g i) i = α i * c * Mat.mult N A g i := by
    unfold Mat.mult
    rw [Finset.mul_sum]
    exact Finset.sum_congr rfl fun j _ => by ring
  have := hα i
  rw [h, mul_inv]
  field_simp

theorem jacobi_unitFree (N : ℕ) : UnitFree (jacobi N) := fun α c hα hc => jacobi_rowFree N (fun _ => α) c (fun _ => hα) hc

/-- The hypotheses of `C98_units` are met by a run of any length between walls, in units for which lengths are multiplied by 100 and velocities by
1/3, with sweeps of Jacobi's method for the linear solvers. -/
example (t : SolverType) (disk : Disk ℚ) : ∃ ops s disk' x, Started true (exampleWalls 2 1) exampleWallsGeom exampleAxes unitWalls
      (boundaries true (exampleWalls 2 1) exampleWallsGeom unitWalls) (exampleParams t) (some exampleFlow) ops disk s disk' ∧ x 0 = s ∧
      (∀ n, Trajectory (exampleWalls 2 1) exampleWallsGeom (exampleParams t) ops (jacobi 7) (jacobi 6) x n) ∧
      UnitFree (jacobi 7) ∧ UnitFree (jacobi 6) ∧ RowFree (jacobi 6) ∧
      ∀ n, ∃ B₂ ops₂ s₂ d₂ y, Started true (exampleWalls 2 1) ((⟨100, 1 / 3⟩ : Scales ℚ).geom 2 exampleWallsGeom)
        (fun d => ⟨100 * (exampleAxes d).min, 100 * (exampleAxes d).max, (exampleAxes d).dL.map (100 * ·)⟩) (fun _ _ => (.DIRICHLET, 1 / 3))
        B₂ { exampleParams t with dt := 30, nu := 1 / 3 } (some ⟨some (1 / 3), some [fun x y _ _ _ => 1 / 3 * (1 + x / 100 * (y / 100)),
          fun x _ _ _ _ => 1 / 3 * (x / 100)], none⟩) ops₂ disk s₂ d₂ ∧ y 0 = s₂ ∧
        Trajectory (exampleWalls 2 1) ((⟨100, 1 / 3⟩ : Scales ℚ).geom 2 exampleWallsGeom) { exampleParams t with dt := 30, nu := 1 / 3 } ops₂
          (jacobi 7) (jacobi 6) y n ∧
        ∀ k, k ≤ n → ∀ i, (y k).U i = 1 / 3 * (x k).U i := by
  obtain ⟨ops, s, disk', x, S, h0, hx⟩ := exampleRun t disk (jacobi 7) (jacobi 6) (fun _ _ _ => ⟨_, rfl⟩) (fun _ _ _ => ⟨_, rfl⟩)
  refine ⟨ops, s, disk', x, S, h0, hx, jacobi_unitFree 7, jacobi_unitFree 6, jacobi_rowFree 6, fun n => ?_⟩
  obtain ⟨B₂, ops₂, s₂, d₂, S₂, y, y0, hy, hu, _⟩ := C98_units (u := ⟨100, 1 / 3⟩) (by norm_num) (by norm_num) S h0 (hx n) (jacobi_unitFree 7)
    (jacobi_unitFree 6) (fun _ => jacobi_rowFree 6) disk fun h => absurd rfl h
  have e1 : (⟨100, 1 / 3⟩ : Scales ℚ).params (exampleParams t) = { exampleParams t with dt := 30, nu := 1 / 3 } := by
    simp only [Scales.params, exampleParams, Scales.time]
    norm_num
  have e2 : (⟨100, 1 / 3⟩ : Scales ℚ).flow exampleFlow = ⟨some (1 / 3), some [fun x y _ _ _ => 1 / 3 * (1 + x / 100 * (y / 100)),
      fun x _ _ _ _ => 1 / 3 * (x / 100)], none⟩ := by
    simp only [Scales.flow, exampleFlow, Option.map_some, Option.map_none, List.map_cons, List.map_nil]
    norm_num
    exact ⟨rfl, rfl⟩
  have e3 : (fun f b => (⟨100, 1 / 3⟩ : Scales ℚ).condition (unitWalls f b)) = fun _ _ => (.DIRICHLET, 1 / 3) := by
    funext f b
    simp [Scales.condition, unitWalls]
  rw [e1, e2, e3] at S₂
  rw [e1] at hy
  exact ⟨B₂, ops₂, s₂, d₂, y, S₂, y0, hy, fun k hk i => (hu k hk).velocity i⟩

end PetIBM
