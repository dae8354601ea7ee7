/-
C98: a run with bodies does not depend on the system of units.
-/
import Verif.Lemmas.UnitsCoupled
import Verif.Props.Units
import Verif.Props.Ibpm

namespace PetIBM

open Spec

set_option linter.unusedSectionVars false

variable {K : Type} [Field K] [LinearOrder K] [IsStrictOrderedRing K] {u : Scales K} {debug : Bool} {L : Layout} {G : Geom K} {axes : ℕ → Axis K}
  {T : BCTable K} {B : ℕ → Boundary K} {P : NSParams K} {F : FlowNode K} {bodies : BodyPack K} {kernel : DeltaKernel K} {window : ℕ} {ops : NSOps K}
  {ib : IBOps K} {vSolve fSolve pSolve : LinSolve K} {disk disk' : Disk K} {n : ℕ}

/-- C98. The kernels of the code do not depend on the unit of length. -/
theorem C98_kernels {name : String} {kernel : DeltaKernel ℝ} {window : ℕ} (h : getKernel name = .ok (kernel, window)) : KernelFree kernel := by
  unfold getKernel at h
  split_ifs at h
  · cases h
    exact roma_free
  · cases h
    exact peskin_free

theorem bodiesOK_units {b : BodyPack K} (h : BodiesOK L b) : BodiesOK L (u.bodies b) := by
  refine ⟨⟨h.pack.dim_pos, ?_, ?_, ?_⟩, h.dim, h.procs⟩ <;> intro c hc <;> obtain ⟨c, hm, rfl⟩ := List.mem_map.1 hc
  · exact h.pack.dim c hm
  · exact h.pack.procs c hm
  · exact h.pack.points c hm

theorem bodies_inverse (hl : u.len ≠ 0) (v : K) (b : BodyPack K) : u.bodies ((⟨1 / u.len, v⟩ : Scales K).bodies b) = b := by
  obtain ⟨d, m, l⟩ := b
  simp only [Scales.bodies, List.map_map]
  congr 1
  conv_rhs => rw [← List.map_id l]
  refine List.map_congr_left fun c _ => ?_
  obtain ⟨d, n, cs, lc⟩ := c
  simp only [Function.comp, Scales.body, List.map_map, id]
  congr 1
  conv_rhs => rw [← List.map_id cs]
  refine List.map_congr_left fun p _ => ?_
  simp only [Function.comp, List.map_map, id]
  conv_rhs => rw [← List.map_id p]
  refine List.map_congr_left fun q _ => ?_
  simp only [Function.comp, id]
  field_simp

/-- Starting in other units. -/
theorem ibStarted_units (hk : KernelFree kernel) (hl : 0 < u.len) (hv : 0 < u.vel) {s : IBState K}
    (S : IBStarted debug L G axes T B P (some F) bodies kernel window ops ib disk s disk') (d : Disk K)
    (hf : P.nstart ≠ 0 → ∃ file file', disk (stepPath P.output P.nstart) = some file ∧ d (stepPath P.output P.nstart) = some file' ∧
      FileInUnits u file file' ∧ file'.data "/force" = (file.data "/force").map (List.map (u.force L.dim * ·))) :
    ∃ d₂, IBStarted debug L (u.geom L.dim G) (fun d => u.axis (axes d)) (fun f b => u.condition (T f b)) (fun r => u.boundary L.dim (B r)) (u.params P)
      (some (u.flow F)) (u.bodies bodies) kernel window (u.ops L.dim ops) (u.ib L.dim ib) d (u.ibState L.dim s) d₂ := by
  have hL := S.constructed.setup.layout
  obtain ⟨s₀, i1, i2⟩ := S.init
  have hi := decoupledInit_units (u := u) (debug := debug) (G := G) (axes := axes) (P := P) (bodies := bodies) (window := window) hk hl hv hL.dim F B
  rw [i1] at hi
  have hite : s₀.ns.ite = P.nstart := by
    obtain ⟨⟨ops', ns⟩, h3, h1⟩ := bind_ok i1
    obtain ⟨idx, h4, h1⟩ := bind_ok h1
    obtain ⟨ib', h5, h1⟩ := bind_ok h1
    cases h1
    obtain ⟨_, _, _, _, rfl⟩ := solverInit_ok h3
    rfl
  have hio : ∃ d₂, decoupledIoInitialData L (u.params P) (u.ib L.dim ib) (u.ibState L.dim s₀) d = .ok (u.ibState L.dim s, d₂) := by
    unfold decoupledIoInitialData at i2 ⊢
    by_cases e0 : s₀.ns.ite = 0
    · rw [if_pos e0] at i2
      obtain ⟨_, _, i3⟩ := bind_ok i2
      cases i3
      obtain ⟨file, hw, _⟩ := writeSolution_spec hL (u.ibState L.dim s).ns d (stepPath (u.params P).output (u.ibState L.dim s).ns.ite)
      rw [if_pos (show (u.ibState L.dim s).ns.ite = 0 from e0), hw]
      exact ⟨_, rfl⟩
    · rw [if_neg e0] at i2
      obtain ⟨_, i4, i3⟩ := bind_ok i2
      cases i3
      obtain ⟨file, file', f1, f2, f3, f4⟩ := hf (hite ▸ e0)
      rw [← hite] at f1 f2
      rw [if_neg (show ¬ (u.ibState L.dim s₀).ns.ite = 0 from e0)]
      have : decoupledReadRestart L (u.ib L.dim ib) (u.ibState L.dim s₀) d (stepPath (u.params P).output (u.ibState L.dim s₀).ns.ite) =
          .ok (u.ibState L.dim s) := decoupledReadRestart_units hl hv hL.dim f1 f2 f3 f4 i4
      rw [this]
      exact ⟨_, rfl⟩
  obtain ⟨d₂, hio⟩ := hio
  refine ⟨d₂, constructed_units hl S.constructed, ?_, bodiesOK_units S.fit, _, hi, hio⟩
  obtain ⟨h, o, node, hp⟩ := S.params
  obtain ⟨node', hp'⟩ := readParams_units (u := u) hp
  exact ⟨h, o, node', hp'⟩

theorem decoupled_pinned {s : IBState K} {flow : Option (FlowNode K)} (S : IBStarted debug L G axes T B P flow bodies kernel window ops ib disk s disk')
    (hR : P.pType = .amgx → RowFree pSolve) : ops.isRefP = true → RowFree pSolve := by
  obtain ⟨s₀, i1, _⟩ := S.init
  obtain ⟨⟨ops', ns⟩, h3, h1⟩ := bind_ok i1
  obtain ⟨idx, h4, h1⟩ := bind_ok h1
  obtain ⟨ib', h5, h1⟩ := bind_ok h1
  cases h1
  obtain ⟨U, p, c1, c2, es⟩ := solverInit_ok h3
  obtain ⟨D, Dm, Gr, La, Lm, BN, o1, o2, o3, o4, rfl⟩ := createOperators_ok c2
  intro h
  refine hR ?_
  cases ht : P.pType with
  | ksp =>
    simp only [setNullSpace, ht] at h
    cases h
  | amgx => rfl

/-- C98, bodies at rest (decoupled solver): with the coordinates of the bodies in the other units too, the run has at every step the same
velocities, pressures, times and forces, all in the other units. -/
theorem C98_units_bodies (hk : KernelFree kernel) (hl : 0 < u.len) (hv : 0 < u.vel) {s : IBState K} {x : ℕ → IBState K}
    (S : IBStarted debug L G axes T B P (some F) bodies kernel window ops ib disk s disk') (h0 : x 0 = s)
    (hx : IBTrajectory L G P ops ib vSolve fSolve pSolve x n) (hV : UnitFree vSolve) (hF : UnitFree fSolve) (hP : UnitFree pSolve)
    (hR : P.pType = .amgx → RowFree pSolve) (d : Disk K)
    (hf : P.nstart ≠ 0 → ∃ file file', disk (stepPath P.output P.nstart) = some file ∧ d (stepPath P.output P.nstart) = some file' ∧
      FileInUnits u file file' ∧ file'.data "/force" = (file.data "/force").map (List.map (u.force L.dim * ·))) :
    ∃ B₂ ops₂ ib₂ s₂ d₂, IBStarted debug L (u.geom L.dim G) (fun d => u.axis (axes d)) (fun f b => u.condition (T f b)) B₂ (u.params P)
        (some (u.flow F)) (u.bodies bodies) kernel window ops₂ ib₂ d s₂ d₂ ∧
      ∃ y, y 0 = s₂ ∧ IBTrajectory L (u.geom L.dim G) (u.params P) ops₂ ib₂ vSolve fSolve pSolve y n ∧
        (∀ k, k ≤ n → BodiesInUnits u L.dim (x k) (y k)) ∧
        ∀ e, decoupledAdvance L G P ops ib none vSolve fSolve pSolve (x n) = .error e ↔
          decoupledAdvance L (u.geom L.dim G) (u.params P) ops₂ ib₂ none vSolve fSolve pSolve (y n) = .error e := by
  have hL := S.constructed.setup.layout
  have hr := decoupled_pinned S hR
  obtain ⟨d₂, S₂⟩ := ibStarted_units hk hl hv S d hf
  have adv : ∀ s, decoupledAdvance L (u.geom L.dim G) (u.params P) (u.ops L.dim ops) (u.ib L.dim ib) none vSolve fSolve pSolve (u.ibState L.dim s) =
      (decoupledAdvance L G P ops ib none vSolve fSolve pSolve s).map (u.ibState L.dim) := fun s =>
    decoupledAdvance_units hl hv hL.dim hV hF hP hr none s
  refine ⟨_, u.ops L.dim ops, u.ib L.dim ib, u.ibState L.dim s, d₂, S₂, fun k => u.ibState L.dim (x k), ?_, ?_, ?_, ?_⟩
  · change u.ibState L.dim (x 0) = _
    rw [h0]
  · intro k hk
    rw [adv, hx k hk]
    rfl
  · exact fun k _ => ⟨⟨fun _ => rfl, fun _ => rfl, rfl, rfl⟩, fun _ => rfl⟩
  · intro e
    rw [adv]
    cases decoupledAdvance L G P ops ib none vSolve fSolve pSolve (x n) with
    | error e' => exact Iff.rfl
    | ok q => exact ⟨fun h => (by cases h), fun h => (by cases h)⟩

/-- C98, bodies with a prescribed motion: with the motion in the other units too, the same holds, and the bodies are at the same places. -/
theorem C98_units_moving (hk : KernelFree kernel) (hl : 0 < u.len) (hv : 0 < u.vel) {M M' : Motion K} (hM : MotionInUnits u M M') {s : RigidState K}
    {x : ℕ → RigidState K} (S : RigidStarted debug L G axes T B P (some F) bodies M kernel window ops disk s disk') (h0 : x 0 = s)
    (hx : RigidTrajectory debug L G axes P ops M kernel window vSolve fSolve pSolve x n) (hV : UnitFree vSolve) (hF : UnitFree fSolve)
    (hP : UnitFree pSolve) (hR : P.pType = .amgx → RowFree pSolve) (d : Disk K)
    (hf : P.nstart ≠ 0 → ∃ file file', disk (stepPath P.output P.nstart) = some file ∧ d (stepPath P.output P.nstart) = some file' ∧
      FileInUnits u file file' ∧ file'.data "/force" = (file.data "/force").map (List.map (u.force L.dim * ·))) :
    ∃ B₂ ops₂ s₂ d₂, RigidStarted debug L (u.geom L.dim G) (fun d => u.axis (axes d)) (fun f b => u.condition (T f b)) B₂ (u.params P)
        (some (u.flow F)) (u.bodies bodies) M' kernel window ops₂ d s₂ d₂ ∧
      ∃ y, y 0 = s₂ ∧ RigidTrajectory debug L (u.geom L.dim G) (fun d => u.axis (axes d)) (u.params P) ops₂ M' kernel window vSolve fSolve pSolve y n ∧
        (∀ k, k ≤ n → BodiesInUnits u L.dim (x k).toIBState (y k).toIBState ∧ (y k).bodies = u.bodies (x k).bodies ∧
          ∀ i, (y k).UB i = u.vel * (x k).UB i) ∧
        ∀ e, rigidAdvance debug L G axes P ops M kernel window vSolve fSolve pSolve (x n) = .error e ↔
          rigidAdvance debug L (u.geom L.dim G) (fun d => u.axis (axes d)) (u.params P) ops₂ M' kernel window vSolve fSolve pSolve (y n) = .error e := by
  have hL := S.started.constructed.setup.layout
  have hr := decoupled_pinned S.started hR
  have ht : u.time ≠ 0 := (div_pos hl hv).ne'
  obtain ⟨d₂, S₂⟩ := ibStarted_units hk hl hv S.started d hf
  have adv := rigidAdvance_units (debug := debug) (G := G) (axes := axes) (P := P) (window := window) hk hl hv hL.dim hM hV hF hP hr
  refine ⟨_, u.ops L.dim ops, u.rigid L.dim s, d₂, ⟨S₂, congrArg u.bodies S.same, ?_, ?_⟩, fun k => u.rigid L.dim (x k), ?_, ?_, ?_, ?_⟩
  · change (fun i => u.vel * s.UB i) = _
    rw [S.UB]
    simp only [mul_zero]
  · intro t b hb
    rw [show t = u.time * (t / u.time) from (mul_div_cancel₀ t ht).symm, ← bodies_inverse hl.ne' 1 b, hM.coordinates]
    exact bodiesOK_units (S.motion _ _ (bodiesOK_units hb))
  · change u.rigid L.dim (x 0) = _
    rw [h0]
  · intro k hk
    rw [adv, hx k hk]
    rfl
  · exact fun k _ => ⟨⟨⟨fun _ => rfl, fun _ => rfl, rfl, rfl⟩, fun _ => rfl⟩, rfl, fun _ => rfl⟩
  · intro e
    rw [adv]
    cases rigidAdvance debug L G axes P ops M kernel window vSolve fSolve pSolve (x n) with
    | error e' => exact Iff.rfl
    | ok q => exact ⟨fun h => (by cases h), fun h => (by cases h)⟩

/-- C98, coupled solver: the same; its linear solver for pressures and forces together must not depend on the units of the single unknowns and
equations. -/
theorem C98_units_coupled (hk : KernelFree kernel) (hl : 0 < u.len) (hv : 0 < u.vel) {s : NSState K} {x : ℕ → NSState K}
    (S : CoupledStarted debug L G axes T B P (some F) bodies kernel window ops disk s disk') (h0 : x 0 = s)
    (hx : CoupledTrajectory L G P (nestCounts L bodies) ops vSolve pSolve x n) (hV : UnitFree vSolve) (hP : DiagFree pSolve) (d : Disk K)
    (hf : P.nstart ≠ 0 → ∃ file file', disk (stepPath P.output P.nstart) = some file ∧ d (stepPath P.output P.nstart) = some file' ∧
      FileInUnits u file file' ∧ file'.data "/force" = (file.data "/force").map (List.map (u.force L.dim * ·))) :
    ∃ B₂ ops₂ s₂ d₂, CoupledStarted debug L (u.geom L.dim G) (fun d => u.axis (axes d)) (fun f b => u.condition (T f b)) B₂ (u.params P)
        (some (u.flow F)) (u.bodies bodies) kernel window ops₂ d s₂ d₂ ∧
      ∃ y, y 0 = s₂ ∧ CoupledTrajectory L (u.geom L.dim G) (u.params P) (nestCounts L (u.bodies bodies)) ops₂ vSolve pSolve y n ∧
        (∀ k, k ≤ n → (∀ i, (y k).U i = u.vel * (x k).U i) ∧ (y k).t = u.time * (x k).t ∧ (y k).ite = (x k).ite ∧
          (∀ i : ℕ, i < L.pN → subPressure (nestCounts L (u.bodies bodies)) (y k).p i = u.vel ^ 2 * subPressure (nestCounts L bodies) (x k).p i) ∧
          ∀ i : ℕ, i < bodies.nPts * bodies.dim →
            subForces (nestCounts L (u.bodies bodies)) (y k).p i = u.force L.dim * subForces (nestCounts L bodies) (x k).p i) ∧
        ∀ e, ibpmAdvance L G P (nestCounts L bodies) ops vSolve pSolve (x n) = .error e ↔
          ibpmAdvance L (u.geom L.dim G) (u.params P) (nestCounts L (u.bodies bodies)) ops₂ vSolve pSolve (y n) = .error e := by
  have hL := S.constructed.setup.layout
  obtain ⟨c1, c2⟩ := sum_counts hL S.fit
  obtain ⟨s₀, ⟨E, H⟩, i1, i2⟩ := S.init
  have hi := coupledInit_units (u := u) (debug := debug) (G := G) (axes := axes) (P := P) (bodies := bodies) (window := window) hk hl hv hL.dim F B
  rw [i1] at hi
  have hs : s₀.ite = P.nstart ∧ s₀.p = (fun _ => 0) ∧ s₀.dP = fun _ => 0 := by
    obtain ⟨⟨U, p⟩, h3, h1⟩ := bind_ok i1
    obtain ⟨⟨ops', E', H'⟩, h4, h1⟩ := bind_ok h1
    cases h1
    exact ⟨rfl, rfl, rfl⟩
  have hio : ∃ d₂, ibpmIoInitialData L (u.params P) (nestCounts L bodies) (bodies.nPts * bodies.dim) (u.coupledState L.dim (nestCounts L bodies) s₀) d =
      .ok (u.coupledState L.dim (nestCounts L bodies) s, d₂) := by
    unfold ibpmIoInitialData at i2 ⊢
    by_cases e0 : s₀.ite = 0
    · rw [if_pos e0] at i2
      obtain ⟨_, _, i3⟩ := bind_ok i2
      cases i3
      unfold ibpmWriteSolution
      obtain ⟨file, hw, _⟩ := writeSolution_spec hL { u.coupledState L.dim (nestCounts L bodies) s with
        p := subPressure (nestCounts L bodies) (u.coupledState L.dim (nestCounts L bodies) s).p } d
        (stepPath (u.params P).output (u.coupledState L.dim (nestCounts L bodies) s).ite)
      rw [if_pos (show (u.coupledState L.dim (nestCounts L bodies) s).ite = 0 from e0), hw]
      exact ⟨_, rfl⟩
    · rw [if_neg e0] at i2
      obtain ⟨_, i4, i3⟩ := bind_ok i2
      cases i3
      obtain ⟨file, file', f1, f2, f3, f4⟩ := hf (hs.1 ▸ e0)
      rw [← hs.1] at f1 f2
      rw [if_neg (show ¬ (u.coupledState L.dim (nestCounts L bodies) s₀).ite = 0 from e0)]
      have : ibpmReadRestart L (nestCounts L bodies) (bodies.nPts * bodies.dim) (u.coupledState L.dim (nestCounts L bodies) s₀) d
          (stepPath (u.params P).output (u.coupledState L.dim (nestCounts L bodies) s₀).ite) = .ok (u.coupledState L.dim (nestCounts L bodies) s) :=
        coupledReadRestart_units hl hv hL.dim f1 f2 f3 f4 hs.2.1 hs.2.2 i4
      rw [this]
      exact ⟨_, rfl⟩
  obtain ⟨d₂, hio⟩ := hio
  have adv := coupledAdvance_units (G := G) (P := P) (ops := ops) hl hv hL.dim c1 hV hP
  refine ⟨_, u.coupledOps L.dim (nestCounts L bodies) ops, u.coupledState L.dim (nestCounts L bodies) s, d₂,
    ⟨constructed_units hl S.constructed, ?_, bodiesOK_units S.fit, _, _, hi, ?_⟩, fun k => u.coupledState L.dim (nestCounts L bodies) (x k), ?_, ?_, ?_, ?_⟩
  · obtain ⟨h, o, node, hp⟩ := S.params
    obtain ⟨node', hp'⟩ := readParams_units (u := u) hp
    exact ⟨h, o, node', hp'⟩
  · rw [nestCounts_units, nPts_units]
    exact hio
  · change u.coupledState L.dim (nestCounts L bodies) (x 0) = _
    rw [h0]
  · rw [nestCounts_units]
    intro k hk
    rw [adv, hx k hk]
    rfl
  · rw [nestCounts_units]
    intro k _
    exact ⟨fun _ => rfl, rfl, rfl, fun i hi => subPressure_units _ _ _ (by rw [c1]; exact hi), fun i hi => subForces_units _ _ _ (by rw [c2]; exact hi)⟩
  · rw [nestCounts_units]
    intro e
    rw [adv]
    cases ibpmAdvance L G P (nestCounts L bodies) ops vSolve pSolve (x n) with
    | error e' => exact Iff.rfl
    | ok q => exact ⟨fun h => (by cases h), fun h => (by cases h)⟩

/-! ### Examples -/

theorem hatKernel_free : KernelFree hatKernel := by
  intro l hl r w
  unfold hatKernel
  refine congrArg Except.ok ?_
  have e : |l * r| = l * |r| := by rw [abs_mul, abs_of_pos hl]
  change (if |l * r| < l * w then _ else _) = 1 / l * (if |r| < w then _ else _)
  by_cases h : |r| < w
  · rw [if_pos h, if_pos (by rw [e]; exact mul_lt_mul_of_pos_left h hl), e]
    by_cases hw : w = 0
    · simp [hw]
    · field_simp
  · rw [if_neg h, if_neg (by rw [e]; exact fun h' => h (lt_of_mul_lt_mul_left h' hl.le)), mul_zero]

theorem jacobi_diagFree (N : ℕ) : DiagFree (jacobi N) := by
  intro α γ hα hγ A g r
  unfold jacobi
  refine congrArg Except.ok (funext fun i => ?_)
  have h : Mat.mult N (fun i j => α i * A i j / γ j) (fun i => γ i * g i) i = α i * Mat.mult N A g i := by
    unfold Mat.mult
    rw [Finset.mul_sum]
    refine Finset.sum_congr rfl fun j _ => ?_
    have := hγ j
    field_simp
  have h1 := hα i
  have h2 := hγ i
  rw [h, inv_div, div_eq_mul_inv, mul_inv]
  field_simp

/-- The coupled solver, two steps with sweeps of Jacobi's method. -/
def coupledSweeps : Except Error ((NSOps ℚ × Mat ℚ × Mat ℚ) × NSState ℚ × NSState ℚ) := do
  let (ops, s) ← ibpmInit true twoByTwo tailGeom twoAxes tailParams (some (pushedFlow none)) throughB pointPack hatKernel 1
  let t ← steps (ibpmAdvance twoByTwo tailGeom tailParams (nestCounts twoByTwo pointPack) ops.1 (jacobi 4) (jacobi 6)) 2 s
  return (ops, s, t)

/-- The hypotheses of `C98_units_coupled` are met by a point at rest in the flow. -/
example : ∃ ops s disk' x, CoupledStarted true twoByTwo tailGeom twoAxes throughTable throughB tailParams (some (pushedFlow none)) pointPack
      hatKernel 1 ops (fun _ => none) s disk' ∧ x 0 = s ∧
    CoupledTrajectory twoByTwo tailGeom tailParams (nestCounts twoByTwo pointPack) ops (jacobi 4) (jacobi 6) x 2 ∧
    KernelFree hatKernel ∧ UnitFree (jacobi 4) ∧ DiagFree (jacobi 6) ∧ tailParams.nstart = 0 := by
  obtain ⟨⟨⟨ops, E, H⟩, s, t⟩, h⟩ := pick (show coupledSweeps.toOption.isSome = true by decide +kernel)
  obtain ⟨⟨⟨ops', E', H'⟩, s'⟩, h1, h⟩ := bind_ok h
  obtain ⟨t', h2, h⟩ := bind_ok h
  cases h
  obtain ⟨x, x0, _, hx⟩ := steps_ok h2
  have hi : s.ite = 0 := by
    obtain ⟨⟨U, p⟩, h3, h1⟩ := bind_ok h1
    obtain ⟨⟨ops', E', H'⟩, h4, h1⟩ := bind_ok h1
    cases h1
    rfl
  obtain ⟨file, hf, _⟩ := writeSolution_spec through_constructed.setup.layout { s with p := subPressure (nestCounts twoByTwo pointPack) s.p }
    (fun _ => none) (stepPath tailParams.output s.ite)
  refine ⟨ops, s, Function.update (fun _ => none) (stepPath tailParams.output s.ite) (some file), x,
    ⟨through_constructed, ⟨false, "out", some tailNode, rfl⟩, pointPack_ok, s, (E, H), h1, ?_⟩, x0, hx, hatKernel_free, jacobi_unitFree 4,
    jacobi_diagFree 6, rfl⟩
  unfold ibpmIoInitialData ibpmWriteSolution
  rw [if_pos hi, hf]
  rfl

/-- The rising point, two steps with sweeps of Jacobi's method. -/
def rigidSweeps : Except Error (NSOps ℚ × RigidState ℚ × RigidState ℚ) := do
  let (ops, ib, s) ← decoupledInit true twoByTwo tailGeom twoAxes tailParams (some (pushedFlow none)) throughB pointPack hatKernel 1
  let s : RigidState ℚ := { toIBState := s, bodies := pointPack, UB := fun _ => 0, ib := ib }
  let t ← steps (rigidAdvance true twoByTwo tailGeom twoAxes tailParams ops risingMotion hatKernel 1 (jacobi 4) (jacobi 2) (jacobi 4)) 2 s
  return (ops, s, t)

/-- The rising point in units for which lengths are multiplied by 100 and velocities by 1/3. -/
def risingMotion' : Motion ℚ where
  coordinates := fun t P => { P with bodies := P.bodies.map fun b => { b with coords := b.coords.map fun _ => [125, 75 + t / 24] } }
  velocity := fun _ _ UB => fun i => if i = 1 then 1 / 24 else UB i

theorem rising_units : MotionInUnits ⟨100, 1 / 3⟩ risingMotion risingMotion' := by
  constructor
  · intro t b
    obtain ⟨dm, m, l⟩ := b
    simp only [risingMotion, risingMotion', Scales.bodies, List.map_map, Scales.time]
    congr 1
    refine List.map_congr_left fun c _ => ?_
    obtain ⟨d, n, cs, lc⟩ := c
    simp only [Function.comp, Scales.body, List.map_map]
    congr 1
    refine List.map_congr_left fun p _ => ?_
    simp only [Function.comp, List.map_cons, List.map_nil]
    congr 1
    · norm_num
    · congr 1
      ring
  · intro t b x
    funext i
    simp only [risingMotion, risingMotion']
    split_ifs
    · norm_num
    · rfl

/-- The hypotheses of `C98_units_moving` are met by the point that rises through the flow, in units for which lengths are multiplied by 100 and
velocities by 1/3. -/
example : ∃ ops s disk' x, RigidStarted true twoByTwo tailGeom twoAxes throughTable throughB tailParams (some (pushedFlow none)) pointPack
      risingMotion hatKernel 1 ops (fun _ => none) s disk' ∧ x 0 = s ∧
    RigidTrajectory true twoByTwo tailGeom twoAxes tailParams ops risingMotion hatKernel 1 (jacobi 4) (jacobi 2) (jacobi 4) x 2 ∧
    KernelFree hatKernel ∧ MotionInUnits ⟨100, 1 / 3⟩ risingMotion risingMotion' ∧ UnitFree (jacobi 4) ∧ UnitFree (jacobi 2) ∧
    tailParams.pType = .ksp ∧ tailParams.nstart = 0 := by
  obtain ⟨⟨ops, s, t⟩, h⟩ := pick (show rigidSweeps.toOption.isSome = true by decide +kernel)
  obtain ⟨⟨ops', ib', s'⟩, h1, h⟩ := bind_ok h
  obtain ⟨t', h2, h⟩ := bind_ok h
  cases h
  obtain ⟨x, x0, _, hx⟩ := steps_ok h2
  have hi : s'.ns.ite = 0 := by
    obtain ⟨⟨ops', ns⟩, h3, h1⟩ := bind_ok h1
    obtain ⟨idx, h4, h1⟩ := bind_ok h1
    obtain ⟨ib', h5, h1⟩ := bind_ok h1
    cases h1
    obtain ⟨_, _, _, _, rfl⟩ := solverInit_ok h3
    rfl
  obtain ⟨file, hf, _⟩ := writeSolution_spec through_constructed.setup.layout s'.ns (fun _ => none) (stepPath tailParams.output s'.ns.ite)
  have S : IBStarted true twoByTwo tailGeom twoAxes throughTable throughB tailParams (some (pushedFlow none)) pointPack
      hatKernel 1 ops ib' (fun _ => none) s' (Function.update (fun _ => none) (stepPath tailParams.output s'.ns.ite) (some file)) := by
    refine ⟨through_constructed, ⟨false, "out", some tailNode, rfl⟩, pointPack_ok, s', h1, ?_⟩
    unfold decoupledIoInitialData
    rw [if_pos hi, hf]
    rfl
  exact ⟨ops, _, _, x, ⟨S, rfl, rfl, risingMotion_ok⟩, x0, hx, hatKernel_free, rising_units, jacobi_unitFree 4, jacobi_unitFree 2, rfl, rfl⟩

/-- The point at rest, two steps with sweeps of Jacobi's method. -/
def decoupledSweeps : Except Error (NSOps ℚ × IBOps ℚ × IBState ℚ × IBState ℚ) := do
  let (ops, ib, s) ← decoupledInit true twoByTwo tailGeom twoAxes tailParams (some (pushedFlow none)) throughB pointPack hatKernel 1
  let t ← steps (decoupledAdvance twoByTwo tailGeom tailParams ops ib none (jacobi 4) (jacobi 2) (jacobi 4)) 2 s
  return (ops, ib, s, t)

/-- The hypotheses of `C98_units_bodies` are met by a point at rest in the flow. -/
example : ∃ ops ib s disk' x, IBStarted true twoByTwo tailGeom twoAxes throughTable throughB tailParams (some (pushedFlow none)) pointPack
      hatKernel 1 ops ib (fun _ => none) s disk' ∧ x 0 = s ∧
    IBTrajectory twoByTwo tailGeom tailParams ops ib (jacobi 4) (jacobi 2) (jacobi 4) x 2 ∧
    KernelFree hatKernel ∧ UnitFree (jacobi 4) ∧ UnitFree (jacobi 2) ∧ tailParams.pType = .ksp ∧ tailParams.nstart = 0 := by
  obtain ⟨⟨ops, ib, s, t⟩, h⟩ := pick (show decoupledSweeps.toOption.isSome = true by decide +kernel)
  obtain ⟨⟨ops', ib', s'⟩, h1, h⟩ := bind_ok h
  obtain ⟨t', h2, h⟩ := bind_ok h
  cases h
  obtain ⟨x, x0, _, hx⟩ := steps_ok h2
  have hi : s.ns.ite = 0 := by
    obtain ⟨⟨ops', ns⟩, h3, h1⟩ := bind_ok h1
    obtain ⟨idx, h4, h1⟩ := bind_ok h1
    obtain ⟨ib', h5, h1⟩ := bind_ok h1
    cases h1
    obtain ⟨_, _, _, _, rfl⟩ := solverInit_ok h3
    rfl
  obtain ⟨file, hf, _⟩ := writeSolution_spec through_constructed.setup.layout s.ns (fun _ => none) (stepPath tailParams.output s.ns.ite)
  have S : IBStarted true twoByTwo tailGeom twoAxes throughTable throughB tailParams (some (pushedFlow none)) pointPack
      hatKernel 1 ops ib (fun _ => none) s (Function.update (fun _ => none) (stepPath tailParams.output s.ns.ite) (some file)) := by
    refine ⟨through_constructed, ⟨false, "out", some tailNode, rfl⟩, pointPack_ok, s, h1, ?_⟩
    unfold decoupledIoInitialData
    rw [if_pos hi, hf]
    rfl
  exact ⟨ops, ib, s, _, x, S, x0, hx, hatKernel_free, jacobi_unitFree 4, jacobi_unitFree 2, rfl, rfl⟩

end PetIBM
