/-
Properties C44, C55, C65: the solvers with immersed bodies.
-/
import Verif.Lemmas.IbpmVolume
import Verif.Props.Restart
import Verif.Props.Delta

set_option linter.unusedSectionVars false

namespace PetIBM

open Spec

section

variable {K : Type} [Field K] [LinearOrder K] [IsStrictOrderedRing K]
variable {debug : Bool} {L : Layout} {G : Geom K} {axes : ℕ → Axis K} {T : BCTable K} {B : ℕ → Boundary K}
variable {P : NSParams K} {flow : Option (FlowNode K)} {bodies : BodyPack K} {kernel : DeltaKernel K} {window : ℕ} {ops : NSOps K}
variable {ib : IBOps K} {disk disk' : Disk K}

/-! ### C55 -/

/-- The identity behind C55: spreading and interpolation with the same weights are adjoint, if the grid is weighted with volumes. -/
theorem spread_adjoint (N nF : ℕ) (Δ : Mat K) (vol q F : ℤ → K) :
    ∑ c ∈ Finset.range N, vol c * q c * spread nF Δ F c = ∑ k ∈ Finset.range nF, F k * interpolated N Δ vol q k := by
  unfold spread interpolated
  simp_rw [Finset.mul_sum]
  rw [Finset.sum_comm]
  refine Finset.sum_congr rfl fun k _ => Finset.sum_congr rfl fun c _ => ?_
  ring

/-- C55, decoupled solvers. `H` spreads forces with the delta operator `Δ` of the bodies, `E` interpolates with `Δ` and the volumes of
the cells, and so they are adjoint: for every velocity `q` and all forces `F` the work of the spread force on the grid, weighted with the
volumes, is the work of the forces at the interpolated velocity. -/
theorem C55_adjoint {s : IBState K} (S : IBStarted debug L G axes T B P flow bodies kernel window ops ib disk s disk') :
    ∃ Δ, IsDelta debug L axes B bodies kernel window Δ ∧ ib.nF = bodies.nPts * bodies.dim ∧
      (∀ F c, Mat.mult ib.nF ib.H F c = spread ib.nF Δ F c) ∧
      ∀ vol, IsVolume debug L G vol → (∀ q k, Mat.mult L.UN ib.E q k = interpolated L.UN Δ vol q k) ∧
        ∀ q F, ∑ c ∈ Finset.range L.UN, vol c * q c * Mat.mult ib.nF ib.H F c = ∑ k ∈ Finset.range ib.nF, F k * Mat.mult L.UN ib.E q k := by
  obtain ⟨Δ, BN, h1, _, h2, h3, h4, _⟩ := S.operators
  have hH : ∀ F c, Mat.mult ib.nF ib.H F c = spread ib.nF Δ F c := by
    intro F c; rw [h3]; rfl
  refine ⟨Δ, h1, h2, hH, ?_⟩
  intro vol hvol
  have hE : ∀ q k, Mat.mult L.UN ib.E q k = interpolated L.UN Δ vol q k :=
    fun q k => interpolated_eq (fun c c0 c1 => h4 vol hvol k c c0 c1) q
  refine ⟨hE, ?_⟩
  intro q F
  simp_rw [hH, hE]
  exact spread_adjoint ..

/-- C55, coupled solver. The columns of the composite gradient that belong to forces spread with minus the delta operator, the rows of
the composite divergence that belong to forces interpolate. -/
theorem C55_coupled_adjoint {s : NSState K} (S : CoupledStarted debug L G axes T B P flow bodies kernel window ops disk s disk') :
    ∃ Δ, IsDelta debug L axes B bodies kernel window Δ ∧ ∀ k, k < bodies.nPts * bodies.dim →
      nestPos (nestCounts L bodies) (.inr k) < ops.pN ∧
      (∀ c, ops.G c (nestPos (nestCounts L bodies) (.inr k) : ℕ) = -Δ k c) ∧
      ∀ vol, IsVolume debug L G vol → ∀ q, Mat.mult L.UN ops.D q (nestPos (nestCounts L bodies) (.inr k) : ℕ) = interpolated L.UN Δ vol q k := by
  obtain ⟨u, E, H, h1, _⟩ := S.reach
  obtain ⟨D, Dm, Gr, La, Lm, BN, idx, _, _, _, h4, h5, _, rfl⟩ := ibpmCreate_ok h1
  obtain ⟨Δ, h6, h7, h8⟩ := createEH_ok S.constructed.setup h5
  rw [createDelta_run S.constructed] at h6
  have hs := sum_counts S.constructed.setup.layout S.fit
  refine ⟨Δ, ⟨idx, h4, h6⟩, ?_⟩
  intro k hk
  have hk' : k < ((nestCounts L bodies).map (·.2)).sum := by omega
  refine ⟨?_, ?_, ?_⟩
  · have := ((nestSplit_pos (nestCounts L bodies) 0 0).2 k hk').2
    simp only
    omega
  · intro c
    show Mat.nestRows (nestCounts L bodies) (Mat.transpose Gr) (Mat.transpose (Mat.scale H (-1))) (nestPos (nestCounts L bodies) (.inr k) : ℕ) c = -Δ k c
    rw [nestRows_force _ _ hk', h7]
    simp [Mat.transpose, Mat.scale]
  · intro vol hvol q
    rw [← interpolated_eq (E := E) (fun c c0 c1 => h8 vol hvol k c c0 c1) q]
    unfold Mat.mult
    refine Finset.sum_congr rfl fun c _ => ?_
    simp only
    rw [nestRows_force _ _ hk']

/-! ### C44 -/

/-- C44, decoupled solver with bodies at rest. If the force system is solved exactly, then in every step: the velocity `U` after the
force step (solution of the velocity system plus the effect of the new forces) interpolates to zero at every point of the bodies;
the final velocity differs from it by the gradient of the pressure correction `φ`, so its slip is exactly the interpolated correction. -/
theorem C44_decoupled {s : IBState K} (S : IBStarted debug L G axes T B P flow bodies kernel window ops ib disk s disk')
    {vSolve fSolve pSolve : LinSolve K} {x : ℕ → IBState K} {n : ℕ} (h0 : x 0 = s)
    (hx : IBTrajectory L G P ops ib vSolve fSolve pSolve x n) (exact : Solves ib.nF fSolve ib.EBNH) {vol : ℤ → K}
    (hvol : IsVolume debug L G vol) :
    ∃ Δ, IsDelta debug L axes B bodies kernel window Δ ∧ ∀ k, k < n → ∃ rhs Us U φ, vSolve ops.A (x k).ns.U rhs = .ok Us ∧
      (∀ i : ℤ, 0 ≤ i → i < L.UN → U i = Us i + Mat.mult ib.nF ib.BNH (fun j => (x (k + 1)).f j - (x k).f j) i) ∧
      (∀ row : ℤ, 0 ≤ row → row < (bodies.nPts * bodies.dim : ℕ) → interpolated L.UN Δ vol U row = 0) ∧
      (∀ i : ℤ, 0 ≤ i → i < L.pN → (x (k + 1)).ns.p i = (x k).ns.p i + φ i) ∧
      ∀ row : ℤ, 0 ≤ row → row < (bodies.nPts * bodies.dim : ℕ) →
        interpolated L.UN Δ vol (x (k + 1)).ns.U row = -interpolated L.UN Δ vol (Mat.mult L.pN ops.BNG φ) row := by
  obtain ⟨Δ, BN, h1, _, h2, h3, h4, _, h5⟩ := S.operators
  obtain ⟨u, hops, R⟩ := S.reach_at h0 hx
  have F := S.started
  refine ⟨Δ, h1, fun k hk => ?_⟩
  obtain ⟨rhs, Us, U, φ, e1, e2, e3, e4, e5⟩ := decoupled_step S.constructed F.schemes.1.1 F.schemes.2.1 hops (R k hk.le) (hx k hk) h4 h5 exact hvol
  rw [h2] at e3
  refine ⟨rhs, Us, U, φ, e1, e2, e3, e4, ?_⟩
  intro row r0 r1
  have e : interpolated L.UN Δ vol (x (k + 1)).ns.U row =
      interpolated L.UN Δ vol U row - interpolated L.UN Δ vol (Mat.mult L.pN ops.BNG φ) row := by
    unfold interpolated
    rw [← Finset.sum_sub_distrib]
    refine Finset.sum_congr rfl fun c hc => ?_
    rw [e5 c (by omega) (by have := Finset.mem_range.1 hc; omega)]
    ring
  rw [e, e3 row r0 r1, zero_sub]

/-- C44, prescribed motion. In every step the bodies, their velocity and the delta operator are those of the new time; if the force
system is solved exactly, the velocity after the force step interpolates to the prescribed velocity at every point, and the
deviation of the final velocity from it is exactly the interpolated pressure correction. -/
theorem C44_prescribed_motion {M : Motion K} {s : RigidState K}
    (S : RigidStarted debug L G axes T B P flow bodies M kernel window ops disk s disk') {vSolve fSolve pSolve : LinSolve K}
    {x : ℕ → RigidState K} {n : ℕ} (h0 : x 0 = s)
    (hx : RigidTrajectory debug L G axes P ops M kernel window vSolve fSolve pSolve x n) {vol : ℤ → K} (hvol : IsVolume debug L G vol)
    (k : ℕ) (hk : k < n) (exact : ∀ A, Solves (x (k + 1)).ib.nF fSolve A) :
    (x (k + 1)).bodies = M.coordinates (x (k + 1)).ns.t (x k).bodies ∧
    (x (k + 1)).UB = M.velocity (x (k + 1)).ns.t (x (k + 1)).bodies (x k).UB ∧
    ∃ Δ rhs Us U φ, IsDelta debug L axes B (x (k + 1)).bodies kernel window Δ ∧
      vSolve ops.A (x k).ns.U rhs = .ok Us ∧
      (∀ i : ℤ, 0 ≤ i → i < L.UN → U i = Us i + Mat.mult (x (k + 1)).ib.nF (x (k + 1)).ib.BNH (fun j => (x (k + 1)).f j - (x k).f j) i) ∧
      (∀ row : ℤ, 0 ≤ row → row < ((x (k + 1)).bodies.nPts * (x (k + 1)).bodies.dim : ℕ) →
        interpolated L.UN Δ vol U row = (x (k + 1)).UB row) ∧
      (∀ i : ℤ, 0 ≤ i → i < L.pN → (x (k + 1)).ns.p i = (x k).ns.p i + φ i) ∧
      ∀ row : ℤ, 0 ≤ row → row < ((x (k + 1)).bodies.nPts * (x (k + 1)).bodies.dim : ℕ) →
        interpolated L.UN Δ vol (x (k + 1)).ns.U row = (x (k + 1)).UB row - interpolated L.UN Δ vol (Mat.mult L.pN ops.BNG φ) row := by
  obtain ⟨u, hops, R⟩ := S.reach_at h0 hx
  have F := S.started.started
  have C := S.started.constructed
  obtain ⟨e1, e2, ⟨idx, e3, e4⟩, h⟩ := rigid_ok (hx k hk)
  obtain ⟨w, Us, df, _, _, _, ha, _⟩ := decoupled_ok C F.schemes.1.1 F.schemes.2.1 (R k hk.le).1 h
  obtain ⟨_, _, _, _, _, _, _, _, _, _, _, _, ht, _⟩ := advance_ok C F.schemes.1.1 F.schemes.2.1 (R k hk.le).1 ha
  rw [← ht] at e1 e2
  refine ⟨e1, e2, ?_⟩
  obtain ⟨hh, hB, _⟩ := (R k hk.le).1.hist
  rw [hB] at e4
  obtain ⟨Δ, BN, h1, _, h2, h3, h4, _, h5⟩ := createExtra_ok C e3 e4
  obtain ⟨rhs, Us, U, φ, f1, f2, f3, f4, f5⟩ := decoupled_step C F.schemes.1.1 F.schemes.2.1 hops (R k hk.le).1 h h4 h5 (exact _) hvol
  rw [h2] at f3
  refine ⟨Δ, rhs, Us, U, φ, h1, f1, f2, f3, f4, ?_⟩
  intro row r0 r1
  have e : interpolated L.UN Δ vol (x (k + 1)).ns.U row =
      interpolated L.UN Δ vol U row - interpolated L.UN Δ vol (Mat.mult L.pN ops.BNG φ) row := by
    unfold interpolated
    rw [← Finset.sum_sub_distrib]
    refine Finset.sum_congr rfl fun c hc => ?_
    rw [f5 c (by omega) (by have := Finset.mem_range.1 hc; omega)]
    ring
  rw [e, f3 row r0 r1]

/-- C44, coupled solver. With an exact solver of the composite system the new velocity interpolates to zero at every point of the
bodies, after every step. If the pressure is pinned, the pinned row must be one of the pressure: rank 0 owns a cell. -/
theorem C44_coupled_no_slip {s : NSState K} (S : CoupledStarted debug L G axes T B P flow bodies kernel window ops disk s disk')
    {vSolve pSolve : LinSolve K} {x : ℕ → NSState K} {n : ℕ} (h0 : x 0 = s)
    (hx : CoupledTrajectory L G P (nestCounts L bodies) ops vSolve pSolve x n) (exact : Solves ops.pN pSolve ops.DBNG)
    (hpin : P.pType = .ksp ∨ 0 < (L.box 3 0).length) {vol : ℤ → K} (hvol : IsVolume debug L G vol) :
    ∃ Δ, IsDelta debug L axes B bodies kernel window Δ ∧ ∀ k, k < n → ∀ row, row < bodies.nPts * bodies.dim →
      interpolated L.UN Δ vol (x (k + 1)).U row = 0 := by
  obtain ⟨u, E, H, hops, R⟩ := S.reach_at h0 hx
  obtain ⟨D, Dm, Gr, La, Lm, BN, idx, _, _, _, h4, h5, _, hop⟩ := ibpmCreate_ok hops
  obtain ⟨Δ, h6, h7, h8⟩ := createEH_ok S.constructed.setup h5
  rw [createDelta_run S.constructed] at h6
  have hs := sum_counts S.constructed.setup.layout S.fit
  refine ⟨Δ, ⟨idx, h4, h6⟩, fun k hk row hrow => ?_⟩
  obtain ⟨w, U, dP, hw, hv, hp, ha⟩ := coupled_ok S.constructed S.schemes.1.1 S.schemes.2.1 (R k hk.le) (hx k hk)
  obtain ⟨w', U', dP', hw', hv', hp', hU, _⟩ := advance_ok S.constructed S.schemes.1.1 S.schemes.2.1 (R k hk.le) ha
  have hp' := Except.ok.inj hp'
  subst hp'
  have e : U = U' := by
    rw [hw] at hw'
    cases hw'
    rw [hv] at hv'
    exact Except.ok.inj hv'
  subst e
  have hk' : row < ((nestCounts L bodies).map (·.2)).sum := by omega
  have hpos := (nestSplit_pos (nestCounts L bodies) 0 0).2 row hk'
  have hpN : ops.pN = L.pN + bodies.nPts * bodies.dim := by rw [hop]
  have key := coupled_rows S.constructed.setup S.fit (P := P) (Dm := Dm) hpN (by rw [hop]) (by rw [hop]) (by rw [hop]) exact (U := U) rfl hp
    (nestPos (nestCounts L bodies) (.inr row) : ℕ) (by omega) (by omega) (by
      rcases hpin with h | h
      · exact Or.inl h
      · right
        cases hl : nestCounts L bodies with
        | nil => rw [hl] at hk'; simp at hk'
        | cons c l =>
          obtain ⟨p, f⟩ := c
          have hp : p = (L.box 3 0).length := by
            have h0 : (nestCounts L bodies)[0]? = some (p, f) := by rw [hl]; rfl
            unfold nestCounts at h0
            rw [List.getElem?_map] at h0
            cases hm : L.mpiSize with
            | zero => rw [hm] at h0; simp at h0
            | succ m =>
              rw [hm, List.getElem?_range (by omega)] at h0
              exact (Prod.mk.inj (Option.some.inj h0)).1.symm
          show ((if row < f then p + row else p + f + nestPos l (.inr (row - f)) : ℕ) : ℤ) ≠ 0
          split_ifs <;> omega)
  rw [nestVec_force _ _ hk', add_zero, ← hU] at key
  rw [← interpolated_eq (E := E) (fun c c0 c1 => h8 vol hvol row c c0 c1) (x (k + 1)).U, ← key, hop]
  unfold Mat.mult
  refine Finset.sum_congr rfl fun c _ => ?_
  simp only
  rw [nestRows_force _ _ hk']

/-- C44, coupled solver: in the same step the new velocity is divergence free in every cell, including the values at the walls.
Missing: periodic directions with one cell, where it is false (`C44_false_single_periodic_cell`); the pinned system, for which see
`Props/Pinned.lean`. -/
theorem C44_coupled_divergence_free_partial {s : NSState K}
    (S : CoupledStarted debug L G axes T B P flow bodies kernel window ops disk s disk')
    {vSolve pSolve : LinSolve K} {x : ℕ → NSState K} {n : ℕ} (h0 : x 0 = s)
    (hx : CoupledTrajectory L G P (nestCounts L bodies) ops vSolve pSolve x n) (exact : Solves ops.pN pSolve ops.DBNG)
    (hn : ∀ f, f < L.dim → L.periodic 0 f = true → 2 ≤ L.n f f) (hp : P.pType = .ksp) (k : ℕ) (hk : k < n) :
    ∀ V, Filled debug L (x (k + 1)).B (x (k + 1)).U V → ∀ c, Inside L.toMeshInfo 3 c → netFlux L.dim G c V = 0 := by
  intro V hV c hc
  obtain ⟨u, E, H, hops, R⟩ := S.reach_at h0 hx
  obtain ⟨D, Dm, Gr, La, Lm, BN, idx, h1, _, _, h4, h5, _, hop⟩ := ibpmCreate_ok hops
  have hs := sum_counts S.constructed.setup.layout S.fit
  obtain ⟨w, U, dP, hw, hv, hp', ha⟩ := coupled_ok S.constructed S.schemes.1.1 S.schemes.2.1 (R k hk.le) (hx k hk)
  obtain ⟨w', U', dP', hw', hv', hp'', hU, _, _, _, _, hB', _⟩ := advance_ok S.constructed S.schemes.1.1 S.schemes.2.1 (R k hk.le) ha
  have hp'' := Except.ok.inj hp''
  subst hp''
  rw [hw] at hw'
  cases hw'
  rw [hv] at hv'
  have e := Except.ok.inj hv'
  subst e
  have hr := (col_inside S.constructed.setup.layout (Or.inr rfl) debug hc).2
  obtain ⟨a, ha'⟩ := Int.eq_ofNat_of_zero_le hr.1
  have hr : 0 ≤ col L 3 c ∧ col L 3 c < (L.pN : ℤ) := hr
  have hpN : ops.pN = L.pN + bodies.nPts * bodies.dim := by rw [hop]
  have hk' : a < ((nestCounts L bodies).map (·.1)).sum := by omega
  have hpos := (nestSplit_pos (nestCounts L bodies) 0 0).1 a hk'
  have key := coupled_rows S.constructed.setup S.fit (P := P) (Dm := Dm) hpN (by rw [hop]) (by rw [hop]) (by rw [hop]) exact (U := U) rfl hp'
    (nestPos (nestCounts L bodies) (.inl a) : ℕ) (by omega) (by omega) (Or.inl hp)
  rw [nestVec_pressure _ _ hk', ← hU] at key
  rw [netFlux_after S.constructed hn (R k hk.le) hB' h1 hV hc, ← key, ha']
  congr 1
  unfold Mat.mult
  refine Finset.sum_congr rfl fun c _ => ?_
  rw [hop]
  simp only
  rw [nestRows_pressure _ _ hk']

/-- C44, decoupled solvers: with an exact Poisson solver the final velocity is divergence free in every cell. Missing: as above
(`C44_false_single_periodic_cell_decoupled`). -/
theorem C44_decoupled_divergence_free_partial {s : IBState K}
    (S : IBStarted debug L G axes T B P flow bodies kernel window ops ib disk s disk')
    {vSolve fSolve pSolve : LinSolve K} {x : ℕ → IBState K} {n : ℕ} (h0 : x 0 = s)
    (hx : IBTrajectory L G P ops ib vSolve fSolve pSolve x n) (exact : Solves L.pN pSolve ops.DBNG)
    (hn : ∀ f, f < L.dim → L.periodic 0 f = true → 2 ≤ L.n f f) (hp : P.pType = .ksp) (k : ℕ) (hk : k < n) :
    ∀ V, Filled debug L (x (k + 1)).ns.B (x (k + 1)).ns.U V → ∀ c, Inside L.toMeshInfo 3 c → netFlux L.dim G c V = 0 := by
  intro V hV c hc
  obtain ⟨u, hops, R⟩ := S.reach_at h0 hx
  have F := S.started
  obtain ⟨D, Dm, Gr, La, Lm, BN, o1, o2, o3, o4, hop⟩ := createOperators_ok hops
  obtain ⟨_, Us, df, _, _, _, ha, _⟩ := decoupled_ok S.constructed F.schemes.1.1 F.schemes.2.1 (R k hk.le) (hx k hk)
  obtain ⟨w, U, dP, _, _, h3, hU, _, _, _, _, hB', _⟩ := advance_ok S.constructed F.schemes.1.1 F.schemes.2.1 (R k hk.le) ha
  have hr := (col_inside S.constructed.setup.layout (Or.inr rfl) debug hc).2
  have hr : 0 ≤ col L 3 c ∧ col L 3 c < (L.pN : ℤ) := hr
  have e := exact _ _ _ h3 _ hr.1 hr.2
  have hpN := createOperators_pN hops
  rw [netFlux_after S.constructed hn (R k hk.le) hB' o1 hV hc, hU]
  unfold projected
  rw [mult_sub, mult_vec, mult_vec]
  have e1 : Mat.mult L.UN D (Mat.mult ops.pN ops.BNG (vec ops.pN dP)) (col L 3 c) = Mat.mult L.pN ops.DBNG dP (col L 3 c) := by
    rw [hop]
    simp only [hp, setNullSpace]
    rw [mult_mul]
    exact mult_congr (fun j _ _ => mult_vec _ _ _ _) _
  rw [e1, e]
  unfold poissonRhs
  have e2 : ops.isRefP = false := by rw [hop]; simp only [hp, setNullSpace]
  simp only [e2, Bool.false_eq_true, if_false]
  rw [hpN, vec, if_pos hr, mult_vec]
  have e3 : ops.D = D := by rw [hop]
  have e4 : ops.Dmods = Dm := by rw [hop]
  rw [e3, e4]
  ring

/-! ### C65 -/

/-- C65, all solvers but the coupled one (for the decoupled solvers see the next theorem): a run from step 0 starts with the
configured velocity and pressure. -/
theorem C65_initial_state {s : NSState K} {nu : K} {es : List (Expr K)} {pe : Option (Expr K)}
    (S : Started debug L G axes T B P (some ⟨some nu, some es, pe⟩) ops disk s disk') (enough : L.dim ≤ es.length) (few : es.length ≤ 4)
    (start : P.nstart = 0) :
    InitialVelocity L G nu es s.U ∧ InitialPressure L G nu (pe.getD fun _ _ _ _ _ => 0) s.p := by
  obtain ⟨s₀, h1, h2⟩ := S.init
  obtain ⟨U, p, h3, _, rfl⟩ := solverInit_ok h1
  obtain ⟨V, q, h4, h5, h6, _⟩ := C56_initial_conditions S.constructed.setup.layout G nu es pe enough few (fun _ => 0) fun _ => 0
  rw [h3] at h4
  cases h4
  unfold ioInitialData at h2
  rw [if_pos start] at h2
  obtain ⟨d, _, h2⟩ := bind_ok h2
  cases h2
  refine ⟨h5, ?_⟩
  intro i j k idx hi hj hk h
  have := h6 i j k idx hi hj hk h
  cases pe with
  | none => exact this
  | some e => exact this

/-- C65, decoupled solvers: the same, and the forces are zero. -/
theorem C65_decoupled {s : IBState K} {nu : K} {es : List (Expr K)} {pe : Option (Expr K)}
    (S : IBStarted debug L G axes T B P (some ⟨some nu, some es, pe⟩) bodies kernel window ops ib disk s disk')
    (enough : L.dim ≤ es.length) (few : es.length ≤ 4) (start : P.nstart = 0) :
    InitialVelocity L G nu es s.ns.U ∧ InitialPressure L G nu (pe.getD fun _ _ _ _ _ => 0) s.ns.p ∧ ∀ i, s.f i = 0 := by
  obtain ⟨h1, h2⟩ := C65_initial_state S.started enough few start
  refine ⟨h1, h2, ?_⟩
  obtain ⟨s₀, h1, h2⟩ := S.init
  obtain ⟨⟨ops', ns⟩, h3, h1⟩ := bind_ok h1
  obtain ⟨idx, h4, h1⟩ := bind_ok h1
  obtain ⟨ib', h5, h1⟩ := bind_ok h1
  cases h1
  obtain ⟨_, _, _, _, rfl⟩ := solverInit_ok h3
  unfold decoupledIoInitialData at h2
  rw [if_pos start] at h2
  obtain ⟨d, _, h2⟩ := bind_ok h2
  cases h2
  intro i
  rfl

/-- C65, coupled solver. The velocity is the configured one. The pressure is zero whatever the configuration says: it is the configured
one if there is no expression for it. The file of step 0 holds these fields. Missing: the configured pressure, see `C65_false_pressure`. -/
theorem C65_coupled_partial {s : NSState K} {nu : K} {es : List (Expr K)} {pe : Option (Expr K)}
    (S : CoupledStarted debug L G axes T B P (some ⟨some nu, some es, pe⟩) bodies kernel window ops disk s disk')
    (enough : L.dim ≤ es.length) (few : es.length ≤ 4) (start : P.nstart = 0) :
    InitialVelocity L G nu es s.U ∧ InitialPressure L G nu (fun _ _ _ _ _ => 0) (subPressure (nestCounts L bodies) s.p) ∧
      (∀ i, subForces (nestCounts L bodies) s.p i = 0) ∧
      ∃ file, disk' = Function.update disk (stepPath P.output 0) (some file) ∧
        SolutionIn L file { s with p := subPressure (nestCounts L bodies) s.p } := by
  obtain ⟨s₀, ⟨E, H⟩, h1, h2⟩ := S.init
  obtain ⟨⟨U, p⟩, h3, h1⟩ := bind_ok h1
  obtain ⟨⟨ops', E', H'⟩, h4, h1⟩ := bind_ok h1
  cases h1
  obtain ⟨V, q, h4, h5, h6, _⟩ := C56_initial_conditions S.constructed.setup.layout G nu es pe enough few (fun _ => 0) fun _ => 0
  rw [h3] at h4
  cases h4
  unfold ibpmIoInitialData at h2
  rw [if_pos start] at h2
  obtain ⟨d, h7, h2⟩ := bind_ok h2
  cases h2
  refine ⟨h5, ?_, ?_, ?_⟩
  · intro i j k idx _ _ _ _
    unfold subPressure
    split_ifs <;> rfl
  · intro i
    unfold subForces
    split_ifs <;> rfl
  · obtain ⟨file, h8, h9⟩ := writeSolution_spec S.constructed.setup.layout
      { U := U, p := subPressure (nestCounts L bodies) fun _ => 0, dP := fun _ => 0, conv := List.replicate P.conv.nExplicit fun _ => 0,
        diff := List.replicate P.diff.nExplicit fun _ => 0, B := fun r => (B r).setGhostICs U, loc := fun _ _ _ => 0, t := P.t, ite := P.nstart }
      disk (stepPath P.output P.nstart)
    refine ⟨file, ?_, h9⟩
    unfold ibpmWriteSolution at h7
    rw [← start]
    exact Except.ok.inj (h7.symm.trans h8)

end

/-! ### Total force -/

/-- a sum over the rows of one component as a sum over bodies and points -/
theorem sum_component {bodies : BodyPack ℝ} (hP : PackOK bodies) {f : ℕ} (hf : f < bodies.dim) (F χ : ℤ → ℝ)
    (hχ : ∀ u row, IsLagDof bodies u → bodies.getPackedGlobalIndex u.body u.point u.comp = .ok row → χ row = if u.comp = f then 1 else 0) :
    ∑ k ∈ Finset.range (bodies.nPts * bodies.dim), F k * χ k =
      -∑ b ∈ Finset.range bodies.bodies.length, ((bodies.calculateAvgForces F).getD b []).getD f 0 := by
  classical
  obtain ⟨bij1, bij2, _⟩ := C31_packed_index_bijective bodies hP
  have hdof : ∀ (b i : ℕ) (x : SingleBody ℝ), bodies.bodies[b]? = some x → i < x.nPts → ∃ r, IsLagDof bodies ⟨r, b, i, f⟩ := by
    intro b i x hx hi
    obtain ⟨r, ⟨hr, ho, _⟩, _⟩ := C31_owner bodies hP b i x hx hi
    exact ⟨r, hf, hr, x, hx, hi, ho⟩
  let n : ℕ → ℕ := fun b => (bodies.bodies.getD b ⟨0, 0, [], []⟩).nPts
  have hn : ∀ b x, bodies.bodies[b]? = some x → n b = x.nPts := by
    intro b x hx
    simp only [n, List.getD_eq_getElem?_getD, hx, Option.getD_some]
  let e : (Σ _ : ℕ, ℕ) → ℕ := fun p => match bodies.getPackedGlobalIndex p.1 p.2 f with
    | .ok i => i.toNat
    | .error _ => 0
  have he : ∀ (b i : ℕ) (x : SingleBody ℝ), bodies.bodies[b]? = some x → i < x.nPts → bodies.getPackedGlobalIndex b i f = .ok (e ⟨b, i⟩ : ℤ) ∧
      e ⟨b, i⟩ < bodies.nPts * bodies.dim := by
    intro b i x hx hi
    obtain ⟨r, hr⟩ := hdof b i x hx hi
    obtain ⟨idx, h1, h2, h3⟩ := bij1 _ hr
    have : e ⟨b, i⟩ = idx.toNat := by simp only [e]; rw [h1]
    rw [this, h1, mul_comm]
    exact ⟨by rw [Int.toNat_of_nonneg h2], by omega⟩
  have havg : ∀ b, b < bodies.bodies.length → ((bodies.calculateAvgForces F).getD b []).getD f 0 =
      -∑ i ∈ Finset.range (n b), F (e ⟨b, i⟩) := by
    intro b hb
    have hx : bodies.bodies[b]? = some bodies.bodies[b] := List.getElem?_eq_getElem hb
    obtain ⟨l, h1, h2⟩ := C32_force bodies hP F b f _ hx hf (fun i => F (e ⟨b, i⟩))
      (fun i hi => ⟨_, (he b i _ hx hi).1, rfl⟩)
    simp only [List.getD_eq_getElem?_getD, h1, Option.getD_some, h2, hn b _ hx]
    rfl
  rw [Finset.sum_congr rfl fun b hb => havg b (Finset.mem_range.1 hb), Finset.sum_neg_distrib, neg_neg,
    Finset.sum_sigma' (Finset.range bodies.bodies.length) (fun b => Finset.range (n b)) (fun b i => F (e ⟨b, i⟩))]
  symm
  have hmem : ∀ p ∈ (Finset.range bodies.bodies.length).sigma fun b => Finset.range (n b), ∃ x, bodies.bodies[p.1]? = some x ∧ p.2 < x.nPts := by
    intro p hp
    rw [Finset.mem_sigma, Finset.mem_range, Finset.mem_range] at hp
    have hx : bodies.bodies[p.1]? = some (bodies.bodies[p.1]'hp.1) := List.getElem?_eq_getElem hp.1
    exact ⟨_, hx, hn _ _ hx ▸ hp.2⟩
  refine Finset.sum_of_injOn e ?_ ?_ ?_ ?_
  · rintro ⟨b, i⟩ hp ⟨b', i'⟩ hp' h
    obtain ⟨x, hx, hi⟩ := hmem _ hp
    obtain ⟨x', hx', hi'⟩ := hmem _ hp'
    obtain ⟨r, hr⟩ := hdof b i x hx hi
    obtain ⟨r', hr'⟩ := hdof b' i' x' hx' hi'
    have h1 := he b i x hx hi
    have h2 := he b' i' x' hx' hi'
    rw [← h] at h2
    have := (bij2 (e ⟨b, i⟩) (by omega) (by rw [mul_comm]; exact_mod_cast h1.2)).unique ⟨hr, h1.1⟩ ⟨hr', h2.1⟩
    cases this
    rfl
  · rintro ⟨b, i⟩ hp
    obtain ⟨x, hx, hi⟩ := hmem _ hp
    exact Finset.mem_coe.2 (Finset.mem_range.2 (he b i x hx hi).2)
  · intro k hk hne
    obtain ⟨⟨r, b, i, d⟩, ⟨hu, hu'⟩, _⟩ := bij2 k (by omega) (by rw [mul_comm]; exact_mod_cast Finset.mem_range.1 hk)
    rw [hχ _ _ hu hu']
    by_cases hd : d = f
    · subst hd
      exfalso
      apply hne
      obtain ⟨_, _, x, hx, hi, _⟩ := hu
      simp only at hx hi hu'
      refine ⟨⟨b, i⟩, ?_, ?_⟩
      · rw [Finset.mem_coe, Finset.mem_sigma, Finset.mem_range, Finset.mem_range]
        exact ⟨(List.getElem?_eq_some_iff.1 hx).1, (hn b x hx).symm ▸ hi⟩
      · have := (he b i x hx hi).1
        rw [hu'] at this
        exact_mod_cast (Except.ok.inj this).symm
    · rw [if_neg hd, mul_zero]
  · rintro ⟨b, i⟩ hp
    obtain ⟨x, hx, hi⟩ := hmem _ hp
    obtain ⟨r, hr⟩ := hdof b i x hx hi
    rw [hχ _ _ hr (he b i x hx hi).1, if_pos rfl, mul_one]

/-- the entries of `meshIdx` -/
theorem meshIdxAt_spec {K : Type} [Field K] [LinearOrder K] {L : Layout} {axes : ℕ → Axis K} {bodies : BodyPack K}
    {idx : List (List (List (List ℤ)))} (procs : bodies.mpiSize = L.mpiSize) (hidx : bodies.updateMeshIdx axes = .ok idx) :
    ∀ (r b : ℕ) (body : SingleBody K), r < L.mpiSize → bodies.bodies[b]? = some body → body.updateMeshIdx axes r = .ok (meshIdxAt idx r b) := by
  intro r b body hr hb
  obtain ⟨l, h1, h2⟩ := (mapM_except_getElem? hidx r).1 r (List.getElem?_range (by rw [procs]; exact hr))
  obtain ⟨y, h3, h4⟩ := (mapM_except_getElem? h2 b).1 body hb
  rw [h4]
  unfold meshIdxAt
  simp only [List.getD_eq_getElem?_getD, h1, Option.getD_some, h3]

/-- C64, the part that holds, for the solvers: if every process has a point of every body, the delta operator of bodies inside the domain
exists; with periodic directions, if the window of the kernel does not reach over an end. Missing: as in C64. -/
theorem C64_operator_partial {K : Type} [Field K] [LinearOrder K] [IsStrictOrderedRing K] {debug : Bool} {L : Layout} {G : Geom K}
    {axes : ℕ → Axis K} {T : BCTable K} {B : ℕ → Boundary K} (C : Constructed debug L G axes T B)
    {bodies : BodyPack K} (fit : BodiesOK L bodies) {w : ℕ} (hroom : (∀ d, d < L.dim → L.periodic 0 d = false) ∨
      ∀ body ∈ bodies.bodies, ∀ i p, i < body.nPts → body.coords[i]? = some p → WindowInside L axes w p)
    (hin : ∀ body ∈ bodies.bodies, ∀ i, i < body.nPts → ∃ p : List K, body.coords[i]? = some p ∧ ∀ d, d < L.dim →
      ∃ x, p[d]? = some x ∧ (axes d).min < x ∧ x < (axes d).max)
    (hown : ∀ (r : ℕ) (body : SingleBody K), r < L.mpiSize → body ∈ bodies.bodies → ∃ i, OwnsPoint body r i)
    {kernel : DeltaKernel K} (hk : ∀ r h : K, 0 < h → ∃ v, kernel r h = .ok v) :
    ∃ Δ, IsDelta debug L axes B bodies kernel w Δ := by
  have key : ∀ (r : ℕ) (body : SingleBody K), ∃ idx, body ∈ bodies.bodies → body.updateMeshIdx axes r = .ok idx := by
    intro r body
    by_cases hbm : body ∈ bodies.bodies
    · have hbd : body.dim = L.dim := (fit.pack.dim _ hbm).trans fit.dim
      obtain ⟨idx, h, _⟩ := C33_body axes body (fun d hd => C.setup.axesOK d (by omega)) r (by
        intro i hi
        obtain ⟨p, hp, h⟩ := hin body hbm i (by rw [← fit.pack.points _ hbm]; exact lt_of_lt_of_le hi.2 (sum_take_le _ _))
        exact ⟨p, hp, fun d hd => h d (by omega)⟩)
      exact ⟨idx, fun _ => h⟩
    · exact ⟨[], fun h => absurd h hbm⟩
  choose g hg using key
  have h1 : bodies.updateMeshIdx axes = .ok ((List.range bodies.mpiSize).map fun r => bodies.bodies.map (g r)) :=
    mapM_ok _ fun r _ => mapM_ok _ fun body hb => hg r body hb
  obtain ⟨Δ, h2⟩ := createDelta_total C [] fit.pack fit.dim fit.procs (meshIdxAt_spec fit.procs h1) (fun r body hr hb => by
    obtain ⟨i, hi⟩ := hown r body hr hb
    have := ownsPoint_iff.1 hi
    unfold SingleBody.nLclPts
    omega) hk hroom
  exact ⟨Δ, _, h1, h2⟩

/-- C28, C44. With both kernels, for bodies in a region where the grid is uniform: the value of an affine field which the
constraint uses at a point of a body is the value of the field there. -/
theorem C28_constraint {debug : Bool} {L : Layout} {G : Geom ℝ} {axes : ℕ → Axis ℝ} {T : BCTable ℝ} {B : ℕ → Boundary ℝ}
    (C : Constructed debug L G axes T B) {bodies : BodyPack ℝ} (fit : BodiesOK L bodies) {name : String} {s : ℝ} (hs : Support name s)
    {kernel : DeltaKernel ℝ} {size : ℤ} (hk : getKernel name = .ok (kernel, size)) {Δ : Mat ℝ}
    (hΔ : IsDelta debug L axes B bodies kernel size.toNat Δ) {h : ℕ → ℝ} (hh : ∀ d, d < L.dim → 0 < h d)
    (hu : NearUniform L axes bodies h s size.toNat) {vol : ℤ → ℝ} (hvol : IsVolume debug L G vol) {b : ℕ} {body : SingleBody ℝ}
    (hb : bodies.bodies[b]? = some body) {i : ℕ} (hi : i < body.nPts) {X : List ℝ} (hX : body.coords[i]? = some X) {f : ℕ}
    (hf : f < L.dim) {row : ℤ} (hrow : bodies.getPackedGlobalIndex b i f = .ok row) (a : ℝ) (g : ℕ → ℝ) (q : ℤ → ℝ)
    (hq : ∀ (st : Stencil) (c : ℤ), Inside L.toMeshInfo f st → L.getPackedGlobalIndex debug f st = .ok c →
      q c = a + ∑ d ∈ Finset.range L.dim, g d * G.coord f d (coordOf st d)) :
    interpolated L.UN Δ vol q row = a + ∑ d ∈ Finset.range L.dim, g d * X.getD d 0 := by
  obtain ⟨idx, hidx, hD⟩ := hΔ
  have hidx' := meshIdxAt_spec fit.procs hidx
  have hm := List.mem_of_getElem? hb
  have hreg : ∀ i p d x, i < body.nPts → body.coords[i]? = some p → d < L.dim → p[d]? = some x →
      LocallyUniform (axes d) (h d) size.toNat x ∧
      ((∀ e, e < L.dim → L.periodic 0 e = false) ∧ AwayFromEnds (axes d) (s * h d) x ∨
        AwayFromEnds (axes d) ((size.toNat + 2) * h d) x) := by
    intro i p d x hi hp hd hx
    obtain ⟨p', hp', h'⟩ := hu body hm i hi
    rw [hp] at hp'
    cases hp'
    obtain ⟨x', hx', h'⟩ := h' d hd
    rw [hx] at hx'
    cases hx'
    exact h'
  rw [← C28_interpolation C [] fit.pack fit.dim fit.procs hidx' hs hk hD hb hh hreg hi hX hf hrow a g q hq,
    ← delta_volume C [] fit.pack fit.dim fit.procs hidx' hs hk hD hb hh hreg hi hX hf hrow hvol q]
  unfold interpolated Mat.mult
  exact Finset.sum_congr rfl fun c _ => by ring

/-- C55. With both kernels, for bodies in a region where the grid is uniform: in every direction `f` the sum over the grid of the
spread force times the volume of the cell is the total force of the bodies on the fluid, that is, minus the sum of the forces
reported for the bodies. -/
theorem C55_total_force {debug : Bool} {L : Layout} {G : Geom ℝ} {axes : ℕ → Axis ℝ} {T : BCTable ℝ} {B : ℕ → Boundary ℝ}
    (C : Constructed debug L G axes T B) {bodies : BodyPack ℝ} (fit : BodiesOK L bodies) {name : String} {s : ℝ} (hs : Support name s)
    {kernel : DeltaKernel ℝ} {size : ℤ} (hk : getKernel name = .ok (kernel, size)) {Δ : Mat ℝ}
    (hΔ : IsDelta debug L axes B bodies kernel size.toNat Δ) {h : ℕ → ℝ} (hh : ∀ d, d < L.dim → 0 < h d)
    (hu : NearUniform L axes bodies h s size.toNat) {vol : ℤ → ℝ} (hvol : IsVolume debug L G vol) {f : ℕ} (hf : f < L.dim) {q : ℤ → ℝ}
    (hq : IsComponent debug L f q) (F : ℤ → ℝ) :
    ∑ c ∈ Finset.range L.UN, vol c * q c * spread (bodies.nPts * bodies.dim) Δ F c =
      -∑ b ∈ Finset.range bodies.bodies.length, ((bodies.calculateAvgForces F).getD b []).getD f 0 := by
  have hdim : f < bodies.dim := by rw [fit.dim]; exact hf
  rw [spread_adjoint, sum_component fit.pack hdim F (interpolated L.UN Δ vol q)]
  rintro ⟨r, b, i, d⟩ row ⟨hd, hr, body, hb, hi, ho⟩ hrow
  simp only at hd hr hb hi ho hrow ⊢
  have hd' : d < L.dim := by rw [← fit.dim]; exact hd
  obtain ⟨X, hX, _⟩ := hu body (List.mem_of_getElem? hb) i hi
  rw [C28_constraint C fit hs hk hΔ hh hu hvol hb hi hX hd' hrow (if d = f then 1 else 0) (fun _ => 0) q
    (fun st c hst hc => by rw [hq d st c hd' hst hc]; simp)]
  simp

/-! ### Examples -/

/-- `n` steps. -/
def steps {S : Type} (f : S → Except Error S) : ℕ → S → Except Error S
  | 0, s => .ok s
  | n + 1, s => match f s with
    | .ok t => steps f n t
    | .error e => .error e

theorem steps_ok {S : Type} {f : S → Except Error S} {n : ℕ} {s t : S} (h : steps f n s = .ok t) :
    ∃ x : ℕ → S, x 0 = s ∧ x n = t ∧ ∀ k, k < n → f (x k) = .ok (x (k + 1)) := by
  induction n generalizing s with
  | zero => exact ⟨fun _ => s, rfl, Except.ok.inj h, fun k hk => by omega⟩
  | succ n ih =>
    unfold steps at h
    cases hf : f s with
    | error e => rw [hf] at h; cases h
    | ok u =>
      rw [hf] at h
      obtain ⟨x, h0, hn, hx⟩ := ih h
      refine ⟨fun k => if k = 0 then s else x (k - 1), rfl, by simpa using hn, ?_⟩
      intro k hk
      rcases k with _ | k
      · simpa [h0] using hf
      · simpa using hx k (by omega)

/-- Row reduction of the augmented matrix `rows`; `used` are the reduced rows with their pivot columns. -/
def reduceRows : List ℕ → List (List ℚ) → List (ℕ × List ℚ) → List (ℕ × List ℚ)
  | [], _, used => used
  | c :: cs, rows, used =>
    match rows.find? fun r => r.getD c 0 ≠ 0 with
    | none => reduceRows cs rows used
    | some r =>
      let r := r.map fun a => a / r.getD c 0
      let elim := fun (v : List ℚ) => List.zipWith (fun a b => a - v.getD c 0 * b) v r
      reduceRows cs ((rows.map elim).filter fun v => v.any (· ≠ 0)) ((c, r) :: used.map fun p => (p.1, elim p.2))

/-- A direct solver that verifies its result. -/
def gaussSolve (N : ℕ) : LinSolve ℚ := fun A _ b =>
  let rows := (List.range N).map fun i : ℕ => (List.range N).map (fun j : ℕ => A i j) ++ [b i]
  let used := reduceRows (List.range N) rows []
  let x : List ℚ := (List.range N).map fun j => match used.find? fun p => p.1 = j with
    | some p => p.2.getD N 0
    | none => 0
  let xv : ℤ → ℚ := fun i => x.getD i.toNat 0
  if ∀ i ∈ List.range N, Mat.mult N A xv i = b i then .ok xv else .error .exception

theorem gaussSolve_exact (N : ℕ) (A : Mat ℚ) : Solves N (gaussSolve N) A := by
  intro g b x h i h0 h1
  unfold gaussSolve at h
  simp only at h
  split_ifs at h with hc
  have := Except.ok.inj h
  subst this
  obtain ⟨n, rfl⟩ := Int.eq_ofNat_of_zero_le h0
  exact hc n (List.mem_range.2 (by omega))

/-- Flow through the domain from left to right. -/
def throughTable : BCTable ℚ := fun f b => if f = 0 ∧ b < 2 then (.DIRICHLET, 1) else (.DIRICHLET, 0)

abbrev throughB : ℕ → Boundary ℚ := boundaries true twoByTwo tailGeom throughTable

def pointPack : BodyPack ℚ := ⟨2, 1, [⟨2, 1, [[5/4, 3/4]], [1]⟩]⟩

theorem through_constructed : Constructed true twoByTwo tailGeom twoAxes throughTable throughB := by
  apply constructed_boundaries
  apply C57_construction true (Or.inl rfl) _ (fun _ _ _ _ => rfl) (fun _ _ => by decide)
  · intro f d hf hd
    rcases hf with hf | rfl
    · interval_cases d <;> interval_cases f <;> decide
    · interval_cases d <;> decide
  · intro f loc _ _; unfold throughTable; split_ifs <;> simp
  · intro f loc _ _; unfold throughTable; split_ifs <;> simp
  · intro d _
    exact ⟨by simp [twoAxes], by simp [twoAxes], by norm_num [twoAxes]⟩

theorem pointPack_ok : BodiesOK twoByTwo pointPack := ⟨by constructor <;> simp [pointPack], rfl, rfl⟩

theorem pick {α : Type} {x : Except Error α} (h : x.toOption.isSome = true) : ∃ a, x = .ok a := by
  cases x with
  | error e => cases h
  | ok a => exact ⟨a, rfl⟩

/-- Viscosity one, vertical initial velocity, initial pressure `pe`. -/
def pushedFlow (pe : Option (Expr ℚ)) : FlowNode ℚ := ⟨some 1, some [fun _ _ _ _ _ => 0, fun _ _ _ _ _ => 1], pe⟩

/-- The decoupled solver with one point in the flow, initialised, and two steps. -/
def decoupledExample : Except Error (NSOps ℚ × IBOps ℚ × IBState ℚ × IBState ℚ) := do
  let (ops, ib, s) ← decoupledInit true twoByTwo tailGeom twoAxes tailParams (some (pushedFlow none)) throughB pointPack hatKernel 1
  let t ← steps (decoupledAdvance twoByTwo tailGeom tailParams ops ib none (gaussSolve 4) (gaussSolve 2) (gaussSolve 4)) 2 s
  return (ops, ib, s, t)

theorem decoupledExample_ok : decoupledExample.toOption.isSome = true := by decide +kernel

theorem decoupled_runs : ∃ ops ib s disk' x, IBStarted true twoByTwo tailGeom twoAxes throughTable throughB tailParams (some (pushedFlow none)) pointPack
      hatKernel 1 ops ib (fun _ => none) s disk' ∧ x 0 = s ∧
    IBTrajectory twoByTwo tailGeom tailParams ops ib (gaussSolve 4) (gaussSolve 2) (gaussSolve 4) x 2 ∧ ib.nF = 2 ∧
    Solves ib.nF (gaussSolve 2) ib.EBNH ∧ Solves twoByTwo.pN (gaussSolve 4) ops.DBNG ∧ tailParams.pType = .ksp ∧ tailParams.nstart = 0 := by
  obtain ⟨⟨ops, ib, s, t⟩, h⟩ := pick decoupledExample_ok
  obtain ⟨⟨ops', ib', s'⟩, h1, h⟩ := bind_ok h
  obtain ⟨t', h2, h⟩ := bind_ok h
  cases h
  obtain ⟨x, x0, _, hx⟩ := steps_ok h2
  have hi : s.ns.ite = 0 := by
    obtain ⟨⟨ops', ns⟩, h3, h1⟩ := bind_ok h1
    obtain ⟨idx, h4, h1⟩ := bind_ok h1
    obtain ⟨ib', h5, h1⟩ := bind_ok h1
    cases h1
    obtain ⟨_, _, _, _, rfl⟩ := solverInit_ok h3
    rfl
  obtain ⟨file, hf, _⟩ := writeSolution_spec through_constructed.setup.layout s.ns (fun _ => none) (stepPath tailParams.output s.ns.ite)
  have S : IBStarted true twoByTwo tailGeom twoAxes throughTable throughB tailParams (some (pushedFlow none)) pointPack
      hatKernel 1 ops ib (fun _ => none) s (Function.update (fun _ => none) (stepPath tailParams.output s.ns.ite) (some file)) := by
    refine ⟨through_constructed, ⟨false, "out", some tailNode, rfl⟩, pointPack_ok, s, h1, ?_⟩
    unfold decoupledIoInitialData
    rw [if_pos hi, hf]
    rfl
  obtain ⟨_, _, hn, _⟩ := C55_adjoint S
  refine ⟨ops, ib, s, _, x, S, x0, hx, hn, ?_, gaussSolve_exact _ _, rfl, rfl⟩
  rw [hn]
  exact gaussSolve_exact _ _

/-- C44, C55, C65, decoupled: the hypotheses hold in a flow through the domain with one point, two steps, all systems solved exactly. -/
example : ∃ ops ib s disk' x, IBStarted true twoByTwo tailGeom twoAxes throughTable throughB tailParams (some (pushedFlow none)) pointPack
      hatKernel 1 ops ib (fun _ => none) s disk' ∧ x 0 = s ∧
    IBTrajectory twoByTwo tailGeom tailParams ops ib (gaussSolve 4) (gaussSolve 2) (gaussSolve 4) x 2 ∧ ib.nF = 2 ∧
    Solves ib.nF (gaussSolve 2) ib.EBNH ∧ Solves twoByTwo.pN (gaussSolve 4) ops.DBNG ∧ tailParams.pType = .ksp ∧ tailParams.nstart = 0 :=
  decoupled_runs

/-- A point that moves upwards. -/
def risingMotion : Motion ℚ where
  coordinates := fun t P => { P with bodies := P.bodies.map fun b => { b with coords := b.coords.map fun _ => [5/4, 3/4 + t / 8] } }
  velocity := fun _ _ UB => fun i => if i = 1 then 1 / 8 else UB i

def rigidExample : Except Error (NSOps ℚ × RigidState ℚ × RigidState ℚ) := do
  let (ops, ib, s) ← decoupledInit true twoByTwo tailGeom twoAxes tailParams (some (pushedFlow none)) throughB pointPack hatKernel 1
  let s : RigidState ℚ := { toIBState := s, bodies := pointPack, UB := fun _ => 0, ib := ib }
  let t ← steps (rigidAdvance true twoByTwo tailGeom twoAxes tailParams ops risingMotion hatKernel 1 (gaussSolve 4) (gaussSolve 2) (gaussSolve 4)) 2 s
  return (ops, s, t)

theorem rigidExample_ok : rigidExample.toOption.isSome = true := by decide +kernel

theorem risingMotion_ok (t : ℚ) (b : BodyPack ℚ) (h : BodiesOK twoByTwo b) : BodiesOK twoByTwo (risingMotion.coordinates t b) := by
  refine ⟨⟨h.pack.dim_pos, ?_, ?_, ?_⟩, h.dim, h.procs⟩ <;> intro x hx <;> obtain ⟨y, hy, rfl⟩ := List.mem_map.1 hx
  · exact h.pack.dim y hy
  · exact h.pack.procs y hy
  · exact h.pack.points y hy

/-- C44: the point rises with velocity 1/8 through the flow. -/
theorem rigid_runs : ∃ ops s disk' x, RigidStarted true twoByTwo tailGeom twoAxes throughTable throughB tailParams (some (pushedFlow none)) pointPack
      risingMotion hatKernel 1 ops (fun _ => none) s disk' ∧ x 0 = s ∧
    RigidTrajectory true twoByTwo tailGeom twoAxes tailParams ops risingMotion hatKernel 1 (gaussSolve 4) (gaussSolve 2) (gaussSolve 4) x 2 ∧
    (x 1).ib.nF = 2 ∧ ∀ A, Solves (x 1).ib.nF (gaussSolve 2) A := by
  obtain ⟨⟨ops, s, t⟩, h⟩ := pick rigidExample_ok
  obtain ⟨⟨ops', ib', s'⟩, h1, h⟩ := bind_ok h
  obtain ⟨t', h2, h⟩ := bind_ok h
  cases h
  obtain ⟨x, x0, _, hx⟩ := steps_ok h2
  have hi : s'.ns.ite = 0 := by
    obtain ⟨⟨ops', ns⟩, h3, h1⟩ := bind_ok h1
    obtain ⟨idx, h4, h1⟩ := bind_ok h1
    obtain ⟨ib', h5, h1⟩ := bind_ok h1
    cases h1
    obtain ⟨_, _, _, _, rfl⟩ := solverInit_ok h3
    rfl
  obtain ⟨file, hf, _⟩ := writeSolution_spec through_constructed.setup.layout s'.ns (fun _ => none) (stepPath tailParams.output s'.ns.ite)
  have S : IBStarted true twoByTwo tailGeom twoAxes throughTable throughB tailParams (some (pushedFlow none)) pointPack
      hatKernel 1 ops ib' (fun _ => none) s' (Function.update (fun _ => none) (stepPath tailParams.output s'.ns.ite) (some file)) := by
    refine ⟨through_constructed, ⟨false, "out", some tailNode, rfl⟩, pointPack_ok, s', h1, ?_⟩
    unfold decoupledIoInitialData
    rw [if_pos hi, hf]
    rfl
  have hn : (x 1).ib.nF = 2 := by
    obtain ⟨e1, _, ⟨idx, _, e4⟩, _⟩ := rigid_ok (hx 0 (by omega))
    obtain ⟨_, _, e5⟩ := bind_ok e4
    obtain ⟨_, _, e5⟩ := bind_ok e5
    have e5 := Except.ok.inj e5
    rw [← e5, e1, x0]
    rfl
  refine ⟨ops, _, _, x, ⟨S, rfl, rfl, risingMotion_ok⟩, x0, hx, hn, fun A => ?_⟩
  rw [hn]
  exact gaussSolve_exact _ _

/-- The coupled solver, two steps. -/
def coupledExample (pe : Option (Expr ℚ)) : Except Error ((NSOps ℚ × Mat ℚ × Mat ℚ) × NSState ℚ × NSState ℚ) := do
  let (ops, s) ← ibpmInit true twoByTwo tailGeom twoAxes tailParams (some (pushedFlow pe)) throughB pointPack hatKernel 1
  let t ← steps (ibpmAdvance twoByTwo tailGeom tailParams (nestCounts twoByTwo pointPack) ops.1 (gaussSolve 4) (gaussSolve 6)) 2 s
  return (ops, s, t)

theorem coupled_runs (pe : Option (Expr ℚ)) (h : (coupledExample pe).toOption.isSome = true) :
    ∃ ops s disk' x, CoupledStarted true twoByTwo tailGeom twoAxes throughTable throughB tailParams (some (pushedFlow pe)) pointPack
      hatKernel 1 ops (fun _ => none) s disk' ∧ x 0 = s ∧
    CoupledTrajectory twoByTwo tailGeom tailParams (nestCounts twoByTwo pointPack) ops (gaussSolve 4) (gaussSolve 6) x 2 ∧
    Solves ops.pN (gaussSolve 6) ops.DBNG := by
  obtain ⟨⟨⟨ops, E, H⟩, s, t⟩, h⟩ := pick h
  obtain ⟨⟨⟨ops', E', H'⟩, s'⟩, h1, h⟩ := bind_ok h
  obtain ⟨t', h2, h⟩ := bind_ok h
  cases h
  obtain ⟨x, x0, _, hx⟩ := steps_ok h2
  have hi : s.ite = 0 ∧ ops.pN = 6 := by
    obtain ⟨⟨U, p⟩, h3, h1⟩ := bind_ok h1
    obtain ⟨⟨ops', E', H'⟩, h4, h1⟩ := bind_ok h1
    cases h1
    obtain ⟨D, Dm, Gr, La, Lm, BN, idx, _, _, _, _, _, _, e⟩ := ibpmCreate_ok h4
    exact ⟨rfl, by rw [e]; rfl⟩
  obtain ⟨file, hf, _⟩ := writeSolution_spec through_constructed.setup.layout { s with p := subPressure (nestCounts twoByTwo pointPack) s.p }
    (fun _ => none) (stepPath tailParams.output s.ite)
  refine ⟨ops, s, Function.update (fun _ => none) (stepPath tailParams.output s.ite) (some file), x, ⟨through_constructed, ⟨false, "out", some tailNode, rfl⟩, pointPack_ok, s, (E, H), h1, ?_⟩, x0, hx, ?_⟩
  · unfold ibpmIoInitialData ibpmWriteSolution
    rw [if_pos hi.1, hf]
    rfl
  · rw [hi.2]; exact gaussSolve_exact _ _

/-- C44, C55: the coupled solver in the same flow. -/
example : ∃ ops s disk' x, CoupledStarted true twoByTwo tailGeom twoAxes throughTable throughB tailParams (some (pushedFlow none)) pointPack
      hatKernel 1 ops (fun _ => none) s disk' ∧ x 0 = s ∧
    CoupledTrajectory twoByTwo tailGeom tailParams (nestCounts twoByTwo pointPack) ops (gaussSolve 4) (gaussSolve 6) x 2 ∧
    Solves ops.pN (gaussSolve 6) ops.DBNG :=
  coupled_runs none (by decide +kernel)

/-- C65 is false for the coupled solver: `createVectors` exchanges `pGlobal`, which holds the initial pressure, by a new vector of
pressure and forces and frees the old values (`ibpm.cpp` 206-239). A configured pressure of 7 is zero in the first step. -/
theorem C65_false_pressure : ∃ (B : ℕ → Boundary ℚ) (ops : NSOps ℚ) (s : NSState ℚ) (disk disk' : Disk ℚ),
    CoupledStarted true twoByTwo tailGeom twoAxes throughTable B tailParams (some (pushedFlow (some fun _ _ _ _ _ => 7))) pointPack
      hatKernel 1 ops disk s disk' ∧
    ¬ InitialPressure twoByTwo tailGeom 1 (fun _ _ _ _ _ => 7) (subPressure (nestCounts twoByTwo pointPack) s.p) ∧
    subPressure (nestCounts twoByTwo pointPack) s.p 0 = 0 := by
  obtain ⟨ops, s, disk', x, S, _⟩ := coupled_runs (some fun _ _ _ _ _ => 7) (by decide +kernel)
  obtain ⟨_, h, _⟩ := C65_coupled_partial S (by decide) (by decide) rfl
  have h0 := h 0 0 0 0 (by decide) (by decide) (by decide) (by decide)
  refine ⟨_, ops, s, _, disk', S, ?_, h0⟩
  intro h7
  have h1 := h7 0 0 0 0 (by decide) (by decide) (by decide) (by decide)
  rw [h0] at h1
  norm_num at h1

/-- C55, C28: the hypotheses of the statements about total force hold for the body of C28. -/
example : ∃ (B : ℕ → Boundary ℝ) (Δ : Mat ℝ), Constructed true deltaLayout (meshGeom 2 deltaAxes fun _ _ => false) deltaAxes (fun _ _ => (.DIRICHLET, 0)) B ∧
    BodiesOK deltaLayout deltaPack ∧ getKernel "ROMA_ET_AL_1999" = .ok (romaEtAl1999, 2) ∧ IsDelta true deltaLayout deltaAxes B deltaPack romaEtAl1999 2 Δ ∧
    NearUniform deltaLayout deltaAxes deltaPack (fun _ => 1) (3 / 2) 2 := by
  obtain ⟨B, hB⟩ := deltaLayout_constructed
  have fit : BodiesOK deltaLayout deltaPack := ⟨deltaPack_ok, rfl, rfl⟩
  obtain ⟨Δ, hΔ⟩ := C64_operator_partial hB fit (w := 2) (Or.inl fun _ _ => rfl)
    (fun body hb i hi => by
      obtain ⟨p, hp, h⟩ := deltaPack_points body hb i hi
      refine ⟨p, hp, fun d hd => ?_⟩
      obtain ⟨x, hx, h1, h2, _⟩ := h d hd
      exact ⟨x, hx, by simp only [deltaAxes]; linarith, by simp only [deltaAxes]; linarith⟩)
    (fun r body hr hb => by
      obtain rfl : body = ⟨2, 2, [[7/2, 4], [17/4, 9/2]], [1, 1]⟩ := by simpa [deltaPack] using hb
      change r < 2 at hr
      interval_cases r
      · exact ⟨0, by unfold OwnsPoint; decide⟩
      · exact ⟨1, by unfold OwnsPoint; decide⟩)
    (kernel := romaEtAl1999) (fun r h hh => by obtain ⟨φ, q, _⟩ := C27_roma h hh; exact ⟨_, q r⟩)
  refine ⟨B, Δ, hB, fit, by simp [getKernel], hΔ, ?_⟩
  intro body hb i hi
  obtain ⟨p, hp, h⟩ := deltaPack_points body hb i hi
  refine ⟨p, hp, fun d hd => ?_⟩
  obtain ⟨x, hx, h1, h2, h3⟩ := h d hd
  exact ⟨x, hx, h3, Or.inl ⟨fun _ _ => rfl, by simp only [deltaAxes]; linarith, by simp only [deltaAxes]; linarith⟩⟩

end PetIBM
