/-
C91, C92: energy of the steps of the solvers with bodies at rest.
-/
import Verif.Spec.EnergyBodies
import Verif.Props.Energy
import Verif.Props.Krylov
import Verif.Props.CoupledProcesses

set_option linter.unusedSectionVars false

namespace PetIBM

open Spec

variable {K : Type} [Field K] [LinearOrder K] [IsStrictOrderedRing K]
variable {debug : Bool} {L : Layout} {G : Geom K} {axes : ℕ → Axis K} {T : BCTable K} {B : ℕ → Boundary K}
variable {P : NSParams K} {flow : Option (FlowNode K)} {ops : NSOps K} {disk disk' : Disk K}
variable {bodies : BodyPack K} {kernel : DeltaKernel K} {window : ℕ}
variable {vSolve pSolve : LinSolve K} {n : ℕ}

theorem closed_not_neumann (C : Constructed debug L G axes T B) (hw : AllClosed L T) :
    ∀ f loc, f < L.dim → loc / 2 = f → (T f loc).1 ≠ .NEUMANN := by
  intro f loc hf hl
  by_cases hp : L.periodic 0 f = true
  · rw [(C.table f loc hf (by omega)).2 (by rw [hl]; exact hp)]; simp
  · have := hw loc (by omega) (by rw [hl]; simpa using hp)
    unfold Closed at this
    rw [hl] at this
    rw [this]; simp

/-- The operators of the coupled solver in terms of pressure gradient and delta operator. -/
theorem coupled_gradient {s : NSState K} (S : CoupledStarted debug L G axes T B P flow bodies kernel window ops disk s disk') :
    ∃ Gr Δ, createGradient debug L G false = .ok Gr ∧ IsDelta debug L axes B bodies kernel window Δ ∧
      ∀ l c, Mat.mult ops.pN ops.G l c = reaction L bodies Gr Δ l c := by
  obtain ⟨u, E, H, hops, _⟩ := S.reach
  obtain ⟨D, Dm, Gr, La, Lm, BN, idx, o1, o2, o3, o4, o5, o6, rfl⟩ := ibpmCreate_ok hops
  obtain ⟨Δ, h6, h7, h8⟩ := createEH_ok S.constructed.setup o5
  rw [createDelta_run S.constructed] at h6
  subst h7
  exact ⟨Gr, Δ, o2, ⟨idx, o4, h6⟩, fun φ c => composite_gradient S.constructed.setup.layout S.fit Gr Δ φ c⟩

/-- Pressure and forces do no work on the velocity after a coupled step. -/
theorem coupled_free {s : NSState K} (S : CoupledStarted debug L G axes T B P flow bodies kernel window ops disk s disk') {x : ℕ → NSState K}
    (h0 : x 0 = s) (hx : CoupledTrajectory L G P (nestCounts L bodies) ops vSolve pSolve x n)
    (hn : ∀ f, f < L.dim → L.periodic 0 f = true → 2 ≤ L.n f f) (hw : AllClosed L T) (hp : P.pType = .ksp)
    (exact : Solves ops.pN pSolve ops.DBNG) {vol : ℤ → K} (hvol : IsVolume debug L G vol) {k : ℕ} (hk : k < n) (l : ℤ → K) :
    work L.UN vol (x (k + 1)).U (Mat.mult ops.pN ops.G l) = 0 := by
  have C := S.constructed
  obtain ⟨u, E, H, hops, R⟩ := S.reach_at h0 hx
  obtain ⟨D, Dm, Gr, La, Lm, BN, idx, o1, o2, o3, o4, o5, o6, hop⟩ := ibpmCreate_ok hops
  obtain ⟨w, U, dP, hcv, hv, hp', ha⟩ := coupled_ok C S.schemes.1.1 S.schemes.2.1 (R k hk.le) (hx k hk)
  obtain ⟨w', U', dP', hcv', hv', hp'', hU, _⟩ := advance_ok C S.schemes.1.1 S.schemes.2.1 (R k hk.le) ha
  have hp'' := Except.ok.inj hp''
  subst hp''
  rw [hcv] at hcv'
  cases hcv'
  rw [hv] at hv'
  have e := Except.ok.inj hv'
  subst e
  have hs := sum_counts C.setup.layout S.fit
  have hpN : ops.pN = L.pN + bodies.nPts * bodies.dim := by rw [hop]
  refine gradient_work (D := ops.D) (fun a b a0 a1 b0 b1 => ?_) (fun i i0 i1 => ?_) l
  · rw [hop]
    have := composite_transpose C S.fit (closed_not_neumann C hw) _ ⟨u, [], rfl⟩ o1 o2 o5 hvol a b a0 (by rw [← hpN]; exact a1) b0 b1
    simp only
    rw [this]
    ring
  · have key := coupled_rows C.setup S.fit (P := P) (Dm := Dm) hpN (by rw [hop]) (by rw [hop]) (by rw [hop]) exact (U := U) rfl hp' i i0 i1 (Or.inl hp)
    rw [hU]
    rw [← key]
    symm
    rw [add_eq_left]
    obtain ⟨hh, hB, _⟩ := (R k hk.le).hist
    have hBe : (fun r => ((x k).B r).updateEqs (x k).U P.dt) = fun r => (B r).run ([.setGhostICs u] ++ (hh ++ [.updateEqs (x k).U P.dt])) := by
      funext r
      simp only [hB, Boundary.run, List.foldl_append]
      rfl
    obtain ⟨j, rfl⟩ := Int.eq_ofNat_of_zero_le i0
    rcases nestPos_split (nestCounts L bodies) 0 0 j (by omega) with ⟨a, ha, _, e⟩ | ⟨b, hb, _, e⟩
    · rw [← e, nestVec_pressure _ _ ha]
      simp only
      rw [hBe]
      exact closed_divergence C hw hn ⟨u, [], rfl⟩ o1 (by omega) (by omega)
    · rw [← e, nestVec_force _ _ hb]

/-! ### C91 -/

/-- C91. With closed or periodic sides and an exact solver, neither the pressure nor the forces of the bodies, whatever their values, do work on
the velocity after a step of the coupled solver. Missing: periodic directions with one cell (`C21`); the pinned system, for which see
`Props/Pinned.lean`. -/
theorem C91_no_work_partial {s : NSState K} (S : CoupledStarted debug L G axes T B P flow bodies kernel window ops disk s disk') {x : ℕ → NSState K}
    (h0 : x 0 = s) (hx : CoupledTrajectory L G P (nestCounts L bodies) ops vSolve pSolve x n)
    (hn : ∀ f, f < L.dim → L.periodic 0 f = true → 2 ≤ L.n f f) (hw : AllClosed L T) (hp : P.pType = .ksp)
    (exact : Solves ops.pN pSolve ops.DBNG) :
    ∃ Gr Δ, createGradient debug L G false = .ok Gr ∧ IsDelta debug L axes B bodies kernel window Δ ∧
      ∀ vol k, IsVolume debug L G vol → k < n → (∀ p, work L.UN vol (x (k + 1)).U (Mat.mult L.pN Gr p) = 0) ∧
        ∀ F, work L.UN vol (x (k + 1)).U (spread (bodies.nPts * bodies.dim) Δ F) = 0 := by
  obtain ⟨Gr, Δ, hG, hΔ, hr⟩ := coupled_gradient S
  have hs := sum_counts S.constructed.setup.layout S.fit
  refine ⟨Gr, Δ, hG, hΔ, fun vol k hvol hk => ⟨fun p => ?_, fun F => ?_⟩⟩
  · rw [← coupled_free S h0 hx hn hw hp exact hvol hk (nestVec (nestCounts L bodies) p fun _ => 0)]
    unfold work
    refine Finset.sum_congr rfl fun c _ => ?_
    rw [hr]
    unfold reaction spread
    have e1 : Mat.mult L.pN Gr (subPressure (nestCounts L bodies) (nestVec (nestCounts L bodies) p fun _ => 0)) c = Mat.mult L.pN Gr p c := by
      refine mult_congr (fun a a0 a1 => ?_) _
      obtain ⟨a, rfl⟩ := Int.eq_ofNat_of_zero_le a0
      rw [subPressure_at, nestVec_pressure _ _ (by omega)]
    rw [e1, Finset.sum_eq_zero, sub_zero]
    intro b hb
    have hb := Finset.mem_range.1 hb
    rw [subForces_at, nestVec_force _ _ (by omega), mul_zero]
  · have key := coupled_free S h0 hx hn hw hp exact hvol hk (nestVec (nestCounts L bodies) (fun _ => 0) fun b => -F b)
    rw [← key]
    unfold work
    refine Finset.sum_congr rfl fun c _ => ?_
    rw [hr]
    unfold reaction spread
    have e1 : Mat.mult L.pN Gr (subPressure (nestCounts L bodies) (nestVec (nestCounts L bodies) (fun _ => 0) fun b => -F b)) c = 0 := by
      unfold Mat.mult
      refine Finset.sum_eq_zero fun a ha => ?_
      have ha := Finset.mem_range.1 ha
      rw [subPressure_at, nestVec_pressure _ _ (by omega), mul_zero]
    rw [e1, zero_sub]
    congr 1
    rw [← Finset.sum_neg_distrib]
    refine Finset.sum_congr rfl fun b hb => ?_
    have hb := Finset.mem_range.1 hb
    rw [subForces_at, nestVec_force _ _ (by omega)]
    ring

/-- The first state of a coupled run from step 0. -/
theorem coupled_first {s : NSState K} (S : CoupledStarted debug L G axes T B P flow bodies kernel window ops disk s disk') (h : P.nstart = 0) :
    s.conv = List.replicate P.conv.nExplicit (fun _ => 0) ∧ s.diff = List.replicate P.diff.nExplicit fun _ => 0 := by
  obtain ⟨s₀, EH, h1, h2⟩ := S.init
  obtain ⟨⟨U, p⟩, h3, h1⟩ := bind_ok h1
  obtain ⟨⟨ops', E', H'⟩, h4, h1⟩ := bind_ok h1
  cases h1
  unfold ibpmIoInitialData at h2
  rw [if_pos h] at h2
  obtain ⟨d, _, h2⟩ := bind_ok h2
  cases h2
  exact ⟨rfl, rfl⟩

/-- C91. Energy balance of a step of the coupled solver with walls and bodies at rest, as in C84: the pressure gradient is replaced by
the pressure gradient minus the spread forces, `γ` is its increment. Missing: as for C84; the pinned system, for which see `Props/Pinned.lean`. -/
theorem C91_balance_partial {s : NSState K} (S : CoupledStarted debug L G axes T B P flow bodies kernel window ops disk s disk')
    {x : ℕ → NSState K} (h0 : x 0 = s) (hx : CoupledTrajectory L G P (nestCounts L bodies) ops vSolve pSolve x n)
    (hn : ∀ f d, f < L.dim → d < L.dim → L.periodic 0 d = true → 3 ≤ L.n f d) (hw : WallsAtRest L T) (hBN : P.BN = 1) (hp : P.pType = .ksp)
    (hdt : P.dt ≠ 0) (exactV : Solves L.UN vSolve ops.A) (exactP : Solves ops.pN pSolve ops.DBNG) :
    ∃ Gr Δ, createGradient debug L G false = .ok Gr ∧ IsDelta debug L axes B bodies kernel window Δ ∧
      ∀ k, k < n → Remembers P k → P.diff = eulerImplicit ∨ P.diff = crankNicolson ∧ 0 < k →
      ∃ q γ m : ℤ → K, (∀ i : ℤ, 0 ≤ i → i < L.UN → (x (k + 1)).U i = q i - P.dt * γ i) ∧
        (∀ i : ℤ, 0 ≤ i → i < L.UN → reaction L bodies Gr Δ (x (k + 1)).p i = reaction L bodies Gr Δ (x k).p i + γ i) ∧
        (∀ i : ℤ, 0 ≤ i → i < L.UN → m i = P.diff.implicitCoeff * q i + (1 - P.diff.implicitCoeff) * (x k).U i) ∧
        ∀ (vol c : ℤ → K) (V : ℕ → ℕ → Stencil → K), IsVolume debug L G vol → (∀ j, j ≤ k → Filled debug L (x j).B (x j).U (V j)) →
          (∀ f s idx, f < L.dim → Inside L.toMeshInfo f s → L.getPackedGlobalIndex debug f s = .ok idx →
            c idx = ∑ j ∈ Finset.range (k + 1), levelWeight P.conv k j * convective L.dim G (V j) f s) →
          kinetic L.UN vol (x (k + 1)).U + P.diff.implicitCoeff * P.dt ^ 2 * kinetic L.UN vol (reaction L bodies Gr Δ (x (k + 1)).p)
            + (1 - P.diff.implicitCoeff) * P.dt ^ 2 * kinetic L.UN vol γ
            + (2 * P.diff.implicitCoeff - 1) * kinetic L.UN vol (fun i => q i - (x k).U i) =
          kinetic L.UN vol (x k).U + P.diff.implicitCoeff * P.dt ^ 2 * kinetic L.UN vol (reaction L bodies Gr Δ (x k).p)
            + 2 * P.dt * P.nu * work L.UN vol m (Mat.mult L.UN ops.L m) - 2 * P.dt * work L.UN vol m c := by
  have C := S.constructed
  have hn2 : ∀ f, f < L.dim → L.periodic 0 f = true → 2 ≤ L.n f f := fun f hf hp => by have := hn f f hf hf hp; omega
  obtain ⟨Gr, Δ, hG, hΔ, hr⟩ := coupled_gradient S
  have hr' : ∀ l, Mat.mult ops.pN ops.G l = reaction L bodies Gr Δ l := fun l => funext (hr l)
  refine ⟨Gr, Δ, hG, hΔ, fun k hk hs hd => ?_⟩
  obtain ⟨u₀, E, H, hops, R⟩ := S.reach_at h0 hx
  have free := fun vol (hvol : IsVolume debug L G vol) j (hj : j < n) φ => coupled_free S h0 hx hn2 hw.1 hp exactP hvol hj φ
  simp only [hr'] at free
  have hadv : ∀ m, m < n → ∃ s : LinSolve K × LinSolve K, advance L G P ops s.1 s.2 (x m) = .ok (x (m + 1)) := by
    intro m hm
    obtain ⟨w, U, dP, _, _, _, ha⟩ := coupled_ok C S.schemes.1.1 S.schemes.2.1 (R m hm.le) (hx m hm)
    exact ⟨(vSolve, fun _ _ _ => .ok dP), ha⟩
  obtain ⟨w, U, dP, h1, h2, h3, ha⟩ := coupled_ok C S.schemes.1.1 S.schemes.2.1 (R k hk.le) (hx k hk)
  obtain ⟨w', U', dP', e1, e2, e3, h4, h5, _⟩ := advance_ok C S.schemes.1.1 S.schemes.2.1 (R k hk.le) ha
  have e3 := Except.ok.inj e3
  subst e3
  rw [h1] at e1
  cases e1
  rw [h2] at e2
  have e2 := Except.ok.inj e2
  subst e2
  obtain ⟨D, Dm, Gr', La, Lm, BN, idx, o1, o2, o3, o4, o5, o6, eops⟩ := ibpmCreate_ok hops
  obtain ⟨w', h1', step⟩ := implicit_step (k := k) C S.schemes.1.1 S.schemes.2.1 (fun m hm => R m (by omega))
    (fun m hm => hadv m (by omega)) (by rw [h0]; exact known_of (coupled_first S) hs) hn hw hdt (by rw [o3, eops]) (by rw [eops])
    (hd.imp_right And.left)
  rw [h1] at h1'
  cases h1'
  have hsol := exactV _ _ _ h2
  rw [hBN] at o6
  have eU : ∀ i : ℤ, 0 ≤ i → i < L.UN → (x (k + 1)).U i = U i - P.dt * reaction L bodies Gr Δ dP i := by
    intro i i0 i1
    rw [h4]
    unfold projected
    have hi : 0 ≤ i ∧ i < (L.UN : ℤ) := ⟨i0, i1⟩
    rw [vec, vec, if_pos hi, if_pos hi, mult_vec, ← hr]
    rw [eops]
    simp only
    rw [bn_one o6 _ _ dP i0 i1]
    ring
  have ep : ∀ i : ℤ, 0 ≤ i → i < ops.pN → (x (k + 1)).p i = (x k).p i + dP i := by
    intro i i0 i1
    rw [h5]
    simp only [vec, if_pos (show 0 ≤ i ∧ i < (ops.pN : ℤ) from ⟨i0, i1⟩), one_mul]
  have eg : ∀ i : ℤ, 0 ≤ i → i < L.UN → reaction L bodies Gr Δ (x (k + 1)).p i = reaction L bodies Gr Δ (x k).p i + reaction L bodies Gr Δ dP i := by
    intro i _ _
    rw [← hr, ← hr, ← hr]
    unfold Mat.mult
    rw [← Finset.sum_add_distrib]
    refine Finset.sum_congr rfl fun y hy => ?_
    have hy := Finset.mem_range.1 hy
    rw [ep y (by omega) (by omega)]
    ring
  refine ⟨U, reaction L bodies Gr Δ dP, fun i => P.diff.implicitCoeff * U i + (1 - P.diff.implicitCoeff) * (x k).U i, eU, eg, fun _ _ _ => rfl, ?_⟩
  intro vol c V hvol hV hc
  have sys := step U (fun _ => 0) c V (fun i i0 i1 => by rw [add_zero]; exact hsol i i0 i1) hV hc
  simp only [sub_zero, hr'] at sys
  refine step_balance (fun _ _ _ => rfl) sys eU eg (free vol hvol k hk _) (free vol hvol k hk _) ?_
  rcases hd with h | ⟨h, hk0⟩
  · rw [h]; simp [eulerImplicit]
  · obtain ⟨j, rfl⟩ : ∃ j, k = j + 1 := ⟨k - 1, by omega⟩
    rw [free vol hvol j (by omega), mul_zero]

theorem coupled_viscosity {s : NSState K} (S : CoupledStarted debug L G axes T B P flow bodies kernel window ops disk s disk')
    (hn : ∀ f d, f < L.dim → d < L.dim → L.periodic 0 d = true → 3 ≤ L.n f d) (hw : WallsAtRest L T) {vol : ℤ → K}
    (hvol : IsVolume debug L G vol) (m : ℤ → K) : work L.UN vol m (Mat.mult L.UN ops.L m) ≤ 0 := by
  have C := S.constructed
  obtain ⟨u, E, H, hops, _⟩ := S.reach
  obtain ⟨D, Dm, Gr, La, Lm, BN, idx, o1, o2, o3, o4, o5, o6, rfl⟩ := ibpmCreate_ok hops
  obtain ⟨La', Lm', e, key⟩ := C83_viscosity_partial C hn [.setGhostICs u] ⟨u, [], rfl⟩ hw
  rw [o3] at e
  cases e
  refine le_trans (le_of_eq ?_) (key [] vol m hvol)
  unfold work
  refine Finset.sum_congr rfl fun i hi' => ?_
  have hi' := Finset.mem_range.1 hi'
  simp only
  rw [rest_laplacian C hw hn ⟨u, [], rfl⟩ o3 (by omega) (by omega), add_zero]

/-- C91. Without convective terms, with walls and bodies at rest, a step of the coupled solver never increases the sum of the kinetic energy and
the energy of pressure gradient minus spread forces, whatever the time step. Missing: as for `C91_balance_partial`. -/
theorem C91_decay_partial {s : NSState K} (S : CoupledStarted debug L G axes T B P flow bodies kernel window ops disk s disk')
    {x : ℕ → NSState K} (h0 : x 0 = s) (hx : CoupledTrajectory L G P (nestCounts L bodies) ops vSolve pSolve x n)
    (hn : ∀ f d, f < L.dim → d < L.dim → L.periodic 0 d = true → 3 ≤ L.n f d) (hw : WallsAtRest L T) (hBN : P.BN = 1) (hp : P.pType = .ksp)
    (hdt : 0 < P.dt) (hnu : 0 ≤ P.nu) (exactV : Solves L.UN vSolve ops.A) (exactP : Solves ops.pN pSolve ops.DBNG) (hc : P.conv = eulerImplicit) :
    ∃ Gr Δ, createGradient debug L G false = .ok Gr ∧ IsDelta debug L axes B bodies kernel window Δ ∧
      ∀ vol k, IsVolume debug L G vol → k < n → P.diff = eulerImplicit ∨ P.diff = crankNicolson ∧ 0 < k →
        kinetic L.UN vol (x (k + 1)).U + P.diff.implicitCoeff * P.dt ^ 2 * kinetic L.UN vol (reaction L bodies Gr Δ (x (k + 1)).p) ≤
          kinetic L.UN vol (x k).U + P.diff.implicitCoeff * P.dt ^ 2 * kinetic L.UN vol (reaction L bodies Gr Δ (x k).p) := by
  have C := S.constructed
  obtain ⟨Gr, Δ, hG, hΔ, bal⟩ := C91_balance_partial S h0 hx hn hw hBN hp hdt.ne' exactV exactP
  refine ⟨Gr, Δ, hG, hΔ, fun vol k hvol hk hd => ?_⟩
  obtain ⟨q, γ, m, _, _, _, key⟩ := bal k hk (remembers_implicit (Or.inl hc) (hd.imp_right And.left) k) hd
  obtain ⟨u, E, H, hops, R⟩ := S.reach_at h0 hx
  have hV : ∀ j, ∃ V, j ≤ k → Filled debug L (x j).B (x j).U V := by
    intro j
    by_cases hj : j ≤ k
    · obtain ⟨h, hB, _⟩ := (R j (by omega)).hist
      obtain ⟨V, hV⟩ := exists_filled C.setup C.part (C.ghosts ([.setGhostICs u] ++ h)) (x j).U
      exact ⟨V, fun _ => by rw [hB]; exact hV⟩
    · exact ⟨fun _ _ => 0, fun h => absurd h hj⟩
  choose V hV using hV
  have bal := key vol (fun _ => 0) V hvol hV (by
    intro f s idx _ _ _
    symm
    refine Finset.sum_eq_zero fun j _ => ?_
    simp [hc, eulerImplicit, levelWeight])
  have w0 : work L.UN vol m (fun _ => 0) = 0 := by simp [work]
  rw [w0] at bal
  have v := coupled_viscosity S hn hw hvol m
  have v' : 2 * P.dt * P.nu * work L.UN vol m (Mat.mult L.UN ops.L m) ≤ 0 :=
    mul_nonpos_of_nonneg_of_nonpos (mul_nonneg (by linarith) hnu) v
  have k1 := kinetic_nonneg C.setup hvol γ
  have k2 := kinetic_nonneg C.setup hvol (fun i => q i - (x k).U i)
  have sq := sq_nonneg P.dt
  have hθ : 0 ≤ 1 - P.diff.implicitCoeff ∧ 0 ≤ 2 * P.diff.implicitCoeff - 1 := by
    rcases hd with h | ⟨h, _⟩ <;> rw [h]
    · norm_num [eulerImplicit]
    · norm_num [crankNicolson]
  have := mul_nonneg (mul_nonneg hθ.1 sq) k1
  have := mul_nonneg hθ.2 k2
  linarith

/-- C91. So the kinetic energy stays bounded in runs of any length. A run from step 0 starts without forces and pressure (`C65`), hence with the
implicit Euler scheme it never exceeds the kinetic energy of the initial velocity. -/
theorem C91_bounded_partial {s : NSState K} (S : CoupledStarted debug L G axes T B P flow bodies kernel window ops disk s disk')
    {x : ℕ → NSState K} (h0 : x 0 = s) (hx : CoupledTrajectory L G P (nestCounts L bodies) ops vSolve pSolve x n)
    (hn : ∀ f d, f < L.dim → d < L.dim → L.periodic 0 d = true → 3 ≤ L.n f d) (hw : WallsAtRest L T) (hBN : P.BN = 1) (hp : P.pType = .ksp)
    (hdt : 0 < P.dt) (hnu : 0 ≤ P.nu) (exactV : Solves L.UN vSolve ops.A) (exactP : Solves ops.pN pSolve ops.DBNG) (hc : P.conv = eulerImplicit) :
    ∃ Gr Δ, createGradient debug L G false = .ok Gr ∧ IsDelta debug L axes B bodies kernel window Δ ∧
      (∀ vol i k, IsVolume debug L G vol → i ≤ k → k ≤ n → P.diff = eulerImplicit ∨ P.diff = crankNicolson ∧ 0 < i →
        kinetic L.UN vol (x k).U ≤ kinetic L.UN vol (x i).U + P.diff.implicitCoeff * P.dt ^ 2 * kinetic L.UN vol (reaction L bodies Gr Δ (x i).p)) ∧
      (P.nstart = 0 → P.diff = eulerImplicit → ∀ vol k, IsVolume debug L G vol → k ≤ n → kinetic L.UN vol (x k).U ≤ kinetic L.UN vol s.U) := by
  obtain ⟨Gr, Δ, hG, hΔ, dec⟩ := C91_decay_partial S h0 hx hn hw hBN hp hdt hnu exactV exactP hc
  have main : ∀ vol i k, IsVolume debug L G vol → i ≤ k → k ≤ n → P.diff = eulerImplicit ∨ P.diff = crankNicolson ∧ 0 < i →
        kinetic L.UN vol (x k).U ≤ kinetic L.UN vol (x i).U + P.diff.implicitCoeff * P.dt ^ 2 * kinetic L.UN vol (reaction L bodies Gr Δ (x i).p) := by
    intro vol i k hvol hik hkn hd
    have key : ∀ j, i + j ≤ n → kinetic L.UN vol (x (i + j)).U + P.diff.implicitCoeff * P.dt ^ 2 * kinetic L.UN vol (reaction L bodies Gr Δ (x (i + j)).p) ≤
        kinetic L.UN vol (x i).U + P.diff.implicitCoeff * P.dt ^ 2 * kinetic L.UN vol (reaction L bodies Gr Δ (x i).p) := by
      intro j
      induction j with
      | zero => intro _; exact le_refl _
      | succ j ih =>
        intro hj
        refine le_trans (dec vol (i + j) hvol (by omega) ?_) (ih (by omega))
        rcases hd with h | ⟨h, h'⟩
        · exact Or.inl h
        · exact Or.inr ⟨h, by omega⟩
    have := key (k - i) (by omega)
    rw [show i + (k - i) = k by omega] at this
    have k1 := kinetic_nonneg S.constructed.setup hvol (reaction L bodies Gr Δ (x k).p)
    have hθ : 0 ≤ P.diff.implicitCoeff := by
      rcases hd with h | ⟨h, _⟩ <;> rw [h]
      · simp [eulerImplicit]
      · simp [crankNicolson]
    have := mul_nonneg (mul_nonneg hθ (sq_nonneg P.dt)) k1
    linarith
  refine ⟨Gr, Δ, hG, hΔ, main, fun hs hd vol k hvol hk => ?_⟩
  have b := main vol 0 k hvol (Nat.zero_le _) hk (Or.inl hd)
  have p0 : (x 0).p = fun _ => 0 := by
    rw [h0]
    obtain ⟨s₀, EH, h1, h2⟩ := S.init
    obtain ⟨⟨U, p⟩, h3, h1⟩ := bind_ok h1
    obtain ⟨⟨ops', E', H'⟩, h4, h1⟩ := bind_ok h1
    cases h1
    unfold ibpmIoInitialData at h2
    rw [if_pos hs] at h2
    obtain ⟨d, _, h2⟩ := bind_ok h2
    cases h2
    rfl
  have z : kinetic L.UN vol (reaction L bodies Gr Δ fun _ => 0) = 0 := by
    unfold kinetic work
    refine Finset.sum_eq_zero fun c _ => ?_
    simp [reaction, spread, Mat.mult, subPressure, subForces]
  rw [p0, z, mul_zero, add_zero, h0] at b
  exact b

/-! ### C92 -/

/-- One step without viscosity: projection onto the flows that stick to the bodies, then onto those without divergence. -/
theorem split_identity {N : ℕ} {vol u u' v a a' b' γ : ℤ → K} {dt : K} (h1 : ∀ i : ℤ, 0 ≤ i → i < N → u' i - u i = dt * (b' i - a' i))
    (h2 : ∀ i : ℤ, 0 ≤ i → i < N → v i = u' i + dt * γ i) (h3 : ∀ i : ℤ, 0 ≤ i → i < N → a' i = a i + γ i) (w1 : work N vol u' a' = 0)
    (w2 : work N vol v b' = 0) (w3 : work N vol u' γ = 0) (w4 : work N vol u γ = 0) :
    kinetic N vol u' + dt ^ 2 * kinetic N vol a' + kinetic N vol (fun i => u' i - u i) + dt ^ 2 * kinetic N vol (fun i => a' i - a i) =
      kinetic N vol u + dt ^ 2 * kinetic N vol a := by
  have e : kinetic N vol u' + dt ^ 2 * kinetic N vol a' + kinetic N vol (fun i => u' i - u i) + dt ^ 2 * kinetic N vol (fun i => a' i - a i) -
      (kinetic N vol u + dt ^ 2 * kinetic N vol a) =
      2 * dt * work N vol v b' - 2 * dt * work N vol u' a' - 2 * dt * work N vol u' γ + 2 * dt * work N vol u γ := by
    unfold kinetic work
    simp only [Finset.mul_sum]
    simp only [← Finset.sum_add_distrib, ← Finset.sum_sub_distrib]
    refine Finset.sum_congr rfl fun i hi => ?_
    have hi := Finset.mem_range.1 hi
    have a1 := h1 i (by omega) (by omega)
    have a2 := h2 i (by omega) (by omega)
    have a3 := h3 i (by omega) (by omega)
    have : u i = u' i - dt * (b' i - a' i) := by linear_combination -a1
    rw [a2, this, a3]
    ring
  rw [w1, w2, w3, w4] at e
  linarith

theorem decoupled_free {ib : IBOps K} {s : IBState K} (S : IBStarted debug L G axes T B P flow bodies kernel window ops ib disk s disk')
    {fSolve : LinSolve K} {x : ℕ → IBState K} (h0 : x 0 = s) (hx : IBTrajectory L G P ops ib vSolve fSolve pSolve x n)
    (hn : ∀ f, f < L.dim → L.periodic 0 f = true → 2 ≤ L.n f f) (hw : AllClosed L T) (hp : P.pType = .ksp)
    (exact : Solves L.pN pSolve ops.DBNG) {vol : ℤ → K} (hvol : IsVolume debug L G vol) {k : ℕ} (hk : k < n) (φ : ℤ → K) :
    work L.UN vol (x (k + 1)).ns.U (Mat.mult L.pN ops.G φ) = 0 := by
  have C := S.constructed
  obtain ⟨u, hops, R⟩ := S.reach_at h0 hx
  obtain ⟨D, Dm, Gr, La, Lm, BN, o1, o2, o3, o4, eops⟩ := createOperators_ok hops
  obtain ⟨h, hB, hj⟩ := (R (k + 1) hk).hist
  obtain ⟨Gr', e, key⟩ := C83_pressure_partial C hn ([.setGhostICs u] ++ h) ⟨u, h, rfl⟩ hw
  rw [o2] at e
  cases e
  obtain ⟨V, hV⟩ := exists_filled C.setup C.part (C.ghosts ([.setGhostICs u] ++ h)) (x (k + 1)).ns.U
  have hG : ops.G = Gr := by rw [eops]
  rw [hG]
  refine key vol _ V hvol (filled_extended' C hj hV) (fun c hc => ?_) φ
  exact C44_decoupled_divergence_free_partial S h0 hx exact hn hp k hk V (by rw [hB]; exact hV) c hc

/-- C92. Without viscosity and convective terms, with bodies at rest, closed or periodic sides, first order approximate inverse and exact solvers,
every step of the decoupled solver after the first one balances exactly: what the kinetic energy and the energy of the pressure gradient lose
is the energy of the changes of velocity and pressure gradient. The forces do not enter. Missing: viscosity and convection; higher
orders; periodic directions with one cell; the pinned system, for which see `Props/Pinned.lean`. -/
theorem C92_balance_partial {ib : IBOps K} {s : IBState K} (S : IBStarted debug L G axes T B P flow bodies kernel window ops ib disk s disk')
    {fSolve : LinSolve K} {x : ℕ → IBState K} (h0 : x 0 = s) (hx : IBTrajectory L G P ops ib vSolve fSolve pSolve x n)
    (hn : ∀ f, f < L.dim → L.periodic 0 f = true → 2 ≤ L.n f f) (hw : AllClosed L T) (hBN : P.BN = 1) (hp : P.pType = .ksp)
    (hdt : P.dt ≠ 0) (hnu : P.nu = 0) (hc : P.conv = eulerImplicit) (exactV : Solves L.UN vSolve ops.A) (exactF : Solves ib.nF fSolve ib.EBNH)
    (exactP : Solves L.pN pSolve ops.DBNG) (vol : ℤ → K) (hvol : IsVolume debug L G vol) (k : ℕ) (hk : k + 1 < n) :
    kinetic L.UN vol (x (k + 2)).ns.U + P.dt ^ 2 * kinetic L.UN vol (Mat.mult L.pN ops.G (x (k + 2)).ns.p)
        + kinetic L.UN vol (fun i => (x (k + 2)).ns.U i - (x (k + 1)).ns.U i)
        + P.dt ^ 2 * kinetic L.UN vol (fun i => Mat.mult L.pN ops.G (x (k + 2)).ns.p i - Mat.mult L.pN ops.G (x (k + 1)).ns.p i) =
      kinetic L.UN vol (x (k + 1)).ns.U + P.dt ^ 2 * kinetic L.UN vol (Mat.mult L.pN ops.G (x (k + 1)).ns.p) := by
  have C := S.constructed
  have F := S.started
  have free := fun j (hj : j < n) φ => decoupled_free S h0 hx hn hw hp exactP hvol hj φ
  obtain ⟨Δ, BN', h1, hBN', h2, h3, h4, h4', h5⟩ := S.operators
  obtain ⟨u₀, hops, R⟩ := S.reach_at h0 hx
  have hpN := createOperators_pN hops
  have hadv : ∀ m, m < n → ∃ s : LinSolve K × LinSolve K, advance L G P ops s.1 s.2 (x m).ns = .ok (x (m + 1)).ns := by
    intro m hm
    obtain ⟨w, Us, df, _, _, _, ha, _⟩ := decoupled_ok C F.schemes.1.1 F.schemes.2.1 (R m hm.le) (hx m hm)
    exact ⟨(_, pSolve), ha⟩
  obtain ⟨w, Us, df, e1, e2, e3, ha, e5, e6⟩ := decoupled_ok C F.schemes.1.1 F.schemes.2.1 (R (k + 1) hk.le) (hx (k + 1) hk)
  obtain ⟨w', U, dP, f1, f2, f3, f4, f5, _⟩ := advance_ok C F.schemes.1.1 F.schemes.2.1 (R (k + 1) hk.le) ha
  have f2 := Except.ok.inj f2
  obtain ⟨z, hz, he⟩ := rhs_levels_of (x := fun m => (x m).ns) (k := k + 1) C F.schemes.1.1 F.schemes.2.1 (fun m hm => R m (by omega))
    (fun m hm => hadv m (by omega)) (by simp only [h0]; exact known_of (C40_first_steps F) (remembers_next F.params F.schemes.1.1 F.schemes.2.1 k))
  have hzk := hz (k + 1) le_rfl
  rw [e1] at hzk
  cases hzk
  have hsol := exactV _ _ _ e2
  obtain ⟨D, Dm, Gr, La, Lm, BN, o1, o2, o3, o4, eops⟩ := createOperators_ok hops
  have hi : ∀ i : ℤ, 0 ≤ i → i < L.UN → (0 ≤ i ∧ i < (L.UN : ℤ)) := fun i a b => ⟨a, b⟩
  have hA : ∀ i : ℤ, 0 ≤ i → i < L.UN → Mat.mult L.UN ops.A Us i = Us i / P.dt := by
    intro i i0 i1
    rw [eops]
    simp only [hnu]
    unfold Mat.mult Mat.shift Mat.scale
    have : ∀ c ∈ Finset.range L.UN, (if i = (c : ℤ) then -P.diff.implicitCoeff * 0 * La i c + 1 / P.dt
        else -P.diff.implicitCoeff * 0 * La i c) * Us c = if c = i.toNat then Us c / P.dt else 0 := by
      intro c _
      by_cases hc : i = (c : ℤ)
      · rw [if_pos hc, if_pos (by omega)]; ring
      · rw [if_neg hc, if_neg (by omega)]; ring
    rw [Finset.sum_congr rfl this, Finset.sum_ite_eq', if_pos (Finset.mem_range.2 (by omega))]
    rw [show ((i.toNat : ℕ) : ℤ) = i by omega]
  -- the intermediate velocities
  have eUs : ∀ i : ℤ, 0 ≤ i → i < L.UN → Us i - (x (k + 1)).ns.U i =
      P.dt * (Mat.mult ib.nF ib.H (x (k + 1)).f i - Mat.mult L.pN ops.G (x (k + 1)).ns.p i) := by
    intro i i0 i1
    have h := hsol i i0 i1
    have h' := he i i0 i1
    rw [hA i i0 i1, h', hnu, vec, if_pos (hi i i0 i1), hpN] at h
    have c0 : ∑ m ∈ Finset.range (k + 1 + 1), levelWeight P.conv (k + 1) m * z m i = 0 :=
      Finset.sum_eq_zero fun j _ => by simp [hc, eulerImplicit, levelWeight]
    rw [c0] at h
    simp only [zero_mul, mul_zero, Finset.sum_const_zero, add_zero, sub_zero] at h
    field_simp at h
    linear_combination h
  have eBNH : ∀ i : ℤ, 0 ≤ i → i < L.UN → Mat.mult ib.nF ib.BNH df i = P.dt * Mat.mult ib.nF ib.H df i := by
    intro i i0 i1
    rw [hBN] at hBN'
    rw [h4']
    exact bn_one hBN' _ _ _ i0 i1
  have eU : ∀ i : ℤ, 0 ≤ i → i < L.UN → U i = Us i + P.dt * Mat.mult ib.nF ib.H df i := by
    intro i i0 i1
    rw [← f2, ← eBNH i i0 i1]
    simp only [vec, if_pos (hi i i0 i1)]
    congr 1
    exact mult_vec _ _ _ _
  have ef : ∀ i : ℤ, 0 ≤ i → i < ib.nF → (x (k + 2)).f i = (x (k + 1)).f i + df i := by
    intro i i0 i1
    rw [e5]
    simp only [vec, if_pos (show 0 ≤ i ∧ i < (ib.nF : ℤ) from ⟨i0, i1⟩), one_mul]
  have eb : ∀ i : ℤ, Mat.mult ib.nF ib.H (x (k + 2)).f i = Mat.mult ib.nF ib.H (x (k + 1)).f i + Mat.mult ib.nF ib.H df i := by
    intro i
    rw [mult_congr ef]
    unfold Mat.mult
    rw [← Finset.sum_add_distrib]
    exact Finset.sum_congr rfl fun _ _ => by ring
  have ep : ∀ i : ℤ, 0 ≤ i → i < L.pN → (x (k + 2)).ns.p i = (x (k + 1)).ns.p i + dP i := by
    intro i i0 i1
    rw [f5, hpN]
    simp only [vec, if_pos (show 0 ≤ i ∧ i < (L.pN : ℤ) from ⟨i0, i1⟩), one_mul]
  have eg : ∀ i : ℤ, 0 ≤ i → i < L.UN → Mat.mult L.pN ops.G (x (k + 2)).ns.p i = Mat.mult L.pN ops.G (x (k + 1)).ns.p i + Mat.mult L.pN ops.G dP i := by
    intro i _ _
    rw [mult_congr ep]
    unfold Mat.mult
    rw [← Finset.sum_add_distrib]
    exact Finset.sum_congr rfl fun _ _ => by ring
  have eV : ∀ i : ℤ, 0 ≤ i → i < L.UN → U i = (x (k + 2)).ns.U i + P.dt * Mat.mult L.pN ops.G dP i := by
    intro i i0 i1
    rw [f4]
    unfold projected
    rw [vec, vec, if_pos (hi i i0 i1), if_pos (hi i i0 i1), mult_vec, hpN]
    rw [hBN] at o4
    have : Mat.mult L.pN ops.BNG dP i = P.dt * Mat.mult L.pN ops.G dP i := by
      rw [eops]
      exact bn_one o4 _ _ _ i0 i1
    rw [this]
    ring
  -- no slip after the force step
  have stick : ∀ r : ℤ, 0 ≤ r → r < ib.nF → Mat.mult L.UN ib.E U r = 0 := by
    intro r r0 r1
    have h := exactF _ _ _ e3 r r0 r1
    unfold assembleRHSForces at h
    simp only at h
    rw [vec, if_pos ⟨r0, r1⟩, mult_vec] at h
    have e : Mat.mult L.UN ib.E U r = Mat.mult L.UN ib.E Us r + Mat.mult ib.nF ib.EBNH df r := by
      rw [h5, mult_mul, mult_congr (y := fun i => Us i + Mat.mult ib.nF ib.BNH df i) (fun i i0 i1 => by rw [eU i i0 i1, eBNH i i0 i1])]
      unfold Mat.mult
      rw [← Finset.sum_add_distrib]
      exact Finset.sum_congr rfl fun _ _ => by ring
    rw [e, h]
    ring
  refine split_identity (v := U) (b' := Mat.mult ib.nF ib.H (x (k + 2)).f) (γ := Mat.mult L.pN ops.G dP) ?_ eV eg (free (k + 1) hk _) ?_
    (free (k + 1) hk _) (free k (by omega) _)
  · intro i i0 i1
    have a1 := eUs i i0 i1
    have a2 := eU i i0 i1
    have a3 := eV i i0 i1
    rw [eb, eg i i0 i1]
    linear_combination a1 + a2 - a3
  · obtain ⟨Δ', _, _, _, hadj⟩ := C55_adjoint S
    have := (hadj vol hvol).2 U (x (k + 2)).f
    unfold work
    rw [this]
    refine Finset.sum_eq_zero fun r hr => ?_
    have hr := Finset.mem_range.1 hr
    rw [stick r (by omega) (by omega), mul_zero]

/-- C92. So in runs of any length the kinetic energy stays bounded, whatever the time step, and so does the sum of the energies of all changes of the
velocity. -/
theorem C92_bounded_partial {ib : IBOps K} {s : IBState K} (S : IBStarted debug L G axes T B P flow bodies kernel window ops ib disk s disk')
    {fSolve : LinSolve K} {x : ℕ → IBState K} (h0 : x 0 = s) (hx : IBTrajectory L G P ops ib vSolve fSolve pSolve x n)
    (hn : ∀ f, f < L.dim → L.periodic 0 f = true → 2 ≤ L.n f f) (hw : AllClosed L T) (hBN : P.BN = 1) (hp : P.pType = .ksp)
    (hdt : P.dt ≠ 0) (hnu : P.nu = 0) (hc : P.conv = eulerImplicit) (exactV : Solves L.UN vSolve ops.A) (exactF : Solves ib.nF fSolve ib.EBNH)
    (exactP : Solves L.pN pSolve ops.DBNG) (vol : ℤ → K) (hvol : IsVolume debug L G vol) (k : ℕ) (hk : k + 1 ≤ n) :
    kinetic L.UN vol (x (k + 1)).ns.U + ∑ j ∈ Finset.range k, kinetic L.UN vol (fun i => (x (j + 2)).ns.U i - (x (j + 1)).ns.U i) ≤
      kinetic L.UN vol (x 1).ns.U + P.dt ^ 2 * kinetic L.UN vol (Mat.mult L.pN ops.G (x 1).ns.p) := by
  have nn := fun a => kinetic_nonneg S.constructed.setup hvol a
  have key : ∀ k, k + 1 ≤ n → kinetic L.UN vol (x (k + 1)).ns.U + P.dt ^ 2 * kinetic L.UN vol (Mat.mult L.pN ops.G (x (k + 1)).ns.p)
      + ∑ j ∈ Finset.range k, kinetic L.UN vol (fun i => (x (j + 2)).ns.U i - (x (j + 1)).ns.U i) ≤
      kinetic L.UN vol (x 1).ns.U + P.dt ^ 2 * kinetic L.UN vol (Mat.mult L.pN ops.G (x 1).ns.p) := by
    intro k
    induction k with
    | zero => intro _; simp
    | succ k ih =>
      intro hk
      have b := C92_balance_partial S h0 hx hn hw hBN hp hdt hnu hc exactV exactF exactP vol hvol k (by omega)
      have ih := ih (by omega)
      rw [Finset.sum_range_succ]
      have := mul_nonneg (sq_nonneg P.dt) (nn fun i => Mat.mult L.pN ops.G (x (k + 2)).ns.p i - Mat.mult L.pN ops.G (x (k + 1)).ns.p i)
      linarith
  have := key k hk
  have := mul_nonneg (sq_nonneg P.dt) (nn (Mat.mult L.pN ops.G (x (k + 1)).ns.p))
  linarith

end PetIBM
