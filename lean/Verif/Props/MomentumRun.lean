/-
Total momentum of runs (C101).
-/
import Verif.Lemmas.MomentumRun
import Verif.Props.SingleCell
import Verif.Props.MovingRuns
import Verif.Props.BodyStart

set_option linter.unusedSectionVars false

namespace PetIBM

open Spec

section

variable {K : Type} [Field K] [LinearOrder K] [IsStrictOrderedRing K] {debug : Bool} {L : Layout} {G : Geom K} {axes : ℕ → Axis K}
  {T : BCTable K} {B : ℕ → Boundary K} {P : NSParams K} {flow : Option (FlowNode K)} {ops : NSOps K} {bodies : BodyPack K}
  {kernel : DeltaKernel K} {window : ℕ} {vSolve pSolve : LinSolve K} {disk disk' : Disk K} {n : ℕ} {vol e : ℤ → K} {f : ℕ}

theorem two_cells (hn : ∀ f d, f < L.dim → d < L.dim → L.periodic 0 d = true → 3 ≤ L.n f d) :
    ∀ f, f < L.dim → L.periodic 0 f = true → 2 ≤ L.n f f := fun f hf hp => by have := hn f f hf hf hp; omega

/-- C101. Along a direction in which no side of the domain holds back the flow, a step of the flow solver does not change the momentum.
The velocity solver must be exact, the Poisson solver need not be. Missing: periodic directions with fewer than three cells
(`C101_false_two_periodic_cells`), the first step of a restart with the method of Adams and Bashforth, whose oldest term comes from a file. -/
theorem C101_step_partial {s : NSState K} (S : Started debug L G axes T B P flow ops disk s disk') {x : ℕ → NSState K} (h0 : x 0 = s)
    (hx : Trajectory L G P ops vSolve pSolve x n) (hn : ∀ f d, f < L.dim → d < L.dim → L.periodic 0 d = true → 3 ≤ L.n f d) (hf : f < L.dim)
    (hw : FreeAlong L T f) (hdt : P.dt ≠ 0) (exact : Solves L.UN vSolve ops.A) (hvol : IsVolume debug L G vol) (he : IsComponent debug L f e)
    (k : ℕ) (hk : k < n) (hs : Remembers P k) : momentum L.UN vol e (x (k + 1)).U = momentum L.UN vol e (x k).U := by
  have C := S.constructed
  obtain ⟨u, hops, R⟩ := S.reach_at h0 hx
  have hpN := createOperators_pN hops
  obtain ⟨D, Dm, Gr, La, Lm, BN, o1, o2, o3, o4, eops⟩ := createOperators_ok hops
  have hG : ops.G = Gr := by rw [eops]
  have hBNG : ops.BNG = Mat.mul L.UN BN ops.G := by rw [eops]
  have Q := conserving (P := P) C hw hn hvol he (ops := ops) (u := u) (by rw [o3, eops]) (by rw [eops])
  obtain ⟨w, U, dP, h1, h2, h3, h4, _⟩ := advance_ok C S.schemes.1.1 S.schemes.2.1 (R k hk.le) (hx k hk)
  obtain ⟨t1, t2⟩ := terms_momentum (k := k) C S.schemes.1.1 S.schemes.2.1 hf hw hvol he Q (fun m hm => R m (by omega))
    (fun m hm => ⟨(vSolve, pSolve), hx m (by omega)⟩) (by rw [h0]; exact known_of (C40_first_steps S) hs) h1
  have hU := system_momentum Q hdt (R k hk.le) t1 t2 (U := U) (F := fun _ => 0) fun i i0 i1 => by
    rw [add_zero]; exact exact _ _ _ h2 i i0 i1
  have grad := fun p => gradient_momentum C hw (two_cells hn) ⟨u, [], rfl⟩ o1 o2 hvol he p
  rw [momentum_zero, hpN, hG, grad] at hU
  rw [h4]
  unfold projected
  rw [momentum_add, momentum_mul, momentum_vec, momentum_vec, hBNG, momentum_congr fun i _ _ => mult_mul _ _ _ _ _ i, hG,
    Q.inverse BN (by rw [eops]; exact o4), hpN, grad, hU]
  ring

/-- C101. In a run from step 0 the momentum along such a direction is that of the initial velocity at every step. Missing: periodic directions
with fewer than three cells (`C101_false_two_periodic_cells`). -/
theorem C101_run_partial {s : NSState K} (S : Started debug L G axes T B P flow ops disk s disk') {x : ℕ → NSState K} (h0 : x 0 = s)
    (hx : Trajectory L G P ops vSolve pSolve x n) (hn : ∀ f d, f < L.dim → d < L.dim → L.periodic 0 d = true → 3 ≤ L.n f d) (hf : f < L.dim)
    (hw : FreeAlong L T f) (hdt : P.dt ≠ 0) (exact : Solves L.UN vSolve ops.A) (hvol : IsVolume debug L G vol) (he : IsComponent debug L f e)
    (hs : P.nstart = 0) (k : ℕ) (hk : k ≤ n) : momentum L.UN vol e (x k).U = momentum L.UN vol e s.U := by
  induction k with
  | zero => rw [h0]
  | succ k ih => rw [C101_step_partial S h0 hx hn hf hw hdt exact hvol he k hk (Or.inl hs), ih (by omega)]

/-- The momentum after a step of the solvers that compute forces, pressure and velocity one after the other. -/
theorem decoupled_balance (C : Constructed debug L G axes T B) (hc : P.conv.explicitCoeffs.length = P.conv.nExplicit)
    (hd : P.diff.explicitCoeffs.length = P.diff.nExplicit) (hn : ∀ f d, f < L.dim → d < L.dim → L.periodic 0 d = true → 3 ≤ L.n f d)
    (hf : f < L.dim) (hw : FreeAlong L T f) (hdt : P.dt ≠ 0) (hvol : IsVolume debug L G vol) (he : IsComponent debug L f e)
    {u : ℤ → K} (hops : createOperators debug L G P (fun r => (B r).run [.setGhostICs u]) = .ok ops)
    {x : ℕ → NSState K} {k : ℕ} (R : ∀ m, m ≤ k → Reach L B P ops.pN u (x m))
    (hadv : ∀ m, m < k → ∃ s : LinSolve K × LinSolve K, advance L G P ops s.1 s.2 (x m) = .ok (x (m + 1)))
    (hstart : Known P k (x 0).conv (x 0).diff)
    {ib : IBOps K} {UB : Option (ℤ → K)} {fSolve : LinSolve K} {s s' : IBState K} (hs : s.ns = x k)
    (h : decoupledAdvance L G P ops ib UB vSolve fSolve pSolve s = .ok s') (exact : Solves L.UN vSolve ops.A) {BN : Mat K}
    (hBN : createBnHead L.UN ops.L P.dt (P.diff.implicitCoeff * P.nu) P.BN = .ok BN) (hH : ib.BNH = Mat.mul L.UN BN ib.H) :
    momentum L.UN vol e s'.ns.U = momentum L.UN vol e s.ns.U + P.dt * momentum L.UN vol e (Mat.mult ib.nF ib.H s'.f) := by
  have Rk : Reach L B P ops.pN u s.ns := by rw [hs]; exact R k le_rfl
  obtain ⟨w, Us, df, e1, e2, e3, ha, e5, e6⟩ := decoupled_ok C hc hd Rk h
  obtain ⟨w', U, dP, f1, f2, f3, f4, _⟩ := advance_ok C hc hd Rk ha
  have f2 := Except.ok.inj f2
  have hpN := createOperators_pN hops
  obtain ⟨D, Dm, Gr, La, Lm, BN', o1, o2, o3, o4, eops⟩ := createOperators_ok hops
  have hG : ops.G = Gr := by rw [eops]
  have hBNG : ops.BNG = Mat.mul L.UN BN' ops.G := by rw [eops]
  have Q := conserving (P := P) C hw hn hvol he (ops := ops) (u := u) (by rw [o3, eops]) (by rw [eops])
  obtain ⟨t1, t2⟩ := terms_momentum C hc hd hf hw hvol he Q R hadv hstart (by rw [← hs]; exact e1)
  rw [← hs] at t1 t2
  have hU := system_momentum Q hdt Rk t1 t2 (U := Us) (F := vec L.UN (Mat.mult ib.nF ib.H s.f)) fun i i0 i1 => exact _ _ _ e2 i i0 i1
  have grad := fun p => gradient_momentum C hw (two_cells hn) ⟨u, [], rfl⟩ o1 o2 hvol he p
  rw [momentum_vec, hpN, hG, grad] at hU
  have hf' : momentum L.UN vol e (Mat.mult ib.nF ib.H s'.f) =
      momentum L.UN vol e (Mat.mult ib.nF ib.H s.f) + momentum L.UN vol e (Mat.mult ib.nF ib.H (vec ib.nF df)) := by
    rw [← momentum_add, e5]
    refine momentum_congr fun i _ _ => ?_
    unfold Mat.mult
    rw [← Finset.sum_add_distrib]
    exact Finset.sum_congr rfl fun j _ => by ring
  rw [f4, ← f2, hf']
  unfold projected
  rw [momentum_add, momentum_mul, momentum_vec, momentum_vec, hBNG, momentum_congr (x := Mat.mult _ (Mat.mul _ _ _) _) fun i _ _ => mult_mul _ _ _ _ _ i,
    hG, Q.inverse BN' (by rw [eops]; exact o4), hpN, grad, momentum_add, momentum_vec, momentum_vec, hU, hH,
    momentum_congr (x := Mat.mult _ (Mat.mul _ _ _) _) fun i _ _ => mult_mul _ _ _ _ _ i, Q.inverse BN hBN]
  ring

/-- C101. In a run with bodies a step changes the momentum by the step size times the spread forces. Missing: periodic directions with fewer
than three cells (`C101_false_two_periodic_cells`), the first step of a restart with the method of Adams and Bashforth. -/
theorem C101_decoupled_partial {ib : IBOps K} {s : IBState K} (S : IBStarted debug L G axes T B P flow bodies kernel window ops ib disk s disk')
    {fSolve : LinSolve K} {x : ℕ → IBState K} (h0 : x 0 = s) (hx : IBTrajectory L G P ops ib vSolve fSolve pSolve x n)
    (hn : ∀ f d, f < L.dim → d < L.dim → L.periodic 0 d = true → 3 ≤ L.n f d) (hf : f < L.dim) (hw : FreeAlong L T f) (hdt : P.dt ≠ 0)
    (exact : Solves L.UN vSolve ops.A) (hvol : IsVolume debug L G vol) (he : IsComponent debug L f e) :
    ∃ Δ, IsDelta debug L axes B bodies kernel window Δ ∧ ∀ k, k < n → Remembers P k →
      momentum L.UN vol e (x (k + 1)).ns.U =
        momentum L.UN vol e (x k).ns.U + P.dt * momentum L.UN vol e (spread (bodies.nPts * bodies.dim) Δ (x (k + 1)).f) := by
  have C := S.constructed
  have F := S.started
  obtain ⟨Δ, BN, h1, hBN, h2, h3, h4, h4', h5⟩ := S.operators
  obtain ⟨u, hops, R⟩ := S.reach_at h0 hx
  refine ⟨Δ, h1, fun k hk hs => ?_⟩
  have hadv : ∀ m, m < k → ∃ s : LinSolve K × LinSolve K, advance L G P ops s.1 s.2 (x m).ns = .ok (x (m + 1)).ns := by
    intro m hm
    obtain ⟨w, Us, df, _, _, _, ha, _⟩ := decoupled_ok C F.schemes.1.1 F.schemes.2.1 (R m (by omega)) (hx m (by omega))
    exact ⟨(_, pSolve), ha⟩
  have := decoupled_balance (x := fun m => (x m).ns) (k := k) C F.schemes.1.1 F.schemes.2.1 hn hf hw hdt hvol he hops
    (fun m hm => R m (by omega)) hadv (by simp only [h0]; exact known_of (C40_first_steps F) hs) rfl (hx k hk) exact hBN h4'
  rw [h2, h3] at this
  exact this

/-- C101. The same with prescribed motion: the new forces act at the new positions of the points. Missing: as for `C101_decoupled_partial`. -/
theorem C101_moving_partial {M : Motion K} {s : RigidState K} (S : RigidStarted debug L G axes T B P flow bodies M kernel window ops disk s disk')
    {fSolve : LinSolve K} {x : ℕ → RigidState K} (h0 : x 0 = s)
    (hx : RigidTrajectory debug L G axes P ops M kernel window vSolve fSolve pSolve x n)
    (hn : ∀ f d, f < L.dim → d < L.dim → L.periodic 0 d = true → 3 ≤ L.n f d) (hf : f < L.dim) (hw : FreeAlong L T f) (hdt : P.dt ≠ 0)
    (exact : Solves L.UN vSolve ops.A) (hvol : IsVolume debug L G vol) (he : IsComponent debug L f e) (k : ℕ) (hk : k < n) (hs : Remembers P k) :
    ∃ Δ, IsDelta debug L axes B (x (k + 1)).bodies kernel window Δ ∧ momentum L.UN vol e (x (k + 1)).ns.U =
      momentum L.UN vol e (x k).ns.U +
        P.dt * momentum L.UN vol e (spread ((x (k + 1)).bodies.nPts * (x (k + 1)).bodies.dim) Δ (x (k + 1)).f) := by
  have C := S.started.constructed
  have F := S.started.started
  obtain ⟨u, hops, R⟩ := S.reach_at h0 hx
  have hadv : ∀ m, m < k → ∃ s : LinSolve K × LinSolve K, advance L G P ops s.1 s.2 (x m).ns = .ok (x (m + 1)).ns := by
    intro m hm
    obtain ⟨_, _, _, h⟩ := rigid_ok (hx m (by omega))
    obtain ⟨w, Us, df, _, _, _, ha, _⟩ := decoupled_ok C F.schemes.1.1 F.schemes.2.1 (R m (by omega)).1 h
    exact ⟨(_, pSolve), ha⟩
  obtain ⟨_, _, ⟨idx, hi, hE⟩, h⟩ := rigid_ok (hx k hk)
  obtain ⟨hh, hB, -⟩ := (R k hk.le).1.hist
  rw [hB] at hE
  obtain ⟨Δ, BN, h1, hBN, h2, h3, h4, h4', h5⟩ := createExtra_ok C hi hE
  have := decoupled_balance (x := fun m => (x m).ns) (k := k) C F.schemes.1.1 F.schemes.2.1 hn hf hw hdt hvol he hops
    (fun m hm => (R m (by omega)).1) hadv (by simp only [h0]; exact known_of (C40_first_steps F) hs) rfl h exact hBN h4'
  rw [h2, h3] at this
  exact ⟨Δ, h1, this⟩

/-- C101. The same for the solver that computes pressure and forces together. Missing: as for `C101_decoupled_partial`. -/
theorem C101_coupled_partial {s : NSState K} (S : CoupledStarted debug L G axes T B P flow bodies kernel window ops disk s disk')
    {x : ℕ → NSState K} (h0 : x 0 = s) (hx : CoupledTrajectory L G P (nestCounts L bodies) ops vSolve pSolve x n)
    (hn : ∀ f d, f < L.dim → d < L.dim → L.periodic 0 d = true → 3 ≤ L.n f d) (hf : f < L.dim) (hw : FreeAlong L T f) (hdt : P.dt ≠ 0)
    (exact : Solves L.UN vSolve ops.A) (hvol : IsVolume debug L G vol) (he : IsComponent debug L f e) :
    ∃ Δ, IsDelta debug L axes B bodies kernel window Δ ∧ ∀ k, k < n → Remembers P k →
      momentum L.UN vol e (x (k + 1)).U = momentum L.UN vol e (x k).U +
        P.dt * momentum L.UN vol e (spread (bodies.nPts * bodies.dim) Δ (subForces (nestCounts L bodies) (x (k + 1)).p)) := by
  have C := S.constructed
  obtain ⟨Gr, Δ, hG, hΔ, hr⟩ := coupled_gradient S
  obtain ⟨u, E, H, hops, R⟩ := S.reach_at h0 hx
  refine ⟨Δ, hΔ, fun k hk hs => ?_⟩
  have hadv : ∀ m, m < n → ∃ s : LinSolve K × LinSolve K, advance L G P ops s.1 s.2 (x m) = .ok (x (m + 1)) := by
    intro m hm
    obtain ⟨w, U, dP, _, _, _, ha⟩ := coupled_ok C S.schemes.1.1 S.schemes.2.1 (R m hm.le) (hx m hm)
    exact ⟨(vSolve, fun _ _ _ => .ok dP), ha⟩
  obtain ⟨w, U, dP, h1, h2, h3, ha⟩ := coupled_ok C S.schemes.1.1 S.schemes.2.1 (R k hk.le) (hx k hk)
  obtain ⟨w', U', dP', e1, e2, e3, h4, h5, _⟩ := advance_ok C S.schemes.1.1 S.schemes.2.1 (R k hk.le) ha
  have e3 := Except.ok.inj e3
  subst e3
  rw [h1] at e1
  cases e1
  rw [h2] at e2
  have e2 := Except.ok.inj e2
  subst e2
  obtain ⟨D, Dm, Gr', La, Lm, BN, idx, o1, o2, o3, o4, o5, o6, eops⟩ := ibpmCreate_ok hops
  rw [hG] at o2
  cases o2
  have hBNG : ops.BNG = Mat.mul L.UN BN ops.G := by rw [eops]
  have Q := conserving (P := P) C hw hn hvol he (ops := ops) (u := u) (by rw [o3, eops]) (by rw [eops])
  obtain ⟨t1, t2⟩ := terms_momentum (k := k) C S.schemes.1.1 S.schemes.2.1 hf hw hvol he Q (fun m hm => R m (by omega))
    (fun m hm => hadv m (by omega)) (by rw [h0]; exact known_of (coupled_first S) hs) h1
  have hU := system_momentum Q hdt (R k hk.le) t1 t2 (U := U) (F := fun _ => 0) fun i i0 i1 => by
    rw [add_zero]; exact exact _ _ _ h2 i i0 i1
  have hp : momentum L.UN vol e (Mat.mult ops.pN ops.G (x (k + 1)).p) =
      momentum L.UN vol e (Mat.mult ops.pN ops.G (x k).p) + momentum L.UN vol e (Mat.mult ops.pN ops.G (vec ops.pN dP)) := by
    rw [← momentum_add, h5]
    refine momentum_congr fun i _ _ => ?_
    unfold Mat.mult
    rw [← Finset.sum_add_distrib]
    exact Finset.sum_congr rfl fun j _ => by ring
  have hg : momentum L.UN vol e (Mat.mult ops.pN ops.G (x (k + 1)).p) =
      -momentum L.UN vol e (spread (bodies.nPts * bodies.dim) Δ (subForces (nestCounts L bodies) (x (k + 1)).p)) := by
    rw [momentum_congr fun i _ _ => hr (x (k + 1)).p i]
    unfold reaction
    simp only [sub_eq_add_neg]
    rw [momentum_add, gradient_momentum C hw (two_cells hn) ⟨u, [], rfl⟩ o1 hG hvol he, zero_add]
    rw [show (fun i => -spread (bodies.nPts * bodies.dim) Δ (subForces (nestCounts L bodies) (x (k + 1)).p) i) =
      fun i => (-1) * spread (bodies.nPts * bodies.dim) Δ (subForces (nestCounts L bodies) (x (k + 1)).p) i from funext fun i => by ring, momentum_mul]
    ring
  rw [momentum_zero] at hU
  rw [h4]
  unfold projected
  rw [momentum_add, momentum_mul, momentum_vec, momentum_vec, hBNG, momentum_congr (x := Mat.mult _ (Mat.mul _ _ _) _) fun i _ _ => mult_mul _ _ _ _ _ i,
    Q.inverse BN (by rw [eops]; exact o6), hU]
  linear_combination P.dt * hp - P.dt * hg

end

/-! ### Reported forces -/

section

variable {debug : Bool} {L : Layout} {G : Geom ℝ} {axes : ℕ → Axis ℝ} {T : BCTable ℝ} {B : ℕ → Boundary ℝ} {P : NSParams ℝ}
  {flow : Option (FlowNode ℝ)} {ops : NSOps ℝ} {bodies : BodyPack ℝ} {kernel : DeltaKernel ℝ} {vSolve pSolve : LinSolve ℝ} {disk disk' : Disk ℝ}
  {n : ℕ} {vol e : ℤ → ℝ} {f : ℕ} {name : String} {sup : ℝ} {size : ℤ} {h : ℕ → ℝ}

/-- C101. The force that is reported for the bodies is the momentum that the flow loses, per time. Bodies at rest, one solver after the other.
Missing: as for `C101_decoupled_partial`; bodies near the sides of the domain or where the mesh is stretched. -/
theorem C101_reported_partial {ib : IBOps ℝ} {s : IBState ℝ}
    (S : IBStarted debug L G axes T B P flow bodies kernel size.toNat ops ib disk s disk')
    {fSolve : LinSolve ℝ} {x : ℕ → IBState ℝ} (h0 : x 0 = s) (hx : IBTrajectory L G P ops ib vSolve fSolve pSolve x n)
    (hn : ∀ f d, f < L.dim → d < L.dim → L.periodic 0 d = true → 3 ≤ L.n f d) (hf : f < L.dim) (hw : FreeAlong L T f) (hdt : P.dt ≠ 0)
    (exact : Solves L.UN vSolve ops.A) (hvol : IsVolume debug L G vol) (he : IsComponent debug L f e)
    (hsup : Support name sup) (hker : getKernel name = .ok (kernel, size)) (hh : ∀ d, d < L.dim → 0 < h d)
    (hu : NearUniform L axes bodies h sup size.toNat) (k : ℕ) (hk : k < n) (hs : Remembers P k) :
    (momentum L.UN vol e (x (k + 1)).ns.U - momentum L.UN vol e (x k).ns.U) / P.dt =
      -∑ b ∈ Finset.range bodies.bodies.length, ((bodies.calculateAvgForces (x (k + 1)).f).getD b []).getD f 0 := by
  obtain ⟨Δ, hΔ, key⟩ := C101_decoupled_partial S h0 hx hn hf hw hdt exact hvol he
  rw [key k hk hs, ← C55_total_force S.constructed S.fit hsup hker hΔ hh hu hvol hf he (x (k + 1)).f]
  unfold momentum
  field_simp
  ring

/-- C101. The same for moving bodies, if they are there where the mesh is uniform and away from the sides at the new time. Missing: as for
`C101_reported_partial`. -/
theorem C101_reported_moving_partial {M : Motion ℝ} {s : RigidState ℝ}
    (S : RigidStarted debug L G axes T B P flow bodies M kernel size.toNat ops disk s disk')
    {fSolve : LinSolve ℝ} {x : ℕ → RigidState ℝ} (h0 : x 0 = s)
    (hx : RigidTrajectory debug L G axes P ops M kernel size.toNat vSolve fSolve pSolve x n)
    (hn : ∀ f d, f < L.dim → d < L.dim → L.periodic 0 d = true → 3 ≤ L.n f d) (hf : f < L.dim) (hw : FreeAlong L T f) (hdt : P.dt ≠ 0)
    (exact : Solves L.UN vSolve ops.A) (hvol : IsVolume debug L G vol) (he : IsComponent debug L f e)
    (hsup : Support name sup) (hker : getKernel name = .ok (kernel, size)) (hh : ∀ d, d < L.dim → 0 < h d) (k : ℕ) (hk : k < n)
    (hu : NearUniform L axes (x (k + 1)).bodies h sup size.toNat) (hs : Remembers P k) :
    (momentum L.UN vol e (x (k + 1)).ns.U - momentum L.UN vol e (x k).ns.U) / P.dt =
      -∑ b ∈ Finset.range (x (k + 1)).bodies.bodies.length, (((x (k + 1)).bodies.calculateAvgForces (x (k + 1)).f).getD b []).getD f 0 := by
  obtain ⟨Δ, hΔ, key⟩ := C101_moving_partial S h0 hx hn hf hw hdt exact hvol he k hk hs
  obtain ⟨u, _, R⟩ := S.reach_at h0 hx
  rw [key, ← C55_total_force S.started.constructed (R (k + 1) hk).2 hsup hker hΔ hh hu hvol hf he (x (k + 1)).f]
  unfold momentum
  field_simp
  ring

/-- C101. The same for the solver that computes pressure and forces together; the forces are those in the composite vector. Missing: as for
`C101_reported_partial`. -/
theorem C101_reported_coupled_partial {s : NSState ℝ}
    (S : CoupledStarted debug L G axes T B P flow bodies kernel size.toNat ops disk s disk')
    {x : ℕ → NSState ℝ} (h0 : x 0 = s) (hx : CoupledTrajectory L G P (nestCounts L bodies) ops vSolve pSolve x n)
    (hn : ∀ f d, f < L.dim → d < L.dim → L.periodic 0 d = true → 3 ≤ L.n f d) (hf : f < L.dim) (hw : FreeAlong L T f) (hdt : P.dt ≠ 0)
    (exact : Solves L.UN vSolve ops.A) (hvol : IsVolume debug L G vol) (he : IsComponent debug L f e)
    (hsup : Support name sup) (hker : getKernel name = .ok (kernel, size)) (hh : ∀ d, d < L.dim → 0 < h d)
    (hu : NearUniform L axes bodies h sup size.toNat) (k : ℕ) (hk : k < n) (hs : Remembers P k) :
    (momentum L.UN vol e (x (k + 1)).U - momentum L.UN vol e (x k).U) / P.dt =
      -∑ b ∈ Finset.range bodies.bodies.length,
        ((bodies.calculateAvgForces (subForces (nestCounts L bodies) (x (k + 1)).p)).getD b []).getD f 0 := by
  obtain ⟨Δ, hΔ, key⟩ := C101_coupled_partial S h0 hx hn hf hw hdt exact hvol he
  rw [key k hk hs, ← C55_total_force S.constructed S.fit hsup hker hΔ hh hu hvol hf he (subForces (nestCounts L bodies) (x (k + 1)).p)]
  unfold momentum
  field_simp
  ring

end

/-! ### Examples -/

theorem exists_component {K : Type} [Field K] {L : Layout} (hL : LayoutOK L) (debug : Bool) {f : ℕ} (hf : f < L.dim) :
    ∃ e : ℤ → K, IsComponent debug L f e := by
  classical
  refine ⟨fun c => if ∃ s, Inside L.toMeshInfo f s ∧ col L f s = c then 1 else 0, ?_⟩
  intro g s idx hg hs hi
  rw [(col_inside hL (Or.inl hg) debug hs).1] at hi
  cases hi
  dsimp only
  by_cases h : g = f
  · subst h
    rw [if_pos rfl, if_pos ⟨s, hs, rfl⟩]
  · rw [if_neg h, if_neg]
    rintro ⟨t, ht, e⟩
    exact h (col_inj hL hf hg ht hs e).1.symm

/-- A channel with walls that let the fluid slip, periodic in x, stretched in both directions, on two processes. -/
def slipAxes : ℕ → Axis ℚ := fun d => if d = 0 then ⟨0, 4, [1, 2, 1]⟩ else ⟨0, 3, [1, 2]⟩

abbrev slipLayout : Layout := meshLayout 2 slipAxes (fun _ d => decide (d = 0)) fun d => if d = 0 then 2 else 1

abbrev slipGeom : Geom ℚ := meshGeom 2 slipAxes fun _ d => decide (d = 0)

def slipTable : BCTable ℚ := fun f loc => if loc < 2 then (.PERIODIC, 0) else if f = 0 then (.NEUMANN, 0) else (.DIRICHLET, 0)

theorem slip_constructed : ∃ B, Constructed true slipLayout slipGeom slipAxes slipTable B := by
  apply C57_construction true (Or.inl rfl) (fun d _ => ?_) (fun _ _ _ _ => rfl)
  · intro d hd; interval_cases d <;> simp
  · intro f d hf hd
    rcases hf with hf | rfl
    · interval_cases d <;> interval_cases f <;> decide
    · interval_cases d <;> decide
  · intro f loc hf hl
    change f < 2 at hf
    change loc < 4 at hl
    interval_cases f <;> interval_cases loc <;> simp [slipTable]
  · intro f loc hf hl
    change f < 2 at hf
    change loc < 4 at hl
    interval_cases f <;> interval_cases loc <;> simp [slipTable]
  · unfold slipAxes
    split_ifs
    · exact ⟨by simp, by simp, by norm_num⟩
    · exact ⟨by simp, by simp, by norm_num⟩

/-- C101: runs of any length in the slip channel that meet the hypotheses, with an initial momentum that is not zero. -/
example : ∃ (B : ℕ → Boundary ℚ) (ops : NSOps ℚ) (s : NSState ℚ) (d : Disk ℚ) (x : ℕ → NSState ℚ) (vol e : ℤ → ℚ), Started true slipLayout slipGeom slipAxes slipTable B (boxParams (1 / 4) 1 adamsBashforth2 crankNicolson)
      (some ⟨some 1, some [fun _ y _ _ _ => 1 + y, fun x y _ _ _ => x * y], none⟩) ops (fun _ => none) s d ∧ x 0 = s ∧
    (∀ n, Trajectory slipLayout slipGeom (boxParams (1 / 4) 1 adamsBashforth2 crankNicolson) ops (exactSolve slipLayout.UN)
      (exactSolve slipLayout.pN) x n) ∧
    (∀ f d, f < slipLayout.dim → d < slipLayout.dim → slipLayout.periodic 0 d = true → 3 ≤ slipLayout.n f d) ∧ FreeAlong slipLayout slipTable 0 ∧
    Solves slipLayout.UN (exactSolve slipLayout.UN) ops.A ∧ IsVolume true slipLayout slipGeom vol ∧ IsComponent true slipLayout 0 e := by
  obtain ⟨B, C⟩ := slip_constructed
  obtain ⟨ops, s, d, S⟩ := C60_start (P := boxParams (1 / 4) 1 adamsBashforth2 crankNicolson) C 1
    [fun _ y _ _ _ => 1 + y, fun x y _ _ _ => x * y] none (le_refl 2) (by decide)
    ⟨false, "out", some (boxNode (1 / 4) "ADAMS_BASHFORTH_2" "CRANK_NICOLSON"), rfl⟩ (le_refl 1) rfl (fun _ => none)
  have hn : ∀ f d, f < slipLayout.dim → d < slipLayout.dim → slipLayout.periodic 0 d = true → 3 ≤ slipLayout.n f d := by
    intro f d hf hd
    change f < 2 at hf
    change d < 2 at hd
    interval_cases f <;> interval_cases d <;> decide
  obtain ⟨x, x0, hx, -⟩ := C62_runs_partial S (vSolve := exactSolve slipLayout.UN) (pSolve := exactSolve slipLayout.pN)
    (fun f d hf hd hp => by have := hn f d hf hd hp; omega) (fun f loc hf hl => by
      change f < 2 at hf
      have : loc < 4 := by omega
      interval_cases loc <;> simp at hl <;> subst hl <;> simp [slipTable]) (by decide +kernel) (Or.inl rfl) rfl (by norm_num [boxParams])
    (by norm_num [boxParams]) (exactSolve_finds _ _) (exactSolve_finds _ _) (exactSolve_solves _ _)
  obtain ⟨vol, hvol⟩ := exists_volume C.setup true
  obtain ⟨e, he⟩ := exists_component (K := ℚ) C.setup.layout true (f := 0) (by decide)
  refine ⟨B, ops, s, d, x, vol, e, S, x0, hx, hn, ⟨rfl, fun loc hl hp => ?_⟩, exactSolve_solves _ _, hvol, he⟩
  change loc < 4 at hl
  interval_cases loc
  · cases hp
  · cases hp
  · exact ⟨rfl, rfl⟩
  · exact ⟨rfl, rfl⟩

/-- Momentum of the first component (divided by the mean width of the cells) before and after the step of `quadRun`. -/
theorem quadRun_momentum : (quadRun.toOption.map fun q => decide (q.2.2.U 0 + q.2.2.U 1 + 2 * (q.2.2.U 2 + q.2.2.U 3) ≠
    q.2.1.U 0 + q.2.1.U 1 + 2 * (q.2.1.U 2 + q.2.1.U 3))) = some true := by decide +kernel

/-- C101 is false with two cells in a periodic direction, where the Laplacian of a constant velocity is not zero (`C22`): on a torus without
any walls and bodies the momentum changes in the first step. -/
theorem C101_false_two_periodic_cells : ∃ (L : Layout) (G : Geom ℚ) (axes : ℕ → Axis ℚ) (T : BCTable ℚ) (B : ℕ → Boundary ℚ) (P : NSParams ℚ)
    (flow : Option (FlowNode ℚ)) (ops : NSOps ℚ) (disk disk' : Disk ℚ) (s : NSState ℚ) (x : ℕ → NSState ℚ) (v p : LinSolve ℚ),
    Started true L G axes T B P flow ops disk s disk' ∧ P.nstart = 0 ∧ x 0 = s ∧ Trajectory L G P ops v p x 1 ∧
    (∀ f d, f < L.dim → d < L.dim → 2 ≤ L.n f d) ∧ P.dt ≠ 0 ∧ FreeAlong L T 0 ∧ Solves L.UN v ops.A ∧ Solves L.pN p ops.DBNG ∧
    ∀ vol e, IsVolume true L G vol → IsComponent true L 0 e → momentum L.UN vol e (x 1).U ≠ momentum L.UN vol e (x 0).U := by
  obtain ⟨⟨ops, s, t⟩, h, hne⟩ := Option.map_eq_some_iff.1 quadRun_momentum
  have hne := of_decide_eq_true hne
  obtain ⟨⟨ops', s'⟩, h1, h⟩ := bind_ok (toOption_ok h)
  obtain ⟨t', h2, h⟩ := bind_ok h
  cases h
  obtain ⟨x, x0, xn, hx⟩ := steps_ok h2
  have C := quad_constructed
  have hite : s.ite = 0 := by
    obtain ⟨U, _, _, _, rfl⟩ := solverInit_ok h1
    rfl
  obtain ⟨file, hf, _⟩ := writeSolution_spec C.setup.layout s (fun _ => none) (stepPath (boxParams 1 1 eulerExplicit eulerExplicit).output s.ite)
  have S : Started true quadLayout quadGeom twoAxes stripTable quadB (boxParams 1 1 eulerExplicit eulerExplicit) (some quadFlow) ops
      (fun _ => none) s (Function.update (fun _ => none) (stepPath (boxParams 1 1 eulerExplicit eulerExplicit).output s.ite) (some file)) := by
    refine ⟨C, ⟨false, "out", some (boxNode 1 "EULER_EXPLICIT" "EULER_EXPLICIT"), rfl⟩, s, h1, ?_⟩
    unfold ioInitialData
    rw [if_pos hite, hf]
    rfl
  obtain ⟨u1, u2⟩ := quad_sizes
  refine ⟨_, _, _, _, _, boxParams 1 1 eulerExplicit eulerExplicit, _, ops, _, _, s, x, gaussSolve 8, gaussSolve 4, S, rfl, x0, hx,
    ?_, by norm_num [boxParams], ⟨rfl, fun loc _ hl => by cases hl⟩, by rw [u1]; exact gaussSolve_exact _ _, by rw [u2]; exact gaussSolve_exact _ _, ?_⟩
  · intro f d hf hd
    have hf : f < 2 := hf
    have hd : d < 2 := hd
    interval_cases f <;> interval_cases d <;> decide
  · intro vol e hvol he hm
    apply hne
    have at' : ∀ (f : ℕ) (j i c : ℤ), f < 2 → 0 ≤ j → j < 2 → 0 ≤ i → i < 2 → quadLayout.getPackedGlobalIndex true f ⟨0, j, i, 0⟩ = .ok c →
        vol c * e c = if f = 0 then (3 / 2 * ((j : ℚ) + 1) : ℚ) else 0 := by
      intro f j i c hf hj0 hj hi0 hi h
      have hin : Inside quadLayout.toMeshInfo f ⟨0, j, i, 0⟩ := by
        interval_cases f <;> interval_cases j <;> interval_cases i <;> (unfold Inside; decide)
      rw [hvol f _ c hf hin h, he f _ c hf hin h, show quadLayout.dim = 2 from rfl, Finset.prod_range_succ, Finset.prod_range_one]
      interval_cases f
      · interval_cases j <;> interval_cases i <;> decide +kernel
      · simp
    rw [x0, xn, u1] at hm
    unfold momentum at hm
    simp only [Finset.sum_range_succ, Finset.sum_range_zero, Nat.cast_ofNat, Nat.cast_zero, Nat.cast_one] at hm
    rw [at' 0 0 0 0 (by decide) (by decide) (by decide) (by decide) (by decide) (by decide),
      at' 0 0 1 1 (by decide) (by decide) (by decide) (by decide) (by decide) (by decide),
      at' 0 1 0 2 (by decide) (by decide) (by decide) (by decide) (by decide) (by decide),
      at' 0 1 1 3 (by decide) (by decide) (by decide) (by decide) (by decide) (by decide),
      at' 1 0 0 4 (by decide) (by decide) (by decide) (by decide) (by decide) (by decide),
      at' 1 0 1 5 (by decide) (by decide) (by decide) (by decide) (by decide) (by decide),
      at' 1 1 0 6 (by decide) (by decide) (by decide) (by decide) (by decide) (by decide),
      at' 1 1 1 7 (by decide) (by decide) (by decide) (by decide) (by decide) (by decide)] at hm
    norm_num at hm
    linarith

/-! A body in the middle of a domain without walls. -/

noncomputable def floatAxes : ℕ → Axis ℝ := fun _ => ⟨0, 10, [1, 1, 1, 1, 1, 1, 1, 1, 1, 1]⟩

noncomputable abbrev floatLayout : Layout := meshLayout 2 floatAxes (fun _ _ => true) fun _ => 1

noncomputable abbrev floatGeom : Geom ℝ := meshGeom 2 floatAxes fun _ _ => true

/-- One point. -/
noncomputable def floatPack (x : ℝ) : BodyPack ℝ := ⟨2, 1, [⟨2, 1, [[x, 5]], [1]⟩]⟩

noncomputable def floatNode : ParamNode ℝ :=
  { dt := some 1, startStep := none, t := none, nt := some 3, nsave := some 1, nrestart := some 1, BN := none,
    schemes := fun key => if key = "convection" then some "ADAMS_BASHFORTH_2" else some "CRANK_NICOLSON",
    velocitySolver := none, poissonSolver := none }

noncomputable def floatParams : NSParams ℝ :=
  { dt := 1, nstart := 0, t := 0, nt := 3, nsave := 1, nrestart := 1, nu := 1, BN := 1,
    conv := adamsBashforth2, diff := crankNicolson, vType := .ksp, pType := .ksp, output := "out" }

noncomputable def floatVelocity : List (Expr ℝ) := [fun _ _ _ _ _ => 1, fun x _ _ _ _ => x]

theorem float_params : ∃ haveAmgX output node, readParams haveAmgX output node (some ⟨some 1, some floatVelocity, none⟩) = .ok floatParams :=
  ⟨false, "out", some floatNode, rfl⟩

theorem float_constructed : ∃ B, Constructed true floatLayout floatGeom floatAxes (fun _ _ => (.PERIODIC, 0)) B := by
  apply C57_construction true (Or.inl rfl) (fun d _ => ?_) (fun _ _ _ _ => rfl)
  · intro d hd; simp
  · intro f d hf hd
    rcases hf with hf | rfl
    · interval_cases d <;> interval_cases f <;> decide
    · interval_cases d <;> decide
  · intro f loc _ _; simp
  · intro f loc _ _; simp
  · exact ⟨by simp [floatAxes], by simp [floatAxes], by norm_num [floatAxes]⟩

theorem float_n (f d : ℕ) (hf : f < 2) (hd : d < 2) : floatLayout.n f d = 10 := by
  interval_cases f <;> interval_cases d <;> decide

theorem float_ok (x : ℝ) : BodiesOK floatLayout (floatPack x) := ⟨by constructor <;> simp [floatPack], rfl, rfl⟩

theorem float_cell (d : ℕ) (x : ℝ) (h1 : 4 ≤ x) (h2 : x < 6) : ∃ I, InCell (floatAxes d) I x ∧ 4 ≤ I ∧ I < 6 := by
  rcases lt_or_ge x 5 with h | h
  · exact ⟨4, ⟨by simp [floatAxes], by simp [floatAxes]; linarith, by simp [floatAxes]; linarith⟩, by omega, by omega⟩
  · exact ⟨5, ⟨by simp [floatAxes], by simp [floatAxes]; linarith, by simp [floatAxes]; linarith⟩, by omega, by omega⟩

theorem float_point (x : ℝ) (h1 : 4 ≤ x) (h2 : x < 6) : ∀ body ∈ (floatPack x).bodies, ∀ i, i < body.nPts → ∃ p : List ℝ, body.coords[i]? = some p ∧
    ∀ d, d < 2 → ∃ z, p[d]? = some z ∧ 4 ≤ z ∧ z < 6 := by
  intro body hb i hi
  obtain rfl : body = ⟨2, 1, [[x, 5]], [1]⟩ := by simpa [floatPack] using hb
  change i < 1 at hi
  interval_cases i
  refine ⟨_, rfl, fun d hd => ?_⟩
  interval_cases d
  · exact ⟨_, rfl, h1, h2⟩
  · exact ⟨_, rfl, by norm_num, by norm_num⟩

theorem float_near (x : ℝ) (h1 : 4 ≤ x) (h2 : x < 6) : NearUniform floatLayout floatAxes (floatPack x) (fun _ => 1) (3 / 2) 2 := by
  intro body hb i hi
  obtain ⟨p, hp, h⟩ := float_point x h1 h2 body hb i hi
  refine ⟨p, hp, fun d hd => ?_⟩
  obtain ⟨z, hz, z1, z2⟩ := h d hd
  obtain ⟨I, hI, _⟩ := float_cell d z z1 z2
  refine ⟨z, hz, ⟨I, hI, fun j v _ _ hv => ?_⟩, Or.inr ⟨?_, ?_⟩⟩
  · have := List.mem_of_getElem? hv
    simpa [floatAxes] using this
  · norm_num [floatAxes]; linarith
  · norm_num [floatAxes]; linarith

theorem float_window (x : ℝ) (h1 : 4 ≤ x) (h2 : x < 6) : ∀ body ∈ (floatPack x).bodies, ∀ i p, i < body.nPts → body.coords[i]? = some p →
    WindowInside floatLayout floatAxes 2 p := by
  intro body hb i p hi hp f d hf hd
  obtain ⟨p', hp', h⟩ := float_point x h1 h2 body hb i hi
  rw [hp] at hp'
  cases hp'
  obtain ⟨z, hz, z1, z2⟩ := h d hd
  obtain ⟨I, hI, i1, i2⟩ := float_cell d z z1 z2
  exact ⟨z, I, hz, hI, by omega, by rw [float_n f d hf hd]; omega⟩

theorem float_inside (x : ℝ) (h1 : 4 ≤ x) (h2 : x < 6) : ∀ body ∈ (floatPack x).bodies, ∀ i, i < body.nPts → ∃ p : List ℝ, body.coords[i]? = some p ∧
    ∀ d, d < floatLayout.dim → ∃ z, p[d]? = some z ∧ (floatAxes d).min < z ∧ z < (floatAxes d).max := by
  intro body hb i hi
  obtain ⟨p, hp, h⟩ := float_point x h1 h2 body hb i hi
  refine ⟨p, hp, fun d hd => ?_⟩
  obtain ⟨z, hz, z1, z2⟩ := h d hd
  exact ⟨z, hz, by simp only [floatAxes]; linarith, by simp only [floatAxes]; linarith⟩

theorem float_owns (x : ℝ) : ∀ (r : ℕ) (body : SingleBody ℝ), r < floatLayout.mpiSize → body ∈ (floatPack x).bodies → ∃ i, OwnsPoint body r i := by
  intro r body hr hb
  obtain rfl : body = ⟨2, 1, [[x, 5]], [1]⟩ := by simpa [floatPack] using hb
  change r < 1 at hr
  interval_cases r
  exact ⟨0, by simp [OwnsPoint]⟩

theorem roma_total (r h : ℝ) (hh : 0 < h) : ∃ v, romaEtAl1999 r h = .ok v := by
  obtain ⟨φ, q, _⟩ := C27_roma h hh
  exact ⟨_, q r⟩

theorem float_cells : ∀ f d, f < floatLayout.dim → d < floatLayout.dim → floatLayout.periodic 0 d = true → 3 ≤ floatLayout.n f d :=
  fun f d hf hd _ => by rw [float_n f d hf hd]; omega

theorem float_free (f : ℕ) : FreeAlong floatLayout (fun _ _ => ((.PERIODIC, 0) : BCType × ℝ)) f := ⟨rfl, fun _ _ h => by cases h⟩

theorem float_flux : boundaryFlux floatLayout.toMeshInfo floatGeom (fun _ _ => ((.PERIODIC, 0) : BCType × ℝ)) = 0 := by
  simp [boundaryFlux, meshLayout]

/-- C101: runs of any length that meet the hypotheses about reported forces. The point of the body is at rest. -/
example : ∃ (B : ℕ → Boundary ℝ) (ops : NSOps ℝ) (ib : IBOps ℝ) (s : IBState ℝ) (d : Disk ℝ) (x : ℕ → IBState ℝ) (vol e : ℤ → ℝ),
    IBStarted true floatLayout floatGeom floatAxes (fun _ _ => (.PERIODIC, 0)) B floatParams (some ⟨some 1, some floatVelocity, none⟩)
      (floatPack (9 / 2)) romaEtAl1999 2 ops ib (fun _ => none) s d ∧ x 0 = s ∧
    (∀ n, IBTrajectory floatLayout floatGeom floatParams ops ib (exactSolve floatLayout.UN) (exactSolve ib.nF) (exactSolve floatLayout.pN) x n) ∧
    FreeAlong floatLayout (fun _ _ => ((.PERIODIC, 0) : BCType × ℝ)) 0 ∧ Solves floatLayout.UN (exactSolve floatLayout.UN) ops.A ∧
    IsVolume true floatLayout floatGeom vol ∧ IsComponent true floatLayout 0 e ∧ getKernel "ROMA_ET_AL_1999" = .ok (romaEtAl1999, 2) ∧
    NearUniform floatLayout floatAxes (floatPack (9 / 2)) (fun _ => 1) (3 / 2) 2 ∧ ∀ k, Remembers floatParams k := by
  obtain ⟨B, C⟩ := float_constructed
  obtain ⟨ops, ib, s, d, S⟩ := C64_decoupled_start_partial C 1 floatVelocity none (le_refl 2) (by decide) float_params (le_refl 1) rfl (fun _ => none)
    (float_ok (9 / 2)) (Or.inr (float_window _ (by norm_num) (by norm_num))) (float_inside _ (by norm_num) (by norm_num)) (float_owns _) roma_total
  obtain ⟨x, x0, hx⟩ := C93_decoupled_runs_partial S (vSolve := exactSolve floatLayout.UN) (fSolve := exactSolve ib.nF) (pSolve := exactSolve floatLayout.pN)
    (fun f d hf hd hp => by have := float_cells f d hf hd hp; omega) (fun _ _ _ _ => Or.inr rfl) float_flux (Or.inl rfl) rfl
    (by norm_num [floatParams]) (by norm_num [floatParams]) (exactSolve_finds _ _) (exactSolve_finds _ _) (exactSolve_finds _ _)
  obtain ⟨vol, hvol⟩ := exists_volume C.setup true
  obtain ⟨e, he⟩ := exists_component (K := ℝ) C.setup.layout true (f := 0) (by decide)
  exact ⟨B, ops, ib, s, d, x, vol, e, S, x0, hx, float_free 0, exactSolve_solves _ _, hvol, he, by simp [getKernel],
    float_near _ (by norm_num) (by norm_num), fun _ => Or.inl rfl⟩

/-- C101: the same for pressure and forces together. -/
example : ∃ (B : ℕ → Boundary ℝ) (ops : NSOps ℝ) (s : NSState ℝ) (d : Disk ℝ) (x : ℕ → NSState ℝ),
    CoupledStarted true floatLayout floatGeom floatAxes (fun _ _ => (.PERIODIC, 0)) B floatParams (some ⟨some 1, some floatVelocity, none⟩)
      (floatPack (9 / 2)) romaEtAl1999 2 ops (fun _ => none) s d ∧ x 0 = s ∧
    (∀ n, CoupledTrajectory floatLayout floatGeom floatParams (nestCounts floatLayout (floatPack (9 / 2))) ops (exactSolve floatLayout.UN)
      (exactSolve ops.pN) x n) ∧ Solves floatLayout.UN (exactSolve floatLayout.UN) ops.A := by
  obtain ⟨B, C⟩ := float_constructed
  obtain ⟨ops, s, d, S⟩ := C64_coupled_start_partial C 1 floatVelocity none (le_refl 2) (by decide) float_params (le_refl 1) rfl (fun _ => none)
    (float_ok (9 / 2)) (Or.inr (float_window _ (by norm_num) (by norm_num))) (float_inside _ (by norm_num) (by norm_num)) (float_owns _) roma_total
  obtain ⟨x, x0, hx⟩ := C93_coupled_runs_partial S (vSolve := exactSolve floatLayout.UN) (pSolve := exactSolve ops.pN)
    (fun f d hf hd hp => by have := float_cells f d hf hd hp; omega) (Or.inl fun loc _ h => by cases h) (Or.inl rfl) rfl
    (by norm_num [floatParams]) (by norm_num [floatParams]) (exactSolve_finds _ _) (exactSolve_finds _ _)
  exact ⟨B, ops, s, d, x, S, x0, hx, exactSolve_solves _ _⟩

/-- From 9/2 towards 11/2. -/
noncomputable def floatPath (t : ℝ) : ℝ := if 0 ≤ t then 9 / 2 + t / (1 + t) else 9 / 2

theorem floatPath_range (t : ℝ) : 4 ≤ floatPath t ∧ floatPath t < 6 := by
  unfold floatPath
  split_ifs with h
  · have h1 : 0 ≤ t / (1 + t) := by positivity
    have h2 : t / (1 + t) < 1 := by rw [div_lt_one (by linarith)]; linarith
    constructor <;> linarith
  · norm_num

noncomputable def floatMotion : Motion ℝ where
  coordinates := fun t b => { b with bodies := b.bodies.map fun b => { b with coords := b.coords.map fun p => [floatPath t, p.getD 1 0] } }
  velocity := fun t _ _ => fun i => if i = 0 then 1 / (1 + t) ^ 2 else 0

theorem float_moves (t x : ℝ) : floatMotion.coordinates t (floatPack x) = floatPack (floatPath t) := by
  simp [floatMotion, floatPack]

theorem float_moved (t : ℝ) (b : BodyPack ℝ) (h : BodiesOK floatLayout b) : BodiesOK floatLayout (floatMotion.coordinates t b) := by
  refine ⟨⟨h.pack.dim_pos, ?_, ?_, ?_⟩, h.dim, h.procs⟩ <;> intro x hx <;> obtain ⟨y, hy, rfl⟩ := List.mem_map.1 hx
  · exact h.pack.dim y hy
  · exact h.pack.procs y hy
  · exact h.pack.points y hy

/-- C101: a moving point. -/
example : ∃ (B : ℕ → Boundary ℝ) (ops : NSOps ℝ) (s : RigidState ℝ) (d : Disk ℝ),
    RigidStarted true floatLayout floatGeom floatAxes (fun _ _ => (.PERIODIC, 0)) B floatParams (some ⟨some 1, some floatVelocity, none⟩)
      (floatPack (9 / 2)) floatMotion romaEtAl1999 2 ops (fun _ => none) s d ∧ Solves floatLayout.UN (exactSolve floatLayout.UN) ops.A ∧
    ∀ n, ∃ x, x 0 = s ∧ RigidTrajectory true floatLayout floatGeom floatAxes floatParams ops floatMotion romaEtAl1999 2 (exactSolve floatLayout.UN)
      (exactSolve 2) (exactSolve floatLayout.pN) x n ∧
      ∀ k, k < n → NearUniform floatLayout floatAxes (x (k + 1)).bodies (fun _ => 1) (3 / 2) 2 := by
  obtain ⟨B, C⟩ := float_constructed
  obtain ⟨ops, s, d, S, _⟩ := C64_moving_start_partial C 1 floatVelocity none (le_refl 2) (by decide) float_params (le_refl 1) rfl (fun _ => none)
    (float_ok (9 / 2)) float_moved (Or.inr (float_window _ (by norm_num) (by norm_num))) (float_inside _ (by norm_num) (by norm_num)) (float_owns _) roma_total
  have hC : Course floatMotion (floatPack (9 / 2)) s.ns.t floatParams.dt
      (fun k => if k = 0 then floatPack (9 / 2) else floatPack (floatPath (s.ns.t + k * floatParams.dt)))
      fun k => if k = 0 then fun _ => 0 else fun i => if i = 0 then 1 / (1 + (s.ns.t + k * floatParams.dt)) ^ 2 else 0 := by
    refine ⟨rfl, rfl, fun k => ?_, fun k => ?_⟩
    · have : ∀ q : BodyPack ℝ, (∃ y, q = floatPack y) → floatPack (floatPath (s.ns.t + ((k + 1 : ℕ) : ℝ) * floatParams.dt)) =
          floatMotion.coordinates (s.ns.t + (k + 1) * floatParams.dt) q := by
        rintro _ ⟨y, rfl⟩
        rw [float_moves]
        push_cast
        rfl
      simp only [Nat.add_one_ne_zero, if_false]
      apply this
      split_ifs
      · exact ⟨_, rfl⟩
      · exact ⟨_, rfl⟩
    · simp only [Nat.add_one_ne_zero, if_false, floatMotion]
      push_cast
      rfl
  refine ⟨B, ops, s, d, S, exactSolve_solves _ _, fun n => ?_⟩
  obtain ⟨x, x0, hx⟩ := (C93_moving_runs_partial S hC (vSolve := exactSolve floatLayout.UN) (fSolve := exactSolve 2) (pSolve := exactSolve floatLayout.pN)
    (fun f d hf hd hp => by have := float_cells f d hf hd hp; omega) (fun _ _ _ _ => Or.inr rfl) float_flux (Or.inl rfl) rfl
    (by norm_num [floatParams]) (by norm_num [floatParams]) (exactSolve_finds _ _) (exactSolve_finds _ _) (fun _ _ => exactSolve_finds _ _)
    (fun _ _ => exactSolve_solves _ _) n).2 fun k _ => by
      obtain ⟨h1, h2⟩ := floatPath_range (s.ns.t + ((k + 1 : ℕ) : ℝ) * floatParams.dt)
      obtain ⟨Δ, hΔ⟩ := C64_operator_partial C (float_ok _) (Or.inr (float_window _ h1 h2)) (float_inside _ h1 h2) (float_owns _) roma_total
      simp only [Nat.add_one_ne_zero, if_false]
      refine ⟨Δ, hΔ, fun F hF => ?_⟩
      obtain ⟨vol, hvol⟩ := exists_volume C.setup true
      have zero : ∀ f : ℕ, f < 2 → F f = 0 := by
        intro f hf
        obtain ⟨e, he⟩ := exists_component (K := ℝ) C.setup.layout true (f := f) hf
        have key := C55_total_force C (float_ok _) .roma (by simp [getKernel] : getKernel "ROMA_ET_AL_1999" = .ok (romaEtAl1999, 2)) hΔ
          (h := fun _ => 1) (fun _ _ => by norm_num) (float_near _ h1 h2) hvol hf he F
        rw [Finset.sum_eq_zero fun c hc => by rw [hF c (by omega) (by exact_mod_cast Finset.mem_range.1 hc), mul_zero]] at key
        interval_cases f
        · simpa [floatPack, BodyPack.calculateAvgForces, SingleBody.calculateAvgForces, BodyPack.accessArray, SingleBody.nLclPts, SingleBody.mpiSize, sizeOf', List.range_succ] using key.symm
        · simpa [floatPack, BodyPack.calculateAvgForces, SingleBody.calculateAvgForces, BodyPack.accessArray, SingleBody.nLclPts, SingleBody.mpiSize, sizeOf', List.range_succ] using key.symm
      refine Finset.sum_eq_zero fun i hi => ?_
      rw [zero i (Finset.mem_range.1 hi), mul_zero]
  refine ⟨x, x0, hx, fun k hk => ?_⟩
  obtain ⟨_, eb, _⟩ := run_course S x0 hx hC (k + 1) hk
  rw [eb]
  simp only [Nat.add_one_ne_zero, if_false]
  exact float_near _ (floatPath_range _).1 (floatPath_range _).2

end PetIBM
