import Verif.Lemmas.Pinned
import Verif.Props.EnergyBodies
import Verif.Props.Converged
import Verif.Props.Turn

/-!
C43 for whole runs: a run with the pinned Poisson system is a run with the unpinned one. With it, the theorems about the unpinned system hold
for the pinned one.
-/

set_option linter.unusedSectionVars false

namespace PetIBM

open Spec

variable {K : Type} [Field K] [LinearOrder K] [IsStrictOrderedRing K]
variable {debug : Bool} {L : Layout} {G : Geom K} {axes : ℕ → Axis K} {T : BCTable K} {B : ℕ → Boundary K}
variable {P : NSParams K} {flow : Option (FlowNode K)} {ops : NSOps K} {disk disk' : Disk K}
variable {bodies : BodyPack K} {kernel : DeltaKernel K} {window : ℕ} {vSolve fSolve pSolve : LinSolve K} {n : ℕ}

/-! ### C43 -/

/-- C43. If the prescribed fluxes through the walls cancel, every run with the pinned system (GPU solver), solved exactly, is also a run of the same
configuration with the unpinned system (CPU solver), solved exactly: all states are the same. Missing: walls that do not prescribe the normal
velocity (for NEUMANN it is false, `C43_false_neumann`), periodic directions with one cell. -/
theorem C43_same_run_partial {s : NSState K} (S : Started debug L G axes T B P flow ops disk s disk') {x : ℕ → NSState K} (h0 : x 0 = s)
    (hx : Trajectory L G P ops vSolve pSolve x n) (hn : ∀ f, f < L.dim → L.periodic 0 f = true → 2 ≤ L.n f f) (hp : P.pType = .amgx)
    (hT : NormalVelocityGiven L.toMeshInfo T) (hflux : boundaryFlux L.toMeshInfo G T = 0) (exact : Solves L.pN pSolve ops.DBNG) :
    ∃ ops' pSolve', Started debug L G axes T B { P with pType := .ksp } flow ops' disk s disk' ∧ ops'.A = ops.A ∧ ops'.L = ops.L ∧
      ops'.G = ops.G ∧ ops'.BNG = ops.BNG ∧ Solves L.pN pSolve' ops'.DBNG ∧ Trajectory L G { P with pType := .ksp } ops' vSolve pSolve' x n := by
  obtain ⟨ops', S', rfl⟩ := S.unpinned_at hp
  obtain ⟨u, hops, R⟩ := S.reach_at h0 hx
  obtain ⟨o2, hops', e⟩ := createOperators_unpinned hp hops
  obtain ⟨u', hops2, R2⟩ := S'.reach
  refine ⟨ops', unpinnedSolve L.pN ops'.DBNG pSolve, S', rfl, rfl, rfl, rfl, unpinnedSolve_solves _ _, fun k hk => ?_⟩
  rw [← pinned_inj e (unpinned_form hops2) (unpinned_form hops')] at hops'
  exact advance_unpinned S.constructed hn hT hflux hops' exact (R k hk.le) (hx k hk)

/-- C43. The pinned system always has a solution: with linear solvers that find solutions where there are any the run goes on for ever, even if the
prescribed fluxes do not cancel. Missing: as for `C43_pinned_system_partial`. -/
theorem C43_runs_partial {s : NSState K} (S : Started debug L G axes T B P flow ops disk s disk')
    (hn : ∀ f d, f < L.dim → d < L.dim → L.periodic 0 d = true → 2 ≤ L.n f d) (hT : ∀ f loc, f < L.dim → loc / 2 = f → (T f loc).1 ≠ .NEUMANN)
    (hBN : GoodOrder L P ops.A) (hp : P.pType = .amgx) (hdt : 0 < P.dt) (hnu : 0 ≤ P.nu) (hv : Finds L.UN vSolve ops.A)
    (hf : Finds L.pN pSolve ops.DBNG) : ∃ x, x 0 = s ∧ ∀ n, Trajectory L G P ops vSolve pSolve x n := by
  refine C60_runs S (fun g rhs => ?_) (fun g rhs => ?_)
  · obtain ⟨y, hy, _⟩ := C61_velocity_system_partial S hn hdt hnu rhs
    obtain ⟨z, hz, _⟩ := hv g rhs ⟨y, hy⟩
    exact ⟨z, hz⟩
  · obtain ⟨y, hy, _⟩ := C43_pinned_system_partial S (fun f hf hp => hn f f hf hf hp) hT hBN hp hdt.ne' rhs
    obtain ⟨z, hz, _⟩ := hf g rhs ⟨y, hy⟩
    exact ⟨z, hz⟩

/-- C43, decoupled solver. The same for bodies at rest. Missing: as above. -/
theorem C43_same_decoupled_run_partial {ib : IBOps K} {s : IBState K}
    (S : IBStarted debug L G axes T B P flow bodies kernel window ops ib disk s disk') {x : ℕ → IBState K} (h0 : x 0 = s)
    (hx : IBTrajectory L G P ops ib vSolve fSolve pSolve x n) (hn : ∀ f, f < L.dim → L.periodic 0 f = true → 2 ≤ L.n f f)
    (hp : P.pType = .amgx) (hT : NormalVelocityGiven L.toMeshInfo T) (hflux : boundaryFlux L.toMeshInfo G T = 0)
    (exact : Solves L.pN pSolve ops.DBNG) :
    ∃ ops' pSolve', IBStarted debug L G axes T B { P with pType := .ksp } flow bodies kernel window ops' ib disk s disk' ∧ ops'.A = ops.A ∧
      ops'.L = ops.L ∧ ops'.G = ops.G ∧ ops'.BNG = ops.BNG ∧ Solves L.pN pSolve' ops'.DBNG ∧
      IBTrajectory L G { P with pType := .ksp } ops' ib vSolve fSolve pSolve' x n := by
  obtain ⟨ops', S', rfl⟩ := S.unpinned_at hp
  obtain ⟨u, hops, R⟩ := S.reach_at h0 hx
  obtain ⟨o2, hops', e⟩ := createOperators_unpinned hp hops
  obtain ⟨u', hops2, _⟩ := S'.started.reach
  refine ⟨ops', unpinnedSolve L.pN ops'.DBNG pSolve, S', rfl, rfl, rfl, rfl, unpinnedSolve_solves _ _, fun k hk => ?_⟩
  rw [← pinned_inj e (unpinned_form hops2) (unpinned_form hops')] at hops'
  exact decoupled_unpinned S.constructed hn hT hflux hops' exact (R k hk.le) (hx k hk)

/-- C43, prescribed motion. Missing: as above. -/
theorem C43_same_moving_run_partial {M : Motion K} {s : RigidState K}
    (S : RigidStarted debug L G axes T B P flow bodies M kernel window ops disk s disk') {x : ℕ → RigidState K} (h0 : x 0 = s)
    (hx : RigidTrajectory debug L G axes P ops M kernel window vSolve fSolve pSolve x n)
    (hn : ∀ f, f < L.dim → L.periodic 0 f = true → 2 ≤ L.n f f) (hp : P.pType = .amgx) (hT : NormalVelocityGiven L.toMeshInfo T)
    (hflux : boundaryFlux L.toMeshInfo G T = 0) (exact : Solves L.pN pSolve ops.DBNG) :
    ∃ ops' pSolve', RigidStarted debug L G axes T B { P with pType := .ksp } flow bodies M kernel window ops' disk s disk' ∧ ops'.A = ops.A ∧
      ops'.L = ops.L ∧ ops'.G = ops.G ∧ ops'.BNG = ops.BNG ∧ Solves L.pN pSolve' ops'.DBNG ∧
      RigidTrajectory debug L G axes { P with pType := .ksp } ops' M kernel window vSolve fSolve pSolve' x n := by
  obtain ⟨ops', S', rfl⟩ := S.unpinned_at hp
  obtain ⟨u, hops, R⟩ := S.reach_at h0 hx
  obtain ⟨o2, hops', e⟩ := createOperators_unpinned hp hops
  obtain ⟨u', hops2, _⟩ := S'.started.started.reach
  refine ⟨ops', unpinnedSolve L.pN ops'.DBNG pSolve, S', rfl, rfl, rfl, rfl, unpinnedSolve_solves _ _, fun k hk => ?_⟩
  rw [← pinned_inj e (unpinned_form hops2) (unpinned_form hops')] at hops'
  exact rigid_unpinned S.started.constructed hn hT hflux hops' exact (R k hk.le).1 (hx k hk)

/-- C43, coupled solver. The pinned row is the first one of the composite system, so that the first process must own a cell. Missing: as above. -/
theorem C43_same_coupled_run_partial {s : NSState K}
    (S : CoupledStarted debug L G axes T B P flow bodies kernel window ops disk s disk') {x : ℕ → NSState K} (h0 : x 0 = s)
    (hx : CoupledTrajectory L G P (nestCounts L bodies) ops vSolve pSolve x n) (hn : ∀ f, f < L.dim → L.periodic 0 f = true → 2 ≤ L.n f f)
    (hp : P.pType = .amgx) (hT : NormalVelocityGiven L.toMeshInfo T) (hflux : boundaryFlux L.toMeshInfo G T = 0)
    (hbox : 0 < (L.box 3 0).length) (exact : Solves ops.pN pSolve ops.DBNG) :
    ∃ ops' pSolve', CoupledStarted debug L G axes T B { P with pType := .ksp } flow bodies kernel window ops' disk s disk' ∧ ops'.A = ops.A ∧
      ops'.pN = ops.pN ∧ ops'.L = ops.L ∧ ops'.G = ops.G ∧ ops'.BNG = ops.BNG ∧ Solves ops'.pN pSolve' ops'.DBNG ∧
      CoupledTrajectory L G { P with pType := .ksp } (nestCounts L bodies) ops' vSolve pSolve' x n := by
  obtain ⟨ops', S', rfl⟩ := S.unpinned_at hp
  obtain ⟨u, E, H, hops, R⟩ := S.reach_at h0 hx
  obtain ⟨o2, hops', e⟩ := ibpmCreate_unpinned hp hops
  obtain ⟨u', E', H', hops2, _⟩ := S'.reach
  refine ⟨ops', unpinnedSolve ops'.pN ops'.DBNG pSolve, S', rfl, rfl, rfl, rfl, rfl, unpinnedSolve_solves _ _, fun k hk => ?_⟩
  rw [← pinned_inj e (ibpm_unpinned_form hops2) (ibpm_unpinned_form hops')] at hops'
  exact coupled_unpinned S.constructed hn hT hflux S.fit hbox hops' exact (R k hk.le) (hx k hk)

/-! ### What follows for the pinned system -/

/-- closed walls prescribe the normal velocity, and the fluxes cancel -/
theorem closed_given (C : Constructed debug L G axes T B) (hw : AllClosed L T) :
    NormalVelocityGiven L.toMeshInfo T ∧ boundaryFlux L.toMeshInfo G T = 0 := by
  constructor
  · intro f loc hf hl
    cases hper : L.periodic 0 f with
    | false =>
      have := hw loc (by omega) (by rw [hl]; exact hper)
      unfold Closed at this
      rw [hl] at this
      rw [this]
      exact Or.inl rfl
    | true => exact Or.inr (C.table f loc hf (by omega) |>.2 (by rw [hl]; exact hper))
  · unfold boundaryFlux
    refine Finset.sum_eq_zero fun f hf => ?_
    have hf := Finset.mem_range.1 hf
    split_ifs with hper
    · rfl
    · have h1 := hw (2 * f + 1) (by omega) (by rw [show (2 * f + 1) / 2 = f by omega]; simpa using hper)
      have h2 := hw (2 * f) (by omega) (by rw [show 2 * f / 2 = f by omega]; simpa using hper)
      unfold Closed at h1 h2
      rw [show (2 * f + 1) / 2 = f by omega] at h1
      rw [show 2 * f / 2 = f by omega] at h2
      rw [h1, h2]
      simp

/-- C44, coupled solver with the pinned system: also then the new velocity is divergence free in every cell. Missing: as for
`C43_same_coupled_run_partial`. -/
theorem C44_coupled_pinned_partial {s : NSState K} (S : CoupledStarted debug L G axes T B P flow bodies kernel window ops disk s disk')
    {x : ℕ → NSState K} (h0 : x 0 = s) (hx : CoupledTrajectory L G P (nestCounts L bodies) ops vSolve pSolve x n)
    (hn : ∀ f, f < L.dim → L.periodic 0 f = true → 2 ≤ L.n f f) (hp : P.pType = .amgx) (hT : NormalVelocityGiven L.toMeshInfo T)
    (hflux : boundaryFlux L.toMeshInfo G T = 0) (hbox : 0 < (L.box 3 0).length) (exact : Solves ops.pN pSolve ops.DBNG) (k : ℕ) (hk : k < n) :
    ∀ V, Filled debug L (x (k + 1)).B (x (k + 1)).U V → ∀ c, Inside L.toMeshInfo 3 c → netFlux L.dim G c V = 0 := by
  obtain ⟨ops', p', S', _, _, _, _, _, e', hx'⟩ := C43_same_coupled_run_partial S h0 hx hn hp hT hflux hbox exact
  exact C44_coupled_divergence_free_partial S' h0 hx' e' hn rfl k hk

/-- C44, decoupled solver with the pinned system. Missing: as for `C43_same_run_partial`. -/
theorem C44_decoupled_pinned_partial {ib : IBOps K} {s : IBState K}
    (S : IBStarted debug L G axes T B P flow bodies kernel window ops ib disk s disk') {x : ℕ → IBState K} (h0 : x 0 = s)
    (hx : IBTrajectory L G P ops ib vSolve fSolve pSolve x n) (hn : ∀ f, f < L.dim → L.periodic 0 f = true → 2 ≤ L.n f f)
    (hp : P.pType = .amgx) (hT : NormalVelocityGiven L.toMeshInfo T) (hflux : boundaryFlux L.toMeshInfo G T = 0)
    (exact : Solves L.pN pSolve ops.DBNG) (k : ℕ) (hk : k < n) :
    ∀ V, Filled debug L (x (k + 1)).ns.B (x (k + 1)).ns.U V → ∀ c, Inside L.toMeshInfo 3 c → netFlux L.dim G c V = 0 := by
  obtain ⟨ops', p', S', _, _, _, _, e', hx'⟩ := C43_same_decoupled_run_partial S h0 hx hn hp hT hflux exact
  exact C44_decoupled_divergence_free_partial S' h0 hx' e' hn rfl k hk

/-- C84, pinned system: without convective terms a step never increases the sum of the energies. Missing: as for `C84_balance_partial`, but for the
pinned system. -/
theorem C84_decay_pinned_partial {s : NSState K} (S : Started debug L G axes T B P flow ops disk s disk') {x : ℕ → NSState K} (h0 : x 0 = s)
    (hx : Trajectory L G P ops vSolve pSolve x n) (hn : ∀ f d, f < L.dim → d < L.dim → L.periodic 0 d = true → 3 ≤ L.n f d)
    (hw : WallsAtRest L T) (hBN : P.BN = 1) (hp : P.pType = .amgx) (hdt : 0 < P.dt) (hnu : 0 ≤ P.nu) (exactV : Solves L.UN vSolve ops.A)
    (exactP : Solves L.pN pSolve ops.DBNG) (hc : P.conv = eulerImplicit) (vol : ℤ → K) (hvol : IsVolume debug L G vol) (k : ℕ) (hk : k < n)
    (hd : P.diff = eulerImplicit ∨ P.diff = crankNicolson ∧ 0 < k) :
    kinetic L.UN vol (x (k + 1)).U + P.diff.implicitCoeff * P.dt ^ 2 * kinetic L.UN vol (Mat.mult L.pN ops.G (x (k + 1)).p) ≤
      kinetic L.UN vol (x k).U + P.diff.implicitCoeff * P.dt ^ 2 * kinetic L.UN vol (Mat.mult L.pN ops.G (x k).p) := by
  have g := closed_given S.constructed hw.1
  obtain ⟨ops', p', S', eA, _, eG, _, e', hx'⟩ :=
    C43_same_run_partial S h0 hx (fun f hf hp => by have := hn f f hf hf hp; omega) hp g.1 g.2 exactP
  rw [← eG]
  exact C84_decay_partial S' h0 hx' hn hw hBN rfl hdt hnu (eA ▸ exactV) e' hc vol hvol k hk hd

/-- C91, pinned system: as `C91_decay_partial`. Missing: as there, but for the pinned system. -/
theorem C91_decay_pinned_partial {s : NSState K} (S : CoupledStarted debug L G axes T B P flow bodies kernel window ops disk s disk')
    {x : ℕ → NSState K} (h0 : x 0 = s) (hx : CoupledTrajectory L G P (nestCounts L bodies) ops vSolve pSolve x n)
    (hn : ∀ f d, f < L.dim → d < L.dim → L.periodic 0 d = true → 3 ≤ L.n f d) (hw : WallsAtRest L T) (hBN : P.BN = 1) (hp : P.pType = .amgx)
    (hbox : 0 < (L.box 3 0).length) (hdt : 0 < P.dt) (hnu : 0 ≤ P.nu) (exactV : Solves L.UN vSolve ops.A)
    (exactP : Solves ops.pN pSolve ops.DBNG) (hc : P.conv = eulerImplicit) :
    ∃ Gr Δ, createGradient debug L G false = .ok Gr ∧ IsDelta debug L axes B bodies kernel window Δ ∧
      ∀ vol k, IsVolume debug L G vol → k < n → P.diff = eulerImplicit ∨ P.diff = crankNicolson ∧ 0 < k →
        kinetic L.UN vol (x (k + 1)).U + P.diff.implicitCoeff * P.dt ^ 2 * kinetic L.UN vol (reaction L bodies Gr Δ (x (k + 1)).p) ≤
          kinetic L.UN vol (x k).U + P.diff.implicitCoeff * P.dt ^ 2 * kinetic L.UN vol (reaction L bodies Gr Δ (x k).p) := by
  have g := closed_given S.constructed hw.1
  obtain ⟨ops', p', S', eA, _, _, _, _, e', hx'⟩ :=
    C43_same_coupled_run_partial S h0 hx (fun f hf hp => by have := hn f f hf hf hp; omega) hp g.1 g.2 hbox exactP
  exact C91_decay_partial S' h0 hx' hn hw hBN rfl hdt hnu (eA ▸ exactV) e' hc

/-- C92, pinned system: as `C92_bounded_partial`. Missing: as there, but for the pinned system. -/
theorem C92_bounded_pinned_partial {ib : IBOps K} {s : IBState K} (S : IBStarted debug L G axes T B P flow bodies kernel window ops ib disk s disk')
    {x : ℕ → IBState K} (h0 : x 0 = s) (hx : IBTrajectory L G P ops ib vSolve fSolve pSolve x n)
    (hn : ∀ f, f < L.dim → L.periodic 0 f = true → 2 ≤ L.n f f) (hw : AllClosed L T) (hBN : P.BN = 1) (hp : P.pType = .amgx)
    (hdt : P.dt ≠ 0) (hnu : P.nu = 0) (hc : P.conv = eulerImplicit) (exactV : Solves L.UN vSolve ops.A) (exactF : Solves ib.nF fSolve ib.EBNH)
    (exactP : Solves L.pN pSolve ops.DBNG) (vol : ℤ → K) (hvol : IsVolume debug L G vol) (k : ℕ) (hk : k + 1 ≤ n) :
    kinetic L.UN vol (x (k + 1)).ns.U + ∑ j ∈ Finset.range k, kinetic L.UN vol (fun i => (x (j + 2)).ns.U i - (x (j + 1)).ns.U i) ≤
      kinetic L.UN vol (x 1).ns.U + P.dt ^ 2 * kinetic L.UN vol (Mat.mult L.pN ops.G (x 1).ns.p) := by
  have g := closed_given S.constructed hw
  obtain ⟨ops', p', S', eA, _, eG, _, e', hx'⟩ := C43_same_decoupled_run_partial S h0 hx hn hp g.1 g.2 exactP
  rw [← eG]
  exact C92_bounded_partial S' h0 hx' hn hw hBN rfl hdt hnu hc (eA ▸ exactV) exactF e' vol hvol k hk

/-- C94, pinned system: as `C94_converged_partial`, for walls that prescribe the normal velocity with fluxes that cancel. Missing: periodic
directions with fewer than three cells. -/
theorem C94_converged_pinned_partial {s : NSState K} (S : Started debug L G axes T B P flow ops disk s disk') {x : ℕ → NSState K}
    (h0 : x 0 = s) (hx : Trajectory L G P ops vSolve pSolve x n) (hn : ∀ f d, f < L.dim → d < L.dim → L.periodic 0 d = true → 3 ≤ L.n f d)
    (hT : ∀ f loc, f < L.dim → loc < L.dim * 2 → (T f loc).1 = .CONVECTIVE → (T f loc).2 ≠ 0) (hdt : P.dt ≠ 0) (hpt : P.pType = .amgx)
    (hN : NormalVelocityGiven L.toMeshInfo T) (hflux : boundaryFlux L.toMeshInfo G T = 0)
    (exactV : Solves L.UN vSolve ops.A) (exactP : Solves L.pN pSolve ops.DBNG) {k : ℕ} (hk : k + 2 ≤ n) {V : ℕ → Stencil → K} {p : Stencil → K}
    (hV : ∀ m, k ≤ m → m ≤ k + 2 → Filled debug L (x m).B (x m).U V) (hp : Stored debug L 3 (x (k + 1)).p p)
    (hc : ∃ c, ∀ i : ℤ, 0 ≤ i → i < L.pN → (x (k + 2)).p i = (x (k + 1)).p i + c) :
    SteadyMomentum debug L G axes P.nu (1 - P.conv.implicitCoeff) V p (fun _ => 0) ∧ Solenoidal L G V ∧ Meets debug L G T (x (k + 1)).U V := by
  obtain ⟨ops', p', S', eA, _, _, _, e', hx'⟩ :=
    C43_same_run_partial S h0 hx (fun f hf hp => by have := hn f f hf hf hp; omega) hpt hN hflux exactP
  exact C94_converged_partial S' h0 hx' hn hT hdt rfl (eA ▸ exactV) e' hk hV hp hc

/-- C102, pinned system: a symmetric configuration has a symmetric run, although the pinned cell is not where the symmetry takes it. Missing: as in
`C102_axes_partial`, but for the pinned system; fluxes that do not cancel. -/
theorem C102_symmetry_pinned_partial {t : Turn} {s : NSState K} (S : Started debug L G axes T B P flow ops disk s disk')
    (D : Turned t L L axes axes T T) (hF : t.SameFlow L.dim flow flow) (start : P.nstart = 0) (hpt : P.pType = .amgx)
    (hn : ∀ f d, f < L.dim → d < L.dim → L.periodic 0 d = true → 3 ≤ L.n f d)
    (know : ∀ u, IsUnknown L u → KnowsWalls L T u.rank u.comp ⟨u.k, u.j, u.i, 0⟩) (hdt : 0 < P.dt) (hnu : 0 ≤ P.nu)
    (hN : NormalVelocityGiven L.toMeshInfo T) (hflux : boundaryFlux L.toMeshInfo G T = 0) (hBN : GoodOrder L P ops.A)
    (hv : Solves L.UN vSolve ops.A) (hp : Solves L.pN pSolve ops.DBNG) {x : ℕ → NSState K} (h : x 0 = s)
    (tr : Trajectory L G P ops vSolve pSolve x n) (k : ℕ) (hk : k ≤ n) : t.SameVelocity debug L L (x k).U (x k).U ∧
      ∀ s a b, Inside L.toMeshInfo 3 s → L.getPackedGlobalIndex debug 3 s = .ok a →
        L.getPackedGlobalIndex debug 3 (t.point L.toMeshInfo 3 s) = .ok b → (x k).p b = (x k).p a := by
  obtain ⟨ops', p', S', eA, _, _, _, e', hx'⟩ :=
    C43_same_run_partial S h tr (fun f hf hp => by have := hn f f hf hf hp; omega) hpt hN hflux hp
  exact C102_symmetry_partial S' D hF start rfl hn know hdt hnu
    (fun f loc hf hl => by rcases hN f loc hf hl with h | h <;> rw [h] <;> simp) (by rw [eA]; exact hBN) (eA ▸ hv) e' h hx' k hk

end PetIBM
