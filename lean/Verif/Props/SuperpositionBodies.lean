/-
C106 for the decoupled solver with immersed bodies.
-/
import Verif.Props.SolversBodies

set_option linter.unusedSectionVars false

namespace PetIBM

open Spec

variable {K : Type} [Field K] [LinearOrder K] [IsStrictOrderedRing K]
variable {debug : Bool} {L : Layout} {G : Geom K} {axes : ℕ → Axis K} {a b : K}
variable {T₁ T₂ T₃ : BCTable K} {B₁ B₂ B₃ : ℕ → Boundary K} {P : NSParams K} {flow₁ flow₂ flow₃ : Option (FlowNode K)}
variable {disk₁ disk₁' disk₂ disk₂' disk₃ disk₃' : Disk K} {bodies : BodyPack K} {kernel : DeltaKernel K} {window : ℕ}

/-- the operators between grid and bodies do not depend on the boundary conditions -/
theorem mix_extra {ops : NSOps K} {b₁ b₂ : IBOps K} {i₁ i₂ : IBState K}
    (S₁ : IBStarted debug L G axes T₁ B₁ P flow₁ bodies kernel window ops b₁ disk₁ i₁ disk₁')
    (S₂ : IBStarted debug L G axes T₂ B₂ P flow₂ bodies kernel window ops b₂ disk₂ i₂ disk₂') : b₂ = b₁ := by
  obtain ⟨idx₁, hist₁, d1, e1⟩ := S₁.extra
  obtain ⟨idx₂, hist₂, d2, e2⟩ := S₂.extra
  cases d1.symm.trans d2
  have : createDelta debug L axes (fun r => (B₂ r).run hist₂) bodies (meshIdxAt idx₁) kernel window =
      createDelta debug L axes (fun r => (B₁ r).run hist₁) bodies (meshIdxAt idx₁) kernel window := by
    apply createDelta_congr
    intro r d hr hd
    rw [deltaPeriodic_run S₁.constructed hist₁ hr (by omega), deltaPeriodic_run S₂.constructed hist₂ hr (by omega)]
  unfold createExtraOperators createEH at e1 e2
  rw [this] at e2
  exact Except.ok.inj (e2.symm.trans e1)

/-- the right-hand sides of the force systems -/
theorem mix_forces {ib : IBOps K} {V₁ V₂ V₃ : ℤ → K} (h : Mixed a b V₁ V₂ V₃) :
    Mixed a b (assembleRHSForces L ib none V₁) (assembleRHSForces L ib none V₂) (assembleRHSForces L ib none V₃) := by
  intro i
  unfold assembleRHSForces
  dsimp only
  have := mix_vec (N := ib.nF) (fun i _ _ => mix_mult_zero (N := L.UN) (fun j _ _ => h j) ib.E i) i
  rw [this]
  ring

/-- one step of three runs of the decoupled solver -/
theorem mix_decoupled {ops : NSOps K} {ib : IBOps K} {i₁ i₂ i₃ : NSState K}
    (S₁ : Started debug L G axes T₁ B₁ P flow₁ ops disk₁ i₁ disk₁') (S₂ : Started debug L G axes T₂ B₂ P flow₂ ops disk₂ i₂ disk₂')
    (S₃ : Started debug L G axes T₃ B₃ P flow₃ ops disk₃ i₃ disk₃') (hc : P.conv.nExplicit = 0)
    (hn : ∀ f d, f < L.dim → d < L.dim → L.periodic 0 d = true → 2 ≤ L.n f d) (hdt : 0 < P.dt) (hnu : 0 ≤ P.nu)
    (hT : ∀ f loc, f < L.dim → loc / 2 = f → (T₃ f loc).1 ≠ .NEUMANN) (hBN : GoodOrder L P ops.A)
    {v₁ f₁ p₁ v₂ f₂ p₂ v₃ f₃ p₃ : LinSolve K} (hv1 : Solves L.UN v₁ ops.A) (hp1 : Solves L.pN p₁ ops.DBNG) (hv2 : Solves L.UN v₂ ops.A)
    (hp2 : Solves L.pN p₂ ops.DBNG) (hv3 : Solves L.UN v₃ ops.A) (hp3 : Solves L.pN p₃ ops.DBNG) (hf1 : Solves ib.nF f₁ ib.EBNH)
    (hf2 : Solves ib.nF f₂ ib.EBNH) (hf3 : Solves ib.nF f₃ ib.EBNH) {u₀ : ℤ → K}
    (hops : createOperators debug L G P (fun r => (B₃ r).run [.setGhostICs u₀]) = .ok ops) {hist : List (Boundary.Op K)}
    {idx : List (List (List (List ℤ)))} (hidx : bodies.updateMeshIdx axes = .ok idx)
    (hib : createExtraOperators debug L G axes P ops (fun r => (B₃ r).run hist) bodies (meshIdxAt idx) kernel window = .ok ib)
    {u₁ u₂ u₃ : ℤ → K} {s₁ s₂ s₃ s₁' s₂' s₃' : IBState K} (R₁ : Reach L B₁ P ops.pN u₁ s₁.ns) (R₂ : Reach L B₂ P ops.pN u₂ s₂.ns)
    (R₃ : Reach L B₃ P ops.pN u₃ s₃.ns) (hs : MixState L a b s₁.ns s₂.ns s₃.ns)
    (hH : ∀ c : ℤ, 0 ≤ c → c < L.UN → Mat.mult ib.nF ib.H s₃.f c = a * Mat.mult ib.nF ib.H s₁.f c + b * Mat.mult ib.nF ib.H s₂.f c)
    {ub₁ ub₂ ub₃ : Option (ℤ → K)}
    (hub : ∀ V₁ V₂ V₃, Mixed a b V₁ V₂ V₃ → Mixed a b (assembleRHSForces L ib ub₁ V₁) (assembleRHSForces L ib ub₂ V₂) (assembleRHSForces L ib ub₃ V₃))
    (a₁ : decoupledAdvance L G P ops ib ub₁ v₁ f₁ p₁ s₁ = .ok s₁') (a₂ : decoupledAdvance L G P ops ib ub₂ v₂ f₂ p₂ s₂ = .ok s₂')
    (a₃ : decoupledAdvance L G P ops ib ub₃ v₃ f₃ p₃ s₃ = .ok s₃') :
    MixState L a b s₁'.ns s₂'.ns s₃'.ns ∧
      (∀ c : ℤ, 0 ≤ c → c < L.UN → Mat.mult ib.nF ib.H s₃'.f c = a * Mat.mult ib.nF ib.H s₁'.f c + b * Mat.mult ib.nF ib.H s₂'.f c) ∧
      (IndependentPoints L ib.nF ib.H → Mixed a b s₁.f s₂.f s₃.f → Mixed a b s₁'.f s₂'.f s₃'.f) := by
  obtain ⟨w₁, Us₁, df₁, x1, x2, x3, x4, x5, -⟩ := decoupled_ok S₁.constructed S₁.schemes.1.1 S₁.schemes.2.1 R₁ a₁
  obtain ⟨w₂, Us₂, df₂, y1, y2, y3, y4, y5, -⟩ := decoupled_ok S₂.constructed S₂.schemes.1.1 S₂.schemes.2.1 R₂ a₂
  obtain ⟨w₃, Us₃, df₃, z1, z2, z3, z4, z5, -⟩ := decoupled_ok S₃.constructed S₃.schemes.1.1 S₃.schemes.2.1 R₃ a₃
  obtain ⟨-, hrhs⟩ := mix_rhs S₃ hc (fun f hf hp => hn f f hf hf hp) R₁ R₂ R₃ hs w₁ w₂ w₃
  have hUs : ∀ i : ℤ, 0 ≤ i → i < L.UN → Us₃ i = a * Us₁ i + b * Us₂ i := by
    refine mix_velocity S₃ hn hdt hnu (fun i i0 i1 => ?_) (fun j j0 j1 => hv1 _ _ _ x2 j j0 j1) (fun j j0 j1 => hv2 _ _ _ y2 j j0 j1)
      (fun j j0 j1 => hv3 _ _ _ z2 j j0 j1)
    rw [hrhs i i0 i1]
    have := mix_vec hH i
    rw [this]
    ring
  have hr := hub _ _ _ (mix_vec hUs)
  obtain ⟨k1, k2⟩ := equal_forces S₃.constructed hops hidx hib (implicit_nonneg S₃.params) hBN hdt.ne'
    (rhs := assembleRHSForces L ib ub₃ (vec L.UN Us₃)) (x := fun i => a * df₁ i + b * df₂ i) (y := df₃) (fun i i0 i1 => by
      rw [mix_mult_zero (x := df₁) (y := df₂) (fun _ _ _ => rfl), hf1 _ _ _ x3 i i0 i1, hf2 _ _ _ y3 i i0 i1, hr i])
    (fun i i0 i1 => hf3 _ _ _ z3 i i0 i1)
  have vec_in : ∀ (n : ℕ) (A : Mat K) (x : ℤ → K) (i : ℤ), Mat.mult n A (vec n x) i = Mat.mult n A x i := by
    intro n A x i
    refine mult_congr (fun j j0 j1 => ?_) i
    unfold vec
    rw [if_pos ⟨j0, j1⟩]
  have add : ∀ (n : ℕ) (A : Mat K) (x y : ℤ → K) (i : ℤ), Mat.mult n A (fun i => x i + 1 * y i) i = Mat.mult n A x i + Mat.mult n A y i := by
    intro n A x y i
    unfold Mat.mult
    rw [← Finset.sum_add_distrib]
    exact Finset.sum_congr rfl fun c _ => by ring
  refine ⟨mix_project S₁ S₂ S₃ hc (fun f hf hp => hn f f hf hf hp) hdt hT hBN hp1 hp2 hp3 R₁ R₂ R₃ hs
    (fun r₁ r₂ r₃ U₁ U₂ U₃ _ q1 q2 q3 i i0 i1 => ?_) x4 y4 z4, fun c c0 c1 => ?_, fun reg hf i => ?_⟩
  · cases q1
    cases q2
    cases q3
    have e := mix_vec (N := L.UN) (a := a) (b := b) (x := Mat.mult ib.nF ib.BNH (vec ib.nF df₁)) (y := Mat.mult ib.nF ib.BNH (vec ib.nF df₂))
      (z := Mat.mult ib.nF ib.BNH (vec ib.nF df₃)) (fun c _ _ => by
        rw [vec_in, vec_in, vec_in, k2, mix_mult_zero (x := df₁) (y := df₂) (fun _ _ _ => rfl)]) i
    dsimp only
    rw [e, mix_vec hUs i]
    ring
  · rw [x5, y5, z5, add, add, add, vec_in, vec_in, vec_in, hH c c0 c1, k1 c c0 c1, mix_mult_zero (x := df₁) (y := df₂) (fun _ _ _ => rfl)]
    ring
  · rw [x5, y5, z5]
    have e := mix_vec (N := ib.nF) (a := a) (b := b) (x := df₁) (y := df₂) (z := df₃) (fun j j0 j1 => by
      have := reg (fun j => df₃ j + -1 * (a * df₁ j + b * df₂ j)) (fun c c0 c1 => by rw [mult_sub, k1 c c0 c1, sub_self]) j j0 j1
      linear_combination this) i
    dsimp only
    rw [e, hf i]
    ring

/-- C106, bodies at rest in the decoupled solver: under the conditions of `C106_superposition_partial`, and with a force system that is solved
exactly, velocities and pressures of the third run are the combination of those of the others at every step, and so is the force that the bodies
exert at every point of the grid; the forces at the points of the bodies are the combination too if no forces spread to zero. Missing: as in
`C106_superposition_partial`. -/
theorem C106_decoupled_partial {o₁ o₂ o₃ : NSOps K} {b₁ b₂ b₃ : IBOps K} {i₁ i₂ i₃ : IBState K}
    (S₁ : IBStarted debug L G axes T₁ B₁ P flow₁ bodies kernel window o₁ b₁ disk₁ i₁ disk₁')
    (S₂ : IBStarted debug L G axes T₂ B₂ P flow₂ bodies kernel window o₂ b₂ disk₂ i₂ disk₂')
    (S₃ : IBStarted debug L G axes T₃ B₃ P flow₃ bodies kernel window o₃ b₃ disk₃ i₃ disk₃')
    (hT : MixedTable L.dim a b T₁ T₂ T₃) (hF : MixedFlow L.dim a b flow₁ flow₂ flow₃) (start : P.nstart = 0) (hc : P.conv.nExplicit = 0)
    (hn : ∀ f d, f < L.dim → d < L.dim → L.periodic 0 d = true → 2 ≤ L.n f d) (hdt : 0 < P.dt) (hnu : 0 ≤ P.nu)
    (hN : ∀ f loc, f < L.dim → loc / 2 = f → (T₁ f loc).1 ≠ .NEUMANN) (hBN : GoodOrder L P o₁.A) :
    o₂ = o₁ ∧ o₃ = o₁ ∧ b₂ = b₁ ∧ b₃ = b₁ ∧ ∀ {v₁ f₁ p₁ v₂ f₂ p₂ v₃ f₃ p₃ : LinSolve K}, Solves L.UN v₁ o₁.A → Solves L.pN p₁ o₁.DBNG →
      Solves b₁.nF f₁ b₁.EBNH → Solves L.UN v₂ o₁.A → Solves L.pN p₂ o₁.DBNG → Solves b₁.nF f₂ b₁.EBNH → Solves L.UN v₃ o₁.A →
      Solves L.pN p₃ o₁.DBNG → Solves b₁.nF f₃ b₁.EBNH → ∀ {x₁ x₂ x₃ : ℕ → IBState K} {n : ℕ}, x₁ 0 = i₁ → x₂ 0 = i₂ →
      x₃ 0 = i₃ → IBTrajectory L G P o₁ b₁ v₁ f₁ p₁ x₁ n → IBTrajectory L G P o₁ b₁ v₂ f₂ p₂ x₂ n → IBTrajectory L G P o₁ b₁ v₃ f₃ p₃ x₃ n → ∀ k, k ≤ n →
        Mixed a b (x₁ k).ns.U (x₂ k).ns.U (x₃ k).ns.U ∧ MixedPressure L.pN a b (x₁ k).ns.p (x₂ k).ns.p (x₃ k).ns.p ∧
        (∀ Δ, IsDelta debug L axes B₁ bodies kernel window Δ → ∀ c : ℤ, 0 ≤ c → c < L.UN → spread (bodies.nPts * bodies.dim) Δ (x₃ k).f c =
          a * spread (bodies.nPts * bodies.dim) Δ (x₁ k).f c + b * spread (bodies.nPts * bodies.dim) Δ (x₂ k).f c) ∧
        (IndependentPoints L b₁.nF b₁.H → Mixed a b (x₁ k).f (x₂ k).f (x₃ k).f) := by
  obtain ⟨e2, e3, init, ⟨u₁, R₁⟩, ⟨u₂, R₂⟩, ⟨u₃, R₃⟩⟩ := mix_start S₁.started S₂.started S₃.started hT hF start
  have e2 := e2.symm
  have e3 := e3.symm
  subst e2 e3
  have g2 := (mix_extra S₁ S₂).symm
  have g3 := (mix_extra S₁ S₃).symm
  subst g2 g3
  refine ⟨rfl, rfl, rfl, rfl, ?_⟩
  intro v₁ f₁ p₁ v₂ f₂ p₂ v₃ f₃ p₃ hv1 hp1 hf1 hv2 hp2 hf2 hv3 hp3 hf3 x₁ x₂ x₃ n h1 h2 h3 t₁ t₂ t₃
  have hN3 : ∀ f loc, f < L.dim → loc / 2 = f → (T₃ f loc).1 ≠ .NEUMANN := fun f loc hf hl => by
    rw [(hT f loc hf (by omega)).2.1]
    exact hN f loc hf hl
  have F₁ := S₁.started
  have F₂ := S₂.started
  have F₃ := S₃.started
  obtain ⟨u₀, hops, -⟩ := F₃.reach
  obtain ⟨idx, hist, hidx, hib⟩ := S₃.extra
  have all : ∀ k, k ≤ n → Reach L B₁ P o₁.pN u₁ (x₁ k).ns ∧ Reach L B₂ P o₁.pN u₂ (x₂ k).ns ∧ Reach L B₃ P o₁.pN u₃ (x₃ k).ns ∧
      MixState L a b (x₁ k).ns (x₂ k).ns (x₃ k).ns ∧
      (∀ c : ℤ, 0 ≤ c → c < L.UN → Mat.mult b₁.nF b₁.H (x₃ k).f c = a * Mat.mult b₁.nF b₁.H (x₁ k).f c + b * Mat.mult b₁.nF b₁.H (x₂ k).f c) ∧
      (IndependentPoints L b₁.nF b₁.H → Mixed a b (x₁ k).f (x₂ k).f (x₃ k).f) := by
    intro k
    induction k with
    | zero =>
      intro _
      have z : Mixed a b i₁.f i₂.f i₃.f := by
        rw [S₁.force.1 start, S₂.force.1 start, S₃.force.1 start]
        intro i
        ring
      rw [h1, h2, h3]
      exact ⟨R₁, R₂, R₃, init, fun c _ _ => mix_mult_zero (fun j _ _ => z j) _ c, fun _ => z⟩
    | succ k ih =>
      intro hk
      obtain ⟨r1, r2, r3, hs, hH, hfo⟩ := ih (by omega)
      obtain ⟨m1, m2, m3⟩ := mix_decoupled F₁ F₂ F₃ hc hn hdt hnu hN3 hBN hv1 hp1 hv2 hp2 hv3 hp3 hf1 hf2 hf3 hops hidx hib r1 r2 r3 hs hH
        (fun _ _ _ => mix_forces)
        (t₁ k (by omega)) (t₂ k (by omega)) (t₃ k (by omega))
      obtain ⟨_, _, _, _, _, _, g1, _⟩ := decoupled_ok F₁.constructed F₁.schemes.1.1 F₁.schemes.2.1 r1 (t₁ k (by omega))
      obtain ⟨_, _, _, _, _, _, g2, _⟩ := decoupled_ok F₂.constructed F₂.schemes.1.1 F₂.schemes.2.1 r2 (t₂ k (by omega))
      obtain ⟨_, _, _, _, _, _, g3, _⟩ := decoupled_ok F₃.constructed F₃.schemes.1.1 F₃.schemes.2.1 r3 (t₃ k (by omega))
      exact ⟨r1.step F₁.constructed F₁.schemes.1.1 F₁.schemes.2.1 g1, r2.step F₂.constructed F₂.schemes.1.1 F₂.schemes.2.1 g2,
        r3.step F₃.constructed F₃.schemes.1.1 F₃.schemes.2.1 g3, m1, m2, fun reg => m3 reg (hfo reg)⟩
  intro k hk
  obtain ⟨-, -, -, h, hH, hfo⟩ := all k hk
  refine ⟨h.vel, h.pres, fun Δ hΔ c c0 c1 => ?_, hfo⟩
  obtain ⟨Δ', BN, ⟨j₁, q1, q2⟩, -, w1, w2, -⟩ := S₁.operators
  obtain ⟨j₂, q3, q4⟩ := hΔ
  cases q1.symm.trans q3
  cases q2.symm.trans q4
  have := hH c c0 c1
  rw [w1, w2] at this
  exact this

/-- C106, bodies in prescribed motion: the bodies of three configurations move in the same way, and the velocities prescribed at their points superpose
together with boundary values and initial fields. If at no step forces at the points of the bodies spread to zero, velocities and forces of the third
run are the combination of those of the others at every step, and its pressures are up to a constant. Missing: as in `C106_superposition_partial`, and
points that are not independent. -/
theorem C106_rigid_partial {o₁ o₂ o₃ : NSOps K} {M₁ M₂ M₃ : Motion K} {i₁ i₂ i₃ : RigidState K}
    (S₁ : RigidStarted debug L G axes T₁ B₁ P flow₁ bodies M₁ kernel window o₁ disk₁ i₁ disk₁')
    (S₂ : RigidStarted debug L G axes T₂ B₂ P flow₂ bodies M₂ kernel window o₂ disk₂ i₂ disk₂')
    (S₃ : RigidStarted debug L G axes T₃ B₃ P flow₃ bodies M₃ kernel window o₃ disk₃ i₃ disk₃')
    (hT : MixedTable L.dim a b T₁ T₂ T₃) (hF : MixedFlow L.dim a b flow₁ flow₂ flow₃) (hM : MixedMotion a b M₁ M₂ M₃) (start : P.nstart = 0)
    (hc : P.conv.nExplicit = 0)
    (hn : ∀ f d, f < L.dim → d < L.dim → L.periodic 0 d = true → 2 ≤ L.n f d) (hdt : 0 < P.dt) (hnu : 0 ≤ P.nu)
    (hN : ∀ f loc, f < L.dim → loc / 2 = f → (T₁ f loc).1 ≠ .NEUMANN) (hBN : GoodOrder L P o₁.A) :
    o₂ = o₁ ∧ o₃ = o₁ ∧ ∀ {v₁ f₁ p₁ v₂ f₂ p₂ v₃ f₃ p₃ : LinSolve K}, Solves L.UN v₁ o₁.A → Solves L.pN p₁ o₁.DBNG → Solves L.UN v₂ o₁.A →
      Solves L.pN p₂ o₁.DBNG → Solves L.UN v₃ o₁.A → Solves L.pN p₃ o₁.DBNG → ∀ {x₁ x₂ x₃ : ℕ → RigidState K} {n : ℕ},
      (∀ k, k < n → Solves (x₁ (k + 1)).ib.nF f₁ (x₁ (k + 1)).ib.EBNH) → (∀ k, k < n → Solves (x₂ (k + 1)).ib.nF f₂ (x₂ (k + 1)).ib.EBNH) →
      (∀ k, k < n → Solves (x₃ (k + 1)).ib.nF f₃ (x₃ (k + 1)).ib.EBNH) →
      (∀ k, k < n → IndependentPoints L (x₁ (k + 1)).ib.nF (x₁ (k + 1)).ib.H) → x₁ 0 = i₁ → x₂ 0 = i₂ → x₃ 0 = i₃ →
      RigidTrajectory debug L G axes P o₁ M₁ kernel window v₁ f₁ p₁ x₁ n → RigidTrajectory debug L G axes P o₁ M₂ kernel window v₂ f₂ p₂ x₂ n →
      RigidTrajectory debug L G axes P o₁ M₃ kernel window v₃ f₃ p₃ x₃ n → ∀ k, k ≤ n →
        Mixed a b (x₁ k).ns.U (x₂ k).ns.U (x₃ k).ns.U ∧ MixedPressure L.pN a b (x₁ k).ns.p (x₂ k).ns.p (x₃ k).ns.p ∧
        Mixed a b (x₁ k).f (x₂ k).f (x₃ k).f ∧ Mixed a b (x₁ k).UB (x₂ k).UB (x₃ k).UB ∧ (x₂ k).bodies = (x₁ k).bodies ∧
        (x₃ k).bodies = (x₁ k).bodies ∧ (x₂ k).ib = (x₁ k).ib ∧ (x₃ k).ib = (x₁ k).ib := by
  have F₁ := S₁.started.started
  have F₂ := S₂.started.started
  have F₃ := S₃.started.started
  obtain ⟨e2, e3, init, ⟨u₁, R₁⟩, ⟨u₂, R₂⟩, ⟨u₃, R₃⟩⟩ := mix_start F₁ F₂ F₃ hT hF start
  have e2 := e2.symm
  have e3 := e3.symm
  subst e2 e3
  refine ⟨rfl, rfl, ?_⟩
  intro v₁ f₁ p₁ v₂ f₂ p₂ v₃ f₃ p₃ hv1 hp1 hv2 hp2 hv3 hp3 x₁ x₂ x₃ n hf1 hf2 hf3 reg h1 h2 h3 t₁ t₂ t₃
  have hN3 : ∀ f loc, f < L.dim → loc / 2 = f → (T₃ f loc).1 ≠ .NEUMANN := fun f loc hf hl => by
    rw [(hT f loc hf (by omega)).2.1]
    exact hN f loc hf hl
  obtain ⟨u₀, hops, -⟩ := F₃.reach
  obtain ⟨m2, m3, mv⟩ := hM
  have same : ∀ {T T' : BCTable K} {B B' : ℕ → Boundary K} (_ : Constructed debug L G axes T B) (_ : Constructed debug L G axes T' B')
      (h h' : List (Boundary.Op K)) (bod : BodyPack K) (idx : List (List (List (List ℤ)))),
      createExtraOperators debug L G axes P o₁ (fun r => (B r).run h) bod (meshIdxAt idx) kernel window =
        createExtraOperators debug L G axes P o₁ (fun r => (B' r).run h') bod (meshIdxAt idx) kernel window := by
    intro T T' B B' C C' h h' bod idx
    have : createDelta debug L axes (fun r => (B r).run h) bod (meshIdxAt idx) kernel window =
        createDelta debug L axes (fun r => (B' r).run h') bod (meshIdxAt idx) kernel window := by
      apply createDelta_congr
      intro r d hr hd
      rw [deltaPeriodic_run C h hr (by omega), deltaPeriodic_run C' h' hr (by omega)]
    unfold createExtraOperators createEH
    rw [this]
  have all : ∀ k, k ≤ n → Reach L B₁ P o₁.pN u₁ (x₁ k).ns ∧ Reach L B₂ P o₁.pN u₂ (x₂ k).ns ∧ Reach L B₃ P o₁.pN u₃ (x₃ k).ns ∧
      MixState L a b (x₁ k).ns (x₂ k).ns (x₃ k).ns ∧ Mixed a b (x₁ k).f (x₂ k).f (x₃ k).f ∧ Mixed a b (x₁ k).UB (x₂ k).UB (x₃ k).UB ∧
      (x₂ k).bodies = (x₁ k).bodies ∧ (x₃ k).bodies = (x₁ k).bodies ∧ (x₂ k).ib = (x₁ k).ib ∧ (x₃ k).ib = (x₁ k).ib := by
    intro k
    induction k with
    | zero =>
      intro _
      rw [h1, h2, h3]
      refine ⟨R₁, R₂, R₃, init, ?_, ?_, by rw [S₁.same, S₂.same], by rw [S₁.same, S₃.same], mix_extra S₁.started S₂.started,
        mix_extra S₁.started S₃.started⟩
      · rw [S₁.started.force.1 start, S₂.started.force.1 start, S₃.started.force.1 start]
        intro i
        ring
      · rw [S₁.UB, S₂.UB, S₃.UB]
        intro i
        ring
    | succ k ih =>
      intro hk
      obtain ⟨r1, r2, r3, hs, hfo, hu, hb2, hb3, -, -⟩ := ih (by omega)
      obtain ⟨a1, a2, ⟨ia, a3, a4⟩, a5⟩ := rigid_ok (t₁ k (by omega))
      obtain ⟨b1, b2, ⟨ib, b3, b4⟩, b5⟩ := rigid_ok (t₂ k (by omega))
      obtain ⟨c1, c2, ⟨ic, c3, c4⟩, c5⟩ := rigid_ok (t₃ k (by omega))
      have eb2 : (x₂ (k + 1)).bodies = (x₁ (k + 1)).bodies := by rw [a1, b1, hb2, hs.time.1, m2]
      have eb3 : (x₃ (k + 1)).bodies = (x₁ (k + 1)).bodies := by rw [a1, c1, hb3, hs.time.2, m3]
      have eu : Mixed a b (x₁ (k + 1)).UB (x₂ (k + 1)).UB (x₃ (k + 1)).UB := by
        rw [a2, b2, c2, eb2, eb3, hs.time.1, hs.time.2]
        exact mv _ _ _ _ _ hu
      rw [eb2] at b3 b4
      rw [eb3] at c3 c4
      cases a3.symm.trans b3
      cases a3.symm.trans c3
      obtain ⟨h₁, hh1, -⟩ := r1.hist
      obtain ⟨h₂, hh2, -⟩ := r2.hist
      obtain ⟨h₃, hh3, -⟩ := r3.hist
      rw [hh1] at a4
      rw [hh2] at b4
      rw [hh3] at c4
      have ei2 : (x₂ (k + 1)).ib = (x₁ (k + 1)).ib :=
        Except.ok.inj ((b4.symm.trans (same F₂.constructed F₁.constructed _ _ _ _)).trans a4)
      have ei3 : (x₃ (k + 1)).ib = (x₁ (k + 1)).ib :=
        Except.ok.inj ((c4.symm.trans (same F₃.constructed F₁.constructed _ _ _ _)).trans a4)
      rw [ei2] at b5
      rw [ei3] at c5 c4
      obtain ⟨q1, -, q3⟩ := mix_decoupled F₁ F₂ F₃ hc hn hdt hnu hN3 hBN hv1 hp1 hv2 hp2 hv3 hp3 (hf1 k (by omega)) (ei2 ▸ hf2 k (by omega))
        (ei3 ▸ hf3 k (by omega)) hops c3 c4 r1 r2 r3 hs (fun c _ _ => mix_mult_zero (fun j _ _ => hfo j) _ c)
        (fun V₁ V₂ V₃ hV i => by
          have := mix_forces (L := L) (ib := (x₁ (k + 1)).ib) hV i
          unfold assembleRHSForces at this ⊢
          dsimp only at this ⊢
          rw [this, eu i]
          ring) a5 b5 c5
      obtain ⟨_, _, _, _, _, _, g1, _⟩ := decoupled_ok F₁.constructed F₁.schemes.1.1 F₁.schemes.2.1 r1 a5
      obtain ⟨_, _, _, _, _, _, g2, _⟩ := decoupled_ok F₂.constructed F₂.schemes.1.1 F₂.schemes.2.1 r2 b5
      obtain ⟨_, _, _, _, _, _, g3, _⟩ := decoupled_ok F₃.constructed F₃.schemes.1.1 F₃.schemes.2.1 r3 c5
      exact ⟨r1.step F₁.constructed F₁.schemes.1.1 F₁.schemes.2.1 g1, r2.step F₂.constructed F₂.schemes.1.1 F₂.schemes.2.1 g2,
        r3.step F₃.constructed F₃.schemes.1.1 F₃.schemes.2.1 g3, q1, q3 (reg k (by omega)) hfo, eu, eb2, eb3, ei2, ei3⟩
  intro k hk
  obtain ⟨-, -, -, h, hfo, hu, w⟩ := all k hk
  exact ⟨h.vel, h.pres, hfo, hu, w⟩

/-! ### Example -/

/-- Starts of the decoupled solver in the box with two lids. -/
theorem lids_decoupled {x y : ℚ} (h : (decoupledInit true (seamLayout 2) seamGeom seamAxes (boxParams (1 / 4) 1 eulerImplicit crankNicolson)
      (some (lidsFlow x y)) (seamB (lids x y) 2) boxBody hatKernel 1).toOption.isSome = true) :
    ∃ ops ib s d, IBStarted true (seamLayout 2) seamGeom seamAxes (lids x y) (seamB (lids x y) 2) (boxParams (1 / 4) 1 eulerImplicit crankNicolson)
      (some (lidsFlow x y)) boxBody hatKernel 1 ops ib (fun _ => none) s d := by
  obtain ⟨⟨ops, ib, s⟩, h1⟩ := pick h
  have C := seam_constructed (lids x y) (fun _ _ => rfl) 2 (Or.inr rfl)
  have hi : s.ns.ite = 0 := by
    obtain ⟨⟨ops', ns⟩, h3, h1⟩ := bind_ok h1
    obtain ⟨idx, h4, h1⟩ := bind_ok h1
    obtain ⟨ib', h5, h1⟩ := bind_ok h1
    cases h1
    obtain ⟨_, _, _, _, rfl⟩ := solverInit_ok h3
    rfl
  obtain ⟨file, hf, _⟩ := writeSolution_spec C.setup.layout s.ns (fun _ => none) (stepPath (boxParams (1 / 4) 1 eulerImplicit crankNicolson).output s.ns.ite)
  refine ⟨ops, ib, s, Function.update (fun _ => none) (stepPath (boxParams (1 / 4) 1 eulerImplicit crankNicolson).output s.ns.ite) (some file), C,
    ⟨false, "out", some (boxNode (1 / 4) "EULER_IMPLICIT" "CRANK_NICOLSON"), rfl⟩, boxBody_ok, s, h1, ?_⟩
  unfold decoupledIoInitialData
  rw [if_pos hi, hf]
  rfl

/-- Runs of any length with two points between two lids, of which only the upper one, only the lower one, or both move: the hypotheses of
`C106_decoupled_partial` hold with the factors 2 and 3. -/
example : ∃ o₁ o₂ o₃ b₁ b₂ b₃ i₁ i₂ i₃ d₁ d₂ d₃ x₁ x₂ x₃,
    IBStarted true (seamLayout 2) seamGeom seamAxes (lids 1 0) (seamB (lids 1 0) 2) (boxParams (1 / 4) 1 eulerImplicit crankNicolson)
      (some (lidsFlow 1 0)) boxBody hatKernel 1 o₁ b₁ (fun _ => none) i₁ d₁ ∧
    IBStarted true (seamLayout 2) seamGeom seamAxes (lids 0 1) (seamB (lids 0 1) 2) (boxParams (1 / 4) 1 eulerImplicit crankNicolson)
      (some (lidsFlow 0 1)) boxBody hatKernel 1 o₂ b₂ (fun _ => none) i₂ d₂ ∧
    IBStarted true (seamLayout 2) seamGeom seamAxes (lids 2 3) (seamB (lids 2 3) 2) (boxParams (1 / 4) 1 eulerImplicit crankNicolson)
      (some (lidsFlow 2 3)) boxBody hatKernel 1 o₃ b₃ (fun _ => none) i₃ d₃ ∧
    MixedTable 2 2 3 (lids 1 0) (lids 0 1) (lids 2 3) ∧ MixedFlow 2 2 3 (some (lidsFlow 1 0)) (some (lidsFlow 0 1)) (some (lidsFlow 2 3)) ∧
    (boxParams (1 / 4) 1 eulerImplicit crankNicolson : NSParams ℚ).conv.nExplicit = 0 ∧ (∀ d, (seamLayout 2).periodic 0 d = false) ∧
    x₁ 0 = i₁ ∧ x₂ 0 = i₂ ∧ x₃ 0 = i₃ ∧
    (∀ n, IBTrajectory (seamLayout 2) seamGeom (boxParams (1 / 4) 1 eulerImplicit crankNicolson) o₁ b₁ (exactSolve (seamLayout 2).UN) (exactSolve b₁.nF)
      (exactSolve (seamLayout 2).pN) x₁ n) ∧
    (∀ n, IBTrajectory (seamLayout 2) seamGeom (boxParams (1 / 4) 1 eulerImplicit crankNicolson) o₂ b₂ (exactSolve (seamLayout 2).UN) (exactSolve b₂.nF)
      (exactSolve (seamLayout 2).pN) x₂ n) ∧
    ∀ n, IBTrajectory (seamLayout 2) seamGeom (boxParams (1 / 4) 1 eulerImplicit crankNicolson) o₃ b₃ (exactSolve (seamLayout 2).UN) (exactSolve b₃.nF)
      (exactSolve (seamLayout 2).pN) x₃ n := by
  have run : ∀ {x y : ℚ} {o : NSOps ℚ} {c : IBOps ℚ} {i : IBState ℚ} {d : Disk ℚ}, IBStarted true (seamLayout 2) seamGeom seamAxes (lids x y)
      (seamB (lids x y) 2) (boxParams (1 / 4) 1 eulerImplicit crankNicolson) (some (lidsFlow x y)) boxBody hatKernel 1 o c (fun _ => none) i d →
      ∃ X, X 0 = i ∧ ∀ n, IBTrajectory (seamLayout 2) seamGeom (boxParams (1 / 4) 1 eulerImplicit crankNicolson) o c (exactSolve (seamLayout 2).UN)
        (exactSolve c.nF) (exactSolve (seamLayout 2).pN) X n := by
    intro x y o c i d S
    obtain ⟨g1, g2⟩ := closed_given S.constructed fun loc _ _ => by
      unfold Closed lids
      rw [if_neg (by omega), if_neg (by omega)]
    exact C93_decoupled_runs_partial S (fun _ _ _ _ hp => by cases hp) g1 g2 (Or.inl rfl) rfl (by norm_num [boxParams]) (by norm_num [boxParams])
      (exactSolve_finds _ _) (exactSolve_finds _ _) (exactSolve_finds _ _)
  obtain ⟨o₁, b₁, i₁, d₁, S₁⟩ := lids_decoupled (x := 1) (y := 0) (by decide +kernel)
  obtain ⟨o₂, b₂, i₂, d₂, S₂⟩ := lids_decoupled (x := 0) (y := 1) (by decide +kernel)
  obtain ⟨o₃, b₃, i₃, d₃, S₃⟩ := lids_decoupled (x := 2) (y := 3) (by decide +kernel)
  obtain ⟨X, X0, hX⟩ := run S₁
  obtain ⟨Y, Y0, hY⟩ := run S₂
  obtain ⟨Z, Z0, hZ⟩ := run S₃
  have m := lids_mixed 2 3 1 0 0 1
  norm_num at m
  exact ⟨o₁, o₂, o₃, b₁, b₂, b₃, i₁, i₂, i₃, d₁, d₂, d₃, X, Y, Z, S₁, S₂, S₃, m.1, m.2, rfl, fun _ => rfl, X0, Y0, Z0, hX, hY, hZ⟩

/-- The two points move along a diagonal; the velocity `v` is prescribed at them. -/
def slipMotion (v : ℚ) : Motion ℚ := { driftMotion with velocity := fun _ _ _ => fun _ => v }

theorem slip_mixed (a b v w : ℚ) : MixedMotion a b (slipMotion v) (slipMotion w) (slipMotion (a * v + b * w)) :=
  ⟨rfl, rfl, fun _ _ _ _ _ _ _ => rfl⟩

/-- One step between the two lids. -/
def slipRun (x y v : ℚ) : Except Error (NSOps ℚ × RigidState ℚ × RigidState ℚ) := do
  let (ops, ib, s) ← decoupledInit true (seamLayout 2) seamGeom seamAxes (boxParams (1 / 4) 1 eulerImplicit crankNicolson) (some (lidsFlow x y))
    (seamB (lids x y) 2) (pairBody 2) hatKernel 1
  let s : RigidState ℚ := { toIBState := s, bodies := pairBody 2, UB := fun _ => 0, ib := ib }
  let t ← steps (rigidAdvance true (seamLayout 2) seamGeom seamAxes (boxParams (1 / 4) 1 eulerImplicit crankNicolson) ops (slipMotion v) hatKernel 1
    (gaussSolve 7) (gaussSolve 4) (gaussSolve 6)) 1 s
  return (ops, s, t)

set_option maxRecDepth 10000 in
theorem slip_entries : (slipRun 1 0 (1 / 8)).toOption.map (fun q => (([1, 2, 4, 6] : List ℤ).map fun i => (List.range 4).map fun j : ℕ => q.2.2.ib.H i j)) =
    some [[225 / 1024, 0, 7 / 1024, 0], [0, 575 / 1024, 0, 0], [0, 0, 775 / 1024, 0], [0, 0, 0, 153 / 1024]] := by decide +kernel

theorem slip_run {x y v : ℚ} (h : (slipRun x y v).toOption.isSome = true) : ∃ o i d X t, slipRun x y v = .ok (o, i, t) ∧
    RigidStarted true (seamLayout 2) seamGeom seamAxes (lids x y) (seamB (lids x y) 2) (boxParams (1 / 4) 1 eulerImplicit crankNicolson)
      (some (lidsFlow x y)) (pairBody 2) (slipMotion v) hatKernel 1 o (fun _ => none) i d ∧ X 0 = i ∧ X 1 = t ∧
    RigidTrajectory true (seamLayout 2) seamGeom seamAxes (boxParams (1 / 4) 1 eulerImplicit crankNicolson) o (slipMotion v) hatKernel 1 (gaussSolve 7)
      (gaussSolve 4) (gaussSolve 6) X 1 ∧ t.ib.nF = 4 := by
  obtain ⟨⟨o, s, t⟩, h0⟩ := pick h
  have h := h0
  obtain ⟨⟨ops', ib', s'⟩, h1, h⟩ := bind_ok h
  obtain ⟨t', h2, h⟩ := bind_ok h
  cases h
  obtain ⟨X, x0, xn, hx⟩ := steps_ok h2
  have C := seam_constructed (lids x y) (fun _ _ => rfl) 2 (Or.inr rfl)
  have hi : s'.ns.ite = 0 := by
    obtain ⟨⟨ops', ns⟩, h3, h1⟩ := bind_ok h1
    obtain ⟨idx, h4, h1⟩ := bind_ok h1
    obtain ⟨ib', h5, h1⟩ := bind_ok h1
    cases h1
    obtain ⟨_, _, _, _, rfl⟩ := solverInit_ok h3
    rfl
  obtain ⟨file, hf, _⟩ := writeSolution_spec C.setup.layout s'.ns (fun _ => none) (stepPath (boxParams (1 / 4) 1 eulerImplicit crankNicolson).output s'.ns.ite)
  have S : IBStarted true (seamLayout 2) seamGeom seamAxes (lids x y) (seamB (lids x y) 2) (boxParams (1 / 4) 1 eulerImplicit crankNicolson)
      (some (lidsFlow x y)) (pairBody 2) hatKernel 1 o ib' (fun _ => none) s'
      (Function.update (fun _ => none) (stepPath (boxParams (1 / 4) 1 eulerImplicit crankNicolson).output s'.ns.ite) (some file)) := by
    refine ⟨C, ⟨false, "out", some (boxNode (1 / 4) "EULER_IMPLICIT" "CRANK_NICOLSON"), rfl⟩, ⟨by constructor <;> simp [pairBody], rfl, rfl⟩, s', h1, ?_⟩
    unfold decoupledIoInitialData
    rw [if_pos hi, hf]
    rfl
  obtain ⟨e1, _, ⟨idx, _, e4⟩, _⟩ := rigid_ok (hx 0 (by omega))
  obtain ⟨_, _, e5⟩ := bind_ok e4
  obtain ⟨_, _, e5⟩ := bind_ok e5
  have e5 := Except.ok.inj e5
  refine ⟨o, _, _, X, t, h0, ⟨S, rfl, rfl, driftMotion_ok _⟩, x0, xn, hx, ?_⟩
  rw [← xn, ← e5, e1, x0]
  rfl

/-- A step with two moving points between two lids: the hypotheses of `C106_rigid_partial` hold with the factors 2 and 3. -/
example : ∃ o₁ o₂ o₃ i₁ i₂ i₃ d₁ d₂ d₃ x₁ x₂ x₃,
    RigidStarted true (seamLayout 2) seamGeom seamAxes (lids 1 0) (seamB (lids 1 0) 2) (boxParams (1 / 4) 1 eulerImplicit crankNicolson)
      (some (lidsFlow 1 0)) (pairBody 2) (slipMotion (1 / 8)) hatKernel 1 o₁ (fun _ => none) i₁ d₁ ∧
    RigidStarted true (seamLayout 2) seamGeom seamAxes (lids 0 1) (seamB (lids 0 1) 2) (boxParams (1 / 4) 1 eulerImplicit crankNicolson)
      (some (lidsFlow 0 1)) (pairBody 2) (slipMotion 0) hatKernel 1 o₂ (fun _ => none) i₂ d₂ ∧
    RigidStarted true (seamLayout 2) seamGeom seamAxes (lids 2 3) (seamB (lids 2 3) 2) (boxParams (1 / 4) 1 eulerImplicit crankNicolson)
      (some (lidsFlow 2 3)) (pairBody 2) (slipMotion (1 / 4)) hatKernel 1 o₃ (fun _ => none) i₃ d₃ ∧
    MixedTable 2 2 3 (lids 1 0) (lids 0 1) (lids 2 3) ∧ MixedFlow 2 2 3 (some (lidsFlow 1 0)) (some (lidsFlow 0 1)) (some (lidsFlow 2 3)) ∧
    MixedMotion 2 3 (slipMotion (1 / 8)) (slipMotion 0) (slipMotion (1 / 4)) ∧
    Solves (seamLayout 2).UN (gaussSolve 7) o₁.A ∧ Solves (seamLayout 2).pN (gaussSolve 6) o₁.DBNG ∧
    (∀ k, k < 1 → Solves (x₁ (k + 1)).ib.nF (gaussSolve 4) (x₁ (k + 1)).ib.EBNH) ∧
    (∀ k, k < 1 → Solves (x₂ (k + 1)).ib.nF (gaussSolve 4) (x₂ (k + 1)).ib.EBNH) ∧
    (∀ k, k < 1 → Solves (x₃ (k + 1)).ib.nF (gaussSolve 4) (x₃ (k + 1)).ib.EBNH) ∧
    (∀ k, k < 1 → IndependentPoints (seamLayout 2) (x₁ (k + 1)).ib.nF (x₁ (k + 1)).ib.H) ∧
    x₁ 0 = i₁ ∧ x₂ 0 = i₂ ∧ x₃ 0 = i₃ ∧
    RigidTrajectory true (seamLayout 2) seamGeom seamAxes (boxParams (1 / 4) 1 eulerImplicit crankNicolson) o₁ (slipMotion (1 / 8)) hatKernel 1
      (gaussSolve 7) (gaussSolve 4) (gaussSolve 6) x₁ 1 ∧
    RigidTrajectory true (seamLayout 2) seamGeom seamAxes (boxParams (1 / 4) 1 eulerImplicit crankNicolson) o₂ (slipMotion 0) hatKernel 1
      (gaussSolve 7) (gaussSolve 4) (gaussSolve 6) x₂ 1 ∧
    RigidTrajectory true (seamLayout 2) seamGeom seamAxes (boxParams (1 / 4) 1 eulerImplicit crankNicolson) o₃ (slipMotion (1 / 4)) hatKernel 1
      (gaussSolve 7) (gaussSolve 4) (gaussSolve 6) x₃ 1 := by
  obtain ⟨o₁, i₁, d₁, X, t₁, q1, S₁, X0, X1, hX, n1⟩ := slip_run (x := 1) (y := 0) (v := 1 / 8) (by decide +kernel)
  obtain ⟨o₂, i₂, d₂, Y, t₂, -, S₂, Y0, Y1, hY, n2⟩ := slip_run (x := 0) (y := 1) (v := 0) (by decide +kernel)
  obtain ⟨o₃, i₃, d₃, Z, t₃, -, S₃, Z0, Z1, hZ, n3⟩ := slip_run (x := 2) (y := 3) (v := 1 / 4) (by decide +kernel)
  have m := lids_mixed 2 3 1 0 0 1
  norm_num at m
  have hM : MixedMotion 2 3 (slipMotion (1 / 8)) (slipMotion 0) (slipMotion (1 / 4)) := by
    have := slip_mixed 2 3 (1 / 8) 0
    rwa [show (2 : ℚ) * (1 / 8) + 3 * 0 = 1 / 4 by norm_num] at this
  have u1 : (seamLayout 2).UN = 7 := by decide
  have u2 : (seamLayout 2).pN = 6 := by decide
  refine ⟨o₁, o₂, o₃, i₁, i₂, i₃, d₁, d₂, d₃, X, Y, Z, S₁, S₂, S₃, m.1, m.2, hM, by rw [u1]; exact gaussSolve_exact _ _,
    by rw [u2]; exact gaussSolve_exact _ _, ?_, ?_, ?_, ?_, X0, Y0, Z0, hX, hY, hZ⟩ <;> intro k hk <;> obtain rfl : k = 0 := by omega
  · rw [zero_add, X1, n1]; exact gaussSolve_exact _ _
  · rw [zero_add, Y1, n2]; exact gaussSolve_exact _ _
  · rw [zero_add, Z1, n3]; exact gaussSolve_exact _ _
  · rw [zero_add, X1]
    have e := slip_entries
    rw [q1] at e
    simp only [Except.toOption, Option.map_some, List.map_cons, List.map_nil, show List.range 4 = [0, 1, 2, 3] from rfl, Option.some.injEq,
      List.cons.injEq, and_true, Nat.cast_zero, Nat.cast_one, Nat.cast_ofNat] at e
    obtain ⟨⟨a0, a1, a2, a3⟩, ⟨b0, b1, b2, b3⟩, ⟨c0, c1, c2, c3⟩, d0, d1, d2, d3⟩ := e
    intro F hF k h0 h1
    rw [n1] at hF h1
    rw [u1] at hF
    have f1 := hF 1 (by norm_num) (by norm_num)
    have f2 := hF 2 (by norm_num) (by norm_num)
    have f4 := hF 4 (by norm_num) (by norm_num)
    have f6 := hF 6 (by norm_num) (by norm_num)
    simp only [Mat.mult, Finset.sum_range_succ, Finset.sum_range_zero, Nat.cast_zero, Nat.cast_one, Nat.cast_ofNat, a0, a1, a2, a3, b0, b1, b2, b3,
      c0, c1, c2, c3, d0, d1, d2, d3] at f1 f2 f4 f6
    have : k = 0 ∨ k = 1 ∨ k = 2 ∨ k = 3 := by omega
    rcases this with rfl | rfl | rfl | rfl <;> linarith

end PetIBM
