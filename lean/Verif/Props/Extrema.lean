/-
The step for the velocity creates no new extrema (C95).
-/
import Verif.Lemmas.Extrema
import Verif.Props.MomentumBodies
import Verif.Props.Energy

set_option linter.unusedSectionVars false

namespace PetIBM

open Spec

section

variable {K : Type} [Field K] [LinearOrder K] [IsStrictOrderedRing K] {debug : Bool} {L : Layout} {G : Geom K} {axes : ℕ → Axis K}
  {T : BCTable K} {B : ℕ → Boundary K} {P : NSParams K} {flow : Option (FlowNode K)} {ops : NSOps K} {bodies : BodyPack K}
  {kernel : DeltaKernel K} {window : ℕ} {vSolve pSolve : LinSolve K} {disk disk' : Disk K} {n : ℕ}

/-- The weights of the schemes for the viscous terms. -/
theorem diffusion_nonneg {haveAmgX : Bool} {output : String} {node : Option (ParamNode K)} (h : readParams haveAmgX output node flow = .ok P) :
    0 ≤ P.diff.implicitCoeff ∧ ∀ k, 0 ≤ levelWeight P.diff k k := by
  obtain ⟨⟨p, -, h2⟩, -⟩ := params_schemes h
  generalize P.diff = d at h2 ⊢
  unfold createTimeIntegration at h2
  split at h2
  · cases h2
  · split at h2
    · cases h2
    · split_ifs at h2 <;> cases h2 <;>
        simp [eulerExplicit, eulerImplicit, adamsBashforth2, crankNicolson, levelWeight] <;> norm_num

/-- From the momentum equation to bounds. -/
theorem bounded_of_momentum (C : Constructed debug L G axes T B) {u₀ : ℤ → K} {N k : ℕ} {y : NSState K} (R : Reach L B P N u₀ y)
    {V : ℕ → ℕ → Stencil → K} {p : Stencil → K} {F q : ℤ → K} (hV : Filled debug L y.B y.U (V k))
    (hm : ∀ W, Extended debug L (fun r => (y.B r).updateEqs y.U P.dt) q W → Momentum debug L G axes P k V W p F)
    (hdt : 0 < P.dt) (ha : 0 ≤ P.nu * P.diff.implicitCoeff) (f : ℕ) (hf : f < L.dim) (c : K) :
    NoNewExtrema debug L G axes T P k V p F q f c := by
  obtain ⟨h, hB, hj⟩ := R.hist
  have hBe : (fun r => (B r).run (([.setGhostICs u₀] ++ h) ++ [.updateEqs y.U P.dt])) = fun r => (y.B r).updateEqs y.U P.dt := by
    funext r
    simp only [hB, Boundary.run, List.foldl_append]
    rfl
  obtain ⟨W, hW⟩ := exists_extended (debug := debug) C.setup.layout (C.ghosts (([.setGhostICs u₀] ++ h) ++ [.updateEqs y.U P.dt])) q
  have hm := hm W (by rw [← hBe]; exact hW)
  rw [hB] at hV
  obtain ⟨b1, b2⟩ := bounded_step C (h := [.setGhostICs u₀] ++ h) ⟨u₀, h, rfl⟩ hV hW hm hdt ha hf c
  refine ⟨fun he hs s idx hin hi => ?_, fun he hs s idx hin hi => ?_⟩
  · rw [← (hW.stored f hf).inside s idx hin hi]
    exact b1 he hs s hin
  · rw [← (hW.stored f hf).inside s idx hin hi]
    exact b2 he hs s hin

/-! ### C95 -/

/-- C95. The intermediate velocity `q` of a step of a Navier-Stokes run has no value above all those that its explicit terms and the conditions on
the sides give, and none below all of them, whatever the size of the time step. Missing: periodic directions with fewer than three cells, the first step of a
restart with the method of Adams and Bashforth, and the velocity after the projection, which has no such bounds. -/
theorem C95_step_partial {s : NSState K} (S : Started debug L G axes T B P flow ops disk s disk') {x : ℕ → NSState K} (h0 : x 0 = s)
    (hx : Trajectory L G P ops vSolve pSolve x n) (hn : ∀ f d, f < L.dim → d < L.dim → L.periodic 0 d = true → 3 ≤ L.n f d)
    (exact : Solves L.UN vSolve ops.A) (hdt : 0 < P.dt) (hnu : 0 ≤ P.nu) (k : ℕ) (hk : k < n) (hs : Remembers P k) :
    ∃ q φ, (∀ i : ℤ, 0 ≤ i → i < L.UN → (x (k + 1)).U i = q i - Mat.mult L.pN ops.BNG φ i) ∧
      (∀ i : ℤ, 0 ≤ i → i < L.pN → (x (k + 1)).p i = (x k).p i + φ i) ∧
      ∀ (V : ℕ → ℕ → Stencil → K) (p : Stencil → K), (∀ m, m ≤ k → Filled debug L (x m).B (x m).U (V m)) → Stored debug L 3 (x k).p p →
        ∀ f, f < L.dim → ∀ c, NoNewExtrema debug L G axes T P k V p (fun _ => 0) q f c := by
  have C := S.constructed
  obtain ⟨u₀, hops, R⟩ := S.reach_at h0 hx
  obtain ⟨q, φ, e1, e2, key⟩ := C59_momentum_seen_partial S h0 hx hn exact k hk hs
  refine ⟨q, φ, e1, e2, fun V p hV hp f hf c => ?_⟩
  obtain ⟨_, _, _, hP⟩ := S.params
  refine bounded_of_momentum C (R k hk.le) (hV k le_rfl) (fun W hW u idx hu hidx => ?_) hdt (mul_nonneg hnu (diffusion_nonneg hP).1) f hf c
  rw [key V W p hV hW hp u idx hu hidx]
  unfold convectiveTerms viscousTerms pressureSlope laplace
  ring

/-- C95. The same for runs of the decoupled solver with bodies, with the spread forces of the level before among the explicit terms. Missing: as for
`C95_step_partial`. Example run: `box_decoupled`. -/
theorem C95_decoupled_partial {ib : IBOps K} {s : IBState K} (S : IBStarted debug L G axes T B P flow bodies kernel window ops ib disk s disk')
    {fSolve : LinSolve K} {x : ℕ → IBState K} (h0 : x 0 = s) (hx : IBTrajectory L G P ops ib vSolve fSolve pSolve x n)
    (hn : ∀ f d, f < L.dim → d < L.dim → L.periodic 0 d = true → 3 ≤ L.n f d) (exact : Solves L.UN vSolve ops.A) (hdt : 0 < P.dt) (hnu : 0 ≤ P.nu) :
    ∃ Δ, IsDelta debug L axes B bodies kernel window Δ ∧ ∀ k, k < n → Remembers P k → ∃ q φ,
      (∀ i : ℤ, 0 ≤ i → i < L.UN →
        (x (k + 1)).ns.U i = q i + Mat.mult ib.nF ib.BNH (fun j => (x (k + 1)).f j - (x k).f j) i - Mat.mult L.pN ops.BNG φ i) ∧
      (∀ i : ℤ, 0 ≤ i → i < L.pN → (x (k + 1)).ns.p i = (x k).ns.p i + φ i) ∧
      ∀ (V : ℕ → ℕ → Stencil → K) (p : Stencil → K), (∀ m, m ≤ k → Filled debug L (x m).ns.B (x m).ns.U (V m)) → Stored debug L 3 (x k).ns.p p →
        ∀ f, f < L.dim → ∀ c, NoNewExtrema debug L G axes T P k V p (spread (bodies.nPts * bodies.dim) Δ (x k).f) q f c := by
  have C := S.constructed
  obtain ⟨u₀, hops, R⟩ := S.reach_at h0 hx
  obtain ⟨Δ, hΔ, key⟩ := C59_decoupled_partial S h0 hx hn exact
  refine ⟨Δ, hΔ, fun k hk hs => ?_⟩
  obtain ⟨q, φ, e1, e2, key⟩ := key k hk hs
  obtain ⟨_, _, _, hP⟩ := S.started.params
  exact ⟨q, φ, e1, e2, fun V p hV hp f hf c => bounded_of_momentum C (R k hk.le) (hV k le_rfl) (fun W hW => key V W p hV hW hp) hdt
    (mul_nonneg hnu (diffusion_nonneg hP).1) f hf c⟩

/-- C95. The same with prescribed motion of the bodies, the forces spread from the new positions. Missing: as for `C95_step_partial`. Example run: `box_moving`. -/
theorem C95_moving_partial {M : Motion K} {s : RigidState K} (S : RigidStarted debug L G axes T B P flow bodies M kernel window ops disk s disk')
    {fSolve : LinSolve K} {x : ℕ → RigidState K} (h0 : x 0 = s)
    (hx : RigidTrajectory debug L G axes P ops M kernel window vSolve fSolve pSolve x n)
    (hn : ∀ f d, f < L.dim → d < L.dim → L.periodic 0 d = true → 3 ≤ L.n f d) (exact : Solves L.UN vSolve ops.A) (hdt : 0 < P.dt) (hnu : 0 ≤ P.nu)
    (k : ℕ) (hk : k < n) (hs : Remembers P k) :
    ∃ Δ q φ, IsDelta debug L axes B (x (k + 1)).bodies kernel window Δ ∧
      (∀ i : ℤ, 0 ≤ i → i < L.UN → (x (k + 1)).ns.U i =
        q i + Mat.mult (x (k + 1)).ib.nF (x (k + 1)).ib.BNH (fun j => (x (k + 1)).f j - (x k).f j) i - Mat.mult L.pN ops.BNG φ i) ∧
      (∀ i : ℤ, 0 ≤ i → i < L.pN → (x (k + 1)).ns.p i = (x k).ns.p i + φ i) ∧
      ∀ (V : ℕ → ℕ → Stencil → K) (p : Stencil → K), (∀ m, m ≤ k → Filled debug L (x m).ns.B (x m).ns.U (V m)) → Stored debug L 3 (x k).ns.p p →
        ∀ f, f < L.dim → ∀ c,
          NoNewExtrema debug L G axes T P k V p (spread ((x (k + 1)).bodies.nPts * (x (k + 1)).bodies.dim) Δ (x k).f) q f c := by
  have C := S.started.constructed
  obtain ⟨u₀, hops, R⟩ := S.reach_at h0 hx
  obtain ⟨Δ, q, φ, hΔ, e1, e2, key⟩ := C59_moving_partial S h0 hx hn exact k hk hs
  obtain ⟨_, _, _, hP⟩ := S.started.started.params
  exact ⟨Δ, q, φ, hΔ, e1, e2, fun V p hV hp f hf c => bounded_of_momentum C (R k hk.le).1 (hV k le_rfl) (fun W hW => key V W p hV hW hp) hdt
    (mul_nonneg hnu (diffusion_nonneg hP).1) f hf c⟩

/-- C95. The same for runs of the coupled solver. Missing: as for `C95_step_partial`. Example run: `box_coupled`. -/
theorem C95_coupled_partial {s : NSState K} (S : CoupledStarted debug L G axes T B P flow bodies kernel window ops disk s disk')
    {x : ℕ → NSState K} (h0 : x 0 = s) (hx : CoupledTrajectory L G P (nestCounts L bodies) ops vSolve pSolve x n)
    (hn : ∀ f d, f < L.dim → d < L.dim → L.periodic 0 d = true → 3 ≤ L.n f d) (exact : Solves L.UN vSolve ops.A) (hdt : 0 < P.dt) (hnu : 0 ≤ P.nu) :
    ∃ Δ, IsDelta debug L axes B bodies kernel window Δ ∧ ∀ k, k < n → Remembers P k → ∃ q φ,
      (∀ i : ℤ, 0 ≤ i → i < L.UN → (x (k + 1)).U i = q i - Mat.mult ops.pN ops.BNG φ i) ∧
      (∀ i : ℤ, 0 ≤ i → i < ops.pN → (x (k + 1)).p i = (x k).p i + φ i) ∧
      ∀ (V : ℕ → ℕ → Stencil → K) (p : Stencil → K), (∀ m, m ≤ k → Filled debug L (x m).B (x m).U (V m)) →
        Stored debug L 3 (subPressure (nestCounts L bodies) (x k).p) p → ∀ f, f < L.dim → ∀ c,
          NoNewExtrema debug L G axes T P k V p (spread (bodies.nPts * bodies.dim) Δ (subForces (nestCounts L bodies) (x k).p)) q f c := by
  have C := S.constructed
  obtain ⟨u₀, E, H, hops, R⟩ := S.reach_at h0 hx
  obtain ⟨Δ, hΔ, key⟩ := C59_coupled_partial S h0 hx hn exact
  refine ⟨Δ, hΔ, fun k hk hs => ?_⟩
  obtain ⟨q, φ, e1, e2, -, key⟩ := key k hk hs
  obtain ⟨_, _, _, hP⟩ := S.params
  exact ⟨q, φ, e1, e2, fun V p hV hp f hf c => bounded_of_momentum C (R k hk.le) (hV k le_rfl) (fun W hW => key V W p hV hW hp) hdt
    (mul_nonneg hnu (diffusion_nonneg hP).1) f hf c⟩

/-- With time steps that are small compared with the explicit part of diffusion, the explicit terms keep the bounds of the field. -/
theorem explicit_bounds (C : Constructed debug L G axes T B) {u₀ : ℤ → K} {N k : ℕ} {y : NSState K} (R : Reach L B P N u₀ y)
    {V : ℕ → ℕ → Stencil → K} {p : Stencil → K} (hV : Filled debug L y.B y.U (V k)) (hone : P.diff.explicitCoeffs.length ≤ 1)
    (hw : 0 ≤ levelWeight P.diff k k) (hdt : 0 < P.dt) (hnu : 0 ≤ P.nu) {f : ℕ} (hf : f < L.dim)
    (hsmall : ∀ s, Inside L.toMeshInfo f s → 2 * P.dt * P.nu * levelWeight P.diff k k * diffusionRate L G f s ≤ 1) (c : K) :
    ((∀ s, Inside L.toMeshInfo f s → V k f s ≤ c) → SidesBelow L G T P.dt f (V k f) c → OutflowBelow L T f (V k f) c →
      ∀ u idx, IsUnknown L u → u.comp = f → convectiveTerms L G P k V u ≤ pressureSlope L G axes p f ⟨u.k, u.j, u.i, 0⟩ →
        explicitVelocity L G axes P k V p (fun _ => 0) u idx ≤ c) ∧
    ((∀ s, Inside L.toMeshInfo f s → c ≤ V k f s) → SidesAbove L G T P.dt f (V k f) c → OutflowAbove L T f (V k f) c →
      ∀ u idx, IsUnknown L u → u.comp = f → pressureSlope L G axes p f ⟨u.k, u.j, u.i, 0⟩ ≤ convectiveTerms L G P k V u →
        c ≤ explicitVelocity L G axes P k V p (fun _ => 0) u idx) := by
  have h3 := C.setup.dim_le
  obtain ⟨h, hB, hj⟩ := R.hist
  have hV' : Filled debug L (fun r => (B r).run ([.setGhostICs u₀] ++ h)) y.U (V k) := by rw [← hB]; exact hV
  have hsum : ∀ g : ℕ → K, ∑ m ∈ Finset.range (k + 1), levelWeight P.diff k m * g m = levelWeight P.diff k k * g k := by
    intro g
    apply Finset.sum_eq_single_of_mem k (Finset.mem_range.2 (by omega))
    intro m hm hne
    have := Finset.mem_range.1 hm
    unfold levelWeight
    rw [List.getD_eq_getElem?_getD, List.getElem?_eq_none (by omega)]
    exact zero_mul _
  have hst := (filled_extended' C hj hV').stored f hf
  have small : ∀ s, Inside L.toMeshInfo f s → ∀ a : K, 0 ≤ a →
      P.dt * (P.nu * (levelWeight P.diff k k * (2 * diffusionRate L G f s * a))) ≤ a := by
    intro s hs a ha
    have := mul_le_mul_of_nonneg_right (hsmall s hs) ha
    linarith
  constructor
  · intro hv hs ho u idx hu huf hbal
    have hin := hu.inside
    rw [huf] at hin
    have hlap := laplace_le C.setup hf (v := V k f) (c := c) hst.periodic hv (fun s loc hloc hs' hper hside => by
      obtain ⟨a1, a2⟩ := nbr_face (by omega) hs' hside
      obtain ⟨b1, b2⟩ := side_filled C ⟨u₀, h, rfl⟩ hj hV' hf hs' hloc hper hside
      have hb := hs loc _ _ hloc a1 a2
      have hbv : boundaryValue loc f (V k f (nbr loc s)) (V k f s) ≤ c → V k f (nbr loc s) - V k f s ≤ 2 * (c - V k f s) := by
        intro hb
        have := hv s hs'
        unfold boundaryValue at hb
        split_ifs at hb <;> linarith
      rcases side_type C hf hloc hper hs' hside with hT | hT | hT <;> rw [hT] at hb <;> simp only at hb
      · exact hbv ((b1 hT).trans_le hb)
      · have := b2 hT
        have := hv s hs'
        linarith
      · exact hbv (ho loc _ _ hloc a1 a2 hT)) hin
    have h1 := hv _ hin
    have h2 := small _ hin (c - V k f u.st) (by linarith)
    have h3 := mul_le_mul_of_nonneg_left (mul_le_mul_of_nonneg_left (mul_le_mul_of_nonneg_left hlap hw) hnu) hdt.le
    have h4 := mul_le_mul_of_nonneg_left hbal hdt.le
    unfold explicitVelocity
    rw [hsum, huf]
    change V k f u.st + P.dt * (-pressureSlope L G axes p f u.st + 0 + convectiveTerms L G P k V u + P.nu * (levelWeight P.diff k k * laplace L.dim G f u.st (V k f))) ≤ c
    change _ ≤ P.dt * pressureSlope L G axes p f u.st at h4
    linarith
  · intro hv hs ho u idx hu huf hbal
    have hin := hu.inside
    rw [huf] at hin
    have hlap := laplace_le C.setup hf (v := fun s => -V k f s) (c := -c) (fun s d x h1 h2 h3 h4 => by simp only [hst.periodic s d x h1 h2 h3 h4])
      (fun s hs => neg_le_neg (hv s hs)) (fun s loc hloc hs' hper hside => by
      obtain ⟨a1, a2⟩ := nbr_face (by omega) hs' hside
      obtain ⟨b1, b2⟩ := side_filled C ⟨u₀, h, rfl⟩ hj hV' hf hs' hloc hper hside
      have hb := hs loc _ _ hloc a1 a2
      have hbv : c ≤ boundaryValue loc f (V k f (nbr loc s)) (V k f s) → -V k f (nbr loc s) - -V k f s ≤ 2 * (-c - -V k f s) := by
        intro hb
        have := hv s hs'
        unfold boundaryValue at hb
        split_ifs at hb <;> linarith
      rcases side_type C hf hloc hper hs' hside with hT | hT | hT <;> rw [hT] at hb <;> simp only at hb
      · exact hbv (hb.trans_eq (b1 hT).symm)
      · have := b2 hT
        have := hv s hs'
        linarith
      · exact hbv (ho loc _ _ hloc a1 a2 hT)) hin
    have hneg : laplace L.dim G f u.st (fun s => -V k f s) = -laplace L.dim G f u.st (V k f) := by
      unfold laplace
      rw [← Finset.sum_neg_distrib]
      apply Finset.sum_congr rfl
      intro d _
      unfold secondDifference
      ring
    rw [hneg] at hlap
    have h1 := hv _ hin
    have h2 := small _ hin (-c - -V k f u.st) (by linarith)
    have h3 := mul_le_mul_of_nonneg_left (mul_le_mul_of_nonneg_left (mul_le_mul_of_nonneg_left hlap hw) hnu) hdt.le
    have h4 := mul_le_mul_of_nonneg_left hbal hdt.le
    unfold explicitVelocity
    rw [hsum, huf]
    change c ≤ V k f u.st + P.dt * (-pressureSlope L G axes p f u.st + 0 + convectiveTerms L G P k V u + P.nu * (levelWeight P.diff k k * laplace L.dim G f u.st (V k f)))
    change P.dt * pressureSlope L G axes p f u.st ≤ _ at h4
    linarith

/-- C95. Diffusion creates no new extrema: where the convective terms and the pressure do not drive the flow beyond a bound of the old velocity and of
its values on the sides, the intermediate velocity has the same bound. The implicit Euler method needs no condition on the time step, the explicit one and
the method of Crank and Nicolson need one for their explicit part (`C95_false_explicit_diffusion`). Missing: the method of Adams and Bashforth,
otherwise as for `C95_step_partial`. -/
theorem C95_diffusion_partial {s : NSState K} (S : Started debug L G axes T B P flow ops disk s disk') {x : ℕ → NSState K} (h0 : x 0 = s)
    (hx : Trajectory L G P ops vSolve pSolve x n) (hn : ∀ f d, f < L.dim → d < L.dim → L.periodic 0 d = true → 3 ≤ L.n f d)
    (exact : Solves L.UN vSolve ops.A) (hdt : 0 < P.dt) (hnu : 0 ≤ P.nu) (hone : P.diff.nExplicit ≤ 1) (k : ℕ) (hk : k < n) (hs : Remembers P k) :
    ∃ (q φ : ℤ → K), (∀ i : ℤ, 0 ≤ i → i < L.UN → (x (k + 1)).U i = q i - Mat.mult L.pN ops.BNG φ i) ∧
      (∀ i : ℤ, 0 ≤ i → i < L.pN → (x (k + 1)).p i = (x k).p i + φ i) ∧
      ∀ (V : ℕ → ℕ → Stencil → K) (p : Stencil → K), (∀ m, m ≤ k → Filled debug L (x m).B (x m).U (V m)) → Stored debug L 3 (x k).p p →
        ∀ f, f < L.dim → (∀ s, Inside L.toMeshInfo f s → 2 * P.dt * P.nu * levelWeight P.diff k k * diffusionRate L G f s ≤ 1) → ∀ c,
          ((∀ u, IsUnknown L u → u.comp = f → convectiveTerms L G P k V u ≤ pressureSlope L G axes p f ⟨u.k, u.j, u.i, 0⟩) →
            SidesBelow L G T P.dt f (V k f) c → OutflowBelow L T f (V k f) c →
            (∀ s idx, Inside L.toMeshInfo f s → L.getPackedGlobalIndex debug f s = .ok idx → (x k).U idx ≤ c) →
            ∀ s idx, Inside L.toMeshInfo f s → L.getPackedGlobalIndex debug f s = .ok idx → q idx ≤ c) ∧
          ((∀ u, IsUnknown L u → u.comp = f → pressureSlope L G axes p f ⟨u.k, u.j, u.i, 0⟩ ≤ convectiveTerms L G P k V u) →
            SidesAbove L G T P.dt f (V k f) c → OutflowAbove L T f (V k f) c →
            (∀ s idx, Inside L.toMeshInfo f s → L.getPackedGlobalIndex debug f s = .ok idx → c ≤ (x k).U idx) →
            ∀ s idx, Inside L.toMeshInfo f s → L.getPackedGlobalIndex debug f s = .ok idx → c ≤ q idx) := by
  have C := S.constructed
  obtain ⟨u₀, hops, R⟩ := S.reach_at h0 hx
  obtain ⟨q, φ, e1, e2, key⟩ := C95_step_partial S h0 hx hn exact hdt hnu k hk hs
  refine ⟨q, φ, e1, e2, fun V p hV hp f hf hsmall c => ?_⟩
  obtain ⟨_, _, _, hP⟩ := S.params
  obtain ⟨k1, k2⟩ := key V p hV hp f hf c
  have hlen : P.diff.explicitCoeffs.length ≤ 1 := by rw [S.schemes.2.1]; exact hone
  obtain ⟨b1, b2⟩ := explicit_bounds (p := p) C (R k hk.le) (hV k le_rfl) hlen ((diffusion_nonneg hP).2 k) hdt hnu hf hsmall c
  have hin : ∀ s, Inside L.toMeshInfo f s → ∃ idx, L.getPackedGlobalIndex debug f s = .ok idx ∧ V k f s = (x k).U idx := fun s hs =>
    have h := (col_inside C.setup.layout (Or.inl hf) debug hs).1
    ⟨_, h, (hV k le_rfl).inside f s _ hf hs h⟩
  refine ⟨fun hbal hsd ho hv => k1 (fun u idx hu huf _ => b1 (fun s hs => ?_) hsd ho u idx hu huf (hbal u hu huf)) hsd,
    fun hbal hsd ho hv => k2 (fun u idx hu huf _ => b2 (fun s hs => ?_) hsd ho u idx hu huf (hbal u hu huf)) hsd⟩
  all_goals
    obtain ⟨idx, i1, i2⟩ := hin s hs
    rw [i2]
    exact hv s idx hs i1

end

/-- Are all velocities between minus two and two, and all pressures zero? -/
def boxBounded (s : NSState ℚ) : Bool :=
  ((List.range 7).all fun i : ℕ => decide (-2 ≤ s.U i) && decide (s.U i ≤ 2)) && ((List.range 6).all fun i : ℕ => decide (s.p i = 0))

theorem box_bounded {s : NSState ℚ} (h : boxBounded s = true) :
    (∀ i : ℤ, 0 ≤ i → i < 7 → -2 ≤ s.U i ∧ s.U i ≤ 2) ∧ ∀ i : ℤ, 0 ≤ i → i < 6 → s.p i = 0 := by
  unfold boxBounded at h
  simp only [Bool.and_eq_true, List.all_eq_true, List.mem_range, decide_eq_true_eq] at h
  constructor
  · intro i i0 i1
    obtain ⟨i, rfl⟩ := Int.eq_ofNat_of_zero_le i0
    exact h.1 i (by omega)
  · intro i i0 i1
    obtain ⟨i, rfl⟩ := Int.eq_ofNat_of_zero_le i0
    exact h.2 i (by omega)

/-- A run in the closed box on two processes, without convective terms and with implicit diffusion in time steps of size ten: the hypotheses of
`C95_step_partial` and `C95_diffusion_partial` hold, and the first intermediate velocity stays within the bounds of the initial velocity. -/
example : ∃ ops s d x, Started true (seamLayout 2) seamGeom seamAxes closedTable (seamB closedTable 2) (boxParams 10 1 eulerImplicit eulerImplicit)
      (some (vortexFlow 1)) ops (fun _ => none) s d ∧ x 0 = s ∧
      Trajectory (seamLayout 2) seamGeom (boxParams 10 1 eulerImplicit eulerImplicit) ops (exactSolve (seamLayout 2).UN) (exactSolve (seamLayout 2).pN) x 1 ∧
      ∃ q φ : ℤ → ℚ, (∀ i : ℤ, 0 ≤ i → i < (seamLayout 2).UN → (x 1).U i = q i - Mat.mult (seamLayout 2).pN ops.BNG φ i) ∧
        (∀ i : ℤ, 0 ≤ i → i < (seamLayout 2).pN → (x 1).p i = (x 0).p i + φ i) ∧
        ∀ st idx, Inside (seamLayout 2).toMeshInfo 0 st → (seamLayout 2).getPackedGlobalIndex true 0 st = .ok idx → -2 ≤ q idx ∧ q idx ≤ 2 := by
  have hc : (boxRun (boxParams 10 1 eulerImplicit eulerImplicit) (vortexFlow 1) 2 0).toOption.map (fun q => boxBounded q.2.1) = some true := by decide +kernel
  obtain ⟨⟨ops, s, t⟩, h1, hb⟩ := Option.map_eq_some_iff.1 hc
  obtain ⟨hU, hp⟩ := box_bounded hb
  obtain ⟨d, -, S, -⟩ := box_run (node := boxNode 10 "EULER_IMPLICIT" "EULER_IMPLICIT") rfl rfl (Or.inr rfl) (toOption_ok h1)
  obtain ⟨x, x0, hx, -⟩ := C62_runs_partial S (vSolve := exactSolve (seamLayout 2).UN) (pSolve := exactSolve (seamLayout 2).pN)
    (fun _ _ _ _ hp => by cases hp) (fun _ _ _ _ => Or.inl rfl) (by decide +kernel) (Or.inl rfl) rfl (by norm_num [boxParams]) (by norm_num [boxParams])
    (exactSolve_finds _ _) (exactSolve_finds _ _) (exactSolve_solves _ _)
  obtain ⟨-, u2, -, u4⟩ := seam_sizes
  have C := S.constructed
  obtain ⟨q, φ, e1, e2, key⟩ := C95_diffusion_partial S x0 (hx 1) (fun _ _ _ _ hp => by cases hp) (exactSolve_solves _ _) (by norm_num [boxParams])
    (by norm_num [boxParams]) (by decide) 0 (by omega) (Or.inl rfl)
  refine ⟨ops, s, d, x, S, x0, hx 1, q, φ, e1, e2, fun st idx hin hi => ?_⟩
  obtain ⟨u₀, hops, R⟩ := S.reach_at x0 (hx 1)
  obtain ⟨h, hB, hj⟩ := (R 0 (by omega)).hist
  obtain ⟨V, hV⟩ := exists_filled (debug := true) C.setup C.part (C.ghosts ([.setGhostICs u₀] ++ h)) (x 0).U
  rw [← hB] at hV
  have hconv : ∀ u, convectiveTerms (seamLayout 2) seamGeom (boxParams 10 1 eulerImplicit eulerImplicit) 0 (fun _ => V) u = 0 := by
    intro u
    unfold convectiveTerms levelWeight
    simp [boxParams, eulerImplicit]
  have hslope : ∀ st, pressureSlope (seamLayout 2) seamGeom seamAxes (fun _ => 0) 0 st = (0 : ℚ) := by
    intro st
    unfold pressureSlope
    simp
  obtain ⟨k1, -⟩ := key (fun _ => V) (fun _ => 0) (fun m hm => by rw [Nat.le_zero.1 hm]; exact hV) ⟨fun st idx hin hi => by
      rw [(col_inside C.setup.layout (Or.inr rfl) true hin).1] at hi
      cases hi
      have := pcol_range C.setup.layout hin
      rw [u4] at this
      rw [x0]
      exact (hp _ this.1 this.2).symm, fun _ _ _ _ _ _ _ => rfl⟩ 0 (by decide) (fun st _ => by simp [levelWeight, boxParams, eulerImplicit]) 2
  obtain ⟨-, k2⟩ := key (fun _ => V) (fun _ => 0) (fun m hm => by rw [Nat.le_zero.1 hm]; exact hV) ⟨fun st idx hin hi => by
      rw [(col_inside C.setup.layout (Or.inr rfl) true hin).1] at hi
      cases hi
      have := pcol_range C.setup.layout hin
      rw [u4] at this
      rw [x0]
      exact (hp _ this.1 this.2).symm, fun _ _ _ _ _ _ _ => rfl⟩ 0 (by decide) (fun st _ => by simp [levelWeight, boxParams, eulerImplicit]) (-2)
  have hr : ∀ st idx, Inside (seamLayout 2).toMeshInfo 0 st → (seamLayout 2).getPackedGlobalIndex true 0 st = .ok idx → 0 ≤ idx ∧ idx < 7 := by
    intro st idx hin hi
    obtain ⟨u, _, hu, h0, rfl⟩ := exists_unknown C.setup.layout (by decide : 0 < 2) hin
    have := col_range C.setup.layout hu
    rw [← h0, (col_inside C.setup.layout (Or.inl hu.1) true hu.inside).1] at hi
    cases hi
    rw [u2] at this
    exact this
  refine ⟨k2 (fun u _ _ => by rw [hconv, hslope]) (fun loc s t _ _ _ => by norm_num [closedTable]) (fun loc s t _ _ _ hT => by cases hT) (fun st idx hin hi => ?_) st idx hin hi,
    k1 (fun u _ _ => by rw [hconv, hslope]) (fun loc s t _ _ _ => by norm_num [closedTable]) (fun loc s t _ _ _ hT => by cases hT) (fun st idx hin hi => ?_) st idx hin hi⟩
  · rw [x0]; exact (hU idx (hr st idx hin hi).1 (hr st idx hin hi).2).1
  · rw [x0]; exact (hU idx (hr st idx hin hi).1 (hr st idx hin hi).2).2

/-- Is some intermediate velocity above two? -/
def boxOvershoots (q : NSOps ℚ × NSState ℚ × NSState ℚ) : Bool :=
  boxBounded q.2.1 && (List.range 7).any fun i : ℕ => decide (2 < q.2.2.U i + Mat.mult 6 q.1.BNG (fun j => q.2.2.p j - q.2.1.p j) i)

/-- C95 is false for the bounds of the velocity if diffusion is explicit and the time step large: in a closed box without convective terms and with no
pressure, all velocities at most two, an intermediate velocity is above two. -/
theorem C95_false_explicit_diffusion : ∃ (L : Layout) (G : Geom ℚ) (axes : ℕ → Axis ℚ) (T : BCTable ℚ) (B : ℕ → Boundary ℚ) (P : NSParams ℚ)
    (flow : Option (FlowNode ℚ)) (ops : NSOps ℚ) (disk disk' : Disk ℚ) (s : NSState ℚ) (x : ℕ → NSState ℚ) (v p : LinSolve ℚ),
    Started true L G axes T B P flow ops disk s disk' ∧ x 0 = s ∧ Trajectory L G P ops v p x 1 ∧ Solves L.UN v ops.A ∧ Solves L.pN p ops.DBNG ∧
    P.nstart = 0 ∧ 0 < P.dt ∧ 0 ≤ P.nu ∧ P.conv = eulerImplicit ∧ P.diff = eulerExplicit ∧ (∀ f loc, T f loc = (.DIRICHLET, 0)) ∧
    (∀ d, L.periodic 0 d = false) ∧ (∀ i : ℤ, 0 ≤ i → i < L.UN → (x 0).U i ≤ 2) ∧ (∀ i : ℤ, 0 ≤ i → i < L.pN → (x 0).p i = 0) ∧
    ∀ q φ : ℤ → ℚ, (∀ i : ℤ, 0 ≤ i → i < L.UN → (x 1).U i = q i - Mat.mult L.pN ops.BNG φ i) →
      (∀ i : ℤ, 0 ≤ i → i < L.pN → (x 1).p i = (x 0).p i + φ i) → ∃ i : ℤ, 0 ≤ i ∧ i < L.UN ∧ 2 < q i := by
  have hc : (boxRun (boxParams 1 1 eulerImplicit eulerExplicit) (vortexFlow 1) 2 1).toOption.map boxOvershoots = some true := by decide +kernel
  obtain ⟨⟨ops, s, t⟩, h1, hb⟩ := Option.map_eq_some_iff.1 hc
  unfold boxOvershoots at hb
  simp only [Bool.and_eq_true, List.any_eq_true, List.mem_range, decide_eq_true_eq] at hb
  obtain ⟨hb, i, hi, hlt⟩ := hb
  obtain ⟨hU, hp⟩ := box_bounded hb
  obtain ⟨d, x, S, x0, x1, hx⟩ := box_run (node := boxNode 1 "EULER_IMPLICIT" "EULER_EXPLICIT") rfl rfl (Or.inr rfl) (toOption_ok h1)
  obtain ⟨-, u2, -, u4⟩ := seam_sizes
  refine ⟨_, _, _, _, _, _, _, ops, _, d, s, x, _, _, S, x0, hx, by rw [u2]; exact gaussSolve_exact _ _, by rw [u4]; exact gaussSolve_exact _ _,
    rfl, by norm_num [boxParams], by norm_num [boxParams], rfl, rfl, fun _ _ => rfl, fun _ => rfl, fun i i0 i1 => ?_, fun i i0 i1 => ?_, fun q φ e1 e2 => ?_⟩
  · rw [u2] at i1
    rw [x0]
    exact (hU i i0 i1).2
  · rw [u4] at i1
    rw [x0]
    exact hp i i0 i1
  · refine ⟨i, by omega, by rw [u2]; omega, ?_⟩
    have e := e1 i (by omega) (by rw [u2]; omega)
    have : Mat.mult (seamLayout 2).pN ops.BNG φ i = Mat.mult 6 ops.BNG (fun j => t.p j - s.p j) i := by
      rw [u4]
      refine mult_congr (fun j j0 j1 => ?_) _
      have := e2 j j0 (by rw [u4]; exact j1)
      rw [x0, x1] at this
      rw [this]
      ring
    rw [this, x1] at e
    linarith

end PetIBM
