/-
C93: runs of the solvers with bodies do not stop.
-/
import Verif.Lemmas.Solvable
import Verif.Props.EnergyBodies

set_option linter.unusedSectionVars false

namespace PetIBM

open Spec

variable {K : Type} [Field K] [LinearOrder K] [IsStrictOrderedRing K]
variable {debug : Bool} {L : Layout} {G : Geom K} {axes : ℕ → Axis K} {T : BCTable K} {B : ℕ → Boundary K}
variable {P : NSParams K} {flow : Option (FlowNode K)} {ops : NSOps K} {ib : IBOps K} {disk disk' : Disk K}
variable {bodies : BodyPack K} {kernel : DeltaKernel K} {window : ℕ}
variable {vSolve fSolve pSolve : LinSolve K} {n : ℕ}

/-! ### The systems -/

theorem force_solvable (C : Constructed debug L G axes T B) {u : ℤ → K}
    (hops : createOperators debug L G P (fun r => (B r).run [.setGhostICs u]) = .ok ops) {hist : List (Boundary.Op K)}
    {idx : List (List (List (List ℤ)))} (hidx : bodies.updateMeshIdx axes = .ok idx)
    (h : createExtraOperators debug L G axes P ops (fun r => (B r).run hist) bodies (meshIdxAt idx) kernel window = .ok ib)
    (himp : 0 ≤ P.diff.implicitCoeff) (hBN : GoodOrder L P ops.A) (hdt : P.dt ≠ 0) (rhs : ℤ → K) :
    ((∃ F, IsSolution ib.nF ib.EBNH rhs F) ↔
      ∀ F, (∀ c : ℤ, 0 ≤ c → c < L.UN → Mat.mult ib.nF ib.H F c = 0) → ∑ i ∈ Finset.range ib.nF, rhs i * F i = 0) ∧
    ∀ U F, (∀ c : ℤ, 0 ≤ c → c < L.UN → Mat.mult ib.nF ib.H F c = 0) → ∑ i ∈ Finset.range ib.nF, Mat.mult L.UN ib.E U i * F i = 0 := by
  obtain ⟨D, Dm, Gr, La, Lm, BN', o1, o2, o3, o4, rfl⟩ := createOperators_ok hops
  obtain ⟨Δ, BN, h1, h2, h3, h4, h5, h6, h7⟩ := createExtra_ok C hidx h
  obtain ⟨vol, hvol⟩ := exists_volume C.setup debug
  have hE : ∀ x y : ℤ, 0 ≤ x → x < ib.nF → 0 ≤ y → y < L.UN → ib.E x y = 1 * (vol y * ib.H y x) := by
    intro x y x0 x1 y0 y1
    rw [h5 vol hvol x y y0 y1, h4]
    simp only [Mat.transpose]
    ring
  refine ⟨?_, fun U F hF => product_orthogonal hE U F hF⟩
  rw [h7, h6]
  exact product_solvable one_ne_zero hE (fun φ => (inverse_definite C _ ⟨u, [], rfl⟩ o3 h2 himp hdt hBN hvol _).2) rhs

/-- C93. For good orders of the approximate inverse, the force system of the decoupled solver has a solution if and only if the right-hand
side is orthogonal to the forces that spread to zero; for bodies at rest this is so for every velocity, whatever the points. Missing: the other
orders. -/
theorem C93_force_system_partial {s : IBState K} (S : IBStarted debug L G axes T B P flow bodies kernel window ops ib disk s disk')
    (hBN : GoodOrder L P ops.A) (hdt : P.dt ≠ 0) :
    (∃ Δ, IsDelta debug L axes B bodies kernel window Δ ∧ ∀ rhs : ℤ → K, (∃ F, IsSolution ib.nF ib.EBNH rhs F) ↔
      ∀ F, (∀ c : ℤ, 0 ≤ c → c < L.UN → spread (bodies.nPts * bodies.dim) Δ F c = 0) →
        ∑ i ∈ Finset.range (bodies.nPts * bodies.dim), rhs i * F i = 0) ∧
    ∀ U, ∃ F, IsSolution ib.nF ib.EBNH (assembleRHSForces L ib none U) F := by
  obtain ⟨s₀, h1, h2⟩ := S.init
  obtain ⟨⟨ops', ns⟩, h3, h1⟩ := bind_ok h1
  obtain ⟨idx, h4, h1⟩ := bind_ok h1
  obtain ⟨ib', h5, h1⟩ := bind_ok h1
  cases h1
  obtain ⟨U, p, _, ho, rfl⟩ := solverInit_ok h3
  have key := force_solvable (u := U) (hist := [.setGhostICs U]) S.constructed ho h4 h5 (implicit_nonneg S.params) hBN hdt
  obtain ⟨Δ, BN, e1, _, e3, e4, _⟩ := S.operators
  refine ⟨⟨Δ, e1, fun rhs => ?_⟩, fun V => ?_⟩
  · rw [(key rhs).1, e4, e3]
    rfl
  · refine (key _).1.2 fun F hF => ?_
    have := (key fun _ => 0).2 V F hF
    rw [← neg_zero, ← this, ← Finset.sum_neg_distrib]
    refine Finset.sum_congr rfl fun i hi => ?_
    have hi := Finset.mem_range.1 hi
    unfold assembleRHSForces
    simp only
    rw [vec, if_pos ⟨by omega, by omega⟩]
    ring

/-- Sums over the composite numbering. -/
theorem composite_sum (hL : LayoutOK L) (fit : BodiesOK L bodies) (r ψ : ℤ → K) :
    ∑ i ∈ Finset.range (L.pN + bodies.nPts * bodies.dim), r i * ψ i =
      ∑ a ∈ Finset.range L.pN, subPressure (nestCounts L bodies) r a * subPressure (nestCounts L bodies) ψ a +
        ∑ b ∈ Finset.range (bodies.nPts * bodies.dim), subForces (nestCounts L bodies) r b * subForces (nestCounts L bodies) ψ b := by
  have hs := sum_counts hL fit
  have := nest_sum (nestCounts L bodies) fun i : ℕ => r i * ψ i
  rw [hs.1, hs.2] at this
  rw [this]
  simp only [subPressure_at, subForces_at]

/-- C93. For good orders of the approximate inverse and no NEUMANN condition for a normal component, the composite system of the coupled solver
has a solution if and only if the right-hand side is orthogonal to all pressures and forces for which the gradient and the spread forces are the same.
Missing: the other orders, NEUMANN conditions for normal components. -/
theorem C93_composite_system_partial {s : NSState K} (S : CoupledStarted debug L G axes T B P flow bodies kernel window ops disk s disk')
    (hT : ∀ f loc, f < L.dim → loc / 2 = f → (T f loc).1 ≠ .NEUMANN) (hBN : GoodOrder L P ops.A) (hp : P.pType = .ksp) (hdt : P.dt ≠ 0) :
    ∃ Δ Gr, IsDelta debug L axes B bodies kernel window Δ ∧ createGradient debug L G false = .ok Gr ∧
      ∀ rhs, (∃ φ, IsSolution ops.pN ops.DBNG rhs φ) ↔ ∀ p F : ℤ → K,
        (∀ c : ℤ, 0 ≤ c → c < L.UN → Mat.mult L.pN Gr p c = spread (bodies.nPts * bodies.dim) Δ F c) →
          ∑ a ∈ Finset.range L.pN, subPressure (nestCounts L bodies) rhs a * p a +
            ∑ b ∈ Finset.range (bodies.nPts * bodies.dim), subForces (nestCounts L bodies) rhs b * F b = 0 := by
  have C := S.constructed
  obtain ⟨u, E, H, hops, _⟩ := S.reach
  obtain ⟨D, Dm, Gr, La, Lm, BN, idx, o1, o2, o3, o4, o5, o6, eops⟩ := ibpmCreate_ok hops
  obtain ⟨vol, hvol⟩ := exists_volume C.setup debug
  obtain ⟨Δ, h6, h7, h8⟩ := createEH_ok C.setup o5
  rw [createDelta_run C] at h6
  have hs := sum_counts C.setup.layout S.fit
  refine ⟨Δ, Gr, ⟨idx, o4, h6⟩, o2, fun rhs => ?_⟩
  have key := product_solvable (neg_ne_zero.2 one_ne_zero) (composite_transpose C S.fit hT _ ⟨u, [], rfl⟩ o1 o2 o5 hvol)
    (fun φ => (inverse_definite C _ ⟨u, [], rfl⟩ o3 o6 (implicit_nonneg S.params) hdt (by rw [eops] at hBN; exact hBN) hvol _).2) rhs
  subst h7
  have e1 : ops.pN = L.pN + bodies.nPts * bodies.dim := by rw [eops]
  have e2 : ops.DBNG = Mat.mul L.UN (Mat.nestRows (nestCounts L bodies) D E)
      (Mat.mul L.UN BN (Mat.nestCols (nestCounts L bodies) Gr (Mat.scale (Mat.transpose Δ) (-1)))) := by
    rw [eops]
    simp only [setNullSpace, hp]
  rw [e1, e2, key]
  simp only [composite_gradient C.setup.layout S.fit, sub_eq_zero]
  have split := composite_sum C.setup.layout S.fit
  constructor
  · intro h p F hpF
    have e3 : ∀ a : ℤ, 0 ≤ a → a < L.pN → subPressure (nestCounts L bodies) (nestVec (nestCounts L bodies) p F) a = p a := by
      intro a a0 a1
      obtain ⟨a, rfl⟩ := Int.eq_ofNat_of_zero_le a0
      rw [subPressure_at, nestVec_pressure _ _ (by omega)]
    have e4 : ∀ b : ℕ, b < bodies.nPts * bodies.dim → subForces (nestCounts L bodies) (nestVec (nestCounts L bodies) p F) b = F b := by
      intro b hb
      rw [subForces_at, nestVec_force _ _ (by omega)]
    have := h (nestVec (nestCounts L bodies) p F) fun c c0 c1 => by
      rw [mult_congr e3, hpF c c0 c1]
      unfold spread
      exact Finset.sum_congr rfl fun b hb => by rw [e4 b (Finset.mem_range.1 hb)]
    rw [split] at this
    rw [← this]
    congr 1
    · exact Finset.sum_congr rfl fun a ha => by rw [e3 a (by omega) (by have := Finset.mem_range.1 ha; omega)]
    · exact Finset.sum_congr rfl fun b hb => by rw [e4 b (Finset.mem_range.1 hb)]
  · intro h ψ hψ
    rw [split]
    exact h _ _ hψ

/-! ### Runs -/

/-- the walls take part in the sum of the right-hand side with the flux that they prescribe -/
theorem poisson_sum_of (C : Constructed debug L G axes T B) (hn : ∀ f, f < L.dim → L.periodic 0 f = true → 2 ≤ L.n f f)
    (hT : NormalVelocityGiven L.toMeshInfo T) {u : ℤ → K} {D : Mat K} {Dm : Modifiers K}
    (hD : createDivergence debug L G false (fun r => (B r).run [.setGhostICs u]) = .ok (D, Dm)) {N : ℕ} {s : NSState K} (R : Reach L B P N u s)
    (q : ℤ → K) : ∑ i ∈ Finset.range L.pN, (Mat.mult L.UN D q i + correctionMult L (fun r => (s.B r).updateEqs s.U P.dt) Dm i) =
      boundaryFlux L.toMeshInfo G T := by
  obtain ⟨h, hB, -⟩ := R.hist
  rw [← poisson_total C hn hT (h' := h ++ [.updateEqs s.U P.dt]) ⟨u, [], rfl⟩ hD q]
  have hBe : (fun r => (B r).run ([.setGhostICs u] ++ (h ++ [.updateEqs s.U P.dt]))) = fun r => (s.B r).updateEqs s.U P.dt := by
    funext r
    simp only [hB, Boundary.run, List.foldl_append]
    rfl
  rw [hBe]

/-- a step of the decoupled solver succeeds if the force system has a solution -/
theorem decoupled_goes {s : NSState K} (F : Started debug L G axes T B P flow ops disk s disk')
    (hn : ∀ f d, f < L.dim → d < L.dim → L.periodic 0 d = true → 2 ≤ L.n f d) (hT : NormalVelocityGiven L.toMeshInfo T)
    (hflux : boundaryFlux L.toMeshInfo G T = 0) (hBN : GoodOrder L P ops.A) (hp : P.pType = .ksp) (hdt : 0 < P.dt) (hnu : 0 ≤ P.nu)
    {u : ℤ → K} (hops : createOperators debug L G P (fun r => (B r).run [.setGhostICs u]) = .ok ops) {y : IBState K} (R : Reach L B P ops.pN u y.ns)
    {UB : Option (ℤ → K)} (hsys : ∀ U, ∃ F, IsSolution ib.nF ib.EBNH (assembleRHSForces L ib UB U) F)
    (hv : Finds L.UN vSolve ops.A) (hf : Finds ib.nF fSolve ib.EBNH) (hpr : Finds L.pN pSolve ops.DBNG) :
    ∃ st, decoupledAdvance L G P ops ib UB vSolve fSolve pSolve y = .ok st := by
  have C := F.constructed
  have hn2 : ∀ f, f < L.dim → L.periodic 0 f = true → 2 ≤ L.n f f := fun f hf hp => by have := hn f f hf hf hp; omega
  have hT' : ∀ f loc, f < L.dim → loc / 2 = f → (T f loc).1 ≠ .NEUMANN := by
    intro f loc hf hl
    rcases hT f loc hf hl with h | h <;> rw [h] <;> simp
  have hpN := createOperators_pN hops
  obtain ⟨D, Dm, Gr, La, Lm, BN, o1, o2, o3, o4, eops⟩ := createOperators_ok hops
  have href : ops.isRefP = false := by rw [eops]; simp [setNullSpace, hp]
  have R' : Reach L B P ops.pN u { y.ns with t := y.ns.t + P.dt, ite := y.ns.ite + 1 } :=
    ⟨R.hist, R.clean, R.nconv, R.ndiff, R.outU, R.outP, R.outConv, R.outDiff⟩
  obtain ⟨w, loc, hw, e⟩ := assembleRHS_eq C F.schemes.1.1 F.schemes.2.1 ops R'
  unfold decoupledAdvance
  simp only [e, bind, Except.bind, pure, Except.pure]
  obtain ⟨z, hz, _⟩ := C61_velocity_system_partial F hn hdt hnu (fun i => momentumRhs L P ops
    { y.ns with t := y.ns.t + P.dt, ite := y.ns.ite + 1 } (pushTerm y.ns.conv fun i => -1 * w i)
    (pushTerm y.ns.diff (diffTerm L P.nu ops { y.ns with t := y.ns.t + P.dt, ite := y.ns.ite + 1 })) i
      + vec L.UN (Mat.mult ib.nF ib.H y.f) i)
  obtain ⟨U, hU, _⟩ := hv y.ns.U _ ⟨z, hz⟩
  simp only [hU]
  obtain ⟨df, hdf, _⟩ := hf y.df _ (hsys (vec L.UN U))
  simp only [hdf]
  have hsolv := ((C62_poisson_system_partial F hn2 hT' hBN hp hdt.ne').2.2 (assembleRHSPoisson L ops
    { y.ns with
      t := y.ns.t + P.dt, ite := y.ns.ite + 1
      conv := pushTerm y.ns.conv fun i => -1 * w i
      diff := pushTerm y.ns.diff (diffTerm L P.nu ops { y.ns with t := y.ns.t + P.dt, ite := y.ns.ite + 1 })
      B := fun r => (y.ns.B r).updateEqs y.ns.U P.dt, loc := loc
      U := fun i => vec L.UN U i + vec L.UN (Mat.mult ib.nF ib.BNH (vec ib.nF df)) i })).2 (by
    rw [← hflux, ← poisson_sum_of C hn2 hT o1 R' fun i => vec L.UN U i + vec L.UN (Mat.mult ib.nF ib.BNH (vec ib.nF df)) i]
    refine Finset.sum_congr rfl fun i hi => ?_
    have hi := Finset.mem_range.1 hi
    unfold assembleRHSPoisson
    simp only [href, Bool.false_eq_true, if_false, hpN]
    rw [vec, if_pos ⟨by omega, by omega⟩, eops])
  obtain ⟨dP, hdP, _⟩ := hpr y.ns.dP _ hsolv
  simp only [hdP]
  exact ⟨_, rfl⟩

/-- C93. If all walls prescribe their normal velocity and the prescribed fluxes cancel, the decoupled solver with bodies at rest never fails with
linear solvers that find solutions where there are any: the run goes on for ever. Missing: as in `C62_poisson_system_partial`. -/
theorem C93_decoupled_runs_partial {s : IBState K} (S : IBStarted debug L G axes T B P flow bodies kernel window ops ib disk s disk')
    (hn : ∀ f d, f < L.dim → d < L.dim → L.periodic 0 d = true → 2 ≤ L.n f d) (hT : NormalVelocityGiven L.toMeshInfo T)
    (hflux : boundaryFlux L.toMeshInfo G T = 0) (hBN : GoodOrder L P ops.A) (hp : P.pType = .ksp) (hdt : 0 < P.dt) (hnu : 0 ≤ P.nu)
    (hv : Finds L.UN vSolve ops.A) (hf : Finds ib.nF fSolve ib.EBNH) (hpr : Finds L.pN pSolve ops.DBNG) :
    ∃ x, x 0 = s ∧ ∀ n, IBTrajectory L G P ops ib vSolve fSolve pSolve x n := by
  suffices h : ∃ x : ℕ → IBState K, x 0 = s ∧ ∀ k, decoupledAdvance L G P ops ib none vSolve fSolve pSolve (x k) = .ok (x (k + 1)) by
    obtain ⟨x, h0, hx⟩ := h
    exact ⟨x, h0, fun n k _ => hx k⟩
  refine forever _ s fun n x h0 hx => ?_
  obtain ⟨u, hops, R⟩ := S.reach_at h0 hx
  exact decoupled_goes S.started hn hT hflux hBN hp hdt hnu hops (R n le_rfl) (fun U => (C93_force_system_partial S hBN hdt.ne').2 U) hv hf hpr

/-- C93. If all sides are periodic or closed, the coupled solver never fails with linear solvers that find solutions where there are any. The same
holds if all walls prescribe their normal velocity, the prescribed fluxes cancel, and no forces at the points of the bodies spread to a pressure
gradient. Missing: as in `C62_poisson_system_partial`. -/
theorem C93_coupled_runs_partial {s : NSState K} (S : CoupledStarted debug L G axes T B P flow bodies kernel window ops disk s disk')
    (hn : ∀ f d, f < L.dim → d < L.dim → L.periodic 0 d = true → 2 ≤ L.n f d)
    (hT : AllClosed L T ∨ NormalVelocityGiven L.toMeshInfo T ∧ boundaryFlux L.toMeshInfo G T = 0 ∧
      IndependentOfGradients debug L G axes B bodies kernel window)
    (hBN : GoodOrder L P ops.A) (hp : P.pType = .ksp) (hdt : 0 < P.dt) (hnu : 0 ≤ P.nu) (hv : Finds L.UN vSolve ops.A)
    (hpr : Finds ops.pN pSolve ops.DBNG) : ∃ x, x 0 = s ∧ ∀ n, CoupledTrajectory L G P (nestCounts L bodies) ops vSolve pSolve x n := by
  have C := S.constructed
  have hn2 : ∀ f, f < L.dim → L.periodic 0 f = true → 2 ≤ L.n f f := fun f hf hp => by have := hn f f hf hf hp; omega
  have hn3 : ∀ f, f < L.dim → L.periodic 0 f = true → 2 ≤ L.n 3 f := fun f hf hp =>
    (hn2 f hf hp).trans (C.setup.n_le f f hf (by have := C.setup.dim_le; omega))
  have hT' : ∀ f loc, f < L.dim → loc / 2 = f → (T f loc).1 ≠ .NEUMANN := by
    rcases hT with h | ⟨h, _⟩
    · exact closed_not_neumann C h
    · intro f loc hf hl
      rcases h f loc hf hl with h | h <;> rw [h] <;> simp
  suffices h : ∃ x : ℕ → NSState K, x 0 = s ∧ ∀ k, ibpmAdvance L G P (nestCounts L bodies) ops vSolve pSolve (x k) = .ok (x (k + 1)) by
    obtain ⟨x, h0, hx⟩ := h
    exact ⟨x, h0, fun n k _ => hx k⟩
  refine forever _ s fun n x h0 hx => ?_
  obtain ⟨u, E, H, hops, R⟩ := S.reach_at h0 hx
  have R := R n le_rfl
  obtain ⟨D, Dm, Gr, La, Lm, BN, idx, o1, o2, o3, o4, o5, o6, eops⟩ := ibpmCreate_ok hops
  have href : ops.isRefP = false := by rw [eops]; simp [setNullSpace, hp]
  have hpN : ops.pN = L.pN + bodies.nPts * bodies.dim := by rw [eops]
  have hDm : ops.Dmods = Dm := by rw [eops]
  have hs := sum_counts C.setup.layout S.fit
  have R' : Reach L B P ops.pN u { x n with t := (x n).t + P.dt, ite := (x n).ite + 1 } :=
    ⟨R.hist, R.clean, R.nconv, R.ndiff, R.outU, R.outP, R.outConv, R.outDiff⟩
  obtain ⟨w, loc, hw, e⟩ := assembleRHS_eq C S.schemes.1.1 S.schemes.2.1 ops R'
  unfold ibpmAdvance
  simp only [e, bind, Except.bind, pure, Except.pure]
  have hA : ops.A = Mat.shift (Mat.scale La (-P.diff.implicitCoeff * P.nu)) (1 / P.dt) := by rw [eops]
  obtain ⟨y, hy, _⟩ := velocity_unique (P := P) C hn o3 (implicit_nonneg S.params) hdt hnu (momentumRhs L P ops
    { x n with t := (x n).t + P.dt, ite := (x n).ite + 1 } (pushTerm (x n).conv fun i => -1 * w i)
    (pushTerm (x n).diff (diffTerm L P.nu ops { x n with t := (x n).t + P.dt, ite := (x n).ite + 1 })))
  rw [← hA] at hy
  obtain ⟨U, hU, _⟩ := hv (x n).U _ ⟨y, hy⟩
  simp only [hU]
  obtain ⟨Δ, Gr', hΔ, hG, key⟩ := C93_composite_system_partial S hT' hBN hp hdt.ne'
  rw [o2] at hG
  cases hG
  obtain ⟨vol, hvol⟩ := exists_volume C.setup debug
  -- the rows of the right-hand side
  have rows : ∀ ns : NSState K, ns.B = (fun r => ((x n).B r).updateEqs (x n).U P.dt) →
      ∃ φ, IsSolution ops.pN ops.DBNG (ibpmRHSPoisson L (nestCounts L bodies) ops ns) φ := by
    intro ns hB
    have ep : ∀ a : ℕ, a < L.pN → subPressure (nestCounts L bodies) (ibpmRHSPoisson L (nestCounts L bodies) ops ns) a =
        subPressure (nestCounts L bodies) (Mat.mult L.UN ops.D ns.U) a + correctionMult L (fun r => ((x n).B r).updateEqs (x n).U P.dt) Dm a := by
      intro a ha
      have hlt := ((nestSplit_pos (nestCounts L bodies) 0 0).1 a (by omega)).2
      unfold ibpmRHSPoisson
      simp only [href, Bool.false_eq_true, if_false]
      rw [subPressure_at, nestVec_pressure _ _ (by omega), subPressure_at, vec, vec, if_pos ⟨by omega, by omega⟩, if_pos ⟨by omega, by omega⟩,
        subPressure_at, hDm, hB]
    have ef : ∀ b : ℕ, b < bodies.nPts * bodies.dim → subForces (nestCounts L bodies) (ibpmRHSPoisson L (nestCounts L bodies) ops ns) b =
        subForces (nestCounts L bodies) (Mat.mult L.UN ops.D ns.U) b := by
      intro b hb
      have hlt := ((nestSplit_pos (nestCounts L bodies) 0 0).2 b (by omega)).2
      unfold ibpmRHSPoisson
      simp only [href, Bool.false_eq_true, if_false]
      rw [subForces_at, nestVec_force _ _ (by omega), subForces_at, vec, if_pos ⟨by omega, by omega⟩, subForces_at]
    rw [key]
    intro p F hpF
    have e3 : ∀ a : ℤ, 0 ≤ a → a < L.pN → subPressure (nestCounts L bodies) (nestVec (nestCounts L bodies) p F) a = p a := by
      intro a a0 a1
      obtain ⟨a, rfl⟩ := Int.eq_ofNat_of_zero_le a0
      rw [subPressure_at, nestVec_pressure _ _ (by omega)]
    have e4 : ∀ b : ℕ, b < bodies.nPts * bodies.dim → subForces (nestCounts L bodies) (nestVec (nestCounts L bodies) p F) b = F b := by
      intro b hb
      rw [subForces_at, nestVec_force _ _ (by omega)]
    have hD : ops.D = Mat.nestRows (nestCounts L bodies) D E := by rw [eops]
    obtain ⟨Δ', h6, h7, h8⟩ := createEH_ok C.setup o5
    rw [createDelta_run C] at h6
    have hΔΔ : Δ' = Δ := by
      obtain ⟨idx', i1, i2⟩ := hΔ
      rw [o4] at i1
      cases i1
      rw [h6] at i2
      exact Except.ok.inj i2
    subst hΔΔ
    have orth := product_orthogonal (composite_transpose C S.fit hT' _ ⟨u, [], rfl⟩ o1 o2 o5 hvol) ns.U (nestVec (nestCounts L bodies) p F) (by
      intro c c0 c1
      rw [h7, composite_gradient C.setup.layout S.fit, mult_congr e3, hpF c c0 c1, sub_eq_zero]
      unfold spread
      exact Finset.sum_congr rfl fun b hb => by rw [e4 b (Finset.mem_range.1 hb)])
    rw [composite_sum C.setup.layout S.fit, ← hD] at orth
    have walls : ∑ a ∈ Finset.range L.pN, correctionMult L (fun r => ((x n).B r).updateEqs (x n).U P.dt) Dm a * p a = 0 := by
      rcases hT with hT | ⟨hT, hflux, hI⟩
      · refine Finset.sum_eq_zero fun a ha => ?_
        have ha := Finset.mem_range.1 ha
        obtain ⟨hh, hB, _⟩ := R.hist
        have hBe : (fun r => ((x n).B r).updateEqs (x n).U P.dt) = fun r => (B r).run ([.setGhostICs u] ++ (hh ++ [.updateEqs (x n).U P.dt])) := by
          funext r
          simp only [hB, Boundary.run, List.foldl_append]
          rfl
        rw [hBe, closed_divergence C hT hn2 ⟨u, [], rfl⟩ o1 (by omega) (by omega), zero_mul]
      · have hF := hI Δ' Gr hΔ o2 p F hpF
        have hc := gradient_kernel C.setup hn3 o2 (φ := p) fun i i0 i1 => by
          rw [hpF i i0 i1]
          unfold spread
          refine Finset.sum_eq_zero fun b hb => ?_
          have hb := Finset.mem_range.1 hb
          rw [hF b (by omega) (by omega), mul_zero]
        have tot := poisson_sum_of C hn2 hT o1 R fun _ => 0
        rw [hflux] at tot
        have e : ∀ a ∈ Finset.range L.pN, correctionMult L (fun r => ((x n).B r).updateEqs (x n).U P.dt) Dm a * p a =
            (Mat.mult L.UN D (fun _ => 0) a + correctionMult L (fun r => ((x n).B r).updateEqs (x n).U P.dt) Dm a) * p 0 := by
          intro a ha
          have ha := Finset.mem_range.1 ha
          rw [hc a 0 (by omega) (by omega) (by omega) (by omega)]
          simp [Mat.mult]
        rw [Finset.sum_congr rfl e, ← Finset.sum_mul, tot, zero_mul]
    have e1 : ∀ a ∈ Finset.range L.pN, subPressure (nestCounts L bodies) (ibpmRHSPoisson L (nestCounts L bodies) ops ns) a * p a =
        subPressure (nestCounts L bodies) (Mat.mult L.UN ops.D ns.U) a * subPressure (nestCounts L bodies) (nestVec (nestCounts L bodies) p F) a +
          correctionMult L (fun r => ((x n).B r).updateEqs (x n).U P.dt) Dm a * p a := by
      intro a ha
      have ha := Finset.mem_range.1 ha
      rw [ep a ha, e3 a (by omega) (by omega)]
      ring
    have e2 : ∀ b ∈ Finset.range (bodies.nPts * bodies.dim), subForces (nestCounts L bodies) (ibpmRHSPoisson L (nestCounts L bodies) ops ns) b * F b =
        subForces (nestCounts L bodies) (Mat.mult L.UN ops.D ns.U) b * subForces (nestCounts L bodies) (nestVec (nestCounts L bodies) p F) b := by
      intro b hb
      have hb := Finset.mem_range.1 hb
      rw [ef b hb, e4 b hb]
    rw [Finset.sum_congr rfl e1, Finset.sum_congr rfl e2, Finset.sum_add_distrib, walls, add_zero]
    exact orth
  obtain ⟨dP, hdP, _⟩ := hpr (x n).dP _ (rows
    { x n with
      t := (x n).t + P.dt, ite := (x n).ite + 1
      conv := pushTerm (x n).conv fun i => -1 * w i
      diff := pushTerm (x n).diff (diffTerm L P.nu ops { x n with t := (x n).t + P.dt, ite := (x n).ite + 1 })
      B := fun r => ((x n).B r).updateEqs (x n).U P.dt, loc := loc
      U := vec L.UN U } rfl)
  simp only [hdP]
  exact ⟨_, rfl⟩

/-! ### Examples -/

/-- Two points in the uniform box, one on each of two processes. -/
def boxBody : BodyPack ℚ := ⟨2, 2, [⟨2, 2, [[3/4, 3/4], [7/4, 3/2]], [1, 1]⟩]⟩

theorem boxBody_ok : BodiesOK (seamLayout 2) boxBody := ⟨by constructor <;> simp [boxBody], rfl, rfl⟩

/-- Starts of the decoupled solver in the box. -/
theorem box_decoupled {nu : ℚ} {node : ParamNode ℚ} {P : NSParams ℚ} (hP : readParams false "out" (some node) (some (vortexFlow nu)) = .ok P)
    (hs : P.nstart = 0) (h : (decoupledInit true (seamLayout 2) seamGeom seamAxes P (some (vortexFlow nu)) (seamB closedTable 2) boxBody hatKernel 1).toOption.isSome = true) :
    ∃ ops ib s d, IBStarted true (seamLayout 2) seamGeom seamAxes closedTable (seamB closedTable 2) P (some (vortexFlow nu)) boxBody hatKernel 1
      ops ib (fun _ => none) s d := by
  obtain ⟨⟨ops, ib, s⟩, h1⟩ := pick h
  have C := seam_constructed closedTable (fun _ _ => rfl) 2 (Or.inr rfl)
  have hi : s.ns.ite = 0 := by
    obtain ⟨⟨ops', ns⟩, h3, h1⟩ := bind_ok h1
    obtain ⟨idx, h4, h1⟩ := bind_ok h1
    obtain ⟨ib', h5, h1⟩ := bind_ok h1
    cases h1
    obtain ⟨_, _, _, _, rfl⟩ := solverInit_ok h3
    exact hs
  obtain ⟨file, hf, _⟩ := writeSolution_spec C.setup.layout s.ns (fun _ => none) (stepPath P.output s.ns.ite)
  refine ⟨ops, ib, s, Function.update (fun _ => none) (stepPath P.output s.ns.ite) (some file), C, ⟨false, "out", some node, hP⟩, boxBody_ok, s, h1, ?_⟩
  unfold decoupledIoInitialData
  rw [if_pos hi, hf]
  rfl

/-- Starts of the coupled solver in the box. -/
theorem box_coupled {nu : ℚ} {node : ParamNode ℚ} {P : NSParams ℚ} (hP : readParams false "out" (some node) (some (vortexFlow nu)) = .ok P)
    (hs : P.nstart = 0) (h : (ibpmInit true (seamLayout 2) seamGeom seamAxes P (some (vortexFlow nu)) (seamB closedTable 2) boxBody hatKernel 1).toOption.isSome = true) :
    ∃ ops s d, CoupledStarted true (seamLayout 2) seamGeom seamAxes closedTable (seamB closedTable 2) P (some (vortexFlow nu)) boxBody hatKernel 1
      ops (fun _ => none) s d := by
  obtain ⟨⟨⟨ops, EH⟩, s⟩, h1⟩ := pick h
  have C := seam_constructed closedTable (fun _ _ => rfl) 2 (Or.inr rfl)
  have hi : s.ite = 0 := by
    obtain ⟨⟨U, p⟩, h3, h1⟩ := bind_ok h1
    obtain ⟨⟨ops', E', H'⟩, h4, h1⟩ := bind_ok h1
    cases h1
    exact hs
  obtain ⟨file, hf, _⟩ := writeSolution_spec C.setup.layout { s with p := subPressure (nestCounts (seamLayout 2) boxBody) s.p }
    (fun _ => none) (stepPath P.output s.ite)
  refine ⟨ops, s, Function.update (fun _ => none) (stepPath P.output s.ite) (some file), C, ⟨false, "out", some node, hP⟩, boxBody_ok, s, EH, h1, ?_⟩
  unfold ibpmIoInitialData ibpmWriteSolution
  rw [if_pos hi, hf]
  rfl

/-- C91, C93, coupled solver: runs of any length in the box with two points, on two processes, for which the hypotheses hold. -/
example (conv diff : TimeScheme ℚ) (h : conv = eulerExplicit ∧ diff = eulerImplicit ∨ conv = eulerImplicit ∧ (diff = eulerImplicit ∨ diff = crankNicolson)) :
    ∃ ops s d x, CoupledStarted true (seamLayout 2) seamGeom seamAxes closedTable (seamB closedTable 2) (boxParams (1 / 4) 1 conv diff)
      (some (vortexFlow 1)) boxBody hatKernel 1 ops (fun _ => none) s d ∧ x 0 = s ∧
      (∀ n, CoupledTrajectory (seamLayout 2) seamGeom (boxParams (1 / 4) 1 conv diff) (nestCounts (seamLayout 2) boxBody) ops
        (exactSolve (seamLayout 2).UN) (exactSolve ops.pN) x n) ∧
      (∀ d, (seamLayout 2).periodic 0 d = false) ∧ WallsAtRest (seamLayout 2) closedTable ∧
      Solves (seamLayout 2).UN (exactSolve (seamLayout 2).UN) ops.A ∧ Solves ops.pN (exactSolve ops.pN) ops.DBNG := by
  obtain ⟨ops, s, d, S⟩ : ∃ ops s d, CoupledStarted true (seamLayout 2) seamGeom seamAxes closedTable (seamB closedTable 2)
      (boxParams (1 / 4) 1 conv diff) (some (vortexFlow 1)) boxBody hatKernel 1 ops (fun _ => none) s d := by
    rcases h with ⟨rfl, rfl⟩ | ⟨rfl, rfl | rfl⟩
    · exact box_coupled (node := boxNode (1 / 4) "EULER_EXPLICIT" "EULER_IMPLICIT") rfl rfl (by decide +kernel)
    · exact box_coupled (node := boxNode (1 / 4) "EULER_IMPLICIT" "EULER_IMPLICIT") rfl rfl (by decide +kernel)
    · exact box_coupled (node := boxNode (1 / 4) "EULER_IMPLICIT" "CRANK_NICOLSON") rfl rfl (by decide +kernel)
  obtain ⟨x, x0, hx⟩ := C93_coupled_runs_partial S (vSolve := exactSolve (seamLayout 2).UN) (pSolve := exactSolve ops.pN)
    (fun _ _ _ _ hp => by cases hp) (Or.inl (closed_rest 2).1) (Or.inl rfl) rfl (by norm_num [boxParams]) (by norm_num [boxParams])
    (exactSolve_finds _ _) (exactSolve_finds _ _)
  exact ⟨ops, s, d, x, S, x0, hx, fun _ => rfl, closed_rest 2, exactSolve_solves _ _, exactSolve_solves _ _⟩

/-- C92, C93, decoupled solver: the same without viscosity and convection. -/
example : ∃ ops ib s d x, IBStarted true (seamLayout 2) seamGeom seamAxes closedTable (seamB closedTable 2) (boxParams (1 / 4) 0 eulerImplicit eulerImplicit)
      (some (vortexFlow 0)) boxBody hatKernel 1 ops ib (fun _ => none) s d ∧ x 0 = s ∧
      (∀ n, IBTrajectory (seamLayout 2) seamGeom (boxParams (1 / 4) 0 eulerImplicit eulerImplicit) ops ib (exactSolve (seamLayout 2).UN) (exactSolve ib.nF)
        (exactSolve (seamLayout 2).pN) x n) ∧ (∀ d, (seamLayout 2).periodic 0 d = false) ∧ AllClosed (seamLayout 2) closedTable ∧
      Solves (seamLayout 2).UN (exactSolve (seamLayout 2).UN) ops.A ∧ Solves ib.nF (exactSolve ib.nF) ib.EBNH ∧
      Solves (seamLayout 2).pN (exactSolve (seamLayout 2).pN) ops.DBNG := by
  obtain ⟨ops, ib, s, d, S⟩ := box_decoupled (nu := 0) (node := boxNode (1 / 4) "EULER_IMPLICIT" "EULER_IMPLICIT")
    (P := boxParams (1 / 4) 0 eulerImplicit eulerImplicit) rfl rfl (by decide +kernel)
  obtain ⟨x, x0, hx⟩ := C93_decoupled_runs_partial S (vSolve := exactSolve (seamLayout 2).UN) (fSolve := exactSolve ib.nF)
    (pSolve := exactSolve (seamLayout 2).pN) (fun _ _ _ _ hp => by cases hp) (fun _ _ _ _ => Or.inl rfl) (by decide +kernel) (Or.inl rfl) rfl
    (by norm_num [boxParams]) (by norm_num [boxParams]) (exactSolve_finds _ _) (exactSolve_finds _ _) (exactSolve_finds _ _)
  exact ⟨ops, ib, s, d, x, S, x0, hx, fun _ => rfl, (closed_rest 2).1, exactSolve_solves _ _, exactSolve_solves _ _, exactSolve_solves _ _⟩

/-- C93, coupled solver, second case: the cavity with a lid and points that are independent of the gradients. -/
example : ∃ ops s d x, CoupledStarted true (nineLayout 2) nineGeom nineAxes lidTable (nineB 2) (seamParams adamsBashforth2) (some shearFlow) (nineBody 2)
      hatKernel 1 ops (fun _ => none) s d ∧ x 0 = s ∧ (∀ n, CoupledTrajectory (nineLayout 2) nineGeom (seamParams adamsBashforth2)
        (nestCounts (nineLayout 2) (nineBody 2)) ops (exactSolve (nineLayout 2).UN) (exactSolve ops.pN) x n) := by
  obtain ⟨⟨⟨ops, E, H⟩, s, t⟩, h⟩ := pick (nineRun_ok (px := 2) (Or.inr rfl))
  obtain ⟨d, _, S, _⟩ := nine_run (Or.inr rfl) h
  obtain ⟨x, x0, hx⟩ := C93_coupled_runs_partial S (vSolve := exactSolve (nineLayout 2).UN) (pSolve := exactSolve ops.pN)
    (fun _ _ _ _ hp => by cases hp) (Or.inr ⟨fun _ _ _ _ => Or.inl rfl, by decide +kernel, nine_independent⟩) (Or.inl rfl) rfl
    (by norm_num [seamParams]) (by norm_num [seamParams]) (exactSolve_finds _ _) (exactSolve_finds _ _)
  exact ⟨ops, s, d, x, S, x0, hx⟩

/-! ### A case where it is false -/

/-- Two points that close the channel. -/
def blockPack : BodyPack ℚ := ⟨2, 1, [⟨2, 2, [[1, 1/2], [1, 3/2]], [2]⟩]⟩

theorem block_table (f loc : ℕ) : (throughTable f loc).1 = .DIRICHLET := by unfold throughTable; split_ifs <;> rfl

/-- The rows of the cells before the points minus the rows of the points. -/
def blockWeight : ℕ → ℚ := fun i => [1, 0, 0, 1, 0, 0, -1, 0, -1, 0].getD i 0

/-- The weighted rows of the composite divergence, and the weighted wall terms, are as said. -/
def blockRows : Option Bool :=
  (ibpmInit true (seamLayout 1) seamGeom seamAxes (boxParams (1 / 4) 1 eulerExplicit eulerImplicit) (some (vortexFlow 1)) (seamB throughTable 1) blockPack hatKernel 1).toOption.map
    fun x : (NSOps ℚ × Mat ℚ × Mat ℚ) × NSState ℚ =>
      ((List.range 7).all fun c : ℕ => decide (∑ i ∈ Finset.range 10, blockWeight i * x.1.1.D i c = 0)) &&
      decide (∑ i ∈ Finset.range 10, blockWeight i * nestVec (nestCounts (seamLayout 1) blockPack)
        (correctionMult (seamLayout 1) (fun r => (x.2.B r).updateEqs x.2.U (1 / 4)) x.1.1.Dmods) (fun _ => 0) i ≠ 0)

theorem blockRows_ok : blockRows = some true := by decide +kernel

/-- C93 is false for the coupled solver, even if the prescribed fluxes cancel, if the points close the channel: then no velocity satisfies the
constraints, and the first step fails with every pair of solvers of which the second one does not return what is no solution. -/
theorem C93_false_blocked : ∃ (L : Layout) (G : Geom ℚ) (axes : ℕ → Axis ℚ) (T : BCTable ℚ) (B : ℕ → Boundary ℚ) (P : NSParams ℚ)
    (flow : Option (FlowNode ℚ)) (bodies : BodyPack ℚ) (ops : NSOps ℚ) (disk disk' : Disk ℚ) (s : NSState ℚ),
    CoupledStarted true L G axes T B P flow bodies hatKernel 1 ops disk s disk' ∧ (∀ d, L.periodic 0 d = false) ∧ NormalVelocityGiven L.toMeshInfo T ∧
    boundaryFlux L.toMeshInfo G T = 0 ∧ GoodOrder L P ops.A ∧ P.pType = .ksp ∧ 0 < P.dt ∧ 0 ≤ P.nu ∧
    ∀ vSolve pSolve s', Solves ops.pN pSolve ops.DBNG → ibpmAdvance L G P (nestCounts L bodies) ops vSolve pSolve s ≠ .ok s' := by
  have C := seam_constructed throughTable block_table 1 (Or.inl rfl)
  have fit : BodiesOK (seamLayout 1) blockPack := ⟨by constructor <;> simp [blockPack], rfl, rfl⟩
  have hb := blockRows_ok
  unfold blockRows at hb
  obtain ⟨⟨⟨ops, EH⟩, s⟩, h1, hb⟩ := Option.map_eq_some_iff.1 hb
  have h1 := toOption_ok h1
  simp only [Bool.and_eq_true, decide_eq_true_eq, List.all_eq_true] at hb
  obtain ⟨hcol, hwall⟩ := hb
  have hi : s.ite = 0 := by
    obtain ⟨⟨U, p⟩, h3, h1⟩ := bind_ok h1
    obtain ⟨⟨ops', E', H'⟩, h4, h1⟩ := bind_ok h1
    cases h1
    rfl
  obtain ⟨file, hf, _⟩ := writeSolution_spec C.setup.layout { s with p := subPressure (nestCounts (seamLayout 1) blockPack) s.p }
    (fun _ => none) (stepPath (boxParams (1 / 4) 1 eulerExplicit eulerImplicit).output s.ite)
  have S : CoupledStarted true (seamLayout 1) seamGeom seamAxes throughTable (seamB throughTable 1) (boxParams (1 / 4) 1 eulerExplicit eulerImplicit)
      (some (vortexFlow 1)) blockPack hatKernel 1 ops (fun _ => none) s
      (Function.update (fun _ => none) (stepPath (boxParams (1 / 4) 1 eulerExplicit eulerImplicit).output s.ite) (some file)) := by
    refine ⟨C, ⟨false, "out", some (boxNode (1 / 4) "EULER_EXPLICIT" "EULER_IMPLICIT"), rfl⟩, fit, s, EH, h1, ?_⟩
    unfold ibpmIoInitialData ibpmWriteSolution
    rw [if_pos hi, hf]
    rfl
  refine ⟨_, _, _, _, _, _, _, _, ops, _, _, s, S, fun _ => rfl, fun f loc _ _ => Or.inl (block_table f loc), by decide +kernel, Or.inl rfl, rfl,
    by norm_num [boxParams], by norm_num [boxParams], fun vSolve pSolve s' exact h => ?_⟩
  obtain ⟨u, E, H, hops, R⟩ := S.reach
  obtain ⟨D, Dm, Gr, La, Lm, BN, idx, o1, o2, o3, o4, o5, o6, hop⟩ := ibpmCreate_ok hops
  obtain ⟨w, U, dP, hcv, hv, hp, ha⟩ := coupled_ok C S.schemes.1.1 S.schemes.2.1 R h
  have hpN : ops.pN = 10 := by
    rw [hop]
    show (seamLayout 1).pN + blockPack.nPts * blockPack.dim = 10
    rw [seam_sizes.2.2.1]
    rfl
  have rows : ∀ i : ℕ, i < 10 → Mat.mult (seamLayout 1).UN ops.D (projected (seamLayout 1) ops U (vec ops.pN dP)) i +
      nestVec (nestCounts (seamLayout 1) blockPack) (correctionMult (seamLayout 1) (fun r => (s.B r).updateEqs s.U (1 / 4)) ops.Dmods) (fun _ => 0) i = 0 := fun i hi => coupled_rows (P := boxParams (1 / 4) 1 eulerExplicit eulerImplicit) C.setup fit (Dm := ops.Dmods)
    (by rw [hop]) rfl (by rw [hop]) (by rw [hop]) exact (U := U) rfl hp i (by omega) (by omega) (Or.inl rfl)
  refine hwall ?_
  rw [Finset.sum_congr rfl fun i hi => by rw [eq_neg_of_add_eq_zero_right (rows i (Finset.mem_range.1 hi))]]
  unfold Mat.mult
  simp only [mul_neg, Finset.sum_neg_distrib, Finset.mul_sum]
  rw [Finset.sum_comm, neg_eq_zero]
  refine Finset.sum_eq_zero fun c hc => ?_
  rw [seam_sizes.1] at hc
  have := hcol c (List.mem_range.2 (Finset.mem_range.1 hc))
  simp only [← mul_assoc]
  rw [← Finset.sum_mul, this, zero_mul]

end PetIBM
