/-
C107 for the coupled solver.
-/
import Verif.Props.SolversBodies
import Verif.Props.Krylov
import Verif.Props.CoupledProcesses

set_option linter.unusedSectionVars false

namespace PetIBM

open Spec

variable {K : Type} [Field K] [LinearOrder K] [IsStrictOrderedRing K]
variable {debug : Bool} {L : Layout} {G : Geom K} {axes : ℕ → Axis K} {T : BCTable K} {B : ℕ → Boundary K}
variable {P : NSParams K} {flow : Option (FlowNode K)} {ops : NSOps K} {disk disk' : Disk K} {s : NSState K}
variable {bodies : BodyPack K} {kernel : DeltaKernel K} {window : ℕ}

/-- two states of the same flow: the gradients less the spread forces are the same -/
structure EqualCoupled (L : Layout) (ops : NSOps K) (s t : NSState K) : Prop where
  vel : t.U = s.U
  grad : ∀ c : ℤ, 0 ≤ c → c < L.UN → Mat.mult ops.pN ops.G t.p c = Mat.mult ops.pN ops.G s.p c
  conv : t.conv = s.conv
  diff : t.diff = s.diff
  ghosts : t.B = s.B
  time : t.t = s.t ∧ t.ite = s.ite

/-- one step of the same flow -/
theorem equal_coupled (S : CoupledStarted debug L G axes T B P flow bodies kernel window ops disk s disk')
    (hn : ∀ f d, f < L.dim → d < L.dim → L.periodic 0 d = true → 2 ≤ L.n f d) (hdt : 0 < P.dt) (hnu : 0 ≤ P.nu)
    (hT : ∀ f loc, f < L.dim → loc / 2 = f → (T f loc).1 ≠ .NEUMANN) (hBN : GoodOrder L P ops.A) (hp : P.pType = .ksp)
    {v₁ p₁ v₂ p₂ : LinSolve K} (hv1 : Solves L.UN v₁ ops.A) (hp1 : Solves ops.pN p₁ ops.DBNG) (hv2 : Solves L.UN v₂ ops.A)
    (hp2 : Solves ops.pN p₂ ops.DBNG) {u : ℤ → K} {s₁ s₂ s₁' s₂' : NSState K} (R₁ : Reach L B P ops.pN u s₁) (R₂ : Reach L B P ops.pN u s₂)
    (hs : EqualCoupled L ops s₁ s₂) (a₁ : ibpmAdvance L G P (nestCounts L bodies) ops v₁ p₁ s₁ = .ok s₁')
    (a₂ : ibpmAdvance L G P (nestCounts L bodies) ops v₂ p₂ s₂ = .ok s₂') : EqualCoupled L ops s₁' s₂' := by
  obtain ⟨W₁, V₁, d₁, X1, X2, X3, X4⟩ := coupled_ok S.constructed S.schemes.1.1 S.schemes.2.1 R₁ a₁
  obtain ⟨W₂, V₂, d₂, Y1, Y2, Y3, Y4⟩ := coupled_ok S.constructed S.schemes.1.1 S.schemes.2.1 R₂ a₂
  obtain ⟨w₁, U₁, d, x1, x2, x3, x4, x5, x6, x7, x8, x9, x10, x11⟩ := advance_ok S.constructed S.schemes.1.1 S.schemes.2.1 R₁ X4
  obtain ⟨w₂, U₂, d', y1, y2, y3, y4, y5, y6, y7, y8, y9, y10, y11⟩ := advance_ok S.constructed S.schemes.1.1 S.schemes.2.1 R₂ Y4
  cases x3
  cases y3
  rw [X1] at x1
  cases x1
  rw [X2] at x2
  cases x2
  rw [Y1] at y1
  cases y1
  rw [Y2] at y2
  cases y2
  obtain ⟨e1, e2, e3, e4, e5, e6⟩ := hs
  have hw : W₂ = W₁ := by
    rw [e1, e5, X1] at Y1
    exact (Except.ok.inj Y1).symm
  have hdf : diffTerm L P.nu ops s₂ = diffTerm L P.nu ops s₁ := by
    unfold diffTerm
    rw [e1, e5]
  rw [hdf, e4] at y8
  rw [hw, e3] at y7
  rw [e1, e5] at y9
  obtain ⟨u', E, H, hops, _⟩ := S.reach
  obtain ⟨D, Dm, Gr, La, Lm, BN, idx, o1, o2, o3, o4, o5, o6, eops⟩ := ibpmCreate_ok hops
  have hA : ops.A = Mat.shift (Mat.scale La (-P.diff.implicitCoeff * P.nu)) (1 / P.dt) := by rw [eops]
  have hBNG : ops.BNG = Mat.mul L.UN BN ops.G := by rw [eops]
  have hU : vec L.UN V₂ = vec L.UN V₁ := by
    obtain ⟨y, -, uniq⟩ := velocity_unique (P := P) S.constructed hn o3 (implicit_nonneg S.params) hdt hnu
      (momentumRhs L P ops s₁ (pushTerm s₁.conv fun i => -1 * W₁ i) (pushTerm s₁.diff (diffTerm L P.nu ops s₁)))
    rw [← hA] at uniq
    funext i
    unfold vec
    split_ifs with hi
    · rw [uniq V₁ (fun j j0 j1 => hv1 _ _ _ X2 j j0 j1) i hi.1 hi.2, uniq V₂ (fun j j0 j1 => ?_) i hi.1 hi.2]
      rw [hv2 _ _ _ Y2 j j0 j1, hdf, hw, e3, e4]
      unfold momentumRhs vec
      rw [e1, e5, if_pos ⟨j0, j1⟩, if_pos ⟨j0, j1⟩, if_pos ⟨j0, j1⟩]
      dsimp only
      rw [e2 j j0 j1]
    · rfl
  have hr : ibpmRHSPoisson L (nestCounts L bodies) ops { s₂ with U := vec L.UN V₂, B := fun r => (s₂.B r).updateEqs s₂.U P.dt } =
      ibpmRHSPoisson L (nestCounts L bodies) ops { s₁ with U := vec L.UN V₁, B := fun r => (s₁.B r).updateEqs s₁.U P.dt } := by
    unfold ibpmRHSPoisson
    rw [hU, e1, e5]
  rw [hr] at Y3
  obtain ⟨-, -, -, -, -, def_⟩ := composite_definite S hT hBN hp hdt
  have hg : ∀ c : ℤ, 0 ≤ c → c < L.UN → Mat.mult ops.pN ops.G d₂ c = Mat.mult ops.pN ops.G d₁ c := by
    intro c c0 c1
    have := (def_ fun j => d₂ j + -1 * d₁ j).2 (Finset.sum_eq_zero fun i hi => by
      have := Finset.mem_range.1 hi
      rw [mult_sub, hp1 _ _ _ X3 i (by omega) (by omega), hp2 _ _ _ Y3 i (by omega) (by omega), sub_self, mul_zero]) c c0 c1
    rw [mult_sub] at this
    exact sub_eq_zero.1 this
  have hvec : ∀ c : ℤ, 0 ≤ c → c < L.UN → Mat.mult ops.pN ops.G (vec ops.pN d₂) c = Mat.mult ops.pN ops.G (vec ops.pN d₁) c := by
    intro c c0 c1
    rw [mult_vec, mult_vec]
    exact hg c c0 c1
  have hvel : s₂'.U = s₁'.U := by
    rw [x4, y4]
    funext i
    unfold projected
    rw [hU]
    congr 2
    rw [vec, vec]
    split_ifs with hi
    · rw [hBNG, mult_mul, mult_mul, mult_congr hvec]
    · rfl
  refine ⟨hvel, fun c c0 c1 => ?_, by rw [x7, y7], by rw [x8, y8], by rw [x9, y9, hvel], by rw [x10, y10, e6.1], by rw [x11, y11, e6.2]⟩
  rw [x5, y5]
  have key : ∀ (a b : ℤ → K), Mat.mult ops.pN ops.G (fun i => a i + 1 * b i) c = Mat.mult ops.pN ops.G a c + Mat.mult ops.pN ops.G b c := by
    intro a b
    unfold Mat.mult
    rw [← Finset.sum_add_distrib]
    exact Finset.sum_congr rfl fun i _ => by ring
  rw [key, key, e2 c c0 c1, hvec c c0 c1]

/-- C107, coupled solver. Two runs of one configuration with solvers that solve their systems have the same velocities, ghost points and explicit terms at
every step, whatever the points of the bodies; the gradient of the pressure less the force of the bodies on the grid is the same at every velocity point.
If no forces at the points, except zero, spread to the gradient of a pressure, the pressures differ by a constant and the forces are the same.
Missing: as in `C107_solvers_partial`, and the solvers of AmgX. -/
theorem C107_coupled_partial (S : CoupledStarted debug L G axes T B P flow bodies kernel window ops disk s disk')
    (hn : ∀ f d, f < L.dim → d < L.dim → L.periodic 0 d = true → 2 ≤ L.n f d) (hdt : 0 < P.dt) (hnu : 0 ≤ P.nu)
    (hT : ∀ f loc, f < L.dim → loc / 2 = f → (T f loc).1 ≠ .NEUMANN) (hBN : GoodOrder L P ops.A) (hp : P.pType = .ksp)
    {v₁ p₁ v₂ p₂ : LinSolve K} (hv1 : Solves L.UN v₁ ops.A) (hp1 : Solves ops.pN p₁ ops.DBNG) (hv2 : Solves L.UN v₂ ops.A)
    (hp2 : Solves ops.pN p₂ ops.DBNG) {x₁ x₂ : ℕ → NSState K} {n : ℕ} (h1 : x₁ 0 = s) (h2 : x₂ 0 = s)
    (t₁ : CoupledTrajectory L G P (nestCounts L bodies) ops v₁ p₁ x₁ n) (t₂ : CoupledTrajectory L G P (nestCounts L bodies) ops v₂ p₂ x₂ n)
    (k : ℕ) (hk : k ≤ n) :
    (x₂ k).U = (x₁ k).U ∧ (x₂ k).conv = (x₁ k).conv ∧ (x₂ k).diff = (x₁ k).diff ∧ (x₂ k).B = (x₁ k).B ∧ (x₂ k).t = (x₁ k).t ∧ (x₂ k).ite = (x₁ k).ite ∧
      (∀ Δ Gr, IsDelta debug L axes B bodies kernel window Δ → createGradient debug L G false = .ok Gr → ∀ c : ℤ, 0 ≤ c → c < L.UN →
        Mat.mult L.pN Gr (subPressure (nestCounts L bodies) (x₂ k).p) c -
            spread (bodies.nPts * bodies.dim) Δ (subForces (nestCounts L bodies) (x₂ k).p) c =
          Mat.mult L.pN Gr (subPressure (nestCounts L bodies) (x₁ k).p) c -
            spread (bodies.nPts * bodies.dim) Δ (subForces (nestCounts L bodies) (x₁ k).p) c) ∧
      (IndependentOfGradients debug L G axes B bodies kernel window →
        (∃ c, ∀ i : ℤ, 0 ≤ i → i < L.pN →
          subPressure (nestCounts L bodies) (x₂ k).p i = subPressure (nestCounts L bodies) (x₁ k).p i + c) ∧
        ∀ i : ℤ, 0 ≤ i → i < (bodies.nPts * bodies.dim : ℕ) →
          subForces (nestCounts L bodies) (x₂ k).p i = subForces (nestCounts L bodies) (x₁ k).p i) := by
  obtain ⟨u, E, H, hops, R⟩ := S.reach
  have all : ∀ k, k ≤ n → Reach L B P ops.pN u (x₁ k) ∧ Reach L B P ops.pN u (x₂ k) ∧ EqualCoupled L ops (x₁ k) (x₂ k) := by
    intro k
    induction k with
    | zero =>
      intro _
      rw [h1, h2]
      exact ⟨R, R, rfl, fun _ _ _ => rfl, rfl, rfl, rfl, rfl, rfl⟩
    | succ k ih =>
      intro hk
      obtain ⟨r1, r2, hs⟩ := ih (by omega)
      obtain ⟨_, _, _, -, -, -, X4⟩ := coupled_ok S.constructed S.schemes.1.1 S.schemes.2.1 r1 (t₁ k (by omega))
      obtain ⟨_, _, _, -, -, -, Y4⟩ := coupled_ok S.constructed S.schemes.1.1 S.schemes.2.1 r2 (t₂ k (by omega))
      exact ⟨r1.step S.constructed S.schemes.1.1 S.schemes.2.1 X4, r2.step S.constructed S.schemes.1.1 S.schemes.2.1 Y4,
        equal_coupled S hn hdt hnu hT hBN hp hv1 hp1 hv2 hp2 r1 r2 hs (t₁ k (by omega)) (t₂ k (by omega))⟩
  obtain ⟨-, -, e1, e2, e3, e4, e5, e6, e7⟩ := all k hk
  obtain ⟨Δ, Gr, c1, c2, c3, -⟩ := composite_definite S hT hBN hp hdt
  refine ⟨e1, e3, e4, e5, e6, e7, fun Δ' Gr' hΔ hG c c0 c1' => ?_, fun ind => ?_⟩
  · obtain ⟨idx, i1, i2⟩ := c1
    obtain ⟨idx', j1, j2⟩ := hΔ
    rw [i1] at j1
    cases j1
    rw [i2] at j2
    cases j2
    rw [c2] at hG
    cases hG
    rw [← c3, ← c3]
    exact e2 c c0 c1'
  have hz : ∀ c : ℤ, 0 ≤ c → c < L.UN → Mat.mult ops.pN ops.G (fun j => (x₂ k).p j + -1 * (x₁ k).p j) c = 0 := by
    intro c d0 d1
    rw [mult_sub, e2 c d0 d1, sub_self]
  have hF := ind Δ Gr c1 c2 (subPressure (nestCounts L bodies) fun j => (x₂ k).p j + -1 * (x₁ k).p j)
    (subForces (nestCounts L bodies) fun j => (x₂ k).p j + -1 * (x₁ k).p j) fun c d0 d1 => by
      have := hz c d0 d1
      rw [c3] at this
      exact sub_eq_zero.1 this
  have hsp : ∀ c : ℤ, spread (bodies.nPts * bodies.dim) Δ (subForces (nestCounts L bodies) fun j => (x₂ k).p j + -1 * (x₁ k).p j) c = 0 := by
    intro c
    unfold spread
    refine Finset.sum_eq_zero fun i hi => ?_
    have := Finset.mem_range.1 hi
    rw [hF i (by omega) (by omega), mul_zero]
  have hn3 : ∀ f, f < L.dim → L.periodic 0 f = true → 2 ≤ L.n 3 f := fun f hf hp => by
    have := hn f f hf hf hp
    have := S.constructed.setup.n_le f f hf (by have := S.constructed.setup.dim_le; omega)
    omega
  have hconst := gradient_kernel S.constructed.setup hn3 c2 (φ := subPressure (nestCounts L bodies) fun j => (x₂ k).p j + -1 * (x₁ k).p j) fun c d0 d1 => by
    have := hz c d0 d1
    rwa [c3, hsp, sub_zero] at this
  constructor
  · refine ⟨subPressure (nestCounts L bodies) (fun j => (x₂ k).p j + -1 * (x₁ k).p j) 0, fun i i0 i1 => ?_⟩
    rw [← hconst i 0 i0 i1 le_rfl (by omega)]
    unfold subPressure
    rw [if_pos i0, if_pos i0, if_pos i0]
    ring
  · intro i i0 i1
    have := hF i i0 i1
    unfold subForces at this ⊢
    rw [if_pos i0] at this ⊢
    rw [if_pos i0]
    linear_combination this

/-- A solver that adds a constant to the pressure. -/
noncomputable def liftedCoupled (counts : List (ℕ × ℕ)) (N : ℕ) : LinSolve ℚ := fun A g rhs =>
  (exactSolve N A g rhs).map fun x i => x i + ibpmNullVector counts 1 i

/-- Runs of any length with two points in a cavity, with two solvers of the composite system that choose different solutions: the hypotheses of
`C107_coupled_partial` hold. -/
example : ∃ ops s d x₁ x₂, CoupledStarted true (nineLayout 2) nineGeom nineAxes lidTable (nineB 2) (seamParams adamsBashforth2) (some shearFlow) (nineBody 2)
      hatKernel 1 ops (fun _ => none) s d ∧ (∀ d, (nineLayout 2).periodic 0 d = false) ∧ (∀ f loc, (lidTable f loc).1 ≠ .NEUMANN) ∧
    GoodOrder (nineLayout 2) (seamParams adamsBashforth2) ops.A ∧ Solves (nineLayout 2).UN (exactSolve (nineLayout 2).UN) ops.A ∧
    Solves ops.pN (exactSolve ops.pN) ops.DBNG ∧ Solves ops.pN (liftedCoupled (nestCounts (nineLayout 2) (nineBody 2)) ops.pN) ops.DBNG ∧
    x₁ 0 = s ∧ x₂ 0 = s ∧
    (∀ n, CoupledTrajectory (nineLayout 2) nineGeom (seamParams adamsBashforth2) (nestCounts (nineLayout 2) (nineBody 2)) ops
      (exactSolve (nineLayout 2).UN) (exactSolve ops.pN) x₁ n) ∧
    (∀ n, CoupledTrajectory (nineLayout 2) nineGeom (seamParams adamsBashforth2) (nestCounts (nineLayout 2) (nineBody 2)) ops
      (exactSolve (nineLayout 2).UN) (liftedCoupled (nestCounts (nineLayout 2) (nineBody 2)) ops.pN) x₂ n) ∧
    IndependentOfGradients true (nineLayout 2) nineGeom nineAxes (nineB 2) (nineBody 2) hatKernel 1 := by
  obtain ⟨⟨⟨ops, E, H⟩, s, t⟩, h⟩ := pick (nineRun_ok (px := 2) (Or.inr rfl))
  obtain ⟨d, _, S, _⟩ := nine_run (Or.inr rfl) h
  have null := C62_coupled_null_vector_partial S (fun _ _ hp => by cases hp) rfl 1
  have lift : ∀ (rhs x : ℤ → ℚ), IsSolution ops.pN ops.DBNG rhs x →
      IsSolution ops.pN ops.DBNG rhs fun i => x i + ibpmNullVector (nestCounts (nineLayout 2) (nineBody 2)) 1 i := by
    intro rhs x h i i0 i1
    have := mix_mult_zero (N := ops.pN) (a := 1) (b := 1) (x := x) (y := ibpmNullVector (nestCounts (nineLayout 2) (nineBody 2)) 1)
      (z := fun i => x i + ibpmNullVector (nestCounts (nineLayout 2) (nineBody 2)) 1 i) (fun j _ _ => by ring) ops.DBNG i
    rw [this, h i i0 i1, null i i0 i1]
    ring
  have fin : Finds ops.pN (liftedCoupled (nestCounts (nineLayout 2) (nineBody 2)) ops.pN) ops.DBNG := by
    intro g rhs h
    obtain ⟨x, hx, hs⟩ := exactSolve_finds ops.pN ops.DBNG g rhs h
    refine ⟨_, ?_, lift rhs x hs⟩
    unfold liftedCoupled
    rw [hx]
    rfl
  have sol : Solves ops.pN (liftedCoupled (nestCounts (nineLayout 2) (nineBody 2)) ops.pN) ops.DBNG := by
    intro g rhs x h
    unfold liftedCoupled at h
    cases e : exactSolve ops.pN ops.DBNG g rhs with
    | error _ => rw [e] at h; cases h
    | ok y =>
      rw [e] at h
      cases h
      exact lift rhs y (exactSolve_solves _ _ _ _ _ e)
  obtain ⟨X, X0, hX⟩ := C93_coupled_runs_partial S (vSolve := exactSolve (nineLayout 2).UN) (pSolve := exactSolve ops.pN)
    (fun _ _ _ _ hp => by cases hp) (Or.inr ⟨fun _ _ _ _ => Or.inl rfl, by decide +kernel, nine_independent⟩) (Or.inl rfl) rfl
    (by norm_num [seamParams]) (by norm_num [seamParams]) (exactSolve_finds _ _) (exactSolve_finds _ _)
  obtain ⟨Y, Y0, hY⟩ := C93_coupled_runs_partial S (vSolve := exactSolve (nineLayout 2).UN)
    (pSolve := liftedCoupled (nestCounts (nineLayout 2) (nineBody 2)) ops.pN)
    (fun _ _ _ _ hp => by cases hp) (Or.inr ⟨fun _ _ _ _ => Or.inl rfl, by decide +kernel, nine_independent⟩) (Or.inl rfl) rfl
    (by norm_num [seamParams]) (by norm_num [seamParams]) (exactSolve_finds _ _) fin
  exact ⟨ops, s, d, X, Y, S, fun _ => rfl, fun _ _ => by simp [lidTable], Or.inl rfl, exactSolve_solves _ _, exactSolve_solves _ _, sol, X0, Y0, hX, hY,
    nine_independent⟩

end PetIBM
