/-
C81: the matrices given to the linear solvers suit conjugate gradients.
-/
import Verif.Lemmas.Krylov
import Verif.Props.Ibpm

set_option linter.unusedSectionVars false

namespace PetIBM

open Spec

variable {K : Type} [Field K] [LinearOrder K] [IsStrictOrderedRing K]
variable {debug : Bool} {L : Layout} {G : Geom K} {axes : ℕ → Axis K} {T : BCTable K} {B : ℕ → Boundary K}
variable {P : NSParams K} {flow : Option (FlowNode K)} {ops : NSOps K} {ib : IBOps K} {disk disk' : Disk K}
variable {bodies : BodyPack K} {kernel : DeltaKernel K} {window : ℕ}

/-! ### Poisson system -/

/-- C81. The Poisson matrix, pinned or not, is symmetric for every order of the approximate inverse. Missing: NEUMANN conditions for
normal components (`C81_false_neumann`); for orders above one, periodic directions with less than three cells. -/
theorem C81_poisson_symmetric_partial {s : NSState K} (S : Started debug L G axes T B P flow ops disk s disk')
    (hT : ∀ f loc, f < L.dim → loc / 2 = f → (T f loc).1 ≠ .NEUMANN)
    (hn : P.BN = 1 ∨ ∀ f d, f < L.dim → d < L.dim → L.periodic 0 d = true → 3 ≤ L.n f d) : SymmetricOn L.pN ops.DBNG := by
  obtain ⟨u, hops, _⟩ := S.reach
  obtain ⟨D, Dm, Gr, La, Lm, BN, o1, o2, o3, o4, rfl⟩ := createOperators_ok hops
  obtain ⟨vol, hvol⟩ := exists_volume S.constructed.setup debug
  refine setNullSpace_symm (fun x y x0 x1 y0 y1 => ?_) _
  refine product_symm (w := vol) (σ := -1) (fun x y x0 x1 y0 y1 => ?_) (inverse_symm S.constructed _ o3 o4 hn hvol) x0 x1 y0 y1
  rw [divergence_volume S.constructed hT _ ⟨u, [], rfl⟩ o1 o2 hvol x0 x1 y0 y1, neg_one_mul]

/-- C81. For good orders of the approximate inverse and a positive time step the Poisson matrix is negative semidefinite, and its
quadratic form is zero for constant pressures only. Missing: as in `C62_poisson_system_partial`. -/
theorem C81_poisson_definite_partial {s : NSState K} (S : Started debug L G axes T B P flow ops disk s disk')
    (hn : ∀ f, f < L.dim → L.periodic 0 f = true → 2 ≤ L.n f f) (hT : ∀ f loc, f < L.dim → loc / 2 = f → (T f loc).1 ≠ .NEUMANN)
    (hBN : GoodOrder L P ops.A) (hp : P.pType = .ksp) (hdt : 0 < P.dt) (φ : ℤ → K) :
    quadratic L.pN ops.DBNG φ ≤ 0 ∧
    (quadratic L.pN ops.DBNG φ = 0 ↔ ∀ i j : ℤ, 0 ≤ i → i < L.pN → 0 ≤ j → j < L.pN → φ i = φ j) := by
  have C := S.constructed
  have hn3 : ∀ f, f < L.dim → L.periodic 0 f = true → 2 ≤ L.n 3 f := fun f hf hp =>
    (hn f hf hp).trans (C.setup.n_le f f hf (by have := C.setup.dim_le; omega))
  obtain ⟨u, D, Dm, Gr, BN, w, hD, hG, hBNG, hDB, hDw, hdef⟩ := poisson_order S hT hBN hp hdt.ne'
  have e : quadratic L.pN ops.DBNG φ = -∑ y ∈ Finset.range L.UN, w y * Mat.mult L.pN Gr φ y * Mat.mult L.UN BN (Mat.mult L.pN Gr φ) y := by
    unfold quadratic
    rw [← neg_one_mul, ← product_energy hDw φ]
    refine Finset.sum_congr rfl fun i _ => ?_
    rw [hDB, mult_mul, mult_congr fun j _ _ => mult_mul ..]
  obtain ⟨h1, h2⟩ := hdef (Mat.mult L.pN Gr φ)
  constructor
  · rw [e]
    have := mul_nonneg hdt.le h1
    rw [← mul_assoc, mul_inv_cancel₀ hdt.ne', one_mul] at this
    linarith
  · constructor
    · intro h
      rw [e, neg_eq_zero] at h
      exact gradient_kernel C.setup hn3 hG (h2 h)
    · intro h
      unfold quadratic
      refine Finset.sum_eq_zero fun i hi => ?_
      rw [C62_constant_pressure_partial S hn3 hp φ h i (by omega) (by have := Finset.mem_range.1 hi; omega), mul_zero]

/-! ### Velocity system -/

/-- C81. The matrix of the velocity system is self-adjoint and positive definite for the inner product weighted with the volumes of the
velocity points. Missing: periodic directions with less than three cells. -/
theorem C81_velocity_weighted_partial {s : NSState K} (S : Started debug L G axes T B P flow ops disk s disk')
    (hn : ∀ f d, f < L.dim → d < L.dim → L.periodic 0 d = true → 3 ≤ L.n f d) {vol : ℤ → K} (hvol : IsVolume debug L G vol) :
    (∀ i j : ℤ, 0 ≤ i → i < L.UN → 0 ≤ j → j < L.UN → vol i * ops.A i j = vol j * ops.A j i) ∧
    (0 < P.dt → 0 ≤ P.nu → ∀ v : ℤ → K, (∃ i : ℤ, 0 ≤ i ∧ i < L.UN ∧ v i ≠ 0) →
      0 < ∑ i ∈ Finset.range L.UN, vol i * v i * Mat.mult L.UN ops.A v i) := by
  obtain ⟨u, hops, _⟩ := S.reach
  obtain ⟨D, Dm, Gr, La, Lm, BN, o1, o2, o3, o4, rfl⟩ := createOperators_ok hops
  constructor
  · intro i j i0 i1 j0 j1
    have := laplacian_symm S.constructed.setup (S.constructed.ghosts _) hn o3 hvol i0 i1 j0 j1
    simp only [Mat.shift, Mat.scale]
    by_cases hij : i = j
    · subst hij; rfl
    · rw [if_neg hij, if_neg (Ne.symm hij)]
      linear_combination (-P.diff.implicitCoeff * P.nu) * this
  · rintro hdt hnu v ⟨i, i0, i1, hv⟩
    refine lt_of_lt_of_le ?_ (velocity_definite S.constructed _ ⟨u, [], rfl⟩ o3 (implicit_nonneg S.params) hn hnu hvol v)
    refine mul_pos (by positivity) (Finset.sum_pos' (fun j hj => ?_) ⟨i.toNat, Finset.mem_range.2 (by omega), ?_⟩)
    · exact mul_nonneg (volume_pos S.constructed.setup hvol (by omega) (by have := Finset.mem_range.1 hj; omega)).le (sq_nonneg _)
    · rw [Int.toNat_of_nonneg i0]
      exact mul_pos (volume_pos S.constructed.setup hvol i0 i1) (lt_of_le_of_ne (sq_nonneg _) (Ne.symm (pow_ne_zero 2 hv)))

/-- C81. On uniform meshes the matrix of the velocity system is symmetric and positive definite. Missing: meshes that are not uniform
(`C81_false_stretched`), periodic directions with less than three cells. -/
theorem C81_velocity_uniform_partial {s : NSState K} (S : Started debug L G axes T B P flow ops disk s disk')
    (hn : ∀ f d, f < L.dim → d < L.dim → L.periodic 0 d = true → 3 ≤ L.n f d) (hu : UniformMesh L.dim axes) :
    SymmetricOn L.UN ops.A ∧
    (0 < P.dt → 0 ≤ P.nu → ∀ v : ℤ → K, (∃ i : ℤ, 0 ≤ i ∧ i < L.UN ∧ v i ≠ 0) → 0 < quadratic L.UN ops.A v) := by
  obtain ⟨vol, hvol⟩ := exists_volume S.constructed.setup debug
  obtain ⟨h1, h2⟩ := C81_velocity_weighted_partial S hn hvol
  have V := S.constructed.setup
  constructor
  · intro i j i0 i1 j0 j1
    have := h1 i j i0 i1 j0 j1
    rw [volume_uniform V hu hvol j0 j1 i0 i1] at this
    exact mul_left_cancel₀ (volume_pos V hvol i0 i1).ne' this
  · rintro hdt hnu v ⟨i, i0, i1, hv⟩
    have h := h2 hdt hnu v ⟨i, i0, i1, hv⟩
    have e : ∑ j ∈ Finset.range L.UN, vol j * v j * Mat.mult L.UN ops.A v j = vol i * quadratic L.UN ops.A v := by
      unfold quadratic
      rw [Finset.mul_sum]
      refine Finset.sum_congr rfl fun j hj => ?_
      rw [volume_uniform V hu hvol (by omega) (by have := Finset.mem_range.1 hj; omega) i0 i1, mul_assoc]
    rw [e] at h
    exact pos_of_mul_pos_right h (volume_pos V hvol i0 i1).le

/-! ### Systems of the solvers with bodies -/

/-- The force system: symmetric, and definite as far as the spreading is injective. -/
theorem force_system (C : Constructed debug L G axes T B) {u : ℤ → K}
    (hops : createOperators debug L G P (fun r => (B r).run [.setGhostICs u]) = .ok ops) {hist : List (Boundary.Op K)}
    {idx : List (List (List (List ℤ)))} (hidx : bodies.updateMeshIdx axes = .ok idx)
    (h : createExtraOperators debug L G axes P ops (fun r => (B r).run hist) bodies (meshIdxAt idx) kernel window = .ok ib)
    (himp : 0 ≤ P.diff.implicitCoeff) :
    ((P.BN = 1 ∨ ∀ f d, f < L.dim → d < L.dim → L.periodic 0 d = true → 3 ≤ L.n f d) → SymmetricOn ib.nF ib.EBNH) ∧
    (GoodOrder L P ops.A → 0 < P.dt → ∀ F : ℤ → K, 0 ≤ quadratic ib.nF ib.EBNH F ∧
      (quadratic ib.nF ib.EBNH F = 0 ↔ ∀ c : ℤ, 0 ≤ c → c < L.UN → Mat.mult ib.nF ib.H F c = 0)) := by
  obtain ⟨D, Dm, Gr, La, Lm, BN', o1, o2, o3, o4, rfl⟩ := createOperators_ok hops
  obtain ⟨Δ, BN, h1, h2, h3, h4, h5, h6, h7⟩ := createExtra_ok C hidx h
  obtain ⟨vol, hvol⟩ := exists_volume C.setup debug
  have hE : ∀ x y : ℤ, 0 ≤ x → x < ib.nF → 0 ≤ y → y < L.UN → ib.E x y = 1 * (vol y * ib.H y x) := by
    intro x y x0 x1 y0 y1
    rw [h5 vol hvol x y y0 y1, h4]
    simp only [Mat.transpose]
    ring
  constructor
  · intro hn x y x0 x1 y0 y1
    rw [h7, h6]
    exact product_symm hE (inverse_symm C _ o3 h2 hn hvol) x0 x1 y0 y1
  · intro hBN hdt F
    obtain ⟨d1, d2⟩ := inverse_definite C _ ⟨u, [], rfl⟩ o3 h2 himp hdt.ne' hBN hvol (Mat.mult ib.nF ib.H F)
    have e : quadratic ib.nF ib.EBNH F = ∑ y ∈ Finset.range L.UN, vol y * Mat.mult ib.nF ib.H F y * Mat.mult L.UN BN (Mat.mult ib.nF ib.H F) y := by
      unfold quadratic
      rw [← one_mul (∑ y ∈ Finset.range L.UN, _), ← product_energy hE F]
      refine Finset.sum_congr rfl fun i _ => ?_
      rw [h7, h6, mult_mul, mult_congr fun j _ _ => mult_mul ..]
    rw [e]
    refine ⟨?_, d2, ?_⟩
    · have := mul_nonneg hdt.le d1
      rwa [← mul_assoc, mul_inv_cancel₀ hdt.ne', one_mul] at this
    · intro hz
      refine Finset.sum_eq_zero fun i hi => ?_
      rw [hz i (by omega) (by have := Finset.mem_range.1 hi; omega), mul_zero, zero_mul]

/-- C81, decoupled solver. The matrix of the force system is symmetric for every order of the approximate inverse; for good orders it
is positive semidefinite, and its quadratic form is zero for those forces only that spread to zero. Missing: for orders above
one, periodic directions with less than three cells; for the definiteness, orders that are not good. -/
theorem C81_forces_partial {s : IBState K} (S : IBStarted debug L G axes T B P flow bodies kernel window ops ib disk s disk') :
    ((P.BN = 1 ∨ ∀ f d, f < L.dim → d < L.dim → L.periodic 0 d = true → 3 ≤ L.n f d) → SymmetricOn ib.nF ib.EBNH) ∧
    (GoodOrder L P ops.A → 0 < P.dt → ∃ Δ, IsDelta debug L axes B bodies kernel window Δ ∧ ∀ F : ℤ → K, 0 ≤ quadratic ib.nF ib.EBNH F ∧
      (quadratic ib.nF ib.EBNH F = 0 ↔ ∀ c : ℤ, 0 ≤ c → c < L.UN → spread (bodies.nPts * bodies.dim) Δ F c = 0)) := by
  obtain ⟨s₀, h1, h2⟩ := S.init
  obtain ⟨⟨ops', ns⟩, h3, h1⟩ := bind_ok h1
  obtain ⟨idx, h4, h1⟩ := bind_ok h1
  obtain ⟨ib', h5, h1⟩ := bind_ok h1
  cases h1
  obtain ⟨U, p, _, ho, rfl⟩ := solverInit_ok h3
  obtain ⟨k1, k2⟩ := force_system (u := U) (hist := [.setGhostICs U]) S.constructed ho h4 h5 (implicit_nonneg S.params)
  refine ⟨k1, fun hBN hdt => ?_⟩
  obtain ⟨Δ, BN, e1, _, e3, e4, _⟩ := S.operators
  refine ⟨Δ, e1, fun F => ?_⟩
  obtain ⟨a, b⟩ := k2 hBN hdt F
  refine ⟨a, b.trans ?_⟩
  rw [e3, e4]
  rfl

/-- C81, prescribed motion: the same for the matrix of every step. Missing: as above. -/
theorem C81_moving_forces_partial {M : Motion K} {s : RigidState K}
    (S : RigidStarted debug L G axes T B P flow bodies M kernel window ops disk s disk') {vSolve fSolve pSolve : LinSolve K}
    {x : ℕ → RigidState K} {n : ℕ} (h0 : x 0 = s)
    (hx : RigidTrajectory debug L G axes P ops M kernel window vSolve fSolve pSolve x n) (k : ℕ) (hk : k < n) :
    ((P.BN = 1 ∨ ∀ f d, f < L.dim → d < L.dim → L.periodic 0 d = true → 3 ≤ L.n f d) →
      SymmetricOn (x (k + 1)).ib.nF (x (k + 1)).ib.EBNH) ∧
    (GoodOrder L P ops.A → 0 < P.dt → ∃ Δ, IsDelta debug L axes B (x (k + 1)).bodies kernel window Δ ∧ ∀ F : ℤ → K,
      0 ≤ quadratic (x (k + 1)).ib.nF (x (k + 1)).ib.EBNH F ∧
      (quadratic (x (k + 1)).ib.nF (x (k + 1)).ib.EBNH F = 0 ↔
        ∀ c : ℤ, 0 ≤ c → c < L.UN → spread ((x (k + 1)).bodies.nPts * (x (k + 1)).bodies.dim) Δ F c = 0)) := by
  obtain ⟨u, hops, R⟩ := S.reach_at h0 hx
  have C := S.started.constructed
  obtain ⟨e1, e2, ⟨idx, e3, e4⟩, h⟩ := rigid_ok (hx k hk)
  obtain ⟨hh, hB, _⟩ := (R k hk.le).1.hist
  rw [hB] at e4
  obtain ⟨k1, k2⟩ := force_system C hops e3 e4 (implicit_nonneg S.started.params)
  refine ⟨k1, fun hBN hdt => ?_⟩
  obtain ⟨Δ, BN, f1, _, f3, f4, _⟩ := createExtra_ok C e3 e4
  refine ⟨Δ, f1, fun F => ?_⟩
  obtain ⟨a, b⟩ := k2 hBN hdt F
  refine ⟨a, b.trans ?_⟩
  rw [f3, f4]
  rfl

/-- C81, coupled solver. The composite matrix of pressure and forces, pinned or not, is symmetric for every order of the approximate
inverse. Missing: as in `C81_poisson_symmetric_partial`. -/
theorem C81_coupled_symmetric_partial {s : NSState K} (S : CoupledStarted debug L G axes T B P flow bodies kernel window ops disk s disk')
    (hT : ∀ f loc, f < L.dim → loc / 2 = f → (T f loc).1 ≠ .NEUMANN)
    (hn : P.BN = 1 ∨ ∀ f d, f < L.dim → d < L.dim → L.periodic 0 d = true → 3 ≤ L.n f d) : SymmetricOn ops.pN ops.DBNG := by
  obtain ⟨u, E, H, hops, _⟩ := S.reach
  obtain ⟨D, Dm, Gr, La, Lm, BN, idx, o1, o2, o3, _, o5, o6, rfl⟩ := ibpmCreate_ok hops
  obtain ⟨vol, hvol⟩ := exists_volume S.constructed.setup debug
  refine setNullSpace_symm (fun x y x0 x1 y0 y1 => ?_) _
  exact product_symm (w := vol) (σ := -1) (composite_transpose S.constructed S.fit hT _ ⟨u, [], rfl⟩ o1 o2 o5 hvol)
    (inverse_symm S.constructed _ o3 o6 hn hvol) x0 x1 y0 y1

/-- The composite matrix is negative semidefinite. -/
theorem composite_definite {s : NSState K} (S : CoupledStarted debug L G axes T B P flow bodies kernel window ops disk s disk')
    (hT : ∀ f loc, f < L.dim → loc / 2 = f → (T f loc).1 ≠ .NEUMANN) (hBN : GoodOrder L P ops.A) (hp : P.pType = .ksp) (hdt : 0 < P.dt) :
    ∃ Δ Gr, IsDelta debug L axes B bodies kernel window Δ ∧ createGradient debug L G false = .ok Gr ∧
      (∀ φ c, Mat.mult ops.pN ops.G φ c = Mat.mult L.pN Gr (subPressure (nestCounts L bodies) φ) c -
        spread (bodies.nPts * bodies.dim) Δ (subForces (nestCounts L bodies) φ) c) ∧
      ∀ φ, quadratic ops.pN ops.DBNG φ ≤ 0 ∧ (quadratic ops.pN ops.DBNG φ = 0 → ∀ c : ℤ, 0 ≤ c → c < L.UN → Mat.mult ops.pN ops.G φ c = 0) := by
  obtain ⟨u, E, H, hops, _⟩ := S.reach
  obtain ⟨D, Dm, Gr, La, Lm, BN, idx, o1, o2, o3, o4, o5, o6, rfl⟩ := ibpmCreate_ok hops
  obtain ⟨vol, hvol⟩ := exists_volume S.constructed.setup debug
  obtain ⟨Δ, h6, h7, h8⟩ := createEH_ok S.constructed.setup o5
  rw [createDelta_run S.constructed] at h6
  subst h7
  refine ⟨Δ, Gr, ⟨idx, o4, h6⟩, o2, fun φ c => composite_gradient S.constructed.setup.layout S.fit Gr Δ φ c, fun φ => ?_⟩
  obtain ⟨d1, d2⟩ := inverse_definite S.constructed _ ⟨u, [], rfl⟩ o3 o6 (implicit_nonneg S.params) hdt.ne' hBN hvol
    (Mat.mult (L.pN + bodies.nPts * bodies.dim) (Mat.nestCols (nestCounts L bodies) Gr (Mat.scale (Mat.transpose Δ) (-1))) φ)
  have e := product_energy (BN := BN) (composite_transpose S.constructed S.fit hT _ ⟨u, [], rfl⟩ o1 o2 o5 hvol) φ
  have e' : quadratic (L.pN + bodies.nPts * bodies.dim) (Mat.mul L.UN (Mat.nestRows (nestCounts L bodies) D E)
      (Mat.mul L.UN BN (Mat.nestCols (nestCounts L bodies) Gr (Mat.scale (Mat.transpose Δ) (-1))))) φ =
      ∑ i ∈ Finset.range (L.pN + bodies.nPts * bodies.dim), φ i * Mat.mult L.UN (Mat.nestRows (nestCounts L bodies) D E) (Mat.mult L.UN BN
        (Mat.mult (L.pN + bodies.nPts * bodies.dim) (Mat.nestCols (nestCounts L bodies) Gr (Mat.scale (Mat.transpose Δ) (-1))) φ)) i := by
    unfold quadratic
    refine Finset.sum_congr rfl fun i _ => ?_
    rw [mult_mul, mult_congr fun j _ _ => mult_mul ..]
  rw [e] at e'
  simp only [setNullSpace, hp]
  rw [e']
  constructor
  · have := mul_nonneg hdt.le d1
    rw [← mul_assoc, mul_inv_cancel₀ hdt.ne', one_mul] at this
    linarith
  · intro h
    exact d2 (by linear_combination -h)

/-- C81, coupled solver. For good orders of the approximate inverse and a positive time step the composite matrix is negative
semidefinite; its quadratic form is zero for those pressures and forces only for which the gradient and the spread forces are
the same. Missing: NEUMANN conditions for normal components, orders that are not good. -/
theorem C81_coupled_definite_partial {s : NSState K} (S : CoupledStarted debug L G axes T B P flow bodies kernel window ops disk s disk')
    (hT : ∀ f loc, f < L.dim → loc / 2 = f → (T f loc).1 ≠ .NEUMANN) (hBN : GoodOrder L P ops.A) (hp : P.pType = .ksp) (hdt : 0 < P.dt) :
    ∃ Δ Gr, IsDelta debug L axes B bodies kernel window Δ ∧ createGradient debug L G false = .ok Gr ∧
      ∀ φ, quadratic ops.pN ops.DBNG φ ≤ 0 ∧ (quadratic ops.pN ops.DBNG φ = 0 ↔ ∀ c : ℤ, 0 ≤ c → c < L.UN →
        Mat.mult L.pN Gr (subPressure (nestCounts L bodies) φ) c = spread (bodies.nPts * bodies.dim) Δ (subForces (nestCounts L bodies) φ) c) := by
  obtain ⟨Δ, Gr, h1, h2, h3, h4⟩ := composite_definite S hT hBN hp hdt
  refine ⟨Δ, Gr, h1, h2, fun φ => ⟨(h4 φ).1, fun h c c0 c1 => ?_, fun h => ?_⟩⟩
  · have := (h4 φ).2 h c c0 c1
    rw [h3] at this
    exact sub_eq_zero.1 this
  · have hz : ∀ c : ℤ, 0 ≤ c → c < L.UN → Mat.mult ops.pN ops.G φ c = 0 := fun c c0 c1 => by rw [h3, h c c0 c1, sub_self]
    obtain ⟨u, E, H, hops, _⟩ := S.reach
    obtain ⟨D, Dm, Gr, La, Lm, BN, idx, o1, o2, o3, o4, o5, o6, rfl⟩ := ibpmCreate_ok hops
    unfold quadratic
    refine Finset.sum_eq_zero fun i _ => ?_
    simp only [setNullSpace, hp]
    rw [mult_mul, mult_congr fun j _ _ => mult_mul .., mult_congr (y := fun _ => 0) fun j j0 j1 => ?_]
    · simp [Mat.mult]
    · rw [mult_congr (y := fun _ => 0) hz]
      simp [Mat.mult]

/-! ### C62 for the coupled solver -/

/-- C62, coupled solver. The vector that the solver attaches as null space of the composite matrix is in its null space. Missing:
periodic directions with one cell. -/
theorem C62_coupled_null_vector_partial {s : NSState K} (S : CoupledStarted debug L G axes T B P flow bodies kernel window ops disk s disk')
    (hn : ∀ f, f < L.dim → L.periodic 0 f = true → 2 ≤ L.n 3 f) (hp : P.pType = .ksp) (c : K) :
    IsSolution ops.pN ops.DBNG (fun _ => 0) (ibpmNullVector (nestCounts L bodies) c) := by
  obtain ⟨u, E, H, hops, _⟩ := S.reach
  obtain ⟨D, Dm, Gr, La, Lm, BN, idx, o1, o2, o3, o4, o5, o6, rfl⟩ := ibpmCreate_ok hops
  obtain ⟨Δ, h6, rfl, h8⟩ := createEH_ok S.constructed.setup o5
  have hs := sum_counts S.constructed.setup.layout S.fit
  intro i i0 i1
  simp only [setNullSpace, hp]
  rw [mult_mul, mult_congr fun j _ _ => mult_mul .., mult_congr (y := fun _ => 0) fun j j0 j1 => ?_]
  · simp [Mat.mult]
  · rw [mult_congr (y := fun _ => 0) fun k k0 k1 => ?_]
    · simp [Mat.mult]
    · rw [composite_gradient S.constructed.setup.layout S.fit, gradient_const S.constructed.setup hn o2 ?_ k0 k1]
      · unfold spread
        rw [zero_sub, neg_eq_zero]
        refine Finset.sum_eq_zero fun b hb => ?_
        have hb := Finset.mem_range.1 hb
        unfold subForces ibpmNullVector
        rw [if_pos (by omega), Int.toNat_natCast, nestVec_force _ _ (by omega), mul_zero]
      · have : ∀ a : ℤ, 0 ≤ a → a < L.pN → subPressure (nestCounts L bodies) (ibpmNullVector (nestCounts L bodies) c) a = c := by
          intro a a0 a1
          unfold subPressure ibpmNullVector
          rw [if_pos a0, nestVec_pressure _ _ (by omega)]
        intro a b a0 a1 b0 b1
        rw [this a a0 a1, this b b0 b1]

/-- C62, coupled solver. For good orders of the approximate inverse, a positive time step and no NEUMANN condition for a normal
component: pressure and forces are in the null space of the composite matrix if and only if the gradient of the pressure is the
spread force, and two solutions of the composite system give the same velocity correction. Missing: as in
`C62_poisson_system_partial`. -/
theorem C62_coupled_system_partial {s : NSState K} (S : CoupledStarted debug L G axes T B P flow bodies kernel window ops disk s disk')
    (hT : ∀ f loc, f < L.dim → loc / 2 = f → (T f loc).1 ≠ .NEUMANN) (hBN : GoodOrder L P ops.A) (hp : P.pType = .ksp) (hdt : 0 < P.dt) :
    (∃ Δ Gr, IsDelta debug L axes B bodies kernel window Δ ∧ createGradient debug L G false = .ok Gr ∧
      ∀ φ, IsSolution ops.pN ops.DBNG (fun _ => 0) φ ↔ ∀ c : ℤ, 0 ≤ c → c < L.UN →
        Mat.mult L.pN Gr (subPressure (nestCounts L bodies) φ) c = spread (bodies.nPts * bodies.dim) Δ (subForces (nestCounts L bodies) φ) c) ∧
    ∀ rhs φ ψ, IsSolution ops.pN ops.DBNG rhs φ → IsSolution ops.pN ops.DBNG rhs ψ →
      ∀ i : ℤ, 0 ≤ i → i < L.UN → Mat.mult ops.pN ops.BNG φ i = Mat.mult ops.pN ops.BNG ψ i := by
  obtain ⟨Δ, Gr, h1, h2, h3, h4⟩ := composite_definite S hT hBN hp hdt
  have hq : ∀ φ, IsSolution ops.pN ops.DBNG (fun _ => 0) φ → ∀ c : ℤ, 0 ≤ c → c < L.UN → Mat.mult ops.pN ops.G φ c = 0 := by
    intro φ hφ
    refine (h4 φ).2 ?_
    unfold quadratic
    refine Finset.sum_eq_zero fun i hi => ?_
    rw [hφ i (by omega) (by have := Finset.mem_range.1 hi; omega), mul_zero]
  obtain ⟨u, E, H, hops, _⟩ := S.reach
  obtain ⟨D, Dm, Gr', La, Lm, BN, idx, o1, o2, o3, o4, o5, o6, hop⟩ := ibpmCreate_ok hops
  have hBNG : ops.BNG = Mat.mul L.UN BN ops.G := by rw [hop]
  have hDB : ops.DBNG = Mat.mul L.UN ops.D ops.BNG := by rw [hop]; simp only [setNullSpace, hp]
  constructor
  · refine ⟨Δ, Gr, h1, h2, fun φ => ⟨fun h c c0 c1 => ?_, fun h i i0 i1 => ?_⟩⟩
    · have := hq φ h c c0 c1
      rw [h3] at this
      exact sub_eq_zero.1 this
    · have hz : ∀ c : ℤ, 0 ≤ c → c < L.UN → Mat.mult ops.pN ops.G φ c = 0 := fun c c0 c1 => by rw [h3, h c c0 c1, sub_self]
      rw [hDB, hBNG, mult_mul, mult_congr fun j _ _ => mult_mul .., mult_congr (y := fun _ => 0) fun j j0 j1 => ?_]
      · simp [Mat.mult]
      · rw [mult_congr (y := fun _ => 0) hz]
        simp [Mat.mult]
  · intro rhs φ ψ e1 e2 i i0 i1
    have hd : IsSolution ops.pN ops.DBNG (fun _ => 0) fun j => φ j + -1 * ψ j := by
      intro j j0 j1
      rw [mult_sub, e1 j j0 j1, e2 j j0 j1, sub_self]
    rw [hBNG, mult_mul, mult_mul]
    refine mult_congr (fun j j0 j1 => ?_) i
    have := hq _ hd j j0 j1
    rw [mult_sub] at this
    exact sub_eq_zero.1 this

/-! ### Cases where it is false, and examples -/

/-- C81 is false if a wall has a NEUMANN condition for its normal component: the Poisson matrix is not symmetric, because the row of the
cell at this wall does not see the neighbour, whose row sees the cell. -/
theorem C81_false_neumann : ∃ (L : Layout) (G : Geom ℚ) (axes : ℕ → Axis ℚ) (T : BCTable ℚ) (B : ℕ → Boundary ℚ) (P : NSParams ℚ)
    (flow : Option (FlowNode ℚ)) (ops : NSOps ℚ), Constructed true L G axes T B ∧
    (∃ haveAmgX output node, readParams haveAmgX output node flow = .ok P) ∧ P.BN = 1 ∧ P.pType = .ksp ∧
    createOperators true L G P (fun r => (B r).run [.setGhostICs fun _ => 0]) = .ok ops ∧ ¬ SymmetricOn L.pN ops.DBNG := by
  refine ⟨_, _, _, _, _, oneCellParams, some ⟨some 1, some [fun _ _ _ _ _ => 1, fun _ _ _ _ _ => 1], none⟩, _,
    outflow_constructed, ⟨false, "out", some oneCellNode, rfl⟩, rfl, rfl, rfl, ?_⟩
  intro h
  have := h 0 1 (by decide) (by decide) (by decide) (by decide)
  revert this
  decide +kernel

/-- C81 is false on meshes that are not uniform: the matrix of the velocity system is not symmetric (it is so only for the inner product
weighted with volumes), while the solver that uses it is conjugate gradients unless the configuration says otherwise. -/
theorem C81_false_stretched (disk : Disk ℚ) : ∃ (L : Layout) (G : Geom ℚ) (axes : ℕ → Axis ℚ) (T : BCTable ℚ) (B : ℕ → Boundary ℚ)
    (P : NSParams ℚ) (flow : Option (FlowNode ℚ)) (ops : NSOps ℚ) (s : NSState ℚ) (disk' : Disk ℚ),
    Started true L G axes T B P flow ops disk s disk' ∧ (∀ f d, f < L.dim → d < L.dim → L.periodic 0 d = false) ∧ 0 < P.dt ∧ 0 < P.nu ∧
    ¬ SymmetricOn L.UN ops.A := by
  obtain ⟨ops, s, disk', S⟩ := C60_start (P := oneCellParams) through_constructed 1 [fun _ _ _ _ _ => 1, fun _ _ _ _ _ => 1] none
    (by decide) (by decide) ⟨false, "out", some oneCellNode, rfl⟩ (le_refl 1) rfl disk
  refine ⟨_, _, _, _, _, _, _, ops, s, disk', S, fun _ _ _ _ => rfl, by decide, by decide, ?_⟩
  obtain ⟨u, hops, _⟩ := S.reach
  obtain ⟨D, Dm, Gr, La, Lm, BN, o1, o2, o3, o4, rfl⟩ := createOperators_ok hops
  intro h
  have h1 := h 0 1 (by decide) (by decide) (by decide) (by decide)
  have e : (createLaplacian true twoByTwo tailGeom fun r => (throughB r).run [.setGhostICs u]).map (fun q => (q.1 0 1, q.1 1 0)) = .ok (2 / 3, 1 / 3) := by
    with_unfolding_all rfl
  rw [o3] at e
  have e := Except.ok.inj e
  have e0 : La 0 1 = 2 / 3 := congrArg Prod.fst e
  have e1 : La 1 0 = 1 / 3 := congrArg Prod.snd e
  simp [Mat.shift, Mat.scale, e0, e1, oneCellParams] at h1
  norm_num at h1

/-- C81 is false for the second-order approximate inverse and large steps: the Poisson matrix is indefinite, its quadratic form is positive
for one pressure and negative for another. -/
theorem C81_false_second_order : ∃ (L : Layout) (G : Geom ℚ) (axes : ℕ → Axis ℚ) (T : BCTable ℚ) (B : ℕ → Boundary ℚ) (P : NSParams ℚ)
    (flow : Option (FlowNode ℚ)) (ops : NSOps ℚ) (φ ψ : ℤ → ℚ), Constructed true L G axes T B ∧
    (∃ haveAmgX output node, readParams haveAmgX output node flow = .ok P) ∧ P.BN = 2 ∧ P.pType = .ksp ∧
    (∀ f loc, f < L.dim → loc / 2 = f → (T f loc).1 ≠ .NEUMANN) ∧ 0 < P.dt ∧
    createOperators true L G P (fun r => (B r).run [.setGhostICs fun _ => 0]) = .ok ops ∧
    0 < quadratic L.pN ops.DBNG φ ∧ quadratic L.pN ops.DBNG ψ < 0 := by
  refine ⟨_, _, _, _, _, { oneCellParams with BN := 2, nu := 1 / 5 }, some ⟨some (1 / 5), some [fun _ _ _ _ _ => 1, fun _ _ _ _ _ => 1], none⟩, _,
    fun i => if i = 0 ∨ i = 3 then 1 else -1, fun i => if i = 0 ∨ i = 2 then 1 else -1, even_constructed,
    ⟨false, "out", some { oneCellNode with BN := some 2 }, rfl⟩, rfl, rfl, ?_, by decide, rfl, by decide +kernel, by decide +kernel⟩
  intro f loc _ _
  simp [closedTable]

/-- C62, C81: the hypotheses hold with approximate inverses of orders one and three, and with the pinned system. -/
example (disk : Disk ℚ) (m : ℤ) (hm : m = 1 ∨ m = 3) (t : SolverType) : ∃ ops s disk', Started true (exampleWalls 2 1) exampleWallsGeom exampleAxes unitWalls
    (boundaries true (exampleWalls 2 1) exampleWallsGeom unitWalls) { exampleParams t with BN := m } (some exampleFlow) ops disk s disk' ∧
    (∀ f loc, f < (exampleWalls 2 1).dim → loc / 2 = f → (unitWalls f loc).1 ≠ .NEUMANN) ∧
    GoodOrder (exampleWalls 2 1) { exampleParams t with BN := m } ops.A ∧ 0 < (exampleParams t).dt ∧
    (∀ f d, f < (exampleWalls 2 1).dim → d < (exampleWalls 2 1).dim → (exampleWalls 2 1).periodic 0 d = true → 3 ≤ (exampleWalls 2 1).n f d) := by
  have hP : ∃ haveAmgX output node, readParams haveAmgX output node (some exampleFlow) = .ok { exampleParams t with BN := m } := by
    cases t
    · exact ⟨false, "out", some { exampleNode "CPU" with BN := some m }, rfl⟩
    · exact ⟨true, "out", some { exampleNode "GPU" with BN := some m }, rfl⟩
  obtain ⟨ops, s, disk', S⟩ := C60_start unitWalls_constructed _ _ _ (by decide) (by decide) hP (show 1 ≤ m by omega) rfl disk
  refine ⟨ops, s, disk', S, ?_, Or.inr ⟨?_, Or.inl ?_⟩, by norm_num [exampleParams], ?_⟩
  · intro f loc _ _
    simp [unitWalls]
  · intro f d _ _ h
    cases h
  · show Odd m
    rcases hm with rfl | rfl
    · exact ⟨0, rfl⟩
    · exact ⟨1, rfl⟩
  · intro f d _ _ h
    cases h

abbrev evenLayout : Layout := meshLayout 2 evenAxes (fun _ _ => false) fun _ => 1

abbrev evenGeom : Geom ℚ := meshGeom 2 evenAxes fun _ _ => false

def smallStep : NSParams ℚ := { oneCellParams with BN := 2, nu := 1 / 20 }

def smallFlow : FlowNode ℚ := ⟨some (1 / 20), some [fun _ _ _ _ _ => 1, fun _ _ _ _ _ => 1], none⟩

/-- The diagonal of the velocity matrix of a solver with small steps. -/
def smallDiagonal : Except Error Bool := do
  let (ops, _) ← solverInit true evenLayout evenGeom smallStep (some smallFlow) (boundaries true evenLayout evenGeom closedTable)
  return (List.range 4).all fun i => decide (smallStep.dt * ops.A i i < 3 / 2)

theorem smallDiagonal_ok : (smallDiagonal.toOption.getD false) = true := by decide +kernel

/-- C62, C81: with a small step the second order is good. -/
example (disk : Disk ℚ) : ∃ ops s disk', Started true evenLayout evenGeom evenAxes closedTable (boundaries true evenLayout evenGeom closedTable)
    smallStep (some smallFlow) ops disk s disk' ∧ smallStep.BN = 2 ∧ GoodOrder evenLayout smallStep ops.A := by
  obtain ⟨ops, s, disk', S⟩ := C60_start (P := smallStep) even_constructed (1 / 20) [fun _ _ _ _ _ => 1, fun _ _ _ _ _ => 1] none
    (by decide) (by decide) ⟨false, "out", some { oneCellNode with BN := some 2 }, rfl⟩ (by decide) rfl disk
  refine ⟨ops, s, disk', S, rfl, Or.inr ⟨fun _ _ _ _ h => (by cases h), Or.inr ⟨by decide, by norm_num [smallStep], ?_⟩⟩⟩
  obtain ⟨s₀, h, _⟩ := S.init
  have e : smallDiagonal = .ok ((List.range 4).all fun i => decide (smallStep.dt * ops.A i i < 3 / 2)) := by
    unfold smallDiagonal smallFlow
    rw [h]
    rfl
  have key := smallDiagonal_ok
  rw [e] at key
  have key : ((List.range 4).all fun i => decide (smallStep.dt * ops.A i i < 3 / 2)) = true := key
  rw [List.all_eq_true] at key
  intro i i0 i1
  have h4 : i < 4 := i1
  have := of_decide_eq_true (key i.toNat (List.mem_range.2 (by omega)))
  rwa [Int.toNat_of_nonneg i0] at this

/-- C81: the hypotheses hold on a uniform mesh. -/
example (disk : Disk ℚ) : ∃ ops s disk', Started true (meshLayout 2 evenAxes (fun _ _ => false) fun _ => 1) (meshGeom 2 evenAxes fun _ _ => false) evenAxes closedTable
    (boundaries true (meshLayout 2 evenAxes (fun _ _ => false) fun _ => 1) (meshGeom 2 evenAxes fun _ _ => false) closedTable) oneCellParams
    (some ⟨some 1, some [fun _ _ _ _ _ => 1, fun _ _ _ _ _ => 1], none⟩) ops disk s disk' ∧ UniformMesh 2 evenAxes := by
  obtain ⟨ops, s, disk', S⟩ := C60_start (P := oneCellParams) even_constructed 1 [fun _ _ _ _ _ => 1, fun _ _ _ _ _ => 1] none
    (by decide) (by decide) ⟨false, "out", some oneCellNode, rfl⟩ (le_refl 1) rfl disk
  refine ⟨ops, s, disk', S, fun d _ => ⟨1, fun w hw => ?_⟩⟩
  simpa [evenAxes] using hw

/-- C62, C81: the hypotheses hold for the solvers with bodies, in a flow with one point. -/
example : (∃ ops ib s disk', IBStarted true twoByTwo tailGeom twoAxes throughTable throughB tailParams (some (pushedFlow none)) pointPack
      hatKernel 1 ops ib (fun _ => none) s disk' ∧ GoodOrder twoByTwo tailParams ops.A) ∧
    (∃ ops s disk', CoupledStarted true twoByTwo tailGeom twoAxes throughTable throughB tailParams (some (pushedFlow none)) pointPack
      hatKernel 1 ops (fun _ => none) s disk' ∧ GoodOrder twoByTwo tailParams ops.A) ∧
    (∀ f loc, f < twoByTwo.dim → loc / 2 = f → (throughTable f loc).1 ≠ .NEUMANN) ∧ 0 < tailParams.dt ∧ tailParams.pType = .ksp := by
  obtain ⟨ops, ib, s, disk', x, S, _⟩ := decoupled_runs
  obtain ⟨ops', s', disk'', x', S', _⟩ := coupled_runs none (by decide +kernel)
  refine ⟨⟨ops, ib, s, disk', S, Or.inl rfl⟩, ⟨ops', s', disk'', S', Or.inl rfl⟩, ?_, by norm_num [tailParams], rfl⟩
  intro f loc _ _
  unfold throughTable
  split_ifs <;> simp

end PetIBM
