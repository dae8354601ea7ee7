/-
C43, C61, C62: the linear systems of the Navier-Stokes solver.
-/
import Verif.Props.NavierStokes
import Verif.Lemmas.PoissonOrder
import Mathlib.Tactic.Positivity

set_option linter.unusedSectionVars false

namespace PetIBM

open Spec

variable {K : Type} [Field K] [LinearOrder K] [IsStrictOrderedRing K]
variable {debug : Bool} {L : Layout} {G : Geom K} {axes : ℕ → Axis K} {T : BCTable K} {B : ℕ → Boundary K}
variable {P : NSParams K} {flow : Option (FlowNode K)} {ops : NSOps K} {disk disk' : Disk K} {s : NSState K}
variable {vSolve pSolve : LinSolve K} {x : ℕ → NSState K} {n : ℕ}

/-! ### C61 -/

/-- the matrix of the velocity system is strictly diagonally dominant -/
theorem velocity_unique (C : Constructed debug L G axes T B)
    (hn : ∀ f d, f < L.dim → d < L.dim → L.periodic 0 d = true → 2 ≤ L.n f d) {u : ℤ → K} {La : Mat K} {Lm : Modifiers K}
    (o3 : createLaplacian debug L G (fun r => (B r).run [.setGhostICs u]) = .ok (La, Lm)) (himp : 0 ≤ P.diff.implicitCoeff) (hdt : 0 < P.dt)
    (hnu : 0 ≤ P.nu) (rhs : ℤ → K) :
    ∃ y, IsSolution L.UN (Mat.shift (Mat.scale La (-P.diff.implicitCoeff * P.nu)) (1 / P.dt)) rhs y ∧
      ∀ z, IsSolution L.UN (Mat.shift (Mat.scale La (-P.diff.implicitCoeff * P.nu)) (1 / P.dt)) rhs z → ∀ i : ℤ, 0 ≤ i → i < L.UN → z i = y i := by
  have hL := C.setup.layout
  obtain ⟨A', m', e, hdom⟩ := C23_diagonal_dominance_partial C hn [.setGhostICs u] ⟨u, [], rfl⟩
  rw [o3] at e
  cases e
  have hc : 0 ≤ P.diff.implicitCoeff * P.nu := mul_nonneg himp hnu
  refine unique_solution (fun v hv => dominant_injective (fun i hi => ?_) hv) rhs
  obtain ⟨w, hw, e⟩ := col_surj hL (x := i) (by omega) (by omega)
  obtain ⟨d1, -, d3⟩ := hdom w.comp w.st i hw.1 hw.inside (by rw [← e]; exact (col_inside hL (Or.inl hw.1) debug hw.inside).1)
  have e1 : ∀ x ∈ (Finset.range L.UN).filter (fun x : ℕ => x ≠ i),
      |Mat.shift (Mat.scale La (-P.diff.implicitCoeff * P.nu)) (1 / P.dt) i x| = P.diff.implicitCoeff * P.nu * La i x := by
    intro x hx
    obtain ⟨hx1, hx2⟩ := Finset.mem_filter.1 hx
    have hne : (i : ℤ) ≠ (x : ℤ) := by omega
    unfold Mat.shift Mat.scale
    rw [if_neg hne, show -P.diff.implicitCoeff * P.nu * La i x = -(P.diff.implicitCoeff * P.nu * La i x) by ring, abs_neg,
      abs_of_nonneg (mul_nonneg hc (d1 x (Finset.mem_range.1 hx1) (by omega)))]
  have hf : (Finset.range L.UN).filter (fun x : ℕ => (x : ℤ) ≠ (i : ℤ)) = (Finset.range L.UN).filter (fun x : ℕ => x ≠ i) := by
    ext x
    simp
  rw [hf] at d3
  have hpos : 0 < 1 / P.dt := by positivity
  have h0 : 0 ≤ -La i i := le_trans (Finset.sum_nonneg fun x hx => by
    obtain ⟨hx1, hx2⟩ := Finset.mem_filter.1 hx
    exact d1 x (Finset.mem_range.1 hx1) (by omega)) d3
  have e2 : |Mat.shift (Mat.scale La (-P.diff.implicitCoeff * P.nu)) (1 / P.dt) i i| = P.diff.implicitCoeff * P.nu * -La i i + 1 / P.dt := by
    unfold Mat.shift Mat.scale
    rw [if_pos rfl, show -P.diff.implicitCoeff * P.nu * La i i + 1 / P.dt = P.diff.implicitCoeff * P.nu * -La i i + 1 / P.dt by ring,
      abs_of_nonneg]
    have := mul_nonneg hc h0
    linarith
  rw [Finset.sum_congr rfl e1, ← Finset.mul_sum, e2]
  have := mul_le_mul_of_nonneg_left d3 hc
  linarith

/-- C61. For a positive time step and a viscosity that is not negative, the system for the velocity has exactly one solution for
every right-hand side. Missing: periodic directions with one cell, where it is false (`C61_false_single_periodic_cell`). -/
theorem C61_velocity_system_partial (S : Started debug L G axes T B P flow ops disk s disk')
    (hn : ∀ f d, f < L.dim → d < L.dim → L.periodic 0 d = true → 2 ≤ L.n f d) (hdt : 0 < P.dt) (hnu : 0 ≤ P.nu) (rhs : ℤ → K) :
    ∃ y, IsSolution L.UN ops.A rhs y ∧ ∀ z, IsSolution L.UN ops.A rhs z → ∀ i : ℤ, 0 ≤ i → i < L.UN → z i = y i := by
  obtain ⟨u, hops, _⟩ := S.reach
  obtain ⟨D, Dm, Gr, La, Lm, BN, o1, o2, o3, o4, rfl⟩ := createOperators_ok hops
  have himp : 0 ≤ P.diff.implicitCoeff := by
    obtain ⟨a, o, node, h⟩ := S.params
    obtain ⟨⟨p, -, h2⟩, -⟩ := params_schemes h
    generalize P.diff = d at h2 ⊢
    unfold createTimeIntegration at h2
    split at h2
    · cases h2
    · split at h2
      · cases h2
      · split_ifs at h2 <;> cases h2 <;>
          simp [eulerExplicit, eulerImplicit, adamsBashforth2, crankNicolson]
  exact velocity_unique S.constructed hn o3 himp hdt hnu rhs

example (disk : Disk ℚ) : (∃ ops s disk', Started true (exampleWalls 2 1) exampleWallsGeom exampleAxes unitWalls
      (boundaries true (exampleWalls 2 1) exampleWallsGeom unitWalls) (exampleParams .ksp) (some exampleFlow) ops disk s disk') ∧
    (∀ f d, f < 2 → d < 2 → (exampleWalls 2 1).periodic 0 d = true → 2 ≤ (exampleWalls 2 1).n f d) ∧
    0 < (exampleParams .ksp).dt ∧ 0 ≤ (exampleParams .ksp).nu := by
  refine ⟨exampleStarted .ksp disk, ?_, ?_, ?_⟩
  · intro f d _ hd; interval_cases d <;> simp [exampleWalls, meshLayout]
  · norm_num [exampleParams]
  · norm_num [exampleParams]

/-- Parameters of a run on one periodic cell: the Euler methods, time step and viscosity one. -/
def oneCellNode : ParamNode ℚ :=
  { dt := some 1, startStep := none, t := none, nt := some 1, nsave := some 1, nrestart := some 1, BN := none,
    schemes := fun key => if key = "convection" then some "EULER_EXPLICIT" else some "EULER_IMPLICIT",
    velocitySolver := none, poissonSolver := none }

def oneCellParams : NSParams ℚ :=
  { dt := 1, nstart := 0, t := 0, nt := 1, nsave := 1, nrestart := 1, nu := 1, BN := 1,
    conv := ⟨0, 1, [1]⟩, diff := ⟨1, 0, []⟩, vType := .ksp, pType := .ksp, output := "out" }

/-- C61 is false with a single periodic cell: the diagonal entry of the Laplacian is positive, and with time step and viscosity one the
velocity matrix is zero. -/
theorem C61_false_single_periodic_cell (disk : Disk ℚ) : ∃ (L : Layout) (G : Geom ℚ) (axes : ℕ → Axis ℚ) (T : BCTable ℚ) (B : ℕ → Boundary ℚ)
    (P : NSParams ℚ) (flow : Option (FlowNode ℚ)) (ops : NSOps ℚ) (s : NSState ℚ) (disk' : Disk ℚ),
    Started true L G axes T B P flow ops disk s disk' ∧ 0 < P.dt ∧ 0 ≤ P.nu ∧ ∀ y, ¬ IsSolution L.UN ops.A (fun _ => 1) y := by
  obtain ⟨ops, s, disk', S⟩ := C60_start (P := oneCellParams) oneCell_constructed 1 [fun _ _ _ _ _ => 1, fun _ _ _ _ _ => 1] none
    (by decide) (by decide) ⟨false, "out", some oneCellNode, rfl⟩ (le_refl 1) rfl disk
  refine ⟨_, _, _, _, _, _, _, ops, s, disk', S, by norm_num [oneCellParams], by norm_num [oneCellParams], ?_⟩
  obtain ⟨u, hops, _⟩ := S.reach
  obtain ⟨D, Dm, Gr, La, Lm, BN, o1, o2, o3, o4, rfl⟩ := createOperators_ok hops
  intro y hy
  have h := hy 0 (le_refl 0) (by decide)
  have e : (createLaplacian true (meshLayout 2 oneCell (fun _ _ => true) fun _ => 1) (meshGeom 2 oneCell fun _ _ => true) fun r =>
      (boundaries true (meshLayout 2 oneCell (fun _ _ => true) fun _ => 1) (meshGeom 2 oneCell fun _ _ => true) (fun _ _ => (.PERIODIC, 0)) r).run
        [.setGhostICs u]).map (fun q => (q.1 0 0, q.1 0 1)) = .ok (1, 0) := by
    with_unfolding_all rfl
  rw [o3] at e
  have e := Except.ok.inj e
  have e0 : La 0 0 = 1 := congrArg Prod.fst e
  have e1 : La 0 1 = 0 := congrArg Prod.snd e
  have hU : (meshLayout 2 oneCell (fun _ _ => true) fun _ => 1).UN = 2 := by decide
  rw [hU] at h
  simp only [Mat.mult, Finset.sum_range_succ, Finset.sum_range_zero, Mat.shift, Mat.scale, Nat.cast_zero, Nat.cast_one, e0, e1, oneCellParams] at h
  norm_num at h

/-! ### C62 -/

/-- C62. For every order of the approximate inverse, a constant pressure is in the null space of the Poisson matrix. Missing: periodic
directions with one cell, where it is false (`C62_false_single_periodic_cell`). -/
theorem C62_constant_pressure_partial (S : Started debug L G axes T B P flow ops disk s disk')
    (hn : ∀ f, f < L.dim → L.periodic 0 f = true → 2 ≤ L.n 3 f) (hp : P.pType = .ksp) (φ : ℤ → K)
    (hφ : ∀ i j : ℤ, 0 ≤ i → i < L.pN → 0 ≤ j → j < L.pN → φ i = φ j) : IsSolution L.pN ops.DBNG (fun _ => 0) φ := by
  have C := S.constructed
  obtain ⟨u, hops, _⟩ := S.reach
  obtain ⟨D, Dm, Gr, La, Lm, BN, o1, o2, o3, o4, rfl⟩ := createOperators_ok hops
  intro i i0 i1
  simp only [setNullSpace, hp]
  rw [mult_mul]
  have : ∀ j : ℤ, 0 ≤ j → j < L.UN → Mat.mult L.pN (Mat.mul L.UN BN Gr) φ j = 0 := by
    intro j j0 j1
    rw [mult_mul, mult_congr (y := fun _ => 0) fun k k0 k1 => gradient_const C.setup hn o2 hφ k0 k1]
    simp [Mat.mult]
  rw [mult_congr (y := fun _ => 0) this]
  simp [Mat.mult]

/-- The Poisson matrix with the first-order approximate inverse is `dt` times divergence times gradient. -/
theorem poisson_first_order (S : Started debug L G axes T B P flow ops disk s disk') (hBN : P.BN = 1) (hp : P.pType = .ksp) :
    ∃ u D Dm Gr, createDivergence debug L G false (fun r => (B r).run [.setGhostICs u]) = .ok (D, Dm) ∧ createGradient debug L G false = .ok Gr ∧
      (∀ φ (i : ℤ), 0 ≤ i → i < L.UN → Mat.mult L.pN ops.BNG φ i = P.dt * Mat.mult L.pN Gr φ i) ∧
      ∀ φ i, Mat.mult L.pN ops.DBNG φ i = P.dt * Mat.mult L.UN D (Mat.mult L.pN Gr φ) i := by
  obtain ⟨u, hops, _⟩ := S.reach
  obtain ⟨D, Dm, Gr, La, Lm, BN, o1, o2, o3, o4, rfl⟩ := createOperators_ok hops
  rw [hBN] at o4
  refine ⟨u, D, Dm, Gr, o1, o2, fun φ i i0 i1 => bn_one o4 Gr L.pN φ i0 i1, fun φ i => ?_⟩
  simp only [setNullSpace, hp]
  rw [mult_mul, mult_congr fun j j0 j1 => bn_one o4 Gr L.pN φ j0 j1]
  unfold Mat.mult
  rw [Finset.mul_sum]
  refine Finset.sum_congr rfl fun c _ => ?_
  ring

/-- The Poisson matrix is the divergence of the approximate inverse of the gradient; the divergence is the negative transpose of the
gradient for the volumes, and for good orders the approximate inverse is definite. -/
theorem poisson_order (S : Started debug L G axes T B P flow ops disk s disk') (hT : ∀ f loc, f < L.dim → loc / 2 = f → (T f loc).1 ≠ .NEUMANN)
    (hBN : GoodOrder L P ops.A) (hp : P.pType = .ksp) (hdt : P.dt ≠ 0) :
    ∃ u D Dm Gr BN, ∃ w : ℤ → K, createDivergence debug L G false (fun r => (B r).run [.setGhostICs u]) = .ok (D, Dm) ∧ createGradient debug L G false = .ok Gr ∧
      ops.BNG = Mat.mul L.UN BN Gr ∧ ops.DBNG = Mat.mul L.UN D (Mat.mul L.UN BN Gr) ∧
      (∀ x y : ℤ, 0 ≤ x → x < L.pN → 0 ≤ y → y < L.UN → D x y = -1 * (w y * Gr y x)) ∧
      ∀ v : ℤ → K, 0 ≤ P.dt⁻¹ * ∑ i ∈ Finset.range L.UN, w i * v i * Mat.mult L.UN BN v i ∧
        (∑ i ∈ Finset.range L.UN, w i * v i * Mat.mult L.UN BN v i = 0 → ∀ i : ℤ, 0 ≤ i → i < L.UN → v i = 0) := by
  obtain ⟨u, hops, _⟩ := S.reach
  obtain ⟨D, Dm, Gr, La, Lm, BN, o1, o2, o3, o4, rfl⟩ := createOperators_ok hops
  obtain ⟨vol, hvol⟩ := exists_volume S.constructed.setup debug
  refine ⟨u, D, Dm, Gr, BN, vol, o1, o2, rfl, by simp [setNullSpace, hp], ?_, ?_⟩
  · intro x y x0 x1 y0 y1
    rw [divergence_volume S.constructed hT _ ⟨u, [], rfl⟩ o1 o2 hvol x0 x1 y0 y1, neg_one_mul]
  · exact inverse_definite S.constructed _ ⟨u, [], rfl⟩ o3 o4 (implicit_nonneg S.params) hdt hBN hvol

/-- C62 is false with a single periodic cell: a constant pressure is not in the null space of the Poisson matrix. -/
theorem C62_false_single_periodic_cell (disk : Disk ℚ) : ∃ (L : Layout) (G : Geom ℚ) (axes : ℕ → Axis ℚ) (T : BCTable ℚ) (B : ℕ → Boundary ℚ)
    (P : NSParams ℚ) (flow : Option (FlowNode ℚ)) (ops : NSOps ℚ) (s : NSState ℚ) (disk' : Disk ℚ),
    Started true L G axes T B P flow ops disk s disk' ∧ P.pType = .ksp ∧ ¬ IsSolution L.pN ops.DBNG (fun _ => 0) (fun _ => 1) := by
  obtain ⟨ops, s, disk', S⟩ := C60_start (P := oneCellParams) oneCell_constructed 1 [fun _ _ _ _ _ => 1, fun _ _ _ _ _ => 1] none
    (by decide) (by decide) ⟨false, "out", some oneCellNode, rfl⟩ (le_refl 1) rfl disk
  refine ⟨_, _, _, _, _, _, _, ops, s, disk', S, rfl, ?_⟩
  obtain ⟨u, D, Dm, Gr, o1, o2, _, hM⟩ := poisson_first_order S rfl rfl
  intro hy
  have h := hy 0 (le_refl 0) (by decide)
  have e : (createDivergence true (meshLayout 2 oneCell (fun _ _ => true) fun _ => 1) (meshGeom 2 oneCell fun _ _ => true) false fun r =>
      (boundaries true (meshLayout 2 oneCell (fun _ _ => true) fun _ => 1) (meshGeom 2 oneCell fun _ _ => true) (fun _ _ => (.PERIODIC, 0)) r).run
        [.setGhostICs u]).map (fun q => (q.1 0 0, q.1 0 1)) = .ok (-1, -1) := by
    with_unfolding_all rfl
  rw [o1] at e
  have e := Except.ok.inj e
  have e0 : D 0 0 = -1 := congrArg Prod.fst e
  have e1 : D 0 1 = -1 := congrArg Prod.snd e
  have e' : (createGradient true (meshLayout 2 oneCell (fun _ _ => true) fun _ => 1) (meshGeom 2 oneCell fun _ _ => true) false).map
      (fun q => (q 0 0, q 1 0)) = .ok (1, 1) := by decide +kernel
  rw [o2] at e'
  have e' := Except.ok.inj e'
  have g0 : Gr 0 0 = 1 := congrArg Prod.fst e'
  have g1 : Gr 1 0 = 1 := congrArg Prod.snd e'
  have hU : (meshLayout 2 oneCell (fun _ _ => true) fun _ => 1).pN = 1 := by decide
  have hV : (meshLayout 2 oneCell (fun _ _ => true) fun _ => 1).UN = 2 := by decide
  rw [hM, hU, hV] at h
  simp only [Mat.mult, Finset.sum_range_succ, Finset.sum_range_zero, Nat.cast_zero, Nat.cast_one, e0, e1, g0, g1, oneCellParams] at h
  norm_num at h

/-- C62. With an approximate inverse of a good order (the first; odd orders; every order if the time step is small enough for explicit
diffusion), a non-zero time step and no NEUMANN condition for a normal component: a pressure is in the null space of the Poisson
matrix if and only if it is constant, two solutions of the system give the same velocity correction, and the system has a solution
if and only if the sum of the right-hand side is zero. Missing: even orders of the approximate inverse with larger steps, NEUMANN
conditions for normal components, periodic directions with one cell, where it is false (`C62_false_second_order`,
`C62_false_neumann`, `C62_false_single_periodic_cell`), and higher orders with periodic directions of two cells. -/
theorem C62_poisson_system_partial (S : Started debug L G axes T B P flow ops disk s disk')
    (hn : ∀ f, f < L.dim → L.periodic 0 f = true → 2 ≤ L.n f f) (hT : ∀ f loc, f < L.dim → loc / 2 = f → (T f loc).1 ≠ .NEUMANN)
    (hBN : GoodOrder L P ops.A) (hp : P.pType = .ksp) (hdt : P.dt ≠ 0) :
    (∀ φ, IsSolution L.pN ops.DBNG (fun _ => 0) φ ↔ ∀ i j : ℤ, 0 ≤ i → i < L.pN → 0 ≤ j → j < L.pN → φ i = φ j) ∧
    (∀ rhs φ ψ, IsSolution L.pN ops.DBNG rhs φ → IsSolution L.pN ops.DBNG rhs ψ →
      ∀ i : ℤ, 0 ≤ i → i < L.UN → Mat.mult L.pN ops.BNG φ i = Mat.mult L.pN ops.BNG ψ i) ∧
    ∀ rhs, (∃ φ, IsSolution L.pN ops.DBNG rhs φ) ↔ ∑ i ∈ Finset.range L.pN, rhs i = 0 := by
  have C := S.constructed
  have hn3 : ∀ f, f < L.dim → L.periodic 0 f = true → 2 ≤ L.n 3 f := fun f hf hp =>
    (hn f hf hp).trans (C.setup.n_le f f hf (by have := C.setup.dim_le; omega))
  obtain ⟨u, D, Dm, Gr, BN, w, hD, hG, hBNG, hDB, hDw, hdef⟩ := poisson_order S hT hBN hp hdt
  have hi : Initialised [Boundary.Op.setGhostICs u] := ⟨u, [], rfl⟩
  have hM : ∀ φ i, Mat.mult L.pN ops.DBNG φ i = Mat.mult L.UN D (Mat.mult L.UN BN (Mat.mult L.pN Gr φ)) i := by
    intro φ i
    rw [hDB, mult_mul, mult_congr fun j _ _ => mult_mul ..]
  have ker : ∀ φ, IsSolution L.pN ops.DBNG (fun _ => 0) φ → ∀ y : ℤ, 0 ≤ y → y < L.UN → Mat.mult L.pN Gr φ y = 0 := by
    intro φ hφ
    refine (hdef _).2 ?_
    have := product_energy (BN := BN) hDw φ
    rw [Finset.sum_eq_zero fun x hx => by
      rw [← hM, hφ x (by omega) (by have := Finset.mem_range.1 hx; omega), mul_zero]] at this
    linear_combination this
  have null : ∀ φ, IsSolution L.pN ops.DBNG (fun _ => 0) φ ↔ ∀ i j : ℤ, 0 ≤ i → i < L.pN → 0 ≤ j → j < L.pN → φ i = φ j :=
    fun φ => ⟨fun h => gradient_kernel C.setup hn3 hG (ker φ h), C62_constant_pressure_partial S hn3 hp φ⟩
  refine ⟨null, ?_, ?_⟩
  · intro rhs φ ψ h1 h2 i i0 i1
    have hd : IsSolution L.pN ops.DBNG (fun _ => 0) fun j => φ j + -1 * ψ j := by
      intro j j0 j1
      rw [mult_sub, h1 j j0 j1, h2 j j0 j1, sub_self]
    rw [hBNG, mult_mul, mult_mul]
    refine mult_congr (fun j j0 j1 => ?_) i
    have := ker _ hd j j0 j1
    rw [mult_sub] at this
    exact sub_eq_zero.1 this
  · intro rhs
    constructor
    · rintro ⟨φ, hφ⟩
      rw [← Finset.sum_congr rfl fun (i : ℕ) hi => hφ i (by omega) (by have := Finset.mem_range.1 hi; omega)]
      simp only [hM]
      exact divergence_sum C hn hT hi hD _
    · intro hsum
      let M : Matrix (Fin L.pN) (Fin L.pN) K := fun i j => ops.DBNG i j
      have ext : ∀ v : Fin L.pN → K, ∃ w : ℤ → K, ∀ i : Fin L.pN, w i = v i := fun v =>
        ⟨fun i => if h : 0 ≤ i ∧ i.toNat < L.pN then v ⟨i.toNat, h.2⟩ else 0, fun i => by
          beta_reduce; rw [dif_pos ⟨by omega, by have := i.2; omega⟩]; congr 1⟩
      have hmul : ∀ (w : ℤ → K) (v : Fin L.pN → K), (∀ i : Fin L.pN, w i = v i) → ∀ i : Fin L.pN, Mat.mult L.pN ops.DBNG w i = M.mulVec v i := by
        intro w v hw i
        unfold Mat.mult
        rw [Finset.sum_range]
        simp only [Matrix.mulVec, dotProduct, M, hw]
      have hcol : ∀ j, ∑ i, M i j = 0 := by
        intro j
        have h1 : ∀ i : Fin L.pN, M i j = Mat.mult L.pN ops.DBNG (fun k => if k = (j : ℤ) then 1 else 0) i := by
          intro i
          unfold Mat.mult
          rw [Finset.sum_range, Finset.sum_eq_single j]
          · simp [M]
          · intro b _ hb
            beta_reduce
            rw [if_neg (by omega), mul_zero]
          · intro h
            exact absurd (Finset.mem_univ j) h
        simp only [h1, hM]
        rw [← Finset.sum_range fun i : ℕ => Mat.mult L.UN D (Mat.mult L.UN BN (Mat.mult L.pN Gr fun k => if k = (j : ℤ) then 1 else 0)) i]
        exact divergence_sum C hn hT hi hD _
      have hker : ∀ v, M.mulVec v = 0 → ∀ i j, v i = v j := by
        intro v hv i j
        obtain ⟨w, hw⟩ := ext v
        rw [← hw i, ← hw j]
        refine (null w).1 ?_ i j (by omega) (by omega) (by omega) (by omega)
        intro k k0 k1
        have := hmul w v hw ⟨k.toNat, by omega⟩
        simp only [Int.toNat_of_nonneg k0] at this
        rw [this, hv]
        rfl
      obtain ⟨v, hv⟩ := mulVec_surj M hcol hker (r := fun i => rhs i) (by rw [← Finset.sum_range fun i : ℕ => rhs i]; exact hsum)
      obtain ⟨w, hw⟩ := ext v
      refine ⟨w, fun k k0 k1 => ?_⟩
      have := hmul w v hw ⟨k.toNat, by omega⟩
      simp only [Int.toNat_of_nonneg k0] at this
      rw [this, hv]
      simp only [Int.toNat_of_nonneg k0]

/-- C62. If all walls prescribe their normal velocity, the sum of the right-hand side of the Poisson system (before the pinning) is in
every step and for every intermediate velocity the flux out of the domain that the walls prescribe. Missing: periodic directions
with one cell. -/
theorem C62_total_flux_partial (S : Started debug L G axes T B P flow ops disk s disk') (h0 : x 0 = s)
    (hx : Trajectory L G P ops vSolve pSolve x n) (hn : ∀ f, f < L.dim → L.periodic 0 f = true → 2 ≤ L.n f f)
    (hT : NormalVelocityGiven L.toMeshInfo T) (rhs1 : ℤ → K) (s' : NSState K) (h : assembleRHSVelocity L G P ops (x n) = .ok (rhs1, s')) (U : ℤ → K) :
    ∑ i ∈ Finset.range L.pN, assembleRHSPoisson L { ops with isRefP := false } { s' with U := U } i = boundaryFlux L.toMeshInfo G T := by
  obtain ⟨u, hops, R⟩ := S.reach_at h0 hx
  obtain ⟨w, loc, h1, h2⟩ := assembleRHS_eq S.constructed S.schemes.1.1 S.schemes.2.1 ops (R n le_rfl)
  rw [h2] at h
  cases h
  obtain ⟨D, Dm, Gr, La, Lm, BN, o1, o2, o3, o4, rfl⟩ := createOperators_ok hops
  obtain ⟨h, hB, -⟩ := (R n le_rfl).hist
  rw [← poisson_total S.constructed hn hT (h' := h ++ [.updateEqs (x n).U P.dt]) ⟨u, [], rfl⟩ o1 U]
  refine Finset.sum_congr rfl fun i hi => ?_
  have := Finset.mem_range.1 hi
  have hBe : (fun r => (B r).run ([.setGhostICs u] ++ (h ++ [.updateEqs (x n).U P.dt]))) = fun r => ((x n).B r).updateEqs (x n).U P.dt := by
    funext r
    simp only [hB, Boundary.run, List.foldl_append]
    rfl
  rw [hBe]
  unfold assembleRHSPoisson
  simp only [Bool.false_eq_true, if_false]
  rw [vec, if_pos (by omega)]

/-- C62. So if all walls prescribe their normal velocity and the prescribed fluxes cancel, linear solvers that find solutions where
there are any never fail: the run goes on for ever, and the velocity is divergence free in every cell after every step. Missing: as in
`C62_poisson_system_partial`. -/
theorem C62_runs_partial (S : Started debug L G axes T B P flow ops disk s disk')
    (hn : ∀ f d, f < L.dim → d < L.dim → L.periodic 0 d = true → 2 ≤ L.n f d) (hT : NormalVelocityGiven L.toMeshInfo T)
    (hflux : boundaryFlux L.toMeshInfo G T = 0) (hBN : GoodOrder L P ops.A) (hp : P.pType = .ksp) (hdt : 0 < P.dt) (hnu : 0 ≤ P.nu)
    (hv : Finds L.UN vSolve ops.A) (hf : Finds L.pN pSolve ops.DBNG) (hs : Solves L.pN pSolve ops.DBNG) :
    ∃ x, x 0 = s ∧ (∀ n, Trajectory L G P ops vSolve pSolve x n) ∧
      ∀ k V, 1 ≤ k → Filled debug L (x k).B (x k).U V → ∀ c, Inside L.toMeshInfo 3 c → netFlux L.dim G c V = 0 := by
  have hn2 : ∀ f, f < L.dim → L.periodic 0 f = true → 2 ≤ L.n f f := fun f hf hp => by have := hn f f hf hf hp; omega
  have hT' : ∀ f loc, f < L.dim → loc / 2 = f → (T f loc).1 ≠ .NEUMANN := by
    intro f loc hf hl
    rcases hT f loc hf hl with h | h <;> rw [h] <;> simp
  have href : ops.isRefP = false := by
    obtain ⟨u, hops, _⟩ := S.reach
    obtain ⟨D, Dm, Gr, La, Lm, BN, o1, o2, o3, o4, rfl⟩ := createOperators_ok hops
    simp [setNullSpace, hp]
  let next : NSState K → NSState K := fun s => match advance L G P ops vSolve pSolve s with
    | .ok s' => s'
    | .error _ => s
  have hx : ∀ n, Trajectory L G P ops vSolve pSolve (fun n => next^[n] s) n := by
    intro n
    induction n with
    | zero => intro k hk; omega
    | succ n ih =>
      intro k hk
      by_cases hkn : k < n
      · exact ih k hkn
      · have : k = n := by omega
        subst this
        simp only [Function.iterate_succ_apply']
        cases h : advance L G P ops vSolve pSolve (next^[k] s) with
        | ok s' => simp only [next, h]
        | error e =>
          exfalso
          obtain ⟨u, _, R⟩ := S.reach_at (x := fun n => next^[n] s) rfl ih
          obtain ⟨w, hw, _, loc, _, he⟩ := advance_eq S.constructed S.schemes.1.1 S.schemes.2.1 ops vSolve pSolve (R k le_rfl)
          obtain ⟨w', loc', hw', ha⟩ := assembleRHS_eq S.constructed S.schemes.1.1 S.schemes.2.1 ops (R k le_rfl)
          rw [hw] at hw'
          cases hw'
          rw [h] at he
          obtain ⟨y, hy, _⟩ := C61_velocity_system_partial S hn hdt hnu (momentumRhs L P ops (next^[k] s)
            (pushTerm (next^[k] s).conv fun i => -1 * w i) (pushTerm (next^[k] s).diff (diffTerm L P.nu ops (next^[k] s))))
          obtain ⟨U, hU, _⟩ := hv (next^[k] s).U _ ⟨y, hy⟩
          rw [hU] at he
          have htot := C62_total_flux_partial S (x := fun n => next^[n] s) rfl ih hn2 hT _ _ ha (vec L.UN U)
          rw [hflux] at htot
          obtain ⟨φ, hφ⟩ := ((C62_poisson_system_partial S hn2 hT' hBN hp hdt.ne').2.2
            (poissonRhs L ops (fun r => ((next^[k] s).B r).updateEqs (next^[k] s).U P.dt) (vec L.UN U))).2 (by
              rw [← htot]
              refine Finset.sum_congr rfl fun i _ => ?_
              unfold poissonRhs assembleRHSPoisson
              rw [href])
          obtain ⟨dP, hdP, _⟩ := hf (next^[k] s).dP _ ⟨φ, hφ⟩
          simp only [Except.bind, hdP] at he
          cases he
  refine ⟨fun n => next^[n] s, rfl, hx, ?_⟩
  intro k V hk hV c hc
  obtain ⟨k, rfl⟩ : ∃ k', k = k' + 1 := ⟨k - 1, by omega⟩
  exact C42_divergence_free_partial S (x := fun n => next^[n] s) rfl (hx (k + 1)) hn2 hp hs k (by omega) V hV c hc

/-- The hypotheses hold for the example with exact solvers. -/
theorem exampleExact (disk : Disk ℚ) : ∃ ops s disk' x, Started true (exampleWalls 2 1) exampleWallsGeom exampleAxes unitWalls
    (boundaries true (exampleWalls 2 1) exampleWallsGeom unitWalls) (exampleParams .ksp) (some exampleFlow) ops disk s disk' ∧
    x 0 = s ∧ (∀ n, Trajectory (exampleWalls 2 1) exampleWallsGeom (exampleParams .ksp) ops
      (exactSolve (exampleWalls 2 1).UN) (exactSolve (exampleWalls 2 1).pN) x n) ∧
    ∀ k V, 1 ≤ k → Filled true (exampleWalls 2 1) (x k).B (x k).U V → ∀ c, Inside (exampleWalls 2 1).toMeshInfo 3 c →
      netFlux (exampleWalls 2 1).dim exampleWallsGeom c V = 0 := by
  obtain ⟨ops, s, disk', S⟩ := exampleStarted .ksp disk
  have hflux : boundaryFlux (exampleWalls 2 1).toMeshInfo exampleWallsGeom unitWalls = 0 := by
    unfold boundaryFlux
    refine Finset.sum_eq_zero fun f _ => ?_
    simp [unitWalls]
  obtain ⟨x, h⟩ := C62_runs_partial S (vSolve := exactSolve (exampleWalls 2 1).UN) (pSolve := exactSolve (exampleWalls 2 1).pN)
    (by intro f d _ hd h; cases h) (fun _ _ _ _ => Or.inl rfl) hflux (Or.inl rfl) rfl (by norm_num [exampleParams]) (by norm_num [exampleParams])
    (exactSolve_finds _ _) (exactSolve_finds _ _) (exactSolve_solves _ _)
  exact ⟨ops, s, disk', x, S, h⟩

/-- Hypotheses of C42 and C59 for this run: exact solvers, and a point that sees its walls, with the fields of its levels. -/
example (disk : Disk ℚ) : ∃ ops s disk' x, Started true (exampleWalls 2 1) exampleWallsGeom exampleAxes unitWalls
    (boundaries true (exampleWalls 2 1) exampleWallsGeom unitWalls) (exampleParams .ksp) (some exampleFlow) ops disk s disk' ∧
    x 0 = s ∧ (∀ n, Trajectory (exampleWalls 2 1) exampleWallsGeom (exampleParams .ksp) ops
      (exactSolve (exampleWalls 2 1).UN) (exactSolve (exampleWalls 2 1).pN) x n) ∧
    Solves (exampleWalls 2 1).UN (exactSolve (exampleWalls 2 1).UN) ops.A ∧ Solves (exampleWalls 2 1).pN (exactSolve (exampleWalls 2 1).pN) ops.DBNG ∧
    (∀ k, ∃ V, Filled true (exampleWalls 2 1) (x k).B (x k).U V) ∧
    (∀ k q, ∃ W, Extended true (exampleWalls 2 1) (fun r => ((x k).B r).updateEqs (x k).U (exampleParams .ksp).dt) q W) ∧
    IsUnknown (exampleWalls 2 1) ⟨1, 1, 2, 0, 0⟩ ∧ KnowsWalls (exampleWalls 2 1) unitWalls 1 1 ⟨0, 0, 2, 0⟩ := by
  obtain ⟨ops, s, disk', x, S, h0, hx, _⟩ := exampleExact disk
  have C := S.constructed
  refine ⟨ops, s, disk', x, S, h0, hx, exactSolve_solves _ _, exactSolve_solves _ _, fun k => ?_, fun k q => ?_, by unfold IsUnknown Owns; decide, ?_⟩
  · obtain ⟨u, _, R⟩ := S.reach_at h0 (hx k)
    obtain ⟨h, hB, _⟩ := (R k le_rfl).hist
    rw [hB]
    exact exists_filled C.setup C.part (C.ghosts _) _
  · obtain ⟨u, _, R⟩ := S.reach_at h0 (hx k)
    obtain ⟨h, hB, _⟩ := (R k le_rfl).hist
    have hBe : (fun r => ((x k).B r).updateEqs (x k).U (exampleParams .ksp).dt) = fun r =>
        (boundaries true (exampleWalls 2 1) exampleWallsGeom unitWalls r).run ([.setGhostICs u] ++ (h ++ [.updateEqs (x k).U (exampleParams .ksp).dt])) := by
      funext r
      simp only [hB, Boundary.run, List.foldl_append]
      rfl
    rw [hBe]
    exact exists_extended C.setup.layout (C.ghosts _) _
  · apply SeesWalls.knows
    intro d hd hne _ _ y hy
    have : d = 0 := by change d < 2 at hd; omega
    subst this
    rcases hy with rfl | rfl
    · exact ⟨⟨1, 0, 1, 0, 0⟩, by unfold IsUnknown Owns; decide, rfl, rfl, rfl⟩
    · exact ⟨⟨1, 0, 1, 1, 0⟩, by unfold IsUnknown Owns; decide, rfl, rfl, rfl⟩

/-! ### C43 -/

/-- Solutions of the system with pinned row and column. -/
theorem pinned_rows {N : ℕ} (hN : 0 < N) {M : Mat K} {rhs φ : ℤ → K} (h : IsSolution N (Mat.zeroRowColumn M 0 1) (Function.update rhs 0 0) φ) :
    φ 0 = 0 ∧ ∀ i : ℤ, 1 ≤ i → i < N → Mat.mult N M φ i = rhs i := by
  have h0 : φ 0 = 0 := by
    have := h 0 le_rfl (by omega)
    rw [Function.update_self] at this
    unfold Mat.mult at this
    rw [Finset.sum_eq_single 0] at this
    · simpa [Mat.zeroRowColumn] using this
    · intro b _ hb
      unfold Mat.zeroRowColumn
      rw [if_neg (by simp [hb]), if_pos (Or.inl rfl), zero_mul]
    · intro h; exact absurd (Finset.mem_range.2 hN) h
  refine ⟨h0, fun i i0 i1 => ?_⟩
  have := h i (by omega) i1
  rw [Function.update_of_ne (by omega)] at this
  rw [← this]
  unfold Mat.mult
  refine Finset.sum_congr rfl fun c _ => ?_
  unfold Mat.zeroRowColumn
  by_cases hc : (c : ℤ) = 0
  · rw [hc, h0, mul_zero, mul_zero]
  · rw [if_neg (by omega), if_neg (by omega)]

/-- C43. With the pinned system (GPU solver), any order of the approximate inverse and an exact solver, the pressure of the first cell
never changes, and after a step the net flux is zero in every other cell; in the first cell it is the flux that the walls
prescribe. So the velocity is divergence free in every cell exactly if the prescribed fluxes cancel. Missing: walls that do
not prescribe the normal velocity (for NEUMANN see below), periodic directions with one cell. -/
theorem C43_pinned_divergence_partial (S : Started debug L G axes T B P flow ops disk s disk') (h0 : x 0 = s)
    (hx : Trajectory L G P ops vSolve pSolve x n) (hn : ∀ f, f < L.dim → L.periodic 0 f = true → 2 ≤ L.n f f) (hp : P.pType = .amgx)
    (hT : NormalVelocityGiven L.toMeshInfo T) (exact : Solves L.pN pSolve ops.DBNG) (k : ℕ) (hk : k < n) :
    (x (k + 1)).p 0 = (x k).p 0 ∧
    ∀ V, Filled debug L (x (k + 1)).B (x (k + 1)).U V → ∀ (c : Stencil) (idx : ℤ), Inside L.toMeshInfo 3 c →
      L.getPackedGlobalIndex debug 3 c = .ok idx → netFlux L.dim G c V = if idx = 0 then boundaryFlux L.toMeshInfo G T else 0 := by
  have C := S.constructed
  have hL := C.setup.layout
  have hT' : ∀ f loc, f < L.dim → loc / 2 = f → (T f loc).1 ≠ .NEUMANN := by
    intro f loc hf hl
    rcases hT f loc hf hl with h | h <;> rw [h] <;> simp
  obtain ⟨u, hops, R⟩ := S.reach_at h0 hx
  obtain ⟨w, U, dP, h1, h2, h3, h4, h5, h6, h7, h8, h9, _⟩ :=
    advance_ok C S.schemes.1.1 S.schemes.2.1 (R k hk.le) (hx k hk)
  obtain ⟨D, Dm, Gr, La, Lm, BN, o1, o2, o3, o4, rfl⟩ := createOperators_ok hops
  obtain ⟨h, hB, -⟩ := (R k hk.le).hist
  have hsol := exact _ _ _ h3
  have hBe : (fun r => (B r).run ([.setGhostICs u] ++ (h ++ [.updateEqs (x k).U P.dt]))) = fun r => ((x k).B r).updateEqs (x k).U P.dt := by
    funext r
    simp only [hB, Boundary.run, List.foldl_append]
    rfl
  simp only [poissonRhs, setNullSpace, hp, if_true] at hsol
  -- the flux of the new velocity
  have net : ∀ V, Filled debug L (x (k + 1)).B (x (k + 1)).U V → ∀ c, Inside L.toMeshInfo 3 c →
      netFlux L.dim G c V = Mat.mult L.UN D (vec L.UN U) (col L 3 c) + correctionMult L (fun r => ((x k).B r).updateEqs (x k).U P.dt) Dm (col L 3 c) -
        Mat.mult L.pN (Mat.mul L.UN D (Mat.mul L.UN BN Gr)) dP (col L 3 c) := by
    intro V hV c hc
    obtain ⟨D', Dm', e, net⟩ := C21_divergence_is_net_flux_partial C hn [.setGhostICs u] ⟨u, [], rfl⟩
    rw [o1] at e
    cases e
    have hB' : (x (k + 1)).B = fun r => (B r).run (([.setGhostICs u] ++ (h ++ [.updateEqs (x k).U P.dt])) ++ [.updateGhostValues (x (k + 1)).U]) := by
      rw [h9]
      funext r
      simp only [hB, Boundary.run, List.foldl_append]
      rfl
    rw [hB'] at hV
    have hE := filled_extended C _ hV
    rw [← net (h ++ [.updateEqs (x k).U P.dt]) _ V hE c _ hc (col_inside hL (Or.inr rfl) debug hc).1, hBe, h4]
    unfold projected
    simp only
    rw [mult_sub, mult_vec (x := Mat.mult L.pN (Mat.mul L.UN BN Gr) (vec L.pN dP)), mult_mul,
      show Mat.mult L.pN (Mat.mul L.UN BN Gr) (vec L.pN dP) = Mat.mult L.pN (Mat.mul L.UN BN Gr) dP from funext fun j => mult_vec _ _ _ _]
    ring
  by_cases hN : 0 < L.pN
  · obtain ⟨p0, rows⟩ := pinned_rows hN hsol
    refine ⟨?_, ?_⟩
    · rw [h5]
      simp only [vec]
      rw [if_pos ⟨le_rfl, by omega⟩, p0]
      ring
    · intro V hV c idx hc hidx
      have hr := (col_inside hL (Or.inr rfl) debug hc)
      rw [hr.1] at hidx
      cases hidx
      have hr : 0 ≤ col L 3 c ∧ col L 3 c < (L.pN : ℤ) := hr.2
      rw [net V hV c hc]
      by_cases hz : col L 3 c = 0
      · rw [if_pos hz, hz]
        have tot := poisson_total C hn hT (h' := h ++ [.updateEqs (x k).U P.dt]) ⟨u, [], rfl⟩ o1 (vec L.UN U)
        rw [hBe] at tot
        have zero := divergence_sum C hn hT' ⟨u, [], rfl⟩ o1 (Mat.mult L.pN (Mat.mul L.UN BN Gr) dP)
        obtain ⟨N, hN'⟩ : ∃ N, L.pN = N + 1 := ⟨L.pN - 1, by omega⟩
        rw [hN', Finset.sum_range_succ'] at tot zero
        have e : ∀ i ∈ Finset.range N, Mat.mult L.UN D (Mat.mult L.pN (Mat.mul L.UN BN Gr) dP) ((i + 1 : ℕ) : ℤ) =
            Mat.mult L.UN D (vec L.UN U) ((i + 1 : ℕ) : ℤ) + correctionMult L (fun r => ((x k).B r).updateEqs (x k).U P.dt) Dm ((i + 1 : ℕ) : ℤ) := by
          intro i hi
          have := Finset.mem_range.1 hi
          have hrow := rows ((i + 1 : ℕ) : ℤ) (by omega) (by omega)
          rw [vec, if_pos (by omega), mult_mul] at hrow
          exact hrow
        rw [← hN', Finset.sum_congr rfl e] at zero
        rw [mult_mul]
        simp only [Nat.cast_zero] at tot zero
        linear_combination tot - zero
      · rw [if_neg hz, rows _ (by omega) hr.2, vec, if_pos hr, sub_self]
  · refine ⟨?_, ?_⟩
    · rw [h5]
      simp only [vec]
      rw [if_neg (by omega)]
      ring
    · intro V hV c idx hc _
      have : 0 ≤ col L 3 c ∧ col L 3 c < (L.pN : ℤ) := (col_inside hL (Or.inr rfl) debug hc).2
      omega

/-- C43. With an approximate inverse of a good order the pinned system has exactly one solution; if the unpinned system has one, the
pinned solution also solves it and gives the same velocity correction as every solution of the unpinned system. Missing: as in
`C62_poisson_system_partial`; NEUMANN conditions for normal components are below. -/
theorem C43_same_velocity_partial (S : Started debug L G axes T B P flow ops disk s disk')
    (hn : ∀ f, f < L.dim → L.periodic 0 f = true → 2 ≤ L.n f f) (hT : ∀ f loc, f < L.dim → loc / 2 = f → (T f loc).1 ≠ .NEUMANN)
    (hBN : GoodOrder L P ops.A) (hp : P.pType = .ksp) (hdt : P.dt ≠ 0) (rhs : ℤ → K) :
    (∃ φ, IsSolution L.pN (setNullSpace .amgx ops.DBNG).1 (Function.update rhs 0 0) φ ∧
      ∀ φ', IsSolution L.pN (setNullSpace .amgx ops.DBNG).1 (Function.update rhs 0 0) φ' → ∀ i : ℤ, 0 ≤ i → i < L.pN → φ' i = φ i) ∧
    ∀ φ ψ, IsSolution L.pN (setNullSpace .amgx ops.DBNG).1 (Function.update rhs 0 0) φ → IsSolution L.pN ops.DBNG rhs ψ →
      IsSolution L.pN ops.DBNG rhs φ ∧ ∀ i : ℤ, 0 ≤ i → i < L.UN → Mat.mult L.pN ops.BNG φ i = Mat.mult L.pN ops.BNG ψ i := by
  have C := S.constructed
  obtain ⟨a1, a2, a3⟩ := C62_poisson_system_partial S hn hT hBN hp hdt
  have solves : ∀ rhs φ, ∑ i ∈ Finset.range L.pN, rhs i = 0 → IsSolution L.pN (setNullSpace .amgx ops.DBNG).1 (Function.update rhs 0 0) φ →
      IsSolution L.pN ops.DBNG rhs φ := by
    intro rhs φ hsum hφ
    rcases Nat.eq_zero_or_pos L.pN with hN | hN
    · intro i i0 i1; omega
    obtain ⟨_, rows⟩ := pinned_rows hN hφ
    have hz := (a3 (Mat.mult L.pN ops.DBNG φ)).1 ⟨φ, fun _ _ _ => rfl⟩
    intro i i0 i1
    rcases eq_or_lt_of_le i0 with rfl | i0
    · obtain ⟨N, hN'⟩ : ∃ N, L.pN = N + 1 := ⟨L.pN - 1, by omega⟩
      rw [hN', Finset.sum_range_succ'] at hz hsum
      have e : ∀ i ∈ Finset.range N, Mat.mult (N + 1) ops.DBNG φ ((i + 1 : ℕ) : ℤ) = rhs ((i + 1 : ℕ) : ℤ) := by
        intro i hi
        have := Finset.mem_range.1 hi
        rw [← hN']
        exact rows _ (by omega) (by omega)
      rw [Finset.sum_congr rfl e] at hz
      rw [hN']
      simp only [Nat.cast_zero] at hz hsum
      linear_combination hz - hsum
    · exact rows i (by omega) i1
  constructor
  · refine unique_solution (fun v hv i hi => ?_) _
    have hv' : IsSolution L.pN (setNullSpace .amgx ops.DBNG).1 (Function.update (fun _ => 0) 0 0) v := by
      intro j j0 j1
      have := hv j.toNat (by omega)
      rw [Int.toNat_of_nonneg j0] at this
      rw [this]
      simp
    have h1 := (a1 v).1 (solves _ _ (by simp) hv') i 0 (by omega) (by omega) le_rfl (by omega)
    rw [h1]
    exact (pinned_rows (by omega) hv').1
  · intro φ ψ hφ hψ
    have := solves rhs φ ((a3 rhs).1 ⟨ψ, hψ⟩) hφ
    exact ⟨this, a2 rhs φ ψ this hψ⟩

/-- The same configuration with the unpinned system. -/
theorem Spec.Started.unpinned (S : Started debug L G axes T B P flow ops disk s disk') :
    ∃ ops', Started debug L G axes T B { P with pType := .ksp } flow ops' disk s disk' ∧
      ops'.A = ops.A ∧ (P.pType = .amgx → ops.DBNG = (setNullSpace .amgx ops'.DBNG).1) := by
  obtain ⟨a, o, node, hP⟩ := S.params
  obtain ⟨s₀, h1, h2⟩ := S.init
  obtain ⟨U, p, hU, ho, rfl⟩ := solverInit_ok h1
  obtain ⟨D, Dm, Gr, La, Lm, BN, o1, o2, o3, o4, rfl⟩ := createOperators_ok ho
  refine ⟨{ pN := L.pN, D := D, Dmods := Dm, G := Gr, L := La, Lmods := Lm, A := Mat.shift (Mat.scale La (-P.diff.implicitCoeff * P.nu)) (1 / P.dt),
            BNG := Mat.mul L.UN BN Gr, DBNG := Mat.mul L.UN D (Mat.mul L.UN BN Gr), isRefP := false }, ⟨S.constructed, ?_, ?_⟩, rfl, ?_⟩
  · obtain ⟨node, n1, h⟩ := bind_ok hP
    obtain ⟨dt, n2, h⟩ := bind_ok h
    obtain ⟨nt, n3, h⟩ := bind_ok h
    obtain ⟨nsave, n4, h⟩ := bind_ok h
    obtain ⟨nrestart, n5, h⟩ := bind_ok h
    obtain ⟨nu, n6, h⟩ := bind_ok h
    obtain ⟨conv, n7, h⟩ := bind_ok h
    obtain ⟨diff, n8, h⟩ := bind_ok h
    obtain ⟨v, n9, h⟩ := bind_ok h
    obtain ⟨p, n10, h⟩ := bind_ok h
    cases h
    refine ⟨a, o, some { node with poissonSolver := none }, ?_⟩
    unfold readParams
    simp only [required, bind, Except.bind] at *
    simp only [n2, n3, n4, n5, n6, n7, n8, n9]
    rfl
  · refine ⟨_, ?_, h2⟩
    unfold solverInit
    have e : createOperators debug L G { P with pType := .ksp } (fun r => (B r).setGhostICs U) = .ok
        { pN := L.pN, D := D, Dmods := Dm, G := Gr, L := La, Lmods := Lm, A := Mat.shift (Mat.scale La (-P.diff.implicitCoeff * P.nu)) (1 / P.dt),
          BNG := Mat.mul L.UN BN Gr, DBNG := Mat.mul L.UN D (Mat.mul L.UN BN Gr), isRefP := false } := by
      have o1 : createDivergence debug L G false (fun r => (B r).setGhostICs U) = .ok (D, Dm) := o1
      have o3 : createLaplacian debug L G (fun r => (B r).setGhostICs U) = .ok (La, Lm) := o3
      unfold createOperators
      simp only [bind, Except.bind, o1, o2, o3, o4]
      rfl
    rw [hU]
    simp only [bind, Except.bind, e]
    rfl
  · intro hp
    simp [hp, setNullSpace]

/-- C43. The pinned system of a solver with an approximate inverse of a good order has exactly one solution for every right-hand side.
Missing: as above. -/
theorem C43_pinned_system_partial (S : Started debug L G axes T B P flow ops disk s disk')
    (hn : ∀ f, f < L.dim → L.periodic 0 f = true → 2 ≤ L.n f f) (hT : ∀ f loc, f < L.dim → loc / 2 = f → (T f loc).1 ≠ .NEUMANN)
    (hBN : GoodOrder L P ops.A) (hp : P.pType = .amgx) (hdt : P.dt ≠ 0) (rhs : ℤ → K) :
    ∃ φ, IsSolution L.pN ops.DBNG rhs φ ∧ ∀ ψ, IsSolution L.pN ops.DBNG rhs ψ → ∀ i : ℤ, 0 ≤ i → i < L.pN → ψ i = φ i := by
  obtain ⟨ops', S', eA, e⟩ := S.unpinned
  rw [e hp]
  refine unique_solution (fun v hv i hi => ?_) rhs
  obtain ⟨⟨φ, h1, h2⟩, _⟩ := C43_same_velocity_partial S' hn hT (by rw [eA]; exact hBN) rfl hdt fun _ => 0
  have zero : IsSolution L.pN (setNullSpace .amgx ops'.DBNG).1 (Function.update (fun _ => 0) 0 0) fun _ => 0 := by
    intro j _ _
    simp [Mat.mult]
  have hv' : IsSolution L.pN (setNullSpace .amgx ops'.DBNG).1 (Function.update (fun _ => 0) 0 0) v := by
    intro j j0 j1
    have := hv j.toNat (by omega)
    rw [Int.toNat_of_nonneg j0] at this
    rw [this]
    simp
  rw [h2 v hv' i (by omega) (by omega), ← h2 _ zero i (by omega) (by omega)]

/-- The example with the pinned system and exact solvers. -/
example (disk : Disk ℚ) : ∃ ops s disk' x, Started true (exampleWalls 2 1) exampleWallsGeom exampleAxes unitWalls
    (boundaries true (exampleWalls 2 1) exampleWallsGeom unitWalls) (exampleParams .amgx) (some exampleFlow) ops disk s disk' ∧
    x 0 = s ∧ (∀ n, Trajectory (exampleWalls 2 1) exampleWallsGeom (exampleParams .amgx) ops
      (exactSolve (exampleWalls 2 1).UN) (exactSolve (exampleWalls 2 1).pN) x n) ∧
    NormalVelocityGiven (exampleWalls 2 1).toMeshInfo unitWalls ∧ Solves (exampleWalls 2 1).pN (exactSolve (exampleWalls 2 1).pN) ops.DBNG := by
  obtain ⟨ops, s, disk', S⟩ := exampleStarted .amgx disk
  obtain ⟨x, h0, hx⟩ := C60_runs S (vSolve := exactSolve (exampleWalls 2 1).UN) (pSolve := exactSolve (exampleWalls 2 1).pN)
    (fun guess rhs => by
      obtain ⟨y, hy, _⟩ := C61_velocity_system_partial S (by intro f d _ hd h; cases h) (by norm_num [exampleParams]) (by norm_num [exampleParams]) rhs
      obtain ⟨z, hz, _⟩ := exactSolve_finds _ _ guess rhs ⟨y, hy⟩
      exact ⟨z, hz⟩)
    (fun guess rhs => by
      obtain ⟨y, hy, _⟩ := C43_pinned_system_partial S (by intro f _ h; cases h) (by intro f loc _ _; simp [unitWalls]) (Or.inl rfl) rfl
        (by norm_num [exampleParams]) rhs
      obtain ⟨z, hz, _⟩ := exactSolve_finds _ _ guess rhs ⟨y, hy⟩
      exact ⟨z, hz⟩)
  exact ⟨ops, s, disk', x, S, h0, hx, fun _ _ _ _ => Or.inl rfl, exactSolve_solves _ _⟩

/-- Outflow on the right, walls elsewhere. -/
def outflowTable : BCTable ℚ := fun f b => if f = 0 ∧ b = 1 then (.NEUMANN, 0) else (.DIRICHLET, 0)

abbrev twoByTwo : Layout := meshLayout 2 twoAxes (fun _ _ => false) fun _ => 1

theorem outflow_constructed : Constructed true twoByTwo (meshGeom 2 twoAxes fun _ _ => false) twoAxes outflowTable
    (boundaries true twoByTwo (meshGeom 2 twoAxes fun _ _ => false) outflowTable) := by
  apply constructed_boundaries
  apply C57_construction true (Or.inl rfl) _ (fun _ _ _ _ => rfl) (fun _ _ => by decide)
  · intro f d hf hd
    rcases hf with hf | rfl
    · interval_cases d <;> interval_cases f <;> decide
    · interval_cases d <;> decide
  · intro f loc _ _; unfold outflowTable; split_ifs <;> simp
  · intro f loc _ _; unfold outflowTable; split_ifs <;> simp
  · intro d _
    exact ⟨by simp [twoAxes], by simp [twoAxes], by norm_num [twoAxes]⟩

/-- C43 is false if a wall has a NEUMANN condition for its normal component: the rows of the cells at this wall do not see the other
cells, so the unpinned system determines the pressure there up to a constant of its own, and a solution of the pinned system
(here for zero right-hand side, for which the unpinned system is solvable) need not solve the unpinned system: the projected
velocity is not divergence free in the first cell. -/
theorem C43_false_neumann : ∃ (L : Layout) (G : Geom ℚ) (axes : ℕ → Axis ℚ) (T : BCTable ℚ) (B : ℕ → Boundary ℚ) (D Gr : Mat ℚ) (Dm : Modifiers ℚ)
    (φ : ℤ → ℚ), Constructed true L G axes T B ∧ createDivergence true L G false (fun r => (B r).run [.setGhostICs fun _ => 0]) = .ok (D, Dm) ∧
    createGradient true L G false = .ok Gr ∧
    IsSolution L.pN (setNullSpace .amgx (Mat.mul L.UN D Gr)).1 (Function.update (fun _ => 0) 0 0) φ ∧
    IsSolution L.pN (Mat.mul L.UN D Gr) (fun _ => 0) (fun _ => 0) ∧ Mat.mult L.UN D (Mat.mult L.pN Gr φ) 0 ≠ 0 := by
  refine ⟨_, _, _, _, _, _, _, _, fun i => if i = 1 ∨ i = 3 then 3 else if i = 2 then 2 else 0, outflow_constructed, rfl, rfl, ?_, ?_, ?_⟩
  · intro i i0 i1
    have : i < 4 := i1
    interval_cases i <;> decide +kernel
  · intro i i0 i1
    simp [Mat.mult]
  · decide +kernel

/-- C62 is false if a wall has a NEUMANN condition for its normal component: a right-hand side that sums to zero need not have a
solution, because the rows of the cells at this wall do not see the other cells. -/
theorem C62_false_neumann : ∃ (L : Layout) (G : Geom ℚ) (axes : ℕ → Axis ℚ) (T : BCTable ℚ) (B : ℕ → Boundary ℚ) (P : NSParams ℚ)
    (flow : Option (FlowNode ℚ)) (ops : NSOps ℚ) (rhs : ℤ → ℚ), Constructed true L G axes T B ∧
    (∃ haveAmgX output node, readParams haveAmgX output node flow = .ok P) ∧ P.BN = 1 ∧ P.pType = .ksp ∧
    createOperators true L G P (fun r => (B r).run [.setGhostICs fun _ => 0]) = .ok ops ∧
    ∑ i ∈ Finset.range L.pN, rhs i = 0 ∧ ∀ φ, ¬ IsSolution L.pN ops.DBNG rhs φ := by
  obtain ⟨ops, hops, a0, a1, a2, a3, b0, b1, b2, b3⟩ : ∃ ops, createOperators true twoByTwo (meshGeom 2 twoAxes fun _ _ => false) oneCellParams
      (fun r => (boundaries true twoByTwo (meshGeom 2 twoAxes fun _ _ => false) outflowTable r).run [.setGhostICs fun _ => 0]) = .ok ops ∧
      ops.DBNG 1 0 = 0 ∧ ops.DBNG 1 1 = -4 / 3 ∧ ops.DBNG 1 2 = 0 ∧ ops.DBNG 1 3 = 4 / 3 ∧
      ops.DBNG 3 0 = 0 ∧ ops.DBNG 3 1 = 4 / 3 ∧ ops.DBNG 3 2 = 0 ∧ ops.DBNG 3 3 = -4 / 3 := by
    refine ⟨_, rfl, ?_⟩
    decide +kernel
  refine ⟨_, _, _, _, _, oneCellParams, some ⟨some 1, some [fun _ _ _ _ _ => 1, fun _ _ _ _ _ => 1], none⟩, ops,
    fun i => if i = 0 then -1 else if i = 1 then 1 else 0, outflow_constructed, ⟨false, "out", some oneCellNode, rfl⟩, rfl, rfl, hops,
    by decide +kernel, ?_⟩
  intro φ h
  have h1 := h 1 (by decide) (by decide)
  have h3 := h 3 (by decide) (by decide)
  rw [show twoByTwo.pN = 4 from rfl] at h1 h3
  simp [Mat.mult, Finset.sum_range_succ, a0, a1, a2, a3, b0, b1, b2, b3] at h1 h3
  linarith

/-- Two cells of width one in both directions. -/
def evenAxes : ℕ → Axis ℚ := fun _ => ⟨0, 2, [1, 1]⟩

def closedTable : BCTable ℚ := fun _ _ => (.DIRICHLET, 0)

theorem even_constructed : Constructed true (meshLayout 2 evenAxes (fun _ _ => false) fun _ => 1) (meshGeom 2 evenAxes fun _ _ => false) evenAxes closedTable
    (boundaries true (meshLayout 2 evenAxes (fun _ _ => false) fun _ => 1) (meshGeom 2 evenAxes fun _ _ => false) closedTable) := by
  apply constructed_boundaries
  apply C57_construction true (Or.inl rfl) _ (fun _ _ _ _ => rfl) (fun _ _ => by decide)
  · intro f d hf hd
    rcases hf with hf | rfl
    · interval_cases d <;> interval_cases f <;> decide
    · interval_cases d <;> decide
  · intro f loc _ _; simp [closedTable]
  · intro f loc _ _; simp [closedTable]
  · intro d _
    exact ⟨by simp [evenAxes], by simp [evenAxes], by norm_num [evenAxes]⟩

/-- C62 is false for the second-order approximate inverse: with viscosity 1/4 and time step 1 a pressure that is not constant is in the
null space of the Poisson matrix of a closed box. -/
theorem C62_false_second_order : ∃ (L : Layout) (G : Geom ℚ) (axes : ℕ → Axis ℚ) (T : BCTable ℚ) (B : ℕ → Boundary ℚ) (P : NSParams ℚ)
    (flow : Option (FlowNode ℚ)) (ops : NSOps ℚ) (φ : ℤ → ℚ), Constructed true L G axes T B ∧
    (∃ haveAmgX output node, readParams haveAmgX output node flow = .ok P) ∧ P.BN = 2 ∧ P.pType = .ksp ∧
    (∀ f loc, f < L.dim → loc / 2 = f → (T f loc).1 ≠ .NEUMANN) ∧ 0 < P.dt ∧
    createOperators true L G P (fun r => (B r).run [.setGhostICs fun _ => 0]) = .ok ops ∧
    IsSolution L.pN ops.DBNG (fun _ => 0) φ ∧ φ 0 ≠ φ 1 ∧ 1 < L.pN := by
  refine ⟨_, _, _, _, _, { oneCellParams with BN := 2, nu := 1 / 4 }, some ⟨some (1 / 4), some [fun _ _ _ _ _ => 1, fun _ _ _ _ _ => 1], none⟩, _,
    fun i => if i = 0 ∨ i = 2 then 1 else -1, even_constructed, ⟨false, "out", some { oneCellNode with BN := some 2 }, rfl⟩, rfl, rfl, ?_, by decide,
    rfl, ?_, by decide, by decide⟩
  · intro f loc _ _
    simp [closedTable]
  · intro i i0 i1
    have : i < 4 := i1
    interval_cases i <;> decide +kernel

end PetIBM
