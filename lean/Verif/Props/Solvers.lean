/-
C107, C108: what the linear solvers may influence.
-/
import Verif.Spec.Solvers
import Verif.Lemmas.Superposition
import Verif.Props.Superposition

set_option linter.unusedSectionVars false

namespace PetIBM

open Spec

variable {K : Type} [Field K] [LinearOrder K] [IsStrictOrderedRing K]
variable {debug : Bool} {L : Layout} {G : Geom K} {axes : ℕ → Axis K} {T : BCTable K} {B : ℕ → Boundary K}
variable {P : NSParams K} {flow : Option (FlowNode K)} {ops : NSOps K} {disk disk' : Disk K} {s : NSState K}

/-! ### C107 -/

/-- gradients of pressures that differ by a constant -/
theorem gradient_equal (S : Started debug L G axes T B P flow ops disk s disk') (hn : ∀ f, f < L.dim → L.periodic 0 f = true → 2 ≤ L.n f f)
    {x y : ℤ → K} (h : ∃ c, ∀ i : ℤ, 0 ≤ i → i < L.pN → y i = x i + c) (i : ℤ) (i0 : 0 ≤ i) (i1 : i < L.UN) :
    Mat.mult L.pN ops.G y i = Mat.mult L.pN ops.G x i ∧ Mat.mult L.pN ops.BNG y i = Mat.mult L.pN ops.BNG x i := by
  obtain ⟨c, hc⟩ := h
  have := mix_correct (a := 1) (b := 0) S hn (x := x) (y := x) (z := y) ⟨c, fun j j0 j1 => by rw [hc j j0 j1]; ring⟩ i i0 i1
  simpa using this

/-- solutions of the velocity system -/
theorem equal_velocity (S : Started debug L G axes T B P flow ops disk s disk')
    (hn : ∀ f d, f < L.dim → d < L.dim → L.periodic 0 d = true → 2 ≤ L.n f d) (hdt : 0 < P.dt) (hnu : 0 ≤ P.nu) {r₁ r₂ U₁ U₂ : ℤ → K}
    (hr : ∀ i : ℤ, 0 ≤ i → i < L.UN → r₂ i = r₁ i) (h1 : IsSolution L.UN ops.A r₁ U₁) (h2 : IsSolution L.UN ops.A r₂ U₂) :
    vec L.UN U₂ = vec L.UN U₁ := by
  obtain ⟨y, -, uniq⟩ := C61_velocity_system_partial S hn hdt hnu r₁
  funext i
  unfold vec
  split_ifs with hi
  · rw [uniq U₁ h1 i hi.1 hi.2, uniq U₂ (fun j j0 j1 => ?_) i hi.1 hi.2]
    rw [h2 j j0 j1, hr j j0 j1]
  · rfl

/-- the right-hand sides of the velocity systems of two states of the same flow -/
theorem equal_rhs (S : Started debug L G axes T B P flow ops disk s disk')
    (hn : ∀ f, f < L.dim → L.periodic 0 f = true → 2 ≤ L.n f f) {s₁ s₂ : NSState K} (hs : EqualFlow L.pN s₁ s₂) {w₁ w₂ : ℤ → K}
    (x1 : convectionMult L G s₁.B (fun _ _ _ => 0) s₁.U (fun _ => 0) = .ok w₁)
    (y1 : convectionMult L G s₂.B (fun _ _ _ => 0) s₂.U (fun _ => 0) = .ok w₂) :
    w₂ = w₁ ∧ diffTerm L P.nu ops s₂ = diffTerm L P.nu ops s₁ ∧ ∀ i : ℤ, 0 ≤ i → i < L.UN →
      momentumRhs L P ops s₂ (pushTerm s₂.conv fun i => -1 * w₂ i) (pushTerm s₂.diff (diffTerm L P.nu ops s₂)) i =
        momentumRhs L P ops s₁ (pushTerm s₁.conv fun i => -1 * w₁ i) (pushTerm s₁.diff (diffTerm L P.nu ops s₁)) i := by
  obtain ⟨e1, e2, e3, e4, e5, e6⟩ := hs
  have pN : ops.pN = L.pN := by
    obtain ⟨u, hops, _⟩ := S.reach
    exact createOperators_pN hops
  have hw : w₂ = w₁ := by
    rw [e1, e5, x1] at y1
    exact (Except.ok.inj y1).symm
  have hdf : diffTerm L P.nu ops s₂ = diffTerm L P.nu ops s₁ := by
    unfold diffTerm
    rw [e1, e5]
  refine ⟨hw, hdf, fun i i0 i1 => ?_⟩
  rw [hdf, hw, e3, e4]
  unfold momentumRhs vec
  rw [e1, e5, if_pos ⟨i0, i1⟩, if_pos ⟨i0, i1⟩, if_pos ⟨i0, i1⟩, pN]
  dsimp only
  rw [(gradient_equal S hn e2 i i0 i1).1]

/-- one step of the same flow, if the intermediate velocities are the same -/
theorem equal_project (S : Started debug L G axes T B P flow ops disk s disk')
    (hn : ∀ f, f < L.dim → L.periodic 0 f = true → 2 ≤ L.n f f) (hdt : 0 < P.dt)
    (hT : ∀ f loc, f < L.dim → loc / 2 = f → (T f loc).1 ≠ .NEUMANN) (hBN : GoodOrder L P ops.A)
    {v₁ p₁ v₂ p₂ : LinSolve K} (hp1 : Solves L.pN p₁ ops.DBNG)
    (hp2 : Solves L.pN p₂ ops.DBNG) {u : ℤ → K} {s₁ s₂ s₁' s₂' : NSState K} (R₁ : Reach L B P ops.pN u s₁) (R₂ : Reach L B P ops.pN u s₂)
    (hs : EqualFlow L.pN s₁ s₂)
    (hv : ∀ r₁ r₂ U₁ U₂, (∀ i : ℤ, 0 ≤ i → i < L.UN → r₂ i = r₁ i) → v₁ ops.A s₁.U r₁ = .ok U₁ → v₂ ops.A s₂.U r₂ = .ok U₂ → vec L.UN U₂ = vec L.UN U₁)
    (a₁ : advance L G P ops v₁ p₁ s₁ = .ok s₁') (a₂ : advance L G P ops v₂ p₂ s₂ = .ok s₂') : EqualFlow L.pN s₁' s₂' := by
  obtain ⟨w₁, U₁, d₁, x1, x2, x3, x4, x5, x6, x7, x8, x9, x10, x11⟩ := advance_ok S.constructed S.schemes.1.1 S.schemes.2.1 R₁ a₁
  obtain ⟨w₂, U₂, d₂, y1, y2, y3, y4, y5, y6, y7, y8, y9, y10, y11⟩ := advance_ok S.constructed S.schemes.1.1 S.schemes.2.1 R₂ a₂
  obtain ⟨hw, hdf, hrhs⟩ := equal_rhs S hn hs x1 y1
  have hU := hv _ _ _ _ hrhs x2 y2
  obtain ⟨e1, e2, e3, e4, e5, e6⟩ := hs
  have pN : ops.pN = L.pN := by
    obtain ⟨u, hops, _⟩ := S.reach
    exact createOperators_pN hops
  rw [hdf, e4] at y8
  rw [hw, e3] at y7
  rw [e1, e5] at y3 y9
  rw [hU] at y3
  have hd : ∃ c, ∀ i : ℤ, 0 ≤ i → i < L.pN → d₂ i = d₁ i + c := by
    have sol1 : IsSolution L.pN ops.DBNG (poissonRhs L ops (fun r => (s₁.B r).updateEqs s₁.U P.dt) (vec L.UN U₁)) d₁ :=
      fun j j0 j1 => hp1 _ _ _ x3 j j0 j1
    have sol2 : IsSolution L.pN ops.DBNG (poissonRhs L ops (fun r => (s₁.B r).updateEqs s₁.U P.dt) (vec L.UN U₁)) d₂ :=
      fun j j0 j1 => hp2 _ _ _ y3 j j0 j1
    cases hp : P.pType with
    | ksp =>
      obtain ⟨k1, -, -⟩ := C62_poisson_system_partial S hn hT hBN hp hdt.ne'
      have k := (k1 (fun j => d₂ j + -1 * d₁ j)).1 fun i i0 i1 => by rw [mult_sub, sol1 i i0 i1, sol2 i i0 i1, sub_self]
      refine ⟨d₂ 0 + -1 * d₁ 0, fun i i0 i1 => ?_⟩
      linear_combination k i 0 i0 i1 le_rfl (by omega)
    | amgx =>
      obtain ⟨y, -, uniq⟩ := C43_pinned_system_partial S hn hT hBN hp hdt.ne' (poissonRhs L ops (fun r => (s₁.B r).updateEqs s₁.U P.dt) (vec L.UN U₁))
      exact ⟨0, fun i i0 i1 => by rw [uniq _ sol2 i i0 i1, ← uniq _ sol1 i i0 i1, add_zero]⟩
  have hvec : ∃ c, ∀ i : ℤ, 0 ≤ i → i < L.pN → vec L.pN d₂ i = vec L.pN d₁ i + c := by
    obtain ⟨c, hc⟩ := hd
    refine ⟨c, fun i i0 i1 => ?_⟩
    unfold vec
    rw [if_pos ⟨i0, i1⟩, if_pos ⟨i0, i1⟩, hc i i0 i1]
  have hvel : s₂'.U = s₁'.U := by
    rw [x4, y4]
    funext i
    unfold projected
    rw [hU, pN]
    congr 2
    rw [vec, vec]
    split_ifs with hi
    · exact (gradient_equal S hn hvec i hi.1 hi.2).2
    · rfl
  refine ⟨hvel, ?_, by rw [x7, y7], by rw [x8, y8], by rw [x9, y9, hvel], by rw [x10, y10, e6.1], by rw [x11, y11, e6.2]⟩
  obtain ⟨c, hc⟩ := e2
  obtain ⟨c', hc'⟩ := hvec
  refine ⟨c + c', fun i i0 i1 => ?_⟩
  rw [x5, y5, pN]
  dsimp only
  rw [hc i i0 i1, hc' i i0 i1]
  ring

theorem equal_step (S : Started debug L G axes T B P flow ops disk s disk')
    (hn : ∀ f d, f < L.dim → d < L.dim → L.periodic 0 d = true → 2 ≤ L.n f d) (hdt : 0 < P.dt) (hnu : 0 ≤ P.nu)
    (hT : ∀ f loc, f < L.dim → loc / 2 = f → (T f loc).1 ≠ .NEUMANN) (hBN : GoodOrder L P ops.A)
    {v₁ p₁ v₂ p₂ : LinSolve K} (hv1 : Solves L.UN v₁ ops.A) (hp1 : Solves L.pN p₁ ops.DBNG) (hv2 : Solves L.UN v₂ ops.A)
    (hp2 : Solves L.pN p₂ ops.DBNG) {u : ℤ → K} {s₁ s₂ s₁' s₂' : NSState K} (R₁ : Reach L B P ops.pN u s₁) (R₂ : Reach L B P ops.pN u s₂)
    (hs : EqualFlow L.pN s₁ s₂) (a₁ : advance L G P ops v₁ p₁ s₁ = .ok s₁') (a₂ : advance L G P ops v₂ p₂ s₂ = .ok s₂') : EqualFlow L.pN s₁' s₂' := by
  refine equal_project S (fun f hf hp => hn f f hf hf hp) hdt hT hBN hp1 hp2 R₁ R₂ hs (fun r₁ r₂ U₁ U₂ hr z1 z2 => ?_) a₁ a₂
  exact equal_velocity S hn hdt hnu hr (fun j j0 j1 => hv1 _ _ _ z1 j j0 j1) (fun j j0 j1 => hv2 _ _ _ z2 j j0 j1)

/-- C107. The flow does not depend on the linear solvers: two runs of one configuration, from the initial conditions or from a file, with solvers
that solve their systems, whatever solutions they choose and whatever initial guess they start from, have the same velocities, ghost points and
explicit terms at every step, and pressures that differ by a constant. Missing: NEUMANN conditions for normal velocities and single cells in
periodic directions, for which the systems may have other solutions (`C62_false_neumann`, `C62_false_single_periodic_cell`). -/
theorem C107_solvers_partial (S : Started debug L G axes T B P flow ops disk s disk')
    (hn : ∀ f d, f < L.dim → d < L.dim → L.periodic 0 d = true → 2 ≤ L.n f d) (hdt : 0 < P.dt) (hnu : 0 ≤ P.nu)
    (hT : ∀ f loc, f < L.dim → loc / 2 = f → (T f loc).1 ≠ .NEUMANN) (hBN : GoodOrder L P ops.A)
    {v₁ p₁ v₂ p₂ : LinSolve K} (hv1 : Solves L.UN v₁ ops.A) (hp1 : Solves L.pN p₁ ops.DBNG) (hv2 : Solves L.UN v₂ ops.A)
    (hp2 : Solves L.pN p₂ ops.DBNG) {x₁ x₂ : ℕ → NSState K} {n : ℕ} (h1 : x₁ 0 = s) (h2 : x₂ 0 = s)
    (t₁ : Trajectory L G P ops v₁ p₁ x₁ n) (t₂ : Trajectory L G P ops v₂ p₂ x₂ n) (k : ℕ) (hk : k ≤ n) : EqualFlow L.pN (x₁ k) (x₂ k) := by
  obtain ⟨u, hops, R⟩ := S.reach
  have all : ∀ k, k ≤ n → Reach L B P ops.pN u (x₁ k) ∧ Reach L B P ops.pN u (x₂ k) ∧ EqualFlow L.pN (x₁ k) (x₂ k) := by
    intro k
    induction k with
    | zero =>
      intro _
      rw [h1, h2]
      exact ⟨R, R, rfl, ⟨0, fun i _ _ => by rw [add_zero]⟩, rfl, rfl, rfl, rfl, rfl⟩
    | succ k ih =>
      intro hk
      obtain ⟨r1, r2, hs⟩ := ih (by omega)
      exact ⟨r1.step S.constructed S.schemes.1.1 S.schemes.2.1 (t₁ k (by omega)), r2.step S.constructed S.schemes.1.1 S.schemes.2.1 (t₂ k (by omega)),
        equal_step S hn hdt hnu hT hBN hv1 hp1 hv2 hp2 r1 r2 hs (t₁ k (by omega)) (t₂ k (by omega))⟩
  exact (all k hk).2.2

/-- C107, types of solvers: a run with the solver of AmgX, whose Poisson system has a pinned cell, and one with the solver of PETSc have the same flow,
if the fluxes through the walls cancel. Missing: as in `C107_solvers_partial` and `C43_same_run_partial`. -/
theorem C107_types_partial {ops₁ ops₂ : NSOps K} {s₁ s₂ : NSState K} {disk₁' disk₂' : Disk K}
    (S₁ : Started debug L G axes T B { P with pType := .amgx } flow ops₁ disk s₁ disk₁')
    (S₂ : Started debug L G axes T B { P with pType := .ksp } flow ops₂ disk s₂ disk₂')
    (hn : ∀ f d, f < L.dim → d < L.dim → L.periodic 0 d = true → 2 ≤ L.n f d) (hdt : 0 < P.dt) (hnu : 0 ≤ P.nu)
    (hT : NormalVelocityGiven L.toMeshInfo T) (hflux : boundaryFlux L.toMeshInfo G T = 0) (hBN : GoodOrder L P ops₂.A)
    {v₁ p₁ v₂ p₂ : LinSolve K} (hv1 : Solves L.UN v₁ ops₁.A) (hp1 : Solves L.pN p₁ ops₁.DBNG) (hv2 : Solves L.UN v₂ ops₂.A)
    (hp2 : Solves L.pN p₂ ops₂.DBNG) {x₁ x₂ : ℕ → NSState K} {n : ℕ} (h1 : x₁ 0 = s₁) (h2 : x₂ 0 = s₂)
    (t₁ : Trajectory L G { P with pType := .amgx } ops₁ v₁ p₁ x₁ n) (t₂ : Trajectory L G { P with pType := .ksp } ops₂ v₂ p₂ x₂ n)
    (k : ℕ) (hk : k ≤ n) : EqualFlow L.pN (x₁ k) (x₂ k) := by
  obtain ⟨o, p, S, eA, -, -, -, hp, t⟩ := C43_same_run_partial S₁ h1 t₁ (fun f hf hper => hn f f hf hf hper) rfl hT hflux hp1
  obtain ⟨z, a1, a2⟩ := S.init
  obtain ⟨z₂, b1, b2⟩ := S₂.init
  have e := a1.symm.trans b1
  cases e
  have e := a2.symm.trans b2
  cases e
  exact C107_solvers_partial S₂ hn hdt hnu (fun f loc hf hl => by rcases hT f loc hf hl with h | h <;> rw [h] <;> simp) hBN (eA ▸ hv1) hp hv2 hp2 h1 h2
    t t₂ k hk

/-! ### C108 -/

/-- a matrix that is diagonally dominant by `c` -/
theorem dominant_bound {N : ℕ} {A : Mat K} {c ε : K} (hc : 0 < c)
    (h : ∀ i : ℕ, i < N → ∑ x ∈ (Finset.range N).filter (fun x : ℕ => x ≠ i), |A i x| + c ≤ |A i i|) {v : ℤ → K}
    (hv : ∀ i : ℕ, i < N → |Mat.mult N A v i| ≤ ε) : ∀ i : ℕ, i < N → c * |v i| ≤ ε := by
  intro i hi
  have hne : (Finset.range N).Nonempty := ⟨i, Finset.mem_range.2 hi⟩
  obtain ⟨m, hm, hmax⟩ := Finset.exists_max_image (Finset.range N) (fun i : ℕ => |v i|) hne
  have hm := Finset.mem_range.1 hm
  have hrow : Mat.mult N A v m = ∑ x ∈ (Finset.range N).filter (fun x : ℕ => x ≠ m), A m x * v x + A m m * v m := by
    unfold Mat.mult
    rw [← Finset.sum_filter_add_sum_filter_not (Finset.range N) (fun x : ℕ => x ≠ m)]
    have e : (Finset.range N).filter (fun x : ℕ => ¬ x ≠ m) = {m} := by
      ext x
      simp only [Finset.mem_filter, Finset.mem_range, not_not, Finset.mem_singleton]
      exact ⟨fun hx => hx.2, fun hx => ⟨by omega, hx⟩⟩
    rw [e, Finset.sum_singleton]
  have off : |∑ x ∈ (Finset.range N).filter (fun x : ℕ => x ≠ m), A m x * v x| ≤
      (∑ x ∈ (Finset.range N).filter (fun x : ℕ => x ≠ m), |A m x|) * |v m| := by
    rw [Finset.sum_mul]
    refine (Finset.abs_sum_le_sum_abs _ _).trans (Finset.sum_le_sum fun x hx => ?_)
    rw [abs_mul]
    exact mul_le_mul_of_nonneg_left (hmax x (Finset.mem_filter.1 hx).1) (abs_nonneg _)
  have dia : |A m m| * |v m| ≤ |Mat.mult N A v m| + |∑ x ∈ (Finset.range N).filter (fun x : ℕ => x ≠ m), A m x * v x| := by
    rw [← abs_mul, show A m m * v m = Mat.mult N A v m + -∑ x ∈ (Finset.range N).filter (fun x : ℕ => x ≠ m), A m x * v x by rw [hrow]; ring]
    exact (abs_add_le _ _).trans (by rw [abs_neg])
  have b := hv m hm
  have d := mul_le_mul_of_nonneg_right (h m hm) (abs_nonneg (v m))
  have top := mul_le_mul_of_nonneg_left (hmax i (Finset.mem_range.2 hi)) hc.le
  nlinarith

/-- the matrix of the velocity system is diagonally dominant by `1 / dt` -/
theorem velocity_dominant (S : Started debug L G axes T B P flow ops disk s disk')
    (hn : ∀ f d, f < L.dim → d < L.dim → L.periodic 0 d = true → 2 ≤ L.n f d) (hnu : 0 ≤ P.nu) (i : ℕ) (hi : i < L.UN) :
    ∑ x ∈ (Finset.range L.UN).filter (fun x : ℕ => x ≠ i), |ops.A i x| + 1 / P.dt ≤ |ops.A i i| := by
  obtain ⟨u, hops, _⟩ := S.reach
  have hc : 0 ≤ P.diff.implicitCoeff * P.nu := mul_nonneg (implicit_nonneg S.params) hnu
  obtain ⟨D, Dm, Gr, La, Lm, BN, o1, o2, o3, o4, rfl⟩ := createOperators_ok hops
  have hL := S.constructed.setup.layout
  obtain ⟨A', m', e, hdom⟩ := C23_diagonal_dominance_partial S.constructed hn [.setGhostICs u] ⟨u, [], rfl⟩
  rw [o3] at e
  cases e
  obtain ⟨w, hw, e⟩ := col_surj hL (x := i) (by omega) (by omega)
  obtain ⟨d1, -, d3⟩ := hdom w.comp w.st i hw.1 hw.inside (by rw [← e]; exact (col_inside hL (Or.inl hw.1) debug hw.inside).1)
  have e1 : ∀ x ∈ (Finset.range L.UN).filter (fun x : ℕ => x ≠ i),
      |Mat.shift (Mat.scale La (-P.diff.implicitCoeff * P.nu)) (1 / P.dt) i x| = P.diff.implicitCoeff * P.nu * La i x := by
    intro x hx
    obtain ⟨hx1, hx2⟩ := Finset.mem_filter.1 hx
    have hne : (i : ℤ) ≠ (x : ℤ) := by omega
    unfold Mat.shift Mat.scale
    rw [if_neg hne, show -P.diff.implicitCoeff * P.nu * La i x = -(P.diff.implicitCoeff * P.nu * La i x) by ring, abs_neg,
      abs_of_nonneg (mul_nonneg hc (d1 x (Finset.mem_range.1 hx1) (by omega)))]
  have hf : (Finset.range L.UN).filter (fun x : ℕ => (x : ℤ) ≠ (i : ℤ)) = (Finset.range L.UN).filter (fun x : ℕ => x ≠ i) := by
    ext x
    simp
  rw [hf] at d3
  have e2 : P.diff.implicitCoeff * P.nu * -La i i + 1 / P.dt ≤ |Mat.shift (Mat.scale La (-P.diff.implicitCoeff * P.nu)) (1 / P.dt) i i| := by
    unfold Mat.shift Mat.scale
    rw [if_pos rfl, show -P.diff.implicitCoeff * P.nu * La i i + 1 / P.dt = P.diff.implicitCoeff * P.nu * -La i i + 1 / P.dt by ring]
    exact le_abs_self _
  dsimp only
  rw [Finset.sum_congr rfl e1, ← Finset.mul_sum]
  have := mul_le_mul_of_nonneg_left d3 hc
  linarith

/-- C108. The residual with which the velocity system is solved bounds the error, whatever the mesh, the viscosity and the time step: a vector whose
residual is at most `ε` in every component differs from the solution by at most `dt * ε`. Missing: periodic directions with one cell. -/
theorem C108_residual_partial (S : Started debug L G axes T B P flow ops disk s disk')
    (hn : ∀ f d, f < L.dim → d < L.dim → L.periodic 0 d = true → 2 ≤ L.n f d) (hdt : 0 < P.dt) (hnu : 0 ≤ P.nu) {rhs y z : ℤ → K} {ε : K}
    (hy : IsSolution L.UN ops.A rhs y) (hz : ∀ i : ℤ, 0 ≤ i → i < L.UN → |Mat.mult L.UN ops.A z i - rhs i| ≤ ε) (i : ℤ) (i0 : 0 ≤ i) (i1 : i < L.UN) :
    |z i - y i| ≤ P.dt * ε := by
  obtain ⟨m, rfl⟩ := Int.eq_ofNat_of_zero_le i0
  have b := dominant_bound (ε := ε) (v := fun j => z j + -1 * y j) (one_div_pos.2 hdt) (velocity_dominant S hn hnu) (fun j hj => by
    rw [mult_sub, hy j (by omega) (by omega)]
    exact hz j (by omega) (by omega)) m (by omega)
  have b := mul_le_mul_of_nonneg_left b hdt.le
  rw [← mul_assoc, mul_one_div_cancel hdt.ne', one_mul] at b
  rw [sub_eq_add_neg, neg_eq_neg_one_mul]
  exact b

/-- C108, steps: a step in which the velocity system is solved up to residuals `ε` has an intermediate velocity (the velocity before the pressure
corrects it) that differs by at most `dt * ε` from that of the step with an exact solver, whatever is done with the pressure. Missing: as in
`C108_residual_partial`. -/
theorem C108_step_partial (S : Started debug L G axes T B P flow ops disk s disk')
    (hn : ∀ f d, f < L.dim → d < L.dim → L.periodic 0 d = true → 2 ≤ L.n f d) (hdt : 0 < P.dt) (hnu : 0 ≤ P.nu) {v p v₁ p₁ v₂ p₂ : LinSolve K} {ε : K}
    (hv1 : SolvesWithin L.UN v₁ ops.A ε) (hv2 : Solves L.UN v₂ ops.A) {x : ℕ → NSState K} {n : ℕ} (h0 : x 0 = s)
    (t : Trajectory L G P ops v p x n) {k : ℕ} (hk : k ≤ n) {s₁ s₂ : NSState K} (a₁ : advance L G P ops v₁ p₁ (x k) = .ok s₁)
    (a₂ : advance L G P ops v₂ p₂ (x k) = .ok s₂) (i : ℤ) (i0 : 0 ≤ i) (i1 : i < L.UN) :
    |(s₁.U i + Mat.mult L.pN ops.BNG (fun j => s₁.p j - (x k).p j) i) - (s₂.U i + Mat.mult L.pN ops.BNG (fun j => s₂.p j - (x k).p j) i)| ≤
      P.dt * ε := by
  obtain ⟨u, hops, R⟩ := S.reach_at h0 t
  obtain ⟨w₁, U₁, d₁, x1, x2, x3, x4, x5, x6, x7, x8, x9, x10, x11⟩ := advance_ok S.constructed S.schemes.1.1 S.schemes.2.1 (R k hk) a₁
  obtain ⟨w₂, U₂, d₂, y1, y2, y3, y4, y5, y6, y7, y8, y9, y10, y11⟩ := advance_ok S.constructed S.schemes.1.1 S.schemes.2.1 (R k hk) a₂
  have pN : ops.pN = L.pN := createOperators_pN hops
  rw [x1] at y1
  cases y1
  have key := C108_residual_partial S hn hdt hnu (fun j j0 j1 => hv2 _ _ _ y2 j j0 j1) (fun j j0 j1 => hv1 _ _ _ x2 j j0 j1) i i0 i1
  have back : ∀ (q d : ℤ → K), projected L ops q (vec ops.pN d) i +
      Mat.mult L.pN ops.BNG (fun j => (x k).p j + 1 * vec ops.pN d j - (x k).p j) i = q i := by
    intro q d
    rw [show (fun j => (x k).p j + 1 * vec ops.pN d j - (x k).p j) = vec ops.pN d by funext j; ring]
    unfold projected
    rw [pN, vec, vec, if_pos ⟨i0, i1⟩, if_pos ⟨i0, i1⟩]
    ring
  rw [x4, y4, x5, y5, back, back]
  exact key

/-! ### Examples -/

/-- A solver that adds a constant to the solution. -/
noncomputable def liftedSolve (N : ℕ) : LinSolve ℚ := fun A g rhs => (exactSolve N A g rhs).map fun x i => x i + 1

/-- A solver with the residual 1/10 everywhere. -/
noncomputable def roughSolve (N : ℕ) : LinSolve ℚ := fun A g rhs => exactSolve N A g fun i => rhs i + 1 / 10

/-- Runs of any length between two lids with all terms, with two solvers of the Poisson system that choose different solutions: the hypotheses of
`C107_solvers_partial` hold. -/
example : ∃ ops s d x₁ x₂, Started true centredLayout centredGeom centredAxes (lids 1 2) (boundaries true centredLayout centredGeom (lids 1 2))
      (boxParams (1 / 4) 1 adamsBashforth2 crankNicolson) (some (lidsFlow 1 2)) ops (fun _ => none) s d ∧ (∀ d, centredLayout.periodic 0 d = false) ∧
    (∀ f loc, (lids 1 2 f loc).1 ≠ .NEUMANN) ∧ Solves centredLayout.UN (exactSolve centredLayout.UN) ops.A ∧
    Solves centredLayout.pN (exactSolve centredLayout.pN) ops.DBNG ∧ Solves centredLayout.pN (liftedSolve centredLayout.pN) ops.DBNG ∧ x₁ 0 = s ∧
    x₂ 0 = s ∧
    (∀ n, Trajectory centredLayout centredGeom (boxParams (1 / 4) 1 adamsBashforth2 crankNicolson) ops (exactSolve centredLayout.UN)
      (exactSolve centredLayout.pN) x₁ n) ∧
    ∀ n, Trajectory centredLayout centredGeom (boxParams (1 / 4) 1 adamsBashforth2 crankNicolson) ops (exactSolve centredLayout.UN)
      (liftedSolve centredLayout.pN) x₂ n := by
  obtain ⟨g1, g2⟩ := closed_given (lids_constructed 1 2) fun loc _ _ => by
    unfold Closed lids
    rw [if_neg (by omega), if_neg (by omega)]
  obtain ⟨o, i, d, S⟩ := C60_start (P := boxParams (1 / 4) 1 adamsBashforth2 crankNicolson) (lids_constructed 1 2) 1
    [fun p q _ _ _ => 1 * q + 2 * p, fun p q _ _ _ => 1 * p - 2 * q] none (le_refl 2) (by simp)
    ⟨false, "out", some (boxNode (1 / 4) "ADAMS_BASHFORTH_2" "CRANK_NICOLSON"), rfl⟩ (le_refl 1) rfl (fun _ => none)
  have hn : ∀ f d, f < centredLayout.dim → d < centredLayout.dim → centredLayout.periodic 0 d = true → 2 ≤ centredLayout.n f d :=
    fun _ _ _ _ hp => by cases hp
  obtain ⟨k1, -, -⟩ := C62_poisson_system_partial S (fun f hf hp => hn f f hf hf hp) (fun f loc _ _ => by simp [lids]) (Or.inl rfl) rfl
    (by norm_num [boxParams])
  have null := (k1 fun _ => 1).2 fun _ _ _ _ _ _ => rfl
  have lift : ∀ (rhs x : ℤ → ℚ), IsSolution centredLayout.pN o.DBNG rhs x → IsSolution centredLayout.pN o.DBNG rhs fun i => x i + 1 := by
    intro rhs x h i i0 i1
    have e : Mat.mult centredLayout.pN o.DBNG (fun i => x i + 1) i = Mat.mult centredLayout.pN o.DBNG x i +
        Mat.mult centredLayout.pN o.DBNG (fun _ => 1) i := by
      have := mix_mult_zero (N := centredLayout.pN) (a := 1) (b := 1) (x := x) (y := fun _ => (1 : ℚ)) (z := fun i => x i + 1)
        (fun j _ _ => by ring) o.DBNG i
      rw [this]
      ring
    rw [e, h i i0 i1, null i i0 i1, add_zero]
  have fin : Finds centredLayout.pN (liftedSolve centredLayout.pN) o.DBNG := by
    intro g rhs h
    obtain ⟨x, hx, hs⟩ := exactSolve_finds centredLayout.pN o.DBNG g rhs h
    refine ⟨fun i => x i + 1, ?_, lift rhs x hs⟩
    unfold liftedSolve
    rw [hx]
    rfl
  have sol : Solves centredLayout.pN (liftedSolve centredLayout.pN) o.DBNG := by
    intro g rhs x h
    unfold liftedSolve at h
    cases e : exactSolve centredLayout.pN o.DBNG g rhs with
    | error _ => rw [e] at h; cases h
    | ok y =>
      rw [e] at h
      cases h
      exact lift rhs y (exactSolve_solves _ _ _ _ _ e)
  obtain ⟨X, X0, hX, -⟩ := C62_runs_partial S (vSolve := exactSolve centredLayout.UN) (pSolve := exactSolve centredLayout.pN) hn g1 g2 (Or.inl rfl) rfl
    (by norm_num [boxParams]) (by norm_num [boxParams]) (exactSolve_finds _ _) (exactSolve_finds _ _) (exactSolve_solves _ _)
  obtain ⟨Y, Y0, hY, -⟩ := C62_runs_partial S (vSolve := exactSolve centredLayout.UN) (pSolve := liftedSolve centredLayout.pN) hn g1 g2 (Or.inl rfl) rfl
    (by norm_num [boxParams]) (by norm_num [boxParams]) (exactSolve_finds _ _) fin sol
  exact ⟨o, i, d, X, Y, S, fun _ => rfl, fun f loc => by simp [lids], exactSolve_solves _ _, exactSolve_solves _ _, sol, X0, Y0, hX, hY⟩

/-- The same run with the two types of solvers: the hypotheses of `C107_types_partial` hold. -/
example : ∃ o₁ o₂ s₁ s₂ d₁ d₂ x₁ x₂, Started true centredLayout centredGeom centredAxes (lids 1 2)
      (boundaries true centredLayout centredGeom (lids 1 2)) (pinnedParams 1 adamsBashforth2 crankNicolson) (some (lidsFlow 1 2)) o₁ (fun _ => none) s₁ d₁ ∧
    Started true centredLayout centredGeom centredAxes (lids 1 2) (boundaries true centredLayout centredGeom (lids 1 2))
      (boxParams (1 / 4) 1 adamsBashforth2 crankNicolson) (some (lidsFlow 1 2)) o₂ (fun _ => none) s₂ d₂ ∧
    (pinnedParams 1 adamsBashforth2 crankNicolson : NSParams ℚ) = { boxParams (1 / 4) 1 adamsBashforth2 crankNicolson with pType := .amgx } ∧
    NormalVelocityGiven centredLayout.toMeshInfo (lids 1 2) ∧ boundaryFlux centredLayout.toMeshInfo centredGeom (lids 1 2) = 0 ∧ x₁ 0 = s₁ ∧ x₂ 0 = s₂ ∧
    (∀ n, Trajectory centredLayout centredGeom (pinnedParams 1 adamsBashforth2 crankNicolson) o₁ (exactSolve centredLayout.UN)
      (exactSolve centredLayout.pN) x₁ n) ∧
    ∀ n, Trajectory centredLayout centredGeom (boxParams (1 / 4) 1 adamsBashforth2 crankNicolson) o₂ (exactSolve centredLayout.UN)
      (exactSolve centredLayout.pN) x₂ n := by
  obtain ⟨g1, g2⟩ := closed_given (lids_constructed 1 2) fun loc _ _ => by
    unfold Closed lids
    rw [if_neg (by omega), if_neg (by omega)]
  obtain ⟨o₁, s₁, d₁, S₁⟩ := C60_start (P := pinnedParams 1 adamsBashforth2 crankNicolson) (lids_constructed 1 2) 1
    [fun p q _ _ _ => 1 * q + 2 * p, fun p q _ _ _ => 1 * p - 2 * q] none (le_refl 2) (by simp)
    ⟨true, "out", some (pinnedNode "ADAMS_BASHFORTH_2" "CRANK_NICOLSON"), rfl⟩ (le_refl 1) rfl (fun _ => none)
  obtain ⟨o₂, s₂, d₂, S₂⟩ := C60_start (P := boxParams (1 / 4) 1 adamsBashforth2 crankNicolson) (lids_constructed 1 2) 1
    [fun p q _ _ _ => 1 * q + 2 * p, fun p q _ _ _ => 1 * p - 2 * q] none (le_refl 2) (by simp)
    ⟨false, "out", some (boxNode (1 / 4) "ADAMS_BASHFORTH_2" "CRANK_NICOLSON"), rfl⟩ (le_refl 1) rfl (fun _ => none)
  obtain ⟨X, X0, hX⟩ := C43_runs_partial S₁ (vSolve := exactSolve centredLayout.UN) (pSolve := exactSolve centredLayout.pN)
    (fun _ _ _ _ hp => by cases hp) (fun f loc _ _ => by simp [lids]) (Or.inl rfl) rfl (by norm_num [pinnedParams, boxParams])
    (by norm_num [pinnedParams, boxParams]) (exactSolve_finds _ _) (exactSolve_finds _ _)
  obtain ⟨Y, Y0, hY, -⟩ := C62_runs_partial S₂ (vSolve := exactSolve centredLayout.UN) (pSolve := exactSolve centredLayout.pN)
    (fun _ _ _ _ hp => by cases hp) g1 g2 (Or.inl rfl) rfl (by norm_num [boxParams]) (by norm_num [boxParams]) (exactSolve_finds _ _)
    (exactSolve_finds _ _) (exactSolve_solves _ _)
  exact ⟨o₁, o₂, s₁, s₂, d₁, d₂, X, Y, S₁, S₂, rfl, g1, g2, X0, Y0, hX, hY⟩

/-- A run of any length with an exact solver for the velocity, and after each of its states a step with a solver that leaves the residual 1/10: the
hypotheses of `C108_residual_partial` and `C108_step_partial` hold. -/
example : ∃ ops s d x, Started true centredLayout centredGeom centredAxes (lids 1 2) (boundaries true centredLayout centredGeom (lids 1 2))
      (pinnedParams 1 adamsBashforth2 crankNicolson) (some (lidsFlow 1 2)) ops (fun _ => none) s d ∧ x 0 = s ∧
    SolvesWithin centredLayout.UN (roughSolve centredLayout.UN) ops.A (1 / 10) ∧ ¬ Solves centredLayout.UN (roughSolve centredLayout.UN) ops.A ∧
    (∀ n, Trajectory centredLayout centredGeom (pinnedParams 1 adamsBashforth2 crankNicolson) ops (exactSolve centredLayout.UN)
      (exactSolve centredLayout.pN) x n) ∧
    ∀ k, ∃ t, advance centredLayout centredGeom (pinnedParams 1 adamsBashforth2 crankNicolson) ops (roughSolve centredLayout.UN)
      (exactSolve centredLayout.pN) (x k) = .ok t := by
  obtain ⟨o, s, d, S⟩ := C60_start (P := pinnedParams 1 adamsBashforth2 crankNicolson) (lids_constructed 1 2) 1
    [fun p q _ _ _ => 1 * q + 2 * p, fun p q _ _ _ => 1 * p - 2 * q] none (le_refl 2) (by simp)
    ⟨true, "out", some (pinnedNode "ADAMS_BASHFORTH_2" "CRANK_NICOLSON"), rfl⟩ (le_refl 1) rfl (fun _ => none)
  have hn : ∀ f d, f < centredLayout.dim → d < centredLayout.dim → centredLayout.periodic 0 d = true → 2 ≤ centredLayout.n f d :=
    fun _ _ _ _ hp => by cases hp
  obtain ⟨X, X0, hX⟩ := C43_runs_partial S (vSolve := exactSolve centredLayout.UN) (pSolve := exactSolve centredLayout.pN)
    hn (fun f loc _ _ => by simp [lids]) (Or.inl rfl) rfl (by norm_num [pinnedParams, boxParams])
    (by norm_num [pinnedParams, boxParams]) (exactSolve_finds _ _) (exactSolve_finds _ _)
  have every : ∀ rhs : ℤ → ℚ, ∃ y, IsSolution centredLayout.UN o.A rhs y := fun rhs => by
    obtain ⟨y, hy, -⟩ := C61_velocity_system_partial S hn (by norm_num [pinnedParams, boxParams]) (by norm_num [pinnedParams, boxParams]) rhs
    exact ⟨y, hy⟩
  refine ⟨o, s, d, X, S, X0, ?_, ?_, hX, fun k => ?_⟩
  · intro g rhs x h i i0 i1
    rw [exactSolve_solves _ _ _ _ _ h i i0 i1, add_sub_cancel_left]
    norm_num
  · intro h
    obtain ⟨x, hx, hs⟩ := exactSolve_finds centredLayout.UN o.A (fun _ => 0) (fun _ => (0 : ℚ) + 1 / 10) (every _)
    have e := h (fun _ => 0) (fun _ => 0) x hx 0 (le_refl 0) (by decide)
    rw [hs 0 (le_refl 0) (by decide)] at e
    norm_num at e
  · obtain ⟨u, _, R⟩ := S.reach_at X0 (hX k)
    obtain ⟨w, _, _, loc, _, h⟩ := advance_eq S.constructed S.schemes.1.1 S.schemes.2.1 o (roughSolve centredLayout.UN) (exactSolve centredLayout.pN)
      (R k le_rfl)
    rw [h]
    have tv : ∀ rhs, ∃ y, roughSolve centredLayout.UN o.A (X k).U rhs = .ok y := fun rhs => by
      obtain ⟨y, hy, -⟩ := exactSolve_finds centredLayout.UN o.A (X k).U (fun i => rhs i + 1 / 10) (every _)
      exact ⟨y, hy⟩
    have tp : ∀ rhs, ∃ y, exactSolve centredLayout.pN o.DBNG (X k).dP rhs = .ok y := fun rhs => by
      obtain ⟨y, hy, -⟩ := C43_pinned_system_partial S (fun f hf hp => hn f f hf hf hp) (fun f loc _ _ => by simp [lids]) (Or.inl rfl) rfl
        (by norm_num [pinnedParams, boxParams]) rhs
      obtain ⟨z, hz, -⟩ := exactSolve_finds centredLayout.pN o.DBNG (X k).dP rhs ⟨y, hy⟩
      exact ⟨z, hz⟩
    obtain ⟨y, hy⟩ := tv (momentumRhs centredLayout (pinnedParams 1 adamsBashforth2 crankNicolson) o (X k) (pushTerm (X k).conv fun i => -1 * w i)
      (pushTerm (X k).diff (diffTerm centredLayout (pinnedParams 1 adamsBashforth2 crankNicolson).nu o (X k))))
    rw [hy]
    simp only [Except.bind]
    obtain ⟨z, hz⟩ := tp (poissonRhs centredLayout o (fun r => ((X k).B r).updateEqs (X k).U (pinnedParams 1 adamsBashforth2 crankNicolson).dt)
      (vec centredLayout.UN y))
    rw [hz]
    exact ⟨_, rfl⟩

end PetIBM
