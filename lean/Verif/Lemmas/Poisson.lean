/-
The Poisson matrix: kernel of the gradient, energy, solvability.
-/
import Verif.Lemmas.Projection
import Verif.Props.Diag
import Verif.Props.Bn
import Mathlib.LinearAlgebra.Matrix.ToLin
import Mathlib.LinearAlgebra.FiniteDimensional.Lemmas
import Mathlib.Algebra.Order.BigOperators.Group.Finset

namespace PetIBM

open Spec

set_option linter.unusedSectionVars false

variable {K : Type} [Field K] [LinearOrder K] [IsStrictOrderedRing K]
variable {debug : Bool} {L : Layout} {G : Geom K} {axes : ℕ → Axis K} {T : BCTable K} {B : ℕ → Boundary K}

theorem pressure_surj (hL : LayoutOK L) {x : ℤ} (h0 : 0 ≤ x) (h1 : x < L.pN) : ∃ s, Inside L.toMeshInfo 3 s ∧ col L 3 s = x := by
  obtain ⟨p, ⟨hp, hi⟩, _⟩ := (C04_pressure_index_bijective false L hL 0).2 x h0 h1
  have hs : Inside L.toMeshInfo 3 (pst p) := inside_pst (mem_gridList.2 hp)
  refine ⟨pst p, hs, ?_⟩
  have := (col_inside hL (Or.inr rfl) false hs).1
  have hi' : L.getPackedGlobalIndex false 3 (pst p) = .ok x := hi
  rw [this] at hi'
  cases hi'
  rfl

/-- A pressure whose gradient vanishes is constant. -/
theorem gradient_kernel (S : Setup L G axes) (hn : ∀ f, f < L.dim → L.periodic 0 f = true → 2 ≤ L.n 3 f) {Gr : Mat K}
    (hG : createGradient debug L G false = .ok Gr) {φ : ℤ → K} (h : ∀ i : ℤ, 0 ≤ i → i < L.UN → Mat.mult L.pN Gr φ i = 0) :
    ∀ x y : ℤ, 0 ≤ x → x < L.pN → 0 ≤ y → y < L.pN → φ x = φ y := by
  have hL := S.layout
  have h3 := S.dim_le
  obtain ⟨A, hA, hrow⟩ := gradient_rows S debug false hn
  rw [hG] at hA
  cases hA
  have next : ∀ f (s : Stencil), f < L.dim → Inside L.toMeshInfo f s → φ (col L 3 (along s f (coordOf s f + 1))) = φ (col L 3 s) := by
    intro f s hf hs
    obtain ⟨u, _, hu, rfl, rfl⟩ := exists_unknown hL hf hs
    have hr := col_range hL hu
    have := h _ hr.1 hr.2
    rw [(hrow u hu).1] at this
    have hw := (S.own_width hf hs).2
    simp only [gradVal, Bool.false_eq_true, if_false] at this
    have hne : (1 : K) / G.dL u.comp u.comp (coordOf u.st u.comp) ≠ 0 := by positivity
    have := (mul_eq_zero.1 this).resolve_left hne
    linarith
  have flat : ∀ d, L.dim ≤ d → d < 3 → L.n 3 d = 1 := by
    intro d h1 h2
    have := (S.staggered 0 (by rcases hL.dim with h | h <;> omega)).1 d h2 (by rcases hL.dim with h | h <;> omega)
    rw [← this]
    exact (S.flat_width (by rcases hL.dim with h | h <;> omega) h1 h2).1
  -- one step in direction `d`
  have step : ∀ d (s : Stencil), d < 3 → Inside L.toMeshInfo 3 s → coordOf s d + 1 < L.n 3 d →
      φ (col L 3 (along s d (coordOf s d + 1))) = φ (col L 3 s) := by
    intro d s hd hs hlt
    by_cases hdd : d < L.dim
    · apply next d s hdd
      refine ⟨fun e he => ?_, hs.2⟩
      have := hs.1 e he
      obtain ⟨a, b, c⟩ := S.staggered d hdd
      by_cases hed : e = d
      · subst hed
        cases hp : L.periodic 0 e with
        | true => rw [b hp]; exact this
        | false => have := c hp; omega
      · rw [a e he hed]
        exact this
    · have := flat d (by omega) hd
      have := hs.1 d hd
      omega
  have down : ∀ i j k : ℕ, i < L.n 3 0 → j < L.n 3 1 → k < L.n 3 2 → φ (col L 3 ⟨k, j, i, 0⟩) = φ (col L 3 ⟨0, 0, 0, 0⟩) := by
    intro i j k hi hj hk
    have ins : ∀ i j k : ℕ, i < L.n 3 0 → j < L.n 3 1 → k < L.n 3 2 → Inside L.toMeshInfo 3 ⟨k, j, i, 0⟩ := by
      intro i j k hi hj hk
      refine ⟨fun d hd => ?_, rfl⟩
      interval_cases d <;> simp [coordOf] <;> omega
    have e0 : ∀ i, i < L.n 3 0 → φ (col L 3 ⟨k, j, i, 0⟩) = φ (col L 3 ⟨k, j, 0, 0⟩) := by
      intro i
      induction i with
      | zero => intro _; rfl
      | succ i ih =>
        intro hi
        rw [← ih (by omega)]
        have := step 0 ⟨k, j, i, 0⟩ (by omega) (ins i j k (by omega) hj hk) (by simp [coordOf]; omega)
        simpa [along, coordOf] using this
    have e1 : ∀ j, j < L.n 3 1 → φ (col L 3 ⟨k, j, 0, 0⟩) = φ (col L 3 ⟨k, 0, 0, 0⟩) := by
      intro j
      induction j with
      | zero => intro _; rfl
      | succ j ih =>
        intro hj
        rw [← ih (by omega)]
        have := step 1 ⟨k, j, 0, 0⟩ (by omega) (ins 0 j k (by omega) (by omega) hk) (by simp [coordOf]; omega)
        simpa [along, coordOf] using this
    have e2 : ∀ k, k < L.n 3 2 → φ (col L 3 ⟨k, 0, 0, 0⟩) = φ (col L 3 ⟨0, 0, 0, 0⟩) := by
      intro k
      induction k with
      | zero => intro _; rfl
      | succ k ih =>
        intro hk
        rw [← ih (by omega)]
        have := step 2 ⟨k, 0, 0, 0⟩ (by omega) (ins 0 0 k (by omega) (by omega) (by omega)) (by simp [coordOf]; omega)
        simpa [along, coordOf] using this
    rw [e0 i hi, e1 j hj, e2 k hk]
  have all : ∀ x : ℤ, 0 ≤ x → x < L.pN → φ x = φ (col L 3 ⟨0, 0, 0, 0⟩) := by
    intro x h0 h1
    obtain ⟨s, hs, rfl⟩ := pressure_surj hL h0 h1
    obtain ⟨p, hp, rfl⟩ := exists_pst hs
    obtain ⟨a, b, c⟩ := mem_gridList.1 hp
    exact down p.1 p.2.1 p.2.2 a b c
  intro x y x0 x1 y0 y1
  rw [all x x0 x1, all y y0 y1]

/-- constants have no gradient -/
theorem gradient_const (S : Setup L G axes) (hn : ∀ f, f < L.dim → L.periodic 0 f = true → 2 ≤ L.n 3 f) {Gr : Mat K}
    (hG : createGradient debug L G false = .ok Gr) {φ : ℤ → K} (h : ∀ x y : ℤ, 0 ≤ x → x < L.pN → 0 ≤ y → y < L.pN → φ x = φ y)
    {i : ℤ} (h0 : 0 ≤ i) (h1 : i < L.UN) : Mat.mult L.pN Gr φ i = 0 := by
  have hL := S.layout
  obtain ⟨A, hA, hrow⟩ := C19_gradient_exact debug S hn
  rw [hG] at hA
  cases hA
  obtain ⟨u, hu, rfl⟩ := col_surj hL h0 h1
  have hp : (0 : ℤ) < L.pN := by
    have := (col_inside hL (Or.inr rfl) false (S.inside_pressure hu.1 hu.inside)).2
    unfold vecSize at this
    rw [if_pos rfl] at this
    omega
  exact (hrow φ u.comp u.st _ hu.1 hu.inside (col_inside hL (Or.inl hu.1) debug hu.inside).1).1 (φ 0)
    fun x x0 x1 => h x 0 x0 x1 le_rfl hp

/-- The divergence is the weighted negative transpose of the gradient. -/
theorem divergence_weights (C : Constructed debug L G axes T B)
    (hT : ∀ f loc, f < L.dim → loc / 2 = f → (T f loc).1 ≠ .NEUMANN) (h : List (Boundary.Op K)) (hi : Initialised h) {D Gr : Mat K}
    {Dm : Modifiers K} (hD : createDivergence debug L G false (fun r => (B r).run h) = .ok (D, Dm))
    (hG : createGradient debug L G false = .ok Gr) :
    ∃ w : ℤ → K, (∀ y : ℤ, 0 ≤ y → y < L.UN → 0 < w y) ∧
      ∀ x y : ℤ, 0 ≤ x → x < L.pN → 0 ≤ y → y < L.UN → D x y = -(w y * Gr y x) := by
  classical
  have S := C.setup
  have hL := S.layout
  obtain ⟨_, _, _, D', m', G', _, _, e1, e2, key⟩ := C20_divergence_transpose C hT h hi
  rw [hD] at e1
  rw [hG] at e2
  cases e1
  cases e2
  have hch : ∀ y : ℤ, ∃ w : K, 0 ≤ y → y < L.UN → 0 < w ∧ ∀ x : ℤ, 0 ≤ x → x < L.pN → D x y = -(w * Gr y x) := by
    intro y
    by_cases hy : 0 ≤ y ∧ y < L.UN
    · obtain ⟨u, hu, rfl⟩ := col_surj hL hy.1 hy.2
      refine ⟨faceArea G u.comp u.comp u.st * pressureGap L.toMeshInfo G axes u.comp (coordOf u.st u.comp), fun _ _ => ⟨?_, ?_⟩⟩
      · have hw := S.own_width hu.1 hu.inside
        rw [← hw.1]
        exact mul_pos (area_pos S hu.1 hu.inside) hw.2
      · intro x x0 x1
        obtain ⟨s, hs, rfl⟩ := pressure_surj hL x0 x1
        rw [(key s u.st u.comp _ _ hu.1 hs hu.inside (col_inside hL (Or.inr rfl) debug hs).1 (col_inside hL (Or.inl hu.1) debug hu.inside).1).2]
        ring
    · exact ⟨0, fun a b => absurd ⟨a, b⟩ hy⟩
  choose w hw using hch
  exact ⟨w, fun y a b => (hw y a b).1, fun x y x0 x1 y0 y1 => (hw y y0 y1).2 x x0 x1⟩

/-- A square matrix with vanishing column sums whose kernel is the constants reaches every vector with sum zero. -/
theorem mulVec_surj {N : ℕ} (M : Matrix (Fin N) (Fin N) K) (hcol : ∀ j, ∑ i, M i j = 0)
    (hker : ∀ v, M.mulVec v = 0 → ∀ i j, v i = v j) {r : Fin N → K} (hr : ∑ i, r i = 0) : ∃ v, M.mulVec v = r := by
  classical
  rcases Nat.eq_zero_or_pos N with rfl | hN
  · exact ⟨0, by funext i; exact i.elim0⟩
  let f := M.mulVecLin
  let σ : (Fin N → K) →ₗ[K] K := ∑ i, LinearMap.proj i
  have hσ : ∀ v, σ v = ∑ i, v i := by intro v; simp [σ]
  have hle : LinearMap.range f ≤ LinearMap.ker σ := by
    rintro _ ⟨v, rfl⟩
    rw [LinearMap.mem_ker, hσ]
    show ∑ i, M.mulVec v i = 0
    simp only [Matrix.mulVec, dotProduct]
    rw [Finset.sum_comm]
    refine Finset.sum_eq_zero fun j _ => ?_
    rw [← Finset.sum_mul, hcol, zero_mul]
  have hk : Module.finrank K (LinearMap.ker f) ≤ 1 := by
    have : LinearMap.ker f ≤ Submodule.span K {(fun _ => 1 : Fin N → K)} := by
      intro v hv
      rw [Submodule.mem_span_singleton]
      refine ⟨v ⟨0, hN⟩, ?_⟩
      funext i
      have := hker v hv ⟨0, hN⟩ i
      simp [this]
    exact (Submodule.finrank_mono this).trans (by simpa using finrank_span_le_card (R := K) ({(fun _ => 1 : Fin N → K)} : Set (Fin N → K)))
  have hs : Module.finrank K (LinearMap.ker σ) + 1 ≤ N := by
    have h1 := LinearMap.finrank_range_add_finrank_ker σ
    have h2 : 1 ≤ Module.finrank K (LinearMap.range σ) := by
      by_contra h
      have h0 : LinearMap.range σ = ⊥ := Submodule.finrank_eq_zero.1 (by omega)
      have : σ (Pi.single ⟨0, hN⟩ 1) ∈ LinearMap.range σ := ⟨_, rfl⟩
      rw [h0, Submodule.mem_bot, hσ] at this
      simp at this
    have : Module.finrank K (Fin N → K) = N := by simp
    omega
  have hf := LinearMap.finrank_range_add_finrank_ker f
  have hfin : Module.finrank K (Fin N → K) = N := by simp
  have e : LinearMap.range f = LinearMap.ker σ := Submodule.eq_of_le_of_finrank_le hle (by omega)
  have : r ∈ LinearMap.range f := by
    rw [e, LinearMap.mem_ker, hσ]
    exact hr
  obtain ⟨v, hv⟩ := this
  exact ⟨v, hv⟩

/-- the weighted square of the gradient -/
theorem energy {N M : ℕ} {D Gr : Mat K} {w : ℤ → K}
    (hD : ∀ x y : ℤ, 0 ≤ x → x < N → 0 ≤ y → y < M → D x y = -(w y * Gr y x)) (φ : ℤ → K) :
    ∑ x ∈ Finset.range N, φ x * Mat.mult M D (Mat.mult N Gr φ) x = -∑ y ∈ Finset.range M, w y * (Mat.mult N Gr φ y) ^ 2 := by
  have : ∀ x ∈ Finset.range N, φ x * Mat.mult M D (Mat.mult N Gr φ) x =
      ∑ y ∈ Finset.range M, -(w y * Mat.mult N Gr φ y) * (Gr y x * φ x) := by
    intro x hx
    have hx := Finset.mem_range.1 hx
    conv_lhs => rw [Mat.mult, Finset.mul_sum]
    refine Finset.sum_congr rfl fun y hy => ?_
    have hy := Finset.mem_range.1 hy
    rw [hD x y (by omega) (by omega) (by omega) (by omega)]
    ring
  rw [Finset.sum_congr rfl this, Finset.sum_comm, ← Finset.sum_neg_distrib]
  refine Finset.sum_congr rfl fun y _ => ?_
  rw [← Finset.mul_sum]
  show -(w y * Mat.mult N Gr φ y) * Mat.mult N Gr φ y = _
  ring

theorem energy_kernel {N M : ℕ} {D Gr : Mat K} {w : ℤ → K} (hw : ∀ y : ℤ, 0 ≤ y → y < M → 0 < w y)
    (hD : ∀ x y : ℤ, 0 ≤ x → x < N → 0 ≤ y → y < M → D x y = -(w y * Gr y x)) {φ : ℤ → K}
    (h : ∀ x : ℤ, 0 ≤ x → x < N → Mat.mult M D (Mat.mult N Gr φ) x = 0) :
    ∀ y : ℤ, 0 ≤ y → y < M → Mat.mult N Gr φ y = 0 := by
  have e := energy hD φ
  have z : ∑ x ∈ Finset.range N, φ x * Mat.mult M D (Mat.mult N Gr φ) x = 0 := by
    refine Finset.sum_eq_zero fun x hx => ?_
    have hx := Finset.mem_range.1 hx
    rw [h x (by omega) (by omega), mul_zero]
  rw [z] at e
  have e : ∑ y ∈ Finset.range M, w y * (Mat.mult N Gr φ y) ^ 2 = 0 := by linarith
  have nonneg : ∀ y ∈ Finset.range M, 0 ≤ w y * (Mat.mult N Gr φ y) ^ 2 := by
    intro y hy
    have hy := Finset.mem_range.1 hy
    have := hw y (by omega) (by omega)
    positivity
  have each := (Finset.sum_eq_zero_iff_of_nonneg nonneg).1 e
  intro y y0 y1
  have h1 := each y.toNat (Finset.mem_range.2 (by omega))
  rw [show ((y.toNat : ℕ) : ℤ) = y by omega] at h1
  have h2 := hw y y0 y1
  rcases mul_eq_zero.1 h1 with h | h
  · exact absurd h h2.ne'
  · exact pow_eq_zero_iff (two_ne_zero) |>.1 h

/-- rows of `Bᴺ G` for `N = 1` -/
theorem bn_one {N : ℕ} {Op BN : Mat K} {dt c : K} (h : createBnHead N Op dt c 1 = .ok BN) (A : Mat K) (ncol : ℕ) (φ : ℤ → K) {i : ℤ}
    (h0 : 0 ≤ i) (h1 : i < N) : Mat.mult ncol (Mat.mul N BN A) φ i = dt * Mat.mult ncol A φ i := by
  have : BN = Mat.shift (fun _ _ => 0) dt := by
    unfold createBnHead at h
    rw [if_neg (by omega)] at h
    cases h
    rfl
  subst this
  rw [mult_mul]
  have : ∀ y ∈ Finset.range N, Mat.shift (fun _ _ => (0 : K)) dt i y * Mat.mult ncol A φ y =
      if y = i.toNat then dt * Mat.mult ncol A φ y else 0 := by
    intro y _
    unfold Mat.shift
    by_cases hy : i = (y : ℤ)
    · rw [if_pos hy, if_pos (by omega), zero_add]
    · rw [if_neg hy, if_neg (by omega), zero_mul]
  rw [show Mat.mult N (Mat.shift (fun _ _ => 0) dt) (Mat.mult ncol A φ) i =
    ∑ y ∈ Finset.range N, Mat.shift (fun _ _ => (0 : K)) dt i y * Mat.mult ncol A φ y from rfl]
  rw [Finset.sum_congr rfl this, Finset.sum_ite_eq', if_pos (Finset.mem_range.2 (by omega)), show ((i.toNat : ℕ) : ℤ) = i by omega]

end PetIBM
