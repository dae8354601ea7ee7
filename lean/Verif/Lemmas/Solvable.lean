/-
Solvability of systems with matrices divergence times definite matrix times gradient.
-/
import Verif.Lemmas.PoissonOrder
import Mathlib.LinearAlgebra.Dual.Lemmas
import Mathlib.LinearAlgebra.Matrix.Dual

namespace PetIBM

open Spec

set_option linter.unusedSectionVars false

variable {K : Type} [Field K] [LinearOrder K] [IsStrictOrderedRing K]

/-- A square matrix whose values are orthogonal to its kernel reaches everything that is orthogonal to its kernel. -/
theorem mulVec_range {N : ℕ} (A : Matrix (Fin N) (Fin N) K) (h : ∀ v w, A.mulVec w = 0 → A.mulVec v ⬝ᵥ w = 0) {r : Fin N → K}
    (hr : ∀ w, A.mulVec w = 0 → r ⬝ᵥ w = 0) : ∃ v, A.mulVec v = r := by
  classical
  let E := dotProductEquiv K (Fin N)
  let f := E.toLinearMap ∘ₗ A.mulVecLin
  have hk : ∀ w, w ∈ LinearMap.ker f ↔ A.mulVec w = 0 := fun w => by
    rw [LinearMap.mem_ker]
    show E (A.mulVec w) = 0 ↔ _
    rw [LinearEquiv.map_eq_zero_iff]
  have hle : LinearMap.range f ≤ (LinearMap.ker f).dualAnnihilator := by
    rintro _ ⟨v, rfl⟩
    rw [Submodule.mem_dualAnnihilator]
    exact fun w hw => h v w ((hk w).1 hw)
  have h1 := LinearMap.finrank_range_add_finrank_ker f
  have h2 := Subspace.finrank_add_finrank_dualAnnihilator_eq (LinearMap.ker f)
  have e : LinearMap.range f = (LinearMap.ker f).dualAnnihilator := Submodule.eq_of_le_of_finrank_le hle (by omega)
  have : E r ∈ LinearMap.range f := by
    rw [e, Submodule.mem_dualAnnihilator]
    exact fun w hw => hr w ((hk w).1 hw)
  obtain ⟨v, hv⟩ := this
  exact ⟨v, E.injective hv⟩

/-- Values of the divergence are orthogonal to the kernel of the gradient. -/
theorem product_orthogonal {N M : ℕ} {D Gr : Mat K} {w : ℤ → K} {σ : K}
    (hD : ∀ x y : ℤ, 0 ≤ x → x < N → 0 ≤ y → y < M → D x y = σ * (w y * Gr y x)) (q ψ : ℤ → K)
    (hψ : ∀ y : ℤ, 0 ≤ y → y < M → Mat.mult N Gr ψ y = 0) : ∑ i ∈ Finset.range N, Mat.mult M D q i * ψ i = 0 := by
  have e : ∀ i ∈ Finset.range N, Mat.mult M D q i * ψ i = ∑ y ∈ Finset.range M, σ * (w y * q y) * (Gr y i * ψ i) := by
    intro i hi
    have hi := Finset.mem_range.1 hi
    rw [Mat.mult, Finset.sum_mul]
    refine Finset.sum_congr rfl fun y hy => ?_
    have hy := Finset.mem_range.1 hy
    rw [hD i y (by omega) (by omega) (by omega) (by omega)]
    ring
  rw [Finset.sum_congr rfl e, Finset.sum_comm]
  refine Finset.sum_eq_zero fun y hy => ?_
  have hy := Finset.mem_range.1 hy
  rw [← Finset.mul_sum]
  have := hψ y (by omega) (by omega)
  unfold Mat.mult at this
  rw [this, mul_zero]

/-- Which right-hand sides have solutions. -/
theorem product_solvable {N M : ℕ} {D BN Gr : Mat K} {w : ℤ → K} {σ : K} (hσ : σ ≠ 0)
    (hD : ∀ x y : ℤ, 0 ≤ x → x < N → 0 ≤ y → y < M → D x y = σ * (w y * Gr y x))
    (hdef : ∀ φ, ∑ y ∈ Finset.range M, w y * Mat.mult N Gr φ y * Mat.mult M BN (Mat.mult N Gr φ) y = 0 →
      ∀ y : ℤ, 0 ≤ y → y < M → Mat.mult N Gr φ y = 0) (r : ℤ → K) :
    (∃ φ, IsSolution N (Mat.mul M D (Mat.mul M BN Gr)) r φ) ↔
      ∀ ψ, (∀ y : ℤ, 0 ≤ y → y < M → Mat.mult N Gr ψ y = 0) → ∑ i ∈ Finset.range N, r i * ψ i = 0 := by
  have hM : ∀ φ i, Mat.mult N (Mat.mul M D (Mat.mul M BN Gr)) φ i = Mat.mult M D (Mat.mult M BN (Mat.mult N Gr φ)) i := by
    intro φ i
    rw [mult_mul, mult_congr fun j _ _ => mult_mul ..]
  have ann := product_orthogonal hD
  constructor
  · rintro ⟨φ, hφ⟩ ψ hψ
    rw [← ann (Mat.mult M BN (Mat.mult N Gr φ)) ψ hψ]
    refine Finset.sum_congr rfl fun i hi => ?_
    have hi := Finset.mem_range.1 hi
    rw [← hM, hφ i (by omega) (by omega)]
  · intro hr
    let A : Matrix (Fin N) (Fin N) K := fun i j => Mat.mul M D (Mat.mul M BN Gr) i j
    have ext : ∀ v : Fin N → K, ∃ w : ℤ → K, ∀ i : Fin N, w i = v i := fun v =>
      ⟨fun i => if h : 0 ≤ i ∧ i.toNat < N then v ⟨i.toNat, h.2⟩ else 0, fun i => by
        beta_reduce; rw [dif_pos ⟨by omega, by have := i.2; omega⟩]; congr 1⟩
    have hmul : ∀ (w : ℤ → K) (v : Fin N → K), (∀ i : Fin N, w i = v i) → ∀ i : Fin N, Mat.mult N (Mat.mul M D (Mat.mul M BN Gr)) w i = A.mulVec v i := by
      intro w v hw i
      unfold Mat.mult
      rw [Finset.sum_range]
      simp only [Matrix.mulVec, dotProduct, A, hw]
    have ker : ∀ (w : ℤ → K) (v : Fin N → K), (∀ i : Fin N, w i = v i) → A.mulVec v = 0 → ∀ y : ℤ, 0 ≤ y → y < M → Mat.mult N Gr w y = 0 := by
      intro w' v hw hv
      refine hdef _ ?_
      have e := product_energy (BN := BN) hD w'
      have z : ∑ x ∈ Finset.range N, w' x * Mat.mult M D (Mat.mult M BN (Mat.mult N Gr w')) x = 0 := by
        rw [Finset.sum_range]
        refine Finset.sum_eq_zero fun i _ => ?_
        rw [← hM, hmul w' v hw, hv, Pi.zero_apply, mul_zero]
      rw [z] at e
      exact (mul_eq_zero.1 e.symm).resolve_left hσ
    obtain ⟨v, hv⟩ := mulVec_range A (r := fun i => r i) (fun v x hx => by
        obtain ⟨w1, hw1⟩ := ext v
        obtain ⟨w2, hw2⟩ := ext x
        rw [← ann (Mat.mult M BN (Mat.mult N Gr w1)) w2 (ker w2 x hw2 hx), Finset.sum_range]
        refine Finset.sum_congr rfl fun i _ => ?_
        rw [hw2, ← hM, hmul w1 v hw1]) (fun x hx => by
        obtain ⟨w2, hw2⟩ := ext x
        rw [← hr w2 (ker w2 x hw2 hx), Finset.sum_range]
        exact Finset.sum_congr rfl fun i _ => by rw [hw2])
    obtain ⟨w1, hw1⟩ := ext v
    refine ⟨w1, fun i i0 i1 => ?_⟩
    have := hmul w1 v hw1 ⟨i.toNat, by omega⟩
    rw [hv] at this
    simpa only [Int.toNat_of_nonneg i0] using this

/-- Steps that never fail make a run that goes on for ever. -/
theorem forever {S : Type} (step : S → Except Error S) (s : S)
    (h : ∀ n (x : ℕ → S), x 0 = s → (∀ k, k < n → step (x k) = .ok (x (k + 1))) → ∃ s', step (x n) = .ok s') :
    ∃ x : ℕ → S, x 0 = s ∧ ∀ k, step (x k) = .ok (x (k + 1)) := by
  let next : S → S := fun s => match step s with
    | .ok s' => s'
    | .error _ => s
  have key : ∀ n k, k < n → step (next^[k] s) = .ok (next^[k + 1] s) := by
    intro n
    induction n with
    | zero => intro k hk; omega
    | succ n ih =>
      intro k hk
      by_cases hkn : k < n
      · exact ih k hkn
      · obtain rfl : k = n := by omega
        obtain ⟨s', hs⟩ := h k (fun n => next^[n] s) rfl ih
        rw [Function.iterate_succ_apply']
        have hs : step (next^[k] s) = .ok s' := hs
        simp only [next] at hs ⊢
        rw [hs]
  exact ⟨fun n => next^[n] s, rfl, fun k => key (k + 1) k (by omega)⟩

end PetIBM
