/-
Matrices that are self-adjoint in an inner product with weights.
-/
import Verif.Lemmas.Bn
import Verif.Lemmas.Poisson
import Mathlib.Data.Matrix.Mul
import Mathlib.Algebra.Order.BigOperators.Ring.Finset
import Mathlib.Algebra.BigOperators.Field
import Mathlib.Tactic.Linarith

set_option linter.unusedSectionVars false

namespace PetIBM

open Spec

/-! ### Polynomials of a self-adjoint matrix -/

section

variable {K : Type} [Field K] [LinearOrder K] [IsStrictOrderedRing K] {n : ℕ}

/-- inner product with weights -/
def wip (w x y : Fin n → K) : K := ∑ i, w i * x i * y i

theorem wip_add_left (w x y z : Fin n → K) : wip w (x + y) z = wip w x z + wip w y z := by
  simp only [wip, ← Finset.sum_add_distrib]
  exact Finset.sum_congr rfl fun i _ => by simp only [Pi.add_apply]; ring

theorem wip_add_right (w x y z : Fin n → K) : wip w x (y + z) = wip w x y + wip w x z := by
  simp only [wip, ← Finset.sum_add_distrib]
  exact Finset.sum_congr rfl fun i _ => by simp only [Pi.add_apply]; ring

theorem wip_smul_right (w x y : Fin n → K) (a : K) : wip w x (a • y) = a * wip w x y := by
  simp only [wip, Finset.mul_sum]
  exact Finset.sum_congr rfl fun i _ => by simp only [Pi.smul_apply, smul_eq_mul]; ring

theorem wip_sum_right {ι : Type} (s : Finset ι) (w x : Fin n → K) (y : ι → Fin n → K) : wip w x (∑ t ∈ s, y t) = ∑ t ∈ s, wip w x (y t) := by
  classical
  induction s using Finset.induction_on with
  | empty => simp [wip]
  | insert a s ha ih => rw [Finset.sum_insert ha, Finset.sum_insert ha, wip_add_right, ih]

theorem wip_self_nonneg {w : Fin n → K} (hw : ∀ i, 0 < w i) (x : Fin n → K) : 0 ≤ wip w x x :=
  Finset.sum_nonneg fun i _ => by rw [mul_assoc]; exact mul_nonneg (hw i).le (mul_self_nonneg _)

theorem wip_self_pos {w : Fin n → K} (hw : ∀ i, 0 < w i) {x : Fin n → K} (hx : x ≠ 0) : 0 < wip w x x := by
  obtain ⟨i, hi⟩ := Function.ne_iff.1 hx
  refine Finset.sum_pos' (fun i _ => by rw [mul_assoc]; exact mul_nonneg (hw i).le (mul_self_nonneg _)) ⟨i, Finset.mem_univ i, ?_⟩
  rw [mul_assoc]
  exact mul_pos (hw i) (mul_self_pos.2 hi)

/-- `M` is self-adjoint in the inner product -/
def WSymm (w : Fin n → K) (M : Matrix (Fin n) (Fin n) K) : Prop := ∀ i j, w i * M i j = w j * M j i

theorem WSymm.adjoint {w : Fin n → K} {M : Matrix (Fin n) (Fin n) K} (h : WSymm w M) (x y : Fin n → K) :
    wip w (M.mulVec x) y = wip w x (M.mulVec y) := by
  simp only [wip, Matrix.mulVec, dotProduct, Finset.mul_sum, Finset.sum_mul]
  rw [Finset.sum_comm]
  refine Finset.sum_congr rfl fun i _ => Finset.sum_congr rfl fun j _ => ?_
  linear_combination (x i * y j) * h j i

theorem WSymm.one (w : Fin n → K) : WSymm w 1 := by
  intro i j
  by_cases h : i = j
  · subst h; rfl
  · rw [Matrix.one_apply_ne h, Matrix.one_apply_ne (Ne.symm h), mul_zero, mul_zero]

theorem WSymm.smul {w : Fin n → K} {M : Matrix (Fin n) (Fin n) K} (h : WSymm w M) (a : K) : WSymm w (a • M) := by
  intro i j
  simp only [Matrix.smul_apply, smul_eq_mul]
  linear_combination a * h i j

theorem WSymm.mul_comm {w : Fin n → K} {M N : Matrix (Fin n) (Fin n) K} (h : WSymm w M) (h' : WSymm w N) (hc : M * N = N * M) :
    WSymm w (M * N) := by
  intro i j
  conv_rhs => rw [hc]
  simp only [Matrix.mul_apply, Finset.mul_sum]
  refine Finset.sum_congr rfl fun k _ => ?_
  linear_combination N k j * h i k + M k i * h' k j

theorem WSymm.pow {w : Fin n → K} {M : Matrix (Fin n) (Fin n) K} (h : WSymm w M) (t : ℕ) : WSymm w (M ^ t) := by
  induction t with
  | zero => rw [pow_zero]; exact WSymm.one w
  | succ t ih =>
    rw [pow_succ]
    exact ih.mul_comm h (by rw [← pow_succ, ← pow_succ'])

theorem WSymm.sum {ι : Type} {w : Fin n → K} (s : Finset ι) {M : ι → Matrix (Fin n) (Fin n) K} (h : ∀ t ∈ s, WSymm w (M t)) :
    WSymm w (∑ t ∈ s, M t) := by
  intro i j
  rw [Matrix.sum_apply, Matrix.sum_apply, Finset.mul_sum, Finset.mul_sum]
  exact Finset.sum_congr rfl fun t ht => h t ht i j

theorem WSymm.moment {w : Fin n → K} {M : Matrix (Fin n) (Fin n) K} (h : WSymm w M) (x : Fin n → K) (a c : ℕ) :
    wip w ((M ^ a).mulVec x) ((M ^ c).mulVec x) = wip w x ((M ^ (a + c)).mulVec x) := by
  rw [(h.pow a).adjoint, Matrix.mulVec_mulVec, ← pow_add]

/-- A sum of an odd number of powers is positive definite; so is a sum of an even number, if `1 + M` is. -/
theorem WSymm.geometric_pos {w : Fin n → K} (hw : ∀ i, 0 < w i) {M : Matrix (Fin n) (Fin n) K} (h : WSymm w M) {m : ℕ} (hm : 0 < m)
    (hc : Odd m ∨ ∀ x, x ≠ 0 → 0 < wip w x (x + M.mulVec x)) {x : Fin n → K} (hx : x ≠ 0) :
    0 < wip w x ((∑ t ∈ Finset.range m, M ^ t).mulVec x) := by
  rw [Matrix.sum_mulVec, wip_sum_right]
  have hμ0 : wip w x ((M ^ 0).mulVec x) = wip w x x := by rw [pow_zero, Matrix.one_mulVec]
  rcases Nat.even_or_odd m with he | ho
  · replace hc := hc.resolve_left (Nat.not_odd_iff_even.2 he)
    have hc' : ∀ z, 0 ≤ wip w z (z + M.mulVec z) := by
      intro z
      by_cases hz : z = 0
      · subst hz; simp [wip]
      · exact (hc z hz).le
    have step : ∀ k, wip w ((M ^ k).mulVec x) ((M ^ k).mulVec x + M.mulVec ((M ^ k).mulVec x)) =
        wip w x ((M ^ (2 * k)).mulVec x) + wip w x ((M ^ (2 * k + 1)).mulVec x) := by
      intro k
      rw [wip_add_right, Matrix.mulVec_mulVec, ← pow_succ', h.moment, h.moment, show k + k = 2 * k by omega,
        show k + (k + 1) = 2 * k + 1 by omega]
    obtain ⟨k, rfl⟩ := he
    have hk : 0 < k := by omega
    have key : ∀ k, ∑ t ∈ Finset.range (k + k), wip w x ((M ^ t).mulVec x) =
        ∑ j ∈ Finset.range k, wip w ((M ^ j).mulVec x) ((M ^ j).mulVec x + M.mulVec ((M ^ j).mulVec x)) := by
      intro k
      induction k with
      | zero => simp
      | succ k ih =>
        rw [show k + 1 + (k + 1) = k + k + 1 + 1 by omega, Finset.sum_range_succ, Finset.sum_range_succ, ih, Finset.sum_range_succ, step,
          show 2 * k = k + k by omega, add_assoc]
    rw [key]
    refine Finset.sum_pos' (fun j _ => hc' _) ⟨0, Finset.mem_range.2 hk, ?_⟩
    rw [pow_zero, Matrix.one_mulVec]
    exact hc x hx
  · obtain ⟨k, rfl⟩ := ho
    have step : ∀ k, wip w ((M ^ k).mulVec x + (M ^ (k + 1)).mulVec x) ((M ^ k).mulVec x + (M ^ (k + 1)).mulVec x) =
        wip w x ((M ^ (2 * k)).mulVec x) + 2 * wip w x ((M ^ (2 * k + 1)).mulVec x) + wip w x ((M ^ (2 * k + 2)).mulVec x) := by
      intro k
      rw [wip_add_right, wip_add_left, wip_add_left, h.moment, h.moment, h.moment, h.moment,
        show k + k = 2 * k by omega, show k + 1 + k = 2 * k + 1 by omega, show k + (k + 1) = 2 * k + 1 by omega,
        show k + 1 + (k + 1) = 2 * k + 2 by omega]
      ring
    have key : ∀ k, 2 * ∑ t ∈ Finset.range (2 * k + 1), wip w x ((M ^ t).mulVec x) = wip w x x + wip w x ((M ^ (2 * k)).mulVec x) +
        ∑ j ∈ Finset.range k, wip w ((M ^ j).mulVec x + (M ^ (j + 1)).mulVec x) ((M ^ j).mulVec x + (M ^ (j + 1)).mulVec x) := by
      intro k
      induction k with
      | zero => simp only [Nat.mul_zero, Nat.zero_add, Finset.sum_range_one, Finset.sum_range_zero, hμ0]; ring
      | succ k ih =>
        rw [show 2 * (k + 1) + 1 = 2 * k + 1 + 1 + 1 by omega, Finset.sum_range_succ, Finset.sum_range_succ, mul_add, mul_add, ih,
          Finset.sum_range_succ, step, show 2 * (k + 1) = 2 * k + 2 by omega, show 2 * k + 1 + 1 = 2 * k + 2 by omega]
        ring
    have h1 := wip_self_pos hw hx
    have h2 : 0 ≤ wip w x ((M ^ (2 * k)).mulVec x) := by
      rw [show 2 * k = k + k by omega, ← h.moment]
      exact wip_self_nonneg hw _
    have h3 : 0 ≤ ∑ j ∈ Finset.range k, wip w ((M ^ j).mulVec x + (M ^ (j + 1)).mulVec x) ((M ^ j).mulVec x + (M ^ (j + 1)).mulVec x) :=
      Finset.sum_nonneg fun j _ => wip_self_nonneg hw _
    have := key k
    linarith

/-- A matrix that is self-adjoint is bounded by the row sums of a matrix with larger entries. -/
theorem WSymm.dominant {w : Fin n → K} (hw : ∀ i, 0 < w i) {M R : Matrix (Fin n) (Fin n) K} (h : WSymm w R)
    (hdiag : ∀ i, M i i = R i i) (hoff : ∀ i j, i ≠ j → |M i j| ≤ R i j) (x : Fin n → K) :
    wip w x (M.mulVec x) ≤ ∑ i, w i * (x i) ^ 2 * ∑ j, R i j := by
  have e1 : wip w x (M.mulVec x) = ∑ i, ∑ j, w i * (M i j * (x i * x j)) := by
    simp only [wip, Matrix.mulVec, dotProduct, Finset.mul_sum]
    exact Finset.sum_congr rfl fun i _ => Finset.sum_congr rfl fun j _ => by ring
  have e2 : ∑ i, ∑ j, w i * (R i j * ((x i ^ 2 + x j ^ 2) / 2)) = ∑ i, w i * (x i) ^ 2 * ∑ j, R i j := by
    have a : ∑ i, ∑ j, w i * R i j * (x j ^ 2) = ∑ i, ∑ j, w i * R i j * (x i ^ 2) := by
      rw [Finset.sum_comm]
      exact Finset.sum_congr rfl fun i _ => Finset.sum_congr rfl fun j _ => by rw [h j i]
    have b : ∑ i, ∑ j, w i * (R i j * ((x i ^ 2 + x j ^ 2) / 2)) =
        (∑ i, ∑ j, w i * R i j * (x i ^ 2) + ∑ i, ∑ j, w i * R i j * (x j ^ 2)) / 2 := by
      rw [← Finset.sum_add_distrib, Finset.sum_div]
      refine Finset.sum_congr rfl fun i _ => ?_
      rw [← Finset.sum_add_distrib, Finset.sum_div]
      exact Finset.sum_congr rfl fun j _ => by ring
    rw [b, a, add_self_div_two]
    refine Finset.sum_congr rfl fun i _ => ?_
    rw [Finset.mul_sum]
    exact Finset.sum_congr rfl fun j _ => by ring
  rw [e1, ← e2]
  refine Finset.sum_le_sum fun i _ => Finset.sum_le_sum fun j _ => mul_le_mul_of_nonneg_left ?_ (hw i).le
  by_cases hij : i = j
  · subst hij
    apply le_of_eq
    rw [hdiag]
    ring
  · have h1 := hoff i j hij
    have h2 : |x i * x j| ≤ (x i ^ 2 + x j ^ 2) / 2 := by
      rw [abs_le]
      constructor
      · nlinarith [sq_nonneg (x i + x j)]
      · nlinarith [sq_nonneg (x i - x j)]
    calc M i j * (x i * x j) ≤ |M i j * (x i * x j)| := le_abs_self _
      _ = |M i j| * |x i * x j| := abs_mul _ _
      _ ≤ R i j * ((x i ^ 2 + x j ^ 2) / 2) := mul_le_mul h1 h2 (abs_nonneg _) (le_trans (abs_nonneg _) h1)

end

/-! ### The same for the matrices of the model -/

section

variable {K : Type} [Field K] [LinearOrder K] [IsStrictOrderedRing K]

/-- entries on a range -/
def onFin (N : ℕ) (x : ℤ → K) : Fin N → K := fun i => x i

theorem mulVec_onFin (N : ℕ) (A : Mat K) (x : ℤ → K) (i : Fin N) : (A.toM N N).mulVec (onFin N x) i = Mat.mult N A x i := by
  unfold Mat.mult
  rw [Finset.sum_range]
  rfl

theorem wip_onFin (N : ℕ) (w x y : ℤ → K) : wip (onFin N w) (onFin N x) (onFin N y) = ∑ i ∈ Finset.range N, w i * x i * y i := by
  rw [Finset.sum_range]
  rfl

/-- The approximate inverse of a self-adjoint operator is self-adjoint. -/
theorem bn_symm {N : ℕ} {Op BN : Mat K} {dt c : K} {m : ℤ} (h : createBnHead N Op dt c m = .ok BN) {w : ℤ → K}
    (hw : ∀ x y : ℤ, 0 ≤ x → x < N → 0 ≤ y → y < N → w x * Op x y = w y * Op y x) {x y : ℤ} (x0 : 0 ≤ x) (x1 : x < N) (y0 : 0 ≤ y) (y1 : y < N) :
    w x * BN x y = w y * BN y x := by
  unfold createBnHead at h
  split_ifs at h
  cases h
  have hO : WSymm (onFin N w) (Op.toM N N) := fun i j => hw i j (by omega) (by omega) (by omega) (by omega)
  have := (WSymm.sum (Finset.range (m.toNat - 1 + 1)) fun t _ => (hO.smul (dt * c)).pow t).smul dt
  rw [← bnHead_toM] at this
  have := this ⟨x.toNat, by omega⟩ ⟨y.toNat, by omega⟩
  simp only [onFin, Mat.toM, Int.toNat_of_nonneg x0, Int.toNat_of_nonneg y0] at this
  exact this

/-- It is definite for odd orders, and for all orders if the steps are small. -/
theorem bn_definite {N : ℕ} {Op BN : Mat K} {dt c : K} {m : ℤ} (h : createBnHead N Op dt c m = .ok BN) {w : ℤ → K}
    (hpos : ∀ x : ℤ, 0 ≤ x → x < N → 0 < w x)
    (hw : ∀ x y : ℤ, 0 ≤ x → x < N → 0 ≤ y → y < N → w x * Op x y = w y * Op y x) (hdt : dt ≠ 0)
    (hc : Odd m ∨ 0 ≤ dt * c ∧ (∀ x y : ℤ, 0 ≤ x → x < N → 0 ≤ y → y < N → x ≠ y → 0 ≤ Op x y) ∧
      (∀ x : ℤ, 0 ≤ x → x < N → ∑ y ∈ (Finset.range N).filter (fun y : ℕ => (y : ℤ) ≠ x), Op x y ≤ -Op x x) ∧
      ∀ x : ℤ, 0 ≤ x → x < N → -(dt * c * Op x x) < 1 / 2) (v : ℤ → K) :
    0 ≤ dt⁻¹ * ∑ i ∈ Finset.range N, w i * v i * Mat.mult N BN v i ∧
      (∑ i ∈ Finset.range N, w i * v i * Mat.mult N BN v i = 0 → ∀ i : ℤ, 0 ≤ i → i < N → v i = 0) := by
  have hm : 1 ≤ m := by
    unfold createBnHead at h
    split_ifs at h with h1
    omega
  have hB : BN.toM N N = dt • ∑ t ∈ Finset.range m.toNat, ((dt * c) • Op.toM N N) ^ t := by
    unfold createBnHead at h
    split_ifs at h
    cases h
    rw [bnHead_toM, show m.toNat - 1 + 1 = m.toNat by omega]
  have hO : WSymm (onFin N w) (Op.toM N N) := fun i j => hw i j (by omega) (by omega) (by omega) (by omega)
  have hM := hO.smul (dt * c)
  have hwp : ∀ i, 0 < onFin N w i := fun i => hpos i (by omega) (by omega)
  have hsum : ∑ i ∈ Finset.range N, w i * v i * Mat.mult N BN v i =
      dt * wip (onFin N w) (onFin N v) ((∑ t ∈ Finset.range m.toNat, ((dt * c) • Op.toM N N) ^ t).mulVec (onFin N v)) := by
    rw [← wip_smul_right, ← Matrix.smul_mulVec, ← hB, ← wip_onFin]
    unfold wip
    refine Finset.sum_congr rfl fun i _ => ?_
    rw [mulVec_onFin]
    rfl
  have key : onFin N v ≠ 0 → 0 < wip (onFin N w) (onFin N v) ((∑ t ∈ Finset.range m.toNat, ((dt * c) • Op.toM N N) ^ t).mulVec (onFin N v)) := by
    intro hv
    refine hM.geometric_pos hwp (by omega) ?_ hv
    rcases hc with ho | ⟨h0, h1, h2, h3⟩
    · left
      obtain ⟨k, hk⟩ := ho
      exact ⟨k.toNat, by omega⟩
    · right
      intro x hx
      -- minus `1 + M` is bounded by its row sums
      have hR : WSymm (onFin N w) fun i j => if i = j then -(1 + dt * c * Op i i) else dt * c * Op i j := by
        intro i j
        by_cases hij : i = j
        · subst hij; rfl
        · simp only [if_neg hij, if_neg (Ne.symm hij)]
          have := hO i j
          simp only [Mat.toM] at this
          linear_combination (dt * c) * this
      have hd := WSymm.dominant (M := -(1 + (dt * c) • Op.toM N N)) hwp hR (by
          intro i
          simp [Mat.toM]) (by
          intro i j hij
          simp only [Matrix.neg_apply, Matrix.add_apply, Matrix.one_apply_ne hij, zero_add, Matrix.smul_apply, smul_eq_mul, Mat.toM, abs_neg, if_neg hij]
          rw [abs_of_nonneg (mul_nonneg h0 (h1 i j (by omega) (by omega) (by omega) (by omega) (by
            intro h
            exact hij (Fin.ext (by exact_mod_cast h)))))]) x
      have e : wip (onFin N w) x ((-(1 + (dt * c) • Op.toM N N)).mulVec x) = -wip (onFin N w) x (x + ((dt * c) • Op.toM N N).mulVec x) := by
        rw [Matrix.neg_mulVec, Matrix.add_mulVec, Matrix.one_mulVec, ← neg_one_smul K, wip_smul_right]
        ring
      rw [e] at hd
      obtain ⟨i, hi⟩ := Function.ne_iff.1 hx
      have rows : ∀ i : Fin N, ∑ j, (if i = j then -(1 + dt * c * Op i i) else dt * c * Op i j) < 0 := by
        intro i
        have e1 : ∑ j, (if i = j then -(1 + dt * c * Op i i) else dt * c * Op i j) = -(1 + dt * c * Op i i) +
            dt * c * ∑ y ∈ (Finset.range N).filter (fun y : ℕ => (y : ℤ) ≠ i), Op i y := by
          rw [Finset.sum_filter, Finset.sum_range fun y : ℕ => if (y : ℤ) ≠ (i : ℕ) then Op i y else 0, Finset.mul_sum]
          rw [← Finset.add_sum_erase _ _ (Finset.mem_univ i), if_pos rfl]
          congr 1
          rw [← Finset.add_sum_erase Finset.univ (fun j : Fin N => dt * c * if ((j : ℕ) : ℤ) ≠ (i : ℕ) then Op i j else 0) (Finset.mem_univ i),
            if_neg (not_not.2 rfl), mul_zero, zero_add]
          refine Finset.sum_congr rfl fun j hj => ?_
          have hj := (Finset.mem_erase.1 hj).1
          rw [if_neg (Ne.symm hj), if_pos]
          intro h
          exact hj (Fin.ext (by exact_mod_cast h))
        have h2 := mul_le_mul_of_nonneg_left (h2 i (by omega) (by omega)) h0
        have h3 := h3 i (by omega) (by omega)
        rw [e1]
        linarith
      have neg : ∑ i, onFin N w i * (x i) ^ 2 * ∑ j, (if i = j then -(1 + dt * c * Op i i) else dt * c * Op i j) < 0 := by
        refine Finset.sum_neg' (fun j _ => ?_) ⟨i, Finset.mem_univ i, ?_⟩
        · exact mul_nonpos_of_nonneg_of_nonpos (mul_nonneg (hwp j).le (sq_nonneg _)) (rows j).le
        · exact mul_neg_of_pos_of_neg (mul_pos (hwp i) (lt_of_le_of_ne (sq_nonneg _) (Ne.symm (pow_ne_zero 2 hi)))) (rows i)
      linarith
  rw [hsum]
  constructor
  · rw [← mul_assoc, inv_mul_cancel₀ hdt, one_mul]
    by_cases hv : onFin N v = 0
    · rw [hv]; simp [wip]
    · exact (key hv).le
  · intro hz i i0 i1
    by_contra hne
    have hv : onFin N v ≠ 0 := by
      intro h
      have := congrFun h ⟨i.toNat, by omega⟩
      simp only [onFin, Int.toNat_of_nonneg i0] at this
      exact hne this
    exact (mul_ne_zero hdt (key hv).ne') hz

end

end PetIBM
