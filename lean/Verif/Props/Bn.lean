/-
Property C26: the approximate inverse of the implicit operator.
-/
import Verif.Lemmas.Bn
import Mathlib.Algebra.Field.Rat
import Mathlib.Tactic.NormNum
import Mathlib.Tactic.FieldSimp

set_option linter.unusedSectionVars false

namespace PetIBM

variable {K : Type} [Field K]

/-- C26. `createBnHead` of order `n ≥ 1`: `(I/dt - c Op) B = I - (dt c Op)^n`, as `N × N` matrices. The first order is
`dt` times the identity. -/
theorem C26_bnHead (N : ℕ) (Op : Mat K) (dt c : K) (hdt : dt ≠ 0) (n : ℤ) (hn : 1 ≤ n) :
    ∃ B, createBnHead N Op dt c n = .ok B ∧
      ((1 / dt) • (1 : Matrix (Fin N) (Fin N) K) - c • Op.toM N N) * B.toM N N = 1 - ((dt * c) • Op.toM N N) ^ n.toNat ∧
      (n = 1 → B.toM N N = dt • 1) := by
  refine ⟨_, if_neg (by omega), ?_⟩
  rw [bnHead_toM, show n.toNat - 1 + 1 = n.toNat by omega]
  constructor
  · rw [mul_smul_comm, ← smul_mul_assoc, smul_sub, smul_smul, smul_smul, mul_one_div_cancel hdt, one_smul, mat_geometric]
  · rintro rfl
    simp

/-- C26. Orders below one are rejected by all three functions, whatever the matrices. -/
theorem C26_order_rejected (N : ℕ) (Op R MHead M : Mat K) (dt c : K) (n : ℤ) (hn : n < 1) :
    createBnHead N Op dt c n = .error .unsupported ∧ createBnR N Op R MHead dt c n = .error .unsupported ∧
      createBnM N Op M dt c n = .error .unsupported := by
  have h : createBnHead N Op dt c n = .error .unsupported := if_pos hn
  refine ⟨h, ?_, if_pos hn⟩
  unfold createBnR
  rw [h]
  rfl

/-- C26. `createBn` with the area scaling: for diagonal `R` and `MHead` without zeros on the diagonal,
`MHead (I/dt - c Op) R⁻¹ B = I - MHead (dt c Op)^n MHead⁻¹`, written without inverses as
`(I/dt - c Op) R⁻¹ B MHead = I - (dt c Op)^n`. -/
theorem C26_bn_flux (N : ℕ) (Op R MHead : Mat K) (dt c : K) (hdt : dt ≠ 0) (n : ℤ) (hn : 1 ≤ n)
    (hR : ∀ i : Fin N, R i i ≠ 0) (hM : ∀ i : Fin N, MHead i i ≠ 0) :
    ∃ B, createBnR N Op R MHead dt c n = .ok B ∧
      ((1 / dt) • (1 : Matrix (Fin N) (Fin N) K) - c • Op.toM N N) * Matrix.diagonal (fun i : Fin N => (R i i)⁻¹) * B.toM N N *
        Matrix.diagonal (fun i : Fin N => MHead i i) = 1 - ((dt * c) • Op.toM N N) ^ n.toNat := by
  obtain ⟨B, hB, h, _⟩ := C26_bnHead N Op dt c hdt n hn
  unfold createBnR
  rw [hB]
  refine ⟨_, rfl, ?_⟩
  rw [toM_diagonalScale, ← h]
  have e1 : Matrix.diagonal (fun i : Fin N => (R i i)⁻¹) * Matrix.diagonal (fun i : Fin N => R.diagonal i) = 1 := by
    rw [Matrix.diagonal_mul_diagonal, ← Matrix.diagonal_one]
    congr 1; funext i; exact inv_mul_cancel₀ (hR i)
  have e2 : Matrix.diagonal (fun j : Fin N => vecReciprocal MHead.diagonal j) * Matrix.diagonal (fun i : Fin N => MHead i i) = 1 := by
    rw [Matrix.diagonal_mul_diagonal, ← Matrix.diagonal_one]
    congr 1; funext i; exact inv_mul_cancel₀ (hM i)
  calc _ = ((1 / dt) • 1 - c • Op.toM N N) *
        (Matrix.diagonal (fun i : Fin N => (R i i)⁻¹) * Matrix.diagonal (fun i : Fin N => R.diagonal i)) * B.toM N N *
        (Matrix.diagonal (fun j : Fin N => vecReciprocal MHead.diagonal j) * Matrix.diagonal (fun i : Fin N => MHead i i)) := by
        simp only [Matrix.mul_assoc]
    _ = _ := by rw [e1, e2, Matrix.mul_one, Matrix.mul_one]

/-- C26. `createBn` with a diagonal mass matrix without zeros on the diagonal:
`(M/dt - c Op) B = I - (dt c Op M⁻¹)^n`. The first order is `dt M⁻¹`. -/
theorem C26_bn_mass (N : ℕ) (Op M : Mat K) (dt c : K) (hdt : dt ≠ 0) (n : ℤ) (hn : 1 ≤ n) (hM : ∀ i : Fin N, M i i ≠ 0) :
    ∃ B, createBnM N Op M dt c n = .ok B ∧
      ((1 / dt) • Matrix.diagonal (fun i : Fin N => M i i) - c • Op.toM N N) * B.toM N N =
        1 - ((dt * c) • (Op.toM N N * Matrix.diagonal (fun i : Fin N => (M i i)⁻¹))) ^ n.toNat ∧
      (n = 1 → B.toM N N = dt • Matrix.diagonal fun i : Fin N => (M i i)⁻¹) := by
  refine ⟨_, if_neg (by omega), ?_⟩
  rw [bnM_toM, show n.toNat - 1 + 1 = n.toNat by omega]
  have e0 : (fun i : Fin N => vecReciprocal M.diagonal i) = fun i : Fin N => (M i i)⁻¹ := rfl
  rw [e0]
  set W := Matrix.diagonal (fun i : Fin N => (M i i)⁻¹) with hW
  set D := Matrix.diagonal (fun i : Fin N => M i i) with hD
  have hDW : D * W = 1 := by
    rw [hD, hW, Matrix.diagonal_mul_diagonal, ← Matrix.diagonal_one]
    congr 1; funext i; exact mul_inv_cancel₀ (hM i)
  have hWD : W * D = 1 := by
    rw [hD, hW, Matrix.diagonal_mul_diagonal, ← Matrix.diagonal_one]
    congr 1; funext i; exact inv_mul_cancel₀ (hM i)
  constructor
  · have h1 : ∀ m : ℕ, ((dt * c) • (W * Op.toM N N)) ^ m * W = W * ((dt * c) • (Op.toM N N * W)) ^ m := by
      intro m
      have h : SemiconjBy W ((dt * c) • (Op.toM N N * W)) ((dt * c) • (W * Op.toM N N)) := by
        unfold SemiconjBy
        rw [mul_smul_comm, smul_mul_assoc, mul_assoc]
      exact (h.pow_right m).symm
    have h2 : dt • ((Finset.range n.toNat).sum fun t => ((dt * c) • (W * Op.toM N N)) ^ t) * W =
        W * (dt • (Finset.range n.toNat).sum fun t => ((dt * c) • (Op.toM N N * W)) ^ t) := by
      rw [smul_mul_assoc, mul_smul_comm, Finset.sum_mul, Finset.mul_sum]
      congr 1
      exact Finset.sum_congr rfl fun t _ => h1 t
    rw [h2, ← Matrix.mul_assoc, Matrix.sub_mul, smul_mul_assoc, hDW, smul_mul_assoc, mul_smul_comm, ← smul_mul_assoc, smul_sub,
      smul_smul, smul_smul, mul_one_div_cancel hdt, one_smul, mat_geometric]
  · rintro rfl
    simp

/-- Two unknowns, order three: the hypotheses hold and the operator is not trivial. -/
example : ∃ B : Mat ℚ, createBnHead 2 (fun i j => if i = j then -2 else 1) (1 / 10) (1 / 2) 3 = .ok B ∧ B 0 0 = 73 / 800 ∧ B 0 1 = 1 / 250 := by
  refine ⟨_, rfl, ?_, ?_⟩ <;> decide +kernel

end PetIBM
