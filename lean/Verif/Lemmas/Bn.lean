/-
The approximate inverse in terms of Mathlib's matrices.
-/
import Verif.Model.Bn
import Verif.Spec.Matrix
import Mathlib.Data.Matrix.Mul
import Mathlib.Algebra.BigOperators.Fin
import Mathlib.Data.Matrix.Basic
import Mathlib.Tactic.Ring
import Mathlib.Tactic.NoncommRing

namespace PetIBM

variable {K : Type} [Field K]

theorem toM_mul (N P M : ℕ) (A B : Mat K) : (Mat.mul P A B).toM N M = A.toM N P * B.toM P M := by
  ext i j
  simp only [Mat.toM, Mat.mul, Matrix.mul_apply]
  rw [Finset.sum_range]

theorem toM_axpy (N M : ℕ) (A B : Mat K) (a : K) : (Mat.axpy A a B).toM N M = A.toM N M + a • B.toM N M := by
  ext i j; simp [Mat.toM, Mat.axpy]

theorem toM_scale (N M : ℕ) (A : Mat K) (a : K) : (Mat.scale A a).toM N M = a • A.toM N M := by
  ext i j; simp [Mat.toM, Mat.scale]

theorem toM_shift (N : ℕ) (A : Mat K) (a : K) : (Mat.shift A a).toM N N = A.toM N N + a • 1 := by
  ext i j
  simp only [Mat.toM, Mat.shift, Matrix.add_apply, Matrix.smul_apply, Matrix.one_apply, smul_eq_mul]
  by_cases h : i = j
  · subst h; simp
  · have : ¬ ((i : ℕ) : ℤ) = ((j : ℕ) : ℤ) := by
      intro h'; exact h (Fin.ext (by exact_mod_cast h'))
    simp [h, this]

theorem toM_diagonalScale (N M : ℕ) (A : Mat K) (l r : ℤ → K) :
    (Mat.diagonalScale A l r).toM N M = Matrix.diagonal (fun i : Fin N => l i) * A.toM N M * Matrix.diagonal (fun j : Fin M => r j) := by
  ext i j
  simp [Mat.toM, Mat.diagonalScale, Matrix.mul_diagonal, Matrix.diagonal_mul]

theorem toM_leftProducts (N : ℕ) (A B : Mat K) (t : ℕ) :
    (leftProducts N A B (t + 2)).toM N N = A.toM N N ^ t * B.toM N N := by
  unfold leftProducts
  rw [Nat.add_sub_cancel]
  induction t with
  | zero => simp
  | succ t ih =>
    rw [List.range_succ, List.foldl_append, List.foldl_cons, List.foldl_nil, toM_mul, ih, pow_succ', mul_assoc]

/-- a mat_geometric sum of matrices -/
theorem mat_geometric {N : ℕ} (X : Matrix (Fin N) (Fin N) K) (m : ℕ) :
    (1 - X) * ((Finset.range m).sum fun t => X ^ t) = 1 - X ^ m := by
  induction m with
  | zero => simp
  | succ m ih => rw [Finset.sum_range_succ, mul_add, ih, pow_succ']; noncomm_ring

theorem bnHead_toM (N : ℕ) (Op : Mat K) (dt c : K) (m : ℕ) :
    ((List.range m).foldl (fun B t => Mat.axpy B (dt ^ (t + 2) * c ^ (t + 2 - 1)) (leftProducts N Op Op (t + 2)))
      (Mat.shift (fun _ _ => 0) dt)).toM N N = dt • (Finset.range (m + 1)).sum fun t => ((dt * c) • Op.toM N N) ^ t := by
  induction m with
  | zero =>
    simp only [List.range_zero, List.foldl_nil, toM_shift]
    have : (Mat.toM N N fun _ _ => (0 : K)) = 0 := rfl
    rw [this]; simp
  | succ m ih =>
    rw [List.range_succ, List.foldl_append, List.foldl_cons, List.foldl_nil, toM_axpy, ih,
      toM_leftProducts, ← pow_succ]
    have h1 : m + 2 - 1 = m + 1 := by omega
    have h2 : dt ^ (m + 2) * c ^ (m + 2 - 1) = dt * (dt * c) ^ (m + 1) := by rw [h1, mul_pow]; ring
    rw [Finset.sum_range_succ _ (m + 1), smul_add, smul_pow, smul_smul, h2]

theorem bnM_toM (N : ℕ) (Op : Mat K) (w : ℤ → K) (dt c : K) (m : ℕ) :
    ((List.range m).foldl (fun B t => Mat.axpy B (dt ^ (t + 2) * c ^ (t + 2 - 1))
        (Mat.diagonalScale (leftProducts N (Mat.diagonalScale Op w fun _ => 1) (Mat.diagonalScale Op w fun _ => 1) (t + 2)) (fun _ => 1) w))
      (Mat.scale (fun i j => if i = j then w i else 0) dt)).toM N N =
    dt • ((Finset.range (m + 1)).sum fun t => ((dt * c) • (Matrix.diagonal (fun i : Fin N => w i) * Op.toM N N)) ^ t) *
      Matrix.diagonal (fun i : Fin N => w i) := by
  have hdiag : (Mat.toM N N fun i j => if i = j then w i else 0) = Matrix.diagonal fun i : Fin N => w i := by
    ext i j
    simp only [Mat.toM, Matrix.diagonal_apply]
    by_cases h : i = j
    · subst h; simp
    · have : ¬ ((i : ℕ) : ℤ) = ((j : ℕ) : ℤ) := by
        intro h'; exact h (Fin.ext (by exact_mod_cast h'))
      simp [h, this]
  have hone : Matrix.diagonal (fun _ : Fin N => (1 : K)) = 1 := Matrix.diagonal_one
  induction m with
  | zero =>
    simp only [List.range_zero, List.foldl_nil, toM_scale, hdiag]
    simp
  | succ m ih =>
    rw [List.range_succ, List.foldl_append, List.foldl_cons, List.foldl_nil, toM_axpy, ih,
      toM_diagonalScale, toM_leftProducts, ← pow_succ, toM_diagonalScale, hone, mul_one, one_mul]
    have h1 : m + 2 - 1 = m + 1 := by omega
    have h2 : dt ^ (m + 2) * c ^ (m + 2 - 1) = dt * (dt * c) ^ (m + 1) := by rw [h1, mul_pow]; ring
    rw [Finset.sum_range_succ _ (m + 1), smul_add, add_mul, smul_pow, smul_smul, h2, smul_mul_assoc _ (_ ^ _)]

end PetIBM
