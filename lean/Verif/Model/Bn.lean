/-
Matrix algebra of PETSc and the approximate inverse of the implicit operator.
-/
import Verif.Model.Matrix

namespace PetIBM

variable {K : Type} [Field K]

/-- `MatMatMult(A, B)`, `n` columns of `A`. (`src/operators/createbn.cpp` 68, 187) -/
def Mat.mul (n : ℕ) (A B : Mat K) : Mat K := fun i j => ∑ k ∈ Finset.range n, A i k * B k j

/-- `MatAXPY(Y, a, X)`: `Y + a X`. (`src/operators/createbn.cpp` 83, 205) -/
def Mat.axpy (Y : Mat K) (a : K) (X : Mat K) : Mat K := fun i j => Y i j + a * X i j

/-- `MatScale`. (`src/operators/createbn.cpp` 164) -/
def Mat.scale (A : Mat K) (a : K) : Mat K := fun i j => a * A i j

/-- `MatShift`: adds `a` to the diagonal. (`src/operators/createbn.cpp` 49) -/
def Mat.shift (A : Mat K) (a : K) : Mat K := fun i j => if i = j then A i j + a else A i j

/-- `MatDiagonalScale(A, l, r)`: row `i` times `l i`, column `j` times `r j`. (`src/operators/createbn.cpp` 121, 175, 199) -/
def Mat.diagonalScale (A : Mat K) (l r : ℤ → K) : Mat K := fun i j => l i * A i j * r j

/-- `MatGetDiagonal`. (`src/operators/createbn.cpp` 113-118, 161) -/
def Mat.diagonal (A : Mat K) : ℤ → K := fun i => A i i

/-- `VecReciprocal`; zero entries stay zero in PETSc, as the inverse of zero does in Lean. (`src/operators/createbn.cpp` 114, 162) -/
def vecReciprocal (x : ℤ → K) : ℤ → K := fun i => (x i)⁻¹

/-- The inner loop over `c` (`src/operators/createbn.cpp` 66-79 and 187-200): `term - 2` multiplications from the left. -/
def leftProducts (N : ℕ) (left right : Mat K) (term : ℕ) : Mat K :=
  (List.range (term - 2)).foldl (fun m _ => Mat.mul N left m) right

/-- `createBnHead`, `src/operators/createbn.cpp` 19-95, for an operator with `N` rows. The loop variable `term` runs from 2
to `n`. -/
def createBnHead (N : ℕ) (Op : Mat K) (dt coeff : K) (n : ℤ) : Except Error (Mat K) :=
  if n < 1 then .error .unsupported
  else
    let first := Mat.shift (fun _ _ => 0) dt
    .ok ((List.range (n.toNat - 1)).foldl (fun B t =>
      let term := t + 2
      Mat.axpy B (dt ^ term * coeff ^ (term - 1)) (leftProducts N Op Op term)) first)

/-- `createBn(Op, R, MHead, dt, coeff, n)`, `src/operators/createbn.cpp` 98-128. -/
def createBnR (N : ℕ) (Op R MHead : Mat K) (dt coeff : K) (n : ℤ) : Except Error (Mat K) := do
  let Bn ← createBnHead N Op dt coeff n
  return Mat.diagonalScale Bn R.diagonal (vecReciprocal MHead.diagonal)

/-- `createBn(Op, M, dt, coeff, n)`, `src/operators/createbn.cpp` 131-220. -/
def createBnM (N : ℕ) (Op M : Mat K) (dt coeff : K) (n : ℤ) : Except Error (Mat K) :=
  if n < 1 then .error .unsupported
  else
    let mInv := vecReciprocal M.diagonal
    let first : Mat K := Mat.scale (fun i j => if i = j then mInv i else 0) dt
    let left := Mat.diagonalScale Op mInv fun _ => 1
    .ok ((List.range (n.toNat - 1)).foldl (fun B t =>
      let term := t + 2
      let right := Mat.diagonalScale (leftProducts N left left term) (fun _ => 1) mInv
      Mat.axpy B (dt ^ term * coeff ^ (term - 1)) right) first)

end PetIBM
