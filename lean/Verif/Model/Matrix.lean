/-
PETSc matrices and vectors as the operators use them.
-/
import Verif.Model.Index
import Mathlib.Algebra.BigOperators.Ring.Finset
import Mathlib.Algebra.Field.Basic

namespace PetIBM

/-- One `MatSetValue` call. (`src/operators/createdivergence.cpp` 201) -/
structure Entry (K : Type) where
  row : ℤ
  col : ℤ
  val : K

/-- Values of an assembled matrix. Absent entries are 0, so `MAT_IGNORE_ZERO_ENTRIES` makes no difference. (`src/operators/createdivergence.cpp` 157-262) -/
abbrev Mat (K : Type) := ℤ → ℤ → K

variable {K : Type} [Field K]

/-- `MatSetValue(A, row, col, val, INSERT_VALUES)`; negative indices are ignored (PETSc manual page of `MatSetValues`). (`src/operators/createdivergence.cpp` 201, 216) -/
def Mat.insertValue (A : Mat K) (e : Entry K) : Mat K :=
  if e.row < 0 ∨ e.col < 0 then A else Function.update A e.row (Function.update (A e.row) e.col e.val)

/-- `MatSetValue(A, row, col, val, ADD_VALUES)`. (`src/operators/createdivergence.cpp` 240) -/
def Mat.addValue (A : Mat K) (e : Entry K) : Mat K :=
  if e.row < 0 ∨ e.col < 0 then A else Function.update A e.row (Function.update (A e.row) e.col (A e.row e.col + e.val))

/-- Insertions, flush, additions, final assembly, with all processes together (the calls of rank 0 first; a PETSc
error for indices beyond the size). Simplification: values set for rows of another process travel at assembly time;
the order among processes does not matter to the operators because no two processes insert into the same row. (`src/operators/createdivergence.cpp` 157-262) -/
def assemble (nrow ncol : ℕ) (inserts adds : List (Entry K)) : Except Error (Mat K) :=
  if (inserts ++ adds).all fun e => decide (e.row < nrow ∧ e.col < ncol) then
    .ok (adds.foldl Mat.addValue (inserts.foldl Mat.insertValue fun _ _ => 0))
  else .error .argOutOfRange

/-- `MatMult`: row `r` of `A x`, `ncol` columns. (`applications/navierstokes/navierstokes.cpp` 432-521) -/
def Mat.mult (ncol : ℕ) (A : Mat K) (x : ℤ → K) (r : ℤ) : K := ∑ c ∈ Finset.range ncol, A r c * x c

/-- `VecSet(y, 0)`, then `VecSetValue(y, row, val, ADD_VALUES)` for each pair, then assembly; negative indices are
ignored. (`src/operators/createdivergence.cpp` 45-77) -/
def addVector (adds : List (ℤ × K)) : ℤ → K :=
  adds.foldl (fun y e => if e.1 < 0 then y else Function.update y e.1 (y e.1 + e.2)) fun _ => 0

end PetIBM
