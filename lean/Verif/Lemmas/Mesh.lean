import Verif.Model.Mesh
import Mathlib.Algebra.BigOperators.Group.List.Basic
import Mathlib.Tactic.Ring
import Mathlib.Tactic.Linarith
import Mathlib.Tactic.FieldSimp

set_option linter.unusedSectionVars false

namespace PetIBM

variable {K : Type*} [Field K]

theorem partialSumFrom_length (acc : K) (l : List K) : (partialSumFrom acc l).length = l.length := by
  induction l generalizing acc with
  | nil => rfl
  | cons x xs ih => simp [partialSumFrom, ih]

theorem partialSumFrom_get (acc : K) (l : List K) (i : ℕ) (h : i < l.length) :
    (partialSumFrom acc l)[i]'(by rw [partialSumFrom_length]; exact h) = acc + (l.take (i+1)).sum := by
  induction l generalizing acc i with
  | nil => simp at h
  | cons x xs ih =>
    cases i with
    | zero => simp [partialSumFrom]
    | succ i =>
      simp only [partialSumFrom, List.getElem_cons_succ, List.take_succ_cons, List.sum_cons]
      rw [ih _ _ (by simpa using h)]
      ring

theorem partialSum_length (l : List K) : (partialSum l).length = l.length := partialSumFrom_length 0 l

theorem partialSum_get (l : List K) (i : ℕ) (h : i < l.length) :
    (partialSum l)[i]'(by rw [partialSum_length]; exact h) = (l.take (i+1)).sum := by
  have := partialSumFrom_get 0 l i h
  rw [zero_add] at this
  exact this

/-- position of the `i`-th vertex -/
def vert (a : Axis K) (i : ℕ) : K := a.min + (a.dL.take i).sum

theorem vertexAxis_length (a : Axis K) : (vertexAxis a).coordTrue.length = a.dL.length + 1 := by
  simp [vertexAxis, partialSum_length]

theorem vertexAxis_get (a : Axis K) (i : ℕ) (h : i ≤ a.dL.length) :
    (vertexAxis a).coordTrue[i]? = some (vert a i) := by
  rw [List.getElem?_eq_some_iff]
  refine ⟨by rw [vertexAxis_length]; omega, ?_⟩
  cases i with
  | zero => simp [vertexAxis, vert]
  | succ i =>
    simp only [vertexAxis, List.getElem_map, List.getElem_cons_succ, vert]
    rw [partialSum_get _ _ (by omega)]
    ring

theorem pressureAxis_length (a : Axis K) : (pressureAxis a).coordTrue.length = a.dL.length := by
  simp [pressureAxis, partialSum_length]

theorem sum_take_succ' (l : List K) (i : ℕ) (h : i < l.length) :
    (l.take (i+1)).sum = (l.take i).sum + l[i] := by
  rw [List.take_add_one, List.sum_append, List.getElem?_eq_getElem h]
  simp

theorem vert_succ (a : Axis K) (i : ℕ) (h : i < a.dL.length) : vert a (i+1) = vert a i + a.dL[i] := by
  unfold vert; rw [sum_take_succ' _ _ h]; ring

theorem vert_last (a : Axis K) : vert a a.dL.length = a.min + a.dL.sum := by simp [vert]

theorem pressureAxis_get [CharZero K] (a : Axis K) (i : ℕ) (h : i < a.dL.length) :
    (pressureAxis a).coordTrue[i]? = some ((vert a i + vert a (i+1)) / 2) := by
  rw [List.getElem?_eq_some_iff]
  refine ⟨by rw [pressureAxis_length]; omega, ?_⟩
  simp only [pressureAxis, List.getElem_zipWith]
  rw [partialSum_get _ _ h, vert_succ _ _ h, sum_take_succ' _ _ h, vert]
  field_simp
  ring

theorem adjacentFrom_length (f : K → K → K) (y : K) (l : List K) : (adjacentFrom f y l).length = l.length := by
  induction l generalizing y with
  | nil => rfl
  | cons x xs ih => simp [adjacentFrom, ih]

theorem adjacentFrom_get (f : K → K → K) (y : K) (l : List K) (i : ℕ) (h : i < l.length) :
    (adjacentFrom f y l)[i]? = some (f l[i] ((y :: l)[i]'(by simp; omega))) := by
  induction l generalizing y i with
  | nil => simp at h
  | cons x xs ih =>
    cases i with
    | zero => simp [adjacentFrom]
    | succ i =>
      simp only [adjacentFrom, List.getElem?_cons_succ, List.getElem_cons_succ]
      rw [ih _ _ (by simpa using h)]

theorem adjacentDifference_length (f : K → K → K) (l : List K) : (adjacentDifference f l).length = l.length := by
  cases l with
  | nil => rfl
  | cons x xs => simp [adjacentDifference, adjacentFrom_length]

theorem adjacentDifference_get (f : K → K → K) (l : List K) (i : ℕ) (h : i + 1 < l.length) :
    (adjacentDifference f l)[i+1]? = some (f l[i+1] l[i]) := by
  cases l with
  | nil => simp at h
  | cons x xs =>
    simp only [adjacentDifference, List.getElem?_cons_succ]
    rw [adjacentFrom_get _ _ _ _ (by simpa using h)]
    simp

theorem adjacentDifference_zero (f : K → K → K) (l : List K) :
    (adjacentDifference f l)[0]? = l[0]? := by
  cases l <;> simp [adjacentDifference]

theorem ptrAt_ok {a : List K} {s : ℕ} {i : ℤ} {x : K} {m : ℕ} (hm : i + s = m) (h : a[m]? = some x) :
    ptrAt a s i = .ok x := by
  unfold ptrAt
  rw [if_pos (by omega), show (i + (s:ℤ)).toNat = m by omega, h]

theorem ptrAt_eq_ok {a : List K} {s : ℕ} {i : ℤ} {x : K} :
    ptrAt a s i = .ok x ↔ 0 ≤ i + s ∧ a[(i + s).toNat]? = some x := by
  unfold ptrAt
  split_ifs with h
  · rcases a[(i + (s:ℤ)).toNat]? with _ | y <;> simp [h]
  · simp [h]

end PetIBM
