import Verif.Spec.Mesh
import Verif.Lemmas.Mesh
import Mathlib.Algebra.Order.BigOperators.Group.List
import Mathlib.Data.Rat.Defs
import Mathlib.Algebra.Order.Ring.Rat
import Mathlib.Tactic.NormNum

set_option linter.unusedSectionVars false

namespace PetIBM

open Spec

variable {K : Type*} [Field K] [LinearOrder K] [IsStrictOrderedRing K]

theorem getLast?_eq_get {α : Type*} (l : List α) (x : α) (h : l.getLast? = some x) :
    ∃ m, l.length = m + 1 ∧ l[m]? = some x := by
  rw [List.getLast?_eq_getElem?] at h
  have hlt : l.length - 1 < l.length := (List.getElem?_eq_some_iff.1 h).1
  exact ⟨l.length - 1, by omega, h⟩

theorem axis_ends {a : Axis K} (ha : AxisOK a) : ∃ (m : ℕ) (hm : a.dL.length = m + 1),
    a.dL.head? = some (a.dL[0]'(by omega)) ∧ a.dL.getLast? = some (a.dL[m]'(by omega)) := by
  have hx := List.getLast?_eq_some_getLast ha.nonempty
  obtain ⟨m, hm, hx'⟩ := getLast?_eq_get _ _ hx
  refine ⟨m, hm, ?_, ?_⟩
  · rw [List.head?_eq_getElem?, List.getElem?_eq_getElem]
  · rw [hx, ← hx', List.getElem?_eq_getElem]

theorem dL_pos {a : Axis K} (ha : AxisOK a) (i : ℕ) (h : i < a.dL.length) : 0 < a.dL[i] :=
  ha.pos _ (List.getElem_mem h)

theorem vert_max {a : Axis K} (ha : AxisOK a) : vert a a.dL.length = a.max := by
  rw [vert_last, ha.total]

theorem vert_zero (a : Axis K) : vert a 0 = a.min := by simp [vert]

/-- centre of cell `i` -/
def centre (a : Axis K) (i : ℕ) : K := (vert a i + vert a (i+1)) / 2

theorem normalAxis_nonper {a : Axis K} (ha : AxisOK a) : ∃ A, normalAxis false a = .ok A ∧
    A.n + 1 = a.dL.length ∧
    (∀ i : ℤ, -1 ≤ i → i ≤ A.n → A.coord i = .ok (vert a (i+1).toNat)) ∧
    (∀ i : ℕ, i < A.n → A.dL i = .ok (centre a (i+1) - centre a i)) ∧
    A.dL (-1) = .ok (vert a 1 - vert a 0) ∧ A.dL A.n = .ok (vert a a.dL.length - vert a A.n) ∧
    A.coordTrue.length = A.n + 2 ∧ A.dLTrue.length = A.n + 2 ∧ A.shift = 1 := by
  obtain ⟨m, hm, h0, h1⟩ := axis_ends ha
  refine ⟨_, by simp only [normalAxis, h0, h1]; rfl, by simp; omega, ?_, ?_, ?_, ?_, ?_, ?_, rfl⟩
  · intro i hi hi'
    simp only at hi'
    obtain ⟨k, hk⟩ : ∃ k : ℕ, i + 1 = k := ⟨(i+1).toNat, by omega⟩
    rw [hk]
    exact ptrAt_ok hk (vertexAxis_get a _ (by omega))
  · intro i hi
    simp only at hi
    refine ptrAt_ok (m := i + 1) (by simp) ?_
    rw [List.getElem?_append_left (by rw [adjacentDifference_length]; omega), adjacentDifference_get _ _ _ (by omega)]
    congr 1
    unfold centre halfSum
    rw [vert_succ a (i+1) (by omega), vert_succ a i (by omega)]
    field_simp; ring
  · refine ptrAt_ok (m := 0) (by simp) ?_
    rw [List.getElem?_append_left (by rw [adjacentDifference_length]; omega), adjacentDifference_zero,
      List.getElem?_eq_getElem (by omega), vert_succ a 0 (by omega)]
    congr 1; ring
  · refine ptrAt_ok (m := m + 1) (by simp; omega) ?_
    rw [List.getElem?_append_right (by rw [adjacentDifference_length]; omega), adjacentDifference_length,
      show m + 1 - a.dL.length = 0 by omega, List.getElem?_cons_zero]
    simp only
    rw [show a.dL.length - 1 = m by omega, show vert a a.dL.length = vert a (m+1) by rw [hm],
      vert_succ a m (by omega)]
    congr 1; ring
  · rw [vertexAxis_length]; simp; omega
  · simp [adjacentDifference_length]; omega

theorem normalAxis_per {a : Axis K} (ha : AxisOK a) : ∃ A, normalAxis true a = .ok A ∧
    A.n = a.dL.length ∧
    (∀ i : ℤ, -1 ≤ i → i < A.n → A.coord i = .ok (vert a (i+1).toNat)) ∧
    A.coord A.n = .ok (a.max + (vert a 1 - vert a 0)) ∧
    (∀ i : ℕ, i + 1 < A.n → A.dL i = .ok (centre a (i+1) - centre a i)) ∧
    (∀ i : ℤ, (i = -1 ∨ i + 1 = A.n) → A.dL i = .ok (centre a 0 + (a.max - a.min) - centre a (A.n - 1))) ∧
    A.dL A.n = A.dL 0 ∧
    A.coordTrue.length = A.n + 2 ∧ A.dLTrue.length = A.n + 2 ∧ A.shift = 1 := by
  obtain ⟨m, hm, h0, h1⟩ := axis_ends ha
  have hd1 : ∃ d1, ((adjacentDifference halfSum a.dL ++ [halfSum a.dL[0] a.dL[m]]).set 0
      (halfSum a.dL[0] a.dL[m]))[1]? = some d1 := by
    have : 1 < ((adjacentDifference halfSum a.dL ++ [halfSum a.dL[0] a.dL[m]]).set 0
      (halfSum a.dL[0] a.dL[m])).length := by simp [adjacentDifference_length]; omega
    exact ⟨_, List.getElem?_eq_getElem this⟩
  obtain ⟨d1, hd1⟩ := hd1
  have hlast : halfSum a.dL[0] a.dL[m] = centre a 0 + (a.max - a.min) - centre a m := by
    have e := vert_max ha
    rw [hm, vert_succ a m (by omega)] at e
    unfold centre halfSum
    rw [vert_succ a 0 (by omega), vert_succ a m (by omega), ← e, vert_zero]
    field_simp; ring
  refine ⟨_, by simp only [normalAxis, h0, h1, hd1]; rfl, by simp; omega, ?_, ?_, ?_, ?_, ?_, ?_, ?_, rfl⟩
  · intro i hi hi'
    simp only at hi'
    obtain ⟨k, hk⟩ : ∃ k : ℕ, i + 1 = k := ⟨(i+1).toNat, by omega⟩
    rw [hk]
    refine ptrAt_ok hk ?_
    rw [List.getElem?_append_left (by rw [vertexAxis_length]; omega)]
    exact vertexAxis_get a _ (by omega)
  · refine ptrAt_ok (m := m + 2) (by simp; omega) ?_
    rw [List.getElem?_append_right (by rw [vertexAxis_length]; omega), vertexAxis_length,
      show m + 2 - (a.dL.length + 1) = 0 by omega, List.getElem?_cons_zero]
    congr 1
    rw [vert_succ a 0 (by omega)]; ring
  · intro i hi
    simp only at hi
    refine ptrAt_ok (m := i + 1) (by simp) ?_
    rw [List.getElem?_append_left (by simp [adjacentDifference_length]; omega), List.getElem?_set_ne (by omega),
      List.getElem?_append_left (by rw [adjacentDifference_length]; omega), adjacentDifference_get _ _ _ (by omega)]
    congr 1
    unfold centre halfSum
    rw [vert_succ a (i+1) (by omega), vert_succ a i (by omega)]
    field_simp; ring
  · intro i hi
    rcases hi with rfl | hi
    · refine ptrAt_ok (m := 0) (by simp) ?_
      rw [List.getElem?_append_left (by simp), List.getElem?_set_self (by simp), hlast]
      simp only
      rw [show a.dL.length - 1 + 1 - 1 = m by omega]
    · simp only at hi
      refine ptrAt_ok (m := m + 1) (by simp; omega) ?_
      rw [List.getElem?_append_left (by simp [adjacentDifference_length]; omega), List.getElem?_set_ne (by omega),
        List.getElem?_append_right (by rw [adjacentDifference_length]; omega), adjacentDifference_length,
        show m + 1 - a.dL.length = 0 by omega, List.getElem?_cons_zero, hlast]
      simp only
      rw [show a.dL.length - 1 + 1 - 1 = m by omega]
  · have e1 : ptrAt ((adjacentDifference halfSum a.dL ++ [halfSum a.dL[0] a.dL[m]]).set 0
      (halfSum a.dL[0] a.dL[m]) ++ [d1]) 1 0 = .ok d1 := by
      refine ptrAt_ok (m := 1) (by simp) ?_
      rw [List.getElem?_append_left (by simp [adjacentDifference_length]; omega), hd1]
    refine Eq.trans ?_ e1.symm
    refine ptrAt_ok (m := m + 2) (by simp; omega) ?_
    rw [List.getElem?_append_right (by simp [adjacentDifference_length]; omega)]
    simp [adjacentDifference_length, hm]
  · simp [vertexAxis_length]; omega
  · simp [adjacentDifference_length]; omega

theorem tangentAxis_ok {a : Axis K} (ha : AxisOK a) (per : Bool) : ∃ A, tangentAxis per a = .ok A ∧
    A.n = a.dL.length ∧
    (∀ i : ℕ, i < A.n → A.coord i = .ok (centre a i) ∧ A.dL i = .ok (vert a (i+1) - vert a i)) ∧
    (per = false → A.coord (-1) = .ok (2 * a.min - centre a 0) ∧
      A.coord A.n = .ok (2 * a.max - centre a (A.n - 1)) ∧
      A.dL (-1) = A.dL 0 ∧ A.dL A.n = A.dL (A.n - 1)) ∧
    (per = true → A.coord (-1) = .ok (centre a (A.n - 1) - (a.max - a.min)) ∧
      A.coord A.n = .ok (centre a 0 + (a.max - a.min)) ∧
      A.dL (-1) = A.dL (A.n - 1) ∧ A.dL A.n = A.dL 0) ∧
    A.coordTrue.length = A.n + 2 ∧ A.dLTrue.length = A.n + 2 ∧ A.shift = 1 := by
  obtain ⟨m, hm, h0, h1⟩ := axis_ends ha
  have e := vert_max ha
  rw [hm, vert_succ a m (by omega)] at e
  have inner : ∀ (x y : K) (i : ℕ), i < a.dL.length →
      (x :: (pressureAxis a).coordTrue ++ [y])[i+1]? = some (centre a i) := by
    intro x y i hi
    rw [List.cons_append, List.getElem?_cons_succ, List.getElem?_append_left (by rw [pressureAxis_length]; omega)]
    exact pressureAxis_get a i hi
  have outer : ∀ (x y : K), (x :: (pressureAxis a).coordTrue ++ [y])[m+2]? = some y := by
    intro x y
    rw [List.cons_append, List.getElem?_cons_succ, List.getElem?_append_right (by rw [pressureAxis_length]; omega),
      pressureAxis_length, show m + 1 - a.dL.length = 0 by omega, List.getElem?_cons_zero]
  have innerD : ∀ (x y : K) (i : ℕ), i < a.dL.length →
      (x :: a.dL ++ [y])[i+1]? = some (vert a (i+1) - vert a i) := by
    intro x y i hi
    rw [List.cons_append, List.getElem?_cons_succ, List.getElem?_append_left hi, List.getElem?_eq_getElem hi,
      vert_succ a i hi]
    congr 1; ring
  have outerD : ∀ (x y : K), (x :: a.dL ++ [y])[m+2]? = some y := by
    intro x y
    rw [List.cons_append, List.getElem?_cons_succ, List.getElem?_append_right (by omega),
      show m + 1 - a.dL.length = 0 by omega, List.getElem?_cons_zero]
  have hm1 : vert a (m+1) - vert a m = a.dL[m] := by rw [vert_succ a m (by omega)]; ring
  have h01 : vert a (0+1) - vert a 0 = a.dL[0] := by rw [vert_succ a 0 (by omega)]; ring
  cases per with
  | false =>
    refine ⟨_, by simp only [tangentAxis, h0, h1]; rfl, rfl, ?_, ?_, by simp, ?_, ?_, rfl⟩
    · intro i hi
      exact ⟨ptrAt_ok (m := i+1) (by simp) (inner _ _ i hi), ptrAt_ok (m := i+1) (by simp) (innerD _ _ i hi)⟩
    · intro _
      refine ⟨?_, ?_, ?_, ?_⟩
      · refine ptrAt_ok (m := 0) (by simp) ?_
        simp only [List.cons_append, List.getElem?_cons_zero]
        congr 1
        unfold centre
        rw [vert_succ a 0 (by omega), vert_zero]; field_simp; ring
      · refine ptrAt_ok (m := m+2) (by simp; omega) ?_
        rw [outer]
        congr 1
        simp only
        rw [show a.dL.length - 1 = m by omega]
        unfold centre
        rw [vert_succ a m (by omega), ← e]; field_simp; ring
      · refine (ptrAt_ok (m := 0) (by simp) rfl).trans (ptrAt_ok (m := 1) (by simp) ?_).symm
        rw [innerD _ _ 0 (by omega), h01]
      · refine (ptrAt_ok (m := m+2) (by simp; omega) (outerD _ _)).trans
          (ptrAt_ok (m := m+1) (by simp; omega) ?_).symm
        rw [innerD _ _ m (by omega), hm1]
    · simp [pressureAxis_length]
    · simp
  | true =>
    refine ⟨_, by simp only [tangentAxis, h0, h1]; rfl, rfl, ?_, by simp, ?_, ?_, ?_, rfl⟩
    · intro i hi
      exact ⟨ptrAt_ok (m := i+1) (by simp) (inner _ _ i hi), ptrAt_ok (m := i+1) (by simp) (innerD _ _ i hi)⟩
    · intro _
      refine ⟨?_, ?_, ?_, ?_⟩
      · refine ptrAt_ok (m := 0) (by simp) ?_
        simp only [List.cons_append, List.getElem?_cons_zero]
        congr 1
        rw [show a.dL.length - 1 = m by omega]
        unfold centre
        rw [vert_succ a m (by omega), ← e]; field_simp; ring
      · refine ptrAt_ok (m := m+2) (by simp; omega) ?_
        rw [outer]
        congr 1
        unfold centre
        rw [vert_succ a 0 (by omega), vert_zero]; field_simp; ring
      · refine (ptrAt_ok (m := 0) (by simp) rfl).trans (ptrAt_ok (m := m+1) (by simp; omega) ?_).symm
        rw [innerD _ _ m (by omega), hm1]
      · refine (ptrAt_ok (m := m+2) (by simp; omega) (outerD _ _)).trans
          (ptrAt_ok (m := 1) (by simp) ?_).symm
        rw [innerD _ _ 0 (by omega), h01]
    · simp [pressureAxis_length]
    · simp

end PetIBM
