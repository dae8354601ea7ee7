import Mathlib.Data.List.Basic
import Mathlib.Data.List.Nodup
import Mathlib.Algebra.BigOperators.Group.List.Basic
import Mathlib.Algebra.BigOperators.Group.Finset.Basic
import Mathlib.Tactic.Ring
import Mathlib.Tactic.Linarith

namespace PetIBM

theorem getElem?_flatMap_range {α : Type*} (g : ℕ → List α) (N : ℕ) {R q : ℕ} {a : α} (hR : R < N)
    (h : (g R)[q]? = some a) :
    ((List.range N).flatMap g)[((List.range R).map fun r => (g r).length).sum + q]? = some a := by
  obtain ⟨m, rfl⟩ : ∃ m, N = R + 1 + m := ⟨N - (R+1), by omega⟩
  have hlen : ((List.range R).flatMap g).length = ((List.range R).map fun r => (g r).length).sum := by
    rw [List.length_flatMap]
  rw [List.range_add, List.flatMap_append, List.range_succ, List.flatMap_append, List.append_assoc,
    List.getElem?_append_right (by omega), hlen, Nat.add_sub_cancel_left]
  simp only [List.flatMap_cons, List.flatMap_nil, List.append_nil]
  have hq : q < (g R).length := by
    rw [List.getElem?_eq_some_iff] at h; exact h.1
  rw [List.getElem?_append_left hq, h]

theorem sum_take_succ (l : List ℕ) (p : ℕ) : (l.take (p+1)).sum = (l.take p).sum + l.getD p 0 := by
  rw [List.take_add_one, List.sum_append]
  rcases h : l[p]? with _ | a <;> simp [h]

theorem sum_take_mono (l : List ℕ) {p q : ℕ} (h : p ≤ q) : (l.take p).sum ≤ (l.take q).sum := by
  induction q, h using Nat.le_induction with
  | base => rfl
  | succ n _ ih => rw [sum_take_succ]; omega

theorem exists_block (l : List ℕ) {i : ℕ} (h : i < l.sum) :
    ∃ p, p < l.length ∧ (l.take p).sum ≤ i ∧ i < (l.take (p+1)).sum := by
  induction l generalizing i with
  | nil => simp at h
  | cons a t ih =>
    by_cases hi : i < a
    · exact ⟨0, by simp, by simp, by simpa using hi⟩
    · simp at h
      obtain ⟨p, h1, h2, h3⟩ := ih (i := i - a) (by omega)
      refine ⟨p+1, by simpa using h1, ?_, ?_⟩
      · simp; omega
      · rw [List.take_succ_cons, List.sum_cons]; omega

theorem block_unique (l : List ℕ) {i p q : ℕ} (hp1 : (l.take p).sum ≤ i) (hp2 : i < (l.take (p+1)).sum)
    (hq1 : (l.take q).sum ≤ i) (hq2 : i < (l.take (q+1)).sum) : p = q := by
  rcases Nat.lt_trichotomy p q with h | h | h
  · have := sum_take_mono l (p := p+1) (q := q) h; omega
  · exact h
  · have := sum_take_mono l (p := q+1) (q := p) h; omega

theorem sum_take_le (l : List ℕ) (p : ℕ) : (l.take p).sum ≤ l.sum := by
  conv_rhs => rw [← List.take_append_drop p l, List.sum_append]
  omega

end PetIBM
