/-
Assembled matrices entry by entry.
-/
import Verif.Model.Matrix
import Mathlib.Algebra.BigOperators.Group.Finset.Piecewise
import Mathlib.Tactic.Ring

namespace PetIBM

variable {K : Type} [Field K]

/-- Sum of the values listed at one position. -/
def valuesAt (l : List (Entry K)) (r c : ℤ) : K :=
  (l.map fun e => if e.row = r ∧ e.col = c then e.val else 0).sum

@[simp] theorem valuesAt_nil (r c : ℤ) : valuesAt ([] : List (Entry K)) r c = 0 := rfl

theorem valuesAt_cons (e : Entry K) (l : List (Entry K)) (r c : ℤ) :
    valuesAt (e :: l) r c = (if e.row = r ∧ e.col = c then e.val else 0) + valuesAt l r c := by
  simp [valuesAt]

theorem valuesAt_append (l l' : List (Entry K)) (r c : ℤ) :
    valuesAt (l ++ l') r c = valuesAt l r c + valuesAt l' r c := by
  simp [valuesAt]

theorem valuesAt_flatMap {α : Type} (l : List α) (g : α → List (Entry K)) (r c : ℤ) :
    valuesAt (l.flatMap g) r c = (l.map fun a => valuesAt (g a) r c).sum := by
  induction l with
  | nil => rfl
  | cons a l ih => simp [List.flatMap_cons, valuesAt_append, ih]

theorem valuesAt_eq_zero {l : List (Entry K)} {r c : ℤ} (h : ∀ e ∈ l, e.row = r → e.col = c → e.val = 0) :
    valuesAt l r c = 0 := by
  unfold valuesAt
  apply List.sum_eq_zero
  intro x hx
  obtain ⟨e, he, rfl⟩ := List.mem_map.1 hx
  split_ifs with h'
  · exact h e he h'.1 h'.2
  · rfl

theorem foldl_addValue (l : List (Entry K)) (A : Mat K) (r c : ℤ) (hr : 0 ≤ r) (hc : 0 ≤ c) :
    l.foldl Mat.addValue A r c = A r c + valuesAt l r c := by
  induction l generalizing A with
  | nil => simp
  | cons e l ih =>
    rw [List.foldl_cons, ih, valuesAt_cons]
    unfold Mat.addValue
    by_cases h : e.row < 0 ∨ e.col < 0
    · rw [if_pos h, if_neg (by omega)]; ring
    · rw [if_neg h]
      by_cases h1 : e.row = r
      · subst h1
        by_cases h2 : e.col = c
        · subst h2; simp; ring
        · simp [h2, Function.update_of_ne (Ne.symm h2)]
      · simp [h1, Function.update_of_ne (Ne.symm h1)]

/-- Insertions into distinct positions add up like additions. -/
theorem foldl_insertValue (l : List (Entry K)) (A : Mat K) (r : ℤ) (hr : 0 ≤ r)
    (hA : ∀ e ∈ l, e.row = r → 0 ≤ e.col → A r e.col = 0)
    (hd : ((l.filter fun e => decide (e.row = r ∧ 0 ≤ e.col)).map (·.col)).Nodup) (c : ℤ) (hc : 0 ≤ c) :
    l.foldl Mat.insertValue A r c = A r c + valuesAt l r c := by
  induction l generalizing A with
  | nil => simp
  | cons e l ih =>
    rw [List.foldl_cons, valuesAt_cons]
    by_cases h : e.row = r ∧ 0 ≤ e.col
    · rw [List.filter_cons_of_pos (by simpa using h), List.map_cons, List.nodup_cons] at hd
      obtain ⟨h1, h2⟩ := h
      have hA0 := hA e (List.mem_cons_self ..) h1 h2
      have hins : A.insertValue e = Function.update A e.row (Function.update (A e.row) e.col e.val) := by
        unfold Mat.insertValue; rw [if_neg (by omega)]
      have hne : ∀ e' ∈ l, e'.row = r → 0 ≤ e'.col → e'.col ≠ e.col := by
        intro e' he' hr' hc' heq
        apply hd.1
        rw [← heq]
        exact List.mem_map.2 ⟨e', List.mem_filter.2 ⟨he', by simp [hr', hc']⟩, rfl⟩
      rw [hins, h1, ih _ ?_ hd.2]
      · by_cases h3 : e.col = c
        · subst h3
          simp [hA0]
        · simp [h3, Function.update_of_ne (Ne.symm h3)]
      · intro e' he' hr' hc'
        rw [Function.update_self, Function.update_of_ne (hne e' he' hr' hc')]
        exact hA e' (List.mem_cons_of_mem _ he') hr' hc'
    · rw [List.filter_cons_of_neg (by simpa using h)] at hd
      have hrow : A.insertValue e r = A r := by
        unfold Mat.insertValue
        split_ifs with h'
        · rfl
        · rw [Function.update_of_ne]; rintro rfl; exact h ⟨rfl, by omega⟩
      rw [ih _ ?_ hd, hrow, if_neg (by rintro ⟨rfl, rfl⟩; exact h ⟨rfl, hc⟩), zero_add]
      intro e' he' hr' hc'
      rw [hrow]; exact hA e' (List.mem_cons_of_mem _ he') hr' hc'

theorem assemble_ok {nrow ncol : ℕ} {ins adds : List (Entry K)}
    (h : ∀ e ∈ ins ++ adds, e.row < nrow ∧ e.col < ncol) :
    assemble nrow ncol ins adds = .ok (adds.foldl Mat.addValue (ins.foldl Mat.insertValue fun _ _ => 0)) := by
  unfold assemble
  rw [if_pos]
  rw [List.all_eq_true]
  intro e he
  simpa using h e he

theorem assembled_entry {ins adds : List (Entry K)} {r c : ℤ} (hr : 0 ≤ r) (hc : 0 ≤ c)
    (hd : ((ins.filter fun e => decide (e.row = r ∧ 0 ≤ e.col)).map (·.col)).Nodup) :
    adds.foldl Mat.addValue (ins.foldl Mat.insertValue fun _ _ => 0) r c = valuesAt ins r c + valuesAt adds r c := by
  rw [foldl_addValue _ _ _ _ hr hc, foldl_insertValue ins _ r hr (fun _ _ _ _ => rfl) hd c hc, zero_add]

/-- Row of a matrix-vector product in terms of the listed values. -/
theorem mult_valuesAt (l : List (Entry K)) (ncol : ℕ) (x : ℤ → K) (r : ℤ) (h : ∀ e ∈ l, e.col < ncol) :
    ∑ c ∈ Finset.range ncol, valuesAt l r c * x c =
      (l.map fun e => if e.row = r ∧ 0 ≤ e.col then e.val * x e.col else 0).sum := by
  induction l with
  | nil => simp
  | cons e l ih =>
    simp only [valuesAt_cons, add_mul, Finset.sum_add_distrib, List.map_cons, List.sum_cons]
    rw [ih fun e' he' => h e' (List.mem_cons_of_mem _ he')]
    congr 1
    by_cases h1 : e.row = r
    · by_cases h2 : 0 ≤ e.col
      · obtain ⟨m, hm⟩ : ∃ m : ℕ, e.col = m := ⟨e.col.toNat, by omega⟩
        have hm' : m < ncol := by have := h e (List.mem_cons_self ..); omega
        rw [if_pos ⟨h1, h2⟩, Finset.sum_eq_single m]
        · simp [h1, hm]
        · intro b _ hb
          rw [if_neg (by rintro ⟨_, h'⟩; apply hb; omega), zero_mul]
        · intro h'; exact absurd (Finset.mem_range.2 hm') h'
      · rw [if_neg (by omega)]
        apply Finset.sum_eq_zero
        intro b _
        rw [if_neg (by omega), zero_mul]
    · simp [h1]

theorem mult_assembled {nrow ncol : ℕ} {ins adds : List (Entry K)}
    (h : ∀ e ∈ ins ++ adds, e.row < nrow ∧ e.col < ncol) {r : ℤ} (hr : 0 ≤ r)
    (hd : ((ins.filter fun e => decide (e.row = r ∧ 0 ≤ e.col)).map (·.col)).Nodup) (x : ℤ → K) :
    Mat.mult ncol (adds.foldl Mat.addValue (ins.foldl Mat.insertValue fun _ _ => 0)) x r =
      (ins.map fun e => if e.row = r ∧ 0 ≤ e.col then e.val * x e.col else 0).sum +
      (adds.map fun e => if e.row = r ∧ 0 ≤ e.col then e.val * x e.col else 0).sum := by
  unfold Mat.mult
  rw [← mult_valuesAt ins ncol x r fun e he => (h e (List.mem_append_left _ he)).2,
    ← mult_valuesAt adds ncol x r fun e he => (h e (List.mem_append_right _ he)).2, ← Finset.sum_add_distrib]
  apply Finset.sum_congr rfl
  intro c _
  rw [assembled_entry hr (by omega) hd]; ring

theorem addVector_eq (l : List (ℤ × K)) (r : ℤ) (hr : 0 ≤ r) :
    addVector l r = (l.map fun e => if e.1 = r then e.2 else 0).sum := by
  unfold addVector
  suffices ∀ y : ℤ → K, l.foldl (fun y e => if e.1 < 0 then y else Function.update y e.1 (y e.1 + e.2)) y r =
      y r + (l.map fun e => if e.1 = r then e.2 else 0).sum by simpa using this fun _ => 0
  induction l with
  | nil => simp
  | cons e l ih =>
    intro y
    rw [List.foldl_cons, ih, List.map_cons, List.sum_cons]
    by_cases h : e.1 < 0
    · rw [if_pos h, if_neg (by omega), zero_add]
    · rw [if_neg h]
      by_cases h1 : e.1 = r
      · subst h1; simp; ring
      · simp [h1, Function.update_of_ne (Ne.symm h1)]

theorem mapM_ok {α β : Type} {g : α → Except Error β} {h : α → β} (l : List α) (hg : ∀ a ∈ l, g a = .ok (h a)) :
    l.mapM g = .ok (l.map h) := by
  induction l with
  | nil => rfl
  | cons a l ih =>
    rw [List.mapM_cons, hg a (List.mem_cons_self ..), ih fun b hb => hg b (List.mem_cons_of_mem _ hb)]
    rfl

/-- A sum over a list with a single contributing element. -/
theorem sum_map_single {α : Type} [DecidableEq α] {l : List α} (hl : l.Nodup) {a : α} (ha : a ∈ l) (g : α → K)
    (h : ∀ b ∈ l, b ≠ a → g b = 0) : (l.map g).sum = g a := by
  induction l with
  | nil => simp at ha
  | cons b l ih =>
    rw [List.nodup_cons] at hl
    rw [List.map_cons, List.sum_cons]
    by_cases hb : b = a
    · subst hb
      rw [List.sum_eq_zero, add_zero]
      intro x hx
      obtain ⟨c, hc, rfl⟩ := List.mem_map.1 hx
      exact h c (List.mem_cons_of_mem _ hc) (by rintro rfl; exact hl.1 hc)
    · rw [h b (List.mem_cons_self ..) hb, zero_add, ih hl.2 ?_ fun c hc => h c (List.mem_cons_of_mem _ hc)]
      rcases List.mem_cons.1 ha with h' | h'
      · exact absurd h'.symm hb
      · exact h'

theorem sum_map_eq_zero {α : Type} {l : List α} (g : α → K) (h : ∀ b ∈ l, g b = 0) : (l.map g).sum = 0 := by
  apply List.sum_eq_zero
  intro x hx
  obtain ⟨c, hc, rfl⟩ := List.mem_map.1 hx
  exact h c hc

theorem sum_flatMap {α β : Type} (l : List α) (g : α → List β) (h : β → K) :
    ((l.flatMap g).map h).sum = (l.map fun a => ((g a).map h).sum).sum := by
  induction l with
  | nil => rfl
  | cons a l ih => simp [List.flatMap_cons, ih]

/-- The entries of one row, when row numbers tell the generating items apart. -/
theorem filter_flatMap_single {α β : Type} [DecidableEq α] {l : List α} (hl : l.Nodup) {a : α} (ha : a ∈ l)
    (g : α → List β) (p : β → Bool) (h : ∀ b ∈ l, b ≠ a → ∀ e ∈ g b, p e = false) :
    (l.flatMap g).filter p = (g a).filter p := by
  induction l with
  | nil => simp at ha
  | cons b l ih =>
    rw [List.nodup_cons] at hl
    rw [List.flatMap_cons, List.filter_append]
    by_cases hb : b = a
    · subst hb
      have : (l.flatMap g).filter p = [] := by
        rw [List.filter_eq_nil_iff]
        intro e he
        obtain ⟨c, hc, he⟩ := List.mem_flatMap.1 he
        rw [h c (List.mem_cons_of_mem _ hc) (by rintro rfl; exact hl.1 hc) e he]; simp
      rw [this, List.append_nil]
    · have h0 : (g b).filter p = [] := by
        rw [List.filter_eq_nil_iff]
        intro e he
        rw [h b (List.mem_cons_self ..) hb e he]; simp
      rw [h0, List.nil_append, ih hl.2 ?_ fun c hc => h c (List.mem_cons_of_mem _ hc)]
      rcases List.mem_cons.1 ha with h' | h'
      · exact absurd h'.symm hb
      · exact h'

end PetIBM
