/-
The ordering of stencils is a strict total order, so the map behaves as a dictionary.
-/
import Verif.Model.StdMap
import Mathlib.Tactic.SplitIfs
import Mathlib.Tactic.Common
import Mathlib.Data.List.Nodup

namespace PetIBM

theorem stencilLt_iff (l r : Stencil) : stencilLt l r = true ↔
    l.k < r.k ∨ (l.k = r.k ∧ (l.j < r.j ∨ (l.j = r.j ∧ (l.i < r.i ∨ (l.i = r.i ∧ l.c < r.c))))) := by
  unfold stencilLt
  split_ifs <;> simp <;> omega

theorem stencilLt_irrefl (a : Stencil) : stencilLt a a = false := by
  rw [← Bool.not_eq_true, stencilLt_iff]; omega

theorem stencilLt_trans {a b c : Stencil} (h : stencilLt a b = true) (h' : stencilLt b c = true) :
    stencilLt a c = true := by
  rw [stencilLt_iff] at *; omega

theorem stencilLt_asymm {a b : Stencil} (h : stencilLt a b = true) : stencilLt b a = false := by
  rw [← Bool.not_eq_true, stencilLt_iff]; rw [stencilLt_iff] at h; omega

theorem stencil_eq_of_not_lt {a b : Stencil} (h : stencilLt a b = false) (h' : stencilLt b a = false) : a = b := by
  rw [← Bool.not_eq_true, stencilLt_iff] at h h'
  cases a; cases b
  simp only [Stencil.mk.injEq] at *
  omega

namespace StencilMap

variable {T : Type*}

/-- keys increase -/
def Sorted (m : StencilMap T) : Prop := m.Pairwise fun a b => stencilLt a.1 b.1 = true

theorem mem_insert {m : StencilMap T} {k : Stencil} {v : T} {x : Stencil × T} (hx : x ∈ insert m k v) :
    x.1 = k ∨ x ∈ m := by
  induction m with
  | nil => simp only [insert, List.mem_singleton] at hx; subst hx; simp
  | cons a m ih =>
    obtain ⟨k', v'⟩ := a
    simp only [insert] at hx
    split_ifs at hx with h1 h2
    · rcases List.mem_cons.1 hx with h | h
      · subst h; exact Or.inl rfl
      · exact Or.inr h
    · rcases List.mem_cons.1 hx with h | h
      · subst h; simp
      · rcases ih h with h | h
        · exact Or.inl h
        · exact Or.inr (List.mem_cons_of_mem _ h)
    · rcases List.mem_cons.1 hx with h | h
      · subst h
        left
        exact stencil_eq_of_not_lt (by simpa using h2) (by simpa using h1)
      · exact Or.inr (List.mem_cons_of_mem _ h)

theorem sorted_insert {m : StencilMap T} (hm : Sorted m) (k : Stencil) (v : T) : Sorted (insert m k v) := by
  induction m with
  | nil => simp [insert, Sorted]
  | cons a m ih =>
    obtain ⟨k', v'⟩ := a
    unfold Sorted at hm ih ⊢
    rw [List.pairwise_cons] at hm
    simp only [insert]
    split_ifs with h1 h2
    · rw [List.pairwise_cons, List.pairwise_cons]
      refine ⟨?_, hm⟩
      intro x hx
      rcases List.mem_cons.1 hx with h | h
      · subst h; exact h1
      · exact stencilLt_trans h1 (hm.1 x h)
    · rw [List.pairwise_cons]
      refine ⟨?_, ih hm.2⟩
      intro x hx
      rcases mem_insert hx with h | h
      · simp only [h]; exact h2
      · exact hm.1 x h
    · rw [List.pairwise_cons]
      exact hm

theorem find_none_of_lt {m : StencilMap T} (k : Stencil) (h : ∀ x ∈ m, stencilLt k x.1 = true) : find m k = none := by
  cases m with
  | nil => rfl
  | cons a m =>
    obtain ⟨k', v'⟩ := a
    have := h (k', v') (by simp)
    simp only at this
    simp [find, this]

theorem find_insert {m : StencilMap T} (hm : Sorted m) (k k' : Stencil) (v : T) :
    find (insert m k v) k' = if k' = k then some v else find m k' := by
  induction m with
  | nil =>
    simp only [insert, find]
    by_cases h : k' = k
    · subst h; simp [stencilLt_irrefl]
    · rw [if_neg h]
      split_ifs with h1 h2
      · rfl
      · rfl
      · exact absurd (stencil_eq_of_not_lt (by simpa using h1) (by simpa using h2)) h
  | cons a m ih =>
    obtain ⟨q, w⟩ := a
    unfold Sorted at hm
    rw [List.pairwise_cons] at hm
    have ih' := ih hm.2
    simp only [insert]
    by_cases h1 : stencilLt k q = true
    · rw [if_pos h1]
      by_cases h : k' = k
      · subst h; simp [find, stencilLt_irrefl]
      · rw [if_neg h]
        by_cases h2 : stencilLt k' k = true
        · have h3 := stencilLt_trans h2 h1
          simp [find, h2, h3]
        · by_cases h3 : stencilLt k k' = true
          · rw [find.eq_def]; simp [h2, h3]
          · exact absurd (stencil_eq_of_not_lt (by simpa using h2) (by simpa using h3)) h
    · rw [if_neg h1]
      by_cases h2 : stencilLt q k = true
      · rw [if_pos h2]
        by_cases h : k' = k
        · subst h
          rw [if_pos rfl] at *
          simp [find, h1, h2, ih']
        · rw [if_neg h] at *
          simp only [find]; rw [ih']
      · rw [if_neg h2]
        have hk : k = q := stencil_eq_of_not_lt (by simpa using h1) (by simpa using h2)
        subst hk
        by_cases h : k' = k
        · subst h; simp [find, stencilLt_irrefl]
        · rw [if_neg h]
          simp only [find]
          by_cases h3 : stencilLt k' k = true
          · simp [h3]
          · by_cases h4 : stencilLt k k' = true
            · simp [h3, h4]
            · exact absurd (stencil_eq_of_not_lt (by simpa using h3) (by simpa using h4)) h

theorem foldl_insert (ops : List (Stencil × T)) (m : StencilMap T) (hm : Sorted m) :
    Sorted (ops.foldl (fun m kv => insert m kv.1 kv.2) m) ∧
    ∀ k, find (ops.foldl (fun m kv => insert m kv.1 kv.2) m) k =
      ((ops.reverse.find? fun kv => kv.1 = k).map (·.2)).or (find m k) := by
  induction ops generalizing m with
  | nil => exact ⟨hm, fun k => by simp⟩
  | cons a ops ih =>
    obtain ⟨h1, h2⟩ := ih _ (sorted_insert hm a.1 a.2)
    refine ⟨h1, fun k => ?_⟩
    rw [List.foldl_cons, h2 k, find_insert hm, List.reverse_cons, List.find?_append]
    rcases hf : List.find? (fun kv => decide (kv.1 = k)) ops.reverse with _ | x
    · by_cases hk : k = a.1
      · subst hk; simp [hf]
      · have hk' : ¬ a.1 = k := fun h => hk h.symm
        simp [hk, hk', hf]
    · simp only [hf, Option.map_some, Option.some_or]

/-- Lookup in a map built by assignments: the last value assigned to the same stencil. -/
theorem find_ofAssignments (ops : List (Stencil × T)) (k : Stencil) :
    find (ofAssignments ops) k = (ops.reverse.find? fun kv => kv.1 = k).map (·.2) := by
  have := (foldl_insert ops [] (by simp [Sorted])).2 k
  simpa [ofAssignments, find] using this

theorem sorted_ofAssignments (ops : List (Stencil × T)) : Sorted (ofAssignments ops) :=
  (foldl_insert ops [] (by simp [Sorted])).1

theorem find_iff_mem {m : StencilMap T} (hm : Sorted m) (k : Stencil) (v : T) : find m k = some v ↔ (k, v) ∈ m := by
  induction m with
  | nil => simp [find]
  | cons a m ih =>
    obtain ⟨q, w⟩ := a
    unfold Sorted at hm
    rw [List.pairwise_cons] at hm
    simp only [find, List.mem_cons, Prod.mk.injEq]
    by_cases h1 : stencilLt k q = true
    · rw [if_pos h1]
      simp only [reduceCtorEq, false_iff, not_or]
      constructor
      · rintro ⟨rfl, _⟩; rw [stencilLt_irrefl] at h1; exact absurd h1 (by simp)
      · intro hmem
        have := stencilLt_asymm (hm.1 _ hmem)
        simp only at this
        rw [this] at h1; exact absurd h1 (by simp)
    · rw [if_neg h1]
      by_cases h2 : stencilLt q k = true
      · rw [if_pos h2, ih hm.2]
        constructor
        · exact Or.inr
        · rintro (⟨rfl, _⟩ | h)
          · rw [stencilLt_irrefl] at h2; exact absurd h2 (by simp)
          · exact h
      · rw [if_neg h2]
        have hk : k = q := stencil_eq_of_not_lt (by simpa using h1) (by simpa using h2)
        subst hk
        simp only [Option.some.injEq]
        constructor
        · rintro rfl; simp
        · rintro (⟨_, rfl⟩ | h)
          · rfl
          · have := hm.1 _ h
            simp only at this
            rw [stencilLt_irrefl] at this; exact absurd this (by simp)

/-- With distinct keys the map holds exactly the assigned pairs. -/
theorem mem_ofAssignments {ops : List (Stencil × T)} (hn : (ops.map (·.1)).Nodup) (k : Stencil) (v : T) :
    (k, v) ∈ ofAssignments ops ↔ (k, v) ∈ ops := by
  rw [← find_iff_mem (sorted_ofAssignments ops), find_ofAssignments]
  simp only [Option.map_eq_some_iff]
  have hn' : ∀ x ∈ ops, ∀ y ∈ ops, x.1 = y.1 → x = y := by
    intro x hx y hy h
    obtain ⟨i, hi⟩ := List.getElem?_of_mem hx
    obtain ⟨j, hj⟩ := List.getElem?_of_mem hy
    obtain ⟨hi', hi''⟩ := List.getElem?_eq_some_iff.1 hi
    obtain ⟨hj', hj''⟩ := List.getElem?_eq_some_iff.1 hj
    have hij : i = j := by
      rw [← List.Nodup.getElem_inj_iff hn (hi := by simpa using hi') (hj := by simpa using hj')]
      simp [hi'', hj'', h]
    subst hij
    rw [← hi'', ← hj'']
  constructor
  · rintro ⟨x, hx, rfl⟩
    have h1 := List.mem_of_find?_eq_some hx
    have h2 := List.find?_some hx
    simp only [decide_eq_true_eq] at h2
    subst h2
    exact List.mem_reverse.1 h1
  · intro h
    have : ∃ x, List.find? (fun kv => decide (kv.1 = k)) ops.reverse = some x := by
      rw [← Option.isSome_iff_exists, List.find?_isSome]
      exact ⟨(k, v), List.mem_reverse.2 h, by simp⟩
    obtain ⟨x, hx⟩ := this
    refine ⟨x, hx, ?_⟩
    have h1 := List.mem_reverse.1 (List.mem_of_find?_eq_some hx)
    have h2 := List.find?_some hx
    simp only [decide_eq_true_eq] at h2
    have := hn' x h1 (k, v) h h2
    rw [this]

end StencilMap

end PetIBM
