/-
Entries of the divergence and gradient matrices with any number of periodic cells: the last insertion counts.
-/
import Verif.Lemmas.Gradient

set_option linter.unusedSectionVars false

namespace PetIBM

open Spec

section

variable {K : Type} [Field K]

theorem insertValue_congr (l : List (Entry K)) (A A' : Mat K) (r c : ℤ) (h : A r c = A' r c) :
    l.foldl Mat.insertValue A r c = l.foldl Mat.insertValue A' r c := by
  induction l generalizing A A' with
  | nil => exact h
  | cons e l ih =>
    rw [List.foldl_cons, List.foldl_cons]
    apply ih
    unfold Mat.insertValue
    split_ifs
    · exact h
    · by_cases h1 : r = e.row
      · subst h1
        by_cases h2 : c = e.col
        · subst h2; simp
        · simp [Function.update_of_ne h2, h]
      · simp [Function.update_of_ne h1, h]

/-- Only the insertions at a position matter to it. -/
theorem insertValue_filter (l : List (Entry K)) (A : Mat K) (r c : ℤ) :
    l.foldl Mat.insertValue A r c = (l.filter fun e => decide (e.row = r ∧ e.col = c)).foldl Mat.insertValue A r c := by
  induction l generalizing A with
  | nil => rfl
  | cons e l ih =>
    by_cases h : e.row = r ∧ e.col = c
    · rw [List.filter_cons_of_pos (by simpa using h), List.foldl_cons, List.foldl_cons, ih]
    · rw [List.filter_cons_of_neg (by simpa using h), List.foldl_cons, ← ih]
      apply insertValue_congr
      unfold Mat.insertValue
      split_ifs
      · rfl
      · by_cases h1 : r = e.row
        · subst h1
          have h2 : c ≠ e.col := fun h2 => h ⟨rfl, h2.symm⟩
          simp [Function.update_of_ne h2]
        · simp [Function.update_of_ne h1]

/-- Two insertions into one row. -/
theorem insertValue_pair (r a b : ℤ) (v w : K) (c : ℤ) (hr : 0 ≤ r) (hc : 0 ≤ c) :
    [(⟨r, a, v⟩ : Entry K), ⟨r, b, w⟩].foldl Mat.insertValue (fun _ _ => 0) r c = if b = c then w else if a = c then v else 0 := by
  simp only [List.foldl_cons, List.foldl_nil]
  have key : ∀ (M : Mat K) (x : ℤ) (z : K), M.insertValue ⟨r, x, z⟩ r c = if x = c then z else M r c := by
    intro M x z
    unfold Mat.insertValue
    by_cases hx : x = c
    · subst hx
      rw [if_neg (by simp; omega), if_pos rfl]
      simp
    · rw [if_neg hx]
      split_ifs
      · rfl
      · rw [Function.update_self, Function.update_of_ne (Ne.symm hx)]
  rw [key, key]

end

variable {K : Type} [Field K] [LinearOrder K] [IsStrictOrderedRing K]
variable {L : Layout} {G : Geom K} {axes : ℕ → Axis K} {debug : Bool} {B : ℕ → Boundary K}

/-- Entries of the gradient matrix. -/
theorem gradient_entries (S : Setup L G axes) (debug normalize : Bool) :
    ∃ A, createGradient debug L G normalize = .ok A ∧ ∀ u, IsUnknown L u → ∀ x : ℤ, 0 ≤ x → A (col L u.comp u.st) x =
      if col L 3 (along u.st u.comp (coordOf u.st u.comp + 1)) = x then gradVal G normalize u.comp u.st
      else if col L 3 u.st = x then -gradVal G normalize u.comp u.st else 0 := by
  classical
  have hr := gradPure_range S normalize
  rw [createGradient_eq S debug normalize, assemble_ok hr]
  refine ⟨_, rfl, ?_⟩
  intro u hu x hx
  have h0 := (col_inside S.layout (Or.inl hu.1) false hu.inside).2.1
  rw [List.foldl_nil, insertValue_filter, filter_flatMap_single (nodup_unknowns L) ((mem_unknowns S.layout).2 hu)
    (fun u => gradPure L G normalize u.comp u.st), ← insertValue_filter]
  · exact insertValue_pair _ _ _ _ _ _ h0 hx
  · intro v hv hne e he
    rw [decide_eq_false_iff_not]
    rintro ⟨h, _⟩
    apply hne
    apply ((mem_unknowns S.layout).1 hv).row_inj S.layout hu
    simp only [gradPure, List.mem_cons, List.not_mem_nil, or_false] at he
    rcases he with rfl | rfl <;> exact h

/-- Entries of the divergence matrix for the unknowns of one component. -/
theorem divergence_entries (S : Setup L G axes) (hP : Partitioned L) (normalize : Bool) (hG : GhostsOK debug L G B) :
    ∃ A mods, createDivergence debug L G normalize B = .ok (A, mods) ∧ ∀ c, IsCell L c → ∀ u, IsUnknown L u →
      A (col L 3 (cellSt c)) (col L u.comp u.st) =
        (if col L u.comp (nbr (2 * u.comp) (cellSt c)) = col L u.comp u.st then -divK G normalize u.comp (cellSt c)
          else if col L u.comp (cellSt c) = col L u.comp u.st then divK G normalize u.comp (cellSt c) else 0) +
        ((List.range L.dim).map fun f => divK G normalize f (cellSt c) *
          ((if col L f (cellSt c) = -1 then ((ghostAt (B c.1) f (2 * f + 1) (cellSt c)).map fun p =>
              p.a0 * if p.targetPackedId = col L u.comp u.st then 1 else 0).getD 0 else 0) -
           (if col L f (nbr (2 * f) (cellSt c)) = -1 then ((ghostAt (B c.1) f (2 * f) (nbr (2 * f) (cellSt c))).map fun p =>
              p.a0 * if p.targetPackedId = col L u.comp u.st then 1 else 0).getD 0 else 0))).sum := by
  classical
  have hL := S.layout
  have h3 := S.dim_le
  obtain ⟨mods, hm, heq⟩ := createDivergence_eq S hP debug normalize B
  have hrange := div_range S hP hG mods hm
  refine ⟨_, mods, by rw [heq, assemble_ok hrange]; rfl, ?_⟩
  intro c hc u hu
  have hin := hc.inside hL
  have hrow := (col_inside hL (Or.inr rfl) false hin).2.1
  have hcol := (col_inside hL (Or.inl hu.1) false hu.inside).2.1
  rw [foldl_addValue _ _ _ _ hrow hcol]
  congr 1
  · rw [insertValue_filter, filter_flatMap_single (nodup_cells L) (mem_cells.2 hc)
      (fun c => (List.range L.dim).flatMap fun f => divEntries L G normalize (cellSt c) f),
      filter_flatMap_single List.nodup_range (List.mem_range.2 hu.1) (fun f => divEntries L G normalize (cellSt c) f), ← insertValue_filter]
    · exact insertValue_pair _ _ _ _ _ _ hrow hcol
    · intro g hg hne e he
      have hg := List.mem_range.1 hg
      rw [decide_eq_false_iff_not]
      rintro ⟨_, h⟩
      have hpos := (hP g g (Or.inl hg) (by omega)).2
      obtain ⟨fi1, fi2⟩ := face_inside S hg (by omega) hin
      simp only [divEntries, List.mem_cons, List.not_mem_nil, or_false] at he
      rcases he with rfl | rfl
      · have h : col L g (cellSt c) = col L u.comp u.st := h
        exact hne (col_inj hL hg hu.1 (fi1 (by omega)) hu.inside h).1
      · have h : col L g (nbr (2 * g) (cellSt c)) = col L u.comp u.st := h
        obtain ⟨y, hy, hy', _⟩ := fi2 (by omega)
        rw [hy'] at h
        exact hne (col_inj hL hg hu.1 hy hu.inside h).1
    · intro v hv hne e he
      rw [decide_eq_false_iff_not]
      rintro ⟨h, _⟩
      apply hne
      apply (mem_cells.1 hv).ext hL hc
      obtain ⟨f, _, he⟩ := List.mem_flatMap.1 he
      simp only [divEntries, List.mem_cons, List.not_mem_nil, or_false] at he
      rcases he with rfl | rfl <;> exact h
  · refine Eq.trans ?_ (div_ghost_sum S hP hG hc mods hm fun p => p.a0 * if p.targetPackedId = col L u.comp u.st then 1 else 0)
    unfold valuesAt boundaryEntries
    rw [List.map_map]
    congr 1
    apply List.map_congr_left
    intro x _
    simp only [Function.comp]
    by_cases h1 : (modifierAt (mods x.1 x.2.1) x.2.2.1).row = col L 3 (cellSt c) <;>
      by_cases h2 : x.2.2.2.targetPackedId = col L u.comp u.st <;> simp [h1, h2]

end PetIBM
