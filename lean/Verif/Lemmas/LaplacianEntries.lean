/-
Entries of the Laplacian matrix when several insertions may reach the same position.
-/
import Verif.Lemmas.Laplacian

set_option linter.unusedSectionVars false

namespace PetIBM

open Spec

variable {K : Type} [Field K]

/-- After a sequence of insertions a position holds its first value, and nobody wrote it, or one of the values inserted there. -/
theorem insertValue_cases (l : List (Entry K)) (A : Mat K) (r c : ℤ) (hr : 0 ≤ r) (hc : 0 ≤ c) :
    ((∀ e ∈ l, ¬(e.row = r ∧ e.col = c)) ∧ l.foldl Mat.insertValue A r c = A r c) ∨
    ∃ e ∈ l, e.row = r ∧ e.col = c ∧ l.foldl Mat.insertValue A r c = e.val := by
  induction l generalizing A with
  | nil => exact Or.inl ⟨by simp, rfl⟩
  | cons e l ih =>
    rw [List.foldl_cons]
    rcases ih (A.insertValue e) with ⟨h1, h2⟩ | ⟨e', he', h⟩
    · by_cases h : e.row = r ∧ e.col = c
      · refine Or.inr ⟨e, List.mem_cons_self .., h.1, h.2, ?_⟩
        rw [h2]
        unfold Mat.insertValue
        rw [if_neg (by omega), h.1, h.2, Function.update_self, Function.update_self]
      · refine Or.inl ⟨?_, ?_⟩
        · intro e' he'
          rcases List.mem_cons.1 he' with rfl | he'
          · exact h
          · exact h1 e' he'
        · rw [h2]
          unfold Mat.insertValue
          split_ifs
          · rfl
          · by_cases h3 : e.row = r
            · rw [h3, Function.update_self, Function.update_of_ne]
              intro h4
              exact h ⟨h3, h4.symm⟩
            · rw [Function.update_of_ne (Ne.symm h3)]
    · exact Or.inr ⟨e', List.mem_cons_of_mem _ he', h⟩

section

variable {debug : Bool} {L : Layout} {G : Geom K} {B : ℕ → Boundary K}

/-- With at least two cells in each periodic direction no neighbour of an unknown is the unknown itself. -/
theorem col_nbr_ne (hL : LayoutOK L) {f : ℕ} (hf : f < L.dim) (hn : ∀ d, d < L.dim → L.periodic 0 d = true → 2 ≤ L.n f d)
    {s : Stencil} (hs : Inside L.toMeshInfo f s) {loc : ℕ} (hloc : loc < L.dim * 2) : col L f (nbr loc s) ≠ col L f s := by
  have hd3 : L.dim ≤ 3 := by rcases hL.dim with h | h <;> omega
  have hself := (col_inside hL (Or.inl hf) false hs).2.1
  intro heq
  obtain ⟨y, hy, hc, hnp, hmod⟩ := col_nbr hL hf hs hloc (by omega)
  have hb := hs.1 (loc / 2) (by omega)
  have hr := nbr_range (loc := loc) (by omega) hs
  have hnp' : L.periodic 0 (loc / 2) = true → 2 ≤ L.n f (loc / 2) := hn _ (by omega)
  rw [emod_near (by omega) hr.1 hr.2] at hmod
  rw [hc] at heq
  have := (col_inj hL hf hf (hs.along _ (by omega) y hy) hs heq).2
  have h2 := coordOf_along s (loc / 2) (loc / 2) y (by omega) (by omega)
  rw [this, if_pos rfl] at h2
  cases hp : L.periodic 0 (loc / 2)
  · have := hnp hp
    split_ifs at this <;> omega
  · have := hnp' hp
    by_cases h : loc % 2 = 0
    · simp only [if_pos h] at hmod; split_ifs at hmod <;> omega
    · simp only [if_neg h] at hmod; split_ifs at hmod <;> omega

/-- Entries of a row of the Laplacian: the diagonal is minus the sum of the weights plus the implicit part of the boundary equations;
any other entry is zero if its column is no neighbour, and otherwise the weight of a neighbour in that column. -/
theorem laplacian_entries (hL : LayoutOK L) (hG : GhostsOK debug L G B)
    (hn : ∀ f d, f < L.dim → d < L.dim → L.periodic 0 d = true → 2 ≤ L.n f d) :
    ∃ A mods, createLaplacian debug L G B = .ok (A, mods) ∧ ∀ u, IsUnknown L u →
      A (col L u.comp u.st) (col L u.comp u.st) = -(((List.range (L.dim * 2)).map fun loc => lapW G u.comp loc u.st).sum) +
        ((List.range (L.dim * 2)).map fun loc => lapW G u.comp loc u.st *
          if L.periodic 0 (loc / 2) = false ∧ AtSide L.toMeshInfo u.comp loc u.st then
            ghostA0 (B u.rank) u.comp loc (nbr loc u.st) else 0).sum ∧
      ∀ x : ℤ, 0 ≤ x → x ≠ col L u.comp u.st →
        ((∀ loc, loc < L.dim * 2 → col L u.comp (nbr loc u.st) ≠ x) ∧ A (col L u.comp u.st) x = 0) ∨
        ∃ loc, loc < L.dim * 2 ∧ col L u.comp (nbr loc u.st) = x ∧ A (col L u.comp u.st) x = lapW G u.comp loc u.st := by
  classical
  obtain ⟨mods, hm, heq⟩ := createLaplacian_eq hL debug G B
  have hrange := lap_range hL hG mods hm
  refine ⟨_, mods, by rw [heq, assemble_ok hrange]; rfl, ?_⟩
  intro u hu
  have hf := hu.1
  have hrow := (col_inside hL (Or.inl hf) false hu.inside).2.1
  -- inserted entries of the row
  have hmem : ∀ e ∈ (unknowns L).flatMap fun u => lapEntries L G u.comp u.st, e.row = col L u.comp u.st →
      e ∈ lapEntries L G u.comp u.st := by
    intro e he her
    obtain ⟨v, hv, he⟩ := List.mem_flatMap.1 he
    have hv := (mem_unknowns hL).1 hv
    have : v = u := by
      apply hv.row_inj hL hu
      obtain ⟨x, _, rfl⟩ := List.mem_map.1 he
      exact her
    rwa [this] at he
  have hadd : ∀ x : ℤ, valuesAt (boundaryEntries L B mods) (col L u.comp u.st) x =
      if x = col L u.comp u.st then ((List.range (L.dim * 2)).map fun loc => lapW G u.comp loc u.st *
          if L.periodic 0 (loc / 2) = false ∧ AtSide L.toMeshInfo u.comp loc u.st then
            ghostA0 (B u.rank) u.comp loc (nbr loc u.st) else 0).sum else 0 := by
    intro x
    have hent : ∀ y ∈ boundaryLoop L B, (modifierAt (mods y.1 y.2.1) y.2.2.1).row = y.2.2.2.targetPackedId := by
      intro y hy
      obtain ⟨hr, hf', loc, b, hp⟩ := mem_boundaryLoop hG hy
      rw [hm _ _ hr hf', lap_modifier hL hG hr hp, (target_inside hL hG hr hp).2]
    unfold valuesAt boundaryEntries
    rw [List.map_map]
    by_cases hx : x = col L u.comp u.st
    · rw [if_pos hx]
      refine Eq.trans ?_ ((ghost_sum_row hL hG hu mods hm fun p => p.a0).trans ?_)
      · congr 1
        apply List.map_congr_left
        intro y hy
        have := hent y hy
        simp only [Function.comp]
        rw [hx]
        by_cases h : (modifierAt (mods y.1 y.2.1) y.2.2.1).row = col L u.comp u.st
        · rw [if_pos ⟨h, by rw [← this, h]⟩, if_pos h]
        · rw [if_neg fun h' => h h'.1, if_neg h]
      · congr 1
        apply List.map_congr_left
        intro loc _
        split_ifs
        · congr 1
        · simp
    · rw [if_neg hx]
      apply List.sum_eq_zero
      intro y hy
      obtain ⟨z, hz, rfl⟩ := List.mem_map.1 hy
      have := hent z hz
      simp only [Function.comp]
      rw [if_neg]
      rintro ⟨h1, h2⟩
      exact hx (by rw [← h2, ← this, h1])
  have hself : (⟨col L u.comp u.st, col L u.comp u.st, -(((List.range (L.dim * 2)).map fun loc => lapW G u.comp loc u.st).sum)⟩ : Entry K) ∈
      (unknowns L).flatMap fun u => lapEntries L G u.comp u.st := by
    refine List.mem_flatMap.2 ⟨u, (mem_unknowns hL).2 hu, ?_⟩
    unfold lapEntries lapItems
    exact List.mem_map.2 ⟨_, List.mem_cons_self .., rfl⟩
  constructor
  · rw [foldl_addValue _ _ _ _ hrow hrow, hadd, if_pos rfl]
    congr 1
    rcases insertValue_cases ((unknowns L).flatMap fun u => lapEntries L G u.comp u.st) (fun _ _ => 0) _ _ hrow hrow with ⟨h, _⟩ | ⟨e, he, h1, h2, h3⟩
    · exact absurd ⟨rfl, rfl⟩ (h _ hself)
    · rw [h3]
      obtain ⟨x, hx, rfl⟩ := List.mem_map.1 (hmem e he h1)
      rcases List.mem_cons.1 hx with rfl | hx
      · rfl
      · obtain ⟨loc, hloc, rfl⟩ := List.mem_map.1 hx
        exact absurd h2 (col_nbr_ne hL hf (fun d hd => hn _ d hf hd) hu.inside (List.mem_range.1 hloc))
  · intro x hx0 hx
    rw [foldl_addValue _ _ _ _ hrow hx0, hadd, if_neg hx, add_zero]
    rcases insertValue_cases ((unknowns L).flatMap fun u => lapEntries L G u.comp u.st) (fun _ _ => 0) _ x hrow hx0 with ⟨h, h0⟩ | ⟨e, he, h1, h2, h3⟩
    · refine Or.inl ⟨?_, h0⟩
      intro loc hloc he
      refine h ⟨col L u.comp u.st, col L u.comp (nbr loc u.st), lapW G u.comp loc u.st⟩ ?_ ⟨rfl, he⟩
      refine List.mem_flatMap.2 ⟨u, (mem_unknowns hL).2 hu, ?_⟩
      unfold lapEntries lapItems
      exact List.mem_map.2 ⟨_, List.mem_cons_of_mem _ (List.mem_map.2 ⟨loc, List.mem_range.2 hloc, rfl⟩), rfl⟩
    · obtain ⟨y, hy, rfl⟩ := List.mem_map.1 (hmem e he h1)
      rcases List.mem_cons.1 hy with rfl | hy
      · exact absurd h2.symm hx
      · obtain ⟨loc, hloc, rfl⟩ := List.mem_map.1 hy
        exact Or.inr ⟨loc, List.mem_range.1 hloc, h2, h3⟩

end

end PetIBM
