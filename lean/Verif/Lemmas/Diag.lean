/-
Rows of the diagonal matrices.
-/
import Verif.Lemmas.Operators
import Verif.Model.Diag
import Verif.Props.Index

set_option linter.unusedSectionVars false

namespace PetIBM

open Spec

variable {K : Type} [Field K]

/-- every row number belongs to an unknown -/
theorem col_surj {L : Layout} (hL : LayoutOK L) {x : ℤ} (h0 : 0 ≤ x) (h1 : x < L.UN) :
    ∃ u, IsUnknown L u ∧ col L u.comp u.st = x := by
  obtain ⟨u, ⟨hu, he⟩, _⟩ := (C04_packed_index_bijective false L hL 0).2.1 x h0 h1
  refine ⟨u, hu, ?_⟩
  have he' : L.getPackedGlobalIndex false u.comp u.st = .ok x := he
  unfold col
  rw [he']

theorem col_range {L : Layout} (hL : LayoutOK L) {u : Unknown} (hu : IsUnknown L u) :
    0 ≤ col L u.comp u.st ∧ col L u.comp u.st < (L.UN : ℤ) := by
  have h := (col_inside hL (Or.inl hu.1) false hu.inside).2
  unfold vecSize at h
  rw [if_neg (by have := hu.1; rcases hL.dim with h | h <;> omega)] at h
  exact h

theorem createDiagMatrix_eq {L : Layout} (hL : LayoutOK L) (debug : Bool) (kernel : ℕ → ℤ → ℤ → ℤ → K) :
    createDiagMatrix debug L kernel =
      assemble L.UN L.UN ((unknowns L).flatMap fun u => [⟨col L u.comp u.st, col L u.comp u.st, kernel u.comp u.i u.j u.k⟩]) [] := by
  unfold createDiagMatrix
  rw [loop_unknowns hL (diagEntry debug L kernel)
    (fun f p => ⟨col L f ⟨p.2.2, p.2.1, p.1, 0⟩, col L f ⟨p.2.2, p.2.1, p.1, 0⟩, kernel f p.1 p.2.1 p.2.2⟩)]
  · show assemble _ _ _ _ = _
    rw [List.flatMap_map]
    simp only [List.flatMap_map, id]
    congr 1
    refine Eq.trans ?_ (flatMap_unknowns L fun r f p => [(⟨col L f ⟨p.2.2, p.2.1, p.1, 0⟩, col L f ⟨p.2.2, p.2.1, p.1, 0⟩,
      kernel f p.1 p.2.1 p.2.2⟩ : Entry K)])
    congr 1; funext r
    congr 1; funext f
    exact List.map_eq_flatMap
  · intro u hu
    unfold diagEntry
    have h := (col_inside hL (Or.inl hu.1) debug hu.inside).1
    have h' : L.getPackedGlobalIndex debug u.comp ⟨u.k, u.j, u.i, 1⟩ = .ok (col L u.comp u.st) := h
    simp only
    rw [h']
    rfl

theorem diag_rows {L : Layout} (hL : LayoutOK L) (debug : Bool) (kernel : ℕ → ℤ → ℤ → ℤ → K) :
    ∃ A, createDiagMatrix debug L kernel = .ok A ∧ ∀ u, IsUnknown L u → ∀ x : ℤ, 0 ≤ x →
      A (col L u.comp u.st) x = if x = col L u.comp u.st then kernel u.comp u.i u.j u.k else 0 := by
  classical
  have hr : ∀ e ∈ ((unknowns L).flatMap fun u => [(⟨col L u.comp u.st, col L u.comp u.st, kernel u.comp u.i u.j u.k⟩ : Entry K)]) ++ [],
      e.row < (L.UN : ℤ) ∧ e.col < (L.UN : ℤ) := by
    intro e he
    rw [List.append_nil] at he
    obtain ⟨u, hu, he⟩ := List.mem_flatMap.1 he
    rw [List.mem_singleton] at he
    subst he
    have := col_range hL ((mem_unknowns hL).1 hu)
    exact ⟨this.2, this.2⟩
  rw [createDiagMatrix_eq hL debug kernel, assemble_ok hr]
  refine ⟨_, rfl, ?_⟩
  intro u hu x hx
  have hm := (mem_unknowns hL).2 hu
  have h0 := (col_range hL hu).1
  have hne : ∀ b ∈ unknowns L, b ≠ u → col L b.comp b.st ≠ col L u.comp u.st := by
    intro b hb hne h
    exact hne (((mem_unknowns hL).1 hb).row_inj hL hu h)
  rw [assembled_entry h0 hx]
  · rw [valuesAt_nil, add_zero, valuesAt_flatMap, sum_map_single (nodup_unknowns L) hm]
    · simp [valuesAt, eq_comm]
    · intro b hb hb'
      simp [valuesAt, hne b hb hb']
  · rw [filter_flatMap_single (nodup_unknowns L) hm]
    · simp only [List.filter_cons, List.filter_nil]
      split_ifs <;> simp
    · intro b hb hb' e he
      rw [List.mem_singleton] at he
      subst he
      simp [hne b hb hb']

/-- product of a diagonal row with a vector -/
theorem diag_mult {n : ℕ} {A : Mat K} {r : ℤ} {d : K} (h0 : 0 ≤ r) (h1 : r < n)
    (h : ∀ x : ℤ, 0 ≤ x → A r x = if x = r then d else 0) (q : ℤ → K) : Mat.mult n A q r = d * q r := by
  unfold Mat.mult
  obtain ⟨m, rfl⟩ := Int.eq_ofNat_of_zero_le h0
  rw [Finset.sum_eq_single m]
  · rw [h _ (by omega), if_pos rfl]
  · intro b _ hb
    rw [h _ (by omega), if_neg (by omega), zero_mul]
  · intro hm
    exact absurd (Finset.mem_range.2 (by omega)) hm

end PetIBM
