/-
Extended fields and grid sums.
-/
import Verif.Lemmas.DivergenceRow
import Verif.Spec.Operators
import Mathlib.Algebra.BigOperators.Intervals

set_option linter.unusedSectionVars false

namespace PetIBM

open Spec Layout

variable {K : Type} [Field K]

theorem sum_range_list (n : ℕ) (g : ℕ → K) : ((List.range n).map g).sum = ∑ i ∈ Finset.range n, g i := by
  induction n with
  | zero => simp
  | succ n ih => rw [List.range_succ, List.map_append, List.sum_append, ih, Finset.sum_range_succ]; simp

theorem sum_range_two (n : ℕ) (g : ℕ → K) :
    ∑ l ∈ Finset.range (n * 2), g l = ∑ d ∈ Finset.range n, (g (2 * d) + g (2 * d + 1)) := by
  induction n with
  | zero => simp
  | succ n ih =>
    rw [Nat.succ_mul, Finset.sum_range_succ, Finset.sum_range_succ, ih, Finset.sum_range_succ, mul_comm n 2]
    ring

section
variable {L : Layout} {G : Geom K} {debug : Bool} {B : ℕ → Boundary K}

/-- two records of the same ghost point -/
theorem point_unique [LinearOrder K] [IsStrictOrderedRing K] (hL : LayoutOK L) (hG : GhostsOK debug L G B) {r r' f loc loc' : ℕ} {s : Stencil}
    {b b' : SingleBoundary K} {p p' : GhostPointInfo K} (hr : r < L.mpiSize) (hr' : r' < L.mpiSize)
    (hp : Point (B r) f loc s b p) (hp' : Point (B r') f loc' s b' p') : p = p' := by
  have hd3 : L.dim ≤ 3 := by rcases hL.dim with h | h <;> omega
  obtain ⟨u, hu, rfl, rfl, hut, hus, hs, hper, hl⟩ := point_unknown hL hG hr hp
  obtain ⟨v, hv, rfl, hvc, hvt, hvs, hs', hper', hl'⟩ := point_unknown hL hG hr' hp'
  have hvi := hv.inside
  rw [hvc] at hvi
  rw [hs] at hs'
  obtain ⟨rfl, e⟩ := nbr_inj (by omega) (by omega) hu.inside hvi hus hs'
  obtain rfl := hu.ext hv hvc.symm e
  obtain ⟨l, h1, h2, h3⟩ := hp
  obtain ⟨l', h1', h2', h3'⟩ := hp'
  rw [h1] at h1'; cases h1'
  rw [h2] at h2'; cases h2'
  rw [h3] at h3'; cases h3'
  rfl

/-- Every velocity vector has an extension by the current ghost values. -/
theorem exists_extended [LinearOrder K] [IsStrictOrderedRing K] (hL : LayoutOK L) (hG : GhostsOK debug L G B) (q : ℤ → K) :
    ∃ V, Extended debug L B q V := by
  classical
  have hd3 : L.dim ≤ 3 := by rcases hL.dim with h | h <;> omega
  let V : ℕ → Stencil → K := fun f s =>
    if 0 ≤ col L f s then q (col L f s)
    else if h : ∃ p, ∃ r loc b, r < L.mpiSize ∧ Point (B r) f loc s b p then
      h.choose.a0 * q h.choose.targetPackedId + h.choose.a1
    else 0
  refine ⟨V, fun f hf => ⟨?_, ?_⟩, ?_⟩
  · intro s idx hs hi
    obtain ⟨h1, h2, _⟩ := col_inside hL (Or.inl hf) debug hs
    rw [h1] at hi; cases hi
    exact if_pos h2
  · intro s d x hd hs hp hx
    obtain ⟨_, h2, h3⟩ := col_periodic hL (Or.inl hf) debug hs (by omega) hp hx
    have h4 := (col_inside hL (Or.inl hf) debug h3).2.1
    show V f _ = V f _
    simp only [V]
    rw [h2, if_pos h4, if_pos h4]
  · intro r f loc s b p hr hp
    obtain ⟨u, hu, hur, huc, hut, hus, hs, hper, hl⟩ := point_unknown hL hG hr hp
    have hc : col L f s = -1 := by
      rw [hs, ← huc]
      apply (col_wall hL (Or.inl hu.1) debug hu.inside (d := loc / 2) (by omega) hper _).2
      unfold AtSide at hus
      rw [hus, ← huc]; split_ifs <;> omega
    obtain ⟨ht, ht'⟩ := target_inside hL hG hr hp
    have hf := (hG.good r f loc s b p hr hp).1
    have h2 := (col_inside hL (Or.inl hf) debug ht).2.1
    have hex : ∃ p, ∃ r loc b, r < L.mpiSize ∧ Point (B r) f loc s b p := ⟨p, r, loc, b, hr, hp⟩
    have hch : hex.choose = p := by
      obtain ⟨r', loc', b', hr', hp'⟩ := hex.choose_spec
      exact point_unique hL hG hr' hr hp' hp
    show V f _ = _ * V f _ + _
    simp only [V]
    rw [if_neg (by omega), dif_pos hex, hch, if_pos h2, ht']

end

/-! ### Grid sums -/

theorem gridSum_congr {M : MeshInfo} {f : ℕ} {g h : Stencil → K}
    (e : ∀ s, Inside M f s → g s = h s) : gridSum M f g = gridSum M f h := by
  unfold gridSum
  apply Finset.sum_congr rfl
  intro k hk
  apply Finset.sum_congr rfl
  intro j hj
  apply Finset.sum_congr rfl
  intro i hi
  exact e _ (inside_nat (Finset.mem_range.1 hi) (Finset.mem_range.1 hj) (Finset.mem_range.1 hk))

theorem gridSum_add {M : MeshInfo} {f : ℕ} (g h : Stencil → K) :
    gridSum M f (fun s => g s + h s) = gridSum M f g + gridSum M f h := by
  unfold gridSum
  simp only [Finset.sum_add_distrib]

theorem gridSum_zero {M : MeshInfo} {f : ℕ} : gridSum M f (fun _ => (0 : K)) = 0 := by
  unfold gridSum
  simp

theorem gridSum_finset {ι : Type} {M : MeshInfo} {f : ℕ} (t : Finset ι) (g : ι → Stencil → K) :
    gridSum M f (fun s => ∑ a ∈ t, g a s) = ∑ a ∈ t, gridSum M f (g a) := by
  classical
  induction t using Finset.induction_on with
  | empty => simp [gridSum_zero]
  | insert a t ha ih => simp only [Finset.sum_insert ha, gridSum_add, ih]

/-- a grid sum as a sum over lines in direction `d` -/
theorem gridSum_lines {M : MeshInfo} {f d : ℕ} (hd : d < 3) (hn : 0 < M.n f d) (g : Stencil → K) :
    gridSum M f g = layerSum M f d fun s => ∑ x ∈ Finset.range (M.n f d), g (along s d x) := by
  unfold layerSum gridSum
  interval_cases d
  · simp [coordOf, along, hn]
  · apply Finset.sum_congr rfl
    intro k _
    rw [Finset.sum_comm]
    conv_rhs => rw [Finset.sum_comm]
    simp [coordOf, along, hn]
  · rw [Finset.sum_eq_single (M := K) (s := Finset.range (M.n f 2))
      (f := fun k : ℕ => ∑ j ∈ Finset.range (M.n f 1), ∑ i ∈ Finset.range (M.n f 0), if coordOf ⟨k, j, i, 0⟩ 2 = 0 then _ else 0) 0]
    · rw [Finset.sum_comm]
      apply Finset.sum_congr rfl
      intro j _
      rw [Finset.sum_comm]
      simp [coordOf, along]
    · intro b _ hb
      apply Finset.sum_eq_zero
      intro j _
      apply Finset.sum_eq_zero
      intro i _
      rw [if_neg]; simpa [coordOf] using hb
    · intro h; exact absurd (Finset.mem_range.2 hn) h

theorem sum_telescope (n : ℕ) (g : ℤ → K) :
    ∑ x ∈ Finset.range n, (g (x : ℤ) - g ((x : ℤ) - 1)) = g ((n : ℤ) - 1) - g (-1) := by
  induction n with
  | zero => simp
  | succ n ih => rw [Finset.sum_range_succ, ih]; push_cast; rw [add_sub_cancel_right]; ring

end PetIBM
