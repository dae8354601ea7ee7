/-
Properties C20 and C21: the divergence operator.
-/
import Verif.Lemmas.DivergenceValue
import Verif.Lemmas.InsertLast
import Verif.Props.MeshInit
import Verif.Props.Laplacian
import Verif.Props.Gradient

set_option linter.unusedSectionVars false

namespace PetIBM

open Spec

variable {K : Type} [Field K] [LinearOrder K] [IsStrictOrderedRing K]
variable {L : Layout} {G : Geom K} {axes : ℕ → Axis K} {debug : Bool} {T : BCTable K} {B : ℕ → Boundary K}

/-- C20. If no normal boundary equation is of Neumann type, the divergence matrix is minus the transpose of the gradient
matrix (normalised operators), and minus the transpose of the gradient matrix with each row multiplied by face area times
distance of the two pressure points (dimensional operators). -/
theorem C20_divergence_transpose (C : Constructed debug L G axes T B)
    (hT : ∀ f loc, f < L.dim → loc / 2 = f → (T f loc).1 ≠ .NEUMANN)
    (h : List (Boundary.Op K)) (hi : Initialised h) :
    ∃ D₁ mods₁ G₁ D mods Gr, createDivergence debug L G true (fun r => (B r).run h) = .ok (D₁, mods₁) ∧
      createGradient debug L G true = .ok G₁ ∧
      createDivergence debug L G false (fun r => (B r).run h) = .ok (D, mods) ∧
      createGradient debug L G false = .ok Gr ∧
      ∀ (s t : Stencil) (f : ℕ) (x y : ℤ), f < L.dim → Inside L.toMeshInfo 3 s → Inside L.toMeshInfo f t →
        L.getPackedGlobalIndex debug 3 s = .ok x → L.getPackedGlobalIndex debug f t = .ok y →
        D₁ x y = - G₁ y x ∧ D x y = -(faceArea G f f t * pressureGap L.toMeshInfo G axes f (coordOf t f)) * Gr y x := by
  classical
  have S := C.setup
  have hL := S.layout
  have h3 := S.dim_le
  obtain ⟨D₁, m₁, hD₁, rD₁⟩ := divergence_entries S C.part true (C.ghosts h)
  obtain ⟨D, m, hD, rD⟩ := divergence_entries S C.part false (C.ghosts h)
  obtain ⟨G₁, hG₁, rG₁⟩ := gradient_entries S debug true
  obtain ⟨Gr, hGr, rGr⟩ := gradient_entries S debug false
  refine ⟨D₁, m₁, G₁, D, m, Gr, hD₁, hG₁, hD, hGr, ?_⟩
  intro s t f x y hf hs ht hx hy
  obtain ⟨c, hc, rfl⟩ := exists_cell hL hs
  obtain ⟨u, _, hu, rfl, rfl⟩ := exists_unknown hL hf ht
  obtain ⟨px, px0, px1⟩ := col_inside hL (Or.inr rfl) debug hs
  obtain ⟨py, py0, py1⟩ := col_inside hL (Or.inl hf) debug ht
  rw [px] at hx
  rw [py] at hy
  cases hx
  cases hy
  obtain ⟨fa, fb, fc⟩ := face_of_cell S hf hs ht
  obtain ⟨w1, w2⟩ := S.own_width hf ht
  -- the boundary equations do not contribute
  have hz : ∀ g loc s, g < L.dim → loc / 2 = g → ((ghostAt ((B c.1).run h) g loc s).map fun p => p.a0 *
      if p.targetPackedId = col L u.comp u.st then (1 : K) else 0).getD 0 = 0 := by
    intro g loc s hg hl
    refine ghost_explicit C hi hc.1 ?_ s fun y : ℤ => if y = col L u.comp u.st then (1 : K) else 0
    unfold implicitPart
    have := hT g loc hg hl
    split
    · exact absurd (by assumption) this
    · rw [if_pos hl]
  have hadd : ∀ normalize : Bool, ((List.range L.dim).map fun f => divK G normalize f (cellSt c) *
      ((if col L f (cellSt c) = -1 then ((ghostAt ((B c.1).run h) f (2 * f + 1) (cellSt c)).map fun p =>
          p.a0 * if p.targetPackedId = col L u.comp u.st then 1 else 0).getD 0 else 0) -
       (if col L f (nbr (2 * f) (cellSt c)) = -1 then ((ghostAt ((B c.1).run h) f (2 * f) (nbr (2 * f) (cellSt c))).map fun p =>
          p.a0 * if p.targetPackedId = col L u.comp u.st then 1 else 0).getD 0 else 0))).sum = 0 := by
    intro normalize
    apply sum_map_eq_zero
    intro g hg
    have hg := List.mem_range.1 hg
    rw [hz _ _ _ hg (by omega), hz _ _ _ hg (by omega), ite_self, ite_self, sub_zero, mul_zero]
  -- the kernel at the cell is the kernel at the face
  have hk : ∀ normalize : Bool, (if col L u.comp (nbr (2 * u.comp) (cellSt c)) = col L u.comp u.st then -divK G normalize u.comp (cellSt c)
      else if col L u.comp (cellSt c) = col L u.comp u.st then divK G normalize u.comp (cellSt c) else 0) =
      if col L 3 (along u.st u.comp (coordOf u.st u.comp + 1)) = col L 3 (cellSt c) then -divK G normalize u.comp u.st
      else if col L 3 u.st = col L 3 (cellSt c) then divK G normalize u.comp u.st else 0 := by
    intro normalize
    rw [if_congr fb rfl (if_congr fa rfl rfl)]
    by_cases hh : col L 3 u.st = col L 3 (cellSt c) ∨ col L 3 (along u.st u.comp (coordOf u.st u.comp + 1)) = col L 3 (cellSt c)
    · obtain ⟨z, hz⟩ := fc (hh.imp fa.2 fb.2)
      rw [show divK G normalize u.comp (cellSt c) = divK G normalize u.comp u.st by rw [hz, divK_along G normalize (by omega)]]
    · rw [not_or] at hh
      rw [if_neg hh.2, if_neg hh.1, if_neg hh.2, if_neg hh.1]
  rw [rD₁ c hc u hu, rD c hc u hu, hadd, hadd, hk, hk, rG₁ u hu _ px0, rGr u hu _ px0]
  simp only [gradVal, divK, if_true, Bool.false_eq_true, if_false]
  constructor
  · split_ifs <;> ring
  · rw [← w1]
    have := w2.ne'
    split_ifs <;> field_simp <;> ring

/-- A box of one periodic cell meets the hypotheses too. -/
example : (∃ B, Constructed true (meshLayout 2 oneCell (fun _ _ => true) fun _ => 1) (meshGeom 2 oneCell fun _ _ => true) oneCell
      (fun _ _ => (.PERIODIC, 0)) B) ∧ Initialised [.setGhostICs (fun _ => (0 : ℚ))] ∧
    Inside (meshLayout 2 oneCell (fun _ _ => true) fun _ => 1).toMeshInfo 3 ⟨0, 0, 0, 0⟩ :=
  ⟨⟨_, oneCell_constructed⟩, ⟨_, _, rfl⟩, by intro d hd; interval_cases d <;> decide, rfl⟩

/-- C21. The divergence is built once, with the ghost equations of that moment (after initialisation). At any later moment,
matrix times velocity plus the current correction is, in every cell, the net flux out of the cell of the velocity extended by
the current ghost equations. Missing: periodic directions with one cell. -/
theorem C21_divergence_is_net_flux_partial (C : Constructed debug L G axes T B)
    (hn : ∀ f, f < L.dim → L.periodic 0 f = true → 2 ≤ L.n f f) (h : List (Boundary.Op K)) (hi : Initialised h) :
    ∃ D mods, createDivergence debug L G false (fun r => (B r).run h) = .ok (D, mods) ∧
      ∀ (h' : List (Boundary.Op K)) (q : ℤ → K) (V : ℕ → Stencil → K),
        Extended debug L (fun r => (B r).run (h ++ h')) q V →
        ∀ (s : Stencil) (idx : ℤ), Inside L.toMeshInfo 3 s → L.getPackedGlobalIndex debug 3 s = .ok idx →
          Mat.mult L.UN D q idx + correctionMult L (fun r => (B r).run (h ++ h')) mods idx = netFlux L.dim G s V := by
  have S := C.setup
  have hL := S.layout
  obtain ⟨D, m, hD, rD⟩ := divergence_rows S C.part false (C.ghosts h) hn
  refine ⟨D, m, hD, ?_⟩
  intro h' q V hV s idx hs hidx
  obtain ⟨c, hc, rfl⟩ := exists_cell hL hs
  rw [(col_inside hL (Or.inr rfl) debug hs).1] at hidx
  cases hidx
  obtain ⟨r1, r2, _⟩ := rD _ (C.ghosts (h ++ h')) c hc
  rw [r1, r2, sum_range_list, sum_range_list, ← Finset.sum_add_distrib]
  unfold netFlux
  apply Finset.sum_congr rfl
  intro f hf
  obtain ⟨v1, v2⟩ := face_values C hi hV hc (Finset.mem_range.1 hf)
  have e : shift (cellSt c) f (-1) = nbr (2 * f) (cellSt c) := by
    unfold nbr shift; rw [show 2 * f / 2 = f by omega, if_pos (by omega)]
  rw [e, v1, v2]
  simp only [divK, Bool.false_eq_true, if_false]
  ring

/-- C21. Summed over all cells, only the fluxes through the two outer faces of the non-periodic directions remain.
Missing: periodic directions with one cell. -/
theorem C21_global_balance_partial (C : Constructed debug L G axes T B)
    (hn : ∀ f, f < L.dim → L.periodic 0 f = true → 2 ≤ L.n f f) (h : List (Boundary.Op K)) (hi : Initialised h) :
    ∃ D mods, createDivergence debug L G false (fun r => (B r).run h) = .ok (D, mods) ∧
      ∀ (h' : List (Boundary.Op K)) (q : ℤ → K) (V : ℕ → Stencil → K) (R : Stencil → K),
        Extended debug L (fun r => (B r).run (h ++ h')) q V →
        (∀ (s : Stencil) (idx : ℤ), Inside L.toMeshInfo 3 s → L.getPackedGlobalIndex debug 3 s = .ok idx →
          R s = Mat.mult L.UN D q idx + correctionMult L (fun r => (B r).run (h ++ h')) mods idx) →
        gridSum L.toMeshInfo 3 R = ∑ f ∈ Finset.range L.dim, if L.periodic 0 f then 0 else
          layerSum L.toMeshInfo 3 f fun s => faceArea G f f s * (V f (along s f (L.n 3 f - 1)) - V f (along s f (-1))) := by
  have S := C.setup
  have hL := S.layout
  have h3 := S.dim_le
  obtain ⟨D, m, hD, rD⟩ := C21_divergence_is_net_flux_partial C hn h hi
  refine ⟨D, m, hD, ?_⟩
  intro h' q V R hV hR
  have e1 : gridSum L.toMeshInfo 3 R = gridSum L.toMeshInfo 3 fun s => ∑ f ∈ Finset.range L.dim,
      (faceArea G f f s * V f s - faceArea G f f s * V f (shift s f (-1))) := by
    apply gridSum_congr
    intro s hs
    have hx := (col_inside hL (Or.inr rfl) debug hs).1
    rw [hR s _ hs hx, rD h' q V hV s _ hs hx]
    rfl
  rw [e1, gridSum_finset]
  apply Finset.sum_congr rfl
  intro f hf
  have hf := Finset.mem_range.1 hf
  have hpos := (C.pos f f hf (by omega)).trans_le (S.n_le f f hf (by omega))
  rw [gridSum_lines (show f < 3 by omega) hpos]
  have hline : ∀ s : Stencil, ∑ x ∈ Finset.range (L.n 3 f), (faceArea G f f (along s f x) * V f (along s f x) -
      faceArea G f f (along s f x) * V f (shift (along s f x) f (-1))) =
      faceArea G f f s * (V f (along s f (L.n 3 f - 1)) - V f (along s f (-1))) := by
    intro s
    rw [← sum_telescope (L.n 3 f) fun x => V f (along s f x), Finset.mul_sum]
    apply Finset.sum_congr rfl
    intro x _
    have := divK_along G false (show f < 3 by omega) s (x : ℤ)
    simp only [divK, Bool.false_eq_true, if_false] at this
    unfold shift
    rw [this, along_along, coordOf_along _ _ _ _ (by omega) (by omega), if_pos rfl, sub_eq_add_neg (x : ℤ)]
    ring
  simp only [hline]
  cases hp : L.periodic 0 f with
  | false => rfl
  | true =>
    rw [if_pos rfl]
    unfold layerSum
    refine (gridSum_congr ?_).trans gridSum_zero
    intro s hs
    obtain ⟨n1, n2, _⟩ := S.staggered f hf
    have hnf := n2 hp
    have hin : Inside L.toMeshInfo f s := by
      refine ⟨fun d hd => ?_, hs.2⟩
      have := hs.1 d hd
      by_cases hdf : d = f
      · subst hdf; omega
      · rw [n1 d hd hdf]; exact this
    have := (hV.stored f hf).periodic s f (-1) hf hin hp (Or.inl rfl)
    rw [emod_near (by omega) (by omega) (by omega), if_pos rfl] at this
    beta_reduce
    rw [this, ← hnf, sub_self, mul_zero, ite_self]

example : (∃ B, Constructed true (exampleChannel 3) exampleChannelGeom exampleAxes exampleChannelTable B) ∧
    (∀ f loc, f < 3 → loc / 2 = f → (exampleChannelTable f loc).1 ≠ .NEUMANN) ∧
    (∀ f, f < 3 → (exampleChannel 3).periodic 0 f = true → 2 ≤ (exampleChannel 3).n f f) ∧
    Initialised [.setGhostICs (fun _ => (0 : ℚ))] ∧
    Inside (exampleChannel 3).toMeshInfo 3 ⟨1, 1, 0, 0⟩ ∧ Inside (exampleChannel 3).toMeshInfo 0 ⟨1, 1, 2, 0⟩ := by
  refine ⟨exampleChannel_constructed, ?_, ?_, ⟨_, _, rfl⟩, ⟨?_, rfl⟩, ⟨?_, rfl⟩⟩
  · intro f loc _ _
    unfold exampleChannelTable
    split_ifs <;> simp
  · intro f hf; interval_cases f <;> decide
  · intro d hd; interval_cases d <;> decide
  · intro d hd; interval_cases d <;> decide

/-- C21 is false with a single periodic cell: both faces of the cell are the same unknown, the second insertion
overwrites the first, and the divergence of a constant velocity is not zero. -/
theorem C21_false_single_periodic_cell : ∃ (L : Layout) (G : Geom ℚ) (axes : ℕ → Axis ℚ) (T : BCTable ℚ) (B : ℕ → Boundary ℚ)
    (D : Mat ℚ) (mods : Modifiers ℚ), Constructed true L G axes T B ∧
    createDivergence true L G false (fun r => (B r).run [.setGhostICs fun _ => 1]) = .ok (D, mods) ∧
    (∃ V, Extended true L (fun r => (B r).run [.setGhostICs fun _ => 1]) (fun _ => 1) V ∧ netFlux L.dim G ⟨0, 0, 0, 0⟩ V = 0) ∧
    L.getPackedGlobalIndex true 3 ⟨0, 0, 0, 0⟩ = .ok 0 ∧
    Mat.mult L.UN D (fun _ => 1) 0 + correctionMult L (fun r => (B r).run [.setGhostICs fun _ => 1]) mods 0 ≠ 0 := by
  have C : ∃ B, Constructed true (meshLayout 2 singleAxes (fun _ _ => true) fun _ => 1) (meshGeom 2 singleAxes fun _ _ => true) singleAxes
      (fun _ _ => (.PERIODIC, 0)) B := by
    apply C57_construction true (Or.inl rfl) _ (fun _ _ _ _ => rfl) (fun _ _ => by decide)
    · intro f d hf hd
      rcases hf with hf | rfl
      · interval_cases d <;> interval_cases f <;> decide
      · interval_cases d <;> decide
    · intro f loc _ _; simp
    · intro f loc _ _; simp
    · intro d _
      unfold singleAxes
      split_ifs
      · exact ⟨by simp, by simp, by norm_num⟩
      · exact ⟨by simp, by simp, by norm_num⟩
  have C : Constructed true (meshLayout 2 singleAxes (fun _ _ => true) fun _ => 1) (meshGeom 2 singleAxes fun _ _ => true) singleAxes
      (fun _ _ => (.PERIODIC, 0)) (boundaries true (meshLayout 2 singleAxes (fun _ _ => true) fun _ => 1)
        (meshGeom 2 singleAxes fun _ _ => true) fun _ _ => (.PERIODIC, 0)) := by
    obtain ⟨B, C⟩ := C
    refine ⟨C.setup, C.part, C.table, fun r hr => ?_⟩
    rw [C.init r hr]
    unfold boundaries
    rw [C.init r hr]
  refine ⟨_, _, _, _, _, _, _, C, rfl, ?_, by decide, by decide +kernel⟩
  refine ⟨fun _ _ => 1, ⟨fun f hf => ⟨fun _ _ _ _ => rfl, fun _ _ _ _ _ _ _ => rfl⟩, ?_⟩, by simp [netFlux]⟩
  intro r f loc s b p hr hp
  have := (C.ghosts [.setGhostICs fun _ => 1]).periodic r f loc s b p hr hp
  simp [meshLayout] at this

end PetIBM
