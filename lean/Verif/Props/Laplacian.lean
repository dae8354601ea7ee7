/-
Properties C22 and C23: the Laplacian operator.
-/
import Verif.Lemmas.ExtendedRow
import Verif.Lemmas.LaplacianEntries
import Verif.Props.MeshInit
import Mathlib.Algebra.Order.BigOperators.Group.Finset

set_option linter.unusedSectionVars false

namespace PetIBM

open Spec

variable {K : Type} [Field K] [LinearOrder K] [IsStrictOrderedRing K]
variable {L : Layout} {G : Geom K} {axes : ℕ → Axis K} {debug : Bool} {T : BCTable K} {B : ℕ → Boundary K}

/-- C22. The Laplacian matrix is built once, with the ghost equations of that moment (after initialisation). At any later
moment, matrix times velocity plus the current correction is the sum of the three-point second differences of the velocity
extended by the current ghost equations. Missing: periodic directions with one or two cells, where it is false (below). -/
theorem C22_laplacian_of_extended_field_partial (C : Constructed debug L G axes T B)
    (hn : ∀ f d, f < L.dim → d < L.dim → L.periodic 0 d = true → 3 ≤ L.n f d) (h : List (Boundary.Op K)) (hi : Initialised h) :
    ∃ A mods, createLaplacian debug L G (fun r => (B r).run h) = .ok (A, mods) ∧
      ∀ (h' : List (Boundary.Op K)) (q : ℤ → K) (V : ℕ → Stencil → K),
        Extended debug L (fun r => (B r).run (h ++ h')) q V →
        ∀ (f : ℕ) (s : Stencil) (idx : ℤ), f < L.dim → Inside L.toMeshInfo f s → L.getPackedGlobalIndex debug f s = .ok idx →
          Mat.mult L.UN A q idx + correctionMult L (fun r => (B r).run (h ++ h')) mods idx =
            ∑ d ∈ Finset.range L.dim, secondDifference G f d s (V f) := by
  have hL := C.setup.layout
  obtain ⟨A, mods, hA, hrow⟩ := laplacian_rows hL (C.ghosts h) hn
  refine ⟨A, mods, hA, ?_⟩
  intro h' q V hV f s idx hf hs hidx
  obtain ⟨u, _, hu, rfl, rfl⟩ := exists_unknown hL hf hs
  rw [(col_inside hL (Or.inl hf) debug hs).1] at hidx
  cases hidx
  obtain ⟨h1, h2⟩ := hrow _ (C.ghosts (h ++ h')) u hu q
  rw [h1, h2, secondDifference_sides, sum_range_list, sum_range_list, sum_range_list, add_assoc, ← Finset.sum_add_distrib,
    neg_mul, Finset.sum_mul, ← sub_eq_neg_add, ← Finset.sum_sub_distrib]
  apply Finset.sum_congr rfl
  intro loc hloc
  have hloc := Finset.mem_range.1 hloc
  have hself := (hV.stored u.comp hf).self hL (Or.inl hf) hu.inside
  obtain ⟨w1, w2⟩ := hV.at_side hL (C.ghosts (h ++ h')) hu hloc
  by_cases hw : L.periodic 0 (loc / 2) = false ∧ AtSide L.toMeshInfo u.comp loc u.st
  · rw [if_pos hw, if_pos hw, w1 hw.1 hw.2, hself, C.a0_eq hi hu hloc hw.1 hw.2, C.a0_eq (hi.append h') hu hloc hw.1 hw.2]
    ring
  · rw [if_neg hw, if_neg hw, w2 hw, hself]
    ring

/-- C22. The extended field exists for every velocity vector at every moment. -/
theorem C22_extension_exists (C : Constructed debug L G axes T B) (h : List (Boundary.Op K)) (q : ℤ → K) :
    ∃ V, Extended debug L (fun r => (B r).run h) q V :=
  exists_extended C.setup.layout (C.ghosts h) q

/-- C23. On every mesh the Laplacian with its correction vanishes at a point whose extended velocity is linear there (in
particular constant), and gives the exact value `Σ 2 c d` if it is a quadratic `Σ c d x_d² + a d x_d + e`, provided that
the mesh is uniform in the directions other than the one of the component. Missing: as in C22. -/
theorem C23_consistency_partial (C : Constructed debug L G axes T B)
    (hn : ∀ f d, f < L.dim → d < L.dim → L.periodic 0 d = true → 3 ≤ L.n f d) (h : List (Boundary.Op K)) (hi : Initialised h) :
    ∃ A mods, createLaplacian debug L G (fun r => (B r).run h) = .ok (A, mods) ∧
      ∀ (h' : List (Boundary.Op K)) (q : ℤ → K) (V : ℕ → Stencil → K),
        Extended debug L (fun r => (B r).run (h ++ h')) q V →
        ∀ (f : ℕ) (s : Stencil) (idx : ℤ), f < L.dim → Inside L.toMeshInfo f s → L.getPackedGlobalIndex debug f s = .ok idx →
        ∀ (a c : ℕ → K) (e : K), (∀ t, (t = s ∨ ∃ d, d < L.dim ∧ (t = shift s d 1 ∨ t = shift s d (-1))) →
            V f t = ∑ d ∈ Finset.range L.dim, (c d * G.coord f d (coordOf t d) ^ 2 + a d * G.coord f d (coordOf t d)) + e) →
          (∀ d, d < L.dim → c d = 0 ∨ d = f ∨ ∃ w, ∀ x ∈ (axes d).dL, x = w) →
          Mat.mult L.UN A q idx + correctionMult L (fun r => (B r).run (h ++ h')) mods idx =
            ∑ d ∈ Finset.range L.dim, 2 * c d := by
  obtain ⟨A, mods, hA, hrow⟩ := C22_laplacian_of_extended_field_partial C hn h hi
  refine ⟨A, mods, hA, ?_⟩
  intro h' q V hV f s idx hf hs hidx a c e hlin hc
  rw [hrow h' q V hV f s idx hf hs hidx]
  apply Finset.sum_congr rfl
  intro d hd
  have hd := Finset.mem_range.1 hd
  have S := C.setup
  have h3 := S.dim_le
  have hx := hs.1 d (by omega)
  have g1 := S.coord_lt f d hf hd (coordOf s d) (by omega) (by omega)
  have g2 := S.coord_lt f d hf hd (coordOf s d - 1) (by omega) (by omega)
  rw [sub_add_cancel] at g2
  have hw := S.width_pos hf hd hx.1 hx.2
  -- differences of the field
  have key : ∀ x : ℤ, (x = 1 ∨ x = -1) → V f (shift s d x) - V f s =
      c d * (G.coord f d (coordOf s d + x) ^ 2 - G.coord f d (coordOf s d) ^ 2) +
      a d * (G.coord f d (coordOf s d + x) - G.coord f d (coordOf s d)) := by
    intro x hx
    rw [hlin s (Or.inl rfl), hlin (shift s d x) (Or.inr ⟨d, hd, by rcases hx with rfl | rfl <;> simp⟩),
      add_sub_add_right_eq_sub, ← Finset.sum_sub_distrib, Finset.sum_eq_single d]
    · unfold shift
      rw [coordOf_along _ _ _ _ (by omega) (by omega), if_pos rfl]; ring
    · intro b hb hbd
      have := Finset.mem_range.1 hb
      unfold shift
      rw [coordOf_along _ _ _ _ (by omega) (by omega), if_neg hbd]; ring
    · intro h; exact absurd (Finset.mem_range.2 hd) h
  have k1 := key 1 (Or.inl rfl)
  have k2 := key (-1) (Or.inr rfl)
  rw [← sub_eq_add_neg] at k2
  unfold secondDifference
  rw [k1, ← neg_sub (V f (shift s d (-1))), k2]
  have n1 : G.coord f d (coordOf s d + 1) - G.coord f d (coordOf s d) ≠ 0 := (sub_pos.2 g1).ne'
  have n2 : G.coord f d (coordOf s d) - G.coord f d (coordOf s d - 1) ≠ 0 := (sub_pos.2 g2).ne'
  have r1 : (c d * (G.coord f d (coordOf s d + 1) ^ 2 - G.coord f d (coordOf s d) ^ 2) +
      a d * (G.coord f d (coordOf s d + 1) - G.coord f d (coordOf s d))) /
      (G.coord f d (coordOf s d + 1) - G.coord f d (coordOf s d)) =
      c d * (G.coord f d (coordOf s d + 1) + G.coord f d (coordOf s d)) + a d := by
    rw [div_eq_iff n1]; ring
  have r2 : -(c d * (G.coord f d (coordOf s d - 1) ^ 2 - G.coord f d (coordOf s d) ^ 2) +
      a d * (G.coord f d (coordOf s d - 1) - G.coord f d (coordOf s d))) /
      (G.coord f d (coordOf s d) - G.coord f d (coordOf s d - 1)) =
      c d * (G.coord f d (coordOf s d) + G.coord f d (coordOf s d - 1)) + a d := by
    rw [div_eq_iff n2]; ring
  rw [r1, r2, div_eq_iff hw.ne']
  rcases hc d hd with h0 | hu
  · rw [h0]; ring
  · have := S.half_width hf hd hx.1 hx.2 hu
    linear_combination (-c d) * this

/-- C23. Off-diagonal entries of the Laplacian are nonnegative, the entry for a neighbour inside the grid is positive, and
every row is diagonally dominant with nonpositive diagonal: the off-diagonal entries add up to at most minus the diagonal
entry. Missing: periodic directions with a single cell, where this is false (`C23_false_single_periodic_cell`). -/
theorem C23_diagonal_dominance_partial (C : Constructed debug L G axes T B)
    (hn : ∀ f d, f < L.dim → d < L.dim → L.periodic 0 d = true → 2 ≤ L.n f d) (h : List (Boundary.Op K)) (hi : Initialised h) :
    ∃ A mods, createLaplacian debug L G (fun r => (B r).run h) = .ok (A, mods) ∧
      ∀ (f : ℕ) (s : Stencil) (idx : ℤ), f < L.dim → Inside L.toMeshInfo f s → L.getPackedGlobalIndex debug f s = .ok idx →
        (∀ x : ℕ, x < L.UN → (x : ℤ) ≠ idx → 0 ≤ A idx x) ∧
        (∀ (d : ℕ) (x : ℤ) (y : ℤ), d < L.dim → (x = 1 ∨ x = -1) → Inside L.toMeshInfo f (shift s d x) →
          L.getPackedGlobalIndex debug f (shift s d x) = .ok y → 0 < A idx y) ∧
        ∑ x ∈ (Finset.range L.UN).filter (fun x : ℕ => (x : ℤ) ≠ idx), A idx x ≤ - A idx idx := by
  classical
  have hL := C.setup.layout
  have h3 := C.setup.dim_le
  obtain ⟨A, mods, hA, hrow⟩ := laplacian_entries hL (C.ghosts h) hn
  refine ⟨A, mods, hA, ?_⟩
  intro f s idx hf hs hidx
  obtain ⟨u, _, hu, rfl, rfl⟩ := exists_unknown hL hf hs
  obtain ⟨hp, h0, h1⟩ := col_inside hL (Or.inl hf) debug hs
  rw [hp] at hidx
  cases hidx
  have hv : vecSize L u.comp = L.UN := by unfold vecSize; rw [if_neg (by omega)]
  rw [hv] at h1
  obtain ⟨hdiag, hoff⟩ := hrow u hu
  have hw : ∀ loc, loc < L.dim * 2 → 0 < lapW G u.comp loc u.st := fun loc hl => lapW_pos C.setup hf hs hl
  refine ⟨?_, ?_, ?_⟩
  · intro x hx hxi
    rcases hoff x (by omega) hxi with ⟨_, h⟩ | ⟨loc, hloc, _, h⟩
    · rw [h]
    · rw [h]; exact (hw loc hloc).le
  · intro d x y hd hx hin hy
    obtain ⟨hp', h0', h1'⟩ := col_inside hL (Or.inl hf) debug hin
    rw [hp'] at hy
    cases hy
    obtain ⟨loc, hloc, hnb⟩ : ∃ loc, loc < L.dim * 2 ∧ nbr loc u.st = shift u.st d x := by
      rcases hx with rfl | rfl
      · exact ⟨2 * d + 1, by omega, by unfold nbr shift; rw [show (2 * d + 1) / 2 = d by omega, if_neg (by omega)]⟩
      · exact ⟨2 * d, by omega, by unfold nbr shift; rw [show 2 * d / 2 = d by omega, if_pos (by omega)]⟩
    have hne : col L u.comp (shift u.st d x) ≠ col L u.comp u.st := by
      rw [← hnb]
      exact col_nbr_ne hL hf (fun d hd => hn _ d hf hd) hs hloc
    rcases hoff _ h0' hne with ⟨h, _⟩ | ⟨loc', hloc', _, h⟩
    · exact absurd (by rw [hnb]) (h loc hloc)
    · rw [h]; exact hw loc' hloc'
  · simp only [sum_range_list] at hdiag
    have hle : ∀ x ∈ (Finset.range L.UN).filter (fun x : ℕ => (x : ℤ) ≠ col L u.comp u.st), A (col L u.comp u.st) x ≤
        ∑ loc ∈ Finset.range (L.dim * 2), if col L u.comp (nbr loc u.st) = x then lapW G u.comp loc u.st else 0 := by
      intro x hx
      have hnn : ∀ loc ∈ Finset.range (L.dim * 2), 0 ≤ if col L u.comp (nbr loc u.st) = (x : ℤ) then lapW G u.comp loc u.st else 0 := by
        intro loc hloc
        split_ifs
        · exact (hw loc (Finset.mem_range.1 hloc)).le
        · exact le_rfl
      rcases hoff x (by omega) (Finset.mem_filter.1 hx).2 with ⟨_, h⟩ | ⟨loc, hloc, hc, h⟩
      · rw [h]; exact Finset.sum_nonneg hnn
      · rw [h]
        have := Finset.single_le_sum hnn (Finset.mem_range.2 hloc)
        rwa [if_pos hc] at this
    refine (Finset.sum_le_sum hle).trans ?_
    rw [Finset.sum_comm, hdiag, neg_add, neg_neg, ← Finset.sum_neg_distrib, ← Finset.sum_add_distrib]
    apply Finset.sum_le_sum
    intro loc hloc
    have hl := Finset.mem_range.1 hloc
    have hpos := (hw loc hl).le
    split_ifs with hside
    · rw [C.a0_eq hi hu hl hside.1 hside.2]
      have hi1 : implicitPart T u.comp loc ≤ 1 := by
        unfold implicitPart
        split
        · exact le_rfl
        · split_ifs <;> norm_num
      have hcol : col L u.comp (nbr loc u.st) = -1 := by
        refine ((col_neighbour hL (Or.inl hf) false hs (d := loc / 2) (by omega) (nbr_range (loc := loc) (by omega) hs)).2.2).2 ⟨hside.1, ?_⟩
        have := hside.2
        unfold AtSide at this
        split_ifs at this ⊢ <;> omega
      rw [Finset.sum_eq_zero]
      · nlinarith
      · intro x _
        rw [hcol, if_neg (by omega)]
    · rw [mul_zero, neg_zero, add_zero]
      by_cases hc : ∃ x ∈ (Finset.range L.UN).filter (fun x : ℕ => (x : ℤ) ≠ col L u.comp u.st), col L u.comp (nbr loc u.st) = x
      · obtain ⟨x, hx, hc⟩ := hc
        rw [Finset.sum_eq_single x]
        · rw [if_pos hc]
        · intro y _ hy
          rw [if_neg (by omega)]
        · intro hx'; exact absurd hx hx'
      · rw [Finset.sum_eq_zero]
        · exact hpos
        · intro x hx
          rw [if_neg fun h' => hc ⟨x, hx, h'⟩]

example : (∃ B, Constructed true (exampleChannel 3) exampleChannelGeom exampleAxes exampleChannelTable B) ∧
    (∀ f d, f < 3 → d < 3 → (exampleChannel 3).periodic 0 d = true → 2 ≤ (exampleChannel 3).n f d) ∧
    Initialised [.setGhostICs (fun _ => (0 : ℚ))] ∧ Inside (exampleChannel 3).toMeshInfo 0 ⟨1, 2, 2, 0⟩ := by
  refine ⟨exampleChannel_constructed, ?_, ⟨_, _, rfl⟩, ?_, rfl⟩
  · intro f d hf hd
    interval_cases d <;> interval_cases f <;> decide
  · intro d hd
    interval_cases d <;> decide

def twoAxes : ℕ → Axis ℚ := fun _ => ⟨0, 3, [1, 2]⟩

/-- Boundary objects of all processes. -/
def boundaries (debug : Bool) (L : Layout) (G : Geom ℚ) (T : BCTable ℚ) : ℕ → Boundary ℚ := fun r =>
  match boundaryInit debug L G r T with
  | .ok b => b
  | .error _ => []

/-- C22 is false with two cells in a periodic direction: the left and the right neighbour are the same unknown,
the second insertion overwrites the first, and the Laplacian of a constant velocity is not zero. -/
theorem C22_false_two_periodic_cells : ∃ (L : Layout) (G : Geom ℚ) (axes : ℕ → Axis ℚ) (T : BCTable ℚ) (B : ℕ → Boundary ℚ)
    (A : Mat ℚ) (mods : Modifiers ℚ), Constructed true L G axes T B ∧
    createLaplacian true L G (fun r => (B r).run [.setGhostICs fun _ => 1]) = .ok (A, mods) ∧
    (∃ V, Extended true L (fun r => (B r).run [.setGhostICs fun _ => 1]) (fun _ => 1) V ∧
      ∑ d ∈ Finset.range L.dim, secondDifference G 0 d ⟨0, 0, 0, 0⟩ (V 0) = 0) ∧
    L.getPackedGlobalIndex true 0 ⟨0, 0, 0, 0⟩ = .ok 0 ∧
    Mat.mult L.UN A (fun _ => 1) 0 + correctionMult L (fun r => (B r).run [.setGhostICs fun _ => 1]) mods 0 ≠ 0 := by
  have C : ∃ B, Constructed true (meshLayout 2 twoAxes (fun _ _ => true) fun _ => 1) (meshGeom 2 twoAxes fun _ _ => true) twoAxes
      (fun _ _ => (.PERIODIC, 0)) B := by
    apply C57_construction true (Or.inl rfl) _ (fun _ _ _ _ => rfl) (fun _ _ => by decide)
    · intro f d hf hd
      rcases hf with hf | rfl
      · interval_cases d <;> interval_cases f <;> decide
      · interval_cases d <;> decide
    · intro f loc _ _; simp
    · intro f loc _ _; simp
    · intro d _
      exact ⟨by simp [twoAxes], by simp [twoAxes], by norm_num [twoAxes]⟩
  have C : Constructed true (meshLayout 2 twoAxes (fun _ _ => true) fun _ => 1) (meshGeom 2 twoAxes fun _ _ => true) twoAxes
      (fun _ _ => (.PERIODIC, 0)) (boundaries true (meshLayout 2 twoAxes (fun _ _ => true) fun _ => 1)
        (meshGeom 2 twoAxes fun _ _ => true) fun _ _ => (.PERIODIC, 0)) := by
    obtain ⟨B, C⟩ := C
    refine ⟨C.setup, C.part, C.table, fun r hr => ?_⟩
    rw [C.init r hr]
    unfold boundaries
    rw [C.init r hr]
  refine ⟨_, _, _, _, _, _, _, C, rfl, ?_, by decide, by decide +kernel⟩
  refine ⟨fun _ _ => 1, ⟨fun f hf => ⟨fun _ _ _ _ => rfl, fun _ _ _ _ _ _ _ => rfl⟩, ?_⟩, by simp [secondDifference]⟩
  intro r f loc s b p hr hp
  have := (C.ghosts [.setGhostICs fun _ => 1]).periodic r f loc s b p hr hp
  simp [meshLayout] at this

/-- A square box of one cell. -/
def oneCell : ℕ → Axis ℚ := fun _ => ⟨0, 1, [1]⟩

theorem oneCell_constructed : Constructed true (meshLayout 2 oneCell (fun _ _ => true) fun _ => 1) (meshGeom 2 oneCell fun _ _ => true) oneCell
    (fun _ _ => (.PERIODIC, 0)) (boundaries true (meshLayout 2 oneCell (fun _ _ => true) fun _ => 1)
      (meshGeom 2 oneCell fun _ _ => true) fun _ _ => (.PERIODIC, 0)) := by
  have C : ∃ B, Constructed true (meshLayout 2 oneCell (fun _ _ => true) fun _ => 1) (meshGeom 2 oneCell fun _ _ => true) oneCell
      (fun _ _ => (.PERIODIC, 0)) B := by
    apply C57_construction true (Or.inl rfl) _ (fun _ _ _ _ => rfl) (fun _ _ => by decide)
    · intro f d hf hd
      rcases hf with hf | rfl
      · interval_cases d <;> interval_cases f <;> decide
      · interval_cases d <;> decide
    · intro f loc _ _; simp
    · intro f loc _ _; simp
    · intro d _
      exact ⟨by simp [oneCell], by simp [oneCell], by norm_num [oneCell]⟩
  obtain ⟨B, C⟩ := C
  refine ⟨C.setup, C.part, C.table, fun r hr => ?_⟩
  rw [C.init r hr]
  unfold boundaries
  rw [C.init r hr]

/-- C23 is false with a single periodic cell: both neighbours are the unknown itself, their weights overwrite the diagonal entry, which
becomes positive. -/
theorem C23_false_single_periodic_cell : ∃ (L : Layout) (G : Geom ℚ) (axes : ℕ → Axis ℚ) (T : BCTable ℚ) (B : ℕ → Boundary ℚ)
    (A : Mat ℚ) (mods : Modifiers ℚ), Constructed true L G axes T B ∧
    createLaplacian true L G (fun r => (B r).run [.setGhostICs fun _ => 1]) = .ok (A, mods) ∧
    L.getPackedGlobalIndex true 0 ⟨0, 0, 0, 0⟩ = .ok 0 ∧
    ¬ ∑ x ∈ (Finset.range L.UN).filter (fun x : ℕ => (x : ℤ) ≠ 0), A 0 x ≤ - A 0 0 :=
  ⟨_, _, _, _, _, _, _, oneCell_constructed, rfl, by decide, by decide +kernel⟩

end PetIBM
