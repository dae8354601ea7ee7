/-
The neighbourhood of a body point in a periodic direction: which velocity points it has and where the code puts them.
-/
import Verif.Props.Delta

namespace PetIBM

open Spec

set_option linter.unusedSectionVars false

variable {K : Type} [Field K] [LinearOrder K] [IsStrictOrderedRing K]
variable {L : Layout} {G : Geom K} {axes : ℕ → Axis K}

theorem periodic_cells (S : Setup L G axes) {f d : ℕ} (hf : f < L.dim) (hd : d < L.dim) (hper : L.periodic 0 d = true) :
    L.periodic f d = true ∧ 0 < L.n f d ∧ L.n f d = (axes d).dL.length := by
  have h3 := S.dim_le
  have hp : L.periodic f d = true := (S.periodic f d hf (by omega)).trans hper
  have := S.n_cells hf hd
  have hne := List.length_pos_iff.2 (S.axesOK d hd).nonempty
  rw [hp] at this
  simp at this
  exact ⟨hp, by omega, by omega⟩

/-- The ghost coordinates of a periodic direction are those of the periodic images. -/
theorem coord_seam (S : Setup L G axes) {f d : ℕ} (hf : f < L.dim) (hd : d < L.dim) (hper : L.periodic 0 d = true) :
    meshCoord L axes f d (-1) = .ok (G.coord f d ((L.n f d : ℤ) - 1) - ((axes d).max - (axes d).min)) ∧
    meshCoord L axes f d (L.n f d) = .ok (G.coord f d 0 + ((axes d).max - (axes d).min)) := by
  obtain ⟨hp, hn0, hn⟩ := periodic_cells S hf hd hper
  have h3 := S.dim_le
  have hl := S.coord_velPos hf hd (s := L.n f d - 1) (by omega)
  rw [show ((L.n f d - 1 : ℕ) : ℤ) = (L.n f d : ℤ) - 1 by omega] at hl
  have h0 := S.coord_velPos hf hd (s := 0) (by omega)
  rw [Nat.cast_zero] at h0
  rw [hl, h0]
  unfold meshCoord velPos
  by_cases h : d = f
  · subst h
    obtain ⟨A, hA, hAn, hc, hc', _⟩ := normalAxis_per (S.axesOK d hd)
    have hA' : fieldAxis L.dim axes L.periodic d d = .ok A := by
      unfold fieldAxis
      rw [if_pos (by omega), if_pos ⟨hd, hd⟩, if_pos rfl, hp, hA]
    rw [hA', if_pos rfl, if_pos rfl]
    constructor
    · show A.coord (-1) = _
      rw [hc (-1) (by omega) (by omega), show L.n d d - 1 + 1 = (axes d).dL.length by omega, vert_max (S.axesOK d hd)]
      simp [vert_zero]
    · show A.coord (L.n d d) = _
      rw [hn, ← hAn, hc', vert_zero]
      congr 1
      ring
  · obtain ⟨A, hA, hAn, _, _, hc, _⟩ := tangentAxis_ok (S.axesOK d hd) true
    have hA' : fieldAxis L.dim axes L.periodic f d = .ok A := by
      unfold fieldAxis
      rw [if_pos (by omega), if_pos ⟨hf, hd⟩, if_neg h, hp, hA]
    rw [hA', if_neg h, if_neg h]
    obtain ⟨c1, c2, _⟩ := hc rfl
    constructor
    · show A.coord (-1) = _
      rw [c1, hn, hAn]
    · show A.coord (L.n f d) = _
      rw [hn, ← hAn, c2]

/-- C29, periodic directions whose flag is set, if the window reaches at most one point beyond the ends: the neighbourhood consists of
the points of the window in order, the indices beyond the ends wrapped around, and points of the grid itself have their own
coordinate. Missing: the coordinate of a wrapped point is two periods away from the point instead of one (`s / n` is the number of
the period), so that the distance is wrong; the other windows, where the arrays are read outside (`C29_false_ub`, `C29_false_ub_right`);
the flag (`C29_false_flag`). -/
theorem C29_periodic_window_partial (S : Setup L G axes) {f d : ℕ} (hf : f < L.dim) (hd : d < L.dim) (hper : L.periodic 0 d = true) {I w : ℕ}
    (hlow : w ≤ I + 1) (hhigh : I + w ≤ L.n f d) :
    eulerianNeighbors L axes f d I true w = .ok ((List.range (2 * w + 1)).map fun o : ℕ =>
      (((I : ℤ) - w + o) % (L.n f d : ℤ),
        G.coord f d (((I : ℤ) - w + o) % (L.n f d : ℤ)) + 2 * ((((I : ℤ) - w + o) / (L.n f d : ℤ) : ℤ) : K) * ((axes d).max - (axes d).min))) := by
  obtain ⟨hp, hn0, hn⟩ := periodic_cells S hf hd hper
  obtain ⟨c1, c2⟩ := coord_seam S hf hd hper
  have key : ∀ o ∈ List.range (2 * w + 1), eulerianNeighbor L axes f d true ((I : ℤ) - w + (o : ℕ)) =
      .ok [(((I : ℤ) - w + o) % (L.n f d : ℤ),
        G.coord f d (((I : ℤ) - w + o) % (L.n f d : ℤ)) + 2 * ((((I : ℤ) - w + o) / (L.n f d : ℤ) : ℤ) : K) * ((axes d).max - (axes d).min))] := by
    intro o ho
    rw [List.mem_range] at ho
    generalize hs : (I : ℤ) - w + o = s
    unfold eulerianNeighbor
    by_cases h : s ≥ 0 ∧ s < L.n f d
    · rw [if_pos h, Int.emod_eq_of_lt h.1 h.2, Int.ediv_eq_zero_of_lt h.1 h.2]
      obtain ⟨s, rfl⟩ := Int.eq_ofNat_of_zero_le h.1
      rw [(S.meshCoord_inside hf hd (s := s) (by omega)).1, S.coord_velPos hf hd (by omega)]
      simp [bind, Except.bind, pure, Except.pure]
    · rw [if_neg h, if_pos rfl]
      rcases (by omega : s = -1 ∨ s = L.n f d) with rfl | rfl
      · rw [c1]
        have e1 : (-1 : ℤ) % (L.n f d : ℤ) = (L.n f d : ℤ) - 1 := by
          rw [← Int.add_emod_right (-1 : ℤ)]
          exact (Int.emod_eq_of_lt (by omega) (by omega)).trans (by ring)
        have e2 : (-1 : ℤ) / (L.n f d : ℤ) = -1 := Int.ediv_eq_neg_one_of_neg_of_le (by omega) (by omega)
        rw [e1, e2]
        simp only [bind, Except.bind, pure, Except.pure]
        rw [if_pos (by omega)]
        congr 3
        push_cast
        ring
      · rw [c2]
        have e2 : (L.n f d : ℤ) / (L.n f d : ℤ) = 1 := Int.ediv_self (by omega)
        rw [Int.emod_self, e2]
        simp only [bind, Except.bind, pure, Except.pure]
        rw [if_neg (by omega)]
        congr 3
        · ring
        · push_cast; ring
  unfold eulerianNeighbors
  rw [mapM_ok _ key]
  show Except.ok _ = _
  congr 1
  rw [← List.flatMap_def, ← List.map_eq_flatMap]

/-- C29 is false: with the flag set, a point whose window reaches further than one point beyond the upper end makes the code read
behind the array of coordinates. -/
theorem C29_false_ub_right (S : Setup L G axes) {f d : ℕ} (hf : f < L.dim) (hd : d < L.dim) (hper : L.periodic 0 d = true) {s : ℤ}
    (hs : (L.n f d : ℤ) < s) : eulerianNeighbor L axes f d true s = .error .ub := by
  obtain ⟨hp, hn0, hn⟩ := periodic_cells S hf hd hper
  have h3 := S.dim_le
  have hub : ∀ A : FieldAxis K, A.shift = 1 → A.coordTrue.length = L.n f d + 2 → A.coord s = .error .ub := by
    intro A hA hl
    unfold FieldAxis.coord ptrAt
    rw [if_pos (by omega), List.getElem?_eq_none (by omega)]
  have hc : meshCoord L axes f d s = .error .ub := by
    unfold meshCoord
    by_cases h : d = f
    · subst h
      obtain ⟨A, hA, hAn, _, _, _, _, _, hl, _, hsh⟩ := normalAxis_per (S.axesOK d hd)
      have hA' : fieldAxis L.dim axes L.periodic d d = .ok A := by
        unfold fieldAxis
        rw [if_pos (by omega), if_pos ⟨hd, hd⟩, if_pos rfl, hp, hA]
      rw [hA']
      exact hub A hsh (by omega)
    · obtain ⟨A, hA, hAn, _, _, _, hl, _, hsh⟩ := tangentAxis_ok (S.axesOK d hd) true
      have hA' : fieldAxis L.dim axes L.periodic f d = .ok A := by
        unfold fieldAxis
        rw [if_pos (by omega), if_pos ⟨hf, hd⟩, if_neg h, hp, hA]
      rw [hA']
      exact hub A hsh (by omega)
  unfold eulerianNeighbor
  rw [if_neg (by omega), if_pos rfl, hc]
  rfl

/-- The hypotheses hold on the torus of four by four cells: the neighbourhood of a point in the last column. -/
example : ∃ B, Constructed true torusLayout (meshGeom 2 torusAxes fun _ _ => true) torusAxes (fun _ _ => (.PERIODIC, 0)) B ∧
    eulerianNeighbors torusLayout torusAxes 1 0 3 true 1 = .ok [(2, 5/2), (3, 7/2), (0, 1/2 + 8)] ∧
    eulerianNeighbor torusLayout torusAxes 1 0 true 5 = .error .ub := by
  obtain ⟨B, hB⟩ := torus_constructed
  refine ⟨B, hB, ?_, C29_false_ub_right hB.setup (by decide) (by decide) rfl (by decide)⟩
  rw [show (3 : ℤ) = ((3 : ℕ) : ℤ) from rfl, C29_periodic_window_partial hB.setup (I := 3) (w := 1) (by decide) (by decide) rfl (by decide) (by decide)]
  decide +kernel

end PetIBM
