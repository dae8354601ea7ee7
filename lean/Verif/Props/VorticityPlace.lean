/-
Properties C70 and C71: where the vorticity values belong, and what the utility writes. Witnesses against C51.
-/
import Verif.Props.Vorticity
import Verif.Lemmas.Files

set_option linter.unusedSectionVars false

namespace PetIBM

open Spec

variable {K : Type} [Field K] [LinearOrder K] [IsStrictOrderedRing K]
variable {L : Layout} {G : Geom K} {axes : ℕ → Axis K} {debug : Bool} {T : BCTable K} {B : ℕ → Boundary K}

/-! ### Coordinates of vertices, cells and velocity points -/

theorem vertex_coord (S : Setup L G axes) {d : ℕ} (hd : d < L.dim) {x : ℕ} (hx : x ≤ L.n 3 d) :
    G.coord 4 d x = vert (axes d) x ∧ L.n 3 d = (axes d).dL.length := by
  have h3 := S.dim_le
  have hn := S.counts 3 d (by omega) (by omega) (pressureAxis (axes d)) (by simp [fieldAxis, hd])
  have hn : L.n 3 d = (axes d).dL.length := hn
  obtain ⟨g, _⟩ := S.geom 4 d (by omega) (by omega) (vertexAxis (axes d)) (by simp [fieldAxis, hd])
  exact ⟨g _ _ (ptrAt_ok (m := x) (by simp [vertexAxis]) (vertexAxis_get _ _ (by omega))), hn⟩

/-- velocity points sit on the vertices in their own direction, ghost points included -/
theorem own_on_vertex (S : Setup L G axes) {g : ℕ} (hg : g < L.dim) {x : ℤ} (h0 : 0 ≤ x) (h1 : x ≤ L.n 3 g) :
    G.coord g g (x - 1) = G.coord 4 g x := by
  obtain ⟨x, rfl⟩ := Int.eq_ofNat_of_zero_le h0
  obtain ⟨e, hn⟩ := vertex_coord S hg (x := x) (by omega)
  rw [e]
  have h3 := S.dim_le
  have e0 : fieldAxis L.dim axes L.periodic g g = normalAxis (L.periodic g g) (axes g) := by simp [fieldAxis, hg, show g < 3 by omega]
  cases hp : L.periodic g g with
  | false =>
    obtain ⟨A, hA, hAn, hc, _⟩ := normalAxis_nonper (S.axesOK g hg)
    rw [hp, hA] at e0
    obtain ⟨gg, _⟩ := S.geom g g (by omega) (by omega) A e0
    rw [gg _ _ (hc (x - 1) (by omega) (by omega))]
    congr 1; omega
  | true =>
    obtain ⟨A, hA, hAn, hc, _⟩ := normalAxis_per (S.axesOK g hg)
    rw [hp, hA] at e0
    obtain ⟨gg, _⟩ := S.geom g g (by omega) (by omega) A e0
    rw [gg _ _ (hc (x - 1) (by omega) (by omega))]
    congr 1; omega

/-- in the other directions velocity points sit between the vertices -/
theorem other_beside_vertex (S : Setup L G axes) {g e : ℕ} (hg : g < L.dim) (he : e < L.dim) (hne : e ≠ g) {x : ℤ} (h0 : 0 ≤ x)
    (h1 : x ≤ L.n 3 e) : G.coord g e (x - 1) < G.coord 4 e x ∧ G.coord 4 e x < G.coord g e x := by
  obtain ⟨x, rfl⟩ := Int.eq_ofNat_of_zero_le h0
  obtain ⟨ev, hn⟩ := vertex_coord S he (x := x) (by omega)
  rw [ev]
  have h3 := S.dim_le
  have e0 : fieldAxis L.dim axes L.periodic g e = tangentAxis (L.periodic g e) (axes e) := by
    simp [fieldAxis, hg, he, hne, show g < 3 by omega]
  have ha := S.axesOK e he
  obtain ⟨m, hm, _, _⟩ := axis_ends ha
  obtain ⟨A, hA, hAn, hc, hf, ht, _⟩ := tangentAxis_ok ha (L.periodic g e)
  rw [hA] at e0
  obtain ⟨gg, _⟩ := S.geom g e (by omega) (by omega) A e0
  have vlt : ∀ i : ℕ, i < (axes e).dL.length → vert (axes e) i < vert (axes e) (i + 1) := by
    intro i hi
    rw [vert_succ _ i hi]; linarith [dL_pos ha i hi]
  have v0 := vert_zero (axes e)
  have vm := vert_max ha
  rw [hm] at vm
  have l0 := vlt 0 (by omega)
  have lm := vlt m (by omega)
  have hin : ∀ i : ℕ, i < A.n → G.coord g e i = centre (axes e) i := fun i hi => gg _ _ (hc i hi).1
  constructor
  · rcases Nat.eq_zero_or_pos x with rfl | hpos
    · rw [show ((0 : ℕ) : ℤ) - 1 = -1 by norm_num]
      cases hp : L.periodic g e with
      | false =>
        rw [gg _ _ (hf hp).1, v0]
        unfold centre; linarith
      | true =>
        rw [gg _ _ (ht hp).1, v0, show A.n - 1 = m by omega, ← vm, ← v0]
        unfold centre; linarith
    · obtain ⟨y, rfl⟩ : ∃ y, x = y + 1 := ⟨x - 1, by omega⟩
      rw [show ((y + 1 : ℕ) : ℤ) - 1 = (y : ℕ) by push_cast; ring, hin y (by omega)]
      have := vlt y (by omega)
      unfold centre; linarith
  · rcases Nat.lt_or_ge x A.n with hlt | hge
    · rw [hin x hlt]
      have := vlt x (by omega)
      unfold centre; linarith
    · have hx : x = m + 1 := by omega
      subst hx
      rw [show ((m + 1 : ℕ) : ℤ) = (A.n : ℕ) by omega]
      cases hp : L.periodic g e with
      | false =>
        rw [gg _ _ (hf hp).2.1, show A.n - 1 = m by omega, vm, ← vm]
        unfold centre; linarith
      | true =>
        rw [gg _ _ (ht hp).2.1, vm, ← v0]
        unfold centre; linarith

/-- and share the coordinate of the cells -/
theorem other_in_cell (S : Setup L G axes) {g e : ℕ} (hg : g < L.dim) (he : e < 3) (hne : e ≠ g) {x : ℤ} (h0 : 0 ≤ x)
    (h1 : x < L.n 3 e) : G.coord g e x = G.coord 3 e x := by
  have h3 := S.dim_le
  by_cases hel : e < L.dim
  · obtain ⟨x, rfl⟩ := Int.eq_ofNat_of_zero_le h0
    obtain ⟨A, P, hA, hP, hn, h, _⟩ := C08_staggered_other_directions (periodic := L.periodic) g e h3 hg hel hne (S.axesOK e hel)
    obtain ⟨ga, _⟩ := S.geom g e (by omega) (by omega) A hA
    obtain ⟨gp, _⟩ := S.geom 3 e (by omega) (by omega) P hP
    have hc := S.counts 3 e (by omega) (by omega) P hP
    obtain ⟨e1, _, y, _, e2, _⟩ := h x (by omega)
    rw [ga _ _ e2, gp _ _ (e1 ▸ e2)]
  · have hA : fieldAxis L.dim axes L.periodic g e = .ok flatAxis := by simp [fieldAxis, hel]
    have hP : fieldAxis L.dim axes L.periodic 3 e = .ok flatAxis := by simp [fieldAxis, hel]
    obtain ⟨ga, _⟩ := S.geom g e (by omega) (by omega) _ hA
    obtain ⟨gp, _⟩ := S.geom 3 e (by omega) (by omega) _ hP
    have hc := S.counts 3 e (by omega) (by omega) _ hP
    have hc : L.n 3 e = 1 := hc
    have hx : x = 0 := by omega
    subst hx
    have hz : (flatAxis : FieldAxis K).coord 0 = .ok 0 := by simp [FieldAxis.coord, flatAxis, ptrAt]
    rw [ga _ _ hz, gp _ _ hz]

/-! ### C70 -/

theorem vorticityCoord_eq {f d : ℕ} (hdim : L.dim = 2 ∨ L.dim = 3) (hf : f < L.dim) (hd : d < 3) (i : ℤ) :
    vorticityCoord L.dim G f d i = if d = vorticityComponent L.dim f then G.coord 3 d i else G.coord 4 d i := by
  unfold vorticityCoord vorticityComponent
  rcases hdim with h | h
  · interval_cases d <;> simp [h]
  · rw [h] at hf
    interval_cases f <;> interval_cases d <;> simp [h]

theorem surrounds_used (S : Setup L G axes) {f : ℕ} (hf : f < L.dim) {s : Stencil}
    (hs : ∀ d, d < 3 → 0 ≤ coordOf s d ∧ coordOf s d < vorticityCount L.toMeshInfo f d) {g : ℕ} {t : Stencil}
    (ht : Around (vorticityComponent L.dim f) s g t) : SurroundsVertex L G f s s g t := by
  have h3 := S.dim_le
  have hc3 : vorticityComponent L.dim f < 3 := by unfold vorticityComponent; split_ifs <;> omega
  obtain ⟨hg, hgc⟩ := around_comp (dim := L.dim) ht hc3
    (by rcases S.layout.dim with h2 | h3; exacts [Or.inr ⟨h2, by simp [vorticityComponent, h2]⟩, Or.inl h3])
  obtain ⟨_, e2, e3, e4⟩ := around_coord ht hc3
  have hcount : ∀ d, d < 3 → vorticityCount L.toMeshInfo f d = if d = vorticityComponent L.dim f then L.n 3 d else L.n 3 d + 1 := by
    intro d hd
    have := vorticityCount_eq S hd (Or.inl hf)
    rwa [if_neg (show f ≠ 3 by omega)] at this
  refine ⟨?_, ?_, ?_⟩
  · have h := hs g (by omega)
    rw [hcount g (by omega), if_neg hgc] at h
    push_cast at h
    rw [vorticityCoord_eq S.layout.dim hf (by omega), if_neg hgc, e2]
    exact own_on_vertex S hg (by omega) (by omega)
  · have h := hs _ hc3
    rw [hcount _ hc3, if_pos rfl] at h
    rw [vorticityCoord_eq S.layout.dim hf hc3, if_pos rfl, e3]
    exact other_in_cell S hg hc3 (Ne.symm hgc) h.1 h.2
  · intro e he heg hec
    have h := hs e he
    rw [hcount e he, if_neg hec] at h
    push_cast at h
    have hel : e < L.dim := by
      rcases S.layout.dim with h2 | h2
      · have : vorticityComponent L.dim f = 2 := by simp [vorticityComponent, h2]
        omega
      · omega
    obtain ⟨b1, b2⟩ := other_beside_vertex S hg hel heg (x := coordOf s e) (by omega) (by omega)
    rw [vorticityCoord_eq S.layout.dim hf he, if_neg hec]
    rcases e4 e he heg hec with h' | h' <;> rw [h']
    · exact Or.inl ⟨rfl, b2⟩
    · exact Or.inr ⟨rfl, b1⟩

/-- C70. In 2D and for the z component in 3D, the velocity points from which a vorticity value is computed surround the coordinates that
`initVorticityMesh` saves for the value. Missing: the x and y components in 3D, for which it is false (`C70_false_x`, `C70_shifted`). -/
theorem C70_location_partial (C : Constructed debug L G axes T B) (f : ℕ) (hf : f < (vorticityNames L.dim).length) (h : L.dim = 2 ∨ f = 2)
    (s : Stencil) (hs : Inside (vorticityLayout L).toMeshInfo f s) (g : ℕ) (t : Stencil)
    (ht : Around (vorticityComponent L.dim f) (usedPoint L.dim f s) g t) : SurroundsVertex L G f s s g t := by
  obtain ⟨hf, _⟩ := field_of_name C hf
  rw [usedPoint, if_pos h] at ht
  exact surrounds_used C.setup hf hs.1 ht

/-- C70, what the code does for the x and y components in 3D: from the second cell on in the direction of the component, the value saved for
a cell is the one of the cell before. -/
theorem C70_shifted (C : Constructed debug L G axes T B) (f : ℕ) (h3 : L.dim = 3) (hf : f < 2) (s : Stencil)
    (hs : Inside (vorticityLayout L).toMeshInfo f s) (h1 : 1 ≤ coordOf s f) (g : ℕ) (t : Stencil)
    (ht : Around (vorticityComponent L.dim f) (usedPoint L.dim f s) g t) :
    SurroundsVertex L G f (shift s f (-1)) (shift s f (-1)) g t ∧ G.coord g f (coordOf t f) < vorticityCoord L.dim G f f (coordOf s f) := by
  have hc : vorticityComponent L.dim f = f := by simp [vorticityComponent, h3]
  have hu : usedPoint L.dim f s = shift s f (-1) := by
    rw [usedPoint, if_neg (by omega)]
  rw [hu] at ht
  have hcoord : ∀ d, d < 3 → coordOf (shift s f (-1)) d = if d = f then coordOf s f - 1 else coordOf s d := by
    intro d hd
    unfold shift
    rw [coordOf_along _ _ _ _ (by omega) hd]
    rfl
  have hs' : ∀ d, d < 3 → 0 ≤ coordOf (shift s f (-1)) d ∧ coordOf (shift s f (-1)) d < vorticityCount L.toMeshInfo f d := by
    intro d hd
    have := hs.1 d hd
    have h' : 0 ≤ coordOf s d ∧ coordOf s d < (vorticityCount L.toMeshInfo f d : ℤ) := this
    rw [hcoord d hd]
    split_ifs with he
    · subst he; omega
    · exact h'
  have hsur := surrounds_used C.setup (by omega) hs' ht
  refine ⟨hsur, ?_⟩
  have hcell := hsur.cell
  rw [hc] at hcell
  rw [hcell, hcoord f (by omega), if_pos rfl]
  have hb : coordOf s f < (vorticityCount L.toMeshInfo f f : ℤ) := (hs.1 f (by omega)).2
  have hcount := vorticityCount_eq C.setup (f := f) (d := f) (by omega) (Or.inl (by omega))
  rw [if_neg (show f ≠ 3 by omega), hc, if_pos rfl] at hcount
  rw [hcount] at hb
  rw [vorticityCoord_eq C.setup.layout.dim (by omega) (by omega), vorticityCoord_eq C.setup.layout.dim (by omega) (by omega), hc,
    if_pos rfl, if_pos rfl]
  have hne : f ≠ (f + 1) % 3 := by interval_cases f <;> decide
  have hgl : (f + 1) % 3 < L.dim := by omega
  rw [← other_in_cell C.setup hgl (by omega) hne (x := coordOf s f - 1) (by omega) (by omega),
    ← other_in_cell C.setup hgl (by omega) hne (x := coordOf s f) (by omega) hb]
  have := C.setup.coord_lt ((f + 1) % 3) f hgl (by omega) (coordOf s f - 1) (by omega)
    (by have := (C.setup.staggered ((f + 1) % 3) hgl).1 f (by omega) hne; omega)
  rwa [sub_add_cancel] at this

/-- C70 is false for the x component in 3D: two cells apart in z, vertex (1, 1) in the y-z plane, second cell in x. All velocity values around
this point are zero, but the vorticity there is not: it is computed from the first cell in x, where one value of `w` is 1. -/
theorem C70_false_x : ∃ (L : Layout) (G : Geom ℚ) (axes : ℕ → Axis ℚ) (T : BCTable ℚ) (B : ℕ → Boundary ℚ) (q : ℤ → ℚ) (z : ℕ × ℕ × ℕ → ℚ),
    Constructed true L G axes T B ∧ L.dim = 3 ∧ vorticityComponent L.dim 0 = 0 ∧
    calculateVorticity L G (fun r => (B r).run [.setGhostICs q]) q 0 (fun _ => 0) = .ok z ∧
    Inside (vorticityLayout L).toMeshInfo 0 ⟨1, 1, 1, 0⟩ ∧
    (∀ g t, Around 0 ⟨1, 1, 1, 0⟩ g t → Inside L.toMeshInfo g t ∧ ∃ idx, L.getPackedGlobalIndex true g t = .ok idx ∧ q idx = 0) ∧
    z (1, 1, 1) ≠ 0 := by
  have C := constructed_boundaries (show ∃ B, Constructed true (exampleChannel 1) exampleChannelGeom exampleAxes exampleChannelTable B from by
    apply C57_construction true (Or.inr rfl) (fun d _ => exampleAxes_ok d) (fun _ _ _ _ => rfl)
    · intro d hd; interval_cases d <;> simp
    · intro f d hf hd
      rcases hf with hf | rfl
      · interval_cases d <;> interval_cases f <;> decide
      · interval_cases d <;> decide
    · intro f loc _ _
      unfold exampleChannelTable
      split_ifs <;> simp
    · intro f loc _ hl
      unfold exampleChannelTable
      interval_cases loc <;> simp)
  refine ⟨exampleChannel 1, exampleChannelGeom, exampleAxes, exampleChannelTable,
    boundaries true (exampleChannel 1) exampleChannelGeom exampleChannelTable, fun i => if i = 33 then 1 else 0, _, C, rfl, rfl, rfl,
    ?_, ?_, by decide +kernel⟩
  · refine ⟨fun d hd => ?_, rfl⟩
    interval_cases d <;> decide
  · intro g t h
    cases h <;> refine ⟨⟨fun d hd => ?_, rfl⟩, _, rfl, by decide⟩ <;> interval_cases d <;> decide

/-- Points that meet the hypotheses of `C70_location_partial` and `C70_shifted`. -/
example : Inside (vorticityLayout (exampleChannel 3)).toMeshInfo 2 ⟨1, 3, 3, 0⟩ ∧ Around 2 ⟨1, 3, 3, 0⟩ 0 ⟨1, 3, 2, 0⟩ ∧
    Inside (vorticityLayout (exampleChannel 3)).toMeshInfo 0 ⟨1, 1, 1, 0⟩ ∧ 1 ≤ coordOf ⟨1, 1, 1, 0⟩ 0 ∧
    Around 0 (usedPoint 3 0 ⟨1, 1, 1, 0⟩) 2 ⟨0, 1, 0, 0⟩ := by
  refine ⟨⟨fun d hd => ?_, rfl⟩, .firstUpper, ⟨fun d hd => ?_, rfl⟩, by decide, .secondUpper⟩ <;> interval_cases d <;> decide

/-! ### Witnesses against C51 -/

/-- C51 is false at the corners of the domain, already for one process: flow with velocity one in the whole domain and on all walls. The
ghost points beyond the corner, of `u` below the left wall and of `v` left of the lower wall, are never set: the zeros of the
new local vectors are taken for velocities. -/
theorem C51_false_corner : ∃ (L : Layout) (G : Geom ℚ) (axes : ℕ → Axis ℚ) (T : BCTable ℚ) (B : ℕ → Boundary ℚ) (z : ℕ × ℕ × ℕ → ℚ),
    Constructed true L G axes T B ∧ L.mpiSize = 1 ∧
    Filled true L (fun r => (B r).run [.setGhostICs fun _ => 1]) (fun _ => 1) (fun _ _ => 1) ∧
    calculateVorticity L G (fun r => (B r).run [.setGhostICs fun _ => 1]) (fun _ => 1) 0 (fun _ => 0) = .ok z ∧
    Inside (vorticityLayout L).toMeshInfo 0 ⟨0, 3, 0, 0⟩ ∧ curl G (fun _ _ => 1) 2 ⟨0, 3, 0, 0⟩ = 0 ∧ z (0, 3, 0) ≠ 0 := by
  have C := constructed_boundaries (show ∃ B, Constructed true (exampleWalls 1 1) exampleWallsGeom exampleAxes unitWalls B from by
    apply C57_construction true (Or.inl rfl) (fun d _ => exampleAxes_ok d) (fun _ _ _ _ => rfl)
    · intro d hd; interval_cases d <;> simp
    · intro f d hf hd
      rcases hf with hf | rfl
      · interval_cases d <;> interval_cases f <;> decide
      · interval_cases d <;> decide
    · intro f loc _ _; simp [unitWalls]
    · intro f loc _ _; simp [unitWalls])
  refine ⟨exampleWalls 1 1, exampleWallsGeom, exampleAxes, unitWalls, boundaries true (exampleWalls 1 1) exampleWallsGeom unitWalls, _,
    C, rfl, uniform_filled C fun _ _ _ => rfl, rfl, ?_, by simp [curl], by decide +kernel⟩
  refine ⟨fun d hd => ?_, rfl⟩
  interval_cases d <;> decide

/-- C51 is false on walls between processes: the same flow, two processes in x; the vorticity at vertex (2, 0) on the lower wall, away from the
corners, is not zero, because a process only sets the ghost points next to its own velocity points. -/
theorem C51_false_seam : ∃ (L : Layout) (G : Geom ℚ) (axes : ℕ → Axis ℚ) (T : BCTable ℚ) (B : ℕ → Boundary ℚ) (z : ℕ × ℕ × ℕ → ℚ),
    Constructed true L G axes T B ∧ L.mpiSize = 2 ∧
    Filled true L (fun r => (B r).run [.setGhostICs fun _ => 1]) (fun _ => 1) (fun _ _ => 1) ∧
    calculateVorticity L G (fun r => (B r).run [.setGhostICs fun _ => 1]) (fun _ => 1) 0 (fun _ => 0) = .ok z ∧
    Inside (vorticityLayout L).toMeshInfo 0 ⟨0, 0, 2, 0⟩ ∧ curl G (fun _ _ => 1) 2 ⟨0, 0, 2, 0⟩ = 0 ∧ z (2, 0, 0) ≠ 0 := by
  refine ⟨exampleWalls 2 1, exampleWallsGeom, exampleAxes, unitWalls, boundaries true (exampleWalls 2 1) exampleWallsGeom unitWalls, _,
    unitWalls_constructed, rfl, uniform_filled unitWalls_constructed fun _ _ _ => rfl, rfl, ?_, by simp [curl], by decide +kernel⟩
  refine ⟨fun d hd => ?_, rfl⟩
  interval_cases d <;> decide

/-- A point and a process that meet the hypotheses of the C51 theorems: vertex (1, 1) with two processes is an inner point, and the curl of
a constructed state there is what the model computes. -/
example : InnerPoint (exampleWalls 2 1) 0 ⟨0, 1, 1, 0⟩ ∧ Inside (vorticityLayout (exampleWalls 2 1)).toMeshInfo 0 ⟨0, 1, 1, 0⟩ ∧
    0 < (vorticityNames (exampleWalls 2 1).dim).length ∧
    ∃ z, calculateVorticity (exampleWalls 2 1) exampleWallsGeom (boundaries true (exampleWalls 2 1) exampleWallsGeom unitWalls)
      (fun i => (i : ℚ) ^ 2) 0 (fun _ => 5) = .ok z ∧ z (1, 1, 0) = 4 ∧ z (4, 4, 0) = 5 := by
  refine ⟨?_, ⟨fun d hd => ?_, rfl⟩, by decide, _, rfl, by decide +kernel, by decide +kernel⟩
  · intro d hd
    right; left
    change d < 2 at hd
    interval_cases d <;> decide
  · interval_cases d <;> decide

/-- A vertex on the left wall, away from the corners: it meets the hypotheses of `C51_one_process_partial` with `e` = 0. -/
example : (∀ d, d < 3 → (exampleWalls 1 1).nProc d = 1) ∧ Inside (vorticityLayout (exampleWalls 1 1)).toMeshInfo 0 ⟨0, 1, 0, 0⟩ ∧
    (exampleWalls 1 1).periodic 0 0 = false ∧ (∀ d, d < (exampleWalls 1 1).dim → d ≠ 0 → InnerIn (exampleWalls 1 1) 0 d ⟨0, 1, 0, 0⟩) := by
  refine ⟨fun d hd => ?_, ⟨fun d hd => ?_, rfl⟩, rfl, fun d hd h0 => Or.inl ?_⟩
  · interval_cases d <;> rfl
  · interval_cases d <;> decide
  · change d < 2 at hd
    interval_cases d
    · exact absurd rfl h0
    · decide

/-! ### C71 -/

theorem nodup_vorticityNames (dim : ℕ) : (vorticityNames dim).Nodup := by
  unfold vorticityNames; split_ifs <;> decide

/-- vectors of all fields -/
theorem vorticityVecs_ok (C : Constructed debug L G axes T B) (B' : ℕ → Boundary K) (q : ℤ → K) (w : ℕ → ℕ × ℕ × ℕ → K) :
    ∃ z : ℕ → ℕ × ℕ × ℕ → K, (∀ f, f < (vorticityNames L.dim).length → calculateVorticity L G B' q f (w f) = .ok (z f)) ∧
      vorticityVecs L G B' q w = .ok ((List.range (vorticityNames L.dim).length).map fun f =>
        (gridList (vorticityLayout L).toMeshInfo f).map (z f)) := by
  classical
  let z : ℕ → ℕ × ℕ × ℕ → K := fun f => if h : f < (vorticityNames L.dim).length then (C52_vorticity_in_bounds C B' q f h (w f)).choose else w f
  have hz : ∀ f, f < (vorticityNames L.dim).length → calculateVorticity L G B' q f (w f) = .ok (z f) := by
    intro f h
    simp only [z, dif_pos h]
    exact (C52_vorticity_in_bounds C B' q f h (w f)).choose_spec
  refine ⟨z, hz, ?_⟩
  unfold vorticityVecs
  apply mapM_ok
  intro f hf
  rw [hz f (List.mem_range.1 hf)]
  rfl

/-- C71. If the solution of a time step can be read, the utility succeeds: all other files, all other data sets of the file and its
time are unchanged, and the file holds every vorticity field computed from the velocity in the file, on all its points, the first
index running fastest. -/
theorem C71_output (C : Constructed debug L G axes T B) (h : List (Boundary.Op K)) (U p U' p' : ℤ → K) (w : ℕ → ℕ × ℕ × ℕ → K) (disk : Disk K)
    (path : String) (old : H5File K) (hold : disk path = some old) (hread : solutionRead L U p disk path = .ok (U', p')) :
    ∃ disk' file, vorticityStep L G (fun r => (B r).run h) U p w disk path = .ok disk' ∧
      (∀ other, other ≠ path → disk' other = disk other) ∧ disk' path = some file ∧ file.time = old.time ∧
      (∀ name, name ≠ "/wx" → name ≠ "/wy" → name ≠ "/wz" → file.data name = old.data name) ∧
      ∀ f name, (vorticityNames L.dim)[f]? = some name → ∃ z v,
        calculateVorticity L G (fun r => (B r).run (h ++ [.setGhostICs U'])) U' f (w f) = .ok z ∧
        file.data ("/" ++ name) = some v ∧
        v.length = vorticityCount L.toMeshInfo f 0 * vorticityCount L.toMeshInfo f 1 * vorticityCount L.toMeshInfo f 2 ∧
        ∀ i j k, i < vorticityCount L.toMeshInfo f 0 → j < vorticityCount L.toMeshInfo f 1 → k < vorticityCount L.toMeshInfo f 2 →
          v[(k * vorticityCount L.toMeshInfo f 1 + j) * vorticityCount L.toMeshInfo f 0 + i]? = some (z (i, j, k)) := by
  have hrun : (fun r => ((B r).run h).setGhostICs U') = fun r => (B r).run (h ++ [.setGhostICs U']) := by
    funext r
    simp [Boundary.run, Boundary.step]
  obtain ⟨z, hz, hvecs⟩ := vorticityVecs_ok C (fun r => (B r).run (h ++ [.setGhostICs U'])) U' w
  set N := (vorticityNames L.dim).length with hN
  set vecs := (List.range N).map fun f => (gridList (vorticityLayout L).toMeshInfo f).map (z f) with hv
  have hlen : (vorticityNames L.dim).length = vecs.length := by simp [vecs, N]
  have hnd := nodup_vorticityNames L.dim
  have hzip : ((vorticityNames L.dim).zip vecs).map (·.1) = vorticityNames L.dim := by rw [List.map_fst_zip]; omega
  obtain ⟨g1, g2, g3⟩ := foldl_put ((vorticityNames L.dim).zip vecs) old "/"
  have hstep : vorticityStep L G (fun r => (B r).run h) U p w disk path =
      .ok (writeHDF5Vecs disk path "/" (vorticityNames L.dim) vecs .append) := by
    unfold vorticityStep
    rw [hread]
    show (do
      let vecs ← vorticityVecs L G (fun r => ((B r).run h).setGhostICs U') U' w
      return writeHDF5Vecs disk path "/" (vorticityNames L.dim) vecs .append) = _
    rw [hrun, hvecs]
    rfl
  refine ⟨_, _, hstep, ?_, ?_, g3, ?_, ?_⟩
  · intro other ho
    unfold writeHDF5Vecs
    rw [Function.update_of_ne ho]
  · unfold writeHDF5Vecs
    rw [Function.update_self, hold]
    rfl
  · intro name n1 n2 n3
    apply g1
    intro nv hnv e
    have hm : nv.1 ∈ vorticityNames L.dim := by rw [← hzip]; exact List.mem_map_of_mem hnv
    unfold vorticityNames at hm
    split_ifs at hm
    · simp at hm; rw [hm] at e; exact n3 e.symm
    · simp at hm
      rcases hm with hm | hm | hm <;> rw [hm] at e
      exacts [n1 e.symm, n2 e.symm, n3 e.symm]
  · intro f name hname
    have hfN : f < N := (List.getElem?_eq_some_iff.1 hname).1
    refine ⟨z f, (gridList (vorticityLayout L).toMeshInfo f).map (z f), hz f hfN, ?_, ?_, ?_⟩
    · refine g2 (by rw [hzip]; exact hnd) (name, (gridList (vorticityLayout L).toMeshInfo f).map (z f)) ?_
      apply List.mem_of_getElem? (i := f)
      rw [List.getElem?_zip_eq_some]
      refine ⟨hname, ?_⟩
      simp [vecs, hfN]
    · rw [List.length_map, length_gridList]; rfl
    · intro i j k hi hj hk
      have := gridList_getElem? (M := (vorticityLayout L).toMeshInfo) (f := f) hi hj hk
      rw [List.getElem?_map]
      show Option.map (z f) (gridList (vorticityLayout L).toMeshInfo f)[(k * (vorticityLayout L).toMeshInfo.n f 1 + j) * (vorticityLayout L).toMeshInfo.n f 0 + i]? = _
      rw [this]
      rfl

/-- C71. If the solution cannot be read the utility stops with this error and writes nothing. -/
theorem C71_read_error (U p : ℤ → K) (w : ℕ → ℕ × ℕ × ℕ → K) (disk : Disk K) (path : String) (e : Error)
    (hread : solutionRead L U p disk path = .error e) : vorticityStep L G B U p w disk path = .error e := by
  unfold vorticityStep
  rw [hread]
  rfl

/-- A file that meets the hypotheses of `C71_output`, and one that does not exist. -/
example : (∃ (disk : Disk ℚ) (old : H5File ℚ) (U' p' : ℤ → ℚ), disk "0000010.h5" = some old ∧
      solutionRead (exampleWalls 2 1) (fun _ => 0) (fun _ => 0) disk "0000010.h5" = .ok (U', p')) ∧
    solutionRead (exampleWalls 2 1) (fun _ => (0 : ℚ)) (fun _ => 0) (fun _ => none) "0000010.h5" = .error .fileRead := by
  constructor
  · obtain ⟨disk', V, q, h1, h2, _⟩ := C54_vectors_restored unitWalls_constructed.setup.layout (fun i => (i : ℚ)) (fun _ => 2) (fun _ => 0)
      (fun _ => 0) (fun _ => none) "0000010.h5"
    cases h : disk' "0000010.h5" with
    | some old => exact ⟨disk', old, V, q, h, h2⟩
    | none =>
      rw [C54_read_rejected unitWalls_constructed.setup.layout _ _ _ _ (Or.inl h)] at h2
      cases h2
  · exact C54_read_rejected unitWalls_constructed.setup.layout _ _ _ _ (Or.inl rfl)

end PetIBM
