/-
Properties C13-C18: ghost points and boundary conditions.
-/
import Verif.Lemmas.BoundaryRun
import Verif.Lemmas.Setup

set_option linter.unusedSectionVars false

namespace PetIBM

open Spec

variable {K : Type} [Field K]

/-! ### C13 -/

/-- C13. For a boundary that is neither periodic nor missing, the construction succeeds on every process; a ghost
point is registered by exactly one process if it lies one layer outside the face, and by none otherwise. -/
theorem C13_registered_once (debug : Bool) (L : Layout) (hL : LayoutOK L) (G : Geom K) (f loc : ℕ) (hf : f < L.dim)
    (hloc : loc < L.dim * 2) (hn : ∀ d, d < 3 → 0 < L.n f d) (v : K) (t : BCType) (ht : t ≠ .NOBC)
    (ht' : t ≠ .PERIODIC) :
    (∀ r, ∃ b, createSingleBoundary debug L G r loc f v t = .ok b) ∧
    (∀ s, OnFace L.toMeshInfo f loc s → ∃! r, r < L.mpiSize ∧
      ∃ b p, createSingleBoundary debug L G r loc f v t = .ok b ∧ b.points.find s = some p) ∧
    (∀ s, ¬ OnFace L.toMeshInfo f loc s → ∀ r b, createSingleBoundary debug L G r loc f v t = .ok b →
      b.points.find s = none) := by
  have hd3 : L.dim ≤ 3 := by rcases hL.dim with h | h <;> omega
  have hpts := fun r => createSingleBoundary_points debug hL G f r loc hf hloc hn v t ht ht'
  have hgood : ∀ r b s p, createSingleBoundary debug L G r loc f v t = .ok b → b.points.find s = some p →
      GoodRecord debug L G f r loc s p := by
    intro r b s p hb hs
    obtain ⟨b', e, hsorted, _, _, hg, _⟩ := hpts r
    rw [hb] at e; cases e
    exact (hg s p ((StencilMap.find_iff_mem hsorted s p).1 hs)).1
  refine ⟨fun r => ?_, ?_, ?_⟩
  · obtain ⟨b, h, _⟩ := hpts r; exact ⟨b, h⟩
  · intro s hs
    -- the neighbour across the face
    set x : ℕ → ℕ := fun d => if d = loc / 2 then (if loc % 2 = 0 then 0 else L.n f d - 1) else (coordOf s d).toNat with hx
    have hxlt : ∀ d, d < 3 → x d < L.n f d := by
      intro d hd
      have h0 := hn d hd
      simp only [hx]
      by_cases h : d = loc / 2
      · rw [if_pos h]; split_ifs <;> omega
      · rw [if_neg h]; have := hs.2.1 d hd h; omega
    obtain ⟨r, hr, ho⟩ := exists_owner hL (Or.inl hf) (hxlt 0 (by omega)) (hxlt 1 (by omega)) (hxlt 2 (by omega))
    have ho' : ∀ d, d < 3 → L.bg f r d ≤ x d ∧ x d < L.ed f r d := by
      rw [owns_iff] at ho
      intro d hd
      interval_cases d
      · exact ho.1
      · exact ho.2.1
      · exact ho.2.2
    refine ⟨r, ⟨hr, ?_⟩, ?_⟩
    · obtain ⟨b, e, hsorted, hon, _, _, hall⟩ := hpts r
      have h1 : checkBoundaryProc L f r loc = .ok true := by
        have := ho' (loc / 2) (by omega)
        have h0 := hn (loc / 2) (by omega)
        simp only [hx, if_true] at this
        unfold checkBoundaryProc
        rw [if_pos (by omega)]
        simp only
        split_ifs at this ⊢ with h2 h3 h4
        · omega
        · simp; omega
        · omega
        · simp; omega
      obtain ⟨p, hp⟩ := hall (hon.2 h1) s hs (by
        intro d hd hne
        have := ho' d hd
        simp only [hx, if_neg hne] at this
        have h2 := hs.2.1 d hd hne
        omega)
      exact ⟨b, p, e, (StencilMap.find_iff_mem hsorted s p).2 hp⟩
    · rintro r' ⟨hr', b, p, hb, hp⟩
      have good := hgood r' b s p hb hp
      obtain ⟨i, j, k, htn, howns⟩ := good.owns
      have hc : ∀ d, d < 3 → coordOf p.targetStencil d = x d := by
        intro d hd
        simp only [hx]
        by_cases h : d = loc / 2
        · subst h
          have h0 := hn (loc / 2) hd
          rw [if_pos rfl, good.across.1]
          split_ifs <;> omega
        · rw [if_neg h, good.across.2.1 d hd h]
          have := hs.2.1 d hd h; omega
      have e0 := hc 0 (by omega)
      have e1 := hc 1 (by omega)
      have e2 := hc 2 (by omega)
      rw [htn] at e0 e1 e2
      simp only [coordOf] at e0 e1 e2
      norm_num at e0 e1 e2
      rw [e0, e1, e2] at howns
      exact owner_unique howns ho
  · intro s hs r b hb
    rcases hfi : b.points.find s with _ | p
    · rfl
    · exact absurd (hgood r b s p hb hfi).face hs

/-- C13. What is registered for a ghost point: the grid point across the face, which the same process owns, its
index in the velocity vector, the area of the face and the distance. -/
theorem C13_paired_with_neighbour (debug : Bool) (L : Layout) (hL : LayoutOK L) (G : Geom K) (r : ℕ) (T : BCTable K)
    (B : Boundary K) (hB : boundaryInit debug L G r T = .ok B) (hn : ∀ f d, f < L.dim → d < 3 → 0 < L.n f d)
    (f loc : ℕ) (s : Stencil) (b : SingleBoundary K) (p : GhostPointInfo K) (hp : Point B f loc s b p) :
    OnFace L.toMeshInfo f loc s ∧ AcrossFace L.toMeshInfo f loc s p.targetStencil ∧
    L.getPackedGlobalIndex debug f p.targetStencil = .ok p.targetPackedId ∧ 0 ≤ p.targetPackedId ∧
    (∃ i j k : ℕ, p.targetStencil = ⟨k, j, i, 0⟩ ∧ Owns L f r i j k) ∧
    p.area = faceArea G f (loc / 2) s ∧
    (if loc % 2 = 0 then -p.dL else p.dL) = signedDistance G f loc s p.targetStencil := by
  obtain ⟨_, _, _, _, _, _, good⟩ := point_boundaryInit hL hB hn hp
  exact ⟨good.face, good.across, good.packed, good.nonneg, good.owns, good.area, good.dist⟩

/-! ### C14 - C17 -/

/-- C14. Dirichlet boundaries hold after every history of calls that begins with the initialisation and ends with a
refresh of the ghost values. -/
theorem C14_dirichlet (debug : Bool) (L : Layout) (hL : LayoutOK L) (G : Geom K) (hK : (2 : K) ≠ 0) (r : ℕ)
    (T : BCTable K) (B : Boundary K) (hB : boundaryInit debug L G r T = .ok B)
    (hn : ∀ f d, f < L.dim → d < 3 → 0 < L.n f d) (h : List (Boundary.Op K)) (hi : Initialised h) (u : ℤ → K)
    (hr : JustRefreshed h u) (f loc : ℕ) (hT : (T f loc).1 = .DIRICHLET) (s : Stencil) (b : SingleBoundary K)
    (p : GhostPointInfo K) (hp : Point (B.run h) f loc s b p) :
    ∃ t idx, AcrossFace L.toMeshInfo f loc s t ∧ L.getPackedGlobalIndex debug f t = .ok idx ∧
      boundaryValue loc f p.value (u idx) = (T f loc).2 := by
  obtain ⟨b0, p0, hp0, rfl, rfl⟩ := point_run hp
  obtain ⟨_, _, h1, h2, h3, h4, good⟩ := point_boundaryInit hL hB hn hp0
  refine ⟨p0.targetStencil, p0.targetPackedId, good.across, good.packed, ?_⟩
  have ht : b0.type = .DIRICHLET := by rw [h3, hT]
  obtain ⟨c0, c1, _⟩ := pointRun_coeffs b0 h hi p0 (by rw [ht]; simp) (by rw [ht]; simp)
  rw [pointRun_value b0 h u hr p0 (by rw [ht]; simp) (by rw [ht]; simp), c0, c1 ht, ht, ← h4]
  simp only [implicitCoeff, boundaryValue, h1, h2]
  split_ifs
  · ring
  · rw [div_eq_iff hK]; ring

/-- C14. What `boundaryValue` stands for: applied to the coordinates of a ghost point and of its neighbour it gives the
position of the wall. -/
theorem C14_boundary_position {K : Type} [Field K] [LinearOrder K] [IsStrictOrderedRing K] (L : Layout) (G : Geom K)
    (axes : ℕ → Axis K) (S : Setup L G axes) (f loc : ℕ) (hf : f < L.dim) (hloc : loc < L.dim * 2)
    (hper : L.periodic f (loc / 2) = false) (s t : Stencil) (hs : OnFace L.toMeshInfo f loc s)
    (ht : AcrossFace L.toMeshInfo f loc s t) :
    boundaryValue loc f (G.coord f (loc / 2) (coordOf s (loc / 2))) (G.coord f (loc / 2) (coordOf t (loc / 2))) =
      if loc % 2 = 0 then (axes (loc / 2)).min else (axes (loc / 2)).max := by
  obtain ⟨h1, h2⟩ := S.wall_position f (loc / 2) hf (by omega) hper
  rw [hs.1, ht.1]
  unfold boundaryValue
  by_cases h : loc / 2 = f
  · obtain ⟨e1, e2⟩ := h1 h
    rw [if_pos h]; split_ifs <;> assumption
  · obtain ⟨e1, e2⟩ := h2 h
    rw [if_neg h]; split_ifs <;> assumption

/-- C15, C16. The signed distance is negative on the lower faces and positive on the upper ones; in particular it
is not zero. -/
theorem C15_distance_sign {K : Type} [Field K] [LinearOrder K] [IsStrictOrderedRing K] (L : Layout) (G : Geom K)
    (axes : ℕ → Axis K) (S : Setup L G axes) (f loc : ℕ) (hf : f < L.dim) (hloc : loc < L.dim * 2) (s t : Stencil)
    (hs : OnFace L.toMeshInfo f loc s) (ht : AcrossFace L.toMeshInfo f loc s t) (hn : 0 < L.n f (loc / 2)) :
    if loc % 2 = 0 then signedDistance G f loc s t < 0 else 0 < signedDistance G f loc s t := by
  unfold signedDistance
  rw [hs.1, ht.1]
  split_ifs
  · have := S.coord_lt f (loc / 2) hf (by omega) (-1) (by omega) (by omega)
    norm_num at this
    linarith
  · have := S.coord_lt f (loc / 2) hf (by omega) (L.n f (loc / 2) - 1) (by omega) (by omega)
    norm_num at this
    linarith

/-- C15. Neumann boundaries hold after every such history: ghost minus neighbour is the prescribed derivative times
their signed distance. -/
theorem C15_neumann (debug : Bool) (L : Layout) (hL : LayoutOK L) (G : Geom K) (r : ℕ) (T : BCTable K) (B : Boundary K)
    (hB : boundaryInit debug L G r T = .ok B) (hn : ∀ f d, f < L.dim → d < 3 → 0 < L.n f d)
    (h : List (Boundary.Op K)) (hi : Initialised h) (u : ℤ → K) (hr : JustRefreshed h u) (f loc : ℕ)
    (hT : (T f loc).1 = .NEUMANN) (s : Stencil) (b : SingleBoundary K) (p : GhostPointInfo K)
    (hp : Point (B.run h) f loc s b p) :
    ∃ t idx, AcrossFace L.toMeshInfo f loc s t ∧ L.getPackedGlobalIndex debug f t = .ok idx ∧
      p.value - u idx = (T f loc).2 * signedDistance G f loc s t := by
  obtain ⟨b0, p0, hp0, rfl, rfl⟩ := point_run hp
  obtain ⟨_, _, h1, h2, h3, h4, good⟩ := point_boundaryInit hL hB hn hp0
  refine ⟨p0.targetStencil, p0.targetPackedId, good.across, good.packed, ?_⟩
  have ht : b0.type = .NEUMANN := by rw [h3, hT]
  obtain ⟨c0, _, c1⟩ := pointRun_coeffs b0 h hi p0 (by rw [ht]; simp) (by rw [ht]; simp)
  rw [pointRun_value b0 h u hr p0 (by rw [ht]; simp) (by rw [ht]; simp), c0, c1 ht, ht, ← h4, ← good.dist]
  simp only [implicitCoeff, SingleBoundary.normal, h1]
  split_ifs <;> ring

/-- C16. A convective boundary: one equation update with velocity `u` followed by a ghost refresh with velocity `u'`
advances the boundary value by minus dt times the convection speed times the derivative along the axis, for every
previous state of the boundary object. -/
theorem C16_convective (debug : Bool) (L : Layout) (hL : LayoutOK L) (G : Geom K) (hK : (2 : K) ≠ 0) (r : ℕ)
    (T : BCTable K) (B : Boundary K) (hB : boundaryInit debug L G r T = .ok B)
    (hn : ∀ f d, f < L.dim → d < 3 → 0 < L.n f d) (h : List (Boundary.Op K)) (u u' : ℤ → K) (dt : K) (f loc : ℕ)
    (hT : (T f loc).1 = .CONVECTIVE) (s : Stencil) (b : SingleBoundary K) (p : GhostPointInfo K)
    (hp : Point (B.run h) f loc s b p) :
    ∃ b' p', Point (B.run (h ++ [.updateEqs u dt, .updateGhostValues u'])) f loc s b' p' ∧
      ∃ t idx, AcrossFace L.toMeshInfo f loc s t ∧ L.getPackedGlobalIndex debug f t = .ok idx ∧
        boundaryValue loc f p'.value (u' idx) =
          boundaryValue loc f p.value (u idx) - dt * (T f loc).2 * ((p.value - u idx) / signedDistance G f loc s t) := by
  obtain ⟨b0, p0, hp0, rfl, rfl⟩ := point_run hp
  obtain ⟨_, _, h1, h2, h3, h4, good⟩ := point_boundaryInit hL hB hn hp0
  have ht : b0.type = .CONVECTIVE := by rw [h3, hT]
  refine ⟨_, _, run_point hp0, p0.targetStencil, p0.targetPackedId, good.across, good.packed, ?_⟩
  have e : b0.pointRun (h ++ [.updateEqs u dt, .updateGhostValues u']) p0 =
      b0.pointStep (b0.pointStep (b0.pointRun h p0) (.updateEqs u dt)) (.updateGhostValues u') := by
    simp [SingleBoundary.pointRun, List.foldl_append]
  have hst := SingleBoundary.pointRun_static b0 h p0
  rw [e, ← good.dist, ← h4]
  set q := b0.pointRun h p0 with hq
  simp only [SingleBoundary.pointStep, SingleBoundary.updateEqsKernel, ht, SingleBoundary.kernel, h1, h2, boundaryValue,
    SingleBoundary.normal]
  rw [← hst.2.1]
  by_cases hd : loc / 2 = f
  · simp only [if_pos hd, SingleBoundary.kernelSameDir, hst.1]
    split_ifs
    · rw [div_neg]; ring
    · ring
  · simp only [if_neg hd, SingleBoundary.kernelDiffDir, hst.1]
    split_ifs
    · rw [div_neg]; field_simp; ring
    · field_simp; ring

/-- C16. A convective boundary starts with the velocity of the neighbouring point: initialising with velocity `u`, after any history, sets
the ghost value to it, and the ghost equation then keeps the boundary value at it whatever the velocity `x` of the neighbour
becomes, until the next equation update. -/
theorem C16_initial (debug : Bool) (L : Layout) (hL : LayoutOK L) (G : Geom K) (hK : (2 : K) ≠ 0) (r : ℕ)
    (T : BCTable K) (B : Boundary K) (hB : boundaryInit debug L G r T = .ok B)
    (hn : ∀ f d, f < L.dim → d < 3 → 0 < L.n f d) (h : List (Boundary.Op K)) (u : ℤ → K) (f loc : ℕ)
    (hT : (T f loc).1 = .CONVECTIVE) (s : Stencil) (b : SingleBoundary K) (p : GhostPointInfo K)
    (hp : Point (B.run (h ++ [.setGhostICs u])) f loc s b p) :
    ∃ t idx, AcrossFace L.toMeshInfo f loc s t ∧ L.getPackedGlobalIndex debug f t = .ok idx ∧ p.value = u idx ∧
      ∀ x, boundaryValue loc f (p.a0 * x + p.a1) x = u idx := by
  obtain ⟨b0, p0, hp0, rfl, rfl⟩ := point_run hp
  obtain ⟨_, _, h1, h2, h3, h4, good⟩ := point_boundaryInit hL hB hn hp0
  have ht : b0.type = .CONVECTIVE := by rw [h3, hT]
  refine ⟨p0.targetStencil, p0.targetPackedId, good.across, good.packed, ?_⟩
  have e : b0.pointRun (h ++ [.setGhostICs u]) p0 = b0.pointStep (b0.pointRun h p0) (.setGhostICs u) := by
    simp [SingleBoundary.pointRun, List.foldl_append]
  have hst := SingleBoundary.pointRun_static b0 h p0
  rw [e]
  simp only [SingleBoundary.pointStep, SingleBoundary.setGhostICsKernel, ht, SingleBoundary.kernel, h1, h2, boundaryValue]
  rw [← hst.1]
  by_cases hd : loc / 2 = f
  · simp only [if_pos hd, SingleBoundary.kernelSameDir]
    exact ⟨trivial, fun x => by ring⟩
  · simp only [if_neg hd, SingleBoundary.kernelDiffDir]
    refine ⟨trivial, fun x => ?_⟩
    rw [div_eq_iff hK]; ring

/-- C17. The implicit coefficient of a ghost equation is the one given by type, face and component after every
history that begins with the initialisation. -/
theorem C17_implicit_part_fixed (debug : Bool) (L : Layout) (hL : LayoutOK L) (G : Geom K) (r : ℕ) (T : BCTable K)
    (B : Boundary K) (hB : boundaryInit debug L G r T = .ok B) (hn : ∀ f d, f < L.dim → d < 3 → 0 < L.n f d)
    (h : List (Boundary.Op K)) (hi : Initialised h) (f loc : ℕ) (s : Stencil) (b : SingleBoundary K)
    (p : GhostPointInfo K) (hp : Point (B.run h) f loc s b p) :
    p.a0 = match (T f loc).1 with
      | .NEUMANN => 1
      | _ => if loc / 2 = f then 0 else -1 := by
  obtain ⟨b0, p0, hp0, rfl, rfl⟩ := point_run hp
  obtain ⟨_, _, h1, h2, h3, h4, good⟩ := point_boundaryInit hL hB hn hp0
  have hne : b0.type ≠ .PERIODIC ∧ b0.type ≠ .NOBC := by
    obtain ⟨l, hl, hb, hs⟩ := hp0
    unfold boundaryInit at hB
    obtain ⟨f', hf', hl'⟩ := (mapM_except_getElem? hB f).2 l hl
    obtain ⟨_, rfl⟩ := getElem?_range_some hf'
    obtain ⟨loc', hloc', hb'⟩ := (mapM_except_getElem? hl' loc).2 b0 hb
    obtain ⟨_, rfl⟩ := getElem?_range_some hloc'
    constructor
    · intro hper
      rw [h3] at hper
      rw [hper] at hb'
      cases hb'
      simp [StencilMap.find] at hs
    · rw [h3]; exact (createSingleBoundary_static hb').2.2.2.2
  have := (pointRun_coeffs b0 h hi p0 hne.1 hne.2).1
  rw [this, h3, h1, h2]
  rfl

/-! ### C18 -/

/-- C18. Looking up a stencil in the ghost-point map gives the last record assigned to the same four integers, and
nothing if there was none. -/
theorem C18_dictionary {R : Type} (ops : List (Stencil × R)) (s : Stencil) :
    (StencilMap.ofAssignments ops).find s = ((ops.filter fun kv => decide (kv.1 = s)).getLast?).map (·.2) := by
  rw [StencilMap.find_ofAssignments]
  congr 1
  rw [← List.head?_filter, List.filter_reverse, List.head?_reverse]

/-- C18. Iterating over the map (`for (auto &it : points)`) visits every assigned stencil exactly once. -/
theorem C18_iteration {R : Type} (ops : List (Stencil × R)) :
    ((StencilMap.ofAssignments ops).map (·.1)).Nodup ∧
    ∀ s v, (s, v) ∈ StencilMap.ofAssignments ops ↔ (StencilMap.ofAssignments ops).find s = some v := by
  refine ⟨?_, fun s v => (StencilMap.find_iff_mem (StencilMap.sorted_ofAssignments ops) s v).symm⟩
  have := StencilMap.sorted_ofAssignments ops
  unfold StencilMap.Sorted at this
  rw [List.Nodup, List.pairwise_map]
  refine this.imp ?_
  intro a b hab he
  rw [he, stencilLt_irrefl] at hab
  exact absurd hab (by simp)

example : (StencilMap.ofAssignments [(⟨0, 1, -1, 0⟩, 5), (⟨0, 2, -1, 0⟩, 6), ((⟨0, 1, -1, 0⟩ : Stencil), 7)]).find
    ⟨0, 1, -1, 0⟩ = some 7 := by decide

/-- u on the left: Dirichlet 1; u on the right: convective with speed 1; the rest Neumann 0 -/
def exampleTable : BCTable ℚ := fun f b =>
  if f = 0 ∧ b = 0 then (.DIRICHLET, 1) else if f = 0 ∧ b = 1 then (.CONVECTIVE, 1) else (.NEUMANN, 0)

example : ∃ B, boundaryInit true exampleLayout ⟨fun _ _ _ => (1 : ℚ), fun _ _ i => i⟩ 0 exampleTable = .ok B ∧
    (∃ s b p, Point B 0 0 s b p) ∧ (∃ s b p, Point B 1 2 s b p) :=
  ⟨_, rfl, ⟨⟨0, 0, -1, 0⟩, _, _, _, rfl, rfl, rfl⟩, ⟨⟨0, -1, 0, 0⟩, _, _, _, rfl, rfl, rfl⟩⟩

/-- a process with a convective boundary -/
example : ∃ B, boundaryInit true exampleLayout ⟨fun _ _ _ => (1 : ℚ), fun _ _ i => i⟩ 1 exampleTable = .ok B ∧
    ∃ s b p, Point (B.run ([.updateEqs (fun _ => 1) 2] ++ [.setGhostICs fun _ => 3])) 0 1 s b p :=
  ⟨_, rfl, ⟨0, 0, exampleLayout.n 0 0, 0⟩, _, _, _, rfl, rfl, rfl⟩

example : Initialised [.setGhostICs (fun _ => (0 : ℚ)), .updateEqs (fun _ => 1) 2, .updateGhostValues fun _ => 3] ∧
    JustRefreshed [.setGhostICs (fun _ => (0 : ℚ)), .updateEqs (fun _ => 1) 2, .updateGhostValues fun _ => 3] fun _ => 3 :=
  ⟨⟨_, _, rfl⟩, ⟨[.setGhostICs (fun _ => (0 : ℚ)), .updateEqs (fun _ => 1) 2], Or.inr rfl⟩⟩

end PetIBM
