/-
Rows of the Laplacian.
-/
import Verif.Lemmas.GhostSum

set_option linter.unusedSectionVars false

namespace PetIBM

open Spec Layout

variable {K : Type} [Field K]

/-! ### Lookup of ghost points and modifiers -/

/-- registered ghost point, if any -/
def ghostAt (B : Boundary K) (f loc : ℕ) (s : Stencil) : Option (GhostPointInfo K) :=
  B[f]?.bind fun l => l[loc]?.bind fun b => b.points.find s

theorem ghostAt_of_point {B : Boundary K} {f loc : ℕ} {s : Stencil} {b : SingleBoundary K} {p : GhostPointInfo K}
    (h : Point B f loc s b p) : ghostAt B f loc s = some p := by
  obtain ⟨l, h1, h2, h3⟩ := h
  simp [ghostAt, h1, h2, h3]

/-- ghost value given by the equation, with `t` the value at the neighbour -/
def ghostA0 (B : Boundary K) (f loc : ℕ) (s : Stencil) : K := ((ghostAt B f loc s).map (·.a0)).getD 0
def ghostA1 (B : Boundary K) (f loc : ℕ) (s : Stencil) : K := ((ghostAt B f loc s).map (·.a1)).getD 0

theorem find_ofAssignments_unique {T : Type} {ops : List (Stencil × T)} {k : Stencil} {v : T}
    (h : ∀ x ∈ ops, x.1 = k → x.2 = v) (hex : ∃ x ∈ ops, x.1 = k) : (StencilMap.ofAssignments ops).find k = some v := by
  rw [StencilMap.find_ofAssignments]
  obtain ⟨x, hx, hk⟩ := hex
  obtain ⟨y, hy⟩ : ∃ y, ops.reverse.find? (fun kv => decide (kv.1 = k)) = some y := by
    rw [← Option.isSome_iff_exists, List.find?_isSome]
    exact ⟨x, List.mem_reverse.2 hx, by simpa using hk⟩
  rw [hy]
  have h1 := List.find?_some hy
  have h2 := List.mem_of_find?_eq_some hy
  simp only [Option.map_some, Option.some.injEq]
  exact h y (List.mem_reverse.1 h2) (by simpa using h1)

/-- `nbr` determines the inside point and the side when it leaves the grid in one direction only -/
theorem nbr_inj {M : MeshInfo} {f loc loc' : ℕ} (hl : loc < 6) (hl' : loc' < 6) {s t : Stencil} (hs : Inside M f s)
    (ht : Inside M f t) (hw : AtSide M f loc s) (h : nbr loc s = nbr loc' t) : loc = loc' ∧ s = t := by
  have hface := (nbr_face hl hs hw).1
  have hd : loc / 2 = loc' / 2 := by
    by_contra hne
    have h1 : coordOf (nbr loc s) (loc / 2) = coordOf (nbr loc' t) (loc / 2) := by rw [h]
    rw [hface.1] at h1
    unfold nbr at h1
    rw [coordOf_along _ _ _ _ (by omega) (by omega), if_neg hne] at h1
    have := ht.1 (loc / 2) (by omega)
    split_ifs at h1 <;> omega
  have e : ∀ d, d < 3 → d ≠ loc / 2 → coordOf s d = coordOf t d := by
    intro d hd3 hne
    have h1 := congrArg (fun z => coordOf z d) h
    simp only [nbr] at h1
    rw [coordOf_along _ _ _ _ (by omega) hd3, coordOf_along _ _ _ _ (by omega) hd3, if_neg hne, if_neg (by omega)] at h1
    exact h1
  have e1 := congrArg (fun z => coordOf z (loc / 2)) h
  simp only [nbr] at e1
  rw [coordOf_along _ _ _ _ (by omega) (by omega), ← hd, coordOf_along _ _ _ _ (by omega) (by omega), if_pos rfl,
    if_pos rfl] at e1
  unfold AtSide at hw
  have ht' := ht.1 (loc / 2) (by omega)
  have hs' := hs.1 (loc / 2) (by omega)
  have hpar : loc % 2 = loc' % 2 := by
    rw [hw] at e1
    by_contra hne
    split_ifs at e1 <;> omega
  rw [hpar] at e1
  refine ⟨by omega, ?_⟩
  apply stencil_ext
  · intro d hd3
    by_cases h' : d = loc / 2
    · subst h'; omega
    · exact e d hd3 h'
  · rw [hs.2, ht.2]

/-! ### Pure form of the row -/

/-- value of the neighbour entry -/
def lapW (G : Geom K) (f loc : ℕ) (s : Stencil) : K :=
  1 / ((if loc % 2 = 0 then G.coord f (loc / 2) (coordOf s (loc / 2)) - G.coord f (loc / 2) (coordOf s (loc / 2) - 1)
    else G.coord f (loc / 2) (coordOf s (loc / 2) + 1) - G.coord f (loc / 2) (coordOf s (loc / 2))) *
    G.dL f (loc / 2) (coordOf s (loc / 2)))

/-- stencil, column, value -/
def lapItems (L : Layout) (G : Geom K) (f : ℕ) (s : Stencil) : List (Stencil × ℤ × K) :=
  (s, col L f s, -(((List.range (L.dim * 2)).map fun loc => lapW G f loc s).sum)) ::
    (List.range (L.dim * 2)).map fun loc => (nbr loc s, col L f (nbr loc s), lapW G f loc s)

def lapEntries (L : Layout) (G : Geom K) (f : ℕ) (s : Stencil) : List (Entry K) :=
  (lapItems L G f s).map fun x => ⟨col L f s, x.2.1, x.2.2⟩

def lapMods (L : Layout) (G : Geom K) (f : ℕ) (s : Stencil) : List (Stencil × RowModifier K) :=
  ((lapItems L G f s).filter fun x => decide (x.2.1 = -1)).map fun x => (x.1, ⟨col L f s, x.2.2⟩)

theorem laplacianStencils_eq {dim : ℕ} (hd : dim = 2 ∨ dim = 3) (i j k : ℤ) :
    laplacianStencils dim i j k = ⟨k, j, i, 0⟩ :: (List.range (dim * 2)).map fun loc => nbr loc ⟨k, j, i, 0⟩ := by
  rcases hd with rfl | rfl <;>
  simp [laplacianStencils, List.range_succ, nbr, along, coordOf, sub_eq_add_neg]

theorem laplacianOffDiag_eq {dim : ℕ} (hd : dim = 2 ∨ dim = 3) (G : Geom K) (f : ℕ) (i j k : ℤ) :
    laplacianOffDiag dim G f i j k = (List.range (dim * 2)).map fun loc => lapW G f loc ⟨k, j, i, 0⟩ := by
  rcases hd with rfl | rfl <;>
  simp [laplacianOffDiag, List.range_succ, lapW, coordOf]

theorem laplacianValues_eq {dim : ℕ} (hd : dim = 2 ∨ dim = 3) (G : Geom K) (f : ℕ) (i j k : ℤ) :
    laplacianValues dim G f i j k = (-(((List.range (dim * 2)).map fun loc => lapW G f loc ⟨k, j, i, 0⟩).sum)) ::
      (List.range (dim * 2)).map fun loc => lapW G f loc ⟨k, j, i, 0⟩ := by
  unfold laplacianValues
  rw [laplacianOffDiag_eq hd, List.sum_eq_foldl]

theorem nbr_range {M : MeshInfo} {f loc : ℕ} (hl : loc < 6) {s : Stencil} (hs : Inside M f s) :
    -1 ≤ coordOf s (loc / 2) + (if loc % 2 = 0 then -1 else 1) ∧
      coordOf s (loc / 2) + (if loc % 2 = 0 then -1 else 1) ≤ M.n f (loc / 2) := by
  have := hs.1 (loc / 2) (by omega)
  split_ifs <;> omega

theorem zip_map3 {α β γ δ : Type} (l : List α) (a : α → β) (b : α → γ) (c : α → δ) :
    (l.map a).zip ((l.map b).zip (l.map c)) = l.map fun x => (a x, b x, c x) := by
  induction l with
  | nil => rfl
  | cons x l ih => simp [ih]

theorem laplacianRow_eq {L : Layout} (hL : LayoutOK L) (debug : Bool) (G : Geom K) {f : ℕ} (hf : f < L.dim) {i j k : ℕ}
    (hs : Inside L.toMeshInfo f ⟨k, j, i, 0⟩) :
    laplacianRow debug L G f (i, j, k) =
      .ok (lapEntries L G f ⟨k, j, i, 0⟩, lapMods L G f ⟨k, j, i, 0⟩) := by
  have hd3 : L.dim ≤ 3 := by rcases hL.dim with h | h <;> omega
  unfold laplacianRow
  simp only
  rw [mapM_ok (g := L.getPackedGlobalIndex debug f) (h := col L f), laplacianValues_eq hL.dim, laplacianStencils_eq hL.dim]
  · simp only [lapEntries, lapMods, lapItems, List.map_cons, bind, Except.bind, pure, Except.pure, List.zip_cons_cons]
    rw [List.map_map, zip_map3]
    rfl
  · intro x hx
    rw [laplacianStencils_eq hL.dim] at hx
    rcases List.mem_cons.1 hx with rfl | hx
    · exact (col_inside hL (Or.inl hf) debug hs).1
    · obtain ⟨loc, hloc, rfl⟩ := List.mem_map.1 hx
      have hloc := List.mem_range.1 hloc
      exact (col_neighbour hL (Or.inl hf) debug hs (by omega) (nbr_range (by omega) hs)).1

theorem getD_map_range {α : Type} (n : ℕ) (g : ℕ → α) (a : α) (r : ℕ) (hr : r < n) :
    ((List.range n).map g).getD r a = g r := by
  rw [List.getD_eq_getElem?_getD, List.getElem?_map, List.getElem?_range hr]; rfl

/-- the assignments of one rank and field -/
def lapOps (L : Layout) (G : Geom K) (r f : ℕ) : List (Stencil × RowModifier K) :=
  (L.box f r).flatMap fun p => lapMods L G f ⟨p.2.2, p.2.1, p.1, 0⟩

theorem createLaplacian_eq {L : Layout} (hL : LayoutOK L) (debug : Bool) (G : Geom K) (B : ℕ → Boundary K) :
    ∃ mods : Modifiers K, (∀ r f, r < L.mpiSize → f < L.dim → mods r f = StencilMap.ofAssignments (lapOps L G r f)) ∧
    createLaplacian debug L G B = (do
      let A ← assemble L.UN L.UN ((unknowns L).flatMap fun u => lapEntries L G u.comp u.st) (boundaryEntries L B mods)
      return (A, mods)) := by
  unfold createLaplacian
  rw [loop_unknowns hL (laplacianRow debug L G)
    (fun f p => (lapEntries L G f ⟨p.2.2, p.2.1, p.1, 0⟩, lapMods L G f ⟨p.2.2, p.2.1, p.1, 0⟩))
    (fun u hu => laplacianRow_eq hL debug G hu.1 hu.inside)]
  refine ⟨fun r f => StencilMap.ofAssignments (((((List.range L.mpiSize).map fun r => (List.range L.dim).map fun f =>
    (L.box f r).map fun p : ℕ × ℕ × ℕ => (lapEntries L G f ⟨p.2.2, p.2.1, p.1, 0⟩, lapMods L G f ⟨p.2.2, p.2.1, p.1, 0⟩)).getD r []).getD f []).flatMap
    fun x => x.2), ?_, ?_⟩
  · intro r f hr hf
    simp only
    rw [getD_map_range _ _ _ _ hr, getD_map_range _ _ _ _ hf, List.flatMap_map]
    rfl
  · simp only [bind, Except.bind]
    rw [List.flatMap_map]
    simp only [List.flatMap_map]
    rw [flatMap_unknowns L fun r f p => lapEntries L G f ⟨p.2.2, p.2.1, p.1, 0⟩]
    rfl

section
variable {L : Layout} {G : Geom K} {debug : Bool} {B : ℕ → Boundary K}

/-- The modifier of a registered ghost point belongs to the row of its target. -/
theorem lap_modifier (hL : LayoutOK L) (hG : GhostsOK debug L G B) {r f loc : ℕ} {s : Stencil} {b : SingleBoundary K}
    {p : GhostPointInfo K} (hr : r < L.mpiSize) (hp : Point (B r) f loc s b p) :
    modifierAt (StencilMap.ofAssignments (lapOps L G r f)) s =
      ⟨col L f p.targetStencil, lapW G f loc p.targetStencil⟩ := by
  have hd3 : L.dim ≤ 3 := by rcases hL.dim with h | h <;> omega
  obtain ⟨hf, hloc, good⟩ := hG.good r f loc s b p hr hp
  have hper := hG.periodic r f loc s b p hr hp
  obtain ⟨hs, hside⟩ := face_nbr (by omega) good.face good.across
  obtain ⟨i, j, k, hts, ho⟩ := good.owns
  have hin := owns_inGrid hL (Or.inl hf) ho
  have hins : Inside L.toMeshInfo f p.targetStencil := by rw [hts]; exact inside_nat hin.1 hin.2.1 hin.2.2
  have hcol : col L f s = -1 := by
    rw [hs]
    apply (col_wall hL (Or.inl hf) debug hins (d := loc / 2) (by omega) hper _).2
    unfold AtSide at hside
    rw [hside]; split_ifs <;> omega
  unfold modifierAt
  rw [find_ofAssignments_unique (v := ⟨col L f p.targetStencil, lapW G f loc p.targetStencil⟩)]
  · rfl
  · intro x hx hxs
    unfold lapOps at hx
    obtain ⟨⟨i', j', k'⟩, hp', hx⟩ := List.mem_flatMap.1 hx
    have hin' := owns_inGrid hL (Or.inl hf) (mem_box.1 hp')
    have hins' : Inside L.toMeshInfo f ⟨k', j', i', 0⟩ := inside_nat hin'.1 hin'.2.1 hin'.2.2
    simp only [lapMods] at hx
    obtain ⟨y, hy, rfl⟩ := List.mem_map.1 hx
    obtain ⟨hy, hneg⟩ := List.mem_filter.1 hy
    simp only [lapItems] at hy
    rcases List.mem_cons.1 hy with rfl | hy
    · have := (col_inside hL (Or.inl hf) debug hins').2.1
      simp at hneg
      omega
    · obtain ⟨loc', hl', rfl⟩ := List.mem_map.1 hy
      have hl' := List.mem_range.1 hl'
      simp only at hxs
      rw [hs] at hxs
      obtain ⟨rfl, e⟩ := nbr_inj (by omega) (by omega) hins hins' hside hxs.symm
      rw [← e]
  · refine ⟨(s, ⟨col L f p.targetStencil, lapW G f loc p.targetStencil⟩), ?_, rfl⟩
    unfold lapOps
    refine List.mem_flatMap.2 ⟨(i, j, k), mem_box.2 ho, ?_⟩
    have e : (⟨k, j, i, 0⟩ : Stencil) = p.targetStencil := hts.symm
    show _ ∈ lapMods L G f ⟨k, j, i, 0⟩
    rw [e]
    unfold lapMods
    refine List.mem_map.2 ⟨(s, col L f s, lapW G f loc p.targetStencil), List.mem_filter.2 ⟨?_, by simpa using hcol⟩, rfl⟩
    unfold lapItems
    apply List.mem_cons_of_mem
    refine List.mem_map.2 ⟨loc, List.mem_range.2 hloc, ?_⟩
    rw [← hs]

theorem mem_boundaryLoop (hG : GhostsOK debug L G B) {x : ℕ × ℕ × Stencil × GhostPointInfo K}
    (hx : x ∈ boundaryLoop L B) : x.1 < L.mpiSize ∧ x.2.1 < L.dim ∧ ∃ loc b, Point (B x.1) x.2.1 loc x.2.2.1 b x.2.2.2 := by
  unfold boundaryLoop at hx
  obtain ⟨r, hr, hx⟩ := List.mem_flatMap.1 hx
  obtain ⟨f, hf, hx⟩ := List.mem_flatMap.1 hx
  obtain ⟨b, hb, hx⟩ := List.mem_flatMap.1 hx
  have hr := List.mem_range.1 hr
  have hf := List.mem_range.1 hf
  obtain ⟨l, hl, hlen, hall⟩ := hG.shape r f hr hf
  rw [List.getD_eq_getElem?_getD, hl] at hb
  obtain ⟨loc, hloc⟩ := List.getElem?_of_mem hb
  simp only [Option.getD_some] at hloc
  split_ifs at hx
  · obtain ⟨⟨s, p⟩, hp, rfl⟩ := List.mem_map.1 hx
    exact ⟨hr, hf, loc, b, l, hl, hloc, (StencilMap.find_iff_mem (hall loc b hloc).1 s p).2 hp⟩
  · simp at hx

theorem target_inside (hL : LayoutOK L) (hG : GhostsOK debug L G B) {r f loc : ℕ} {s : Stencil} {b : SingleBoundary K}
    {p : GhostPointInfo K} (hr : r < L.mpiSize) (hp : Point (B r) f loc s b p) :
    Inside L.toMeshInfo f p.targetStencil ∧ p.targetPackedId = col L f p.targetStencil := by
  obtain ⟨hf, hloc, good⟩ := hG.good r f loc s b p hr hp
  obtain ⟨i, j, k, hts, ho⟩ := good.owns
  have hin := owns_inGrid hL (Or.inl hf) ho
  have hins : Inside L.toMeshInfo f p.targetStencil := by rw [hts]; exact inside_nat hin.1 hin.2.1 hin.2.2
  refine ⟨hins, ?_⟩
  have h1 := good.packed
  rw [(col_inside hL (Or.inl hf) debug hins).1] at h1
  exact (Except.ok.inj h1).symm

/-- Sum over the ghost points, when every point contributes to the row of its target. -/
theorem ghost_sum_row (hL : LayoutOK L) (hG : GhostsOK debug L G B) {u : Unknown} (hu : IsUnknown L u)
    (mods : Modifiers K) (hm : ∀ r f, r < L.mpiSize → f < L.dim → mods r f = StencilMap.ofAssignments (lapOps L G r f))
    (val : GhostPointInfo K → K) :
    ((boundaryLoop L B).map fun x => if (modifierAt (mods x.1 x.2.1) x.2.2.1).row = col L u.comp u.st then
      (modifierAt (mods x.1 x.2.1) x.2.2.1).coeff * val x.2.2.2 else 0).sum =
    ((List.range (L.dim * 2)).map fun loc =>
      if L.periodic 0 (loc / 2) = false ∧ AtSide L.toMeshInfo u.comp loc u.st then
        lapW G u.comp loc u.st * ((ghostAt (B u.rank) u.comp loc (nbr loc u.st)).map val).getD 0 else 0).sum := by
  classical
  have hd3 : L.dim ≤ 3 := by rcases hL.dim with h | h <;> omega
  apply boundaryLoop_sum hG hd3 hu fun r f s p => if (modifierAt (mods r f) s).row = col L u.comp u.st then
      (modifierAt (mods r f) s).coeff * val p else 0
  · intro r f loc s b p hr hp hne
    obtain ⟨hf, hloc, good⟩ := hG.good r f loc s b p hr hp
    rw [hm r f hr hf, lap_modifier hL hG hr hp, if_neg]
    intro h
    apply hne
    exact col_inj hL hf hu.1 (target_inside hL hG hr hp).1 hu.inside h
  · intro loc b p hloc hp ht
    have hr := hu.2.2.2.2.1
    obtain ⟨_, _, good⟩ := hG.good _ _ loc _ b p hr hp
    rw [hm _ _ hr hu.1, lap_modifier hL hG hr hp, ht, if_pos rfl, if_pos, ghostAt_of_point hp]
    · rfl
    · refine ⟨hG.periodic _ _ _ _ _ _ hr hp, ?_⟩
      have := (face_nbr (by omega) good.face good.across).2
      rwa [ht] at this
  · intro loc hloc h
    rw [if_neg h]

theorem emod_near {y n : ℤ} (hn : 0 < n) (h1 : -1 ≤ y) (h2 : y ≤ n) :
    y % n = if y = -1 then n - 1 else if y = n then 0 else y := by
  split_ifs with h h'
  · subst h
    rw [Int.emod_eq_add_self_emod, Int.emod_eq_of_lt] <;> omega
  · subst h'; simp
  · exact Int.emod_eq_of_lt (by omega) (by omega)

/-- column of a neighbour as the column of an inside point -/
theorem col_nbr (hL : LayoutOK L) {f : ℕ} (hf : f < L.dim) {s : Stencil} (hs : Inside L.toMeshInfo f s) {loc : ℕ}
    (hloc : loc < L.dim * 2) (hne : col L f (nbr loc s) ≠ -1) :
    ∃ y : ℤ, (0 ≤ y ∧ y < L.n f (loc / 2)) ∧ col L f (nbr loc s) = col L f (along s (loc / 2) y) ∧
      (L.periodic 0 (loc / 2) = false → y = coordOf s (loc / 2) + (if loc % 2 = 0 then -1 else 1)) ∧
      y = (coordOf s (loc / 2) + (if loc % 2 = 0 then -1 else 1)) % L.n f (loc / 2) := by
  have hd3 : L.dim ≤ 3 := by rcases hL.dim with h | h <;> omega
  have hr := nbr_range (loc := loc) (by omega) hs
  set x := coordOf s (loc / 2) + (if loc % 2 = 0 then -1 else 1) with hx
  have h := (col_neighbour hL (Or.inl hf) false hs (d := loc / 2) (by omega) hr).2.2
  by_cases hin : 0 ≤ x ∧ x < L.n f (loc / 2)
  · exact ⟨x, hin, rfl, fun _ => rfl, (Int.emod_eq_of_lt hin.1 hin.2).symm⟩
  · have hx' : x = -1 ∨ x = L.n f (loc / 2) := by omega
    have hp : L.periodic 0 (loc / 2) = true := by
      by_contra hp
      exact hne (h.2 ⟨by simpa using hp, hx'⟩)
    obtain ⟨_, h2, h3⟩ := col_periodic hL (Or.inl hf) false hs (d := loc / 2) (by omega) hp hx'
    have h4 := h3.1 (loc / 2) (by omega)
    rw [coordOf_along _ _ _ _ (by omega) (by omega), if_pos rfl] at h4
    refine ⟨_, h4, h2, fun h => ?_, rfl⟩
    rw [hp] at h; cases h

theorem lap_cols_nodup (hL : LayoutOK L) {f : ℕ} (hf : f < L.dim) (hn : ∀ d, d < L.dim → L.periodic 0 d = true → 3 ≤ L.n f d)
    {s : Stencil} (hs : Inside L.toMeshInfo f s) :
    (((lapItems L G f s).map (·.2.1)).filter fun c => decide (0 ≤ c)).Nodup := by
  have hd3 : L.dim ≤ 3 := by rcases hL.dim with h | h <;> omega
  have hself := (col_inside hL (Or.inl hf) false hs).2.1
  have hpos : ∀ loc, loc < L.dim * 2 → 0 ≤ col L f (nbr loc s) → ∃ y : ℤ, (0 ≤ y ∧ y < L.n f (loc / 2)) ∧
      col L f (nbr loc s) = col L f (along s (loc / 2) y) ∧ y ≠ coordOf s (loc / 2) ∧
      (if loc % 2 = 0 then (y = coordOf s (loc / 2) - 1 ∨ (3 ≤ L.n f (loc / 2) ∧ coordOf s (loc / 2) = 0 ∧ y = L.n f (loc / 2) - 1))
        else (y = coordOf s (loc / 2) + 1 ∨ (3 ≤ L.n f (loc / 2) ∧ coordOf s (loc / 2) = L.n f (loc / 2) - 1 ∧ y = 0))) := by
    intro loc hloc h0
    obtain ⟨y, hy, hc, hnp, hmod⟩ := col_nbr hL hf hs hloc (by omega)
    have hb := hs.1 (loc / 2) (by omega)
    have hnp' : L.periodic 0 (loc / 2) = true → 3 ≤ L.n f (loc / 2) := hn _ (by omega)
    have hr := nbr_range (loc := loc) (by omega) hs
    rw [emod_near (by omega) hr.1 hr.2] at hmod
    cases hp : L.periodic 0 (loc / 2)
    · have := hnp hp
      refine ⟨y, hy, hc, ?_, ?_⟩
      · split_ifs at this <;> omega
      · split_ifs with h
        · rw [if_pos h] at this; omega
        · rw [if_neg h] at this; omega
    · have := hnp' hp
      refine ⟨y, hy, hc, ?_, ?_⟩
      · split_ifs at hmod <;> omega
      · split_ifs with h
        · simp only [if_pos h] at hmod; split_ifs at hmod <;> omega
        · simp only [if_neg h] at hmod; split_ifs at hmod <;> omega
  rw [List.nodup_iff_pairwise_ne, List.pairwise_filter]
  simp only [lapItems, List.map_cons, List.map_map, List.pairwise_cons, List.pairwise_map]
  constructor
  · intro c hc _ h0 heq
    obtain ⟨loc, hloc, rfl⟩ := List.mem_map.1 hc
    have hloc := List.mem_range.1 hloc
    simp only [Function.comp, decide_eq_true_eq] at heq h0
    obtain ⟨y, hy, hc, hne, _⟩ := hpos loc hloc h0
    rw [hc] at heq
    have := (col_inj hL hf hf hs (hs.along _ (by omega) y hy) heq).2
    have h2 := coordOf_along s (loc / 2) (loc / 2) y (by omega) (by omega)
    rw [← this, if_pos rfl] at h2
    exact hne h2.symm
  · refine List.Pairwise.imp_of_mem ?_ (List.pairwise_lt_range (n := L.dim * 2))
    intro loc loc' hl hl' hlt h0 h0' heq
    have hl := List.mem_range.1 hl
    have hl' := List.mem_range.1 hl'
    simp only [Function.comp, decide_eq_true_eq] at heq h0 h0'
    obtain ⟨y, hy, hc, hne, h1⟩ := hpos loc hl h0
    obtain ⟨y', hy', hc', hne', h1'⟩ := hpos loc' hl' h0'
    rw [hc, hc'] at heq
    have e := (col_inj hL hf hf (hs.along _ (by omega) y hy) (hs.along _ (by omega) y' hy') heq).2
    have h2 := coordOf_along s (loc / 2) (loc / 2) y (by omega) (by omega)
    rw [if_pos rfl, e, coordOf_along _ _ _ _ (by omega) (by omega)] at h2
    by_cases hd : loc / 2 = loc' / 2
    · rw [if_pos hd] at h2
      rw [← hd, if_neg (by omega)] at h1'
      rw [if_pos (by omega)] at h1
      have := hs.1 (loc / 2) (by omega)
      omega
    · rw [if_neg hd] at h2
      exact hne h2.symm

theorem lap_range (hL : LayoutOK L) (hG : GhostsOK debug L G B) (mods : Modifiers K)
    (hm : ∀ r f, r < L.mpiSize → f < L.dim → mods r f = StencilMap.ofAssignments (lapOps L G r f)) :
    ∀ e ∈ ((unknowns L).flatMap fun u => lapEntries L G u.comp u.st) ++ boundaryEntries L B mods,
      e.row < (L.UN : ℤ) ∧ e.col < (L.UN : ℤ) := by
  have hd3 : L.dim ≤ 3 := by rcases hL.dim with h | h <;> omega
  have hin : ∀ f s, f < L.dim → Inside L.toMeshInfo f s → 0 ≤ col L f s ∧ col L f s < (L.UN : ℤ) := by
    intro f s hf hs
    have := (col_inside hL (Or.inl hf) false hs).2
    rw [vecSize, if_neg (by omega)] at this
    exact this
  intro e he
  rcases List.mem_append.1 he with he | he
  · obtain ⟨u, hu, he⟩ := List.mem_flatMap.1 he
    have hu := (mem_unknowns hL).1 hu
    obtain ⟨x, hx, rfl⟩ := List.mem_map.1 he
    refine ⟨(hin _ _ hu.1 hu.inside).2, ?_⟩
    rcases List.mem_cons.1 hx with rfl | hx
    · exact (hin _ _ hu.1 hu.inside).2
    · obtain ⟨loc, hloc, rfl⟩ := List.mem_map.1 hx
      have hloc := List.mem_range.1 hloc
      have := (col_neighbour hL (Or.inl hu.1) false hu.inside (d := loc / 2) (by omega)
        (nbr_range (loc := loc) (by omega) hu.inside)).2.1
      have hne : u.comp ≠ 3 := by have := hu.1; omega
      have e : along u.st (loc / 2) (coordOf u.st (loc / 2) + if loc % 2 = 0 then -1 else 1) = nbr loc u.st := rfl
      rw [vecSize, if_neg hne, e] at this
      show col L u.comp (nbr loc u.st) < _
      omega
  · obtain ⟨x, hx, rfl⟩ := List.mem_map.1 he
    obtain ⟨hr, hf, loc, b, hp⟩ := mem_boundaryLoop hG hx
    obtain ⟨r, f, s, p⟩ := x
    simp only at hr hf hp ⊢
    obtain ⟨h1, h2⟩ := target_inside hL hG hr hp
    rw [hm r f hr hf, lap_modifier hL hG hr hp, h2]
    exact ⟨(hin _ _ hf h1).2, (hin _ _ hf h1).2⟩

/-- Rows of the Laplacian plus correction, `B` at construction, `B'` now. -/
theorem laplacian_rows (hL : LayoutOK L) (hG : GhostsOK debug L G B)
    (hn : ∀ f d, f < L.dim → d < L.dim → L.periodic 0 d = true → 3 ≤ L.n f d) :
    ∃ A mods, createLaplacian debug L G B = .ok (A, mods) ∧ ∀ (B' : ℕ → Boundary K), GhostsOK debug L G B' →
      ∀ u, IsUnknown L u → ∀ q : ℤ → K,
      Mat.mult L.UN A q (col L u.comp u.st) = -(((List.range (L.dim * 2)).map fun loc => lapW G u.comp loc u.st).sum) * q (col L u.comp u.st) +
        ((List.range (L.dim * 2)).map fun loc => lapW G u.comp loc u.st *
          if L.periodic 0 (loc / 2) = false ∧ AtSide L.toMeshInfo u.comp loc u.st then
            ghostA0 (B u.rank) u.comp loc (nbr loc u.st) * q (col L u.comp u.st)
          else q (col L u.comp (nbr loc u.st))).sum ∧
      correctionMult L B' mods (col L u.comp u.st) =
        ((List.range (L.dim * 2)).map fun loc => lapW G u.comp loc u.st *
          if L.periodic 0 (loc / 2) = false ∧ AtSide L.toMeshInfo u.comp loc u.st then
            ghostA1 (B' u.rank) u.comp loc (nbr loc u.st) else 0).sum := by
  classical
  have hd3 : L.dim ≤ 3 := by rcases hL.dim with h | h <;> omega
  obtain ⟨mods, hm, heq⟩ := createLaplacian_eq hL debug G B
  have hrange := lap_range hL hG mods hm
  refine ⟨_, mods, by rw [heq, assemble_ok hrange]; rfl, ?_⟩
  intro B' hG' u hu q
  have hf := hu.1
  have hrow := (col_inside hL (Or.inl hf) false hu.inside).2.1
  have hfilter : ∀ p : Entry K → Bool, (∀ e, p e = true → e.row = col L u.comp u.st) →
      ((unknowns L).flatMap fun u => lapEntries L G u.comp u.st).filter p = (lapEntries L G u.comp u.st).filter p := by
    intro p hp
    apply filter_flatMap_single (nodup_unknowns L) ((mem_unknowns hL).2 hu) (fun u => lapEntries L G u.comp u.st)
    intro v hv hne e he
    by_contra h
    have h := hp e (by simpa using h)
    apply hne
    have hv := (mem_unknowns hL).1 hv
    apply hv.row_inj hL hu
    obtain ⟨x, _, rfl⟩ := List.mem_map.1 he
    exact h
  have hadd : ∀ g : GhostPointInfo K → K, (((boundaryLoop L B).map fun x =>
      if (modifierAt (mods x.1 x.2.1) x.2.2.1).row = col L u.comp u.st then
      (modifierAt (mods x.1 x.2.1) x.2.2.1).coeff * g x.2.2.2 else 0).sum) = _ :=
    fun g => ghost_sum_row hL hG hu mods hm g
  constructor
  · rw [mult_assembled hrange hrow]
    rotate_left
    · rw [hfilter _ (by intro e he; simp at he; exact he.1)]
      have := lap_cols_nodup (G := G) hL hf (fun d hd => hn _ d hf hd) hu.inside
      unfold lapEntries
      rw [List.filter_map, List.map_map]
      rw [List.filter_map] at this
      have e : ((fun e : Entry K => decide (e.row = col L u.comp u.st ∧ 0 ≤ e.col)) ∘
          fun x : Stencil × ℤ × K => (⟨col L u.comp u.st, x.2.1, x.2.2⟩ : Entry K)) =
          ((fun c : ℤ => decide (0 ≤ c)) ∘ fun x : Stencil × ℤ × K => x.2.1) := by
        funext x; simp
      rw [e]
      exact this
    -- the inserted part
    have hins : (((unknowns L).flatMap fun u => lapEntries L G u.comp u.st).map fun e : Entry K =>
        if e.row = col L u.comp u.st ∧ 0 ≤ e.col then e.val * q e.col else 0).sum =
        -(((List.range (L.dim * 2)).map fun loc => lapW G u.comp loc u.st).sum) * q (col L u.comp u.st) +
        ((List.range (L.dim * 2)).map fun loc => lapW G u.comp loc u.st *
          if L.periodic 0 (loc / 2) = false ∧ AtSide L.toMeshInfo u.comp loc u.st then 0
          else q (col L u.comp (nbr loc u.st))).sum := by
      rw [sum_flatMap, sum_map_single (nodup_unknowns L) ((mem_unknowns hL).2 hu)]
      · unfold lapEntries
        rw [List.map_map]
        unfold lapItems
        rw [List.map_cons, List.sum_cons, List.map_map]
        congr 1
        · simp [hrow]
        · congr 1
          apply List.map_congr_left
          intro loc hloc
          have hloc := List.mem_range.1 hloc
          have hb := hu.inside.1 (loc / 2) (by omega)
          have hc := (col_neighbour hL (Or.inl hf) false hu.inside (d := loc / 2) (by omega)
            (nbr_range (loc := loc) (by omega) hu.inside)).2
          have e : along u.st (loc / 2) (coordOf u.st (loc / 2) + if loc % 2 = 0 then -1 else 1) = nbr loc u.st := rfl
          rw [e] at hc
          have hside : AtSide L.toMeshInfo u.comp loc u.st ↔
              (coordOf u.st (loc / 2) + if loc % 2 = 0 then -1 else 1) = -1 ∨
              (coordOf u.st (loc / 2) + if loc % 2 = 0 then -1 else 1) = L.n u.comp (loc / 2) := by
            unfold AtSide
            split_ifs <;> omega
          simp only [Function.comp, true_and]
          by_cases h : col L u.comp (nbr loc u.st) = -1
          · rw [if_neg (by omega), if_pos ⟨(hc.2.1 h).1, hside.2 (hc.2.1 h).2⟩, mul_zero]
          · rw [if_pos (by omega), if_neg fun h' => h (hc.2.2 ⟨h'.1, hside.1 h'.2⟩)]
      · intro v hv hne
        have hv := (mem_unknowns hL).1 hv
        apply sum_map_eq_zero
        intro e he
        obtain ⟨x, _, rfl⟩ := List.mem_map.1 he
        rw [if_neg]
        rintro ⟨h, _⟩
        exact hne (hv.row_inj hL hu h)
    rw [hins]
    have hbd : ((boundaryEntries L B mods).map fun e : Entry K =>
        if e.row = col L u.comp u.st ∧ 0 ≤ e.col then e.val * q e.col else 0).sum =
        ((List.range (L.dim * 2)).map fun loc => lapW G u.comp loc u.st *
          if L.periodic 0 (loc / 2) = false ∧ AtSide L.toMeshInfo u.comp loc u.st then
            ghostA0 (B u.rank) u.comp loc (nbr loc u.st) * q (col L u.comp u.st) else 0).sum := by
      have h1 := hadd fun p => p.a0 * q (col L u.comp u.st)
      unfold boundaryEntries
      rw [List.map_map]
      refine Eq.trans ?_ (h1.trans ?_)
      · congr 1
        apply List.map_congr_left
        intro x hx
        obtain ⟨hr, hf', loc, b, hp⟩ := mem_boundaryLoop hG hx
        obtain ⟨r, f, s, p⟩ := x
        simp only at hr hf' hp ⊢
        obtain ⟨t1, t2⟩ := target_inside hL hG hr hp
        have t3 := (col_inside hL (Or.inl hf') false t1).2.1
        simp only [Function.comp]
        rw [hm r f hr hf', lap_modifier hL hG hr hp, t2]
        by_cases h : col L f p.targetStencil = col L u.comp u.st
        · rw [if_pos ⟨h, t3⟩, if_pos h, h, mul_assoc]
        · rw [if_neg fun h' => h h'.1, if_neg h]
      · congr 1
        apply List.map_congr_left
        intro loc _
        split_ifs
        · congr 1
          unfold ghostA0
          cases ghostAt (B u.rank) u.comp loc (nbr loc u.st) <;> simp
        · simp
    rw [hbd, add_assoc, ← List.sum_map_add]
    congr 2
    apply List.map_congr_left
    intro loc _
    split_ifs <;> ring
  · unfold correctionMult
    rw [addVector_eq _ _ hrow, List.map_map]
    refine (ghost_sum_row hL hG' hu mods hm fun p => p.a1).trans ?_
    congr 1
    apply List.map_congr_left
    intro loc _
    split_ifs
    · rfl
    · simp

end

end PetIBM
