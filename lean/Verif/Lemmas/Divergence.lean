/-
Rows of the divergence.
-/
import Verif.Lemmas.Laplacian
import Verif.Lemmas.Partition

set_option linter.unusedSectionVars false

namespace PetIBM

open Spec Layout

variable {K : Type} [Field K]

/-! ### Cells with their owner -/

/-- rank and position of every pressure cell, in loop order -/
def cells (L : Layout) : List (ℕ × ℕ × ℕ × ℕ) :=
  (List.range L.mpiSize).flatMap fun r => (L.box 3 r).map fun p => (r, p)

def cellSt (c : ℕ × ℕ × ℕ × ℕ) : Stencil := ⟨c.2.2.2, c.2.2.1, c.2.1, 0⟩

def IsCell (L : Layout) (c : ℕ × ℕ × ℕ × ℕ) : Prop := c.1 < L.mpiSize ∧ Owns L 3 c.1 c.2.1 c.2.2.1 c.2.2.2

theorem mem_cells {L : Layout} {c : ℕ × ℕ × ℕ × ℕ} : c ∈ cells L ↔ IsCell L c := by
  obtain ⟨r, i, j, k⟩ := c
  simp [cells, IsCell, mem_box]

theorem nodup_cells (L : Layout) : (cells L).Nodup := by
  unfold cells
  rw [List.nodup_flatMap]
  refine ⟨fun r _ => (nodup_box L 3 r).map fun a b h => (Prod.mk.inj h).2, ?_⟩
  refine List.Pairwise.imp ?_ (List.nodup_range (n := L.mpiSize))
  intro r r' hne x hx hx'
  obtain ⟨p, _, rfl⟩ := List.mem_map.1 hx
  obtain ⟨p', _, h⟩ := List.mem_map.1 hx'
  exact hne (Prod.mk.inj h).1.symm

theorem IsCell.inside {L : Layout} (hL : LayoutOK L) {c : ℕ × ℕ × ℕ × ℕ} (h : IsCell L c) :
    Inside L.toMeshInfo 3 (cellSt c) := by
  have := owns_inGrid hL (Or.inr rfl) h.2
  exact inside_nat this.1 this.2.1 this.2.2

theorem IsCell.ext {L : Layout} (hL : LayoutOK L) {c c' : ℕ × ℕ × ℕ × ℕ} (h : IsCell L c) (h' : IsCell L c')
    (he : col L 3 (cellSt c) = col L 3 (cellSt c')) : c = c' := by
  have := col_inj_pressure hL (h.inside hL) (h'.inside hL) he
  obtain ⟨r, i, j, k⟩ := c
  obtain ⟨r', i', j', k'⟩ := c'
  simp only [cellSt, Stencil.mk.injEq, Int.natCast_inj] at this
  obtain ⟨rfl, rfl, rfl, _⟩ := this
  obtain rfl := owner_unique h.2 h'.2
  rfl

/-! ### Pure form of the row -/

def divK (G : Geom K) (normalize : Bool) (f : ℕ) (s : Stencil) : K := if normalize then 1 else faceArea G f f s

theorem divergenceKernel_eq (G : Geom K) (normalize : Bool) (f : ℕ) (hf : f < 3) (i j k : ℤ) :
    divergenceKernel G normalize f i j k = divK G normalize f ⟨k, j, i, 0⟩ := by
  unfold divergenceKernel divK
  cases normalize
  · interval_cases f <;> simp [faceArea, coordOf, List.range_succ]
  · rfl

theorem divergenceNeighbor_eq (f : ℕ) (hf : f < 3) (i j k : ℤ) :
    divergenceNeighbor f i j k = nbr (2 * f) ⟨k, j, i, 0⟩ := by
  interval_cases f <;> simp [divergenceNeighbor, nbr, along, coordOf, sub_eq_add_neg]

def divEntries (L : Layout) (G : Geom K) (normalize : Bool) (s : Stencil) (f : ℕ) : List (Entry K) :=
  [⟨col L 3 s, col L f s, divK G normalize f s⟩, ⟨col L 3 s, col L f (nbr (2 * f) s), -divK G normalize f s⟩]

def divMods (L : Layout) (G : Geom K) (normalize : Bool) (s : Stencil) (f : ℕ) : List (Stencil × RowModifier K) :=
  (if col L f s = -1 then [(s, ⟨col L 3 s, divK G normalize f s⟩)] else []) ++
  (if col L f (nbr (2 * f) s) = -1 then [(nbr (2 * f) s, ⟨col L 3 s, -divK G normalize f s⟩)] else [])

def divOps (L : Layout) (G : Geom K) (normalize : Bool) (r f : ℕ) : List (Stencil × RowModifier K) :=
  (L.box 3 r).flatMap fun p => divMods L G normalize ⟨p.2.2, p.2.1, p.1, 0⟩ f

variable [LinearOrder K] [IsStrictOrderedRing K] {L : Layout} {G : Geom K} {axes : ℕ → Axis K}

/-- the two faces of a cell in direction `f` -/
theorem face_cols (S : Setup L G axes) (debug : Bool) {f : ℕ} (hf : f < L.dim) (hn : 0 < L.n f f) {s : Stencil}
    (hs : Inside L.toMeshInfo 3 s) :
    ∃ base, Inside L.toMeshInfo f base ∧ s = along base f (coordOf s f) ∧
      nbr (2 * f) s = along base f (coordOf s f - 1) ∧ 0 ≤ coordOf s f ∧ coordOf s f ≤ L.n f f ∧
      L.getPackedGlobalIndex debug f s = .ok (col L f s) ∧
      (0 ≤ col L f s ∧ col L f s < L.UN ∨ col L f s = -1) ∧
      (col L f s = -1 ↔ L.periodic 0 f = false ∧ coordOf s f = L.n f f) ∧
      L.getPackedGlobalIndex debug f (nbr (2 * f) s) = .ok (col L f (nbr (2 * f) s)) ∧
      (0 ≤ col L f (nbr (2 * f) s) ∧ col L f (nbr (2 * f) s) < L.UN ∨ col L f (nbr (2 * f) s) = -1) ∧
      (col L f (nbr (2 * f) s) = -1 ↔ L.periodic 0 f = false ∧ coordOf s f = 0) := by
  have hL := S.layout
  have h3 := S.dim_le
  have hb := hs.1 f (by omega)
  obtain ⟨n1, n2, n3⟩ := S.staggered f hf
  have hle : coordOf s f ≤ L.n f f := by
    cases hp : L.periodic 0 f
    · have := n3 hp; omega
    · have := n2 hp; omega
  have hbase : Inside L.toMeshInfo f (along s f 0) := by
    refine ⟨fun e he => ?_, by rw [along_c]; exact hs.2⟩
    rw [coordOf_along _ _ _ _ (by omega) he]
    split_ifs with h
    · subst h; omega
    · have := hs.1 e he
      have := n1 e he h
      omega
  have e1 : along (along s f 0) f (coordOf s f) = s := by rw [along_along, along_self _ _ (by omega)]
  have e2 : along (along s f 0) f (coordOf s f - 1) = nbr (2 * f) s := by
    rw [along_along]
    unfold nbr
    rw [show 2 * f / 2 = f by omega, if_pos (by omega), sub_eq_add_neg]
  have a := col_neighbour hL (Or.inl hf) debug hbase (d := f) (by omega) (x := coordOf s f) (by omega)
  have b := col_neighbour hL (Or.inl hf) debug hbase (d := f) (by omega) (x := coordOf s f - 1) (by omega)
  rw [e1] at a
  rw [e2] at b
  rw [vecSize, if_neg (by omega)] at a b
  refine ⟨_, hbase, e1.symm, e2.symm, hb.1, hle, a.1, a.2.1, a.2.2.trans (and_congr Iff.rfl (by omega)), b.1, b.2.1,
    b.2.2.trans (and_congr Iff.rfl (by omega))⟩

theorem divergenceRow_eq (S : Setup L G axes) (hP : Partitioned L) (debug normalize : Bool) {i j k : ℕ}
    (hs : Inside L.toMeshInfo 3 ⟨k, j, i, 0⟩) :
    divergenceRow debug L G normalize (i, j, k) = .ok ((List.range L.dim).map fun f =>
      (divEntries L G normalize ⟨k, j, i, 0⟩ f, divMods L G normalize ⟨k, j, i, 0⟩ f)) := by
  have h3 := S.dim_le
  unfold divergenceRow
  simp only
  rw [← getPacked_three, (col_inside S.layout (Or.inr rfl) debug hs).1]
  show (List.range L.dim).mapM _ = _
  apply mapM_ok
  intro f hf
  have hf := List.mem_range.1 hf
  have hpos := (hP f f (Or.inl hf) (by omega)).2
  obtain ⟨base, _, _, _, _, _, a1, _, a2, b1, _, b2⟩ := face_cols S debug hf (by omega) hs
  unfold divergenceFaces
  simp only
  rw [divergenceKernel_eq G normalize f (by omega), divergenceNeighbor_eq f (by omega), a1, b1]
  rfl

theorem createDivergence_eq (S : Setup L G axes) (hP : Partitioned L) (debug normalize : Bool) (B : ℕ → Boundary K) :
    ∃ mods : Modifiers K, (∀ r f, r < L.mpiSize → f < L.dim →
      mods r f = StencilMap.ofAssignments (divOps L G normalize r f)) ∧
    createDivergence debug L G normalize B = (do
      let A ← assemble L.pN L.UN ((cells L).flatMap fun c => (List.range L.dim).flatMap fun f =>
        divEntries L G normalize (cellSt c) f) (boundaryEntries L B mods)
      return (A, mods)) := by
  unfold createDivergence
  have hrows : ((List.range L.mpiSize).mapM fun r => (L.box 3 r).mapM (divergenceRow debug L G normalize)) =
      .ok ((List.range L.mpiSize).map fun r => (L.box 3 r).map fun p => (List.range L.dim).map fun f =>
        (divEntries L G normalize ⟨p.2.2, p.2.1, p.1, 0⟩ f, divMods L G normalize ⟨p.2.2, p.2.1, p.1, 0⟩ f)) := by
    apply mapM_ok
    intro r hr
    apply mapM_ok
    rintro ⟨i, j, k⟩ hp
    have hin := owns_inGrid S.layout (Or.inr rfl) (mem_box.1 hp)
    exact divergenceRow_eq S hP debug normalize (inside_nat hin.1 hin.2.1 hin.2.2)
  rw [hrows]
  refine ⟨fun r f => StencilMap.ofAssignments ((((List.range L.mpiSize).map fun r => (L.box 3 r).map fun p =>
    (List.range L.dim).map fun f => (divEntries L G normalize ⟨p.2.2, p.2.1, p.1, 0⟩ f,
      divMods L G normalize ⟨p.2.2, p.2.1, p.1, 0⟩ f)).getD r []).flatMap fun cell => (cell.getD f ([], [])).2), ?_, ?_⟩
  · intro r f hr hf
    simp only
    rw [getD_map_range _ _ _ _ hr, List.flatMap_map]
    unfold divOps
    congr 2
    funext p
    rw [getD_map_range _ _ _ _ hf]
  · simp only [bind, Except.bind]
    rw [List.flatMap_map]
    simp only [List.flatMap_map]
    unfold cells
    rw [List.flatMap_assoc]
    simp only [List.flatMap_map]
    rfl

/-! ### Modifiers of the registered ghost points -/

variable {debug : Bool} {B : ℕ → Boundary K}

/-- the pressure cell next to a wall belongs to the process of the velocity point next to it -/
theorem aligned (S : Setup L G axes) (hP : Partitioned L) {u : Unknown} (hu : IsUnknown L u) {loc : ℕ}
    (hl : loc / 2 = u.comp) (hw : AtSide L.toMeshInfo u.comp loc u.st) :
    ∃ c, IsCell L c ∧ c.1 = u.rank ∧ cellSt c = along u.st u.comp (if loc % 2 = 0 then 0 else (L.n 3 u.comp : ℤ) - 1) := by
  have h3 := S.dim_le
  have hf := hu.1
  have hr := hu.2.2.2.2.1
  have ho := owns_iff.1 hu.2.2.2.2.2
  obtain ⟨n1, n2, n3⟩ := S.staggered u.comp hf
  have hc : ∀ d, d < 3 → (L.bg u.comp u.rank d : ℤ) ≤ coordOf u.st d ∧ coordOf u.st d < L.ed u.comp u.rank d := by
    intro d hd
    interval_cases d <;> simp [coordOf, Unknown.st] <;> omega
  set t := along u.st u.comp (if loc % 2 = 0 then 0 else (L.n 3 u.comp : ℤ) - 1) with ht
  have hn3 := (hP 3 u.comp (Or.inr rfl) (by omega)).2
  have hnf := (hP u.comp u.comp (Or.inl hf) (by omega)).2
  have htc : ∀ d, d < 3 → (L.bg 3 u.rank d : ℤ) ≤ coordOf t d ∧ coordOf t d < L.ed 3 u.rank d := by
    intro d hd
    rw [ht, coordOf_along _ _ _ _ (by omega) hd]
    by_cases h : d = u.comp
    · rw [if_pos h]
      subst h
      have hcd := hc u.comp hd
      unfold AtSide at hw
      rw [hl] at hw
      rw [hw] at hcd
      have hlt := bg_lt_ed hP (f := 3) (Or.inr rfl) hr hd
      split_ifs at hcd ⊢ with hpar
      · have := first_column hP (f := 3) (Or.inr rfl) hr hd (column_first hP (Or.inl hf) hr hd (by omega))
        omega
      · have := last_column hP (f := 3) (Or.inr rfl) hr hd (column_last hP (Or.inl hf) hr hd (by omega))
        omega
    · rw [if_neg h]
      obtain ⟨b1, b2⟩ := bg_congr hP (r := u.rank) (Or.inl hf) (Or.inr rfl) hd (n1 d hd h)
      rw [← b1, ← b2]
      exact hc d hd
  have h0 := htc 0 (by omega)
  have h1 := htc 1 (by omega)
  have h2 := htc 2 (by omega)
  simp only [coordOf] at h0 h1 h2
  simp at h0 h1 h2
  refine ⟨(u.rank, t.i.toNat, t.j.toNat, t.k.toNat), ⟨hr, owns_iff.2 ?_⟩, rfl, ?_⟩
  · simp only
    omega
  · have : t.c = 0 := by rw [ht, along_c]; rfl
    simp only [cellSt]
    apply stencil_ext
    · intro d hd
      interval_cases d <;> simp [coordOf] <;> omega
    · simp [this]

theorem divK_along (G : Geom K) (normalize : Bool) {f : ℕ} (hf : f < 3) (s : Stencil) (x : ℤ) :
    divK G normalize f (along s f x) = divK G normalize f s := by
  unfold divK faceArea along coordOf
  cases normalize <;> interval_cases f <;> simp [List.range_succ]

/-- Cell that a normal ghost point belongs to. -/
def divCell (loc : ℕ) (s t : Stencil) : Stencil := if loc % 2 = 0 then t else s

theorem point_unknown (hL : LayoutOK L) (hG : GhostsOK debug L G B) {r f loc : ℕ} {s : Stencil} {b : SingleBoundary K}
    {p : GhostPointInfo K} (hr : r < L.mpiSize) (hp : Point (B r) f loc s b p) :
    ∃ u, IsUnknown L u ∧ u.rank = r ∧ u.comp = f ∧ u.st = p.targetStencil ∧ AtSide L.toMeshInfo f loc u.st ∧
      s = nbr loc u.st ∧ L.periodic 0 (loc / 2) = false ∧ loc < L.dim * 2 := by
  have hd3 : L.dim ≤ 3 := by rcases hL.dim with h | h <;> omega
  obtain ⟨hf, hloc, good⟩ := hG.good r f loc s b p hr hp
  obtain ⟨i, j, k, hts, ho⟩ := good.owns
  have hin := owns_inGrid hL (Or.inl hf) ho
  obtain ⟨hs, hside⟩ := face_nbr (by omega) good.face good.across
  refine ⟨⟨r, f, i, j, k⟩, ⟨hf, hin.1, hin.2.1, hin.2.2, hr, ho⟩, rfl, rfl, hts.symm, ?_, ?_,
    hG.periodic r f loc s b p hr hp, hloc⟩
  · rw [hts] at hside; exact hside
  · rw [hs, hts]; rfl

/-- keys of the modifiers -/
theorem mem_divMods {normalize : Bool} {s : Stencil} {f : ℕ} {x : Stencil × RowModifier K} :
    x ∈ divMods L G normalize s f ↔ (col L f s = -1 ∧ x = (s, ⟨col L 3 s, divK G normalize f s⟩)) ∨
      (col L f (nbr (2 * f) s) = -1 ∧ x = (nbr (2 * f) s, ⟨col L 3 s, -divK G normalize f s⟩)) := by
  unfold divMods
  rw [List.mem_append]
  split_ifs with h1 h2 h2 <;> simp [h1, h2]

/-- modifier of a ghost point that does not lie in the normal direction -/
theorem div_modifier_tangent (S : Setup L G axes) {normalize : Bool}
    (hG : GhostsOK debug L G B) {r f loc : ℕ} {s : Stencil} {b : SingleBoundary K}
    {p : GhostPointInfo K} (hr : r < L.mpiSize) (hp : Point (B r) f loc s b p) (hne : loc / 2 ≠ f) :
    modifierAt (StencilMap.ofAssignments (divOps L G normalize r f)) s = ⟨0, 0⟩ := by
  have hL := S.layout
  have h3 := S.dim_le
  obtain ⟨u, hu, rfl, rfl, hst, hside, hs, hper, hloc⟩ := point_unknown hL hG hr hp
  have hface := (nbr_face (by omega) hu.inside hside).1
  rw [← hs] at hface
  have hn := (S.staggered u.comp hu.1).1 (loc / 2) (by omega) hne
  have key : ∀ x ∈ divOps L G normalize u.rank u.comp, x.1 ≠ s := by
    intro x hx hxs
    obtain ⟨⟨i, j, k⟩, hp', hx⟩ := List.mem_flatMap.1 hx
    have hin := owns_inGrid hL (Or.inr rfl) (mem_box.1 hp')
    have hins : Inside L.toMeshInfo 3 ⟨k, j, i, 0⟩ := inside_nat hin.1 hin.2.1 hin.2.2
    have hc := hins.1 (loc / 2) (by omega)
    have h0 := hface.1
    rcases mem_divMods.1 hx with ⟨_, rfl⟩ | ⟨_, rfl⟩
    · rw [← hxs] at h0
      simp only at h0
      rw [h0] at hc
      split_ifs at hc <;> omega
    · rw [← hxs] at h0
      simp only [nbr] at h0
      rw [show 2 * u.comp / 2 = u.comp by omega, coordOf_along _ _ _ _ (by have := hu.1; omega) (by omega), if_neg hne] at h0
      rw [h0] at hc
      split_ifs at hc <;> omega
  unfold modifierAt
  rw [StencilMap.find_ofAssignments]
  have : (divOps L G normalize u.rank u.comp).reverse.find? (fun kv => decide (kv.1 = s)) = none := by
    rw [List.find?_eq_none]
    intro x hx
    simpa using key x (List.mem_reverse.1 hx)
  rw [this]
  rfl

theorem divCell_eq (S : Setup L G axes) {u : Unknown} (hu : IsUnknown L u) {loc : ℕ} (hl : loc / 2 = u.comp)
    (hw : AtSide L.toMeshInfo u.comp loc u.st) (hper : L.periodic 0 u.comp = false) :
    along u.st u.comp (if loc % 2 = 0 then 0 else (L.n 3 u.comp : ℤ) - 1) = divCell loc (nbr loc u.st) u.st := by
  have h3 := S.dim_le
  have hf := hu.1
  have n3 := (S.staggered u.comp hf).2.2 hper
  unfold AtSide at hw
  unfold divCell nbr
  rw [hl] at hw ⊢
  split_ifs with h
  · rw [if_pos h] at hw
    rw [← hw, along_self _ _ (by omega)]
  · rw [if_neg h] at hw
    rw [hw]
    congr 1
    omega

/-- modifier of a ghost point in the normal direction -/
theorem div_modifier_normal (S : Setup L G axes) (hP : Partitioned L) {normalize : Bool}
    (hG : GhostsOK debug L G B) {r f loc : ℕ} {s : Stencil} {b : SingleBoundary K}
    {p : GhostPointInfo K} (hr : r < L.mpiSize) (hp : Point (B r) f loc s b p) (hl : loc / 2 = f) :
    modifierAt (StencilMap.ofAssignments (divOps L G normalize r f)) s =
      ⟨col L 3 (divCell loc s p.targetStencil),
        if loc % 2 = 0 then -divK G normalize f s else divK G normalize f s⟩ := by
  have hL := S.layout
  have h3 := S.dim_le
  obtain ⟨u, hu, rfl, rfl, hst, hside, hs, hper, hloc⟩ := point_unknown hL hG hr hp
  rw [hl] at hper
  obtain ⟨c, hc, hcr, hcs⟩ := aligned S hP hu hl hside
  rw [divCell_eq S hu hl hside hper, ← hs, hst] at hcs
  have hf := hu.1
  have hface := (nbr_face (by omega) hu.inside hside).1
  rw [← hs] at hface
  have hsf := hface.1
  rw [hl] at hsf
  have n3 := (S.staggered u.comp hf).2.2 hper
  have hpos := (hP u.comp u.comp (Or.inl hf) (by omega)).2
  have hKn : divK G normalize u.comp s = divK G normalize u.comp (divCell loc s p.targetStencil) := by
    unfold divCell
    split_ifs with h
    · rw [hs, ← hst]; unfold nbr; rw [hl, divK_along G normalize (by omega)]
    · rfl
  have hnb : loc % 2 = 0 → s = nbr (2 * u.comp) (divCell loc s p.targetStencil) := by
    intro h
    unfold divCell
    rw [if_pos h, ← hst, hs]
    congr 1
    omega
  have hcell := hc.inside hL
  rw [hcs] at hcell
  obtain ⟨base, _, _, _, _, _, _, _, a2, _, _, b2⟩ := face_cols S debug hf (by omega) hcell
  -- coordinate of the cell
  have hcf : coordOf (divCell loc s p.targetStencil) u.comp = if loc % 2 = 0 then 0 else (L.n 3 u.comp : ℤ) - 1 := by
    unfold divCell
    split_ifs with h
    · unfold AtSide at hside; rw [hl, if_pos h] at hside; rw [← hst]; exact hside
    · rw [hsf, if_neg h]; omega
  unfold modifierAt
  rw [find_ofAssignments_unique (v := ⟨col L 3 (divCell loc s p.targetStencil),
        if loc % 2 = 0 then -divK G normalize u.comp s else divK G normalize u.comp s⟩)]
  · rfl
  · intro x hx hxs
    obtain ⟨⟨i, j, k⟩, hp', hx⟩ := List.mem_flatMap.1 hx
    have hin := owns_inGrid hL (Or.inr rfl) (mem_box.1 hp')
    have hins : Inside L.toMeshInfo 3 ⟨k, j, i, 0⟩ := inside_nat hin.1 hin.2.1 hin.2.2
    have hb := hins.1 u.comp (by omega)
    rcases mem_divMods.1 hx with ⟨hcol, rfl⟩ | ⟨hcol, rfl⟩
    · simp only at hxs
      rw [hxs] at hb
      rw [hsf] at hb
      have hodd : ¬ loc % 2 = 0 := by intro h; rw [if_pos h] at hb; omega
      simp only [hxs, if_neg hodd, divCell]
    · simp only at hxs
      have h0 : coordOf s u.comp = coordOf (⟨k, j, i, 0⟩ : Stencil) u.comp - 1 := by
        rw [← hxs]; unfold nbr
        rw [show 2 * u.comp / 2 = u.comp by omega, coordOf_along _ _ _ _ (by omega) (by omega), if_pos rfl, if_pos (by omega)]
        omega
      have heven : loc % 2 = 0 := by
        by_contra h
        rw [if_neg h] at hsf
        omega
      have hceq : (⟨k, j, i, 0⟩ : Stencil) = divCell loc s p.targetStencil := by
        have e := hnb heven
        apply stencil_ext
        · intro d hd
          by_cases h : d = u.comp
          · subst h
            rw [hcf, if_pos heven]
            rw [if_pos heven] at hsf
            omega
          · have h1 : coordOf s d = coordOf (⟨k, j, i, 0⟩ : Stencil) d := by
              rw [← hxs]; unfold nbr
              rw [show 2 * u.comp / 2 = u.comp by omega, coordOf_along _ _ _ _ (by omega) hd, if_neg h]
            have h2 : coordOf s d = coordOf (divCell loc s p.targetStencil) d := by
              conv_lhs => rw [e]
              unfold nbr
              rw [show 2 * u.comp / 2 = u.comp by omega, coordOf_along _ _ _ _ (by omega) hd, if_neg h]
            rw [← h1, h2]
        · rw [hcell.2]
      rw [hceq]
      simp only [if_pos heven, hKn]
  · refine ⟨(s, ⟨col L 3 (divCell loc s p.targetStencil),
        if loc % 2 = 0 then -divK G normalize u.comp s else divK G normalize u.comp s⟩), ?_, rfl⟩
    refine List.mem_flatMap.2 ⟨c.2, mem_box.2 (hcr ▸ hc.2), ?_⟩
    have e : (⟨c.2.2.2, c.2.2.1, c.2.1, 0⟩ : Stencil) = divCell loc s p.targetStencil := hcs
    rw [e, mem_divMods]
    by_cases h : loc % 2 = 0
    · right
      refine ⟨b2.2 ⟨hper, by rw [hcf, if_pos h]⟩, ?_⟩
      rw [← hnb h, if_pos h, hKn]
    · left
      refine ⟨a2.2 ⟨hper, by rw [hcf, if_neg h]; omega⟩, ?_⟩
      simp only [if_neg h]
      simp only [divCell, if_neg h]

end PetIBM
