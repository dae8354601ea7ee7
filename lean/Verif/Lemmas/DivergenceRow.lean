/-
Rows of the divergence, continued.
-/
import Verif.Lemmas.Divergence

set_option linter.unusedSectionVars false

namespace PetIBM

open Spec Layout

variable {K : Type} [Field K] [LinearOrder K] [IsStrictOrderedRing K] {L : Layout} {G : Geom K} {axes : ℕ → Axis K}
variable {debug : Bool} {B : ℕ → Boundary K}

/-- one registered key -/
theorem ghost_key_sum (hL : LayoutOK L) (hG : GhostsOK debug L G B) {u : Unknown} (hu : IsUnknown L u) {loc : ℕ}
    (hloc : loc < L.dim * 2) (hper : L.periodic 0 (loc / 2) = false) (hside : AtSide L.toMeshInfo u.comp loc u.st)
    (val : GhostPointInfo K → K) :
    ((boundaryLoop L B).map fun x => if x.2.1 = u.comp ∧ x.2.2.1 = nbr loc u.st then val x.2.2.2 else 0).sum =
      ((ghostAt (B u.rank) u.comp loc (nbr loc u.st)).map val).getD 0 := by
  classical
  have hd3 : L.dim ≤ 3 := by rcases hL.dim with h | h <;> omega
  rw [boundaryLoop_sum hG hd3 hu (fun _ f s p => if f = u.comp ∧ s = nbr loc u.st then val p else 0)
    fun l => if l = loc then ((ghostAt (B u.rank) u.comp loc (nbr loc u.st)).map val).getD 0 else 0]
  · rw [sum_map_single List.nodup_range (List.mem_range.2 hloc)]
    · rw [if_pos rfl]
    · intro b _ hb; rw [if_neg hb]
  · intro r f l s b p hr hp hne
    rw [if_neg]
    rintro ⟨rfl, hs⟩
    obtain ⟨v, hv, _, hvc, hvt, hvs, hs', _, hl⟩ := point_unknown hL hG hr hp
    apply hne
    refine ⟨rfl, ?_⟩
    rw [hs] at hs'
    have hvi := hv.inside
    rw [hvc] at hvi
    rw [← hvt]
    exact (nbr_inj (by omega) (by omega) hu.inside hvi hside hs').2.symm
  · intro l b p hl hp ht
    by_cases h : l = loc
    · subst h
      rw [if_pos ⟨rfl, rfl⟩, if_pos rfl, ghostAt_of_point hp]; rfl
    · rw [if_neg h, if_neg]
      rintro ⟨_, he⟩
      exact h (nbr_inj (by omega) (by omega) hu.inside hu.inside hside he.symm).1.symm
  · intro l hl h
    rw [if_neg]
    rintro rfl
    exact h ⟨hper, hside⟩

/-- a key with an index is never registered -/
theorem ghost_key_none (hL : LayoutOK L) (hG : GhostsOK debug L G B) {f : ℕ} {s : Stencil} (hc : col L f s ≠ -1)
    (val : GhostPointInfo K → K) :
    ((boundaryLoop L B).map fun x => if x.2.1 = f ∧ x.2.2.1 = s then val x.2.2.2 else 0).sum = 0 := by
  have hd3 : L.dim ≤ 3 := by rcases hL.dim with h | h <;> omega
  apply sum_map_eq_zero
  intro x hx
  rw [if_neg]
  rintro ⟨rfl, rfl⟩
  obtain ⟨hr, hf, loc, b, hp⟩ := mem_boundaryLoop hG hx
  obtain ⟨v, hv, _, hvc, hvt, hvs, hs', hper, hl⟩ := point_unknown hL hG hr hp
  apply hc
  rw [hs', ← hvc]
  apply (col_wall hL (Or.inl hv.1) debug hv.inside (d := loc / 2) (by omega) hper _).2
  unfold AtSide at hvs
  rw [hvs, ← hvc]; split_ifs <;> omega

/-- the velocity unknown next to the wall of a cell -/
theorem cell_unknown (S : Setup L G axes) (hP : Partitioned L) {c : ℕ × ℕ × ℕ × ℕ} (hc : IsCell L c) {f loc : ℕ}
    (hf : f < L.dim) (hl : loc / 2 = f) (hper : L.periodic 0 f = false)
    (hw : coordOf (cellSt c) f = if loc % 2 = 0 then 0 else (L.n f f : ℤ)) :
    ∃ u, IsUnknown L u ∧ u.comp = f ∧ u.rank = c.1 ∧ AtSide L.toMeshInfo f loc u.st ∧
      nbr loc u.st = (if loc % 2 = 0 then nbr (2 * f) (cellSt c) else cellSt c) := by
  have hL := S.layout
  have h3 := S.dim_le
  have hin := hc.inside hL
  obtain ⟨n1, _, n3⟩ := S.staggered f hf
  have n3 := n3 hper
  have hpos := (hP f f (Or.inl hf) (by omega)).2
  have ht : Inside L.toMeshInfo f (along (cellSt c) f (if loc % 2 = 0 then 0 else (L.n f f : ℤ) - 1)) := by
    refine ⟨fun e he => ?_, by rw [along_c]; exact hin.2⟩
    rw [coordOf_along _ _ _ _ (by omega) he]
    split_ifs with h
    all_goals first
      | (subst h; omega)
      | (have := hin.1 e he; have := n1 e he h; omega)
  obtain ⟨u, _, hu, huc, hus⟩ := exists_unknown hL hf ht
  have hside : AtSide L.toMeshInfo f loc u.st := by
    unfold AtSide
    rw [hl, hus, coordOf_along _ _ _ _ (by omega) (by omega), if_pos rfl]
  have hnb : nbr loc u.st = if loc % 2 = 0 then nbr (2 * f) (cellSt c) else cellSt c := by
    rw [hus]
    unfold nbr
    rw [hl, along_along, coordOf_along _ _ _ _ (by omega) (by omega), if_pos rfl, show 2 * f / 2 = f by omega,
      if_pos (by omega : 2 * f % 2 = 0)]
    split_ifs with h
    · rw [hw, if_pos h]
    · rw [show (L.n f f : ℤ) - 1 + 1 = coordOf (cellSt c) f by rw [hw, if_neg h]; omega, along_self _ _ (by omega)]
  refine ⟨u, hu, huc, ?_, hside, hnb⟩
  subst huc
  obtain ⟨c', hc', hr, hst⟩ := aligned S hP hu hl hside
  rw [← hr]
  have : cellSt c' = cellSt c := by
    rw [hst, hus, along_along]
    have : (if loc % 2 = 0 then 0 else (L.n 3 u.comp : ℤ) - 1) = coordOf (cellSt c) u.comp := by
      rw [hw]; split_ifs <;> omega
    rw [this, along_self _ _ (by omega)]
  exact congrArg Prod.fst (hc'.ext hL hc (by rw [this]))

theorem sum_map_sub {α : Type} (l : List α) (g h : α → K) :
    (l.map fun a => g a - h a).sum = (l.map g).sum - (l.map h).sum := by
  induction l with
  | nil => simp
  | cons a l ih => simp only [List.map_cons, List.sum_cons, ih]; ring

theorem sum_swap {α β : Type} (l : List α) (m : List β) (g : α → β → K) :
    (l.map fun a => (m.map fun b => g a b).sum).sum = (m.map fun b => (l.map fun a => g a b).sum).sum := by
  induction l with
  | nil => simp
  | cons a l ih => simp only [List.map_cons, List.sum_cons, ih, List.sum_map_add]

/-- contribution of the ghost points to the row of a cell -/
theorem div_ghost_sum (S : Setup L G axes) (hP : Partitioned L) {normalize : Bool} (hG : GhostsOK debug L G B)
    {c : ℕ × ℕ × ℕ × ℕ} (hc : IsCell L c) (mods : Modifiers K)
    (hm : ∀ r f, r < L.mpiSize → f < L.dim → mods r f = StencilMap.ofAssignments (divOps L G normalize r f))
    (val : GhostPointInfo K → K) :
    ((boundaryLoop L B).map fun x => if (modifierAt (mods x.1 x.2.1) x.2.2.1).row = col L 3 (cellSt c) then
      (modifierAt (mods x.1 x.2.1) x.2.2.1).coeff * val x.2.2.2 else 0).sum =
    ((List.range L.dim).map fun f => divK G normalize f (cellSt c) *
      ((if col L f (cellSt c) = -1 then ((ghostAt (B c.1) f (2 * f + 1) (cellSt c)).map val).getD 0 else 0) -
      (if col L f (nbr (2 * f) (cellSt c)) = -1 then
        ((ghostAt (B c.1) f (2 * f) (nbr (2 * f) (cellSt c))).map val).getD 0 else 0))).sum := by
  classical
  have hL := S.layout
  have h3 := S.dim_le
  have hin := hc.inside hL
  -- pointwise decomposition
  have hpt : ∀ x ∈ boundaryLoop L B,
      (if (modifierAt (mods x.1 x.2.1) x.2.2.1).row = col L 3 (cellSt c) then
        (modifierAt (mods x.1 x.2.1) x.2.2.1).coeff * val x.2.2.2 else 0) =
      ((List.range L.dim).map fun f0 => divK G normalize f0 (cellSt c) *
        ((if x.2.1 = f0 ∧ x.2.2.1 = cellSt c then val x.2.2.2 else 0) -
        (if x.2.1 = f0 ∧ x.2.2.1 = nbr (2 * f0) (cellSt c) then val x.2.2.2 else 0))).sum := by
    intro x hx
    obtain ⟨hr, hf, loc, b, hp⟩ := mem_boundaryLoop hG hx
    obtain ⟨r, f, s, p⟩ := x
    simp only at hr hf hp ⊢
    obtain ⟨u, hu, hur, huc, hut, hus, hs, hper, hloc⟩ := point_unknown hL hG hr hp
    rw [sum_map_single List.nodup_range (List.mem_range.2 hf)]
    rotate_left
    · intro f' _ hne
      rw [if_neg fun h => hne h.1.symm, if_neg fun h => hne h.1.symm, sub_zero, mul_zero]
    simp only [true_and]
    have hui := hu.inside
    rw [huc] at hui
    have hface := (nbr_face (by omega) hui hus).1
    rw [← hs] at hface
    have hsf := hface.1
    rw [hm r f hr hf]
    have hcf := hin.1 f (by omega)
    by_cases hl : loc / 2 = f
    · rw [div_modifier_normal S hP hG hr hp hl]
      have n3 := (S.staggered f hf).2.2 (by rw [← hl]; exact hper)
      have hpos := (hP f f (Or.inl hf) (by omega)).2
      rw [hl] at hsf
      by_cases h : loc % 2 = 0
      · rw [if_pos h] at hsf
        have hsc : s ≠ cellSt c := by rintro rfl; omega
        rw [if_neg hsc]
        simp only [divCell, if_pos h]
        have hl2 : loc = 2 * f := by omega
        have hti : Inside L.toMeshInfo 3 u.st := by
          have := S.inside_pressure hf hui
          exact this
        have hiff : col L 3 p.targetStencil = col L 3 (cellSt c) ↔ s = nbr (2 * f) (cellSt c) := by
          rw [← hut]
          constructor
          · intro h'
            rw [hs, hl2, col_inj_pressure hL hti hin h']
          · intro h'
            rw [hs, hl2] at h'
            have := nbr_inj (M := L.toMeshInfo) (f := 3) (loc := 2 * f) (loc' := 2 * f) (by omega) (by omega) hti hin (by
              unfold AtSide at hus ⊢
              rw [if_pos (by omega)]
              rw [if_pos h, hl2] at hus
              exact hus) h'
            rw [this.2]
        by_cases h' : s = nbr (2 * f) (cellSt c)
        · rw [if_pos (hiff.2 h'), if_pos h', h']
          unfold nbr
          rw [show 2 * f / 2 = f by omega, divK_along G normalize (by omega)]
          ring
        · rw [if_neg fun h'' => h' (hiff.1 h''), if_neg h', sub_zero, mul_zero]
      · rw [if_neg h] at hsf
        have hsc : s ≠ nbr (2 * f) (cellSt c) := by
          intro e
          have : coordOf s f = coordOf (cellSt c) f - 1 := by
            rw [e]; unfold nbr
            rw [show 2 * f / 2 = f by omega, coordOf_along _ _ _ _ (by omega) (by omega), if_pos rfl, if_pos (by omega)]; omega
          omega
        rw [if_neg hsc]
        simp only [divCell, if_neg h]
        have hsi : Inside L.toMeshInfo 3 s := by
          refine ⟨fun e he => ?_, hface.2.2⟩
          by_cases h' : e = f
          · subst h'; omega
          · have a := hface.2.1 e he (by omega)
            have := (S.staggered f hf).1 e he h'
            omega
        by_cases h' : s = cellSt c
        · rw [if_pos (by rw [h']), if_pos h', h']; ring
        · rw [if_neg fun h'' => h' (col_inj_pressure hL hsi hin h''), if_neg h']; ring
    · rw [div_modifier_tangent S hG hr hp hl]
      have hcl := hin.1 (loc / 2) (by omega)
      have hn := (S.staggered f hf).1 (loc / 2) (by omega) hl
      have k1 : s ≠ cellSt c := by
        rintro rfl
        rw [hsf] at hcl
        split_ifs at hcl <;> omega
      have k2 : s ≠ nbr (2 * f) (cellSt c) := by
        intro e
        have : coordOf s (loc / 2) = coordOf (cellSt c) (loc / 2) := by
          rw [e]; unfold nbr
          rw [show 2 * f / 2 = f by omega, coordOf_along _ _ _ _ (by omega) (by omega), if_neg hl]
        rw [hsf] at this
        rw [← this] at hcl
        split_ifs at hcl <;> omega
      rw [if_neg k1, if_neg k2]
      simp
  rw [List.map_congr_left hpt, sum_swap]
  congr 1
  apply List.map_congr_left
  intro f hf
  have hf := List.mem_range.1 hf
  have hpos := (hP f f (Or.inl hf) (by omega)).2
  obtain ⟨base, _, _, _, _, _, _, _, a2, _, _, b2⟩ := face_cols S debug hf (by omega) hin
  rw [List.sum_map_mul_left, sum_map_sub]
  congr 2
  · split_ifs with h
    · obtain ⟨hper, hcf⟩ := a2.1 h
      obtain ⟨u, hu, huc, hur, hus, hun⟩ := cell_unknown S hP hc hf (loc := 2 * f + 1) (by omega) hper
        (by rw [if_neg (by omega)]; exact hcf)
      rw [if_neg (by omega)] at hun
      subst huc
      have := ghost_key_sum hL hG hu (loc := 2 * u.comp + 1) (by omega)
        (by rw [show (2 * u.comp + 1) / 2 = u.comp by omega]; exact hper) hus val
      rw [hun, hur] at this
      exact this
    · exact ghost_key_none hL hG h val
  · split_ifs with h
    · obtain ⟨hper, hcf⟩ := b2.1 h
      obtain ⟨u, hu, huc, hur, hus, hun⟩ := cell_unknown S hP hc hf (loc := 2 * f) (by omega) hper
        (by rw [if_pos (by omega)]; exact hcf)
      rw [if_pos (by omega)] at hun
      subst huc
      have := ghost_key_sum hL hG hu (loc := 2 * u.comp) (by omega)
        (by rw [show (2 * u.comp) / 2 = u.comp by omega]; exact hper) hus val
      rw [hun, hur] at this
      exact this
    · exact ghost_key_none hL hG h val

theorem div_range (S : Setup L G axes) (hP : Partitioned L) {normalize : Bool} (hG : GhostsOK debug L G B) (mods : Modifiers K)
    (hm : ∀ r f, r < L.mpiSize → f < L.dim → mods r f = StencilMap.ofAssignments (divOps L G normalize r f)) :
    ∀ e ∈ ((cells L).flatMap fun c => (List.range L.dim).flatMap fun f => divEntries L G normalize (cellSt c) f) ++
      boundaryEntries L B mods, e.row < (L.pN : ℤ) ∧ e.col < (L.UN : ℤ) := by
  have hL := S.layout
  have h3 := S.dim_le
  have hp3 : ∀ s, Inside L.toMeshInfo 3 s → 0 ≤ col L 3 s ∧ col L 3 s < (L.pN : ℤ) := by
    intro s hs
    have := (col_inside hL (Or.inr rfl) false hs).2
    rwa [vecSize, if_pos rfl] at this
  intro e he
  rcases List.mem_append.1 he with he | he
  · obtain ⟨c, hc, he⟩ := List.mem_flatMap.1 he
    obtain ⟨f, hf, he⟩ := List.mem_flatMap.1 he
    have hf := List.mem_range.1 hf
    have hc := mem_cells.1 hc
    have hin := hc.inside hL
    have hpos := (hP f f (Or.inl hf) (by omega)).2
    obtain ⟨base, _, _, _, _, _, _, a1, a2, _, b1, b2⟩ := face_cols S debug hf (by omega) hin
    have := (hp3 _ hin).2
    simp only [divEntries, List.mem_cons, List.not_mem_nil, or_false] at he
    rcases he with rfl | rfl
    · refine ⟨this, ?_⟩
      show col L f _ < _
      omega
    · refine ⟨this, ?_⟩
      show col L f _ < _
      omega
  · obtain ⟨x, hx, rfl⟩ := List.mem_map.1 he
    obtain ⟨hr, hf, loc, b, hp⟩ := mem_boundaryLoop hG hx
    obtain ⟨r, f, s, p⟩ := x
    simp only at hr hf hp ⊢
    obtain ⟨h1, h2⟩ := target_inside hL hG hr hp
    have hcol := (col_inside hL (Or.inl hf) false h1).2.2
    rw [vecSize, if_neg (by omega), ← h2] at hcol
    refine ⟨?_, hcol⟩
    rw [hm r f hr hf]
    by_cases hl : loc / 2 = f
    · rw [div_modifier_normal S hP hG hr hp hl]
      obtain ⟨u, hu, hur, huc, hut, hus, hs, hper, hloc⟩ := point_unknown hL hG hr hp
      subst huc
      rw [hl] at hper
      obtain ⟨c, hc, _, hcs⟩ := aligned S hP hu hl hus
      rw [divCell_eq S hu hl hus hper, ← hs, hut] at hcs
      rw [← hcs]
      exact (hp3 _ (hc.inside hL)).2
    · rw [div_modifier_tangent S hG hr hp hl]
      have hin : Inside L.toMeshInfo 3 (⟨0, 0, 0, 0⟩ : Stencil) := by
        refine ⟨fun d hd => ?_, rfl⟩
        have := (hP 3 d (Or.inr rfl) hd).2
        unfold coordOf
        split_ifs <;> simp <;> omega
      have := hp3 _ hin
      show (0 : ℤ) < _
      omega

theorem div_filter (S : Setup L G axes) {normalize : Bool} {c : ℕ × ℕ × ℕ × ℕ} (hc : IsCell L c) (p : Entry K → Bool)
    (hp : ∀ e, p e = true → e.row = col L 3 (cellSt c)) :
    ((cells L).flatMap fun c => (List.range L.dim).flatMap fun f => divEntries L G normalize (cellSt c) f).filter p =
      ((List.range L.dim).flatMap fun f => divEntries L G normalize (cellSt c) f).filter p := by
  classical
  apply filter_flatMap_single (nodup_cells L) (mem_cells.2 hc)
    (fun c => (List.range L.dim).flatMap fun f => divEntries L G normalize (cellSt c) f)
  intro v hv hne e he
  by_contra h
  have h := hp e (by simpa using h)
  apply hne
  apply (mem_cells.1 hv).ext S.layout hc
  obtain ⟨f, _, he⟩ := List.mem_flatMap.1 he
  simp only [divEntries, List.mem_cons, List.not_mem_nil, or_false] at he
  rcases he with rfl | rfl <;> exact h

/-- point of component `f` whose index a column is -/
theorem face_inside (S : Setup L G axes) {f : ℕ} (hf : f < L.dim) (hn : 0 < L.n f f) {s : Stencil}
    (hs : Inside L.toMeshInfo 3 s) :
    (col L f s ≠ -1 → Inside L.toMeshInfo f s) ∧
    (col L f (nbr (2 * f) s) ≠ -1 → ∃ y : ℤ, Inside L.toMeshInfo f (along s f y) ∧
      col L f (nbr (2 * f) s) = col L f (along s f y) ∧ (y = coordOf s f - 1 ∨
        (L.periodic 0 f = true ∧ coordOf s f = 0 ∧ y = L.n f f - 1))) := by
  have hL := S.layout
  have h3 := S.dim_le
  have hb := hs.1 f (by omega)
  obtain ⟨base, hbase, e1, e2, h0, hle, _, a1, a2, _, b1, b2⟩ := face_cols S false hf hn hs
  obtain ⟨n1, n2, n3⟩ := S.staggered f hf
  have hal : ∀ y : ℤ, along base f y = along s f y := by
    intro y
    rw [e1, along_along]
  constructor
  · intro h
    have hlt : coordOf s f < L.n f f := by
      by_contra h'
      apply h
      rw [a2]
      have : coordOf s f = L.n f f := by omega
      refine ⟨?_, this⟩
      by_contra hp
      have := n2 (by simpa using hp)
      omega
    rw [e1]
    exact hbase.along f (by omega) _ ⟨h0, hlt⟩
  · intro h
    by_cases h0' : coordOf s f = 0
    · have hp : L.periodic 0 f = true := by
        by_contra hp
        exact h (b2.2 ⟨by simpa using hp, h0'⟩)
      have h2 := col_periodic hL (Or.inl hf) false hbase (d := f) (by omega) hp (x := coordOf s f - 1) (Or.inl (by omega))
      rw [emod_near (by omega) (by omega) (by omega), if_pos (by omega)] at h2
      refine ⟨L.n f f - 1, ?_, ?_, Or.inr ⟨hp, h0', rfl⟩⟩
      · rw [← hal]; exact h2.2.2
      · rw [e2, h2.2.1, hal]
    · refine ⟨coordOf s f - 1, ?_, ?_, Or.inl rfl⟩
      · rw [← hal]; exact hbase.along f (by omega) _ ⟨by omega, by omega⟩
      · rw [e2, hal]

theorem div_nodup (S : Setup L G axes) (hP : Partitioned L) {normalize : Bool} {c : ℕ × ℕ × ℕ × ℕ} (hc : IsCell L c)
    (hn : ∀ f, f < L.dim → L.periodic 0 f = true → 2 ≤ L.n f f) :
    ((((cells L).flatMap fun c => (List.range L.dim).flatMap fun f => divEntries L G normalize (cellSt c) f).filter fun e =>
      decide (e.row = col L 3 (cellSt c) ∧ 0 ≤ e.col)).map (·.col)).Nodup := by
  have hL := S.layout
  have h3 := S.dim_le
  have hin := hc.inside hL
  rw [div_filter S hc _ (by intro e he; simp at he; exact he.1)]
  -- every nonnegative column of component f is the column of an inside point of component f
  have hcol : ∀ f, f < L.dim → ∀ e ∈ divEntries L G normalize (cellSt c) f, 0 ≤ e.col →
      ∃ t, Inside L.toMeshInfo f t ∧ e.col = col L f t := by
    intro f hf e he h0
    have hpos := (hP f f (Or.inl hf) (by omega)).2
    obtain ⟨fi1, fi2⟩ := face_inside S hf (by omega) hin
    simp only [divEntries, List.mem_cons, List.not_mem_nil, or_false] at he
    rcases he with rfl | rfl
    · exact ⟨_, fi1 (by simp only at h0; omega), rfl⟩
    · simp only at h0
      obtain ⟨y, h1, h2, _⟩ := fi2 (by omega)
      exact ⟨_, h1, h2⟩
  rw [List.filter_flatMap, List.map_flatMap, List.nodup_flatMap]
  constructor
  · intro f hf
    have hf := List.mem_range.1 hf
    have hpos := (hP f f (Or.inl hf) (by omega)).2
    obtain ⟨fi1, fi2⟩ := face_inside S hf (by omega) hin
    have key : 0 ≤ col L f (cellSt c) → 0 ≤ col L f (nbr (2 * f) (cellSt c)) →
        col L f (cellSt c) ≠ col L f (nbr (2 * f) (cellSt c)) := by
      intro ha hb e
      obtain ⟨y, h1, h2, h3'⟩ := fi2 (by omega)
      rw [h2] at e
      have e := (col_inj hL hf hf (fi1 (by omega)) h1 e).2
      have e' := coordOf_along (cellSt c) f f y (by omega) (by omega)
      rw [← e, if_pos rfl] at e'
      rcases h3' with h | ⟨hp, h0, h⟩
      · omega
      · have := hn f hf hp
        omega
    simp only [divEntries]
    by_cases ha : 0 ≤ col L f (cellSt c) <;> by_cases hb : 0 ≤ col L f (nbr (2 * f) (cellSt c)) <;>
      simp [ha, hb]
    exact key ha hb
  · refine List.Pairwise.imp_of_mem ?_ (List.nodup_range (n := L.dim))
    intro f g hf hg hne x hx hx'
    have hf := List.mem_range.1 hf
    have hg := List.mem_range.1 hg
    obtain ⟨e, he, rfl⟩ := List.mem_map.1 hx
    obtain ⟨e', he', hee⟩ := List.mem_map.1 hx'
    obtain ⟨he, h1⟩ := List.mem_filter.1 he
    obtain ⟨he', h2⟩ := List.mem_filter.1 he'
    simp at h1 h2
    obtain ⟨t, ht, ht'⟩ := hcol f hf e he h1.2
    obtain ⟨t2, ht2, ht2'⟩ := hcol g hg e' he' h2.2
    rw [ht', ht2'] at hee
    exact hne (col_inj hL hf hg ht ht2 hee.symm).1

/-- Rows of the divergence plus correction, `B` at construction, `B'` now. -/
theorem divergence_rows (S : Setup L G axes) (hP : Partitioned L) (normalize : Bool) (hG : GhostsOK debug L G B)
    (hn : ∀ f, f < L.dim → L.periodic 0 f = true → 2 ≤ L.n f f) :
    ∃ A mods, createDivergence debug L G normalize B = .ok (A, mods) ∧ ∀ (B' : ℕ → Boundary K), GhostsOK debug L G B' →
      ∀ c, IsCell L c →
      (∀ q : ℤ → K, Mat.mult L.UN A q (col L 3 (cellSt c)) = ((List.range L.dim).map fun f => divK G normalize f (cellSt c) *
        ((if col L f (cellSt c) = -1 then ((ghostAt (B c.1) f (2 * f + 1) (cellSt c)).map fun p => p.a0 * q p.targetPackedId).getD 0
            else q (col L f (cellSt c))) -
         (if col L f (nbr (2 * f) (cellSt c)) = -1 then
            ((ghostAt (B c.1) f (2 * f) (nbr (2 * f) (cellSt c))).map fun p => p.a0 * q p.targetPackedId).getD 0
            else q (col L f (nbr (2 * f) (cellSt c)))))).sum) ∧
      correctionMult L B' mods (col L 3 (cellSt c)) = ((List.range L.dim).map fun f => divK G normalize f (cellSt c) *
        ((if col L f (cellSt c) = -1 then ghostA1 (B' c.1) f (2 * f + 1) (cellSt c) else 0) -
         (if col L f (nbr (2 * f) (cellSt c)) = -1 then ghostA1 (B' c.1) f (2 * f) (nbr (2 * f) (cellSt c)) else 0))).sum ∧
      ∀ x : ℤ, 0 ≤ x → A (col L 3 (cellSt c)) x =
        valuesAt ((List.range L.dim).flatMap fun f => divEntries L G normalize (cellSt c) f) (col L 3 (cellSt c)) x +
        valuesAt (boundaryEntries L B mods) (col L 3 (cellSt c)) x := by
  classical
  have hL := S.layout
  have h3 := S.dim_le
  obtain ⟨mods, hm, heq⟩ := createDivergence_eq S hP debug normalize B
  have hrange := div_range S hP hG mods hm
  refine ⟨_, mods, by rw [heq, assemble_ok hrange]; rfl, ?_⟩
  intro B' hG' c hc
  have hin := hc.inside hL
  have hrow := (col_inside hL (Or.inr rfl) false hin).2.1
  have hnd := div_nodup S hP (normalize := normalize) hc hn
  refine ⟨?_, ?_, ?_⟩
  · intro q
    rw [mult_assembled hrange hrow hnd]
    have hins : (((cells L).flatMap fun c => (List.range L.dim).flatMap fun f => divEntries L G normalize (cellSt c) f).map
        fun e : Entry K => if e.row = col L 3 (cellSt c) ∧ 0 ≤ e.col then e.val * q e.col else 0).sum =
        ((List.range L.dim).map fun f => divK G normalize f (cellSt c) *
        ((if col L f (cellSt c) = -1 then 0 else q (col L f (cellSt c))) -
         (if col L f (nbr (2 * f) (cellSt c)) = -1 then 0 else q (col L f (nbr (2 * f) (cellSt c)))))).sum := by
      rw [sum_flatMap, sum_map_single (nodup_cells L) (mem_cells.2 hc)]
      · rw [sum_flatMap]
        congr 1
        apply List.map_congr_left
        intro f hf
        have hf := List.mem_range.1 hf
        have hpos := (hP f f (Or.inl hf) (by omega)).2
        obtain ⟨base, _, _, _, _, _, _, a1, _, _, b1, _⟩ := face_cols S debug hf (by omega) hin
        have ha : 0 ≤ col L f (cellSt c) ↔ ¬ col L f (cellSt c) = -1 := by omega
        have hb : 0 ≤ col L f (nbr (2 * f) (cellSt c)) ↔ ¬ col L f (nbr (2 * f) (cellSt c)) = -1 := by omega
        simp only [divEntries, List.map_cons, List.map_nil, List.sum_cons, List.sum_nil, true_and, ha, hb]
        split_ifs <;> ring
      · intro v hv hne
        apply sum_map_eq_zero
        intro e he
        rw [if_neg]
        rintro ⟨h, _⟩
        apply hne
        apply (mem_cells.1 hv).ext hL hc
        obtain ⟨f, _, he⟩ := List.mem_flatMap.1 he
        simp only [divEntries, List.mem_cons, List.not_mem_nil, or_false] at he
        rcases he with rfl | rfl <;> exact h
    have hbd : ((boundaryEntries L B mods).map fun e : Entry K =>
        if e.row = col L 3 (cellSt c) ∧ 0 ≤ e.col then e.val * q e.col else 0).sum =
        ((boundaryLoop L B).map fun x => if (modifierAt (mods x.1 x.2.1) x.2.2.1).row = col L 3 (cellSt c) then
          (modifierAt (mods x.1 x.2.1) x.2.2.1).coeff * (x.2.2.2.a0 * q x.2.2.2.targetPackedId) else 0).sum := by
      unfold boundaryEntries
      rw [List.map_map]
      congr 1
      apply List.map_congr_left
      intro x hx
      obtain ⟨hr, hf, loc, b, hp⟩ := mem_boundaryLoop hG hx
      obtain ⟨r, f, s, p⟩ := x
      simp only at hr hf hp ⊢
      obtain ⟨h1, h2⟩ := target_inside hL hG hr hp
      have hcol := (col_inside hL (Or.inl hf) false h1).2.1
      simp only [Function.comp]
      by_cases h : (modifierAt (mods r f) s).row = col L 3 (cellSt c)
      · rw [if_pos ⟨h, by rw [h2]; exact hcol⟩, if_pos h]; ring
      · rw [if_neg fun h' => h h'.1, if_neg h]
    rw [hins, hbd, div_ghost_sum S hP hG hc mods hm fun p => p.a0 * q p.targetPackedId, ← List.sum_map_add]
    congr 1
    apply List.map_congr_left
    intro f _
    split_ifs <;> ring
  · unfold correctionMult
    rw [addVector_eq _ _ hrow, List.map_map]
    exact div_ghost_sum S hP hG' hc mods hm fun p => p.a1
  · intro x hx
    rw [assembled_entry hrow hx hnd]
    congr 1
    rw [valuesAt_flatMap, sum_map_single (nodup_cells L) (mem_cells.2 hc)]
    intro v hv hne
    apply valuesAt_eq_zero
    intro e he h
    exfalso
    apply hne
    apply (mem_cells.1 hv).ext hL hc
    obtain ⟨f, _, he⟩ := List.mem_flatMap.1 he
    simp only [divEntries, List.mem_cons, List.not_mem_nil, or_false] at he
    rcases he with rfl | rfl <;> exact h

end PetIBM
