/-
Sums over the registered ghost points of all ranks.
-/
import Verif.Lemmas.BoundaryRun
import Verif.Lemmas.Operators

set_option linter.unusedSectionVars false

namespace PetIBM

open Spec Layout

variable {K : Type} [Field K]

/-- neighbour of `s` across side `loc` -/
def nbr (loc : ℕ) (s : Stencil) : Stencil :=
  along s (loc / 2) (coordOf s (loc / 2) + if loc % 2 = 0 then -1 else 1)

/-- `s` is next to side `loc` -/
def AtSide (M : MeshInfo) (f loc : ℕ) (s : Stencil) : Prop :=
  coordOf s (loc / 2) = if loc % 2 = 0 then 0 else (M.n f (loc / 2) : ℤ) - 1

instance (M : MeshInfo) (f loc : ℕ) (s : Stencil) : Decidable (AtSide M f loc s) := by
  unfold AtSide; infer_instance

theorem face_nbr {M : MeshInfo} {f loc : ℕ} (hl : loc < 6) {s t : Stencil} (hs : OnFace M f loc s)
    (ht : AcrossFace M f loc s t) : s = nbr loc t ∧ AtSide M f loc t := by
  refine ⟨?_, ht.1⟩
  apply stencil_ext
  · intro d hd
    unfold nbr
    rw [coordOf_along _ _ _ _ (by omega) hd]
    by_cases h : d = loc / 2
    · subst h
      rw [if_pos rfl, hs.1, ht.1]
      split_ifs <;> omega
    · rw [if_neg h, ht.2.1 d hd h]
  · unfold nbr; rw [along_c, hs.2.2, ht.2.2]

theorem nbr_face {M : MeshInfo} {f loc : ℕ} (hl : loc < 6) {t : Stencil} (hin : Inside M f t) (ht : AtSide M f loc t) :
    OnFace M f loc (nbr loc t) ∧ AcrossFace M f loc (nbr loc t) t := by
  unfold AtSide at ht
  have hc : ∀ d, d < 3 → d ≠ loc / 2 → coordOf (nbr loc t) d = coordOf t d := by
    intro d hd hne
    unfold nbr; rw [coordOf_along _ _ _ _ (by omega) hd, if_neg hne]
  refine ⟨⟨?_, fun d hd hne => ?_, ?_⟩, ht, fun d hd hne => (hc d hd hne).symm, hin.2⟩
  · unfold nbr; rw [coordOf_along _ _ _ _ (by omega) (by omega), if_pos rfl, ht]; split_ifs <;> omega
  · rw [hc d hd hne]; exact hin.1 d hd
  · unfold nbr; rw [along_c]; exact hin.2

/-- Boundary objects of all ranks, at any time after construction. -/
structure GhostsOK (debug : Bool) (L : Layout) (G : Geom K) (B : ℕ → Boundary K) : Prop where
  shape : ∀ r f, r < L.mpiSize → f < L.dim → ∃ l : List (SingleBoundary K), (B r)[f]? = some l ∧ l.length = L.dim * 2 ∧
    ∀ (loc : ℕ) (b : SingleBoundary K), l[loc]? = some b → StencilMap.Sorted b.points ∧ (b.onThisProc = false → b.points = [])
  good : ∀ r f loc s b p, r < L.mpiSize → Point (B r) f loc s b p →
    f < L.dim ∧ loc < L.dim * 2 ∧ GoodRecord debug L G f r loc s p
  periodic : ∀ r f loc s b p, r < L.mpiSize → Point (B r) f loc s b p → L.periodic 0 (loc / 2) = false
  covered : ∀ f loc u, IsUnknown L u → u.comp = f → loc < L.dim * 2 → L.periodic 0 (loc / 2) = false →
    AtSide L.toMeshInfo f loc u.st → ∃ b p, Point (B u.rank) f loc (nbr loc u.st) b p

theorem GoodRecord.run {debug : Bool} {L : Layout} {G : Geom K} {f r loc : ℕ} {s : Stencil} {p : GhostPointInfo K}
    (hg : GoodRecord debug L G f r loc s p) (b : SingleBoundary K) (h : List (Boundary.Op K)) :
    GoodRecord debug L G f r loc s (b.pointRun h p) := by
  obtain ⟨e1, e2, e3, e4, e5⟩ := SingleBoundary.pointRun_static b h p
  obtain ⟨g1, g2, g3, g4, g5, g6, g7, g8⟩ := hg
  exact ⟨g1, by rw [e3]; exact g2, by rw [e3, e1]; exact g3, by rw [e1]; exact g4, by rw [e3]; exact g5,
    by rw [e4]; exact g6, by rw [e5]; exact g7, by rw [e2, e3]; exact g8⟩

theorem ghostsOK_run {debug : Bool} {L : Layout} (hL : LayoutOK L) {G : Geom K} {T : BCTable K} (hT : TableOK L T)
    (hn : ∀ f d, f < L.dim → d < 3 → 0 < L.n f d) {B0 : ℕ → Boundary K}
    (hB : ∀ r, r < L.mpiSize → boundaryInit debug L G r T = .ok (B0 r)) (h : List (Boundary.Op K)) :
    GhostsOK debug L G fun r => (B0 r).run h := by
  have hd3 : L.dim ≤ 3 := by rcases hL.dim with h | h <;> omega
  have hshape : ∀ r f, r < L.mpiSize → f < L.dim → ∃ l, (B0 r)[f]? = some l ∧ l.length = L.dim * 2 ∧
      ∀ loc, loc < L.dim * 2 → ∃ b, l[loc]? = some b ∧
        createSingleBoundary debug L G r loc f (T f loc).2 (T f loc).1 = .ok b := by
    intro r f hr hf
    have h1 := hB r hr
    unfold boundaryInit at h1
    obtain ⟨l, hl, hl'⟩ := (mapM_except_getElem? h1 f).1 f (by rw [List.getElem?_range hf])
    refine ⟨l, hl, ?_, ?_⟩
    · have hlen : ∀ i, i < L.dim * 2 ↔ i < l.length := by
        intro i
        constructor
        · intro hi
          obtain ⟨y, hy, _⟩ := (mapM_except_getElem? hl' i).1 i (by rw [List.getElem?_range hi])
          exact (List.getElem?_eq_some_iff.1 hy).1
        · intro hi
          obtain ⟨x, hx, _⟩ := (mapM_except_getElem? hl' i).2 l[i] (List.getElem?_eq_getElem hi)
          exact (getElem?_range_some hx).1
      have a := hlen l.length
      have b := hlen (L.dim * 2)
      omega
    · intro loc hloc
      exact (mapM_except_getElem? hl' loc).1 loc (by rw [List.getElem?_range hloc])
  have hpts : ∀ r f loc b, r < L.mpiSize → f < L.dim → loc < L.dim * 2 →
      createSingleBoundary debug L G r loc f (T f loc).2 (T f loc).1 = .ok b →
      StencilMap.Sorted b.points ∧ (b.onThisProc = false → b.points = []) ∧
      (L.periodic 0 (loc / 2) = true → b.points = []) ∧
      (L.periodic 0 (loc / 2) = false → ∀ u, IsUnknown L u → u.comp = f → u.rank = r →
        AtSide L.toMeshInfo f loc u.st → ∃ p, (nbr loc u.st, p) ∈ b.points) := by
    intro r f loc b hr hf hloc hb
    have hno := (createSingleBoundary_static hb).2.2.2.2
    by_cases hp : (T f loc).1 = .PERIODIC
    · rw [hp] at hb
      cases hb
      refine ⟨by simp [StencilMap.Sorted], fun _ => rfl, fun _ => rfl, ?_⟩
      intro hper
      rw [(hT f loc hf hloc).1 hp] at hper
      cases hper
    · obtain ⟨b', hb', hs, hon, hoff, hgood, hall⟩ :=
        createSingleBoundary_points debug hL G f r loc hf hloc (fun d hd => hn f d hf hd) (T f loc).2 (T f loc).1 hno hp
      rw [hb] at hb'
      cases hb'
      refine ⟨hs, hoff, ?_, ?_⟩
      · intro hper
        exact absurd ((hT f loc hf hloc).2 hper) hp
      · intro _ u hu huf hur hside
        subst huf hur
        have ho := owns_iff.1 hu.2.2.2.2.2
        have hc : ∀ d, d < 3 → (L.bg u.comp u.rank d : ℤ) ≤ coordOf u.st d ∧ coordOf u.st d < L.ed u.comp u.rank d := by
          intro d hd
          interval_cases d <;> simp [coordOf, Unknown.st] <;> omega
        have hside' := nbr_face (by omega) hu.inside hside
        apply hall
        · rw [hon]
          unfold checkBoundaryProc
          rw [if_pos (by omega)]
          have h0 := hn u.comp (loc / 2) hf (by omega)
          have h1 := hc (loc / 2) (by omega)
          unfold AtSide at hside
          rw [hside] at h1
          simp only
          rw [if_neg (by split_ifs <;> omega)]
          simp [h1]
        · exact hside'.1
        · intro d hd hne
          rw [← hside'.2.2.1 d hd hne]
          exact hc d hd
  constructor
  · intro r f hr hf
    obtain ⟨l, hl, hlen, hall⟩ := hshape r f hr hf
    refine ⟨l.map fun b => b.mapPoints (b.pointRun h), by rw [Boundary.run_eq, List.getElem?_map, hl]; rfl,
      by rw [List.length_map, hlen], ?_⟩
    intro loc b hb
    rw [List.getElem?_map, Option.map_eq_some_iff] at hb
    obtain ⟨b0, hb0, rfl⟩ := hb
    have hloc : loc < L.dim * 2 := by rw [← hlen]; exact (List.getElem?_eq_some_iff.1 hb0).1
    obtain ⟨b1, hb1, hcr⟩ := hall loc hloc
    rw [hb0] at hb1
    cases hb1
    obtain ⟨h1, h2, _⟩ := hpts r f loc b0 hr hf hloc hcr
    refine ⟨?_, fun hoff => ?_⟩
    · unfold StencilMap.Sorted at h1 ⊢
      simp only [SingleBoundary.mapPoints]
      rw [List.pairwise_map]
      exact h1
    · have := h2 hoff
      simp [SingleBoundary.mapPoints, this]
  · intro r f loc s b p hr hp
    obtain ⟨b0, p0, hp0, rfl, rfl⟩ := point_run hp
    obtain ⟨h1, h2, _, _, _, _, hg⟩ := point_boundaryInit hL (hB r hr) hn hp0
    exact ⟨h1, h2, hg.run b0 h⟩
  · intro r f loc s b p hr hp
    obtain ⟨b0, p0, hp0, rfl, rfl⟩ := point_run hp
    obtain ⟨h1, h2, _⟩ := point_boundaryInit hL (hB r hr) hn hp0
    obtain ⟨l, hl, hlen, hall⟩ := hshape r f hr h1
    obtain ⟨b1, hb1, hcr⟩ := hall loc h2
    obtain ⟨l', hl', hb', hs⟩ := hp0
    rw [hl] at hl'; cases hl'
    rw [hb1] at hb'; cases hb'
    obtain ⟨_, _, h3, _⟩ := hpts r f loc _ hr h1 h2 hcr
    by_contra hper
    rw [h3 (by simpa using hper)] at hs
    simp [StencilMap.find] at hs
  · intro f loc u hu huf hloc hper hside
    subst huf
    obtain ⟨l, hl, hlen, hall⟩ := hshape u.rank u.comp hu.2.2.2.2.1 hu.1
    obtain ⟨b1, hb1, hcr⟩ := hall loc hloc
    obtain ⟨hs, _, _, h4⟩ := hpts u.rank u.comp loc b1 hu.2.2.2.2.1 hu.1 hloc hcr
    obtain ⟨p, hp⟩ := h4 hper u hu rfl rfl hside
    exact ⟨_, _, run_point ⟨l, hl, hb1, (StencilMap.find_iff_mem hs _ _).2 hp⟩⟩

theorem sum_map_index {α : Type} {l : List α} {n : ℕ} (hl : l.length = n) (g : α → K) (c : ℕ → K)
    (h : ∀ i a, l[i]? = some a → g a = c i) : (l.map g).sum = ((List.range n).map c).sum := by
  congr 1
  apply List.ext_getElem
  · simp [hl]
  · intro i h1 h2
    rw [List.getElem_map, List.getElem_map, List.getElem_range]
    exact h i _ (List.getElem?_eq_getElem (by simpa using h1))

theorem sum_map_unique {α : Type} {l : List α} (hl : l.Nodup) {a : α} (ha : a ∈ l) (g : α → K)
    (h : ∀ b ∈ l, b ≠ a → g b = 0) : (l.map g).sum = g a := by
  classical
  exact sum_map_single hl ha g h

/-- Sum over all registered ghost points of a quantity that vanishes unless the target is `u`. -/
theorem boundaryLoop_sum {debug : Bool} {L : Layout} {G : Geom K} {B : ℕ → Boundary K} (hG : GhostsOK debug L G B)
    (hd3 : L.dim ≤ 3) {u : Unknown} (hu : IsUnknown L u) (g : ℕ → ℕ → Stencil → GhostPointInfo K → K) (c : ℕ → K)
    (hz : ∀ r f loc s b p, r < L.mpiSize → Point (B r) f loc s b p → ¬ (f = u.comp ∧ p.targetStencil = u.st) →
      g r f s p = 0)
    (hc1 : ∀ loc b p, loc < L.dim * 2 → Point (B u.rank) u.comp loc (nbr loc u.st) b p → p.targetStencil = u.st →
      g u.rank u.comp (nbr loc u.st) p = c loc)
    (hc0 : ∀ loc, loc < L.dim * 2 → ¬ (L.periodic 0 (loc / 2) = false ∧ AtSide L.toMeshInfo u.comp loc u.st) → c loc = 0) :
    ((boundaryLoop L B).map fun x => g x.1 x.2.1 x.2.2.1 x.2.2.2).sum = ((List.range (L.dim * 2)).map c).sum := by
  have hr := hu.2.2.2.2.1
  have hmem : ∀ r f, r < L.mpiSize → f < L.dim → ∀ l loc b s p, (B r)[f]? = some l → l[loc]? = some b →
      (s, p) ∈ b.points → Point (B r) f loc s b p := by
    intro r f hr hf l loc b s p hl hb hsp
    obtain ⟨l', hl', _, hall⟩ := hG.shape r f hr hf
    rw [hl] at hl'; cases hl'
    exact ⟨l, hl, hb, (StencilMap.find_iff_mem (hall loc b hb).1 s p).2 hsp⟩
  have hown : ∀ r loc s b p, r < L.mpiSize → Point (B r) u.comp loc s b p → p.targetStencil = u.st → r = u.rank := by
    intro r loc s b p hr hp ht
    obtain ⟨i, j, k, hts, ho⟩ := (hG.good r _ loc s b p hr hp).2.2.owns
    rw [ht] at hts
    simp only [Unknown.st, Stencil.mk.injEq, Int.natCast_inj] at hts
    obtain ⟨h1, h2, h3, _⟩ := hts
    rw [← h1, ← h2, ← h3] at ho
    exact owner_unique ho hu.2.2.2.2.2
  unfold boundaryLoop
  rw [sum_flatMap]
  -- only the owner contributes
  rw [sum_map_single (List.nodup_range (n := L.mpiSize)) (List.mem_range.2 hr)]
  · rw [sum_flatMap, sum_map_single (List.nodup_range) (List.mem_range.2 hu.1)]
    · obtain ⟨l, hl, hlen, hall⟩ := hG.shape u.rank u.comp hr hu.1
      have hD : (B u.rank).getD u.comp [] = l := by rw [List.getD_eq_getElem?_getD, hl]; rfl
      rw [hD, sum_flatMap]
      apply sum_map_index hlen
      intro loc b hb
      have hloc : loc < L.dim * 2 := by rw [← hlen]; exact (List.getElem?_eq_some_iff.1 hb).1
      obtain ⟨hsort, hoff⟩ := hall loc b hb
      have hpt := hmem u.rank u.comp hr hu.1 l loc b
      -- the sum over the points of one side
      have hsum : ((b.points.map fun pt => (u.rank, u.comp, pt.1, pt.2)).map
          fun x : ℕ × ℕ × Stencil × GhostPointInfo K => g x.1 x.2.1 x.2.2.1 x.2.2.2).sum = c loc := by
        rw [List.map_map]
        have hnd : b.points.Nodup := by
          unfold StencilMap.Sorted at hsort
          refine hsort.imp ?_
          rintro x y hxy rfl
          rw [stencilLt_irrefl] at hxy; cases hxy
        by_cases hex : ∃ p, (nbr loc u.st, p) ∈ b.points ∧ p.targetStencil = u.st
        · obtain ⟨p, hp, htg⟩ := hex
          rw [sum_map_unique hnd hp]
          · exact hc1 loc b p hloc (hpt _ _ hl hb hp) htg
          · rintro ⟨s', p'⟩ hp' hne
            apply hz u.rank u.comp loc s' b p' hr (hpt _ _ hl hb hp')
            rintro ⟨_, ht⟩
            have good := (hG.good _ _ _ _ _ _ hr (hpt _ _ hl hb hp')).2.2
            have hs' : s' = nbr loc u.st := by
              have := (face_nbr (by omega) good.face good.across).1
              rw [ht] at this; exact this
            subst hs'
            have e1 := (StencilMap.find_iff_mem hsort _ _).2 hp'
            have e2 := (StencilMap.find_iff_mem hsort _ _).2 hp
            rw [e1] at e2
            cases e2
            exact hne rfl
        · rw [hc0 loc hloc, sum_map_eq_zero]
          · rintro ⟨s', p'⟩ hp'
            apply hz u.rank u.comp loc s' b p' hr (hpt _ _ hl hb hp')
            rintro ⟨_, ht⟩
            have good := (hG.good _ _ _ _ _ _ hr (hpt _ _ hl hb hp')).2.2
            have hs' : s' = nbr loc u.st := by
              have := (face_nbr (by omega) good.face good.across).1
              rw [ht] at this; exact this
            subst hs'
            exact hex ⟨p', hp', ht⟩
          · rintro ⟨hper, hside⟩
            obtain ⟨b', p', l', hl', hb', hs'⟩ := hG.covered u.comp loc u hu rfl hloc hper hside
            rw [hl] at hl'; cases hl'
            rw [hb] at hb'; cases hb'
            have hp' := (StencilMap.find_iff_mem hsort _ _).1 hs'
            have good := (hG.good _ _ _ _ _ _ hr ⟨l, hl, hb, hs'⟩).2.2
            apply hex
            refine ⟨p', hp', ?_⟩
            have hfn := nbr_face (M := L.toMeshInfo) (f := u.comp) (loc := loc) (by omega) hu.inside hside
            apply stencil_ext
            · intro d hd
              by_cases h : d = loc / 2
              · subst h; rw [good.across.1, hfn.2.1]
              · rw [good.across.2.1 d hd h, hfn.2.2.1 d hd h]
            · rw [good.across.2.2, hfn.2.2.2]
      by_cases hon : b.onThisProc = true
      · rw [if_pos hon]; exact hsum
      · rw [if_neg hon]
        rw [hoff (by simpa using hon)] at hsum
        simpa using hsum
    · intro f hf hne
      have hf := List.mem_range.1 hf
      rw [sum_flatMap]
      apply sum_map_eq_zero
      intro b hb
      obtain ⟨l, hl, hlen, hall⟩ := hG.shape u.rank f hr hf
      have hD : (B u.rank).getD f [] = l := by rw [List.getD_eq_getElem?_getD, hl]; rfl
      rw [hD] at hb
      obtain ⟨loc, hloc⟩ := List.getElem?_of_mem hb
      split_ifs
      · rw [List.map_map]
        apply sum_map_eq_zero
        rintro ⟨s, p⟩ hp
        exact hz u.rank f loc s b p hr (hmem _ _ hr hf l loc b s p hl hloc hp) fun h => hne h.1
      · rfl
  · intro r hr' hne
    have hr' := List.mem_range.1 hr'
    rw [sum_flatMap]
    apply sum_map_eq_zero
    intro f hf
    have hf := List.mem_range.1 hf
    rw [sum_flatMap]
    apply sum_map_eq_zero
    intro b hb
    obtain ⟨l, hl, hlen, hall⟩ := hG.shape r f hr' hf
    have hD : (B r).getD f [] = l := by rw [List.getD_eq_getElem?_getD, hl]; rfl
    rw [hD] at hb
    obtain ⟨loc, hloc⟩ := List.getElem?_of_mem hb
    split_ifs
    · rw [List.map_map]
      apply sum_map_eq_zero
      rintro ⟨s, p⟩ hp
      have hpt := hmem _ _ hr' hf l loc b s p hl hloc hp
      apply hz r f loc s b p hr' hpt
      rintro ⟨rfl, ht⟩
      exact hne (hown r loc s b p hr' hpt ht)
    · rfl

end PetIBM
