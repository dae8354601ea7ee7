/-
The Laplacian is self-adjoint if the points are weighted with the volumes of their cells.
-/
import Verif.Lemmas.LaplacianEntries
import Verif.Lemmas.Ibpm

set_option linter.unusedSectionVars false

namespace PetIBM

open Spec

variable {K : Type} [Field K] [LinearOrder K] [IsStrictOrderedRing K]
variable {debug : Bool} {L : Layout} {G : Geom K} {axes : ℕ → Axis K} {T : BCTable K} {B : ℕ → Boundary K}

/-- opposite side -/
def opposite (loc : ℕ) : ℕ := if loc % 2 = 0 then loc + 1 else loc - 1

theorem opposite_div (loc : ℕ) : opposite loc / 2 = loc / 2 := by unfold opposite; split_ifs <;> omega

theorem opposite_mod (loc : ℕ) : opposite loc % 2 = 1 - loc % 2 := by unfold opposite; split_ifs <;> omega

/-- In a periodic direction the gap between the last point and the image of the first one is the one before the first point. -/
theorem Spec.Setup.periodic_gap (S : Setup L G axes) {f d : ℕ} (hf : f < L.dim) (hd : d < L.dim) (hp : L.periodic 0 d = true) :
    G.coord f d (L.n f d) - G.coord f d (L.n f d - 1) = G.coord f d 0 - G.coord f d (-1) := by
  have h3 := S.dim_le
  obtain ⟨A, hA, _, ⟨x, y, h1, h2, e1⟩, ⟨x', y', h1', h2', e2⟩, _⟩ :=
    C09_periodic_images (periodic := L.periodic) f d h3 hf hd (S.axesOK d hd) (by rw [S.periodic f d hf (by omega), hp])
  obtain ⟨g, _⟩ := S.geom f d (by omega) (by omega) A hA
  have hn := S.counts f d (by omega) (by omega) A hA
  rw [hn, g _ _ h1, g _ _ h2, g _ _ h1', g _ _ h2', e1, e2]
  ring

/-- The weights between two neighbours, one behind the other in direction `d`. -/
theorem lapW_symm (S : Setup L G axes) {f : ℕ} (hf : f < L.dim) {s : Stencil} (hs : Inside L.toMeshInfo f s) {d : ℕ} (hd : d < L.dim) {y : ℤ}
    (hy : 0 ≤ y ∧ y < L.n f d) (h1 : y = coordOf s d + 1 ∨ L.periodic 0 d = true ∧ coordOf s d + 1 = L.n f d ∧ y = 0) :
    (∏ e ∈ Finset.range L.dim, G.dL f e (coordOf s e)) * lapW G f (2 * d + 1) s =
      (∏ e ∈ Finset.range L.dim, G.dL f e (coordOf (along s d y) e)) * lapW G f (2 * d) (along s d y) := by
  have h3 := S.dim_le
  have hin := hs.1 d (by omega)
  have w1 := S.width_pos hf hd hin.1 hin.2
  have w2 := S.width_pos hf hd hy.1 hy.2
  have e1 : (2 * d + 1) / 2 = d := by omega
  have e2 : 2 * d / 2 = d := by omega
  have hc : coordOf (along s d y) d = y := by rw [coordOf_along _ _ _ _ (by omega) (by omega), if_pos rfl]
  have hprod : ∏ e ∈ (Finset.range L.dim).erase d, G.dL f e (coordOf (along s d y) e) =
      ∏ e ∈ (Finset.range L.dim).erase d, G.dL f e (coordOf s e) := by
    refine Finset.prod_congr rfl fun e he => ?_
    have := Finset.mem_erase.1 he
    have := Finset.mem_range.1 this.2
    rw [coordOf_along _ _ _ _ (by omega) (by omega), if_neg (Finset.mem_erase.1 he).1]
  rw [← Finset.mul_prod_erase _ _ (Finset.mem_range.2 hd), ← Finset.mul_prod_erase _ (fun e => G.dL f e (coordOf (along s d y) e)) (Finset.mem_range.2 hd),
    hprod]
  unfold lapW
  rw [e1, e2, if_neg (by omega), if_pos (by omega), hc]
  have gap : G.coord f d (coordOf s d + 1) - G.coord f d (coordOf s d) = G.coord f d y - G.coord f d (y - 1) := by
    rcases h1 with rfl | ⟨hp, hn, rfl⟩
    · rw [add_sub_cancel_right]
    · have := S.periodic_gap hf hd hp
      rw [hn, show coordOf s d = (L.n f d : ℤ) - 1 by omega, this]
      rfl
  have hpos : 0 < G.coord f d y - G.coord f d (y - 1) := by
    rw [← gap]
    exact sub_pos.2 (S.coord_lt f d hf hd _ (by omega) (by omega))
  rw [gap]
  field_simp

/-- The weights between two neighbours. -/
theorem lapW_opposite (S : Setup L G axes) {f : ℕ} (hf : f < L.dim) {s t : Stencil} (hs : Inside L.toMeshInfo f s)
    {loc : ℕ} (hloc : loc < L.dim * 2) {y : ℤ} (hy : 0 ≤ y ∧ y < L.n f (loc / 2)) (ht : t = along s (loc / 2) y)
    (hnp : L.periodic 0 (loc / 2) = false → y = coordOf s (loc / 2) + (if loc % 2 = 0 then -1 else 1))
    (hmod : y = (coordOf s (loc / 2) + (if loc % 2 = 0 then -1 else 1)) % L.n f (loc / 2)) :
    (∏ e ∈ Finset.range L.dim, G.dL f e (coordOf s e)) * lapW G f loc s =
      (∏ e ∈ Finset.range L.dim, G.dL f e (coordOf t e)) * lapW G f (opposite loc) t := by
  have h3 := S.dim_le
  have hd : loc / 2 < L.dim := by omega
  have hin := hs.1 (loc / 2) (by omega)
  have hr := nbr_range (loc := loc) (by omega) hs
  rw [emod_near (by omega) hr.1 hr.2] at hmod
  by_cases h : loc % 2 = 0
  · rw [if_pos h] at hmod hnp hr
    have ho : opposite loc = 2 * (loc / 2) + 1 := by unfold opposite; rw [if_pos h]; omega
    have hl : loc = 2 * (loc / 2) := by omega
    have hs' : s = along t (loc / 2) (coordOf s (loc / 2)) := by rw [ht, along_along, along_self _ _ (by omega)]
    have hti : Inside L.toMeshInfo f t := by rw [ht]; exact hs.along _ (by omega) y hy
    have hct : coordOf t (loc / 2) = y := by rw [ht, coordOf_along _ _ _ _ (by omega) (by omega), if_pos rfl]
    have := lapW_symm S hf hti hd hin (by
      rw [hct]
      by_cases hw : y = coordOf s (loc / 2) + -1
      · exact Or.inl (by omega)
      · right
        refine ⟨?_, ?_⟩
        · by_contra hp
          exact hw (hnp (by simpa using hp))
        · split_ifs at hmod with h1 h2 <;> omega)
    rw [← hs'] at this
    rw [ho, this]
    congr 2
  · rw [if_neg h] at hmod hnp hr
    have ho : opposite loc = 2 * (loc / 2) := by unfold opposite; rw [if_neg h]; omega
    have hl : loc = 2 * (loc / 2) + 1 := by omega
    rw [ho, ht, ← lapW_symm S hf hs hd hy]
    · congr 2
    · by_cases hw : y = coordOf s (loc / 2) + 1
      · exact Or.inl hw
      · right
        refine ⟨?_, ?_⟩
        · by_contra hp
          exact hw (hnp (by simpa using hp))
        · split_ifs at hmod with h1 h2 <;> omega

/-- The Laplacian with rows weighted by volumes is symmetric. -/
theorem laplacian_symm (S : Setup L G axes) (hG : GhostsOK debug L G B)
    (hn : ∀ f d, f < L.dim → d < L.dim → L.periodic 0 d = true → 3 ≤ L.n f d) {A : Mat K} {mods : Modifiers K}
    (hA : createLaplacian debug L G B = .ok (A, mods)) {vol : ℤ → K} (hvol : IsVolume debug L G vol) {x y : ℤ} (x0 : 0 ≤ x) (x1 : x < L.UN)
    (y0 : 0 ≤ y) (y1 : y < L.UN) : vol x * A x y = vol y * A y x := by
  have h3 := S.dim_le
  have hL := S.layout
  obtain ⟨A', m', e, hrow⟩ := laplacian_entries hL hG (fun f d hf hd hp => by have := hn f d hf hd hp; omega)
  rw [hA] at e
  cases e
  by_cases hxy : x = y
  · rw [hxy]
  obtain ⟨u, hu, rfl⟩ := col_surj hL x0 x1
  obtain ⟨v, hv, rfl⟩ := col_surj hL y0 y1
  have volu := hvol _ _ _ hu.1 hu.inside (col_inside hL (Or.inl hu.1) debug hu.inside).1
  have volv := hvol _ _ _ hv.1 hv.inside (col_inside hL (Or.inl hv.1) debug hv.inside).1
  -- a neighbour of `u` that is `v`
  have nb : ∀ {u v : Unknown}, IsUnknown L u → IsUnknown L v → ∀ {loc}, loc < L.dim * 2 → col L u.comp (nbr loc u.st) = col L v.comp v.st →
      v.comp = u.comp ∧ ∃ y : ℤ, (0 ≤ y ∧ y < L.n u.comp (loc / 2)) ∧ v.st = along u.st (loc / 2) y ∧
        (L.periodic 0 (loc / 2) = false → y = coordOf u.st (loc / 2) + (if loc % 2 = 0 then -1 else 1)) ∧
        y = (coordOf u.st (loc / 2) + (if loc % 2 = 0 then -1 else 1)) % L.n u.comp (loc / 2) := by
    intro u v hu hv loc hloc he
    have hv0 := (col_inside hL (Or.inl hv.1) false hv.inside).2.1
    obtain ⟨y, hy, hc, h1, h2⟩ := col_nbr hL hu.1 hu.inside hloc (by omega)
    obtain ⟨e1, e2⟩ := col_inj hL hv.1 hu.1 hv.inside (hu.inside.along _ (by omega) y hy) (he.symm.trans hc)
    exact ⟨e1, y, hy, e2, h1, h2⟩
  -- then `u` is the opposite neighbour of `v`
  have back : ∀ {u v : Unknown}, IsUnknown L u → IsUnknown L v → ∀ {loc}, loc < L.dim * 2 → col L u.comp (nbr loc u.st) = col L v.comp v.st →
      col L v.comp (nbr (opposite loc) v.st) = col L u.comp u.st := by
    intro u v hu hv loc hloc he
    obtain ⟨e1, y, hy, e2, hnp, hmod⟩ := nb hu hv hloc he
    have hr := nbr_range (loc := loc) (by omega) hu.inside
    have hin := hu.inside.1 (loc / 2) (by omega)
    rw [emod_near (by omega) hr.1 hr.2] at hmod
    unfold nbr
    rw [opposite_div, opposite_mod, e1]
    have hct : coordOf v.st (loc / 2) = y := by rw [e2, coordOf_along _ _ _ _ (by omega) (by omega), if_pos rfl]
    rw [hct, e2, along_along]
    have hself : col L u.comp u.st = col L u.comp (along u.st (loc / 2) (coordOf u.st (loc / 2))) := by rw [along_self _ _ (by omega)]
    rw [hself]
    by_cases hper : L.periodic 0 (loc / 2) = true
    · by_cases h : loc % 2 = 0
      · rw [if_pos h] at hmod hr
        rw [h, if_neg (by omega)]
        by_cases hw : coordOf u.st (loc / 2) = 0
        · have hyn : y + 1 = L.n u.comp (loc / 2) := by split_ifs at hmod <;> omega
          rw [hyn, (col_periodic hL (Or.inl hu.1) false hu.inside (by omega) hper (Or.inr rfl)).2.1, Int.emod_self, hw]
        · congr 2; split_ifs at hmod <;> omega
      · rw [if_neg h] at hmod hr
        rw [show 1 - loc % 2 = 0 by omega, if_pos rfl]
        by_cases hw : coordOf u.st (loc / 2) + 1 = L.n u.comp (loc / 2)
        · have hyn : y = 0 := by split_ifs at hmod <;> omega
          rw [hyn, zero_add, (col_periodic hL (Or.inl hu.1) false hu.inside (by omega) hper (Or.inl rfl)).2.1, emod_near (by omega) (by omega) (by omega),
            if_pos rfl]
          congr 2; omega
        · congr 2; split_ifs at hmod <;> omega
    · have := hnp (by simpa using hper)
      congr 2
      by_cases h : loc % 2 = 0
      · rw [if_pos h] at this; rw [if_neg (by omega)]; omega
      · rw [if_neg h] at this; rw [if_pos (by omega)]; omega
  -- sides are unique
  have uniq : ∀ {u v : Unknown}, IsUnknown L u → IsUnknown L v → col L u.comp u.st ≠ col L v.comp v.st → ∀ {loc loc'}, loc < L.dim * 2 →
      loc' < L.dim * 2 → col L u.comp (nbr loc u.st) = col L v.comp v.st → col L u.comp (nbr loc' u.st) = col L v.comp v.st → loc = loc' := by
    intro u v hu hv hne loc loc' hl hl' h1 h2
    obtain ⟨e1, y, hy, e2, hnp, hmod⟩ := nb hu hv hl h1
    obtain ⟨_, y', hy', e2', hnp', hmod'⟩ := nb hu hv hl' h2
    have hne' : y ≠ coordOf u.st (loc / 2) := by
      intro h
      apply hne
      rw [e1, e2, h, along_self _ _ (by omega)]
    have hd : loc / 2 = loc' / 2 := by
      by_contra hd
      apply hne'
      have := congrArg (fun s => coordOf s (loc / 2)) (e2.symm.trans e2')
      simp only [coordOf_along _ _ _ _ (show loc / 2 < 3 by omega) (show loc / 2 < 3 by omega),
        coordOf_along _ _ _ _ (show loc' / 2 < 3 by omega) (show loc / 2 < 3 by omega), if_true, if_neg hd] at this
      exact this
    have hyy : y = y' := by
      have := congrArg (fun s => coordOf s (loc / 2)) (e2.symm.trans e2')
      simp only [coordOf_along _ _ _ _ (show loc / 2 < 3 by omega) (show loc / 2 < 3 by omega),
        coordOf_along _ _ _ _ (show loc' / 2 < 3 by omega) (show loc / 2 < 3 by omega), if_true, if_pos hd] at this
      exact this
    have hr := nbr_range (loc := loc) (by omega) hu.inside
    have hr' := nbr_range (loc := loc') (by omega) hu.inside
    have hin := hu.inside.1 (loc / 2) (by omega)
    rw [← hd] at hnp' hmod' hr' hy'
    rw [emod_near (by omega) hr.1 hr.2] at hmod
    rw [emod_near (by omega) hr'.1 hr'.2] at hmod'
    subst hyy
    by_contra hll
    have hpar : loc % 2 ≠ loc' % 2 := by omega
    by_cases hper : L.periodic 0 (loc / 2) = true
    · have := hn u.comp (loc / 2) hu.1 (by omega) hper
      rcases Nat.mod_two_eq_zero_or_one loc with h | h <;> rcases Nat.mod_two_eq_zero_or_one loc' with h' | h' <;>
        simp only [h, h', if_true, one_ne_zero, if_false] at hmod hmod' <;> split_ifs at hmod hmod' <;> omega
    · have a := hnp (by simpa using hper)
      have b := hnp' (by simpa using hper)
      split_ifs at a b <;> omega
  have hne : col L u.comp u.st ≠ col L v.comp v.st := hxy
  rcases (hrow u hu).2 _ y0 (Ne.symm hne) with ⟨no, z⟩ | ⟨loc, hl, hc, e⟩
  · rcases (hrow v hv).2 _ x0 hne with ⟨no', z'⟩ | ⟨loc, hl, hc, e⟩
    · rw [z, z', mul_zero, mul_zero]
    · exact absurd (back hv hu hl hc) (no _ (by unfold opposite; split_ifs <;> omega))
  · rcases (hrow v hv).2 _ x0 hne with ⟨no', z'⟩ | ⟨loc', hl', hc', e'⟩
    · exact absurd (back hu hv hl hc) (no' _ (by unfold opposite; split_ifs <;> omega))
    · have hloc : loc' = opposite loc := uniq hv hu (Ne.symm hne) hl' (by unfold opposite; split_ifs <;> omega) hc' (back hu hv hl hc)
      obtain ⟨e1, y, hy, e2, hnp, hmod⟩ := nb hu hv hl hc
      rw [e, e', hloc, volu, volv, e1]
      exact lapW_opposite S hu.1 hu.inside hl hy e2 hnp hmod

end PetIBM
