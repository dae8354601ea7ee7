/-
Work done by the convective terms.
-/
import Verif.Lemmas.Krylov
import Verif.Props.Convection

set_option linter.unusedSectionVars false

namespace PetIBM

open Spec

variable {K : Type} [Field K] [LinearOrder K] [IsStrictOrderedRing K]
variable {L : Layout} {G : Geom K} {axes : ℕ → Axis K} {debug : Bool} {T : BCTable K} {B : ℕ → Boundary K}

/-- On uniform meshes the area of a face depends on its direction only. -/
theorem uniform_area (S : Setup L G axes) (hu : UniformMesh L.dim axes) :
    ∃ a : ℕ → K, ∀ f d s, f < L.dim → d < L.dim → (∀ e, e < 3 → e ≠ d → 0 ≤ coordOf s e ∧ coordOf s e < L.n f e) →
      faceArea G f d s = a d := by
  have h3 := S.dim_le
  choose! h hh using hu
  obtain ⟨H, hH⟩ : ∃ H : ℕ → K, ∀ e, H e = if e < L.dim then h e else 1 := ⟨_, fun _ => rfl⟩
  refine ⟨fun d => ((List.range 3).filter (· ≠ d)).foldr (fun e acc => H e * acc) 1, fun f d s hf hd hs => ?_⟩
  have key : ∀ e, e < 3 → e ≠ d → G.dL f e (coordOf s e) = H e := by
    intro e he hne
    rw [hH]
    have hr := hs e he hne
    split_ifs with hed
    · exact S.dL_uniform hf hed hr.1 hr.2 (hh e hed)
    · obtain ⟨n1, w1⟩ := S.flat_width hf (not_lt.1 hed) he
      rw [n1] at hr
      rw [show coordOf s e = 0 by omega, w1]
  unfold faceArea
  have : d < 3 := by omega
  interval_cases d
  · simp [List.range_succ, key 1 (by omega) (by omega), key 2 (by omega) (by omega)]
  · simp [List.range_succ, key 0 (by omega) (by omega), key 2 (by omega) (by omega)]
  · simp [List.range_succ, key 0 (by omega) (by omega), key 1 (by omega) (by omega)]

theorem shift_along_same {s : Stencil} {d : ℕ} (hd : d < 3) (x y : ℤ) : shift (along s d x) d y = along s d (x + y) := by
  unfold shift
  rw [along_along, coordOf_along _ _ _ _ hd hd, if_pos rfl]

theorem shift_shift {s : Stencil} {d : ℕ} (hd : d < 3) (x y : ℤ) : shift (shift s d x) d y = shift s d (x + y) := by
  unfold shift
  rw [along_along, coordOf_along _ _ _ _ hd hd, if_pos rfl, add_assoc]

theorem shift_zero {s : Stencil} {d : ℕ} (hd : d < 3) : shift s d 0 = s := by
  unfold shift along coordOf
  interval_cases d <;> simp

theorem shift_comm {s : Stencil} {f d : ℕ} (hf : f < 3) (hd : d < 3) (hne : d ≠ f) (x y : ℤ) :
    shift (shift s d x) f y = shift (shift s f y) d x := by
  unfold shift along coordOf
  interval_cases d <;> interval_cases f <;> simp_all

/-- net flux with given areas -/
def netWith (dim : ℕ) (a : ℕ → K) (V : ℕ → Stencil → K) (s : Stencil) : K :=
  ∑ d ∈ Finset.range dim, a d * (V d s - V d (shift s d (-1)))

theorem Spec.Filled.wraps {q : ℤ → K} {V : ℕ → Stencil → K} (hV : Filled debug L B q V) (h3 : L.dim ≤ 3) {g d : ℕ} (hg : g < L.dim) (hd : d < L.dim)
    (hp : L.periodic 0 d = true) (t : Stencil) (x : ℤ) : V g (along t d x) = V g (along t d (x % L.n g d)) := by
  have := hV.periodic g (along t d x) d hg hd hp
  rw [this, along_along, coordOf_along _ _ _ _ (by omega) (by omega), if_pos rfl]

/-- All components have the same number of lines in a periodic direction. -/
theorem Spec.Setup.n_periodic (S : Setup L G axes) {g d : ℕ} (hg : g < L.dim) (hd : d < L.dim) (hp : L.periodic 0 d = true) : L.n g d = L.n 3 d := by
  have h3 := S.dim_le
  by_cases hdg : d = g
  · subst hdg; exact (S.staggered d hd).2.1 hp
  · exact (S.staggered g hg).1 d (by omega) hdg

theorem netWith_wraps (S : Setup L G axes) {q : ℤ → K} {V : ℕ → Stencil → K} (hV : Filled debug L B q V) (a : ℕ → K) {f : ℕ} (hf : f < L.dim)
    (hp : L.periodic 0 f = true) (t : Stencil) (x : ℤ) : netWith L.dim a V (along t f x) = netWith L.dim a V (along t f (x % L.n 3 f)) := by
  have h3 := S.dim_le
  unfold netWith
  refine Finset.sum_congr rfl fun d hd => ?_
  have hd := Finset.mem_range.1 hd
  have w : ∀ (t : Stencil) (x : ℤ), V d (along t f x) = V d (along t f (x % L.n 3 f)) := by
    intro t x
    have := hV.wraps h3 hd hf hp t x
    rwa [S.n_periodic hd hf hp] at this
  by_cases hdf : d = f
  · subst hdf
    rw [shift_along_same (by omega), shift_along_same (by omega), w t x, w t (x + -1), w t (x % _ + -1)]
    congr 4
    rw [Int.emod_add_emod]
  · rw [shift_along (by omega) (by omega) (Ne.symm hdf), shift_along (by omega) (by omega) (Ne.symm hdf), w t x, w _ x]

/-- The convective term of a component does no work on a discretely divergence-free flow with closed walls on a uniform mesh. -/
theorem convective_energy (S : Setup L G axes) (hpos : ∀ f d, f < L.dim → d < 3 → 0 < L.n f d) (hu : UniformMesh L.dim axes) {q : ℤ → K}
    {V : ℕ → Stencil → K} (hV : Filled debug L B q V)
    (hwall : ∀ d t, d < L.dim → L.periodic 0 d = false → t.c = 0 → (coordOf t d = -1 ∨ coordOf t d = L.n d d) →
      (∀ e, e < 3 → e ≠ d → 0 ≤ coordOf t e ∧ coordOf t e < L.n d e ∨ (e < L.dim ∧ L.periodic 0 e = true)) → V d t = 0)
    (hdiv : ∀ s, Inside L.toMeshInfo 3 s → netFlux L.dim G s V = 0) {f : ℕ} (hf : f < L.dim) :
    gridSum L.toMeshInfo f (fun s => volume G f s * (V f s * convective L.dim G V f s)) = 0 := by
  have h3 := S.dim_le
  obtain ⟨a, ha⟩ := uniform_area S hu
  -- no net flux out of the pressure cells
  have net0 : ∀ s, Inside L.toMeshInfo 3 s → netWith L.dim a V s = 0 := by
    intro s hs
    rw [← hdiv s hs]
    unfold netWith netFlux
    refine Finset.sum_congr rfl fun d hd => ?_
    have hd := Finset.mem_range.1 hd
    rw [ha d d s hd hd, mul_sub]
    intro e he hne
    rw [(S.staggered d hd).1 e he hne]
    exact hs.1 e he
  have inP : ∀ s, Inside L.toMeshInfo f s → Inside L.toMeshInfo 3 s := by
    intro s hs
    refine ⟨fun d hd => ?_, hs.2⟩
    have := hs.1 d hd
    by_cases hdf : d = f
    · subst hdf
      have := S.n_le d d hf hd
      omega
    · rw [← (S.staggered f hf).1 d hd hdf]; exact this
  have net1 : ∀ s, Inside L.toMeshInfo f s → netWith L.dim a V (shift s f 1) = 0 := by
    intro s hs
    have hx := hs.1 f (by omega)
    have hin : ∀ x : ℤ, 0 ≤ x → x < L.n 3 f → Inside L.toMeshInfo 3 (along s f x) := by
      intro x x0 x1
      refine ⟨fun d hd => ?_, by rw [along_c]; exact hs.2⟩
      rw [coordOf_along _ _ _ _ (by omega) hd]
      split_ifs with h
      · subst h; exact ⟨x0, x1⟩
      · exact (inP s hs).1 d hd
    cases hp : L.periodic 0 f with
    | false =>
      have := (S.staggered f hf).2.2 hp
      exact net0 _ (hin _ (by omega) (by omega))
    | true =>
      have := (S.staggered f hf).2.1 hp
      unfold shift
      rw [netWith_wraps S hV a hf hp]
      exact net0 _ (hin _ (Int.emod_nonneg _ (by omega)) (Int.emod_lt_of_pos _ (by omega)))
  let F : ℕ → Stencil → K := fun d s => (V d s + V d (shift s f 1)) / 2
  let Φ : ℕ → Stencil → K := fun d s => V f s * V f (shift s d 1) * F d s
  have back : ∀ d s, d < 3 → shift (shift s d (-1)) d 1 = s := by
    intro d s hd
    rw [shift_shift hd]; exact shift_zero hd
  have point : ∀ s, Inside L.toMeshInfo f s → volume G f s * (V f s * convective L.dim G V f s) =
      ∑ d ∈ Finset.range L.dim, a d / 2 * (Φ d s - Φ d (shift s d (-1))) := by
    intro s hs
    have e1 : volume G f s * (V f s * convective L.dim G V f s) =
        ∑ d ∈ Finset.range L.dim, a d * (V f s * (momentumFlux V f d s - momentumFlux V f d (shift s d (-1)))) := by
      unfold convective
      rw [Finset.mul_sum, Finset.mul_sum]
      refine Finset.sum_congr rfl fun d hd => ?_
      have hd := Finset.mem_range.1 hd
      have hx := hs.1 d (by omega)
      have hw := (S.width_pos hf hd hx.1 hx.2).ne'
      rw [volume_faceArea G (show d < 3 by omega), ha f d s hf hd fun e he _ => hs.1 e he]
      field_simp
    have e2 : ∑ d ∈ Finset.range L.dim, a d * (F d s - F d (shift s d (-1))) = 0 := by
      have : ∑ d ∈ Finset.range L.dim, a d * (F d s - F d (shift s d (-1))) =
          (netWith L.dim a V s + netWith L.dim a V (shift s f 1)) / 2 := by
        unfold netWith
        rw [← Finset.sum_add_distrib, Finset.sum_div]
        refine Finset.sum_congr rfl fun d hd => ?_
        have hd := Finset.mem_range.1 hd
        simp only [F]
        by_cases hdf : d = f
        · subst hdf
          rw [shift_shift (by omega), shift_shift (by omega)]
          norm_num
          rw [shift_zero (by omega)]
          ring
        · rw [shift_comm (by omega) (by omega) hdf]
          ring
      rw [this, net0 s (inP s hs), net1 s hs, add_zero, zero_div]
    have e3 : ∑ d ∈ Finset.range L.dim, a d * (V f s * (momentumFlux V f d s - momentumFlux V f d (shift s d (-1)))) =
        ∑ d ∈ Finset.range L.dim, a d / 2 * (Φ d s - Φ d (shift s d (-1))) +
          V f s ^ 2 / 2 * ∑ d ∈ Finset.range L.dim, a d * (F d s - F d (shift s d (-1))) := by
      rw [Finset.mul_sum, ← Finset.sum_add_distrib]
      refine Finset.sum_congr rfl fun d hd => ?_
      have hd := Finset.mem_range.1 hd
      simp only [momentumFlux, Φ, F]
      rw [back d s (by omega)]
      ring
    rw [e1, e3, e2, mul_zero, add_zero]
  rw [gridSum_congr point, gridSum_finset]
  refine Finset.sum_eq_zero fun d hd => ?_
  have hd := Finset.mem_range.1 hd
  rw [gridSum_lines (show d < 3 by omega) (hpos f d hf (by omega))]
  have hline : ∀ s : Stencil, ∑ x ∈ Finset.range (L.n f d), a d / 2 * (Φ d (along s d x) - Φ d (shift (along s d x) d (-1))) =
      a d / 2 * (Φ d (along s d (L.n f d - 1)) - Φ d (along s d (-1))) := by
    intro s
    rw [← sum_telescope (L.n f d) fun x => Φ d (along s d x), Finset.mul_sum]
    refine Finset.sum_congr rfl fun x _ => ?_
    rw [shift_along_same (by omega)]
    rfl
  simp only [hline]
  unfold layerSum
  refine (gridSum_congr ?_).trans gridSum_zero
  intro s hs
  have key : Φ d (along s d (L.n f d - 1)) - Φ d (along s d (-1)) = 0 := by
    have hn := hpos f d hf (by omega)
    cases hp : L.periodic 0 d with
    | true =>
      have hfd : L.n f d = L.n d d := by rw [S.n_periodic hf hd hp, S.n_periodic hd hd hp]
      have w : ∀ (g : ℕ) (t : Stencil) (x y : ℤ), g < L.dim → x % L.n f d = y % L.n f d → V g (along t d x) = V g (along t d y) := by
        intro g t x y hg hxy
        have e : L.n g d = L.n f d := by rw [S.n_periodic hf hd hp, S.n_periodic hg hd hp]
        rw [hV.wraps h3 hg hd hp t x, hV.wraps h3 hg hd hp t y, e, hxy]
      have m1 : ((L.n f d : ℤ) - 1) % L.n f d = (-1) % L.n f d := by
        rw [show (L.n f d : ℤ) - 1 = -1 + L.n f d by ring, Int.add_emod_right]
      have m2 : ((L.n f d : ℤ) - 1 + 1) % L.n f d = (-1 + 1) % L.n f d := by
        rw [show (L.n f d : ℤ) - 1 + 1 = (-1 + 1) + L.n f d by ring, Int.add_emod_right]
      rw [sub_eq_zero]
      simp only [Φ, F]
      rw [shift_along_same (by omega), shift_along_same (by omega), w f s _ _ hf m1, w f s _ _ hf m2, w d s _ _ hd m1]
      by_cases hdf : d = f
      · subst hdf
        rw [shift_along_same (by omega), shift_along_same (by omega), w d s _ _ hd m2]
      · rw [shift_along (by omega) (by omega) hdf, shift_along (by omega) (by omega) hdf, w d _ _ _ hd m1]
    | false =>
      by_cases hdf : d = f
      · subst hdf
        have z : ∀ x : ℤ, (x = -1 ∨ x = L.n d d) → V d (along s d x) = 0 := by
          intro x hx
          refine hwall d _ hd hp (by rw [along_c]; exact hs.2) ?_ ?_
          · rw [coordOf_along _ _ _ _ (by omega) (by omega), if_pos rfl]; exact hx
          · intro e he hne
            rw [coordOf_along _ _ _ _ (by omega) he, if_neg hne]
            exact Or.inl (hs.1 e he)
        simp only [Φ]
        rw [shift_along_same (by omega), shift_along_same (by omega), z (-1) (Or.inl rfl), sub_add_cancel, z (L.n d d) (Or.inr rfl)]
        ring
      · have e1 := (S.staggered d hd).2.2 hp
        have e2 := (S.staggered f hf).1 d (by omega) hdf
        have e4 := (S.staggered d hd).1 f (by omega) (Ne.symm hdf)
        have z : ∀ x y : ℤ, (x = -1 ∨ x = L.n d d) → (y = 0 ∨ y = 1) → V d (along (shift s f y) d x) = 0 := by
          intro x y hx hy
          refine hwall d _ hd hp (by unfold shift; rw [along_c, along_c]; exact hs.2) ?_ ?_
          · rw [coordOf_along _ _ _ _ (by omega) (by omega), if_pos rfl]; exact hx
          · intro e he hne
            rw [coordOf_along _ _ _ _ (by omega) he, if_neg hne]
            unfold shift
            rw [coordOf_along _ _ _ _ (by omega) he]
            have hs' := hs.1 e he
            split_ifs with hef
            · subst hef
              cases hpf : L.periodic 0 e with
              | true => exact Or.inr ⟨hf, rfl⟩
              | false =>
                have := (S.staggered e hf).2.2 hpf
                left; omega
            · left
              rw [(S.staggered d hd).1 e he hne, ← (S.staggered f hf).1 e he hef]
              exact hs'
        have z0 := fun x hx => z x 0 hx (Or.inl rfl)
        simp only [shift_zero (show f < 3 by omega)] at z0
        simp only [Φ, F]
        rw [shift_along (by omega) (by omega) hdf, shift_along (by omega) (by omega) hdf, z0 (-1) (Or.inl rfl),
          z0 (L.n f d - 1) (Or.inr (by omega)), z (-1) 1 (Or.inl rfl) (Or.inr rfl), z (L.n f d - 1) 1 (Or.inr (by omega)) (Or.inr rfl)]
        ring
  beta_reduce
  rw [key, mul_zero, ite_self]

end PetIBM
