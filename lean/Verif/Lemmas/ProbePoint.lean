/-
Interpolation at a probe point.
-/
import Verif.Lemmas.Probe
import Mathlib.Tactic.FieldSimp
import Mathlib.Tactic.LinearCombination

set_option linter.unusedSectionVars false

namespace PetIBM

open Spec Layout

variable {K : Type} [Field K] [LinearOrder K] [IsStrictOrderedRing K]
variable {L : Layout} {G : Geom K} {axes : ℕ → Axis K}

/-- values of the grid points in a local vector -/
theorem read_inside (hL : LayoutOK L) {f r : ℕ} {s : Stencil} (hb : InBox L f r s) (hs : Inside L.toMeshInfo f s) {idx : ℤ}
    (hi : L.getPackedGlobalIndex false f s = .ok idx) (q v : ℤ → K) :
    readLocal L f r (scatterLocal L f r q v) s.k s.j s.i = .ok (q idx) := by
  obtain ⟨l, hl, _, hsl⟩ := localIndex_ok hL.dim hb
  obtain ⟨k, j, i, c⟩ := s
  have hc : c = 0 := hs.2
  subst hc
  have h0 := hs.1 0 (by omega)
  have h1 := hs.1 1 (by omega)
  have h2 := hs.1 2 (by omega)
  simp only [coordOf, if_true, one_ne_zero, if_false, OfNat.ofNat_ne_zero, OfNat.ofNat_ne_one] at h0 h1 h2
  have hw : wrapPeriodic L f ⟨k, j, i, 0⟩ = ⟨k, j, i, 0⟩ := by
    unfold wrapPeriodic wrapCoord
    simp only [Stencil.mk.injEq, and_true]
    refine ⟨?_, ?_, ?_⟩ <;> split_ifs <;> first | rfl | (apply Int.emod_eq_of_lt <;> omega)
  unfold readLocal
  simp only [hl]
  congr 1
  unfold scatterLocal
  simp only [hsl, hw]
  rw [if_pos ⟨h0, h1, h2⟩, hi]

theorem readLocal_ok (hL : LayoutOK L) {f r : ℕ} {s : Stencil} (hb : InBox L f r s) (v : ℤ → K) :
    ∃ y, readLocal L f r v s.k s.j s.i = .ok y := by
  obtain ⟨l, hl, _, hsl⟩ := localIndex_ok hL.dim hb
  obtain ⟨k, j, i, c⟩ := s
  have hc : c = 0 := hb.2.2
  subst hc
  unfold readLocal
  simp only [hl]
  exact ⟨_, rfl⟩

/-- box `b` of the point along axis `d`: lines `t-1` and `t` and weight `w` of the second one -/
structure BoxSpec (L : Layout) (G : Geom K) (f r d : ℕ) (x : K) (b : BoxDir K) (t : ℕ) (w : K) : Prop where
  idx : b.idx = (t : ℤ) - 1
  frac : b.frac = w
  pos : 0 ≤ 1 - w ∧ 0 ≤ w
  mix : x = (1 - w) * G.coord f d ((t : ℤ) - 1) + w * G.coord f d t
  left : 1 - w ≠ 0 → 0 < t ∧ t ≤ L.n f d ∧ NextTo L.toMeshInfo G f d x ((t : ℤ) - 1)
  right : w ≠ 0 → t < L.n f d ∧ NextTo L.toMeshInfo G f d x t
  range : (L.bg f r d : ℤ) ≤ t ∧ (t : ℤ) ≤ L.ed f r d

theorem Lines.range {f r d : ℕ} {lo : ℤ} {hi : ℕ} (H : Lines L G axes f d lo hi) {x : K} {t : ℕ} (tlo : lo ≤ (t : ℤ) - 1) (thi : t ≤ hi)
    (hl : G.coord f d ((t : ℤ) - 1) < x) (hr : x ≤ G.coord f d t) (hed : L.ed f r d ≤ hi)
    (h1 : G.coord f d (L.bg f r d) ≤ x) (h2 : x < G.coord f d (L.ed f r d)) :
    (L.bg f r d : ℤ) ≤ t ∧ (t : ℤ) ≤ L.ed f r d := by
  have hlo := H.low
  have hbe := bg_le_ed L f r d
  constructor
  · by_contra h
    rw [not_le] at h
    have := H.lt _ _ (by omega) (by omega) h
    exact absurd (lt_of_le_of_lt hr this) (not_lt.2 h1)
  · by_contra h
    rw [not_le] at h
    rcases eq_or_lt_of_le (show (L.ed f r d : ℤ) ≤ (t : ℤ) - 1 by omega) with e | e
    · rw [← e] at hl; exact absurd hl (not_lt.2 h2.le)
    · have := H.lt _ _ (by omega) (by omega) e
      exact absurd (this.trans hl) (not_lt.2 h2.le)

theorem weights {l r x : K} (h1 : l < x) (h2 : x ≤ r) :
    let w := (x - l) / (r - l)
    (0 ≤ 1 - w ∧ 0 ≤ w) ∧ x = (1 - w) * l + w * r ∧ (1 - w ≠ 0 → x < r) := by
  intro w
  have hp : 0 < r - l := by linarith
  have hw : w * (r - l) = x - l := by simp only [w]; field_simp
  refine ⟨⟨?_, ?_⟩, ?_, ?_⟩
  · rw [sub_nonneg, div_le_one hp]; linarith
  · exact div_nonneg (by linarith) hp.le
  · linear_combination -hw
  · intro h
    rcases lt_or_eq_of_le h2 with h' | h'
    · exact h'
    · exfalso
      apply h
      simp only [w, h']
      rw [div_self hp.ne', sub_self]

theorem Lines.boxSpec {f r d : ℕ} {lo : ℤ} {hi : ℕ} (H : Lines L G axes f d lo hi) {x : K} (hx : InLines G f d lo hi x)
    (hb : x ≤ G.coord f d ((L.n f d : ℤ) - 1)) (hed : L.ed f r d ≤ hi) (h1 : G.coord f d (L.bg f r d) ≤ x)
    (h2 : x < G.coord f d (L.ed f r d)) :
    ∃ b t w, boxDir L axes f d x = .ok b ∧ BoxSpec L G f r d x b t w := by
  have hlo := H.low
  have hbe := bg_le_ed L f r d
  obtain ⟨t, thi, tlo, hbox, hl, hr, h0, hlast⟩ := H.boxDir_eq hx
  have htn := hlast hb
  obtain ⟨hw1, hw2, hw3⟩ := weights hl hr
  refine ⟨_, t, (x - G.coord f d ((t : ℤ) - 1)) / (G.coord f d t - G.coord f d ((t : ℤ) - 1)), hbox, rfl, rfl, hw1, hw2, ?_, ?_, ?_⟩
  · intro hw
    have hlt := hw3 hw
    have hpos : 0 < t := by
      by_contra h
      have e : t = 0 := by omega
      subst e
      have := h0 rfl
      simp only [Nat.cast_zero] at hlt
      exact absurd this hlt.ne
    refine ⟨hpos, by omega, Or.inl ⟨hl.le, fun u hu1 hu2 hu => ?_⟩⟩
    by_contra hc
    rw [not_le] at hc
    have : (t : ℤ) ≤ u := by
      by_contra h'
      rcases eq_or_lt_of_le (show u ≤ (t : ℤ) - 1 by omega) with e | e
      · rw [e] at hc; exact lt_irrefl _ hc
      · exact absurd (H.inside _ _ hu1 (by omega) e) (not_lt.2 hc.le)
    rcases eq_or_lt_of_le this with e | e
    · rw [← e] at hu; exact absurd hlt (not_lt.2 hu)
    · have := H.inside _ _ (by omega) hu2 e
      exact absurd (hlt.trans this) (not_lt.2 hu)
  · intro _
    refine ⟨htn, Or.inr ⟨hr, fun u hu1 hu2 hu => ?_⟩⟩
    by_contra hc
    rw [not_le] at hc
    have : u ≤ (t : ℤ) - 1 := by
      by_contra h'
      rcases eq_or_lt_of_le (show (t : ℤ) ≤ u by omega) with e | e
      · rw [← e] at hc; exact lt_irrefl _ hc
      · exact absurd (H.inside _ _ (by omega) hu2 e) (not_lt.2 hc.le)
    rcases eq_or_lt_of_le this with e | e
    · rw [e] at hu; exact absurd hl (not_lt.2 hu)
    · have := H.inside _ _ hu1 (by omega) e
      exact absurd (this.trans hl) (not_lt.2 hu)
  · exact H.range tlo thi hl hr hed h1 h2

theorem Spec.Setup.flat_coord (S : Setup L G axes) {f : ℕ} (hf : f < L.dim ∨ f = 3) (h : L.dim = 2) : G.coord f 2 0 = 0 := by
  have hA : fieldAxis L.dim axes L.periodic f 2 = .ok flatAxis := by
    unfold fieldAxis
    split_ifs <;> first | rfl | omega
  exact (S.geom f 2 (by omega) (by omega) _ hA).1 0 0 (by rfl)

/-- a corner of the box of the point -/
theorem corner (S : Setup L G axes) {f r : ℕ} (hf : f < L.dim ∨ f = 3) {x : ℕ → K} {b : ℕ → BoxDir K} {t : ℕ → ℕ} {w : ℕ → K}
    (hB : ∀ d, d < L.dim → BoxSpec L G f r d (x d) (b d) (t d) (w d)) {s : Stencil} {ω : ℕ → K} (hk : L.dim ≤ 2 → s.k = 0) (hc : s.c = 0)
    (hs : ∀ d, d < L.dim → (coordOf s d = (t d : ℤ) - 1 ∧ ω d = 1 - w d) ∨ (coordOf s d = t d ∧ ω d = w d)) (q v : ℤ → K) :
    ∃ a, readLocal L f r (scatterLocal L f r q v) s.k s.j s.i = .ok a ∧
      ((∀ d, d < L.dim → ω d ≠ 0) → ∃ idx, Surrounds L.toMeshInfo G f x s ∧ L.getPackedGlobalIndex false f s = .ok idx ∧ a = q idx) := by
  have h3 := S.dim_le
  have hbox : InBox L f r s := by
    refine ⟨fun d hd => ?_, hk, hc⟩
    have := (hB d hd).range
    rcases hs d hd with h | h <;> rw [h.1] <;> omega
  by_cases hω : ∀ d, d < L.dim → ω d ≠ 0
  · have hin : Inside L.toMeshInfo f s := by
      refine ⟨fun d hd => ?_, hc⟩
      by_cases hdd : d < L.dim
      · have hw := hω d hdd
        rcases hs d hdd with h | h
        · rw [h.2] at hw
          obtain ⟨h1, h2, _⟩ := (hB d hdd).left hw
          rw [h.1]; omega
        · rw [h.2] at hw
          obtain ⟨h1, _⟩ := (hB d hdd).right hw
          rw [h.1]; omega
      · have h2 : L.dim = 2 := by rcases S.layout.dim with h | h <;> omega
        have hn := S.layout.flat h2 f (by omega)
        have e : d = 2 := by omega
        subst e
        have := hk h2.le
        simp only [coordOf, OfNat.ofNat_ne_zero, OfNat.ofNat_ne_one, if_false]
        omega
    have hsur : Surrounds L.toMeshInfo G f x s := by
      refine ⟨hin, fun d hd => ?_⟩
      have hw := hω d hd
      rcases hs d hd with h | h
      · rw [h.2] at hw; rw [h.1]; exact ((hB d hd).left hw).2.2
      · rw [h.2] at hw; rw [h.1]; exact ((hB d hd).right hw).2
    obtain ⟨k, j, i, c⟩ := s
    have i0 := hin.1 0 (by omega)
    have i1 := hin.1 1 (by omega)
    have i2 := hin.1 2 (by omega)
    simp only [coordOf, if_true, one_ne_zero, if_false, OfNat.ofNat_ne_zero, OfNat.ofNat_ne_one] at i0 i1 i2
    obtain ⟨_, _, idx, hidx, _⟩ := C05_inside_stays_inside false L S.layout f hf i.toNat j.toNat k.toNat 0 (by omega) (by omega) (by omega)
    rw [Int.toNat_of_nonneg i0.1, Int.toNat_of_nonneg i1.1, Int.toNat_of_nonneg i2.1] at hidx
    have hc' : c = 0 := hc
    subst hc'
    exact ⟨q idx, read_inside S.layout hbox hin hidx q v, fun _ => ⟨idx, hsur, hidx, rfl⟩⟩
  · obtain ⟨y, hy⟩ := readLocal_ok S.layout hbox (scatterLocal L f r q v)
    exact ⟨y, hy, fun h => absurd h hω⟩

theorem bound_term {W a lo hi : K} (hW : 0 ≤ W) (h : W ≠ 0 → lo ≤ a ∧ a ≤ hi) : W * lo ≤ W * a ∧ W * a ≤ W * hi := by
  by_cases h0 : W = 0
  · simp [h0]
  · exact ⟨mul_le_mul_of_nonneg_left (h h0).1 hW, mul_le_mul_of_nonneg_left (h h0).2 hW⟩

theorem exact_term {W a g : K} (h : W ≠ 0 → a = g) : W * a = W * g := by
  by_cases h0 : W = 0
  · simp [h0]
  · rw [h h0]

theorem interpolate_2d (S : Setup L G axes) {f r : ℕ} (hf : f < L.dim ∨ f = 3) (h2 : L.dim = 2) {x : ℕ → K} (hz : x 2 = 0)
    {b : ℕ → BoxDir K} {t : ℕ → ℕ} {w : ℕ → K}
    (hB : ∀ d, d < L.dim → BoxSpec L G f r d (x d) (b d) (t d) (w d)) (q v : ℤ → K) :
    ∃ y, interpolate L f r (scatterLocal L f r q v) [b 0, b 1] = .ok y ∧ Interpolates L G f x q y := by
  have B0 := hB 0 (by omega)
  have B1 := hB 1 (by omega)
  have hd : ∀ d, d < L.dim → d = 0 ∨ d = 1 := by omega
  -- the four corners
  have C : ∀ (i j : ℤ) (W0 W1 : K), ((i = (t 0 : ℤ) - 1 ∧ W0 = 1 - w 0) ∨ (i = t 0 ∧ W0 = w 0)) →
      ((j = (t 1 : ℤ) - 1 ∧ W1 = 1 - w 1) ∨ (j = t 1 ∧ W1 = w 1)) →
      ∃ a, readLocal L f r (scatterLocal L f r q v) 0 j i = .ok a ∧
        (W1 * W0 ≠ 0 → ∃ idx, Surrounds L.toMeshInfo G f x ⟨0, j, i, 0⟩ ∧ L.getPackedGlobalIndex false f ⟨0, j, i, 0⟩ = .ok idx ∧ a = q idx) := by
    intro i j W0 W1 h0 h1
    obtain ⟨a, ha, hs⟩ := corner S hf hB (s := ⟨0, j, i, 0⟩) (ω := fun d => if d = 0 then W0 else W1) (fun _ => rfl) rfl
      (by intro d hdd; rcases hd d hdd with rfl | rfl <;> simpa [coordOf]) q v
    refine ⟨a, ha, fun hW => hs fun d hdd => ?_⟩
    rcases hd d hdd with rfl | rfl
    · simpa using right_ne_zero_of_mul hW
    · simpa using left_ne_zero_of_mul hW
  obtain ⟨a00, r00, s00⟩ := C _ _ _ _ (Or.inl ⟨rfl, rfl⟩) (Or.inl ⟨rfl, rfl⟩)
  obtain ⟨a01, r01, s01⟩ := C _ _ _ _ (Or.inr ⟨rfl, rfl⟩) (Or.inl ⟨rfl, rfl⟩)
  obtain ⟨a10, r10, s10⟩ := C _ _ _ _ (Or.inl ⟨rfl, rfl⟩) (Or.inr ⟨rfl, rfl⟩)
  obtain ⟨a11, r11, s11⟩ := C _ _ _ _ (Or.inr ⟨rfl, rfl⟩) (Or.inr ⟨rfl, rfl⟩)
  refine ⟨(1 - w 1) * ((1 - w 0) * a00 + w 0 * a01) + w 1 * ((1 - w 0) * a10 + w 0 * a11), ?_, ?_, ?_⟩
  · unfold interpolate
    simp only [B0.idx, B1.idx, B0.frac, B1.frac, sub_add_cancel, r00, r01, r10, r11]
    rfl
  · intro lo hi h
    have P0 := B0.pos
    have P1 := B1.pos
    have hh : ∀ {i j : ℤ} {a W : K}, (W ≠ 0 → ∃ idx, Surrounds L.toMeshInfo G f x ⟨0, j, i, 0⟩ ∧
        L.getPackedGlobalIndex false f ⟨0, j, i, 0⟩ = .ok idx ∧ a = q idx) → W ≠ 0 → lo ≤ a ∧ a ≤ hi := by
      intro i j a W hs hW
      obtain ⟨idx, g1, g2, rfl⟩ := hs hW
      exact h _ _ g1 g2
    have e00 := bound_term (mul_nonneg P1.1 P0.1) (hh s00)
    have e01 := bound_term (mul_nonneg P1.1 P0.2) (hh s01)
    have e10 := bound_term (mul_nonneg P1.2 P0.1) (hh s10)
    have e11 := bound_term (mul_nonneg P1.2 P0.2) (hh s11)
    constructor
    · linear_combination e00.1 + e01.1 + e10.1 + e11.1
    · linear_combination e00.2 + e01.2 + e10.2 + e11.2
  · intro c h
    have hh : ∀ {i j : ℤ} {a W : K}, (W ≠ 0 → ∃ idx, Surrounds L.toMeshInfo G f x ⟨0, j, i, 0⟩ ∧
        L.getPackedGlobalIndex false f ⟨0, j, i, 0⟩ = .ok idx ∧ a = q idx) → W ≠ 0 →
        a = multilinear c (G.coord f 0 i) (G.coord f 1 j) 0 := by
      intro i j a W hs hW
      obtain ⟨idx, g1, g2, rfl⟩ := hs hW
      rw [h _ _ g1 g2, S.flat_coord hf h2]
    have e00 := exact_term (hh s00)
    have e01 := exact_term (hh s01)
    have e10 := exact_term (hh s10)
    have e11 := exact_term (hh s11)
    have m0 := B0.mix
    have m1 := B1.mix
    rw [hz]
    generalize G.coord f 0 ((t 0 : ℤ) - 1) = l0 at *
    generalize G.coord f 0 (t 0) = r0 at *
    generalize G.coord f 1 ((t 1 : ℤ) - 1) = l1 at *
    generalize G.coord f 1 (t 1) = r1 at *
    rw [m0, m1]
    unfold multilinear at *
    linear_combination e00 + e01 + e10 + e11

theorem interpolate_3d (S : Setup L G axes) {f r : ℕ} (hf : f < L.dim ∨ f = 3) (h2 : L.dim = 3) {x : ℕ → K}
    {b : ℕ → BoxDir K} {t : ℕ → ℕ} {w : ℕ → K}
    (hB : ∀ d, d < L.dim → BoxSpec L G f r d (x d) (b d) (t d) (w d)) (q v : ℤ → K) :
    ∃ y, interpolate L f r (scatterLocal L f r q v) [b 0, b 1, b 2] = .ok y ∧ Interpolates L G f x q y := by
  have B0 := hB 0 (by omega)
  have B1 := hB 1 (by omega)
  have B2 := hB 2 (by omega)
  have hd : ∀ d, d < L.dim → d = 0 ∨ d = 1 ∨ d = 2 := by omega
  have C : ∀ (i j k : ℤ) (W0 W1 W2 : K), ((i = (t 0 : ℤ) - 1 ∧ W0 = 1 - w 0) ∨ (i = t 0 ∧ W0 = w 0)) →
      ((j = (t 1 : ℤ) - 1 ∧ W1 = 1 - w 1) ∨ (j = t 1 ∧ W1 = w 1)) → ((k = (t 2 : ℤ) - 1 ∧ W2 = 1 - w 2) ∨ (k = t 2 ∧ W2 = w 2)) →
      ∃ a, readLocal L f r (scatterLocal L f r q v) k j i = .ok a ∧
        (W2 * W1 * W0 ≠ 0 → ∃ idx, Surrounds L.toMeshInfo G f x ⟨k, j, i, 0⟩ ∧ L.getPackedGlobalIndex false f ⟨k, j, i, 0⟩ = .ok idx ∧
          a = q idx) := by
    intro i j k W0 W1 W2 h0 h1 hk
    obtain ⟨a, ha, hs⟩ := corner S hf hB (s := ⟨k, j, i, 0⟩) (ω := fun d => if d = 0 then W0 else if d = 1 then W1 else W2)
      (by omega) rfl
      (by intro d hdd; rcases hd d hdd with rfl | rfl | rfl <;> simpa [coordOf]) q v
    refine ⟨a, ha, fun hW => hs fun d hdd => ?_⟩
    rcases hd d hdd with rfl | rfl | rfl
    · simpa using right_ne_zero_of_mul hW
    · simpa using right_ne_zero_of_mul (left_ne_zero_of_mul hW)
    · simpa using left_ne_zero_of_mul (left_ne_zero_of_mul hW)
  obtain ⟨a000, r000, s000⟩ := C _ _ _ _ _ _ (Or.inl ⟨rfl, rfl⟩) (Or.inl ⟨rfl, rfl⟩) (Or.inl ⟨rfl, rfl⟩)
  obtain ⟨a001, r001, s001⟩ := C _ _ _ _ _ _ (Or.inr ⟨rfl, rfl⟩) (Or.inl ⟨rfl, rfl⟩) (Or.inl ⟨rfl, rfl⟩)
  obtain ⟨a010, r010, s010⟩ := C _ _ _ _ _ _ (Or.inl ⟨rfl, rfl⟩) (Or.inr ⟨rfl, rfl⟩) (Or.inl ⟨rfl, rfl⟩)
  obtain ⟨a011, r011, s011⟩ := C _ _ _ _ _ _ (Or.inr ⟨rfl, rfl⟩) (Or.inr ⟨rfl, rfl⟩) (Or.inl ⟨rfl, rfl⟩)
  obtain ⟨a100, r100, s100⟩ := C _ _ _ _ _ _ (Or.inl ⟨rfl, rfl⟩) (Or.inl ⟨rfl, rfl⟩) (Or.inr ⟨rfl, rfl⟩)
  obtain ⟨a101, r101, s101⟩ := C _ _ _ _ _ _ (Or.inr ⟨rfl, rfl⟩) (Or.inl ⟨rfl, rfl⟩) (Or.inr ⟨rfl, rfl⟩)
  obtain ⟨a110, r110, s110⟩ := C _ _ _ _ _ _ (Or.inl ⟨rfl, rfl⟩) (Or.inr ⟨rfl, rfl⟩) (Or.inr ⟨rfl, rfl⟩)
  obtain ⟨a111, r111, s111⟩ := C _ _ _ _ _ _ (Or.inr ⟨rfl, rfl⟩) (Or.inr ⟨rfl, rfl⟩) (Or.inr ⟨rfl, rfl⟩)
  refine ⟨(1 - w 2) * ((1 - w 1) * ((1 - w 0) * a000 + w 0 * a001) + w 1 * ((1 - w 0) * a010 + w 0 * a011)) +
    w 2 * ((1 - w 1) * ((1 - w 0) * a100 + w 0 * a101) + w 1 * ((1 - w 0) * a110 + w 0 * a111)), ?_, ?_, ?_⟩
  · unfold interpolate
    simp only [B0.idx, B1.idx, B2.idx, B0.frac, B1.frac, B2.frac, sub_add_cancel, r000, r001, r010, r011, r100, r101, r110, r111]
    rfl
  · intro lo hi h
    have P0 := B0.pos
    have P1 := B1.pos
    have P2 := B2.pos
    have hh : ∀ {i j k : ℤ} {a W : K}, (W ≠ 0 → ∃ idx, Surrounds L.toMeshInfo G f x ⟨k, j, i, 0⟩ ∧
        L.getPackedGlobalIndex false f ⟨k, j, i, 0⟩ = .ok idx ∧ a = q idx) → W ≠ 0 → lo ≤ a ∧ a ≤ hi := by
      intro i j k a W hs hW
      obtain ⟨idx, g1, g2, rfl⟩ := hs hW
      exact h _ _ g1 g2
    have e000 := bound_term (mul_nonneg (mul_nonneg P2.1 P1.1) P0.1) (hh s000)
    have e001 := bound_term (mul_nonneg (mul_nonneg P2.1 P1.1) P0.2) (hh s001)
    have e010 := bound_term (mul_nonneg (mul_nonneg P2.1 P1.2) P0.1) (hh s010)
    have e011 := bound_term (mul_nonneg (mul_nonneg P2.1 P1.2) P0.2) (hh s011)
    have e100 := bound_term (mul_nonneg (mul_nonneg P2.2 P1.1) P0.1) (hh s100)
    have e101 := bound_term (mul_nonneg (mul_nonneg P2.2 P1.1) P0.2) (hh s101)
    have e110 := bound_term (mul_nonneg (mul_nonneg P2.2 P1.2) P0.1) (hh s110)
    have e111 := bound_term (mul_nonneg (mul_nonneg P2.2 P1.2) P0.2) (hh s111)
    constructor
    · linear_combination e000.1 + e001.1 + e010.1 + e011.1 + e100.1 + e101.1 + e110.1 + e111.1
    · linear_combination e000.2 + e001.2 + e010.2 + e011.2 + e100.2 + e101.2 + e110.2 + e111.2
  · intro c h
    have hh : ∀ {i j k : ℤ} {a W : K}, (W ≠ 0 → ∃ idx, Surrounds L.toMeshInfo G f x ⟨k, j, i, 0⟩ ∧
        L.getPackedGlobalIndex false f ⟨k, j, i, 0⟩ = .ok idx ∧ a = q idx) → W ≠ 0 →
        a = multilinear c (G.coord f 0 i) (G.coord f 1 j) (G.coord f 2 k) := by
      intro i j k a W hs hW
      obtain ⟨idx, g1, g2, rfl⟩ := hs hW
      rw [h _ _ g1 g2]
    have e000 := exact_term (hh s000)
    have e001 := exact_term (hh s001)
    have e010 := exact_term (hh s010)
    have e011 := exact_term (hh s011)
    have e100 := exact_term (hh s100)
    have e101 := exact_term (hh s101)
    have e110 := exact_term (hh s110)
    have e111 := exact_term (hh s111)
    have m0 := B0.mix
    have m1 := B1.mix
    have m2 := B2.mix
    clear h hh s000 s001 s010 s011 s100 s101 s110 s111 r000 r001 r010 r011 r100 r101 r110 r111 C hB B0 B1 B2
    generalize G.coord f 0 ((t 0 : ℤ) - 1) = l0 at *
    generalize G.coord f 0 (t 0) = r0 at *
    generalize G.coord f 1 ((t 1 : ℤ) - 1) = l1 at *
    generalize G.coord f 1 (t 1) = r1 at *
    generalize G.coord f 2 ((t 2 : ℤ) - 1) = l2 at *
    generalize G.coord f 2 (t 2) = r2 at *
    rw [m0, m1, m2]
    unfold multilinear at *
    linear_combination e000 + e001 + e010 + e011 + e100 + e101 + e110 + e111

end PetIBM
