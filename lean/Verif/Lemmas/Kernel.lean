import Verif.Model.Kernel
import Verif.Spec.Kernel
import Mathlib.Algebra.Order.Round
import Mathlib.Tactic.Linarith
import Mathlib.Tactic.Ring
import Mathlib.Tactic.FieldSimp

namespace PetIBM

open Spec

/-- A sum over all grid shifts of a function with bounded support only has the terms near the position. -/
theorem finsum_window (f : ℤ → ℝ) (a b : ℤ) (h : ∀ i, i < a ∨ b < i → f i = 0) :
    ∑ᶠ i : ℤ, f i = ∑ i ∈ Finset.Icc a b, f i := by
  apply finsum_eq_sum_of_support_subset
  intro i hi
  by_contra hn
  apply hi
  apply h
  simp only [Finset.coe_Icc, Set.mem_Icc, not_and_or, not_le] at hn
  exact hn

theorem sum_Icc3 (f : ℤ → ℝ) (n : ℤ) : ∑ i ∈ Finset.Icc (n - 1) (n + 1), f i = f (n - 1) + f n + f (n + 1) := by
  have : Finset.Icc (n - 1) (n + 1) = {n - 1, n, n + 1} := by
    ext i; simp only [Finset.mem_Icc, Finset.mem_insert, Finset.mem_singleton]; omega
  rw [this, Finset.sum_insert, Finset.sum_insert, Finset.sum_singleton]
  · ring
  · simp
  · simp only [Finset.mem_insert, Finset.mem_singleton]; omega

theorem sum_Icc4 (f : ℤ → ℝ) (n : ℤ) :
    ∑ i ∈ Finset.Icc (n - 1) (n + 2), f i = f (n - 1) + f n + f (n + 1) + f (n + 2) := by
  have : Finset.Icc (n - 1) (n + 2) = {n - 1, n, n + 1, n + 2} := by
    ext i; simp only [Finset.mem_Icc, Finset.mem_insert, Finset.mem_singleton]; omega
  rw [this, Finset.sum_insert, Finset.sum_insert, Finset.sum_insert, Finset.sum_singleton]
  · ring
  · simp
  · simp only [Finset.mem_insert, Finset.mem_singleton]; omega
  · simp only [Finset.mem_insert, Finset.mem_singleton]; omega

/-- The shape of Roma's function in cell units. -/
noncomputable def romaShape (x : ℝ) : ℝ :=
  if |x| ≤ 1/2 then (1 + Real.sqrt (1 - 3 * x ^ 2)) / 3
  else if |x| ≤ 3/2 then (5 - 3 * |x| - Real.sqrt (1 - 3 * (1 - |x|) ^ 2)) / 6
  else 0

/-- The shape of Peskin's function in cell units. -/
noncomputable def peskinShape (x : ℝ) : ℝ :=
  if |x| ≤ 1 then (3 - 2 * |x| + Real.sqrt (1 + 4 * |x| - 4 * x ^ 2)) / 8
  else if |x| ≤ 2 then (5 - 2 * |x| - Real.sqrt (-7 + 12 * |x| - 4 * x ^ 2)) / 8
  else 0

theorem roma_value (r : ℝ) {h : ℝ} (hh : 0 < h) : romaEtAl1999 r h = .ok (romaShape (r / h) / h) := by
  have ha : |r / h| = |r| / h := by rw [abs_div, abs_of_pos hh]
  have hx : 0 ≤ |r| / h := by positivity
  have hsq : (r / h) ^ 2 = (|r| / h) * (|r| / h) := by rw [← sq_abs, ha]; ring
  simp only [romaEtAl1999, romaShape, ha, hsq, hh.ne', if_false]
  generalize |r| / h = x at *
  norm_num only
  by_cases h1 : x > 3 / 2
  · rw [if_pos h1, if_neg (by linarith), if_neg (by linarith)]
    simp
  · rw [if_neg h1]
    by_cases h2 : x ≤ 1 / 2
    · have : ¬ (-3 * x * x + 1 < 0) := by nlinarith
      rw [if_neg (fun h => by linarith [h.1]), if_pos h2]
      simp only [stdSqrt, this, if_false, bind, Except.bind, pure, Except.pure]
      congr 1
      rw [show -3 * x * x + 1 = 1 - 3 * (x * x) by ring]
      field_simp
    · have : ¬ (-3 * (1 - x) * (1 - x) + 1 < 0) := by nlinarith
      rw [if_pos ⟨by linarith, by linarith⟩, if_neg h2, if_pos (by linarith)]
      simp only [stdSqrt, this, if_false, bind, Except.bind, pure, Except.pure]
      congr 1
      rw [show -3 * (1 - x) * (1 - x) + 1 = 1 - 3 * (1 - x) ^ 2 by ring]
      field_simp

theorem peskin_value (r : ℝ) {h : ℝ} (hh : 0 < h) : peskin2002 r h = .ok (peskinShape (r / h) / h) := by
  have ha : |r / h| = |r| / h := by rw [abs_div, abs_of_pos hh]
  have hx : 0 ≤ |r| / h := by positivity
  have hsq : (r / h) ^ 2 = (|r| / h) * (|r| / h) := by rw [← sq_abs, ha]; ring
  simp only [peskin2002, peskinShape, ha, hsq, hh.ne', if_false]
  generalize |r| / h = x at *
  by_cases h1 : x ≤ 1
  · have : ¬ (1 + 4 * x - 4 * x * x < 0) := by nlinarith
    rw [if_pos ⟨hx, h1⟩, if_pos h1]
    simp only [stdSqrt, this, if_false, bind, Except.bind, pure, Except.pure]
    congr 1
    rw [show 4 * x * x = 4 * (x * x) by ring]
    field_simp
  · rw [if_neg (fun h => h1 h.2), if_neg h1]
    by_cases h2 : x ≤ 2
    · have : ¬ (-7 + 12 * x - 4 * x * x < 0) := by nlinarith
      rw [if_pos ⟨by linarith, h2⟩, if_pos h2]
      simp only [stdSqrt, this, if_false, bind, Except.bind, pure, Except.pure]
      congr 1
      rw [show 4 * x * x = 4 * (x * x) by ring]
      field_simp
    · rw [if_neg (fun h => h2 h.2), if_neg h2]
      simp

theorem romaShape_continuous : Continuous romaShape := by
  unfold romaShape
  refine Continuous.if_le ?_ ?_ (by fun_prop) (by fun_prop) ?_
  · fun_prop
  · refine Continuous.if_le (by fun_prop) (by fun_prop) (by fun_prop) (by fun_prop) ?_
    intro x hx
    rw [hx]
    rw [show (1:ℝ) - 3 * (1 - 3/2)^2 = (1/2)^2 by norm_num, Real.sqrt_sq (by norm_num)]
    norm_num
  · intro x hx
    have : x ^ 2 = (1/2)^2 := by rw [← sq_abs, hx]
    rw [this, hx, if_pos (by norm_num)]
    rw [show (1:ℝ) - 3 * (1/2)^2 = (1/2)^2 by norm_num, show (1:ℝ) - 3 * (1 - 1/2)^2 = (1/2)^2 by norm_num,
      Real.sqrt_sq (by norm_num)]
    norm_num

theorem peskinShape_continuous : Continuous peskinShape := by
  unfold peskinShape
  refine Continuous.if_le ?_ ?_ (by fun_prop) (by fun_prop) ?_
  · fun_prop
  · refine Continuous.if_le (by fun_prop) (by fun_prop) (by fun_prop) (by fun_prop) ?_
    intro x hx
    have : x ^ 2 = 2^2 := by rw [← sq_abs, hx]
    rw [hx, this, show (-7:ℝ) + 12 * 2 - 4 * 2^2 = 1 by norm_num, Real.sqrt_one]
    norm_num
  · intro x hx
    have : x ^ 2 = 1^2 := by rw [← sq_abs, hx]
    rw [this, hx, if_pos (by norm_num)]
    norm_num

theorem romaShape_near {t : ℝ} (h : |t| ≤ 1/2) : romaShape t = (1 + Real.sqrt (1 - 3 * t ^ 2)) / 3 := if_pos h

theorem romaShape_next {t : ℝ} (h : |t| ≤ 1/2) :
    romaShape (t + 1) = (2 - 3 * t - Real.sqrt (1 - 3 * t ^ 2)) / 6 := by
  have h' := abs_le.1 h
  have ha : |t + 1| = t + 1 := abs_of_nonneg (by linarith [h'.1])
  unfold romaShape
  by_cases h1 : |t + 1| ≤ 1/2
  · rw [if_pos h1]
    rw [ha] at h1
    have : t = -1/2 := by linarith [h'.1]
    subst this
    rw [show (1:ℝ) - 3 * (-1/2 + 1)^2 = (1/2)^2 by norm_num, show (1:ℝ) - 3 * (-1/2)^2 = (1/2)^2 by norm_num,
      Real.sqrt_sq (by norm_num)]
    norm_num
  · rw [if_neg h1, ha, if_pos (by linarith [h'.2])]
    rw [show 1 - 3 * (1 - (t + 1)) ^ 2 = 1 - 3 * t ^ 2 by ring]
    ring

theorem romaShape_even (x : ℝ) : romaShape (-x) = romaShape x := by simp [romaShape]

theorem romaShape_prev {t : ℝ} (h : |t| ≤ 1/2) :
    romaShape (t - 1) = (2 + 3 * t - Real.sqrt (1 - 3 * t ^ 2)) / 6 := by
  have := romaShape_next (t := -t) (by rwa [abs_neg])
  rw [show -t + 1 = -(t - 1) by ring, romaShape_even] at this
  rw [this]
  ring_nf

theorem romaShape_outside {x : ℝ} (h : 3/2 ≤ |x|) : romaShape x = 0 := by
  unfold romaShape
  rw [if_neg (by linarith)]
  by_cases h1 : |x| ≤ 3/2
  · have : |x| = 3/2 := le_antisymm h1 h
    rw [if_pos h1, this]
    rw [show (1:ℝ) - 3 * (1 - 3/2)^2 = (1/2)^2 by norm_num, Real.sqrt_sq (by norm_num)]
    norm_num
  · rw [if_neg h1]

theorem romaShape_inside {x : ℝ} (h : |x| < 3/2) : 0 < romaShape x := by
  unfold romaShape
  split_ifs with h1 h2
  · positivity
  · have : Real.sqrt (1 - 3 * (1 - |x|)^2) < 5 - 3 * |x| := by
      rw [Real.sqrt_lt' (by linarith)]
      nlinarith [mul_pos (sub_pos.2 h) (sub_pos.2 h)]
    linarith
  · exact absurd h.le h2

theorem peskinShape_even (x : ℝ) : peskinShape (-x) = peskinShape x := by simp [peskinShape]

theorem peskinShape_near {t : ℝ} (h0 : 0 ≤ t) (h1 : t ≤ 1) :
    peskinShape t = (3 - 2 * t + Real.sqrt (1 + 4 * t - 4 * t ^ 2)) / 8 := by
  unfold peskinShape
  rw [abs_of_nonneg h0, if_pos h1]

theorem peskinShape_far {t : ℝ} (h0 : 0 ≤ t) (h1 : t ≤ 1) :
    peskinShape (t + 1) = (3 - 2 * t - Real.sqrt (1 + 4 * t - 4 * t ^ 2)) / 8 := by
  unfold peskinShape
  have ha : |t + 1| = t + 1 := abs_of_nonneg (by linarith)
  rw [ha]
  by_cases h : t + 1 ≤ 1
  · have : t = 0 := by linarith
    subst this
    norm_num
  · rw [if_neg h, if_pos (by linarith)]
    rw [show -7 + 12 * (t + 1) - 4 * (t + 1) ^ 2 = 1 + 4 * t - 4 * t ^ 2 by ring]
    ring

theorem peskinShape_near' {t : ℝ} (h0 : 0 ≤ t) (h1 : t ≤ 1) :
    peskinShape (t - 1) = (1 + 2 * t + Real.sqrt (1 + 4 * t - 4 * t ^ 2)) / 8 := by
  have := peskinShape_near (t := 1 - t) (by linarith) (by linarith)
  rw [show 1 - t = -(t - 1) by ring, peskinShape_even] at this
  rw [this]
  ring_nf

theorem peskinShape_far' {t : ℝ} (h0 : 0 ≤ t) (h1 : t ≤ 1) :
    peskinShape (t - 2) = (1 + 2 * t - Real.sqrt (1 + 4 * t - 4 * t ^ 2)) / 8 := by
  have := peskinShape_far (t := 1 - t) (by linarith) (by linarith)
  rw [show 1 - t + 1 = -(t - 2) by ring, peskinShape_even] at this
  rw [this]
  ring_nf

theorem peskinShape_outside {x : ℝ} (h : 2 ≤ |x|) : peskinShape x = 0 := by
  unfold peskinShape
  rw [if_neg (by linarith)]
  by_cases h1 : |x| ≤ 2
  · have : |x| = 2 := le_antisymm h1 h
    have h2 : x ^ 2 = 2^2 := by rw [← sq_abs, this]
    rw [if_pos h1, this, h2, show (-7:ℝ) + 12 * 2 - 4 * 2^2 = 1 by norm_num, Real.sqrt_one]
    norm_num
  · rw [if_neg h1]

theorem peskinShape_inside {x : ℝ} (h : |x| < 2) : 0 < peskinShape x := by
  unfold peskinShape
  split_ifs with h1 h2
  · have := Real.sqrt_nonneg (1 + 4 * |x| - 4 * x ^ 2)
    linarith
  · have : Real.sqrt (-7 + 12 * |x| - 4 * x ^ 2) < 5 - 2 * |x| := by
      rw [Real.sqrt_lt' (by linarith), ← sq_abs x]
      nlinarith [mul_pos (sub_pos.2 h) (sub_pos.2 h)]
    linarith
  · exact absurd h.le h2

/-- A shape in cell units gives a regularised delta function once the properties hold in cell units. -/
theorem discreteDelta_scale {g : ℝ → ℝ} {h s q : ℝ} (hh : 0 < h) (hc : Continuous g) (he : ∀ x, g (-x) = g x)
    (hi : ∀ x, |x| < s → 0 < g x) (ho : ∀ x, s ≤ |x| → g x = 0) (hu : ∀ x, ∑ᶠ i : ℤ, g (x - i) = 1)
    (hm : ∀ x, ∑ᶠ i : ℤ, (x - i) * g (x - i) = 0) (hq : ∀ x, ∑ᶠ i : ℤ, g (x - i) ^ 2 = q) :
    DiscreteDelta (fun r => g (r / h) / h) h s q := by
  have e : ∀ (r : ℝ) (i : ℤ), (r - i * h) / h = r / h - i := by intro r i; field_simp
  refine ⟨by fun_prop, ?_, ?_, ?_, ?_, ?_, ?_⟩
  · intro r; simp only [neg_div, he]
  · intro r hr
    refine div_pos (hi _ ?_) hh
    rwa [abs_div, abs_of_pos hh, div_lt_iff₀ hh]
  · intro r hr
    rw [ho _ (by rwa [abs_div, abs_of_pos hh, le_div_iff₀ hh]), zero_div]
  · intro r
    rw [← hu (r / h)]
    refine finsum_congr fun i => ?_
    simp only [e]; field_simp
  · intro r
    have : ∀ i : ℤ, h * ((r - i * h) * (g ((r - i * h) / h) / h)) = h * ((r / h - i) * g (r / h - i)) := by
      intro i; rw [e]; field_simp
    refine (finsum_congr this).trans ?_
    have h2 := smul_finsum h fun i : ℤ => (r / h - i) * g (r / h - i)
    rw [hm, smul_zero] at h2
    simpa only [smul_eq_mul] using h2.symm
  · intro r
    rw [← hq (r / h)]
    refine finsum_congr fun i => ?_
    simp only [e]; field_simp

theorem romaShape_sums (x : ℝ) : ∑ᶠ i : ℤ, romaShape (x - i) = 1 ∧ ∑ᶠ i : ℤ, (x - i) * romaShape (x - i) = 0 ∧
    ∑ᶠ i : ℤ, romaShape (x - i) ^ 2 = 1/2 := by
  have hn := abs_sub_round x
  generalize round x = n at hn
  have hz : ∀ i : ℤ, i < n - 1 ∨ n + 1 < i → romaShape (x - i) = 0 := by
    intro i hi
    apply romaShape_outside
    have h' := abs_le.1 hn
    rcases hi with hi | hi
    · have : (i : ℝ) ≤ n - 2 := by exact_mod_cast (by omega : i ≤ n - 2)
      rw [abs_of_nonneg (by linarith [h'.1])]
      linarith [h'.1]
    · have : (n : ℝ) + 2 ≤ i := by exact_mod_cast (by omega : n + 2 ≤ i)
      rw [abs_of_nonpos (by linarith [h'.2])]
      linarith [h'.2]
  have e0 := romaShape_near hn
  have e1 := romaShape_next hn
  have e2 := romaShape_prev hn
  have hs : 0 ≤ 1 - 3 * (x - n) ^ 2 := by nlinarith [abs_le.1 hn]
  have hq := Real.sq_sqrt hs
  have c1 : x - ((n - 1 : ℤ) : ℝ) = x - n + 1 := by push_cast; ring
  have c2 : x - ((n + 1 : ℤ) : ℝ) = x - n - 1 := by push_cast; ring
  generalize hS : Real.sqrt (1 - 3 * (x - n) ^ 2) = S at *
  refine ⟨?_, ?_, ?_⟩
  · rw [finsum_window _ (n-1) (n+1) (fun i hi => hz i hi), sum_Icc3, c1, c2, e0, e1, e2]; ring
  · rw [finsum_window _ (n-1) (n+1) (fun i hi => by rw [hz i hi, mul_zero]), sum_Icc3, c1, c2, e0, e1, e2]; ring
  · rw [finsum_window _ (n-1) (n+1) (fun i hi => by rw [hz i hi]; norm_num), sum_Icc3, c1, c2, e0, e1, e2]
    linear_combination (1/6) * hq

theorem peskinShape_sums (x : ℝ) : ∑ᶠ i : ℤ, peskinShape (x - i) = 1 ∧
    ∑ᶠ i : ℤ, (x - i) * peskinShape (x - i) = 0 ∧ ∑ᶠ i : ℤ, peskinShape (x - i) ^ 2 = 3/8 := by
  have hn0 := Int.floor_le x
  have hn1 := (Int.lt_floor_add_one x).le
  generalize ⌊x⌋ = n at hn0 hn1
  have hz : ∀ i : ℤ, i < n - 1 ∨ n + 2 < i → peskinShape (x - i) = 0 := by
    intro i hi
    apply peskinShape_outside
    rcases hi with hi | hi
    · have : (i : ℝ) ≤ n - 2 := by exact_mod_cast (by omega : i ≤ n - 2)
      rw [abs_of_nonneg (by linarith)]
      linarith
    · have : (n : ℝ) + 3 ≤ i := by exact_mod_cast (by omega : n + 3 ≤ i)
      rw [abs_of_nonpos (by linarith)]
      linarith
  have h0 : 0 ≤ x - n := by linarith
  have h1 : x - n ≤ 1 := by linarith
  have e0 := peskinShape_near h0 h1
  have e1 := peskinShape_far h0 h1
  have e2 := peskinShape_near' h0 h1
  have e3 := peskinShape_far' h0 h1
  have hs : 0 ≤ 1 + 4 * (x - n) - 4 * (x - n) ^ 2 := by nlinarith
  have hq := Real.sq_sqrt hs
  have c1 : x - ((n - 1 : ℤ) : ℝ) = x - n + 1 := by push_cast; ring
  have c2 : x - ((n + 1 : ℤ) : ℝ) = x - n - 1 := by push_cast; ring
  have c3 : x - ((n + 2 : ℤ) : ℝ) = x - n - 2 := by push_cast; ring
  generalize hS : Real.sqrt (1 + 4 * (x - n) - 4 * (x - n) ^ 2) = S at *
  refine ⟨?_, ?_, ?_⟩
  · rw [finsum_window _ (n-1) (n+2) (fun i hi => hz i hi), sum_Icc4, c1, c2, c3, e0, e1, e2, e3]; ring
  · rw [finsum_window _ (n-1) (n+2) (fun i hi => by rw [hz i hi, mul_zero]), sum_Icc4, c1, c2, c3, e0, e1, e2, e3]
    linear_combination 0 * hq
  · rw [finsum_window _ (n-1) (n+2) (fun i hi => by rw [hz i hi]; norm_num), sum_Icc4, c1, c2, c3, e0, e1, e2, e3]
    linear_combination (1/16) * hq

end PetIBM
