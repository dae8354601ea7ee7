import Verif.Spec.Parser
import Mathlib.Algebra.BigOperators.Group.List.Basic
import Mathlib.Algebra.Order.BigOperators.Group.List
import Mathlib.Tactic.Ring
import Mathlib.Tactic.Linarith
import Mathlib.Tactic.FieldSimp
import Mathlib.Tactic.NormNum
import Mathlib.Tactic.IntervalCases
import Mathlib.Algebra.Order.Ring.Abs
import Mathlib.Tactic.LinearCombination
import Mathlib.Algebra.Order.Field.Power

set_option linter.unusedSectionVars false

namespace PetIBM

open Spec

variable {K : Type*} [Field K] [LinearOrder K] [IsStrictOrderedRing K]

theorem geometric_length (x r : K) (m : ℕ) : (geometric x r m).length = m := by
  induction m generalizing x with
  | zero => rfl
  | succ m ih => simp [geometric, ih]

theorem geometric_sum (x r : K) (m : ℕ) : (geometric x r m).sum * (r - 1) = x * (r ^ m - 1) := by
  induction m generalizing x with
  | zero => simp [geometric]
  | succ m ih => simp only [geometric, List.sum_cons, add_mul, ih]; ring

theorem geometric_ratio (x r : K) (m : ℕ) (j : ℕ) (h : j + 1 < (geometric x r m).length) :
    (geometric x r m)[j + 1] = r * (geometric x r m)[j] := by
  induction m generalizing x j with
  | zero => simp [geometric] at h
  | succ m ih =>
    cases j with
    | zero =>
      cases m with
      | zero => simp [geometric] at h
      | succ m => simp [geometric, mul_comm]
    | succ j =>
      simp only [geometric, List.getElem_cons_succ]
      exact ih _ _ (by simpa [geometric] using h)

theorem geometric_pos (x r : K) (m : ℕ) (hx : 0 < x) (hr : 0 < r) : ∀ w ∈ geometric x r m, 0 < w := by
  induction m generalizing x with
  | zero => simp [geometric]
  | succ m ih =>
    intro w hw
    simp only [geometric, List.mem_cons] at hw
    rcases hw with rfl | hw
    · exact hx
    · exact ih (x * r) (mul_pos hx hr) w hw

theorem tol_pos : (0 : K) < 1 / 10 ^ 12 := by positivity

theorem parseOneSubDomain_segment {sub : SubDomain K} {bg : K} {n : ℤ} {ed : K} {dL : List K}
    (hc : 1 ≤ sub.cells) (h : parseOneSubDomain sub bg = .ok (n, ed, dL)) :
    n = sub.cells ∧ ed = sub.end_ ∧ Segment bg sub dL := by
  unfold parseOneSubDomain at h
  simp only at h
  by_cases ht : |sub.stretchRatio - 1| ≤ 1 / 10 ^ 12
  · rw [if_pos ht, if_neg (by omega)] at h
    simp only [pure, Except.pure, Except.ok.injEq, Prod.mk.injEq] at h
    obtain ⟨rfl, rfl, rfl⟩ := h
    have hn0 : (0 : K) < (sub.cells : K) := by exact_mod_cast (by omega : (0:ℤ) < sub.cells)
    have hcast : ((sub.cells.toNat : ℕ) : K) = (sub.cells : K) := by
      have : ((sub.cells.toNat : ℕ) : ℤ) = sub.cells := by omega
      exact_mod_cast congrArg (Int.cast : ℤ → K) this
    refine ⟨rfl, rfl, ?_, ?_, ?_, ?_, ?_⟩
    · simp; omega
    · simp [hcast]; field_simp
    · intro h'; exact absurd ht (not_le.2 h')
    · intro _ j hj
      simp only [List.getElem_replicate]
      have : (sub.end_ - bg) / (sub.cells : K) - sub.stretchRatio * ((sub.end_ - bg) / (sub.cells : K)) =
        -((sub.stretchRatio - 1) * ((sub.end_ - bg) / (sub.cells : K))) := by ring
      rw [this, abs_neg, abs_mul]
      exact mul_le_mul_of_nonneg_right ht (abs_nonneg _)
    · intro hlt _ w hw
      rw [List.eq_of_mem_replicate hw]
      exact div_pos (by linarith) hn0
  · rw [if_neg ht] at h
    unfold stretchGrid at h
    rw [if_neg (by omega), if_neg (by omega)] at h
    simp only at h
    by_cases hden : sub.stretchRatio ^ sub.cells.toNat - 1 = 0
    · rw [if_pos hden] at h; cases h
    · rw [if_neg hden] at h
      simp only [bind, Except.bind, pure, Except.pure, Except.ok.injEq, Prod.mk.injEq] at h
      obtain ⟨rfl, rfl, rfl⟩ := h
      have hr1 : sub.stretchRatio - 1 ≠ 0 := by
        intro h0; apply ht; rw [h0, abs_zero]; exact tol_pos.le
      refine ⟨rfl, rfl, ?_, ?_, ?_, ?_, ?_⟩
      · rw [geometric_length]; omega
      · have := geometric_sum ((sub.end_ - bg) * (sub.stretchRatio - 1) / (sub.stretchRatio ^ sub.cells.toNat - 1))
          sub.stretchRatio sub.cells.toNat
        apply mul_right_cancel₀ hr1
        rw [this]
        field_simp
      · intro _ j hj; exact geometric_ratio _ _ _ _ hj
      · intro h'; exact absurd h' ht
      · intro hlt hr
        apply geometric_pos _ _ _ _ hr
        have hn : sub.cells.toNat ≠ 0 := by omega
        rcases lt_or_gt_of_ne (sub_ne_zero.1 hr1) with h1 | h1
        · have : sub.stretchRatio ^ sub.cells.toNat < 1 := pow_lt_one₀ hr.le h1 hn
          apply div_pos_of_neg_of_neg
          · exact mul_neg_of_pos_of_neg (by linarith) (by linarith)
          · linarith
        · have : 1 < sub.stretchRatio ^ sub.cells.toNat := one_lt_pow₀ h1 hn
          exact div_pos (mul_pos (by linarith) (by linarith)) (by linarith)

theorem parseOneSubDomain_accepts {sub : SubDomain K} {bg : K} (hc : 1 ≤ sub.cells) (hr : 0 < sub.stretchRatio) :
    ∃ dL, parseOneSubDomain sub bg = .ok (sub.cells, sub.end_, dL) := by
  unfold parseOneSubDomain
  simp only
  by_cases ht : |sub.stretchRatio - 1| ≤ 1 / 10 ^ 12
  · rw [if_pos ht, if_neg (by omega)]; exact ⟨_, rfl⟩
  · rw [if_neg ht]
    unfold stretchGrid
    rw [if_neg (by omega), if_neg (by omega)]
    have hr1 : sub.stretchRatio ≠ 1 := by
      intro h0; apply ht; rw [h0, sub_self, abs_zero]; exact tol_pos.le
    have hden : sub.stretchRatio ^ sub.cells.toNat - 1 ≠ 0 := by
      have hn : sub.cells.toNat ≠ 0 := by omega
      rcases lt_or_gt_of_ne hr1 with h1 | h1
      · have := pow_lt_one₀ hr.le h1 hn; linarith
      · have := one_lt_pow₀ h1 hn; linarith
    simp only
    rw [if_neg hden]
    exact ⟨_, rfl⟩

theorem parseSubDomainsLoop_spec (subs : List (SubDomain K)) (hc : ∀ s ∈ subs, 1 ≤ s.cells)
    (n0 : ℤ) (bg : K) (dL0 : List K) (n : ℤ) (ed : K) (dL : List K)
    (h : parseSubDomainsLoop subs (n0, bg, dL0) = .ok (n, ed, dL)) :
    ∃ segs, dL = dL0 ++ segs.flatten ∧ n = n0 + (subs.map (·.cells)).sum ∧ ed = lastEnd bg subs ∧
      Segments bg subs segs ∧ ((segs.flatten).length : ℤ) = (subs.map (·.cells)).sum := by
  induction subs generalizing n0 bg dL0 with
  | nil =>
    simp only [parseSubDomainsLoop, Except.ok.injEq, Prod.mk.injEq] at h
    obtain ⟨rfl, rfl, rfl⟩ := h
    exact ⟨[], by simp, by simp, rfl, trivial, by simp⟩
  | cons s ss ih =>
    simp only [parseSubDomainsLoop] at h
    rcases hp : parseOneSubDomain s bg with e | ⟨m, e1, d1⟩
    · rw [hp] at h; cases h
    · rw [hp] at h
      simp only [bind, Except.bind] at h
      obtain ⟨rfl, rfl, hs⟩ := parseOneSubDomain_segment (hc s (by simp)) hp
      obtain ⟨segs, h1, h2, h3, h4, h5⟩ := ih (fun s' hs' => hc s' (by simp [hs'])) _ _ _ h
      refine ⟨d1 :: segs, by simp [h1], ?_, h3, ⟨hs, h4⟩, ?_⟩
      · rw [h2]; simp [add_assoc]
      · have := hs.count
        simp only [List.flatten_cons, List.length_append, Nat.cast_add, List.map_cons, List.sum_cons]
        omega

theorem parseSubDomainsLoop_accepts (subs : List (SubDomain K)) (hc : ∀ s ∈ subs, 1 ≤ s.cells ∧ 0 < s.stretchRatio)
    (st : ℤ × K × List K) : ∃ r, parseSubDomainsLoop subs st = .ok r := by
  induction subs generalizing st with
  | nil => exact ⟨st, rfl⟩
  | cons s ss ih =>
    obtain ⟨n0, bg, dL0⟩ := st
    obtain ⟨dL, hd⟩ := parseOneSubDomain_accepts (bg := bg) (hc s (by simp)).1 (hc s (by simp)).2
    simp only [parseSubDomainsLoop, hd, bind, Except.bind]
    exact ih (fun s' hs' => hc s' (by simp [hs'])) _

theorem segments_sum (bg : K) (subs : List (SubDomain K)) (segs : List (List K)) (h : Segments bg subs segs) :
    segs.flatten.sum = lastEnd bg subs - bg := by
  induction subs generalizing bg segs with
  | nil => cases segs with
    | nil => simp [lastEnd]
    | cons _ _ => exact h.elim
  | cons s ss ih => cases segs with
    | nil => exact h.elim
    | cons w ws =>
      simp only [List.flatten_cons, List.sum_append, lastEnd]
      rw [ih _ _ h.2, h.1.length]; ring

theorem segments_pos (bg : K) (subs : List (SubDomain K)) (segs : List (List K)) (h : Segments bg subs segs)
    (hf : Forward bg subs) (hr : ∀ s ∈ subs, 0 < s.stretchRatio) : ∀ w ∈ segs.flatten, 0 < w := by
  induction subs generalizing bg segs with
  | nil => cases segs with
    | nil => simp
    | cons _ _ => exact h.elim
  | cons s ss ih => cases segs with
    | nil => exact h.elim
    | cons w ws =>
      intro x hx
      simp only [List.flatten_cons, List.mem_append] at hx
      rcases hx with hx | hx
      · exact h.1.pos hf.1 (hr s (by simp)) x hx
      · exact ih _ _ h.2 hf.2 (fun s' hs' => hr s' (by simp [hs'])) x hx

/-! ### order of the axes -/

theorem assign_comm (m : MeshData K) {d d' : ℕ} (h : d ≠ d') (a b a' b' : K) (n n' : ℤ) (l l' : List K) :
    (m.assign d a b n l).assign d' a' b' n' l' = (m.assign d' a' b' n' l').assign d a b n l := by
  simp only [MeshData.assign]
  rw [Function.update_comm h, Function.update_comm h, Function.update_comm h, Function.update_comm h]

theorem parseMeshLoop_perm {l l' : List (AxisNode K)} (hp : l.Perm l')
    (hd : (l.map fun a => str2dir a.direction).Nodup) (m r : MeshData K) (h : parseMeshLoop l m = .ok r) :
    parseMeshLoop l' m = .ok r := by
  induction hp generalizing m with
  | nil => exact h
  | cons x _ ih =>
    simp only [parseMeshLoop] at h ⊢
    rcases hx : parseSubDomains x.subDomains x.start with e | ⟨n, ed, dL⟩
    · rw [hx] at h; cases h
    · rw [hx] at h
      simp only [bind, Except.bind] at h ⊢
      exact ih (by simp only [List.map_cons, List.nodup_cons] at hd; exact hd.2) _ h
  | swap x y l =>
    simp only [parseMeshLoop] at h ⊢
    rcases hy : parseSubDomains y.subDomains y.start with e | ⟨n, ed, dL⟩
    · rw [hy] at h; cases h
    · rcases hx : parseSubDomains x.subDomains x.start with e | ⟨n', ed', dL'⟩
      · rw [hy, hx] at h; cases h
      · rw [hy, hx] at h
        simp only [bind, Except.bind] at h ⊢
        rw [assign_comm]
        · exact h
        · intro he
          simp only [List.map_cons, List.nodup_cons, List.mem_cons, not_or] at hd
          exact hd.1.1 he.symm
  | trans h1 h2 ih1 ih2 =>
    exact ih2 ((h1.map _).nodup_iff.1 hd) m (ih1 hd m h)

theorem parseMeshLoop_notin (l : List (AxisNode K)) (m r : MeshData K) (h : parseMeshLoop l m = .ok r) (d : ℕ)
    (hd : d ∉ l.map fun a => str2dir a.direction) :
    r.bg d = m.bg d ∧ r.ed d = m.ed d ∧ r.n d = m.n d ∧ r.dL d = m.dL d := by
  induction l generalizing m with
  | nil => simp only [parseMeshLoop, Except.ok.injEq] at h; subst h; exact ⟨rfl, rfl, rfl, rfl⟩
  | cons x xs ih =>
    simp only [parseMeshLoop] at h
    simp only [List.map_cons, List.mem_cons, not_or] at hd
    rcases hx : parseSubDomains x.subDomains x.start with e | ⟨n, ed, dL⟩
    · rw [hx] at h; cases h
    · rw [hx] at h
      simp only [bind, Except.bind] at h
      obtain ⟨h1, h2, h3, h4⟩ := ih _ h hd.2
      rw [h1, h2, h3, h4]
      simp [MeshData.assign, hd.1]

theorem parseMeshLoop_in (l : List (AxisNode K)) (m r : MeshData K) (h : parseMeshLoop l m = .ok r)
    (hnd : (l.map fun a => str2dir a.direction).Nodup) (ax : AxisNode K) (hax : ax ∈ l) :
    parseSubDomains ax.subDomains ax.start =
        .ok (r.n (str2dir ax.direction), r.ed (str2dir ax.direction), r.dL (str2dir ax.direction)) ∧
      r.bg (str2dir ax.direction) = ax.start := by
  induction l generalizing m with
  | nil => simp at hax
  | cons x xs ih =>
    simp only [parseMeshLoop] at h
    simp only [List.map_cons, List.nodup_cons] at hnd
    rcases hx : parseSubDomains x.subDomains x.start with e | ⟨n, ed, dL⟩
    · rw [hx] at h; cases h
    · rw [hx] at h
      simp only [bind, Except.bind] at h
      rcases List.mem_cons.1 hax with rfl | hax
      · obtain ⟨h1, h2, h3, h4⟩ := parseMeshLoop_notin _ _ _ h _ hnd.1
        rw [h1, h2, h3, h4, hx]
        simp [MeshData.assign]
      · exact ih _ h hnd.2 hax

end PetIBM
