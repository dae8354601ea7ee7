/-
Lemmas on the periodicity check and on the boundary-condition section.
-/
import Verif.Lemmas.Parser
import Mathlib.Data.List.Induction

set_option linter.unusedSectionVars false

namespace PetIBM

open Spec

variable {K : Type*} [Field K] [LinearOrder K] [IsStrictOrderedRing K]

theorem checkCounterpart_both (T : ℕ → ℕ → BCType) (f d : ℕ) (P : ℕ → ℕ → Bool) (h : BothPeriodic T f d) :
    checkCounterpart T f d P = .ok (Function.update P f (Function.update (P f) d true)) := by
  obtain ⟨h1, h2⟩ := h
  rw [mul_comm] at h1 h2
  simp [checkCounterpart, h1, h2]

theorem checkCounterpart_none (T : ℕ → ℕ → BCType) (f d : ℕ) (P : ℕ → ℕ → Bool) (h : NonePeriodic T f d) :
    checkCounterpart T f d P = .ok P := by
  obtain ⟨h1, h2⟩ := h
  rw [mul_comm] at h1 h2
  simp [checkCounterpart, h1, h2]

theorem checkCounterpart_mixed (T : ℕ → ℕ → BCType) (f d : ℕ) (P : ℕ → ℕ → Bool) (h : ¬ BothPeriodic T f d)
    (h' : ¬ NonePeriodic T f d) : checkCounterpart T f d P = .error .argIncompatible := by
  unfold BothPeriodic at h
  unfold NonePeriodic at h'
  rw [mul_comm] at h h'
  unfold checkCounterpart
  by_cases h1 : T f (d * 2) = .PERIODIC <;> by_cases h2 : T f (d * 2 + 1) = .PERIODIC <;> simp_all

theorem loopPairs_ok (T : ℕ → ℕ → BCType) (ps : List (ℕ × ℕ)) (P0 P : ℕ → ℕ → Bool) :
    loopPairs (fun f d P => checkCounterpart T f d P) ps P0 = .ok P ↔
      (∀ p ∈ ps, BothPeriodic T p.1 p.2 ∨ NonePeriodic T p.1 p.2) ∧
      ∀ f d, (P f d = true ↔ P0 f d = true ∨ ((f, d) ∈ ps ∧ BothPeriodic T f d)) := by
  induction ps generalizing P0 with
  | nil =>
    simp only [loopPairs, Except.ok.injEq, List.not_mem_nil, false_and, or_false, IsEmpty.forall_iff, implies_true,
      true_and]
    constructor
    · rintro rfl; simp
    · intro h; funext f d; exact (Bool.eq_iff_iff.2 (h f d)).symm
  | cons p ps ih =>
    obtain ⟨f0, d0⟩ := p
    simp only [loopPairs]
    by_cases hb : BothPeriodic T f0 d0
    · rw [checkCounterpart_both T f0 d0 P0 hb]
      simp only [bind, Except.bind]
      rw [ih]
      simp only [List.mem_cons, forall_eq_or_imp, hb, true_or, true_and, Prod.mk.injEq]
      refine and_congr_right fun _ => forall_congr' fun f => forall_congr' fun d => ?_
      by_cases hf : f = f0 <;> by_cases hd : d = d0
      · subst hf hd; simp [hb]
      · subst hf; simp [hd]
      · simp [hf]
      · simp [hf]
    · by_cases hn : NonePeriodic T f0 d0
      · rw [checkCounterpart_none T f0 d0 P0 hn]
        simp only [bind, Except.bind]
        rw [ih]
        simp only [List.mem_cons, forall_eq_or_imp, hn, or_true, true_and, Prod.mk.injEq]
        refine and_congr_right fun _ => forall_congr' fun f => forall_congr' fun d => ?_
        have : (f = f0 ∧ d = d0) → ¬ BothPeriodic T f d := by rintro ⟨rfl, rfl⟩; exact hb
        refine iff_congr Iff.rfl ?_
        constructor
        · rintro (h | ⟨h, h'⟩)
          · exact Or.inl h
          · exact Or.inr ⟨Or.inr h, h'⟩
        · rintro (h | ⟨h | h, h'⟩)
          · exact Or.inl h
          · exact absurd h' (this h)
          · exact Or.inr ⟨h, h'⟩
      · rw [checkCounterpart_mixed T f0 d0 P0 hb hn]
        simp only [bind, Except.bind, reduceCtorEq, false_iff, not_and]
        intro h
        rcases h (f0, d0) (by simp) with h | h
        · exact absurd h hb
        · exact absurd h hn

theorem mem_pairs3 (f d : ℕ) : (f, d) ∈ pairs3 ↔ f < 3 ∧ d < 3 := by
  simp [pairs3]

theorem countPeriodic_eq (P : ℕ → ℕ → Bool) (d : ℕ) : countPeriodic P d =
    (if P 0 d then 1 else 0) + (if P 1 d then 1 else 0) + (if P 2 d then 1 else 0) := by
  simp only [countPeriodic, List.range_succ, List.range_zero, List.nil_append, List.foldl_append, List.foldl_cons,
    List.foldl_nil]
  cases P 0 d <;> cases P 1 d <;> cases P 2 d <;> rfl

/-- the table after a list of entries -/
def applyEntry (T : BCTable K) (e : Entry K) : BCTable K :=
  Function.update T e.comp (Function.update (T e.comp) e.loc (e.type, e.value))

theorem applyEntries_get (es : List (Entry K)) (T : BCTable K) (c b : ℕ) :
    (es.foldl applyEntry T) c b = (lastFor es c b).getD (T c b) := by
  induction es using List.reverseRecOn with
  | nil => simp [lastFor]
  | append_singleton es e ih =>
    rw [List.foldl_append, List.foldl_cons, List.foldl_nil]
    by_cases h : e.comp = c ∧ e.loc = b
    · obtain ⟨rfl, rfl⟩ := h
      simp [applyEntry, lastFor]
    · have h1 : lastFor (es ++ [e]) c b = lastFor es c b := by
        unfold lastFor; simp [List.filter_append, h]
      rw [h1, ← ih]
      unfold applyEntry
      by_cases hc : c = e.comp
      · subst hc
        have : b ≠ e.loc := fun hb => h ⟨rfl, hb.symm⟩
        simp [this]
      · simp [hc]

theorem compNamed_str {s : String} {c : ℕ} (h : compNamed s = some c) : str2fd s = c ∧ c < 3 ∧ s ≠ "location" := by
  unfold compNamed at h
  split at h <;> simp_all [str2fd] <;> subst_vars <;> decide

theorem typeNamed_str {s : String} {t : BCType} (h : typeNamed s = some t) : str2bt s = t := by
  unfold typeNamed at h
  split at h <;> simp_all [str2bt]

theorem locNamed_str {s : String} {l : ℕ} (h : locNamed s = some l) : str2bl s = l := by
  unfold locNamed at h
  split at h <;> simp_all [str2bl]

theorem parseBCItems_entries (loc : ℕ) (items : List (String × String × K)) (es : List (Entry K)) (T : BCTable K)
    (h : ((items.filter (fun it => it.1 ≠ "location")).mapM fun it =>
      (compNamed it.1).bind fun c => (typeNamed it.2.1).map fun t => (⟨c, loc, t, it.2.2⟩ : Entry K)) = some es) :
    parseBCItems loc items T = .ok (es.foldl applyEntry T) := by
  induction items generalizing es T with
  | nil => simp at h; subst h; rfl
  | cons it items ih =>
    obtain ⟨key, t, v⟩ := it
    by_cases hk : key = "location"
    · simp only [parseBCItems, hk, ne_eq, not_true_eq_false, if_false]
      apply ih
      simpa [List.filter_cons, hk] using h
    · simp only [parseBCItems, hk, ne_eq, not_false_eq_true, if_true]
      rw [List.filter_cons_of_pos (by simpa using hk), List.mapM_cons] at h
      simp only [Option.bind_eq_bind, Option.bind_eq_some_iff, Option.map_eq_some_iff, Option.pure_def,
        Option.some.injEq] at h
      obtain ⟨e, ⟨c, hc, ty, hty, rfl⟩, es', hes', rfl⟩ := h
      obtain ⟨h1, h2, _⟩ := compNamed_str hc
      rw [h1, typeNamed_str hty, bcAssign, if_pos h2]
      simp only [bind, Except.bind, List.foldl_cons]
      exact ih es' _ hes'

theorem parseBCList_entries (bs : List (BCNode K)) (es : List (Entry K)) (T : BCTable K)
    (h : allEntries bs = some es) : parseBCList bs T = .ok (es.foldl applyEntry T) := by
  induction bs generalizing es T with
  | nil => simp [allEntries] at h; subst h; rfl
  | cons b bs ih =>
    unfold allEntries at h
    rw [List.mapM_cons] at h
    simp only [Option.bind_eq_bind, Option.map_eq_some_iff, Option.bind_eq_some_iff, Option.pure_def,
      Option.some.injEq] at h
    obtain ⟨ess, ⟨e1, he1, ess', hess', rfl⟩, rfl⟩ := h
    unfold entriesOf at he1
    simp only [Option.bind_eq_some_iff] at he1
    obtain ⟨l, hl, loc, hloc, he1⟩ := he1
    simp only [parseBCList, hl, locNamed_str hloc]
    rw [parseBCItems_entries loc b.items e1 T he1]
    simp only [bind, Except.bind, List.flatten_cons, List.foldl_append]
    apply ih
    unfold allEntries
    rw [hess']; rfl

end PetIBM
