import Verif.Spec.BodyFile
import Mathlib.Data.List.Forall2
import Mathlib.Tactic.Ring

namespace PetIBM

open Spec

variable {K : Type}

theorem readReals_iff (R : Reader K) (d : ℕ) (s : List Char) (vs : List K) (rest : List Char) :
    readReals R d s = some (vs, rest) ↔ Numbers R s vs rest ∧ vs.length = d := by
  induction d generalizing s vs rest with
  | zero =>
    simp only [readReals, Option.some.injEq, Prod.mk.injEq]
    constructor
    · rintro ⟨rfl, rfl⟩; exact ⟨.nil _, rfl⟩
    · rintro ⟨h, hl⟩
      cases h with
      | nil => exact ⟨rfl, rfl⟩
      | cons => simp at hl
  | succ d ih =>
    simp only [readReals]
    constructor
    · intro h
      split at h
      · cases h
      · rename_i v t hv
        split at h
        · cases h
        · rename_i vs' rest' hr
          simp only [Option.some.injEq, Prod.mk.injEq] at h
          obtain ⟨rfl, rfl⟩ := h
          obtain ⟨h1, h2⟩ := (ih _ _ _).1 hr
          exact ⟨.cons hv h1, by simp [h2]⟩
    · rintro ⟨h, hl⟩
      cases h with
      | nil => simp at hl
      | cons hv hr =>
        rw [hv]
        have := (ih _ _ _).2 ⟨hr, by simpa using hl⟩
        simp only [this]

theorem Spec.Numbers.length_le {R : Reader K} {s rest : List Char} {vs : List K} (h : Numbers R s vs rest) :
    rest.length + vs.length ≤ s.length := by
  induction h with
  | nil => simp
  | cons hv _ ih => have := R.real_shorter _ _ _ hv; simp only [List.length_cons]; omega

theorem Spec.Numbers.unique {R : Reader K} {s rest rest' : List Char} {vs vs' : List K} (h : Numbers R s vs rest)
    (h' : Numbers R s vs' rest') (hl : vs.length = vs'.length) : vs = vs' ∧ rest = rest' := by
  induction h generalizing vs' rest' with
  | nil s =>
    cases h' with
    | nil => exact ⟨rfl, rfl⟩
    | cons => simp at hl
  | cons hv _ ih =>
    cases h' with
    | nil => simp at hl
    | cons hv' hr' =>
      rw [hv] at hv'
      simp only [Option.some.injEq, Prod.mk.injEq] at hv'
      obtain ⟨rfl, rfl⟩ := hv'
      obtain ⟨rfl, rfl⟩ := ih hr' (by simpa using hl)
      exact ⟨rfl, rfl⟩

/-- the counting loop finds the longest sequence of numbers -/
theorem countReals_numbers (R : Reader K) (fuel : ℕ) (s : List Char) (hf : s.length ≤ fuel) :
    ∃ vs rest, Numbers R s vs rest ∧ vs.length = countReals R fuel s ∧ R.real rest = none := by
  induction fuel generalizing s with
  | zero =>
    have hs : s = [] := List.length_eq_zero_iff.1 (by omega)
    refine ⟨[], s, .nil _, rfl, ?_⟩
    rcases h : R.real s with _ | ⟨v, t⟩
    · rfl
    · have := R.real_shorter _ _ _ h; simp [hs] at this
  | succ fuel ih =>
    rcases h : R.real s with _ | ⟨v, t⟩
    · exact ⟨[], s, .nil _, by simp [countReals, h], h⟩
    · have := R.real_shorter _ _ _ h
      obtain ⟨vs, rest, h1, h2, h3⟩ := ih t (by omega)
      exact ⟨v :: vs, rest, .cons h h1, by simp [countReals, h, h2], h3⟩

theorem countReals_eq {R : Reader K} {s rest : List Char} {vs : List K} (h : Numbers R s vs rest)
    (he : R.real rest = none) (fuel : ℕ) (hf : s.length ≤ fuel) : countReals R fuel s = vs.length := by
  induction h generalizing fuel with
  | nil s =>
    cases fuel with
    | zero => rfl
    | succ n => simp [countReals, he]
  | cons hv _ ih =>
    have := R.real_shorter _ _ _ hv
    cases fuel with
    | zero => omega
    | succ n => simp [countReals, hv, ih he n (by omega)]

theorem readRest_ok_iff (R : Reader K) (n dim : ℕ) (ls : List (List Char)) (c : ℕ) (acc : List (List K)) (c' : ℕ)
    (acc' : List (List K)) : readRest R n dim ls c acc = .ok (c', acc') ↔
      ∃ vss, List.Forall₂ (CoordinateLine R dim) ls vss ∧ c' = c + ls.length ∧ acc' = acc ++ vss ∧
        (ls = [] ∨ c + ls.length ≤ n) := by
  induction ls generalizing c acc with
  | nil =>
    simp only [readRest, Except.ok.injEq, Prod.mk.injEq]
    constructor
    · rintro ⟨rfl, rfl⟩
      exact ⟨[], .nil, by simp, by simp, by simp⟩
    · rintro ⟨vss, h, rfl, rfl, _⟩
      cases h
      simp
  | cons l ls ih =>
    simp only [readRest]
    by_cases hc : n ≤ c
    · rw [if_pos hc]
      constructor
      · intro h; cases h
      · rintro ⟨_, _, _, _, h⟩
        simp at h; omega
    · rw [if_neg hc]
      constructor
      · intro h
        split at h
        · cases h
        · rename_i vs rest hr
          by_cases he : rest = []
          · rw [if_neg (by simpa using he)] at h
            obtain ⟨vss, h1, h2, h3, h4⟩ := (ih _ _).1 h
            subst he
            have hv := (readReals_iff _ _ _ _ _).1 hr
            refine ⟨vs :: vss, .cons hv h1, by simp only [List.length_cons]; omega, by simp [h3], Or.inr ?_⟩
            simp only [List.length_cons]
            rcases h4 with rfl | h4
            · simp; omega
            · omega
          · rw [if_pos he] at h; cases h
      · rintro ⟨vss, h1, h2, h3, h4⟩
        cases h1 with
        | cons hv h1 =>
          rename_i vs vss
          rw [(readReals_iff _ _ _ _ _).2 hv]
          simp only [ne_eq, not_true_eq_false, if_false]
          rw [ih]
          simp only [List.length_cons] at h2 h4
          refine ⟨vss, h1, by omega, by simp [h3], Or.inr ?_⟩
          rcases h4 with h4 | h4
          · simp at h4
          · omega

theorem readRest_ub_iff (R : Reader K) (n dim : ℕ) (ls : List (List Char)) (c : ℕ) (acc : List (List K)) (hc : c ≤ n) :
    readRest R n dim ls c acc = .error .ub ↔ ∃ good bad more, ls = good ++ bad :: more ∧ c + good.length = n ∧
      ∀ l ∈ good, ∃ ws, CoordinateLine R dim l ws := by
  induction ls generalizing c acc with
  | nil => simp [readRest]
  | cons l ls ih =>
    simp only [readRest]
    by_cases hcn : n ≤ c
    · rw [if_pos hcn]
      simp only [true_iff]
      exact ⟨[], l, ls, rfl, by simp; omega, by simp⟩
    · rw [if_neg hcn]
      constructor
      · intro h
        split at h
        · cases h
        · rename_i vs rest hr
          by_cases he : rest = []
          · rw [if_neg (by simpa using he)] at h
            obtain ⟨good, bad, more, rfl, h2, h3⟩ := (ih _ _ (by omega)).1 h
            subst he
            have hv := (readReals_iff _ _ _ _ _).1 hr
            refine ⟨l :: good, bad, more, rfl, by simp only [List.length_cons]; omega, ?_⟩
            intro l' hl'
            rcases List.mem_cons.1 hl' with rfl | hl'
            · exact ⟨vs, hv⟩
            · exact h3 _ hl'
          · rw [if_pos he] at h; cases h
      · rintro ⟨good, bad, more, h1, h2, h3⟩
        cases good with
        | nil => simp at h2; omega
        | cons g good =>
          simp only [List.cons_append, List.cons.injEq] at h1
          obtain ⟨rfl, rfl⟩ := h1
          obtain ⟨ws, hw⟩ := h3 l (by simp)
          rw [(readReals_iff _ _ _ _ _).2 hw]
          simp only [ne_eq, not_true_eq_false, if_false]
          rw [ih _ _ (by omega)]
          simp only [List.length_cons] at h2
          exact ⟨good, bad, more, rfl, by omega, fun l' hl' => h3 l' (by simp [hl'])⟩

theorem second_getline (t : Bool) (head : List Char) (ls : List (List Char)) :
    getline ⟨ls, t, !ls.isEmpty || t⟩ head = match ls with
      | [] => if t then (false, [], ⟨[], t, false⟩) else (false, head, ⟨[], t, false⟩)
      | l :: ls' => (true, l, ⟨ls', t, !ls'.isEmpty || t⟩) := by
  cases ls with
  | nil => cases t <;> rfl
  | cons l ls' => simp [getline]

/-- the reader behind the first line -/
theorem read_head (R : Reader K) (f : TextFile) (head : List Char) (ls : List (List Char)) (hf : f.lines = head :: ls)
    (n : ℤ) (hn : R.int head = some (n, [])) :
    readLagrangianPoints R (some f) =
      (let first := match ls with
        | [] => if f.terminated then [] else head
        | l :: _ => l
      let dim := countReals R first.length first
      if dim = 0 then .error .fileRead
      else if n < 0 then .error .exception
      else if n = 0 then .error .ub
      else match readReals R dim first with
        | none => .error .fileRead
        | some (vs, _) => do
          let (c, coords) ← readRest R n.toNat dim ls.tail 1 [vs]
          if (c : ℤ) ≠ n then .error .fileRead
          else return (n.toNat, coords)) := by
  have h1 : getline f.open [] = (true, head, ⟨ls, f.terminated, !ls.isEmpty || f.terminated⟩) := by
    simp [getline, TextFile.open, hf]
  simp only [readLagrangianPoints, h1, hn, second_getline, ne_eq, not_true_eq_false, if_false]
  cases ls with
  | nil => cases f.terminated <;> rfl
  | cons l ls' => rfl

end PetIBM
