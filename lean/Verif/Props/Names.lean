/-
C103: names of enumerators.
-/
import Verif.Model.Names
import Mathlib.Tactic.IntervalCases

set_option linter.unusedSectionVars false

namespace PetIBM

/-- what a map holds for a key -/
def NameMap.get {κ T : Type} [DecidableEq κ] (m : NameMap κ T) (key : κ) : Option T := (m.find? (fun e => e.1 = key)).map (·.2)

section
variable {κ T : Type} [DecidableEq κ] {zero : T}

theorem names_at (m : NameMap κ T) (key : κ) : (NameMap.at zero m key).1 = (m.get key).getD zero := by
  unfold NameMap.at NameMap.get
  cases m.find? (fun e => e.1 = key) <;> rfl

theorem names_step (m : NameMap κ T) (k key : κ) : (((NameMap.at zero m k).2).get key).getD zero = (m.get key).getD zero := by
  unfold NameMap.at
  cases h : m.find? (fun e => e.1 = k) with
  | some e => rfl
  | none =>
    unfold NameMap.get
    simp only
    rw [List.find?_append]
    cases h' : m.find? (fun e => e.1 = key) with
    | some e => rfl
    | none =>
      simp only [Option.none_or, Option.map_none, Option.getD_none]
      by_cases hk : k = key
      · simp [hk]
      · simp [hk]

theorem get_none {m : NameMap κ T} {key : κ} (h : key ∉ m.map (·.1)) : m.get key = none := by
  unfold NameMap.get
  rw [List.find?_eq_none.2]
  · rfl
  · intro x hx
    simp only [decide_eq_true_eq]
    rintro rfl
    exact h (List.mem_map_of_mem hx)

/-- what a look-up gives does not depend on the look-ups before it -/
theorem names_after (m : NameMap κ T) (keys : List κ) (key : κ) :
    (NameMap.at zero (NameMap.after zero m keys) key).1 = (m.get key).getD zero := by
  rw [names_at]
  unfold NameMap.after
  induction keys generalizing m with
  | nil => rfl
  | cons k ks ih => rw [List.foldl_cons, ih, names_step]

end

/-! ### C103 -/

/-- C103. What a name stands for never depends on what was looked up before, though every look-up of an unknown name changes the map: it is always the
value that the model uses. -/
theorem C103_names (before : List String) (s : String) :
    (NameMap.at 0 (NameMap.after 0 str2dirMap before) s).1 = str2dir s ∧ (NameMap.at 0 (NameMap.after 0 str2fdMap before) s).1 = str2fd s ∧
      (NameMap.at .NOBC (NameMap.after .NOBC str2btMap before) s).1 = str2bt s ∧ (NameMap.at 0 (NameMap.after 0 str2blMap before) s).1 = str2bl s ∧
      (NameMap.at .POINT (NameMap.after .POINT str2ProbeTypeMap before) s).1 = str2ProbeType s := by
  simp only [names_after]
  refine ⟨?_, ?_, ?_, ?_, ?_⟩
  · by_cases h : s ∈ str2dirMap.map (·.1)
    · simp only [str2dirMap, List.map_cons, List.map_nil, List.mem_cons, List.not_mem_nil, or_false] at h
      rcases h with rfl | rfl | rfl <;> decide +kernel
    · rw [get_none h]
      simp only [str2dirMap, List.map_cons, List.map_nil, List.mem_cons, List.not_mem_nil, or_false, not_or] at h
      simp [str2dir, h]
  · by_cases h : s ∈ str2fdMap.map (·.1)
    · simp only [str2fdMap, List.map_cons, List.map_nil, List.mem_cons, List.not_mem_nil, or_false] at h
      rcases h with rfl | rfl | rfl | rfl | rfl <;> decide +kernel
    · rw [get_none h]
      simp only [str2fdMap, List.map_cons, List.map_nil, List.mem_cons, List.not_mem_nil, or_false, not_or] at h
      simp [str2fd, h]
  · by_cases h : s ∈ str2btMap.map (·.1)
    · simp only [str2btMap, List.map_cons, List.map_nil, List.mem_cons, List.not_mem_nil, or_false] at h
      rcases h with rfl | rfl | rfl | rfl | rfl <;> decide +kernel
    · rw [get_none h]
      simp only [str2btMap, List.map_cons, List.map_nil, List.mem_cons, List.not_mem_nil, or_false, not_or] at h
      simp [str2bt, h]
  · by_cases h : s ∈ str2blMap.map (·.1)
    · simp only [str2blMap, List.map_cons, List.map_nil, List.mem_cons, List.not_mem_nil, or_false] at h
      rcases h with rfl | rfl | rfl | rfl | rfl | rfl | rfl | rfl | rfl | rfl | rfl | rfl | rfl | rfl | rfl | rfl | rfl | rfl <;> decide +kernel
    · rw [get_none h]
      simp only [str2blMap, List.map_cons, List.map_nil, List.mem_cons, List.not_mem_nil, or_false, not_or] at h
      simp [str2bl, h]
  · by_cases h : s ∈ str2ProbeTypeMap.map (·.1)
    · simp only [str2ProbeTypeMap, List.map_cons, List.map_nil, List.mem_cons, List.not_mem_nil, or_false] at h
      rcases h with rfl | rfl | rfl | rfl <;> decide +kernel
    · rw [get_none h]
      simp only [str2ProbeTypeMap, List.map_cons, List.map_nil, List.mem_cons, List.not_mem_nil, or_false, not_or] at h
      simp [str2ProbeType, h]

/-- C103. Reading back what was written gives the same direction, field, type or location, whatever was read or written before. -/
theorem C103_round_trip (read : List String) :
    (∀ e written (d : ℕ), e < 3 → ∃ m, decodeName 0 (NameMap.after 0 str2dirMap read) (encodeName (NameMap.after "" dir2strMap written) e).1 d =
      .ok (true, e, m)) ∧
    (∀ e written (d : ℕ), e < 5 → ∃ m, decodeName 0 (NameMap.after 0 str2fdMap read) (encodeName (NameMap.after "" fd2strMap written) e).1 d =
      .ok (true, e, m)) ∧
    (∀ e written d, ∃ m, decodeName .NOBC (NameMap.after .NOBC str2btMap read) (encodeName (NameMap.after "" bt2strMap written) e).1 d =
      .ok (true, e, m)) ∧
    ∀ e written (d : ℕ), e < 6 → ∃ m, decodeName 0 (NameMap.after 0 str2blMap read) (encodeName (NameMap.after "" bl2strMap written) e).1 d =
      .ok (true, e, m) := by
  have key : ∀ {E : Type} [DecidableEq E] (zero : E) (m : NameMap String E) (names : NameMap E String) (written : List E) (e d : E),
      (m.get ((names.get e).getD "")).getD zero = e →
      ∃ m', decodeName zero (NameMap.after zero m read) (encodeName (NameMap.after "" names written) e).1 d = .ok (true, e, m') := by
    intro E _ zero m names written e d h
    refine ⟨(NameMap.at zero (NameMap.after zero m read) (NameMap.at "" (NameMap.after "" names written) e).1).2, ?_⟩
    unfold encodeName decodeName
    simp only
    rw [names_after (zero := ""), names_after, h]
  refine ⟨fun e w d he => key _ _ _ _ _ _ ?_, fun e w d he => key _ _ _ _ _ _ ?_, fun e w d => key _ _ _ _ _ _ ?_, fun e w d he => key _ _ _ _ _ _ ?_⟩
  · interval_cases e <;> rfl
  · interval_cases e <;> rfl
  · cases e <;> rfl
  · interval_cases e <;> rfl

/-- C103. A missing node changes nothing and is answered with "no"; a list or a map stops the program; a scalar is always answered with "yes", whatever
it says. -/
theorem C103_answers {E : Type} (zero : E) (m : NameMap String E) (e : E) :
    decodeName zero m .undefined e = .ok (false, e, m) ∧ decodeName zero m .other e = .error .exception ∧
      ∀ s, ∃ e' m', decodeName zero m (.scalar s) e = .ok (true, e', m') :=
  ⟨rfl, rfl, fun _ => ⟨_, _, rfl⟩⟩

/-- C103. The names in files: those of the maps, whatever was written before. -/
theorem C103_written (before : List ℕ) : (∀ f, f < 5 → (NameMap.at "" (NameMap.after "" fd2strMap before) f).1 = gridName f) ∧
    (∀ f, f < 4 → (NameMap.at "" (NameMap.after "" fd2strMap before) f).1 = fd2str f) ∧
    ∀ d, d < 3 → (NameMap.at "" (NameMap.after "" dir2strMap before) d).1 = dirName d := by
  simp only [names_after]
  refine ⟨fun f hf => ?_, fun f hf => ?_, fun d hd => ?_⟩
  · interval_cases f <;> rfl
  · interval_cases f <;> rfl
  · interval_cases d <;> rfl

/-- C103. The names of the map of locations: each of the six locations has its three, and no others. -/
theorem C103_locations (before : List String) (s : String) (loc : ℕ) (h : s ∈ str2blMap.map (·.1)) :
    (NameMap.at 0 (NameMap.after 0 str2blMap before) s).1 = loc ↔
      s ∈ [["left", "xMinus", "XMINUS"], ["right", "xPlus", "XPLUS"], ["bottom", "yMinus", "YMINUS"], ["top", "yPlus", "YPLUS"],
        ["back", "zMinus", "ZMINUS"], ["front", "zPlus", "ZPLUS"]].getD loc [] := by
  rw [names_after]
  by_cases hl : loc < 6
  · simp only [str2blMap, List.map_cons, List.map_nil, List.mem_cons, List.not_mem_nil, or_false] at h
    interval_cases loc <;> rcases h with rfl | rfl | rfl | rfl | rfl | rfl | rfl | rfl | rfl | rfl | rfl | rfl | rfl | rfl | rfl | rfl | rfl | rfl <;>
      decide +kernel
  · have e : ([["left", "xMinus", "XMINUS"], ["right", "xPlus", "XPLUS"], ["bottom", "yMinus", "YMINUS"], ["top", "yPlus", "YPLUS"],
        ["back", "zMinus", "ZMINUS"], ["front", "zPlus", "ZPLUS"]] : List (List String)).getD loc [] = [] := by
      rw [List.getD_eq_getElem?_getD, List.getElem?_eq_none (by simp only [List.length_cons, List.length_nil]; omega)]
      rfl
    rw [e]
    simp only [str2blMap, List.map_cons, List.map_nil, List.mem_cons, List.not_mem_nil, or_false, iff_false] at h ⊢
    rcases h with rfl | rfl | rfl | rfl | rfl | rfl | rfl | rfl | rfl | rfl | rfl | rfl | rfl | rfl | rfl | rfl | rfl | rfl <;>
      · intro hc
        have : loc < 6 := by rw [← hc]; decide +kernel
        exact hl this

/-- An unknown name: the first enumerator, and the map has grown. -/
example : NameMap.at 0 str2blMap "up" = (0, str2blMap ++ [("up", 0)]) ∧ (NameMap.at 0 (NameMap.after 0 str2blMap ["up", "top", "up"]) "top").1 = 3 := by
  decide +kernel

end PetIBM
