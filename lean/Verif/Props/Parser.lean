/-
Properties C10, C11, C12: mesh section, periodicity check, boundary-condition section.
-/
import Verif.Lemmas.ParserBC
import Mathlib.Algebra.Order.Ring.Rat

set_option linter.unusedSectionVars false

namespace PetIBM

open Spec

variable {K : Type*} [Field K] [LinearOrder K] [IsStrictOrderedRing K]

/-! ### C10 -/

/-- C10. One axis: the widths are the concatenation of one segment per sub-domain, each with the requested number
of cells, length, ratio and sign; the cell count and the domain end are those requested. -/
theorem C10_cells (subs : List (SubDomain K)) (bg : K) (hc : ∀ s ∈ subs, 1 ≤ s.cells) (n : ℤ) (ed : K) (dL : List K)
    (h : parseSubDomains subs bg = .ok (n, ed, dL)) :
    n = (subs.map (·.cells)).sum ∧ (dL.length : ℤ) = n ∧ ed = lastEnd bg subs ∧
      ∃ segs, dL = segs.flatten ∧ Segments bg subs segs := by
  obtain ⟨segs, h1, h2, h3, h4, h5⟩ := parseSubDomainsLoop_spec subs hc 0 bg [] n ed dL h
  rw [zero_add] at h2
  rw [List.nil_append] at h1
  exact ⟨h2, by rw [h1, h5, h2], h3, segs, h1, h4⟩

/-- C10. Every list of sub-domains with at least one cell each and positive ratios is accepted. -/
theorem C10_accepts (subs : List (SubDomain K)) (bg : K) (hc : ∀ s ∈ subs, 1 ≤ s.cells ∧ 0 < s.stretchRatio) :
    ∃ r, parseSubDomains subs bg = .ok r :=
  parseSubDomainsLoop_accepts subs hc _

/-- C10. With increasing ends and positive ratios the axis is a proper mesh direction: positive widths adding up to
the length of the domain. -/
theorem C10_positive_widths (subs : List (SubDomain K)) (bg : K) (hne : subs ≠ [])
    (hc : ∀ s ∈ subs, 1 ≤ s.cells ∧ 0 < s.stretchRatio) (hf : Forward bg subs) (n : ℤ) (ed : K) (dL : List K)
    (h : parseSubDomains subs bg = .ok (n, ed, dL)) : AxisOK (⟨bg, ed, dL⟩ : Axis K) := by
  obtain ⟨h1, h2, h3, segs, h4, h5⟩ := C10_cells subs bg (fun s hs => (hc s hs).1) n ed dL h
  refine ⟨?_, ?_, ?_⟩
  · intro h0
    simp only at h0
    rw [h0, h1] at h2
    cases subs with
    | nil => exact hne rfl
    | cons s ss =>
      have hs := (hc s (by simp)).1
      have : 0 ≤ (ss.map (·.cells)).sum := by
        apply List.sum_nonneg
        intro x hx
        obtain ⟨s', hs', rfl⟩ := List.mem_map.1 hx
        have := (hc s' (by simp [hs'])).1
        omega
      simp only [List.length_nil, Nat.cast_zero, List.map_cons, List.sum_cons] at h2
      omega
  · simp only; rw [h4]
    exact segments_pos bg subs segs h5 hf (fun s hs => (hc s hs).2)
  · simp only; rw [h4, segments_sum bg subs segs h5, h3]; ring

/-- C10. The order of the axes in the file does not matter (distinct directions). -/
theorem C10_axis_order (l l' : List (AxisNode K)) (hp : l.Perm l')
    (hd : (l.map fun a => dirNamed a.direction).Nodup) (hk : ∀ a ∈ l, dirNamed a.direction ≠ none)
    (r : ℕ × MeshData K) (h : parseMesh l = .ok r) : parseMesh l' = .ok r := by
  have hsd : ∀ s d, dirNamed s = some d → str2dir s = d := by
    intro s d hs
    unfold dirNamed at hs
    split at hs <;> simp_all [str2dir]
  have hd' : (l.map fun a => str2dir a.direction).Nodup := by
    have : l.map (fun a => dirNamed a.direction) = (l.map fun a => str2dir a.direction).map some := by
      rw [List.map_map]
      apply List.map_congr_left
      intro a ha
      obtain ⟨d, hd⟩ := Option.ne_none_iff_exists'.1 (hk a ha)
      simp [hd, hsd _ _ hd]
    rw [this] at hd
    exact List.Pairwise.of_map _ (fun a b (h : some a ≠ some b) hab => h (congrArg some hab)) hd
  unfold parseMesh at h ⊢
  rcases hl : parseMeshLoop l MeshData.default with e | m
  · rw [hl] at h; cases h
  · rw [hl] at h
    rw [parseMeshLoop_perm hp hd' _ _ hl, ← hp.length_eq]
    exact h

/-- C10. Each direction gets the data of the axis that names it; a direction that is not named keeps the default
single cell from zero to one. -/
theorem C10_axis_data (l : List (AxisNode K)) (hd : (l.map fun a => dirNamed a.direction).Nodup)
    (hk : ∀ a ∈ l, dirNamed a.direction ≠ none) (dim : ℕ) (m : MeshData K) (h : parseMesh l = .ok (dim, m)) :
    dim = l.length ∧
    (∀ ax ∈ l, ∀ d, dirNamed ax.direction = some d →
      parseSubDomains ax.subDomains ax.start = .ok (m.n d, m.ed d, m.dL d) ∧ m.bg d = ax.start) ∧
    (∀ d, (∀ ax ∈ l, dirNamed ax.direction ≠ some d) → m.n d = 1 ∧ m.dL d = [1] ∧ m.bg d = 0 ∧ m.ed d = 1) := by
  have hsd : ∀ s d, dirNamed s = some d → str2dir s = d := by
    intro s d hs
    unfold dirNamed at hs
    split at hs <;> simp_all [str2dir]
  have hmap : l.map (fun a => dirNamed a.direction) = (l.map fun a => str2dir a.direction).map some := by
    rw [List.map_map]
    apply List.map_congr_left
    intro a ha
    obtain ⟨d, hd⟩ := Option.ne_none_iff_exists'.1 (hk a ha)
    simp [hd, hsd _ _ hd]
  have hd' : (l.map fun a => str2dir a.direction).Nodup := by
    rw [hmap] at hd
    exact List.Pairwise.of_map _ (fun a b (h : some a ≠ some b) hab => h (congrArg some hab)) hd
  unfold parseMesh at h
  rcases hl : parseMeshLoop l MeshData.default with e | m'
  · rw [hl] at h; cases h
  · rw [hl] at h
    simp only [bind, Except.bind, pure, Except.pure, Except.ok.injEq, Prod.mk.injEq] at h
    obtain ⟨rfl, rfl⟩ := h
    refine ⟨rfl, ?_, ?_⟩
    · intro ax hax d hdn
      have := parseMeshLoop_in l _ _ hl hd' ax hax
      rwa [hsd _ _ hdn] at this
    · intro d hno
      have hnotin : d ∉ l.map fun a => str2dir a.direction := by
        intro hin
        obtain ⟨a, ha, hda⟩ := List.mem_map.1 hin
        obtain ⟨d', hd'⟩ := Option.ne_none_iff_exists'.1 (hk a ha)
        rw [hsd _ _ hd'] at hda
        subst hda
        exact hno a ha hd'
      obtain ⟨h1, h2, h3, h4⟩ := parseMeshLoop_notin l _ _ hl d hnotin
      exact ⟨h3, h4, h1, h2⟩

/-- Zero cells in a stretched sub-domain writes outside an array. -/
theorem C10_zero_cells_ub : ∃ (subs : List (SubDomain ℚ)), parseSubDomains subs 0 = .error .ub := by
  refine ⟨[⟨0, 1, 2⟩], ?_⟩
  have h : ¬ |(2:ℚ) - 1| ≤ (10 ^ 12)⁻¹ := by norm_num
  simp [parseSubDomains, parseSubDomainsLoop, parseOneSubDomain, h, stretchGrid, bind, Except.bind]

/-- two sub-domains: 2 cells from 0 to 3 with ratio 2, then one cell up to 4 -/
def exampleSubs : List (SubDomain ℚ) := [⟨2, 3, 2⟩, ⟨1, 4, 1⟩]

example : (∀ s ∈ exampleSubs, 1 ≤ s.cells ∧ 0 < s.stretchRatio) ∧ Forward 0 exampleSubs := by
  constructor
  · intro s hs; simp [exampleSubs] at hs; rcases hs with rfl | rfl <;> norm_num
  · simp [exampleSubs, Forward]; norm_num

example : parseSubDomains exampleSubs 0 = .ok (3, 4, [1, 2, 1]) := by
  have h : ¬ |(2:ℚ) - 1| ≤ (10 ^ 12)⁻¹ := by norm_num
  simp [exampleSubs, parseSubDomains, parseSubDomainsLoop, parseOneSubDomain, h, stretchGrid, bind, Except.bind,
    pure, Except.pure, geometric]
  norm_num

/-! ### C11 -/

/-- C11. The check accepts exactly the consistent tables and returns the periodic directions. `comps` is the number
of components the user gave conditions for (2 if nothing at all is given for w, else 3). -/
theorem C11_periodic_check (T : ℕ → ℕ → BCType) (comps : ℕ)
    (hcomps : (comps = 2 ∧ ∀ b, b < 6 → T 2 b = .NOBC) ∨ (comps = 3 ∧ ∃ b, b < 6 ∧ T 2 b ≠ .NOBC)) (P : ℕ → ℕ → Bool) :
    checkPeriodicBC T = .ok P ↔
      (∀ d, d < 3 → Consistent T comps d) ∧
      ∀ f d, (P f d = true ↔ f < 3 ∧ d < 3 ∧ BothPeriodic T f d) := by
  have hdim : (if (List.range 6).all (fun b => decide (T 2 b = .NOBC)) then 2 else 3) = comps := by
    rcases hcomps with ⟨rfl, h⟩ | ⟨rfl, b, hb, h⟩
    · rw [if_pos]; simpa using h
    · rw [if_neg]
      simp only [List.all_eq_true, List.mem_range, decide_eq_true_eq, not_forall]
      exact ⟨b, hb, h⟩
  have hc2 : comps = 2 → ∀ d, d < 3 → NonePeriodic T 2 d := by
    intro h2 d hd
    rcases hcomps with ⟨_, h⟩ | ⟨h3, _⟩
    · exact ⟨by rw [h _ (by omega)]; simp, by rw [h _ (by omega)]; simp⟩
    · omega
  have hcs : comps = 2 ∨ comps = 3 := by omega
  have key : ∀ P' : ℕ → ℕ → Bool,
      (∀ f d, (P' f d = true ↔ f < 3 ∧ d < 3 ∧ BothPeriodic T f d)) →
      (∀ f d, f < 3 → d < 3 → BothPeriodic T f d ∨ NonePeriodic T f d) →
      ∀ d, d < 3 → ((countPeriodic P' d = 0 ∨ countPeriodic P' d = comps) ↔ Consistent T comps d) := by
    intro P' hP hbn d hd
    have nb : ∀ f, NonePeriodic T f d → ¬ BothPeriodic T f d := fun f h h' => h.1 h'.1
    have hP' : ∀ f, f < 3 → (P' f d = true ↔ BothPeriodic T f d) := fun f hf => by
      rw [hP]; simp [hf, hd]
    rw [countPeriodic_eq]
    unfold Consistent
    have a0 := hP' 0 (by omega)
    have a1 := hP' 1 (by omega)
    have a2 := hP' 2 (by omega)
    have n0 := hbn 0 d (by omega) hd
    have n1 := hbn 1 d (by omega) hd
    have n2 := hbn 2 d (by omega) hd
    have all3 : ∀ Q : ℕ → Prop, (∀ f, f < 3 → Q f) ↔ Q 0 ∧ Q 1 ∧ Q 2 := by
      intro Q
      constructor
      · intro h; exact ⟨h 0 (by omega), h 1 (by omega), h 2 (by omega)⟩
      · rintro ⟨h0, h1, h2⟩ f hf; interval_cases f <;> assumption
    have all2 : ∀ Q : ℕ → Prop, (∀ f, f < 2 → Q f) ↔ Q 0 ∧ Q 1 := by
      intro Q
      constructor
      · intro h; exact ⟨h 0 (by omega), h 1 (by omega)⟩
      · rintro ⟨h0, h1⟩ f hf; interval_cases f <;> assumption
    have rest2 : ∀ Q : ℕ → Prop, (∀ f, 2 ≤ f → f < 3 → Q f) ↔ Q 2 := by
      intro Q
      constructor
      · intro h; exact h 2 (by omega) (by omega)
      · rintro h f h1 h2; obtain rfl : f = 2 := by omega
        exact h
    have rest3 : ∀ Q : ℕ → Prop, (∀ f, 3 ≤ f → f < 3 → Q f) ↔ True := by
      intro Q; simp; omega
    have m0 : NonePeriodic T 0 d ↔ ¬ BothPeriodic T 0 d := ⟨nb 0, n0.resolve_left⟩
    have m1 : NonePeriodic T 1 d ↔ ¬ BothPeriodic T 1 d := ⟨nb 1, n1.resolve_left⟩
    have m2 : NonePeriodic T 2 d ↔ ¬ BothPeriodic T 2 d := ⟨nb 2, n2.resolve_left⟩
    rcases hcs with rfl | rfl
    · have h2 := hc2 rfl d hd
      rw [all3, all2, rest2, m0, m1, m2]
      rw [m2] at h2
      by_cases b0 : BothPeriodic T 0 d <;> by_cases b1 : BothPeriodic T 1 d <;> simp [a0, a1, a2, b0, b1, h2]
    · rw [all3, all3, rest3, m0, m1, m2]
      by_cases b0 : BothPeriodic T 0 d <;> by_cases b1 : BothPeriodic T 1 d <;> by_cases b2 : BothPeriodic T 2 d <;>
        simp [a0, a1, a2, b0, b1, b2]
  have consBN : (∀ d, d < 3 → Consistent T comps d) →
      ∀ f d, f < 3 → d < 3 → BothPeriodic T f d ∨ NonePeriodic T f d := by
    intro h f d hf hd
    rcases h d hd with ⟨h1, h2⟩ | h1
    · by_cases hfc : f < comps
      · exact Or.inl (h1 f hfc)
      · exact Or.inr (h2 f (by omega) hf)
    · exact Or.inr (h1 f hf)
  have anyIff : ∀ P' : ℕ → ℕ → Bool,
      ((List.range 3).any (fun d => decide (countPeriodic P' d ≠ 0 ∧ countPeriodic P' d ≠ comps)) = true) ↔
        ¬ ∀ d, d < 3 → (countPeriodic P' d = 0 ∨ countPeriodic P' d = comps) := by
    intro P'
    simp only [List.any_eq_true, List.mem_range, decide_eq_true_eq, not_forall, not_or, exists_prop]
  unfold checkPeriodicBC
  rw [hdim]
  constructor
  · intro h
    rcases hl : loopPairs (fun f d P => checkCounterpart T f d P) pairs3 (fun _ _ => false) with e | P'
    · rw [hl] at h; cases h
    · rw [hl] at h
      simp only [bind, Except.bind] at h
      obtain ⟨h1, h2⟩ := (loopPairs_ok T pairs3 _ P').1 hl
      have hbn : ∀ f d, f < 3 → d < 3 → BothPeriodic T f d ∨ NonePeriodic T f d := fun f d hf hd =>
        h1 (f, d) ((mem_pairs3 f d).2 ⟨hf, hd⟩)
      have hP' : ∀ f d, (P' f d = true ↔ f < 3 ∧ d < 3 ∧ BothPeriodic T f d) := by
        intro f d; rw [h2, mem_pairs3]; simp [and_assoc]
      split_ifs at h with hany
      rw [anyIff, not_not] at hany
      simp only [pure, Except.pure, Except.ok.injEq] at h
      subst h
      exact ⟨fun d hd => (key P' hP' hbn d hd).1 (hany d hd), hP'⟩
  · rintro ⟨hcons, hP⟩
    have hbn := consBN hcons
    have hl : loopPairs (fun f d P => checkCounterpart T f d P) pairs3 (fun _ _ => false) = .ok P := by
      rw [loopPairs_ok]
      refine ⟨?_, ?_⟩
      · rintro ⟨f, d⟩ hp
        obtain ⟨hf, hd⟩ := (mem_pairs3 f d).1 hp
        exact hbn f d hf hd
      · intro f d; rw [hP, mem_pairs3]; simp [and_assoc]
    rw [hl]
    simp only [bind, Except.bind]
    rw [if_neg]
    · rfl
    · rw [anyIff, not_not]
      exact fun d hd => (key P hP hbn d hd).2 (hcons d hd)

/-- C11. In a three-dimensional run, the setup (periodicity check, then creation of the boundaries) goes through
exactly when every component has a condition on every boundary and, in every direction, the three components are
either all periodic on both sides or none on any side. -/
theorem C11_setup_3d (T : ℕ → ℕ → BCType) :
    ((∃ P, checkPeriodicBC T = .ok P) ∧ createBoundaries 3 T = .ok ()) ↔
      (∀ f b, f < 3 → b < 6 → T f b ≠ .NOBC) ∧
      ∀ d, d < 3 → (∀ f, f < 3 → BothPeriodic T f d) ∨ ∀ f, f < 3 → NonePeriodic T f d := by
  have hcb : createBoundaries 3 T = .ok () ↔ ∀ f b, f < 3 → b < 6 → T f b ≠ .NOBC := by
    unfold createBoundaries
    split_ifs with h
    · simp only [List.any_eq_true, List.mem_range, decide_eq_true_eq] at h
      obtain ⟨f, hf, b, hb, h⟩ := h
      simp only [false_iff]
      intro h'; exact h' f b hf (by omega) h
    · simp only [true_iff]
      intro f b hf hb h'
      apply h
      simp only [List.any_eq_true, List.mem_range, decide_eq_true_eq]
      exact ⟨f, hf, b, by omega, h'⟩
  rw [hcb, and_comm]
  refine and_congr_right fun hall => ?_
  have h3 : (∃ P, checkPeriodicBC T = .ok P) ↔ ∀ d, d < 3 → Consistent T 3 d := by
    have := C11_periodic_check T 3 (Or.inr ⟨rfl, 0, by omega, hall 2 0 (by omega) (by omega)⟩)
    constructor
    · rintro ⟨P, hP⟩; exact ((this P).1 hP).1
    · intro h
      classical
      exact ⟨fun f d => decide (f < 3 ∧ d < 3 ∧ BothPeriodic T f d), (this _).2 ⟨h, by simp⟩⟩
  rw [h3]
  refine forall_congr' fun d => imp_congr_right fun _ => ?_
  unfold Consistent
  refine or_congr_left ⟨fun h => h.1, fun h => ⟨h, by omega⟩⟩

/-- C11. Every rejected table gives `PETSC_ERR_ARG_INCOMP`. -/
theorem C11_error_code (T : ℕ → ℕ → BCType) (e : Error) (h : checkPeriodicBC T = .error e) : e = .argIncompatible := by
  have hl : ∀ (ps : List (ℕ × ℕ)) P0 e, loopPairs (fun f d P => checkCounterpart T f d P) ps P0 = .error e →
      e = .argIncompatible := by
    intro ps
    induction ps with
    | nil => intro P0 e h; cases h
    | cons p ps ih =>
      obtain ⟨f, d⟩ := p
      intro P0 e h
      simp only [loopPairs] at h
      rcases hc : checkCounterpart T f d P0 with e' | P'
      · rw [hc] at h
        simp only [bind, Except.bind, Except.error.injEq] at h
        subst h
        unfold checkCounterpart at hc
        simp only at hc
        split_ifs at hc <;> simp_all
      · rw [hc] at h
        exact ih _ _ h
  unfold checkPeriodicBC at h
  rcases hq : loopPairs (fun f d P => checkCounterpart T f d P) pairs3 (fun _ _ => false) with e' | P'
  · rw [hq] at h
    simp only [bind, Except.bind, Except.error.injEq] at h
    subst h
    exact hl _ _ _ hq
  · rw [hq] at h
    simp only [bind, Except.bind] at h
    split_ifs at h <;> first | (cases h; done) | (simpa using h.symm)

/-- 2D: x periodic for u and v, walls in y -/
def exampleBC : ℕ → ℕ → BCType := fun f b =>
  if f < 2 then (if b < 2 then .PERIODIC else if b < 4 then .DIRICHLET else .NOBC) else .NOBC

example : (∀ d, d < 3 → Consistent exampleBC 2 d) ∧ ∀ b, b < 6 → exampleBC 2 b = .NOBC := by
  constructor
  · intro d hd
    interval_cases d
    · left
      constructor
      · intro f hf; interval_cases f <;> simp [BothPeriodic, exampleBC]
      · intro f h1 h2; interval_cases f; simp [NonePeriodic, exampleBC]
    · right; intro f hf; interval_cases f <;> simp [NonePeriodic, exampleBC]
    · right; intro f hf; interval_cases f <;> simp [NonePeriodic, exampleBC]
  · intro b _; simp [exampleBC]

/-- C11 for the periodicity check on its own is false in three dimensions: it accepts a table in which u and v are
periodic in x and nothing is given for w, because it concludes "two-dimensional" from the missing entries. (The
creation of the boundaries then fails, see `C11_setup_3d`.) -/
theorem C11_check_alone_3d_false : ∃ T : ℕ → ℕ → BCType, (∃ P, checkPeriodicBC T = .ok P) ∧
    ¬ ∀ d, d < 3 → (∀ f, f < 3 → BothPeriodic T f d) ∨ ∀ f, f < 3 → NonePeriodic T f d := by
  refine ⟨exampleBC, ⟨_, rfl⟩, ?_⟩
  intro h
  rcases h 0 (by omega) with h | h
  · have := (h 2 (by omega)).1
    simp [exampleBC] at this
  · have := (h 0 (by omega)).1
    simp [exampleBC] at this

/-! ### C12 -/

/-- C12 for files in which every name is known: each slot of the table holds what the user wrote last for it, and
every other slot is "no BC". What is missing: files with unknown names, for which the claim is false
(`C12_unknown_location_false`, `C12_unknown_component_false`, `C12_pressure_key_ub`). -/
theorem C12_table_partial (bs : List (BCNode K)) (es : List (Entry K)) (h : allEntries bs = some es) :
    ∃ T, parseBCs (some (some bs)) = .ok T ∧ ∀ c b, T c b = (lastFor es c b).getD (.NOBC, 0) :=
  ⟨_, parseBCList_entries bs es _ h, fun c b => applyEntries_get es _ c b⟩

/-- C12. Missing sections are reported. -/
theorem C12_missing_section : parseBCs (none : Option (Option (List (BCNode K)))) = .error .argOutOfRange ∧
    parseBCs (some none : Option (Option (List (BCNode K)))) = .error .argOutOfRange := ⟨rfl, rfl⟩

/-- C12 is false for unknown locations: a misspelled location changes the left boundary, which no entry names. -/
theorem C12_unknown_location_false : ∃ (bs : List (BCNode ℚ)) (T : BCTable ℚ),
    parseBCs (some (some bs)) = .ok T ∧ (∀ b ∈ bs, ∀ l, b.location = some l → locNamed l ≠ some 0) ∧
    T 0 0 = (.DIRICHLET, 1) := by
  refine ⟨[⟨some "Right", [("u", "DIRICHLET", 1)]⟩], _, rfl, ?_, ?_⟩
  · intro b hb l hl
    simp only [List.mem_singleton] at hb
    subst hb
    simp only [Option.some.injEq] at hl
    subst hl
    decide
  · rfl

/-- C12 is false for unknown components: a misspelled component changes `u`, which no entry names. -/
theorem C12_unknown_component_false : ∃ (bs : List (BCNode ℚ)) (T : BCTable ℚ),
    parseBCs (some (some bs)) = .ok T ∧ (∀ b ∈ bs, ∀ it ∈ b.items, compNamed it.1 ≠ some 0) ∧
    T 0 1 = (.NEUMANN, 3) := by
  refine ⟨[⟨some "right", [("ux", "NEUMANN", 3)]⟩], _, rfl, ?_, ?_⟩
  · intro b hb it hit
    simp only [List.mem_singleton] at hb
    subst hb
    simp only [List.mem_singleton] at hit
    subst hit
    decide
  · rfl

/-- A boundary condition for the pressure, a known field name, writes outside the table. -/
theorem C12_pressure_key_ub : ∃ (bs : List (BCNode ℚ)), parseBCs (some (some bs)) = .error .ub :=
  ⟨[⟨some "right", [("p", "NEUMANN", 0)]⟩], rfl⟩

example : allEntries ([⟨some "left", [("u", "DIRICHLET", 1), ("v", "DIRICHLET", 0)]⟩,
    ⟨some "xPlus", [("u", "CONVECTIVE", 1), ("u", "NEUMANN", 0)]⟩] : List (BCNode ℚ)) =
    some [⟨0, 0, .DIRICHLET, 1⟩, ⟨1, 0, .DIRICHLET, 0⟩, ⟨0, 1, .CONVECTIVE, 1⟩, ⟨0, 1, .NEUMANN, 0⟩] := by rfl

end PetIBM
