/-
C30: the reader of body files.
-/
import Verif.Lemmas.BodyFile

namespace PetIBM

open Spec

variable {K : Type}

/-- the accepted outcome behind a valid first line -/
theorem read_ok_iff (R : Reader K) (first : List Char) (body : List (List Char)) (m : ℤ) (n : ℕ)
    (coords : List (List K)) :
    (let dim := countReals R first.length first
      if dim = 0 then .error .fileRead
      else if m < 0 then .error .exception
      else if m = 0 then .error .ub
      else match readReals R dim first with
        | none => .error .fileRead
        | some (vs, _) => do
          let (c, coords) ← readRest R m.toNat dim body 1 [vs]
          if (c : ℤ) ≠ m then .error .fileRead
          else return (m.toNat, coords) : Except Error (ℕ × List (List K))) = .ok (n, coords) ↔
    m = n ∧ ∃ dim vs rest vss, body.length + 1 = n ∧ 0 < dim ∧ coords = vs :: vss ∧ Numbers R first vs rest ∧
      vs.length = dim ∧ R.real rest = none ∧ List.Forall₂ (CoordinateLine R dim) body vss := by
  obtain ⟨vs, rest, hv, hl, he⟩ := countReals_numbers R first.length first le_rfl
  simp only
  rw [← hl]
  by_cases h0 : vs.length = 0
  · rw [if_pos h0]
    constructor
    · intro h; cases h
    · rintro ⟨_, dim, vs', rest', vss, _, hd, _, hv', hl', he', _⟩
      rw [countReals_eq hv' he' _ le_rfl] at hl
      omega
  rw [if_neg h0]
  by_cases h1 : m < 0
  · rw [if_pos h1]
    constructor
    · intro h; cases h
    · rintro ⟨h, _⟩; omega
  rw [if_neg h1]
  by_cases h2 : m = 0
  · rw [if_pos h2]
    constructor
    · intro h; cases h
    · rintro ⟨h, _, _, _, _, h', _⟩; omega
  rw [if_neg h2, (readReals_iff _ _ _ _ _).2 ⟨hv, rfl⟩]
  simp only
  constructor
  · intro h
    rcases hr : readRest R m.toNat vs.length body 1 [vs] with e | ⟨c, cs⟩
    · rw [hr] at h; cases h
    · rw [hr] at h
      simp only [bind, Except.bind, pure, Except.pure] at h
      split_ifs at h with hc
      simp only [Except.ok.injEq, Prod.mk.injEq] at h
      obtain ⟨rfl, rfl⟩ := h
      obtain ⟨vss, g1, g2, g3, _⟩ := (readRest_ok_iff _ _ _ _ _ _ _ _).1 hr
      have hc' : (c : ℤ) = m := by simpa using hc
      exact ⟨by omega, vs.length, vs, rest, vss, by omega, by omega, g3, hv, rfl, he, g1⟩
  · rintro ⟨rfl, dim, vs', rest', vss, g1, g2, rfl, g4, g5, g6, g7⟩
    have e1 : vs'.length = vs.length := by rw [hl, countReals_eq g4 g6 _ le_rfl]
    obtain ⟨rfl, rfl⟩ := g4.unique hv e1
    have : readRest R (n : ℤ).toNat vs'.length body 1 [vs'] = .ok (n, vs' :: vss) := by
      rw [readRest_ok_iff]
      refine ⟨vss, by rwa [g5], by omega, rfl, ?_⟩
      rcases body with _ | ⟨b, body⟩
      · exact Or.inl rfl
      · right; simp only [List.length_cons] at *; omega
    rw [this]
    simp [bind, Except.bind, pure, Except.pure]

/-- C30 (part). The exact condition for acceptance and the exact result, for every file and every reader of numbers. It
is weaker than the documented format in two points: text behind the coordinates of the first point is not noticed, and
a file that ends within its first line takes the number of points for a coordinate. -/
theorem C30_accepted_iff_partial (R : Reader K) (f : TextFile) (n : ℕ) (coords : List (List K)) :
    readLagrangianPoints R (some f) = .ok (n, coords) ↔ BodyFileLoose R f n coords := by
  constructor
  · intro h
    rcases hf : f.lines with _ | ⟨head, ls⟩
    · simp [readLagrangianPoints, getline, TextFile.open, hf] at h
    rcases hn : R.int head with _ | ⟨m, r⟩
    · simp [readLagrangianPoints, getline, TextFile.open, hf, hn] at h
    by_cases hr : r = []
    · subst hr
      rw [read_head R f head ls hf m hn] at h
      obtain ⟨rfl, dim, vs, rest, vss, g1, g2, g3, g4, g5, g6, g7⟩ := (read_ok_iff R _ _ m n coords).1 h
      cases ls with
      | nil =>
        cases ht : f.terminated with
        | true =>
          rw [ht] at g4
          simp only [if_true] at g4
          have := g4.length_le
          simp at this
          simp [this.2] at g5
          omega
        | false =>
          rw [ht] at g4
          exact ⟨head, head, [], dim, vs, rest, vss, Or.inr ⟨hf, ht, rfl, rfl⟩, hn, g1, g2, g3, g4, g5, g6, g7⟩
      | cons l ls' =>
        exact ⟨head, l, ls', dim, vs, rest, vss, Or.inl hf, hn, g1, g2, g3, g4, g5, g6, g7⟩
    · simp [readLagrangianPoints, getline, TextFile.open, hf, hn, hr] at h
  · rintro ⟨head, first, body, dim, vs, rest, vss, hf, hn, g⟩
    rcases hf with hf | ⟨hf, ht, rfl, rfl⟩
    · rw [read_head R f head _ hf n hn]
      exact (read_ok_iff R _ _ n n coords).2 ⟨rfl, dim, vs, rest, vss, g⟩
    · rw [read_head R f first _ hf n hn]
      simp only [ht]
      exact (read_ok_iff R _ _ n n coords).2 ⟨rfl, dim, vs, rest, vss, g⟩

/-- C30 (part). Every file of the documented format is accepted with the declared number of points and the coordinates
in the file. -/
theorem C30_well_formed_partial (R : Reader K) (f : TextFile) (n : ℕ) (coords : List (List K))
    (h : BodyFileOK R f n coords) : readLagrangianPoints R (some f) = .ok (n, coords) := by
  rw [C30_accepted_iff_partial]
  obtain ⟨head, body, dim, hf, hn, h0, hl, hd, hb⟩ := h
  cases hb with
  | nil => simp at hl; omega
  | cons h1 h2 =>
    rename_i first vs ls vss
    refine ⟨head, first, ls, dim, vs, [], vss, Or.inl hf, hn, hl, hd, rfl, h1.1, h1.2, ?_, h2⟩
    rcases hr : R.real [] with _ | ⟨v, t⟩
    · rfl
    · have := R.real_shorter _ _ _ hr; simp at this

/-- the outcome outside the array behind a valid first line -/
theorem read_ub_iff (R : Reader K) (first : List Char) (body : List (List Char)) (m : ℤ) :
    (let dim := countReals R first.length first
      if dim = 0 then .error .fileRead
      else if m < 0 then .error .exception
      else if m = 0 then .error .ub
      else match readReals R dim first with
        | none => .error .fileRead
        | some (vs, _) => do
          let (c, coords) ← readRest R m.toNat dim body 1 [vs]
          if (c : ℤ) ≠ m then .error .fileRead
          else return (m.toNat, coords) : Except Error (ℕ × List (List K))) = .error .ub ↔
    ∃ dim vs rest, Numbers R first vs rest ∧ vs.length = dim ∧ R.real rest = none ∧ 0 < dim ∧
      (m = 0 ∨ ∃ good bad more, m = (good.length + 1 : ℤ) ∧ body = good ++ bad :: more ∧
        ∀ l ∈ good, ∃ ws, CoordinateLine R dim l ws) := by
  obtain ⟨vs, rest, hv, hl, he⟩ := countReals_numbers R first.length first le_rfl
  simp only
  rw [← hl]
  by_cases h0 : vs.length = 0
  · rw [if_pos h0]
    constructor
    · intro h; cases h
    · rintro ⟨dim, vs', rest', hv', hl', he', hd, _⟩
      rw [countReals_eq hv' he' _ le_rfl] at hl
      omega
  rw [if_neg h0]
  by_cases h1 : m < 0
  · rw [if_pos h1]
    constructor
    · intro h; cases h
    · rintro ⟨_, _, _, _, _, _, _, h | ⟨_, _, _, h, _⟩⟩ <;> omega
  rw [if_neg h1]
  by_cases h2 : m = 0
  · rw [if_pos h2]
    exact ⟨fun _ => ⟨_, vs, rest, hv, rfl, he, by omega, Or.inl h2⟩, fun _ => rfl⟩
  rw [if_neg h2, (readReals_iff _ _ _ _ _).2 ⟨hv, rfl⟩]
  simp only
  have key := readRest_ub_iff R m.toNat vs.length body 1 [vs] (by omega)
  constructor
  · intro h
    rcases hr : readRest R m.toNat vs.length body 1 [vs] with e | ⟨c, cs⟩
    · rw [hr] at h
      simp only [bind, Except.bind] at h
      rw [h] at hr
      obtain ⟨good, bad, more, g1, g2, g3⟩ := key.1 hr
      exact ⟨_, vs, rest, hv, rfl, he, by omega, Or.inr ⟨good, bad, more, by omega, g1, g3⟩⟩
    · rw [hr] at h
      simp only [bind, Except.bind, pure, Except.pure] at h
      split_ifs at h
      cases h
  · rintro ⟨dim, vs', rest', g4, g5, g6, g2, hm | ⟨good, bad, more, hm, hb, hg⟩⟩
    · exact absurd hm h2
    · have e1 : vs'.length = vs.length := by rw [hl, countReals_eq g4 g6 _ le_rfl]
      rw [key.2 ⟨good, bad, more, hb, by omega, by rwa [← e1, g5]⟩]
      rfl

/-- C30 (part). The reader accesses memory outside the array for exactly the following files: no point is declared although
numbers follow, or any further line (even an empty one) follows behind the declared number of correct lines. -/
theorem C30_overflow_iff_partial (R : Reader K) (f : TextFile) :
    readLagrangianPoints R (some f) = .error .ub ↔ BodyFileOverflow R f := by
  constructor
  · intro h
    rcases hf : f.lines with _ | ⟨head, ls⟩
    · simp [readLagrangianPoints, getline, TextFile.open, hf] at h
    rcases hn : R.int head with _ | ⟨m, r⟩
    · simp [readLagrangianPoints, getline, TextFile.open, hf, hn] at h
    by_cases hr : r = []
    · subst hr
      rw [read_head R f head ls hf m hn] at h
      obtain ⟨dim, vs, rest, g4, g5, g6, g2, g⟩ := (read_ub_iff R _ _ m).1 h
      have gm : R.int head = some (0, []) ∨ ∃ (good : List (List Char)) (bad : List Char) (more : List (List Char)),
          R.int head = some ((good.length + 1 : ℤ), []) ∧ ls.tail = good ++ bad :: more ∧
          ∀ l ∈ good, ∃ ws, CoordinateLine R dim l ws := by
        rcases g with rfl | ⟨good, bad, more, rfl, g⟩
        · exact Or.inl hn
        · exact Or.inr ⟨good, bad, more, hn, g⟩
      cases ls with
      | nil =>
        cases ht : f.terminated with
        | true =>
          rw [ht] at g4
          simp only [if_true] at g4
          have := g4.length_le
          simp at this
          simp [this.2] at g5
          omega
        | false =>
          rw [ht] at g4
          exact ⟨head, head, [], dim, vs, rest, Or.inr ⟨hf, ht, rfl, rfl⟩, g4, g5, g6, g2, gm⟩
      | cons l ls' =>
        exact ⟨head, l, ls', dim, vs, rest, Or.inl hf, g4, g5, g6, g2, gm⟩
    · simp [readLagrangianPoints, getline, TextFile.open, hf, hn, hr] at h
  · rintro ⟨head, first, body, dim, vs, rest, hf, g4, g5, g6, g2, g⟩
    obtain ⟨m, hn, gm⟩ : ∃ m : ℤ, R.int head = some (m, []) ∧ (m = 0 ∨ ∃ (good : List (List Char)) (bad : List Char)
        (more : List (List Char)), m = (good.length + 1 : ℤ) ∧ body = good ++ bad :: more ∧
        ∀ l ∈ good, ∃ ws, CoordinateLine R dim l ws) := by
      rcases g with g | ⟨good, bad, more, g, g'⟩
      · exact ⟨0, g, Or.inl rfl⟩
      · exact ⟨_, g, Or.inr ⟨good, bad, more, rfl, g'⟩⟩
    rcases hf with hf | ⟨hf, ht, rfl, rfl⟩
    · rw [read_head R f head _ hf m hn]
      exact (read_ub_iff R _ _ m).2 ⟨dim, vs, rest, g4, g5, g6, g2, gm⟩
    · rw [read_head R f first _ hf m hn]
      simp only [ht]
      exact (read_ub_iff R _ _ m).2 ⟨dim, vs, rest, g4, g5, g6, g2, gm⟩

/-- A file with two points in the plane, as the user would write it. -/
def exampleBodyFile : TextFile := ⟨["2".toList, "0 0.25".toList, "-1.5\t1".toList], true⟩

/-- The file is of the documented format, so `C30_well_formed_partial` is not vacuous; its result is the expected one. -/
example : readLagrangianPoints decimalReader (some exampleBodyFile) = .ok (2, [[0, 1/4], [-3/2, 1]]) := by decide +kernel

theorem exampleBodyFile_ok : BodyFileOK decimalReader exampleBodyFile 2 [[0, 1/4], [-3/2, 1]] := by
  refine ⟨"2".toList, ["0 0.25".toList, "-1.5\t1".toList], 2, rfl, by decide +kernel, by decide, rfl, by decide, ?_⟩
  refine .cons ⟨?_, rfl⟩ (.cons ⟨?_, rfl⟩ .nil)
  · exact .cons (t := " 0.25".toList) (by decide +kernel) (.cons (t := []) (by decide +kernel) (.nil _))
  · exact .cons (t := "\t1".toList) (by decide +kernel) (.cons (t := []) (by decide +kernel) (.nil _))

/-- C30 is false as stated: one empty line at the end of an otherwise correct file makes the reader access the array
behind its end; so do a missing and a too small count. -/
theorem C30_false_overflow :
    readLagrangianPoints decimalReader
      (some ⟨["2".toList, "0 0.25".toList, "-1.5 1".toList, "".toList], true⟩) = .error .ub ∧
    readLagrangianPoints decimalReader (some ⟨["0".toList, "0 0.25".toList], true⟩) = .error .ub ∧
    readLagrangianPoints decimalReader
      (some ⟨["1".toList, "0 0.25".toList, "-1.5 1".toList], true⟩) = .error .ub := by
  decide +kernel

/-- C30 is false as stated: two files that are accepted although they are malformed. The first has a word behind the
coordinates of its first point (a third coordinate with a comma, say, is lost), the second has no coordinates at all. -/
theorem C30_false_accepted :
    (readLagrangianPoints decimalReader (some ⟨["2".toList, "0 0.25 x".toList, "-1.5 1".toList], true⟩) =
      .ok (2, [[0, 1/4], [-3/2, 1]])) ∧
    (readLagrangianPoints decimalReader (some ⟨["1".toList], false⟩) = .ok (1, [[1]])) := by
  decide +kernel

end PetIBM
