/-
Lemmas about printed texts.
-/
import Verif.Model.Info
import Verif.Spec.Info
import Verif.Spec.Index

namespace PetIBM

set_option linter.unusedSectionVars false

open Spec

/-! ### Characters -/

theorem showNat_eq (n : ℕ) : showNat n = Nat.toDigits 10 n := by
  unfold showNat
  rw [Nat.toString_eq_ofList_toDigits]
  simp

theorem digit_showNat {n : ℕ} {c : Char} (h : c ∈ showNat n) : c.isDigit = true := by
  rw [showNat_eq] at h
  exact Nat.isDigit_of_mem_toDigits (by decide) (by decide) h

/-- No percent sign and no newline. -/
def CleanText (s : List Char) : Prop := ∀ c ∈ s, c ≠ '%' ∧ c ≠ '\n'

theorem clean_lit {s : List Char} (h : s.all (fun c => decide (c ≠ '%' ∧ c ≠ '\n')) = true) : CleanText s := by
  intro c hc
  simpa using List.all_eq_true.1 h c hc

theorem clean_append {s t : List Char} (hs : CleanText s) (ht : CleanText t) : CleanText (s ++ t) := by
  intro c hc
  rcases List.mem_append.1 hc with h | h
  · exact hs c h
  · exact ht c h

theorem clean_cons {c : Char} {t : List Char} (h : c ≠ '%' ∧ c ≠ '\n') (ht : CleanText t) : CleanText (c :: t) := by
  intro d hd
  rcases List.mem_cons.1 hd with rfl | h'
  · exact h
  · exact ht d h'

theorem clean_nil : CleanText [] := by intro c hc; cases hc

theorem clean_nat (n : ℕ) : CleanText (showNat n) := by
  intro c hc
  have := digit_showNat hc
  constructor <;> (rintro rfl; revert this; decide)

theorem clean_flatMap {α : Type} {l : List α} {g : α → List Char} (h : ∀ a ∈ l, CleanText (g a)) : CleanText (l.flatMap g) := by
  intro c hc
  obtain ⟨a, ha, hc⟩ := List.mem_flatMap.1 hc
  exact h a ha c hc

theorem Spec.PlainText.clean {s : List Char} (h : PlainText s) : CleanText s := fun c hc => ⟨(h c hc).1, (h c hc).2.1⟩

theorem clean_range (a b : ℕ) : CleanText (showRange a b) := by
  unfold showRange
  refine clean_cons (by decide) (clean_append (clean_nat _) (clean_cons (by decide) (clean_cons (by decide) (clean_append (clean_nat _) ?_))))
  exact clean_cons (by decide) clean_nil

theorem clean_sizes (dim : ℕ) (n : ℕ → ℕ) : CleanText (showSizes dim n) := by
  unfold showSizes
  exact clean_append (clean_nat _) (clean_flatMap fun _ _ => clean_append (clean_lit (by decide)) (clean_nat _))

theorem clean_interval {K : Type} {fmt : K → List Char} (hf : ∀ x, PlainText (fmt x)) (a b : K) : CleanText (showInterval fmt a b) := by
  unfold showInterval
  refine clean_cons (by decide) (clean_append (hf _).clean (clean_cons (by decide) (clean_cons (by decide) (clean_append (hf _).clean ?_))))
  exact clean_cons (by decide) clean_nil

theorem clean_ruler : CleanText ruler := by
  intro c hc
  rw [(List.mem_replicate.1 hc).2]
  decide

theorem clean_fd2str (f : ℕ) : CleanText (fd2str f).toList := by
  unfold fd2str
  split_ifs <;> exact clean_lit (by decide)

theorem clean_box (L : Layout) (f r : ℕ) : CleanText (showBox L f r) := by
  unfold showBox
  refine clean_append (clean_range _ _) (clean_append (clean_lit (by decide)) (clean_append (clean_range _ _) (clean_append (clean_lit (by decide))
    (clean_append (clean_range _ _) (clean_lit (by decide))))))

/-! ### Printing -/

theorem printf_other {c : Char} (hc : c ≠ '%') (t : List Char) : printf (c :: t) = (printf t >>= fun rest => pure (c :: rest)) := by
  conv_lhs => unfold printf
  rw [if_neg hc]

theorem printf_double (u : List Char) : printf ('%' :: '%' :: u) = (printf u >>= fun rest => pure ('%' :: rest)) := by
  conv_lhs => unfold printf
  rfl

theorem printf_missing {t : List Char} (h : ∀ u, t = '%' :: u → False) : printf ('%' :: t) = .error .ub := by
  conv_lhs => unfold printf
  rw [if_pos rfl]
  split
  · exact absurd rfl (h _)
  · rfl

theorem printf_clean {s : List Char} (h : '%' ∉ s) : printf s = .ok s := by
  induction s with
  | nil => rfl
  | cons c t ih =>
    rw [printf_other (fun e => h (by rw [e]; simp)), ih (fun h' => h (List.mem_cons_of_mem _ h'))]
    rfl

theorem printf_length (s : List Char) : ∀ t, printf s = .ok t → t.length ≤ s.length ∧ (t.length = s.length → '%' ∉ s) := by
  induction s using printf.induct with
  | case1 => intro t h; cases h; simp
  | case2 u ih =>
    intro t h
    rw [printf_double] at h
    rcases hp : printf u with e | w
    · rw [hp] at h; cases h
    · rw [hp] at h
      cases h
      have := (ih w hp).1
      simp only [List.length_cons]
      exact ⟨by omega, by omega⟩
  | case3 s hne =>
    intro t h
    rw [printf_missing hne] at h
    cases h
  | case4 c s hc ih =>
    intro t h
    rw [printf_other hc] at h
    rcases hp : printf s with e | w
    · rw [hp] at h; cases h
    · rw [hp] at h
      cases h
      obtain ⟨h1, h2⟩ := ih w hp
      simp only [List.length_cons]
      refine ⟨by omega, fun he hm => ?_⟩
      rcases List.mem_cons.1 hm with e | hm
      · exact hc e.symm
      · exact h2 (by omega) hm

theorem mapM_printf {l : List (List Char)} (h : ∀ s ∈ l, '%' ∉ s) : l.mapM printf = .ok l := by
  induction l with
  | nil => rfl
  | cons s t ih =>
    rw [List.mapM_cons, printf_clean (h s (by simp)), ih fun u hu => h u (List.mem_cons_of_mem _ hu)]
    rfl

theorem ioPrint_clean {l : List (List Char)} (h : ∀ s ∈ l, '%' ∉ s) : ioPrint l = .ok (l.flatten ++ ['\n']) := by
  unfold ioPrint
  rw [mapM_printf h]
  rfl

theorem stream_percent {l : List (List Char)} (h : ∀ s ∈ l, CleanText s) : '%' ∉ stream l := by
  intro hm
  obtain ⟨s, hs, hm⟩ := List.mem_flatMap.1 hm
  rcases List.mem_append.1 hm with hm | hm
  · exact (h s hs _ hm).1 rfl
  · simp at hm

theorem stream_append (a b : List (List Char)) : stream (a ++ b) = stream a ++ stream b := List.flatMap_append

theorem flatten_stream {α : Type} (l : List α) (g : α → List (List Char)) : (l.map fun a => stream (g a)).flatten = stream (l.flatMap g) := by
  induction l with
  | nil => rfl
  | cons a t ih => rw [List.map_cons, List.flatten_cons, ih, List.flatMap_cons, stream_append]

/-! ### Reading -/

theorem textLines_line {s : List Char} (h : '\n' ∉ s) (t : List Char) : textLines (s ++ '\n' :: t) = s :: textLines t := by
  induction s with
  | nil =>
    show textLines ('\n' :: t) = _
    rw [textLines.eq_2, if_pos rfl]
  | cons c s ih =>
    show textLines (c :: (s ++ '\n' :: t)) = _
    rw [textLines.eq_2, if_neg (fun e => h (by rw [e]; simp)), ih fun h' => h (List.mem_cons_of_mem _ h')]

theorem textLines_stream {l : List (List Char)} (h : ∀ s ∈ l, CleanText s) (t : List Char) : textLines (stream l ++ t) = l ++ textLines t := by
  induction l with
  | nil => rfl
  | cons s l ih =>
    have : stream (s :: l) ++ t = s ++ '\n' :: (stream l ++ t) := by
      unfold stream
      rw [List.flatMap_cons]
      simp
    rw [this, textLines_line (fun hm => (h s (by simp) _ hm).2 rfl), ih fun u hu => h u (List.mem_cons_of_mem _ hu)]
    rfl

theorem prefix_found (k t : List Char) : k.isPrefixOf? (k ++ t) = some t := by
  induction k with
  | nil => rfl
  | cons c k ih =>
    show (if c == c then k.isPrefixOf? (k ++ t) else none) = _
    rw [if_pos (by simp), ih]

theorem prefix_clash {k p : List Char} (h : (k.zip p).any (fun x => x.1 != x.2) = true) (t : List Char) : k.isPrefixOf? (p ++ t) = none := by
  induction k generalizing p with
  | nil => simp at h
  | cons c k ih =>
    cases p with
    | nil => simp at h
    | cons d p =>
      show (if c == d then k.isPrefixOf? (p ++ t) else none) = none
      split_ifs with hcd
      · apply ih
        rw [List.zip_cons_cons, List.any_cons] at h
        have : (c != d) = false := by simp at hcd ⊢; exact hcd
        simpa [this] using h
      · rfl

theorem prefix_nil {k : List Char} (h : k ≠ []) : k.isPrefixOf? [] = none := by
  cases k with
  | nil => exact absurd rfl h
  | cons c k => rfl

theorem find_hit (k t : List Char) (ls : List (List Char)) : ((k ++ t) :: ls).findSome? (fun l => k.isPrefixOf? l) = some t := by
  rw [List.findSome?_cons, prefix_found]

theorem find_skip {k p : List Char} (h : (k.zip p).any (fun x => x.1 != x.2) = true) (t : List Char) (ls : List (List Char)) :
    ((p ++ t) :: ls).findSome? (fun l => k.isPrefixOf? l) = ls.findSome? (fun l => k.isPrefixOf? l) := by
  rw [List.findSome?_cons, prefix_clash h]

theorem find_other {k p : List Char} (h : (k.zip p).any (fun x => x.1 != x.2) = true) (ls : List (List Char)) :
    (p :: ls).findSome? (fun l => k.isPrefixOf? l) = ls.findSome? (fun l => k.isPrefixOf? l) := by
  have := find_skip h [] ls
  rwa [List.append_nil] at this

theorem find_empty {k : List Char} (h : k ≠ []) (ls : List (List Char)) :
    ([] :: ls).findSome? (fun l => k.isPrefixOf? l) = ls.findSome? (fun l => k.isPrefixOf? l) := by
  rw [List.findSome?_cons, prefix_nil h]

theorem prefix_split {k l t : List Char} (h : k.isPrefixOf? l = some t) : l = k ++ t := by
  induction k generalizing l with
  | nil => cases h; rfl
  | cons c k ih =>
    cases l with
    | nil => cases h
    | cons d l =>
      change (if c == d then k.isPrefixOf? l else none) = some t at h
      split_ifs at h with hcd
      rw [ih h, beq_iff_eq.1 hcd]
      rfl

theorem rangesIn_skip {s : List Char} (h : '[' ∉ s) (t : List Char) : rangesIn (s ++ t) = rangesIn t := by
  induction s with
  | nil => rfl
  | cons c s ih =>
    show rangesIn (c :: (s ++ t)) = _
    rw [rangesIn.eq_2, ih fun h' => h (List.mem_cons_of_mem _ h')]
    have : rangeAt (c :: (s ++ t)) = none := by
      have hp : ['['].isPrefixOf? (c :: (s ++ t)) = none := by
        rcases hp : ['['].isPrefixOf? (c :: (s ++ t)) with _ | x
        · rfl
        · have := prefix_split hp
          rw [List.cons_append, List.cons.injEq] at this
          exact absurd (by rw [this.1]; simp) h
      unfold rangeAt
      rw [hp]
      rfl
    rw [this]
    rfl

theorem rangesIn_none {s : List Char} (h : '[' ∉ s) : rangesIn s = [] := by
  have := rangesIn_skip h []
  rwa [List.append_nil] at this

theorem digits_split (n : ℕ) {c : Char} (hc : c.isDigit = false) (t : List Char) :
    (showNat n ++ c :: t).takeWhile Char.isDigit = showNat n ∧ (showNat n ++ c :: t).dropWhile Char.isDigit = c :: t := by
  constructor
  · rw [List.takeWhile_append_of_pos fun x hx => digit_showNat hx]
    simp [hc]
  · rw [List.dropWhile_append_of_pos fun x hx => digit_showNat hx]
    simp [hc]

theorem value_showNat (n : ℕ) : Nat.ofDigitChars 10 (showNat n) 0 = n := by
  rw [showNat_eq]
  simp

theorem no_bracket_nat (n : ℕ) : '[' ∉ showNat n := by
  intro h
  have := digit_showNat h
  revert this
  decide

theorem rangesIn_range (a b : ℕ) (t : List Char) : rangesIn (showRange a b ++ t) = (a, b) :: rangesIn t := by
  have e : showRange a b ++ t = '[' :: (showNat a ++ ',' :: (' ' :: (showNat b ++ ')' :: t))) := by simp [showRange]
  rw [e, rangesIn.eq_2]
  have h1 : rangeAt ('[' :: (showNat a ++ ',' :: (' ' :: (showNat b ++ ')' :: t)))) = some (a, b) := by
    unfold rangeAt
    have p1 := prefix_found ['['] (showNat a ++ ',' :: (' ' :: (showNat b ++ ')' :: t)))
    have p2 := prefix_found [',', ' '] (showNat b ++ ')' :: t)
    have p3 := prefix_found [')'] t
    simp only [List.cons_append, List.nil_append] at p1 p2 p3
    have d1 := digits_split a (c := ',') (by decide) (' ' :: (showNat b ++ ')' :: t))
    have d2 := digits_split b (c := ')') (by decide) t
    simp only [p1, p2, p3, d1.1, d1.2, d2.1, d2.2, value_showNat, Option.bind_eq_bind, Option.bind_some]
    rfl
  rw [h1, rangesIn_skip (no_bracket_nat a)]
  show (a, b) :: rangesIn ([',', ' '] ++ (showNat b ++ ')' :: t)) = _
  rw [rangesIn_skip (by decide), rangesIn_skip (no_bracket_nat b)]
  show (a, b) :: rangesIn ([')'] ++ t) = _
  rw [rangesIn_skip (by decide)]

/-- A range begins the text only if a closing parenthesis follows behind digits, comma and blank. -/
theorem rangeAt_parenthesis {s : List Char} {p : ℕ × ℕ} (h : rangeAt ('[' :: s) = some p) : ∃ w t, s = w ++ ')' :: t ∧ ']' ∉ w := by
  unfold rangeAt at h
  have p1 := prefix_found ['['] s
  simp only [List.cons_append, List.nil_append] at p1
  rw [p1] at h
  simp only [Option.bind_eq_bind, Option.bind_some] at h
  rcases h2 : [',', ' '].isPrefixOf? (s.dropWhile Char.isDigit) with _ | t
  · rw [h2] at h; cases h
  · rw [h2, Option.bind_some] at h
    rcases h3 : [')'].isPrefixOf? (t.dropWhile Char.isDigit) with _ | u
    · rw [h3] at h; cases h
    · refine ⟨s.takeWhile Char.isDigit ++ (',' :: ' ' :: t.takeWhile Char.isDigit), u, ?_, ?_⟩
      · have e1 := List.takeWhile_append_dropWhile (p := Char.isDigit) (l := s)
        have e2 := List.takeWhile_append_dropWhile (p := Char.isDigit) (l := t)
        rw [prefix_split h3] at e2
        rw [prefix_split h2] at e1
        conv_lhs => rw [← e1, ← e2]
        simp
      · intro hm
        have key : ∀ l : List Char, ']' ∉ l.takeWhile Char.isDigit := by
          intro l hl
          have := List.all_takeWhile (l := l) (p := Char.isDigit)
          have := List.all_eq_true.1 this _ hl
          revert this
          decide
        rcases List.mem_append.1 hm with hm | hm
        · exact key _ hm
        · rcases List.mem_cons.1 hm with hm | hm
          · revert hm; decide
          · rcases List.mem_cons.1 hm with hm | hm
            · revert hm; decide
            · exact key _ hm

theorem rangesIn_closed {u : List Char} (h1 : '[' ∉ u) (h2 : ')' ∉ u) (t : List Char) : rangesIn ('[' :: (u ++ ']' :: t)) = rangesIn t := by
  rw [rangesIn.eq_2]
  have h : rangeAt ('[' :: (u ++ ']' :: t)) = none := by
    rcases hr : rangeAt ('[' :: (u ++ ']' :: t)) with _ | p
    · rfl
    · obtain ⟨w, v, e, hw⟩ := rangeAt_parenthesis hr
      exfalso
      rcases List.append_eq_append_iff.1 e with ⟨x, hx, hy⟩ | ⟨x, hx, hy⟩
      · cases x with
        | nil => simp at hy
        | cons c x =>
          rw [List.cons_append, List.cons.injEq] at hy
          exact hw (by rw [hx, ← hy.1]; simp)
      · cases x with
        | nil => simp at hy
        | cons c x =>
          rw [List.cons_append, List.cons.injEq] at hy
          exact h2 (by rw [hx, ← hy.1]; simp)
  rw [h, rangesIn_skip h1]
  show rangesIn ([']'] ++ t) = _
  rw [rangesIn_skip (by decide)]

theorem rangesIn_interval {K : Type} {fmt : K → List Char} (hf : ∀ x, PlainText (fmt x)) (a b : K) (t : List Char) :
    rangesIn (showInterval fmt a b ++ t) = rangesIn t := by
  have e : showInterval fmt a b ++ t = '[' :: ((fmt a ++ (',' :: ' ' :: fmt b)) ++ ']' :: t) := by simp [showInterval]
  rw [e]
  apply rangesIn_closed
  · intro h
    rcases List.mem_append.1 h with h | h
    · exact (hf a _ h).2.2.1 rfl
    · rcases List.mem_cons.1 h with h | h
      · revert h; decide
      · rcases List.mem_cons.1 h with h | h
        · revert h; decide
        · exact (hf b _ h).2.2.1 rfl
  · intro h
    rcases List.mem_append.1 h with h | h
    · exact (hf a _ h).2.2.2 rfl
    · rcases List.mem_cons.1 h with h | h
      · revert h; decide
      · rcases List.mem_cons.1 h with h | h
        · revert h; decide
        · exact (hf b _ h).2.2.2 rfl

theorem rangesIn_box (L : Layout) (f r : ℕ) :
    rangesIn (showBox L f r) = [(L.bg f r 0, L.ed f r 0), (L.bg f r 1, L.ed f r 1), (L.bg f r 2, L.ed f r 2)] := by
  unfold showBox
  rw [rangesIn_range, rangesIn_skip (by decide), rangesIn_range, rangesIn_skip (by decide), rangesIn_range, rangesIn_none (by decide)]

theorem get_blocks {α : Type} {g : ℕ → List α} {m : ℕ} (hg : ∀ r, (g r).length = m) {n r i : ℕ} (hr : r < n) (hi : i < m) :
    ((List.range n).flatMap g)[r * m + i]? = (g r)[i]? := by
  induction n with
  | zero => omega
  | succ n ih =>
    have hl : ((List.range n).flatMap g).length = n * m := by
      clear ih hr
      induction n with
      | zero => simp
      | succ n ih => rw [List.range_succ, List.flatMap_append, List.length_append, ih]; simp [hg, Nat.succ_mul]
    rw [List.range_succ, List.flatMap_append]
    rcases Nat.lt_or_ge r n with h | h
    · rw [List.getElem?_append_left, ih h]
      rw [hl]
      have : (r + 1) * m ≤ n * m := Nat.mul_le_mul_right m h
      rw [Nat.succ_mul] at this
      omega
    · have : r = n := by omega
      subst this
      rw [List.getElem?_append_right (by omega), hl]
      simp

end PetIBM
