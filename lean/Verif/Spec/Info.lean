/-
Reading a printed text: its lines, the value behind a label, and the half-open ranges in it.
-/
import Mathlib.Data.List.Basic
import Mathlib.Data.Nat.Notation

namespace PetIBM.Spec

/-- The lines of a text. -/
def textLines : List Char → List (List Char)
  | [] => [[]]
  | c :: t =>
    if c = '\n' then [] :: textLines t
    else match textLines t with
      | l :: ls => (c :: l) :: ls
      | [] => [[c]]

/-- What stands behind the first label of this kind at the beginning of a line. -/
def entryOf (label : String) (text : List Char) : Option (List Char) := (textLines text).findSome? fun l => label.toList.isPrefixOf? l

/-- The range at the beginning of the text, if there is one: `[`, a number, comma, blank, a number, `)`. -/
def rangeAt (s : List Char) : Option (ℕ × ℕ) := do
  let s ← ['['].isPrefixOf? s
  let t ← [',', ' '].isPrefixOf? (s.dropWhile Char.isDigit)
  let _ ← [')'].isPrefixOf? (t.dropWhile Char.isDigit)
  return (Nat.ofDigitChars 10 (s.takeWhile Char.isDigit) 0, Nat.ofDigitChars 10 (t.takeWhile Char.isDigit) 0)

/-- All ranges in a line, from left to right. -/
def rangesIn : List Char → List (ℕ × ℕ)
  | [] => []
  | c :: t => (rangeAt (c :: t)).toList ++ rangesIn t

/-- The ranges of all lines that have some. -/
def printedRanges (text : List Char) : List (List (ℕ × ℕ)) := ((textLines text).map rangesIn).filter fun l => l ≠ []

/-- A printed product of numbers. -/
def printedProduct (l : List ℕ) : List Char := List.intercalate [' ', 'x', ' '] (l.map fun n => (toString n).toList)

/-- A text on one line without percent sign and without the characters that mark ranges. -/
def PlainText (s : List Char) : Prop := ∀ c ∈ s, c ≠ '%' ∧ c ≠ '\n' ∧ c ≠ '[' ∧ c ≠ ')'

/-- The point is inside the box. -/
def InRanges (x : List ℕ) (box : List (ℕ × ℕ)) : Prop := List.Forall₂ (fun i p => p.1 ≤ i ∧ i < p.2) x box

end PetIBM.Spec
