/-
Specification of body files, in terms of the formatted extractions of the C++ library only.
-/
import Verif.Model.BodyFile

namespace PetIBM.Spec

variable {K : Type}

/-- The text starts with the numbers `vs`, one after the other, and the text `rest` follows them. -/
inductive Numbers (R : Reader K) : List Char → List K → List Char → Prop
  | nil (s : List Char) : Numbers R s [] s
  | cons {s t rest : List Char} {v : K} {vs : List K} :
      R.real s = some (v, t) → Numbers R t vs rest → Numbers R s (v :: vs) rest

/-- The line consists of exactly `dim` numbers, with the given values. -/
def CoordinateLine (R : Reader K) (dim : ℕ) (line : List Char) (vs : List K) : Prop :=
  Numbers R line vs [] ∧ vs.length = dim

/-- The file declares a positive number of points, and as many lines with the same positive number of coordinates
follow. -/
def BodyFileOK (R : Reader K) (f : TextFile) (n : ℕ) (coords : List (List K)) : Prop :=
  ∃ head body dim, f.lines = head :: body ∧ R.int head = some ((n : ℤ), []) ∧ 0 < n ∧ body.length = n ∧ 0 < dim ∧
    List.Forall₂ (CoordinateLine R dim) body coords

/-- What the reader really demands: the first line with coordinates may contain anything that is no number behind the
coordinates, and if the file has a single line without newline, this line itself serves as line of coordinates. -/
def BodyFileLoose (R : Reader K) (f : TextFile) (n : ℕ) (coords : List (List K)) : Prop :=
  ∃ head first body dim vs rest vss, (f.lines = head :: first :: body ∨
      (f.lines = [head] ∧ f.terminated = false ∧ first = head ∧ body = [])) ∧
    R.int head = some ((n : ℤ), []) ∧ body.length + 1 = n ∧ 0 < dim ∧ coords = vs :: vss ∧
    Numbers R first vs rest ∧ vs.length = dim ∧ R.real rest = none ∧ List.Forall₂ (CoordinateLine R dim) body vss

/-- The reader leaves the array: no point is declared but numbers follow, or a further line follows behind the declared
number of correct lines. -/
def BodyFileOverflow (R : Reader K) (f : TextFile) : Prop :=
  ∃ head first body dim vs rest, (f.lines = head :: first :: body ∨
      (f.lines = [head] ∧ f.terminated = false ∧ first = head ∧ body = [])) ∧
    Numbers R first vs rest ∧ vs.length = dim ∧ R.real rest = none ∧ 0 < dim ∧
    (R.int head = some (0, []) ∨ ∃ (good : List (List Char)) (bad : List Char) (more : List (List Char)),
      R.int head = some ((good.length + 1 : ℤ), []) ∧ body = good ++ bad :: more ∧
      ∀ l ∈ good, ∃ ws, CoordinateLine R dim l ws)

end PetIBM.Spec
