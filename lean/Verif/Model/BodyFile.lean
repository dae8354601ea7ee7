/-
Reader of the files with the coordinates of a body (`src/io/io.cpp` 23-118).
-/
import Verif.Model.Index
import Mathlib.Algebra.Field.Rat

namespace PetIBM

/-- The formatted extractions `stream >> int` and `stream >> double`: they consume characters of the stream (leading
blanks included) and give the value and what is left, or fail. Their grammar belongs to the C++ library and is left
open; the only assumption is that a successful extraction consumes something. `decimalReader` below is one instance. (`src/io/io.cpp` 43, 65, 80, 92) -/
structure Reader (K : Type) where
  int : List Char → Option (ℤ × List Char)
  real : List Char → Option (K × List Char)
  real_shorter : ∀ s v rest, real s = some (v, rest) → rest.length < s.length

/-- Content of a text file: its lines, and whether the last one ends with a newline. (`src/io/io.cpp` 28-37) -/
structure TextFile where
  lines : List (List Char)
  terminated : Bool

/-- State of an `std::ifstream`: the lines not read yet, whether the last of them ends with a newline, and whether no flag
(eof, fail) is set. (`src/io/io.cpp` 28-37) -/
structure InStream where
  lines : List (List Char)
  terminated : Bool
  good : Bool

/-- An opened file. (`src/io/io.cpp` 28-37) -/
def TextFile.open (f : TextFile) : InStream := ⟨f.lines, f.terminated, true⟩

/-- `std::getline(stream, line)`: success flag, new content of `line`, new state. A stream whose flags are set leaves
`line` unchanged; a good stream clears it first and fails without a character to extract. Reaching the end of the file
before a newline sets the eof flag but succeeds. (`src/io/io.cpp` 39, 62, 87) -/
def getline (s : InStream) (line : List Char) : Bool × List Char × InStream :=
  if s.good then
    match s.lines with
    | [] => (false, [], { s with good := false })
    | l :: ls => (true, l, ⟨ls, s.terminated, !ls.isEmpty || s.terminated⟩)
  else (false, line, s)

variable {K : Type}

/-- `while (sline >> temp) dim += 1;`, line 65; every round consumes a character, so the length of the line bounds the
number of rounds (`fuel`). (`src/io/io.cpp`) -/
def countReals (R : Reader K) : ℕ → List Char → ℕ
  | 0, _ => 0
  | fuel + 1, s =>
    match R.real s with
    | none => 0
    | some (_, rest) => countReals R fuel rest + 1

/-- Reads `dim` numbers one after the other (the loop over `d` of lines 80 and 91-92): the values and what is left. (`src/io/io.cpp`) -/
def readReals (R : Reader K) : ℕ → List Char → Option (List K × List Char)
  | 0, s => some ([], s)
  | d + 1, s =>
    match R.real s with
    | none => none
    | some (v, rest) =>
      match readReals R d rest with
      | none => none
      | some (vs, rest') => some (v :: vs, rest')

/-- The loop over the further lines, 87-105; `c` counts the points read so far and `acc` holds their coordinates (the
other entries of the array are still zero). A successful `getline` removes one line from the stream, so the recursion is
over these; once the flags are set (or no line is left) `getline` fails and the loop ends. (`src/io/io.cpp`) -/
def readRest (R : Reader K) (nPts dim : ℕ) : List (List Char) → ℕ → List (List K) → Except Error (ℕ × List (List K))
  | [], c, acc => .ok (c, acc)
  | text :: ls, c, acc =>
    -- 93-94: `coords[c]` is evaluated before anything is read
    if nPts ≤ c then .error .ub
    else
      match readReals R dim text with
      -- 95-98
      | none => .error .fileRead
      | some (vs, rest) =>
        -- 100-104: `sline.peek() != EOF`
        if rest ≠ [] then .error .fileRead
        else readRest R nPts dim ls (c + 1) (acc ++ [vs])

/-- `readLagrangianPoints`, `src/io/io.cpp` 23-118: number of points and their coordinates. `none` is a file that cannot
be opened. -/
def readLagrangianPoints (R : Reader K) (file : Option TextFile) : Except Error (ℕ × List (List K)) :=
  match file with
  -- 34-36
  | none => .error .fileRead
  | some content =>
    -- 39-57
    match getline content.open [] with
    | (false, _, _) => .error .fileRead
    | (true, line, s) =>
      match R.int line with
      | none => .error .fileRead
      | some (nPts, rest) =>
        if rest ≠ [] then .error .fileRead
        else
          -- 65-69; the outcome of `getline` is not looked at
          let (_, line, s) := getline s line
          let dim := countReals R line.length line
          -- 71-76
          if dim = 0 then .error .fileRead
          -- 79: the size is converted to an unsigned type, a huge vector throws
          else if nPts < 0 then .error .exception
          -- 84: `coords[0]` of an empty vector
          else if nPts = 0 then .error .ub
          else
            match readReals R dim line with
            | none => .error .fileRead
            | some (vs, _) => do
              let (c, coords) ← readRest R nPts.toNat dim s.lines 1 [vs]
              -- 115-119
              if (c : ℤ) ≠ nPts then .error .fileRead
              else return (nPts.toNat, coords)

/-! ### A reader for plain decimal numbers -/

/-- Blanks skipped by a formatted extraction. (`src/io/io.cpp` 43, 65) -/
def isBlank (c : Char) : Bool := c = ' ' ∨ c = '\t' ∨ c = '\r' ∨ c = '\n'

/-- Leading decimal digits and what follows. (`src/io/io.cpp` 43, 65) -/
def takeDigits (s : List Char) : List Char × List Char := (s.takeWhile Char.isDigit, s.dropWhile Char.isDigit)

/-- Value of a string of digits. (`src/io/io.cpp` 43, 65) -/
def digitsValue (ds : List Char) : ℕ := ds.foldl (fun v c => 10 * v + (c.toNat - '0'.toNat)) 0

/-- An optional sign. (`src/io/io.cpp` 43, 65) -/
def takeSign (s : List Char) : Bool × List Char :=
  match s with
  | '-' :: t => (true, t)
  | '+' :: t => (false, t)
  | t => (false, t)

/-- `stream >> int` for plain decimal numbers with optional sign. (`src/io/io.cpp` 43) -/
def readDecimalInt (s : List Char) : Option (ℤ × List Char) :=
  let s := takeSign (s.dropWhile isBlank)
  match takeDigits s.2 with
  | ([], _) => none
  | (ds, rest) => some (if s.1 then -(digitsValue ds : ℤ) else digitsValue ds, rest)

/-- `stream >> double` for numbers `[+-]digits[.digits]` (no exponent), with the exact decimal value. (`src/io/io.cpp` 65, 80, 92) -/
def readDecimal (s : List Char) : Option (ℚ × List Char) :=
  match readDecimalInt s with
  | none => none
  | some (v, '.' :: rest) =>
    let (ds, rest') := takeDigits rest
    let frac : ℚ := (digitsValue ds : ℚ) / 10 ^ ds.length
    let neg := (s.dropWhile isBlank).head? = some '-'
    some (if neg then (v : ℚ) - frac else v + frac, rest')
  | some (v, rest) => some ((v : ℚ), rest)

theorem readDecimalInt_shorter {s rest : List Char} {v : ℤ} (h : readDecimalInt s = some (v, rest)) :
    rest.length < s.length := by
  have hb := (List.dropWhile_sublist isBlank (l := s)).length_le
  have key : ∀ t : List Char, ∀ ds r, takeDigits t = (ds, r) → ds ≠ [] → r.length < t.length := by
    intro t ds r ht hd
    simp only [takeDigits, Prod.mk.injEq] at ht
    obtain ⟨rfl, rfl⟩ := ht
    have h2 := congrArg List.length (List.takeWhile_append_dropWhile (p := Char.isDigit) (l := t))
    rw [List.length_append] at h2
    have := List.length_pos_of_ne_nil hd
    omega
  have hs : (takeSign (s.dropWhile isBlank)).2.length ≤ (s.dropWhile isBlank).length := by
    unfold takeSign
    split
    · rename_i h; simp [h]
    · rename_i h; simp [h]
    · exact le_refl _
  simp only [readDecimalInt] at h
  rcases ht : takeDigits (takeSign (s.dropWhile isBlank)).2 with ⟨ds, r⟩
  rw [ht] at h
  cases ds with
  | nil => cases h
  | cons d ds =>
    have := key _ _ _ ht (by simp)
    simp only [Option.some.injEq, Prod.mk.injEq] at h
    rw [← h.2]
    omega

/-- A concrete reader over the rationals. (`src/io/io.cpp` 43, 65, 80, 92) -/
def decimalReader : Reader ℚ where
  int := readDecimalInt
  real := readDecimal
  real_shorter := by
    intro s v rest h
    unfold readDecimal at h
    split at h
    · cases h
    · rename_i w r hr
      have := readDecimalInt_shorter hr
      simp only [takeDigits, Option.some.injEq, Prod.mk.injEq] at h
      rw [← h.2]
      have h2 := (List.dropWhile_sublist Char.isDigit (l := r)).length_le
      simp only [List.length_cons] at this
      omega
    · rename_i hr
      cases h
      exact readDecimalInt_shorter hr

end PetIBM
