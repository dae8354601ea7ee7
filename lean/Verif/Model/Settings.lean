/-
Settings: directories from the command line and sections from the YAML files (`src/parser/parser.cpp` 24-40 and 150-237).
-/
import Verif.Model.Index

namespace PetIBM

/-- What `YAML::LoadFile` finds. `V` are the nodes of yaml-cpp, which the functions below only pass on. (`src/parser/parser.cpp` 161) -/
inductive YamlFile (V : Type) where
  /-- the file cannot be opened: `YAML::BadFile` -/
  | missing
  /-- the text is not YAML: an exception that is not caught -/
  | invalid
  /-- a scalar or an empty document: nothing to iterate over -/
  | scalar
  /-- a sequence with `n` items: `item.first` is not defined -/
  | sequence (n : ℕ)
  /-- a map: its pairs in the order of the file; `none` is a key that cannot be converted to a string -/
  | map (pairs : List (Option String × V))

/-- A map node of yaml-cpp with string keys. (`src/parser/parser.cpp` 154-171) -/
abbrev Settings (V : Type) := List (String × V)

namespace Settings

variable {V : Type}

/-- `node[key] = v`: an existing pair gets the new value, otherwise a pair is appended. (`src/parser/parser.cpp` 170) -/
def assign (S : Settings V) (key : String) (v : V) : Settings V :=
  match S with
  | [] => [(key, v)]
  | (k, w) :: rest => if k = key then (k, v) :: rest else (k, w) :: assign rest key v

/-- `node[key]`, if it is defined. (`src/parser/parser.cpp` 175-237) -/
def get (S : Settings V) (key : String) : Option V :=
  match S with
  | [] => none
  | (k, w) :: rest => if k = key then some w else get rest key

end Settings

variable {V : Type}

/-- The loop over the items, `src/parser/parser.cpp` 169. -/
def assignItems : List (Option String × V) → Settings V → Except Error (Settings V)
  | [], S => .ok S
  | (none, _) :: _, _ => .error .exception
  | (some k, v) :: rest, S => assignItems rest (S.assign k v)

/-- `readYAMLFile`, `src/parser/parser.cpp` 152-172. -/
def readYAMLFile (files : String → YamlFile V) (path : String) (S : Settings V) : Except Error (Settings V) :=
  match files path with
  | .missing => .error .fileRead
  | .invalid => .error .exception
  | .scalar => .ok S
  | .sequence n => if n = 0 then .ok S else .error .exception
  | .map pairs => assignItems pairs S

/-- Outcome of `mkdir`. (`src/parser/parser.cpp` 29-37) -/
inductive MkdirResult where
  | created
  | eexist
  | failed
deriving DecidableEq

/-- The part of the operating system that `createDirectory` sees: a state and `mkdir` on it. (`src/parser/parser.cpp` 25-40) -/
structure FileSystem (σ : Type) where
  mkdir : σ → String → σ × MkdirResult

/-- `createDirectory`, `src/parser/parser.cpp` 25-40. The error code is 1, represented by `fileRead`. -/
def createDirectory {σ : Type} (fs : FileSystem σ) (s : σ) (dir : String) : Except Error σ :=
  match fs.mkdir s dir with
  | (s, .created) => .ok s
  | (s, .eexist) => .ok s
  | (_, .failed) => .error .fileRead

/-- The options with the paths of further files, lines 217-219. (`src/parser/parser.cpp`) -/
def cliOpts : List String := ["-mesh", "-flow", "-parameters", "-bodies", "-probes"]

/-- The loop over `cliOpts`, lines 220-233. (`src/parser/parser.cpp`) -/
def readCliFiles (opts : String → Option String) (files : String → YamlFile V) : List String → Settings V → Except Error (Settings V)
  | [], S => .ok S
  | o :: rest, S =>
    match opts o with
    | none => readCliFiles opts files rest S
    | some path => do
      let S ← readYAMLFile files path S
      readCliFiles opts files rest S

/-- `getSettings`, `src/parser/parser.cpp` 175-237, on an empty node: the settings and the new state of the file system. `opts` are the
command-line options (`PetscOptionsGetString`; values longer than the buffer are truncated there), `text` makes a scalar node of a string.
Every process executes it; the second process finds the directories already there. -/
def getSettings {σ : Type} (text : String → V) (opts : String → Option String) (files : String → YamlFile V) (fs : FileSystem σ) (s : σ) :
    Except Error (Settings V × σ) := do
  -- 185-188
  let directory := (opts "-directory").getD "./"
  let S := Settings.assign [] "directory" (text "./")
  let S := match opts "-directory" with | some d => S.assign "directory" (text d) | none => S
  -- 193-198
  let output := (opts "-output").getD (directory ++ "/output")
  let S := S.assign "output" (text (directory ++ "/output"))
  let S := match opts "-output" with | some d => S.assign "output" (text d) | none => S
  let s ← createDirectory fs s output
  -- 203-208
  let logs := (opts "-logs").getD (output ++ "/logs")
  let S := S.assign "logs" (text (output ++ "/logs"))
  let S := match opts "-logs" with | some d => S.assign "logs" (text d) | none => S
  let s ← createDirectory fs s logs
  -- 213-218
  let S ← readYAMLFile files ((opts "-config").getD (directory ++ "/config.yaml")) S
  let S ← readCliFiles opts files cliOpts S
  return (S, s)

end PetIBM
