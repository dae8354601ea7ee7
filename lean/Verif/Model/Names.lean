/-
Names of enumerators: the maps of `src/misc/type.cpp` and the converters of `src/parser/parser.cpp`.
-/
import Verif.Model.Xdmf
import Verif.Model.ProbeConfig

namespace PetIBM

/-- `std::map<Key, T>` of `include/petibm/type.h` 73-131, as the list of its entries. Simplification: the order of the entries, which no code uses, is
that of insertion. -/
abbrev NameMap (κ T : Type) := List (κ × T)

/-- `m[key]` (`src/parser/parser.cpp` 53, 61, 73, 81, 93, 100, 112, 120; `src/misc/probes.cpp` 72, 193): the value of the entry and the map
afterwards. A missing entry is inserted, with the enumerator 0 or the empty string. -/
def NameMap.at {κ T : Type} [DecidableEq κ] (zero : T) (m : NameMap κ T) (key : κ) : T × NameMap κ T :=
  match m.find? (fun e => e.1 = key) with
  | some e => (e.2, m)
  | none => (zero, m ++ [(key, zero)])

/-- The map after some look-ups; the maps are global objects that live as long as the program. (`src/misc/type.cpp` 16-55) -/
def NameMap.after {κ T : Type} [DecidableEq κ] (zero : T) (m : NameMap κ T) (keys : List κ) : NameMap κ T :=
  keys.foldl (fun m k => (NameMap.at zero m k).2) m

/-- `str2dir`, `src/misc/type.cpp` 16. -/
def str2dirMap : NameMap String ℕ := [("x", 0), ("y", 1), ("z", 2)]

/-- `dir2str`, `src/misc/type.cpp` 18. -/
def dir2strMap : NameMap ℕ String := [(0, "x"), (1, "y"), (2, "z")]

/-- `str2fd`, `src/misc/type.cpp` 21-22. -/
def str2fdMap : NameMap String ℕ := [("u", 0), ("v", 1), ("w", 2), ("p", 3), ("vertex", 4)]

/-- `fd2str`, `src/misc/type.cpp` 24-25. -/
def fd2strMap : NameMap ℕ String := [(0, "u"), (1, "v"), (2, "w"), (3, "p"), (4, "vertex")]

/-- `str2bt`, `src/misc/type.cpp` 28-32. -/
def str2btMap : NameMap String BCType :=
  [("NOBC", .NOBC), ("DIRICHLET", .DIRICHLET), ("NEUMANN", .NEUMANN), ("CONVECTIVE", .CONVECTIVE), ("PERIODIC", .PERIODIC)]

/-- `bt2str`, `src/misc/type.cpp` 34-38. -/
def bt2strMap : NameMap BCType String :=
  [(.NOBC, "NOBC"), (.DIRICHLET, "DIRICHLET"), (.NEUMANN, "NEUMANN"), (.CONVECTIVE, "CONVECTIVE"), (.PERIODIC, "PERIODIC")]

/-- `str2bl`, `src/misc/type.cpp` 41-46. -/
def str2blMap : NameMap String ℕ :=
  [("left", 0), ("right", 1), ("bottom", 2), ("top", 3), ("back", 4), ("front", 5), ("xMinus", 0), ("xPlus", 1), ("yMinus", 2), ("yPlus", 3),
    ("zMinus", 4), ("zPlus", 5), ("XMINUS", 0), ("XPLUS", 1), ("YMINUS", 2), ("YPLUS", 3), ("ZMINUS", 4), ("ZPLUS", 5)]

/-- `bl2str`, `src/misc/type.cpp` 48-50. -/
def bl2strMap : NameMap ℕ String := [(0, "xMinus"), (1, "xPlus"), (2, "yMinus"), (3, "yPlus"), (4, "zMinus"), (5, "zPlus")]

/-- `str2ProbeType`, `src/misc/type.cpp` 53-55. -/
def str2ProbeTypeMap : NameMap String ProbeType := [("POINT", .POINT), ("LINE", .LINE), ("SURFACE", .SURFACE), ("VOLUME", .VOLUME)]

/-- A YAML node as the converters see it. Simplification: null nodes are not distinguished from lists and maps. (`src/parser/parser.cpp` 45-140) -/
inductive NameNode where
  | undefined
  | scalar (text : String)
  | other
deriving DecidableEq, Repr

/-- `convert<E>::encode` for the four enumerations, `src/parser/parser.cpp` 50-55, 70-75, 90-95, 109-114: the node and the map of names
afterwards. -/
def encodeName {E : Type} [DecidableEq E] (names : NameMap E String) (e : E) : NameNode × NameMap E String :=
  let r := NameMap.at "" names e
  (.scalar r.1, r.2)

/-- `convert<E>::decode(node, e)` for the four enumerations, `src/parser/parser.cpp` 57-63, 77-83, 97-102, 116-122: the answer, the enumerator and the
map afterwards. `node.as<std::string>()` throws for nodes that are not scalars. -/
def decodeName {E : Type} (zero : E) (m : NameMap String E) (node : NameNode) (e : E) : Except Error (Bool × E × NameMap String E) :=
  match node with
  | .undefined => .ok (false, e, m)
  | .other => .error .exception
  | .scalar s =>
    let r := NameMap.at zero m s
    .ok (true, r.1, r.2)

end PetIBM
