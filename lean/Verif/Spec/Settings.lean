/-
What the settings should be.
-/
import Verif.Model.Settings

namespace PetIBM.Spec

variable {V : Type}

/-- The value of the last of the pairs with this key. -/
def lastValue (key : String) (pairs : List (String × V)) : Option V :=
  ((pairs.filter fun p => decide (p.1 = key)).getLast?).map (·.2)

/-- The files that are read, in order: the configuration file (by default `config.yaml` in the working directory) and the files given with
the options `-mesh`, `-flow`, `-parameters`, `-bodies`, `-probes`. -/
def filesRead (opts : String → Option String) : List String :=
  ((opts "-config").getD ((opts "-directory").getD "./" ++ "/config.yaml")) ::
    ["-mesh", "-flow", "-parameters", "-bodies", "-probes"].filterMap opts

/-- Sections of a file that can be used: a map with strings as keys, or nothing. -/
inductive Sections : YamlFile V → List (String × V) → Prop where
  | scalar : Sections .scalar []
  | empty : Sections (.sequence 0) []
  | map (l : List (String × V)) : Sections (.map (l.map fun p => (some p.1, p.2))) l

/-- The directories: working directory, output and logs. -/
def directories (text : String → V) (opts : String → Option String) : List (String × V) :=
  let d := (opts "-directory").getD "./"
  let o := (opts "-output").getD (d ++ "/output")
  [("directory", text d), ("output", text o), ("logs", text ((opts "-logs").getD (o ++ "/logs")))]

end PetIBM.Spec
