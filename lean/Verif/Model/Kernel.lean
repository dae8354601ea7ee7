/-
Regularised delta functions (`src/misc/delta.cpp`).
-/
import Verif.Model.Index
import Mathlib.Analysis.SpecialFunctions.Sqrt

namespace PetIBM

/-- `std::sqrt` on `PetscReal`. A negative argument gives NaN in C++, which is an outcome of its own here. Rounding
is not modelled. (`src/misc/delta.cpp` 24-37) -/
noncomputable def stdSqrt (x : ℝ) : Except Error ℝ :=
  if x < 0 then .error .notANumber else .ok (Real.sqrt x)

/-- A delta kernel, `type::DeltaKernel`, `include/petibm/delta.h` 46-47. -/
abbrev DeltaKernel (K : Type) := K → K → Except Error K

/-- `Roma_et_al_1999`, `src/misc/delta.cpp` 17-27. The quotient by a zero width is not a number. -/
noncomputable def romaEtAl1999 : DeltaKernel ℝ := fun r dr =>
  if dr = 0 then .error .notANumber else
  let x := |r| / dr
  -- 21
  if x > 1.5 then .ok 0
  -- 23-24
  else if x > 0.5 ∧ x ≤ 1.5 then do
    let s ← stdSqrt (-3 * (1 - x) * (1 - x) + 1)
    return (5 - 3 * x - s) / (6 * dr)
  -- 26
  else do
    let s ← stdSqrt (-3 * x * x + 1)
    return (1 + s) / (3 * dr)

/-- `Peskin_2002`, `src/misc/delta.cpp` 30-39. -/
noncomputable def peskin2002 : DeltaKernel ℝ := fun r dr =>
  if dr = 0 then .error .notANumber else
  let x := |r| / dr
  -- 34-35
  if x ≥ 0 ∧ x ≤ 1 then do
    let s ← stdSqrt (1 + 4 * x - 4 * x * x)
    return (3 - 2 * x + s) / (8 * dr)
  -- 36-37
  else if x ≥ 1 ∧ x ≤ 2 then do
    let s ← stdSqrt (-7 + 12 * x - 4 * x * x)
    return (5 - 2 * x - s) / (8 * dr)
  -- 38
  else .ok 0

/-- `getKernel`, `src/misc/delta.cpp` 41-62. -/
noncomputable def getKernel (name : String) : Except Error (DeltaKernel ℝ × ℤ) :=
  if name = "ROMA_ET_AL_1999" then .ok (romaEtAl1999, 2)
  else if name = "PESKIN_2002" then .ok (peskin2002, 3)
  else .error .argUnknownType

/-- `delta`, `src/misc/delta.cpp` 65-74: product over the directions, in the order of the loop. Reading `source` or
`target` past its end is undefined. -/
def delta {K : Type} [Mul K] [One K] [Sub K] (source target widths : List K) (kernel : DeltaKernel K) :
    Except Error K :=
  (List.range widths.length).foldlM (init := 1) fun phi d =>
    match source[d]?, target[d]?, widths[d]? with
    | some s, some t, some w => do
      let v ← kernel (s - t) w
      return phi * v
    | _, _, _ => .error .ub

end PetIBM
