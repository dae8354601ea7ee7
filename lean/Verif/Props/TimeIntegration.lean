/-
Property C39: time integration schemes.
-/
import Verif.Model.TimeIntegration
import Mathlib.Algebra.CharZero.Defs
import Mathlib.Algebra.Field.Rat
import Mathlib.Tactic.NormNum

set_option linter.unusedSectionVars false

namespace PetIBM

variable {K : Type} [Field K] [CharZero K]

/-- C39. Whatever the configuration, an accepted scheme has as many explicit coefficients as stored terms, and its
coefficients, implicit and explicit, sum to one. -/
theorem C39_consistent (name : String) (parameters : Option (String → Option String)) (S : TimeScheme K)
    (h : createTimeIntegration name parameters = .ok S) :
    S.explicitCoeffs.length = S.nExplicit ∧ S.implicitCoeff + S.explicitCoeffs.sum = 1 := by
  unfold createTimeIntegration at h
  split at h
  · cases h
  · split at h
    · cases h
    · split_ifs at h <;> cases h <;> refine ⟨rfl, ?_⟩ <;>
        simp [eulerExplicit, eulerImplicit, adamsBashforth2, crankNicolson] <;> norm_num

/-- C39. The four names select the first-order explicit and implicit Euler, the second-order Adams-Bashforth and the
Crank-Nicolson scheme, given by their weights (implicit level; explicit levels, newest first). -/
theorem C39_schemes (name : String) (node : String → Option String) :
    (node name = some "EULER_EXPLICIT" → createTimeIntegration name (some node) = .ok (⟨0, 1, [1]⟩ : TimeScheme K)) ∧
    (node name = some "EULER_IMPLICIT" → createTimeIntegration name (some node) = .ok (⟨1, 0, []⟩ : TimeScheme K)) ∧
    (node name = some "ADAMS_BASHFORTH_2" →
      createTimeIntegration name (some node) = .ok (⟨0, 2, [3 / 2, -(1 / 2)]⟩ : TimeScheme K)) ∧
    (node name = some "CRANK_NICOLSON" → createTimeIntegration name (some node) = .ok (⟨1 / 2, 1, [1 / 2]⟩ : TimeScheme K)) := by
  refine ⟨?_, ?_, ?_, ?_⟩ <;> intro h <;> simp only [createTimeIntegration, h] <;> rfl

/-- C39. A missing section, a missing key and every other name are rejected. -/
theorem C39_rejected (name : String) (parameters : Option (String → Option String))
    (h : ∀ node s, parameters = some node → node name = some s →
      s ∉ ["EULER_EXPLICIT", "EULER_IMPLICIT", "ADAMS_BASHFORTH_2", "CRANK_NICOLSON"]) :
    createTimeIntegration name parameters = (.error .argOutOfRange : Except Error (TimeScheme K)) := by
  unfold createTimeIntegration
  split
  · rfl
  · rename_i node
    split
    · rfl
    · rename_i s hs
      have := h node s rfl hs
      simp only [List.mem_cons, List.not_mem_nil, or_false, not_or] at this
      rw [if_neg this.1, if_neg this.2.1, if_neg this.2.2.1, if_neg this.2.2.2]

example : createTimeIntegration "convection" (some fun k => if k = "convection" then some "ADAMS_BASHFORTH_2" else none) =
    .ok (⟨0, 2, [3 / 2, -(1 / 2)]⟩ : TimeScheme ℚ) := (C39_schemes _ _).2.2.1 rfl

example : createTimeIntegration "diffusion" (some fun k => if k = "convection" then some "ADAMS_BASHFORTH_2" else none) =
    (.error .argOutOfRange : Except Error (TimeScheme ℚ)) := C39_rejected _ _ (by intro n s h1 h2; cases h1; simp at h2)

/-- C39. The type of a linear solver: missing and `CPU` give the PETSc solver, `GPU` the AmgX solver if the code has been compiled
with it, everything else is rejected. -/
theorem C39_solver_type (haveAmgX : Bool) (type : Option String) (t : SolverType) :
    createLinSolver haveAmgX type = .ok t ↔
      (t = .ksp ∧ (type = none ∨ type = some "CPU")) ∨ (t = .amgx ∧ haveAmgX = true ∧ type = some "GPU") := by
  unfold createLinSolver
  cases type with
  | none => cases t <;> simp
  | some s =>
    simp only [Option.getD_some]
    by_cases h : s = "CPU"
    · subst h; cases t <;> simp
    · by_cases h' : s = "GPU"
      · subst h'; cases haveAmgX <;> cases t <;> simp
      · simp [h, h']

end PetIBM
