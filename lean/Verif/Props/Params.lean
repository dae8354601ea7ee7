/-
The parameters of a simulation.
-/
import Verif.Spec.Params
import Verif.Lemmas.NavierStokesRun

set_option linter.unusedSectionVars false

namespace PetIBM

open Spec

variable {K : Type} [Field K] [LinearOrder K]

theorem required_iff {α : Type} (o : Option α) (a : α) : required o = .ok a ↔ o = some a := by
  cases o <;> simp [required]

theorem valueOr_iff {α : Type} (key : Option α) (d v : α) : ValueOr key d v ↔ v = key.getD d := by
  unfold ValueOr
  cases key <;> simp [eq_comm]

theorem createTimeIntegration_iff (name : String) (node : String → Option String) (S : TimeScheme K) :
    createTimeIntegration name (some node) = .ok S ↔ ∃ scheme, node name = some scheme ∧ SchemeOf scheme S := by
  unfold createTimeIntegration
  simp only
  generalize node name = o
  cases o with
  | none => simp
  | some s =>
    simp only [Option.some.injEq, exists_eq_left']
    constructor
    · intro h
      split_ifs at h with h1 h2 h3 h4
      · cases h; rw [h1]; exact .explicitEuler
      · cases h; rw [h2]; exact .implicitEuler
      · cases h; rw [h3]; exact .adamsBashforth
      · cases h; rw [h4]; exact .crankNicolson
    · intro h
      cases h <;> rfl

theorem createLinSolver_iff (haveAmgX : Bool) (type : Option String) (t : SolverType) :
    createLinSolver haveAmgX type = .ok t ↔ SolverOf haveAmgX type t := by
  unfold createLinSolver
  constructor
  · intro h
    cases type with
    | none => simp at h; rw [← h]; exact .default
    | some s =>
      simp only [Option.getD_some] at h
      split_ifs at h with h1 h2 h3
      · cases h; rw [h1]; exact .cpu
      · cases h; rw [h2]; exact .gpu h3
  · intro h
    cases h with
    | default => rfl
    | cpu => rfl
    | gpu h => rw [h]; rfl

/-- C80. The solver accepts a configuration exactly if all necessary keys are there and all names are known, and its parameters are then those of
the configuration, with the documented defaults. -/
theorem C80_parameters (haveAmgX : Bool) (output : String) (node : Option (ParamNode K)) (flow : Option (FlowNode K)) (P : NSParams K) :
    readParams haveAmgX output node flow = .ok P ↔ ∃ n f, node = some n ∧ flow = some f ∧ ParamsOf haveAmgX output n f P := by
  constructor
  · intro h
    obtain ⟨n, h1, h⟩ := bind_ok h
    obtain ⟨dt, h2, h⟩ := bind_ok h
    obtain ⟨nt, h3, h⟩ := bind_ok h
    obtain ⟨nsave, h4, h⟩ := bind_ok h
    obtain ⟨nrestart, h5, h⟩ := bind_ok h
    obtain ⟨nu, h6, h⟩ := bind_ok h
    obtain ⟨conv, h7, h⟩ := bind_ok h
    obtain ⟨diff, h8, h⟩ := bind_ok h
    obtain ⟨vType, h9, h⟩ := bind_ok h
    obtain ⟨pType, h10, h⟩ := bind_ok h
    cases h
    rw [required_iff] at h1 h2 h3 h4 h5 h6
    cases flow with
    | none => cases h6
    | some f =>
      exact ⟨n, f, h1, rfl, h2, h3, h4, h5, h6, (valueOr_iff ..).2 rfl, (valueOr_iff ..).2 rfl, (valueOr_iff ..).2 rfl, (createTimeIntegration_iff ..).1 h7,
        (createTimeIntegration_iff ..).1 h8, (createLinSolver_iff ..).1 h9, (createLinSolver_iff ..).1 h10, rfl⟩
  · rintro ⟨n, f, rfl, rfl, h⟩
    obtain ⟨dt, nt, nsave, nrestart, nu, nstart, t, BN, conv, diff, vType, pType, out⟩ := h
    obtain ⟨pdt, pns, pt, pnt, psave, pres, pnu, pBN, pconv, pdiff, pv, pp, po⟩ := P
    rw [valueOr_iff] at nstart t BN
    rw [← createTimeIntegration_iff] at conv diff
    rw [← createLinSolver_iff] at vType pType
    simp only at nstart t BN dt nt nsave nrestart nu conv diff vType pType out
    subst nstart t BN out
    unfold readParams
    simp only [required, dt, nt, nsave, nrestart, nu, Option.bind_some, conv, diff, vType, pType, bind, Except.bind]
    rfl

/-- C80. A configuration that is not accepted is reported as an error of its own kind: an exception for a missing number, an error code for an
unknown name. -/
theorem C80_errors (haveAmgX : Bool) (output : String) (node : Option (ParamNode K)) (flow : Option (FlowNode K)) (e : Error)
    (h : readParams haveAmgX output node flow = .error e) : e = .exception ∨ e = .argOutOfRange ∨ e = .argWrong := by
  have req : ∀ {α : Type} {o : Option α} {e : Error}, required o = .error e → e = .exception := by
    intro α o e h
    cases o <;> cases h
    rfl
  have ti : ∀ {name : String} {n : String → Option String} {e : Error}, createTimeIntegration (K := K) name (some n) = .error e → e = .argOutOfRange := by
    intro name n e h
    unfold createTimeIntegration at h
    simp only at h
    split at h
    · cases h; rfl
    · split_ifs at h; cases h; rfl
  have ls : ∀ {o : Option String} {e : Error}, createLinSolver haveAmgX o = .error e → e = .argWrong := by
    intro o e h
    unfold createLinSolver at h
    simp only at h
    split_ifs at h <;> (cases h; rfl)
  have step : ∀ {α β : Type} {x : Except Error α} {g : α → Except Error β} {e : Error}, (x >>= g) = .error e → x = .error e ∨ ∃ a, g a = .error e := by
    intro α β x g e h
    cases x with
    | error e' => cases h; exact Or.inl rfl
    | ok a => exact Or.inr ⟨a, h⟩
  rcases step h with h | ⟨n, h⟩
  · exact Or.inl (req h)
  rcases step h with h | ⟨_, h⟩
  · exact Or.inl (req h)
  rcases step h with h | ⟨_, h⟩
  · exact Or.inl (req h)
  rcases step h with h | ⟨_, h⟩
  · exact Or.inl (req h)
  rcases step h with h | ⟨_, h⟩
  · exact Or.inl (req h)
  rcases step h with h | ⟨_, h⟩
  · exact Or.inl (req h)
  rcases step h with h | ⟨_, h⟩
  · exact Or.inr (Or.inl (ti h))
  rcases step h with h | ⟨_, h⟩
  · exact Or.inr (Or.inl (ti h))
  rcases step h with h | ⟨_, h⟩
  · exact Or.inr (Or.inr (ls h))
  rcases step h with h | ⟨_, h⟩
  · exact Or.inr (Or.inr (ls h))
  cases h

/-- A configuration with defaults. -/
example : ParamsOf (K := ℚ) false "out"
    { dt := some (1 / 100), startStep := none, t := none, nt := some 2000, nsave := some 500, nrestart := some 2000, BN := none,
      schemes := fun key => if key = "convection" then some "ADAMS_BASHFORTH_2" else some "CRANK_NICOLSON", velocitySolver := some "CPU", poissonSolver := none }
    ⟨some (1 / 10), none, none⟩
    { dt := 1 / 100, nstart := 0, t := 0, nt := 2000, nsave := 500, nrestart := 2000, nu := 1 / 10, BN := 1, conv := ⟨0, 2, [3 / 2, -(1 / 2)]⟩,
      diff := ⟨1 / 2, 1, [1 / 2]⟩, vType := .ksp, pType := .ksp, output := "out" } :=
  ⟨rfl, rfl, rfl, rfl, rfl, Or.inr ⟨rfl, rfl⟩, Or.inr ⟨rfl, rfl⟩, Or.inr ⟨rfl, rfl⟩, ⟨_, rfl, .adamsBashforth⟩, ⟨_, rfl, .crankNicolson⟩, .cpu, .default, rfl⟩

end PetIBM
