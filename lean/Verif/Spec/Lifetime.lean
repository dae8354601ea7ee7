/-
What it means that a run handles its PETSc objects correctly.
-/
import Verif.Model.Lifetime

namespace PetIBM.Spec

/-- Every object is freed. -/
def NothingLeft (m : PMem) : Prop := ∀ i, m.count i = 0

/-- At most `n` objects exist. -/
def AtMostObjects (m : PMem) (n : ℕ) : Prop := ∃ l : List ℕ, l.length ≤ n ∧ ∀ i, m.count i ≠ 0 → i ∈ l

/-- However many steps the run makes, whether it starts at step 0 or not, and whatever the steps write: no freed, uninitialised or null pointer is used or
released; there are never more than `n` objects between the steps; after `destroy` there are none. -/
def CleanRuns (p : ObjProgram) (n : ℕ) : Prop :=
  ∀ (zero : Bool) (files : List StepFiles), ∃ run : ℕ → PMem, execAll (p.init zero) PMem.start = .ok (run 0) ∧
    (∀ (k : ℕ) (h : k < files.length), execAll (p.step files[k]) (run k) = .ok (run (k + 1))) ∧ (∀ k ≤ files.length, AtMostObjects (run k) n) ∧
      ∃ last, execAll p.destroy (run files.length) = .ok last ∧ NothingLeft last

/-- `destroy` may be called again (the destructors do). -/
def DestroyAgain (p : ObjProgram) : Prop :=
  ∀ (zero : Bool) (files : List StepFiles) (m last : PMem),
    execAll (p.init zero ++ files.flatMap p.step) PMem.start = .ok m → execAll p.destroy m = .ok last → ∃ again, execAll p.destroy last = .ok again ∧ NothingLeft again

end PetIBM.Spec
