/-
Properties of the regularised delta functions.
-/
import Verif.Model.Ibpm
import Verif.Lemmas.Kernel

namespace PetIBM

open Spec

/-- C27 for `Roma_et_al_1999`: for every positive width the C++ function is defined everywhere (no square root of a
negative number) and computes a regularised delta function supported on 1.5 cells. -/
theorem C27_roma (h : ℝ) (hh : 0 < h) :
    ∃ φ : ℝ → ℝ, (∀ r, romaEtAl1999 r h = .ok (φ r)) ∧ DiscreteDelta φ h (3/2) (1/2) :=
  ⟨_, fun r => roma_value r hh, discreteDelta_scale hh romaShape_continuous romaShape_even
    (fun _ => romaShape_inside) (fun _ => romaShape_outside) (fun x => (romaShape_sums x).1)
    (fun x => (romaShape_sums x).2.1) (fun x => (romaShape_sums x).2.2)⟩

/-- C27 for `Peskin_2002`, supported on 2 cells. -/
theorem C27_peskin (h : ℝ) (hh : 0 < h) :
    ∃ φ : ℝ → ℝ, (∀ r, peskin2002 r h = .ok (φ r)) ∧ DiscreteDelta φ h 2 (3/8) :=
  ⟨_, fun r => peskin_value r hh, discreteDelta_scale hh peskinShape_continuous peskinShape_even
    (fun _ => peskinShape_inside) (fun _ => peskinShape_outside) (fun x => (peskinShape_sums x).1)
    (fun x => (peskinShape_sums x).2.1) (fun x => (peskinShape_sums x).2.2)⟩

/-- C27, the kernels offered to the user: every accepted name yields a regularised delta function for every positive
width. -/
theorem C27_getKernel (name : String) (kernel : DeltaKernel ℝ) (size : ℤ)
    (hk : getKernel name = .ok (kernel, size)) (h : ℝ) (hh : 0 < h) :
    ∃ (φ : ℝ → ℝ) (s q : ℝ), (∀ r, kernel r h = .ok (φ r)) ∧ DiscreteDelta φ h s q ∧ 0 < s ∧ s + 1 / 2 ≤ size := by
  unfold getKernel at hk
  split_ifs at hk
  · cases hk
    obtain ⟨φ, h1, h2⟩ := C27_roma h hh
    exact ⟨φ, _, _, h1, h2, by norm_num, by norm_num⟩
  · cases hk
    obtain ⟨φ, h1, h2⟩ := C27_peskin h hh
    exact ⟨φ, _, _, h1, h2, by norm_num, by norm_num⟩

/-- C27. The configuration entry `delta`: without it the kernel of Roma et al. is used, with a support of 3/2 cells and a window of two; other
names than the two known ones are an error. -/
theorem C27_option (name : Option String) :
    (name = none ∨ name = some "ROMA_ET_AL_1999" → ∃ k, deltaOption name = .ok (k, 2) ∧
      ∀ h, 0 < h → ∃ φ : ℝ → ℝ, (∀ r, k r h = .ok (φ r)) ∧ DiscreteDelta φ h (3 / 2) (1 / 2)) ∧
    (name = some "PESKIN_2002" → ∃ k, deltaOption name = .ok (k, 3) ∧
      ∀ h, 0 < h → ∃ φ : ℝ → ℝ, (∀ r, k r h = .ok (φ r)) ∧ DiscreteDelta φ h 2 (3 / 8)) ∧
    (name ≠ none → name ≠ some "ROMA_ET_AL_1999" → name ≠ some "PESKIN_2002" → deltaOption name = .error .argUnknownType) := by
  refine ⟨?_, ?_, ?_⟩
  · rintro (rfl | rfl) <;> exact ⟨romaEtAl1999, by simp [deltaOption, getKernel], C27_roma⟩
  · rintro rfl
    exact ⟨peskin2002, by simp [deltaOption, getKernel], C27_peskin⟩
  · intro h0 h1 h2
    obtain ⟨n, rfl⟩ := Option.ne_none_iff_exists'.1 h0
    have h1 : n ≠ "ROMA_ET_AL_1999" := fun h => h1 (by rw [h])
    have h2 : n ≠ "PESKIN_2002" := fun h => h2 (by rw [h])
    simp [deltaOption, getKernel, h1, h2]

/-- Two accepted names, and a position for which the weights are not trivial: halfway between two points of a grid of
width 2 Roma's function spreads one half to each (value `1/2 / 2`). -/
example : (∃ k, getKernel "PESKIN_2002" = .ok (k, 3)) ∧ (∃ k, getKernel "ROMA_ET_AL_1999" = .ok (k, 2)) ∧
    romaEtAl1999 1 2 = .ok (1/4) := by
  refine ⟨⟨peskin2002, by simp [getKernel]⟩, ⟨romaEtAl1999, by simp [getKernel]⟩, ?_⟩
  rw [roma_value _ (by norm_num), romaShape_near (by rw [abs_of_pos] <;> norm_num)]
  rw [show (1:ℝ) - 3 * (1/2)^2 = (1/2)^2 by norm_num, Real.sqrt_sq (by norm_num)]
  norm_num

end PetIBM
