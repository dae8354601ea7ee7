/-
Success of initialisation, of steps and of writing.
-/
import Verif.Lemmas.Projection

namespace PetIBM

open Spec

set_option linter.unusedSectionVars false

variable {K : Type} [Field K] [LinearOrder K] [IsStrictOrderedRing K]
variable {debug : Bool} {L : Layout} {G : Geom K} {axes : ℕ → Axis K} {T : BCTable K} {B : ℕ → Boundary K}

theorem createOperators_total (C : Constructed debug L G axes T B) (P : NSParams K) (hBN : 1 ≤ P.BN) (h : List (Boundary.Op K)) :
    ∃ ops, createOperators debug L G P (fun r => (B r).run h) = .ok ops := by
  have S := C.setup
  have hG := C.ghosts h
  obtain ⟨m1, hm1, e1⟩ := createDivergence_eq S C.part debug false (fun r => (B r).run h)
  rw [assemble_ok (div_range S C.part hG m1 hm1)] at e1
  have e2 := createGradient_eq S debug false
  rw [assemble_ok (gradPure_range S false)] at e2
  obtain ⟨m3, hm3, e3⟩ := createLaplacian_eq S.layout debug G (fun r => (B r).run h)
  rw [assemble_ok (lap_range S.layout hG m3 hm3)] at e3
  have hb : ∀ Lap : Mat K, ∃ BN, createBnHead L.UN Lap P.dt (P.diff.implicitCoeff * P.nu) P.BN = .ok BN := by
    intro Lap
    unfold createBnHead
    rw [if_neg (by omega)]
    exact ⟨_, rfl⟩
  unfold createOperators
  rw [e1, e2, e3]
  simp only [bind, Except.bind, pure, Except.pure]
  obtain ⟨BN, hBN⟩ := hb (((boundaryEntries L (fun r => (B r).run h) m3).foldl Mat.addValue
    (((unknowns L).flatMap fun u => lapEntries L G u.comp u.st).foldl Mat.insertValue fun _ _ => 0)))
  rw [hBN]
  exact ⟨_, rfl⟩

theorem writeSolution_eq (hL : LayoutOK L) (s : NSState K) (disk : Disk K) (path : String) :
    ∃ file, writeSolutionHDF5 L s disk path = .ok (Function.update disk path (some file)) ∧ file.time = some s.t ∧
      (∀ f, f < L.dim → file.data ("/" ++ fd2str f) = some ((gridList L.toMeshInfo f).map fun x => s.U (col L f (pst x)))) ∧
      file.data "/p" = some ((gridList L.toMeshInfo 3).map fun x => s.p (col L 3 (pst x))) ∧
      ∀ name, name ≠ "/p" → (∀ f, f < L.dim → name ≠ "/" ++ fd2str f) → file.data name = none := by
  obtain ⟨file, h1, h2, h3, h4, h5⟩ := solutionWrite_eq hL s.U s.p disk path
  refine ⟨{ file with time := some s.t }, ?_, rfl, h3, h4, h5⟩
  unfold writeSolutionHDF5
  rw [h1]
  simp only [bind, Except.bind, Function.update_self, h4]
  simp [pure, Except.pure]

end PetIBM
