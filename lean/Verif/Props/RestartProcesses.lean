/-
C63: reading a restart file with another distribution over processes.
-/
import Verif.Props.Restart

namespace PetIBM

open Spec

set_option linter.unusedSectionVars false

variable {K : Type} [Field K] [LinearOrder K] [IsStrictOrderedRing K]

/-- C63. A file with the solution and the explicit terms of a state, written with distribution `L₁`, is read without error with any
distribution `L₂` of the same mesh by a solver with the same numbers of explicit terms. Every grid point then has its velocity and
its pressure, and the time is restored. The explicit terms are restored by the index in the packed vector. Missing: the
explicit terms at the grid points, which are wrong if the index of the point has changed (see `C63_false_explicit_terms`). -/
theorem C63_fields_partial {L₁ L₂ : Layout} (h₁ : LayoutOK L₁) (h₂ : LayoutOK L₂) (same : L₂.toMeshInfo = L₁.toMeshInfo)
    (s s₂ : NSState K) (disk : Disk K) (path : String) (file : H5File K) (hf : disk path = some file) (hS : SolutionIn L₁ file s)
    (hR : RestartIn L₁ file s) (nc : s.conv.length = s₂.conv.length) (nd : s.diff.length = s₂.diff.length)
    (oc : ∀ z ∈ s.conv, ∀ i : ℤ, ¬ (0 ≤ i ∧ i < L₁.UN) → z i = 0) (od : ∀ z ∈ s.diff, ∀ i : ℤ, ¬ (0 ≤ i ∧ i < L₁.UN) → z i = 0) :
    ∃ s', readRestartDataHDF5 L₂ s₂ disk path = .ok s' ∧ s'.t = s.t ∧
      (∀ f p i₁ i₂, f < L₁.dim → Inside L₁.toMeshInfo f p → L₁.getPackedGlobalIndex false f p = .ok i₁ →
        L₂.getPackedGlobalIndex false f p = .ok i₂ → s'.U i₂ = s.U i₁) ∧
      (∀ p i₁ i₂, Inside L₁.toMeshInfo 3 p → L₁.getPackedGlobalIndex false 3 p = .ok i₁ →
        L₂.getPackedGlobalIndex false 3 p = .ok i₂ → s'.p i₂ = s.p i₁) ∧
      s'.conv = s.conv ∧ s'.diff = s.diff := by
  have hd : L₂.dim = L₁.dim := congrArg MeshInfo.dim same
  have hU : L₂.UN = L₁.UN := by
    rw [UN_eq, UN_eq, hd]
    have : ∀ f d, L₂.n f d = L₁.n f d := fun f d => by
      have : L₂.toMeshInfo.n f d = L₁.toMeshInfo.n f d := by rw [same]
      exact this
    simp only [this]
  let u : ℕ → ℕ × ℕ × ℕ → K := fun f x => if f = 3 then s.p (col L₁ 3 (pst x)) else s.U (col L₁ f (pst x))
  have h3 : L₁.dim ≤ 3 := by rcases h₁.dim with h | h <;> omega
  have r1 := solutionRead_eq h₂ s₂.U s₂.p hf (u := u)
    (by
      intro f hf'
      rw [hd] at hf'
      have h : f ≠ 3 := by omega
      simp only [u, if_neg h, same]
      apply fieldIn_data h₁ (Or.inl hf')
      apply hS.velocity f _ hf'
      have : f < 3 := by omega
      interval_cases f <;> rfl)
    (by
      simp only [u, if_true, same]
      exact fieldIn_data h₁ (Or.inr rfl) hS.pressure)
  obtain ⟨vp, r2, _⟩ := hS.pressure
  obtain ⟨vc, r3, r4⟩ := vectorsIn_read hf hR.convection nc oc
  obtain ⟨vd, r5, r6⟩ := vectorsIn_read hf hR.diffusion nd od
  rw [← hU] at r3 r5
  let V := vecAssign s₂.U ((List.range L₂.dim).flatMap fun f => (gridList L₂.toMeshInfo f).map fun x => (col L₂ f (pst x), u f x))
  let q := vecAssign s₂.p ((gridList L₂.toMeshInfo 3).map fun x => (col L₂ 3 (pst x), u 3 x))
  refine ⟨{ s₂ with U := V, p := q, t := s.t, conv := vc.map packedVec, diff := vd.map packedVec,
                    B := fun r => (s₂.B r).setGhostICs V }, ?_, ?_⟩
  · unfold readRestartDataHDF5
    simp only [hf, r1, r2, hS.time, r3, r5, bind, Except.bind, pure, Except.pure]
    rfl
  · refine ⟨rfl, ?_, ?_, r4, r6⟩
    · intro f p i₁ i₂ hf' hs e₁ e₂
      have hs₂ : Inside L₂.toMeshInfo f p := by rw [same]; exact hs
      rw [(col_inside h₁ (Or.inl hf') false hs).1] at e₁
      rw [(col_inside h₂ (Or.inl (by rw [hd]; exact hf')) false hs₂).1] at e₂
      cases e₁
      cases e₂
      obtain ⟨x, hx, rfl⟩ := exists_pst hs₂
      show vecAssign _ _ _ = _
      rw [assign_velocity h₂ (u := u) (f := f)]
      · simp only [u]
        rw [if_neg (by omega)]
      · intro w
        simp only [List.mem_flatMap, List.mem_range, List.mem_map]
      · rw [hd]; exact hf'
      · exact hx
    · intro p i₁ i₂ hs e₁ e₂
      have hs₂ : Inside L₂.toMeshInfo 3 p := by rw [same]; exact hs
      rw [(col_inside h₁ (Or.inr rfl) false hs).1] at e₁
      rw [(col_inside h₂ (Or.inr rfl) false hs₂).1] at e₂
      cases e₁
      cases e₂
      obtain ⟨x, hx, rfl⟩ := exists_pst hs₂
      show vecAssign _ _ _ = _
      rw [assign_pressure h₂ (u := u 3)]
      · simp only [u, if_true]
      · intro w
        simp only [List.mem_map]
      · exact hx

/-- C63 is false for the explicit terms: their vectors are written and read in the order of the packed indices, which depends on
the distribution. Here a file written by two processes side by side is read by two processes one above the other. -/
theorem C63_false_explicit_terms : ∃ (L₁ L₂ : Layout) (s s₂ s' : NSState ℚ) (disk : Disk ℚ) (path : String) (file : H5File ℚ) (z z' : ℤ → ℚ)
    (p : Stencil) (i₁ i₂ : ℤ), LayoutOK L₁ ∧ LayoutOK L₂ ∧ L₂.toMeshInfo = L₁.toMeshInfo ∧ disk path = some file ∧ SolutionIn L₁ file s ∧
    RestartIn L₁ file s ∧ readRestartDataHDF5 L₂ s₂ disk path = .ok s' ∧ s.conv = [z] ∧ s'.conv = [z'] ∧ Inside L₁.toMeshInfo 0 p ∧
    L₁.getPackedGlobalIndex false 0 p = .ok i₁ ∧ L₂.getPackedGlobalIndex false 0 p = .ok i₂ ∧ z' i₂ ≠ z i₁ := by
  let z : ℤ → ℚ := fun i => if 0 ≤ i ∧ i < 12 then i else 0
  let s : NSState ℚ := ⟨fun _ => 0, fun _ => 0, fun _ => 0, [z], [], fun _ => [], fun _ _ _ => 0, 0, 1⟩
  obtain ⟨file, _, hR, hn, _⟩ := writeRestart_spec unitWalls_constructed.setup.layout s (fun _ => none) "0000001.h5"
  obtain ⟨s', hs, _, _, _, hc, _⟩ := C63_fields_partial unitWalls_constructed.setup.layout exampleWalls_other rfl s s
    (Function.update (fun _ => none) "0000001.h5" (some file)) "0000001.h5" file (Function.update_self ..) (hn rfl) hR rfl rfl
    (by
      intro y hy i hi
      rw [List.mem_singleton.1 hy]
      have : ((exampleWalls 2 1).UN : ℤ) = 12 := by decide
      rw [this] at hi
      simp only [z, if_neg hi])
    (by intro y hy; cases hy)
  exact ⟨_, _, s, s, s', _, _, file, z, z, ⟨0, 1, 0, 0⟩, 1, 2, unitWalls_constructed.setup.layout, exampleWalls_other, rfl, Function.update_self ..,
    hn rfl, hR, hs, rfl, hc, by unfold Inside; decide, by decide, by decide, by decide⟩

end PetIBM
