/-
Mesh objects built by the constructor satisfy the assumptions of the operator theorems.
-/
import Verif.Model.MeshInit
import Verif.Spec.Run
import Verif.Lemmas.Partition
import Verif.Lemmas.GhostSum
import Verif.Lemmas.Laplacian

set_option linter.unusedSectionVars false

namespace PetIBM

open Spec

variable {K : Type} [Field K]

theorem length_dmdaDefault (M m : ℕ) : (dmdaDefault M m).length = m := by simp [dmdaDefault]

theorem sum_dmdaDefault (M m : ℕ) (hm : 0 < m) : (dmdaDefault M m).sum = M := by
  have := startOf_default (M := M) (m := m) (p := m) le_rfl
  unfold startOf at this
  rw [List.take_of_length_le (by rw [length_dmdaDefault])] at this
  rw [this, min_eq_right (Nat.mod_lt _ hm).le]
  exact Nat.div_add_mod M m

variable [LinearOrder K] [IsStrictOrderedRing K]

theorem meshLayout_setup {dim : ℕ} {axes : ℕ → Axis K} {periodic : ℕ → ℕ → Bool} {nProc : ℕ → ℕ}
    (hd : dim = 2 ∨ dim = 3) (ha : ∀ d, d < dim → AxisOK (axes d)) (hp : ∀ d, d < 3 → 0 < nProc d)
    (hper : ∀ f d, f < dim → d < 3 → periodic f d = periodic 0 d) :
    Setup (meshLayout dim axes periodic nProc) (meshGeom dim axes periodic) axes where
  layout :=
    { dim := hd
      flat := by
        intro h f hf
        simp only [meshLayout] at h ⊢
        subst h
        have : fieldAxis 2 axes periodic f 2 = .ok flatAxis := by
          unfold fieldAxis
          split_ifs <;> simp_all
        rw [this]; rfl
      procs := hp
      cols := fun f d _ _ => length_dmdaDefault _ _
      lines := fun f d _ hd => sum_dmdaDefault _ _ (hp d hd) }
  axesOK := ha
  geom := by
    intro f d _ _ A hA
    simp only [meshLayout] at hA
    refine ⟨fun i x hx => ?_, fun i x hx => ?_⟩ <;> simp only [meshGeom, hA, hx]
  counts := by
    intro f d _ _ A hA
    simp only [meshLayout] at hA ⊢
    rw [hA]
  periodic := hper

theorem meshLayout_partitioned {dim : ℕ} {axes : ℕ → Axis K} {periodic : ℕ → ℕ → Bool} {nProc : ℕ → ℕ}
    (hp : ∀ d, d < 3 → 0 < nProc d)
    (hn : ∀ f d, f < dim ∨ f = 3 → d < 3 → nProc d ≤ (meshLayout dim axes periodic nProc).n f d) :
    Partitioned (meshLayout dim axes periodic nProc) :=
  fun f d hf hd => ⟨rfl, hp d hd, hn f d hf hd⟩

theorem exists_boundary (debug : Bool) {L : Layout} (hL : LayoutOK L) (G : Geom K)
    (hn : ∀ f d, f < L.dim → d < 3 → 0 < L.n f d) (T : BCTable K)
    (hT : ∀ f loc, f < L.dim → loc < L.dim * 2 → (T f loc).1 ≠ .NOBC) (r : ℕ) :
    ∃ B, boundaryInit debug L G r T = .ok B := by
  have h1 : ∀ f loc, f < L.dim → loc < L.dim * 2 →
      ∃ b, createSingleBoundary debug L G r loc f (T f loc).2 (T f loc).1 = .ok b := by
    intro f loc hf hloc
    by_cases hp : (T f loc).1 = .PERIODIC
    · rw [hp]; exact ⟨_, rfl⟩
    · obtain ⟨b, hb, _⟩ := createSingleBoundary_points debug hL G f r loc hf hloc (fun d hd => hn f d hf hd) (T f loc).2
        (T f loc).1 (hT f loc hf hloc) hp
      exact ⟨b, hb⟩
  have h2 : ∀ {α β : Type} (l : List α) (g : α → Except Error β), (∀ a ∈ l, ∃ b, g a = .ok b) → ∃ m, l.mapM g = .ok m := by
    intro α β l g hg
    induction l with
    | nil => exact ⟨[], rfl⟩
    | cons a l ih =>
      obtain ⟨b, hb⟩ := hg a (List.mem_cons_self ..)
      obtain ⟨m, hm⟩ := ih fun c hc => hg c (List.mem_cons_of_mem _ hc)
      exact ⟨b :: m, by rw [List.mapM_cons, hb, hm]; rfl⟩
  unfold boundaryInit
  apply h2
  intro f hf
  apply h2
  intro loc hloc
  exact h1 f loc (List.mem_range.1 hf) (List.mem_range.1 hloc)

end PetIBM
