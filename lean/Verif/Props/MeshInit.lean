/-
Property C57: the objects that the other theorems assume exist for every accepted configuration.
-/
import Verif.Lemmas.MeshInit

set_option linter.unusedSectionVars false

namespace PetIBM

open Spec

variable {K : Type} [Field K] [LinearOrder K] [IsStrictOrderedRing K]

/-- C57. For all axes with cells of positive width, all periodicities shared by the components, all process grids that
PETSc accepts and all boundary tables that agree with the periodicity and have no missing entry, every process
constructs its mesh and boundary objects without error and they are consistent. -/
theorem C57_construction (debug : Bool) {dim : ℕ} {axes : ℕ → Axis K} {periodic : ℕ → ℕ → Bool} {nProc : ℕ → ℕ}
    (hd : dim = 2 ∨ dim = 3) (ha : ∀ d, d < dim → AxisOK (axes d))
    (hper : ∀ f d, f < dim → d < 3 → periodic f d = periodic 0 d) (hp : ∀ d, d < 3 → 0 < nProc d)
    (hn : ∀ f d, f < dim ∨ f = 3 → d < 3 → nProc d ≤ (meshLayout dim axes periodic nProc).n f d)
    (T : BCTable K) (hT : ∀ f loc, f < dim → loc < dim * 2 → (T f loc).1 ≠ .NOBC)
    (hT' : ∀ f loc, f < dim → loc < dim * 2 → ((T f loc).1 = .PERIODIC ↔ periodic 0 (loc / 2) = true)) :
    ∃ B : ℕ → Boundary K, Constructed debug (meshLayout dim axes periodic nProc) (meshGeom dim axes periodic) axes T B := by
  have S := meshLayout_setup (nProc := nProc) hd ha hp hper
  have P := meshLayout_partitioned (axes := axes) (periodic := periodic) hp hn
  have hpos : ∀ f d, f < dim → d < 3 → 0 < (meshLayout dim axes periodic nProc).n f d := by
    intro f d hf hd
    have h1 := hp d hd
    have h2 := hn f d (Or.inl hf) hd
    omega
  have hB := exists_boundary debug S.layout (meshGeom dim axes periodic) hpos T hT
  exact ⟨fun r => (hB r).choose, S, P, hT', fun r _ => (hB r).choose_spec⟩

/-! ### Meshes for examples -/

/-- Three cells of different width in x and y, two in z. -/
def exampleAxes : ℕ → Axis ℚ := fun d => if d < 2 then ⟨0, 6, [1, 2, 3]⟩ else ⟨-1, 1, [1, 1]⟩

theorem exampleAxes_ok (d : ℕ) : AxisOK (exampleAxes d) := by
  unfold exampleAxes
  split_ifs
  · exact ⟨by simp, by simp, by norm_num⟩
  · exact ⟨by simp, by simp, by norm_num⟩

/-- 2D, walls all around, `px` times `py` processes. -/
abbrev exampleWalls (px py : ℕ) : Layout :=
  meshLayout 2 exampleAxes (fun _ _ => false) fun d => if d = 0 then px else if d = 1 then py else 1

abbrev exampleWallsGeom : Geom ℚ := meshGeom 2 exampleAxes fun _ _ => false

/-- Dirichlet on the left, convective on the right, Neumann below, Dirichlet on top. -/
def exampleWallsTable : BCTable ℚ := fun f b =>
  if b = 0 then (.DIRICHLET, if f = 0 then 1 else 0) else if b = 1 then (.CONVECTIVE, 1)
  else if b = 2 then (.NEUMANN, 0) else (.DIRICHLET, 0)

theorem exampleWalls_constructed : ∃ B, Constructed true (exampleWalls 2 1) exampleWallsGeom exampleAxes exampleWallsTable B := by
  apply C57_construction true (Or.inl rfl) (fun d _ => exampleAxes_ok d) (fun _ _ _ _ => rfl)
  · intro d hd; interval_cases d <;> simp
  · intro f d hf hd
    rcases hf with hf | rfl
    · interval_cases d <;> interval_cases f <;> decide
    · interval_cases d <;> decide
  · intro f loc _ _
    unfold exampleWallsTable
    split_ifs <;> simp
  · intro f loc _ _
    unfold exampleWallsTable
    split_ifs <;> simp

/-- 3D, periodic in x, walls in y and z, `px` processes. -/
abbrev exampleChannel (px : ℕ) : Layout :=
  meshLayout 3 exampleAxes (fun _ d => d == 0) fun d => if d = 0 then px else 1

abbrev exampleChannelGeom : Geom ℚ := meshGeom 3 exampleAxes fun _ d => d == 0

def exampleChannelTable : BCTable ℚ := fun _ b => if b < 2 then (.PERIODIC, 0) else (.DIRICHLET, 0)

theorem exampleChannel_constructed :
    ∃ B, Constructed true (exampleChannel 3) exampleChannelGeom exampleAxes exampleChannelTable B := by
  apply C57_construction true (Or.inr rfl) (fun d _ => exampleAxes_ok d) (fun _ _ _ _ => rfl)
  · intro d hd; interval_cases d <;> simp
  · intro f d hf hd
    rcases hf with hf | rfl
    · interval_cases d <;> interval_cases f <;> decide
    · interval_cases d <;> decide
  · intro f loc _ _
    unfold exampleChannelTable
    split_ifs <;> simp
  · intro f loc _ hl
    unfold exampleChannelTable
    interval_cases loc <;> simp

end PetIBM
