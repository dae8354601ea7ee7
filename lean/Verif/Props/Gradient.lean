/-
Property C19: the gradient operator.
-/
import Verif.Lemmas.Gradient
import Verif.Props.MeshInit

set_option linter.unusedSectionVars false

namespace PetIBM

open Spec

variable {K : Type} [Field K] [LinearOrder K] [IsStrictOrderedRing K]
variable {L : Layout} {G : Geom K} {axes : ℕ → Axis K}

/-- C19. Every row of the gradient operator is the difference of the pressures on the two sides of the velocity point,
divided by their (positive) distance. The pressure beyond the last cell of a periodic direction is the one of the first
cell. -/
theorem C19_gradient (debug : Bool) (S : Setup L G axes) (hn : ∀ f, f < L.dim → L.periodic 0 f = true → 2 ≤ L.n 3 f) :
    ∃ A, createGradient debug L G false = .ok A ∧ ∀ (q : ℤ → K) (P : Stencil → K), Stored debug L 3 q P →
      ∀ f s idx, f < L.dim → Inside L.toMeshInfo f s → L.getPackedGlobalIndex debug f s = .ok idx →
        0 < pressureGap L.toMeshInfo G axes f (coordOf s f) ∧
        Mat.mult L.pN A q idx = (P (shift s f 1) - P s) / pressureGap L.toMeshInfo G axes f (coordOf s f) := by
  obtain ⟨A, hA, h⟩ := gradient_rows S debug false hn
  refine ⟨A, hA, ?_⟩
  intro q P hq f s idx hf hs hidx
  have h3 := S.dim_le
  obtain ⟨u, _, hu, rfl, rfl⟩ := exists_unknown S.layout hf hs
  rw [(col_inside S.layout (Or.inl hf) debug hs).1] at hidx
  cases hidx
  obtain ⟨w1, w2⟩ := S.own_width hf hs
  rw [w1] at w2
  refine ⟨w2, ?_⟩
  rw [(h u hu).1, hq.self S.layout (Or.inr rfl) (S.inside_pressure hf hs)]
  have hx := hs.1 u.comp (by omega)
  obtain ⟨_, c2, _⟩ := grad_cols S hf (hn u.comp hf) hs
  have hle := S.n_le u.comp u.comp hf (by omega)
  unfold shift
  rw [hq.value S.layout (Or.inr rfl) (S.inside_pressure hf hs) hf (by omega) (by omega)]
  simp only [gradVal, Bool.false_eq_true, if_false]
  rw [w1]
  ring

/-- C19. Constant pressure has gradient zero; a pressure that is linear in the direction of the component has the exact
slope (at the points between two cells, i.e. everywhere but at the periodic seam, where no linear pressure exists). -/
theorem C19_gradient_exact (debug : Bool) (S : Setup L G axes)
    (hn : ∀ f, f < L.dim → L.periodic 0 f = true → 2 ≤ L.n 3 f) :
    ∃ A, createGradient debug L G false = .ok A ∧ ∀ (q : ℤ → K) (f : ℕ) (s : Stencil) (idx : ℤ), f < L.dim →
      Inside L.toMeshInfo f s → L.getPackedGlobalIndex debug f s = .ok idx →
      (∀ c, (∀ x : ℤ, 0 ≤ x → x < L.pN → q x = c) → Mat.mult L.pN A q idx = 0) ∧
      (∀ a c, coordOf s f + 1 < L.n 3 f → (∀ t x, Inside L.toMeshInfo 3 t → L.getPackedGlobalIndex debug 3 t = .ok x →
        q x = a * G.coord 3 f (coordOf t f) + c) → Mat.mult L.pN A q idx = a) := by
  obtain ⟨A, hA, h⟩ := gradient_rows S debug false hn
  refine ⟨A, hA, ?_⟩
  intro q f s idx hf hs hidx
  have h3 := S.dim_le
  obtain ⟨u, _, hu, rfl, rfl⟩ := exists_unknown S.layout hf hs
  rw [(col_inside S.layout (Or.inl hf) debug hs).1] at hidx
  cases hidx
  obtain ⟨w1, w2⟩ := S.own_width hf hs
  have hx := hs.1 u.comp (by omega)
  have hs3 := S.inside_pressure hf hs
  have hle := S.n_le u.comp u.comp hf (by omega)
  constructor
  · intro c hc
    rw [(h u hu).1]
    have i1 := (col_inside S.layout (Or.inr rfl) debug hs3).2
    obtain ⟨_, c2, _⟩ := grad_cols S hf (hn u.comp hf) hs
    have i2 := (col_neighbour S.layout (f := 3) (Or.inr rfl) debug hs3 (d := u.comp) (by omega) (x := coordOf u.st u.comp + 1) (by omega)).2.1
    simp only [vecSize, if_true] at i1 i2
    rw [hc _ i1.1 i1.2, hc _ c2 (by omega)]
    ring
  · intro a c hlt hlin
    rw [(h u hu).1]
    have hs3' := hs3.along u.comp (by omega) (coordOf u.st u.comp + 1) (by omega)
    rw [hlin _ _ hs3 (col_inside S.layout (Or.inr rfl) debug hs3).1,
      hlin _ _ hs3' (col_inside S.layout (Or.inr rfl) debug hs3').1, coordOf_along _ _ _ _ (by omega) (by omega), if_pos rfl]
    simp only [gradVal, Bool.false_eq_true, if_false]
    rw [w1] at w2 ⊢
    unfold pressureGap at w2 ⊢
    rw [if_pos hlt] at w2 ⊢
    field_simp
    ring

example : ∃ B, Constructed true (exampleWalls 2 1) exampleWallsGeom exampleAxes exampleWallsTable B := exampleWalls_constructed
example : ∃ A, createGradient true (exampleWalls 2 1) exampleWallsGeom false = .ok A ∧ A 0 0 = -(2 / 3) ∧ A 0 1 = 2 / 3 := by
  refine ⟨_, rfl, ?_, ?_⟩ <;> decide +kernel

def singleAxes : ℕ → Axis ℚ := fun d => if d = 0 then ⟨0, 1, [1]⟩ else ⟨0, 2, [1, 1]⟩

/-- C19 is false with a single periodic cell: both pressures are the same unknown, the second insertion overwrites the
first one, and a constant pressure has a nonzero gradient. -/
theorem C19_false_single_periodic_cell : ∃ (L : Layout) (G : Geom ℚ) (axes : ℕ → Axis ℚ) (A : Mat ℚ), Setup L G axes ∧
    createGradient true L G false = .ok A ∧ L.periodic 0 0 = true ∧ L.n 3 0 = 1 ∧ Mat.mult L.pN A (fun _ => 1) 0 ≠ 0 := by
  refine ⟨meshLayout 2 singleAxes (fun _ d => d == 0) fun _ => 1, meshGeom 2 singleAxes (fun _ d => d == 0), singleAxes, _,
    ?_, rfl, rfl, rfl, ?_⟩
  · apply meshLayout_setup (Or.inl rfl) _ (fun _ _ => by decide) (fun _ _ _ _ => rfl)
    intro d _
    unfold singleAxes
    split_ifs
    · exact ⟨by simp, by simp, by norm_num⟩
    · exact ⟨by simp, by simp, by norm_num⟩
  · decide +kernel

end PetIBM
