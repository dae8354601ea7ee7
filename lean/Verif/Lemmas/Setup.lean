/-
Facts on the geometry of a consistent mesh object.
-/
import Verif.Spec.Setup
import Verif.Props.Mesh
import Verif.Lemmas.Boundary

set_option linter.unusedSectionVars false

namespace PetIBM

open Spec

variable {K : Type} [Field K] [LinearOrder K] [IsStrictOrderedRing K]
variable {L : Layout} {G : Geom K} {axes : ℕ → Axis K}

theorem Spec.Setup.dim_le (S : Setup L G axes) : L.dim ≤ 3 := by
  rcases S.layout.dim with h | h <;> omega

/-- Boundary positions. -/
theorem Spec.Setup.wall_position (S : Setup L G axes) (f d : ℕ) (hf : f < L.dim) (hd : d < L.dim)
    (hper : L.periodic f d = false) :
    (d = f → G.coord f d (-1) = (axes d).min ∧ G.coord f d (L.n f d) = (axes d).max) ∧
    (d ≠ f → (G.coord f d (-1) + G.coord f d 0) / 2 = (axes d).min ∧
      (G.coord f d (L.n f d) + G.coord f d (L.n f d - 1)) / 2 = (axes d).max) := by
  have h3 := S.dim_le
  constructor
  · rintro rfl
    obtain ⟨A, V, P, hA, _, _, _, _, h, _⟩ := C08_staggered_own_direction (periodic := L.periodic) d h3 hd (S.axesOK d hd)
    obtain ⟨g, _⟩ := S.geom d d (by omega) (by omega) A hA
    have hn := S.counts d d (by omega) (by omega) A hA
    obtain ⟨h1, h2, _⟩ := h hper
    exact ⟨g _ _ h1, by rw [hn]; exact g _ _ h2⟩
  · intro hne
    obtain ⟨A, P, hA, _, _, _, h⟩ := C08_staggered_other_directions (periodic := L.periodic) f d h3 hf hd hne (S.axesOK d hd)
    obtain ⟨g, _⟩ := S.geom f d (by omega) (by omega) A hA
    have hn := S.counts f d (by omega) (by omega) A hA
    obtain ⟨⟨x, y, hx, hy, e⟩, ⟨x', y', hx', hy', e'⟩, _⟩ := h hper
    rw [hn]
    exact ⟨by rw [g _ _ hx, g _ _ hy, e], by rw [g _ _ hx', g _ _ hy', add_comm, e']⟩

theorem Spec.Setup.coord_lt (S : Setup L G axes) (f d : ℕ) (hf : f < L.dim) (hd : d < L.dim) (i : ℤ) (h1 : -1 ≤ i)
    (h2 : i < L.n f d) : G.coord f d i < G.coord f d (i + 1) := by
  have h3 := S.dim_le
  obtain ⟨A, hA, _, h⟩ := C08_ghosts_and_order (periodic := L.periodic) f d h3 hf hd (S.axesOK d hd)
  obtain ⟨g, _⟩ := S.geom f d (by omega) (by omega) A hA
  rw [S.counts f d (by omega) (by omega) A hA] at h2
  obtain ⟨x, y, hx, hy, hxy⟩ := h i h1 h2
  rw [g _ _ hx, g _ _ hy]; exact hxy

/-- Numbers of points of the staggered fields against the number of cells. -/
theorem Spec.Setup.staggered (S : Setup L G axes) (f : ℕ) (hf : f < L.dim) :
    (∀ e, e < 3 → e ≠ f → L.n f e = L.n 3 e) ∧
    (L.periodic 0 f = true → L.n f f = L.n 3 f) ∧ (L.periodic 0 f = false → L.n f f + 1 = L.n 3 f) := by
  have h3 := S.dim_le
  have hp : ∀ e, e < 3 → ∃ P, fieldAxis L.dim axes L.periodic 3 e = .ok P ∧ L.n 3 e = P.n ∧
      (e < L.dim → P.n = (axes e).dL.length) ∧ (L.dim ≤ e → P.n = 1) := by
    intro e he
    by_cases h : e < L.dim
    · have : fieldAxis L.dim axes L.periodic 3 e = .ok (pressureAxis (axes e)) := by simp [fieldAxis, h]
      exact ⟨_, this, S.counts 3 e (by omega) he _ this, fun _ => rfl, by omega⟩
    · have : fieldAxis L.dim axes L.periodic 3 e = .ok flatAxis := by simp [fieldAxis, h]
      exact ⟨_, this, S.counts 3 e (by omega) he _ this, by omega, fun _ => rfl⟩
  refine ⟨?_, ?_, ?_⟩
  · intro e he hne
    obtain ⟨A, hA, h1, h2, _⟩ := C06_points_per_direction h3 S.axesOK (periodic := L.periodic) f e hf
    obtain ⟨P, hP, e3, h4, h5⟩ := hp e he
    rw [S.counts f e (by omega) he A hA, e3]
    by_cases h : e < L.dim
    · rw [h2 h hne, h4 h]
    · rw [h1 (by omega), h5 (by omega)]
  · intro hper
    obtain ⟨A, hA, _, _, h2, _⟩ := C06_points_per_direction h3 S.axesOK (periodic := L.periodic) f f hf
    obtain ⟨P, hP, e3, h4, h5⟩ := hp f (by omega)
    rw [S.counts f f (by omega) (by omega) A hA, e3, h2 hf rfl (by rw [S.periodic f f hf (by omega), hper]), h4 hf]
  · intro hper
    obtain ⟨A, hA, _, _, _, h2⟩ := C06_points_per_direction h3 S.axesOK (periodic := L.periodic) f f hf
    obtain ⟨P, hP, e3, h4, h5⟩ := hp f (by omega)
    rw [S.counts f f (by omega) (by omega) A hA, e3, h2 hf rfl (by rw [S.periodic f f hf (by omega), hper]), h4 hf]

/-- A velocity point has a pressure point at the same indices. -/
theorem Spec.Setup.n_le (S : Setup L G axes) (f e : ℕ) (hf : f < L.dim) (he : e < 3) : L.n f e ≤ L.n 3 e := by
  obtain ⟨h1, h2, h3⟩ := S.staggered f hf
  by_cases h : e = f
  · subst h
    cases hp : L.periodic 0 e with
    | true => rw [h2 hp]
    | false => have := h3 hp; omega
  · rw [h1 e he h]

end PetIBM
