/-
Rows of the gradient operator.
-/
import Verif.Lemmas.Extended
import Verif.Lemmas.DivergenceRow
import Verif.Lemmas.MeshInit

set_option linter.unusedSectionVars false

namespace PetIBM

open Spec

variable {K : Type} [Field K] [LinearOrder K] [IsStrictOrderedRing K]
variable {L : Layout} {G : Geom K} {axes : ℕ → Axis K}

/-- Width of a velocity point in its own direction. -/
theorem Spec.Setup.own_width (S : Setup L G axes) {f : ℕ} (hf : f < L.dim) {s : Stencil} (hs : Inside L.toMeshInfo f s) :
    G.dL f f (coordOf s f) = pressureGap L.toMeshInfo G axes f (coordOf s f) ∧ 0 < G.dL f f (coordOf s f) := by
  have h3 := S.dim_le
  obtain ⟨A, V, P, hA, _, hP, _, hw, _, hper⟩ :=
    C08_staggered_own_direction (periodic := L.periodic) f h3 hf (S.axesOK f hf)
  obtain ⟨_, gA⟩ := S.geom f f (by omega) (by omega) A hA
  obtain ⟨gP, _⟩ := S.geom 3 f (by omega) (by omega) P hP
  have nA := S.counts f f (by omega) (by omega) A hA
  have nP := S.counts 3 f (by omega) (by omega) P hP
  obtain ⟨_, n2, n3⟩ := S.staggered f hf
  have hx := hs.1 f (by omega)
  obtain ⟨i, hi⟩ := Int.eq_ofNat_of_zero_le hx.1
  rw [hi] at hx ⊢
  unfold pressureGap
  by_cases h : (i : ℤ) + 1 < L.n 3 f
  · rw [if_pos h]
    obtain ⟨w, p, q, h1, h2, h3, h4, h5⟩ := hw i (by omega) (by omega)
    rw [gA _ _ h1, gP _ _ h2, gP _ _ h3]
    exact ⟨h4, h5⟩
  · rw [if_neg h]
    have hpt : L.periodic 0 f = true := by
      cases hp : L.periodic 0 f with
      | true => rfl
      | false => have := n3 hp; omega
    have hpf : L.periodic f f = true := by rw [S.periodic f f hf (by omega)]; exact hpt
    obtain ⟨w, p, q, h1, h2, h3, h4, h5⟩ := hper hpf
    have := n2 hpt
    have e1 : (A.n : ℤ) - 1 = i := by omega
    have e2 : (P.n : ℤ) - 1 = i := by omega
    rw [e1] at h1
    rw [e2] at h3
    rw [gA _ _ h1, gP _ _ h2, gP _ _ h3]
    exact ⟨h4, h5⟩

/-- Rows of the gradient. -/
theorem gradient_rows (S : Setup L G axes) (debug normalize : Bool)
    (hn : ∀ f, f < L.dim → L.periodic 0 f = true → 2 ≤ L.n 3 f) :
    ∃ A, createGradient debug L G normalize = .ok A ∧ ∀ u, IsUnknown L u →
      (∀ q : ℤ → K, Mat.mult L.pN A q (col L u.comp u.st) =
        gradVal G normalize u.comp u.st * (q (col L 3 (along u.st u.comp (coordOf u.st u.comp + 1))) - q (col L 3 u.st))) ∧
      ∀ x : ℤ, 0 ≤ x → A (col L u.comp u.st) x =
        (if col L 3 u.st = x then -gradVal G normalize u.comp u.st else 0) +
        (if col L 3 (along u.st u.comp (coordOf u.st u.comp + 1)) = x then gradVal G normalize u.comp u.st else 0) := by
  have hr := gradPure_range S normalize
  rw [createGradient_eq S debug normalize, assemble_ok hr]
  refine ⟨_, rfl, ?_⟩
  intro u hu
  have h0 := (col_inside S.layout (Or.inl hu.1) false hu.inside).2.1
  have hnd := gradient_nodup S normalize hu (hn u.comp hu.1)
  obtain ⟨c1, c2, c3⟩ := grad_cols S hu.1 (hn u.comp hu.1) hu.inside
  have hsum : ∀ g : Entry K → K, (((unknowns L).flatMap fun u => gradPure L G normalize u.comp u.st).map fun e =>
      if e.row = col L u.comp u.st ∧ 0 ≤ e.col then g e else 0).sum =
      ((gradPure L G normalize u.comp u.st).map fun e =>
      if e.row = col L u.comp u.st ∧ 0 ≤ e.col then g e else 0).sum := by
    classical
    intro g
    rw [sum_flatMap, sum_map_single (nodup_unknowns L) ((mem_unknowns S.layout).2 hu)]
    intro v hv hne
    apply sum_map_eq_zero
    intro e he
    rw [if_neg]
    rintro ⟨h, _⟩
    apply hne
    apply ((mem_unknowns S.layout).1 hv).row_inj S.layout hu
    simp only [gradPure, List.mem_cons, List.not_mem_nil, or_false] at he
    rcases he with rfl | rfl <;> exact h
  constructor
  · intro q
    rw [mult_assembled hr h0 hnd, hsum fun e => e.val * q e.col]
    simp [gradPure, c1, c2]
    ring
  · intro x hx
    rw [assembled_entry h0 hx hnd]
    have := hsum fun e => if e.col = x then e.val else 0
    simp only [valuesAt_nil, add_zero]
    have e : valuesAt ((unknowns L).flatMap fun u => gradPure L G normalize u.comp u.st) (col L u.comp u.st) x =
        (((unknowns L).flatMap fun u => gradPure L G normalize u.comp u.st).map fun e =>
          if e.row = col L u.comp u.st ∧ 0 ≤ e.col then (if e.col = x then e.val else 0) else 0).sum := by
      unfold valuesAt
      congr 1
      apply List.map_congr_left
      intro e _
      by_cases h1 : e.row = col L u.comp u.st <;> by_cases h2 : e.col = x <;> simp [h1, h2, hx]
    rw [e, this]
    simp [gradPure, c1, c2]

end PetIBM
