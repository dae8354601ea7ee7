/-
Widths of velocity points against the distances of their neighbours.
-/
import Verif.Lemmas.Setup
import Mathlib.Tactic.FieldSimp

set_option linter.unusedSectionVars false

namespace PetIBM

open Spec

variable {K : Type} [Field K] [LinearOrder K] [IsStrictOrderedRing K]
variable {L : Layout} {G : Geom K} {axes : ℕ → Axis K}

theorem vert_uniform {a : Axis K} {h : K} (hu : ∀ w ∈ a.dL, w = h) (i : ℕ) (hi : i ≤ a.dL.length) :
    vert a i = a.min + i * h := by
  induction i with
  | zero => simp [vert_zero]
  | succ i ih =>
    rw [vert_succ a i (by omega), ih (by omega), hu _ (List.getElem_mem _)]
    push_cast; ring

/-- In the direction of the component always, in the other directions on uniform meshes: twice the width of a point is the
distance of its two neighbours. -/
theorem Spec.Setup.half_width (S : Setup L G axes) {f d : ℕ} (hf : f < L.dim) (hd : d < L.dim) {i : ℤ} (h0 : 0 ≤ i)
    (h1 : i < L.n f d) (hu : d = f ∨ ∃ h, ∀ w ∈ (axes d).dL, w = h) :
    2 * G.dL f d i = G.coord f d (i + 1) - G.coord f d (i - 1) := by
  have h3 := S.dim_le
  have ha := S.axesOK d hd
  obtain ⟨k, rfl⟩ := Int.eq_ofNat_of_zero_le h0
  have hmax := vert_max ha
  by_cases hfd : d = f
  · subst hfd
    cases hp : L.periodic d d with
    | false =>
      obtain ⟨A, hA, n1, c1, w1, _⟩ := normalAxis_nonper ha
      have e : fieldAxis L.dim axes L.periodic d d = .ok A := by
        simp [fieldAxis, hf, show d < 3 by omega, hp, hA]
      obtain ⟨gc, gw⟩ := S.geom d d (by omega) (by omega) A e
      rw [S.counts d d (by omega) (by omega) A e] at h1
      rw [gw _ _ (w1 k (by omega)), gc _ _ (c1 (k + 1) (by omega) (by omega)), gc _ _ (c1 (k - 1) (by omega) (by omega)),
        show ((k : ℤ) + 1 + 1).toNat = k + 2 by omega, show ((k : ℤ) - 1 + 1).toNat = k by omega]
      unfold centre
      ring
    | true =>
      obtain ⟨A, hA, n1, c1, c2, w1, w2, _⟩ := normalAxis_per ha
      have e : fieldAxis L.dim axes L.periodic d d = .ok A := by
        simp [fieldAxis, hf, show d < 3 by omega, hp, hA]
      obtain ⟨gc, gw⟩ := S.geom d d (by omega) (by omega) A e
      rw [S.counts d d (by omega) (by omega) A e] at h1
      rw [gc _ _ (c1 (k - 1) (by omega) (by omega)), show ((k : ℤ) - 1 + 1).toNat = k by omega]
      by_cases hl : k + 1 < A.n
      · rw [gw _ _ (w1 k hl), gc _ _ (c1 (k + 1) (by omega) (by omega)), show ((k : ℤ) + 1 + 1).toNat = k + 2 by omega]
        unfold centre
        ring
      · have e1 : (k : ℤ) + 1 = A.n := by omega
        have e2 : A.n - 1 = k := by omega
        rw [gw _ _ (w2 k (Or.inr e1)), e1, gc _ _ c2, e2]
        unfold centre
        rw [show k + 1 = (axes d).dL.length by omega, hmax, vert_zero]
        ring
  · obtain ⟨h, hu⟩ := hu.resolve_left hfd
    obtain ⟨A, hA, n1, c1, c2, c3, _⟩ := tangentAxis_ok ha (L.periodic f d)
    have e : fieldAxis L.dim axes L.periodic f d = .ok A := by
      simp [fieldAxis, hf, hd, show f < 3 by omega, hfd, hA]
    obtain ⟨gc, gw⟩ := S.geom f d (by omega) (by omega) A e
    rw [S.counts f d (by omega) (by omega) A e] at h1
    have hv := vert_uniform hu
    have hlen : 0 < (axes d).dL.length := List.length_pos_of_ne_nil ha.nonempty
    have hmax' : (axes d).max = (axes d).min + ((axes d).dL.length : K) * h := by rw [← hmax, hv _ le_rfl]
    have hcen : ∀ j : ℕ, j < A.n → centre (axes d) j = (axes d).min + (j + 1 / 2) * h := by
      intro j hj
      unfold centre
      rw [hv j (by omega), hv (j + 1) (by omega)]
      push_cast; ring
    have hcoord : ∀ j : ℤ, -1 ≤ j → j ≤ A.n → G.coord f d j = (axes d).min + (j + 1 / 2) * h := by
      intro j hj1 hj2
      by_cases hj : 0 ≤ j ∧ j < A.n
      · obtain ⟨m, rfl⟩ := Int.eq_ofNat_of_zero_le hj.1
        rw [gc _ _ (c1 m (by omega)).1, hcen m (by omega)]
        push_cast; ring
      · have hcast : ((A.n - 1 : ℕ) : K) = (A.n : K) - 1 := by
          rw [Nat.cast_sub (by omega)]; simp
        rcases (show j = -1 ∨ j = A.n by omega) with rfl | rfl
        · cases hp : L.periodic f d with
          | false =>
            rw [gc _ _ (c2 hp).1, hcen 0 (by omega)]
            push_cast; ring
          | true =>
            rw [gc _ _ (c3 hp).1, hcen (A.n - 1) (by omega), hcast, hmax', ← n1]
            push_cast; ring
        · cases hp : L.periodic f d with
          | false =>
            rw [gc _ _ (c2 hp).2.1, hcen (A.n - 1) (by omega), hcast, hmax', ← n1]
            push_cast; ring
          | true =>
            rw [gc _ _ (c3 hp).2.1, hcen 0 (by omega), hmax', ← n1]
            push_cast; ring
    rw [gw _ _ (c1 k (by omega)).2, hcoord _ (by omega) (by omega), hcoord _ (by omega) (by omega), hv k (by omega),
      hv (k + 1) (by omega)]
    push_cast; ring

theorem Spec.Setup.width_pos (S : Setup L G axes) {f d : ℕ} (hf : f < L.dim) (hd : d < L.dim) {i : ℤ} (h0 : 0 ≤ i)
    (h1 : i < L.n f d) : 0 < G.dL f d i := by
  have h3 := S.dim_le
  by_cases hfd : d = f
  · have h := S.half_width hf hd h0 h1 (Or.inl hfd)
    have a := S.coord_lt f d hf hd i (by omega) h1
    have b := S.coord_lt f d hf hd (i - 1) (by omega) (by omega)
    rw [sub_add_cancel] at b
    linarith
  · have ha := S.axesOK d hd
    obtain ⟨k, rfl⟩ := Int.eq_ofNat_of_zero_le h0
    obtain ⟨A, hA, n1, c1, _⟩ := tangentAxis_ok ha (L.periodic f d)
    have e : fieldAxis L.dim axes L.periodic f d = .ok A := by
      simp [fieldAxis, hf, hd, show f < 3 by omega, hfd, hA]
    obtain ⟨gc, gw⟩ := S.geom f d (by omega) (by omega) A e
    rw [S.counts f d (by omega) (by omega) A e] at h1
    rw [gw _ _ (c1 k (by omega)).2, vert_succ _ _ (by omega), add_sub_cancel_left]
    exact dL_pos ha _ _

/-- A direction that a 2D mesh does not have. -/
theorem Spec.Setup.flat_width (S : Setup L G axes) {f d : ℕ} (hf : f < L.dim) (hd : L.dim ≤ d) (hd3 : d < 3) :
    L.n f d = 1 ∧ G.dL f d 0 = 1 := by
  have h3 := S.dim_le
  have e : fieldAxis L.dim axes L.periodic f d = .ok flatAxis := by
    simp [fieldAxis, hf, show ¬ d < L.dim by omega, show f < 3 by omega]
  obtain ⟨gc, gw⟩ := S.geom f d (by omega) (by omega) _ e
  exact ⟨S.counts f d (by omega) (by omega) _ e, gw 0 1 rfl⟩

end PetIBM
