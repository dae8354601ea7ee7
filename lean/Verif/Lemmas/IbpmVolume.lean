/-
Volumes of the cells in the neighbourhood of a body.
-/
import Verif.Lemmas.IbpmRun

set_option linter.unusedSectionVars false

namespace PetIBM

open Spec

variable {L : Layout} {G : Geom ℝ} {axes : ℕ → Axis ℝ}

/-- Where the weight is not zero the width is that of the uniform cells. -/
theorem Spec.Setup.weight_width (S : Setup L G axes) {f d I w t : ℕ} (hf : f < L.dim) (hd : d < L.dim) {φ : ℝ → ℝ} {h s q x : ℝ}
    (hh : 0 < h) (D : DiscreteDelta φ h s q) (hsw : s ≤ w) (hI : InCell (axes d) I x) (ha : AwayFromEnds (axes d) (s * h) x)
    (hu : ∀ j v, I ≤ j + w → j ≤ I + w → (axes d).dL[j]? = some v → v = h) (ht : t < L.n f d) (h1 : I ≤ t + w) (h2 : t ≤ I + w)
    (hne : φ (x - velPos axes f d t) ≠ 0) : G.dL f d t = h := by
  have h3 := S.dim_le
  have hax := S.axesOK d hd
  have far : ∀ y, y = velPos axes f d t → s * h ≤ y - x → False := by
    intro y hy hle
    apply hne
    apply D.outside
    rw [← hy, abs_sub_comm]
    exact hle.trans (le_abs_self _)
  obtain ⟨-, hlt, -⟩ := S.meshCoord_inside hf hd ht
  have hcell : ∀ j, I ≤ j + w → j ≤ I + w → j < (axes d).dL.length → vert (axes d) (j + 1) - vert (axes d) j = h := by
    intro j j1 j2 j3
    rw [vert_succ _ j j3, hu j _ j1 j2 (List.getElem?_eq_getElem j3)]
    ring
  by_cases hfd : d = f
  · subst hfd
    have hvp : velPos axes d d t = vert (axes d) (t + 1) := if_pos rfl
    by_cases hlast : t + 1 = (axes d).dL.length
    · exfalso
      refine far (axes d).max ?_ (by linarith [ha.2])
      rw [hvp, hlast, vert_max hax]
    · have hw : G.dL d d t = centre (axes d) (t + 1) - centre (axes d) t := by
        cases hp : L.periodic d d with
        | false =>
          obtain ⟨A, hA, hn, _, hc, _⟩ := normalAxis_nonper hax
          have hA' : fieldAxis L.dim axes L.periodic d d = .ok A := by
            unfold fieldAxis
            rw [if_pos (by omega), if_pos ⟨hd, hd⟩, if_pos rfl, hp, hA]
          exact (S.geom d d (by omega) (by omega) A hA').2 _ _ (hc t (by omega))
        | true =>
          obtain ⟨A, hA, hn, _, _, hc, _⟩ := normalAxis_per hax
          have hA' : fieldAxis L.dim axes L.periodic d d = .ok A := by
            unfold fieldAxis
            rw [if_pos (by omega), if_pos ⟨hd, hd⟩, if_pos rfl, hp, hA]
          exact (S.geom d d (by omega) (by omega) A hA').2 _ _ (hc t (by omega))
      by_cases hedge : t = I + w
      · exfalso
        subst hedge
        refine far _ hvp.symm ?_
        obtain ⟨c1, c2, c3⟩ := hI
        change x < vert (axes d) (I + 1) at c3
        have e := vert_window hu (j := I + w + 1) (by omega) (by omega) (by omega) c1
        have e' := vert_window hu (j := I + 1) (by omega) (by omega) (by omega) c1
        push_cast at e e'
        have : s * h ≤ w * h := mul_le_mul_of_nonneg_right hsw hh.le
        nlinarith
      · have e1 := hcell t (by omega) (by omega) hlt
        have e2 := hcell (t + 1) (by omega) (by omega) (by omega)
        rw [hw]
        unfold centre
        linarith
  · obtain ⟨A, hA, hn, hc, _⟩ := tangentAxis_ok hax (L.periodic f d)
    have hA' : fieldAxis L.dim axes L.periodic f d = .ok A := by
      unfold fieldAxis
      rw [if_pos (by omega), if_pos ⟨hf, hd⟩, if_neg hfd, hA]
    rw [(S.geom f d (by omega) (by omega) A hA').2 _ _ (hc t (by omega)).2]
    exact hcell t h1 h2 hlt

/-- Weighting with the volumes of the cells is the same as multiplication with the volume of a uniform cell. -/
theorem delta_volume {debug : Bool} {T : BCTable ℝ} {B : ℕ → Boundary ℝ} (hC : Constructed debug L G axes T B)
    (hist : List (Boundary.Op ℝ)) {P : BodyPack ℝ} (hP : PackOK P) (hdim : P.dim = L.dim) (hsize : P.mpiSize = L.mpiSize)
    {meshIdx : ℕ → ℕ → List (List ℤ)}
    (hidx : ∀ (r b : ℕ) (body : SingleBody ℝ), r < L.mpiSize → P.bodies[b]? = some body → body.updateMeshIdx axes r = .ok (meshIdx r b))
    {name : String} {s : ℝ} (hs : Support name s) {kernel : DeltaKernel ℝ} {size : ℤ} (hk : getKernel name = .ok (kernel, size))
    {D : Mat ℝ} (hD : createDelta debug L axes (fun r => (B r).run hist) P meshIdx kernel size.toNat = .ok D) {b : ℕ}
    {body : SingleBody ℝ} (hb : P.bodies[b]? = some body) {h : ℕ → ℝ} (hh : ∀ d, d < L.dim → 0 < h d)
    (hreg : ∀ i p d x, i < body.nPts → body.coords[i]? = some p → d < L.dim → p[d]? = some x →
      LocallyUniform (axes d) (h d) size.toNat x ∧
      ((∀ e, e < L.dim → L.periodic 0 e = false) ∧ AwayFromEnds (axes d) (s * h d) x ∨
        AwayFromEnds (axes d) ((size.toNat + 2) * h d) x))
    {i : ℕ} (hi : i < body.nPts) {X : List ℝ} (hX : body.coords[i]? = some X) {f : ℕ} (hf : f < L.dim) {row : ℤ}
    (hrow : P.getPackedGlobalIndex b i f = .ok row) {vol : ℤ → ℝ} (hvol : IsVolume debug L G vol) (q : ℤ → ℝ) :
    Mat.mult L.UN D (fun c => vol c * q c) row = (∏ d ∈ Finset.range L.dim, h d) * Mat.mult L.UN D q row := by
  have S := hC.setup
  obtain ⟨hs1, hs2, -⟩ := kernel_support hs hk
  obtain ⟨φ, qs, x, I, h1, h2, h3⟩ := createDelta_uniform hC hist hP hdim hsize hidx hs hk hD hb hh hreg hi hX hf hrow
  rw [h3, h3, ← List.sum_map_mul_left]
  congr 1
  apply List.map_congr_left
  intro e he
  unfold rowEntries at he
  obtain ⟨k, hk, he⟩ := List.mem_flatMap.1 he
  obtain ⟨j, hj, he⟩ := List.mem_flatMap.1 he
  obtain ⟨i, hi, rfl⟩ := List.mem_map.1 he
  simp only
  have hin := window_inside S hf hi hj hk
  rw [hvol f _ _ hf hin (col_inside S.layout (Or.inl hf) debug hin).1]
  by_cases h0 : φ 0 (x 0 - i.2) = 0
  · simp [h0]
  by_cases h1' : φ 1 (x 1 - j.2) = 0
  · simp [h1']
  by_cases hz : weightZ L φ x k = 0
  · simp [hz]
  have key : ∀ d (p : ℕ × ℝ), d < L.dim → p ∈ windowPoints L axes f d (I d) size.toNat → φ d (x d - p.2) ≠ 0 → G.dL f d p.1 = h d := by
    intro d p hd hp hne
    obtain ⟨p1, p2, p3, p4⟩ := mem_windowPoints hp
    rw [p4] at hne
    exact S.weight_width hf hd (hh d hd) (h1 d hd) hs2 (h2 d hd).2.1 (h2 d hd).2.2.1 (h2 d hd).2.2.2 p1 p2 p3 hne
  have hp : ∏ d ∈ Finset.range L.dim, G.dL f d (coordOf ⟨k.1, j.1, i.1, 0⟩ d) = ∏ d ∈ Finset.range L.dim, h d := by
    refine Finset.prod_congr rfl fun d hd => ?_
    have hd := Finset.mem_range.1 hd
    have h3 := S.dim_le
    rcases (show d = 0 ∨ d = 1 ∨ d = 2 by omega) with rfl | rfl | rfl
    · exact key 0 i hd hi h0
    · exact key 1 j hd hj h1'
    · unfold windowZ at hk
      unfold weightZ at hz
      rw [if_pos (by omega)] at hk hz
      exact key 2 k hd hk hz
  rw [hp]
  ring

end PetIBM
