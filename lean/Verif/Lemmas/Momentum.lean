/-
The right-hand side of the velocity system.
-/
import Verif.Lemmas.Projection
import Mathlib.Algebra.BigOperators.Intervals

set_option linter.unusedSectionVars false

namespace PetIBM

open Spec

section

variable {K : Type} [Field K] [LinearOrder K] [IsStrictOrderedRing K]

theorem termSum_eq (coeffs : List K) (terms : List (ℤ → K)) (j : ℤ) :
    termSum coeffs terms j = ∑ i ∈ Finset.range coeffs.length, coeffs.getD i 0 * terms.getD i (fun _ => 0) j := by
  unfold termSum
  induction coeffs generalizing terms with
  | nil => simp
  | cons c coeffs ih =>
    rw [List.length_cons, Finset.sum_range_succ']
    cases terms with
    | nil => simp
    | cons t terms =>
      have := ih terms
      simp only [List.zip_cons_cons, List.map_cons, List.sum_cons, this]
      rw [add_comm]
      congr 1

/-- a sum over the stored terms as a sum over the levels -/
theorem termSum_levels (S : TimeScheme K) (terms : List (ℤ → K)) (k : ℕ) (z : ℕ → ℤ → K)
    (h : ∀ i, i < S.explicitCoeffs.length → terms.getD i (fun _ => 0) = if i ≤ k then z (k - i) else fun _ => 0) (j : ℤ) :
    termSum S.explicitCoeffs terms j = ∑ m ∈ Finset.range (k + 1), levelWeight S k m * z m j := by
  rw [termSum_eq]
  have e : ∑ m ∈ Finset.range (k + 1), levelWeight S k m * z m j =
      ∑ i ∈ Finset.range (k + 1), S.explicitCoeffs.getD i 0 * z (k - i) j := by
    rw [← Finset.sum_range_reflect]
    refine Finset.sum_congr rfl fun i hi => ?_
    have := Finset.mem_range.1 hi
    unfold levelWeight
    rw [show k - (k + 1 - 1 - i) = i by omega, show k + 1 - 1 - i = k - i by omega]
  rw [e]
  have big : ∀ N, k + 1 ≤ N → S.explicitCoeffs.length ≤ N →
      (∑ i ∈ Finset.range (k + 1), S.explicitCoeffs.getD i 0 * z (k - i) j =
        ∑ i ∈ Finset.range N, S.explicitCoeffs.getD i 0 * (if i ≤ k then z (k - i) j else 0)) ∧
      (∑ i ∈ Finset.range S.explicitCoeffs.length, S.explicitCoeffs.getD i 0 * terms.getD i (fun _ => 0) j =
        ∑ i ∈ Finset.range N, S.explicitCoeffs.getD i 0 * (if i ≤ k then z (k - i) j else 0)) := by
    intro N h1 h2
    constructor
    · rw [← Finset.sum_subset (Finset.range_mono h1)]
      · refine Finset.sum_congr rfl fun i hi => ?_
        rw [if_pos (by have := Finset.mem_range.1 hi; omega)]
      · intro i _ hi
        rw [Finset.mem_range] at hi
        rw [if_neg (by omega), mul_zero]
    · rw [← Finset.sum_subset (Finset.range_mono h2)]
      · refine Finset.sum_congr rfl fun i hi => ?_
        rw [h i (Finset.mem_range.1 hi)]
        split_ifs <;> rfl
      · intro i _ hi
        rw [Finset.mem_range] at hi
        rw [List.getD_eq_getElem?_getD, List.getElem?_eq_none (by omega)]
        simp
  rw [(big (max (k + 1) S.explicitCoeffs.length) (le_max_left ..) (le_max_right ..)).1,
    (big (max (k + 1) S.explicitCoeffs.length) (le_max_left ..) (le_max_right ..)).2]

theorem terms_history (l : ℕ → List (ℤ → K)) (y : ℕ → ℤ → K) (n : ℕ) (h : ∀ k, k < n → l (k + 1) = pushTerm (l k) (y k)) :
    (l n).length = (l 0).length ∧
    ∀ i, i < (l 0).length → (i < n → (l n)[i]? = some (y (n - 1 - i))) ∧ (n ≤ i → (l n)[i]? = (l 0)[i - n]?) := by
  induction n with
  | zero => exact ⟨rfl, fun i _ => ⟨fun h => absurd h (by omega), fun _ => rfl⟩⟩
  | succ n ih =>
    obtain ⟨ih1, ih2⟩ := ih fun k hk => h k (by omega)
    rw [h n (by omega)]
    refine ⟨(length_pushTerm _ _).trans ih1, ?_⟩
    intro i hi
    rcases hl : l n with _ | ⟨a, t⟩
    · rw [hl] at ih1; simp at ih1; omega
    · have e : pushTerm (a :: t) (y n) = y n :: (a :: t).dropLast := rfl
      rw [e]
      cases i with
      | zero => exact ⟨fun _ => by simp, fun h => absurd h (by omega)⟩
      | succ i =>
        have hlen : i + 1 < (a :: t).length := by rw [← hl, ih1]; exact hi
        have e2 : (y n :: (a :: t).dropLast)[i + 1]? = (l n)[i]? := by
          rw [List.getElem?_cons_succ, List.getElem?_dropLast, if_pos (by omega), hl]
        rw [e2]
        obtain ⟨j1, j2⟩ := ih2 i (by omega)
        refine ⟨fun hin => ?_, fun hin => ?_⟩
        · rw [j1 (by omega)]; congr 2; omega
        · rw [j2 (by omega)]; congr 1; omega

/-- stored terms after the newest one has been added, for a run from step 0 or after enough steps -/
theorem pushed_terms (l : ℕ → List (ℤ → K)) (y : ℕ → ℤ → K) (k N : ℕ) (h : ∀ m, m < k → l (m + 1) = pushTerm (l m) (y m))
    (hl : (l 0).length = N) (h0 : (l 0 = List.replicate N fun _ => 0) ∨ N ≤ k + 1) :
    ∀ i, i < N → (pushTerm (l k) (y k)).getD i (fun _ => 0) = if i ≤ k then y (k - i) else fun _ => 0 := by
  intro i hi
  have hist := terms_history (fun m => if m ≤ k then l m else pushTerm (l k) (y k)) y (k + 1) (by
    intro m hm
    by_cases hmk : m < k
    · simp only [if_pos (show m + 1 ≤ k by omega), if_pos (show m ≤ k by omega), h m hmk]
    · have : m = k := by omega
      subst this
      simp)
  simp only [if_neg (show ¬ (k + 1 ≤ k) by omega), if_pos (show 0 ≤ k by omega), hl] at hist
  obtain ⟨a, b⟩ := hist.2 i hi
  rw [List.getD_eq_getElem?_getD]
  by_cases hik : i ≤ k
  · rw [if_pos hik, a (by omega), show k + 1 - 1 - i = k - i by omega]
    rfl
  · rcases h0 with h0 | h0
    · rw [if_neg hik, b (by omega), h0, List.getElem?_replicate]
      split_ifs <;> rfl
    · omega

end

variable {K : Type} [Field K] [LinearOrder K] [IsStrictOrderedRing K]
variable {debug : Bool} {L : Layout} {G : Geom K} {axes : ℕ → Axis K} {T : BCTable K} {B : ℕ → Boundary K}
variable {P : NSParams K} {flow : Option (FlowNode K)} {ops : NSOps K} {disk disk' : Disk K} {s : NSState K}
variable {vSolve pSolve : LinSolve K} {x : ℕ → NSState K} {n : ℕ}

/-- The stored terms that the step from level `k` uses are zero or terms of this run. -/
def Known (P : NSParams K) (k : ℕ) (conv diff : List (ℤ → K)) : Prop :=
  ((conv = List.replicate P.conv.nExplicit fun _ => 0) ∨ P.conv.nExplicit ≤ k + 1) ∧
    ((diff = List.replicate P.diff.nExplicit fun _ => 0) ∨ P.diff.nExplicit ≤ k + 1)

theorem known_of {k : ℕ} {conv diff : List (ℤ → K)} (h : P.nstart = 0 →
    conv = List.replicate P.conv.nExplicit (fun _ => 0) ∧ diff = List.replicate P.diff.nExplicit fun _ => 0) (hs : Remembers P k) :
    Known P k conv diff := by
  rcases hs with hs | hs
  · exact ⟨Or.inl (h hs).1, Or.inl (h hs).2⟩
  · exact ⟨Or.inr hs.1, Or.inr hs.2⟩

theorem assembleRHS_eq (C : Constructed debug L G axes T B) {P : NSParams K} (hc : P.conv.explicitCoeffs.length = P.conv.nExplicit)
    (hd : P.diff.explicitCoeffs.length = P.diff.nExplicit) (ops : NSOps K) {N : ℕ} {u : ℤ → K} {s : NSState K} (R : Reach L B P N u s) :
    ∃ w loc, convectionMult L G s.B (fun _ _ _ => 0) s.U (fun _ => 0) = .ok w ∧
      assembleRHSVelocity L G P ops s =
        .ok (momentumRhs L P ops s (pushTerm s.conv fun i => -1 * w i) (pushTerm s.diff (diffTerm L P.nu ops s)),
          { s with conv := pushTerm s.conv fun i => -1 * w i, diff := pushTerm s.diff (diffTerm L P.nu ops s),
                   B := fun r => (s.B r).updateEqs s.U P.dt, loc := loc }) := by
  obtain ⟨w, hw, h0, loc, h1, h2⟩ := updateConv_eq C R
  refine ⟨w, loc, hw, ?_⟩
  have e2 := updateDiff_eq L P.nu ops s
  have a1 := addTerms_eq P.conv.explicitCoeffs (pushTerm s.conv fun i => -1 * w i) (by rw [length_pushTerm, R.nconv, hc])
  have a2 := addTerms_eq P.diff.explicitCoeffs (pushTerm s.diff (diffTerm L P.nu ops s)) (by rw [length_pushTerm, R.ndiff, hd])
  unfold assembleRHSVelocity
  simp only [h1, e2, a1, a2, bind, Except.bind, pure, Except.pure]
  rfl

/-- The right-hand side by levels, after steps whose solvers may be anything. -/
theorem rhs_levels_of (C : Constructed debug L G axes T B) (hc : P.conv.explicitCoeffs.length = P.conv.nExplicit)
    (hd' : P.diff.explicitCoeffs.length = P.diff.nExplicit) {u : ℤ → K} {k : ℕ} (R : ∀ m, m ≤ k → Reach L B P ops.pN u (x m))
    (hadv : ∀ m, m < k → ∃ s : LinSolve K × LinSolve K, advance L G P ops s.1 s.2 (x m) = .ok (x (m + 1)))
    (hstart : Known P k (x 0).conv (x 0).diff) :
    ∃ z : ℕ → ℤ → K, (∀ m, m ≤ k → convectionMult L G (x m).B (fun _ _ _ => 0) (x m).U (fun _ => 0) = .ok (z m)) ∧
      ∀ j : ℤ, 0 ≤ j → j < L.UN →
        momentumRhs L P ops (x k) (pushTerm (x k).conv fun i => -1 * z k i) (pushTerm (x k).diff (diffTerm L P.nu ops (x k))) j =
          (x k).U j / P.dt - Mat.mult ops.pN ops.G (x k).p j
          - ∑ m ∈ Finset.range (k + 1), levelWeight P.conv k m * z m j
          + ∑ m ∈ Finset.range (k + 1), levelWeight P.diff k m * (P.nu * (Mat.mult L.UN ops.L (x m).U j + correctionMult L (x m).B ops.Lmods j))
          + P.diff.implicitCoeff * P.nu * correctionMult L (fun r => ((x k).B r).updateEqs (x k).U P.dt) ops.Lmods j := by
  have hw : ∀ m, ∃ z, m ≤ k → convectionMult L G (x m).B (fun _ _ _ => 0) (x m).U (fun _ => 0) = .ok z ∧
      (m < k → (x (m + 1)).conv = pushTerm (x m).conv fun j => -1 * z j) := by
    intro m
    by_cases hm : m < k
    · obtain ⟨w, _, _, h1, _, _, _, _, _, h2, _⟩ := advance_ok C hc hd' (R m (by omega)) (hadv m (by omega)).choose_spec
      exact ⟨w, fun _ => ⟨h1, fun _ => h2⟩⟩
    · by_cases hm' : m ≤ k
      · obtain ⟨w, _, h1, _⟩ := assembleRHS_eq C hc hd' ops (R m (by omega))
        exact ⟨w, fun _ => ⟨h1, fun h => absurd h hm⟩⟩
      · exact ⟨fun _ => 0, fun h => absurd h hm'⟩
  choose z hz using hw
  have hd : ∀ m, m < k → (x (m + 1)).diff = pushTerm (x m).diff (diffTerm L P.nu ops (x m)) := by
    intro m hm
    obtain ⟨w, _, _, h1, _, _, _, _, _, _, h2, _⟩ := advance_ok C hc hd' (R m (by omega)) (hadv m (by omega)).choose_spec
    exact h2
  refine ⟨z, fun m hm => (hz m hm).1, ?_⟩
  intro j j0 j1
  have hr : 0 ≤ j ∧ j < (L.UN : ℤ) := ⟨j0, j1⟩
  have p1 := pushed_terms (fun m => (x m).conv) (fun m i => -1 * z m i) k _ (fun m hm => (hz m hm.le).2 hm) (R 0 (by omega)).nconv hstart.1
  have p2 := pushed_terms (fun m => (x m).diff) (fun m => diffTerm L P.nu ops (x m)) k _ hd (R 0 (by omega)).ndiff hstart.2
  unfold momentumRhs
  rw [termSum_levels P.conv _ k (fun m i => -1 * z m i) (by rw [hc]; exact p1),
    termSum_levels P.diff _ k (fun m => diffTerm L P.nu ops (x m)) (by rw [hd']; exact p2)]
  have e1 : ∑ m ∈ Finset.range (k + 1), levelWeight P.conv k m * (-1 * z m j) = - ∑ m ∈ Finset.range (k + 1), levelWeight P.conv k m * z m j := by
    rw [← Finset.sum_neg_distrib]
    exact Finset.sum_congr rfl fun m _ => by ring
  have e2 : ∑ m ∈ Finset.range (k + 1), levelWeight P.diff k m * diffTerm L P.nu ops (x m) j =
      ∑ m ∈ Finset.range (k + 1), levelWeight P.diff k m * (P.nu * (Mat.mult L.UN ops.L (x m).U j + correctionMult L (x m).B ops.Lmods j)) := by
    refine Finset.sum_congr rfl fun m _ => ?_
    unfold diffTerm
    rw [vec, if_pos hr]
  rw [e1, e2]
  simp only [vec, if_pos hr]
  ring

/-- The right-hand side in a run, by levels. -/
theorem rhs_levels (S : Started debug L G axes T B P flow ops disk s disk') {k : ℕ} (hstart : Known P k s.conv s.diff) (h0 : x 0 = s)
    (hx : Trajectory L G P ops vSolve pSolve x n) (hk : k ≤ n) :
    ∃ z : ℕ → ℤ → K, (∀ m, m ≤ k → convectionMult L G (x m).B (fun _ _ _ => 0) (x m).U (fun _ => 0) = .ok (z m)) ∧
      ∀ j : ℤ, 0 ≤ j → j < L.UN →
        momentumRhs L P ops (x k) (pushTerm (x k).conv fun i => -1 * z k i) (pushTerm (x k).diff (diffTerm L P.nu ops (x k))) j =
          (x k).U j / P.dt - Mat.mult ops.pN ops.G (x k).p j
          - ∑ m ∈ Finset.range (k + 1), levelWeight P.conv k m * z m j
          + ∑ m ∈ Finset.range (k + 1), levelWeight P.diff k m * (P.nu * (Mat.mult L.UN ops.L (x m).U j + correctionMult L (x m).B ops.Lmods j))
          + P.diff.implicitCoeff * P.nu * correctionMult L (fun r => ((x k).B r).updateEqs (x k).U P.dt) ops.Lmods j := by
  obtain ⟨u, hops, R⟩ := S.reach_at h0 hx
  exact rhs_levels_of S.constructed S.schemes.1.1 S.schemes.2.1 (fun m hm => R m (by omega)) (fun m hm => ⟨(vSolve, pSolve), hx m (by omega)⟩)
    (by rw [h0]; exact hstart)

end PetIBM
