/-
The neighbours of a body point along one axis.
-/
import Verif.Model.Delta
import Verif.Spec.Delta
import Verif.Lemmas.Kernel
import Verif.Lemmas.Setup
import Verif.Lemmas.MeshAxis
import Verif.Lemmas.NavierStokesRun
import Mathlib.Algebra.BigOperators.Ring.List

set_option linter.unusedSectionVars false

namespace PetIBM

open Spec

section General

variable {K : Type} [Field K] [LinearOrder K] [IsStrictOrderedRing K]
variable {L : Layout} {G : Geom K} {axes : ℕ → Axis K}

/-- position of velocity point `s` of component `f` along axis `d` -/
def velPos (axes : ℕ → Axis K) (f d s : ℕ) : K := if d = f then vert (axes d) (s + 1) else centre (axes d) s

theorem Spec.Setup.meshCoord_inside (S : Setup L G axes) {f d s : ℕ} (hf : f < L.dim) (hd : d < L.dim) (hs : s < L.n f d) :
    meshCoord L axes f d s = .ok (velPos axes f d s) ∧ s < (axes d).dL.length ∧
      (d = f → L.periodic f d = false → s + 1 < (axes d).dL.length) := by
  have h3 := S.dim_le
  unfold meshCoord velPos
  by_cases h : d = f
  · subst h
    cases hp : L.periodic d d with
    | false =>
      obtain ⟨A, hA, hn, hc, _⟩ := normalAxis_nonper (S.axesOK d hd)
      have hA' : fieldAxis L.dim axes L.periodic d d = .ok A := by
        unfold fieldAxis
        rw [if_pos (by omega), if_pos ⟨hd, hd⟩, if_pos rfl, hp, hA]
      have hcnt := S.counts d d (by omega) (by omega) A hA'
      rw [hA', if_pos rfl]
      refine ⟨?_, by omega, fun _ _ => by omega⟩
      have := hc s (by omega) (by omega)
      rw [show ((s : ℤ) + 1).toNat = s + 1 by omega] at this
      exact this
    | true =>
      obtain ⟨A, hA, hn, hc, _⟩ := normalAxis_per (S.axesOK d hd)
      have hA' : fieldAxis L.dim axes L.periodic d d = .ok A := by
        unfold fieldAxis
        rw [if_pos (by omega), if_pos ⟨hd, hd⟩, if_pos rfl, hp, hA]
      have hcnt := S.counts d d (by omega) (by omega) A hA'
      rw [hA', if_pos rfl]
      refine ⟨?_, by omega, fun _ h => by cases h⟩
      have := hc s (by omega) (by omega)
      rw [show ((s : ℤ) + 1).toNat = s + 1 by omega] at this
      exact this
  · obtain ⟨A, hA, hn, hc, _⟩ := tangentAxis_ok (S.axesOK d hd) (L.periodic f d)
    have hA' : fieldAxis L.dim axes L.periodic f d = .ok A := by
      unfold fieldAxis
      rw [if_pos (by omega), if_pos ⟨hf, hd⟩, if_neg h, hA]
    have hcnt := S.counts f d (by omega) (by omega) A hA'
    rw [hA', if_neg h]
    exact ⟨(hc s (by omega)).1, by omega, fun h' => absurd h' h⟩

/-- number of points against number of cells -/
theorem Spec.Setup.n_cells (S : Setup L G axes) {f d : ℕ} (hf : f < L.dim) (hd : d < L.dim) :
    (axes d).dL.length ≤ L.n f d + (if d = f ∧ L.periodic f d = false then 1 else 0) ∧ L.n f d ≤ (axes d).dL.length := by
  have h3 := S.dim_le
  obtain ⟨h1, h2, h4⟩ := S.staggered f hf
  have hp : L.n 3 d = (axes d).dL.length := by
    have : fieldAxis L.dim axes L.periodic 3 d = .ok (pressureAxis (axes d)) := by simp [fieldAxis, hd]
    exact S.counts 3 d (by omega) (by omega) _ this
  by_cases h : d = f
  · subst h
    rw [S.periodic d d hf (by omega)]
    cases hp' : L.periodic 0 d with
    | true => have := h2 hp'; simp; omega
    | false => have := h4 hp'; simp; omega
  · have := h1 d (by omega) h
    rw [if_neg (by tauto)]; omega

/-- the points of the window that belong to the grid -/
def windowPoints (L : Layout) (axes : ℕ → Axis K) (f d : ℕ) (I w : ℕ) : List (ℕ × K) :=
  ((List.range (L.n f d)).filter fun s => decide (I ≤ s + w ∧ s ≤ I + w)).map fun s => (s, velPos axes f d s)

theorem flatten_window (g : ℕ → List (ℤ × K)) (n I w : ℕ) (F : ℤ → List (ℤ × K))
    (hF : ∀ s : ℕ, s < n → F s = g s) (h0 : ∀ s : ℤ, s < 0 ∨ n ≤ s → F s = []) :
    ((List.range (2 * w + 1)).map fun o : ℕ => F ((I : ℤ) - w + o)).flatten =
      ((List.range n).filter fun s => decide (I ≤ s + w ∧ s ≤ I + w)).flatMap g := by
  -- both enumerate the numbers from `max 0 (I - w)` to `min n (I + w + 1)`
  have gen : ∀ m, ((List.range m).map fun o : ℕ => F ((I : ℤ) - w + o)).flatten =
      ((List.range n).filter fun s => decide (I ≤ s + w ∧ s + w < I + m)).flatMap g := by
    intro m
    induction m with
    | zero =>
      simp only [List.range_zero, List.map_nil, List.flatten_nil]
      symm
      rw [List.filter_eq_nil_iff.2, List.flatMap_nil]
      intro s _
      simp
    | succ m ih =>
      rw [List.range_succ, List.map_append, List.flatten_append, ih]
      simp only [List.map_cons, List.map_nil, List.flatten_cons, List.flatten_nil, List.append_nil]
      by_cases hin : 0 ≤ (I : ℤ) - w + m ∧ (I : ℤ) - w + m < n
      · obtain ⟨s, hs⟩ : ∃ s : ℕ, (I : ℤ) - w + m = s := ⟨((I : ℤ) - w + m).toNat, by omega⟩
        rw [hs, hF s (by omega)]
        have e1 : (List.range n).filter (fun x => decide (I ≤ x + w ∧ x + w < I + m)) =
            (List.range s).filter (fun x => decide (I ≤ x + w ∧ x + w < I + m)) := by
          obtain ⟨t, rfl⟩ : ∃ t, n = s + t := ⟨n - s, by omega⟩
          rw [List.range_add, List.filter_append, (List.filter_eq_nil_iff (l := List.map _ _)).2, List.append_nil]
          intro x hx
          obtain ⟨y, _, rfl⟩ := List.mem_map.1 hx
          simp; omega
        have e2 : (List.range n).filter (fun x => decide (I ≤ x + w ∧ x + w < I + (m + 1))) =
            (List.range s).filter (fun x => decide (I ≤ x + w ∧ x + w < I + m)) ++ [s] := by
          obtain ⟨t, rfl⟩ : ∃ t, n = (s + 1) + t := ⟨n - (s + 1), by omega⟩
          rw [List.range_add, List.filter_append, (List.filter_eq_nil_iff (l := List.map _ _)).2, List.append_nil,
            List.range_succ, List.filter_append]
          · congr 1
            · apply List.filter_congr
              intro x hx
              rw [List.mem_range] at hx
              simp only [decide_eq_decide]; omega
            · rw [List.filter_cons_of_pos (by simp; omega), List.filter_nil]
          · intro x hx
            obtain ⟨y, _, rfl⟩ := List.mem_map.1 hx
            simp; omega
        rw [e1, e2, List.flatMap_append, List.flatMap_singleton]
      · rw [h0 _ (by omega), List.append_nil]
        congr 1
        apply List.filter_congr
        intro x hx
        rw [List.mem_range] at hx
        simp only [decide_eq_decide]; omega
  rw [gen]
  congr 1
  apply List.filter_congr
  intro x hx
  simp only [decide_eq_decide]; omega

/-- Without wrapping the neighbours are the grid points of the window. -/
theorem Spec.Setup.eulerianNeighbors_eq (S : Setup L G axes) {f d I w : ℕ} {per : Bool} (hf : f < L.dim) (hd : d < L.dim)
    (hw : per = false ∨ (w ≤ I ∧ I + w < L.n f d)) :
    eulerianNeighbors L axes f d I per w = .ok ((windowPoints L axes f d I w).map fun p => ((p.1 : ℤ), p.2)) := by
  let F : ℤ → List (ℤ × K) := fun s => if s ≥ 0 ∧ s < L.n f d then [(s, velPos axes f d s.toNat)] else []
  have key : ∀ o ∈ List.range (2 * w + 1), eulerianNeighbor L axes f d per ((I : ℤ) - w + (o : ℕ)) = .ok (F ((I : ℤ) - w + o)) := by
    intro o ho
    rw [List.mem_range] at ho
    unfold eulerianNeighbor
    by_cases h : (I : ℤ) - w + o ≥ 0 ∧ (I : ℤ) - w + o < L.n f d
    · obtain ⟨s, hs⟩ : ∃ s : ℕ, (I : ℤ) - w + o = s := ⟨((I : ℤ) - w + o).toNat, by omega⟩
      simp only [if_pos h, F]
      rw [hs, (S.meshCoord_inside hf hd (s := s) (by omega)).1]
      rfl
    · rcases hw with rfl | hw
      · simp only [if_neg h, F]; rfl
      · omega
  unfold eulerianNeighbors
  rw [mapM_ok _ key]
  show Except.ok _ = _
  congr 1
  rw [flatten_window (fun s => [((s : ℤ), velPos axes f d s)]) (L.n f d) I w F]
  · unfold windowPoints
    rw [List.map_map]
    exact List.map_eq_flatMap.symm
  · intro s hs
    simp only [F]
    rw [if_pos ⟨by omega, by omega⟩]; simp
  · intro s hs
    simp only [F]
    rw [if_neg (by omega)]

/-- The width read for the first local point. -/
theorem Spec.Setup.meshWidth_zero (S : Setup L G axes) {d I : ℕ} (hd : d < L.dim) (hI : I + 1 < (axes d).dL.length) :
    ∃ v v', (axes d).dL[I]? = some v ∧ (axes d).dL[I + 1]? = some v' ∧
      meshWidth L axes 0 d I = .ok (if d = 0 then (v + v') / 2 else v) := by
  have h3 := S.dim_le
  have h0 : 0 < L.dim := by omega
  refine ⟨(axes d).dL[I], (axes d).dL[I + 1], List.getElem?_eq_getElem (by omega), List.getElem?_eq_getElem hI, ?_⟩
  have hc : centre (axes d) (I + 1) - centre (axes d) I = ((axes d).dL[I] + (axes d).dL[I + 1]) / 2 := by
    unfold centre
    rw [vert_succ _ (I + 1) (by omega), vert_succ _ I (by omega)]; ring
  unfold meshWidth
  by_cases h : d = 0
  · subst h
    rw [if_pos rfl]
    cases hp : L.periodic 0 0 with
    | false =>
      obtain ⟨A, hA, hn, _, hw, _⟩ := normalAxis_nonper (S.axesOK 0 hd)
      have hA' : fieldAxis L.dim axes L.periodic 0 0 = .ok A := by
        unfold fieldAxis
        rw [if_pos (by omega), if_pos ⟨hd, hd⟩, if_pos rfl, hp, hA]
      rw [hA', ← hc]
      exact hw I (by omega)
    | true =>
      obtain ⟨A, hA, hn, _, _, hw, _⟩ := normalAxis_per (S.axesOK 0 hd)
      have hA' : fieldAxis L.dim axes L.periodic 0 0 = .ok A := by
        unfold fieldAxis
        rw [if_pos (by omega), if_pos ⟨hd, hd⟩, if_pos rfl, hp, hA]
      rw [hA', ← hc]
      exact hw I (by omega)
  · obtain ⟨A, hA, hn, hc, _⟩ := tangentAxis_ok (S.axesOK d hd) (L.periodic 0 d)
    have hA' : fieldAxis L.dim axes L.periodic 0 d = .ok A := by
      unfold fieldAxis
      rw [if_pos (by omega), if_pos ⟨h0, hd⟩, if_neg h, hA]
    rw [hA', if_neg h]
    have := (hc I (by omega)).2
    rw [vert_succ _ I (by omega)] at this
    simp only [add_sub_cancel_left] at this
    exact this

/-- Vertices of a uniform stretch. -/
theorem vert_window {a : Axis K} {h : K} {I w : ℕ} (hu : ∀ j v, I ≤ j + w → j ≤ I + w → a.dL[j]? = some v → v = h)
    {j : ℕ} (h1 : I ≤ j + w) (h2 : j ≤ I + w + 1) (h3 : j ≤ a.dL.length) (hI : I < a.dL.length) :
    vert a j = vert a I + ((j : K) - I) * h := by
  have up : ∀ m k : ℕ, I ≤ k + w → k + m ≤ I + w + 1 → k + m ≤ a.dL.length → vert a (k + m) = vert a k + m * h := by
    intro m k hk
    induction m with
    | zero => simp
    | succ m ih =>
      intro g1 g2
      rw [← add_assoc, vert_succ a (k + m) (by omega), ih (by omega) (by omega),
        hu (k + m) _ (by omega) (by omega) (List.getElem?_eq_getElem (by omega))]
      push_cast; ring
  rcases le_total I j with h | h
  · obtain ⟨m, rfl⟩ := Nat.exists_eq_add_of_le h
    rw [up m I (by omega) h2 h3]; push_cast; ring
  · obtain ⟨m, rfl⟩ := Nat.exists_eq_add_of_le h
    rw [up m j h1 (by omega) (by omega)]; push_cast; ring

/-- Vertices increase. -/
theorem vert_mono {a : Axis K} (ha : AxisOK a) {i j : ℕ} (hij : i ≤ j) (hj : j ≤ a.dL.length) : vert a i ≤ vert a j := by
  induction j, hij using Nat.le_induction with
  | base => exact le_rfl
  | succ j _ ih =>
    rw [vert_succ a j (by omega)]
    have := dL_pos ha j (by omega)
    linarith [ih (by omega)]

end General

section Sums

variable {L : Layout} {G : Geom ℝ} {axes : ℕ → Axis ℝ}

theorem sum_filter_range (n : ℕ) (p : ℕ → Bool) (g : ℕ → ℝ) :
    (((List.range n).filter p).map g).sum = ∑ s ∈ Finset.range n, if p s then g s else 0 := by
  induction n with
  | zero => simp
  | succ n ih =>
    rw [List.range_succ, List.filter_append, List.map_append, List.sum_append, ih, Finset.sum_range_succ]
    congr 1
    cases hp : p n <;> simp [hp]

/-- A sum over the points of the window is a sum over the infinite uniform grid, if the weights vanish elsewhere. -/
theorem Spec.Setup.window_sum (_S : Setup L G axes) {f d I w : ℕ} (F : ℤ → ℝ) (g : ℝ → ℝ)
    (hg : ∀ s : ℕ, s < L.n f d → I ≤ s + w → s ≤ I + w → g (velPos axes f d s) = F s)
    (h0 : ∀ t : ℤ, (t < I - w ∨ I + w < t ∨ t < 0 ∨ L.n f d ≤ t) → F t = 0) :
    ((windowPoints L axes f d I w).map fun p => g p.2).sum = ∑ᶠ t : ℤ, F t := by
  rw [finsum_window F 0 (L.n f d - 1) (fun i hi => h0 i (by omega))]
  unfold windowPoints
  rw [List.map_map, sum_filter_range]
  have : (Finset.Icc (0 : ℤ) (L.n f d - 1)) = (Finset.range (L.n f d)).map ⟨Nat.cast, Nat.cast_injective⟩ := by
    ext x
    simp only [Finset.mem_Icc, Finset.mem_map, Finset.mem_range, Function.Embedding.coeFn_mk]
    constructor
    · intro h; exact ⟨x.toNat, by omega, by omega⟩
    · rintro ⟨y, h, rfl⟩; omega
  rw [this, Finset.sum_map]
  apply Finset.sum_congr rfl
  intro s hs
  rw [Finset.mem_range] at hs
  simp only [Function.Embedding.coeFn_mk, decide_eq_true_eq, Function.comp]
  split_ifs with h
  · exact hg s hs h.1 h.2
  · exact (h0 s (by omega)).symm

/-- The weights of a body point along one axis: they add up to one over the width, and their mean position is that of the
point. -/
theorem Spec.Setup.axis_weights (S : Setup L G axes) {f d I w : ℕ} (hf : f < L.dim) (hd : d < L.dim) {φ : ℝ → ℝ} {h s q X : ℝ}
    (hh : 0 < h) (hφ : DiscreteDelta φ h s q) (hs : s ≤ w) (hI : InCell (axes d) I X)
    (hu : ∀ j v, I ≤ j + w → j ≤ I + w → (axes d).dL[j]? = some v → v = h) (hr : AwayFromEnds (axes d) (s * h) X) :
    ((windowPoints L axes f d I w).map fun p => φ (X - p.2)).sum = 1 / h ∧
    ((windowPoints L axes f d I w).map fun p => φ (X - p.2) * p.2).sum = X / h := by
  have ha := S.axesOK d hd
  obtain ⟨hI1, hI2, hI3⟩ := hI
  obtain ⟨δ, hδ⟩ : ∃ δ, δ = if d = f then h else h / 2 := ⟨_, rfl⟩
  have hδ1 : h / 2 ≤ δ ∧ δ ≤ h := by rw [hδ]; split_ifs <;> constructor <;> linarith
  have hv1 : vert (axes d) (I + 1) = vert (axes d) I + h := by
    rw [vert_succ _ I hI1, hu I _ (by omega) (by omega) (List.getElem?_eq_getElem hI1)]
  change vert (axes d) I ≤ X at hI2
  change X < vert (axes d) (I + 1) at hI3
  rw [hv1] at hI3
  -- the uniform grid that continues the window
  obtain ⟨c, hc⟩ : ∃ c, c = vert (axes d) I - I * h + δ := ⟨_, rfl⟩
  have hpos : ∀ t : ℕ, t < L.n f d → I ≤ t + w → t ≤ I + w → velPos axes f d t = c + t * h := by
    intro t ht h1 h2
    obtain ⟨_, hl, _⟩ := S.meshCoord_inside hf hd ht
    unfold velPos
    have e1 := vert_window hu (j := t + 1) (by omega) (by omega) (by omega) hI1
    have e0 := vert_window hu (j := t) (by omega) (by omega) (by omega) hI1
    rw [hc, hδ]
    split_ifs
    · rw [e1]; push_cast; ring
    · unfold centre; rw [e1, e0]; push_cast; ring
  have hsh : s * h ≤ w * h := mul_le_mul_of_nonneg_right hs hh.le
  have hzero : ∀ t : ℤ, (t < (I : ℤ) - w ∨ (I : ℤ) + w < t ∨ t < 0 ∨ L.n f d ≤ t) → φ (X - c - t * h) = 0 := by
    intro t ht
    apply hφ.outside
    by_cases h1 : t < (I : ℤ) - w
    · have : (t : ℝ) + 1 ≤ I - w := by exact_mod_cast (show t + 1 ≤ (I : ℤ) - w by omega)
      have := mul_le_mul_of_nonneg_right this hh.le
      refine le_trans ?_ (le_abs_self _)
      rw [hc]; nlinarith
    by_cases h2 : (I : ℤ) + w < t
    · have : (I : ℝ) + w + 1 ≤ t := by exact_mod_cast (show (I : ℤ) + w + 1 ≤ t by omega)
      have := mul_le_mul_of_nonneg_right this hh.le
      refine le_trans ?_ (neg_le_abs _)
      rw [hc]; nlinarith
    by_cases h3 : t < 0
    · have : (t : ℝ) + 1 ≤ 0 := by exact_mod_cast (show t + 1 ≤ (0 : ℤ) by omega)
      have := mul_le_mul_of_nonneg_right this hh.le
      have e0 := vert_window hu (j := 0) (by omega) (by omega) (by omega) hI1
      rw [vert_zero] at e0
      push_cast at e0
      have := hr.1
      refine le_trans ?_ (le_abs_self _)
      rw [hc]; nlinarith
    · have h4 : (L.n f d : ℤ) ≤ t := by omega
      obtain ⟨hn, _⟩ := S.n_cells hf hd
      have hlen : (axes d).dL.length ≤ I + w + 1 := by split_ifs at hn <;> omega
      have e0 := vert_window hu (j := (axes d).dL.length) (by omega) hlen le_rfl hI1
      rw [vert_max ha] at e0
      have := hr.2
      have key : ((axes d).dL.length : ℝ) * h ≤ t * h + δ := by
        by_cases hdf : d = f
        · have hle : ((axes d).dL.length : ℝ) ≤ t + 1 := by
            exact_mod_cast (show (((axes d).dL.length : ℕ) : ℤ) ≤ t + 1 by split_ifs at hn <;> omega)
          have := mul_le_mul_of_nonneg_right hle hh.le
          rw [hδ, if_pos hdf]; linarith
        · have hle : ((axes d).dL.length : ℝ) ≤ t := by
            rw [if_neg (by tauto)] at hn
            exact_mod_cast (show (((axes d).dL.length : ℕ) : ℤ) ≤ t by omega)
          have := mul_le_mul_of_nonneg_right hle hh.le
          linarith
      refine le_trans ?_ (neg_le_abs _)
      rw [hc]; nlinarith
  have hsum0 := S.window_sum (f := f) (d := d) (I := I) (w := w) (fun t => h * φ (X - c - t * h)) (fun x => h * φ (X - x))
    (fun t h1 h2 h3 => by rw [hpos t h1 h2 h3]; congr 2; push_cast; ring)
    (fun t ht => by rw [hzero t ht, mul_zero])
  have hsum1 := S.window_sum (f := f) (d := d) (I := I) (w := w) (fun t => h * ((X - c - t * h) * φ (X - c - t * h)))
    (fun x => h * ((X - x) * φ (X - x)))
    (fun t h1 h2 h3 => by
      rw [hpos t h1 h2 h3, show X - (c + (t : ℝ) * h) = X - c - ((t : ℤ) : ℝ) * h by push_cast; ring])
    (fun t ht => by rw [hzero t ht, mul_zero, mul_zero])
  rw [hφ.unity] at hsum0
  rw [hφ.moment] at hsum1
  rw [List.sum_map_mul_left] at hsum0 hsum1
  have h1 : ((windowPoints L axes f d I w).map fun p => φ (X - p.2)).sum = 1 / h := by
    rw [eq_div_iff hh.ne']; linarith
  refine ⟨h1, ?_⟩
  have h2 : ((windowPoints L axes f d I w).map fun p => (X - p.2) * φ (X - p.2)).sum = 0 := by
    rcases mul_eq_zero.1 hsum1 with h' | h'
    · exact absurd h' hh.ne'
    · exact h'
  have h3 : ((windowPoints L axes f d I w).map fun p => φ (X - p.2) * p.2).sum +
      ((windowPoints L axes f d I w).map fun p => (X - p.2) * φ (X - p.2)).sum =
      ((windowPoints L axes f d I w).map fun p => φ (X - p.2)).sum * X := by
    rw [← List.sum_map_add, ← List.sum_map_mul_right]
    congr 1
    apply List.map_congr_left
    intro p _
    ring
  rw [h2, h1, add_zero] at h3
  rw [h3]; ring

end Sums

end PetIBM
