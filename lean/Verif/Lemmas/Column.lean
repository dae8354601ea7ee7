/-
Packed indices of grid points and of their neighbours.
-/
import Verif.Spec.Field
import Verif.Lemmas.Boundary

namespace PetIBM

open Spec Layout

theorem coordOf_along (s : Stencil) (d e : ℕ) (x : ℤ) (hd : d < 3) (he : e < 3) :
    coordOf (along s d x) e = if e = d then x else coordOf s e := by
  unfold coordOf along
  interval_cases d <;> interval_cases e <;> simp

theorem along_self (s : Stencil) (d : ℕ) (hd : d < 3) : along s d (coordOf s d) = s := by
  unfold along coordOf; interval_cases d <;> simp

theorem along_along (s : Stencil) (d : ℕ) (x y : ℤ) : along (along s d x) d y = along s d y := by
  unfold along; split_ifs <;> rfl

theorem along_c (s : Stencil) (d : ℕ) (x : ℤ) : (along s d x).c = s.c := by
  unfold along; split_ifs <;> rfl

/-- Packed index as a number; meaningful where `getPackedGlobalIndex` succeeds. -/
def col (L : Layout) (f : ℕ) (s : Stencil) : ℤ :=
  match L.getPackedGlobalIndex false f s with
  | .ok x => x
  | .error _ => -2

theorem Spec.Inside.along {M : MeshInfo} {f : ℕ} {s : Stencil} (h : Inside M f s) (d : ℕ) (hd : d < 3) (x : ℤ)
    (hx : 0 ≤ x ∧ x < M.n f d) : Inside M f (along s d x) := by
  refine ⟨fun e he => ?_, by rw [along_c]; exact h.2⟩
  rw [coordOf_along s d e x hd he]
  split_ifs with h'
  · subst h'; exact hx
  · exact h.1 e he

/-- Coordinates of an inside point as natural numbers. -/
theorem Spec.Inside.nat {M : MeshInfo} {f : ℕ} {s : Stencil} (h : Inside M f s) :
    ∃ i j k : ℕ, s = ⟨k, j, i, 0⟩ ∧ i < M.n f 0 ∧ j < M.n f 1 ∧ k < M.n f 2 := by
  have h0 := h.1 0 (by omega)
  have h1 := h.1 1 (by omega)
  have h2 := h.1 2 (by omega)
  refine ⟨_, _, _, stencil_nat (fun d hd => (h.1 d hd).1) h.2, by omega, by omega, by omega⟩

theorem inside_nat {M : MeshInfo} {f i j k : ℕ} (hi : i < M.n f 0) (hj : j < M.n f 1) (hk : k < M.n f 2) :
    Inside M f ⟨k, j, i, 0⟩ := by
  refine ⟨fun d hd => ?_, rfl⟩
  interval_cases d <;> simp [coordOf] <;> assumption

/-- number of unknowns of the vector that holds field `f` -/
def vecSize (L : Layout) (f : ℕ) : ℕ := if f = 3 then L.pN else L.UN

theorem getPacked_three (L : Layout) (debug : Bool) (s : Stencil) :
    L.getPackedGlobalIndex debug 3 s = L.getGlobalIndex debug 3 s := by
  unfold getPackedGlobalIndex
  rcases L.getGlobalIndex debug 3 s with e | v <;> rfl

theorem col_inside {L : Layout} (hL : LayoutOK L) {f : ℕ} (hf : f < L.dim ∨ f = 3) (debug : Bool) {s : Stencil}
    (hs : Inside L.toMeshInfo f s) :
    L.getPackedGlobalIndex debug f s = .ok (col L f s) ∧ 0 ≤ col L f s ∧ col L f s < vecSize L f := by
  obtain ⟨i, j, k, rfl, hi, hj, hk⟩ := hs.nat
  have hd3 : L.dim ≤ 3 := by rcases hL.dim with h | h <;> omega
  rcases hf with hf | rfl
  · obtain ⟨r, hr, ho⟩ := exists_owner hL (Or.inl hf) hi hj hk
    have hu : IsUnknown L ⟨r, f, i, j, k⟩ := ⟨hf, hi, hj, hk, hr, ho⟩
    obtain ⟨x, hx, hx'⟩ := packed_position debug hL hu 0
    obtain ⟨y, hy, hy'⟩ := packed_position false hL hu 0
    obtain ⟨lx, ex⟩ := List.getElem?_eq_some_iff.1 hx'
    obtain ⟨ly, ey⟩ := List.getElem?_eq_some_iff.1 hy'
    have : x = y := (nodup_unknowns L).getElem_inj_iff.1 (ex.trans ey.symm)
    subst this
    have hc : col L f ⟨k, j, i, 0⟩ = x := by
      unfold col; simp only [Nat.cast_zero] at hy; rw [hy]
    rw [hc]
    refine ⟨by simpa using hx, by omega, ?_⟩
    rw [length_unknowns hL] at lx
    unfold vecSize
    rw [if_neg (by omega)]
    exact_mod_cast lx
  · obtain ⟨r, hr, ho⟩ := exists_owner hL (Or.inr rfl) hi hj hk
    obtain ⟨q, hq⟩ := List.getElem?_of_mem (mem_box.2 ho)
    have h1 := getGlobalIndex_owner debug hL (Or.inr rfl) (c := 0) hr hq
    have h2 := getGlobalIndex_owner false hL (Or.inr rfl) (c := 0) hr hq
    simp only [Nat.cast_zero] at h1 h2
    obtain ⟨z, hz, _, hz0, hz1⟩ := (C04_pressure_index_bijective false L hL 0).1 i j k hi hj hk
    simp only [Nat.cast_zero] at hz
    have hc : col L 3 ⟨k, j, i, 0⟩ = z := by unfold col; rw [hz]
    rw [getPacked_three, h2] at hz
    rw [getPacked_three, hc, h1]
    refine ⟨hz, hz0, ?_⟩
    simpa [vecSize] using hz1

theorem col_inj {L : Layout} (hL : LayoutOK L) {f g : ℕ} (hf : f < L.dim) (hg : g < L.dim) {s t : Stencil}
    (hs : Inside L.toMeshInfo f s) (ht : Inside L.toMeshInfo g t) (h : col L f s = col L g t) : f = g ∧ s = t := by
  obtain ⟨h1, h0, h2⟩ := col_inside hL (Or.inl hf) false hs
  obtain ⟨h1', h0', h2'⟩ := col_inside hL (Or.inl hg) false ht
  obtain ⟨i, j, k, rfl, hi, hj, hk⟩ := hs.nat
  obtain ⟨i', j', k', rfl, hi', hj', hk'⟩ := ht.nat
  obtain ⟨r, hr, ho⟩ := exists_owner hL (Or.inl hf) hi hj hk
  obtain ⟨r', hr', ho'⟩ := exists_owner hL (Or.inl hg) hi' hj' hk'
  have hd3 : L.dim ≤ 3 := by rcases hL.dim with h | h <;> omega
  unfold vecSize at h2
  rw [if_neg (by omega)] at h2
  obtain ⟨u, _, huu⟩ := (C04_packed_index_bijective false L hL 0).2.1 _ h0 h2
  have e1 := huu ⟨r, f, i, j, k⟩ ⟨⟨hf, hi, hj, hk, hr, ho⟩, by simpa using h1⟩
  have e2 := huu ⟨r', g, i', j', k'⟩ ⟨⟨hg, hi', hj', hk', hr', ho'⟩, by rw [h]; simpa using h1'⟩
  rw [← e2] at e1
  simp only [Unknown.mk.injEq] at e1
  obtain ⟨_, rfl, rfl, rfl, rfl⟩ := e1
  exact ⟨rfl, rfl⟩

theorem col_inj_pressure {L : Layout} (hL : LayoutOK L) {s t : Stencil}
    (hs : Inside L.toMeshInfo 3 s) (ht : Inside L.toMeshInfo 3 t) (h : col L 3 s = col L 3 t) : s = t := by
  obtain ⟨h1, h0, h2⟩ := col_inside hL (Or.inr rfl) false hs
  obtain ⟨h1', h0', h2'⟩ := col_inside hL (Or.inr rfl) false ht
  obtain ⟨i, j, k, rfl, hi, hj, hk⟩ := hs.nat
  obtain ⟨i', j', k', rfl, hi', hj', hk'⟩ := ht.nat
  simp only [vecSize, if_true] at h2
  obtain ⟨u, _, huu⟩ := (C04_pressure_index_bijective false L hL 0).2 _ h0 h2
  have e1 := huu (i, j, k) ⟨⟨hi, hj, hk⟩, by simpa using h1⟩
  have e2 := huu (i', j', k') ⟨⟨hi', hj', hk'⟩, by rw [h]; simpa using h1'⟩
  rw [← e2] at e1
  simp only [Prod.mk.injEq] at e1
  obtain ⟨rfl, rfl, rfl⟩ := e1
  rfl

/-- natural index of a point with one ghost coordinate -/
theorem natural_along {L : Layout} (hL : LayoutOK L) {f : ℕ} (hf : f < L.dim ∨ f = 3) (debug : Bool) {s : Stencil}
    (hs : Inside L.toMeshInfo f s) {d : ℕ} (hd : d < 3) {x : ℤ} (hx : -1 ≤ x ∧ x ≤ L.n f d) :
    getNaturalIndexS debug L.toMeshInfo f (along s d x) =
      .ok (indexOrMinusOne L.toMeshInfo f (along s d x).i (along s d x).j (along s d x).k) := by
  obtain ⟨i, j, k, rfl, hi, hj, hk⟩ := hs.nat
  unfold getNaturalIndexS
  apply C02_ghost_index_partial debug L.toMeshInfo f (gridOK_of hL hf hi hj hk)
  · unfold InHalo along
    interval_cases d <;> simp <;> omega
  · intro _ _
    unfold along at *
    interval_cases d <;> simp at * <;> omega
  · intro _ _
    unfold along at *
    interval_cases d <;> simp at * <;> omega

theorem getPacked_congr {L : Layout} {f : ℕ} {debug : Bool} {s t : Stencil}
    (h : getNaturalIndexS debug L.toMeshInfo f s = getNaturalIndexS debug L.toMeshInfo f t) :
    L.getPackedGlobalIndex debug f s = L.getPackedGlobalIndex debug f t := by
  unfold getPackedGlobalIndex getGlobalIndex
  rw [h]

/-- beyond a wall -/
theorem col_wall {L : Layout} (hL : LayoutOK L) {f : ℕ} (hf : f < L.dim ∨ f = 3) (debug : Bool) {s : Stencil}
    (hs : Inside L.toMeshInfo f s) {d : ℕ} (hd : d < 3) (hp : L.periodic 0 d = false) {x : ℤ}
    (hx : x = -1 ∨ x = L.n f d) :
    L.getPackedGlobalIndex debug f (along s d x) = .ok (-1) ∧ col L f (along s d x) = -1 := by
  have key : ∀ db, L.getPackedGlobalIndex db f (along s d x) = .ok (-1) := by
    intro db
    refine (C05_outside_stays_outside db L hL f hf _ ?_).2
    rw [natural_along hL hf db hs hd (by omega)]
    congr 1
    unfold indexOrMinusOne along image
    interval_cases d <;> simp [hp] <;>
      rcases hx with rfl | rfl <;> simp
  refine ⟨key debug, ?_⟩
  unfold col; rw [key false]

/-- beyond a periodic side -/
theorem col_periodic {L : Layout} (hL : LayoutOK L) {f : ℕ} (hf : f < L.dim ∨ f = 3) (debug : Bool) {s : Stencil}
    (hs : Inside L.toMeshInfo f s) {d : ℕ} (hd : d < 3) (hp : L.periodic 0 d = true) {x : ℤ}
    (hx : x = -1 ∨ x = L.n f d) :
    L.getPackedGlobalIndex debug f (along s d x) = L.getPackedGlobalIndex debug f (along s d (x % L.n f d)) ∧
    col L f (along s d x) = col L f (along s d (x % L.n f d)) ∧ Inside L.toMeshInfo f (along s d (x % L.n f d)) := by
  have hn : 0 < L.n f d := by have := hs.1 d hd; omega
  have hm0 : 0 ≤ x % L.n f d := Int.emod_nonneg _ (by omega)
  have hm1 : x % L.n f d < L.n f d := Int.emod_lt_of_pos _ (by omega)
  have key : ∀ db, L.getPackedGlobalIndex db f (along s d x) = L.getPackedGlobalIndex db f (along s d (x % L.n f d)) := by
    intro db
    apply getPacked_congr
    rw [natural_along hL hf db hs hd (by omega), natural_along hL hf db hs hd (by omega)]
    congr 1
    have e : ¬ (0 ≤ x ∧ x < L.n f d) := by omega
    have h1 : image (L.periodic 0 d) (L.n f d) x = some (x % L.n f d) := by
      unfold image; rw [if_neg e, if_pos hp]
    have h2 : image (L.periodic 0 d) (L.n f d) (x % L.n f d) = some (x % L.n f d) := by
      unfold image; rw [if_pos ⟨hm0, hm1⟩]
    unfold indexOrMinusOne along
    interval_cases d
    · simp only [if_true, h1, h2]
    · simp only [one_ne_zero, if_false, if_true, h1, h2]
    · simp only [OfNat.ofNat_ne_zero, OfNat.ofNat_ne_one, if_false, h1, h2]
  refine ⟨key debug, ?_, hs.along d hd _ ⟨hm0, hm1⟩⟩
  unfold col; rw [key false]

/-- Every neighbour has a packed index, or -1. -/
theorem col_neighbour {L : Layout} (hL : LayoutOK L) {f : ℕ} (hf : f < L.dim ∨ f = 3) (debug : Bool) {s : Stencil}
    (hs : Inside L.toMeshInfo f s) {d : ℕ} (hd : d < 3) {x : ℤ} (hx : -1 ≤ x ∧ x ≤ L.n f d) :
    L.getPackedGlobalIndex debug f (along s d x) = .ok (col L f (along s d x)) ∧
    (0 ≤ col L f (along s d x) ∧ col L f (along s d x) < vecSize L f ∨ col L f (along s d x) = -1) ∧
    (col L f (along s d x) = -1 ↔ L.periodic 0 d = false ∧ (x = -1 ∨ x = L.n f d)) := by
  by_cases hin : 0 ≤ x ∧ x < L.n f d
  · obtain ⟨h1, h2, h3⟩ := col_inside hL hf debug (hs.along d hd x hin)
    exact ⟨h1, Or.inl ⟨h2, h3⟩, by omega⟩
  · have hx' : x = -1 ∨ x = L.n f d := by omega
    cases hp : L.periodic 0 d with
    | false =>
      obtain ⟨h1, h2⟩ := col_wall hL hf debug hs hd hp hx'
      rw [h2]
      exact ⟨h1, Or.inr rfl, by simp [hx']⟩
    | true =>
      obtain ⟨h1, h2, h3⟩ := col_periodic hL hf debug hs hd hp hx'
      obtain ⟨g1, g2, g3⟩ := col_inside hL hf debug h3
      rw [h1, h2]
      exact ⟨g1, Or.inl ⟨g2, g3⟩, by constructor <;> intro h <;> [omega; simp at h]⟩

end PetIBM
