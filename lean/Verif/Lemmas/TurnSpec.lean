/-
Differences and fluxes in two systems of coordinates.
-/
import Verif.Lemmas.TurnOps

set_option linter.unusedSectionVars false

namespace PetIBM

open Spec

variable {K : Type} [Field K] [LinearOrder K] [IsStrictOrderedRing K]
variable {t : Turn} {debug : Bool} {L₁ L₂ : Layout} {G₁ G₂ : Geom K} {axes₁ axes₂ : ℕ → Axis K} {T₁ T₂ : BCTable K} {B₁ B₂ : ℕ → Boundary K}

variable (D : Turned t L₁ L₂ axes₁ axes₂ T₁ T₂) (S₁ : Setup L₁ G₁ axes₁) (S₂ : Setup L₂ G₂ axes₂)

theorem turn_shift (h : t.OK L₁) (h3 : L₁.dim ≤ 3) (M : MeshInfo) (f : ℕ) (s : Stencil) {d : ℕ} (hd : d < 3) (x : ℤ) :
    shift (t.point M f s) (t.perm d) x = t.point M f (shift s d (turnStep t d x)) := by
  rw [point_shift h h3 M f s hd]
  congr 1
  unfold turnStep
  split_ifs <;> ring

theorem shift_swap (s : Stencil) {f d : ℕ} (hd : d < 3) (hf : f < 3) (x y : ℤ) : shift (shift s d x) f y = shift (shift s f y) d x := by
  by_cases h : d = f
  · subst h
    rw [shift_shift hd, shift_shift hd, add_comm]
  · exact shift_comm hf hd h x y

include D S₁ S₂

theorem turn_nonper {d : ℕ} (hd : d < L₁.dim) (h : t.flip d = true) : L₁.periodic 0 d = false := by
  cases hp : L₁.periodic 0 d with
  | false => rfl
  | true => rw [D.turn.periodic d hd hp] at h; cases h

/-- the cell before a velocity point -/
theorem point_cell {f : ℕ} (hf : f < L₁.dim) (s : Stencil) :
    t.point L₁.toMeshInfo 3 s = t.point L₁.toMeshInfo f (shift s f (if t.flip f then -1 else 0)) := by
  have h3 := S₁.dim_le
  obtain ⟨a1, a2, a3⟩ := S₁.staggered f hf
  refine point_ext D.turn h3 (fun d hd => ?_) (by unfold Turn.point shift; simp only [along_c])
  rw [coordOf_point D.turn h3 _ _ _ hd, coordOf_point D.turn h3 _ _ _ hd, shift_coord _ _ (by omega) hd]
  unfold turnIdx
  by_cases hdf : d = f
  · subst hdf
    rw [if_pos rfl]
    cases hfl : t.flip d with
    | false => simp
    | true =>
      have := a3 (turn_nonper D S₁ S₂ hf hfl)
      simp only [if_true]
      omega
  · rw [if_neg hdf, a1 d hd hdf]

theorem cell_point {f : ℕ} (hf : f < L₁.dim) (s : Stencil) :
    t.point L₁.toMeshInfo f s = t.point L₁.toMeshInfo 3 (shift s f (if t.flip f then 1 else 0)) := by
  rw [point_cell D S₁ S₂ hf, shift_shift (by have := S₁.dim_le; omega)]
  have : ((if t.flip f then 1 else 0) + if t.flip f then -1 else 0 : ℤ) = 0 := by split_ifs <;> rfl
  rw [this, shift_zero (by have := S₁.dim_le; omega)]

theorem turn_secondDifference {f d : ℕ} (hf : f < L₁.dim) (hd : d < L₁.dim) {s : Stencil} (hs : Inside L₁.toMeshInfo f s) (V : ℕ → Stencil → K) :
    secondDifference G₂ (t.perm f) (t.perm d) (t.point L₁.toMeshInfo f s) (turnField t L₁.toMeshInfo V (t.perm f)) =
      t.sign f * secondDifference G₁ f d s (V f) := by
  have h3 := S₁.dim_le
  have hd3 : d < 3 := by omega
  have hx := hs.1 d hd3
  unfold secondDifference
  rw [turn_shift D.turn h3 _ _ _ hd3, turn_shift D.turn h3 _ _ _ hd3, turnField_point D.turn h3, turnField_point D.turn h3,
    turnField_point D.turn h3, coordOf_point D.turn h3 _ _ _ hd3, turn_width D S₁ S₂ hf hd3 hx.1 hx.2]
  have c0 := turn_coord D S₁ S₂ hf hd (i := coordOf s d) (by omega) (by omega)
  have c1 := turn_coord D S₁ S₂ hf hd (i := coordOf s d + 1) (by omega) (by omega)
  have c2 := turn_coord D S₁ S₂ hf hd (i := coordOf s d - 1) (by omega) (by omega)
  rw [c0]
  cases hfl : t.flip d with
  | false =>
    simp only [turnIdx, turnStep, hfl, Turn.sign, Bool.false_eq_true, if_false, one_mul] at c1 c2 ⊢
    rw [c1, c2]
    ring
  | true =>
    simp only [turnIdx, turnStep, hfl, Turn.sign, if_true, neg_mul, one_mul, neg_neg] at c1 c2 ⊢
    rw [show (L₁.n f d : ℤ) - 1 - (coordOf s d + 1) = L₁.n f d - 1 - coordOf s d - 1 by ring] at c1
    rw [show (L₁.n f d : ℤ) - 1 - (coordOf s d - 1) = L₁.n f d - 1 - coordOf s d + 1 by ring] at c2
    rw [c1, c2, show -G₁.coord f d (coordOf s d - 1) - -G₁.coord f d (coordOf s d) = G₁.coord f d (coordOf s d) - G₁.coord f d (coordOf s d - 1) by ring,
      show -G₁.coord f d (coordOf s d) - -G₁.coord f d (coordOf s d + 1) = G₁.coord f d (coordOf s d + 1) - G₁.coord f d (coordOf s d) by ring]
    ring

omit D S₁ S₂ in
theorem faceArea_prod (G : Geom K) {f d : ℕ} (hd : d < 3) (s : Stencil) :
    faceArea G f d s = ∏ e ∈ Finset.range 3, if e = d then 1 else G.dL f e (coordOf s e) := by
  unfold faceArea
  interval_cases d <;> simp [Finset.prod_range_succ, List.range_succ]

theorem turn_faceArea {f : ℕ} (hf : f < L₁.dim) {s : Stencil} (hs : Inside L₁.toMeshInfo 3 s) :
    faceArea G₂ (t.perm f) (t.perm f) (t.point L₁.toMeshInfo 3 s) = faceArea G₁ f f s := by
  have h3 := S₁.dim_le
  obtain ⟨a1, -, -⟩ := S₁.staggered f hf
  rw [faceArea_prod G₂ (D.turn.lt3 h3 (by omega)), faceArea_prod G₁ (by omega)]
  refine (Finset.prod_nbij' t.perm t.perm.symm ?_ ?_ ?_ ?_ ?_).symm
  · intro d hd
    exact Finset.mem_range.2 (D.turn.lt3 h3 (Finset.mem_range.1 hd))
  · intro d hd
    exact Finset.mem_range.2 (D.turn.symm_lt3 h3 (Finset.mem_range.1 hd))
  · intro d _
    exact t.perm.symm_apply_apply d
  · intro d _
    exact t.perm.apply_symm_apply d
  · intro d hd
    have hd := Finset.mem_range.1 hd
    by_cases hdf : d = f
    · rw [if_pos hdf, if_pos (by rw [hdf])]
    · rw [if_neg hdf, if_neg fun hc => hdf (t.perm.injective hc), coordOf_point D.turn h3 _ _ _ hd]
      have hx := hs.1 d hd
      rw [← a1 d hd hdf] at hx
      rw [← turn_width D S₁ S₂ hf hd hx.1 hx.2]
      unfold turnIdx
      rw [a1 d hd hdf]

theorem turn_netFlux {s : Stencil} (hs : Inside L₁.toMeshInfo 3 s) (V : ℕ → Stencil → K) :
    netFlux L₂.dim G₂ (t.point L₁.toMeshInfo 3 s) (turnField t L₁.toMeshInfo V) = netFlux L₁.dim G₁ s V := by
  have h3 := S₁.dim_le
  unfold netFlux
  rw [D.dim, D.turn.sum]
  refine Finset.sum_congr rfl fun f hf => ?_
  have hf := Finset.mem_range.1 hf
  have hf3 : f < 3 := by omega
  rw [turn_faceArea D S₁ S₂ hf hs, point_cell D S₁ S₂ hf, turn_shift D.turn h3 _ _ _ hf3, turnField_point D.turn h3, turnField_point D.turn h3,
    shift_shift hf3]
  unfold turnStep Turn.sign
  cases t.flip f with
  | false => simp [shift_zero hf3]
  | true =>
    simp [shift_zero hf3]
    ring

theorem turn_momentumFlux {f d : ℕ} (hf : f < L₁.dim) (hd : d < L₁.dim) (s : Stencil) (V : ℕ → Stencil → K) :
    momentumFlux (turnField t L₁.toMeshInfo V) (t.perm f) (t.perm d) (t.point L₁.toMeshInfo f s) =
      t.sign f * t.sign d * momentumFlux V f d (shift s d (if t.flip d then -1 else 0)) := by
  have h3 := S₁.dim_le
  have hf3 : f < 3 := by omega
  have hd3 : d < 3 := by omega
  have cross : ∀ u, t.point L₁.toMeshInfo f u = t.point L₁.toMeshInfo d (shift (shift u f (if t.flip f then 1 else 0)) d (if t.flip d then -1 else 0)) := by
    intro u
    rw [cell_point D S₁ S₂ hf, point_cell D S₁ S₂ hd]
  have one : turnField t L₁.toMeshInfo V (t.perm d) (t.point L₁.toMeshInfo f s) +
      turnField t L₁.toMeshInfo V (t.perm d) (shift (t.point L₁.toMeshInfo f s) (t.perm f) 1) =
      t.sign d * (V d (shift s d (if t.flip d then -1 else 0)) + V d (shift (shift s d (if t.flip d then -1 else 0)) f 1)) := by
    rw [turn_shift D.turn h3 _ _ _ hf3, cross, cross, turnField_point D.turn h3, turnField_point D.turn h3, shift_shift hf3,
      shift_swap s hd3 hf3]
    unfold turnStep
    cases t.flip f with
    | false => simp [shift_zero hf3]; ring
    | true => simp [shift_zero hf3]; ring
  have two : turnField t L₁.toMeshInfo V (t.perm f) (t.point L₁.toMeshInfo f s) +
      turnField t L₁.toMeshInfo V (t.perm f) (shift (t.point L₁.toMeshInfo f s) (t.perm d) 1) =
      t.sign f * (V f (shift s d (if t.flip d then -1 else 0)) + V f (shift (shift s d (if t.flip d then -1 else 0)) d 1)) := by
    rw [turn_shift D.turn h3 _ _ _ hd3, turnField_point D.turn h3, turnField_point D.turn h3, shift_shift hd3]
    unfold turnStep
    cases t.flip d with
    | false => simp [shift_zero hd3]; ring
    | true => simp [shift_zero hd3]; ring
  unfold momentumFlux
  rw [one, two]
  ring

theorem turn_convective {f : ℕ} (hf : f < L₁.dim) {s : Stencil} (hs : Inside L₁.toMeshInfo f s) (V : ℕ → Stencil → K) :
    convective L₂.dim G₂ (turnField t L₁.toMeshInfo V) (t.perm f) (t.point L₁.toMeshInfo f s) = t.sign f * convective L₁.dim G₁ V f s := by
  have h3 := S₁.dim_le
  unfold convective
  rw [D.dim, D.turn.sum, Finset.mul_sum]
  refine Finset.sum_congr rfl fun d hd => ?_
  have hd := Finset.mem_range.1 hd
  have hd3 : d < 3 := by omega
  have hx := hs.1 d hd3
  rw [turn_shift D.turn h3 _ _ _ hd3, turn_momentumFlux D S₁ S₂ hf hd, turn_momentumFlux D S₁ S₂ hf hd, coordOf_point D.turn h3 _ _ _ hd3,
    turn_width D S₁ S₂ hf hd3 hx.1 hx.2, shift_shift hd3]
  have : ∀ g, (t.sign g : K) = if t.flip g then -1 else 1 := fun _ => rfl
  rw [this d]
  unfold turnStep
  cases t.flip d with
  | false => simp [shift_zero hd3]; ring
  | true => simp [shift_zero hd3]; ring

theorem turn_gap {f : ℕ} (hf : f < L₁.dim) {s : Stencil} (hs : Inside L₁.toMeshInfo f s) :
    pressureGap L₂.toMeshInfo G₂ axes₂ (t.perm f) (coordOf (t.point L₁.toMeshInfo f s) (t.perm f)) = pressureGap L₁.toMeshInfo G₁ axes₁ f (coordOf s f) := by
  have h3 := S₁.dim_le
  have hf3 : f < 3 := by omega
  obtain ⟨-, b2, b3⟩ := S₁.staggered f hf
  have hn := turn_n D S₁ S₂ (Or.inr rfl : 3 < L₁.dim ∨ 3 = 3) hf3
  rw [D.turn.three h3] at hn
  have hx := hs.1 f hf3
  have hle := S₁.n_le f f hf hf3
  rw [coordOf_point D.turn h3 _ _ _ hf3]
  unfold pressureGap
  have hax := D.axes f hf
  rw [hn]
  have c := fun i i0 i1 => turn_pcoord D S₁ S₂ hf (i := i) i0 i1
  cases hfl : t.flip f with
  | false =>
    simp only [turnIdx, hfl, Turn.sign, Bool.false_eq_true, if_false, one_mul] at c hax ⊢
    rw [hax, c _ hx.1 (by omega), c 0 le_rfl (by omega)]
    split_ifs with h
    · rw [c _ (by omega) h]
    · rfl
  | true =>
    have := b3 (turn_nonper D S₁ S₂ hf hfl)
    simp only [turnIdx, hfl, Turn.sign, if_true, neg_mul, one_mul] at c ⊢
    rw [if_pos (by omega), if_pos (by omega)]
    have c0 := c (coordOf s f) (by omega) (by omega)
    have c1 := c (coordOf s f + 1) (by omega) (by omega)
    rw [show (L₁.n 3 f : ℤ) - 1 - coordOf s f = L₁.n f f - 1 - coordOf s f + 1 by omega] at c0
    rw [show (L₁.n 3 f : ℤ) - 1 - (coordOf s f + 1) = L₁.n f f - 1 - coordOf s f by omega] at c1
    rw [c0, c1]
    ring

/-- a pressure field of the first system, in the second one -/
theorem turn_stored {p₁ p₂ : ℤ → K} (hp : TurnCells t L₁ L₂ p₁ p₂) {P : Stencil → K} (hP : Stored debug L₁ 3 p₁ P) :
    Stored debug L₂ 3 p₂ fun s => P (turnBack t L₁.toMeshInfo 3 s) := by
  have h3 := S₁.dim_le
  have e3 := D.turn.three h3
  have back : ∀ s, Inside L₂.toMeshInfo 3 s → ∃ u, Inside L₁.toMeshInfo 3 u ∧ t.point L₁.toMeshInfo 3 u = s := by
    intro s hs
    rw [← e3] at hs
    exact turn_point_of D S₁ S₂ (Or.inr rfl) hs
  constructor
  · intro s idx hs hidx
    rw [(col_inside S₂.layout (Or.inr rfl) debug hs).1] at hidx
    cases hidx
    obtain ⟨u, hu, rfl⟩ := back s hs
    rw [turnBack_point D.turn h3, hp u hu, hP.inside u _ hu (col_inside S₁.layout (Or.inr rfl) debug hu).1]
  · intro s e x he hs hper hx
    obtain ⟨d, hd, rfl⟩ := turn_field_of D S₁ S₂ he
    obtain ⟨u, hu, rfl⟩ := back s hs
    rw [D.periodic d hd] at hper
    have hfl := D.turn.periodic d hd hper
    have hn := turn_n D S₁ S₂ (Or.inr rfl : 3 < L₁.dim ∨ 3 = 3) (show d < 3 by omega)
    rw [e3] at hn
    rw [hn] at hx ⊢
    have key : ∀ y, along (t.point L₁.toMeshInfo 3 u) (t.perm d) y = t.point L₁.toMeshInfo 3 (along u d y) := by
      intro y
      rw [point_along D.turn h3 _ _ _ (by omega)]
      simp [turnIdx, hfl]
    rw [key, key, turnBack_point D.turn h3, turnBack_point D.turn h3, hP.periodic u d x hd hu hper hx]

end PetIBM
