/-
Points, widths and coordinates in two systems of coordinates.
-/
import Verif.Spec.Turn
import Verif.Lemmas.ProcessesRun
import Verif.Lemmas.Probe
import Verif.Lemmas.ProbePoint
import Verif.Lemmas.Energy

set_option linter.unusedSectionVars false

namespace PetIBM

open Spec

variable {K : Type} [Field K] [LinearOrder K] [IsStrictOrderedRing K]
variable {t : Turn} {debug : Bool} {L₁ L₂ : Layout} {G₁ G₂ : Geom K} {axes₁ axes₂ : ℕ → Axis K} {T₁ T₂ : BCTable K} {B₁ B₂ : ℕ → Boundary K}

/-! ### The turn -/

theorem sign_sq (t : Turn) (d : ℕ) : t.sign d * t.sign d = (1 : K) := by
  unfold Turn.sign
  split_ifs <;> norm_num

theorem sign_mul (t : Turn) (d : ℕ) (x : K) : t.sign d * (t.sign d * x) = x := by
  rw [← mul_assoc, sign_sq, one_mul]

theorem Spec.Turn.OK.lt (h : t.OK L₁) {d : ℕ} (hd : d < L₁.dim) : t.perm d < L₁.dim := by
  by_contra hc
  have := (h.rest (t.perm d) (by omega)).1
  have := t.perm.injective this
  omega

theorem Spec.Turn.OK.symm_lt (h : t.OK L₁) {d : ℕ} (hd : d < L₁.dim) : t.perm.symm d < L₁.dim := by
  by_contra hc
  have := (h.rest (t.perm.symm d) (by omega)).1
  rw [Equiv.apply_symm_apply] at this
  omega

theorem Spec.Turn.OK.lt3 (h : t.OK L₁) (h3 : L₁.dim ≤ 3) {d : ℕ} (hd : d < 3) : t.perm d < 3 := by
  by_cases hc : d < L₁.dim
  · have := h.lt hc
    omega
  · rw [(h.rest d (by omega)).1]
    exact hd

theorem Spec.Turn.OK.symm_lt3 (h : t.OK L₁) (h3 : L₁.dim ≤ 3) {d : ℕ} (hd : d < 3) : t.perm.symm d < 3 := by
  by_cases hc : d < L₁.dim
  · have := h.symm_lt hc
    omega
  · rw [t.perm.symm_apply_eq.2 (h.rest d (by omega)).1.symm]
    exact hd

theorem Spec.Turn.OK.three (h : t.OK L₁) (h3 : L₁.dim ≤ 3) : t.perm 3 = 3 := (h.rest 3 h3).1

theorem Spec.Turn.OK.sign_three (h : t.OK L₁) (h3 : L₁.dim ≤ 3) : (t.sign 3 : K) = 1 := by
  unfold Turn.sign
  rw [(h.rest 3 h3).2]
  rfl

theorem Spec.Turn.OK.field (h : t.OK L₁) (h3 : L₁.dim ≤ 3) {f : ℕ} (hf : f < L₁.dim ∨ f = 3) : t.perm f < L₁.dim ∨ t.perm f = 3 := by
  rcases hf with hf | rfl
  · exact Or.inl (h.lt hf)
  · exact Or.inr (h.three h3)

theorem Spec.Turn.OK.sum (h : t.OK L₁) (g : ℕ → K) : ∑ e ∈ Finset.range L₁.dim, g e = ∑ d ∈ Finset.range L₁.dim, g (t.perm d) := by
  refine (Finset.sum_nbij' t.perm t.perm.symm ?_ ?_ ?_ ?_ ?_).symm
  · intro d hd
    exact Finset.mem_range.2 (h.lt (Finset.mem_range.1 hd))
  · intro d hd
    exact Finset.mem_range.2 (h.symm_lt (Finset.mem_range.1 hd))
  · intro d _
    exact t.perm.symm_apply_apply d
  · intro d _
    exact t.perm.apply_symm_apply d
  · intro d _
    rfl

/-! ### Points -/

/-- index `i` of direction `d` of field `f` in the second system -/
def turnIdx (t : Turn) (M : MeshInfo) (f d : ℕ) (i : ℤ) : ℤ := if t.flip d then (M.n f d : ℤ) - 1 - i else i

theorem turnIdx_idx (t : Turn) (M : MeshInfo) (f d : ℕ) (i : ℤ) : turnIdx t M f d (turnIdx t M f d i) = i := by
  unfold turnIdx
  split_ifs <;> ring

theorem coordOf_point (h : t.OK L₁) (h3 : L₁.dim ≤ 3) (M : MeshInfo) (f : ℕ) (s : Stencil) {d : ℕ} (hd : d < 3) :
    coordOf (t.point M f s) (t.perm d) = turnIdx t M f d (coordOf s d) := by
  have hp := h.lt3 h3 hd
  have : coordOf (t.point M f s) (t.perm d) = turnIdx t M f (t.perm.symm (t.perm d)) (coordOf s (t.perm.symm (t.perm d))) := by
    generalize t.perm d = e at hp ⊢
    unfold Turn.point turnIdx
    interval_cases e <;> simp [coordOf]
  rw [this, Equiv.symm_apply_apply]

theorem point_ext (h : t.OK L₁) (h3 : L₁.dim ≤ 3) {s u : Stencil} (hd : ∀ d, d < 3 → coordOf s (t.perm d) = coordOf u (t.perm d)) (hc : s.c = u.c) :
    s = u := by
  refine stencil_ext (fun e he => ?_) hc
  have := hd (t.perm.symm e) (h.symm_lt3 h3 he)
  rwa [Equiv.apply_symm_apply] at this

/-- the point of the first system -/
def turnBack (t : Turn) (M : MeshInfo) (f : ℕ) (s : Stencil) : Stencil :=
  ⟨turnIdx t M f 2 (coordOf s (t.perm 2)), turnIdx t M f 1 (coordOf s (t.perm 1)), turnIdx t M f 0 (coordOf s (t.perm 0)), s.c⟩

theorem coordOf_turnBack (t : Turn) (M : MeshInfo) (f : ℕ) (s : Stencil) {d : ℕ} (hd : d < 3) :
    coordOf (turnBack t M f s) d = turnIdx t M f d (coordOf s (t.perm d)) := by
  unfold turnBack
  interval_cases d <;> simp [coordOf]

theorem point_turnBack (h : t.OK L₁) (h3 : L₁.dim ≤ 3) (M : MeshInfo) (f : ℕ) (s : Stencil) : t.point M f (turnBack t M f s) = s := by
  refine point_ext h h3 (fun d hd => ?_) rfl
  rw [coordOf_point h h3 M f _ hd, coordOf_turnBack t M f s hd, turnIdx_idx]

theorem turnBack_point (h : t.OK L₁) (h3 : L₁.dim ≤ 3) (M : MeshInfo) (f : ℕ) (s : Stencil) : turnBack t M f (t.point M f s) = s := by
  refine stencil_ext (fun d hd => ?_) rfl
  rw [coordOf_turnBack t M f _ hd, coordOf_point h h3 M f s hd, turnIdx_idx]

theorem point_along (h : t.OK L₁) (h3 : L₁.dim ≤ 3) (M : MeshInfo) (f : ℕ) (s : Stencil) {d : ℕ} (hd : d < 3) (x : ℤ) :
    t.point M f (along s d x) = along (t.point M f s) (t.perm d) (turnIdx t M f d x) := by
  refine point_ext h h3 (fun e he => ?_) (by rw [along_c]; unfold Turn.point; simp only [along_c])
  rw [coordOf_point h h3 M f _ he, coordOf_along _ _ _ _ (h.lt3 h3 hd) (h.lt3 h3 he), coordOf_along _ _ _ _ hd he]
  by_cases hde : e = d
  · rw [if_pos hde, if_pos (by rw [hde]), hde]
  · rw [if_neg hde, if_neg fun hc => hde (t.perm.injective hc), coordOf_point h h3 M f s he]

/-- orientation of an axis -/
def turnStep (t : Turn) (d : ℕ) (x : ℤ) : ℤ := if t.flip d then -x else x

theorem point_shift (h : t.OK L₁) (h3 : L₁.dim ≤ 3) (M : MeshInfo) (f : ℕ) (s : Stencil) {d : ℕ} (hd : d < 3) (x : ℤ) :
    t.point M f (shift s d x) = shift (t.point M f s) (t.perm d) (turnStep t d x) := by
  unfold shift
  rw [point_along h h3 M f s hd, coordOf_point h h3 M f s hd]
  congr 1
  unfold turnIdx turnStep
  split_ifs <;> ring

theorem Spec.Turn.OK.side_div (t : Turn) (loc : ℕ) : t.side loc / 2 = t.perm (loc / 2) := by
  unfold Turn.side
  split_ifs <;> omega

theorem Spec.Turn.OK.side_mod (t : Turn) (loc : ℕ) : t.side loc % 2 = if t.flip (loc / 2) then 1 - loc % 2 else loc % 2 := by
  unfold Turn.side
  split_ifs <;> omega

theorem Spec.Turn.OK.side_lt (h : t.OK L₁) {loc : ℕ} (hl : loc < L₁.dim * 2) : t.side loc < L₁.dim * 2 := by
  have := h.lt (show loc / 2 < L₁.dim by omega)
  unfold Turn.side
  split_ifs <;> omega

theorem Spec.Turn.OK.exists_side (h : t.OK L₁) {loc : ℕ} (hl : loc < L₁.dim * 2) : ∃ l, l < L₁.dim * 2 ∧ t.side l = loc := by
  have h1 := h.symm_lt (show loc / 2 < L₁.dim by omega)
  refine ⟨2 * t.perm.symm (loc / 2) + if t.flip (t.perm.symm (loc / 2)) then 1 - loc % 2 else loc % 2, by split_ifs <;> omega, ?_⟩
  have e : (2 * t.perm.symm (loc / 2) + if t.flip (t.perm.symm (loc / 2)) then 1 - loc % 2 else loc % 2) / 2 = t.perm.symm (loc / 2) := by
    split_ifs <;> omega
  unfold Turn.side
  rw [e, Equiv.apply_symm_apply]
  split_ifs <;> omega

theorem point_nbr (h : t.OK L₁) (h3 : L₁.dim ≤ 3) (M : MeshInfo) (f : ℕ) (s : Stencil) {loc : ℕ} (hl : loc < 6) :
    t.point M f (nbr loc s) = nbr (t.side loc) (t.point M f s) := by
  have := point_shift h h3 M f s (show loc / 2 < 3 by omega) (if loc % 2 = 0 then -1 else 1)
  unfold shift at this
  unfold nbr
  rw [this, Turn.OK.side_div]
  congr 2
  unfold turnStep
  rw [Turn.OK.side_mod]
  have := Nat.mod_two_eq_zero_or_one loc
  rcases this with h | h <;> rw [h] <;> split_ifs <;> simp_all

/-! ### Coordinates and widths -/

theorem length_mirrored (a : Axis K) : (mirrored a).dL.length = a.dL.length := by simp [mirrored]

theorem vert_mirrored {a : Axis K} (ha : AxisOK a) {i : ℕ} (_ : i ≤ a.dL.length) : vert (mirrored a) i = -vert a (a.dL.length - i) := by
  unfold vert mirrored
  dsimp only
  rw [List.take_reverse, List.sum_reverse, ha.total]
  have := List.sum_take_add_sum_drop a.dL (a.dL.length - i)
  linear_combination this

theorem centre_mirrored {a : Axis K} (ha : AxisOK a) {i : ℕ} (hi : i < a.dL.length) : centre (mirrored a) i = -centre a (a.dL.length - 1 - i) := by
  unfold centre
  rw [vert_mirrored ha (by omega), vert_mirrored ha (by omega), show a.dL.length - 1 - i + 1 = a.dL.length - i by omega,
    show a.dL.length - (i + 1) = a.dL.length - 1 - i by omega]
  ring

section Values
variable {L : Layout} {G : Geom K} {axes : ℕ → Axis K}

theorem normal_values (S : Setup L G axes) {f : ℕ} (hf : f < L.dim) (hp : L.periodic 0 f = false) :
    L.n f f + 1 = (axes f).dL.length ∧ (∀ i : ℤ, -1 ≤ i → i ≤ L.n f f → G.coord f f i = vert (axes f) (i + 1).toNat) ∧
      ∀ i : ℕ, i < L.n f f → G.dL f f i = centre (axes f) (i + 1) - centre (axes f) i := by
  have h3 := S.dim_le
  obtain ⟨A, hA, h1, h2, h4, -⟩ := normalAxis_nonper (S.axesOK f hf)
  have e : fieldAxis L.dim axes L.periodic f f = .ok A := by
    simp [fieldAxis, hf, show f < 3 by omega, S.periodic f f hf (by omega), hp, hA]
  obtain ⟨g, w⟩ := S.geom f f (by omega) (by omega) A e
  have c := S.counts f f (by omega) (by omega) A e
  rw [c]
  exact ⟨h1, fun i i0 i1 => g _ _ (h2 i i0 i1), fun i hi => w _ _ (h4 i hi)⟩

theorem tangent_values (S : Setup L G axes) {f d : ℕ} (hf : f < L.dim) (hd : d < L.dim) (hfd : d ≠ f) (hp : L.periodic 0 d = false) :
    L.n f d = (axes d).dL.length ∧ (∀ i : ℕ, i < L.n f d → G.coord f d i = centre (axes d) i ∧ G.dL f d i = vert (axes d) (i + 1) - vert (axes d) i) ∧
      G.coord f d (-1) = 2 * (axes d).min - centre (axes d) 0 ∧ G.coord f d (L.n f d) = 2 * (axes d).max - centre (axes d) (L.n f d - 1) := by
  have h3 := S.dim_le
  obtain ⟨A, hA, h1, h2, h4, -⟩ := tangentAxis_ok (S.axesOK d hd) false
  have e : fieldAxis L.dim axes L.periodic f d = .ok A := by
    simp [fieldAxis, hf, hd, hfd, show f < 3 by omega, S.periodic f d hf (by omega), hp, hA]
  obtain ⟨g, w⟩ := S.geom f d (by omega) (by omega) A e
  have c := S.counts f d (by omega) (by omega) A e
  obtain ⟨k1, k2, -⟩ := h4 rfl
  rw [c]
  exact ⟨h1, fun i hi => ⟨g _ _ (h2 i hi).1, w _ _ (h2 i hi).2⟩, g _ _ k1, g _ _ k2⟩

theorem values_total (S : Setup L G axes) {f d : ℕ} (hf : f < L.dim) (hd : d < L.dim) : ∃ A, fieldAxis L.dim axes L.periodic f d = .ok A ∧
    (∀ i : ℤ, -1 ≤ i → i ≤ L.n f d → A.coord i = .ok (G.coord f d i)) ∧ ∀ i : ℤ, 0 ≤ i → i < L.n f d → A.dL i = .ok (G.dL f d i) := by
  have h3 := S.dim_le
  obtain ⟨A, hA, _, h⟩ := C08_ghosts_and_order (periodic := L.periodic) f d h3 hf hd (S.axesOK d hd)
  obtain ⟨g, w⟩ := S.geom f d (by omega) (by omega) A hA
  have c := S.counts f d (by omega) (by omega) A hA
  refine ⟨A, hA, fun i i0 i1 => ?_, fun i i0 i1 => ?_⟩
  · by_cases hi : i < A.n
    · obtain ⟨x, y, hx, -, -⟩ := h i i0 hi
      rw [hx, g _ _ hx]
    · obtain ⟨x, y, -, hy, -⟩ := h (i - 1) (by omega) (by omega)
      rw [sub_add_cancel] at hy
      rw [hy, g _ _ hy]
  · obtain ⟨m, rfl⟩ := Int.eq_ofNat_of_zero_le i0
    suffices ∃ x, A.dL m = .ok x by
      obtain ⟨x, hx⟩ := this
      rw [hx, w _ _ hx]
    rw [c] at i1
    by_cases hdf : d = f
    · subst hdf
      cases hp : L.periodic d d with
      | false =>
        obtain ⟨A', hA', h1, h2, h4, -⟩ := normalAxis_nonper (S.axesOK d hd)
        have e : fieldAxis L.dim axes L.periodic d d = .ok A' := by
          simp [fieldAxis, hd, show d < 3 by omega, hp, hA']
        rw [hA] at e
        cases e
        exact ⟨_, h4 m (by omega)⟩
      | true =>
        obtain ⟨A', hA', h1, -, -, h4, h5, -⟩ := normalAxis_per (S.axesOK d hd)
        have e : fieldAxis L.dim axes L.periodic d d = .ok A' := by
          simp [fieldAxis, hd, show d < 3 by omega, hp, hA']
        rw [hA] at e
        cases e
        by_cases hm : m + 1 < A.n
        · exact ⟨_, h4 m hm⟩
        · exact ⟨_, h5 m (Or.inr (by omega))⟩
    · obtain ⟨A', hA', h1, h2, -⟩ := tangentAxis_ok (S.axesOK d hd) (L.periodic f d)
      have e : fieldAxis L.dim axes L.periodic f d = .ok A' := by
        simp [fieldAxis, hf, hd, hdf, show f < 3 by omega, hA']
      rw [hA] at e
      cases e
      exact ⟨_, (h2 m (by omega)).2⟩

end Values

section Geometry
variable (D : Turned t L₁ L₂ axes₁ axes₂ T₁ T₂) (S₁ : Setup L₁ G₁ axes₁) (S₂ : Setup L₂ G₂ axes₂)
include D S₁ S₂

theorem turn_length {d : ℕ} (hd : d < L₁.dim) : (axes₂ (t.perm d)).dL.length = (axes₁ d).dL.length := by
  rw [D.axes d hd]
  split_ifs
  · exact length_mirrored _
  · rfl

theorem turn_n {f d : ℕ} (hf : f < L₁.dim ∨ f = 3) (hd : d < 3) : L₂.n (t.perm f) (t.perm d) = L₁.n f d := by
  have h3 := S₁.dim_le
  have hp3 : ∀ e, e < 3 → L₂.n 3 (t.perm e) = L₁.n 3 e := by
    intro e he
    by_cases hc : e < L₁.dim
    · have e1 : fieldAxis L₁.dim axes₁ L₁.periodic 3 e = .ok (pressureAxis (axes₁ e)) := by simp [fieldAxis, hc]
      have e2 : fieldAxis L₂.dim axes₂ L₂.periodic 3 (t.perm e) = .ok (pressureAxis (axes₂ (t.perm e))) := by
        simp [fieldAxis, D.dim, D.turn.lt hc]
      rw [S₁.counts 3 e (by omega) (by omega) _ e1, S₂.counts 3 _ (by omega) (D.turn.lt3 h3 he) _ e2]
      exact turn_length D S₁ S₂ hc
    · rw [(D.turn.rest e (by omega)).1]
      have e1 : fieldAxis L₁.dim axes₁ L₁.periodic 3 e = .ok flatAxis := by simp [fieldAxis, hc]
      have e2 : fieldAxis L₂.dim axes₂ L₂.periodic 3 e = .ok flatAxis := by simp [fieldAxis, D.dim, hc]
      rw [S₁.counts 3 e (by omega) (by omega) _ e1, S₂.counts 3 e (by omega) (by omega) _ e2]
  rcases hf with hf | rfl
  · obtain ⟨a1, a2, a3⟩ := S₁.staggered f hf
    obtain ⟨b1, b2, b3⟩ := S₂.staggered (t.perm f) (by rw [D.dim]; exact D.turn.lt hf)
    by_cases hdf : d = f
    · subst hdf
      have hp := D.periodic d hf
      have := hp3 d hd
      cases h : L₁.periodic 0 d with
      | true =>
        rw [h] at hp
        rw [b2 hp, a2 h, this]
      | false =>
        rw [h] at hp
        have := b3 hp
        have := a3 h
        omega
    · rw [b1 _ (D.turn.lt3 h3 hd) fun hc => hdf (t.perm.injective hc), a1 d hd hdf]
      exact hp3 d hd
  · rw [D.turn.three h3]
    exact hp3 d hd

theorem turn_axis {f d : ℕ} (hf : f < L₁.dim) (hd : d < L₁.dim) (h : t.flip d = false) :
    fieldAxis L₂.dim axes₂ L₂.periodic (t.perm f) (t.perm d) = fieldAxis L₁.dim axes₁ L₁.periodic f d := by
  have h3 := S₁.dim_le
  have p1 := D.turn.lt hf
  have p2 := D.turn.lt hd
  have a := D.axes d hd
  rw [h] at a
  simp only [Bool.false_eq_true, if_false] at a
  have per : L₂.periodic (t.perm f) (t.perm d) = L₁.periodic f d := by
    rw [S₂.periodic _ _ (by rw [D.dim]; exact p1) (by omega), S₁.periodic _ _ hf (by omega), D.periodic d hd]
  unfold fieldAxis
  rw [D.dim, if_pos (show t.perm f < 3 by omega), if_pos (show f < 3 by omega), if_pos (show t.perm f < L₁.dim ∧ t.perm d < L₁.dim from ⟨p1, p2⟩),
    if_pos (show f < L₁.dim ∧ d < L₁.dim from ⟨hf, hd⟩), per, a]
  by_cases hdf : d = f
  · rw [if_pos hdf, if_pos (by rw [hdf])]
  · rw [if_neg hdf, if_neg fun hc => hdf (t.perm.injective hc)]

theorem turn_coord {f d : ℕ} (hf : f < L₁.dim) (hd : d < L₁.dim) {i : ℤ} (i0 : -1 ≤ i) (i1 : i ≤ L₁.n f d) :
    G₂.coord (t.perm f) (t.perm d) (turnIdx t L₁.toMeshInfo f d i) = t.sign d * G₁.coord f d i := by
  have h3 := S₁.dim_le
  have f2 : t.perm f < L₂.dim := by rw [D.dim]; exact D.turn.lt hf
  have d2 : t.perm d < L₂.dim := by rw [D.dim]; exact D.turn.lt hd
  have hn := turn_n D S₁ S₂ (Or.inl hf) (show d < 3 by omega)
  cases hfl : t.flip d with
  | false =>
    obtain ⟨A, hA, g, -⟩ := values_total S₁ hf hd
    rw [← turn_axis D S₁ S₂ hf hd hfl] at hA
    have := (S₂.geom _ _ (by have := S₂.dim_le; omega) (by have := S₂.dim_le; omega) A hA).1 i _ (g i i0 i1)
    simp only [turnIdx, hfl, Turn.sign, Bool.false_eq_true, if_false, one_mul]
    exact this
  | true =>
    have ha := S₁.axesOK d hd
    have hp : L₁.periodic 0 d = false := by
      cases h : L₁.periodic 0 d with
      | false => rfl
      | true => rw [D.turn.periodic d hd h] at hfl; cases hfl
    have hp2 : L₂.periodic 0 (t.perm d) = false := by rw [D.periodic d hd, hp]
    have hax := D.axes d hd
    rw [hfl] at hax
    simp only [if_true] at hax
    simp only [turnIdx, hfl, Turn.sign, if_true, neg_mul, one_mul]
    by_cases hdf : d = f
    · subst hdf
      obtain ⟨a1, a2, -⟩ := normal_values S₁ hf hp
      obtain ⟨b1, b2, -⟩ := normal_values S₂ f2 hp2
      rw [hn] at b2
      rw [a2 i i0 i1, b2 _ (by omega) (by omega), hax, vert_mirrored ha (by omega)]
      congr 2
      omega
    · obtain ⟨a1, a2, a3, a4⟩ := tangent_values S₁ hf hd hdf hp
      obtain ⟨b1, b2, b3, b4⟩ := tangent_values S₂ f2 d2 (fun hc => hdf (t.perm.injective hc)) hp2
      have pos : 0 < (axes₁ d).dL.length := List.length_pos_iff.2 ha.nonempty
      rw [hn] at b2 b4
      rw [hax] at b2 b3 b4
      rcases lt_trichotomy i (-1) with h | h | h
      · omega
      · subst h
        rw [show (L₁.n f d : ℤ) - 1 - -1 = L₁.n f d by ring, b4, a3, centre_mirrored ha (by omega), a1,
          show (axes₁ d).dL.length - 1 - ((axes₁ d).dL.length - 1) = 0 by omega]
        simp only [mirrored]
        ring
      · obtain ⟨m, rfl⟩ := Int.eq_ofNat_of_zero_le (show 0 ≤ i by omega)
        by_cases hm : m < L₁.n f d
        · rw [(a2 m hm).1, show (L₁.n f d : ℤ) - 1 - (m : ℤ) = ((L₁.n f d - 1 - m : ℕ) : ℤ) by omega, (b2 _ (by omega)).1,
            centre_mirrored ha (by omega)]
          congr 2
          omega
        · have : m = L₁.n f d := by omega
          subst this
          rw [show (L₁.n f d : ℤ) - 1 - (L₁.n f d : ℤ) = -1 by ring, b3, a4, centre_mirrored ha (by omega), a1, Nat.sub_zero]
          simp only [mirrored]
          ring

theorem turn_pcoord {d : ℕ} (hd : d < L₁.dim) {i : ℤ} (i0 : 0 ≤ i) (i1 : i < L₁.n 3 d) :
    G₂.coord 3 (t.perm d) (turnIdx t L₁.toMeshInfo 3 d i) = t.sign d * G₁.coord 3 d i := by
  have h3 := S₁.dim_le
  have d2 : t.perm d < L₂.dim := by rw [D.dim]; exact D.turn.lt hd
  have hn := turn_n D S₁ S₂ (Or.inr rfl : 3 < L₁.dim ∨ 3 = 3) (show d < 3 by omega)
  rw [D.turn.three h3] at hn
  obtain ⟨m, rfl⟩ := Int.eq_ofNat_of_zero_le i0
  have hm : m < L₁.n 3 d := by omega
  obtain ⟨-, e1, c1⟩ := S₁.coord_pressure hd hm
  have hax := D.axes d hd
  cases hfl : t.flip d with
  | false =>
    rw [hfl] at hax
    simp only [Bool.false_eq_true, if_false] at hax
    obtain ⟨-, e2, -⟩ := S₂.coord_pressure d2 (show m < L₂.n 3 (t.perm d) by omega)
    simp only [turnIdx, hfl, Turn.sign, Bool.false_eq_true, if_false, one_mul]
    rw [e1, e2, hax]
  | true =>
    rw [hfl] at hax
    simp only [if_true] at hax
    obtain ⟨-, e2, -⟩ := S₂.coord_pressure d2 (show L₁.n 3 d - 1 - m < L₂.n 3 (t.perm d) by omega)
    simp only [turnIdx, hfl, Turn.sign, if_true, neg_mul, one_mul]
    rw [show (L₁.n 3 d : ℤ) - 1 - (m : ℤ) = ((L₁.n 3 d - 1 - m : ℕ) : ℤ) by omega, e1, e2, hax, centre_mirrored (S₁.axesOK d hd) (by omega)]
    congr 2
    omega

theorem turn_width {f d : ℕ} (hf : f < L₁.dim) (hd : d < 3) {i : ℤ} (i0 : 0 ≤ i) (i1 : i < L₁.n f d) :
    G₂.dL (t.perm f) (t.perm d) (turnIdx t L₁.toMeshInfo f d i) = G₁.dL f d i := by
  have h3 := S₁.dim_le
  have f2 : t.perm f < L₂.dim := by rw [D.dim]; exact D.turn.lt hf
  by_cases hdim : d < L₁.dim
  · have d2 : t.perm d < L₂.dim := by rw [D.dim]; exact D.turn.lt hdim
    have hn := turn_n D S₁ S₂ (Or.inl hf) hd
    cases hfl : t.flip d with
    | false =>
      obtain ⟨A, hA, -, w⟩ := values_total S₁ hf hdim
      rw [← turn_axis D S₁ S₂ hf hdim hfl] at hA
      have := (S₂.geom _ _ (by have := S₂.dim_le; omega) (by have := S₂.dim_le; omega) A hA).2 i _ (w i i0 i1)
      simp only [turnIdx, hfl, Bool.false_eq_true, if_false]
      exact this
    | true =>
      have ha := S₁.axesOK d hdim
      have hp : L₁.periodic 0 d = false := by
        cases h : L₁.periodic 0 d with
        | false => rfl
        | true => rw [D.turn.periodic d hdim h] at hfl; cases hfl
      have hp2 : L₂.periodic 0 (t.perm d) = false := by rw [D.periodic d hdim, hp]
      have hax := D.axes d hdim
      rw [hfl] at hax
      simp only [if_true] at hax
      simp only [turnIdx, hfl, if_true]
      obtain ⟨m, rfl⟩ := Int.eq_ofNat_of_zero_le i0
      rw [show (L₁.n f d : ℤ) - 1 - (m : ℤ) = ((L₁.n f d - 1 - m : ℕ) : ℤ) by omega]
      by_cases hdf : d = f
      · subst hdf
        obtain ⟨a1, -, a2⟩ := normal_values S₁ hf hp
        obtain ⟨b1, -, b2⟩ := normal_values S₂ f2 hp2
        rw [hn] at b2
        rw [a2 m (by omega), b2 _ (by omega), hax, centre_mirrored ha (by omega), centre_mirrored ha (by omega),
          show (axes₁ d).dL.length - 1 - (L₁.n d d - 1 - m + 1) = m by omega,
          show (axes₁ d).dL.length - 1 - (L₁.n d d - 1 - m) = m + 1 by omega]
        ring
      · obtain ⟨a1, a2, -⟩ := tangent_values S₁ hf hdim hdf hp
        obtain ⟨b1, b2, -⟩ := tangent_values S₂ f2 d2 (fun hc => hdf (t.perm.injective hc)) hp2
        rw [hn] at b2
        rw [hax] at b2
        rw [(a2 m (by omega)).2, (b2 _ (by omega)).2, vert_mirrored ha (by omega), vert_mirrored ha (by omega),
          show (axes₁ d).dL.length - (L₁.n f d - 1 - m + 1) = m by omega,
          show (axes₁ d).dL.length - (L₁.n f d - 1 - m) = m + 1 by omega]
        ring
  · obtain ⟨r1, r2⟩ := D.turn.rest d (by omega)
    obtain ⟨a1, a2⟩ := S₁.flat_width hf (show L₁.dim ≤ d by omega) hd
    obtain ⟨b1, b2⟩ := S₂.flat_width f2 (show L₂.dim ≤ d by rw [D.dim]; omega) hd
    have : i = 0 := by omega
    subst this
    simp only [turnIdx, r1, r2, Bool.false_eq_true, if_false]
    rw [a2, b2]

theorem turn_inside {f : ℕ} (hf : f < L₁.dim ∨ f = 3) {s : Stencil} :
    Inside L₂.toMeshInfo (t.perm f) (t.point L₁.toMeshInfo f s) ↔ Inside L₁.toMeshInfo f s := by
  have h3 := S₁.dim_le
  have key : ∀ d, d < 3 → ((0 ≤ coordOf (t.point L₁.toMeshInfo f s) (t.perm d) ∧
      coordOf (t.point L₁.toMeshInfo f s) (t.perm d) < L₂.n (t.perm f) (t.perm d)) ↔ (0 ≤ coordOf s d ∧ coordOf s d < L₁.n f d)) := by
    intro d hd
    rw [coordOf_point D.turn h3 _ f s hd, turn_n D S₁ S₂ hf hd]
    unfold turnIdx
    split_ifs <;> omega
  constructor
  · intro h
    exact ⟨fun d hd => (key d hd).1 (h.1 _ (D.turn.lt3 h3 hd)), h.2⟩
  · intro h
    refine ⟨fun e he => ?_, h.2⟩
    have := (key (t.perm.symm e) (D.turn.symm_lt3 h3 he)).2 (h.1 _ (D.turn.symm_lt3 h3 he))
    rwa [Equiv.apply_symm_apply] at this

theorem turn_atSide {f loc : ℕ} (hf : f < L₁.dim) (hl : loc < L₁.dim * 2) {s : Stencil} :
    AtSide L₂.toMeshInfo (t.perm f) (t.side loc) (t.point L₁.toMeshInfo f s) ↔ AtSide L₁.toMeshInfo f loc s := by
  have h3 := S₁.dim_le
  unfold AtSide
  rw [Turn.OK.side_div, Turn.OK.side_mod, coordOf_point D.turn h3 _ f s (by omega), turn_n D S₁ S₂ (Or.inl hf) (by omega)]
  unfold turnIdx
  cases hfl : t.flip (loc / 2) <;> rcases Nat.mod_two_eq_zero_or_one loc with h | h <;> rw [h] <;> simp <;> omega

end Geometry

end PetIBM
