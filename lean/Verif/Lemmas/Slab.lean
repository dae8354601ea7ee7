/-
Points, widths, ghost points and fields of a plane flow in two and in three dimensions.
-/
import Verif.Spec.Slab
import Verif.Lemmas.TurnRun

set_option linter.unusedSectionVars false

namespace PetIBM

open Spec

variable {K : Type} [Field K] [LinearOrder K] [IsStrictOrderedRing K]
variable {debug : Bool} {L₁ L₂ : Layout} {G₁ G₂ : Geom K} {axes₁ axes₂ : ℕ → Axis K} {T₁ T₂ : BCTable K} {B₁ B₂ : ℕ → Boundary K}

/-- one in the plane, zero for the third component -/
def inPlane (f : ℕ) : K := if f < 2 then 1 else 0

theorem inPlane_lt {f : ℕ} (hf : f < 2) : (inPlane f : K) = 1 := if_pos hf

theorem inPlane_two : (inPlane 2 : K) = 0 := if_neg (by omega)

theorem coordOf_below (s : Stencil) {d : ℕ} (hd : d < 2) : coordOf (below s) d = coordOf s d := by
  unfold below
  interval_cases d <;> simp [coordOf]

theorem coordOf_below_two (s : Stencil) : coordOf (below s) 2 = 0 := by simp [below, coordOf]

theorem below_along (s : Stencil) {d : ℕ} (hd : d < 2) (x : ℤ) : below (along s d x) = along (below s) d x := by
  unfold below along
  interval_cases d <;> simp

theorem below_along_two (s : Stencil) (x : ℤ) : below (along s 2 x) = below s := by simp [below, along]

theorem below_shift (s : Stencil) {d : ℕ} (hd : d < 2) (x : ℤ) : below (shift s d x) = shift (below s) d x := by
  unfold shift
  rw [below_along s hd, coordOf_below s hd]

theorem below_shift_two (s : Stencil) (x : ℤ) : below (shift s 2 x) = below s := below_along_two s _

theorem below_nbr (s : Stencil) {loc : ℕ} (hl : loc < 4) : below (nbr loc s) = nbr loc (below s) := by
  unfold nbr
  rw [below_along s (by omega), coordOf_below s (by omega)]

theorem below_nbr_ends (s : Stencil) {loc : ℕ} (hl : loc / 2 = 2) : below (nbr loc s) = below s := by
  unfold nbr
  rw [hl, below_along_two]

section Geometry
variable (D : Slab L₁ L₂ axes₁ axes₂ T₁ T₂) (S₁ : Setup L₁ G₁ axes₁) (S₂ : Setup L₂ G₂ axes₂)
include D S₁ S₂

theorem slab_n {f d : ℕ} (hf : f < 2 ∨ f = 3) (hd : d < 2) : L₂.n f d = L₁.n f d := by
  have d1 := D.dim₁
  have d2 := D.dim₂
  have hp3 : ∀ e, e < 2 → L₂.n 3 e = L₁.n 3 e := by
    intro e he
    have e1 : fieldAxis L₁.dim axes₁ L₁.periodic 3 e = .ok (pressureAxis (axes₁ e)) := by simp [fieldAxis, show e < L₁.dim by omega]
    have e2 : fieldAxis L₂.dim axes₂ L₂.periodic 3 e = .ok (pressureAxis (axes₂ e)) := by simp [fieldAxis, show e < L₂.dim by omega]
    rw [S₁.counts 3 e (by omega) (by omega) _ e1, S₂.counts 3 e (by omega) (by omega) _ e2, D.axes e he]
  rcases hf with hf | rfl
  · obtain ⟨a1, a2, a3⟩ := S₁.staggered f (by omega)
    obtain ⟨b1, b2, b3⟩ := S₂.staggered f (by omega)
    by_cases hdf : d = f
    · subst hdf
      have hp := D.periodic d hf
      have := hp3 d hd
      cases h : L₁.periodic 0 d with
      | true =>
        rw [h] at hp
        rw [b2 hp, a2 h, this]
      | false =>
        rw [h] at hp
        have := b3 hp
        have := a3 h
        omega
    · rw [b1 _ (by omega) hdf, a1 d (by omega) hdf]
      exact hp3 d hd
  · exact hp3 d hd

theorem slab_axis {f d : ℕ} (hf : f < 2) (hd : d < 2) : fieldAxis L₂.dim axes₂ L₂.periodic f d = fieldAxis L₁.dim axes₁ L₁.periodic f d := by
  have d1 := D.dim₁
  have d2 := D.dim₂
  have per : L₂.periodic f d = L₁.periodic f d := by
    rw [S₂.periodic _ _ (by omega) (by omega), S₁.periodic _ _ (by omega) (by omega), D.periodic d hd]
  unfold fieldAxis
  rw [if_pos (show f < 3 by omega), if_pos (show f < 3 by omega), if_pos (show f < L₂.dim ∧ d < L₂.dim by omega),
    if_pos (show f < L₁.dim ∧ d < L₁.dim by omega), per, D.axes d hd]

theorem slab_coord {f d : ℕ} (hf : f < 2) (hd : d < 2) {i : ℤ} (i0 : -1 ≤ i) (i1 : i ≤ L₁.n f d) : G₂.coord f d i = G₁.coord f d i := by
  have d1 := D.dim₁
  obtain ⟨A, hA, g, -⟩ := values_total S₁ (show f < L₁.dim by omega) (show d < L₁.dim by omega)
  rw [← slab_axis D S₁ S₂ hf hd] at hA
  exact (S₂.geom _ _ (by omega) (by omega) A hA).1 i _ (g i i0 i1)

theorem slab_width {f d : ℕ} (hf : f < 2) (hd : d < 2) {i : ℤ} (i0 : 0 ≤ i) (i1 : i < L₁.n f d) : G₂.dL f d i = G₁.dL f d i := by
  have d1 := D.dim₁
  obtain ⟨A, hA, -, w⟩ := values_total S₁ (show f < L₁.dim by omega) (show d < L₁.dim by omega)
  rw [← slab_axis D S₁ S₂ hf hd] at hA
  exact (S₂.geom _ _ (by omega) (by omega) A hA).2 i _ (w i i0 i1)

/-- the widths in the third direction do not depend on the component -/
theorem slab_height {f : ℕ} (hf : f < 2) {i : ℤ} (i0 : 0 ≤ i) (i1 : i < L₂.n 3 2) : G₂.dL f 2 i = G₂.dL 0 2 i := by
  have d2 := D.dim₂
  have n0 := (S₂.staggered 0 (by omega)).1 2 (by omega) (by omega)
  obtain ⟨A, hA, -, w⟩ := values_total S₂ (show 0 < L₂.dim by omega) (show 2 < L₂.dim by omega)
  have e : fieldAxis L₂.dim axes₂ L₂.periodic f 2 = fieldAxis L₂.dim axes₂ L₂.periodic 0 2 := by
    unfold fieldAxis
    rw [if_pos (show f < 3 by omega), if_pos (show 0 < 3 by omega), if_pos (show f < L₂.dim ∧ 2 < L₂.dim by omega),
      if_pos (show 0 < L₂.dim ∧ 2 < L₂.dim by omega), S₂.periodic _ _ (show f < L₂.dim by omega) (by omega), if_neg (show ¬ 2 = f by omega),
      if_neg (show ¬ 2 = 0 by omega)]
  rw [← e] at hA
  exact (S₂.geom _ _ (by omega) (by omega) A hA).2 i _ (w i i0 (by omega))

theorem slab_pcoord {d : ℕ} (hd : d < 2) {i : ℤ} (i0 : 0 ≤ i) (i1 : i < L₁.n 3 d) : G₂.coord 3 d i = G₁.coord 3 d i := by
  have d1 := D.dim₁
  have d2 := D.dim₂
  have hn := slab_n D S₁ S₂ (Or.inr rfl : 3 < 2 ∨ 3 = 3) hd
  obtain ⟨m, rfl⟩ := Int.eq_ofNat_of_zero_le i0
  obtain ⟨-, e1, -⟩ := S₁.coord_pressure (show d < L₁.dim by omega) (show m < L₁.n 3 d by omega)
  obtain ⟨-, e2, -⟩ := S₂.coord_pressure (show d < L₂.dim by omega) (show m < L₂.n 3 d by omega)
  rw [e1, e2, D.axes d hd]

theorem slab_inside {f : ℕ} (hf : f < 2 ∨ f = 3) {s : Stencil} (hs : Inside L₂.toMeshInfo f s) : Inside L₁.toMeshInfo f (below s) := by
  refine ⟨fun d hd => ?_, hs.2⟩
  by_cases h : d < 2
  · rw [coordOf_below s h, ← slab_n D S₁ S₂ hf h]
    exact hs.1 d hd
  · obtain rfl : d = 2 := by omega
    rw [coordOf_below_two, S₁.layout.flat D.dim₁ f (by omega)]
    exact ⟨le_rfl, by norm_num⟩

end Geometry

/-- the velocity of the plane at every height -/
def SlabVel (L₁ L₂ : Layout) (q₁ q₂ : ℤ → K) : Prop :=
  ∀ f, f < 3 → ∀ s, Inside L₂.toMeshInfo f s → q₂ (col L₂ f s) = inPlane f * q₁ (col L₁ f (below s))

/-- the values of the cells of the plane at every height -/
def SlabCells (L₁ L₂ : Layout) (q₁ q₂ : ℤ → K) : Prop :=
  ∀ s, Inside L₂.toMeshInfo 3 s → q₂ (col L₂ 3 s) = q₁ (col L₁ 3 (below s))

/-- the values of the cells of the plane times the height of the layer -/
def SlabFlux (L₁ L₂ : Layout) (G₂ : Geom K) (q₁ q₂ : ℤ → K) : Prop :=
  ∀ s, Inside L₂.toMeshInfo 3 s → q₂ (col L₂ 3 s) = G₂.dL 0 2 (coordOf s 2) * q₁ (col L₁ 3 (below s))

/-- boundary points with the same equation and value -/
def SlabRecord (b₁ : SingleBoundary K) (p₁ : GhostPointInfo K) (b₂ : SingleBoundary K) (p₂ : GhostPointInfo K) : Prop :=
  b₂.type = b₁.type ∧ b₂.value = b₁.value ∧ b₂.loc = b₁.loc ∧ b₂.field = b₁.field ∧
    p₂.a0 = p₁.a0 ∧ p₂.a1 = p₁.a1 ∧ p₂.value = p₁.value ∧ p₂.dL = p₁.dL

/-- corresponding boundary points; the third component is zero at all of them; the ends carry no gradient -/
structure SlabGhosts (L₁ L₂ : Layout) (B₁ B₂ : ℕ → Boundary K) : Prop where
  plane : ∀ f loc s r₁ b₁ p₁ r₂ b₂ p₂, f < 2 → loc < 4 → r₁ < L₁.mpiSize → r₂ < L₂.mpiSize → Point (B₁ r₁) f loc (below s) b₁ p₁ →
    Point (B₂ r₂) f loc s b₂ p₂ → SlabRecord b₁ p₁ b₂ p₂
  third : ∀ loc s r b p, r < L₂.mpiSize → Point (B₂ r) 2 loc s b p → p.a1 = 0 ∧ p.value = 0
  ends : ∀ f loc s r b p, f < 2 → loc / 2 = 2 → r < L₂.mpiSize → Point (B₂ r) f loc s b p → b.type = .NEUMANN ∧ p.a0 = 1 ∧ p.a1 = 0

section Ghosts
variable (D : Slab L₁ L₂ axes₁ axes₂ T₁ T₂) (S₁ : Setup L₁ G₁ axes₁) (S₂ : Setup L₂ G₂ axes₂)
include D S₁ S₂

theorem slab_target (hG1 : GhostsOK debug L₁ G₁ B₁) (hG2 : GhostsOK debug L₂ G₂ B₂) {r₁ r₂ f loc : ℕ} {s : Stencil} {b₁ b₂ : SingleBoundary K}
    {p₁ p₂ : GhostPointInfo K} (hf : f < 2) (hl : loc < 4) (hr1 : r₁ < L₁.mpiSize) (hr2 : r₂ < L₂.mpiSize)
    (hp1 : Point (B₁ r₁) f loc (below s) b₁ p₁) (hp2 : Point (B₂ r₂) f loc s b₂ p₂) : p₁.targetStencil = below p₂.targetStencil := by
  obtain ⟨a1, a2, a3, a4, a5, a6, a7⟩ := point_facts S₁.layout hG1 hr1 hp1
  obtain ⟨b1, b2, b3, b4, b5, b6, b7⟩ := point_facts S₂.layout hG2 hr2 hp2
  rw [b6, below_nbr _ hl] at a6
  exact (nbr_inj (loc' := loc) (by omega) (by omega) a3 (slab_inside D S₁ S₂ (Or.inl hf) b3) a5 a6.symm).2

theorem slab_other (hG1 : GhostsOK debug L₁ G₁ B₁) (hG2 : GhostsOK debug L₂ G₂ B₂) {r f loc : ℕ} {s : Stencil}
    {b : SingleBoundary K} {p : GhostPointInfo K} (hf : f < 2) (hl : loc < 4) (hr : r < L₂.mpiSize) (hp : Point (B₂ r) f loc s b p) :
    ∃ r' b' p', r' < L₁.mpiSize ∧ Point (B₁ r') f loc (below s) b' p' := by
  have d1 := D.dim₁
  obtain ⟨b1, b2, b3, b4, b5, b6, b7⟩ := point_facts S₂.layout hG2 hr hp
  have hin := slab_inside D S₁ S₂ (Or.inl hf) b3
  obtain ⟨u, -, hu, rfl, hus⟩ := exists_unknown S₁.layout (show f < L₁.dim by omega) hin
  have at1 : AtSide L₁.toMeshInfo u.comp loc u.st := by
    unfold AtSide at b5 ⊢
    rw [hus, coordOf_below _ (by omega), ← slab_n D S₁ S₂ (Or.inl hf) (by omega)]
    exact b5
  rw [D.periodic _ (by omega)] at b7
  obtain ⟨b', p', hp'⟩ := hG1.covered u.comp loc u hu rfl (by omega) b7 at1
  refine ⟨u.rank, b', p', hu.2.2.2.2.1, ?_⟩
  rw [b6, below_nbr _ hl, ← hus]
  exact hp'

theorem slab_value (hG1 : GhostsOK debug L₁ G₁ B₁) (hG2 : GhostsOK debug L₂ G₂ B₂) {v₁ v₂ : ℤ → K} (hv : SlabVel L₁ L₂ v₁ v₂)
    {r₁ r₂ f loc : ℕ} {s : Stencil} {b₁ b₂ : SingleBoundary K} {p₁ p₂ : GhostPointInfo K} (hf : f < 2) (hl : loc < 4) (hr1 : r₁ < L₁.mpiSize)
    (hr2 : r₂ < L₂.mpiSize) (hp1 : Point (B₁ r₁) f loc (below s) b₁ p₁) (hp2 : Point (B₂ r₂) f loc s b₂ p₂) :
    v₂ p₂.targetPackedId = v₁ p₁.targetPackedId := by
  obtain ⟨-, -, -, a4, -⟩ := point_facts S₁.layout hG1 hr1 hp1
  obtain ⟨-, -, b3, b4, -⟩ := point_facts S₂.layout hG2 hr2 hp2
  rw [a4, b4, slab_target D S₁ S₂ hG1 hG2 hf hl hr1 hr2 hp1 hp2, hv f (by omega) _ b3, inPlane_lt hf, one_mul]

theorem slab_value_third (hG2 : GhostsOK debug L₂ G₂ B₂) {v₁ v₂ : ℤ → K} (hv : SlabVel L₁ L₂ v₁ v₂)
    {r loc : ℕ} {s : Stencil} {b : SingleBoundary K} {p : GhostPointInfo K} (hr : r < L₂.mpiSize) (hp : Point (B₂ r) 2 loc s b p) :
    v₂ p.targetPackedId = 0 := by
  obtain ⟨-, -, b3, b4, -⟩ := point_facts S₂.layout hG2 hr hp
  rw [b4, hv 2 (by omega) _ b3, inPlane_two, zero_mul]

end Ghosts

theorem SlabRecord.step {b₁ b₂ : SingleBoundary K} {p₁ p₂ : GhostPointInfo K} (h : SlabRecord b₁ p₁ b₂ p₂) {v₁ v₂ : ℤ → K}
    (hv : v₂ p₂.targetPackedId = v₁ p₁.targetPackedId) (dt : K) :
    SlabRecord (b₁.mapPoints (b₁.pointRun [.updateEqs v₁ dt])) (b₁.pointRun [.updateEqs v₁ dt] p₁)
      (b₂.mapPoints (b₂.pointRun [.updateEqs v₂ dt])) (b₂.pointRun [.updateEqs v₂ dt] p₂) ∧
    SlabRecord (b₁.mapPoints (b₁.pointRun [.updateGhostValues v₁])) (b₁.pointRun [.updateGhostValues v₁] p₁)
      (b₂.mapPoints (b₂.pointRun [.updateGhostValues v₂])) (b₂.pointRun [.updateGhostValues v₂] p₂) := by
  obtain ⟨e1, e2, e3, e4, e5, e6, e7, e8⟩ := h
  have en : b₂.normal = b₁.normal := by
    unfold SingleBoundary.normal
    rw [e3]
  constructor
  · refine ⟨e1, e2, e3, e4, ?_⟩
    simp only [SingleBoundary.pointRun, List.foldl_cons, List.foldl_nil, SingleBoundary.pointStep,
      SingleBoundary.updateEqsKernel, SingleBoundary.kernel, hv, e1, e2, e3, e4, en]
    cases b₁.type with
    | CONVECTIVE =>
      by_cases hd : b₁.loc / 2 = b₁.field
      · simp only [if_pos hd, SingleBoundary.kernelSameDir, e7, e8, and_true]
      · simp only [if_neg hd, SingleBoundary.kernelDiffDir, e7, e8, and_true]
    | _ => exact ⟨e5, e6, e7, e8⟩
  · refine ⟨e1, e2, e3, e4, ?_⟩
    simp only [SingleBoundary.pointRun, List.foldl_cons, List.foldl_nil, SingleBoundary.pointStep, e5, e6, e8, hv, and_true]

section Steps
variable (D : Slab L₁ L₂ axes₁ axes₂ T₁ T₂) (S₁ : Setup L₁ G₁ axes₁) (S₂ : Setup L₂ G₂ axes₂)
include D S₁ S₂

theorem SlabGhosts.step (hG1 : GhostsOK debug L₁ G₁ B₁) (hG2 : GhostsOK debug L₂ G₂ B₂) (h : SlabGhosts L₁ L₂ B₁ B₂) {v₁ v₂ : ℤ → K}
    (hv : SlabVel L₁ L₂ v₁ v₂) (dt : K) :
    SlabGhosts L₁ L₂ (fun r => (B₁ r).run [.updateEqs v₁ dt]) (fun r => (B₂ r).run [.updateEqs v₂ dt]) ∧
    SlabGhosts L₁ L₂ (fun r => (B₁ r).run [.updateGhostValues v₁]) (fun r => (B₂ r).run [.updateGhostValues v₂]) := by
  constructor
  · constructor
    · intro f loc s r₁ b₁ p₁ r₂ b₂ p₂ hf hl hr1 hr2 hp1 hp2
      obtain ⟨c₁, q₁, k1, rfl, rfl⟩ := point_run hp1
      obtain ⟨c₂, q₂, k2, rfl, rfl⟩ := point_run hp2
      exact ((h.plane f loc s r₁ c₁ q₁ r₂ c₂ q₂ hf hl hr1 hr2 k1 k2).step (slab_value D S₁ S₂ hG1 hG2 hv hf hl hr1 hr2 k1 k2) dt).1
    · intro loc s r b p hr hp
      obtain ⟨c, q, k, rfl, rfl⟩ := point_run hp
      obtain ⟨x, y⟩ := h.third loc s r c q hr k
      have z := slab_value_third D S₁ S₂ hG2 hv hr k
      simp only [SingleBoundary.pointRun, List.foldl_cons, List.foldl_nil, SingleBoundary.pointStep,
        SingleBoundary.updateEqsKernel, SingleBoundary.kernel, z]
      cases c.type with
      | CONVECTIVE =>
        by_cases hd : c.loc / 2 = c.field
        · simp only [if_pos hd, SingleBoundary.kernelSameDir, y]
          simp
        · simp only [if_neg hd, SingleBoundary.kernelDiffDir, y]
          simp
      | _ => exact ⟨x, y⟩
    · intro f loc s r b p hf hl hr hp
      obtain ⟨c, q, k, rfl, rfl⟩ := point_run hp
      obtain ⟨w, x, y⟩ := h.ends f loc s r c q hf hl hr k
      refine ⟨w, ?_⟩
      simp only [SingleBoundary.pointRun, List.foldl_cons, List.foldl_nil, SingleBoundary.pointStep, SingleBoundary.updateEqsKernel, w]
      exact ⟨x, y⟩
  · constructor
    · intro f loc s r₁ b₁ p₁ r₂ b₂ p₂ hf hl hr1 hr2 hp1 hp2
      obtain ⟨c₁, q₁, k1, rfl, rfl⟩ := point_run hp1
      obtain ⟨c₂, q₂, k2, rfl, rfl⟩ := point_run hp2
      exact ((h.plane f loc s r₁ c₁ q₁ r₂ c₂ q₂ hf hl hr1 hr2 k1 k2).step (slab_value D S₁ S₂ hG1 hG2 hv hf hl hr1 hr2 k1 k2) dt).2
    · intro loc s r b p hr hp
      obtain ⟨c, q, k, rfl, rfl⟩ := point_run hp
      obtain ⟨x, y⟩ := h.third loc s r c q hr k
      have z := slab_value_third D S₁ S₂ hG2 hv hr k
      simp only [SingleBoundary.pointRun, List.foldl_cons, List.foldl_nil, SingleBoundary.pointStep, z, x, mul_zero, add_zero, and_self]
    · intro f loc s r b p hf hl hr hp
      obtain ⟨c, q, k, rfl, rfl⟩ := point_run hp
      obtain ⟨w, x, y⟩ := h.ends f loc s r c q hf hl hr k
      refine ⟨w, ?_⟩
      simp only [SingleBoundary.pointRun, List.foldl_cons, List.foldl_nil, SingleBoundary.pointStep]
      exact ⟨x, y⟩

end Steps

theorem slabGhosts_init (C₁ : Constructed debug L₁ G₁ axes₁ T₁ B₁) (C₂ : Constructed debug L₂ G₂ axes₂ T₂ B₂) (D : Slab L₁ L₂ axes₁ axes₂ T₁ T₂)
    {v₁ v₂ : ℤ → K} (hv : SlabVel L₁ L₂ v₁ v₂) :
    SlabGhosts L₁ L₂ (fun r => (B₁ r).run [.setGhostICs v₁]) (fun r => (B₂ r).run [.setGhostICs v₂]) := by
  have S₁ := C₁.setup
  have S₂ := C₂.setup
  have d1 := D.dim₁
  have d2 := D.dim₂
  have hG1 := C₁.ghosts []
  have hG2 := C₂.ghosts []
  constructor
  · intro f loc s r₁ b₁ p₁ r₂ b₂ p₂ hf hl hr1 hr2 hp1 hp2
    obtain ⟨c₁, q₁, k1, rfl, rfl⟩ := point_run hp1
    obtain ⟨c₂, q₂, k2, rfl, rfl⟩ := point_run hp2
    have hval := slab_value D S₁ S₂ hG1 hG2 hv hf hl hr1 hr2 k1 k2
    have et := slab_target D S₁ S₂ hG1 hG2 hf hl hr1 hr2 k1 k2
    obtain ⟨-, -, x3, -, -, x6, -⟩ := point_facts S₁.layout hG1 hr1 k1
    obtain ⟨-, -, a1, a2, a3, a4, g1⟩ := point_boundaryInit S₁.layout (C₁.init r₁ hr1) C₁.pos k1
    obtain ⟨-, -, e1, e2, e3, e4, g2⟩ := point_boundaryInit S₂.layout (C₂.init r₂ hr2) C₂.pos k2
    have hd2 : loc / 2 < 2 := by omega
    have hd3 : loc / 2 < 3 := by omega
    have hdL : q₂.dL = q₁.dL := by
      have y1 := g1.dist
      have y2 := g2.dist
      have r1 := x3.1 _ hd3
      have hs1 : coordOf (below s) (loc / 2) = coordOf q₁.targetStencil (loc / 2) + if loc % 2 = 0 then -1 else 1 := by
        rw [x6]
        unfold nbr
        rw [coordOf_along _ _ _ _ hd3 hd3, if_pos rfl]
      unfold signedDistance at y1 y2
      rw [← coordOf_below s hd2, ← coordOf_below q₂.targetStencil hd2, ← et,
        slab_coord D S₁ S₂ hf hd2 (by rw [hs1]; split_ifs <;> omega) (by rw [hs1]; split_ifs <;> omega),
        slab_coord D S₁ S₂ hf hd2 (by omega) (by omega), ← y1] at y2
      rcases Nat.mod_two_eq_zero_or_one loc with h | h <;> simp [h] at y2 <;> exact y2
    have tab := D.table f loc hf hl
    rw [tab, ← a3] at e3
    rw [tab, ← a4] at e4
    rw [← a1] at e1
    rw [← a2] at e2
    have en : c₂.normal = c₁.normal := by
      unfold SingleBoundary.normal
      rw [e1]
    have n1 : c₁.type ≠ .NOBC := point_noBC (C₁.init r₁ hr1) k1
    obtain ⟨x1, x2, -, -, -, -, x7⟩ := point_facts S₁.layout hG1 hr1 k1
    have n2 : c₁.type ≠ .PERIODIC := by
      intro hc
      rw [a3] at hc
      rw [(C₁.table f loc x1 x2).1 hc] at x7
      cases x7
    refine ⟨e3, e4, e1, e2, ?_⟩
    have f1 : c₁.pointRun [.setGhostICs v₁] q₁ = c₁.setGhostICsKernel (v₁ q₁.targetPackedId) q₁ := rfl
    have f2 : c₂.pointRun [.setGhostICs v₂] q₂ = c₂.setGhostICsKernel (v₂ q₂.targetPackedId) q₂ := rfl
    rw [f1, f2, hval]
    unfold SingleBoundary.setGhostICsKernel SingleBoundary.kernel
    rw [e3, e4, e1, e2, en]
    cases ht : c₁.type with
    | NOBC => exact absurd ht n1
    | PERIODIC => exact absurd ht n2
    | DIRICHLET =>
      by_cases hd : c₁.loc / 2 = c₁.field
      · simp only [if_pos hd, hdL, and_self]
      · simp only [if_neg hd, hdL, and_self]
    | NEUMANN => simp only [hdL, and_self]
    | CONVECTIVE =>
      by_cases hd : c₁.loc / 2 = c₁.field
      · simp only [if_pos hd, SingleBoundary.kernelSameDir, hdL, and_self]
      · simp only [if_neg hd, SingleBoundary.kernelDiffDir, hdL, and_self]
  · intro loc s r b p hr hp
    obtain ⟨c, q, k, rfl, rfl⟩ := point_run hp
    have z := slab_value_third D S₁ S₂ hG2 hv hr k
    obtain ⟨-, x2, -, -, -, -, x7⟩ := point_facts S₂.layout hG2 hr k
    obtain ⟨-, -, a1, a2, a3, a4, -⟩ := point_boundaryInit S₂.layout (C₂.init r hr) C₂.pos k
    have f1 : c.pointRun [.setGhostICs v₂] q = c.setGhostICsKernel (v₂ q.targetPackedId) q := rfl
    rw [f1, z]
    unfold SingleBoundary.setGhostICsKernel SingleBoundary.kernel
    rcases D.third loc (by omega) x7 with h | h | h
    · rw [h] at a3 a4
      rw [a3, a4]
      by_cases hd : c.loc / 2 = c.field
      · simp [hd]
      · simp [hd]
    · rw [h] at a3 a4
      rw [a3, a4]
      simp
    · rw [h] at a3
      rw [a3]
      by_cases hd : c.loc / 2 = c.field
      · simp only [if_pos hd, SingleBoundary.kernelSameDir]
        simp
      · simp only [if_neg hd, SingleBoundary.kernelDiffDir]
        simp
  · intro f loc s r b p hf hl hr hp
    obtain ⟨c, q, k, rfl, rfl⟩ := point_run hp
    obtain ⟨-, -, -, -, -, -, x7⟩ := point_facts S₂.layout hG2 hr k
    obtain ⟨-, -, a1, a2, a3, a4, -⟩ := point_boundaryInit S₂.layout (C₂.init r hr) C₂.pos k
    rw [hl] at x7
    rw [D.ends f loc hf hl x7] at a3 a4
    have f1 : c.pointRun [.setGhostICs v₂] q = c.setGhostICsKernel (v₂ q.targetPackedId) q := rfl
    refine ⟨a3, ?_⟩
    rw [f1]
    unfold SingleBoundary.setGhostICsKernel
    rw [a3, a4]
    simp

/-! ### Fields -/

/-- a velocity field of the plane, at every height -/
def slabField (V : ℕ → Stencil → K) : ℕ → Stencil → K := fun f s => inPlane f * V f (below s)

section Fields
variable (D : Slab L₁ L₂ axes₁ axes₂ T₁ T₂) (S₁ : Setup L₁ G₁ axes₁) (S₂ : Setup L₂ G₂ axes₂)
include D S₁ S₂

theorem slab_stored_inside {v₁ v₂ : ℤ → K} (hv : SlabVel L₁ L₂ v₁ v₂) {V : ℕ → Stencil → K}
    (hV : ∀ f s, f < L₁.dim → Inside L₁.toMeshInfo f s → V f s = v₁ (col L₁ f s)) {f : ℕ} (hf : f < L₂.dim) {s : Stencil} {idx : ℤ}
    (hs : Inside L₂.toMeshInfo f s) (hidx : L₂.getPackedGlobalIndex debug f s = .ok idx) : slabField V f s = v₂ idx := by
  have d1 := D.dim₁
  have d2 := D.dim₂
  rw [(col_inside S₂.layout (Or.inl hf) debug hs).1] at hidx
  cases hidx
  rw [hv f (by omega) s hs]
  unfold slabField
  by_cases h : f < 2
  · rw [hV f _ (by omega) (slab_inside D S₁ S₂ (Or.inl h) hs)]
  · obtain rfl : f = 2 := by omega
    rw [inPlane_two, zero_mul, zero_mul]

theorem slab_extended (hG1 : GhostsOK debug L₁ G₁ B₁) (hG2 : GhostsOK debug L₂ G₂ B₂) (h : SlabGhosts L₁ L₂ B₁ B₂) {v₁ v₂ : ℤ → K}
    (hv : SlabVel L₁ L₂ v₁ v₂) {V : ℕ → Stencil → K} (hV : Extended debug L₁ B₁ v₁ V) : Extended debug L₂ B₂ v₂ (slabField V) := by
  have d1 := D.dim₁
  have d2 := D.dim₂
  constructor
  · intro f hf
    constructor
    · intro s idx hs hidx
      exact slab_stored_inside D S₁ S₂ hv
        (fun f s hf hs => (hV.stored f hf).inside s _ hs (col_inside S₁.layout (Or.inl hf) debug hs).1) hf hs hidx
    · intro s d x hd hs hp hx
      unfold slabField
      by_cases hd2 : d < 2
      · by_cases hf2 : f < 2
        · rw [slab_n D S₁ S₂ (Or.inl hf2) hd2] at hx ⊢
          rw [D.periodic d hd2] at hp
          rw [below_along _ hd2, below_along _ hd2,
            (hV.stored f (by omega)).periodic (below s) d x (by omega) (slab_inside D S₁ S₂ (Or.inl hf2) hs) hp hx]
        · obtain rfl : f = 2 := by omega
          rw [inPlane_two, zero_mul, zero_mul]
      · obtain rfl : d = 2 := by omega
        rw [below_along_two, below_along_two]
  · intro r f loc s b p hr hp
    obtain ⟨b1, b2, b3, b4, b5, b6, b7⟩ := point_facts S₂.layout hG2 hr hp
    unfold slabField
    by_cases hf2 : f < 2
    · rw [inPlane_lt hf2, one_mul, one_mul]
      by_cases hl : loc < 4
      · obtain ⟨r', b', p', hr', hp'⟩ := slab_other D S₁ S₂ hG1 hG2 hf2 hl hr hp
        obtain ⟨-, -, -, -, e5, e6, -, -⟩ := h.plane f loc s r' b' p' r b p hf2 hl hr' hr hp' hp
        rw [hV.ghost r' f loc _ b' p' hr' hp', e5, e6, slab_target D S₁ S₂ hG1 hG2 hf2 hl hr' hr hp' hp]
      · obtain ⟨-, x, y⟩ := h.ends f loc s r b p hf2 (by omega) hr hp
        rw [x, y, one_mul, add_zero, b6, below_nbr_ends _ (by omega)]
    · obtain rfl : f = 2 := by omega
      obtain ⟨x, -⟩ := h.third loc s r b p hr hp
      rw [inPlane_two, x]
      ring

/-- values at the ends -/
def SlabEnds (L₂ : Layout) (B₂ : ℕ → Boundary K) (v : ℤ → K) : Prop :=
  ∀ f loc s r b p, f < 2 → loc / 2 = 2 → r < L₂.mpiSize → Point (B₂ r) f loc s b p → p.value = v p.targetPackedId

theorem slab_filled (hG1 : GhostsOK debug L₁ G₁ B₁) (hG2 : GhostsOK debug L₂ G₂ B₂) (h : SlabGhosts L₁ L₂ B₁ B₂) {v₁ v₂ : ℤ → K}
    (hE : SlabEnds L₂ B₂ v₂) (hv : SlabVel L₁ L₂ v₁ v₂) {V : ℕ → Stencil → K} (hV : Filled debug L₁ B₁ v₁ V) :
    Filled debug L₂ B₂ v₂ (slabField V) := by
  have d1 := D.dim₁
  have d2 := D.dim₂
  constructor
  · intro f s idx hf hs hidx
    exact slab_stored_inside D S₁ S₂ hv (fun f s hf hs => hV.inside f s _ hf hs (col_inside S₁.layout (Or.inl hf) debug hs).1) hf hs hidx
  · intro f s d hf hd hp
    unfold slabField
    by_cases hd2 : d < 2
    · by_cases hf2 : f < 2
      · rw [slab_n D S₁ S₂ (Or.inl hf2) hd2, below_along _ hd2, ← coordOf_below s hd2]
        rw [D.periodic d hd2] at hp
        rw [← hV.periodic f (below s) d (by omega) (by omega) hp]
      · obtain rfl : f = 2 := by omega
        rw [inPlane_two, zero_mul, zero_mul]
    · obtain rfl : d = 2 := by omega
      rw [below_along_two]
  · intro r f loc s b p hr hp
    obtain ⟨b1, b2, b3, b4, b5, b6, b7⟩ := point_facts S₂.layout hG2 hr hp
    unfold slabField
    by_cases hf2 : f < 2
    · by_cases hl : loc < 4
      · obtain ⟨r', b', p', hr', hp'⟩ := slab_other D S₁ S₂ hG1 hG2 hf2 hl hr hp
        obtain ⟨-, -, -, -, -, -, e7, -⟩ := h.plane f loc s r' b' p' r b p hf2 hl hr' hr hp' hp
        rw [inPlane_lt hf2, one_mul, hV.ghost r' f loc _ b' p' hr' hp', e7]
      · have hin := slab_inside D S₁ S₂ (Or.inl hf2) b3
        rw [hE f loc s r b p hf2 (by omega) hr hp, b4, hv f (by omega) _ b3, b6, below_nbr_ends _ (show loc / 2 = 2 by omega),
          hV.inside f _ _ (by omega) hin (col_inside S₁.layout (Or.inl (by omega)) debug hin).1]
    · obtain rfl : f = 2 := by omega
      obtain ⟨-, x⟩ := h.third loc s r b p hr hp
      rw [inPlane_two, x, zero_mul]

/-! ### Operators on fields -/

theorem slab_secondDifference {f d : ℕ} (hf : f < 2) (hd : d < 2) {s : Stencil} (hs : Inside L₂.toMeshInfo f s) (V : ℕ → Stencil → K) :
    secondDifference G₂ f d s (slabField V f) = secondDifference G₁ f d (below s) (V f) := by
  have hx := hs.1 d (by omega)
  rw [slab_n D S₁ S₂ (Or.inl hf) hd] at hx
  unfold secondDifference slabField
  rw [below_shift s hd, below_shift s hd, inPlane_lt hf, one_mul, one_mul, one_mul, coordOf_below s hd,
    slab_coord D S₁ S₂ hf hd (i := coordOf s d) (by omega) (by omega), slab_coord D S₁ S₂ hf hd (i := coordOf s d + 1) (by omega) (by omega),
    slab_coord D S₁ S₂ hf hd (i := coordOf s d - 1) (by omega) (by omega), slab_width D S₁ S₂ hf hd hx.1 hx.2]

theorem slab_laplace {f : ℕ} (hf : f < 3) {s : Stencil} (hs : Inside L₂.toMeshInfo f s) (V : ℕ → Stencil → K) :
    ∑ d ∈ Finset.range L₂.dim, secondDifference G₂ f d s (slabField V f) =
      inPlane f * ∑ d ∈ Finset.range L₁.dim, secondDifference G₁ f d (below s) (V f) := by
  rw [D.dim₁, D.dim₂]
  by_cases hf2 : f < 2
  · rw [Finset.sum_range_succ, inPlane_lt hf2, one_mul]
    have : secondDifference G₂ f 2 s (slabField V f) = 0 := by
      unfold secondDifference slabField
      rw [below_shift_two, below_shift_two]
      simp
    rw [this, add_zero]
    exact Finset.sum_congr rfl fun d hd => slab_secondDifference D S₁ S₂ hf2 (Finset.mem_range.1 hd) hs V
  · obtain rfl : f = 2 := by omega
    rw [inPlane_two, zero_mul]
    refine Finset.sum_eq_zero fun d _ => ?_
    unfold secondDifference slabField
    rw [inPlane_two]
    simp

theorem slab_faceArea {f : ℕ} (hf : f < 2) {s : Stencil} (hs : Inside L₂.toMeshInfo 3 s) :
    faceArea G₂ f f s = G₂.dL 0 2 (coordOf s 2) * faceArea G₁ f f (below s) := by
  have d1 := D.dim₁
  have d2 := D.dim₂
  have h2 := hs.1 2 (by omega)
  obtain ⟨a1, -, -⟩ := S₂.staggered f (by omega)
  obtain ⟨-, fl⟩ := S₁.flat_width (f := f) (d := 2) (by omega) (by omega) (by omega)
  rw [faceArea_prod G₂ (by omega), faceArea_prod G₁ (by omega), Finset.prod_range_succ, Finset.prod_range_succ _ 2, coordOf_below_two, fl,
    if_neg (show ¬ 2 = f by omega), if_neg (show ¬ 2 = f by omega), mul_one, slab_height D S₁ S₂ hf h2.1 h2.2, mul_comm]
  congr 1
  refine Finset.prod_congr rfl fun e he => ?_
  have he := Finset.mem_range.1 he
  by_cases h : e = f
  · rw [if_pos h, if_pos h]
  · have hx := hs.1 e (by omega)
    rw [← a1 e (by omega) h, slab_n D S₁ S₂ (Or.inl hf) he] at hx
    rw [if_neg h, if_neg h, coordOf_below s he, slab_width D S₁ S₂ hf he hx.1 hx.2]

theorem slab_netFlux {s : Stencil} (hs : Inside L₂.toMeshInfo 3 s) (V : ℕ → Stencil → K) :
    netFlux L₂.dim G₂ s (slabField V) = G₂.dL 0 2 (coordOf s 2) * netFlux L₁.dim G₁ (below s) V := by
  unfold netFlux
  rw [D.dim₁, D.dim₂, Finset.sum_range_succ, Finset.mul_sum]
  have z : ∀ u, slabField V 2 u = 0 := fun u => by unfold slabField; rw [inPlane_two, zero_mul]
  rw [z, z, mul_zero, sub_zero, add_zero]
  refine Finset.sum_congr rfl fun f hf => ?_
  have hf := Finset.mem_range.1 hf
  rw [slab_faceArea D S₁ S₂ hf hs]
  unfold slabField
  rw [below_shift s hf, inPlane_lt hf]
  ring

theorem slab_convective {f : ℕ} (hf : f < 3) {s : Stencil} (hs : Inside L₂.toMeshInfo f s) (V : ℕ → Stencil → K) :
    convective L₂.dim G₂ (slabField V) f s = inPlane f * convective L₁.dim G₁ V f (below s) := by
  have z : ∀ u, slabField V 2 u = 0 := fun u => by unfold slabField; rw [inPlane_two, zero_mul]
  unfold convective
  rw [D.dim₁, D.dim₂]
  by_cases hf2 : f < 2
  · rw [Finset.sum_range_succ, inPlane_lt hf2, one_mul]
    have m2 : ∀ u, momentumFlux (slabField V) f 2 u = 0 := by
      intro u
      unfold momentumFlux
      rw [z, z]
      simp
    rw [m2, m2, sub_zero, zero_div, add_zero]
    refine Finset.sum_congr rfl fun d hd => ?_
    have hd := Finset.mem_range.1 hd
    have hx := hs.1 d (by omega)
    rw [slab_n D S₁ S₂ (Or.inl hf2) hd] at hx
    have m : ∀ u, momentumFlux (slabField V) f d u = momentumFlux V f d (below u) := by
      intro u
      unfold momentumFlux slabField
      rw [below_shift u hd, below_shift u hf2, inPlane_lt hf2, inPlane_lt hd]
      ring
    rw [m, m, below_shift s hd, coordOf_below s hd, slab_width D S₁ S₂ hf2 hd hx.1 hx.2]
  · obtain rfl : f = 2 := by omega
    rw [inPlane_two, zero_mul]
    refine Finset.sum_eq_zero fun d _ => ?_
    unfold momentumFlux
    rw [z, z, z]
    simp [z]

theorem slab_gap {f : ℕ} (hf : f < 2) {s : Stencil} (hs : Inside L₂.toMeshInfo f s) :
    pressureGap L₂.toMeshInfo G₂ axes₂ f (coordOf s f) = pressureGap L₁.toMeshInfo G₁ axes₁ f (coordOf (below s) f) := by
  have d1 := D.dim₁
  have hn := slab_n D S₁ S₂ (Or.inr rfl : 3 < 2 ∨ 3 = 3) hf
  have hx := hs.1 f (by omega)
  rw [slab_n D S₁ S₂ (Or.inl hf) hf] at hx
  have hle := S₁.n_le f f (by omega) (by omega)
  have c := fun i i0 i1 => slab_pcoord D S₁ S₂ hf (i := i) i0 i1
  rw [coordOf_below s hf]
  unfold pressureGap
  rw [hn, D.axes f hf, c _ hx.1 (by omega), c 0 le_rfl (by omega)]
  split_ifs with h
  · rw [c _ (by omega) h]
  · rfl

/-- a pressure field of the plane, at every height -/
theorem slab_stored {p₁ p₂ : ℤ → K} (hp : SlabCells L₁ L₂ p₁ p₂) {P : Stencil → K} (hP : Stored debug L₁ 3 p₁ P) :
    Stored debug L₂ 3 p₂ fun s => P (below s) := by
  have d1 := D.dim₁
  have d2 := D.dim₂
  constructor
  · intro s idx hs hidx
    rw [(col_inside S₂.layout (Or.inr rfl) debug hs).1] at hidx
    cases hidx
    have hin := slab_inside D S₁ S₂ (Or.inr rfl) hs
    rw [hp s hs, hP.inside _ _ hin (col_inside S₁.layout (Or.inr rfl) debug hin).1]
  · intro s d x hd hs hper hx
    by_cases hd2 : d < 2
    · rw [slab_n D S₁ S₂ (Or.inr rfl) hd2] at hx ⊢
      rw [D.periodic d hd2] at hper
      rw [below_along _ hd2, below_along _ hd2, hP.periodic _ d x (by omega) (slab_inside D S₁ S₂ (Or.inr rfl) hs) hper hx]
    · obtain rfl : d = 2 := by omega
      rw [below_along_two, below_along_two]

end Fields

end PetIBM
