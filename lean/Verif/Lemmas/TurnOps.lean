/-
Fields and ghost points in two systems of coordinates.
-/
import Verif.Lemmas.Turn

set_option linter.unusedSectionVars false

namespace PetIBM

open Spec

variable {K : Type} [Field K] [LinearOrder K] [IsStrictOrderedRing K]
variable {t : Turn} {debug : Bool} {L₁ L₂ : Layout} {G₁ G₂ : Geom K} {axes₁ axes₂ : ℕ → Axis K} {T₁ T₂ : BCTable K} {B₁ B₂ : ℕ → Boundary K}

/-- the same velocity -/
def TurnVel (t : Turn) (L₁ L₂ : Layout) (q₁ q₂ : ℤ → K) : Prop :=
  ∀ f, f < L₁.dim → ∀ s, Inside L₁.toMeshInfo f s → q₂ (col L₂ (t.perm f) (t.point L₁.toMeshInfo f s)) = t.sign f * q₁ (col L₁ f s)

/-- the same values at the cells -/
def TurnCells (t : Turn) (L₁ L₂ : Layout) (q₁ q₂ : ℤ → K) : Prop :=
  ∀ s, Inside L₁.toMeshInfo 3 s → q₂ (col L₂ 3 (t.point L₁.toMeshInfo 3 s)) = q₁ (col L₁ 3 s)

/-- boundary points with the same equation and value -/
def TurnRecord (t : Turn) (f : ℕ) (b₁ : SingleBoundary K) (p₁ : GhostPointInfo K) (b₂ : SingleBoundary K) (p₂ : GhostPointInfo K) : Prop :=
  b₂.type = b₁.type ∧ (b₁.type = .CONVECTIVE → b₂.normal * b₂.value = b₁.normal * b₁.value) ∧ (b₂.loc / 2 = b₂.field ↔ b₁.loc / 2 = b₁.field) ∧
    p₂.a0 = p₁.a0 ∧ p₂.a1 = t.sign f * p₁.a1 ∧ p₂.value = t.sign f * p₁.value ∧ p₂.dL = p₁.dL

/-- corresponding boundary points -/
def TurnGhosts (t : Turn) (L₁ L₂ : Layout) (B₁ B₂ : ℕ → Boundary K) : Prop :=
  ∀ f loc s r₁ b₁ p₁ r₂ b₂ p₂, r₁ < L₁.mpiSize → r₂ < L₂.mpiSize → Point (B₁ r₁) f loc s b₁ p₁ →
    Point (B₂ r₂) (t.perm f) (t.side loc) (t.point L₁.toMeshInfo f s) b₂ p₂ → TurnRecord t f b₁ p₁ b₂ p₂

theorem point_facts {L : Layout} {G : Geom K} (hL : LayoutOK L) {B : ℕ → Boundary K} (hG : GhostsOK debug L G B) {r f loc : ℕ} {s : Stencil}
    {b : SingleBoundary K} {p : GhostPointInfo K} (hr : r < L.mpiSize) (hp : Point (B r) f loc s b p) :
    f < L.dim ∧ loc < L.dim * 2 ∧ Inside L.toMeshInfo f p.targetStencil ∧ p.targetPackedId = col L f p.targetStencil ∧
      AtSide L.toMeshInfo f loc p.targetStencil ∧ s = nbr loc p.targetStencil ∧ L.periodic 0 (loc / 2) = false := by
  obtain ⟨h1, h2, h4⟩ := point_target hL hG hr hp
  obtain ⟨u, hu, rfl, rfl, ht, hat, hs, hper, hloc⟩ := point_unknown hL hG hr hp
  rw [ht] at hat hs
  exact ⟨h1, hloc, h2, h4, hat, hs, hper⟩

section Ghosts
variable (D : Turned t L₁ L₂ axes₁ axes₂ T₁ T₂) (S₁ : Setup L₁ G₁ axes₁) (S₂ : Setup L₂ G₂ axes₂)
include D S₁ S₂

theorem turn_target (hG1 : GhostsOK debug L₁ G₁ B₁) (hG2 : GhostsOK debug L₂ G₂ B₂) {r₁ r₂ f loc : ℕ} {s : Stencil} {b₁ b₂ : SingleBoundary K}
    {p₁ p₂ : GhostPointInfo K} (hr1 : r₁ < L₁.mpiSize) (hr2 : r₂ < L₂.mpiSize) (hp1 : Point (B₁ r₁) f loc s b₁ p₁)
    (hp2 : Point (B₂ r₂) (t.perm f) (t.side loc) (t.point L₁.toMeshInfo f s) b₂ p₂) :
    p₂.targetStencil = t.point L₁.toMeshInfo f p₁.targetStencil := by
  have h3 := S₁.dim_le
  obtain ⟨a1, a2, a3, a4, a5, a6, a7⟩ := point_facts S₁.layout hG1 hr1 hp1
  obtain ⟨b1, b2, b3, b4, b5, b6, b7⟩ := point_facts S₂.layout hG2 hr2 hp2
  rw [a6, point_nbr D.turn h3 _ f _ (by omega)] at b6
  have hl := D.turn.side_lt a2
  exact (nbr_inj (loc' := t.side loc) (by omega) (by omega) b3 ((turn_inside D S₁ S₂ (Or.inl a1)).2 a3) b5 b6.symm).2

theorem turn_other (hG1 : GhostsOK debug L₁ G₁ B₁) (hG2 : GhostsOK debug L₂ G₂ B₂) {r g loc : ℕ} {s : Stencil}
    {b : SingleBoundary K} {p : GhostPointInfo K} (hr : r < L₂.mpiSize) (hp : Point (B₂ r) g loc s b p) :
    ∃ f l u r' b' p', f < L₁.dim ∧ t.perm f = g ∧ t.side l = loc ∧ t.point L₁.toMeshInfo f u = s ∧ r' < L₁.mpiSize ∧ Point (B₁ r') f l u b' p' := by
  have h3 := S₁.dim_le
  obtain ⟨b1, b2, b3, b4, b5, b6, b7⟩ := point_facts S₂.layout hG2 hr hp
  rw [D.dim] at b1 b2
  obtain ⟨l, hl, rfl⟩ := D.turn.exists_side b2
  obtain ⟨f, hf, rfl⟩ : ∃ f, f < L₁.dim ∧ t.perm f = g := ⟨_, D.turn.symm_lt b1, t.perm.apply_symm_apply g⟩
  rw [← point_turnBack D.turn h3 L₁.toMeshInfo f p.targetStencil] at b3 b5 b6
  rw [turn_inside D S₁ S₂ (Or.inl hf)] at b3
  rw [turn_atSide D S₁ S₂ hf hl] at b5
  rw [← point_nbr D.turn h3 _ f _ (by omega)] at b6
  rw [Turn.OK.side_div, D.periodic _ (by omega)] at b7
  obtain ⟨u, -, hu, rfl, hus⟩ := exists_unknown S₁.layout hf b3
  rw [← hus] at b5 b6
  obtain ⟨b', p', hp'⟩ := hG1.covered u.comp l u hu rfl hl b7 b5
  exact ⟨u.comp, l, _, u.rank, b', p', hf, rfl, rfl, b6.symm, hu.2.2.2.2.1, hp'⟩

end Ghosts

theorem TurnRecord.step {f : ℕ} {b₁ b₂ : SingleBoundary K} {p₁ p₂ : GhostPointInfo K} (h : TurnRecord t f b₁ p₁ b₂ p₂) {v₁ v₂ : ℤ → K}
    (hv : v₂ p₂.targetPackedId = t.sign f * v₁ p₁.targetPackedId) (dt : K) :
    TurnRecord t f (b₁.mapPoints (b₁.pointRun [.updateEqs v₁ dt])) (b₁.pointRun [.updateEqs v₁ dt] p₁)
      (b₂.mapPoints (b₂.pointRun [.updateEqs v₂ dt])) (b₂.pointRun [.updateEqs v₂ dt] p₂) ∧
    TurnRecord t f (b₁.mapPoints (b₁.pointRun [.updateGhostValues v₁])) (b₁.pointRun [.updateGhostValues v₁] p₁)
      (b₂.mapPoints (b₂.pointRun [.updateGhostValues v₂])) (b₂.pointRun [.updateGhostValues v₂] p₂) := by
  obtain ⟨e1, e2, e3, e5, e6, e7, e8⟩ := h
  constructor
  · refine ⟨e1, e2, e3, ?_⟩
    simp only [SingleBoundary.pointRun, List.foldl_cons, List.foldl_nil, SingleBoundary.pointStep,
      SingleBoundary.updateEqsKernel, SingleBoundary.kernel, hv, e1]
    cases ht : b₁.type with
    | CONVECTIVE =>
      have e2 := e2 ht
      by_cases hd : b₁.loc / 2 = b₁.field
      · simp only [if_pos hd, if_pos (e3.2 hd), SingleBoundary.kernelSameDir, e7, e8, and_true, true_and]
        linear_combination (-dt * t.sign f * (p₁.value - v₁ p₁.targetPackedId) / p₁.dL) * e2
      · simp only [if_neg hd, if_neg fun h => hd (e3.1 h), SingleBoundary.kernelDiffDir, e7, e8, and_true, true_and]
        linear_combination (-2 * dt * t.sign f * (p₁.value - v₁ p₁.targetPackedId) / p₁.dL) * e2
    | _ => exact ⟨e5, e6, e7, e8⟩
  · refine ⟨e1, e2, e3, ?_⟩
    simp only [SingleBoundary.pointRun, List.foldl_cons, List.foldl_nil, SingleBoundary.pointStep, e5, e6, e8, hv, and_true, true_and]
    ring

section Steps
variable (D : Turned t L₁ L₂ axes₁ axes₂ T₁ T₂) (S₁ : Setup L₁ G₁ axes₁) (S₂ : Setup L₂ G₂ axes₂)
include D S₁ S₂

theorem turn_value (hG1 : GhostsOK debug L₁ G₁ B₁) (hG2 : GhostsOK debug L₂ G₂ B₂) {v₁ v₂ : ℤ → K} (hv : TurnVel t L₁ L₂ v₁ v₂)
    {r₁ r₂ f loc : ℕ} {s : Stencil} {b₁ b₂ : SingleBoundary K}
    {p₁ p₂ : GhostPointInfo K} (hr1 : r₁ < L₁.mpiSize) (hr2 : r₂ < L₂.mpiSize) (hp1 : Point (B₁ r₁) f loc s b₁ p₁)
    (hp2 : Point (B₂ r₂) (t.perm f) (t.side loc) (t.point L₁.toMeshInfo f s) b₂ p₂) :
    v₂ p₂.targetPackedId = t.sign f * v₁ p₁.targetPackedId := by
  obtain ⟨a1, -, a3, a4, -⟩ := point_facts S₁.layout hG1 hr1 hp1
  obtain ⟨-, -, -, b4, -⟩ := point_facts S₂.layout hG2 hr2 hp2
  rw [a4, b4, turn_target D S₁ S₂ hG1 hG2 hr1 hr2 hp1 hp2]
  exact hv f a1 _ a3

theorem TurnGhosts.step (hG1 : GhostsOK debug L₁ G₁ B₁) (hG2 : GhostsOK debug L₂ G₂ B₂) (h : TurnGhosts t L₁ L₂ B₁ B₂) {v₁ v₂ : ℤ → K}
    (hv : TurnVel t L₁ L₂ v₁ v₂) (dt : K) :
    TurnGhosts t L₁ L₂ (fun r => (B₁ r).run [.updateEqs v₁ dt]) (fun r => (B₂ r).run [.updateEqs v₂ dt]) ∧
    TurnGhosts t L₁ L₂ (fun r => (B₁ r).run [.updateGhostValues v₁]) (fun r => (B₂ r).run [.updateGhostValues v₂]) := by
  constructor
  · intro f loc s r₁ b₁ p₁ r₂ b₂ p₂ hr1 hr2 hp1 hp2
    obtain ⟨c₁, q₁, k1, rfl, rfl⟩ := point_run hp1
    obtain ⟨c₂, q₂, k2, rfl, rfl⟩ := point_run hp2
    exact ((h f loc s r₁ c₁ q₁ r₂ c₂ q₂ hr1 hr2 k1 k2).step (turn_value D S₁ S₂ hG1 hG2 hv hr1 hr2 k1 k2) dt).1
  · intro f loc s r₁ b₁ p₁ r₂ b₂ p₂ hr1 hr2 hp1 hp2
    obtain ⟨c₁, q₁, k1, rfl, rfl⟩ := point_run hp1
    obtain ⟨c₂, q₂, k2, rfl, rfl⟩ := point_run hp2
    exact ((h f loc s r₁ c₁ q₁ r₂ c₂ q₂ hr1 hr2 k1 k2).step (turn_value D S₁ S₂ hG1 hG2 hv hr1 hr2 k1 k2) dt).2

end Steps

theorem turnGhosts_init (C₁ : Constructed debug L₁ G₁ axes₁ T₁ B₁) (C₂ : Constructed debug L₂ G₂ axes₂ T₂ B₂) (D : Turned t L₁ L₂ axes₁ axes₂ T₁ T₂)
    {v₁ v₂ : ℤ → K} (hv : TurnVel t L₁ L₂ v₁ v₂) :
    TurnGhosts t L₁ L₂ (fun r => (B₁ r).run [.setGhostICs v₁]) (fun r => (B₂ r).run [.setGhostICs v₂]) := by
  intro f loc s r₁ b₁ p₁ r₂ b₂ p₂ hr1 hr2 hp1 hp2
  have S₁ := C₁.setup
  have S₂ := C₂.setup
  have h3 := S₁.dim_le
  have hG1 := C₁.ghosts []
  have hG2 := C₂.ghosts []
  obtain ⟨c₁, q₁, k1, rfl, rfl⟩ := point_run hp1
  obtain ⟨c₂, q₂, k2, rfl, rfl⟩ := point_run hp2
  have hval := turn_value D S₁ S₂ hG1 hG2 hv hr1 hr2 k1 k2
  have et := turn_target D S₁ S₂ hG1 hG2 hr1 hr2 k1 k2
  obtain ⟨x1, x2, x3, -, -, x6, x7⟩ := point_facts S₁.layout hG1 hr1 k1
  obtain ⟨-, -, a1, a2, a3, a4, g1⟩ := point_boundaryInit S₁.layout (C₁.init r₁ hr1) C₁.pos k1
  obtain ⟨-, -, d1, d2, d3, d4, g2⟩ := point_boundaryInit S₂.layout (C₂.init r₂ hr2) C₂.pos k2
  have hd3 : loc / 2 < 3 := by omega
  -- distances
  have hdL : q₂.dL = q₁.dL := by
    have y1 := g1.dist
    have y2 := g2.dist
    rw [et] at y2
    unfold signedDistance at y1 y2
    rw [Turn.OK.side_div, Turn.OK.side_mod, coordOf_point D.turn h3 _ f _ hd3, coordOf_point D.turn h3 _ f _ hd3] at y2
    have r1 := x3.1 _ hd3
    have hs1 : coordOf s (loc / 2) = coordOf q₁.targetStencil (loc / 2) + if loc % 2 = 0 then -1 else 1 := by
      rw [x6]
      unfold nbr
      rw [coordOf_along _ _ _ _ hd3 hd3, if_pos rfl]
    rw [turn_coord D S₁ S₂ x1 (by omega) (by rw [hs1]; split_ifs <;> omega) (by rw [hs1]; split_ifs <;> omega),
      turn_coord D S₁ S₂ x1 (by omega) (by omega) (by omega), ← mul_sub, ← y1] at y2
    unfold Turn.sign at y2
    cases hfl : t.flip (loc / 2) <;> rcases Nat.mod_two_eq_zero_or_one loc with h | h <;> simp [hfl, h] at y2 <;> exact y2
  have tab := D.table f loc x1 x2
  have e4 : c₂.loc / 2 = c₂.field ↔ c₁.loc / 2 = c₁.field := by
    rw [d1, d2, a1, a2, Turn.OK.side_div]
    exact t.perm.injective.eq_iff
  have en : c₂.normal = t.sign (loc / 2) * c₁.normal := by
    unfold SingleBoundary.normal Turn.sign
    rw [d1, a1, Turn.OK.side_mod]
    cases hfl : t.flip (loc / 2) <;> rcases Nat.mod_two_eq_zero_or_one loc with h | h <;> simp [h]
  have n1 : c₁.type ≠ .NOBC := point_noBC (C₁.init r₁ hr1) k1
  have n2 : c₁.type ≠ .PERIODIC := by
    intro hc
    rw [a3] at hc
    rw [(C₁.table f loc x1 x2).1 hc] at x7
    cases x7
  rw [tab] at d3 d4
  have f1 : c₁.pointRun [.setGhostICs v₁] q₁ = c₁.setGhostICsKernel (v₁ q₁.targetPackedId) q₁ := rfl
  have f2 : c₂.pointRun [.setGhostICs v₂] q₂ = c₂.setGhostICsKernel (v₂ q₂.targetPackedId) q₂ := rfl
  have ss := sign_sq (K := K) t (loc / 2)
  cases ht : c₁.type with
  | NOBC => exact absurd ht n1
  | PERIODIC => exact absurd ht n2
  | DIRICHLET =>
    rw [ht] at a3
    have u1 : c₂.type = .DIRICHLET := by rw [d3]; unfold Turn.condition; rw [← a3]
    have u2 : c₂.value = t.sign f * c₁.value := by rw [d4, a4]; unfold Turn.condition; rw [← a3]
    refine ⟨?_, ?_, e4, ?_⟩
    · show c₂.type = c₁.type
      rw [u1, ht]
    · intro h
      have : c₁.type = .CONVECTIVE := h
      rw [ht] at this
      cases this
    · rw [f1, f2, hval]
      unfold SingleBoundary.setGhostICsKernel
      rw [u1, ht, u2]
      by_cases hd : c₁.loc / 2 = c₁.field
      · simp only [if_pos hd, if_pos (e4.2 hd), hdL, and_true, true_and]
        ring
      · simp only [if_neg hd, if_neg fun h => hd (e4.1 h), hdL, and_true, true_and]
        constructor <;> ring
  | NEUMANN =>
    rw [ht] at a3
    have u1 : c₂.type = .NEUMANN := by rw [d3]; unfold Turn.condition; rw [← a3]
    have u2 : c₂.value = t.sign f * t.sign (loc / 2) * c₁.value := by rw [d4, a4]; unfold Turn.condition; rw [← a3]
    refine ⟨?_, ?_, e4, ?_⟩
    · show c₂.type = c₁.type
      rw [u1, ht]
    · intro h
      have : c₁.type = .CONVECTIVE := h
      rw [ht] at this
      cases this
    · rw [f1, f2, hval]
      unfold SingleBoundary.setGhostICsKernel
      rw [u1, ht, u2, en]
      simp only [hdL, and_true, true_and]
      constructor
      · linear_combination (c₁.normal * q₁.dL * t.sign f * c₁.value) * ss
      · linear_combination (c₁.normal * q₁.dL * t.sign f * c₁.value) * ss
  | CONVECTIVE =>
    rw [ht] at a3
    have u1 : c₂.type = .CONVECTIVE := by rw [d3]; unfold Turn.condition; rw [← a3]
    have u2 : c₂.value = t.sign (loc / 2) * c₁.value := by rw [d4, a4]; unfold Turn.condition; rw [← a3]
    have u3 : c₂.normal * c₂.value = c₁.normal * c₁.value := by
      rw [u2, en]
      linear_combination (c₁.normal * c₁.value) * ss
    refine ⟨?_, fun _ => u3, e4, ?_⟩
    · show c₂.type = c₁.type
      rw [u1, ht]
    · rw [f1, f2, hval]
      unfold SingleBoundary.setGhostICsKernel SingleBoundary.kernel
      rw [u1, ht]
      by_cases hd : c₁.loc / 2 = c₁.field
      · simp only [if_pos hd, if_pos (e4.2 hd), SingleBoundary.kernelSameDir, hdL, and_true, true_and]
        ring
      · simp only [if_neg hd, if_neg fun h => hd (e4.1 h), SingleBoundary.kernelDiffDir, hdL, and_true, true_and]
        ring

/-! ### Fields -/

/-- a velocity field of the first system, in the second one -/
def turnField (t : Turn) (M : MeshInfo) (V : ℕ → Stencil → K) : ℕ → Stencil → K := fun g s =>
  t.sign (t.perm.symm g) * V (t.perm.symm g) (turnBack t M (t.perm.symm g) s)

theorem turnField_point (h : t.OK L₁) (h3 : L₁.dim ≤ 3) (M : MeshInfo) (V : ℕ → Stencil → K) (f : ℕ) (s : Stencil) :
    turnField t M V (t.perm f) (t.point M f s) = t.sign f * V f s := by
  unfold turnField
  rw [Equiv.symm_apply_apply, turnBack_point h h3]

section Fields
variable (D : Turned t L₁ L₂ axes₁ axes₂ T₁ T₂) (S₁ : Setup L₁ G₁ axes₁) (S₂ : Setup L₂ G₂ axes₂)
include D S₁ S₂

theorem turn_field_of {g : ℕ} (hg : g < L₂.dim) : ∃ f, f < L₁.dim ∧ t.perm f = g := by
  rw [D.dim] at hg
  exact ⟨_, D.turn.symm_lt hg, t.perm.apply_symm_apply g⟩

theorem turn_point_of {f : ℕ} (hf : f < L₁.dim ∨ f = 3) {s : Stencil} (hs : Inside L₂.toMeshInfo (t.perm f) s) :
    ∃ u, Inside L₁.toMeshInfo f u ∧ t.point L₁.toMeshInfo f u = s := by
  have h3 := S₁.dim_le
  rw [← point_turnBack D.turn h3 L₁.toMeshInfo f s, turn_inside D S₁ S₂ hf] at hs
  exact ⟨_, hs, point_turnBack D.turn h3 _ _ _⟩

theorem turn_stored_inside {v₁ v₂ : ℤ → K} (hv : TurnVel t L₁ L₂ v₁ v₂) {V : ℕ → Stencil → K}
    (hV : ∀ f s, f < L₁.dim → Inside L₁.toMeshInfo f s → V f s = v₁ (col L₁ f s)) {g : ℕ} (hg : g < L₂.dim) {s : Stencil} {idx : ℤ}
    (hs : Inside L₂.toMeshInfo g s) (hidx : L₂.getPackedGlobalIndex debug g s = .ok idx) : turnField t L₁.toMeshInfo V g s = v₂ idx := by
  have h3 := S₁.dim_le
  rw [(col_inside S₂.layout (Or.inl hg) debug hs).1] at hidx
  cases hidx
  obtain ⟨f, hf, rfl⟩ := turn_field_of D S₁ S₂ hg
  obtain ⟨u, hu, rfl⟩ := turn_point_of D S₁ S₂ (Or.inl hf) hs
  rw [turnField_point D.turn h3, hv f hf u hu, hV f u hf hu]

theorem turn_extended (hG1 : GhostsOK debug L₁ G₁ B₁) (hG2 : GhostsOK debug L₂ G₂ B₂) (h : TurnGhosts t L₁ L₂ B₁ B₂) {v₁ v₂ : ℤ → K}
    (hv : TurnVel t L₁ L₂ v₁ v₂) {V : ℕ → Stencil → K} (hV : Extended debug L₁ B₁ v₁ V) :
    Extended debug L₂ B₂ v₂ (turnField t L₁.toMeshInfo V) := by
  have h3 := S₁.dim_le
  constructor
  · intro g hg
    constructor
    · intro s idx hs hidx
      exact turn_stored_inside D S₁ S₂ hv
        (fun f s hf hs => (hV.stored f hf).inside s _ hs (col_inside S₁.layout (Or.inl hf) debug hs).1) hg hs hidx
    · intro s e x he hs hp hx
      obtain ⟨f, hf, rfl⟩ := turn_field_of D S₁ S₂ hg
      obtain ⟨d, hd, rfl⟩ := turn_field_of D S₁ S₂ he
      obtain ⟨u, hu, rfl⟩ := turn_point_of D S₁ S₂ (Or.inl hf) hs
      rw [D.periodic d hd] at hp
      have hfl := D.turn.periodic d hd hp
      rw [turn_n D S₁ S₂ (Or.inl hf) (by omega)] at hx ⊢
      have key : ∀ y, along (t.point L₁.toMeshInfo f u) (t.perm d) y = t.point L₁.toMeshInfo f (along u d y) := by
        intro y
        rw [point_along D.turn h3 _ _ _ (by omega)]
        simp [turnIdx, hfl]
      rw [key, key, turnField_point D.turn h3, turnField_point D.turn h3, (hV.stored f hf).periodic u d x hd hu hp hx]
  · intro r g loc s b p hr hp
    obtain ⟨f, l, u, r', b', p', hf, rfl, rfl, rfl, hr', hp'⟩ := turn_other D S₁ S₂ hG1 hG2 hr hp
    obtain ⟨-, -, -, e5, e6, -, -⟩ := h f l u r' b' p' r b p hr' hr hp' hp
    rw [turnField_point D.turn h3, turn_target D S₁ S₂ hG1 hG2 hr' hr hp' hp, turnField_point D.turn h3, hV.ghost r' f l u b' p' hr' hp', e5, e6]
    ring

theorem turn_filled (hG1 : GhostsOK debug L₁ G₁ B₁) (hG2 : GhostsOK debug L₂ G₂ B₂) (h : TurnGhosts t L₁ L₂ B₁ B₂) {v₁ v₂ : ℤ → K}
    (hv : TurnVel t L₁ L₂ v₁ v₂) {V : ℕ → Stencil → K} (hV : Filled debug L₁ B₁ v₁ V) :
    Filled debug L₂ B₂ v₂ (turnField t L₁.toMeshInfo V) := by
  have h3 := S₁.dim_le
  constructor
  · intro g s idx hg hs hidx
    exact turn_stored_inside D S₁ S₂ hv (fun f s hf hs => hV.inside f s _ hf hs (col_inside S₁.layout (Or.inl hf) debug hs).1) hg hs hidx
  · intro g s e hg he hp
    obtain ⟨f, hf, rfl⟩ := turn_field_of D S₁ S₂ hg
    obtain ⟨d, hd, rfl⟩ := turn_field_of D S₁ S₂ he
    obtain ⟨u, rfl⟩ : ∃ u, t.point L₁.toMeshInfo f u = s := ⟨_, point_turnBack D.turn h3 _ _ _⟩
    rw [D.periodic d hd] at hp
    have hfl := D.turn.periodic d hd hp
    rw [turn_n D S₁ S₂ (Or.inl hf) (by omega), coordOf_point D.turn h3 _ _ _ (by omega)]
    have key : along (t.point L₁.toMeshInfo f u) (t.perm d) (turnIdx t L₁.toMeshInfo f d (coordOf u d) % L₁.n f d) =
        t.point L₁.toMeshInfo f (along u d (coordOf u d % L₁.n f d)) := by
      rw [point_along D.turn h3 _ _ _ (by omega)]
      simp [turnIdx, hfl]
    rw [key, turnField_point D.turn h3, turnField_point D.turn h3, hV.periodic f u d hf hd hp]
  · intro r g loc s b p hr hp
    obtain ⟨f, l, u, r', b', p', hf, rfl, rfl, rfl, hr', hp'⟩ := turn_other D S₁ S₂ hG1 hG2 hr hp
    obtain ⟨-, -, -, -, -, e7, -⟩ := h f l u r' b' p' r b p hr' hr hp' hp
    rw [turnField_point D.turn h3, hV.ghost r' f l u b' p' hr' hp', e7]

end Fields

end PetIBM
