/-
Fields, ghost points and operators of two distributions of one mesh.
-/
import Verif.Props.Poisson
import Verif.Spec.Processes

set_option linter.unusedSectionVars false

namespace PetIBM

open Spec

variable {K : Type} [Field K] [LinearOrder K] [IsStrictOrderedRing K]
variable {debug : Bool} {L₁ L₂ : Layout} {G : Geom K} {axes₁ axes₂ axes : ℕ → Axis K} {T : BCTable K} {B₁ B₂ : ℕ → Boundary K}

/-- the same values of field `f` -/
def SameAt (L₁ L₂ : Layout) (f : ℕ) (q₁ q₂ : ℤ → K) : Prop :=
  ∀ s, Inside L₁.toMeshInfo f s → q₁ (col L₁ f s) = q₂ (col L₂ f s)

/-- the same velocity -/
def SameVel (L₁ L₂ : Layout) (q₁ q₂ : ℤ → K) : Prop := ∀ f, f < L₁.dim → SameAt L₁ L₂ f q₁ q₂

/-- boundary points with the same equation and value -/
def SameRecord (b₁ : SingleBoundary K) (p₁ : GhostPointInfo K) (b₂ : SingleBoundary K) (p₂ : GhostPointInfo K) : Prop :=
  b₁.type = b₂.type ∧ b₁.value = b₂.value ∧ b₁.loc = b₂.loc ∧ b₁.field = b₂.field ∧ p₁.a0 = p₂.a0 ∧ p₁.a1 = p₂.a1 ∧
    p₁.value = p₂.value ∧ p₁.dL = p₂.dL

/-- corresponding boundary points -/
def SameGhosts (L₁ L₂ : Layout) (B₁ B₂ : ℕ → Boundary K) : Prop :=
  ∀ f loc s r₁ b₁ p₁ r₂ b₂ p₂, r₁ < L₁.mpiSize → r₂ < L₂.mpiSize → Point (B₁ r₁) f loc s b₁ p₁ → Point (B₂ r₂) f loc s b₂ p₂ →
    SameRecord b₁ p₁ b₂ p₂

/-- a vector for the second distribution -/
theorem exists_sameVel (h2 : LayoutOK L₂) (hM : L₂.toMeshInfo = L₁.toMeshInfo) (q : ℤ → K) : ∃ q', SameVel L₁ L₂ q q' := by
  classical
  refine ⟨fun j => if h : ∃ u : ℕ × Stencil, u.1 < L₁.dim ∧ Inside L₁.toMeshInfo u.1 u.2 ∧ col L₂ u.1 u.2 = j then
    q (col L₁ h.choose.1 h.choose.2) else 0, ?_⟩
  intro f hf s hs
  have hex : ∃ u : ℕ × Stencil, u.1 < L₁.dim ∧ Inside L₁.toMeshInfo u.1 u.2 ∧ col L₂ u.1 u.2 = col L₂ f s := ⟨(f, s), hf, hs, rfl⟩
  simp only
  rw [dif_pos hex]
  obtain ⟨e1, e2, e3⟩ := hex.choose_spec
  obtain ⟨e4, e5⟩ := col_inj h2 (by rw [hM]; exact e1) (by rw [hM]; exact hf) (by rw [hM]; exact e2) (by rw [hM]; exact hs) e3
  rw [e4, e5]

theorem exists_sameCells (h2 : LayoutOK L₂) (hM : L₂.toMeshInfo = L₁.toMeshInfo) (q : ℤ → K) : ∃ q', SameAt L₁ L₂ 3 q q' := by
  classical
  refine ⟨fun j => if h : ∃ s, Inside L₁.toMeshInfo 3 s ∧ col L₂ 3 s = j then q (col L₁ 3 h.choose) else 0, ?_⟩
  intro s hs
  have hex : ∃ t, Inside L₁.toMeshInfo 3 t ∧ col L₂ 3 t = col L₂ 3 s := ⟨s, hs, rfl⟩
  simp only
  rw [dif_pos hex]
  obtain ⟨e1, e2⟩ := hex.choose_spec
  rw [col_inj_pressure h2 (by rw [hM]; exact e1) (by rw [hM]; exact hs) e2]

/-! ### Ghost points -/

theorem SameVel.unknown {q₁ q₂ : ℤ → K} (h : SameVel L₁ L₂ q₁ q₂) {u : Unknown} (hu : IsUnknown L₁ u) :
    q₁ (col L₁ u.comp u.st) = q₂ (col L₂ u.comp u.st) := h u.comp hu.1 u.st hu.inside

theorem point_target (h1 : LayoutOK L₁) {B : ℕ → Boundary K} (hG : GhostsOK debug L₁ G B) {r f loc : ℕ} {s : Stencil}
    {b : SingleBoundary K} {p : GhostPointInfo K} (hr : r < L₁.mpiSize) (hp : Point (B r) f loc s b p) :
    f < L₁.dim ∧ Inside L₁.toMeshInfo f p.targetStencil ∧ p.targetPackedId = col L₁ f p.targetStencil := by
  obtain ⟨u, hu, rfl, rfl, ht, -, -, -, -⟩ := point_unknown h1 hG hr hp
  obtain ⟨hf, -, good⟩ := hG.good _ _ _ _ _ _ hr hp
  have hin := hu.inside
  rw [ht] at hin
  refine ⟨hf, hin, ?_⟩
  have e := (col_inside h1 (Or.inl hf) debug hin).1
  rw [good.packed] at e
  exact Except.ok.inj e

/-- the same boundary point in the other distribution -/
theorem other_point (h1 : LayoutOK L₁) (h2 : LayoutOK L₂) (hM : L₂.toMeshInfo = L₁.toMeshInfo) (hG1 : GhostsOK debug L₁ G B₁)
    (hG2 : GhostsOK debug L₂ G B₂) {r f loc : ℕ} {s : Stencil} {b : SingleBoundary K} {p : GhostPointInfo K} (hr : r < L₂.mpiSize)
    (hp : Point (B₂ r) f loc s b p) :
    ∃ r' b' p', r' < L₁.mpiSize ∧ Point (B₁ r') f loc s b' p' ∧ p'.targetStencil = p.targetStencil := by
  obtain ⟨u, hu, rfl, rfl, ht, hat, hs, hper, hloc⟩ := point_unknown h2 hG2 hr hp
  have hin := hu.inside
  have hd := hu.1
  rw [hM] at hin hat hper hloc hd
  obtain ⟨v, -, hv, hvc, hvs⟩ := exists_unknown h1 hd hin
  obtain ⟨b', p', hp'⟩ := hG1.covered v.comp loc v hv rfl hloc hper (by rw [hvc, hvs]; exact hat)
  rw [hvs, ← hs, hvc] at hp'
  obtain ⟨w, hw, hwr, hwc, hwt, hwat, hws, -, -⟩ := point_unknown h1 hG1 hv.2.2.2.2.1 hp'
  refine ⟨v.rank, b', p', hv.2.2.2.2.1, hp', ?_⟩
  rw [← hwt, ← ht]
  have h3 : L₁.dim ≤ 3 := by rcases h1.dim with h | h <;> omega
  have hwin := hw.inside
  rw [hwc] at hwin
  have hl6 : loc < 6 := by omega
  exact (nbr_inj (loc' := loc) hl6 hl6 hwin hin hwat (by rw [← hws, hs])).2

theorem same_target (h1 : LayoutOK L₁) (h2 : LayoutOK L₂) (hM : L₂.toMeshInfo = L₁.toMeshInfo) (hG1 : GhostsOK debug L₁ G B₁)
    (hG2 : GhostsOK debug L₂ G B₂) {r₁ r₂ f loc : ℕ} {s : Stencil} {b₁ b₂ : SingleBoundary K} {p₁ p₂ : GhostPointInfo K}
    (hr1 : r₁ < L₁.mpiSize) (hr2 : r₂ < L₂.mpiSize) (hp1 : Point (B₁ r₁) f loc s b₁ p₁) (hp2 : Point (B₂ r₂) f loc s b₂ p₂) :
    p₁.targetStencil = p₂.targetStencil := by
  obtain ⟨r', b', p', hr', hp', e⟩ := other_point h1 h2 hM hG1 hG2 hr2 hp2
  rw [← e, point_unique h1 hG1 hr1 hr' hp1 hp']

theorem SameRecord.step {b₁ b₂ : SingleBoundary K} {p₁ p₂ : GhostPointInfo K} (h : SameRecord b₁ p₁ b₂ p₂) {v₁ v₂ : ℤ → K}
    (hv : v₁ p₁.targetPackedId = v₂ p₂.targetPackedId) (dt : K) :
    SameRecord (b₁.mapPoints (b₁.pointRun [.updateEqs v₁ dt])) (b₁.pointRun [.updateEqs v₁ dt] p₁)
      (b₂.mapPoints (b₂.pointRun [.updateEqs v₂ dt])) (b₂.pointRun [.updateEqs v₂ dt] p₂) ∧
    SameRecord (b₁.mapPoints (b₁.pointRun [.updateGhostValues v₁])) (b₁.pointRun [.updateGhostValues v₁] p₁)
      (b₂.mapPoints (b₂.pointRun [.updateGhostValues v₂])) (b₂.pointRun [.updateGhostValues v₂] p₂) := by
  obtain ⟨e1, e2, e3, e4, e5, e6, e7, e8⟩ := h
  have en : b₁.normal = b₂.normal := by unfold SingleBoundary.normal; rw [e3]
  constructor
  · simp only [SingleBoundary.pointRun, List.foldl_cons, List.foldl_nil, SingleBoundary.pointStep, SingleBoundary.mapPoints,
      SingleBoundary.updateEqsKernel, SingleBoundary.kernel, hv, SameRecord, e1, e2, e3, e4, en]
    cases b₂.type <;> simp only [e5, e6, e7, e8, true_and, and_self]
    split_ifs <;> simp only [SingleBoundary.kernelSameDir, SingleBoundary.kernelDiffDir, e5, e6, e7, e8, and_self]
  · simp only [SingleBoundary.pointRun, List.foldl_cons, List.foldl_nil, SingleBoundary.pointStep, SingleBoundary.mapPoints,
      SameRecord, e1, e2, e3, e4, e5, e6, e8, hv, and_self]

theorem SameGhosts.step (h1 : LayoutOK L₁) (h2 : LayoutOK L₂) (hM : L₂.toMeshInfo = L₁.toMeshInfo) (hG1 : GhostsOK debug L₁ G B₁)
    (hG2 : GhostsOK debug L₂ G B₂) (h : SameGhosts L₁ L₂ B₁ B₂) {v₁ v₂ : ℤ → K} (hv : SameVel L₁ L₂ v₁ v₂) (dt : K) :
    SameGhosts L₁ L₂ (fun r => (B₁ r).run [.updateEqs v₁ dt]) (fun r => (B₂ r).run [.updateEqs v₂ dt]) ∧
    SameGhosts L₁ L₂ (fun r => (B₁ r).run [.updateGhostValues v₁]) (fun r => (B₂ r).run [.updateGhostValues v₂]) := by
  have key : ∀ {f loc s r₁ b₁ p₁ r₂ b₂ p₂}, r₁ < L₁.mpiSize → r₂ < L₂.mpiSize → Point (B₁ r₁) f loc s b₁ p₁ → Point (B₂ r₂) f loc s b₂ p₂ →
      v₁ p₁.targetPackedId = v₂ p₂.targetPackedId := by
    intro f loc s r₁ b₁ p₁ r₂ b₂ p₂ hr1 hr2 hp1 hp2
    obtain ⟨hf, hin, e⟩ := point_target h1 hG1 hr1 hp1
    obtain ⟨-, -, e'⟩ := point_target h2 hG2 hr2 hp2
    rw [e, e', ← same_target h1 h2 hM hG1 hG2 hr1 hr2 hp1 hp2]
    exact hv f hf _ hin
  constructor
  · intro f loc s r₁ b₁ p₁ r₂ b₂ p₂ hr1 hr2 hp1 hp2
    obtain ⟨c₁, q₁, k1, rfl, rfl⟩ := point_run hp1
    obtain ⟨c₂, q₂, k2, rfl, rfl⟩ := point_run hp2
    exact ((h f loc s r₁ c₁ q₁ r₂ c₂ q₂ hr1 hr2 k1 k2).step (key hr1 hr2 k1 k2) dt).1
  · intro f loc s r₁ b₁ p₁ r₂ b₂ p₂ hr1 hr2 hp1 hp2
    obtain ⟨c₁, q₁, k1, rfl, rfl⟩ := point_run hp1
    obtain ⟨c₂, q₂, k2, rfl, rfl⟩ := point_run hp2
    exact ((h f loc s r₁ c₁ q₁ r₂ c₂ q₂ hr1 hr2 k1 k2).step (key hr1 hr2 k1 k2) dt).2

theorem point_noBC {L : Layout} {r : ℕ} {B : Boundary K} (hB : boundaryInit debug L G r T = .ok B) {f loc : ℕ} {s : Stencil}
    {b : SingleBoundary K} {p : GhostPointInfo K} (hp : Point B f loc s b p) : b.type ≠ .NOBC := by
  obtain ⟨l, hl, hb, hs⟩ := hp
  unfold boundaryInit at hB
  obtain ⟨f', hf', hl'⟩ := (mapM_except_getElem? hB f).2 l hl
  obtain ⟨hf, rfl⟩ := getElem?_range_some hf'
  obtain ⟨loc', hloc', hb'⟩ := (mapM_except_getElem? hl' loc).2 b hb
  obtain ⟨hloc, rfl⟩ := getElem?_range_some hloc'
  obtain ⟨h1, h2, h3, h4, h5⟩ := createSingleBoundary_static hb'
  rw [h3]
  exact h5

theorem sameGhosts_run (C₁ : Constructed debug L₁ G axes₁ T B₁) (C₂ : Constructed debug L₂ G axes₂ T B₂) (hM : L₂.toMeshInfo = L₁.toMeshInfo)
    {v₁ v₂ : ℤ → K} (hv : SameVel L₁ L₂ v₁ v₂)
    (k₁ k₂ : List (Boundary.Op K)) :
    SameGhosts L₁ L₂ (fun r => (B₁ r).run (k₁ ++ [.setGhostICs v₁])) (fun r => (B₂ r).run (k₂ ++ [.setGhostICs v₂])) := by
  intro f loc s r₁ b₁ p₁ r₂ b₂ p₂ hr1 hr2 hp1 hp2
  have h1 := C₁.setup.layout
  have h2 := C₂.setup.layout
  have hG1 := C₁.ghosts []
  have hG2 := C₂.ghosts []
  obtain ⟨c₁, q₁, k1, rfl, rfl⟩ := point_run hp1
  obtain ⟨c₂, q₂, k2, rfl, rfl⟩ := point_run hp2
  obtain ⟨hf, hin, e⟩ := point_target h1 hG1 hr1 k1
  obtain ⟨-, -, e'⟩ := point_target h2 hG2 hr2 k2
  have et := same_target h1 h2 hM hG1 hG2 hr1 hr2 k1 k2
  have hval : v₁ q₁.targetPackedId = v₂ q₂.targetPackedId := by
    rw [e, e', ← et]
    exact hv f hf _ hin
  obtain ⟨-, -, a1, a2, a3, a4, g1⟩ := point_boundaryInit h1 (C₁.init r₁ hr1) C₁.pos k1
  obtain ⟨-, -, d1, d2, d3, d4, g2⟩ := point_boundaryInit h2 (C₂.init r₂ hr2) C₂.pos k2
  have hdL : q₁.dL = q₂.dL := by
    have x1 := g1.dist
    have x2 := g2.dist
    rw [← et] at x2
    rw [← x1] at x2
    split_ifs at x2
    · exact (neg_injective x2).symm
    · exact x2.symm
  have e1 : c₁.type = c₂.type := by rw [a3, d3]
  have e2 : c₁.value = c₂.value := by rw [a4, d4]
  have e3 : c₁.loc = c₂.loc := by rw [a1, d1]
  have e4 : c₁.field = c₂.field := by rw [a2, d2]
  have en : c₁.normal = c₂.normal := by unfold SingleBoundary.normal; rw [e3]
  have n1 : c₂.type ≠ .NOBC := point_noBC (C₂.init r₂ hr2) k2
  have n2 : c₂.type ≠ .PERIODIC := by
    intro hc
    rw [d3] at hc
    obtain ⟨-, hloc, -⟩ := hG2.good r₂ f loc s c₂ q₂ hr2 k2
    have := hG2.periodic r₂ f loc s c₂ q₂ hr2 k2
    have hf2 : f < L₂.dim := by rw [hM]; exact hf
    rw [(C₂.table f loc hf2 hloc).1 hc] at this
    cases this
  obtain ⟨w1, w2, -⟩ := SingleBoundary.pointRun_static c₁ k₁ q₁
  obtain ⟨z1, z2, -⟩ := SingleBoundary.pointRun_static c₂ k₂ q₂
  rw [← w1, ← z1] at hval
  rw [← w2, ← z2] at hdL
  have f1 : c₁.pointRun (k₁ ++ [.setGhostICs v₁]) q₁ = c₁.pointStep (c₁.pointRun k₁ q₁) (.setGhostICs v₁) := by
    simp [SingleBoundary.pointRun, List.foldl_append]
  have f2 : c₂.pointRun (k₂ ++ [.setGhostICs v₂]) q₂ = c₂.pointStep (c₂.pointRun k₂ q₂) (.setGhostICs v₂) := by
    simp [SingleBoundary.pointRun, List.foldl_append]
  rw [f1, f2]
  generalize c₁.pointRun k₁ q₁ = q₁ at hval hdL ⊢
  generalize c₂.pointRun k₂ q₂ = q₂ at hval hdL ⊢
  simp only [SingleBoundary.pointStep, SingleBoundary.mapPoints,
    SingleBoundary.setGhostICsKernel, SingleBoundary.kernel, hval, SameRecord, e1, e2, e3, e4, en]
  cases ht : c₂.type with
  | NOBC => exact absurd ht n1
  | PERIODIC => exact absurd ht n2
  | DIRICHLET => simp only [hdL]; split_ifs <;> simp [hdL]
  | NEUMANN => simp [hdL]
  | CONVECTIVE => simp only; split_ifs <;> simp [hdL, SingleBoundary.kernelSameDir, SingleBoundary.kernelDiffDir]

theorem sameGhosts_init (C₁ : Constructed debug L₁ G axes₁ T B₁) (C₂ : Constructed debug L₂ G axes₂ T B₂) (hM : L₂.toMeshInfo = L₁.toMeshInfo)
    {v₁ v₂ : ℤ → K} (hv : SameVel L₁ L₂ v₁ v₂) :
    SameGhosts L₁ L₂ (fun r => (B₁ r).run [.setGhostICs v₁]) (fun r => (B₂ r).run [.setGhostICs v₂]) :=
  sameGhosts_run C₁ C₂ hM hv [] []

/-! ### Fields -/

theorem Extended.transfer (h1 : LayoutOK L₁) (h2 : LayoutOK L₂) (hM : L₂.toMeshInfo = L₁.toMeshInfo) (hG1 : GhostsOK debug L₁ G B₁)
    (hG2 : GhostsOK debug L₂ G B₂) (h : SameGhosts L₁ L₂ B₁ B₂) {v₁ v₂ : ℤ → K} (hv : SameVel L₁ L₂ v₁ v₂) {V : ℕ → Stencil → K}
    (hV : Extended debug L₁ B₁ v₁ V) : Extended debug L₂ B₂ v₂ V := by
  constructor
  · intro f hf
    have hf1 : f < L₁.dim := by rw [← hM]; exact hf
    constructor
    · intro s idx hs hidx
      have hs1 : Inside L₁.toMeshInfo f s := by rw [← hM]; exact hs
      rw [(hV.stored f hf1).inside s _ hs1 (col_inside h1 (Or.inl hf1) debug hs1).1, hv f hf1 s hs1]
      rw [(col_inside h2 (Or.inl hf) debug hs).1] at hidx
      rw [Except.ok.inj hidx]
    · rw [hM]
      exact (hV.stored f hf1).periodic
  · intro r f loc s b p hr hp
    obtain ⟨r', b', p', hr', hp', e⟩ := other_point h1 h2 hM hG1 hG2 hr hp
    obtain ⟨-, -, -, -, e5, e6, -, -⟩ := h f loc s r' b' p' r b p hr' hr hp' hp
    rw [hV.ghost r' f loc s b' p' hr' hp', e, e5, e6]

theorem Filled.transfer (h1 : LayoutOK L₁) (h2 : LayoutOK L₂) (hM : L₂.toMeshInfo = L₁.toMeshInfo) (hG1 : GhostsOK debug L₁ G B₁)
    (hG2 : GhostsOK debug L₂ G B₂) (h : SameGhosts L₁ L₂ B₁ B₂) {v₁ v₂ : ℤ → K} (hv : SameVel L₁ L₂ v₁ v₂) {V : ℕ → Stencil → K}
    (hV : Filled debug L₁ B₁ v₁ V) : Filled debug L₂ B₂ v₂ V := by
  constructor
  · intro f s idx hf hs hidx
    have hf1 : f < L₁.dim := by rw [← hM]; exact hf
    have hs1 : Inside L₁.toMeshInfo f s := by rw [← hM]; exact hs
    rw [hV.inside f s _ hf1 hs1 (col_inside h1 (Or.inl hf1) debug hs1).1, hv f hf1 s hs1]
    rw [(col_inside h2 (Or.inl hf) debug hs).1] at hidx
    rw [Except.ok.inj hidx]
  · rw [hM]
    exact hV.periodic
  · intro r f loc s b p hr hp
    obtain ⟨r', b', p', hr', hp', e⟩ := other_point h1 h2 hM hG1 hG2 hr hp
    obtain ⟨-, -, -, -, -, -, e7, -⟩ := h f loc s r' b' p' r b p hr' hr hp' hp
    rw [hV.ghost r' f loc s b' p' hr' hp', e7]

/-! ### Operators -/

theorem SameVel.of_packed (h1 : LayoutOK L₁) (h2 : LayoutOK L₂) (hM : L₂.toMeshInfo = L₁.toMeshInfo) {f : ℕ} (hf : f < L₁.dim) {s : Stencil}
    (hs : Inside L₁.toMeshInfo f s) (debug : Bool) : L₁.getPackedGlobalIndex debug f s = .ok (col L₁ f s) ∧
      L₂.getPackedGlobalIndex debug f s = .ok (col L₂ f s) :=
  ⟨(col_inside h1 (Or.inl hf) debug hs).1, (col_inside h2 (Or.inl (by rw [hM]; exact hf)) debug (by rw [hM]; exact hs)).1⟩

theorem mult_zero (N : ℕ) (A : Mat K) (i : ℤ) : Mat.mult N A (fun _ => 0) i = 0 := by
  unfold Mat.mult
  simp

theorem laplacian_same (C₁ : Constructed debug L₁ G axes T B₁) (C₂ : Constructed debug L₂ G axes T B₂) (hM : L₂.toMeshInfo = L₁.toMeshInfo)
    (hn : ∀ f d, f < L₁.dim → d < L₁.dim → L₁.periodic 0 d = true → 3 ≤ L₁.n f d) {h₁ h₂ : List (Boundary.Op K)} (hi1 : Initialised h₁) (hi2 : Initialised h₂)
    (hg : SameGhosts L₁ L₂ (fun r => (B₁ r).run h₁) fun r => (B₂ r).run h₂) {A₁ A₂ : Mat K} {m₁ m₂ : Modifiers K}
    (e1 : createLaplacian debug L₁ G (fun r => (B₁ r).run h₁) = .ok (A₁, m₁)) (e2 : createLaplacian debug L₂ G (fun r => (B₂ r).run h₂) = .ok (A₂, m₂)) :
    (∀ q₁ q₂ : ℤ → K, SameVel L₁ L₂ q₁ q₂ → SameVel L₁ L₂ (Mat.mult L₁.UN A₁ q₁) (Mat.mult L₂.UN A₂ q₂)) ∧
    ∀ k₁ k₂ : List (Boundary.Op K), SameGhosts L₁ L₂ (fun r => (B₁ r).run (h₁ ++ k₁)) (fun r => (B₂ r).run (h₂ ++ k₂)) →
      SameVel L₁ L₂ (correctionMult L₁ (fun r => (B₁ r).run (h₁ ++ k₁)) m₁) (correctionMult L₂ (fun r => (B₂ r).run (h₂ ++ k₂)) m₂) := by
  have l1 := C₁.setup.layout
  have l2 := C₂.setup.layout
  obtain ⟨A, m, e, r1⟩ := C22_laplacian_of_extended_field_partial C₁ hn h₁ hi1
  rw [e1] at e
  cases e
  obtain ⟨A, m, e, r2⟩ := C22_laplacian_of_extended_field_partial C₂ (by rw [hM]; exact hn) h₂ hi2
  rw [e2] at e
  cases e
  have key : ∀ k₁ k₂ : List (Boundary.Op K), SameGhosts L₁ L₂ (fun r => (B₁ r).run (h₁ ++ k₁)) (fun r => (B₂ r).run (h₂ ++ k₂)) →
      ∀ q₁ q₂ : ℤ → K, SameVel L₁ L₂ q₁ q₂ → ∀ f, f < L₁.dim → ∀ s, Inside L₁.toMeshInfo f s →
        Mat.mult L₁.UN A₁ q₁ (col L₁ f s) + correctionMult L₁ (fun r => (B₁ r).run (h₁ ++ k₁)) m₁ (col L₁ f s) =
          Mat.mult L₂.UN A₂ q₂ (col L₂ f s) + correctionMult L₂ (fun r => (B₂ r).run (h₂ ++ k₂)) m₂ (col L₂ f s) := by
    intro k₁ k₂ hk q₁ q₂ hq f hf s hs
    obtain ⟨V, hV⟩ := exists_extended l1 (C₁.ghosts (h₁ ++ k₁)) q₁
    have hV2 := Extended.transfer l1 l2 hM (C₁.ghosts (h₁ ++ k₁)) (C₂.ghosts (h₂ ++ k₂)) hk hq hV
    obtain ⟨x1, x2⟩ := SameVel.of_packed l1 l2 hM hf hs debug
    rw [r1 k₁ q₁ V hV f s _ hf hs x1, r2 k₂ q₂ V hV2 f s _ (by rw [hM]; exact hf) (by rw [hM]; exact hs) x2, hM]
  have corr : ∀ k₁ k₂ : List (Boundary.Op K), SameGhosts L₁ L₂ (fun r => (B₁ r).run (h₁ ++ k₁)) (fun r => (B₂ r).run (h₂ ++ k₂)) →
      SameVel L₁ L₂ (correctionMult L₁ (fun r => (B₁ r).run (h₁ ++ k₁)) m₁) (correctionMult L₂ (fun r => (B₂ r).run (h₂ ++ k₂)) m₂) := by
    intro k₁ k₂ hk f hf s hs
    have := key k₁ k₂ hk (fun _ => 0) (fun _ => 0) (fun _ _ _ _ => rfl) f hf s hs
    rwa [mult_zero, mult_zero, zero_add, zero_add] at this
  refine ⟨?_, corr⟩
  intro q₁ q₂ hq f hf s hs
  have a := key [] [] (by simpa using hg) q₁ q₂ hq f hf s hs
  rw [corr [] [] (by simpa using hg) f hf s hs] at a
  exact add_right_cancel a

theorem divergence_same (C₁ : Constructed debug L₁ G axes T B₁) (C₂ : Constructed debug L₂ G axes T B₂) (hM : L₂.toMeshInfo = L₁.toMeshInfo)
    (hn : ∀ f, f < L₁.dim → L₁.periodic 0 f = true → 2 ≤ L₁.n f f) {h₁ h₂ : List (Boundary.Op K)} (hi1 : Initialised h₁) (hi2 : Initialised h₂)
    (hg : SameGhosts L₁ L₂ (fun r => (B₁ r).run h₁) fun r => (B₂ r).run h₂) {A₁ A₂ : Mat K} {m₁ m₂ : Modifiers K}
    (e1 : createDivergence debug L₁ G false (fun r => (B₁ r).run h₁) = .ok (A₁, m₁))
    (e2 : createDivergence debug L₂ G false (fun r => (B₂ r).run h₂) = .ok (A₂, m₂)) :
    (∀ q₁ q₂ : ℤ → K, SameVel L₁ L₂ q₁ q₂ → SameAt L₁ L₂ 3 (Mat.mult L₁.UN A₁ q₁) (Mat.mult L₂.UN A₂ q₂)) ∧
    ∀ k₁ k₂ : List (Boundary.Op K), SameGhosts L₁ L₂ (fun r => (B₁ r).run (h₁ ++ k₁)) (fun r => (B₂ r).run (h₂ ++ k₂)) →
      SameAt L₁ L₂ 3 (correctionMult L₁ (fun r => (B₁ r).run (h₁ ++ k₁)) m₁) (correctionMult L₂ (fun r => (B₂ r).run (h₂ ++ k₂)) m₂) := by
  have l1 := C₁.setup.layout
  have l2 := C₂.setup.layout
  obtain ⟨A, m, e, r1⟩ := C21_divergence_is_net_flux_partial C₁ hn h₁ hi1
  rw [e1] at e
  cases e
  obtain ⟨A, m, e, r2⟩ := C21_divergence_is_net_flux_partial C₂ (by rw [hM]; exact hn) h₂ hi2
  rw [e2] at e
  cases e
  have key : ∀ k₁ k₂ : List (Boundary.Op K), SameGhosts L₁ L₂ (fun r => (B₁ r).run (h₁ ++ k₁)) (fun r => (B₂ r).run (h₂ ++ k₂)) →
      ∀ q₁ q₂ : ℤ → K, SameVel L₁ L₂ q₁ q₂ → ∀ s, Inside L₁.toMeshInfo 3 s →
        Mat.mult L₁.UN A₁ q₁ (col L₁ 3 s) + correctionMult L₁ (fun r => (B₁ r).run (h₁ ++ k₁)) m₁ (col L₁ 3 s) =
          Mat.mult L₂.UN A₂ q₂ (col L₂ 3 s) + correctionMult L₂ (fun r => (B₂ r).run (h₂ ++ k₂)) m₂ (col L₂ 3 s) := by
    intro k₁ k₂ hk q₁ q₂ hq s hs
    have hs2 : Inside L₂.toMeshInfo 3 s := by rw [hM]; exact hs
    obtain ⟨V, hV⟩ := exists_extended l1 (C₁.ghosts (h₁ ++ k₁)) q₁
    have hV2 := Extended.transfer l1 l2 hM (C₁.ghosts (h₁ ++ k₁)) (C₂.ghosts (h₂ ++ k₂)) hk hq hV
    rw [r1 k₁ q₁ V hV s _ hs (col_inside l1 (Or.inr rfl) debug hs).1, r2 k₂ q₂ V hV2 s _ hs2 (col_inside l2 (Or.inr rfl) debug hs2).1, hM]
  have corr : ∀ k₁ k₂ : List (Boundary.Op K), SameGhosts L₁ L₂ (fun r => (B₁ r).run (h₁ ++ k₁)) (fun r => (B₂ r).run (h₂ ++ k₂)) →
      SameAt L₁ L₂ 3 (correctionMult L₁ (fun r => (B₁ r).run (h₁ ++ k₁)) m₁) (correctionMult L₂ (fun r => (B₂ r).run (h₂ ++ k₂)) m₂) := by
    intro k₁ k₂ hk s hs
    have := key k₁ k₂ hk (fun _ => 0) (fun _ => 0) (fun _ _ _ _ => rfl) s hs
    rwa [mult_zero, mult_zero, zero_add, zero_add] at this
  refine ⟨?_, corr⟩
  intro q₁ q₂ hq s hs
  have a := key [] [] (by simpa using hg) q₁ q₂ hq s hs
  rw [corr [] [] (by simpa using hg) s hs] at a
  exact add_right_cancel a

/-- a pressure field -/
theorem exists_stored (hL : LayoutOK L₁) (q : ℤ → K) : ∃ P, Stored debug L₁ 3 q P := by
  refine ⟨fun s => q (col L₁ 3 ⟨s.k % L₁.n 3 2, s.j % L₁.n 3 1, s.i % L₁.n 3 0, s.c⟩), ?_, ?_⟩
  · intro s idx hs hidx
    rw [(col_inside hL (Or.inr rfl) debug hs).1] at hidx
    cases hidx
    have h0 := hs.1 0 (by omega)
    have h1 := hs.1 1 (by omega)
    have h2 := hs.1 2 (by omega)
    simp only [coordOf] at h0 h1 h2
    norm_num at h0 h1 h2
    rw [Int.emod_eq_of_lt h0.1 h0.2, Int.emod_eq_of_lt h1.1 h1.2, Int.emod_eq_of_lt h2.1 h2.2]
  · intro s d x hd hs _ _
    have h3 : L₁.dim ≤ 3 := by rcases hL.dim with h | h <;> omega
    have hd3 : d < 3 := by omega
    interval_cases d <;> simp [along, Int.emod_emod_of_dvd]

theorem gradient_same (S₁ : Setup L₁ G axes) (S₂ : Setup L₂ G axes) (hM : L₂.toMeshInfo = L₁.toMeshInfo)
    (hn : ∀ f, f < L₁.dim → L₁.periodic 0 f = true → 2 ≤ L₁.n 3 f) {A₁ A₂ : Mat K} (e1 : createGradient debug L₁ G false = .ok A₁)
    (e2 : createGradient debug L₂ G false = .ok A₂) {p₁ p₂ : ℤ → K} (hp : SameAt L₁ L₂ 3 p₁ p₂) :
    SameVel L₁ L₂ (Mat.mult L₁.pN A₁ p₁) (Mat.mult L₂.pN A₂ p₂) := by
  have l1 := S₁.layout
  have l2 := S₂.layout
  obtain ⟨A, e, r1⟩ := C19_gradient debug S₁ hn
  rw [e1] at e
  cases e
  obtain ⟨A, e, r2⟩ := C19_gradient debug S₂ (by rw [hM]; exact hn)
  rw [e2] at e
  cases e
  obtain ⟨P, hP⟩ := exists_stored (debug := debug) l1 p₁
  have hP2 : Stored debug L₂ 3 p₂ P := by
    constructor
    · intro s idx hs hidx
      have hs1 : Inside L₁.toMeshInfo 3 s := by rw [← hM]; exact hs
      rw [hP.inside s _ hs1 (col_inside l1 (Or.inr rfl) debug hs1).1, hp s hs1]
      rw [(col_inside l2 (Or.inr rfl) debug hs).1] at hidx
      rw [Except.ok.inj hidx]
    · rw [hM]
      exact hP.periodic
  intro f hf s hs
  obtain ⟨x1, x2⟩ := SameVel.of_packed l1 l2 hM hf hs debug
  rw [(r1 p₁ P hP f s _ hf hs x1).2, (r2 p₂ P hP2 f s _ (by rw [hM]; exact hf) (by rw [hM]; exact hs) x2).2, hM]

/-- the approximate inverse -/
theorem bn_same (h1 : LayoutOK L₁) (h2 : LayoutOK L₂) (hM : L₂.toMeshInfo = L₁.toMeshInfo) {A₁ A₂ : Mat K}
    (hA : ∀ q₁ q₂ : ℤ → K, SameVel L₁ L₂ q₁ q₂ → SameVel L₁ L₂ (Mat.mult L₁.UN A₁ q₁) (Mat.mult L₂.UN A₂ q₂)) {dt c : K} {n : ℤ} {N₁ N₂ : Mat K}
    (e1 : createBnHead L₁.UN A₁ dt c n = .ok N₁) (e2 : createBnHead L₂.UN A₂ dt c n = .ok N₂) (q₁ q₂ : ℤ → K) (hq : SameVel L₁ L₂ q₁ q₂) :
    SameVel L₁ L₂ (Mat.mult L₁.UN N₁ q₁) (Mat.mult L₂.UN N₂ q₂) := by
  unfold createBnHead at e1 e2
  split at e1
  · cases e1
  rename_i hn
  rw [if_neg hn] at e2
  cases e1
  cases e2
  have left : ∀ term, ∀ q₁ q₂ : ℤ → K, SameVel L₁ L₂ q₁ q₂ →
      SameVel L₁ L₂ (Mat.mult L₁.UN (leftProducts L₁.UN A₁ A₁ term) q₁) (Mat.mult L₂.UN (leftProducts L₂.UN A₂ A₂ term) q₂) := by
    intro term
    unfold leftProducts
    induction term - 2 with
    | zero => simpa using hA
    | succ m ih =>
      intro q₁ q₂ hq
      rw [List.range_succ, List.foldl_append, List.foldl_append]
      intro f hf s hs
      simp only [List.foldl_cons, List.foldl_nil]
      rw [mult_mul, mult_mul]
      exact hA _ _ (ih q₁ q₂ hq) f hf s hs
  induction n.toNat - 1 with
  | zero =>
    intro f hf s hs
    have d1 : ∀ (L : Layout) (q : ℤ → K) (i : ℤ), 0 ≤ i → i < L.UN → Mat.mult L.UN (Mat.shift (fun _ _ => 0) dt) q i = dt * q i := by
      intro L q i h0 h1
      unfold Mat.mult Mat.shift
      obtain ⟨m, rfl⟩ := Int.eq_ofNat_of_zero_le h0
      rw [Finset.sum_eq_single m]
      · simp
      · intro b _ hb
        rw [if_neg (by omega), zero_mul]
      · intro hm
        exact absurd (Finset.mem_range.2 (by omega)) hm
    have hs2 : Inside L₂.toMeshInfo f s := by rw [hM]; exact hs
    have hf2 : f < L₂.dim := by rw [hM]; exact hf
    obtain ⟨u, -, hu, rfl, rfl⟩ := exists_unknown h1 hf hs
    obtain ⟨v, -, hv, hvc, hvs⟩ := exists_unknown h2 hf2 hs2
    have a := col_range h1 hu
    have b := col_range h2 hv
    rw [hvc, hvs] at b
    simp only [List.range_zero, List.foldl_nil]
    rw [d1 _ _ _ a.1 a.2, d1 _ _ _ b.1 b.2, hq _ hf _ hs]
  | succ m ih =>
    intro f hf s hs
    rw [List.range_succ, List.foldl_append, List.foldl_append]
    simp only [List.foldl_cons, List.foldl_nil]
    have ax : ∀ (N : ℕ) (Y X : Mat K) (a : K) (q : ℤ → K) (i : ℤ), Mat.mult N (Mat.axpy Y a X) q i = Mat.mult N Y q i + a * Mat.mult N X q i := by
      intro N Y X a q i
      unfold Mat.mult Mat.axpy
      rw [Finset.mul_sum, ← Finset.sum_add_distrib]
      refine Finset.sum_congr rfl fun c _ => ?_
      ring
    rw [ax, ax, ih f hf s hs, left (m + 2) q₁ q₂ hq f hf s hs]

/-- the first pressure cell has index 0 in every distribution -/
theorem col_first {L : Layout} (hL : LayoutOK L) (hP : Partitioned L) : col L 3 ⟨0, 0, 0, 0⟩ = 0 := by
  have hpos : ∀ d, d < 3 → ∃ l, ownRange (L.own 3 d) 0 = 0 :: l := by
    intro d hd
    obtain ⟨e, h1, h2⟩ := hP 3 d (Or.inr rfl) hd
    have hq : 0 < L.n 3 d / L.nProc d := Nat.div_pos h2 h1
    have hs : (L.own 3 d)[0]? = some (L.n 3 d / L.nProc d + (if 0 < L.n 3 d % L.nProc d then 1 else 0)) := by
      rw [e, dmdaDefault, List.getElem?_map, List.getElem?_range h1]
      rfl
    obtain ⟨x, l, hl⟩ := List.exists_cons_of_ne_nil (l := L.own 3 d) (by intro h; rw [h] at hs; simp at hs)
    rw [hl] at hs
    simp at hs
    obtain ⟨m, rfl⟩ : ∃ m, x = m + 1 := ⟨x - 1, by omega⟩
    rw [hl]
    exact ⟨List.range' 1 m, by simp [ownRange, startOf, sizeOf', List.range'_succ]⟩
  obtain ⟨l0, e0⟩ := hpos 0 (by omega)
  obtain ⟨l1, e1⟩ := hpos 1 (by omega)
  obtain ⟨l2, e2⟩ := hpos 2 (by omega)
  have hb : (L.box 3 0)[0]? = some (0, 0, 0) := by
    unfold Layout.box Layout.procCoord
    simp [e0, e1, e2]
  have hr : 0 < L.mpiSize := by
    unfold Layout.mpiSize
    have := hL.procs 0 (by omega)
    have := hL.procs 1 (by omega)
    have := hL.procs 2 (by omega)
    positivity
  have := getGlobalIndex_owner false hL (Or.inr rfl) (c := 0) hr hb
  simp at this
  unfold col
  rw [getPacked_three, this]

theorem col_zero_iff {L : Layout} (hL : LayoutOK L) (hP : Partitioned L) {s : Stencil} (hs : Inside L.toMeshInfo 3 s) :
    col L 3 s = 0 ↔ s = ⟨0, 0, 0, 0⟩ := by
  constructor
  · intro h
    refine col_inj_pressure hL hs ⟨fun d hd => ?_, rfl⟩ (h.trans (col_first hL hP).symm)
    have := (hP 3 d (Or.inr rfl) hd).2
    have e : coordOf ⟨0, 0, 0, 0⟩ d = 0 := by interval_cases d <;> rfl
    rw [e]
    omega
  · rintro rfl
    exact col_first hL hP

theorem mult_zeroRowColumn {N : ℕ} (A : Mat K) (φ : ℤ → K) (i : ℤ) (hN : 0 < N) :
    Mat.mult N (Mat.zeroRowColumn A 0 1) φ i = if i = 0 then φ 0 else Mat.mult N A (Function.update φ 0 0) i := by
  unfold Mat.mult Mat.zeroRowColumn
  split_ifs with h
  · subst h
    rw [Finset.sum_eq_single 0]
    · simp
    · intro b _ hb
      simp [hb]
    · intro h
      exact absurd (Finset.mem_range.2 hN) h
  · refine Finset.sum_congr rfl fun c _ => ?_
    rcases Nat.eq_zero_or_pos c with rfl | hc
    · simp [h]
    · have hc' : (c : ℤ) ≠ 0 := by omega
      rw [if_neg (by simp [h]), if_neg (by simp [h]; omega), Function.update_of_ne hc']

end PetIBM
