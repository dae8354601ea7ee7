/-
Steps of the solvers with bodies with two distributions over processes.
-/
import Verif.Lemmas.BodyProcesses
import Verif.Props.Processes

set_option linter.unusedSectionVars false

namespace PetIBM

open Spec

variable {K : Type} [Field K] [LinearOrder K] [IsStrictOrderedRing K]
variable {debug : Bool} {L₁ L₂ : Layout} {G : Geom K} {axes : ℕ → Axis K} {T : BCTable K} {B₁ B₂ : ℕ → Boundary K}
variable {P : NSParams K} {flow : Option (FlowNode K)} {o₁ o₂ : NSOps K} {disk₁ disk₁' disk₂ disk₂' : Disk K} {i₁ i₂ : NSState K}
variable {P₁ P₂ : BodyPack K} {b₁ b₂ : IBOps K}

/-- one step of the decoupled solvers -/
theorem same_decoupled (S₁ : Started debug L₁ G axes T B₁ P flow o₁ disk₁ i₁ disk₁') (S₂ : Started debug L₂ G axes T B₂ P flow o₂ disk₂ i₂ disk₂')
    (hM : L₂.toMeshInfo = L₁.toMeshInfo) (hn : ∀ f d, f < L₁.dim → d < L₁.dim → L₁.periodic 0 d = true → 3 ≤ L₁.n f d)
    (know₁ : ∀ u, IsUnknown L₁ u → KnowsWalls L₁ T u.rank u.comp ⟨u.k, u.j, u.i, 0⟩)
    (know₂ : ∀ u, IsUnknown L₂ u → KnowsWalls L₂ T u.rank u.comp ⟨u.k, u.j, u.i, 0⟩) (hdt : 0 < P.dt) (hnu : 0 ≤ P.nu)
    (hT : ∀ f loc, f < L₂.dim → loc / 2 = f → (T f loc).1 ≠ .NEUMANN) (hBN : GoodOrder L₂ P o₂.A)
    {v₁ f₁ p₁ v₂ f₂ p₂ : LinSolve K} (hv1 : Solves L₁.UN v₁ o₁.A) (hp1 : Solves L₁.pN p₁ o₁.DBNG) (hv2 : Solves L₂.UN v₂ o₂.A)
    (hp2 : Solves L₂.pN p₂ o₂.DBNG) (hf1 : Solves b₁.nF f₁ b₁.EBNH) (hf2 : Solves b₂.nF f₂ b₂.EBNH) {u₁ u₂ : ℤ → K}
    (O : SameOps L₁ L₂ o₁ o₂ B₁ B₂ u₁ u₂) (h1 : PackOK P₁) (h2 : PackOK P₂) (hB : SameBodies P₁ P₂) (I : SameIB L₁ L₂ P₁ P₂ b₁ b₂)
    {UB₁ UB₂ : Option (ℤ → K)} (hUB : SameUB P₁ P₂ UB₁ UB₂) {s₁ s₂ s₁' s₂' : IBState K} (R₁ : Reach L₁ B₁ P o₁.pN u₁ s₁.ns)
    (R₂ : Reach L₂ B₂ P o₂.pN u₂ s₂.ns) (hs : SameState L₁ L₂ s₁.ns s₂.ns)
    (hH : SameVel L₁ L₂ (Mat.mult b₁.nF b₁.H s₁.f) (Mat.mult b₂.nF b₂.H s₂.f))
    (a₁ : decoupledAdvance L₁ G P o₁ b₁ UB₁ v₁ f₁ p₁ s₁ = .ok s₁') (a₂ : decoupledAdvance L₂ G P o₂ b₂ UB₂ v₂ f₂ p₂ s₂ = .ok s₂') :
    SameState L₁ L₂ s₁'.ns s₂'.ns ∧ SameVel L₁ L₂ (Mat.mult b₁.nF b₁.H s₁'.f) (Mat.mult b₂.nF b₂.H s₂'.f) ∧
    ((∀ F : ℤ → K, (∀ c : ℤ, 0 ≤ c → c < L₂.UN → Mat.mult b₂.nF b₂.H F c = 0) → ∀ k : ℤ, 0 ≤ k → k < b₂.nF → F k = 0) →
      SameLag P₁ P₂ s₁.f s₂.f → SameLag P₁ P₂ s₁'.f s₂'.f) := by
  have C₁ := S₁.constructed
  have C₂ := S₂.constructed
  have l1 := C₁.setup.layout
  have l2 := C₂.setup.layout
  obtain ⟨w₁, Us₁, df₁, x1, x2, x3, x4, x5, -⟩ := decoupled_ok C₁ S₁.schemes.1.1 S₁.schemes.2.1 R₁ a₁
  obtain ⟨w₂, Us₂, df₂, y1, y2, y3, y4, y5, -⟩ := decoupled_ok C₂ S₂.schemes.1.1 S₂.schemes.2.1 R₂ a₂
  have hgrad : SameVel L₁ L₂ (Mat.mult o₁.pN o₁.G s₁.ns.p) (Mat.mult o₂.pN o₂.G s₂.ns.p) := by
    rw [O.size.1, O.size.2]
    exact O.grad _ _ hs.pres
  obtain ⟨-, -, -, hrhs⟩ := same_rhs C₁ C₂ hM know₁ know₂ O.lap O.lapCorr R₁ R₂ hs.toSameKin hgrad x1 y1
  have hUs : SameVel L₁ L₂ Us₁ Us₂ := by
    refine same_solution l1 l2 hM O.impl ?_ (fun i i0 i1 => hv1 _ _ _ x2 i i0 i1) (fun i i0 i1 => hv2 _ _ _ y2 i i0 i1)
      (C61_velocity_system_partial S₂ (fun f d hf hd hp => by
        have := hn f d (by rw [← hM]; exact hf) (by rw [← hM]; exact hd) (by rw [← hM]; exact hp)
        rw [hM]; omega) hdt hnu _)
    intro f hf s hs'
    simp only
    rw [hrhs f hf s hs', hH.vec l1 l2 hM f hf s hs']
  have hr := rhsForces_same h1 h2 hB I hUB (hUs.vec l1 l2 hM)
  obtain ⟨k1, k2, k3⟩ := same_forces h1 h2 hB I (l2 := l2) hM hr (fun i i0 i1 => hf1 _ _ _ x3 i i0 i1) (fun i i0 i1 => hf2 _ _ _ y3 i i0 i1)
  have vec_in : ∀ (n : ℕ) (A : Mat K) (x : ℤ → K) (i : ℤ), Mat.mult n A (vec n x) i = Mat.mult n A x i := by
    intro n A x i
    refine mult_congr (fun j j0 j1 => ?_) i
    unfold vec
    rw [if_pos ⟨j0, j1⟩]
  refine ⟨same_project S₁ S₂ hM hn know₁ know₂ hdt hT hBN hp1 hp2 O R₁ R₂ hs x4 y4 ?_, ?_, ?_⟩
  · intro U₁ U₂ _ _ _ _ _ z1 z2
    cases z1
    cases z2
    intro f hf s hs'
    simp only
    have e : SameVel L₁ L₂ (Mat.mult b₁.nF b₁.BNH (vec b₁.nF df₁)) (Mat.mult b₂.nF b₂.BNH (vec b₂.nF df₂)) := by
      intro f hf s hs'
      rw [vec_in, vec_in]
      exact k2 f hf s hs'
    rw [hUs.vec l1 l2 hM f hf s hs', e.vec l1 l2 hM f hf s hs']
  · intro f hf s hs'
    have add : ∀ (n : ℕ) (A : Mat K) (x y : ℤ → K) (i : ℤ), Mat.mult n A (fun i => x i + 1 * y i) i = Mat.mult n A x i + Mat.mult n A y i := by
      intro n A x y i
      unfold Mat.mult
      rw [← Finset.sum_add_distrib]
      exact Finset.sum_congr rfl fun c _ => by ring
    rw [x5, y5, add, add, vec_in, vec_in, hH f hf s hs', k1 f hf s hs']
  · intro reg hf x y hxy
    rw [x5, y5]
    simp only
    rw [hf x y hxy, SameLag.vec h1 h2 hB (k3 reg) I.size.1 I.size.2 x y hxy]

/-! ### The start -/

theorem SameLag.zero : SameLag P₁ P₂ (fun _ => 0) fun _ => 0 := fun _ _ _ => rfl

theorem Spec.SameForces.lag {f₁ f₂ : ℤ → K} (h : SameForces P₁ P₂ f₁ f₂) : SameLag P₁ P₂ f₁ f₂ := by
  rintro x y ⟨b, i, d, -, -, e1, e2⟩
  exact h _ _ _ _ _ e1 e2

theorem sameRow_of (h1 : PackOK P₁) {b i d x y : ℤ} (e1 : P₁.getPackedGlobalIndex b i d = .ok x) (e2 : P₂.getPackedGlobalIndex b i d = .ok y) :
    SameRow P₁ P₂ x y := by
  have ok : ¬ (b < 0 ∨ (P₁.bodies.length : ℤ) ≤ b ∨ (∀ x, P₁.bodies[b.toNat]? = some x → i < 0 ∨ (x.nPts : ℤ) ≤ i) ∨ d < 0 ∨ (P₁.dim : ℤ) ≤ d) := by
    intro hc
    rw [C31_out_of_range P₁ h1 b i d hc] at e1
    cases e1
  push Not at ok
  obtain ⟨b0, -, ⟨u, hu, i0, i1⟩, d0, d1⟩ := ok
  refine ⟨b.toNat, i.toNat, d.toNat, by omega, ⟨u, hu, by omega⟩, ?_, ?_⟩
  · rw [Int.toNat_of_nonneg b0, Int.toNat_of_nonneg i0, Int.toNat_of_nonneg d0]
    exact e1
  · rw [Int.toNat_of_nonneg b0, Int.toNat_of_nonneg i0, Int.toNat_of_nonneg d0]
    exact e2

theorem SameLag.forces (h1 : PackOK P₁) {f₁ f₂ : ℤ → K} (h : SameLag P₁ P₂ f₁ f₂) : SameForces P₁ P₂ f₁ f₂ := by
  intro b i d x y e1 e2
  exact h x y (sameRow_of h1 e1 e2)

theorem prefixLoop_congr {f g : ℕ → ℕ} (h : ∀ r, f r = g r) (n : ℕ) : Layout.prefixLoop (Layout.shiftLoop f n) n = Layout.prefixLoop (Layout.shiftLoop g n) n := by
  rw [show f = g from funext h]

/-- with one body the packed order is the order of the points -/
theorem single_index {P : BodyPack K} (hP : PackOK P) (one : P.bodies.length ≤ 1) {b i d x : ℤ} (e : P.getPackedGlobalIndex b i d = .ok x) :
    x = i * P.dim + d := by
  obtain ⟨p, e1, e⟩ := bind_ok e
  obtain ⟨q, e2, e⟩ := bind_ok e
  unfold BodyPack.getGlobalIndex at e2
  split_ifs at e2 with hb
  have hb0 : b.toNat = 0 := by omega
  have hl : P.bodies.length = 1 := by omega
  obtain ⟨u, hu⟩ := List.length_eq_one_iff.1 hl
  rw [hb0, hu] at e2
  simp only [List.getElem?_cons_zero] at e2
  have hm : u ∈ P.bodies := by rw [hu]; simp
  have hoff : P.offsetsAllProcs = u.offsetsAllProcs := by
    unfold BodyPack.offsetsAllProcs SingleBody.offsetsAllProcs SingleBody.mpiSize
    rw [hP.procs u hm]
    refine prefixLoop_congr (fun r => ?_) _
    unfold BodyPack.nLclAllProcs
    rw [hu]
    simp
  unfold SingleBody.getGlobalIndex at e2
  split_ifs at e2
  cases e2
  split_ifs at e with hp
  rw [hoff, hb0, hu] at e
  simp only [List.getElem?_cons_zero] at e
  split at e
  · rename_i off b' h1 h2
    cases h2
    rw [h1] at e
    simp only [pure, Except.pure, Except.ok.injEq, List.take_zero, List.foldl_nil] at e
    rw [← e, hP.dim u hm]
    ring
  · cases e

theorem Spec.IBStarted.extra {L : Layout} {B : ℕ → Boundary K} {bodies : BodyPack K} {kernel : DeltaKernel K} {window : ℕ} {ops : NSOps K} {ib : IBOps K}
    {disk disk' : Disk K} {s : IBState K} (S : IBStarted debug L G axes T B P flow bodies kernel window ops ib disk s disk') :
    ∃ idx hist, bodies.updateMeshIdx axes = .ok idx ∧
      createExtraOperators debug L G axes P ops (fun r => (B r).run hist) bodies (meshIdxAt idx) kernel window = .ok ib := by
  obtain ⟨s₀, h1, h2⟩ := S.init
  obtain ⟨⟨ops', ns⟩, h3, h1⟩ := bind_ok h1
  obtain ⟨idx, h4, h1⟩ := bind_ok h1
  obtain ⟨ib', h5, h1⟩ := bind_ok h1
  cases h1
  obtain ⟨U, p, _, _, rfl⟩ := solverInit_ok h3
  exact ⟨idx, _, h4, h5⟩

/-- the forces at the start -/
theorem Spec.IBStarted.force {L : Layout} {B : ℕ → Boundary K} {bodies : BodyPack K} {kernel : DeltaKernel K} {window : ℕ} {ops : NSOps K} {ib : IBOps K}
    {disk disk' : Disk K} {s : IBState K} (S : IBStarted debug L G axes T B P flow bodies kernel window ops ib disk s disk') :
    (P.nstart = 0 → s.f = fun _ => 0) ∧ (P.nstart ≠ 0 → ∃ file v, disk (stepPath P.output P.nstart) = some file ∧ file.data "/force" = some v ∧ s.f = packedVec v) := by
  obtain ⟨s₀, h1, h2⟩ := S.init
  obtain ⟨⟨ops', ns⟩, h3, h1⟩ := bind_ok h1
  obtain ⟨idx, h4, h1⟩ := bind_ok h1
  obtain ⟨ib', h5, h1⟩ := bind_ok h1
  cases h1
  obtain ⟨U, p, _, _, rfl⟩ := solverInit_ok h3
  unfold decoupledIoInitialData at h2
  dsimp only at h2
  constructor
  · intro h0
    rw [if_pos h0] at h2
    obtain ⟨d, h6, h2⟩ := bind_ok h2
    cases h2
    rfl
  · intro h0
    rw [if_neg h0] at h2
    obtain ⟨s', h6, h2⟩ := bind_ok h2
    cases h2
    obtain ⟨ns', h7, h6⟩ := bind_ok h6
    obtain ⟨f, h8, h6⟩ := bind_ok h6
    unfold readHDF5Vecs at h8
    split at h8
    · cases h8
    · rename_i file hfile
      simp only [List.zip_cons_cons, List.zip_nil_left, List.mapM_cons, List.mapM_nil] at h8
      obtain ⟨v, h9, h8⟩ := bind_ok h8
      cases h8
      cases h6
      unfold H5File.get at h9
      split at h9
      · cases h9
      · rename_i v' hv
        split_ifs at h9
        cases h9
        exact ⟨file, _, hfile, hv, rfl⟩

theorem Spec.SameBodies.sizes (h : SameBodies P₁ P₂) : P₁.bodies.map (·.nPts) = P₂.bodies.map (·.nPts) := by
  refine List.ext_getElem (by simpa using h.number) fun i a b => ?_
  simp only [List.length_map] at a b
  simp only [List.getElem_map]
  exact (h.points i _ _ (List.getElem?_eq_getElem a) (List.getElem?_eq_getElem b)).1

theorem start_forces {kernel : DeltaKernel K} {window : ℕ} {i₁ i₂ : IBState K}
    (S₁ : IBStarted debug L₁ G axes T B₁ P flow P₁ kernel window o₁ b₁ disk₁ i₁ disk₁')
    (S₂ : IBStarted debug L₂ G axes T B₂ P flow P₂ kernel window o₂ b₂ disk₂ i₂ disk₂') (hB : SameBodies P₁ P₂) (start : SameStart P disk₁ disk₂)
    (single : P.nstart = 0 ∨ P₁.bodies.length ≤ 1) : SameLag P₁ P₂ i₁.f i₂.f := by
  by_cases h0 : P.nstart = 0
  · rw [S₁.force.1 h0, S₂.force.1 h0]
    exact SameLag.zero
  · obtain ⟨file, v, a1, a2, a3⟩ := S₁.force.2 h0
    obtain ⟨file', v', c1, c2, c3⟩ := S₂.force.2 h0
    have hl := single.resolve_left h0
    rw [(start.resolve_left h0).1, c1] at a1
    cases a1
    rw [c2] at a2
    cases a2
    rw [a3, c3]
    rintro x y ⟨b, i, d, -, -, e1, e2⟩
    rw [single_index S₁.fit.pack hl e1, single_index S₂.fit.pack (by rw [← hB.number]; exact hl) e2, hB.dim]

theorem SameState.out {s₁ s₂ : NSState K} (h : SameState L₁ L₂ s₁ s₂) (l1 : LayoutOK L₁) (l2 : LayoutOK L₂) (hM : L₂.toMeshInfo = L₁.toMeshInfo)
    (debug : Bool) : SameVelocity debug L₁ L₂ s₁.U s₂.U ∧ SamePressure debug L₁ L₂ s₁.p s₂.p := by
  constructor
  · intro f s i j hf hs hi hj
    obtain ⟨a, b⟩ := SameVel.of_packed l1 l2 hM hf hs debug
    rw [a] at hi
    rw [b] at hj
    cases hi
    cases hj
    exact h.vel f hf s hs
  · obtain ⟨c, hc⟩ := h.pres
    refine ⟨c, fun s i j hs hi hj => ?_⟩
    rw [(col_inside l1 (Or.inr rfl) debug hs).1] at hi
    rw [(col_inside l2 (Or.inr rfl) debug (by rw [hM]; exact hs)).1] at hj
    cases hi
    cases hj
    exact hc s hs

/-- the pack without coordinates -/
def bare (P : BodyPack K) : BodyPack K := { P with bodies := P.bodies.map fun b => { b with coords := [] } }

theorem packedIndex_bare (P : BodyPack K) (b i d : ℤ) : (bare P).getPackedGlobalIndex b i d = P.getPackedGlobalIndex b i d := by
  have hn : ∀ r, (bare P).nLclAllProcs r = P.nLclAllProcs r := by
    intro r
    unfold BodyPack.nLclAllProcs bare
    simp only
    rw [List.foldl_map]
    rfl
  have hoff : (bare P).offsetsAllProcs = P.offsetsAllProcs := prefixLoop_congr hn _
  have hlen : (bare P).bodies.length = P.bodies.length := by simp [bare]
  have hget : ∀ k : ℕ, (bare P).bodies[k]? = (P.bodies[k]?).map fun b => { b with coords := [] } := by
    intro k
    simp [bare]
  have htake : ∀ (k r : ℕ) (z : ℤ), ((bare P).bodies.take k).foldl (fun (acc : ℤ) b' => acc + (b'.nLclAllProcs r : ℤ)) z =
      (P.bodies.take k).foldl (fun (acc : ℤ) b' => acc + (b'.nLclAllProcs r : ℤ)) z := by
    intro k r z
    simp only [bare]
    rw [← List.map_take, List.foldl_map]
    rfl
  have hproc : (bare P).findProc b i = P.findProc b i := by
    unfold BodyPack.findProc
    rw [hlen, hget]
    split_ifs
    · rfl
    · cases P.bodies[b.toNat]? <;> rfl
  have hglob : (bare P).getGlobalIndex b i d = P.getGlobalIndex b i d := by
    unfold BodyPack.getGlobalIndex
    rw [hlen, hget]
    split_ifs
    · rfl
    · cases P.bodies[b.toNat]? <;> rfl
  unfold BodyPack.getPackedGlobalIndex
  rw [hproc, hglob, hoff, hget]
  simp only [htake]
  congr 1
  funext p
  congr 1
  funext q
  cases P.bodies[b.toNat]? <;> cases P.offsetsAllProcs[p.toNat]? <;> rfl

/-- the packed numbering depends on the distribution of the points only -/
theorem packedIndex_keeps {Q R : BodyPack K} (hQ : PackOK Q) (hR : PackOK R) (hdim : Q.dim = R.dim) (hp : Q.mpiSize = R.mpiSize)
    (h : R.bodies.map (fun b => (b.nPts, b.lcl)) = Q.bodies.map fun b => (b.nPts, b.lcl)) (b i d : ℤ) :
    R.getPackedGlobalIndex b i d = Q.getPackedGlobalIndex b i d := by
  have hlen : R.bodies.length = Q.bodies.length := by simpa using congrArg List.length h
  have hall : R.bodies.map (fun b => (b.dim, b.nPts, b.lcl)) = Q.bodies.map fun b => (b.dim, b.nPts, b.lcl) := by
    have e : ∀ {S : BodyPack K}, PackOK S → S.bodies.map (fun b => (b.dim, b.nPts, b.lcl)) = (S.bodies.map fun b => (b.nPts, b.lcl)).map fun p => (S.dim, p) := by
      intro S hS
      rw [List.map_map]
      exact List.map_congr_left fun b hb => by simp [hS.dim b hb]
    rw [e hR, e hQ, h, hdim]
  have hbare : bare R = bare Q := by
    have e : ∀ S : BodyPack K, (bare S).bodies = (S.bodies.map fun b => (b.dim, b.nPts, b.lcl)).map fun p => ⟨p.1, p.2.1, [], p.2.2⟩ := by
      intro S
      rw [List.map_map]
      rfl
    have := (e R).trans ((congrArg _ hall).trans (e Q).symm)
    show (⟨R.dim, R.mpiSize, (bare R).bodies⟩ : BodyPack K) = ⟨Q.dim, Q.mpiSize, (bare Q).bodies⟩
    rw [hdim, hp, this]
  rw [← packedIndex_bare R, ← packedIndex_bare Q, hbare]

end PetIBM
