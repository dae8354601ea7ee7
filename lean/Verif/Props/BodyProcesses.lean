/-
C88: the results with immersed bodies do not depend on how mesh and bodies are distributed over the processes.
-/
import Verif.Lemmas.BodyProcessesRun
import Verif.Props.IbpmRestart

set_option linter.unusedSectionVars false

namespace PetIBM

open Spec

variable {K : Type} [Field K] [LinearOrder K] [IsStrictOrderedRing K]
variable {debug : Bool} {L₁ L₂ : Layout} {G : Geom K} {axes : ℕ → Axis K} {T : BCTable K} {B₁ B₂ : ℕ → Boundary K}
variable {P : NSParams K} {flow : Option (FlowNode K)} {o₁ o₂ : NSOps K} {disk₁ disk₁' disk₂ disk₂' : Disk K} {P₁ P₂ : BodyPack K} {b₁ b₂ : IBOps K}
variable {kernel : DeltaKernel K} {window : ℕ}

/-- C88. The delta operator of two distributions of the same bodies and the same mesh: for every component at every point of every body,
the row holds the same value for every velocity point, if the points of a body lie in cells of the same widths. What is missing: other
meshes (see `C88_false_stretched`). -/
theorem C88_delta_partial (C₁ : Constructed debug L₁ G axes T B₁) (C₂ : Constructed debug L₂ G axes T B₂) (hM : L₂.toMeshInfo = L₁.toMeshInfo)
    (fit₁ : BodiesOK L₁ P₁) (fit₂ : BodiesOK L₂ P₂) (hB : SameBodies P₁ P₂) (one : OneWidth L₁ axes P₁) {Δ₁ Δ₂ : Mat K}
    (h1 : IsDelta debug L₁ axes B₁ P₁ kernel window Δ₁) (h2 : IsDelta debug L₂ axes B₂ P₂ kernel window Δ₂) (b i d : ℤ) (x y : ℤ)
    (e1 : P₁.getPackedGlobalIndex b i d = .ok x) (e2 : P₂.getPackedGlobalIndex b i d = .ok y) : SameVelocity debug L₁ L₂ (Δ₁ x) (Δ₂ y) := by
  have l1 := C₁.setup.layout
  have l2 := C₂.setup.layout
  have hr : SameRow P₁ P₂ x y := sameRow_of fit₁.pack e1 e2
  intro f s i j hf hs hi hj
  obtain ⟨a, b⟩ := SameVel.of_packed l1 l2 hM hf hs debug
  rw [a] at hi
  rw [b] at hj
  cases hi
  cases hj
  exact delta_same C₁ C₂ hM fit₁ fit₂ hB one h1 h2 x y hr f hf s hs

/-- the states of two runs of the decoupled solver -/
theorem same_decoupled_run {i₁ i₂ : IBState K} (S₁ : IBStarted debug L₁ G axes T B₁ P flow P₁ kernel window o₁ b₁ disk₁ i₁ disk₁')
    (S₂ : IBStarted debug L₂ G axes T B₂ P flow P₂ kernel window o₂ b₂ disk₂ i₂ disk₂')
    (hM : L₂.toMeshInfo = L₁.toMeshInfo) (hB : SameBodies P₁ P₂) (one : OneWidth L₁ axes P₁)
    (hn : ∀ f d, f < L₁.dim → d < L₁.dim → L₁.periodic 0 d = true → 3 ≤ L₁.n f d)
    (know₁ : ∀ u, IsUnknown L₁ u → KnowsWalls L₁ T u.rank u.comp ⟨u.k, u.j, u.i, 0⟩)
    (know₂ : ∀ u, IsUnknown L₂ u → KnowsWalls L₂ T u.rank u.comp ⟨u.k, u.j, u.i, 0⟩) (hdt : 0 < P.dt) (hnu : 0 ≤ P.nu)
    (hT : ∀ f loc, f < L₂.dim → loc / 2 = f → (T f loc).1 ≠ .NEUMANN) (hBN : GoodOrder L₂ P o₂.A) (start : SameStart P disk₁ disk₂)
    (single : P.nstart = 0 ∨ P₁.bodies.length ≤ 1)
    {v₁ f₁ p₁ v₂ f₂ p₂ : LinSolve K} (hv1 : Solves L₁.UN v₁ o₁.A) (hp1 : Solves L₁.pN p₁ o₁.DBNG) (hf1 : Solves b₁.nF f₁ b₁.EBNH)
    (hv2 : Solves L₂.UN v₂ o₂.A) (hp2 : Solves L₂.pN p₂ o₂.DBNG) (hf2 : Solves b₂.nF f₂ b₂.EBNH) {x₁ x₂ : ℕ → IBState K} {n : ℕ}
    (h1 : x₁ 0 = i₁) (h2 : x₂ 0 = i₂) (t₁ : IBTrajectory L₁ G P o₁ b₁ v₁ f₁ p₁ x₁ n) (t₂ : IBTrajectory L₂ G P o₂ b₂ v₂ f₂ p₂ x₂ n) (k : ℕ) (hk : k ≤ n) :
    SameState L₁ L₂ (x₁ k).ns (x₂ k).ns ∧ SameVel L₁ L₂ (Mat.mult b₁.nF b₁.H (x₁ k).f) (Mat.mult b₂.nF b₂.H (x₂ k).f) ∧
      (IndependentPoints L₂ b₂.nF b₂.H → SameLag P₁ P₂ (x₁ k).f (x₂ k).f) := by
  have C₁ := S₁.constructed
  have C₂ := S₂.constructed
  have pk1 := S₁.fit.pack
  have pk2 := S₂.fit.pack
  obtain ⟨U₁, U₂, hu, a2, c2, R₁, R₂, init⟩ := same_start S₁.started S₂.started hM start
  have O := sameOps C₁ C₂ hM hn hu a2 c2
  obtain ⟨idx₁, hist₁, d1, e1⟩ := S₁.extra
  obtain ⟨idx₂, hist₂, d2, e2⟩ := S₂.extra
  have I := sameIB C₁ C₂ hM O.lap c2 S₁.fit S₂.fit hB one d1 d2 e1 e2 (implicit_nonneg S₁.params) hBN hdt
  have reach : ∀ k, k ≤ n → Reach L₁ B₁ P o₁.pN U₁ (x₁ k).ns ∧ Reach L₂ B₂ P o₂.pN U₂ (x₂ k).ns := by
    intro k
    induction k with
    | zero =>
      intro _
      rw [h1, h2]
      exact ⟨R₁, R₂⟩
    | succ k ih =>
      intro hk
      obtain ⟨r1, r2⟩ := ih (by omega)
      obtain ⟨_, _, _, _, _, _, g1, _⟩ := decoupled_ok C₁ S₁.started.schemes.1.1 S₁.started.schemes.2.1 r1 (t₁ k (by omega))
      obtain ⟨_, _, _, _, _, _, g2, _⟩ := decoupled_ok C₂ S₂.started.schemes.1.1 S₂.started.schemes.2.1 r2 (t₂ k (by omega))
      exact ⟨r1.step C₁ S₁.started.schemes.1.1 S₁.started.schemes.2.1 g1, r2.step C₂ S₂.started.schemes.1.1 S₂.started.schemes.2.1 g2⟩
  induction k with
  | zero =>
    rw [h1, h2]
    have hf : SameLag P₁ P₂ i₁.f i₂.f := start_forces S₁ S₂ hB start single
    exact ⟨init, I.H _ _ hf, fun _ => hf⟩
  | succ k ih =>
    obtain ⟨r1, r2⟩ := reach k (by omega)
    obtain ⟨j1, j2, j3⟩ := ih (by omega)
    obtain ⟨m1, m2, m3⟩ := same_decoupled S₁.started S₂.started hM hn know₁ know₂ hdt hnu hT hBN hv1 hp1 hv2 hp2 hf1 hf2 O pk1 pk2 hB I
      (UB₁ := none) (UB₂ := none) trivial r1 r2 j1 j2 (t₁ k (by omega)) (t₂ k (by omega))
    exact ⟨m1, m2, fun reg => m3 reg (j3 reg)⟩

/-- C88. Two runs of one configuration of the decoupled solver with different numbers of processes, from the initial conditions or, with one body,
from one file: under the hypotheses of C82, and if the points of a body lie in cells of the same widths and the force system is solved
exactly, the velocities agree at every point and every step, and the pressures up to a constant; if the points of the bodies are independent, the
forces agree too, and so do the total forces on the bodies. What is missing: other meshes (see `C88_false_stretched`), restarts with several
bodies (see `C88_false_restart`), and what is missing in C82. -/
theorem C88_decoupled_partial {i₁ i₂ : IBState K} (S₁ : IBStarted debug L₁ G axes T B₁ P flow P₁ kernel window o₁ b₁ disk₁ i₁ disk₁')
    (S₂ : IBStarted debug L₂ G axes T B₂ P flow P₂ kernel window o₂ b₂ disk₂ i₂ disk₂')
    (hM : L₂.toMeshInfo = L₁.toMeshInfo) (hB : SameBodies P₁ P₂) (one : OneWidth L₁ axes P₁)
    (hn : ∀ f d, f < L₁.dim → d < L₁.dim → L₁.periodic 0 d = true → 3 ≤ L₁.n f d)
    (know₁ : ∀ u, IsUnknown L₁ u → KnowsWalls L₁ T u.rank u.comp ⟨u.k, u.j, u.i, 0⟩)
    (know₂ : ∀ u, IsUnknown L₂ u → KnowsWalls L₂ T u.rank u.comp ⟨u.k, u.j, u.i, 0⟩) (hdt : 0 < P.dt) (hnu : 0 ≤ P.nu)
    (hT : ∀ f loc, f < L₁.dim → loc / 2 = f → (T f loc).1 ≠ .NEUMANN) (hBN : GoodOrder L₂ P o₂.A) (start : SameStart P disk₁ disk₂)
    (single : P.nstart = 0 ∨ P₁.bodies.length ≤ 1)
    {v₁ f₁ p₁ v₂ f₂ p₂ : LinSolve K} (hv1 : Solves L₁.UN v₁ o₁.A) (hp1 : Solves L₁.pN p₁ o₁.DBNG) (hf1 : Solves b₁.nF f₁ b₁.EBNH)
    (hv2 : Solves L₂.UN v₂ o₂.A) (hp2 : Solves L₂.pN p₂ o₂.DBNG) (hf2 : Solves b₂.nF f₂ b₂.EBNH) {x₁ x₂ : ℕ → IBState K} {n : ℕ}
    (h1 : x₁ 0 = i₁) (h2 : x₂ 0 = i₂) (t₁ : IBTrajectory L₁ G P o₁ b₁ v₁ f₁ p₁ x₁ n) (t₂ : IBTrajectory L₂ G P o₂ b₂ v₂ f₂ p₂ x₂ n) (k : ℕ) (hk : k ≤ n) :
    SameVelocity debug L₁ L₂ (x₁ k).ns.U (x₂ k).ns.U ∧ SamePressure debug L₁ L₂ (x₁ k).ns.p (x₂ k).ns.p ∧ (x₁ k).ns.t = (x₂ k).ns.t ∧
      (x₁ k).ns.ite = (x₂ k).ns.ite ∧ (IndependentPoints L₂ b₂.nF b₂.H → SameForces P₁ P₂ (x₁ k).f (x₂ k).f ∧
        P₁.calculateAvgForces (x₁ k).f = P₂.calculateAvgForces (x₂ k).f) := by
  have l1 := S₁.constructed.setup.layout
  have l2 := S₂.constructed.setup.layout
  obtain ⟨h, -, hf⟩ := same_decoupled_run S₁ S₂ hM hB one hn know₁ know₂ hdt hnu (by rw [hM]; exact hT) hBN start single hv1 hp1 hf1 hv2 hp2 hf2
    h1 h2 t₁ t₂ k hk
  obtain ⟨g1, g2⟩ := h.out l1 l2 hM debug
  refine ⟨g1, g2, h.time.1, h.time.2, fun reg => ?_⟩
  have := (hf reg).forces S₁.fit.pack
  exact ⟨this, C32_partition_independent P₁ P₂ S₁.fit.pack S₂.fit.pack hB.dim hB.sizes _ _ this⟩

/-- C88. A run of the decoupled solver with one body is saved in step `k` and continued with another number of processes: under the hypotheses of
`C88_decoupled_partial` and without convective boundaries, the continued run has the velocities of the run that was not interrupted, and the forces if
the points are independent. Missing as there. -/
theorem C88_continued_partial {i₁ i₂ : IBState K} (S₁ : IBStarted debug L₁ G axes T B₁ P flow P₁ kernel window o₁ b₁ disk₁ i₁ disk₁') {k : ℕ} {nt : ℤ}
    {d : Disk K} {file : H5File K}
    (S₂ : IBStarted debug L₂ G axes T B₂ (continued P k nt) flow P₂ kernel window o₂ b₂ d i₂ disk₂')
    (hM : L₂.toMeshInfo = L₁.toMeshInfo) (hB : SameBodies P₁ P₂) (one : OneWidth L₁ axes P₁) (single : P₁.bodies.length ≤ 1)
    (hn : ∀ f d, f < L₁.dim → d < L₁.dim → L₁.periodic 0 d = true → 3 ≤ L₁.n f d)
    (know₁ : ∀ u, IsUnknown L₁ u → KnowsWalls L₁ T u.rank u.comp ⟨u.k, u.j, u.i, 0⟩)
    (know₂ : ∀ u, IsUnknown L₂ u → KnowsWalls L₂ T u.rank u.comp ⟨u.k, u.j, u.i, 0⟩) (hdt : 0 < P.dt) (hnu : 0 ≤ P.nu)
    (hT : ∀ f loc, f < L₁.dim → loc / 2 = f → (T f loc).1 ≠ .NEUMANN) (hC : NoConvective L₁ T) (hBN : GoodOrder L₂ P o₂.A)
    (nconv : P.conv.nExplicit ≤ 1) (ndiff : P.diff.nExplicit ≤ 1)
    {v₁ f₁ p₁ v₂ f₂ p₂ : LinSolve K} (hv1 : Solves L₁.UN v₁ o₁.A) (hp1 : Solves L₁.pN p₁ o₁.DBNG) (hf1 : Solves b₁.nF f₁ b₁.EBNH)
    (hg : IgnoresGuess p₁) (hgf : IgnoresGuess f₁)
    (hv2 : Solves L₂.UN v₂ o₂.A) (hp2 : Solves L₂.pN p₂ o₂.DBNG) (hf2 : Solves b₂.nF f₂ b₂.EBNH) {x₁ x₂ : ℕ → IBState K} {n : ℕ}
    (h1 : x₁ 0 = i₁) (h2 : x₂ 0 = i₂) (t₁ : IBTrajectory L₁ G P o₁ b₁ v₁ f₁ p₁ x₁ n) (hk : k ≤ n) (hne : P.nstart + k ≠ 0)
    (hf : d (stepPath P.output (P.nstart + k)) = some file) (hS : SolutionIn L₁ file (x₁ k).ns) (hR : RestartIn L₁ file (x₁ k).ns)
    (hF : ForceIn (P₁.nPts * P₁.dim) file (x₁ k).f)
    (t₂ : IBTrajectory L₂ G (continued P k nt) o₂ b₂ v₂ f₂ p₂ x₂ (n - k)) (j : ℕ) (hj : k + j ≤ n) :
    SameVelocity debug L₁ L₂ (x₁ (k + j)).ns.U (x₂ j).ns.U ∧ SamePressure debug L₁ L₂ (x₁ (k + j)).ns.p (x₂ j).ns.p ∧
      (x₁ (k + j)).ns.t = (x₂ j).ns.t ∧ (x₁ (k + j)).ns.ite = (x₂ j).ns.ite ∧ (IndependentPoints L₂ b₂.nF b₂.H →
        SameForces P₁ P₂ (x₁ (k + j)).f (x₂ j).f ∧ P₁.calculateAvgForces (x₁ (k + j)).f = P₂.calculateAvgForces (x₂ j).f) := by
  obtain ⟨s', S', y, y0, ty, hy, -⟩ := C77_decoupled_restart_partial S₁ h1 t₁ hC hgf hg k hk hne nt d file hf hS hR hF
  have := C88_decoupled_partial S' S₂ hM hB one hn know₁ know₂ hdt hnu hT hBN (Or.inr ⟨rfl, nconv, ndiff⟩) (Or.inr single) hv1 hp1 hf1 hv2 hp2 hf2
    y0 h2 ty t₂ j (by omega)
  obtain ⟨⟨f1, f2, f3, f4, -⟩, f5⟩ := hy j hj
  rwa [f1, f2, f3, f4, f5]

/-- C88. The same with prescribed motion, if the two motions do the same with the two distributions of the bodies and the points are independent
after every step. Missing as above. -/
theorem C88_rigid_partial {M₁ M₂ : Motion K} {i₁ i₂ : RigidState K}
    (S₁ : RigidStarted debug L₁ G axes T B₁ P flow P₁ M₁ kernel window o₁ disk₁ i₁ disk₁')
    (S₂ : RigidStarted debug L₂ G axes T B₂ P flow P₂ M₂ kernel window o₂ disk₂ i₂ disk₂')
    (hM : L₂.toMeshInfo = L₁.toMeshInfo) (hB : SameBodies P₁ P₂) (move : MovesAlike L₁ L₂ M₁ M₂)
    (hn : ∀ f d, f < L₁.dim → d < L₁.dim → L₁.periodic 0 d = true → 3 ≤ L₁.n f d)
    (know₁ : ∀ u, IsUnknown L₁ u → KnowsWalls L₁ T u.rank u.comp ⟨u.k, u.j, u.i, 0⟩)
    (know₂ : ∀ u, IsUnknown L₂ u → KnowsWalls L₂ T u.rank u.comp ⟨u.k, u.j, u.i, 0⟩) (hdt : 0 < P.dt) (hnu : 0 ≤ P.nu)
    (hT : ∀ f loc, f < L₁.dim → loc / 2 = f → (T f loc).1 ≠ .NEUMANN) (hBN : GoodOrder L₂ P o₂.A) (start : SameStart P disk₁ disk₂)
    (single : P.nstart = 0 ∨ P₁.bodies.length ≤ 1)
    {v₁ f₁ p₁ v₂ f₂ p₂ : LinSolve K} (hv1 : Solves L₁.UN v₁ o₁.A) (hp1 : Solves L₁.pN p₁ o₁.DBNG) 
    (hv2 : Solves L₂.UN v₂ o₂.A) (hp2 : Solves L₂.pN p₂ o₂.DBNG) {x₁ x₂ : ℕ → RigidState K} {n : ℕ}
    (h1 : x₁ 0 = i₁) (h2 : x₂ 0 = i₂) (t₁ : RigidTrajectory debug L₁ G axes P o₁ M₁ kernel window v₁ f₁ p₁ x₁ n)
    (t₂ : RigidTrajectory debug L₂ G axes P o₂ M₂ kernel window v₂ f₂ p₂ x₂ n)
    (hf1 : ∀ k, k < n → Solves (x₁ (k + 1)).ib.nF f₁ (x₁ (k + 1)).ib.EBNH) (hf2 : ∀ k, k < n → Solves (x₂ (k + 1)).ib.nF f₂ (x₂ (k + 1)).ib.EBNH)
    (one : ∀ k, k < n → OneWidth L₁ axes (x₁ (k + 1)).bodies) (ind : ∀ k, k < n → IndependentPoints L₂ (x₂ (k + 1)).ib.nF (x₂ (k + 1)).ib.H)
    (k : ℕ) (hk : k ≤ n) :
    SameVelocity debug L₁ L₂ (x₁ k).ns.U (x₂ k).ns.U ∧ SamePressure debug L₁ L₂ (x₁ k).ns.p (x₂ k).ns.p ∧ (x₁ k).ns.t = (x₂ k).ns.t ∧
      (x₁ k).ns.ite = (x₂ k).ns.ite ∧ SameBodies (x₁ k).bodies (x₂ k).bodies ∧ SameForces (x₁ k).bodies (x₂ k).bodies (x₁ k).f (x₂ k).f ∧
        (x₁ k).bodies.calculateAvgForces (x₁ k).f = (x₂ k).bodies.calculateAvgForces (x₂ k).f := by
  have C₁ := S₁.started.constructed
  have C₂ := S₂.started.constructed
  have l1 := C₁.setup.layout
  have l2 := C₂.setup.layout
  have sc1 := S₁.started.started.schemes
  have sc2 := S₂.started.started.schemes
  obtain ⟨U₁, U₂, hu, a2, c2, R₁, R₂, init⟩ := same_start S₁.started.started S₂.started.started hM start
  have O := sameOps C₁ C₂ hM hn hu a2 c2
  have key : ∀ k, k ≤ n → (Reach L₁ B₁ P o₁.pN U₁ (x₁ k).ns ∧ Reach L₂ B₂ P o₂.pN U₂ (x₂ k).ns) ∧ (BodiesOK L₁ (x₁ k).bodies ∧ BodiesOK L₂ (x₂ k).bodies) ∧
      SameBodies (x₁ k).bodies (x₂ k).bodies ∧ SameState L₁ L₂ (x₁ k).ns (x₂ k).ns ∧ SameForces (x₁ k).bodies (x₂ k).bodies (x₁ k).f (x₂ k).f ∧
      SameForces (x₁ k).bodies (x₂ k).bodies (x₁ k).UB (x₂ k).UB := by
    intro k
    induction k with
    | zero =>
      intro _
      rw [h1, h2, S₁.same, S₂.same, S₁.UB, S₂.UB]
      exact ⟨⟨R₁, R₂⟩, ⟨S₁.started.fit, S₂.started.fit⟩, hB, init, (start_forces S₁.started S₂.started hB start single).forces S₁.started.fit.pack,
        fun _ _ _ _ _ _ _ => rfl⟩
    | succ k ih =>
      intro hk
      obtain ⟨⟨r1, r2⟩, ⟨k1, k2⟩, sb, ss, sf, su⟩ := ih (by omega)
      obtain ⟨m1, m2, ⟨idx₁, m3, m4⟩, m5⟩ := rigid_ok (t₁ k (by omega))
      obtain ⟨w1, w2, ⟨idx₂, w3, w4⟩, w5⟩ := rigid_ok (t₂ k (by omega))
      obtain ⟨_, _, _, _, _, _, g1, _⟩ := decoupled_ok C₁ sc1.1.1 sc1.2.1 r1 m5
      obtain ⟨_, _, _, _, _, _, g2, _⟩ := decoupled_ok C₂ sc2.1.1 sc2.2.1 r2 w5
      have q1 : BodiesOK L₁ (x₁ (k + 1)).bodies := m1 ▸ S₁.motion _ _ k1
      have q2 : BodiesOK L₂ (x₂ (k + 1)).bodies := w1 ▸ S₂.motion _ _ k2
      have sb' : SameBodies (x₁ (k + 1)).bodies (x₂ (k + 1)).bodies := by
        rw [m1, w1, ← ss.time.1]
        exact move.coordinates _ _ _ k1 k2 sb
      have conv : ∀ f₁ f₂ : ℤ → K, SameForces (x₁ k).bodies (x₂ k).bodies f₁ f₂ → SameForces (x₁ (k + 1)).bodies (x₂ (k + 1)).bodies f₁ f₂ := by
        intro f₁ f₂ h b i d x y e1 e2
        refine h b i d x y ?_ ?_
        · rw [← e1, m1]
          exact (packedIndex_keeps k1.pack (m1 ▸ q1).pack (by rw [k1.dim, (m1 ▸ q1 : BodiesOK L₁ (M₁.coordinates _ _)).dim])
            (by rw [k1.procs, (m1 ▸ q1 : BodiesOK L₁ (M₁.coordinates _ _)).procs]) (move.keeps₁ _ _) b i d).symm
        · rw [← e2, w1]
          exact (packedIndex_keeps k2.pack (w1 ▸ q2).pack (by rw [k2.dim, (w1 ▸ q2 : BodiesOK L₂ (M₂.coordinates _ _)).dim])
            (by rw [k2.procs, (w1 ▸ q2 : BodiesOK L₂ (M₂.coordinates _ _)).procs]) (move.keeps₂ _ _) b i d).symm
      have su' : SameForces (x₁ (k + 1)).bodies (x₂ (k + 1)).bodies (x₁ (k + 1)).UB (x₂ (k + 1)).UB := by
        rw [m2, w2, ← ss.time.1]
        exact move.velocity _ _ _ _ _ q1 q2 sb' (conv _ _ su)
      obtain ⟨o1, z1⟩ := r1.hist
      obtain ⟨o2, z2⟩ := r2.hist
      rw [z1.1] at m4
      rw [z2.1] at w4
      have I := sameIB C₁ C₂ hM O.lap c2 q1 q2 sb' (one k (by omega)) m3 w3 m4 w4 (implicit_nonneg S₁.started.params) hBN hdt
      obtain ⟨n1, n2, n3⟩ := same_decoupled S₁.started.started S₂.started.started hM hn know₁ know₂ hdt hnu (by rw [hM]; exact hT) hBN hv1 hp1 hv2 hp2
        (hf1 k (by omega)) (hf2 k (by omega)) O q1.pack q2.pack sb' I (UB₁ := some _) (UB₂ := some _) su'.lag r1 r2 ss (I.H _ _ (conv _ _ sf).lag) m5 w5
      exact ⟨⟨r1.step C₁ sc1.1.1 sc1.2.1 g1, r2.step C₂ sc2.1.1 sc2.2.1 g2⟩, ⟨q1, q2⟩, sb', n1,
        (n3 (ind k (by omega)) (conv _ _ sf).lag).forces q1.pack, su'⟩
  obtain ⟨-, ⟨k1, k2⟩, sb, ss, sf, -⟩ := key k hk
  obtain ⟨g1, g2⟩ := ss.out l1 l2 hM debug
  exact ⟨g1, g2, ss.time.1, ss.time.2, sb, sf, C32_partition_independent _ _ k1.pack k2.pack sb.dim sb.sizes _ _ sf⟩

/-! ### Two points in a box of three by two cells, one process and two -/

/-- Widths 1, `w`, `w` in the first direction. -/
def widthAxes (w : ℚ) : ℕ → Axis ℚ := fun d => if d = 0 then ⟨0, 1 + 2 * w, [1, w, w]⟩ else ⟨0, 2, [1, 1]⟩

abbrev widthLayout (w : ℚ) (px : ℕ) : Layout := meshLayout 2 (widthAxes w) (fun _ _ => false) fun d => if d = 0 then px else 1

abbrev widthGeom (w : ℚ) : Geom ℚ := meshGeom 2 (widthAxes w) fun _ _ => false

abbrev widthB (w : ℚ) (px : ℕ) : ℕ → Boundary ℚ := boundaries true (widthLayout w px) (widthGeom w) lidTable

theorem width_constructed {w : ℚ} (hw : w = 1 ∨ w = 2) {px : ℕ} (hp : px = 1 ∨ px = 2) :
    Constructed true (widthLayout w px) (widthGeom w) (widthAxes w) lidTable (widthB w px) := by
  apply constructed_boundaries
  apply C57_construction true (Or.inl rfl) _ (fun _ _ _ _ => rfl)
  · intro d hd
    rcases hp with rfl | rfl <;> interval_cases d <;> simp
  · intro f d hf hd
    rcases hw with rfl | rfl <;> rcases hp with rfl | rfl <;> rcases hf with hf | rfl
    all_goals first
      | (interval_cases d <;> interval_cases f <;> decide)
      | (interval_cases d <;> decide)
  · intro f loc _ _; simp [lidTable]
  · intro f loc _ _; simp [lidTable]
  · intro d hd
    rcases hw with rfl | rfl <;> interval_cases d
    all_goals exact ⟨by simp [widthAxes], by simp [widthAxes], by norm_num [widthAxes]⟩

theorem width_sizes {w : ℚ} (hw : w = 1 ∨ w = 2) {px : ℕ} (hp : px = 1 ∨ px = 2) : (widthLayout w px).UN = 7 ∧ (widthLayout w px).pN = 6 := by
  rcases hw with rfl | rfl <;> rcases hp with rfl | rfl <;> decide +kernel

theorem width_knows (w : ℚ) (px : ℕ) (u : Unknown) : KnowsWalls (widthLayout w px) lidTable u.rank u.comp ⟨u.k, u.j, u.i, 0⟩ := by
  intro loc hl hne _ _
  left
  unfold Closed lidTable
  rw [if_neg (by omega)]

/-- One body of two points in the first and the second cell. With two processes each has one of them. -/
def pairBody (px : ℕ) : BodyPack ℚ := ⟨2, px, [⟨2, 2, [[3/4, 3/4], [7/4, 1/2]], if px = 1 then [2] else [1, 1]⟩]⟩

theorem pairBody_ok (w : ℚ) {px : ℕ} (hp : px = 1 ∨ px = 2) : BodiesOK (widthLayout w px) (pairBody px) := by
  rcases hp with rfl | rfl
  all_goals exact ⟨by constructor <;> simp [pairBody], rfl, rfl⟩

theorem pairBody_same : SameBodies (pairBody 1) (pairBody 2) := by
  refine ⟨rfl, rfl, ?_⟩
  intro b x y hx hy
  cases b with
  | zero => cases hx; cases hy; exact ⟨rfl, rfl⟩
  | succ b => cases hx

theorem pairBody_width : OneWidth (widthLayout 1 1) (widthAxes 1) (pairBody 1) := by
  intro body hb
  obtain rfl : body = ⟨2, 2, [[3/4, 3/4], [7/4, 1/2]], [2]⟩ := by simpa [pairBody] using hb
  refine ⟨fun _ => 1, ?_⟩
  have hall : ∀ (I j : ℕ) (v : ℚ), (widthAxes 1 I).dL[j]? = some v → v = 1 := by
    intro I j v h
    have := List.mem_of_getElem? h
    unfold widthAxes at this
    split_ifs at this <;> simpa using this
  intro p hp d x hd hx
  change d < 2 at hd
  simp only [List.mem_cons, List.not_mem_nil, or_false] at hp
  rcases hp with rfl | rfl <;> interval_cases d <;> cases hx
  · exact ⟨⟨0, ⟨by simp [widthAxes], by norm_num [widthAxes], by norm_num [widthAxes]⟩, fun j v _ _ h => hall _ j v h⟩, by norm_num [widthAxes]⟩
  · exact ⟨⟨0, ⟨by simp [widthAxes], by norm_num [widthAxes], by norm_num [widthAxes]⟩, fun j v _ _ h => hall _ j v h⟩, by norm_num [widthAxes]⟩
  · exact ⟨⟨1, ⟨by simp [widthAxes], by norm_num [widthAxes], by norm_num [widthAxes]⟩, fun j v _ _ h => hall _ j v h⟩, by norm_num [widthAxes]⟩
  · exact ⟨⟨0, ⟨by simp [widthAxes], by norm_num [widthAxes], by norm_num [widthAxes]⟩, fun j v _ _ h => hall _ j v h⟩, by norm_num [widthAxes]⟩

/-- A run of `n` steps in a cavity with a moving lid, all systems solved exactly. -/
def pairRun (w : ℚ) (px n : ℕ) : Except Error (NSOps ℚ × IBOps ℚ × IBState ℚ × IBState ℚ) := do
  let (ops, ib, s) ← decoupledInit true (widthLayout w px) (widthGeom w) (widthAxes w) (seamParams adamsBashforth2) (some shearFlow) (widthB w px)
    (pairBody px) hatKernel 1
  let t ← steps (decoupledAdvance (widthLayout w px) (widthGeom w) (seamParams adamsBashforth2) ops ib none (gaussSolve 7) (gaussSolve 4) (gaussSolve 6)) n s
  return (ops, ib, s, t)

theorem pair_run {w : ℚ} (hw : w = 1 ∨ w = 2) {px n : ℕ} (hp : px = 1 ∨ px = 2) {ops : NSOps ℚ} {ib : IBOps ℚ} {s t : IBState ℚ}
    (h : pairRun w px n = .ok (ops, ib, s, t)) : ∃ disk' x,
    IBStarted true (widthLayout w px) (widthGeom w) (widthAxes w) lidTable (widthB w px) (seamParams adamsBashforth2) (some shearFlow) (pairBody px)
      hatKernel 1 ops ib (fun _ => none) s disk' ∧ x 0 = s ∧ x n = t ∧
    IBTrajectory (widthLayout w px) (widthGeom w) (seamParams adamsBashforth2) ops ib (gaussSolve 7) (gaussSolve 4) (gaussSolve 6) x n ∧ ib.nF = 4 := by
  obtain ⟨⟨ops', ib', s'⟩, h1, h⟩ := bind_ok h
  obtain ⟨t', h2, h⟩ := bind_ok h
  cases h
  obtain ⟨x, x0, xn, hx⟩ := steps_ok h2
  have C := width_constructed hw hp
  have hi : s.ns.ite = 0 := by
    obtain ⟨⟨ops', ns⟩, h3, h1⟩ := bind_ok h1
    obtain ⟨idx, h4, h1⟩ := bind_ok h1
    obtain ⟨ib', h5, h1⟩ := bind_ok h1
    cases h1
    obtain ⟨_, _, _, _, rfl⟩ := solverInit_ok h3
    rfl
  obtain ⟨file, hf, _⟩ := writeSolution_spec C.setup.layout s.ns (fun _ => none) (stepPath (seamParams adamsBashforth2).output s.ns.ite)
  have S : IBStarted true (widthLayout w px) (widthGeom w) (widthAxes w) lidTable (widthB w px) (seamParams adamsBashforth2) (some shearFlow) (pairBody px)
      hatKernel 1 ops ib (fun _ => none) s (Function.update (fun _ => none) (stepPath (seamParams adamsBashforth2).output s.ns.ite) (some file)) := by
    refine ⟨C, ⟨false, "out", some (seamNode none "ADAMS_BASHFORTH_2"), rfl⟩, pairBody_ok w hp, s, h1, ?_⟩
    unfold decoupledIoInitialData
    rw [if_pos hi, hf]
    rfl
  obtain ⟨_, _, hn, _⟩ := C55_adjoint S
  refine ⟨_, x, S, x0, xn, hx, ?_⟩
  rw [hn]
  rcases hp with rfl | rfl <;> rfl

theorem pairRun_ok {px : ℕ} (hp : px = 1 ∨ px = 2) : (pairRun 1 px 2).toOption.isSome = true := by
  rcases hp with rfl | rfl <;> decide +kernel

theorem pair_entries : (pairRun 1 2 2).toOption.map (fun q => (([1, 2, 4, 6] : List ℤ).map fun i => (List.range 4).map fun j : ℕ => q.2.1.H i j)) =
    some [[3 / 16, 0, 0, 0], [0, 9 / 16, 0, 0], [0, 0, 3 / 4, 0], [0, 0, 0, 1 / 8]] := by decide +kernel

/-- The two points are independent: each component of each force is alone at a velocity point. -/
theorem pair_independent {ops : NSOps ℚ} {ib : IBOps ℚ} {s t : IBState ℚ} (h : pairRun 1 2 2 = .ok (ops, ib, s, t)) (hn : ib.nF = 4) :
    IndependentPoints (widthLayout 1 2) ib.nF ib.H := by
  have e := pair_entries
  rw [h] at e
  simp only [Except.toOption, Option.map_some, List.map_cons, List.map_nil, show List.range 4 = [0, 1, 2, 3] from rfl, Option.some.injEq,
    List.cons.injEq, and_true, Nat.cast_zero, Nat.cast_one, Nat.cast_ofNat] at e
  obtain ⟨⟨a0, a1, a2, a3⟩, ⟨b0, b1, b2, b3⟩, ⟨c0, c1, c2, c3⟩, d0, d1, d2, d3⟩ := e
  intro F hF k h0 h1
  rw [hn] at hF h1
  have u := (width_sizes (Or.inl rfl) (Or.inr rfl) : (widthLayout 1 2).UN = 7 ∧ _).1
  rw [u] at hF
  have f1 := hF 1 (by norm_num) (by norm_num)
  have f2 := hF 2 (by norm_num) (by norm_num)
  have f4 := hF 4 (by norm_num) (by norm_num)
  have f6 := hF 6 (by norm_num) (by norm_num)
  simp only [Mat.mult, Finset.sum_range_succ, Finset.sum_range_zero, Nat.cast_zero, Nat.cast_one, Nat.cast_ofNat, a0, a1, a2, a3, b0, b1, b2, b3,
    c0, c1, c2, c3, d0, d1, d2, d3] at f1 f2 f4 f6
  have : k = 0 ∨ k = 1 ∨ k = 2 ∨ k = 3 := by omega
  rcases this with rfl | rfl | rfl | rfl <;> linarith

/-- Two steps in a cavity with a moving lid and two points, one process and two: the hypotheses of `C88_decoupled_partial` hold. -/
example : ∃ o₁ o₂ b₁ b₂ i₁ i₂ d₁ d₂ x₁ x₂,
    IBStarted true (widthLayout 1 1) (widthGeom 1) (widthAxes 1) lidTable (widthB 1 1) (seamParams adamsBashforth2) (some shearFlow) (pairBody 1)
      hatKernel 1 o₁ b₁ (fun _ => none) i₁ d₁ ∧
    IBStarted true (widthLayout 1 2) (widthGeom 1) (widthAxes 1) lidTable (widthB 1 2) (seamParams adamsBashforth2) (some shearFlow) (pairBody 2)
      hatKernel 1 o₂ b₂ (fun _ => none) i₂ d₂ ∧
    (widthLayout 1 2).toMeshInfo = (widthLayout 1 1).toMeshInfo ∧ SameBodies (pairBody 1) (pairBody 2) ∧
    OneWidth (widthLayout 1 1) (widthAxes 1) (pairBody 1) ∧ (∀ d, (widthLayout 1 1).periodic 0 d = false) ∧
    (∀ u : Unknown, KnowsWalls (widthLayout 1 1) lidTable u.rank u.comp ⟨u.k, u.j, u.i, 0⟩) ∧
    (∀ u : Unknown, KnowsWalls (widthLayout 1 2) lidTable u.rank u.comp ⟨u.k, u.j, u.i, 0⟩) ∧ 0 < (seamParams adamsBashforth2).dt ∧
    0 ≤ (seamParams adamsBashforth2).nu ∧ (∀ f loc, (lidTable f loc).1 ≠ .NEUMANN) ∧ GoodOrder (widthLayout 1 2) (seamParams adamsBashforth2) o₂.A ∧
    SameStart (seamParams adamsBashforth2) (fun _ => none) (fun _ => none) ∧ (seamParams adamsBashforth2).nstart = 0 ∧
    Solves (widthLayout 1 1).UN (gaussSolve 7) o₁.A ∧ Solves (widthLayout 1 1).pN (gaussSolve 6) o₁.DBNG ∧ Solves b₁.nF (gaussSolve 4) b₁.EBNH ∧
    Solves (widthLayout 1 2).UN (gaussSolve 7) o₂.A ∧ Solves (widthLayout 1 2).pN (gaussSolve 6) o₂.DBNG ∧ Solves b₂.nF (gaussSolve 4) b₂.EBNH ∧
    x₁ 0 = i₁ ∧ x₂ 0 = i₂ ∧
    IBTrajectory (widthLayout 1 1) (widthGeom 1) (seamParams adamsBashforth2) o₁ b₁ (gaussSolve 7) (gaussSolve 4) (gaussSolve 6) x₁ 2 ∧
    IBTrajectory (widthLayout 1 2) (widthGeom 1) (seamParams adamsBashforth2) o₂ b₂ (gaussSolve 7) (gaussSolve 4) (gaussSolve 6) x₂ 2 ∧
    IndependentPoints (widthLayout 1 2) b₂.nF b₂.H := by
  obtain ⟨⟨o₁, b₁, i₁, e₁⟩, h1⟩ := pick (pairRun_ok (Or.inl rfl))
  obtain ⟨⟨o₂, b₂, i₂, e₂⟩, h2⟩ := pick (pairRun_ok (Or.inr rfl))
  obtain ⟨d₁, x₁, S₁, x0, -, t1, n1⟩ := pair_run (Or.inl rfl) (Or.inl rfl) h1
  obtain ⟨d₂, x₂, S₂, y0, -, t2, n2⟩ := pair_run (Or.inl rfl) (Or.inr rfl) h2
  obtain ⟨u1, u2⟩ := width_sizes (w := 1) (Or.inl rfl) (Or.inl rfl : 1 = 1 ∨ 1 = 2)
  obtain ⟨u3, u4⟩ := width_sizes (w := 1) (Or.inl rfl) (Or.inr rfl : 2 = 1 ∨ 2 = 2)
  refine ⟨o₁, o₂, b₁, b₂, i₁, i₂, d₁, d₂, x₁, x₂, S₁, S₂, rfl, pairBody_same, pairBody_width, fun _ => rfl, width_knows 1 1, width_knows 1 2,
    by norm_num [seamParams], by norm_num [seamParams], fun _ _ => by simp [lidTable], Or.inl rfl, Or.inl rfl, rfl, by rw [u1]; exact gaussSolve_exact _ _,
    by rw [u2]; exact gaussSolve_exact _ _, by rw [n1]; exact gaussSolve_exact _ _, by rw [u3]; exact gaussSolve_exact _ _,
    by rw [u4]; exact gaussSolve_exact _ _, by rw [n2]; exact gaussSolve_exact _ _, x0, y0, t1, t2, pair_independent h2 n2⟩

/-- The two points move along a diagonal. -/
def driftMotion : Motion ℚ where
  coordinates := fun t P => { P with bodies := P.bodies.map fun b => { b with coords := [[3/4 + t / 8, 3/4 + t / 8], [7/4 + t / 8, 1/2 + t / 8]] } }
  velocity := fun _ _ _ => fun _ => 1 / 8

theorem driftMotion_ok (L : Layout) (t : ℚ) (b : BodyPack ℚ) (h : BodiesOK L b) : BodiesOK L (driftMotion.coordinates t b) := by
  refine ⟨⟨h.pack.dim_pos, ?_, ?_, ?_⟩, h.dim, h.procs⟩ <;> intro x hx <;> obtain ⟨y, hy, rfl⟩ := List.mem_map.1 hx
  · exact h.pack.dim y hy
  · exact h.pack.procs y hy
  · exact h.pack.points y hy

theorem drift_alike (L₁ L₂ : Layout) : MovesAlike L₁ L₂ driftMotion driftMotion := by
  refine ⟨?_, fun _ _ _ _ _ _ _ _ _ _ _ _ _ _ _ _ => rfl, ?_, ?_⟩
  · intro t P₁ P₂ _ _ h
    refine ⟨h.dim, by simpa [driftMotion] using h.number, ?_⟩
    intro b x y hx hy
    simp only [driftMotion, List.getElem?_map, Option.map_eq_some_iff] at hx hy
    obtain ⟨x', hx, rfl⟩ := hx
    obtain ⟨y', hy, rfl⟩ := hy
    exact ⟨(h.points b x' y' hx hy).1, rfl⟩
  all_goals
    intro t P
    simp [driftMotion, Function.comp_def]

def driftRun (px n : ℕ) : Except Error (NSOps ℚ × RigidState ℚ × RigidState ℚ) := do
  let (ops, ib, s) ← decoupledInit true (widthLayout 1 px) (widthGeom 1) (widthAxes 1) (seamParams adamsBashforth2) (some shearFlow) (widthB 1 px)
    (pairBody px) hatKernel 1
  let s : RigidState ℚ := { toIBState := s, bodies := pairBody px, UB := fun _ => 0, ib := ib }
  let t ← steps (rigidAdvance true (widthLayout 1 px) (widthGeom 1) (widthAxes 1) (seamParams adamsBashforth2) ops driftMotion hatKernel 1
    (gaussSolve 7) (gaussSolve 4) (gaussSolve 6)) n s
  return (ops, s, t)
theorem driftRun_ok {px : ℕ} (hp : px = 1 ∨ px = 2) : (driftRun px 1).toOption.isSome = true := by
  rcases hp with rfl | rfl <;> decide +kernel

theorem drift_entries : (driftRun 2 1).toOption.map (fun q => (([1, 2, 4, 6] : List ℤ).map fun i => (List.range 4).map fun j : ℕ => q.2.2.ib.H i j)) =
    some [[225 / 1024, 0, 7 / 1024, 0], [0, 575 / 1024, 0, 0], [0, 0, 775 / 1024, 0], [0, 0, 0, 153 / 1024]] := by decide +kernel

/-- One step of the moving points, one process and two: the hypotheses of `C88_rigid_partial` hold. -/
theorem drift_case : ∃ o₁ o₂ i₁ i₂ d₁ d₂ x₁ x₂,
    RigidStarted true (widthLayout 1 1) (widthGeom 1) (widthAxes 1) lidTable (widthB 1 1) (seamParams adamsBashforth2) (some shearFlow) (pairBody 1)
      driftMotion hatKernel 1 o₁ (fun _ => none) i₁ d₁ ∧
    RigidStarted true (widthLayout 1 2) (widthGeom 1) (widthAxes 1) lidTable (widthB 1 2) (seamParams adamsBashforth2) (some shearFlow) (pairBody 2)
      driftMotion hatKernel 1 o₂ (fun _ => none) i₂ d₂ ∧
    MovesAlike (widthLayout 1 1) (widthLayout 1 2) driftMotion driftMotion ∧ x₁ 0 = i₁ ∧ x₂ 0 = i₂ ∧
    RigidTrajectory true (widthLayout 1 1) (widthGeom 1) (widthAxes 1) (seamParams adamsBashforth2) o₁ driftMotion hatKernel 1 (gaussSolve 7) (gaussSolve 4)
      (gaussSolve 6) x₁ 1 ∧
    RigidTrajectory true (widthLayout 1 2) (widthGeom 1) (widthAxes 1) (seamParams adamsBashforth2) o₂ driftMotion hatKernel 1 (gaussSolve 7) (gaussSolve 4)
      (gaussSolve 6) x₂ 1 ∧
    (∀ k, k < 1 → Solves (x₁ (k + 1)).ib.nF (gaussSolve 4) (x₁ (k + 1)).ib.EBNH) ∧
    (∀ k, k < 1 → Solves (x₂ (k + 1)).ib.nF (gaussSolve 4) (x₂ (k + 1)).ib.EBNH) ∧
    (∀ k, k < 1 → OneWidth (widthLayout 1 1) (widthAxes 1) (x₁ (k + 1)).bodies) ∧
    (∀ k, k < 1 → IndependentPoints (widthLayout 1 2) (x₂ (k + 1)).ib.nF (x₂ (k + 1)).ib.H) := by
  have run : ∀ {px : ℕ} (hp : px = 1 ∨ px = 2) {ops : NSOps ℚ} {s t : RigidState ℚ}, driftRun px 1 = .ok (ops, s, t) → ∃ d' x,
      RigidStarted true (widthLayout 1 px) (widthGeom 1) (widthAxes 1) lidTable (widthB 1 px) (seamParams adamsBashforth2) (some shearFlow) (pairBody px)
        driftMotion hatKernel 1 ops (fun _ => none) s d' ∧ x 0 = s ∧ x 1 = t ∧ RigidTrajectory true (widthLayout 1 px) (widthGeom 1) (widthAxes 1)
        (seamParams adamsBashforth2) ops driftMotion hatKernel 1 (gaussSolve 7) (gaussSolve 4) (gaussSolve 6) x 1 ∧ t.ib.nF = 4 ∧
        t.bodies = driftMotion.coordinates (1 / 4) (pairBody px) := by
    intro px hp ops s t h
    obtain ⟨⟨ops', ib', s'⟩, h1, h⟩ := bind_ok h
    obtain ⟨t', h2, h⟩ := bind_ok h
    cases h
    obtain ⟨x, x0, xn, hx⟩ := steps_ok h2
    have C := width_constructed (w := 1) (Or.inl rfl) hp
    have hi : s'.ns.ite = 0 ∧ s'.ns.t = 0 := by
      obtain ⟨⟨ops', ns⟩, h3, h1⟩ := bind_ok h1
      obtain ⟨idx, h4, h1⟩ := bind_ok h1
      obtain ⟨ib', h5, h1⟩ := bind_ok h1
      cases h1
      obtain ⟨_, _, _, _, rfl⟩ := solverInit_ok h3
      exact ⟨rfl, rfl⟩
    obtain ⟨file, hf, _⟩ := writeSolution_spec C.setup.layout s'.ns (fun _ => none) (stepPath (seamParams adamsBashforth2).output s'.ns.ite)
    have S : IBStarted true (widthLayout 1 px) (widthGeom 1) (widthAxes 1) lidTable (widthB 1 px) (seamParams adamsBashforth2) (some shearFlow)
        (pairBody px) hatKernel 1 ops ib' (fun _ => none) s'
        (Function.update (fun _ => none) (stepPath (seamParams adamsBashforth2).output s'.ns.ite) (some file)) := by
      refine ⟨C, ⟨false, "out", some (seamNode none "ADAMS_BASHFORTH_2"), rfl⟩, pairBody_ok 1 hp, s', h1, ?_⟩
      unfold decoupledIoInitialData
      rw [if_pos hi.1, hf]
      rfl
    obtain ⟨e1, _, ⟨idx, _, e4⟩, _⟩ := rigid_ok (hx 0 (by omega))
    obtain ⟨_, _, e5⟩ := bind_ok e4
    obtain ⟨_, _, e5⟩ := bind_ok e5
    have e5 := Except.ok.inj e5
    refine ⟨_, x, ⟨S, rfl, rfl, driftMotion_ok _⟩, x0, xn, hx, ?_, ?_⟩
    · rw [← xn, ← e5, e1, x0]
      rcases hp with rfl | rfl <;> rfl
    · rw [← xn, e1, x0]
      show driftMotion.coordinates (s'.ns.t + 1 / 4) _ = _
      rw [hi.2, zero_add]
  obtain ⟨⟨o₁, i₁, t₁⟩, h1⟩ := pick (driftRun_ok (Or.inl rfl))
  obtain ⟨⟨o₂, i₂, t₂⟩, h2⟩ := pick (driftRun_ok (Or.inr rfl))
  obtain ⟨d₁, x₁, S₁, x0, xn, t1, n1, m1⟩ := run (Or.inl rfl) h1
  obtain ⟨d₂, x₂, S₂, y0, yn, t2, n2, m2⟩ := run (Or.inr rfl) h2
  refine ⟨o₁, o₂, i₁, i₂, d₁, d₂, x₁, x₂, S₁, S₂, drift_alike _ _, x0, y0, t1, t2, ?_, ?_, ?_, ?_⟩ <;> intro k hk <;> interval_cases k
  · rw [zero_add, xn, n1]; exact gaussSolve_exact _ _
  · rw [zero_add, yn, n2]; exact gaussSolve_exact _ _
  · rw [zero_add, xn, m1]
    intro body hb
    obtain rfl : body = ⟨2, 2, [[3/4 + 1 / 4 / 8, 3/4 + 1 / 4 / 8], [7/4 + 1 / 4 / 8, 1/2 + 1 / 4 / 8]], [2]⟩ := by
      simpa [pairBody, driftMotion] using hb
    refine ⟨fun _ => 1, ?_⟩
    have hall : ∀ (I j : ℕ) (v : ℚ), (widthAxes 1 I).dL[j]? = some v → v = 1 := by
      intro I j v h
      have := List.mem_of_getElem? h
      unfold widthAxes at this
      split_ifs at this <;> simpa using this
    intro p hp d x hd hx
    change d < 2 at hd
    simp only [List.mem_cons, List.not_mem_nil, or_false] at hp
    rcases hp with rfl | rfl <;> interval_cases d <;> cases hx
    · exact ⟨⟨0, ⟨by simp [widthAxes], by norm_num [widthAxes], by norm_num [widthAxes]⟩, fun j v _ _ h => hall _ j v h⟩, by norm_num [widthAxes]⟩
    · exact ⟨⟨0, ⟨by simp [widthAxes], by norm_num [widthAxes], by norm_num [widthAxes]⟩, fun j v _ _ h => hall _ j v h⟩, by norm_num [widthAxes]⟩
    · exact ⟨⟨1, ⟨by simp [widthAxes], by norm_num [widthAxes], by norm_num [widthAxes]⟩, fun j v _ _ h => hall _ j v h⟩, by norm_num [widthAxes]⟩
    · exact ⟨⟨0, ⟨by simp [widthAxes], by norm_num [widthAxes], by norm_num [widthAxes]⟩, fun j v _ _ h => hall _ j v h⟩, by norm_num [widthAxes]⟩
  · rw [zero_add, yn]
    have e := drift_entries
    rw [h2] at e
    simp only [Except.toOption, Option.map_some, List.map_cons, List.map_nil, show List.range 4 = [0, 1, 2, 3] from rfl, Option.some.injEq,
      List.cons.injEq, and_true, Nat.cast_zero, Nat.cast_one, Nat.cast_ofNat] at e
    obtain ⟨⟨a0, a1, a2, a3⟩, ⟨b0, b1, b2, b3⟩, ⟨c0, c1, c2, c3⟩, d0, d1, d2, d3⟩ := e
    intro F hF k h0 h1
    rw [n2] at hF h1
    rw [(width_sizes (Or.inl rfl) (Or.inr rfl) : (widthLayout 1 2).UN = 7 ∧ _).1] at hF
    have f1 := hF 1 (by norm_num) (by norm_num)
    have f2 := hF 2 (by norm_num) (by norm_num)
    have f4 := hF 4 (by norm_num) (by norm_num)
    have f6 := hF 6 (by norm_num) (by norm_num)
    simp only [Mat.mult, Finset.sum_range_succ, Finset.sum_range_zero, Nat.cast_zero, Nat.cast_one, Nat.cast_ofNat, a0, a1, a2, a3, b0, b1, b2, b3,
      c0, c1, c2, c3, d0, d1, d2, d3] at f1 f2 f4 f6
    have : k = 0 ∨ k = 1 ∨ k = 2 ∨ k = 3 := by omega
    rcases this with rfl | rfl | rfl | rfl <;> linarith

/-- Velocity of a point after one step in the stretched box. -/
def stretched (px : ℕ) (i : ℤ) : Option ℚ := (pairRun 2 px 1).toOption.map fun q => q.2.2.2.ns.U i

theorem stretched_differs : ∃ a b, stretched 1 1 = some a ∧ stretched 2 4 = some b ∧ a ≠ b := by
  have h : ((stretched 1 1).bind fun a => (stretched 2 4).map fun b => decide (a ≠ b)) = some true := by decide +kernel
  obtain ⟨a, ha, h⟩ := Option.bind_eq_some_iff.1 h
  obtain ⟨b, hb, h⟩ := Option.map_eq_some_iff.1 h
  exact ⟨a, b, ha, hb, of_decide_eq_true h⟩

/-- C88 is false on a stretched mesh: every process takes the widths of the delta function from the cell of the first of its points of the body
(`createdelta.cpp` 71-77), so that with another number of processes other widths belong to the same point. In a box with cells of widths
1, 2, 2, after one step with exact solvers the velocity depends on the number of processes. -/
theorem C88_false_stretched : ∃ (L₁ L₂ : Layout) (G : Geom ℚ) (axes : ℕ → Axis ℚ) (T : BCTable ℚ) (B₁ B₂ : ℕ → Boundary ℚ) (P : NSParams ℚ)
    (flow : Option (FlowNode ℚ)) (P₁ P₂ : BodyPack ℚ) (kernel : DeltaKernel ℚ) (o₁ o₂ : NSOps ℚ) (b₁ b₂ : IBOps ℚ) (disk d₁ d₂ : Disk ℚ) (i₁ i₂ : IBState ℚ)
    (x₁ x₂ : ℕ → IBState ℚ) (v f p : LinSolve ℚ),
    IBStarted true L₁ G axes T B₁ P flow P₁ kernel 1 o₁ b₁ disk i₁ d₁ ∧ IBStarted true L₂ G axes T B₂ P flow P₂ kernel 1 o₂ b₂ disk i₂ d₂ ∧
    L₂.toMeshInfo = L₁.toMeshInfo ∧ SameBodies P₁ P₂ ∧ (∀ d, L₁.periodic 0 d = false) ∧
    (∀ u : Unknown, KnowsWalls L₁ T u.rank u.comp ⟨u.k, u.j, u.i, 0⟩) ∧ (∀ u : Unknown, KnowsWalls L₂ T u.rank u.comp ⟨u.k, u.j, u.i, 0⟩) ∧
    0 < P.dt ∧ 0 ≤ P.nu ∧ (∀ f loc, (T f loc).1 = .DIRICHLET) ∧ P.BN = 1 ∧ P.nstart = 0 ∧
    Solves L₁.UN v o₁.A ∧ Solves L₁.pN p o₁.DBNG ∧ Solves b₁.nF f b₁.EBNH ∧ Solves L₂.UN v o₂.A ∧ Solves L₂.pN p o₂.DBNG ∧ Solves b₂.nF f b₂.EBNH ∧
    x₁ 0 = i₁ ∧ x₂ 0 = i₂ ∧ IBTrajectory L₁ G P o₁ b₁ v f p x₁ 1 ∧ IBTrajectory L₂ G P o₂ b₂ v f p x₂ 1 ∧
    ¬ SameVelocity true L₁ L₂ (x₁ 1).ns.U (x₂ 1).ns.U := by
  obtain ⟨a, b, ha, hb, hne⟩ := stretched_differs
  unfold stretched at ha hb
  obtain ⟨⟨o₁, b₁, i₁, e₁⟩, h1, rfl⟩ := Option.map_eq_some_iff.1 ha
  obtain ⟨⟨o₂, b₂, i₂, e₂⟩, h2, rfl⟩ := Option.map_eq_some_iff.1 hb
  have ok : ∀ {α : Type} {x : Except Error α} {y : α}, x.toOption = some y → x = .ok y := by
    intro α x y h
    cases x with
    | error e => cases h
    | ok z => cases h; rfl
  obtain ⟨d₁, x₁, S₁, x0, xn, t1, n1⟩ := pair_run (Or.inr rfl) (Or.inl rfl) (ok h1)
  obtain ⟨d₂, x₂, S₂, y0, yn, t2, n2⟩ := pair_run (Or.inr rfl) (Or.inr rfl) (ok h2)
  obtain ⟨u1, u2⟩ := width_sizes (w := 2) (Or.inr rfl) (Or.inl rfl : 1 = 1 ∨ 1 = 2)
  obtain ⟨u3, u4⟩ := width_sizes (w := 2) (Or.inr rfl) (Or.inr rfl : 2 = 1 ∨ 2 = 2)
  refine ⟨_, _, _, _, _, _, _, _, _, _, _, _, o₁, o₂, b₁, b₂, _, d₁, d₂, i₁, i₂, x₁, x₂, _, _, _, S₁, S₂, rfl, pairBody_same, fun _ => rfl, width_knows 2 1,
    width_knows 2 2, by norm_num [seamParams], by norm_num [seamParams], fun _ _ => rfl, rfl, rfl, by rw [u1]; exact gaussSolve_exact _ _,
    by rw [u2]; exact gaussSolve_exact _ _, by rw [n1]; exact gaussSolve_exact _ _, by rw [u3]; exact gaussSolve_exact _ _,
    by rw [u4]; exact gaussSolve_exact _ _, by rw [n2]; exact gaussSolve_exact _ _, x0, y0, t1, t2, ?_⟩
  intro h
  refine hne ?_
  rw [xn, yn] at h
  exact h 0 ⟨0, 0, 1, 0⟩ 1 4 (by decide) (inside_nat (i := 1) (j := 0) (k := 0) (by decide) (by decide) (by decide)) (by decide +kernel) (by decide +kernel)

/-- Two bodies of two points each. -/
def twinBodies (px : ℕ) : BodyPack ℚ :=
  ⟨2, px, [⟨2, 2, [[3/4, 3/4], [7/4, 1/2]], if px = 1 then [2] else [1, 1]⟩, ⟨2, 2, [[1/2, 1/2], [3/2, 3/4]], if px = 1 then [2] else [1, 1]⟩]⟩

theorem twinBodies_ok (w : ℚ) {px : ℕ} (hp : px = 1 ∨ px = 2) : BodiesOK (widthLayout w px) (twinBodies px) := by
  rcases hp with rfl | rfl
  all_goals exact ⟨by constructor <;> simp [twinBodies], rfl, rfl⟩

/-- Two steps of one process, and one step of two processes that continue the first step from its file. -/
def bodyRestart (bodies : ℕ → BodyPack ℚ) (nF : ℕ) : Except Error ((NSOps ℚ × IBOps ℚ × IBState ℚ × IBState ℚ × IBState ℚ) × Disk ℚ ×
    NSOps ℚ × IBOps ℚ × IBState ℚ × IBState ℚ) := do
  let (ops, ib, s) ← decoupledInit true (widthLayout 1 1) (widthGeom 1) (widthAxes 1) (seamParams eulerExplicit) (some shearFlow) (widthB 1 1) (bodies 1)
    hatKernel 1
  let a ← decoupledAdvance (widthLayout 1 1) (widthGeom 1) (seamParams eulerExplicit) ops ib none (gaussSolve 7) (gaussSolve nF) (gaussSolve 6) s
  let b ← decoupledAdvance (widthLayout 1 1) (widthGeom 1) (seamParams eulerExplicit) ops ib none (gaussSolve 7) (gaussSolve nF) (gaussSolve 6) a
  let d ← decoupledWriteRestart (widthLayout 1 1) ib a (fun _ => none) (stepPath "out" 1)
  let (ops', ib', s') ← decoupledInit true (widthLayout 1 2) (widthGeom 1) (widthAxes 1) (continued (seamParams eulerExplicit) 1 1) (some shearFlow)
    (widthB 1 2) (bodies 2) hatKernel 1
  let i ← decoupledReadRestart (widthLayout 1 2) ib' s' d (stepPath "out" 1)
  let c ← decoupledAdvance (widthLayout 1 2) (widthGeom 1) (continued (seamParams eulerExplicit) 1 1) ops' ib' none (gaussSolve 7) (gaussSolve nF)
    (gaussSolve 6) i
  return ((ops, ib, s, a, b), d, ops', ib', i, c)

/-- These steps belong to a run and a continued run as in `C88_continued_partial`, apart from the number of bodies. -/
theorem body_restarted {bodies : ℕ → BodyPack ℚ} {nF : ℕ} (fit : ∀ px, px = 1 ∨ px = 2 → BodiesOK (widthLayout 1 px) (bodies px))
    (size : ∀ px, px = 1 ∨ px = 2 → (bodies px).nPts * (bodies px).dim = nF) {o₁ o₂ : NSOps ℚ} {b₁ b₂ : IBOps ℚ} {i₁ a b i₂ c : IBState ℚ} {d : Disk ℚ}
    (h : bodyRestart bodies nF = .ok ((o₁, b₁, i₁, a, b), d, o₂, b₂, i₂, c)) : ∃ (d₁ d₂ : Disk ℚ) (file : H5File ℚ) (x₁ x₂ : ℕ → IBState ℚ),
    IBStarted true (widthLayout 1 1) (widthGeom 1) (widthAxes 1) lidTable (widthB 1 1) (seamParams eulerExplicit) (some shearFlow) (bodies 1) hatKernel 1
      o₁ b₁ (fun _ => none) i₁ d₁ ∧
    IBStarted true (widthLayout 1 2) (widthGeom 1) (widthAxes 1) lidTable (widthB 1 2) (continued (seamParams eulerExplicit) 1 1) (some shearFlow) (bodies 2)
      hatKernel 1 o₂ b₂ d i₂ d₂ ∧
    d (stepPath (seamParams (eulerExplicit : TimeScheme ℚ)).output ((seamParams eulerExplicit).nstart + 1)) = some file ∧
    SolutionIn (widthLayout 1 1) file (x₁ 1).ns ∧ RestartIn (widthLayout 1 1) file (x₁ 1).ns ∧
    ForceIn ((bodies 1).nPts * (bodies 1).dim) file (x₁ 1).f ∧ Solves (widthLayout 1 1).UN (gaussSolve 7) o₁.A ∧
    Solves (widthLayout 1 1).pN (gaussSolve 6) o₁.DBNG ∧ Solves b₁.nF (gaussSolve nF) b₁.EBNH ∧
    Solves (widthLayout 1 2).UN (gaussSolve 7) o₂.A ∧ Solves (widthLayout 1 2).pN (gaussSolve 6) o₂.DBNG ∧ Solves b₂.nF (gaussSolve nF) b₂.EBNH ∧
    x₁ 0 = i₁ ∧ x₂ 0 = i₂ ∧
    IBTrajectory (widthLayout 1 1) (widthGeom 1) (seamParams eulerExplicit) o₁ b₁ (gaussSolve 7) (gaussSolve nF) (gaussSolve 6) x₁ 2 ∧
    IBTrajectory (widthLayout 1 2) (widthGeom 1) (continued (seamParams eulerExplicit) 1 1) o₂ b₂ (gaussSolve 7) (gaussSolve nF) (gaussSolve 6) x₂ 1 ∧
    x₁ 1 = a := by
  obtain ⟨⟨ops, ib, s⟩, e1, h⟩ := bind_ok h
  obtain ⟨a', e2, h⟩ := bind_ok h
  obtain ⟨b', e3, h⟩ := bind_ok h
  obtain ⟨d', e4, h⟩ := bind_ok h
  obtain ⟨⟨ops', ib', s'⟩, e5, h⟩ := bind_ok h
  obtain ⟨i, e6, h⟩ := bind_ok h
  obtain ⟨c', e7, h⟩ := bind_ok h
  cases h
  have C₁ := width_constructed (w := 1) (Or.inl rfl) (Or.inl rfl : 1 = 1 ∨ 1 = 2)
  have C₂ := width_constructed (w := 1) (Or.inl rfl) (Or.inr rfl : 2 = 1 ∨ 2 = 2)
  have hr : readParams false "out" (some (seamNode none "EULER_EXPLICIT")) (some shearFlow) = .ok (seamParams eulerExplicit) := rfl
  obtain ⟨node', hr'⟩ := continued_read hr 1 1
  have ite : i₁.ns.ite = 0 := by
    obtain ⟨⟨ops', ns⟩, h3, h1⟩ := bind_ok e1
    obtain ⟨idx, h4, h1⟩ := bind_ok h1
    obtain ⟨ib', h5, h1⟩ := bind_ok h1
    cases h1
    obtain ⟨_, _, _, _, rfl⟩ := solverInit_ok h3
    rfl
  have ite' : s'.ns.ite = 1 := by
    obtain ⟨⟨ops', ns⟩, h3, h1⟩ := bind_ok e5
    obtain ⟨idx, h4, h1⟩ := bind_ok h1
    obtain ⟨ib', h5, h1⟩ := bind_ok h1
    cases h1
    obtain ⟨_, _, _, _, rfl⟩ := solverInit_ok h3
    rfl
  obtain ⟨file, hw, hR, hS, _⟩ := writeRestart_spec C₁.setup.layout a.ns (fun _ => none) (stepPath "out" 1)
  unfold decoupledWriteRestart at e4
  rw [hw] at e4
  have e4 := Except.ok.inj e4
  rw [appendForce _ _ (Function.update_self ..)] at e4
  obtain ⟨file₀, hf₀, _⟩ := writeSolution_spec C₁.setup.layout i₁.ns (fun _ => none) (stepPath (seamParams eulerExplicit).output i₁.ns.ite)
  have S₁ : IBStarted true (widthLayout 1 1) (widthGeom 1) (widthAxes 1) lidTable (widthB 1 1) (seamParams eulerExplicit) (some shearFlow) (bodies 1)
      hatKernel 1 o₁ b₁ (fun _ => none) i₁ (Function.update (fun _ => none) (stepPath (seamParams eulerExplicit).output i₁.ns.ite) (some file₀)) := by
    refine ⟨C₁, ⟨false, "out", some (seamNode none "EULER_EXPLICIT"), hr⟩, fit 1 (Or.inl rfl), i₁, e1, ?_⟩
    unfold decoupledIoInitialData
    rw [if_pos ite, hf₀]
    rfl
  have S₂ : IBStarted true (widthLayout 1 2) (widthGeom 1) (widthAxes 1) lidTable (widthB 1 2) (continued (seamParams eulerExplicit) 1 1) (some shearFlow)
      (bodies 2) hatKernel 1 o₂ b₂ d i₂ d := by
    refine ⟨C₂, ⟨false, "out", node', hr'⟩, fit 2 (Or.inr rfl), s', e5, ?_⟩
    unfold decoupledIoInitialData
    rw [if_neg (by rw [ite']; decide), ite']
    show (decoupledReadRestart (widthLayout 1 2) b₂ s' d (stepPath "out" 1) >>= _) = _
    rw [e6]
    rfl
  obtain ⟨u1, u2⟩ := width_sizes (w := 1) (Or.inl rfl) (Or.inl rfl : 1 = 1 ∨ 1 = 2)
  obtain ⟨u3, u4⟩ := width_sizes (w := 1) (Or.inl rfl) (Or.inr rfl : 2 = 1 ∨ 2 = 2)
  obtain ⟨_, _, n1, _⟩ := C55_adjoint S₁
  obtain ⟨_, _, n2, _⟩ := C55_adjoint S₂
  rw [size 1 (Or.inl rfl)] at n1
  rw [size 2 (Or.inr rfl)] at n2
  refine ⟨_, d, file.put "/force" (packedList b₁.nF a.f), fun k => if k = 0 then i₁ else if k = 1 then a else b, fun k => if k = 0 then i₂ else c, S₁, S₂, ?_,
    (hS rfl).put_force _, hR.put_force _, ?_, by rw [u1]; exact gaussSolve_exact _ _,
    by rw [u2]; exact gaussSolve_exact _ _, by rw [n1]; exact gaussSolve_exact _ _, by rw [u3]; exact gaussSolve_exact _ _,
    by rw [u4]; exact gaussSolve_exact _ _, by rw [n2]; exact gaussSolve_exact _ _, rfl, rfl, ?_, ?_, rfl⟩
  · rw [← e4]
    exact Function.update_self ..
  · rw [size 1 (Or.inl rfl), ← n1]
    exact forceIn_put _ _ _
  · intro k hk
    interval_cases k
    · exact e2
    · exact e3
  · intro k hk
    interval_cases k
    exact e7

theorem pairRestart_ok : (bodyRestart pairBody 4).toOption.isSome = true := by decide +kernel

/-- With one body the hypotheses of `C88_continued_partial` hold. -/
example : ∃ (o₁ o₂ : NSOps ℚ) (b₁ b₂ : IBOps ℚ) (i₁ i₂ : IBState ℚ) (d₁ d d₂ : Disk ℚ) (file : H5File ℚ) (x₁ x₂ : ℕ → IBState ℚ),
    IBStarted true (widthLayout 1 1) (widthGeom 1) (widthAxes 1) lidTable (widthB 1 1) (seamParams eulerExplicit) (some shearFlow) (pairBody 1) hatKernel 1
      o₁ b₁ (fun _ => none) i₁ d₁ ∧
    IBStarted true (widthLayout 1 2) (widthGeom 1) (widthAxes 1) lidTable (widthB 1 2) (continued (seamParams eulerExplicit) 1 1) (some shearFlow) (pairBody 2)
      hatKernel 1 o₂ b₂ d i₂ d₂ ∧ (pairBody 1).bodies.length ≤ 1 ∧ GoodOrder (widthLayout 1 2) (seamParams eulerExplicit) o₂.A ∧
    NoConvective (widthLayout 1 1) lidTable ∧ (seamParams (eulerExplicit : TimeScheme ℚ)).conv.nExplicit ≤ 1 ∧
    (seamParams (eulerExplicit : TimeScheme ℚ)).diff.nExplicit ≤ 1 ∧ IgnoresGuess (gaussSolve 6) ∧ IgnoresGuess (gaussSolve 4) ∧
    d (stepPath (seamParams (eulerExplicit : TimeScheme ℚ)).output ((seamParams eulerExplicit).nstart + 1)) = some file ∧
    SolutionIn (widthLayout 1 1) file (x₁ 1).ns ∧ RestartIn (widthLayout 1 1) file (x₁ 1).ns ∧
    ForceIn ((pairBody 1).nPts * (pairBody 1).dim) file (x₁ 1).f ∧ x₁ 0 = i₁ ∧ x₂ 0 = i₂ ∧
    IBTrajectory (widthLayout 1 1) (widthGeom 1) (seamParams eulerExplicit) o₁ b₁ (gaussSolve 7) (gaussSolve 4) (gaussSolve 6) x₁ 2 ∧
    IBTrajectory (widthLayout 1 2) (widthGeom 1) (continued (seamParams eulerExplicit) 1 1) o₂ b₂ (gaussSolve 7) (gaussSolve 4) (gaussSolve 6) x₂ 1 := by
  obtain ⟨⟨⟨o₁, b₁, i₁, a, b⟩, d, o₂, b₂, i₂, c⟩, h⟩ := pick pairRestart_ok
  obtain ⟨d₁, d₂, file, x₁, x₂, h1, h2, h3, h4, h5, h6, -, -, -, -, -, -, h7, h8, h9, h10, -⟩ :=
    body_restarted (fun px hp => pairBody_ok 1 hp) (fun px hp => by rcases hp with rfl | rfl <;> rfl) h
  exact ⟨o₁, o₂, b₁, b₂, i₁, i₂, d₁, d, d₂, file, x₁, x₂, h1, h2, le_refl 1, Or.inl rfl, fun _ _ _ _ => by simp [lidTable], le_refl 1, le_refl 1,
    fun _ _ _ _ => rfl, fun _ _ _ _ => rfl, h3, h4, h5, h6, h7, h8, h9, h10⟩

def twin_differs : Bool := match bodyRestart twinBodies 8 with
  | .ok q => decide ((twinBodies 1).calculateAvgForces q.1.2.2.2.1.f ≠ (twinBodies 2).calculateAvgForces q.2.2.2.2.1.f)
  | .error _ => false

theorem twin_differs_true : twin_differs = true := by decide +kernel

/-- C88 is false for a restart with several bodies: the forces are saved in the order of the packed vector, process by process, which depends on the
number of processes. A run of one process with two bodies, saved after the first step and read by two processes: the forces at the points and the total
forces on the bodies are not those that were saved. -/
theorem C88_false_restart : ∃ (L₁ L₂ : Layout) (G : Geom ℚ) (axes : ℕ → Axis ℚ) (T : BCTable ℚ) (B₁ B₂ : ℕ → Boundary ℚ) (P : NSParams ℚ)
    (flow : Option (FlowNode ℚ)) (P₁ P₂ : BodyPack ℚ) (kernel : DeltaKernel ℚ) (o₁ o₂ : NSOps ℚ) (b₁ b₂ : IBOps ℚ) (disk d₁ d d₂ : Disk ℚ) (file : H5File ℚ)
    (i₁ i₂ : IBState ℚ) (x₁ : ℕ → IBState ℚ) (v f p : LinSolve ℚ),
    IBStarted true L₁ G axes T B₁ P flow P₁ kernel 1 o₁ b₁ disk i₁ d₁ ∧ IBStarted true L₂ G axes T B₂ (continued P 1 1) flow P₂ kernel 1 o₂ b₂ d i₂ d₂ ∧
    L₂.toMeshInfo = L₁.toMeshInfo ∧ SameBodies P₁ P₂ ∧ OneWidth L₁ axes P₁ ∧ P.conv.nExplicit ≤ 1 ∧ P.diff.nExplicit ≤ 1 ∧
    d (stepPath P.output (P.nstart + 1)) = some file ∧ SolutionIn L₁ file (x₁ 1).ns ∧ RestartIn L₁ file (x₁ 1).ns ∧
    ForceIn (P₁.nPts * P₁.dim) file (x₁ 1).f ∧ Solves L₁.UN v o₁.A ∧ Solves L₁.pN p o₁.DBNG ∧ Solves b₁.nF f b₁.EBNH ∧ x₁ 0 = i₁ ∧
    IBTrajectory L₁ G P o₁ b₁ v f p x₁ 2 ∧ ¬ SameForces P₁ P₂ (x₁ 1).f i₂.f ∧ P₁.calculateAvgForces (x₁ 1).f ≠ P₂.calculateAvgForces i₂.f := by
  have hd := twin_differs_true
  unfold twin_differs at hd
  split at hd
  case h_2 => cases hd
  rename_i q h
  obtain ⟨⟨o₁, b₁, i₁, a, b⟩, d, o₂, b₂, i₂, c⟩ := q
  have hne : (twinBodies 1).calculateAvgForces a.f ≠ (twinBodies 2).calculateAvgForces i₂.f := of_decide_eq_true hd
  obtain ⟨d₁, d₂, file, x₁, x₂, h1, h2, h3, h4, h5, h6, s1, s2, s3, -, -, -, h7, h8, h9, h10, xa⟩ :=
    body_restarted (fun px hp => twinBodies_ok 1 hp) (fun px hp => by rcases hp with rfl | rfl <;> rfl) h
  have same : SameBodies (twinBodies 1) (twinBodies 2) := by
    refine ⟨rfl, rfl, ?_⟩
    intro b x y hx hy
    match b with
    | 0 => cases hx; cases hy; exact ⟨rfl, rfl⟩
    | 1 => cases hx; cases hy; exact ⟨rfl, rfl⟩
    | b + 2 => cases hx
  refine ⟨_, _, _, _, _, _, _, _, _, _, _, _, o₁, o₂, b₁, b₂, _, d₁, d, d₂, file, i₁, i₂, x₁, _, _, _, h1, h2, rfl, same, ?_, le_refl 1, le_refl 1, h3, h4, h5, h6,
    s1, s2, s3, h7, h9, ?_, by rw [xa]; exact hne⟩
  · intro body hb
    refine ⟨fun _ => 1, fun p hp d x hd hx => ?_⟩
    have hx' : x = 3 / 4 ∨ x = 1 / 2 ∨ (d = 0 ∧ (x = 7 / 4 ∨ x = 3 / 2)) := by
      change d < 2 at hd
      simp only [twinBodies, List.mem_cons, List.not_mem_nil, or_false] at hb
      rcases hb with rfl | rfl <;> simp only [List.mem_cons, List.not_mem_nil, or_false] at hp <;> rcases hp with rfl | rfl <;> interval_cases d <;>
        cases hx <;> simp
    have hall : ∀ (I j : ℕ) (v : ℚ), (widthAxes 1 I).dL[j]? = some v → v = 1 := by
      intro I j v h
      have := List.mem_of_getElem? h
      unfold widthAxes at this
      split_ifs at this <;> simpa using this
    have first : ∀ z : ℚ, 0 ≤ z → z < 1 → LocallyUniform (widthAxes 1 d) 1 1 z ∧ z + 1 < (widthAxes 1 d).max := by
      intro z z0 z1
      refine ⟨⟨0, ?_, fun j v _ _ h => hall _ j v h⟩, ?_⟩
      · unfold InCell widthAxes
        split_ifs
        · exact ⟨by simp, by simpa using z0, by simpa using z1⟩
        · exact ⟨by simp, by simpa using z0, by simpa using z1⟩
      · unfold widthAxes
        split_ifs
        · show z + 1 < 1 + 2 * 1; linarith
        · show z + 1 < 2; linarith
    rcases hx' with rfl | rfl | ⟨rfl, rfl | rfl⟩
    · exact first _ (by norm_num) (by norm_num)
    · exact first _ (by norm_num) (by norm_num)
    · exact ⟨⟨1, ⟨by simp [widthAxes], by norm_num [widthAxes], by norm_num [widthAxes]⟩, fun j v _ _ h => hall _ j v h⟩, by norm_num [widthAxes]⟩
    · exact ⟨⟨1, ⟨by simp [widthAxes], by norm_num [widthAxes], by norm_num [widthAxes]⟩, fun j v _ _ h => hall _ j v h⟩, by norm_num [widthAxes]⟩
  · rw [xa]
    intro hs
    exact hne (C32_partition_independent _ _ (twinBodies_ok 1 (Or.inl rfl)).pack (twinBodies_ok 1 (Or.inr rfl)).pack rfl same.sizes _ _ hs)

end PetIBM
