/-
C107 for the solvers with immersed bodies.
-/
import Verif.Props.Solvers
import Verif.Props.BodyRuns
import Verif.Props.BodyProcesses

set_option linter.unusedSectionVars false

namespace PetIBM

open Spec

variable {K : Type} [Field K] [LinearOrder K] [IsStrictOrderedRing K]
variable {debug : Bool} {L : Layout} {G : Geom K} {axes : ℕ → Axis K} {T : BCTable K} {B : ℕ → Boundary K}
variable {P : NSParams K} {flow : Option (FlowNode K)} {ops : NSOps K} {ib : IBOps K} {disk disk' : Disk K}
variable {bodies : BodyPack K} {kernel : DeltaKernel K} {window : ℕ}

/-- solutions of the force system spread to the same -/
theorem equal_forces (C : Constructed debug L G axes T B) {u : ℤ → K}
    (hops : createOperators debug L G P (fun r => (B r).run [.setGhostICs u]) = .ok ops) {hist : List (Boundary.Op K)}
    {idx : List (List (List (List ℤ)))} (hidx : bodies.updateMeshIdx axes = .ok idx)
    (h : createExtraOperators debug L G axes P ops (fun r => (B r).run hist) bodies (meshIdxAt idx) kernel window = .ok ib)
    (himp : 0 ≤ P.diff.implicitCoeff) (hBN : GoodOrder L P ops.A) (hdt : P.dt ≠ 0) {rhs x y : ℤ → K} (hx : IsSolution ib.nF ib.EBNH rhs x)
    (hy : IsSolution ib.nF ib.EBNH rhs y) :
    (∀ c : ℤ, 0 ≤ c → c < L.UN → Mat.mult ib.nF ib.H y c = Mat.mult ib.nF ib.H x c) ∧
      ∀ c : ℤ, Mat.mult ib.nF ib.BNH y c = Mat.mult ib.nF ib.BNH x c := by
  obtain ⟨D, Dm, Gr, La, Lm, BN', o1, o2, o3, o4, rfl⟩ := createOperators_ok hops
  obtain ⟨Δ, BN, h1, h2, h3, h4, h5, h6, h7⟩ := createExtra_ok C hidx h
  obtain ⟨vol, hvol⟩ := exists_volume C.setup debug
  have hE : ∀ x y : ℤ, 0 ≤ x → x < ib.nF → 0 ≤ y → y < L.UN → ib.E x y = 1 * (vol y * ib.H y x) := by
    intro x y x0 x1 y0 y1
    rw [h5 vol hvol x y y0 y1, h4]
    simp only [Mat.transpose]
    ring
  have hM : ∀ φ i, Mat.mult ib.nF ib.EBNH φ i = Mat.mult L.UN ib.E (Mat.mult L.UN BN (Mat.mult ib.nF ib.H φ)) i := by
    intro φ i
    rw [h7, mult_mul, h6, mult_congr fun j _ _ => mult_mul ..]
  have key : ∀ c : ℤ, 0 ≤ c → c < L.UN → Mat.mult ib.nF ib.H (fun j => y j + -1 * x j) c = 0 := by
    refine (inverse_definite C _ ⟨u, [], rfl⟩ o3 h2 himp hdt hBN hvol _).2 ?_
    have e := product_energy (BN := BN) hE fun j => y j + -1 * x j
    rw [one_mul] at e
    rw [← e]
    refine Finset.sum_eq_zero fun i hi => ?_
    have hi := Finset.mem_range.1 hi
    rw [← hM, mult_sub, hx i (by omega) (by omega), hy i (by omega) (by omega), sub_self, mul_zero]
  have one : ∀ c : ℤ, 0 ≤ c → c < L.UN → Mat.mult ib.nF ib.H y c = Mat.mult ib.nF ib.H x c := fun c c0 c1 => by
    have := key c c0 c1
    rw [mult_sub] at this
    exact sub_eq_zero.1 this
  refine ⟨one, fun c => ?_⟩
  rw [h6, mult_mul, mult_mul]
  exact mult_congr one c

/-- one step of two runs of the decoupled solver -/
theorem equal_decoupled {s : NSState K} (S : Started debug L G axes T B P flow ops disk s disk')
    (hn : ∀ f d, f < L.dim → d < L.dim → L.periodic 0 d = true → 2 ≤ L.n f d) (hdt : 0 < P.dt) (hnu : 0 ≤ P.nu)
    (hT : ∀ f loc, f < L.dim → loc / 2 = f → (T f loc).1 ≠ .NEUMANN) (hBN : GoodOrder L P ops.A)
    {v₁ f₁ p₁ v₂ f₂ p₂ : LinSolve K} (hv1 : Solves L.UN v₁ ops.A) (hp1 : Solves L.pN p₁ ops.DBNG) (hv2 : Solves L.UN v₂ ops.A)
    (hp2 : Solves L.pN p₂ ops.DBNG) (hf1 : Solves ib.nF f₁ ib.EBNH) (hf2 : Solves ib.nF f₂ ib.EBNH) {u : ℤ → K}
    (hops : createOperators debug L G P (fun r => (B r).run [.setGhostICs u]) = .ok ops) {hist : List (Boundary.Op K)}
    {idx : List (List (List (List ℤ)))} (hidx : bodies.updateMeshIdx axes = .ok idx)
    (hib : createExtraOperators debug L G axes P ops (fun r => (B r).run hist) bodies (meshIdxAt idx) kernel window = .ok ib)
    {UB : Option (ℤ → K)} {s₁ s₂ s₁' s₂' : IBState K} (R₁ : Reach L B P ops.pN u s₁.ns) (R₂ : Reach L B P ops.pN u s₂.ns)
    (hs : EqualFlow L.pN s₁.ns s₂.ns)
    (hH : ∀ c : ℤ, 0 ≤ c → c < L.UN → Mat.mult ib.nF ib.H s₂.f c = Mat.mult ib.nF ib.H s₁.f c)
    (a₁ : decoupledAdvance L G P ops ib UB v₁ f₁ p₁ s₁ = .ok s₁') (a₂ : decoupledAdvance L G P ops ib UB v₂ f₂ p₂ s₂ = .ok s₂') :
    EqualFlow L.pN s₁'.ns s₂'.ns ∧ (∀ c : ℤ, 0 ≤ c → c < L.UN → Mat.mult ib.nF ib.H s₂'.f c = Mat.mult ib.nF ib.H s₁'.f c) ∧
      (IndependentPoints L ib.nF ib.H → s₂.f = s₁.f → s₂'.f = s₁'.f) := by
  have C := S.constructed
  obtain ⟨w₁, Us₁, df₁, x1, x2, x3, x4, x5, -⟩ := decoupled_ok C S.schemes.1.1 S.schemes.2.1 R₁ a₁
  obtain ⟨w₂, Us₂, df₂, y1, y2, y3, y4, y5, -⟩ := decoupled_ok C S.schemes.1.1 S.schemes.2.1 R₂ a₂
  obtain ⟨-, -, hrhs⟩ := equal_rhs S (fun f hf hp => hn f f hf hf hp) hs x1 y1
  have hUs : vec L.UN Us₂ = vec L.UN Us₁ := by
    refine equal_velocity S hn hdt hnu (fun i i0 i1 => ?_) (fun j j0 j1 => hv1 _ _ _ x2 j j0 j1) (fun j j0 j1 => hv2 _ _ _ y2 j j0 j1)
    rw [hrhs i i0 i1]
    unfold vec
    rw [if_pos ⟨i0, i1⟩, if_pos ⟨i0, i1⟩, hH i i0 i1]
  rw [hUs] at y3 y4
  obtain ⟨k1, k2⟩ := equal_forces C hops hidx hib (implicit_nonneg S.params) hBN hdt.ne' (fun i i0 i1 => hf1 _ _ _ x3 i i0 i1)
    (fun i i0 i1 => hf2 _ _ _ y3 i i0 i1)
  have vec_in : ∀ (n : ℕ) (A : Mat K) (x : ℤ → K) (i : ℤ), Mat.mult n A (vec n x) i = Mat.mult n A x i := by
    intro n A x i
    refine mult_congr (fun j j0 j1 => ?_) i
    unfold vec
    rw [if_pos ⟨j0, j1⟩]
  have add : ∀ (n : ℕ) (A : Mat K) (x y : ℤ → K) (i : ℤ), Mat.mult n A (fun i => x i + 1 * y i) i = Mat.mult n A x i + Mat.mult n A y i := by
    intro n A x y i
    unfold Mat.mult
    rw [← Finset.sum_add_distrib]
    exact Finset.sum_congr rfl fun c _ => by ring
  refine ⟨equal_project S (fun f hf hp => hn f f hf hf hp) hdt hT hBN hp1 hp2 R₁ R₂ hs (fun r₁ r₂ U₁ U₂ _ z1 z2 => ?_) x4 y4, fun c c0 c1 => ?_,
    fun reg hf => ?_⟩
  · cases z1
    cases z2
    have e : Mat.mult ib.nF ib.BNH (vec ib.nF df₂) = Mat.mult ib.nF ib.BNH (vec ib.nF df₁) := by
      funext c
      rw [vec_in, vec_in, k2]
    rw [e]
  · rw [x5, y5, add, add, vec_in, vec_in, hH c c0 c1, k1 c c0 c1]
  · rw [x5, y5, hf]
    funext i
    congr 2
    unfold vec
    split_ifs with hi
    · have := reg (fun j => df₂ j + -1 * df₁ j) (fun c c0 c1 => by rw [mult_sub, k1 c c0 c1, sub_self]) i hi.1 hi.2
      linear_combination this
    · rfl

/-- C107, decoupled solver with bodies at rest: two runs of one configuration with solvers that solve their three systems, whatever solutions they
choose, have the same velocities at every step, pressures that differ by a constant, and forces that act on the fluid in the same way at every
point of the grid; if no forces at the points of the bodies spread to zero, the forces are the same. Missing: as in `C107_solvers_partial`. -/
theorem C107_decoupled_partial {s : IBState K} (S : IBStarted debug L G axes T B P flow bodies kernel window ops ib disk s disk')
    (hn : ∀ f d, f < L.dim → d < L.dim → L.periodic 0 d = true → 2 ≤ L.n f d) (hdt : 0 < P.dt) (hnu : 0 ≤ P.nu)
    (hT : ∀ f loc, f < L.dim → loc / 2 = f → (T f loc).1 ≠ .NEUMANN) (hBN : GoodOrder L P ops.A)
    {v₁ f₁ p₁ v₂ f₂ p₂ : LinSolve K} (hv1 : Solves L.UN v₁ ops.A) (hp1 : Solves L.pN p₁ ops.DBNG) (hv2 : Solves L.UN v₂ ops.A)
    (hp2 : Solves L.pN p₂ ops.DBNG) (hf1 : Solves ib.nF f₁ ib.EBNH) (hf2 : Solves ib.nF f₂ ib.EBNH) {x₁ x₂ : ℕ → IBState K} {n : ℕ} (h1 : x₁ 0 = s)
    (h2 : x₂ 0 = s) (t₁ : IBTrajectory L G P ops ib v₁ f₁ p₁ x₁ n) (t₂ : IBTrajectory L G P ops ib v₂ f₂ p₂ x₂ n) (k : ℕ) (hk : k ≤ n) :
    EqualFlow L.pN (x₁ k).ns (x₂ k).ns ∧
      (∀ Δ, IsDelta debug L axes B bodies kernel window Δ → ∀ c : ℤ, 0 ≤ c → c < L.UN →
        spread (bodies.nPts * bodies.dim) Δ (x₂ k).f c = spread (bodies.nPts * bodies.dim) Δ (x₁ k).f c) ∧
      (IndependentPoints L ib.nF ib.H → (x₂ k).f = (x₁ k).f) := by
  obtain ⟨idx, hist, d, e⟩ := S.extra
  have F := S.started
  have C := S.constructed
  obtain ⟨u, hops, R⟩ := F.reach
  have all : ∀ k, k ≤ n → Reach L B P ops.pN u (x₁ k).ns ∧ Reach L B P ops.pN u (x₂ k).ns ∧ EqualFlow L.pN (x₁ k).ns (x₂ k).ns ∧
      (∀ c : ℤ, 0 ≤ c → c < L.UN → Mat.mult ib.nF ib.H (x₂ k).f c = Mat.mult ib.nF ib.H (x₁ k).f c) ∧
      (IndependentPoints L ib.nF ib.H → (x₂ k).f = (x₁ k).f) := by
    intro k
    induction k with
    | zero =>
      intro _
      rw [h1, h2]
      exact ⟨R, R, ⟨rfl, ⟨0, fun i _ _ => by rw [add_zero]⟩, rfl, rfl, rfl, rfl, rfl⟩, fun _ _ _ => rfl, fun _ => rfl⟩
    | succ k ih =>
      intro hk
      obtain ⟨r1, r2, j1, j2, j3⟩ := ih (by omega)
      obtain ⟨m1, m2, m3⟩ := equal_decoupled S.started hn hdt hnu hT hBN hv1 hp1 hv2 hp2 hf1 hf2 hops d e r1 r2 j1 j2
        (t₁ k (by omega)) (t₂ k (by omega))
      obtain ⟨_, _, _, _, _, _, g1, _⟩ := decoupled_ok C F.schemes.1.1 F.schemes.2.1 r1 (t₁ k (by omega))
      obtain ⟨_, _, _, _, _, _, g2, _⟩ := decoupled_ok C F.schemes.1.1 F.schemes.2.1 r2 (t₂ k (by omega))
      exact ⟨r1.step C F.schemes.1.1 F.schemes.2.1 g1, r2.step C F.schemes.1.1 F.schemes.2.1 g2, m1, m2, fun reg => m3 reg (j3 reg)⟩
  obtain ⟨-, -, a1, a2, a3⟩ := all k hk
  refine ⟨a1, fun Δ hΔ c c0 c1 => ?_, a3⟩
  obtain ⟨Δ', BN, ⟨i₁, q1, q2⟩, -, w1, w2, -⟩ := S.operators
  obtain ⟨i₂, q3, q4⟩ := hΔ
  cases q1.symm.trans q3
  cases q2.symm.trans q4
  have := a2 c c0 c1
  rw [w1, w2] at this
  exact this

/-- C107, bodies in prescribed motion: if at no step forces at the points of the bodies spread to zero, two runs of one configuration with solvers that
solve their three systems have the same velocities and forces at every step, and pressures that differ by a constant. Missing: as in
`C107_solvers_partial`, and points that are not independent: their forces are spread again where the bodies are in the next step. -/
theorem C107_rigid_partial {M : Motion K} {s : RigidState K}
    (S : RigidStarted debug L G axes T B P flow bodies M kernel window ops disk s disk')
    (hn : ∀ f d, f < L.dim → d < L.dim → L.periodic 0 d = true → 2 ≤ L.n f d) (hdt : 0 < P.dt) (hnu : 0 ≤ P.nu)
    (hT : ∀ f loc, f < L.dim → loc / 2 = f → (T f loc).1 ≠ .NEUMANN) (hBN : GoodOrder L P ops.A)
    {v₁ f₁ p₁ v₂ f₂ p₂ : LinSolve K} (hv1 : Solves L.UN v₁ ops.A) (hp1 : Solves L.pN p₁ ops.DBNG) (hv2 : Solves L.UN v₂ ops.A)
    (hp2 : Solves L.pN p₂ ops.DBNG) {x₁ x₂ : ℕ → RigidState K} {n : ℕ}
    (hf1 : ∀ k, k < n → Solves (x₁ (k + 1)).ib.nF f₁ (x₁ (k + 1)).ib.EBNH) (hf2 : ∀ k, k < n → Solves (x₂ (k + 1)).ib.nF f₂ (x₂ (k + 1)).ib.EBNH)
    (reg : ∀ k, k < n → IndependentPoints L (x₁ (k + 1)).ib.nF (x₁ (k + 1)).ib.H) (h1 : x₁ 0 = s) (h2 : x₂ 0 = s)
    (t₁ : RigidTrajectory debug L G axes P ops M kernel window v₁ f₁ p₁ x₁ n) (t₂ : RigidTrajectory debug L G axes P ops M kernel window v₂ f₂ p₂ x₂ n)
    (k : ℕ) (hk : k ≤ n) :
    EqualFlow L.pN (x₁ k).ns (x₂ k).ns ∧ (x₂ k).f = (x₁ k).f ∧ (x₂ k).bodies = (x₁ k).bodies ∧ (x₂ k).UB = (x₁ k).UB ∧ (x₂ k).ib = (x₁ k).ib := by
  have F := S.started.started
  have C := S.started.constructed
  obtain ⟨u, hops, R⟩ := F.reach
  have all : ∀ k, k ≤ n → Reach L B P ops.pN u (x₁ k).ns ∧ Reach L B P ops.pN u (x₂ k).ns ∧ EqualFlow L.pN (x₁ k).ns (x₂ k).ns ∧
      (x₂ k).f = (x₁ k).f ∧ (x₂ k).bodies = (x₁ k).bodies ∧ (x₂ k).UB = (x₁ k).UB ∧ (x₂ k).ib = (x₁ k).ib := by
    intro k
    induction k with
    | zero =>
      intro _
      rw [h1, h2]
      exact ⟨R, R, ⟨rfl, ⟨0, fun i _ _ => by rw [add_zero]⟩, rfl, rfl, rfl, rfl, rfl⟩, rfl, rfl, rfl, rfl⟩
    | succ k ih =>
      intro hk
      obtain ⟨r1, r2, j1, j2, j3, j4, j5⟩ := ih (by omega)
      obtain ⟨a1, a2, ⟨ia, a3, a4⟩, a5⟩ := rigid_ok (t₁ k (by omega))
      obtain ⟨b1, b2, ⟨ib, b3, b4⟩, b5⟩ := rigid_ok (t₂ k (by omega))
      have eb : (x₂ (k + 1)).bodies = (x₁ (k + 1)).bodies := by rw [a1, b1, j3, j1.time.1]
      have eu : (x₂ (k + 1)).UB = (x₁ (k + 1)).UB := by rw [a2, b2, eb, j4, j1.time.1]
      rw [eb] at b3 b4
      cases a3.symm.trans b3
      rw [j1.ghosts] at b4
      have ei : (x₂ (k + 1)).ib = (x₁ (k + 1)).ib := Except.ok.inj (b4.symm.trans a4)
      rw [ei, eu] at b5
      obtain ⟨hist, hh, -⟩ := r1.hist
      rw [hh] at a4
      obtain ⟨m1, -, m3⟩ := equal_decoupled F hn hdt hnu hT hBN hv1 hp1 hv2 hp2 (hf1 k (by omega)) (ei ▸ hf2 k (by omega)) hops a3 a4 r1 r2 j1
        (fun c _ _ => by rw [j2]) a5 b5
      obtain ⟨_, _, _, _, _, _, g1, _⟩ := decoupled_ok C F.schemes.1.1 F.schemes.2.1 r1 a5
      obtain ⟨_, _, _, _, _, _, g2, _⟩ := decoupled_ok C F.schemes.1.1 F.schemes.2.1 r2 b5
      exact ⟨r1.step C F.schemes.1.1 F.schemes.2.1 g1, r2.step C F.schemes.1.1 F.schemes.2.1 g2, m1, m3 (reg k (by omega)) j2, eb, eu, ei⟩
  exact (all k hk).2.2

/-! ### Examples -/

/-- Two points at the same place. -/
def twinBody : BodyPack ℚ := ⟨2, 2, [⟨2, 2, [[3/4, 3/4], [3/4, 3/4]], [1, 1]⟩]⟩

theorem twinBody_ok : BodiesOK (seamLayout 2) twinBody := ⟨by constructor <;> simp [twinBody], rfl, rfl⟩

/-- Opposite forces at the two points. -/
def twinForces : ℤ → ℚ := fun i => if i = 0 then 1 else if i = 2 then -1 else 0

/-- The start succeeds, and opposite forces spread to zero. -/
def twinRows : Option Bool :=
  (decoupledInit true (seamLayout 2) seamGeom seamAxes (boxParams (1 / 4) 1 adamsBashforth2 crankNicolson) (some (vortexFlow 1)) (seamB closedTable 2) twinBody
    hatKernel 1).toOption.map fun x : NSOps ℚ × IBOps ℚ × IBState ℚ =>
      (List.range 7).all fun c : ℕ => decide (Mat.mult 4 x.2.1.H twinForces c = 0)

theorem twinRows_ok : twinRows = some true := by decide +kernel

/-- A solver that adds opposite forces at the two points. -/
noncomputable def twinSolve (N : ℕ) : LinSolve ℚ := fun A g rhs => (exactSolve N A g rhs).map fun x i => x i + twinForces i

/-- Two points at the same place in the box, whose forces are not determined: runs of any length with two solvers of the force system that choose
different solutions. The hypotheses of `C107_decoupled_partial` hold. -/
example : ∃ ops ib s d x₁ x₂, IBStarted true (seamLayout 2) seamGeom seamAxes closedTable (seamB closedTable 2)
      (boxParams (1 / 4) 1 adamsBashforth2 crankNicolson) (some (vortexFlow 1)) twinBody hatKernel 1 ops ib (fun _ => none) s d ∧
    (∀ d, (seamLayout 2).periodic 0 d = false) ∧ (∀ f loc, (closedTable f loc).1 ≠ (.NEUMANN : BCType)) ∧
    Solves (seamLayout 2).UN (exactSolve (seamLayout 2).UN) ops.A ∧ Solves (seamLayout 2).pN (exactSolve (seamLayout 2).pN) ops.DBNG ∧
    Solves ib.nF (exactSolve ib.nF) ib.EBNH ∧ Solves ib.nF (twinSolve ib.nF) ib.EBNH ∧ x₁ 0 = s ∧ x₂ 0 = s ∧
    (∀ n, IBTrajectory (seamLayout 2) seamGeom (boxParams (1 / 4) 1 adamsBashforth2 crankNicolson) ops ib (exactSolve (seamLayout 2).UN)
      (exactSolve ib.nF) (exactSolve (seamLayout 2).pN) x₁ n) ∧
    (∀ n, IBTrajectory (seamLayout 2) seamGeom (boxParams (1 / 4) 1 adamsBashforth2 crankNicolson) ops ib (exactSolve (seamLayout 2).UN)
      (twinSolve ib.nF) (exactSolve (seamLayout 2).pN) x₂ n) := by
  have C := seam_constructed closedTable (fun _ _ => rfl) 2 (Or.inr rfl)
  have hb := twinRows_ok
  unfold twinRows at hb
  obtain ⟨⟨ops, ib, s⟩, h1, hb⟩ := Option.map_eq_some_iff.1 hb
  have h1 := toOption_ok h1
  simp only [decide_eq_true_eq, List.all_eq_true] at hb
  have hi : s.ns.ite = 0 := by
    obtain ⟨⟨ops', ns⟩, h3, h1⟩ := bind_ok h1
    obtain ⟨idx, h4, h1⟩ := bind_ok h1
    obtain ⟨ib', h5, h1⟩ := bind_ok h1
    cases h1
    obtain ⟨_, _, _, _, rfl⟩ := solverInit_ok h3
    rfl
  obtain ⟨file, hf, _⟩ := writeSolution_spec C.setup.layout s.ns (fun _ => none) (stepPath (boxParams (1 / 4) 1 adamsBashforth2 crankNicolson).output s.ns.ite)
  have S : IBStarted true (seamLayout 2) seamGeom seamAxes closedTable (seamB closedTable 2)
      (boxParams (1 / 4) 1 adamsBashforth2 crankNicolson) (some (vortexFlow 1)) twinBody hatKernel 1 ops ib (fun _ => none) s
      (Function.update (fun _ => none) (stepPath (boxParams (1 / 4) 1 adamsBashforth2 crankNicolson).output s.ns.ite) (some file)) := by
    refine ⟨C, ⟨false, "out", some (boxNode (1 / 4) "ADAMS_BASHFORTH_2" "CRANK_NICOLSON"), rfl⟩, twinBody_ok, s, h1, ?_⟩
    unfold decoupledIoInitialData
    rw [if_pos hi, hf]
    rfl
  obtain ⟨Δ, BN, -, -, q3, -, -, q6, q7⟩ := S.operators
  have hF : ib.nF = 4 := q3
  have hUN : (seamLayout 2).UN = 7 := by decide
  have null : ∀ i, Mat.mult ib.nF ib.EBNH twinForces i = 0 := by
    intro i
    rw [q7, mult_mul, q6]
    have e : ∀ j, Mat.mult ib.nF (Mat.mul (seamLayout 2).UN BN ib.H) twinForces j = 0 := by
      intro j
      rw [mult_mul, ← mult_zero (seamLayout 2).UN BN j]
      refine mult_congr (fun c c0 c1 => ?_) j
      rw [hUN] at c1
      have := hb c.toNat (List.mem_range.2 (by omega))
      rw [hF]
      rw [Int.toNat_of_nonneg c0] at this
      exact this
    rw [mult_congr fun j _ _ => e j]
    exact mult_zero _ _ _
  have lift : ∀ (rhs x : ℤ → ℚ), IsSolution ib.nF ib.EBNH rhs x → IsSolution ib.nF ib.EBNH rhs fun i => x i + twinForces i := by
    intro rhs x h i i0 i1
    have := mix_mult_zero (N := ib.nF) (a := 1) (b := 1) (x := x) (y := twinForces) (z := fun i => x i + twinForces i)
      (fun j _ _ => by ring) ib.EBNH i
    rw [this, h i i0 i1, null i]
    ring
  have fin : Finds ib.nF (twinSolve ib.nF) ib.EBNH := by
    intro g rhs h
    obtain ⟨x, hx, hs⟩ := exactSolve_finds ib.nF ib.EBNH g rhs h
    refine ⟨fun i => x i + twinForces i, ?_, lift rhs x hs⟩
    unfold twinSolve
    rw [hx]
    rfl
  have sol : Solves ib.nF (twinSolve ib.nF) ib.EBNH := by
    intro g rhs x h
    unfold twinSolve at h
    cases e : exactSolve ib.nF ib.EBNH g rhs with
    | error _ => rw [e] at h; cases h
    | ok y =>
      rw [e] at h
      cases h
      exact lift rhs y (exactSolve_solves _ _ _ _ _ e)
  obtain ⟨g1, g2⟩ := closed_given C (closed_rest 2).1
  obtain ⟨X, X0, hX⟩ := C93_decoupled_runs_partial S (vSolve := exactSolve (seamLayout 2).UN) (fSolve := exactSolve ib.nF)
    (pSolve := exactSolve (seamLayout 2).pN) (fun _ _ _ _ hp => by cases hp) g1 g2 (Or.inl rfl) rfl (by norm_num [boxParams]) (by norm_num [boxParams])
    (exactSolve_finds _ _) (exactSolve_finds _ _) (exactSolve_finds _ _)
  obtain ⟨Y, Y0, hY⟩ := C93_decoupled_runs_partial S (vSolve := exactSolve (seamLayout 2).UN) (fSolve := twinSolve ib.nF)
    (pSolve := exactSolve (seamLayout 2).pN) (fun _ _ _ _ hp => by cases hp) g1 g2 (Or.inl rfl) rfl (by norm_num [boxParams]) (by norm_num [boxParams])
    (exactSolve_finds _ _) fin (exactSolve_finds _ _)
  exact ⟨ops, ib, s, _, X, Y, S, fun _ => rfl, fun _ _ => by simp [closedTable], exactSolve_solves _ _, exactSolve_solves _ _, exactSolve_solves _ _, sol,
    X0, Y0, hX, hY⟩

/-- The step of the moving points on two processes: the hypotheses of `C107_rigid_partial` hold. -/
example : ∃ ops s d x, RigidStarted true (widthLayout 1 2) (widthGeom 1) (widthAxes 1) lidTable (widthB 1 2) (seamParams adamsBashforth2)
      (some shearFlow) (pairBody 2) driftMotion hatKernel 1 ops (fun _ => none) s d ∧ x 0 = s ∧
    RigidTrajectory true (widthLayout 1 2) (widthGeom 1) (widthAxes 1) (seamParams adamsBashforth2) ops driftMotion hatKernel 1 (gaussSolve 7) (gaussSolve 4)
      (gaussSolve 6) x 1 ∧
    Solves (widthLayout 1 2).UN (gaussSolve 7) ops.A ∧ Solves (widthLayout 1 2).pN (gaussSolve 6) ops.DBNG ∧
    (∀ k, k < 1 → Solves (x (k + 1)).ib.nF (gaussSolve 4) (x (k + 1)).ib.EBNH) ∧
    (∀ k, k < 1 → IndependentPoints (widthLayout 1 2) (x (k + 1)).ib.nF (x (k + 1)).ib.H) ∧ GoodOrder (widthLayout 1 2) (seamParams adamsBashforth2) ops.A ∧
    (∀ f loc, (lidTable f loc).1 ≠ .NEUMANN) ∧ ∀ d, (widthLayout 1 2).periodic 0 d = false := by
  obtain ⟨-, o, -, s, -, d, -, x, -, S, -, -, x0, -, hx, -, hf, -, ind⟩ := drift_case
  have z := width_sizes (w := 1) (Or.inl rfl) (Or.inr (rfl : 2 = 2))
  refine ⟨o, s, d, x, S, x0, hx, ?_, ?_, hf, ind, Or.inl rfl, fun f loc => ?_, fun _ => rfl⟩
  · rw [z.1]; exact gaussSolve_exact _ _
  · rw [z.2]; exact gaussSolve_exact _ _
  · unfold lidTable
    split_ifs <;> simp

end PetIBM
