/-
C88 for the coupled solver: the results of a run with bodies for different numbers of processes.
-/
import Verif.Lemmas.CoupledProcesses
import Verif.Props.BodyProcesses
import Verif.Props.IbpmRestart

set_option linter.unusedSectionVars false

namespace PetIBM

open Spec

variable {K : Type} [Field K] [LinearOrder K] [IsStrictOrderedRing K]
variable {debug : Bool} {L₁ L₂ : Layout} {G : Geom K} {axes : ℕ → Axis K} {T : BCTable K} {B₁ B₂ : ℕ → Boundary K}
variable {P : NSParams K} {flow : Option (FlowNode K)} {o₁ o₂ : NSOps K} {disk₁ disk₁' disk₂ disk₂' : Disk K}
variable {P₁ P₂ : BodyPack K} {kernel : DeltaKernel K} {window : ℕ}

/-- C88. Two runs of one configuration of the coupled solver with different numbers of processes, from the initial conditions or, with one body, from
one file, the composite system given to PETSc and solved exactly: under the hypotheses of C82, and if the points of a body lie in cells of the same
widths, the velocities agree at every point and every step; if no forces at the points spread to the gradient of a pressure, the pressures agree up to
a constant and the forces agree, and so do the total forces on the bodies. What is missing: as in `C88_decoupled_partial`, and the solvers of AmgX. -/
theorem C88_coupled_partial {i₁ i₂ : NSState K} (S₁ : CoupledStarted debug L₁ G axes T B₁ P flow P₁ kernel window o₁ disk₁ i₁ disk₁')
    (S₂ : CoupledStarted debug L₂ G axes T B₂ P flow P₂ kernel window o₂ disk₂ i₂ disk₂')
    (hM : L₂.toMeshInfo = L₁.toMeshInfo) (hB : SameBodies P₁ P₂) (one : OneWidth L₁ axes P₁)
    (hn : ∀ f d, f < L₁.dim → d < L₁.dim → L₁.periodic 0 d = true → 3 ≤ L₁.n f d)
    (know₁ : ∀ u, IsUnknown L₁ u → KnowsWalls L₁ T u.rank u.comp ⟨u.k, u.j, u.i, 0⟩)
    (know₂ : ∀ u, IsUnknown L₂ u → KnowsWalls L₂ T u.rank u.comp ⟨u.k, u.j, u.i, 0⟩) (hdt : 0 < P.dt) (hnu : 0 ≤ P.nu) (hp : P.pType = .ksp)
    (hT : ∀ f loc, f < L₁.dim → loc / 2 = f → (T f loc).1 ≠ .NEUMANN) (hBN : GoodOrder L₂ P o₂.A) (start : SameStart P disk₁ disk₂)
    (single : P.nstart = 0 ∨ P₁.bodies.length ≤ 1)
    {v₁ p₁ v₂ p₂ : LinSolve K} (hv1 : Solves L₁.UN v₁ o₁.A) (hp1 : Solves o₁.pN p₁ o₁.DBNG) (hv2 : Solves L₂.UN v₂ o₂.A)
    (hp2 : Solves o₂.pN p₂ o₂.DBNG) {x₁ x₂ : ℕ → NSState K} {n : ℕ} (h1 : x₁ 0 = i₁) (h2 : x₂ 0 = i₂)
    (t₁ : CoupledTrajectory L₁ G P (nestCounts L₁ P₁) o₁ v₁ p₁ x₁ n) (t₂ : CoupledTrajectory L₂ G P (nestCounts L₂ P₂) o₂ v₂ p₂ x₂ n)
    (k : ℕ) (hk : k ≤ n) :
    SameVelocity debug L₁ L₂ (x₁ k).U (x₂ k).U ∧ (x₁ k).t = (x₂ k).t ∧ (x₁ k).ite = (x₂ k).ite ∧
      (IndependentOfGradients debug L₂ G axes B₂ P₂ kernel window →
        SamePressure debug L₁ L₂ (subPressure (nestCounts L₁ P₁) (x₁ k).p) (subPressure (nestCounts L₂ P₂) (x₂ k).p) ∧
        SameForces P₁ P₂ (subForces (nestCounts L₁ P₁) (x₁ k).p) (subForces (nestCounts L₂ P₂) (x₂ k).p) ∧
        P₁.calculateAvgForces (subForces (nestCounts L₁ P₁) (x₁ k).p) = P₂.calculateAvgForces (subForces (nestCounts L₂ P₂) (x₂ k).p)) := by
  have C₂ := S₂.constructed
  have l1 := S₁.constructed.setup.layout
  have l2 := C₂.setup.layout
  have hT2 : ∀ f loc, f < L₂.dim → loc / 2 = f → (T f loc).1 ≠ .NEUMANN := by rw [hM]; exact hT
  obtain ⟨U₁, U₂, O, h⟩ := same_coupled_run S₁ S₂ hM hB one hn know₁ know₂ hdt hnu hp hT2 hBN start single hv1 hp1 hv2 hp2 h1 h2 t₁ t₂
  obtain ⟨-, -, kin, hg⟩ := h k hk
  refine ⟨?_, kin.time.1, kin.time.2, fun ind => ?_⟩
  · intro f s i j hf hs hi hj
    obtain ⟨a, b⟩ := SameVel.of_packed l1 l2 hM hf hs debug
    rw [a] at hi
    rw [b] at hj
    cases hi
    cases hj
    exact kin.vel f hf s hs
  obtain ⟨φ, hφ⟩ := exists_sameComp l1 l2 hM S₁.fit S₂.fit hB (x₁ k).p
  obtain ⟨Δ, Gr, c1, c2, c3, -⟩ := composite_definite S₂ hT2 hBN hp hdt
  have hz : ∀ c : ℤ, 0 ≤ c → c < L₂.UN → Mat.mult o₂.pN o₂.G (fun j => φ j + -1 * (x₂ k).p j) c = 0 := by
    intro c d0 d1
    obtain ⟨v, hv, rfl⟩ := col_surj l2 d0 d1
    have hf : v.comp < L₁.dim := by rw [← hM]; exact hv.1
    have hin : Inside L₁.toMeshInfo v.comp v.st := by rw [← hM]; exact hv.inside
    rw [mult_sub, ← O.grad _ _ hφ _ hf _ hin, hg _ hf _ hin, sub_self]
  have hF := ind Δ Gr c1 c2 (subPressure (nestCounts L₂ P₂) fun j => φ j + -1 * (x₂ k).p j) (subForces (nestCounts L₂ P₂) fun j => φ j + -1 * (x₂ k).p j)
    fun c d0 d1 => by
      have := hz c d0 d1
      rw [c3] at this
      exact sub_eq_zero.1 this
  have hsp : ∀ c : ℤ, spread (P₂.nPts * P₂.dim) Δ (subForces (nestCounts L₂ P₂) fun j => φ j + -1 * (x₂ k).p j) c = 0 := by
    intro c
    unfold spread
    refine Finset.sum_eq_zero fun i hi => ?_
    have := Finset.mem_range.1 hi
    rw [hF i (by omega) (by omega), mul_zero]
  have hn3 : ∀ f, f < L₂.dim → L₂.periodic 0 f = true → 2 ≤ L₂.n 3 f := fun f hf hp => by
    have := hn f f (by rw [← hM]; exact hf) (by rw [← hM]; exact hf) (by rw [← hM]; exact hp)
    have := S₁.constructed.setup.n_le f f (by rw [← hM]; exact hf) (by have := S₁.constructed.setup.dim_le; rw [hM] at hf; omega)
    rw [hM]
    omega
  have hconst := gradient_kernel C₂.setup hn3 c2 (φ := subPressure (nestCounts L₂ P₂) fun j => φ j + -1 * (x₂ k).p j) fun c d0 d1 => by
    have := hz c d0 d1
    rwa [c3, hsp, sub_zero] at this
  have sp : ∀ a : ℤ, subPressure (nestCounts L₂ P₂) (fun j => φ j + -1 * (x₂ k).p j) a =
      subPressure (nestCounts L₂ P₂) φ a - subPressure (nestCounts L₂ P₂) (x₂ k).p a := by
    intro a
    unfold subPressure
    split_ifs <;> ring
  have sf : ∀ a : ℤ, subForces (nestCounts L₂ P₂) (fun j => φ j + -1 * (x₂ k).p j) a =
      subForces (nestCounts L₂ P₂) φ a - subForces (nestCounts L₂ P₂) (x₂ k).p a := by
    intro a
    unfold subForces
    split_ifs <;> ring
  have hlag : SameLag P₁ P₂ (subForces (nestCounts L₁ P₁) (x₁ k).p) (subForces (nestCounts L₂ P₂) (x₂ k).p) := by
    intro x y hxy
    obtain ⟨-, y0, y1⟩ := hxy.range S₁.fit.pack S₂.fit.pack hB
    have := hF y y0 y1
    rw [sf] at this
    rw [hφ.2 x y hxy]
    linarith
  have hforce := hlag.forces S₁.fit.pack
  refine ⟨⟨subPressure (nestCounts L₂ P₂) (fun j => φ j + -1 * (x₂ k).p j) 0, fun s i j hs hi hj => ?_⟩, hforce,
    C32_partition_independent P₁ P₂ S₁.fit.pack S₂.fit.pack hB.dim hB.sizes _ _ hforce⟩
  have hs2 : Inside L₂.toMeshInfo 3 s := by rw [hM]; exact hs
  rw [(col_inside l1 (Or.inr rfl) debug hs).1] at hi
  rw [(col_inside l2 (Or.inr rfl) debug hs2).1] at hj
  cases hi
  cases hj
  have r := pcol_range l2 hs2
  have := hconst _ 0 r.1 r.2 le_rfl (by omega)
  rw [← this, sp, hφ.1 s hs]
  ring

/-- C88. A run of the coupled solver with one body is saved in step `k` and continued with another number of processes: under the hypotheses of
`C88_coupled_partial` and without convective boundaries, the continued run has the velocities of the run that was not interrupted, and pressures and
forces as there. Missing as there. -/
theorem C88_coupled_continued_partial {i₁ i₂ : NSState K} (S₁ : CoupledStarted debug L₁ G axes T B₁ P flow P₁ kernel window o₁ disk₁ i₁ disk₁')
    {k : ℕ} {nt : ℤ} {d : Disk K} {file : H5File K}
    (S₂ : CoupledStarted debug L₂ G axes T B₂ (continued P k nt) flow P₂ kernel window o₂ d i₂ disk₂')
    (hM : L₂.toMeshInfo = L₁.toMeshInfo) (hB : SameBodies P₁ P₂) (one : OneWidth L₁ axes P₁) (single : P₁.bodies.length ≤ 1)
    (hn : ∀ f d, f < L₁.dim → d < L₁.dim → L₁.periodic 0 d = true → 3 ≤ L₁.n f d)
    (know₁ : ∀ u, IsUnknown L₁ u → KnowsWalls L₁ T u.rank u.comp ⟨u.k, u.j, u.i, 0⟩)
    (know₂ : ∀ u, IsUnknown L₂ u → KnowsWalls L₂ T u.rank u.comp ⟨u.k, u.j, u.i, 0⟩) (hdt : 0 < P.dt) (hnu : 0 ≤ P.nu) (hp : P.pType = .ksp)
    (hT : ∀ f loc, f < L₁.dim → loc / 2 = f → (T f loc).1 ≠ .NEUMANN) (hC : NoConvective L₁ T) (hBN : GoodOrder L₂ P o₂.A)
    (nconv : P.conv.nExplicit ≤ 1) (ndiff : P.diff.nExplicit ≤ 1)
    {v₁ p₁ v₂ p₂ : LinSolve K} (hv1 : Solves L₁.UN v₁ o₁.A) (hp1 : Solves o₁.pN p₁ o₁.DBNG) (hg : IgnoresGuess p₁) (hv2 : Solves L₂.UN v₂ o₂.A)
    (hp2 : Solves o₂.pN p₂ o₂.DBNG) {x₁ x₂ : ℕ → NSState K} {n : ℕ} (h1 : x₁ 0 = i₁) (h2 : x₂ 0 = i₂)
    (t₁ : CoupledTrajectory L₁ G P (nestCounts L₁ P₁) o₁ v₁ p₁ x₁ n) (hk : k ≤ n) (hne : P.nstart + k ≠ 0)
    (hf : d (stepPath P.output (P.nstart + k)) = some file)
    (hS : SolutionIn L₁ file { x₁ k with p := subPressure (nestCounts L₁ P₁) (x₁ k).p })
    (hR : RestartIn L₁ file { x₁ k with p := subPressure (nestCounts L₁ P₁) (x₁ k).p })
    (hF : ForceIn (P₁.nPts * P₁.dim) file (subForces (nestCounts L₁ P₁) (x₁ k).p))
    (t₂ : CoupledTrajectory L₂ G (continued P k nt) (nestCounts L₂ P₂) o₂ v₂ p₂ x₂ (n - k)) (j : ℕ) (hj : k + j ≤ n) :
    SameVelocity debug L₁ L₂ (x₁ (k + j)).U (x₂ j).U ∧ (x₁ (k + j)).t = (x₂ j).t ∧ (x₁ (k + j)).ite = (x₂ j).ite ∧
      (IndependentOfGradients debug L₂ G axes B₂ P₂ kernel window →
        SamePressure debug L₁ L₂ (subPressure (nestCounts L₁ P₁) (x₁ (k + j)).p) (subPressure (nestCounts L₂ P₂) (x₂ j).p) ∧
        SameForces P₁ P₂ (subForces (nestCounts L₁ P₁) (x₁ (k + j)).p) (subForces (nestCounts L₂ P₂) (x₂ j).p) ∧
        P₁.calculateAvgForces (subForces (nestCounts L₁ P₁) (x₁ (k + j)).p) = P₂.calculateAvgForces (subForces (nestCounts L₂ P₂) (x₂ j).p)) := by
  obtain ⟨s', S', y, y0, ty, hy, -⟩ := C77_coupled_restart_partial S₁ h1 t₁ hC hg k hk hne nt d file hf hS hR hF
  have := C88_coupled_partial S' S₂ hM hB one hn know₁ know₂ hdt hnu hp hT hBN (Or.inr ⟨rfl, nconv, ndiff⟩) (Or.inr single) hv1 hp1 hv2 hp2
    y0 h2 ty t₂ j (by omega)
  obtain ⟨f1, f2, f3, f4, -⟩ := hy j hj
  rwa [f1, f2, f3, f4]

/-! ### Two points in a cavity of three by three cells, one process and two -/

def nineAxes : ℕ → Axis ℚ := fun _ => ⟨0, 3, [1, 1, 1]⟩

abbrev nineLayout (px : ℕ) : Layout := meshLayout 2 nineAxes (fun _ _ => false) fun d => if d = 0 then px else 1

abbrev nineGeom : Geom ℚ := meshGeom 2 nineAxes fun _ _ => false

abbrev nineB (px : ℕ) : ℕ → Boundary ℚ := boundaries true (nineLayout px) nineGeom lidTable

theorem nine_constructed {px : ℕ} (hp : px = 1 ∨ px = 2) : Constructed true (nineLayout px) nineGeom nineAxes lidTable (nineB px) := by
  apply constructed_boundaries
  apply C57_construction true (Or.inl rfl) _ (fun _ _ _ _ => rfl)
  · intro d hd
    rcases hp with rfl | rfl <;> interval_cases d <;> simp
  · intro f d hf hd
    rcases hp with rfl | rfl <;> rcases hf with hf | rfl
    all_goals first
      | (interval_cases d <;> interval_cases f <;> decide)
      | (interval_cases d <;> decide)
  · intro f loc _ _; simp [lidTable]
  · intro f loc _ _; simp [lidTable]
  · intro d hd
    exact ⟨by simp [nineAxes], by simp [nineAxes], by norm_num [nineAxes]⟩

theorem nine_sizes {px : ℕ} (hp : px = 1 ∨ px = 2) : (nineLayout px).UN = 12 ∧ (nineLayout px).pN = 9 := by
  rcases hp with rfl | rfl <;> decide +kernel

theorem nine_knows (px : ℕ) (u : Unknown) : KnowsWalls (nineLayout px) lidTable u.rank u.comp ⟨u.k, u.j, u.i, 0⟩ := by
  intro loc hl hne _ _
  left
  unfold Closed lidTable
  rw [if_neg (by omega)]

/-- One body of two points. With two processes each has one of them. -/
def nineBody (px : ℕ) : BodyPack ℚ := ⟨2, px, [⟨2, 2, [[3/4, 3/4], [7/4, 3/2]], if px = 1 then [2] else [1, 1]⟩]⟩

theorem nineBody_ok {px : ℕ} (hp : px = 1 ∨ px = 2) : BodiesOK (nineLayout px) (nineBody px) := by
  rcases hp with rfl | rfl
  all_goals exact ⟨by constructor <;> simp [nineBody], rfl, rfl⟩

theorem nineBody_same : SameBodies (nineBody 1) (nineBody 2) := by
  refine ⟨rfl, rfl, ?_⟩
  intro b x y hx hy
  cases b with
  | zero => cases hx; cases hy; exact ⟨rfl, rfl⟩
  | succ b => cases hx

theorem nineBody_width : OneWidth (nineLayout 1) nineAxes (nineBody 1) := by
  intro body hb
  obtain rfl : body = ⟨2, 2, [[3/4, 3/4], [7/4, 3/2]], [2]⟩ := by simpa [nineBody] using hb
  refine ⟨fun _ => 1, ?_⟩
  have hall : ∀ (I j : ℕ) (v : ℚ), (nineAxes I).dL[j]? = some v → v = 1 := by
    intro I j v h
    have := List.mem_of_getElem? h
    simpa [nineAxes] using this
  intro p hp d x hd hx
  change d < 2 at hd
  simp only [List.mem_cons, List.not_mem_nil, or_false] at hp
  rcases hp with rfl | rfl <;> interval_cases d <;> cases hx
  · exact ⟨⟨0, ⟨by simp [nineAxes], by norm_num [nineAxes], by norm_num [nineAxes]⟩, fun j v _ _ h => hall _ j v h⟩, by norm_num [nineAxes]⟩
  · exact ⟨⟨0, ⟨by simp [nineAxes], by norm_num [nineAxes], by norm_num [nineAxes]⟩, fun j v _ _ h => hall _ j v h⟩, by norm_num [nineAxes]⟩
  · exact ⟨⟨1, ⟨by simp [nineAxes], by norm_num [nineAxes], by norm_num [nineAxes]⟩, fun j v _ _ h => hall _ j v h⟩, by norm_num [nineAxes]⟩
  · exact ⟨⟨1, ⟨by simp [nineAxes], by norm_num [nineAxes], by norm_num [nineAxes]⟩, fun j v _ _ h => hall _ j v h⟩, by norm_num [nineAxes]⟩

/-- A run of `n` steps of the coupled solver in a cavity with a moving lid, all systems solved exactly. -/
def nineRun (px n : ℕ) : Except Error ((NSOps ℚ × Mat ℚ × Mat ℚ) × NSState ℚ × NSState ℚ) := do
  let (ops, s) ← ibpmInit true (nineLayout px) nineGeom nineAxes (seamParams adamsBashforth2) (some shearFlow) (nineB px) (nineBody px) hatKernel 1
  let t ← steps (ibpmAdvance (nineLayout px) nineGeom (seamParams adamsBashforth2) (nestCounts (nineLayout px) (nineBody px)) ops.1
    (gaussSolve 12) (gaussSolve 13)) n s
  return (ops, s, t)

theorem nine_run {px n : ℕ} (hp : px = 1 ∨ px = 2) {ops : NSOps ℚ} {E H : Mat ℚ} {s t : NSState ℚ} (h : nineRun px n = .ok ((ops, E, H), s, t)) :
    ∃ disk' x, CoupledStarted true (nineLayout px) nineGeom nineAxes lidTable (nineB px) (seamParams adamsBashforth2) (some shearFlow) (nineBody px)
      hatKernel 1 ops (fun _ => none) s disk' ∧ x 0 = s ∧ x n = t ∧
    CoupledTrajectory (nineLayout px) nineGeom (seamParams adamsBashforth2) (nestCounts (nineLayout px) (nineBody px)) ops (gaussSolve 12) (gaussSolve 13) x n ∧
    ops.pN = 13 := by
  obtain ⟨⟨⟨ops', E', H'⟩, s'⟩, h1, h⟩ := bind_ok h
  obtain ⟨t', h2, h⟩ := bind_ok h
  cases h
  obtain ⟨x, x0, xn, hx⟩ := steps_ok h2
  have C := nine_constructed hp
  have hi : s.ite = 0 ∧ ops.pN = 13 := by
    obtain ⟨⟨U, p⟩, h3, h1⟩ := bind_ok h1
    obtain ⟨⟨ops', E', H'⟩, h4, h1⟩ := bind_ok h1
    cases h1
    obtain ⟨D, Dm, Gr, La, Lm, BN, idx, _, _, _, _, _, _, e⟩ := ibpmCreate_ok h4
    refine ⟨rfl, ?_⟩
    rw [e]
    show (nineLayout px).pN + (nineBody px).nPts * (nineBody px).dim = 13
    rw [(nine_sizes hp).2]
    rcases hp with rfl | rfl <;> rfl
  obtain ⟨file, hf, _⟩ := writeSolution_spec C.setup.layout { s with p := subPressure (nestCounts (nineLayout px) (nineBody px)) s.p }
    (fun _ => none) (stepPath (seamParams adamsBashforth2).output s.ite)
  refine ⟨Function.update (fun _ => none) (stepPath (seamParams adamsBashforth2).output s.ite) (some file), x,
    ⟨C, ⟨false, "out", some (seamNode none "ADAMS_BASHFORTH_2"), rfl⟩, nineBody_ok hp, s, (E, H), h1, ?_⟩, x0, xn, hx, hi.2⟩
  unfold ibpmIoInitialData ibpmWriteSolution
  rw [if_pos hi.1, hf]
  rfl

theorem nineRun_ok {px : ℕ} (hp : px = 1 ∨ px = 2) : (nineRun px 2).toOption.isSome = true := by
  rcases hp with rfl | rfl <;> decide +kernel

theorem nine_delta : (do
    let idx ← (nineBody 2).updateMeshIdx nineAxes
    createDelta true (nineLayout 2) nineAxes (nineB 2) (nineBody 2) (meshIdxAt idx) hatKernel 1).toOption.map (fun D : Mat ℚ => (List.range 12).map fun c : ℕ =>
      (List.range 4).map fun r : ℕ => D r c) = some [[9/16, 0, 0, 0], [3/16, 0, 1/4, 0], [0, 0, 0, 0], [0, 9/16, 0, 0], [0, 3/16, 0, 3/8], [0, 0, 0, 0],
      [0, 0, 0, 3/8], [0, 0, 0, 0], [0, 0, 3/4, 0], [0, 0, 0, 0], [0, 0, 0, 1/8], [0, 0, 0, 1/8]] := by
  decide +kernel

theorem nine_gradient : (createGradient true (nineLayout 2) nineGeom false).toOption.map (fun D : Mat ℚ => (List.range 12).map fun c : ℕ =>
      (List.range 9).map fun r : ℕ => D c r) = some [[-1, 1, 0, 0, 0, 0, 0, 0, 0], [0, 0, -1, 1, 0, 0, 0, 0, 0], [0, 0, 0, 0, -1, 1, 0, 0, 0],
      [-1, 0, 1, 0, 0, 0, 0, 0, 0], [0, -1, 0, 1, 0, 0, 0, 0, 0], [0, 0, -1, 0, 1, 0, 0, 0, 0], [0, 0, 0, -1, 0, 1, 0, 0, 0], [0, -1, 0, 0, 0, 0, 1, 0, 0],
      [0, 0, 0, -1, 0, 0, 0, 1, 0], [0, 0, 0, 0, 0, -1, 0, 0, 1], [0, 0, 0, 0, 0, 0, -1, 1, 0], [0, 0, 0, 0, 0, 0, 0, -1, 1]] := by
  decide +kernel

/-- The sums of the gradient around the four corners of the cell in the middle are zero, and the four forces have independent sums. -/
theorem nine_independent : IndependentOfGradients true (nineLayout 2) nineGeom nineAxes (nineB 2) (nineBody 2) hatKernel 1 := by
  rintro Δ Gr ⟨idx, e1, e2⟩ e3 p F hc k k0 k1
  have a := nine_delta
  rw [e1] at a
  simp only [bind, Except.bind] at a
  rw [e2] at a
  have b := nine_gradient
  rw [e3] at b
  simp only [Except.toOption, Option.map_some, List.map_cons, List.map_nil, show List.range 12 = [0, 1, 2, 3, 4, 5, 6, 7, 8, 9, 10, 11] from rfl,
    show List.range 9 = [0, 1, 2, 3, 4, 5, 6, 7, 8] from rfl, show List.range 4 = [0, 1, 2, 3] from rfl, Option.some.injEq,
    List.cons.injEq, and_true, Nat.cast_zero, Nat.cast_one, Nat.cast_ofNat] at a b
  rw [(nine_sizes (Or.inr rfl)).1] at hc
  rw [(nine_sizes (Or.inr rfl)).2, show (nineBody 2).nPts * (nineBody 2).dim = 4 from rfl] at hc
  change k < 4 at k1
  have f0 := hc 0 (by norm_num) (by norm_num)
  have f1 := hc 1 (by norm_num) (by norm_num)
  have f2 := hc 2 (by norm_num) (by norm_num)
  have f3 := hc 3 (by norm_num) (by norm_num)
  have f4 := hc 4 (by norm_num) (by norm_num)
  have f5 := hc 5 (by norm_num) (by norm_num)
  have f6 := hc 6 (by norm_num) (by norm_num)
  have f7 := hc 7 (by norm_num) (by norm_num)
  have f8 := hc 8 (by norm_num) (by norm_num)
  have f9 := hc 9 (by norm_num) (by norm_num)
  have f10 := hc 10 (by norm_num) (by norm_num)
  have f11 := hc 11 (by norm_num) (by norm_num)
  simp only [spread, Mat.mult, Finset.sum_range_succ, Finset.sum_range_zero, Nat.cast_zero, Nat.cast_one, Nat.cast_ofNat, a, b] at f0 f1 f2 f3 f4 f5 f6 f7 f8 f9 f10 f11
  have : k = 0 ∨ k = 1 ∨ k = 2 ∨ k = 3 := by omega
  rcases this with rfl | rfl | rfl | rfl <;> linarith

/-- Two steps of the coupled solver, one process and two: the hypotheses of `C88_coupled_partial` hold. -/
example : ∃ o₁ o₂ i₁ i₂ d₁ d₂ x₁ x₂,
    CoupledStarted true (nineLayout 1) nineGeom nineAxes lidTable (nineB 1) (seamParams adamsBashforth2) (some shearFlow) (nineBody 1)
      hatKernel 1 o₁ (fun _ => none) i₁ d₁ ∧
    CoupledStarted true (nineLayout 2) nineGeom nineAxes lidTable (nineB 2) (seamParams adamsBashforth2) (some shearFlow) (nineBody 2)
      hatKernel 1 o₂ (fun _ => none) i₂ d₂ ∧
    (nineLayout 2).toMeshInfo = (nineLayout 1).toMeshInfo ∧ SameBodies (nineBody 1) (nineBody 2) ∧
    OneWidth (nineLayout 1) nineAxes (nineBody 1) ∧ (∀ d, (nineLayout 1).periodic 0 d = false) ∧
    (∀ u : Unknown, KnowsWalls (nineLayout 1) lidTable u.rank u.comp ⟨u.k, u.j, u.i, 0⟩) ∧
    (∀ u : Unknown, KnowsWalls (nineLayout 2) lidTable u.rank u.comp ⟨u.k, u.j, u.i, 0⟩) ∧ 0 < (seamParams adamsBashforth2).dt ∧
    0 ≤ (seamParams adamsBashforth2).nu ∧ (seamParams adamsBashforth2).pType = .ksp ∧ (∀ f loc, (lidTable f loc).1 ≠ .NEUMANN) ∧
    GoodOrder (nineLayout 2) (seamParams adamsBashforth2) o₂.A ∧
    SameStart (seamParams adamsBashforth2) (fun _ => none) (fun _ => none) ∧ (seamParams adamsBashforth2).nstart = 0 ∧
    Solves (nineLayout 1).UN (gaussSolve 12) o₁.A ∧ Solves o₁.pN (gaussSolve 13) o₁.DBNG ∧
    Solves (nineLayout 2).UN (gaussSolve 12) o₂.A ∧ Solves o₂.pN (gaussSolve 13) o₂.DBNG ∧ x₁ 0 = i₁ ∧ x₂ 0 = i₂ ∧
    CoupledTrajectory (nineLayout 1) nineGeom (seamParams adamsBashforth2) (nestCounts (nineLayout 1) (nineBody 1)) o₁ (gaussSolve 12) (gaussSolve 13) x₁ 2 ∧
    CoupledTrajectory (nineLayout 2) nineGeom (seamParams adamsBashforth2) (nestCounts (nineLayout 2) (nineBody 2)) o₂ (gaussSolve 12) (gaussSolve 13) x₂ 2 ∧
    IndependentOfGradients true (nineLayout 2) nineGeom nineAxes (nineB 2) (nineBody 2) hatKernel 1 := by
  obtain ⟨⟨⟨o₁, E₁, H₁⟩, i₁, e₁⟩, h1⟩ := pick (nineRun_ok (Or.inl rfl))
  obtain ⟨⟨⟨o₂, E₂, H₂⟩, i₂, e₂⟩, h2⟩ := pick (nineRun_ok (Or.inr rfl))
  obtain ⟨d₁, x₁, S₁, x0, -, t1, n1⟩ := nine_run (Or.inl rfl) h1
  obtain ⟨d₂, x₂, S₂, y0, -, t2, n2⟩ := nine_run (Or.inr rfl) h2
  obtain ⟨u1, u2⟩ := nine_sizes (Or.inl rfl : 1 = 1 ∨ 1 = 2)
  obtain ⟨u3, u4⟩ := nine_sizes (Or.inr rfl : 2 = 1 ∨ 2 = 2)
  exact ⟨o₁, o₂, i₁, i₂, d₁, d₂, x₁, x₂, S₁, S₂, rfl, nineBody_same, nineBody_width, fun _ => rfl, nine_knows 1, nine_knows 2,
    by norm_num [seamParams], by norm_num [seamParams], rfl, fun _ _ => by simp [lidTable], Or.inl rfl, Or.inl rfl, rfl,
    by rw [u1]; exact gaussSolve_exact _ _, by rw [n1]; exact gaussSolve_exact _ _, by rw [u3]; exact gaussSolve_exact _ _,
    by rw [n2]; exact gaussSolve_exact _ _, x0, y0, t1, t2, nine_independent⟩

/-- Two steps of one process, and one step of two processes that continue the first step from its file. -/
def nineRestart : Except Error ((NSOps ℚ × NSState ℚ × NSState ℚ × NSState ℚ) × Disk ℚ × NSOps ℚ × NSState ℚ × NSState ℚ) := do
  let (ops, s) ← ibpmInit true (nineLayout 1) nineGeom nineAxes (seamParams eulerExplicit) (some shearFlow) (nineB 1) (nineBody 1) hatKernel 1
  let a ← ibpmAdvance (nineLayout 1) nineGeom (seamParams eulerExplicit) (nestCounts (nineLayout 1) (nineBody 1)) ops.1 (gaussSolve 12) (gaussSolve 13) s
  let b ← ibpmAdvance (nineLayout 1) nineGeom (seamParams eulerExplicit) (nestCounts (nineLayout 1) (nineBody 1)) ops.1 (gaussSolve 12) (gaussSolve 13) a
  let d ← ibpmWriteRestart (nineLayout 1) (nestCounts (nineLayout 1) (nineBody 1)) 4 a (fun _ => none) (stepPath "out" 1)
  let (ops', s') ← ibpmInit true (nineLayout 2) nineGeom nineAxes (continued (seamParams eulerExplicit) 1 1) (some shearFlow) (nineB 2) (nineBody 2)
    hatKernel 1
  let i ← ibpmReadRestart (nineLayout 2) (nestCounts (nineLayout 2) (nineBody 2)) 4 s' d (stepPath "out" 1)
  let c ← ibpmAdvance (nineLayout 2) nineGeom (continued (seamParams eulerExplicit) 1 1) (nestCounts (nineLayout 2) (nineBody 2)) ops'.1 (gaussSolve 12)
    (gaussSolve 13) i
  return ((ops.1, s, a, b), d, ops'.1, i, c)

theorem nineRestart_ok : nineRestart.toOption.isSome = true := by decide +kernel

/-- With one body the hypotheses of `C88_coupled_continued_partial` hold. -/
example : ∃ (o₁ o₂ : NSOps ℚ) (i₁ i₂ : NSState ℚ) (d₁ d d₂ : Disk ℚ) (file : H5File ℚ) (x₁ x₂ : ℕ → NSState ℚ),
    CoupledStarted true (nineLayout 1) nineGeom nineAxes lidTable (nineB 1) (seamParams eulerExplicit) (some shearFlow) (nineBody 1) hatKernel 1
      o₁ (fun _ => none) i₁ d₁ ∧
    CoupledStarted true (nineLayout 2) nineGeom nineAxes lidTable (nineB 2) (continued (seamParams eulerExplicit) 1 1) (some shearFlow) (nineBody 2) hatKernel 1
      o₂ d i₂ d₂ ∧ (nineBody 1).bodies.length ≤ 1 ∧ GoodOrder (nineLayout 2) (seamParams eulerExplicit) o₂.A ∧
    NoConvective (nineLayout 1) lidTable ∧ (seamParams (eulerExplicit : TimeScheme ℚ)).conv.nExplicit ≤ 1 ∧
    (seamParams (eulerExplicit : TimeScheme ℚ)).diff.nExplicit ≤ 1 ∧ IgnoresGuess (gaussSolve 13) ∧
    d (stepPath (seamParams (eulerExplicit : TimeScheme ℚ)).output ((seamParams eulerExplicit).nstart + 1)) = some file ∧
    SolutionIn (nineLayout 1) file { x₁ 1 with p := subPressure (nestCounts (nineLayout 1) (nineBody 1)) (x₁ 1).p } ∧
    RestartIn (nineLayout 1) file { x₁ 1 with p := subPressure (nestCounts (nineLayout 1) (nineBody 1)) (x₁ 1).p } ∧
    ForceIn ((nineBody 1).nPts * (nineBody 1).dim) file (subForces (nestCounts (nineLayout 1) (nineBody 1)) (x₁ 1).p) ∧ x₁ 0 = i₁ ∧ x₂ 0 = i₂ ∧
    CoupledTrajectory (nineLayout 1) nineGeom (seamParams eulerExplicit) (nestCounts (nineLayout 1) (nineBody 1)) o₁ (gaussSolve 12) (gaussSolve 13) x₁ 2 ∧
    CoupledTrajectory (nineLayout 2) nineGeom (continued (seamParams eulerExplicit) 1 1) (nestCounts (nineLayout 2) (nineBody 2)) o₂ (gaussSolve 12)
      (gaussSolve 13) x₂ 1 := by
  obtain ⟨q, h⟩ := pick nineRestart_ok
  obtain ⟨⟨⟨o₁, E, H⟩, i₁⟩, e1, h⟩ := bind_ok h
  obtain ⟨a, e2, h⟩ := bind_ok h
  obtain ⟨b, e3, h⟩ := bind_ok h
  obtain ⟨d, e4, h⟩ := bind_ok h
  obtain ⟨⟨⟨o₂, E', H'⟩, s'⟩, e5, h⟩ := bind_ok h
  obtain ⟨i₂, e6, h⟩ := bind_ok h
  obtain ⟨c, e7, h⟩ := bind_ok h
  cases h
  have C₁ := nine_constructed (Or.inl rfl : 1 = 1 ∨ 1 = 2)
  have C₂ := nine_constructed (Or.inr rfl : 2 = 1 ∨ 2 = 2)
  have hr : readParams false "out" (some (seamNode none "EULER_EXPLICIT")) (some shearFlow) = .ok (seamParams eulerExplicit) := rfl
  obtain ⟨node', hr'⟩ := continued_read hr 1 1
  have ite : i₁.ite = 0 := by
    obtain ⟨⟨U, p⟩, h3, h1⟩ := bind_ok e1
    obtain ⟨⟨ops', E', H'⟩, h4, h1⟩ := bind_ok h1
    cases h1
    rfl
  have ite' : s'.ite = 1 := by
    obtain ⟨⟨U, p⟩, h3, h1⟩ := bind_ok e5
    obtain ⟨⟨ops', E', H'⟩, h4, h1⟩ := bind_ok h1
    cases h1
    rfl
  obtain ⟨file, hw, hR, hS, _⟩ := writeRestart_spec C₁.setup.layout { a with p := subPressure (nestCounts (nineLayout 1) (nineBody 1)) a.p } (fun _ => none)
    (stepPath "out" 1)
  unfold ibpmWriteRestart at e4
  rw [hw] at e4
  have e4 := Except.ok.inj e4
  rw [appendForce _ _ (Function.update_self ..)] at e4
  obtain ⟨file₀, hf₀, _⟩ := writeSolution_spec C₁.setup.layout { i₁ with p := subPressure (nestCounts (nineLayout 1) (nineBody 1)) i₁.p } (fun _ => none)
    (stepPath (seamParams eulerExplicit).output i₁.ite)
  refine ⟨o₁, o₂, i₁, i₂, Function.update (fun _ => none) (stepPath (seamParams eulerExplicit).output i₁.ite) (some file₀), d, d,
    file.put "/force" (packedList 4 (subForces (nestCounts (nineLayout 1) (nineBody 1)) a.p)), fun k => if k = 0 then i₁ else if k = 1 then a else b,
    fun k => if k = 0 then i₂ else c, ?_, ?_, le_refl 1, Or.inl rfl, fun _ _ _ _ => by simp [lidTable], le_refl 1, le_refl 1, fun _ _ _ _ => rfl, ?_,
    (hS rfl).put_force _, hR.put_force _, forceIn_put _ _ _, rfl, rfl, ?_, ?_⟩
  · refine ⟨C₁, ⟨false, "out", some (seamNode none "EULER_EXPLICIT"), hr⟩, nineBody_ok (Or.inl rfl), i₁, (E, H), e1, ?_⟩
    unfold ibpmIoInitialData ibpmWriteSolution
    rw [if_pos ite, hf₀]
    rfl
  · refine ⟨C₂, ⟨false, "out", node', hr'⟩, nineBody_ok (Or.inr rfl), s', (E', H'), e5, ?_⟩
    unfold ibpmIoInitialData
    rw [if_neg (by rw [ite']; decide), ite']
    show (ibpmReadRestart (nineLayout 2) (nestCounts (nineLayout 2) (nineBody 2)) 4 s' d (stepPath "out" 1) >>= _) = _
    rw [e6]
    rfl
  · rw [← e4]
    exact Function.update_self ..
  · intro k hk
    interval_cases k
    · exact e2
    · exact e3
  · intro k hk
    interval_cases k
    exact e7

end PetIBM
