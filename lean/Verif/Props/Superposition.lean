/-
C106: without convection the runs superpose.
-/
import Verif.Lemmas.Superposition
import Verif.Props.Turn
import Verif.Props.PinnedCases
import Verif.Props.Energy
import Verif.Props.Start

set_option linter.unusedSectionVars false

namespace PetIBM

open Spec

variable {K : Type} [Field K] [LinearOrder K] [IsStrictOrderedRing K]
variable {debug : Bool} {L : Layout} {G : Geom K} {axes : ℕ → Axis K} {P : NSParams K} {a b : K} {T₁ T₂ T₃ : BCTable K}
variable {B₁ B₂ B₃ : ℕ → Boundary K} {flow₁ flow₂ flow₃ : Option (FlowNode K)} {o₁ o₂ o₃ : NSOps K}
variable {disk₁ disk₁' disk₂ disk₂' disk₃ disk₃' : Disk K} {i₁ i₂ i₃ : NSState K}

/-- initial conditions of a combination -/
theorem mix_initial (C₁ : Constructed debug L G axes T₁ B₁) (C₂ : Constructed debug L G axes T₂ B₂) (C₃ : Constructed debug L G axes T₃ B₃)
    (hF : MixedFlow L.dim a b flow₁ flow₂ flow₃) {U₁ p₁ U₂ p₂ U₃ p₃ : ℤ → K}
    (e1 : setInitialConditions L G flow₁ (fun _ => 0) (fun _ => 0) = .ok (U₁, p₁))
    (e2 : setInitialConditions L G flow₂ (fun _ => 0) (fun _ => 0) = .ok (U₂, p₂))
    (e3 : setInitialConditions L G flow₃ (fun _ => 0) (fun _ => 0) = .ok (U₃, p₃)) : Mixed a b U₁ U₂ U₃ ∧ MixedPressure L.pN a b p₁ p₂ p₃ := by
  have hL := C₁.setup.layout
  have out1 := setIC_outside hL e1
  have out2 := setIC_outside hL e2
  have out3 := setIC_outside hL e3
  obtain ⟨nu, es₁, es₂, es₃, q₁, q₂, q₃, rfl, rfl, rfl, hv, hp⟩ := hF
  obtain ⟨ν, rfl, a1, a2⟩ := initial_at C₁ e1
  obtain ⟨ν', hν, b1, b2⟩ := initial_at C₂ e2
  cases hν
  obtain ⟨ν', hν, c1, c2⟩ := initial_at C₃ e3
  cases hν
  constructor
  · intro i
    by_cases hi : 0 ≤ i ∧ i < (L.UN : ℤ)
    · obtain ⟨u, hu, rfl⟩ := col_surj hL hi.1 hi.2
      obtain ⟨x, y, z, hx, hy, hz, e⟩ := hv u.comp hu.1
      rw [a1 _ _ x hu.1 hu.inside hx, b1 _ _ y hu.1 hu.inside hy, c1 _ _ z hu.1 hu.inside hz, e]
    · rw [out1.1 i hi, out2.1 i hi, out3.1 i hi]
      ring
  · refine ⟨0, fun i i0 i1 => ?_⟩
    obtain ⟨s, hs, rfl⟩ := pressure_surj hL i0 i1
    have g1 := (a2 s hs).trans (c := (q₁.getD fun _ _ _ _ _ => 0) (G.coord 3 0 (coordOf s 0)) (G.coord 3 1 (coordOf s 1))
      (G.coord 3 2 (coordOf s 2)) 0 ν) (by cases q₁ <;> rfl)
    have g2 := (b2 s hs).trans (c := (q₂.getD fun _ _ _ _ _ => 0) (G.coord 3 0 (coordOf s 0)) (G.coord 3 1 (coordOf s 1))
      (G.coord 3 2 (coordOf s 2)) 0 ν) (by cases q₂ <;> rfl)
    have g3 := (c2 s hs).trans (c := (q₃.getD fun _ _ _ _ _ => 0) (G.coord 3 0 (coordOf s 0)) (G.coord 3 1 (coordOf s 1))
      (G.coord 3 2 (coordOf s 2)) 0 ν) (by cases q₃ <;> rfl)
    rw [g1, g2, g3, hp, add_zero]

/-- the first states -/
theorem mix_start (S₁ : Started debug L G axes T₁ B₁ P flow₁ o₁ disk₁ i₁ disk₁') (S₂ : Started debug L G axes T₂ B₂ P flow₂ o₂ disk₂ i₂ disk₂')
    (S₃ : Started debug L G axes T₃ B₃ P flow₃ o₃ disk₃ i₃ disk₃') (hT : MixedTable L.dim a b T₁ T₂ T₃)
    (hF : MixedFlow L.dim a b flow₁ flow₂ flow₃) (start : P.nstart = 0) : o₂ = o₁ ∧ o₃ = o₁ ∧ MixState L a b i₁ i₂ i₃ ∧
      (∃ u, Reach L B₁ P o₁.pN u i₁) ∧ (∃ u, Reach L B₂ P o₂.pN u i₂) ∧ ∃ u, Reach L B₃ P o₃.pN u i₃ := by
  have C₁ := S₁.constructed
  have C₂ := S₂.constructed
  have C₃ := S₃.constructed
  obtain ⟨u₁, -, R₁⟩ := S₁.reach
  obtain ⟨u₂, -, R₂⟩ := S₂.reach
  obtain ⟨u₃, -, R₃⟩ := S₃.reach
  obtain ⟨z₁, e1, f1⟩ := S₁.init
  obtain ⟨z₂, e2, f2⟩ := S₂.init
  obtain ⟨z₃, e3, f3⟩ := S₃.init
  obtain ⟨U₁, q₁, x1, x2, ez₁⟩ := solverInit_ok e1
  obtain ⟨U₂, q₂, y1, y2, ez₂⟩ := solverInit_ok e2
  obtain ⟨U₃, q₃, w1, w2, ez₃⟩ := solverInit_ok e3
  obtain ⟨hu, hq⟩ := mix_initial C₁ C₂ C₃ hF x1 y1 w1
  have hB : ∀ r, r < L.mpiSize → MixBoundary a b ((B₁ r).run [.setGhostICs U₁]) ((B₂ r).run [.setGhostICs U₂]) ((B₃ r).run [.setGhostICs U₃]) :=
    fun r hr => (mix_init hT (C₁.init r hr) (C₂.init r hr) (C₃.init r hr)).setGhostICs hu
  obtain ⟨g2, g3⟩ := mix_operators (debug := debug) (G := G) (P := P) hB
  rw [x2, y2] at g2
  rw [x2, w2] at g3
  cases g2
  cases g3
  refine ⟨rfl, rfl, ?_, ⟨u₁, R₁⟩, ⟨u₂, R₂⟩, ⟨u₃, R₃⟩⟩
  subst ez₁ ez₂ ez₃
  have rep : ∀ n : ℕ, All3 (Mixed a b) (List.replicate n fun _ => (0 : K)) (List.replicate n fun _ => 0) (List.replicate n fun _ => 0) := by
    intro n
    induction n with
    | zero => exact All3.nil
    | succ m ih => exact All3.cons (fun _ => by ring) ih
  unfold ioInitialData at f1 f2 f3
  rw [if_pos start] at f1 f2 f3
  obtain ⟨d1, -, f1⟩ := bind_ok f1
  cases f1
  obtain ⟨d2, -, f2⟩ := bind_ok f2
  cases f2
  obtain ⟨d3, -, f3⟩ := bind_ok f3
  cases f3
  exact ⟨hu, hq, rep _, hB, ⟨rfl, rfl⟩, rfl, rfl⟩

/-- C106. Three configurations on the same mesh with the same parameters, without convective terms (the scheme EULER_IMPLICIT for convection has no
explicit term, and the code knows no implicit one). The boundary conditions have the same types; the values at the walls and the initial fields of
the third are `a` times those of the first plus `b` times those of the second. Then the operators are the same, and if the linear systems are
solved exactly, at every step the velocity of the third run is the same combination of the velocities of the others, and the pressure is, up to a
constant. This holds for both Poisson systems, whether or not the fluxes through the walls cancel, and with convective outlets of equal speed.
Missing: restarts, NEUMANN conditions for normal velocities, a single cell in a periodic direction; for bodies see
`C106_decoupled_partial` and `C106_coupled_partial`. -/
theorem C106_superposition_partial (S₁ : Started debug L G axes T₁ B₁ P flow₁ o₁ disk₁ i₁ disk₁')
    (S₂ : Started debug L G axes T₂ B₂ P flow₂ o₂ disk₂ i₂ disk₂') (S₃ : Started debug L G axes T₃ B₃ P flow₃ o₃ disk₃ i₃ disk₃')
    (hT : MixedTable L.dim a b T₁ T₂ T₃) (hF : MixedFlow L.dim a b flow₁ flow₂ flow₃) (start : P.nstart = 0) (hc : P.conv.nExplicit = 0)
    (hn : ∀ f d, f < L.dim → d < L.dim → L.periodic 0 d = true → 2 ≤ L.n f d) (hdt : 0 < P.dt) (hnu : 0 ≤ P.nu)
    (hN : ∀ f loc, f < L.dim → loc / 2 = f → (T₁ f loc).1 ≠ .NEUMANN) (hBN : GoodOrder L P o₁.A) :
    o₂ = o₁ ∧ o₃ = o₁ ∧ ∀ {v₁ p₁ v₂ p₂ v₃ p₃ : LinSolve K}, Solves L.UN v₁ o₁.A → Solves L.pN p₁ o₁.DBNG → Solves L.UN v₂ o₁.A →
      Solves L.pN p₂ o₁.DBNG → Solves L.UN v₃ o₁.A → Solves L.pN p₃ o₁.DBNG → ∀ {x₁ x₂ x₃ : ℕ → NSState K} {n : ℕ}, x₁ 0 = i₁ → x₂ 0 = i₂ →
      x₃ 0 = i₃ → Trajectory L G P o₁ v₁ p₁ x₁ n → Trajectory L G P o₁ v₂ p₂ x₂ n → Trajectory L G P o₁ v₃ p₃ x₃ n → ∀ k, k ≤ n →
        Mixed a b (x₁ k).U (x₂ k).U (x₃ k).U ∧ MixedPressure L.pN a b (x₁ k).p (x₂ k).p (x₃ k).p ∧ (x₂ k).t = (x₁ k).t ∧ (x₃ k).t = (x₁ k).t := by
  obtain ⟨e2, e3, init, ⟨u₁, R₁⟩, ⟨u₂, R₂⟩, ⟨u₃, R₃⟩⟩ := mix_start S₁ S₂ S₃ hT hF start
  have e2 := e2.symm
  have e3 := e3.symm
  subst e2 e3
  refine ⟨rfl, rfl, ?_⟩
  intro v₁ p₁ v₂ p₂ v₃ p₃ hv1 hp1 hv2 hp2 hv3 hp3 x₁ x₂ x₃ n h1 h2 h3 t₁ t₂ t₃
  have hN3 : ∀ f loc, f < L.dim → loc / 2 = f → (T₃ f loc).1 ≠ .NEUMANN := fun f loc hf hl => by
    rw [(hT f loc hf (by omega)).2.1]
    exact hN f loc hf hl
  have all : ∀ k, k ≤ n → Reach L B₁ P o₁.pN u₁ (x₁ k) ∧ Reach L B₂ P o₁.pN u₂ (x₂ k) ∧ Reach L B₃ P o₁.pN u₃ (x₃ k) ∧
      MixState L a b (x₁ k) (x₂ k) (x₃ k) := by
    intro k
    induction k with
    | zero =>
      intro _
      rw [h1, h2, h3]
      exact ⟨R₁, R₂, R₃, init⟩
    | succ k ih =>
      intro hk
      obtain ⟨r1, r2, r3, hs⟩ := ih (by omega)
      exact ⟨r1.step S₁.constructed S₁.schemes.1.1 S₁.schemes.2.1 (t₁ k (by omega)), r2.step S₂.constructed S₂.schemes.1.1 S₂.schemes.2.1 (t₂ k (by omega)),
        r3.step S₃.constructed S₃.schemes.1.1 S₃.schemes.2.1 (t₃ k (by omega)),
        mix_step S₁ S₂ S₃ hc hn hdt hnu hN3 hBN hv1 hp1 hv2 hp2 hv3 hp3 r1 r2 r3 hs (t₁ k (by omega)) (t₂ k (by omega)) (t₃ k (by omega))⟩
  intro k hk
  obtain ⟨-, -, -, h⟩ := all k hk
  exact ⟨h.vel, h.pres, h.time⟩

/-- initial conditions that are read are complete, and carry the viscosity of the parameters -/
theorem started_flow {T : BCTable K} {B : ℕ → Boundary K} {flow : Option (FlowNode K)} {o : NSOps K} {disk disk' : Disk K} {i : NSState K}
    (S : Started debug L G axes T B P flow o disk i disk') : ∃ es p, flow = some ⟨some P.nu, some es, p⟩ ∧ L.dim ≤ es.length := by
  obtain ⟨z, e, -⟩ := S.init
  obtain ⟨U, q, e1, -⟩ := solverInit_ok e
  obtain ⟨_, _, _, h⟩ := S.params
  have C := S.constructed
  obtain _ | ⟨nu, es, pe⟩ := flow
  · rw [(C56_missing_rejected L G _ _ none none 0).1] at e1
    cases e1
  obtain _ | nu := nu
  · rw [(C56_missing_rejected L G _ _ es pe 0).2.1] at e1
    cases e1
  obtain _ | es := es
  · rw [(C56_missing_rejected L G _ _ none pe nu).2.2] at e1
    cases e1
  by_cases bad : es.length < L.dim ∧ ∀ f, f < L.dim → 0 < L.n f 0 ∧ 0 < L.n f 1 ∧ 0 < L.n f 2
  · rw [C56_unchecked_count C.setup.layout G _ _ es pe nu (Or.inr bad)] at e1
    cases e1
  refine ⟨es, pe, ?_, ?_⟩
  · obtain ⟨node, _, h⟩ := bind_ok h
    obtain ⟨dt, _, h⟩ := bind_ok h
    obtain ⟨nt, _, h⟩ := bind_ok h
    obtain ⟨nsave, _, h⟩ := bind_ok h
    obtain ⟨nrestart, _, h⟩ := bind_ok h
    obtain ⟨nu', h1, h⟩ := bind_ok h
    obtain ⟨conv, _, h⟩ := bind_ok h
    obtain ⟨diff, _, h⟩ := bind_ok h
    obtain ⟨v, _, h⟩ := bind_ok h
    obtain ⟨p, _, h⟩ := bind_ok h
    cases h
    cases h1
    rfl
  · by_contra h
    exact bad ⟨by omega, fun f hf => ⟨C.pos f 0 hf (by omega), C.pos f 1 hf (by omega), C.pos f 2 hf (by omega)⟩⟩

/-- C106, stability: two runs without convection in the same closed domain, whose walls may move in their planes, from different initial fields.
Whatever the time step, the kinetic energy of the difference of the velocities stays bounded in runs of any length: by the energies of the
differences of velocity and pressure gradient in the beginning (after the first step with the scheme of Crank and Nicolson). So the discrete flow
depends continuously on its initial data. Missing: as in `C106_superposition_partial`, and the pinned Poisson system, other orders of `BN`,
fewer than three cells in a periodic direction. -/
theorem C106_stability_partial {T : BCTable K} (S₁ : Started debug L G axes T B₁ P flow₁ o₁ disk₁ i₁ disk₁')
    (S₂ : Started debug L G axes T B₂ P flow₂ o₂ disk₂ i₂ disk₂') (start : P.nstart = 0) (hc : P.conv = eulerImplicit)
    (hn : ∀ f d, f < L.dim → d < L.dim → L.periodic 0 d = true → 3 ≤ L.n f d) (hdt : 0 < P.dt) (hnu : 0 ≤ P.nu) (closed : AllClosed L T)
    (hw : ∀ f loc, f < L.dim → loc < L.dim * 2 → L.periodic 0 (loc / 2) = false → (T f loc).1 = .DIRICHLET ∨ (T f loc).1 = .NEUMANN)
    (hBN : P.BN = 1) (hp : P.pType = .ksp)
    {v₁ p₁ v₂ p₂ : LinSolve K} (hv1 : Solves L.UN v₁ o₁.A) (hp1 : Solves L.pN p₁ o₁.DBNG) (hv2 : Solves L.UN v₂ o₁.A)
    (hp2 : Solves L.pN p₂ o₁.DBNG) {x₁ x₂ : ℕ → NSState K} {n : ℕ} (h1 : x₁ 0 = i₁) (h2 : x₂ 0 = i₂)
    (t₁ : Trajectory L G P o₁ v₁ p₁ x₁ n) (t₂ : Trajectory L G P o₁ v₂ p₂ x₂ n) (vol : ℤ → K) (hvol : IsVolume debug L G vol) (k : ℕ) (hk : k ≤ n)
    (i : ℕ) (hi : i ≤ k) (hd : P.diff = eulerImplicit ∨ P.diff = crankNicolson ∧ 0 < i) :
    kinetic L.UN vol (fun j => (x₁ k).U j - (x₂ k).U j) ≤ kinetic L.UN vol (fun j => (x₁ i).U j - (x₂ i).U j) +
      P.diff.implicitCoeff * P.dt ^ 2 * kinetic L.UN vol (Mat.mult L.pN o₁.G fun j => (x₁ i).p j - (x₂ i).p j) := by
  have C₁ := S₁.constructed
  have hn2 : ∀ f d, f < L.dim → d < L.dim → L.periodic 0 d = true → 2 ≤ L.n f d := fun f d hf hd hper => by have := hn f d hf hd hper; omega
  obtain ⟨es₁, q₁, rfl, l1⟩ := started_flow S₁
  obtain ⟨es₂, q₂, rfl, l2⟩ := started_flow S₂
  -- the difference is a run with walls at rest
  let T₃ : BCTable K := fun f loc => ((T f loc).1, 0)
  have tab : TableOK L T₃ := C₁.table
  have noBC : ∀ f loc, f < L.dim → loc < L.dim * 2 → (T₃ f loc).1 ≠ .NOBC := by
    intro f loc hf hl
    cases hper : L.periodic 0 (loc / 2) with
    | false => rcases hw f loc hf hl hper with h | h <;> · show (T f loc).1 ≠ _; rw [h]; simp
    | true => rw [(tab f loc hf hl).2 hper]; simp
  have bdry : ∀ r, ∃ B, boundaryInit debug L G r T₃ = .ok B := fun r => exists_boundary debug C₁.setup.layout G C₁.pos T₃ noBC r
  choose B₃ hB₃ using bdry
  have C₃ : Constructed debug L G axes T₃ B₃ := ⟨C₁.setup, C₁.part, tab, fun r _ => hB₃ r⟩
  have rest : WallsAtRest L T₃ := by
    refine ⟨fun loc hl hper => ?_, fun f loc hf hl hper _ => ⟨hw f loc hf hl hper, rfl⟩⟩
    have := closed loc hl hper
    unfold Closed at this ⊢
    show ((T (loc / 2) loc).1, (0 : K)) = _
    rw [this]
  let z : Expr K := fun _ _ _ _ _ => 0
  let es₃ : List (Expr K) := (List.range L.dim).map fun f x y w t ν => es₁.getD f z x y w t ν - es₂.getD f z x y w t ν
  let q₃ : Option (Expr K) := some fun x y w t ν => q₁.getD z x y w t ν - q₂.getD z x y w t ν
  have few : L.dim ≤ 3 := C₁.setup.dim_le
  obtain ⟨o₃, i₃, d₃, S₃⟩ := C60_start (P := P) C₃ P.nu es₃ q₃ (by simp [es₃]) (by simp [es₃]; omega) S₁.params (by omega) start (fun _ => none)
  have mT : MixedTable L.dim 1 (-1) T T T₃ := by
    intro f loc hf hl
    refine ⟨rfl, rfl, fun h => ?_, fun _ => by show (0 : K) = _; ring⟩
    cases hper : L.periodic 0 (loc / 2) with
    | false => rcases hw f loc hf hl hper with h' | h' <;> · rw [h'] at h; cases h
    | true =>
      have : (T f loc).1 = .PERIODIC := (tab f loc hf hl).2 hper
      rw [this] at h
      cases h
  have mF : MixedFlow L.dim 1 (-1) (some ⟨some P.nu, some es₁, q₁⟩) (some ⟨some P.nu, some es₂, q₂⟩) (some ⟨some P.nu, some es₃, q₃⟩) := by
    refine ⟨some P.nu, es₁, es₂, es₃, q₁, q₂, q₃, rfl, rfl, rfl, fun f hf => ?_, fun x y w t ν => ?_⟩
    · refine ⟨es₁.getD f z, es₂.getD f z, fun x y w t ν => es₁.getD f z x y w t ν - es₂.getD f z x y w t ν, ?_, ?_, ?_, fun x y w t ν => by ring⟩
      · rw [List.getD_eq_getElem?_getD, List.getElem?_eq_getElem (show f < es₁.length by omega), Option.getD_some]
      · rw [List.getD_eq_getElem?_getD, List.getElem?_eq_getElem (show f < es₂.length by omega), Option.getD_some]
      · simp only [es₃, List.getElem?_map, List.getElem?_range hf, Option.map_some]
    · show q₁.getD z x y w t ν - q₂.getD z x y w t ν = _
      ring
  obtain ⟨given, flux⟩ := closed_given C₃ rest.1
  obtain ⟨e2, e3, mix⟩ := C106_superposition_partial S₁ S₂ S₃ mT mF start (by rw [hc]; rfl) hn2 hdt hnu
    (fun f loc hf hl => by
      rcases given f loc hf hl with h | h <;> · show (T₃ f loc).1 ≠ _; rw [h]; simp) (Or.inl hBN)
  have e2 := e2.symm
  have e3 := e3.symm
  subst e2 e3
  obtain ⟨x₃, h3, t₃, -⟩ := C62_runs_partial S₃ (vSolve := exactSolve L.UN) (pSolve := exactSolve L.pN) hn2 given flux (Or.inl hBN) hp hdt hnu
    (exactSolve_finds _ _) (exactSolve_finds _ _) (exactSolve_solves _ _)
  have all := mix hv1 hp1 hv2 hp2 (exactSolve_solves _ _) (exactSolve_solves _ _) h1 h2 h3 t₁ t₂ (t₃ n)
  have dec := C84_bounded_partial S₃ h3 (t₃ n) hn rest hBN hp hdt hnu (exactSolve_solves _ _) (exactSolve_solves _ _) hc vol hvol k hk i hi hd
  have vel : ∀ m, m ≤ n → (x₃ m).U = fun j => (x₁ m).U j - (x₂ m).U j := fun m hm => funext fun j => by
    rw [(all m hm).1 j]
    ring
  have pres : kinetic L.UN vol (Mat.mult L.pN o₁.G (x₃ i).p) = kinetic L.UN vol (Mat.mult L.pN o₁.G fun j => (x₁ i).p j - (x₂ i).p j) := by
    unfold kinetic work
    refine Finset.sum_congr rfl fun j hj => ?_
    have j1 : (j : ℤ) < L.UN := by exact_mod_cast Finset.mem_range.1 hj
    obtain ⟨c, hc⟩ := (all i (hi.trans hk)).2.1
    have e := (mix_correct (a := 1) (b := c) S₃ (fun f hf hper => hn2 f f hf hf hper) (x := fun j => (x₁ i).p j - (x₂ i).p j) (y := fun _ => 0)
      (z := (x₃ i).p) ⟨c, fun l l0 l1 => by rw [hc l l0 l1]; ring⟩ j (by omega) j1).1
    rw [e, mult_zero]
    ring
  rw [vel k hk, vel i (hi.trans hk), pres] at dec
  exact dec

/-! ### Examples -/

/-- Two lids. -/
def lids (x y : ℚ) : BCTable ℚ := fun f b => (.DIRICHLET, if f = 0 ∧ b = 3 then x else if f = 0 ∧ b = 2 then y else 0)

theorem lids_constructed (x y : ℚ) :
    Constructed true centredLayout centredGeom centredAxes (lids x y) (boundaries true centredLayout centredGeom (lids x y)) := by
  apply constructed_boundaries
  apply C57_construction true (Or.inl rfl) _ (fun _ _ _ _ => rfl)
  · intro d hd
    interval_cases d <;> simp
  · intro f d hf hd
    rcases hf with hf | rfl
    · interval_cases d <;> interval_cases f <;> decide
    · interval_cases d <;> decide
  · intro f loc _ _; simp [lids]
  · intro f loc _ _; simp [lids]
  · intro d hd
    exact ⟨by simp [centredAxes], by simp [centredAxes], by norm_num [centredAxes]⟩

def lidsFlow (x y : ℚ) : FlowNode ℚ := ⟨some 1, some [fun p q _ _ _ => x * q + y * p, fun p q _ _ _ => x * p - y * q], none⟩

theorem lids_mixed (a b x y z w : ℚ) : MixedTable 2 a b (lids x y) (lids z w) (lids (a * x + b * z) (a * y + b * w)) ∧
    MixedFlow 2 a b (some (lidsFlow x y)) (some (lidsFlow z w)) (some (lidsFlow (a * x + b * z) (a * y + b * w))) := by
  constructor
  · intro f loc _ _
    refine ⟨rfl, rfl, fun h => (by cases h), fun _ => ?_⟩
    simp only [lids]
    split_ifs <;> simp
  · refine ⟨some 1, _, _, _, none, none, none, rfl, rfl, rfl, fun f hf => ?_, fun _ _ _ _ _ => by simp⟩
    interval_cases f
    · exact ⟨_, _, _, rfl, rfl, rfl, fun _ _ _ _ _ => by ring⟩
    · exact ⟨_, _, _, rfl, rfl, rfl, fun _ _ _ _ _ => by ring⟩

/-- Runs of any length between two lids, for any velocities of the lids and any factors, with both Poisson systems: the hypotheses of
`C106_superposition_partial` hold. -/
example (a b x y z w : ℚ) (P : NSParams ℚ)
    (hP : P = boxParams (1 / 4) 1 eulerImplicit crankNicolson ∨ P = pinnedParams 1 eulerImplicit crankNicolson) :
    ∃ o₁ o₂ o₃ i₁ i₂ i₃ d₁ d₂ d₃ x₁ x₂ x₃,
    Started true centredLayout centredGeom centredAxes (lids x y) (boundaries true centredLayout centredGeom (lids x y)) P (some (lidsFlow x y)) o₁
      (fun _ => none) i₁ d₁ ∧
    Started true centredLayout centredGeom centredAxes (lids z w) (boundaries true centredLayout centredGeom (lids z w)) P (some (lidsFlow z w)) o₂
      (fun _ => none) i₂ d₂ ∧
    Started true centredLayout centredGeom centredAxes (lids (a * x + b * z) (a * y + b * w))
      (boundaries true centredLayout centredGeom (lids (a * x + b * z) (a * y + b * w))) P (some (lidsFlow (a * x + b * z) (a * y + b * w))) o₃
      (fun _ => none) i₃ d₃ ∧
    MixedTable centredLayout.dim a b (lids x y) (lids z w) (lids (a * x + b * z) (a * y + b * w)) ∧
    MixedFlow centredLayout.dim a b (some (lidsFlow x y)) (some (lidsFlow z w)) (some (lidsFlow (a * x + b * z) (a * y + b * w))) ∧
    P.nstart = 0 ∧ P.conv.nExplicit = 0 ∧ (∀ d, centredLayout.periodic 0 d = false) ∧ 0 < P.dt ∧ 0 ≤ P.nu ∧
    (∀ f loc, (lids x y f loc).1 ≠ .NEUMANN) ∧ GoodOrder centredLayout P o₁.A ∧ x₁ 0 = i₁ ∧ x₂ 0 = i₂ ∧ x₃ 0 = i₃ ∧
    (∀ n, Trajectory centredLayout centredGeom P o₁ (exactSolve centredLayout.UN) (exactSolve centredLayout.pN) x₁ n) ∧
    (∀ n, Trajectory centredLayout centredGeom P o₂ (exactSolve centredLayout.UN) (exactSolve centredLayout.pN) x₂ n) ∧
    ∀ n, Trajectory centredLayout centredGeom P o₃ (exactSolve centredLayout.UN) (exactSolve centredLayout.pN) x₃ n := by
  have start : ∀ x y, ∃ o i d X, Started true centredLayout centredGeom centredAxes (lids x y) (boundaries true centredLayout centredGeom (lids x y)) P
      (some (lidsFlow x y)) o (fun _ => none) i d ∧ X 0 = i ∧
      ∀ n, Trajectory centredLayout centredGeom P o (exactSolve centredLayout.UN) (exactSolve centredLayout.pN) X n := by
    intro x y
    obtain ⟨g1, g2⟩ := closed_given (lids_constructed x y) fun loc _ _ => by
      unfold Closed lids
      rw [if_neg (by omega), if_neg (by omega)]
    rcases hP with rfl | rfl
    · obtain ⟨o, i, d, S⟩ := C60_start (P := boxParams (1 / 4) 1 eulerImplicit crankNicolson) (lids_constructed x y) 1
        [fun p q _ _ _ => x * q + y * p, fun p q _ _ _ => x * p - y * q] none (le_refl 2) (by simp)
        ⟨false, "out", some (boxNode (1 / 4) "EULER_IMPLICIT" "CRANK_NICOLSON"), rfl⟩ (le_refl 1) rfl (fun _ => none)
      obtain ⟨X, X0, hX, -⟩ := C62_runs_partial S (vSolve := exactSolve centredLayout.UN) (pSolve := exactSolve centredLayout.pN)
        (fun _ _ _ _ hp => by cases hp) g1 g2 (Or.inl rfl) rfl (by norm_num [boxParams]) (by norm_num [boxParams]) (exactSolve_finds _ _)
        (exactSolve_finds _ _) (exactSolve_solves _ _)
      exact ⟨o, i, d, X, S, X0, hX⟩
    · obtain ⟨o, i, d, S⟩ := C60_start (P := pinnedParams 1 eulerImplicit crankNicolson) (lids_constructed x y) 1
        [fun p q _ _ _ => x * q + y * p, fun p q _ _ _ => x * p - y * q] none (le_refl 2) (by simp)
        ⟨true, "out", some (pinnedNode "EULER_IMPLICIT" "CRANK_NICOLSON"), rfl⟩ (le_refl 1) rfl (fun _ => none)
      obtain ⟨X, X0, hX⟩ := C43_runs_partial S (vSolve := exactSolve centredLayout.UN) (pSolve := exactSolve centredLayout.pN)
        (fun _ _ _ _ hp => by cases hp) (fun f loc _ _ => by simp [lids]) (Or.inl rfl) rfl (by norm_num [pinnedParams, boxParams])
        (by norm_num [pinnedParams, boxParams]) (exactSolve_finds _ _) (exactSolve_finds _ _)
      exact ⟨o, i, d, X, S, X0, hX⟩
  obtain ⟨o₁, i₁, d₁, x₁, S₁, a1, a2⟩ := start x y
  obtain ⟨o₂, i₂, d₂, x₂, S₂, b1, b2⟩ := start z w
  obtain ⟨o₃, i₃, d₃, x₃, S₃, c1, c2⟩ := start (a * x + b * z) (a * y + b * w)
  obtain ⟨m1, m2⟩ := lids_mixed a b x y z w
  have hp : P.nstart = 0 ∧ P.conv.nExplicit = 0 ∧ 0 < P.dt ∧ 0 ≤ P.nu ∧ P.BN = 1 := by
    rcases hP with rfl | rfl <;> norm_num [pinnedParams, boxParams, eulerImplicit]
  exact ⟨o₁, o₂, o₃, i₁, i₂, i₃, d₁, d₂, d₃, x₁, x₂, x₃, S₁, S₂, S₃, m1, m2, hp.1, hp.2.1, fun _ => rfl, hp.2.2.1, hp.2.2.2.1,
    fun f loc => by simp [lids], Or.inl hp.2.2.2.2, a1, b1, c1, a2, b2, c2⟩

/-- Runs of any length from different initial fields between the same lids: the hypotheses of `C106_stability_partial` hold, and the initial fields
differ. -/
example : ∃ P o₁ o₂ i₁ i₂ d₁ d₂ x₁ x₂ vol,
    Started true centredLayout centredGeom centredAxes (lids 1 2) (boundaries true centredLayout centredGeom (lids 1 2)) P (some (lidsFlow 1 2)) o₁
      (fun _ => none) i₁ d₁ ∧
    Started true centredLayout centredGeom centredAxes (lids 1 2) (boundaries true centredLayout centredGeom (lids 1 2)) P (some (lidsFlow 3 4)) o₂
      (fun _ => none) i₂ d₂ ∧
    P.nstart = 0 ∧ P.conv = eulerImplicit ∧ P.diff = eulerImplicit ∧ (∀ d, centredLayout.periodic 0 d = false) ∧ 0 < P.dt ∧ 0 ≤ P.nu ∧
    AllClosed centredLayout (lids 1 2) ∧ (∀ f loc, (lids 1 2 f loc).1 = .DIRICHLET) ∧ P.BN = 1 ∧ P.pType = .ksp ∧ x₁ 0 = i₁ ∧ x₂ 0 = i₂ ∧
    (∀ n, Trajectory centredLayout centredGeom P o₁ (exactSolve centredLayout.UN) (exactSolve centredLayout.pN) x₁ n) ∧
    (∀ n, Trajectory centredLayout centredGeom P o₂ (exactSolve centredLayout.UN) (exactSolve centredLayout.pN) x₂ n) ∧
    IsVolume true centredLayout centredGeom vol := by
  have cl : AllClosed centredLayout (lids 1 2) := fun loc _ _ => by
    unfold Closed lids
    rw [if_neg (by omega), if_neg (by omega)]
  obtain ⟨g1, g2⟩ := closed_given (lids_constructed 1 2) cl
  have start : ∀ x y, ∃ o i d X, Started true centredLayout centredGeom centredAxes (lids 1 2) (boundaries true centredLayout centredGeom (lids 1 2))
      (boxParams (1 / 4) 1 eulerImplicit eulerImplicit) (some (lidsFlow x y)) o (fun _ => none) i d ∧ X 0 = i ∧
      ∀ n, Trajectory centredLayout centredGeom (boxParams (1 / 4) 1 eulerImplicit eulerImplicit) o (exactSolve centredLayout.UN)
        (exactSolve centredLayout.pN) X n := by
    intro x y
    obtain ⟨o, i, d, S⟩ := C60_start (P := boxParams (1 / 4) 1 eulerImplicit eulerImplicit) (lids_constructed 1 2) 1
      [fun p q _ _ _ => x * q + y * p, fun p q _ _ _ => x * p - y * q] none (le_refl 2) (by simp)
      ⟨false, "out", some (boxNode (1 / 4) "EULER_IMPLICIT" "EULER_IMPLICIT"), rfl⟩ (le_refl 1) rfl (fun _ => none)
    obtain ⟨X, X0, hX, -⟩ := C62_runs_partial S (vSolve := exactSolve centredLayout.UN) (pSolve := exactSolve centredLayout.pN)
      (fun _ _ _ _ hp => by cases hp) g1 g2 (Or.inl rfl) rfl (by norm_num [boxParams]) (by norm_num [boxParams]) (exactSolve_finds _ _)
      (exactSolve_finds _ _) (exactSolve_solves _ _)
    exact ⟨o, i, d, X, S, X0, hX⟩
  obtain ⟨o₁, i₁, d₁, x₁, S₁, a1, a2⟩ := start 1 2
  obtain ⟨o₂, i₂, d₂, x₂, S₂, b1, b2⟩ := start 3 4
  obtain ⟨vol, hvol⟩ := exists_volume (lids_constructed 1 2).setup true
  exact ⟨_, o₁, o₂, i₁, i₂, d₁, d₂, x₁, x₂, vol, S₁, S₂, rfl, rfl, rfl, fun _ => rfl, by norm_num [boxParams], by norm_num [boxParams], cl,
    fun _ _ => rfl, rfl, rfl, a1, b1, a2, b2, hvol⟩

end PetIBM
