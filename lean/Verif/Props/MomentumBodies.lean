/-
The momentum equation in runs with bodies (C59).
-/
import Verif.Spec.Momentum
import Verif.Props.NavierStokes
import Verif.Props.EnergyBodies
import Verif.Props.RigidRun

set_option linter.unusedSectionVars false

namespace PetIBM

open Spec

section

variable {K : Type} [Field K] [LinearOrder K] [IsStrictOrderedRing K] {debug : Bool} {L : Layout} {G : Geom K} {axes : ℕ → Axis K}
  {T : BCTable K} {B : ℕ → Boundary K} {P : NSParams K} {flow : Option (FlowNode K)} {ops : NSOps K} {bodies : BodyPack K}
  {kernel : DeltaKernel K} {window : ℕ} {vSolve pSolve : LinSolve K} {disk disk' : Disk K} {n : ℕ}

/-- A solution of the velocity system with an additional force satisfies the momentum equation. -/
theorem momentum_of (C : Constructed debug L G axes T B) (hc : P.conv.explicitCoeffs.length = P.conv.nExplicit)
    (hd' : P.diff.explicitCoeffs.length = P.diff.nExplicit) (hn : ∀ f d, f < L.dim → d < L.dim → L.periodic 0 d = true → 3 ≤ L.n f d)
    {u₀ : ℤ → K} {x : ℕ → NSState K} {k : ℕ} (R : ∀ m, m ≤ k → Reach L B P ops.pN u₀ (x m))
    (hadv : ∀ m, m < k → ∃ s : LinSolve K × LinSolve K, advance L G P ops s.1 s.2 (x m) = .ok (x (m + 1)))
    (hstart : Known P k (x 0).conv (x 0).diff)
    (hLap : createLaplacian debug L G (fun r => (B r).run [.setGhostICs u₀]) = .ok (ops.L, ops.Lmods))
    (hA : ops.A = Mat.shift (Mat.scale ops.L (-P.diff.implicitCoeff * P.nu)) (1 / P.dt)) :
    ∃ w, convectionMult L G (x k).B (fun _ _ _ => 0) (x k).U (fun _ => 0) = .ok w ∧
      ∀ q F : ℤ → K, (∀ i : ℤ, 0 ≤ i → i < L.UN → Mat.mult L.UN ops.A q i =
          momentumRhs L P ops (x k) (pushTerm (x k).conv fun i => -1 * w i) (pushTerm (x k).diff (diffTerm L P.nu ops (x k))) i + F i) →
        ∀ (V : ℕ → ℕ → Stencil → K) (W : ℕ → Stencil → K), (∀ m, m ≤ k → Filled debug L (x m).B (x m).U (V m)) →
          Extended debug L (fun r => ((x k).B r).updateEqs (x k).U P.dt) q W →
          ∀ u idx, IsUnknown L u → L.getPackedGlobalIndex debug u.comp ⟨u.k, u.j, u.i, 0⟩ = .ok idx →
            (W u.comp ⟨u.k, u.j, u.i, 0⟩ - V k u.comp ⟨u.k, u.j, u.i, 0⟩) / P.dt =
              -Mat.mult ops.pN ops.G (x k).p idx + F idx + convectiveTerms L G P k V u + viscousTerms L G P k V W u := by
  have hL := C.setup.layout
  obtain ⟨z, hz, he⟩ := rhs_levels_of C hc hd' R hadv hstart
  refine ⟨z k, hz k le_rfl, fun q F hq V W hV hW u idx hu hidx => ?_⟩
  have hin := hu.inside
  have hcol := col_inside hL (Or.inl hu.1) debug hin
  have hidx' : L.getPackedGlobalIndex debug u.comp u.st = .ok idx := hidx
  rw [hcol.1] at hidx'
  cases hidx'
  have hr := col_range hL hu
  obtain ⟨A', m', eL, hlap⟩ := C22_laplacian_of_extended_field_partial C hn [.setGhostICs u₀] ⟨u₀, [], rfl⟩
  rw [hLap] at eL
  have eL := Except.ok.inj eL
  obtain ⟨rfl, rfl⟩ := Prod.mk.inj eL
  obtain ⟨h, hB, -⟩ := (R k le_rfl).hist
  have lap : ∀ m, m ≤ k → Mat.mult L.UN ops.L (x m).U (col L u.comp u.st) + correctionMult L (x m).B ops.Lmods (col L u.comp u.st) =
      laplace L.dim G u.comp u.st (V m u.comp) := by
    intro m hm
    obtain ⟨hh, hB', hj⟩ := (R m hm).hist
    have hVm := hV m hm
    rw [hB'] at hVm ⊢
    exact hlap hh _ _ (filled_extended' C hj hVm) _ _ _ hu.1 hin hcol.1
  have conv : ∀ m, m ≤ k → z m (col L u.comp u.st) = convective L.dim G (seenBy L u.rank (V m)) u.comp u.st := by
    intro m hm
    obtain ⟨hh, hB', hj⟩ := (R m hm).hist
    have hVm := hV m hm
    have hzm := hz m hm
    rw [hB'] at hVm hzm
    obtain ⟨z', hz', hval⟩ := C58_convection_of_seen (debug := debug) C ([.setGhostICs u₀] ++ hh) (x m).U (fun _ => 0)
    rw [hzm] at hz'
    cases hz'
    exact hval (V m) hVm u _ hu hidx
  have lapW : Mat.mult L.UN ops.L q (col L u.comp u.st) + correctionMult L (fun r => ((x k).B r).updateEqs (x k).U P.dt) ops.Lmods (col L u.comp u.st) =
      laplace L.dim G u.comp u.st (W u.comp) := by
    have hBe : (fun r => (B r).run ([.setGhostICs u₀] ++ (h ++ [.updateEqs (x k).U P.dt]))) = fun r => ((x k).B r).updateEqs (x k).U P.dt := by
      funext r
      simp only [hB, Boundary.run, List.foldl_append]
      rfl
    rw [← hBe] at hW ⊢
    exact hlap _ _ _ hW _ _ _ hu.1 hin hcol.1
  have eW : W u.comp u.st = q (col L u.comp u.st) := (hW.stored u.comp hu.1).inside _ _ hin hcol.1
  have eV : V k u.comp u.st = (x k).U (col L u.comp u.st) := (hV k le_rfl).inside _ _ _ hu.1 hin hcol.1
  have hAq : Mat.mult L.UN ops.A q (col L u.comp u.st) =
      q (col L u.comp u.st) / P.dt - P.diff.implicitCoeff * P.nu * Mat.mult L.UN ops.L q (col L u.comp u.st) := by
    rw [hA]
    unfold Mat.mult Mat.shift Mat.scale
    have : ∀ c ∈ Finset.range L.UN, (if col L u.comp u.st = (c : ℤ) then -P.diff.implicitCoeff * P.nu * ops.L (col L u.comp u.st) c + 1 / P.dt
        else -P.diff.implicitCoeff * P.nu * ops.L (col L u.comp u.st) c) * q c =
        (if c = (col L u.comp u.st).toNat then q c / P.dt else 0) - P.diff.implicitCoeff * P.nu * (ops.L (col L u.comp u.st) c * q c) := by
      intro c _
      by_cases hc : col L u.comp u.st = (c : ℤ)
      · rw [if_pos hc, if_pos (by omega)]; ring
      · rw [if_neg hc, if_neg (by omega)]; ring
    rw [Finset.sum_congr rfl this, Finset.sum_sub_distrib, ← Finset.mul_sum, Finset.sum_ite_eq', if_pos (Finset.mem_range.2 (by omega))]
    rw [show (((col L u.comp u.st).toNat : ℕ) : ℤ) = col L u.comp u.st by omega]
  have hsys := hq _ hr.1 hr.2
  rw [he _ hr.1 hr.2] at hsys
  have c1 : ∑ m ∈ Finset.range (k + 1), levelWeight P.conv k m * z m (col L u.comp u.st) =
      ∑ m ∈ Finset.range (k + 1), levelWeight P.conv k m * convective L.dim G (seenBy L u.rank (V m)) u.comp u.st :=
    Finset.sum_congr rfl fun m hm => by rw [conv m (by have := Finset.mem_range.1 hm; omega)]
  have c2 : ∑ m ∈ Finset.range (k + 1), levelWeight P.diff k m * (P.nu * (Mat.mult L.UN ops.L (x m).U (col L u.comp u.st) + correctionMult L (x m).B ops.Lmods (col L u.comp u.st))) =
      P.nu * ∑ m ∈ Finset.range (k + 1), levelWeight P.diff k m * laplace L.dim G u.comp u.st (V m u.comp) := by
    rw [Finset.mul_sum]
    exact Finset.sum_congr rfl fun m hm => by rw [lap m (by have := Finset.mem_range.1 hm; omega)]; ring
  rw [hAq, c1, c2] at hsys
  unfold convectiveTerms viscousTerms
  show (W u.comp u.st - V k u.comp u.st) / P.dt = -Mat.mult ops.pN ops.G (x k).p (col L u.comp u.st) + F (col L u.comp u.st)
    + -∑ m ∈ Finset.range (k + 1), levelWeight P.conv k m * convective L.dim G (seenBy L u.rank (V m)) u.comp u.st
    + P.nu * (∑ m ∈ Finset.range (k + 1), levelWeight P.diff k m * laplace L.dim G u.comp u.st (V m u.comp)
      + P.diff.implicitCoeff * laplace L.dim G u.comp u.st (W u.comp))
  rw [eW, eV, ← lapW]
  linear_combination hsys

/-- The product with the pressure gradient is the slope of the pressure. -/
theorem gradient_slope (C : Constructed debug L G axes T B) (hn : ∀ f d, f < L.dim → d < L.dim → L.periodic 0 d = true → 3 ≤ L.n f d) {Gr : Mat K}
    (hG : createGradient debug L G false = .ok Gr) {q : ℤ → K} {p : Stencil → K} (hp : Stored debug L 3 q p) {u : Unknown} (hu : IsUnknown L u)
    {idx : ℤ} (hidx : L.getPackedGlobalIndex debug u.comp ⟨u.k, u.j, u.i, 0⟩ = .ok idx) :
    Mat.mult L.pN Gr q idx = pressureSlope L G axes p u.comp ⟨u.k, u.j, u.i, 0⟩ := by
  obtain ⟨A', eG, hgrad⟩ := C19_gradient debug C.setup fun f hf hp =>
    (by have := hn f f hf hf hp; have := C.setup.n_le f f hf (by have := C.setup.dim_le; omega); omega)
  rw [hG] at eG
  cases eG
  exact (hgrad q p hp u.comp u.st _ hu.1 hu.inside hidx).2

/-- The momentum equation of a step of the solvers that compute forces, pressure and velocity one after the other. -/
theorem decoupled_momentum (C : Constructed debug L G axes T B) (hc : P.conv.explicitCoeffs.length = P.conv.nExplicit)
    (hd : P.diff.explicitCoeffs.length = P.diff.nExplicit) (hn : ∀ f d, f < L.dim → d < L.dim → L.periodic 0 d = true → 3 ≤ L.n f d)
    {u₀ : ℤ → K} (hops : createOperators debug L G P (fun r => (B r).run [.setGhostICs u₀]) = .ok ops)
    {x : ℕ → NSState K} {k : ℕ} (R : ∀ m, m ≤ k → Reach L B P ops.pN u₀ (x m))
    (hadv : ∀ m, m < k → ∃ s : LinSolve K × LinSolve K, advance L G P ops s.1 s.2 (x m) = .ok (x (m + 1)))
    (hstart : Known P k (x 0).conv (x 0).diff)
    {ib : IBOps K} {UB : Option (ℤ → K)} {fSolve : LinSolve K} {s s' : IBState K} (hs : s.ns = x k)
    (h : decoupledAdvance L G P ops ib UB vSolve fSolve pSolve s = .ok s') (exact : Solves L.UN vSolve ops.A) :
    ∃ q φ, (∀ i : ℤ, 0 ≤ i → i < L.UN →
        s'.ns.U i = q i + Mat.mult ib.nF ib.BNH (fun j => s'.f j - s.f j) i - Mat.mult L.pN ops.BNG φ i) ∧
      (∀ i : ℤ, 0 ≤ i → i < L.pN → s'.ns.p i = s.ns.p i + φ i) ∧
      s'.ns.B = (fun r => (((x k).B r).updateEqs (x k).U P.dt).updateGhostValues s'.ns.U) ∧
      ∀ (V : ℕ → ℕ → Stencil → K) (W : ℕ → Stencil → K) (p : Stencil → K), (∀ m, m ≤ k → Filled debug L (x m).B (x m).U (V m)) →
        Extended debug L (fun r => ((x k).B r).updateEqs (x k).U P.dt) q W → Stored debug L 3 (x k).p p →
        Momentum debug L G axes P k V W p (Mat.mult ib.nF ib.H s.f) := by
  have Rk : Reach L B P ops.pN u₀ s.ns := by rw [hs]; exact R k le_rfl
  obtain ⟨w, Us, df, e1, e2, e3, ha, e5, e6⟩ := decoupled_ok C hc hd Rk h
  obtain ⟨w', U, dP, f1, f2, f3, f4, f5, _, _, _, f9, _⟩ := advance_ok C hc hd Rk ha
  have f2 := Except.ok.inj f2
  have hpN := createOperators_pN hops
  obtain ⟨D, Dm, Gr, La, Lm, BN, o1, o2, o3, o4, eops⟩ := createOperators_ok hops
  obtain ⟨w'', hw, key⟩ := momentum_of C hc hd hn R hadv hstart (by rw [o3, eops]) (by rw [eops])
  rw [← hs, e1] at hw
  cases hw
  have hsol := exact _ _ _ e2
  refine ⟨Us, dP, ?_, ?_, by rw [f9, hs], ?_⟩
  · intro i i0 i1
    have hi : 0 ≤ i ∧ i < (L.UN : ℤ) := ⟨i0, i1⟩
    rw [f4]
    unfold projected
    rw [vec, vec, if_pos hi, if_pos hi, mult_vec, ← f2, hpN]
    simp only [vec, if_pos hi]
    have : Mat.mult ib.nF ib.BNH (vec ib.nF df) i = Mat.mult ib.nF ib.BNH (fun j => s'.f j - s.f j) i := by
      refine mult_congr (fun j j0 j1 => ?_) _
      rw [e5]
      simp only [vec, if_pos (show 0 ≤ j ∧ j < (ib.nF : ℤ) from ⟨j0, j1⟩)]
      ring
    rw [this]
    ring
  · intro i i0 i1
    rw [f5]
    simp only [vec, hpN, if_pos (show 0 ≤ i ∧ i < (L.pN : ℤ) from ⟨i0, i1⟩), one_mul]
  · intro V W p hV hW hp u idx hu hidx
    have hi := col_inside C.setup.layout (Or.inl hu.1) debug hu.inside
    have hr := col_range C.setup.layout hu
    have eidx : idx = col L u.comp u.st := by
      have hidx' : L.getPackedGlobalIndex debug u.comp u.st = .ok idx := hidx
      rw [hi.1] at hidx'
      exact (Except.ok.inj hidx').symm
    rw [key Us (vec L.UN (Mat.mult ib.nF ib.H s.f)) (fun i i0 i1 => by rw [← hs]; exact hsol i i0 i1) V W hV hW u idx hu hidx]
    rw [show vec L.UN (Mat.mult ib.nF ib.H s.f) idx = Mat.mult ib.nF ib.H s.f idx by
      rw [vec, if_pos (by rw [eidx]; exact hr)]]
    rw [show ops.G = Gr by rw [eops], hpN, gradient_slope C hn o2 hp hu hidx]

/-! ### C59 -/

/-- C59. The momentum equation in runs of the decoupled solver: the intermediate velocity `q` satisfies it with the spread forces of the level
before, and the new velocity is `q` corrected by the increments of forces and pressure. Missing: periodic directions with fewer than three
cells (`C59_false_two_periodic_cells`), the first step of a restart with the method of Adams and Bashforth. -/
theorem C59_decoupled_partial {ib : IBOps K} {s : IBState K} (S : IBStarted debug L G axes T B P flow bodies kernel window ops ib disk s disk')
    {fSolve : LinSolve K} {x : ℕ → IBState K} (h0 : x 0 = s) (hx : IBTrajectory L G P ops ib vSolve fSolve pSolve x n)
    (hn : ∀ f d, f < L.dim → d < L.dim → L.periodic 0 d = true → 3 ≤ L.n f d) (exact : Solves L.UN vSolve ops.A) :
    ∃ Δ, IsDelta debug L axes B bodies kernel window Δ ∧ ∀ k, k < n → Remembers P k → ∃ q φ,
      (∀ i : ℤ, 0 ≤ i → i < L.UN →
        (x (k + 1)).ns.U i = q i + Mat.mult ib.nF ib.BNH (fun j => (x (k + 1)).f j - (x k).f j) i - Mat.mult L.pN ops.BNG φ i) ∧
      (∀ i : ℤ, 0 ≤ i → i < L.pN → (x (k + 1)).ns.p i = (x k).ns.p i + φ i) ∧
      ∀ (V : ℕ → ℕ → Stencil → K) (W : ℕ → Stencil → K) (p : Stencil → K), (∀ m, m ≤ k → Filled debug L (x m).ns.B (x m).ns.U (V m)) →
        Extended debug L (fun r => ((x k).ns.B r).updateEqs (x k).ns.U P.dt) q W → Stored debug L 3 (x k).ns.p p →
        Momentum debug L G axes P k V W p (spread (bodies.nPts * bodies.dim) Δ (x k).f) := by
  have C := S.constructed
  have F := S.started
  obtain ⟨Δ, BN', h1, hBN', h2, h3, h4, h4', h5⟩ := S.operators
  obtain ⟨u₀, hops, R⟩ := S.reach_at h0 hx
  refine ⟨Δ, h1, fun k hk hs => ?_⟩
  have hadv : ∀ m, m < k → ∃ s : LinSolve K × LinSolve K, advance L G P ops s.1 s.2 (x m).ns = .ok (x (m + 1)).ns := by
    intro m hm
    obtain ⟨w, Us, df, _, _, _, ha, _⟩ := decoupled_ok C F.schemes.1.1 F.schemes.2.1 (R m (by omega)) (hx m (by omega))
    exact ⟨(_, pSolve), ha⟩
  obtain ⟨q, φ, e1, e2, -, e3⟩ := decoupled_momentum (x := fun m => (x m).ns) (k := k) C F.schemes.1.1 F.schemes.2.1 hn hops
    (fun m hm => R m (by omega)) hadv (by simp only [h0]; exact known_of (C40_first_steps F) hs) rfl (hx k hk) exact
  refine ⟨q, φ, e1, e2, ?_⟩
  rw [h2, h3] at e3
  exact e3

/-- C59. The momentum equation in runs with prescribed motion: the forces of the level before are spread from the new positions of the points.
Missing: periodic directions with fewer than three cells (`C59_false_two_periodic_cells`), the first step of a restart with the method of Adams and Bashforth. -/
theorem C59_moving_partial {M : Motion K} {s : RigidState K} (S : RigidStarted debug L G axes T B P flow bodies M kernel window ops disk s disk')
    {fSolve : LinSolve K} {x : ℕ → RigidState K} (h0 : x 0 = s)
    (hx : RigidTrajectory debug L G axes P ops M kernel window vSolve fSolve pSolve x n)
    (hn : ∀ f d, f < L.dim → d < L.dim → L.periodic 0 d = true → 3 ≤ L.n f d) (exact : Solves L.UN vSolve ops.A) (k : ℕ) (hk : k < n)
    (hs : Remembers P k) :
    ∃ Δ q φ, IsDelta debug L axes B (x (k + 1)).bodies kernel window Δ ∧
      (∀ i : ℤ, 0 ≤ i → i < L.UN → (x (k + 1)).ns.U i =
        q i + Mat.mult (x (k + 1)).ib.nF (x (k + 1)).ib.BNH (fun j => (x (k + 1)).f j - (x k).f j) i - Mat.mult L.pN ops.BNG φ i) ∧
      (∀ i : ℤ, 0 ≤ i → i < L.pN → (x (k + 1)).ns.p i = (x k).ns.p i + φ i) ∧
      ∀ (V : ℕ → ℕ → Stencil → K) (W : ℕ → Stencil → K) (p : Stencil → K), (∀ m, m ≤ k → Filled debug L (x m).ns.B (x m).ns.U (V m)) →
        Extended debug L (fun r => ((x k).ns.B r).updateEqs (x k).ns.U P.dt) q W → Stored debug L 3 (x k).ns.p p →
        Momentum debug L G axes P k V W p (spread ((x (k + 1)).bodies.nPts * (x (k + 1)).bodies.dim) Δ (x k).f) := by
  have C := S.started.constructed
  have F := S.started.started
  obtain ⟨u₀, hops, R⟩ := S.reach_at h0 hx
  have hadv : ∀ m, m < k → ∃ s : LinSolve K × LinSolve K, advance L G P ops s.1 s.2 (x m).ns = .ok (x (m + 1)).ns := by
    intro m hm
    obtain ⟨_, _, _, h⟩ := rigid_ok (hx m (by omega))
    obtain ⟨w, Us, df, _, _, _, ha, _⟩ := decoupled_ok C F.schemes.1.1 F.schemes.2.1 (R m (by omega)).1 h
    exact ⟨(_, pSolve), ha⟩
  obtain ⟨_, _, ⟨idx, hi, hE⟩, h⟩ := rigid_ok (hx k hk)
  obtain ⟨hh, hB, -⟩ := (R k hk.le).1.hist
  rw [hB] at hE
  obtain ⟨Δ, BN', h1, hBN', h2, h3, h4, h4', h5⟩ := createExtra_ok C hi hE
  obtain ⟨q, φ, e1, e2, -, e3⟩ := decoupled_momentum (x := fun m => (x m).ns) (k := k) C F.schemes.1.1 F.schemes.2.1 hn hops
    (fun m hm => (R m (by omega)).1) hadv (by simp only [h0]; exact known_of (C40_first_steps F) hs) rfl h exact
  refine ⟨Δ, q, φ, h1, e1, e2, ?_⟩
  rw [h2, h3] at e3
  exact e3

/-- C59. The momentum equation in runs of the coupled solver: the pressure and the forces are the parts of the composite vector.
Missing: periodic directions with fewer than three cells (`C59_false_two_periodic_cells`), the first step of a restart with the method of Adams and Bashforth. -/
theorem C59_coupled_partial {s : NSState K} (S : CoupledStarted debug L G axes T B P flow bodies kernel window ops disk s disk')
    {x : ℕ → NSState K} (h0 : x 0 = s) (hx : CoupledTrajectory L G P (nestCounts L bodies) ops vSolve pSolve x n)
    (hn : ∀ f d, f < L.dim → d < L.dim → L.periodic 0 d = true → 3 ≤ L.n f d) (exact : Solves L.UN vSolve ops.A) :
    ∃ Δ, IsDelta debug L axes B bodies kernel window Δ ∧ ∀ k, k < n → Remembers P k → ∃ q φ,
      (∀ i : ℤ, 0 ≤ i → i < L.UN → (x (k + 1)).U i = q i - Mat.mult ops.pN ops.BNG φ i) ∧
      (∀ i : ℤ, 0 ≤ i → i < ops.pN → (x (k + 1)).p i = (x k).p i + φ i) ∧
      (x (k + 1)).B = (fun r => (((x k).B r).updateEqs (x k).U P.dt).updateGhostValues (x (k + 1)).U) ∧
      ∀ (V : ℕ → ℕ → Stencil → K) (W : ℕ → Stencil → K) (p : Stencil → K), (∀ m, m ≤ k → Filled debug L (x m).B (x m).U (V m)) →
        Extended debug L (fun r => ((x k).B r).updateEqs (x k).U P.dt) q W →
        Stored debug L 3 (subPressure (nestCounts L bodies) (x k).p) p →
        Momentum debug L G axes P k V W p (spread (bodies.nPts * bodies.dim) Δ (subForces (nestCounts L bodies) (x k).p)) := by
  have C := S.constructed
  obtain ⟨Gr, Δ, hG, hΔ, hr⟩ := coupled_gradient S
  obtain ⟨u₀, E, H, hops, R⟩ := S.reach_at h0 hx
  refine ⟨Δ, hΔ, fun k hk hs => ?_⟩
  have hadv : ∀ m, m < n → ∃ s : LinSolve K × LinSolve K, advance L G P ops s.1 s.2 (x m) = .ok (x (m + 1)) := by
    intro m hm
    obtain ⟨w, U, dP, _, _, _, ha⟩ := coupled_ok C S.schemes.1.1 S.schemes.2.1 (R m hm.le) (hx m hm)
    exact ⟨(vSolve, fun _ _ _ => .ok dP), ha⟩
  obtain ⟨w, U, dP, h1, h2, h3, ha⟩ := coupled_ok C S.schemes.1.1 S.schemes.2.1 (R k hk.le) (hx k hk)
  obtain ⟨w', U', dP', e1, e2, e3, h4, h5, _, _, _, h9, _⟩ := advance_ok C S.schemes.1.1 S.schemes.2.1 (R k hk.le) ha
  have e3 := Except.ok.inj e3
  subst e3
  rw [h1] at e1
  cases e1
  rw [h2] at e2
  have e2 := Except.ok.inj e2
  subst e2
  obtain ⟨D, Dm, Gr', La, Lm, BN, idx, o1, o2, o3, o4, o5, o6, eops⟩ := ibpmCreate_ok hops
  obtain ⟨w', h1', key⟩ := momentum_of (k := k) C S.schemes.1.1 S.schemes.2.1 hn (fun m hm => R m (by omega))
    (fun m hm => hadv m (by omega)) (by rw [h0]; exact known_of (coupled_first S) hs) (by rw [o3, eops]) (by rw [eops])
  rw [h1] at h1'
  cases h1'
  have hsol := exact _ _ _ h2
  refine ⟨U, dP, ?_, ?_, h9, ?_⟩
  · intro i i0 i1
    rw [h4]
    unfold projected
    have hi : 0 ≤ i ∧ i < (L.UN : ℤ) := ⟨i0, i1⟩
    rw [vec, vec, if_pos hi, if_pos hi, mult_vec]
    ring
  · intro i i0 i1
    rw [h5]
    simp only [vec, if_pos (show 0 ≤ i ∧ i < (ops.pN : ℤ) from ⟨i0, i1⟩), one_mul]
  · intro V W p hV hW hp u idx hu hidx
    rw [key U (fun _ => 0) (fun i i0 i1 => by rw [add_zero]; exact hsol i i0 i1) V W hV hW u idx hu hidx, hr]
    unfold reaction
    rw [gradient_slope C hn hG hp hu hidx]
    ring

end

end PetIBM
