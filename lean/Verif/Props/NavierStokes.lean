/-
Properties C40, C41, C42, C45: steps of the Navier-Stokes solver.
-/
import Verif.Lemmas.Momentum
import Verif.Props.Start

set_option linter.unusedSectionVars false

namespace PetIBM

open Spec

variable {K : Type} [Field K] [LinearOrder K] [IsStrictOrderedRing K]
variable {debug : Bool} {L : Layout} {G : Geom K} {axes : ℕ → Axis K} {T : BCTable K} {B : ℕ → Boundary K}
variable {P : NSParams K} {flow : Option (FlowNode K)} {ops : NSOps K} {disk disk' : Disk K} {s : NSState K}
variable {vSolve pSolve : LinSolve K} {x : ℕ → NSState K} {n : ℕ}

/-! ### C40 -/

/-- C40. After `n` steps the `i`-th stored convective term is minus the convection operator applied to velocity and ghost points
of `i + 1` steps ago; what lies before the start is the list the solver started with. -/
theorem C40_convection_levels (S : Started debug L G axes T B P flow ops disk s disk') (h0 : x 0 = s)
    (hx : Trajectory L G P ops vSolve pSolve x n) :
    (x n).conv.length = P.conv.nExplicit ∧ ∀ i, i < P.conv.nExplicit →
      (i < n → ∃ z, convectionMult L G (x (n - 1 - i)).B (fun _ _ _ => 0) (x (n - 1 - i)).U (fun _ => 0) = .ok z ∧
        (x n).conv[i]? = some fun j => -z j) ∧
      (n ≤ i → (x n).conv[i]? = s.conv[i - n]?) := by
  obtain ⟨u, _, R⟩ := S.reach_at h0 hx
  have hw : ∀ k, ∃ z, k < n → convectionMult L G (x k).B (fun _ _ _ => 0) (x k).U (fun _ => 0) = .ok z ∧
      (x (k + 1)).conv = pushTerm (x k).conv fun j => -z j := by
    intro k
    by_cases hk : k < n
    · obtain ⟨w, _, _, h1, _, _, _, _, _, h2, _⟩ := advance_ok S.constructed S.schemes.1.1 S.schemes.2.1 (R k hk.le) (hx k hk)
      refine ⟨w, fun _ => ⟨h1, ?_⟩⟩
      rw [h2]
      congr 1
      funext j
      ring
    · exact ⟨fun _ => 0, fun h => absurd h hk⟩
  choose z hz using hw
  obtain ⟨h1, h2⟩ := terms_history (fun k => (x k).conv) (fun k j => -z k j) n fun k hk => (hz k hk).2
  refine ⟨(R n le_rfl).nconv, ?_⟩
  intro i hi
  obtain ⟨a, b⟩ := h2 i (by simp only [(R 0 (by omega)).nconv]; exact hi)
  exact ⟨fun hin => ⟨z (n - 1 - i), (hz _ (by omega)).1, a hin⟩, fun hin => by rw [← h0]; exact b hin⟩

/-- C40. The same for the stored diffusive terms: viscosity times the Laplacian with its boundary correction. -/
theorem C40_diffusion_levels (S : Started debug L G axes T B P flow ops disk s disk') (h0 : x 0 = s)
    (hx : Trajectory L G P ops vSolve pSolve x n) :
    (x n).diff.length = P.diff.nExplicit ∧ ∀ i, i < P.diff.nExplicit →
      (i < n → ∃ z, (x n).diff[i]? = some z ∧ ∀ j : ℤ, 0 ≤ j → j < L.UN →
        z j = P.nu * (Mat.mult L.UN ops.L (x (n - 1 - i)).U j + correctionMult L (x (n - 1 - i)).B ops.Lmods j)) ∧
      (n ≤ i → (x n).diff[i]? = s.diff[i - n]?) := by
  obtain ⟨u, _, R⟩ := S.reach_at h0 hx
  have hw : ∀ k, k < n → (x (k + 1)).diff = pushTerm (x k).diff (diffTerm L P.nu ops (x k)) := by
    intro k hk
    obtain ⟨w, _, _, h1, _, _, _, _, _, _, h2, _⟩ := advance_ok S.constructed S.schemes.1.1 S.schemes.2.1 (R k hk.le) (hx k hk)
    exact h2
  obtain ⟨h1, h2⟩ := terms_history (fun k => (x k).diff) (fun k => diffTerm L P.nu ops (x k)) n hw
  refine ⟨(R n le_rfl).ndiff, ?_⟩
  intro i hi
  obtain ⟨a, b⟩ := h2 i (by simp only [(R 0 (by omega)).ndiff]; exact hi)
  exact ⟨fun hin => ⟨_, a hin, fun j j0 j1 => if_pos ⟨j0, j1⟩⟩, fun hin => by rw [← h0]; exact b hin⟩

/-- C40. At the start of a run from step 0 all stored terms are zero. -/
theorem C40_first_steps (S : Started debug L G axes T B P flow ops disk s disk') (h : P.nstart = 0) :
    s.conv = List.replicate P.conv.nExplicit (fun _ => 0) ∧ s.diff = List.replicate P.diff.nExplicit fun _ => 0 := by
  obtain ⟨s₀, h1, h2⟩ := S.init
  obtain ⟨U, p, _, _, rfl⟩ := solverInit_ok h1
  unfold ioInitialData at h2
  rw [if_pos h] at h2
  obtain ⟨d, _, h2⟩ := bind_ok h2
  cases h2
  exact ⟨rfl, rfl⟩

/-- A run with an Adams-Bashforth and a Crank-Nicolson scheme, two processes, any disk contents. -/
example (disk : Disk ℚ) : ∃ ops s disk' x, Started true (exampleWalls 2 1) exampleWallsGeom exampleAxes unitWalls
    (boundaries true (exampleWalls 2 1) exampleWallsGeom unitWalls) (exampleParams .ksp) (some exampleFlow) ops disk s disk' ∧
    x 0 = s ∧ (∀ n, Trajectory (exampleWalls 2 1) exampleWallsGeom (exampleParams .ksp) ops (fun _ _ r => .ok r) (fun _ g _ => .ok g) x n) ∧
    (exampleParams .ksp).nstart = 0 ∧ (exampleParams .ksp).conv.nExplicit = 2 := by
  obtain ⟨ops, s, disk', x, S, h0, hx⟩ := exampleRun .ksp disk (fun _ _ r => .ok r) (fun _ g _ => .ok g) (fun _ _ r => ⟨r, rfl⟩) fun _ g _ => ⟨g, rfl⟩
  exact ⟨ops, s, disk', x, S, h0, hx, rfl, rfl⟩

/-! ### C41 -/

/-- C41. The right-hand side of the velocity system in the step from level `k` contains the convective terms
`z m` of the levels `m ≤ k` with the weights `levelWeight`, next to the pressure gradient, the old velocity and the
diffusive terms. -/
theorem C41_right_hand_side (S : Started debug L G axes T B P flow ops disk s disk') (h0 : x 0 = s)
    (hx : Trajectory L G P ops vSolve pSolve x n) (k : ℕ) (hk : k ≤ n) (hs : Remembers P k) :
    ∃ (z : ℕ → ℤ → K) (rhs : ℤ → K) (s' : NSState K),
      (∀ m, m ≤ k → convectionMult L G (x m).B (fun _ _ _ => 0) (x m).U (fun _ => 0) = .ok (z m)) ∧
      assembleRHSVelocity L G P ops (x k) = .ok (rhs, s') ∧ ∀ j : ℤ, 0 ≤ j → j < L.UN →
        rhs j = (x k).U j / P.dt - Mat.mult ops.pN ops.G (x k).p j
          - ∑ m ∈ Finset.range (k + 1), levelWeight P.conv k m * z m j
          + ∑ m ∈ Finset.range (k + 1), levelWeight P.diff k m * (P.nu * (Mat.mult L.UN ops.L (x m).U j + correctionMult L (x m).B ops.Lmods j))
          + P.diff.implicitCoeff * P.nu * correctionMult L (fun r => ((x k).B r).updateEqs (x k).U P.dt) ops.Lmods j := by
  obtain ⟨u, _, R⟩ := S.reach_at h0 hx
  obtain ⟨z, hz, he⟩ := rhs_levels S (known_of (C40_first_steps S) hs) h0 hx hk
  obtain ⟨w, loc, h1, h2⟩ := assembleRHS_eq S.constructed S.schemes.1.1 S.schemes.2.1 ops (R k hk)
  rw [hz k le_rfl] at h1
  cases h1
  exact ⟨z, _, _, hz, h2, he⟩

/-- C41. These weights sum to one in every step for the explicit Euler scheme, and from the second step on for the
Adams-Bashforth scheme. Missing: the other cases, in which it is false (below). -/
theorem C41_weights_partial (name : String) (node : String → Option String) (C : TimeScheme K)
    (h : createTimeIntegration name (some node) = .ok C) (k : ℕ)
    (hk : node name = some "EULER_EXPLICIT" ∨ node name = some "ADAMS_BASHFORTH_2" ∧ 1 ≤ k) :
    ∑ m ∈ Finset.range (k + 1), levelWeight C k m = 1 := by
  have e : ∑ m ∈ Finset.range (k + 1), levelWeight C k m = ∑ i ∈ Finset.range (k + 1), C.explicitCoeffs.getD i 0 := by
    rw [← Finset.sum_range_reflect]
    refine Finset.sum_congr rfl fun i hi => ?_
    have := Finset.mem_range.1 hi
    unfold levelWeight
    rw [show k - (k + 1 - 1 - i) = i by omega]
  rw [e]
  rcases hk with hk | ⟨hk, h1⟩
  · rw [(C39_schemes name node).1 hk] at h
    cases h
    rw [Finset.sum_range_succ']
    simp
  · rw [(C39_schemes name node).2.2.1 hk] at h
    cases h
    obtain ⟨k, rfl⟩ : ∃ k', k = k' + 1 := ⟨k - 1, by omega⟩
    rw [Finset.sum_range_succ', Finset.sum_range_succ']
    simp
    norm_num

/-- C41 is false in the first step of the Adams-Bashforth scheme: the missing level counts as zero and the weights sum to 3/2. It
is false in every step if `convection` is one of the implicit schemes, whose implicit part is not used: the weights sum
to zero and 1/2. -/
theorem C41_false_first_step (name : String) (node : String → Option String) (C : TimeScheme K)
    (h : createTimeIntegration name (some node) = .ok C) :
    (node name = some "ADAMS_BASHFORTH_2" → ∑ m ∈ Finset.range (0 + 1), levelWeight C 0 m = 3 / 2) ∧
    (node name = some "EULER_IMPLICIT" → ∀ k, ∑ m ∈ Finset.range (k + 1), levelWeight C k m = 0) ∧
    (node name = some "CRANK_NICOLSON" → ∀ k, ∑ m ∈ Finset.range (k + 1), levelWeight C k m = 1 / 2) := by
  refine ⟨fun hk => ?_, fun hk k => ?_, fun hk k => ?_⟩
  · rw [(C39_schemes name node).2.2.1 hk] at h
    cases h
    simp [levelWeight]
  · rw [(C39_schemes name node).2.1 hk] at h
    cases h
    simp [levelWeight]
  · rw [(C39_schemes name node).2.2.2 hk] at h
    cases h
    rw [Finset.sum_range_succ, Finset.sum_eq_zero]
    · simp [levelWeight]
    · intro m hm
      have := Finset.mem_range.1 hm
      unfold levelWeight
      rw [List.getD_eq_getElem?_getD, List.getElem?_eq_none (by simp; omega)]
      rfl

example : ∃ (node : String → Option String) (C : TimeScheme ℚ), createTimeIntegration "convection" (some node) = .ok C ∧
    node "convection" = some "ADAMS_BASHFORTH_2" := ⟨fun _ => some "ADAMS_BASHFORTH_2", _, rfl, rfl⟩

/-! ### C59 -/

/-- C59. A step with a velocity solver that returns solutions satisfies the discretised momentum equation at every velocity
point: the change of velocity to the intermediate velocity over `dt` is minus the pressure difference over its distance,
minus the weighted convective terms of the levels so far, plus viscosity times the weighted second differences of the
levels so far and, with the implicit coefficient, of the intermediate velocity (extended by the new boundary
equations). The convective terms are those of the field as the process of the point has it. Missing: periodic directions with fewer
than three cells, where it is false (`C59_false_two_periodic_cells`), the first step of a restart with the
method of Adams and Bashforth, which uses a term from the file. Example: `Props/Poisson.lean`. -/
theorem C59_momentum_seen_partial (S : Started debug L G axes T B P flow ops disk s disk') (h0 : x 0 = s)
    (hx : Trajectory L G P ops vSolve pSolve x n) (hn : ∀ f d, f < L.dim → d < L.dim → L.periodic 0 d = true → 3 ≤ L.n f d)
    (exact : Solves L.UN vSolve ops.A) (k : ℕ) (hk : k < n) (hs : Remembers P k) :
    ∃ q φ, (∀ i : ℤ, 0 ≤ i → i < L.UN → (x (k + 1)).U i = q i - Mat.mult L.pN ops.BNG φ i) ∧
      (∀ i : ℤ, 0 ≤ i → i < L.pN → (x (k + 1)).p i = (x k).p i + φ i) ∧
      ∀ (V : ℕ → ℕ → Stencil → K) (W : ℕ → Stencil → K) (p : Stencil → K),
        (∀ m, m ≤ k → Filled debug L (x m).B (x m).U (V m)) →
        Extended debug L (fun r => ((x k).B r).updateEqs (x k).U P.dt) q W → Stored debug L 3 (x k).p p →
        ∀ u idx, IsUnknown L u →
          L.getPackedGlobalIndex debug u.comp ⟨u.k, u.j, u.i, 0⟩ = .ok idx →
          (W u.comp ⟨u.k, u.j, u.i, 0⟩ - V k u.comp ⟨u.k, u.j, u.i, 0⟩) / P.dt =
            -(p (shift ⟨u.k, u.j, u.i, 0⟩ u.comp 1) - p ⟨u.k, u.j, u.i, 0⟩) /
              pressureGap L.toMeshInfo G axes u.comp (coordOf ⟨u.k, u.j, u.i, 0⟩ u.comp)
            - ∑ m ∈ Finset.range (k + 1), levelWeight P.conv k m * convective L.dim G (seenBy L u.rank (V m)) u.comp ⟨u.k, u.j, u.i, 0⟩
            + P.nu * (∑ m ∈ Finset.range (k + 1), levelWeight P.diff k m *
                (∑ d ∈ Finset.range L.dim, secondDifference G u.comp d ⟨u.k, u.j, u.i, 0⟩ (V m u.comp))
              + P.diff.implicitCoeff * ∑ d ∈ Finset.range L.dim, secondDifference G u.comp d ⟨u.k, u.j, u.i, 0⟩ (W u.comp)) := by
  have C := S.constructed
  have hL := C.setup.layout
  obtain ⟨u₀, hops, R⟩ := S.reach_at h0 hx
  obtain ⟨z, hz, he⟩ := rhs_levels S (known_of (C40_first_steps S) hs) h0 hx hk.le
  obtain ⟨w, U, dP, h1, h2, h3, h4, h5, h6, h7, h8, h9, _⟩ :=
    advance_ok C S.schemes.1.1 S.schemes.2.1 (R k hk.le) (hx k hk)
  rw [hz k le_rfl] at h1
  cases h1
  have hsol := exact _ _ _ h2
  obtain ⟨D, Dm, Gr, La, Lm, BN, o1, o2, o3, o4, rfl⟩ := createOperators_ok hops
  refine ⟨U, dP, ?_, ?_, ?_⟩
  · intro i i0 i1
    rw [h4]
    unfold projected
    have hi : 0 ≤ i ∧ i < (L.UN : ℤ) := ⟨i0, i1⟩
    rw [vec, vec, if_pos hi, if_pos hi, mult_vec]
    ring
  · intro i i0 i1
    rw [h5]
    simp only [vec, if_pos (show 0 ≤ i ∧ i < (L.pN : ℤ) from ⟨i0, i1⟩), one_mul]
  intro V W p hV hW hp u idx hu hidx
  have hin := hu.inside
  have hin' : Inside L.toMeshInfo u.comp ⟨u.k, u.j, u.i, 0⟩ := hin
  have hcol := col_inside hL (Or.inl hu.1) debug hin
  have hidx' : L.getPackedGlobalIndex debug u.comp u.st = .ok idx := hidx
  rw [hcol.1] at hidx'
  cases hidx'
  have hr := col_range hL hu
  -- the operators
  obtain ⟨A', eG, hgrad⟩ := C19_gradient debug C.setup fun f hf hp =>
    (by have := hn f f hf hf hp; have := C.setup.n_le f f hf (by have := C.setup.dim_le; omega); omega)
  rw [o2] at eG
  cases eG
  obtain ⟨A', m', eL, hlap⟩ := C22_laplacian_of_extended_field_partial C hn [.setGhostICs u₀] ⟨u₀, [], rfl⟩
  rw [o3] at eL
  cases eL
  obtain ⟨h, hB, -⟩ := (R k hk.le).hist
  -- terms of the levels
  have lap : ∀ m, m ≤ k → Mat.mult L.UN La (x m).U (col L u.comp u.st) + correctionMult L (x m).B Lm (col L u.comp u.st) =
      ∑ d ∈ Finset.range L.dim, secondDifference G u.comp d u.st (V m u.comp) := by
    intro m hm
    obtain ⟨hh, hB', hj⟩ := (R m (by omega)).hist
    have hVm := hV m hm
    rw [hB'] at hVm ⊢
    exact hlap hh _ _ (filled_extended' C hj hVm) _ _ _ hu.1 hin hcol.1
  have conv : ∀ m, m ≤ k → z m (col L u.comp u.st) = convective L.dim G (seenBy L u.rank (V m)) u.comp u.st := by
    intro m hm
    obtain ⟨hh, hB', hj⟩ := (R m (by omega)).hist
    have hVm := hV m hm
    have hzm := hz m hm
    rw [hB'] at hVm hzm
    obtain ⟨z', hz', hval⟩ := C58_convection_of_seen (debug := debug) C ([.setGhostICs u₀] ++ hh) (x m).U (fun _ => 0)
    rw [hzm] at hz'
    cases hz'
    exact hval (V m) hVm u _ hu hidx
  have lapW : Mat.mult L.UN La U (col L u.comp u.st) + correctionMult L (fun r => ((x k).B r).updateEqs (x k).U P.dt) Lm (col L u.comp u.st) =
      ∑ d ∈ Finset.range L.dim, secondDifference G u.comp d u.st (W u.comp) := by
    have hBe : (fun r => (B r).run ([.setGhostICs u₀] ++ (h ++ [.updateEqs (x k).U P.dt]))) = fun r => ((x k).B r).updateEqs (x k).U P.dt := by
      funext r
      simp only [hB, Boundary.run, List.foldl_append]
      rfl
    rw [← hBe] at hW ⊢
    exact hlap _ _ _ hW _ _ _ hu.1 hin hcol.1
  have eW : W u.comp u.st = U (col L u.comp u.st) := (hW.stored u.comp hu.1).inside _ _ hin hcol.1
  have eV : V k u.comp u.st = (x k).U (col L u.comp u.st) := (hV k le_rfl).inside _ _ _ hu.1 hin hcol.1
  have eg := (hgrad (x k).p p hp u.comp u.st _ hu.1 hin hcol.1).2
  -- the system
  have hA : Mat.mult L.UN (Mat.shift (Mat.scale La (-P.diff.implicitCoeff * P.nu)) (1 / P.dt)) U (col L u.comp u.st) =
      U (col L u.comp u.st) / P.dt - P.diff.implicitCoeff * P.nu * Mat.mult L.UN La U (col L u.comp u.st) := by
    unfold Mat.mult Mat.shift Mat.scale
    have : ∀ c ∈ Finset.range L.UN, (if col L u.comp u.st = (c : ℤ) then -P.diff.implicitCoeff * P.nu * La (col L u.comp u.st) c + 1 / P.dt
        else -P.diff.implicitCoeff * P.nu * La (col L u.comp u.st) c) * U c =
        (if c = (col L u.comp u.st).toNat then U c / P.dt else 0) - P.diff.implicitCoeff * P.nu * (La (col L u.comp u.st) c * U c) := by
      intro c _
      by_cases hc : col L u.comp u.st = (c : ℤ)
      · rw [if_pos hc, if_pos (by omega)]; ring
      · rw [if_neg hc, if_neg (by omega)]; ring
    rw [Finset.sum_congr rfl this, Finset.sum_sub_distrib, ← Finset.mul_sum, Finset.sum_ite_eq', if_pos (Finset.mem_range.2 (by omega))]
    rw [show (((col L u.comp u.st).toNat : ℕ) : ℤ) = col L u.comp u.st by omega]
  have hsys := hsol _ hr.1 hr.2
  rw [he _ hr.1 hr.2] at hsys
  have c1 : ∑ m ∈ Finset.range (k + 1), levelWeight P.conv k m * z m (col L u.comp u.st) =
      ∑ m ∈ Finset.range (k + 1), levelWeight P.conv k m * convective L.dim G (seenBy L u.rank (V m)) u.comp u.st :=
    Finset.sum_congr rfl fun m hm => by rw [conv m (by have := Finset.mem_range.1 hm; omega)]
  have c2 : ∑ m ∈ Finset.range (k + 1), levelWeight P.diff k m * (P.nu * (Mat.mult L.UN La (x m).U (col L u.comp u.st) + correctionMult L (x m).B Lm (col L u.comp u.st))) =
      P.nu * ∑ m ∈ Finset.range (k + 1), levelWeight P.diff k m * ∑ d ∈ Finset.range L.dim, secondDifference G u.comp d u.st (V m u.comp) := by
    rw [Finset.mul_sum]
    exact Finset.sum_congr rfl fun m hm => by rw [lap m (by have := Finset.mem_range.1 hm; omega)]; ring
  simp only at hsys
  rw [hA, c1, c2, eg] at hsys
  show (W u.comp u.st - V k u.comp u.st) / P.dt = -(p (shift u.st u.comp 1) - p u.st) / pressureGap L.toMeshInfo G axes u.comp (coordOf u.st u.comp)
    - ∑ m ∈ Finset.range (k + 1), levelWeight P.conv k m * convective L.dim G (seenBy L u.rank (V m)) u.comp u.st
    + P.nu * (∑ m ∈ Finset.range (k + 1), levelWeight P.diff k m * (∑ d ∈ Finset.range L.dim, secondDifference G u.comp d u.st (V m u.comp))
      + P.diff.implicitCoeff * ∑ d ∈ Finset.range L.dim, secondDifference G u.comp d u.st (W u.comp))
  rw [eW, eV, ← lapW]
  linear_combination hsys

/-- C59. The same with the convective terms of the field itself, at the points whose walls of other directions are closed or whose
process has the lines it needs. Missing: the other points next to walls (`C58_false_periodic_seam`), periodic directions with fewer
than three cells (`C59_false_two_periodic_cells`), the first step of a restart with the method of Adams and Bashforth. -/
theorem C59_momentum_partial (S : Started debug L G axes T B P flow ops disk s disk') (h0 : x 0 = s)
    (hx : Trajectory L G P ops vSolve pSolve x n) (hn : ∀ f d, f < L.dim → d < L.dim → L.periodic 0 d = true → 3 ≤ L.n f d)
    (exact : Solves L.UN vSolve ops.A) (k : ℕ) (hk : k < n) (hs : Remembers P k) :
    ∃ q φ, (∀ i : ℤ, 0 ≤ i → i < L.UN → (x (k + 1)).U i = q i - Mat.mult L.pN ops.BNG φ i) ∧
      (∀ i : ℤ, 0 ≤ i → i < L.pN → (x (k + 1)).p i = (x k).p i + φ i) ∧
      ∀ (V : ℕ → ℕ → Stencil → K) (W : ℕ → Stencil → K) (p : Stencil → K),
        (∀ m, m ≤ k → Filled debug L (x m).B (x m).U (V m)) →
        Extended debug L (fun r => ((x k).B r).updateEqs (x k).U P.dt) q W → Stored debug L 3 (x k).p p →
        ∀ u idx, IsUnknown L u → KnowsWalls L T u.rank u.comp ⟨u.k, u.j, u.i, 0⟩ →
          L.getPackedGlobalIndex debug u.comp ⟨u.k, u.j, u.i, 0⟩ = .ok idx →
          (W u.comp ⟨u.k, u.j, u.i, 0⟩ - V k u.comp ⟨u.k, u.j, u.i, 0⟩) / P.dt =
            -(p (shift ⟨u.k, u.j, u.i, 0⟩ u.comp 1) - p ⟨u.k, u.j, u.i, 0⟩) /
              pressureGap L.toMeshInfo G axes u.comp (coordOf ⟨u.k, u.j, u.i, 0⟩ u.comp)
            - ∑ m ∈ Finset.range (k + 1), levelWeight P.conv k m * convective L.dim G (V m) u.comp ⟨u.k, u.j, u.i, 0⟩
            + P.nu * (∑ m ∈ Finset.range (k + 1), levelWeight P.diff k m *
                (∑ d ∈ Finset.range L.dim, secondDifference G u.comp d ⟨u.k, u.j, u.i, 0⟩ (V m u.comp))
              + P.diff.implicitCoeff * ∑ d ∈ Finset.range L.dim, secondDifference G u.comp d ⟨u.k, u.j, u.i, 0⟩ (W u.comp)) := by
  have C := S.constructed
  obtain ⟨u₀, _, R⟩ := S.reach_at h0 hx
  obtain ⟨q, φ, h1, h2, h3⟩ := C59_momentum_seen_partial S h0 hx hn exact k hk hs
  refine ⟨q, φ, h1, h2, fun V W p hV hW hp u idx hu hk' hidx => ?_⟩
  rw [h3 V W p hV hW hp u idx hu hidx]
  congr 2
  apply Finset.sum_congr rfl
  intro m hm
  have hm := Finset.mem_range.1 hm
  obtain ⟨hh, hB, hj⟩ := (R m (by omega)).hist
  have hVm := hV m (by omega)
  rw [hB] at hVm
  rw [seen_convective C ⟨u₀, hh, rfl⟩ hj hVm hu hk']

/-! ### C45 -/

/-- C45. In every run the step counter grows by one and the time by `dt` in each step, from the values of the initial state. -/
theorem C45_counters (S : Started debug L G axes T B P flow ops disk s disk') (h0 : x 0 = s)
    (hx : Trajectory L G P ops vSolve pSolve x n) :
    ∀ k, k ≤ n → (x k).ite = P.nstart + k ∧ (x k).t = s.t + k * P.dt := by
  obtain ⟨u, _, R⟩ := S.reach_at h0 hx
  have hs : s.ite = P.nstart := by
    obtain ⟨s₀, h1, h2⟩ := S.init
    obtain ⟨U, p, _, _, rfl⟩ := solverInit_ok h1
    unfold ioInitialData at h2
    split_ifs at h2
    · obtain ⟨d, _, h2⟩ := bind_ok h2
      cases h2
      rfl
    · obtain ⟨d, hd, h2⟩ := bind_ok h2
      cases h2
      obtain ⟨_, _, _, _, _, _, _, _, _, rfl⟩ := readRestart_ok hd
      rfl
  intro k
  induction k with
  | zero => intro _; rw [h0]; simp [hs]
  | succ k ih =>
    intro hk
    obtain ⟨i1, i2⟩ := ih (by omega)
    obtain ⟨_, _, _, _, _, _, _, _, _, _, _, _, h1, h2⟩ := advance_ok S.constructed S.schemes.1.1 S.schemes.2.1 (R k (by omega)) (hx k (by omega))
    rw [h1, h2, i1, i2]
    push_cast
    constructor <;> ring

/-! ### C42 -/

/-- C42. After a step the net flux out of every cell, with the values at the walls, is the residual of the Poisson system in this
cell: right-hand side minus matrix times the pressure correction. Missing: periodic directions with one cell, where it is false
(`C42_false_single_periodic_cell`), and the pinned system, for which see C43. Example for both theorems: `Props/Poisson.lean`. -/
theorem C42_divergence_is_residual_partial (S : Started debug L G axes T B P flow ops disk s disk') (h0 : x 0 = s)
    (hx : Trajectory L G P ops vSolve pSolve x n) (hn : ∀ f, f < L.dim → L.periodic 0 f = true → 2 ≤ L.n f f) (hp : P.pType = .ksp)
    (k : ℕ) (hk : k < n) :
    ∃ rhs φ, pSolve ops.DBNG (x k).dP rhs = .ok φ ∧ (∀ i : ℤ, 0 ≤ i → i < L.pN → (x (k + 1)).p i = (x k).p i + φ i) ∧
      ∀ V, Filled debug L (x (k + 1)).B (x (k + 1)).U V → ∀ (c : Stencil) (idx : ℤ), Inside L.toMeshInfo 3 c →
        L.getPackedGlobalIndex debug 3 c = .ok idx → netFlux L.dim G c V = rhs idx - Mat.mult L.pN ops.DBNG φ idx := by
  obtain ⟨u, hops, R⟩ := S.reach_at h0 hx
  obtain ⟨w, U, dP, h1, h2, h3, h4, h5, h6, h7, h8, h9, _⟩ :=
    advance_ok S.constructed S.schemes.1.1 S.schemes.2.1 (R k hk.le) (hx k hk)
  obtain ⟨D, Dm, Gr, La, Lm, BN, o1, o2, o3, o4, rfl⟩ := createOperators_ok hops
  obtain ⟨h, hB, -⟩ := (R k hk.le).hist
  obtain ⟨D', Dm', e, net⟩ := C21_divergence_is_net_flux_partial S.constructed hn [.setGhostICs u] ⟨u, [], rfl⟩
  rw [o1] at e
  cases e
  refine ⟨_, _, h3, ?_, ?_⟩
  · intro i i0 i1
    rw [h5]
    simp only [vec, if_pos (show 0 ≤ i ∧ i < (L.pN : ℤ) from ⟨i0, i1⟩), one_mul]
  · intro V hV c idx hc hidx
    have hrange := (col_inside S.constructed.setup.layout (Or.inr rfl) debug hc)
    rw [hrange.1] at hidx
    cases hidx
    have hB' : (x (k + 1)).B = fun r => (B r).run (([.setGhostICs u] ++ (h ++ [.updateEqs (x k).U P.dt])) ++ [.updateGhostValues (x (k + 1)).U]) := by
      rw [h9]
      funext r
      simp only [hB, Boundary.run, List.foldl_append]
      rfl
    rw [hB'] at hV
    have hE := filled_extended S.constructed _ hV
    have := net (h ++ [.updateEqs (x k).U P.dt]) _ V hE c _ hc hrange.1
    rw [← this]
    have hBe : (fun r => (B r).run ([.setGhostICs u] ++ (h ++ [.updateEqs (x k).U P.dt]))) = fun r => ((x k).B r).updateEqs (x k).U P.dt := by
      funext r
      simp only [hB, Boundary.run, List.foldl_append]
      rfl
    rw [hBe]
    have hr : 0 ≤ col L 3 c ∧ col L 3 c < (L.pN : ℤ) := hrange.2
    simp only [poissonRhs, setNullSpace, hp, Bool.false_eq_true, if_false]
    rw [vec, if_pos hr, h4]
    unfold projected
    simp only
    rw [mult_sub, mult_vec, mult_vec, mult_mul]
    have e1 : Mat.mult L.UN D (Mat.mult L.pN (Mat.mul L.UN BN Gr) (vec L.pN dP)) (col L 3 c) =
        Mat.mult L.UN D (Mat.mult L.pN (Mat.mul L.UN BN Gr) dP) (col L 3 c) := by
      congr 1
      funext j
      exact mult_vec _ _ _ _
    rw [e1]
    ring

/-- C42. With a Poisson solver that returns solutions, the new velocity is divergence free in every cell. Missing: as above. -/
theorem C42_divergence_free_partial (S : Started debug L G axes T B P flow ops disk s disk') (h0 : x 0 = s)
    (hx : Trajectory L G P ops vSolve pSolve x n) (hn : ∀ f, f < L.dim → L.periodic 0 f = true → 2 ≤ L.n f f) (hp : P.pType = .ksp)
    (exact : Solves L.pN pSolve ops.DBNG) (k : ℕ) (hk : k < n) :
    ∀ V, Filled debug L (x (k + 1)).B (x (k + 1)).U V → ∀ c, Inside L.toMeshInfo 3 c → netFlux L.dim G c V = 0 := by
  obtain ⟨rhs, φ, h1, _, h2⟩ := C42_divergence_is_residual_partial S h0 hx hn hp k hk
  intro V hV c hc
  have hr := col_inside S.constructed.setup.layout (Or.inr rfl) debug hc
  rw [h2 V hV c _ hc hr.1, exact _ _ _ h1 _ hr.2.1 hr.2.2, sub_self]

end PetIBM
