/-
C83: the work of the terms of the momentum equation. C84: energy of the steps.
-/
import Verif.Lemmas.EnergyRun
import Verif.Props.Processes

set_option linter.unusedSectionVars false

namespace PetIBM

open Spec

variable {K : Type} [Field K] [LinearOrder K] [IsStrictOrderedRing K]
variable {debug : Bool} {L : Layout} {G : Geom K} {axes : ℕ → Axis K} {T : BCTable K} {B : ℕ → Boundary K}
variable {P : NSParams K} {flow : Option (FlowNode K)} {ops : NSOps K} {disk disk' : Disk K} {s : NSState K}
variable {vSolve pSolve : LinSolve K} {x : ℕ → NSState K} {n : ℕ}

theorem Spec.AllClosed.knows (hw : AllClosed L T) (r f : ℕ) (s : Stencil) : KnowsWalls L T r f s :=
  fun loc hl _ hp _ => Or.inl (hw loc hl hp)

/-! ### C83 -/

/-- C83. On a uniform mesh with closed or periodic sides the convective term does no work on a velocity without divergence, neither
in total nor on any single component, for any number of processes. Missing: stretched meshes (`C83_false_stretched`) and open sides,
through which energy is carried. -/
theorem C83_convection_partial (C : Constructed debug L G axes T B) (h : List (Boundary.Op K)) (hi : Initialised h) (q q' y : ℤ → K)
    (hj : JustRefreshed h q') (hw : AllClosed L T) (hu : UniformMesh L.dim axes) :
    ∃ z, convectionMult L G (fun r => (B r).run h) (fun _ _ _ => 0) q y = .ok z ∧
      ∀ vol V, IsVolume debug L G vol → Filled debug L (fun r => (B r).run h) q V →
        (∀ s, Inside L.toMeshInfo 3 s → netFlux L.dim G s V = 0) →
        work L.UN vol q z = 0 ∧
        ∀ f (N : Stencil → K), f < L.dim →
          (∀ s idx, Inside L.toMeshInfo f s → L.getPackedGlobalIndex debug f s = .ok idx → N s = z idx) →
          gridSum L.toMeshInfo f (fun s => volume G f s * (V f s * N s)) = 0 := by
  have S := C.setup
  have hL := S.layout
  obtain ⟨z, hz, hval⟩ := C58_closed_walls C h hi q q' y hj
  refine ⟨z, hz, fun vol V hvol hV hdiv => ?_⟩
  have hwall : ∀ d t, d < L.dim → L.periodic 0 d = false → t.c = 0 → (coordOf t d = -1 ∨ coordOf t d = L.n d d) →
      (∀ e, e < 3 → e ≠ d → 0 ≤ coordOf t e ∧ coordOf t e < L.n d e ∨ (e < L.dim ∧ L.periodic 0 e = true)) → V d t = 0 := by
    intro d t hd hp hc ht he
    rcases ht with ht | ht
    · have := closed_wall C hi hj hV (loc := 2 * d) (t := t) (by omega) (by rw [show 2 * d / 2 = d by omega]; exact hp)
        (hw _ (by omega) (by rw [show 2 * d / 2 = d by omega]; exact hp)) hc
      rw [show 2 * d / 2 = d by omega] at this
      exact this (by rw [ht, if_pos (by omega)]) he
    · have := closed_wall C hi hj hV (loc := 2 * d + 1) (t := t) (by omega) (by rw [show (2 * d + 1) / 2 = d by omega]; exact hp)
        (hw _ (by omega) (by rw [show (2 * d + 1) / 2 = d by omega]; exact hp)) hc
      rw [show (2 * d + 1) / 2 = d by omega] at this
      exact this (by rw [ht, if_neg (by omega)]) he
  have key : ∀ f, f < L.dim → gridSum L.toMeshInfo f (fun s => volume G f s * (V f s * convective L.dim G V f s)) = 0 := fun f hf =>
    convective_energy S C.pos hu hV hwall hdiv hf
  have zval : ∀ f s, f < L.dim → Inside L.toMeshInfo f s → z (col L f s) = convective L.dim G V f s := by
    intro f s hf hs
    obtain ⟨u, _, hu, rfl, rfl⟩ := exists_unknown hL hf hs
    exact hval V hV u _ hu (hw.knows _ _ _) (col_inside hL (Or.inl hu.1) debug hu.inside).1
  constructor
  · unfold work
    rw [velocity_sum hL fun i => vol i * q i * z i]
    refine Finset.sum_eq_zero fun f hf => ?_
    have hf := Finset.mem_range.1 hf
    rw [← key f hf]
    apply gridSum_congr
    intro s hs
    rw [volume_of S hvol hf hs, zval f s hf hs, hV.inside f s _ hf hs (col_inside hL (Or.inl hf) debug hs).1]
    ring
  · intro f N hf hN
    rw [← key f hf]
    apply gridSum_congr
    intro s hs
    rw [hN s _ hs (col_inside hL (Or.inl hf) debug hs).1, zval f s hf hs]

/-- C83. With closed or periodic sides the pressure does no work on a velocity without divergence, on any mesh. Missing: periodic
directions with one cell (`C21`). -/
theorem C83_pressure_partial (C : Constructed debug L G axes T B) (hn : ∀ f, f < L.dim → L.periodic 0 f = true → 2 ≤ L.n f f)
    (h : List (Boundary.Op K)) (hi : Initialised h) (hw : AllClosed L T) :
    ∃ Gr, createGradient debug L G false = .ok Gr ∧ ∀ vol q V, IsVolume debug L G vol → Extended debug L (fun r => (B r).run h) q V →
      (∀ s, Inside L.toMeshInfo 3 s → netFlux L.dim G s V = 0) → ∀ p, work L.UN vol q (Mat.mult L.pN Gr p) = 0 := by
  have hL := C.setup.layout
  obtain ⟨Gr, hG, _⟩ := C19_gradient debug C.setup fun f hf hp =>
    (hn f hf hp).trans (C.setup.n_le f f hf (by have := C.setup.dim_le; omega))
  obtain ⟨D, Dm, hD, net⟩ := C21_divergence_is_net_flux_partial C hn h hi
  refine ⟨Gr, hG, fun vol q V hvol hV hdiv p => ?_⟩
  have hT : ∀ f loc, f < L.dim → loc / 2 = f → (T f loc).1 ≠ .NEUMANN := by
    intro f loc hf hl
    by_cases hp : L.periodic 0 f = true
    · rw [(C.table f loc hf (by omega)).2 (by rw [hl]; exact hp)]; simp
    · have := hw loc (by omega) (by rw [hl]; simpa using hp)
      unfold Closed at this
      rw [hl] at this
      rw [this]; simp
  refine gradient_work (N := L.UN) (M := L.pN) (D := D) (fun a b a0 a1 b0 b1 => divergence_volume C hT h hi hD hG hvol a0 a1 b0 b1) (fun a a0 a1 => ?_) p
  obtain ⟨c, hc, rfl⟩ := pressure_surj hL a0 a1
  have e := net [] q V (by simpa using hV) c _ hc (col_inside hL (Or.inr rfl) debug hc).1
  rw [closed_divergence C hw hn hi hD a0 a1, hdiv c hc, add_zero] at e
  exact e

/-- C83. If the walls are at rest, the viscous term never adds energy. Missing: periodic directions with less than three cells. -/
theorem C83_viscosity_partial (C : Constructed debug L G axes T B)
    (hn : ∀ f d, f < L.dim → d < L.dim → L.periodic 0 d = true → 3 ≤ L.n f d) (h : List (Boundary.Op K)) (hi : Initialised h)
    (hw : WallsAtRest L T) :
    ∃ La Lm, createLaplacian debug L G (fun r => (B r).run h) = .ok (La, Lm) ∧ ∀ h' vol q, IsVolume debug L G vol →
      work L.UN vol q (fun i => Mat.mult L.UN La q i + correctionMult L (fun r => (B r).run (h ++ h')) Lm i) ≤ 0 := by
  have S := C.setup
  have hL := S.layout
  obtain ⟨La, Lm, hLa, hdom⟩ := C23_diagonal_dominance_partial C (fun f d hf hd hp => by have := hn f d hf hd hp; omega) h hi
  refine ⟨La, Lm, hLa, fun h' vol q hvol => ?_⟩
  have row : ∀ x : ℤ, 0 ≤ x → x < L.UN → (∀ y : ℕ, y < L.UN → (y : ℤ) ≠ x → 0 ≤ La x y) ∧
      ∑ y ∈ (Finset.range L.UN).filter (fun y : ℕ => (y : ℤ) ≠ x), La x y ≤ -La x x := by
    intro x x0 x1
    obtain ⟨u, hu, rfl⟩ := col_surj hL x0 x1
    obtain ⟨a, _, b⟩ := hdom u.comp u.st _ hu.1 hu.inside (col_inside hL (Or.inl hu.1) debug hu.inside).1
    exact ⟨a, b⟩
  have key := dominant_nonpos (Op := La) (w := vol) (fun x x0 x1 => volume_pos S hvol x0 x1)
    (fun x y x0 x1 y0 y1 => laplacian_symm S (C.ghosts h) hn hLa hvol x0 x1 y0 y1) (by
      intro x y x0 x1 y0 y1 hne
      have := (row x x0 x1).1 y.toNat (by omega) (by omega)
      rwa [Int.toNat_of_nonneg y0] at this) (fun x x0 x1 => (row x x0 x1).2) q
  refine le_trans (le_of_eq ?_) key
  unfold work
  refine Finset.sum_congr rfl fun i hi' => ?_
  have hi' := Finset.mem_range.1 hi'
  simp only
  rw [rest_laplacian C hw hn hi hLa (by omega) (by omega), add_zero]

/-- C83. In a run with an exact Poisson solver, uniform mesh and closed or periodic sides, the convective term computed from the velocity
after any step does no work on it. -/
theorem C83_run_partial (S : Started debug L G axes T B P flow ops disk s disk') (h0 : x 0 = s)
    (hx : Trajectory L G P ops vSolve pSolve x n) (hn : ∀ f, f < L.dim → L.periodic 0 f = true → 2 ≤ L.n f f) (hp : P.pType = .ksp)
    (exact : Solves L.pN pSolve ops.DBNG) (hw : AllClosed L T) (hu : UniformMesh L.dim axes) (k : ℕ) (hk : k < n) :
    ∃ z, convectionMult L G (x (k + 1)).B (fun _ _ _ => 0) (x (k + 1)).U (fun _ => 0) = .ok z ∧
      ∀ vol, IsVolume debug L G vol → work L.UN vol (x (k + 1)).U z = 0 := by
  have C := S.constructed
  obtain ⟨u, hops, R⟩ := S.reach_at h0 hx
  obtain ⟨h, hB, hj⟩ := (R (k + 1) hk).hist
  obtain ⟨z, hz, key⟩ := C83_convection_partial C ([.setGhostICs u] ++ h) ⟨u, h, rfl⟩ (x (k + 1)).U (x (k + 1)).U (fun _ => 0) hj hw hu
  refine ⟨z, by rw [hB]; exact hz, fun vol hvol => ?_⟩
  obtain ⟨V, hV⟩ := exists_filled C.setup C.part (C.ghosts ([.setGhostICs u] ++ h)) (x (k + 1)).U
  exact (key vol V hvol hV fun c hc =>
    C42_divergence_free_partial S h0 hx hn hp exact k hk V (by rw [hB]; exact hV) c hc).1

/-! ### C84 -/

theorem run_divergence_free (S : Started debug L G axes T B P flow ops disk s disk') (h0 : x 0 = s)
    (hx : Trajectory L G P ops vSolve pSolve x n) (hn : ∀ f, f < L.dim → L.periodic 0 f = true → 2 ≤ L.n f f) (hw : AllClosed L T)
    (hp : P.pType = .ksp) (exact : Solves L.pN pSolve ops.DBNG) {vol : ℤ → K} (hvol : IsVolume debug L G vol) {k : ℕ} (hk : k < n) (φ : ℤ → K) :
    work L.UN vol (x (k + 1)).U (Mat.mult L.pN ops.G φ) = 0 := by
  have C := S.constructed
  obtain ⟨u, hops, R⟩ := S.reach_at h0 hx
  obtain ⟨D, Dm, Gr, La, Lm, BN, o1, o2, o3, o4, rfl⟩ := createOperators_ok hops
  obtain ⟨h, hB, hj⟩ := (R (k + 1) hk).hist
  obtain ⟨Gr', e, key⟩ := C83_pressure_partial C hn ([.setGhostICs u] ++ h) ⟨u, h, rfl⟩ hw
  rw [o2] at e
  cases e
  obtain ⟨V, hV⟩ := exists_filled C.setup C.part (C.ghosts ([.setGhostICs u] ++ h)) (x (k + 1)).U
  refine key vol _ V hvol (filled_extended' C hj hV) (fun c hc => ?_) φ
  exact C42_divergence_free_partial S h0 hx hn hp exact k hk V (by rw [hB]; exact hV) c hc

/-- Velocity systems with walls at rest and one of the two implicit schemes, with a further force `f`. -/
theorem implicit_step (C : Constructed debug L G axes T B) (hcl : P.conv.explicitCoeffs.length = P.conv.nExplicit)
    (hdl : P.diff.explicitCoeffs.length = P.diff.nExplicit) {u₀ : ℤ → K} {k : ℕ} (R : ∀ m, m ≤ k → Reach L B P ops.pN u₀ (x m))
    (hadv : ∀ m, m < k → ∃ s : LinSolve K × LinSolve K, advance L G P ops s.1 s.2 (x m) = .ok (x (m + 1)))
    (hstart : Known P k (x 0).conv (x 0).diff)
    (hn : ∀ f d, f < L.dim → d < L.dim → L.periodic 0 d = true → 3 ≤ L.n f d) (hw : WallsAtRest L T) (hdt : P.dt ≠ 0)
    (o3 : createLaplacian debug L G (fun r => (B r).run [.setGhostICs u₀]) = .ok (ops.L, ops.Lmods))
    (oA : ops.A = Mat.shift (Mat.scale ops.L (-P.diff.implicitCoeff * P.nu)) (1 / P.dt))
    (hd : P.diff = eulerImplicit ∨ P.diff = crankNicolson) :
    ∃ w, convectionMult L G (x k).B (fun _ _ _ => 0) (x k).U (fun _ => 0) = .ok w ∧ ∀ U f c : ℤ → K, ∀ V : ℕ → ℕ → Stencil → K,
      (∀ i : ℤ, 0 ≤ i → i < L.UN → Mat.mult L.UN ops.A U i =
        momentumRhs L P ops (x k) (pushTerm (x k).conv fun i => -1 * w i) (pushTerm (x k).diff (diffTerm L P.nu ops (x k))) i + f i) →
      (∀ j, j ≤ k → Filled debug L (x j).B (x j).U (V j)) →
      (∀ f s idx, f < L.dim → Inside L.toMeshInfo f s → L.getPackedGlobalIndex debug f s = .ok idx →
        c idx = ∑ j ∈ Finset.range (k + 1), levelWeight P.conv k j * convective L.dim G (V j) f s) →
      ∀ i : ℤ, 0 ≤ i → i < L.UN → U i - (x k).U i = P.dt * (-(Mat.mult ops.pN ops.G (x k).p i - f i) - c i +
        P.nu * Mat.mult L.UN ops.L (fun i => P.diff.implicitCoeff * U i + (1 - P.diff.implicitCoeff) * (x k).U i) i) := by
  have hL := C.setup.layout
  obtain ⟨z, hz, he⟩ := rhs_levels_of C hcl hdl R hadv hstart
  refine ⟨z k, hz k le_rfl, fun U F c V hsol hV hc => ?_⟩
  -- corrections vanish
  have corr : ∀ j, j ≤ k → ∀ i : ℤ, 0 ≤ i → i < L.UN → correctionMult L (x j).B ops.Lmods i = 0 := by
    intro j hj i i0 i1
    obtain ⟨h, hB, _⟩ := (R j (by omega)).hist
    rw [hB]
    exact rest_laplacian C hw hn ⟨u₀, [], rfl⟩ o3 i0 i1
  have corr' : ∀ i : ℤ, 0 ≤ i → i < L.UN → correctionMult L (fun r => ((x k).B r).updateEqs (x k).U P.dt) ops.Lmods i = 0 := by
    intro i i0 i1
    obtain ⟨h, hB, _⟩ := (R k le_rfl).hist
    have hBe : (fun r => (B r).run ([.setGhostICs u₀] ++ (h ++ [.updateEqs (x k).U P.dt]))) = fun r => ((x k).B r).updateEqs (x k).U P.dt := by
      funext r
      simp only [hB, Boundary.run, List.foldl_append]
      rfl
    rw [← hBe]
    exact rest_laplacian C hw hn ⟨u₀, [], rfl⟩ o3 i0 i1
  -- convective terms
  have conv : ∀ i : ℤ, 0 ≤ i → i < L.UN → ∑ j ∈ Finset.range (k + 1), levelWeight P.conv k j * z j i = c i := by
    intro i i0 i1
    obtain ⟨u, hu, rfl⟩ := col_surj hL i0 i1
    have hcol := (col_inside hL (Or.inl hu.1) debug hu.inside).1
    rw [hc u.comp u.st _ hu.1 hu.inside hcol]
    refine Finset.sum_congr rfl fun j hj => ?_
    have hj := Finset.mem_range.1 hj
    obtain ⟨hh, hB', hr⟩ := (R j (by omega)).hist
    have hVm := hV j (by omega)
    have hzm := hz j (by omega)
    rw [hB'] at hVm hzm
    obtain ⟨z', hz', hval⟩ := C58_closed_walls (debug := debug) C ([.setGhostICs u₀] ++ hh) ⟨u₀, hh, rfl⟩ (x j).U (x j).U (fun _ => 0) hr
    rw [hzm] at hz'
    cases hz'
    rw [hval (V j) hVm u _ hu (hw.1.knows _ _ _) hcol]
    rfl
  intro i i0 i1
  have hsys := hsol i i0 i1
  rw [oA, he i i0 i1, conv i i0 i1, corr' i i0 i1] at hsys
  have hA : Mat.mult L.UN (Mat.shift (Mat.scale ops.L (-P.diff.implicitCoeff * P.nu)) (1 / P.dt)) U i =
      U i / P.dt - P.diff.implicitCoeff * P.nu * Mat.mult L.UN ops.L U i := by
    unfold Mat.mult Mat.shift Mat.scale
    have : ∀ c ∈ Finset.range L.UN, (if i = (c : ℤ) then -P.diff.implicitCoeff * P.nu * ops.L i c + 1 / P.dt
        else -P.diff.implicitCoeff * P.nu * ops.L i c) * U c =
        (if c = i.toNat then U c / P.dt else 0) - P.diff.implicitCoeff * P.nu * (ops.L i c * U c) := by
      intro c _
      by_cases hc : i = (c : ℤ)
      · rw [if_pos hc, if_pos (by omega)]; ring
      · rw [if_neg hc, if_neg (by omega)]; ring
    rw [Finset.sum_congr rfl this, Finset.sum_sub_distrib, ← Finset.mul_sum, Finset.sum_ite_eq', if_pos (Finset.mem_range.2 (by omega))]
    rw [show ((i.toNat : ℕ) : ℤ) = i by omega]
  have hs2 : ∑ j ∈ Finset.range (k + 1), levelWeight P.diff k j * (P.nu * (Mat.mult L.UN ops.L (x j).U i + correctionMult L (x j).B ops.Lmods i)) =
      (1 - P.diff.implicitCoeff) * (P.nu * Mat.mult L.UN ops.L (x k).U i) := by
    rw [Finset.sum_range_succ, corr k le_rfl i i0 i1, Finset.sum_eq_zero]
    · rcases hd with h | h
      · simp [h, eulerImplicit, levelWeight]
      · simp only [h, crankNicolson, levelWeight, Nat.sub_self, List.getD_cons_zero]
        ring
    · intro j hj
      have hj := Finset.mem_range.1 hj
      obtain ⟨d, hd'⟩ : ∃ d, k - j = d + 1 := ⟨k - j - 1, by omega⟩
      rcases hd with h | h
      · simp [h, eulerImplicit, levelWeight]
      · simp [h, crankNicolson, levelWeight, hd']
  have hlin : Mat.mult L.UN ops.L (fun i => P.diff.implicitCoeff * U i + (1 - P.diff.implicitCoeff) * (x k).U i) i =
      P.diff.implicitCoeff * Mat.mult L.UN ops.L U i + (1 - P.diff.implicitCoeff) * Mat.mult L.UN ops.L (x k).U i := by
    unfold Mat.mult
    rw [Finset.mul_sum, Finset.mul_sum, ← Finset.sum_add_distrib]
    exact Finset.sum_congr rfl fun _ _ => by ring
  rw [hA, hs2] at hsys
  rw [hlin]
  field_simp at hsys
  linear_combination hsys

theorem params_levels (h : ∃ haveAmgX output node, readParams haveAmgX output node flow = .ok P) :
    (P.conv.explicitCoeffs.length ≤ 2 ∧ P.conv.explicitCoeffs.sum = 1 - P.conv.implicitCoeff) ∧
      P.diff.explicitCoeffs.length ≤ 2 ∧ P.diff.explicitCoeffs.sum = 1 - P.diff.implicitCoeff := by
  obtain ⟨a, o, node, h⟩ := h
  obtain ⟨⟨p, h1, h2⟩, -⟩ := params_schemes h
  have key : ∀ (name : String) (d : TimeScheme K), createTimeIntegration name p = .ok d →
      d.explicitCoeffs.length ≤ 2 ∧ d.explicitCoeffs.sum = 1 - d.implicitCoeff := by
    intro name d h
    refine ⟨?_, by linarith [(C39_consistent _ _ _ h).2]⟩
    unfold createTimeIntegration at h
    split at h
    · cases h
    · split at h
      · cases h
      · split_ifs at h <;> cases h <;> simp [eulerExplicit, eulerImplicit, adamsBashforth2, crankNicolson]
  exact ⟨key _ _ h1, key _ _ h2⟩

/-- After the first step the schemes use terms of the run only. -/
theorem remembers_next (h : ∃ haveAmgX output node, readParams haveAmgX output node flow = .ok P)
    (hc : P.conv.explicitCoeffs.length = P.conv.nExplicit) (hd : P.diff.explicitCoeffs.length = P.diff.nExplicit) (k : ℕ) :
    Remembers P (k + 1) := by
  obtain ⟨⟨h1, -⟩, h2, -⟩ := params_levels h
  exact Or.inr ⟨by omega, by omega⟩

/-- Euler's methods and that of Crank and Nicolson use terms of the present level only. -/
theorem remembers_implicit (hc : P.conv = eulerImplicit ∨ P.conv = eulerExplicit) (hd : P.diff = eulerImplicit ∨ P.diff = crankNicolson) (k : ℕ) :
    Remembers P k := by
  refine Or.inr ⟨?_, ?_⟩
  · rcases hc with h | h <;> rw [h] <;> simp [eulerImplicit, eulerExplicit]
  · rcases hd with h | h <;> rw [h] <;> simp [eulerImplicit, crankNicolson]

/-- C84. Energy balance of a step with walls at rest, first order approximate inverse, exact solvers, and the implicit Euler or the
Crank-Nicolson scheme for diffusion, `θ` being their implicit coefficient. For twice the kinetic energy `E` and the pressure
gradient `G p`, with the intermediate velocity `q`, `m = θ q + (1 - θ) u` and the weighted convective terms `c`:
`E u' + θ dt² E (G p') + (1 - θ) dt² E (G φ) + (2 θ - 1) E (q - u) = E u + θ dt² E (G p) + 2 dt nu (m, L m) - 2 dt (m, c)`.
Missing: as for C59; higher orders; other schemes (`C84_false_explicit`). -/
theorem C84_balance_partial (S : Started debug L G axes T B P flow ops disk s disk') (h0 : x 0 = s)
    (hx : Trajectory L G P ops vSolve pSolve x n) (hn : ∀ f d, f < L.dim → d < L.dim → L.periodic 0 d = true → 3 ≤ L.n f d)
    (hw : WallsAtRest L T) (hBN : P.BN = 1) (hp : P.pType = .ksp) (hdt : P.dt ≠ 0) (exactV : Solves L.UN vSolve ops.A)
    (exactP : Solves L.pN pSolve ops.DBNG) (k : ℕ) (hk : k < n) (hs : Remembers P k) (hd : P.diff = eulerImplicit ∨ P.diff = crankNicolson ∧ 0 < k) :
    ∃ q φ m : ℤ → K, (∀ i : ℤ, 0 ≤ i → i < L.UN → (x (k + 1)).U i = q i - P.dt * Mat.mult L.pN ops.G φ i) ∧
      (∀ i : ℤ, 0 ≤ i → i < L.pN → (x (k + 1)).p i = (x k).p i + φ i) ∧
      (∀ i : ℤ, 0 ≤ i → i < L.UN → m i = P.diff.implicitCoeff * q i + (1 - P.diff.implicitCoeff) * (x k).U i) ∧
      ∀ (vol c : ℤ → K) (V : ℕ → ℕ → Stencil → K), IsVolume debug L G vol → (∀ j, j ≤ k → Filled debug L (x j).B (x j).U (V j)) →
        (∀ f s idx, f < L.dim → Inside L.toMeshInfo f s → L.getPackedGlobalIndex debug f s = .ok idx →
          c idx = ∑ j ∈ Finset.range (k + 1), levelWeight P.conv k j * convective L.dim G (V j) f s) →
        kinetic L.UN vol (x (k + 1)).U + P.diff.implicitCoeff * P.dt ^ 2 * kinetic L.UN vol (Mat.mult L.pN ops.G (x (k + 1)).p)
          + (1 - P.diff.implicitCoeff) * P.dt ^ 2 * kinetic L.UN vol (Mat.mult L.pN ops.G φ)
          + (2 * P.diff.implicitCoeff - 1) * kinetic L.UN vol (fun i => q i - (x k).U i) =
        kinetic L.UN vol (x k).U + P.diff.implicitCoeff * P.dt ^ 2 * kinetic L.UN vol (Mat.mult L.pN ops.G (x k).p)
          + 2 * P.dt * P.nu * work L.UN vol m (Mat.mult L.UN ops.L m) - 2 * P.dt * work L.UN vol m c := by
  have C := S.constructed
  have hL := C.setup.layout
  have hn2 : ∀ f, f < L.dim → L.periodic 0 f = true → 2 ≤ L.n f f := fun f hf hp => by have := hn f f hf hf hp; omega
  obtain ⟨u₀, hops, R⟩ := S.reach_at h0 hx
  have free := fun vol (hvol : IsVolume debug L G vol) j (hj : j < n) φ => run_divergence_free S h0 hx hn2 hw.1 hp exactP hvol hj φ
  obtain ⟨w, U, dP, h1, h2, h3, h4, h5, h6, h7, h8, h9, _⟩ :=
    advance_ok C S.schemes.1.1 S.schemes.2.1 (R k hk.le) (hx k hk)
  obtain ⟨D, Dm, Gr, La, Lm, BN, o1, o2, o3, o4, eops⟩ := createOperators_ok hops
  obtain ⟨w', h1', step⟩ := implicit_step (k := k) C S.schemes.1.1 S.schemes.2.1 (fun m hm => R m (by omega))
    (fun m hm => ⟨(vSolve, pSolve), hx m (by omega)⟩) (by rw [h0]; exact known_of (C40_first_steps S) hs) hn hw hdt (by rw [o3, eops]) (by rw [eops])
    (hd.imp_right And.left)
  rw [h1] at h1'
  cases h1'
  have hsol := exactV _ _ _ h2
  rw [hBN] at o4
  subst eops
  simp only at free hsol h4 h5 ⊢
  have eU : ∀ i : ℤ, 0 ≤ i → i < L.UN → (x (k + 1)).U i = U i - P.dt * Mat.mult L.pN Gr dP i := by
    intro i i0 i1
    rw [h4]
    unfold projected
    have hi : 0 ≤ i ∧ i < (L.UN : ℤ) := ⟨i0, i1⟩
    rw [vec, vec, if_pos hi, if_pos hi, mult_vec]
    simp only
    rw [bn_one o4 Gr L.pN dP i0 i1]
    ring
  have ep : ∀ i : ℤ, 0 ≤ i → i < L.pN → (x (k + 1)).p i = (x k).p i + dP i := by
    intro i i0 i1
    rw [h5]
    simp only [vec, if_pos (show 0 ≤ i ∧ i < (L.pN : ℤ) from ⟨i0, i1⟩), one_mul]
  refine ⟨U, dP, fun i => P.diff.implicitCoeff * U i + (1 - P.diff.implicitCoeff) * (x k).U i, eU, ep, fun _ _ _ => rfl, ?_⟩
  intro vol c V hvol hV hc
  have sys := step U (fun _ => 0) c V (fun i i0 i1 => by rw [add_zero]; exact hsol i i0 i1) hV hc
  simp only [sub_zero] at sys
  have eg : ∀ i : ℤ, 0 ≤ i → i < L.UN → Mat.mult L.pN Gr (x (k + 1)).p i = Mat.mult L.pN Gr (x k).p i + Mat.mult L.pN Gr dP i := by
    intro i _ _
    unfold Mat.mult
    rw [← Finset.sum_add_distrib]
    refine Finset.sum_congr rfl fun y hy => ?_
    have hy := Finset.mem_range.1 hy
    rw [ep y (by omega) (by omega)]
    ring
  refine step_balance (fun _ _ _ => rfl) sys eU eg (free vol hvol k hk _) (free vol hvol k hk _) ?_
  rcases hd with h | ⟨h, hk0⟩
  · rw [h]; simp [eulerImplicit]
  · obtain ⟨j, rfl⟩ : ∃ j, k = j + 1 := ⟨k - 1, by omega⟩
    rw [free vol hvol j (by omega), mul_zero]

theorem kinetic_nonneg (S : Setup L G axes) {vol : ℤ → K} (hvol : IsVolume debug L G vol) (a : ℤ → K) : 0 ≤ kinetic L.UN vol a := by
  unfold kinetic work
  refine Finset.sum_nonneg fun i hi => ?_
  have hi := Finset.mem_range.1 hi
  rw [mul_assoc]
  exact mul_nonneg (volume_pos S hvol (by omega) (by omega)).le (mul_self_nonneg _)

/-- The viscous term of a run takes energy. -/
theorem run_viscosity (S : Started debug L G axes T B P flow ops disk s disk')
    (hn : ∀ f d, f < L.dim → d < L.dim → L.periodic 0 d = true → 3 ≤ L.n f d) (hw : WallsAtRest L T) {vol : ℤ → K}
    (hvol : IsVolume debug L G vol) (m : ℤ → K) : work L.UN vol m (Mat.mult L.UN ops.L m) ≤ 0 := by
  have C := S.constructed
  obtain ⟨u, hops, _⟩ := S.reach
  obtain ⟨D, Dm, Gr, La, Lm, BN, o1, o2, o3, o4, rfl⟩ := createOperators_ok hops
  obtain ⟨La', Lm', e, key⟩ := C83_viscosity_partial C hn [.setGhostICs u] ⟨u, [], rfl⟩ hw
  rw [o3] at e
  cases e
  refine le_trans (le_of_eq ?_) (key [] vol m hvol)
  unfold work
  refine Finset.sum_congr rfl fun i hi' => ?_
  have hi' := Finset.mem_range.1 hi'
  simp only
  rw [rest_laplacian C hw hn ⟨u, [], rfl⟩ o3 (by omega) (by omega), add_zero]

/-- C84. Without convective terms (as the code has it for EULER_IMPLICIT convection) a step never increases the sum of the kinetic energy
and the energy of the pressure gradient, whatever the time step. Missing: as for `C84_balance_partial`. -/
theorem C84_decay_partial (S : Started debug L G axes T B P flow ops disk s disk') (h0 : x 0 = s)
    (hx : Trajectory L G P ops vSolve pSolve x n) (hn : ∀ f d, f < L.dim → d < L.dim → L.periodic 0 d = true → 3 ≤ L.n f d)
    (hw : WallsAtRest L T) (hBN : P.BN = 1) (hp : P.pType = .ksp) (hdt : 0 < P.dt) (hnu : 0 ≤ P.nu) (exactV : Solves L.UN vSolve ops.A)
    (exactP : Solves L.pN pSolve ops.DBNG) (hc : P.conv = eulerImplicit) (vol : ℤ → K) (hvol : IsVolume debug L G vol) (k : ℕ) (hk : k < n)
    (hd : P.diff = eulerImplicit ∨ P.diff = crankNicolson ∧ 0 < k) :
    kinetic L.UN vol (x (k + 1)).U + P.diff.implicitCoeff * P.dt ^ 2 * kinetic L.UN vol (Mat.mult L.pN ops.G (x (k + 1)).p) ≤
      kinetic L.UN vol (x k).U + P.diff.implicitCoeff * P.dt ^ 2 * kinetic L.UN vol (Mat.mult L.pN ops.G (x k).p) := by
  have C := S.constructed
  obtain ⟨u, hops, R⟩ := S.reach_at h0 hx
  obtain ⟨q, φ, m, _, _, _, key⟩ := C84_balance_partial S h0 hx hn hw hBN hp hdt.ne' exactV exactP k hk (remembers_implicit (Or.inl hc) (hd.imp_right And.left) k) hd
  have hV : ∀ j, ∃ V, j ≤ k → Filled debug L (x j).B (x j).U V := by
    intro j
    by_cases hj : j ≤ k
    · obtain ⟨h, hB, _⟩ := (R j (by omega)).hist
      obtain ⟨V, hV⟩ := exists_filled C.setup C.part (C.ghosts ([.setGhostICs u] ++ h)) (x j).U
      exact ⟨V, fun _ => by rw [hB]; exact hV⟩
    · exact ⟨fun _ _ => 0, fun h => absurd h hj⟩
  choose V hV using hV
  have bal := key vol (fun _ => 0) V hvol hV (by
    intro f s idx _ _ _
    symm
    refine Finset.sum_eq_zero fun j _ => ?_
    simp [hc, eulerImplicit, levelWeight])
  have w0 : work L.UN vol m (fun _ => 0) = 0 := by simp [work]
  rw [w0] at bal
  have v := run_viscosity S hn hw hvol m
  have v' : 2 * P.dt * P.nu * work L.UN vol m (Mat.mult L.UN ops.L m) ≤ 0 :=
    mul_nonpos_of_nonneg_of_nonpos (mul_nonneg (by linarith) hnu) v
  have k1 := kinetic_nonneg C.setup hvol (Mat.mult L.pN ops.G φ)
  have k2 := kinetic_nonneg C.setup hvol (fun i => q i - (x k).U i)
  have sq := sq_nonneg P.dt
  have hθ : 0 ≤ 1 - P.diff.implicitCoeff ∧ 0 ≤ 2 * P.diff.implicitCoeff - 1 := by
    rcases hd with h | ⟨h, _⟩ <;> rw [h]
    · norm_num [eulerImplicit]
    · norm_num [crankNicolson]
  have := mul_nonneg (mul_nonneg hθ.1 sq) k1
  have := mul_nonneg hθ.2 k2
  linarith

/-- C84. Without convective terms the kinetic energy stays bounded in runs of any length, whatever the time step: by the energies of
velocity and pressure gradient after the first step or, for the implicit Euler scheme, in the beginning. -/
theorem C84_bounded_partial (S : Started debug L G axes T B P flow ops disk s disk') (h0 : x 0 = s)
    (hx : Trajectory L G P ops vSolve pSolve x n) (hn : ∀ f d, f < L.dim → d < L.dim → L.periodic 0 d = true → 3 ≤ L.n f d)
    (hw : WallsAtRest L T) (hBN : P.BN = 1) (hp : P.pType = .ksp) (hdt : 0 < P.dt) (hnu : 0 ≤ P.nu) (exactV : Solves L.UN vSolve ops.A)
    (exactP : Solves L.pN pSolve ops.DBNG) (hc : P.conv = eulerImplicit) (vol : ℤ → K) (hvol : IsVolume debug L G vol) (k : ℕ) (hk : k ≤ n)
    (i : ℕ) (hi : i ≤ k) (hd : P.diff = eulerImplicit ∨ P.diff = crankNicolson ∧ 0 < i) :
    kinetic L.UN vol (x k).U ≤
      kinetic L.UN vol (x i).U + P.diff.implicitCoeff * P.dt ^ 2 * kinetic L.UN vol (Mat.mult L.pN ops.G (x i).p) := by
  have key : ∀ j, i + j ≤ n → kinetic L.UN vol (x (i + j)).U + P.diff.implicitCoeff * P.dt ^ 2 * kinetic L.UN vol (Mat.mult L.pN ops.G (x (i + j)).p) ≤
      kinetic L.UN vol (x i).U + P.diff.implicitCoeff * P.dt ^ 2 * kinetic L.UN vol (Mat.mult L.pN ops.G (x i).p) := by
    intro j
    induction j with
    | zero => intro _; exact le_refl _
    | succ j ih =>
      intro hj
      refine le_trans (C84_decay_partial S h0 hx hn hw hBN hp hdt hnu exactV exactP hc vol hvol (i + j) (by omega) ?_) (ih (by omega))
      rcases hd with h | ⟨h, h'⟩
      · exact Or.inl h
      · exact Or.inr ⟨h, by omega⟩
  have := key (k - i) (by omega)
  rw [show i + (k - i) = k by omega] at this
  have k1 := kinetic_nonneg S.constructed.setup hvol (Mat.mult L.pN ops.G (x k).p)
  have hθ : 0 ≤ P.diff.implicitCoeff := by
    rcases hd with h | ⟨h, _⟩ <;> rw [h]
    · simp [eulerImplicit]
    · simp [crankNicolson]
  have := mul_nonneg (mul_nonneg hθ (sq_nonneg P.dt)) k1
  linarith

/-- C84. With convective terms `c` and the implicit Euler scheme for diffusion, a step increases the sum of the kinetic energy and the energy
of the pressure gradient by no more than `dt² E c` minus twice `dt` times the work of `c` on the old velocity. Missing: as for
`C84_balance_partial`, and the Crank-Nicolson scheme. -/
theorem C84_growth_partial (S : Started debug L G axes T B P flow ops disk s disk') (h0 : x 0 = s)
    (hx : Trajectory L G P ops vSolve pSolve x n) (hn : ∀ f d, f < L.dim → d < L.dim → L.periodic 0 d = true → 3 ≤ L.n f d)
    (hw : WallsAtRest L T) (hBN : P.BN = 1) (hp : P.pType = .ksp) (hdt : 0 < P.dt) (hnu : 0 ≤ P.nu) (exactV : Solves L.UN vSolve ops.A)
    (exactP : Solves L.pN pSolve ops.DBNG) (hd : P.diff = eulerImplicit) (vol c : ℤ → K) (hvol : IsVolume debug L G vol) (k : ℕ) (hk : k < n) (hs : Remembers P k)
    (V : ℕ → ℕ → Stencil → K) (hV : ∀ j, j ≤ k → Filled debug L (x j).B (x j).U (V j))
    (hc : ∀ f s idx, f < L.dim → Inside L.toMeshInfo f s → L.getPackedGlobalIndex debug f s = .ok idx →
      c idx = ∑ j ∈ Finset.range (k + 1), levelWeight P.conv k j * convective L.dim G (V j) f s) :
    kinetic L.UN vol (x (k + 1)).U + P.dt ^ 2 * kinetic L.UN vol (Mat.mult L.pN ops.G (x (k + 1)).p) ≤
      kinetic L.UN vol (x k).U + P.dt ^ 2 * kinetic L.UN vol (Mat.mult L.pN ops.G (x k).p) + P.dt ^ 2 * kinetic L.UN vol c
        - 2 * P.dt * work L.UN vol (x k).U c := by
  have C := S.constructed
  obtain ⟨q, φ, m, _, _, hm, key⟩ := C84_balance_partial S h0 hx hn hw hBN hp hdt.ne' exactV exactP k hk hs (Or.inl hd)
  have bal := key vol c V hvol hV hc
  have v := run_viscosity S hn hw hvol m
  have v' : 2 * P.dt * P.nu * work L.UN vol m (Mat.mult L.UN ops.L m) ≤ 0 :=
    mul_nonpos_of_nonneg_of_nonpos (mul_nonneg (by linarith) hnu) v
  have k2 := kinetic_nonneg C.setup hvol (fun i => q i - (x k).U i + P.dt * c i)
  have e : kinetic L.UN vol (fun i => q i - (x k).U i + P.dt * c i) =
      kinetic L.UN vol (fun i => q i - (x k).U i) + 2 * P.dt * (work L.UN vol m c - work L.UN vol (x k).U c) + P.dt ^ 2 * kinetic L.UN vol c := by
    unfold kinetic work
    simp only [Finset.mul_sum, ← Finset.sum_add_distrib, ← Finset.sum_sub_distrib]
    refine Finset.sum_congr rfl fun i hi => ?_
    have hi := Finset.mem_range.1 hi
    have := hm i (by omega) (by omega)
    rw [hd] at this
    simp only [eulerImplicit] at this
    rw [this]
    ring
  rw [hd] at bal
  simp only [eulerImplicit] at bal
  rw [e] at k2
  linarith

/-- C84. On a uniform mesh, with the explicit Euler scheme for convection and the implicit one for diffusion, a step (after the first one)
increases the sum of the kinetic energy and the energy of the pressure gradient by no more than `dt²` times the energy of the convective
term: in a time interval of given length the increase is of first order in `dt`. Missing: as above. -/
theorem C84_uniform_growth_partial (S : Started debug L G axes T B P flow ops disk s disk') (h0 : x 0 = s)
    (hx : Trajectory L G P ops vSolve pSolve x n) (hn : ∀ f d, f < L.dim → d < L.dim → L.periodic 0 d = true → 3 ≤ L.n f d)
    (hw : WallsAtRest L T) (hu : UniformMesh L.dim axes) (hBN : P.BN = 1) (hp : P.pType = .ksp) (hdt : 0 < P.dt) (hnu : 0 ≤ P.nu)
    (exactV : Solves L.UN vSolve ops.A) (exactP : Solves L.pN pSolve ops.DBNG) (hd : P.diff = eulerImplicit) (hc : P.conv = eulerExplicit)
    (vol c : ℤ → K) (hvol : IsVolume debug L G vol) (k : ℕ) (hk : k + 1 < n)
    (V : ℕ → Stencil → K) (hV : Filled debug L (x (k + 1)).B (x (k + 1)).U V)
    (hcv : ∀ f s idx, f < L.dim → Inside L.toMeshInfo f s → L.getPackedGlobalIndex debug f s = .ok idx → c idx = convective L.dim G V f s) :
    kinetic L.UN vol (x (k + 2)).U + P.dt ^ 2 * kinetic L.UN vol (Mat.mult L.pN ops.G (x (k + 2)).p) ≤
      kinetic L.UN vol (x (k + 1)).U + P.dt ^ 2 * kinetic L.UN vol (Mat.mult L.pN ops.G (x (k + 1)).p) + P.dt ^ 2 * kinetic L.UN vol c := by
  have C := S.constructed
  have hL := C.setup.layout
  have hn2 : ∀ f, f < L.dim → L.periodic 0 f = true → 2 ≤ L.n f f := fun f hf hp => by have := hn f f hf hf hp; omega
  obtain ⟨u, hops, R⟩ := S.reach_at h0 hx
  have hW : ∀ j, ∃ W, j ≤ k + 1 → Filled debug L (x j).B (x j).U W ∧ (j = k + 1 → W = V) := by
    intro j
    by_cases hj : j ≤ k
    · obtain ⟨h, hB, _⟩ := (R j (by omega)).hist
      obtain ⟨V, hV⟩ := exists_filled C.setup C.part (C.ghosts ([.setGhostICs u] ++ h)) (x j).U
      exact ⟨V, fun _ => ⟨by rw [hB]; exact hV, by omega⟩⟩
    · refine ⟨V, fun h => ?_⟩
      have : j = k + 1 := by omega
      subst this
      exact ⟨hV, fun _ => rfl⟩
  choose W hW using hW
  have g := C84_growth_partial S h0 hx hn hw hBN hp hdt hnu exactV exactP hd vol c hvol (k + 1) hk
    (remembers_implicit (Or.inr hc) (Or.inl hd) (k + 1)) W (fun j hj => (hW j hj).1) (by
    intro f s idx hf hs hidx
    rw [hcv f s idx hf hs hidx, Finset.sum_range_succ, Finset.sum_eq_zero]
    · rw [(hW (k + 1) le_rfl).2 rfl]
      simp [hc, eulerExplicit, levelWeight]
    · intro j hj
      have hj := Finset.mem_range.1 hj
      obtain ⟨d, hd'⟩ : ∃ d, k + 1 - j = d + 1 := ⟨k - j, by omega⟩
      simp [hc, eulerExplicit, levelWeight, hd'])
  obtain ⟨z, hz, hwork⟩ := C83_run_partial S h0 hx hn2 hp exactP hw.1 hu k (by omega)
  have : work L.UN vol (x (k + 1)).U c = work L.UN vol (x (k + 1)).U z := by
    unfold work
    refine Finset.sum_congr rfl fun i hi => ?_
    have hi := Finset.mem_range.1 hi
    obtain ⟨v, hv, e⟩ := col_surj hL (x := i) (by omega) (by omega)
    have hcol := (col_inside hL (Or.inl hv.1) debug hv.inside).1
    obtain ⟨h, hB, hj⟩ := (R (k + 1) (by omega)).hist
    have hV' := hV
    rw [hB] at hz hV'
    obtain ⟨z', hz', hval⟩ := C58_closed_walls (debug := debug) C ([.setGhostICs u] ++ h) ⟨u, h, rfl⟩ (x (k + 1)).U (x (k + 1)).U (fun _ => 0) hj
    rw [hz] at hz'
    cases hz'
    rw [← e, hcv _ _ _ hv.1 hv.inside hcol, hval V hV' v _ hv (hw.1.knows _ _ _) hcol]
    rfl
  rw [this, hwork vol hvol] at g
  linarith

/-! ### Closed boxes of three by two cells -/

/-- The work as a sum over the points of the grids. -/
def gridWork (L : Layout) (G : Geom ℚ) (a b : ℤ → ℚ) : ℚ :=
  ∑ f ∈ Finset.range L.dim, gridSum L.toMeshInfo f fun s => volume G f s * a (col L f s) * b (col L f s)

theorem work_grid {L : Layout} {G : Geom ℚ} {axes : ℕ → Axis ℚ} (S : Setup L G axes) {vol : ℤ → ℚ} (hvol : IsVolume debug L G vol) (a b : ℤ → ℚ) :
    work L.UN vol a b = gridWork L G a b := by
  unfold work gridWork
  rw [velocity_sum S.layout fun i => vol i * a i * b i]
  refine Finset.sum_congr rfl fun f hf => Finset.sum_congr rfl fun k hk => Finset.sum_congr rfl fun j hj => Finset.sum_congr rfl fun i hi => ?_
  simp only
  rw [volume_of S hvol (Finset.mem_range.1 hf) (inside_nat (Finset.mem_range.1 hi) (Finset.mem_range.1 hj) (Finset.mem_range.1 hk))]

theorem toOption_ok {α : Type} {y : Except Error α} {a : α} (h : y.toOption = some a) : y = .ok a := by
  cases y with
  | error e => cases h
  | ok b => cases h; rfl

/-- Is the divergence of a velocity zero in all cells? -/
def freeOf (L : Layout) (G : Geom ℚ) (B : ℕ → Boundary ℚ) (h : List (Boundary.Op ℚ)) (q : ℤ → ℚ) : Bool :=
  match createDivergence true L G false (fun r => (B r).run h) with
  | .ok (D, m) => (List.range L.pN).all fun i => Mat.mult L.UN D q i + correctionMult L (fun r => (B r).run h) m i = 0
  | .error _ => false

theorem freeOf_spec {L : Layout} {G : Geom ℚ} {axes : ℕ → Axis ℚ} {T : BCTable ℚ} {B : ℕ → Boundary ℚ} (C : Constructed true L G axes T B)
    (hn : ∀ d, L.periodic 0 d = false) {h : List (Boundary.Op ℚ)} (hi : Initialised h) {q : ℤ → ℚ} (hj : JustRefreshed h q)
    (hf : freeOf L G B h q = true) {V : ℕ → Stencil → ℚ} (hV : Filled true L (fun r => (B r).run h) q V) (s : Stencil)
    (hs : Inside L.toMeshInfo 3 s) : netFlux L.dim G s V = 0 := by
  obtain ⟨D, m, hD, key⟩ := C21_divergence_is_net_flux_partial C (fun f _ hp => by rw [hn] at hp; cases hp) h hi
  obtain ⟨c1, c2, c3⟩ := col_inside C.setup.layout (Or.inr rfl) true hs
  rw [← key [] q V (by rw [List.append_nil]; exact filled_extended' C hj hV) s _ hs c1]
  unfold freeOf at hf
  rw [hD] at hf
  simp only [List.all_eq_true, List.mem_range, decide_eq_true_eq] at hf
  have e : vecSize L 3 = L.pN := by unfold vecSize; simp
  have := hf (col L 3 s).toNat (by omega)
  rw [List.append_nil]
  rwa [Int.toNat_of_nonneg c2] at this

theorem closed_rest (px : ℕ) : WallsAtRest (seamLayout px) closedTable :=
  ⟨fun _ _ _ => rfl, fun _ _ _ _ _ _ => ⟨Or.inl rfl, rfl⟩⟩

theorem seam_uniform : UniformMesh 2 seamAxes := fun d _ => ⟨1, fun w hw => by
  unfold seamAxes at hw
  split_ifs at hw <;> simpa using hw⟩

/-- A vortex in the box, on two processes, and the ghost points after `setGhostICs`. -/
def vortex : ℤ → ℚ := fun i => [1, -1, -1, -1, 2, -2, 2].getD i.toNat 0

/-- The hypotheses of `C83_convection_partial`, with convective terms that are not zero. -/
example : ∃ (V : ℕ → Stencil → ℚ) (z : ℤ → ℚ), Constructed true (seamLayout 2) seamGeom seamAxes closedTable (seamB closedTable 2) ∧
    AllClosed (seamLayout 2) closedTable ∧ UniformMesh 2 seamAxes ∧
    Filled true (seamLayout 2) (fun r => (seamB closedTable 2 r).run [.setGhostICs vortex]) vortex V ∧
    (∀ s, Inside (seamLayout 2).toMeshInfo 3 s → netFlux 2 seamGeom s V = 0) ∧
    convectionMult (seamLayout 2) seamGeom (fun r => (seamB closedTable 2 r).run [.setGhostICs vortex]) (fun _ _ _ => 0) vortex (fun _ => 0) = .ok z ∧
    z 0 ≠ 0 := by
  have C := seam_constructed closedTable (fun _ _ => rfl) 2 (Or.inr rfl)
  obtain ⟨V, hV⟩ := exists_filled C.setup C.part (C.ghosts [.setGhostICs vortex]) vortex
  have h : ((convectionMult (seamLayout 2) seamGeom (fun r => (seamB closedTable 2 r).run [.setGhostICs vortex]) (fun _ _ _ => 0) vortex
    (fun _ => 0)).toOption.map fun z => decide (z 0 ≠ 0)) = some true := by decide +kernel
  obtain ⟨z, hz, h⟩ := Option.map_eq_some_iff.1 h
  refine ⟨V, z, C, (closed_rest 2).1, seam_uniform, hV, freeOf_spec C (fun _ => rfl) ⟨_, [], rfl⟩ ⟨[], Or.inl rfl⟩ (by decide +kernel) hV, toOption_ok hz,
    of_decide_eq_true h⟩

def stretchAxes : ℕ → Axis ℚ := fun d => if d = 0 then ⟨0, 4, [1, 2, 1]⟩ else ⟨0, 3, [1, 2]⟩

abbrev stretchLayout : Layout := meshLayout 2 stretchAxes (fun _ _ => false) fun _ => 1

abbrev stretchGeom : Geom ℚ := meshGeom 2 stretchAxes fun _ _ => false

def stretchVortex : ℤ → ℚ := fun i => [1, 2, -1 / 2, -1, -1, -1 / 2, 2].getD i.toNat 0

theorem stretch_constructed :
    Constructed true stretchLayout stretchGeom stretchAxes closedTable (boundaries true stretchLayout stretchGeom closedTable) := by
  apply constructed_boundaries
  apply C57_construction true (Or.inl rfl) _ (fun _ _ _ _ => rfl)
  · intro d hd
    interval_cases d <;> simp
  · intro f d hf hd
    rcases hf with hf | rfl
    · interval_cases d <;> interval_cases f <;> decide
    · interval_cases d <;> decide
  · intro f loc _ _; simp [closedTable]
  · intro f loc _ _; simp [closedTable]
  · intro d hd
    interval_cases d
    · exact ⟨by simp [stretchAxes], by simp [stretchAxes], by norm_num [stretchAxes]⟩
    · exact ⟨by simp [stretchAxes], by simp [stretchAxes], by norm_num [stretchAxes]⟩

/-- C83 is false on stretched meshes: the convective term does work on a vortex in a closed box. -/
theorem C83_false_stretched : ∃ (L : Layout) (G : Geom ℚ) (axes : ℕ → Axis ℚ) (T : BCTable ℚ) (B : ℕ → Boundary ℚ) (q z : ℤ → ℚ),
    Constructed true L G axes T B ∧ AllClosed L T ∧
    (∀ V, Filled true L (fun r => (B r).run [.setGhostICs q]) q V → ∀ s, Inside L.toMeshInfo 3 s → netFlux L.dim G s V = 0) ∧
    convectionMult L G (fun r => (B r).run [.setGhostICs q]) (fun _ _ _ => 0) q (fun _ => 0) = .ok z ∧
    ∀ vol, IsVolume true L G vol → work L.UN vol q z ≠ 0 := by
  have C := stretch_constructed
  have h : ((convectionMult stretchLayout stretchGeom (fun r => (boundaries true stretchLayout stretchGeom closedTable r).run [.setGhostICs stretchVortex])
    (fun _ _ _ => 0) stretchVortex (fun _ => 0)).toOption.map fun z => decide (gridWork stretchLayout stretchGeom stretchVortex z ≠ 0)) = some true := by
    decide +kernel
  obtain ⟨z, hz, h⟩ := Option.map_eq_some_iff.1 h
  refine ⟨_, _, _, _, _, stretchVortex, z, C, fun _ _ _ => rfl, fun V hV => freeOf_spec C (fun _ => rfl) ⟨_, [], rfl⟩ ⟨[], Or.inl rfl⟩
    (by decide +kernel) hV, toOption_ok hz, fun vol hvol => ?_⟩
  rw [work_grid C.setup hvol]
  exact of_decide_eq_true h

/-! Runs in the uniform box. -/

def boxNode (dt : ℚ) (conv diff : String) : ParamNode ℚ :=
  { dt := some dt, startStep := none, t := none, nt := some 3, nsave := some 1, nrestart := some 1, BN := none,
    schemes := fun key => if key = "convection" then some conv else some diff,
    velocitySolver := none, poissonSolver := none }

def boxParams (dt nu : ℚ) (conv diff : TimeScheme ℚ) : NSParams ℚ :=
  { dt := dt, nstart := 0, t := 0, nt := 3, nsave := 1, nrestart := 1, nu := nu, BN := 1,
    conv := conv, diff := diff, vType := .ksp, pType := .ksp, output := "out" }

def vortexFlow (nu : ℚ) : FlowNode ℚ := ⟨some nu, some [fun x y _ _ _ => 2 * (1 - y) * x, fun x _ _ _ _ => 3 / 2 * (x - 1 / 2) * (x - 3 / 2) - 1], none⟩

/-- A run of `n` steps with exact solvers. -/
def boxRun (P : NSParams ℚ) (flow : FlowNode ℚ) (px n : ℕ) : Except Error (NSOps ℚ × NSState ℚ × NSState ℚ) := do
  let (ops, s) ← solverInit true (seamLayout px) seamGeom P (some flow) (seamB closedTable px)
  let t ← steps (advance (seamLayout px) seamGeom P ops (gaussSolve 7) (gaussSolve 6)) n s
  return (ops, s, t)

theorem box_run {flow : FlowNode ℚ} {node : ParamNode ℚ} {P : NSParams ℚ} (hP : readParams false "out" (some node) (some flow) = .ok P)
    (hs : P.nstart = 0) {px n : ℕ} (hp : px = 1 ∨ px = 2) {ops : NSOps ℚ} {s t : NSState ℚ} (h : boxRun P flow px n = .ok (ops, s, t)) :
    ∃ disk' x, Started true (seamLayout px) seamGeom seamAxes closedTable (seamB closedTable px) P (some flow) ops (fun _ => none) s disk' ∧
      x 0 = s ∧ x n = t ∧ Trajectory (seamLayout px) seamGeom P ops (gaussSolve 7) (gaussSolve 6) x n := by
  obtain ⟨⟨ops', s'⟩, h1, h⟩ := bind_ok h
  obtain ⟨t', h2, h⟩ := bind_ok h
  cases h
  obtain ⟨x, x0, xn, hx⟩ := steps_ok h2
  have C := seam_constructed closedTable (fun _ _ => rfl) px hp
  have hi : s.ite = 0 := by
    obtain ⟨_, _, _, _, rfl⟩ := solverInit_ok h1
    exact hs
  obtain ⟨file, hf, _⟩ := writeSolution_spec C.setup.layout s (fun _ => none) (stepPath P.output s.ite)
  refine ⟨Function.update (fun _ => none) (stepPath P.output s.ite) (some file), x,
    ⟨C, ⟨false, "out", some node, hP⟩, s, h1, ?_⟩, x0, xn, hx⟩
  unfold ioInitialData
  rw [if_pos hi, hf]
  rfl

/-- Runs of any length in the box, on two processes, for which the hypotheses of the theorems about C83 and C84 hold: with convection and
without it, both schemes of diffusion. -/
example (conv diff : TimeScheme ℚ) (h : conv = eulerExplicit ∧ diff = eulerImplicit ∨ conv = eulerImplicit ∧ (diff = eulerImplicit ∨ diff = crankNicolson)) :
    ∃ ops s d x, Started true (seamLayout 2) seamGeom seamAxes closedTable (seamB closedTable 2) (boxParams (1 / 4) 1 conv diff)
      (some (vortexFlow 1)) ops (fun _ => none) s d ∧ x 0 = s ∧
      (∀ n, Trajectory (seamLayout 2) seamGeom (boxParams (1 / 4) 1 conv diff) ops (exactSolve (seamLayout 2).UN) (exactSolve (seamLayout 2).pN) x n) ∧
      (∀ d, (seamLayout 2).periodic 0 d = false) ∧ WallsAtRest (seamLayout 2) closedTable ∧ UniformMesh 2 seamAxes ∧
      Solves (seamLayout 2).UN (exactSolve (seamLayout 2).UN) ops.A ∧ Solves (seamLayout 2).pN (exactSolve (seamLayout 2).pN) ops.DBNG := by
  have C := seam_constructed closedTable (fun _ _ => rfl) 2 (Or.inr rfl)
  obtain ⟨ops, s, d, S⟩ := C60_start (P := boxParams (1 / 4) 1 conv diff) C 1
    [fun x y _ _ _ => 2 * (1 - y) * x, fun x _ _ _ _ => 3 / 2 * (x - 1 / 2) * (x - 3 / 2) - 1] none (le_refl 2) (by decide) (by
      rcases h with ⟨rfl, rfl⟩ | ⟨rfl, rfl | rfl⟩
      · exact ⟨false, "out", some (boxNode (1 / 4) "EULER_EXPLICIT" "EULER_IMPLICIT"), rfl⟩
      · exact ⟨false, "out", some (boxNode (1 / 4) "EULER_IMPLICIT" "EULER_IMPLICIT"), rfl⟩
      · exact ⟨false, "out", some (boxNode (1 / 4) "EULER_IMPLICIT" "CRANK_NICOLSON"), rfl⟩) (le_refl 1) rfl (fun _ => none)
  obtain ⟨x, x0, hx, -⟩ := C62_runs_partial S (vSolve := exactSolve (seamLayout 2).UN) (pSolve := exactSolve (seamLayout 2).pN)
    (fun _ _ _ _ hp => by cases hp) (fun _ _ _ _ => Or.inl rfl) (by decide +kernel) (Or.inl rfl) rfl (by norm_num [boxParams]) (by norm_num [boxParams])
    (exactSolve_finds _ _) (exactSolve_finds _ _) (exactSolve_solves _ _)
  exact ⟨ops, s, d, x, S, x0, hx, fun _ => rfl, closed_rest 2, seam_uniform, exactSolve_solves _ _, exactSolve_solves _ _⟩

/-- Does the energy grow in the first step? -/
def boxGrows (P : NSParams ℚ) (flow : FlowNode ℚ) : Option Bool :=
  (boxRun P flow 2 1).toOption.map fun q =>
    let E := fun t : NSState ℚ => gridWork (seamLayout 2) seamGeom t.U t.U +
      P.diff.implicitCoeff * P.dt ^ 2 * gridWork (seamLayout 2) seamGeom (Mat.mult 6 q.1.G t.p) (Mat.mult 6 q.1.G t.p)
    decide (E q.2.1 < E q.2.2)

theorem box_grows {flow : FlowNode ℚ} {node : ParamNode ℚ} {P : NSParams ℚ} (hP : readParams false "out" (some node) (some flow) = .ok P)
    (hs : P.nstart = 0) (h : boxGrows P flow = some true) :
    ∃ ops s disk' x, Started true (seamLayout 2) seamGeom seamAxes closedTable (seamB closedTable 2) P (some flow) ops (fun _ => none) s disk' ∧
      x 0 = s ∧ Trajectory (seamLayout 2) seamGeom P ops (gaussSolve 7) (gaussSolve 6) x 1 ∧ WallsAtRest (seamLayout 2) closedTable ∧
      UniformMesh 2 seamAxes ∧ Solves (seamLayout 2).UN (gaussSolve 7) ops.A ∧ Solves (seamLayout 2).pN (gaussSolve 6) ops.DBNG ∧
      ∀ vol, IsVolume true (seamLayout 2) seamGeom vol →
        kinetic (seamLayout 2).UN vol (x 0).U + P.diff.implicitCoeff * P.dt ^ 2 * kinetic (seamLayout 2).UN vol (Mat.mult (seamLayout 2).pN ops.G (x 0).p) <
        kinetic (seamLayout 2).UN vol (x 1).U + P.diff.implicitCoeff * P.dt ^ 2 * kinetic (seamLayout 2).UN vol (Mat.mult (seamLayout 2).pN ops.G (x 1).p) := by
  obtain ⟨⟨ops, s, t⟩, h1, h⟩ := Option.map_eq_some_iff.1 h
  obtain ⟨d, x, S, x0, x1, hx⟩ := box_run hP hs (Or.inr rfl) (toOption_ok h1)
  obtain ⟨-, u2, -, u4⟩ := seam_sizes
  refine ⟨ops, s, d, x, S, x0, hx, closed_rest 2, seam_uniform, by rw [u2]; exact gaussSolve_exact _ _, by rw [u4]; exact gaussSolve_exact _ _,
    fun vol hvol => ?_⟩
  unfold kinetic
  simp only [work_grid S.constructed.setup hvol]
  rw [x0, x1, u4]
  exact of_decide_eq_true h

/-- C84 is false with explicit diffusion: with time step one the energy of a vortex in a closed box grows in the first step. -/
theorem C84_false_explicit_diffusion : ∃ (L : Layout) (G : Geom ℚ) (axes : ℕ → Axis ℚ) (T : BCTable ℚ) (B : ℕ → Boundary ℚ) (P : NSParams ℚ)
    (flow : Option (FlowNode ℚ)) (ops : NSOps ℚ) (disk disk' : Disk ℚ) (s : NSState ℚ) (x : ℕ → NSState ℚ) (v p : LinSolve ℚ),
    Started true L G axes T B P flow ops disk s disk' ∧ x 0 = s ∧ Trajectory L G P ops v p x 1 ∧ WallsAtRest L T ∧ UniformMesh L.dim axes ∧
    Solves L.UN v ops.A ∧ Solves L.pN p ops.DBNG ∧ 0 < P.dt ∧ 0 ≤ P.nu ∧ P.conv = eulerImplicit ∧ P.diff = eulerExplicit ∧
    ∀ vol, IsVolume true L G vol → kinetic L.UN vol (x 0).U < kinetic L.UN vol (x 1).U := by
  obtain ⟨ops, s, d, x, h1, h2, h3, h4, h5, h6, h7, h8⟩ := box_grows (P := boxParams 1 1 eulerImplicit eulerExplicit) (flow := vortexFlow 1)
    (node := boxNode 1 "EULER_IMPLICIT" "EULER_EXPLICIT") rfl rfl (by decide +kernel)
  refine ⟨_, _, _, _, _, _, _, ops, _, d, s, x, _, _, h1, h2, h3, h4, h5, h6, h7, by norm_num [boxParams], by norm_num [boxParams], rfl, rfl, ?_⟩
  intro vol hvol
  have := h8 vol hvol
  simpa [boxParams, eulerExplicit] using this

/-- C84 is false with convection: without viscosity the explicit Euler step for the convective terms increases the energy, also on a
uniform mesh. -/
theorem C84_false_convection : ∃ (L : Layout) (G : Geom ℚ) (axes : ℕ → Axis ℚ) (T : BCTable ℚ) (B : ℕ → Boundary ℚ) (P : NSParams ℚ)
    (flow : Option (FlowNode ℚ)) (ops : NSOps ℚ) (disk disk' : Disk ℚ) (s : NSState ℚ) (x : ℕ → NSState ℚ) (v p : LinSolve ℚ),
    Started true L G axes T B P flow ops disk s disk' ∧ x 0 = s ∧ Trajectory L G P ops v p x 1 ∧ WallsAtRest L T ∧ UniformMesh L.dim axes ∧
    Solves L.UN v ops.A ∧ Solves L.pN p ops.DBNG ∧ 0 < P.dt ∧ 0 ≤ P.nu ∧ P.conv = eulerExplicit ∧ P.diff = eulerImplicit ∧
    ∀ vol, IsVolume true L G vol →
      kinetic L.UN vol (x 0).U + P.dt ^ 2 * kinetic L.UN vol (Mat.mult L.pN ops.G (x 0).p) <
      kinetic L.UN vol (x 1).U + P.dt ^ 2 * kinetic L.UN vol (Mat.mult L.pN ops.G (x 1).p) := by
  obtain ⟨ops, s, d, x, h1, h2, h3, h4, h5, h6, h7, h8⟩ := box_grows (P := boxParams (1 / 4) 0 eulerExplicit eulerImplicit) (flow := vortexFlow 0)
    (node := boxNode (1 / 4) "EULER_EXPLICIT" "EULER_IMPLICIT") rfl rfl (by decide +kernel)
  refine ⟨_, _, _, _, _, _, _, ops, _, d, s, x, _, _, h1, h2, h3, h4, h5, h6, h7, by norm_num [boxParams], by norm_num [boxParams], rfl, rfl, ?_⟩
  intro vol hvol
  have := h8 vol hvol
  simpa [boxParams, eulerImplicit] using this

end PetIBM
