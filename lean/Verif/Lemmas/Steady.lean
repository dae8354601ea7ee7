/-
Boundaries and time steps in steady flow.
-/
import Verif.Props.Poisson
import Verif.Lemmas.ProcessesRun
import Verif.Spec.Steady

set_option linter.unusedSectionVars false

namespace PetIBM

open Spec

variable {K : Type} [Field K] [LinearOrder K] [IsStrictOrderedRing K]
variable {debug : Bool} {L : Layout} {G : Geom K} {axes : ℕ → Axis K} {T : BCTable K} {B : ℕ → Boundary K}

theorem mapM_mem {α β : Type} {g : α → Except Error β} {l : List α} {ys : List β} (h : l.mapM g = .ok ys) {y : β} (hy : y ∈ ys) :
    ∃ a ∈ l, g a = .ok y := by
  induction l generalizing ys with
  | nil => cases h; cases hy
  | cons a l ih =>
    rw [List.mapM_cons] at h
    obtain ⟨b, hb, h⟩ := bind_ok h
    obtain ⟨bs, hbs, h⟩ := bind_ok h
    cases h
    rcases List.mem_cons.1 hy with rfl | hy
    · exact ⟨a, by simp, hb⟩
    · obtain ⟨a', ha', e⟩ := ih hbs hy
      exact ⟨a', by simp [ha'], e⟩

/-- Boundaries without equations have no points. -/
def Proper (b : SingleBoundary K) : Prop := b.type = .PERIODIC ∨ b.type = .NOBC → b.points = []

theorem boundaryInit_proper {r : ℕ} {B₀ : Boundary K} (h : boundaryInit debug L G r T = .ok B₀) : ∀ l ∈ B₀, ∀ b ∈ l, Proper b := by
  intro l hl b hb
  obtain ⟨f, _, h⟩ := mapM_mem h hl
  obtain ⟨loc, _, h⟩ := mapM_mem h hb
  unfold createSingleBoundary at h
  split at h
  · cases h
  · cases h; exact fun _ => rfl
  · rename_i t h1 h2
    obtain ⟨o, _, h⟩ := bind_ok h
    have h : ∃ p, b = { loc := loc, field := f, type := (T f loc).1, value := (T f loc).2, onThisProc := o, points := p } := by
      simp only at h
      split_ifs at h
      · obtain ⟨p, _, h⟩ := bind_ok h
        cases h
        exact ⟨_, rfl⟩
      · cases h
        exact ⟨_, rfl⟩
    obtain ⟨p, rfl⟩ := h
    rintro (h' | h')
    · exact absurd h' h2
    · exact absurd h' h1

theorem steady_updateEqs (b : SingleBoundary K) (u : ℤ → K) (dt : K) : (b.setGhostICs u).updateEqs u dt = b.setGhostICs u := by
  unfold SingleBoundary.updateEqs SingleBoundary.setGhostICs SingleBoundary.mapPoints
  simp only [List.map_map]
  congr 1
  apply List.map_congr_left
  intro kp hkp
  simp only [Function.comp]
  congr 1
  unfold SingleBoundary.setGhostICsKernel SingleBoundary.updateEqsKernel
  cases b.type <;> simp only
  unfold SingleBoundary.kernel
  simp only
  split_ifs
  · simp [SingleBoundary.kernelSameDir]
  · simp [SingleBoundary.kernelDiffDir]

theorem steady_values {b : SingleBoundary K} (hb : Proper b) (u : ℤ → K) : (b.setGhostICs u).updateGhostValues u = b.setGhostICs u := by
  unfold SingleBoundary.updateGhostValues SingleBoundary.setGhostICs SingleBoundary.mapPoints
  simp only [List.map_map]
  congr 1
  apply List.map_congr_left
  intro kp hkp
  simp only [Function.comp]
  congr 1
  unfold SingleBoundary.setGhostICsKernel
  cases ht : b.type <;> simp only
  · rw [hb (Or.inr ht)] at hkp
    cases hkp
  · rw [hb (Or.inl ht)] at hkp
    cases hkp
  · split_ifs <;> simp
  · unfold SingleBoundary.kernel
    split_ifs
    · simp [SingleBoundary.kernelSameDir]
    · simp only [SingleBoundary.kernelDiffDir, mul_zero, sub_self, zero_mul, zero_div, sub_zero]
      congr 1
      ring

theorem steady_boundary {B₀ : Boundary K} (hB : ∀ l ∈ B₀, ∀ b ∈ l, Proper b) (u : ℤ → K) (dt : K) :
    (B₀.setGhostICs u).updateEqs u dt = B₀.setGhostICs u ∧ (B₀.setGhostICs u).updateGhostValues u = B₀.setGhostICs u := by
  unfold Boundary.updateEqs Boundary.setGhostICs Boundary.updateGhostValues
  simp only [List.map_map]
  constructor
  · apply List.map_congr_left
    intro l hl
    simp only [Function.comp, List.map_map]
    apply List.map_congr_left
    intro b hb
    exact steady_updateEqs b u dt
  · apply List.map_congr_left
    intro l hl
    simp only [Function.comp, List.map_map]
    apply List.map_congr_left
    intro b hb
    exact steady_values (hB l hl b hb) u

variable {P : NSParams K} {flow : Option (FlowNode K)} {ops : NSOps K} {disk disk' : Disk K} {s : NSState K}
variable {vSolve pSolve : LinSolve K} {x : ℕ → NSState K} {n : ℕ}

theorem levelWeight_sum (C : TimeScheme K) (k : ℕ) :
    ∑ m ∈ Finset.range (k + 1), levelWeight C k m = ∑ i ∈ Finset.range (k + 1), C.explicitCoeffs.getD i 0 := by
  rw [← Finset.sum_range_reflect]
  refine Finset.sum_congr rfl fun i hi => ?_
  have := Finset.mem_range.1 hi
  unfold levelWeight
  rw [show k - (k + 1 - 1 - i) = i by omega]

theorem explicit_weights (k : ℕ) : ∑ m ∈ Finset.range (k + 1), levelWeight (eulerExplicit : TimeScheme K) k m = 1 := by
  rw [levelWeight_sum, Finset.sum_range_succ']
  simp [eulerExplicit]

theorem diffusion_weights (h : ∃ haveAmgX output node, readParams haveAmgX output node flow = .ok P) (hd : P.diff ≠ adamsBashforth2) (k : ℕ) :
    ∑ m ∈ Finset.range (k + 1), levelWeight P.diff k m + P.diff.implicitCoeff = 1 := by
  obtain ⟨a, o, node, h⟩ := h
  obtain ⟨⟨p, -, h2⟩, -⟩ := params_schemes h
  rw [levelWeight_sum, Finset.sum_range_succ']
  generalize P.diff = d at h2 hd ⊢
  unfold createTimeIntegration at h2
  split at h2
  · cases h2
  · split at h2
    · cases h2
    · split_ifs at h2 <;> cases h2
      · simp [eulerExplicit]
      · simp [eulerImplicit]
      · exact absurd rfl hd
      · simp [crankNicolson]
        norm_num

/-- What a steady run keeps. -/
structure Kept (L : Layout) (B : ℕ → Boundary K) (s t : NSState K) : Prop where
  U : t.U = s.U
  B : ∀ r, r < L.mpiSize → t.B r = (B r).setGhostICs s.U
  p : ∃ c, ∀ i : ℤ, 0 ≤ i → i < L.pN → t.p i = s.p i + c

theorem steady_step (S : Started debug L G axes T B P flow ops disk s disk') (hs : P.nstart = 0) (h0 : x 0 = s)
    (hx : Trajectory L G P ops vSolve pSolve x n) (hn : ∀ f d, f < L.dim → d < L.dim → L.periodic 0 d = true → 3 ≤ L.n f d)
    (hT : ∀ f loc, f < L.dim → loc / 2 = f → (T f loc).1 ≠ .NEUMANN) (hBN : GoodOrder L P ops.A) (hdt : 0 < P.dt) (hnu : 0 ≤ P.nu)
    (exactV : Solves L.UN vSolve ops.A) (exactP : Solves L.pN pSolve ops.DBNG) {V : ℕ → Stencil → K} {p : Stencil → K}
    (hV : Filled debug L s.B s.U V) (hp : Stored debug L 3 s.p p) (hmass : Solenoidal L G V) (hmom : Balanced L G axes P.nu V p)
    (hc : P.conv = eulerExplicit ∨ NoConvection L G V) (hd : P.diff ≠ adamsBashforth2 ∨ NoDiffusion L G V) {k : ℕ} (hk : k < n)
    (ih : ∀ m, m ≤ k → Kept L B s (x m)) : Kept L B s (x (k + 1)) := by
  have C := S.constructed
  have hL := C.setup.layout
  have hn2 : ∀ f d, f < L.dim → d < L.dim → L.periodic 0 d = true → 2 ≤ L.n f d := fun f d hf hd hp => by have := hn f d hf hd hp; omega
  have hn1 : ∀ f, f < L.dim → L.periodic 0 f = true → 2 ≤ L.n f f := fun f hf hp => hn2 f f hf hf hp
  obtain ⟨u₀, hops, R⟩ := S.reach_at h0 hx
  obtain ⟨z, hz, he⟩ := rhs_levels S (known_of (C40_first_steps S) (Or.inl hs)) h0 hx hk.le
  obtain ⟨w, U, dP, h1, h2, h3, h4, h5, h6, h7, h8, h9, _⟩ :=
    advance_ok C S.schemes.1.1 S.schemes.2.1 (R k hk.le) (hx k hk)
  rw [hz k le_rfl] at h1
  cases h1
  have hpN := createOperators_pN hops
  have hprop : ∀ r, r < L.mpiSize → ∀ l ∈ B r, ∀ b ∈ l, Proper b := fun r hr => boundaryInit_proper (C.init r hr)
  have hstart : ∀ r, r < L.mpiSize → s.B r = (B r).setGhostICs s.U := fun r hr => by
    have := (ih 0 (by omega)).B r hr
    rwa [h0] at this
  -- the fields of the levels
  have hVm : ∀ m, m ≤ k → Filled debug L (x m).B (x m).U V := by
    intro m hm
    refine ⟨?_, hV.periodic, ?_⟩
    · rw [(ih m hm).U]; exact hV.inside
    · intro r f loc st b q hr hq
      rw [(ih m hm).B r hr, ← hstart r hr] at hq
      exact hV.ghost r f loc st b q hr hq
  have hext : ∀ m, m ≤ k → Extended debug L (x m).B s.U V := by
    intro m hm
    obtain ⟨hh, hB', hj⟩ := (R m (by omega)).hist
    have := hVm m hm
    rw [hB'] at this
    have := filled_extended' C hj this
    rw [(ih m hm).U, ← hB'] at this
    exact this
  have hupd : ∀ r, r < L.mpiSize → ((x k).B r).updateEqs (x k).U P.dt = (B r).setGhostICs s.U := by
    intro r hr
    rw [(ih k le_rfl).B r hr, (ih k le_rfl).U]
    exact (steady_boundary (hprop r hr) s.U P.dt).1
  have hextU : Extended debug L (fun r => ((x k).B r).updateEqs (x k).U P.dt) s.U V := by
    refine ⟨(hext k le_rfl).stored, ?_⟩
    intro r f loc st b q hr hq
    simp only [hupd r hr] at hq
    rw [← (ih k le_rfl).B r hr] at hq
    exact (hext k le_rfl).ghost r f loc st b q hr hq
  obtain ⟨h, hB, -⟩ := (R k hk.le).hist
  have hBe : (fun r => (B r).run ([.setGhostICs u₀] ++ (h ++ [.updateEqs (x k).U P.dt]))) = fun r => ((x k).B r).updateEqs (x k).U P.dt := by
    funext r
    simp only [hB, Boundary.run, List.foldl_append]
    rfl
  obtain ⟨cp, hcp⟩ := (ih k le_rfl).p
  -- the velocity system
  have hU : ∀ i : ℤ, 0 ≤ i → i < L.UN → U i = s.U i := by
    obtain ⟨y, _, huniq⟩ := C61_velocity_system_partial S hn2 hdt hnu
      (momentumRhs L P ops (x k) (pushTerm (x k).conv fun i => -1 * z k i) (pushTerm (x k).diff (diffTerm L P.nu ops (x k))))
    have a := huniq U (exactV _ _ _ h2)
    have b := huniq s.U (by
      intro i i0 i1
      rw [he i i0 i1]
      obtain ⟨u, hu, rfl⟩ := col_surj hL i0 i1
      have hin := hu.inside
      have hcol := (col_inside hL (Or.inl hu.1) debug hin).1
      obtain ⟨D, Dm, Gr, La, Lm, BN, o1, o2, o3, o4, rfl⟩ := createOperators_ok hops
      obtain ⟨A', eG, hgrad⟩ := C19_gradient debug C.setup fun f hf hp =>
        (hn1 f hf hp).trans (C.setup.n_le f f hf (by have := C.setup.dim_le; omega))
      rw [o2] at eG
      cases eG
      obtain ⟨A', m', eL, hlap⟩ := C22_laplacian_of_extended_field_partial C hn [.setGhostICs u₀] ⟨u₀, [], rfl⟩
      rw [o3] at eL
      cases eL
      have lap : ∀ m, m ≤ k → Mat.mult L.UN La (x m).U (col L u.comp u.st) + correctionMult L (x m).B Lm (col L u.comp u.st) =
          laplace L.dim G u.comp u.st (V u.comp) := by
        intro m hm
        obtain ⟨hh, hB', hj⟩ := (R m (by omega)).hist
        have := hext m hm
        rw [(ih m hm).U]
        rw [hB'] at this ⊢
        exact hlap hh _ _ this _ _ _ hu.1 hin hcol
      have lapU0 : Mat.mult L.UN La s.U (col L u.comp u.st) + correctionMult L (fun r => ((x k).B r).updateEqs (x k).U P.dt) Lm (col L u.comp u.st) =
          laplace L.dim G u.comp u.st (V u.comp) := by
        have := hextU
        rw [← hBe] at this ⊢
        exact hlap _ _ _ this _ _ _ hu.1 hin hcol
      have lapU := lapU0
      rw [(ih k le_rfl).U] at lapU
      have conv : ∀ m, m ≤ k → z m (col L u.comp u.st) = convective L.dim G (seenBy L u.rank V) u.comp u.st := by
        intro m hm
        obtain ⟨hh, hB', hj⟩ := (R m (by omega)).hist
        have hV' := hVm m hm
        have hzm := hz m hm
        rw [hB'] at hV' hzm
        obtain ⟨z', hz', hval⟩ := C58_convection_of_seen (debug := debug) C ([.setGhostICs u₀] ++ hh) (x m).U (fun _ => 0)
        rw [hzm] at hz'
        cases hz'
        exact hval V hV' u _ hu hcol
      have hst : Stored debug L 3 (x k).p fun st => p st + cp := by
        refine ⟨fun st idx hin hi => ?_, fun st d y hd hin hper hy => by rw [hp.periodic st d y hd hin hper hy]⟩
        rw [hp.inside st idx hin hi]
        rw [(col_inside hL (Or.inr rfl) debug hin).1] at hi
        cases hi
        rw [hcp _ (pcol_range hL hin).1 (pcol_range hL hin).2]
      have eg := (hgrad (x k).p _ hst u.comp u.st _ hu.1 hin hcol).2
      have eg : Mat.mult L.pN Gr (x k).p (col L u.comp u.st) = pressureSlope L G axes p u.comp u.st := by
        rw [eg]
        unfold pressureSlope
        congr 1
        ring
      have hm : convective L.dim G (seenBy L u.rank V) u.comp u.st + pressureSlope L G axes p u.comp u.st =
          P.nu * laplace L.dim G u.comp u.st (V u.comp) := hmom u hu
      have c1 : ∑ m ∈ Finset.range (k + 1), levelWeight P.conv k m * z m (col L u.comp u.st) = convective L.dim G (seenBy L u.rank V) u.comp u.st := by
        rw [Finset.sum_congr rfl fun m hm => by rw [conv m (by have := Finset.mem_range.1 hm; omega)], ← Finset.sum_mul]
        rcases hc with hc | hc
        · rw [hc, explicit_weights, one_mul]
        · rw [show convective L.dim G (seenBy L u.rank V) u.comp u.st = 0 from hc u hu, mul_zero]
      have c2 : ∑ m ∈ Finset.range (k + 1), levelWeight P.diff k m *
            (P.nu * (Mat.mult L.UN La (x m).U (col L u.comp u.st) + correctionMult L (x m).B Lm (col L u.comp u.st))) =
          (1 - P.diff.implicitCoeff) * (P.nu * laplace L.dim G u.comp u.st (V u.comp)) := by
        rw [Finset.sum_congr rfl fun m hm => by rw [lap m (by have := Finset.mem_range.1 hm; omega)], ← Finset.sum_mul]
        rcases hd with hd | hd
        · rw [← diffusion_weights S.params hd k]
          ring
        · rw [show laplace L.dim G u.comp u.st (V u.comp) = 0 from hd u hu, mul_zero, mul_zero, mul_zero]
      simp only
      rw [mult_implicit La _ _ _ i0 i1, c1, c2, eg, (ih k le_rfl).U]
      linear_combination hm - P.diff.implicitCoeff * P.nu * lapU)
    intro i i0 i1
    rw [a i i0 i1, b i i0 i1]
  -- the Poisson system
  have hrhs : ∀ i : ℤ, 0 ≤ i → i < L.pN → Mat.mult L.UN ops.D (vec L.UN U) i + correctionMult L (fun r => ((x k).B r).updateEqs (x k).U P.dt) ops.Dmods i = 0 := by
    intro i i0 i1
    obtain ⟨D, Dm, Gr, La, Lm, BN, o1, o2, o3, o4, rfl⟩ := createOperators_ok hops
    obtain ⟨A', m', e, key⟩ := C21_divergence_is_net_flux_partial C hn1 [.setGhostICs u₀] ⟨u₀, [], rfl⟩
    rw [o1] at e
    cases e
    obtain ⟨st, hin, rfl⟩ := pressure_surj hL i0 i1
    have := hextU
    rw [← hBe] at this ⊢
    have := key _ _ _ this st _ hin (col_inside hL (Or.inr rfl) debug hin).1
    rw [hmass st hin] at this
    rw [← this]
    congr 1
    refine mult_congr (fun j j0 j1 => ?_) _
    rw [vec, if_pos ⟨j0, j1⟩, hU j j0 j1]
  have hsol := exactP _ _ _ h3
  have hphi : ∃ c, ∀ i : ℤ, 0 ≤ i → i < L.pN → dP i = c := by
    cases ht : P.pType with
    | ksp =>
      have href : ops.isRefP = false := by
        obtain ⟨D, Dm, Gr, La, Lm, BN, o1, o2, o3, o4, rfl⟩ := createOperators_ok hops
        simp only [setNullSpace, ht]
      obtain ⟨a1, _, _⟩ := C62_poisson_system_partial S hn1 hT hBN ht hdt.ne'
      have := (a1 dP).1 (by
        intro i i0 i1
        rw [hsol i i0 i1]
        unfold poissonRhs
        simp only [href]
        rw [if_neg (by simp), vec, if_pos ⟨i0, by rw [hpN]; exact i1⟩, hrhs i i0 i1])
      exact ⟨dP 0, fun i i0 i1 => this i 0 i0 i1 le_rfl (by omega)⟩
    | amgx =>
      have href : ops.isRefP = true := by
        obtain ⟨D, Dm, Gr, La, Lm, BN, o1, o2, o3, o4, rfl⟩ := createOperators_ok hops
        simp only [setNullSpace, ht]
      obtain ⟨φ, _, hφ⟩ := C43_pinned_system_partial S hn1 hT hBN ht hdt.ne' fun _ => 0
      refine ⟨0, fun i i0 i1 => ?_⟩
      rw [hφ dP ?_ i i0 i1, ← hφ (fun _ => 0) ?_ i i0 i1]
      · intro j _ _
        simp [Mat.mult]
      · intro j j0 j1
        rw [hsol j j0 j1]
        unfold poissonRhs
        simp only [href]
        rw [if_pos trivial, Function.update_apply]
        split_ifs
        · rfl
        · rw [vec, if_pos ⟨j0, by rw [hpN]; exact j1⟩, hrhs j j0 j1]
  obtain ⟨c, hc'⟩ := hphi
  have hBNG : ∀ i : ℤ, 0 ≤ i → i < L.UN → Mat.mult L.pN ops.BNG dP i = 0 := by
    intro i i0 i1
    obtain ⟨D, Dm, Gr, La, Lm, BN, o1, o2, o3, o4, rfl⟩ := createOperators_ok hops
    simp only
    rw [mult_mul, mult_congr (y := fun _ => 0) fun j j0 j1 => gradient_const C.setup
      (fun f hf hp => (hn1 f hf hp).trans (C.setup.n_le f f hf (by have := C.setup.dim_le; omega))) o2
      (fun a b a0 a1 b0 b1 => by rw [hc' a a0 a1, hc' b b0 b1]) j0 j1]
    simp [Mat.mult]
  have hU' : (x (k + 1)).U = s.U := by
    funext i
    by_cases hi : 0 ≤ i ∧ i < (L.UN : ℤ)
    · rw [h4]
      unfold projected
      rw [vec, vec, if_pos hi, if_pos hi, hpN, mult_vec, hBNG i hi.1 hi.2, hU i hi.1 hi.2]
      ring
    · rw [(R (k + 1) (by omega)).outU i hi, ← h0, (R 0 (by omega)).outU i hi]
  refine ⟨hU', ?_, cp + c, ?_⟩
  · intro r hr
    rw [h9]
    simp only
    rw [hupd r hr, hU']
    exact (steady_boundary (hprop r hr) s.U P.dt).2
  · intro i i0 i1
    rw [h5]
    simp only [hpN, vec, if_pos (show 0 ≤ i ∧ i < (L.pN : ℤ) from ⟨i0, i1⟩), one_mul]
    rw [hcp i i0 i1, hc' i i0 i1]
    ring

theorem Spec.Started.kept (S : Started debug L G axes T B P flow ops disk s disk') (hs : P.nstart = 0) : Kept L B s s := by
  refine ⟨rfl, ?_, 0, fun _ _ _ => (add_zero _).symm⟩
  obtain ⟨s₀, h1, h2⟩ := S.init
  obtain ⟨U, p, _, _, rfl⟩ := solverInit_ok h1
  unfold ioInitialData at h2
  rw [if_pos hs] at h2
  obtain ⟨d, _, h2⟩ := bind_ok h2
  cases h2
  exact fun r _ => rfl

theorem steady_run (S : Started debug L G axes T B P flow ops disk s disk') (hs : P.nstart = 0) (h0 : x 0 = s)
    (hx : Trajectory L G P ops vSolve pSolve x n) (hn : ∀ f d, f < L.dim → d < L.dim → L.periodic 0 d = true → 3 ≤ L.n f d)
    (hT : ∀ f loc, f < L.dim → loc / 2 = f → (T f loc).1 ≠ .NEUMANN) (hBN : GoodOrder L P ops.A) (hdt : 0 < P.dt) (hnu : 0 ≤ P.nu)
    (exactV : Solves L.UN vSolve ops.A) (exactP : Solves L.pN pSolve ops.DBNG) {V : ℕ → Stencil → K} {p : Stencil → K}
    (hV : Filled debug L s.B s.U V) (hp : Stored debug L 3 s.p p) (hmass : Solenoidal L G V) (hmom : Balanced L G axes P.nu V p)
    (hc : P.conv = eulerExplicit ∨ NoConvection L G V) (hd : P.diff ≠ adamsBashforth2 ∨ NoDiffusion L G V) {k : ℕ} (hk : k ≤ n) :
    Kept L B s (x k) := by
  induction k using Nat.strong_induction_on with
  | _ k ih =>
    cases k with
    | zero => rw [h0]; exact S.kept hs
    | succ k => exact steady_step S hs h0 hx hn hT hBN hdt hnu exactV exactP hV hp hmass hmom hc hd (by omega) fun m hm => ih m (by omega) (by omega)

end PetIBM
