/-
Runs that do not change any more (C94).
-/
import Verif.Props.MomentumBodies
import Verif.Props.Steady

set_option linter.unusedSectionVars false

namespace PetIBM

open Spec

section

variable {K : Type} [Field K] [LinearOrder K] [IsStrictOrderedRing K] {debug : Bool} {L : Layout} {G : Geom K} {axes : ℕ → Axis K}
  {T : BCTable K} {B : ℕ → Boundary K} {P : NSParams K} {flow : Option (FlowNode K)} {ops : NSOps K} {bodies : BodyPack K}
  {kernel : DeltaKernel K} {window : ℕ} {vSolve pSolve : LinSolve K} {disk disk' : Disk K} {n : ℕ}

/-- Every ghost point of a boundary with an equation is registered. -/
theorem face_point (C : Constructed debug L G axes T B) (h : List (Boundary.Op K)) {f loc : ℕ} (hf : f < L.dim) (hl : loc < L.dim * 2)
    (ht : (T f loc).1 ≠ .PERIODIC) {s t : Stencil} (hs : OnFace L.toMeshInfo f loc s) (hst : AcrossFace L.toMeshInfo f loc s t) :
    Inside L.toMeshInfo f t ∧ ∃ r b p, r < L.mpiSize ∧ Point ((B r).run h) f loc s b p := by
  have hd := C.setup.dim_le
  have hin : Inside L.toMeshInfo f t := by
    refine ⟨fun d hd => ?_, hst.2.2⟩
    have hpos := C.pos f d hf hd
    by_cases hdl : d = loc / 2
    · subst hdl
      rw [hst.1]
      split_ifs <;> omega
    · rw [hst.2.1 d hd hdl]
      exact hs.2.1 d hd hdl
  refine ⟨hin, ?_⟩
  obtain ⟨u, _, hu, rfl, rfl⟩ := exists_unknown C.setup.layout hf hin
  obtain ⟨e, hside⟩ := face_nbr (by omega) hs hst
  have hper : L.periodic 0 (loc / 2) = false := by
    by_contra hp
    exact ht ((C.table u.comp loc hf hl).2 (by simpa using hp))
  obtain ⟨b, p, hp⟩ := (C.ghosts h).covered u.comp loc u hu rfl hl hper hside
  refine ⟨u.rank, b, p, hu.2.2.2.2.1, ?_⟩
  rw [e]
  exact hp

theorem across_unique {M : MeshInfo} {f loc : ℕ} {s t t' : Stencil} (h : AcrossFace M f loc s t) (h' : AcrossFace M f loc s t') : t = t' := by
  apply stencil_ext
  · intro d hd
    by_cases hdl : d = loc / 2
    · subst hdl
      rw [h.1, h'.1]
    · rw [h.2.1 d hd hdl, h'.2.1 d hd hdl]
  · rw [h.2.2, h'.2.2]

/-- A field that the boundary keeps meets the boundary conditions at rest. -/
theorem kept_meets (C : Constructed debug L G axes T B) {h : List (Boundary.Op K)} (hi : Initialised h) {q q' : ℤ → K} (hj : JustRefreshed h q) {dt : K}
    (hdt : dt ≠ 0) (hT : ∀ f loc, f < L.dim → loc < L.dim * 2 → (T f loc).1 = .CONVECTIVE → (T f loc).2 ≠ 0) {V : ℕ → Stencil → K}
    (hV : Filled debug L (fun r => (B r).run h) q V)
    (hV' : Filled debug L (fun r => (B r).run (h ++ [.updateEqs q dt, .updateGhostValues q'])) q' V) : Meets debug L G T q V := by
  have hd := C.setup.dim_le
  refine ⟨hV.inside, hV.periodic, ?_, ?_, ?_⟩
  · intro f loc s t hf hl ht hs hst
    obtain ⟨hin, r, b, p, hr, hp⟩ := face_point C h hf hl (by rw [ht]; simp) hs hst
    obtain ⟨t', idx, ha, hidx, e⟩ := C14_dirichlet debug L C.setup.layout G (by norm_num) r T (B r) (C.init r hr) C.pos h hi q hj f loc ht s b p hp
    obtain rfl := across_unique hst ha
    rw [hV.ghost r f loc s b p hr hp, hV.inside f t idx hf hin hidx, e]
  · intro f loc s t hf hl ht hs hst
    obtain ⟨hin, r, b, p, hr, hp⟩ := face_point C h hf hl (by rw [ht]; simp) hs hst
    obtain ⟨t', idx, ha, hidx, e⟩ := C15_neumann debug L C.setup.layout G r T (B r) (C.init r hr) C.pos h hi q hj f loc ht s b p hp
    obtain rfl := across_unique hst ha
    rw [hV.ghost r f loc s b p hr hp, hV.inside f t idx hf hin hidx, e]
  · intro f loc s t hf hl ht hs hst
    obtain ⟨hin, r, b, p, hr, hp⟩ := face_point C h hf hl (by rw [ht]; simp) hs hst
    obtain ⟨b', p', hp', t', idx, ha, hidx, e⟩ := C16_convective debug L C.setup.layout G (by norm_num) r T (B r) (C.init r hr) C.pos h q q' dt f loc ht s b p hp
    obtain rfl := across_unique hst ha
    rw [← hV.ghost r f loc s b p hr hp, ← hV.inside f t idx hf hin hidx, ← hV'.ghost r f loc s b' p' hr hp', ← hV'.inside f t idx hf hin hidx] at e
    have hne : signedDistance G f loc s t ≠ 0 := by
      have := C15_distance_sign L G axes C.setup f loc hf hl s t hs hst (C.pos f _ hf (by omega))
      split_ifs at this <;> [exact ne_of_lt this; exact ne_of_gt this]
    have e : dt * (T f loc).2 * ((V f s - V f t) / signedDistance G f loc s t) = 0 := by linarith
    have e := (mul_eq_zero.1 e).resolve_left (mul_ne_zero hdt (hT f loc hf hl ht))
    have e := (div_eq_zero_iff.1 e).resolve_right hne
    linarith

/-- Two levels of equal terms. -/
theorem two_levels {C : TimeScheme K} (hc : C.explicitCoeffs.length ≤ 2) {k : ℕ} {g : ℕ → K} {c : K} (h0 : g k = c) (h1 : g (k + 1) = c) :
    ∑ m ∈ Finset.range (k + 1 + 1), levelWeight C (k + 1) m * g m = C.explicitCoeffs.sum * c := by
  rw [Finset.sum_range_succ, Finset.sum_range_succ, Finset.sum_eq_zero, h0, h1]
  · unfold levelWeight
    rw [show k + 1 - k = 1 by omega, show k + 1 - (k + 1) = 0 by omega]
    generalize C.explicitCoeffs = l at hc
    match l, hc with
    | [], _ => simp
    | [a], _ => simp
    | [a, b], _ => simp; ring
  · intro m hm
    have := Finset.mem_range.1 hm
    unfold levelWeight
    rw [List.getD_eq_getElem?_getD, List.getElem?_eq_none (by omega)]
    simp

/-- The momentum equation of a step that changes nothing. -/
theorem converged_momentum (C : Constructed debug L G axes T B) (hP : ∃ haveAmgX output node, readParams haveAmgX output node flow = .ok P)
    {u₀ : ℤ → K} {N : ℕ} {x : ℕ → NSState K} {k : ℕ} (R : ∀ m, m ≤ k + 1 → Reach L B P N u₀ (x m)) {q q' p' F : ℤ → K}
    (hq : ∀ i : ℤ, 0 ≤ i → i < L.UN → q' i = q i) {V : ℕ → Stencil → K}
    (hV : ∀ m, k ≤ m → m ≤ k + 1 → Filled debug L (x m).B (x m).U V)
    (hV' : Filled debug L (fun r => (((x (k + 1)).B r).updateEqs (x (k + 1)).U P.dt).updateGhostValues q') q' V) {p : Stencil → K}
    (hp : Stored debug L 3 p' p)
    (hmom : ∀ (V : ℕ → ℕ → Stencil → K) (W : ℕ → Stencil → K) (p : Stencil → K), (∀ m, m ≤ k + 1 → Filled debug L (x m).B (x m).U (V m)) →
      Extended debug L (fun r => ((x (k + 1)).B r).updateEqs (x (k + 1)).U P.dt) q W → Stored debug L 3 p' p →
      Momentum debug L G axes P (k + 1) V W p F) :
    SteadyMomentum debug L G axes P.nu (1 - P.conv.implicitCoeff) V p F := by
  have ex : ∀ m, ∃ W, m ≤ k + 1 → Filled debug L (x m).B (x m).U W := by
    intro m
    by_cases hm : m ≤ k + 1
    · obtain ⟨h, hB, -⟩ := (R m hm).hist
      obtain ⟨W, hW⟩ := exists_filled C.setup C.part (C.ghosts ([.setGhostICs u₀] ++ h)) (x m).U
      exact ⟨W, fun _ => by rw [hB]; exact hW⟩
    · exact ⟨fun _ _ => 0, fun h => absurd h hm⟩
  choose W hW using ex
  have hext : Extended debug L (fun r => ((x (k + 1)).B r).updateEqs (x (k + 1)).U P.dt) q V := by
    obtain ⟨h, hB, -⟩ := (R (k + 1) le_rfl).hist
    have e : (fun r => ((x (k + 1)).B r).updateEqs (x (k + 1)).U P.dt) = fun r => (B r).run ([.setGhostICs u₀] ++ h ++ [.updateEqs (x (k + 1)).U P.dt]) := by
      funext r
      rw [hB]
      simp only [Boundary.run, List.foldl_append, List.foldl_cons, List.foldl_nil, Boundary.step]
    have hV'' : Filled debug L (fun r => (B r).run (([.setGhostICs u₀] ++ h ++ [.updateEqs (x (k + 1)).U P.dt]) ++ [.updateGhostValues q'])) q' V := by
      convert hV' using 1
      funext r
      rw [hB]
      simp only [Boundary.run, List.foldl_append, List.foldl_cons, List.foldl_nil, Boundary.step]
    have key := filled_extended C _ hV''
    rw [e]
    refine ⟨fun f hf => ⟨fun s idx hs hi => ?_, (key.stored f hf).periodic⟩, key.ghost⟩
    have hc := col_inside C.setup.layout (Or.inl hf) debug hs
    rw [(key.stored f hf).inside s idx hs hi]
    obtain ⟨u, _, hu, rfl, rfl⟩ := exists_unknown C.setup.layout hf hs
    have hr := col_range C.setup.layout hu
    rw [hc.1] at hi
    cases hi
    exact hq _ hr.1 hr.2
  obtain ⟨⟨c1, c2⟩, d1, d2⟩ := params_levels hP
  intro u idx hu hidx
  have key := hmom (fun m => if k ≤ m then V else W m) V p (fun m hm => by
    show Filled debug L (x m).B (x m).U (if k ≤ m then V else W m)
    split_ifs with h
    · exact hV m h hm
    · exact hW m hm) hext hp u idx hu hidx
  unfold convectiveTerms viscousTerms at key
  rw [two_levels c1 (c := convective L.dim G (seenBy L u.rank V) u.comp ⟨u.k, u.j, u.i, 0⟩) (by simp) (by simp), c2,
    two_levels d1 (c := laplace L.dim G u.comp ⟨u.k, u.j, u.i, 0⟩ (V u.comp)) (by simp) (by simp), d2] at key
  simp only [show k ≤ k + 1 by omega, if_true, sub_self, zero_div] at key
  linear_combination key

/-- A constant change of the pressure changes no velocity. -/
theorem constant_increment (C : Constructed debug L G axes T B) (hn : ∀ f d, f < L.dim → d < L.dim → L.periodic 0 d = true → 3 ≤ L.n f d)
    {Gr BN : Mat K} (hG : createGradient debug L G false = .ok Gr) {φ : ℤ → K} {c : K} (h : ∀ i : ℤ, 0 ≤ i → i < L.pN → φ i = c) (i : ℤ) :
    Mat.mult L.pN (Mat.mul L.UN BN Gr) φ i = 0 := by
  rw [mult_mul, mult_congr (y := fun _ => 0) fun j j0 j1 => ?_]
  · unfold Mat.mult
    simp
  · refine gradient_const C.setup (fun f hf hp => ?_) hG (fun a b a0 a1 b0 b1 => by rw [h a a0 a1, h b b0 b1]) j0 j1
    have := hn f f hf hf hp
    have := C.setup.n_le f f hf (by have := C.setup.dim_le; omega)
    omega

/-- The boundary conditions of a step that changes nothing. -/
theorem converged_meets (C : Constructed debug L G axes T B) {u₀ : ℤ → K} {N : ℕ} {s : NSState K} (R : Reach L B P N u₀ s) (hdt : P.dt ≠ 0)
    (hT : ∀ f loc, f < L.dim → loc < L.dim * 2 → (T f loc).1 = .CONVECTIVE → (T f loc).2 ≠ 0) {V : ℕ → Stencil → K} {q' : ℤ → K}
    (hV : Filled debug L s.B s.U V) (hV' : Filled debug L (fun r => ((s.B r).updateEqs s.U P.dt).updateGhostValues q') q' V) :
    Meets debug L G T s.U V := by
  obtain ⟨h, hB, hj⟩ := R.hist
  refine kept_meets C (h := [.setGhostICs u₀] ++ h) ⟨u₀, h, rfl⟩ hj hdt hT (q' := q') (by rw [hB] at hV; exact hV) ?_
  convert hV' using 1
  funext r
  rw [hB]
  simp only [Boundary.run, List.foldl_append, List.foldl_cons, List.foldl_nil, Boundary.step]

/-! ### C94 -/

/-- C94. If velocity and ghost values are the same at three consecutive levels of a run and the pressure of the last two differs by a constant,
then the velocity satisfies the steady equations: the momentum equation, in which the convective term has the weight of the explicit part of
its scheme, zero divergence, and the boundary conditions at rest. Missing: periodic directions with fewer than three
cells; the pinned system, for which see `Props/Pinned.lean`. -/
theorem C94_converged_partial {s : NSState K} (S : Started debug L G axes T B P flow ops disk s disk') {x : ℕ → NSState K}
    (h0 : x 0 = s) (hx : Trajectory L G P ops vSolve pSolve x n) (hn : ∀ f d, f < L.dim → d < L.dim → L.periodic 0 d = true → 3 ≤ L.n f d)
    (hT : ∀ f loc, f < L.dim → loc < L.dim * 2 → (T f loc).1 = .CONVECTIVE → (T f loc).2 ≠ 0) (hdt : P.dt ≠ 0) (hpt : P.pType = .ksp)
    (exactV : Solves L.UN vSolve ops.A) (exactP : Solves L.pN pSolve ops.DBNG) {k : ℕ} (hk : k + 2 ≤ n) {V : ℕ → Stencil → K} {p : Stencil → K}
    (hV : ∀ m, k ≤ m → m ≤ k + 2 → Filled debug L (x m).B (x m).U V) (hp : Stored debug L 3 (x (k + 1)).p p)
    (hc : ∃ c, ∀ i : ℤ, 0 ≤ i → i < L.pN → (x (k + 2)).p i = (x (k + 1)).p i + c) :
    SteadyMomentum debug L G axes P.nu (1 - P.conv.implicitCoeff) V p (fun _ => 0) ∧ Solenoidal L G V ∧ Meets debug L G T (x (k + 1)).U V := by
  have C := S.constructed
  have hn2 : ∀ f, f < L.dim → L.periodic 0 f = true → 2 ≤ L.n f f := fun f hf hp => by have := hn f f hf hf hp; omega
  obtain ⟨u₀, hops, R⟩ := S.reach_at h0 hx
  obtain ⟨c, hc⟩ := hc
  have hB : (x (k + 2)).B = fun r => (((x (k + 1)).B r).updateEqs (x (k + 1)).U P.dt).updateGhostValues (x (k + 2)).U := by
    obtain ⟨w, U, dP, _, _, _, _, _, _, _, _, h9, _⟩ := advance_ok C S.schemes.1.1 S.schemes.2.1 (R (k + 1) (by omega)) (hx (k + 1) (by omega))
    exact h9
  have hV' := hV (k + 2) (by omega) le_rfl
  rw [hB] at hV'
  refine ⟨?_, fun c hc => C42_divergence_free_partial S h0 hx hn2 hpt exactP (k + 1) (by omega) V (hV (k + 2) (by omega) le_rfl) c hc,
    converged_meets C (R (k + 1) (by omega)) hdt hT (hV (k + 1) (by omega) (by omega)) hV'⟩
  obtain ⟨q, φ, e1, e2, e3⟩ := C59_momentum_seen_partial S h0 hx hn exactV (k + 1) (by omega) (remembers_next S.params S.schemes.1.1 S.schemes.2.1 k)
  obtain ⟨D, Dm, Gr, La, Lm, BN, o1, o2, o3, o4, eops⟩ := createOperators_ok hops
  refine converged_momentum (q := q) (q' := (x (k + 2)).U) C S.params (fun m hm => R m (by omega)) (fun i i0 i1 => ?_)
    (fun m h1 h2 => hV m h1 (by omega)) hV' hp ?_
  · rw [e1 i i0 i1, show ops.BNG = Mat.mul L.UN BN Gr by rw [eops], constant_increment C hn o2 (c := c) fun j j0 j1 => ?_, sub_zero]
    have a := e2 j j0 j1
    have b := hc j j0 j1
    rw [a] at b
    linarith
  · intro V W p hV hW hp u idx hu hidx
    have := e3 V W p hV hW hp u idx hu hidx
    unfold convectiveTerms viscousTerms pressureSlope laplace
    rw [this]
    ring

/-- C94. With an explicit scheme for the convective terms the momentum is balanced, so that the state is a steady state in the sense of C86.
Missing: as for `C94_converged_partial`. -/
theorem C94_balanced_partial {s : NSState K} (S : Started debug L G axes T B P flow ops disk s disk') {x : ℕ → NSState K}
    (h0 : x 0 = s) (hx : Trajectory L G P ops vSolve pSolve x n) (hn : ∀ f d, f < L.dim → d < L.dim → L.periodic 0 d = true → 3 ≤ L.n f d)
    (hT : ∀ f loc, f < L.dim → loc < L.dim * 2 → (T f loc).1 = .CONVECTIVE → (T f loc).2 ≠ 0) (hdt : P.dt ≠ 0) (hpt : P.pType = .ksp)
    (hconv : P.conv = eulerExplicit ∨ P.conv = adamsBashforth2)
    (exactV : Solves L.UN vSolve ops.A) (exactP : Solves L.pN pSolve ops.DBNG) {k : ℕ} (hk : k + 2 ≤ n) {V : ℕ → Stencil → K} {p : Stencil → K}
    (hV : ∀ m, k ≤ m → m ≤ k + 2 → Filled debug L (x m).B (x m).U V) (hp : Stored debug L 3 (x (k + 1)).p p)
    (hc : ∃ c, ∀ i : ℤ, 0 ≤ i → i < L.pN → (x (k + 2)).p i = (x (k + 1)).p i + c) : Balanced L G axes P.nu V p := by
  have key := (C94_converged_partial S h0 hx hn hT hdt hpt exactV exactP hk hV hp hc).1
  intro u hu
  have := key u _ hu (col_inside S.constructed.setup.layout (Or.inl hu.1) debug hu.inside).1
  rw [show P.conv.implicitCoeff = 0 by rcases hconv with h | h <;> rw [h] <;> rfl] at this
  linear_combination this

/-- C94. The decoupled solver: if also the forces do not change, the velocity satisfies the steady equations with the spread forces, and it
vanishes at the points of the bodies. Missing: as for `C94_converged_partial`. -/
theorem C94_decoupled_partial {ib : IBOps K} {s : IBState K} (S : IBStarted debug L G axes T B P flow bodies kernel window ops ib disk s disk')
    {fSolve : LinSolve K} {x : ℕ → IBState K} (h0 : x 0 = s) (hx : IBTrajectory L G P ops ib vSolve fSolve pSolve x n)
    (hn : ∀ f d, f < L.dim → d < L.dim → L.periodic 0 d = true → 3 ≤ L.n f d)
    (hT : ∀ f loc, f < L.dim → loc < L.dim * 2 → (T f loc).1 = .CONVECTIVE → (T f loc).2 ≠ 0) (hdt : P.dt ≠ 0) (hpt : P.pType = .ksp)
    (exactV : Solves L.UN vSolve ops.A) (exactF : Solves ib.nF fSolve ib.EBNH) (exactP : Solves L.pN pSolve ops.DBNG) {k : ℕ} (hk : k + 2 ≤ n)
    {V : ℕ → Stencil → K} {p : Stencil → K} (hV : ∀ m, k ≤ m → m ≤ k + 2 → Filled debug L (x m).ns.B (x m).ns.U V)
    (hp : Stored debug L 3 (x (k + 1)).ns.p p) (hc : ∃ c, ∀ i : ℤ, 0 ≤ i → i < L.pN → (x (k + 2)).ns.p i = (x (k + 1)).ns.p i + c)
    (hf : ∀ i : ℤ, 0 ≤ i → i < (bodies.nPts * bodies.dim : ℕ) → (x (k + 2)).f i = (x (k + 1)).f i) {vol : ℤ → K} (hvol : IsVolume debug L G vol) :
    ∃ Δ, IsDelta debug L axes B bodies kernel window Δ ∧
      SteadyMomentum debug L G axes P.nu (1 - P.conv.implicitCoeff) V p (spread (bodies.nPts * bodies.dim) Δ (x (k + 1)).f) ∧
      Solenoidal L G V ∧ Meets debug L G T (x (k + 1)).ns.U V ∧
      ∀ row : ℤ, 0 ≤ row → row < (bodies.nPts * bodies.dim : ℕ) → interpolated L.UN Δ vol (x (k + 2)).ns.U row = 0 := by
  have C := S.constructed
  have F := S.started
  have hn2 : ∀ f, f < L.dim → L.periodic 0 f = true → 2 ≤ L.n f f := fun f hf hp => by have := hn f f hf hf hp; omega
  obtain ⟨u₀, hops, R⟩ := S.reach_at h0 hx
  obtain ⟨Δ₁, BN₁, i1, iBN, i2, i3, i4, i5, i6⟩ := S.operators
  obtain ⟨c, hc⟩ := hc
  obtain ⟨D, Dm, Gr, La, Lm, BN, o1, o2, o3, o4, eops⟩ := createOperators_ok hops
  have hB : (x (k + 2)).ns.B = fun r => (((x (k + 1)).ns.B r).updateEqs (x (k + 1)).ns.U P.dt).updateGhostValues (x (k + 2)).ns.U := by
    obtain ⟨w, Us, df, _, _, _, ha, _⟩ := decoupled_ok C F.schemes.1.1 F.schemes.2.1 (R (k + 1) (by omega)) (hx (k + 1) (by omega))
    obtain ⟨w, U, dP, _, _, _, _, _, _, _, _, h9, _⟩ := advance_ok C F.schemes.1.1 F.schemes.2.1 (R (k + 1) (by omega)) ha
    exact h9
  have hV' := hV (k + 2) (by omega) le_rfl
  rw [hB] at hV'
  have zero : ∀ φ : ℤ → K, (∀ i : ℤ, 0 ≤ i → i < L.pN → (x (k + 2)).ns.p i = (x (k + 1)).ns.p i + φ i) → ∀ i, Mat.mult L.pN ops.BNG φ i = 0 := by
    intro φ e2 i
    rw [show ops.BNG = Mat.mul L.UN BN Gr by rw [eops], constant_increment C hn o2 (c := c) fun j j0 j1 => ?_]
    have a := e2 j j0 j1
    have b := hc j j0 j1
    rw [a] at b
    linarith
  obtain ⟨Δ, hΔ, key⟩ := C59_decoupled_partial S h0 hx hn exactV
  obtain ⟨q, φ, e1, e2, e3⟩ := key (k + 1) (by omega) (remembers_next F.params F.schemes.1.1 F.schemes.2.1 k)
  obtain ⟨Δ', hΔ', slip⟩ := C44_decoupled S h0 hx exactF hvol
  have eΔ : Δ' = Δ := by
    obtain ⟨idx, a, b⟩ := hΔ
    obtain ⟨idx', a', b'⟩ := hΔ'
    rw [a] at a'
    cases a'
    rw [b] at b'
    exact (Except.ok.inj b').symm
  subst eΔ
  refine ⟨Δ', hΔ, ?_, fun c hc => C44_decoupled_divergence_free_partial S h0 hx exactP hn2 hpt (k + 1) (by omega) V (hV (k + 2) (by omega) le_rfl) c hc,
    converged_meets C (R (k + 1) (by omega)) hdt hT (hV (k + 1) (by omega) (by omega)) hV', ?_⟩
  · refine converged_momentum (x := fun m => (x m).ns) (q := q) (q' := (x (k + 2)).ns.U) C S.params (fun m hm => R m (by omega)) (fun i i0 i1 => ?_)
      (fun m h1 h2 => hV m h1 (by omega)) hV' hp e3
    rw [e1 i i0 i1, zero φ e2, mult_congr (y := fun _ => 0) fun j j0 j1 => ?_]
    · unfold Mat.mult
      simp
    · rw [i2] at j1
      rw [hf j j0 j1, sub_self]
  · intro row r0 r1
    obtain ⟨_, _, _, φ', _, _, _, e4, e5⟩ := slip (k + 1) (by omega)
    rw [e5 row r0 r1]
    unfold interpolated
    simp only [zero φ' e4]
    simp

/-- C94. Prescribed motion, for instance a rotating cylinder: if velocity and forces do not change any more, the velocity satisfies the
steady equations with the forces spread from the present points, and it is the prescribed velocity at these points. Missing: as for
`C94_converged_partial`. -/
theorem C94_moving_partial {M : Motion K} {s : RigidState K} (S : RigidStarted debug L G axes T B P flow bodies M kernel window ops disk s disk')
    {fSolve : LinSolve K} {x : ℕ → RigidState K} (h0 : x 0 = s)
    (hx : RigidTrajectory debug L G axes P ops M kernel window vSolve fSolve pSolve x n)
    (hn : ∀ f d, f < L.dim → d < L.dim → L.periodic 0 d = true → 3 ≤ L.n f d)
    (hT : ∀ f loc, f < L.dim → loc < L.dim * 2 → (T f loc).1 = .CONVECTIVE → (T f loc).2 ≠ 0) (hdt : P.dt ≠ 0)
    (exactV : Solves L.UN vSolve ops.A) {k : ℕ} (hk : k + 2 ≤ n) (exactF : ∀ A, Solves (x (k + 2)).ib.nF fSolve A)
    {V : ℕ → Stencil → K} {p : Stencil → K} (hV : ∀ m, k ≤ m → m ≤ k + 2 → Filled debug L (x m).ns.B (x m).ns.U V)
    (hp : Stored debug L 3 (x (k + 1)).ns.p p) (hc : ∃ c, ∀ i : ℤ, 0 ≤ i → i < L.pN → (x (k + 2)).ns.p i = (x (k + 1)).ns.p i + c)
    (hf : ∀ i : ℤ, 0 ≤ i → i < ((x (k + 2)).bodies.nPts * (x (k + 2)).bodies.dim : ℕ) → (x (k + 2)).f i = (x (k + 1)).f i) {vol : ℤ → K}
    (hvol : IsVolume debug L G vol) :
    ∃ Δ, IsDelta debug L axes B (x (k + 2)).bodies kernel window Δ ∧
      SteadyMomentum debug L G axes P.nu (1 - P.conv.implicitCoeff) V p
        (spread ((x (k + 2)).bodies.nPts * (x (k + 2)).bodies.dim) Δ (x (k + 1)).f) ∧
      Meets debug L G T (x (k + 1)).ns.U V ∧
      ∀ row : ℤ, 0 ≤ row → row < ((x (k + 2)).bodies.nPts * (x (k + 2)).bodies.dim : ℕ) →
        interpolated L.UN Δ vol (x (k + 2)).ns.U row = (x (k + 2)).UB row := by
  have C := S.started.constructed
  have F := S.started.started
  obtain ⟨u₀, hops, R⟩ := S.reach_at h0 hx
  obtain ⟨c, hc⟩ := hc
  obtain ⟨D, Dm, Gr, La, Lm, BN, o1, o2, o3, o4, eops⟩ := createOperators_ok hops
  obtain ⟨_, _, ⟨idx, hi, hE⟩, hadv⟩ := rigid_ok (hx (k + 1) (by omega))
  have hB : (x (k + 2)).ns.B = fun r => (((x (k + 1)).ns.B r).updateEqs (x (k + 1)).ns.U P.dt).updateGhostValues (x (k + 2)).ns.U := by
    obtain ⟨w, Us, df, _, _, _, ha, _⟩ := decoupled_ok C F.schemes.1.1 F.schemes.2.1 (R (k + 1) (by omega)).1 hadv
    obtain ⟨w, U, dP, _, _, _, _, _, _, _, _, h9, _⟩ := advance_ok C F.schemes.1.1 F.schemes.2.1 (R (k + 1) (by omega)).1 ha
    exact h9
  have hV' := hV (k + 2) (by omega) le_rfl
  rw [hB] at hV'
  have zero : ∀ φ : ℤ → K, (∀ i : ℤ, 0 ≤ i → i < L.pN → (x (k + 2)).ns.p i = (x (k + 1)).ns.p i + φ i) → ∀ i, Mat.mult L.pN ops.BNG φ i = 0 := by
    intro φ e2 i
    rw [show ops.BNG = Mat.mul L.UN BN Gr by rw [eops], constant_increment C hn o2 (c := c) fun j j0 j1 => ?_]
    have a := e2 j j0 j1
    have b := hc j j0 j1
    rw [a] at b
    linarith
  have hnF : (x (k + 2)).ib.nF = (x (k + 2)).bodies.nPts * (x (k + 2)).bodies.dim := by
    obtain ⟨hh, hB', -⟩ := (R (k + 1) (by omega)).1.hist
    rw [hB'] at hE
    obtain ⟨Δ, BN', h1, hBN', h2, _⟩ := createExtra_ok C hi hE
    exact h2
  obtain ⟨Δ, q, φ, hΔ, e1, e2, e3⟩ := C59_moving_partial S h0 hx hn exactV (k + 1) (by omega) (remembers_next F.params F.schemes.1.1 F.schemes.2.1 k)
  obtain ⟨_, _, Δ', _, _, _, φ', hΔ', _, _, _, e4, e5⟩ := C44_prescribed_motion S h0 hx hvol (k + 1) (by omega) exactF
  have eΔ : Δ' = Δ := by
    obtain ⟨idx, a, b⟩ := hΔ
    obtain ⟨idx', a', b'⟩ := hΔ'
    rw [a] at a'
    cases a'
    rw [b] at b'
    exact (Except.ok.inj b').symm
  subst eΔ
  refine ⟨Δ', hΔ, ?_, converged_meets C (R (k + 1) (by omega)).1 hdt hT (hV (k + 1) (by omega) (by omega)) hV', ?_⟩
  · refine converged_momentum (x := fun m => (x m).ns) (q := q) (q' := (x (k + 2)).ns.U) C S.started.params (fun m hm => (R m (by omega)).1)
      (fun i i0 i1 => ?_) (fun m h1 h2 => hV m h1 (by omega)) hV' hp e3
    rw [e1 i i0 i1, zero φ e2, mult_congr (y := fun _ => 0) fun j j0 j1 => ?_]
    · unfold Mat.mult
      simp
    · have j1 : j < ((x (k + 2)).ib.nF : ℤ) := j1
      rw [hnF] at j1
      rw [hf j j0 j1, sub_self]
  · intro row r0 r1
    rw [e5 row r0 r1]
    unfold interpolated
    simp only [zero φ' e4]
    simp

/-- C94. The coupled solver, with the parts of the composite vector. Missing: as for `C94_converged_partial`. -/
theorem C94_coupled_partial {s : NSState K} (S : CoupledStarted debug L G axes T B P flow bodies kernel window ops disk s disk')
    {x : ℕ → NSState K} (h0 : x 0 = s) (hx : CoupledTrajectory L G P (nestCounts L bodies) ops vSolve pSolve x n)
    (hn : ∀ f d, f < L.dim → d < L.dim → L.periodic 0 d = true → 3 ≤ L.n f d)
    (hT : ∀ f loc, f < L.dim → loc < L.dim * 2 → (T f loc).1 = .CONVECTIVE → (T f loc).2 ≠ 0) (hdt : P.dt ≠ 0) (hpt : P.pType = .ksp)
    (exactV : Solves L.UN vSolve ops.A) (exactP : Solves ops.pN pSolve ops.DBNG) {k : ℕ} (hk : k + 2 ≤ n)
    {V : ℕ → Stencil → K} {p : Stencil → K} (hV : ∀ m, k ≤ m → m ≤ k + 2 → Filled debug L (x m).B (x m).U V)
    (hp : Stored debug L 3 (subPressure (nestCounts L bodies) (x (k + 1)).p) p)
    (hc : ∃ c, ∀ i : ℕ, i < L.pN → subPressure (nestCounts L bodies) (x (k + 2)).p i = subPressure (nestCounts L bodies) (x (k + 1)).p i + c)
    (hf : ∀ i : ℕ, i < bodies.nPts * bodies.dim → subForces (nestCounts L bodies) (x (k + 2)).p i = subForces (nestCounts L bodies) (x (k + 1)).p i)
    {vol : ℤ → K} (hvol : IsVolume debug L G vol) :
    ∃ Δ, IsDelta debug L axes B bodies kernel window Δ ∧
      SteadyMomentum debug L G axes P.nu (1 - P.conv.implicitCoeff) V p
        (spread (bodies.nPts * bodies.dim) Δ (subForces (nestCounts L bodies) (x (k + 1)).p)) ∧
      Solenoidal L G V ∧ Meets debug L G T (x (k + 1)).U V ∧
      ∀ row, row < bodies.nPts * bodies.dim → interpolated L.UN Δ vol (x (k + 2)).U row = 0 := by
  have C := S.constructed
  have hn2 : ∀ f, f < L.dim → L.periodic 0 f = true → 2 ≤ L.n f f := fun f hf hp => by have := hn f f hf hf hp; omega
  obtain ⟨u₀, E, H, hops, R⟩ := S.reach_at h0 hx
  obtain ⟨c, hc⟩ := hc
  obtain ⟨D, Dm, Gr, La, Lm, BN, idx, o1, o2, o3, o4, o5, o6, eops⟩ := ibpmCreate_ok hops
  have hcount := sum_counts C.setup.layout S.fit
  obtain ⟨Δ, hΔ, key⟩ := C59_coupled_partial S h0 hx hn exactV
  obtain ⟨Δ', hΔ', slip⟩ := C44_coupled_no_slip S h0 hx exactP (Or.inl hpt) hvol
  have eΔ : Δ' = Δ := by
    obtain ⟨idx, a, b⟩ := hΔ
    obtain ⟨idx', a', b'⟩ := hΔ'
    rw [a] at a'
    cases a'
    rw [b] at b'
    exact (Except.ok.inj b').symm
  subst eΔ
  obtain ⟨q, φ, e1, e2, hB, e3⟩ := key (k + 1) (by omega) (remembers_next S.params S.schemes.1.1 S.schemes.2.1 k)
  have hV' := hV (k + 2) (by omega) le_rfl
  rw [hB] at hV'
  refine ⟨Δ', hΔ, ?_, fun c hc => C44_coupled_divergence_free_partial S h0 hx exactP hn2 hpt (k + 1) (by omega) V (hV (k + 2) (by omega) le_rfl) c hc,
    converged_meets C (R (k + 1) (by omega)) hdt hT (hV (k + 1) (by omega) (by omega)) hV', slip (k + 1) (by omega)⟩
  refine converged_momentum (q := q) (q' := (x (k + 2)).U) C S.params (fun m hm => R m (by omega)) (fun i i0 i1 => ?_)
      (fun m h1 h2 => hV m h1 (by omega)) hV' hp e3
  rw [e1 i i0 i1]
  obtain ⟨Gr', Δ₂, hG', hΔ₂, hr⟩ := coupled_gradient S
  have hpN : ops.pN = L.pN + bodies.nPts * bodies.dim := by rw [eops]
  have inc : ∀ a : ℤ, 0 ≤ a → a < ops.pN → φ a = (x (k + 2)).p a - (x (k + 1)).p a := fun a a0 a1 => by
    have := e2 a a0 a1
    rw [this]; ring
  have hz : ∀ j : ℤ, 0 ≤ j → j < L.UN → Mat.mult ops.pN ops.G φ j = 0 := by
    intro j j0 j1
    rw [hr]
    unfold reaction
    have z1 : Mat.mult L.pN Gr' (subPressure (nestCounts L bodies) φ) j = 0 := by
      refine gradient_const C.setup (fun f hf hp => ?_) hG' (fun a b a0 a1 b0 b1 => ?_) j0 j1
      · have := hn f f hf hf hp
        have := C.setup.n_le f f hf (by have := C.setup.dim_le; omega)
        omega
      · have z : ∀ a : ℤ, 0 ≤ a → a < L.pN → subPressure (nestCounts L bodies) φ a = c := by
          intro a a0 a1
          obtain ⟨a, rfl⟩ := Int.eq_ofNat_of_zero_le a0
          have := hc a (by omega)
          rw [subPressure_at, subPressure_at] at this
          rw [subPressure_at, inc _ (by omega) ?_, this]
          · ring
          · have := ((nestSplit_pos (nestCounts L bodies) 0 0).1 a (by omega)).2
            omega
        rw [z a a0 a1, z b b0 b1]
    have z2 : spread (bodies.nPts * bodies.dim) Δ₂ (subForces (nestCounts L bodies) φ) j = 0 := by
      unfold spread
      refine Finset.sum_eq_zero fun b hb => ?_
      have hb := Finset.mem_range.1 hb
      have := hf b hb
      rw [subForces_at, subForces_at] at this
      rw [subForces_at, inc _ (by omega) ?_, this, sub_self, mul_zero]
      have := ((nestSplit_pos (nestCounts L bodies) 0 0).2 b (by omega)).2
      omega
    rw [z1, z2, sub_zero]
  have : Mat.mult ops.pN ops.BNG φ i = 0 := by
    rw [show ops.BNG = Mat.mul L.UN BN ops.G by rw [eops], mult_mul, mult_congr (y := fun _ => 0) fun j j0 j1 => hz j j0 j1]
    unfold Mat.mult
    simp
  rw [this, sub_zero]

end

end PetIBM
