/-
Runs of the solvers with immersed bodies.
-/
import Verif.Lemmas.Ibpm
import Verif.Props.Delta
import Verif.Props.Poisson

set_option linter.unusedSectionVars false

namespace PetIBM

open Spec

variable {K : Type} [Field K] [LinearOrder K] [IsStrictOrderedRing K]
variable {debug : Bool} {L : Layout} {G : Geom K} {axes : ℕ → Axis K} {T : BCTable K} {B : ℕ → Boundary K}
variable {P : NSParams K} {flow : Option (FlowNode K)} {bodies : BodyPack K} {kernel : DeltaKernel K} {window : ℕ} {ops : NSOps K}
variable {ib : IBOps K} {disk disk' : Disk K}

/-- The values of the boundaries do not matter for the delta operator. -/
theorem createDelta_run (C : Constructed debug L G axes T B) (hist : List (Boundary.Op K)) (bodies : BodyPack K)
    (meshIdx : ℕ → ℕ → List (List ℤ)) (kernel : DeltaKernel K) (w : ℕ) :
    createDelta debug L axes (fun r => (B r).run hist) bodies meshIdx kernel w = createDelta debug L axes B bodies meshIdx kernel w := by
  apply createDelta_congr
  intro r d hr hd
  rw [deltaPeriodic_run C hist hr (by omega)]
  exact (deltaPeriodic_run C [] hr (by omega)).symm

/-- what `createExtraOperators` gives -/
theorem createExtra_ok (C : Constructed debug L G axes T B) {hist : List (Boundary.Op K)} {idx : List (List (List (List ℤ)))}
    (hidx : bodies.updateMeshIdx axes = .ok idx)
    (h : createExtraOperators debug L G axes P ops (fun r => (B r).run hist) bodies (meshIdxAt idx) kernel window = .ok ib) :
    ∃ Δ BN, IsDelta debug L axes B bodies kernel window Δ ∧ createBnHead L.UN ops.L P.dt (P.diff.implicitCoeff * P.nu) P.BN = .ok BN ∧
      ib.nF = bodies.nPts * bodies.dim ∧ ib.H = Mat.transpose Δ ∧
      (∀ vol, IsVolume debug L G vol → ∀ i c : ℤ, 0 ≤ c → c < L.UN → ib.E i c = Δ i c * vol c) ∧
      ib.BNH = Mat.mul L.UN BN ib.H ∧ ib.EBNH = Mat.mul L.UN ib.E ib.BNH := by
  obtain ⟨⟨E, H⟩, h1, h⟩ := bind_ok h
  obtain ⟨BN, h2, h⟩ := bind_ok h
  cases h
  obtain ⟨Δ, h3, h4, h5⟩ := createEH_ok C.setup h1
  rw [createDelta_run C] at h3
  exact ⟨Δ, BN, ⟨idx, hidx, h3⟩, h2, rfl, h4, h5, rfl, rfl⟩

/-! ### The decoupled solver -/

theorem Spec.IBStarted.started {s : IBState K} (S : IBStarted debug L G axes T B P flow bodies kernel window ops ib disk s disk') :
    Started debug L G axes T B P flow ops disk s.ns disk' := by
  refine ⟨S.constructed, S.params, ?_⟩
  obtain ⟨s₀, h1, h2⟩ := S.init
  obtain ⟨⟨ops', ns⟩, h3, h1⟩ := bind_ok h1
  obtain ⟨idx, h4, h1⟩ := bind_ok h1
  obtain ⟨ib', h5, h1⟩ := bind_ok h1
  cases h1
  refine ⟨ns, h3, ?_⟩
  unfold decoupledIoInitialData at h2
  unfold ioInitialData
  split_ifs at h2 ⊢
  · obtain ⟨d, h6, h2⟩ := bind_ok h2
    cases h2
    rw [h6]
    rfl
  · obtain ⟨s', h6, h2⟩ := bind_ok h2
    cases h2
    obtain ⟨ns', h7, h6⟩ := bind_ok h6
    obtain ⟨f, h8, h6⟩ := bind_ok h6
    rw [h7]
    split at h6
    · cases h6
      rfl
    · cases h6

theorem Spec.IBStarted.operators {s : IBState K} (S : IBStarted debug L G axes T B P flow bodies kernel window ops ib disk s disk') :
    ∃ Δ BN, IsDelta debug L axes B bodies kernel window Δ ∧ createBnHead L.UN ops.L P.dt (P.diff.implicitCoeff * P.nu) P.BN = .ok BN ∧
      ib.nF = bodies.nPts * bodies.dim ∧ ib.H = Mat.transpose Δ ∧
      (∀ vol, IsVolume debug L G vol → ∀ i c : ℤ, 0 ≤ c → c < L.UN → ib.E i c = Δ i c * vol c) ∧
      ib.BNH = Mat.mul L.UN BN ib.H ∧ ib.EBNH = Mat.mul L.UN ib.E ib.BNH := by
  obtain ⟨s₀, h1, h2⟩ := S.init
  obtain ⟨⟨ops', ns⟩, h3, h1⟩ := bind_ok h1
  obtain ⟨idx, h4, h1⟩ := bind_ok h1
  obtain ⟨ib', h5, h1⟩ := bind_ok h1
  cases h1
  obtain ⟨U, p, _, _, rfl⟩ := solverInit_ok h3
  exact createExtra_ok S.constructed h4 h5

/-- the invariant along a run -/
theorem Spec.IBStarted.reach_at {s : IBState K} (S : IBStarted debug L G axes T B P flow bodies kernel window ops ib disk s disk')
    {vSolve fSolve pSolve : LinSolve K} {x : ℕ → IBState K} {n : ℕ} (h0 : x 0 = s)
    (hx : IBTrajectory L G P ops ib vSolve fSolve pSolve x n) :
    ∃ u, createOperators debug L G P (fun r => (B r).run [.setGhostICs u]) = .ok ops ∧ ∀ k, k ≤ n → Reach L B P ops.pN u (x k).ns := by
  have F := S.started
  obtain ⟨u, h1, R⟩ := F.reach
  refine ⟨u, h1, ?_⟩
  intro k
  induction k with
  | zero => intro _; rw [h0]; exact R
  | succ k ih =>
    intro hk
    have R := ih (by omega)
    obtain ⟨w, Us, df, _, _, _, h, _⟩ := decoupled_ok S.constructed F.schemes.1.1 F.schemes.2.1 R (hx k (by omega))
    exact R.step S.constructed F.schemes.1.1 F.schemes.2.1 h

/-- one step of the decoupled solvers: no slip after the force step, and the divergence -/
theorem decoupled_step (C : Constructed debug L G axes T B) (hc : P.conv.explicitCoeffs.length = P.conv.nExplicit)
    (hd : P.diff.explicitCoeffs.length = P.diff.nExplicit) {u : ℤ → K}
    (hops : createOperators debug L G P (fun r => (B r).run [.setGhostICs u]) = .ok ops) {UB : Option (ℤ → K)}
    {vSolve fSolve pSolve : LinSolve K} {s s' : IBState K} (R : Reach L B P ops.pN u s.ns)
    (h : decoupledAdvance L G P ops ib UB vSolve fSolve pSolve s = .ok s') {Δ : Mat K}
    (hE : ∀ vol, IsVolume debug L G vol → ∀ i c : ℤ, 0 ≤ c → c < L.UN → ib.E i c = Δ i c * vol c)
    (hEBNH : ib.EBNH = Mat.mul L.UN ib.E ib.BNH) (exact : Solves ib.nF fSolve ib.EBNH) {vol : ℤ → K} (hvol : IsVolume debug L G vol) :
    ∃ rhs Us U φ, vSolve ops.A s.ns.U rhs = .ok Us ∧
      (∀ i : ℤ, 0 ≤ i → i < L.UN → U i = Us i + Mat.mult ib.nF ib.BNH (fun k => s'.f k - s.f k) i) ∧
      (∀ row : ℤ, 0 ≤ row → row < ib.nF → interpolated L.UN Δ vol U row = match UB with | none => 0 | some ub => ub row) ∧
      (∀ i : ℤ, 0 ≤ i → i < L.pN → s'.ns.p i = s.ns.p i + φ i) ∧
      (∀ i : ℤ, 0 ≤ i → i < L.UN → s'.ns.U i = U i - Mat.mult L.pN ops.BNG φ i) := by
  obtain ⟨w, Us, df, h1, h2, h3, h4, h5, h6⟩ := decoupled_ok C hc hd R h
  obtain ⟨w', U, dP, _, e2, e3, e4, e5, e6, _⟩ := advance_ok C hc hd R h4
  have e2 := Except.ok.inj e2
  have hpN := createOperators_pN hops
  have hdf : ∀ i : ℤ, 0 ≤ i → i < ib.nF → (fun k => s'.f k - s.f k) i = df i := by
    intro i i0 i1
    simp only [h5]
    rw [vec, if_pos ⟨i0, i1⟩]
    ring
  have hU : ∀ i : ℤ, 0 ≤ i → i < L.UN → U i = Us i + Mat.mult ib.nF ib.BNH (fun k => s'.f k - s.f k) i := by
    intro i i0 i1
    rw [← e2]
    simp only [vec, if_pos (show 0 ≤ i ∧ i < (L.UN : ℤ) from ⟨i0, i1⟩)]
    congr 1
    rw [mult_congr hdf]
    exact mult_vec _ _ _ _
  refine ⟨_, Us, U, dP, h2, hU, ?_, ?_, ?_⟩
  · intro row r0 r1
    have hs := exact _ _ _ h3 row r0 r1
    have e : interpolated L.UN Δ vol U row = Mat.mult L.UN ib.E U row :=
      (interpolated_eq (fun c c0 c1 => hE vol hvol row c c0 c1) U).symm
    rw [e, mult_congr hU]
    have split : Mat.mult L.UN ib.E (fun i => Us i + Mat.mult ib.nF ib.BNH (fun k => s'.f k - s.f k) i) row =
        Mat.mult L.UN ib.E Us row + Mat.mult ib.nF ib.EBNH df row := by
      rw [hEBNH, mult_mul]
      unfold Mat.mult
      rw [← Finset.sum_add_distrib]
      refine Finset.sum_congr rfl fun c _ => ?_
      rw [mul_add]
      congr 2
      refine Finset.sum_congr rfl fun j hj => ?_
      rw [← hdf j (by omega) (by have := Finset.mem_range.1 hj; omega)]
    rw [split, hs]
    unfold assembleRHSForces
    have e' : vec ib.nF (Mat.mult L.UN ib.E (vec L.UN Us)) row = Mat.mult L.UN ib.E Us row := by
      rw [vec, if_pos ⟨r0, r1⟩, mult_vec]
    cases UB with
    | none => simp only [e']; ring
    | some ub => simp only [e']; ring
  · intro i i0 i1
    rw [e5]
    simp only [vec, hpN, if_pos (show 0 ≤ i ∧ i < (L.pN : ℤ) from ⟨i0, i1⟩), one_mul]
  · intro i i0 i1
    rw [e4]
    unfold projected
    rw [vec, vec, if_pos ⟨i0, i1⟩, if_pos ⟨i0, i1⟩, hpN, mult_vec]
    ring

/-! ### Prescribed motion -/

/-- one step with prescribed motion -/
theorem rigid_ok {M : Motion K} {vSolve fSolve pSolve : LinSolve K} {s s' : RigidState K}
    (h : rigidAdvance debug L G axes P ops M kernel window vSolve fSolve pSolve s = .ok s') :
    s'.bodies = M.coordinates (s.ns.t + P.dt) s.bodies ∧ s'.UB = M.velocity (s.ns.t + P.dt) s'.bodies s.UB ∧
      (∃ idx, s'.bodies.updateMeshIdx axes = .ok idx ∧
        createExtraOperators debug L G axes P ops s.ns.B s'.bodies (meshIdxAt idx) kernel window = .ok s'.ib) ∧
      decoupledAdvance L G P ops s'.ib (some s'.UB) vSolve fSolve pSolve s.toIBState = .ok s'.toIBState := by
  obtain ⟨s₁, h1, h⟩ := bind_ok h
  obtain ⟨st, h2, h⟩ := bind_ok h
  cases h
  obtain ⟨idx, h3, h1⟩ := bind_ok h1
  obtain ⟨ib, h4, h1⟩ := bind_ok h1
  cases h1
  exact ⟨rfl, rfl, ⟨idx, h3, h4⟩, h2⟩

theorem Spec.RigidStarted.reach_at {M : Motion K} {s : RigidState K}
    (S : RigidStarted debug L G axes T B P flow bodies M kernel window ops disk s disk') {vSolve fSolve pSolve : LinSolve K}
    {x : ℕ → RigidState K} {n : ℕ} (h0 : x 0 = s)
    (hx : RigidTrajectory debug L G axes P ops M kernel window vSolve fSolve pSolve x n) :
    ∃ u, createOperators debug L G P (fun r => (B r).run [.setGhostICs u]) = .ok ops ∧
      ∀ k, k ≤ n → Reach L B P ops.pN u (x k).ns ∧ BodiesOK L (x k).bodies := by
  have F := S.started.started
  have C := S.started.constructed
  obtain ⟨u, h1, R⟩ := F.reach
  refine ⟨u, h1, ?_⟩
  intro k
  induction k with
  | zero => intro _; rw [h0]; exact ⟨R, S.same ▸ S.started.fit⟩
  | succ k ih =>
    intro hk
    obtain ⟨R, hb⟩ := ih (by omega)
    obtain ⟨e1, e2, _, h⟩ := rigid_ok (hx k (by omega))
    obtain ⟨w, Us, df, _, _, _, h, _⟩ := decoupled_ok C F.schemes.1.1 F.schemes.2.1 R h
    exact ⟨R.step C F.schemes.1.1 F.schemes.2.1 h, e1 ▸ S.motion _ _ hb⟩

/-! ### The coupled solver -/

/-- what `createOperators` of the coupled solver gives -/
theorem ibpmCreate_ok {B' : ℕ → Boundary K} {ops : NSOps K} {E H : Mat K}
    (h : ibpmCreateOperators debug L G axes P B' bodies kernel window = .ok (ops, E, H)) :
    ∃ D Dm Gr La Lm BN idx, createDivergence debug L G false B' = .ok (D, Dm) ∧ createGradient debug L G false = .ok Gr ∧
      createLaplacian debug L G B' = .ok (La, Lm) ∧ bodies.updateMeshIdx axes = .ok idx ∧
      createEH debug L G axes B' bodies (meshIdxAt idx) kernel window = .ok (E, H) ∧
      createBnHead L.UN La P.dt (P.diff.implicitCoeff * P.nu) P.BN = .ok BN ∧
      ops = { pN := L.pN + bodies.nPts * bodies.dim, D := Mat.nestRows (nestCounts L bodies) D E, Dmods := Dm,
              G := Mat.nestCols (nestCounts L bodies) Gr (Mat.scale H (-1)), L := La, Lmods := Lm,
              A := Mat.shift (Mat.scale La (-P.diff.implicitCoeff * P.nu)) (1 / P.dt),
              BNG := Mat.mul L.UN BN (Mat.nestCols (nestCounts L bodies) Gr (Mat.scale H (-1))),
              DBNG := (setNullSpace P.pType (Mat.mul L.UN (Mat.nestRows (nestCounts L bodies) D E)
                (Mat.mul L.UN BN (Mat.nestCols (nestCounts L bodies) Gr (Mat.scale H (-1)))))).1,
              isRefP := (setNullSpace P.pType (Mat.mul L.UN (Mat.nestRows (nestCounts L bodies) D E)
                (Mat.mul L.UN BN (Mat.nestCols (nestCounts L bodies) Gr (Mat.scale H (-1)))))).2 } := by
  obtain ⟨⟨D, Dm⟩, h1, h⟩ := bind_ok h
  obtain ⟨Gr, h2, h⟩ := bind_ok h
  obtain ⟨⟨La, Lm⟩, h3, h⟩ := bind_ok h
  obtain ⟨idx, h4, h⟩ := bind_ok h
  obtain ⟨⟨E', H'⟩, h5, h⟩ := bind_ok h
  obtain ⟨BN, h6, h⟩ := bind_ok h
  cases h
  exact ⟨D, Dm, Gr, La, Lm, BN, idx, h1, h2, h3, h4, h5, h6, rfl⟩

theorem Spec.CoupledStarted.schemes {s : NSState K} (S : CoupledStarted debug L G axes T B P flow bodies kernel window ops disk s disk') :
    (P.conv.explicitCoeffs.length = P.conv.nExplicit ∧ P.conv.implicitCoeff + P.conv.explicitCoeffs.sum = 1) ∧
      (P.diff.explicitCoeffs.length = P.diff.nExplicit ∧ P.diff.implicitCoeff + P.diff.explicitCoeffs.sum = 1) := by
  obtain ⟨a, o, n, h⟩ := S.params
  obtain ⟨⟨p, h1, h2⟩, _⟩ := params_schemes h
  exact ⟨C39_consistent _ _ _ h1, C39_consistent _ _ _ h2⟩

theorem Spec.CoupledStarted.reach {s : NSState K} (S : CoupledStarted debug L G axes T B P flow bodies kernel window ops disk s disk') :
    ∃ u E H, ibpmCreateOperators debug L G axes P (fun r => (B r).run [.setGhostICs u]) bodies kernel window = .ok (ops, E, H) ∧
      Reach L B P ops.pN u s := by
  obtain ⟨s₀, ⟨E, H⟩, h1, h2⟩ := S.init
  have hL := S.constructed.setup.layout
  obtain ⟨⟨U, p⟩, h3, h1⟩ := bind_ok h1
  obtain ⟨⟨ops', E', H'⟩, h4, h1⟩ := bind_ok h1
  cases h1
  have ho := setIC_outside hL h3
  have hpN : ops.pN = L.pN + bodies.nPts * bodies.dim := by
    obtain ⟨D, Dm, Gr, La, Lm, BN, idx, _, _, _, _, _, _, e⟩ := ibpmCreate_ok h4
    rw [e]
  refine ⟨U, E, H, h4, ?_⟩
  unfold ibpmIoInitialData at h2
  split_ifs at h2
  · obtain ⟨d, _, h2⟩ := bind_ok h2
    cases h2
    exact ⟨⟨[], rfl, [], Or.inl rfl⟩, Clean.zero L B, List.length_replicate, List.length_replicate, ho.1, fun _ _ => rfl,
      fun x hx i _ => by rw [List.eq_of_mem_replicate hx], fun x hx i _ => by rw [List.eq_of_mem_replicate hx]⟩
  · obtain ⟨d, hd, h2⟩ := bind_ok h2
    cases h2
    obtain ⟨s', h5, hd⟩ := bind_ok hd
    obtain ⟨f, h6, hd⟩ := bind_ok hd
    split at hd
    · rename_i v
      cases hd
      have hz : subPressure (nestCounts L bodies) (fun _ => (0 : K)) = fun _ => 0 := by funext a; simp [subPressure]
      have R := Reach.restart (B := B) (P := P) (u := U) hL (s := _) ?_ h5
      · refine ⟨R.hist, R.clean, R.nconv, R.ndiff, R.outU, ?_, R.outConv, R.outDiff⟩
        intro i hi
        apply nestVec_outside
        rw [(sum_counts hL S.fit).1, (sum_counts hL S.fit).2, ← hpN]
        exact hi
      · exact ⟨⟨[], rfl, [], Or.inl rfl⟩, Clean.zero L B, List.length_replicate, List.length_replicate, ho.1,
          fun i _ => congrFun hz i,
          fun x hx i _ => by rw [List.eq_of_mem_replicate hx], fun x hx i _ => by rw [List.eq_of_mem_replicate hx]⟩
    · cases hd

theorem Spec.CoupledStarted.reach_at {s : NSState K} (S : CoupledStarted debug L G axes T B P flow bodies kernel window ops disk s disk')
    {vSolve pSolve : LinSolve K} {x : ℕ → NSState K} {n : ℕ} (h0 : x 0 = s)
    (hx : CoupledTrajectory L G P (nestCounts L bodies) ops vSolve pSolve x n) :
    ∃ u E H, ibpmCreateOperators debug L G axes P (fun r => (B r).run [.setGhostICs u]) bodies kernel window = .ok (ops, E, H) ∧
      ∀ k, k ≤ n → Reach L B P ops.pN u (x k) := by
  obtain ⟨u, E, H, h1, R⟩ := S.reach
  refine ⟨u, E, H, h1, ?_⟩
  intro k
  induction k with
  | zero => intro _; rw [h0]; exact R
  | succ k ih =>
    intro hk
    have R := ih (by omega)
    obtain ⟨w, U, dP, _, _, _, h⟩ := coupled_ok S.constructed S.schemes.1.1 S.schemes.2.1 R (hx k (by omega))
    exact R.step S.constructed S.schemes.1.1 S.schemes.2.1 h

/-- The rows of the composite system after a step with an exact solver: `i` is a row that is not pinned. -/
theorem coupled_rows (S : Setup L G axes) (fit : BodiesOK L bodies) {Dm : Modifiers K}
    (hpN : ops.pN = L.pN + bodies.nPts * bodies.dim) (hDm : ops.Dmods = Dm)
    (hM : ops.DBNG = (setNullSpace P.pType (Mat.mul L.UN ops.D ops.BNG)).1)
    (hr : ops.isRefP = (setNullSpace P.pType (Mat.mul L.UN ops.D ops.BNG)).2) {pSolve : LinSolve K} (exact : Solves ops.pN pSolve ops.DBNG)
    {g : ℤ → K} {U dP : ℤ → K} {ns : NSState K} (hns : ns.U = vec L.UN U)
    (hp : pSolve ops.DBNG g (ibpmRHSPoisson L (nestCounts L bodies) ops ns) = .ok dP) (i : ℤ) (i0 : 0 ≤ i) (i1 : i < ops.pN)
    (hi : P.pType = .ksp ∨ i ≠ 0) :
    Mat.mult L.UN ops.D (projected L ops U (vec ops.pN dP)) i + nestVec (nestCounts L bodies) (correctionMult L ns.B Dm) (fun _ => 0) i = 0 := by
  have hsum := sum_counts S.layout fit
  have hrow : Mat.mult ops.pN (Mat.mul L.UN ops.D ops.BNG) dP i =
      Mat.mult L.UN ops.D U i + nestVec (nestCounts L bodies) (correctionMult L ns.B Dm) (fun _ => 0) i := by
    have hrhs : ∀ i : ℤ, 0 ≤ i → i < ops.pN →
        nestVec (nestCounts L bodies) (fun a => subPressure (nestCounts L bodies) (vec ops.pN (Mat.mult L.UN ops.D ns.U)) a +
          vec L.pN (correctionMult L ns.B ops.Dmods) a) (subForces (nestCounts L bodies) (vec ops.pN (Mat.mult L.UN ops.D ns.U))) i =
        Mat.mult L.UN ops.D U i + nestVec (nestCounts L bodies) (correctionMult L ns.B Dm) (fun _ => 0) i := by
      intro i i0 i1
      obtain ⟨j, rfl⟩ := Int.eq_ofNat_of_zero_le i0
      have hj : j < ((nestCounts L bodies).map (·.1)).sum + ((nestCounts L bodies).map (·.2)).sum := by omega
      have hv : vec ops.pN (Mat.mult L.UN ops.D ns.U) (j : ℤ) = Mat.mult L.UN ops.D U j := by
        rw [vec, if_pos ⟨i0, i1⟩, hns, mult_vec]
      rcases nestPos_split (nestCounts L bodies) 0 0 j hj with ⟨a, ha, _, e⟩ | ⟨b, hb, _, e⟩
      · rw [← e] at hv ⊢
        rw [nestVec_pressure _ _ ha, nestVec_pressure _ _ ha]
        unfold subPressure
        rw [if_pos (by omega), Int.toNat_natCast, hv, vec, if_pos ⟨by omega, by omega⟩, hDm]
      · rw [← e] at hv ⊢
        rw [nestVec_force _ _ hb, nestVec_force _ _ hb]
        unfold subForces
        rw [if_pos (by omega), Int.toNat_natCast, hv, add_zero]
    have he := exact _ _ _ hp
    unfold ibpmRHSPoisson at he
    cases ht : P.pType with
    | ksp =>
      simp only [ht, setNullSpace] at hM hr
      rw [hM, hr] at he
      rw [he i i0 i1, if_neg (by simp), hrhs i i0 i1]
    | amgx =>
      have hi : i ≠ 0 := by
        rcases hi with h | h
        · rw [ht] at h; cases h
        · exact h
      simp only [ht, setNullSpace] at hM hr
      rw [hM, hr] at he
      have := (pinned_rows (by omega) (fun i i0 i1 => by rw [he i i0 i1, if_pos rfl])).2 i (by omega) i1
      rw [this, hrhs i i0 i1]
  have e : Mat.mult L.UN ops.D (projected L ops U (vec ops.pN dP)) i =
      Mat.mult L.UN ops.D U i - Mat.mult ops.pN (Mat.mul L.UN ops.D ops.BNG) dP i := by
    unfold projected
    rw [mult_sub, mult_vec, mult_vec, mult_mul]
    congr 1
    apply mult_congr
    intro j _ _
    exact mult_vec _ _ _ _
  rw [e, hrow]
  ring

end PetIBM
