import Verif.Props.Poisson
import Verif.Lemmas.IbpmRun

/-!
Runs with the pinned Poisson system as runs with the unpinned one (helpers of C43).
-/

set_option linter.unusedSectionVars false

namespace PetIBM

open Spec

variable {K : Type} [Field K] [LinearOrder K] [IsStrictOrderedRing K]
variable {debug : Bool} {L : Layout} {G : Geom K} {axes : ℕ → Axis K} {T : BCTable K} {B : ℕ → Boundary K}
variable {P : NSParams K} {flow : Option (FlowNode K)} {ops : NSOps K} {ib : IBOps K} {disk disk' : Disk K}
variable {bodies : BodyPack K} {kernel : DeltaKernel K} {window : ℕ} {vSolve fSolve pSolve : LinSolve K} {n : ℕ}

/-- the operators with the pinned system -/
def NSOps.pinned (ops : NSOps K) : NSOps K := { ops with DBNG := (setNullSpace .amgx ops.DBNG).1, isRefP := true }

/-- the parameters with the unpinned system -/
def NSParams.unpinned (P : NSParams K) : NSParams K := { P with pType := .ksp }

open Classical in
/-- a solver of the unpinned system from one of the pinned system: it answers only if the answer solves the system -/
noncomputable def unpinnedSolve (N : ℕ) (M : Mat K) (pSolve : LinSolve K) : LinSolve K := fun _ g rhs =>
  match pSolve (setNullSpace .amgx M).1 g (Function.update rhs 0 0) with
  | .ok φ => if IsSolution N M rhs φ then .ok φ else .error .ub
  | .error e => .error e

theorem unpinnedSolve_solves (N : ℕ) (M : Mat K) : Solves N (unpinnedSolve N M pSolve) M := by
  intro g rhs φ h
  unfold unpinnedSolve at h
  split at h
  · split_ifs at h with hs
    cases h
    exact hs
  · cases h

theorem unpinnedSolve_ok {N : ℕ} {M : Mat K} {g rhs φ : ℤ → K} (h : pSolve (setNullSpace .amgx M).1 g (Function.update rhs 0 0) = .ok φ)
    (hs : IsSolution N M rhs φ) : unpinnedSolve N M pSolve M g rhs = .ok φ := by
  unfold unpinnedSolve
  rw [h]
  simp only
  rw [if_pos hs]

theorem readParams_unpinned (h : ∃ haveAmgX output node, readParams haveAmgX output node flow = .ok P) :
    ∃ haveAmgX output node, readParams haveAmgX output node flow = .ok P.unpinned := by
  obtain ⟨a, o, node, hP⟩ := h
  obtain ⟨node, n1, h⟩ := bind_ok hP
  obtain ⟨dt, n2, h⟩ := bind_ok h
  obtain ⟨nt, n3, h⟩ := bind_ok h
  obtain ⟨nsave, n4, h⟩ := bind_ok h
  obtain ⟨nrestart, n5, h⟩ := bind_ok h
  obtain ⟨nu, n6, h⟩ := bind_ok h
  obtain ⟨conv, n7, h⟩ := bind_ok h
  obtain ⟨diff, n8, h⟩ := bind_ok h
  obtain ⟨v, n9, h⟩ := bind_ok h
  obtain ⟨p, n10, h⟩ := bind_ok h
  cases h
  refine ⟨a, o, some { node with poissonSolver := none }, ?_⟩
  unfold readParams
  simp only [required, bind, Except.bind] at *
  simp only [n2, n3, n4, n5, n6, n7, n8, n9]
  rfl

theorem createOperators_unpinned {B' : ℕ → Boundary K} (hp : P.pType = .amgx) (h : createOperators debug L G P B' = .ok ops) :
    ∃ ops', createOperators debug L G P.unpinned B' = .ok ops' ∧ ops = ops'.pinned := by
  obtain ⟨⟨D, Dm⟩, o1, h⟩ := bind_ok h
  obtain ⟨Gr, o2, h⟩ := bind_ok h
  obtain ⟨⟨La, Lm⟩, o3, h⟩ := bind_ok h
  obtain ⟨BN, o4, h⟩ := bind_ok h
  refine ⟨{ pN := L.pN, D := D, Dmods := Dm, G := Gr, L := La, Lmods := Lm, A := Mat.shift (Mat.scale La (-P.diff.implicitCoeff * P.nu)) (1 / P.dt),
            BNG := Mat.mul L.UN BN Gr, DBNG := Mat.mul L.UN D (Mat.mul L.UN BN Gr), isRefP := false }, ?_, ?_⟩
  · have o4 : createBnHead L.UN La P.unpinned.dt (P.unpinned.diff.implicitCoeff * P.unpinned.nu) P.unpinned.BN = .ok BN := o4
    unfold createOperators
    simp only [bind, Except.bind, o1, o2, o3, o4]
    rfl
  · cases h
    rw [hp]
    rfl

theorem ibpmCreate_unpinned {B' : ℕ → Boundary K} {E H : Mat K} (hp : P.pType = .amgx)
    (h : ibpmCreateOperators debug L G axes P B' bodies kernel window = .ok (ops, E, H)) :
    ∃ ops', ibpmCreateOperators debug L G axes P.unpinned B' bodies kernel window = .ok (ops', E, H) ∧ ops = ops'.pinned := by
  obtain ⟨D, Dm, Gr, La, Lm, BN, idx, o1, o2, o3, o5, o6, o4, rfl⟩ := ibpmCreate_ok h
  refine ⟨{ pN := L.pN + bodies.nPts * bodies.dim, D := Mat.nestRows (nestCounts L bodies) D E, Dmods := Dm,
            G := Mat.nestCols (nestCounts L bodies) Gr (Mat.scale H (-1)), L := La, Lmods := Lm,
            A := Mat.shift (Mat.scale La (-P.diff.implicitCoeff * P.nu)) (1 / P.dt),
            BNG := Mat.mul L.UN BN (Mat.nestCols (nestCounts L bodies) Gr (Mat.scale H (-1))),
            DBNG := Mat.mul L.UN (Mat.nestRows (nestCounts L bodies) D E) (Mat.mul L.UN BN (Mat.nestCols (nestCounts L bodies) Gr (Mat.scale H (-1)))),
            isRefP := false }, ?_, ?_⟩
  · have o4 : createBnHead L.UN La P.unpinned.dt (P.unpinned.diff.implicitCoeff * P.unpinned.nu) P.unpinned.BN = .ok BN := o4
    unfold ibpmCreateOperators
    simp only [bind, Except.bind, o1, o2, o3, o5, o6, o4]
    rfl
  · rw [hp]
    rfl

/-- the unpinned system is determined by the other operators -/
theorem pinned_inj {o o' : NSOps K} {N : ℕ} (h : o.pinned = o'.pinned) (a : o.DBNG = Mat.mul N o.D o.BNG ∧ o.isRefP = false)
    (a' : o'.DBNG = Mat.mul N o'.D o'.BNG ∧ o'.isRefP = false) : o = o' := by
  cases o
  cases o'
  simp only [NSOps.pinned, NSOps.mk.injEq] at h a a' ⊢
  obtain ⟨h1, h2, h3, h4, h5, h6, h7, h8, _, _⟩ := h
  exact ⟨h1, h2, h3, h4, h5, h6, h7, h8, by rw [a.1, a'.1, h2, h8], by rw [a.2, a'.2]⟩

theorem unpinned_form {B' : ℕ → Boundary K} (h : createOperators debug L G P.unpinned B' = .ok ops) :
    ops.DBNG = Mat.mul L.UN ops.D ops.BNG ∧ ops.isRefP = false := by
  obtain ⟨D, Dm, Gr, La, Lm, BN, _, _, _, _, rfl⟩ := createOperators_ok h
  exact ⟨rfl, rfl⟩

theorem ibpm_unpinned_form {B' : ℕ → Boundary K} {E H : Mat K}
    (h : ibpmCreateOperators debug L G axes P.unpinned B' bodies kernel window = .ok (ops, E, H)) :
    ops.DBNG = Mat.mul L.UN ops.D ops.BNG ∧ ops.isRefP = false := by
  obtain ⟨D, Dm, Gr, La, Lm, BN, idx, _, _, _, _, _, _, rfl⟩ := ibpmCreate_ok h
  exact ⟨rfl, rfl⟩

theorem solverInit_unpinned {s : NSState K} (hp : P.pType = .amgx) (h : solverInit debug L G P flow B = .ok (ops, s)) :
    ∃ ops', solverInit debug L G P.unpinned flow B = .ok (ops', s) ∧ ops = ops'.pinned := by
  obtain ⟨⟨U, p⟩, h1, h⟩ := bind_ok h
  obtain ⟨ops₀, h2, h⟩ := bind_ok h
  cases h
  obtain ⟨ops', h3, e⟩ := createOperators_unpinned hp h2
  refine ⟨ops', ?_, e⟩
  unfold solverInit
  simp only [bind, Except.bind, h1, h3]
  rfl

theorem Spec.Started.unpinned_at {s : NSState K} (S : Started debug L G axes T B P flow ops disk s disk') (hp : P.pType = .amgx) :
    ∃ ops', Started debug L G axes T B P.unpinned flow ops' disk s disk' ∧ ops = ops'.pinned := by
  obtain ⟨s₀, h1, h2⟩ := S.init
  obtain ⟨ops', h3, e⟩ := solverInit_unpinned hp h1
  exact ⟨ops', ⟨S.constructed, readParams_unpinned S.params, s₀, h3, h2⟩, e⟩

theorem Spec.IBStarted.unpinned_at {s : IBState K} (S : IBStarted debug L G axes T B P flow bodies kernel window ops ib disk s disk')
    (hp : P.pType = .amgx) :
    ∃ ops', IBStarted debug L G axes T B P.unpinned flow bodies kernel window ops' ib disk s disk' ∧ ops = ops'.pinned := by
  obtain ⟨s₀, h1, h2⟩ := S.init
  obtain ⟨⟨ops₀, ns⟩, h3, h1⟩ := bind_ok h1
  obtain ⟨idx, h4, h1⟩ := bind_ok h1
  obtain ⟨ib', h5, h1⟩ := bind_ok h1
  cases h1
  obtain ⟨ops', h6, rfl⟩ := solverInit_unpinned hp h3
  refine ⟨ops', ⟨S.constructed, readParams_unpinned S.params, S.fit, _, ?_, h2⟩, rfl⟩
  have h5 : createExtraOperators debug L G axes P.unpinned ops' ns.B bodies (meshIdxAt idx) kernel window = .ok ib := h5
  unfold decoupledInit
  simp only [bind, Except.bind, h6, h4, h5]
  rfl

theorem Spec.RigidStarted.unpinned_at {M : Motion K} {s : RigidState K}
    (S : RigidStarted debug L G axes T B P flow bodies M kernel window ops disk s disk') (hp : P.pType = .amgx) :
    ∃ ops', RigidStarted debug L G axes T B P.unpinned flow bodies M kernel window ops' disk s disk' ∧ ops = ops'.pinned := by
  obtain ⟨ops', h, e⟩ := S.started.unpinned_at hp
  exact ⟨ops', ⟨h, S.same, S.UB, S.motion⟩, e⟩

theorem Spec.CoupledStarted.unpinned_at {s : NSState K}
    (S : CoupledStarted debug L G axes T B P flow bodies kernel window ops disk s disk') (hp : P.pType = .amgx) :
    ∃ ops', CoupledStarted debug L G axes T B P.unpinned flow bodies kernel window ops' disk s disk' ∧ ops = ops'.pinned := by
  obtain ⟨s₀, ⟨E, H⟩, h1, h2⟩ := S.init
  obtain ⟨⟨U, p⟩, h3, h1⟩ := bind_ok h1
  obtain ⟨⟨ops₀, E', H'⟩, h4, h1⟩ := bind_ok h1
  cases h1
  obtain ⟨ops', h5, e⟩ := ibpmCreate_unpinned hp h4
  refine ⟨ops', ⟨S.constructed, readParams_unpinned S.params, S.fit, _, (E, H), ?_, h2⟩, e⟩
  unfold ibpmInit
  simp only [bind, Except.bind, h3, h5]
  rfl

/-! ### The solution of the pinned system solves the unpinned one -/

/-- A system whose rows add up to zero over `S ∪ {0}`, with a right-hand side that does so too: if all rows but row 0 hold, row 0 does. -/
theorem pinned_also (C : Constructed debug L G axes T B) (hn : ∀ f, f < L.dim → L.periodic 0 f = true → 2 ≤ L.n f f)
    (hT : NormalVelocityGiven L.toMeshInfo T) (hflux : boundaryFlux L.toMeshInfo G T = 0) {u : ℤ → K} {h' : List (Boundary.Op K)}
    {D X : Mat K} {Dm : Modifiers K} (o1 : createDivergence debug L G false (fun r => (B r).run [.setGhostICs u]) = .ok (D, Dm)) {y φ : ℤ → K}
    (hsol : IsSolution L.pN (setNullSpace .amgx (Mat.mul L.UN D X)).1
      (Function.update (vec L.pN fun i => Mat.mult L.UN D y i + correctionMult L (fun r => (B r).run ([.setGhostICs u] ++ h')) Dm i) 0 0) φ) :
    IsSolution L.pN (Mat.mul L.UN D X)
      (vec L.pN fun i => Mat.mult L.UN D y i + correctionMult L (fun r => (B r).run ([.setGhostICs u] ++ h')) Dm i) φ := by
  rcases Nat.eq_zero_or_pos L.pN with hN | hN
  · intro i i0 i1; omega
  have hT' : ∀ f loc, f < L.dim → loc / 2 = f → (T f loc).1 ≠ .NEUMANN := by
    intro f loc hf hl
    rcases hT f loc hf hl with h | h <;> rw [h] <;> simp
  obtain ⟨_, rows⟩ := pinned_rows hN hsol
  have tot := poisson_total C hn hT (h' := h') ⟨u, [], rfl⟩ o1 y
  have zero := divergence_sum C hn hT' ⟨u, [], rfl⟩ o1 (Mat.mult L.pN X φ)
  rw [hflux] at tot
  intro i i0 i1
  rcases eq_or_lt_of_le i0 with rfl | i0
  · obtain ⟨N, hN'⟩ : ∃ N, L.pN = N + 1 := ⟨L.pN - 1, by omega⟩
    have e : ∀ i ∈ Finset.range N, Mat.mult L.UN D (Mat.mult L.pN X φ) ((i + 1 : ℕ) : ℤ) =
        Mat.mult L.UN D y ((i + 1 : ℕ) : ℤ) + correctionMult L (fun r => (B r).run ([.setGhostICs u] ++ h')) Dm ((i + 1 : ℕ) : ℤ) := by
      intro i hi
      have := Finset.mem_range.1 hi
      have hrow := rows ((i + 1 : ℕ) : ℤ) (by omega) (by omega)
      rw [vec, if_pos (by omega), mult_mul] at hrow
      exact hrow
    rw [show Finset.range L.pN = Finset.range (N + 1) by rw [hN'], Finset.sum_range_succ'] at tot zero
    rw [Finset.sum_congr rfl e] at zero
    rw [vec, if_pos ⟨le_rfl, i1⟩, mult_mul]
    simp only [Nat.cast_zero] at tot zero
    linear_combination zero - tot
  · exact rows i (by omega) i1

/-- the ghost values that `assembleRHSVelocity` leaves -/
theorem assembleRHSVelocity_B {s s' : NSState K} {rhs : ℤ → K} (h : assembleRHSVelocity L G P ops s = .ok (rhs, s')) :
    s'.B = fun r => (s.B r).updateEqs s.U P.dt := by
  obtain ⟨⟨conv, loc⟩, _, h⟩ := bind_ok h
  obtain ⟨r1, _, h⟩ := bind_ok h
  obtain ⟨diff, _, h⟩ := bind_ok h
  obtain ⟨r2, _, h⟩ := bind_ok h
  cases h
  rfl

/-- the Poisson step -/
theorem poisson_unpinned (C : Constructed debug L G axes T B) (hn : ∀ f, f < L.dim → L.periodic 0 f = true → 2 ≤ L.n f f)
    (hT : NormalVelocityGiven L.toMeshInfo T) (hflux : boundaryFlux L.toMeshInfo G T = 0) {u : ℤ → K}
    (hops : createOperators debug L G P.unpinned (fun r => (B r).run [.setGhostICs u]) = .ok ops)
    (exact : Solves L.pN pSolve ops.pinned.DBNG) {N : ℕ} {s₀ s : NSState K} (R : Reach L B P N u s₀)
    (hB : s.B = fun r => (s₀.B r).updateEqs s₀.U P.dt) {φ : ℤ → K}
    (h : pSolve ops.pinned.DBNG s.dP (assembleRHSPoisson L ops.pinned s) = .ok φ) :
    unpinnedSolve L.pN ops.DBNG pSolve ops.DBNG s.dP (assembleRHSPoisson L ops s) = .ok φ := by
  obtain ⟨D, Dm, Gr, La, Lm, BN, o1, o2, o3, o4, eo⟩ := createOperators_ok hops
  obtain ⟨hh, hBh, -⟩ := R.hist
  have hBe : s.B = fun r => (B r).run ([.setGhostICs u] ++ (hh ++ [.updateEqs s₀.U P.dt])) := by
    rw [hB]
    funext r
    simp only [hBh, Boundary.run, List.foldl_append]
    rfl
  have hr : ops.isRefP = false := by rw [eo]; rfl
  refine unpinnedSolve_ok (by rw [← h]; congr 1; unfold assembleRHSPoisson; rw [hr]; rfl) ?_
  have hsol := exact _ _ _ h
  have e : assembleRHSPoisson L ops s =
      vec L.pN fun i => Mat.mult L.UN D s.U i + correctionMult L (fun r => (B r).run ([.setGhostICs u] ++ (hh ++ [.updateEqs s₀.U P.dt]))) Dm i := by
    rw [← hBe, eo]
    rfl
  have eM : ops.DBNG = Mat.mul L.UN D (Mat.mul L.UN BN Gr) := by rw [eo]; rfl
  rw [e, eM]
  refine pinned_also C hn hT hflux o1 ?_
  rw [← e, ← eM]
  have er : assembleRHSPoisson L ops.pinned s = Function.update (assembleRHSPoisson L ops s) 0 0 := by rw [eo]; rfl
  rw [← er]
  exact hsol

theorem advance_unpinned (C : Constructed debug L G axes T B) (hn : ∀ f, f < L.dim → L.periodic 0 f = true → 2 ≤ L.n f f)
    (hT : NormalVelocityGiven L.toMeshInfo T) (hflux : boundaryFlux L.toMeshInfo G T = 0) {u : ℤ → K}
    (hops : createOperators debug L G P.unpinned (fun r => (B r).run [.setGhostICs u]) = .ok ops)
    (exact : Solves L.pN pSolve ops.pinned.DBNG) {N : ℕ} {s s' : NSState K} (R : Reach L B P N u s)
    (h : advance L G P ops.pinned vSolve pSolve s = .ok s') :
    advance L G P.unpinned ops vSolve (unpinnedSolve L.pN ops.DBNG pSolve) s = .ok s' := by
  obtain ⟨⟨rhs1, s₁⟩, h1, h⟩ := bind_ok h
  obtain ⟨U, h2, h⟩ := bind_ok h
  obtain ⟨dP, h3, h⟩ := bind_ok h
  have hB := assembleRHSVelocity_B h1
  have h4 := poisson_unpinned (s₀ := s) (s := { s₁ with U := vec L.UN U }) C hn hT hflux hops exact R hB h3
  have h1 : assembleRHSVelocity L G P.unpinned ops { s with t := s.t + P.unpinned.dt, ite := s.ite + 1 } = .ok (rhs1, s₁) := h1
  have h2 : vSolve ops.A s₁.U rhs1 = .ok U := h2
  unfold advance
  simp only [bind, Except.bind, h1, h2, h4]
  exact h

theorem decoupled_unpinned (C : Constructed debug L G axes T B) (hn : ∀ f, f < L.dim → L.periodic 0 f = true → 2 ≤ L.n f f)
    (hT : NormalVelocityGiven L.toMeshInfo T) (hflux : boundaryFlux L.toMeshInfo G T = 0) {u : ℤ → K}
    (hops : createOperators debug L G P.unpinned (fun r => (B r).run [.setGhostICs u]) = .ok ops)
    (exact : Solves L.pN pSolve ops.pinned.DBNG) {N : ℕ} {UB : Option (ℤ → K)} {s s' : IBState K} (R : Reach L B P N u s.ns)
    (h : decoupledAdvance L G P ops.pinned ib UB vSolve fSolve pSolve s = .ok s') :
    decoupledAdvance L G P.unpinned ops ib UB vSolve fSolve (unpinnedSolve L.pN ops.DBNG pSolve) s = .ok s' := by
  obtain ⟨⟨rhs1, s₁⟩, h1, h⟩ := bind_ok h
  obtain ⟨U, h2, h⟩ := bind_ok h
  obtain ⟨df, h5, h⟩ := bind_ok h
  obtain ⟨dP, h3, h⟩ := bind_ok h
  have hB := assembleRHSVelocity_B h1
  have h4 := poisson_unpinned (s₀ := s.ns) (s := { s₁ with U := fun i => vec L.UN U i + vec L.UN (Mat.mult ib.nF ib.BNH (vec ib.nF df)) i })
    C hn hT hflux hops exact R hB h3
  have h1 : assembleRHSVelocity L G P.unpinned ops { s.ns with t := s.ns.t + P.unpinned.dt, ite := s.ns.ite + 1 } = .ok (rhs1, s₁) := h1
  have h2 : vSolve ops.A s₁.U (fun i => rhs1 i + vec L.UN (Mat.mult ib.nF ib.H s.f) i) = .ok U := h2
  unfold decoupledAdvance
  simp only [bind, Except.bind, h1, h2, h5, h4]
  exact h

theorem rigid_unpinned (C : Constructed debug L G axes T B) (hn : ∀ f, f < L.dim → L.periodic 0 f = true → 2 ≤ L.n f f)
    (hT : NormalVelocityGiven L.toMeshInfo T) (hflux : boundaryFlux L.toMeshInfo G T = 0) {u : ℤ → K}
    (hops : createOperators debug L G P.unpinned (fun r => (B r).run [.setGhostICs u]) = .ok ops)
    (exact : Solves L.pN pSolve ops.pinned.DBNG) {N : ℕ} {M : Motion K} {s s' : RigidState K} (R : Reach L B P N u s.ns)
    (h : rigidAdvance debug L G axes P ops.pinned M kernel window vSolve fSolve pSolve s = .ok s') :
    rigidAdvance debug L G axes P.unpinned ops M kernel window vSolve fSolve (unpinnedSolve L.pN ops.DBNG pSolve) s = .ok s' := by
  obtain ⟨s₁, h1, h⟩ := bind_ok h
  obtain ⟨st, h2, h⟩ := bind_ok h
  have e : s₁.ns = s.ns := by
    obtain ⟨idx, _, h1⟩ := bind_ok h1
    obtain ⟨ib, _, h1⟩ := bind_ok h1
    cases h1
    rfl
  have h1 : moveBodies debug L G axes P.unpinned ops M kernel window (s.ns.t + P.unpinned.dt) s = .ok s₁ := h1
  have h3 := decoupled_unpinned C hn hT hflux hops exact (s := s₁.toIBState) (e ▸ R) h2
  unfold rigidAdvance
  simp only [bind, Except.bind, h1, h3]
  exact h

/-! ### The coupled solver -/

/-- the right-hand side of the composite system -/
theorem ibpmRHS_at (hL : LayoutOK L) (fit : BodiesOK L bodies) (hpN : ops.pN = L.pN + bodies.nPts * bodies.dim) (hr : ops.isRefP = false)
    (s : NSState K) (j : ℕ) (hj : j < ops.pN) :
    ibpmRHSPoisson L (nestCounts L bodies) ops s j =
      Mat.mult L.UN ops.D s.U j + nestVec (nestCounts L bodies) (correctionMult L s.B ops.Dmods) (fun _ => 0) j := by
  have hsum := sum_counts hL fit
  have hj' : j < ((nestCounts L bodies).map (·.1)).sum + ((nestCounts L bodies).map (·.2)).sum := by omega
  have hv : vec ops.pN (Mat.mult L.UN ops.D s.U) (j : ℤ) = Mat.mult L.UN ops.D s.U j := by
    rw [vec, if_pos ⟨by omega, by omega⟩]
  unfold ibpmRHSPoisson
  rw [if_neg (by rw [hr]; simp)]
  rcases nestPos_split (nestCounts L bodies) 0 0 j hj' with ⟨a, ha, _, e⟩ | ⟨b, hb, _, e⟩
  · rw [← e] at hv ⊢
    rw [nestVec_pressure _ _ ha, nestVec_pressure _ _ ha]
    unfold subPressure
    rw [if_pos (by omega), Int.toNat_natCast, hv, vec, if_pos ⟨by omega, by omega⟩]
  · rw [← e] at hv ⊢
    rw [nestVec_force _ _ hb, nestVec_force _ _ hb]
    unfold subForces
    rw [if_pos (by omega), Int.toNat_natCast, hv, add_zero]

/-- the first row of the composite system belongs to a cell -/
theorem first_row_pressure (hL : LayoutOK L) (fit : BodiesOK L bodies) (hbox : 0 < (L.box 3 0).length)
    (hN : 0 < L.pN + bodies.nPts * bodies.dim) :
    ∃ a, a < ((nestCounts L bodies).map (·.1)).sum ∧ nestPos (nestCounts L bodies) (.inl a) = 0 := by
  have hsum := sum_counts hL fit
  obtain ⟨m, hm⟩ : ∃ m, L.mpiSize = m + 1 := by
    rcases h : L.mpiSize with _ | m
    · exfalso
      unfold nestCounts at hsum
      rw [h] at hsum
      simp only [List.range_zero, List.map_nil, List.sum_nil] at hsum
      omega
    · exact ⟨m, rfl⟩
  refine ⟨0, ?_, ?_⟩
  · unfold nestCounts
    rw [hm, List.range_succ_eq_map]
    simp only [List.map_cons, List.sum_cons]
    omega
  · unfold nestCounts
    rw [hm, List.range_succ_eq_map]
    simp only [List.map_cons, nestPos]
    rw [if_pos hbox]

theorem coupled_also (C : Constructed debug L G axes T B) (hn : ∀ f, f < L.dim → L.periodic 0 f = true → 2 ≤ L.n f f)
    (hT : NormalVelocityGiven L.toMeshInfo T) (hflux : boundaryFlux L.toMeshInfo G T = 0) (fit : BodiesOK L bodies)
    (hbox : 0 < (L.box 3 0).length) {u : ℤ → K} {h' : List (Boundary.Op K)} {E H : Mat K}
    (hops : ibpmCreateOperators debug L G axes P.unpinned (fun r => (B r).run [.setGhostICs u]) bodies kernel window = .ok (ops, E, H))
    {s : NSState K} (hB : s.B = fun r => (B r).run ([.setGhostICs u] ++ h')) {φ : ℤ → K}
    (hsol : IsSolution ops.pN ops.pinned.DBNG (Function.update (ibpmRHSPoisson L (nestCounts L bodies) ops s) 0 0) φ) :
    IsSolution ops.pN ops.DBNG (ibpmRHSPoisson L (nestCounts L bodies) ops s) φ := by
  obtain ⟨D, Dm, Gr, La, Lm, BN, idx, o1, _, _, _, _, _, eo⟩ := ibpmCreate_ok hops
  have hL := C.setup.layout
  have hpN : ops.pN = L.pN + bodies.nPts * bodies.dim := by rw [eo]
  have hr : ops.isRefP = false := by rw [eo]; rfl
  have hD : ops.D = Mat.nestRows (nestCounts L bodies) D E := by rw [eo]
  have hDm : ops.Dmods = Dm := by rw [eo]
  have hM : ops.DBNG = Mat.mul L.UN ops.D ops.BNG := by rw [eo]; rfl
  rcases Nat.eq_zero_or_pos ops.pN with hN | hN
  · intro i i0 i1; omega
  have hT' : ∀ f loc, f < L.dim → loc / 2 = f → (T f loc).1 ≠ .NEUMANN := by
    intro f loc hf hl
    rcases hT f loc hf hl with h | h <;> rw [h] <;> simp
  obtain ⟨_, rows⟩ := pinned_rows hN hsol
  have tot := poisson_total C hn hT (h' := h') ⟨u, [], rfl⟩ o1 s.U
  have zero := divergence_sum C hn hT' ⟨u, [], rfl⟩ o1 (Mat.mult ops.pN ops.BNG φ)
  rw [hflux, ← hB] at tot
  have hsum := sum_counts hL fit
  -- the rows of the cells
  have hDrow : ∀ (y : ℤ → K) (a : ℕ), a < L.pN → Mat.mult L.UN ops.D y (nestPos (nestCounts L bodies) (.inl a) : ℕ) = Mat.mult L.UN D y a := by
    intro y a ha
    unfold Mat.mult
    refine Finset.sum_congr rfl fun j _ => ?_
    rw [hD, nestRows_pressure _ _ (by omega)]
  have hrhs : ∀ a : ℕ, a < L.pN → ibpmRHSPoisson L (nestCounts L bodies) ops s (nestPos (nestCounts L bodies) (.inl a) : ℕ) =
      Mat.mult L.UN D s.U a + correctionMult L s.B Dm a := by
    intro a ha
    have := ((nestSplit_pos (nestCounts L bodies) 0 0).1 a (by omega)).2
    rw [ibpmRHS_at hL fit hpN hr s _ (by omega), hDrow _ _ ha, nestVec_pressure _ _ (by omega), hDm]
  have hlhs : ∀ a : ℕ, a < L.pN → Mat.mult ops.pN ops.DBNG φ (nestPos (nestCounts L bodies) (.inl a) : ℕ) =
      Mat.mult L.UN D (Mat.mult ops.pN ops.BNG φ) a := by
    intro a ha
    rw [hM, mult_mul, hDrow _ _ ha]
  obtain ⟨a₀, ha, e0⟩ := first_row_pressure hL fit hbox (by omega)
  have ha : a₀ < L.pN := by omega
  intro i i0 i1
  rcases eq_or_lt_of_le i0 with rfl | i0
  · have diff : ∑ a ∈ Finset.range L.pN, (Mat.mult L.UN D (Mat.mult ops.pN ops.BNG φ) (a : ℤ) -
        (Mat.mult L.UN D s.U a + correctionMult L s.B Dm a)) = 0 := by
      rw [Finset.sum_sub_distrib, zero, tot, sub_zero]
    rw [Finset.sum_eq_single a₀] at diff
    · rw [← hlhs a₀ ha, ← hrhs a₀ ha, e0, Nat.cast_zero] at diff
      linear_combination diff
    · intro b hb hne
      have hb := Finset.mem_range.1 hb
      have h1 := (nestSplit_pos (nestCounts L bodies) 0 0).1 b (by omega)
      have h2 := (nestSplit_pos (nestCounts L bodies) 0 0).1 a₀ (by omega)
      have hz : nestPos (nestCounts L bodies) (.inl b) ≠ 0 := by
        intro hz
        have e1 := h1.1
        have e2 := h2.1
        rw [hz] at e1
        rw [e0, e1] at e2
        simp at e2
        exact hne e2
      rw [← hlhs b hb, ← hrhs b hb, rows _ (by omega) (by omega), sub_self]
    · intro h
      exact absurd (Finset.mem_range.2 ha) h
  · exact rows i (by omega) i1

theorem coupled_unpinned (C : Constructed debug L G axes T B) (hn : ∀ f, f < L.dim → L.periodic 0 f = true → 2 ≤ L.n f f)
    (hT : NormalVelocityGiven L.toMeshInfo T) (hflux : boundaryFlux L.toMeshInfo G T = 0) (fit : BodiesOK L bodies)
    (hbox : 0 < (L.box 3 0).length) {u : ℤ → K} {E H : Mat K}
    (hops : ibpmCreateOperators debug L G axes P.unpinned (fun r => (B r).run [.setGhostICs u]) bodies kernel window = .ok (ops, E, H))
    (exact : Solves ops.pN pSolve ops.pinned.DBNG) {N : ℕ} {s s' : NSState K} (R : Reach L B P N u s)
    (h : ibpmAdvance L G P (nestCounts L bodies) ops.pinned vSolve pSolve s = .ok s') :
    ibpmAdvance L G P.unpinned (nestCounts L bodies) ops vSolve (unpinnedSolve ops.pN ops.DBNG pSolve) s = .ok s' := by
  have hr : ops.isRefP = false := by
    obtain ⟨D, Dm, Gr, La, Lm, BN, idx, _, _, _, _, _, _, eo⟩ := ibpmCreate_ok hops
    rw [eo]
    rfl
  obtain ⟨⟨rhs1, s₁⟩, h1, h⟩ := bind_ok h
  obtain ⟨U, h2, h⟩ := bind_ok h
  obtain ⟨dP, h3, h⟩ := bind_ok h
  have hB := assembleRHSVelocity_B h1
  obtain ⟨hh, hBh, -⟩ := R.hist
  have hBe : s₁.B = fun r => (B r).run ([.setGhostICs u] ++ (hh ++ [.updateEqs s.U P.dt])) := by
    rw [hB]
    funext r
    simp only [hBh, Boundary.run, List.foldl_append]
    rfl
  have er : ibpmRHSPoisson L (nestCounts L bodies) ops.pinned { s₁ with U := vec L.UN U } =
      Function.update (ibpmRHSPoisson L (nestCounts L bodies) ops { s₁ with U := vec L.UN U }) 0 0 := by
    unfold ibpmRHSPoisson
    rw [hr]
    rfl
  have hsol := exact _ _ _ h3
  have h3 : pSolve (setNullSpace .amgx ops.DBNG).1 s₁.dP (ibpmRHSPoisson L (nestCounts L bodies) ops.pinned { s₁ with U := vec L.UN U }) = .ok dP := h3
  have hsol : IsSolution ops.pN ops.pinned.DBNG (ibpmRHSPoisson L (nestCounts L bodies) ops.pinned { s₁ with U := vec L.UN U }) dP := hsol
  rw [er] at h3 hsol
  have h4 := unpinnedSolve_ok h3 (coupled_also (s := { s₁ with U := vec L.UN U }) C hn hT hflux fit hbox hops hBe hsol)
  have h1 : assembleRHSVelocity L G P.unpinned ops { s with t := s.t + P.unpinned.dt, ite := s.ite + 1 } = .ok (rhs1, s₁) := h1
  have h2 : vSolve ops.A s₁.U rhs1 = .ok U := h2
  unfold ibpmAdvance
  simp only [bind, Except.bind, h1, h2, h4]
  exact h

end PetIBM
