/-
C85: runs of the coupled solver and of the solver for prescribed motion with the objects of the linear solvers.
-/
import Verif.Model.LinSolverBodies
import Verif.Spec.LinSolverBodies
import Verif.Props.LinSolver
import Verif.Props.RigidRun

set_option linter.unusedSectionVars false

namespace PetIBM

open Spec

variable {K : Type} [Field K] [LinearOrder K] [IsStrictOrderedRing K]
variable {debug : Bool} {L : Layout} {G : Geom K} {axes : ℕ → Axis K} {B : ℕ → Boundary K}
variable {P : NSParams K} {flow : Option (FlowNode K)} {bodies : BodyPack K} {kernel : DeltaKernel K} {window : ℕ} {ops : NSOps K} {ib : IBOps K}
variable {be : Backends K} {haveAmgX : Bool} {readable : String → Bool} {directory : Option String} {velocity poisson forces : SolverNode} {kv kf kp : SolverType}
variable {fmt fmt' : K → List Char}

/-! ### Steps -/

theorem ibpmAdvanceWith_spec {counts : List (ℕ × ℕ)} (s : NSState K) (o : FlowSolvers K) (hv : HasMatrix o.v kv "velocity" ops.A)
    (hp : HasMatrix o.p kp "poisson" ops.DBNG) :
    (∀ e, ibpmAdvance L G P counts ops (solverOf be kv "velocity") (solverOf be kp "poisson") s = .error e → ibpmAdvanceWith be L G P counts ops s o = .error e) ∧
    ∀ s', ibpmAdvance L G P counts ops (solverOf be kv "velocity") (solverOf be kp "poisson") s = .ok s' → ∃ o' rv rp,
      ibpmAdvanceWith be L G P counts ops s o = .ok (s', o') ∧ HasMatrix o'.v kv "velocity" ops.A ∧ HasMatrix o'.p kp "poisson" ops.DBNG ∧
      CoupledSolves be kv kp L G P counts ops s s' rv rp ∧ o'.v.numbers = .ok (rv.iters, rv.res) ∧ o'.p.numbers = .ok (rp.iters, rp.res) := by
  unfold ibpmAdvance ibpmAdvanceWith
  simp only [bind, Except.bind]
  cases h1 : assembleRHSVelocity L G P ops { s with t := s.t + P.dt, ite := s.ite + 1 } with
  | error e =>
    simp only []
    exact ⟨fun e' h => (by cases h; rfl), fun s' h => (by cases h)⟩
  | ok w =>
    obtain ⟨rhs, s₁⟩ := w
    obtain ⟨u1, u2, _⟩ := assemble_U h1
    simp only at u1 u2 ⊢
    obtain ⟨a1, a2⟩ := solve_spec be hv s₁.U rhs
    cases h2 : solverOf be kv "velocity" ops.A s₁.U rhs with
    | error e =>
      rw [a1 e h2]
      exact ⟨fun e' h => (by cases h; rfl), fun s' h => (by cases h)⟩
    | ok U =>
      obtain ⟨rv, v', b1, b2, b3, b4, b5⟩ := a2 U h2
      rw [b3]
      simp only []
      subst b2
      obtain ⟨c1, c2⟩ := solve_spec be hp s₁.dP (ibpmRHSPoisson L counts ops { s₁ with U := vec L.UN rv.x })
      cases h3 : solverOf be kp "poisson" ops.DBNG s₁.dP (ibpmRHSPoisson L counts ops { s₁ with U := vec L.UN rv.x }) with
      | error e =>
        rw [c1 e h3]
        exact ⟨fun e' h => (by cases h; rfl), fun s' h => (by cases h)⟩
      | ok dP =>
        obtain ⟨rp, p', d1, d2, d3, d4, d5⟩ := c2 dP h3
        rw [d3]
        simp only []
        subst d2
        refine ⟨fun e h => (by cases h), fun s' h => ?_⟩
        cases h
        exact ⟨_, rv, rp, rfl, b4, d4, ⟨rhs, s₁, h1, by rw [u1] at b1; exact b1, by rw [u2] at d1; exact d1, rfl⟩, b5, d5⟩

theorem rigidAdvanceWith_error {M : Motion K} {s : RigidState K} {o : BodySolvers K} {A : Mat K} {e : Error} (hv : HasMatrix o.v kv "velocity" ops.A)
    (hf : HasMatrix o.f kf "forces" A) (hp : HasMatrix o.p kp "poisson" ops.DBNG)
    (h : rigidAdvance debug L G axes P ops M kernel window (solverOf be kv "velocity") (solverOf be kf "forces") (solverOf be kp "poisson") s = .error e) :
    rigidAdvanceWith be debug L G axes P ops M kernel window s o = .error e := by
  unfold rigidAdvance at h
  unfold rigidAdvanceWith
  simp only [bind, Except.bind] at h ⊢
  cases h1 : moveBodies debug L G axes P ops M kernel window (s.ns.t + P.dt) s with
  | error e' =>
    rw [h1] at h
    cases h
    rfl
  | ok m =>
    rw [h1] at h
    simp only [] at h ⊢
    obtain ⟨k1, k2, i, r, k3⟩ := hf
    have hset : o.f.setMatrix m.ib.EBNH = .ok { o.f with handle := .object (some m.ib.EBNH) i r } := by
      unfold SolverObject.setMatrix
      rw [k3]
    rw [hset]
    simp only []
    cases h2 : decoupledAdvance L G P ops m.ib (some m.UB) (solverOf be kv "velocity") (solverOf be kf "forces") (solverOf be kp "poisson") m.toIBState with
    | ok st =>
      rw [h2] at h
      cases h
    | error e' =>
      rw [h2] at h
      cases h
      rw [(decoupledAdvanceWith_spec (be := be) (L := L) (G := G) (P := P) (ib := m.ib) (kf := kf) (some m.UB) m.toIBState
        { o with f := { o.f with handle := .object (some m.ib.EBNH) i r } } hv ⟨k1, k2, i, r, rfl⟩ hp).1 _ h2]

theorem rigid_plain {adv : RigidState K → Except Error (RigidState K)} {w : RigidState K → Disk K → TextDisk → Except Error (Disk K × TextDisk)} :
    ∀ (fuel : ℕ) (s : RigidState K) (d : Disk K) (t : TextDisk),
      rigidLoop P adv w fuel s d t = plainLoop P (fun s : RigidState K => s.ns) adv (fun s (d : Disk K × TextDisk) => w s d.1 d.2) fuel s (d, t) := by
  intro fuel
  induction fuel with
  | zero =>
    intro s d t
    unfold rigidLoop plainLoop
    rfl
  | succ fuel ih =>
    intro s d t
    unfold rigidLoop plainLoop
    split_ifs with hf
    · rfl
    · cases adv s with
      | error e => rfl
      | ok s' =>
        simp only []
        cases w s' d t with
        | error e => rfl
        | ok r =>
          obtain ⟨d', t'⟩ := r
          exact ih s' d' t'

/-! ### Runs -/

/-- C85. With usable solvers a run of the coupled solver with its objects is the run in which the systems are solved by functions that fail when the iteration
diverges, and the file of the numbers of iterations has for every step the numbers of the velocity system and of the composite system. Missing: as for
`C85_object_partial`. -/
theorem C85_coupled_same_run_partial (hv : Usable haveAmgX readable directory velocity kv) (hp : Usable haveAmgX readable directory poisson kp)
    (fuel : ℕ) (disk : Disk K) (text : TextDisk) :
    match runCoupled debug L G axes P flow B bodies kernel window fmt' (solverOf be kv "velocity") (solverOf be kp "poisson") fuel disk text with
    | none => runCoupledWith be haveAmgX readable directory velocity poisson fmt fmt' debug L G axes P flow B bodies kernel window fuel disk text = none
    | some (.error e) =>
      runCoupledWith be haveAmgX readable directory velocity poisson fmt fmt' debug L G axes P flow B bodies kernel window fuel disk text = some (.error e)
    | some (.ok (s', d', t')) => ∃ o' file,
      runCoupledWith be haveAmgX readable directory velocity poisson fmt fmt' debug L G axes P flow B bodies kernel window fuel disk text =
        some (.ok (s', o', d', Function.update t' (iterationsPath P.output P.nstart) (some file))) ∧
      ∃ ops EH s₀ d₀ x, ibpmInit debug L G axes P flow B bodies kernel window = .ok ((ops, EH), s₀) ∧
        ibpmIoInitialData L P (nestCounts L bodies) (bodies.nPts * bodies.dim) s₀ disk = .ok (x 0, d₀) ∧
        CoupledTrajectory L G P (nestCounts L bodies) ops (solverOf be kv "velocity") (solverOf be kp "poisson") x P.nt.toNat ∧ x P.nt.toNat = s' ∧
        file.terminated = true ∧ file.lines.length = P.nt.toNat ∧
        ∀ k, k < P.nt.toNat → ∃ rv rp, CoupledSolves be kv kp L G P (nestCounts L bodies) ops (x k) (x (k + 1)) rv rp ∧
          file.lines[k]? = some (reportLine fmt (P.nstart + k + 1) [rv, rp]) := by
  obtain ⟨v, v1, v2⟩ := create_ok (K := K) hv "velocity"
  obtain ⟨p, p1, p2⟩ := create_ok (K := K) hp "poisson"
  have hc : createFlowSolvers (K := K) haveAmgX readable directory velocity poisson = .ok ⟨v, p⟩ := by
    unfold createFlowSolvers
    rw [v1, p1]
    rfl
  unfold runCoupledWith runCoupled
  simp only [hc]
  cases h1 : ibpmInit debug L G axes P flow B bodies kernel window with
  | error e => rfl
  | ok w =>
    obtain ⟨⟨ops, EH⟩, s₀⟩ := w
    obtain ⟨v', v3, v4⟩ := v2 ops.A
    obtain ⟨p', p3, p4⟩ := p2 ops.DBNG
    have hm : FlowSolvers.setMatrices ⟨v, p⟩ ops = .ok ⟨v', p'⟩ := by
      unfold FlowSolvers.setMatrices
      simp only [v3, p3]
      rfl
    simp only [hm]
    have hi0 : s₀.ite = P.nstart := by
      obtain ⟨_, _, h1⟩ := bind_ok h1
      obtain ⟨_, _, h1⟩ := bind_ok h1
      cases h1
      rfl
    cases h2 : ibpmIoInitialData L P (nestCounts L bodies) (bodies.nPts * bodies.dim) s₀ disk with
    | error e => rfl
    | ok w =>
      obtain ⟨s, d₀⟩ := w
      have hi : s.ite = P.nstart := by
        unfold ibpmIoInitialData at h2
        split_ifs at h2
        · obtain ⟨_, _, h2⟩ := bind_ok h2
          cases h2
          exact hi0
        · obtain ⟨s'', h3, h2⟩ := bind_ok h2
          cases h2
          obtain ⟨s₁, h3, h4⟩ := bind_ok h3
          obtain ⟨_, _, _, _, _, _, _, _, _, rfl⟩ := readRestart_ok h3
          obtain ⟨_, _, h4⟩ := bind_ok h4
          split at h4
          · cases h4
            exact hi0
          · cases h4
      simp only []
      rw [hi0, body_plain]
      obtain ⟨r1, r2, r3⟩ := report_spec (P := P) (ns := (id : NSState K → NSState K))
        (write := fun s (d : Disk K × TextDisk) => (ibpmWriteStep L P (nestCounts L bodies) bodies s d.1).map fun (disk, t, avg) =>
          (disk, printForces P.output P.nstart (forcesLine fmt' t avg) d.2))
        (adv := ibpmAdvance L G P (nestCounts L bodies) ops (solverOf be kv "velocity") (solverOf be kp "poisson"))
        (advW := ibpmAdvanceWith be L G P (nestCounts L bodies) ops) (info := writeLinSolversInfo fmt)
        (Ready := fun o => HasMatrix o.v kv "velocity" ops.A ∧ HasMatrix o.p kp "poisson" ops.DBNG)
        (Good := fun s s' l => ∃ rv rp, CoupledSolves be kv kp L G P (nestCounts L bodies) ops s s' rv rp ∧ l = reportLine fmt s'.ite [rv, rp])
        (fun s s' h => coupled_ite h) (by
          intro s o ho
          obtain ⟨a1, a2⟩ := ibpmAdvanceWith_spec (be := be) (L := L) (G := G) (P := P) (counts := nestCounts L bodies) s o ho.1 ho.2
          refine ⟨a1, fun s' h => ?_⟩
          obtain ⟨o', rv, rp, b1, b2, b4, b5, b6, b8⟩ := a2 s' h
          refine ⟨o', _, b1, by unfold writeLinSolversInfo; rw [b6, b8]; rfl, ⟨b2, b4⟩, rv, rp, b5, ?_⟩
          exact line_two fmt s'.ite rv rp) fuel s ⟨v', p'⟩ (d₀, openForces P.output P.nstart text) [] ⟨v4, p4⟩
      generalize plainLoop P id _ _ fuel s (d₀, openForces P.output P.nstart text) = r at r1 r2 r3 ⊢
      cases r with
      | none => simp only []; rw [r1 rfl]; rfl
      | some r =>
        cases r with
        | error e => simp only []; rw [r2 e rfl]; rfl
        | ok r =>
          obtain ⟨s₁, d₁, t₁⟩ := r
          obtain ⟨o₁, new, x, e, hn, x0, xn, hx⟩ := r3 s₁ (d₁, t₁) rfl
          simp only []
          have hn : new.length = P.nt.toNat := by
            rw [hn]
            simp only [id]
            rw [hi]
            congr 1
            ring
          rw [hn] at xn hx
          have hite : ∀ k, k ≤ P.nt.toNat → (x k).ite = P.nstart + k := by
            intro k
            induction k with
            | zero => intro _; rw [x0, hi]; simp
            | succ k ih =>
              intro hk
              rw [coupled_ite (hx k (by omega)).1, ih (by omega)]
              push_cast
              ring
          refine ⟨o₁, ⟨new, true⟩, by rw [e]; rfl, ops, EH, s₀, d₀, x, rfl, by rw [x0]; exact h2, fun k hk => (hx k hk).1, xn, rfl, hn, ?_⟩
          intro k hk
          obtain ⟨_, l, hl, rv, rp, hs, rfl⟩ := hx k hk
          refine ⟨rv, rp, hs, ?_⟩
          rw [hl, hite (k + 1) (by omega)]
          push_cast
          rw [add_assoc]

/-- C85. The same for bodies in prescribed motion, for which the object of the forces gets a new matrix in every step: in every step the systems that are
solved are those of the positions of that step. Missing: as for `C85_object_partial`. -/
theorem C85_moving_same_run_partial {M : Motion K} {names : List String} (hv : Usable haveAmgX readable directory velocity kv)
    (hf : Usable haveAmgX readable directory forces kf) (hp : Usable haveAmgX readable directory poisson kp) (fuel : ℕ) (disk : Disk K) (text : TextDisk) :
    match runRigid debug L G axes P flow B bodies names M kernel window fmt' (solverOf be kv "velocity") (solverOf be kf "forces") (solverOf be kp "poisson") fuel disk
      text with
    | none =>
      runRigidWith be haveAmgX readable directory velocity poisson forces fmt fmt' debug L G axes P flow B bodies names M kernel window fuel disk text = none
    | some (.error e) =>
      runRigidWith be haveAmgX readable directory velocity poisson forces fmt fmt' debug L G axes P flow B bodies names M kernel window fuel disk text =
        some (.error e)
    | some (.ok (s', d', t')) => ∃ o' file,
      runRigidWith be haveAmgX readable directory velocity poisson forces fmt fmt' debug L G axes P flow B bodies names M kernel window fuel disk text =
        some (.ok (s', o', d', Function.update t' (iterationsPath P.output P.nstart) (some file))) ∧
      ∃ ops s₀ d₀ t₀ x, rigidInit debug L G axes P flow B bodies kernel window = .ok (ops, s₀) ∧
        rigidIoInitialData L P fmt' names s₀ disk (openForces P.output P.nstart text) = .ok (x 0, d₀, t₀) ∧
        RigidTrajectory debug L G axes P ops M kernel window (solverOf be kv "velocity") (solverOf be kf "forces") (solverOf be kp "poisson") x P.nt.toNat ∧
        x P.nt.toNat = s' ∧ file.terminated = true ∧ file.lines.length = P.nt.toNat ∧
        ∀ k, k < P.nt.toNat → ∃ rv rf rp,
          BodySolves be kv kf kp L G P ops (x (k + 1)).ib (some (x (k + 1)).UB) (x k).toIBState (x (k + 1)).toIBState rv rf rp ∧
          file.lines[k]? = some (reportLine fmt (P.nstart + k + 1) [rv, rp, rf]) := by
  obtain ⟨v, v1, v2⟩ := create_ok (K := K) hv "velocity"
  obtain ⟨p, p1, p2⟩ := create_ok (K := K) hp "poisson"
  obtain ⟨f, f1, f2⟩ := create_ok (K := K) hf "forces"
  have hc : createFlowSolvers (K := K) haveAmgX readable directory velocity poisson = .ok ⟨v, p⟩ := by
    unfold createFlowSolvers
    rw [v1, p1]
    rfl
  unfold runRigidWith runRigid
  simp only [hc, f1]
  cases h1 : rigidInit debug L G axes P flow B bodies kernel window with
  | error e => rfl
  | ok w =>
    obtain ⟨ops, s₀⟩ := w
    obtain ⟨v', v3, v4⟩ := v2 ops.A
    obtain ⟨p', p3, p4⟩ := p2 ops.DBNG
    obtain ⟨f', f3, f4⟩ := f2 s₀.ib.EBNH
    have hm : FlowSolvers.setMatrices ⟨v, p⟩ ops = .ok ⟨v', p'⟩ := by
      unfold FlowSolvers.setMatrices
      simp only [v3, p3]
      rfl
    simp only [hm, f3]
    have hi0 : s₀.ns.ite = P.nstart := by
      obtain ⟨⟨_, _, _⟩, h1', h1⟩ := bind_ok h1
      cases h1
      obtain ⟨⟨ops', ns⟩, h3, h1'⟩ := bind_ok h1'
      obtain ⟨idx, h4, h1'⟩ := bind_ok h1'
      obtain ⟨ib', h5, h1'⟩ := bind_ok h1'
      cases h1'
      obtain ⟨_, _, _, _, rfl⟩ := solverInit_ok h3
      rfl
    rw [hi0]
    cases h2 : rigidIoInitialData L P fmt' names s₀ disk (openForces P.output P.nstart text) with
    | error e => rfl
    | ok w =>
      obtain ⟨s, d₀, t₀⟩ := w
      have hi : s.ns.ite = P.nstart := by
        obtain ⟨⟨st, dd⟩, h3, h2⟩ := bind_ok h2
        obtain ⟨_, _, h2⟩ := bind_ok h2
        cases h2
        unfold decoupledIoInitialData at h3
        split_ifs at h3
        · obtain ⟨_, _, h3⟩ := bind_ok h3
          cases h3
          exact hi0
        · obtain ⟨s'', h4, h3⟩ := bind_ok h3
          cases h3
          obtain ⟨s₁, h3, h4⟩ := bind_ok h4
          obtain ⟨_, _, _, _, _, _, _, _, _, rfl⟩ := readRestart_ok h3
          obtain ⟨_, _, h4⟩ := bind_ok h4
          split at h4
          · cases h4
            exact hi0
          · cases h4
      simp only []
      rw [rigid_plain]
      obtain ⟨r1, r2, r3⟩ := report_spec (P := P) (ns := fun s : RigidState K => s.ns)
        (write := fun s (d : Disk K × TextDisk) => rigidWriteStep L P fmt' names s d.1 d.2)
        (adv := rigidAdvance debug L G axes P ops M kernel window (solverOf be kv "velocity") (solverOf be kf "forces") (solverOf be kp "poisson"))
        (advW := rigidAdvanceWith be debug L G axes P ops M kernel window) (info := fun s o => decoupledWriteLinSolversInfo fmt s.ns o)
        (Ready := fun o => HasMatrix o.v kv "velocity" ops.A ∧ (∃ A, HasMatrix o.f kf "forces" A) ∧ HasMatrix o.p kp "poisson" ops.DBNG)
        (Good := fun s s' l => ∃ rv rf rp, BodySolves be kv kf kp L G P ops s'.ib (some s'.UB) s.toIBState s'.toIBState rv rf rp ∧
          l = reportLine fmt s'.ns.ite [rv, rp, rf])
        (fun s s' h => rigid_ite h) (by
          rintro s o ⟨ho, ⟨A, hA⟩, ho'⟩
          refine ⟨fun e h => rigidAdvanceWith_error ho hA ho' h, fun s' h => ?_⟩
          obtain ⟨o', rv, rf, rp, b1, b2, b3, b4, b5, b6, b7, b8⟩ := C85_moving_matrix ho hA ho' h
          refine ⟨o', _, b1, by unfold decoupledWriteLinSolversInfo; rw [b6, b7, b8]; rfl, ⟨b3, ⟨_, b4⟩, b5⟩, rv, rf, rp, b2, ?_⟩
          exact line_three fmt s'.ns.ite rv rp rf) fuel s ⟨⟨v', p'⟩, f'⟩ (d₀, t₀) [] ⟨v4, ⟨_, f4⟩, p4⟩
      generalize plainLoop P _ _ _ fuel s (d₀, t₀) = r at r1 r2 r3 ⊢
      cases r with
      | none => simp only []; rw [r1 rfl]; rfl
      | some r =>
        cases r with
        | error e => simp only []; rw [r2 e rfl]; rfl
        | ok r =>
          obtain ⟨s₁, d₁, t₁⟩ := r
          obtain ⟨o₁, new, x, e, hn, x0, xn, hx⟩ := r3 s₁ (d₁, t₁) rfl
          simp only []
          have hn : new.length = P.nt.toNat := by
            rw [hn, hi]
            congr 1
            ring
          rw [hn] at xn hx
          have hite : ∀ k, k ≤ P.nt.toNat → (x k).ns.ite = P.nstart + k := by
            intro k
            induction k with
            | zero => intro _; rw [x0, hi]; simp
            | succ k ih =>
              intro hk
              rw [rigid_ite (hx k (by omega)).1, ih (by omega)]
              push_cast
              ring
          refine ⟨o₁, ⟨new, true⟩, by rw [e]; rfl, ops, s₀, d₀, t₀, x, rfl, by rw [x0]; exact h2, fun k hk => (hx k hk).1, xn, rfl, hn, ?_⟩
          intro k hk
          obtain ⟨_, l, hl, rv, rf, rp, hs, rfl⟩ := hx k hk
          refine ⟨rv, rf, rp, hs, ?_⟩
          rw [hl, hite (k + 1) (by omega)]
          push_cast
          rw [add_assoc]

/-! ### Examples -/

/-- whether a run has ended without error -/
def endsWell {α : Type} : Option (Except Error α) → Bool
  | some (.ok _) => true
  | _ => false

theorem endsWell_ok {α : Type} {r : Option (Except Error α)} (h : endsWell r = true) : ∃ a, r = some (.ok a) := by
  match r, h with
  | some (.ok a), _ => exact ⟨a, rfl⟩

/-- Two steps with the rising point, with objects made from a relative and an absolute path to a file, and one without file, succeed. -/
theorem exampleMovingReports (fmt : ℚ → List Char) : ∃ s' o' d text',
    runRigidWith gaussBackends false exampleReadable (some "/case") ⟨some "CPU", some "solvers.info"⟩ ⟨none, some "/case/solvers.info"⟩ ⟨some "CPU", some "solvers.info"⟩
      fmt (fun _ => ['0']) true twoByTwo tailGeom twoAxes tailParams (some (pushedFlow none)) throughB pointPack ["body0"] risingMotion hatKernel 1 2 (fun _ => none)
      (fun _ => none) = some (.ok (s', o', d, text')) := by
  obtain ⟨⟨s', d, t⟩, hr⟩ := endsWell_ok (r := runRigid true twoByTwo tailGeom twoAxes tailParams (some (pushedFlow none)) throughB pointPack ["body0"] risingMotion
    hatKernel 1 (fun _ => ['0']) (solverOf gaussBackends .ksp "velocity") (solverOf gaussBackends .ksp "forces") (solverOf gaussBackends .ksp "poisson") 2 (fun _ => none)
    (fun _ => none)) (by decide +kernel)
  have h := C85_moving_same_run_partial (be := gaussBackends) (fmt := fmt) (fmt' := fun _ => ['0']) (debug := true) (L := twoByTwo) (G := tailGeom) (axes := twoAxes)
    (P := tailParams) (flow := some (pushedFlow none)) (B := throughB) (bodies := pointPack) (kernel := hatKernel) (window := 1) (M := risingMotion)
    (names := ["body0"]) exampleUsable.1 exampleUsable.1 exampleUsable.2.1 2 (fun _ => none) (fun _ => none)
  rw [hr] at h
  obtain ⟨o', file, h, _⟩ := h
  exact ⟨_, _, _, _, h⟩

/-- A step of the coupled solver with a fixed point succeeds too. -/
theorem exampleCoupledReports (fmt : ℚ → List Char) : ∃ s' o' d text',
    runCoupledWith gaussBackends false exampleReadable (some "/case") ⟨some "CPU", some "solvers.info"⟩ ⟨none, some "/case/solvers.info"⟩
      fmt (fun _ => ['0']) true twoByTwo tailGeom twoAxes tailParams (some (pushedFlow none)) throughB pointPack hatKernel 1 2 (fun _ => none)
      (fun _ => none) = some (.ok (s', o', d, text')) := by
  obtain ⟨⟨s', d, t⟩, hr⟩ := endsWell_ok (r := runCoupled true twoByTwo tailGeom twoAxes tailParams (some (pushedFlow none)) throughB pointPack
    hatKernel 1 (fun _ => ['0']) (solverOf gaussBackends .ksp "velocity") (solverOf gaussBackends .ksp "poisson") 2 (fun _ => none)
    (fun _ => none)) (by decide +kernel)
  have h := C85_coupled_same_run_partial (be := gaussBackends) (fmt := fmt) (fmt' := fun _ => ['0']) (debug := true) (L := twoByTwo) (G := tailGeom) (axes := twoAxes)
    (P := tailParams) (flow := some (pushedFlow none)) (B := throughB) (bodies := pointPack) (kernel := hatKernel) (window := 1)
    exampleUsable.1 exampleUsable.2.1 2 (fun _ => none) (fun _ => none)
  rw [hr] at h
  obtain ⟨o', file, h, _⟩ := h
  exact ⟨_, _, _, _, h⟩

end PetIBM
