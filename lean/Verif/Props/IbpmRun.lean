/-
C78: files of complete runs with immersed bodies.
-/
import Verif.Lemmas.IbpmFiles
import Verif.Props.Ibpm

set_option linter.unusedSectionVars false

namespace PetIBM

open Spec

variable {K : Type} [Field K] [LinearOrder K] [IsStrictOrderedRing K]
variable {debug : Bool} {L : Layout} {G : Geom K} {axes : ℕ → Axis K} {T : BCTable K} {B : ℕ → Boundary K}
variable {P : NSParams K} {flow : Option (FlowNode K)} {bodies : BodyPack K} {kernel : DeltaKernel K} {window : ℕ} {ops : NSOps K} {ib : IBOps K}
variable {disk disk' : Disk K} {vSolve fSolve pSolve : LinSolve K} {fmt : K → List Char}

theorem decoupled_ite {UB : Option (ℤ → K)} {s s' : IBState K} (h : decoupledAdvance L G P ops ib UB vSolve fSolve pSolve s = .ok s') :
    s'.ns.ite = s.ns.ite + 1 := by
  obtain ⟨⟨rhs, ns⟩, h1, h⟩ := bind_ok h
  obtain ⟨U, _, h⟩ := bind_ok h
  obtain ⟨df, _, h⟩ := bind_ok h
  obtain ⟨dP, _, h⟩ := bind_ok h
  cases h
  obtain ⟨_, _, h1⟩ := bind_ok h1
  obtain ⟨_, _, h1⟩ := bind_ok h1
  obtain ⟨_, _, h1⟩ := bind_ok h1
  obtain ⟨_, _, h1⟩ := bind_ok h1
  cases h1
  rfl

theorem coupled_ite {counts : List (ℕ × ℕ)} {s s' : NSState K} (h : ibpmAdvance L G P counts ops vSolve pSolve s = .ok s') :
    s'.ite = s.ite + 1 := by
  obtain ⟨⟨rhs, ns⟩, h1, h⟩ := bind_ok h
  obtain ⟨U, _, h⟩ := bind_ok h
  obtain ⟨dP, _, h⟩ := bind_ok h
  cases h
  obtain ⟨_, _, h1⟩ := bind_ok h1
  obtain ⟨_, _, h1⟩ := bind_ok h1
  obtain ⟨_, _, h1⟩ := bind_ok h1
  obtain ⟨_, _, h1⟩ := bind_ok h1
  cases h1
  rfl

/-! ### The decoupled solver -/

section decoupled

variable {s : IBState K}

theorem decoupled_start (S : IBStarted debug L G axes T B P flow bodies kernel window ops ib disk s disk') :
    s.ns.ite = P.nstart ∧ ∀ fuel text, runDecoupled debug L G axes P flow B bodies kernel window fmt vSolve fSolve pSolve fuel disk text =
      bodyLoop P fmt IBState.ns (decoupledAdvance L G P ops ib none vSolve fSolve pSolve) (decoupledWriteStep L P ib bodies) fuel s disk'
        (openForces P.output P.nstart text) := by
  have hi : s.ns.ite = P.nstart := by
    have := (C45_counters S.started (x := fun _ => s.ns) (n := 0) (vSolve := vSolve) (pSolve := pSolve) rfl (fun k hk => absurd hk (by omega)) 0 le_rfl).1
    simpa using this
  refine ⟨hi, ?_⟩
  intro fuel text
  obtain ⟨s₀, h1, h2⟩ := S.init
  have h0 : s₀.ns.ite = P.nstart := by
    obtain ⟨⟨ops', ns⟩, h3, h1⟩ := bind_ok h1
    obtain ⟨idx, h4, h1⟩ := bind_ok h1
    obtain ⟨ib', h5, h1⟩ := bind_ok h1
    cases h1
    obtain ⟨_, _, _, _, rfl⟩ := solverInit_ok h3
    rfl
  unfold runDecoupled
  simp only [h1, h2, h0]

theorem decoupled_writes (S : IBStarted debug L G axes T B P flow bodies kernel window ops ib disk s disk') (h1 : P.nsave ≠ 0) (h2 : P.nrestart ≠ 0)
    (x : IBState K) (d : Disk K) : ∃ d', decoupledWriteStep L P ib bodies x d = .ok (d', (x.ns.t, bodies.calculateAvgForces x.f)) ∧
      WrittenForces L P (bodies.nPts * bodies.dim) x.ns x.f d d' := by
  obtain ⟨_, _, _, _, hn, _⟩ := S.operators
  obtain ⟨d', e, W⟩ := writeWithForces_spec S.constructed.setup.layout P h1 h2 ib.nF x.ns x.f d
  rw [hn] at W
  refine ⟨d', ?_, W⟩
  rw [decoupledWrite_eq, e]
  rfl

theorem IBTrajectory.ite {x : ℕ → IBState K} {n : ℕ} (hi : (x 0).ns.ite = P.nstart) (hx : IBTrajectory L G P ops ib vSolve fSolve pSolve x n) :
    ∀ k, k ≤ n → (x k).ns.ite = P.nstart + k := by
  intro k
  induction k with
  | zero => intro _; simpa using hi
  | succ k ih =>
    intro hk
    rw [decoupled_ite (hx k (by omega)), ih (by omega)]
    push_cast
    ring

/-- C78. After `nt` iterations a run of the decoupled solver is over, with success or with the error of a step. -/
theorem C78_decoupled_ends (S : IBStarted debug L G axes T B P flow bodies kernel window ops ib disk s disk') (h1 : P.nsave ≠ 0) (h2 : P.nrestart ≠ 0)
    (fuel : ℕ) (hf : P.nt.toNat ≤ fuel) (text : TextDisk) :
    ∃ r, runDecoupled debug L G axes P flow B bodies kernel window fmt vSolve fSolve pSolve fuel disk text = some r ∧
      ∀ err, r = .error err → ∃ x k, x 0 = s ∧ k < P.nt.toNat ∧ IBTrajectory L G P ops ib vSolve fSolve pSolve x k ∧
        decoupledAdvance L G P ops ib none vSolve fSolve pSolve (x k) = .error err := by
  obtain ⟨hi, e⟩ := decoupled_start (fmt := fmt) (vSolve := vSolve) (fSolve := fSolve) (pSolve := pSolve) S
  rw [e]
  obtain ⟨r, hr, _, he⟩ := bodyLoop_spec (fmt := fmt) (adv := decoupledAdvance L G P ops ib none vSolve fSolve pSolve) (fun _ _ h => decoupled_ite h)
    (decoupled_writes S h1 h2) P.nt.toNat fuel s disk' (openForces P.output P.nstart text) (by rw [hi]; congr 1; ring) hf
  exact ⟨r, hr, he⟩

theorem decoupled_run_eq (S : IBStarted debug L G axes T B P flow bodies kernel window ops ib disk s disk') (h1 : P.nsave ≠ 0) (h2 : P.nrestart ≠ 0)
    (hs : 0 ≤ P.nstart) (fuel : ℕ) (text text' : TextDisk) (s' : IBState K) (d : Disk K)
    (hr : runDecoupled debug L G axes P flow B bodies kernel window fmt vSolve fSolve pSolve fuel disk text = some (.ok (s', d, text'))) :
    ∃ x, x 0 = s ∧ IBTrajectory L G P ops ib vSolve fSolve pSolve x P.nt.toNat ∧ x P.nt.toNat = s' ∧
      RunFiles L P (bodies.nPts * bodies.dim) P.nt.toNat (fun k => (x k).ns) (fun k => (x k).f) disk d ∧
      ∃ file : TextFile, text' = Function.update text (forcesPath P.output P.nstart) (some file) ∧
        file.lines = (List.range P.nt.toNat).map (fun k => forcesLine fmt (x (k + 1)).ns.t (bodies.calculateAvgForces (x (k + 1)).f)) ∧ file.terminated = true := by
  obtain ⟨hi, e⟩ := decoupled_start (fmt := fmt) (vSolve := vSolve) (fSolve := fSolve) (pSolve := pSolve) S
  rw [e] at hr
  obtain ⟨x, e, x0, e0, hx, hW, xn, rfl, ht⟩ := bodyLoop_ok (fmt := fmt) (fun _ _ h => decoupled_ite h) (decoupled_writes S h1 h2)
    (n := P.nt.toNat) (by rw [hi]; congr 1; ring) hr
  have hL := S.constructed.setup.layout
  refine ⟨x, x0, hx, xn, ?_, _, by rw [ht, printAll], rfl, rfl⟩
  obtain ⟨i1, i2⟩ := started_files S.started
  rw [← e0] at i1 i2
  exact runFiles hs (IBTrajectory.ite (by rw [x0]; exact hi) hx) hW i1 (fun h => by rw [x0]; exact i2 h)

/-- C78. If a run of the decoupled solver succeeds, it has made `nt` steps; the steps that are multiples of `nsave` or `nrestart` have their
files, the latter with the Lagrangian forces; the file of forces has one line per step, with time and total force on every body; other files are as
before. -/
theorem C78_decoupled (S : IBStarted debug L G axes T B P flow bodies kernel window ops ib disk s disk') (h1 : P.nsave ≠ 0) (h2 : P.nrestart ≠ 0)
    (hs : 0 ≤ P.nstart) (fuel : ℕ) (text text' : TextDisk) (s' : IBState K) (d : Disk K)
    (hr : runDecoupled debug L G axes P flow B bodies kernel window fmt vSolve fSolve pSolve fuel disk text = some (.ok (s', d, text'))) :
    ∃ x, x 0 = s ∧ IBTrajectory L G P ops ib vSolve fSolve pSolve x P.nt.toNat ∧ x P.nt.toNat = s' ∧
      RunFiles L P (bodies.nPts * bodies.dim) P.nt.toNat (fun k => (x k).ns) (fun k => (x k).f) disk d ∧
      ∃ file, text' = Function.update text (forcesPath P.output P.nstart) (some file) ∧
        ForcesFile fmt bodies P.nt.toNat (fun k => (x k).ns) (fun k => (x k).f) file := by
  obtain ⟨x, x0, hx, xn, F, ⟨lines, term⟩, ht, h3, h4⟩ := decoupled_run_eq S h1 h2 hs fuel text text' s' d hr
  simp only at h3 h4
  subst h3 h4
  exact ⟨x, x0, hx, xn, F, _, ht, forcesFile S.fit.pack⟩

end decoupled

/-! ### The coupled solver -/

section coupled

variable {s : NSState K}

theorem coupled_start (S : CoupledStarted debug L G axes T B P flow bodies kernel window ops disk s disk') :
    s.ite = P.nstart ∧ ∀ fuel text, runCoupled debug L G axes P flow B bodies kernel window fmt vSolve pSolve fuel disk text =
      bodyLoop P fmt id (ibpmAdvance L G P (nestCounts L bodies) ops vSolve pSolve) (ibpmWriteStep L P (nestCounts L bodies) bodies) fuel s disk'
        (openForces P.output P.nstart text) := by
  obtain ⟨s₀, ⟨E, H⟩, h1, h2⟩ := S.init
  have h0 : s₀.ite = P.nstart := by
    obtain ⟨⟨U, p⟩, h3, h1⟩ := bind_ok h1
    obtain ⟨⟨ops', E', H'⟩, h4, h1⟩ := bind_ok h1
    cases h1
    rfl
  refine ⟨?_, ?_⟩
  · rw [← h0]
    unfold ibpmIoInitialData at h2
    split_ifs at h2
    · obtain ⟨d, _, h2⟩ := bind_ok h2
      cases h2
      rfl
    · obtain ⟨d, hd, h2⟩ := bind_ok h2
      cases h2
      obtain ⟨s', h5, hd⟩ := bind_ok hd
      obtain ⟨f, h6, hd⟩ := bind_ok hd
      obtain ⟨_, _, _, _, _, _, _, _, _, rfl⟩ := readRestart_ok h5
      split at hd
      · cases hd
        rfl
      · cases hd
  · intro fuel text
    unfold runCoupled
    simp only [h1, h2, h0]

theorem coupled_writes (S : CoupledStarted debug L G axes T B P flow bodies kernel window ops disk s disk') (h1 : P.nsave ≠ 0) (h2 : P.nrestart ≠ 0)
    (x : NSState K) (d : Disk K) : ∃ d', ibpmWriteStep L P (nestCounts L bodies) bodies x d =
        .ok (d', ((id x).t, bodies.calculateAvgForces (subForces (nestCounts L bodies) x.p))) ∧
      WrittenForces L P (bodies.nPts * bodies.dim) { x with p := subPressure (nestCounts L bodies) x.p } (subForces (nestCounts L bodies) x.p) d d' := by
  obtain ⟨d', e, W⟩ := writeWithForces_spec S.constructed.setup.layout P h1 h2 (bodies.nPts * bodies.dim)
    { x with p := subPressure (nestCounts L bodies) x.p } (subForces (nestCounts L bodies) x.p) d
  refine ⟨d', ?_, W⟩
  rw [ibpmWrite_eq, e]
  rfl

theorem CoupledTrajectory.ite {counts : List (ℕ × ℕ)} {x : ℕ → NSState K} {n : ℕ} (hi : (x 0).ite = P.nstart)
    (hx : CoupledTrajectory L G P counts ops vSolve pSolve x n) : ∀ k, k ≤ n → (x k).ite = P.nstart + k := by
  intro k
  induction k with
  | zero => intro _; simpa using hi
  | succ k ih =>
    intro hk
    rw [coupled_ite (hx k (by omega)), ih (by omega)]
    push_cast
    ring

/-- C78. After `nt` iterations a run of the coupled solver is over, with success or with the error of a step. -/
theorem C78_coupled_ends (S : CoupledStarted debug L G axes T B P flow bodies kernel window ops disk s disk') (h1 : P.nsave ≠ 0) (h2 : P.nrestart ≠ 0)
    (fuel : ℕ) (hf : P.nt.toNat ≤ fuel) (text : TextDisk) :
    ∃ r, runCoupled debug L G axes P flow B bodies kernel window fmt vSolve pSolve fuel disk text = some r ∧
      ∀ err, r = .error err → ∃ x k, x 0 = s ∧ k < P.nt.toNat ∧ CoupledTrajectory L G P (nestCounts L bodies) ops vSolve pSolve x k ∧
        ibpmAdvance L G P (nestCounts L bodies) ops vSolve pSolve (x k) = .error err := by
  obtain ⟨hi, e⟩ := coupled_start (fmt := fmt) (vSolve := vSolve) (pSolve := pSolve) S
  rw [e]
  obtain ⟨r, hr, _, he⟩ := bodyLoop_spec (ns := id) (fmt := fmt) (adv := ibpmAdvance L G P (nestCounts L bodies) ops vSolve pSolve) (fun _ _ h => coupled_ite h)
    (coupled_writes S h1 h2) P.nt.toNat fuel s disk' (openForces P.output P.nstart text) (by rw [id, hi]; congr 1; ring) hf
  exact ⟨r, hr, he⟩

theorem coupled_run_eq (S : CoupledStarted debug L G axes T B P flow bodies kernel window ops disk s disk') (h1 : P.nsave ≠ 0) (h2 : P.nrestart ≠ 0)
    (hs : 0 ≤ P.nstart) (fuel : ℕ) (text text' : TextDisk) (s' : NSState K) (d : Disk K)
    (hr : runCoupled debug L G axes P flow B bodies kernel window fmt vSolve pSolve fuel disk text = some (.ok (s', d, text'))) :
    ∃ x, x 0 = s ∧ CoupledTrajectory L G P (nestCounts L bodies) ops vSolve pSolve x P.nt.toNat ∧ x P.nt.toNat = s' ∧
      RunFiles L P (bodies.nPts * bodies.dim) P.nt.toNat (fun k => { x k with p := subPressure (nestCounts L bodies) (x k).p })
        (fun k => subForces (nestCounts L bodies) (x k).p) disk d ∧
      ∃ file : TextFile, text' = Function.update text (forcesPath P.output P.nstart) (some file) ∧
        file.lines = (List.range P.nt.toNat).map (fun k => forcesLine fmt (x (k + 1)).t (bodies.calculateAvgForces (subForces (nestCounts L bodies) (x (k + 1)).p))) ∧ file.terminated = true := by
  obtain ⟨hi, e⟩ := coupled_start (fmt := fmt) (vSolve := vSolve) (pSolve := pSolve) S
  rw [e] at hr
  obtain ⟨x, e, x0, e0, hx, hW, xn, rfl, ht⟩ := bodyLoop_ok (ns := id) (fmt := fmt) (fun _ _ h => coupled_ite h) (coupled_writes S h1 h2)
    (n := P.nt.toNat) (by rw [id, hi]; congr 1; ring) hr
  have hL := S.constructed.setup.layout
  refine ⟨x, x0, hx, xn, ?_, _, by rw [ht, printAll], rfl, rfl⟩
  have ite := CoupledTrajectory.ite (by rw [x0]; exact hi) hx
  have init : (∀ path, (P.nstart = 0 → path ≠ stepPath P.output 0) → disk' path = disk path) ∧
      (P.nstart = 0 → ∃ file, disk' (stepPath P.output 0) = some file ∧ SolutionIn L file { s with p := subPressure (nestCounts L bodies) s.p }) := by
    obtain ⟨s₀, EH, i1, i2⟩ := S.init
    have h0 : s₀.ite = P.nstart := by
      obtain ⟨⟨U, p⟩, h3, i1⟩ := bind_ok i1
      obtain ⟨⟨ops', E', H'⟩, h4, i1⟩ := bind_ok i1
      cases i1
      rfl
    unfold ibpmIoInitialData at i2
    split_ifs at i2 with hz
    · obtain ⟨d, hd, i2⟩ := bind_ok i2
      cases i2
      obtain ⟨file, e1, e2⟩ := writeSolution_spec hL { s with p := subPressure (nestCounts L bodies) s.p } disk (stepPath P.output s.ite)
      have hd : writeSolutionHDF5 L { s with p := subPressure (nestCounts L bodies) s.p } disk (stepPath P.output s.ite) = .ok disk' := hd
      rw [e1] at hd
      cases hd
      rw [hz]
      refine ⟨fun path hp => ?_, fun _ => ⟨file, Function.update_self .., e2.velocity, e2.pressure, e2.time⟩⟩
      rw [Function.update_of_ne (hp (by omega))]
    · obtain ⟨d, hd, i2⟩ := bind_ok i2
      cases i2
      exact ⟨fun _ _ => rfl, fun h => absurd (h0.trans h) hz⟩
  rw [← e0] at init
  exact runFiles hs (ns := fun k => { x k with p := subPressure (nestCounts L bodies) (x k).p }) ite hW init.1 (fun h => by simp only [x0]; exact init.2 h)

/-- C78. The same for the coupled solver, whose pressure and Lagrangian forces are the two parts of one vector. -/
theorem C78_coupled (S : CoupledStarted debug L G axes T B P flow bodies kernel window ops disk s disk') (h1 : P.nsave ≠ 0) (h2 : P.nrestart ≠ 0)
    (hs : 0 ≤ P.nstart) (fuel : ℕ) (text text' : TextDisk) (s' : NSState K) (d : Disk K)
    (hr : runCoupled debug L G axes P flow B bodies kernel window fmt vSolve pSolve fuel disk text = some (.ok (s', d, text'))) :
    ∃ x, x 0 = s ∧ CoupledTrajectory L G P (nestCounts L bodies) ops vSolve pSolve x P.nt.toNat ∧ x P.nt.toNat = s' ∧
      RunFiles L P (bodies.nPts * bodies.dim) P.nt.toNat (fun k => { x k with p := subPressure (nestCounts L bodies) (x k).p })
        (fun k => subForces (nestCounts L bodies) (x k).p) disk d ∧
      ∃ file, text' = Function.update text (forcesPath P.output P.nstart) (some file) ∧
        ForcesFile fmt bodies P.nt.toNat x (fun k => subForces (nestCounts L bodies) (x k).p) file := by
  obtain ⟨x, x0, hx, xn, F, ⟨lines, term⟩, ht, h3, h4⟩ := coupled_run_eq S h1 h2 hs fuel text text' s' d hr
  simp only at h3 h4
  subst h3 h4
  exact ⟨x, x0, hx, xn, F, _, ht, forcesFile S.fit.pack⟩

end coupled

end PetIBM
