/-
C77: continuing a run with immersed bodies from a file.
-/
import Verif.Lemmas.IbpmRestart

set_option linter.unusedSectionVars false

namespace PetIBM

open Spec

variable {K : Type} [Field K] [LinearOrder K] [IsStrictOrderedRing K]
variable {debug : Bool} {L : Layout} {G : Geom K} {axes : ℕ → Axis K} {T : BCTable K} {B : ℕ → Boundary K}
variable {P : NSParams K} {flow : Option (FlowNode K)} {bodies : BodyPack K} {kernel : DeltaKernel K} {window : ℕ} {ops : NSOps K} {ib : IBOps K}
variable {disk disk' : Disk K} {vSolve fSolve pSolve : LinSolve K} {fmt : K → List Char} {n : ℕ}

theorem forcesPath_injective {output : String} {a b : ℤ} (ha : 0 ≤ a) (hb : 0 ≤ b) (h : forcesPath output a = forcesPath output b) : a = b := by
  obtain ⟨a, rfl⟩ := Int.eq_ofNat_of_zero_le ha
  obtain ⟨b, rfl⟩ := Int.eq_ofNat_of_zero_le hb
  have := congrArg String.toList h
  simp only [forcesPath, String.toList_append, List.append_assoc, List.append_cancel_left_eq, List.append_cancel_right_eq] at this
  have e : toString ((a : ℕ) : ℤ) = toString ((b : ℕ) : ℤ) := String.toList_injective this
  exact_mod_cast toString_nat_injective (a := a) (b := b) e

/-! ### The decoupled solver -/

section decoupled

variable {s : IBState K} {x : ℕ → IBState K}

/-- A fresh solver that reads a file with the state `q`. -/
theorem decoupled_reads (S : IBStarted debug L G axes T B P flow bodies kernel window ops ib disk s disk') {u : ℤ → K} {q : IBState K}
    (Rq : Reach L B P ops.pN u q.ns) (outF : ∀ i : ℤ, ¬ (0 ≤ i ∧ i < ib.nF) → q.f i = 0) (k : ℕ) (hne : P.nstart + k ≠ 0) (nt : ℤ) (d : Disk K)
    (file : H5File K) (hf : d (stepPath P.output (P.nstart + k)) = some file) (hS : SolutionIn L file q.ns) (hR : RestartIn L file q.ns)
    (hF : ForceIn (bodies.nPts * bodies.dim) file q.f) :
    ∃ (s' : IBState K) (s₀ : NSState K), IBStarted debug L G axes T B (continued P k nt) flow bodies kernel window ops ib d s' d ∧ s'.f = q.f ∧ s'.df = (fun _ => 0) ∧
      s₀.B = (fun r => (B r).run [.setGhostICs s₀.U]) ∧
      s'.ns = { s₀ with U := q.ns.U, p := q.ns.p, t := q.ns.t, conv := q.ns.conv, diff := q.ns.diff, ite := P.nstart + k,
                        B := fun r => (s₀.B r).setGhostICs q.ns.U } ∧
      decoupledInit debug L G axes P flow B bodies kernel window = .ok (ops, ib, ⟨s₀, fun _ => 0, fun _ => 0⟩) := by
  obtain ⟨u₀, hops, _⟩ := S.started.reach
  obtain ⟨_, _, _, _, hn, _⟩ := S.operators
  obtain ⟨t, s₀, S', j1, j2, e, j3, j4⟩ := restarted_from S.started Rq k ⟨u₀, hops⟩ hne nt d file hf hS hR
  obtain ⟨q, h1, _⟩ := S.init
  have hinit := h1
  obtain ⟨⟨ops', ns⟩, h3, h1⟩ := bind_ok h1
  obtain ⟨idx, h4, h1⟩ := bind_ok h1
  obtain ⟨ib', h5, h1⟩ := bind_ok h1
  cases h1
  rw [j1] at h3
  cases h3
  refine ⟨⟨t, q.f, fun _ => 0⟩, s₀, ⟨S.constructed, S'.params, S.fit, ⟨{ s₀ with ite := P.nstart + k }, fun _ => 0, fun _ => 0⟩, ?_, ?_⟩, rfl, rfl, j2, e, hinit⟩
  · unfold decoupledInit
    have h5' : createExtraOperators debug L G axes (continued P k nt) ops s₀.B bodies (meshIdxAt idx) kernel window = .ok ib := h5
    simp only [j3, h4, h5', bind, Except.bind]
    rfl
  · have hr := forceIn_read hf hF
    rw [← hn] at hr
    have hp := packedVec_list outF
    unfold decoupledIoInitialData decoupledReadRestart
    rw [if_neg (show ¬ (P.nstart + (k : ℤ)) = 0 from hne)]
    have j4' : readRestartDataHDF5 L { s₀ with ite := P.nstart + k } d (stepPath (continued P k nt).output (P.nstart + k)) = .ok t := j4
    have hr' : readHDF5Vecs d (stepPath (continued P k nt).output (P.nstart + k)) "/" ["force"] [ib.nF] = .ok [packedList ib.nF q.f] := hr
    simp only [j4', hr', bind, Except.bind, pure, Except.pure, hp]

/-- A fresh solver that reads the file of step `k`. -/
theorem decoupled_restarted (S : IBStarted debug L G axes T B P flow bodies kernel window ops ib disk s disk') (h0 : x 0 = s)
    (hx : IBTrajectory L G P ops ib vSolve fSolve pSolve x n) (k : ℕ) (hk : k ≤ n) (hne : P.nstart + k ≠ 0) (nt : ℤ) (d : Disk K) (file : H5File K)
    (hf : d (stepPath P.output (P.nstart + k)) = some file) (hS : SolutionIn L file (x k).ns) (hR : RestartIn L file (x k).ns)
    (hF : ForceIn (bodies.nPts * bodies.dim) file (x k).f) :
    ∃ (s' : IBState K) (s₀ : NSState K), IBStarted debug L G axes T B (continued P k nt) flow bodies kernel window ops ib d s' d ∧ s'.f = (x k).f ∧ s'.df = (fun _ => 0) ∧
      s₀.B = (fun r => (B r).run [.setGhostICs s₀.U]) ∧
      s'.ns = { s₀ with U := (x k).ns.U, p := (x k).ns.p, t := (x k).ns.t, conv := (x k).ns.conv, diff := (x k).ns.diff, ite := P.nstart + k,
                        B := fun r => (s₀.B r).setGhostICs (x k).ns.U } ∧
      decoupledInit debug L G axes P flow B bodies kernel window = .ok (ops, ib, ⟨s₀, fun _ => 0, fun _ => 0⟩) := by
  obtain ⟨u, hops, R⟩ := S.reach_at h0 hx
  exact decoupled_reads S (R k hk) (S.outF h0 hx k hk) k hne nt d file hf hS hR hF

/-- C77. A run of the decoupled solver is saved in step `k` (solution, restart data and Lagrangian forces), and a fresh solver with the same
configuration, except that it starts at this step, reads the file. For all boundary conditions it is initialised without error, and step, time,
velocity, pressure, explicit terms and Lagrangian forces are those of step `k`. Missing: the ghost points at convective boundaries and the
last increments of pressure and forces. -/
theorem C77_decoupled_state_partial (S : IBStarted debug L G axes T B P flow bodies kernel window ops ib disk s disk') (h0 : x 0 = s)
    (hx : IBTrajectory L G P ops ib vSolve fSolve pSolve x n) (k : ℕ) (hk : k ≤ n) (hne : P.nstart + k ≠ 0) (nt : ℤ) (d : Disk K) (file : H5File K)
    (hf : d (stepPath P.output (P.nstart + k)) = some file) (hS : SolutionIn L file (x k).ns) (hR : RestartIn L file (x k).ns)
    (hF : ForceIn (bodies.nPts * bodies.dim) file (x k).f) :
    ∃ s', IBStarted debug L G axes T B (continued P k nt) flow bodies kernel window ops ib d s' d ∧ s'.ns.ite = (x k).ns.ite ∧ s'.ns.t = (x k).ns.t ∧
      s'.ns.U = (x k).ns.U ∧ s'.ns.p = (x k).ns.p ∧ s'.ns.conv = (x k).ns.conv ∧ s'.ns.diff = (x k).ns.diff ∧ s'.f = (x k).f := by
  obtain ⟨s', s₀, S', e1, _, _, e2, _⟩ := decoupled_restarted S h0 hx k hk hne nt d file hf hS hR hF
  have hi := (decoupled_start (fmt := fun _ => []) (vSolve := vSolve) (fSolve := fSolve) (pSolve := pSolve) S).1
  refine ⟨s', S', ?_, ?_, ?_, ?_, ?_, ?_, e1⟩
  · rw [e2, IBTrajectory.ite (by rw [h0]; exact hi) hx k hk]
  all_goals rw [e2]

/-- C77. In the situation of `C77_decoupled_state_partial`, without convective boundaries, the steps of the fresh solver are those of
the first run, with the same flow and forces or the same error. Missing: convective boundaries (the ghost values are not saved, see
`C77_false_convective`), and linear solvers for pressure and forces whose result depends on the initial guess, the last increment, which is not saved. -/
theorem C77_decoupled_restart_partial (S : IBStarted debug L G axes T B P flow bodies kernel window ops ib disk s disk') (h0 : x 0 = s)
    (hx : IBTrajectory L G P ops ib vSolve fSolve pSolve x n) (hT : NoConvective L T) (hgf : IgnoresGuess fSolve) (hg : IgnoresGuess pSolve)
    (k : ℕ) (hk : k ≤ n) (hne : P.nstart + k ≠ 0) (nt : ℤ) (d : Disk K) (file : H5File K)
    (hf : d (stepPath P.output (P.nstart + k)) = some file) (hS : SolutionIn L file (x k).ns) (hR : RestartIn L file (x k).ns)
    (hF : ForceIn (bodies.nPts * bodies.dim) file (x k).f) :
    ∃ s', IBStarted debug L G axes T B (continued P k nt) flow bodies kernel window ops ib d s' d ∧
      ∃ y, y 0 = s' ∧ IBTrajectory L G (continued P k nt) ops ib vSolve fSolve pSolve y (n - k) ∧
        (∀ j, k + j ≤ n → SameFlow L (x (k + j)).ns (y j).ns ∧ (x (k + j)).f = (y j).f) ∧
        ∀ e, decoupledAdvance L G P ops ib none vSolve fSolve pSolve (x n) = .error e →
          decoupledAdvance L G (continued P k nt) ops ib none vSolve fSolve pSolve (y (n - k)) = .error e := by
  obtain ⟨u, _, R⟩ := S.reach_at h0 hx
  obtain ⟨s', s₀, S', e1, _, e0, es, _⟩ := decoupled_restarted S h0 hx k hk hne nt d file hf hS hR hF
  have hi := (decoupled_start (fmt := fun _ => []) (vSolve := vSolve) (fSolve := fSolve) (pSolve := pSolve) S).1
  have E : SameFlow L (x k).ns s'.ns := by
    rw [es]
    refine ⟨IBTrajectory.ite (by rw [h0]; exact hi) hx k hk, rfl, rfl, rfl, rfl, rfl, ?_⟩
    intro r hr
    obtain ⟨h, hB, hj⟩ := (R k hk).hist
    rw [hB]
    simp only [e0]
    show _ = (B r).run ([.setGhostICs s₀.U] ++ [.setGhostICs (x k).ns.U])
    exact ghosts_determined S.constructed hT ⟨u, h, rfl⟩ ⟨s₀.U, _, rfl⟩ hj ⟨[.setGhostICs s₀.U], Or.inl rfl⟩ hr
  obtain ⟨u', _, R'⟩ := S'.started.reach
  have R' : Reach L B P ops.pN u' s'.ns := ⟨R'.hist, R'.clean, R'.nconv, R'.ndiff, R'.outU, R'.outP, R'.outConv, R'.outDiff⟩
  have hc := S.started.schemes
  obtain ⟨y, y0, hy, hE, he⟩ := same_steps (adv := decoupledAdvance L G P ops ib none vSolve fSolve pSolve)
    (E := fun a b => Reach L B P ops.pN u a.ns ∧ Reach L B P ops.pN u' b.ns ∧ SameFlow L a.ns b.ns ∧ a.f = b.f)
    (by
      rintro a b ⟨Ra, Rb, Eab, Ef⟩
      obtain ⟨h1, h2⟩ := decoupled_same (ib := ib) (UB := none) (vSolve := vSolve) S.constructed hc.1.1 hc.2.1 hgf hg Ra Rb Eab Ef
      refine ⟨?_, h2⟩
      intro a₁ ha
      obtain ⟨b₁, hb, E1, E2⟩ := h1 a₁ ha
      obtain ⟨_, _, _, _, _, _, ha', _⟩ := decoupled_ok S.constructed hc.1.1 hc.2.1 Ra ha
      obtain ⟨_, _, _, _, _, _, hb', _⟩ := decoupled_ok S.constructed hc.1.1 hc.2.1 Rb hb
      exact ⟨b₁, hb, Ra.step S.constructed hc.1.1 hc.2.1 ha', Rb.step S.constructed hc.1.1 hc.2.1 hb', E1, E2⟩)
    hk hx ⟨R k hk, R', E, e1.symm⟩
  exact ⟨s', S', y, y0, hy, fun j hj => (hE j hj).2.2, he⟩

theorem Spec.IBStarted.shorter (S : IBStarted debug L G axes T B P flow bodies kernel window ops ib disk s disk') (nt : ℤ) :
    IBStarted debug L G axes T B { P with nt := nt } flow bodies kernel window ops ib disk s disk' :=
  ⟨S.constructed, (S.started.shorter nt).params, S.fit, S.init⟩

theorem ibTrajectory_unique {x y : ℕ → IBState K} {m : ℕ} (h0 : x 0 = y 0) (hx : IBTrajectory L G P ops ib vSolve fSolve pSolve x n)
    (hy : IBTrajectory L G P ops ib vSolve fSolve pSolve y m) : ∀ k, k ≤ n → k ≤ m → x k = y k := by
  intro k
  induction k with
  | zero => intros; exact h0
  | succ k ih =>
    intro h1 h2
    have a := hx k (by omega)
    rw [ih (by omega) (by omega), hy k (by omega)] at a
    exact (Except.ok.inj a).symm

/-- A run whose steps succeed succeeds. -/
theorem decoupled_succeeds (S : IBStarted debug L G axes T B P flow bodies kernel window ops ib disk s disk') (h1 : P.nsave ≠ 0) (h2 : P.nrestart ≠ 0)
    (h0 : x 0 = s) (hx : IBTrajectory L G P ops ib vSolve fSolve pSolve x n) (hn : P.nt.toNat ≤ n) (fuel : ℕ) (hf : P.nt.toNat ≤ fuel) (text : TextDisk) :
    ∃ s' d t, runDecoupled debug L G axes P flow B bodies kernel window fmt vSolve fSolve pSolve fuel disk text = some (.ok (s', d, t)) := by
  obtain ⟨r, hr, herr⟩ := C78_decoupled_ends (fmt := fmt) (vSolve := vSolve) (fSolve := fSolve) (pSolve := pSolve) S h1 h2 fuel hf text
  cases r with
  | ok q => exact ⟨q.1, q.2.1, q.2.2, hr⟩
  | error e =>
    obtain ⟨y, j, y0, hj, hy, he⟩ := herr e rfl
    rw [← ibTrajectory_unique (h0.trans y0.symm) hx hy j (by omega) le_rfl, hx j (by omega)] at he
    cases he

/-- C77. A run of `k + m` steps that succeeds can be replaced by a run of `k` steps, at whose end solution and restart data are due, and
a run of `m` steps that starts from the files of the first: both succeed, and the last states agree. The lines of the file of forces of the long run are
those of the first run followed by those of the second. Missing: as in `C77_decoupled_restart_partial`, and an old file of step `nstart + k` that is not
overwritten by the solution (see `C48_false_stale_file`). -/
theorem C77_decoupled_interrupted_partial (S : IBStarted debug L G axes T B P flow bodies kernel window ops ib disk s disk') (h1 : P.nsave ≠ 0)
    (h2 : P.nrestart ≠ 0) (hs : 0 ≤ P.nstart) (hT : NoConvective L T) (hgf : IgnoresGuess fSolve) (hg : IgnoresGuess pSolve) (k m : ℕ) (hk : 1 ≤ k)
    (hn : P.nt = k + m) (hr : P.nrestart ∣ P.nstart + k) (hc : P.nsave ∣ P.nstart + k ∨ disk (stepPath P.output (P.nstart + k)) = none)
    (fuel : ℕ) (text : TextDisk) (s₃ : IBState K) (d₃ : Disk K) (t₃ : TextDisk)
    (hrun : runDecoupled debug L G axes P flow B bodies kernel window fmt vSolve fSolve pSolve fuel disk text = some (.ok (s₃, d₃, t₃))) :
    ∃ s₁ d₁ t₁ s₂ d₂ t₂,
      runDecoupled debug L G axes { P with nt := k } flow B bodies kernel window fmt vSolve fSolve pSolve k disk text = some (.ok (s₁, d₁, t₁)) ∧
      runDecoupled debug L G axes (continued P k m) flow B bodies kernel window fmt vSolve fSolve pSolve m d₁ t₁ = some (.ok (s₂, d₂, t₂)) ∧
      SameFlow L s₃.ns s₂.ns ∧ s₃.f = s₂.f ∧
      ∃ f₁ f₂ f₃, t₂ (forcesPath P.output P.nstart) = some f₁ ∧ t₂ (forcesPath P.output (P.nstart + k)) = some f₂ ∧
        t₃ (forcesPath P.output P.nstart) = some f₃ ∧ f₃.lines = f₁.lines ++ f₂.lines := by
  obtain ⟨x, x0, hx, xn, _, g₃, hg₃, F₃, _⟩ := decoupled_run_eq S h1 h2 hs fuel text t₃ s₃ d₃ hrun
  have en : P.nt.toNat = k + m := by rw [hn]; omega
  rw [en] at hx xn
  have S₁ := S.shorter (k : ℤ)
  have hx₁ : IBTrajectory L G { P with nt := k } ops ib vSolve fSolve pSolve x (k + m) := hx
  obtain ⟨s₁, d₁, t₁, hr1⟩ := decoupled_succeeds (fmt := fmt) S₁ h1 h2 x0 hx₁ (by simp) k (by simp) text
  obtain ⟨y, y0, hy, yn, hfiles, g₁, hg₁, F₁, _⟩ := decoupled_run_eq S₁ h1 h2 hs k text t₁ s₁ d₁ hr1
  have ek : ({ P with nt := (k : ℤ) } : NSParams K).nt.toNat = k := by simp
  rw [ek] at hy yn hfiles F₁
  have hxy : ∀ j, j ≤ k → x j = y j := fun j hj => ibTrajectory_unique (x0.trans y0.symm) hx₁ hy j (by omega) hj
  obtain ⟨file, f1, f2, f3, f4⟩ := hfiles.restart k hk le_rfl hr
  have f4' : SolutionIn L file (y k).ns := by
    rcases hc with hc | hc
    · obtain ⟨file', e1, e2, _⟩ := hfiles.saved k hk le_rfl hc
      rw [f1] at e1
      cases e1
      exact e2
    · exact f4 hc
  simp only [← hxy k le_rfl] at f2 f3 f4'
  obtain ⟨s', S', z, z0, hz, hE, _⟩ := C77_decoupled_restart_partial S x0 hx hT hgf hg k (by omega) (by omega) m d₁ file f1 f4' f2 f3
  rw [show k + m - k = m by omega] at hz
  have em : (continued P (k : ℤ) (m : ℤ)).nt.toNat = m := by simp [continued]
  obtain ⟨s₂, d₂, t₂, hr2⟩ := decoupled_succeeds (fmt := fmt) S' h1 h2 z0 hz (by rw [em]) m (by rw [em]) t₁
  obtain ⟨w, w0, hw, wn, _, g₂, hg₂, F₂, _⟩ := decoupled_run_eq S' h1 h2 (show 0 ≤ P.nstart + (k : ℤ) by omega) m t₁ t₂ s₂ d₂ hr2
  rw [em] at hw wn F₂
  have hzw : ∀ j, j ≤ m → z j = w j := fun j hj => ibTrajectory_unique (z0.trans w0.symm) hz hw j hj hj
  refine ⟨s₁, d₁, t₁, s₂, d₂, t₂, hr1, hr2, ?_, ?_, g₁, g₂, g₃, ?_, ?_, ?_, ?_⟩
  · rw [← xn, ← wn, ← hzw m le_rfl]
    exact (hE m le_rfl).1
  · rw [← xn, ← wn, ← hzw m le_rfl]
    exact (hE m le_rfl).2
  · rw [hg₂, Function.update_of_ne, hg₁, Function.update_self]
    intro h
    have := forcesPath_injective hs (by show 0 ≤ P.nstart + (k : ℤ); omega) h
    have : P.nstart = P.nstart + (k : ℤ) := this
    omega
  · rw [hg₂]; exact Function.update_self ..
  · rw [hg₃]; exact Function.update_self ..
  · rw [F₁, F₂, F₃, en, List.range_add, List.map_append, List.map_map]
    congr 1
    · apply List.map_congr_left
      intro j hj
      rw [hxy _ (by have := List.mem_range.1 hj; omega)]
    · apply List.map_congr_left
      intro j hj
      have hj := List.mem_range.1 hj
      obtain ⟨a, b⟩ := hE (j + 1) (by omega)
      simp only [Function.comp]
      rw [← hzw (j + 1) (by omega), show k + j + 1 = k + (j + 1) by omega, a.t, b]

end decoupled

/-! ### The coupled solver -/

section coupled

variable {s : NSState K} {x : ℕ → NSState K}

/-- A fresh solver that reads the file of step `k`. -/
theorem coupled_restarted (S : CoupledStarted debug L G axes T B P flow bodies kernel window ops disk s disk') (h0 : x 0 = s)
    (hx : CoupledTrajectory L G P (nestCounts L bodies) ops vSolve pSolve x n) (k : ℕ) (hk : k ≤ n) (hne : P.nstart + k ≠ 0) (nt : ℤ) (d : Disk K)
    (file : H5File K) (hf : d (stepPath P.output (P.nstart + k)) = some file)
    (hS : SolutionIn L file { x k with p := subPressure (nestCounts L bodies) (x k).p })
    (hR : RestartIn L file { x k with p := subPressure (nestCounts L bodies) (x k).p })
    (hF : ForceIn (bodies.nPts * bodies.dim) file (subForces (nestCounts L bodies) (x k).p)) :
    ∃ (s' s₀ : NSState K), CoupledStarted debug L G axes T B (continued P k nt) flow bodies kernel window ops d s' d ∧
      s₀.B = (fun r => (B r).run [.setGhostICs s₀.U]) ∧
      s' = { s₀ with U := (x k).U, p := (x k).p, t := (x k).t, conv := (x k).conv, diff := (x k).diff, ite := P.nstart + k,
                     B := fun r => (s₀.B r).setGhostICs (x k).U } := by
  have hL := S.constructed.setup.layout
  obtain ⟨hc1, hc2⟩ := sum_counts hL S.fit
  obtain ⟨u, E, H, hops, R⟩ := S.reach_at h0 hx
  have hpN : ops.pN = L.pN + bodies.nPts * bodies.dim := by
    obtain ⟨D, Dm, Gr, La, Lm, BN, idx, _, _, _, _, _, _, e⟩ := ibpmCreate_ok hops
    rw [e]
  have Rk := R k hk
  have out : ∀ i : ℤ, ¬ (0 ≤ i ∧ i < (((nestCounts L bodies).map (·.1)).sum + ((nestCounts L bodies).map (·.2)).sum : ℕ)) → (x k).p i = 0 := by
    intro i hi
    apply Rk.outP
    rw [hpN]
    rwa [hc1, hc2] at hi
  have outP := subPressure_outside _ out
  have outF := subForces_outside _ out
  rw [hc1] at outP
  rw [hc2] at outF
  have Rq : Reach L B P L.pN u { x k with p := subPressure (nestCounts L bodies) (x k).p } :=
    ⟨Rk.hist, Rk.clean, Rk.nconv, Rk.ndiff, Rk.outU, outP, Rk.outConv, Rk.outDiff⟩
  obtain ⟨s₀, EH, i1, _⟩ := S.init
  obtain ⟨⟨U, p⟩, c1, i1⟩ := bind_ok i1
  obtain ⟨ops', c2, i1⟩ := bind_ok i1
  cases i1
  have ho := setIC_outside hL c1
  let t₀ : NSState K := { U := U, p := fun _ => 0, dP := fun _ => 0, conv := List.replicate P.conv.nExplicit fun _ => 0,
                          diff := List.replicate P.diff.nExplicit fun _ => 0, B := fun r => (B r).setGhostICs U, loc := fun _ _ _ => 0,
                          t := P.t, ite := P.nstart + k }
  have j1 : ibpmInit debug L G axes (continued P k nt) flow B bodies kernel window = .ok ((ops, EH), t₀) := by
    unfold ibpmInit
    rw [c1]
    have : ibpmCreateOperators debug L G axes (continued P k nt) (fun r => (B r).setGhostICs U) bodies kernel window = .ok (ops, EH) := c2
    simp only [bind, Except.bind, this]
    rfl
  let s' : NSState K := { t₀ with U := (x k).U, p := (x k).p, t := (x k).t, conv := (x k).conv, diff := (x k).diff, B := fun r => (t₀.B r).setGhostICs (x k).U }
  have j3 := readRestart_saved (t₀ := { t₀ with p := subPressure (nestCounts L bodies) t₀.p }) hL Rq hf hS hR
    (fun i hi => by
      show subPressure (nestCounts L bodies) (x k).p i = _
      rw [outP i hi]
      simp [subPressure, t₀])
    ho.1 List.length_replicate List.length_replicate
  have hr := forceIn_read hf hF
  have hp : nestVec (nestCounts L bodies) (subPressure (nestCounts L bodies) (x k).p)
      (packedVec (packedList (bodies.nPts * bodies.dim) (subForces (nestCounts L bodies) (x k).p))) = (x k).p := by
    rw [packedVec_list outF, nestVec_sub _ out]
  have j2 : ibpmIoInitialData L (continued P k nt) (nestCounts L bodies) (bodies.nPts * bodies.dim) t₀ d = .ok (s', d) := by
    unfold ibpmIoInitialData ibpmReadRestart
    rw [if_neg (show ¬ t₀.ite = 0 from hne)]
    have e : stepPath (continued P k nt).output t₀.ite = stepPath P.output (P.nstart + k) := rfl
    simp only [e, j3, hr, bind, Except.bind, pure, Except.pure, hp]
    rfl
  obtain ⟨hv, o, node, hp'⟩ := S.params
  obtain ⟨node', hp'⟩ := continued_read hp' k nt
  exact ⟨s', t₀, ⟨S.constructed, ⟨hv, o, node', hp'⟩, S.fit, t₀, EH, j1, j2⟩, rfl, rfl⟩

/-- C77. A run of the coupled solver is saved in step `k`, and a fresh solver with the same configuration, except that it starts at this step, reads
the file. For all boundary conditions it is initialised without error, and step, time, velocity, explicit terms and the vector of pressure and
Lagrangian forces are those of step `k`. Missing: the ghost points at convective boundaries and the last increment of pressure and forces. -/
theorem C77_coupled_state_partial (S : CoupledStarted debug L G axes T B P flow bodies kernel window ops disk s disk') (h0 : x 0 = s)
    (hx : CoupledTrajectory L G P (nestCounts L bodies) ops vSolve pSolve x n) (k : ℕ) (hk : k ≤ n) (hne : P.nstart + k ≠ 0) (nt : ℤ) (d : Disk K)
    (file : H5File K) (hf : d (stepPath P.output (P.nstart + k)) = some file)
    (hS : SolutionIn L file { x k with p := subPressure (nestCounts L bodies) (x k).p })
    (hR : RestartIn L file { x k with p := subPressure (nestCounts L bodies) (x k).p })
    (hF : ForceIn (bodies.nPts * bodies.dim) file (subForces (nestCounts L bodies) (x k).p)) :
    ∃ s', CoupledStarted debug L G axes T B (continued P k nt) flow bodies kernel window ops d s' d ∧ s'.ite = (x k).ite ∧ s'.t = (x k).t ∧
      s'.U = (x k).U ∧ s'.p = (x k).p ∧ s'.conv = (x k).conv ∧ s'.diff = (x k).diff := by
  obtain ⟨s', s₀, S', _, e2⟩ := coupled_restarted S h0 hx k hk hne nt d file hf hS hR hF
  have hi := (coupled_start (fmt := fun _ => []) (vSolve := vSolve) (pSolve := pSolve) S).1
  refine ⟨s', S', ?_, ?_, ?_, ?_, ?_, ?_⟩
  · rw [e2, CoupledTrajectory.ite (by rw [h0]; exact hi) hx k hk]
  all_goals rw [e2]

/-- C77. In the situation of `C77_coupled_state_partial`, without convective boundaries, the steps of the fresh solver are those of
the first run, with the same flow and forces or the same error. Missing: convective boundaries, and linear solvers for pressure and forces whose
result depends on the initial guess, the last increment, which is not saved. -/
theorem C77_coupled_restart_partial (S : CoupledStarted debug L G axes T B P flow bodies kernel window ops disk s disk') (h0 : x 0 = s)
    (hx : CoupledTrajectory L G P (nestCounts L bodies) ops vSolve pSolve x n) (hT : NoConvective L T) (hg : IgnoresGuess pSolve)
    (k : ℕ) (hk : k ≤ n) (hne : P.nstart + k ≠ 0) (nt : ℤ) (d : Disk K) (file : H5File K)
    (hf : d (stepPath P.output (P.nstart + k)) = some file)
    (hS : SolutionIn L file { x k with p := subPressure (nestCounts L bodies) (x k).p })
    (hR : RestartIn L file { x k with p := subPressure (nestCounts L bodies) (x k).p })
    (hF : ForceIn (bodies.nPts * bodies.dim) file (subForces (nestCounts L bodies) (x k).p)) :
    ∃ s', CoupledStarted debug L G axes T B (continued P k nt) flow bodies kernel window ops d s' d ∧
      ∃ y, y 0 = s' ∧ CoupledTrajectory L G (continued P k nt) (nestCounts L bodies) ops vSolve pSolve y (n - k) ∧
        (∀ j, k + j ≤ n → SameFlow L (x (k + j)) (y j)) ∧
        ∀ e, ibpmAdvance L G P (nestCounts L bodies) ops vSolve pSolve (x n) = .error e →
          ibpmAdvance L G (continued P k nt) (nestCounts L bodies) ops vSolve pSolve (y (n - k)) = .error e := by
  obtain ⟨u, _, _, _, R⟩ := S.reach_at h0 hx
  obtain ⟨s', s₀, S', e0, es⟩ := coupled_restarted S h0 hx k hk hne nt d file hf hS hR hF
  have hi := (coupled_start (fmt := fun _ => []) (vSolve := vSolve) (pSolve := pSolve) S).1
  have E : SameFlow L (x k) s' := by
    rw [es]
    refine ⟨CoupledTrajectory.ite (by rw [h0]; exact hi) hx k hk, rfl, rfl, rfl, rfl, rfl, ?_⟩
    intro r hr
    obtain ⟨h, hB, hj⟩ := (R k hk).hist
    rw [hB]
    simp only [e0]
    show _ = (B r).run ([.setGhostICs s₀.U] ++ [.setGhostICs (x k).U])
    exact ghosts_determined S.constructed hT ⟨u, h, rfl⟩ ⟨s₀.U, _, rfl⟩ hj ⟨[.setGhostICs s₀.U], Or.inl rfl⟩ hr
  obtain ⟨u', _, _, _, R'⟩ := S'.reach
  have R' : Reach L B P ops.pN u' s' := ⟨R'.hist, R'.clean, R'.nconv, R'.ndiff, R'.outU, R'.outP, R'.outConv, R'.outDiff⟩
  have hc := S.schemes
  obtain ⟨y, y0, hy, hE, he⟩ := same_steps (adv := ibpmAdvance L G P (nestCounts L bodies) ops vSolve pSolve)
    (E := fun a b => Reach L B P ops.pN u a ∧ Reach L B P ops.pN u' b ∧ SameFlow L a b)
    (by
      rintro a b ⟨Ra, Rb, Eab⟩
      obtain ⟨h1, h2⟩ := coupled_same (counts := nestCounts L bodies) (vSolve := vSolve) S.constructed hc.1.1 hc.2.1 hg Ra Rb Eab
      refine ⟨?_, h2⟩
      intro a₁ ha
      obtain ⟨b₁, hb, E1⟩ := h1 a₁ ha
      obtain ⟨_, _, _, _, _, _, ha'⟩ := coupled_ok S.constructed hc.1.1 hc.2.1 Ra ha
      obtain ⟨_, _, _, _, _, _, hb'⟩ := coupled_ok S.constructed hc.1.1 hc.2.1 Rb hb
      exact ⟨b₁, hb, Ra.step S.constructed hc.1.1 hc.2.1 ha', Rb.step S.constructed hc.1.1 hc.2.1 hb', E1⟩)
    hk hx ⟨R k hk, R', E⟩
  exact ⟨s', S', y, y0, hy, fun j hj => (hE j hj).2.2, he⟩

theorem Spec.CoupledStarted.shorter (S : CoupledStarted debug L G axes T B P flow bodies kernel window ops disk s disk') (nt : ℤ) :
    CoupledStarted debug L G axes T B { P with nt := nt } flow bodies kernel window ops disk s disk' := by
  obtain ⟨hv, o, node, hp⟩ := S.params
  obtain ⟨node', hp'⟩ := continued_read hp 0 nt
  refine ⟨S.constructed, ⟨hv, o, node', ?_⟩, S.fit, S.init⟩
  rw [hp']
  unfold continued
  rw [add_zero]

theorem coupledTrajectory_unique {counts : List (ℕ × ℕ)} {x y : ℕ → NSState K} {m : ℕ} (h0 : x 0 = y 0)
    (hx : CoupledTrajectory L G P counts ops vSolve pSolve x n) (hy : CoupledTrajectory L G P counts ops vSolve pSolve y m) :
    ∀ k, k ≤ n → k ≤ m → x k = y k := by
  intro k
  induction k with
  | zero => intros; exact h0
  | succ k ih =>
    intro h1 h2
    have a := hx k (by omega)
    rw [ih (by omega) (by omega), hy k (by omega)] at a
    exact (Except.ok.inj a).symm

/-- A run whose steps succeed succeeds. -/
theorem coupled_succeeds (S : CoupledStarted debug L G axes T B P flow bodies kernel window ops disk s disk') (h1 : P.nsave ≠ 0) (h2 : P.nrestart ≠ 0)
    (h0 : x 0 = s) (hx : CoupledTrajectory L G P (nestCounts L bodies) ops vSolve pSolve x n) (hn : P.nt.toNat ≤ n) (fuel : ℕ) (hf : P.nt.toNat ≤ fuel)
    (text : TextDisk) :
    ∃ s' d t, runCoupled debug L G axes P flow B bodies kernel window fmt vSolve pSolve fuel disk text = some (.ok (s', d, t)) := by
  obtain ⟨r, hr, herr⟩ := C78_coupled_ends (fmt := fmt) (vSolve := vSolve) (pSolve := pSolve) S h1 h2 fuel hf text
  cases r with
  | ok q => exact ⟨q.1, q.2.1, q.2.2, hr⟩
  | error e =>
    obtain ⟨y, j, y0, hj, hy, he⟩ := herr e rfl
    rw [← coupledTrajectory_unique (h0.trans y0.symm) hx hy j (by omega) le_rfl, hx j (by omega)] at he
    cases he

/-- C77. Interrupting a run of the coupled solver, as in `C77_decoupled_interrupted_partial`. Missing: as in `C77_coupled_restart_partial`, and an
old file of step `nstart + k` that is not overwritten by the solution (see `C48_false_stale_file`). -/
theorem C77_coupled_interrupted_partial (S : CoupledStarted debug L G axes T B P flow bodies kernel window ops disk s disk') (h1 : P.nsave ≠ 0)
    (h2 : P.nrestart ≠ 0) (hs : 0 ≤ P.nstart) (hT : NoConvective L T) (hg : IgnoresGuess pSolve) (k m : ℕ) (hk : 1 ≤ k)
    (hn : P.nt = k + m) (hr : P.nrestart ∣ P.nstart + k) (hc : P.nsave ∣ P.nstart + k ∨ disk (stepPath P.output (P.nstart + k)) = none)
    (fuel : ℕ) (text : TextDisk) (s₃ : NSState K) (d₃ : Disk K) (t₃ : TextDisk)
    (hrun : runCoupled debug L G axes P flow B bodies kernel window fmt vSolve pSolve fuel disk text = some (.ok (s₃, d₃, t₃))) :
    ∃ s₁ d₁ t₁ s₂ d₂ t₂,
      runCoupled debug L G axes { P with nt := k } flow B bodies kernel window fmt vSolve pSolve k disk text = some (.ok (s₁, d₁, t₁)) ∧
      runCoupled debug L G axes (continued P k m) flow B bodies kernel window fmt vSolve pSolve m d₁ t₁ = some (.ok (s₂, d₂, t₂)) ∧
      SameFlow L s₃ s₂ ∧
      ∃ f₁ f₂ f₃, t₂ (forcesPath P.output P.nstart) = some f₁ ∧ t₂ (forcesPath P.output (P.nstart + k)) = some f₂ ∧
        t₃ (forcesPath P.output P.nstart) = some f₃ ∧ f₃.lines = f₁.lines ++ f₂.lines := by
  obtain ⟨x, x0, hx, xn, _, g₃, hg₃, F₃, _⟩ := coupled_run_eq S h1 h2 hs fuel text t₃ s₃ d₃ hrun
  have en : P.nt.toNat = k + m := by rw [hn]; omega
  rw [en] at hx xn
  have S₁ := S.shorter (k : ℤ)
  have hx₁ : CoupledTrajectory L G { P with nt := k } (nestCounts L bodies) ops vSolve pSolve x (k + m) := hx
  obtain ⟨s₁, d₁, t₁, hr1⟩ := coupled_succeeds (fmt := fmt) S₁ h1 h2 x0 hx₁ (by simp) k (by simp) text
  obtain ⟨y, y0, hy, yn, hfiles, g₁, hg₁, F₁, _⟩ := coupled_run_eq S₁ h1 h2 hs k text t₁ s₁ d₁ hr1
  have ek : ({ P with nt := (k : ℤ) } : NSParams K).nt.toNat = k := by simp
  rw [ek] at hy yn hfiles F₁
  have hxy : ∀ j, j ≤ k → x j = y j := fun j hj => coupledTrajectory_unique (x0.trans y0.symm) hx₁ hy j (by omega) hj
  obtain ⟨file, f1, f2, f3, f4⟩ := hfiles.restart k hk le_rfl hr
  have f4' : SolutionIn L file { y k with p := subPressure (nestCounts L bodies) (y k).p } := by
    rcases hc with hc | hc
    · obtain ⟨file', e1, e2, _⟩ := hfiles.saved k hk le_rfl hc
      rw [f1] at e1
      cases e1
      exact e2
    · exact f4 hc
  simp only [← hxy k le_rfl] at f2 f3 f4'
  obtain ⟨s', S', z, z0, hz, hE, _⟩ := C77_coupled_restart_partial S x0 hx hT hg k (by omega) (by omega) m d₁ file f1 f4' f2 f3
  rw [show k + m - k = m by omega] at hz
  have em : (continued P (k : ℤ) (m : ℤ)).nt.toNat = m := by simp [continued]
  obtain ⟨s₂, d₂, t₂, hr2⟩ := coupled_succeeds (fmt := fmt) S' h1 h2 z0 hz (by rw [em]) m (by rw [em]) t₁
  obtain ⟨w, w0, hw, wn, _, g₂, hg₂, F₂, _⟩ := coupled_run_eq S' h1 h2 (show 0 ≤ P.nstart + (k : ℤ) by omega) m t₁ t₂ s₂ d₂ hr2
  rw [em] at hw wn F₂
  have hzw : ∀ j, j ≤ m → z j = w j := fun j hj => coupledTrajectory_unique (z0.trans w0.symm) hz hw j hj hj
  refine ⟨s₁, d₁, t₁, s₂, d₂, t₂, hr1, hr2, ?_, g₁, g₂, g₃, ?_, ?_, ?_, ?_⟩
  · rw [← xn, ← wn, ← hzw m le_rfl]
    exact hE m le_rfl
  · rw [hg₂, Function.update_of_ne, hg₁, Function.update_self]
    intro h
    have := forcesPath_injective hs (by show 0 ≤ P.nstart + (k : ℤ); omega) h
    have : P.nstart = P.nstart + (k : ℤ) := this
    omega
  · rw [hg₂]; exact Function.update_self ..
  · rw [hg₃]; exact Function.update_self ..
  · rw [F₁, F₂, F₃, en, List.range_add, List.map_append, List.map_map]
    congr 1
    · apply List.map_congr_left
      intro j hj
      rw [hxy _ (by have := List.mem_range.1 hj; omega)]
    · apply List.map_congr_left
      intro j hj
      have hj := List.mem_range.1 hj
      have a := hE (j + 1) (by omega)
      simp only [Function.comp]
      rw [← hzw (j + 1) (by omega), show k + j + 1 = k + (j + 1) by omega, a.t, a.p]

end coupled

/-! ### Examples -/

theorem through_noConvective : NoConvective twoByTwo throughTable := by
  intro f loc _ _
  unfold throughTable
  split_ifs <;> simp

/-- C77, C78: the decoupled solver with one point in the flow, two steps, restart data in every step, interrupted after the first; the solvers ignore the
initial guess. -/
example (fmt : ℚ → List Char) (text : TextDisk) : ∃ ops ib s disk' s' d t,
    IBStarted true twoByTwo tailGeom twoAxes throughTable throughB tailParams (some (pushedFlow none)) pointPack hatKernel 1 ops ib (fun _ => none) s disk' ∧
    runDecoupled true twoByTwo tailGeom twoAxes tailParams (some (pushedFlow none)) throughB pointPack hatKernel 1 fmt (gaussSolve 4) (gaussSolve 2)
      (gaussSolve 4) 2 (fun _ => none) text = some (.ok (s', d, t)) ∧
    NoConvective twoByTwo throughTable ∧ IgnoresGuess (gaussSolve 2) ∧ IgnoresGuess (gaussSolve 4) ∧ tailParams.nsave ≠ 0 ∧ tailParams.nrestart ≠ 0 ∧
    tailParams.nt = (1 : ℕ) + (1 : ℕ) ∧ tailParams.nrestart ∣ tailParams.nstart + (1 : ℕ) := by
  obtain ⟨ops, ib, s, disk', x, S, x0, hx, _⟩ := decoupled_runs
  obtain ⟨s', d, t, hr⟩ := decoupled_succeeds (fmt := fmt) S (by decide) (by decide) x0 hx (le_refl 2) 2 (le_refl 2) text
  exact ⟨ops, ib, s, disk', s', d, t, S, hr, through_noConvective, fun _ _ _ _ => rfl, fun _ _ _ _ => rfl, by decide, by decide, rfl, by decide⟩

/-- C77, C78: the same for the coupled solver. -/
example (fmt : ℚ → List Char) (text : TextDisk) : ∃ ops s disk' s' d t,
    CoupledStarted true twoByTwo tailGeom twoAxes throughTable throughB tailParams (some (pushedFlow none)) pointPack hatKernel 1 ops (fun _ => none) s disk' ∧
    runCoupled true twoByTwo tailGeom twoAxes tailParams (some (pushedFlow none)) throughB pointPack hatKernel 1 fmt (gaussSolve 4) (gaussSolve 6)
      2 (fun _ => none) text = some (.ok (s', d, t)) ∧
    NoConvective twoByTwo throughTable ∧ IgnoresGuess (gaussSolve 6) ∧ tailParams.nsave ≠ 0 ∧ tailParams.nrestart ≠ 0 ∧
    tailParams.nt = (1 : ℕ) + (1 : ℕ) ∧ tailParams.nrestart ∣ tailParams.nstart + (1 : ℕ) := by
  obtain ⟨ops, s, disk', x, S, x0, hx, _⟩ := coupled_runs none (by decide +kernel)
  obtain ⟨s', d, t, hr⟩ := coupled_succeeds (fmt := fmt) S (by decide) (by decide) x0 hx (le_refl 2) 2 (le_refl 2) text
  exact ⟨ops, s, disk', s', d, t, S, hr, through_noConvective, fun _ _ _ _ => rfl, by decide, by decide, rfl, by decide⟩

/-! ### Convective boundaries -/

theorem decoupledAdvance_nt (ops : NSOps K) (ib : IBOps K) (UB : Option (ℤ → K)) (nt : ℤ) :
    decoupledAdvance L G { P with nt := nt } ops ib UB = decoupledAdvance L G P ops ib UB := rfl

theorem decoupledAdvance_continued (ops : NSOps K) (ib : IBOps K) (UB : Option (ℤ → K)) (k nt : ℤ) :
    decoupledAdvance L G (continued P k nt) ops ib UB = decoupledAdvance L G P ops ib UB := rfl

/-- Two steps, and one step after a restart, with one point in the flow: do the velocities differ? -/
def tailPointDiffers : Bool :=
  match decoupledInit true twoByTwo tailGeom twoAxes tailParams (some tailFlow) tailB pointPack hatKernel 1 with
  | .error _ => false
  | .ok (ops, ib, s) =>
    match decoupledAdvance twoByTwo tailGeom tailParams ops ib none (fun _ _ r => .ok r) (fun _ _ r => .ok r) (fun _ _ _ => .ok fun _ => 0) s with
    | .error _ => false
    | .ok s₁ =>
      match decoupledAdvance twoByTwo tailGeom tailParams ops ib none (fun _ _ r => .ok r) (fun _ _ r => .ok r) (fun _ _ _ => .ok fun _ => 0) s₁ with
      | .error _ => false
      | .ok s₂ =>
        match decoupledAdvance twoByTwo tailGeom tailParams ops ib none (fun _ _ r => .ok r) (fun _ _ r => .ok r) (fun _ _ _ => .ok fun _ => 0)
            { ns := { s.ns with U := s₁.ns.U, p := s₁.ns.p, t := s₁.ns.t, conv := s₁.ns.conv, diff := s₁.ns.diff, ite := tailParams.nstart + (1 : ℕ),
                                B := fun r => (s.ns.B r).setGhostICs s₁.ns.U }, f := s₁.f, df := fun _ => 0 } with
        | .error _ => false
        | .ok t₁ => decide (s₂.ns.U 3 ≠ t₁.ns.U 3)

theorem tailPointDiffers_true : tailPointDiffers = true := by decide +kernel

/-- C77 is false with a convective boundary, whose ghost values are not saved: a run of two steps and a run that is interrupted after
the first end with different velocities. (The linear solvers of the example ignore the initial guess.) -/
theorem C77_false_convective (fmt : ℚ → List Char) (text : TextDisk) : ∃ (T : BCTable ℚ) (B : ℕ → Boundary ℚ) (P : NSParams ℚ)
    (flow : Option (FlowNode ℚ)) (ops : NSOps ℚ) (ib : IBOps ℚ) (s : IBState ℚ) (disk' : Disk ℚ) (vSolve fSolve pSolve : LinSolve ℚ)
    (s₁ s₂ s₃ : IBState ℚ) (d₁ d₂ d₃ : Disk ℚ) (t₁ t₂ t₃ : TextDisk),
    IBStarted true twoByTwo tailGeom twoAxes T B P flow pointPack hatKernel 1 ops ib (fun _ => none) s disk' ∧
    IgnoresGuess vSolve ∧ IgnoresGuess fSolve ∧ IgnoresGuess pSolve ∧ P.nrestart = 1 ∧ P.nt = 2 ∧
    runDecoupled true twoByTwo tailGeom twoAxes P flow B pointPack hatKernel 1 fmt vSolve fSolve pSolve 2 (fun _ => none) text = some (.ok (s₃, d₃, t₃)) ∧
    runDecoupled true twoByTwo tailGeom twoAxes { P with nt := 1 } flow B pointPack hatKernel 1 fmt vSolve fSolve pSolve 1 (fun _ => none) text =
      some (.ok (s₁, d₁, t₁)) ∧
    runDecoupled true twoByTwo tailGeom twoAxes (continued P 1 1) flow B pointPack hatKernel 1 fmt vSolve fSolve pSolve 1 d₁ t₁ =
      some (.ok (s₂, d₂, t₂)) ∧
    s₃.ns.U ≠ s₂.ns.U := by
  have key := tailPointDiffers_true
  unfold tailPointDiffers at key
  split at key
  · cases key
  · rename_i ops ib s h1
    split at key
    · cases key
    · rename_i s₁ h2
      split at key
      · cases key
      · rename_i s₂ h3
        split at key
        · cases key
        · rename_i q h4
          have hi : s.ns.ite = 0 := by
            obtain ⟨⟨ops', ns⟩, h3, h1⟩ := bind_ok h1
            obtain ⟨idx, h4, h1⟩ := bind_ok h1
            obtain ⟨ib', h5, h1⟩ := bind_ok h1
            cases h1
            obtain ⟨_, _, _, _, rfl⟩ := solverInit_ok h3
            rfl
          obtain ⟨file, hf, _⟩ := writeSolution_spec tail_constructed.setup.layout s.ns (fun _ => none) (stepPath tailParams.output s.ns.ite)
          have S : IBStarted true twoByTwo tailGeom twoAxes tailTable tailB tailParams (some tailFlow) pointPack
              hatKernel 1 ops ib (fun _ => none) s (Function.update (fun _ => none) (stepPath tailParams.output s.ns.ite) (some file)) := by
            refine ⟨tail_constructed, ⟨false, "out", some tailNode, rfl⟩, pointPack_ok, s, h1, ?_⟩
            unfold decoupledIoInitialData
            rw [if_pos hi, hf]
            rfl
          let x : ℕ → IBState ℚ := fun n => if n = 0 then s else if n = 1 then s₁ else s₂
          have hx : IBTrajectory twoByTwo tailGeom tailParams ops ib (fun _ _ r => .ok r) (fun _ _ r => .ok r) (fun _ _ _ => .ok fun _ => 0) x 2 := by
            intro k hk
            interval_cases k
            · exact h2
            · exact h3
          obtain ⟨e₃, d₃, t₃, r₃⟩ := decoupled_succeeds (fmt := fmt) (x := x) S (by decide) (by decide) rfl hx (le_refl 2) 2 (le_refl 2) text
          obtain ⟨w, w0, hw, wn, _⟩ := decoupled_run_eq S (by decide) (by decide) (le_refl 0) 2 text t₃ e₃ d₃ r₃
          have w2 := ibTrajectory_unique (x := x) w0.symm hx hw 2 (le_refl 2) (le_refl 2)
          have S₁ := S.shorter 1
          have hx₁ : IBTrajectory twoByTwo tailGeom { tailParams with nt := 1 } ops ib (fun _ _ r => .ok r) (fun _ _ r => .ok r)
              (fun _ _ _ => .ok fun _ => 0) x 2 := by
            intro k hk
            rw [decoupledAdvance_nt]
            exact hx k hk
          obtain ⟨e₁, d₁, t₁, r₁⟩ := decoupled_succeeds (fmt := fmt) (x := x) S₁ (by decide) (by decide) rfl (n := 2) hx₁ (by decide) 1 (le_refl 1) text
          obtain ⟨v, v0, hv, vn, F, _⟩ := decoupled_run_eq S₁ (by decide) (by decide) (le_refl 0) 1 text t₁ e₁ d₁ r₁
          have v1 := ibTrajectory_unique (x := x) v0.symm hx₁ hv 1 (by decide) (le_refl 1)
          obtain ⟨file, f1, f2, f3, f4⟩ := F.restart 1 le_rfl le_rfl (by decide)
          have f4 := f4 rfl
          simp only [← v1] at f2 f3 f4
          obtain ⟨s', s₀, S', g1, g2, _, g4, g5⟩ := decoupled_restarted (x := x) (n := 2) S rfl hx 1 (by decide) (by decide) 1 d₁ file f1 f4 f2 f3
          rw [h1] at g5
          cases g5
          let y : ℕ → IBState ℚ := fun n => if n = 0 then s' else q
          have hs' : s' = ⟨s'.ns, s₁.f, fun _ => 0⟩ := by rw [← g2, show s₁.f = s'.f from g1.symm]
          have hy : IBTrajectory twoByTwo tailGeom (continued tailParams 1 1) ops ib (fun _ _ r => .ok r) (fun _ _ r => .ok r) (fun _ _ _ => .ok fun _ => 0) y 1 := by
            intro k hk
            interval_cases k
            rw [decoupledAdvance_continued]
            show decoupledAdvance twoByTwo tailGeom tailParams ops ib none _ _ _ s' = .ok q
            rw [hs', g4]
            exact h4
          obtain ⟨e₂, d₂, t₂, r₂⟩ := decoupled_succeeds (fmt := fmt) (x := y) S' (by decide) (by decide) rfl hy (by decide) 1 (by decide) t₁
          obtain ⟨z, z0, hz, zn, _⟩ := decoupled_run_eq S' (by decide) (by decide) (by decide) 1 t₁ t₂ e₂ d₂ r₂
          have z1 := ibTrajectory_unique (x := y) z0.symm hy hz 1 (le_refl 1) (le_refl 1)
          refine ⟨tailTable, tailB, tailParams, some tailFlow, ops, ib, _, _, _, _, _, e₁, e₂, e₃, d₁, d₂, d₃, t₁, t₂, t₃, S, fun _ _ _ _ => rfl, fun _ _ _ _ => rfl,
            fun _ _ _ _ => rfl, rfl, rfl, r₃, r₁, r₂, ?_⟩
          have a3 : e₃ = s₂ := wn.symm.trans w2.symm
          have a2 : e₂ = q := zn.symm.trans z1.symm
          rw [a3, a2]
          intro h
          exact (of_decide_eq_true key) (congrFun h 3)

end PetIBM
