/-
C47: continuing a run from a file.
-/
import Verif.Lemmas.Restart
import Verif.Props.Run
import Verif.Props.Poisson

namespace PetIBM

open Spec

set_option linter.unusedSectionVars false

variable {K : Type} [Field K] [LinearOrder K] [IsStrictOrderedRing K]
variable {debug : Bool} {L : Layout} {G : Geom K} {axes : ℕ → Axis K} {T : BCTable K} {B : ℕ → Boundary K}
variable {P : NSParams K} {flow : Option (FlowNode K)} {ops : NSOps K} {disk disk' : Disk K} {s : NSState K}
variable {vSolve pSolve : LinSolve K} {x : ℕ → NSState K} {n : ℕ}

/-- The parameters of a run that continues from step `k`. -/
def continued (P : NSParams K) (k nt : ℤ) : NSParams K := { P with nstart := P.nstart + k, nt := nt }

theorem continued_read {haveAmgX : Bool} {output : String} {node : Option (ParamNode K)} {flow : Option (FlowNode K)} {P : NSParams K}
    (h : readParams haveAmgX output node flow = .ok P) (k nt : ℤ) :
    ∃ node', readParams haveAmgX output node' flow = .ok (continued P k nt) := by
  obtain ⟨node, h0, h⟩ := bind_ok h
  obtain ⟨dt, h1, h⟩ := bind_ok h
  obtain ⟨nt', h2, h⟩ := bind_ok h
  obtain ⟨nsave, h3, h⟩ := bind_ok h
  obtain ⟨nrestart, h4, h⟩ := bind_ok h
  obtain ⟨nu, h5, h⟩ := bind_ok h
  obtain ⟨conv, h6, h⟩ := bind_ok h
  obtain ⟨diff, h7, h⟩ := bind_ok h
  obtain ⟨v, h8, h⟩ := bind_ok h
  obtain ⟨p, h9, h⟩ := bind_ok h
  cases h
  refine ⟨some { node with startStep := some (node.startStep.getD 0 + k), nt := some nt }, ?_⟩
  unfold readParams
  have e0 : ∀ a : ParamNode K, required (some a) = .ok a := fun _ => rfl
  have e1 : ∀ a : ℤ, required (some a) = .ok a := fun _ => rfl
  simp only [e0, e1, h1, h3, h4, h5, h6, h7, h8, h9, bind, Except.bind, pure, Except.pure]
  rfl

/-- reading a file of a reachable state -/
theorem readRestart_saved (hL : LayoutOK L) {N : ℕ} {u : ℤ → K} {q t₀ : NSState K} (R : Reach L B P N u q) {file : H5File K} {d : Disk K} {path : String}
    (hf : d path = some file) (hS : SolutionIn L file q) (hR : RestartIn L file q) (oP : ∀ i : ℤ, ¬ (0 ≤ i ∧ i < L.pN) → q.p i = t₀.p i)
    (oU : ∀ i : ℤ, ¬ (0 ≤ i ∧ i < L.UN) → t₀.U i = 0) (l1 : t₀.conv.length = P.conv.nExplicit) (l2 : t₀.diff.length = P.diff.nExplicit) :
    readRestartDataHDF5 L t₀ d path = .ok { t₀ with U := q.U, p := q.p, t := q.t, conv := q.conv, diff := q.diff, B := fun r => (t₀.B r).setGhostICs q.U } := by
  have r1 := solutionRead_saved hL hS hf t₀.U t₀.p (fun i hi => (R.outU i hi).trans (oU i hi).symm) oP
  obtain ⟨vp, r2, _⟩ := hS.pressure
  obtain ⟨vc, r3, r4⟩ := vectorsIn_read hf hR.convection R.nconv R.outConv
  obtain ⟨vd, r5, r6⟩ := vectorsIn_read hf hR.diffusion R.ndiff R.outDiff
  unfold readRestartDataHDF5
  simp only [hf, r1, r2, hS.time, l1, l2, r3, r5, bind, Except.bind, pure, Except.pure, r4, r6]

/-- A fresh solver that reads the file of a reachable state of step `k`. -/
theorem restarted_from (S : Started debug L G axes T B P flow ops disk s disk') {u : ℤ → K} {q : NSState K} (Rk : Reach L B P ops.pN u q) (k : ℕ)
    (hops : ∃ u, createOperators debug L G P (fun r => (B r).run [.setGhostICs u]) = .ok ops) (hne : P.nstart + k ≠ 0) (nt : ℤ) (d : Disk K) (file : H5File K)
    (hf : d (stepPath P.output (P.nstart + k)) = some file) (hS : SolutionIn L file q) (hR : RestartIn L file q) :
    ∃ s' s₀, Started debug L G axes T B (continued P k nt) flow ops d s' d ∧ solverInit debug L G P flow B = .ok (ops, s₀) ∧
      s₀.B = (fun r => (B r).run [.setGhostICs s₀.U]) ∧
      s' = { s₀ with U := q.U, p := q.p, t := q.t, conv := q.conv, diff := q.diff, ite := P.nstart + k, B := fun r => (s₀.B r).setGhostICs q.U } ∧
      solverInit debug L G (continued P k nt) flow B = .ok (ops, { s₀ with ite := P.nstart + k }) ∧
      readRestartDataHDF5 L { s₀ with ite := P.nstart + k } d (stepPath P.output (P.nstart + k)) = .ok s' := by
  have hL := S.constructed.setup.layout
  obtain ⟨_, hops⟩ := hops
  have hpN := createOperators_pN hops
  obtain ⟨s₀, i1, i2⟩ := S.init
  obtain ⟨U, p, c1, c2, rfl⟩ := solverInit_ok i1
  have ho := setIC_outside hL c1
  let t₀ : NSState K := { U := U, p := p, dP := fun _ => 0, conv := List.replicate P.conv.nExplicit fun _ => 0,
                          diff := List.replicate P.diff.nExplicit fun _ => 0, B := fun r => (B r).run [.setGhostICs U], loc := fun _ _ _ => 0,
                          t := P.t, ite := P.nstart + k }
  have j1 : solverInit debug L G (continued P k nt) flow B = .ok (ops, t₀) := by
    unfold solverInit
    rw [c1]
    have : createOperators debug L G (continued P k nt) (fun r => (B r).setGhostICs U) = .ok ops := c2
    simp only [bind, Except.bind, this]
    rfl
  let s' : NSState K := { t₀ with U := q.U, p := q.p, t := q.t, conv := q.conv, diff := q.diff, B := fun r => (t₀.B r).setGhostICs q.U }
  have j3 : readRestartDataHDF5 L t₀ d (stepPath P.output (P.nstart + k)) = .ok s' := by
    refine readRestart_saved hL Rk hf hS hR ?_ ho.1 List.length_replicate List.length_replicate
    intro i hi
    exact (Rk.outP i (by rw [hpN]; exact hi)).trans (ho.2 i hi).symm
  have j2 : ioInitialData L (continued P k nt) t₀ d = .ok (s', d) := by
    unfold ioInitialData
    rw [if_neg (show ¬ t₀.ite = 0 from hne)]
    have : readRestartDataHDF5 L t₀ d (stepPath (continued P k nt).output t₀.ite) = .ok s' := j3
    rw [this]
    rfl
  obtain ⟨hv, o, node, hp⟩ := S.params
  obtain ⟨node', hp'⟩ := continued_read hp k nt
  exact ⟨s', _, ⟨S.constructed, ⟨hv, o, node', hp'⟩, t₀, j1, j2⟩, i1, rfl, rfl, j1, j3⟩

/-- A fresh solver that reads the file of step `k`. -/
theorem restarted_state (S : Started debug L G axes T B P flow ops disk s disk') (h0 : x 0 = s)
    (hx : Trajectory L G P ops vSolve pSolve x n) (k : ℕ) (hk : k ≤ n) (hne : P.nstart + k ≠ 0) (nt : ℤ) (d : Disk K) (file : H5File K)
    (hf : d (stepPath P.output (P.nstart + k)) = some file) (hS : SolutionIn L file (x k)) (hR : RestartIn L file (x k)) :
    ∃ s' s₀, Started debug L G axes T B (continued P k nt) flow ops d s' d ∧ solverInit debug L G P flow B = .ok (ops, s₀) ∧
      s₀.B = (fun r => (B r).run [.setGhostICs s₀.U]) ∧
      s' = { s₀ with U := (x k).U, p := (x k).p, t := (x k).t, conv := (x k).conv, diff := (x k).diff, ite := P.nstart + k,
                     B := fun r => (s₀.B r).setGhostICs (x k).U } := by
  obtain ⟨u, hops, R⟩ := S.reach_at h0 hx
  obtain ⟨s', s₀, a, b, c, e, _⟩ := restarted_from S (R k hk) k ⟨u, hops⟩ hne nt d file hf hS hR
  exact ⟨s', s₀, a, b, c, e⟩

/-- C47. A run is saved in step `k` (solution and restart data), and a fresh solver with the same configuration, except that it starts
at this step, reads the file. For all boundary conditions it is initialised without error, and step, time, velocity, pressure and
explicit terms are those of step `k`. Missing: the ghost points at convective boundaries and the last pressure increment. -/
theorem C47_saved_state_partial (S : Started debug L G axes T B P flow ops disk s disk') (h0 : x 0 = s)
    (hx : Trajectory L G P ops vSolve pSolve x n) (k : ℕ) (hk : k ≤ n) (hne : P.nstart + k ≠ 0) (nt : ℤ) (d : Disk K) (file : H5File K)
    (hf : d (stepPath P.output (P.nstart + k)) = some file) (hS : SolutionIn L file (x k)) (hR : RestartIn L file (x k)) :
    ∃ s', Started debug L G axes T B (continued P k nt) flow ops d s' d ∧ s'.ite = (x k).ite ∧ s'.t = (x k).t ∧ s'.U = (x k).U ∧
      s'.p = (x k).p ∧ s'.conv = (x k).conv ∧ s'.diff = (x k).diff := by
  obtain ⟨s', s₀, S', _, _, rfl⟩ := restarted_state S h0 hx k hk hne nt d file hf hS hR
  exact ⟨_, S', (C45_counters S h0 hx k hk).1.symm, rfl, rfl, rfl, rfl, rfl⟩

/-- C47. In the situation of `C47_saved_state_partial`, without convective boundaries, the steps of the fresh solver are those of
the first run, with the same result or the same error. Missing: convective boundaries (see `C47_false_convective`), and
linear solvers for the pressure whose result depends on the initial guess, the last increment, which is not saved. -/
theorem C47_restart_partial (S : Started debug L G axes T B P flow ops disk s disk') (h0 : x 0 = s)
    (hx : Trajectory L G P ops vSolve pSolve x n) (hT : NoConvective L T) (hg : IgnoresGuess pSolve) (k : ℕ) (hk : k ≤ n)
    (hne : P.nstart + k ≠ 0) (nt : ℤ) (d : Disk K) (file : H5File K) (hf : d (stepPath P.output (P.nstart + k)) = some file)
    (hS : SolutionIn L file (x k)) (hR : RestartIn L file (x k)) :
    ∃ s', Started debug L G axes T B (continued P k nt) flow ops d s' d ∧ SameFlow L (x k) s' ∧
      ∃ y, y 0 = s' ∧ Trajectory L G (continued P k nt) ops vSolve pSolve y (n - k) ∧ (∀ j, k + j ≤ n → SameFlow L (x (k + j)) (y j)) ∧
        ∀ e, advance L G P ops vSolve pSolve (x n) = .error e → advance L G (continued P k nt) ops vSolve pSolve (y (n - k)) = .error e := by
  obtain ⟨u, _, R⟩ := S.reach_at h0 hx
  obtain ⟨s', s₀, S', _, e0, es⟩ := restarted_state S h0 hx k hk hne nt d file hf hS hR
  have E : SameFlow L (x k) s' := by
    rw [es]
    refine ⟨(C45_counters S h0 hx k hk).1, rfl, rfl, rfl, rfl, rfl, ?_⟩
    intro r hr
    obtain ⟨h, hB, hj⟩ := (R k hk).hist
    rw [hB]
    simp only [e0]
    show _ = (B r).run ([.setGhostICs s₀.U] ++ [.setGhostICs (x k).U])
    exact ghosts_determined S.constructed hT ⟨u, h, rfl⟩ ⟨s₀.U, _, rfl⟩ hj ⟨[.setGhostICs s₀.U], Or.inl rfl⟩ hr
  refine ⟨s', S', E, ?_⟩
  -- the steps
  obtain ⟨u', _, R'⟩ := S'.reach
  have R' : Reach L B P ops.pN u' s' := ⟨R'.hist, R'.clean, R'.nconv, R'.ndiff, R'.outU, R'.outP, R'.outConv, R'.outDiff⟩
  have key : ∀ m, k + m ≤ n → ∃ y : ℕ → NSState K, y 0 = s' ∧ Trajectory L G P ops vSolve pSolve y m ∧ (∀ j, j ≤ m → SameFlow L (x (k + j)) (y j)) ∧
      Reach L B P ops.pN u' (y m) := by
    intro m
    induction m with
    | zero =>
      intro _
      refine ⟨fun _ => s', rfl, fun j hj => absurd hj (by omega), ?_, R'⟩
      intro j hj
      have : j = 0 := by omega
      subst this
      exact E
    | succ m ih =>
      intro hm
      obtain ⟨y, y0, hy, hE, hRy⟩ := ih (by omega)
      obtain ⟨z, hz, Ez⟩ := (advance_same S.constructed S.schemes.1.1 S.schemes.2.1 ops vSolve pSolve hg (R (k + m) (by omega)) hRy (hE m le_rfl)).1 _ (hx (k + m) (by omega))
      refine ⟨fun j => if j ≤ m then y j else z, by simp [y0], ?_, ?_, ?_⟩
      · intro j hj
        simp only [if_pos (show j ≤ m by omega)]
        by_cases hjm : j + 1 ≤ m
        · rw [if_pos hjm]; exact hy j (by omega)
        · have : j = m := by omega
          subst this
          rw [if_neg hjm]
          exact hz
      · intro j hj
        by_cases hjm : j ≤ m
        · simp only [if_pos hjm]; exact hE j hjm
        · have : j = m + 1 := by omega
          subst this
          simp only [if_neg hjm]
          exact Ez
      · simp only [if_neg (show ¬ m + 1 ≤ m by omega)]
        exact hRy.step S.constructed S.schemes.1.1 S.schemes.2.1 hz
  obtain ⟨y, y0, hy, hE, hRy⟩ := key (n - k) (by omega)
  refine ⟨y, y0, hy, fun j hj => hE j (by omega), ?_⟩
  intro e he
  have hlast := hE (n - k) le_rfl
  rw [show k + (n - k) = n by omega] at hlast
  exact (advance_same S.constructed S.schemes.1.1 S.schemes.2.1 ops vSolve pSolve hg (R n le_rfl) hRy hlast).2 e he

/-- C47. Conversely: whatever steps a solver does that starts from the file of step `k`, they continue the first run, as if it had not been
interrupted. So everything that holds for runs that are not interrupted holds for it too. Missing: as in `C47_restart_partial`. -/
theorem C47_one_run_partial (S : Started debug L G axes T B P flow ops disk s disk') (h0 : x 0 = s) (k : ℕ)
    (hx : Trajectory L G P ops vSolve pSolve x k) (hT : NoConvective L T) (hg : IgnoresGuess pSolve) (hne : P.nstart + k ≠ 0) (nt : ℤ) (d : Disk K)
    (file : H5File K) (hf : d (stepPath P.output (P.nstart + k)) = some file) (hS : SolutionIn L file (x k)) (hR : RestartIn L file (x k))
    {ops₂ : NSOps K} {s₂ : NSState K} {d₂ : Disk K} (S₂ : Started debug L G axes T B (continued P k nt) flow ops₂ d s₂ d₂) {y : ℕ → NSState K} {N : ℕ}
    (y0 : y 0 = s₂) (hy : Trajectory L G (continued P k nt) ops₂ vSolve pSolve y N) :
    ops₂ = ops ∧ ∃ z, (∀ j, j ≤ k → z j = x j) ∧ Trajectory L G P ops vSolve pSolve z (k + N) ∧ ∀ j, j ≤ N → SameFlow L (z (k + j)) (y j) := by
  obtain ⟨s', S', _⟩ := C47_restart_partial S h0 hx hT hg k le_rfl hne nt d file hf hS hR
  have same : ∀ {ops' s' d'}, Started debug L G axes T B (continued P k nt) flow ops' d s' d' → ops' = ops₂ ∧ s' = s₂ := by
    intro ops' s' d' S'
    obtain ⟨a, a1, a2⟩ := S'.init
    obtain ⟨b, b1, b2⟩ := S₂.init
    rw [a1] at b1
    cases Except.ok.inj b1
    rw [a2] at b2
    cases Except.ok.inj b2
    exact ⟨rfl, rfl⟩
  obtain ⟨rfl, -⟩ := same S'
  refine ⟨rfl, ?_⟩
  -- a longer run of the first solver gives the steps of the second
  have from_ : ∀ (z : ℕ → NSState K) (M : ℕ), (∀ j, j ≤ k → z j = x j) → Trajectory L G P ops vSolve pSolve z (k + M) → M ≤ N →
      (∀ j, j ≤ M → SameFlow L (z (k + j)) (y j)) ∧
        ∀ e, advance L G P ops vSolve pSolve (z (k + M)) = .error e → advance L G (continued P k nt) ops vSolve pSolve (y M) = .error e := by
    intro z M hz ht hM
    obtain ⟨s', S', _, y', y'0, hy', hE, hErr⟩ := C47_restart_partial S (x := z) (n := k + M) (by rw [hz 0 (by omega), h0]) ht hT hg k (by omega) hne nt d
      file hf (by rw [hz k le_rfl]; exact hS) (by rw [hz k le_rfl]; exact hR)
    obtain ⟨-, rfl⟩ := same S'
    rw [show k + M - k = M by omega] at hy' hErr
    have u := trajectory_unique (y'0.trans y0.symm) hy' hy
    exact ⟨fun j hj => by rw [← u j hj (by omega)]; exact hE j (by omega), fun e he => by rw [← u M le_rfl hM]; exact hErr e he⟩
  have key : ∀ M, M ≤ N → ∃ z, (∀ j, j ≤ k → z j = x j) ∧ Trajectory L G P ops vSolve pSolve z (k + M) := by
    intro M
    induction M with
    | zero => exact fun _ => ⟨x, fun _ _ => rfl, hx⟩
    | succ M ih =>
      intro hM
      obtain ⟨z, hz, ht⟩ := ih (by omega)
      obtain ⟨-, hErr⟩ := from_ z M hz ht (by omega)
      cases ha : advance L G P ops vSolve pSolve (z (k + M)) with
      | error e =>
        have := hErr e ha
        rw [hy M (by omega)] at this
        cases this
      | ok w =>
        refine ⟨fun j => if j ≤ k + M then z j else w, fun j hj => by simp only [if_pos (show j ≤ k + M by omega), hz j hj], fun j hj => ?_⟩
        by_cases hjM : j < k + M
        · simp only [if_pos (show j ≤ k + M by omega), if_pos (show j + 1 ≤ k + M by omega)]
          exact ht j hjM
        · have : j = k + M := by omega
          subst this
          simp only [if_pos (le_refl (k + M)), if_neg (show ¬ k + M + 1 ≤ k + M by omega)]
          exact ha
  obtain ⟨z, hz, ht⟩ := key N le_rfl
  exact ⟨z, hz, ht, (from_ z N hz ht le_rfl).1⟩

/-- The initialised solver does not depend on the number of steps. -/
theorem Spec.Started.shorter (S : Started debug L G axes T B P flow ops disk s disk') (nt : ℤ) :
    Started debug L G axes T B { P with nt := nt } flow ops disk s disk' := by
  obtain ⟨hv, o, node, hp⟩ := S.params
  obtain ⟨node', hp'⟩ := continued_read hp 0 nt
  refine ⟨S.constructed, ⟨hv, o, node', ?_⟩, S.init⟩
  rw [hp']
  unfold continued
  rw [add_zero]

/-- C47. A run of `k + m` steps that succeeds can be replaced by a run of `k` steps, at whose end solution and restart data are due, and
a run of `m` steps that starts from the files of the first: both succeed, and the last states agree. Missing: as in
`C47_restart_partial`, and an old file of step `nstart + k` that is not overwritten by the solution (see `C48_false_stale_file`). -/
theorem C47_interrupted_run_partial (S : Started debug L G axes T B P flow ops disk s disk') (h1 : P.nsave ≠ 0) (h2 : P.nrestart ≠ 0)
    (hs : 0 ≤ P.nstart) (hT : NoConvective L T) (hg : IgnoresGuess pSolve) (k m : ℕ) (hk : 1 ≤ k) (hn : P.nt = k + m)
    (hr : P.nrestart ∣ P.nstart + k) (hc : P.nsave ∣ P.nstart + k ∨ disk (stepPath P.output (P.nstart + k)) = none)
    (fuel : ℕ) (s₃ : NSState K) (d₃ : Disk K) (hrun : runSolver debug L G P flow B vSolve pSolve fuel disk = some (.ok (s₃, d₃))) :
    ∃ s₁ d₁ s₂ d₂, runSolver debug L G { P with nt := k } flow B vSolve pSolve k disk = some (.ok (s₁, d₁)) ∧
      runSolver debug L G (continued P k m) flow B vSolve pSolve m d₁ = some (.ok (s₂, d₂)) ∧ SameFlow L s₃ s₂ := by
  obtain ⟨x, x0, hx, xn, _⟩ := C46_saved_steps S h1 h2 hs fuel s₃ d₃ hrun
  have en : P.nt.toNat = k + m := by rw [hn]; omega
  rw [en] at hx xn
  -- the first part
  have S₁ := S.shorter (k : ℤ)
  obtain ⟨r, hr1, _, herr⟩ := C45_run S₁ (vSolve := vSolve) (pSolve := pSolve) h1 h2 k (by simp)
  obtain ⟨⟨s₁, d₁⟩, rfl⟩ : ∃ q, r = .ok q := by
    cases r with
    | ok q => exact ⟨q, rfl⟩
    | error e =>
      obtain ⟨y, j, y0, hj, hy, he⟩ := herr e rfl
      have hj : j < k := by simpa using hj
      have hy : Trajectory L G P ops vSolve pSolve y j := hy
      have he : advance L G P ops vSolve pSolve (y j) = .error e := he
      rw [← trajectory_unique (x0.trans y0.symm) hx hy j (by omega) le_rfl, hx j (by omega)] at he
      cases he
  obtain ⟨y, y0, hy, yn, hfile⟩ := C48_restart_file_partial S₁ h1 h2 hs k s₁ d₁ hr1
  have hy : Trajectory L G P ops vSolve pSolve y k := hy
  obtain ⟨file, f1, f2, f3⟩ := hfile k hk (by simp) hr hc
  rw [← trajectory_unique (x0.trans y0.symm) hx hy k (by omega) le_rfl] at f2 f3
  -- the second part
  obtain ⟨s', S', _, z, z0, hz, hE, _⟩ := C47_restart_partial S x0 hx hT hg k (by omega) (by omega) m d₁ file f1 f2 f3
  rw [show k + m - k = m by omega] at hz
  obtain ⟨r, hr2, hok, herr⟩ := C45_run S' (vSolve := vSolve) (pSolve := pSolve) h1 h2 m (by simp [continued])
  obtain ⟨⟨s₂, d₂⟩, rfl⟩ : ∃ q, r = .ok q := by
    cases r with
    | ok q => exact ⟨q, rfl⟩
    | error e =>
      obtain ⟨y, j, y0, hj, hy, he⟩ := herr e rfl
      have hj : j < m := by simpa [continued] using hj
      rw [← trajectory_unique (z0.trans y0.symm) hz hy j (by omega) le_rfl, hz j (by omega)] at he
      cases he
  refine ⟨s₁, d₁, s₂, d₂, hr1, hr2, ?_⟩
  obtain ⟨y, y0, hy, yn, _⟩ := hok s₂ d₂ rfl
  have em : (continued P (k : ℤ) (m : ℤ)).nt.toNat = m := by simp [continued]
  rw [em] at hy yn
  rw [← xn, ← yn, ← trajectory_unique (z0.trans y0.symm) hz hy m le_rfl le_rfl]
  exact hE m (by omega)

/-- A run of four steps of the example from an empty disk, interrupted after the third, in which restart data are due. -/
example : ∃ ops s disk' s' d, Started true (exampleWalls 2 1) exampleWallsGeom exampleAxes unitWalls
    (boundaries true (exampleWalls 2 1) exampleWallsGeom unitWalls) (exampleParams .ksp) (some exampleFlow) ops (fun _ => none) s disk' ∧
    runSolver true (exampleWalls 2 1) exampleWallsGeom (exampleParams .ksp) (some exampleFlow)
      (boundaries true (exampleWalls 2 1) exampleWallsGeom unitWalls) (fun _ _ r => .ok r) (fun _ _ r => .ok r) 4 (fun _ => none) = some (.ok (s', d)) ∧
    NoConvective (exampleWalls 2 1) unitWalls ∧ IgnoresGuess (K := ℚ) (fun _ _ r => .ok r) ∧ (exampleParams .ksp).nt = (3 : ℕ) + (1 : ℕ) ∧
    (exampleParams .ksp).nrestart ∣ (exampleParams .ksp).nstart + (3 : ℕ) := by
  obtain ⟨ops, s, disk', S⟩ := exampleStarted .ksp (fun _ => none)
  obtain ⟨r, hr, _, h⟩ := C45_run S (vSolve := fun _ _ r => .ok r) (pSolve := fun _ _ r => .ok r) (by decide) (by decide) 4 (le_refl 4)
  refine ⟨ops, s, disk', ?_⟩
  cases r with
  | ok q =>
    refine ⟨q.1, q.2, S, hr, ?_, fun _ _ _ _ => rfl, rfl, by decide⟩
    intro f loc hf hl
    have hf : f < 2 := hf
    have hl : loc < 4 := hl
    interval_cases f <;> interval_cases loc <;> decide
  | error e =>
    obtain ⟨x, k, x0, _, hx, he⟩ := h e rfl
    rcases C60_step_errors S x0 hx e he with ⟨_, h⟩ | ⟨_, h⟩ <;> cases h

/-- Beside `C47_one_run_partial`: a solver that starts from the file of step 3 of the example and does the fourth step. -/
example : ∃ ops s disk' x d file s₂ y, Started true (exampleWalls 2 1) exampleWallsGeom exampleAxes unitWalls
    (boundaries true (exampleWalls 2 1) exampleWallsGeom unitWalls) (exampleParams .ksp) (some exampleFlow) ops (fun _ => none) s disk' ∧ x 0 = s ∧
    Trajectory (exampleWalls 2 1) exampleWallsGeom (exampleParams .ksp) ops (fun _ _ r => .ok r) (fun _ _ r => .ok r) x 3 ∧
    NoConvective (exampleWalls 2 1) unitWalls ∧ d (stepPath (exampleParams .ksp).output ((exampleParams .ksp).nstart + (3 : ℕ))) = some file ∧
    SolutionIn (exampleWalls 2 1) file (x 3) ∧ RestartIn (exampleWalls 2 1) file (x 3) ∧
    Started true (exampleWalls 2 1) exampleWallsGeom exampleAxes unitWalls (boundaries true (exampleWalls 2 1) exampleWallsGeom unitWalls)
      (continued (exampleParams .ksp) (3 : ℕ) 1) (some exampleFlow) ops d s₂ d ∧ y 0 = s₂ ∧
    Trajectory (exampleWalls 2 1) exampleWallsGeom (continued (exampleParams .ksp) (3 : ℕ) 1) ops (fun _ _ r => .ok r) (fun _ _ r => .ok r) y 1 := by
  obtain ⟨ops, s, disk', S⟩ := exampleStarted .ksp (fun _ => none)
  have hT : NoConvective (exampleWalls 2 1) unitWalls := by
    intro f loc hf hl
    have hf : f < 2 := hf
    have hl : loc < 4 := hl
    interval_cases f <;> interval_cases loc <;> decide
  obtain ⟨r, hr, _, h⟩ := C45_run S (vSolve := fun _ _ r => .ok r) (pSolve := fun _ _ r => .ok r) (by decide) (by decide) 4 (le_refl 4)
  cases r with
  | ok q =>
    obtain ⟨x, x0, hx, _, hfile⟩ := C48_restart_file_partial S (by decide) (by decide) (by decide) 4 q.1 q.2 hr
    obtain ⟨file, f1, f2, f3⟩ := hfile 3 (by decide) (by decide) (by decide) (Or.inr rfl)
    obtain ⟨s₂, S₂, _, y, y0, hy, _⟩ := C47_restart_partial S x0 hx hT (fun _ _ _ _ => rfl) 3 (by decide) (by decide) 1 q.2 file f1 f2 f3
    exact ⟨ops, s, disk', x, q.2, file, s₂, y, S, x0, fun j hj => hx j (lt_trans hj (by decide)), hT, f1, f2, f3, S₂, y0, hy⟩
  | error e =>
    obtain ⟨x, k, x0, _, hx, he⟩ := h e rfl
    rcases C60_step_errors S x0 hx e he with ⟨_, h⟩ | ⟨_, h⟩ <;> cases h

/-! ### Convective boundaries -/

/-- Walls, with a convective condition for the tangential velocity on the right. -/
def tailTable : BCTable ℚ := fun f b => if f = 1 ∧ b = 1 then (.CONVECTIVE, 1) else (.DIRICHLET, 0)

def tailNode : ParamNode ℚ :=
  { dt := some (1 / 4), startStep := none, t := none, nt := some 2, nsave := some 1, nrestart := some 1, BN := none,
    schemes := fun key => if key = "convection" then some "EULER_IMPLICIT" else some "EULER_EXPLICIT",
    velocitySolver := none, poissonSolver := none }

def tailFlow : FlowNode ℚ := ⟨some 1, some [fun _ _ _ _ _ => 0, fun _ _ _ _ _ => 1], none⟩

def tailParams : NSParams ℚ :=
  { dt := 1 / 4, nstart := 0, t := 0, nt := 2, nsave := 1, nrestart := 1, nu := 1, BN := 1,
    conv := ⟨1, 0, []⟩, diff := ⟨0, 1, [1]⟩, vType := .ksp, pType := .ksp, output := "out" }

abbrev tailGeom : Geom ℚ := meshGeom 2 twoAxes fun _ _ => false

abbrev tailB : ℕ → Boundary ℚ := boundaries true twoByTwo tailGeom tailTable

theorem tail_constructed : Constructed true twoByTwo tailGeom twoAxes tailTable tailB := by
  apply constructed_boundaries
  apply C57_construction true (Or.inl rfl) _ (fun _ _ _ _ => rfl) (fun _ _ => by decide)
  · intro f d hf hd
    rcases hf with hf | rfl
    · interval_cases d <;> interval_cases f <;> decide
    · interval_cases d <;> decide
  · intro f loc _ _; unfold tailTable; split_ifs <;> simp
  · intro f loc _ _; unfold tailTable; split_ifs <;> simp
  · intro d _
    exact ⟨by simp [twoAxes], by simp [twoAxes], by norm_num [twoAxes]⟩

/-- Two steps, and one step after a restart: do the velocities differ? -/
def tailDiffers : Bool :=
  match solverInit true twoByTwo tailGeom tailParams (some tailFlow) tailB with
  | .error _ => false
  | .ok (ops, s) =>
    match advance twoByTwo tailGeom tailParams ops (fun _ _ r => .ok r) (fun _ _ _ => .ok fun _ => 0) s with
    | .error _ => false
    | .ok s₁ =>
      match advance twoByTwo tailGeom tailParams ops (fun _ _ r => .ok r) (fun _ _ _ => .ok fun _ => 0) s₁ with
      | .error _ => false
      | .ok s₂ =>
        match advance twoByTwo tailGeom tailParams ops (fun _ _ r => .ok r) (fun _ _ _ => .ok fun _ => 0)
            { s with U := s₁.U, p := s₁.p, t := s₁.t, conv := s₁.conv, diff := s₁.diff, ite := tailParams.nstart + (1 : ℕ),
                     B := fun r => (s.B r).setGhostICs s₁.U } with
        | .error _ => false
        | .ok t₁ => decide (s₂.U 3 ≠ t₁.U 3)

theorem tailDiffers_true : tailDiffers = true := by decide +kernel

/-- C47 is false with a convective boundary: the ghost values there are part of the state but not of the file; the restarted solver
sets them to the velocity of the neighbouring point. Here the velocity after the next step differs. (The linear solvers of
the example return the right-hand side and zero; they ignore the initial guess.) -/
theorem C47_false_convective : ∃ (L : Layout) (G : Geom ℚ) (axes : ℕ → Axis ℚ) (T : BCTable ℚ) (B : ℕ → Boundary ℚ) (P : NSParams ℚ)
    (flow : Option (FlowNode ℚ)) (ops : NSOps ℚ) (disk disk' d : Disk ℚ) (s s' : NSState ℚ) (x y : ℕ → NSState ℚ) (vSolve pSolve : LinSolve ℚ)
    (file : H5File ℚ), Started true L G axes T B P flow ops disk s disk' ∧ x 0 = s ∧ Trajectory L G P ops vSolve pSolve x 2 ∧
    IgnoresGuess vSolve ∧ IgnoresGuess pSolve ∧ d (stepPath P.output (P.nstart + (1 : ℕ))) = some file ∧ SolutionIn L file (x 1) ∧ RestartIn L file (x 1) ∧
    Started true L G axes T B (continued P 1 1) flow ops d s' d ∧ y 0 = s' ∧ Trajectory L G (continued P 1 1) ops vSolve pSolve y 1 ∧
    (x 2).U ≠ (y 1).U := by
  obtain ⟨ops, s, disk', S⟩ := C60_start (P := tailParams) tail_constructed 1 [fun _ _ _ _ _ => 0, fun _ _ _ _ _ => 1] none (by decide) (by decide)
    ⟨false, "out", some tailNode, rfl⟩ (le_refl 1) rfl fun _ => none
  obtain ⟨x, x0, hx⟩ := C60_runs S (vSolve := fun _ _ r => .ok r) (pSolve := fun _ _ _ => .ok fun _ => 0) (fun _ r => ⟨r, rfl⟩) (fun _ _ => ⟨_, rfl⟩)
  obtain ⟨file, hw, hR, hn, _⟩ := writeRestart_spec S.constructed.setup.layout (x 1) (fun _ => none) (stepPath tailParams.output (tailParams.nstart + (1 : ℕ)))
  obtain ⟨s', s₀, S', i1, _, e⟩ := restarted_state S x0 (hx 2) 1 (by omega) (by decide) 1
    (Function.update (fun _ => none) (stepPath tailParams.output (tailParams.nstart + (1 : ℕ))) (some file)) file (Function.update_self ..) (hn rfl) hR
  obtain ⟨y, y0, hy⟩ := C60_runs S' (vSolve := fun _ _ r => .ok r) (pSolve := fun _ _ _ => .ok fun _ => 0) (fun _ r => ⟨r, rfl⟩) (fun _ _ => ⟨_, rfl⟩)
  refine ⟨_, _, _, _, _, _, _, ops, _, disk', _, s, s', x, y, _, _, file, S, x0, hx 2, fun _ _ _ _ => rfl, fun _ _ _ _ => rfl, Function.update_self .., hn rfl, hR, S', y0, hy 1, ?_⟩
  have hs : s₀ = s := by
    obtain ⟨s₁, i2, i3⟩ := S.init
    rw [i1] at i2
    cases i2
    unfold ioInitialData at i3
    obtain ⟨U, p, _, _, e0⟩ := solverInit_ok i1
    rw [if_pos (by rw [e0]; rfl)] at i3
    obtain ⟨_, _, i3⟩ := bind_ok i3
    cases i3
    rfl
  subst hs
  have a1 := hx 2 0 (by omega)
  have a2 := hx 2 1 (by omega)
  have a3 : advance twoByTwo tailGeom tailParams ops (fun _ _ r => .ok r) (fun _ _ _ => .ok fun _ => 0) (y 0) = .ok (y 1) := hy 1 0 (by omega)
  rw [x0] at a1
  rw [y0, e] at a3
  have key := tailDiffers_true
  unfold tailDiffers at key
  have i1' : solverInit true twoByTwo tailGeom tailParams (some tailFlow) tailB = .ok (ops, s₀) := i1
  simp only [i1', a1, a2, a3, decide_eq_true_eq] at key
  intro h
  exact key (congrFun h 3)

end PetIBM
