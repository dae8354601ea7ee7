/-
C85: the objects of the linear solvers and the file with the numbers of iterations.
-/
import Verif.Lemmas.LinSolver
import Verif.Props.Run

set_option linter.unusedSectionVars false

namespace PetIBM

open Spec

variable {K : Type} [Field K] [LinearOrder K] [IsStrictOrderedRing K]
variable {debug : Bool} {L : Layout} {G : Geom K} {axes : ℕ → Axis K} {B : ℕ → Boundary K}
variable {P : NSParams K} {flow : Option (FlowNode K)} {bodies : BodyPack K} {kernel : DeltaKernel K} {window : ℕ} {ops : NSOps K} {ib : IBOps K}
variable {be : Backends K} {haveAmgX : Bool} {readable : String → Bool} {directory : Option String} {velocity poisson forces : SolverNode} {kv kf kp : SolverType}
variable {fmt fmt' : K → List Char}

/-- C85 (part; false if the configuration file cannot be read, see `C85_false_missing_file`). A solver whose type is known and whose configuration file can be
read is created and takes its matrix; it then solves with this matrix under its own name, reports the numbers of the last solve, and stops with an error when the
iteration diverges. -/
theorem C85_object_partial {node : SolverNode} {kind : SolverType} (h : Usable haveAmgX readable directory node kind) (name : String) (be : Backends K) (A : Mat K) :
    ∃ o o' : SolverObject K, createSolverObject haveAmgX readable directory name node = .ok o ∧ o.setMatrix A = .ok o' ∧
      ∀ (n : ℕ) (x b : ℕ → ℤ → K) (r : ℕ → SolveOutcome K), (∀ k, k < n → Outcome be kind name A (x k) (b k) (r k)) →
        ∃ c : ℕ → SolverObject K, c 0 = o' ∧ (∀ k, k < n → (c k).solve be (x k) (b k) = .ok ((r k).x, c (k + 1)) ∧ (c (k + 1)).numbers = .ok ((r k).iters, (r k).res)) ∧
          ∀ y d, kind = .ksp → (be.ksp name A y d).reason < 0 → (c n).solve be y d = .error .convFailed := by
  obtain ⟨o, h1, h2⟩ := create_ok (K := K) h name
  obtain ⟨o', h3, h4⟩ := h2 A
  refine ⟨o, o', h1, h3, ?_⟩
  intro n x b r hr
  have key : ∃ c : ℕ → SolverObject K, c 0 = o' ∧ HasMatrix (c n) kind name A ∧
      ∀ k, k < n → (c k).solve be (x k) (b k) = .ok ((r k).x, c (k + 1)) ∧ (c (k + 1)).numbers = .ok ((r k).iters, (r k).res) := by
    induction n with
    | zero => exact ⟨fun _ => o', rfl, h4, fun k hk => absurd hk (by omega)⟩
    | succ n ih =>
      obtain ⟨c, c0, hc, hs⟩ := ih fun k hk => hr k (by omega)
      have hrn := hr n (by omega)
      obtain ⟨r', o'', s1, s2, s3, s4, s5⟩ := (solve_spec be hc (x n) (b n)).2 (r n).x (by
        unfold solverOf Outcome at *
        cases kind with
        | ksp =>
          obtain ⟨e, hge⟩ := hrn
          simp only [← e]
          rw [if_neg (by omega)]
        | amgx => simp only at hrn ⊢; rw [hrn]; rfl)
      have hrr : r' = r n := by
        unfold Outcome at s1 hrn
        cases kind with
        | ksp => rw [s1.1, hrn.1]
        | amgx =>
          simp only at s1 hrn
          rw [s1] at hrn
          exact Except.ok.inj hrn
      subst hrr
      refine ⟨fun k => if k ≤ n then c k else o'', by simp [c0], by simpa using s4, ?_⟩
      intro k hk
      by_cases hkn : k < n
      · simp only [if_pos (show k ≤ n by omega), if_pos (show k + 1 ≤ n by omega)]
        exact hs k hkn
      · have : k = n := by omega
        subst this
        simp only [le_refl, if_true, if_neg (show ¬ k + 1 ≤ k by omega)]
        exact ⟨s3, s5⟩
  obtain ⟨c, c0, hc, hs⟩ := key
  refine ⟨c, c0, hs, ?_⟩
  rintro y d rfl hd
  exact (solve_spec be hc y d).1 _ (by simp [solverOf, hd])

/-- C85 (part). A created solver has the name it is given and the kind its type says, and is set up with its own configuration file: the file of the node,
relative to the directory of the run unless the path is absolute. Without a file a solver of PETSc gets none, and one of AmgX an empty temporary file. -/
theorem C85_configuration {node : SolverNode} {kind : SolverType} {file : Option String} {name : String} {o : SolverObject K} (ht : SolverOf haveAmgX node.type kind)
    (hf : ConfigOf directory node.config file) (h : createSolverObject haveAmgX readable directory name node = .ok o) :
    o.kind = kind ∧ o.name = name ∧ (∀ c, file = some c → o.config = c) ∧
      (file = none → o.config = if kind = .ksp then "None" else "solversAmgXOptions-tmp.info") := by
  have ht' := (createLinSolver_iff ..).2 ht
  obtain ⟨type, config⟩ := node
  simp only at hf ht'
  have fin : ∀ c : String, createSolverObject haveAmgX readable directory name ⟨type, config⟩ =
        .ok (match kind with | .ksp => kspConstruct (K := K) readable name c | .amgx => amgxConstruct (K := K) name c) →
      o.kind = kind ∧ o.name = name ∧ (c ≠ "None" → o.config = c) ∧
        (c = "None" → o.config = if kind = .ksp then "None" else "solversAmgXOptions-tmp.info") := by
    intro c hc
    have hc := Except.ok.inj (h.symm.trans hc)
    clear h ht ht'
    subst hc
    cases kind with
    | ksp =>
      rw [if_pos rfl]
      by_cases hr : c ≠ "None" ∧ readable c = false
      · simp only [kspConstruct, kspInit, if_pos hr]
        exact ⟨trivial, trivial, fun _ => trivial, fun h => h⟩
      · simp only [kspConstruct, kspInit, if_neg hr]
        exact ⟨trivial, trivial, fun _ => trivial, fun h => h⟩
    | amgx =>
      refine ⟨rfl, rfl, fun h => ?_, fun h => ?_⟩
      · simp only [amgxConstruct, if_neg h]
      · subst h
        rfl
  cases hf with
  | missing =>
    obtain ⟨h1, h2, -, h4⟩ := fin "None" (by simp only [createSolverObject, ht']; cases kind <;> rfl)
    exact ⟨h1, h2, by simp, fun _ => h4 rfl⟩
  | word =>
    obtain ⟨h1, h2, -, h4⟩ := fin "None" (by simp only [createSolverObject, ht']; cases kind <;> rfl)
    exact ⟨h1, h2, by simp, fun _ => h4 rfl⟩
  | absolute c =>
    obtain ⟨h1, h2, h3, -⟩ := fin (String.ofList ('/' :: c)) (by
      simp only [createSolverObject, ht', Option.getD_some, String.toList_ofList, List.headD_cons, ne_eq, not_true_eq_false, false_and, if_false]
      cases kind <;> rfl)
    have hn : String.ofList ('/' :: c) ≠ "None" := by
      intro e
      have e := congrArg String.toList e
      rw [String.toList_ofList] at e
      have e := (List.cons.inj (e.trans (show "None".toList = ['N', 'o', 'n', 'e'] by decide))).1
      revert e
      decide
    refine ⟨h1, h2, ?_, by simp⟩
    rintro _ ⟨⟩
    exact h3 hn
  | relative c d hd hc hN =>
    have hh : c.toList.headD '\x00' ≠ '/' := by
      intro h
      cases hl : c.toList with
      | nil => rw [hl] at h; revert h; decide
      | cons a l =>
        rw [hl] at h
        simp only [List.headD_cons] at h
        subst h
        exact hc l (by rw [← hl, String.ofList_toList])
    obtain ⟨h1, h2, h3, -⟩ := fin (d ++ "/" ++ c) (by
      simp only [createSolverObject, ht', Option.getD_some]
      rw [if_pos ⟨hh, hN⟩, hd]
      cases kind <;> rfl)
    have hn : d ++ "/" ++ c ≠ "None" := by
      intro e
      have e := congrArg String.toList e
      have : '/' ∈ "None".toList := by
        rw [← e]
        simp
      revert this
      decide
    refine ⟨h1, h2, ?_, by simp⟩
    rintro _ ⟨⟩
    exact h3 hn

/-- A solver on the GPU with a file of its own, one without, and one of PETSc. -/
example : ∃ o₁ o₂ o₃ : SolverObject ℚ,
    createSolverObject true (fun _ => true) (some "run") "poisson" ⟨some "GPU", some "config/p.info"⟩ = .ok o₁ ∧ o₁.config = "run/config/p.info" ∧
    createSolverObject true (fun _ => true) (some "run") "poisson" ⟨some "GPU", none⟩ = .ok o₂ ∧ o₂.config = "solversAmgXOptions-tmp.info" ∧
    createSolverObject true (fun _ => true) (some "run") "velocity" ⟨some "CPU", some "/etc/v.info"⟩ = .ok o₃ ∧ o₃.config = "/etc/v.info" := by
  refine ⟨_, _, _, rfl, rfl, rfl, rfl, rfl, rfl⟩

/-- C85 is false if the configuration file cannot be read: the constructor drops the error of `init`, so that the creation succeeds without a PETSc object, and
the first use of the object is undefined. -/
theorem C85_false_missing_file (name c : String) (node : SolverNode) (directory : Option String) (ht : SolverOf haveAmgX node.type .ksp)
    (hc : ConfigOf directory node.config (some c)) (hN : c ≠ "None") (hr : readable c = false) :
    ∃ o : SolverObject K, createSolverObject haveAmgX readable directory name node = .ok o ∧ (∀ A, o.setMatrix A = .error .ub) ∧
      (kspInit (K := K) readable name c).2 = some .fileRead := by
  rw [← createLinSolver_iff] at ht
  have key : createSolverObject haveAmgX readable directory name node = .ok (kspConstruct (K := K) readable name c) := by
    obtain ⟨type, config⟩ := node
    simp only at ht hc
    cases hc with
    | absolute c =>
      simp only [createSolverObject, ht, Option.getD_some, String.toList_ofList, List.headD_cons, ne_eq, not_true_eq_false, false_and, if_false]
      rfl
    | relative c d hd hc hN' =>
      have hh : c.toList.headD '\x00' ≠ '/' := by
        intro h
        cases hl : c.toList with
        | nil => rw [hl] at h; revert h; decide
        | cons a l =>
          rw [hl] at h
          simp only [List.headD_cons] at h
          subst h
          exact hc l (by rw [← hl, String.ofList_toList])
      simp only [createSolverObject, ht, Option.getD_some]
      rw [if_pos ⟨hh, hN'⟩, hd]
      rfl
  refine ⟨_, key, ?_, ?_⟩
  · intro A
    simp only [kspConstruct, kspInit, if_pos (And.intro hN hr)]
    rfl
  · simp only [kspInit, if_pos (And.intro hN hr)]

/-- C85. A solver of unknown type, or of type `GPU` without AmgX, is an error. -/
theorem C85_unknown_type (name : String) (node : SolverNode) (h : ∀ kind, ¬ SolverOf haveAmgX node.type kind) (o : SolverObject K) :
    createSolverObject haveAmgX readable directory name node ≠ .ok o := by
  intro ho
  cases hk : createLinSolver haveAmgX node.type with
  | error e =>
    simp only [createSolverObject, hk] at ho
    split_ifs at ho
    · obtain ⟨_, _, ho⟩ := bind_ok ho
      cases ho
    · cases ho
  | ok kind => exact h kind ((createLinSolver_iff ..).1 hk)

/-- C85. With usable solvers a run of the flow solver with its objects is the run in which the systems are solved by functions of matrix, initial guess and
right-hand side that fail when the iteration diverges: the same result or error, the same fields and files. -/
theorem C85_same_run_partial (hv : Usable haveAmgX readable directory velocity kv) (hp : Usable haveAmgX readable directory poisson kp) (fuel : ℕ) (disk : Disk K)
    (text : TextDisk) :
    (runWith be haveAmgX readable directory velocity poisson fmt debug L G P flow B fuel disk text).map (fun r => r.map fun r => (r.1, r.2.2.1)) =
      runSolver debug L G P flow B (solverOf be kv "velocity") (solverOf be kp "poisson") fuel disk := by
  obtain ⟨v, v1, v2⟩ := create_ok (K := K) hv "velocity"
  obtain ⟨p, p1, p2⟩ := create_ok (K := K) hp "poisson"
  have hc : createFlowSolvers (K := K) haveAmgX readable directory velocity poisson = .ok ⟨v, p⟩ := by
    unfold createFlowSolvers
    rw [v1, p1]
    rfl
  unfold runWith runSolver
  simp only [hc]
  cases h1 : solverInit debug L G P flow B with
  | error e => rfl
  | ok w =>
    obtain ⟨ops, s₀⟩ := w
    obtain ⟨v', v3, v4⟩ := v2 ops.A
    obtain ⟨p', p3, p4⟩ := p2 ops.DBNG
    have hm : FlowSolvers.setMatrices ⟨v, p⟩ ops = .ok ⟨v', p'⟩ := by
      unfold FlowSolvers.setMatrices
      simp only [v3, p3]
      rfl
    simp only [hm]
    cases h2 : ioInitialData L P s₀ disk with
    | error e => rfl
    | ok w =>
      obtain ⟨s, disk⟩ := w
      simp only []
      rw [main_plain]
      obtain ⟨r1, r2, r3⟩ := report_spec (P := P) (ns := id) (write := writeStep L P) (adv := advance L G P ops (solverOf be kv "velocity") (solverOf be kp "poisson"))
        (advW := advanceWith be L G P ops) (info := writeLinSolversInfo fmt)
        (Ready := fun o => HasMatrix o.v kv "velocity" ops.A ∧ HasMatrix o.p kp "poisson" ops.DBNG) (Good := fun _ _ _ => True)
        (fun s s' h => advance_ite h) (by
          intro s o ho
          obtain ⟨a1, a2⟩ := advanceWith_spec (be := be) (L := L) (G := G) (P := P) s o ho.1 ho.2
          refine ⟨a1, fun s' h => ?_⟩
          obtain ⟨o', rv, rp, b1, b2, b3, b4, b5, b6⟩ := a2 s' h
          exact ⟨o', _, b1, by unfold writeLinSolversInfo; rw [b5, b6]; rfl, ⟨b2, b3⟩, trivial⟩) fuel s ⟨v', p'⟩ disk [] ⟨v4, p4⟩
      cases hl : plainLoop P id (advance L G P ops (solverOf be kv "velocity") (solverOf be kp "poisson")) (writeStep L P) fuel s disk with
      | none => rw [r1 hl]; rfl
      | some r =>
        cases r with
        | error e => rw [r2 e hl]; rfl
        | ok r =>
          obtain ⟨s', d'⟩ := r
          obtain ⟨o', new, x, e, _⟩ := r3 s' d' hl
          rw [e]
          rfl

/-- C85. The file `iterations-<startStep>.txt` of a run that succeeds has one line for each of the `nt` steps: the step, and the numbers of iterations and the
residuals of the two solves of exactly this step. Both have converged. An older file of this name is replaced, no other text file changes. -/
theorem C85_iterations_file_partial (hv : Usable haveAmgX readable directory velocity kv) (hp : Usable haveAmgX readable directory poisson kp) (fuel : ℕ) (disk disk' : Disk K)
    (text text' : TextDisk) (s' : NSState K) (o' : FlowSolvers K)
    (hr : runWith be haveAmgX readable directory velocity poisson fmt debug L G P flow B fuel disk text = some (.ok (s', o', disk', text'))) :
    ∃ ops s₀ d₀ x file, solverInit debug L G P flow B = .ok (ops, s₀) ∧ ioInitialData L P s₀ disk = .ok (x 0, d₀) ∧
      Trajectory L G P ops (solverOf be kv "velocity") (solverOf be kp "poisson") x P.nt.toNat ∧ x P.nt.toNat = s' ∧
      text' = Function.update text (iterationsPath P.output P.nstart) (some file) ∧ file.terminated = true ∧ file.lines.length = P.nt.toNat ∧
      ∀ k, k < P.nt.toNat → ∃ rv rp, FlowSolves be kv kp L G P ops (x k) (x (k + 1)) rv rp ∧
        file.lines[k]? = some (reportLine fmt (P.nstart + k + 1) [rv, rp]) := by
  obtain ⟨v, v1, v2⟩ := create_ok (K := K) hv "velocity"
  obtain ⟨p, p1, p2⟩ := create_ok (K := K) hp "poisson"
  have hc : createFlowSolvers (K := K) haveAmgX readable directory velocity poisson = .ok ⟨v, p⟩ := by
    unfold createFlowSolvers
    rw [v1, p1]
    rfl
  unfold runWith at hr
  simp only [hc] at hr
  cases h1 : solverInit debug L G P flow B with
  | error e => rw [h1] at hr; cases hr
  | ok w =>
    obtain ⟨ops, s₀⟩ := w
    obtain ⟨v', v3, v4⟩ := v2 ops.A
    obtain ⟨p', p3, p4⟩ := p2 ops.DBNG
    have hm : FlowSolvers.setMatrices ⟨v, p⟩ ops = .ok ⟨v', p'⟩ := by
      unfold FlowSolvers.setMatrices
      simp only [v3, p3]
      rfl
    simp only [h1, hm] at hr
    have hi0 : s₀.ite = P.nstart := by
      obtain ⟨_, _, _, _, rfl⟩ := solverInit_ok h1
      rfl
    cases h2 : ioInitialData L P s₀ disk with
    | error e => rw [h2] at hr; cases hr
    | ok w =>
      obtain ⟨s, d₀⟩ := w
      have hi : s.ite = P.nstart := by
        unfold ioInitialData at h2
        split_ifs at h2
        · obtain ⟨_, _, h2⟩ := bind_ok h2
          cases h2
          exact hi0
        · obtain ⟨s'', h3, h2⟩ := bind_ok h2
          cases h2
          obtain ⟨_, _, _, _, _, _, _, _, _, rfl⟩ := readRestart_ok h3
          exact hi0
      simp only [h2] at hr
      obtain ⟨r1, r2, r3⟩ := report_spec (P := P) (ns := id) (write := writeStep L P) (adv := advance L G P ops (solverOf be kv "velocity") (solverOf be kp "poisson"))
        (advW := advanceWith be L G P ops) (info := writeLinSolversInfo fmt)
        (Ready := fun o => HasMatrix o.v kv "velocity" ops.A ∧ HasMatrix o.p kp "poisson" ops.DBNG)
        (Good := fun s s' l => ∃ rv rp, FlowSolves be kv kp L G P ops s s' rv rp ∧ l = reportLine fmt s'.ite [rv, rp])
        (fun s s' h => advance_ite h) (by
          intro s o ho
          obtain ⟨a1, a2⟩ := advanceWith_spec (be := be) (L := L) (G := G) (P := P) s o ho.1 ho.2
          refine ⟨a1, fun s' h => ?_⟩
          obtain ⟨o', rv, rp, b1, b2, b3, b4, b5, b6⟩ := a2 s' h
          refine ⟨o', _, b1, by unfold writeLinSolversInfo; rw [b5, b6]; rfl, ⟨b2, b3⟩, rv, rp, b4, ?_⟩
          exact line_two fmt s'.ite rv rp) fuel s ⟨v', p'⟩ d₀ [] ⟨v4, p4⟩
      cases hl : plainLoop P id (advance L G P ops (solverOf be kv "velocity") (solverOf be kp "poisson")) (writeStep L P) fuel s d₀ with
      | none => rw [r1 hl] at hr; cases hr
      | some r =>
        cases r with
        | error e => rw [r2 e hl] at hr; cases hr
        | ok r =>
          obtain ⟨s₁, d₁⟩ := r
          obtain ⟨o₁, new, x, e, hn, x0, xn, hx⟩ := r3 s₁ d₁ hl
          rw [e] at hr
          simp only [Option.map_some, Except.map, Option.some.injEq, Except.ok.injEq, Prod.mk.injEq, List.nil_append] at hr
          obtain ⟨rfl, rfl, rfl, rfl⟩ := hr
          have hn : new.length = P.nt.toNat := by
            rw [hn]
            simp only [id, hi]
            congr 1
            ring
          rw [hn] at xn hx
          have hite : ∀ k, k ≤ P.nt.toNat → (x k).ite = P.nstart + k := by
            intro k
            induction k with
            | zero => intro _; rw [x0, hi]; simp
            | succ k ih =>
              intro hk
              rw [advance_ite (hx k (by omega)).1, ih (by omega)]
              push_cast
              ring
          refine ⟨ops, s₀, d₀, x, ⟨new, true⟩, rfl, by rw [x0]; exact h2, fun k hk => (hx k hk).1, xn, rfl, rfl, hn, ?_⟩
          intro k hk
          obtain ⟨_, l, hl, rv, rp, hs, rfl⟩ := hx k hk
          refine ⟨rv, rp, hs, ?_⟩
          rw [hl, hite (k + 1) (by omega)]
          push_cast
          rw [add_assoc]

/-- C85. If in some step of a run one of the two systems diverges, the run ends with the error `PETSC_ERR_CONV_FAILED`. -/
theorem C85_diverged_partial (hL : LayoutOK L) (hv : Usable haveAmgX readable directory velocity .ksp) (hp : Usable haveAmgX readable directory poisson .ksp) (h1 : P.nsave ≠ 0)
    (h2 : P.nrestart ≠ 0) (fuel : ℕ) (disk d₀ : Disk K) (text : TextDisk) (s₀ : NSState K) (x : ℕ → NSState K) (k : ℕ) (hk : (k : ℤ) < P.nt) (hf : k < fuel)
    (hinit : solverInit debug L G P flow B = .ok (ops, s₀)) (hio : ioInitialData L P s₀ disk = .ok (x 0, d₀))
    (hx : Trajectory L G P ops (solverOf be .ksp "velocity") (solverOf be .ksp "poisson") x k) (rhs : ℤ → K) (s₁ : NSState K)
    (hrhs : assembleRHSVelocity L G P ops { x k with t := (x k).t + P.dt, ite := (x k).ite + 1 } = .ok (rhs, s₁))
    (hdiv : (be.ksp "velocity" ops.A (x k).U rhs).reason < 0 ∨ ∃ rv, Outcome be .ksp "velocity" ops.A (x k).U rhs rv ∧
      (be.ksp "poisson" ops.DBNG (x k).dP (assembleRHSPoisson L ops { s₁ with U := vec L.UN rv.x })).reason < 0) :
    runWith be haveAmgX readable directory velocity poisson fmt debug L G P flow B fuel disk text = some (.error .convFailed) := by
  have hrun := C85_same_run_partial (be := be) (fmt := fmt) (debug := debug) (L := L) (G := G) (P := P) (flow := flow) (B := B) hv hp fuel disk text
  have hi0 : s₀.ite = P.nstart := by
    obtain ⟨_, _, _, _, rfl⟩ := solverInit_ok hinit
    rfl
  have hi : (x 0).ite = P.nstart := by
    unfold ioInitialData at hio
    split_ifs at hio
    · obtain ⟨_, _, h⟩ := bind_ok hio
      cases h
      exact hi0
    · obtain ⟨s'', h3, h⟩ := bind_ok hio
      have h := Except.ok.inj h
      simp only [Prod.mk.injEq] at h
      rw [← h.1]
      obtain ⟨_, _, _, _, _, _, _, _, _, rfl⟩ := readRestart_ok h3
      exact hi0
  have key : ∀ (m f : ℕ) (d : Disk K), m ≤ k → k - m < f →
      mainLoop L G P ops (solverOf be .ksp "velocity") (solverOf be .ksp "poisson") f (x m) d = some (.error .convFailed) := by
    have hite : ∀ j, j ≤ k → (x j).ite = P.nstart + j := by
      intro j
      induction j with
      | zero => intro _; rw [hi]; simp
      | succ j ih =>
        intro hj
        rw [advance_ite (hx j (by omega)), ih (by omega)]
        push_cast
        ring
    have hfin : ∀ j, j ≤ k → finished P (x j) = false := by
      intro j hj
      unfold finished
      rw [hite j hj]
      simp
      omega
    intro m f
    induction f generalizing m with
    | zero => intro d _ h; omega
    | succ f ih =>
      intro d hm hlt
      unfold mainLoop
      rw [if_neg (by rw [hfin m hm]; simp)]
      simp only []
      by_cases hmk : m = k
      · subst hmk
        have : advance L G P ops (solverOf be .ksp "velocity") (solverOf be .ksp "poisson") (x m) = .error .convFailed := by
          obtain ⟨u, w, _⟩ := assemble_U hrhs
          simp only at u w
          unfold advance
          simp only [hrhs, bind, Except.bind]
          rcases hdiv with hdiv | ⟨rv, ⟨e, hge⟩, hdiv⟩
          · have : solverOf be .ksp "velocity" ops.A s₁.U rhs = .error .convFailed := by
              rw [u]
              simp [solverOf, hdiv]
            rw [this]
          · have h1 : solverOf be .ksp "velocity" ops.A s₁.U rhs = .ok rv.x := by
              rw [u]
              simp only [solverOf, ← e]
              rw [if_neg (by omega)]
            have h2 : solverOf be .ksp "poisson" ops.DBNG s₁.dP (assembleRHSPoisson L ops { s₁ with U := vec L.UN rv.x }) = .error .convFailed := by
              rw [← w] at hdiv
              simp [solverOf, hdiv]
            rw [h1]
            simp only [h2]
        rw [this]
      · rw [hx m (by omega)]
        simp only []
        obtain ⟨d', hw, _⟩ := writeStep_spec hL P h1 h2 (x (m + 1)) d
        rw [hw]
        exact ih (m + 1) d' (by omega) (by omega)
  have hs : runSolver debug L G P flow B (solverOf be .ksp "velocity") (solverOf be .ksp "poisson") fuel disk = some (.error .convFailed) := by
    unfold runSolver
    simp only [hinit, hio]
    exact key 0 fuel d₀ (by omega) (by omega)
  rw [hs] at hrun
  cases hw : runWith be haveAmgX readable directory velocity poisson fmt debug L G P flow B fuel disk text with
  | none => rw [hw] at hrun; cases hrun
  | some r =>
    rw [hw] at hrun
    cases r with
    | error e =>
      simp only [Option.map_some, Except.map, Option.some.injEq, Except.error.injEq] at hrun
      rw [hrun]
    | ok r => cases hrun

/-! ### With bodies -/

/-- C85. With usable solvers a run of the decoupled solver with its objects is the run in which the systems are solved by functions that fail when the iteration
diverges: the same result or error, the same fields and files, but for the file of the numbers of iterations. -/
theorem C85_decoupled_same_run_partial (hv : Usable haveAmgX readable directory velocity kv) (hf : Usable haveAmgX readable directory forces kf)
    (hp : Usable haveAmgX readable directory poisson kp) (fuel : ℕ) (disk : Disk K) (text : TextDisk) :
    match runDecoupled debug L G axes P flow B bodies kernel window fmt' (solverOf be kv "velocity") (solverOf be kf "forces") (solverOf be kp "poisson") fuel disk text with
    | none => runDecoupledWith be haveAmgX readable directory velocity poisson forces fmt fmt' debug L G axes P flow B bodies kernel window fuel disk text = none
    | some (.error e) =>
      runDecoupledWith be haveAmgX readable directory velocity poisson forces fmt fmt' debug L G axes P flow B bodies kernel window fuel disk text = some (.error e)
    | some (.ok (s', d', t')) => ∃ o' file,
      runDecoupledWith be haveAmgX readable directory velocity poisson forces fmt fmt' debug L G axes P flow B bodies kernel window fuel disk text =
        some (.ok (s', o', d', Function.update t' (iterationsPath P.output P.nstart) (some file))) ∧
      ∃ ops ib s₀ d₀ x, decoupledInit debug L G axes P flow B bodies kernel window = .ok (ops, ib, s₀) ∧ decoupledIoInitialData L P ib s₀ disk = .ok (x 0, d₀) ∧
        IBTrajectory L G P ops ib (solverOf be kv "velocity") (solverOf be kf "forces") (solverOf be kp "poisson") x P.nt.toNat ∧ x P.nt.toNat = s' ∧
        file.terminated = true ∧ file.lines.length = P.nt.toNat ∧
        ∀ k, k < P.nt.toNat → ∃ rv rf rp, BodySolves be kv kf kp L G P ops ib none (x k) (x (k + 1)) rv rf rp ∧
          file.lines[k]? = some (reportLine fmt (P.nstart + k + 1) [rv, rp, rf]) := by
  obtain ⟨v, v1, v2⟩ := create_ok (K := K) hv "velocity"
  obtain ⟨p, p1, p2⟩ := create_ok (K := K) hp "poisson"
  obtain ⟨f, f1, f2⟩ := create_ok (K := K) hf "forces"
  have hc : createFlowSolvers (K := K) haveAmgX readable directory velocity poisson = .ok ⟨v, p⟩ := by
    unfold createFlowSolvers
    rw [v1, p1]
    rfl
  unfold runDecoupledWith runDecoupled
  simp only [hc, f1]
  cases h1 : decoupledInit debug L G axes P flow B bodies kernel window with
  | error e => rfl
  | ok w =>
    obtain ⟨ops, ib, s₀⟩ := w
    obtain ⟨v', v3, v4⟩ := v2 ops.A
    obtain ⟨p', p3, p4⟩ := p2 ops.DBNG
    obtain ⟨f', f3, f4⟩ := f2 ib.EBNH
    have hm : FlowSolvers.setMatrices ⟨v, p⟩ ops = .ok ⟨v', p'⟩ := by
      unfold FlowSolvers.setMatrices
      simp only [v3, p3]
      rfl
    simp only [hm, f3]
    have hi0 : s₀.ns.ite = P.nstart := by
      obtain ⟨⟨ops', ns⟩, h3, h1⟩ := bind_ok h1
      obtain ⟨idx, h4, h1⟩ := bind_ok h1
      obtain ⟨ib', h5, h1⟩ := bind_ok h1
      cases h1
      obtain ⟨_, _, _, _, rfl⟩ := solverInit_ok h3
      rfl
    cases h2 : decoupledIoInitialData L P ib s₀ disk with
    | error e => rfl
    | ok w =>
      obtain ⟨s, d₀⟩ := w
      have hi : s.ns.ite = P.nstart := by
        unfold decoupledIoInitialData at h2
        split_ifs at h2
        · obtain ⟨_, _, h2⟩ := bind_ok h2
          cases h2
          exact hi0
        · obtain ⟨s'', h3, h2⟩ := bind_ok h2
          cases h2
          obtain ⟨s₁, h3, h4⟩ := bind_ok h3
          obtain ⟨_, _, _, _, _, _, _, _, _, rfl⟩ := readRestart_ok h3
          obtain ⟨_, _, h4⟩ := bind_ok h4
          split at h4
          · cases h4
            exact hi0
          · cases h4
      simp only []
      rw [hi0, body_plain]
      obtain ⟨r1, r2, r3⟩ := report_spec (P := P) (ns := IBState.ns)
        (write := fun s (d : Disk K × TextDisk) => (decoupledWriteStep L P ib bodies s d.1).map fun (disk, t, avg) =>
          (disk, printForces P.output P.nstart (forcesLine fmt' t avg) d.2))
        (adv := decoupledAdvance L G P ops ib none (solverOf be kv "velocity") (solverOf be kf "forces") (solverOf be kp "poisson"))
        (advW := decoupledAdvanceWith be L G P ops ib none) (info := fun s o => decoupledWriteLinSolversInfo fmt s.ns o)
        (Ready := fun o => HasMatrix o.v kv "velocity" ops.A ∧ HasMatrix o.f kf "forces" ib.EBNH ∧ HasMatrix o.p kp "poisson" ops.DBNG)
        (Good := fun s s' l => ∃ rv rf rp, BodySolves be kv kf kp L G P ops ib none s s' rv rf rp ∧ l = reportLine fmt s'.ns.ite [rv, rp, rf])
        (fun s s' h => decoupled_ite h) (by
          intro s o ho
          obtain ⟨a1, a2⟩ := decoupledAdvanceWith_spec (be := be) (L := L) (G := G) (P := P) none s o ho.1 ho.2.1 ho.2.2
          refine ⟨a1, fun s' h => ?_⟩
          obtain ⟨o', rv, rf, rp, b1, b2, b3, b4, b5, b6, b7, b8⟩ := a2 s' h
          refine ⟨o', _, b1, by unfold decoupledWriteLinSolversInfo; rw [b6, b7, b8]; rfl, ⟨b2, b3, b4⟩, rv, rf, rp, b5, ?_⟩
          exact line_three fmt s'.ns.ite rv rp rf) fuel s ⟨⟨v', p'⟩, f'⟩ (d₀, openForces P.output P.nstart text) [] ⟨v4, f4, p4⟩
      generalize plainLoop P IBState.ns _ _ fuel s (d₀, openForces P.output P.nstart text) = r at r1 r2 r3 ⊢
      cases r with
      | none => simp only []; rw [r1 rfl]; rfl
      | some r =>
        cases r with
        | error e => simp only []; rw [r2 e rfl]; rfl
        | ok r =>
          obtain ⟨s₁, d₁, t₁⟩ := r
          obtain ⟨o₁, new, x, e, hn, x0, xn, hx⟩ := r3 s₁ (d₁, t₁) rfl
          simp only []
          have hn : new.length = P.nt.toNat := by
            rw [hn, hi]
            congr 1
            ring
          rw [hn] at xn hx
          have hite : ∀ k, k ≤ P.nt.toNat → (x k).ns.ite = P.nstart + k := by
            intro k
            induction k with
            | zero => intro _; rw [x0, hi]; simp
            | succ k ih =>
              intro hk
              rw [decoupled_ite (hx k (by omega)).1, ih (by omega)]
              push_cast
              ring
          refine ⟨o₁, ⟨new, true⟩, by rw [e]; rfl, ops, ib, s₀, d₀, x, rfl, by rw [x0]; exact h2, fun k hk => (hx k hk).1, xn, rfl, hn, ?_⟩
          intro k hk
          obtain ⟨_, l, hl, rv, rf, rp, hs, rfl⟩ := hx k hk
          refine ⟨rv, rf, rp, hs, ?_⟩
          rw [hl, hite (k + 1) (by omega)]
          push_cast
          rw [add_assoc]

/-- C85. In every step with moving bodies the force system is solved with the matrix of the new positions: a step with the objects is a step of
`rigidAdvance`, whatever matrix the object of the forces had before. -/
theorem C85_moving_matrix {M : Motion K} {s s' : RigidState K} {o : BodySolvers K} {A : Mat K} (hv : HasMatrix o.v kv "velocity" ops.A)
    (hf : HasMatrix o.f kf "forces" A) (hp : HasMatrix o.p kp "poisson" ops.DBNG)
    (h : rigidAdvance debug L G axes P ops M kernel window (solverOf be kv "velocity") (solverOf be kf "forces") (solverOf be kp "poisson") s = .ok s') :
    ∃ o' rv rf rp, rigidAdvanceWith be debug L G axes P ops M kernel window s o = .ok (s', o') ∧
      BodySolves be kv kf kp L G P ops s'.ib (some s'.UB) s.toIBState s'.toIBState rv rf rp ∧
      HasMatrix o'.v kv "velocity" ops.A ∧ HasMatrix o'.f kf "forces" s'.ib.EBNH ∧ HasMatrix o'.p kp "poisson" ops.DBNG ∧
      o'.v.numbers = .ok (rv.iters, rv.res) ∧ o'.f.numbers = .ok (rf.iters, rf.res) ∧ o'.p.numbers = .ok (rp.iters, rp.res) := by
  obtain ⟨m, h1, h⟩ := bind_ok h
  obtain ⟨st, h2, h⟩ := bind_ok h
  cases h
  have hm : m.toIBState = s.toIBState := by
    obtain ⟨_, _, h1⟩ := bind_ok h1
    obtain ⟨_, _, h1⟩ := bind_ok h1
    cases h1
    rfl
  obtain ⟨k1, k2, i, r, k3⟩ := hf
  have hset : o.f.setMatrix m.ib.EBNH = .ok { o.f with handle := .object (some m.ib.EBNH) i r } := by
    unfold SolverObject.setMatrix
    rw [k3]
  obtain ⟨o', rv, rf, rp, b1, b2, b3, b4, b5, b6⟩ := (decoupledAdvanceWith_spec (be := be) (L := L) (G := G) (P := P) (ib := m.ib) (kf := kf) (some m.UB) m.toIBState
    { o with f := { o.f with handle := .object (some m.ib.EBNH) i r } } hv ⟨k1, k2, i, r, rfl⟩ hp).2 st h2
  refine ⟨o', rv, rf, rp, ?_, by rw [← hm]; exact b5, b2, b3, b4, b6⟩
  unfold rigidAdvanceWith
  simp only [h1, hset, b1, bind, Except.bind]
  rfl

/-- C85. Runs that start at different steps have different files. -/
theorem C85_names (output : String) (i j : ℤ) (hi : 0 ≤ i) (hj : 0 ≤ j) (h : iterationsPath output i = iterationsPath output j) : i = j := by
  obtain ⟨a, rfl⟩ := Int.eq_ofNat_of_zero_le hi
  obtain ⟨b, rfl⟩ := Int.eq_ofNat_of_zero_le hj
  unfold iterationsPath at h
  have := congrArg String.toList h
  simp only [String.toList_append, List.append_cancel_right_eq, List.append_cancel_left_eq] at this
  have e : toString ((a : ℕ) : ℤ) = toString ((b : ℕ) : ℤ) := String.toList_injective this
  exact_mod_cast toString_nat_injective (a := a) (b := b) e

/-! ### Examples -/

/-- the files of an example -/
def exampleReadable (c : String) : Bool := c = "/case/solvers.info"

/-- A relative and an absolute path to the same file, and a solver without file. -/
theorem exampleUsable : Usable false exampleReadable (some "/case") ⟨some "CPU", some "solvers.info"⟩ .ksp ∧
    Usable false exampleReadable (some "/case") ⟨none, some "/case/solvers.info"⟩ .ksp ∧ Usable false exampleReadable none ⟨none, none⟩ .ksp := by
  refine ⟨⟨.cpu, _, .relative _ "/case" rfl ?_ (by decide), ?_⟩, ⟨.default, _, .absolute "case/solvers.info".toList, ?_⟩, ⟨.default, _, .missing, ?_⟩⟩
  · intro l h
    have := congrArg (fun s : String => s.toList.head?) h
    simp at this
  · rintro _ c ⟨⟩
    decide
  · rintro _ c ⟨⟩
    decide
  · rintro _ c ⟨⟩

/-- A file that does not exist: the hypotheses of `C85_false_missing_file`. -/
example : SolverOf false (some "CPU") .ksp ∧ ConfigOf (some "/case") (some "solver.info") (some "/case/solver.info") ∧ "/case/solver.info" ≠ "None" ∧
    exampleReadable "/case/solver.info" = false := by
  refine ⟨.cpu, .relative _ "/case" rfl ?_ (by decide), by decide, by decide⟩
  intro l h
  have := congrArg (fun s : String => s.toList.head?) h
  simp at this

/-- An unknown type: the hypothesis of `C85_unknown_type`. -/
example : ∀ kind, ¬ SolverOf true (some "FPGA") kind := by
  intro kind h
  rw [← createLinSolver_iff] at h
  revert h
  cases kind <;> decide

/-- solvers that converge, with different numbers -/
def exampleBackends : Backends ℚ :=
  ⟨fun name _ g b => if name = "velocity" then ⟨b, 2, 7, 1 / 1000⟩ else ⟨g, 3, 12, 0⟩, fun _ _ _ _ => .error .unsupported⟩

/-- A run of four steps with these objects succeeds. -/
theorem exampleReports (disk : Disk ℚ) (text : TextDisk) (fmt : ℚ → List Char) : ∃ s' o' d text',
    runWith exampleBackends false exampleReadable (some "/case") ⟨some "CPU", some "solvers.info"⟩ ⟨none, some "/case/solvers.info"⟩ fmt true (exampleWalls 2 1)
      exampleWallsGeom (exampleParams .ksp) (some exampleFlow) (boundaries true (exampleWalls 2 1) exampleWallsGeom unitWalls) 4 disk text =
        some (.ok (s', o', d, text')) := by
  obtain ⟨ops, s, disk', s', d, S, _, _, _, hr⟩ := exampleCompletes disk
  have h := C85_same_run_partial (be := exampleBackends) (fmt := fmt) (debug := true) (L := exampleWalls 2 1) (G := exampleWallsGeom) (P := exampleParams .ksp)
    (flow := some exampleFlow) (B := boundaries true (exampleWalls 2 1) exampleWallsGeom unitWalls) exampleUsable.1 exampleUsable.2.1 4 disk text
  have e1 : solverOf exampleBackends .ksp "velocity" = fun _ _ r => .ok r := by
    funext A g b
    simp [solverOf, exampleBackends]
  have e2 : solverOf exampleBackends .ksp "poisson" = fun _ g _ => .ok g := by
    funext A g b
    simp [solverOf, exampleBackends]
  rw [e1, e2, hr] at h
  cases hw : runWith exampleBackends false exampleReadable (some "/case") ⟨some "CPU", some "solvers.info"⟩ ⟨none, some "/case/solvers.info"⟩ fmt true (exampleWalls 2 1)
      exampleWallsGeom (exampleParams .ksp) (some exampleFlow) (boundaries true (exampleWalls 2 1) exampleWallsGeom unitWalls) 4 disk text with
  | none => rw [hw] at h; cases h
  | some r =>
    cases r with
    | error e => rw [hw] at h; cases h
    | ok r => exact ⟨r.1, r.2.1, r.2.2.1, r.2.2.2, rfl⟩

/-- The line of step 2 of this example, if numbers are written as fractions. -/
example : iterationsLine (fun q : ℚ => (toString q.num ++ "/" ++ toString q.den).toList) 2 [(7, 1 / 1000), (12, 0)] = "2\t7\t1/1000\t12\t0/1".toList := by decide +kernel

/-- A velocity system that diverges in the first step: the hypotheses of `C85_diverged_partial`. -/
example (disk : Disk ℚ) : ∃ (be : Backends ℚ) (ops : NSOps ℚ) (s₀ : NSState ℚ) (x : ℕ → NSState ℚ) (d₀ : Disk ℚ) (rhs : ℤ → ℚ) (s₁ : NSState ℚ),
    let L := exampleWalls 2 1
    let P := exampleParams .ksp
    LayoutOK L ∧ P.nsave ≠ 0 ∧ P.nrestart ≠ 0 ∧ ((0 : ℕ) : ℤ) < P.nt ∧
    solverInit true L exampleWallsGeom P (some exampleFlow) (boundaries true L exampleWallsGeom unitWalls) = .ok (ops, s₀) ∧ ioInitialData L P s₀ disk = .ok (x 0, d₀) ∧
    Trajectory L exampleWallsGeom P ops (solverOf be .ksp "velocity") (solverOf be .ksp "poisson") x 0 ∧
    assembleRHSVelocity L exampleWallsGeom P ops { x 0 with t := (x 0).t + P.dt, ite := (x 0).ite + 1 } = .ok (rhs, s₁) ∧
    (be.ksp "velocity" ops.A (x 0).U rhs).reason < 0 := by
  obtain ⟨ops, s, disk', s', d, S, h1, h2, h3, hr⟩ := exampleCompletes disk
  obtain ⟨x, x0, hx, _⟩ := C46_saved_steps S h1 h2 h3 4 s' d hr
  obtain ⟨⟨rhs, s₁⟩, ha, _⟩ := bind_ok (hx 0 (by decide))
  obtain ⟨s₀, hi, hio⟩ := S.init
  exact ⟨⟨fun _ _ g _ => ⟨g, -3, 10000, 1⟩, fun _ _ _ _ => .error .unsupported⟩, ops, s₀, x, disk', rhs, s₁, S.constructed.setup.layout, h1, h2, by decide, hi, by rw [x0]; exact hio,
    fun k hk => absurd hk (by omega), ha, by simp⟩

/-- solvers for the example with the rising point -/
def gaussBackends : Backends ℚ :=
  ⟨fun name A g b => match gaussSolve (if name = "forces" then 2 else 4) A g b with | .ok y => ⟨y, 2, 1, 0⟩ | .error _ => ⟨g, -3, 1, 0⟩,
    fun _ _ _ _ => .error .unsupported⟩

/-- A step with the rising point: the hypotheses of `C85_moving_matrix`; here the object of the forces still has the matrix of the initial position. -/
example : ∃ (ops : NSOps ℚ) (s s' : RigidState ℚ) (o : BodySolvers ℚ), HasMatrix o.v .ksp "velocity" ops.A ∧ HasMatrix o.f .ksp "forces" s.ib.EBNH ∧
    HasMatrix o.p .ksp "poisson" ops.DBNG ∧
    rigidAdvance true twoByTwo tailGeom twoAxes tailParams ops risingMotion hatKernel 1 (solverOf gaussBackends .ksp "velocity") (solverOf gaussBackends .ksp "forces")
      (solverOf gaussBackends .ksp "poisson") s = .ok s' := by
  have key : (do
      let (ops, ib, s) ← decoupledInit true twoByTwo tailGeom twoAxes tailParams (some (pushedFlow none)) throughB pointPack hatKernel 1
      let s : RigidState ℚ := { toIBState := s, bodies := pointPack, UB := fun _ => 0, ib := ib }
      rigidAdvance true twoByTwo tailGeom twoAxes tailParams ops risingMotion hatKernel 1 (solverOf gaussBackends .ksp "velocity") (solverOf gaussBackends .ksp "forces")
        (solverOf gaussBackends .ksp "poisson") s).toOption.isSome = true := by decide +kernel
  obtain ⟨s', h⟩ := pick key
  obtain ⟨⟨ops, ib, s⟩, _, h⟩ := bind_ok h
  exact ⟨ops, _, s', ⟨⟨⟨.ksp, "velocity", "None", "", .object (some ops.A) 0 0⟩, ⟨.ksp, "poisson", "None", "", .object (some ops.DBNG) 0 0⟩⟩,
    ⟨.ksp, "forces", "None", "", .object (some ib.EBNH) 0 0⟩⟩, ⟨rfl, rfl, _, _, rfl⟩, ⟨rfl, rfl, _, _, rfl⟩, ⟨rfl, rfl, _, _, rfl⟩, h⟩

end PetIBM
