/-
C110: PETSc objects are released exactly once.
-/
import Verif.Lemmas.Lifetime

namespace PetIBM
open Spec

/-- The references after `init` and `ioInitialData`. -/
def heldBetween (p : ObjProgram) : Owned := ⟨((checkAll (p.init true) ⟨[], [], []⟩).map (·.own)).getD [], [], []⟩

/-- `Keeps` as a test, with the number of references and with what `destroy` leaves null. -/
def keepsTest (p : ObjProgram) (n : ℕ) (l : List PVar) (again : Bool) : Bool :=
  [true, false].all (fun z => (checkAll (p.init z) ⟨[], [], []⟩).any fun t => t.covers (heldBetween p)) &&
    [true, false].all (fun a => [true, false].all fun b => [true, false].all fun d =>
      (checkAll (p.step ⟨a, b, d⟩) (heldBetween p)).any fun t => t.covers (heldBetween p)) &&
    ((checkAll p.destroy (heldBetween p)).any fun t => t.own.isEmpty && l.all (fun x => decide (x ∈ t.nul)) &&
      (!again || (checkAll p.destroy t).any fun u => u.own.isEmpty)) && decide ((heldBetween p).own.length ≤ n)

theorem bool_all {f : Bool → Bool} (h : [true, false].all f = true) (b : Bool) : f b = true := by
  cases b <;> simp_all

theorem keepsTest_keeps {p : ObjProgram} {n : ℕ} {l : List PVar} {again : Bool} (h : keepsTest p n l again = true) :
    Keeps p (heldBetween p) ∧ (heldBetween p).own.length ≤ n ∧
      ((checkAll p.destroy (heldBetween p)).any fun t => t.own.isEmpty && l.all (fun x => decide (x ∈ t.nul)) &&
        (!again || (checkAll p.destroy t).any fun u => u.own.isEmpty)) = true := by
  unfold keepsTest at h
  rw [Bool.and_eq_true, Bool.and_eq_true, Bool.and_eq_true] at h
  obtain ⟨⟨⟨h1, h2⟩, h3⟩, h4⟩ := h
  refine ⟨⟨fun z => bool_all h1 z, fun w => bool_all (bool_all (bool_all h2 w.save) w.restart) w.fresh, ?_⟩, by simpa using h4, h3⟩
  cases hd : checkAll p.destroy (heldBetween p) with
  | none => rw [hd] at h3; cases h3
  | some t =>
    rw [hd] at h3
    simp only [Option.any_some, Bool.and_eq_true] at h3 ⊢
    exact h3.1.1

theorem clean_mono {p : ObjProgram} {a b : ℕ} (h : CleanRuns p a) (hab : a ≤ b) : CleanRuns p b := by
  intro zero files
  obtain ⟨run, h0, h1, h2, h3⟩ := h zero files
  exact ⟨run, h0, h1, fun k hk => (h2 k hk).imp fun l hl => ⟨hl.1.trans hab, hl.2⟩, h3⟩

theorem Keeps.reached {p : ObjProgram} {s : Owned} (hk : Keeps p s) {zero : Bool} {files : List StepFiles} {m : PMem}
    (h : execAll (p.init zero ++ files.flatMap p.step) PMem.start = .ok m) : Owns m s := by
  obtain ⟨m0, t0, e0, o0, c0⟩ := checked start_owns (hk.init zero)
  replace o0 := o0.covered c0
  rw [execAll_append, e0] at h
  dsimp only at h
  clear e0 c0
  induction files generalizing m0 with
  | nil => cases h; exact o0
  | cons w files ih =>
    obtain ⟨m1, t1, e1, o1, c1⟩ := checked o0 (hk.step w)
    rw [List.flatMap_cons, execAll_append, e1] at h
    exact ih m1 h (o1.covered c1)

theorem again_of_test {p : ObjProgram} {n : ℕ} {l : List PVar} (h : keepsTest p n l true = true) : DestroyAgain p := by
  intro zero files m last hm hl
  obtain ⟨hk, -, hd⟩ := keepsTest_keeps h
  obtain ⟨m', t, e, o, c⟩ := checked (hk.reached hm) hd
  rw [hl] at e
  cases e
  simp only [Bool.and_eq_true, Bool.not_true, Bool.false_or] at c
  obtain ⟨u, v, e', o', c'⟩ := checked o c.2
  exact ⟨u, e', o'.nothing (List.isEmpty_iff.1 c')⟩

/-- Parameters of order 1, by number of terms. -/
def firstOrder (v p f : Bool) (a b : Fin 3) : ObjParams := ⟨v, p, f, a, b, 1⟩

theorem params_cases (c : ObjParams) (hc : c.nConv ≤ 2) (hd : c.nDiff ≤ 2) (ho : 1 ≤ c.order) :
    ∃ (v p f : Bool) (a b : Fin 3) (n : ℕ), c = { firstOrder v p f a b with order := n + 1 } := by
  obtain ⟨v, p, f, nc, nd, o⟩ := c
  dsimp only at hc hd ho
  refine ⟨v, p, f, ⟨nc, by omega⟩, ⟨nd, by omega⟩, o - 1, ?_⟩
  unfold firstOrder
  have : o - 1 + 1 = o := by omega
  simp [this]

theorem ns_order (c : ObjParams) (n : ℕ) (m : ℕ) (l : List PVar) (g : Bool) :
    keepsTest (nsProgram { c with order := n + 1 }) m l g = keepsTest (nsProgram { c with order := 1 }) m l g := by
  have hi : ∀ z s, checkAll ((nsProgram { c with order := n + 1 }).init z) s = checkAll ((nsProgram { c with order := 1 }).init z) s := by
    intro z s
    simp only [nsProgram, nsInit, nsCreateOperators, checkAll_append, checkAll_order n, nsSetNullSpace, nsCreateVectors, nsReadRestart]
  have hh : heldBetween (nsProgram { c with order := n + 1 }) = heldBetween (nsProgram { c with order := 1 }) := by
    unfold heldBetween
    rw [hi]
  unfold keepsTest
  rw [hh]
  simp only [hi]
  rfl

theorem ib_order (c : ObjParams) (n : ℕ) (m : ℕ) (l : List PVar) (g : Bool) :
    keepsTest (ibProgram { c with order := n + 1 }) m l g = keepsTest (ibProgram { c with order := 1 }) m l g := by
  have hi : ∀ z s, checkAll ((ibProgram { c with order := n + 1 }).init z) s = checkAll ((ibProgram { c with order := 1 }).init z) s := by
    intro z s
    simp only [ibProgram, ibInit, ibExtraOperators, nsInit, nsCreateOperators, checkAll_append, checkAll_order n, nsSetNullSpace, nsCreateVectors, nsReadRestart]
  have hh : heldBetween (ibProgram { c with order := n + 1 }) = heldBetween (ibProgram { c with order := 1 }) := by
    unfold heldBetween
    rw [hi]
  unfold keepsTest
  rw [hh]
  simp only [hi]
  rfl

theorem rigid_order (c : ObjParams) (n : ℕ) (m : ℕ) (l : List PVar) (g : Bool) :
    keepsTest (rigidProgram { c with order := n + 1 }) m l g = keepsTest (rigidProgram { c with order := 1 }) m l g := by
  have hi : ∀ z s, checkAll ((rigidProgram { c with order := n + 1 }).init z) s = checkAll ((rigidProgram { c with order := 1 }).init z) s := by
    intro z s
    simp only [rigidProgram, ibInit, ibExtraOperators, nsInit, nsCreateOperators, checkAll_append, checkAll_order n, nsSetNullSpace, nsCreateVectors, nsReadRestart]
  have hs : ∀ w s, checkAll ((rigidProgram { c with order := n + 1 }).step w) s = checkAll ((rigidProgram { c with order := 1 }).step w) s := by
    intro w s
    simp only [rigidProgram, rigidAdvanceActs, ibExtraOperators, checkAll_append, checkAll_order n, ibAdvance, nsRHSVelocity, nsProject, rigidWriteActs, ibWrite,
      nsWriteRestart]
  have hh : heldBetween (rigidProgram { c with order := n + 1 }) = heldBetween (rigidProgram { c with order := 1 }) := by
    unfold heldBetween
    rw [hi]
  unfold keepsTest
  rw [hh]
  simp only [hi, hs]
  rfl

theorem coupled_order (c : ObjParams) (n : ℕ) (m : ℕ) (l : List PVar) (g : Bool) :
    keepsTest (coupledProgram { c with order := n + 1 }) m l g = keepsTest (coupledProgram { c with order := 1 }) m l g := by
  have hi : ∀ z s, checkAll ((coupledProgram { c with order := n + 1 }).init z) s = checkAll ((coupledProgram { c with order := 1 }).init z) s := by
    intro z s
    simp only [coupledProgram, coupledInit, coupledCreateOperators, coupledCreateVectors, nsInit, checkAll_append, checkAll_order n, nsCreateVectors, nsReadRestart]
  have hh : heldBetween (coupledProgram { c with order := n + 1 }) = heldBetween (coupledProgram { c with order := 1 }) := by
    unfold heldBetween
    rw [hi]
  unfold keepsTest
  rw [hh]
  simp only [hi]
  rfl

theorem ns_test : ∀ (v p : Bool) (a b : Fin 3), keepsTest (nsProgram (firstOrder v p true a b)) 26 [] true = true := by decide +kernel

theorem ns_test' (c : ObjParams) (hc : c.nConv ≤ 2) (hd : c.nDiff ≤ 2) (ho : 1 ≤ c.order) : keepsTest (nsProgram c) 26 [] true = true := by
  obtain ⟨v, p, f, a, b, n, rfl⟩ := params_cases c hc hd ho
  rw [ns_order]
  exact ns_test v p a b

theorem ib_test : ∀ (v p f : Bool) (a b : Fin 3), keepsTest (ibProgram (firstOrder v p f a b)) 37 [] true = true := by decide +kernel

theorem ib_test' (c : ObjParams) (hc : c.nConv ≤ 2) (hd : c.nDiff ≤ 2) (ho : 1 ≤ c.order) : keepsTest (ibProgram c) 37 [] true = true := by
  obtain ⟨v, p, f, a, b, n, rfl⟩ := params_cases c hc hd ho
  rw [ib_order]
  exact ib_test v p f a b

theorem rigid_test : ∀ (v p f : Bool) (a b : Fin 3), keepsTest (rigidProgram (firstOrder v p f a b)) 38 [] true = true := by decide +kernel

theorem rigid_test' (c : ObjParams) (hc : c.nConv ≤ 2) (hd : c.nDiff ≤ 2) (ho : 1 ≤ c.order) : keepsTest (rigidProgram c) 38 [] true = true := by
  obtain ⟨v, p, f, a, b, n, rfl⟩ := params_cases c hc hd ho
  rw [rigid_order]
  exact rigid_test v p f a b

theorem coupled_test : ∀ (v p : Bool) (a b : Fin 3), keepsTest (coupledProgram (firstOrder v p true a b)) 30 [.isDE0, .isDE1, .P] false = true := by decide +kernel

theorem coupled_test' (c : ObjParams) (hc : c.nConv ≤ 2) (hd : c.nDiff ≤ 2) (ho : 1 ≤ c.order) :
    keepsTest (coupledProgram c) 30 [.isDE0, .isDE1, .P] false = true := by
  obtain ⟨v, p, f, a, b, n, rfl⟩ := params_cases c hc hd ho
  rw [coupled_order]
  exact coupled_test v p a b

variable (c : ObjParams) (hc : c.nConv ≤ 2) (hd : c.nDiff ≤ 2) (ho : 1 ≤ c.order)
include hc hd ho

/-- **C110** Every run of the Navier-Stokes solver uses and releases only objects that exist, has never more than 26 objects between the steps, and `destroy`
releases all of them; `destroy` may be called again. -/
theorem C110_navierstokes : CleanRuns (nsProgram c) 26 ∧ DestroyAgain (nsProgram c) :=
  have h := ns_test' c hc hd ho
  ⟨clean_mono (keepsTest_keeps h).1.clean (keepsTest_keeps h).2.1, again_of_test h⟩

/-- **C110** The same for the decoupled solver. -/
theorem C110_decoupled : CleanRuns (ibProgram c) 37 ∧ DestroyAgain (ibProgram c) :=
  have h := ib_test' c hc hd ho
  ⟨clean_mono (keepsTest_keeps h).1.clean (keepsTest_keeps h).2.1, again_of_test h⟩

/-- **C110** The same for bodies in prescribed motion, although every step creates four operators anew while the solver of the forces refers to an old one. -/
theorem C110_moving : CleanRuns (rigidProgram c) 38 ∧ DestroyAgain (rigidProgram c) :=
  have h := rigid_test' c hc hd ho
  ⟨clean_mono (keepsTest_keeps h).1.clean (keepsTest_keeps h).2.1, again_of_test h⟩

/-- **C110** The same for the coupled solver, which exchanges the vector of the pressure with its own one; but see `C110_false_coupled_again`.
Missing: the second call of `destroy`. -/
theorem C110_coupled_partial : CleanRuns (coupledProgram c) 30 :=
  have h := coupled_test' c hc hd ho
  clean_mono (keepsTest_keeps h).1.clean (keepsTest_keeps h).2.1

/-- **C110** is false for a second `destroy` of the coupled solver: after every run it uses a null pointer (`VecResetArray(P)`). -/
theorem C110_false_coupled_again (zero : Bool) (files : List StepFiles) :
    ∃ m last, execAll ((coupledProgram c).init zero ++ files.flatMap (coupledProgram c).step) PMem.start = .ok m ∧
      execAll (coupledProgram c).destroy m = .ok last ∧ execAll (coupledProgram c).destroy last = .error .ub := by
  have h := coupled_test' c hc hd ho
  obtain ⟨hk, -, ht⟩ := keepsTest_keeps h
  have hrun : ∃ m, execAll ((coupledProgram c).init zero ++ files.flatMap (coupledProgram c).step) PMem.start = .ok m := by
    obtain ⟨m0, t0, e0, o0, c0⟩ := checked start_owns (hk.init zero)
    replace o0 := o0.covered c0
    rw [execAll_append, e0]
    dsimp only
    clear e0 c0
    induction files generalizing m0 with
    | nil => exact ⟨m0, rfl⟩
    | cons w files ih =>
      obtain ⟨m1, t1, e1, o1, c1⟩ := checked o0 (hk.step w)
      rw [List.flatMap_cons, execAll_append, e1]
      exact ih m1 (o1.covered c1)
  obtain ⟨m, hm⟩ := hrun
  obtain ⟨last, t, e, o, q⟩ := checked (hk.reached hm) ht
  refine ⟨m, last, hm, e, ?_⟩
  simp only [Bool.and_eq_true] at q
  have hn : ∀ x ∈ [PVar.isDE0, .isDE1, .P], last.var x = .null := fun x hx => o.nul x (by simpa using List.all_eq_true.1 q.1.2 x hx)
  have h0 := hn .isDE0 (by simp)
  have h1 := hn .isDE1 (by simp)
  have h2 := hn .P (by simp)
  simp [coupledProgram, coupledDestroy, acts, execAll, Stmt.exec, Act.exec, h0, h1, h2, PMem.isLive]

omit hc hd ho

/-- **C110** The numbers of explicit terms of all schemes meet the hypotheses above. -/
theorem C110_schemes {K : Type} [Field K] {name : String} {parameters : Option (String → Option String)} {s : TimeScheme K}
    (h : createTimeIntegration name parameters = .ok s) : s.nExplicit ≤ 2 := by
  unfold createTimeIntegration at h
  split at h
  · cases h
  · split at h
    · cases h
    · split at h
      · cases h; exact Nat.le_of_ble_eq_true rfl
      · split at h
        · cases h; exact Nat.le_of_ble_eq_true rfl
        · split at h
          · cases h; exact Nat.le_of_ble_eq_true rfl
          · split at h
            · cases h; exact Nat.le_of_ble_eq_true rfl
            · cases h

/-- **C110** For orders below 1 `init` fails. -/
theorem C110_order (m : PMem) (op out : PVar) : (Stmt.createBnHead 0 op out).exec m = .error .argWrong := rfl

/-- Three matrices. -/
def threeMats : PMem := ⟨3, fun i => if i < 3 then 1 else 0, fun x => if x = .Op then .ptr 0 else if x = .R then .ptr 1 else if x = .MHead then .ptr 2 else .wild⟩

theorem threeMats_owns : Owns threeMats ⟨[.Op, .R, .MHead], [], []⟩ := by
  refine ⟨by decide, fun i => ?_, ?_, fun _ h => absurd h List.not_mem_nil, fun _ h => absurd h List.not_mem_nil⟩
  · by_cases h0 : i = 0
    · subst h0; decide
    by_cases h1 : i = 1
    · subst h1; decide
    by_cases h2 : i = 2
    · subst h2; decide
    have h3 : ¬ i < 3 := by omega
    simp [threeMats, holds, h3, Ne.symm h0, Ne.symm h1, Ne.symm h2]
  · intro x hx
    simp only [List.mem_cons, List.not_mem_nil, or_false] at hx
    rcases hx with rfl | rfl | rfl
    · exact ⟨0, rfl, by decide⟩
    · exact ⟨1, rfl, by decide⟩
    · exact ⟨2, rfl, by decide⟩

/-- **C110** `createBn` with three matrices creates one object, for every order. -/
theorem C110_createBn {n : ℕ} (hn : 1 ≤ n) : ∃ m, execAll (createBn3 n) threeMats = .ok m ∧ AtMostObjects m 4 := by
  obtain ⟨n, rfl⟩ : ∃ k, n = k + 1 := ⟨n - 1, by omega⟩
  have h : ((checkAll (createBn3 (n + 1)) ⟨[.Op, .R, .MHead], [], []⟩).any fun t => decide (t.own.length ≤ 4)) = true := by
    have : checkAll (createBn3 (n + 1)) ⟨[.Op, .R, .MHead], [], []⟩ = checkAll (createBn3 1) ⟨[.Op, .R, .MHead], [], []⟩ := by
      simp only [createBn3, checkAll_append, checkAll_order n]
    rw [this]
    decide +kernel
  obtain ⟨m, t, e, o, q⟩ := checked threeMats_owns h
  obtain ⟨l, h1, h2⟩ := o.atMost
  exact ⟨m, e, l, h1.trans (of_decide_eq_true q), h2⟩

/-- Two matrices. -/
def twoMats : PMem := ⟨2, fun i => if i < 2 then 1 else 0, fun x => if x = .Op then .ptr 0 else if x = .M then .ptr 1 else .wild⟩

/-- **C110** is false for `createBn` with two matrices (no application calls it): the vector `MDiagInv`, a local variable, is not released. With order 1
four objects exist after the call: the two matrices, the result, and this vector. -/
theorem C110_false_createBn : ∃ m, execAll (createBn2 1) twoMats = .ok m ∧ ¬ AtMostObjects m 3 := by
  refine ⟨_, rfl, ?_⟩
  rintro ⟨l, hl, h⟩
  have h0 : 0 ∈ l := h 0 (by decide)
  have h1 : 1 ∈ l := h 1 (by decide)
  have h2 : 2 ∈ l := h 2 (by decide)
  have h3 : 3 ∈ l := h 3 (by decide)
  have hs : [0, 1, 2, 3] ⊆ l := by
    intro x hx
    simp only [List.mem_cons, List.not_mem_nil, or_false] at hx
    rcases hx with rfl | rfl | rfl | rfl <;> assumption
  have := (List.subperm_of_subset (by decide : [0, 1, 2, 3].Nodup) hs).length_le
  simp at this
  omega

/-! ### Probes -/

/-- The solution alone. -/
def solutionOnly : PMem := ⟨1, fun i => if i = 0 then 1 else 0, fun x => if x = .UGlobal then .ptr 0 else .wild⟩

theorem solutionOnly_owns : Owns solutionOnly ⟨[.UGlobal], [], []⟩ := by
  refine ⟨by decide, fun i => ?_, ?_, fun _ h => absurd h List.not_mem_nil, fun _ h => absurd h List.not_mem_nil⟩
  · by_cases h0 : i = 0
    · subst h0; decide
    · simp [solutionOnly, holds, h0, Ne.symm h0]
  · intro x hx
    have := List.mem_singleton.1 hx
    subst this
    exact ⟨0, rfl, by decide⟩

/-- What a volume probe holds before and after the first accumulation. -/
def volumeHeld (b : Bool) : Owned :=
  if b then ⟨[.dvec, .isNatural, .isPetsc, .probeViewer, .UGlobal], [], []⟩ else ⟨[.isNatural, .isPetsc, .probeViewer, .UGlobal], [.dvec], []⟩

theorem checkedActs {l : List Act} {m : PMem} {s : Owned} {f : Owned → Bool} (h : Owns m s) (hc : ((checkActs l s).any f) = true) :
    ∃ m' t, execActs l m = .ok m' ∧ Owns m' t ∧ f t = true := by
  cases ht : checkActs l s with
  | none => rw [ht] at hc; cases hc
  | some t =>
    rw [ht] at hc
    obtain ⟨m', h1, h2⟩ := checkActs_sound h ht
    exact ⟨m', t, h1, h2, hc⟩

/-- What a volume probe holds while it looks at the part of the vector. -/
def volumeInside (b : Bool) : Owned := ⟨.svec :: (volumeHeld b).own, (volumeHeld b).nul, []⟩

theorem volume_step (sum w b : Bool) {m : PMem} (h : Owns m (volumeHeld b)) :
    ∃ m' b', volumeProbeMonitor sum w m = .ok m' ∧ Owns m' (volumeHeld b') := by
  obtain ⟨m1, t1, e1, o1, c1⟩ := checkedActs (l := [.declare .svec, .create .svec [.UGlobal, .isPetsc]]) (f := fun t => t.covers (volumeInside b)) h
    (by cases b <;> decide)
  replace o1 := o1.covered c1
  unfold volumeProbeMonitor
  rw [e1]
  cases sum with
  | false =>
    obtain ⟨m2, t2, e2, o2, c2⟩ := checkedActs (l := [.use [.svec, .probeViewer], .destroy .svec]) (f := fun t => t.covers (volumeHeld b)) o1
      (by cases b <;> decide)
    exact ⟨m2, b, e2, o2.covered c2⟩
  | true =>
    cases b with
    | false =>
      obtain ⟨m2, t2, e2, o2, c2⟩ := checkedActs (l := .create .dvec [.svec] :: volumeProbeSum w) (f := fun t => t.covers (volumeHeld true)) o1
        (by cases w <;> decide)
      refine ⟨m2, true, ?_, o2.covered c2⟩
      have : m1.var .dvec = .null := o1.nul .dvec (by decide)
      simp only [this]
      exact e2
    | true =>
      obtain ⟨m2, t2, e2, o2, c2⟩ := checkedActs (l := volumeProbeSum w) (f := fun t => t.covers (volumeHeld true)) o1 (by cases w <;> decide)
      refine ⟨m2, true, ?_, o2.covered c2⟩
      obtain ⟨i, hi, -⟩ := o1.pts .dvec (by decide)
      simp only [hi]
      exact e2

/-- **C110** A volume probe, with or without accumulation, in a run with any number of monitored steps: everything it uses exists, it never has more than four
objects besides the solution, and its `destroy` releases all of them but not the solution. -/
theorem C110_volume_probe (sum : Bool) (writes : List Bool) :
    ∃ m0 m last, execActs volumeProbeInit solutionOnly = .ok m0 ∧ volumeProbeRun sum writes m0 = .ok m ∧ AtMostObjects m 5 ∧
      execActs volumeProbeDestroy m = .ok last ∧ AtMostObjects last 1 ∧ last.isLive .UGlobal = true := by
  obtain ⟨m0, t0, e0, o0, c0⟩ := checkedActs (l := volumeProbeInit) (f := fun t => t.covers (volumeHeld false)) solutionOnly_owns (by decide)
  replace o0 := o0.covered c0
  have key : ∀ (l : List Bool) (m : PMem) (b : Bool), Owns m (volumeHeld b) → ∃ m' b', volumeProbeRun sum l m = .ok m' ∧ Owns m' (volumeHeld b') := by
    intro l
    induction l with
    | nil => exact fun m b h => ⟨m, b, rfl, h⟩
    | cons w l ih =>
      intro m b h
      obtain ⟨m1, b1, e1, o1⟩ := volume_step sum w b h
      obtain ⟨m2, b2, e2, o2⟩ := ih m1 b1 o1
      refine ⟨m2, b2, ?_, o2⟩
      simp only [volumeProbeRun, e1]
      exact e2
  obtain ⟨m, b, e1, o1⟩ := key writes m0 false o0
  obtain ⟨last, t, e2, o2, c2⟩ := checkedActs (l := volumeProbeDestroy) (f := fun t => decide (t.own = [.UGlobal])) o1 (by cases b <;> decide)
  have c2 : t.own = [.UGlobal] := by simpa using c2
  have h1 := o1.atMost
  have h2 := o2.atMost
  rw [c2] at h2
  refine ⟨m0, m, last, e0, e1, ?_, e2, h2, o2.valid_live (by simp [Owned.valid, c2])⟩
  obtain ⟨l, hl, hm⟩ := h1
  exact ⟨l, hl.trans (by cases b <;> decide), hm⟩

/-- **C110** The same for a probe of a point, on the process of the point and on the others. -/
theorem C110_point_probe (here : Bool) (n : ℕ) :
    ∃ m last, execActs (pointProbeInit ++ (List.replicate n (pointProbeMonitor here)).flatten) solutionOnly = .ok m ∧ AtMostObjects m 3 ∧
      execActs pointProbeDestroy m = .ok last ∧ AtMostObjects last 1 ∧ last.isLive .UGlobal = true := by
  obtain ⟨m0, t0, e0, o0, c0⟩ := checkedActs (l := pointProbeInit) (f := fun t => t.covers ⟨[.svec, .probeViewer, .UGlobal], [], []⟩) solutionOnly_owns (by decide)
  replace o0 := o0.covered c0
  have key : execActs (List.replicate n (pointProbeMonitor here)).flatten m0 = .ok m0 := by
    induction n with
    | zero => rfl
    | succ n ih =>
      obtain ⟨m1, t1, e1, -, -⟩ := checkedActs (l := pointProbeMonitor here) (f := fun _ => true) o0 (by cases here <;> decide)
      have : m1 = m0 := by
        have hs : m0.isLive .svec = true := o0.valid_live (by decide)
        have hu : m0.isLive .UGlobal = true := o0.valid_live (by decide)
        have hv : m0.isLive .probeViewer = true := o0.valid_live (by decide)
        cases here <;> simp [pointProbeMonitor, execActs, Act.exec, hs, hu, hv] at e1 <;> exact e1.symm
      rw [List.replicate_succ, List.flatten_cons, execActs_append, e1, this]
      exact ih
  obtain ⟨last, t, e2, o2, c2⟩ := checkedActs (l := pointProbeDestroy) (f := fun t => decide (t.own = [.UGlobal])) o0 (by decide)
  have c2 : t.own = [.UGlobal] := by simpa using c2
  have h2 := o2.atMost
  rw [c2] at h2
  refine ⟨m0, last, ?_, o0.atMost, e2, h2, o2.valid_live (by simp [Owned.valid, c2])⟩
  rw [execActs_append, e0]
  exact key

/-- **C110** is false for a probe that is dropped without a call of `destroy` (the solvers do call it): the destructor of the base class cannot reach the members
of the derived class, and the two index sets stay. -/
theorem C110_false_probe_destructor :
    ∃ m last, execActs volumeProbeInit solutionOnly = .ok m ∧ execActs probeBaseDestroy m = .ok last ∧ ¬ AtMostObjects last 2 := by
  refine ⟨_, _, rfl, rfl, ?_⟩
  rintro ⟨l, hl, h⟩
  have h0 : 0 ∈ l := h 0 (by decide)
  have h3 : 3 ∈ l := h 3 (by decide)
  have h4 : 4 ∈ l := h 4 (by decide)
  have hs : [0, 3, 4] ⊆ l := by
    intro x hx
    simp only [List.mem_cons, List.not_mem_nil, or_false] at hx
    rcases hx with rfl | rfl | rfl <;> assumption
  have := (List.subperm_of_subset (by decide : [0, 3, 4].Nodup) hs).length_le
  simp at this
  omega

/-- The hypotheses are met, e.g. by two Adams-Bashforth terms, one Crank-Nicolson term, `BN` of order 3, and AmgX for the pressure. -/
example : CleanRuns (rigidProgram ⟨true, false, true, 2, 1, 3⟩) 38 ∧ DestroyAgain (rigidProgram ⟨true, false, true, 2, 1, 3⟩) :=
  C110_moving _ (by decide) (by decide) (by decide)

example : CleanRuns (coupledProgram ⟨true, true, true, 2, 1, 2⟩) 30 := C110_coupled_partial _ (by decide) (by decide) (by decide)

end PetIBM
