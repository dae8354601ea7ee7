/-
Runs with the objects of the linear solvers.
-/
import Verif.Spec.LinSolver
import Verif.Lemmas.NavierStokesRun
import Verif.Props.Params
import Verif.Props.IbpmRun

set_option linter.unusedSectionVars false

namespace PetIBM

open Spec

variable {K : Type} [Field K] [LinearOrder K] [IsStrictOrderedRing K]

/-! ### Objects -/

/-- an object of this kind and name that has this matrix -/
def HasMatrix (o : SolverObject K) (kind : SolverType) (name : String) (A : Mat K) : Prop :=
  o.kind = kind ∧ o.name = name ∧ ∃ i r, o.handle = .object (some A) i r

theorem solve_spec (be : Backends K) {o : SolverObject K} {kind : SolverType} {name : String} {A : Mat K} (h : HasMatrix o kind name A) (x b : ℤ → K) :
    (∀ e, solverOf be kind name A x b = .error e → o.solve be x b = .error e) ∧
    ∀ y, solverOf be kind name A x b = .ok y → ∃ r o', Outcome be kind name A x b r ∧ r.x = y ∧ o.solve be x b = .ok (y, o') ∧
      HasMatrix o' kind name A ∧ o'.numbers = .ok (r.iters, r.res) := by
  obtain ⟨rfl, rfl, i, r, h⟩ := h
  obtain ⟨kind, name, config, type, handle⟩ := o
  simp only at h
  subst h
  cases kind with
  | ksp =>
    constructor
    · intro e he
      simp only [solverOf] at he
      split_ifs at he with hr
      cases he
      simp [SolverObject.solve, hr]
    · intro y hy
      simp only [solverOf] at hy
      split_ifs at hy with hr
      cases hy
      exact ⟨be.ksp name A x b, ⟨.ksp, name, config, type, .object (some A) (be.ksp name A x b).iters (be.ksp name A x b).res⟩, ⟨rfl, not_lt.1 hr⟩, rfl, by simp [SolverObject.solve, hr], ⟨rfl, rfl, _, _, rfl⟩, rfl⟩
  | amgx =>
    constructor
    · intro e he
      simp only [solverOf] at he
      cases hr : be.amgx name A x b with
      | error e' =>
        rw [hr] at he
        cases he
        simp [SolverObject.solve, hr]
      | ok r => rw [hr] at he; cases he
    · intro y hy
      simp only [solverOf] at hy
      cases hr : be.amgx name A x b with
      | error e' => rw [hr] at hy; cases hy
      | ok r =>
        rw [hr] at hy
        cases hy
        exact ⟨r, ⟨.amgx, name, config, type, .object (some A) r.iters r.res⟩, hr, rfl, by simp [SolverObject.solve, hr], ⟨rfl, rfl, _, _, rfl⟩, rfl⟩

/-- the name of an object -/
theorem create_ok {haveAmgX : Bool} {readable : String → Bool} {directory : Option String} {node : SolverNode} {kind : SolverType}
    (h : Usable haveAmgX readable directory node kind) (name : String) : ∃ o : SolverObject K,
      createSolverObject haveAmgX readable directory name node = .ok o ∧ ∀ A, ∃ o', o.setMatrix A = .ok o' ∧ HasMatrix o' kind name A := by
  obtain ⟨h1, file, h2, h3⟩ := h
  rw [← createLinSolver_iff] at h1
  have key : ∃ c, (∀ o : SolverObject K, o = (match kind with | .ksp => kspConstruct readable name c | .amgx => amgxConstruct name c) →
      createSolverObject haveAmgX readable directory name node = .ok o) ∧ (kind = .ksp → c = "None" ∨ readable c = true) := by
    obtain ⟨type, config⟩ := node
    simp only at h1 h2
    cases h2 with
    | missing =>
      refine ⟨"None", ?_, fun _ => Or.inl rfl⟩
      rintro o rfl
      simp only [createSolverObject, h1]
      cases kind <;> rfl
    | word =>
      refine ⟨"None", ?_, fun _ => Or.inl rfl⟩
      rintro o rfl
      simp only [createSolverObject, h1]
      cases kind <;> rfl
    | absolute c =>
      refine ⟨String.ofList ('/' :: c), ?_, fun hk => Or.inr (h3 hk _ rfl)⟩
      rintro o rfl
      simp only [createSolverObject, h1, Option.getD_some, String.toList_ofList, List.headD_cons, ne_eq, not_true_eq_false, false_and, if_false]
      cases kind <;> rfl
    | relative c d hd hc hN =>
      refine ⟨d ++ "/" ++ c, ?_, fun hk => Or.inr (h3 hk _ rfl)⟩
      rintro o rfl
      have hh : c.toList.headD '\x00' ≠ '/' := by
        intro h
        cases hl : c.toList with
        | nil => rw [hl] at h; revert h; decide
        | cons a l =>
          rw [hl] at h
          simp only [List.headD_cons] at h
          subst h
          exact hc l (by rw [← hl, String.ofList_toList])
      simp only [createSolverObject, h1, Option.getD_some]
      rw [if_pos ⟨hh, hN⟩, hd]
      cases kind <;> rfl
  obtain ⟨c, hc, hk⟩ := key
  refine ⟨_, hc _ rfl, fun A => ?_⟩
  cases kind with
  | ksp =>
    have : ¬ (c ≠ "None" ∧ readable c = false) := by
      rintro ⟨a, b⟩
      rcases hk rfl with h | h
      · exact a h
      · rw [h] at b; cases b
    simp only [kspConstruct, kspInit, if_neg this]
    exact ⟨_, rfl, rfl, rfl, _, _, rfl⟩
  | amgx => exact ⟨_, rfl, rfl, rfl, _, _, rfl⟩

/-! ### Steps -/

variable {L : Layout} {G : Geom K} {P : NSParams K} {ops : NSOps K} {ib : IBOps K} {be : Backends K} {kv kf kp : SolverType}

theorem assemble_U {s s₁ : NSState K} {rhs : ℤ → K} (h : assembleRHSVelocity L G P ops s = .ok (rhs, s₁)) : s₁.U = s.U ∧ s₁.dP = s.dP ∧ s₁.ite = s.ite := by
  obtain ⟨_, _, h1⟩ := bind_ok h
  obtain ⟨_, _, h1⟩ := bind_ok h1
  obtain ⟨_, _, h1⟩ := bind_ok h1
  obtain ⟨_, _, h1⟩ := bind_ok h1
  cases h1
  exact ⟨rfl, rfl, rfl⟩

theorem advanceWith_spec (s : NSState K) (o : FlowSolvers K) (hv : HasMatrix o.v kv "velocity" ops.A) (hp : HasMatrix o.p kp "poisson" ops.DBNG) :
    (∀ e, advance L G P ops (solverOf be kv "velocity") (solverOf be kp "poisson") s = .error e → advanceWith be L G P ops s o = .error e) ∧
    ∀ s', advance L G P ops (solverOf be kv "velocity") (solverOf be kp "poisson") s = .ok s' → ∃ o' rv rp,
      advanceWith be L G P ops s o = .ok (s', o') ∧ HasMatrix o'.v kv "velocity" ops.A ∧ HasMatrix o'.p kp "poisson" ops.DBNG ∧
      FlowSolves be kv kp L G P ops s s' rv rp ∧ o'.v.numbers = .ok (rv.iters, rv.res) ∧ o'.p.numbers = .ok (rp.iters, rp.res) := by
  unfold advance advanceWith
  simp only [bind, Except.bind]
  cases h1 : assembleRHSVelocity L G P ops { s with t := s.t + P.dt, ite := s.ite + 1 } with
  | error e =>
    simp only []
    exact ⟨fun e' h => (by cases h; rfl), fun s' h => (by cases h)⟩
  | ok w =>
    obtain ⟨rhs, s₁⟩ := w
    obtain ⟨u1, u2, _⟩ := assemble_U h1
    simp only at u1 u2 ⊢
    obtain ⟨a1, a2⟩ := solve_spec be hv s₁.U rhs
    cases h2 : solverOf be kv "velocity" ops.A s₁.U rhs with
    | error e =>
      rw [a1 e h2]
      exact ⟨fun e' h => (by cases h; rfl), fun s' h => (by cases h)⟩
    | ok U =>
      obtain ⟨rv, v', b1, b2, b3, b4, b5⟩ := a2 U h2
      rw [b3]
      simp only []
      subst b2
      obtain ⟨c1, c2⟩ := solve_spec be hp s₁.dP (assembleRHSPoisson L ops { s₁ with U := vec L.UN rv.x })
      cases h3 : solverOf be kp "poisson" ops.DBNG s₁.dP (assembleRHSPoisson L ops { s₁ with U := vec L.UN rv.x }) with
      | error e =>
        rw [c1 e h3]
        exact ⟨fun e' h => (by cases h; rfl), fun s' h => (by cases h)⟩
      | ok dP =>
        obtain ⟨rp, p', d1, d2, d3, d4, d5⟩ := c2 dP h3
        rw [d3]
        simp only []
        subst d2
        refine ⟨fun e h => (by cases h), fun s' h => ?_⟩
        cases h
        exact ⟨_, rv, rp, rfl, b4, d4, ⟨rhs, s₁, h1, by rw [u1] at b1; exact b1, by rw [u2] at d1; exact d1, rfl⟩, b5, d5⟩

theorem decoupledAdvanceWith_spec (UB : Option (ℤ → K)) (s : IBState K) (o : BodySolvers K) (hv : HasMatrix o.v kv "velocity" ops.A)
    (hf : HasMatrix o.f kf "forces" ib.EBNH) (hp : HasMatrix o.p kp "poisson" ops.DBNG) :
    (∀ e, decoupledAdvance L G P ops ib UB (solverOf be kv "velocity") (solverOf be kf "forces") (solverOf be kp "poisson") s = .error e →
      decoupledAdvanceWith be L G P ops ib UB s o = .error e) ∧
    ∀ s', decoupledAdvance L G P ops ib UB (solverOf be kv "velocity") (solverOf be kf "forces") (solverOf be kp "poisson") s = .ok s' → ∃ o' rv rf rp,
      decoupledAdvanceWith be L G P ops ib UB s o = .ok (s', o') ∧ HasMatrix o'.v kv "velocity" ops.A ∧ HasMatrix o'.f kf "forces" ib.EBNH ∧
      HasMatrix o'.p kp "poisson" ops.DBNG ∧ BodySolves be kv kf kp L G P ops ib UB s s' rv rf rp ∧
      o'.v.numbers = .ok (rv.iters, rv.res) ∧ o'.f.numbers = .ok (rf.iters, rf.res) ∧ o'.p.numbers = .ok (rp.iters, rp.res) := by
  unfold decoupledAdvance decoupledAdvanceWith
  simp only [bind, Except.bind]
  cases h1 : assembleRHSVelocity L G P ops { s.ns with t := s.ns.t + P.dt, ite := s.ns.ite + 1 } with
  | error e =>
    simp only []
    exact ⟨fun e' h => (by cases h; rfl), fun s' h => (by cases h)⟩
  | ok w =>
    obtain ⟨rhs, s₁⟩ := w
    obtain ⟨u1, u2, _⟩ := assemble_U h1
    simp only at u1 u2 ⊢
    obtain ⟨a1, a2⟩ := solve_spec be hv s₁.U (fun i => rhs i + vec L.UN (Mat.mult ib.nF ib.H s.f) i)
    cases h2 : solverOf be kv "velocity" ops.A s₁.U (fun i => rhs i + vec L.UN (Mat.mult ib.nF ib.H s.f) i) with
    | error e =>
      rw [a1 e h2]
      exact ⟨fun e' h => (by cases h; rfl), fun s' h => (by cases h)⟩
    | ok U =>
      obtain ⟨rv, v', b1, b2, b3, b4, b5⟩ := a2 U h2
      rw [b3]
      simp only []
      subst b2
      obtain ⟨e1, e2⟩ := solve_spec be hf s.df (assembleRHSForces L ib UB (vec L.UN rv.x))
      cases h4 : solverOf be kf "forces" ib.EBNH s.df (assembleRHSForces L ib UB (vec L.UN rv.x)) with
      | error e =>
        rw [e1 e h4]
        exact ⟨fun e' h => (by cases h; rfl), fun s' h => (by cases h)⟩
      | ok df =>
        obtain ⟨rf, f', f1, f2, f3, f4, f5⟩ := e2 df h4
        rw [f3]
        simp only []
        subst f2
        obtain ⟨c1, c2⟩ := solve_spec be hp s₁.dP
          (assembleRHSPoisson L ops { s₁ with U := fun i => vec L.UN rv.x i + vec L.UN (Mat.mult ib.nF ib.BNH (vec ib.nF rf.x)) i })
        cases h3 : solverOf be kp "poisson" ops.DBNG s₁.dP
            (assembleRHSPoisson L ops { s₁ with U := fun i => vec L.UN rv.x i + vec L.UN (Mat.mult ib.nF ib.BNH (vec ib.nF rf.x)) i }) with
        | error e =>
          rw [c1 e h3]
          exact ⟨fun e' h => (by cases h; rfl), fun s' h => (by cases h)⟩
        | ok dP =>
          obtain ⟨rp, p', d1, d2, d3, d4, d5⟩ := c2 dP h3
          rw [d3]
          simp only []
          subst d2
          refine ⟨fun e h => (by cases h), fun s' h => ?_⟩
          cases h
          exact ⟨_, rv, rf, rp, rfl, b4, f4, d4, ⟨rhs, s₁, h1, by rw [u1] at b1; exact b1, f1, rfl, by rw [u2] at d1; exact d1, rfl⟩, b5, f5, d5⟩

theorem line_two (fmt : K → List Char) (ite : ℤ) (a b : SolveOutcome K) :
    iterationsLine fmt ite [(a.iters, a.res), (b.iters, b.res)] = reportLine fmt ite [a, b] := by
  simp [iterationsLine, reportLine, List.intercalate, List.intersperse]

theorem line_three (fmt : K → List Char) (ite : ℤ) (a b c : SolveOutcome K) :
    iterationsLine fmt ite [(a.iters, a.res), (b.iters, b.res), (c.iters, c.res)] = reportLine fmt ite [a, b, c] := by
  simp [iterationsLine, reportLine, List.intercalate, List.intersperse]

/-! ### Loops -/

section

variable {S O D : Type} {ns : S → NSState K} {adv : S → Except Error S} {write : S → D → Except Error D}

/-- the loop without objects -/
def plainLoop (P : NSParams K) (ns : S → NSState K) (adv : S → Except Error S) (write : S → D → Except Error D) : ℕ → S → D → Option (Except Error (S × D))
  | fuel, s, d =>
    if finished P (ns s) then some (.ok (s, d))
    else match fuel with
      | 0 => none
      | fuel + 1 =>
        match adv s with
        | .error e => some (.error e)
        | .ok s =>
          match write s d with
          | .error e => some (.error e)
          | .ok d => plainLoop P ns adv write fuel s d

theorem main_plain (vSolve pSolve : LinSolve K) : ∀ (fuel : ℕ) (s : NSState K) (d : Disk K),
    mainLoop L G P ops vSolve pSolve fuel s d = plainLoop P id (advance L G P ops vSolve pSolve) (writeStep L P) fuel s d := by
  intro fuel
  induction fuel with
  | zero =>
    intro s d
    unfold mainLoop plainLoop
    rfl
  | succ fuel ih =>
    intro s d
    unfold mainLoop plainLoop
    simp only [id]
    split_ifs with hf
    · rfl
    · cases advance L G P ops vSolve pSolve s with
      | error e => rfl
      | ok s₁ =>
        simp only []
        cases writeStep L P s₁ d with
        | error e => rfl
        | ok d₁ => exact ih s₁ d₁

theorem body_plain {fmt : K → List Char} {w : S → Disk K → Except Error (Disk K × (K × List (List K)))} : ∀ (fuel : ℕ) (s : S) (d : Disk K) (t : TextDisk),
    bodyLoop P fmt ns adv w fuel s d t = (plainLoop P ns adv (fun s (d : Disk K × TextDisk) => (w s d.1).map fun (disk, t, avg) =>
      (disk, printForces P.output P.nstart (forcesLine fmt t avg) d.2)) fuel s (d, t)) := by
  intro fuel
  induction fuel with
  | zero =>
    intro s d t
    unfold bodyLoop plainLoop
    rfl
  | succ fuel ih =>
    intro s d t
    unfold bodyLoop plainLoop
    split_ifs with hf
    · rfl
    · cases adv s with
      | error e => rfl
      | ok s₁ =>
        simp only []
        cases w s₁ d with
        | error e => rfl
        | ok d₁ =>
          obtain ⟨d₁, t₁, avg⟩ := d₁
          exact ih s₁ d₁ _

theorem report_spec {advW : S → O → Except Error (S × O)} {info : S → O → Except Error (List Char)} {Ready : O → Prop} {Good : S → S → List Char → Prop}
    (hite : ∀ s s', adv s = .ok s' → (ns s').ite = (ns s).ite + 1)
    (hstep : ∀ s o, Ready o → (∀ e, adv s = .error e → advW s o = .error e) ∧
      ∀ s', adv s = .ok s' → ∃ o' line, advW s o = .ok (s', o') ∧ info s' o' = .ok line ∧ Ready o' ∧ Good s s' line) :
    ∀ (fuel : ℕ) (s : S) (o : O) (d : D) (lines : List (List Char)), Ready o →
      (plainLoop P ns adv write fuel s d = none → reportLoop P ns advW info write fuel s o d lines = none) ∧
      (∀ e, plainLoop P ns adv write fuel s d = some (.error e) → reportLoop P ns advW info write fuel s o d lines = some (.error e)) ∧
      ∀ s' d', plainLoop P ns adv write fuel s d = some (.ok (s', d')) → ∃ (o' : O) (new : List (List Char)) (x : ℕ → S),
        reportLoop P ns advW info write fuel s o d lines = some (.ok (s', o', d', lines ++ new)) ∧ new.length = (P.nstart + P.nt - (ns s).ite).toNat ∧
        x 0 = s ∧ x new.length = s' ∧ ∀ k, k < new.length → adv (x k) = .ok (x (k + 1)) ∧ ∃ l, new[k]? = some l ∧ Good (x k) (x (k + 1)) l := by
  intro fuel
  induction fuel with
  | zero =>
    intro s o d lines _
    unfold plainLoop reportLoop
    by_cases hf : finished P (ns s) = true
    · simp only [if_pos hf]
      refine ⟨fun h => (by cases h), fun e h => (by cases h), fun s' d' h => ?_⟩
      cases h
      have hn : P.nstart + P.nt - (ns s).ite ≤ 0 := by
        unfold finished at hf
        simp at hf
        omega
      exact ⟨o, [], fun _ => s, by simp, by simp [Int.toNat_of_nonpos hn], rfl, rfl, fun k hk => absurd hk (by simp)⟩
    · simp only [if_neg hf]
      exact ⟨fun _ => trivial, fun e h => (by cases h), fun s' d' h => (by cases h)⟩
  | succ fuel ih =>
    intro s o d lines ho
    unfold plainLoop reportLoop
    by_cases hf : finished P (ns s) = true
    · simp only [if_pos hf]
      refine ⟨fun h => (by cases h), fun e h => (by cases h), fun s' d' h => ?_⟩
      cases h
      have hn : P.nstart + P.nt - (ns s).ite ≤ 0 := by
        unfold finished at hf
        simp at hf
        omega
      exact ⟨o, [], fun _ => s, by simp, by simp [Int.toNat_of_nonpos hn], rfl, rfl, fun k hk => absurd hk (by simp)⟩
    · simp only [if_neg hf]
      obtain ⟨g1, g2⟩ := hstep s o ho
      cases ha : adv s with
      | error e =>
        rw [g1 e ha]
        exact ⟨fun h => (by cases h), fun e h => (by cases h; rfl), fun s' d' h => (by cases h)⟩
      | ok s₁ =>
        obtain ⟨o₁, line, k1, k2, k3, k4⟩ := g2 s₁ ha
        simp only [k1, k2]
        cases hw : write s₁ d with
        | error e => exact ⟨fun h => (by cases h), fun e h => (by cases h; rfl), fun s' d' h => (by cases h)⟩
        | ok d₁ =>
          simp only []
          obtain ⟨i1, i2, i3⟩ := ih s₁ o₁ d₁ (lines ++ [line]) k3
          refine ⟨i1, i2, fun s' d' h => ?_⟩
          obtain ⟨o', new, x, j1, j2, j3, j4, j5⟩ := i3 s' d' h
          have hi := hite s s₁ ha
          have hn : ¬ (P.nstart + P.nt - (ns s).ite ≤ 0) := by
            unfold finished at hf
            simp at hf
            omega
          refine ⟨o', line :: new, fun k => if k = 0 then s else x (k - 1), by rw [j1]; simp, ?_, rfl, ?_, ?_⟩
          · rw [List.length_cons, j2, hi]
            omega
          · simpa using j4
          · intro k hk
            cases k with
            | zero =>
              simp only [if_true, Nat.zero_add, one_ne_zero, if_false, Nat.sub_self, j3]
              exact ⟨ha, line, rfl, k4⟩
            | succ k =>
              simpa using j5 k (by simpa using hk)

end

end PetIBM
