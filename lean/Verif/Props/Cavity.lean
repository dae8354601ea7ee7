/-
Property C76: the lid-driven cavity example.
-/
import Verif.Model.Cavity
import Verif.Props.Ibpm
import Verif.Props.Solution

set_option linter.unusedSectionVars false

namespace PetIBM

open Spec

theorem forUpTo_steps {S : Type} (f : S → Except Error S) (n : ℕ) : ∀ (iter stop : ℤ) (s : S), (stop + 1 - iter).toNat = n → forUpTo f iter stop s = steps f n s := by
  induction n with
  | zero =>
    intro iter stop s h
    rw [forUpTo, if_neg (by omega)]
    rfl
  | succ n ih =>
    intro iter stop s h
    rw [forUpTo, if_pos (by omega)]
    unfold steps
    cases hf : f s with
    | error e => rfl
    | ok t => exact ih (iter + 1) stop t (by omega)

variable {K : Type} [Field K] [LinearOrder K] [IsStrictOrderedRing K]
variable {debug : Bool} {L : Layout} {G : Geom K} {axes : ℕ → Axis K} {T : BCTable K} {B : ℕ → Boundary K}

/-- The parameters of the Navier-Stokes solver that correspond to the example. -/
def cavityParams (dt nu : K) (P : NSParams K) : NSParams K :=
  { P with dt := dt, nu := nu, BN := 1, conv := eulerExplicit, diff := eulerImplicit, pType := .ksp }

/-- corresponding states -/
structure CavitySame (L : Layout) (B : ℕ → Boundary K) (c : CavityState K) (s : NSState K) : Prop where
  U : c.U = s.U
  p : c.p = s.p
  dP : c.dP = s.dP
  bnd : c.B = s.B
  clean : Clean L B c.loc
  out : ∀ i : ℤ, ¬ (0 ≤ i ∧ i < L.UN) → c.work i = 0

/-- corresponding operators -/
structure CavityOpsSame (L : Layout) (dt nu : K) (O : CavityOps K) (ops : NSOps K) : Prop where
  pN : ops.pN = L.pN
  D : O.D = ops.D
  Dbc : O.Dbc = ops.Dmods
  G : O.G = ops.G
  Lbc : O.Lbc = ops.Lmods
  A : O.A = ops.A
  BNG : O.BNG = ops.BNG
  DBNG : O.DBNG = ops.DBNG
  pin : ops.isRefP = false

theorem vec_add_apply (N : ℕ) (x y : ℤ → K) (i : ℤ) : vec N x i + vec N y i = vec N (fun i => x i + y i) i := by
  unfold vec
  split_ifs <;> simp

theorem cavityStep_same (C : Constructed debug L G axes T B) {dt nu : K} {P : NSParams K} {ops : NSOps K} {O : CavityOps K}
    (hO : CavityOpsSame L dt nu O ops) {u : ℤ → K} {s : NSState K} (R : Reach L B (cavityParams dt nu P) ops.pN u s) {c : CavityState K}
    (hc : CavitySame L B c s) (vSolve pSolve : LinSolve K) :
    match advance L G (cavityParams dt nu P) ops vSolve pSolve s with
    | .error e => cavityStep L G dt nu O vSolve pSolve c = .error e
    | .ok s' => ∃ c', cavityStep L G dt nu O vSolve pSolve c = .ok c' ∧ CavitySame L B c' s' := by
  obtain ⟨w, hw, h0, loc, h2, e⟩ := advance_eq C rfl rfl ops vSolve pSolve R
  obtain ⟨h, hB, -⟩ := R.hist
  generalize [Boundary.Op.setGhostICs u] ++ h = h at hB
  obtain ⟨z, w', hz, hw', hin, hout⟩ := convection_det C h hc.clean s.U c.work
  rw [← hB] at hz hw'
  rw [hw] at hw'
  cases hw'
  have hzw : z = w := by
    funext i
    by_cases hi : 0 ≤ i ∧ i < L.UN
    · exact hin i hi
    · rw [(hout i hi).1, hc.out i hi, h0 i hi]
  subst hzw
  have hconv : ∃ a, s.conv = [a] := by
    have := R.nconv
    exact List.length_eq_one_iff.1 this
  have hdiff : s.diff = [] := List.length_eq_zero_iff.1 R.ndiff
  obtain ⟨a, ha⟩ := hconv
  have hrhs : (fun i => (1 / dt * c.U i + -1 * (vec L.UN (Mat.mult L.pN O.G c.p) i + z i)) + 1 * nu * vec L.UN (correctionMult L (fun r => (c.B r).updateEqs c.U dt) O.Lbc) i) =
      momentumRhs L (cavityParams dt nu P) ops s (pushTerm s.conv fun i => -1 * z i) (pushTerm s.diff (diffTerm L (cavityParams dt nu P).nu ops s)) := by
    funext i
    rw [ha, hdiff]
    simp only [momentumRhs, pushTerm, termSum, cavityParams, eulerExplicit, eulerImplicit, hc.U, hc.p, hc.bnd, hO.G, hO.Lbc, hO.pN, vec]
    split_ifs
    · simp; ring
    · simp
  have hrhs2 : ∀ V : ℤ → K, (fun i => vec L.pN (Mat.mult L.UN O.D V) i + vec L.pN (correctionMult L (fun r => (c.B r).updateEqs c.U dt) O.Dbc) i) =
      poissonRhs L ops (fun r => (s.B r).updateEqs s.U (cavityParams dt nu P).dt) V := by
    intro V
    funext i
    rw [vec_add_apply]
    simp only [poissonRhs, hO.pin, hc.U, hc.bnd, hO.D, hO.Dbc, hO.pN, cavityParams]
    rfl
  have hstep : cavityStep L G dt nu O vSolve pSolve c =
      (vSolve ops.A s.U (momentumRhs L (cavityParams dt nu P) ops s (pushTerm s.conv fun i => -1 * z i)
        (pushTerm s.diff (diffTerm L (cavityParams dt nu P).nu ops s)))).bind fun U =>
      (pSolve ops.DBNG s.dP (poissonRhs L ops (fun r => (s.B r).updateEqs s.U (cavityParams dt nu P).dt) (vec L.UN U))).bind fun dP =>
      .ok { U := projected L ops U (vec ops.pN dP), p := fun i => s.p i + 1 * vec ops.pN dP i, dP := vec ops.pN dP,
            B := fun r => ((s.B r).updateEqs s.U dt).updateGhostValues (projected L ops U (vec ops.pN dP)),
            loc := fun r f => convectionLocal L c.B c.U c.loc r f, work := z } := by
    unfold cavityStep
    rw [hc.U, hc.p, hc.bnd] at hrhs
    simp only [hc.U, hc.bnd] at hrhs2
    rw [← hrhs]
    simp only [← hO.pN] at hrhs2
    simp only [hc.U, hc.p, hc.dP, hc.bnd, hz, hrhs2, hO.A, hO.DBNG, hO.BNG, bind, pure, Except.pure, ← hO.pN]
    rfl
  rw [e, hstep]
  cases hv : vSolve ops.A s.U (momentumRhs L (cavityParams dt nu P) ops s (pushTerm s.conv fun i => -1 * z i)
        (pushTerm s.diff (diffTerm L (cavityParams dt nu P).nu ops s))) with
  | error x => rfl
  | ok U =>
    simp only [Except.bind]
    cases hp : pSolve ops.DBNG s.dP (poissonRhs L ops (fun r => (s.B r).updateEqs s.U (cavityParams dt nu P).dt) (vec L.UN U)) with
    | error x => rfl
    | ok dP =>
      refine ⟨_, rfl, rfl, rfl, rfl, rfl, ?_, h0⟩
      show Clean L B fun r f => convectionLocal L c.B c.U c.loc r f
      rw [hc.bnd, hB]
      exact hc.clean.step h c.U

theorem cavitySteps_same (C : Constructed debug L G axes T B) {dt nu : K} {P : NSParams K} {ops : NSOps K} {O : CavityOps K}
    (hO : CavityOpsSame L dt nu O ops) {u : ℤ → K} (vSolve pSolve : LinSolve K) (n : ℕ) :
    ∀ {s : NSState K} (_ : Reach L B (cavityParams dt nu P) ops.pN u s) {c : CavityState K} (_ : CavitySame L B c s),
      match steps (advance L G (cavityParams dt nu P) ops vSolve pSolve) n s with
      | .error e => steps (cavityStep L G dt nu O vSolve pSolve) n c = .error e
      | .ok s' => ∃ c', steps (cavityStep L G dt nu O vSolve pSolve) n c = .ok c' ∧ CavitySame L B c' s' := by
  induction n with
  | zero => intro s R c hc; exact ⟨c, rfl, hc⟩
  | succ n ih =>
    intro s R c hc
    have h := cavityStep_same C hO R hc vSolve pSolve
    unfold steps
    cases ha : advance L G (cavityParams dt nu P) ops vSolve pSolve s with
    | error e =>
      rw [ha] at h
      simp only at h ⊢
      rw [h]
    | ok s' =>
      rw [ha] at h
      obtain ⟨c', h1, h2⟩ := h
      rw [h1]
      exact ih (R.step C rfl rfl ha) h2

/-- C76 (part). The example performs the steps of the Navier-Stokes solver with the explicit Euler scheme for the convection, the implicit one for the
diffusion, the first-order approximation of the inverse and the same step size and viscosity, from the same initial state, with the same errors; its
file has the velocity and pressure after the last step, and it writes the grid. The number of steps is one more than the example intends. -/
theorem C76_steps_partial (C : Constructed debug L G axes T B) (start stop : ℤ) (dt nu : K) (flow : Option (FlowNode K)) (vSolve pSolve : LinSolve K)
    (P : NSParams K) (outdir : String) (disk : Disk K) :
    cavityMain debug L G start stop dt nu flow B vSolve pSolve outdir disk =
      ((solverInit debug L G (cavityParams dt nu P) flow B).bind fun q =>
        (steps (advance L G (cavityParams dt nu P) q.1 vSolve pSolve) (stop + 1 - start).toNat q.2).bind fun s =>
          solutionWrite L s.U s.p (gridWrite L G disk (outdir ++ "/grid.h5")) (outdir ++ "/0002000.h5")) := by
  unfold cavityMain
  cases h1 : setInitialConditions L G flow (fun _ => 0) fun _ => 0 with
  | error e => simp only [solverInit, h1, bind, Except.bind]
  | ok Up =>
    obtain ⟨U, p⟩ := Up
    have hops : (∃ e, cavityOperators debug L G dt nu (fun r => (B r).setGhostICs U) = .error e ∧
        createOperators debug L G (cavityParams dt nu P) (fun r => (B r).setGhostICs U) = .error e) ∨
        ∃ O ops, cavityOperators debug L G dt nu (fun r => (B r).setGhostICs U) = .ok O ∧
          createOperators debug L G (cavityParams dt nu P) (fun r => (B r).setGhostICs U) = .ok ops ∧ CavityOpsSame L dt nu O ops := by
      have e1 : (cavityParams dt nu P).diff.implicitCoeff * (cavityParams dt nu P).nu = nu := by simp [cavityParams, eulerImplicit]
      have e2 : -(cavityParams dt nu P).diff.implicitCoeff * (cavityParams dt nu P).nu = -nu := by simp [cavityParams, eulerImplicit]
      unfold cavityOperators createOperators
      simp only [e1, e2]
      have e3 : (cavityParams dt nu P).dt = dt := rfl
      have e4 : (cavityParams dt nu P).BN = 1 := rfl
      have e5 : (cavityParams dt nu P).pType = .ksp := rfl
      simp only [e3, e4, e5]
      cases createDivergence debug L G false fun r => (B r).setGhostICs U with
      | error e => exact Or.inl ⟨e, rfl, rfl⟩
      | ok D =>
        cases createGradient debug L G false with
        | error e => exact Or.inl ⟨e, rfl, rfl⟩
        | ok Gr =>
          cases createLaplacian debug L G fun r => (B r).setGhostICs U with
          | error e => exact Or.inl ⟨e, rfl, rfl⟩
          | ok La =>
            cases hb : createBnHead L.UN La.1 dt nu 1 with
            | error e =>
              refine Or.inl ⟨e, ?_, ?_⟩
              · simp only [bind, Except.bind, hb]
              · simp only [bind, Except.bind, hb]
            | ok BN =>
              refine Or.inr ⟨⟨D.1, D.2, Gr, La.2, Mat.shift (Mat.scale La.1 (-nu)) (1 / dt), Mat.mul L.UN BN Gr, Mat.mul L.UN D.1 (Mat.mul L.UN BN Gr)⟩,
                ⟨L.pN, D.1, D.2, Gr, La.1, La.2, Mat.shift (Mat.scale La.1 (-nu)) (1 / dt), Mat.mul L.UN BN Gr, Mat.mul L.UN D.1 (Mat.mul L.UN BN Gr),
                  false⟩, ?_, ?_, ⟨rfl, rfl, rfl, rfl, rfl, rfl, rfl, rfl, rfl⟩⟩
              · simp only [bind, Except.bind, hb, pure, Except.pure]
              · simp only [bind, Except.bind, hb, pure, Except.pure]
                rfl
    rcases hops with ⟨e, ha, hb⟩ | ⟨O, ops, ha, hb, hO⟩
    · simp only [solverInit, h1, ha, hb, bind, Except.bind]
    · have hinit : solverInit debug L G (cavityParams dt nu P) flow B = .ok (ops, ⟨U, p, fun _ => 0, List.replicate (cavityParams dt nu P).conv.nExplicit fun _ => 0,
          List.replicate (cavityParams dt nu P).diff.nExplicit fun _ => 0, fun r => (B r).setGhostICs U, fun _ _ _ => 0, P.t, P.nstart⟩) := by
        simp only [solverInit, h1, hb, bind, Except.bind]
        rfl
      obtain ⟨u, _, R⟩ := Reach.init C.setup.layout hinit
      have hc : CavitySame L B { U := U, p := p, dP := fun _ => 0, B := fun r => (B r).setGhostICs U, loc := fun _ _ _ => 0, work := fun _ => 0 }
          ⟨U, p, fun _ => 0, List.replicate (cavityParams dt nu P).conv.nExplicit fun _ => 0,
          List.replicate (cavityParams dt nu P).diff.nExplicit fun _ => 0, fun r => (B r).setGhostICs U, fun _ _ _ => 0, P.t, P.nstart⟩ :=
        ⟨rfl, rfl, rfl, rfl, Clean.zero L B, fun _ _ => rfl⟩
      have h := cavitySteps_same C hO vSolve pSolve (stop + 1 - start).toNat R hc
      rw [hinit]
      simp only [ha, bind, Except.bind]
      rw [forUpTo_steps _ _ start stop _ rfl]
      revert h
      cases steps (advance L G (cavityParams dt nu P) ops vSolve pSolve) (stop + 1 - start).toNat _ with
      | error e => intro h; simp only at h ⊢; rw [h]
      | ok s' =>
        rintro ⟨c', h2, h3⟩
        simp only [h2, h3.U, h3.p]

/-- The number of steps for the constants of the example. -/
example : ((2000 : ℤ) + 1 - 0).toNat = 2001 := rfl

/-- The x-velocity in a file of the example. -/
def cavityU (disk : Disk ℚ) : Option (List ℚ) := (disk "out/0002000.h5").bind fun f => f.data "/u"

/-- What the Navier-Stokes solver computes in `n` steps, in the file of the example. -/
def cavityReference (n : ℕ) : Except Error (Disk ℚ) :=
  (solverInit true twoByTwo tailGeom (cavityParams (1 / 4) 1 tailParams) (some (pushedFlow none)) throughB).bind fun q =>
    (steps (advance twoByTwo tailGeom (cavityParams (1 / 4) 1 tailParams) q.1 (gaussSolve 4) (gaussSolve 4)) n q.2).bind fun s =>
      solutionWrite twoByTwo s.U s.p (gridWrite twoByTwo tailGeom (fun _ => none) ("out" ++ "/grid.h5")) ("out" ++ "/0002000.h5")

/-- C76 is false: the loop includes its last value, so that with `start = 0` and `end = 1` the example performs two steps and not one; the file has
not the velocity after one step. With the constants of the example the file `0002000.h5` has the fields after 2001 steps. -/
theorem C76_false_steps : ∃ disk' disk'' : Disk ℚ,
    cavityMain true twoByTwo tailGeom 0 1 (1 / 4) 1 (some (pushedFlow none)) throughB (gaussSolve 4) (gaussSolve 4) "out" (fun _ => none) = .ok disk' ∧
    cavityReference 1 = .ok disk'' ∧ cavityU disk' = some [7084 / 7921, 16679 / 15842] ∧ cavityU disk'' = some [92 / 89, 175 / 178] := by
  obtain ⟨disk', h1⟩ := pick (x := cavityReference 2) (by decide +kernel)
  obtain ⟨disk'', h2⟩ := pick (x := cavityReference 1) (by decide +kernel)
  refine ⟨disk', disk'', ?_, h2, ?_, ?_⟩
  · rw [C76_steps_partial through_constructed 0 1 (1 / 4) 1 _ _ _ tailParams]
    exact h1
  · have : (cavityReference 2).toOption.bind cavityU = some [7084 / 7921, 16679 / 15842] := by decide +kernel
    rw [h1] at this
    exact this
  · have : (cavityReference 1).toOption.bind cavityU = some [92 / 89, 175 / 178] := by decide +kernel
    rw [h2] at this
    exact this

end PetIBM
