/-
Restarted solvers with immersed bodies.
-/
import Verif.Props.Restart
import Verif.Props.IbpmRun

set_option linter.unusedSectionVars false

namespace PetIBM

open Spec

variable {K : Type} [Field K] [LinearOrder K] [IsStrictOrderedRing K]
variable {debug : Bool} {L : Layout} {G : Geom K} {axes : ℕ → Axis K} {T : BCTable K} {B : ℕ → Boundary K}
variable {P : NSParams K} {ops : NSOps K} {ib : IBOps K}

/-- equivalent states have equivalent steps -/
theorem same_steps {S : Type} {adv : S → Except Error S} {E : S → S → Prop}
    (hE : ∀ s s', E s s' → (∀ s₁, adv s = .ok s₁ → ∃ s₁', adv s' = .ok s₁' ∧ E s₁ s₁') ∧ ∀ e, adv s = .error e → adv s' = .error e)
    {x : ℕ → S} {k n : ℕ} (hk : k ≤ n) (hx : ∀ j, j < n → adv (x j) = .ok (x (j + 1))) {s' : S} (h : E (x k) s') :
    ∃ y : ℕ → S, y 0 = s' ∧ (∀ j, j < n - k → adv (y j) = .ok (y (j + 1))) ∧ (∀ j, k + j ≤ n → E (x (k + j)) (y j)) ∧
      ∀ e, adv (x n) = .error e → adv (y (n - k)) = .error e := by
  have key : ∀ m, k + m ≤ n → ∃ y : ℕ → S, y 0 = s' ∧ (∀ j, j < m → adv (y j) = .ok (y (j + 1))) ∧ ∀ j, j ≤ m → E (x (k + j)) (y j) := by
    intro m
    induction m with
    | zero =>
      intro _
      refine ⟨fun _ => s', rfl, fun j hj => absurd hj (by omega), ?_⟩
      intro j hj
      have : j = 0 := by omega
      subst this
      exact h
    | succ m ih =>
      intro hm
      obtain ⟨y, y0, hy, hEy⟩ := ih (by omega)
      obtain ⟨z, hz, Ez⟩ := (hE _ _ (hEy m le_rfl)).1 _ (hx (k + m) (by omega))
      refine ⟨fun j => if j ≤ m then y j else z, by simp [y0], ?_, ?_⟩
      · intro j hj
        simp only [if_pos (show j ≤ m by omega)]
        by_cases hjm : j + 1 ≤ m
        · rw [if_pos hjm]; exact hy j (by omega)
        · have : j = m := by omega
          subst this
          rw [if_neg hjm]
          exact hz
      · intro j hj
        by_cases hjm : j ≤ m
        · simp only [if_pos hjm]; exact hEy j hjm
        · have : j = m + 1 := by omega
          subst this
          simp only [if_neg hjm]
          exact Ez
  obtain ⟨y, y0, hy, hEy⟩ := key (n - k) (by omega)
  refine ⟨y, y0, hy, fun j hj => hEy j (by omega), ?_⟩
  intro e he
  have hlast := hEy (n - k) le_rfl
  rw [show k + (n - k) = n by omega] at hlast
  exact (hE _ _ hlast).2 e he

/-! ### The decoupled solver -/

theorem decoupled_eq (C : Constructed debug L G axes T B) (hc : P.conv.explicitCoeffs.length = P.conv.nExplicit)
    (hd : P.diff.explicitCoeffs.length = P.diff.nExplicit) {UB : Option (ℤ → K)}
    {vSolve fSolve pSolve : LinSolve K} {u : ℤ → K} {s : IBState K} (R : Reach L B P ops.pN u s.ns) :
    ∃ w, convectionMult L G s.ns.B (fun _ _ _ => 0) s.ns.U (fun _ => 0) = .ok w ∧
      decoupledAdvance L G P ops ib UB vSolve fSolve pSolve s =
        (vSolve ops.A s.ns.U (fun i => momentumRhs L P ops s.ns (pushTerm s.ns.conv fun i => -1 * w i)
          (pushTerm s.ns.diff (diffTerm L P.nu ops s.ns)) i + vec L.UN (Mat.mult ib.nF ib.H s.f) i)).bind fun Us =>
        (fSolve ib.EBNH s.df (assembleRHSForces L ib UB (vec L.UN Us))).bind fun df =>
        (advance L G P ops (fun _ _ _ => .ok fun i => vec L.UN Us i + vec L.UN (Mat.mult ib.nF ib.BNH (vec ib.nF df)) i) pSolve s.ns).map fun ns =>
          { ns := ns, f := fun i => s.f i + 1 * vec ib.nF df i, df := vec ib.nF df } := by
  have R' : Reach L B P ops.pN u { s.ns with t := s.ns.t + P.dt, ite := s.ns.ite + 1 } :=
    ⟨R.hist, R.clean, R.nconv, R.ndiff, R.outU, R.outP, R.outConv, R.outDiff⟩
  obtain ⟨w, loc, hw, e⟩ := assembleRHS_eq C hc hd ops R'
  refine ⟨w, hw, ?_⟩
  unfold decoupledAdvance
  simp only [e, bind, Except.bind, pure, Except.pure]
  cases hv : vSolve ops.A s.ns.U (fun i => momentumRhs L P ops s.ns (pushTerm s.ns.conv fun i => -1 * w i)
        (pushTerm s.ns.diff (diffTerm L P.nu ops s.ns)) i + vec L.UN (Mat.mult ib.nF ib.H s.f) i) with
  | error x =>
    have hv' : vSolve ops.A s.ns.U (fun i => momentumRhs L P ops { s.ns with t := s.ns.t + P.dt, ite := s.ns.ite + 1 } (pushTerm s.ns.conv fun i => -1 * w i)
        (pushTerm s.ns.diff (diffTerm L P.nu ops { s.ns with t := s.ns.t + P.dt, ite := s.ns.ite + 1 })) i + vec L.UN (Mat.mult ib.nF ib.H s.f) i) = _ := hv
    rw [hv']
  | ok Us =>
    have hv' : vSolve ops.A s.ns.U (fun i => momentumRhs L P ops { s.ns with t := s.ns.t + P.dt, ite := s.ns.ite + 1 } (pushTerm s.ns.conv fun i => -1 * w i)
        (pushTerm s.ns.diff (diffTerm L P.nu ops { s.ns with t := s.ns.t + P.dt, ite := s.ns.ite + 1 })) i + vec L.UN (Mat.mult ib.nF ib.H s.f) i) = _ := hv
    rw [hv']
    simp only
    cases hf : fSolve ib.EBNH s.df (assembleRHSForces L ib UB (vec L.UN Us)) with
    | error x => rfl
    | ok df =>
      simp only
      unfold advance
      simp only [e, bind, Except.bind, pure, Except.pure, vec_add]
      generalize pSolve _ _ _ = z
      cases z <;> rfl

theorem decoupled_same (C : Constructed debug L G axes T B) (hc : P.conv.explicitCoeffs.length = P.conv.nExplicit)
    (hd : P.diff.explicitCoeffs.length = P.diff.nExplicit) {UB : Option (ℤ → K)}
    {vSolve fSolve pSolve : LinSolve K} (hgf : IgnoresGuess fSolve) (hg : IgnoresGuess pSolve) {u u' : ℤ → K} {s s' : IBState K}
    (R : Reach L B P ops.pN u s.ns) (R' : Reach L B P ops.pN u' s'.ns) (E : SameFlow L s.ns s'.ns) (Ef : s.f = s'.f) :
    (∀ s₁, decoupledAdvance L G P ops ib UB vSolve fSolve pSolve s = .ok s₁ →
      ∃ s₁', decoupledAdvance L G P ops ib UB vSolve fSolve pSolve s' = .ok s₁' ∧ SameFlow L s₁.ns s₁'.ns ∧ s₁.f = s₁'.f) ∧
      ∀ e, decoupledAdvance L G P ops ib UB vSolve fSolve pSolve s = .error e →
        decoupledAdvance L G P ops ib UB vSolve fSolve pSolve s' = .error e := by
  obtain ⟨w, hw, h⟩ := decoupled_eq (ib := ib) (UB := UB) (vSolve := vSolve) (fSolve := fSolve) (pSolve := pSolve) C hc hd R
  obtain ⟨w', hw', h'⟩ := decoupled_eq (ib := ib) (UB := UB) (vSolve := vSolve) (fSolve := fSolve) (pSolve := pSolve) C hc hd R'
  have A := fun V => advance_same C hc hd ops V pSolve hg R R' E
  rw [h, h', ← Ef]
  simp only [hgf _ s'.df s.df]
  obtain ⟨⟨U, p, dP, conv, diff, b, l, t, ite⟩, f, df⟩ := s
  obtain ⟨⟨U', p', dP', conv', diff', b', l', t', ite'⟩, f', df'⟩ := s'
  obtain ⟨e1, e2, e3, e4, e5, e6, e7⟩ := E
  simp only at e1 e2 e3 e4 e5 e6 e7 hw hw' A ⊢
  subst e1 e2 e3 e4 e5 e6
  have hww : w' = w := by
    rw [convectionMult_congr e7, hw'] at hw
    exact Except.ok.inj hw
  subst hww
  have ht : diffTerm L P.nu ops ⟨U, p, dP', conv, diff, b', l', t, ite⟩ = diffTerm L P.nu ops ⟨U, p, dP, conv, diff, b, l, t, ite⟩ := by
    unfold diffTerm
    simp only [correctionMult_congr e7]
  have hup : ∀ r, r < L.mpiSize → (b r).updateEqs U P.dt = (b' r).updateEqs U P.dt := fun r hr => by rw [e7 r hr]
  have hm : ∀ a c, momentumRhs L P ops ⟨U, p, dP', conv, diff, b', l', t, ite⟩ a c = momentumRhs L P ops ⟨U, p, dP, conv, diff, b, l, t, ite⟩ a c := by
    intro a c
    unfold momentumRhs
    simp only [correctionMult_congr hup]
  rw [ht]
  simp only [hm]
  cases hv : vSolve ops.A U (fun i => momentumRhs L P ops ⟨U, p, dP, conv, diff, b, l, t, ite⟩ (pushTerm conv fun i => -1 * w' i)
      (pushTerm diff (diffTerm L P.nu ops ⟨U, p, dP, conv, diff, b, l, t, ite⟩)) i + vec L.UN (Mat.mult ib.nF ib.H f) i) with
  | error e => exact ⟨fun _ h => (by cases h), fun _ h => (by cases h; rfl)⟩
  | ok Us =>
    simp only [Except.bind]
    cases hf : fSolve ib.EBNH df (assembleRHSForces L ib UB (vec L.UN Us)) with
    | error e => exact ⟨fun _ h => (by cases h), fun _ h => (by cases h; rfl)⟩
    | ok g =>
      simp only
      obtain ⟨a1, a2⟩ := A (fun _ _ _ => .ok fun i => vec L.UN Us i + vec L.UN (Mat.mult ib.nF ib.BNH (vec ib.nF g)) i)
      cases ha : advance L G P ops (fun _ _ _ => .ok fun i => vec L.UN Us i + vec L.UN (Mat.mult ib.nF ib.BNH (vec ib.nF g)) i) pSolve
          ⟨U, p, dP, conv, diff, b, l, t, ite⟩ with
      | error e =>
        rw [a2 e ha]
        exact ⟨fun _ h => (by cases h), fun _ h => (by cases h; rfl)⟩
      | ok z =>
        obtain ⟨z', hz', Ez⟩ := a1 z ha
        rw [hz']
        refine ⟨?_, fun _ h => (by cases h)⟩
        intro s₁ h1
        cases h1
        exact ⟨_, rfl, Ez, rfl⟩

theorem forceIn_read {nF : ℕ} {file : H5File K} {disk : Disk K} {path : String} (hd : disk path = some file) {f : ℤ → K}
    (h : ForceIn nF file f) : readHDF5Vecs disk path "/" ["force"] [nF] = .ok [packedList nF f] := by
  obtain ⟨v, h1, h2, h3⟩ := h
  have hv : v = packedList nF f := by
    apply List.ext_getElem?
    intro m
    by_cases hm : m < nF
    · rw [h3 m hm]; simp [packedList, hm]
    · rw [List.getElem?_eq_none (by omega), List.getElem?_eq_none (by simp [packedList]; omega)]
  unfold readHDF5Vecs
  rw [hd]
  have : file.get "/force" nF = .ok v := by
    unfold H5File.get
    rw [h1]
    simp [h2]
  simp only [List.zip_cons_cons, List.zip_nil_left, List.mapM_cons, List.mapM_nil, show "/" ++ "force" = "/force" from rfl, this, ← hv]
  rfl

theorem packedVec_list {nF : ℕ} {f : ℤ → K} (h : ∀ i : ℤ, ¬ (0 ≤ i ∧ i < nF) → f i = 0) : packedVec (packedList nF f) = f := by
  funext i
  unfold packedVec
  split_ifs with h0
  · obtain ⟨m, rfl⟩ := Int.eq_ofNat_of_zero_le h0
    by_cases hm : m < nF
    · simp [packedList, hm]
    · rw [h _ (by omega)]
      simp only [packedList, Int.toNat_natCast]
      rw [List.getD_eq_getElem?_getD, List.getElem?_eq_none (by simp; omega)]
      rfl
  · exact (h i (by omega)).symm

/-- forces are zero outside their range -/
theorem Spec.IBStarted.outF {flow : Option (FlowNode K)} {bodies : BodyPack K} {kernel : DeltaKernel K} {window : ℕ} {disk disk' : Disk K} {s : IBState K}
    (S : IBStarted debug L G axes T B P flow bodies kernel window ops ib disk s disk')
    {vSolve fSolve pSolve : LinSolve K} {x : ℕ → IBState K} {n : ℕ} (h0 : x 0 = s)
    (hx : IBTrajectory L G P ops ib vSolve fSolve pSolve x n) : ∀ k, k ≤ n → ∀ i : ℤ, ¬ (0 ≤ i ∧ i < ib.nF) → (x k).f i = 0 := by
  intro k
  induction k with
  | zero =>
    intro _ i hi
    rw [h0]
    obtain ⟨s₀, h1, h2⟩ := S.init
    obtain ⟨⟨ops', ns⟩, h3, h1⟩ := bind_ok h1
    obtain ⟨idx, h4, h1⟩ := bind_ok h1
    obtain ⟨ib', h5, h1⟩ := bind_ok h1
    cases h1
    unfold decoupledIoInitialData at h2
    split_ifs at h2
    · obtain ⟨d, h6, h2⟩ := bind_ok h2
      cases h2
      rfl
    · obtain ⟨s', h6, h2⟩ := bind_ok h2
      cases h2
      obtain ⟨ns', h7, h6⟩ := bind_ok h6
      obtain ⟨f, h8, h6⟩ := bind_ok h6
      have hl := readHDF5_lengths (by simp) h8
      split at h6
      · rename_i v
        cases h6
        have := hl.2 v (by simp)
        simp only [List.mem_singleton] at this
        show packedVec v i = 0
        unfold packedVec
        split_ifs
        · rw [List.getD_eq_getElem?_getD, List.getElem?_eq_none (by omega)]
          rfl
        · rfl
      · cases h6
  | succ k ih =>
    intro hk i hi
    obtain ⟨u, _, R⟩ := S.reach_at h0 hx
    obtain ⟨_, _, df, _, _, _, _, e, _⟩ := decoupled_ok S.constructed S.started.schemes.1.1 S.started.schemes.2.1 (R k (by omega)) (hx k (by omega))
    rw [e]
    simp only [ih (by omega) i hi, vec, if_neg hi]
    ring

/-! ### The coupled solver -/

theorem coupled_eq (C : Constructed debug L G axes T B) (hc : P.conv.explicitCoeffs.length = P.conv.nExplicit)
    (hd : P.diff.explicitCoeffs.length = P.diff.nExplicit) {counts : List (ℕ × ℕ)}
    {vSolve pSolve : LinSolve K} {u : ℤ → K} {s : NSState K} (R : Reach L B P ops.pN u s) :
    ∃ w, convectionMult L G s.B (fun _ _ _ => 0) s.U (fun _ => 0) = .ok w ∧
      ibpmAdvance L G P counts ops vSolve pSolve s =
        (vSolve ops.A s.U (momentumRhs L P ops s (pushTerm s.conv fun i => -1 * w i) (pushTerm s.diff (diffTerm L P.nu ops s)))).bind fun U =>
        (pSolve ops.DBNG s.dP (ibpmRHSPoisson L counts ops { s with U := vec L.UN U, B := fun r => (s.B r).updateEqs s.U P.dt })).bind fun dP =>
        advance L G P ops (fun _ _ _ => .ok U) (fun _ _ _ => .ok dP) s := by
  have R' : Reach L B P ops.pN u { s with t := s.t + P.dt, ite := s.ite + 1 } :=
    ⟨R.hist, R.clean, R.nconv, R.ndiff, R.outU, R.outP, R.outConv, R.outDiff⟩
  obtain ⟨w, loc, hw, e⟩ := assembleRHS_eq C hc hd ops R'
  refine ⟨w, hw, ?_⟩
  unfold ibpmAdvance advance
  simp only [e, bind, Except.bind, pure, Except.pure]
  cases hv : vSolve ops.A s.U (momentumRhs L P ops s (pushTerm s.conv fun i => -1 * w i) (pushTerm s.diff (diffTerm L P.nu ops s))) with
  | error x =>
    have hv' : vSolve ops.A s.U (momentumRhs L P ops { s with t := s.t + P.dt, ite := s.ite + 1 } (pushTerm s.conv fun i => -1 * w i)
      (pushTerm s.diff (diffTerm L P.nu ops { s with t := s.t + P.dt, ite := s.ite + 1 }))) = _ := hv
    rw [hv']
  | ok Us =>
    have hv' : vSolve ops.A s.U (momentumRhs L P ops { s with t := s.t + P.dt, ite := s.ite + 1 } (pushTerm s.conv fun i => -1 * w i)
      (pushTerm s.diff (diffTerm L P.nu ops { s with t := s.t + P.dt, ite := s.ite + 1 }))) = _ := hv
    rw [hv']
    simp only
    rfl

theorem coupled_same (C : Constructed debug L G axes T B) (hc : P.conv.explicitCoeffs.length = P.conv.nExplicit)
    (hd : P.diff.explicitCoeffs.length = P.diff.nExplicit) {counts : List (ℕ × ℕ)}
    {vSolve pSolve : LinSolve K} (hg : IgnoresGuess pSolve) {u u' : ℤ → K} {s s' : NSState K}
    (R : Reach L B P ops.pN u s) (R' : Reach L B P ops.pN u' s') (E : SameFlow L s s') :
    (∀ s₁, ibpmAdvance L G P counts ops vSolve pSolve s = .ok s₁ →
      ∃ s₁', ibpmAdvance L G P counts ops vSolve pSolve s' = .ok s₁' ∧ SameFlow L s₁ s₁') ∧
      ∀ e, ibpmAdvance L G P counts ops vSolve pSolve s = .error e → ibpmAdvance L G P counts ops vSolve pSolve s' = .error e := by
  obtain ⟨w, hw, h⟩ := coupled_eq (counts := counts) (vSolve := vSolve) (pSolve := pSolve) C hc hd R
  obtain ⟨w', hw', h'⟩ := coupled_eq (counts := counts) (vSolve := vSolve) (pSolve := pSolve) C hc hd R'
  have A := fun V Q => advance_same C hc hd ops (fun _ _ _ => .ok V) (fun _ _ _ => .ok Q) (fun _ _ _ _ => rfl) R R' E
  rw [h, h']
  obtain ⟨U, p, dP, conv, diff, b, l, t, ite⟩ := s
  obtain ⟨U', p', dP', conv', diff', b', l', t', ite'⟩ := s'
  obtain ⟨e1, e2, e3, e4, e5, e6, e7⟩ := E
  simp only at e1 e2 e3 e4 e5 e6 e7 hw hw' A ⊢
  subst e1 e2 e3 e4 e5 e6
  have hww : w' = w := by
    rw [convectionMult_congr e7, hw'] at hw
    exact Except.ok.inj hw
  subst hww
  have ht : diffTerm L P.nu ops ⟨U, p, dP', conv, diff, b', l', t, ite⟩ = diffTerm L P.nu ops ⟨U, p, dP, conv, diff, b, l, t, ite⟩ := by
    unfold diffTerm
    simp only [correctionMult_congr e7]
  have hup : ∀ r, r < L.mpiSize → (b r).updateEqs U P.dt = (b' r).updateEqs U P.dt := fun r hr => by rw [e7 r hr]
  have hm : ∀ a c, momentumRhs L P ops ⟨U, p, dP', conv, diff, b', l', t, ite⟩ a c = momentumRhs L P ops ⟨U, p, dP, conv, diff, b, l, t, ite⟩ a c := by
    intro a c
    unfold momentumRhs
    simp only [correctionMult_congr hup]
  have hq : ∀ V, ibpmRHSPoisson L counts ops ⟨V, p, dP', conv, diff, fun r => (b' r).updateEqs U P.dt, l', t, ite⟩ =
      ibpmRHSPoisson L counts ops ⟨V, p, dP, conv, diff, fun r => (b r).updateEqs U P.dt, l, t, ite⟩ := by
    intro V
    unfold ibpmRHSPoisson
    simp only [correctionMult_congr hup]
  rw [ht]
  simp only [hm, hq, hg _ dP' dP]
  cases hv : vSolve ops.A U (momentumRhs L P ops ⟨U, p, dP, conv, diff, b, l, t, ite⟩ (pushTerm conv fun i => -1 * w' i)
      (pushTerm diff (diffTerm L P.nu ops ⟨U, p, dP, conv, diff, b, l, t, ite⟩))) with
  | error e => exact ⟨fun _ h => (by cases h), fun _ h => (by cases h; rfl)⟩
  | ok V =>
    simp only [Except.bind]
    cases hp : pSolve ops.DBNG dP (ibpmRHSPoisson L counts ops ⟨vec L.UN V, p, dP, conv, diff, fun r => (b r).updateEqs U P.dt, l, t, ite⟩) with
    | error e => exact ⟨fun _ h => (by cases h), fun _ h => (by cases h; rfl)⟩
    | ok Q => exact A V Q

theorem nestPos_outside (counts : List (ℕ × ℕ)) : (∀ a, (counts.map (·.1)).sum ≤ a → nestPos counts (.inl a) = (counts.map (·.1)).sum + (counts.map (·.2)).sum) ∧
    ∀ b, (counts.map (·.2)).sum ≤ b → nestPos counts (.inr b) = (counts.map (·.1)).sum + (counts.map (·.2)).sum := by
  induction counts with
  | nil => exact ⟨fun _ _ => rfl, fun _ _ => rfl⟩
  | cons x l ih =>
    obtain ⟨p, f⟩ := x
    constructor
    · intro a ha
      simp only [List.map_cons, List.sum_cons, nestPos] at ha ⊢
      rw [if_neg (by omega), ih.1 _ (by omega)]
      omega
    · intro b hb
      simp only [List.map_cons, List.sum_cons, nestPos] at hb ⊢
      rw [if_neg (by omega), ih.2 _ (by omega)]
      omega

/-- a composite vector is determined by its parts -/
theorem nestVec_sub (counts : List (ℕ × ℕ)) {x : ℤ → K} (h : ∀ i : ℤ, ¬ (0 ≤ i ∧ i < ((counts.map (·.1)).sum + (counts.map (·.2)).sum : ℕ)) → x i = 0) :
    nestVec counts (subPressure counts x) (subForces counts x) = x := by
  funext i
  by_cases hi : 0 ≤ i ∧ i < ((counts.map (·.1)).sum + (counts.map (·.2)).sum : ℕ)
  · obtain ⟨m, rfl⟩ := Int.eq_ofNat_of_zero_le hi.1
    rcases nestPos_split counts 0 0 m (by omega) with ⟨a, ha, h1, h2⟩ | ⟨b, hb, h1, h2⟩
    · conv_lhs => rw [← h2]
      rw [nestVec_pressure _ _ ha]
      simp [subPressure, h2]
    · conv_lhs => rw [← h2]
      rw [nestVec_force _ _ hb]
      simp [subForces, h2]
  · rw [h i hi]
    apply nestVec_outside
    exact_mod_cast hi

theorem subPressure_outside (counts : List (ℕ × ℕ)) {x : ℤ → K} (h : ∀ i : ℤ, ¬ (0 ≤ i ∧ i < ((counts.map (·.1)).sum + (counts.map (·.2)).sum : ℕ)) → x i = 0)
    (a : ℤ) (ha : ¬ (0 ≤ a ∧ a < (counts.map (·.1)).sum)) : subPressure counts x a = 0 := by
  unfold subPressure
  split_ifs with h0
  · apply h
    rw [(nestPos_outside counts).1 _ (by omega)]
    omega
  · rfl

theorem subForces_outside (counts : List (ℕ × ℕ)) {x : ℤ → K} (h : ∀ i : ℤ, ¬ (0 ≤ i ∧ i < ((counts.map (·.1)).sum + (counts.map (·.2)).sum : ℕ)) → x i = 0)
    (a : ℤ) (ha : ¬ (0 ≤ a ∧ a < (counts.map (·.2)).sum)) : subForces counts x a = 0 := by
  unfold subForces
  split_ifs with h0
  · apply h
    rw [(nestPos_outside counts).2 _ (by omega)]
    omega
  · rfl

end PetIBM
