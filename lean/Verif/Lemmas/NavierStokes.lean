/-
One step of the Navier-Stokes solver.
-/
import Verif.Model.NavierStokes
import Verif.Lemmas.Solution
import Verif.Lemmas.ExtendedRow
import Verif.Lemmas.ConvectionRun

set_option linter.unusedSectionVars false

namespace PetIBM

open Spec

section

variable {K : Type} [Field K]

/-! ### Lists of stored terms -/

theorem swapLoop_aux (l : List (ℤ → K)) (x : ℤ → K) (r : List (ℤ → K)) :
    swapLoop (l ++ x :: r) l.length = .ok (x :: (l ++ r)) := by
  induction l using List.reverseRecOn generalizing r with
  | nil => rfl
  | append_singleton l y ih =>
    rw [List.length_append, List.length_singleton]
    show (vecSwap (l ++ [y] ++ x :: r) (l.length + 1) l.length >>= fun m => swapLoop m l.length) = _
    have e : vecSwap (l ++ [y] ++ x :: r) (l.length + 1) l.length = .ok (l ++ x :: (y :: r)) := by
      unfold vecSwap
      simp
    rw [e]
    show swapLoop (l ++ x :: (y :: r)) l.length = _
    rw [ih]
    simp

/-- the oldest term comes to the front, the others move back -/
theorem swapLoop_eq (l : List (ℤ → K)) (x : ℤ → K) : swapLoop (l ++ [x]) ((l ++ [x]).length - 1) = .ok (x :: l) := by
  have := swapLoop_aux l x []
  simpa using this

theorem addTerms_eq (coeffs : List K) (terms : List (ℤ → K)) (h : terms.length ≤ coeffs.length) (rhs : ℤ → K) :
    addTerms coeffs terms rhs = .ok fun n => rhs n + ((coeffs.zip terms).map fun ct => ct.1 * ct.2 n).sum := by
  unfold addTerms
  have key : ∀ m, m ≤ terms.length → (List.range m).foldlM (fun rhs i =>
      match coeffs[i]?, terms[i]? with
      | some c, some x => Except.ok (ε := Error) fun n => rhs n + c * x n
      | _, _ => .error .ub) rhs = .ok fun n => rhs n + (((coeffs.zip terms).take m).map fun ct => ct.1 * ct.2 n).sum := by
    intro m
    induction m with
    | zero => intro _; simp; rfl
    | succ m ih =>
      intro hm
      rw [List.range_succ, List.foldlM_append, ih (by omega)]
      have h1 : coeffs[m]? = some (coeffs[m]'(by omega)) := List.getElem?_eq_getElem _
      have h2 : terms[m]? = some (terms[m]'(by omega)) := List.getElem?_eq_getElem _
      simp only [List.foldlM_cons, List.foldlM_nil, bind, Except.bind, pure, Except.pure]
      rw [h1, h2]
      simp only
      congr 1
      funext n
      have hz : (coeffs.zip terms)[m]? = some (coeffs[m]'(by omega), terms[m]'(by omega)) := by
        rw [List.getElem?_eq_getElem (by rw [List.length_zip]; omega), List.getElem_zip]
      rw [List.take_add_one, hz]
      simp [add_assoc]
  refine Eq.trans (key terms.length le_rfl) ?_
  congr 1
  funext n
  rw [List.take_of_length_le (by rw [List.length_zip]; omega)]

/-! ### Work vectors of the convection operator -/

theorem vecAssign_congr {y y' : ℤ → K} (ws : List (ℤ × K)) {l : ℤ} (h : y l = y' l) : vecAssign y ws l = vecAssign y' ws l := by
  induction ws generalizing y y' with
  | nil => exact h
  | cons w ws ih =>
    show vecAssign (Function.update y w.1 w.2) ws l = vecAssign (Function.update y' w.1 w.2) ws l
    apply ih
    by_cases e : l = w.1
    · subst e; simp
    · rw [Function.update_of_ne e, Function.update_of_ne e, h]

theorem vecAssign_mem_indep {y y' : ℤ → K} {ws : List (ℤ × K)} {l : ℤ} (h : l ∈ ws.map (·.1)) : vecAssign y ws l = vecAssign y' ws l := by
  induction ws generalizing y y' with
  | nil => simp at h
  | cons w ws ih =>
    show vecAssign (Function.update y w.1 w.2) ws l = vecAssign (Function.update y' w.1 w.2) ws l
    by_cases e : l = w.1
    · apply vecAssign_congr
      subst e; simp
    · apply ih
      rw [List.map_cons, List.mem_cons] at h
      exact h.resolve_left e

theorem copyList_keys (l : List (SingleBoundary K)) (h : List (Boundary.Op K)) :
    (copyList (l.map fun b => b.mapPoints (b.pointRun h))).map (·.1) = (copyList l).map (·.1) := by
  unfold copyList
  rw [List.flatMap_map, List.map_flatMap, List.map_flatMap]
  congr 1
  funext b
  simp only [SingleBoundary.mapPoints, List.map_map, List.filter_map, Function.comp_def]
  have hl : ∀ p, (b.pointRun h p).lclId = p.lclId := fun p => (b.pointRun_static h p).2.2.2.1
  simp only [hl]

/-- A slot of the local vectors is either rewritten in every application, or never. -/
theorem loc_slot (L : Layout) (B : ℕ → Boundary K) (r f : ℕ) (l : ℤ) :
    (∀ h q v v', convectionLocal L (fun r => (B r).run h) q v r f l = convectionLocal L (fun r => (B r).run h) q v' r f l) ∨
    (∀ h q v, convectionLocal L (fun r => (B r).run h) q v r f l = v r f l) := by
  have scatter : (∀ (q : ℤ → K) (v v' : ℕ → ℕ → ℤ → K), scatterLocal L f r q (v r f) l = scatterLocal L f r q (v' r f) l) ∨
      (∀ (q : ℤ → K) (v : ℕ → ℕ → ℤ → K), scatterLocal L f r q (v r f) l = v r f l) := by
    unfold scatterLocal
    simp only
    split_ifs
    · cases L.getPackedGlobalIndex false f (wrapPeriodic L f (localSlot L f r l)) with
      | ok x => exact Or.inl fun _ _ _ => rfl
      | error e => exact Or.inr fun _ _ => rfl
    · exact Or.inr fun _ _ => rfl
  cases hB : (B r)[f]? with
  | none =>
    have e : ∀ h q v, convectionLocal L (fun r => (B r).run h) q v r f l = scatterLocal L f r q (v r f) l := by
      intro h q v
      unfold convectionLocal Boundary.copyValues2LocalVecs
      have : ((B r).run h)[f]? = none := by rw [Boundary.run_eq, List.getElem?_map, hB]; rfl
      rw [this]
    simp only [e]
    rcases scatter with h | h
    · exact Or.inl fun _ q v v' => h q v v'
    · exact Or.inr fun _ q v => h q v
  | some bs =>
    have e : ∀ h q v, convectionLocal L (fun r => (B r).run h) q v r f l =
        vecAssign (scatterLocal L f r q (v r f)) (copyList (bs.map fun b => b.mapPoints (b.pointRun h))) l := by
      intro h q v
      have : ((B r).run h)[f]? = some (bs.map fun b => b.mapPoints (b.pointRun h)) := by
        rw [Boundary.run_eq, List.getElem?_map, hB]; rfl
      unfold convectionLocal
      rw [copyValues_eq this]
    simp only [e]
    by_cases hk : l ∈ (copyList bs).map (·.1)
    · left
      intro h q v v'
      apply vecAssign_mem_indep
      rw [copyList_keys]
      exact hk
    · have hn : ∀ h, ∀ w ∈ copyList (bs.map fun b => b.mapPoints (b.pointRun h)), w.1 ≠ l := by
        intro h w hw he
        apply hk
        rw [← copyList_keys bs h, ← he]
        exact List.mem_map_of_mem hw
      rcases scatter with hs | hs
      · left
        intro h q v v'
        exact vecAssign_congr _ (hs q v v')
      · right
        intro h q v
        rw [vecAssign_of_not_mem (hn h)]
        exact hs q v

/-- work vectors that do not influence the operator -/
def Clean (L : Layout) (B : ℕ → Boundary K) (loc : ℕ → ℕ → ℤ → K) : Prop :=
  ∀ h q r f l, convectionLocal L (fun r => (B r).run h) q loc r f l = convectionLocal L (fun r => (B r).run h) q (fun _ _ _ => 0) r f l

theorem Clean.zero (L : Layout) (B : ℕ → Boundary K) : Clean L B fun _ _ _ => 0 := fun _ _ _ _ _ => rfl

theorem Clean.step {L : Layout} {B : ℕ → Boundary K} {loc : ℕ → ℕ → ℤ → K} (hc : Clean L B loc) (h : List (Boundary.Op K)) (q : ℤ → K) :
    Clean L B fun r f => convectionLocal L (fun r => (B r).run h) q loc r f := by
  intro h' q' r f l
  rcases loc_slot L B r f l with e | e
  · exact e h' q' _ _
  · rw [← hc h' q' r f l, e h' q', e h q, e h' q']

end

section

variable {K : Type} [Field K] [LinearOrder K] [IsStrictOrderedRing K]
variable {debug : Bool} {L : Layout} {G : Geom K} {axes : ℕ → Axis K} {T : BCTable K} {B : ℕ → Boundary K}

/-- The convection operator: entries in range do not depend on the previous content, the others are kept. -/
theorem convection_det (C : Constructed debug L G axes T B) (h : List (Boundary.Op K)) {loc : ℕ → ℕ → ℤ → K} (hc : Clean L B loc)
    (q y : ℤ → K) :
    ∃ z w, convectionMult L G (fun r => (B r).run h) loc q y = .ok z ∧
      convectionMult L G (fun r => (B r).run h) (fun _ _ _ => 0) q (fun _ => 0) = .ok w ∧
      (∀ i : ℤ, 0 ≤ i ∧ i < L.UN → z i = w i) ∧ (∀ i : ℤ, ¬ (0 ≤ i ∧ i < L.UN) → z i = y i ∧ w i = 0) := by
  have hL := C.setup.layout
  have out : ∀ (v : ℕ → ℕ → ℤ → K) (y z : ℤ → K), convectionMult L G (fun r => (B r).run h) v q y = .ok z →
      ∀ i : ℤ, ¬ (0 ≤ i ∧ i < L.UN) → z i = y i := by
    intro v y z hz i hi
    obtain ⟨ws, h1, h2⟩ := convectionAssign_spec (B := fun r => (B r).run h) C.setup C.part q v
    unfold convectionMult at hz
    rw [h1] at hz
    cases hz
    apply vecAssign_of_not_mem
    intro w hw he
    obtain ⟨u, hu, e, _⟩ := (h2 w).1 hw
    have := col_range hL hu
    omega
  obtain ⟨z, hz, kz⟩ := convectionMult_spec (B := fun r => (B r).run h) C.setup C.part q y loc
  obtain ⟨w, hw, kw⟩ := convectionMult_spec (B := fun r => (B r).run h) C.setup C.part q (fun _ => 0) (fun _ _ _ => 0)
  refine ⟨z, w, hz, hw, ?_, fun i hi => ⟨out _ _ _ hz i hi, out _ _ _ hw i hi⟩⟩
  intro i hi
  obtain ⟨u, hu, rfl⟩ := col_surj hL hi.1 hi.2
  have a := kz u hu
  have b := kw u hu
  have e : (fun g => readLocal L g u.rank (convectionLocal L (fun r => (B r).run h) q loc u.rank g)) =
      fun g => readLocal L g u.rank (convectionLocal L (fun r => (B r).run h) q (fun _ _ _ => 0) u.rank g) := by
    funext g
    have : convectionLocal L (fun r => (B r).run h) q loc u.rank g =
        convectionLocal L (fun r => (B r).run h) q (fun _ _ _ => 0) u.rank g := funext fun l => hc h q u.rank g l
    rw [this]
  rw [e, b] at a
  exact (Except.ok.inj a).symm

/-! ### One step -/

/-- the list of stored terms after the newest one has been computed -/
def pushTerm (l : List (ℤ → K)) (x : ℤ → K) : List (ℤ → K) :=
  match l with
  | [] => []
  | _ :: _ => x :: l.dropLast

theorem length_pushTerm (l : List (ℤ → K)) (x : ℤ → K) : (pushTerm l x).length = l.length := by
  cases l <;> simp [pushTerm]

/-- diffusive term of a state -/
def diffTerm (L : Layout) (nu : K) (ops : NSOps K) (s : NSState K) : ℤ → K :=
  vec L.UN fun i => nu * (Mat.mult L.UN ops.L s.U i + correctionMult L s.B ops.Lmods i)

def termSum (coeffs : List K) (terms : List (ℤ → K)) (n : ℤ) : K := ((coeffs.zip terms).map fun ct => ct.1 * ct.2 n).sum

/-- right-hand side of the velocity system -/
def momentumRhs (L : Layout) (P : NSParams K) (ops : NSOps K) (s : NSState K) (conv diff : List (ℤ → K)) : ℤ → K := fun i =>
  vec L.UN (fun i => -1 * Mat.mult ops.pN ops.G s.p i) i + 1 / P.dt * s.U i + termSum P.conv.explicitCoeffs conv i +
    termSum P.diff.explicitCoeffs diff i +
    P.diff.implicitCoeff * vec L.UN (fun i => P.nu * correctionMult L (fun r => (s.B r).updateEqs s.U P.dt) ops.Lmods i) i

/-- right-hand side of the Poisson system -/
def poissonRhs (L : Layout) (ops : NSOps K) (B : ℕ → Boundary K) (U : ℤ → K) : ℤ → K :=
  let rhs2 := vec ops.pN fun i => Mat.mult L.UN ops.D U i + correctionMult L B ops.Dmods i
  if ops.isRefP then Function.update rhs2 0 0 else rhs2

/-- velocity after the projection -/
def projected (L : Layout) (ops : NSOps K) (U dP : ℤ → K) : ℤ → K := fun i => vec L.UN U i + -1 * vec L.UN (Mat.mult ops.pN ops.BNG dP) i

/-- what the steps keep -/
structure Reach (L : Layout) (B : ℕ → Boundary K) (P : NSParams K) (N : ℕ) (u : ℤ → K) (s : NSState K) : Prop where
  hist : ∃ h, s.B = (fun r => (B r).run ([.setGhostICs u] ++ h)) ∧ JustRefreshed ([.setGhostICs u] ++ h) s.U
  clean : Clean L B s.loc
  nconv : s.conv.length = P.conv.nExplicit
  ndiff : s.diff.length = P.diff.nExplicit
  outU : ∀ i : ℤ, ¬ (0 ≤ i ∧ i < L.UN) → s.U i = 0
  outP : ∀ i : ℤ, ¬ (0 ≤ i ∧ i < N) → s.p i = 0
  outConv : ∀ x ∈ s.conv, ∀ i : ℤ, ¬ (0 ≤ i ∧ i < L.UN) → x i = 0
  outDiff : ∀ x ∈ s.diff, ∀ i : ℤ, ¬ (0 ≤ i ∧ i < L.UN) → x i = 0

theorem swapLoop_last {l : List (ℤ → K)} (h : l ≠ []) : swapLoop l (l.length - 1) = .ok (l.getLast h :: l.dropLast) := by
  have := swapLoop_eq l.dropLast (l.getLast h)
  rwa [List.dropLast_append_getLast h] at this

theorem updateConv_eq (C : Constructed debug L G axes T B) {P : NSParams K} {N : ℕ} {u : ℤ → K} {s : NSState K} (R : Reach L B P N u s) :
    ∃ w, convectionMult L G s.B (fun _ _ _ => 0) s.U (fun _ => 0) = .ok w ∧
      (∀ i : ℤ, ¬ (0 ≤ i ∧ i < L.UN) → w i = 0) ∧
      ∃ loc, updateConv L G s = .ok (pushTerm s.conv (fun i => -1 * w i), loc) ∧ Clean L B loc := by
  obtain ⟨h, hB, -⟩ := R.hist
  generalize [Boundary.Op.setGhostICs u] ++ h = h at hB
  rcases hs : s.conv with _ | ⟨c, rest⟩
  · obtain ⟨_, w, _, hw, _, k⟩ := convection_det C h (Clean.zero L B) s.U (fun _ => 0)
    rw [hB]
    exact ⟨w, hw, fun i hi => (k i hi).2, s.loc, by unfold updateConv; rw [hs]; rfl, R.clean⟩
  · have hne : s.conv ≠ [] := by rw [hs]; simp
    obtain ⟨z, w, hz, hw, k1, k2⟩ := convection_det C h R.clean s.U (s.conv.getLast hne)
    have e : z = w := by
      funext i
      by_cases hi : 0 ≤ i ∧ i < (L.UN : ℤ)
      · exact k1 i hi
      · rw [(k2 i hi).1, (k2 i hi).2]
        exact R.outConv _ (List.getLast_mem hne) i hi
    rw [← hB] at hz hw
    refine ⟨w, hw, fun i hi => (k2 i hi).2, _, ?_, (hB ▸ R.clean.step h s.U : Clean L B fun r f => convectionLocal L s.B s.U s.loc r f)⟩
    unfold updateConv
    rw [swapLoop_last hne]
    show (convectionMult L G s.B s.loc s.U (s.conv.getLast hne) >>= _) = _
    rw [hz, e, ← hs]
    have : pushTerm s.conv (fun i => -1 * w i) = (fun i => -1 * w i) :: s.conv.dropLast := by
      rw [hs]; rfl
    rw [this]
    rfl

theorem updateDiff_eq (L : Layout) (nu : K) (ops : NSOps K) (s : NSState K) :
    updateDiff L nu ops s = .ok (pushTerm s.diff (diffTerm L nu ops s)) := by
  rcases hs : s.diff with _ | ⟨c, rest⟩
  · unfold updateDiff; rw [hs]; rfl
  · have hne : s.diff ≠ [] := by rw [hs]; simp
    unfold updateDiff
    rw [swapLoop_last hne, ← hs]
    have : pushTerm s.diff (diffTerm L nu ops s) = diffTerm L nu ops s :: s.diff.dropLast := by
      rw [hs]; rfl
    rw [this]
    rfl

/-- A step as an equation: it fails only if one of the linear solvers fails. -/
theorem advance_eq (C : Constructed debug L G axes T B) {P : NSParams K} (hc : P.conv.explicitCoeffs.length = P.conv.nExplicit)
    (hd : P.diff.explicitCoeffs.length = P.diff.nExplicit) (ops : NSOps K) (vSolve pSolve : LinSolve K) {N : ℕ} {u : ℤ → K} {s : NSState K} (R : Reach L B P N u s) :
    ∃ w, convectionMult L G s.B (fun _ _ _ => 0) s.U (fun _ => 0) = .ok w ∧
      (∀ i : ℤ, ¬ (0 ≤ i ∧ i < L.UN) → w i = 0) ∧
      ∃ loc, Clean L B loc ∧ advance L G P ops vSolve pSolve s =
        (vSolve ops.A s.U (momentumRhs L P ops s (pushTerm s.conv fun i => -1 * w i) (pushTerm s.diff (diffTerm L P.nu ops s)))).bind fun U =>
        (pSolve ops.DBNG s.dP (poissonRhs L ops (fun r => (s.B r).updateEqs s.U P.dt) (vec L.UN U))).bind fun dP =>
        .ok { U := projected L ops U (vec ops.pN dP), p := fun i => s.p i + 1 * vec ops.pN dP i, dP := vec ops.pN dP,
              conv := pushTerm s.conv fun i => -1 * w i, diff := pushTerm s.diff (diffTerm L P.nu ops s),
              B := fun r => ((s.B r).updateEqs s.U P.dt).updateGhostValues (projected L ops U (vec ops.pN dP)),
              loc := loc, t := s.t + P.dt, ite := s.ite + 1 } := by
  obtain ⟨w, hw, h0, loc, h1, h2⟩ := updateConv_eq C R
  refine ⟨w, hw, h0, loc, h2, ?_⟩
  have e1 : ∀ t i, updateConv L G { s with t := t, ite := i } = .ok (pushTerm s.conv (fun i => -1 * w i), loc) := fun _ _ => h1
  have e2 : ∀ t i, updateDiff L P.nu ops { s with t := t, ite := i } = .ok (pushTerm s.diff (diffTerm L P.nu ops s)) := fun t i =>
    updateDiff_eq L P.nu ops { s with t := t, ite := i }
  have a1 := addTerms_eq P.conv.explicitCoeffs (pushTerm s.conv fun i => -1 * w i) (by rw [length_pushTerm, R.nconv, hc])
  have a2 := addTerms_eq P.diff.explicitCoeffs (pushTerm s.diff (diffTerm L P.nu ops s)) (by rw [length_pushTerm, R.ndiff, hd])
  unfold advance assembleRHSVelocity
  simp only [e1, e2, a1, a2, bind, Except.bind, pure, Except.pure]
  rfl

theorem Reach.step (C : Constructed debug L G axes T B) {P : NSParams K} (hc : P.conv.explicitCoeffs.length = P.conv.nExplicit)
    (hd : P.diff.explicitCoeffs.length = P.diff.nExplicit) {ops : NSOps K} {vSolve pSolve : LinSolve K} {u : ℤ → K} {s s' : NSState K} (R : Reach L B P ops.pN u s)
    (h : advance L G P ops vSolve pSolve s = .ok s') : Reach L B P ops.pN u s' := by
  obtain ⟨w, hw, h0, loc, h2, e⟩ := advance_eq C hc hd ops vSolve pSolve R
  rw [h] at e
  cases hv : vSolve ops.A s.U (momentumRhs L P ops s (pushTerm s.conv fun i => -1 * w i) (pushTerm s.diff (diffTerm L P.nu ops s))) with
  | error x => rw [hv] at e; cases e
  | ok U =>
    rw [hv] at e
    simp only [Except.bind] at e
    cases hp' : pSolve ops.DBNG s.dP (poissonRhs L ops (fun r => (s.B r).updateEqs s.U P.dt) (vec L.UN U)) with
    | error x => rw [hp'] at e; cases e
    | ok dP =>
      rw [hp'] at e
      simp only [Except.ok.injEq] at e
      obtain ⟨hh, hB, -⟩ := R.hist
      have mem : ∀ (l : List (ℤ → K)) x y, y ∈ pushTerm l x → y = x ∨ y ∈ l := by
        intro l x y hy
        unfold pushTerm at hy
        split at hy
        · cases hy
        · rcases List.mem_cons.1 hy with rfl | hy
          · exact Or.inl rfl
          · exact Or.inr (List.dropLast_subset _ hy)
      rw [e]
      refine ⟨⟨hh ++ [.updateEqs s.U P.dt, .updateGhostValues (projected L ops U (vec ops.pN dP))], ?_, ⟨[.setGhostICs u] ++ hh ++ [.updateEqs s.U P.dt], Or.inr (by simp)⟩⟩, h2, ?_, ?_, ?_, ?_, ?_, ?_⟩
      · funext r
        simp only [hB]
        simp only [Boundary.run, List.foldl_append]
        rfl
      · exact (length_pushTerm _ _).trans R.nconv
      · exact (length_pushTerm _ _).trans R.ndiff
      · intro i hi
        simp only [projected, vec, if_neg hi]
        ring
      · intro i hi
        simp only [vec, if_neg hi, R.outP i hi]
        ring
      · intro x hx i hi
        rcases mem _ _ _ hx with rfl | hx
        · show -1 * w i = 0; rw [h0 i hi, mul_zero]
        · exact R.outConv x hx i hi
      · intro x hx i hi
        rcases mem _ _ _ hx with rfl | hx
        · exact if_neg hi
        · exact R.outDiff x hx i hi

end

end PetIBM
