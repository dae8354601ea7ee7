/-
The projection step.
-/
import Verif.Lemmas.NavierStokesRun
import Verif.Props.Divergence
import Verif.Props.Convection

set_option linter.unusedSectionVars false

namespace PetIBM

open Spec

section

variable {K : Type} [Field K]

theorem mult_vec (N : ℕ) (A : Mat K) (x : ℤ → K) (i : ℤ) : Mat.mult N A (vec N x) i = Mat.mult N A x i := by
  unfold Mat.mult
  refine Finset.sum_congr rfl fun c hc => ?_
  have := Finset.mem_range.1 hc
  rw [vec, if_pos (by omega)]

theorem mult_congr {N : ℕ} {A : Mat K} {x y : ℤ → K} (h : ∀ i : ℤ, 0 ≤ i → i < N → x i = y i) (i : ℤ) :
    Mat.mult N A x i = Mat.mult N A y i := by
  unfold Mat.mult
  refine Finset.sum_congr rfl fun c hc => ?_
  have := Finset.mem_range.1 hc
  rw [h c (by omega) (by omega)]

theorem mult_sub (N : ℕ) (A : Mat K) (x y : ℤ → K) (i : ℤ) :
    Mat.mult N A (fun j => x j + -1 * y j) i = Mat.mult N A x i - Mat.mult N A y i := by
  unfold Mat.mult
  rw [← Finset.sum_sub_distrib]
  refine Finset.sum_congr rfl fun c _ => ?_
  ring

theorem mult_mul (N M : ℕ) (A B : Mat K) (x : ℤ → K) (i : ℤ) :
    Mat.mult N (Mat.mul M A B) x i = Mat.mult M A (Mat.mult N B x) i := by
  unfold Mat.mult Mat.mul
  simp_rw [Finset.sum_mul, Finset.mul_sum]
  rw [Finset.sum_comm]
  refine Finset.sum_congr rfl fun c _ => Finset.sum_congr rfl fun d _ => ?_
  ring

end

variable {K : Type} [Field K] [LinearOrder K] [IsStrictOrderedRing K]
variable {debug : Bool} {L : Layout} {G : Geom K} {axes : ℕ → Axis K} {T : BCTable K} {B : ℕ → Boundary K}

/-- what `createOperators` returns -/
theorem createOperators_ok {P : NSParams K} {B' : ℕ → Boundary K} {ops : NSOps K} (h : createOperators debug L G P B' = .ok ops) :
    ∃ D Dm Gr La Lm BN, createDivergence debug L G false B' = .ok (D, Dm) ∧ createGradient debug L G false = .ok Gr ∧
      createLaplacian debug L G B' = .ok (La, Lm) ∧ createBnHead L.UN La P.dt (P.diff.implicitCoeff * P.nu) P.BN = .ok BN ∧
      ops = { pN := L.pN, D := D, Dmods := Dm, G := Gr, L := La, Lmods := Lm, A := Mat.shift (Mat.scale La (-P.diff.implicitCoeff * P.nu)) (1 / P.dt),
              BNG := Mat.mul L.UN BN Gr, DBNG := (setNullSpace P.pType (Mat.mul L.UN D (Mat.mul L.UN BN Gr))).1,
              isRefP := (setNullSpace P.pType (Mat.mul L.UN D (Mat.mul L.UN BN Gr))).2 } := by
  obtain ⟨⟨D, Dm⟩, h1, h⟩ := bind_ok h
  obtain ⟨Gr, h2, h⟩ := bind_ok h
  obtain ⟨⟨La, Lm⟩, h3, h⟩ := bind_ok h
  obtain ⟨BN, h4, h⟩ := bind_ok h
  cases h
  exact ⟨D, Dm, Gr, La, Lm, BN, h1, h2, h3, h4, rfl⟩

/-- A field filled with refreshed ghost values satisfies the ghost equations. -/
theorem filled_extended (C : Constructed debug L G axes T B) (h : List (Boundary.Op K)) {u : ℤ → K} {V : ℕ → Stencil → K}
    (hV : Filled debug L (fun r => (B r).run (h ++ [.updateGhostValues u])) u V) : Extended debug L (fun r => (B r).run h) u V := by
  have hL := C.setup.layout
  have h3 : L.dim ≤ 3 := C.setup.dim_le
  refine ⟨fun f hf => ⟨fun s idx hs hi => hV.inside f s idx hf hs hi, ?_⟩, ?_⟩
  · intro s d x hd hs hp hx
    have := hV.periodic f (along s d x) d hf hd hp
    rw [this]
    rw [coordOf_along _ _ _ _ (by omega) (by omega), if_pos rfl]
    congr 1
    unfold along
    split_ifs <;> rfl
  · intro r f loc s b p hr hp
    obtain ⟨b0, p0, hp0, rfl, rfl⟩ := point_run hp
    have hq := run_point (h := h ++ [.updateGhostValues u]) hp0
    have e := hV.ghost r f loc s _ _ hr hq
    have ev : (b0.pointRun (h ++ [.updateGhostValues u]) p0).value =
        (b0.pointRun h p0).a0 * u p0.targetPackedId + (b0.pointRun h p0).a1 := by
      have : b0.pointRun (h ++ [.updateGhostValues u]) p0 = b0.pointStep (b0.pointRun h p0) (.updateGhostValues u) := by
        simp [SingleBoundary.pointRun, List.foldl_append]
      rw [this]
      simp only [SingleBoundary.pointStep, (SingleBoundary.pointRun_static b0 h p0).1]
    rw [e, ev]
    obtain ⟨hf, hloc, good⟩ := (C.ghosts h).good r f loc s _ _ hr hp
    obtain ⟨i, j, k, ht, ho⟩ := good.owns
    have hin : Inside L.toMeshInfo f (b0.pointRun h p0).targetStencil := by
      rw [ht]
      have := owns_inGrid hL (Or.inl hf) ho
      exact inside_pst (p := (i, j, k)) (mem_gridList.2 this)
    rw [hV.inside f _ _ hf hin good.packed, (SingleBoundary.pointRun_static b0 h p0).1]

/-- The same whenever the ghost values have just been refreshed. -/
theorem filled_extended' (C : Constructed debug L G axes T B) {h : List (Boundary.Op K)} {u : ℤ → K} (hr : JustRefreshed h u) {V : ℕ → Stencil → K}
    (hV : Filled debug L (fun r => (B r).run h) u V) : Extended debug L (fun r => (B r).run h) u V := by
  have hL := C.setup.layout
  have h3 : L.dim ≤ 3 := C.setup.dim_le
  refine ⟨fun f hf => ⟨fun s idx hs hi => hV.inside f s idx hf hs hi, ?_⟩, ?_⟩
  · intro s d x hd hs hp hx
    have := hV.periodic f (along s d x) d hf hd hp
    rw [this]
    rw [coordOf_along _ _ _ _ (by omega) (by omega), if_pos rfl]
    congr 1
    unfold along
    split_ifs <;> rfl
  · intro r f loc s b p hr' hp
    rw [hV.ghost r f loc s _ _ hr' hp]
    obtain ⟨hf, hloc, good⟩ := (C.ghosts h).good r f loc s _ _ hr' hp
    have hper := (C.ghosts h).periodic r f loc s _ _ hr' hp
    obtain ⟨b0, p0, hp0, rfl, rfl⟩ := point_run hp
    obtain ⟨_, _, h1, h2, h3', h4, good0⟩ := point_boundaryInit hL (C.init r hr') C.pos hp0
    have t1 : b0.type ≠ .PERIODIC := by
      rw [h3']
      intro e
      rw [(C.table f loc hf hloc).1 e] at hper
      cases hper
    have t2 : b0.type ≠ .NOBC := by
      obtain ⟨l, hl, hb, hs⟩ := hp0
      have hB := C.init r hr'
      unfold boundaryInit at hB
      obtain ⟨f', hf', hl'⟩ := (mapM_except_getElem? hB f).2 l hl
      obtain ⟨_, rfl⟩ := getElem?_range_some hf'
      obtain ⟨loc', hloc', hb'⟩ := (mapM_except_getElem? hl' loc).2 b0 hb
      obtain ⟨_, rfl⟩ := getElem?_range_some hloc'
      intro e
      rw [h3'] at e
      rw [e] at hb'
      cases hb'
    obtain ⟨i, j, k, ht, ho⟩ := good.owns
    have hin : Inside L.toMeshInfo f (b0.pointRun h p0).targetStencil := by
      rw [ht]
      have := owns_inGrid hL (Or.inl hf) ho
      exact inside_pst (p := (i, j, k)) (mem_gridList.2 this)
    rw [hV.inside f _ _ hf hin good.packed, (SingleBoundary.pointRun_static b0 h p0).1]
    exact pointRun_value b0 h u hr p0 t1 t2

/-- A successful step, taken apart. -/
theorem advance_ok (C : Constructed debug L G axes T B) {P : NSParams K} (hc : P.conv.explicitCoeffs.length = P.conv.nExplicit)
    (hd : P.diff.explicitCoeffs.length = P.diff.nExplicit) {ops : NSOps K} {vSolve pSolve : LinSolve K} {u : ℤ → K} {s s' : NSState K}
    (R : Reach L B P ops.pN u s) (h : advance L G P ops vSolve pSolve s = .ok s') :
    ∃ w U dP, convectionMult L G s.B (fun _ _ _ => 0) s.U (fun _ => 0) = .ok w ∧
      vSolve ops.A s.U (momentumRhs L P ops s (pushTerm s.conv fun i => -1 * w i) (pushTerm s.diff (diffTerm L P.nu ops s))) = .ok U ∧
      pSolve ops.DBNG s.dP (poissonRhs L ops (fun r => (s.B r).updateEqs s.U P.dt) (vec L.UN U)) = .ok dP ∧
      s'.U = projected L ops U (vec ops.pN dP) ∧ s'.p = (fun i => s.p i + 1 * vec ops.pN dP i) ∧ s'.dP = vec ops.pN dP ∧
      s'.conv = pushTerm s.conv (fun i => -1 * w i) ∧ s'.diff = pushTerm s.diff (diffTerm L P.nu ops s) ∧
      s'.B = (fun r => ((s.B r).updateEqs s.U P.dt).updateGhostValues s'.U) ∧ s'.t = s.t + P.dt ∧ s'.ite = s.ite + 1 := by
  obtain ⟨w, hw, h0, loc, h2, e⟩ := advance_eq C hc hd ops vSolve pSolve R
  rw [h] at e
  cases hv : vSolve ops.A s.U (momentumRhs L P ops s (pushTerm s.conv fun i => -1 * w i) (pushTerm s.diff (diffTerm L P.nu ops s))) with
  | error x => rw [hv] at e; cases e
  | ok U =>
    rw [hv] at e
    simp only [Except.bind] at e
    cases hp' : pSolve ops.DBNG s.dP (poissonRhs L ops (fun r => (s.B r).updateEqs s.U P.dt) (vec L.UN U)) with
    | error x => rw [hp'] at e; cases e
    | ok dP =>
      rw [hp'] at e
      simp only [Except.ok.injEq] at e
      subst e
      exact ⟨w, U, dP, hw, hv, hp', rfl, rfl, rfl, rfl, rfl, rfl, rfl, rfl⟩

end PetIBM
