/-
The solver for velocity, pressure and forces together in other units.
-/
import Verif.Lemmas.UnitsBodies
import Verif.Lemmas.IbpmRun

namespace PetIBM

open Spec

set_option linter.unusedSectionVars false

variable {K : Type} [Field K] [LinearOrder K] [IsStrictOrderedRing K] {u : Scales K} {debug : Bool} {L : Layout} {G : Geom K} {axes : ℕ → Axis K}
  {bodies : BodyPack K} {kernel : DeltaKernel K} {window : ℕ} {P : NSParams K} {ops : NSOps K} {vSolve pSolve : LinSolve K}
  {counts : List (ℕ × ℕ)}

/-- Two numbers for the two parts of a nested vector. -/
def nestFactor (counts : List (ℕ × ℕ)) (a b : K) (i : ℤ) : K :=
  if 0 ≤ i then
    match nestSplit counts 0 0 i.toNat with
    | some (.inr _) => b
    | _ => a
  else a

theorem nestFactor_ne {a b : K} (ha : a ≠ 0) (hb : b ≠ 0) (i : ℤ) : nestFactor counts a b i ≠ 0 := by
  unfold nestFactor
  split_ifs
  · split
    · exact hb
    · exact ha
  · exact ha

theorem nestFactor_mul (a c : K) (i : ℤ) : nestFactor counts (a * c) c i = nestFactor counts a 1 i * c := by
  unfold nestFactor
  split_ifs
  · split
    · exact (one_mul _).symm
    · rfl
  · rfl

theorem nestRows_units (a b : K) (A B : Mat K) :
    Mat.nestRows counts (Mat.times a A) (Mat.times b B) = fun i j => nestFactor counts a b i * Mat.nestRows counts A B i j := by
  funext i j
  unfold Mat.nestRows nestFactor
  split_ifs
  · rcases nestSplit counts 0 0 i.toNat with _ | ⟨_ | _⟩
    · exact (mul_zero _).symm
    · rfl
    · rfl
  · exact (mul_zero _).symm

theorem nestCols_units (a b : K) (A B : Mat K) :
    Mat.nestCols counts (Mat.times a A) (Mat.times b B) = fun i j => nestFactor counts a b j * Mat.nestCols counts A B i j := by
  funext i j
  exact congrFun (congrFun (nestRows_units (counts := counts) a b (Mat.transpose A) (Mat.transpose B)) j) i

theorem nestVec_units (a b : K) (p f : ℤ → K) :
    nestVec counts (fun i => a * p i) (fun i => b * f i) = fun i => nestFactor counts a b i * nestVec counts p f i := by
  funext i
  unfold nestVec nestFactor
  split_ifs
  · rcases nestSplit counts 0 0 i.toNat with _ | ⟨_ | _⟩
    · exact (mul_zero _).symm
    · rfl
    · rfl
  · exact (mul_zero _).symm

theorem nestFactor_pressure (a b : K) {k : ℕ} (hk : k < (counts.map (·.1)).sum) : nestFactor counts a b (nestPos counts (.inl k) : ℕ) = a := by
  unfold nestFactor
  rw [if_pos (by omega), Int.toNat_natCast, ((nestSplit_pos counts 0 0).1 k hk).1]

theorem nestFactor_force (a b : K) {k : ℕ} (hk : k < (counts.map (·.2)).sum) : nestFactor counts a b (nestPos counts (.inr k) : ℕ) = b := by
  unfold nestFactor
  rw [if_pos (by omega), Int.toNat_natCast, ((nestSplit_pos counts 0 0).2 k hk).1]

/-- Only the values of the two parts matter for a nested vector. -/
theorem nestVec_congr {p f p' f' : ℤ → K} (hp : ∀ k : ℕ, k < (counts.map (·.1)).sum → p k = p' k) (hf : ∀ k : ℕ, k < (counts.map (·.2)).sum → f k = f' k) :
    nestVec counts p f = nestVec counts p' f' := by
  funext i
  by_cases h0 : 0 ≤ i
  · by_cases h1 : i.toNat < (counts.map (·.1)).sum + (counts.map (·.2)).sum
    · unfold nestVec
      rw [if_pos h0, if_pos h0]
      rcases nestPos_split counts 0 0 i.toNat h1 with ⟨a, ha, e, _⟩ | ⟨b, hb, e, _⟩
      · rw [e]
        simpa using hp a ha
      · rw [e]
        simpa using hf b hb
    · unfold nestVec
      rw [if_pos h0, if_pos h0, nestSplit_none counts 0 0 i.toNat (by omega)]
  · unfold nestVec
    rw [if_neg h0, if_neg h0]

theorem subPressure_units (a b : K) (x : ℤ → K) {k : ℕ} (hk : k < (counts.map (·.1)).sum) :
    subPressure counts (fun i => nestFactor counts a b i * x i) k = a * subPressure counts x k := by
  unfold subPressure
  rw [if_pos (by omega), if_pos (by omega), Int.toNat_natCast]
  change nestFactor counts a b _ * _ = _
  rw [nestFactor_pressure a b hk]

theorem subForces_units (a b : K) (x : ℤ → K) {k : ℕ} (hk : k < (counts.map (·.2)).sum) :
    subForces counts (fun i => nestFactor counts a b i * x i) k = b * subForces counts x k := by
  unfold subForces
  rw [if_pos (by omega), if_pos (by omega), Int.toNat_natCast]
  change nestFactor counts a b _ * _ = _
  rw [nestFactor_force a b hk]

namespace Spec.Scales

/-- The factors of pressures and forces. -/
def unknowns (u : Scales K) (dim : ℕ) (counts : List (ℕ × ℕ)) : ℤ → K := nestFactor counts (u.vel ^ 2) (u.force dim)

/-- The factors of the equations. -/
def equations (u : Scales K) (dim : ℕ) (counts : List (ℕ × ℕ)) (pinned : Bool) (i : ℤ) : K :=
  if pinned = true ∧ i = 0 then u.unknowns dim counts 0 else nestFactor counts (u.area dim) 1 i * u.vel

def coupledOps (u : Scales K) (dim : ℕ) (counts : List (ℕ × ℕ)) (o : NSOps K) : NSOps K :=
  { u.ops dim o with
    D := fun i j => nestFactor counts (u.area dim) 1 i * o.D i j
    G := fun i j => u.acc / u.unknowns dim counts j * o.G i j
    BNG := fun i j => u.vel / u.unknowns dim counts j * o.BNG i j
    DBNG := fun i j => u.equations dim counts o.isRefP i * o.DBNG i j / u.unknowns dim counts j }

def coupledState (u : Scales K) (dim : ℕ) (counts : List (ℕ × ℕ)) (s : NSState K) : NSState K :=
  { u.state dim s with p := fun i => u.unknowns dim counts i * s.p i, dP := fun i => u.unknowns dim counts i * s.dP i }

end Spec.Scales

theorem unknowns_ne (hl : 0 < u.len) (hv : 0 < u.vel) (dim : ℕ) (i : ℤ) : u.unknowns dim counts i ≠ 0 :=
  nestFactor_ne (pow_ne_zero _ hv.ne') (mul_ne_zero (div_ne_zero hv.ne' (div_pos hl hv).ne') (pow_ne_zero _ hl.ne')) i

theorem equations_ne (hl : 0 < u.len) (hv : 0 < u.vel) (dim : ℕ) (b : Bool) (i : ℤ) : u.equations dim counts b i ≠ 0 := by
  unfold Scales.equations
  split_ifs
  · exact unknowns_ne hl hv dim 0
  · exact mul_ne_zero (nestFactor_ne (pow_ne_zero _ hl.ne') one_ne_zero i) hv.ne'

/-- the factors of the columns of the gradient -/
theorem unknowns_cols (hl : 0 < u.len) (hv : 0 < u.vel) (j : ℤ) :
    nestFactor counts (1 / u.len) ((1 / u.len) ^ L.dim) j = u.acc / u.unknowns L.dim counts j := by
  have hl' := hl.ne'
  have hv' := hv.ne'
  have h1 : 1 / u.len = u.acc / u.vel ^ 2 := by
    unfold Scales.acc
    field_simp
  have h2 : (1 / u.len) ^ L.dim = u.acc / u.force L.dim := by
    have hf : u.force L.dim ≠ 0 := mul_ne_zero (div_ne_zero hv' (div_pos hl hv).ne') (pow_ne_zero _ hl')
    rw [eq_div_iff hf, force_spread hl, acc_time hl' hv']
  unfold Scales.unknowns nestFactor
  split_ifs
  · split
    · exact h2
    · exact h1
  · exact h1

theorem nestCounts_units : nestCounts L (u.bodies bodies) = nestCounts L bodies := by
  unfold nestCounts
  refine List.map_congr_left fun r _ => ?_
  have : (u.bodies bodies).nLclAllProcs r = bodies.nLclAllProcs r := by
    unfold BodyPack.nLclAllProcs Scales.bodies
    rw [List.foldl_map]
    rfl
  rw [this]

theorem mult_rows (n : ℕ) (α : ℤ → K) (A : Mat K) (x : ℤ → K) (i : ℤ) : Mat.mult n (fun i j => α i * A i j) x i = α i * Mat.mult n A x i := by
  unfold Mat.mult
  rw [Finset.mul_sum]
  exact Finset.sum_congr rfl fun j _ => by ring

theorem mult_cols (n : ℕ) (c : K) {γ : ℤ → K} (hγ : ∀ j, γ j ≠ 0) (A : Mat K) (x : ℤ → K) :
    Mat.mult n (fun i j => c / γ j * A i j) (fun j => γ j * x j) = fun i => c * Mat.mult n A x i := by
  funext i
  unfold Mat.mult
  rw [Finset.mul_sum]
  refine Finset.sum_congr rfl fun j _ => ?_
  have := hγ j
  field_simp

theorem mul_cols (n : ℕ) (b c : K) (γ : ℤ → K) (A B : Mat K) :
    Mat.mul n (Mat.times b A) (fun i j => c / γ j * B i j) = fun i j => b * c / γ j * Mat.mul n A B i j := by
  funext i j
  unfold Mat.mul Mat.times
  rw [Finset.mul_sum]
  exact Finset.sum_congr rfl fun k _ => by ring

theorem mul_rows (n : ℕ) (c : K) (α γ : ℤ → K) (A B : Mat K) :
    Mat.mul n (fun i j => α i * A i j) (fun i j => c / γ j * B i j) = fun i j => α i * c * Mat.mul n A B i j / γ j := by
  funext i j
  unfold Mat.mul
  rw [Finset.mul_sum, Finset.sum_div]
  exact Finset.sum_congr rfl fun k _ => by ring

/-- The right-hand side for the velocity reads the pressure only through its gradient. -/
theorem rhs_congr {P : NSParams K} {o o' : NSOps K} {s : NSState K} {p' dP' : ℤ → K} (h1 : o'.L = o.L) (h2 : o'.Lmods = o.Lmods)
    (h3 : Mat.mult o'.pN o'.G p' = Mat.mult o.pN o.G s.p) :
    assembleRHSVelocity L G P o' { s with p := p', dP := dP' } =
      (assembleRHSVelocity L G P o s).map fun x => (x.1, { x.2 with p := p', dP := dP' }) := by
  unfold assembleRHSVelocity
  have e1 : updateConv L G { s with p := p', dP := dP' } = updateConv L G s := rfl
  have e2 : updateDiff L P.nu o' { s with p := p', dP := dP' } = updateDiff L P.nu o s := by
    unfold updateDiff
    rw [h1, h2]
  simp only [e1, e2, h2, h3, bind, Except.bind]
  cases updateConv L G s with
  | error _ => rfl
  | ok cl =>
    simp only
    cases addTerms P.conv.explicitCoeffs cl.1 fun i => vec L.UN (fun i => -1 * Mat.mult o.pN o.G s.p i) i + 1 / P.dt * s.U i with
    | error _ => rfl
    | ok r1 =>
      simp only
      cases updateDiff L P.nu o s with
      | error _ => rfl
      | ok df =>
        simp only
        cases addTerms P.diff.explicitCoeffs df r1 with
        | error _ => rfl
        | ok r2 => rfl

theorem coupledRhs_units (hl : 0 < u.len) (hv : 0 < u.vel) (hd : L.dim = 2 ∨ L.dim = 3) (s : NSState K) :
    assembleRHSVelocity L (u.geom L.dim G) (u.params P) (u.coupledOps L.dim counts ops) (u.coupledState L.dim counts s) =
      (assembleRHSVelocity L G P ops s).map fun x => (fun i => u.acc * x.1 i, u.coupledState L.dim counts x.2) := by
  have h3 : Mat.mult (u.coupledOps L.dim counts ops).pN (u.coupledOps L.dim counts ops).G (fun i => u.unknowns L.dim counts i * s.p i) =
      Mat.mult (u.ops L.dim ops).pN (u.ops L.dim ops).G (u.state L.dim s).p := by
    refine (mult_cols ops.pN u.acc (unknowns_ne hl hv L.dim) ops.G s.p).trans ?_
    funext i
    simp only [Scales.state, Scales.ops]
    rw [mult_times]
    unfold Scales.acc
    ring
  have := rhs_congr (L := L) (G := u.geom L.dim G) (P := u.params P) (o := u.ops L.dim ops) (o' := u.coupledOps L.dim counts ops) (s := u.state L.dim s)
    (dP' := fun i => u.unknowns L.dim counts i * s.dP i) rfl rfl h3
  refine this.trans ?_
  rw [rhs_units hl.ne' hv.ne' hd]
  cases hA : assembleRHSVelocity L G P ops s with
  | error _ => rfl
  | ok q =>
    obtain ⟨r, q⟩ := q
    have hq : q.p = s.p ∧ q.dP = s.dP := by
      unfold assembleRHSVelocity at hA
      obtain ⟨_, _, hA⟩ := bind_ok hA
      obtain ⟨_, _, hA⟩ := bind_ok hA
      obtain ⟨_, _, hA⟩ := bind_ok hA
      obtain ⟨_, _, hA⟩ := bind_ok hA
      cases hA
      exact ⟨rfl, rfl⟩
    simp only [Except.map, Scales.coupledState, hq.1, hq.2]

theorem coupledPoisson_units (hl : 0 < u.len) (hv : 0 < u.vel) (h1 : (counts.map (·.1)).sum = L.pN) (s : NSState K) :
    ibpmRHSPoisson L counts (u.coupledOps L.dim counts ops) (u.coupledState L.dim counts s) =
      fun i => u.equations L.dim counts ops.isRefP i * ibpmRHSPoisson L counts ops s i := by
  have e1 : vec ops.pN (Mat.mult L.UN (u.coupledOps L.dim counts ops).D (u.coupledState L.dim counts s).U) =
      fun i => nestFactor counts (u.area L.dim * u.vel) u.vel i * vec ops.pN (Mat.mult L.UN ops.D s.U) i := by
    funext i
    have : Mat.mult L.UN (u.coupledOps L.dim counts ops).D (u.coupledState L.dim counts s).U i =
        nestFactor counts (u.area L.dim * u.vel) u.vel i * Mat.mult L.UN ops.D s.U i := by
      refine (mult_rows L.UN (nestFactor counts (u.area L.dim) 1) ops.D (fun i => u.vel * s.U i) i).trans ?_
      rw [mult_times_right]
      unfold nestFactor
      split_ifs
      · split <;> ring
      · ring
    unfold vec
    split_ifs
    · exact this
    · exact (mul_zero _).symm
  have e2 : vec L.pN (correctionMult L (u.coupledState L.dim counts s).B (u.coupledOps L.dim counts ops).Dmods) =
      fun i => u.area L.dim * u.vel * vec L.pN (correctionMult L s.B ops.Dmods) i := by
    rw [← vec_scaled]
    congr 1
    funext i
    exact correctionMult_units _ _ _
  have e3 : ∀ i, nestVec counts (fun a => subPressure counts (vec ops.pN (Mat.mult L.UN (u.coupledOps L.dim counts ops).D (u.coupledState L.dim counts s).U)) a +
      vec L.pN (correctionMult L (u.coupledState L.dim counts s).B (u.coupledOps L.dim counts ops).Dmods) a)
      (subForces counts (vec ops.pN (Mat.mult L.UN (u.coupledOps L.dim counts ops).D (u.coupledState L.dim counts s).U))) i =
      nestFactor counts (u.area L.dim) 1 i * u.vel * nestVec counts (fun a => subPressure counts (vec ops.pN (Mat.mult L.UN ops.D s.U)) a +
        vec L.pN (correctionMult L s.B ops.Dmods) a) (subForces counts (vec ops.pN (Mat.mult L.UN ops.D s.U))) i := by
    intro i
    rw [e1, e2]
    have := nestVec_congr (counts := counts)
      (p := fun a => subPressure counts (fun i => nestFactor counts (u.area L.dim * u.vel) u.vel i * vec ops.pN (Mat.mult L.UN ops.D s.U) i) a +
        u.area L.dim * u.vel * vec L.pN (correctionMult L s.B ops.Dmods) a)
      (p' := fun a => u.area L.dim * u.vel * (subPressure counts (vec ops.pN (Mat.mult L.UN ops.D s.U)) a +
        vec L.pN (correctionMult L s.B ops.Dmods) a))
      (f := subForces counts (fun i => nestFactor counts (u.area L.dim * u.vel) u.vel i * vec ops.pN (Mat.mult L.UN ops.D s.U) i))
      (f' := fun b => u.vel * subForces counts (vec ops.pN (Mat.mult L.UN ops.D s.U)) b)
      (fun k hk => by rw [subPressure_units _ _ _ hk]; ring) (fun k hk => subForces_units _ _ _ hk)
    rw [this, nestVec_units]
    change _ * _ = _
    rw [nestFactor_mul]
  unfold ibpmRHSPoisson
  funext i
  by_cases hr : ops.isRefP = true
  swap
  · rw [if_neg (show ¬ (u.coupledOps L.dim counts ops).isRefP = true from hr), if_neg hr, Scales.equations, if_neg fun h => hr h.1]
    exact e3 i
  · rw [if_pos (show (u.coupledOps L.dim counts ops).isRefP = true from hr), if_pos hr]
    simp only [Scales.equations, hr, true_and]
    by_cases hi : i = 0
    · subst hi
      simp
    · rw [Function.update_of_ne hi, Function.update_of_ne hi, if_neg hi]
      exact e3 i

/-- One step in other units. -/
theorem coupledAdvance_units (hl : 0 < u.len) (hv : 0 < u.vel) (hd : L.dim = 2 ∨ L.dim = 3) (h1 : (counts.map (·.1)).sum = L.pN) (hV : UnitFree vSolve)
    (hP : DiagFree pSolve) (s : NSState K) :
    ibpmAdvance L (u.geom L.dim G) (u.params P) counts (u.coupledOps L.dim counts ops) vSolve pSolve (u.coupledState L.dim counts s) =
      (ibpmAdvance L G P counts ops vSolve pSolve s).map (u.coupledState L.dim counts) := by
  have hl' := hl.ne'
  have hv' := hv.ne'
  unfold ibpmAdvance
  have e0 : ({ u.coupledState L.dim counts s with t := (u.coupledState L.dim counts s).t + (u.params P).dt, ite := (u.coupledState L.dim counts s).ite + 1 } : NSState K) =
      u.coupledState L.dim counts { s with t := s.t + P.dt, ite := s.ite + 1 } := by
    simp only [Scales.coupledState, Scales.state, Scales.params, NSState.mk.injEq, true_and, and_true]
    ring
  simp only [bind, Except.bind]
  rw [e0, coupledRhs_units hl hv hd]
  cases assembleRHSVelocity L G P ops { s with t := s.t + P.dt, ite := s.ite + 1 } with
  | error _ => rfl
  | ok q =>
    obtain ⟨rhs1, s1⟩ := q
    simp only [Except.map]
    have eV : vSolve (u.coupledOps L.dim counts ops).A (u.coupledState L.dim counts s1).U (fun i => u.acc * rhs1 i) =
        (vSolve ops.A s1.U rhs1).map fun x i => u.vel * x i :=
      hV (u.vel / u.len) u.vel (div_ne_zero hv' hl') hv' ops.A s1.U rhs1
    rw [eV]
    cases vSolve ops.A s1.U rhs1 with
    | error _ => rfl
    | ok U =>
      simp only [Except.map]
      rw [vec_scaled]
      have eQ : ibpmRHSPoisson L counts (u.coupledOps L.dim counts ops) { u.coupledState L.dim counts s1 with U := fun i => u.vel * vec L.UN U i } =
          fun i => u.equations L.dim counts ops.isRefP i * ibpmRHSPoisson L counts ops { s1 with U := vec L.UN U } i :=
        coupledPoisson_units hl hv h1 { s1 with U := vec L.UN U }
      have eP : pSolve (u.coupledOps L.dim counts ops).DBNG (u.coupledState L.dim counts s1).dP
          (ibpmRHSPoisson L counts (u.coupledOps L.dim counts ops) { u.coupledState L.dim counts s1 with U := fun i => u.vel * vec L.UN U i }) =
          (pSolve ops.DBNG s1.dP (ibpmRHSPoisson L counts ops { s1 with U := vec L.UN U })).map fun x i => u.unknowns L.dim counts i * x i := by
        rw [eQ]
        exact hP _ _ (equations_ne hl hv L.dim ops.isRefP) (unknowns_ne hl hv L.dim) ops.DBNG s1.dP _
      rw [eP]
      cases pSolve ops.DBNG s1.dP (ibpmRHSPoisson L counts ops { s1 with U := vec L.UN U }) with
      | error _ => rfl
      | ok dP =>
        simp only [Except.map, pure, Except.pure, Except.ok.injEq]
        have e3 : vec (u.coupledOps L.dim counts ops).pN (fun i => u.unknowns L.dim counts i * dP i) = fun i => u.unknowns L.dim counts i * vec ops.pN dP i := by
          funext i
          unfold vec
          change (if _ then _ else _) = _ * (if _ then _ else _)
          split_ifs <;> simp_all [Scales.coupledOps, Scales.ops]
        have e4 : Mat.mult (u.coupledOps L.dim counts ops).pN (u.coupledOps L.dim counts ops).BNG (fun i => u.unknowns L.dim counts i * vec ops.pN dP i) =
            fun i => u.vel * Mat.mult ops.pN ops.BNG (vec ops.pN dP) i := mult_cols ops.pN u.vel (unknowns_ne hl hv L.dim) ops.BNG _
        rw [e3, e4, vec_scaled]
        have e5 : (fun i => u.vel * vec L.UN U i + -1 * (u.vel * vec L.UN (Mat.mult ops.pN ops.BNG (vec ops.pN dP)) i)) =
            fun i => u.vel * (vec L.UN U i + -1 * vec L.UN (Mat.mult ops.pN ops.BNG (vec ops.pN dP)) i) := by
          funext i
          ring
        simp only [Scales.coupledState, Scales.state, e5, NSState.mk.injEq, true_and, and_true]
        constructor
        · funext i
          ring
        · funext r
          exact updateGhostValues_units hl' hv' _ _ _

theorem coupledOperators_units (hk : KernelFree kernel) (hl : 0 < u.len) (hv : 0 < u.vel) (hd : L.dim = 2 ∨ L.dim = 3) (B : ℕ → Boundary K) :
    ibpmCreateOperators debug L (u.geom L.dim G) (fun d => u.axis (axes d)) (u.params P) (fun r => u.boundary L.dim (B r)) (u.bodies bodies) kernel window =
      (ibpmCreateOperators debug L G axes P B bodies kernel window).map fun x =>
        (u.coupledOps L.dim (nestCounts L bodies) x.1, x.2.1, Mat.times ((1 / u.len) ^ L.dim) x.2.2) := by
  have hl' := hl.ne'
  have hv' := hv.ne'
  unfold ibpmCreateOperators
  simp only [divergence_units hd, gradient_units hd, laplacian_units hd, packMeshIdx_units hl, nestCounts_units, nPts_units, bind, Except.bind]
  cases createDivergence debug L G false B with
  | error _ => rfl
  | ok D =>
    simp only [Except.map]
    cases createGradient debug L G false with
    | error _ => rfl
    | ok Gr =>
      simp only
      cases createLaplacian debug L G B with
      | error _ => rfl
      | ok Lap =>
        simp only
        cases bodies.updateMeshIdx axes with
        | error _ => rfl
        | ok idx =>
          simp only [createEH_units hk hl hd]
          cases createEH debug L G axes B bodies (meshIdxAt idx) kernel window with
          | error _ => rfl
          | ok EH =>
            simp only [Except.map, Scales.params]
            have hb := bn_times L.UN Lap.1 P.dt (P.diff.implicitCoeff * P.nu) (1 / u.len ^ 2) u.time (u.len * u.vel) (by unfold Scales.time; field_simp) P.BN
            rw [show u.len * u.vel * (P.diff.implicitCoeff * P.nu) = P.diff.implicitCoeff * (u.len * u.vel * P.nu) by ring] at hb
            rw [hb]
            cases createBnHead L.UN Lap.1 P.dt (P.diff.implicitCoeff * P.nu) P.BN with
            | error _ => rfl
            | ok Bn =>
              obtain ⟨E, H⟩ := EH
              simp only
              generalize nestCounts L bodies = counts
              have eG : Mat.nestCols counts (Mat.times (1 / u.len) Gr) (Mat.scale (Mat.times ((1 / u.len) ^ L.dim) H) (-1)) =
                  fun i j => u.acc / u.unknowns L.dim counts j * Mat.nestCols counts Gr (Mat.scale H (-1)) i j := by
                have : Mat.scale (Mat.times ((1 / u.len) ^ L.dim) H) (-1) = Mat.times ((1 / u.len) ^ L.dim) (Mat.scale H (-1)) := by
                  funext i j
                  unfold Mat.scale Mat.times
                  ring
                rw [this, nestCols_units]
                funext i j
                rw [unknowns_cols hl hv]
              have eD : Mat.nestRows counts (Mat.times (u.area L.dim) D.1) E =
                  fun i j => nestFactor counts (u.area L.dim) 1 i * Mat.nestRows counts D.1 E i j := by
                rw [← nestRows_units]
                congr 1
                funext i j
                exact (one_mul _).symm
              have et : u.time * u.acc = u.vel := by
                unfold Scales.time Scales.acc
                field_simp
              have e1 : Mat.mul L.UN (Mat.times u.time Bn) (fun i j => u.acc / u.unknowns L.dim counts j * Mat.nestCols counts Gr (Mat.scale H (-1)) i j) =
                  fun i j => u.vel / u.unknowns L.dim counts j * Mat.mul L.UN Bn (Mat.nestCols counts Gr (Mat.scale H (-1))) i j := by
                rw [mul_cols, et]
              have e2 := mul_rows L.UN u.vel (nestFactor counts (u.area L.dim) 1) (u.unknowns L.dim counts) (Mat.nestRows counts D.1 E)
                (Mat.mul L.UN Bn (Mat.nestCols counts Gr (Mat.scale H (-1))))
              have e3 : Mat.shift (Mat.scale (Mat.times (1 / u.len ^ 2) Lap.1) (-P.diff.implicitCoeff * (u.len * u.vel * P.nu))) (1 / (u.time * P.dt)) =
                  Mat.times (u.vel / u.len) (Mat.shift (Mat.scale Lap.1 (-P.diff.implicitCoeff * P.nu)) (1 / P.dt)) := by
                have h1 : 1 / (u.time * P.dt) = u.vel / u.len * (1 / P.dt) := by
                  unfold Scales.time
                  rw [one_div, mul_inv, inv_div, one_div]
                have h2 : ∀ i j, -P.diff.implicitCoeff * (u.len * u.vel * P.nu) * (1 / u.len ^ 2 * Lap.1 i j) =
                    u.vel / u.len * (-P.diff.implicitCoeff * P.nu * Lap.1 i j) := by
                  intro i j
                  field_simp
                funext i j
                simp only [Mat.shift, Mat.scale, Mat.times, h1, h2]
                split_ifs
                · ring
                · rfl
              have e4 : ∀ M : Mat K, setNullSpace P.pType (fun i j => nestFactor counts (u.area L.dim) 1 i * u.vel * M i j / u.unknowns L.dim counts j) =
                  (fun i j => u.equations L.dim counts (setNullSpace P.pType M).2 i * (setNullSpace P.pType M).1 i j / u.unknowns L.dim counts j,
                    (setNullSpace P.pType M).2) := by
                intro M
                have hu := unknowns_ne (counts := counts) hl hv L.dim
                cases P.pType with
                | ksp =>
                  refine Prod.ext (funext fun i => funext fun j => ?_) rfl
                  simp only [setNullSpace, Scales.equations, Bool.false_eq_true, false_and, if_false]
                | amgx =>
                  refine Prod.ext (funext fun i => funext fun j => ?_) rfl
                  simp only [setNullSpace, Scales.equations, Mat.zeroRowColumn, true_and]
                  by_cases hi : i = 0
                  · by_cases hj : j = 0
                    · simp [hi, hj, hu 0]
                    · simp [hi, hj]
                  · by_cases hj : j = 0
                    · simp [hi, hj]
                    · simp [hi, hj]
              simp only [Except.map, eG, eD, e1, e2, e3, e4]
              rfl

theorem coupledInit_units (hk : KernelFree kernel) (hl : 0 < u.len) (hv : 0 < u.vel) (hd : L.dim = 2 ∨ L.dim = 3) (F : FlowNode K) (B : ℕ → Boundary K) :
    ibpmInit debug L (u.geom L.dim G) (fun d => u.axis (axes d)) (u.params P) (some (u.flow F)) (fun r => u.boundary L.dim (B r)) (u.bodies bodies)
        kernel window =
      (ibpmInit debug L G axes P (some F) B bodies kernel window).map fun x =>
        ((u.coupledOps L.dim (nestCounts L bodies) x.1.1, x.1.2.1, Mat.times ((1 / u.len) ^ L.dim) x.1.2.2),
          u.coupledState L.dim (nestCounts L bodies) x.2) := by
  unfold ibpmInit
  simp only [bind, Except.bind]
  rw [initial_units hl.ne' hv.ne' (by omega)]
  cases setInitialConditions L G (some F) (fun _ => 0) fun _ => 0 with
  | error _ => rfl
  | ok Up =>
    simp only [Except.map]
    have eB : (fun r => (u.boundary L.dim (B r)).setGhostICs fun i => u.vel * Up.1 i) = fun r => u.boundary L.dim ((B r).setGhostICs Up.1) := by
      funext r
      exact setGhostICs_units hl.ne' hv.ne' _ _ _
    rw [eB, coupledOperators_units hk hl hv hd]
    cases ibpmCreateOperators debug L G axes P (fun r => (B r).setGhostICs Up.1) bodies kernel window with
    | error _ => rfl
    | ok o =>
      simp only [Except.map, pure, Except.pure, Except.ok.injEq, Prod.mk.injEq, true_and, Scales.coupledState, Scales.state, Scales.params, NSState.mk.injEq,
        List.map_replicate, mul_zero]

/-- reading the files of a run -/
theorem coupledReadRestart_units (hl : 0 < u.len) (hv : 0 < u.vel) (hd : L.dim = 2 ∨ L.dim = 3) {d d' : Disk K} {path : String} {file file' : H5File K}
    (h1 : d path = some file) (h2 : d' path = some file') (hf : FileInUnits u file file')
    (hg : file'.data "/force" = (file.data "/force").map (List.map (u.force L.dim * ·))) {nF : ℕ} {s s' : NSState K} (hp : s.p = fun _ => 0) (hdp : s.dP = fun _ => 0)
    (h : ibpmReadRestart L counts nF s d path = .ok s') :
    ibpmReadRestart L counts nF (u.coupledState L.dim counts s) d' path = .ok (u.coupledState L.dim counts s') := by
  unfold ibpmReadRestart at h ⊢
  obtain ⟨ns, e1, h⟩ := bind_ok h
  obtain ⟨f, e2, h⟩ := bind_ok h
  have ez : ∀ x : ℤ → K, (x = fun _ => 0) → subPressure counts x = fun _ => 0 := by
    intro x hx
    funext i
    unfold subPressure
    rw [hx]
    split_ifs <;> rfl
  have es : ({ u.coupledState L.dim counts s with p := subPressure counts (u.coupledState L.dim counts s).p } : NSState K) =
      u.state L.dim { s with p := subPressure counts s.p } := by
    have hz : (u.coupledState L.dim counts s).p = fun _ => 0 := by
      funext i
      change _ * s.p i = 0
      rw [hp, mul_zero]
    rw [ez _ hz, ez _ hp]
    simp only [Scales.coupledState, Scales.state, hdp, mul_zero]
  have k1 : readRestartDataHDF5 L (u.state L.dim { s with p := subPressure counts s.p }) d' path = .ok (u.state L.dim ns) :=
    readRestart_units hl.ne' hv.ne' hd h1 h2 hf e1
  have k2 : readHDF5Vecs d' path "/" ["force"] [nF] = (readHDF5Vecs d path "/" ["force"] [nF]).map (List.map (List.map (u.force L.dim * ·))) := by
    unfold readHDF5Vecs
    rw [h1, h2]
    refine mapM_scaled _ ?_
    intro a ha
    rw [List.zip_cons_cons, List.zip_nil_left, List.mem_singleton] at ha
    subst ha
    exact get_scaled hg _
  have hn : ns.dP = fun _ => 0 := by
    unfold readRestartDataHDF5 at e1
    rw [h1] at e1
    obtain ⟨⟨U, p⟩, _, e1⟩ := bind_ok e1
    cases ep : file.data "/p" with
    | none => simp only [ep] at e1; cases e1
    | some v =>
    cases et : file.time with
    | none => simp only [ep, et] at e1; cases e1
    | some t =>
    simp only [ep, et] at e1
    obtain ⟨t, _, e1⟩ := bind_ok e1
    obtain ⟨c, _, e1⟩ := bind_ok e1
    obtain ⟨df, _, e1⟩ := bind_ok e1
    cases e1
    exact hdp
  rw [es, k1, k2, e2]
  match f with
  | [v] =>
    cases h
    change Except.ok _ = Except.ok _
    rw [packedVec_scaled]
    refine congrArg Except.ok ?_
    have := nestVec_units (counts := counts) (u.vel ^ 2) (u.force L.dim) ns.p (packedVec v)
    have e3 : (u.state L.dim ns).p = fun i => u.vel ^ 2 * ns.p i := rfl
    rw [e3, this]
    simp only [Scales.coupledState, Scales.state, hn, mul_zero]
    rfl
  | [] => cases h
  | _ :: _ :: _ => cases h

end PetIBM
