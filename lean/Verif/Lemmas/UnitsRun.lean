/-
C98: the mesh, the initial conditions and the steps of a run in other units.
-/
import Verif.Lemmas.Units
import Verif.Lemmas.Files
import Verif.Spec.Setup

namespace PetIBM

open Spec

set_option linter.unusedSectionVars false

variable {K : Type} [Field K] {u : Scales K} {debug : Bool} {L : Layout} {G : Geom K} {c : K}

/-! ### Mesh -/

namespace Spec.Scales

def fieldAxis (u : Scales K) (w : K) (a : FieldAxis K) : FieldAxis K := ⟨a.n, a.coordTrue.map (u.len * ·), a.dLTrue.map (w * ·), a.shift⟩

end Spec.Scales

theorem partialSum_scaled (l : List K) : partialSum (l.map (c * ·)) = (partialSum l).map (c * ·) := by
  have h : ∀ (l : List K) (a : K), partialSumFrom (c * a) (l.map (c * ·)) = (partialSumFrom a l).map (c * ·) := by
    intro l
    induction l with
    | nil => exact fun _ => rfl
    | cons x l ih =>
      intro a
      simp only [List.map_cons, partialSumFrom]
      rw [← mul_add, ih]
  have := h l 0
  rwa [mul_zero] at this

theorem pressureAxis_units (a : Axis K) : pressureAxis (u.axis a) = u.fieldAxis u.len (pressureAxis a) := by
  unfold pressureAxis Scales.fieldAxis Scales.axis
  simp only [List.length_map, partialSum_scaled, FieldAxis.mk.injEq, true_and, and_true]
  rw [List.zipWith_map, List.map_zipWith]
  congr 1
  funext s w
  ring

theorem vertexAxis_units (a : Axis K) : vertexAxis (u.axis a) = u.fieldAxis 1 (vertexAxis a) := by
  unfold vertexAxis Scales.fieldAxis Scales.axis
  simp only [List.length_map, partialSum_scaled, FieldAxis.mk.injEq, true_and, and_true, List.map_cons, List.map_map, List.map_nil, mul_one]
  congr 1
  · ring
  · refine List.map_congr_left fun x _ => ?_
    simp only [Function.comp]
    ring

theorem halfSum_scaled (x y : K) : halfSum (c * x) (c * y) = c * halfSum x y := by
  unfold halfSum
  ring

theorem adjacent_scaled (l : List K) : adjacentDifference halfSum (l.map (c * ·)) = (adjacentDifference halfSum l).map (c * ·) := by
  have h : ∀ (l : List K) (y : K), adjacentFrom halfSum (c * y) (l.map (c * ·)) = (adjacentFrom halfSum y l).map (c * ·) := by
    intro l
    induction l with
    | nil => exact fun _ => rfl
    | cons x l ih =>
      intro y
      simp only [List.map_cons, adjacentFrom]
      rw [halfSum_scaled, ih]
  cases l with
  | nil => rfl
  | cons x l =>
    simp only [List.map_cons, adjacentDifference]
    rw [h]

theorem normalAxis_units (per : Bool) (a : Axis K) : normalAxis per (u.axis a) = (normalAxis per a).map (u.fieldAxis u.len) := by
  have hv := congrArg FieldAxis.coordTrue (vertexAxis_units (u := u) a)
  have h1 : (u.axis a).dL = a.dL.map (u.len * ·) := rfl
  unfold normalAxis
  rw [h1, List.head?_map, List.getLast?_map]
  cases a.dL.head? with
  | none => rfl
  | some front =>
    cases a.dL.getLast? with
    | none => rfl
    | some back =>
      simp only [Option.map_some, adjacent_scaled, halfSum_scaled, hv, List.length_map]
      cases per with
      | false =>
        simp only [Bool.false_eq_true, if_false, Except.map, Scales.fieldAxis, List.map_append, List.map_cons, List.map_nil]
      | true =>
        simp only [if_true]
        have e : (List.map (fun x => u.len * x) (adjacentDifference halfSum a.dL) ++ [u.len * halfSum front back]).set 0 (u.len * halfSum front back) =
            ((adjacentDifference halfSum a.dL ++ [halfSum front back]).set 0 (halfSum front back)).map (u.len * ·) := by
          rw [List.map_set, List.map_append, List.map_cons, List.map_nil]
        rw [e, List.getElem?_map]
        cases ((adjacentDifference halfSum a.dL ++ [halfSum front back]).set 0 (halfSum front back))[1]? with
        | none => rfl
        | some d1 =>
          simp only [Option.map_some, Except.map, Scales.fieldAxis, List.map_append, List.map_cons, List.map_nil, Scales.axis, mul_add]

theorem tangentAxis_units (per : Bool) (a : Axis K) : tangentAxis per (u.axis a) = (tangentAxis per a).map (u.fieldAxis u.len) := by
  have hp := congrArg FieldAxis.coordTrue (pressureAxis_units (u := u) a)
  have h1 : (u.axis a).dL = a.dL.map (u.len * ·) := rfl
  unfold tangentAxis
  rw [h1, List.head?_map, List.getLast?_map]
  cases a.dL.head? with
  | none => rfl
  | some front =>
    cases a.dL.getLast? with
    | none => rfl
    | some back =>
      simp only [Option.map_some, hp, List.length_map]
      cases per <;>
        simp only [Bool.false_eq_true, if_false, if_true, Except.map, Scales.fieldAxis, List.map_append, List.map_cons, List.map_nil, Scales.axis,
          List.cons_append, mul_sub, mul_add, mul_div_assoc]

theorem flatAxis_units : flatAxis = u.fieldAxis 1 (flatAxis (K := K)) := by
  simp [flatAxis, Scales.fieldAxis]

theorem fieldAxis_units {dim : ℕ} (h3d : dim ≤ 3) (axes : ℕ → Axis K) (per : ℕ → ℕ → Bool) (f d : ℕ) :
    fieldAxis dim (fun d => u.axis (axes d)) per f d = (fieldAxis dim axes per f d).map (u.fieldAxis (u.width dim f d)) := by
  unfold fieldAxis Scales.width
  by_cases h3 : f < 3
  · simp only [if_pos h3]
    by_cases h : f < dim ∧ d < dim
    · simp only [if_pos h]
      rw [if_pos (show d < dim ∧ (f < dim ∨ f = 3) from ⟨h.2, Or.inl h.1⟩)]
      by_cases e : d = f
      · simp only [if_pos e]; exact normalAxis_units _ _
      · simp only [if_neg e]; exact tangentAxis_units _ _
    · simp only [if_neg h]
      rw [if_neg (show ¬(d < dim ∧ (f < dim ∨ f = 3)) by omega)]
      change Except.ok _ = Except.ok _
      rw [← flatAxis_units]
  · simp only [if_neg h3]
    by_cases hd : d < dim
    · simp only [if_pos hd]
      by_cases e : f = 3
      · simp only [if_pos e]
        rw [if_pos (show d < dim ∧ (f < dim ∨ f = 3) from ⟨hd, Or.inr e⟩)]
        change Except.ok _ = Except.ok _
        rw [pressureAxis_units]
      · simp only [if_neg e]
        rw [if_neg (show ¬(d < dim ∧ (f < dim ∨ f = 3)) by omega)]
        change Except.ok _ = Except.ok _
        rw [vertexAxis_units]
    · simp only [if_neg hd]
      rw [if_neg (show ¬(d < dim ∧ (f < dim ∨ f = 3)) by omega)]
      change Except.ok _ = Except.ok _
      rw [← flatAxis_units]

theorem ptrAt_map (w : K) (a : List K) (s : ℕ) (i : ℤ) : ptrAt (a.map (w * ·)) s i = (ptrAt a s i).map (w * ·) := by
  unfold ptrAt
  split_ifs
  · rw [List.getElem?_map]
    cases a[(i + s).toNat]? <;> rfl
  · rfl

theorem map_ok {α β : Type} {h : α → β} {x : Except Error α} {y : β} (e : x.map h = .ok y) : ∃ a, x = .ok a ∧ y = h a := by
  cases x with
  | error _ => cases e
  | ok a => exact ⟨a, rfl, (Except.ok.inj e).symm⟩

theorem setup_units [LinearOrder K] [IsStrictOrderedRing K] {axes : ℕ → Axis K} (hl : 0 < u.len) (S : Setup L G axes) :
    Setup L (u.geom L.dim G) fun d => u.axis (axes d) where
  layout := S.layout
  axesOK d hd := by
    obtain ⟨h1, h2, h3⟩ := S.axesOK d hd
    refine ⟨fun h => h1 (List.map_eq_nil_iff.mp h), ?_, ?_⟩
    · intro w hw
      obtain ⟨x, hx, rfl⟩ := List.mem_map.mp hw
      exact mul_pos hl (h2 x hx)
    · change u.len * (axes d).max = u.len * (axes d).min + ((axes d).dL.map (u.len * ·)).sum
      rw [List.sum_map_mul_left, List.map_id', h3]
      ring
  geom f d hf hd A hA := by
    have h3d : L.dim ≤ 3 := by rcases S.layout.dim with h | h <;> omega
    rw [fieldAxis_units h3d] at hA
    obtain ⟨A, hA', rfl⟩ := map_ok hA
    obtain ⟨h1, h2⟩ := S.geom f d hf hd A hA'
    constructor
    · intro i x hx
      obtain ⟨y, hy, rfl⟩ := map_ok ((ptrAt_map _ _ _ _).symm.trans hx)
      exact congrArg (u.len * ·) (h1 i y hy)
    · intro i x hx
      obtain ⟨y, hy, rfl⟩ := map_ok ((ptrAt_map _ _ _ _).symm.trans hx)
      exact congrArg (u.width L.dim f d * ·) (h2 i y hy)
  counts f d hf hd A hA := by
    have h3d : L.dim ≤ 3 := by rcases S.layout.dim with h | h <;> omega
    rw [fieldAxis_units h3d] at hA
    obtain ⟨A, hA', rfl⟩ := map_ok hA
    exact S.counts f d hf hd A hA'
  periodic := S.periodic

/-! ### Initial conditions -/

section Start

variable (hl : u.len ≠ 0) (hv : u.vel ≠ 0)
include hl hv

theorem expr_units (a : K) (e : Expr K) (x y z nu : K) :
    u.expr a e (u.len * x) (u.len * y) (u.len * z) 0 (u.len * u.vel * nu) = a * e x y z 0 nu := by
  unfold Scales.expr
  rw [mul_div_cancel_left₀ _ hl, mul_div_cancel_left₀ _ hl, mul_div_cancel_left₀ _ hl, zero_div, mul_div_cancel_left₀ _ (mul_ne_zero hl hv)]

theorem initial_units (h3 : L.dim ≤ 3) (F : FlowNode K) :
    setInitialConditions L (u.geom L.dim G) (some (u.flow F)) (fun _ => 0) (fun _ => 0) =
      (setInitialConditions L G (some F) (fun _ => 0) fun _ => 0).map fun x => (fun i => u.vel * x.1 i, fun i => u.vel ^ 2 * x.2 i) := by
  obtain ⟨nu, es, pe⟩ := F
  unfold setInitialConditions
  simp only [Scales.flow, Option.bind_some, bind, Except.bind]
  cases nu with
  | none => rfl
  | some nu =>
    simp only [Option.map_some]
    unfold parseICs
    cases es with
    | none => rfl
    | some es =>
      simp only [Option.map_some, List.length_map]
      by_cases h4 : es.length ≤ 4
      · simp only [if_pos h4]
        set I₁ : List (Option (Expr K)) := (es.map some ++ List.replicate (4 - es.length) none).set 3 (some (pe.getD fun _ _ _ _ _ => 0)) with hI₁
        set I₂ : List (Option (Expr K)) := ((es.map (u.expr u.vel)).map some ++ List.replicate (4 - es.length) none).set 3
          (some ((pe.map (u.expr (u.vel ^ 2))).getD fun _ _ _ _ _ => 0)) with hI₂
        have hlt : ∀ f, f < 3 → I₂[f]? = I₁[f]?.map (Option.map (u.expr u.vel)) := by
          intro f hf
          rw [hI₁, hI₂, List.getElem?_set_ne (by omega), List.getElem?_set_ne (by omega), ← List.getElem?_map, List.map_append, List.map_map, List.map_map,
            List.map_replicate]
          rfl
        have h3e : (es.map some ++ List.replicate (4 - es.length) none).length = 4 := by simp; omega
        have h3e' : ((es.map (u.expr u.vel)).map some ++ List.replicate (4 - es.length) none).length = 4 := by simp; omega
        have hp : I₁[3]? = some (some (pe.getD fun _ _ _ _ _ => 0)) := by
          rw [hI₁, List.getElem?_set_self (by omega)]
        have hp' : I₂[3]? = some (some ((pe.map (u.expr (u.vel ^ 2))).getD fun _ _ _ _ _ => 0)) := by
          rw [hI₂, List.getElem?_set_self (by omega)]
        have hc : ∀ f i j k, f < 3 → callIC (u.geom L.dim G) I₂ (u.len * u.vel * nu) f i j k = (callIC G I₁ nu f i j k).map (u.vel * ·) := by
          intro f i j k hf
          unfold callIC
          rw [hlt f hf]
          rcases I₁[f]? with _ | _ | e
          · rfl
          · rfl
          · exact congrArg Except.ok (expr_units hl hv _ _ _ _ _ _)
        have hc3 : ∀ i j k, callIC (u.geom L.dim G) I₂ (u.len * u.vel * nu) 3 i j k = (callIC G I₁ nu 3 i j k).map (u.vel ^ 2 * ·) := by
          intro i j k
          unfold callIC
          rw [hp, hp']
          cases pe with
          | none => exact congrArg Except.ok (mul_zero _).symm
          | some e => exact congrArg Except.ok (expr_units hl hv _ _ _ _ _ _)
        have ha : ∀ f (a : K), (∀ i j k, callIC (u.geom L.dim G) I₂ (u.len * u.vel * nu) f i j k = (callIC G I₁ nu f i j k).map (a * ·)) →
            assignIC L (u.geom L.dim G) I₂ (u.len * u.vel * nu) f = (assignIC L G I₁ nu f).map (List.map fun w => (w.1, a * w.2)) := by
          intro f a h
          unfold assignIC
          rw [mapM_scaled (h := List.map fun w => (w.1, a * w.2)) (g₁ := fun r => (L.box f r).mapM fun p => do
            let idx ← L.getPackedGlobalIndex false f ⟨p.2.2, p.2.1, p.1, 0⟩
            let x ← callIC G I₁ nu f p.1 p.2.1 p.2.2
            return (idx, x))]
          · generalize List.mapM (m := Except Error) _ _ = R
            cases R with
            | error _ => rfl
            | ok l =>
              change Except.ok _ = Except.ok _
              rw [List.flatMap_map, List.map_flatMap]
              rfl
          · intro r _
            refine mapM_scaled _ fun p _ => ?_
            simp only [bind, Except.bind, h]
            cases L.getPackedGlobalIndex false f ⟨p.2.2, p.2.1, p.1, 0⟩ with
            | error _ => rfl
            | ok idx =>
              simp only
              cases callIC G I₁ nu f p.1 p.2.1 p.2.2 <;> rfl
        rw [mapM_scaled (h := List.map fun w => (w.1, u.vel * w.2)) (g₁ := assignIC L G I₁ nu)
          _ fun f hf => ha f u.vel fun i j k => hc f i j k (by have := List.mem_range.mp hf; omega), ha 3 _ hc3]
        cases (List.range L.dim).mapM (assignIC L G I₁ nu) with
        | error _ => rfl
        | ok a =>
          simp only [Except.map]
          cases assignIC L G I₁ nu 3 with
          | error _ => rfl
          | ok b =>
            simp only [pure, Except.pure, Except.ok.injEq, Prod.mk.injEq]
            have z1 : (fun _ : ℤ => (0 : K)) = fun i => u.vel * (fun _ : ℤ => (0 : K)) i := by funext i; simp
            have z2 : (fun _ : ℤ => (0 : K)) = fun i => u.vel ^ 2 * (fun _ : ℤ => (0 : K)) i := by funext i; simp
            constructor
            · rw [List.flatMap_map]
              conv_lhs => rw [z1]
              rw [← vecAssign_scaled, List.map_flatMap]
              rfl
            · conv_lhs => rw [z2]
              rw [← vecAssign_scaled]
      · simp only [if_neg h4]
        rfl

/-! ### Operators and steps -/

end Start

namespace Spec.Scales

/-- The factors of the rows of the matrix for the pressure: the equation of a pinned cell has none. -/
def row (u : Scales K) (dim : ℕ) (pinned : Bool) (i : ℤ) : K := if pinned = true ∧ i = 0 then 1 else u.area dim / u.vel

/-- The matrices of a run in other units. -/
def ops (u : Scales K) (dim : ℕ) (o : NSOps K) : NSOps K :=
  { pN := o.pN, D := Mat.times (u.area dim) o.D, Dmods := Scales.mods (u.area dim) o.Dmods, G := Mat.times (1 / u.len) o.G,
    L := Mat.times (1 / u.len ^ 2) o.L, Lmods := Scales.mods (1 / u.len ^ 2) o.Lmods, A := Mat.times (u.vel / u.len) o.A,
    BNG := Mat.times (1 / u.vel) o.BNG, DBNG := fun i j => u.row dim o.isRefP i * o.DBNG i j, isRefP := o.isRefP }

/-- The state of a run in other units. -/
def state (u : Scales K) (dim : ℕ) (s : NSState K) : NSState K :=
  { U := fun i => u.vel * s.U i, p := fun i => u.vel ^ 2 * s.p i, dP := fun i => u.vel ^ 2 * s.dP i, conv := s.conv.map fun x i => u.acc * x i,
    diff := s.diff.map fun x i => u.acc * x i, B := fun r => u.boundary dim (s.B r), loc := fun r f i => u.vel * s.loc r f i,
    t := u.time * s.t, ite := s.ite }

end Spec.Scales

section Step

variable {P : NSParams K} {ops : NSOps K} {vSolve pSolve : LinSolve K} (hl : u.len ≠ 0) (hv : u.vel ≠ 0) (hd : L.dim = 2 ∨ L.dim = 3)
include hl hv hd

theorem operators_units (B : ℕ → Boundary K) :
    createOperators debug L (u.geom L.dim G) (u.params P) (fun r => u.boundary L.dim (B r)) = (createOperators debug L G P B).map (u.ops L.dim) := by
  unfold createOperators
  simp only [divergence_units hd, gradient_units hd, laplacian_units hd, bind, Except.bind]
  cases createDivergence debug L G false B with
  | error _ => rfl
  | ok D =>
    simp only [Except.map]
    cases createGradient debug L G false with
    | error _ => rfl
    | ok Gr =>
      simp only
      cases createLaplacian debug L G B with
      | error _ => rfl
      | ok Lap =>
        simp only [Scales.params]
        have hb := bn_times L.UN Lap.1 P.dt (P.diff.implicitCoeff * P.nu) (1 / u.len ^ 2) u.time (u.len * u.vel) (by unfold Scales.time; field_simp) P.BN
        rw [show u.len * u.vel * (P.diff.implicitCoeff * P.nu) = P.diff.implicitCoeff * (u.len * u.vel * P.nu) by ring] at hb
        rw [hb]
        cases createBnHead L.UN Lap.1 P.dt (P.diff.implicitCoeff * P.nu) P.BN with
        | error _ => rfl
        | ok Bn =>
          have e1 : Mat.mul L.UN (Mat.times u.time Bn) (Mat.times (1 / u.len) Gr) = Mat.times (1 / u.vel) (Mat.mul L.UN Bn Gr) := by
            rw [mul_times]
            congr 1
            unfold Scales.time
            field_simp
          have e2 : Mat.mul L.UN (Mat.times (u.area L.dim) D.1) (Mat.times (1 / u.vel) (Mat.mul L.UN Bn Gr)) =
              Mat.times (u.area L.dim / u.vel) (Mat.mul L.UN D.1 (Mat.mul L.UN Bn Gr)) := by
            rw [mul_times]
            congr 1
            ring
          have e3 : Mat.shift (Mat.scale (Mat.times (1 / u.len ^ 2) Lap.1) (-P.diff.implicitCoeff * (u.len * u.vel * P.nu))) (1 / (u.time * P.dt)) =
              Mat.times (u.vel / u.len) (Mat.shift (Mat.scale Lap.1 (-P.diff.implicitCoeff * P.nu)) (1 / P.dt)) := by
            have h1 : 1 / (u.time * P.dt) = u.vel / u.len * (1 / P.dt) := by
              unfold Scales.time
              rw [one_div, mul_inv, inv_div, one_div]
            have h2 : ∀ i j, -P.diff.implicitCoeff * (u.len * u.vel * P.nu) * (1 / u.len ^ 2 * Lap.1 i j) =
                u.vel / u.len * (-P.diff.implicitCoeff * P.nu * Lap.1 i j) := by
              intro i j
              field_simp
            funext i j
            simp only [Mat.shift, Mat.scale, Mat.times, h1, h2]
            split_ifs
            · ring
            · rfl
          have e4 : setNullSpace P.pType (Mat.times (u.area L.dim / u.vel) (Mat.mul L.UN D.1 (Mat.mul L.UN Bn Gr))) =
              (fun i j => u.row L.dim (setNullSpace P.pType (Mat.mul L.UN D.1 (Mat.mul L.UN Bn Gr))).2 i *
                (setNullSpace P.pType (Mat.mul L.UN D.1 (Mat.mul L.UN Bn Gr))).1 i j, (setNullSpace P.pType (Mat.mul L.UN D.1 (Mat.mul L.UN Bn Gr))).2) := by
            generalize Mat.mul L.UN D.1 (Mat.mul L.UN Bn Gr) = M
            cases P.pType with
            | ksp =>
              refine Prod.ext (funext fun i => funext fun j => ?_) rfl
              simp only [setNullSpace, Scales.row, Mat.times, Bool.false_eq_true, false_and, if_false]
            | amgx =>
              refine Prod.ext (funext fun i => funext fun j => ?_) rfl
              simp only [setNullSpace, Scales.row, Mat.times, Mat.zeroRowColumn, true_and]
              by_cases hi : i = 0
              · by_cases hj : j = 0
                · simp [hi, hj]
                · simp [hi, hj]
              · by_cases hj : j = 0
                · simp [hi, hj]
                · simp [hi, hj]
          simp only [Except.map, e1, e2, e3, e4]
          rfl

omit hl hv hd in
theorem vecSwap_scaled (h : (ℤ → K) → ℤ → K) (l : List (ℤ → K)) (i j : ℕ) : vecSwap (l.map h) i j = (vecSwap l i j).map (List.map h) := by
  unfold vecSwap
  rw [List.getElem?_map, List.getElem?_map]
  cases l[i]? with
  | none => rfl
  | some x =>
    cases l[j]? with
    | none => rfl
    | some y =>
      change Except.ok _ = Except.ok _
      rw [List.map_set, List.map_set]

omit hl hv hd in
theorem swapLoop_scaled (h : (ℤ → K) → ℤ → K) (i : ℕ) (l : List (ℤ → K)) : swapLoop (l.map h) i = (swapLoop l i).map (List.map h) := by
  induction i generalizing l with
  | zero => rfl
  | succ i ih =>
    unfold swapLoop
    rw [vecSwap_scaled]
    cases vecSwap l (i + 1) i with
    | error _ => rfl
    | ok l' => exact ih l'

omit hl hv hd in
theorem addTerms_scaled (coeffs : List K) (terms : List (ℤ → K)) (rhs : ℤ → K) :
    addTerms coeffs (terms.map fun x i => c * x i) (fun n => c * rhs n) = (addTerms coeffs terms rhs).map fun x i => c * x i := by
  unfold addTerms
  rw [List.length_map]
  generalize List.range terms.length = l
  induction l generalizing rhs with
  | nil => rfl
  | cons i l ih =>
    rw [List.foldlM_cons, List.foldlM_cons, List.getElem?_map]
    cases coeffs[i]? with
    | none => rfl
    | some a =>
      cases terms[i]? with
      | none => rfl
      | some x =>
        have := ih fun n => rhs n + a * x n
        refine Eq.trans ?_ this
        change List.foldlM _ _ l = List.foldlM _ _ l
        congr 1
        funext n
        ring

omit hl hv hd in
theorem vec_scaled (N : ℕ) (x : ℤ → K) : vec N (fun i => c * x i) = fun i => c * vec N x i := by
  funext i
  unfold vec
  split_ifs
  · rfl
  · rw [mul_zero]

theorem updateConv_units (s : NSState K) :
    updateConv L (u.geom L.dim G) (u.state L.dim s) =
      (updateConv L G s).map fun x => (x.1.map fun x i => u.acc * x i, fun r f i => u.vel * x.2 r f i) := by
  unfold updateConv
  rw [show (u.state L.dim s).conv = s.conv.map (fun (x : ℤ → K) i => u.acc * x i) from rfl, List.length_map, swapLoop_scaled]
  cases swapLoop s.conv (s.conv.length - 1) with
  | error _ => rfl
  | ok conv =>
    cases conv with
    | nil => rfl
    | cons a rest =>
      simp only [Except.map, bind, Except.bind, List.map_cons, Scales.state]
      rw [convectionMult_units hd]
      cases convectionMult L G s.B s.loc s.U a with
      | error _ => rfl
      | ok y =>
        simp only [Except.map, pure, Except.pure, Except.ok.injEq, Prod.mk.injEq, List.map_cons, List.cons.injEq, and_true]
        constructor
        · funext i; ring
        · funext r
          exact convectionLocal_units _ _ _ _

theorem updateDiff_units (s : NSState K) :
    updateDiff L (u.len * u.vel * P.nu) (u.ops L.dim ops) (u.state L.dim s) = (updateDiff L P.nu ops s).map (List.map fun x i => u.acc * x i) := by
  unfold updateDiff
  rw [show (u.state L.dim s).diff = s.diff.map (fun (x : ℤ → K) i => u.acc * x i) from rfl, List.length_map, swapLoop_scaled]
  cases swapLoop s.diff (s.diff.length - 1) with
  | error _ => rfl
  | ok diff =>
    cases diff with
    | nil => rfl
    | cons a rest =>
      simp only [Except.map, bind, Except.bind, List.map_cons, pure, Except.pure, Except.ok.injEq, List.cons.injEq, and_true]
      rw [← vec_scaled]
      congr 1
      funext i
      simp only [Scales.state, Scales.ops]
      rw [mult_times, correctionMult_units]
      unfold Scales.acc
      field_simp

theorem rhs_units (s : NSState K) :
    assembleRHSVelocity L (u.geom L.dim G) (u.params P) (u.ops L.dim ops) (u.state L.dim s) =
      (assembleRHSVelocity L G P ops s).map fun x => (fun i => u.acc * x.1 i, u.state L.dim x.2) := by
  unfold assembleRHSVelocity
  simp only [Scales.params, updateConv_units hl hv hd, updateDiff_units hl hv hd, bind, Except.bind]
  cases updateConv L G s with
  | error _ => rfl
  | ok cl =>
    simp only [Except.map]
    have e1 : (fun i => vec L.UN (fun i => -1 * Mat.mult (u.ops L.dim ops).pN (u.ops L.dim ops).G (u.state L.dim s).p i) i +
          1 / (u.time * P.dt) * (u.state L.dim s).U i) =
        fun i => u.acc * (vec L.UN (fun i => -1 * Mat.mult ops.pN ops.G s.p i) i + 1 / P.dt * s.U i) := by
      have h1 : (fun i => -1 * Mat.mult (u.ops L.dim ops).pN (u.ops L.dim ops).G (u.state L.dim s).p i) =
          fun i => u.acc * (-1 * Mat.mult ops.pN ops.G s.p i) := by
        funext i
        simp only [Scales.state, Scales.ops]
        rw [mult_times]
        unfold Scales.acc
        ring
      have h2 : 1 / (u.time * P.dt) = u.vel / u.len * (1 / P.dt) := by
        unfold Scales.time
        rw [one_div, mul_inv, inv_div, one_div]
      funext i
      rw [h1, vec_scaled, h2]
      simp only [Scales.state]
      unfold Scales.acc
      ring
    rw [e1, addTerms_scaled]
    cases addTerms P.conv.explicitCoeffs cl.1 fun i => vec L.UN (fun i => -1 * Mat.mult ops.pN ops.G s.p i) i + 1 / P.dt * s.U i with
    | error _ => rfl
    | ok r1 =>
      simp only [Except.map]
      cases updateDiff L P.nu ops s with
      | error _ => rfl
      | ok df =>
        simp only
        rw [addTerms_scaled]
        cases addTerms P.diff.explicitCoeffs df r1 with
        | error _ => rfl
        | ok r2 =>
          simp only [Except.map, pure, Except.pure, Except.ok.injEq, Prod.mk.injEq]
          have eB : (fun r => ((u.state L.dim s).B r).updateEqs (u.state L.dim s).U (u.time * P.dt)) =
              fun r => u.boundary L.dim ((s.B r).updateEqs s.U P.dt) := by
            funext r
            exact updateEqs_units hl hv _ _ _ _
          rw [eB]
          constructor
          · have e2 : (fun i => u.len * u.vel * P.nu * correctionMult L (fun r => u.boundary L.dim ((s.B r).updateEqs s.U P.dt)) (u.ops L.dim ops).Lmods i) =
                fun i => u.acc * (P.nu * correctionMult L (fun r => (s.B r).updateEqs s.U P.dt) ops.Lmods i) := by
              funext i
              simp only [Scales.ops]
              rw [correctionMult_units]
              unfold Scales.acc
              field_simp
            funext i
            rw [e2, vec_scaled]
            ring
          · rfl

omit hd in
/-- The right-hand side of the system for the pressure in other units. -/
theorem rhsPoisson_units (s : NSState K) : assembleRHSPoisson L (u.ops L.dim ops) (u.state L.dim s) =
    fun i => u.row L.dim ops.isRefP i * u.vel ^ 2 * assembleRHSPoisson L ops s i := by
  have e : ∀ i, vec ops.pN (fun i => Mat.mult L.UN (Mat.times (u.area L.dim) ops.D) (fun i => u.vel * s.U i) i +
      correctionMult L (fun r => u.boundary L.dim (s.B r)) (Scales.mods (u.area L.dim) ops.Dmods) i) i =
      u.area L.dim / u.vel * u.vel ^ 2 * vec ops.pN (fun i => Mat.mult L.UN ops.D s.U i + correctionMult L s.B ops.Dmods i) i := by
    intro i
    have h := congrFun (vec_scaled (c := u.area L.dim / u.vel * u.vel ^ 2) ops.pN
      fun i => Mat.mult L.UN ops.D s.U i + correctionMult L s.B ops.Dmods i) i
    refine Eq.trans (congrFun (congrArg _ (funext fun i => ?_)) i) h
    rw [mult_times, correctionMult_units]
    field_simp
  unfold assembleRHSPoisson
  funext i
  by_cases hr : ops.isRefP = true
  swap
  · rw [if_neg (show ¬ (u.ops L.dim ops).isRefP = true from hr), if_neg hr, Scales.row, if_neg fun h => hr h.1]
    exact e i
  · rw [if_pos (show (u.ops L.dim ops).isRefP = true from hr), if_pos hr]
    simp only [Scales.row, hr, true_and]
    by_cases hi : i = 0
    · subst hi
      simp
    · rw [Function.update_of_ne hi, Function.update_of_ne hi, if_neg hi]
      exact e i

omit hd in
/-- The system for the pressure in other units. -/
theorem pressure_units (hP : UnitFree pSolve) (hR : ops.isRefP = true → RowFree pSolve) (s : NSState K) (guess : ℤ → K) :
    pSolve (u.ops L.dim ops).DBNG (fun i => u.vel ^ 2 * guess i) (assembleRHSPoisson L (u.ops L.dim ops) (u.state L.dim s)) =
      (pSolve ops.DBNG guess (assembleRHSPoisson L ops s)).map fun x i => u.vel ^ 2 * x i := by
  have ha : u.area L.dim ≠ 0 := pow_ne_zero _ hl
  rw [rhsPoisson_units hl hv]
  cases hr : ops.isRefP with
  | false =>
    have := hP (u.area L.dim / u.vel) (u.vel ^ 2) (div_ne_zero ha hv) (pow_ne_zero _ hv) ops.DBNG guess (assembleRHSPoisson L ops s)
    simp only [Scales.ops, Scales.row, hr, Bool.false_eq_true, false_and, if_false]
    exact this
  | true =>
    have := hR hr (u.row L.dim true) (u.vel ^ 2)
      (fun i => by unfold Scales.row; split_ifs; exacts [one_ne_zero, div_ne_zero ha hv]) (pow_ne_zero _ hv) ops.DBNG guess (assembleRHSPoisson L ops s)
    simp only [Scales.ops, hr]
    exact this

/-- One step in other units. -/
theorem advance_units (hV : UnitFree vSolve) (hP : UnitFree pSolve) (hR : ops.isRefP = true → RowFree pSolve) (s : NSState K) :
    advance L (u.geom L.dim G) (u.params P) (u.ops L.dim ops) vSolve pSolve (u.state L.dim s) =
      (advance L G P ops vSolve pSolve s).map (u.state L.dim) := by
  have ha : u.area L.dim ≠ 0 := pow_ne_zero _ hl
  unfold advance
  have e0 : ({ u.state L.dim s with t := (u.state L.dim s).t + (u.params P).dt, ite := (u.state L.dim s).ite + 1 } : NSState K) =
      u.state L.dim { s with t := s.t + P.dt, ite := s.ite + 1 } := by
    simp only [Scales.state, Scales.params, NSState.mk.injEq, true_and, and_true]
    ring
  simp only [bind, Except.bind]
  rw [e0, rhs_units hl hv hd]
  cases assembleRHSVelocity L G P ops { s with t := s.t + P.dt, ite := s.ite + 1 } with
  | error _ => rfl
  | ok q =>
    obtain ⟨rhs1, s1⟩ := q
    simp only [Except.map]
    have eV : vSolve (u.ops L.dim ops).A (u.state L.dim s1).U (fun i => u.acc * rhs1 i) = (vSolve ops.A s1.U rhs1).map fun x i => u.vel * x i :=
      hV (u.vel / u.len) u.vel (div_ne_zero hv hl) hv ops.A s1.U rhs1
    rw [eV]
    cases vSolve ops.A s1.U rhs1 with
    | error _ => rfl
    | ok U =>
      simp only [Except.map]
      rw [vec_scaled]
      have eP := pressure_units (L := L) hl hv hP hR { s1 with U := vec L.UN U } s1.dP
      have eP' : pSolve (u.ops L.dim ops).DBNG (u.state L.dim s1).dP
          (assembleRHSPoisson L (u.ops L.dim ops) { u.state L.dim s1 with U := fun i => u.vel * vec L.UN U i }) =
          (pSolve ops.DBNG s1.dP (assembleRHSPoisson L ops { s1 with U := vec L.UN U })).map fun x i => u.vel ^ 2 * x i := eP
      rw [eP']
      cases pSolve ops.DBNG s1.dP (assembleRHSPoisson L ops { s1 with U := vec L.UN U }) with
      | error _ => rfl
      | ok dP =>
        simp only [Except.map, pure, Except.pure, Except.ok.injEq]
        have e3 : vec (u.ops L.dim ops).pN (fun i => u.vel ^ 2 * dP i) = fun i => u.vel ^ 2 * vec ops.pN dP i := vec_scaled _ _
        have e4 : Mat.mult (u.ops L.dim ops).pN (u.ops L.dim ops).BNG (fun i => u.vel ^ 2 * vec ops.pN dP i) =
            fun i => u.vel * Mat.mult ops.pN ops.BNG (vec ops.pN dP) i := by
          funext i
          simp only [Scales.ops]
          rw [mult_times]
          field_simp
        rw [e3, e4, vec_scaled]
        have e5 : (fun i => u.vel * vec L.UN U i + -1 * (u.vel * vec L.UN (Mat.mult ops.pN ops.BNG (vec ops.pN dP)) i)) =
            fun i => u.vel * (vec L.UN U i + -1 * vec L.UN (Mat.mult ops.pN ops.BNG (vec ops.pN dP)) i) := by
          funext i
          ring
        simp only [Scales.state, e5, NSState.mk.injEq, true_and, and_true]
        constructor
        · funext i
          ring
        · funext r
          exact updateGhostValues_units hl hv _ _ _

/-- The start in other units. -/
theorem init_units (F : FlowNode K) (B : ℕ → Boundary K) :
    solverInit debug L (u.geom L.dim G) (u.params P) (some (u.flow F)) (fun r => u.boundary L.dim (B r)) =
      (solverInit debug L G P (some F) B).map fun x => (u.ops L.dim x.1, u.state L.dim x.2) := by
  unfold solverInit
  simp only [bind, Except.bind]
  rw [initial_units hl hv (by omega)]
  cases setInitialConditions L G (some F) (fun _ => 0) fun _ => 0 with
  | error _ => rfl
  | ok Up =>
    simp only [Except.map]
    have eB : (fun r => (u.boundary L.dim (B r)).setGhostICs fun i => u.vel * Up.1 i) = fun r => u.boundary L.dim ((B r).setGhostICs Up.1) := by
      funext r
      exact setGhostICs_units hl hv _ _ _
    rw [eB, operators_units hl hv hd]
    cases createOperators debug L G P fun r => (B r).setGhostICs Up.1 with
    | error _ => rfl
    | ok o =>
      simp only [Except.map, pure, Except.pure, Except.ok.injEq, Prod.mk.injEq, true_and, Scales.state, Scales.params, NSState.mk.injEq, List.map_replicate,
        mul_zero]

end Step

/-! ### Files -/

section Files

variable {file file' : H5File K} {d d' : Disk K} {path : String}

theorem get_scaled {name : String} (h : file'.data name = (file.data name).map (List.map (c * ·))) (n : ℕ) :
    file'.get name n = (file.get name n).map (List.map (c * ·)) := by
  unfold H5File.get
  rw [h]
  cases file.data name with
  | none => rfl
  | some v =>
    simp only [Option.map_some, List.length_map]
    split_ifs <;> rfl

/-- reading the vectors of a group -/
theorem readVecs_scaled (hd : d path = some file) (hd' : d' path = some file') {group : String}
    (h : ∀ i : ℕ, file'.data (group ++ toString i) = (file.data (group ++ toString i)).map (List.map (c * ·))) (m : ℕ) (sizes : List ℕ) :
    readHDF5Vecs d' path group ((List.range m).map toString) sizes =
      (readHDF5Vecs d path group ((List.range m).map toString) sizes).map (List.map (List.map (c * ·))) := by
  unfold readHDF5Vecs
  rw [hd, hd']
  refine mapM_scaled _ ?_
  rintro ⟨name, k⟩ hn
  obtain ⟨i, _, rfl⟩ := List.mem_map.1 (List.of_mem_zip hn).1
  exact get_scaled (h i) k

theorem packedVec_scaled (l : List K) : packedVec (l.map (c * ·)) = fun i => c * packedVec l i := by
  funext i
  unfold packedVec
  split_ifs
  · rw [List.getD_eq_getElem?_getD, List.getD_eq_getElem?_getD, List.getElem?_map]
    cases l[i.toNat]? <;> simp
  · rw [mul_zero]

theorem assignAll_scaled (l : List (List ℤ × List K)) (U : ℤ → K) :
    (l.map fun iv => (iv.1, iv.2.map (c * ·))).foldl (fun q iv => vecAssign q (iv.1.zip iv.2)) (fun i => c * U i) =
      fun i => c * l.foldl (fun q iv => vecAssign q (iv.1.zip iv.2)) U i := by
  induction l generalizing U with
  | nil => rfl
  | cons iv l ih =>
    rw [List.map_cons, List.foldl_cons, List.foldl_cons, ← ih]
    congr 1
    rw [← vecAssign_scaled]
    congr 1
    rw [List.zip_map_right]
    rfl

/-- reading a solution -/
theorem solutionRead_units (hd : L.dim = 2 ∨ L.dim = 3) (h1 : d path = some file) (h2 : d' path = some file') (hf : FileInUnits u file file')
    {U p V q : ℤ → K} (h : solutionRead L U p d path = .ok (V, q)) :
    solutionRead L (fun i => u.vel * U i) (fun i => u.vel ^ 2 * p i) d' path = .ok (fun i => u.vel * V i, fun i => u.vel ^ 2 * q i) := by
  obtain ⟨idx, e1, h⟩ := bind_ok h
  obtain ⟨pidx, e2, h⟩ := bind_ok h
  obtain ⟨vecs, e3, h⟩ := bind_ok h
  cases h
  have hlen : idx.length = L.dim := by
    rw [length_mapM e1, List.length_range]
  have hz : ((List.range L.dim).map fd2str ++ ["p"]).zip ((idx ++ [pidx]).map (·.length)) =
      ((List.range L.dim).map fd2str).zip (idx.map (·.length)) ++ [("p", pidx.length)] := by
    rw [List.map_append, List.zip_append (by simp [hlen])]
    rfl
  unfold readHDF5Vecs at e3
  rw [h1] at e3
  simp only [hz] at e3
  rw [List.mapM_append] at e3
  obtain ⟨vs, f1, e3⟩ := bind_ok e3
  obtain ⟨v', f2, e3⟩ := bind_ok e3
  cases e3
  obtain ⟨v, f3, f2⟩ := bind_ok f2
  cases f2
  have g1 : (((List.range L.dim).map fd2str).zip (idx.map (·.length))).mapM (fun ns => file'.get ("/" ++ ns.1) ns.2) =
      .ok (vs.map (List.map (u.vel * ·))) := by
    rw [mapM_scaled (g₁ := fun ns => file.get ("/" ++ ns.1) ns.2) (h := List.map (u.vel * ·)), f1]
    · rfl
    · rintro ⟨name, k⟩ hn
      obtain ⟨i, hi, rfl⟩ := List.mem_map.1 (List.of_mem_zip hn).1
      refine get_scaled (hf.velocity _ ?_) k
      have : i < 3 := by have := List.mem_range.1 hi; omega
      dsimp only
      interval_cases i <;> decide
  have g2 : file'.get "/p" pidx.length = .ok (v.map (u.vel ^ 2 * ·)) := by
    rw [get_scaled hf.pressure]
    have : file.get "/p" pidx.length = .ok v := f3
    rw [this]
    rfl
  unfold solutionRead
  rw [e1]
  simp only [bind, Except.bind, e2]
  unfold readHDF5Vecs
  rw [h2]
  simp only [hz]
  rw [List.mapM_append, g1]
  simp only [List.mapM_cons, List.mapM_nil, bind, Except.bind, pure, Except.pure]
  rw [show ("/" ++ "p" : String) = "/p" from by decide, g2]
  have hzip : ∀ (w : List (List K)) (z : List K), w.length = idx.length → idx.zip (w ++ [z]) = idx.zip w := by
    intro w z hw
    have := List.zip_append (l₁ := idx) (l₂ := w) (r₁ := []) (r₂ := [z]) hw.symm
    rw [List.append_nil] at this
    rw [this]
    simp
  have hvs : vs.length = idx.length := by
    rw [length_mapM f1, List.length_zip, List.length_map, List.length_map, List.length_range, hlen]
    omega
  simp only [List.reverse_singleton, List.getLast?_append, List.getLast?_singleton, Option.some_or, Except.ok.injEq, Prod.mk.injEq]
  refine ⟨?_, ?_⟩
  · rw [hzip _ _ (by rw [List.length_map]; exact hvs), hzip _ _ hvs, ← assignAll_scaled, List.zip_map_right]
    rfl
  · rw [← vecAssign_scaled, List.zip_map_right]
    rfl

/-- reading a file for a restart -/
theorem readRestart_units (hl : u.len ≠ 0) (hv : u.vel ≠ 0) (hd : L.dim = 2 ∨ L.dim = 3) (h1 : d path = some file) (h2 : d' path = some file')
    (hf : FileInUnits u file file') {s s' : NSState K} (h : readRestartDataHDF5 L s d path = .ok s') :
    readRestartDataHDF5 L (u.state L.dim s) d' path = .ok (u.state L.dim s') := by
  unfold readRestartDataHDF5 at h ⊢
  rw [h1] at h
  rw [h2]
  obtain ⟨⟨U, p⟩, e1, h⟩ := bind_ok h
  have ea : u.vel / u.time = u.acc := by
    unfold Scales.time Scales.acc
    field_simp
  have k1 : solutionRead L (u.state L.dim s).U (u.state L.dim s).p d' path = .ok (fun i => u.vel * U i, fun i => u.vel ^ 2 * p i) :=
    solutionRead_units hd h1 h2 hf e1
  cases ep : file.data "/p" with
  | none => simp only [ep] at h; cases h
  | some v =>
  cases et : file.time with
  | none => simp only [ep, et] at h; cases h
  | some t =>
  simp only [ep, et] at h
  obtain ⟨t', e2, h⟩ := bind_ok h
  cases e2
  obtain ⟨cs, e3, h⟩ := bind_ok h
  obtain ⟨ds, e4, h⟩ := bind_ok h
  cases h
  have k3 := readVecs_scaled (c := u.acc) h1 h2 (group := "/convection/") (fun i => by rw [← ea]; exact hf.convection i) s.conv.length
    (List.replicate s.conv.length L.UN)
  have k4 := readVecs_scaled (c := u.acc) h1 h2 (group := "/diffusion/") (fun i => by rw [← ea]; exact hf.diffusion i) s.diff.length
    (List.replicate s.diff.length L.UN)
  rw [e3] at k3
  rw [e4] at k4
  simp only [bind, Except.bind]
  rw [k1, hf.pressure, hf.time, ep, et]
  simp only [Scales.state, List.length_map, Option.map_some]
  rw [k3, k4]
  simp only [Except.map, pure, Except.pure, Except.ok.injEq, NSState.mk.injEq, true_and, and_true, List.map_map]
  refine ⟨List.map_congr_left fun l _ => packedVec_scaled l, List.map_congr_left fun l _ => packedVec_scaled l, ?_⟩
  funext r
  exact setGhostICs_units hl hv _ _ _

end Files

end PetIBM
