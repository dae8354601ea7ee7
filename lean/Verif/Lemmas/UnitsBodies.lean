/-
C98: change of units for the solvers with bodies.
-/
import Verif.Lemmas.UnitsRun
import Verif.Lemmas.Kernel

namespace PetIBM

open Spec

set_option linter.unusedSectionVars false

variable {K : Type} [Field K] [LinearOrder K] [IsStrictOrderedRing K] {u : Scales K} {debug : Bool} {L : Layout} {G : Geom K} {c : K}
  {axes : ℕ → Axis K} {bodies : BodyPack K} {kernel : DeltaKernel K} {window : ℕ}

/-! ### Kernels -/

theorem roma_free : KernelFree romaEtAl1999 := by
  intro l hl r w
  unfold romaEtAl1999
  by_cases hw : w = 0
  · simp only [hw, mul_zero, if_true]
    rfl
  · have hx : |l * r| / (l * w) = |r| / w := by
      rw [abs_mul, abs_of_pos hl, mul_div_mul_left _ _ hl.ne']
    simp only [if_neg hw, if_neg (mul_ne_zero hl.ne' hw), hx]
    split_ifs
    · exact congrArg Except.ok (mul_zero _).symm
    · cases stdSqrt (-3 * (1 - |r| / w) * (1 - |r| / w) + 1) with
      | error _ => rfl
      | ok s =>
        change Except.ok _ = Except.ok _
        congr 1
        field_simp
    · cases stdSqrt (-3 * (|r| / w) * (|r| / w) + 1) with
      | error _ => rfl
      | ok s =>
        change Except.ok _ = Except.ok _
        congr 1
        field_simp

theorem peskin_free : KernelFree peskin2002 := by
  intro l hl r w
  unfold peskin2002
  by_cases hw : w = 0
  · simp only [hw, mul_zero, if_true]
    rfl
  · have hx : |l * r| / (l * w) = |r| / w := by
      rw [abs_mul, abs_of_pos hl, mul_div_mul_left _ _ hl.ne']
    simp only [if_neg hw, if_neg (mul_ne_zero hl.ne' hw), hx]
    split_ifs
    · cases stdSqrt (1 + 4 * (|r| / w) - 4 * (|r| / w) * (|r| / w)) with
      | error _ => rfl
      | ok s =>
        change Except.ok _ = Except.ok _
        congr 1
        field_simp
    · cases stdSqrt (-7 + 12 * (|r| / w) - 4 * (|r| / w) * (|r| / w)) with
      | error _ => rfl
      | ok s =>
        change Except.ok _ = Except.ok _
        congr 1
        field_simp
    · exact congrArg Except.ok (mul_zero _).symm

/-! ### Positions on the grid -/

theorem meshIndex_units (hl : 0 < u.len) (a : Axis K) (x : K) : SingleBody.meshIndex (u.axis a) (u.len * x) = SingleBody.meshIndex a x := by
  unfold SingleBody.meshIndex
  have h1 : ((u.axis a).min ≥ u.len * x ∨ (u.axis a).max ≤ u.len * x) ↔ (a.min ≥ x ∨ a.max ≤ x) := by
    change (u.len * a.min ≥ u.len * x ∨ u.len * a.max ≤ u.len * x) ↔ _
    rw [ge_iff_le, mul_le_mul_iff_right₀ hl, mul_le_mul_iff_right₀ hl]
  have h2 : SingleBody.upperBoundK ((vertexAxis (u.axis a)).coordTrue.take (vertexAxis (u.axis a)).n) (u.len * x) =
      SingleBody.upperBoundK ((vertexAxis a).coordTrue.take (vertexAxis a).n) x := by
    rw [vertexAxis_units]
    simp only [Scales.fieldAxis]
    rw [← List.map_take]
    unfold SingleBody.upperBoundK
    rw [List.takeWhile_map, List.length_map]
    congr 2
    funext b
    simp only [Function.comp, mul_le_mul_iff_right₀ hl]
  rw [h2]
  simp only [h1]

theorem updateMeshIdx_units (hl : 0 < u.len) (b : SingleBody K) (r : ℕ) :
    (u.body b).updateMeshIdx (fun d => u.axis (axes d)) r = b.updateMeshIdx axes r := by
  unfold SingleBody.updateMeshIdx
  change (List.range' (b.bgPt r) (b.nLclPts r)).mapM _ = _
  congr 1
  funext i
  change (List.range b.dim).mapM _ = _
  congr 1
  funext d
  change (match (b.coords.map (List.map (u.len * ·)))[i]? with
    | some x => _
    | none => _) = _
  rw [List.getElem?_map]
  cases b.coords[i]? with
  | none => rfl
  | some x =>
    simp only [Option.map_some, List.getElem?_map]
    cases x[d]? with
    | none => rfl
    | some v => exact meshIndex_units hl _ _

theorem packMeshIdx_units (hl : 0 < u.len) : (u.bodies bodies).updateMeshIdx (fun d => u.axis (axes d)) = bodies.updateMeshIdx axes := by
  unfold BodyPack.updateMeshIdx
  change (List.range bodies.mpiSize).mapM _ = _
  congr 1
  funext r
  change (bodies.bodies.map u.body).mapM _ = _
  rw [List.mapM_map]
  congr 1
  funext b
  exact updateMeshIdx_units hl b r

/-! ### The delta operator -/

theorem foldlM_scaled {g : K} {F F' : K → ℕ → Except Error K} (h : ∀ a b d, F' (b * a) d = (F a d).map (b * g * ·)) (l : List ℕ) (a b : K) :
    l.foldlM F' (b * a) = (l.foldlM F a).map (b * g ^ l.length * ·) := by
  induction l generalizing a b with
  | nil =>
    change Except.ok _ = Except.ok _
    rw [List.length_nil, pow_zero, mul_one]
  | cons d l ih =>
    rw [List.foldlM_cons, List.foldlM_cons, h]
    cases F a d with
    | error _ => rfl
    | ok q =>
      have := ih q (b * g)
      refine Eq.trans this ?_
      rw [List.length_cons, show b * g * g ^ l.length = b * g ^ (l.length + 1) by ring]
      rfl

theorem delta_units (hk : KernelFree kernel) (hl : 0 < u.len) (x y w : List K) :
    delta (x.map (u.len * ·)) (y.map (u.len * ·)) (w.map (u.len * ·)) kernel = (delta x y w kernel).map ((1 / u.len) ^ w.length * ·) := by
  unfold delta
  rw [List.length_map]
  have h := foldlM_scaled (g := 1 / u.len) (F := fun phi d =>
      match x[d]?, y[d]?, w[d]? with
      | some s, some t, some w => do
        let v ← kernel (s - t) w
        return phi * v
      | _, _, _ => .error .ub) (F' := fun phi d =>
      match (x.map (u.len * ·))[d]?, (y.map (u.len * ·))[d]?, (w.map (u.len * ·))[d]? with
      | some s, some t, some w => do
        let v ← kernel (s - t) w
        return phi * v
      | _, _, _ => .error .ub) (by
    intro a b d
    simp only [List.getElem?_map]
    cases x[d]? with
    | none => rfl
    | some s =>
      cases y[d]? with
      | none => rfl
      | some t =>
        cases w[d]? with
        | none => rfl
        | some v =>
          simp only [Option.map_some]
          rw [← mul_sub, hk u.len hl]
          cases kernel (s - t) v with
          | error _ => rfl
          | ok q =>
            simp only [Except.map, bind, Except.bind, pure, Except.pure, Except.ok.injEq]
            ring) (List.range w.length) 1 1
  rw [one_mul, one_mul, List.length_range] at h
  exact h

theorem meshCoord_units (h3d : L.dim ≤ 3) (f d : ℕ) (s : ℤ) :
    meshCoord L (fun d => u.axis (axes d)) f d s = (meshCoord L axes f d s).map (u.len * ·) := by
  unfold meshCoord
  rw [fieldAxis_units h3d]
  cases fieldAxis L.dim axes L.periodic f d with
  | error _ => rfl
  | ok A => exact ptrAt_map _ _ _ _

theorem meshWidth_units (h3d : L.dim ≤ 3) (f d : ℕ) (s : ℤ) :
    meshWidth L (fun d => u.axis (axes d)) f d s = (meshWidth L axes f d s).map (u.width L.dim f d * ·) := by
  unfold meshWidth
  rw [fieldAxis_units h3d]
  cases fieldAxis L.dim axes L.periodic f d with
  | error _ => rfl
  | ok A => exact ptrAt_map _ _ _ _

/-- A neighbour on the grid with its position in other units. -/
def scaleNeighbor (u : Scales K) (q : ℤ × K) : ℤ × K := (q.1, u.len * q.2)

theorem eulerianNeighbor_units (h3d : L.dim ≤ 3) (dof d : ℕ) (periodic : Bool) (s : ℤ) :
    eulerianNeighbor L (fun d => u.axis (axes d)) dof d periodic s = (eulerianNeighbor L axes dof d periodic s).map (List.map (scaleNeighbor u)) := by
  unfold eulerianNeighbor
  rw [meshCoord_units h3d]
  split_ifs
  · cases meshCoord L axes dof d s <;> rfl
  · cases meshCoord L axes dof d s with
    | error _ => rfl
    | ok x =>
      change Except.ok _ = Except.ok _
      simp only [Scales.axis, List.map_cons, List.map_nil, scaleNeighbor, ← mul_sub]
  · cases meshCoord L axes dof d s with
    | error _ => rfl
    | ok x =>
      change Except.ok _ = Except.ok _
      simp only [Scales.axis, List.map_cons, List.map_nil, scaleNeighbor, ← mul_sub, ← mul_add]
  · rfl

theorem eulerianNeighbors_units (h3d : L.dim ≤ 3) (dof d : ℕ) (I : ℤ) (periodic : Bool) :
    eulerianNeighbors L (fun d => u.axis (axes d)) dof d I periodic window =
      (eulerianNeighbors L axes dof d I periodic window).map (List.map (scaleNeighbor u)) := by
  unfold eulerianNeighbors
  simp only [bind, Except.bind]
  rw [mapM_scaled _ fun o _ => eulerianNeighbor_units h3d dof d periodic _]
  generalize List.mapM (m := Except Error) (fun o : ℕ => eulerianNeighbor L axes dof d periodic (I - window + o)) (List.range (2 * window + 1)) = R
  cases R with
  | error _ => rfl
  | ok l =>
    change Except.ok _ = Except.ok _
    rw [List.map_flatten]

/-- One entry of the delta operator. -/
def deltaEntry (debug : Bool) (L : Layout) (kernel : DeltaKernel K) (x w : List K) (dof : ℕ) (row : ℤ) (s : Stencil) (y : List K) :
    Except Error (Entry K) := do
  let col ← L.getPackedGlobalIndex debug dof s
  let val ← delta x y w kernel
  return (⟨row, col, val⟩ : Entry K)

theorem deltaEntry_units (hk : KernelFree kernel) (hl : 0 < u.len) {x w : List K} (hw : w.length = L.dim) (dof : ℕ) (row : ℤ) (s : Stencil) (y : List K) :
    deltaEntry debug L kernel (x.map (u.len * ·)) (w.map (u.len * ·)) dof row s (y.map (u.len * ·)) =
      (deltaEntry debug L kernel x w dof row s y).map (Entry.times ((1 / u.len) ^ L.dim)) := by
  unfold deltaEntry
  rw [delta_units hk hl, hw]
  cases L.getPackedGlobalIndex debug dof s with
  | error _ => rfl
  | ok col => cases delta x y w kernel <;> rfl

theorem deltaRow_units (hk : KernelFree kernel) (hl : 0 < u.len) {x w : List K} (hw : w.length = L.dim) (dof : ℕ) (row : ℤ) (nb : List (List (ℤ × K))) :
    deltaRow debug L kernel (x.map (u.len * ·)) (w.map (u.len * ·)) dof row (nb.map (List.map (scaleNeighbor u))) =
      (deltaRow debug L kernel x w dof row nb).map (List.map (Entry.times ((1 / u.len) ^ L.dim))) := by
  unfold deltaRow
  split_ifs
  · match nb with
    | [nx, ny, nz] =>
      have h : (nz.map (scaleNeighbor u)).mapM (fun k => (ny.map (scaleNeighbor u)).mapM fun j => (nx.map (scaleNeighbor u)).mapM fun i =>
          deltaEntry debug L kernel (x.map (u.len * ·)) (w.map (u.len * ·)) dof row ⟨k.1, j.1, i.1, 0⟩ [i.2, j.2, k.2]) =
          (nz.mapM fun k => ny.mapM fun j => nx.mapM fun i => deltaEntry debug L kernel x w dof row ⟨k.1, j.1, i.1, 0⟩ [i.2, j.2, k.2]).map
            (List.map (List.map (List.map (Entry.times ((1 / u.len) ^ L.dim))))) := by
        rw [List.mapM_map]
        refine mapM_scaled _ fun k _ => ?_
        simp only [Function.comp, List.mapM_map]
        refine mapM_scaled _ fun j _ => ?_
        simp only [Function.comp, List.mapM_map]
        exact mapM_scaled _ fun i _ => deltaEntry_units hk hl hw dof row _ [i.2, j.2, k.2]
      change ((nz.map (scaleNeighbor u)).mapM (fun k => (ny.map (scaleNeighbor u)).mapM fun j => (nx.map (scaleNeighbor u)).mapM fun i =>
          deltaEntry debug L kernel (x.map (u.len * ·)) (w.map (u.len * ·)) dof row ⟨k.1, j.1, i.1, 0⟩ [i.2, j.2, k.2])).bind
          (fun e => .ok e.flatten.flatten) =
        Except.map _ ((nz.mapM fun k => ny.mapM fun j => nx.mapM fun i =>
          deltaEntry debug L kernel x w dof row ⟨k.1, j.1, i.1, 0⟩ [i.2, j.2, k.2]).bind fun e => .ok e.flatten.flatten)
      rw [h]
      generalize List.mapM (m := Except Error) (fun k => ny.mapM fun j => nx.mapM fun i =>
        deltaEntry debug L kernel x w dof row ⟨k.1, j.1, i.1, 0⟩ [i.2, j.2, k.2]) nz = R
      cases R with
      | error _ => rfl
      | ok e =>
        change Except.ok _ = Except.ok _
        rw [List.map_flatten, List.map_flatten]
    | [] => rfl
    | [_] => rfl
    | [_, _] => rfl
    | _ :: _ :: _ :: _ :: _ => rfl
  · match nb with
    | [nx, ny] =>
      have h : (ny.map (scaleNeighbor u)).mapM (fun j => (nx.map (scaleNeighbor u)).mapM fun i =>
          deltaEntry debug L kernel (x.map (u.len * ·)) (w.map (u.len * ·)) dof row ⟨0, j.1, i.1, 0⟩ [i.2, j.2]) =
          (ny.mapM fun j => nx.mapM fun i => deltaEntry debug L kernel x w dof row ⟨0, j.1, i.1, 0⟩ [i.2, j.2]).map
            (List.map (List.map (Entry.times ((1 / u.len) ^ L.dim)))) := by
        rw [List.mapM_map]
        refine mapM_scaled _ fun j _ => ?_
        simp only [Function.comp, List.mapM_map]
        exact mapM_scaled _ fun i _ => deltaEntry_units hk hl hw dof row _ [i.2, j.2]
      change ((ny.map (scaleNeighbor u)).mapM (fun j => (nx.map (scaleNeighbor u)).mapM fun i =>
          deltaEntry debug L kernel (x.map (u.len * ·)) (w.map (u.len * ·)) dof row ⟨0, j.1, i.1, 0⟩ [i.2, j.2])).bind (fun e => .ok e.flatten) =
        Except.map _ ((ny.mapM fun j => nx.mapM fun i =>
          deltaEntry debug L kernel x w dof row ⟨0, j.1, i.1, 0⟩ [i.2, j.2]).bind fun e => .ok e.flatten)
      rw [h]
      generalize List.mapM (m := Except Error) (fun j => nx.mapM fun i =>
        deltaEntry debug L kernel x w dof row ⟨0, j.1, i.1, 0⟩ [i.2, j.2]) ny = R
      cases R with
      | error _ => rfl
      | ok e =>
        change Except.ok _ = Except.ok _
        rw [List.map_flatten]
    | [] => rfl
    | [_] => rfl
    | _ :: _ :: _ :: _ => rfl
  · rfl

theorem packIndex_units (b i d : ℤ) : (u.bodies bodies).getPackedGlobalIndex b i d = bodies.getPackedGlobalIndex b i d := by
  unfold BodyPack.getPackedGlobalIndex
  have e1 : (u.bodies bodies).findProc b i = bodies.findProc b i := by
    unfold BodyPack.findProc Scales.bodies
    simp only [List.length_map, List.getElem?_map]
    split_ifs
    · rfl
    · cases bodies.bodies[b.toNat]? <;> rfl
  have e2 : (u.bodies bodies).getGlobalIndex b i d = bodies.getGlobalIndex b i d := by
    unfold BodyPack.getGlobalIndex Scales.bodies
    simp only [List.length_map, List.getElem?_map]
    split_ifs
    · rfl
    · cases bodies.bodies[b.toNat]? <;> rfl
  have e3 : (u.bodies bodies).offsetsAllProcs = bodies.offsetsAllProcs := by
    have : (u.bodies bodies).nLclAllProcs = bodies.nLclAllProcs := by
      funext r
      unfold BodyPack.nLclAllProcs Scales.bodies
      simp only [List.foldl_map]
      rfl
    unfold BodyPack.offsetsAllProcs
    rw [this]
    rfl
  rw [e1, e2, e3]
  cases bodies.findProc b i with
  | error _ => rfl
  | ok p =>
    cases bodies.getGlobalIndex b i d with
    | error _ => rfl
    | ok q =>
      simp only [bind, Except.bind]
      by_cases hp : p < 0
      · simp only [if_pos hp]
      · simp only [if_neg hp]
        cases bodies.offsetsAllProcs[p.toNat]? with
        | none => rfl
        | some off =>
          simp only [Scales.bodies, List.getElem?_map]
          cases bodies.bodies[b.toNat]? with
          | none => rfl
          | some B =>
            simp only [Option.map_some]
            rw [← List.map_take, List.foldl_map]
            rfl

theorem deltaPeriodic_units (B : Boundary K) (d : ℕ) : deltaPeriodic (u.boundary L.dim B) d = deltaPeriodic B d := by
  unfold deltaPeriodic Scales.boundary
  rw [List.getElem?_map]
  cases B[0]? with
  | none => rfl
  | some l =>
    simp only [Option.map_some, List.getElem?_map]
    cases l[d]? <;> rfl

/-- The rows of one point. -/
def deltaPoint (debug : Bool) (L : Layout) (axes : ℕ → Axis K) (per : List Bool) (P : BodyPack K) (kernel : DeltaKernel K)
    (window : ℕ) (r bIdx : ℕ) (body : SingleBody K) (meshIdx : List (List ℤ)) (widths : List K) (iLcl : ℕ) : Except Error (List (List (Entry K))) :=
  let iGlb := body.bgPt r + iLcl
  match meshIdx[iLcl]?, body.coords[iGlb]? with
  | some IJK, some XYZ =>
    (List.range body.dim).mapM fun dof : ℕ => do
      let row ← P.getPackedGlobalIndex bIdx iGlb dof
      let nb ← (List.range L.dim).mapM fun d =>
        match IJK[d]?, per[d]? with
        | some I, some p => eulerianNeighbors L axes dof d I p window
        | _, _ => .error .ub
      deltaRow debug L kernel XYZ widths dof row nb
  | _, _ => .error .ub

theorem deltaPoint_units (hk : KernelFree kernel) (hl : 0 < u.len) (h3d : L.dim ≤ 3) (per : List Bool) (r bIdx : ℕ) (body : SingleBody K)
    (meshIdx : List (List ℤ)) {w : List K} (hw : w.length = L.dim) (iLcl : ℕ) :
    deltaPoint debug L (fun d => u.axis (axes d)) per (u.bodies bodies) kernel window r bIdx (u.body body) meshIdx (w.map (u.len * ·)) iLcl =
      (deltaPoint debug L axes per bodies kernel window r bIdx body meshIdx w iLcl).map (List.map (List.map (Entry.times ((1 / u.len) ^ L.dim)))) := by
  unfold deltaPoint
  have e1 : (u.body body).bgPt r = body.bgPt r := rfl
  have e2 : (u.body body).coords = body.coords.map (List.map (u.len * ·)) := rfl
  have e3 : (u.body body).dim = body.dim := rfl
  simp only [e1, e2, e3, List.getElem?_map]
  cases meshIdx[iLcl]? with
  | none => rfl
  | some IJK =>
    cases body.coords[body.bgPt r + iLcl]? with
    | none => rfl
    | some x =>
      simp only [Option.map_some]
      refine mapM_scaled _ fun dof _ => ?_
      rw [packIndex_units]
      cases bodies.getPackedGlobalIndex bIdx ((body.bgPt r + iLcl : ℕ) : ℤ) dof with
      | error _ => rfl
      | ok row =>
        simp only [bind, Except.bind]
        rw [mapM_scaled (h := List.map (scaleNeighbor u)) (g₁ := fun d => match IJK[d]?, per[d]? with
          | some I, some p => eulerianNeighbors L axes dof d I p window
          | _, _ => .error .ub)]
        · generalize List.mapM (m := Except Error) (fun d => match IJK[d]?, per[d]? with
            | some I, some p => eulerianNeighbors L axes dof d I p window
            | _, _ => .error .ub) (List.range L.dim) = R
          cases R with
          | error _ => rfl
          | ok nb => exact deltaRow_units hk hl hw dof row nb
        · intro d _
          cases IJK[d]? with
          | none => rfl
          | some I =>
            cases per[d]? with
            | none => rfl
            | some p => exact eulerianNeighbors_units h3d dof d I p

theorem deltaBody_units (hk : KernelFree kernel) (hl : 0 < u.len) (hd : L.dim = 2 ∨ L.dim = 3) (per : List Bool) (r bIdx : ℕ) (body : SingleBody K)
    (meshIdx : List (List ℤ)) :
    deltaBody debug L (fun d => u.axis (axes d)) per (u.bodies bodies) kernel window r bIdx (u.body body) meshIdx =
      (deltaBody debug L axes per bodies kernel window r bIdx body meshIdx).map (List.map (Entry.times ((1 / u.len) ^ L.dim))) := by
  unfold deltaBody
  simp only [bind, Except.bind]
  rw [mapM_scaled (h := (u.len * ·)) (g₁ := fun d => match meshIdx[0]? with
    | some I =>
      match I[d]? with
      | some m => meshWidth L axes 0 d m
      | none => .error .ub
    | none => .error .ub)]
  · generalize hR : List.mapM (m := Except Error) (fun d => match meshIdx[0]? with
      | some I =>
        match I[d]? with
        | some m => meshWidth L axes 0 d m
        | none => .error .ub
      | none => .error .ub) (List.range L.dim) = R
    cases R with
    | error _ => rfl
    | ok w =>
      have hw : w.length = L.dim := by rw [length_mapM hR, List.length_range]
      have h := mapM_scaled (List.range (body.nLclPts r)) fun i _ =>
        deltaPoint_units (debug := debug) (axes := axes) (bodies := bodies) (window := window) hk hl (by omega) per r bIdx body meshIdx hw i
      change Except.bind ((List.range (body.nLclPts r)).mapM fun i =>
          deltaPoint debug L (fun d => u.axis (axes d)) per (u.bodies bodies) kernel window r bIdx (u.body body) meshIdx (w.map (u.len * ·)) i)
          (fun rows => .ok rows.flatten.flatten) =
        Except.map _ (Except.bind ((List.range (body.nLclPts r)).mapM fun i =>
          deltaPoint debug L axes per bodies kernel window r bIdx body meshIdx w i) fun rows => .ok rows.flatten.flatten)
      rw [h]
      generalize List.mapM (m := Except Error) (fun i => deltaPoint debug L axes per bodies kernel window r bIdx body meshIdx w i)
        (List.range (body.nLclPts r)) = R
      cases R with
      | error _ => rfl
      | ok rows =>
        change Except.ok _ = Except.ok _
        rw [List.map_flatten, List.map_flatten]
  · intro d hd'
    cases meshIdx[0]? with
    | none => rfl
    | some I =>
      simp only
      cases I[d]? with
      | none => rfl
      | some m =>
        simp only
        rw [meshWidth_units (by omega), Scales.width, if_pos ⟨List.mem_range.1 hd', Or.inl (by omega)⟩]

theorem nPts_units : (u.bodies bodies).nPts = bodies.nPts := by
  unfold BodyPack.nPts Scales.bodies
  simp only [List.foldl_map]
  rfl

/-- The entries of the delta operator on one process. -/
def deltaRank (debug : Bool) (L : Layout) (axes : ℕ → Axis K) (B : ℕ → Boundary K) (P : BodyPack K)
    (meshIdx : ℕ → ℕ → List (List ℤ)) (kernel : DeltaKernel K) (window r : ℕ) : Except Error (List (Entry K)) := do
  let per ← (List.range L.dim).mapM fun d => deltaPeriodic (B r) d
  let e ← (List.range P.bodies.length).mapM fun bIdx =>
    match P.bodies[bIdx]? with
    | some body => deltaBody debug L axes per P kernel window r bIdx body (meshIdx r bIdx)
    | none => .error .ub
  return e.flatten

theorem deltaRank_units (hk : KernelFree kernel) (hl : 0 < u.len) (hd : L.dim = 2 ∨ L.dim = 3) (B : ℕ → Boundary K) (meshIdx : ℕ → ℕ → List (List ℤ))
    (r : ℕ) :
    deltaRank debug L (fun d => u.axis (axes d)) (fun r => u.boundary L.dim (B r)) (u.bodies bodies) meshIdx kernel window r =
      (deltaRank debug L axes B bodies meshIdx kernel window r).map (List.map (Entry.times ((1 / u.len) ^ L.dim))) := by
  unfold deltaRank
  simp only [deltaPeriodic_units, bind, Except.bind]
  generalize List.mapM (m := Except Error) (fun d => deltaPeriodic (B r) d) (List.range L.dim) = R
  cases R with
  | error _ => rfl
  | ok per =>
    have e : (u.bodies bodies).bodies.length = bodies.bodies.length := List.length_map ..
    simp only [e]
    rw [mapM_scaled (h := List.map (Entry.times ((1 / u.len) ^ L.dim))) (g₁ := fun bIdx => match bodies.bodies[bIdx]? with
      | some body => deltaBody debug L axes per bodies kernel window r bIdx body (meshIdx r bIdx)
      | none => .error .ub)]
    · generalize List.mapM (m := Except Error) (fun bIdx => match bodies.bodies[bIdx]? with
        | some body => deltaBody debug L axes per bodies kernel window r bIdx body (meshIdx r bIdx)
        | none => .error .ub) (List.range bodies.bodies.length) = R
      cases R with
      | error _ => rfl
      | ok l =>
        change Except.ok _ = Except.ok _
        rw [List.map_flatten]
    · intro b _
      have : (u.bodies bodies).bodies[b]? = (bodies.bodies[b]?).map u.body := List.getElem?_map ..
      rw [this]
      cases bodies.bodies[b]? with
      | none => rfl
      | some body => exact deltaBody_units hk hl hd per r b body _

theorem createDelta_units (hk : KernelFree kernel) (hl : 0 < u.len) (hd : L.dim = 2 ∨ L.dim = 3) (B : ℕ → Boundary K) (meshIdx : ℕ → ℕ → List (List ℤ)) :
    createDelta debug L (fun d => u.axis (axes d)) (fun r => u.boundary L.dim (B r)) (u.bodies bodies) meshIdx kernel window =
      (createDelta debug L axes B bodies meshIdx kernel window).map (Mat.times ((1 / u.len) ^ L.dim)) := by
  have h := mapM_scaled (List.range L.mpiSize) fun r _ => deltaRank_units (debug := debug) (axes := axes) (bodies := bodies) (window := window) hk hl hd B meshIdx r
  change Except.bind ((List.range L.mpiSize).mapM fun r =>
      deltaRank debug L (fun d => u.axis (axes d)) (fun r => u.boundary L.dim (B r)) (u.bodies bodies) meshIdx kernel window r)
      (fun entries => assemble ((u.bodies bodies).nPts * bodies.dim) L.UN entries.flatten []) =
    Except.map _ (Except.bind ((List.range L.mpiSize).mapM fun r => deltaRank debug L axes B bodies meshIdx kernel window r)
      fun entries => assemble (bodies.nPts * bodies.dim) L.UN entries.flatten [])
  rw [h]
  generalize List.mapM (m := Except Error) (fun r => deltaRank debug L axes B bodies meshIdx kernel window r) (List.range L.mpiSize) = R
  cases R with
  | error _ => rfl
  | ok e =>
    have := assemble_times (c := (1 / u.len) ^ L.dim) (bodies.nPts * bodies.dim) L.UN e.flatten []
    rw [List.map_nil, List.map_flatten] at this
    change assemble ((u.bodies bodies).nPts * bodies.dim) L.UN _ [] = _
    rw [nPts_units]
    exact this

/-! ### Diagonal matrices -/

theorem diagMatrix_units {κ κ' : ℕ → ℤ → ℤ → ℤ → K} (h : ∀ f i j k, f < L.dim → κ' f i j k = c * κ f i j k) :
    createDiagMatrix debug L κ' = (createDiagMatrix debug L κ).map (Mat.times c) := by
  unfold createDiagMatrix
  simp only [bind, Except.bind]
  rw [mapM_scaled (h := List.map (List.map (Entry.times c))) (g₁ := fun r => (List.range L.dim).mapM fun f => (L.box f r).mapM (diagEntry debug L κ f))]
  · generalize List.mapM (m := Except Error) (fun r => (List.range L.dim).mapM fun f => (L.box f r).mapM (diagEntry debug L κ f)) (List.range L.mpiSize) = R
    cases R with
    | error _ => rfl
    | ok e =>
      have := assemble_times (c := c) L.UN L.UN (e.flatMap fun a => a.flatMap id) []
      rw [List.map_nil] at this
      refine Eq.trans ?_ this
      change assemble L.UN L.UN _ [] = _
      congr 1
      rw [List.flatMap_map, List.map_flatMap]
      congr 1
      funext a
      rw [List.flatMap_map, List.map_flatMap]
      rfl
  · intro r _
    refine mapM_scaled _ fun f hf => mapM_scaled _ fun p _ => ?_
    obtain ⟨i, j, k⟩ := p
    unfold diagEntry
    simp only
    rw [h f i j k (List.mem_range.1 hf)]
    cases L.getPackedGlobalIndex debug f ⟨k, j, i, 1⟩ <;> rfl

theorem createR_units (hd : L.dim = 2 ∨ L.dim = 3) : createR debug L (u.geom L.dim G) = (createR debug L G).map (Mat.times (u.area L.dim)) := by
  refine diagMatrix_units fun f i j k hf => ?_
  rcases hd with h | h
  · rw [h] at hf ⊢
    interval_cases f
    · simp [Scales.geom, Scales.area]; ring
    · simp [Scales.geom, Scales.area]; ring
  · rw [h] at hf ⊢
    interval_cases f
    · simp [Scales.geom, Scales.area]; ring
    · simp [Scales.geom, Scales.area]; ring
    · simp [Scales.geom, Scales.area]; ring

theorem createMHead_units (hd : L.dim = 2 ∨ L.dim = 3) : createMHead debug L (u.geom L.dim G) = (createMHead debug L G).map (Mat.times u.len) := by
  refine diagMatrix_units fun f i j k hf => ?_
  rcases hd with h | h
  · rw [h] at hf ⊢
    interval_cases f
    · simp [Scales.geom]
    · simp [Scales.geom]
  · rw [h] at hf ⊢
    interval_cases f
    · simp [Scales.geom]
    · simp [Scales.geom]
    · simp [Scales.geom]

theorem createEH_units (hk : KernelFree kernel) (hl : 0 < u.len) (hd : L.dim = 2 ∨ L.dim = 3) (B : ℕ → Boundary K) (meshIdx : ℕ → ℕ → List (List ℤ)) :
    createEH debug L (u.geom L.dim G) (fun d => u.axis (axes d)) (fun r => u.boundary L.dim (B r)) (u.bodies bodies) meshIdx kernel window =
      (createEH debug L G axes B bodies meshIdx kernel window).map fun q => (q.1, Mat.times ((1 / u.len) ^ L.dim) q.2) := by
  unfold createEH
  rw [createR_units hd, createMHead_units hd, createDelta_units hk hl hd]
  cases createR debug L G with
  | error _ => rfl
  | ok R =>
    cases createMHead debug L G with
    | error _ => rfl
    | ok M =>
      cases createDelta debug L axes B bodies meshIdx kernel window with
      | error _ => rfl
      | ok Δ =>
        change Except.ok _ = Except.ok _
        congr 1
        refine Prod.ext ?_ rfl
        funext i j
        simp only [Mat.diagonalScale, Mat.diagonal, Mat.times]
        have : (1 / u.len) ^ L.dim * u.area L.dim * u.len = 1 := by
          unfold Scales.area
          rw [mul_assoc, ← pow_succ, show L.dim - 1 + 1 = L.dim by omega, ← mul_pow, one_div, inv_mul_cancel₀ hl.ne', one_pow]
        linear_combination (1 * Δ i j * R j j * M j j) * this

namespace Spec.Scales

/-- The matrices of the bodies in other units. -/
def ib (u : Scales K) (dim : ℕ) (o : IBOps K) : IBOps K :=
  { nF := o.nF, E := o.E, H := Mat.times ((1 / u.len) ^ dim) o.H, BNH := Mat.times (u.time * (1 / u.len) ^ dim) o.BNH,
    EBNH := Mat.times (u.time * (1 / u.len) ^ dim) o.EBNH }

/-- The state with bodies in other units. -/
def ibState (u : Scales K) (dim : ℕ) (s : IBState K) : IBState K :=
  { ns := u.state dim s.ns, f := fun i => u.force dim * s.f i, df := fun i => u.force dim * s.df i }

end Spec.Scales

variable {P : NSParams K} {ops : NSOps K} {ib : IBOps K} {vSolve fSolve pSolve : LinSolve K}

theorem mul_times_right (n : ℕ) (A B : Mat K) (b : K) : Mat.mul n A (Mat.times b B) = Mat.times b (Mat.mul n A B) := by
  funext i j
  unfold Mat.mul Mat.times
  rw [Finset.mul_sum]
  exact Finset.sum_congr rfl fun j _ => by ring

theorem mult_times_right (n : ℕ) (A : Mat K) (b : K) (x : ℤ → K) : Mat.mult n A (fun i => b * x i) = fun r => b * Mat.mult n A x r := by
  funext r
  unfold Mat.mult
  rw [Finset.mul_sum]
  exact Finset.sum_congr rfl fun j _ => by ring

theorem extraOperators_units (hk : KernelFree kernel) (hl : 0 < u.len) (hv : 0 < u.vel) (hd : L.dim = 2 ∨ L.dim = 3) (B : ℕ → Boundary K)
    (meshIdx : ℕ → ℕ → List (List ℤ)) :
    createExtraOperators debug L (u.geom L.dim G) (fun d => u.axis (axes d)) (u.params P) (u.ops L.dim ops) (fun r => u.boundary L.dim (B r))
        (u.bodies bodies) meshIdx kernel window =
      (createExtraOperators debug L G axes P ops B bodies meshIdx kernel window).map (u.ib L.dim) := by
  unfold createExtraOperators
  rw [createEH_units hk hl hd]
  cases createEH debug L G axes B bodies meshIdx kernel window with
  | error _ => rfl
  | ok EH =>
    have hl' := hl.ne'
    have hv' := hv.ne'
    have hb := bn_times L.UN ops.L P.dt (P.diff.implicitCoeff * P.nu) (1 / u.len ^ 2) u.time (u.len * u.vel) (by unfold Scales.time; field_simp) P.BN
    rw [show u.len * u.vel * (P.diff.implicitCoeff * P.nu) = P.diff.implicitCoeff * (u.len * u.vel * P.nu) by ring] at hb
    have hb' : createBnHead L.UN (u.ops L.dim ops).L (u.params P).dt ((u.params P).diff.implicitCoeff * (u.params P).nu) (u.params P).BN =
        (createBnHead L.UN ops.L P.dt (P.diff.implicitCoeff * P.nu) P.BN).map (Mat.times u.time) := hb
    simp only [Except.map, bind, Except.bind]
    rw [hb']
    cases createBnHead L.UN ops.L P.dt (P.diff.implicitCoeff * P.nu) P.BN with
    | error _ => rfl
    | ok Bn =>
      simp only [Except.map, pure, Except.pure, Except.ok.injEq]
      rw [mul_times, mul_times_right, nPts_units]
      rfl

theorem force_spread (hl : 0 < u.len) : (1 / u.len) ^ L.dim * u.force L.dim = u.vel / u.time := by
  unfold Scales.force
  rw [mul_left_comm, ← mul_pow, one_div, inv_mul_cancel₀ hl.ne', one_pow, mul_one]

theorem acc_time (hl : u.len ≠ 0) (hv : u.vel ≠ 0) : u.vel / u.time = u.acc := by
  unfold Scales.time Scales.acc
  field_simp

theorem decoupledAdvance_units (hl : 0 < u.len) (hv : 0 < u.vel) (hd : L.dim = 2 ∨ L.dim = 3) (hV : UnitFree vSolve) (hF : UnitFree fSolve)
    (hP : UnitFree pSolve) (hR : ops.isRefP = true → RowFree pSolve) (UB : Option (ℤ → K)) (s : IBState K) :
    decoupledAdvance L (u.geom L.dim G) (u.params P) (u.ops L.dim ops) (u.ib L.dim ib) (UB.map fun x i => u.vel * x i) vSolve fSolve pSolve
        (u.ibState L.dim s) =
      (decoupledAdvance L G P ops ib UB vSolve fSolve pSolve s).map (u.ibState L.dim) := by
  have hl' := hl.ne'
  have hv' := hv.ne'
  unfold decoupledAdvance
  have e0 : ({ (u.ibState L.dim s).ns with t := (u.ibState L.dim s).ns.t + (u.params P).dt, ite := (u.ibState L.dim s).ns.ite + 1 } : NSState K) =
      u.state L.dim { s.ns with t := s.ns.t + P.dt, ite := s.ns.ite + 1 } := by
    simp only [Scales.ibState, Scales.state, Scales.params, NSState.mk.injEq, true_and, and_true]
    ring
  simp only [bind, Except.bind]
  rw [e0, rhs_units hl' hv' hd]
  cases assembleRHSVelocity L G P ops { s.ns with t := s.ns.t + P.dt, ite := s.ns.ite + 1 } with
  | error _ => rfl
  | ok q =>
    obtain ⟨rhs1, s1⟩ := q
    simp only [Except.map]
    have e1 : (fun i => u.acc * rhs1 i + vec L.UN (Mat.mult (u.ib L.dim ib).nF (u.ib L.dim ib).H (u.ibState L.dim s).f) i) =
        fun i => u.acc * (rhs1 i + vec L.UN (Mat.mult ib.nF ib.H s.f) i) := by
      have : Mat.mult (u.ib L.dim ib).nF (u.ib L.dim ib).H (u.ibState L.dim s).f = fun i => u.acc * Mat.mult ib.nF ib.H s.f i := by
        funext i
        simp only [Scales.ib, Scales.ibState]
        rw [mult_times, force_spread hl, acc_time hl' hv']
      funext i
      rw [this, vec_scaled]
      ring
    rw [e1]
    have eV : vSolve (u.ops L.dim ops).A (u.state L.dim s1).U (fun i => u.acc * (rhs1 i + vec L.UN (Mat.mult ib.nF ib.H s.f) i)) =
        (vSolve ops.A s1.U fun i => rhs1 i + vec L.UN (Mat.mult ib.nF ib.H s.f) i).map fun x i => u.vel * x i :=
      hV (u.vel / u.len) u.vel (div_ne_zero hv' hl') hv' ops.A s1.U _
    rw [eV]
    cases vSolve ops.A s1.U fun i => rhs1 i + vec L.UN (Mat.mult ib.nF ib.H s.f) i with
    | error _ => rfl
    | ok U =>
      simp only [Except.map]
      rw [vec_scaled]
      have ht : u.time ≠ 0 := div_ne_zero hl' hv'
      have hα : u.time * (1 / u.len) ^ L.dim ≠ 0 := mul_ne_zero ht (pow_ne_zero _ (one_div_ne_zero hl'))
      have hc : u.force L.dim ≠ 0 := mul_ne_zero (div_ne_zero hv' ht) (pow_ne_zero _ hl')
      have hαc : u.time * (1 / u.len) ^ L.dim * u.force L.dim = u.vel := by
        rw [mul_assoc, force_spread hl]
        field_simp
      have e2 : assembleRHSForces L (u.ib L.dim ib) (UB.map fun x i => u.vel * x i) (fun i => u.vel * vec L.UN U i) =
          fun i => u.time * (1 / u.len) ^ L.dim * u.force L.dim * assembleRHSForces L ib UB (vec L.UN U) i := by
        rw [hαc]
        unfold assembleRHSForces
        have : vec (u.ib L.dim ib).nF (Mat.mult L.UN (u.ib L.dim ib).E fun i => u.vel * vec L.UN U i) =
            fun i => u.vel * vec ib.nF (Mat.mult L.UN ib.E (vec L.UN U)) i := by
          rw [mult_times_right, vec_scaled]
          rfl
        rw [this]
        cases UB with
        | none =>
          funext i
          simp only [Option.map_none]
          ring
        | some ub =>
          funext i
          simp only [Option.map_some]
          ring
      rw [e2]
      have eF : fSolve (u.ib L.dim ib).EBNH (u.ibState L.dim s).df
          (fun i => u.time * (1 / u.len) ^ L.dim * u.force L.dim * assembleRHSForces L ib UB (vec L.UN U) i) =
          (fSolve ib.EBNH s.df (assembleRHSForces L ib UB (vec L.UN U))).map fun x i => u.force L.dim * x i :=
        hF _ _ hα hc ib.EBNH s.df _
      rw [eF]
      cases fSolve ib.EBNH s.df (assembleRHSForces L ib UB (vec L.UN U)) with
      | error _ => rfl
      | ok df =>
        simp only [Except.map]
        have e3 : vec (u.ib L.dim ib).nF (fun i => u.force L.dim * df i) = fun i => u.force L.dim * vec ib.nF df i := vec_scaled _ _
        obtain ⟨V, eV⟩ : ∃ V : ℤ → K, ∀ i, vec L.UN U i + vec L.UN (Mat.mult ib.nF ib.BNH (vec ib.nF df)) i = V i := ⟨_, fun _ => rfl⟩
        have e4 : ∀ i, u.vel * vec L.UN U i + vec L.UN (Mat.mult (u.ib L.dim ib).nF (u.ib L.dim ib).BNH fun i => u.force L.dim * vec ib.nF df i) i =
            u.vel * V i := by
          have : Mat.mult (u.ib L.dim ib).nF (u.ib L.dim ib).BNH (fun i => u.force L.dim * vec ib.nF df i) =
              fun i => u.vel * Mat.mult ib.nF ib.BNH (vec ib.nF df) i := by
            funext i
            simp only [Scales.ib]
            rw [mult_times, hαc]
          intro i
          rw [this, vec_scaled, ← eV]
          ring
        simp only [e3, e4, eV]
        have eP : pSolve (u.ops L.dim ops).DBNG (u.state L.dim s1).dP
            (assembleRHSPoisson L (u.ops L.dim ops) { u.state L.dim s1 with U := fun i => u.vel * V i }) =
            (pSolve ops.DBNG s1.dP (assembleRHSPoisson L ops { s1 with U := V })).map fun x i => u.vel ^ 2 * x i :=
          pressure_units (L := L) hl' hv' hP hR { s1 with U := V } s1.dP
        rw [eP]
        cases pSolve ops.DBNG s1.dP (assembleRHSPoisson L ops { s1 with U := V }) with
        | error _ => rfl
        | ok dP =>
          simp only [Except.map, pure, Except.pure, Except.ok.injEq]
          have e5 : vec (u.ops L.dim ops).pN (fun i => u.vel ^ 2 * dP i) = fun i => u.vel ^ 2 * vec ops.pN dP i := vec_scaled _ _
          have e6 : Mat.mult (u.ops L.dim ops).pN (u.ops L.dim ops).BNG (fun i => u.vel ^ 2 * vec ops.pN dP i) =
              fun i => u.vel * Mat.mult ops.pN ops.BNG (vec ops.pN dP) i := by
            funext i
            simp only [Scales.ops]
            rw [mult_times]
            field_simp
          rw [e5, e6, vec_scaled]
          have e7 : (fun i => u.vel * V i + -1 * (u.vel * vec L.UN (Mat.mult ops.pN ops.BNG (vec ops.pN dP)) i)) =
              fun i => u.vel * (V i + -1 * vec L.UN (Mat.mult ops.pN ops.BNG (vec ops.pN dP)) i) := by
            funext i
            ring
          simp only [Scales.ibState, Scales.state, e7, IBState.mk.injEq, NSState.mk.injEq, true_and, and_true]
          refine ⟨⟨?_, ?_⟩, ?_⟩
          · funext i
            ring
          · funext r
            exact updateGhostValues_units hl' hv' _ _ _
          · funext i
            ring

theorem decoupledInit_units (hk : KernelFree kernel) (hl : 0 < u.len) (hv : 0 < u.vel) (hd : L.dim = 2 ∨ L.dim = 3) (F : FlowNode K) (B : ℕ → Boundary K) :
    decoupledInit debug L (u.geom L.dim G) (fun d => u.axis (axes d)) (u.params P) (some (u.flow F)) (fun r => u.boundary L.dim (B r)) (u.bodies bodies)
        kernel window =
      (decoupledInit debug L G axes P (some F) B bodies kernel window).map fun x => (u.ops L.dim x.1, u.ib L.dim x.2.1, u.ibState L.dim x.2.2) := by
  unfold decoupledInit
  rw [init_units hl.ne' hv.ne' hd, packMeshIdx_units hl]
  cases solverInit debug L G P (some F) B with
  | error _ => rfl
  | ok q =>
    obtain ⟨o, ns⟩ := q
    cases bodies.updateMeshIdx axes with
    | error _ => rfl
    | ok idx =>
      have := extraOperators_units (debug := debug) (G := G) (axes := axes) (bodies := bodies) (window := window) (P := P) (ops := o) hk hl hv hd ns.B
        (meshIdxAt idx)
      simp only [Except.map, bind, Except.bind]
      have this' : createExtraOperators debug L (u.geom L.dim G) (fun d => u.axis (axes d)) (u.params P) (u.ops L.dim o) (u.state L.dim ns).B
        (u.bodies bodies) (meshIdxAt idx) kernel window =
        (createExtraOperators debug L G axes P o ns.B bodies (meshIdxAt idx) kernel window).map (u.ib L.dim) := this
      rw [this']
      cases createExtraOperators debug L G axes P o ns.B bodies (meshIdxAt idx) kernel window with
      | error _ => rfl
      | ok ib =>
        simp only [Except.map, pure, Except.pure, Except.ok.injEq, Prod.mk.injEq, true_and, Scales.ibState, IBState.mk.injEq, mul_zero]

/-- reading the files of a run with bodies -/
theorem decoupledReadRestart_units (hl : 0 < u.len) (hv : 0 < u.vel) (hd : L.dim = 2 ∨ L.dim = 3) {d d' : Disk K} {path : String} {file file' : H5File K}
    (h1 : d path = some file) (h2 : d' path = some file') (hf : FileInUnits u file file')
    (hg : file'.data "/force" = (file.data "/force").map (List.map (u.force L.dim * ·))) {s s' : IBState K}
    (h : decoupledReadRestart L ib s d path = .ok s') :
    decoupledReadRestart L (u.ib L.dim ib) (u.ibState L.dim s) d' path = .ok (u.ibState L.dim s') := by
  unfold decoupledReadRestart at h ⊢
  obtain ⟨ns, e1, h⟩ := bind_ok h
  obtain ⟨f, e2, h⟩ := bind_ok h
  have k1 : readRestartDataHDF5 L (u.ibState L.dim s).ns d' path = .ok (u.state L.dim ns) := readRestart_units hl.ne' hv.ne' hd h1 h2 hf e1
  have k2 : readHDF5Vecs d' path "/" ["force"] [(u.ib L.dim ib).nF] = (readHDF5Vecs d path "/" ["force"] [ib.nF]).map (List.map (List.map (u.force L.dim * ·))) := by
    unfold readHDF5Vecs
    rw [h1, h2]
    refine mapM_scaled _ ?_
    intro a ha
    rw [List.zip_cons_cons, List.zip_nil_left, List.mem_singleton] at ha
    subst ha
    exact get_scaled hg _
  rw [k1, k2, e2]
  match f with
  | [v] =>
    cases h
    change Except.ok _ = Except.ok _
    rw [packedVec_scaled]
    rfl
  | [] => cases h
  | _ :: _ :: _ => cases h

/-! ### Prescribed motion -/

namespace Spec.Scales

def rigid (u : Scales K) (dim : ℕ) (s : RigidState K) : RigidState K :=
  { toIBState := u.ibState dim s.toIBState, bodies := u.bodies s.bodies, UB := fun i => u.vel * s.UB i, ib := u.ib dim s.ib }

end Spec.Scales

variable {M M' : Motion K}

theorem moveBodies_units (hk : KernelFree kernel) (hl : 0 < u.len) (hv : 0 < u.vel) (hd : L.dim = 2 ∨ L.dim = 3) (hM : MotionInUnits u M M') (t : K)
    (s : RigidState K) :
    moveBodies debug L (u.geom L.dim G) (fun d => u.axis (axes d)) (u.params P) (u.ops L.dim ops) M' kernel window (u.time * t) (u.rigid L.dim s) =
      (moveBodies debug L G axes P ops M kernel window t s).map (u.rigid L.dim) := by
  unfold moveBodies
  have e1 : M'.coordinates (u.time * t) (u.rigid L.dim s).bodies = u.bodies (M.coordinates t s.bodies) := hM.coordinates _ _
  simp only [e1]
  have e2 : M'.velocity (u.time * t) (u.bodies (M.coordinates t s.bodies)) (u.rigid L.dim s).UB =
      fun i => u.vel * M.velocity t (M.coordinates t s.bodies) s.UB i := hM.velocity _ _ _
  rw [e2, packMeshIdx_units hl]
  cases (M.coordinates t s.bodies).updateMeshIdx axes with
  | error _ => rfl
  | ok idx =>
    have e3 : createExtraOperators debug L (u.geom L.dim G) (fun d => u.axis (axes d)) (u.params P) (u.ops L.dim ops) (u.rigid L.dim s).ns.B
        (u.bodies (M.coordinates t s.bodies)) (meshIdxAt idx) kernel window =
        (createExtraOperators debug L G axes P ops s.ns.B (M.coordinates t s.bodies) (meshIdxAt idx) kernel window).map (u.ib L.dim) :=
      extraOperators_units hk hl hv hd s.ns.B (meshIdxAt idx)
    simp only [bind, Except.bind]
    rw [e3]
    cases createExtraOperators debug L G axes P ops s.ns.B (M.coordinates t s.bodies) (meshIdxAt idx) kernel window <;> rfl

theorem rigidAdvance_units (hk : KernelFree kernel) (hl : 0 < u.len) (hv : 0 < u.vel) (hd : L.dim = 2 ∨ L.dim = 3) (hM : MotionInUnits u M M')
    (hV : UnitFree vSolve) (hF : UnitFree fSolve) (hP : UnitFree pSolve) (hR : ops.isRefP = true → RowFree pSolve) (s : RigidState K) :
    rigidAdvance debug L (u.geom L.dim G) (fun d => u.axis (axes d)) (u.params P) (u.ops L.dim ops) M' kernel window vSolve fSolve pSolve
        (u.rigid L.dim s) =
      (rigidAdvance debug L G axes P ops M kernel window vSolve fSolve pSolve s).map (u.rigid L.dim) := by
  unfold rigidAdvance
  have e1 : (u.rigid L.dim s).ns.t + (u.params P).dt = u.time * (s.ns.t + P.dt) := (mul_add _ _ _).symm
  rw [e1, moveBodies_units hk hl hv hd hM]
  cases moveBodies debug L G axes P ops M kernel window (s.ns.t + P.dt) s with
  | error _ => rfl
  | ok q =>
    have e2 : decoupledAdvance L (u.geom L.dim G) (u.params P) (u.ops L.dim ops) (u.rigid L.dim q).ib (some (u.rigid L.dim q).UB) vSolve fSolve pSolve
        (u.rigid L.dim q).toIBState = (decoupledAdvance L G P ops q.ib (some q.UB) vSolve fSolve pSolve q.toIBState).map (u.ibState L.dim) :=
      decoupledAdvance_units hl hv hd hV hF hP hR (some q.UB) q.toIBState
    simp only [bind, Except.bind, Except.map]
    rw [e2]
    cases decoupledAdvance L G P ops q.ib (some q.UB) vSolve fSolve pSolve q.toIBState <;> rfl

end PetIBM
