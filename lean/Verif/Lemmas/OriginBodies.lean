/-
C99: bodies and a change of the origin.
-/
import Verif.Lemmas.Origin
import Verif.Lemmas.UnitsBodies
import Verif.Model.IbpmRun

namespace PetIBM

open Spec

set_option linter.unusedSectionVars false

variable {K : Type} [Field K] [LinearOrder K] [IsStrictOrderedRing K] {o : Origin K} {debug : Bool} {L : Layout} {G : Geom K} {axes : ℕ → Axis K}
  {bodies : BodyPack K} {kernel : DeltaKernel K} {window : ℕ}

/-! ### Positions on the grid -/

theorem meshIndex_origin (d : ℕ) (a : Axis K) (x : K) : SingleBody.meshIndex (o.axis d a) (x + o.shift d) = SingleBody.meshIndex a x := by
  unfold SingleBody.meshIndex
  have h1 : ((o.axis d a).min ≥ x + o.shift d ∨ (o.axis d a).max ≤ x + o.shift d) ↔ (a.min ≥ x ∨ a.max ≤ x) := by
    change (a.min + o.shift d ≥ x + o.shift d ∨ a.max + o.shift d ≤ x + o.shift d) ↔ _
    rw [ge_iff_le, add_le_add_iff_right, add_le_add_iff_right]
  have h2 : SingleBody.upperBoundK ((vertexAxis (o.axis d a)).coordTrue.take (vertexAxis (o.axis d a)).n) (x + o.shift d) =
      SingleBody.upperBoundK ((vertexAxis a).coordTrue.take (vertexAxis a).n) x := by
    rw [vertexAxis_origin]
    simp only
    rw [← List.map_take]
    unfold SingleBody.upperBoundK
    rw [List.takeWhile_map, List.length_map]
    congr 2
    funext b
    simp only [Function.comp, add_le_add_iff_right]
  rw [h2]
  simp only [h1]

theorem point_get (p : List K) (d : ℕ) : (o.point p)[d]? = (p[d]?).map (· + o.shift d) := by
  unfold Origin.point
  rw [List.getElem?_mapIdx]

theorem updateMeshIdx_origin (b : SingleBody K) (r : ℕ) :
    (o.body b).updateMeshIdx (fun d => o.axis d (axes d)) r = b.updateMeshIdx axes r := by
  unfold SingleBody.updateMeshIdx
  change (List.range' (b.bgPt r) (b.nLclPts r)).mapM _ = _
  congr 1
  funext i
  change (List.range b.dim).mapM _ = _
  congr 1
  funext d
  change (match (b.coords.map o.point)[i]? with
    | some x => _
    | none => _) = _
  rw [List.getElem?_map]
  cases b.coords[i]? with
  | none => rfl
  | some x =>
    simp only [Option.map_some, point_get]
    cases x[d]? with
    | none => rfl
    | some v => exact meshIndex_origin _ _ _

theorem packMeshIdx_origin : (o.bodies bodies).updateMeshIdx (fun d => o.axis d (axes d)) = bodies.updateMeshIdx axes := by
  unfold BodyPack.updateMeshIdx
  change (List.range bodies.mpiSize).mapM _ = _
  congr 1
  funext r
  change (bodies.bodies.map o.body).mapM _ = _
  rw [List.mapM_map]
  congr 1
  funext b
  exact updateMeshIdx_origin b r

/-! ### The delta operator -/

theorem delta_origin (x y w : List K) : delta (o.point x) (o.point y) w kernel = delta x y w kernel := by
  unfold delta
  congr 1
  funext phi d
  rw [point_get, point_get]
  cases x[d]? with
  | none => rfl
  | some s =>
    cases y[d]? with
    | none => rfl
    | some t =>
      cases w[d]? with
      | none => rfl
      | some v => simp only [Option.map_some, add_sub_add_right_eq_sub]

/-- A neighbour on the grid with its position from another origin. -/
def shiftNeighbor (o : Origin K) (d : ℕ) (q : ℤ × K) : ℤ × K := (q.1, q.2 + o.shift d)

theorem eulerianNeighbors_origin (h0 : ∀ d, L.dim ≤ d → o.shift d = 0) {dof : ℕ} (hf : dof < L.dim) (d : ℕ) (I : ℤ) (periodic : Bool) :
    eulerianNeighbors L (fun d => o.axis d (axes d)) dof d I periodic window =
      (eulerianNeighbors L axes dof d I periodic window).map (List.map (shiftNeighbor o d)) := by
  have hc : ∀ s, meshCoord L (fun d => o.axis d (axes d)) dof d s = (meshCoord L axes dof d s).map (· + o.shift d) := by
    intro s
    unfold meshCoord
    rw [fieldAxis_origin h0]
    cases fieldAxis L.dim axes L.periodic dof d with
    | error _ => rfl
    | ok A =>
      have := ptrAt_shifted (if dof < L.dim ∨ 3 ≤ dof then o.shift d else 0) A.coordTrue A.shift s
      rw [if_pos (Or.inl hf)] at this
      change ptrAt (A.coordTrue.map (· + if dof < L.dim ∨ 3 ≤ dof then o.shift d else 0)) A.shift s = _
      rw [if_pos (Or.inl hf), this]
      rfl
  have hn : ∀ s, eulerianNeighbor L (fun d => o.axis d (axes d)) dof d periodic s =
      (eulerianNeighbor L axes dof d periodic s).map (List.map (shiftNeighbor o d)) := by
    intro s
    unfold eulerianNeighbor
    rw [hc]
    split_ifs
    · cases meshCoord L axes dof d s <;> rfl
    · cases meshCoord L axes dof d s with
      | error _ => rfl
      | ok x =>
        change Except.ok _ = Except.ok _
        simp only [Origin.axis, List.map_cons, List.map_nil, shiftNeighbor, add_sub_add_right_eq_sub]
        rw [add_sub_right_comm]
    · cases meshCoord L axes dof d s with
      | error _ => rfl
      | ok x =>
        change Except.ok _ = Except.ok _
        simp only [Origin.axis, List.map_cons, List.map_nil, shiftNeighbor, add_sub_add_right_eq_sub]
        rw [add_right_comm]
    · rfl
  unfold eulerianNeighbors
  simp only [bind, Except.bind]
  rw [mapM_scaled _ fun o _ => hn _]
  generalize List.mapM (m := Except Error) (fun o : ℕ => eulerianNeighbor L axes dof d periodic (I - window + o)) (List.range (2 * window + 1)) = R
  cases R with
  | error _ => rfl
  | ok l =>
    change Except.ok _ = Except.ok _
    rw [List.map_flatten]

theorem deltaRow_origin {x w : List K} (dof : ℕ) (row : ℤ) (nb : List (List (ℤ × K))) :
    deltaRow debug L kernel (o.point x) w dof row (nb.mapIdx fun d l => l.map (shiftNeighbor o d)) = deltaRow debug L kernel x w dof row nb := by
  unfold deltaRow
  split_ifs
  · match nb with
    | [nx, ny, nz] =>
      change Except.bind ((nz.map (shiftNeighbor o 2)).mapM fun k => (ny.map (shiftNeighbor o 1)).mapM fun j => (nx.map (shiftNeighbor o 0)).mapM fun i =>
          deltaEntry debug L kernel (o.point x) w dof row ⟨k.1, j.1, i.1, 0⟩ [i.2, j.2, k.2]) _ =
        Except.bind (nz.mapM fun k => ny.mapM fun j => nx.mapM fun i => deltaEntry debug L kernel x w dof row ⟨k.1, j.1, i.1, 0⟩ [i.2, j.2, k.2]) _
      congr 1
      rw [List.mapM_map]
      congr 1
      funext k
      simp only [Function.comp, List.mapM_map]
      congr 1
      funext j
      simp only [Function.comp]
      congr 1
      funext i
      unfold deltaEntry
      have := delta_origin (o := o) (kernel := kernel) x [i.2, j.2, k.2] w
      change delta _ [i.2 + o.shift 0, j.2 + o.shift 1, k.2 + o.shift 2] _ _ = _ at this
      simp only [shiftNeighbor, Function.comp]
      rw [this]
    | [] => rfl
    | [_] => rfl
    | [_, _] => rfl
    | _ :: _ :: _ :: _ :: _ => simp [List.mapIdx_cons]
  · match nb with
    | [nx, ny] =>
      change Except.bind ((ny.map (shiftNeighbor o 1)).mapM fun j => (nx.map (shiftNeighbor o 0)).mapM fun i =>
          deltaEntry debug L kernel (o.point x) w dof row ⟨0, j.1, i.1, 0⟩ [i.2, j.2]) _ =
        Except.bind (ny.mapM fun j => nx.mapM fun i => deltaEntry debug L kernel x w dof row ⟨0, j.1, i.1, 0⟩ [i.2, j.2]) _
      congr 1
      rw [List.mapM_map]
      congr 1
      funext j
      simp only [Function.comp, List.mapM_map]
      congr 1
      funext i
      unfold deltaEntry
      have := delta_origin (o := o) (kernel := kernel) x [i.2, j.2] w
      change delta _ [i.2 + o.shift 0, j.2 + o.shift 1] _ _ = _ at this
      simp only [shiftNeighbor, Function.comp]
      rw [this]
    | [] => rfl
    | [_] => rfl
    | _ :: _ :: _ :: _ => simp [List.mapIdx_cons]
  · rfl

theorem mapM_range_idx {α β : Type} {g₂ : ℕ → Except Error β} {g₁ : ℕ → Except Error α} {h : ℕ → α → β} (n : ℕ)
    (e : ∀ d, d < n → g₂ d = (g₁ d).map (h d)) : (List.range n).mapM g₂ = ((List.range n).mapM g₁).map (List.mapIdx h) := by
  induction n with
  | zero => rfl
  | succ n ih =>
    rw [List.range_succ, List.mapM_append, List.mapM_append, ih fun d hd => e d (by omega)]
    have hl : ∀ l, (List.range n).mapM g₁ = .ok l → l.length = n := fun l hl => by rw [length_mapM hl, List.length_range]
    cases hR : (List.range n).mapM g₁ with
    | error _ => rfl
    | ok l =>
      simp only [Except.map, bind, Except.bind, List.mapM_cons, List.mapM_nil, e n (by omega)]
      cases g₁ n with
      | error _ => rfl
      | ok x =>
        simp only [pure, Except.pure, List.mapIdx_append, hl l hR]
        simp

theorem packIndex_origin (b i d : ℤ) : (o.bodies bodies).getPackedGlobalIndex b i d = bodies.getPackedGlobalIndex b i d := by
  unfold BodyPack.getPackedGlobalIndex
  have e1 : (o.bodies bodies).findProc b i = bodies.findProc b i := by
    unfold BodyPack.findProc Origin.bodies
    simp only [List.length_map, List.getElem?_map]
    split_ifs
    · rfl
    · cases bodies.bodies[b.toNat]? <;> rfl
  have e2 : (o.bodies bodies).getGlobalIndex b i d = bodies.getGlobalIndex b i d := by
    unfold BodyPack.getGlobalIndex Origin.bodies
    simp only [List.length_map, List.getElem?_map]
    split_ifs
    · rfl
    · cases bodies.bodies[b.toNat]? <;> rfl
  have e3 : (o.bodies bodies).offsetsAllProcs = bodies.offsetsAllProcs := by
    have : (o.bodies bodies).nLclAllProcs = bodies.nLclAllProcs := by
      funext r
      unfold BodyPack.nLclAllProcs Origin.bodies
      simp only [List.foldl_map]
      rfl
    unfold BodyPack.offsetsAllProcs
    rw [this]
    rfl
  rw [e1, e2, e3]
  cases bodies.findProc b i with
  | error _ => rfl
  | ok p =>
    cases bodies.getGlobalIndex b i d with
    | error _ => rfl
    | ok q =>
      simp only [bind, Except.bind]
      by_cases hp : p < 0
      · simp only [if_pos hp]
      · simp only [if_neg hp]
        cases bodies.offsetsAllProcs[p.toNat]? with
        | none => rfl
        | some off =>
          simp only [Origin.bodies, List.getElem?_map]
          cases bodies.bodies[b.toNat]? with
          | none => rfl
          | some B =>
            simp only [Option.map_some]
            rw [← List.map_take, List.foldl_map]
            rfl

theorem deltaPoint_origin (h0 : ∀ d, L.dim ≤ d → o.shift d = 0) (per : List Bool) (r bIdx : ℕ) {body : SingleBody K} (hb : body.dim ≤ L.dim)
    (meshIdx : List (List ℤ)) (w : List K) (iLcl : ℕ) :
    deltaPoint debug L (fun d => o.axis d (axes d)) per (o.bodies bodies) kernel window r bIdx (o.body body) meshIdx w iLcl =
      deltaPoint debug L axes per bodies kernel window r bIdx body meshIdx w iLcl := by
  unfold deltaPoint
  have e1 : (o.body body).bgPt r = body.bgPt r := rfl
  have e2 : (o.body body).coords = body.coords.map o.point := rfl
  have e3 : (o.body body).dim = body.dim := rfl
  simp only [e1, e2, e3, List.getElem?_map]
  cases meshIdx[iLcl]? with
  | none => rfl
  | some IJK =>
    cases body.coords[body.bgPt r + iLcl]? with
    | none => rfl
    | some x =>
      simp only [Option.map_some]
      refine mapM_congr' fun dof hdof => ?_
      have hdof : dof < L.dim := lt_of_lt_of_le (List.mem_range.1 hdof) hb
      rw [packIndex_origin]
      cases bodies.getPackedGlobalIndex bIdx ((body.bgPt r + iLcl : ℕ) : ℤ) dof with
      | error _ => rfl
      | ok row =>
        simp only [bind, Except.bind]
        rw [mapM_range_idx (h := fun d => List.map (shiftNeighbor o d)) (g₁ := fun d => match IJK[d]?, per[d]? with
          | some I, some p => eulerianNeighbors L axes dof d I p window
          | _, _ => .error .ub)]
        · generalize List.mapM (m := Except Error) (fun d => match IJK[d]?, per[d]? with
            | some I, some p => eulerianNeighbors L axes dof d I p window
            | _, _ => .error .ub) (List.range L.dim) = R
          cases R with
          | error _ => rfl
          | ok nb => exact deltaRow_origin dof row nb
        · intro d _
          cases IJK[d]? with
          | none => rfl
          | some I =>
            cases per[d]? with
            | none => rfl
            | some p => exact eulerianNeighbors_origin h0 hdof d I p

theorem deltaBody_origin (h0 : ∀ d, L.dim ≤ d → o.shift d = 0) (per : List Bool) (r bIdx : ℕ) {body : SingleBody K} (hb : body.dim ≤ L.dim)
    (meshIdx : List (List ℤ)) :
    deltaBody debug L (fun d => o.axis d (axes d)) per (o.bodies bodies) kernel window r bIdx (o.body body) meshIdx =
      deltaBody debug L axes per bodies kernel window r bIdx body meshIdx := by
  have hw : ∀ d m, meshWidth L (fun d => o.axis d (axes d)) 0 d m = meshWidth L axes 0 d m := by
    intro d m
    unfold meshWidth
    rw [fieldAxis_origin h0]
    cases fieldAxis L.dim axes L.periodic 0 d <;> rfl
  unfold deltaBody
  simp only [hw]
  refine congrArg _ (funext fun w => ?_)
  have h := mapM_congr' (l := List.range (body.nLclPts r)) fun i _ =>
    deltaPoint_origin (debug := debug) (axes := axes) (bodies := bodies) (kernel := kernel) (window := window) h0 per r bIdx hb meshIdx w i
  change Except.bind ((List.range (body.nLclPts r)).mapM fun i =>
      deltaPoint debug L (fun d => o.axis d (axes d)) per (o.bodies bodies) kernel window r bIdx (o.body body) meshIdx w i)
      (fun rows => .ok rows.flatten.flatten) =
    Except.bind ((List.range (body.nLclPts r)).mapM fun i =>
      deltaPoint debug L axes per bodies kernel window r bIdx body meshIdx w i) fun rows => .ok rows.flatten.flatten
  rw [h]

theorem nPts_origin : (o.bodies bodies).nPts = bodies.nPts := by
  unfold BodyPack.nPts Origin.bodies
  simp only [List.foldl_map]
  rfl

theorem createDelta_origin (h0 : ∀ d, L.dim ≤ d → o.shift d = 0) (hb : ∀ b ∈ bodies.bodies, b.dim ≤ L.dim) (B : ℕ → Boundary K)
    (meshIdx : ℕ → ℕ → List (List ℤ)) :
    createDelta debug L (fun d => o.axis d (axes d)) B (o.bodies bodies) meshIdx kernel window =
      createDelta debug L axes B bodies meshIdx kernel window := by
  have h : ∀ r, deltaRank debug L (fun d => o.axis d (axes d)) B (o.bodies bodies) meshIdx kernel window r =
      deltaRank debug L axes B bodies meshIdx kernel window r := by
    intro r
    unfold deltaRank
    refine congrArg _ (funext fun per => ?_)
    have e : (o.bodies bodies).bodies.length = bodies.bodies.length := List.length_map ..
    simp only [e]
    congr 1
    refine mapM_congr' fun b _ => ?_
    have : (o.bodies bodies).bodies[b]? = (bodies.bodies[b]?).map o.body := List.getElem?_map ..
    rw [this]
    cases hB : bodies.bodies[b]? with
    | none => rfl
    | some body => exact deltaBody_origin h0 per r b (hb body (List.mem_of_getElem? hB)) _
  change Except.bind ((List.range L.mpiSize).mapM fun r =>
      deltaRank debug L (fun d => o.axis d (axes d)) B (o.bodies bodies) meshIdx kernel window r)
      (fun entries => assemble ((o.bodies bodies).nPts * bodies.dim) L.UN entries.flatten []) =
    Except.bind ((List.range L.mpiSize).mapM fun r => deltaRank debug L axes B bodies meshIdx kernel window r)
      fun entries => assemble (bodies.nPts * bodies.dim) L.UN entries.flatten []
  simp only [h, nPts_origin]

theorem createEH_origin (h0 : ∀ d, L.dim ≤ d → o.shift d = 0) (hb : ∀ b ∈ bodies.bodies, b.dim ≤ L.dim) (B : ℕ → Boundary K)
    (meshIdx : ℕ → ℕ → List (List ℤ)) :
    createEH debug L (o.geom L.dim G) (fun d => o.axis d (axes d)) B (o.bodies bodies) meshIdx kernel window =
      createEH debug L G axes B bodies meshIdx kernel window := by
  unfold createEH
  rw [createDelta_origin h0 hb]
  rfl

theorem extraOperators_origin (h0 : ∀ d, L.dim ≤ d → o.shift d = 0) (hb : ∀ b ∈ bodies.bodies, b.dim ≤ L.dim) (P : NSParams K) (ops : NSOps K)
    (B : ℕ → Boundary K) (meshIdx : ℕ → ℕ → List (List ℤ)) :
    createExtraOperators debug L (o.geom L.dim G) (fun d => o.axis d (axes d)) (o.params P) ops B (o.bodies bodies) meshIdx kernel window =
      createExtraOperators debug L G axes P ops B bodies meshIdx kernel window := by
  unfold createExtraOperators
  rw [createEH_origin h0 hb, nPts_origin]
  rfl

/-! ### The decoupled solver -/

theorem decoupledInit_origin (h0 : ∀ d, L.dim ≤ d → o.shift d = 0) (hb : ∀ b ∈ bodies.bodies, b.dim ≤ L.dim) (P : NSParams K)
    (F : Option (FlowNode K)) (B : ℕ → Boundary K) :
    decoupledInit debug L (o.geom L.dim G) (fun d => o.axis d (axes d)) (o.params P) (F.map o.flow) B (o.bodies bodies) kernel window =
      (decoupledInit debug L G axes P F B bodies kernel window).map fun x => (x.1, x.2.1, o.ibState x.2.2) := by
  unfold decoupledInit
  rw [solverInit_origin, packMeshIdx_origin]
  cases solverInit debug L G P F B with
  | error _ => rfl
  | ok x =>
    simp only [Except.map, bind, Except.bind]
    cases bodies.updateMeshIdx axes with
    | error _ => rfl
    | ok idx =>
      simp only
      rw [extraOperators_origin h0 hb, show (o.state x.2).B = x.2.B from rfl]
      cases createExtraOperators debug L G axes P x.1 x.2.B bodies (meshIdxAt idx) kernel window <;> rfl

theorem decoupledAdvance_origin (P : NSParams K) (ops : NSOps K) (ib : IBOps K) (UB : Option (ℤ → K)) (vSolve fSolve pSolve : LinSolve K) (s : IBState K) :
    decoupledAdvance L (o.geom L.dim G) (o.params P) ops ib UB vSolve fSolve pSolve (o.ibState s) =
      (decoupledAdvance L G P ops ib UB vSolve fSolve pSolve s).map o.ibState := by
  unfold decoupledAdvance
  have e : (o.params P).dt = P.dt := rfl
  have e' : (o.ibState s).ns = o.state s.ns := rfl
  simp only [e, e', tick_origin, rhs_origin]
  cases assembleRHSVelocity L G P ops { s.ns with t := s.ns.t + P.dt, ite := s.ns.ite + 1 } with
  | error _ => rfl
  | ok x =>
    obtain ⟨rhs, s₁⟩ := x
    simp only [Except.map, bind, Except.bind]
    change Except.bind (vSolve ops.A s₁.U fun i => rhs i + vec L.UN (Mat.mult ib.nF ib.H s.f) i) _ =
      Except.map _ (Except.bind (vSolve ops.A s₁.U fun i => rhs i + vec L.UN (Mat.mult ib.nF ib.H s.f) i) _)
    cases vSolve ops.A s₁.U fun i => rhs i + vec L.UN (Mat.mult ib.nF ib.H s.f) i with
    | error _ => rfl
    | ok U =>
      simp only [Except.bind]
      change Except.bind (fSolve ib.EBNH s.df (assembleRHSForces L ib UB (vec L.UN U))) _ =
        Except.map _ (Except.bind (fSolve ib.EBNH s.df (assembleRHSForces L ib UB (vec L.UN U))) _)
      cases fSolve ib.EBNH s.df (assembleRHSForces L ib UB (vec L.UN U)) with
      | error _ => rfl
      | ok df =>
        simp only [Except.bind]
        generalize hV : (fun i => vec L.UN U i + vec L.UN (Mat.mult ib.nF ib.BNH (vec ib.nF df)) i) = V
        change Except.bind (pSolve ops.DBNG s₁.dP (assembleRHSPoisson L ops { s₁ with U := V })) _ =
          Except.map _ (Except.bind (pSolve ops.DBNG s₁.dP (assembleRHSPoisson L ops { s₁ with U := V })) _)
        cases pSolve ops.DBNG s₁.dP (assembleRHSPoisson L ops { s₁ with U := V }) <;> rfl

theorem decoupledIo_origin (P : NSParams K) (ib : IBOps K) (s : IBState K) (d : Disk K) :
    decoupledIoInitialData L (o.params P) ib (o.ibState s) (o.disk d) =
      (decoupledIoInitialData L P ib s d).map fun x => (o.ibState x.1, o.disk x.2) := by
  unfold decoupledIoInitialData
  rw [show (o.ibState s).ns = o.state s.ns from rfl, show (o.state s.ns).ite = s.ns.ite from rfl, show (o.params P).output = P.output from rfl]
  split_ifs
  · rw [writeSolution_origin]
    cases writeSolutionHDF5 L s.ns d (stepPath P.output s.ns.ite) <;> rfl
  · have : decoupledReadRestart L ib (o.ibState s) (o.disk d) (stepPath P.output s.ns.ite) =
        (decoupledReadRestart L ib s d (stepPath P.output s.ns.ite)).map o.ibState := by
      unfold decoupledReadRestart
      rw [show (o.ibState s).ns = o.state s.ns from rfl, readRestart_origin]
      cases readRestartDataHDF5 L s.ns d (stepPath P.output s.ns.ite) with
      | error _ => rfl
      | ok ns =>
        simp only [Except.map, bind, Except.bind, readVecs_origin]
        cases readHDF5Vecs d (stepPath P.output s.ns.ite) "/" ["force"] [ib.nF] with
        | error _ => rfl
        | ok f =>
          match f with
          | [] => rfl
          | [_] => rfl
          | _ :: _ :: _ => rfl
    rw [this]
    cases decoupledReadRestart L ib s d (stepPath P.output s.ns.ite) <;> rfl

theorem avgForces_origin (f : ℤ → K) : (o.bodies bodies).calculateAvgForces f = bodies.calculateAvgForces f := by
  have acc : ∀ b, (o.bodies bodies).accessArray f b = bodies.accessArray f b := by
    intro b
    funext r q
    unfold BodyPack.accessArray Origin.bodies
    simp only [List.map_map, ← List.map_take]
    rfl
  unfold BodyPack.calculateAvgForces
  have e : (o.bodies bodies).bodies.length = bodies.bodies.length := List.length_map ..
  rw [e]
  refine List.map_congr_left fun b _ => ?_
  have : (o.bodies bodies).bodies[b]? = (bodies.bodies[b]?).map o.body := List.getElem?_map ..
  rw [this]
  cases bodies.bodies[b]? with
  | none => rfl
  | some body =>
    simp only [Option.map_some, acc]
    rfl

/-- Two writes after each other, with the forces of the step. -/
theorem twoWrites_origin {P : NSParams K} {ite : ℤ} {w r w' r' : Disk K → Except Error (Disk K)} {q : K × List (List K)}
    (hw : ∀ d, w' (o.disk d) = (w d).map o.disk) (hr : ∀ d, r' (o.disk d) = (r d).map o.disk) (d : Disk K) :
    (do
      if P.nsave = 0 then .error .ub
      else
        let disk ← if Int.tmod ite P.nsave = 0 then w' (o.disk d) else pure (o.disk d)
        if P.nrestart = 0 then .error .ub
        else
          let disk ← if Int.tmod ite P.nrestart = 0 then r' disk else pure disk
          return (disk, (q.1 + o.clock, q.2)) : Except Error (Disk K × (K × List (List K)))) =
    (do
      if P.nsave = 0 then .error .ub
      else
        let disk ← if Int.tmod ite P.nsave = 0 then w d else pure d
        if P.nrestart = 0 then .error .ub
        else
          let disk ← if Int.tmod ite P.nrestart = 0 then r disk else pure disk
          return (disk, q) : Except Error (Disk K × (K × List (List K)))).map fun x => (o.disk x.1, x.2.1 + o.clock, x.2.2) := by
  have tail : ∀ d : Disk K, (do
      if P.nrestart = 0 then .error .ub
      else
        let disk ← if Int.tmod ite P.nrestart = 0 then r' (o.disk d) else pure (o.disk d)
        return (disk, (q.1 + o.clock, q.2)) : Except Error (Disk K × (K × List (List K)))) =
      (do
      if P.nrestart = 0 then .error .ub
      else
        let disk ← if Int.tmod ite P.nrestart = 0 then r d else pure d
        return (disk, q) : Except Error (Disk K × (K × List (List K)))).map fun x => (o.disk x.1, x.2.1 + o.clock, x.2.2) := by
    intro d
    by_cases h1 : P.nrestart = 0
    · rw [if_pos h1, if_pos h1]
      rfl
    · rw [if_neg h1, if_neg h1]
      by_cases h2 : Int.tmod ite P.nrestart = 0
      · simp only [if_pos h2, hr]
        cases r d <;> rfl
      · simp only [if_neg h2]
        rfl
  by_cases h1 : P.nsave = 0
  · rw [if_pos h1, if_pos h1]
    rfl
  · rw [if_neg h1, if_neg h1]
    by_cases h2 : Int.tmod ite P.nsave = 0
    · simp only [if_pos h2, hw]
      cases w d with
      | error _ => rfl
      | ok d' => exact tail d'
    · simp only [if_neg h2]
      exact tail d

theorem decoupledWriteStep_origin (P : NSParams K) (ib : IBOps K) (s : IBState K) (d : Disk K) :
    decoupledWriteStep L (o.params P) ib (o.bodies bodies) (o.ibState s) (o.disk d) =
      (decoupledWriteStep L P ib bodies s d).map fun x => (o.disk x.1, x.2.1 + o.clock, x.2.2) := by
  have h := twoWrites_origin (P := P) (ite := s.ns.ite) (w := fun d => writeSolutionHDF5 L s.ns d (stepPath P.output s.ns.ite))
    (w' := fun d => writeSolutionHDF5 L (o.state s.ns) d (stepPath P.output s.ns.ite))
    (r := fun d => decoupledWriteRestart L ib s d (stepPath P.output s.ns.ite))
    (r' := fun d => decoupledWriteRestart L ib (o.ibState s) d (stepPath P.output s.ns.ite)) (q := (s.ns.t, bodies.calculateAvgForces s.f))
    (fun d => writeSolution_origin s.ns d _) (fun d => by
      unfold decoupledWriteRestart
      rw [show (o.ibState s).ns = o.state s.ns from rfl, writeRestart_origin]
      cases writeRestartDataHDF5 L s.ns d (stepPath P.output s.ns.ite) with
      | error _ => rfl
      | ok d' =>
        change Except.ok _ = Except.ok _
        rw [writeVecs_origin]
        rfl) d
  unfold decoupledWriteStep
  rw [avgForces_origin]
  exact h

theorem bodyLoop_origin {S : Type} {P : NSParams K} {fmt : K → List Char} {ns : S → NSState K} {adv adv' : S → Except Error S}
    {write write' : S → Disk K → Except Error (Disk K × (K × List (List K)))} {h : S → S} (hn : ∀ s, ns (h s) = o.state (ns s))
    (ha : ∀ s, adv' (h s) = (adv s).map h)
    (hw : ∀ s d, write' (h s) (o.disk d) = (write s d).map fun x => (o.disk x.1, x.2.1 + o.clock, x.2.2)) (fuel : ℕ) (s : S) (d : Disk K)
    (text text' : TextDisk) :
    (bodyLoop (o.params P) fmt ns adv' write' fuel (h s) (o.disk d) text').map (Except.map fun x => (x.1, x.2.1)) =
        (bodyLoop P fmt ns adv write fuel s d text).map (Except.map fun x => (h x.1, o.disk x.2.1)) ∧
      (o.clock = 0 → bodyLoop (o.params P) fmt ns adv' write' fuel (h s) (o.disk d) text =
        (bodyLoop P fmt ns adv write fuel s d text).map (Except.map fun x => (h x.1, o.disk x.2.1, x.2.2))) := by
  have hfin : ∀ s, finished (o.params P) (ns (h s)) = finished P (ns s) := by
    intro s
    rw [hn]
    rfl
  induction fuel generalizing s d text text' with
  | zero =>
    unfold bodyLoop
    rw [hfin]
    split_ifs <;> exact ⟨rfl, fun _ => rfl⟩
  | succ fuel ih =>
    unfold bodyLoop
    rw [hfin]
    split_ifs
    · exact ⟨rfl, fun _ => rfl⟩
    · rw [ha]
      cases adv s with
      | error _ => exact ⟨rfl, fun _ => rfl⟩
      | ok s' =>
        simp only [Except.map, hw]
        cases write s' d with
        | error _ => exact ⟨rfl, fun _ => rfl⟩
        | ok x =>
          obtain ⟨d', t, avg⟩ := x
          refine ⟨(ih s' d' _ _).1, fun hc => ?_⟩
          have := (ih s' d' (printForces P.output P.nstart (forcesLine fmt t avg) text) (printForces P.output P.nstart (forcesLine fmt t avg) text)).2 hc
          rw [← this]
          simp only [hc, add_zero]
          rfl

/-! ### The coupled solver -/

theorem nestCounts_origin : nestCounts L (o.bodies bodies) = nestCounts L bodies := by
  unfold nestCounts
  refine List.map_congr_left fun r _ => ?_
  have : (o.bodies bodies).nLclAllProcs = bodies.nLclAllProcs := by
    funext r
    unfold BodyPack.nLclAllProcs Origin.bodies
    simp only [List.foldl_map]
    rfl
  rw [this]

theorem ibpmInit_origin (h0 : ∀ d, L.dim ≤ d → o.shift d = 0) (hb : ∀ b ∈ bodies.bodies, b.dim ≤ L.dim) (P : NSParams K)
    (F : Option (FlowNode K)) (B : ℕ → Boundary K) :
    ibpmInit debug L (o.geom L.dim G) (fun d => o.axis d (axes d)) (o.params P) (F.map o.flow) B (o.bodies bodies) kernel window =
      (ibpmInit debug L G axes P F B bodies kernel window).map fun x => (x.1, o.state x.2) := by
  have e : ∀ B', ibpmCreateOperators debug L (o.geom L.dim G) (fun d => o.axis d (axes d)) (o.params P) B' (o.bodies bodies) kernel window =
      ibpmCreateOperators debug L G axes P B' bodies kernel window := by
    intro B'
    unfold ibpmCreateOperators
    simp only [laplacian_origin, packMeshIdx_origin, createEH_origin h0 hb, nestCounts_origin, nPts_origin]
    rfl
  unfold ibpmInit
  rw [initial_origin]
  simp only [e]
  cases setInitialConditions L G F (fun _ => 0) fun _ => 0 with
  | error _ => rfl
  | ok x =>
    simp only [bind, Except.bind]
    cases ibpmCreateOperators debug L G axes P (fun r => (B r).setGhostICs x.1) bodies kernel window <;> rfl

theorem ibpmAdvance_origin (P : NSParams K) (counts : List (ℕ × ℕ)) (ops : NSOps K) (vSolve pSolve : LinSolve K) (s : NSState K) :
    ibpmAdvance L (o.geom L.dim G) (o.params P) counts ops vSolve pSolve (o.state s) = (ibpmAdvance L G P counts ops vSolve pSolve s).map o.state := by
  unfold ibpmAdvance
  have e : (o.params P).dt = P.dt := rfl
  simp only [e, tick_origin, rhs_origin]
  cases assembleRHSVelocity L G P ops { s with t := s.t + P.dt, ite := s.ite + 1 } with
  | error _ => rfl
  | ok x =>
    obtain ⟨rhs, s₁⟩ := x
    simp only [Except.map, bind, Except.bind]
    change Except.bind (vSolve ops.A s₁.U rhs) _ = Except.map _ (Except.bind (vSolve ops.A s₁.U rhs) _)
    cases vSolve ops.A s₁.U rhs with
    | error _ => rfl
    | ok U =>
      simp only [Except.bind]
      change Except.bind (pSolve ops.DBNG s₁.dP (ibpmRHSPoisson L counts ops { s₁ with U := vec L.UN U })) _ =
        Except.map _ (Except.bind (pSolve ops.DBNG s₁.dP (ibpmRHSPoisson L counts ops { s₁ with U := vec L.UN U })) _)
      cases pSolve ops.DBNG s₁.dP (ibpmRHSPoisson L counts ops { s₁ with U := vec L.UN U }) <;> rfl

theorem ibpmWriteSolution_origin (counts : List (ℕ × ℕ)) (s : NSState K) (d : Disk K) (path : String) :
    ibpmWriteSolution L counts (o.state s) (o.disk d) path = (ibpmWriteSolution L counts s d path).map o.disk :=
  writeSolution_origin { s with p := subPressure counts s.p } d path

theorem ibpmIo_origin (P : NSParams K) (counts : List (ℕ × ℕ)) (nF : ℕ) (s : NSState K) (d : Disk K) :
    ibpmIoInitialData L (o.params P) counts nF (o.state s) (o.disk d) =
      (ibpmIoInitialData L P counts nF s d).map fun x => (o.state x.1, o.disk x.2) := by
  unfold ibpmIoInitialData
  rw [show (o.state s).ite = s.ite from rfl, show (o.params P).output = P.output from rfl]
  split_ifs
  · rw [ibpmWriteSolution_origin]
    cases ibpmWriteSolution L counts s d (stepPath P.output s.ite) <;> rfl
  · have : ibpmReadRestart L counts nF (o.state s) (o.disk d) (stepPath P.output s.ite) =
        (ibpmReadRestart L counts nF s d (stepPath P.output s.ite)).map o.state := by
      have e := readRestart_origin (o := o) (L := L) { s with p := subPressure counts s.p } d (stepPath P.output s.ite)
      unfold ibpmReadRestart
      change Except.bind (readRestartDataHDF5 L (o.state { s with p := subPressure counts s.p }) (o.disk d) (stepPath P.output s.ite)) _ = _
      rw [e]
      cases readRestartDataHDF5 L { s with p := subPressure counts s.p } d (stepPath P.output s.ite) with
      | error _ => rfl
      | ok ns =>
        simp only [Except.map, bind, Except.bind, readVecs_origin]
        cases readHDF5Vecs d (stepPath P.output s.ite) "/" ["force"] [nF] with
        | error _ => rfl
        | ok f =>
          match f with
          | [] => rfl
          | [_] => rfl
          | _ :: _ :: _ => rfl
    rw [this]
    cases ibpmReadRestart L counts nF s d (stepPath P.output s.ite) <;> rfl

theorem ibpmWriteStep_origin (P : NSParams K) (counts : List (ℕ × ℕ)) (s : NSState K) (d : Disk K) :
    ibpmWriteStep L (o.params P) counts (o.bodies bodies) (o.state s) (o.disk d) =
      (ibpmWriteStep L P counts bodies s d).map fun x => (o.disk x.1, x.2.1 + o.clock, x.2.2) := by
  have h := twoWrites_origin (P := P) (ite := s.ite) (w := fun d => ibpmWriteSolution L counts s d (stepPath P.output s.ite))
    (w' := fun d => ibpmWriteSolution L counts (o.state s) d (stepPath P.output s.ite))
    (r := fun d => ibpmWriteRestart L counts (bodies.nPts * bodies.dim) s d (stepPath P.output s.ite))
    (r' := fun d => ibpmWriteRestart L counts (bodies.nPts * bodies.dim) (o.state s) d (stepPath P.output s.ite))
    (q := (s.t, bodies.calculateAvgForces (subForces counts s.p)))
    (fun d => ibpmWriteSolution_origin counts s d _) (fun d => by
      have e := writeRestart_origin (o := o) (L := L) { s with p := subPressure counts s.p } d (stepPath P.output s.ite)
      unfold ibpmWriteRestart
      change Except.bind (writeRestartDataHDF5 L (o.state { s with p := subPressure counts s.p }) (o.disk d) (stepPath P.output s.ite)) _ = _
      rw [e]
      cases writeRestartDataHDF5 L { s with p := subPressure counts s.p } d (stepPath P.output s.ite) with
      | error _ => rfl
      | ok d' =>
        change Except.ok _ = Except.ok _
        rw [writeVecs_origin]
        rfl) d
  unfold ibpmWriteStep
  rw [avgForces_origin, nPts_origin]
  exact h

/-! ### Prescribed motion -/

theorem rigidAdvance_origin (h0 : ∀ d, L.dim ≤ d → o.shift d = 0) {M M' : Motion K} (hM : SameMotion o M M') (P : NSParams K) (ops : NSOps K)
    (vSolve fSolve pSolve : LinSolve K) (s : RigidState K) (hb : ∀ t, ∀ b ∈ (M.coordinates t s.bodies).bodies, b.dim ≤ L.dim) :
    rigidAdvance debug L (o.geom L.dim G) (fun d => o.axis d (axes d)) (o.params P) ops M' kernel window vSolve fSolve pSolve (o.rigid s) =
      (rigidAdvance debug L G axes P ops M kernel window vSolve fSolve pSolve s).map o.rigid := by
  unfold rigidAdvance
  have hm : moveBodies debug L (o.geom L.dim G) (fun d => o.axis d (axes d)) (o.params P) ops M' kernel window ((o.rigid s).ns.t + P.dt) (o.rigid s) =
      (moveBodies debug L G axes P ops M kernel window (s.ns.t + P.dt) s).map o.rigid := by
    have ht : (o.rigid s).ns.t + P.dt = s.ns.t + P.dt + o.clock := add_right_comm ..
    rw [ht]
    unfold moveBodies
    rw [show (o.rigid s).bodies = o.bodies s.bodies from rfl, show (o.rigid s).UB = s.UB from rfl, hM.coordinates]
    dsimp only
    rw [hM.velocity, packMeshIdx_origin]
    cases (M.coordinates (s.ns.t + P.dt) s.bodies).updateMeshIdx axes with
    | error _ => rfl
    | ok idx =>
      simp only [bind, Except.bind]
      rw [extraOperators_origin h0 (hb _), show (o.rigid s).ns.B = s.ns.B from rfl]
      cases createExtraOperators debug L G axes P ops s.ns.B (M.coordinates (s.ns.t + P.dt) s.bodies) (meshIdxAt idx) kernel window <;> rfl
  rw [show (o.params P).dt = P.dt from rfl, hm]
  cases moveBodies debug L G axes P ops M kernel window (s.ns.t + P.dt) s with
  | error _ => rfl
  | ok s₁ =>
    simp only [Except.map, bind, Except.bind]
    rw [show (o.rigid s₁).toIBState = o.ibState s₁.toIBState from rfl, decoupledAdvance_origin]
    rw [show (o.rigid s₁).ib = s₁.ib from rfl, show (o.rigid s₁).UB = s₁.UB from rfl]
    cases decoupledAdvance L G P ops s₁.ib (some s₁.UB) vSolve fSolve pSolve s₁.toIBState <;> rfl

/-- The files of the bodies hold other coordinates, but they are written if and only if those of the first run are. -/
theorem writeBodies_origin (fmt : K → List Char) (output : String) (ite : ℤ) (names : List String) (text text' : TextDisk) :
    (writeBodies fmt output ite names (o.bodies bodies) text').map (fun _ => ()) = (writeBodies fmt output ite names bodies text).map fun _ => () := by
  have one : ∀ b : SingleBody K, ((o.body b).writeBody fmt).map (fun _ => ()) = (b.writeBody fmt).map fun _ => () := by
    intro b
    have pt : ∀ k d, (o.body b).coordAt k d = (b.coordAt k d).map (· + o.shift d) := by
      intro k d
      unfold SingleBody.coordAt
      rw [show (o.body b).coords[k]? = (b.coords[k]?).map o.point from List.getElem?_map ..]
      cases b.coords[k]? with
      | none => rfl
      | some x =>
        simp only [Option.map_some, point_get]
        cases x[d]? <;> rfl
    have line : ∀ k, (do
        let xs ← (List.range b.dim).mapM fun d => (o.body b).coordAt k d
        return bodyLine fmt xs : Except Error (List Char)).map (fun _ => ()) = (do
        let xs ← (List.range b.dim).mapM fun d => b.coordAt k d
        return bodyLine fmt xs : Except Error (List Char)).map fun _ => () := by
      intro k
      rw [mapM_range_idx (h := fun d x => x + o.shift d) _ fun d _ => pt k d]
      cases (List.range b.dim).mapM fun d => b.coordAt k d <;> rfl
    have all : ∀ l : List ℕ, (l.mapM fun k => (do
        let xs ← (List.range b.dim).mapM fun d => (o.body b).coordAt k d
        return bodyLine fmt xs : Except Error (List Char))).map (fun _ => ()) = (l.mapM fun k => (do
        let xs ← (List.range b.dim).mapM fun d => b.coordAt k d
        return bodyLine fmt xs : Except Error (List Char))).map fun _ => () := by
      intro l
      induction l with
      | nil => rfl
      | cons k l ih =>
        have h1 := line k
        rw [List.mapM_cons, List.mapM_cons]
        revert h1 ih
        generalize (do
          let xs ← (List.range b.dim).mapM fun d => (o.body b).coordAt k d
          return bodyLine fmt xs : Except Error (List Char)) = A
        generalize (do
          let xs ← (List.range b.dim).mapM fun d => b.coordAt k d
          return bodyLine fmt xs : Except Error (List Char)) = A'
        generalize (l.mapM fun k => (do
          let xs ← (List.range b.dim).mapM fun d => (o.body b).coordAt k d
          return bodyLine fmt xs : Except Error (List Char))) = C
        generalize (l.mapM fun k => (do
          let xs ← (List.range b.dim).mapM fun d => b.coordAt k d
          return bodyLine fmt xs : Except Error (List Char))) = C'
        intro ih h1
        cases A <;> cases A' <;> cases C <;> cases C' <;> first | rfl | (cases h1 <;> cases ih <;> rfl)
    unfold SingleBody.writeBody
    rw [show (o.body b).dim = b.dim from rfl, show (o.body b).nPts = b.nPts from rfl]
    split_ifs
    · have := all (List.range b.nPts)
      revert this
      generalize ((List.range b.nPts).mapM fun k => (do
          let xs ← (List.range b.dim).mapM fun d => (o.body b).coordAt k d
          return bodyLine fmt xs : Except Error (List Char))) = C
      generalize ((List.range b.nPts).mapM fun k => (do
          let xs ← (List.range b.dim).mapM fun d => b.coordAt k d
          return bodyLine fmt xs : Except Error (List Char))) = C'
      intro this
      cases C <;> cases C' <;> first | rfl | (cases this <;> rfl)
    · rfl
  have fold : ∀ (l : List (String × SingleBody K)) (t t' : TextDisk),
      ((l.map fun x => (x.1, o.body x.2)).foldlM (writeBodyAt fmt output ite) t').map (fun _ => ()) =
        (l.foldlM (writeBodyAt fmt output ite) t).map fun _ => () := by
    intro l
    induction l with
    | nil => exact fun _ _ => rfl
    | cons x l ih =>
      intro t t'
      rw [List.map_cons, List.foldlM_cons, List.foldlM_cons]
      have h1 := one x.2
      unfold writeBodyAt
      change Except.map _ (Except.bind (Except.bind ((o.body x.2).writeBody fmt) _) _) = Except.map _ (Except.bind (Except.bind (x.2.writeBody fmt) _) _)
      cases hA : (o.body x.2).writeBody fmt with
      | error e =>
        rw [hA] at h1
        cases hB : x.2.writeBody fmt with
        | error e' =>
          rw [hB] at h1
          cases h1
          rfl
        | ok _ =>
          rw [hB] at h1
          cases h1
      | ok a =>
        rw [hA] at h1
        cases hB : x.2.writeBody fmt with
        | error e' =>
          rw [hB] at h1
          cases h1
        | ok b => exact ih _ _
  unfold writeBodies
  have : names.zip (o.bodies bodies).bodies = (names.zip bodies.bodies).map fun x => (x.1, o.body x.2) := by
    change names.zip (bodies.bodies.map o.body) = _
    rw [List.zip_map_right]
    rfl
  rw [this]
  exact fold _ _ _

theorem rigidWriteStep_origin (P : NSParams K) (fmt : K → List Char) (names : List String) (s : RigidState K) (d : Disk K) (text text' : TextDisk) :
    (rigidWriteStep L (o.params P) fmt names (o.rigid s) (o.disk d) text').map (fun x => x.1) =
      (rigidWriteStep L P fmt names s d text).map fun x => o.disk x.1 := by
  unfold rigidWriteStep
  rw [show (o.rigid s).toIBState = o.ibState s.toIBState from rfl, show (o.rigid s).bodies = o.bodies s.bodies from rfl,
    show (o.rigid s).ib = s.ib from rfl, decoupledWriteStep_origin]
  cases decoupledWriteStep L P s.ib s.bodies s.toIBState d with
  | error _ => rfl
  | ok x =>
    obtain ⟨d', t, avg⟩ := x
    simp only [Except.map, bind, Except.bind, pure, Except.pure]
    rw [show (o.params P).output = P.output from rfl, show (o.params P).nsave = P.nsave from rfl, show (o.params P).nstart = P.nstart from rfl,
      show (o.ibState s.toIBState).ns.ite = s.ns.ite from rfl]
    by_cases h : Int.tmod s.ns.ite P.nsave = 0
    · simp only [if_pos h]
      have hw := writeBodies_origin (o := o) (bodies := s.bodies) fmt P.output s.ns.ite names (printForces P.output P.nstart (forcesLine fmt t avg) text)
        (printForces P.output P.nstart (forcesLine fmt (t + o.clock) avg) text')
      revert hw
      generalize writeBodies fmt P.output s.ns.ite names (o.bodies s.bodies) _ = A
      generalize writeBodies fmt P.output s.ns.ite names s.bodies _ = A'
      intro hw
      cases A <;> cases A' <;> cases hw <;> rfl
    · simp only [if_neg h]

theorem rigidAdvance_bodies {P : NSParams K} {ops : NSOps K} {M : Motion K} {vSolve fSolve pSolve : LinSolve K} {s s' : RigidState K}
    (keep : ∀ t b, BodiesOK L b → BodiesOK L (M.coordinates t b)) (fit : BodiesOK L s.bodies)
    (h : rigidAdvance debug L G axes P ops M kernel window vSolve fSolve pSolve s = .ok s') : BodiesOK L s'.bodies := by
  obtain ⟨s₁, h1, h⟩ := bind_ok h
  obtain ⟨q, h2, h⟩ := bind_ok h
  cases h
  unfold moveBodies at h1
  obtain ⟨_, _, h1⟩ := bind_ok h1
  obtain ⟨_, _, h1⟩ := bind_ok h1
  cases h1
  exact keep _ _ fit

theorem rigidLoop_origin (h0 : ∀ d, L.dim ≤ d → o.shift d = 0) {M M' : Motion K} (hM : SameMotion o M M')
    (keep : ∀ t b, BodiesOK L b → BodiesOK L (M.coordinates t b)) (P : NSParams K) (ops : NSOps K) (vSolve fSolve pSolve : LinSolve K)
    (fmt : K → List Char) (names : List String) (fuel : ℕ) (s : RigidState K) (d : Disk K) (text text' : TextDisk) (fit : BodiesOK L s.bodies) :
    (rigidLoop (o.params P) (rigidAdvance debug L (o.geom L.dim G) (fun d => o.axis d (axes d)) (o.params P) ops M' kernel window vSolve fSolve pSolve)
        (rigidWriteStep L (o.params P) fmt names) fuel (o.rigid s) (o.disk d) text').map (Except.map fun x => (x.1, x.2.1)) =
      (rigidLoop P (rigidAdvance debug L G axes P ops M kernel window vSolve fSolve pSolve) (rigidWriteStep L P fmt names) fuel s d text).map
        (Except.map fun x => (o.rigid x.1, o.disk x.2.1)) := by
  have hfin : ∀ s, finished (o.params P) (o.rigid s).ns = finished P s.ns := fun _ => rfl
  induction fuel generalizing s d text text' with
  | zero =>
    unfold rigidLoop
    rw [hfin]
    split_ifs <;> rfl
  | succ fuel ih =>
    unfold rigidLoop
    rw [hfin]
    split_ifs
    · rfl
    · rw [rigidAdvance_origin h0 hM P ops vSolve fSolve pSolve s fun t b hb => by
        have := keep t _ fit
        rw [this.pack.dim b hb, this.dim]]
      cases ha : rigidAdvance debug L G axes P ops M kernel window vSolve fSolve pSolve s with
      | error _ => rfl
      | ok s' =>
        have fit' := rigidAdvance_bodies keep fit ha
        have hw := rigidWriteStep_origin (o := o) (L := L) P fmt names s' d text text'
        simp only [Except.map]
        cases hA : rigidWriteStep L (o.params P) fmt names (o.rigid s') (o.disk d) text' with
        | error e =>
          rw [hA] at hw
          cases hB : rigidWriteStep L P fmt names s' d text with
          | error e' =>
            rw [hB] at hw
            cases hw
            rfl
          | ok _ =>
            rw [hB] at hw
            cases hw
        | ok a =>
          rw [hA] at hw
          cases hB : rigidWriteStep L P fmt names s' d text with
          | error e' =>
            rw [hB] at hw
            cases hw
          | ok b =>
            rw [hB] at hw
            obtain ⟨a1, a2⟩ := a
            obtain ⟨b1, b2⟩ := b
            simp only [Except.map, Except.ok.injEq] at hw
            subst hw
            exact ih s' b1 b2 a2 fit'

end PetIBM
