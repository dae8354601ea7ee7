/-
C99: what every part of the solver does with a change of the origin.
-/
import Verif.Spec.Origin
import Verif.Lemmas.NavierStokesRun
import Verif.Lemmas.UnitsRun
import Verif.Lemmas.Restart

namespace PetIBM

open Spec

set_option linter.unusedSectionVars false

variable {K : Type} [Field K] {o : Origin K} {debug : Bool} {L : Layout} {G : Geom K}

/-! ### The mesh -/

/-- One direction of one field with another origin. -/
def Spec.Origin.fieldAxis (o : Origin K) (dim f d : ℕ) (a : FieldAxis K) : FieldAxis K :=
  { a with coordTrue := a.coordTrue.map (· + if f < dim ∨ 3 ≤ f then o.shift d else 0) }

theorem pressureAxis_origin (d : ℕ) (a : Axis K) :
    pressureAxis (o.axis d a) = { pressureAxis a with coordTrue := (pressureAxis a).coordTrue.map (· + o.shift d) } := by
  simp only [pressureAxis, Origin.axis]
  congr 1
  rw [List.map_zipWith]
  congr 1
  funext s w
  ring

theorem vertexAxis_origin (d : ℕ) (a : Axis K) :
    vertexAxis (o.axis d a) = { vertexAxis a with coordTrue := (vertexAxis a).coordTrue.map (· + o.shift d) } := by
  simp only [vertexAxis, Origin.axis]
  congr 1
  rw [List.map_map]
  refine List.map_congr_left fun x _ => ?_
  simp only [Function.comp]
  ring

theorem normalAxis_origin (per : Bool) (d : ℕ) (a : Axis K) :
    normalAxis per (o.axis d a) = (normalAxis per a).map fun A => { A with coordTrue := A.coordTrue.map (· + o.shift d) } := by
  unfold normalAxis
  rw [vertexAxis_origin]
  have e : (o.axis d a).dL = a.dL := rfl
  have e' : (o.axis d a).max = a.max + o.shift d := rfl
  rw [e, e']
  cases a.dL.head? with
  | none => rfl
  | some front =>
    cases a.dL.getLast? with
    | none => rfl
    | some back =>
      cases per with
      | false => rfl
      | true =>
        simp only [if_true]
        cases ((adjacentDifference halfSum a.dL ++ [halfSum front back]).set 0 (halfSum front back))[1]? with
        | none => rfl
        | some d1 =>
          simp only [Except.map, List.map_append, List.map_cons, List.map_nil]
          rw [add_right_comm]

theorem tangentAxis_origin (per : Bool) (d : ℕ) (a : Axis K) :
    tangentAxis per (o.axis d a) = (tangentAxis per a).map fun A => { A with coordTrue := A.coordTrue.map (· + o.shift d) } := by
  unfold tangentAxis
  rw [pressureAxis_origin]
  have e : (o.axis d a).dL = a.dL := rfl
  have e' : (o.axis d a).max = a.max + o.shift d := rfl
  have e'' : (o.axis d a).min = a.min + o.shift d := rfl
  rw [e, e', e'']
  cases a.dL.head? with
  | none => rfl
  | some front =>
    cases a.dL.getLast? with
    | none => rfl
    | some back =>
      cases per <;> simp only [Except.map, List.map_append, List.map_cons, List.map_nil, if_true, Bool.false_eq_true, if_false]
      · rw [add_right_comm, add_sub_right_comm]
      · rw [add_right_comm, add_sub_right_comm]

theorem fieldAxis_origin {dim : ℕ} (h0 : ∀ d, dim ≤ d → o.shift d = 0) (axes : ℕ → Axis K) (per : ℕ → ℕ → Bool) (f d : ℕ) :
    fieldAxis dim (fun d => o.axis d (axes d)) per f d = (fieldAxis dim axes per f d).map (o.fieldAxis dim f d) := by
  have flat : (if f < dim ∨ 3 ≤ f then o.shift d else 0) = 0 → flatAxis = o.fieldAxis dim f d (flatAxis (K := K)) := by
    intro h
    unfold Origin.fieldAxis flatAxis
    rw [h]
    simp
  unfold fieldAxis
  split_ifs with h1 h2 h3 h4 h5
  · rw [normalAxis_origin]
    unfold Origin.fieldAxis
    rw [if_pos (Or.inl h2.1)]
  · rw [tangentAxis_origin]
    unfold Origin.fieldAxis
    rw [if_pos (Or.inl h2.1)]
  · refine congrArg Except.ok (flat ?_)
    split_ifs with h
    · exact h0 d (by omega)
    · rfl
  · rw [pressureAxis_origin]
    unfold Origin.fieldAxis
    rw [if_pos (Or.inr (by omega))]
    rfl
  · rw [vertexAxis_origin]
    unfold Origin.fieldAxis
    rw [if_pos (Or.inr (by omega))]
    rfl
  · refine congrArg Except.ok (flat ?_)
    split_ifs with h
    · exact h0 d (by omega)
    · rfl

theorem ptrAt_shifted (w : K) (a : List K) (s : ℕ) (i : ℤ) : ptrAt (a.map (· + w)) s i = (ptrAt a s i).map (· + w) := by
  unfold ptrAt
  split_ifs
  · rw [List.getElem?_map]
    cases a[(i + s).toNat]? <;> rfl
  · rfl

theorem setup_origin [LinearOrder K] {axes : ℕ → Axis K} (h0 : ∀ d, L.dim ≤ d → o.shift d = 0) (S : Setup L G axes) :
    Setup L (o.geom L.dim G) fun d => o.axis d (axes d) where
  layout := S.layout
  axesOK d hd := by
    obtain ⟨h1, h2, h3⟩ := S.axesOK d hd
    refine ⟨h1, h2, ?_⟩
    change (axes d).max + o.shift d = (axes d).min + o.shift d + (axes d).dL.sum
    rw [h3, add_right_comm]
  geom f d hf hd A hA := by
    rw [fieldAxis_origin h0] at hA
    obtain ⟨A, hA', rfl⟩ := map_ok hA
    obtain ⟨h1, h2⟩ := S.geom f d hf hd A hA'
    constructor
    · intro i x hx
      obtain ⟨y, hy, rfl⟩ := map_ok ((ptrAt_shifted _ _ _ _).symm.trans hx)
      change G.coord f d i + _ = _
      rw [h1 i y hy]
    · exact h2
  counts f d hf hd A hA := by
    rw [fieldAxis_origin h0] at hA
    obtain ⟨A, hA', rfl⟩ := map_ok hA
    exact S.counts f d hf hd A hA'
  periodic := S.periodic

/-! ### Boundaries and operators -/

theorem coord_diff (dim f d : ℕ) (i j : ℤ) : (o.geom dim G).coord f d i - (o.geom dim G).coord f d j = G.coord f d i - G.coord f d j := by
  change G.coord f d i + _ - (G.coord f d j + _) = _
  rw [add_sub_add_right_eq_sub]

theorem boundaryInit_origin (r : ℕ) (T : BCTable K) : boundaryInit debug L (o.geom L.dim G) r T = boundaryInit debug L G r T := by
  have e : ∀ f loc, getGhostPointList debug L (o.geom L.dim G) f r loc = getGhostPointList debug L G f r loc := by
    intro f loc
    unfold getGhostPointList ghostRecord
    simp only [coord_diff]
    rfl
  unfold boundaryInit createSingleBoundary
  simp only [e]

theorem laplacian_origin (B : ℕ → Boundary K) : createLaplacian debug L (o.geom L.dim G) B = createLaplacian debug L G B := by
  have e : ∀ f, laplacianRow debug L (o.geom L.dim G) f = laplacianRow debug L G f := by
    intro f
    funext p
    unfold laplacianRow laplacianValues laplacianOffDiag
    simp only [coord_diff]
    rfl
  unfold createLaplacian
  simp only [e]

theorem operators_origin (P : NSParams K) (B : ℕ → Boundary K) :
    createOperators debug L (o.geom L.dim G) (o.params P) B = createOperators debug L G P B := by
  unfold createOperators
  rw [laplacian_origin]
  rfl

/-! ### The start -/

theorem initial_origin (F : Option (FlowNode K)) (U p : ℤ → K) :
    setInitialConditions L (o.geom L.dim G) (F.map o.flow) U p = setInitialConditions L G F U p := by
  have call : ∀ (e : Expr K) (f : ℕ) (i j k : ℤ) (nu : K), f < L.dim ∨ 3 ≤ f →
      o.expr e ((o.geom L.dim G).coord f 0 i) ((o.geom L.dim G).coord f 1 j) ((o.geom L.dim G).coord f 2 k) 0 nu =
        e (G.coord f 0 i) (G.coord f 1 j) (G.coord f 2 k) 0 nu := by
    intro e f i j k nu hf
    simp only [Origin.expr, Origin.geom, if_pos hf, add_sub_cancel_right]
  have ic : ∀ (ICs : List (Option (Expr K))) nu f, f < L.dim ∨ 3 ≤ f →
      assignIC L (o.geom L.dim G) (ICs.map (Option.map o.expr)) nu f = assignIC L G ICs nu f := by
    intro ICs nu f hf
    have : ∀ i j k, callIC (o.geom L.dim G) (ICs.map (Option.map o.expr)) nu f i j k = callIC G ICs nu f i j k := by
      intro i j k
      unfold callIC
      rw [List.getElem?_map]
      cases ICs[f]? with
      | none => rfl
      | some e =>
        cases e with
        | none => rfl
        | some e => exact congrArg Except.ok (call e f _ _ _ nu hf)
    unfold assignIC
    simp only [this]
  cases F with
  | none => rfl
  | some F =>
    have par : parseICs (some (o.flow F)) = (parseICs (some F)).map (List.map (Option.map o.expr)) := by
      unfold parseICs Origin.flow
      simp only
      cases F.initialVelocity with
      | none => rfl
      | some es =>
        simp only [Option.map_some, List.length_map]
        by_cases h : es.length ≤ 4
        · rw [if_pos h, if_pos h]
          simp only [Except.map, List.map_set, List.map_append, List.map_map, List.map_replicate, Option.map_none, Option.map_some]
          congr 3
          cases F.initialPressure <;> rfl
        · rw [if_neg h, if_neg h]
          rfl
    unfold setInitialConditions
    simp only [Option.map_some, Option.bind_some]
    rw [par]
    rw [show (o.flow F).nu = F.nu from rfl]
    cases F.nu with
    | none => rfl
    | some nu =>
      cases parseICs (some F) with
      | error _ => rfl
      | ok ICs =>
        simp only [bind, Except.bind, Except.map]
        rw [ic ICs nu 3 (Or.inr le_rfl)]
        have : List.mapM (assignIC L (o.geom L.dim G) (ICs.map (Option.map o.expr)) nu) (List.range L.dim) =
            List.mapM (assignIC L G ICs nu) (List.range L.dim) := by
          refine mapM_congr' fun f hf => ic ICs nu f (Or.inl (List.mem_range.1 hf))
        rw [this]

theorem solverInit_origin (P : NSParams K) (F : Option (FlowNode K)) (B : ℕ → Boundary K) :
    solverInit debug L (o.geom L.dim G) (o.params P) (F.map o.flow) B =
      (solverInit debug L G P F B).map fun x => (x.1, o.state x.2) := by
  unfold solverInit
  rw [initial_origin]
  simp only [operators_origin]
  cases setInitialConditions L G F (fun _ => 0) fun _ => 0 with
  | error _ => rfl
  | ok x =>
    simp only [bind, Except.bind]
    cases createOperators debug L G P fun r => (B r).setGhostICs x.1 <;> rfl

/-! ### A step -/

theorem rhs_origin (P : NSParams K) (ops : NSOps K) (s : NSState K) :
    assembleRHSVelocity L (o.geom L.dim G) (o.params P) ops (o.state s) =
      (assembleRHSVelocity L G P ops s).map fun x => (x.1, o.state x.2) := by
  unfold assembleRHSVelocity
  have e1 : updateConv L (o.geom L.dim G) (o.state s) = updateConv L G s := rfl
  have e2 : updateDiff L (o.params P).nu ops (o.state s) = updateDiff L P.nu ops s := rfl
  simp only [e1, e2, bind, Except.bind]
  cases updateConv L G s with
  | error _ => rfl
  | ok a =>
    simp only
    change Except.bind (addTerms P.conv.explicitCoeffs a.1 fun i => vec L.UN (fun i => -1 * Mat.mult ops.pN ops.G s.p i) i + 1 / P.dt * s.U i) _ =
      Except.map _ (Except.bind (addTerms P.conv.explicitCoeffs a.1 fun i => vec L.UN (fun i => -1 * Mat.mult ops.pN ops.G s.p i) i + 1 / P.dt * s.U i) _)
    cases addTerms P.conv.explicitCoeffs a.1 fun i => vec L.UN (fun i => -1 * Mat.mult ops.pN ops.G s.p i) i + 1 / P.dt * s.U i with
    | error _ => rfl
    | ok b =>
      simp only [Except.bind]
      cases updateDiff L P.nu ops s with
      | error _ => rfl
      | ok c =>
        simp only
        change Except.bind (addTerms P.diff.explicitCoeffs c b) _ = Except.map _ (Except.bind (addTerms P.diff.explicitCoeffs c b) _)
        cases addTerms P.diff.explicitCoeffs c b <;> rfl

theorem tick_origin (s : NSState K) (dt : K) :
    ({ o.state s with t := (o.state s).t + dt, ite := (o.state s).ite + 1 } : NSState K) = o.state { s with t := s.t + dt, ite := s.ite + 1 } := by
  simp only [Origin.state]
  rw [add_right_comm]

theorem advance_origin (P : NSParams K) (ops : NSOps K) (vSolve pSolve : LinSolve K) (s : NSState K) :
    advance L (o.geom L.dim G) (o.params P) ops vSolve pSolve (o.state s) = (advance L G P ops vSolve pSolve s).map o.state := by
  unfold advance
  have e : (o.params P).dt = P.dt := rfl
  simp only [e, tick_origin, rhs_origin]
  cases assembleRHSVelocity L G P ops { s with t := s.t + P.dt, ite := s.ite + 1 } with
  | error _ => rfl
  | ok x =>
    obtain ⟨rhs, s₁⟩ := x
    simp only [Except.map, bind, Except.bind]
    change Except.bind (vSolve ops.A s₁.U rhs) _ = Except.map _ (Except.bind (vSolve ops.A s₁.U rhs) _)
    cases vSolve ops.A s₁.U rhs with
    | error _ => rfl
    | ok U =>
      simp only [Except.bind]
      change Except.bind (pSolve ops.DBNG s₁.dP (assembleRHSPoisson L ops { s₁ with U := vec L.UN U })) _ =
        Except.map _ (Except.bind (pSolve ops.DBNG s₁.dP (assembleRHSPoisson L ops { s₁ with U := vec L.UN U })) _)
      cases pSolve ops.DBNG s₁.dP (assembleRHSPoisson L ops { s₁ with U := vec L.UN U }) <;> rfl

/-! ### Files -/

theorem file_empty : o.file (H5File.empty : H5File K) = H5File.empty := rfl

theorem disk_update (d : Disk K) (path : String) (f : H5File K) : Function.update (o.disk d) path (some (o.file f)) = o.disk (Function.update d path (some f)) := by
  funext q
  unfold Origin.disk
  by_cases h : q = path
  · subst h
    simp
  · simp [h]

theorem start_origin (mode : FileMode) (old : Option (H5File K)) : mode.start (old.map o.file) = o.file (mode.start old) := by
  cases mode with
  | write => rfl
  | append => cases old <;> rfl

theorem writeVecs_origin (d : Disk K) (path group : String) (names : List String) (vecs : List (List K)) (mode : FileMode) :
    writeHDF5Vecs (o.disk d) path group names vecs mode = o.disk (writeHDF5Vecs d path group names vecs mode) := by
  unfold writeHDF5Vecs
  rw [← disk_update]
  congr 2
  rw [show o.disk d path = (d path).map o.file from rfl, start_origin]
  generalize mode.start (d path) = f
  generalize names.zip vecs = l
  induction l generalizing f with
  | nil => rfl
  | cons a l ih => exact ih (f.put (group ++ a.1) a.2)

theorem readVecs_origin (d : Disk K) (path group : String) (names : List String) (sizes : List ℕ) :
    readHDF5Vecs (o.disk d) path group names sizes = readHDF5Vecs d path group names sizes := by
  unfold readHDF5Vecs
  rw [show o.disk d path = (d path).map o.file from rfl]
  cases d path <;> rfl

theorem writeSolution_origin (s : NSState K) (d : Disk K) (path : String) :
    writeSolutionHDF5 L (o.state s) (o.disk d) path = (writeSolutionHDF5 L s d path).map o.disk := by
  have e : solutionWrite L (o.state s).U (o.state s).p (o.disk d) path = (solutionWrite L s.U s.p d path).map o.disk := by
    change solutionWrite L s.U s.p (o.disk d) path = _
    unfold solutionWrite
    simp only [writeVecs_origin]
    have h : ∀ (R : Except Error (List (List K))) (W : List (List K) → List ℤ → Disk K),
        (R.bind fun v => (naturalOrder L 3).bind fun w => .ok (o.disk (W v w))) =
          Except.map o.disk (R.bind fun v => (naturalOrder L 3).bind fun w => .ok (W v w)) := by
      intro R W
      cases R with
      | error _ => rfl
      | ok v => cases naturalOrder L 3 <;> rfl
    exact h _ fun v w => writeHDF5Vecs d path "/" (List.map fd2str (List.range L.dim) ++ ["p"]) (v ++ [w.map s.p]) .write
  unfold writeSolutionHDF5
  rw [e]
  cases solutionWrite L s.U s.p d path with
  | error _ => rfl
  | ok d' =>
    simp only [Except.map, bind, Except.bind]
    rw [show o.disk d' path = (d' path).map o.file from rfl]
    cases d' path with
    | none => rfl
    | some f =>
      simp only [Option.map_some]
      rw [show (o.file f).data = f.data from rfl]
      cases f.data "/p" with
      | none => rfl
      | some _ => exact congrArg Except.ok (disk_update d' path { f with time := some s.t })

theorem writeRestart_origin (s : NSState K) (d : Disk K) (path : String) :
    writeRestartDataHDF5 L (o.state s) (o.disk d) path = (writeRestartDataHDF5 L s d path).map o.disk := by
  unfold writeRestartDataHDF5
  rw [show o.disk d path = (d path).map o.file from rfl]
  cases d path with
  | none =>
    simp only [Option.map_none, writeSolution_origin]
    cases writeSolutionHDF5 L s d path with
    | error _ => rfl
    | ok d' =>
      simp only [Except.map, bind, Except.bind, writeVecs_origin]
      rfl
  | some f =>
    simp only [Option.map_some, pure, Except.pure, bind, Except.bind, writeVecs_origin]
    rfl

theorem readRestart_origin (s : NSState K) (d : Disk K) (path : String) :
    readRestartDataHDF5 L (o.state s) (o.disk d) path = (readRestartDataHDF5 L s d path).map o.state := by
  have e : solutionRead L (o.state s).U (o.state s).p (o.disk d) path = solutionRead L s.U s.p d path := by
    unfold solutionRead
    simp only [readVecs_origin]
    rfl
  unfold readRestartDataHDF5
  rw [e, show o.disk d path = (d path).map o.file from rfl]
  simp only [readVecs_origin]
  cases d path with
  | none => rfl
  | some f =>
    simp only [Option.map_some]
    cases solutionRead L s.U s.p d path with
    | error _ => rfl
    | ok x =>
      simp only [bind, Except.bind]
      rw [show (o.file f).data = f.data from rfl, show (o.file f).time = f.time.map (· + o.clock) from rfl]
      cases f.data "/p" with
      | none => rfl
      | some _ =>
        cases f.time with
        | none => rfl
        | some t =>
          simp only [Option.map_some]
          rw [show (o.state s).conv = s.conv from rfl, show (o.state s).diff = s.diff from rfl]
          cases readHDF5Vecs d path "/convection/" ((List.range s.conv.length).map toString) (List.replicate s.conv.length L.UN) with
          | error _ => rfl
          | ok c =>
            simp only
            cases readHDF5Vecs d path "/diffusion/" ((List.range s.diff.length).map toString) (List.replicate s.diff.length L.UN) <;> rfl

theorem ioInitial_origin (P : NSParams K) (s : NSState K) (d : Disk K) :
    ioInitialData L (o.params P) (o.state s) (o.disk d) = (ioInitialData L P s d).map fun x => (o.state x.1, o.disk x.2) := by
  unfold ioInitialData
  rw [show (o.state s).ite = s.ite from rfl, show (o.params P).output = P.output from rfl]
  split_ifs
  · rw [writeSolution_origin]
    cases writeSolutionHDF5 L s d (stepPath P.output s.ite) <;> rfl
  · rw [readRestart_origin]
    cases readRestartDataHDF5 L s d (stepPath P.output s.ite) <;> rfl

theorem writeStep_origin (P : NSParams K) (s : NSState K) (d : Disk K) :
    writeStep L (o.params P) (o.state s) (o.disk d) = (writeStep L P s d).map o.disk := by
  unfold writeStep
  rw [show (o.state s).ite = s.ite from rfl, show (o.params P).output = P.output from rfl, show (o.params P).nsave = P.nsave from rfl,
    show (o.params P).nrestart = P.nrestart from rfl]
  have tail : ∀ d' : Disk K, (if P.nrestart = 0 then .error .ub
      else if Int.tmod s.ite P.nrestart = 0 then writeRestartDataHDF5 L (o.state s) (o.disk d') (stepPath P.output s.ite) else pure (o.disk d') :
        Except Error (Disk K)) = (if P.nrestart = 0 then .error .ub
      else if Int.tmod s.ite P.nrestart = 0 then writeRestartDataHDF5 L s d' (stepPath P.output s.ite) else pure d' : Except Error (Disk K)).map o.disk := by
    intro d'
    split_ifs
    · rfl
    · exact writeRestart_origin s d' _
    · rfl
  by_cases h1 : P.nsave = 0
  · rw [if_pos h1, if_pos h1]
    rfl
  · rw [if_neg h1, if_neg h1]
    by_cases h2 : Int.tmod s.ite P.nsave = 0
    · simp only [if_pos h2, writeSolution_origin]
      cases writeSolutionHDF5 L s d (stepPath P.output s.ite) with
      | error _ => rfl
      | ok d' => exact tail d'
    · simp only [if_neg h2]
      exact tail d

/-! ### Runs -/

theorem mainLoop_origin (P : NSParams K) (ops : NSOps K) (vSolve pSolve : LinSolve K) (fuel : ℕ) (s : NSState K) (d : Disk K) :
    mainLoop L (o.geom L.dim G) (o.params P) ops vSolve pSolve fuel (o.state s) (o.disk d) =
      (mainLoop L G P ops vSolve pSolve fuel s d).map (Except.map fun x => (o.state x.1, o.disk x.2)) := by
  induction fuel generalizing s d with
  | zero =>
    unfold mainLoop
    rw [show finished (o.params P) (o.state s) = finished P s from rfl]
    split_ifs <;> rfl
  | succ fuel ih =>
    unfold mainLoop
    rw [show finished (o.params P) (o.state s) = finished P s from rfl]
    split_ifs
    · rfl
    · rw [advance_origin]
      cases advance L G P ops vSolve pSolve s with
      | error _ => rfl
      | ok s' =>
        simp only [Except.map, writeStep_origin]
        cases writeStep L P s' d with
        | error _ => rfl
        | ok d' => exact ih s' d'

end PetIBM
