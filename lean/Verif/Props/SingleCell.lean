/-
Runs on meshes with few cells in a periodic direction: witnesses that the hypotheses on the number of cells cannot be left out.
-/
import Verif.Props.BodyRuns

namespace PetIBM

open Spec

set_option linter.unusedSectionVars false

/-! A strip of one by two unit cells, both directions periodic. -/

def stripLayout : Layout := meshLayout 2 singleAxes (fun _ _ => true) fun _ => 1

def stripGeom : Geom ℚ := meshGeom 2 singleAxes fun _ _ => true

def stripTable : BCTable ℚ := fun _ _ => (.PERIODIC, 0)

def stripB : ℕ → Boundary ℚ := boundaries true stripLayout stripGeom stripTable

theorem strip_constructed : Constructed true stripLayout stripGeom singleAxes stripTable stripB := by
  have C : ∃ B, Constructed true stripLayout stripGeom singleAxes stripTable B := by
    apply C57_construction true (Or.inl rfl) _ (fun _ _ _ _ => rfl) (fun _ _ => by decide)
    · intro f d hf hd
      rcases hf with hf | rfl
      · interval_cases d <;> interval_cases f <;> decide
      · interval_cases d <;> decide
    · intro f loc _ _; simp [stripTable]
    · intro f loc _ _; simp [stripTable]
    · intro d _
      unfold singleAxes
      split_ifs
      · exact ⟨by simp, by simp, by norm_num⟩
      · exact ⟨by simp, by simp, by norm_num⟩
  obtain ⟨B, C⟩ := C
  refine ⟨C.setup, C.part, C.table, fun r hr => ?_⟩
  rw [C.init r hr]
  unfold stripB boundaries
  rw [C.init r hr]

theorem strip_sizes : stripLayout.UN = 4 ∧ stripLayout.pN = 2 := by decide

/-- Net flux out of the first cell. -/
theorem strip_flux {B : ℕ → Boundary ℚ} {q : ℤ → ℚ} {V : ℕ → Stencil → ℚ} (hV : Filled true stripLayout B q V) :
    netFlux stripLayout.dim stripGeom ⟨0, 0, 0, 0⟩ V = q 2 - q 3 := by
  have h0 := hV.periodic 0 ⟨0, 0, -1, 0⟩ 0 (by decide) (by decide) rfl
  have h1 := hV.periodic 1 ⟨0, -1, 0, 0⟩ 1 (by decide) (by decide) rfl
  have e0 : along (⟨0, 0, -1, 0⟩ : Stencil) 0 (coordOf ⟨0, 0, -1, 0⟩ 0 % stripLayout.n 0 0) = ⟨0, 0, 0, 0⟩ := by decide
  have e1 : along (⟨0, -1, 0, 0⟩ : Stencil) 1 (coordOf ⟨0, -1, 0, 0⟩ 1 % stripLayout.n 1 1) = ⟨0, 1, 0, 0⟩ := by decide
  rw [e0] at h0
  rw [e1] at h1
  have i1 := hV.inside 1 ⟨0, 0, 0, 0⟩ 2 (by decide) ⟨fun d hd => by interval_cases d <;> decide, rfl⟩ (by decide)
  have i2 := hV.inside 1 ⟨0, 1, 0, 0⟩ 3 (by decide) ⟨fun d hd => by interval_cases d <;> decide, rfl⟩ (by decide)
  have a0 : faceArea stripGeom 0 0 ⟨0, 0, 0, 0⟩ = 1 := by decide +kernel
  have a1 : faceArea stripGeom 1 1 ⟨0, 0, 0, 0⟩ = 1 := by decide +kernel
  have s0 : shift (⟨0, 0, 0, 0⟩ : Stencil) 0 (-1) = ⟨0, 0, -1, 0⟩ := by decide
  have s1 : shift (⟨0, 0, 0, 0⟩ : Stencil) 1 (-1) = ⟨0, -1, 0, 0⟩ := by decide
  have hd : stripLayout.dim = 2 := rfl
  unfold netFlux
  rw [hd, Finset.sum_range_succ, Finset.sum_range_succ, Finset.sum_range_zero, a0, a1, s0, s1, h0, h1, i1, i2]
  ring

/-- A shear flow along the strip. -/
def stripFlow : FlowNode ℚ := ⟨some 0, some [fun _ y _ _ _ => y, fun _ _ _ _ _ => 0], none⟩

def stripRun : Except Error (NSOps ℚ × NSState ℚ × NSState ℚ) := do
  let (ops, s) ← solverInit true stripLayout stripGeom (boxParams 1 0 eulerImplicit eulerExplicit) (some stripFlow) stripB
  let t ← steps (advance stripLayout stripGeom (boxParams 1 0 eulerImplicit eulerExplicit) ops (gaussSolve 4) (gaussSolve 2)) 1 s
  return (ops, s, t)


/-- Is the flux out of the first cell different from zero after the step? -/
theorem strip_not_free : (stripRun.toOption.map fun q => decide (q.2.2.U 2 - q.2.2.U 3 ≠ 0)) = some true := by decide +kernel

/-- C42 is false with one cell in a periodic direction: both faces of the cell are the same unknown, the second insertion into the
row of the divergence overwrites the first (`C21`), and an exact solution of the Poisson system gives a velocity that is not
divergence free, although the initial one was. -/
theorem C42_false_single_periodic_cell : ∃ (L : Layout) (G : Geom ℚ) (axes : ℕ → Axis ℚ) (T : BCTable ℚ) (B : ℕ → Boundary ℚ) (P : NSParams ℚ)
    (flow : Option (FlowNode ℚ)) (ops : NSOps ℚ) (disk disk' : Disk ℚ) (s : NSState ℚ) (x : ℕ → NSState ℚ) (v p : LinSolve ℚ) (c : Stencil),
    Started true L G axes T B P flow ops disk s disk' ∧ x 0 = s ∧ Trajectory L G P ops v p x 1 ∧ Solves L.UN v ops.A ∧
    Solves L.pN p ops.DBNG ∧ P.pType = .ksp ∧ Inside L.toMeshInfo 3 c ∧
    (∀ V, Filled true L (x 0).B (x 0).U V → netFlux L.dim G c V = 0) ∧ ∀ V, Filled true L (x 1).B (x 1).U V → netFlux L.dim G c V ≠ 0 := by
  obtain ⟨⟨ops, s, t⟩, h, hne⟩ := Option.map_eq_some_iff.1 strip_not_free
  obtain ⟨⟨ops', s'⟩, h1, h⟩ := bind_ok (toOption_ok h)
  obtain ⟨t', h2, h⟩ := bind_ok h
  cases h
  obtain ⟨x, x0, xn, hx⟩ := steps_ok h2
  have hU : s.ite = 0 ∧ s.U 2 = 0 ∧ s.U 3 = 0 := by
    obtain ⟨U, q, h3, _, rfl⟩ := solverInit_ok h1
    refine ⟨rfl, ?_⟩
    have h4 : (setInitialConditions stripLayout stripGeom (some stripFlow) (fun _ => 0) fun _ => 0).toOption.map (fun q => (q.1 2, q.1 3)) =
        some (0, 0) := by decide +kernel
    rw [h3] at h4
    have h4 := Option.some.inj h4
    exact ⟨congrArg Prod.fst h4, congrArg Prod.snd h4⟩
  obtain ⟨file, hf, _⟩ := writeSolution_spec strip_constructed.setup.layout s (fun _ => none) (stepPath (boxParams 1 0 eulerImplicit eulerExplicit).output s.ite)
  have S : Started true stripLayout stripGeom singleAxes stripTable stripB (boxParams 1 0 eulerImplicit eulerExplicit) (some stripFlow) ops
      (fun _ => none) s (Function.update (fun _ => none) (stepPath (boxParams 1 0 eulerImplicit eulerExplicit).output s.ite) (some file)) := by
    refine ⟨strip_constructed, ⟨false, "out", some (boxNode 1 "EULER_IMPLICIT" "EULER_EXPLICIT"), rfl⟩, s, h1, ?_⟩
    unfold ioInitialData
    rw [if_pos hU.1, hf]
    rfl
  obtain ⟨u1, u2⟩ := strip_sizes
  refine ⟨_, _, _, _, _, _, _, ops, _, _, s, x, gaussSolve 4, gaussSolve 2, ⟨0, 0, 0, 0⟩, S, x0, hx, by rw [u1]; exact gaussSolve_exact _ _,
    by rw [u2]; exact gaussSolve_exact _ _, rfl, ⟨fun d hd => by interval_cases d <;> decide, rfl⟩, fun V hV => ?_, fun V hV => ?_⟩
  · rw [strip_flux hV, x0, hU.2.1, hU.2.2, sub_self]
  · rw [strip_flux hV, xn]
    exact of_decide_eq_true hne

/-- One point in the strip. -/
def stripBody : BodyPack ℚ := ⟨2, 1, [⟨2, 1, [[3/4, 3/4]], [1]⟩]⟩

theorem stripBody_ok : BodiesOK stripLayout stripBody := ⟨by constructor <;> simp [stripBody], rfl, rfl⟩

/-- A hat function that reaches over two cells. -/
def wideHat : DeltaKernel ℚ := fun r h => .ok (if |r| < 2 * h then (1 - |r| / (2 * h)) / (2 * h) else 0)

def stripCoupled : Except Error ((NSOps ℚ × Mat ℚ × Mat ℚ) × NSState ℚ × NSState ℚ) := do
  let (ops, s) ← ibpmInit true stripLayout stripGeom singleAxes (boxParams 1 0 eulerImplicit eulerExplicit) (some stripFlow) stripB stripBody wideHat 1
  let t ← steps (ibpmAdvance stripLayout stripGeom (boxParams 1 0 eulerImplicit eulerExplicit) (nestCounts stripLayout stripBody) ops.1
    (gaussSolve 4) (gaussSolve 4)) 1 s
  return (ops, s, t)

def stripDecoupled : Except Error (NSOps ℚ × IBOps ℚ × IBState ℚ × IBState ℚ) := do
  let (ops, ib, s) ← decoupledInit true stripLayout stripGeom singleAxes (boxParams 1 0 eulerImplicit eulerExplicit) (some stripFlow) stripB stripBody wideHat 1
  let t ← steps (decoupledAdvance stripLayout stripGeom (boxParams 1 0 eulerImplicit eulerExplicit) ops ib none
    (gaussSolve 4) (gaussSolve 2) (gaussSolve 2)) 1 s
  return (ops, ib, s, t)

theorem stripCoupled_not_free : (stripCoupled.toOption.map fun q => decide (q.2.2.U 2 - q.2.2.U 3 ≠ 0)) = some true := by decide +kernel

theorem stripDecoupled_not_free : (stripDecoupled.toOption.map fun q => decide (q.2.2.2.ns.U 2 - q.2.2.2.ns.U 3 ≠ 0)) = some true := by decide +kernel

/-- C44 is false with one cell in a periodic direction, coupled solver: the composite system is solved exactly, and the velocity is not
divergence free. -/
theorem C44_false_single_periodic_cell : ∃ (L : Layout) (G : Geom ℚ) (axes : ℕ → Axis ℚ) (T : BCTable ℚ) (B : ℕ → Boundary ℚ) (P : NSParams ℚ)
    (flow : Option (FlowNode ℚ)) (bodies : BodyPack ℚ) (kernel : DeltaKernel ℚ) (window : ℕ) (ops : NSOps ℚ) (disk disk' : Disk ℚ) (s : NSState ℚ)
    (x : ℕ → NSState ℚ) (v p : LinSolve ℚ) (c : Stencil),
    CoupledStarted true L G axes T B P flow bodies kernel window ops disk s disk' ∧ x 0 = s ∧
    CoupledTrajectory L G P (nestCounts L bodies) ops v p x 1 ∧ Solves L.UN v ops.A ∧ Solves ops.pN p ops.DBNG ∧ P.pType = .ksp ∧
    Inside L.toMeshInfo 3 c ∧ ∀ V, Filled true L (x 1).B (x 1).U V → netFlux L.dim G c V ≠ 0 := by
  obtain ⟨⟨⟨ops, E, H⟩, s, t⟩, h, hne⟩ := Option.map_eq_some_iff.1 stripCoupled_not_free
  obtain ⟨⟨⟨ops', E', H'⟩, s'⟩, h1, h⟩ := bind_ok (toOption_ok h)
  obtain ⟨t', h2, h⟩ := bind_ok h
  cases h
  obtain ⟨x, x0, xn, hx⟩ := steps_ok h2
  have hi : s.ite = 0 ∧ ops.pN = 4 := by
    obtain ⟨⟨U, p⟩, h3, h1⟩ := bind_ok h1
    obtain ⟨⟨ops', E', H'⟩, h4, h1⟩ := bind_ok h1
    cases h1
    obtain ⟨D, Dm, Gr, La, Lm, BN, idx, _, _, _, _, _, _, e⟩ := ibpmCreate_ok h4
    exact ⟨rfl, by rw [e]; rfl⟩
  obtain ⟨file, hf, _⟩ := writeSolution_spec strip_constructed.setup.layout { s with p := subPressure (nestCounts stripLayout stripBody) s.p }
    (fun _ => none) (stepPath (boxParams 1 0 eulerImplicit eulerExplicit).output s.ite)
  refine ⟨_, _, _, _, _, boxParams 1 0 eulerImplicit eulerExplicit, some stripFlow, stripBody, wideHat, 1, ops, fun _ => none,
    Function.update (fun _ => none) (stepPath (boxParams 1 0 eulerImplicit eulerExplicit).output s.ite) (some file), s, x, gaussSolve 4, gaussSolve 4,
    ⟨0, 0, 0, 0⟩, ⟨strip_constructed, ⟨false, "out", some (boxNode 1 "EULER_IMPLICIT" "EULER_EXPLICIT"), rfl⟩, stripBody_ok, s, (E, H), h1, ?_⟩, x0, hx,
    by rw [strip_sizes.1]; exact gaussSolve_exact _ _, by rw [hi.2]; exact gaussSolve_exact _ _, rfl,
    ⟨fun d hd => by interval_cases d <;> decide, rfl⟩, fun V hV => ?_⟩
  · unfold ibpmIoInitialData ibpmWriteSolution
    rw [if_pos hi.1, hf]
    rfl
  · rw [strip_flux hV, xn]
    exact of_decide_eq_true hne

/-- C44 is false with one cell in a periodic direction, decoupled solver: all systems are solved exactly, and the velocity is not divergence free. -/
theorem C44_false_single_periodic_cell_decoupled : ∃ (L : Layout) (G : Geom ℚ) (axes : ℕ → Axis ℚ) (T : BCTable ℚ) (B : ℕ → Boundary ℚ) (P : NSParams ℚ)
    (flow : Option (FlowNode ℚ)) (bodies : BodyPack ℚ) (kernel : DeltaKernel ℚ) (window : ℕ) (ops : NSOps ℚ) (ib : IBOps ℚ) (disk disk' : Disk ℚ)
    (s : IBState ℚ) (x : ℕ → IBState ℚ) (v f p : LinSolve ℚ) (c : Stencil),
    IBStarted true L G axes T B P flow bodies kernel window ops ib disk s disk' ∧ x 0 = s ∧
    IBTrajectory L G P ops ib v f p x 1 ∧ Solves L.UN v ops.A ∧ Solves ib.nF f ib.EBNH ∧ Solves L.pN p ops.DBNG ∧ P.pType = .ksp ∧
    Inside L.toMeshInfo 3 c ∧ ∀ V, Filled true L (x 1).ns.B (x 1).ns.U V → netFlux L.dim G c V ≠ 0 := by
  obtain ⟨⟨ops, ib, s, t⟩, h, hne⟩ := Option.map_eq_some_iff.1 stripDecoupled_not_free
  obtain ⟨⟨ops', ib', s'⟩, h1, h⟩ := bind_ok (toOption_ok h)
  obtain ⟨t', h2, h⟩ := bind_ok h
  cases h
  obtain ⟨x, x0, xn, hx⟩ := steps_ok h2
  have hi : s.ns.ite = 0 := by
    obtain ⟨⟨ops', ns⟩, h3, h1⟩ := bind_ok h1
    obtain ⟨idx, h4, h1⟩ := bind_ok h1
    obtain ⟨ib', h5, h1⟩ := bind_ok h1
    cases h1
    obtain ⟨_, _, _, _, rfl⟩ := solverInit_ok h3
    rfl
  obtain ⟨file, hf, _⟩ := writeSolution_spec strip_constructed.setup.layout s.ns (fun _ => none)
    (stepPath (boxParams 1 0 eulerImplicit eulerExplicit).output s.ns.ite)
  have S : IBStarted true stripLayout stripGeom singleAxes stripTable stripB (boxParams 1 0 eulerImplicit eulerExplicit) (some stripFlow) stripBody
      wideHat 1 ops ib (fun _ => none) s
      (Function.update (fun _ => none) (stepPath (boxParams 1 0 eulerImplicit eulerExplicit).output s.ns.ite) (some file)) := by
    refine ⟨strip_constructed, ⟨false, "out", some (boxNode 1 "EULER_IMPLICIT" "EULER_EXPLICIT"), rfl⟩, stripBody_ok, s, h1, ?_⟩
    unfold decoupledIoInitialData
    rw [if_pos hi, hf]
    rfl
  obtain ⟨_, _, hn, _⟩ := C55_adjoint S
  refine ⟨_, _, _, _, _, _, _, _, _, _, ops, ib, _, _, s, x, gaussSolve 4, gaussSolve 2, gaussSolve 2, ⟨0, 0, 0, 0⟩, S, x0, hx,
    by rw [strip_sizes.1]; exact gaussSolve_exact _ _, by rw [hn]; exact gaussSolve_exact _ _, by rw [strip_sizes.2]; exact gaussSolve_exact _ _, rfl,
    ⟨fun d hd => by interval_cases d <;> decide, rfl⟩, fun V hV => ?_⟩
  rw [strip_flux hV, xn]
  exact of_decide_eq_true hne

/-! A torus of two by two cells. -/

def quadLayout : Layout := meshLayout 2 twoAxes (fun _ _ => true) fun _ => 1

def quadGeom : Geom ℚ := meshGeom 2 twoAxes fun _ _ => true

def quadB : ℕ → Boundary ℚ := boundaries true quadLayout quadGeom stripTable

theorem quad_constructed : Constructed true quadLayout quadGeom twoAxes stripTable quadB := by
  have C : ∃ B, Constructed true quadLayout quadGeom twoAxes stripTable B := by
    apply C57_construction true (Or.inl rfl) _ (fun _ _ _ _ => rfl) (fun _ _ => by decide)
    · intro f d hf hd
      rcases hf with hf | rfl
      · interval_cases d <;> interval_cases f <;> decide
      · interval_cases d <;> decide
    · intro f loc _ _; simp [stripTable]
    · intro f loc _ _; simp [stripTable]
    · intro d _
      exact ⟨by simp [twoAxes], by simp [twoAxes], by norm_num [twoAxes]⟩
  obtain ⟨B, C⟩ := C
  refine ⟨C.setup, C.part, C.table, fun r hr => ?_⟩
  rw [C.init r hr]
  unfold quadB boundaries
  rw [C.init r hr]

theorem quad_sizes : quadLayout.UN = 8 ∧ quadLayout.pN = 4 := by decide

/-- A constant velocity. -/
def quadFlow : FlowNode ℚ := ⟨some 1, some [fun _ _ _ _ _ => 1, fun _ _ _ _ _ => 1], none⟩

def quadRun : Except Error (NSOps ℚ × NSState ℚ × NSState ℚ) := do
  let (ops, s) ← solverInit true quadLayout quadGeom (boxParams 1 1 eulerExplicit eulerExplicit) (some quadFlow) quadB
  let t ← steps (advance quadLayout quadGeom (boxParams 1 1 eulerExplicit eulerExplicit) ops (gaussSolve 8) (gaussSolve 4)) 1 s
  return (ops, s, t)

/-- Values at the first point: all initial values, and the velocity plus the pressure correction after the step. -/
theorem quadRun_values : (quadRun.toOption.map fun q => (decide (∀ i ∈ Finset.range 8, q.2.1.U i = 1 ∧ q.2.1.p i = 0),
    decide (q.2.2.U 0 + Mat.mult 4 q.1.BNG q.2.2.p 0 ≠ 1))) = some (true, true) := by decide +kernel

/-- C59 is false with two cells in a periodic direction: the two neighbours are the same unknown, the second insertion into the row of the
Laplacian overwrites the first (`C22`). A constant velocity without pressure satisfies the momentum equation with no change at
all, and the step changes it. No other choice of the intermediate velocity helps. -/
theorem C59_false_two_periodic_cells : ∃ (L : Layout) (G : Geom ℚ) (axes : ℕ → Axis ℚ) (T : BCTable ℚ) (B : ℕ → Boundary ℚ) (P : NSParams ℚ)
    (flow : Option (FlowNode ℚ)) (ops : NSOps ℚ) (disk disk' : Disk ℚ) (s : NSState ℚ) (x : ℕ → NSState ℚ) (v p : LinSolve ℚ) (u : Unknown),
    Started true L G axes T B P flow ops disk s disk' ∧ P.nstart = 0 ∧ x 0 = s ∧ Trajectory L G P ops v p x 1 ∧
    (∀ f d, f < L.dim → d < L.dim → 2 ≤ L.n f d) ∧ Solves L.UN v ops.A ∧ Solves L.pN p ops.DBNG ∧
    IsUnknown L u ∧ KnowsWalls L T u.rank u.comp ⟨u.k, u.j, u.i, 0⟩ ∧ L.getPackedGlobalIndex true u.comp ⟨u.k, u.j, u.i, 0⟩ = .ok 0 ∧
    ∀ q φ : ℤ → ℚ, (∀ i : ℤ, 0 ≤ i → i < L.UN → (x 1).U i = q i - Mat.mult L.pN ops.BNG φ i) →
      (∀ i : ℤ, 0 ≤ i → i < L.pN → (x 1).p i = (x 0).p i + φ i) →
      ∃ (V : ℕ → ℕ → Stencil → ℚ) (W : ℕ → Stencil → ℚ) (p : Stencil → ℚ),
        (∀ m, m ≤ 0 → Filled true L (x m).B (x m).U (V m)) ∧
        Extended true L (fun r => ((x 0).B r).updateEqs (x 0).U P.dt) q W ∧ Stored true L 3 (x 0).p p ∧
        (W u.comp ⟨u.k, u.j, u.i, 0⟩ - V 0 u.comp ⟨u.k, u.j, u.i, 0⟩) / P.dt ≠
            -(p (shift ⟨u.k, u.j, u.i, 0⟩ u.comp 1) - p ⟨u.k, u.j, u.i, 0⟩) /
              pressureGap L.toMeshInfo G axes u.comp (coordOf ⟨u.k, u.j, u.i, 0⟩ u.comp)
            - ∑ m ∈ Finset.range (0 + 1), levelWeight P.conv 0 m * convective L.dim G (V m) u.comp ⟨u.k, u.j, u.i, 0⟩
            + P.nu * (∑ m ∈ Finset.range (0 + 1), levelWeight P.diff 0 m *
                (∑ d ∈ Finset.range L.dim, secondDifference G u.comp d ⟨u.k, u.j, u.i, 0⟩ (V m u.comp))
              + P.diff.implicitCoeff * ∑ d ∈ Finset.range L.dim, secondDifference G u.comp d ⟨u.k, u.j, u.i, 0⟩ (W u.comp)) := by
  obtain ⟨⟨ops, s, t⟩, h, hne⟩ := Option.map_eq_some_iff.1 quadRun_values
  obtain ⟨hs, hne⟩ := Prod.mk.inj hne
  have hs := of_decide_eq_true hs
  have hne := of_decide_eq_true hne
  obtain ⟨⟨ops', s'⟩, h1, h⟩ := bind_ok (toOption_ok h)
  obtain ⟨t', h2, h⟩ := bind_ok h
  cases h
  obtain ⟨x, x0, xn, hx⟩ := steps_ok h2
  have C := quad_constructed
  have hite : s.ite = 0 ∧ ∃ U, s.B = fun r => (quadB r).run [.setGhostICs U] := by
    obtain ⟨U, _, _, _, rfl⟩ := solverInit_ok h1
    exact ⟨rfl, U, rfl⟩
  obtain ⟨hite, U, hB⟩ := hite
  obtain ⟨file, hf, _⟩ := writeSolution_spec C.setup.layout s (fun _ => none) (stepPath (boxParams 1 1 eulerExplicit eulerExplicit).output s.ite)
  have S : Started true quadLayout quadGeom twoAxes stripTable quadB (boxParams 1 1 eulerExplicit eulerExplicit) (some quadFlow) ops
      (fun _ => none) s (Function.update (fun _ => none) (stepPath (boxParams 1 1 eulerExplicit eulerExplicit).output s.ite) (some file)) := by
    refine ⟨C, ⟨false, "out", some (boxNode 1 "EULER_EXPLICIT" "EULER_EXPLICIT"), rfl⟩, s, h1, ?_⟩
    unfold ioInitialData
    rw [if_pos hite, hf]
    rfl
  obtain ⟨u1, u2⟩ := quad_sizes
  refine ⟨_, _, _, _, _, boxParams 1 1 eulerExplicit eulerExplicit, _, ops, _, _, s, x, gaussSolve 8, gaussSolve 4, ⟨0, 0, 0, 0, 0⟩, S, rfl, x0, hx,
    ?_, by rw [u1]; exact gaussSolve_exact _ _, by rw [u2]; exact gaussSolve_exact _ _, ?_, ?_, by decide, fun q φ hq hφ => ?_⟩
  · intro f d hf hd
    have hf : f < 2 := hf
    have hd : d < 2 := hd
    interval_cases d <;> interval_cases f <;> decide
  · unfold IsUnknown Owns
    decide
  · intro loc _ _ hp
    cases hp
  obtain ⟨W, hW⟩ := exists_extended C.setup.layout (C.ghosts [.setGhostICs U, .updateEqs s.U 1]) q
  have hrange : ∀ f c idx, (f < quadLayout.dim ∨ f = 3) → Inside quadLayout.toMeshInfo f c → quadLayout.getPackedGlobalIndex true f c = .ok idx →
      ∃ k : ℕ, idx = k ∧ k ∈ Finset.range 8 := by
    intro f c idx hf hc hi
    obtain ⟨c1, c2, c3⟩ := col_inside C.setup.layout hf true hc
    rw [hi] at c1
    have c1 := Except.ok.inj c1
    have hv : vecSize quadLayout f ≤ 8 := by
      unfold vecSize
      split_ifs
      · rw [u2]; omega
      · rw [u1]
    exact ⟨idx.toNat, by omega, Finset.mem_range.2 (by omega)⟩
  refine ⟨fun _ _ _ => 1, W, fun _ => 0, ?_, ?_, ⟨?_, fun _ _ _ _ _ _ _ => rfl⟩, ?_⟩
  · intro m hm
    obtain rfl : m = 0 := by omega
    refine ⟨fun f c idx hf hc hi => ?_, fun _ _ _ _ _ _ => rfl, fun r f loc c b p hr hp => ?_⟩
    · obtain ⟨k, rfl, hk⟩ := hrange f c idx (Or.inl hf) hc hi
      rw [x0]
      exact (hs k hk).1.symm
    · rw [x0, hB] at hp
      have := (C.ghosts [.setGhostICs U]).periodic r f loc c b p hr hp
      simp [quadLayout, meshLayout] at this
  · rw [x0, hB]
    exact hW
  · intro c idx hc hi
    obtain ⟨k, rfl, hk⟩ := hrange 3 c idx (Or.inr rfl) hc hi
    rw [x0]
    exact (hs k hk).2.symm
  · have hW0 := (hW.stored 0 (by decide)).inside ⟨0, 0, 0, 0⟩ 0 ⟨fun d hd => by interval_cases d <;> decide, rfl⟩ (by decide)
    have hq0 := hq 0 (le_refl 0) (by decide)
    have hmul : Mat.mult quadLayout.pN ops.BNG φ 0 = Mat.mult 4 ops.BNG t.p 0 := by
      rw [u2]
      refine mult_congr (fun j j0 j1 => ?_) 0
      have := hφ j j0 (by rw [u2]; exact j1)
      rw [xn, x0] at this
      obtain ⟨k, rfl⟩ := Int.eq_ofNat_of_zero_le j0
      rw [(hs k (Finset.mem_range.2 (by omega))).2, zero_add] at this
      exact this.symm
    rw [hmul, xn] at hq0
    simp only [Finset.sum_range_one, boxParams, levelWeight, eulerExplicit, zero_add]
    intro heq
    have hz : W 0 ⟨0, 0, 0, 0⟩ = 1 := by
      have e1 : convective quadLayout.dim quadGeom (fun _ _ => (1 : ℚ)) 0 ⟨0, 0, 0, 0⟩ = 0 := by simp [convective, momentumFlux]
      have e2 : ∀ d, secondDifference quadGeom 0 d ⟨0, 0, 0, 0⟩ (fun _ => (1 : ℚ)) = 0 := by intro d; simp [secondDifference]
      simp only [Nat.cast_zero, e1, e2, Finset.sum_const_zero, mul_zero, zero_mul, add_zero, sub_self, neg_zero, zero_div, div_one] at heq
      linarith
    apply hne
    have e : t.U 0 + Mat.mult 4 ops.BNG t.p 0 = 1 := by
      rw [← hz, hW0, hq0]
      ring
    exact e

end PetIBM
