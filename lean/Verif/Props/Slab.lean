/-
C105: a plane flow in space is the plane flow.
-/
import Verif.Lemmas.SlabRun
import Verif.Props.Turn

set_option linter.unusedSectionVars false

namespace PetIBM

open Spec

variable {K : Type} [Field K] [LinearOrder K] [IsStrictOrderedRing K]
variable {debug : Bool} {L₁ L₂ : Layout} {G₁ G₂ : Geom K} {axes₁ axes₂ : ℕ → Axis K} {T₁ T₂ : BCTable K} {B₁ B₂ : ℕ → Boundary K}
variable {P : NSParams K} {flow₁ flow₂ : Option (FlowNode K)} {o₁ o₂ : NSOps K} {disk₁ disk₁' disk₂ disk₂' : Disk K} {i₁ i₂ : NSState K}

/-- initial conditions in the plane and in space -/
theorem slab_initial (C₁ : Constructed debug L₁ G₁ axes₁ T₁ B₁) (C₂ : Constructed debug L₂ G₂ axes₂ T₂ B₂) (D : Slab L₁ L₂ axes₁ axes₂ T₁ T₂)
    (hF : SlabFlow flow₁ flow₂) {U₁ p₁ U₂ p₂ : ℤ → K} (e1 : setInitialConditions L₁ G₁ flow₁ (fun _ => 0) (fun _ => 0) = .ok (U₁, p₁))
    (e2 : setInitialConditions L₂ G₂ flow₂ (fun _ => 0) (fun _ => 0) = .ok (U₂, p₂)) : SlabVel L₁ L₂ U₁ U₂ ∧ SlabCells L₁ L₂ p₁ p₂ := by
  have S₁ := C₁.setup
  have S₂ := C₂.setup
  have d1 := D.dim₁
  have d2 := D.dim₂
  obtain ⟨nu, es₁, es₂, q₁, q₂, rfl, rfl, hv, hw, hp⟩ := hF
  obtain ⟨ν, rfl, a1, a2⟩ := initial_at C₁ e1
  obtain ⟨ν', hν, b1, b2⟩ := initial_at C₂ e2
  cases hν
  constructor
  · refine slab_intro D S₁ S₂ (fun f hf s hs => ?_) fun s hs => ?_
    · obtain ⟨x, y, hx, hy, hxy⟩ := hv f hf
      have hs1 := slab_inside D S₁ S₂ (Or.inl hf) hs
      have c : ∀ d, d < 2 → G₂.coord f d (coordOf s d) = G₁.coord f d (coordOf (below s) d) := by
        intro d hd
        have hx := hs1.1 d (by omega)
        rw [coordOf_below s hd] at hx ⊢
        exact slab_coord D S₁ S₂ hf hd (by omega) (by omega)
      rw [a1 f _ x (by omega) hs1 hx, b1 f s y (by omega) hs hy, hxy, c 0 (by omega), c 1 (by omega), coordOf_below_two,
        S₁.flat_coord (Or.inl (by omega)) d1]
    · obtain ⟨y, hy, hz⟩ := hw
      rw [b1 2 s y (by omega) hs hy, hz]
  · intro s hs
    have hs1 := slab_inside D S₁ S₂ (Or.inr rfl) hs
    rw [a2 _ hs1, b2 s hs]
    rcases hp with ⟨rfl, rfl⟩ | ⟨x, y, rfl, rfl, hxy⟩
    · rfl
    · have c : ∀ d, d < 2 → G₂.coord 3 d (coordOf s d) = G₁.coord 3 d (coordOf (below s) d) := by
        intro d hd
        have hx := hs1.1 d (by omega)
        rw [coordOf_below s hd] at hx ⊢
        exact slab_pcoord D S₁ S₂ hd hx.1 hx.2
      dsimp only
      rw [hxy, c 0 (by omega), c 1 (by omega), coordOf_below_two, S₁.flat_coord (Or.inr rfl) d1]

/-- the first states of the two runs -/
theorem slab_start (S₁ : Started debug L₁ G₁ axes₁ T₁ B₁ P flow₁ o₁ disk₁ i₁ disk₁') (S₂ : Started debug L₂ G₂ axes₂ T₂ B₂ P flow₂ o₂ disk₂ i₂ disk₂')
    (D : Slab L₁ L₂ axes₁ axes₂ T₁ T₂) (hF : SlabFlow flow₁ flow₂) (start : P.nstart = 0) :
    ∃ U₁ U₂, SlabVel L₁ L₂ U₁ U₂ ∧ createOperators debug L₁ G₁ P (fun r => (B₁ r).run [.setGhostICs U₁]) = .ok o₁ ∧
      createOperators debug L₂ G₂ P (fun r => (B₂ r).run [.setGhostICs U₂]) = .ok o₂ ∧ Reach L₁ B₁ P o₁.pN U₁ i₁ ∧
      Reach L₂ B₂ P o₂.pN U₂ i₂ ∧ SlabState L₁ L₂ i₁ i₂ := by
  have C₁ := S₁.constructed
  have C₂ := S₂.constructed
  obtain ⟨z₁, e1, f1⟩ := S₁.init
  obtain ⟨z₂, e2, f2⟩ := S₂.init
  obtain ⟨U₁, q₁, a1, a2, ez₁⟩ := solverInit_ok e1
  obtain ⟨U₂, q₂, b1, b2, ez₂⟩ := solverInit_ok e2
  obtain ⟨hu, hq⟩ := slab_initial C₁ C₂ D hF a1 b1
  refine ⟨U₁, U₂, hu, a2, b2, ?_⟩
  rw [createOperators_pN a2, createOperators_pN b2]
  have o1 := setIC_outside C₁.setup.layout a1
  have o2 := setIC_outside C₂.setup.layout b1
  have R₁ : Reach L₁ B₁ P L₁.pN U₁ z₁ := by
    rw [ez₁]
    exact ⟨⟨[], rfl, [], Or.inl rfl⟩, Clean.zero L₁ B₁, List.length_replicate, List.length_replicate, o1.1, o1.2,
          fun x hx i _ => by rw [List.eq_of_mem_replicate hx], fun x hx i _ => by rw [List.eq_of_mem_replicate hx]⟩
  have R₂ : Reach L₂ B₂ P L₂.pN U₂ z₂ := by
    rw [ez₂]
    exact ⟨⟨[], rfl, [], Or.inl rfl⟩, Clean.zero L₂ B₂, List.length_replicate, List.length_replicate, o2.1, o2.2,
          fun x hx i _ => by rw [List.eq_of_mem_replicate hx], fun x hx i _ => by rw [List.eq_of_mem_replicate hx]⟩
  subst ez₁ ez₂
  have rep : ∀ n : ℕ, List.Forall₂ (SlabVel L₁ L₂) (List.replicate n fun _ => (0 : K)) (List.replicate n fun _ => 0) := by
    intro n
    induction n with
    | zero => exact List.Forall₂.nil
    | succ m ih => exact List.Forall₂.cons SlabVel.zero ih
  unfold ioInitialData at f1 f2
  rw [if_pos start] at f1 f2
  obtain ⟨d1, -, f1⟩ := bind_ok f1
  cases f1
  obtain ⟨d2, -, f2⟩ := bind_ok f2
  cases f2
  exact ⟨R₁, R₂, hu, rep _, rep _, slabGhosts_init C₁ C₂ D hu, ⟨rfl, rfl⟩, 0, fun s hs => by rw [add_zero]; exact hq s hs⟩

/-- C105. A configuration in two dimensions and its continuation in a third direction, which is periodic or ends at planes where the fluid slips;
initially nothing depends on the third direction and the third component is zero. If the convective terms know the wall velocities that they need
(for example if nothing flows through the walls), the linear systems are solved exactly and no NEUMANN condition acts on a normal velocity, then
at every step the velocity of the run in three dimensions is, in every layer, the velocity of the run in two dimensions, its third component is
zero, and the pressures agree up to a constant. The widths of the layers are arbitrary and the runs may use different numbers of processes.
Missing: other walls, restarts, the Poisson solver that pins a cell (see `C105_plane_flow_pinned_partial`), fewer than three cells in a periodic
direction, bodies. -/
theorem C105_plane_flow_partial (S₁ : Started debug L₁ G₁ axes₁ T₁ B₁ P flow₁ o₁ disk₁ i₁ disk₁')
    (S₂ : Started debug L₂ G₂ axes₂ T₂ B₂ P flow₂ o₂ disk₂ i₂ disk₂') (D : Slab L₁ L₂ axes₁ axes₂ T₁ T₂)
    (hF : SlabFlow flow₁ flow₂) (start : P.nstart = 0) (hpt : P.pType = .ksp)
    (hn : ∀ f d, f < L₂.dim → d < L₂.dim → L₂.periodic 0 d = true → 3 ≤ L₂.n f d)
    (know₁ : ∀ u, IsUnknown L₁ u → KnowsWalls L₁ T₁ u.rank u.comp ⟨u.k, u.j, u.i, 0⟩)
    (know₂ : ∀ u, IsUnknown L₂ u → KnowsWalls L₂ T₂ u.rank u.comp ⟨u.k, u.j, u.i, 0⟩) (hdt : 0 < P.dt) (hnu : 0 ≤ P.nu)
    (hT : ∀ f loc, f < L₂.dim → loc / 2 = f → (T₂ f loc).1 ≠ .NEUMANN) (hBN : GoodOrder L₂ P o₂.A)
    {v₁ p₁ v₂ p₂ : LinSolve K} (hv1 : Solves L₁.UN v₁ o₁.A) (hp1 : Solves L₁.pN p₁ o₁.DBNG) (hv2 : Solves L₂.UN v₂ o₂.A)
    (hp2 : Solves L₂.pN p₂ o₂.DBNG) {x₁ x₂ : ℕ → NSState K} {n : ℕ} (h1 : x₁ 0 = i₁) (h2 : x₂ 0 = i₂)
    (t₁ : Trajectory L₁ G₁ P o₁ v₁ p₁ x₁ n) (t₂ : Trajectory L₂ G₂ P o₂ v₂ p₂ x₂ n) (k : ℕ) (hk : k ≤ n) :
    SlabVelocity debug L₁ L₂ (x₁ k).U (x₂ k).U ∧ SlabPressure debug L₁ L₂ (x₁ k).p (x₂ k).p ∧ (x₁ k).t = (x₂ k).t ∧
      (x₁ k).ite = (x₂ k).ite := by
  have C₁ := S₁.constructed
  have C₂ := S₂.constructed
  have Z₁ := C₁.setup
  have Z₂ := C₂.setup
  have d2 := D.dim₂
  obtain ⟨U₁, U₂, hu, a2, b2, R₁, R₂, init⟩ := slab_start S₁ S₂ D hF start
  have O := slabOps C₁ C₂ D hn hpt hu a2 b2
  have all : ∀ k, k ≤ n → Reach L₁ B₁ P o₁.pN U₁ (x₁ k) ∧ Reach L₂ B₂ P o₂.pN U₂ (x₂ k) ∧ SlabState L₁ L₂ (x₁ k) (x₂ k) := by
    intro k
    induction k with
    | zero =>
      intro _
      rw [h1, h2]
      exact ⟨R₁, R₂, init⟩
    | succ k ih =>
      intro hk
      obtain ⟨r1, r2, hs⟩ := ih (by omega)
      exact ⟨r1.step C₁ S₁.schemes.1.1 S₁.schemes.2.1 (t₁ k (by omega)), r2.step C₂ S₂.schemes.1.1 S₂.schemes.2.1 (t₂ k (by omega)),
        slab_step S₁ S₂ D hn hpt know₁ know₂ hdt hnu hT hBN hv1 hp1 hv2 hp2 O r1 r2 hs (t₁ k (by omega)) (t₂ k (by omega))⟩
  obtain ⟨-, -, h⟩ := all k hk
  refine ⟨⟨?_, ?_⟩, ?_, h.time.1, h.time.2⟩
  · intro f s i j hf hs hi hj
    obtain ⟨a, b⟩ := slab_packed D Z₁ Z₂ hf hs debug
    rw [a] at hi
    rw [b] at hj
    cases hi
    cases hj
    rw [h.vel f (by omega) s hs, inPlane_lt hf, one_mul]
  · intro s j hs hj
    rw [(col_inside Z₂.layout (Or.inl (by omega)) debug hs).1] at hj
    cases hj
    rw [h.vel 2 (by omega) s hs, inPlane_two, zero_mul]
  · obtain ⟨c, hc⟩ := h.pres
    refine ⟨c, fun s i j hs hi hj => ?_⟩
    obtain ⟨a, b⟩ := slab_packed_cell D Z₁ Z₂ hs debug
    rw [a] at hi
    rw [b] at hj
    cases hi
    cases hj
    exact hc s hs

/-! ### The box with two lids, with two layers of different heights -/

def layerAxes : ℕ → Axis ℚ := fun d => if d < 2 then centredAxes d else ⟨0, 3, [1, 2]⟩

abbrev layerLayout : Layout := meshLayout 3 layerAxes (fun _ _ => false) fun _ => 1

abbrev layerGeom : Geom ℚ := meshGeom 3 layerAxes fun _ _ => false

/-- The lids, and two ends where the fluid slips. -/
def layerTable : BCTable ℚ := fun f b =>
  if f = 2 then (.DIRICHLET, 0) else if b / 2 = 2 then (.NEUMANN, 0) else twoLids f b

abbrev layerB : ℕ → Boundary ℚ := boundaries true layerLayout layerGeom layerTable

def layerFlow : FlowNode ℚ := ⟨some 1, some [fun _ y _ _ _ => y, fun x _ _ _ _ => x, fun _ _ _ _ _ => 0], none⟩

theorem layer_constructed : Constructed true layerLayout layerGeom layerAxes layerTable layerB := by
  apply constructed_boundaries
  apply C57_construction true (Or.inr rfl) _ (fun _ _ _ _ => rfl)
  · intro d hd
    interval_cases d <;> simp
  · intro f d hf hd
    rcases hf with hf | rfl
    · interval_cases d <;> interval_cases f <;> decide
    · interval_cases d <;> decide
  · intro f loc _ _
    unfold layerTable twoLids
    split_ifs <;> simp
  · intro f loc _ _
    unfold layerTable twoLids
    split_ifs <;> simp
  · intro d hd
    unfold layerAxes centredAxes
    split_ifs
    · exact ⟨by simp, by simp, by norm_num⟩
    · exact ⟨by simp, by simp, by norm_num⟩

theorem layer_slab : Slab centredLayout layerLayout centredAxes layerAxes twoLids layerTable := by
  refine ⟨rfl, rfl, fun _ _ => rfl, fun d hd => by simp [layerAxes, hd], ?_, fun loc _ _ => Or.inl rfl, ?_⟩
  · intro f loc hf hl
    unfold layerTable
    rw [if_neg (by omega), if_neg (by omega)]
  · intro f loc hf hl _
    unfold layerTable
    rw [if_neg (by omega), if_pos hl]

/-- A run of `n` steps with exact solvers. -/
def layerRun (n : ℕ) : Except Error (NSOps ℚ × NSState ℚ × NSState ℚ) := do
  let (ops, s) ← solverInit true layerLayout layerGeom (seamParams adamsBashforth2) (some layerFlow) layerB
  let t ← steps (advance layerLayout layerGeom (seamParams adamsBashforth2) ops (gaussSolve 12) (gaussSolve 8)) n s
  return (ops, s, t)

theorem layer_starts : (layerRun 2).toOption.isSome = true := by decide +kernel

theorem layer_flow : SlabFlow (some shearFlow) (some layerFlow) := by
  refine ⟨some 1, _, _, none, none, rfl, rfl, fun f hf => ?_, ⟨_, rfl, fun _ _ _ _ _ => rfl⟩, Or.inl ⟨rfl, rfl⟩⟩
  interval_cases f
  · exact ⟨_, _, rfl, rfl, fun _ _ _ _ _ => rfl⟩
  · exact ⟨_, _, rfl, rfl, fun _ _ _ _ _ => rfl⟩

/-- a run from the first state -/
theorem started_of {L : Layout} {G : Geom ℚ} {axes : ℕ → Axis ℚ} {T : BCTable ℚ} {B : ℕ → Boundary ℚ} (C : Constructed true L G axes T B)
    {flow : FlowNode ℚ} {ops : NSOps ℚ} {s : NSState ℚ}
    (hr : readParams false "out" (some (seamNode none "ADAMS_BASHFORTH_2")) (some flow) = .ok (seamParams adamsBashforth2))
    (h : solverInit true L G (seamParams adamsBashforth2) (some flow) B = .ok (ops, s)) :
    ∃ disk', Started true L G axes T B (seamParams adamsBashforth2) (some flow) ops (fun _ => none) s disk' := by
  have hi : s.ite = 0 := by
    obtain ⟨_, _, _, _, rfl⟩ := solverInit_ok h
    rfl
  obtain ⟨file, hf, _⟩ := writeSolution_spec C.setup.layout s (fun _ => none) (stepPath (seamParams adamsBashforth2).output s.ite)
  refine ⟨Function.update (fun _ => none) (stepPath (seamParams adamsBashforth2).output s.ite) (some file),
    ⟨C, ⟨false, "out", some (seamNode none "ADAMS_BASHFORTH_2"), hr⟩, s, h, ?_⟩⟩
  unfold ioInitialData
  rw [if_pos hi, hf]
  rfl

/-- Two steps in the box with two lids, in the plane and in two layers of different heights: the hypotheses of `C105_plane_flow_partial` hold. -/
example : ∃ o₁ o₂ i₁ i₂ d₁ d₂ x₁ x₂,
    Started true centredLayout centredGeom centredAxes twoLids centredB (seamParams adamsBashforth2) (some shearFlow) o₁ (fun _ => none) i₁ d₁ ∧
    Started true layerLayout layerGeom layerAxes layerTable layerB (seamParams adamsBashforth2) (some layerFlow) o₂ (fun _ => none) i₂ d₂ ∧
    Slab centredLayout layerLayout centredAxes layerAxes twoLids layerTable ∧ SlabFlow (some shearFlow) (some layerFlow) ∧
    (seamParams adamsBashforth2).nstart = 0 ∧ (seamParams adamsBashforth2).pType = .ksp ∧ (∀ d, layerLayout.periodic 0 d = false) ∧
    (∀ u : Unknown, KnowsWalls centredLayout twoLids u.rank u.comp ⟨u.k, u.j, u.i, 0⟩) ∧
    (∀ u : Unknown, KnowsWalls layerLayout layerTable u.rank u.comp ⟨u.k, u.j, u.i, 0⟩) ∧ 0 < (seamParams adamsBashforth2).dt ∧
    0 ≤ (seamParams adamsBashforth2).nu ∧ (∀ f loc, loc / 2 = f → (layerTable f loc).1 ≠ .NEUMANN) ∧
    GoodOrder layerLayout (seamParams adamsBashforth2) o₂.A ∧
    Solves centredLayout.UN (gaussSolve 4) o₁.A ∧ Solves centredLayout.pN (gaussSolve 4) o₁.DBNG ∧ Solves layerLayout.UN (gaussSolve 12) o₂.A ∧
    Solves layerLayout.pN (gaussSolve 8) o₂.DBNG ∧ x₁ 0 = i₁ ∧ x₂ 0 = i₂ ∧
    Trajectory centredLayout centredGeom (seamParams adamsBashforth2) o₁ (gaussSolve 4) (gaussSolve 4) x₁ 2 ∧
    Trajectory layerLayout layerGeom (seamParams adamsBashforth2) o₂ (gaussSolve 12) (gaussSolve 8) x₂ 2 := by
  obtain ⟨⟨o₁, i₁, e₁⟩, h1⟩ := pick centred_starts
  obtain ⟨⟨_, _⟩, a1, h1⟩ := bind_ok h1
  obtain ⟨_, a2, h1⟩ := bind_ok h1
  cases h1
  obtain ⟨⟨o₂, i₂, e₂⟩, h2⟩ := pick layer_starts
  obtain ⟨⟨_, _⟩, b1, h2⟩ := bind_ok h2
  obtain ⟨_, b2, h2⟩ := bind_ok h2
  cases h2
  obtain ⟨x₁, x0, -, hx⟩ := steps_ok a2
  obtain ⟨x₂, y0, -, hy⟩ := steps_ok b2
  obtain ⟨d₁, S₁⟩ := started_of centred_constructed rfl a1
  obtain ⟨d₂, S₂⟩ := started_of layer_constructed rfl b1
  have u : centredLayout.UN = 4 ∧ centredLayout.pN = 4 := by decide +kernel
  have v : layerLayout.UN = 12 ∧ layerLayout.pN = 8 := by decide +kernel
  rw [u.1, u.2, v.1, v.2]
  refine ⟨o₁, o₂, i₁, i₂, d₁, d₂, x₁, x₂, S₁, S₂, layer_slab, layer_flow, rfl, rfl, fun _ => rfl, ?_, ?_, by norm_num [seamParams],
    by norm_num [seamParams], ?_, Or.inl rfl, gaussSolve_exact _ _, gaussSolve_exact _ _, gaussSolve_exact _ _, gaussSolve_exact _ _, x0, y0, hx, hy⟩
  · intro u loc hl hne _ _
    left
    unfold Closed twoLids
    rw [if_neg (by omega), if_neg (by omega)]
  · intro u loc hl hne _ _
    left
    unfold Closed layerTable twoLids
    split_ifs <;> first | rfl | omega
  · rintro f loc rfl
    unfold layerTable twoLids
    split_ifs <;> first | omega | simp

end PetIBM
