/-
C102: the flow does not depend on the names and the orientations of the coordinate axes.
-/
import Verif.Lemmas.TurnRun
import Verif.Props.Processes

set_option linter.unusedSectionVars false

namespace PetIBM

open Spec

variable {K : Type} [Field K] [LinearOrder K] [IsStrictOrderedRing K]
variable {t : Turn} {debug : Bool} {L₁ L₂ : Layout} {G₁ G₂ : Geom K} {axes₁ axes₂ : ℕ → Axis K} {T₁ T₂ : BCTable K} {B₁ B₂ : ℕ → Boundary K}
variable {P : NSParams K} {flow₁ flow₂ : Option (FlowNode K)} {o₁ o₂ : NSOps K} {disk₁ disk₁' disk₂ disk₂' : Disk K} {i₁ i₂ : NSState K}

/-- initial conditions at a point -/
theorem initial_at {L : Layout} {G : Geom K} {axes : ℕ → Axis K} {T : BCTable K} {B : ℕ → Boundary K} (C : Constructed debug L G axes T B)
    {nu : Option K} {es : List (Expr K)} {pe : Option (Expr K)} {U p : ℤ → K}
    (hIC : setInitialConditions L G (some ⟨nu, some es, pe⟩) (fun _ => 0) (fun _ => 0) = .ok (U, p)) : ∃ ν, nu = some ν ∧
      (∀ f s e, f < L.dim → Inside L.toMeshInfo f s → es[f]? = some e →
        U (col L f s) = e (G.coord f 0 (coordOf s 0)) (G.coord f 1 (coordOf s 1)) (G.coord f 2 (coordOf s 2)) 0 ν) ∧
      ∀ s, Inside L.toMeshInfo 3 s → p (col L 3 s) = match pe with
        | some e => e (G.coord 3 0 (coordOf s 0)) (G.coord 3 1 (coordOf s 1)) (G.coord 3 2 (coordOf s 2)) 0 ν
        | none => 0 := by
  have l := C.setup.layout
  obtain _ | ν := nu
  · rw [(C56_missing_rejected L G _ _ (some es) pe 0).2.1] at hIC
    cases hIC
  by_cases bad : 4 < es.length ∨ es.length < L.dim ∧ ∀ f, f < L.dim → 0 < L.n f 0 ∧ 0 < L.n f 1 ∧ 0 < L.n f 2
  · rw [C56_unchecked_count l G _ _ es pe ν bad] at hIC
    cases hIC
  push Not at bad
  have enough : L.dim ≤ es.length := by
    by_contra h
    obtain ⟨f, hf, hx⟩ := bad.2 (by omega)
    have := C.pos f 0 hf (by omega)
    have := C.pos f 1 hf (by omega)
    have := C.pos f 2 hf (by omega)
    have := hx (by omega) (by omega)
    omega
  obtain ⟨V, q, h1, a1, a2, -⟩ := C56_initial_conditions l G ν es pe enough bad.1 (fun _ => 0) fun _ => 0
  rw [hIC] at h1
  cases h1
  refine ⟨ν, rfl, ?_, ?_⟩
  · intro f s e hf hs he
    have x := (col_inside l (Or.inl hf) false hs).1
    obtain ⟨i, j, k, rfl, hi, hj, hk⟩ := hs.nat
    exact a1 f i j k e _ hf hi hj hk he x
  · intro s hs
    have x := (col_inside l (Or.inr rfl) false hs).1
    obtain ⟨i, j, k, rfl, hi, hj, hk⟩ := hs.nat
    have h := a2 i j k _ hi hj hk x
    cases pe <;> exact h

/-- coordinates of a point in both systems -/
theorem turn_position (D : Turned t L₁ L₂ axes₁ axes₂ T₁ T₂) (S₁ : Setup L₁ G₁ axes₁) (S₂ : Setup L₂ G₂ axes₂) {f : ℕ} (hf : f < L₁.dim ∨ f = 3)
    {s : Stencil} (hs : Inside L₁.toMeshInfo f s) {d : ℕ} (hd : d < 3) :
    G₂.coord (t.perm f) (t.perm d) (coordOf (t.point L₁.toMeshInfo f s) (t.perm d)) = t.sign d * G₁.coord f d (coordOf s d) := by
  have h3 := S₁.dim_le
  have hx := hs.1 d hd
  by_cases h : d < L₁.dim
  · rw [coordOf_point D.turn h3 _ _ _ hd]
    rcases hf with hf | rfl
    · exact turn_coord D S₁ S₂ hf h (by omega) (by omega)
    · rw [D.turn.three h3]
      exact turn_pcoord D S₁ S₂ h hx.1 hx.2
  · have h2 : L₁.dim = 2 := by rcases S₁.layout.dim with h' | h' <;> omega
    obtain rfl : d = 2 := by omega
    have hin := (turn_inside D S₁ S₂ hf).2 hs
    have hy := hin.1 2 (by omega)
    have f2 : t.perm f < L₂.dim ∨ t.perm f = 3 := by
      rcases hf with hf | rfl
      · exact Or.inl (turn_in D S₁ S₂ hf hs).1
      · exact Or.inr (D.turn.three h3)
    have n1 := S₁.layout.flat h2 f (by omega)
    have n2 := S₂.layout.flat (by rw [D.dim]; exact h2) (t.perm f) (by have := D.dim; omega)
    rw [(D.turn.rest 2 (by omega)).1]
    have e1 : coordOf s 2 = 0 := by omega
    have e2 : coordOf (t.point L₁.toMeshInfo f s) 2 = 0 := by omega
    rw [e1, e2, S₁.flat_coord hf h2, S₂.flat_coord f2 (by rw [D.dim]; exact h2), mul_zero]

theorem turn_initial (C₁ : Constructed debug L₁ G₁ axes₁ T₁ B₁) (C₂ : Constructed debug L₂ G₂ axes₂ T₂ B₂) (D : Turned t L₁ L₂ axes₁ axes₂ T₁ T₂)
    (hF : t.SameFlow L₁.dim flow₁ flow₂) {U₁ p₁ U₂ p₂ : ℤ → K}
    (e1 : setInitialConditions L₁ G₁ flow₁ (fun _ => 0) (fun _ => 0) = .ok (U₁, p₁))
    (e2 : setInitialConditions L₂ G₂ flow₂ (fun _ => 0) (fun _ => 0) = .ok (U₂, p₂)) : TurnVel t L₁ L₂ U₁ U₂ ∧ TurnCells t L₁ L₂ p₁ p₂ := by
  have S₁ := C₁.setup
  have S₂ := C₂.setup
  have h3 := S₁.dim_le
  obtain ⟨nu, es₁, es₂, q₁, q₂, rfl, rfl, hv, hp⟩ := hF
  obtain ⟨ν, rfl, a1, a2⟩ := initial_at C₁ e1
  obtain ⟨ν', hν, b1, b2⟩ := initial_at C₂ e2
  cases hν
  constructor
  · intro f hf s hs
    obtain ⟨x, y, hx, hy, hxy⟩ := hv f hf
    obtain ⟨f2, hs2⟩ := turn_in D S₁ S₂ hf hs
    rw [a1 f s x hf hs hx, b1 _ _ y f2 hs2 hy]
    exact hxy (fun d => G₁.coord f d (coordOf s d)) (fun d => G₂.coord (t.perm f) d (coordOf (t.point L₁.toMeshInfo f s) d))
      (fun d hd => turn_position D S₁ S₂ (Or.inl hf) hs hd) 0 ν
  · intro s hs
    have hs2 := turn_in_cell D S₁ S₂ hs
    rw [a2 s hs, b2 _ hs2]
    rcases hp with ⟨rfl, rfl⟩ | ⟨x, y, rfl, rfl, hxy⟩
    · rfl
    · have := hxy (fun d => G₁.coord 3 d (coordOf s d)) (fun d => G₂.coord 3 d (coordOf (t.point L₁.toMeshInfo 3 s) d))
        (fun d hd => by
          have := turn_position D S₁ S₂ (Or.inr rfl : 3 < L₁.dim ∨ 3 = 3) hs hd
          rwa [D.turn.three h3] at this) 0 ν
      rw [one_mul] at this
      exact this

/-- the first states of two runs -/
theorem turn_start (S₁ : Started debug L₁ G₁ axes₁ T₁ B₁ P flow₁ o₁ disk₁ i₁ disk₁') (S₂ : Started debug L₂ G₂ axes₂ T₂ B₂ P flow₂ o₂ disk₂ i₂ disk₂')
    (D : Turned t L₁ L₂ axes₁ axes₂ T₁ T₂) (hF : t.SameFlow L₁.dim flow₁ flow₂) (start : P.nstart = 0) :
    ∃ U₁ U₂, TurnVel t L₁ L₂ U₁ U₂ ∧ createOperators debug L₁ G₁ P (fun r => (B₁ r).run [.setGhostICs U₁]) = .ok o₁ ∧
      createOperators debug L₂ G₂ P (fun r => (B₂ r).run [.setGhostICs U₂]) = .ok o₂ ∧ Reach L₁ B₁ P o₁.pN U₁ i₁ ∧
      Reach L₂ B₂ P o₂.pN U₂ i₂ ∧ TurnState t L₁ L₂ i₁ i₂ := by
  have C₁ := S₁.constructed
  have C₂ := S₂.constructed
  obtain ⟨z₁, e1, f1⟩ := S₁.init
  obtain ⟨z₂, e2, f2⟩ := S₂.init
  obtain ⟨U₁, q₁, a1, a2, ez₁⟩ := solverInit_ok e1
  obtain ⟨U₂, q₂, b1, b2, ez₂⟩ := solverInit_ok e2
  obtain ⟨hu, hq⟩ := turn_initial C₁ C₂ D hF a1 b1
  refine ⟨U₁, U₂, hu, a2, b2, ?_⟩
  rw [createOperators_pN a2, createOperators_pN b2]
  have o1 := setIC_outside C₁.setup.layout a1
  have o2 := setIC_outside C₂.setup.layout b1
  have R₁ : Reach L₁ B₁ P L₁.pN U₁ z₁ := by
    rw [ez₁]
    exact ⟨⟨[], rfl, [], Or.inl rfl⟩, Clean.zero L₁ B₁, List.length_replicate, List.length_replicate, o1.1, o1.2,
          fun x hx i _ => by rw [List.eq_of_mem_replicate hx], fun x hx i _ => by rw [List.eq_of_mem_replicate hx]⟩
  have R₂ : Reach L₂ B₂ P L₂.pN U₂ z₂ := by
    rw [ez₂]
    exact ⟨⟨[], rfl, [], Or.inl rfl⟩, Clean.zero L₂ B₂, List.length_replicate, List.length_replicate, o2.1, o2.2,
          fun x hx i _ => by rw [List.eq_of_mem_replicate hx], fun x hx i _ => by rw [List.eq_of_mem_replicate hx]⟩
  subst ez₁ ez₂
  have rep : ∀ n : ℕ, List.Forall₂ (TurnVel t L₁ L₂) (List.replicate n fun _ => (0 : K)) (List.replicate n fun _ => 0) := by
    intro n
    induction n with
    | zero => exact List.Forall₂.nil
    | succ m ih => exact List.Forall₂.cons TurnVel.zero ih
  unfold ioInitialData at f1 f2
  rw [if_pos start] at f1 f2
  obtain ⟨d1, -, f1⟩ := bind_ok f1
  cases f1
  obtain ⟨d2, -, f2⟩ := bind_ok f2
  cases f2
  exact ⟨R₁, R₂, hu, rep _, rep _, turnGhosts_init C₁ C₂ D hu, ⟨rfl, rfl⟩, 0, fun s hs => by rw [add_zero]; exact hq s hs⟩

/-- the conditions for normal velocities, in the second system -/
theorem turn_normal (D : Turned t L₁ L₂ axes₁ axes₂ T₁ T₂) (hT : ∀ f loc, f < L₁.dim → loc / 2 = f → (T₁ f loc).1 ≠ .NEUMANN) :
    ∀ f loc, f < L₂.dim → loc / 2 = f → (T₂ f loc).1 ≠ .NEUMANN := by
  rintro _ loc hf rfl
  rw [D.dim] at hf
  obtain ⟨l, hl, rfl⟩ := D.turn.exists_side (show loc < L₁.dim * 2 by omega)
  rw [Turn.OK.side_div, D.table (l / 2) l (by omega) hl]
  have := hT (l / 2) l (by omega) rfl
  unfold Turn.condition
  revert this
  cases (T₁ (l / 2) l).1 <;> simp

/-- C102. Two runs of one configuration, written in two systems of coordinates: axes may have other names, and axes between walls may have the
opposite orientation. If the convective terms know the wall velocities that they need (for example if nothing flows through the walls), the
linear systems are solved exactly and no NEUMANN condition acts on a normal velocity, then at every step the second velocity is the first
one, written in the second system, and so is the pressure up to a constant. The two runs may use different numbers of processes. Missing:
periodic axes of opposite orientation, other walls, restarts, the Poisson solver that pins a cell, fewer than three cells in a periodic
direction. -/
theorem C102_axes_partial (S₁ : Started debug L₁ G₁ axes₁ T₁ B₁ P flow₁ o₁ disk₁ i₁ disk₁')
    (S₂ : Started debug L₂ G₂ axes₂ T₂ B₂ P flow₂ o₂ disk₂ i₂ disk₂') (D : Turned t L₁ L₂ axes₁ axes₂ T₁ T₂)
    (hF : t.SameFlow L₁.dim flow₁ flow₂) (start : P.nstart = 0) (hpt : P.pType = .ksp)
    (hn : ∀ f d, f < L₁.dim → d < L₁.dim → L₁.periodic 0 d = true → 3 ≤ L₁.n f d)
    (know₁ : ∀ u, IsUnknown L₁ u → KnowsWalls L₁ T₁ u.rank u.comp ⟨u.k, u.j, u.i, 0⟩)
    (know₂ : ∀ u, IsUnknown L₂ u → KnowsWalls L₂ T₂ u.rank u.comp ⟨u.k, u.j, u.i, 0⟩) (hdt : 0 < P.dt) (hnu : 0 ≤ P.nu)
    (hT : ∀ f loc, f < L₁.dim → loc / 2 = f → (T₁ f loc).1 ≠ .NEUMANN) (hBN : GoodOrder L₂ P o₂.A)
    {v₁ p₁ v₂ p₂ : LinSolve K} (hv1 : Solves L₁.UN v₁ o₁.A) (hp1 : Solves L₁.pN p₁ o₁.DBNG) (hv2 : Solves L₂.UN v₂ o₂.A)
    (hp2 : Solves L₂.pN p₂ o₂.DBNG) {x₁ x₂ : ℕ → NSState K} {n : ℕ} (h1 : x₁ 0 = i₁) (h2 : x₂ 0 = i₂)
    (t₁ : Trajectory L₁ G₁ P o₁ v₁ p₁ x₁ n) (t₂ : Trajectory L₂ G₂ P o₂ v₂ p₂ x₂ n) (k : ℕ) (hk : k ≤ n) :
    t.SameVelocity debug L₁ L₂ (x₁ k).U (x₂ k).U ∧ t.SamePressure debug L₁ L₂ (x₁ k).p (x₂ k).p ∧ (x₁ k).t = (x₂ k).t ∧
      (x₁ k).ite = (x₂ k).ite := by
  have C₁ := S₁.constructed
  have C₂ := S₂.constructed
  have Z₁ := C₁.setup
  have Z₂ := C₂.setup
  obtain ⟨U₁, U₂, hu, a2, b2, R₁, R₂, init⟩ := turn_start S₁ S₂ D hF start
  have O := turnOps C₁ C₂ D hn hpt hu a2 b2
  have all : ∀ k, k ≤ n → Reach L₁ B₁ P o₁.pN U₁ (x₁ k) ∧ Reach L₂ B₂ P o₂.pN U₂ (x₂ k) ∧ TurnState t L₁ L₂ (x₁ k) (x₂ k) := by
    intro k
    induction k with
    | zero =>
      intro _
      rw [h1, h2]
      exact ⟨R₁, R₂, init⟩
    | succ k ih =>
      intro hk
      obtain ⟨r1, r2, hs⟩ := ih (by omega)
      exact ⟨r1.step C₁ S₁.schemes.1.1 S₁.schemes.2.1 (t₁ k (by omega)), r2.step C₂ S₂.schemes.1.1 S₂.schemes.2.1 (t₂ k (by omega)),
        turn_step S₁ S₂ D hn hpt know₁ know₂ hdt hnu (turn_normal D hT) hBN hv1 hp1 hv2 hp2 O r1 r2 hs (t₁ k (by omega)) (t₂ k (by omega))⟩
  obtain ⟨-, -, h⟩ := all k hk
  refine ⟨?_, ?_, h.time.1, h.time.2⟩
  · intro f s i j hf hs hi hj
    obtain ⟨a, b⟩ := turn_packed D Z₁ Z₂ hf hs debug
    rw [a] at hi
    rw [b] at hj
    cases hi
    cases hj
    exact h.vel f hf s hs
  · obtain ⟨c, hc⟩ := h.pres
    refine ⟨c, fun s i j hs hi hj => ?_⟩
    obtain ⟨a, b⟩ := turn_packed_cell D Z₁ Z₂ hs debug
    rw [a] at hi
    rw [b] at hj
    cases hi
    cases hj
    exact hc s hs

/-- a field that a turn of the mesh changes by a constant does not change -/
theorem turn_constant {L : Layout} {G : Geom K} {axes : ℕ → Axis K} {T : BCTable K} (S : Setup L G axes) (D : Turned t L L axes axes T T)
    {p : ℤ → K} {c : K} (h : ∀ s, Inside L.toMeshInfo 3 s → p (col L 3 (t.point L.toMeshInfo 3 s)) = p (col L 3 s) + c)
    {s₀ : Stencil} (h₀ : Inside L.toMeshInfo 3 s₀) : c = 0 := by
  have cells : ∀ i ∈ Finset.range L.pN, ∃ s, Inside L.toMeshInfo 3 s ∧ col L 3 s = (i : ℤ) := by
    intro i hi
    obtain ⟨q, ⟨⟨q0, q1, q2⟩, hq⟩, -⟩ := (C04_pressure_index_bijective false L S.layout 0).2 i (by omega) (by have := Finset.mem_range.1 hi; omega)
    refine ⟨⟨q.2.2, q.2.1, q.1, 0⟩, ⟨fun d hd => ?_, rfl⟩, ?_⟩
    · interval_cases d <;> simp [coordOf] <;> omega
    · unfold col
      simp only [Nat.cast_zero] at hq
      rw [hq]
  have index : ∀ s, Inside L.toMeshInfo 3 s → ∃ i ∈ Finset.range L.pN, col L 3 s = (i : ℤ) := by
    intro s hs
    obtain ⟨r0, r1⟩ := pcol_range S.layout hs
    obtain ⟨m, hm⟩ := Int.eq_ofNat_of_zero_le r0
    exact ⟨m, Finset.mem_range.2 (by omega), hm⟩
  obtain ⟨i₀, hi₀, -⟩ := index s₀ h₀
  have ne : (Finset.range L.pN).Nonempty := ⟨i₀, hi₀⟩
  obtain ⟨a, ha, amax⟩ := Finset.exists_max_image _ (fun i : ℕ => p i) ne
  obtain ⟨b, hb, bmin⟩ := Finset.exists_min_image _ (fun i : ℕ => p i) ne
  obtain ⟨s, hs, es⟩ := cells a ha
  obtain ⟨u, hu, eu⟩ := cells b hb
  obtain ⟨i, hi, ei⟩ := index _ (turn_in_cell D S S hs)
  obtain ⟨j, hj, ej⟩ := index _ (turn_in_cell D S S hu)
  have h1 := h s hs
  have h2 := h u hu
  have h3 := amax i hi
  have h4 := bmin j hj
  rw [ei, es] at h1
  rw [ej, eu] at h2
  simp only [h1, h2] at h3 h4
  linarith

/-- C102. A configuration that looks the same in two systems of coordinates (for example one with a plane of symmetry, or one that exchanging two
axes does not change) has a run with that symmetry at every step, in the velocity and in the pressure: a run breaks no symmetry. Missing as in
`C102_axes_partial`. -/
theorem C102_symmetry_partial {L : Layout} {G : Geom K} {axes : ℕ → Axis K} {T : BCTable K} {B : ℕ → Boundary K} {flow : Option (FlowNode K)}
    {o : NSOps K} {disk disk' : Disk K} {i : NSState K} (S : Started debug L G axes T B P flow o disk i disk') (D : Turned t L L axes axes T T)
    (hF : t.SameFlow L.dim flow flow) (start : P.nstart = 0) (hpt : P.pType = .ksp)
    (hn : ∀ f d, f < L.dim → d < L.dim → L.periodic 0 d = true → 3 ≤ L.n f d)
    (know : ∀ u, IsUnknown L u → KnowsWalls L T u.rank u.comp ⟨u.k, u.j, u.i, 0⟩) (hdt : 0 < P.dt) (hnu : 0 ≤ P.nu)
    (hT : ∀ f loc, f < L.dim → loc / 2 = f → (T f loc).1 ≠ .NEUMANN) (hBN : GoodOrder L P o.A) {v p : LinSolve K}
    (hv : Solves L.UN v o.A) (hp : Solves L.pN p o.DBNG) {x : ℕ → NSState K} {n : ℕ} (h : x 0 = i) (tr : Trajectory L G P o v p x n)
    (k : ℕ) (hk : k ≤ n) : t.SameVelocity debug L L (x k).U (x k).U ∧
      ∀ s a b, Inside L.toMeshInfo 3 s → L.getPackedGlobalIndex debug 3 s = .ok a →
        L.getPackedGlobalIndex debug 3 (t.point L.toMeshInfo 3 s) = .ok b → (x k).p b = (x k).p a := by
  obtain ⟨a, ⟨c, hc⟩, -⟩ := C102_axes_partial S S D hF start hpt hn know know hdt hnu hT hBN hv hp hv hp h h tr tr k hk
  have Z := S.constructed.setup
  refine ⟨a, fun s i j hs hi hj => ?_⟩
  have c0 := turn_constant Z D (p := (x k).p) (c := c) (fun s hs => by
    obtain ⟨a, b⟩ := turn_packed_cell D Z Z hs debug
    exact hc s _ _ hs a b) hs
  rw [hc s i j hs hi hj, c0, add_zero]

/-! ### A cavity and its picture with exchanged axes, one of them mirrored -/

/-- The first axis becomes the second one, the second axis the first one with the opposite orientation. -/
def quarterTurn : Turn := ⟨Equiv.swap 0 1, fun d => d == 1⟩

def rotatedAxes : ℕ → Axis ℚ := fun d => if d = 0 then ⟨-2, 0, [1, 1]⟩ else ⟨0, 3, [1, 1, 1]⟩

abbrev rotatedLayout : Layout := meshLayout 2 rotatedAxes (fun _ _ => false) fun _ => 1

abbrev rotatedGeom : Geom ℚ := meshGeom 2 rotatedAxes fun _ _ => false

/-- The lid is the side of smallest `x`, and moves in the direction of `y`. -/
def rotatedTable : BCTable ℚ := fun f b => (.DIRICHLET, if f = 1 ∧ b = 0 then 1 else 0)

abbrev rotatedB : ℕ → Boundary ℚ := boundaries true rotatedLayout rotatedGeom rotatedTable

/-- `(y, x)` with the axes of `quarterTurn`. -/
def rotatedFlow : FlowNode ℚ := ⟨some 1, some [fun _ y _ _ _ => -y, fun x _ _ _ _ => -x], none⟩

theorem rotated_constructed : Constructed true rotatedLayout rotatedGeom rotatedAxes rotatedTable rotatedB := by
  apply constructed_boundaries
  apply C57_construction true (Or.inl rfl) _ (fun _ _ _ _ => rfl)
  · intro d hd
    interval_cases d <;> simp
  · intro f d hf hd
    rcases hf with hf | rfl
    · interval_cases d <;> interval_cases f <;> decide
    · interval_cases d <;> decide
  · intro f loc _ _; simp [rotatedTable]
  · intro f loc _ _; simp [rotatedTable]
  · intro d hd
    interval_cases d
    · exact ⟨by simp [rotatedAxes], by simp [rotatedAxes], by norm_num [rotatedAxes]⟩
    · exact ⟨by simp [rotatedAxes], by simp [rotatedAxes], by norm_num [rotatedAxes]⟩

theorem rotated_turned (px : ℕ) : Turned quarterTurn (seamLayout px) rotatedLayout seamAxes rotatedAxes lidTable rotatedTable := by
  refine ⟨rfl, ⟨fun d hd => ?_, fun _ _ h => by cases h⟩, fun _ _ => rfl, ?_, ?_⟩
  · have hd : 2 ≤ d := hd
    exact ⟨Equiv.swap_apply_of_ne_of_ne (by omega) (by omega), by simp [quarterTurn]; omega⟩
  · intro d hd
    have hd : d < 2 := hd
    interval_cases d
    · rfl
    · simp [quarterTurn, rotatedAxes, seamAxes, mirrored]
  · intro f loc hf hl
    have hf : f < 2 := hf
    have hl : loc < 2 * 2 := hl
    interval_cases f <;> interval_cases loc <;> decide +kernel

theorem rotated_flow : quarterTurn.SameFlow 2 (some shearFlow) (some rotatedFlow) := by
  refine ⟨some 1, _, _, none, none, rfl, rfl, fun f hf => ?_, Or.inl ⟨rfl, rfl⟩⟩
  interval_cases f
  · refine ⟨_, _, rfl, rfl, fun x y h _ _ => ?_⟩
    have := h 1 (by omega)
    simp [quarterTurn, Turn.sign] at this ⊢
    linarith
  · refine ⟨_, _, rfl, rfl, fun x y h _ _ => ?_⟩
    have := h 0 (by omega)
    simp [quarterTurn, Turn.sign] at this ⊢
    linarith

/-- A run of `n` steps with exact solvers. -/
def rotatedRun (n : ℕ) : Except Error (NSOps ℚ × NSState ℚ × NSState ℚ) := do
  let (ops, s) ← solverInit true rotatedLayout rotatedGeom (seamParams adamsBashforth2) (some rotatedFlow) rotatedB
  let t ← steps (advance rotatedLayout rotatedGeom (seamParams adamsBashforth2) ops (gaussSolve 7) (gaussSolve 6)) n s
  return (ops, s, t)

theorem rotated_run {n : ℕ} {ops : NSOps ℚ} {s t : NSState ℚ} (h : rotatedRun n = .ok (ops, s, t)) :
    ∃ disk' x, Started true rotatedLayout rotatedGeom rotatedAxes rotatedTable rotatedB (seamParams adamsBashforth2) (some rotatedFlow) ops
      (fun _ => none) s disk' ∧ x 0 = s ∧ x n = t ∧
      Trajectory rotatedLayout rotatedGeom (seamParams adamsBashforth2) ops (gaussSolve 7) (gaussSolve 6) x n := by
  obtain ⟨⟨ops', s'⟩, h1, h⟩ := bind_ok h
  obtain ⟨t', h2, h⟩ := bind_ok h
  cases h
  obtain ⟨x, x0, xn, hx⟩ := steps_ok h2
  have C := rotated_constructed
  have hi : s.ite = 0 := by
    obtain ⟨_, _, _, _, rfl⟩ := solverInit_ok h1
    rfl
  obtain ⟨file, hf, _⟩ := writeSolution_spec C.setup.layout s (fun _ => none) (stepPath (seamParams adamsBashforth2).output s.ite)
  refine ⟨Function.update (fun _ => none) (stepPath (seamParams adamsBashforth2).output s.ite) (some file), x,
    ⟨C, ⟨false, "out", some (seamNode none "ADAMS_BASHFORTH_2"), rfl⟩, s, h1, ?_⟩, x0, xn, hx⟩
  unfold ioInitialData
  rw [if_pos hi, hf]
  rfl

theorem rotated_knows (u : Unknown) : KnowsWalls rotatedLayout rotatedTable u.rank u.comp ⟨u.k, u.j, u.i, 0⟩ := by
  intro loc hl hne _ _
  left
  unfold Closed rotatedTable
  rw [if_neg (by omega)]

theorem rotated_starts : (rotatedRun 2).toOption.isSome = true := by decide +kernel

/-- Two steps in a cavity with a moving lid, in both systems: the hypotheses of `C102_axes_partial` hold. -/
example : ∃ o₁ o₂ i₁ i₂ d₁ d₂ x₁ x₂,
    Started true (seamLayout 1) seamGeom seamAxes lidTable (seamB lidTable 1) (seamParams adamsBashforth2) (some shearFlow) o₁ (fun _ => none) i₁ d₁ ∧
    Started true rotatedLayout rotatedGeom rotatedAxes rotatedTable rotatedB (seamParams adamsBashforth2) (some rotatedFlow) o₂ (fun _ => none) i₂ d₂ ∧
    Turned quarterTurn (seamLayout 1) rotatedLayout seamAxes rotatedAxes lidTable rotatedTable ∧
    quarterTurn.SameFlow (seamLayout 1).dim (some shearFlow) (some rotatedFlow) ∧ (seamParams adamsBashforth2).nstart = 0 ∧
    (seamParams adamsBashforth2).pType = .ksp ∧ (∀ d, (seamLayout 1).periodic 0 d = false) ∧
    (∀ u : Unknown, KnowsWalls (seamLayout 1) lidTable u.rank u.comp ⟨u.k, u.j, u.i, 0⟩) ∧
    (∀ u : Unknown, KnowsWalls rotatedLayout rotatedTable u.rank u.comp ⟨u.k, u.j, u.i, 0⟩) ∧ 0 < (seamParams adamsBashforth2).dt ∧
    0 ≤ (seamParams adamsBashforth2).nu ∧ (∀ f loc, (lidTable f loc).1 ≠ .NEUMANN) ∧ GoodOrder rotatedLayout (seamParams adamsBashforth2) o₂.A ∧
    Solves (seamLayout 1).UN (gaussSolve 7) o₁.A ∧ Solves (seamLayout 1).pN (gaussSolve 6) o₁.DBNG ∧ Solves rotatedLayout.UN (gaussSolve 7) o₂.A ∧
    Solves rotatedLayout.pN (gaussSolve 6) o₂.DBNG ∧ x₁ 0 = i₁ ∧ x₂ 0 = i₂ ∧
    Trajectory (seamLayout 1) seamGeom (seamParams adamsBashforth2) o₁ (gaussSolve 7) (gaussSolve 6) x₁ 2 ∧
    Trajectory rotatedLayout rotatedGeom (seamParams adamsBashforth2) o₂ (gaussSolve 7) (gaussSolve 6) x₂ 2 := by
  obtain ⟨⟨o₁, i₁, e₁⟩, h1⟩ := pick (cavity_run 1 (Or.inl rfl))
  obtain ⟨⟨o₂, i₂, e₂⟩, h2⟩ := pick rotated_starts
  obtain ⟨d₁, x₁, S₁, x0, -, t1⟩ := seam_run (conv := "ADAMS_BASHFORTH_2") (fun _ _ => rfl) rfl (Or.inl rfl) h1
  obtain ⟨d₂, x₂, S₂, y0, -, t2⟩ := rotated_run h2
  obtain ⟨u1, -, u3, -⟩ := seam_sizes
  have u2 : rotatedLayout.UN = 7 ∧ rotatedLayout.pN = 6 := by decide +kernel
  rw [u1, u2.1, u3, u2.2]
  exact ⟨o₁, o₂, i₁, i₂, d₁, d₂, x₁, x₂, S₁, S₂, rotated_turned 1, rotated_flow, rfl, rfl, fun _ => rfl, lid_knows 1, rotated_knows,
    by norm_num [seamParams], by norm_num [seamParams], fun _ _ => by simp [lidTable], Or.inl rfl, gaussSolve_exact _ _, gaussSolve_exact _ _,
    gaussSolve_exact _ _, gaussSolve_exact _ _, x0, y0, t1, t2⟩

/-! ### A box with two lids that a half turn does not change -/

def halfTurn : Turn := ⟨Equiv.refl ℕ, fun d => d < 2⟩

def centredAxes : ℕ → Axis ℚ := fun _ => ⟨-1, 1, [1, 1]⟩

abbrev centredLayout : Layout := meshLayout 2 centredAxes (fun _ _ => false) fun _ => 1

abbrev centredGeom : Geom ℚ := meshGeom 2 centredAxes fun _ _ => false

/-- Two lids with opposite velocities. -/
def twoLids : BCTable ℚ := fun f b => (.DIRICHLET, if f = 0 ∧ b = 3 then 1 else if f = 0 ∧ b = 2 then -1 else 0)

abbrev centredB : ℕ → Boundary ℚ := boundaries true centredLayout centredGeom twoLids

theorem centred_constructed : Constructed true centredLayout centredGeom centredAxes twoLids centredB := by
  apply constructed_boundaries
  apply C57_construction true (Or.inl rfl) _ (fun _ _ _ _ => rfl)
  · intro d hd
    interval_cases d <;> simp
  · intro f d hf hd
    rcases hf with hf | rfl
    · interval_cases d <;> interval_cases f <;> decide
    · interval_cases d <;> decide
  · intro f loc _ _; simp [twoLids]
  · intro f loc _ _; simp [twoLids]
  · intro d hd
    exact ⟨by simp [centredAxes], by simp [centredAxes], by norm_num [centredAxes]⟩

theorem centred_turned : Turned halfTurn centredLayout centredLayout centredAxes centredAxes twoLids twoLids := by
  refine ⟨rfl, ⟨fun d hd => ?_, fun _ _ h => by cases h⟩, fun _ _ => rfl, ?_, ?_⟩
  · have hd : 2 ≤ d := hd
    exact ⟨rfl, by simp [halfTurn]; omega⟩
  · intro d hd
    have hd : d < 2 := hd
    interval_cases d <;> simp [halfTurn, centredAxes, mirrored]
  · intro f loc hf hl
    have hf : f < 2 := hf
    have hl : loc < 2 * 2 := hl
    interval_cases f <;> interval_cases loc <;> decide +kernel

theorem centred_flow : halfTurn.SameFlow 2 (some shearFlow) (some shearFlow) := by
  refine ⟨some 1, _, _, none, none, rfl, rfl, fun f hf => ?_, Or.inl ⟨rfl, rfl⟩⟩
  interval_cases f
  · refine ⟨_, _, rfl, rfl, fun x y h _ _ => ?_⟩
    have := h 1 (by omega)
    simp [halfTurn, Turn.sign] at this ⊢
    linarith
  · refine ⟨_, _, rfl, rfl, fun x y h _ _ => ?_⟩
    have := h 0 (by omega)
    simp [halfTurn, Turn.sign] at this ⊢
    linarith

/-- A run of `n` steps with exact solvers. -/
def centredRun (n : ℕ) : Except Error (NSOps ℚ × NSState ℚ × NSState ℚ) := do
  let (ops, s) ← solverInit true centredLayout centredGeom (seamParams adamsBashforth2) (some shearFlow) centredB
  let t ← steps (advance centredLayout centredGeom (seamParams adamsBashforth2) ops (gaussSolve 4) (gaussSolve 4)) n s
  return (ops, s, t)

theorem centred_starts : (centredRun 2).toOption.isSome = true := by decide +kernel

/-- Two steps in a box with two lids: the hypotheses of `C102_symmetry_partial` hold. -/
example : ∃ o i d x,
    Started true centredLayout centredGeom centredAxes twoLids centredB (seamParams adamsBashforth2) (some shearFlow) o (fun _ => none) i d ∧
    Turned halfTurn centredLayout centredLayout centredAxes centredAxes twoLids twoLids ∧
    halfTurn.SameFlow centredLayout.dim (some shearFlow) (some shearFlow) ∧
    (∀ u : Unknown, KnowsWalls centredLayout twoLids u.rank u.comp ⟨u.k, u.j, u.i, 0⟩) ∧ (∀ f loc, (twoLids f loc).1 ≠ .NEUMANN) ∧
    GoodOrder centredLayout (seamParams adamsBashforth2) o.A ∧ Solves centredLayout.UN (gaussSolve 4) o.A ∧
    Solves centredLayout.pN (gaussSolve 4) o.DBNG ∧ x 0 = i ∧
    Trajectory centredLayout centredGeom (seamParams adamsBashforth2) o (gaussSolve 4) (gaussSolve 4) x 2 := by
  obtain ⟨⟨o, s, e⟩, h⟩ := pick centred_starts
  obtain ⟨⟨ops', s'⟩, h1, h⟩ := bind_ok h
  obtain ⟨t', h2, h⟩ := bind_ok h
  cases h
  obtain ⟨x, x0, -, hx⟩ := steps_ok h2
  have C := centred_constructed
  have hi : s.ite = 0 := by
    obtain ⟨_, _, _, _, rfl⟩ := solverInit_ok h1
    rfl
  obtain ⟨file, hf, _⟩ := writeSolution_spec C.setup.layout s (fun _ => none) (stepPath (seamParams adamsBashforth2).output s.ite)
  have u : centredLayout.UN = 4 ∧ centredLayout.pN = 4 := by decide +kernel
  rw [u.1, u.2]
  refine ⟨o, s, Function.update (fun _ => none) (stepPath (seamParams adamsBashforth2).output s.ite) (some file), x,
    ⟨C, ⟨false, "out", some (seamNode none "ADAMS_BASHFORTH_2"), rfl⟩, s, h1, ?_⟩, centred_turned, centred_flow, ?_, fun _ _ => by simp [twoLids],
    Or.inl rfl, gaussSolve_exact _ _, gaussSolve_exact _ _, x0, hx⟩
  · unfold ioInitialData
    rw [if_pos hi, hf]
    rfl
  · intro u loc hl hne _ _
    left
    unfold Closed twoLids
    rw [if_neg (by omega), if_neg (by omega)]

end PetIBM
