/-
C82: the results do not depend on how the mesh is distributed over the processes.
-/
import Verif.Lemmas.ProcessesRun
import Verif.Props.Solution
import Verif.Props.Restart
import Verif.Props.Ibpm

set_option linter.unusedSectionVars false

namespace PetIBM

open Spec

variable {K : Type} [Field K] [LinearOrder K] [IsStrictOrderedRing K]
variable {debug : Bool} {L₁ L₂ : Layout} {G : Geom K} {axes : ℕ → Axis K} {T : BCTable K} {B₁ B₂ : ℕ → Boundary K}
variable {P : NSParams K} {flow : Option (FlowNode K)} {o₁ o₂ : NSOps K} {disk₁ disk₁' disk₂ disk₂' : Disk K} {i₁ i₂ : NSState K}

theorem same_initial (C₁ : Constructed debug L₁ G axes T B₁) (C₂ : Constructed debug L₂ G axes T B₂) (hM : L₂.toMeshInfo = L₁.toMeshInfo)
    {U₁ p₁ U₂ p₂ : ℤ → K} (e1 : setInitialConditions L₁ G flow (fun _ => 0) (fun _ => 0) = .ok (U₁, p₁))
    (e2 : setInitialConditions L₂ G flow (fun _ => 0) (fun _ => 0) = .ok (U₂, p₂)) : SameVel L₁ L₂ U₁ U₂ ∧ SameAt L₁ L₂ 3 p₁ p₂ := by
  have l1 := C₁.setup.layout
  have l2 := C₂.setup.layout
  obtain _ | ⟨nu, es, pe⟩ := flow
  · rw [(C56_missing_rejected L₁ G _ _ none none 0).1] at e1
    cases e1
  obtain _ | nu := nu
  · rw [(C56_missing_rejected L₁ G _ _ es pe 0).2.1] at e1
    cases e1
  obtain _ | es := es
  · rw [(C56_missing_rejected L₁ G _ _ none pe nu).2.2] at e1
    cases e1
  by_cases bad : 4 < es.length ∨ es.length < L₁.dim ∧ ∀ f, f < L₁.dim → 0 < L₁.n f 0 ∧ 0 < L₁.n f 1 ∧ 0 < L₁.n f 2
  · rw [C56_unchecked_count l1 G _ _ es pe nu bad] at e1
    cases e1
  push Not at bad
  have enough : L₁.dim ≤ es.length := by
    by_contra h
    obtain ⟨f, hf, hx⟩ := bad.2 (by omega)
    have := C₁.pos f 0 hf (by omega)
    have := C₁.pos f 1 hf (by omega)
    have := C₁.pos f 2 hf (by omega)
    have := hx (by omega) (by omega)
    omega
  obtain ⟨V, q, h1, a1, a2, -⟩ := C56_initial_conditions l1 G nu es pe enough bad.1 (fun _ => 0) fun _ => 0
  rw [e1] at h1
  cases h1
  obtain ⟨V, q, h1, b1, b2, -⟩ := C56_initial_conditions l2 G nu es pe (by rw [hM]; exact enough) bad.1 (fun _ => 0) fun _ => 0
  rw [e2] at h1
  cases h1
  constructor
  · intro f hf s hs
    obtain ⟨x1, x2⟩ := SameVel.of_packed l1 l2 hM hf hs false
    obtain ⟨i, j, k, rfl, hi, hj, hk⟩ := hs.nat
    have he : es[f]? = some es[f] := List.getElem?_eq_getElem (by omega)
    rw [a1 f i j k _ _ hf hi hj hk he x1, b1 f i j k _ _ (by rw [hM]; exact hf) (by rw [hM]; exact hi) (by rw [hM]; exact hj) (by rw [hM]; exact hk) he x2]
  · intro s hs
    have x1 := (col_inside l1 (Or.inr rfl) false hs).1
    have x2 := (col_inside l2 (Or.inr rfl) false (by rw [hM]; exact hs)).1
    obtain ⟨i, j, k, rfl, hi, hj, hk⟩ := hs.nat
    rw [a2 i j k _ hi hj hk x1, b2 i j k _ (by rw [hM]; exact hi) (by rw [hM]; exact hj) (by rw [hM]; exact hk) x2]

theorem exists_map {α β : Type} [Inhabited β] {l : List α} (hl : l.Nodup) {v : List β} (h : v.length = l.length) : ∃ u : α → β, v = l.map u := by
  classical
  induction l generalizing v with
  | nil => exact ⟨fun _ => default, by simpa using h⟩
  | cons a l ih =>
    match v, h with
    | b :: v, h =>
      obtain ⟨h1, h2⟩ := List.nodup_cons.1 hl
      obtain ⟨u, rfl⟩ := ih h2 (v := v) (by simpa using h)
      refine ⟨Function.update u a b, ?_⟩
      rw [List.map_cons, Function.update_self]
      congr 1
      refine List.map_congr_left fun x hx => ?_
      rw [Function.update_of_ne]
      rintro rfl
      exact h1 hx

theorem nodup_gridList (M : MeshInfo) (f : ℕ) : (gridList M f).Nodup := by
  unfold gridList
  rw [List.nodup_flatMap]
  refine ⟨fun k _ => ?_, ?_⟩
  · rw [List.nodup_flatMap]
    refine ⟨fun j _ => List.Nodup.map (fun a b h => (Prod.mk.inj h).1) List.nodup_range, ?_⟩
    refine List.Pairwise.imp ?_ List.nodup_range
    intro a b hab
    simp only [Function.onFun, List.disjoint_left, List.mem_map]
    rintro x ⟨i, -, rfl⟩ ⟨j, -, h⟩
    simp only [Prod.mk.injEq] at h
    exact hab h.2.1.symm
  · refine List.Pairwise.imp ?_ List.nodup_range
    intro a b hab
    simp only [Function.onFun, List.disjoint_left, List.mem_map, List.mem_flatMap]
    rintro x ⟨i, -, i', -, rfl⟩ ⟨j, -, j', -, h⟩
    simp only [Prod.mk.injEq] at h
    exact hab h.2.2.symm

/-- two distributions read the same file -/
theorem same_read (h1 : LayoutOK L₁) (h2 : LayoutOK L₂) (hM : L₂.toMeshInfo = L₁.toMeshInfo) {d₁ d₂ : Disk K} {path : String} (hd : d₁ path = d₂ path)
    {U₁ p₁ U₂ p₂ V₁ q₁ V₂ q₂ : ℤ → K} (e1 : solutionRead L₁ U₁ p₁ d₁ path = .ok (V₁, q₁)) (e2 : solutionRead L₂ U₂ p₂ d₂ path = .ok (V₂, q₂)) :
    SameVel L₁ L₂ V₁ V₂ ∧ SameAt L₁ L₂ 3 q₁ q₂ := by
  have ok : ∃ file, d₁ path = some file ∧ (∀ f, f < L₁.dim → ∃ v, file.data ("/" ++ fd2str f) = some v ∧ v.length = (gridList L₁.toMeshInfo f).length) ∧
      ∃ v, file.data "/p" = some v ∧ v.length = (gridList L₁.toMeshInfo 3).length := by
    cases hf : d₁ path with
    | none => rw [C54_read_rejected h1 U₁ p₁ d₁ path (Or.inl hf)] at e1; cases e1
    | some file =>
      refine ⟨file, rfl, ?_, ?_⟩
      · intro f hlt
        by_contra hc
        push Not at hc
        rw [C54_read_rejected h1 U₁ p₁ d₁ path (Or.inr ⟨file, hf, Or.inl ⟨f, hlt, fun v hv => by rw [← length_gridList]; exact hc v hv⟩⟩)] at e1
        cases e1
      · by_contra hc
        push Not at hc
        rw [C54_read_rejected h1 U₁ p₁ d₁ path (Or.inr ⟨file, hf, Or.inr fun v hv => by rw [← length_gridList]; exact hc v hv⟩)] at e1
        cases e1
  obtain ⟨file, hf, hv, vp, hp, lp⟩ := ok
  haveI : Inhabited K := ⟨0⟩
  have hu : ∀ f, ∃ u : ℕ × ℕ × ℕ → K, (f < L₁.dim → file.data ("/" ++ fd2str f) = some ((gridList L₁.toMeshInfo f).map u)) ∧
      (f = 3 → file.data "/p" = some ((gridList L₁.toMeshInfo f).map u)) := by
    intro f
    by_cases h3 : f = 3
    · subst h3
      obtain ⟨u, rfl⟩ := exists_map (nodup_gridList _ _) lp
      exact ⟨u, fun h => by rcases h1.dim with h' | h' <;> omega, fun _ => hp⟩
    · by_cases hlt : f < L₁.dim
      · obtain ⟨v, e, l⟩ := hv f hlt
        obtain ⟨u, rfl⟩ := exists_map (nodup_gridList _ _) l
        exact ⟨u, fun _ => e, fun h => absurd h h3⟩
      · exact ⟨fun _ => 0, fun h => absurd h hlt, fun h => absurd h h3⟩
  choose u hu1 hu2 using hu
  have r1 := solutionRead_eq h1 U₁ p₁ hf (u := u) hu1 (hu2 3 rfl)
  have r2 := solutionRead_eq h2 U₂ p₂ (hd ▸ hf) (u := u) (by rw [hM]; exact hu1) (by rw [hM]; exact hu2 3 rfl)
  rw [e1] at r1
  rw [e2] at r2
  simp only [Except.ok.injEq, Prod.mk.injEq] at r1 r2
  obtain ⟨rfl, rfl⟩ := r1
  obtain ⟨rfl, rfl⟩ := r2
  constructor
  · intro f hlt s hs
    obtain ⟨x, hx, rfl⟩ := exists_pst hs
    rw [assign_velocity h1 (u := u) (by simp [List.mem_flatMap]) U₁ hlt hx,
      assign_velocity h2 (u := u) (by simp [List.mem_flatMap]) U₂ (by rw [hM]; exact hlt) (by rw [hM]; exact hx)]
  · intro s hs
    obtain ⟨x, hx, rfl⟩ := exists_pst hs
    rw [assign_pressure h1 (u := u 3) (by simp) p₁ hx, assign_pressure h2 (u := u 3) (by simp) p₂ (by rw [hM]; exact hx)]

/-- the first states of two runs -/
theorem same_start (S₁ : Started debug L₁ G axes T B₁ P flow o₁ disk₁ i₁ disk₁') (S₂ : Started debug L₂ G axes T B₂ P flow o₂ disk₂ i₂ disk₂')
    (hM : L₂.toMeshInfo = L₁.toMeshInfo) (start : SameStart P disk₁ disk₂) :
    ∃ U₁ U₂, SameVel L₁ L₂ U₁ U₂ ∧ createOperators debug L₁ G P (fun r => (B₁ r).run [.setGhostICs U₁]) = .ok o₁ ∧
      createOperators debug L₂ G P (fun r => (B₂ r).run [.setGhostICs U₂]) = .ok o₂ ∧ Reach L₁ B₁ P o₁.pN U₁ i₁ ∧
      Reach L₂ B₂ P o₂.pN U₂ i₂ ∧ SameState L₁ L₂ i₁ i₂ := by
  have C₁ := S₁.constructed
  have C₂ := S₂.constructed
  obtain ⟨z₁, e1, f1⟩ := S₁.init
  obtain ⟨z₂, e2, f2⟩ := S₂.init
  obtain ⟨U₁, q₁, a1, a2, ez₁⟩ := solverInit_ok e1
  obtain ⟨U₂, q₂, b1, b2, ez₂⟩ := solverInit_ok e2
  obtain ⟨hu, hq⟩ := same_initial C₁ C₂ hM a1 b1
  refine ⟨U₁, U₂, hu, a2, b2, ?_⟩
  rw [createOperators_pN a2, createOperators_pN b2]
  have o1 := setIC_outside C₁.setup.layout a1
  have o2 := setIC_outside C₂.setup.layout b1
  have R₁ : Reach L₁ B₁ P L₁.pN U₁ z₁ := by
    rw [ez₁]
    exact ⟨⟨[], rfl, [], Or.inl rfl⟩, Clean.zero L₁ B₁, List.length_replicate, List.length_replicate, o1.1, o1.2,
          fun x hx i _ => by rw [List.eq_of_mem_replicate hx], fun x hx i _ => by rw [List.eq_of_mem_replicate hx]⟩
  have R₂ : Reach L₂ B₂ P L₂.pN U₂ z₂ := by
    rw [ez₂]
    exact ⟨⟨[], rfl, [], Or.inl rfl⟩, Clean.zero L₂ B₂, List.length_replicate, List.length_replicate, o2.1, o2.2,
          fun x hx i _ => by rw [List.eq_of_mem_replicate hx], fun x hx i _ => by rw [List.eq_of_mem_replicate hx]⟩
  subst ez₁ ez₂
  have rep : ∀ n : ℕ, List.Forall₂ (SameVel L₁ L₂) (List.replicate n fun _ => (0 : K)) (List.replicate n fun _ => 0) := by
    intro n
    induction n with
    | zero => exact List.Forall₂.nil
    | succ m ih => exact List.Forall₂.cons (fun _ _ _ _ => rfl) ih
  unfold ioInitialData at f1 f2
  by_cases start0 : P.nstart = 0
  · rw [if_pos start0] at f1 f2
    obtain ⟨d1, -, f1⟩ := bind_ok f1
    cases f1
    obtain ⟨d2, -, f2⟩ := bind_ok f2
    cases f2
    exact ⟨R₁, R₂, ⟨hu, fun _ _ h => SameVel.pushTerm (rep _) h, fun _ _ h => SameVel.pushTerm (rep _) h, sameGhosts_init C₁ C₂ hM hu, rfl, rfl⟩,
      0, fun s hs => by rw [add_zero]; exact hq s hs⟩
  · obtain ⟨hd, n1, n2⟩ := start.resolve_left start0
    rw [if_neg start0] at f1 f2
    obtain ⟨s₁, g1, f1⟩ := bind_ok f1
    cases f1
    obtain ⟨s₂, g2, f2⟩ := bind_ok f2
    cases f2
    have R₁' := R₁.restart C₁.setup.layout g1
    have R₂' := R₂.restart C₂.setup.layout g2
    refine ⟨R₁', R₂', ?_⟩
    have k1 := R₁'.nconv
    have k2 := R₁'.ndiff
    have k3 := R₂'.nconv
    have k4 := R₂'.ndiff
    obtain ⟨V₁, w₁, t₁, c₁, d₁, m1, ⟨file, m2, m3⟩, -, -, rfl⟩ := readRestart_ok g1
    obtain ⟨V₂, w₂, t₂, c₂, d₂, m1', ⟨file', m2', m3'⟩, -, -, rfl⟩ := readRestart_ok g2
    obtain ⟨hV, hw⟩ := same_read C₁.setup.layout C₂.setup.layout hM hd m1 m1'
    rw [hd, m2'] at m2
    cases m2
    rw [m3'] at m3
    cases m3
    exact ⟨⟨hV, fun _ _ h => SameVel.pushTerm_single (by rw [k1, k3]) (by rw [k1]; exact n1) h,
      fun _ _ h => SameVel.pushTerm_single (by rw [k2, k4]) (by rw [k2]; exact n2) h,
      sameGhosts_run C₁ C₂ hM hV [.setGhostICs U₁] [.setGhostICs U₂], rfl, rfl⟩, 0, fun s hs => by rw [add_zero]; exact hw s hs⟩

/-- the states of two runs -/
theorem same_run (S₁ : Started debug L₁ G axes T B₁ P flow o₁ disk₁ i₁ disk₁') (S₂ : Started debug L₂ G axes T B₂ P flow o₂ disk₂ i₂ disk₂')
    (hM : L₂.toMeshInfo = L₁.toMeshInfo) (hn : ∀ f d, f < L₁.dim → d < L₁.dim → L₁.periodic 0 d = true → 3 ≤ L₁.n f d)
    (know₁ : ∀ u, IsUnknown L₁ u → KnowsWalls L₁ T u.rank u.comp ⟨u.k, u.j, u.i, 0⟩)
    (know₂ : ∀ u, IsUnknown L₂ u → KnowsWalls L₂ T u.rank u.comp ⟨u.k, u.j, u.i, 0⟩) (hdt : 0 < P.dt) (hnu : 0 ≤ P.nu)
    (hT : ∀ f loc, f < L₂.dim → loc / 2 = f → (T f loc).1 ≠ .NEUMANN) (hBN : GoodOrder L₂ P o₂.A) (start : SameStart P disk₁ disk₂)
    {v₁ p₁ v₂ p₂ : LinSolve K} (hv1 : Solves L₁.UN v₁ o₁.A) (hp1 : Solves L₁.pN p₁ o₁.DBNG) (hv2 : Solves L₂.UN v₂ o₂.A)
    (hp2 : Solves L₂.pN p₂ o₂.DBNG) {x₁ x₂ : ℕ → NSState K} {n : ℕ} (h1 : x₁ 0 = i₁) (h2 : x₂ 0 = i₂)
    (t₁ : Trajectory L₁ G P o₁ v₁ p₁ x₁ n) (t₂ : Trajectory L₂ G P o₂ v₂ p₂ x₂ n) (k : ℕ) (hk : k ≤ n) : SameState L₁ L₂ (x₁ k) (x₂ k) := by
  have C₁ := S₁.constructed
  have C₂ := S₂.constructed
  obtain ⟨U₁, U₂, hu, a2, b2, R₁, R₂, init⟩ := same_start S₁ S₂ hM start
  have O := sameOps C₁ C₂ hM hn hu a2 b2
  have reach : ∀ k, k ≤ n → Reach L₁ B₁ P o₁.pN U₁ (x₁ k) ∧ Reach L₂ B₂ P o₂.pN U₂ (x₂ k) := by
    intro k
    induction k with
    | zero =>
      intro _
      rw [h1, h2]
      exact ⟨R₁, R₂⟩
    | succ k ih =>
      intro hk
      obtain ⟨r1, r2⟩ := ih (by omega)
      exact ⟨r1.step C₁ S₁.schemes.1.1 S₁.schemes.2.1 (t₁ k (by omega)), r2.step C₂ S₂.schemes.1.1 S₂.schemes.2.1 (t₂ k (by omega))⟩
  induction k with
  | zero =>
    rw [h1, h2]
    exact init
  | succ k ih =>
    obtain ⟨r1, r2⟩ := reach k (by omega)
    exact same_step S₁ S₂ hM hn know₁ know₂ hdt hnu hT hBN hv1 hp1 hv2 hp2 O r1 r2 (ih (by omega)) (t₁ k (by omega)) (t₂ k (by omega))

/-- C82. Two runs of one configuration with different numbers of processes, from the initial conditions or from one file: as long as
every process has the wall velocities that its convective terms need (for example if nothing flows through the walls), the linear
systems are solved exactly and no NEUMANN condition acts on a normal velocity, the velocities agree at every point and at every
step, and the pressures up to a constant. What is missing: other walls (see `C82_false_open_walls`), restarts with a scheme that keeps
the explicit term of the previous step (see `C82_false_restart`), meshes with fewer than three cells in a periodic direction. -/
theorem C82_processes_partial (S₁ : Started debug L₁ G axes T B₁ P flow o₁ disk₁ i₁ disk₁')
    (S₂ : Started debug L₂ G axes T B₂ P flow o₂ disk₂ i₂ disk₂') (hM : L₂.toMeshInfo = L₁.toMeshInfo)
    (hn : ∀ f d, f < L₁.dim → d < L₁.dim → L₁.periodic 0 d = true → 3 ≤ L₁.n f d)
    (know₁ : ∀ u, IsUnknown L₁ u → KnowsWalls L₁ T u.rank u.comp ⟨u.k, u.j, u.i, 0⟩)
    (know₂ : ∀ u, IsUnknown L₂ u → KnowsWalls L₂ T u.rank u.comp ⟨u.k, u.j, u.i, 0⟩) (hdt : 0 < P.dt) (hnu : 0 ≤ P.nu)
    (hT : ∀ f loc, f < L₁.dim → loc / 2 = f → (T f loc).1 ≠ .NEUMANN) (hBN : GoodOrder L₂ P o₂.A) (start : SameStart P disk₁ disk₂)
    {v₁ p₁ v₂ p₂ : LinSolve K} (hv1 : Solves L₁.UN v₁ o₁.A) (hp1 : Solves L₁.pN p₁ o₁.DBNG) (hv2 : Solves L₂.UN v₂ o₂.A)
    (hp2 : Solves L₂.pN p₂ o₂.DBNG) {x₁ x₂ : ℕ → NSState K} {n : ℕ} (h1 : x₁ 0 = i₁) (h2 : x₂ 0 = i₂)
    (t₁ : Trajectory L₁ G P o₁ v₁ p₁ x₁ n) (t₂ : Trajectory L₂ G P o₂ v₂ p₂ x₂ n) (k : ℕ) (hk : k ≤ n) :
    SameVelocity debug L₁ L₂ (x₁ k).U (x₂ k).U ∧ SamePressure debug L₁ L₂ (x₁ k).p (x₂ k).p ∧ (x₁ k).t = (x₂ k).t ∧
      (x₁ k).ite = (x₂ k).ite := by
  have l1 := S₁.constructed.setup.layout
  have l2 := S₂.constructed.setup.layout
  have h := same_run S₁ S₂ hM hn know₁ know₂ hdt hnu (by rw [hM]; exact hT) hBN start hv1 hp1 hv2 hp2 h1 h2 t₁ t₂ k hk
  refine ⟨?_, ?_, h.time.1, h.time.2⟩
  · intro f s i j hf hs hi hj
    obtain ⟨a, b⟩ := SameVel.of_packed l1 l2 hM hf hs debug
    rw [a] at hi
    rw [b] at hj
    cases hi
    cases hj
    exact h.vel f hf s hs
  · obtain ⟨c, hc⟩ := h.pres
    refine ⟨c, fun s i j hs hi hj => ?_⟩
    rw [(col_inside l1 (Or.inr rfl) debug hs).1] at hi
    rw [(col_inside l2 (Or.inr rfl) debug (by rw [hM]; exact hs)).1] at hj
    cases hi
    cases hj
    exact hc s hs

/-- C82. A run is saved in step `k` and continued with another number of processes: under the hypotheses of `C82_processes_partial` and
without convective boundaries, the continued run has the velocities of the run that was not interrupted. Missing as there. -/
theorem C82_continued_partial (S₁ : Started debug L₁ G axes T B₁ P flow o₁ disk₁ i₁ disk₁') {k : ℕ} {nt : ℤ} {d : Disk K} {file : H5File K}
    (S₂ : Started debug L₂ G axes T B₂ (continued P k nt) flow o₂ d i₂ disk₂') (hM : L₂.toMeshInfo = L₁.toMeshInfo)
    (hn : ∀ f d, f < L₁.dim → d < L₁.dim → L₁.periodic 0 d = true → 3 ≤ L₁.n f d)
    (know₁ : ∀ u, IsUnknown L₁ u → KnowsWalls L₁ T u.rank u.comp ⟨u.k, u.j, u.i, 0⟩)
    (know₂ : ∀ u, IsUnknown L₂ u → KnowsWalls L₂ T u.rank u.comp ⟨u.k, u.j, u.i, 0⟩) (hdt : 0 < P.dt) (hnu : 0 ≤ P.nu)
    (hT : ∀ f loc, f < L₁.dim → loc / 2 = f → (T f loc).1 ≠ .NEUMANN) (hC : NoConvective L₁ T) (hBN : GoodOrder L₂ P o₂.A)
    (nconv : P.conv.nExplicit ≤ 1) (ndiff : P.diff.nExplicit ≤ 1)
    {v₁ p₁ v₂ p₂ : LinSolve K} (hv1 : Solves L₁.UN v₁ o₁.A) (hp1 : Solves L₁.pN p₁ o₁.DBNG) (hg : IgnoresGuess p₁)
    (hv2 : Solves L₂.UN v₂ o₂.A) (hp2 : Solves L₂.pN p₂ o₂.DBNG) {x₁ x₂ : ℕ → NSState K} {n : ℕ} (h1 : x₁ 0 = i₁) (h2 : x₂ 0 = i₂)
    (t₁ : Trajectory L₁ G P o₁ v₁ p₁ x₁ n) (hk : k ≤ n) (hne : P.nstart + k ≠ 0)
    (hf : d (stepPath P.output (P.nstart + k)) = some file) (hS : SolutionIn L₁ file (x₁ k)) (hR : RestartIn L₁ file (x₁ k))
    (t₂ : Trajectory L₂ G (continued P k nt) o₂ v₂ p₂ x₂ (n - k)) (j : ℕ) (hj : k + j ≤ n) :
    SameVelocity debug L₁ L₂ (x₁ (k + j)).U (x₂ j).U ∧ SamePressure debug L₁ L₂ (x₁ (k + j)).p (x₂ j).p ∧ (x₁ (k + j)).t = (x₂ j).t ∧
      (x₁ (k + j)).ite = (x₂ j).ite := by
  obtain ⟨s', S', -, y, y0, ty, hy, -⟩ := C47_restart_partial S₁ h1 t₁ hC hg k hk hne nt d file hf hS hR
  have := C82_processes_partial S' S₂ hM hn know₁ know₂ hdt hnu hT hBN (Or.inr ⟨rfl, nconv, ndiff⟩) hv1 hp1 hv2 hp2 y0 h2 ty t₂ j (by omega)
  obtain ⟨f1, f2, f3, f4, -⟩ := hy j hj
  rwa [f1, f2, f3, f4]

/-! ### Two processes in a box of three by two cells -/

def seamAxes : ℕ → Axis ℚ := fun d => if d = 0 then ⟨0, 3, [1, 1, 1]⟩ else ⟨0, 2, [1, 1]⟩

abbrev seamLayout (px : ℕ) : Layout := meshLayout 2 seamAxes (fun _ _ => false) fun d => if d = 0 then px else 1

abbrev seamGeom : Geom ℚ := meshGeom 2 seamAxes fun _ _ => false

abbrev seamB (T : BCTable ℚ) (px : ℕ) : ℕ → Boundary ℚ := boundaries true (seamLayout px) seamGeom T

theorem seam_constructed (T : BCTable ℚ) (hT : ∀ f loc, (T f loc).1 = .DIRICHLET) (px : ℕ) (hp : px = 1 ∨ px = 2) :
    Constructed true (seamLayout px) seamGeom seamAxes T (seamB T px) := by
  apply constructed_boundaries
  apply C57_construction true (Or.inl rfl) _ (fun _ _ _ _ => rfl)
  · intro d hd
    rcases hp with rfl | rfl <;> interval_cases d <;> simp
  · intro f d hf hd
    rcases hp with rfl | rfl <;> rcases hf with hf | rfl
    · interval_cases d <;> interval_cases f <;> decide
    · interval_cases d <;> decide
    · interval_cases d <;> interval_cases f <;> decide
    · interval_cases d <;> decide
  · intro f loc _ _; rw [hT]; simp
  · intro f loc _ _; rw [hT]; simp
  · intro d hd
    interval_cases d
    · exact ⟨by simp [seamAxes], by simp [seamAxes], by norm_num [seamAxes]⟩
    · exact ⟨by simp [seamAxes], by simp [seamAxes], by norm_num [seamAxes]⟩

/-- Time step 1/4, diffusion explicit. -/
def seamNode (start : Option ℤ) (conv : String) : ParamNode ℚ :=
  { dt := some (1 / 4), startStep := start, t := none, nt := some 2, nsave := some 1, nrestart := some 1, BN := none,
    schemes := fun key => if key = "convection" then some conv else some "EULER_EXPLICIT",
    velocitySolver := none, poissonSolver := none }

def seamParams (scheme : TimeScheme ℚ) : NSParams ℚ :=
  { dt := 1 / 4, nstart := 0, t := 0, nt := 2, nsave := 1, nrestart := 1, nu := 1, BN := 1,
    conv := scheme, diff := eulerExplicit, vType := .ksp, pType := .ksp, output := "out" }

def oneFlow : FlowNode ℚ := ⟨some 1, some [fun _ _ _ _ _ => 1, fun _ _ _ _ _ => 1], none⟩

def shearFlow : FlowNode ℚ := ⟨some 1, some [fun _ y _ _ _ => y, fun x _ _ _ _ => x], none⟩

/-- A run of `n` steps with exact solvers. -/
def seamRun (T : BCTable ℚ) (flow : FlowNode ℚ) (scheme : TimeScheme ℚ) (px n : ℕ) : Except Error (NSOps ℚ × NSState ℚ × NSState ℚ) := do
  let (ops, s) ← solverInit true (seamLayout px) seamGeom (seamParams scheme) (some flow) (seamB T px)
  let t ← steps (advance (seamLayout px) seamGeom (seamParams scheme) ops (gaussSolve 7) (gaussSolve 6)) n s
  return (ops, s, t)

theorem seam_run {T : BCTable ℚ} (hT : ∀ f loc, (T f loc).1 = .DIRICHLET) {flow : FlowNode ℚ} {conv : String} {scheme : TimeScheme ℚ}
    (hP : readParams false "out" (some (seamNode none conv)) (some flow) = .ok (seamParams scheme)) {px n : ℕ} (hp : px = 1 ∨ px = 2)
    {ops : NSOps ℚ} {s t : NSState ℚ} (h : seamRun T flow scheme px n = .ok (ops, s, t)) :
    ∃ disk' x, Started true (seamLayout px) seamGeom seamAxes T (seamB T px) (seamParams scheme) (some flow) ops (fun _ => none) s disk' ∧
      x 0 = s ∧ x n = t ∧ Trajectory (seamLayout px) seamGeom (seamParams scheme) ops (gaussSolve 7) (gaussSolve 6) x n := by
  obtain ⟨⟨ops', s'⟩, h1, h⟩ := bind_ok h
  obtain ⟨t', h2, h⟩ := bind_ok h
  cases h
  obtain ⟨x, x0, xn, hx⟩ := steps_ok h2
  have C := seam_constructed T hT px hp
  have hi : s.ite = 0 := by
    obtain ⟨_, _, _, _, rfl⟩ := solverInit_ok h1
    rfl
  obtain ⟨file, hf, _⟩ := writeSolution_spec C.setup.layout s (fun _ => none) (stepPath (seamParams scheme).output s.ite)
  refine ⟨Function.update (fun _ => none) (stepPath (seamParams scheme).output s.ite) (some file), x,
    ⟨C, ⟨false, "out", some (seamNode none conv), hP⟩, s, h1, ?_⟩, x0, xn, hx⟩
  unfold ioInitialData
  rw [if_pos hi, hf]
  rfl

theorem seam_mesh (px : ℕ) : (seamLayout px).toMeshInfo = (seamLayout 1).toMeshInfo := rfl

theorem seam_sizes : (seamLayout 1).UN = 7 ∧ (seamLayout 2).UN = 7 ∧ (seamLayout 1).pN = 6 ∧ (seamLayout 2).pN = 6 := by decide +kernel

theorem lid_knows (px : ℕ) (u : Unknown) : KnowsWalls (seamLayout px) lidTable u.rank u.comp ⟨u.k, u.j, u.i, 0⟩ := by
  intro loc hl hne _ _
  left
  unfold Closed lidTable
  rw [if_neg (by omega)]

theorem cavity_run (px : ℕ) (hp : px = 1 ∨ px = 2) : (seamRun lidTable shearFlow adamsBashforth2 px 2).toOption.isSome = true := by
  rcases hp with rfl | rfl <;> decide +kernel

/-- Two steps in a cavity with a moving lid, one process and two: the hypotheses of `C82_processes_partial` hold. -/
example : ∃ o₁ o₂ i₁ i₂ d₁ d₂ x₁ x₂,
    Started true (seamLayout 1) seamGeom seamAxes lidTable (seamB lidTable 1) (seamParams adamsBashforth2) (some shearFlow) o₁ (fun _ => none) i₁ d₁ ∧
    Started true (seamLayout 2) seamGeom seamAxes lidTable (seamB lidTable 2) (seamParams adamsBashforth2) (some shearFlow) o₂ (fun _ => none) i₂ d₂ ∧
    (seamLayout 2).toMeshInfo = (seamLayout 1).toMeshInfo ∧ (∀ d, (seamLayout 1).periodic 0 d = false) ∧
    (∀ u : Unknown, KnowsWalls (seamLayout 1) lidTable u.rank u.comp ⟨u.k, u.j, u.i, 0⟩) ∧
    (∀ u : Unknown, KnowsWalls (seamLayout 2) lidTable u.rank u.comp ⟨u.k, u.j, u.i, 0⟩) ∧ 0 < (seamParams adamsBashforth2).dt ∧
    0 ≤ (seamParams adamsBashforth2).nu ∧ (∀ f loc, (lidTable f loc).1 ≠ .NEUMANN) ∧ GoodOrder (seamLayout 2) (seamParams adamsBashforth2) o₂.A ∧
    SameStart (seamParams adamsBashforth2) (fun _ => none) (fun _ => none) ∧ Solves (seamLayout 1).UN (gaussSolve 7) o₁.A ∧
    Solves (seamLayout 1).pN (gaussSolve 6) o₁.DBNG ∧ Solves (seamLayout 2).UN (gaussSolve 7) o₂.A ∧
    Solves (seamLayout 2).pN (gaussSolve 6) o₂.DBNG ∧ x₁ 0 = i₁ ∧ x₂ 0 = i₂ ∧
    Trajectory (seamLayout 1) seamGeom (seamParams adamsBashforth2) o₁ (gaussSolve 7) (gaussSolve 6) x₁ 2 ∧
    Trajectory (seamLayout 2) seamGeom (seamParams adamsBashforth2) o₂ (gaussSolve 7) (gaussSolve 6) x₂ 2 := by
  obtain ⟨⟨o₁, i₁, e₁⟩, h1⟩ := pick (cavity_run 1 (Or.inl rfl))
  obtain ⟨⟨o₂, i₂, e₂⟩, h2⟩ := pick (cavity_run 2 (Or.inr rfl))
  obtain ⟨d₁, x₁, S₁, x0, -, t1⟩ := seam_run (conv := "ADAMS_BASHFORTH_2") (fun _ _ => rfl) rfl (Or.inl rfl) h1
  obtain ⟨d₂, x₂, S₂, y0, -, t2⟩ := seam_run (conv := "ADAMS_BASHFORTH_2") (fun _ _ => rfl) rfl (Or.inr rfl) h2
  obtain ⟨u1, u2, u3, u4⟩ := seam_sizes
  rw [u1, u2, u3, u4]
  exact ⟨o₁, o₂, i₁, i₂, d₁, d₂, x₁, x₂, S₁, S₂, rfl, fun _ => rfl, lid_knows 1, lid_knows 2, by norm_num [seamParams], by norm_num [seamParams],
    fun _ _ => by simp [lidTable], Or.inl rfl, Or.inl rfl, gaussSolve_exact _ _, gaussSolve_exact _ _, gaussSolve_exact _ _,
    gaussSolve_exact _ _, x0, y0, t1, t2⟩

/-- Velocity of a point after one step of the uniform flow through the box. -/
def openWall (px : ℕ) (i : ℤ) : Option ℚ := (seamRun unitWalls oneFlow adamsBashforth2 px 1).toOption.map fun q => q.2.2.U i

theorem openWall_differs : ∃ a b, openWall 1 1 = some a ∧ openWall 2 4 = some b ∧ a ≠ b := by
  have h : ((openWall 1 1).bind fun a => (openWall 2 4).map fun b => decide (a ≠ b)) = some true := by decide +kernel
  obtain ⟨a, ha, h⟩ := Option.bind_eq_some_iff.1 h
  obtain ⟨b, hb, h⟩ := Option.map_eq_some_iff.1 h
  exact ⟨a, b, ha, hb, of_decide_eq_true h⟩

/-- C82 is false if fluid passes through the walls: with a uniform flow through the box, the second process does not have the wall
velocity at the seam, and after one step with exact solvers the velocity depends on the number of processes. -/
theorem C82_false_open_walls : ∃ (L₁ L₂ : Layout) (G : Geom ℚ) (axes : ℕ → Axis ℚ) (T : BCTable ℚ) (B₁ B₂ : ℕ → Boundary ℚ) (P : NSParams ℚ)
    (flow : Option (FlowNode ℚ)) (o₁ o₂ : NSOps ℚ) (disk d₁ d₂ : Disk ℚ) (i₁ i₂ : NSState ℚ) (x₁ x₂ : ℕ → NSState ℚ) (v p : LinSolve ℚ),
    Started true L₁ G axes T B₁ P flow o₁ disk i₁ d₁ ∧ Started true L₂ G axes T B₂ P flow o₂ disk i₂ d₂ ∧ L₂.toMeshInfo = L₁.toMeshInfo ∧
    (∀ d, L₁.periodic 0 d = false) ∧ 0 < P.dt ∧ 0 ≤ P.nu ∧ (∀ f loc, (T f loc).1 = .DIRICHLET) ∧ P.BN = 1 ∧ P.nstart = 0 ∧
    Solves L₁.UN v o₁.A ∧ Solves L₁.pN p o₁.DBNG ∧ Solves L₂.UN v o₂.A ∧ Solves L₂.pN p o₂.DBNG ∧ x₁ 0 = i₁ ∧ x₂ 0 = i₂ ∧
    Trajectory L₁ G P o₁ v p x₁ 1 ∧ Trajectory L₂ G P o₂ v p x₂ 1 ∧ ¬ SameVelocity true L₁ L₂ (x₁ 1).U (x₂ 1).U := by
  obtain ⟨a, b, ha, hb, hne⟩ := openWall_differs
  unfold openWall at ha hb
  obtain ⟨⟨o₁, i₁, e₁⟩, h1, rfl⟩ := Option.map_eq_some_iff.1 ha
  obtain ⟨⟨o₂, i₂, e₂⟩, h2, rfl⟩ := Option.map_eq_some_iff.1 hb
  have ok : ∀ {α : Type} {x : Except Error α} {y : α}, x.toOption = some y → x = .ok y := by
    intro α x y h
    cases x with
    | error e => cases h
    | ok z => cases h; rfl
  obtain ⟨d₁, x₁, S₁, x0, xn, t1⟩ := seam_run (conv := "ADAMS_BASHFORTH_2") (fun _ _ => rfl) rfl (Or.inl rfl) (ok h1)
  obtain ⟨d₂, x₂, S₂, y0, yn, t2⟩ := seam_run (conv := "ADAMS_BASHFORTH_2") (fun _ _ => rfl) rfl (Or.inr rfl) (ok h2)
  obtain ⟨u1, u2, u3, u4⟩ := seam_sizes
  refine ⟨_, _, _, _, _, _, _, _, _, o₁, o₂, _, d₁, d₂, i₁, i₂, x₁, x₂, _, _, S₁, S₂, rfl, fun _ => rfl, by norm_num [seamParams],
    by norm_num [seamParams], fun _ _ => rfl, rfl, rfl, by rw [u1]; exact gaussSolve_exact _ _, by rw [u3]; exact gaussSolve_exact _ _,
    by rw [u2]; exact gaussSolve_exact _ _, by rw [u4]; exact gaussSolve_exact _ _, x0, y0, t1, t2, ?_⟩
  intro h
  refine hne ?_
  rw [xn, yn] at h
  exact h 0 ⟨0, 0, 1, 0⟩ 1 4 (by decide) (inside_nat (i := 1) (j := 0) (k := 0) (by decide) (by decide) (by decide)) (by decide +kernel) (by decide +kernel)

/-- The second step of a run of one process, and the first step of two processes that continue it from its file. -/
def seamRestart (scheme : TimeScheme ℚ) : Except Error ((NSOps ℚ × NSState ℚ × NSState ℚ × NSState ℚ) × NSOps ℚ × NSState ℚ × NSState ℚ) := do
  let (ops, s) ← solverInit true (seamLayout 1) seamGeom (seamParams scheme) (some shearFlow) (seamB lidTable 1)
  let a ← advance (seamLayout 1) seamGeom (seamParams scheme) ops (gaussSolve 7) (gaussSolve 6) s
  let b ← advance (seamLayout 1) seamGeom (seamParams scheme) ops (gaussSolve 7) (gaussSolve 6) a
  let d ← writeRestartDataHDF5 (seamLayout 1) a (fun _ => none) (stepPath "out" 1)
  let (ops', s') ← solverInit true (seamLayout 2) seamGeom (continued (seamParams scheme) 1 1) (some shearFlow) (seamB lidTable 2)
  let i ← readRestartDataHDF5 (seamLayout 2) s' d (stepPath "out" 1)
  let c ← advance (seamLayout 2) seamGeom (continued (seamParams scheme) 1 1) ops' (gaussSolve 7) (gaussSolve 6) i
  return ((ops, s, a, b), ops', i, c)

/-- These steps belong to a run and a continued run as in `C82_continued_partial`, apart from the time integration. -/
theorem seam_restarted {conv : String} {scheme : TimeScheme ℚ}
    (hr : readParams false "out" (some (seamNode none conv)) (some shearFlow) = .ok (seamParams scheme)) {o₁ o₂ : NSOps ℚ} {i₁ a b i₂ c : NSState ℚ}
    (h : seamRestart scheme = .ok ((o₁, i₁, a, b), o₂, i₂, c)) : ∃ (d₁ d d₂ : Disk ℚ) (file : H5File ℚ) (x₁ x₂ : ℕ → NSState ℚ),
    Started true (seamLayout 1) seamGeom seamAxes lidTable (seamB lidTable 1) (seamParams scheme) (some shearFlow) o₁ (fun _ => none) i₁ d₁ ∧
    Started true (seamLayout 2) seamGeom seamAxes lidTable (seamB lidTable 2) (continued (seamParams scheme) 1 1) (some shearFlow) o₂ d i₂ d₂ ∧
    (seamLayout 2).toMeshInfo = (seamLayout 1).toMeshInfo ∧ (∀ d, (seamLayout 1).periodic 0 d = false) ∧ 0 < (seamParams scheme).dt ∧
    0 ≤ (seamParams scheme).nu ∧ (∀ u, IsUnknown (seamLayout 1) u → KnowsWalls (seamLayout 1) lidTable u.rank u.comp ⟨u.k, u.j, u.i, 0⟩) ∧
    (∀ u, IsUnknown (seamLayout 2) u → KnowsWalls (seamLayout 2) lidTable u.rank u.comp ⟨u.k, u.j, u.i, 0⟩) ∧
    (∀ f loc, (lidTable f loc).1 = .DIRICHLET) ∧ (seamParams scheme).BN = 1 ∧
    d (stepPath (seamParams scheme).output ((seamParams scheme).nstart + 1)) = some file ∧ SolutionIn (seamLayout 1) file (x₁ 1) ∧
    RestartIn (seamLayout 1) file (x₁ 1) ∧ Solves (seamLayout 1).UN (gaussSolve 7) o₁.A ∧ Solves (seamLayout 1).pN (gaussSolve 6) o₁.DBNG ∧
    Solves (seamLayout 2).UN (gaussSolve 7) o₂.A ∧ Solves (seamLayout 2).pN (gaussSolve 6) o₂.DBNG ∧ IgnoresGuess (gaussSolve 6) ∧ x₁ 0 = i₁ ∧
    x₂ 0 = i₂ ∧ Trajectory (seamLayout 1) seamGeom (seamParams scheme) o₁ (gaussSolve 7) (gaussSolve 6) x₁ 2 ∧
    Trajectory (seamLayout 2) seamGeom (continued (seamParams scheme) 1 1) o₂ (gaussSolve 7) (gaussSolve 6) x₂ 1 ∧ x₁ 2 = b ∧ x₂ 1 = c := by
  obtain ⟨⟨ops, s⟩, e1, h⟩ := bind_ok h
  obtain ⟨a, e2, h⟩ := bind_ok h
  obtain ⟨b, e3, h⟩ := bind_ok h
  obtain ⟨d, e4, h⟩ := bind_ok h
  obtain ⟨⟨ops', s'⟩, e5, h⟩ := bind_ok h
  obtain ⟨i, e6, h⟩ := bind_ok h
  obtain ⟨c, e7, h⟩ := bind_ok h
  cases h
  have C₁ := seam_constructed lidTable (fun _ _ => rfl) 1 (Or.inl rfl)
  have C₂ := seam_constructed lidTable (fun _ _ => rfl) 2 (Or.inr rfl)
  obtain ⟨node', hr'⟩ := continued_read hr 1 1
  obtain ⟨d₁, x₁, S₁, x0, xn, t1⟩ := seam_run (n := 2) (s := i₁) (t := b) (ops := o₁) (fun _ _ => rfl) hr (Or.inl rfl) (by
    unfold seamRun
    rw [e1]
    show (steps _ 2 i₁ >>= _) = _
    have : steps (advance (seamLayout 1) seamGeom (seamParams scheme) o₁ (gaussSolve 7) (gaussSolve 6)) 2 i₁ = .ok b := by
      unfold steps; rw [e2]; simp only; unfold steps; rw [e3]; rfl
    rw [this]
    rfl)
  have x1 : x₁ 1 = a := by
    have := t1 0 (by omega)
    rw [x0, e2] at this
    exact (Except.ok.inj this).symm
  have ite : s'.ite = 1 := by
    obtain ⟨_, _, _, _, rfl⟩ := solverInit_ok e5
    rfl
  obtain ⟨file, hw, hR, hS, _⟩ := writeRestart_spec C₁.setup.layout a (fun _ => none) (stepPath "out" 1)
  rw [hw] at e4
  cases e4
  have S₂ : Started true (seamLayout 2) seamGeom seamAxes lidTable (seamB lidTable 2) (continued (seamParams scheme) 1 1) (some shearFlow) o₂
      (Function.update (fun _ => none) (stepPath "out" 1) (some file)) i₂ (Function.update (fun _ => none) (stepPath "out" 1) (some file)) := by
    refine ⟨C₂, ⟨false, "out", node', hr'⟩, s', e5, ?_⟩
    unfold ioInitialData
    rw [if_neg (by rw [ite]; decide), ite]
    show (readRestartDataHDF5 (seamLayout 2) s' _ (stepPath "out" 1) >>= _) = _
    rw [e6]
    rfl
  obtain ⟨u1, u2, u3, u4⟩ := seam_sizes
  refine ⟨d₁, _, _, file, x₁, fun k => if k = 0 then i₂ else c, S₁, S₂, rfl, fun _ => rfl,
    by norm_num [seamParams], by norm_num [seamParams], fun u _ => lid_knows 1 u, fun u _ => lid_knows 2 u, fun _ _ => rfl, rfl,
    Function.update_self .., by rw [x1]; exact hS rfl, by rw [x1]; exact hR, by rw [u1]; exact gaussSolve_exact _ _,
    by rw [u3]; exact gaussSolve_exact _ _, by rw [u2]; exact gaussSolve_exact _ _, by rw [u4]; exact gaussSolve_exact _ _,
    fun _ _ _ _ => rfl, x0, rfl, t1, ?_, xn, rfl⟩
  intro k hk
  have : k = 0 := by omega
  subst this
  exact e7

theorem seamRestart_ok : (seamRestart eulerExplicit).toOption.isSome = true := by decide +kernel

/-- With EULER_EXPLICIT the hypotheses of `C82_continued_partial` hold. -/
example : ∃ (o₁ o₂ : NSOps ℚ) (i₁ i₂ : NSState ℚ) (d₁ d d₂ : Disk ℚ) (file : H5File ℚ) (x₁ x₂ : ℕ → NSState ℚ),
    Started true (seamLayout 1) seamGeom seamAxes lidTable (seamB lidTable 1) (seamParams eulerExplicit) (some shearFlow) o₁ (fun _ => none) i₁ d₁ ∧
    Started true (seamLayout 2) seamGeom seamAxes lidTable (seamB lidTable 2) (continued (seamParams eulerExplicit) 1 1) (some shearFlow) o₂ d i₂ d₂ ∧
    GoodOrder (seamLayout 2) (seamParams eulerExplicit) o₂.A ∧ NoConvective (seamLayout 1) lidTable ∧ (seamParams eulerExplicit).conv.nExplicit ≤ 1 ∧
    (seamParams eulerExplicit).diff.nExplicit ≤ 1 ∧
    d (stepPath (seamParams eulerExplicit).output ((seamParams eulerExplicit).nstart + 1)) = some file ∧ SolutionIn (seamLayout 1) file (x₁ 1) ∧
    RestartIn (seamLayout 1) file (x₁ 1) ∧ IgnoresGuess (gaussSolve 6) ∧ x₁ 0 = i₁ ∧
    x₂ 0 = i₂ ∧ Trajectory (seamLayout 1) seamGeom (seamParams eulerExplicit) o₁ (gaussSolve 7) (gaussSolve 6) x₁ 2 ∧
    Trajectory (seamLayout 2) seamGeom (continued (seamParams eulerExplicit) 1 1) o₂ (gaussSolve 7) (gaussSolve 6) x₂ 1 := by
  obtain ⟨⟨⟨o₁, i₁, a, b⟩, o₂, i₂, c⟩, h⟩ := pick seamRestart_ok
  obtain ⟨d₁, d, d₂, file, x₁, x₂, h1, h2, -, -, -, -, -, -, -, -, h3, h4, h5, -, -, -, -, h6, h7, h8, h9, h10, -, -⟩ :=
    seam_restarted (conv := "EULER_EXPLICIT") rfl h
  exact ⟨o₁, o₂, i₁, i₂, d₁, d, d₂, file, x₁, x₂, h1, h2, Or.inl rfl, fun _ _ _ _ => by simp [lidTable], le_refl 1, le_refl 1, h3, h4, h5, h6, h7, h8,
    h9, h10⟩

def seamRestart_differs : Bool := match seamRestart adamsBashforth2 with
  | .ok q => decide (q.1.2.2.2.U 1 ≠ q.2.2.2.U 4)
  | .error _ => false

theorem seamRestart_differs_true : seamRestart_differs = true := by decide +kernel

/-- C82 is false for a restart with the ADAMS_BASHFORTH_2 scheme: the explicit terms are saved in the order of the unknowns, which depends
on the number of processes. A run of one process in a cavity with a moving lid, saved after the first step and continued by two processes,
has another velocity after the second step than the run that is not interrupted. -/
theorem C82_false_restart : ∃ (L₁ L₂ : Layout) (G : Geom ℚ) (axes : ℕ → Axis ℚ) (T : BCTable ℚ) (B₁ B₂ : ℕ → Boundary ℚ) (P : NSParams ℚ)
    (flow : Option (FlowNode ℚ)) (o₁ o₂ : NSOps ℚ) (disk d₁ d d₂ : Disk ℚ) (file : H5File ℚ) (i₁ i₂ : NSState ℚ) (x₁ x₂ : ℕ → NSState ℚ)
    (v p : LinSolve ℚ),
    Started true L₁ G axes T B₁ P flow o₁ disk i₁ d₁ ∧ Started true L₂ G axes T B₂ (continued P 1 1) flow o₂ d i₂ d₂ ∧
    L₂.toMeshInfo = L₁.toMeshInfo ∧ (∀ d, L₁.periodic 0 d = false) ∧ 0 < P.dt ∧ 0 ≤ P.nu ∧
    (∀ u, IsUnknown L₁ u → KnowsWalls L₁ T u.rank u.comp ⟨u.k, u.j, u.i, 0⟩) ∧
    (∀ u, IsUnknown L₂ u → KnowsWalls L₂ T u.rank u.comp ⟨u.k, u.j, u.i, 0⟩) ∧ (∀ f loc, (T f loc).1 = .DIRICHLET) ∧ P.BN = 1 ∧
    d (stepPath P.output (P.nstart + 1)) = some file ∧ SolutionIn L₁ file (x₁ 1) ∧ RestartIn L₁ file (x₁ 1) ∧
    Solves L₁.UN v o₁.A ∧ Solves L₁.pN p o₁.DBNG ∧ Solves L₂.UN v o₂.A ∧ Solves L₂.pN p o₂.DBNG ∧ IgnoresGuess p ∧ x₁ 0 = i₁ ∧ x₂ 0 = i₂ ∧
    Trajectory L₁ G P o₁ v p x₁ 2 ∧ Trajectory L₂ G (continued P 1 1) o₂ v p x₂ 1 ∧ ¬ SameVelocity true L₁ L₂ (x₁ 2).U (x₂ 1).U := by
  have hd := seamRestart_differs_true
  unfold seamRestart_differs at hd
  split at hd
  case h_2 => cases hd
  rename_i q h
  obtain ⟨⟨o₁, i₁, a, b⟩, o₂, i₂, c⟩ := q
  have hne : b.U 1 ≠ c.U 4 := of_decide_eq_true hd
  obtain ⟨d₁, d, d₂, file, x₁, x₂, h1, h2, h3, h4, h5, h6, h7, h8, h9, h10, h11, h12, h13, h14, h15, h16, h17, h18, h19, h20, h21, h22, xn, yn⟩ :=
    seam_restarted (conv := "ADAMS_BASHFORTH_2") rfl h
  refine ⟨_, _, _, _, _, _, _, _, _, o₁, o₂, _, d₁, d, d₂, file, i₁, i₂, x₁, x₂, _, _, h1, h2, h3, h4, h5, h6, h7, h8, h9, h10, h11, h12, h13, h14, h15,
    h16, h17, h18, h19, h20, h21, h22, ?_⟩
  intro h
  refine hne ?_
  rw [xn, yn] at h
  exact h 0 ⟨0, 0, 1, 0⟩ 1 4 (by decide) (inside_nat (i := 1) (j := 0) (k := 0) (by decide) (by decide) (by decide)) (by decide +kernel) (by decide +kernel)

end PetIBM
