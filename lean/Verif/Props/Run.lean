/-
C45, C46, C48, C49, C50: complete runs and their files.
-/
import Verif.Lemmas.RunFiles
import Verif.Model.PostProcess
import Verif.Props.NavierStokes

namespace PetIBM

open Spec

set_option linter.unusedSectionVars false

variable {K : Type} [Field K] [LinearOrder K] [IsStrictOrderedRing K]
variable {debug : Bool} {L : Layout} {G : Geom K} {axes : ℕ → Axis K} {T : BCTable K} {B : ℕ → Boundary K}
variable {P : NSParams K} {flow : Option (FlowNode K)} {ops : NSOps K} {disk disk' : Disk K} {s : NSState K}
variable {vSolve pSolve : LinSolve K} {x : ℕ → NSState K} {n : ℕ}

/-! ### C45 -/

theorem runSolver_eq (S : Started debug L G axes T B P flow ops disk s disk') (vSolve pSolve : LinSolve K) (fuel : ℕ) :
    runSolver debug L G P flow B vSolve pSolve fuel disk = mainLoop L G P ops vSolve pSolve fuel s disk' := by
  obtain ⟨s₀, h1, h2⟩ := S.init
  unfold runSolver
  rw [h1]
  simp only [h2]

/-- C45. A run ends; unless it fails it has made exactly `max nt 0` steps, the counter is then `nstart + max nt 0` and the time has
advanced by `dt` in each step. If it fails, it fails in one of these steps. -/
theorem C45_run (S : Started debug L G axes T B P flow ops disk s disk') (h1 : P.nsave ≠ 0) (h2 : P.nrestart ≠ 0)
    (fuel : ℕ) (hf : P.nt.toNat ≤ fuel) :
    ∃ r, runSolver debug L G P flow B vSolve pSolve fuel disk = some r ∧
      (∀ s' d, r = .ok (s', d) → ∃ x, x 0 = s ∧ Trajectory L G P ops vSolve pSolve x P.nt.toNat ∧ x P.nt.toNat = s' ∧
        s'.ite = P.nstart + max P.nt 0 ∧ s'.t = s.t + P.nt.toNat * P.dt) ∧
      ∀ err, r = .error err → ∃ x k, x 0 = s ∧ k < P.nt.toNat ∧ Trajectory L G P ops vSolve pSolve x k ∧
        advance L G P ops vSolve pSolve (x k) = .error err := by
  rw [runSolver_eq S]
  have hi : s.ite = P.nstart := by
    have := (C45_counters S (x := fun _ => s) (n := 0) (vSolve := vSolve) (pSolve := pSolve) rfl (fun k hk => absurd hk (by omega)) 0 le_rfl).1
    simpa using this
  obtain ⟨r, hr, hok, herr⟩ := mainLoop_spec (G := G) S.constructed.setup.layout P h1 h2 ops vSolve pSolve P.nt.toNat fuel s disk'
    (by rw [hi]; congr 1; ring) hf
  refine ⟨r, hr, ?_, herr⟩
  intro s' d hd
  obtain ⟨x, e, x0, _, hx, _, xn, _⟩ := hok s' d hd
  have := C45_counters S x0 hx P.nt.toNat le_rfl
  rw [xn] at this
  refine ⟨x, x0, hx, xn, ?_, this.2⟩
  rw [this.1]
  omega

/-! ### C49 -/

/-- C49. Different non-negative steps have different files, and the solver, the vorticity tool and the XDMF tool use the same file for a
step. -/
theorem C49_file_names (output : String) (i j : ℤ) (hi : 0 ≤ i) (hj : 0 ≤ j) :
    (stepPath output i = stepPath output j → i = j) ∧ vorticityPath output i = stepPath output i ∧
      xdmfPath output i = stepPath output i := by
  refine ⟨stepPath_injective hi hj, rfl, ?_⟩
  unfold xdmfPath printf07 stepPath stepDigits
  rw [if_neg (by omega)]

/-- The names have seven digits as long as the step has, and longer names are still different. -/
example : stepPath "out" 42 = "out/0000042.h5" ∧ stepPath "out" 12345678 = "out/12345678.h5" := by
  constructor <;> rfl

/-- For negative start steps the names of the solver and of the XDMF tool differ. -/
example : stepPath "out" (-42) = "out/0000-42.h5" ∧ xdmfPath "out" (-42) = "out/-000042.h5" := by
  constructor <;> rfl

/-- Four steps of the example, with linear solvers that do not fail. -/
theorem exampleCompletes (disk : Disk ℚ) : ∃ ops s disk' s' d, Started true (exampleWalls 2 1) exampleWallsGeom exampleAxes unitWalls
    (boundaries true (exampleWalls 2 1) exampleWallsGeom unitWalls) (exampleParams .ksp) (some exampleFlow) ops disk s disk' ∧
    (exampleParams .ksp).nsave ≠ 0 ∧ (exampleParams .ksp).nrestart ≠ 0 ∧ 0 ≤ (exampleParams .ksp).nstart ∧
    runSolver true (exampleWalls 2 1) exampleWallsGeom (exampleParams .ksp) (some exampleFlow)
      (boundaries true (exampleWalls 2 1) exampleWallsGeom unitWalls) (fun _ _ r => .ok r) (fun _ g _ => .ok g) 4 disk = some (.ok (s', d)) := by
  obtain ⟨ops, s, disk', S⟩ := exampleStarted .ksp disk
  obtain ⟨r, hr, _, h⟩ := C45_run S (vSolve := fun _ _ r => .ok r) (pSolve := fun _ g _ => .ok g) (by decide) (by decide) 4 (le_refl 4)
  cases r with
  | ok q => exact ⟨ops, s, disk', q.1, q.2, S, by decide, by decide, by decide, hr⟩
  | error e =>
    obtain ⟨x, k, x0, _, hx, he⟩ := h e rfl
    rcases C60_step_errors S x0 hx e he with ⟨_, h⟩ | ⟨_, h⟩ <;> cases h

/-- Steps 2 and 4 are saved, step 3 holds restart data. -/
example : (exampleParams .ksp).nsave ∣ (exampleParams .ksp).nstart + (2 : ℕ) ∧ (exampleParams .ksp).nrestart ∣ (exampleParams .ksp).nstart + (3 : ℕ) ∧
    ¬ (exampleParams .ksp).nsave ∣ (exampleParams .ksp).nstart + (3 : ℕ) ∧ (exampleParams .ksp).nt.toNat = 4 := by decide

/-! ### C46 -/

theorem started_files (S : Started debug L G axes T B P flow ops disk s disk') :
    (∀ path, (P.nstart = 0 → path ≠ stepPath P.output 0) → disk' path = disk path) ∧
      (P.nstart = 0 → ∃ file, disk' (stepPath P.output 0) = some file ∧ SolutionIn L file s) := by
  have hL := S.constructed.setup.layout
  obtain ⟨s₀, a1, a2⟩ := S.init
  obtain ⟨U, p, _, _, rfl⟩ := solverInit_ok a1
  unfold ioInitialData at a2
  split_ifs at a2 with h
  · obtain ⟨d', hd', a2⟩ := bind_ok a2
    cases a2
    have h : P.nstart = 0 := h
    obtain ⟨file, hf, hsol⟩ := writeSolution_spec hL _ disk (stepPath P.output P.nstart)
    rw [hf] at hd'
    cases hd'
    rw [h] at hsol ⊢
    constructor
    · intro path hp
      exact Function.update_of_ne (hp rfl) _ _
    · intro _
      refine ⟨file, Function.update_self .., ?_⟩
      convert hsol using 2
  · obtain ⟨d', hd', a2⟩ := bind_ok a2
    cases a2
    have h : ¬ P.nstart = 0 := h
    exact ⟨fun _ _ => rfl, fun h' => absurd h' h⟩

/-- C46. A successful run from a non-negative step leaves, for every step in (start, start + nt]: if it is a multiple of `nsave`, a
file with velocity, pressure and time of this step, without explicit terms if it is not a multiple of `nrestart`; if it is
a multiple of `nrestart`, a file with the explicit terms of this step, which also has the solution if there was no file.
A run from step 0 leaves the initial solution. All other files are as before the run. -/
theorem C46_saved_steps (S : Started debug L G axes T B P flow ops disk s disk') (h1 : P.nsave ≠ 0) (h2 : P.nrestart ≠ 0)
    (hs : 0 ≤ P.nstart) (fuel : ℕ) (s' : NSState K) (d : Disk K)
    (hr : runSolver debug L G P flow B vSolve pSolve fuel disk = some (.ok (s', d))) :
    ∃ x, x 0 = s ∧ Trajectory L G P ops vSolve pSolve x P.nt.toNat ∧ x P.nt.toNat = s' ∧
      (∀ k : ℕ, 1 ≤ k → k ≤ P.nt.toNat →
        (P.nsave ∣ P.nstart + k → ∃ file, d (stepPath P.output (P.nstart + k)) = some file ∧ SolutionIn L file (x k) ∧
          (¬ P.nrestart ∣ P.nstart + k → ∀ i : ℕ, file.data ("/convection/" ++ toString i) = none ∧ file.data ("/diffusion/" ++ toString i) = none)) ∧
        (P.nrestart ∣ P.nstart + k → ∃ file, d (stepPath P.output (P.nstart + k)) = some file ∧ RestartIn L file (x k) ∧
          (disk (stepPath P.output (P.nstart + k)) = none → SolutionIn L file (x k)))) ∧
      (P.nstart = 0 → ∃ file, d (stepPath P.output 0) = some file ∧ SolutionIn L file s) ∧
      ∀ path, (∀ k : ℕ, 1 ≤ k → k ≤ P.nt.toNat → P.nsave ∣ P.nstart + k ∨ P.nrestart ∣ P.nstart + k → path ≠ stepPath P.output (P.nstart + k)) →
        (P.nstart = 0 → path ≠ stepPath P.output 0) → d path = disk path := by
  have hL := S.constructed.setup.layout
  rw [runSolver_eq S] at hr
  have hi : s.ite = P.nstart := by
    have := (C45_counters S (x := fun _ => s) (n := 0) (vSolve := vSolve) (pSolve := pSolve) rfl (fun k hk => absurd hk (by omega)) 0 le_rfl).1
    simpa using this
  -- the loop result does not depend on the fuel
  obtain ⟨x, e, x0, e0, hx, hW, xn, en⟩ : ∃ (x : ℕ → NSState K) (e : ℕ → Disk K), x 0 = s ∧ e 0 = disk' ∧ Trajectory L G P ops vSolve pSolve x P.nt.toNat ∧
      (∀ k, k < P.nt.toNat → WrittenStep L P (x (k + 1)) (e k) (e (k + 1))) ∧ x P.nt.toNat = s' ∧ e P.nt.toNat = d := by
    obtain ⟨r, hr', hok, _⟩ := mainLoop_spec (G := G) hL P h1 h2 ops vSolve pSolve P.nt.toNat (max fuel P.nt.toNat) s disk'
      (by rw [hi]; congr 1; ring) (le_max_right _ _)
    have more : ∀ (f g : ℕ) (s : NSState K) (disk : Disk K) r, mainLoop L G P ops vSolve pSolve f s disk = some r → f ≤ g →
        mainLoop L G P ops vSolve pSolve g s disk = some r := by
      intro f
      induction f with
      | zero =>
        intro g s disk r h _
        unfold mainLoop at h ⊢
        split_ifs at h ⊢ with hf
        exact h
      | succ f ih =>
        intro g s disk r h hg
        obtain ⟨g, rfl⟩ : ∃ g', g = g' + 1 := ⟨g - 1, by omega⟩
        unfold mainLoop at h ⊢
        split_ifs at h ⊢ with hf
        · exact h
        · cases ha : advance L G P ops vSolve pSolve s with
          | error e => simpa [ha] using h
          | ok s₁ =>
            simp only [ha] at h ⊢
            cases hw : writeStep L P s₁ disk with
            | error e => simpa [hw] using h
            | ok d₁ =>
              simp only [hw] at h ⊢
              exact ih g s₁ d₁ r h (by omega)
    rw [more _ _ _ _ _ hr (le_max_left _ _)] at hr'
    cases hr'
    exact hok s' d rfl
  have ite : ∀ k, k ≤ P.nt.toNat → (x k).ite = P.nstart + k := fun k hk => (C45_counters S x0 hx k hk).1
  -- a file that is not the one of a later step stays
  have keep : ∀ (path : String) (k m : ℕ), k ≤ m → m ≤ P.nt.toNat → (∀ j, k < j → j ≤ m → path ≠ stepPath P.output (P.nstart + j)) →
      e m path = e k path := by
    intro path k m hkm
    induction m, hkm using Nat.le_induction with
    | base => intros; rfl
    | succ m hkm ih =>
      intro hm hp
      rw [(hW m (by omega)).other path (by rw [ite _ hm]; exact hp (m + 1) (by omega) le_rfl)]
      exact ih (by omega) fun j a b => hp j a (by omega)
  have init := started_files S
  have inj : ∀ a b : ℕ, stepPath P.output (P.nstart + a) = stepPath P.output (P.nstart + b) → a = b := by
    intro a b h
    have := stepPath_injective (by omega) (by omega) h
    omega
  have path0 : P.nstart = 0 → stepPath P.output 0 = stepPath P.output (P.nstart + (0 : ℕ)) := by
    intro h
    rw [h]
    rfl
  refine ⟨x, x0, hx, xn, ?_, ?_, ?_⟩
  · intro k hk1 hk
    obtain ⟨k, rfl⟩ : ∃ k', k = k' + 1 := ⟨k - 1, by omega⟩
    have W := hW k (by omega)
    have last : d (stepPath P.output (P.nstart + ((k + 1 : ℕ) : ℤ))) = e (k + 1) (stepPath P.output (P.nstart + ((k + 1 : ℕ) : ℤ))) := by
      rw [← en]
      apply keep _ _ _ hk le_rfl
      intro j hj _ he
      have := inj _ _ he
      omega
    have before : e k (stepPath P.output (P.nstart + ((k + 1 : ℕ) : ℤ))) = disk (stepPath P.output (P.nstart + ((k + 1 : ℕ) : ℤ))) := by
      rw [keep _ 0 k (by omega) (by omega) ?_, e0]
      · apply init.1
        intro h he
        rw [path0 h] at he
        have := inj _ _ he
        omega
      · intro j hj hjk he
        have := inj _ _ he
        omega
    have hw := ite _ hk
    rw [last]
    constructor
    · intro h
      have := W.saved (by rw [hw]; exact h)
      rw [hw] at this
      exact this
    · intro h
      have := W.restart (by rw [hw]; exact h)
      rw [hw, before] at this
      exact this
  · intro h
    obtain ⟨file, hf, hsol⟩ := init.2 h
    refine ⟨file, ?_, hsol⟩
    rw [← hf, ← en, ← e0]
    apply keep _ _ _ (by omega) le_rfl
    intro j hj _ he
    rw [path0 h] at he
    have := inj _ _ he
    omega
  · intro path hp hp0
    rw [← init.1 path hp0, ← e0, ← en]
    have : ∀ m, m ≤ P.nt.toNat → e m path = e 0 path := by
      intro m
      induction m with
      | zero => intro _; rfl
      | succ m ih =>
        intro hm
        rw [← ih (by omega)]
        have W := hW m (by omega)
        have hw := ite _ hm
        by_cases h : P.nsave ∣ P.nstart + ((m + 1 : ℕ) : ℤ) ∨ P.nrestart ∣ P.nstart + ((m + 1 : ℕ) : ℤ)
        · exact W.other path (by rw [hw]; exact hp (m + 1) (by omega) hm h)
        · rw [W.idle (by rw [hw]; exact fun a => h (Or.inl a)) (by rw [hw]; exact fun a => h (Or.inr a))]
    exact this _ le_rfl

/-- C46. A period of zero makes the first `write` undefined. -/
theorem C46_zero_period (L : Layout) (P : NSParams K) (h : P.nsave = 0) (s : NSState K) (disk : Disk K) :
    writeStep L P s disk = .error .ub := by
  unfold writeStep
  rw [if_pos h]

/-! ### C48 -/

/-- C48. After restart data have been written at a step, its file holds solution and explicit terms of this step if the step is also
a multiple of `nsave` or there was no such file before. Missing: the other case, in which it is false (below). -/
theorem C48_restart_file_partial (S : Started debug L G axes T B P flow ops disk s disk') (h1 : P.nsave ≠ 0) (h2 : P.nrestart ≠ 0)
    (hs : 0 ≤ P.nstart) (fuel : ℕ) (s' : NSState K) (d : Disk K)
    (hr : runSolver debug L G P flow B vSolve pSolve fuel disk = some (.ok (s', d))) :
    ∃ x, x 0 = s ∧ Trajectory L G P ops vSolve pSolve x P.nt.toNat ∧ x P.nt.toNat = s' ∧
      ∀ k : ℕ, 1 ≤ k → k ≤ P.nt.toNat → P.nrestart ∣ P.nstart + k →
        P.nsave ∣ P.nstart + k ∨ disk (stepPath P.output (P.nstart + k)) = none →
        ∃ file, d (stepPath P.output (P.nstart + k)) = some file ∧ SolutionIn L file (x k) ∧ RestartIn L file (x k) := by
  obtain ⟨x, x0, hx, xn, h, _, _⟩ := C46_saved_steps S h1 h2 hs fuel s' d hr
  refine ⟨x, x0, hx, xn, ?_⟩
  intro k k1 k2 hk hc
  obtain ⟨a, b⟩ := h k k1 k2
  obtain ⟨file, hf, hR, hn⟩ := b hk
  refine ⟨file, hf, ?_, hR⟩
  rcases hc with hc | hc
  · obtain ⟨file', hf', hS, _⟩ := a hc
    rw [hf] at hf'
    cases hf'
    exact hS
  · exact hn hc

/-- C48 is false otherwise: for a state at a step that is a multiple of `nrestart` only, a file of this step that existed before
keeps its velocity, its pressure and its time, whatever they are. -/
theorem C48_false_stale_file (hL : LayoutOK L) (P : NSParams K) (h1 : P.nsave ≠ 0) (h2 : P.nrestart ≠ 0) (s : NSState K)
    (hi : P.nrestart ∣ s.ite) (hn : ¬ P.nsave ∣ s.ite) (disk : Disk K) (old : H5File K) (ho : disk (stepPath P.output s.ite) = some old) :
    ∃ disk' file, writeStep L P s disk = .ok disk' ∧ disk' (stepPath P.output s.ite) = some file ∧ file.time = old.time ∧
      ∀ name ∈ ["/u", "/v", "/w", "/p"], file.data name = old.data name := by
  obtain ⟨file, e, _, _, h⟩ := writeRestart_spec hL s disk (stepPath P.output s.ite)
  obtain ⟨t, hd⟩ := h old ho
  refine ⟨Function.update disk (stepPath P.output s.ite) (some file), file, ?_, Function.update_self .., t, ?_⟩
  · unfold writeStep
    rw [if_neg h1, if_neg (by rw [← Int.dvd_iff_tmod_eq_zero]; exact hn)]
    simp only [pure, Except.pure, bind, Except.bind, if_neg h2, if_pos (Int.dvd_iff_tmod_eq_zero.1 hi)]
    exact e
  · intro name hm
    apply hd
    intro i
    have hl : name.toList[2]? = none := by
      simp only [List.mem_cons, List.not_mem_nil, or_false] at hm
      rcases hm with rfl | rfl | rfl | rfl <;> decide
    constructor <;>
    · rintro rfl
      simp at hl

/-! ### C50 -/

theorem toolSteps_spec {ed step : ℤ} (h : 1 ≤ step) : ∀ (fuel : ℕ) (i : ℤ), ed - i < fuel →
    ∃ l, toolSteps ed step fuel i = some l ∧ ∀ t, t ∈ l ↔ i ≤ t ∧ t ≤ ed ∧ step ∣ t - i := by
  intro fuel
  induction fuel with
  | zero =>
    intro i hi
    refine ⟨[], ?_, ?_⟩
    · unfold toolSteps
      rw [if_neg (by omega)]
    · intro t
      simp only [List.not_mem_nil, false_iff]
      omega
  | succ fuel ih =>
    intro i hi
    unfold toolSteps
    split_ifs with hle
    · obtain ⟨l, hl, hm⟩ := ih (i + step) (by omega)
      refine ⟨i :: l, by simp only [hl]; rfl, ?_⟩
      intro t
      rw [List.mem_cons, hm]
      constructor
      · rintro (rfl | ⟨a, b, c⟩)
        · exact ⟨le_rfl, hle, by simp⟩
        · refine ⟨by omega, b, ?_⟩
          have : t - i = (t - (i + step)) + step := by ring
          rw [this]
          exact dvd_add c (dvd_refl _)
      · rintro ⟨a, b, c⟩
        by_cases ht : t = i
        · exact Or.inl ht
        · right
          have hpos : 0 < t - i := by omega
          have := Int.le_of_dvd hpos c
          refine ⟨by omega, b, ?_⟩
          have e : t - (i + step) = (t - i) - step := by ring
          rw [e]
          exact dvd_sub c (dvd_refl _)
    · refine ⟨[], rfl, ?_⟩
      intro t
      simp only [List.not_mem_nil, false_iff]
      omega

/-- C50. With default options and a positive `nsave`, the tools visit the start step and the steps in (start, start + nt] that are
a multiple of `nsave` away from it. If the start step is a multiple of `nsave`, these are the start step and the saved
steps of the run. Missing: other start steps, for which it is false (below). -/
theorem C50_visited_steps_partial (startStep : Option ℤ) (nt nsave : ℤ) (h : 1 ≤ nsave) (hn : 0 ≤ nt) (hs : nsave ∣ startStep.getD 0)
    (fuel : ℕ) (hf : nt < fuel) :
    ∃ bg ed step l, toolRange none none none startStep (some nt) (some nsave) = .ok (bg, ed, step) ∧
      toolSteps ed step fuel bg = some l ∧
      ∀ t, t ∈ l ↔ t = startStep.getD 0 ∨ startStep.getD 0 < t ∧ t ≤ startStep.getD 0 + nt ∧ nsave ∣ t := by
  obtain ⟨l, hl, hm⟩ := toolSteps_spec (ed := startStep.getD 0 + nt) h fuel (startStep.getD 0) (by omega)
  refine ⟨_, _, _, l, rfl, hl, ?_⟩
  intro t
  rw [hm]
  constructor
  · rintro ⟨a, b, c⟩
    by_cases ht : t = startStep.getD 0
    · exact Or.inl ht
    · refine Or.inr ⟨by omega, b, ?_⟩
      have := dvd_add c hs
      simpa using this
  · rintro (rfl | ⟨a, b, c⟩)
    · exact ⟨le_rfl, by omega, by simp⟩
    · exact ⟨a.le, b, dvd_sub c hs⟩

example : toolSteps 30 10 100 0 = some [0, 10, 20, 30] := by decide

/-- C50 is false for a restart at a step that is not a multiple of `nsave`: a run from step 5 to step 25 with `nsave = 10` saves the
steps 10 and 20 (`C46`); the tools visit 5, 15 and 25. -/
theorem C50_false_offset : ∃ l, toolRange none none none (some 5) (some 20) (some 10) = .ok (5, 25, 10) ∧
    toolSteps 25 10 100 5 = some l ∧ ∀ t, 5 < t ∧ t ≤ 25 ∧ (10 : ℤ) ∣ t → t ∉ l := by
  refine ⟨[5, 15, 25], rfl, by decide, ?_⟩
  rintro t ⟨a, b, c⟩ hm
  simp at hm
  omega

/-- C50. A step of zero or less does not end if the range is not empty: the loop is still running after any number of iterations. -/
theorem C50_nonpositive_step (ed step : ℤ) (h : step ≤ 0) : ∀ (fuel : ℕ) (i : ℤ), i ≤ ed → toolSteps ed step fuel i = none := by
  intro fuel
  induction fuel with
  | zero => intro i hi; unfold toolSteps; rw [if_pos hi]
  | succ fuel ih => intro i hi; unfold toolSteps; rw [if_pos hi]; simp only [ih (i + step) (by omega)]; rfl

end PetIBM
