/-
Property C100: what the program `petibm-vorticity` does with the files of a run.
-/
import Verif.Lemmas.VorticityRun
import Verif.Props.Run

set_option linter.unusedSectionVars false

namespace PetIBM

open Spec

variable {K : Type} [Field K] [LinearOrder K] [IsStrictOrderedRing K]
variable {L : Layout} {G : Geom K} {axes : ℕ → Axis K} {debug : Bool} {T : BCTable K} {B : ℕ → Boundary K} {P : NSParams K}
  {flow : Option (FlowNode K)} {ops : NSOps K} {disk disk' : Disk K} {s : NSState K} {vSolve pSolve : LinSolve K}
  {output : String} {bg ed step startStep nt nsave : Option ℤ} {b e st : ℤ} {fuel : ℕ}

/-- A new process for the file of one step. -/
theorem pass_step (C : Constructed debug L G axes T B) (path : String) (d : Disk K) :
    (vorticityPass L G path (newObjects B d)).map (·.disk) = vorticityStep L G B (fun _ => 0) (fun _ => 0) (fun _ _ => 0) d path := by
  cases hr : solutionRead L (newObjects B d).U (newObjects B d).p (newObjects B d).disk path with
  | error x =>
    have hr' : solutionRead L (fun _ => 0) (fun _ => 0) d path = .error x := hr
    rw [C71_read_error _ _ _ _ _ x hr']
    unfold vorticityPass
    rw [hr]
    rfl
  | ok x =>
    obtain ⟨U, p⟩ := x
    obtain ⟨z, z1, _, z3⟩ := pass_shape path (newObjects B d) (fun f hf B' q w => C52_vorticity_in_bounds C B' q f hf w) hr
    obtain ⟨z', z1', z3'⟩ := vorticityVecs_ok C (fun r => (B r).setGhostICs U) U fun _ _ => 0
    rw [z3]
    unfold vorticityStep
    have hr' : solutionRead L (fun _ => 0) (fun _ => 0) d path = .ok (U, p) := hr
    rw [hr']
    simp only [bind, Except.bind, z3', Except.map, pure, Except.pure]
    congr 2
    refine List.map_congr_left fun f hf => ?_
    have h1 := z1 f (List.mem_range.1 hf)
    have h2 := z1' f (List.mem_range.1 hf)
    have : z f = z' f := Except.ok.inj (h1.symm.trans h2)
    rw [this]

theorem loop_new (C : Constructed debug L G axes T B) (output : String) (ed step : ℤ) (fuel : ℕ) (i : ℤ) (s : VorticityState K) (hs : AsNew L G B s) :
    (vorticityLoop L G output ed step fuel i s).map (Except.map (·.disk)) =
      eachAlone (fun d path => vorticityStep L G B (fun _ => 0) (fun _ => 0) (fun _ _ => 0) d path) output ed step fuel i s.disk := by
  induction fuel generalizing i s with
  | zero =>
    unfold vorticityLoop eachAlone
    split_ifs <;> rfl
  | succ fuel ih =>
    unfold vorticityLoop eachAlone
    split_ifs with hi
    · dsimp only
      rw [← pass_step C, ← hs (stepPath output i) s.disk]
      cases h : vorticityPass L G (stepPath output i) { s with disk := s.disk } with
      | error _ => rfl
      | ok s' =>
        exact ih _ _ (asNew_pass C hs h)
    · rfl

/-- C100. The objects that `main` keeps over the loop play no role: the result is that of a separate process for the file of every step, each with new
vectors and boundary objects. In particular nothing of one time step gets into the file of another. -/
theorem C100_independent (C : Constructed debug L G axes T B) (hr : toolRange bg ed step startStep nt nsave = .ok (b, e, st)) :
    runVorticity L G B output bg ed step startStep nt nsave fuel disk =
      eachAlone (fun d path => vorticityStep L G B (fun _ => 0) (fun _ => 0) (fun _ _ => 0) d path) output e st fuel b
        (gridAppendVorticity L G disk (output ++ "/grid.h5")) := by
  unfold runVorticity
  rw [hr]
  exact loop_new C output e st fuel b _ (asNew_new _)

/-! ### The files -/

/-- readable by new objects -/
abbrev Readable (L : Layout) (d : Disk K) (path : String) : Prop := ∃ x, solutionRead L (fun _ => 0) (fun _ => 0) d path = .ok x

theorem alone_ok (C : Constructed debug L G axes T B) {d : Disk K} {path : String} (h : Readable L d path) :
    ∃ (old : H5File K) (l : List (String × List K)), d path = some old ∧ vorticityStep L G B (fun _ => 0) (fun _ => 0) (fun _ _ => 0) d path =
        .ok (Function.update d path (some (l.foldl (fun file nv => file.put nv.1 nv.2) old))) ∧
      AddsVorticity L G B old (l.foldl (fun file nv => file.put nv.1 nv.2) old) ∧
      ∀ (d' : Disk K) (file : H5File K), d' path = some file →
        (∀ name, name ≠ "/wx" → name ≠ "/wy" → name ≠ "/wz" → file.data name = old.data name) →
        vorticityStep L G B (fun _ => 0) (fun _ => 0) (fun _ _ => 0) d' path =
          .ok (Function.update d' path (some (l.foldl (fun file nv => file.put nv.1 nv.2) file))) := by
  obtain ⟨⟨U, p⟩, h⟩ := h
  cases hold : d path with
  | none =>
    rw [C54_read_rejected C.setup.layout _ _ _ _ (Or.inl hold)] at h
    cases h
  | some old =>
    obtain ⟨z', _, z3'⟩ := vorticityVecs_ok C (fun r => (B r).setGhostICs U) U fun _ _ => 0
    have step : ∀ (d' : Disk K) (file : H5File K), d' path = some file →
        (∀ name, name ≠ "/wx" → name ≠ "/wy" → name ≠ "/wz" → file.data name = old.data name) →
        vorticityStep L G B (fun _ => 0) (fun _ => 0) (fun _ _ => 0) d' path =
          .ok (Function.update d' path (some ((((vorticityNames L.dim).zip ((List.range (vorticityNames L.dim).length).map fun f =>
            (gridList (vorticityLayout L).toMeshInfo f).map (z' f))).map fun nv => ("/" ++ nv.1, nv.2)).foldl (fun file nv => file.put nv.1 nv.2) file))) := by
      intro d' file hd' hf
      unfold vorticityStep
      rw [read_same hold hd' hf, h]
      simp only [bind, Except.bind, z3', pure, Except.pure]
      unfold writeHDF5Vecs
      rw [List.foldl_map, hd']
      rfl
    refine ⟨old, _, rfl, step d old hold fun _ _ _ _ => rfl, ?_, step⟩
    obtain ⟨d', file, a1, _, a3, a4, a5, a6⟩ := C71_output C [] _ _ U p (fun _ _ => 0) d path old hold h
    have e1 : vorticityStep L G B (fun _ => 0) (fun _ => 0) (fun _ _ => 0) d path = .ok d' := a1
    have := step d old hold fun _ _ _ _ => rfl
    rw [e1] at this
    cases this
    rw [Function.update_self] at a3
    cases a3
    refine ⟨a4, a5, U, p, ?_, ?_⟩
    · rw [← h]
      exact solutionRead_congr hold.symm
    · exact a6

theorem alone_ok_iff {d d' : Disk K} {path : String} (h : vorticityStep L G B (fun _ => 0) (fun _ => 0) (fun _ _ => 0) d path = .ok d') :
    Readable L d path := by
  unfold vorticityStep at h
  obtain ⟨x, h, _⟩ := bind_ok h
  exact ⟨x, h⟩

theorem visited_next {b e st t : ℤ} (h : 1 ≤ st) (ht : Visited b e st t) : t = b ∨ Visited (b + st) e st t := by
  obtain ⟨h1, h2, c, hc⟩ := ht
  rcases eq_or_ne t b with rfl | hne
  · exact Or.inl rfl
  · right
    have hc1 : 1 ≤ c := by
      by_contra hn
      have : st * c ≤ 0 := mul_nonpos_of_nonneg_of_nonpos (by omega) (by omega)
      omega
    have : st * 1 ≤ st * c := mul_le_mul_of_nonneg_left hc1 (by omega)
    exact ⟨by omega, h2, c - 1, by rw [mul_sub, ← hc]; ring⟩

theorem visited_of_next {b e st t : ℤ} (h : 1 ≤ st) (ht : Visited (b + st) e st t) : Visited b e st t := by
  obtain ⟨h1, h2, c, hc⟩ := ht
  exact ⟨by omega, h2, c + 1, by rw [mul_add, ← hc]; ring⟩

theorem eachAlone_ok (C : Constructed debug L G axes T B) (hst : 1 ≤ st) (fuel : ℕ) (b : ℤ) (h0 : 0 ≤ b) (hf : e - b < fuel) (d : Disk K)
    (hr : ∀ t, Visited b e st t → Readable L d (stepPath output t)) :
    ∃ d', eachAlone (fun d path => vorticityStep L G B (fun _ => 0) (fun _ => 0) (fun _ _ => 0) d path) output e st fuel b d = some (.ok d') ∧
      (∀ t, Visited b e st t → ∃ (old : H5File K) (l : List (String × List K)), d (stepPath output t) = some old ∧
        d' (stepPath output t) = some (l.foldl (fun file nv => file.put nv.1 nv.2) old) ∧
        AddsVorticity L G B old (l.foldl (fun file nv => file.put nv.1 nv.2) old) ∧
        ∀ (d' : Disk K) (file : H5File K), d' (stepPath output t) = some file →
          (∀ name, name ≠ "/wx" → name ≠ "/wy" → name ≠ "/wz" → file.data name = old.data name) →
          vorticityStep L G B (fun _ => 0) (fun _ => 0) (fun _ _ => 0) d' (stepPath output t) =
            .ok (Function.update d' (stepPath output t) (some (l.foldl (fun file nv => file.put nv.1 nv.2) file)))) ∧
      ∀ path, (∀ t, Visited b e st t → path ≠ stepPath output t) → d' path = d path := by
  induction fuel generalizing b d with
  | zero =>
    refine ⟨d, ?_, ?_, fun _ _ => rfl⟩
    · unfold eachAlone
      rw [if_neg (by omega)]
    · intro t ht
      have := ht.1
      have := ht.2.1
      omega
  | succ fuel ih =>
    by_cases hb : b ≤ e
    · have vb : Visited b e st b := ⟨le_rfl, hb, by simp⟩
      obtain ⟨old, l, h1, h2, h3, h4⟩ := alone_ok C (hr b vb)
      have other : ∀ t, Visited (b + st) e st t → stepPath output t ≠ stepPath output b := by
        intro t ht hn
        have := stepPath_injective (by have := ht.1; omega) h0 hn
        have := ht.1
        omega
      obtain ⟨d', e1, e2, e3⟩ := ih (b + st) (by omega) (by push_cast at hf; omega)
        (Function.update d (stepPath output b) (some (l.foldl (fun file nv => file.put nv.1 nv.2) old))) (by
        intro t ht
        obtain ⟨x, hx⟩ := hr t (visited_of_next hst ht)
        refine ⟨x, ?_⟩
        rw [← hx]
        refine solutionRead_congr ?_
        rw [Function.update_of_ne (other t ht)])
      refine ⟨d', ?_, ?_, ?_⟩
      · unfold eachAlone
        rw [if_pos hb]
        dsimp only
        rw [h2]
        exact e1
      · intro t ht
        rcases visited_next hst ht with rfl | ht
        · refine ⟨old, l, h1, ?_, h3, h4⟩
          rw [e3 _ fun t' ht' hn => other t' ht' hn.symm, Function.update_self]
        · obtain ⟨o, m, m1, m2, m3⟩ := e2 t ht
          rw [Function.update_of_ne (other t ht)] at m1
          exact ⟨o, m, m1, m2, m3⟩
      · intro path hp
        rw [e3 path fun t ht => hp t (visited_of_next hst ht), Function.update_of_ne (hp b vb)]
    · refine ⟨d, ?_, ?_, fun _ _ => rfl⟩
      · unfold eachAlone
        rw [if_neg hb]
      · intro t ht
        have := ht.1
        have := ht.2.1
        omega

theorem eachAlone_readable (C : Constructed debug L G axes T B) (hst : 1 ≤ st) (fuel : ℕ) (b : ℤ) (h0 : 0 ≤ b) (d d' : Disk K)
    (h : eachAlone (fun d path => vorticityStep L G B (fun _ => 0) (fun _ => 0) (fun _ _ => 0) d path) output e st fuel b d = some (.ok d')) :
    e - b < (fuel + 1 : ℕ) * st ∧ ∀ t, Visited b e st t → Readable L d (stepPath output t) := by
  induction fuel generalizing b d with
  | zero =>
    unfold eachAlone at h
    split_ifs at h with hb
    constructor
    · push_cast
      omega
    · intro t ht
      have := ht.1
      have := ht.2.1
      omega
  | succ fuel ih =>
    unfold eachAlone at h
    split_ifs at h with hb
    · dsimp only at h
      cases hv : vorticityStep L G B (fun _ => 0) (fun _ => 0) (fun _ _ => 0) d (stepPath output b) with
      | error _ =>
        rw [hv] at h
        cases h
      | ok d1 =>
        rw [hv] at h
        have rb := alone_ok_iff hv
        obtain ⟨old, l, h1, h2, _⟩ := alone_ok (B := B) C rb
        rw [hv] at h2
        cases h2
        obtain ⟨i1, i2⟩ := ih (b + st) (by omega) _ h
        constructor
        · push_cast at i1 ⊢
          linarith
        · intro t ht
          rcases visited_next hst ht with rfl | ht
          · exact rb
          · obtain ⟨x, hx⟩ := i2 t ht
            refine ⟨x, ?_⟩
            rw [← hx]
            refine solutionRead_congr ?_
            rw [Function.update_of_ne]
            intro hn
            have := stepPath_injective (by have := ht.1; omega) h0 hn
            have := ht.1
            omega
    · constructor
      · have : 0 ≤ ((fuel + 1 + 1 : ℕ) : ℤ) * st := mul_nonneg (by positivity) (by omega)
        omega
      · intro t ht
        have := ht.1
        have := ht.2.1
        omega

/-- the grid file is none of the files of the steps -/
theorem grid_other (output : String) (d : Disk K) (t : ℤ) : gridAppendVorticity L G d (output ++ "/grid.h5") (stepPath output t) = d (stepPath output t) := by
  obtain ⟨l, hl⟩ := gridAppend_puts L G
  rw [hl, Function.update_of_ne (stepPath_grid output t)]

/-- C100. With a positive increment and a first step that is not negative, if the solution of every visited step can be read, the program ends without
error: the file of every visited step has got the vorticity of the velocity in this file and is otherwise as before, the grid file has got the lines of the
vorticity fields, and all other files are as before. -/
theorem C100_files (C : Constructed debug L G axes T B) (hr : toolRange bg ed step startStep nt nsave = .ok (b, e, st)) (hst : 1 ≤ st) (h0 : 0 ≤ b)
    (hf : e - b < fuel)
    (read : ∀ t, Visited b e st t → ∃ x, solutionRead L (fun _ => 0) (fun _ => 0) disk (stepPath output t) = .ok x) :
    ∃ disk', runVorticity L G B output bg ed step startStep nt nsave fuel disk = some (.ok disk') ∧
      (∀ t, Visited b e st t → ∃ old file, disk (stepPath output t) = some old ∧ disk' (stepPath output t) = some file ∧ AddsVorticity L G B old file) ∧
      disk' (output ++ "/grid.h5") = gridAppendVorticity L G disk (output ++ "/grid.h5") (output ++ "/grid.h5") ∧
      ∀ path, path ≠ output ++ "/grid.h5" → (∀ t, Visited b e st t → path ≠ stepPath output t) → disk' path = disk path := by
  obtain ⟨l, hl⟩ := gridAppend_puts L G
  obtain ⟨d', h1, h2, h3⟩ := eachAlone_ok (output := output) C hst fuel b h0 hf (gridAppendVorticity L G disk (output ++ "/grid.h5")) (by
    intro t ht
    obtain ⟨x, hx⟩ := read t ht
    exact ⟨x, hx ▸ solutionRead_congr (grid_other output disk t)⟩)
  refine ⟨d', ?_, ?_, ?_, ?_⟩
  · rw [C100_independent C hr, h1]
  · intro t ht
    obtain ⟨old, m, m1, m2, m3, _⟩ := h2 t ht
    exact ⟨old, _, by rw [← m1, grid_other], m2, m3⟩
  · exact h3 _ fun t _ hn => stepPath_grid output t hn.symm
  · intro path hp hp'
    rw [h3 path hp', hl, Function.update_of_ne hp]

/-- C100. If the solution of a visited step cannot be read, the program stops with this error at the first such step. -/
theorem C100_unreadable (C : Constructed debug L G axes T B) (hr : toolRange bg ed step startStep nt nsave = .ok (b, e, st)) (hst : 1 ≤ st) (h0 : 0 ≤ b)
    (hf : e - b < fuel) (t : ℤ) (ht : Visited b e st t) (err : Error)
    (bad : solutionRead L (fun _ => 0) (fun _ => 0) disk (stepPath output t) = .error err)
    (read : ∀ t', Visited b e st t' → t' < t → ∃ x, solutionRead L (fun _ => 0) (fun _ => 0) disk (stepPath output t') = .ok x) :
    runVorticity L G B output bg ed step startStep nt nsave fuel disk = some (.error err) := by
  have key : ∀ (fuel : ℕ) (b : ℤ) (d : Disk K), 0 ≤ b → e - b < fuel → Visited b e st t →
      solutionRead L (fun _ => 0) (fun _ => 0) d (stepPath output t) = .error err → (∀ t', Visited b e st t' → t' < t → Readable L d (stepPath output t')) →
      eachAlone (fun d path => vorticityStep L G B (fun _ => 0) (fun _ => 0) (fun _ _ => 0) d path) output e st fuel b d = some (.error err) := by
    intro fuel
    induction fuel with
    | zero =>
      intro b d _ hf ht
      have := ht.1
      have := ht.2.1
      push_cast at hf
      omega
    | succ fuel ih =>
      intro b d h0 hf ht bad read
      have hb : b ≤ e := ht.1.trans ht.2.1
      unfold eachAlone
      rw [if_pos hb]
      dsimp only
      rcases visited_next hst ht with rfl | ht'
      · rw [C71_read_error _ _ _ _ _ err bad]
      · have hlt : b < t := by
          have := ht'.1
          omega
        obtain ⟨old, l, h1, h2, _⟩ := alone_ok (G := G) (B := B) C (read b ⟨le_rfl, hb, by simp⟩ hlt)
        rw [h2]
        dsimp only
        have other : ∀ t', Visited (b + st) e st t' → stepPath output t' ≠ stepPath output b := by
          intro t ht hn
          have := stepPath_injective (by have := ht.1; omega) h0 hn
          have := ht.1
          omega
        refine ih (b + st) _ (by omega) (by push_cast at hf; omega) ht' ?_ ?_
        · rw [← bad]
          refine solutionRead_congr ?_
          rw [Function.update_of_ne (other t ht')]
        · intro t' ht'' hlt'
          obtain ⟨x, hx⟩ := read t' (visited_of_next hst ht'') hlt'
          refine ⟨x, hx ▸ solutionRead_congr ?_⟩
          rw [Function.update_of_ne (other t' ht'')]
  rw [C100_independent C hr]
  refine key fuel b _ h0 hf ht ?_ ?_
  · rw [← bad]
    exact solutionRead_congr (grid_other output disk t)
  · intro t' ht' hlt
    obtain ⟨x, hx⟩ := read t' ht' hlt
    exact ⟨x, hx ▸ solutionRead_congr (grid_other output disk t')⟩

/-- C100. A second execution of the program changes nothing. -/
theorem C100_again (C : Constructed debug L G axes T B) (hr : toolRange bg ed step startStep nt nsave = .ok (b, e, st)) (hst : 1 ≤ st) (h0 : 0 ≤ b)
    (hf : e - b < fuel) (h : runVorticity L G B output bg ed step startStep nt nsave fuel disk = some (.ok disk')) :
    runVorticity L G B output bg ed step startStep nt nsave fuel disk' = some (.ok disk') := by
  obtain ⟨l, hl⟩ := gridAppend_puts L G
  rw [C100_independent C hr] at h
  have read := (eachAlone_readable C hst fuel b h0 _ _ h).2
  obtain ⟨d1, h1, h2, h3⟩ := eachAlone_ok (output := output) C hst fuel b h0 hf _ read
  rw [h] at h1
  cases h1
  have grid : gridAppendVorticity L G disk' (output ++ "/grid.h5") = disk' := by
    have : disk' (output ++ "/grid.h5") = some (l.foldl (fun file nv => file.put nv.1 nv.2) ((disk (output ++ "/grid.h5")).getD H5File.empty)) := by
      rw [h3 _ fun t _ hn => stepPath_grid output t hn.symm, hl, Function.update_self]
    rw [hl, this, Option.getD_some, puts_again, ← this, Function.update_eq_self]
  rw [C100_independent C hr, grid]
  have key : ∀ (fuel : ℕ) (b' : ℤ), e - b' < fuel → (∀ t, Visited b' e st t → Visited b e st t) →
      eachAlone (fun d path => vorticityStep L G B (fun _ => 0) (fun _ => 0) (fun _ _ => 0) d path) output e st fuel b' disk' = some (.ok disk') := by
    intro fuel
    induction fuel with
    | zero =>
      intro b' hf _
      unfold eachAlone
      rw [if_neg (by omega)]
    | succ fuel ih =>
      intro b' hf hv
      unfold eachAlone
      split_ifs with hb
      · dsimp only
        obtain ⟨old, m, m1, m2, m3, m4⟩ := h2 b' (hv b' ⟨le_rfl, hb, by simp⟩)
        rw [m4 disk' _ m2 m3.others]
        dsimp only
        rw [puts_again, ← m2, Function.update_eq_self]
        exact ih (b' + st) (by push_cast at hf; omega) fun t ht => hv t (visited_of_next hst ht)
      · rfl
  exact key fuel b hf fun _ h => h

/-- C100. With an increment that is not positive the program does not end normally, whatever the files. -/
theorem C100_nonpositive (C : Constructed debug L G axes T B) (hr : toolRange bg ed step startStep nt nsave = .ok (b, e, st)) (hst : st ≤ 0) (hb : b ≤ e) :
    ∀ disk', runVorticity L G B output bg ed step startStep nt nsave fuel disk ≠ some (.ok disk') := by
  intro disk'
  rw [C100_independent C hr]
  generalize gridAppendVorticity L G disk (output ++ "/grid.h5") = d
  clear hr
  induction fuel generalizing b d with
  | zero =>
    unfold eachAlone
    rw [if_pos hb]
    exact fun h => by cases h
  | succ fuel ih =>
    unfold eachAlone
    rw [if_pos hb]
    dsimp only
    split
    · exact fun h => by cases h
    · exact ih (by omega) _

/-- what new objects read from a saved file -/
theorem read_saved (hL : LayoutOK L) {file : H5File K} {s : NSState K} (h : SolutionIn L file s) {d : Disk K} {path : String} (hd : d path = some file) :
    ∃ U p, solutionRead L (fun _ => 0) (fun _ => 0) d path = .ok (U, p) ∧ ∀ i : ℤ, 0 ≤ i → i < L.UN → U i = s.U i := by
  classical
  let s' : NSState K := { s with U := fun i => if 0 ≤ i ∧ i < L.UN then s.U i else 0, p := fun i => if 0 ≤ i ∧ i < L.pN then s.p i else 0 }
  have inside : ∀ {f i j k : ℕ}, i < L.n f 0 → j < L.n f 1 → k < L.n f 2 → Inside L.toMeshInfo f ⟨k, j, i, 0⟩ := by
    intro f i j k hi hj hk
    exact inside_pst (p := (i, j, k)) (mem_gridList.2 ⟨hi, hj, hk⟩)
  have h' : SolutionIn L file s' := by
    refine ⟨?_, ?_, h.time⟩
    · intro f name hf hn
      obtain ⟨v, v1, v2, v3⟩ := h.velocity f name hf hn
      refine ⟨v, v1, v2, ?_⟩
      intro i j k idx hi hj hk hidx
      rw [v3 i j k idx hi hj hk hidx]
      obtain ⟨c1, c2⟩ := col_inside hL (Or.inl hf) false (inside hi hj hk)
      rw [c1] at hidx
      cases hidx
      unfold vecSize at c2
      rw [if_neg (by rcases hL.dim with h | h <;> omega)] at c2
      simp only [s']
      rw [if_pos c2]
    · obtain ⟨v, v1, v2, v3⟩ := h.pressure
      refine ⟨v, v1, v2, ?_⟩
      intro i j k idx hi hj hk hidx
      rw [v3 i j k idx hi hj hk hidx]
      obtain ⟨c1, c2⟩ := col_inside hL (Or.inr rfl) false (inside hi hj hk)
      rw [c1] at hidx
      cases hidx
      unfold vecSize at c2
      rw [if_pos rfl] at c2
      simp only [s']
      rw [if_pos c2]
  refine ⟨s'.U, s'.p, solutionRead_saved hL h' hd _ _ ?_ ?_, ?_⟩
  · intro i hi
    exact if_neg hi
  · intro i hi
    exact if_neg hi
  · intro i a b
    exact if_pos ⟨a, b⟩

/-- C100. Used after a run with the same configuration and default options: the program succeeds, and every file that the run has saved still holds the
velocity, pressure and time of its step, and now the vorticity of this velocity. -/
theorem C100_after_run (S : Started debug L G axes T B P flow ops disk s disk') (h1 : 1 ≤ P.nsave) (h2 : P.nrestart ≠ 0)
    (hs : 0 ≤ P.nstart) (hd : P.nsave ∣ P.nstart) (s' : NSState K) (d : Disk K)
    (hr : runSolver debug L G P flow B vSolve pSolve fuel disk = some (.ok (s', d))) (fuel' : ℕ) (hf : P.nt < fuel') :
    ∃ x d', x 0 = s ∧ Trajectory L G P ops vSolve pSolve x P.nt.toNat ∧ x P.nt.toNat = s' ∧
      runVorticity L G B P.output none none none (some P.nstart) (some P.nt) (some P.nsave) fuel' d = some (.ok d') ∧
      ∀ k : ℕ, 1 ≤ k ∨ P.nstart = 0 → (k : ℤ) ≤ P.nt → P.nsave ∣ P.nstart + k →
        ∃ file U, d' (stepPath P.output (P.nstart + k)) = some file ∧ SolutionIn L file (x k) ∧ (∀ i : ℤ, 0 ≤ i → i < L.UN → U i = (x k).U i) ∧
          ∀ f name, (vorticityNames L.dim)[f]? = some name → ∃ z v,
            calculateVorticity L G (fun r => (B r).setGhostICs U) U f (fun _ => 0) = .ok z ∧ file.data ("/" ++ name) = some v ∧
            v.length = vorticityCount L.toMeshInfo f 0 * vorticityCount L.toMeshInfo f 1 * vorticityCount L.toMeshInfo f 2 ∧
            ∀ i j k, i < vorticityCount L.toMeshInfo f 0 → j < vorticityCount L.toMeshInfo f 1 → k < vorticityCount L.toMeshInfo f 2 →
              v[(k * vorticityCount L.toMeshInfo f 1 + j) * vorticityCount L.toMeshInfo f 0 + i]? = some (z (i, j, k)) := by
  have hL := S.constructed.setup.layout
  obtain ⟨x, x0, hx, xn, hfiles, hfirst, hother⟩ := C46_saved_steps S (by omega) h2 hs fuel s' d hr
  -- saved files
  have saved : ∀ k : ℕ, 1 ≤ k ∨ P.nstart = 0 → (k : ℤ) ≤ P.nt → P.nsave ∣ P.nstart + k →
      ∃ file, d (stepPath P.output (P.nstart + k)) = some file ∧ SolutionIn L file (x k) := by
    intro k hk hk' hdk
    rcases Nat.eq_zero_or_pos k with rfl | hpos
    · have h0 : P.nstart = 0 := hk.resolve_left (by omega)
      obtain ⟨file, a, c⟩ := hfirst h0
      rw [x0, h0]
      exact ⟨file, a, c⟩
    · obtain ⟨file, a, c, _⟩ := (hfiles k hpos (by omega)).1 hdk
      exact ⟨file, a, c⟩
  have read : ∀ t, Visited P.nstart (P.nstart + P.nt) P.nsave t → ∃ y, solutionRead L (fun _ => 0) (fun _ => 0) d (stepPath P.output t) = .ok y := by
    rintro t ⟨t1, t2, t3⟩
    obtain ⟨k, rfl⟩ : ∃ k : ℕ, t = P.nstart + k := ⟨(t - P.nstart).toNat, by omega⟩
    by_cases hk : 1 ≤ k ∨ P.nstart = 0
    · have := dvd_add t3 hd
      obtain ⟨file, a, c⟩ := saved k hk (by omega) (by rw [add_comm]; simpa using this)
      obtain ⟨U, p, e, _⟩ := read_saved hL c a
      exact ⟨_, e⟩
    · rw [not_or] at hk
      have hk0 : k = 0 := by omega
      subst hk0
      obtain ⟨s₀, i1, i2⟩ := S.init
      have hite : s₀.ite = P.nstart := by
        unfold solverInit at i1
        obtain ⟨y, _, i1⟩ := bind_ok i1
        obtain ⟨z, _, i1⟩ := bind_ok i1
        cases i1
        rfl
      unfold ioInitialData at i2
      rw [if_neg (by rw [hite]; exact hk.2)] at i2
      obtain ⟨y, i2, _⟩ := bind_ok i2
      unfold readRestartDataHDF5 at i2
      rw [hite] at i2
      split at i2
      · cases i2
      · obtain ⟨w, i3, _⟩ := bind_ok i2
        have same : d (stepPath P.output (P.nstart + (0 : ℕ))) = disk (stepPath P.output P.nstart) := by
          rw [show P.nstart + ((0 : ℕ) : ℤ) = P.nstart by simp]
          refine hother _ ?_ fun h => absurd h hk.2
          intro k k1 _ _ hn
          have := stepPath_injective hs (by omega) hn
          omega
        obtain ⟨y, hy⟩ := read_other (U' := fun _ => 0) (p' := fun _ => 0) i3
        exact ⟨y, hy ▸ solutionRead_congr same⟩
  obtain ⟨d', e1, e2, _⟩ := C100_files (output := P.output) (bg := none) (ed := none) (step := none) (startStep := some P.nstart) (nt := some P.nt)
    (nsave := some P.nsave) (fuel := fuel') S.constructed rfl h1 hs (by simpa using hf) read
  refine ⟨x, d', x0, hx, xn, e1, ?_⟩
  intro k hk hk' hdk
  obtain ⟨file, a, c⟩ := saved k hk hk' hdk
  obtain ⟨old, file', b1, b2, b3⟩ := e2 (P.nstart + k) ⟨by simp, by
    change P.nstart + k ≤ P.nstart + P.nt
    omega, by
    have := dvd_sub hdk hd
    simpa using this⟩
  rw [a] at b1
  cases b1
  obtain ⟨U, p, r1, r2⟩ := b3.values
  obtain ⟨U', p', r3, r4⟩ := read_saved hL c (d := fun _ => some file) (path := "") rfl
  rw [r1] at r3
  cases r3
  refine ⟨file', U, b2, ⟨?_, ?_, b3.time.trans c.time⟩, r4, r2⟩
  · intro f name hf hn
    have hne : name ≠ "/wx" ∧ name ≠ "/wy" ∧ name ≠ "/wz" := by
      have : f < 3 := by rcases hL.dim with h | h <;> omega
      interval_cases f <;> (cases hn; decide)
    rw [b3.others name hne.1 hne.2.1 hne.2.2]
    exact c.velocity f name hf hn
  · rw [b3.others "/p" (by decide) (by decide) (by decide)]
    exact c.pressure

/-- The run of `exampleCompletes` (steps 0, 2 and 4 are saved), then the program twice. -/
example : ∃ (d d' : Disk ℚ) (s' : NSState ℚ) (file : H5File ℚ) (v : List ℚ),
    runSolver true (exampleWalls 2 1) exampleWallsGeom (exampleParams .ksp) (some exampleFlow)
      (boundaries true (exampleWalls 2 1) exampleWallsGeom unitWalls) (fun _ _ r => .ok r) (fun _ g _ => .ok g) 4 (fun _ => none) = some (.ok (s', d)) ∧
    runVorticity (exampleWalls 2 1) exampleWallsGeom (boundaries true (exampleWalls 2 1) exampleWallsGeom unitWalls) (exampleParams .ksp).output none none none
      (some (exampleParams .ksp).nstart) (some (exampleParams .ksp).nt) (some (exampleParams .ksp).nsave) 5 d = some (.ok d') ∧
    runVorticity (exampleWalls 2 1) exampleWallsGeom (boundaries true (exampleWalls 2 1) exampleWallsGeom unitWalls) (exampleParams .ksp).output none none none
      (some (exampleParams .ksp).nstart) (some (exampleParams .ksp).nt) (some (exampleParams .ksp).nsave) 5 d' = some (.ok d') ∧
    d' (stepPath (exampleParams .ksp).output 2) = some file ∧ file.data "/wz" = some v := by
  obtain ⟨ops, s, disk', s', d, S, h1, h2, h3, hr⟩ := exampleCompletes fun _ => none
  obtain ⟨x, d', _, _, _, e1, e2⟩ := C100_after_run S (by decide) h2 h3 (by decide) s' d hr 5 (by decide)
  obtain ⟨file, U, f1, _, _, f2⟩ := e2 2 (Or.inl (by decide)) (by decide) (by decide)
  obtain ⟨z, v, _, f3, _⟩ := f2 0 "wz" rfl
  exact ⟨d, d', s', file, v, hr, e1, C100_again S.constructed (b := (exampleParams .ksp).nstart)
    (e := (exampleParams .ksp).nstart + (exampleParams .ksp).nt) (st := (exampleParams .ksp).nsave) rfl (by decide) h3 (by decide) e1, f1, f3⟩

/-- Without files the program stops at the first step. -/
example : runVorticity (exampleWalls 2 1) exampleWallsGeom (boundaries true (exampleWalls 2 1) exampleWallsGeom unitWalls) "out" none none (some 3) (some 3)
    (some 9) (some 2) 10 (fun _ => none) = some (.error .fileRead) :=
  C100_unreadable unitWalls_constructed (b := 3) (e := 12) (st := 3) rfl (by decide) (by decide) (by decide) 3 ⟨by decide, by decide, by decide⟩ _
    (C54_read_rejected unitWalls_constructed.setup.layout _ _ _ _ (Or.inl rfl)) fun t ht hlt => absurd ht.1 (by omega)

/-- An increment of zero. -/
example (d : Disk ℚ) : ∀ d', runVorticity (exampleWalls 2 1) exampleWallsGeom (boundaries true (exampleWalls 2 1) exampleWallsGeom unitWalls) "out" none none
    (some 0) none (some 9) (some 2) 1000 d ≠ some (.ok d') :=
  C100_nonpositive unitWalls_constructed (b := 0) (e := 9) (st := 0) rfl (by decide) (by decide)

end PetIBM
