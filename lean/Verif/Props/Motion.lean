/-
Properties C73 (oscillating cylinder), C74 (body files of a run) and C75 (reading body files back).
-/
import Verif.Spec.Motion
import Verif.Props.Ibpm
import Verif.Props.BodyFile
import Mathlib.Analysis.SpecialFunctions.Trigonometric.Deriv
import Mathlib.Analysis.SpecialFunctions.Trigonometric.Bounds

set_option linter.unusedSectionVars false

namespace PetIBM

open Spec

/-! ### C73 -/

/-- one body with the initial coordinates `coords0` -/
theorem oscillating_coord {O : Oscillation} {coords0 : List (List ℝ)} {P : BodyPack ℝ} {b : SingleBody ℝ} (hb : P.bodies = [b])
    (hlen : b.coords.length = coords0.length) (h2 : ∀ x ∈ b.coords, x.length = 2) {k : ℕ} {x y : ℝ}
    (hk : coords0[k]? = some [x, y]) (t : ℝ) :
    bodyCoord ((oscillatingCylinder O coords0).coordinates t P) 0 k 0 = some (x + -O.Am * Real.sin (2 * Real.pi * O.f * t)) ∧
    bodyCoord ((oscillatingCylinder O coords0).coordinates t P) 0 k 1 = some y := by
  have hk' : k < b.coords.length := by rw [hlen]; exact (List.getElem?_eq_some_iff.1 hk).1
  obtain ⟨u, hu⟩ : ∃ u, b.coords[k]? = some u := ⟨_, List.getElem?_eq_getElem hk'⟩
  have hu2 := h2 u (List.mem_of_getElem? hu)
  obtain ⟨p, q, rfl⟩ : ∃ p q, u = [p, q] := by
    match u, hu2 with
    | [p, q], _ => exact ⟨p, q, rfl⟩
  have h : (List.zipWith (displace (-O.Am * Real.sin (2 * Real.pi * O.f * t)) 0) coords0 b.coords)[k]? =
      some [x + -O.Am * Real.sin (2 * Real.pi * O.f * t), y + 0] := by
    rw [List.getElem?_zipWith, hk, hu]
    rfl
  unfold bodyCoord oscillatingCylinder
  simp only [hb, List.modifyHead, List.getElem?_cons_zero, Option.bind_some, h]
  simp

/-- C73. The velocity that the oscillating cylinder prescribes at a point is the time derivative of the coordinates of the point, at every time, and
neither the coordinates nor the velocity depend on what was there before. -/
theorem C73_velocity_is_derivative (f Dc KC : Option ℝ) (coords0 : List (List ℝ)) (P P' : BodyPack ℝ) (b b' : SingleBody ℝ) (hb : P.bodies = [b])
    (hb' : P'.bodies = [b']) (hpts : b'.nPts = coords0.length) (hlen : b.coords.length = coords0.length) (h2 : ∀ x ∈ b.coords, x.length = 2)
    (h20 : ∀ x ∈ coords0, x.length = 2) (UB : ℤ → ℝ) (k : ℕ) (hk : k < coords0.length) :
    let M := oscillatingCylinder (oscillationInit f Dc KC) coords0
    ∃ x y : ℝ → ℝ, (∀ t, bodyCoord (M.coordinates t P) 0 k 0 = some (x t) ∧ bodyCoord (M.coordinates t P) 0 k 1 = some (y t)) ∧
      ∀ t, HasDerivAt x (M.velocity t P' UB (2 * k)) t ∧ HasDerivAt y (M.velocity t P' UB (2 * k + 1)) t := by
  intro M
  set O := oscillationInit f Dc KC with hO
  obtain ⟨u, hu⟩ : ∃ u, coords0[k]? = some u := ⟨_, List.getElem?_eq_getElem hk⟩
  have hu2 := h20 u (List.mem_of_getElem? hu)
  obtain ⟨p, q, rfl⟩ : ∃ p q, u = [p, q] := by
    match u, hu2 with
    | [p, q], _ => exact ⟨p, q, rfl⟩
  refine ⟨fun t => p + -O.Am * Real.sin (2 * Real.pi * O.f * t), fun _ => q, fun t => oscillating_coord hb hlen h2 hu t, fun t => ⟨?_, ?_⟩⟩
  · have hv : M.velocity t P' UB (2 * k) = -O.Um * Real.cos (2 * Real.pi * O.f * t) := by
      show (oscillatingCylinder O coords0).velocity t P' UB (2 * k) = _
      unfold oscillatingCylinder
      simp only [hb']
      rw [if_pos (by push_cast; omega), if_pos (by omega)]
    rw [hv]
    have h1 : HasDerivAt (fun t : ℝ => 2 * Real.pi * O.f * t) (2 * Real.pi * O.f) t := by
      simpa using (hasDerivAt_id t).const_mul (2 * Real.pi * O.f)
    have h3 := (h1.sin.const_mul (-O.Am)).const_add p
    have e : -O.Um * Real.cos (2 * Real.pi * O.f * t) = -O.Am * (Real.cos (2 * Real.pi * O.f * t) * (2 * Real.pi * O.f)) := by
      have : O.Um = 2 * Real.pi * O.f * O.Am := rfl
      rw [this]; ring
    rw [e]
    exact h3
  · have hv : M.velocity t P' UB (2 * k + 1) = 0 := by
      show (oscillatingCylinder O coords0).velocity t P' UB (2 * k + 1) = _
      unfold oscillatingCylinder
      simp only [hb']
      rw [if_pos (by push_cast; omega), if_neg (by omega)]
    rw [hv]
    exact hasDerivAt_const t q

/-- C73. The velocity is set at the points of the body and nowhere else in the vector. -/
theorem C73_only_points (O : Oscillation) (coords0 : List (List ℝ)) (P : BodyPack ℝ) (b : SingleBody ℝ) (hb : P.bodies = [b]) (UB : ℤ → ℝ) (t : ℝ)
    (i : ℤ) (hi : i < 0 ∨ (2 * b.nPts : ℤ) ≤ i) : (oscillatingCylinder O coords0).velocity t P UB i = UB i := by
  unfold oscillatingCylinder
  simp only [hb]
  rw [if_neg (by push_cast; omega)]

/-- C73. The cylinder starts at its initial coordinates, returns to them after every period, and never leaves the amplitude `D * KC / (2 * pi)`, so that
the Keulegan-Carpenter number (largest speed over frequency and diameter) is the prescribed one. -/
theorem C73_amplitude (f Dc KC : ℝ) (coords0 : List (List ℝ)) (P : BodyPack ℝ) (b : SingleBody ℝ) (hb : P.bodies = [b])
    (hlen : b.coords.length = coords0.length) (h2 : ∀ x ∈ b.coords, x.length = 2) (k : ℕ) (x y : ℝ)
    (hk : coords0[k]? = some [x, y]) (t : ℝ) :
    let M := oscillatingCylinder (oscillationInit (some f) (some Dc) (some KC)) coords0
    ∃ X, bodyCoord (M.coordinates t P) 0 k 0 = some X ∧ |X - x| ≤ |Dc * KC / (2 * Real.pi)| ∧
      (∀ n : ℤ, f * t = n → X = x) ∧ bodyCoord (M.coordinates t P) 0 k 1 = some y ∧
      (oscillationInit (some f) (some Dc) (some KC)).Um = KC * (f * Dc) := by
  intro M
  set O := oscillationInit (some f) (some Dc) (some KC) with hO
  obtain ⟨h0, h1⟩ := oscillating_coord (O := O) hb hlen h2 hk t
  refine ⟨_, h0, ?_, ?_, h1, ?_⟩
  · have e : x + -O.Am * Real.sin (2 * Real.pi * O.f * t) - x = -(O.Am * Real.sin (2 * Real.pi * O.f * t)) := by ring
    rw [e, abs_neg, abs_mul]
    exact mul_le_of_le_one_right (abs_nonneg _) (Real.abs_sin_le_one _)
  · intro n hn
    have e : 2 * Real.pi * O.f * t = n * (2 * Real.pi) := by
      have : O.f = f := rfl
      rw [this, ← hn]; ring
    have e2 : (n : ℝ) * (2 * Real.pi) = ((2 * n : ℤ) : ℝ) * Real.pi := by push_cast; ring
    rw [e, e2, Real.sin_int_mul_pi]
    ring
  · show 2 * Real.pi * f * (Dc * KC / (2 * Real.pi)) = _
    field_simp

/-- Two points of a cylinder that oscillates with frequency 1, diameter 1 and `KC = 5`. -/
example : ∃ (P : BodyPack ℝ) (b : SingleBody ℝ), P.bodies = [b] ∧ b.nPts = [[1, 0], [0, (1 : ℝ)]].length ∧ b.coords.length = [[1, 0], [0, (1 : ℝ)]].length ∧
    (∀ x ∈ b.coords, x.length = 2) ∧ (∀ x ∈ [[1, 0], [0, (1 : ℝ)]], x.length = 2) ∧
    (oscillatingCylinder (oscillationInit (some 1) (some 1) (some 5)) [[1, 0], [0, 1]]).velocity 0 P (fun _ => 0) 2 = -5 := by
  refine ⟨⟨2, 1, [⟨2, 2, [[1, 0], [0, 1]], [2]⟩]⟩, _, rfl, rfl, rfl, ?_, ?_, ?_⟩
  · simp
  · simp
  · simp [oscillatingCylinder, oscillationInit]
    field_simp

/-! ### C74 -/

/-- the part before the last underscore and the part after it -/
theorem last_underscore {a b c d : List Char} (hc : '_' ∉ c) (hd : '_' ∉ d) (h : a ++ '_' :: c = b ++ '_' :: d) : a = b ∧ c = d := by
  have h' := congrArg List.reverse h
  simp only [List.reverse_append, List.reverse_cons, List.append_assoc, List.singleton_append] at h'
  have key : ∀ u v : List Char, '_' ∉ u → (u.reverse ++ '_' :: v).takeWhile (fun x => x ≠ '_') = u.reverse := by
    intro u v hu
    rw [List.takeWhile_append_of_pos]
    · simp
    · intro x hx
      simp only [decide_eq_true_eq]
      rintro rfl
      exact hu (List.mem_reverse.1 hx)
  have e := key c a.reverse hc
  rw [h', key d b.reverse hd] at e
  have e' : c = d := (List.reverse_inj.1 e).symm
  subst e'
  exact ⟨List.append_cancel_right h, rfl⟩

theorem underscore_stepDigits {i : ℤ} (hi : 0 ≤ i) : '_' ∉ (stepDigits i).toList := by
  obtain ⟨a, rfl⟩ := Int.eq_ofNat_of_zero_le hi
  have : (toString (a : ℤ)).toList = Nat.toDigits 10 a := by
    show (toString a).toList = _
    rw [Nat.toString_eq_ofList_toDigits]
    simp
  simp only [stepDigits, this, String.toList_ofList, List.mem_append, List.mem_replicate]
  rintro (⟨_, h⟩ | h)
  · exact absurd h (by decide)
  · exact Nat.underscore_not_in_toDigits h

/-- C74. The files of different bodies or different steps are different. -/
theorem C74_names (output : String) (n n' : String) (i i' : ℤ) (dim : ℕ) (hi : 0 ≤ i) (hi' : 0 ≤ i')
    (h : bodyPath output n i dim = bodyPath output n' i' dim) : n = n' ∧ i = i' := by
  have h' := congrArg String.toList h
  simp only [bodyPath, String.toList_append] at h'
  have h2 := List.append_cancel_right h'
  simp only [List.append_assoc] at h2
  have h3 := List.append_cancel_left (List.append_cancel_left h2)
  obtain ⟨e1, e2⟩ := last_underscore (underscore_stepDigits hi) (underscore_stepDigits hi') h3
  exact ⟨String.toList_inj.1 e1, stepDigits_injective hi hi' (String.toList_inj.1 e2)⟩

variable {K : Type}

theorem writeBody_ok {fmt : K → List Char} {b : SingleBody K} (hd : b.dim = 2 ∨ b.dim = 3) (hp : b.coords.length = b.nPts)
    (hx : ∀ x ∈ b.coords, x.length = b.dim) : ∃ file, b.writeBody fmt = .ok file ∧ HoldsPoints fmt file b.coords := by
  have hcoord : ∀ k x, b.coords[k]? = some x → (List.range b.dim).mapM (fun d => b.coordAt k d) = .ok x := by
    intro k x hk
    have hl := hx x (List.mem_of_getElem? hk)
    obtain ⟨a, _⟩ : ∃ a, x[0]? = some a := ⟨_, List.getElem?_eq_getElem (by omega)⟩
    rw [mapM_ok (h := fun d => x[d]?.getD a) (List.range b.dim)]
    · congr 1
      apply List.ext_getElem?
      intro d
      by_cases hdl : d < b.dim
      · rw [List.getElem?_map, List.getElem?_range hdl, Option.map_some, List.getElem?_eq_getElem (by omega : d < x.length)]
        rfl
      · rw [List.getElem?_eq_none (by simpa using hdl), List.getElem?_eq_none (by omega)]
    · intro d hd'
      have hdl : d < x.length := by rw [hl]; exact List.mem_range.1 hd'
      unfold SingleBody.coordAt
      simp only [hk, List.getElem?_eq_getElem hdl, Option.getD_some]
  have hline : ∀ k, k ∈ List.range b.nPts → (do
      let xs ← (List.range b.dim).mapM fun d => b.coordAt k d
      return bodyLine fmt xs : Except Error (List Char)) = .ok (bodyLine fmt (b.coords[k]?.getD [])) := by
    intro k hk
    have hk' : k < b.coords.length := by rw [hp]; exact List.mem_range.1 hk
    rw [hcoord k _ (List.getElem?_eq_getElem hk'), List.getElem?_eq_getElem hk']
    rfl
  refine ⟨⟨(List.range b.nPts).map fun k => bodyLine fmt (b.coords[k]?.getD []), true⟩, ?_, by simp [hp], rfl, ?_⟩
  · unfold SingleBody.writeBody
    rw [if_pos hd.symm, mapM_ok (List.range b.nPts) hline]
    rfl
  · intro k x hk
    have hk' : k < b.nPts := by rw [← hp]; exact (List.getElem?_eq_some_iff.1 hk).1
    show ((List.range b.nPts).map fun k => bodyLine fmt (b.coords[k]?.getD []))[k]? = _
    rw [List.getElem?_map, List.getElem?_range hk', Option.map_some, hk]
    rfl

theorem writeBodies_list {fmt : K → List Char} {output : String} {ite : ℤ} (hi : 0 ≤ ite) {dim : ℕ} (hdim : dim = 2 ∨ dim = 3) :
    ∀ (l : List (String × SingleBody K)) (text : TextDisk), (l.map (·.1)).Nodup →
      (∀ nb ∈ l, nb.2.dim = dim ∧ nb.2.coords.length = nb.2.nPts ∧ ∀ x ∈ nb.2.coords, x.length = nb.2.dim) →
      ∃ text', l.foldlM (writeBodyAt fmt output ite) text = .ok text' ∧
        (∀ nb ∈ l, ∃ file, text' (bodyPath output nb.1 ite dim) = some file ∧ HoldsPoints fmt file nb.2.coords) ∧
        ∀ path, (∀ nb ∈ l, path ≠ bodyPath output nb.1 ite dim) → text' path = text path := by
  intro l
  induction l with
  | nil => intro text _ _; exact ⟨text, rfl, by simp, fun _ _ => rfl⟩
  | cons nb l ih =>
    intro text hnd hok
    obtain ⟨hd, hp, hx⟩ := hok nb (by simp)
    obtain ⟨file, hf, hh⟩ := writeBody_ok (fmt := fmt) (hd ▸ hdim) hp hx
    simp only [List.map_cons, List.nodup_cons] at hnd
    obtain ⟨text', h1, h2, h3⟩ := ih (Function.update text (bodyPath output nb.1 ite nb.2.dim) (some file)) hnd.2 fun nb' h => hok nb' (by simp [h])
    have hne : ∀ nb' ∈ l, bodyPath output nb.1 ite dim ≠ bodyPath output nb'.1 ite dim := by
      intro nb' hm e
      have := (C74_names output _ _ _ _ _ hi hi e).1
      exact hnd.1 (List.mem_map.2 ⟨nb', hm, this.symm⟩)
    refine ⟨text', ?_, ?_, ?_⟩
    · rw [List.foldlM_cons]
      have : writeBodyAt fmt output ite text nb = .ok (Function.update text (bodyPath output nb.1 ite nb.2.dim) (some file)) := by
        unfold writeBodyAt
        rw [hf]
        rfl
      rw [this]
      exact h1
    · intro nb' hm
      rcases List.mem_cons.1 hm with rfl | hm
      · refine ⟨file, ?_, hh⟩
        rw [h3 _ hne, hd, Function.update_self]
      · exact h2 nb' hm
    · intro path hpath
      rw [h3 path fun nb' hm => hpath nb' (by simp [hm]), Function.update_of_ne]
      rw [hd]
      exact hpath nb (by simp)

/-- C74. Writing the bodies gives every body its own file with its current points, and changes no other file. -/
theorem C74_write (fmt : K → List Char) (output : String) (ite : ℤ) (hi : 0 ≤ ite) (names : List String) (P : BodyPack K) (text : TextDisk)
    (hP : PackOK P) (hdim : P.dim = 2 ∨ P.dim = 3) (hpts : PointsOK P) (hlen : names.length = P.bodies.length) (hnames : names.Nodup) :
    ∃ text', writeBodies fmt output ite names P text = .ok text' ∧
      (∀ (i : ℕ) (name : String) (b : SingleBody K), names[i]? = some name → P.bodies[i]? = some b →
        ∃ file, text' (bodyPath output name ite P.dim) = some file ∧ HoldsPoints fmt file b.coords) ∧
      ∀ path, (∀ name ∈ names, path ≠ bodyPath output name ite P.dim) → text' path = text path := by
  have hfst : (names.zip P.bodies).map (·.1) = names := List.map_fst_zip (by omega)
  obtain ⟨text', h1, h2, h3⟩ := writeBodies_list (fmt := fmt) (output := output) hi hdim (names.zip P.bodies) text (by rw [hfst]; exact hnames) (by
    rintro ⟨n, b⟩ hm
    have hb := (List.of_mem_zip hm).2
    exact ⟨hP.dim b hb, hpts b hb⟩)
  refine ⟨text', h1, ?_, ?_⟩
  · intro i name b hn hb
    exact h2 (name, b) (List.mem_of_getElem? (i := i) (by rw [List.getElem?_zip_eq_some]; exact ⟨hn, hb⟩))
  · intro path hp
    apply h3
    rintro ⟨n, b⟩ hm
    exact hp n (List.of_mem_zip hm).1

section

variable [Field K] [LinearOrder K] [IsStrictOrderedRing K] {debug : Bool} {L : Layout} {G : Geom K} {axes : ℕ → Axis K} {T : BCTable K} {B : ℕ → Boundary K}
  {P : NSParams K} {flow : Option (FlowNode K)} {bodies : BodyPack K} {kernel : DeltaKernel K} {window : ℕ} {ops : NSOps K} {disk disk' : Disk K}

/-- the text files of one call of `write` -/
theorem rigidWrite_ok {fmt : K → List Char} {names : List String} {s : RigidState K} {text text' : TextDisk}
    (h : rigidWriteStep L P fmt names s disk text = .ok (disk', text')) :
    ∃ t avg, decoupledWriteStep L P s.ib s.bodies s.toIBState disk = .ok (disk', t, avg) ∧
      (Int.tmod s.ns.ite P.nsave = 0 →
        writeBodies fmt P.output s.ns.ite names s.bodies (printForces P.output P.nstart (forcesLine fmt t avg) text) = .ok text') ∧
      (Int.tmod s.ns.ite P.nsave ≠ 0 → text' = printForces P.output P.nstart (forcesLine fmt t avg) text) := by
  obtain ⟨⟨d, t, avg⟩, h1, h⟩ := bind_ok h
  refine ⟨t, avg, ?_, ?_, ?_⟩
  · simp only at h
    split_ifs at h <;>
    · obtain ⟨_, _, h⟩ := bind_ok h
      cases h
      exact h1
  · intro h0
    simp only [if_pos h0] at h
    obtain ⟨t, h2, h⟩ := bind_ok h
    cases h
    exact h2
  · intro h0
    simp only [if_neg h0] at h
    obtain ⟨t, h2, h⟩ := bind_ok h
    cases h
    cases h2
    rfl

/-- the file of forces is no body file -/
theorem forcesPath_ne (output output' name : String) (i j : ℤ) (dim : ℕ) : forcesPath output i ≠ bodyPath output' name j dim := by
  intro h
  have := congrArg (fun s => s.toList.reverse.head?) h
  have e1 : (forcesPath output i).toList = (output ++ "/forces-" ++ toString i ++ ".tx").toList ++ ['t'] := by
    simp [forcesPath, String.toList_append]
  have e2 : (bodyPath output' name j dim).toList = (output' ++ "/" ++ name ++ "_" ++ stepDigits j ++ ("." ++ toString dim)).toList ++ ['D'] := by
    simp [bodyPath, String.toList_append]
  simp only [e1, e2, List.reverse_append, List.reverse_singleton, List.singleton_append, List.head?_cons] at this
  exact absurd this (by decide)

theorem printForces_other {output : String} {ite : ℤ} {line : List Char} {text : TextDisk} {path : String} (h : path ≠ forcesPath output ite) :
    printForces output ite line text path = text path := Function.update_of_ne h _ _

/-- C74. After a run with prescribed motion every saved step has, for every body, a file with the points of the body at the time of the step: later
steps do not change it. -/
theorem C74_run {M : Motion K} {s : RigidState K} (S : RigidStarted debug L G axes T B P flow bodies M kernel window ops disk s disk')
    {vSolve fSolve pSolve : LinSolve K} {x : ℕ → RigidState K} {n : ℕ} (h0 : x 0 = s)
    (hx : RigidTrajectory debug L G axes P ops M kernel window vSolve fSolve pSolve x n) (fmt : K → List Char) (names : List String)
    (hnames : names.Nodup) (hlen : names.length = bodies.bodies.length) (hpts : PointsOK bodies)
    (motion : ∀ t b, PackOK b → b.dim = L.dim → PointsOK b →
      PointsOK (M.coordinates t b) ∧ (M.coordinates t b).bodies.length = b.bodies.length)
    (disks : ℕ → Disk K) (texts : ℕ → TextDisk)
    (hw : ∀ k, k < n → rigidWriteStep L P fmt names (x (k + 1)) (disks k) (texts k) = .ok (disks (k + 1), texts (k + 1)))
    (hite : 0 ≤ s.ns.ite) (k : ℕ) (hk : k < n) (saved : Int.tmod (x (k + 1)).ns.ite P.nsave = 0) :
    (x (k + 1)).ns.ite = s.ns.ite + (k + 1) ∧ (x (k + 1)).ns.t = s.ns.t + (k + 1) * P.dt ∧
    ∀ (i : ℕ) (name : String) (b : SingleBody K), names[i]? = some name →
      (M.coordinates (s.ns.t + (k + 1) * P.dt) (x k).bodies).bodies[i]? = some b →
      ∃ file, texts n (bodyPath P.output name (s.ns.ite + (k + 1)) L.dim) = some file ∧ HoldsPoints fmt file b.coords := by
  obtain ⟨u, _, R⟩ := S.reach_at h0 hx
  have Fs := S.started.started
  have C := S.started.constructed
  have hstep : ∀ k, k < n → (x (k + 1)).bodies = M.coordinates (x (k + 1)).ns.t (x k).bodies ∧ (x (k + 1)).ns.t = (x k).ns.t + P.dt ∧
      (x (k + 1)).ns.ite = (x k).ns.ite + 1 := by
    intro k hk
    obtain ⟨e1, _, _, h⟩ := rigid_ok (hx k hk)
    obtain ⟨w, Us, df, _, _, _, ha, _⟩ := decoupled_ok C Fs.schemes.1.1 Fs.schemes.2.1 (R k hk.le).1 h
    obtain ⟨_, _, _, _, _, _, _, _, _, _, _, _, ht, hi⟩ := advance_ok C Fs.schemes.1.1 Fs.schemes.2.1 (R k hk.le).1 ha
    exact ⟨by rw [e1, ht], ht, hi⟩
  have hdim : ∀ k, k ≤ n → (x k).bodies.dim = L.dim ∧ PackOK (x k).bodies := fun k hk => ⟨(R k hk).2.dim, (R k hk).2.pack⟩
  have hall : ∀ k, k ≤ n → (x k).ns.t = s.ns.t + k * P.dt ∧ (x k).ns.ite = s.ns.ite + k ∧ PointsOK (x k).bodies ∧
      names.length = (x k).bodies.bodies.length := by
    intro k
    induction k with
    | zero => intro _; rw [h0]; exact ⟨by simp, by simp, S.same ▸ hpts, S.same ▸ hlen⟩
    | succ k ih =>
      intro hk
      obtain ⟨a, b, c, d⟩ := ih (by omega)
      obtain ⟨e1, e2, e3⟩ := hstep k (by omega)
      refine ⟨by rw [e2, a]; push_cast; ring, by rw [e3, b]; push_cast; ring, ?_, ?_⟩
      · rw [e1]; exact (motion _ _ (hdim k (by omega)).2 (hdim k (by omega)).1 c).1
      · rw [e1, (motion _ _ (hdim k (by omega)).2 (hdim k (by omega)).1 c).2]; exact d
  have hL := C.setup.layout.dim
  have hwrite : ∀ k, k < n → Int.tmod (x (k + 1)).ns.ite P.nsave = 0 →
      (∀ (i : ℕ) (name : String) (b : SingleBody K), names[i]? = some name → (x (k + 1)).bodies.bodies[i]? = some b →
        ∃ file, texts (k + 1) (bodyPath P.output name (x (k + 1)).ns.ite L.dim) = some file ∧ HoldsPoints fmt file b.coords) ∧
      ∀ path, path ≠ forcesPath P.output P.nstart → (∀ name ∈ names, path ≠ bodyPath P.output name (x (k + 1)).ns.ite L.dim) →
        texts (k + 1) path = texts k path := by
    intro k hk hs
    obtain ⟨_, b, c, d⟩ := hall (k + 1) (by omega)
    obtain ⟨d1, d2⟩ := hdim (k + 1) (by omega)
    obtain ⟨t, avg, _, w1, _⟩ := rigidWrite_ok (hw k hk)
    obtain ⟨t', h1, h2, h3⟩ := C74_write fmt P.output (x (k + 1)).ns.ite (by rw [b]; push_cast; omega) names (x (k + 1)).bodies
      (printForces P.output P.nstart (forcesLine fmt t avg) (texts k)) d2 (by omega) c d hnames
    rw [w1 hs] at h1
    cases h1
    rw [d1] at h2 h3
    exact ⟨h2, fun path hp hq => (h3 path hq).trans (printForces_other hp)⟩
  obtain ⟨et, ei, _, _⟩ := hall (k + 1) (by omega)
  push_cast at et ei
  refine ⟨ei, et, fun i name b hn hb => ?_⟩
  rw [← et, ← (hstep k hk).1] at hb
  obtain ⟨file, hf, hh⟩ := (hwrite k hk saved).1 i name b hn hb
  rw [ei] at hf
  refine ⟨file, ?_, hh⟩
  have keep : ∀ m, k + 1 ≤ m → m ≤ n → texts m (bodyPath P.output name (s.ns.ite + (k + 1)) L.dim) = some file := by
    intro m hm
    induction m, hm using Nat.le_induction with
    | base => intro _; exact hf
    | succ m hm ih =>
      intro hmn
      rw [← ih (by omega)]
      by_cases hs : Int.tmod (x (m + 1)).ns.ite P.nsave = 0
      · apply (hwrite m (by omega) hs).2 _ (forcesPath_ne _ _ _ _ _ _).symm
        intro name' _ e
        obtain ⟨_, b, _, _⟩ := hall (m + 1) (by omega)
        have := (C74_names _ _ _ _ _ _ (by omega) (by rw [b]; push_cast; omega) e).2
        rw [b] at this
        push_cast at this
        omega
      · obtain ⟨t, avg, _, _, w2⟩ := rigidWrite_ok (hw m (by omega))
        rw [w2 hs, printForces_other (forcesPath_ne _ _ _ _ _ _).symm]
  exact keep n (by omega) (le_refl n)

/-- C74 (part; for a restart this is not the position at the time of the step, see `C74_false_restart`). At its start the solver writes the bodies as they were read from their files, under the step from which it starts. -/
theorem C74_initial_partial (fmt : K → List Char) (names : List String) (hnames : names.Nodup) (hlen : names.length = bodies.bodies.length)
    (hP : PackOK bodies) (hdim : bodies.dim = 2 ∨ bodies.dim = 3) (hpts : PointsOK bodies) (s₀ s : RigidState K) (text text' : TextDisk)
    (hinit : rigidInit debug L G axes P flow B bodies kernel window = .ok (ops, s₀)) (hite : 0 ≤ s.ns.ite)
    (hio : rigidIoInitialData L P fmt names s₀ disk text = .ok (s, disk', text')) (i : ℕ) (name : String) (b : SingleBody K)
    (hn : names[i]? = some name) (hb : bodies.bodies[i]? = some b) :
    ∃ file, text' (bodyPath P.output name s.ns.ite bodies.dim) = some file ∧ HoldsPoints fmt file b.coords := by
  obtain ⟨⟨o, ib, st⟩, h1, h⟩ := bind_ok hinit
  cases h
  obtain ⟨⟨st', d⟩, h2, h⟩ := bind_ok hio
  obtain ⟨t, h3, h⟩ := bind_ok h
  cases h
  obtain ⟨t', h4, h5, _⟩ := C74_write fmt P.output st'.ns.ite hite names bodies text hP hdim hpts hlen hnames
  have : writeBodies fmt P.output st'.ns.ite names bodies text = .ok text' := h3
  rw [this] at h4
  cases h4
  exact h5 i name b hn hb

/-- C44. Starting the solver with prescribed motion gives the state from which the theorems about its steps set out. -/
theorem C44_rigid_start (fmt : K → List Char) (names : List String) {M : Motion K} (s₀ s : RigidState K) (text text' : TextDisk)
    (C : Constructed debug L G axes T B) (hP : ∃ haveAmgX output node, readParams haveAmgX output node flow = .ok P) (hb : BodiesOK L bodies)
    (hM : ∀ t b, BodiesOK L b → BodiesOK L (M.coordinates t b))
    (hinit : rigidInit debug L G axes P flow B bodies kernel window = .ok (ops, s₀))
    (hio : rigidIoInitialData L P fmt names s₀ disk text = .ok (s, disk', text')) :
    RigidStarted debug L G axes T B P flow bodies M kernel window ops disk s disk' := by
  obtain ⟨⟨o, ib, st⟩, h1, h⟩ := bind_ok hinit
  cases h
  obtain ⟨⟨st', d⟩, h2, h⟩ := bind_ok hio
  obtain ⟨t, h3, h⟩ := bind_ok h
  cases h
  exact ⟨⟨C, hP, hb, st, h1, h2⟩, rfl, rfl, hM⟩

/-- C44. Points whose velocity the user's function never sets are at rest: after the force step the velocity of the fluid vanishes there,
in every step of a run of the solver from its start. -/
theorem C44_untouched_points_at_rest (fmt : K → List Char) (names : List String) {M : Motion K} (s₀ s : RigidState K) (text text' : TextDisk)
    (C : Constructed debug L G axes T B) (hP : ∃ haveAmgX output node, readParams haveAmgX output node flow = .ok P) (hb : BodiesOK L bodies)
    (hM : ∀ t b, BodiesOK L b → BodiesOK L (M.coordinates t b))
    (hinit : rigidInit debug L G axes P flow B bodies kernel window = .ok (ops, s₀))
    (hio : rigidIoInitialData L P fmt names s₀ disk text = .ok (s, disk', text')) {vSolve fSolve pSolve : LinSolve K}
    {x : ℕ → RigidState K} {n : ℕ} (h0 : x 0 = s)
    (hx : RigidTrajectory debug L G axes P ops M kernel window vSolve fSolve pSolve x n) {vol : ℤ → K} (hvol : IsVolume debug L G vol)
    (row : ℤ) (hrow : ∀ t b UB, M.velocity t b UB row = UB row) :
    (∀ k, k ≤ n → (x k).UB row = 0) ∧
    ∀ k, k < n → (∀ A, Solves (x (k + 1)).ib.nF fSolve A) → 0 ≤ row → row < ((x (k + 1)).bodies.nPts * (x (k + 1)).bodies.dim : ℕ) →
      ∃ Δ rhs Us U, IsDelta debug L axes B (x (k + 1)).bodies kernel window Δ ∧ vSolve ops.A (x k).ns.U rhs = .ok Us ∧
        (∀ i : ℤ, 0 ≤ i → i < L.UN → U i = Us i + Mat.mult (x (k + 1)).ib.nF (x (k + 1)).ib.BNH (fun j => (x (k + 1)).f j - (x k).f j) i) ∧
        interpolated L.UN Δ vol U row = 0 := by
  have S := C44_rigid_start fmt names (M := M) s₀ s text text' C hP hb hM hinit hio
  have hz : ∀ k, k ≤ n → (x k).UB row = 0 := by
    intro k
    induction k with
    | zero => intro _; rw [h0, S.UB]
    | succ k ih =>
      intro hk
      obtain ⟨_, e, _⟩ := rigid_ok (hx k (by omega))
      rw [e, hrow]
      exact ih (by omega)
  refine ⟨hz, fun k hk exact r0 r1 => ?_⟩
  obtain ⟨_, _, Δ, rhs, Us, U, φ, h1, h2, h3, h4, _⟩ := C44_prescribed_motion S h0 hx hvol k hk exact
  exact ⟨Δ, rhs, Us, U, h1, h2, h3, by rw [h4 row r0 r1, hz (k + 1) hk]⟩

end

/-- numbers as fractions -/
def fractionText (q : ℚ) : List Char := (toString q.num ++ "/" ++ toString q.den).toList

/-- A run of one step with the rising point, its files, and a restart from step 1. -/
def restartedMotion : Except Error ((RigidState ℚ × Disk ℚ × TextDisk) × (NSOps ℚ × RigidState ℚ) × (RigidState ℚ × Disk ℚ × TextDisk)) := do
  let (ops, s) ← rigidInit true twoByTwo tailGeom twoAxes tailParams (some (pushedFlow none)) throughB pointPack hatKernel 1
  let (s, disk, text) ← rigidIoInitialData twoByTwo tailParams fractionText ["body0"] s (fun _ => none) (fun _ => none)
  let s ← rigidAdvance true twoByTwo tailGeom twoAxes tailParams ops risingMotion hatKernel 1 (gaussSolve 4) (gaussSolve 2) (gaussSolve 4) s
  let (disk, text) ← rigidWriteStep twoByTwo tailParams fractionText ["body0"] s disk text
  let P := { tailParams with nstart := 1, t := 1 / 4 }
  let (ops', r) ← rigidInit true twoByTwo tailGeom twoAxes P (some (pushedFlow none)) throughB pointPack hatKernel 1
  let r' ← rigidIoInitialData twoByTwo P fractionText ["body0"] r disk text
  return ((s, disk, text), (ops', r), r')

/-- the content of a file -/
def contentOf (f : Option TextFile) : Option (List String × Bool) := f.map fun f => (f.lines.map String.ofList, f.terminated)

/-- what the two versions of the file contain -/
def restartedLines : Option ((ℚ × ℚ) × (Option (List String × Bool) × Option (List String × Bool))) :=
  restartedMotion.toOption.map fun r => ((r.1.1.ns.t, r.2.2.1.ns.t), (contentOf (r.1.2.2 (bodyPath "out" "body0" 1 2)),
    contentOf (r.2.2.2.2 (bodyPath "out" "body0" 1 2))))

theorem restartedLines_eq : restartedLines = some ((1 / 4, 1 / 4), (some (["5/4\t25/32"], true), some (["5/4\t3/4"], true))) := by decide +kernel

/-- C74 is false after a restart: the solver that starts from a later step writes the initial points of the bodies to the file of this step, over the
points at this time that the first run has written. -/
theorem C74_false_restart : ∃ s disk text ops r₀ r disk' text',
    let P := { tailParams with nstart := 1, t := 1 / 4 }
    rigidInit true twoByTwo tailGeom twoAxes P (some (pushedFlow none)) throughB pointPack hatKernel 1 = .ok (ops, r₀) ∧
    rigidIoInitialData twoByTwo P fractionText ["body0"] r₀ disk text = .ok (r, disk', text') ∧ r.ns.t = s.ns.t ∧
    restartedMotion = .ok ((s, disk, text), (ops, r₀), (r, disk', text')) ∧
    (risingMotion.coordinates r.ns.t pointPack).bodies.map (·.coords) = [[[5/4, 25/32]]] ∧
    (∃ file, text (bodyPath "out" "body0" 1 2) = some file ∧ HoldsPoints fractionText file [[5/4, 25/32]]) ∧
    ¬ ∃ file, text' (bodyPath "out" "body0" 1 2) = some file ∧ HoldsPoints fractionText file [[5/4, 25/32]] := by
  have key := restartedLines_eq
  unfold restartedLines at key
  cases h : restartedMotion with
  | error e => rw [h] at key; cases key
  | ok R =>
    obtain ⟨⟨s, disk, text⟩, ⟨ops, r₀⟩, ⟨r, disk', text'⟩⟩ := R
    rw [h] at key
    simp only [Except.toOption, Option.map_some, Option.some.injEq, Prod.mk.injEq] at key
    obtain ⟨⟨k1, k2⟩, k3, k4⟩ := key
    have h' := h
    obtain ⟨⟨o1, s1⟩, _, h'⟩ := bind_ok h'
    obtain ⟨⟨s2, d2, t2⟩, _, h'⟩ := bind_ok h'
    obtain ⟨s3, _, h'⟩ := bind_ok h'
    obtain ⟨⟨d3, t3⟩, _, h'⟩ := bind_ok h'
    obtain ⟨⟨o4, r4⟩, e4, h'⟩ := bind_ok h'
    obtain ⟨r5, e5, h'⟩ := bind_ok h'
    cases h'
    refine ⟨s, disk, text, ops, r₀, r, disk', text', e4, e5, by rw [k1, k2], rfl, ?_, ?_, ?_⟩
    · rw [k2]; decide +kernel
    · cases hf : text (bodyPath "out" "body0" 1 2) with
      | none => rw [hf] at k3; cases k3
      | some file =>
        obtain ⟨lines, term⟩ := file
        simp only [contentOf, hf, Option.map_some, Option.some.injEq, Prod.mk.injEq] at k3
        obtain ⟨k5, rfl⟩ := k3
        obtain ⟨l, rest, rfl, k6, k7⟩ := List.map_eq_cons_iff.1 k5
        rw [List.map_eq_nil_iff] at k7
        subst k7
        refine ⟨_, rfl, rfl, rfl, fun k x hx => ?_⟩
        have hk : k < 1 := (List.getElem?_eq_some_iff.1 hx).1
        interval_cases k
        cases hx
        have : l = "5/4\t25/32".toList := by rw [← k6]; simp
        show some l = _
        rw [this]
        decide +kernel
    · rintro ⟨file, hf, _, _, hh⟩
      simp only [contentOf, hf, Option.map_some, Option.some.injEq, Prod.mk.injEq] at k4
      have h2 := hh 0 _ rfl
      have h3 := congrArg (fun l : List String => l[0]?) k4.1
      simp only [List.getElem?_map, h2] at h3
      revert h3
      decide +kernel

/-- The hypotheses of `C74_write`, `C74_run` and `C74_initial_partial` about names and points, for the point of the example; the two runs of the example succeed. -/
example : ["body0"].Nodup ∧ ["body0"].length = pointPack.bodies.length ∧ PackOK pointPack ∧ PointsOK pointPack ∧
    (∀ t b, PackOK b → b.dim = twoByTwo.dim → PointsOK b →
      PointsOK (risingMotion.coordinates t b) ∧ (risingMotion.coordinates t b).bodies.length = b.bodies.length) ∧
    restartedMotion.toOption.isSome := by
  refine ⟨by decide, rfl, ?_, ?_, ?_, by decide +kernel⟩
  · exact ⟨by decide, by simp [pointPack], by simp [pointPack], by simp [pointPack]⟩
  · intro b hb
    simp only [pointPack, List.mem_singleton] at hb
    subst hb
    exact ⟨rfl, by simp⟩
  · intro t b hP hdim hb
    refine ⟨?_, by simp [risingMotion]⟩
    intro c hc
    simp only [risingMotion, List.mem_map] at hc
    obtain ⟨c, hc, rfl⟩ := hc
    have h2 : c.dim = 2 := (hP.dim c hc).trans hdim
    refine ⟨by simpa using (hb c hc).1, ?_⟩
    intro x hx
    simp only [List.mem_map] at hx
    obtain ⟨_, _, rfl⟩ := hx
    exact h2.symm

/-- The hypotheses of `C44_untouched_points_at_rest`, for the first component of the rising point: the solver starts and makes a step. -/
example : (∀ t b UB, risingMotion.velocity t b UB 0 = UB 0) ∧ (∀ t b, BodiesOK twoByTwo b → BodiesOK twoByTwo (risingMotion.coordinates t b)) ∧
    ∃ ops s₀ s disk' text' s', rigidInit true twoByTwo tailGeom twoAxes tailParams (some (pushedFlow none)) throughB pointPack hatKernel 1 = .ok (ops, s₀) ∧
      rigidIoInitialData twoByTwo tailParams fractionText ["body0"] s₀ (fun _ => none) (fun _ => none) = .ok (s, disk', text') ∧
      rigidAdvance true twoByTwo tailGeom twoAxes tailParams ops risingMotion hatKernel 1 (gaussSolve 4) (gaussSolve 2) (gaussSolve 4) s = .ok s' := by
  refine ⟨fun _ _ _ => rfl, risingMotion_ok, ?_⟩
  obtain ⟨R, h⟩ := pick (show restartedMotion.toOption.isSome = true by decide +kernel)
  obtain ⟨⟨o1, s1⟩, e1, h⟩ := bind_ok h
  obtain ⟨⟨s2, d2, t2⟩, e2, h⟩ := bind_ok h
  obtain ⟨s3, e3, h⟩ := bind_ok h
  exact ⟨o1, s1, s2, d2, t2, s3, e1, e2, e3⟩

/-- C74. Bodies have different names if the configuration gives no name twice and none that a body without name gets; names in the configuration are
kept. -/
theorem C74_default_names (l : List BodyNode) (given : ∀ (i j : ℕ) (a b : BodyNode) (n : String), l[i]? = some a → l[j]? = some b → a.name = some n → b.name = some n → i = j)
    (other : ∀ a ∈ l, ∀ j < l.length, a.name ≠ some ("body" ++ toString j)) :
    (bodyNames l).Nodup ∧ (bodyNames l).length = l.length ∧
      ∀ (i : ℕ) (a : BodyNode) (n : String), l[i]? = some a → a.name = some n → (bodyNames l)[i]? = some n := by
  have hget : ∀ (i : ℕ) (a : BodyNode), l[i]? = some a → (bodyNames l)[i]? = some (a.name.getD ("body" ++ toString i)) := by
    intro i a h
    simp [bodyNames, List.getElem?_mapIdx, h]
  have hlen : (bodyNames l).length = l.length := by simp [bodyNames]
  refine ⟨?_, hlen, ?_⟩
  · rw [List.nodup_iff_getElem?_ne_getElem?]
    intro i j hij hj h
    rw [hlen] at hj
    have ha := List.getElem?_eq_getElem (l := l) (i := i) (by omega)
    have hb := List.getElem?_eq_getElem hj
    rw [hget _ _ ha, hget _ _ hb, Option.some.injEq] at h
    cases hna : l[i].name with
    | some n =>
      cases hnb : l[j].name with
      | some m =>
        rw [hna, hnb] at h
        cases h
        exact absurd (given i j _ _ n ha hb hna hnb) (by omega)
      | none =>
        rw [hna, hnb] at h
        exact other _ (List.getElem_mem _) j hj (hna.trans (congrArg some h))
    | none =>
      cases hnb : l[j].name with
      | some m =>
        rw [hna, hnb] at h
        exact other _ (List.getElem_mem _) i (by omega) (hnb.trans (congrArg some h.symm))
      | none =>
        rw [hna, hnb] at h
        have h2 : ("body" ++ toString i).toList = ("body" ++ toString j).toList := congrArg String.toList h
        rw [String.toList_append, String.toList_append] at h2
        have := toString_nat_injective (String.toList_inj.1 (List.append_cancel_left h2))
        omega
  · intro i a n h hn
    rw [hget i a h, hn, Option.getD_some]

/-- Three bodies, two of them without name. -/
example : (bodyNames [⟨none, none, some "a"⟩, ⟨some "wing", none, some "b"⟩, ⟨none, none, some "c"⟩]).Nodup := by
  refine (C74_default_names _ ?_ ?_).1
  · intro i j a b n ha hb hn hm
    match i, j with
    | 0, _ => cases ha; cases hn
    | 2, _ => cases ha; cases hn
    | 1, 1 => rfl
    | 1, 0 => cases hb; cases hm
    | 1, 2 => cases hb; cases hm
    | 1, j + 3 => cases hb
    | i + 3, _ => cases ha
  · decide +kernel

/-- C74 is false for two bodies with the same name, which nothing forbids: they share one file, and the points of the first body are lost. -/
theorem C74_false_same_name : ∃ text' : TextDisk,
    bodyNames [⟨some "ball", none, some "a.body"⟩, ⟨some "ball", none, some "b.body"⟩] = ["ball", "ball"] ∧
    writeBodies fractionText "out" 1 ["ball", "ball"] ⟨2, 1, [⟨2, 1, [[0, 1]], [1]⟩, ⟨2, 1, [[2, 3]], [1]⟩]⟩ (fun _ => none) = .ok text' ∧
    ∀ path file, text' path = some file → ¬ HoldsPoints fractionText file [[0, 1]] := by
  refine ⟨Function.update (Function.update (fun _ => none) (bodyPath "out" "ball" 1 2) (some ⟨[bodyLine fractionText [0, 1]], true⟩))
    (bodyPath "out" "ball" 1 2) (some ⟨[bodyLine fractionText [2, 3]], true⟩), rfl, rfl, ?_⟩
  intro path file hf ⟨_, _, h⟩
  have h0 := h 0 _ rfl
  by_cases e : path = bodyPath "out" "ball" 1 2
  · subst e
    rw [Function.update_self] at hf
    cases hf
    revert h0
    decide +kernel
  · rw [Function.update_of_ne e, Function.update_of_ne e] at hf
    cases hf

/-! ### C75 -/

/-- C75 is false: the file that `writeBody` writes starts with the coordinates of the first point and not with the number of points, and the reader
refuses it, for every body, every way of printing numbers with a decimal point and every way of reading integers that stops at the point. -/
theorem C75_false_read_back (R : Reader K) (fmt : K → List Char) (stops : ∀ s v rest, R.int s = some (v, rest) → '.' ∈ s → '.' ∈ rest)
    (point : ∀ x, '.' ∈ fmt x) (b : SingleBody K) (file : TextFile) (h : b.writeBody fmt = .ok file) :
    readLagrangianPoints R (some file) = .error .fileRead := by
  rcases file with ⟨lines, term⟩
  cases lines with
  | nil => rfl
  | cons l ls =>
    have hl : '.' ∈ l := by
      unfold SingleBody.writeBody at h
      split at h
      case isFalse => cases h
      rename_i hd
      obtain ⟨lines, h1, h⟩ := bind_ok h
      cases h
      obtain ⟨m, hm⟩ : ∃ m, b.nPts = m + 1 := by
        cases hn : b.nPts with
        | zero => rw [hn] at h1; cases h1
        | succ m => exact ⟨m, rfl⟩
      rw [hm, List.range_succ_eq_map, List.mapM_cons] at h1
      obtain ⟨l', h2, h1⟩ := bind_ok h1
      obtain ⟨ls', _, h1⟩ := bind_ok h1
      cases h1
      obtain ⟨xs, h3, h2⟩ := bind_ok h2
      cases h2
      obtain ⟨e, he⟩ : ∃ e, b.dim = e + 1 := ⟨b.dim - 1, by omega⟩
      rw [he, List.range_succ_eq_map, List.mapM_cons] at h3
      obtain ⟨v, _, h3⟩ := bind_ok h3
      obtain ⟨vs, _, h3⟩ := bind_ok h3
      cases h3
      cases vs with
      | nil => simpa [bodyLine] using point v
      | cons w ws =>
        simp only [bodyLine, List.map_cons, List.intercalate_cons_cons]
        simp [point v]
    simp only [readLagrangianPoints, TextFile.open, getline, if_true]
    cases hi : R.int l with
    | none => rfl
    | some q =>
      obtain ⟨v, rest⟩ := q
      have := stops l v rest hi hl
      have hne : rest ≠ [] := by rintro rfl; cases this
      simp only [if_pos hne]

/-- C75 (part). With a first line that gives the number of points the reader returns the points of the file, each number as the reader understands
its printed form. -/
theorem C75_with_count_partial (R : Reader K) (fmt : K → List Char) (shown : K → K)
    (number : ∀ x rest, rest = [] ∨ rest.head? = some '\t' → R.real (fmt x ++ rest) = some (shown x, rest))
    (tab : ∀ s, R.real ('\t' :: s) = R.real s) (b : SingleBody K) (hp : b.coords.length = b.nPts) (hx : ∀ x ∈ b.coords, x.length = b.dim)
    (hpos : 0 < b.nPts) (file : TextFile) (h : b.writeBody fmt = .ok file) (count : List Char) (hc : R.int count = some ((b.nPts : ℤ), [])) :
    readLagrangianPoints R (some { file with lines := count :: file.lines }) = .ok (b.nPts, b.coords.map fun x => x.map shown) := by
  have hd : b.dim = 3 ∨ b.dim = 2 := by
    unfold SingleBody.writeBody at h
    split at h
    · assumption
    · cases h
  obtain ⟨file', hf, hlen, _, hh⟩ := writeBody_ok (fmt := fmt) hd.symm hp hx
  rw [h] at hf
  cases hf
  apply C30_well_formed_partial
  refine ⟨count, file.lines, b.dim, rfl, hc, hpos, by rw [hlen, hp], by omega, ?_⟩
  have line : ∀ x : List K, Numbers R (List.intercalate ['\t'] (x.map fmt)) (x.map shown) [] := by
    intro x
    cases x with
    | nil => exact .nil _
    | cons v vs =>
      induction vs generalizing v with
      | nil =>
        have := number v [] (Or.inl rfl)
        rw [List.append_nil] at this
        simpa [List.intercalate] using Numbers.cons this (.nil [])
      | cons w ws ih =>
        simp only [List.map_cons, List.intercalate_cons_cons]
        rw [List.append_assoc]
        refine .cons (number v _ (Or.inr rfl)) ?_
        have k := ih w
        simp only [List.map_cons] at k
        rcases k with _ | ⟨k1, k2⟩
        exact .cons (by rw [List.singleton_append, tab]; exact k1) k2
  rw [List.forall₂_iff_get]
  refine ⟨by rw [hlen, List.length_map], fun i h1 h2 => ?_⟩
  have hi : i < b.coords.length := by rw [← hlen]; exact h1
  have := hh i _ (List.getElem?_eq_getElem hi)
  rw [List.getElem?_eq_getElem h1, Option.some.injEq] at this
  simp only [List.get_eq_getElem, List.getElem_map, this]
  exact ⟨line _, by rw [List.length_map]; exact hx _ (List.getElem_mem hi)⟩

/-- A way of printing numbers, truncated to one digit behind the point. -/
def tenthsText (q : ℚ) : List Char :=
  let n := ⌊|q| * 10⌋.toNat
  (if q < 0 then ['-'] else []) ++ Nat.toDigits 10 (n / 10) ++ '.' :: Nat.toDigits 10 (n % 10)

/-- The number that is printed by `tenthsText`. -/
def tenths (q : ℚ) : ℚ := (if q < 0 then -1 else 1) * (⌊|q| * 10⌋.toNat / 10)

theorem takeDigits_toDigits (n : ℕ) (rest : List Char) (hr : ∀ c ∈ rest.head?, c.isDigit = false) :
    takeDigits (Nat.toDigits 10 n ++ rest) = (Nat.toDigits 10 n, rest) := by
  have hd : ∀ c ∈ Nat.toDigits 10 n, c.isDigit = true := fun c hc => Nat.isDigit_of_mem_toDigits (by decide) (by decide) hc
  have h0 : rest.takeWhile Char.isDigit = [] ∧ rest.dropWhile Char.isDigit = rest := by
    cases rest with
    | nil => exact ⟨rfl, rfl⟩
    | cons c r => simp [hr c rfl]
  unfold takeDigits
  rw [List.takeWhile_append_of_pos hd, List.dropWhile_append_of_pos hd, h0.1, h0.2, List.append_nil]

theorem toDigits_head (n : ℕ) : ∃ c ds, Nat.toDigits 10 n = c :: ds ∧ c.isDigit = true := by
  cases h : Nat.toDigits 10 n with
  | nil => exact absurd h Nat.toDigits_ne_nil
  | cons c ds => exact ⟨c, ds, rfl, Nat.isDigit_of_mem_toDigits (b := 10) (n := n) (by decide) (by decide) (by simp [h])⟩

theorem digit_not_special {c : Char} (h : c.isDigit = true) : isBlank c = false ∧ c ≠ '-' ∧ c ≠ '+' := by
  refine ⟨?_, ?_, ?_⟩
  · by_contra hb
    simp only [isBlank, Bool.not_eq_false, decide_eq_true_eq] at hb
    rcases hb with rfl | rfl | rfl | rfl <;> revert h <;> decide
  · rintro rfl; revert h; decide
  · rintro rfl; revert h; decide

/-- the integer part of a printed number -/
theorem readDecimalInt_print (neg : Bool) (n : ℕ) (rest : List Char) (hr : ∀ c ∈ rest.head?, c.isDigit = false) :
    readDecimalInt ((if neg then ['-'] else []) ++ Nat.toDigits 10 n ++ rest) = some ((if neg then -(n : ℤ) else n), rest) ∧
    ((((if neg then ['-'] else []) ++ Nat.toDigits 10 n ++ rest).dropWhile isBlank).head? = some '-' ↔ neg = true) := by
  obtain ⟨c, ds, hc, hd⟩ := toDigits_head n
  obtain ⟨h1, h2, h3⟩ := digit_not_special hd
  have hm : isBlank '-' = false := by decide
  have hT := takeDigits_toDigits n rest hr
  have hv : digitsValue (Nat.toDigits 10 n) = n := Nat.ofDigitChars_ten_toDigits
  have ht : takeSign (c :: (ds ++ rest)) = (false, c :: (ds ++ rest)) := by
    unfold takeSign
    split
    · rename_i h; cases h; exact absurd rfl h2
    · rename_i h; cases h; exact absurd rfl h3
    · rfl
  rw [hc] at hT hv
  cases neg with
  | false =>
    have e : (if false = true then ['-'] else []) ++ Nat.toDigits 10 n ++ rest = c :: (ds ++ rest) := by simp [hc]
    rw [e]
    constructor
    · unfold readDecimalInt
      rw [List.dropWhile_cons_of_neg (by simp [h1]), ht]
      simp only [List.cons_append] at hT
      simp only [hT, hv]
    · rw [List.dropWhile_cons_of_neg (by simp [h1])]
      simp [h2]
  | true =>
    have e : (if true = true then ['-'] else []) ++ Nat.toDigits 10 n ++ rest = '-' :: (c :: (ds ++ rest)) := by simp [hc]
    rw [e]
    constructor
    · unfold readDecimalInt
      rw [List.dropWhile_cons_of_neg (by simp [hm])]
      simp only [List.cons_append] at hT
      simp only [takeSign, hT, hv]
    · rw [List.dropWhile_cons_of_neg (by simp [hm])]
      simp

/-- C30. The numbers that the example reader accepts: blanks, an optional sign and digits, with their value. -/
theorem C30_decimal_integer (blanks : List Char) (hb : ∀ c ∈ blanks, c = ' ' ∨ c = '\t' ∨ c = '\r' ∨ c = '\n') (sign : List Char)
    (hs : sign = [] ∨ sign = ['+'] ∨ sign = ['-']) (n : ℕ) (rest : List Char) (hr : ∀ c ∈ rest.head?, c.isDigit = false) :
    readDecimalInt (blanks ++ sign ++ Nat.toDigits 10 n ++ rest) = some ((if sign = ['-'] then -(n : ℤ) else n), rest) := by
  have hskip : ∀ s, readDecimalInt (blanks ++ s) = readDecimalInt s := by
    intro s
    unfold readDecimalInt
    rw [List.dropWhile_append_of_pos]
    intro c hc
    simp only [isBlank, decide_eq_true_eq]
    exact hb c hc
  rw [List.append_assoc, List.append_assoc, hskip]
  rcases hs with rfl | rfl | rfl
  · exact (readDecimalInt_print false n rest hr).1
  · obtain ⟨c, ds, hc, hd⟩ := toDigits_head n
    have hT := takeDigits_toDigits n rest hr
    have hv : digitsValue (Nat.toDigits 10 n) = n := Nat.ofDigitChars_ten_toDigits
    rw [hc] at hT hv ⊢
    unfold readDecimalInt
    rw [List.cons_append, List.dropWhile_cons_of_neg (by decide)]
    simp only [takeSign, List.nil_append, hT, hv]
    rw [if_neg (by decide), if_neg (by decide)]
  · exact (readDecimalInt_print true n rest hr).1

example : readDecimalInt " \t\r\n+42 7".toList = some (42, " 7".toList) :=
  C30_decimal_integer " \t\r\n".toList (by decide) ['+'] (by decide) 42 " 7".toList (by decide)

theorem tenths_read (x : ℚ) (rest : List Char) (hr : rest = [] ∨ rest.head? = some '\t') :
    decimalReader.real (tenthsText x ++ rest) = some (tenths x, rest) := by
  have hr' : ∀ c ∈ rest.head?, c.isDigit = false := by
    rcases hr with rfl | hr
    · simp
    · rw [hr]; intro c hc; cases hc; decide
  obtain ⟨n, hn⟩ : ∃ n, ⌊|x| * 10⌋.toNat = n := ⟨_, rfl⟩
  have e : tenthsText x ++ rest = (if decide (x < 0) = true then ['-'] else []) ++ Nat.toDigits 10 (n / 10) ++ ('.' :: (Nat.toDigits 10 (n % 10) ++ rest)) := by
    simp [tenthsText, hn]
  obtain ⟨h1, h2⟩ := readDecimalInt_print (decide (x < 0)) (n / 10) ('.' :: (Nat.toDigits 10 (n % 10) ++ rest)) (by simp)
  have hv : digitsValue (Nat.toDigits 10 (n % 10)) = n % 10 := Nat.ofDigitChars_ten_toDigits
  have hl : (Nat.toDigits 10 (n % 10)).length = 1 := by
    have : n % 10 < 10 := Nat.mod_lt _ (by decide)
    interval_cases n % 10 <;> rfl
  have hq : (n : ℚ) = 10 * (n / 10 : ℕ) + (n % 10 : ℕ) := by exact_mod_cast (Nat.div_add_mod n 10).symm
  show readDecimal _ = _
  rw [e]
  unfold readDecimal
  rw [h1]
  simp only [h2, takeDigits_toDigits (n % 10) rest hr', hv, hl, tenths, hn]
  by_cases hx : x < 0
  · simp only [hx, decide_true, if_true]
    rw [hq]
    generalize n / 10 = a
    generalize n % 10 = c
    push_cast
    congr 2
    ring
  · simp only [hx, decide_false, Bool.false_eq_true, if_false]
    rw [hq]
    generalize n / 10 = a
    generalize n % 10 = c
    push_cast
    congr 2
    ring

theorem decimal_stops (s : List Char) (v : ℤ) (rest : List Char) (h : decimalReader.int s = some (v, rest)) (hs : '.' ∈ s) : '.' ∈ rest := by
  have key : ∀ (p : Char → Bool) (l : List Char), p '.' = false → '.' ∈ l → '.' ∈ l.dropWhile p := by
    intro p l hp hl
    rw [← List.takeWhile_append_dropWhile (p := p) (l := l), List.mem_append] at hl
    rcases hl with hl | hl
    · have := List.all_eq_true.1 List.all_takeWhile _ hl
      rw [hp] at this
      cases this
    · exact hl
  have h1 := key isBlank s (by decide) hs
  have h2 : '.' ∈ (takeSign (s.dropWhile isBlank)).2 := by
    unfold takeSign
    split
    · rename_i t e; rw [e] at h1; simpa using h1
    · rename_i t e; rw [e] at h1; simpa using h1
    · exact h1
  have h3 := key Char.isDigit _ (by decide) h2
  have h' : readDecimalInt s = some (v, rest) := h
  unfold readDecimalInt takeDigits at h'
  simp only at h'
  split at h'
  · cases h'
  · rename_i ds r _ e
    cases e
    cases h'
    exact h3

/-- Both theorems apply to the reader of decimal numbers, numbers with one digit behind the point and a body of two points. -/
example : ∃ (b : SingleBody ℚ) (file : TextFile), b.coords = [[1/2, -1/4], [3, 27/2]] ∧ b.writeBody tenthsText = .ok file ∧
    readLagrangianPoints decimalReader (some file) = .error .fileRead ∧
    readLagrangianPoints decimalReader (some { file with lines := "2".toList :: file.lines }) = .ok (2, [[1/2, -1/5], [3, 27/2]]) := by
  obtain ⟨file, hf, _⟩ := writeBody_ok (fmt := tenthsText) (b := ⟨2, 2, [[1/2, -1/4], [3, 27/2]], [2]⟩) (Or.inl rfl) rfl (by simp)
  refine ⟨_, file, rfl, hf, ?_, ?_⟩
  · refine C75_false_read_back decimalReader tenthsText decimal_stops (fun x => ?_) _ file hf
    simp [tenthsText]
  · rw [C75_with_count_partial decimalReader tenthsText tenths tenths_read ?_ _ rfl (by simp) (by decide) file hf "2".toList (by decide +kernel)]
    · decide +kernel
    · intro s
      show readDecimal _ = readDecimal _
      simp [readDecimal, readDecimalInt, isBlank]

end PetIBM
