/-
Properties C06 (counts), C07, C08, C09: geometry of the staggered mesh. `fieldAxis dim axes periodic f d` is
direction `d` of field `f` as built by the mesh constructor (0-2: u,v,w; 3: pressure; 4: vertices).
-/
import Verif.Lemmas.MeshAxis

set_option linter.unusedSectionVars false

namespace PetIBM

open Spec

variable {K : Type*} [Field K] [LinearOrder K] [IsStrictOrderedRing K]
variable {dim : ℕ} {axes : ℕ → Axis K} {periodic : ℕ → ℕ → Bool}

/-- C06. Numbers of points per direction: cells for pressure, and for velocity one fewer in its own direction
unless periodic; directions beyond the dimension have one point. -/
theorem C06_points_per_direction (hdim : dim ≤ 3) (hax : ∀ d, d < dim → AxisOK (axes d)) (f d : ℕ) (hf : f < dim) :
    ∃ A, fieldAxis dim axes periodic f d = .ok A ∧
      (dim ≤ d → A.n = 1) ∧
      (d < dim → d ≠ f → A.n = (axes d).dL.length) ∧
      (d < dim → d = f → periodic f d = true → A.n = (axes d).dL.length) ∧
      (d < dim → d = f → periodic f d = false → A.n + 1 = (axes d).dL.length) := by
  unfold fieldAxis
  rw [if_pos (show f < 3 by omega)]
  by_cases h : d < dim
  · rw [if_pos ⟨hf, h⟩]
    by_cases h2 : d = f
    · rw [if_pos h2]
      cases hp : periodic f d with
      | true =>
        obtain ⟨A, h3, h4, _⟩ := normalAxis_per (hax d h)
        exact ⟨A, h3, by omega, by omega, fun _ _ _ => h4, by simp⟩
      | false =>
        obtain ⟨A, h3, h4, _⟩ := normalAxis_nonper (hax d h)
        exact ⟨A, h3, by omega, by omega, by simp, fun _ _ _ => h4⟩
    · rw [if_neg h2]
      obtain ⟨A, h3, h4, _⟩ := tangentAxis_ok (hax d h) (periodic f d)
      exact ⟨A, h3, by omega, fun _ _ => h4, by omega, by omega⟩
  · rw [if_neg (by omega)]
    exact ⟨_, rfl, fun _ => rfl, by omega, by omega, by omega⟩

/-- C07. Vertices run from the domain start to the domain end, increase strictly with the cell widths as
differences, and each pressure point is the midpoint of its cell. -/
theorem C07_cells_tile_domain (d : ℕ) (hd : d < dim) (ha : AxisOK (axes d)) :
    ∃ V P, fieldAxis dim axes periodic 4 d = .ok V ∧ fieldAxis dim axes periodic 3 d = .ok P ∧
      V.n = P.n + 1 ∧ P.n = (axes d).dL.length ∧
      V.coord 0 = .ok (axes d).min ∧ V.coord P.n = .ok (axes d).max ∧
      ∀ i : ℕ, i < P.n → ∃ x y w c, V.coord i = .ok x ∧ V.coord (i + 1) = .ok y ∧ P.dL i = .ok w ∧
        P.coord i = .ok c ∧ (axes d).dL[i]? = some w ∧ x < y ∧ y - x = w ∧ c = (x + y) / 2 := by
  have e4 : fieldAxis dim axes periodic 4 d = .ok (vertexAxis (axes d)) := by
    simp [fieldAxis, hd]
  have e3 : fieldAxis dim axes periodic 3 d = .ok (pressureAxis (axes d)) := by
    simp [fieldAxis, hd]
  refine ⟨_, _, e4, e3, rfl, rfl, ?_, ?_, ?_⟩
  · rw [← vert_zero (axes d)]
    exact ptrAt_ok (m := 0) (by simp [vertexAxis]) (vertexAxis_get _ _ (by omega))
  · rw [← vert_max ha]
    exact ptrAt_ok (m := (axes d).dL.length) (by simp [vertexAxis, pressureAxis]) (vertexAxis_get _ _ (by omega))
  · intro i hi
    have hi' : i < (axes d).dL.length := hi
    refine ⟨vert (axes d) i, vert (axes d) (i+1), (axes d).dL[i], centre (axes d) i, ?_, ?_, ?_, ?_, ?_, ?_, ?_, rfl⟩
    · exact ptrAt_ok (m := i) (by simp [vertexAxis]) (vertexAxis_get _ _ (by omega))
    · exact ptrAt_ok (m := i+1) (by simp [vertexAxis]) (vertexAxis_get _ _ (by omega))
    · exact ptrAt_ok (m := i) (by simp [pressureAxis]) (List.getElem?_eq_getElem hi')
    · exact ptrAt_ok (m := i) (by simp [pressureAxis]) (pressureAxis_get _ _ hi')
    · exact List.getElem?_eq_getElem hi'
    · rw [vert_succ _ _ hi']; linarith [dL_pos ha i hi']
    · rw [vert_succ _ _ hi']; ring

/-- C08, own direction. Velocity point `i` sits on vertex `i+1`; its width is the distance between the pressure
points on its two sides; the ghost points of a wall direction sit on the walls with the width of the wall cell. -/
theorem C08_staggered_own_direction (f : ℕ) (hdim : dim ≤ 3) (hf : f < dim) (ha : AxisOK (axes f)) :
    ∃ A V P, fieldAxis dim axes periodic f f = .ok A ∧ fieldAxis dim axes periodic 4 f = .ok V ∧
      fieldAxis dim axes periodic 3 f = .ok P ∧
      (∀ i : ℕ, i < A.n → ∃ x, A.coord i = .ok x ∧ V.coord (i + 1) = .ok x) ∧
      (∀ i : ℕ, i < A.n → i + 1 < P.n → ∃ w p q, A.dL i = .ok w ∧ P.coord i = .ok p ∧
        P.coord (i + 1) = .ok q ∧ w = q - p ∧ 0 < w) ∧
      (periodic f f = false → A.coord (-1) = .ok (axes f).min ∧ A.coord A.n = .ok (axes f).max ∧
        A.dL (-1) = P.dL 0 ∧ A.dL A.n = P.dL (P.n - 1)) ∧
      (periodic f f = true → ∃ w p q, A.dL (A.n - 1) = .ok w ∧ P.coord 0 = .ok p ∧
        P.coord (P.n - 1) = .ok q ∧ w = p + ((axes f).max - (axes f).min) - q ∧ 0 < w) := by
  have e0 : fieldAxis dim axes periodic f f = normalAxis (periodic f f) (axes f) := by
    simp [fieldAxis, hf, show f < 3 by omega]
  have e4 : fieldAxis dim axes periodic 4 f = .ok (vertexAxis (axes f)) := by simp [fieldAxis, hf]
  have e3 : fieldAxis dim axes periodic 3 f = .ok (pressureAxis (axes f)) := by simp [fieldAxis, hf]
  set a := axes f with hadef
  have pc : ∀ i : ℕ, i < a.dL.length → (pressureAxis a).coord i = .ok (centre a i) := fun i hi =>
    ptrAt_ok (m := i) (by simp [pressureAxis]) (pressureAxis_get _ _ hi)
  have vc : ∀ i : ℕ, i ≤ a.dL.length → (vertexAxis a).coord i = .ok (vert a i) := fun i hi =>
    ptrAt_ok (m := i) (by simp [vertexAxis]) (vertexAxis_get _ _ hi)
  have cpos : ∀ i : ℕ, i + 1 < a.dL.length → 0 < centre a (i+1) - centre a i := by
    intro i hi
    unfold centre
    rw [vert_succ a (i+1) hi, vert_succ a i (by omega)]
    have h1 := dL_pos ha i (by omega)
    have h2 := dL_pos ha (i+1) hi
    linarith
  obtain ⟨m, hm, -, -⟩ := axis_ends ha
  cases hp : periodic f f with
  | false =>
    obtain ⟨A, h1, hn, hc, hw, hg0, hg1, _⟩ := normalAxis_nonper ha
    refine ⟨A, _, _, by rw [e0, hp]; exact h1, e4, e3, ?_, ?_, ?_, by simp⟩
    · intro i hi
      exact ⟨vert a (i+1), hc i (by omega) (by omega), vc (i+1) (by omega)⟩
    · intro i hi _
      exact ⟨_, _, _, hw i hi, pc i (by omega), pc (i+1) (by omega), rfl, cpos i (by omega)⟩
    · intro _
      refine ⟨?_, ?_, ?_, ?_⟩
      · rw [hc (-1) (by omega) (by omega)]; simp [vert_zero]
      · rw [hc A.n (by omega) (by omega), ← vert_max ha]; congr 2
      · rw [hg0]
        symm
        refine ptrAt_ok (m := 0) (by simp [pressureAxis]) ?_
        show a.dL[0]? = _
        rw [List.getElem?_eq_getElem (by omega), vert_succ a 0 (by omega)]
        congr 1; ring
      · rw [hg1]
        symm
        refine ptrAt_ok (m := m) (by simp [pressureAxis]; omega) ?_
        show a.dL[m]? = _
        rw [List.getElem?_eq_getElem (by omega), show vert a a.dL.length = vert a (m+1) by rw [hm],
          show A.n = m by omega, vert_succ a m (by omega)]
        congr 1; ring
  | true =>
    obtain ⟨A, h1, hn, hc, _, hw, hg, _⟩ := normalAxis_per ha
    refine ⟨A, _, _, by rw [e0, hp]; exact h1, e4, e3, ?_, ?_, by simp, ?_⟩
    · intro i hi
      exact ⟨vert a (i+1), hc i (by omega) (by omega), vc (i+1) (by omega)⟩
    · intro i hi hi'
      have : i + 1 < a.dL.length := hi'
      exact ⟨_, _, _, hw i (by omega), pc i (by omega), pc (i+1) (by omega), rfl, cpos i (by omega)⟩
    · intro _
      have q : (pressureAxis a).coord ((pressureAxis a).n - 1) = .ok (centre a m) := by
        rw [← pc m (by omega)]; congr 1; simp only [pressureAxis]; omega
      refine ⟨_, _, _, hg _ (Or.inr (by omega)), pc 0 (by omega), q, ?_, ?_⟩
      · rw [show A.n - 1 = m by omega]
      · rw [show A.n - 1 = m by omega]
        have e := vert_max ha
        rw [show vert a a.dL.length = vert a (m+1) by rw [hm], vert_succ a m (by omega)] at e
        unfold centre
        rw [vert_succ a 0 (by omega), vert_succ a m (by omega), ← e, vert_zero]
        have h1 := dL_pos ha 0 (by omega)
        have h2 := dL_pos ha m (by omega)
        linarith

/-- C08, other directions. Velocity points share coordinates and widths with the pressure points; in a wall
direction the ghost points mirror the first and last point at the walls, with the same widths. -/
theorem C08_staggered_other_directions (f d : ℕ) (hdim : dim ≤ 3) (hf : f < dim) (hd : d < dim) (hfd : d ≠ f)
    (ha : AxisOK (axes d)) :
    ∃ A P, fieldAxis dim axes periodic f d = .ok A ∧ fieldAxis dim axes periodic 3 d = .ok P ∧ A.n = P.n ∧
      (∀ i : ℕ, i < A.n → A.coord i = P.coord i ∧ A.dL i = P.dL i ∧ ∃ x w, A.coord i = .ok x ∧ A.dL i = .ok w) ∧
      (periodic f d = false → (∃ x y, A.coord (-1) = .ok x ∧ A.coord 0 = .ok y ∧ (x + y) / 2 = (axes d).min) ∧
        (∃ x y, A.coord (A.n - 1) = .ok x ∧ A.coord A.n = .ok y ∧ (x + y) / 2 = (axes d).max) ∧
        A.dL (-1) = A.dL 0 ∧ A.dL A.n = A.dL (A.n - 1)) := by
  have e0 : fieldAxis dim axes periodic f d = tangentAxis (periodic f d) (axes d) := by
    simp [fieldAxis, hf, hd, hfd, show f < 3 by omega]
  have e3 : fieldAxis dim axes periodic 3 d = .ok (pressureAxis (axes d)) := by simp [fieldAxis, hd]
  set a := axes d with hadef
  have pc : ∀ i : ℕ, i < a.dL.length → (pressureAxis a).coord i = .ok (centre a i) := fun i hi =>
    ptrAt_ok (m := i) (by simp [pressureAxis]) (pressureAxis_get _ _ hi)
  have pd : ∀ i : ℕ, i < a.dL.length → (pressureAxis a).dL i = .ok (vert a (i+1) - vert a i) := by
    intro i hi
    refine ptrAt_ok (m := i) (by simp [pressureAxis]) ?_
    show a.dL[i]? = _
    rw [List.getElem?_eq_getElem hi, vert_succ a i hi]
    congr 1; ring
  obtain ⟨m, hm, -, -⟩ := axis_ends ha
  obtain ⟨A, h1, hn, hc, hg, _⟩ := tangentAxis_ok ha (periodic f d)
  refine ⟨A, _, by rw [e0]; exact h1, e3, hn, ?_, ?_⟩
  · intro i hi
    obtain ⟨c1, c2⟩ := hc i hi
    exact ⟨by rw [c1, pc i (by omega)], by rw [c2, pd i (by omega)], _, _, c1, c2⟩
  · intro hp
    obtain ⟨g1, g2, g3, g4⟩ := hg hp
    refine ⟨⟨_, _, g1, (hc 0 (by omega)).1, by ring⟩, ⟨centre a m, _, ?_, g2, ?_⟩, g3, g4⟩
    · rw [← (hc m (by omega)).1]; congr 1; omega
    · rw [show A.n - 1 = m by omega]; ring

/-- C08. Every direction of every velocity component has exactly one ghost entry on both sides: coordinates and
widths can be read from -1 to n and nowhere else, and the coordinates increase strictly from -1 to n. -/
theorem C08_ghosts_and_order (f d : ℕ) (hdim : dim ≤ 3) (hf : f < dim) (hd : d < dim) (ha : AxisOK (axes d)) :
    ∃ A, fieldAxis dim axes periodic f d = .ok A ∧
      (∀ i : ℤ, ((∃ x, A.coord i = .ok x) ↔ -1 ≤ i ∧ i ≤ A.n) ∧ ((∃ w, A.dL i = .ok w) ↔ -1 ≤ i ∧ i ≤ A.n)) ∧
      (∀ i : ℤ, -1 ≤ i → i < A.n → ∃ x y, A.coord i = .ok x ∧ A.coord (i + 1) = .ok y ∧ x < y) := by
  have range : ∀ (l : List K) (n : ℕ) (i : ℤ), l.length = n + 2 → ((∃ x, ptrAt l 1 i = .ok x) ↔ -1 ≤ i ∧ i ≤ n) := by
    intro l n i hl
    constructor
    · rintro ⟨x, hx⟩
      rw [ptrAt_eq_ok] at hx
      have := (List.getElem?_eq_some_iff.1 hx.2).1
      omega
    · rintro ⟨h1, h2⟩
      exact ⟨_, ptrAt_ok (m := (i+1).toNat) (by omega) (List.getElem?_eq_getElem (by omega))⟩
  have vlt : ∀ (a : Axis K) (_ : AxisOK a) (i : ℕ), i < a.dL.length → vert a i < vert a (i+1) := by
    intro a ha i hi
    rw [vert_succ a i hi]; linarith [dL_pos ha i hi]
  have clt : ∀ (a : Axis K) (_ : AxisOK a) (i : ℕ), i + 1 < a.dL.length → centre a i < centre a (i+1) := by
    intro a ha i hi
    have h1 := vlt a ha i (by omega)
    have h2 := vlt a ha (i+1) hi
    unfold centre; linarith
  set a := axes d with hadef
  obtain ⟨m, hm, -, -⟩ := axis_ends ha
  have vmax := vert_max ha
  rw [show vert a a.dL.length = vert a (m+1) by rw [hm]] at vmax
  by_cases hfd : d = f
  · have e0 : fieldAxis dim axes periodic f d = normalAxis (periodic f d) a := by
      simp [fieldAxis, hf, hfd, show f < 3 by omega, hadef]
    rw [e0]
    cases hp : periodic f d with
    | false =>
      obtain ⟨A, h1, hn, hc, -, -, -, l1, l2, hs⟩ := normalAxis_nonper ha
      refine ⟨A, h1, fun i => ⟨?_, ?_⟩, ?_⟩
      · unfold FieldAxis.coord; rw [hs]; exact range _ _ _ l1
      · unfold FieldAxis.dL; rw [hs]; exact range _ _ _ l2
      · intro i h1 h2
        refine ⟨_, _, hc i h1 (by omega), hc (i+1) (by omega) (by omega), ?_⟩
        rw [show (i + 1 + 1).toNat = (i+1).toNat + 1 by omega]
        exact vlt a ha _ (by omega)
    | true =>
      obtain ⟨A, h1, hn, hc, hce, -, -, -, l1, l2, hs⟩ := normalAxis_per ha
      refine ⟨A, h1, fun i => ⟨?_, ?_⟩, ?_⟩
      · unfold FieldAxis.coord; rw [hs]; exact range _ _ _ l1
      · unfold FieldAxis.dL; rw [hs]; exact range _ _ _ l2
      · intro i h1 h2
        by_cases hi : i + 1 < A.n
        · refine ⟨_, _, hc i h1 (by omega), hc (i+1) (by omega) (by omega), ?_⟩
          rw [show (i + 1 + 1).toNat = (i+1).toNat + 1 by omega]
          exact vlt a ha _ (by omega)
        · refine ⟨_, _, hc i h1 h2, by rw [show i + 1 = A.n by omega]; exact hce, ?_⟩
          rw [show (i + 1).toNat = m + 1 by omega, vmax]
          linarith [vlt a ha 0 (by omega)]
  · have e0 : fieldAxis dim axes periodic f d = tangentAxis (periodic f d) a := by
      simp [fieldAxis, hf, hd, hfd, show f < 3 by omega, hadef]
    rw [e0]
    obtain ⟨A, h1, hn, hc, hg, hg', l1, l2, hs⟩ := tangentAxis_ok ha (periodic f d)
    refine ⟨A, h1, fun i => ⟨?_, ?_⟩, ?_⟩
    · unfold FieldAxis.coord; rw [hs]; exact range _ _ _ l1
    · unfold FieldAxis.dL; rw [hs]; exact range _ _ _ l2
    · intro i h1 h2
      have v0 := vlt a ha 0 (by omega)
      have vm := vlt a ha m (by omega)
      have vz := vert_zero a
      rcases (show i = -1 ∨ i + 1 = A.n ∨ (0 ≤ i ∧ i + 1 < A.n) by omega) with rfl | hi | ⟨hi, hi'⟩
      · have c0 := (hc 0 (by omega)).1
        cases hp : periodic f d with
        | false =>
          refine ⟨_, _, (hg hp).1, c0, ?_⟩
          unfold centre; linarith
        | true =>
          refine ⟨_, _, (hg' hp).1, c0, ?_⟩
          rw [show A.n - 1 = m by omega]; unfold centre; linarith
      · have ci : A.coord i = .ok (centre a m) := by
          rw [← (hc m (by omega)).1]; congr 1; omega
        rw [hi]
        cases hp : periodic f d with
        | false =>
          refine ⟨_, _, ci, (hg hp).2.1, ?_⟩
          rw [show A.n - 1 = m by omega]; unfold centre; linarith
        | true =>
          refine ⟨_, _, ci, (hg' hp).2.1, ?_⟩
          unfold centre; linarith
      · obtain ⟨k, rfl⟩ : ∃ k : ℕ, i = k := ⟨i.toNat, by omega⟩
        exact ⟨_, _, (hc k (by omega)).1, (hc (k+1) (by omega)).1, clt a ha k (by omega)⟩

/-- C09. In a periodic direction the ghost coordinates are those of the wrapped points shifted by the domain
length, and the ghost widths are those of the wrapped points. -/
theorem C09_periodic_images (f d : ℕ) (hdim : dim ≤ 3) (hf : f < dim) (hd : d < dim) (ha : AxisOK (axes d))
    (hp : periodic f d = true) :
    ∃ A, fieldAxis dim axes periodic f d = .ok A ∧ 0 < A.n ∧
      (∃ x y, A.coord (-1) = .ok x ∧ A.coord (A.n - 1) = .ok y ∧ x = y - ((axes d).max - (axes d).min)) ∧
      (∃ x y, A.coord A.n = .ok x ∧ A.coord 0 = .ok y ∧ x = y + ((axes d).max - (axes d).min)) ∧
      (∃ w, A.dL (-1) = .ok w ∧ A.dL (A.n - 1) = .ok w) ∧
      (∃ w, A.dL A.n = .ok w ∧ A.dL 0 = .ok w) := by
  set a := axes d with hadef
  obtain ⟨m, hm, -, -⟩ := axis_ends ha
  have vmax := vert_max ha
  rw [show vert a a.dL.length = vert a (m+1) by rw [hm]] at vmax
  have hrange := C08_ghosts_and_order (periodic := periodic) f d hdim hf hd ha
  by_cases hfd : d = f
  · have e0 : fieldAxis dim axes periodic f d = normalAxis true a := by
      simp [fieldAxis, hf, hfd, show f < 3 by omega, hadef, ← hp]
    rw [e0] at hrange ⊢
    obtain ⟨A, h1, hn, hc, hce, -, hw, hw', -⟩ := normalAxis_per ha
    obtain ⟨A', h1', hr, -⟩ := hrange
    rw [h1] at h1'
    obtain rfl := Except.ok.inj h1'
    refine ⟨A, h1, by omega, ⟨_, _, hc (-1) (by omega) (by omega), hc (A.n - 1) (by omega) (by omega), ?_⟩,
      ⟨_, _, hce, hc 0 (by omega) (by omega), ?_⟩, ⟨_, hw (-1) (Or.inl rfl), hw (A.n - 1) (Or.inr (by omega))⟩, ?_⟩
    · rw [show ((A.n : ℤ) - 1 + 1).toNat = m + 1 by omega, vmax]
      simp [vert_zero]
    · simp only [zero_add, Int.toNat_one]; rw [vert_zero]; ring
    · obtain ⟨w, hw0⟩ := ((hr 0).2).2 ⟨by omega, by omega⟩
      exact ⟨w, by rw [hw', hw0], hw0⟩
  · have e0 : fieldAxis dim axes periodic f d = tangentAxis true a := by
      simp [fieldAxis, hf, hd, hfd, show f < 3 by omega, hadef, hp]
    rw [e0]
    obtain ⟨A, h1, hn, hc, -, hg, -⟩ := tangentAxis_ok ha true
    obtain ⟨g1, g2, g3, g4⟩ := hg rfl
    have cm : A.coord (A.n - 1) = .ok (centre a m) ∧ A.dL (A.n - 1) = .ok (vert a (m+1) - vert a m) := by
      have := hc m (by omega)
      rw [show ((A.n : ℤ) - 1) = (m : ℕ) by omega]
      exact this
    have c0 := hc 0 (by omega)
    refine ⟨A, h1, by omega, ⟨_, _, g1, cm.1, ?_⟩, ⟨_, _, g2, c0.1, rfl⟩, ⟨_, by rw [g3]; exact cm.2, cm.2⟩,
      ⟨_, by rw [g4]; exact c0.2, c0.2⟩⟩
    rw [show A.n - 1 = m by omega]

/-- three cells of widths 1, 2, 1/2 from 0 to 7/2 -/
def exampleAxis : Axis ℚ := ⟨0, 7/2, [1, 2, 1/2]⟩

theorem exampleAxis_ok : AxisOK exampleAxis where
  nonempty := by simp [exampleAxis]
  pos := by simp [exampleAxis]
  total := by simp [exampleAxis]; norm_num

example : ∃ A, normalAxis true exampleAxis = .ok A ∧ A.n = 3 ∧ A.dLTrue = [3/4, 3/2, 5/4, 3/4, 3/2] := by
  refine ⟨_, rfl, rfl, ?_⟩
  simp [adjacentDifference, adjacentFrom, halfSum, exampleAxis]; norm_num

end PetIBM
