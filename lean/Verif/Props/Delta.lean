/-
Interpolation between grid and bodies (C28), periodic neighbours (C29), and success of the assembly (C64).
-/
import Verif.Lemmas.DeltaRun
import Verif.Spec.Delta
import Verif.Props.MeshInit
import Verif.Props.Body
import Mathlib.Tactic.FieldSimp

set_option linter.unusedSectionVars false

namespace PetIBM

open Spec

/-! ### C28 -/

section General

variable {K : Type} [Field K] [LinearOrder K] [IsStrictOrderedRing K]
variable {L : Layout} {G : Geom K} {axes : ℕ → Axis K}

theorem Spec.Setup.coord_velPos (S : Setup L G axes) {f d s : ℕ} (hf : f < L.dim) (hd : d < L.dim) (hs : s < L.n f d) :
    G.coord f d s = velPos axes f d s := by
  have h3 := S.dim_le
  have h := (S.meshCoord_inside hf hd hs).1
  unfold meshCoord at h
  obtain ⟨A, hA, h⟩ := bind_ok h
  exact (S.geom f d (by omega) (by omega) A hA).1 _ _ h

end General

section Window

variable {L : Layout} {G : Geom ℝ} {axes : ℕ → Axis ℝ}

/-- C28. On a locally uniform grid every velocity point at which the kernel is not zero lies within the index window scanned
around the cell of the body point. -/
theorem C28_window (S : Setup L G axes) {name : String} {s : ℝ} (hs : Support name s) {kernel : DeltaKernel ℝ} {size : ℤ}
    (hk : getKernel name = .ok (kernel, size)) {f d : ℕ} (hf : f < L.dim) (hd : d < L.dim) {x h : ℝ} (hh : 0 < h) {I : ℤ}
    (hI : SingleBody.meshIndex (axes d) x = .ok I) (hu : LocallyUniform (axes d) h size.toNat x) {t : ℤ} (ht : 0 ≤ t)
    (ht' : t < L.n f d) {v : ℝ} (hv : kernel (x - G.coord f d t) h = .ok v) (hv0 : v ≠ 0) : I - size ≤ t ∧ t ≤ I + size := by
  obtain ⟨hs1, hs2, hs3, hs4, hker⟩ := kernel_support hs hk
  obtain ⟨φ, q, hφ, hδ⟩ := hker h hh
  have ha := S.axesOK d hd
  obtain ⟨I', rfl, hcell, _, _⟩ := meshIndex_inv ha hI
  obtain ⟨J, hJ, hu⟩ := hu
  obtain rfl := inCell_unique ha hcell hJ
  obtain ⟨t, rfl⟩ := Int.eq_ofNat_of_zero_le ht
  rw [hφ, S.coord_velPos hf hd (by omega)] at hv
  have hv := Except.ok.inj hv
  have hl := (S.meshCoord_inside hf hd (s := t) (by omega)).2.1
  have hnear : |x - velPos axes f d t| < s * h := by
    by_contra hge
    exact hv0 (hv ▸ hδ.outside _ (not_lt.1 hge))
  rw [abs_lt] at hnear
  have hsw : s * h ≤ size.toNat * h := mul_le_mul_of_nonneg_right hs2 hh.le
  obtain ⟨c1, c2, c3⟩ := hcell
  change vert (axes d) I' ≤ x at c2
  change x < vert (axes d) (I' + 1) at c3
  have m1 := vert_mono ha (show t ≤ t + 1 by omega) (by omega)
  have hpos : vert (axes d) t ≤ velPos axes f d t ∧ velPos axes f d t ≤ vert (axes d) (t + 1) := by
    unfold velPos centre
    split_ifs <;> constructor <;> linarith
  constructor
  · by_contra hlt
    have e := vert_window hu (j := I' - size.toNat) (by omega) (by omega) (by omega) c1
    have m := vert_mono ha (show t + 1 ≤ I' - size.toNat by omega) (by omega)
    rw [Nat.cast_sub (by omega)] at e
    nlinarith [hpos.2]
  · by_contra hlt
    have e := vert_window hu (j := I' + size.toNat + 1) (by omega) (by omega) (by omega) c1
    have e' := vert_window hu (j := I' + 1) (by omega) (by omega) (by omega) c1
    have m := vert_mono ha (show I' + size.toNat + 1 ≤ t by omega) (by omega)
    push_cast at e e'
    nlinarith [hpos.1]

/-- C28. Where the grid is uniform around the points of a body, interpolating a velocity component that is affine in the
coordinates (in particular a constant one) to a body point gives its value there; the delta operator has the inverse of the
volume of a cell as a factor. The values of the other components do not matter. Points whose neighbourhood reaches over a
periodic end are excluded, see C29. -/
theorem C28_interpolation {debug : Bool} {T : BCTable ℝ} {B : ℕ → Boundary ℝ} (hC : Constructed debug L G axes T B)
    (hist : List (Boundary.Op ℝ)) {P : BodyPack ℝ} (hP : PackOK P) (hdim : P.dim = L.dim) (hsize : P.mpiSize = L.mpiSize)
    {meshIdx : ℕ → ℕ → List (List ℤ)}
    (hidx : ∀ (r b : ℕ) (body : SingleBody ℝ), r < L.mpiSize → P.bodies[b]? = some body → body.updateMeshIdx axes r = .ok (meshIdx r b))
    {name : String} {s : ℝ} (hs : Support name s) {kernel : DeltaKernel ℝ} {size : ℤ} (hk : getKernel name = .ok (kernel, size))
    {D : Mat ℝ} (hD : createDelta debug L axes (fun r => (B r).run hist) P meshIdx kernel size.toNat = .ok D) {b : ℕ}
    {body : SingleBody ℝ} (hb : P.bodies[b]? = some body) {h : ℕ → ℝ} (hh : ∀ d, d < L.dim → 0 < h d)
    (hreg : ∀ i p d x, i < body.nPts → body.coords[i]? = some p → d < L.dim → p[d]? = some x →
      LocallyUniform (axes d) (h d) size.toNat x ∧
      ((∀ e, e < L.dim → L.periodic 0 e = false) ∧ AwayFromEnds (axes d) (s * h d) x ∨
        AwayFromEnds (axes d) ((size.toNat + 2) * h d) x))
    {i : ℕ} (hi : i < body.nPts) {X : List ℝ} (hX : body.coords[i]? = some X) {f : ℕ} (hf : f < L.dim) {row : ℤ}
    (hrow : P.getPackedGlobalIndex b i f = .ok row) (a : ℝ) (g : ℕ → ℝ) (q : ℤ → ℝ)
    (hq : ∀ (st : Stencil) (c : ℤ), Inside L.toMeshInfo f st → L.getPackedGlobalIndex debug f st = .ok c →
      q c = a + ∑ d ∈ Finset.range L.dim, g d * G.coord f d (coordOf st d)) :
    (∏ d ∈ Finset.range L.dim, h d) * Mat.mult L.UN D q row = a + ∑ d ∈ Finset.range L.dim, g d * X.getD d 0 := by
  have S := hC.setup
  obtain ⟨hs1, hs2, -⟩ := kernel_support hs hk
  obtain ⟨φ, qs, x, I, h1, h2, h3⟩ := createDelta_uniform hC hist hP hdim hsize hidx hs hk hD hb hh hreg hi hX hf hrow
  have hax : ∀ d, d < L.dim → _ := fun d hd =>
    S.axis_weights hf hd (hh d hd) (h1 d hd) hs2 (h2 d hd).2.1 (h2 d hd).2.2.2 (h2 d hd).2.2.1
  have h0 := hh 0 (by rcases S.layout.dim with h | h <;> omega)
  have h1' := hh 1 (by rcases S.layout.dim with h | h <;> omega)
  rw [h3]
  have hg : ∀ d, d < L.dim → X.getD d 0 = x d := fun d hd => by
    rw [List.getD_eq_getElem?_getD, (h2 d hd).1]; rfl
  rcases S.layout.dim with hd | hd
  · rw [sum_rowEntries φ x I size.toNat f row q a (fun d => if d < 2 then g d else 0) ?_ _ _ _ _ 1 0
      (hax 0 (by omega)).1 (hax 0 (by omega)).2 (hax 1 (by omega)).1 (hax 1 (by omega)).2]
    · simp only [hd, Finset.prod_range_succ, Finset.sum_range_succ, Finset.prod_range_zero, Finset.sum_range_zero,
        hg 0 (by omega), hg 1 (by omega)]
      simp
      field_simp
      ring
    · simp [windowZ, weightZ, hd]
    · simp [windowZ, hd]
    · intro i hi j hj k hk
      have hin := window_inside S hf hi hj hk
      rw [hq _ _ hin (col_inside S.layout (Or.inl hf) debug hin).1]
      obtain ⟨i1, -, -, i2⟩ := mem_windowPoints hi
      obtain ⟨j1, -, -, j2⟩ := mem_windowPoints hj
      have e0 := S.coord_velPos hf (d := 0) (by omega) i1
      have e1 := S.coord_velPos hf (d := 1) (by omega) j1
      simp only [hd, Finset.sum_range_succ, Finset.sum_range_zero, coordOf, i2, j2]
      simp only [if_true, one_ne_zero, if_false, e0, e1]
      norm_num
      ring
  · have h2' := hh 2 (by omega)
    rw [sum_rowEntries φ x I size.toNat f row q a g ?_ _ _ _ _ (1 / h 2) (x 2 / h 2)
      (hax 0 (by omega)).1 (hax 0 (by omega)).2 (hax 1 (by omega)).1 (hax 1 (by omega)).2]
    · simp only [hd, Finset.prod_range_succ, Finset.sum_range_succ, Finset.prod_range_zero, Finset.sum_range_zero,
        hg 0 (by omega), hg 1 (by omega), hg 2 (by omega)]
      field_simp
      ring
    · simp only [windowZ, weightZ, if_pos hd]
      exact (hax 2 (by omega)).1
    · simp only [windowZ, weightZ, if_pos hd]
      exact (hax 2 (by omega)).2
    · intro i hi j hj k hk
      have hin := window_inside S hf hi hj hk
      rw [hq _ _ hin (col_inside S.layout (Or.inl hf) debug hin).1]
      unfold windowZ at hk
      rw [if_pos hd] at hk
      obtain ⟨i1, -, -, i2⟩ := mem_windowPoints hi
      obtain ⟨j1, -, -, j2⟩ := mem_windowPoints hj
      obtain ⟨k1, -, -, k2⟩ := mem_windowPoints hk
      have e0 := S.coord_velPos hf (d := 0) (by omega) i1
      have e1 := S.coord_velPos hf (d := 1) (by omega) j1
      have e2 := S.coord_velPos hf (d := 2) (by omega) k1
      simp only [hd, Finset.sum_range_succ, Finset.sum_range_zero, coordOf, i2, j2, k2]
      simp only [if_true, one_ne_zero, if_false, OfNat.ofNat_ne_zero, OfNat.ofNat_ne_one, e0, e1, e2]
      ring

end Window

/-! ### C64 -/

section Total

variable {K : Type} [Field K] [LinearOrder K] [IsStrictOrderedRing K]
variable {L : Layout} {G : Geom K} {axes : ℕ → Axis K}

/-- C64, for bodies that have a point on every process: the indices of the cells and the delta operator are computed without error
and without reading outside of an array, wherever the points are inside of the domain; if there are periodic directions, the
window of the kernel around the points must not reach over an end. Missing: bodies with fewer points than processes
(`C64_false_no_points`) and bodies near an end of a periodic mesh (`C29_false_ub`). -/
theorem C64_assembled_partial {debug : Bool} {T : BCTable K} {B : ℕ → Boundary K} (hC : Constructed debug L G axes T B)
    (hist : List (Boundary.Op K)) {P : BodyPack K} (hP : PackOK P) (hdim : P.dim = L.dim) (hsize : P.mpiSize = L.mpiSize) {w : ℕ}
    (hroom : (∀ d, d < L.dim → L.periodic 0 d = false) ∨
      ∀ body ∈ P.bodies, ∀ i p, i < body.nPts → body.coords[i]? = some p → WindowInside L axes w p)
    (hin : ∀ body ∈ P.bodies, ∀ i, i < body.nPts → ∃ p : List K, body.coords[i]? = some p ∧ ∀ d, d < L.dim →
      ∃ x, p[d]? = some x ∧ (axes d).min < x ∧ x < (axes d).max)
    (hown : ∀ (r : ℕ) (body : SingleBody K), r < L.mpiSize → body ∈ P.bodies → ∃ i, OwnsPoint body r i)
    {kernel : DeltaKernel K} (hk : ∀ r h : K, 0 < h → ∃ v, kernel r h = .ok v) :
    ∃ meshIdx D, (∀ (r b : ℕ) (body : SingleBody K), r < L.mpiSize → P.bodies[b]? = some body →
      body.updateMeshIdx axes r = .ok (meshIdx r b)) ∧
    createDelta debug L axes (fun r => (B r).run hist) P meshIdx kernel w = .ok D := by
  have key : ∀ r b : ℕ, ∃ idx, ∀ body, r < L.mpiSize → P.bodies[b]? = some body → body.updateMeshIdx axes r = .ok idx := by
    intro r b
    cases hb : P.bodies[b]? with
    | none => exact ⟨[], fun _ _ h => by cases h⟩
    | some body =>
      have hbm := List.mem_of_getElem? hb
      have hbd : body.dim = L.dim := (hP.dim _ hbm).trans hdim
      obtain ⟨idx, h, _⟩ := C33_body axes body (fun d hd => hC.setup.axesOK d (by omega)) r (by
        intro i hi
        obtain ⟨p, hp, h⟩ := hin body hbm i (by rw [← hP.points _ hbm]; exact lt_of_lt_of_le hi.2 (sum_take_le _ _))
        exact ⟨p, hp, fun d hd => h d (by omega)⟩)
      exact ⟨idx, fun body' _ h' => by cases h'; exact h⟩
  choose meshIdx hm using key
  have hidx : ∀ (r b : ℕ) (body : SingleBody K), r < L.mpiSize → P.bodies[b]? = some body →
      body.updateMeshIdx axes r = .ok (meshIdx r b) := fun r b body h1 h2 => hm r b body h1 h2
  obtain ⟨D, hD⟩ := createDelta_total hC hist hP hdim hsize hidx (fun r body hr hb => by
    obtain ⟨i, hi⟩ := hown r body hr hb
    have := ownsPoint_iff.1 hi
    unfold SingleBody.nLclPts
    omega) hk hroom
  exact ⟨meshIdx, D, hidx, hD⟩

/-- C64 does not hold in general: a process without a point of a body reads the first entry of the empty array of cell
indices, whatever the mesh, the boundary and the kernel. -/
theorem C64_false_no_points (debug : Bool) (hL : 0 < L.dim) (per : List Bool) (P : BodyPack K) (kernel : DeltaKernel K)
    (w r b : ℕ) (body : SingleBody K) (hown : ¬ ∃ i, OwnsPoint body r i) {idx : List (List ℤ)}
    (hidx : body.updateMeshIdx axes r = .ok idx) : deltaBody debug L axes per P kernel w r b body idx = .error .ub := by
  have h0 : body.nLclPts r = 0 := by
    by_contra h
    exact hown ⟨body.bgPt r, ownsPoint_iff.2 (by unfold SingleBody.nLclPts at h; unfold SingleBody.bgPt; omega)⟩
  unfold SingleBody.updateMeshIdx at hidx
  rw [h0] at hidx
  obtain rfl : [] = idx := Except.ok.inj hidx
  obtain ⟨n, hn⟩ : ∃ n, L.dim = n + 1 := ⟨L.dim - 1, by omega⟩
  unfold deltaBody
  rw [hn, List.range_succ_eq_map, List.mapM_cons]
  rfl

end Total

/-- A uniform mesh of eight by eight cells on two processes. -/
noncomputable def deltaAxes : ℕ → Axis ℝ := fun _ => ⟨0, 8, [1, 1, 1, 1, 1, 1, 1, 1]⟩

noncomputable abbrev deltaLayout : Layout :=
  meshLayout 2 deltaAxes (fun _ _ => false) fun d => if d = 0 then 2 else 1

theorem deltaAxes_ok (d : ℕ) : AxisOK (deltaAxes d) := ⟨by simp [deltaAxes], by simp [deltaAxes], by norm_num [deltaAxes]⟩

theorem deltaLayout_constructed :
    ∃ B, Constructed true deltaLayout (meshGeom 2 deltaAxes fun _ _ => false) deltaAxes (fun _ _ => (.DIRICHLET, 0)) B := by
  apply C57_construction true (Or.inl rfl) (fun d _ => deltaAxes_ok d) (fun _ _ _ _ => rfl)
  · intro d hd; interval_cases d <;> simp
  · intro f d hf hd
    rcases hf with hf | rfl
    · interval_cases d <;> interval_cases f <;> decide
    · interval_cases d <;> decide
  · intro f loc _ _; simp
  · intro f loc _ _; simp

/-- A body of two points, one on each process. -/
noncomputable def deltaPack : BodyPack ℝ where
  dim := 2
  mpiSize := 2
  bodies := [⟨2, 2, [[7/2, 4], [17/4, 9/2]], [1, 1]⟩]

theorem deltaPack_ok : PackOK deltaPack := by constructor <;> simp [deltaPack]

theorem deltaPack_points : ∀ body ∈ deltaPack.bodies, ∀ i, i < body.nPts → ∃ p : List ℝ, body.coords[i]? = some p ∧
    ∀ d, d < 2 → ∃ x, p[d]? = some x ∧ 2 < x ∧ x < 6 ∧ LocallyUniform (deltaAxes d) 1 2 x := by
  intro body hb i hi
  obtain rfl : body = ⟨2, 2, [[7/2, 4], [17/4, 9/2]], [1, 1]⟩ := by simpa [deltaPack] using hb
  have hall : ∀ (I j : ℕ) (v : ℝ), (deltaAxes I).dL[j]? = some v → v = 1 := by
    intro I j v h
    have := List.mem_of_getElem? h
    simp only [deltaAxes, List.mem_cons, List.not_mem_nil, or_false, or_self] at this
    exact this
  have cell : ∀ (d I : ℕ) (x : ℝ), I < 8 → (I : ℝ) ≤ x → x < I + 1 → LocallyUniform (deltaAxes d) 1 2 x := by
    intro d I x hI h1 h2
    refine ⟨I, ⟨hI, ?_, ?_⟩, fun j v _ _ h => hall d j v h⟩
    · interval_cases I <;> simp [deltaAxes] at h1 ⊢ <;> linarith
    · interval_cases I <;> simp [deltaAxes] at h2 ⊢ <;> linarith
  change i < 2 at hi
  interval_cases i
  · refine ⟨_, rfl, fun d hd => ?_⟩
    interval_cases d
    · exact ⟨_, rfl, by norm_num, by norm_num, cell 0 3 _ (by norm_num) (by norm_num) (by norm_num)⟩
    · exact ⟨_, rfl, by norm_num, by norm_num, cell 1 4 _ (by norm_num) (by norm_num) (by norm_num)⟩
  · refine ⟨_, rfl, fun d hd => ?_⟩
    interval_cases d
    · exact ⟨_, rfl, by norm_num, by norm_num, cell 0 4 _ (by norm_num) (by norm_num) (by norm_num)⟩
    · exact ⟨_, rfl, by norm_num, by norm_num, cell 1 4 _ (by norm_num) (by norm_num) (by norm_num)⟩

/-- The delta operator of this body exists and interpolates the constant 7 of the second component to the second point. -/
example : ∃ (B : ℕ → Boundary ℝ) (meshIdx : ℕ → ℕ → List (List ℤ)) (D : Mat ℝ) (row : ℤ),
    createDelta true deltaLayout deltaAxes B deltaPack meshIdx romaEtAl1999 2 = .ok D ∧
    deltaPack.getPackedGlobalIndex 0 1 1 = .ok row ∧ Mat.mult deltaLayout.UN D (fun _ => 7) row = 7 := by
  obtain ⟨B, hB⟩ := deltaLayout_constructed
  have hk : getKernel "ROMA_ET_AL_1999" = .ok (romaEtAl1999, 2) := by simp [getKernel]
  obtain ⟨meshIdx, D, hidx, hD⟩ := C64_assembled_partial hB [] deltaPack_ok rfl rfl (w := 2) (Or.inl fun _ _ => rfl)
    (fun body hb i hi => by
      obtain ⟨p, hp, h⟩ := deltaPack_points body hb i hi
      refine ⟨p, hp, fun d hd => ?_⟩
      obtain ⟨x, hx, h1, h2, _⟩ := h d hd
      exact ⟨x, hx, by simp only [deltaAxes]; linarith, by simp only [deltaAxes]; linarith⟩)
    (fun r body hr hb => by
      obtain rfl : body = ⟨2, 2, [[7/2, 4], [17/4, 9/2]], [1, 1]⟩ := by simpa [deltaPack] using hb
      change r < 2 at hr
      interval_cases r
      · exact ⟨0, by unfold OwnsPoint; decide⟩
      · exact ⟨1, by unfold OwnsPoint; decide⟩)
    (kernel := romaEtAl1999) (fun r h hh => by obtain ⟨φ, q, _⟩ := C27_roma h hh; exact ⟨_, q r⟩)
  obtain ⟨row, hrow, _⟩ := (C31_packed_index_bijective deltaPack deltaPack_ok).1 ⟨1, 0, 1, 1⟩
    ⟨by decide, by decide, _, rfl, by decide, by unfold OwnsPoint; decide⟩
  refine ⟨_, meshIdx, D, row, hD, hrow, ?_⟩
  have := C28_interpolation hB [] deltaPack_ok rfl rfl hidx .roma hk hD (b := 0) rfl (h := fun _ => 1) (fun _ _ => by norm_num)
    (fun i p d x hi hp hd hx => by
      obtain ⟨p', hp', h⟩ := deltaPack_points _ (List.mem_singleton.2 rfl) i hi
      rw [hp] at hp'
      cases hp'
      obtain ⟨x', hx', h1, h2, h3⟩ := h d hd
      rw [hx] at hx'
      cases hx'
      exact ⟨h3, Or.inl ⟨fun _ _ => rfl, by simp only [deltaAxes]; linarith, by simp only [deltaAxes]; linarith⟩⟩)
    (i := 1) (by decide) rfl (f := 1) (by decide) hrow 7 (fun _ => 0) (fun _ => 7) (by simp)
  simpa using this

/-! ### C29 -/

section Periodic

variable {K : Type} [Field K] [LinearOrder K] [IsStrictOrderedRing K]
variable {L : Layout} {G : Geom K} {axes : ℕ → Axis K}

/-- C29, for meshes without periodic directions: the neighbourhood of a body point consists of the velocity points whose index
is within the window, each once and with its own coordinate; nothing is wrapped. Missing: periodic directions, where the
claim fails (`C29_false_flag`, `C29_false_ub`, `C29_false_distance`). -/
theorem C29_nonperiodic_partial {debug : Bool} {T : BCTable K} {B : ℕ → Boundary K} (hC : Constructed debug L G axes T B)
    (hist : List (Boundary.Op K)) (hnp : ∀ d, d < L.dim → L.periodic 0 d = false) {r f d : ℕ} (hr : r < L.mpiSize)
    (hf : f < L.dim) (hd : d < L.dim) (I w : ℕ) : ∃ per l, deltaPeriodic ((B r).run hist) d = .ok per ∧
      eulerianNeighbors L axes f d I per w = .ok l ∧ l.Nodup ∧
      ∀ p, p ∈ l ↔ 0 ≤ p.1 ∧ p.1 < L.n f d ∧ (I : ℤ) - w ≤ p.1 ∧ p.1 ≤ I + w ∧ p.2 = G.coord f d p.1 := by
  have S := hC.setup
  refine ⟨false, _, by rw [deltaPeriodic_run hC hist hr (by omega), hnp _ (by omega)], S.eulerianNeighbors_eq hf hd (Or.inl rfl),
    ?_, fun p => ?_⟩
  · apply List.Nodup.map
    · intro a b hab
      have := congrArg Prod.fst hab
      have h2 := congrArg Prod.snd hab
      exact Prod.ext (by simpa using this) (by simpa using h2)
    · unfold windowPoints
      apply List.Nodup.map
      · intro a b hab
        exact congrArg Prod.fst hab
      · exact List.Nodup.filter _ List.nodup_range
  · constructor
    · intro hp
      obtain ⟨p', hp', rfl⟩ := List.mem_map.1 hp
      obtain ⟨h1, h2, h3, h4⟩ := mem_windowPoints hp'
      refine ⟨by simp, by simpa using h1, by simp only; omega, by simp only; omega, ?_⟩
      rw [h4, S.coord_velPos hf hd h1]
    · rintro ⟨h1, h2, h3, h4, h5⟩
      obtain ⟨s, x⟩ := p
      simp only at h1 h2 h3 h4 h5
      obtain ⟨s, rfl⟩ := Int.eq_ofNat_of_zero_le h1
      refine List.mem_map.2 ⟨(s, x), ?_, rfl⟩
      unfold windowPoints
      refine List.mem_map.2 ⟨s, List.mem_filter.2 ⟨List.mem_range.2 (by omega), by simp; omega⟩, ?_⟩
      rw [h5, S.coord_velPos hf hd (by omega)]

/-- C29 is false: the flag used for direction `d` is that of direction `d / 2`, so for y the one of x and for z the one of y. -/
theorem C29_false_flag {debug : Bool} {T : BCTable K} {B : ℕ → Boundary K} (hC : Constructed debug L G axes T B)
    (hist : List (Boundary.Op K)) {r : ℕ} (hr : r < L.mpiSize) :
    deltaPeriodic ((B r).run hist) 1 = .ok (L.periodic 0 0) ∧
    (L.dim = 3 → deltaPeriodic ((B r).run hist) 2 = .ok (L.periodic 0 1)) := by
  have h0 : 2 ≤ L.dim := by rcases hC.setup.layout.dim with h | h <;> omega
  exact ⟨deltaPeriodic_run hC hist hr (by omega), fun h => deltaPeriodic_run hC hist hr (by omega)⟩

theorem coord_low (S : Setup L G axes) {f d : ℕ} (hf : f < L.dim) (hd : d < L.dim) {s : ℤ} (hs : s ≤ -2) :
    meshCoord L axes f d s = .error .ub := by
  have h3 := S.dim_le
  have hub : ∀ A : FieldAxis K, A.shift ≤ 1 → A.coord s = .error .ub := by
    intro A hA
    unfold FieldAxis.coord ptrAt
    rw [if_neg (by omega)]
  unfold meshCoord
  by_cases h : d = f
  · subst h
    have : ∃ A, fieldAxis L.dim axes L.periodic d d = .ok A ∧ A.shift ≤ 1 := by
      unfold fieldAxis
      rw [if_pos (by omega), if_pos ⟨hd, hd⟩, if_pos rfl]
      cases hp : L.periodic d d with
      | false =>
        obtain ⟨A, hA, _, _, _, _, _, _, _, h⟩ := normalAxis_nonper (S.axesOK d hd)
        exact ⟨A, hA, h.le⟩
      | true =>
        obtain ⟨A, hA, _, _, _, _, _, _, _, _, h⟩ := normalAxis_per (S.axesOK d hd)
        exact ⟨A, hA, h.le⟩
    obtain ⟨A, hA, h⟩ := this
    rw [hA]
    exact hub A h
  · have : ∃ A, fieldAxis L.dim axes L.periodic f d = .ok A ∧ A.shift ≤ 1 := by
      unfold fieldAxis
      rw [if_pos (by omega), if_pos ⟨hf, hd⟩, if_neg h]
      obtain ⟨A, hA, _, _, _, _, _, _, h⟩ := tangentAxis_ok (S.axesOK d hd) (L.periodic f d)
      exact ⟨A, hA, h.le⟩
    obtain ⟨A, hA, h⟩ := this
    rw [hA]
    exact hub A h

/-- C29 is false: with the flag set, a point in one of the first `w - 1` cells of a direction makes the code read in front of
the array of coordinates, which has one ghost value on each side. -/
theorem C29_false_ub (S : Setup L G axes) {f d : ℕ} (hf : f < L.dim) (hd : d < L.dim) {I w : ℕ} (hI : I + 2 ≤ w) :
    eulerianNeighbors L axes f d I true w = .error .ub := by
  unfold eulerianNeighbors
  rw [List.range_succ_eq_map, List.mapM_cons]
  have : eulerianNeighbor L axes f d true ((I : ℤ) - w + (0 : ℕ)) = .error .ub := by
    unfold eulerianNeighbor
    rw [if_neg (by omega), if_pos rfl, coord_low S hf hd (by omega)]
    rfl
  rw [this]
  rfl

/-- C29 is false: the last point on the grid, seen from the first cell of a periodic direction, is put two periods away from
where it is instead of one. -/
theorem C29_false_distance (S : Setup L G axes) {f d : ℕ} (hf : f < L.dim) (hd : d < L.dim) (hper : L.periodic 0 d = true) :
    eulerianNeighbor L axes f d true (-1) =
      .ok [((L.n f d : ℤ) - 1, G.coord f d ((L.n f d : ℤ) - 1) - 2 * ((axes d).max - (axes d).min))] := by
  have h3 := S.dim_le
  have hp : L.periodic f d = true := (S.periodic f d hf (by omega)).trans hper
  have hn : 0 < L.n f d ∧ L.n f d = (axes d).dL.length := by
    have := S.n_cells hf hd
    have hne := List.length_pos_iff.2 (S.axesOK d hd).nonempty
    rw [hp] at this
    simp at this
    omega
  have hc : ∃ v, meshCoord L axes f d (-1) = .ok v ∧ v = velPos axes f d (L.n f d - 1) - ((axes d).max - (axes d).min) := by
    unfold meshCoord velPos
    by_cases h : d = f
    · subst h
      obtain ⟨A, hA, _, hc, _⟩ := normalAxis_per (S.axesOK d hd)
      have hA' : fieldAxis L.dim axes L.periodic d d = .ok A := by
        unfold fieldAxis
        rw [if_pos (by omega), if_pos ⟨hd, hd⟩, if_pos rfl, hp, hA]
      rw [hA']
      refine ⟨_, hc (-1) (by omega) (by omega), ?_⟩
      rw [if_pos rfl, hn.2, show (axes d).dL.length - 1 + 1 = (axes d).dL.length by omega, vert_max (S.axesOK d hd)]
      simp [vert_zero]
    · obtain ⟨A, hA, hAn, _, _, hc, _⟩ := tangentAxis_ok (S.axesOK d hd) true
      have hA' : fieldAxis L.dim axes L.periodic f d = .ok A := by
        unfold fieldAxis
        rw [if_pos (by omega), if_pos ⟨hf, hd⟩, if_neg h, hp, hA]
      rw [hA']
      refine ⟨_, (hc rfl).1, ?_⟩
      rw [if_neg h, hn.2, hAn]
  obtain ⟨v, hv, rfl⟩ := hc
  have hg := S.coord_velPos hf hd (s := L.n f d - 1) (by omega)
  rw [show ((L.n f d - 1 : ℕ) : ℤ) = (L.n f d : ℤ) - 1 by omega] at hg
  unfold eulerianNeighbor
  rw [if_neg (by omega), if_pos rfl, hv, hg]
  simp only [bind, Except.bind]
  rw [if_pos (by omega)]
  simp only [pure, Except.pure]
  congr 3
  ring

theorem mapM_congr_fun {α β : Type} {g h : α → Except Error β} (l : List α) (hg : ∀ a ∈ l, g a = h a) : l.mapM g = l.mapM h := by
  induction l with
  | nil => rfl
  | cons a l ih =>
    rw [List.mapM_cons, List.mapM_cons, hg a (List.mem_cons_self ..), ih fun b hb => hg b (List.mem_cons_of_mem _ hb)]

theorem createDelta_congr {debug : Bool} {B B' : ℕ → Boundary K} {P : BodyPack K} {meshIdx : ℕ → ℕ → List (List ℤ)}
    {kernel : DeltaKernel K} {w : ℕ} (h : ∀ r d, r < L.mpiSize → d < L.dim → deltaPeriodic (B r) d = deltaPeriodic (B' r) d) :
    createDelta debug L axes B P meshIdx kernel w = createDelta debug L axes B' P meshIdx kernel w := by
  unfold createDelta
  congr 1
  apply mapM_congr_fun
  intro r hr
  congr 1
  apply mapM_congr_fun
  intro d hd
  exact h r d (List.mem_range.1 hr) (List.mem_range.1 hd)

end Periodic

/-- Periodic in both directions, four by four cells, one process. -/
def torusAxes : ℕ → Axis ℚ := fun _ => ⟨0, 4, [1, 1, 1, 1]⟩

abbrev torusLayout : Layout := meshLayout 2 torusAxes (fun _ _ => true) fun _ => 1

theorem torus_constructed :
    ∃ B, Constructed true torusLayout (meshGeom 2 torusAxes fun _ _ => true) torusAxes (fun _ _ => (.PERIODIC, 0)) B := by
  apply C57_construction true (Or.inl rfl) (fun d _ => ?_) (fun _ _ _ _ => rfl)
  · intro d hd; interval_cases d <;> simp
  · intro f d hf hd
    rcases hf with hf | rfl
    · interval_cases d <;> interval_cases f <;> decide
    · interval_cases d <;> decide
  · intro f loc _ _; simp
  · intro f loc _ _; simp
  · exact ⟨by simp [torusAxes], by simp [torusAxes], by norm_num [torusAxes]⟩

/-- A hat function, which vanishes from a distance of one cell on. -/
def hatKernel : DeltaKernel ℚ := fun r h => .ok (if |r| < h then (1 - |r| / h) / h else 0)

/-- One body with one point in the lower part of the first column of cells. -/
def torusPack (x y : ℚ) : BodyPack ℚ := ⟨2, 1, [⟨2, 1, [[x, y]], [1]⟩]⟩

/-- C29 is false: near a periodic end the wrapped velocity points do not take part in the interpolation, a constant is not
interpolated to itself (cells have volume 1). In the interior it is. -/
theorem C29_false_interpolation : ∃ (B : ℕ → Boundary ℚ) (D D' : Mat ℚ),
    Constructed true torusLayout (meshGeom 2 torusAxes fun _ _ => true) torusAxes (fun _ _ => (.PERIODIC, 0)) B ∧
    createDelta true torusLayout torusAxes B (torusPack (1/4) 2) (fun _ _ => [[0, 2]]) hatKernel 1 = .ok D ∧
    (torusPack (1/4) 2).bodies.map (fun b => b.updateMeshIdx torusAxes 0) = [.ok [[0, 2]]] ∧
    Mat.mult torusLayout.UN D (fun _ => 1) 0 = 1 / 4 ∧
    createDelta true torusLayout torusAxes B (torusPack (9/4) 2) (fun _ _ => [[2, 2]]) hatKernel 1 = .ok D' ∧
    (torusPack (9/4) 2).bodies.map (fun b => b.updateMeshIdx torusAxes 0) = [.ok [[2, 2]]] ∧
    Mat.mult torusLayout.UN D' (fun _ => 1) 0 = 1 := by
  obtain ⟨B, hB⟩ := torus_constructed
  let B' : ℕ → Boundary ℚ := fun _ => [[⟨0, 0, .PERIODIC, 0, true, []⟩, ⟨0, 1, .PERIODIC, 0, true, []⟩]]
  have h : ∀ r d, r < torusLayout.mpiSize → d < torusLayout.dim → deltaPeriodic (B r) d = deltaPeriodic (B' r) d := by
    intro r d hr hd
    have := deltaPeriodic_run hB [] hr (d := d) (by omega)
    change deltaPeriodic (B r) d = _ at this
    rw [this]
    change d < 2 at hd
    interval_cases d <;> rfl
  have ok : ∀ p m, (createDelta true torusLayout torusAxes B' p m hatKernel 1).toOption.isSome = true →
      ∃ D, createDelta true torusLayout torusAxes B' p m hatKernel 1 = .ok D ∧
        ∀ v, (createDelta true torusLayout torusAxes B' p m hatKernel 1).toOption.map
          (fun D => Mat.mult torusLayout.UN D (fun _ => 1) 0) = some v → Mat.mult torusLayout.UN D (fun _ => 1) 0 = v := by
    intro p m h
    cases hc : createDelta true torusLayout torusAxes B' p m hatKernel 1 with
    | error => rw [hc] at h; cases h
    | ok D => exact ⟨D, rfl, fun v h => Option.some.inj h⟩
  obtain ⟨D, h1, h2⟩ := ok (torusPack (1/4) 2) (fun _ _ => [[0, 2]]) (by decide +kernel)
  obtain ⟨D', h1', h2'⟩ := ok (torusPack (9/4) 2) (fun _ _ => [[2, 2]]) (by decide +kernel)
  refine ⟨B, D, D', hB, by rw [createDelta_congr h]; exact h1, by decide +kernel, h2 _ (by decide +kernel),
    by rw [createDelta_congr h]; exact h1', by decide +kernel, h2' _ (by decide +kernel)⟩

/-- C64 is false at the level of the whole assembly. With the window of the kernel of Roma et al. a point in the first cell of
the torus makes it read in front of an array, whatever the kernel; on the walled mesh with two processes a body of a single
point makes the second process read an empty array. -/
theorem C64_false_witness (kernel : DeltaKernel ℚ) :
    (∃ B : ℕ → Boundary ℚ,
      Constructed true torusLayout (meshGeom 2 torusAxes fun _ _ => true) torusAxes (fun _ _ => (.PERIODIC, 0)) B ∧
      createDelta true torusLayout torusAxes B (torusPack (1/4) 2) (fun _ _ => [[0, 2]]) kernel 2 = .error .ub) ∧
    ∃ B : ℕ → Boundary ℚ, Constructed true (exampleWalls 2 1) exampleWallsGeom exampleAxes exampleWallsTable B ∧
      (⟨2, 1, [[2, 2]], [1, 0]⟩ : SingleBody ℚ).updateMeshIdx exampleAxes 0 = .ok [[1, 1]] ∧
      (⟨2, 1, [[2, 2]], [1, 0]⟩ : SingleBody ℚ).updateMeshIdx exampleAxes 1 = .ok [] ∧
      createDelta true (exampleWalls 2 1) exampleAxes B ⟨2, 2, [⟨2, 1, [[2, 2]], [1, 0]⟩]⟩
        (fun r _ => if r = 0 then [[1, 1]] else []) hatKernel 2 = .error .ub := by
  constructor
  · obtain ⟨B, hB⟩ := torus_constructed
    let B' : ℕ → Boundary ℚ := fun _ => [[⟨0, 0, .PERIODIC, 0, true, []⟩, ⟨0, 1, .PERIODIC, 0, true, []⟩]]
    have h : ∀ r d, r < torusLayout.mpiSize → d < torusLayout.dim → deltaPeriodic (B r) d = deltaPeriodic (B' r) d := by
      intro r d hr hd
      have := deltaPeriodic_run hB [] hr (d := d) (by omega)
      change deltaPeriodic (B r) d = _ at this
      rw [this]
      change d < 2 at hd
      interval_cases d <;> rfl
    refine ⟨B, hB, ?_⟩
    rw [createDelta_congr h]
    rfl
  · obtain ⟨B, hB⟩ := exampleWalls_constructed
    let B' : ℕ → Boundary ℚ := fun _ => [[⟨0, 0, .DIRICHLET, 0, true, []⟩, ⟨0, 1, .DIRICHLET, 0, true, []⟩]]
    have h : ∀ r d, r < (exampleWalls 2 1).mpiSize → d < (exampleWalls 2 1).dim →
        deltaPeriodic (B r) d = deltaPeriodic (B' r) d := by
      intro r d hr hd
      have := deltaPeriodic_run hB [] hr (d := d) (by omega)
      change deltaPeriodic (B r) d = _ at this
      rw [this]
      change d < 2 at hd
      interval_cases d <;> rfl
    refine ⟨B, hB, by decide +kernel, by decide +kernel, ?_⟩
    rw [createDelta_congr h]
    rfl

/-- The hypotheses of the negative statements hold on the torus and on the channel: the latter is periodic in x only, but
treated as periodic in y. -/
example : eulerianNeighbors torusLayout torusAxes 1 0 0 true 2 = .error .ub ∧
    eulerianNeighbor torusLayout torusAxes 1 0 true (-1) = .ok [(3, 7/2 - 8)] ∧
    ∃ B, deltaPeriodic (B 0) 1 = .ok true ∧ (exampleChannel 3).periodic 0 1 = false ∧
      Constructed true (exampleChannel 3) exampleChannelGeom exampleAxes exampleChannelTable B := by
  obtain ⟨B, hB⟩ := exampleChannel_constructed
  exact ⟨by decide +kernel, by decide +kernel, B, (C29_false_flag hB [] (by decide)).1, rfl, hB⟩

/-- The hypotheses of the positive statement hold on the walled mesh. -/
example : ∃ B per l, Constructed true (exampleWalls 2 1) exampleWallsGeom exampleAxes exampleWallsTable B ∧
    deltaPeriodic (B 1) 1 = .ok per ∧ eulerianNeighbors (exampleWalls 2 1) exampleAxes 0 1 0 per 2 = .ok l ∧ (0, 1/2) ∈ l := by
  obtain ⟨B, hB⟩ := exampleWalls_constructed
  obtain ⟨per, l, h1, h2, _, h3⟩ := C29_nonperiodic_partial hB [] (fun _ _ => rfl) (r := 1) (f := 0) (d := 1) (by decide) (by decide)
    (by decide) 0 2
  exact ⟨B, per, l, hB, h1, h2, (h3 _).2 ⟨by decide, by decide, by decide, by decide, by decide +kernel⟩⟩

end PetIBM
