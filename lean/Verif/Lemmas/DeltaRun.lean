/-
The delta operator of a simulation.
-/
import Verif.Lemmas.DeltaRow
import Verif.Lemmas.BoundaryRun
import Verif.Props.Kernel
import Verif.Spec.Run

set_option linter.unusedSectionVars false

namespace PetIBM

open Spec

section General

variable {K : Type} [Field K] [LinearOrder K] [IsStrictOrderedRing K]
variable {L : Layout} {G : Geom K} {axes : ℕ → Axis K}

/-- The flag that `createDelta` computes for direction `d` is that of direction `d / 2`. -/
theorem deltaPeriodic_run {debug : Bool} {T : BCTable K} {B : ℕ → Boundary K} (hC : Constructed debug L G axes T B)
    (hist : List (Boundary.Op K)) {r d : ℕ} (hr : r < L.mpiSize) (hd : d < L.dim * 2) :
    deltaPeriodic ((B r).run hist) d = .ok (L.periodic 0 (d / 2)) := by
  have hB := hC.init r hr
  unfold boundaryInit at hB
  obtain ⟨l, hl, hl'⟩ := (mapM_except_getElem? hB 0).1 0 (List.getElem?_range (by omega))
  obtain ⟨b, hb, hb'⟩ := (mapM_except_getElem? hl' d).1 d (List.getElem?_range hd)
  obtain ⟨_, _, h3, _⟩ := createSingleBoundary_static hb'
  have ht := hC.table 0 d (by omega) hd
  unfold deltaPeriodic
  rw [Boundary.run_eq, List.getElem?_map, hl]
  simp only [Option.map_some, List.getElem?_map, hb]
  congr 1
  show decide (b.type = .PERIODIC) = _
  rw [h3]
  cases hp : L.periodic 0 (d / 2) with
  | true => simpa using ht.2 hp
  | false =>
    simp only [decide_eq_false_iff_not]
    intro h
    rw [ht.1 h] at hp
    cases hp

theorem inCell_unique {a : Axis K} (ha : AxisOK a) {I J : ℕ} {x : K} (hI : InCell a I x) (hJ : InCell a J x) : I = J := by
  have key : ∀ I J, InCell a I x → InCell a J x → ¬ I < J := by
    intro I J hI hJ hlt
    have h1 : x < vert a (I + 1) := hI.2.2
    have h2 : vert a J ≤ x := hJ.2.1
    exact absurd (lt_of_lt_of_le h1 (vert_mono ha (show I + 1 ≤ J by omega) hJ.1.le)) (not_lt.2 h2)
  have := key I J hI hJ
  have := key J I hJ hI
  omega

theorem meshIndex_inv {a : Axis K} (ha : AxisOK a) {x : K} {m : ℤ} (h : SingleBody.meshIndex a x = .ok m) :
    ∃ I : ℕ, m = I ∧ InCell a I x ∧ a.min < x ∧ x < a.max := by
  by_cases hx : x ≤ a.min ∨ a.max ≤ x
  · rw [C33_outside a x hx] at h; cases h
  · rw [not_or, not_le, not_le] at hx
    obtain ⟨I, hI, h1, h2, h3⟩ := C33_cell a ha x hx.1 hx.2
    rw [h] at hI
    exact ⟨I, Except.ok.inj hI, ⟨h1, h2, h3⟩, hx.1, hx.2⟩

/-- What `updateMeshIdx` has stored for a point. -/
theorem meshIdx_point (hax : ∀ d, d < L.dim → AxisOK (axes d)) {b : SingleBody K} {r : ℕ} {idx : List (List ℤ)}
    (hb : b.dim = L.dim) (h : b.updateMeshIdx axes r = .ok idx) {k : ℕ} {row : List ℤ} (hk : idx[k]? = some row) (h0 : 0 < L.dim) :
    k < b.nLclPts r ∧ ∃ p : List K, b.coords[b.bgPt r + k]? = some p ∧ ∀ d, d < L.dim → ∃ (I : ℕ) (x : K), row[d]? = some (I : ℤ) ∧
      p[d]? = some x ∧ InCell (axes d) I x := by
  unfold SingleBody.updateMeshIdx at h
  obtain ⟨i, hi, hrow⟩ := (mapM_except_getElem? h k).2 row hk
  obtain ⟨hk', hi⟩ := List.getElem?_eq_some_iff.1 hi
  rw [List.length_range'] at hk'
  rw [List.getElem_range'] at hi
  have hi : i = b.bgPt r + k := by omega
  subst hi
  refine ⟨hk', ?_⟩
  have each : ∀ d, d < L.dim → ∃ (m : ℤ) (p : List K) (x : K), row[d]? = some m ∧ b.coords[b.bgPt r + k]? = some p ∧
      p[d]? = some x ∧ SingleBody.meshIndex (axes d) x = .ok m := by
    intro d hd
    obtain ⟨m, hm, hmm⟩ := (mapM_except_getElem? hrow d).1 d (List.getElem?_range (by omega))
    rcases hp : b.coords[b.bgPt r + k]? with _ | p
    · rw [hp] at hmm; cases hmm
    · rw [hp] at hmm
      simp only at hmm
      rcases hx : p[d]? with _ | x
      · rw [hx] at hmm; cases hmm
      · rw [hx] at hmm
        exact ⟨m, p, x, hm, rfl, hx, hmm⟩
  obtain ⟨_, p, _, _, hp, _⟩ := each 0 h0
  refine ⟨p, hp, fun d hd => ?_⟩
  obtain ⟨m, p', x, hm, hp', hx, hmm⟩ := each d hd
  rw [hp] at hp'
  cases hp'
  obtain ⟨I, rfl, hI, _⟩ := meshIndex_inv (hax d hd) hmm
  exact ⟨I, x, hm, hx, hI⟩

/-- A point that is far from the ends keeps its window inside of the grid. -/
theorem Spec.Setup.window_in_grid (S : Setup L G axes) {f d I w : ℕ} (hf : f < L.dim) (hd : d < L.dim) {h x : K} (hh : 0 < h)
    (hI : InCell (axes d) I x) (hu : ∀ j v, I ≤ j + w → j ≤ I + w → (axes d).dL[j]? = some v → v = h)
    (hr : AwayFromEnds (axes d) ((w + 2) * h) x) : w ≤ I ∧ I + w < L.n f d := by
  have ha := S.axesOK d hd
  obtain ⟨hI1, hI2, hI3⟩ := hI
  have hv1 : vert (axes d) (I + 1) = vert (axes d) I + h := by
    rw [vert_succ _ I hI1, hu I _ (by omega) (by omega) (List.getElem?_eq_getElem hI1)]
  change vert (axes d) I ≤ x at hI2
  change x < vert (axes d) (I + 1) at hI3
  constructor
  · by_contra hlt
    have e0 := vert_window hu (j := 0) (by omega) (by omega) (by omega) hI1
    rw [vert_zero] at e0
    have hr1 := hr.1
    have : (I : K) + 1 ≤ w := by exact_mod_cast (show I + 1 ≤ w by omega)
    have := mul_le_mul_of_nonneg_right this hh.le
    push_cast at e0
    nlinarith
  · by_contra hlt
    obtain ⟨hn, _⟩ := S.n_cells hf hd
    have hlen : (axes d).dL.length ≤ I + w + 1 := by split_ifs at hn <;> omega
    have e0 := vert_window hu (j := (axes d).dL.length) (by omega) hlen le_rfl hI1
    rw [vert_max ha] at e0
    have hr2 := hr.2
    have : ((axes d).dL.length : K) ≤ I + w + 1 := by exact_mod_cast hlen
    have := mul_le_mul_of_nonneg_right this hh.le
    nlinarith

/-- A point that is at least one width away from the upper end is not in the last cell. -/
theorem Spec.Setup.not_last_cell (S : Setup L G axes) {d I w : ℕ} (hd : d < L.dim) {h x : K} (hI : InCell (axes d) I x)
    (hu : ∀ j v, I ≤ j + w → j ≤ I + w → (axes d).dL[j]? = some v → v = h) {ρ : K} (hρ : h < ρ) (hr : AwayFromEnds (axes d) ρ x) :
    I + 1 < (axes d).dL.length := by
  by_contra hlt
  obtain ⟨hI1, hI2, hI3⟩ := hI
  have hl : I + 1 = (axes d).dL.length := by omega
  have e := vert_max (S.axesOK d hd)
  rw [← hl, vert_succ _ I hI1, hu I _ (by omega) (by omega) (List.getElem?_eq_getElem hI1)] at e
  change vert (axes d) I ≤ x at hI2
  have := hr.2
  linarith

/-- The widths read for a body on a uniform stretch. -/
theorem Spec.Setup.width_uniform (S : Setup L G axes) {d I w : ℕ} (hd : d < L.dim) {h : K} (hw : 1 ≤ w)
    (hu : ∀ j v, I ≤ j + w → j ≤ I + w → (axes d).dL[j]? = some v → v = h) (hI : I + 1 < (axes d).dL.length) :
    meshWidth L axes 0 d I = .ok h := by
  obtain ⟨v, v', h1, h2, h3⟩ := S.meshWidth_zero hd hI
  rw [h3, hu I v (by omega) (by omega) h1, hu (I + 1) v' (by omega) (by omega) h2]
  congr 1
  split_ifs
  · ring
  · rfl

/-- The width read for a cell is always there and positive. -/
theorem Spec.Setup.meshWidth_total (S : Setup L G axes) {d I : ℕ} (hd : d < L.dim) (hI : I < (axes d).dL.length) :
    ∃ v, meshWidth L axes 0 d I = .ok v ∧ 0 < v := by
  have h3 := S.dim_le
  have ha := S.axesOK d hd
  have h0 : 0 < L.dim := by omega
  by_cases hl : I + 1 < (axes d).dL.length
  · obtain ⟨v, v', h1, h2, h⟩ := S.meshWidth_zero hd hl
    have p1 := ha.pos v (List.mem_of_getElem? h1)
    have p2 := ha.pos v' (List.mem_of_getElem? h2)
    refine ⟨_, h, ?_⟩
    split_ifs
    · linarith
    · exact p1
  · unfold meshWidth
    by_cases h : d = 0
    · subst h
      cases hp : L.periodic 0 0 with
      | false =>
        obtain ⟨A, hA, hn, _, _, _, hw, _⟩ := normalAxis_nonper ha
        have hA' : fieldAxis L.dim axes L.periodic 0 0 = .ok A := by
          unfold fieldAxis
          rw [if_pos (by omega), if_pos ⟨hd, hd⟩, if_pos rfl, hp, hA]
        rw [hA']
        refine ⟨vert (axes 0) (axes 0).dL.length - vert (axes 0) A.n, ?_, ?_⟩
        · rw [show I = A.n by omega]; exact hw
        · rw [show (axes 0).dL.length = A.n + 1 by omega, vert_succ _ _ (by omega)]
          have := dL_pos ha A.n (by omega)
          linarith
      | true =>
        obtain ⟨A, hA, hn, _, _, _, hw, _⟩ := normalAxis_per ha
        have hA' : fieldAxis L.dim axes L.periodic 0 0 = .ok A := by
          unfold fieldAxis
          rw [if_pos (by omega), if_pos ⟨hd, hd⟩, if_pos rfl, hp, hA]
        rw [hA']
        refine ⟨_, hw I (Or.inr (by omega)), ?_⟩
        unfold centre
        have e1 := vert_max ha
        rw [show (axes 0).dL.length = (A.n - 1) + 1 by omega] at e1
        have e2 := vert_succ (axes 0) (A.n - 1) (by omega)
        have e3 := vert_succ (axes 0) 0 (by omega)
        rw [vert_zero] at e3 ⊢
        have := dL_pos ha 0 (by omega)
        have := dL_pos ha (A.n - 1) (by omega)
        rw [e1] at e2 ⊢
        rw [e3]
        linarith
    · obtain ⟨A, hA, hn, hc, _⟩ := tangentAxis_ok ha (L.periodic 0 d)
      have hA' : fieldAxis L.dim axes L.periodic 0 d = .ok A := by
        unfold fieldAxis
        rw [if_pos (by omega), if_pos ⟨h0, hd⟩, if_neg h, hA]
      rw [hA']
      refine ⟨_, (hc I (by omega)).2, ?_⟩
      rw [vert_succ _ I (by omega)]
      have := dL_pos ha I hI
      linarith

/-- The operator can be assembled without periodic directions, and for bodies away from the ends; every process must have a point of every
body. -/
theorem createDelta_total {debug : Bool} {T : BCTable K} {B : ℕ → Boundary K} (hC : Constructed debug L G axes T B)
    (hist : List (Boundary.Op K)) {P : BodyPack K} (hP : PackOK P)
    (hdim : P.dim = L.dim) (hsize : P.mpiSize = L.mpiSize) {meshIdx : ℕ → ℕ → List (List ℤ)}
    (hidx : ∀ (r b : ℕ) (body : SingleBody K), r < L.mpiSize → P.bodies[b]? = some body →
      body.updateMeshIdx axes r = .ok (meshIdx r b))
    (hown : ∀ (r : ℕ) (body : SingleBody K), r < L.mpiSize → body ∈ P.bodies → 0 < body.nLclPts r)
    {kernel : DeltaKernel K} (hk : ∀ r h : K, 0 < h → ∃ v, kernel r h = .ok v) {w : ℕ}
    (hroom : (∀ d, d < L.dim → L.periodic 0 d = false) ∨
      ∀ body ∈ P.bodies, ∀ i p, i < body.nPts → body.coords[i]? = some p → WindowInside L axes w p) :
    ∃ D, createDelta debug L axes (fun r => (B r).run hist) P meshIdx kernel w = .ok D := by
  have S := hC.setup
  have h0 : 0 < L.dim := by rcases S.layout.dim with h | h <;> omega
  have hbody : ∀ r b body, r < L.mpiSize → P.bodies[b]? = some body → ∃ E,
      deltaBody debug L axes ((List.range L.dim).map fun d => L.periodic 0 (d / 2)) P kernel w r b body (meshIdx r b) = .ok E ∧
      ∀ e ∈ E, e.row < (P.nPts * P.dim : ℕ) ∧ e.col < L.UN := by
    intro r b body hr hb
    have hbm := List.mem_of_getElem? hb
    have hbd : body.dim = L.dim := (hP.dim _ hbm).trans hdim
    have hmi := hidx r b body hr hb
    have hlen : (meshIdx r b).length = body.nLclPts r := by
      have := hmi
      unfold SingleBody.updateMeshIdx at this
      obtain ⟨v, hv, _⟩ := mapM_vals' this
      rw [hv]; simp
    have hI0 : ∃ I0, (meshIdx r b)[0]? = some I0 := ⟨_, List.getElem?_eq_getElem (by rw [hlen]; exact hown r body hr hbm)⟩
    obtain ⟨I0, hI0⟩ := hI0
    obtain ⟨_, p0, hp0, hcell0⟩ := meshIdx_point S.axesOK hbd hmi hI0 h0
    choose! J y hJ1 hy1 hJ2 using hcell0
    choose! width hwidth hwpos using fun (d : ℕ) (hd : d < L.dim) => S.meshWidth_total hd (hJ2 d hd).1
    choose! φ hφ using fun (d : ℕ) (hd : d < L.dim) (r : K) => hk r (width d) (hwpos d hd)
    -- one row
    have hrow : ∀ k f, k < body.nLclPts r → f < L.dim → ∃ IJK XYZ row E, (meshIdx r b)[k]? = some IJK ∧
        body.coords[body.bgPt r + k]? = some XYZ ∧ P.getPackedGlobalIndex b (body.bgPt r + k : ℕ) f = .ok row ∧
        deltaOne debug L axes ((List.range L.dim).map fun d => L.periodic 0 (d / 2)) P kernel w b (body.bgPt r + k)
          ((List.range L.dim).map width) IJK XYZ f = .ok E ∧ ∀ e ∈ E, e.row < (P.nPts * P.dim : ℕ) ∧ e.col < L.UN := by
      intro k f hk' hf
      obtain ⟨IJK, hIJK⟩ : ∃ IJK, (meshIdx r b)[k]? = some IJK := ⟨_, List.getElem?_eq_getElem (by omega)⟩
      obtain ⟨_, XYZ, hXYZ, hcell⟩ := meshIdx_point S.axesOK hbd hmi hIJK h0
      choose! I x hI1 hx1 hI2 using hcell
      have ho : OwnsPoint body r (body.bgPt r + k) := ownsPoint_iff.2 (by
        unfold SingleBody.nLclPts at hk'; unfold SingleBody.bgPt; omega)
      have hu : IsLagDof P ⟨r, b, body.bgPt r + k, f⟩ := ⟨by simpa [hdim] using hf, by simpa [hsize] using hr, body, hb, by
        show _ < body.nPts
        rw [← hP.points _ hbm]; exact lt_of_lt_of_le ho.2 (sum_take_le _ _), ho⟩
      obtain ⟨row, hr1, hr2, hr3⟩ := (C31_packed_index_bijective P hP).1 _ hu
      simp only at hr1
      have hnb : deltaNb L axes f w IJK ((List.range L.dim).map fun d => L.periodic 0 (d / 2)) =
          .ok ((List.range L.dim).map fun d => (windowPoints L axes f d (I d) w).map fun p => ((p.1 : ℤ), p.2)) := by
        apply mapM_ok
        intro d hd
        rw [List.mem_range] at hd
        have : ((List.range L.dim).map fun d => L.periodic 0 (d / 2))[d]? = some (L.periodic 0 (d / 2)) := by
          rw [List.getElem?_map, List.getElem?_range hd]; rfl
        simp only [hI1 d hd, this]
        refine S.eulerianNeighbors_eq hf hd (hroom.imp (fun h => h _ (by omega)) fun h => ?_)
        obtain ⟨z, J, hz, hJ, h⟩ := h body hbm _ XYZ (hP.points _ hbm ▸ lt_of_lt_of_le ho.2 (sum_take_le _ _)) hXYZ f d hf hd
        rw [hx1 d hd] at hz
        cases hz
        obtain rfl := inCell_unique (S.axesOK d hd) (hI2 d hd) hJ
        exact h
      refine ⟨IJK, XYZ, row, rowEntries L axes φ x I w f row, hIJK, hXYZ, hr1, ?_, ?_⟩
      · unfold deltaOne
        rw [hr1, hnb]
        exact deltaRow_eq S debug hf kernel φ x I w row width (fun d hd r => hφ d hd r) XYZ (fun d hd => hx1 d hd)
      · intro e he
        unfold rowEntries at he
        obtain ⟨k', hk', he⟩ := List.mem_flatMap.1 he
        obtain ⟨j, hj, he⟩ := List.mem_flatMap.1 he
        obtain ⟨i, hi, rfl⟩ := List.mem_map.1 he
        refine ⟨by rw [mul_comm P.nPts]; exact hr3, ?_⟩
        have := (col_inside S.layout (Or.inl hf) debug (window_inside S hf hi hj hk')).2.2
        unfold vecSize at this
        have h3 := S.dim_le
        rwa [if_neg (by omega)] at this
    choose! IJK XYZ row E h1 h2 h3 h4 h5 using hrow
    refine ⟨((List.range (body.nLclPts r)).map fun k => (List.range body.dim).map fun f => E k f).flatten.flatten, ?_, ?_⟩
    · unfold deltaBody
      rw [mapM_ok (h := width)]
      swap
      · intro d hd
        rw [List.mem_range] at hd
        simp only [hI0, hJ1 d hd]
        exact hwidth d hd
      simp only [bind, Except.bind]
      rw [mapM_ok (h := fun k => (List.range body.dim).map fun f => E k f)]
      · rfl
      · intro k hk'
        rw [List.mem_range] at hk'
        have e1 := fun f hf => h1 k f hk' hf
        have e2 := fun f hf => h2 k f hk' hf
        simp only [e1 0 h0, e2 0 h0]
        apply mapM_ok
        intro f hf
        rw [List.mem_range, hbd] at hf
        have e3 := h4 k f hk' hf
        have : IJK k f = IJK k 0 := Option.some.inj ((e1 f hf).symm.trans (e1 0 h0))
        have h6 : XYZ k f = XYZ k 0 := Option.some.inj ((e2 f hf).symm.trans (e2 0 h0))
        rw [this, h6] at e3
        exact e3
    · intro e he
      obtain ⟨l, hl, he⟩ := List.mem_flatten.1 he
      obtain ⟨l', hl', hl⟩ := List.mem_flatten.1 hl
      obtain ⟨k, hk', rfl⟩ := List.mem_map.1 hl'
      obtain ⟨f, hf, rfl⟩ := List.mem_map.1 hl
      rw [List.mem_range] at hk' hf
      exact h5 k f hk' (by omega) e he
  have hE : ∀ r b, ∃ E : List (Entry K), r < L.mpiSize → b < P.bodies.length → ∀ body, P.bodies[b]? = some body →
      deltaBody debug L axes ((List.range L.dim).map fun d => L.periodic 0 (d / 2)) P kernel w r b body (meshIdx r b) = .ok E ∧
      ∀ e ∈ E, e.row < (P.nPts * P.dim : ℕ) ∧ e.col < L.UN := by
    intro r b
    by_cases hr : r < L.mpiSize
    · by_cases hb : b < P.bodies.length
      · obtain ⟨E, h⟩ := hbody r b _ hr (List.getElem?_eq_getElem hb)
        refine ⟨E, fun _ _ body hb' => ?_⟩
        rw [List.getElem?_eq_getElem hb] at hb'
        rw [← Option.some.inj hb']
        exact h
      · exact ⟨[], fun _ h => absurd h hb⟩
    · exact ⟨[], fun h => absurd h hr⟩
  choose E hE using hE
  unfold createDelta
  rw [mapM_ok (h := fun r => ((List.range P.bodies.length).map fun b => E r b).flatten)]
  · simp only [bind, Except.bind]
    rw [assemble_ok]
    · exact ⟨_, rfl⟩
    · intro e he
      rw [List.append_nil] at he
      obtain ⟨l, hl, he⟩ := List.mem_flatten.1 he
      obtain ⟨r, hr, rfl⟩ := List.mem_map.1 hl
      obtain ⟨l', hl', he⟩ := List.mem_flatten.1 he
      obtain ⟨b, hb, rfl⟩ := List.mem_map.1 hl'
      rw [List.mem_range] at hr hb
      exact (hE r b hr hb _ (List.getElem?_eq_getElem hb)).2 e he
  · intro r hr
    rw [List.mem_range] at hr
    rw [mapM_ok (h := fun d => L.periodic 0 (d / 2))]
    · simp only [bind, Except.bind]
      rw [mapM_ok (h := fun b => E r b)]
      · rfl
      · intro b hb
        rw [List.mem_range] at hb
        rw [List.getElem?_eq_getElem hb]
        exact (hE r b hr hb _ (List.getElem?_eq_getElem hb)).1
    · intro d hd
      rw [List.mem_range] at hd
      exact deltaPeriodic_run hC hist hr (by omega)

end General

/-- The kernels offered to the user with their support. -/
theorem kernel_support {name : String} {s : ℝ} (hs : Support name s) {kernel : DeltaKernel ℝ} {size : ℤ}
    (hk : getKernel name = .ok (kernel, size)) : 1 < s ∧ s ≤ size.toNat ∧ 2 ≤ size.toNat ∧ (size.toNat : ℤ) = size ∧
      ∀ h : ℝ, 0 < h → ∃ (φ : ℝ → ℝ) (q : ℝ), (∀ r, kernel r h = .ok (φ r)) ∧ DiscreteDelta φ h s q := by
  cases hs with
  | roma =>
    simp only [getKernel, if_true, Except.ok.injEq, Prod.mk.injEq] at hk
    obtain ⟨rfl, rfl⟩ := hk
    refine ⟨by norm_num, ?_, by norm_num, by norm_num, fun h hh => ?_⟩
    · show (3 / 2 : ℝ) ≤ ((2 : ℕ) : ℝ); norm_num
    obtain ⟨φ, h1, h2⟩ := C27_roma h hh
    exact ⟨φ, _, h1, h2⟩
  | peskin =>
    unfold getKernel at hk
    rw [if_neg (by decide), if_pos rfl] at hk
    simp only [Except.ok.injEq, Prod.mk.injEq] at hk
    obtain ⟨rfl, rfl⟩ := hk
    refine ⟨by norm_num, ?_, by norm_num, by norm_num, fun h hh => ?_⟩
    · show (2 : ℝ) ≤ ((3 : ℕ) : ℝ); norm_num
    obtain ⟨φ, h1, h2⟩ := C27_peskin h hh
    exact ⟨φ, _, h1, h2⟩

/-- The row of a body point on a uniform stretch of the grid: its entries, and the weights along the axes. -/
theorem createDelta_uniform {debug : Bool} {L : Layout} {G : Geom ℝ} {axes : ℕ → Axis ℝ} {T : BCTable ℝ} {B : ℕ → Boundary ℝ}
    (hC : Constructed debug L G axes T B) (hist : List (Boundary.Op ℝ)) {P : BodyPack ℝ} (hP : PackOK P) (hdim : P.dim = L.dim)
    (hsize : P.mpiSize = L.mpiSize) {meshIdx : ℕ → ℕ → List (List ℤ)}
    (hidx : ∀ (r b : ℕ) (body : SingleBody ℝ), r < L.mpiSize → P.bodies[b]? = some body → body.updateMeshIdx axes r = .ok (meshIdx r b))
    {name : String} {s : ℝ} (hs : Support name s) {kernel : DeltaKernel ℝ} {size : ℤ} (hk : getKernel name = .ok (kernel, size))
    {D : Mat ℝ} (hD : createDelta debug L axes (fun r => (B r).run hist) P meshIdx kernel size.toNat = .ok D) {b : ℕ}
    {body : SingleBody ℝ} (hb : P.bodies[b]? = some body) {h : ℕ → ℝ} (hh : ∀ d, d < L.dim → 0 < h d)
    (hreg : ∀ i p d x, i < body.nPts → body.coords[i]? = some p → d < L.dim → p[d]? = some x →
      LocallyUniform (axes d) (h d) size.toNat x ∧
      ((∀ e, e < L.dim → L.periodic 0 e = false) ∧ AwayFromEnds (axes d) (s * h d) x ∨
        AwayFromEnds (axes d) ((size.toNat + 2) * h d) x))
    {i : ℕ} (hi : i < body.nPts) {X : List ℝ} (hX : body.coords[i]? = some X) {f : ℕ} (hf : f < L.dim) {row : ℤ}
    (hrow : P.getPackedGlobalIndex b i f = .ok row) :
    ∃ (φ : ℕ → ℝ → ℝ) (qs : ℕ → ℝ) (x : ℕ → ℝ) (I : ℕ → ℕ),
      (∀ d, d < L.dim → DiscreteDelta (φ d) (h d) s (qs d)) ∧ (∀ d, d < L.dim → X[d]? = some (x d) ∧ InCell (axes d) (I d) (x d) ∧
        AwayFromEnds (axes d) (s * h d) (x d) ∧
        ∀ j v, I d ≤ j + size.toNat → j ≤ I d + size.toNat → (axes d).dL[j]? = some v → v = h d) ∧
      ∀ q : ℤ → ℝ, Mat.mult L.UN D q row =
        ((rowEntries L axes φ x I size.toNat f row).map fun e => e.val * q e.col).sum := by
  have S := hC.setup
  have h0 : 0 < L.dim := by rcases S.layout.dim with h | h <;> omega
  obtain ⟨hs1, hs2, hs3, hs4, hker⟩ := kernel_support hs hk
  have hbm := List.mem_of_getElem? hb
  have hbd : body.dim = L.dim := (hP.dim _ hbm).trans hdim
  obtain ⟨r, ⟨hr, ho, _⟩, _⟩ := C31_owner P hP b i body hb hi
  have hu : IsLagDof P ⟨r, b, i, f⟩ := ⟨by simpa [hdim] using hf, hr, body, hb, hi, ho⟩
  have hr' : r < L.mpiSize := by omega
  obtain ⟨per, body', I0, IJK, widths, XYZ, row', E, hper, hb', hI0, hwid, hIJK, hXYZ, hrow', hrow0, hrow1, hone, hErow, hEcol,
    hmult⟩ := createDelta_row hP hdim hsize hD hu
  rw [hb] at hb'
  cases hb'
  rw [hX] at hXYZ
  cases hXYZ
  rw [hrow] at hrow'
  cases hrow'
  have hmi := hidx r b body hr' hb
  -- the cell of the point
  obtain ⟨hlcl, p, hp, hcell⟩ := meshIdx_point S.axesOK hbd hmi hIJK h0
  have hglb : body.bgPt r + (i - body.bgPt r) = i := by
    have := (ownsPoint_iff.1 ho).1
    unfold SingleBody.bgPt; omega
  rw [hglb, hX] at hp
  cases hp
  choose! I x hI1 hx1 hI2 using hcell
  -- the cell of the first point of the process
  obtain ⟨hlcl0, p0, hp0, hcell0⟩ := meshIdx_point S.axesOK hbd hmi hI0 h0
  choose! J y hJ1 hy1 hJ2 using hcell0
  have hi0 : body.bgPt r + 0 < body.nPts := by
    rw [← hP.points _ hbm]
    exact lt_of_lt_of_le (ownsPoint_iff.2 ⟨by unfold SingleBody.bgPt; omega, by
      unfold SingleBody.bgPt; unfold SingleBody.nLclPts at hlcl0; omega⟩ : OwnsPoint body r (body.bgPt r + 0)).2 (sum_take_le _ _)
  have uni : ∀ i' p' d z I', i' < body.nPts → body.coords[i']? = some p' → d < L.dim → p'[d]? = some z → InCell (axes d) I' z →
      (∀ j v, I' ≤ j + size.toNat → j ≤ I' + size.toNat → (axes d).dL[j]? = some v → v = h d) ∧
      AwayFromEnds (axes d) (s * h d) z := by
    intro i' p' d z I' hi' hp' hd hz hc
    obtain ⟨⟨I'', hc', hu'⟩, haw⟩ := hreg i' p' d z hi' hp' hd hz
    have := inCell_unique (S.axesOK d hd) hc hc'
    subst this
    refine ⟨hu', ?_⟩
    rcases haw with haw | haw
    · exact haw.2
    · have := hh d hd
      have : s * h d ≤ (size.toNat + 2) * h d := mul_le_mul_of_nonneg_right (by linarith) this.le
      exact ⟨by linarith [haw.1], by linarith [haw.2]⟩
  have hux : ∀ d, d < L.dim → (∀ j v, I d ≤ j + size.toNat → j ≤ I d + size.toNat → (axes d).dL[j]? = some v → v = h d) ∧
      AwayFromEnds (axes d) (s * h d) (x d) := fun d hd => uni i X d (x d) (I d) hi hX hd (hx1 d hd) (hI2 d hd)
  -- the widths
  have hw : widths = (List.range L.dim).map h := by
    have e : deltaWidths L axes I0 = .ok ((List.range L.dim).map h) := by
      apply mapM_ok
      intro d hd
      rw [List.mem_range] at hd
      simp only [hJ1 d hd]
      obtain ⟨hu', haw⟩ := uni _ _ d (y d) (J d) hi0 hp0 hd (hy1 d hd) (hJ2 d hd)
      have hhd := hh d hd
      have : h d < s * h d := by nlinarith
      exact S.width_uniform hd (by omega) hu' (S.not_last_cell hd (hJ2 d hd) hu' this haw)
    rw [e] at hwid
    exact (Except.ok.inj hwid).symm
  subst hw
  -- the flags
  have hflag : ∀ d, d < L.dim → per[d]? = some (L.periodic 0 (d / 2)) := by
    intro d hd
    obtain ⟨y, hy, hy'⟩ := (mapM_except_getElem? hper d).1 d (List.getElem?_range hd)
    rw [deltaPeriodic_run hC hist hr' (by omega)] at hy'
    rw [hy, Except.ok.inj hy']
  choose! φ qs hφ hdd using fun (d : ℕ) (hd : d < L.dim) => hker (h d) (hh d hd)
  -- the neighbours
  have hnb : deltaNb L axes f size.toNat IJK per =
      .ok ((List.range L.dim).map fun d => (windowPoints L axes f d (I d) size.toNat).map fun p => ((p.1 : ℤ), p.2)) := by
    apply mapM_ok
    intro d hd
    rw [List.mem_range] at hd
    simp only [hI1 d hd, hflag d hd]
    apply S.eulerianNeighbors_eq hf hd
    obtain ⟨⟨I'', hc', hu'⟩, haw⟩ := hreg i X d (x d) hi hX hd (hx1 d hd)
    rcases haw with haw | haw
    · left; exact haw.1 _ (by omega)
    · right; exact S.window_in_grid hf hd (hh d hd) (hI2 d hd) (hux d hd).1 haw
  have hE : E = rowEntries L axes φ x I size.toNat f row := by
    have e : deltaOne debug L axes per P kernel size.toNat b i ((List.range L.dim).map h) IJK X f =
        .ok (rowEntries L axes φ x I size.toNat f row) := by
      unfold deltaOne
      rw [hrow, hnb]
      exact deltaRow_eq S debug hf kernel φ x I size.toNat row h (fun d hd r => hφ d hd r) X (fun d hd => hx1 d hd)
    rw [e] at hone
    exact (Except.ok.inj hone).symm
  subst hE
  refine ⟨φ, qs, x, I, hdd, fun d hd => ⟨hx1 d hd, hI2 d hd, (hux d hd).2, (hux d hd).1⟩, fun q => ?_⟩
  have hcol0 : (rowEntries L axes φ x I size.toNat f row).filter (fun e => decide (0 ≤ e.col)) =
      rowEntries L axes φ x I size.toNat f row := by
    rw [List.filter_eq_self]
    intro e he
    unfold rowEntries at he
    obtain ⟨k, hk, he⟩ := List.mem_flatMap.1 he
    obtain ⟨j, hj, he⟩ := List.mem_flatMap.1 he
    obtain ⟨i, hi, rfl⟩ := List.mem_map.1 he
    simpa using (col_inside S.layout (Or.inl hf) debug (window_inside S hf hi hj hk)).2.1
  rw [hmult q (by rw [hcol0]; exact nodup_rowEntries S hf φ x I size.toNat row), hcol0]

end PetIBM
