/-
A discrete maximum principle for velocities that satisfy an implicit equation.
-/
import Verif.Spec.Extrema
import Verif.Lemmas.NavierStokesRun
import Verif.Props.Boundary

set_option linter.unusedSectionVars false

namespace PetIBM

open Spec

variable {K : Type} [Field K] [LinearOrder K] [IsStrictOrderedRing K]
variable {L : Layout} {G : Geom K} {axes : ℕ → Axis K} {debug : Bool} {T : BCTable K} {B : ℕ → Boundary K}

/-- The largest value of a field. -/
theorem exists_largest (f : ℕ) (v : Stencil → K) {s : Stencil} (hs : Inside L.toMeshInfo f s) :
    ∃ t, Inside L.toMeshInfo f t ∧ ∀ r, Inside L.toMeshInfo f r → v r ≤ v t := by
  obtain ⟨i, j, k, rfl, hi, hj, hk⟩ := hs.nat
  obtain ⟨⟨a, b, c⟩, hm, hx⟩ := Finset.exists_max_image (Finset.range (L.n f 0) ×ˢ Finset.range (L.n f 1) ×ˢ Finset.range (L.n f 2))
    (fun q : ℕ × ℕ × ℕ => v ⟨q.2.2, q.2.1, q.1, 0⟩)
    ⟨(i, j, k), by simp only [Finset.mem_product, Finset.mem_range]; exact ⟨hi, hj, hk⟩⟩
  simp only [Finset.mem_product, Finset.mem_range] at hm
  refine ⟨⟨c, b, a, 0⟩, ⟨fun d hd => ?_, rfl⟩, fun r hr => ?_⟩
  · interval_cases d <;> simp only [coordOf] <;> norm_num <;> omega
  · obtain ⟨i', j', k', rfl, hi', hj', hk'⟩ := hr.nat
    exact hx (i', j', k') (by simp only [Finset.mem_product, Finset.mem_range]; exact ⟨hi', hj', hk'⟩)

/-- A field whose values at the points exceed their explicit parts only by their own second differences, and which rises nowhere towards the
sides where it is above `c`, is at most `c` if the explicit parts are. -/
theorem largest_value (S : Setup L G axes) {f : ℕ} (hf : f < L.dim) {q : ℤ → K} {v e : Stencil → K} (hv : Stored debug L f q v) {dt a c : K}
    (hdt : 0 < dt) (ha : 0 ≤ a) (heq : ∀ s, Inside L.toMeshInfo f s → (v s - e s) / dt = a * laplace L.dim G f s v)
    (he : ∀ s, Inside L.toMeshInfo f s → e s ≤ c)
    (hw : ∀ s loc, loc < L.dim * 2 → Inside L.toMeshInfo f s → L.periodic 0 (loc / 2) = false → AtSide L.toMeshInfo f loc s →
      c < v s → v (nbr loc s) ≤ v s) {s : Stencil} (hs : Inside L.toMeshInfo f s) : v s ≤ c := by
  obtain ⟨t, ht, hmax⟩ := exists_largest f v hs
  refine (hmax s hs).trans ?_
  by_contra hc
  have hc := lt_of_not_ge hc
  have h3 := S.dim_le
  have hlap : laplace L.dim G f t v ≤ 0 := by
    unfold laplace
    rw [secondDifference_sides]
    apply Finset.sum_nonpos
    intro loc hloc
    have hloc := Finset.mem_range.1 hloc
    apply mul_nonpos_of_nonneg_of_nonpos (lapW_pos S hf ht hloc).le
    rw [sub_nonpos]
    have hb := ht.1 (loc / 2) (by omega)
    by_cases hside : AtSide L.toMeshInfo f loc t
    · by_cases hper : L.periodic 0 (loc / 2) = false
      · exact hw t loc hloc ht hper hside hc
      · have hper : L.periodic 0 (loc / 2) = true := by simpa using hper
        unfold nbr
        unfold AtSide at hside
        rw [hside, hv.periodic t (loc / 2) _ (by omega) ht hper (by split_ifs <;> omega)]
        apply hmax
        refine ⟨fun d hd => ?_, ?_⟩
        · rw [coordOf_along _ _ _ _ (by omega) hd]
          split_ifs with h
          all_goals first | exact ht.1 d hd | skip
          all_goals subst h; exact ⟨Int.emod_nonneg _ (by omega), Int.emod_lt_of_pos _ (by omega)⟩
        · rw [along_c]; exact ht.2
    · apply hmax
      refine ⟨fun d hd => ?_, ?_⟩
      · unfold nbr
        rw [coordOf_along _ _ _ _ (by omega) hd]
        by_cases h : d = loc / 2
        · rw [if_pos h]
          unfold AtSide at hside
          subst h
          split_ifs at hside ⊢ <;> omega
        · rw [if_neg h]; exact ht.1 d hd
      · unfold nbr; rw [along_c]; exact ht.2
  have := heq t ht
  have h1 : v t - e t ≤ 0 := by
    rw [div_eq_iff hdt.ne'] at this
    rw [this]
    exact mul_nonpos_of_nonpos_of_nonneg (mul_nonpos_of_nonneg_of_nonpos ha hlap) hdt.le
  have := he t ht
  linarith

/-- What the ghost equations say at a side after the update for the step. -/
theorem side_value (C : Constructed debug L G axes T B) {h : List (Boundary.Op K)} (hi : Initialised h) {q u : ℤ → K} {dt : K}
    {V W : ℕ → Stencil → K} (hV : Filled debug L (fun r => (B r).run h) u V)
    (hW : Extended debug L (fun r => (B r).run (h ++ [.updateEqs u dt])) q W) {f : ℕ} (hf : f < L.dim) {s : Stencil}
    (hs : Inside L.toMeshInfo f s) {loc : ℕ} (hloc : loc < L.dim * 2) (hper : L.periodic 0 (loc / 2) = false)
    (hside : AtSide L.toMeshInfo f loc s) :
    OnFace L.toMeshInfo f loc (nbr loc s) ∧ AcrossFace L.toMeshInfo f loc (nbr loc s) s ∧
    ((T f loc).1 = .DIRICHLET → boundaryValue loc f (W f (nbr loc s)) (W f s) = (T f loc).2) ∧
    ((T f loc).1 = .NEUMANN → W f (nbr loc s) - W f s = (T f loc).2 * signedDistance G f loc (nbr loc s) s) ∧
    ((T f loc).1 = .CONVECTIVE → boundaryValue loc f (W f (nbr loc s)) (W f s) =
      boundaryValue loc f (V f (nbr loc s)) (V f s) - dt * (T f loc).2 * ((V f (nbr loc s) - V f s) / signedDistance G f loc (nbr loc s) s)) ∧
    ((T f loc).1 = .DIRICHLET ∨ (T f loc).1 = .NEUMANN ∨ (T f loc).1 = .CONVECTIVE) := by
  have hL := C.setup.layout
  have h3 := C.setup.dim_le
  have h2 : (2 : K) ≠ 0 := two_ne_zero
  obtain ⟨x, _, hx, rfl, rfl⟩ := exists_unknown hL hf hs
  have hr := hx.2.2.2.2.1
  obtain ⟨b, p, hp⟩ := (C.ghosts h).covered x.comp loc x hx rfl hloc hper hside
  obtain ⟨b0, p0, hp0, rfl, rfl⟩ := point_run hp
  obtain ⟨_, _, t1, t2, t3, t4, good⟩ := point_boundaryInit hL (C.init x.rank hr) C.pos hp0
  obtain ⟨v, hv, _, hvc, hvt, hvs, e, _, _⟩ := point_unknown hL (C.ghosts []) hr (B := fun r => (B r).run []) (by simpa [Boundary.run] using hp0)
  have hvi := hv.inside
  rw [hvc] at hvi
  obtain ⟨_, e⟩ := nbr_inj (by omega) (by omega) hx.inside hvi hside e
  have ht : p0.targetStencil = x.st := by rw [← hvt, ← e]
  set H := h ++ [.updateEqs u dt, .updateGhostValues q] with hH
  have hpH : Point ((B x.rank).run H) x.comp loc (nbr loc x.st) _ _ := run_point hp0
  have hpE : Point ((B x.rank).run (h ++ [.updateEqs u dt])) x.comp loc (nbr loc x.st) _ _ := run_point hp0
  have eW := hW.ghost x.rank x.comp loc _ _ _ hr hpE
  have eV := hV.ghost x.rank x.comp loc _ _ _ hr hp
  have hidx := good.packed
  have qW := (hW.stored x.comp hf).inside _ _ (by rw [ht]; exact hs) hidx
  have uV := hV.inside x.comp _ _ hf (by rw [ht]; exact hs) hidx
  rw [ht] at qW uV
  have hval : (b0.pointRun H p0).value = W x.comp (nbr loc x.st) := by
    rw [eW, (SingleBoundary.pointRun_static b0 _ p0).2.2.1, ht, qW]
    rw [hH, show h ++ [Boundary.Op.updateEqs u dt, .updateGhostValues q] = (h ++ [.updateEqs u dt]) ++ [.updateGhostValues q] by simp]
    simp only [SingleBoundary.pointRun, List.foldl_append, List.foldl_cons, List.foldl_nil, SingleBoundary.pointStep]
    have e := SingleBoundary.pointRun_static b0 (h ++ [.updateEqs u dt]) p0
    simp only [SingleBoundary.pointRun, List.foldl_append, List.foldl_cons, List.foldl_nil, SingleBoundary.pointStep] at e
    rw [e.1]
  have key : ∀ t i, AcrossFace L.toMeshInfo x.comp loc (nbr loc x.st) t → L.getPackedGlobalIndex debug x.comp t = .ok i →
      t = x.st ∧ q i = W x.comp x.st ∧ u i = V x.comp x.st := by
    intro t i hc hi
    have e : t = x.st := by
      have ha := good.across
      rw [ht] at ha
      apply stencil_ext (fun d hd => ?_) (by rw [hc.2.2, ha.2.2])
      by_cases hdl : d = loc / 2
      · rw [hdl, hc.1, ha.1]
      · rw [hc.2.1 d hd hdl, ha.2.1 d hd hdl]
    rw [e, ← ht, hidx] at hi
    have := Except.ok.inj hi
    subst this
    exact ⟨e, qW.symm, uV.symm⟩
  have hiH : Initialised H := hi.append _
  have hjH : JustRefreshed H q := ⟨h ++ [.updateEqs u dt], Or.inr (by simp [hH])⟩
  refine ⟨good.face, by have := good.across; rwa [ht] at this, ?_, ?_, ?_, ?_⟩
  · intro hT
    obtain ⟨t, i, hc, hi', he⟩ := C14_dirichlet debug L hL G h2 x.rank T (B x.rank) (C.init _ hr) C.pos H hiH q hjH x.comp loc hT _ _ _ hpH
    obtain ⟨_, e2, _⟩ := key t i hc hi'
    rwa [hval, e2] at he
  · intro hT
    obtain ⟨t, i, hc, hi', he⟩ := C15_neumann debug L hL G x.rank T (B x.rank) (C.init _ hr) C.pos H hiH q hjH x.comp loc hT _ _ _ hpH
    obtain ⟨e1, e2, _⟩ := key t i hc hi'
    rwa [hval, e1, e2] at he
  · intro hT
    obtain ⟨b', p', hp', t, i, hc, hi', he⟩ := C16_convective debug L hL G h2 x.rank T (B x.rank) (C.init _ hr) C.pos h u q dt x.comp loc hT _ _ _ hp
    obtain ⟨e1, e2, e3⟩ := key t i hc hi'
    have : p' = b0.pointRun H p0 := by
      obtain ⟨l, a1, a2, a3⟩ := hp'
      obtain ⟨l', c1, c2, c3⟩ := hpH
      rw [← hH, c1] at a1
      cases a1
      rw [c2] at a2
      cases a2
      rw [c3] at a3
      exact (Option.some.inj a3).symm
    rwa [this, hval, e1, e2, e3, ← eV] at he
  · obtain ⟨l, hl, hb, hsx⟩ := hp0
    have hB := C.init x.rank hr
    unfold boundaryInit at hB
    obtain ⟨f', hf', hl'⟩ := (mapM_except_getElem? hB x.comp).2 l hl
    obtain ⟨_, rfl⟩ := getElem?_range_some hf'
    obtain ⟨loc', hloc', hb'⟩ := (mapM_except_getElem? hl' loc).2 b0 hb
    obtain ⟨_, rfl⟩ := getElem?_range_some hloc'
    have n1 := (createSingleBoundary_static hb').2.2.2.2
    have n2 : (T x.comp loc).1 ≠ .PERIODIC := by
      intro hT
      rw [C.table x.comp loc hf hloc, hper] at hT
      cases hT
    generalize (T x.comp loc).1 = ty at n1 n2 ⊢
    cases ty <;> simp at n1 n2 ⊢

/-- What the ghost values say at a side after a refresh. -/
theorem side_filled (C : Constructed debug L G axes T B) {h : List (Boundary.Op K)} (hi : Initialised h) {u : ℤ → K} (hj : JustRefreshed h u)
    {V : ℕ → Stencil → K} (hV : Filled debug L (fun r => (B r).run h) u V) {f : ℕ} (hf : f < L.dim) {s : Stencil}
    (hs : Inside L.toMeshInfo f s) {loc : ℕ} (hloc : loc < L.dim * 2) (hper : L.periodic 0 (loc / 2) = false)
    (hside : AtSide L.toMeshInfo f loc s) :
    ((T f loc).1 = .DIRICHLET → boundaryValue loc f (V f (nbr loc s)) (V f s) = (T f loc).2) ∧
    ((T f loc).1 = .NEUMANN → V f (nbr loc s) - V f s = (T f loc).2 * signedDistance G f loc (nbr loc s) s) := by
  have hL := C.setup.layout
  have h3 := C.setup.dim_le
  obtain ⟨x, _, hx, rfl, rfl⟩ := exists_unknown hL hf hs
  have hr := hx.2.2.2.2.1
  obtain ⟨b, p, hp⟩ := (C.ghosts h).covered x.comp loc x hx rfl hloc hper hside
  have eV := hV.ghost x.rank x.comp loc _ _ _ hr hp
  obtain ⟨_, ha⟩ := nbr_face (by omega) hs hside
  have key : ∀ t i, AcrossFace L.toMeshInfo x.comp loc (nbr loc x.st) t → L.getPackedGlobalIndex debug x.comp t = .ok i →
      t = x.st ∧ u i = V x.comp x.st := by
    intro t i hc hi
    have e : t = x.st := by
      apply stencil_ext (fun d hd => ?_) (by rw [hc.2.2, ha.2.2])
      by_cases hdl : d = loc / 2
      · rw [hdl, hc.1, ha.1]
      · rw [hc.2.1 d hd hdl, ha.2.1 d hd hdl]
    rw [e] at hi
    exact ⟨e, (hV.inside x.comp _ _ hf hs hi).symm⟩
  constructor
  · intro hT
    obtain ⟨t, i, hc, hi', he⟩ := C14_dirichlet debug L hL G two_ne_zero x.rank T (B x.rank) (C.init _ hr) C.pos h hi u hj x.comp loc hT _ _ _ hp
    obtain ⟨_, e2⟩ := key t i hc hi'
    rwa [← eV, e2] at he
  · intro hT
    obtain ⟨t, i, hc, hi', he⟩ := C15_neumann debug L hL G x.rank T (B x.rank) (C.init _ hr) C.pos h hi u hj x.comp loc hT _ _ _ hp
    obtain ⟨e1, e2⟩ := key t i hc hi'
    rwa [← eV, e1, e2] at he

/-- The type of a side that is not periodic. -/
theorem side_type (C : Constructed debug L G axes T B) {f loc : ℕ} (hf : f < L.dim) (hloc : loc < L.dim * 2)
    (hper : L.periodic 0 (loc / 2) = false) {s : Stencil} (hs : Inside L.toMeshInfo f s) (hside : AtSide L.toMeshInfo f loc s) :
    (T f loc).1 = .DIRICHLET ∨ (T f loc).1 = .NEUMANN ∨ (T f loc).1 = .CONVECTIVE := by
  obtain ⟨x, _, hx, rfl, rfl⟩ := exists_unknown C.setup.layout hf hs
  have hr := hx.2.2.2.2.1
  obtain ⟨b, p, hp⟩ := (C.ghosts []).covered x.comp loc x hx rfl hloc hper hside
  obtain ⟨b0, p0, ⟨l, hl, hb, hsx⟩, -⟩ := point_run hp
  have hB := C.init x.rank hr
  unfold boundaryInit at hB
  obtain ⟨f', hf', hl'⟩ := (mapM_except_getElem? hB x.comp).2 l hl
  obtain ⟨_, rfl⟩ := getElem?_range_some hf'
  obtain ⟨loc', hloc', hb'⟩ := (mapM_except_getElem? hl' loc).2 b0 hb
  obtain ⟨_, rfl⟩ := getElem?_range_some hloc'
  have n1 := (createSingleBoundary_static hb').2.2.2.2
  have n2 : (T x.comp loc).1 ≠ .PERIODIC := by
    intro hT
    rw [C.table x.comp loc hf hloc, hper] at hT
    cases hT
  generalize (T x.comp loc).1 = ty at n1 n2 ⊢
  cases ty <;> simp at n1 n2 ⊢

/-- Bounds for the intermediate velocity of a step. -/
theorem bounded_step (C : Constructed debug L G axes T B) {h : List (Boundary.Op K)} (hi : Initialised h) {q u : ℤ → K} {P : NSParams K} {k : ℕ}
    {V : ℕ → ℕ → Stencil → K} {W : ℕ → Stencil → K} (hV : Filled debug L (fun r => (B r).run h) u (V k))
    (hW : Extended debug L (fun r => (B r).run (h ++ [.updateEqs u P.dt])) q W) {p : Stencil → K} {F : ℤ → K}
    (hm : Momentum debug L G axes P k V W p F) (hdt : 0 < P.dt) (ha : 0 ≤ P.nu * P.diff.implicitCoeff) {f : ℕ} (hf : f < L.dim) (c : K) :
    ((∀ x idx, IsUnknown L x → x.comp = f → L.getPackedGlobalIndex debug f ⟨x.k, x.j, x.i, 0⟩ = .ok idx →
        explicitVelocity L G axes P k V p F x idx ≤ c) → SidesBelow L G T P.dt f (V k f) c → ∀ s, Inside L.toMeshInfo f s → W f s ≤ c) ∧
    ((∀ x idx, IsUnknown L x → x.comp = f → L.getPackedGlobalIndex debug f ⟨x.k, x.j, x.i, 0⟩ = .ok idx →
        c ≤ explicitVelocity L G axes P k V p F x idx) → SidesAbove L G T P.dt f (V k f) c → ∀ s, Inside L.toMeshInfo f s → c ≤ W f s) := by
  have hL := C.setup.layout
  have hst := hW.stored f hf
  -- the explicit part
  have hex : ∀ s, Inside L.toMeshInfo f s → ∃ x idx, IsUnknown L x ∧ x.comp = f ∧ L.getPackedGlobalIndex debug f ⟨x.k, x.j, x.i, 0⟩ = .ok idx ∧
      W f s - P.dt * (P.nu * P.diff.implicitCoeff * laplace L.dim G f s (W f)) = explicitVelocity L G axes P k V p F x idx := by
    intro s hs
    obtain ⟨x, _, hx, rfl, rfl⟩ := exists_unknown hL hf hs
    have hc := (col_inside hL (Or.inl hf) debug hs).1
    refine ⟨x, _, hx, rfl, hc, ?_⟩
    have := hm x _ hx hc
    rw [div_eq_iff hdt.ne'] at this
    unfold explicitVelocity viscousTerms at *
    have e : x.st = ⟨x.k, x.j, x.i, 0⟩ := rfl
    rw [e] at this ⊢
    linear_combination this
  constructor
  · intro he hs s hin
    refine largest_value (e := fun s => W f s - P.dt * (P.nu * P.diff.implicitCoeff * laplace L.dim G f s (W f))) C.setup hf hst hdt ha
      (fun s _ => by field_simp; ring) (fun s hs => ?_) (fun s loc hloc hs' hper hside hc => ?_) hin
    · obtain ⟨x, idx, h1, h2, h3, h4⟩ := hex s hs
      simp only [h4]
      exact he x idx h1 h2 h3
    · obtain ⟨h1, h2, h3, h4, h5, h6⟩ := side_value C hi hV hW hf hs' hloc hper hside
      have hb := hs loc _ _ hloc h1 h2
      have hbv : boundaryValue loc f (W f (nbr loc s)) (W f s) ≤ c → W f (nbr loc s) ≤ W f s := by
        intro hb
        unfold boundaryValue at hb
        split_ifs at hb <;> linarith
      rcases h6 with hT | hT | hT <;> rw [hT] at hb <;> simp only at hb
      · exact hbv ((h3 hT).trans_le hb)
      · have := h4 hT; linarith
      · exact hbv ((h5 hT).trans_le hb)
  · intro he hs s hin
    have hneg : Stored debug L f (fun i => -q i) (fun s => -W f s) :=
      ⟨fun s idx h1 h2 => by rw [hst.inside s idx h1 h2], fun s d x h1 h2 h3 h4 => by rw [hst.periodic s d x h1 h2 h3 h4]⟩
    have hlap : ∀ s, laplace L.dim G f s (fun s => -W f s) = -laplace L.dim G f s (W f) := by
      intro s
      unfold laplace
      rw [← Finset.sum_neg_distrib]
      apply Finset.sum_congr rfl
      intro d _
      unfold secondDifference
      ring
    have := largest_value (e := fun s => -(W f s - P.dt * (P.nu * P.diff.implicitCoeff * laplace L.dim G f s (W f)))) (c := -c) C.setup hf hneg hdt ha
      (fun s _ => by rw [hlap]; field_simp; ring) (fun s hs => ?_) (fun s loc hloc hs' hper hside hc => ?_) hin
    · linarith
    · obtain ⟨x, idx, h1, h2, h3, h4⟩ := hex s hs
      simp only [h4]
      exact neg_le_neg (he x idx h1 h2 h3)
    · obtain ⟨h1, h2, h3, h4, h5, h6⟩ := side_value C hi hV hW hf hs' hloc hper hside
      have hb := hs loc _ _ hloc h1 h2
      have hbv : c ≤ boundaryValue loc f (W f (nbr loc s)) (W f s) → -W f (nbr loc s) ≤ -W f s := by
        intro hb
        unfold boundaryValue at hb
        split_ifs at hb <;> linarith
      rcases h6 with hT | hT | hT <;> rw [hT] at hb <;> simp only at hb
      · exact hbv (hb.trans_eq (h3 hT).symm)
      · have := h4 hT; linarith
      · exact hbv (hb.trans_eq (h5 hT).symm)

/-- The sum of the weights of the neighbours. -/
theorem rate_sides (G : Geom K) (f : ℕ) (s : Stencil) : diffusionRate L G f s = ∑ loc ∈ Finset.range (L.dim * 2), lapW G f loc s := by
  unfold diffusionRate
  rw [sum_range_two]
  apply Finset.sum_congr rfl
  intro d _
  unfold lapW
  rw [show 2 * d / 2 = d by omega, show (2 * d + 1) / 2 = d by omega, show 2 * d % 2 = 0 by omega,
    show (2 * d + 1) % 2 = 1 by omega]
  simp only [if_true, one_ne_zero, if_false, mul_inv, div_eq_mul_inv]
  ring

/-- Second differences of a field that is at most `c`. -/
theorem laplace_le (S : Setup L G axes) {f : ℕ} (hf : f < L.dim) {v : Stencil → K} {c : K} (hper : ∀ s d x, d < L.dim → Inside L.toMeshInfo f s → L.periodic 0 d = true →
      (x = -1 ∨ x = (L.n f d : ℤ)) → v (along s d x) = v (along s d (x % (L.n f d : ℤ))))
    (hv : ∀ s, Inside L.toMeshInfo f s → v s ≤ c)
    (hw : ∀ s loc, loc < L.dim * 2 → Inside L.toMeshInfo f s → L.periodic 0 (loc / 2) = false → AtSide L.toMeshInfo f loc s →
      v (nbr loc s) - v s ≤ 2 * (c - v s)) {t : Stencil} (ht : Inside L.toMeshInfo f t) :
    laplace L.dim G f t v ≤ 2 * diffusionRate L G f t * (c - v t) := by
  have h3 := S.dim_le
  unfold laplace
  rw [secondDifference_sides, rate_sides, Finset.mul_sum, Finset.sum_mul]
  apply Finset.sum_le_sum
  intro loc hloc
  have hloc := Finset.mem_range.1 hloc
  have hin : ∀ s, Inside L.toMeshInfo f s → v s - v t ≤ 2 * (c - v t) := fun s hs => by
    have h1 := hv s hs
    have h2 := hv t ht
    linarith
  have key : v (nbr loc t) - v t ≤ 2 * (c - v t) := by
    have hb := ht.1 (loc / 2) (by omega)
    by_cases hside : AtSide L.toMeshInfo f loc t
    · by_cases hp : L.periodic 0 (loc / 2) = false
      · exact hw t loc hloc ht hp hside
      · have hp : L.periodic 0 (loc / 2) = true := by simpa using hp
        unfold nbr
        unfold AtSide at hside
        rw [hside, hper t (loc / 2) _ (by omega) ht hp (by split_ifs <;> omega)]
        apply hin
        refine ⟨fun d hd => ?_, ?_⟩
        · rw [coordOf_along _ _ _ _ (by omega) hd]
          split_ifs with h
          all_goals first | exact ht.1 d hd | skip
          all_goals subst h; exact ⟨Int.emod_nonneg _ (by omega), Int.emod_lt_of_pos _ (by omega)⟩
        · rw [along_c]; exact ht.2
    · apply hin
      refine ⟨fun d hd => ?_, ?_⟩
      · unfold nbr
        rw [coordOf_along _ _ _ _ (by omega) hd]
        by_cases h : d = loc / 2
        · rw [if_pos h]
          unfold AtSide at hside
          subst h
          split_ifs at hside ⊢ <;> omega
        · rw [if_neg h]; exact ht.1 d hd
      · unfold nbr; rw [along_c]; exact ht.2
  have := mul_le_mul_of_nonneg_left key (lapW_pos S hf ht hloc).le
  linarith

end PetIBM
