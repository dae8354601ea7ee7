/-
Sums over the rows of the Poisson system, fluxes through the walls, diagonally dominant matrices.
-/
import Verif.Lemmas.Poisson
import Verif.Spec.Poisson

set_option linter.unusedSectionVars false

namespace PetIBM

open Spec

variable {K : Type} [Field K] [LinearOrder K] [IsStrictOrderedRing K]
variable {debug : Bool} {L : Layout} {G : Geom K} {axes : ℕ → Axis K} {T : BCTable K} {B : ℕ → Boundary K}

/-- sum over the pressure unknowns and over the cells -/
theorem pressure_sum (hL : LayoutOK L) (r : ℤ → K) :
    ∑ x ∈ Finset.range L.pN, r x = gridSum L.toMeshInfo 3 fun s => r (col L 3 s) := by
  have e : (gridSum L.toMeshInfo 3 fun s => r (col L 3 s)) =
      ∑ p ∈ Finset.range (L.n 3 2) ×ˢ (Finset.range (L.n 3 1) ×ˢ Finset.range (L.n 3 0)), r (col L 3 ⟨p.1, p.2.1, p.2.2, 0⟩) := by
    unfold gridSum
    rw [Finset.sum_product]
    refine Finset.sum_congr rfl fun k _ => ?_
    rw [Finset.sum_product]
  rw [e]
  symm
  have hin : ∀ p ∈ Finset.range (L.n 3 2) ×ˢ (Finset.range (L.n 3 1) ×ˢ Finset.range (L.n 3 0)),
      Inside L.toMeshInfo 3 ⟨p.1, p.2.1, p.2.2, 0⟩ := by
    intro p hp
    simp only [Finset.mem_product, Finset.mem_range] at hp
    exact inside_nat hp.2.2 hp.2.1 hp.1
  have hrange : ∀ s, Inside L.toMeshInfo 3 s → 0 ≤ col L 3 s ∧ col L 3 s < (L.pN : ℤ) := fun s hs =>
    (col_inside hL (Or.inr rfl) false hs).2
  refine Finset.sum_nbij (fun p => (col L 3 ⟨p.1, p.2.1, p.2.2, 0⟩).toNat) ?_ ?_ ?_ ?_
  · intro p hp
    have := hrange _ (hin p hp)
    exact Finset.mem_range.2 (by omega)
  · intro p hp q hq h
    have h1 := hrange _ (hin p hp)
    have h2 := hrange _ (hin q hq)
    have h : (col L 3 ⟨p.1, p.2.1, p.2.2, 0⟩).toNat = (col L 3 ⟨q.1, q.2.1, q.2.2, 0⟩).toNat := h
    have := col_inj_pressure hL (hin p hp) (hin q hq) (by omega)
    obtain ⟨a, b, c⟩ := p
    obtain ⟨a', b', c'⟩ := q
    simp only [Stencil.mk.injEq, Nat.cast_inj] at this
    simp [this]
  · intro x hx
    have hx : x < L.pN := Finset.mem_range.1 (by exact_mod_cast hx)
    obtain ⟨s, hs, e⟩ := pressure_surj hL (x := x) (by omega) (by omega)
    have h0 := hs.1 0 (by omega)
    have h1 := hs.1 1 (by omega)
    have h2 := hs.1 2 (by omega)
    have hc := hs.2
    obtain ⟨k, j, i, c⟩ := s
    simp only [coordOf] at h0 h1 h2
    simp at h0 h1 h2 hc
    subst hc
    refine ⟨(k.toNat, j.toNat, i.toNat), ?_, ?_⟩
    · simp only [Finset.coe_product, Set.mem_prod, Finset.coe_range, Set.mem_Iio]
      omega
    · show (col L 3 ⟨(k.toNat : ℤ), (j.toNat : ℤ), (i.toNat : ℤ), 0⟩).toNat = x
      rw [Int.toNat_of_nonneg h0.1, Int.toNat_of_nonneg h1.1, Int.toNat_of_nonneg h2.1, e]
      rfl
  · intro p hp
    have := hrange _ (hin p hp)
    rw [Int.toNat_of_nonneg this.1]

/-- Normal velocity on the two walls of a direction. -/
theorem wall_values (C : Constructed debug L G axes T B) (hT : NormalVelocityGiven L.toMeshInfo T) {h : List (Boundary.Op K)} (hi : Initialised h)
    {q : ℤ → K} {V : ℕ → Stencil → K} (hV : Extended debug L (fun r => (B r).run h) q V) {f : ℕ} (hf : f < L.dim)
    (hper : L.periodic 0 f = false) {s : Stencil} (hs : Inside L.toMeshInfo 3 s) :
    V f (along s f (L.n 3 f - 1)) = (T f (2 * f + 1)).2 ∧ V f (along s f (-1)) = (T f (2 * f)).2 := by
  have S := C.setup
  have hL := S.layout
  have h3 := S.dim_le
  obtain ⟨n1, _, n3⟩ := S.staggered f hf
  have n3 := n3 hper
  have hpos := C.pos f f hf (by omega)
  have key : ∀ loc, loc / 2 = f → ∀ c, IsCell L c → (coordOf (cellSt c) f = if loc % 2 = 0 then 0 else (L.n f f : ℤ)) →
      V f (if loc % 2 = 0 then nbr (2 * f) (cellSt c) else cellSt c) = (T f loc).2 := by
    intro loc hl c hc hw
    obtain ⟨u, hu, rfl, _, hside, hnb⟩ := cell_unknown S C.part hc hf hl hper hw
    have hloc : loc < L.dim * 2 := by omega
    have hper' : L.periodic 0 (loc / 2) = false := by rw [hl]; exact hper
    obtain ⟨b, p, hp⟩ := (C.ghosts h).covered u.comp loc u hu rfl hloc hper' hside
    have hr := hu.2.2.2.2.1
    have e := hV.ghost u.rank u.comp loc _ b p hr hp
    rw [← hnb, e]
    obtain ⟨b0, p0, hp0, rfl, rfl⟩ := point_run hp
    obtain ⟨_, _, h1, h2, h3', h4, good⟩ := point_boundaryInit hL (C.init _ hr) C.pos hp0
    have ht : b0.type = .DIRICHLET := by
      rw [h3']
      rcases hT u.comp loc hf hl with h | h
      · exact h
      · rw [(C.table u.comp loc hf hloc).1 h] at hper'; cases hper'
    obtain ⟨c0, c1, _⟩ := pointRun_coeffs b0 h hi p0 (by rw [ht]; simp) (by rw [ht]; simp)
    rw [c0, c1 ht, h1, h2, ht, if_pos hl, h4]
    unfold implicitCoeff
    simp [hl]
  have hpos3 : 0 < L.n 3 f := by omega
  constructor
  · obtain ⟨c, hc, e⟩ := exists_cell hL (hs.along f (by omega) (L.n 3 f - 1) (by omega))
    have := key (2 * f + 1) (by omega) c hc (by rw [e, coordOf_along _ _ _ _ (by omega) (by omega), if_pos rfl, if_neg (by omega)]; omega)
    rw [if_neg (by omega), e] at this
    exact this
  · obtain ⟨c, hc, e⟩ := exists_cell hL (hs.along f (by omega) 0 (by omega))
    have := key (2 * f) (by omega) c hc (by rw [e, coordOf_along _ _ _ _ (by omega) (by omega), if_pos rfl, if_pos (by omega)])
    rw [if_pos (by omega), e] at this
    rw [← this]
    unfold nbr
    rw [show 2 * f / 2 = f by omega, coordOf_along _ _ _ _ (by omega) (by omega), if_pos rfl, along_along, if_pos (by omega)]
    rfl

/-- Sum of the right-hand sides. -/
theorem poisson_total (C : Constructed debug L G axes T B) (hn : ∀ f, f < L.dim → L.periodic 0 f = true → 2 ≤ L.n f f)
    (hT : NormalVelocityGiven L.toMeshInfo T) {h h' : List (Boundary.Op K)} (hi : Initialised h) {D : Mat K} {Dm : Modifiers K}
    (hD : createDivergence debug L G false (fun r => (B r).run h) = .ok (D, Dm)) (q : ℤ → K) :
    ∑ x ∈ Finset.range L.pN, (Mat.mult L.UN D q x + correctionMult L (fun r => (B r).run (h ++ h')) Dm x) =
      boundaryFlux L.toMeshInfo G T := by
  have S := C.setup
  have hL := S.layout
  obtain ⟨D', m', e, key⟩ := C21_global_balance_partial C hn h hi
  rw [hD] at e
  cases e
  obtain ⟨V, hV⟩ := exists_extended hL (C.ghosts (h ++ h')) q
  rw [pressure_sum hL fun x => Mat.mult L.UN D q x + correctionMult L (fun r => (B r).run (h ++ h')) Dm x]
  rw [key h' q V _ hV ?_]
  · unfold boundaryFlux
    refine Finset.sum_congr rfl fun f hf => ?_
    have hf := Finset.mem_range.1 hf
    cases hper : L.periodic 0 f with
    | true => rfl
    | false =>
      simp only [Bool.false_eq_true, if_false]
      unfold layerSum
      rw [show (gridSum L.toMeshInfo 3 fun s => if coordOf s f = 0 then faceArea G f f s else 0) *
          ((T f (2 * f + 1)).2 - (T f (2 * f)).2) = gridSum L.toMeshInfo 3 fun s =>
          (if coordOf s f = 0 then faceArea G f f s else 0) * ((T f (2 * f + 1)).2 - (T f (2 * f)).2) by
        unfold gridSum; simp only [Finset.sum_mul]]
      refine gridSum_congr fun s hs => ?_
      obtain ⟨e1, e2⟩ := wall_values C hT (hi.append h') hV hf hper hs
      beta_reduce
      rw [e1, e2]
      split_ifs
      · rfl
      · rw [zero_mul]
  · intro s idx hs hidx
    rw [(col_inside hL (Or.inr rfl) debug hs).1] at hidx
    cases hidx
    rfl

/-- The columns of the divergence sum to zero. -/
theorem divergence_columns (C : Constructed debug L G axes T B) (hn : ∀ f, f < L.dim → L.periodic 0 f = true → 2 ≤ L.n f f)
    (hT : ∀ f loc, f < L.dim → loc / 2 = f → (T f loc).1 ≠ .NEUMANN) {h : List (Boundary.Op K)} (hi : Initialised h) {D : Mat K}
    {Dm : Modifiers K} (hD : createDivergence debug L G false (fun r => (B r).run h) = .ok (D, Dm)) {y : ℤ} (h0 : 0 ≤ y) (h1 : y < L.UN) :
    ∑ x ∈ Finset.range L.pN, D x y = 0 := by
  have hn3 : ∀ f, f < L.dim → L.periodic 0 f = true → 2 ≤ L.n 3 f := fun f hf hp =>
    (hn f hf hp).trans (C.setup.n_le f f hf (by have := C.setup.dim_le; omega))
  obtain ⟨Gr, hG, _⟩ := C19_gradient_exact debug C.setup hn3
  obtain ⟨w, _, hD'⟩ := divergence_weights C hT h hi hD hG
  have := gradient_const C.setup hn3 hG (φ := fun _ => 1) (fun _ _ _ _ _ _ => rfl) h0 h1
  unfold Mat.mult at this
  have e : ∀ x ∈ Finset.range L.pN, D x y = -w y * (Gr y x * 1) := by
    intro x hx
    have := Finset.mem_range.1 hx
    rw [hD' x y (by omega) (by omega) h0 h1]
    ring
  rw [Finset.sum_congr rfl e, ← Finset.mul_sum, this, mul_zero]

/-- So the rows of a product with the divergence sum to zero. -/
theorem divergence_sum (C : Constructed debug L G axes T B) (hn : ∀ f, f < L.dim → L.periodic 0 f = true → 2 ≤ L.n f f)
    (hT : ∀ f loc, f < L.dim → loc / 2 = f → (T f loc).1 ≠ .NEUMANN) {h : List (Boundary.Op K)} (hi : Initialised h) {D : Mat K}
    {Dm : Modifiers K} (hD : createDivergence debug L G false (fun r => (B r).run h) = .ok (D, Dm)) (q : ℤ → K) :
    ∑ x ∈ Finset.range L.pN, Mat.mult L.UN D q x = 0 := by
  unfold Mat.mult
  rw [Finset.sum_comm]
  refine Finset.sum_eq_zero fun y hy => ?_
  have := Finset.mem_range.1 hy
  rw [← Finset.sum_mul, divergence_columns C hn hT hi hD (by omega) (by omega), zero_mul]

/-! ### Strict diagonal dominance -/

/-- A strictly diagonally dominant matrix has a trivial kernel. -/
theorem dominant_injective {N : ℕ} {A : Mat K}
    (h : ∀ i : ℕ, i < N → ∑ x ∈ (Finset.range N).filter (fun x : ℕ => x ≠ i), |A i x| < |A i i|) {v : ℤ → K}
    (hv : ∀ i : ℕ, i < N → Mat.mult N A v i = 0) : ∀ i : ℕ, i < N → v i = 0 := by
  intro i hi
  have hne : (Finset.range N).Nonempty := ⟨i, Finset.mem_range.2 hi⟩
  obtain ⟨m, hm, hmax⟩ := Finset.exists_max_image (Finset.range N) (fun i : ℕ => |v i|) hne
  have hm := Finset.mem_range.1 hm
  have hrow := hv m hm
  unfold Mat.mult at hrow
  rw [← Finset.sum_filter_add_sum_filter_not (Finset.range N) (fun x : ℕ => x ≠ m)] at hrow
  have e : (Finset.range N).filter (fun x : ℕ => ¬ x ≠ m) = {m} := by
    ext x
    simp only [Finset.mem_filter, Finset.mem_range, not_not, Finset.mem_singleton]
    constructor
    · exact fun h => h.2
    · rintro rfl; exact ⟨hm, rfl⟩
  rw [e, Finset.sum_singleton] at hrow
  have hle : |A m m| * |v m| ≤ (∑ x ∈ (Finset.range N).filter (fun x : ℕ => x ≠ m), |A m x|) * |v m| := by
    rw [← abs_mul, show A m m * v m = -∑ x ∈ (Finset.range N).filter (fun x : ℕ => x ≠ m), A m x * v x by linarith, abs_neg, Finset.sum_mul]
    refine (Finset.abs_sum_le_sum_abs _ _).trans (Finset.sum_le_sum fun x hx => ?_)
    rw [abs_mul]
    exact mul_le_mul_of_nonneg_left (hmax x (Finset.mem_filter.1 hx).1) (abs_nonneg _)
  have h0 : |v m| = 0 := by
    by_contra hne
    have hpos : 0 < |v m| := lt_of_le_of_ne (abs_nonneg _) (Ne.symm hne)
    have := mul_lt_mul_of_pos_right (h m hm) hpos
    linarith
  have := hmax i (Finset.mem_range.2 hi)
  rw [h0] at this
  exact abs_eq_zero.1 (le_antisymm this (abs_nonneg _))

/-- A matrix with trivial kernel: every system has exactly one solution. -/
theorem unique_solution {N : ℕ} {A : Mat K} (h : ∀ v : ℤ → K, (∀ i : ℕ, i < N → Mat.mult N A v i = 0) → ∀ i : ℕ, i < N → v i = 0) (rhs : ℤ → K) :
    ∃ x, IsSolution N A rhs x ∧ ∀ y, IsSolution N A rhs y → ∀ i : ℤ, 0 ≤ i → i < N → y i = x i := by
  classical
  let M : Matrix (Fin N) (Fin N) K := fun i j => A i j
  have ext : ∀ v : Fin N → K, ∃ w : ℤ → K, ∀ i : Fin N, w i = v i := fun v =>
    ⟨fun i => if h : 0 ≤ i ∧ i.toNat < N then v ⟨i.toNat, h.2⟩ else 0, fun i => by
      beta_reduce; rw [dif_pos ⟨by omega, by have := i.2; omega⟩]; congr 1⟩
  have hmul : ∀ (w : ℤ → K) (v : Fin N → K), (∀ i : Fin N, w i = v i) → ∀ i : Fin N, Mat.mult N A w i = M.mulVec v i := by
    intro w v hw i
    unfold Mat.mult
    rw [Finset.sum_range]
    simp only [Matrix.mulVec, dotProduct, M, hw]
  have inj : Function.Injective M.mulVecLin := by
    rw [← LinearMap.ker_eq_bot, LinearMap.ker_eq_bot']
    intro v hv
    obtain ⟨w, hw⟩ := ext v
    have := h w fun i hi => by
      have := hmul w v hw ⟨i, hi⟩
      simp only at this
      rw [this]
      exact congrFun hv _
    funext i
    rw [← hw i]
    exact this i i.2
  obtain ⟨v, hv⟩ := LinearMap.surjective_of_injective inj fun i : Fin N => rhs i
  obtain ⟨w, hw⟩ := ext v
  have hsol : IsSolution N A rhs w := by
    intro i i0 i1
    have := hmul w v hw ⟨i.toNat, by omega⟩
    simp only [Int.toNat_of_nonneg i0] at this
    rw [this]
    have := congrFun hv ⟨i.toNat, by omega⟩
    simp only [Int.toNat_of_nonneg i0] at this
    exact this
  refine ⟨w, hsol, fun y hy i i0 i1 => ?_⟩
  have := h (fun j => y j + -1 * w j) (fun j hj => by
    rw [mult_sub, hy j (by omega) (by omega), hsol j (by omega) (by omega), sub_self]) i.toNat (by omega)
  simp only [Int.toNat_of_nonneg i0] at this
  linarith

theorem exactSolve_finds (N : ℕ) (A : Mat K) : Finds N (exactSolve N) A := by
  intro guess rhs h
  refine ⟨h.choose, ?_, h.choose_spec⟩
  unfold exactSolve
  rw [dif_pos h]

theorem exactSolve_solves (N : ℕ) (A : Mat K) : Solves N (exactSolve N) A := by
  intro guess rhs x h
  unfold exactSolve at h
  split_ifs at h with hex
  cases h
  exact hex.choose_spec

end PetIBM
