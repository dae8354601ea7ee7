/-
Symmetry and definiteness of the matrices given to the linear solvers.
-/
import Verif.Lemmas.PoissonOrder
import Verif.Lemmas.IbpmRun
import Verif.Spec.Krylov

set_option linter.unusedSectionVars false

namespace PetIBM

open Spec

variable {K : Type} [Field K] [LinearOrder K] [IsStrictOrderedRing K]
variable {debug : Bool} {L : Layout} {G : Geom K} {axes : ℕ → Axis K} {T : BCTable K} {B : ℕ → Boundary K}
variable {P : NSParams K}

/-- Width of a velocity point on a uniform mesh. -/
theorem Spec.Setup.dL_uniform (S : Setup L G axes) {f d : ℕ} (hf : f < L.dim) (hd : d < L.dim) {i : ℤ} (h0 : 0 ≤ i)
    (h1 : i < L.n f d) {h : K} (hu : ∀ w ∈ (axes d).dL, w = h) : G.dL f d i = h := by
  have h3 := S.dim_le
  have ha := S.axesOK d hd
  obtain ⟨k, rfl⟩ := Int.eq_ofNat_of_zero_le h0
  have hmax := vert_max ha
  have hv := vert_uniform hu
  by_cases hfd : d = f
  · subst hfd
    cases hp : L.periodic d d with
    | false =>
      obtain ⟨A, hA, n1, c1, w1, _⟩ := normalAxis_nonper ha
      have e : fieldAxis L.dim axes L.periodic d d = .ok A := by
        simp [fieldAxis, hf, show d < 3 by omega, hp, hA]
      obtain ⟨gc, gw⟩ := S.geom d d (by omega) (by omega) A e
      rw [S.counts d d (by omega) (by omega) A e] at h1
      rw [gw _ _ (w1 k (by omega))]
      unfold centre
      rw [hv _ (by omega), hv _ (by omega), hv _ (by omega)]
      push_cast; ring
    | true =>
      obtain ⟨A, hA, n1, c1, c2, w1, w2, _⟩ := normalAxis_per ha
      have e : fieldAxis L.dim axes L.periodic d d = .ok A := by
        simp [fieldAxis, hf, show d < 3 by omega, hp, hA]
      obtain ⟨gc, gw⟩ := S.geom d d (by omega) (by omega) A e
      rw [S.counts d d (by omega) (by omega) A e] at h1
      by_cases hl : k + 1 < A.n
      · rw [gw _ _ (w1 k hl)]
        unfold centre
        rw [hv _ (by omega), hv _ (by omega), hv _ (by omega)]
        push_cast; ring
      · have e1 : (k : ℤ) + 1 = A.n := by omega
        have e2 : A.n - 1 = k := by omega
        rw [gw _ _ (w2 k (Or.inr e1))]
        unfold centre
        have e4 : (axes d).max = (axes d).min + (((axes d).dL.length : ℕ) : K) * h := by rw [← hmax, hv _ le_rfl]
        have e5 : (axes d).dL.length = k + 1 := by omega
        rw [e5] at e4
        rw [e2, hv _ (by omega), hv _ (by omega), hv _ (by omega), hv _ (by omega), e4]
        push_cast; ring
  · obtain ⟨A, hA, n1, c1, c2, c3, _⟩ := tangentAxis_ok ha (L.periodic f d)
    have e : fieldAxis L.dim axes L.periodic f d = .ok A := by
      simp [fieldAxis, hf, hd, show f < 3 by omega, hfd, hA]
    obtain ⟨gc, gw⟩ := S.geom f d (by omega) (by omega) A e
    rw [S.counts f d (by omega) (by omega) A e] at h1
    rw [gw _ _ (c1 k (by omega)).2, hv k (by omega), hv (k + 1) (by omega)]
    push_cast; ring

/-- On a uniform mesh all velocity points have the same volume. -/
theorem volume_uniform (S : Setup L G axes) (hu : UniformMesh L.dim axes) {vol : ℤ → K} (hvol : IsVolume debug L G vol) {x y : ℤ} (x0 : 0 ≤ x)
    (x1 : x < L.UN) (y0 : 0 ≤ y) (y1 : y < L.UN) : vol x = vol y := by
  have h3 := S.dim_le
  obtain ⟨u, hu', rfl⟩ := col_surj S.layout x0 x1
  obtain ⟨v, hv', rfl⟩ := col_surj S.layout y0 y1
  rw [hvol _ _ _ hu'.1 hu'.inside (col_inside S.layout (Or.inl hu'.1) debug hu'.inside).1,
    hvol _ _ _ hv'.1 hv'.inside (col_inside S.layout (Or.inl hv'.1) debug hv'.inside).1]
  refine Finset.prod_congr rfl fun d hd => ?_
  have hd := Finset.mem_range.1 hd
  obtain ⟨h, hh⟩ := hu d hd
  have i1 := hu'.inside.1 d (by omega)
  have i2 := hv'.inside.1 d (by omega)
  rw [S.dL_uniform hu'.1 hd i1.1 i1.2 hh, S.dL_uniform hv'.1 hd i2.1 i2.2 hh]

/-- The pinned matrix is symmetric if the matrix is. -/
theorem zeroRowColumn_symm {N : ℕ} {M : Mat K} (h : SymmetricOn N M) : SymmetricOn N (Mat.zeroRowColumn M 0 1) := by
  intro i j i0 i1 j0 j1
  have := h i j i0 i1 j0 j1
  unfold Mat.zeroRowColumn
  by_cases hi : i = 0 <;> by_cases hj : j = 0 <;> simp_all

theorem setNullSpace_symm {N : ℕ} {M : Mat K} (h : SymmetricOn N M) (t : SolverType) : SymmetricOn N (setNullSpace t M).1 := by
  cases t
  · exact h
  · exact zeroRowColumn_symm h

/-- The approximate inverse is self-adjoint for the volumes. -/
theorem inverse_symm (C : Constructed debug L G axes T B) (h : List (Boundary.Op K)) {La BN : Mat K} {Lm : Modifiers K}
    (hLa : createLaplacian debug L G (fun r => (B r).run h) = .ok (La, Lm))
    (hB : createBnHead L.UN La P.dt (P.diff.implicitCoeff * P.nu) P.BN = .ok BN)
    (hn : P.BN = 1 ∨ ∀ f d, f < L.dim → d < L.dim → L.periodic 0 d = true → 3 ≤ L.n f d) {vol : ℤ → K} (hvol : IsVolume debug L G vol)
    (x y : ℤ) (x0 : 0 ≤ x) (x1 : x < L.UN) (y0 : 0 ≤ y) (y1 : y < L.UN) : vol x * BN x y = vol y * BN y x := by
  rcases hn with h1 | hn
  · have hB' : createBnHead L.UN (fun _ _ => 0) P.dt (P.diff.implicitCoeff * P.nu) 1 = .ok BN := by
      rw [h1] at hB
      unfold createBnHead at hB ⊢
      rw [if_neg (by omega)] at hB ⊢
      exact hB
    exact bn_symm hB' (fun _ _ _ _ _ _ => by rw [mul_zero, mul_zero]) x0 x1 y0 y1
  · exact bn_symm hB (fun x y x0 x1 y0 y1 => laplacian_symm C.setup (C.ghosts h) hn hLa hvol x0 x1 y0 y1) x0 x1 y0 y1

/-- A self-adjoint matrix with non-negative entries off the diagonal and row sums that are not positive is negative semidefinite. -/
theorem dominant_nonpos {N : ℕ} {Op : Mat K} {w : ℤ → K} (hpos : ∀ x : ℤ, 0 ≤ x → x < N → 0 < w x)
    (hw : ∀ x y : ℤ, 0 ≤ x → x < N → 0 ≤ y → y < N → w x * Op x y = w y * Op y x)
    (h1 : ∀ x y : ℤ, 0 ≤ x → x < N → 0 ≤ y → y < N → x ≠ y → 0 ≤ Op x y)
    (h2 : ∀ x : ℤ, 0 ≤ x → x < N → ∑ y ∈ (Finset.range N).filter (fun y : ℕ => (y : ℤ) ≠ x), Op x y ≤ -Op x x) (v : ℤ → K) :
    ∑ i ∈ Finset.range N, w i * v i * Mat.mult N Op v i ≤ 0 := by
  have hO : WSymm (onFin N w) (Op.toM N N) := fun i j => hw i j (by omega) (by omega) (by omega) (by omega)
  have hwp : ∀ i, 0 < onFin N w i := fun i => hpos i (by omega) (by omega)
  have hd := WSymm.dominant (M := Op.toM N N) hwp hO (fun _ => rfl) (by
    intro i j hij
    exact le_of_eq (abs_of_nonneg (h1 i j (by omega) (by omega) (by omega) (by omega) (by
      intro h
      exact hij (Fin.ext (by exact_mod_cast h)))))) (onFin N v)
  have e : ∑ i ∈ Finset.range N, w i * v i * Mat.mult N Op v i = wip (onFin N w) (onFin N v) ((Op.toM N N).mulVec (onFin N v)) := by
    rw [← wip_onFin]
    unfold wip
    refine Finset.sum_congr rfl fun i _ => ?_
    rw [mulVec_onFin]
    rfl
  rw [e]
  refine hd.trans (Finset.sum_nonpos fun i _ => mul_nonpos_of_nonneg_of_nonpos (mul_nonneg (hwp i).le (sq_nonneg _)) ?_)
  have h2 := h2 i (by omega) (by omega)
  have e1 : ∑ j, Op.toM N N i j = Op i i + ∑ y ∈ (Finset.range N).filter (fun y : ℕ => (y : ℤ) ≠ i), Op i y := by
    rw [Finset.sum_filter, Finset.sum_range fun y : ℕ => if (y : ℤ) ≠ (i : ℕ) then Op i y else 0]
    rw [← Finset.add_sum_erase _ _ (Finset.mem_univ i)]
    congr 1
    rw [← Finset.add_sum_erase Finset.univ (fun j : Fin N => if ((j : ℕ) : ℤ) ≠ (i : ℕ) then Op i j else 0) (Finset.mem_univ i),
      if_neg (not_not.2 rfl), zero_add]
    refine Finset.sum_congr rfl fun j hj => ?_
    have hj := (Finset.mem_erase.1 hj).1
    rw [if_pos]
    · rfl
    · intro h
      exact hj (Fin.ext (by exact_mod_cast h))
  rw [e1]
  linarith

/-- The implicit matrix is self-adjoint and positive definite for the volumes. -/
theorem velocity_definite (C : Constructed debug L G axes T B) (h : List (Boundary.Op K)) (hi : Initialised h) {La : Mat K} {Lm : Modifiers K}
    (hLa : createLaplacian debug L G (fun r => (B r).run h) = .ok (La, Lm)) (himp : 0 ≤ P.diff.implicitCoeff)
    (hn : ∀ f d, f < L.dim → d < L.dim → L.periodic 0 d = true → 3 ≤ L.n f d) (hnu : 0 ≤ P.nu) {vol : ℤ → K}
    (hvol : IsVolume debug L G vol) (v : ℤ → K) :
    (1 / P.dt) * ∑ i ∈ Finset.range L.UN, vol i * v i ^ 2 ≤
      ∑ i ∈ Finset.range L.UN, vol i * v i * Mat.mult L.UN (Mat.shift (Mat.scale La (-P.diff.implicitCoeff * P.nu)) (1 / P.dt)) v i := by
  have S := C.setup
  have hL := S.layout
  obtain ⟨A', m', e, hdom⟩ := C23_diagonal_dominance_partial C (fun f d hf hd hp => by have := hn f d hf hd hp; omega) h hi
  rw [hLa] at e
  cases e
  have row : ∀ x : ℤ, 0 ≤ x → x < L.UN → (∀ y : ℕ, y < L.UN → (y : ℤ) ≠ x → 0 ≤ La x y) ∧
      ∑ y ∈ (Finset.range L.UN).filter (fun y : ℕ => (y : ℤ) ≠ x), La x y ≤ -La x x := by
    intro x x0 x1
    obtain ⟨u, hu, rfl⟩ := col_surj hL x0 x1
    obtain ⟨a, _, b⟩ := hdom u.comp u.st _ hu.1 hu.inside (col_inside hL (Or.inl hu.1) debug hu.inside).1
    exact ⟨a, b⟩
  have key := dominant_nonpos (Op := La) (w := vol) (fun x x0 x1 => volume_pos S hvol x0 x1)
    (fun x y x0 x1 y0 y1 => laplacian_symm S (C.ghosts h) hn hLa hvol x0 x1 y0 y1) (by
      intro x y x0 x1 y0 y1 hne
      have := (row x x0 x1).1 y.toNat (by omega) (by omega)
      rwa [Int.toNat_of_nonneg y0] at this) (fun x x0 x1 => (row x x0 x1).2) v
  have e : ∀ i ∈ Finset.range L.UN, vol i * v i * Mat.mult L.UN (Mat.shift (Mat.scale La (-P.diff.implicitCoeff * P.nu)) (1 / P.dt)) v i =
      1 / P.dt * (vol i * v i ^ 2) + -(P.diff.implicitCoeff * P.nu) * (vol i * v i * Mat.mult L.UN La v i) := by
    intro i hi
    have : Mat.mult L.UN (Mat.shift (Mat.scale La (-P.diff.implicitCoeff * P.nu)) (1 / P.dt)) v i =
        -P.diff.implicitCoeff * P.nu * Mat.mult L.UN La v i + 1 / P.dt * v i := by
      unfold Mat.mult
      rw [Finset.mul_sum, ← Finset.sum_erase_add _ _ hi, ← Finset.sum_erase_add (Finset.range L.UN) (fun j : ℕ => _ * (La i j * v j)) hi, add_assoc]
      congr 1
      · refine Finset.sum_congr rfl fun j hj => ?_
        have hj := (Finset.mem_erase.1 hj).1
        simp only [Mat.shift, Mat.scale]
        rw [if_neg (by omega)]
        ring
      · simp only [Mat.shift, Mat.scale, if_true]
        ring
    rw [this]
    ring
  rw [Finset.sum_congr rfl e, Finset.sum_add_distrib, ← Finset.mul_sum, ← Finset.mul_sum]
  have := mul_nonneg_of_nonpos_of_nonpos (neg_nonpos.2 (mul_nonneg himp hnu)) key
  linarith

/-- A sum over the composite numbering. -/
theorem nest_sum {M : Type} [AddCommMonoid M] (counts : List (ℕ × ℕ)) (g : ℕ → M) :
    ∑ i ∈ Finset.range ((counts.map (·.1)).sum + (counts.map (·.2)).sum), g i =
      ∑ a ∈ Finset.range (counts.map (·.1)).sum, g (nestPos counts (.inl a)) + ∑ b ∈ Finset.range (counts.map (·.2)).sum, g (nestPos counts (.inr b)) := by
  induction counts generalizing g with
  | nil => simp
  | cons x l ih =>
    obtain ⟨p, f⟩ := x
    simp only [List.map_cons, List.sum_cons]
    generalize (l.map (·.1)).sum = m at ih ⊢
    generalize (l.map (·.2)).sum = n at ih ⊢
    rw [show p + m + (f + n) = (p + f) + (m + n) by omega, Finset.sum_range_add, Finset.sum_range_add _ p f, ih, Finset.sum_range_add _ p m,
      Finset.sum_range_add _ f n]
    have e1 : ∀ a ∈ Finset.range p, g (nestPos ((p, f) :: l) (.inl a)) = g a := by
      intro a ha
      simp only [nestPos, if_pos (Finset.mem_range.1 ha)]
    have e2 : ∀ a ∈ Finset.range m, g (nestPos ((p, f) :: l) (.inl (p + a))) = g (p + f + nestPos l (.inl a)) := by
      intro a _
      simp only [nestPos, if_neg (show ¬ p + a < p by omega), Nat.add_sub_cancel_left]
    have e3 : ∀ a ∈ Finset.range f, g (nestPos ((p, f) :: l) (.inr a)) = g (p + a) := by
      intro a ha
      simp only [nestPos, if_pos (Finset.mem_range.1 ha)]
    have e4 : ∀ a ∈ Finset.range n, g (nestPos ((p, f) :: l) (.inr (f + a))) = g (p + f + nestPos l (.inr a)) := by
      intro a _
      simp only [nestPos, if_neg (show ¬ f + a < f by omega), Nat.add_sub_cancel_left]
    rw [Finset.sum_congr rfl e1, Finset.sum_congr rfl e2, Finset.sum_congr rfl e3, Finset.sum_congr rfl e4]
    abel

/-- The composite divergence is the negative weighted transpose of the composite gradient. -/
theorem composite_transpose (C : Constructed debug L G axes T B) {bodies : BodyPack K} {kernel : DeltaKernel K} {window : ℕ} (fit : BodiesOK L bodies)
    (hT : ∀ f loc, f < L.dim → loc / 2 = f → (T f loc).1 ≠ .NEUMANN) (h : List (Boundary.Op K)) (hi : Initialised h) {D Gr E H : Mat K}
    {Dm : Modifiers K} (hD : createDivergence debug L G false (fun r => (B r).run h) = .ok (D, Dm))
    (hG : createGradient debug L G false = .ok Gr) {B' : ℕ → Boundary K} {meshIdx : ℕ → ℕ → List (List ℤ)}
    (hE : createEH debug L G axes B' bodies meshIdx kernel window = .ok (E, H)) {vol : ℤ → K} (hvol : IsVolume debug L G vol) (x y : ℤ) (x0 : 0 ≤ x)
    (x1 : x < (L.pN + bodies.nPts * bodies.dim : ℕ)) (y0 : 0 ≤ y) (y1 : y < L.UN) :
    Mat.nestRows (nestCounts L bodies) D E x y = -1 * (vol y * Mat.nestCols (nestCounts L bodies) Gr (Mat.scale H (-1)) y x) := by
  have hs := sum_counts C.setup.layout fit
  obtain ⟨Δ, _, h7, h8⟩ := createEH_ok C.setup hE
  obtain ⟨i, rfl⟩ := Int.eq_ofNat_of_zero_le x0
  unfold Mat.nestCols Mat.transpose
  rcases nestPos_split (nestCounts L bodies) 0 0 i (by omega) with ⟨a, ha, _, e⟩ | ⟨b, hb, _, e⟩
  · rw [← e, nestRows_pressure _ _ ha, nestRows_pressure _ _ ha, neg_one_mul]
    exact divergence_volume C hT h hi hD hG hvol (by omega) (by omega) y0 y1
  · rw [← e, nestRows_force _ _ hb, nestRows_force _ _ hb, h8 vol hvol b y y0 y1, h7]
    simp only [Mat.scale, Mat.transpose]
    ring

/-- What the composite gradient does: gradient of the pressure minus spread forces. -/
theorem composite_gradient {bodies : BodyPack K} (hL : LayoutOK L) (fit : BodiesOK L bodies) (Gr Δ : Mat K) (φ : ℤ → K) (c : ℤ) :
    Mat.mult (L.pN + bodies.nPts * bodies.dim) (Mat.nestCols (nestCounts L bodies) Gr (Mat.scale (Mat.transpose Δ) (-1))) φ c =
      Mat.mult L.pN Gr (subPressure (nestCounts L bodies) φ) c - spread (bodies.nPts * bodies.dim) Δ (subForces (nestCounts L bodies) φ) c := by
  have hs := sum_counts hL fit
  unfold Mat.mult spread
  rw [← hs.1, ← hs.2, nest_sum, sub_eq_add_neg, ← Finset.sum_neg_distrib]
  congr 1
  · refine Finset.sum_congr rfl fun a ha => ?_
    have ha := Finset.mem_range.1 ha
    unfold Mat.nestCols Mat.transpose subPressure
    rw [nestRows_pressure _ _ ha, if_pos (by omega), Int.toNat_natCast]
  · refine Finset.sum_congr rfl fun b hb => ?_
    have hb := Finset.mem_range.1 hb
    unfold Mat.nestCols Mat.transpose subForces
    rw [nestRows_force _ _ hb, if_pos (by omega), Int.toNat_natCast]
    simp only [Mat.scale]
    ring

end PetIBM
