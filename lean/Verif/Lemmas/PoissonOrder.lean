/-
Higher orders of the approximate inverse in the Poisson matrix.
-/
import Verif.Lemmas.LaplacianSymm
import Verif.Lemmas.Weighted
import Verif.Spec.Poisson
import Verif.Props.Laplacian
import Mathlib.Algebra.Ring.Parity

set_option linter.unusedSectionVars false

namespace PetIBM

open Spec

variable {K : Type} [Field K] [LinearOrder K] [IsStrictOrderedRing K]
variable {debug : Bool} {L : Layout} {G : Geom K} {axes : ℕ → Axis K} {T : BCTable K} {B : ℕ → Boundary K}
variable {P : NSParams K}

theorem volume_pos (S : Setup L G axes) {vol : ℤ → K} (hvol : IsVolume debug L G vol) {y : ℤ} (y0 : 0 ≤ y) (y1 : y < L.UN) : 0 < vol y := by
  obtain ⟨u, hu, rfl⟩ := col_surj S.layout y0 y1
  rw [hvol _ _ _ hu.1 hu.inside (col_inside S.layout (Or.inl hu.1) debug hu.inside).1]
  have h3 := S.dim_le
  refine Finset.prod_pos fun d hd => ?_
  have hd := Finset.mem_range.1 hd
  have := hu.inside.1 d (by omega)
  exact S.width_pos hu.1 hd this.1 this.2

/-- The divergence is the negative transpose of the gradient, weighted with volumes. -/
theorem divergence_volume (C : Constructed debug L G axes T B)
    (hT : ∀ f loc, f < L.dim → loc / 2 = f → (T f loc).1 ≠ .NEUMANN) (h : List (Boundary.Op K)) (hi : Initialised h) {D Gr : Mat K}
    {Dm : Modifiers K} (hD : createDivergence debug L G false (fun r => (B r).run h) = .ok (D, Dm))
    (hG : createGradient debug L G false = .ok Gr) {vol : ℤ → K} (hvol : IsVolume debug L G vol) {x y : ℤ} (x0 : 0 ≤ x) (x1 : x < L.pN)
    (y0 : 0 ≤ y) (y1 : y < L.UN) : D x y = -(vol y * Gr y x) := by
  have S := C.setup
  have hL := S.layout
  obtain ⟨_, _, _, D', m', G', _, _, e1, e2, key⟩ := C20_divergence_transpose C hT h hi
  rw [hD] at e1
  rw [hG] at e2
  cases e1
  cases e2
  obtain ⟨u, hu, rfl⟩ := col_surj hL y0 y1
  obtain ⟨s, hs, rfl⟩ := pressure_surj hL x0 x1
  have hc := (col_inside hL (Or.inl hu.1) debug hu.inside).1
  rw [(key s u.st u.comp _ _ hu.1 hs hu.inside (col_inside hL (Or.inr rfl) debug hs).1 hc).2, hvol _ _ _ hu.1 hu.inside hc,
    ← volume_eq S hu.1 hu.inside, (S.own_width hu.1 hu.inside).1]
  ring

theorem implicit_nonneg {flow : Option (FlowNode K)} (h : ∃ haveAmgX output node, readParams haveAmgX output node flow = .ok P) :
    0 ≤ P.diff.implicitCoeff := by
  obtain ⟨a, o, node, h⟩ := h
  obtain ⟨⟨p, -, h2⟩, -⟩ := params_schemes h
  generalize P.diff = d at h2 ⊢
  unfold createTimeIntegration at h2
  split at h2
  · cases h2
  · split at h2
    · cases h2
    · split_ifs at h2 <;> cases h2 <;>
        simp [eulerExplicit, eulerImplicit, adamsBashforth2, crankNicolson]

/-- The approximate inverse is definite for good orders. -/
theorem inverse_definite (C : Constructed debug L G axes T B) (h : List (Boundary.Op K)) (hi : Initialised h) {La BN : Mat K} {Lm : Modifiers K}
    (hLa : createLaplacian debug L G (fun r => (B r).run h) = .ok (La, Lm))
    (hB : createBnHead L.UN La P.dt (P.diff.implicitCoeff * P.nu) P.BN = .ok BN) (himp : 0 ≤ P.diff.implicitCoeff) (hdt : P.dt ≠ 0)
    (good : GoodOrder L P (Mat.shift (Mat.scale La (-P.diff.implicitCoeff * P.nu)) (1 / P.dt))) {vol : ℤ → K} (hvol : IsVolume debug L G vol)
    (v : ℤ → K) :
    0 ≤ P.dt⁻¹ * ∑ i ∈ Finset.range L.UN, vol i * v i * Mat.mult L.UN BN v i ∧
      (∑ i ∈ Finset.range L.UN, vol i * v i * Mat.mult L.UN BN v i = 0 → ∀ i : ℤ, 0 ≤ i → i < L.UN → v i = 0) := by
  have S := C.setup
  have hL := S.layout
  have hpos : ∀ x : ℤ, 0 ≤ x → x < L.UN → 0 < vol x := fun x x0 x1 => volume_pos S hvol x0 x1
  rcases good with h1 | ⟨hn, good⟩
  · have hB' : createBnHead L.UN (fun _ _ => 0) P.dt (P.diff.implicitCoeff * P.nu) 1 = .ok BN := by
      rw [h1] at hB
      unfold createBnHead at hB ⊢
      rw [if_neg (by omega)] at hB ⊢
      exact hB
    exact bn_definite hB' hpos (fun _ _ _ _ _ _ => by rw [mul_zero, mul_zero]) hdt (Or.inl ⟨0, by norm_num⟩) v
  · have hs : ∀ x y : ℤ, 0 ≤ x → x < L.UN → 0 ≤ y → y < L.UN → vol x * La x y = vol y * La y x :=
      fun x y x0 x1 y0 y1 => laplacian_symm S (C.ghosts h) hn hLa hvol x0 x1 y0 y1
    refine bn_definite hB hpos hs hdt (good.imp id ?_) v
    rintro ⟨g1, g2, g3⟩
    obtain ⟨A', m', e, hdom⟩ := C23_diagonal_dominance_partial C (fun f d hf hd hp => by have := hn f d hf hd hp; omega) h hi
    rw [hLa] at e
    cases e
    have row : ∀ x : ℤ, 0 ≤ x → x < L.UN → (∀ y : ℕ, y < L.UN → (y : ℤ) ≠ x → 0 ≤ La x y) ∧
        ∑ y ∈ (Finset.range L.UN).filter (fun y : ℕ => (y : ℤ) ≠ x), La x y ≤ -La x x := by
      intro x x0 x1
      obtain ⟨u, hu, rfl⟩ := col_surj hL x0 x1
      obtain ⟨a, _, b⟩ := hdom u.comp u.st _ hu.1 hu.inside (col_inside hL (Or.inl hu.1) debug hu.inside).1
      exact ⟨a, b⟩
    refine ⟨mul_nonneg g1.le (mul_nonneg himp g2), ?_, fun x x0 x1 => (row x x0 x1).2, ?_⟩
    · intro x y x0 x1 y0 y1 hne
      have := (row x x0 x1).1 y.toNat (by omega) (by omega)
      rwa [Int.toNat_of_nonneg y0] at this
    · intro x x0 x1
      have := g3 x x0 x1
      simp only [Mat.shift, Mat.scale, if_true] at this
      rw [mul_add, mul_one_div_cancel hdt] at this
      linear_combination this

/-- A product with a weighted transpose. -/
theorem product_symm {N M : ℕ} {D BN Gr : Mat K} {w : ℤ → K} {σ : K}
    (hD : ∀ x y : ℤ, 0 ≤ x → x < N → 0 ≤ y → y < M → D x y = σ * (w y * Gr y x))
    (hB : ∀ x y : ℤ, 0 ≤ x → x < M → 0 ≤ y → y < M → w x * BN x y = w y * BN y x) {x y : ℤ} (x0 : 0 ≤ x) (x1 : x < N) (y0 : 0 ≤ y) (y1 : y < N) :
    Mat.mul M D (Mat.mul M BN Gr) x y = Mat.mul M D (Mat.mul M BN Gr) y x := by
  simp only [Mat.mul, Finset.mul_sum]
  conv_rhs => rw [Finset.sum_comm]
  refine Finset.sum_congr rfl fun a ha => Finset.sum_congr rfl fun b hb => ?_
  have ha := Finset.mem_range.1 ha
  have hb := Finset.mem_range.1 hb
  rw [hD x a x0 x1 (by omega) (by omega), hD y b y0 y1 (by omega) (by omega)]
  linear_combination σ * Gr a x * Gr b y * hB a b (by omega) (by omega) (by omega) (by omega)

/-- Energy of such a product. -/
theorem product_energy {N M : ℕ} {D BN Gr : Mat K} {w : ℤ → K} {σ : K}
    (hD : ∀ x y : ℤ, 0 ≤ x → x < N → 0 ≤ y → y < M → D x y = σ * (w y * Gr y x)) (φ : ℤ → K) :
    ∑ x ∈ Finset.range N, φ x * Mat.mult M D (Mat.mult M BN (Mat.mult N Gr φ)) x =
      σ * ∑ y ∈ Finset.range M, w y * Mat.mult N Gr φ y * Mat.mult M BN (Mat.mult N Gr φ) y := by
  have : ∀ x ∈ Finset.range N, φ x * Mat.mult M D (Mat.mult M BN (Mat.mult N Gr φ)) x =
      ∑ y ∈ Finset.range M, σ * (w y * Mat.mult M BN (Mat.mult N Gr φ) y) * (Gr y x * φ x) := by
    intro x hx
    have hx := Finset.mem_range.1 hx
    conv_lhs => rw [Mat.mult, Finset.mul_sum]
    refine Finset.sum_congr rfl fun y hy => ?_
    have hy := Finset.mem_range.1 hy
    rw [hD x y (by omega) (by omega) (by omega) (by omega)]
    ring
  rw [Finset.sum_congr rfl this, Finset.sum_comm, Finset.mul_sum]
  refine Finset.sum_congr rfl fun y _ => ?_
  rw [← Finset.mul_sum]
  show _ * Mat.mult N Gr φ y = _
  ring

end PetIBM
