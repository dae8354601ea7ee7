/-
Energy of the steps.
-/
import Verif.Lemmas.Energy
import Verif.Spec.Energy

set_option linter.unusedSectionVars false

namespace PetIBM

open Spec

variable {K : Type} [Field K] [LinearOrder K] [IsStrictOrderedRing K]
variable {L : Layout} {G : Geom K} {axes : ℕ → Axis K} {debug : Bool} {T : BCTable K} {B : ℕ → Boundary K}

/-- Sum over the packed velocity vector. -/
theorem velocity_sum (hL : LayoutOK L) (r : ℤ → K) :
    ∑ x ∈ Finset.range L.UN, r x = ∑ f ∈ Finset.range L.dim, gridSum L.toMeshInfo f fun s => r (col L f s) := by
  have e : ∀ f, (gridSum L.toMeshInfo f fun s => r (col L f s)) =
      ∑ p ∈ Finset.range (L.n f 2) ×ˢ (Finset.range (L.n f 1) ×ˢ Finset.range (L.n f 0)), r (col L f ⟨p.1, p.2.1, p.2.2, 0⟩) := by
    intro f
    unfold gridSum
    rw [Finset.sum_product]
    refine Finset.sum_congr rfl fun k _ => ?_
    rw [Finset.sum_product]
  rw [Finset.sum_congr rfl fun f _ => e f, Finset.sum_sigma']
  symm
  have hin : ∀ p : (_ : ℕ) × (ℕ × ℕ × ℕ), p ∈ (Finset.range L.dim).sigma (fun f => Finset.range (L.n f 2) ×ˢ (Finset.range (L.n f 1) ×ˢ Finset.range (L.n f 0))) →
      p.1 < L.dim ∧ Inside L.toMeshInfo p.1 ⟨p.2.1, p.2.2.1, p.2.2.2, 0⟩ := by
    intro p hp
    simp only [Finset.mem_sigma, Finset.mem_product, Finset.mem_range] at hp
    exact ⟨hp.1, inside_nat hp.2.2.2 hp.2.2.1 hp.2.1⟩
  have hrange : ∀ f s, f < L.dim → Inside L.toMeshInfo f s → 0 ≤ col L f s ∧ col L f s < (L.UN : ℤ) := fun f s hf hs => by
    have := (col_inside hL (Or.inl hf) false hs).2
    rwa [vecSize_velocity hL hf] at this
  refine Finset.sum_nbij (fun p => (col L p.1 ⟨p.2.1, p.2.2.1, p.2.2.2, 0⟩).toNat) ?_ ?_ ?_ ?_
  · intro p hp
    have := hrange _ _ (hin p hp).1 (hin p hp).2
    exact Finset.mem_range.2 (by omega)
  · intro p hp q hq h
    have i1 := hin p hp
    have i2 := hin q hq
    have h1 := hrange _ _ i1.1 i1.2
    have h2 := hrange _ _ i2.1 i2.2
    have h : (col L p.1 ⟨p.2.1, p.2.2.1, p.2.2.2, 0⟩).toNat = (col L q.1 ⟨q.2.1, q.2.2.1, q.2.2.2, 0⟩).toNat := h
    obtain ⟨h3, h4⟩ := col_inj hL i1.1 i2.1 i1.2 i2.2 (by omega)
    obtain ⟨f, a, b, c⟩ := p
    obtain ⟨f', a', b', c'⟩ := q
    simp only [Stencil.mk.injEq, Nat.cast_inj] at h3 h4
    simp [h3, h4]
  · intro x hx
    have hx : x < L.UN := Finset.mem_range.1 (by exact_mod_cast hx)
    obtain ⟨u, hu, e⟩ := col_surj hL (x := x) (by omega) (by omega)
    obtain ⟨k1, k2, k3, k4, -⟩ := hu
    refine ⟨⟨u.comp, u.k, u.j, u.i⟩, ?_, ?_⟩
    · simp only [Finset.coe_sigma, Set.mem_sigma_iff, Finset.coe_range, Set.mem_Iio, Finset.coe_product, Set.mem_prod]
      exact ⟨k1, k4, k3, k2⟩
    · show (col L u.comp u.st).toNat = x
      rw [e]
      rfl
  · intro p hp
    have := hrange _ _ (hin p hp).1 (hin p hp).2
    rw [Int.toNat_of_nonneg this.1]

theorem volume_of (S : Setup L G axes) {vol : ℤ → K} (hvol : IsVolume debug L G vol) {f : ℕ} {s : Stencil} (hf : f < L.dim)
    (hs : Inside L.toMeshInfo f s) : vol (col L f s) = volume G f s := by
  have h3 := S.dim_le
  rw [hvol _ _ _ hf hs (col_inside S.layout (Or.inl hf) debug hs).1, ← volume_eq S hf hs, volume_faceArea G (show f < 3 by omega)]

/-- Walls at rest add nothing to the operators. -/
theorem rest_a1 (C : Constructed debug L G axes T B) (hw : WallsAtRest L T) {h : List (Boundary.Op K)} (hi : Initialised h) {r f loc : ℕ}
    {s : Stencil} {b : SingleBoundary K} {p : GhostPointInfo K} (hr : r < L.mpiSize) (hp : Point ((B r).run h) f loc s b p) : p.a1 = 0 := by
  have hL := C.setup.layout
  obtain ⟨b0, p0, hp0, rfl, rfl⟩ := point_run hp
  obtain ⟨hf, hloc, h1, h2, h3, h4, good⟩ := point_boundaryInit hL (C.init _ hr) C.pos hp0
  have hper : L.periodic 0 (loc / 2) = false := (C.ghosts h).periodic r f loc s _ _ hr hp
  by_cases hn : f = loc / 2
  · have := hw.1 loc hloc hper
    unfold Closed at this
    rw [← hn] at this
    rw [this] at h3 h4
    obtain ⟨c0, c1, _⟩ := pointRun_coeffs b0 h hi p0 (by rw [h3]; simp) (by rw [h3]; simp)
    rw [c1 h3, h4]
    simp
  · obtain ⟨ht, hv⟩ := hw.2 f loc hf hloc hper hn
    rw [hv] at h4
    rw [← h3] at ht
    obtain ⟨c0, c1, c2⟩ := pointRun_coeffs b0 h hi p0 (by rcases ht with h | h <;> simp [h]) (by rcases ht with h | h <;> simp [h])
    rcases ht with h | h
    · rw [c1 h, h4]; simp
    · rw [c2 h, h4]; simp

theorem rest_extended (C : Constructed debug L G axes T B) (hw : WallsAtRest L T) {h : List (Boundary.Op K)} (hi : Initialised h) :
    Extended debug L (fun r => (B r).run h) (fun _ => 0) fun _ _ => 0 := by
  refine ⟨fun f hf => ⟨fun _ _ _ _ => rfl, fun _ _ _ _ _ _ _ => rfl⟩, fun r f loc s b p hr hp => ?_⟩
  rw [rest_a1 C hw hi hr hp]
  simp

/-- Walls at rest add nothing to the Laplacian. -/
theorem rest_laplacian (C : Constructed debug L G axes T B) (hw : WallsAtRest L T)
    (hn : ∀ f d, f < L.dim → d < L.dim → L.periodic 0 d = true → 3 ≤ L.n f d) {h h' : List (Boundary.Op K)} (hi : Initialised h)
    {La : Mat K} {Lm : Modifiers K} (hA : createLaplacian debug L G (fun r => (B r).run h) = .ok (La, Lm)) {i : ℤ} (i0 : 0 ≤ i) (i1 : i < L.UN) :
    correctionMult L (fun r => (B r).run (h ++ h')) Lm i = 0 := by
  obtain ⟨A', m', e, key⟩ := C22_laplacian_of_extended_field_partial C hn h hi
  rw [hA] at e
  cases e
  obtain ⟨u, hu, rfl⟩ := col_surj C.setup.layout i0 i1
  obtain ⟨v, k, rfl⟩ := hi
  have := key h' _ _ (rest_extended C hw ⟨v, k ++ h', by simp⟩) _ _ _ hu.1 hu.inside (col_inside C.setup.layout (Or.inl hu.1) debug hu.inside).1
  simpa [Mat.mult, secondDifference] using this

/-- Closed walls add nothing to the divergence. -/
theorem closed_divergence (C : Constructed debug L G axes T B) (hw : AllClosed L T)
    (hn : ∀ f, f < L.dim → L.periodic 0 f = true → 2 ≤ L.n f f) {h h' : List (Boundary.Op K)} (hi : Initialised h)
    {D : Mat K} {Dm : Modifiers K} (hD : createDivergence debug L G false (fun r => (B r).run h) = .ok (D, Dm)) {i : ℤ} (i0 : 0 ≤ i) (i1 : i < L.pN) :
    correctionMult L (fun r => (B r).run (h ++ h')) Dm i = 0 := by
  have S := C.setup
  have hL := S.layout
  have h3 := S.dim_le
  obtain ⟨A', m', e, key⟩ := C21_divergence_is_net_flux_partial C hn h hi
  rw [hD] at e
  cases e
  obtain ⟨s, hs, rfl⟩ := pressure_surj hL i0 i1
  obtain ⟨v, k, rfl⟩ := hi
  have hi' : Initialised (Boundary.Op.setGhostICs v :: k ++ h') := ⟨v, k ++ h', by simp⟩
  obtain ⟨V, hV⟩ := exists_extended hL (C.ghosts (.setGhostICs v :: k ++ h')) fun _ => (0 : K)
  have := key h' _ V hV s _ hs (col_inside hL (Or.inr rfl) debug hs).1
  have e0 : Mat.mult L.UN D (fun _ => 0) (col L 3 s) = 0 := by simp [Mat.mult]
  rw [e0, zero_add] at this
  rw [this]
  have hT : NormalVelocityGiven L.toMeshInfo T := by
    intro f loc hf hl
    by_cases hp : L.periodic 0 f = true
    · exact Or.inr ((C.table f loc hf (by omega)).2 (by rw [hl]; exact hp))
    · have := hw loc (by omega) (by rw [hl]; simpa using hp)
      unfold Closed at this
      rw [hl] at this
      exact Or.inl (by rw [this])
  have zero : ∀ f t, f < L.dim → Inside L.toMeshInfo f t → V f t = 0 := fun f t hf ht =>
    (hV.stored f hf).inside t _ ht (col_inside hL (Or.inl hf) debug ht).1
  unfold netFlux
  refine Finset.sum_eq_zero fun f hf => ?_
  have hf := Finset.mem_range.1 hf
  obtain ⟨n1, n2, n4⟩ := S.staggered f hf
  have hsf := hs.1 f (by omega)
  have hin : ∀ x : ℤ, 0 ≤ x → x < L.n f f → Inside L.toMeshInfo f (along s f x) := by
    intro x x0 x1
    refine ⟨fun e he => ?_, by rw [show (along s f x).c = s.c by unfold along; split_ifs <;> rfl]; exact hs.2⟩
    rw [coordOf_along _ _ _ _ (by omega) he]
    split_ifs with hef
    · subst hef; exact ⟨x0, x1⟩
    · have := hs.1 e he
      rw [n1 e he hef]
      exact this
  have e1 : V f s = 0 := by
    have es : along s f (coordOf s f) = s := along_self _ _ (by omega)
    by_cases hx : coordOf s f < L.n f f
    · rw [← es]; exact zero f _ hf (hin _ hsf.1 hx)
    · cases hper : L.periodic 0 f with
      | true => have := n2 hper; omega
      | false =>
        have := n4 hper
        have hv := (wall_values C hT hi' hV hf hper hs).1
        rw [show (L.n 3 f : ℤ) - 1 = coordOf s f by omega, es] at hv
        have hc := hw (2 * f + 1) (by omega) (by rw [show (2 * f + 1) / 2 = f by omega]; exact hper)
        unfold Closed at hc
        rw [show (2 * f + 1) / 2 = f by omega] at hc
        rw [hv, hc]
  have e2 : V f (shift s f (-1)) = 0 := by
    unfold shift
    have hpos := C.pos f f hf (by omega)
    have hle := S.n_le f f hf (by omega)
    by_cases hx : 0 < coordOf s f
    · refine zero f _ hf (hin _ (by omega) ?_)
      cases hper : L.periodic 0 f with
      | true => have := n2 hper; omega
      | false => have := n4 hper; omega
    · rw [show coordOf s f + -1 = -1 by omega]
      cases hper : L.periodic 0 f with
      | true =>
        have := (hV.stored f hf).periodic (along s f 0) f (-1) hf (hin 0 le_rfl (by omega)) hper (Or.inl rfl)
        rw [along_along, along_along] at this
        rw [this]
        exact zero f _ hf (hin _ (Int.emod_nonneg _ (by omega)) (Int.emod_lt_of_pos _ (by omega)))
      | false =>
        have hc := hw (2 * f) (by omega) (by rw [show (2 * f) / 2 = f by omega]; exact hper)
        unfold Closed at hc
        rw [show (2 * f) / 2 = f by omega] at hc
        rw [(wall_values C hT hi' hV hf hper hs).2, hc]
  rw [e1, e2]
  ring

/-- The pressure does no work on a velocity without divergence. -/
theorem gradient_work {N M : ℕ} {D Gr : Mat K} {vol v : ℤ → K}
    (hDG : ∀ x y : ℤ, 0 ≤ x → x < M → 0 ≤ y → y < N → D x y = -(vol y * Gr y x))
    (hD : ∀ x : ℤ, 0 ≤ x → x < M → Mat.mult N D v x = 0) (p : ℤ → K) : work N vol v (Mat.mult M Gr p) = 0 := by
  have e : work N vol v (Mat.mult M Gr p) = -∑ x ∈ Finset.range M, p x * Mat.mult N D v x := by
    unfold work Mat.mult
    simp only [Finset.mul_sum]
    rw [Finset.sum_comm, ← Finset.sum_neg_distrib]
    refine Finset.sum_congr rfl fun x hx => ?_
    rw [← Finset.sum_neg_distrib]
    refine Finset.sum_congr rfl fun y hy => ?_
    have hx := Finset.mem_range.1 hx
    have hy := Finset.mem_range.1 hy
    rw [hDG x y (by omega) (by omega) (by omega) (by omega)]
    ring
  rw [e, Finset.sum_eq_zero, neg_zero]
  intro x hx
  have hx := Finset.mem_range.1 hx
  rw [hD x (by omega) (by omega), mul_zero]

/-- Energy balance of one step, pointwise data. -/
theorem step_balance {N : ℕ} {vol u q v g g' γ l c m : ℤ → K} {dt nu θ : K}
    (hm : ∀ i : ℤ, 0 ≤ i → i < N → m i = θ * q i + (1 - θ) * u i)
    (hq : ∀ i : ℤ, 0 ≤ i → i < N → q i - u i = dt * (-g i - c i + nu * l i))
    (hv : ∀ i : ℤ, 0 ≤ i → i < N → v i = q i - dt * γ i)
    (hg : ∀ i : ℤ, 0 ≤ i → i < N → g' i = g i + γ i) (h1 : work N vol v g = 0) (h2 : work N vol v γ = 0) (h3 : (1 - θ) * work N vol u g = 0) :
    kinetic N vol v + θ * dt ^ 2 * kinetic N vol g' + (1 - θ) * dt ^ 2 * kinetic N vol γ + (2 * θ - 1) * kinetic N vol (fun i => q i - u i) =
      kinetic N vol u + θ * dt ^ 2 * kinetic N vol g + 2 * dt * nu * work N vol m l - 2 * dt * work N vol m c := by
  have e : kinetic N vol v + θ * dt ^ 2 * kinetic N vol g' + (1 - θ) * dt ^ 2 * kinetic N vol γ + (2 * θ - 1) * kinetic N vol (fun i => q i - u i) -
      (kinetic N vol u + θ * dt ^ 2 * kinetic N vol g + 2 * dt * nu * work N vol m l - 2 * dt * work N vol m c) =
      -(2 * dt * θ) * work N vol v g - 2 * dt * ((1 - θ) * work N vol u g) - 2 * dt * work N vol v γ := by
    unfold kinetic work
    simp only [Finset.mul_sum]
    simp only [← Finset.sum_add_distrib, ← Finset.sum_sub_distrib]
    refine Finset.sum_congr rfl fun i hi => ?_
    have hi := Finset.mem_range.1 hi
    have a1 := hm i (by omega) (by omega)
    have a2 := hq i (by omega) (by omega)
    have a3 := hv i (by omega) (by omega)
    have a4 := hg i (by omega) (by omega)
    rw [a4, a1, a3]
    linear_combination 2 * vol i * (θ * q i + (1 - θ) * u i) * a2
  rw [h1, h2, h3] at e
  linarith

end PetIBM
