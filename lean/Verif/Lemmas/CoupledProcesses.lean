/-
The coupled solver with two distributions over processes.
-/
import Verif.Lemmas.BodyProcessesRun

set_option linter.unusedSectionVars false

namespace PetIBM

open Spec

variable {K : Type} [Field K] [LinearOrder K] [IsStrictOrderedRing K]
variable {debug : Bool} {L₁ L₂ : Layout} {G : Geom K} {axes : ℕ → Axis K} {T : BCTable K} {B₁ B₂ : ℕ → Boundary K}
variable {P : NSParams K} {flow : Option (FlowNode K)} {o₁ o₂ : NSOps K} {disk₁ disk₁' disk₂ disk₂' : Disk K}
variable {P₁ P₂ : BodyPack K}

/-! ### Composite vectors -/

theorem subPressure_at (counts : List (ℕ × ℕ)) (x : ℤ → K) (a : ℕ) : subPressure counts x a = x (nestPos counts (.inl a) : ℕ) := by
  unfold subPressure
  rw [if_pos (by omega), Int.toNat_natCast]

theorem subForces_at (counts : List (ℕ × ℕ)) (x : ℤ → K) (b : ℕ) : subForces counts x b = x (nestPos counts (.inr b) : ℕ) := by
  unfold subForces
  rw [if_pos (by omega), Int.toNat_natCast]

/-- composite vectors that hold the same pressures and forces -/
def SameComp (L₁ L₂ : Layout) (P₁ P₂ : BodyPack K) (φ₁ φ₂ : ℤ → K) : Prop :=
  SameAt L₁ L₂ 3 (subPressure (nestCounts L₁ P₁) φ₁) (subPressure (nestCounts L₂ P₂) φ₂) ∧
    SameLag P₁ P₂ (subForces (nestCounts L₁ P₁) φ₁) (subForces (nestCounts L₂ P₂) φ₂)

/-- the position of a cell in the composite vector -/
theorem cell_pos {L : Layout} (hL : LayoutOK L) {P : BodyPack K} (fit : BodiesOK L P) {s : Stencil} (hs : Inside L.toMeshInfo 3 s) :
    ∃ m : ℕ, m < L.pN + P.nPts * P.dim ∧ (∀ x : ℤ → K, subPressure (nestCounts L P) x (col L 3 s) = x m) ∧
      ∀ p f : ℤ → K, nestVec (nestCounts L P) p f m = p (col L 3 s) := by
  obtain ⟨r0, r1⟩ := pcol_range hL hs
  obtain ⟨a, ha⟩ := Int.eq_ofNat_of_zero_le r0
  obtain ⟨c1, c2⟩ := sum_counts hL fit
  have hlt : a < ((nestCounts L P).map (·.1)).sum := by rw [c1]; omega
  refine ⟨nestPos (nestCounts L P) (.inl a), ?_, ?_, ?_⟩
  · have := ((nestSplit_pos (nestCounts L P) 0 0).1 a hlt).2
    rwa [c1, c2] at this
  · intro x
    rw [ha, subPressure_at]
  · intro p f
    rw [ha, nestVec_pressure _ _ hlt]

/-- the position of a force in the composite vector -/
theorem force_pos {L : Layout} (hL : LayoutOK L) {P : BodyPack K} (fit : BodiesOK L P) {i : ℤ} (i0 : 0 ≤ i) (i1 : i < (P.nPts * P.dim : ℕ)) :
    ∃ m : ℕ, m < L.pN + P.nPts * P.dim ∧ (∀ x : ℤ → K, subForces (nestCounts L P) x i = x m) ∧
      ∀ p f : ℤ → K, nestVec (nestCounts L P) p f m = f i := by
  obtain ⟨b, rfl⟩ := Int.eq_ofNat_of_zero_le i0
  obtain ⟨c1, c2⟩ := sum_counts hL fit
  have hlt : b < ((nestCounts L P).map (·.2)).sum := by rw [c2]; omega
  refine ⟨nestPos (nestCounts L P) (.inr b), ?_, ?_, ?_⟩
  · have := ((nestSplit_pos (nestCounts L P) 0 0).2 b hlt).2
    rwa [c1, c2] at this
  · intro x
    rw [subForces_at]
  · intro p f
    rw [nestVec_force _ _ hlt]

/-- every position of the composite vector is that of a cell or of a force -/
theorem comp_cases {L : Layout} (hL : LayoutOK L) {P : BodyPack K} (fit : BodiesOK L P) {i : ℤ} (i0 : 0 ≤ i) (i1 : i < (L.pN + P.nPts * P.dim : ℕ)) :
    (∃ s, Inside L.toMeshInfo 3 s ∧ ∀ x : ℤ → K, subPressure (nestCounts L P) x (col L 3 s) = x i) ∨
    ∃ k : ℤ, 0 ≤ k ∧ k < (P.nPts * P.dim : ℕ) ∧ ∀ x : ℤ → K, subForces (nestCounts L P) x k = x i := by
  obtain ⟨m, rfl⟩ := Int.eq_ofNat_of_zero_le i0
  obtain ⟨c1, c2⟩ := sum_counts hL fit
  rcases nestPos_split (nestCounts L P) 0 0 m (by rw [c1, c2]; omega) with ⟨a, ha, -, e⟩ | ⟨b, hb, -, e⟩
  · left
    rw [c1] at ha
    obtain ⟨q, ⟨⟨q0, q1, q2⟩, hq⟩, -⟩ := (C04_pressure_index_bijective false L hL 0).2 a (by omega) (by omega)
    refine ⟨⟨q.2.2, q.2.1, q.1, 0⟩, ⟨fun d hd => ?_, rfl⟩, fun x => ?_⟩
    · interval_cases d <;> simp [coordOf] <;> omega
    · have : col L 3 ⟨q.2.2, q.2.1, q.1, 0⟩ = (a : ℤ) := by
        unfold col
        simp only [Nat.cast_zero] at hq
        rw [hq]
      rw [this, subPressure_at, e]
  · right
    rw [c2] at hb
    exact ⟨b, by omega, by omega, fun x => by rw [subForces_at, e]⟩

theorem exists_sameComp (l1 : LayoutOK L₁) (l2 : LayoutOK L₂) (hM : L₂.toMeshInfo = L₁.toMeshInfo) (fit₁ : BodiesOK L₁ P₁) (fit₂ : BodiesOK L₂ P₂)
    (hB : SameBodies P₁ P₂) (φ : ℤ → K) : ∃ φ', SameComp L₁ L₂ P₁ P₂ φ φ' := by
  obtain ⟨p, hp⟩ := exists_sameCells (L₁ := L₁) l2 hM (subPressure (nestCounts L₁ P₁) φ)
  obtain ⟨f, hf⟩ := exists_sameLag fit₂.pack hB (subForces (nestCounts L₁ P₁) φ)
  refine ⟨nestVec (nestCounts L₂ P₂) p f, ?_, ?_⟩
  · intro s hs
    obtain ⟨m, -, a, b⟩ := cell_pos (K := K) l2 fit₂ (s := s) (by rw [hM]; exact hs)
    rw [a, b]
    exact hp s hs
  · intro x y hxy
    obtain ⟨-, y0, y1⟩ := hxy.range fit₁.pack fit₂.pack hB
    obtain ⟨m, -, a, b⟩ := force_pos (K := K) l2 fit₂ y0 y1
    rw [a, b]
    exact hf x y hxy

/-- equal composite vectors of one distribution correspond to equal ones of the other -/
theorem comp_eq (l1 : LayoutOK L₁) (l2 : LayoutOK L₂) (hM : L₂.toMeshInfo = L₁.toMeshInfo) (fit₁ : BodiesOK L₁ P₁) (fit₂ : BodiesOK L₂ P₂)
    (hB : SameBodies P₁ P₂) {x₁ x₂ y₁ y₂ : ℤ → K} (hx : SameComp L₁ L₂ P₁ P₂ x₁ x₂) (hy : SameComp L₁ L₂ P₁ P₂ y₁ y₂)
    (h : ∀ i : ℤ, 0 ≤ i → i < (L₁.pN + P₁.nPts * P₁.dim : ℕ) → x₁ i = y₁ i) : ∀ i : ℤ, 0 ≤ i → i < (L₂.pN + P₂.nPts * P₂.dim : ℕ) → x₂ i = y₂ i := by
  intro i i0 i1
  rcases comp_cases (K := K) l2 fit₂ i0 i1 with ⟨s, hs, e⟩ | ⟨k, k0, k1, e⟩
  · have hs1 : Inside L₁.toMeshInfo 3 s := by rw [← hM]; exact hs
    obtain ⟨m, hm, a, -⟩ := cell_pos (K := K) l1 fit₁ hs1
    rw [← e x₂, ← e y₂, ← hx.1 s hs1, ← hy.1 s hs1, a, a]
    exact h m (by omega) (by omega)
  · obtain ⟨y, hr⟩ := exists_row fit₂.pack fit₁.pack hB.symm k0 k1
    have hr := hr.symm hB.symm
    obtain ⟨⟨a0, a1⟩, -⟩ := hr.range fit₁.pack fit₂.pack hB
    obtain ⟨m, hm, a, -⟩ := force_pos (K := K) l1 fit₁ a0 a1
    rw [← e x₂, ← e y₂, ← hx.2 y k hr, ← hy.2 y k hr, a, a]
    exact h m (by omega) (by omega)

theorem SameComp.vec (l1 : LayoutOK L₁) (l2 : LayoutOK L₂) (hM : L₂.toMeshInfo = L₁.toMeshInfo) (fit₁ : BodiesOK L₁ P₁) (fit₂ : BodiesOK L₂ P₂)
    (hB : SameBodies P₁ P₂) {x₁ x₂ : ℤ → K} (hx : SameComp L₁ L₂ P₁ P₂ x₁ x₂) {n₁ n₂ : ℕ} (e1 : n₁ = L₁.pN + P₁.nPts * P₁.dim)
    (e2 : n₂ = L₂.pN + P₂.nPts * P₂.dim) : SameComp L₁ L₂ P₁ P₂ (PetIBM.vec n₁ x₁) (PetIBM.vec n₂ x₂) := by
  constructor
  · intro s hs
    obtain ⟨m, hm, a, -⟩ := cell_pos (K := K) l1 fit₁ hs
    obtain ⟨m', hm', a', -⟩ := cell_pos (K := K) l2 fit₂ (s := s) (by rw [hM]; exact hs)
    have := hx.1 s hs
    rw [a, a'] at this ⊢
    rw [PetIBM.vec, PetIBM.vec, if_pos ⟨by omega, by omega⟩, if_pos ⟨by omega, by omega⟩, this]
  · intro x y hxy
    obtain ⟨⟨a0, a1⟩, b0, b1⟩ := hxy.range fit₁.pack fit₂.pack hB
    obtain ⟨m, hm, a, -⟩ := force_pos (K := K) l1 fit₁ a0 a1
    obtain ⟨m', hm', a', -⟩ := force_pos (K := K) l2 fit₂ b0 b1
    have := hx.2 x y hxy
    rw [a, a'] at this ⊢
    rw [PetIBM.vec, PetIBM.vec, if_pos ⟨by omega, by omega⟩, if_pos ⟨by omega, by omega⟩, this]

/-! ### Operators -/

/-- corresponding operators of the coupled solver -/
structure SameCoupled (L₁ L₂ : Layout) (P₁ P₂ : BodyPack K) (o₁ o₂ : NSOps K) (B₁ B₂ : ℕ → Boundary K) (u₁ u₂ : ℤ → K) : Prop where
  size : o₁.pN = L₁.pN + P₁.nPts * P₁.dim ∧ o₂.pN = L₂.pN + P₂.nPts * P₂.dim
  ref : o₁.isRefP = false ∧ o₂.isRefP = false
  lap : ∀ q₁ q₂ : ℤ → K, SameVel L₁ L₂ q₁ q₂ → SameVel L₁ L₂ (Mat.mult L₁.UN o₁.L q₁) (Mat.mult L₂.UN o₂.L q₂)
  lapCorr : ∀ k₁ k₂ : List (Boundary.Op K), SameGhosts L₁ L₂ (fun r => (B₁ r).run ([.setGhostICs u₁] ++ k₁)) (fun r => (B₂ r).run ([.setGhostICs u₂] ++ k₂)) →
    SameVel L₁ L₂ (correctionMult L₁ (fun r => (B₁ r).run ([.setGhostICs u₁] ++ k₁)) o₁.Lmods)
      (correctionMult L₂ (fun r => (B₂ r).run ([.setGhostICs u₂] ++ k₂)) o₂.Lmods)
  div : ∀ q₁ q₂ : ℤ → K, SameVel L₁ L₂ q₁ q₂ → SameComp L₁ L₂ P₁ P₂ (Mat.mult L₁.UN o₁.D q₁) (Mat.mult L₂.UN o₂.D q₂)
  divCorr : ∀ k₁ k₂ : List (Boundary.Op K), SameGhosts L₁ L₂ (fun r => (B₁ r).run ([.setGhostICs u₁] ++ k₁)) (fun r => (B₂ r).run ([.setGhostICs u₂] ++ k₂)) →
    SameAt L₁ L₂ 3 (correctionMult L₁ (fun r => (B₁ r).run ([.setGhostICs u₁] ++ k₁)) o₁.Dmods)
      (correctionMult L₂ (fun r => (B₂ r).run ([.setGhostICs u₂] ++ k₂)) o₂.Dmods)
  grad : ∀ p₁ p₂ : ℤ → K, SameComp L₁ L₂ P₁ P₂ p₁ p₂ → SameVel L₁ L₂ (Mat.mult o₁.pN o₁.G p₁) (Mat.mult o₂.pN o₂.G p₂)
  impl : ∀ q₁ q₂ : ℤ → K, SameVel L₁ L₂ q₁ q₂ → SameVel L₁ L₂ (Mat.mult L₁.UN o₁.A q₁) (Mat.mult L₂.UN o₂.A q₂)
  bng : ∀ p₁ p₂ : ℤ → K, SameComp L₁ L₂ P₁ P₂ p₁ p₂ → SameVel L₁ L₂ (Mat.mult o₁.pN o₁.BNG p₁) (Mat.mult o₂.pN o₂.BNG p₂)
  dbng : ∀ p₁ p₂ : ℤ → K, SameComp L₁ L₂ P₁ P₂ p₁ p₂ → SameComp L₁ L₂ P₁ P₂ (Mat.mult o₁.pN o₁.DBNG p₁) (Mat.mult o₂.pN o₂.DBNG p₂)

theorem mult_nestRows {L : Layout} (hL : LayoutOK L) {P : BodyPack K} (fit : BodiesOK L P) (D E : Mat K) (q : ℤ → K) :
    (∀ s, Inside L.toMeshInfo 3 s → subPressure (nestCounts L P) (Mat.mult L.UN (Mat.nestRows (nestCounts L P) D E) q) (col L 3 s) =
      Mat.mult L.UN D q (col L 3 s)) ∧
    ∀ i : ℤ, 0 ≤ i → i < (P.nPts * P.dim : ℕ) → subForces (nestCounts L P) (Mat.mult L.UN (Mat.nestRows (nestCounts L P) D E) q) i = Mat.mult L.UN E q i := by
  obtain ⟨c1, c2⟩ := sum_counts hL fit
  constructor
  · intro s hs
    obtain ⟨r0, r1⟩ := pcol_range hL hs
    obtain ⟨a, ha⟩ := Int.eq_ofNat_of_zero_le r0
    rw [ha, subPressure_at]
    unfold Mat.mult
    refine Finset.sum_congr rfl fun c _ => ?_
    rw [nestRows_pressure _ _ (by rw [c1]; omega)]
  · intro i i0 i1
    obtain ⟨b, rfl⟩ := Int.eq_ofNat_of_zero_le i0
    rw [subForces_at]
    unfold Mat.mult
    refine Finset.sum_congr rfl fun c _ => ?_
    rw [nestRows_force _ _ (by rw [c2]; omega)]

theorem sameCoupled (C₁ : Constructed debug L₁ G axes T B₁) (C₂ : Constructed debug L₂ G axes T B₂) (hM : L₂.toMeshInfo = L₁.toMeshInfo)
    (hn : ∀ f d, f < L₁.dim → d < L₁.dim → L₁.periodic 0 d = true → 3 ≤ L₁.n f d) (fit₁ : BodiesOK L₁ P₁) (fit₂ : BodiesOK L₂ P₂)
    (hB : SameBodies P₁ P₂) (one : OneWidth L₁ axes P₁) (hp : P.pType = .ksp) {u₁ u₂ : ℤ → K} (hu : SameVel L₁ L₂ u₁ u₂)
    {kernel : DeltaKernel K} {w : ℕ} {E₁ H₁ E₂ H₂ : Mat K}
    (e1 : ibpmCreateOperators debug L₁ G axes P (fun r => (B₁ r).run [.setGhostICs u₁]) P₁ kernel w = .ok (o₁, E₁, H₁))
    (e2 : ibpmCreateOperators debug L₂ G axes P (fun r => (B₂ r).run [.setGhostICs u₂]) P₂ kernel w = .ok (o₂, E₂, H₂)) :
    SameCoupled L₁ L₂ P₁ P₂ o₁ o₂ B₁ B₂ u₁ u₂ := by
  have l1 := C₁.setup.layout
  have l2 := C₂.setup.layout
  have hg := sameGhosts_init C₁ C₂ hM hu
  have hn2 : ∀ f, f < L₁.dim → L₁.periodic 0 f = true → 2 ≤ L₁.n f f := fun f hf hp => by
    have := hn f f hf hf hp
    omega
  have hn3 : ∀ f, f < L₁.dim → L₁.periodic 0 f = true → 2 ≤ L₁.n 3 f := fun f hf hp =>
    (hn2 f hf hp).trans (C₁.setup.n_le f f hf (by have := C₁.setup.dim_le; omega))
  obtain ⟨D₁, Dm₁, G₁, La₁, Lm₁, N₁, idx₁, a1, a2, a3, a4, a5, a6, rfl⟩ := ibpmCreate_ok e1
  obtain ⟨D₂, Dm₂, G₂, La₂, Lm₂, N₂, idx₂, b1, b2, b3, b4, b5, b6, rfl⟩ := ibpmCreate_ok e2
  obtain ⟨Δ₁, x1, x2, x3⟩ := createEH_ok C₁.setup a5
  obtain ⟨Δ₂, y1, y2, y3⟩ := createEH_ok C₂.setup b5
  rw [createDelta_run C₁] at x1
  rw [createDelta_run C₂] at y1
  subst x2 y2
  have hD := delta_same C₁ C₂ hM fit₁ fit₂ hB one ⟨idx₁, a4, x1⟩ ⟨idx₂, b4, y1⟩
  obtain ⟨vol₁, v1⟩ := exists_volume C₁.setup debug
  obtain ⟨vol₂, v2⟩ := exists_volume C₂.setup debug
  obtain ⟨lap, lapC⟩ := laplacian_same C₁ C₂ hM hn ⟨u₁, [], rfl⟩ ⟨u₂, [], rfl⟩ hg a3 b3
  obtain ⟨dv, dvC⟩ := divergence_same C₁ C₂ hM hn2 ⟨u₁, [], rfl⟩ ⟨u₂, [], rfl⟩ hg a1 b1
  have bn := bn_same l1 l2 hM lap a6 b6
  have gr : ∀ p₁ p₂ : ℤ → K, SameComp L₁ L₂ P₁ P₂ p₁ p₂ →
      SameVel L₁ L₂ (Mat.mult (L₁.pN + P₁.nPts * P₁.dim) (Mat.nestCols (nestCounts L₁ P₁) G₁ (Mat.scale (Mat.transpose Δ₁) (-1))) p₁)
        (Mat.mult (L₂.pN + P₂.nPts * P₂.dim) (Mat.nestCols (nestCounts L₂ P₂) G₂ (Mat.scale (Mat.transpose Δ₂) (-1))) p₂) := by
    intro p₁ p₂ hp f hf s hs
    rw [composite_gradient l1 fit₁, composite_gradient l2 fit₂]
    rw [gradient_same C₁.setup C₂.setup hM hn3 a2 b2 hp.1 f hf s hs]
    congr 1
    exact spread_same fit₁.pack fit₂.pack hB hD hp.2 f hf s hs
  have dv' : ∀ q₁ q₂ : ℤ → K, SameVel L₁ L₂ q₁ q₂ → SameComp L₁ L₂ P₁ P₂ (Mat.mult L₁.UN (Mat.nestRows (nestCounts L₁ P₁) D₁ E₁) q₁)
      (Mat.mult L₂.UN (Mat.nestRows (nestCounts L₂ P₂) D₂ E₂) q₂) := by
    intro q₁ q₂ hq
    constructor
    · intro s hs
      rw [(mult_nestRows l1 fit₁ D₁ E₁ q₁).1 s hs, (mult_nestRows l2 fit₂ D₂ E₂ q₂).1 s (by rw [hM]; exact hs)]
      exact dv q₁ q₂ hq s hs
    · intro x y hxy
      obtain ⟨⟨i0, i1⟩, j0, j1⟩ := hxy.range fit₁.pack fit₂.pack hB
      rw [(mult_nestRows l1 fit₁ D₁ E₁ q₁).2 x i0 i1, (mult_nestRows l2 fit₂ D₂ E₂ q₂).2 y j0 j1]
      exact interpolate_same l1 l2 hM (volume_same l1 l2 hM v1 v2) hD (x3 vol₁ v1) (y3 vol₂ v2) hq x y hxy
  have bng : ∀ p₁ p₂ : ℤ → K, SameComp L₁ L₂ P₁ P₂ p₁ p₂ →
      SameVel L₁ L₂ (Mat.mult (L₁.pN + P₁.nPts * P₁.dim) (Mat.mul L₁.UN N₁ (Mat.nestCols (nestCounts L₁ P₁) G₁ (Mat.scale (Mat.transpose Δ₁) (-1)))) p₁)
        (Mat.mult (L₂.pN + P₂.nPts * P₂.dim) (Mat.mul L₂.UN N₂ (Mat.nestCols (nestCounts L₂ P₂) G₂ (Mat.scale (Mat.transpose Δ₂) (-1)))) p₂) := by
    intro p₁ p₂ hp f hf s hs
    rw [mult_mul, mult_mul]
    exact bn _ _ (gr p₁ p₂ hp) f hf s hs
  refine ⟨⟨rfl, rfl⟩, ⟨by simp [setNullSpace, hp], by simp [setNullSpace, hp]⟩, lap, lapC, dv', dvC, gr, ?_, bng, ?_⟩
  · intro q₁ q₂ hq f hf s hs
    show Mat.mult L₁.UN (Mat.shift (Mat.scale La₁ _) _) q₁ _ = Mat.mult L₂.UN (Mat.shift (Mat.scale La₂ _) _) q₂ _
    have hs2 : Inside L₂.toMeshInfo f s := by rw [hM]; exact hs
    have hf2 : f < L₂.dim := by rw [hM]; exact hf
    obtain ⟨u, -, hu, hc, ht⟩ := exists_unknown l1 hf hs
    obtain ⟨v, -, hv, hvc, hvs⟩ := exists_unknown l2 hf2 hs2
    have a := col_range l1 hu
    have b := col_range l2 hv
    rw [hvc, hvs] at b
    rw [hc, ht] at a
    rw [mult_implicit La₁ _ _ _ a.1 a.2, mult_implicit La₂ _ _ _ b.1 b.2, lap q₁ q₂ hq f hf s hs, hq f hf s hs]
  · intro p₁ p₂ hp'
    simp only [setNullSpace, hp]
    have := dv' _ _ (bng p₁ p₂ hp')
    have e : ∀ (N M : ℕ) (A C : Mat K) (φ : ℤ → K), Mat.mult M (Mat.mul N A C) φ = Mat.mult N A (Mat.mult M C φ) := fun N M A C φ =>
      funext fun i => mult_mul ..
    simp only [e] at this ⊢
    exact this

/-- the right-hand side of the composite system -/
theorem compositeRhs_same (l1 : LayoutOK L₁) (l2 : LayoutOK L₂) (hM : L₂.toMeshInfo = L₁.toMeshInfo) (fit₁ : BodiesOK L₁ P₁) (fit₂ : BodiesOK L₂ P₂)
    (hB : SameBodies P₁ P₂) {u₁ u₂ : ℤ → K} (O : SameCoupled L₁ L₂ P₁ P₂ o₁ o₂ B₁ B₂ u₁ u₂) {s₁ s₂ : NSState K} (hU : SameVel L₁ L₂ s₁.U s₂.U)
    (hc : SameAt L₁ L₂ 3 (correctionMult L₁ s₁.B o₁.Dmods) (correctionMult L₂ s₂.B o₂.Dmods)) :
    SameComp L₁ L₂ P₁ P₂ (ibpmRHSPoisson L₁ (nestCounts L₁ P₁) o₁ s₁) (ibpmRHSPoisson L₂ (nestCounts L₂ P₂) o₂ s₂) := by
  have hd := SameComp.vec l1 l2 hM fit₁ fit₂ hB (O.div _ _ hU) O.size.1 O.size.2
  unfold ibpmRHSPoisson
  rw [O.ref.1, O.ref.2]
  simp only [Bool.false_eq_true, if_false]
  constructor
  · intro s hs
    have hs2 : Inside L₂.toMeshInfo 3 s := by rw [hM]; exact hs
    obtain ⟨m, -, a, b⟩ := cell_pos (K := K) l1 fit₁ hs
    obtain ⟨m', -, a', b'⟩ := cell_pos (K := K) l2 fit₂ hs2
    rw [a, b, a', b', vec_pcol l1 hs, vec_pcol l2 hs2, hd.1 s hs, hc s hs]
  · intro x y hxy
    obtain ⟨⟨a0, a1⟩, b0, b1⟩ := hxy.range fit₁.pack fit₂.pack hB
    obtain ⟨m, hm, a, b⟩ := force_pos (K := K) l1 fit₁ a0 a1
    obtain ⟨m', hm', a', b'⟩ := force_pos (K := K) l2 fit₂ b0 b1
    rw [a, b, a', b']
    exact hd.2 x y hxy

/-! ### Steps -/

variable {kernel : DeltaKernel K} {window : ℕ}

theorem same_coupled {i₁ i₂ : NSState K} (S₁ : CoupledStarted debug L₁ G axes T B₁ P flow P₁ kernel window o₁ disk₁ i₁ disk₁')
    (S₂ : CoupledStarted debug L₂ G axes T B₂ P flow P₂ kernel window o₂ disk₂ i₂ disk₂')
    (hM : L₂.toMeshInfo = L₁.toMeshInfo) (hB : SameBodies P₁ P₂) (hn : ∀ f d, f < L₁.dim → d < L₁.dim → L₁.periodic 0 d = true → 3 ≤ L₁.n f d)
    (know₁ : ∀ u, IsUnknown L₁ u → KnowsWalls L₁ T u.rank u.comp ⟨u.k, u.j, u.i, 0⟩)
    (know₂ : ∀ u, IsUnknown L₂ u → KnowsWalls L₂ T u.rank u.comp ⟨u.k, u.j, u.i, 0⟩) (hdt : 0 < P.dt) (hnu : 0 ≤ P.nu) (hp : P.pType = .ksp)
    (hT : ∀ f loc, f < L₂.dim → loc / 2 = f → (T f loc).1 ≠ .NEUMANN) (hBN : GoodOrder L₂ P o₂.A)
    {v₁ p₁ v₂ p₂ : LinSolve K} (hv1 : Solves L₁.UN v₁ o₁.A) (hp1 : Solves o₁.pN p₁ o₁.DBNG) (hv2 : Solves L₂.UN v₂ o₂.A)
    (hp2 : Solves o₂.pN p₂ o₂.DBNG) {u₁ u₂ : ℤ → K} (O : SameCoupled L₁ L₂ P₁ P₂ o₁ o₂ B₁ B₂ u₁ u₂)
    {s₁ s₂ s₁' s₂' : NSState K} (R₁ : Reach L₁ B₁ P o₁.pN u₁ s₁)
    (R₂ : Reach L₂ B₂ P o₂.pN u₂ s₂) (hs : SameKin L₁ L₂ s₁ s₂) (hgrad : SameVel L₁ L₂ (Mat.mult o₁.pN o₁.G s₁.p) (Mat.mult o₂.pN o₂.G s₂.p))
    (a₁ : ibpmAdvance L₁ G P (nestCounts L₁ P₁) o₁ v₁ p₁ s₁ = .ok s₁') (a₂ : ibpmAdvance L₂ G P (nestCounts L₂ P₂) o₂ v₂ p₂ s₂ = .ok s₂') :
    SameKin L₁ L₂ s₁' s₂' ∧ SameVel L₁ L₂ (Mat.mult o₁.pN o₁.G s₁'.p) (Mat.mult o₂.pN o₂.G s₂'.p) := by
  have C₁ := S₁.constructed
  have C₂ := S₂.constructed
  have l1 := C₁.setup.layout
  have l2 := C₂.setup.layout
  obtain ⟨w₁, U₁, d₁, x1, x2, x3, g₁⟩ := coupled_ok C₁ S₁.schemes.1.1 S₁.schemes.2.1 R₁ a₁
  obtain ⟨w₂, U₂, d₂, y1, y2, y3, g₂⟩ := coupled_ok C₂ S₂.schemes.1.1 S₂.schemes.2.1 R₂ a₂
  obtain ⟨w, U, d, z1, z2, z3, x4, x5, x6, x7, x8, x9, x10, x11⟩ := advance_ok C₁ S₁.schemes.1.1 S₁.schemes.2.1 R₁ g₁
  rw [x1] at z1
  cases z1
  rw [x2] at z2
  cases z2
  cases z3
  obtain ⟨w, U, d, z1, z2, z3, y4, y5, y6, y7, y8, y9, y10, y11⟩ := advance_ok C₂ S₂.schemes.1.1 S₂.schemes.2.1 R₂ g₂
  rw [y1] at z1
  cases z1
  rw [y2] at z2
  cases z2
  cases z3
  obtain ⟨hconv, hdiff, ⟨k₁, k₂, run1, run2, ge'⟩, hrhs⟩ := same_rhs C₁ C₂ hM know₁ know₂ O.lap O.lapCorr R₁ R₂ hs hgrad x1 y1
  have hU : SameVel L₁ L₂ U₁ U₂ := by
    refine same_solution l1 l2 hM O.impl hrhs (fun i i0 i1 => hv1 _ _ _ x2 i i0 i1) (fun i i0 i1 => hv2 _ _ _ y2 i i0 i1) ?_
    obtain ⟨u, E, H, hops, _⟩ := S₂.reach
    obtain ⟨D, Dm, Gr, La, Lm, BN, idx, o1, o2, o3, o4, o5, o6, e⟩ := ibpmCreate_ok hops
    rw [show o₂.A = Mat.shift (Mat.scale La (-P.diff.implicitCoeff * P.nu)) (1 / P.dt) by rw [e]]
    exact velocity_unique C₂ (fun f d hf hd hp => by
      have := hn f d (by rw [← hM]; exact hf) (by rw [← hM]; exact hd) (by rw [← hM]; exact hp)
      rw [hM]; omega) o3 (implicit_nonneg S₂.params) hdt hnu _
  have hc : SameAt L₁ L₂ 3 (correctionMult L₁ (fun r => (s₁.B r).updateEqs s₁.U P.dt) o₁.Dmods)
      (correctionMult L₂ (fun r => (s₂.B r).updateEqs s₂.U P.dt) o₂.Dmods) := by
    rw [run1, run2]
    exact O.divCorr _ _ ge'
  have hprhs := compositeRhs_same l1 l2 hM S₁.fit S₂.fit hB O
    (s₁ := { s₁ with U := vec L₁.UN U₁, B := fun r => (s₁.B r).updateEqs s₁.U P.dt })
    (s₂ := { s₂ with U := vec L₂.UN U₂, B := fun r => (s₂.B r).updateEqs s₂.U P.dt }) (hU.vec l1 l2 hM) hc
  obtain ⟨φ, hφ⟩ := exists_sameComp l1 l2 hM S₁.fit S₂.fit hB d₁
  have sol1 := hp1 _ _ _ x3
  have sol2 := hp2 _ _ _ y3
  have sol := comp_eq l1 l2 hM S₁.fit S₂.fit hB (O.dbng _ _ hφ) hprhs (by rw [← O.size.1]; exact sol1)
  rw [← O.size.2] at sol
  have vec_in : ∀ (n : ℕ) (A : Mat K) (x : ℤ → K) (i : ℤ), Mat.mult n A (vec n x) i = Mat.mult n A x i := by
    intro n A x i
    refine mult_congr (fun j j0 j1 => ?_) i
    unfold vec
    rw [if_pos ⟨j0, j1⟩]
  have hd : SameVel L₁ L₂ (Mat.mult o₁.pN o₁.BNG (vec o₁.pN d₁)) (Mat.mult o₂.pN o₂.BNG (vec o₂.pN d₂)) ∧
      SameVel L₁ L₂ (Mat.mult o₁.pN o₁.G (vec o₁.pN d₁)) (Mat.mult o₂.pN o₂.G (vec o₂.pN d₂)) := by
    have c := (C62_coupled_system_partial S₂ hT hBN hp hdt).2 _ φ d₂ sol sol2
    obtain ⟨Δ, Gr, -, -, -, hq⟩ := composite_definite S₂ hT hBN hp hdt
    have g := (hq fun j => φ j + -1 * d₂ j).2 (by
      unfold quadratic
      refine Finset.sum_eq_zero fun i hi => ?_
      have := Finset.mem_range.1 hi
      rw [mult_sub, sol i (by omega) (by omega), sol2 i (by omega) (by omega), sub_self, mul_zero])
    constructor
    · intro f hf s hin
      rw [vec_in, vec_in, O.bng _ _ hφ f hf s hin]
      obtain ⟨v, -, hv, rfl, rfl⟩ := exists_unknown l2 (f := f) (s := s) (by rw [hM]; exact hf) (by rw [hM]; exact hin)
      have r := col_range l2 hv
      exact c _ r.1 r.2
    · intro f hf s hin
      rw [vec_in, vec_in, O.grad _ _ hφ f hf s hin]
      obtain ⟨v, -, hv, rfl, rfl⟩ := exists_unknown l2 (f := f) (s := s) (by rw [hM]; exact hf) (by rw [hM]; exact hin)
      have r := col_range l2 hv
      have := g _ r.1 r.2
      rw [mult_sub] at this
      exact sub_eq_zero.1 this
  rw [← x7, ← y7] at hconv
  rw [← x8, ← y8] at hdiff
  have hvel : SameVel L₁ L₂ s₁'.U s₂'.U := by
    rw [x4, y4]
    intro f hf s hin
    have hf2 : f < L₂.dim := by rw [hM]; exact hf
    have hin2 : Inside L₂.toMeshInfo f s := by rw [hM]; exact hin
    unfold projected
    rw [vec_col l1 hf hin, vec_col l1 hf hin, vec_col l2 hf2 hin2, vec_col l2 hf2 hin2, hU f hf s hin, hd.1 f hf s hin]
  refine ⟨⟨hvel, fun _ _ h => SameVel.pushTerm hconv h, fun _ _ h => SameVel.pushTerm hdiff h, ?_, ?_⟩, ?_⟩
  · rw [x9, y9]
    have := (SameGhosts.step l1 l2 hM (C₁.ghosts _) (C₂.ghosts _) ge' hvel P.dt).2
    have f1 := fun r => congrFun run1 r
    have f2 := fun r => congrFun run2 r
    simp only [← f1, ← f2] at this
    exact this
  · rw [x10, y10, x11, y11, hs.time.1, hs.time.2]
    exact ⟨rfl, rfl⟩
  · have add : ∀ (n : ℕ) (A : Mat K) (x y : ℤ → K) (i : ℤ), Mat.mult n A (fun i => x i + 1 * y i) i = Mat.mult n A x i + Mat.mult n A y i := by
      intro n A x y i
      unfold Mat.mult
      rw [← Finset.sum_add_distrib]
      exact Finset.sum_congr rfl fun c _ => by ring
    intro f hf s hin
    rw [x5, y5, add, add, hgrad f hf s hin, hd.2 f hf s hin]

/-- the start of a run of the coupled solver -/
theorem Spec.CoupledStarted.start {L : Layout} {B : ℕ → Boundary K} {Q : BodyPack K} {ops : NSOps K} {disk disk' : Disk K} {s : NSState K}
    (S : CoupledStarted debug L G axes T B P flow Q kernel window ops disk s disk') :
    ∃ U q E H, setInitialConditions L G flow (fun _ => 0) (fun _ => 0) = .ok (U, q) ∧
      ibpmCreateOperators debug L G axes P (fun r => (B r).run [.setGhostICs U]) Q kernel window = .ok (ops, E, H) ∧ Reach L B P ops.pN U s ∧
      (P.nstart = 0 → s.U = U ∧ s.p = (fun _ => 0) ∧ s.conv = List.replicate P.conv.nExplicit (fun _ => 0) ∧
        s.diff = List.replicate P.diff.nExplicit (fun _ => 0) ∧ s.B = (fun r => (B r).setGhostICs U) ∧ s.t = P.t ∧ s.ite = P.nstart) ∧
      (P.nstart ≠ 0 → ∃ w file v U' p', solutionRead L U' p' disk (stepPath P.output P.nstart) = .ok (s.U, w) ∧
        disk (stepPath P.output P.nstart) = some file ∧ file.data "/force" = some v ∧ file.time = some s.t ∧
        s.p = nestVec (nestCounts L Q) w (packedVec v) ∧
        s.B = (fun r => ((B r).setGhostICs U).setGhostICs s.U) ∧ s.ite = P.nstart) := by
  have S' := S
  obtain ⟨s₀, ⟨E, H⟩, h1, h2⟩ := S.init
  have hL := S.constructed.setup.layout
  obtain ⟨⟨U, p⟩, h3, h1⟩ := bind_ok h1
  obtain ⟨⟨ops', E', H'⟩, h4, h1⟩ := bind_ok h1
  cases h1
  have ho := setIC_outside hL h3
  have hpN : ops.pN = L.pN + Q.nPts * Q.dim := by
    obtain ⟨D, Dm, Gr, La, Lm, BN, idx, _, _, _, _, _, _, e⟩ := ibpmCreate_ok h4
    rw [e]
  refine ⟨U, p, E, H, h3, h4, ?_⟩
  unfold ibpmIoInitialData at h2
  split_ifs at h2 with h0
  · obtain ⟨d, _, h2⟩ := bind_ok h2
    cases h2
    exact ⟨⟨⟨[], rfl, [], Or.inl rfl⟩, Clean.zero L B, List.length_replicate, List.length_replicate, ho.1, fun _ _ => rfl,
      fun x hx i _ => by rw [List.eq_of_mem_replicate hx], fun x hx i _ => by rw [List.eq_of_mem_replicate hx]⟩,
      fun _ => ⟨rfl, rfl, rfl, rfl, rfl, rfl, rfl⟩, fun h => absurd h0 h⟩
  · obtain ⟨d, hd, h2⟩ := bind_ok h2
    cases h2
    obtain ⟨s', h5, hd⟩ := bind_ok hd
    obtain ⟨f, h6, hd⟩ := bind_ok hd
    split at hd
    · rename_i v
      cases hd
      have hz : subPressure (nestCounts L Q) (fun _ => (0 : K)) = fun _ => 0 := by funext a; simp [subPressure]
      have R := Reach.restart (B := B) (P := P) (u := U) hL (s := _) ?_ h5
      · refine ⟨⟨R.hist, R.clean, R.nconv, R.ndiff, R.outU, ?_, R.outConv, R.outDiff⟩, fun h => absurd h h0, fun _ => ?_⟩
        · intro i hi
          apply nestVec_outside
          rw [(sum_counts hL S.fit).1, (sum_counts hL S.fit).2, ← hpN]
          exact hi
        · obtain ⟨V, w, t, c, dd, m1, ⟨file, m2, m3⟩, -, -, rfl⟩ := readRestart_ok h5
          unfold readHDF5Vecs at h6
          dsimp only at h6 m1 m2
          rw [m2] at h6
          simp only [List.zip_cons_cons, List.zip_nil_left, List.mapM_cons, List.mapM_nil] at h6
          obtain ⟨v', h9, h6⟩ := bind_ok h6
          cases h6
          unfold H5File.get at h9
          split at h9
          · cases h9
          · rename_i v' hv
            split_ifs at h9
            cases h9
            exact ⟨w, file, _, _, _, m1, m2, hv, m3, rfl, rfl, rfl⟩
      · exact ⟨⟨[], rfl, [], Or.inl rfl⟩, Clean.zero L B, List.length_replicate, List.length_replicate, ho.1,
          fun i _ => congrFun hz i,
          fun x hx i _ => by rw [List.eq_of_mem_replicate hx], fun x hx i _ => by rw [List.eq_of_mem_replicate hx]⟩
    · cases hd

/-- the first states of two runs -/
theorem coupled_same_start {i₁ i₂ : NSState K} (S₁ : CoupledStarted debug L₁ G axes T B₁ P flow P₁ kernel window o₁ disk₁ i₁ disk₁')
    (S₂ : CoupledStarted debug L₂ G axes T B₂ P flow P₂ kernel window o₂ disk₂ i₂ disk₂')
    (hM : L₂.toMeshInfo = L₁.toMeshInfo) (hB : SameBodies P₁ P₂) (start : SameStart P disk₁ disk₂) (single : P.nstart = 0 ∨ P₁.bodies.length ≤ 1) :
    ∃ U₁ U₂ E₁ H₁ E₂ H₂, SameVel L₁ L₂ U₁ U₂ ∧
      ibpmCreateOperators debug L₁ G axes P (fun r => (B₁ r).run [.setGhostICs U₁]) P₁ kernel window = .ok (o₁, E₁, H₁) ∧
      ibpmCreateOperators debug L₂ G axes P (fun r => (B₂ r).run [.setGhostICs U₂]) P₂ kernel window = .ok (o₂, E₂, H₂) ∧
      Reach L₁ B₁ P o₁.pN U₁ i₁ ∧ Reach L₂ B₂ P o₂.pN U₂ i₂ ∧ SameKin L₁ L₂ i₁ i₂ ∧ SameComp L₁ L₂ P₁ P₂ i₁.p i₂.p := by
  have C₁ := S₁.constructed
  have C₂ := S₂.constructed
  have l1 := C₁.setup.layout
  have l2 := C₂.setup.layout
  obtain ⟨U₁, q₁, E₁, H₁, a1, a2, R₁, a3, a4⟩ := S₁.start
  obtain ⟨U₂, q₂, E₂, H₂, b1, b2, R₂, b3, b4⟩ := S₂.start
  obtain ⟨hu, -⟩ := same_initial C₁ C₂ hM a1 b1
  refine ⟨U₁, U₂, E₁, H₁, E₂, H₂, hu, a2, b2, R₁, R₂, ?_⟩
  have rep : ∀ n : ℕ, List.Forall₂ (SameVel L₁ L₂) (List.replicate n fun _ => (0 : K)) (List.replicate n fun _ => 0) := by
    intro n
    induction n with
    | zero => exact List.Forall₂.nil
    | succ m ih => exact List.Forall₂.cons (fun _ _ _ _ => rfl) ih
  by_cases h0 : P.nstart = 0
  · obtain ⟨c1, c2, c3, c4, c5, c6, c7⟩ := a3 h0
    obtain ⟨d1, d2, d3, d4, d5, d6, d7⟩ := b3 h0
    refine ⟨⟨?_, ?_, ?_, ?_, ?_⟩, ?_⟩
    · rw [c1, d1]; exact hu
    · rw [c3, d3]; exact fun _ _ h => SameVel.pushTerm (rep _) h
    · rw [c4, d4]; exact fun _ _ h => SameVel.pushTerm (rep _) h
    · rw [c5, d5]; exact sameGhosts_init C₁ C₂ hM hu
    · rw [c6, d6, c7, d7]; exact ⟨rfl, rfl⟩
    · rw [c2, d2]
      constructor
      · intro s _
        simp [subPressure]
      · intro x y _
        simp [subForces]
  · obtain ⟨hd, n1, n2⟩ := start.resolve_left h0
    have hl := single.resolve_left h0
    obtain ⟨w₁, f₁, v₁, _, _, c1, c2, c3, c4, c5, c6, c7⟩ := a4 h0
    obtain ⟨w₂, f₂, v₂, _, _, d1, d2, d3, d4, d5, d6, d7⟩ := b4 h0
    obtain ⟨hV, hw⟩ := same_read l1 l2 hM hd c1 d1
    rw [hd, d2] at c2
    cases c2
    rw [d3] at c3
    cases c3
    rw [d4] at c4
    refine ⟨⟨hV, fun _ _ h => SameVel.pushTerm_single (by rw [R₁.nconv, R₂.nconv]) (by rw [R₁.nconv]; exact n1) h,
      fun _ _ h => SameVel.pushTerm_single (by rw [R₁.ndiff, R₂.ndiff]) (by rw [R₁.ndiff]; exact n2) h, ?_, ?_⟩, ?_⟩
    · rw [c6, d6]
      exact sameGhosts_run C₁ C₂ hM hV [.setGhostICs U₁] [.setGhostICs U₂]
    · rw [c7, d7]
      exact ⟨(Option.some.inj c4).symm, rfl⟩
    · rw [c5, d5]
      constructor
      · intro s hs
        obtain ⟨m, -, e1, e2⟩ := cell_pos (K := K) l1 S₁.fit hs
        obtain ⟨m', -, e1', e2'⟩ := cell_pos (K := K) l2 S₂.fit (s := s) (by rw [hM]; exact hs)
        rw [e1, e2, e1', e2']
        exact hw s hs
      · intro x y hxy
        obtain ⟨⟨i0, i1⟩, j0, j1⟩ := hxy.range S₁.fit.pack S₂.fit.pack hB
        obtain ⟨m, hm, e1, e2⟩ := force_pos (K := K) l1 S₁.fit i0 i1
        obtain ⟨m', hm', e1', e2'⟩ := force_pos (K := K) l2 S₂.fit j0 j1
        rw [e1, e2, e1', e2']
        obtain ⟨b, i, d, -, -, g1, g2⟩ := hxy
        rw [single_index S₁.fit.pack hl g1, single_index S₂.fit.pack (by rw [← hB.number]; exact hl) g2, hB.dim]

/-- the states of two runs -/
theorem same_coupled_run {i₁ i₂ : NSState K} (S₁ : CoupledStarted debug L₁ G axes T B₁ P flow P₁ kernel window o₁ disk₁ i₁ disk₁')
    (S₂ : CoupledStarted debug L₂ G axes T B₂ P flow P₂ kernel window o₂ disk₂ i₂ disk₂')
    (hM : L₂.toMeshInfo = L₁.toMeshInfo) (hB : SameBodies P₁ P₂) (one : OneWidth L₁ axes P₁)
    (hn : ∀ f d, f < L₁.dim → d < L₁.dim → L₁.periodic 0 d = true → 3 ≤ L₁.n f d)
    (know₁ : ∀ u, IsUnknown L₁ u → KnowsWalls L₁ T u.rank u.comp ⟨u.k, u.j, u.i, 0⟩)
    (know₂ : ∀ u, IsUnknown L₂ u → KnowsWalls L₂ T u.rank u.comp ⟨u.k, u.j, u.i, 0⟩) (hdt : 0 < P.dt) (hnu : 0 ≤ P.nu) (hp : P.pType = .ksp)
    (hT : ∀ f loc, f < L₂.dim → loc / 2 = f → (T f loc).1 ≠ .NEUMANN) (hBN : GoodOrder L₂ P o₂.A) (start : SameStart P disk₁ disk₂)
    (single : P.nstart = 0 ∨ P₁.bodies.length ≤ 1)
    {v₁ p₁ v₂ p₂ : LinSolve K} (hv1 : Solves L₁.UN v₁ o₁.A) (hp1 : Solves o₁.pN p₁ o₁.DBNG) (hv2 : Solves L₂.UN v₂ o₂.A)
    (hp2 : Solves o₂.pN p₂ o₂.DBNG) {x₁ x₂ : ℕ → NSState K} {n : ℕ} (h1 : x₁ 0 = i₁) (h2 : x₂ 0 = i₂)
    (t₁ : CoupledTrajectory L₁ G P (nestCounts L₁ P₁) o₁ v₁ p₁ x₁ n) (t₂ : CoupledTrajectory L₂ G P (nestCounts L₂ P₂) o₂ v₂ p₂ x₂ n) :
    ∃ U₁ U₂, SameCoupled L₁ L₂ P₁ P₂ o₁ o₂ B₁ B₂ U₁ U₂ ∧ ∀ k, k ≤ n → Reach L₁ B₁ P o₁.pN U₁ (x₁ k) ∧ Reach L₂ B₂ P o₂.pN U₂ (x₂ k) ∧
      SameKin L₁ L₂ (x₁ k) (x₂ k) ∧ SameVel L₁ L₂ (Mat.mult o₁.pN o₁.G (x₁ k).p) (Mat.mult o₂.pN o₂.G (x₂ k).p) := by
  have C₁ := S₁.constructed
  have C₂ := S₂.constructed
  obtain ⟨U₁, U₂, E₁, H₁, E₂, H₂, hu, c1, c2, R₁, R₂, init, comp⟩ := coupled_same_start S₁ S₂ hM hB start single
  have O := sameCoupled C₁ C₂ hM hn S₁.fit S₂.fit hB one hp hu c1 c2
  refine ⟨U₁, U₂, O, fun k => ?_⟩
  induction k with
  | zero =>
    intro _
    rw [h1, h2]
    exact ⟨R₁, R₂, init, O.grad _ _ comp⟩
  | succ k ih =>
    intro hk
    obtain ⟨r1, r2, s1, s2⟩ := ih (by omega)
    obtain ⟨_, _, _, _, _, _, g1⟩ := coupled_ok C₁ S₁.schemes.1.1 S₁.schemes.2.1 r1 (t₁ k (by omega))
    obtain ⟨_, _, _, _, _, _, g2⟩ := coupled_ok C₂ S₂.schemes.1.1 S₂.schemes.2.1 r2 (t₂ k (by omega))
    exact ⟨r1.step C₁ S₁.schemes.1.1 S₁.schemes.2.1 g1, r2.step C₂ S₂.schemes.1.1 S₂.schemes.2.1 g2,
      same_coupled S₁ S₂ hM hB hn know₁ know₂ hdt hnu hp hT hBN hv1 hp1 hv2 hp2 O r1 r2 s1 s2 (t₁ k (by omega)) (t₂ k (by omega))⟩

end PetIBM
