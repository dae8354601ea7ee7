/-
One step with two distributions of the mesh.
-/
import Verif.Lemmas.Processes

set_option linter.unusedSectionVars false

namespace PetIBM

open Spec

variable {K : Type} [Field K] [LinearOrder K] [IsStrictOrderedRing K]
variable {debug : Bool} {L₁ L₂ : Layout} {G : Geom K} {axes : ℕ → Axis K} {T : BCTable K} {B₁ B₂ : ℕ → Boundary K}

/-- the same pressure up to a constant -/
def SamePres (L₁ L₂ : Layout) (p₁ p₂ : ℤ → K) : Prop := ∃ c, ∀ s, Inside L₁.toMeshInfo 3 s → p₁ (col L₁ 3 s) = p₂ (col L₂ 3 s) + c

theorem vec_col {L : Layout} (hL : LayoutOK L) {f : ℕ} (hf : f < L.dim) {s : Stencil} (hs : Inside L.toMeshInfo f s) (x : ℤ → K) :
    vec L.UN x (col L f s) = x (col L f s) := by
  obtain ⟨u, -, hu, rfl, rfl⟩ := exists_unknown hL hf hs
  have := col_range hL hu
  rw [vec, if_pos (by omega)]

theorem SameVel.vec (h1 : LayoutOK L₁) (h2 : LayoutOK L₂) (hM : L₂.toMeshInfo = L₁.toMeshInfo) {x y : ℤ → K} (h : SameVel L₁ L₂ x y) :
    SameVel L₁ L₂ (PetIBM.vec L₁.UN x) (PetIBM.vec L₂.UN y) := by
  intro f hf s hs
  rw [vec_col h1 hf hs, vec_col h2 (by rw [hM]; exact hf) (by rw [hM]; exact hs)]
  exact h f hf s hs

theorem pcol_range {L : Layout} (hL : LayoutOK L) {s : Stencil} (hs : Inside L.toMeshInfo 3 s) : 0 ≤ col L 3 s ∧ col L 3 s < (L.pN : ℤ) := by
  have := (col_inside hL (Or.inr rfl) false hs).2
  simpa [vecSize] using this

theorem vec_pcol {L : Layout} (hL : LayoutOK L) {s : Stencil} (hs : Inside L.toMeshInfo 3 s) (x : ℤ → K) :
    vec L.pN x (col L 3 s) = x (col L 3 s) := by
  have := pcol_range hL hs
  rw [vec, if_pos (by omega)]

theorem SameVel.termSum {cs : List K} {l₁ l₂ : List (ℤ → K)} (h : List.Forall₂ (SameVel L₁ L₂) l₁ l₂) :
    SameVel L₁ L₂ (PetIBM.termSum cs l₁) (PetIBM.termSum cs l₂) := by
  intro f hf s hs
  unfold PetIBM.termSum
  induction h generalizing cs with
  | nil => simp
  | cons a _ ih =>
    cases cs with
    | nil => simp
    | cons c cs =>
      simp only [List.zip_cons_cons, List.map_cons, List.sum_cons]
      rw [ih, a f hf s hs]

theorem SameVel.pushTerm {l₁ l₂ : List (ℤ → K)} (h : List.Forall₂ (SameVel L₁ L₂) l₁ l₂) {x y : ℤ → K} (hx : SameVel L₁ L₂ x y) :
    List.Forall₂ (SameVel L₁ L₂) (PetIBM.pushTerm l₁ x) (PetIBM.pushTerm l₂ y) := by
  cases h with
  | nil => exact List.Forall₂.nil
  | cons a b =>
    refine List.Forall₂.cons hx ?_
    have : ∀ {x y : ℤ → K} {l₁ l₂ : List (ℤ → K)}, SameVel L₁ L₂ x y → List.Forall₂ (SameVel L₁ L₂) l₁ l₂ →
        List.Forall₂ (SameVel L₁ L₂) (x :: l₁).dropLast (y :: l₂).dropLast := by
      intro x y l₁ l₂ hxy h
      induction h generalizing x y with
      | nil => exact List.Forall₂.nil
      | cons c d ih => exact List.Forall₂.cons hxy (ih c)
    exact this a b

theorem SameVel.pushTerm_single {l₁ l₂ : List (ℤ → K)} (h : l₁.length = l₂.length) (h1 : l₁.length ≤ 1) {x y : ℤ → K} (hx : SameVel L₁ L₂ x y) :
    List.Forall₂ (SameVel L₁ L₂) (PetIBM.pushTerm l₁ x) (PetIBM.pushTerm l₂ y) := by
  match l₁, l₂, h, h1 with
  | [], [], _, _ => exact List.Forall₂.nil
  | [_], [_], _, _ => exact List.Forall₂.cons hx List.Forall₂.nil

/-- corresponding flows; of the explicit terms only those that the next step uses -/
structure SameKin (L₁ L₂ : Layout) (s₁ s₂ : NSState K) : Prop where
  vel : SameVel L₁ L₂ s₁.U s₂.U
  conv : ∀ x y, SameVel L₁ L₂ x y → List.Forall₂ (SameVel L₁ L₂) (PetIBM.pushTerm s₁.conv x) (PetIBM.pushTerm s₂.conv y)
  diff : ∀ x y, SameVel L₁ L₂ x y → List.Forall₂ (SameVel L₁ L₂) (PetIBM.pushTerm s₁.diff x) (PetIBM.pushTerm s₂.diff y)
  ghosts : SameGhosts L₁ L₂ s₁.B s₂.B
  time : s₁.t = s₂.t ∧ s₁.ite = s₂.ite

/-- corresponding states -/
structure SameState (L₁ L₂ : Layout) (s₁ s₂ : NSState K) : Prop extends SameKin L₁ L₂ s₁ s₂ where
  pres : SamePres L₁ L₂ s₁.p s₂.p

/-- corresponding operators -/
structure SameOps (L₁ L₂ : Layout) (o₁ o₂ : NSOps K) (B₁ B₂ : ℕ → Boundary K) (u₁ u₂ : ℤ → K) : Prop where
  size : o₁.pN = L₁.pN ∧ o₂.pN = L₂.pN
  ref : o₁.isRefP = o₂.isRefP
  lap : ∀ q₁ q₂ : ℤ → K, SameVel L₁ L₂ q₁ q₂ → SameVel L₁ L₂ (Mat.mult L₁.UN o₁.L q₁) (Mat.mult L₂.UN o₂.L q₂)
  lapCorr : ∀ k₁ k₂ : List (Boundary.Op K), SameGhosts L₁ L₂ (fun r => (B₁ r).run ([.setGhostICs u₁] ++ k₁)) (fun r => (B₂ r).run ([.setGhostICs u₂] ++ k₂)) →
    SameVel L₁ L₂ (correctionMult L₁ (fun r => (B₁ r).run ([.setGhostICs u₁] ++ k₁)) o₁.Lmods)
      (correctionMult L₂ (fun r => (B₂ r).run ([.setGhostICs u₂] ++ k₂)) o₂.Lmods)
  div : ∀ q₁ q₂ : ℤ → K, SameVel L₁ L₂ q₁ q₂ → SameAt L₁ L₂ 3 (Mat.mult L₁.UN o₁.D q₁) (Mat.mult L₂.UN o₂.D q₂)
  divCorr : ∀ k₁ k₂ : List (Boundary.Op K), SameGhosts L₁ L₂ (fun r => (B₁ r).run ([.setGhostICs u₁] ++ k₁)) (fun r => (B₂ r).run ([.setGhostICs u₂] ++ k₂)) →
    SameAt L₁ L₂ 3 (correctionMult L₁ (fun r => (B₁ r).run ([.setGhostICs u₁] ++ k₁)) o₁.Dmods)
      (correctionMult L₂ (fun r => (B₂ r).run ([.setGhostICs u₂] ++ k₂)) o₂.Dmods)
  grad : ∀ p₁ p₂ : ℤ → K, SamePres L₁ L₂ p₁ p₂ → SameVel L₁ L₂ (Mat.mult L₁.pN o₁.G p₁) (Mat.mult L₂.pN o₂.G p₂)
  impl : ∀ q₁ q₂ : ℤ → K, SameVel L₁ L₂ q₁ q₂ → SameVel L₁ L₂ (Mat.mult L₁.UN o₁.A q₁) (Mat.mult L₂.UN o₂.A q₂)
  bng : ∀ p₁ p₂ : ℤ → K, SamePres L₁ L₂ p₁ p₂ → SameVel L₁ L₂ (Mat.mult L₁.pN o₁.BNG p₁) (Mat.mult L₂.pN o₂.BNG p₂)
  dbng : ∀ p₁ p₂ : ℤ → K, SameAt L₁ L₂ 3 p₁ p₂ → SameAt L₁ L₂ 3 (Mat.mult L₁.pN o₁.DBNG p₁) (Mat.mult L₂.pN o₂.DBNG p₂)

theorem mult_implicit {L : Layout} (La : Mat K) (a b : K) (q : ℤ → K) {i : ℤ} (h0 : 0 ≤ i) (h1 : i < L.UN) :
    Mat.mult L.UN (Mat.shift (Mat.scale La a) b) q i = a * Mat.mult L.UN La q i + b * q i := by
  obtain ⟨m, rfl⟩ := Int.eq_ofNat_of_zero_le h0
  unfold Mat.mult Mat.shift Mat.scale
  rw [Finset.mul_sum]
  have e : b * q (m : ℤ) = ∑ c ∈ Finset.range L.UN, if c = m then b * q (c : ℤ) else 0 := by
    rw [Finset.sum_ite_eq' (Finset.range L.UN) m, if_pos (Finset.mem_range.2 (by omega))]
  rw [e, ← Finset.sum_add_distrib]
  refine Finset.sum_congr rfl fun c _ => ?_
  by_cases hc : c = m
  · subst hc
    rw [if_pos rfl, if_pos rfl]
    ring
  · rw [if_neg (by omega), if_neg hc]
    ring

theorem sameOps (C₁ : Constructed debug L₁ G axes T B₁) (C₂ : Constructed debug L₂ G axes T B₂) (hM : L₂.toMeshInfo = L₁.toMeshInfo)
    (hn : ∀ f d, f < L₁.dim → d < L₁.dim → L₁.periodic 0 d = true → 3 ≤ L₁.n f d) {P : NSParams K} {u₁ u₂ : ℤ → K} (hu : SameVel L₁ L₂ u₁ u₂)
    {o₁ o₂ : NSOps K} (e1 : createOperators debug L₁ G P (fun r => (B₁ r).run [.setGhostICs u₁]) = .ok o₁)
    (e2 : createOperators debug L₂ G P (fun r => (B₂ r).run [.setGhostICs u₂]) = .ok o₂) : SameOps L₁ L₂ o₁ o₂ B₁ B₂ u₁ u₂ := by
  have l1 := C₁.setup.layout
  have l2 := C₂.setup.layout
  have hg := sameGhosts_init C₁ C₂ hM hu
  have hn2 : ∀ f, f < L₁.dim → L₁.periodic 0 f = true → 2 ≤ L₁.n f f := fun f hf hp => by
    have := hn f f hf hf hp
    omega
  have hn3 : ∀ f, f < L₁.dim → L₁.periodic 0 f = true → 2 ≤ L₁.n 3 f := fun f hf hp =>
    (hn2 f hf hp).trans (C₁.setup.n_le f f hf (by have := C₁.setup.dim_le; omega))
  obtain ⟨D₁, Dm₁, G₁, La₁, Lm₁, N₁, a1, a2, a3, a4, rfl⟩ := createOperators_ok e1
  obtain ⟨D₂, Dm₂, G₂, La₂, Lm₂, N₂, b1, b2, b3, b4, rfl⟩ := createOperators_ok e2
  obtain ⟨lap, lapC⟩ := laplacian_same C₁ C₂ hM hn ⟨u₁, [], rfl⟩ ⟨u₂, [], rfl⟩ hg a3 b3
  obtain ⟨dv, dvC⟩ := divergence_same C₁ C₂ hM hn2 ⟨u₁, [], rfl⟩ ⟨u₂, [], rfl⟩ hg a1 b1
  have bn := bn_same l1 l2 hM lap a4 b4
  have gr : ∀ p₁ p₂ : ℤ → K, SamePres L₁ L₂ p₁ p₂ → SameVel L₁ L₂ (Mat.mult L₁.pN G₁ p₁) (Mat.mult L₂.pN G₂ p₂) := by
    rintro p₁ p₂ ⟨c, hc⟩
    have h := gradient_same C₁.setup C₂.setup hM hn3 a2 b2 (p₁ := p₁) (p₂ := fun i => p₂ i + c) hc
    intro f hf s hs
    rw [h f hf s hs]
    have hs2 : Inside L₂.toMeshInfo f s := by rw [hM]; exact hs
    have hf2 : f < L₂.dim := by rw [hM]; exact hf
    obtain ⟨u, -, hu, rfl, rfl⟩ := exists_unknown l2 hf2 hs2
    have := col_range l2 hu
    have z := gradient_const C₂.setup (by rw [hM]; exact hn3) b2 (φ := fun _ => c) (fun _ _ _ _ _ _ => rfl) this.1 this.2
    have e : Mat.mult L₂.pN G₂ (fun i => p₂ i + c) (col L₂ u.comp u.st) =
        Mat.mult L₂.pN G₂ p₂ (col L₂ u.comp u.st) + Mat.mult L₂.pN G₂ (fun _ => c) (col L₂ u.comp u.st) := by
      unfold Mat.mult
      rw [← Finset.sum_add_distrib]
      refine Finset.sum_congr rfl fun c _ => ?_
      ring
    rw [e, z, add_zero]
  have bng : ∀ p₁ p₂ : ℤ → K, SamePres L₁ L₂ p₁ p₂ →
      SameVel L₁ L₂ (Mat.mult L₁.pN (Mat.mul L₁.UN N₁ G₁) p₁) (Mat.mult L₂.pN (Mat.mul L₂.UN N₂ G₂) p₂) := by
    intro p₁ p₂ hp f hf s hs
    rw [mult_mul, mult_mul]
    exact bn _ _ (gr p₁ p₂ hp) f hf s hs
  have dbng : ∀ p₁ p₂ : ℤ → K, SameAt L₁ L₂ 3 p₁ p₂ →
      SameAt L₁ L₂ 3 (Mat.mult L₁.pN (Mat.mul L₁.UN D₁ (Mat.mul L₁.UN N₁ G₁)) p₁) (Mat.mult L₂.pN (Mat.mul L₂.UN D₂ (Mat.mul L₂.UN N₂ G₂)) p₂) := by
    intro p₁ p₂ hp s hs
    rw [mult_mul, mult_mul]
    exact dv _ _ (bng p₁ p₂ ⟨0, fun s hs => by rw [add_zero]; exact hp s hs⟩) s hs
  refine ⟨⟨rfl, rfl⟩, ?_, lap, lapC, dv, dvC, gr, ?_, bng, ?_⟩
  · show (setNullSpace P.pType _).2 = (setNullSpace P.pType _).2
    cases P.pType <;> rfl
  · intro q₁ q₂ hq f hf s hs
    show Mat.mult L₁.UN (Mat.shift (Mat.scale La₁ _) _) q₁ _ = Mat.mult L₂.UN (Mat.shift (Mat.scale La₂ _) _) q₂ _
    have hs2 : Inside L₂.toMeshInfo f s := by rw [hM]; exact hs
    have hf2 : f < L₂.dim := by rw [hM]; exact hf
    obtain ⟨u, -, hu, hc, ht⟩ := exists_unknown l1 hf hs
    obtain ⟨v, -, hv, hvc, hvs⟩ := exists_unknown l2 hf2 hs2
    have a := col_range l1 hu
    have b := col_range l2 hv
    rw [hvc, hvs] at b
    rw [hc, ht] at a
    rw [mult_implicit La₁ _ _ _ a.1 a.2, mult_implicit La₂ _ _ _ b.1 b.2, lap q₁ q₂ hq f hf s hs, hq f hf s hs]
  · intro p₁ p₂ hp s hs
    show Mat.mult L₁.pN (setNullSpace P.pType _).1 p₁ _ = Mat.mult L₂.pN (setNullSpace P.pType _).1 p₂ _
    cases P.pType with
    | ksp => exact dbng p₁ p₂ hp s hs
    | amgx =>
      have hs2 : Inside L₂.toMeshInfo 3 s := by rw [hM]; exact hs
      have r1 := pcol_range l1 hs
      have r2 := pcol_range l2 hs2
      show Mat.mult L₁.pN (Mat.zeroRowColumn _ 0 1) p₁ _ = Mat.mult L₂.pN (Mat.zeroRowColumn _ 0 1) p₂ _
      rw [mult_zeroRowColumn _ _ _ (by omega), mult_zeroRowColumn _ _ _ (by omega)]
      by_cases hz : s = ⟨0, 0, 0, 0⟩
      · have z1 := (col_zero_iff l1 C₁.part hs).2 hz
        have z2 := (col_zero_iff l2 C₂.part hs2).2 hz
        have := hp s hs
        rw [z1, z2] at this
        rw [if_pos z1, if_pos z2, this]
      · rw [if_neg fun h => hz ((col_zero_iff l1 C₁.part hs).1 h), if_neg fun h => hz ((col_zero_iff l2 C₂.part hs2).1 h)]
        refine dbng _ _ ?_ s hs
        intro t ht
        have ht2 : Inside L₂.toMeshInfo 3 t := by rw [hM]; exact ht
        by_cases hz : t = ⟨0, 0, 0, 0⟩
        · rw [(col_zero_iff l1 C₁.part ht).2 hz, (col_zero_iff l2 C₂.part ht2).2 hz]
          simp
        · rw [Function.update_of_ne fun h => hz ((col_zero_iff l1 C₁.part ht).1 h),
            Function.update_of_ne fun h => hz ((col_zero_iff l2 C₂.part ht2).1 h)]
          exact hp t ht

variable {P : NSParams K} {flow : Option (FlowNode K)} {o₁ o₂ : NSOps K} {disk₁ disk₁' disk₂ disk₂' : Disk K} {i₁ i₂ : NSState K}

theorem convection_same (C₁ : Constructed debug L₁ G axes T B₁) (C₂ : Constructed debug L₂ G axes T B₂) (hM : L₂.toMeshInfo = L₁.toMeshInfo)
    (know₁ : ∀ u, IsUnknown L₁ u → KnowsWalls L₁ T u.rank u.comp ⟨u.k, u.j, u.i, 0⟩)
    (know₂ : ∀ u, IsUnknown L₂ u → KnowsWalls L₂ T u.rank u.comp ⟨u.k, u.j, u.i, 0⟩) {N₁ N₂ : ℕ} {u₁ u₂ : ℤ → K} {s₁ s₂ : NSState K}
    (R₁ : Reach L₁ B₁ P N₁ u₁ s₁) (R₂ : Reach L₂ B₂ P N₂ u₂ s₂) (hs : SameKin L₁ L₂ s₁ s₂) {w₁ w₂ : ℤ → K}
    (e1 : convectionMult L₁ G s₁.B (fun _ _ _ => 0) s₁.U (fun _ => 0) = .ok w₁)
    (e2 : convectionMult L₂ G s₂.B (fun _ _ _ => 0) s₂.U (fun _ => 0) = .ok w₂) : SameVel L₁ L₂ w₁ w₂ := by
  have l1 := C₁.setup.layout
  have l2 := C₂.setup.layout
  obtain ⟨h₁, b1, j1⟩ := R₁.hist
  obtain ⟨h₂, b2, j2⟩ := R₂.hist
  have hg := hs.ghosts
  rw [b1] at e1 hg
  rw [b2] at e2 hg
  obtain ⟨z, hz, k1⟩ := C58_closed_walls C₁ ([.setGhostICs u₁] ++ h₁) ⟨u₁, h₁, rfl⟩ s₁.U s₁.U (fun _ => 0) j1
  rw [e1] at hz
  cases hz
  obtain ⟨z, hz, k2⟩ := C58_closed_walls C₂ ([.setGhostICs u₂] ++ h₂) ⟨u₂, h₂, rfl⟩ s₂.U s₂.U (fun _ => 0) j2
  rw [e2] at hz
  cases hz
  obtain ⟨V, hV⟩ := exists_filled C₁.setup C₁.part (C₁.ghosts ([.setGhostICs u₁] ++ h₁)) s₁.U
  have hV2 := Filled.transfer l1 l2 hM (C₁.ghosts _) (C₂.ghosts _) hg hs.vel hV
  intro f hf s hin
  obtain ⟨x1, x2⟩ := SameVel.of_packed l1 l2 hM hf hin debug
  obtain ⟨u, -, hu, rfl, hus⟩ := exists_unknown l1 hf hin
  have hf2 : u.comp < L₂.dim := by rw [hM]; exact hf
  have hin2 : Inside L₂.toMeshInfo u.comp s := by rw [hM]; exact hin
  obtain ⟨v, -, hv, hvc, hvs⟩ := exists_unknown l2 hf2 hin2
  have a := k1 V hV u _ hu (know₁ u hu) (by rw [show (⟨u.k, u.j, u.i, 0⟩ : Stencil) = u.st from rfl, hus]; exact x1)
  have b := k2 V hV2 v _ hv (know₂ v hv) (by rw [show (⟨v.k, v.j, v.i, 0⟩ : Stencil) = v.st from rfl, hvs, hvc]; exact x2)
  rw [a, b, show (⟨u.k, u.j, u.i, 0⟩ : Stencil) = u.st from rfl, show (⟨v.k, v.j, v.i, 0⟩ : Stencil) = v.st from rfl, hus, hvs, hvc, hM]

theorem same_solution (h1 : LayoutOK L₁) (h2 : LayoutOK L₂) (hM : L₂.toMeshInfo = L₁.toMeshInfo) {A₁ A₂ : Mat K}
    (hA : ∀ q₁ q₂ : ℤ → K, SameVel L₁ L₂ q₁ q₂ → SameVel L₁ L₂ (Mat.mult L₁.UN A₁ q₁) (Mat.mult L₂.UN A₂ q₂)) {r₁ r₂ x₁ x₂ : ℤ → K}
    (hr : SameVel L₁ L₂ r₁ r₂) (hx1 : IsSolution L₁.UN A₁ r₁ x₁) (hx2 : IsSolution L₂.UN A₂ r₂ x₂)
    (uni : ∃ y, IsSolution L₂.UN A₂ r₂ y ∧ ∀ z, IsSolution L₂.UN A₂ r₂ z → ∀ i : ℤ, 0 ≤ i → i < L₂.UN → z i = y i) : SameVel L₁ L₂ x₁ x₂ := by
  obtain ⟨x', hx'⟩ := exists_sameVel h2 hM x₁
  have sol : IsSolution L₂.UN A₂ r₂ x' := by
    intro i i0 i1
    obtain ⟨v, hv, rfl⟩ := col_surj h2 i0 i1
    have hf : v.comp < L₁.dim := by rw [← hM]; exact hv.1
    have hin : Inside L₁.toMeshInfo v.comp v.st := by rw [← hM]; exact hv.inside
    obtain ⟨u, -, hu, hc, ht⟩ := exists_unknown h1 hf hin
    have r := col_range h1 hu
    rw [hc, ht] at r
    rw [← hA x₁ x' hx' _ hf _ hin, ← hr _ hf _ hin]
    exact hx1 _ r.1 r.2
  obtain ⟨y, -, hy⟩ := uni
  intro f hf s hin
  rw [hx' f hf s hin]
  have hf2 : f < L₂.dim := by rw [hM]; exact hf
  have hin2 : Inside L₂.toMeshInfo f s := by rw [hM]; exact hin
  obtain ⟨v, -, hv, rfl, rfl⟩ := exists_unknown h2 hf2 hin2
  have r := col_range h2 hv
  rw [hy x' sol _ r.1 r.2, hy x₂ hx2 _ r.1 r.2]

/-- the transported solution of the Poisson system -/
theorem same_cells_solution (h1 : LayoutOK L₁) (h2 : LayoutOK L₂) (hM : L₂.toMeshInfo = L₁.toMeshInfo) {A₁ A₂ : Mat K}
    (hA : ∀ q₁ q₂ : ℤ → K, SameAt L₁ L₂ 3 q₁ q₂ → SameAt L₁ L₂ 3 (Mat.mult L₁.pN A₁ q₁) (Mat.mult L₂.pN A₂ q₂)) {r₁ r₂ x₁ : ℤ → K}
    (hr : SameAt L₁ L₂ 3 r₁ r₂) (hx1 : IsSolution L₁.pN A₁ r₁ x₁) : ∃ x', SameAt L₁ L₂ 3 x₁ x' ∧ IsSolution L₂.pN A₂ r₂ x' := by
  obtain ⟨x', hx'⟩ := exists_sameCells h2 hM x₁
  refine ⟨x', hx', ?_⟩
  intro i i0 i1
  obtain ⟨s, hin2, rfl⟩ : ∃ s, Inside L₂.toMeshInfo 3 s ∧ col L₂ 3 s = i := by
    obtain ⟨q, ⟨⟨q0, q1, q2⟩, hq⟩, -⟩ := (C04_pressure_index_bijective false L₂ h2 0).2 i i0 i1
    refine ⟨⟨q.2.2, q.2.1, q.1, 0⟩, ⟨fun d hd => ?_, rfl⟩, ?_⟩
    · interval_cases d <;> simp [coordOf] <;> omega
    · unfold col
      simp only [Nat.cast_zero] at hq
      rw [hq]
  have hin : Inside L₁.toMeshInfo 3 s := by rw [← hM]; exact hin2
  have r := pcol_range h1 hin
  rw [← hA x₁ x' hx' s hin, ← hr s hin]
  exact hx1 _ r.1 r.2

/-- corresponding explicit terms, ghost equations and right-hand sides of the velocity system -/
theorem same_rhs (C₁ : Constructed debug L₁ G axes T B₁) (C₂ : Constructed debug L₂ G axes T B₂) (hM : L₂.toMeshInfo = L₁.toMeshInfo)
    (know₁ : ∀ u, IsUnknown L₁ u → KnowsWalls L₁ T u.rank u.comp ⟨u.k, u.j, u.i, 0⟩)
    (know₂ : ∀ u, IsUnknown L₂ u → KnowsWalls L₂ T u.rank u.comp ⟨u.k, u.j, u.i, 0⟩) {u₁ u₂ : ℤ → K}
    (lap : ∀ q₁ q₂ : ℤ → K, SameVel L₁ L₂ q₁ q₂ → SameVel L₁ L₂ (Mat.mult L₁.UN o₁.L q₁) (Mat.mult L₂.UN o₂.L q₂))
    (lapCorr : ∀ k₁ k₂ : List (Boundary.Op K), SameGhosts L₁ L₂ (fun r => (B₁ r).run ([.setGhostICs u₁] ++ k₁)) (fun r => (B₂ r).run ([.setGhostICs u₂] ++ k₂)) →
      SameVel L₁ L₂ (correctionMult L₁ (fun r => (B₁ r).run ([.setGhostICs u₁] ++ k₁)) o₁.Lmods)
        (correctionMult L₂ (fun r => (B₂ r).run ([.setGhostICs u₂] ++ k₂)) o₂.Lmods)) {N₁ N₂ : ℕ} {s₁ s₂ : NSState K}
    (R₁ : Reach L₁ B₁ P N₁ u₁ s₁) (R₂ : Reach L₂ B₂ P N₂ u₂ s₂) (hs : SameKin L₁ L₂ s₁ s₂)
    (hgrad : SameVel L₁ L₂ (Mat.mult o₁.pN o₁.G s₁.p) (Mat.mult o₂.pN o₂.G s₂.p)) {w₁ w₂ : ℤ → K}
    (x1 : convectionMult L₁ G s₁.B (fun _ _ _ => 0) s₁.U (fun _ => 0) = .ok w₁)
    (y1 : convectionMult L₂ G s₂.B (fun _ _ _ => 0) s₂.U (fun _ => 0) = .ok w₂) :
    List.Forall₂ (SameVel L₁ L₂) (pushTerm s₁.conv fun i => -1 * w₁ i) (pushTerm s₂.conv fun i => -1 * w₂ i) ∧
    List.Forall₂ (SameVel L₁ L₂) (pushTerm s₁.diff (diffTerm L₁ P.nu o₁ s₁)) (pushTerm s₂.diff (diffTerm L₂ P.nu o₂ s₂)) ∧
    (∃ k₁ k₂ : List (Boundary.Op K), (fun r => (s₁.B r).updateEqs s₁.U P.dt) = (fun r => (B₁ r).run ([.setGhostICs u₁] ++ k₁)) ∧
      (fun r => (s₂.B r).updateEqs s₂.U P.dt) = (fun r => (B₂ r).run ([.setGhostICs u₂] ++ k₂)) ∧
      SameGhosts L₁ L₂ (fun r => (B₁ r).run ([.setGhostICs u₁] ++ k₁)) (fun r => (B₂ r).run ([.setGhostICs u₂] ++ k₂))) ∧
    SameVel L₁ L₂ (momentumRhs L₁ P o₁ s₁ (pushTerm s₁.conv fun i => -1 * w₁ i) (pushTerm s₁.diff (diffTerm L₁ P.nu o₁ s₁)))
      (momentumRhs L₂ P o₂ s₂ (pushTerm s₂.conv fun i => -1 * w₂ i) (pushTerm s₂.diff (diffTerm L₂ P.nu o₂ s₂))) := by
  have l1 := C₁.setup.layout
  have l2 := C₂.setup.layout
  have hw := convection_same C₁ C₂ hM know₁ know₂ R₁ R₂ hs x1 y1
  obtain ⟨h₁, b1, j1⟩ := R₁.hist
  obtain ⟨h₂, b2, j2⟩ := R₂.hist
  have hg := hs.ghosts
  rw [b1, b2] at hg
  -- ghost equations of the step
  have ge := (SameGhosts.step l1 l2 hM (C₁.ghosts _) (C₂.ghosts _) hg hs.vel P.dt).1
  have run1 : (fun r => (s₁.B r).updateEqs s₁.U P.dt) = fun r => (B₁ r).run ([.setGhostICs u₁] ++ (h₁ ++ [.updateEqs s₁.U P.dt])) := by
    funext r
    simp only [b1, Boundary.run, List.foldl_append]
    rfl
  have run2 : (fun r => (s₂.B r).updateEqs s₂.U P.dt) = fun r => (B₂ r).run ([.setGhostICs u₂] ++ (h₂ ++ [.updateEqs s₂.U P.dt])) := by
    funext r
    simp only [b2, Boundary.run, List.foldl_append]
    rfl
  have ge' : SameGhosts L₁ L₂ (fun r => (B₁ r).run ([.setGhostICs u₁] ++ (h₁ ++ [.updateEqs s₁.U P.dt])))
      (fun r => (B₂ r).run ([.setGhostICs u₂] ++ (h₂ ++ [.updateEqs s₂.U P.dt]))) := by
    rw [← run1, ← run2]
    simp only [b1, b2]
    exact ge
  have hconv : List.Forall₂ (SameVel L₁ L₂) (pushTerm s₁.conv fun i => -1 * w₁ i) (pushTerm s₂.conv fun i => -1 * w₂ i) :=
    hs.conv _ _ fun f hf s hin => by simp only [hw f hf s hin]
  have hdiff : List.Forall₂ (SameVel L₁ L₂) (pushTerm s₁.diff (diffTerm L₁ P.nu o₁ s₁)) (pushTerm s₂.diff (diffTerm L₂ P.nu o₂ s₂)) := by
    refine hs.diff _ _ (SameVel.vec l1 l2 hM fun f hf s hin => ?_)
    have := lapCorr h₁ h₂ hg f hf s hin
    rw [← b1, ← b2] at this
    simp only [lap _ _ hs.vel f hf s hin, this]
  refine ⟨hconv, hdiff, ⟨_, _, run1, run2, ge'⟩, ?_⟩
  intro f hf s hin
  have hf2 : f < L₂.dim := by rw [hM]; exact hf
  have hin2 : Inside L₂.toMeshInfo f s := by rw [hM]; exact hin
  have c := lapCorr _ _ ge' f hf s hin
  rw [← run1, ← run2] at c
  unfold momentumRhs
  rw [vec_col l1 hf hin, vec_col l1 hf hin, vec_col l2 hf2 hin2, vec_col l2 hf2 hin2, hgrad f hf s hin,
    hs.vel f hf s hin, SameVel.termSum hconv f hf s hin, SameVel.termSum hdiff f hf s hin, c]

/-- what is left of the step once the velocities before the projection correspond -/
theorem same_project (S₁ : Started debug L₁ G axes T B₁ P flow o₁ disk₁ i₁ disk₁') (S₂ : Started debug L₂ G axes T B₂ P flow o₂ disk₂ i₂ disk₂')
    (hM : L₂.toMeshInfo = L₁.toMeshInfo) (hn : ∀ f d, f < L₁.dim → d < L₁.dim → L₁.periodic 0 d = true → 3 ≤ L₁.n f d)
    (know₁ : ∀ u, IsUnknown L₁ u → KnowsWalls L₁ T u.rank u.comp ⟨u.k, u.j, u.i, 0⟩)
    (know₂ : ∀ u, IsUnknown L₂ u → KnowsWalls L₂ T u.rank u.comp ⟨u.k, u.j, u.i, 0⟩) (hdt : 0 < P.dt)
    (hT : ∀ f loc, f < L₂.dim → loc / 2 = f → (T f loc).1 ≠ .NEUMANN) (hBN : GoodOrder L₂ P o₂.A)
    {v₁ p₁ v₂ p₂ : LinSolve K} (hp1 : Solves L₁.pN p₁ o₁.DBNG)
    (hp2 : Solves L₂.pN p₂ o₂.DBNG) {u₁ u₂ : ℤ → K} (O : SameOps L₁ L₂ o₁ o₂ B₁ B₂ u₁ u₂) {s₁ s₂ s₁' s₂' : NSState K}
    (R₁ : Reach L₁ B₁ P o₁.pN u₁ s₁) (R₂ : Reach L₂ B₂ P o₂.pN u₂ s₂) (hs : SameState L₁ L₂ s₁ s₂)
    (a₁ : advance L₁ G P o₁ v₁ p₁ s₁ = .ok s₁') (a₂ : advance L₂ G P o₂ v₂ p₂ s₂ = .ok s₂')
    (hU : ∀ U₁ U₂ w₁ w₂, convectionMult L₁ G s₁.B (fun _ _ _ => 0) s₁.U (fun _ => 0) = .ok w₁ →
      convectionMult L₂ G s₂.B (fun _ _ _ => 0) s₂.U (fun _ => 0) = .ok w₂ →
      SameVel L₁ L₂ (momentumRhs L₁ P o₁ s₁ (pushTerm s₁.conv fun i => -1 * w₁ i) (pushTerm s₁.diff (diffTerm L₁ P.nu o₁ s₁)))
        (momentumRhs L₂ P o₂ s₂ (pushTerm s₂.conv fun i => -1 * w₂ i) (pushTerm s₂.diff (diffTerm L₂ P.nu o₂ s₂))) →
      v₁ o₁.A s₁.U (momentumRhs L₁ P o₁ s₁ (pushTerm s₁.conv fun i => -1 * w₁ i) (pushTerm s₁.diff (diffTerm L₁ P.nu o₁ s₁))) = .ok U₁ →
      v₂ o₂.A s₂.U (momentumRhs L₂ P o₂ s₂ (pushTerm s₂.conv fun i => -1 * w₂ i) (pushTerm s₂.diff (diffTerm L₂ P.nu o₂ s₂))) = .ok U₂ →
      SameVel L₁ L₂ U₁ U₂) : SameState L₁ L₂ s₁' s₂' := by
  have C₁ := S₁.constructed
  have C₂ := S₂.constructed
  have l1 := C₁.setup.layout
  have l2 := C₂.setup.layout
  obtain ⟨w₁, U₁, d₁, x1, x2, x3, x4, x5, x6, x7, x8, x9, x10, x11⟩ := advance_ok C₁ S₁.schemes.1.1 S₁.schemes.2.1 R₁ a₁
  obtain ⟨w₂, U₂, d₂, y1, y2, y3, y4, y5, y6, y7, y8, y9, y10, y11⟩ := advance_ok C₂ S₂.schemes.1.1 S₂.schemes.2.1 R₂ a₂
  have hgrad : SameVel L₁ L₂ (Mat.mult o₁.pN o₁.G s₁.p) (Mat.mult o₂.pN o₂.G s₂.p) := by
    rw [O.size.1, O.size.2]
    exact O.grad _ _ hs.pres
  obtain ⟨hconv, hdiff, ⟨k₁, k₂, run1, run2, ge'⟩, hrhs⟩ := same_rhs C₁ C₂ hM know₁ know₂ O.lap O.lapCorr R₁ R₂ hs.toSameKin hgrad x1 y1
  have hU := hU _ _ _ _ x1 y1 hrhs x2 y2
  rw [← x7, ← y7] at hconv
  rw [← x8, ← y8] at hdiff
  have hprhs : SameAt L₁ L₂ 3 (poissonRhs L₁ o₁ (fun r => (s₁.B r).updateEqs s₁.U P.dt) (vec L₁.UN U₁))
      (poissonRhs L₂ o₂ (fun r => (s₂.B r).updateEqs s₂.U P.dt) (vec L₂.UN U₂)) := by
    intro s hin
    have hin2 : Inside L₂.toMeshInfo 3 s := by rw [hM]; exact hin
    have c := O.divCorr _ _ ge' s hin
    rw [← run1, ← run2] at c
    have e : vec o₁.pN (fun i => Mat.mult L₁.UN o₁.D (vec L₁.UN U₁) i + correctionMult L₁ (fun r => (s₁.B r).updateEqs s₁.U P.dt) o₁.Dmods i) (col L₁ 3 s) =
        vec o₂.pN (fun i => Mat.mult L₂.UN o₂.D (vec L₂.UN U₂) i + correctionMult L₂ (fun r => (s₂.B r).updateEqs s₂.U P.dt) o₂.Dmods i) (col L₂ 3 s) := by
      rw [O.size.1, O.size.2, vec_pcol l1 hin, vec_pcol l2 hin2, O.div _ _ (SameVel.vec l1 l2 hM hU) s hin, c]
    unfold poissonRhs
    rw [O.ref]
    split_ifs
    · by_cases hz : s = ⟨0, 0, 0, 0⟩
      · rw [(col_zero_iff l1 C₁.part hin).2 hz, (col_zero_iff l2 C₂.part hin2).2 hz]
        simp
      · rw [Function.update_of_ne fun h => hz ((col_zero_iff l1 C₁.part hin).1 h),
          Function.update_of_ne fun h => hz ((col_zero_iff l2 C₂.part hin2).1 h)]
        exact e
    · exact e
  obtain ⟨φ, hφ, sol⟩ := same_cells_solution l1 l2 hM O.dbng hprhs fun i i0 i1 => hp1 _ _ _ x3 i i0 i1
  have sol2 : IsSolution L₂.pN o₂.DBNG (poissonRhs L₂ o₂ (fun r => (s₂.B r).updateEqs s₂.U P.dt) (vec L₂.UN U₂)) d₂ :=
    fun i i0 i1 => hp2 _ _ _ y3 i i0 i1
  have hn2 : ∀ f, f < L₂.dim → L₂.periodic 0 f = true → 2 ≤ L₂.n f f := fun f hf hp => by
    have := hn f f (by rw [← hM]; exact hf) (by rw [← hM]; exact hf) (by rw [← hM]; exact hp)
    rw [hM]; omega
  have hd : SamePres L₁ L₂ (vec o₁.pN d₁) (vec o₂.pN d₂) := by
    obtain ⟨c, hc⟩ : ∃ c, ∀ i : ℤ, 0 ≤ i → i < L₂.pN → φ i = d₂ i + c := by
      cases hpt : P.pType with
      | ksp =>
        obtain ⟨k1, -, -⟩ := C62_poisson_system_partial S₂ hn2 hT hBN hpt hdt.ne'
        have k := (k1 (fun j => φ j + -1 * d₂ j)).1 fun i i0 i1 => by rw [mult_sub, sol i i0 i1, sol2 i i0 i1, sub_self]
        refine ⟨φ 0 - d₂ 0, fun i i0 i1 => ?_⟩
        have := k i 0 i0 i1 le_rfl (by omega)
        linear_combination this
      | amgx =>
        obtain ⟨y, -, hy⟩ := C43_pinned_system_partial S₂ hn2 hT hBN hpt hdt.ne'
          (poissonRhs L₂ o₂ (fun r => (s₂.B r).updateEqs s₂.U P.dt) (vec L₂.UN U₂))
        exact ⟨0, fun i i0 i1 => by rw [hy φ sol i i0 i1, hy d₂ sol2 i i0 i1, add_zero]⟩
    refine ⟨c, fun s hin => ?_⟩
    have hin2 : Inside L₂.toMeshInfo 3 s := by rw [hM]; exact hin
    have r := pcol_range l2 hin2
    rw [O.size.1, O.size.2, vec_pcol l1 hin, vec_pcol l2 hin2, hφ s hin, hc _ r.1 r.2]
  have hvel : SameVel L₁ L₂ s₁'.U s₂'.U := by
    rw [x4, y4]
    intro f hf s hin
    have hf2 : f < L₂.dim := by rw [hM]; exact hf
    have hin2 : Inside L₂.toMeshInfo f s := by rw [hM]; exact hin
    unfold projected
    rw [vec_col l1 hf hin, vec_col l1 hf hin, vec_col l2 hf2 hin2, vec_col l2 hf2 hin2, hU f hf s hin]
    have := O.bng _ _ hd f hf s hin
    rw [O.size.1, O.size.2] at this ⊢
    rw [this]
  refine ⟨⟨hvel, fun _ _ h => SameVel.pushTerm hconv h, fun _ _ h => SameVel.pushTerm hdiff h, ?_, ?_⟩, ?_⟩
  · rw [x9, y9]
    have := (SameGhosts.step l1 l2 hM (C₁.ghosts _) (C₂.ghosts _) ge' hvel P.dt).2
    have f1 := fun r => congrFun run1 r
    have f2 := fun r => congrFun run2 r
    simp only [← f1, ← f2] at this
    exact this
  · rw [x10, y10, x11, y11, hs.time.1, hs.time.2]
    exact ⟨rfl, rfl⟩
  · obtain ⟨c, hc⟩ := hs.pres
    obtain ⟨c', hc'⟩ := hd
    refine ⟨c + c', fun s hin => ?_⟩
    rw [x5, y5]
    simp only
    rw [hc s hin, hc' s hin]
    ring

theorem same_step (S₁ : Started debug L₁ G axes T B₁ P flow o₁ disk₁ i₁ disk₁') (S₂ : Started debug L₂ G axes T B₂ P flow o₂ disk₂ i₂ disk₂')
    (hM : L₂.toMeshInfo = L₁.toMeshInfo) (hn : ∀ f d, f < L₁.dim → d < L₁.dim → L₁.periodic 0 d = true → 3 ≤ L₁.n f d)
    (know₁ : ∀ u, IsUnknown L₁ u → KnowsWalls L₁ T u.rank u.comp ⟨u.k, u.j, u.i, 0⟩)
    (know₂ : ∀ u, IsUnknown L₂ u → KnowsWalls L₂ T u.rank u.comp ⟨u.k, u.j, u.i, 0⟩) (hdt : 0 < P.dt) (hnu : 0 ≤ P.nu)
    (hT : ∀ f loc, f < L₂.dim → loc / 2 = f → (T f loc).1 ≠ .NEUMANN) (hBN : GoodOrder L₂ P o₂.A)
    {v₁ p₁ v₂ p₂ : LinSolve K} (hv1 : Solves L₁.UN v₁ o₁.A) (hp1 : Solves L₁.pN p₁ o₁.DBNG) (hv2 : Solves L₂.UN v₂ o₂.A)
    (hp2 : Solves L₂.pN p₂ o₂.DBNG) {u₁ u₂ : ℤ → K} (O : SameOps L₁ L₂ o₁ o₂ B₁ B₂ u₁ u₂) {s₁ s₂ s₁' s₂' : NSState K}
    (R₁ : Reach L₁ B₁ P o₁.pN u₁ s₁) (R₂ : Reach L₂ B₂ P o₂.pN u₂ s₂) (hs : SameState L₁ L₂ s₁ s₂)
    (a₁ : advance L₁ G P o₁ v₁ p₁ s₁ = .ok s₁') (a₂ : advance L₂ G P o₂ v₂ p₂ s₂ = .ok s₂') : SameState L₁ L₂ s₁' s₂' := by
  have l1 := S₁.constructed.setup.layout
  have l2 := S₂.constructed.setup.layout
  refine same_project S₁ S₂ hM hn know₁ know₂ hdt hT hBN hp1 hp2 O R₁ R₂ hs a₁ a₂ ?_
  intro U₁ U₂ w₁ w₂ _ _ hrhs x2 y2
  exact same_solution l1 l2 hM O.impl hrhs (fun i i0 i1 => hv1 _ _ _ x2 i i0 i1) (fun i i0 i1 => hv2 _ _ _ y2 i i0 i1)
    (C61_velocity_system_partial S₂ (fun f d hf hd hp => by
      have := hn f d (by rw [← hM]; exact hf) (by rw [← hM]; exact hd) (by rw [← hM]; exact hp)
      rw [hM]; omega) hdt hnu _)

end PetIBM
