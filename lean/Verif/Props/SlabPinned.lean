import Verif.Props.Slab
import Verif.Props.PinnedCases

/-!
C105 with the pinned Poisson system.
-/

set_option linter.unusedSectionVars false

namespace PetIBM

open Spec

variable {K : Type} [Field K] [LinearOrder K] [IsStrictOrderedRing K]
variable {debug : Bool} {L₁ L₂ : Layout} {G₁ G₂ : Geom K} {axes₁ axes₂ : ℕ → Axis K} {T₁ T₂ : BCTable K} {B₁ B₂ : ℕ → Boundary K}
variable {P : NSParams K} {flow₁ flow₂ : Option (FlowNode K)} {o₁ o₂ : NSOps K} {disk₁ disk₁' disk₂ disk₂' : Disk K} {i₁ i₂ : NSState K}

/-- C105, pinned system: the same, although the cell that is pinned lies in one layer only. Missing: as in `C105_plane_flow_partial`, but for the
pinned system; fluxes that do not cancel. -/
theorem C105_plane_flow_pinned_partial (S₁ : Started debug L₁ G₁ axes₁ T₁ B₁ P flow₁ o₁ disk₁ i₁ disk₁')
    (S₂ : Started debug L₂ G₂ axes₂ T₂ B₂ P flow₂ o₂ disk₂ i₂ disk₂') (D : Slab L₁ L₂ axes₁ axes₂ T₁ T₂)
    (hF : SlabFlow flow₁ flow₂) (start : P.nstart = 0) (hpt : P.pType = .amgx)
    (hn₁ : ∀ f, f < L₁.dim → L₁.periodic 0 f = true → 2 ≤ L₁.n f f)
    (hn : ∀ f d, f < L₂.dim → d < L₂.dim → L₂.periodic 0 d = true → 3 ≤ L₂.n f d)
    (know₁ : ∀ u, IsUnknown L₁ u → KnowsWalls L₁ T₁ u.rank u.comp ⟨u.k, u.j, u.i, 0⟩)
    (know₂ : ∀ u, IsUnknown L₂ u → KnowsWalls L₂ T₂ u.rank u.comp ⟨u.k, u.j, u.i, 0⟩) (hdt : 0 < P.dt) (hnu : 0 ≤ P.nu)
    (hN₁ : NormalVelocityGiven L₁.toMeshInfo T₁) (hflux₁ : boundaryFlux L₁.toMeshInfo G₁ T₁ = 0)
    (hN₂ : NormalVelocityGiven L₂.toMeshInfo T₂) (hflux₂ : boundaryFlux L₂.toMeshInfo G₂ T₂ = 0) (hBN : GoodOrder L₂ P o₂.A)
    {v₁ p₁ v₂ p₂ : LinSolve K} (hv1 : Solves L₁.UN v₁ o₁.A) (hp1 : Solves L₁.pN p₁ o₁.DBNG) (hv2 : Solves L₂.UN v₂ o₂.A)
    (hp2 : Solves L₂.pN p₂ o₂.DBNG) {x₁ x₂ : ℕ → NSState K} {n : ℕ} (h1 : x₁ 0 = i₁) (h2 : x₂ 0 = i₂)
    (t₁ : Trajectory L₁ G₁ P o₁ v₁ p₁ x₁ n) (t₂ : Trajectory L₂ G₂ P o₂ v₂ p₂ x₂ n) (k : ℕ) (hk : k ≤ n) :
    SlabVelocity debug L₁ L₂ (x₁ k).U (x₂ k).U ∧ SlabPressure debug L₁ L₂ (x₁ k).p (x₂ k).p ∧ (x₁ k).t = (x₂ k).t ∧
      (x₁ k).ite = (x₂ k).ite := by
  obtain ⟨a, pa, Sa, eA, _, _, _, ea, ha⟩ := C43_same_run_partial S₁ h1 t₁ hn₁ hpt hN₁ hflux₁ hp1
  obtain ⟨b, pb, Sb, eB, _, _, _, eb, hb⟩ :=
    C43_same_run_partial S₂ h2 t₂ (fun f hf hp => by have := hn f f hf hf hp; omega) hpt hN₂ hflux₂ hp2
  exact C105_plane_flow_partial Sa Sb D hF start rfl hn know₁ know₂ hdt hnu
    (fun f loc hf hl => by rcases hN₂ f loc hf hl with h | h <;> rw [h] <;> simp) (by rw [eB]; exact hBN) (eA ▸ hv1) ea (eB ▸ hv2) eb h1 h2 ha hb k hk

/-- Runs of any length in the box with two lids, in the plane and in two layers of different heights, with pinned systems: the hypotheses of
`C105_plane_flow_pinned_partial` hold. -/
example : ∃ P o₁ o₂ i₁ i₂ d₁ d₂ x₁ x₂,
    Started true centredLayout centredGeom centredAxes twoLids centredB P (some shearFlow) o₁ (fun _ => none) i₁ d₁ ∧
    Started true layerLayout layerGeom layerAxes layerTable layerB P (some layerFlow) o₂ (fun _ => none) i₂ d₂ ∧
    Slab centredLayout layerLayout centredAxes layerAxes twoLids layerTable ∧ SlabFlow (some shearFlow) (some layerFlow) ∧
    P.nstart = 0 ∧ P.pType = .amgx ∧ (∀ d, centredLayout.periodic 0 d = false) ∧ (∀ d, layerLayout.periodic 0 d = false) ∧
    (∀ u : Unknown, KnowsWalls centredLayout twoLids u.rank u.comp ⟨u.k, u.j, u.i, 0⟩) ∧
    (∀ u : Unknown, KnowsWalls layerLayout layerTable u.rank u.comp ⟨u.k, u.j, u.i, 0⟩) ∧ 0 < P.dt ∧ 0 ≤ P.nu ∧
    NormalVelocityGiven centredLayout.toMeshInfo twoLids ∧ boundaryFlux centredLayout.toMeshInfo centredGeom twoLids = 0 ∧
    NormalVelocityGiven layerLayout.toMeshInfo layerTable ∧ boundaryFlux layerLayout.toMeshInfo layerGeom layerTable = 0 ∧
    GoodOrder layerLayout P o₂.A ∧ Solves centredLayout.UN (exactSolve centredLayout.UN) o₁.A ∧
    Solves centredLayout.pN (exactSolve centredLayout.pN) o₁.DBNG ∧ Solves layerLayout.UN (exactSolve layerLayout.UN) o₂.A ∧
    Solves layerLayout.pN (exactSolve layerLayout.pN) o₂.DBNG ∧ x₁ 0 = i₁ ∧ x₂ 0 = i₂ ∧
    (∀ n, Trajectory centredLayout centredGeom P o₁ (exactSolve centredLayout.UN) (exactSolve centredLayout.pN) x₁ n) ∧
    ∀ n, Trajectory layerLayout layerGeom P o₂ (exactSolve layerLayout.UN) (exactSolve layerLayout.pN) x₂ n := by
  obtain ⟨o₁, i₁, d₁, S₁⟩ := C60_start (P := pinnedParams 1 adamsBashforth2 crankNicolson) centred_constructed 1
    [fun _ y _ _ _ => y, fun x _ _ _ _ => x] none (le_refl 2) (by decide)
    ⟨true, "out", some (pinnedNode "ADAMS_BASHFORTH_2" "CRANK_NICOLSON"), rfl⟩ (le_refl 1) rfl (fun _ => none)
  obtain ⟨o₂, i₂, d₂, S₂⟩ := C60_start (P := pinnedParams 1 adamsBashforth2 crankNicolson) layer_constructed 1
    [fun _ y _ _ _ => y, fun x _ _ _ _ => x, fun _ _ _ _ _ => 0] none (le_refl 3) (by decide)
    ⟨true, "out", some (pinnedNode "ADAMS_BASHFORTH_2" "CRANK_NICOLSON"), rfl⟩ (le_refl 1) rfl (fun _ => none)
  have n1 : ∀ f loc, (twoLids f loc).1 ≠ .NEUMANN := by
    intro f loc
    unfold twoLids
    split_ifs <;> simp
  have n2 : ∀ f loc, loc / 2 = f → (layerTable f loc).1 ≠ .NEUMANN := by
    rintro f loc rfl
    unfold layerTable
    split_ifs
    · simp
    · exact n1 _ _
  obtain ⟨x₁, x0, hx⟩ := C43_runs_partial S₁ (vSolve := exactSolve centredLayout.UN) (pSolve := exactSolve centredLayout.pN)
    (fun _ _ _ _ hp => by cases hp) (fun f loc _ _ => n1 f loc) (Or.inl rfl) rfl (by norm_num [pinnedParams, boxParams])
    (by norm_num [pinnedParams, boxParams]) (exactSolve_finds _ _) (exactSolve_finds _ _)
  obtain ⟨x₂, y0, hy⟩ := C43_runs_partial S₂ (vSolve := exactSolve layerLayout.UN) (pSolve := exactSolve layerLayout.pN)
    (fun _ _ _ _ hp => by cases hp) (fun f loc _ hl => n2 f loc hl) (Or.inl rfl) rfl (by norm_num [pinnedParams, boxParams])
    (by norm_num [pinnedParams, boxParams]) (exactSolve_finds _ _) (exactSolve_finds _ _)
  have c1 : ∀ loc, Closed twoLids loc := by
    intro loc
    unfold Closed twoLids
    rw [if_neg (by omega), if_neg (by omega)]
  have c2 : ∀ loc, Closed layerTable loc := by
    intro loc
    unfold Closed layerTable twoLids
    split_ifs <;> first | rfl | omega
  obtain ⟨a1, a2⟩ := closed_given centred_constructed fun loc _ _ => c1 loc
  obtain ⟨b1, b2⟩ := closed_given layer_constructed fun loc _ _ => c2 loc
  exact ⟨pinnedParams 1 adamsBashforth2 crankNicolson, o₁, o₂, i₁, i₂, d₁, d₂, x₁, x₂, S₁, S₂, layer_slab, layer_flow, rfl, rfl, fun _ => rfl,
    fun _ => rfl, fun u loc _ _ _ _ => Or.inl (c1 loc), fun u loc _ _ _ _ => Or.inl (c2 loc), by norm_num [pinnedParams, boxParams],
    by norm_num [pinnedParams, boxParams], a1, a2, b1, b2, Or.inl rfl, exactSolve_solves _ _, exactSolve_solves _ _, exactSolve_solves _ _,
    exactSolve_solves _ _, x0, y0, hx, hy⟩

end PetIBM
