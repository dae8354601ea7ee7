/-
Starts of the solvers with bodies (C64).
-/
import Verif.Props.Ibpm
import Verif.Model.Motion

set_option linter.unusedSectionVars false

namespace PetIBM

open Spec

variable {K : Type} [Field K] [LinearOrder K] [IsStrictOrderedRing K] {debug : Bool} {L : Layout} {G : Geom K} {axes : ℕ → Axis K}
  {T : BCTable K} {B : ℕ → Boundary K} {P : NSParams K} {bodies : BodyPack K} {kernel : DeltaKernel K} {window : ℕ}

theorem createEH_total (C : Constructed debug L G axes T B) (hist : List (Boundary.Op K)) {idx : List (List (List (List ℤ)))} {Δ : Mat K}
    (h : createDelta debug L axes B bodies (meshIdxAt idx) kernel window = .ok Δ) :
    ∃ E H, createEH debug L G axes (fun r => (B r).run hist) bodies (meshIdxAt idx) kernel window = .ok (E, H) := by
  obtain ⟨R, _, M, _, _, e1, _, e2, _⟩ := C25_diagonals debug C.setup
  unfold createEH
  rw [e1, e2, createDelta_run C, h]
  exact ⟨_, _, rfl⟩

theorem bnHead_total (N : ℕ) (Lap : Mat K) (dt c : K) {n : ℤ} (h : 1 ≤ n) : ∃ BN, createBnHead N Lap dt c n = .ok BN := by
  unfold createBnHead
  rw [if_neg (by omega)]
  exact ⟨_, rfl⟩

/-- C64. A run from step 0 of the solver that computes forces, pressure and velocity one after the other is initialised without error.
Missing: bodies with fewer points than processes (`C64_false_no_points`) and bodies near an end of a periodic mesh (`C29_false_ub`). -/
theorem C64_decoupled_start_partial (C : Constructed debug L G axes T B) (nu : K) (es : List (Expr K)) (pe : Option (Expr K))
    (enough : L.dim ≤ es.length) (few : es.length ≤ 4)
    (hP : ∃ haveAmgX output node, readParams haveAmgX output node (some ⟨some nu, some es, pe⟩) = .ok P) (hBN : 1 ≤ P.BN)
    (hs : P.nstart = 0) (disk : Disk K) (fit : BodiesOK L bodies)
    (hroom : (∀ d, d < L.dim → L.periodic 0 d = false) ∨
      ∀ body ∈ bodies.bodies, ∀ i p, i < body.nPts → body.coords[i]? = some p → WindowInside L axes window p)
    (hin : ∀ body ∈ bodies.bodies, ∀ i, i < body.nPts → ∃ p : List K, body.coords[i]? = some p ∧ ∀ d, d < L.dim →
      ∃ x, p[d]? = some x ∧ (axes d).min < x ∧ x < (axes d).max)
    (hown : ∀ (r : ℕ) (body : SingleBody K), r < L.mpiSize → body ∈ bodies.bodies → ∃ i, OwnsPoint body r i)
    (hk : ∀ r h : K, 0 < h → ∃ v, kernel r h = .ok v) :
    ∃ ops ib s disk', IBStarted debug L G axes T B P (some ⟨some nu, some es, pe⟩) bodies kernel window ops ib disk s disk' := by
  obtain ⟨ops, s, disk', S⟩ := C60_start C nu es pe enough few hP hBN hs disk
  obtain ⟨Δ, idx, h1, h2⟩ := C64_operator_partial C fit hroom hin hown hk
  obtain ⟨_, _, s₀, h3, h4⟩ := S
  obtain ⟨U, _, _, _, e0⟩ := solverInit_ok h3
  obtain ⟨E, H, h5⟩ := createEH_total C [.setGhostICs U] h2
  obtain ⟨BN, h6⟩ := bnHead_total L.UN ops.L P.dt (P.diff.implicitCoeff * P.nu) hBN
  have h7 : s₀.B = fun r => (B r).run [.setGhostICs U] := by rw [e0]
  refine ⟨ops, ⟨bodies.nPts * bodies.dim, E, H, Mat.mul L.UN BN H, Mat.mul L.UN E (Mat.mul L.UN BN H)⟩, ⟨s, fun _ => 0, fun _ => 0⟩, disk', C, hP, fit, ⟨s₀, fun _ => 0, fun _ => 0⟩, ?_, ?_⟩
  · unfold decoupledInit createExtraOperators
    rw [h3]
    simp only [bind, Except.bind, h1, h7, h5, h6]
    rfl
  · unfold ioInitialData at h4
    unfold decoupledIoInitialData
    have h8 : s₀.ite = 0 := by rw [e0]; exact hs
    rw [if_pos h8] at h4 ⊢
    obtain ⟨d, h9, h4⟩ := bind_ok h4
    cases h4
    rw [h9]
    rfl

/-- C64. The same for the solver that computes pressure and forces together. Missing: as for `C64_decoupled_start_partial`. -/
theorem C64_coupled_start_partial (C : Constructed debug L G axes T B) (nu : K) (es : List (Expr K)) (pe : Option (Expr K))
    (enough : L.dim ≤ es.length) (few : es.length ≤ 4)
    (hP : ∃ haveAmgX output node, readParams haveAmgX output node (some ⟨some nu, some es, pe⟩) = .ok P) (hBN : 1 ≤ P.BN)
    (hs : P.nstart = 0) (disk : Disk K) (fit : BodiesOK L bodies)
    (hroom : (∀ d, d < L.dim → L.periodic 0 d = false) ∨
      ∀ body ∈ bodies.bodies, ∀ i p, i < body.nPts → body.coords[i]? = some p → WindowInside L axes window p)
    (hin : ∀ body ∈ bodies.bodies, ∀ i, i < body.nPts → ∃ p : List K, body.coords[i]? = some p ∧ ∀ d, d < L.dim →
      ∃ x, p[d]? = some x ∧ (axes d).min < x ∧ x < (axes d).max)
    (hown : ∀ (r : ℕ) (body : SingleBody K), r < L.mpiSize → body ∈ bodies.bodies → ∃ i, OwnsPoint body r i)
    (hk : ∀ r h : K, 0 < h → ∃ v, kernel r h = .ok v) :
    ∃ ops s disk', CoupledStarted debug L G axes T B P (some ⟨some nu, some es, pe⟩) bodies kernel window ops disk s disk' := by
  obtain ⟨U, p, hU, _⟩ := C56_initial_conditions C.setup.layout G nu es pe enough few (fun _ => 0) fun _ => 0
  obtain ⟨ops₀, hops⟩ := createOperators_total C P hBN [.setGhostICs U]
  obtain ⟨Δ, idx, h1, h2⟩ := C64_operator_partial C fit hroom hin hown hk
  obtain ⟨E, H, h5⟩ := createEH_total C [.setGhostICs U] h2
  obtain ⟨D, Dm, Gr, La, Lm, BN, o1, o2, o3, o4, _⟩ := createOperators_ok hops
  have hw : ∀ s : NSState K, ∃ d, ibpmWriteSolution L (nestCounts L bodies) s disk (stepPath P.output s.ite) = .ok d := fun s => by
    obtain ⟨file, hf, _⟩ := writeSolution_spec C.setup.layout { s with p := subPressure (nestCounts L bodies) s.p } disk (stepPath P.output s.ite)
    exact ⟨_, hf⟩
  have hB : (fun r => (B r).setGhostICs U) = fun r => (B r).run [.setGhostICs U] := rfl
  have hi : ∃ ops EH s₀, ibpmInit debug L G axes P (some ⟨some nu, some es, pe⟩) B bodies kernel window = .ok ((ops, EH), s₀) ∧ s₀.ite = 0 := by
    unfold ibpmInit ibpmCreateOperators
    rw [hU]
    simp only [bind, Except.bind, hB, o1, o2, o3, h1, h5, o4]
    exact ⟨_, _, _, rfl, hs⟩
  obtain ⟨ops, EH, s₀, hi, hz⟩ := hi
  obtain ⟨d, hd⟩ := hw s₀
  refine ⟨ops, s₀, d, C, hP, fit, s₀, EH, hi, ?_⟩
  unfold ibpmIoInitialData
  rw [if_pos hz, hd]
  rfl

/-- C64. The same for prescribed motion, if the motion keeps the numbers of points. Missing: as for `C64_decoupled_start_partial`. -/
theorem C64_moving_start_partial (C : Constructed debug L G axes T B) (nu : K) (es : List (Expr K)) (pe : Option (Expr K))
    (enough : L.dim ≤ es.length) (few : es.length ≤ 4)
    (hP : ∃ haveAmgX output node, readParams haveAmgX output node (some ⟨some nu, some es, pe⟩) = .ok P) (hBN : 1 ≤ P.BN)
    (hs : P.nstart = 0) (disk : Disk K) (fit : BodiesOK L bodies) {M : Motion K} (hM : ∀ t b, BodiesOK L b → BodiesOK L (M.coordinates t b))
    (hroom : (∀ d, d < L.dim → L.periodic 0 d = false) ∨
      ∀ body ∈ bodies.bodies, ∀ i p, i < body.nPts → body.coords[i]? = some p → WindowInside L axes window p)
    (hin : ∀ body ∈ bodies.bodies, ∀ i, i < body.nPts → ∃ p : List K, body.coords[i]? = some p ∧ ∀ d, d < L.dim →
      ∃ x, p[d]? = some x ∧ (axes d).min < x ∧ x < (axes d).max)
    (hown : ∀ (r : ℕ) (body : SingleBody K), r < L.mpiSize → body ∈ bodies.bodies → ∃ i, OwnsPoint body r i)
    (hk : ∀ r h : K, 0 < h → ∃ v, kernel r h = .ok v) :
    ∃ ops s disk', RigidStarted debug L G axes T B P (some ⟨some nu, some es, pe⟩) bodies M kernel window ops disk s disk' ∧
      rigidInit debug L G axes P (some ⟨some nu, some es, pe⟩) B bodies kernel window = .ok (ops, s) := by
  obtain ⟨ops, ib, s, disk', S⟩ := C64_decoupled_start_partial C nu es pe enough few hP hBN hs disk fit hroom hin hown hk
  refine ⟨ops, ⟨s, bodies, fun _ => 0, ib⟩, disk', ⟨S, rfl, rfl, hM⟩, ?_⟩
  obtain ⟨-, -, -, s₀, h1, h2⟩ := S
  have e : s₀ = s := by
    have hz : s₀.ns.ite = 0 := by
      obtain ⟨⟨ops', ns⟩, h3, h1⟩ := bind_ok h1
      obtain ⟨idx, h4, h1⟩ := bind_ok h1
      obtain ⟨ib', h5, h1⟩ := bind_ok h1
      cases h1
      obtain ⟨_, _, _, _, rfl⟩ := solverInit_ok h3
      exact hs
    unfold decoupledIoInitialData at h2
    rw [if_pos hz] at h2
    obtain ⟨d, h9, h2⟩ := bind_ok h2
    cases h2
    rfl
  unfold rigidInit
  rw [h1, e]
  rfl

end PetIBM
