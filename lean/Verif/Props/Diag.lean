/-
Property C25: the diagonal matrices.
-/
import Verif.Lemmas.Diag
import Verif.Lemmas.Widths
import Verif.Props.Convection

set_option linter.unusedSectionVars false

namespace PetIBM

open Spec

variable {K : Type} [Field K] [LinearOrder K] [IsStrictOrderedRing K]
variable {L : Layout} {G : Geom K} {axes : ℕ → Axis K}

theorem area_pos (S : Setup L G axes) {f : ℕ} (hf : f < L.dim) {s : Stencil} (hs : Inside L.toMeshInfo f s) :
    0 < faceArea G f f s := by
  have h3 := S.dim_le
  have w : ∀ e, e < 3 → 0 < G.dL f e (coordOf s e) := by
    intro e he
    have := hs.1 e he
    by_cases h : e < L.dim
    · exact S.width_pos hf h this.1 this.2
    · obtain ⟨h1, h2⟩ := S.flat_width hf (by omega) he
      have : coordOf s e = 0 := by omega
      rw [this, h2]
      exact zero_lt_one
  have w0 := w 0 (by omega)
  have w1 := w 1 (by omega)
  have w2 := w 2 (by omega)
  have hf3 : f < 3 := by omega
  unfold faceArea
  interval_cases f <;> simp [List.range_succ] <;> positivity

/-- C25. All five diagonal matrices are created. Their entries off the diagonal vanish; on the diagonal of the row of a
velocity point stand the area of its face, the inverse of the area, the width in the direction of the component, the
quotient of the two, and one. The entries of `R` and `RInv` are positive and cancel. -/
theorem C25_diagonals (debug : Bool) (S : Setup L G axes) :
    ∃ R RInv MHead M I : Mat K, createR debug L G = .ok R ∧ createRInv debug L G = .ok RInv ∧
      createMHead debug L G = .ok MHead ∧ createM debug L G = .ok M ∧ createIdentity debug L = .ok I ∧
      (∀ r c : ℤ, 0 ≤ r → r < L.UN → 0 ≤ c → c ≠ r → R r c = 0 ∧ RInv r c = 0 ∧ MHead r c = 0 ∧ M r c = 0 ∧ I r c = 0) ∧
      ∀ f s idx, f < L.dim → Inside L.toMeshInfo f s → L.getPackedGlobalIndex debug f s = .ok idx →
        R idx idx = faceArea G f f s ∧ 0 < R idx idx ∧ RInv idx idx * R idx idx = 1 ∧
        MHead idx idx = G.dL f f (coordOf s f) ∧ 0 < MHead idx idx ∧
        M idx idx = MHead idx idx / R idx idx ∧ I idx idx = 1 := by
  have hL := S.layout
  have h3 := S.dim_le
  unfold createR createRInv createMHead createM createIdentity
  obtain ⟨R, eR, hR⟩ := diag_rows hL debug fun f i j k => match f with
    | 0 => G.dL 0 1 j * G.dL 0 2 k
    | 1 => G.dL 1 0 i * G.dL 1 2 k
    | _ => G.dL 2 0 i * G.dL 2 1 j
  obtain ⟨V, eV, hV⟩ := diag_rows hL debug fun f i j k => match f with
    | 0 => 1 / (G.dL 0 1 j * G.dL 0 2 k)
    | 1 => 1 / (G.dL 1 0 i * G.dL 1 2 k)
    | _ => 1 / (G.dL 2 0 i * G.dL 2 1 j)
  obtain ⟨H, eH, hH⟩ := diag_rows hL debug fun f i j k => match f with
    | 0 => G.dL 0 0 i
    | 1 => G.dL 1 1 j
    | _ => G.dL 2 2 k
  obtain ⟨M, eM, hM⟩ := diag_rows hL debug fun f i j k => match f with
    | 0 => G.dL 0 0 i / (G.dL 0 1 j * G.dL 0 2 k)
    | 1 => G.dL 1 1 j / (G.dL 1 0 i * G.dL 1 2 k)
    | _ => G.dL 2 2 k / (G.dL 2 0 i * G.dL 2 1 j)
  obtain ⟨I, eI, hI⟩ := diag_rows hL debug fun _ _ _ _ => (1 : K)
  refine ⟨R, V, H, M, I, eR, eV, eH, eM, eI, ?_, ?_⟩
  · intro r c h0 h1 hc hne
    obtain ⟨u, hu, rfl⟩ := col_surj hL h0 h1
    rw [hR u hu c hc, hV u hu c hc, hH u hu c hc, hM u hu c hc, hI u hu c hc]
    simp [hne]
  · intro f s idx hf hs hidx
    obtain ⟨u, _, hu, rfl, rfl⟩ := exists_unknown hL hf hs
    rw [(col_inside hL (Or.inl hf) debug hs).1] at hidx
    cases hidx
    have h0 := (col_range hL hu).1
    have hpos := area_pos S hf hs
    have hx := hs.1 u.comp (by omega)
    have wpos := S.width_pos hf hf hx.1 hx.2
    rw [hR u hu _ h0, hV u hu _ h0, hH u hu _ h0, hM u hu _ h0, hI u hu _ h0]
    simp only [if_true]
    have hA : (match u.comp with
        | 0 => G.dL 0 1 u.j * G.dL 0 2 u.k
        | 1 => G.dL 1 0 u.i * G.dL 1 2 u.k
        | _ => G.dL 2 0 u.i * G.dL 2 1 u.j) = faceArea G u.comp u.comp u.st := by
      obtain ⟨r, f, i, j, k⟩ := u
      simp only at hf
      have hf3 : f < 3 := by omega
      unfold faceArea
      interval_cases f <;> simp [List.range_succ, coordOf, Unknown.st]
    have hB : (match u.comp with
        | 0 => G.dL 0 0 u.i
        | 1 => G.dL 1 1 u.j
        | _ => G.dL 2 2 u.k) = G.dL u.comp u.comp (coordOf u.st u.comp) := by
      obtain ⟨r, f, i, j, k⟩ := u
      simp only at hf
      have hf3 : f < 3 := by omega
      interval_cases f <;> rfl
    rw [hA, hB]
    refine ⟨rfl, hpos, ?_, rfl, wpos, ?_, trivial⟩
    · rw [← hA] at hpos ⊢
      split at hpos <;> exact one_div_mul_cancel hpos.ne'
    · rw [← hA, ← hB]
      split <;> rfl

/-- C25. Converting a velocity vector to fluxes multiplies each unknown by the area of its face; converting back restores
the vector, and so do the conversions in the other order. -/
theorem C25_convert_round_trip (debug : Bool) (S : Setup L G axes) :
    ∃ R RInv : Mat K, createR debug L G = .ok R ∧ createRInv debug L G = .ok RInv ∧ ∀ (U : ℤ → K),
      (∀ f s idx, f < L.dim → Inside L.toMeshInfo f s → L.getPackedGlobalIndex debug f s = .ok idx →
        convert2Flux L R U idx = faceArea G f f s * U idx) ∧
      ∀ r : ℤ, 0 ≤ r → r < L.UN → convert2Velocity L RInv (convert2Flux L R U) r = U r ∧
        convert2Flux L R (convert2Velocity L RInv U) r = U r := by
  obtain ⟨R, V, _, _, _, eR, eV, _, _, _, off, on⟩ := C25_diagonals debug S
  have hL := S.layout
  have rowR : ∀ r : ℤ, 0 ≤ r → r < L.UN → ∀ q, Mat.mult L.UN R q r = R r r * q r := by
    intro r h0 h1 q
    refine diag_mult h0 h1 (fun x hx => ?_) q
    split_ifs with h
    · rw [h]
    · exact (off r x h0 h1 hx h).1
  have rowV : ∀ r : ℤ, 0 ≤ r → r < L.UN → ∀ q, Mat.mult L.UN V q r = V r r * q r := by
    intro r h0 h1 q
    refine diag_mult h0 h1 (fun x hx => ?_) q
    split_ifs with h
    · rw [h]
    · exact (off r x h0 h1 hx h).2.1
  refine ⟨R, V, eR, eV, ?_⟩
  intro U
  constructor
  · intro f s idx hf hs hidx
    have hr := on f s idx hf hs hidx
    obtain ⟨u, _, hu, rfl, rfl⟩ := exists_unknown hL hf hs
    rw [(col_inside hL (Or.inl hf) debug hs).1] at hidx
    cases hidx
    have := col_range hL hu
    unfold convert2Flux
    rw [rowR _ this.1 this.2, hr.1]
  · intro r h0 h1
    obtain ⟨u, hu, rfl⟩ := col_surj hL h0 h1
    obtain ⟨_, _, e, _⟩ := on u.comp u.st _ hu.1 hu.inside (col_inside hL (Or.inl hu.1) debug hu.inside).1
    unfold convert2Velocity convert2Flux
    rw [rowV _ h0 h1, rowR _ h0 h1, rowR _ h0 h1, rowV _ h0 h1, ← mul_assoc, ← mul_assoc, e, mul_comm (R _ _), e, one_mul]
    exact ⟨rfl, rfl⟩

example : ∃ B, Constructed true (exampleWalls 2 1) exampleWallsGeom exampleAxes exampleWallsTable B := exampleWalls_constructed
example : ∃ R M, createR true (exampleWalls 2 1) exampleWallsGeom = .ok R ∧ createM true (exampleWalls 2 1) exampleWallsGeom = .ok M ∧
    R 0 0 ≠ 0 ∧ M 0 0 ≠ R 0 0 := by
  refine ⟨_, _, rfl, rfl, ?_, ?_⟩ <;> decide +kernel

end PetIBM
