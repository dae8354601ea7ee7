/-
One step in two systems of coordinates.
-/
import Verif.Lemmas.TurnSpec

set_option linter.unusedSectionVars false

namespace PetIBM

open Spec

variable {K : Type} [Field K] [LinearOrder K] [IsStrictOrderedRing K]
variable {t : Turn} {debug : Bool} {L₁ L₂ : Layout} {G₁ G₂ : Geom K} {axes₁ axes₂ : ℕ → Axis K} {T₁ T₂ : BCTable K} {B₁ B₂ : ℕ → Boundary K}

/-- the same pressure up to a constant -/
def TurnPres (t : Turn) (L₁ L₂ : Layout) (p₁ p₂ : ℤ → K) : Prop :=
  ∃ c, ∀ s, Inside L₁.toMeshInfo 3 s → p₂ (col L₂ 3 (t.point L₁.toMeshInfo 3 s)) = p₁ (col L₁ 3 s) + c

theorem TurnVel.zero : TurnVel (K := K) t L₁ L₂ (fun _ => 0) fun _ => 0 := fun _ _ _ _ => (mul_zero _).symm

section Transport
variable (D : Turned t L₁ L₂ axes₁ axes₂ T₁ T₂) (S₁ : Setup L₁ G₁ axes₁) (S₂ : Setup L₂ G₂ axes₂)
include D S₁ S₂

theorem turn_in {f : ℕ} (hf : f < L₁.dim) {s : Stencil} (hs : Inside L₁.toMeshInfo f s) :
    t.perm f < L₂.dim ∧ Inside L₂.toMeshInfo (t.perm f) (t.point L₁.toMeshInfo f s) :=
  ⟨by rw [D.dim]; exact D.turn.lt hf, (turn_inside D S₁ S₂ (Or.inl hf)).2 hs⟩

theorem turn_in_cell {s : Stencil} (hs : Inside L₁.toMeshInfo 3 s) : Inside L₂.toMeshInfo 3 (t.point L₁.toMeshInfo 3 s) := by
  have := (turn_inside D S₁ S₂ (Or.inr rfl : 3 < L₁.dim ∨ 3 = 3)).2 hs
  rwa [D.turn.three S₁.dim_le] at this

theorem turn_cell_of {s : Stencil} (hs : Inside L₂.toMeshInfo 3 s) : ∃ u, Inside L₁.toMeshInfo 3 u ∧ t.point L₁.toMeshInfo 3 u = s := by
  rw [← D.turn.three S₁.dim_le] at hs
  exact turn_point_of D S₁ S₂ (Or.inr rfl) hs

theorem point_inj {f : ℕ} {s u : Stencil} (h : t.point L₁.toMeshInfo f s = t.point L₁.toMeshInfo f u) : s = u := by
  rw [← turnBack_point D.turn S₁.dim_le L₁.toMeshInfo f s, h, turnBack_point D.turn S₁.dim_le]

theorem exists_turnVel (q : ℤ → K) : ∃ q', TurnVel t L₁ L₂ q q' := by
  classical
  refine ⟨fun j => if h : ∃ u : ℕ × Stencil, u.1 < L₁.dim ∧ Inside L₁.toMeshInfo u.1 u.2 ∧ col L₂ (t.perm u.1) (t.point L₁.toMeshInfo u.1 u.2) = j then
    t.sign h.choose.1 * q (col L₁ h.choose.1 h.choose.2) else 0, ?_⟩
  intro f hf s hs
  have hex : ∃ u : ℕ × Stencil, u.1 < L₁.dim ∧ Inside L₁.toMeshInfo u.1 u.2 ∧
      col L₂ (t.perm u.1) (t.point L₁.toMeshInfo u.1 u.2) = col L₂ (t.perm f) (t.point L₁.toMeshInfo f s) := ⟨(f, s), hf, hs, rfl⟩
  simp only
  rw [dif_pos hex]
  obtain ⟨e1, e2, e3⟩ := hex.choose_spec
  obtain ⟨x1, x2⟩ := turn_in D S₁ S₂ e1 e2
  obtain ⟨y1, y2⟩ := turn_in D S₁ S₂ hf hs
  obtain ⟨e4, e5⟩ := col_inj S₂.layout x1 y1 x2 y2 e3
  have e6 := t.perm.injective e4
  rw [e6] at e5
  rw [point_inj D S₁ S₂ e5, e6]

theorem exists_turnCells (q : ℤ → K) : ∃ q', TurnCells t L₁ L₂ q q' := by
  classical
  refine ⟨fun j => if h : ∃ s, Inside L₁.toMeshInfo 3 s ∧ col L₂ 3 (t.point L₁.toMeshInfo 3 s) = j then q (col L₁ 3 h.choose) else 0, ?_⟩
  intro s hs
  have hex : ∃ u, Inside L₁.toMeshInfo 3 u ∧ col L₂ 3 (t.point L₁.toMeshInfo 3 u) = col L₂ 3 (t.point L₁.toMeshInfo 3 s) := ⟨s, hs, rfl⟩
  simp only
  rw [dif_pos hex]
  obtain ⟨e1, e2⟩ := hex.choose_spec
  rw [point_inj D S₁ S₂ (col_inj_pressure S₂.layout (turn_in_cell D S₁ S₂ e1) (turn_in_cell D S₁ S₂ hs) e2)]

theorem turn_packed {f : ℕ} (hf : f < L₁.dim) {s : Stencil} (hs : Inside L₁.toMeshInfo f s) (debug : Bool) :
    L₁.getPackedGlobalIndex debug f s = .ok (col L₁ f s) ∧
      L₂.getPackedGlobalIndex debug (t.perm f) (t.point L₁.toMeshInfo f s) = .ok (col L₂ (t.perm f) (t.point L₁.toMeshInfo f s)) := by
  obtain ⟨y1, y2⟩ := turn_in D S₁ S₂ hf hs
  exact ⟨(col_inside S₁.layout (Or.inl hf) debug hs).1, (col_inside S₂.layout (Or.inl y1) debug y2).1⟩

theorem turn_packed_cell {s : Stencil} (hs : Inside L₁.toMeshInfo 3 s) (debug : Bool) :
    L₁.getPackedGlobalIndex debug 3 s = .ok (col L₁ 3 s) ∧
      L₂.getPackedGlobalIndex debug 3 (t.point L₁.toMeshInfo 3 s) = .ok (col L₂ 3 (t.point L₁.toMeshInfo 3 s)) :=
  ⟨(col_inside S₁.layout (Or.inr rfl) debug hs).1, (col_inside S₂.layout (Or.inr rfl) debug (turn_in_cell D S₁ S₂ hs)).1⟩

theorem turn_rows {f : ℕ} (hf : f < L₁.dim) {s : Stencil} (hs : Inside L₁.toMeshInfo f s) :
    (0 ≤ col L₁ f s ∧ col L₁ f s < L₁.UN) ∧ 0 ≤ col L₂ (t.perm f) (t.point L₁.toMeshInfo f s) ∧
      col L₂ (t.perm f) (t.point L₁.toMeshInfo f s) < L₂.UN := by
  obtain ⟨y1, y2⟩ := turn_in D S₁ S₂ hf hs
  obtain ⟨u, -, hu, hc, ht⟩ := exists_unknown S₁.layout hf hs
  obtain ⟨v, -, hv, hvc, hvs⟩ := exists_unknown S₂.layout y1 y2
  have a := col_range S₁.layout hu
  have b := col_range S₂.layout hv
  rw [hc, ht] at a
  rw [hvc, hvs] at b
  exact ⟨a, b⟩

theorem turn_vec {x y : ℤ → K} (h : TurnVel t L₁ L₂ x y) : TurnVel t L₁ L₂ (vec L₁.UN x) (vec L₂.UN y) := by
  intro f hf s hs
  obtain ⟨y1, y2⟩ := turn_in D S₁ S₂ hf hs
  rw [vec_col S₁.layout hf hs, vec_col S₂.layout y1 y2]
  exact h f hf s hs

theorem turn_cells_const {p₁ p₂ : ℤ → K} (h : TurnPres t L₁ L₂ p₁ p₂) : ∃ c, TurnCells t L₁ L₂ (fun i => p₁ i + c) p₂ := by
  obtain ⟨c, hc⟩ := h
  exact ⟨c, hc⟩

end Transport

section Operators
variable (C₁ : Constructed debug L₁ G₁ axes₁ T₁ B₁) (C₂ : Constructed debug L₂ G₂ axes₂ T₂ B₂) (D : Turned t L₁ L₂ axes₁ axes₂ T₁ T₂)
include C₁ C₂ D

theorem turn_periodic_cells {m : ℕ} (hn : ∀ f d, f < L₁.dim → d < L₁.dim → L₁.periodic 0 d = true → m ≤ L₁.n f d) :
    ∀ f d, f < L₂.dim → d < L₂.dim → L₂.periodic 0 d = true → m ≤ L₂.n f d := by
  intro g e hg he hp
  have h3 := C₁.setup.dim_le
  obtain ⟨f, hf, rfl⟩ := turn_field_of D C₁.setup C₂.setup hg
  obtain ⟨d, hd, rfl⟩ := turn_field_of D C₁.setup C₂.setup he
  rw [D.periodic d hd] at hp
  rw [turn_n D C₁.setup C₂.setup (Or.inl hf) (by omega)]
  exact hn f d hf hd hp

theorem laplacian_turn (hn : ∀ f d, f < L₁.dim → d < L₁.dim → L₁.periodic 0 d = true → 3 ≤ L₁.n f d) {h₁ h₂ : List (Boundary.Op K)}
    (hi1 : Initialised h₁) (hi2 : Initialised h₂) (hg : TurnGhosts t L₁ L₂ (fun r => (B₁ r).run h₁) fun r => (B₂ r).run h₂) {A₁ A₂ : Mat K}
    {m₁ m₂ : Modifiers K} (e1 : createLaplacian debug L₁ G₁ (fun r => (B₁ r).run h₁) = .ok (A₁, m₁))
    (e2 : createLaplacian debug L₂ G₂ (fun r => (B₂ r).run h₂) = .ok (A₂, m₂)) :
    (∀ q₁ q₂ : ℤ → K, TurnVel t L₁ L₂ q₁ q₂ → TurnVel t L₁ L₂ (Mat.mult L₁.UN A₁ q₁) (Mat.mult L₂.UN A₂ q₂)) ∧
    ∀ k₁ k₂ : List (Boundary.Op K), TurnGhosts t L₁ L₂ (fun r => (B₁ r).run (h₁ ++ k₁)) (fun r => (B₂ r).run (h₂ ++ k₂)) →
      TurnVel t L₁ L₂ (correctionMult L₁ (fun r => (B₁ r).run (h₁ ++ k₁)) m₁) (correctionMult L₂ (fun r => (B₂ r).run (h₂ ++ k₂)) m₂) := by
  have S₁ := C₁.setup
  have S₂ := C₂.setup
  obtain ⟨A, m, e, r1⟩ := C22_laplacian_of_extended_field_partial C₁ hn h₁ hi1
  rw [e1] at e
  cases e
  obtain ⟨A, m, e, r2⟩ := C22_laplacian_of_extended_field_partial C₂ (turn_periodic_cells C₁ C₂ D hn) h₂ hi2
  rw [e2] at e
  cases e
  have key : ∀ k₁ k₂ : List (Boundary.Op K), TurnGhosts t L₁ L₂ (fun r => (B₁ r).run (h₁ ++ k₁)) (fun r => (B₂ r).run (h₂ ++ k₂)) →
      ∀ q₁ q₂ : ℤ → K, TurnVel t L₁ L₂ q₁ q₂ → ∀ f, f < L₁.dim → ∀ s, Inside L₁.toMeshInfo f s →
        Mat.mult L₂.UN A₂ q₂ (col L₂ (t.perm f) (t.point L₁.toMeshInfo f s)) +
          correctionMult L₂ (fun r => (B₂ r).run (h₂ ++ k₂)) m₂ (col L₂ (t.perm f) (t.point L₁.toMeshInfo f s)) =
        t.sign f * (Mat.mult L₁.UN A₁ q₁ (col L₁ f s) + correctionMult L₁ (fun r => (B₁ r).run (h₁ ++ k₁)) m₁ (col L₁ f s)) := by
    intro k₁ k₂ hk q₁ q₂ hq f hf s hs
    obtain ⟨V, hV⟩ := exists_extended S₁.layout (C₁.ghosts (h₁ ++ k₁)) q₁
    have hV2 := turn_extended D S₁ S₂ (C₁.ghosts (h₁ ++ k₁)) (C₂.ghosts (h₂ ++ k₂)) hk hq hV
    obtain ⟨x1, x2⟩ := turn_packed D S₁ S₂ hf hs debug
    obtain ⟨y1, y2⟩ := turn_in D S₁ S₂ hf hs
    rw [r1 k₁ q₁ V hV f s _ hf hs x1, r2 k₂ q₂ _ hV2 _ _ _ y1 y2 x2, D.dim, D.turn.sum, Finset.mul_sum]
    exact Finset.sum_congr rfl fun d hd => turn_secondDifference D S₁ S₂ hf (Finset.mem_range.1 hd) hs V
  have corr : ∀ k₁ k₂ : List (Boundary.Op K), TurnGhosts t L₁ L₂ (fun r => (B₁ r).run (h₁ ++ k₁)) (fun r => (B₂ r).run (h₂ ++ k₂)) →
      TurnVel t L₁ L₂ (correctionMult L₁ (fun r => (B₁ r).run (h₁ ++ k₁)) m₁) (correctionMult L₂ (fun r => (B₂ r).run (h₂ ++ k₂)) m₂) := by
    intro k₁ k₂ hk f hf s hs
    have := key k₁ k₂ hk (fun _ => 0) (fun _ => 0) TurnVel.zero f hf s hs
    rwa [mult_zero, mult_zero, zero_add, zero_add] at this
  refine ⟨?_, corr⟩
  intro q₁ q₂ hq f hf s hs
  have a := key [] [] (by simpa using hg) q₁ q₂ hq f hf s hs
  rw [corr [] [] (by simpa using hg) f hf s hs, mul_add] at a
  exact add_right_cancel a

theorem divergence_turn (hn : ∀ f, f < L₁.dim → L₁.periodic 0 f = true → 2 ≤ L₁.n f f)
    (hn' : ∀ f, f < L₂.dim → L₂.periodic 0 f = true → 2 ≤ L₂.n f f) {h₁ h₂ : List (Boundary.Op K)}
    (hi1 : Initialised h₁) (hi2 : Initialised h₂) (hg : TurnGhosts t L₁ L₂ (fun r => (B₁ r).run h₁) fun r => (B₂ r).run h₂) {A₁ A₂ : Mat K}
    {m₁ m₂ : Modifiers K} (e1 : createDivergence debug L₁ G₁ false (fun r => (B₁ r).run h₁) = .ok (A₁, m₁))
    (e2 : createDivergence debug L₂ G₂ false (fun r => (B₂ r).run h₂) = .ok (A₂, m₂)) :
    (∀ q₁ q₂ : ℤ → K, TurnVel t L₁ L₂ q₁ q₂ → TurnCells t L₁ L₂ (Mat.mult L₁.UN A₁ q₁) (Mat.mult L₂.UN A₂ q₂)) ∧
    ∀ k₁ k₂ : List (Boundary.Op K), TurnGhosts t L₁ L₂ (fun r => (B₁ r).run (h₁ ++ k₁)) (fun r => (B₂ r).run (h₂ ++ k₂)) →
      TurnCells t L₁ L₂ (correctionMult L₁ (fun r => (B₁ r).run (h₁ ++ k₁)) m₁) (correctionMult L₂ (fun r => (B₂ r).run (h₂ ++ k₂)) m₂) := by
  have S₁ := C₁.setup
  have S₂ := C₂.setup
  obtain ⟨A, m, e, r1⟩ := C21_divergence_is_net_flux_partial C₁ hn h₁ hi1
  rw [e1] at e
  cases e
  obtain ⟨A, m, e, r2⟩ := C21_divergence_is_net_flux_partial C₂ hn' h₂ hi2
  rw [e2] at e
  cases e
  have key : ∀ k₁ k₂ : List (Boundary.Op K), TurnGhosts t L₁ L₂ (fun r => (B₁ r).run (h₁ ++ k₁)) (fun r => (B₂ r).run (h₂ ++ k₂)) →
      ∀ q₁ q₂ : ℤ → K, TurnVel t L₁ L₂ q₁ q₂ → ∀ s, Inside L₁.toMeshInfo 3 s →
        Mat.mult L₂.UN A₂ q₂ (col L₂ 3 (t.point L₁.toMeshInfo 3 s)) +
          correctionMult L₂ (fun r => (B₂ r).run (h₂ ++ k₂)) m₂ (col L₂ 3 (t.point L₁.toMeshInfo 3 s)) =
        Mat.mult L₁.UN A₁ q₁ (col L₁ 3 s) + correctionMult L₁ (fun r => (B₁ r).run (h₁ ++ k₁)) m₁ (col L₁ 3 s) := by
    intro k₁ k₂ hk q₁ q₂ hq s hs
    obtain ⟨V, hV⟩ := exists_extended S₁.layout (C₁.ghosts (h₁ ++ k₁)) q₁
    have hV2 := turn_extended D S₁ S₂ (C₁.ghosts (h₁ ++ k₁)) (C₂.ghosts (h₂ ++ k₂)) hk hq hV
    obtain ⟨x1, x2⟩ := turn_packed_cell D S₁ S₂ hs debug
    rw [r1 k₁ q₁ V hV s _ hs x1, r2 k₂ q₂ _ hV2 _ _ (turn_in_cell D S₁ S₂ hs) x2, turn_netFlux D S₁ S₂ hs]
  have corr : ∀ k₁ k₂ : List (Boundary.Op K), TurnGhosts t L₁ L₂ (fun r => (B₁ r).run (h₁ ++ k₁)) (fun r => (B₂ r).run (h₂ ++ k₂)) →
      TurnCells t L₁ L₂ (correctionMult L₁ (fun r => (B₁ r).run (h₁ ++ k₁)) m₁) (correctionMult L₂ (fun r => (B₂ r).run (h₂ ++ k₂)) m₂) := by
    intro k₁ k₂ hk s hs
    have := key k₁ k₂ hk (fun _ => 0) (fun _ => 0) TurnVel.zero s hs
    rwa [mult_zero, mult_zero, zero_add, zero_add] at this
  refine ⟨?_, corr⟩
  intro q₁ q₂ hq s hs
  have a := key [] [] (by simpa using hg) q₁ q₂ hq s hs
  rw [corr [] [] (by simpa using hg) s hs] at a
  exact add_right_cancel a

theorem gradient_turn (hn : ∀ f, f < L₁.dim → L₁.periodic 0 f = true → 2 ≤ L₁.n 3 f)
    (hn' : ∀ f, f < L₂.dim → L₂.periodic 0 f = true → 2 ≤ L₂.n 3 f) {A₁ A₂ : Mat K} (e1 : createGradient debug L₁ G₁ false = .ok A₁)
    (e2 : createGradient debug L₂ G₂ false = .ok A₂) {p₁ p₂ : ℤ → K} (hp : TurnCells t L₁ L₂ p₁ p₂) :
    TurnVel t L₁ L₂ (Mat.mult L₁.pN A₁ p₁) (Mat.mult L₂.pN A₂ p₂) := by
  have S₁ := C₁.setup
  have S₂ := C₂.setup
  have h3 := S₁.dim_le
  obtain ⟨A, e, r1⟩ := C19_gradient debug S₁ hn
  rw [e1] at e
  cases e
  obtain ⟨A, e, r2⟩ := C19_gradient debug S₂ hn'
  rw [e2] at e
  cases e
  obtain ⟨P, hP⟩ := exists_stored (debug := debug) S₁.layout p₁
  have hP2 := turn_stored D S₁ S₂ hp hP
  intro f hf s hs
  obtain ⟨x1, x2⟩ := turn_packed D S₁ S₂ hf hs debug
  obtain ⟨y1, y2⟩ := turn_in D S₁ S₂ hf hs
  have hf3 : f < 3 := by omega
  rw [(r1 p₁ P hP f s _ hf hs x1).2, (r2 p₂ _ hP2 _ _ _ y1 y2 x2).2, turn_gap D S₁ S₂ hf hs]
  rw [turn_shift D.turn h3 _ _ _ hf3, cell_point D S₁ S₂ hf, cell_point D S₁ S₂ hf, turnBack_point D.turn h3, turnBack_point D.turn h3,
    shift_shift hf3]
  unfold turnStep Turn.sign
  cases t.flip f with
  | false => simp [shift_zero hf3]
  | true =>
    simp [shift_zero hf3]
    ring

theorem bn_turn {A₁ A₂ : Mat K}
    (hA : ∀ q₁ q₂ : ℤ → K, TurnVel t L₁ L₂ q₁ q₂ → TurnVel t L₁ L₂ (Mat.mult L₁.UN A₁ q₁) (Mat.mult L₂.UN A₂ q₂)) {dt c : K} {n : ℤ} {N₁ N₂ : Mat K}
    (e1 : createBnHead L₁.UN A₁ dt c n = .ok N₁) (e2 : createBnHead L₂.UN A₂ dt c n = .ok N₂) (q₁ q₂ : ℤ → K) (hq : TurnVel t L₁ L₂ q₁ q₂) :
    TurnVel t L₁ L₂ (Mat.mult L₁.UN N₁ q₁) (Mat.mult L₂.UN N₂ q₂) := by
  have S₁ := C₁.setup
  have S₂ := C₂.setup
  unfold createBnHead at e1 e2
  split at e1
  · cases e1
  rename_i hn
  rw [if_neg hn] at e2
  cases e1
  cases e2
  have left : ∀ term, ∀ q₁ q₂ : ℤ → K, TurnVel t L₁ L₂ q₁ q₂ →
      TurnVel t L₁ L₂ (Mat.mult L₁.UN (leftProducts L₁.UN A₁ A₁ term) q₁) (Mat.mult L₂.UN (leftProducts L₂.UN A₂ A₂ term) q₂) := by
    intro term
    unfold leftProducts
    induction term - 2 with
    | zero => simpa using hA
    | succ m ih =>
      intro q₁ q₂ hq
      rw [List.range_succ, List.foldl_append, List.foldl_append]
      intro f hf s hs
      simp only [List.foldl_cons, List.foldl_nil]
      rw [mult_mul, mult_mul]
      exact hA _ _ (ih q₁ q₂ hq) f hf s hs
  induction n.toNat - 1 with
  | zero =>
    intro f hf s hs
    have d1 : ∀ (L : Layout) (q : ℤ → K) (i : ℤ), 0 ≤ i → i < L.UN → Mat.mult L.UN (Mat.shift (fun _ _ => 0) dt) q i = dt * q i := by
      intro L q i h0 h1
      unfold Mat.mult Mat.shift
      obtain ⟨m, rfl⟩ := Int.eq_ofNat_of_zero_le h0
      rw [Finset.sum_eq_single m]
      · simp
      · intro b _ hb
        rw [if_neg (by omega), zero_mul]
      · intro hm
        exact absurd (Finset.mem_range.2 (by omega)) hm
    obtain ⟨a, b⟩ := turn_rows D S₁ S₂ hf hs
    simp only [List.range_zero, List.foldl_nil]
    rw [d1 _ _ _ a.1 a.2, d1 _ _ _ b.1 b.2, hq _ hf _ hs]
    ring
  | succ m ih =>
    intro f hf s hs
    rw [List.range_succ, List.foldl_append, List.foldl_append]
    simp only [List.foldl_cons, List.foldl_nil]
    have ax : ∀ (N : ℕ) (Y X : Mat K) (a : K) (q : ℤ → K) (i : ℤ), Mat.mult N (Mat.axpy Y a X) q i = Mat.mult N Y q i + a * Mat.mult N X q i := by
      intro N Y X a q i
      unfold Mat.mult Mat.axpy
      rw [Finset.mul_sum, ← Finset.sum_add_distrib]
      refine Finset.sum_congr rfl fun c _ => ?_
      ring
    rw [ax, ax, ih f hf s hs, left (m + 2) q₁ q₂ hq f hf s hs]
    ring

end Operators

/-- corresponding flows -/
structure TurnState (t : Turn) (L₁ L₂ : Layout) (s₁ s₂ : NSState K) : Prop where
  vel : TurnVel t L₁ L₂ s₁.U s₂.U
  conv : List.Forall₂ (TurnVel t L₁ L₂) s₁.conv s₂.conv
  diff : List.Forall₂ (TurnVel t L₁ L₂) s₁.diff s₂.diff
  ghosts : TurnGhosts t L₁ L₂ s₁.B s₂.B
  time : s₁.t = s₂.t ∧ s₁.ite = s₂.ite
  pres : TurnPres t L₁ L₂ s₁.p s₂.p

theorem TurnVel.termSum {cs : List K} {l₁ l₂ : List (ℤ → K)} (h : List.Forall₂ (TurnVel t L₁ L₂) l₁ l₂) :
    TurnVel t L₁ L₂ (PetIBM.termSum cs l₁) (PetIBM.termSum cs l₂) := by
  intro f hf s hs
  unfold PetIBM.termSum
  induction h generalizing cs with
  | nil => simp
  | cons a _ ih =>
    cases cs with
    | nil => simp
    | cons c cs =>
      simp only [List.zip_cons_cons, List.map_cons, List.sum_cons]
      rw [ih, a f hf s hs]
      ring

theorem TurnVel.pushTerm {l₁ l₂ : List (ℤ → K)} (h : List.Forall₂ (TurnVel t L₁ L₂) l₁ l₂) {x y : ℤ → K} (hx : TurnVel t L₁ L₂ x y) :
    List.Forall₂ (TurnVel t L₁ L₂) (PetIBM.pushTerm l₁ x) (PetIBM.pushTerm l₂ y) := by
  cases h with
  | nil => exact List.Forall₂.nil
  | cons a b =>
    refine List.Forall₂.cons hx ?_
    have : ∀ {x y : ℤ → K} {l₁ l₂ : List (ℤ → K)}, TurnVel t L₁ L₂ x y → List.Forall₂ (TurnVel t L₁ L₂) l₁ l₂ →
        List.Forall₂ (TurnVel t L₁ L₂) (x :: l₁).dropLast (y :: l₂).dropLast := by
      intro x y l₁ l₂ hxy h
      induction h generalizing x y with
      | nil => exact List.Forall₂.nil
      | cons c d ih => exact List.Forall₂.cons hxy (ih c)
    exact this a b

/-- corresponding operators -/
structure TurnOps (t : Turn) (L₁ L₂ : Layout) (o₁ o₂ : NSOps K) (B₁ B₂ : ℕ → Boundary K) (u₁ u₂ : ℤ → K) : Prop where
  size : o₁.pN = L₁.pN ∧ o₂.pN = L₂.pN
  ref : o₁.isRefP = false ∧ o₂.isRefP = false
  lap : ∀ q₁ q₂ : ℤ → K, TurnVel t L₁ L₂ q₁ q₂ → TurnVel t L₁ L₂ (Mat.mult L₁.UN o₁.L q₁) (Mat.mult L₂.UN o₂.L q₂)
  lapCorr : ∀ k₁ k₂ : List (Boundary.Op K), TurnGhosts t L₁ L₂ (fun r => (B₁ r).run ([.setGhostICs u₁] ++ k₁)) (fun r => (B₂ r).run ([.setGhostICs u₂] ++ k₂)) →
    TurnVel t L₁ L₂ (correctionMult L₁ (fun r => (B₁ r).run ([.setGhostICs u₁] ++ k₁)) o₁.Lmods)
      (correctionMult L₂ (fun r => (B₂ r).run ([.setGhostICs u₂] ++ k₂)) o₂.Lmods)
  div : ∀ q₁ q₂ : ℤ → K, TurnVel t L₁ L₂ q₁ q₂ → TurnCells t L₁ L₂ (Mat.mult L₁.UN o₁.D q₁) (Mat.mult L₂.UN o₂.D q₂)
  divCorr : ∀ k₁ k₂ : List (Boundary.Op K), TurnGhosts t L₁ L₂ (fun r => (B₁ r).run ([.setGhostICs u₁] ++ k₁)) (fun r => (B₂ r).run ([.setGhostICs u₂] ++ k₂)) →
    TurnCells t L₁ L₂ (correctionMult L₁ (fun r => (B₁ r).run ([.setGhostICs u₁] ++ k₁)) o₁.Dmods)
      (correctionMult L₂ (fun r => (B₂ r).run ([.setGhostICs u₂] ++ k₂)) o₂.Dmods)
  grad : ∀ p₁ p₂ : ℤ → K, TurnPres t L₁ L₂ p₁ p₂ → TurnVel t L₁ L₂ (Mat.mult L₁.pN o₁.G p₁) (Mat.mult L₂.pN o₂.G p₂)
  impl : ∀ q₁ q₂ : ℤ → K, TurnVel t L₁ L₂ q₁ q₂ → TurnVel t L₁ L₂ (Mat.mult L₁.UN o₁.A q₁) (Mat.mult L₂.UN o₂.A q₂)
  bng : ∀ p₁ p₂ : ℤ → K, TurnPres t L₁ L₂ p₁ p₂ → TurnVel t L₁ L₂ (Mat.mult L₁.pN o₁.BNG p₁) (Mat.mult L₂.pN o₂.BNG p₂)
  dbng : ∀ p₁ p₂ : ℤ → K, TurnCells t L₁ L₂ p₁ p₂ → TurnCells t L₁ L₂ (Mat.mult L₁.pN o₁.DBNG p₁) (Mat.mult L₂.pN o₂.DBNG p₂)

theorem turnOps (C₁ : Constructed debug L₁ G₁ axes₁ T₁ B₁) (C₂ : Constructed debug L₂ G₂ axes₂ T₂ B₂) (D : Turned t L₁ L₂ axes₁ axes₂ T₁ T₂)
    (hn : ∀ f d, f < L₁.dim → d < L₁.dim → L₁.periodic 0 d = true → 3 ≤ L₁.n f d) {P : NSParams K} (hpt : P.pType = .ksp) {u₁ u₂ : ℤ → K}
    (hu : TurnVel t L₁ L₂ u₁ u₂) {o₁ o₂ : NSOps K} (e1 : createOperators debug L₁ G₁ P (fun r => (B₁ r).run [.setGhostICs u₁]) = .ok o₁)
    (e2 : createOperators debug L₂ G₂ P (fun r => (B₂ r).run [.setGhostICs u₂]) = .ok o₂) : TurnOps t L₁ L₂ o₁ o₂ B₁ B₂ u₁ u₂ := by
  have S₁ := C₁.setup
  have S₂ := C₂.setup
  have hg := turnGhosts_init C₁ C₂ D hu
  have hn' := turn_periodic_cells C₁ C₂ D hn
  have hn2 : ∀ f, f < L₁.dim → L₁.periodic 0 f = true → 2 ≤ L₁.n f f := fun f hf hp => by
    have := hn f f hf hf hp
    omega
  have hn2' : ∀ f, f < L₂.dim → L₂.periodic 0 f = true → 2 ≤ L₂.n f f := fun f hf hp => by
    have := hn' f f hf hf hp
    omega
  have hn3 : ∀ f, f < L₁.dim → L₁.periodic 0 f = true → 2 ≤ L₁.n 3 f := fun f hf hp =>
    (hn2 f hf hp).trans (S₁.n_le f f hf (by have := S₁.dim_le; omega))
  have hn3' : ∀ f, f < L₂.dim → L₂.periodic 0 f = true → 2 ≤ L₂.n 3 f := fun f hf hp =>
    (hn2' f hf hp).trans (S₂.n_le f f hf (by have := S₂.dim_le; omega))
  obtain ⟨D₁, Dm₁, Gr₁, La₁, Lm₁, N₁, a1, a2, a3, a4, rfl⟩ := createOperators_ok e1
  obtain ⟨D₂, Dm₂, Gr₂, La₂, Lm₂, N₂, b1, b2, b3, b4, rfl⟩ := createOperators_ok e2
  obtain ⟨lap, lapC⟩ := laplacian_turn C₁ C₂ D hn ⟨u₁, [], rfl⟩ ⟨u₂, [], rfl⟩ hg a3 b3
  obtain ⟨dv, dvC⟩ := divergence_turn C₁ C₂ D hn2 hn2' ⟨u₁, [], rfl⟩ ⟨u₂, [], rfl⟩ hg a1 b1
  have bn := bn_turn C₁ C₂ D lap a4 b4
  have gr : ∀ p₁ p₂ : ℤ → K, TurnPres t L₁ L₂ p₁ p₂ → TurnVel t L₁ L₂ (Mat.mult L₁.pN Gr₁ p₁) (Mat.mult L₂.pN Gr₂ p₂) := by
    rintro p₁ p₂ ⟨c, hc⟩
    have h := gradient_turn C₁ C₂ D hn3 hn3' a2 b2 (p₁ := fun i => p₁ i + c) (p₂ := p₂) hc
    intro f hf s hs
    rw [h f hf s hs]
    obtain ⟨this, -⟩ := turn_rows D S₁ S₂ hf hs
    have z := gradient_const S₁ hn3 a2 (φ := fun _ => c) (fun _ _ _ _ _ _ => rfl) this.1 this.2
    have e : Mat.mult L₁.pN Gr₁ (fun i => p₁ i + c) (col L₁ f s) =
        Mat.mult L₁.pN Gr₁ p₁ (col L₁ f s) + Mat.mult L₁.pN Gr₁ (fun _ => c) (col L₁ f s) := by
      unfold Mat.mult
      rw [← Finset.sum_add_distrib]
      refine Finset.sum_congr rfl fun c _ => ?_
      ring
    rw [e, z, add_zero]
  have bng : ∀ p₁ p₂ : ℤ → K, TurnPres t L₁ L₂ p₁ p₂ →
      TurnVel t L₁ L₂ (Mat.mult L₁.pN (Mat.mul L₁.UN N₁ Gr₁) p₁) (Mat.mult L₂.pN (Mat.mul L₂.UN N₂ Gr₂) p₂) := by
    intro p₁ p₂ hp f hf s hs
    rw [mult_mul, mult_mul]
    exact bn _ _ (gr p₁ p₂ hp) f hf s hs
  have dbng : ∀ p₁ p₂ : ℤ → K, TurnCells t L₁ L₂ p₁ p₂ →
      TurnCells t L₁ L₂ (Mat.mult L₁.pN (Mat.mul L₁.UN D₁ (Mat.mul L₁.UN N₁ Gr₁)) p₁) (Mat.mult L₂.pN (Mat.mul L₂.UN D₂ (Mat.mul L₂.UN N₂ Gr₂)) p₂) := by
    intro p₁ p₂ hp s hs
    rw [mult_mul, mult_mul]
    exact dv _ _ (bng p₁ p₂ ⟨0, fun s hs => by rw [add_zero]; exact hp s hs⟩) s hs
  refine ⟨⟨rfl, rfl⟩, ?_, lap, lapC, dv, dvC, gr, ?_, bng, ?_⟩
  · constructor
    · show (setNullSpace P.pType _).2 = false
      rw [hpt]
      rfl
    · show (setNullSpace P.pType _).2 = false
      rw [hpt]
      rfl
  · intro q₁ q₂ hq f hf s hs
    show Mat.mult L₂.UN (Mat.shift (Mat.scale La₂ _) _) q₂ _ = _ * Mat.mult L₁.UN (Mat.shift (Mat.scale La₁ _) _) q₁ _
    obtain ⟨a, b⟩ := turn_rows D S₁ S₂ hf hs
    rw [mult_implicit La₁ _ _ _ a.1 a.2, mult_implicit La₂ _ _ _ b.1 b.2, lap q₁ q₂ hq f hf s hs, hq f hf s hs]
    ring
  · intro p₁ p₂ hp s hs
    show Mat.mult L₂.pN (setNullSpace P.pType _).1 p₂ _ = Mat.mult L₁.pN (setNullSpace P.pType _).1 p₁ _
    rw [hpt]
    exact dbng p₁ p₂ hp s hs

variable {P : NSParams K} {flow₁ flow₂ : Option (FlowNode K)} {o₁ o₂ : NSOps K} {disk₁ disk₁' disk₂ disk₂' : Disk K} {i₁ i₂ : NSState K}

theorem convection_turn (C₁ : Constructed debug L₁ G₁ axes₁ T₁ B₁) (C₂ : Constructed debug L₂ G₂ axes₂ T₂ B₂) (D : Turned t L₁ L₂ axes₁ axes₂ T₁ T₂)
    (know₁ : ∀ u, IsUnknown L₁ u → KnowsWalls L₁ T₁ u.rank u.comp ⟨u.k, u.j, u.i, 0⟩)
    (know₂ : ∀ u, IsUnknown L₂ u → KnowsWalls L₂ T₂ u.rank u.comp ⟨u.k, u.j, u.i, 0⟩) {N₁ N₂ : ℕ} {u₁ u₂ : ℤ → K} {s₁ s₂ : NSState K}
    (R₁ : Reach L₁ B₁ P N₁ u₁ s₁) (R₂ : Reach L₂ B₂ P N₂ u₂ s₂) (hs : TurnState t L₁ L₂ s₁ s₂) {w₁ w₂ : ℤ → K}
    (e1 : convectionMult L₁ G₁ s₁.B (fun _ _ _ => 0) s₁.U (fun _ => 0) = .ok w₁)
    (e2 : convectionMult L₂ G₂ s₂.B (fun _ _ _ => 0) s₂.U (fun _ => 0) = .ok w₂) : TurnVel t L₁ L₂ w₁ w₂ := by
  have S₁ := C₁.setup
  have S₂ := C₂.setup
  obtain ⟨h₁, b1, j1⟩ := R₁.hist
  obtain ⟨h₂, b2, j2⟩ := R₂.hist
  have hg := hs.ghosts
  rw [b1] at e1 hg
  rw [b2] at e2 hg
  obtain ⟨z, hz, k1⟩ := C58_closed_walls C₁ ([.setGhostICs u₁] ++ h₁) ⟨u₁, h₁, rfl⟩ s₁.U s₁.U (fun _ => 0) j1
  rw [e1] at hz
  cases hz
  obtain ⟨z, hz, k2⟩ := C58_closed_walls C₂ ([.setGhostICs u₂] ++ h₂) ⟨u₂, h₂, rfl⟩ s₂.U s₂.U (fun _ => 0) j2
  rw [e2] at hz
  cases hz
  obtain ⟨V, hV⟩ := exists_filled S₁ C₁.part (C₁.ghosts ([.setGhostICs u₁] ++ h₁)) s₁.U
  have hV2 := turn_filled D S₁ S₂ (C₁.ghosts _) (C₂.ghosts _) hg hs.vel hV
  intro f hf s hin
  obtain ⟨x1, x2⟩ := turn_packed D S₁ S₂ hf hin debug
  obtain ⟨u, -, hu, rfl, hus⟩ := exists_unknown S₁.layout hf hin
  obtain ⟨hf2, hin2⟩ := turn_in D S₁ S₂ hf hin
  obtain ⟨v, -, hv, hvc, hvs⟩ := exists_unknown S₂.layout hf2 hin2
  have a := k1 V hV u _ hu (know₁ u hu) (by rw [show (⟨u.k, u.j, u.i, 0⟩ : Stencil) = u.st from rfl, hus]; exact x1)
  have b := k2 _ hV2 v _ hv (know₂ v hv) (by rw [show (⟨v.k, v.j, v.i, 0⟩ : Stencil) = v.st from rfl, hvs, hvc]; exact x2)
  rw [a, b, show (⟨u.k, u.j, u.i, 0⟩ : Stencil) = u.st from rfl, show (⟨v.k, v.j, v.i, 0⟩ : Stencil) = v.st from rfl, hus, hvs, hvc,
    turn_convective D S₁ S₂ hf hin]

theorem turn_solution (D : Turned t L₁ L₂ axes₁ axes₂ T₁ T₂) (S₁ : Setup L₁ G₁ axes₁) (S₂ : Setup L₂ G₂ axes₂) {A₁ A₂ : Mat K}
    (hA : ∀ q₁ q₂ : ℤ → K, TurnVel t L₁ L₂ q₁ q₂ → TurnVel t L₁ L₂ (Mat.mult L₁.UN A₁ q₁) (Mat.mult L₂.UN A₂ q₂)) {r₁ r₂ x₁ x₂ : ℤ → K}
    (hr : TurnVel t L₁ L₂ r₁ r₂) (hx1 : IsSolution L₁.UN A₁ r₁ x₁) (hx2 : IsSolution L₂.UN A₂ r₂ x₂)
    (uni : ∃ y, IsSolution L₂.UN A₂ r₂ y ∧ ∀ z, IsSolution L₂.UN A₂ r₂ z → ∀ i : ℤ, 0 ≤ i → i < L₂.UN → z i = y i) : TurnVel t L₁ L₂ x₁ x₂ := by
  obtain ⟨x', hx'⟩ := exists_turnVel D S₁ S₂ x₁
  have sol : IsSolution L₂.UN A₂ r₂ x' := by
    intro i i0 i1
    obtain ⟨v, hv, rfl⟩ := col_surj S₂.layout i0 i1
    obtain ⟨f, hf, hfv⟩ := turn_field_of D S₁ S₂ hv.1
    have hin := hv.inside
    rw [← hfv] at hin ⊢
    obtain ⟨s, hs, hsv⟩ := turn_point_of D S₁ S₂ (Or.inl hf) hin
    rw [← hsv, hA x₁ x' hx' _ hf _ hs, hr _ hf _ hs]
    obtain ⟨r, -⟩ := turn_rows D S₁ S₂ hf hs
    rw [hx1 _ r.1 r.2]
  obtain ⟨y, -, hy⟩ := uni
  intro f hf s hin
  rw [← hx' f hf s hin]
  obtain ⟨-, r⟩ := turn_rows D S₁ S₂ hf hin
  rw [hy x' sol _ r.1 r.2, hy x₂ hx2 _ r.1 r.2]

theorem turn_cells_solution (D : Turned t L₁ L₂ axes₁ axes₂ T₁ T₂) (S₁ : Setup L₁ G₁ axes₁) (S₂ : Setup L₂ G₂ axes₂) {A₁ A₂ : Mat K}
    (hA : ∀ q₁ q₂ : ℤ → K, TurnCells t L₁ L₂ q₁ q₂ → TurnCells t L₁ L₂ (Mat.mult L₁.pN A₁ q₁) (Mat.mult L₂.pN A₂ q₂)) {r₁ r₂ x₁ : ℤ → K}
    (hr : TurnCells t L₁ L₂ r₁ r₂) (hx1 : IsSolution L₁.pN A₁ r₁ x₁) : ∃ x', TurnCells t L₁ L₂ x₁ x' ∧ IsSolution L₂.pN A₂ r₂ x' := by
  obtain ⟨x', hx'⟩ := exists_turnCells D S₁ S₂ x₁
  refine ⟨x', hx', ?_⟩
  intro i i0 i1
  obtain ⟨s, hin2, rfl⟩ : ∃ s, Inside L₂.toMeshInfo 3 s ∧ col L₂ 3 s = i := by
    obtain ⟨q, ⟨⟨q0, q1, q2⟩, hq⟩, -⟩ := (C04_pressure_index_bijective false L₂ S₂.layout 0).2 i i0 i1
    refine ⟨⟨q.2.2, q.2.1, q.1, 0⟩, ⟨fun d hd => ?_, rfl⟩, ?_⟩
    · interval_cases d <;> simp [coordOf] <;> omega
    · unfold col
      simp only [Nat.cast_zero] at hq
      rw [hq]
  obtain ⟨u, hu, rfl⟩ := turn_cell_of D S₁ S₂ hin2
  have r := pcol_range S₁.layout hu
  rw [hA x₁ x' hx' u hu, hr u hu]
  exact hx1 _ r.1 r.2

/-- the step in both systems -/
theorem turn_step (S₁ : Started debug L₁ G₁ axes₁ T₁ B₁ P flow₁ o₁ disk₁ i₁ disk₁') (S₂ : Started debug L₂ G₂ axes₂ T₂ B₂ P flow₂ o₂ disk₂ i₂ disk₂')
    (D : Turned t L₁ L₂ axes₁ axes₂ T₁ T₂) (hn : ∀ f d, f < L₁.dim → d < L₁.dim → L₁.periodic 0 d = true → 3 ≤ L₁.n f d) (hpt : P.pType = .ksp)
    (know₁ : ∀ u, IsUnknown L₁ u → KnowsWalls L₁ T₁ u.rank u.comp ⟨u.k, u.j, u.i, 0⟩)
    (know₂ : ∀ u, IsUnknown L₂ u → KnowsWalls L₂ T₂ u.rank u.comp ⟨u.k, u.j, u.i, 0⟩) (hdt : 0 < P.dt) (hnu : 0 ≤ P.nu)
    (hT : ∀ f loc, f < L₂.dim → loc / 2 = f → (T₂ f loc).1 ≠ .NEUMANN) (hBN : GoodOrder L₂ P o₂.A)
    {v₁ p₁ v₂ p₂ : LinSolve K} (hv1 : Solves L₁.UN v₁ o₁.A) (hp1 : Solves L₁.pN p₁ o₁.DBNG) (hv2 : Solves L₂.UN v₂ o₂.A)
    (hp2 : Solves L₂.pN p₂ o₂.DBNG) {u₁ u₂ : ℤ → K} (O : TurnOps t L₁ L₂ o₁ o₂ B₁ B₂ u₁ u₂) {s₁ s₂ s₁' s₂' : NSState K}
    (R₁ : Reach L₁ B₁ P o₁.pN u₁ s₁) (R₂ : Reach L₂ B₂ P o₂.pN u₂ s₂) (hs : TurnState t L₁ L₂ s₁ s₂)
    (a₁ : advance L₁ G₁ P o₁ v₁ p₁ s₁ = .ok s₁') (a₂ : advance L₂ G₂ P o₂ v₂ p₂ s₂ = .ok s₂') : TurnState t L₁ L₂ s₁' s₂' := by
  have C₁ := S₁.constructed
  have C₂ := S₂.constructed
  have Z₁ := C₁.setup
  have Z₂ := C₂.setup
  have l1 := Z₁.layout
  have l2 := Z₂.layout
  have hn' := turn_periodic_cells C₁ C₂ D hn
  obtain ⟨w₁, U₁, d₁, x1, x2, x3, x4, x5, x6, x7, x8, x9, x10, x11⟩ := advance_ok C₁ S₁.schemes.1.1 S₁.schemes.2.1 R₁ a₁
  obtain ⟨w₂, U₂, d₂, y1, y2, y3, y4, y5, y6, y7, y8, y9, y10, y11⟩ := advance_ok C₂ S₂.schemes.1.1 S₂.schemes.2.1 R₂ a₂
  have hgrad : TurnVel t L₁ L₂ (Mat.mult o₁.pN o₁.G s₁.p) (Mat.mult o₂.pN o₂.G s₂.p) := by
    rw [O.size.1, O.size.2]
    exact O.grad _ _ hs.pres
  have hw := convection_turn C₁ C₂ D know₁ know₂ R₁ R₂ hs x1 y1
  obtain ⟨h₁, b1, j1⟩ := R₁.hist
  obtain ⟨h₂, b2, j2⟩ := R₂.hist
  have hg := hs.ghosts
  rw [b1, b2] at hg
  -- ghost equations of the step
  have ge := (TurnGhosts.step D Z₁ Z₂ (C₁.ghosts _) (C₂.ghosts _) hg hs.vel P.dt).1
  have run1 : (fun r => (s₁.B r).updateEqs s₁.U P.dt) = fun r => (B₁ r).run ([.setGhostICs u₁] ++ (h₁ ++ [.updateEqs s₁.U P.dt])) := by
    funext r
    simp only [b1, Boundary.run, List.foldl_append]
    rfl
  have run2 : (fun r => (s₂.B r).updateEqs s₂.U P.dt) = fun r => (B₂ r).run ([.setGhostICs u₂] ++ (h₂ ++ [.updateEqs s₂.U P.dt])) := by
    funext r
    simp only [b2, Boundary.run, List.foldl_append]
    rfl
  have ge' : TurnGhosts t L₁ L₂ (fun r => (B₁ r).run ([.setGhostICs u₁] ++ (h₁ ++ [.updateEqs s₁.U P.dt])))
      (fun r => (B₂ r).run ([.setGhostICs u₂] ++ (h₂ ++ [.updateEqs s₂.U P.dt]))) := by
    rw [← run1, ← run2]
    simp only [b1, b2]
    exact ge
  have hconv : List.Forall₂ (TurnVel t L₁ L₂) (pushTerm s₁.conv fun i => -1 * w₁ i) (pushTerm s₂.conv fun i => -1 * w₂ i) :=
    TurnVel.pushTerm hs.conv fun f hf s hin => by
      simp only [hw f hf s hin]
      ring
  have hdiff : List.Forall₂ (TurnVel t L₁ L₂) (pushTerm s₁.diff (diffTerm L₁ P.nu o₁ s₁)) (pushTerm s₂.diff (diffTerm L₂ P.nu o₂ s₂)) := by
    refine TurnVel.pushTerm hs.diff (turn_vec D Z₁ Z₂ fun f hf s hin => ?_)
    have := O.lapCorr h₁ h₂ hg f hf s hin
    rw [← b1, ← b2] at this
    simp only [O.lap _ _ hs.vel f hf s hin, this]
    ring
  have hrhs : TurnVel t L₁ L₂ (momentumRhs L₁ P o₁ s₁ (pushTerm s₁.conv fun i => -1 * w₁ i) (pushTerm s₁.diff (diffTerm L₁ P.nu o₁ s₁)))
      (momentumRhs L₂ P o₂ s₂ (pushTerm s₂.conv fun i => -1 * w₂ i) (pushTerm s₂.diff (diffTerm L₂ P.nu o₂ s₂))) := by
    intro f hf s hin
    obtain ⟨hf2, hin2⟩ := turn_in D Z₁ Z₂ hf hin
    have c := O.lapCorr _ _ ge' f hf s hin
    rw [← run1, ← run2] at c
    unfold momentumRhs
    rw [vec_col l1 hf hin, vec_col l1 hf hin, vec_col l2 hf2 hin2, vec_col l2 hf2 hin2, hgrad f hf s hin,
      hs.vel f hf s hin, TurnVel.termSum hconv f hf s hin, TurnVel.termSum hdiff f hf s hin, c]
    ring
  have hU := turn_solution D Z₁ Z₂ O.impl hrhs (fun i i0 i1 => hv1 _ _ _ x2 i i0 i1) (fun i i0 i1 => hv2 _ _ _ y2 i i0 i1)
    (C61_velocity_system_partial S₂ (fun f d hf hd hp => by
      have := hn' f d hf hd hp
      omega) hdt hnu _)
  rw [← x7, ← y7] at hconv
  rw [← x8, ← y8] at hdiff
  have hprhs : TurnCells t L₁ L₂ (poissonRhs L₁ o₁ (fun r => (s₁.B r).updateEqs s₁.U P.dt) (vec L₁.UN U₁))
      (poissonRhs L₂ o₂ (fun r => (s₂.B r).updateEqs s₂.U P.dt) (vec L₂.UN U₂)) := by
    intro s hin
    have hin2 := turn_in_cell D Z₁ Z₂ hin
    have c := O.divCorr _ _ ge' s hin
    rw [← run1, ← run2] at c
    unfold poissonRhs
    rw [O.ref.1, O.ref.2]
    simp only [Bool.false_eq_true, if_false]
    rw [O.size.1, O.size.2, vec_pcol l1 hin, vec_pcol l2 hin2, O.div _ _ (turn_vec D Z₁ Z₂ hU) s hin, c]
  obtain ⟨φ, hφ, sol⟩ := turn_cells_solution D Z₁ Z₂ O.dbng hprhs fun i i0 i1 => hp1 _ _ _ x3 i i0 i1
  have sol2 : IsSolution L₂.pN o₂.DBNG (poissonRhs L₂ o₂ (fun r => (s₂.B r).updateEqs s₂.U P.dt) (vec L₂.UN U₂)) d₂ :=
    fun i i0 i1 => hp2 _ _ _ y3 i i0 i1
  have hn2 : ∀ f, f < L₂.dim → L₂.periodic 0 f = true → 2 ≤ L₂.n f f := fun f hf hp => by
    have := hn' f f hf hf hp
    omega
  have hd : TurnPres t L₁ L₂ (vec o₁.pN d₁) (vec o₂.pN d₂) := by
    obtain ⟨k1, -, -⟩ := C62_poisson_system_partial S₂ hn2 hT hBN hpt hdt.ne'
    have k := (k1 (fun j => φ j + -1 * d₂ j)).1 fun i i0 i1 => by rw [mult_sub, sol i i0 i1, sol2 i i0 i1, sub_self]
    refine ⟨d₂ 0 - φ 0, fun s hin => ?_⟩
    have hin2 := turn_in_cell D Z₁ Z₂ hin
    have r := pcol_range l2 hin2
    have := k _ 0 r.1 r.2 le_rfl (by omega)
    rw [O.size.1, O.size.2, vec_pcol l1 hin, vec_pcol l2 hin2, ← hφ s hin]
    linear_combination -this
  have hvel : TurnVel t L₁ L₂ s₁'.U s₂'.U := by
    rw [x4, y4]
    intro f hf s hin
    obtain ⟨hf2, hin2⟩ := turn_in D Z₁ Z₂ hf hin
    unfold projected
    rw [vec_col l1 hf hin, vec_col l1 hf hin, vec_col l2 hf2 hin2, vec_col l2 hf2 hin2, hU f hf s hin]
    have := O.bng _ _ hd f hf s hin
    rw [O.size.1, O.size.2] at this ⊢
    rw [this]
    ring
  refine ⟨hvel, hconv, hdiff, ?_, ?_, ?_⟩
  · rw [x9, y9]
    have := (TurnGhosts.step D Z₁ Z₂ (C₁.ghosts _) (C₂.ghosts _) ge' hvel P.dt).2
    have f1 := fun r => congrFun run1 r
    have f2 := fun r => congrFun run2 r
    simp only [← f1, ← f2] at this
    exact this
  · rw [x10, y10, x11, y11, hs.time.1, hs.time.2]
    exact ⟨rfl, rfl⟩
  · obtain ⟨c, hc⟩ := hs.pres
    obtain ⟨c', hc'⟩ := hd
    refine ⟨c + c', fun s hin => ?_⟩
    rw [x5, y5]
    simp only
    rw [hc s hin, hc' s hin]
    ring

end PetIBM
