/-
Properties C51, C52 (vorticity part), C70 and C71: the vorticity utility.
-/
import Verif.Lemmas.Vorticity
import Verif.Props.Convection
import Verif.Props.Solution

set_option linter.unusedSectionVars false

namespace PetIBM

open Spec

variable {K : Type} [Field K] [LinearOrder K] [IsStrictOrderedRing K]
variable {L : Layout} {G : Geom K} {axes : ℕ → Axis K} {debug : Bool} {T : BCTable K} {B : ℕ → Boundary K}

theorem field_of_name (C : Constructed debug L G axes T B) {f : ℕ} (hf : f < (vorticityNames L.dim).length) :
    f < L.dim ∧ (L.dim = 2 → f = 0) := by
  unfold vorticityNames at hf
  rcases C.setup.layout.dim with h | h <;> simp [h] at hf <;> omega

/-! ### C52 -/

/-- C52, vorticity part. On every mesh and for every number of processes, the vorticity utility reads only entries of the local velocity arrays
and of the coordinate arrays, although the vorticity fields have one line more than the pressure and up to two more than the velocity
(an access outside is the error `ub` of the model). -/
theorem C52_vorticity_in_bounds (C : Constructed debug L G axes T B) (B' : ℕ → Boundary K) (q : ℤ → K) (f : ℕ)
    (hf : f < (vorticityNames L.dim).length) (w : ℕ × ℕ × ℕ → K) : ∃ z, calculateVorticity L G B' q f w = .ok z := by
  obtain ⟨hf, h0⟩ := field_of_name C hf
  obtain ⟨z, hz, _⟩ := calculateVorticity_spec (B := B') C.setup C.part q hf h0 w
  exact ⟨z, hz⟩

/-- C52. The distribution of the vorticity fields is accepted by PETSc: no process is without lines. -/
theorem C52_vorticity_mesh (C : Constructed debug L G axes T B) (f d : ℕ) (hf : f < (vorticityNames L.dim).length) (hd : d < 3) :
    L.nProc d ≤ vorticityCount L.toMeshInfo f d := by
  obtain ⟨hf, _⟩ := field_of_name C hf
  have := (C.part 3 d (Or.inr rfl) hd).2
  rw [vorticityCount_eq C.setup hd (Or.inl hf)]
  split_ifs <;> omega

/-! ### C51 -/

/-- C51. Every vorticity value whose surroundings are available to its process is the curl of the velocity, of the wall values in the boundary
objects and of the periodic images around the point used, whatever was in the vector before. Missing: values next to walls for which the process
does not have the ghost points, see `C51_false_corner` and `C51_false_seam`; and the point used is not the right one for two components in
3D, see C70. -/
theorem C51_value_partial (C : Constructed debug L G axes T B) (h : List (Boundary.Op K)) (q : ℤ → K) (f : ℕ)
    (hf : f < (vorticityNames L.dim).length) (w : ℕ × ℕ × ℕ → K) :
    ∃ z, calculateVorticity L G (fun r => (B r).run h) q f w = .ok z ∧ (∃ V, Filled debug L (fun r => (B r).run h) q V) ∧
      ∀ V, Filled debug L (fun r => (B r).run h) q V → ∀ r i j k, r < L.mpiSize → Owns (vorticityLayout L) f r i j k →
        (∀ g t, Around (vorticityComponent L.dim f) (usedPoint L.dim f ⟨k, j, i, 0⟩) g t → Available L r g t) →
        z (i, j, k) = curl G V (vorticityComponent L.dim f) (usedPoint L.dim f ⟨k, j, i, 0⟩) := by
  obtain ⟨hf, h0⟩ := field_of_name C hf
  obtain ⟨z, hz, hv, _⟩ := calculateVorticity_spec (B := fun r => (B r).run h) C.setup C.part q hf h0 w
  refine ⟨z, hz, exists_filled C.setup C.part (C.ghosts h) q, ?_⟩
  intro V hV r i j k hr ho ha
  have hin := owns_inGrid (vorticityLayout_ok C.setup) (Or.inl hf) ho
  have hu : IsUnknown (vorticityLayout L) ⟨r, f, i, j, k⟩ := ⟨hf, hin.1, hin.2.1, hin.2.2, hr, ho⟩
  have h1 := hv r i j k hr ho
  have h2 := vorticityKernel_value C.setup C.part (C.ghosts h) hV hf h0 hr hu.inside hu.ownsAt ha
  have h2 : vorticityKernel L.dim (readCoord L G) (fun g => readLocal L g r (vorticityLocal L (fun r => (B r).run h) q r g)) f i j k = _ := h2
  rw [h1] at h2
  exact Except.ok.inj h2

/-- The curl of a linear field. -/
theorem curl_linear (S : Setup L G axes) {c : ℕ} (hc : c < 3) (hcd : L.dim = 3 ∨ c = 2) {s : Stencil}
    (hs : ∀ d, d < 3 → d ≠ c → 0 ≤ coordOf s d ∧ coordOf s d ≤ L.n 3 d) (A : ℕ → ℕ → K) (b : ℕ → K) {V : ℕ → Stencil → K}
    (hV : ∀ g t, Around c s g t → V g t = linearField G A b g t) :
    curl G V c s = A ((c + 2) % 3) ((c + 1) % 3) - A ((c + 1) % 3) ((c + 2) % 3) := by
  have hdim := S.layout.dim
  have key : ∀ g e, g < L.dim → e < L.dim → g ≠ e → e ≠ c → G.coord g e (coordOf s e) - G.coord g e (coordOf s e - 1) ≠ 0 := by
    intro g e hg he hge hec
    have h := hs e (by have := S.dim_le; omega) hec
    have hn := (S.staggered g hg).1 e (by have := S.dim_le; omega) hge.symm
    have := S.coord_lt g e hg he (coordOf s e - 1) (by omega) (by omega)
    rw [sub_add_cancel] at this
    exact sub_ne_zero.2 this.ne'
  have v1 := hV _ _ .firstUpper
  have v2 := hV _ _ .firstLower
  have v3 := hV _ _ .secondUpper
  have v4 := hV _ _ .secondLower
  have k1 := key ((c + 2) % 3) ((c + 1) % 3) (by rcases hcd with h | rfl <;> omega) (by rcases hcd with h | rfl <;> omega)
    (by interval_cases c <;> decide) (by interval_cases c <;> decide)
  have k2 := key ((c + 1) % 3) ((c + 2) % 3) (by rcases hcd with h | rfl <;> omega) (by rcases hcd with h | rfl <;> omega)
    (by interval_cases c <;> decide) (by interval_cases c <;> decide)
  have ps : ∀ x : ℤ, x + -1 = x - 1 := fun x => rfl
  simp only [curl]
  rw [v1, v2, v3, v4]
  interval_cases c <;> simp [linearField, shift, along, coordOf, ps] at k1 k2 ⊢ <;> field_simp

/-- C51. For every field that is linear around the point used, ghost values included, the vorticity value is exact. Missing: as in
`C51_value_partial`. -/
theorem C51_linear_partial (C : Constructed debug L G axes T B) (h : List (Boundary.Op K)) (q : ℤ → K) (f : ℕ)
    (hf : f < (vorticityNames L.dim).length) (w : ℕ × ℕ × ℕ → K) :
    ∃ z, calculateVorticity L G (fun r => (B r).run h) q f w = .ok z ∧
      ∀ V (A : ℕ → ℕ → K) (b : ℕ → K), Filled debug L (fun r => (B r).run h) q V → ∀ r i j k, r < L.mpiSize →
        Owns (vorticityLayout L) f r i j k →
        (∀ g t, Around (vorticityComponent L.dim f) (usedPoint L.dim f ⟨k, j, i, 0⟩) g t → Available L r g t ∧ V g t = linearField G A b g t) →
        ∀ c, c = vorticityComponent L.dim f → z (i, j, k) = A ((c + 2) % 3) ((c + 1) % 3) - A ((c + 1) % 3) ((c + 2) % 3) := by
  obtain ⟨z, hz, _, hv⟩ := C51_value_partial C h q f hf w
  refine ⟨z, hz, ?_⟩
  rintro V A b hV r i j k hr ho ha c rfl
  obtain ⟨hf', h0⟩ := field_of_name C hf
  have h3 := C.setup.dim_le
  have hin := owns_inGrid (vorticityLayout_ok C.setup) (Or.inl hf') ho
  rw [hv V hV r i j k hr ho fun g t h => (ha g t h).1]
  have hc3 : vorticityComponent L.dim f < 3 := by unfold vorticityComponent; split_ifs <;> omega
  apply curl_linear C.setup hc3 _ _ A b fun g t h => (ha g t h).2
  · rcases C.setup.layout.dim with h | h
    · right; simp [vorticityComponent, h]
    · left; exact h
  · intro d hd hdc
    have hu : IsUnknown (vorticityLayout L) ⟨r, f, i, j, k⟩ := ⟨hf', hin.1, hin.2.1, hin.2.2, hr, ho⟩
    have hx : 0 ≤ coordOf ⟨k, j, i, 0⟩ d ∧ coordOf ⟨k, j, i, 0⟩ d < (vorticityCount L.toMeshInfo f d : ℤ) := hu.inside.1 d hd
    rw [vorticityCount_eq C.setup hd (Or.inl hf'), if_neg (show f ≠ 3 by omega), if_neg hdc] at hx
    have hu2 := (usedPoint_coord (dim := L.dim) (show f < 3 by omega) ⟨k, j, i, 0⟩).2 d hd
    have : coordOf (usedPoint L.dim f ⟨k, j, i, 0⟩) d = coordOf ⟨k, j, i, 0⟩ d := by
      rw [hu2]
      split_ifs with h1 h2
      · rfl
      · exfalso
        apply hdc
        unfold vorticityComponent
        rw [if_neg (fun h => h1 (Or.inl h))]; exact h2
      · rfl
    rw [this]
    push_cast at hx
    omega

/-- Points away from the walls: in directions other than that of the component at least one vertex away from the ends or periodic; in 3D,
for the x and y components, not in the first cell of their direction (or periodic). -/
def InnerPoint (L : Layout) (f : ℕ) (s : Stencil) : Prop :=
  ∀ d, d < L.dim → L.periodic 0 d = true ∨
    (d ≠ vorticityComponent L.dim f ∧ 1 ≤ coordOf s d ∧ coordOf s d + 1 < vorticityCount L.toMeshInfo f d) ∨
    (d = vorticityComponent L.dim f ∧ (f = 2 ∨ 1 ≤ coordOf s d))

theorem inner_around (S : Setup L G axes) {f : ℕ} (hf : f < L.dim) {s : Stencil}
    (hs : Inside (vorticityLayout L).toMeshInfo f s) (hi : InnerPoint L f s) {g : ℕ} {t : Stencil}
    (h : Around (vorticityComponent L.dim f) (usedPoint L.dim f s) g t) :
    t.c = 0 ∧ ∀ d, d < 3 → 0 ≤ coordOf t d ∧ coordOf t d < L.n g d ∨ (d < L.dim ∧ L.periodic 0 d = true) := by
  have h3 := S.dim_le
  have hc3 : vorticityComponent L.dim f < 3 := by unfold vorticityComponent; split_ifs <;> omega
  obtain ⟨hg, hgc⟩ := around_comp (dim := L.dim) h hc3
    (by rcases S.layout.dim with h2 | h3; exacts [Or.inr ⟨h2, by simp [vorticityComponent, h2]⟩, Or.inl h3])
  obtain ⟨e1, e2, e3, e4⟩ := around_coord h hc3
  obtain ⟨u1, u2⟩ := usedPoint_coord (dim := L.dim) (show f < 3 by omega) s
  refine ⟨by rw [e1, u1]; exact hs.2, fun d hd => ?_⟩
  have hx : 0 ≤ coordOf s d ∧ coordOf s d < (vorticityCount L.toMeshInfo f d : ℤ) := hs.1 d hd
  have hcount := vorticityCount_eq S hd (Or.inl hf)
  rw [if_neg (show f ≠ 3 by omega)] at hcount
  have hu := u2 d hd
  by_cases hdl : d < L.dim
  · rcases hi d hdl with hp | ⟨hne, h1, h2⟩ | ⟨he, h1⟩
    · exact Or.inr ⟨hdl, hp⟩
    · left
      rw [hcount, if_neg hne] at h2 hx
      have hus : coordOf (usedPoint L.dim f s) d = coordOf s d := by
        rw [hu]
        split_ifs with a b
        · rfl
        · exfalso; apply hne; unfold vorticityComponent; rw [if_neg (fun h => a (Or.inl h))]; exact b
        · rfl
      by_cases hdg : d = g
      · subst hdg
        rw [e2, hus]
        have st := S.staggered d hg
        cases hp : L.periodic 0 d with
        | true => have := st.2.1 hp; omega
        | false => have := st.2.2 hp; omega
      · have st := (S.staggered g hg).1 d hd hdg
        rcases e4 d hd hdg hne with e | e <;> rw [e, hus, st] <;> omega
    · left
      have hdg : d ≠ g := by rw [he]; exact hgc.symm
      have st := (S.staggered g hg).1 d hd hdg
      rw [hcount, if_pos he] at hx
      have e3 : coordOf t d = coordOf (usedPoint L.dim f s) d := by rw [he]; exact e3
      rw [e3, hu, st]
      split_ifs with a b
      · exact hx
      · have : f ≠ 2 := fun h => a (Or.inr h)
        omega
      · exact hx
  · -- the third direction in 2D
    have hd2 : L.dim = 2 ∧ d = 2 := by rcases S.layout.dim with h | h <;> omega
    left
    have hc2 : vorticityComponent L.dim f = 2 := by simp [vorticityComponent, hd2.1]
    have e3 : coordOf t d = coordOf (usedPoint L.dim f s) d := by rw [hd2.2, ← hc2]; exact e3
    rw [e3, hu, if_pos (Or.inl hd2.1)]
    rw [hcount, if_pos (by rw [hc2]; exact hd2.2)] at hx
    have st := (S.staggered g hg).1 d hd (by omega)
    rw [st]
    exact hx

/-- C51, away from the walls: for every number of processes every inner vorticity value is exact if the velocity at the grid points is linear (in
periodic directions: if the wrapped velocity is, as far as the value uses it). -/
theorem C51_inner_exact (C : Constructed debug L G axes T B) (h : List (Boundary.Op K)) (q : ℤ → K) (f : ℕ)
    (hf : f < (vorticityNames L.dim).length) (w : ℕ × ℕ × ℕ → K) :
    ∃ z, calculateVorticity L G (fun r => (B r).run h) q f w = .ok z ∧
      ∀ V, Filled debug L (fun r => (B r).run h) q V → ∀ i j k : ℕ, Inside (vorticityLayout L).toMeshInfo f ⟨k, j, i, 0⟩ →
        InnerPoint L f ⟨k, j, i, 0⟩ →
        z (i, j, k) = curl G V (vorticityComponent L.dim f) (usedPoint L.dim f ⟨k, j, i, 0⟩) ∧
        ∀ (A : ℕ → ℕ → K) (b : ℕ → K) c, c = vorticityComponent L.dim f →
          (∀ g t, Around c (usedPoint L.dim f ⟨k, j, i, 0⟩) g t → V g t = linearField G A b g t) →
          z (i, j, k) = A ((c + 2) % 3) ((c + 1) % 3) - A ((c + 1) % 3) ((c + 2) % 3) := by
  obtain ⟨z, hz, _, hv⟩ := C51_value_partial C h q f hf w
  obtain ⟨z', hz', hl⟩ := C51_linear_partial C h q f hf w
  rw [hz] at hz'; cases hz'
  obtain ⟨hf', h0⟩ := field_of_name C hf
  refine ⟨z, hz, ?_⟩
  intro V hV i j k hin hi
  have hx : ∀ d, d < 3 → coordOf ⟨k, j, i, 0⟩ d < ((vorticityLayout L).n f d : ℤ) := fun d hd => (hin.1 d hd).2
  have h0' := hx 0 (by omega)
  have h1' := hx 1 (by omega)
  have h2' := hx 2 (by omega)
  simp [coordOf] at h0' h1' h2'
  obtain ⟨r, hr, ho⟩ := exists_owner (vorticityLayout_ok C.setup) (f := f) (Or.inl hf') h0' h1' h2'
  have hr : r < L.mpiSize := hr
  have ha : ∀ g t, Around (vorticityComponent L.dim f) (usedPoint L.dim f ⟨k, j, i, 0⟩) g t → Available L r g t :=
    fun g t ht => Or.inl (inner_around C.setup hf' hin hi ht)
  refine ⟨hv V hV r i j k hr ho ha, ?_⟩
  rintro A b c rfl hlin
  exact hl V A b hV r i j k hr ho (fun g t ht => ⟨ha g t ht, hlin g t ht⟩) _ rfl

/-- With one process, the ghost points beyond one wall are available, if the point is inside the grid in all other directions. -/
theorem single_available (C : Constructed debug L G axes T B) (h1 : ∀ d, d < 3 → L.nProc d = 1) {g e : ℕ} (hg : g < L.dim) (he : e < L.dim)
    (hp : L.periodic 0 e = false) {t : Stencil} (hc : t.c = 0) (ht : -1 ≤ coordOf t e ∧ coordOf t e ≤ L.n g e)
    (hin : ∀ d, d < 3 → d ≠ e → 0 ≤ coordOf t d ∧ coordOf t d < L.n g d) : Available L 0 g t := by
  have h3 := C.setup.dim_le
  have hpos := C.pos g e hg (by omega)
  by_cases hi : 0 ≤ coordOf t e ∧ coordOf t e < L.n g e
  · refine Or.inl ⟨hc, fun d hd => Or.inl ?_⟩
    by_cases hde : d = e
    · subst hde; exact hi
    · exact hin d hd hde
  · -- the point next to the wall
    have go : ∀ y : ℤ, 0 ≤ y → y < L.n g e → ∃ u, IsUnknown L u ∧ u.rank = 0 ∧ u.comp = g ∧ (⟨u.k, u.j, u.i, 0⟩ : Stencil) = along t e y := by
      intro y hy0 hy1
      have hti : Inside L.toMeshInfo g (along t e y) := by
        refine ⟨fun d hd => ?_, by rw [along_c]; exact hc⟩
        rw [coordOf_along _ _ _ _ (by omega) hd]
        split_ifs with hde
        · subst hde; exact ⟨hy0, hy1⟩
        · exact hin d hd hde
      obtain ⟨u, _, hu, rfl, hst⟩ := exists_unknown C.setup.layout hg hti
      refine ⟨u, hu, ?_, rfl, hst⟩
      have : u.rank < L.nProc 0 * L.nProc 1 * L.nProc 2 := hu.2.2.2.2.1
      rw [h1 0 (by omega), h1 1 (by omega), h1 2 (by omega)] at this
      omega
    right
    rcases (show coordOf t e = -1 ∨ coordOf t e = L.n g e by omega) with hw | hw
    · obtain ⟨u, hu, hr, hcomp, hst⟩ := go 0 le_rfl (by omega)
      refine ⟨u, e, -1, hu, hr, hcomp, he, hp, Or.inl ⟨rfl, ?_⟩, ?_⟩
      · rw [hst, coordOf_along _ _ _ _ (by omega) (by omega), if_pos rfl]
      · rw [hst, along_along, ← hw, along_self t e (by omega)]
    · obtain ⟨u, hu, hr, hcomp, hst⟩ := go (L.n g e - 1) (by omega) (by omega)
      refine ⟨u, e, L.n g e, hu, hr, hcomp, he, hp, Or.inr ⟨rfl, ?_⟩, ?_⟩
      · rw [hst, coordOf_along _ _ _ _ (by omega) (by omega), if_pos rfl]
        omega
      · rw [hst, along_along, ← hw, along_self t e (by omega)]

/-- Inner in direction `d`, without the help of periodicity. -/
def InnerIn (L : Layout) (f d : ℕ) (s : Stencil) : Prop :=
  (d ≠ vorticityComponent L.dim f ∧ 1 ≤ coordOf s d ∧ coordOf s d + 1 < vorticityCount L.toMeshInfo f d) ∨
    (d = vorticityComponent L.dim f ∧ (f = 2 ∨ 1 ≤ coordOf s d))

/-- C51, on the walls: with one process every vorticity value that is at the end of at most one (non-periodic) direction is the curl of velocity
and ghost values around the point used. Missing: edges and corners of the domain, more processes. -/
theorem C51_one_process_partial (C : Constructed debug L G axes T B) (h1 : ∀ d, d < 3 → L.nProc d = 1) (h : List (Boundary.Op K)) (q : ℤ → K)
    (f : ℕ) (hf : f < (vorticityNames L.dim).length) (w : ℕ × ℕ × ℕ → K) :
    ∃ z, calculateVorticity L G (fun r => (B r).run h) q f w = .ok z ∧
      ∀ V, Filled debug L (fun r => (B r).run h) q V → ∀ i j k e : ℕ, Inside (vorticityLayout L).toMeshInfo f ⟨k, j, i, 0⟩ → e < L.dim →
        L.periodic 0 e = false → (∀ d, d < L.dim → d ≠ e → InnerIn L f d ⟨k, j, i, 0⟩) →
        z (i, j, k) = curl G V (vorticityComponent L.dim f) (usedPoint L.dim f ⟨k, j, i, 0⟩) := by
  obtain ⟨z, hz, _, hv⟩ := C51_value_partial C h q f hf w
  obtain ⟨hf', h0⟩ := field_of_name C hf
  refine ⟨z, hz, ?_⟩
  intro V hV i j k e hin he hp hi
  have S := C.setup
  have h3 := S.dim_le
  have hx : ∀ d, d < 3 → coordOf ⟨k, j, i, 0⟩ d < ((vorticityLayout L).n f d : ℤ) := fun d hd => (hin.1 d hd).2
  have h0' := hx 0 (by omega)
  have h1' := hx 1 (by omega)
  have h2' := hx 2 (by omega)
  simp [coordOf] at h0' h1' h2'
  obtain ⟨r, hr, ho⟩ := exists_owner (vorticityLayout_ok S) (f := f) (Or.inl hf') h0' h1' h2'
  have hr : r < L.mpiSize := hr
  have hr0 : r = 0 := by
    have : r < L.nProc 0 * L.nProc 1 * L.nProc 2 := hr
    rw [h1 0 (by omega), h1 1 (by omega), h1 2 (by omega)] at this
    omega
  subst hr0
  apply hv V hV 0 i j k hr ho
  intro g t ht
  have hc3 : vorticityComponent L.dim f < 3 := by unfold vorticityComponent; split_ifs <;> omega
  obtain ⟨hg, hgc⟩ := around_comp (dim := L.dim) ht hc3
    (by rcases S.layout.dim with h2 | h3; exacts [Or.inr ⟨h2, by simp [vorticityComponent, h2]⟩, Or.inl h3])
  -- the other directions: make them inner by a modified periodicity
  obtain ⟨e1, e2, e3, e4⟩ := around_coord ht hc3
  obtain ⟨u1, u2⟩ := usedPoint_coord (dim := L.dim) (show f < 3 by omega) ⟨k, j, i, 0⟩
  have hcount : ∀ d, d < 3 → vorticityCount L.toMeshInfo f d = if d = vorticityComponent L.dim f then L.n 3 d else L.n 3 d + 1 := by
    intro d hd
    have := vorticityCount_eq S hd (Or.inl hf')
    rwa [if_neg (show f ≠ 3 by omega)] at this
  have hus : ∀ d, d < 3 → d ≠ vorticityComponent L.dim f → coordOf (usedPoint L.dim f ⟨k, j, i, 0⟩) d = coordOf ⟨k, j, i, 0⟩ d := by
    intro d hd hne
    rw [u2 d hd]
    split_ifs with a b
    · rfl
    · exfalso; apply hne; unfold vorticityComponent; rw [if_neg (fun h => a (Or.inl h))]; exact b
    · rfl
  have hin' : ∀ d, d < 3 → 0 ≤ coordOf ⟨k, j, i, 0⟩ d ∧ coordOf ⟨k, j, i, 0⟩ d < (vorticityCount L.toMeshInfo f d : ℤ) := hin.1
  have stag : ∀ d, d < 3 → d ≠ g → L.n g d = L.n 3 d := fun d hd hdg => (S.staggered g hg).1 d hd hdg
  have stagg : (L.n g g = L.n 3 g ∨ L.n g g + 1 = L.n 3 g) := by
    cases hper : L.periodic 0 g with
    | true => exact Or.inl ((S.staggered g hg).2.1 hper)
    | false => exact Or.inr ((S.staggered g hg).2.2 hper)
  apply single_available C h1 hg he hp (by rw [e1, u1])
  · -- direction e
    have hx := hin' e (by omega)
    rw [hcount e (by omega)] at hx
    by_cases hec : e = vorticityComponent L.dim f
    · rw [if_pos hec] at hx
      have hte : coordOf t e = coordOf (usedPoint L.dim f ⟨k, j, i, 0⟩) e := by rw [hec]; exact e3
      have := stag e (by omega) (by rw [hec]; exact hgc.symm)
      rw [hte, u2 e (by omega)]
      split_ifs <;> omega
    · rw [if_neg hec] at hx
      push_cast at hx
      have hu := hus e (by omega) hec
      by_cases heg : e = g
      · subst heg
        have := (S.staggered e hg).2.2 hp
        rw [e2, hu]; omega
      · have := stag e (by omega) heg
        rcases e4 e (by omega) heg hec with h' | h' <;> rw [h', hu] <;> omega
  · intro d hd hde
    have hx := hin' d hd
    rw [hcount d hd] at hx
    by_cases hdl : d < L.dim
    · rcases hi d hdl hde with ⟨hne, a1, a2⟩ | ⟨hec, a⟩
      · rw [hcount d hd, if_neg hne] at a2
        have hu := hus d hd hne
        push_cast at a2
        by_cases hdg : d = g
        · subst hdg
          rw [e2, hu]; omega
        · have := stag d hd hdg
          rcases e4 d hd hdg hne with h' | h' <;> rw [h', hu] <;> omega
      · rw [if_pos hec] at hx
        have hte : coordOf t d = coordOf (usedPoint L.dim f ⟨k, j, i, 0⟩) d := by rw [hec]; exact e3
        have := stag d hd (by rw [hec]; exact hgc.symm)
        rw [hte, u2 d hd]
        split_ifs with b1 b2
        · omega
        · have : f ≠ 2 := fun h => b1 (Or.inr h)
          omega
        · omega
    · have hd2 : L.dim = 2 ∧ d = 2 := by rcases S.layout.dim with h | h <;> omega
      have hc2 : vorticityComponent L.dim f = 2 := by simp [vorticityComponent, hd2.1]
      have hte : coordOf t d = coordOf (usedPoint L.dim f ⟨k, j, i, 0⟩) d := by rw [hd2.2, ← hc2]; exact e3
      rw [if_pos (by rw [hc2]; exact hd2.2)] at hx
      have := stag d hd (by omega)
      rw [hte, u2 d hd, if_pos (Or.inl hd2.1)]
      omega

end PetIBM
