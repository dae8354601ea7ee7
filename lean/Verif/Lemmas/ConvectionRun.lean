/-
The convection operator reads the extended field.
-/
import Verif.Lemmas.Convection

set_option linter.unusedSectionVars false

namespace PetIBM

open Spec Layout

variable {K : Type} [Field K] [LinearOrder K] [IsStrictOrderedRing K]
variable {L : Layout} {G : Geom K} {axes : ℕ → Axis K} {debug : Bool} {B : ℕ → Boundary K}

theorem read_ok (hL : LayoutOK L) {g r : ℕ} {t : Stencil} (h : InBox L g r t) (v : ℤ → K) :
    ∃ x, readLocal L g r v t.k t.j t.i = .ok x := by
  obtain ⟨l, hl, _, _⟩ := localIndex_ok hL.dim h
  refine ⟨v l, ?_⟩
  unfold readLocal
  have : (⟨t.k, t.j, t.i, 0⟩ : Stencil) = t := by rw [← h.2.2]
  rw [this, hl]

theorem wrapPeriodic_eq (hper : ∀ d, d < L.dim → L.periodic d d = L.periodic 0 d) (f : ℕ) (s : Stencil) {d : ℕ} (hd : d < 3) :
    coordOf (wrapPeriodic L f s) d = if d < L.dim ∧ L.periodic 0 d = true then coordOf s d % L.n f d else coordOf s d := by
  have key : ∀ x, wrapCoord L f d x = if d < L.dim ∧ L.periodic 0 d = true then x % L.n f d else x := by
    intro x
    unfold wrapCoord
    by_cases h : d < L.dim
    · rw [hper d h]
    · simp [h]
  unfold wrapPeriodic
  interval_cases d
  · exact key _
  · exact key _
  · exact key _

/-- a slot that has a registered ghost point is not the image of a grid point -/
theorem point_not_inside (hL : LayoutOK L) (hG : GhostsOK debug L G B) (hper : ∀ d, d < L.dim → L.periodic d d = L.periodic 0 d)
    {r f loc : ℕ} {s : Stencil} {b : SingleBoundary K} {p : GhostPointInfo K} (hr : r < L.mpiSize)
    (hp : Point (B r) f loc s b p) : ¬ Inside L.toMeshInfo f (wrapPeriodic L f s) := by
  intro hin
  have hd3 : L.dim ≤ 3 := by rcases hL.dim with h | h <;> omega
  obtain ⟨_, hloc, good⟩ := hG.good r f loc s b p hr hp
  have hp' := hG.periodic r f loc s b p hr hp
  have h := hin.1 (loc / 2) (by omega)
  rw [wrapPeriodic_eq hper f s (by omega), if_neg (by simp [hp']), good.face.1] at h
  split_ifs at h <;> omega

theorem Spec.Filled.wrap {q : ℤ → K} {V : ℕ → Stencil → K} (hV : Filled debug L B q V)
    (hper : ∀ d, d < L.dim → L.periodic d d = L.periodic 0 d) {f : ℕ} (hf : f < L.dim) (s : Stencil) :
    V f s = V f (wrapPeriodic L f s) := by
  have step : ∀ d, d < 3 → ∀ t : Stencil, V f t = V f (along t d (wrapCoord L f d (coordOf t d))) := by
    intro d hd t
    unfold wrapCoord
    split_ifs with h
    · exact hV.periodic f t d hf h.1 (by rw [← hper d h.1]; exact h.2)
    · rw [along_self t d hd]
  rw [step 0 (by omega) s, step 1 (by omega), step 2 (by omega)]
  rfl

/-- A slot of the local vector holds the value of the field, if it is the image of a grid point or a ghost point that
the rank itself has registered. -/
theorem read_filled (S : Setup L G axes) (hG : GhostsOK debug L G B) {q : ℤ → K} {V : ℕ → Stencil → K}
    (hV : Filled debug L B q V) (v : ℕ → ℕ → ℤ → K) {g r : ℕ} (hg : g < L.dim) (hr : r < L.mpiSize) {t : Stencil}
    (hb : InBox L g r t)
    (h : Inside L.toMeshInfo g (wrapPeriodic L g t) ∨ ∃ loc b p, Point (B r) g loc t b p) :
    readLocal L g r (convectionLocal L B q v r g) t.k t.j t.i = .ok (V g t) := by
  have hL := S.layout
  have hper : ∀ d, d < L.dim → L.periodic d d = L.periodic 0 d := fun d hd => S.periodic d d hd (by have := S.dim_le; omega)
  obtain ⟨l, hl, hsl, h1, h2⟩ := local_value hL hG hr hg hb q v
  have e : (⟨t.k, t.j, t.i, 0⟩ : Stencil) = t := by rw [← hb.2.2]
  unfold readLocal
  rw [e, hl]
  simp only
  congr 1
  rcases h with h | ⟨loc, b, p, hp⟩
  · rw [h2 (fun ⟨loc, b, p, hp⟩ => point_not_inside hL hG hper hr hp h), hV.wrap hper hg]
    unfold scatterLocal
    simp only
    rw [hsl]
    have c := col_inside hL (Or.inl hg) false h
    have c' := col_inside hL (Or.inl hg) debug h
    rw [if_pos, c.1, hV.inside g _ _ hg h c'.1]
    exact ⟨h.1 0 (by omega), h.1 1 (by omega), h.1 2 (by omega)⟩
  · rw [hV.ghost r g loc t b p hr hp]
    exact h1 loc b p hp fun loc' b' p' hp' => point_unique hL hG hr hr hp' hp

/-- The rank that owns point `s` of component `f` also owns, in direction `f`, the points of the other components next to a wall
that `s` needs. -/
def SeesWallLines (L : Layout) (r f : ℕ) (s : Stencil) : Prop :=
  ∀ d, d < L.dim → d ≠ f → L.periodic 0 d = false → (coordOf s d = 0 ∨ coordOf s d + 1 = L.n f d) →
    (L.bg d r f : ℤ) ≤ coordOf s f ∧ coordOf s f + 1 < L.ed d r f

theorem owned_unknown {f r : ℕ} (hf : f < L.dim) (hr : r < L.mpiSize) {s : Stencil}
    (hs : Inside L.toMeshInfo f s) (ho : OwnsAt L f r s) : ∃ u, IsUnknown L u ∧ u.comp = f ∧ u.rank = r ∧ u.st = s := by
  obtain ⟨i, j, k, rfl, hi, hj, hk⟩ := hs.nat
  refine ⟨⟨r, f, i, j, k⟩, ⟨hf, hi, hj, hk, hr, owns_iff.2 ?_⟩, rfl, rfl, rfl⟩
  have h0 := ho.1 0 (by omega)
  have h1 := ho.1 1 (by omega)
  have h2 := ho.1 2 (by omega)
  simp only [coordOf, if_true, one_ne_zero, if_false, OfNat.ofNat_ne_zero, OfNat.ofNat_ne_one] at h0 h1 h2
  exact ⟨⟨by exact_mod_cast h0.1, by exact_mod_cast h0.2⟩, ⟨by exact_mod_cast h1.1, by exact_mod_cast h1.2⟩,
    ⟨by exact_mod_cast h2.1, by exact_mod_cast h2.2⟩⟩

/-- everything the kernels read is in the grid, or a ghost point of the rank, or a wall point of another component on a line that the rank
does not own -/
theorem reads_cases (S : Setup L G axes) (hP : Partitioned L) (hG : GhostsOK debug L G B) {f r : ℕ} (hf : f < L.dim)
    (hr : r < L.mpiSize) {s : Stencil} (hs : Inside L.toMeshInfo f s) (ho : OwnsAt L f r s)
    {g : ℕ} {t : Stencil} (h : Reads L.dim f s g t) :
    (Inside L.toMeshInfo g (wrapPeriodic L g t) ∨ ∃ loc b p, Point (B r) g loc t b p) ∨
      (g < L.dim ∧ g ≠ f ∧ L.periodic 0 g = false ∧
        (coordOf s g = 0 ∧ coordOf t g = -1 ∨ coordOf s g + 1 = L.n f g ∧ coordOf t g = L.n g g) ∧ t.c = 0 ∧
        (∀ e, e < 3 → e ≠ g → 0 ≤ coordOf t e ∧ coordOf t e < L.n g e ∨ (e < L.dim ∧ L.periodic 0 e = true)) ∧
        ¬ ((L.bg g r f : ℤ) ≤ coordOf s f ∧ coordOf s f + 1 < L.ed g r f)) := by
  have h3 := S.dim_le
  have hL := S.layout
  have hper : ∀ d, d < L.dim → L.periodic d d = L.periodic 0 d := fun d hd => S.periodic d d hd (by omega)
  have hpos : ∀ f d, f < L.dim → d < 3 → 0 < L.n f d := fun f d hf hd => by have := (hP f d (Or.inl hf) hd).2; omega
  have hsc : ∀ (t : Stencil) (d : ℕ) (x : ℤ), (shift t d x).c = t.c := fun t d x => along_c _ _ _
  -- inside after wrapping
  have inside_wrap : ∀ (g : ℕ) (t : Stencil), g < L.dim → t.c = 0 → (∀ d, d < 3 → 0 ≤ coordOf t d ∧ coordOf t d < L.n g d ∨
      (d < L.dim ∧ L.periodic 0 d = true)) → Inside L.toMeshInfo g (wrapPeriodic L g t) := by
    intro g t hg hc hx
    refine ⟨fun d hd => ?_, hc⟩
    rw [wrapPeriodic_eq hper g t hd]
    have hp := hpos g d hg hd
    rcases hx d hd with hx | hx
    · split_ifs with hh
      · rw [Int.emod_eq_of_lt hx.1 hx.2]; exact hx
      · exact hx
    · rw [if_pos hx]
      exact ⟨Int.emod_nonneg _ (by omega), Int.emod_lt_of_pos _ (by omega)⟩
  rcases h with ⟨rfl, rfl | ⟨d, hd, ht⟩⟩ | ⟨hg, hne, ht⟩
  · exact Or.inl (Or.inl (inside_wrap g t hf hs.2 fun d hd => Or.inl (hs.1 d hd)))
  · -- own component
    left
    have hd' := hs.1 d (by omega)
    have go : ∀ x : ℤ, t = shift s d x → (0 ≤ coordOf s d + x ∧ coordOf s d + x < L.n g d ∨ L.periodic 0 d = true) →
        Inside L.toMeshInfo g (wrapPeriodic L g t) := by
      rintro x rfl hx
      apply inside_wrap g _ hf (by rw [hsc]; exact hs.2)
      intro e he
      rw [shift_coord _ _ (by omega) he]
      split_ifs with h
      · subst h
        rcases hx with hx | hx
        · exact Or.inl hx
        · exact Or.inr ⟨hd, hx⟩
      · exact Or.inl (hs.1 e he)
    rcases ht with ht | ht
    · by_cases hx : coordOf s d + 1 < L.n g d ∨ L.periodic 0 d = true
      · exact Or.inl (go 1 ht (hx.imp (fun h => ⟨by omega, h⟩) id))
      · rw [not_or, Bool.not_eq_true] at hx
        right
        have e : t = nbr (2 * d + 1) s := by
          rw [ht]; unfold nbr shift; rw [show (2 * d + 1) / 2 = d by omega, if_neg (by omega)]
        rw [e]
        obtain ⟨u, hu, rfl, rfl, rfl⟩ := owned_unknown hf hr hs ho
        obtain ⟨b, p, hp⟩ := hG.covered u.comp (2 * d + 1) u hu rfl (by omega)
          (by rw [show (2 * d + 1) / 2 = d by omega]; exact hx.2)
          (by unfold AtSide; rw [show (2 * d + 1) / 2 = d by omega, if_neg (by omega)]; omega)
        exact ⟨_, b, p, hp⟩
    · by_cases hx : 0 ≤ coordOf s d - 1 ∨ L.periodic 0 d = true
      · exact Or.inl (go (-1) ht (hx.imp (fun h => ⟨by omega, by omega⟩) id))
      · rw [not_or, Bool.not_eq_true] at hx
        right
        have e : t = nbr (2 * d) s := by
          rw [ht]; unfold nbr shift; rw [show (2 * d) / 2 = d by omega, if_pos (by omega)]
        rw [e]
        obtain ⟨u, hu, rfl, rfl, rfl⟩ := owned_unknown hf hr hs ho
        obtain ⟨b, p, hp⟩ := hG.covered u.comp (2 * d) u hu rfl (by omega)
          (by rw [show (2 * d) / 2 = d by omega]; exact hx.2)
          (by unfold AtSide; rw [show (2 * d) / 2 = d by omega, if_pos (by omega)]; omega)
        exact ⟨_, b, p, hp⟩
  · -- other component
    obtain ⟨x, y, hx, hy, rfl⟩ : ∃ x y : ℤ, (x = 0 ∨ x = -1) ∧ (y = 0 ∨ y = 1) ∧ t = shift (shift s g x) f y := by
      have z : ∀ (t : Stencil) (d : ℕ), d < 3 → shift t d 0 = t := by
        intro t d hd; unfold shift; rw [add_zero, along_self t d hd]
      rcases ht with rfl | rfl | rfl | rfl
      · exact ⟨0, 0, by omega, by omega, by rw [z _ g (by omega), z _ f (by omega)]⟩
      · exact ⟨0, 1, by omega, by omega, by rw [z _ g (by omega)]⟩
      · exact ⟨-1, 0, by omega, by omega, by rw [z _ f (by omega)]⟩
      · exact ⟨-1, 1, by omega, by omega, rfl⟩
    have hc : ∀ e, e < 3 → coordOf (shift (shift s g x) f y) e =
        if e = f then coordOf s f + y else if e = g then coordOf s g + x else coordOf s e := by
      intro e he
      rw [shift_coord _ _ (by omega) he, shift_coord _ _ (by omega) (by omega), shift_coord _ _ (by omega) he,
        if_neg (Ne.symm hne)]
    have nf := (S.staggered g hg).1 f (by omega) (Ne.symm hne)
    have ng := (S.staggered f hf).1 g (by omega) hne
    have sf := hs.1 f (by omega)
    have sg := hs.1 g (by omega)
    have dirf : 0 ≤ coordOf s f + y ∧ coordOf s f + y < L.n g f ∨ (f < L.dim ∧ L.periodic 0 f = true) := by
      rcases hp : L.periodic 0 f with _ | _
      · have := (S.staggered f hf).2.2 hp
        left; omega
      · right; exact ⟨hf, rfl⟩
    have dirh : ∀ e, e < 3 → e ≠ f → e ≠ g → 0 ≤ coordOf s e ∧ coordOf s e < L.n g e := by
      intro e he h1 h2
      have e1 := (S.staggered g hg).1 e he h2
      have e2 := (S.staggered f hf).1 e he h1
      have := hs.1 e he
      omega
    by_cases hin : 0 ≤ coordOf s g + x ∧ coordOf s g + x < L.n g g ∨ L.periodic 0 g = true
    · left; left
      apply inside_wrap g _ hg (by rw [hsc, hsc]; exact hs.2)
      intro e he
      rw [hc e he]
      split_ifs with h1 h2
      · subst h1; exact dirf
      · subst h2; exact hin.imp id fun h => ⟨hg, h⟩
      · exact Or.inl (dirh e he h1 h2)
    · rw [not_or, Bool.not_eq_true] at hin
      obtain ⟨hin, hpg⟩ := hin
      have e2 := (S.staggered g hg).2.2 hpg
      -- the two walls
      have hwall : coordOf s g = 0 ∧ x = -1 ∨ coordOf s g + 1 = L.n f g ∧ x = 0 := by omega
      by_cases hsees : (L.bg g r f : ℤ) ≤ coordOf s f ∧ coordOf s f + 1 < L.ed g r f
      swap
      · right
        refine ⟨hg, hne, hpg, ?_, by rw [hsc, hsc]; exact hs.2, ?_, hsees⟩
        · rw [hc g (by omega), if_neg hne, if_pos rfl]
          omega
        · intro e he heg
          rw [hc e he]
          split_ifs with h1
          · subst h1; exact dirf
          · exact Or.inl (dirh e he h1 heg)
      left; right
      have ownH : ∀ e, e < 3 → e ≠ f → e ≠ g → (L.bg g r e : ℤ) ≤ coordOf s e ∧ coordOf s e < L.ed g r e := by
        intro e he hef heg
        have h0 := ho.1 e he
        have e1 := (S.staggered f hf).1 e (by omega) hef
        have e2 := (S.staggered g hg).1 e (by omega) heg
        have := bg_congr hP (r := r) (Or.inl hf) (Or.inl hg) (d := e) (by omega) (by omega)
        omega
      have own_g := ho.1 g (by omega)
      have hbe := bg_lt_ed hP (f := g) (Or.inl hg) hr (d := g) (by omega)
      have hng := hpos g g hg (by omega)
      have dirf' : 0 ≤ coordOf s f + y ∧ coordOf s f + y < L.n g f := by
        have hle : L.ed g r f ≤ L.n g f := by
          have hcl := column_lt hr (show f < 3 by omega)
          have hl := S.layout.lines g f (Or.inl hg) (by omega)
          unfold ed bg m startOf sizeOf'
          rw [← hl, ← sum_take_succ]
          exact List.Sublist.sum_le_sum (List.take_sublist _ _) (by simp)
        omega
      rcases hwall with ⟨hw, rfl⟩ | ⟨hw, rfl⟩
      · -- lower wall
        have hbg : L.bg g r g = 0 := first_column hP (Or.inl hg) hr (by omega)
          (column_first hP (Or.inl hf) hr (by omega) (by omega))
        have hct : ∀ e, e < 3 → coordOf (shift s f y) e = if e = f then coordOf s f + y else coordOf s e := fun e he =>
          shift_coord _ _ (by omega) he
        have e : shift (shift s g (-1)) f y = nbr (2 * g) (shift s f y) := by
          apply stencil_ext
          · intro e he
            rw [hc e he]
            unfold nbr
            rw [show 2 * g / 2 = g by omega, if_pos (show 2 * g % 2 = 0 by omega), coordOf_along _ _ _ _ (by omega) he, hct e he,
              hct g (by omega), if_neg hne]
            by_cases h1 : e = f
            · rw [if_pos h1, if_neg (by omega), if_pos h1]
            · rw [if_neg h1, if_neg h1]
          · unfold nbr; rw [hsc, hsc, along_c, hsc]
        rw [e]
        have hti : Inside L.toMeshInfo g (shift s f y) := by
          refine ⟨fun e he => ?_, by rw [hsc]; exact hs.2⟩
          rw [hct e he]
          split_ifs with h1
          · subst h1; exact dirf'
          · by_cases h2 : e = g
            · subst h2; omega
            · exact dirh e he h1 h2
        have hto : OwnsAt L g r (shift s f y) := by
          refine ⟨fun e he => ?_, by rw [hsc]; exact hs.2⟩
          rw [hct e he]
          split_ifs with h1
          · subst h1; omega
          · by_cases h2 : e = g
            · subst h2; omega
            · exact ownH e he h1 h2
        obtain ⟨u, hu, rfl, rfl, hust⟩ := owned_unknown hg hr hti hto
        obtain ⟨b, p, hp⟩ := hG.covered u.comp (2 * u.comp) u hu rfl (by omega)
          (by rw [show (2 * u.comp) / 2 = u.comp by omega]; exact hpg)
          (by unfold AtSide; rw [show (2 * u.comp) / 2 = u.comp by omega, if_pos (by omega), hust, hct _ (by omega), if_neg hne]; exact hw)
        rw [hust] at hp
        exact ⟨_, b, p, hp⟩
      · -- upper wall
        have hed : L.ed g r g = L.n g g := last_column hP (Or.inl hg) hr (by omega)
          (column_last hP (Or.inl hf) hr (by omega) (by omega))
        set t' := shift (shift s g (-1)) f y with ht'
        have hct : ∀ e, e < 3 → coordOf t' e = if e = f then coordOf s f + y else if e = g then coordOf s g + -1 else coordOf s e := by
          intro e he
          rw [ht', shift_coord _ _ (by omega) he, shift_coord _ _ (by omega) (by omega), shift_coord _ _ (by omega) he,
            if_neg (Ne.symm hne)]
        have hcc : t'.c = 0 := by rw [ht', hsc, hsc]; exact hs.2
        have e : shift (shift s g 0) f y = nbr (2 * g + 1) t' := by
          apply stencil_ext
          · intro e he
            rw [hc e he]
            unfold nbr
            rw [show (2 * g + 1) / 2 = g by omega, if_neg (show ¬ (2 * g + 1) % 2 = 0 by omega), coordOf_along _ _ _ _ (by omega) he,
              hct e he, hct g (by omega), if_neg hne, if_pos rfl]
            by_cases h1 : e = f
            · rw [if_pos h1, if_neg (by omega), if_pos h1]
            · rw [if_neg h1, if_neg h1]
              split_ifs <;> omega
          · unfold nbr; rw [hsc, hsc, along_c, hcc]; exact hs.2
        rw [e]
        have hti : Inside L.toMeshInfo g t' := by
          refine ⟨fun e he => ?_, hcc⟩
          rw [hct e he]
          split_ifs with h1 h2
          · subst h1; exact dirf'
          · subst h2; omega
          · exact dirh e he h1 h2
        have hto : OwnsAt L g r t' := by
          refine ⟨fun e he => ?_, hcc⟩
          rw [hct e he]
          split_ifs with h1 h2
          · subst h1; omega
          · subst h2; omega
          · exact ownH e he h1 h2
        obtain ⟨u, hu, rfl, rfl, hust⟩ := owned_unknown hg hr hti hto
        obtain ⟨b, p, hp⟩ := hG.covered u.comp (2 * u.comp + 1) u hu rfl (by omega)
          (by rw [show (2 * u.comp + 1) / 2 = u.comp by omega]; exact hpg)
          (by
            unfold AtSide
            rw [show (2 * u.comp + 1) / 2 = u.comp by omega, if_neg (by omega), hust, hct _ (by omega), if_neg hne, if_pos rfl]
            omega)
        rw [hust] at hp
        exact ⟨_, b, p, hp⟩

/-- everything the kernels read is either in the grid or a ghost point of the rank -/
theorem reads_good (S : Setup L G axes) (hP : Partitioned L) (hG : GhostsOK debug L G B) {f r : ℕ} (hf : f < L.dim)
    (hr : r < L.mpiSize) {s : Stencil} (hs : Inside L.toMeshInfo f s) (ho : OwnsAt L f r s) (hsw : SeesWallLines L r f s)
    {g : ℕ} {t : Stencil} (h : Reads L.dim f s g t) :
    Inside L.toMeshInfo g (wrapPeriodic L g t) ∨ ∃ loc b p, Point (B r) g loc t b p := by
  rcases reads_cases S hP hG hf hr hs ho h with h | ⟨hg, hne, hp, hw, _, _, hn⟩
  · exact h
  · exact absurd (hsw g hg hne hp (by omega)) hn

/-- reading what the kernels read never fails -/
theorem kernel_defined (S : Setup L G axes) (hP : Partitioned L) {f r : ℕ} (hf : f < L.dim)
    (hr : r < L.mpiSize) {s : Stencil} (hs : Inside L.toMeshInfo f s) (ho : OwnsAt L f r s) (w : ℕ → ℤ → K) :
    ∃ x, convectionKernel L.dim G (fun g => readLocal L g r (w g)) f s.i s.j s.k = .ok x := by
  refine ⟨_, convectionKernel_eq S.layout.dim G _ (fun g t => ((readLocal L g r (w g) t.k t.j t.i).toOption).getD 0) hf s hs.2 ?_ ?_⟩
  · intro h2
    have := hs.1 2 (by omega)
    rw [S.layout.flat h2 f (by omega)] at this
    simp only [coordOf] at this
    norm_num at this
    omega
  · intro g t h
    obtain ⟨x, hx⟩ := read_ok S.layout (reads_inBox S hP hf hr hs ho h) (w g)
    rw [hx]; rfl

theorem kernel_value (S : Setup L G axes) (hP : Partitioned L) (hG : GhostsOK debug L G B) {q : ℤ → K} {V : ℕ → Stencil → K}
    (hV : Filled debug L B q V) (v : ℕ → ℕ → ℤ → K) {f r : ℕ} (hf : f < L.dim)
    (hr : r < L.mpiSize) {s : Stencil} (hs : Inside L.toMeshInfo f s) (ho : OwnsAt L f r s) (hsw : SeesWallLines L r f s) :
    convectionKernel L.dim G (fun g => readLocal L g r (convectionLocal L B q v r g)) f s.i s.j s.k =
      .ok (convective L.dim G V f s) := by
  apply convectionKernel_eq S.layout.dim G _ V hf s hs.2
  · intro h2
    have := hs.1 2 (by omega)
    rw [S.layout.flat h2 f (by omega)] at this
    simp only [coordOf] at this
    norm_num at this
    omega
  · intro g t h
    exact read_filled S hG hV v (h.comp_lt hf) hr (reads_inBox S hP hf hr hs ho h) (reads_good S hP hG hf hr hs ho hsw h)

/-- the assignments of the convection operator -/
theorem convectionAssign_spec (S : Setup L G axes) (hP : Partitioned L) (q : ℤ → K) (v : ℕ → ℕ → ℤ → K) :
    ∃ ws, convectionAssign L G B q v = .ok ws ∧
      ∀ w, w ∈ ws ↔ ∃ u, IsUnknown L u ∧ w.1 = col L u.comp u.st ∧
        convectionKernel L.dim G (fun g => readLocal L g u.rank (convectionLocal L B q v u.rank g)) u.comp u.st.i u.st.j u.st.k = .ok w.2 := by
  classical
  let val : ℕ → ℕ → ℕ × ℕ × ℕ → K := fun r f p =>
    ((convectionKernel L.dim G (fun g => readLocal L g r (convectionLocal L B q v r g)) f p.1 p.2.1 p.2.2).toOption).getD 0
  have hL := S.layout
  have hok : ∀ r f p, r < L.mpiSize → f < L.dim → p ∈ L.box f r →
      IsUnknown L ⟨r, f, p.1, p.2.1, p.2.2⟩ ∧
      (do
        let idx ← L.getPackedGlobalIndex false f ⟨p.2.2, p.2.1, p.1, 0⟩
        let x ← convectionKernel L.dim G (fun g => readLocal L g r (convectionLocal L B q v r g)) f p.1 p.2.1 p.2.2
        return (idx, x)) = Except.ok (ε := Error) (col L f ⟨p.2.2, p.2.1, p.1, 0⟩, val r f p) ∧
      convectionKernel L.dim G (fun g => readLocal L g r (convectionLocal L B q v r g)) f p.1 p.2.1 p.2.2 = .ok (val r f p) := by
    intro r f p hr hf hp
    have hown := mem_box.1 hp
    have hin := owns_inGrid hL (Or.inl hf) hown
    have hu : IsUnknown L ⟨r, f, p.1, p.2.1, p.2.2⟩ := ⟨hf, hin.1, hin.2.1, hin.2.2, hr, hown⟩
    obtain ⟨x, hx⟩ := kernel_defined S hP hf hr hu.inside hu.ownsAt (convectionLocal L B q v r)
    have hx : convectionKernel L.dim G (fun g => readLocal L g r (convectionLocal L B q v r g)) f p.1 p.2.1 p.2.2 = .ok x := hx
    have hc : L.getPackedGlobalIndex false f ⟨p.2.2, p.2.1, p.1, 0⟩ = _ := (col_inside hL (Or.inl hf) false hu.inside).1
    have hv : val r f p = x := by simp only [val]; rw [hx]; rfl
    refine ⟨hu, ?_, by rw [hx, hv]⟩
    rw [hc, hx, hv]; rfl
  refine ⟨((List.range L.mpiSize).map fun r => (List.range L.dim).map fun f => (L.box f r).map fun p =>
    (col L f ⟨p.2.2, p.2.1, p.1, 0⟩, val r f p)).flatMap fun b => b.flatMap id, ?_, ?_⟩
  · unfold convectionAssign
    rw [mapM_ok (h := fun r => (List.range L.dim).map fun f => (L.box f r).map fun p => (col L f ⟨p.2.2, p.2.1, p.1, 0⟩, val r f p))]
    · rfl
    · intro r hr
      apply mapM_ok
      intro f hf
      apply mapM_ok
      intro p hp
      exact (hok r f p (List.mem_range.1 hr) (List.mem_range.1 hf) hp).2.1
  · intro w
    constructor
    · intro hw
      obtain ⟨b, hb, hw⟩ := List.mem_flatMap.1 hw
      obtain ⟨r, hr, rfl⟩ := List.mem_map.1 hb
      obtain ⟨c, hc, hw⟩ := List.mem_flatMap.1 hw
      obtain ⟨f, hf, rfl⟩ := List.mem_map.1 hc
      obtain ⟨p, hp, rfl⟩ := List.mem_map.1 hw
      obtain ⟨h1, _, h3⟩ := hok r f p (List.mem_range.1 hr) (List.mem_range.1 hf) hp
      exact ⟨_, h1, rfl, h3⟩
    · rintro ⟨u, hu, h1, h2⟩
      have hp : (u.i, u.j, u.k) ∈ L.box u.comp u.rank := mem_box.2 hu.2.2.2.2.2
      have h3 := (hok u.rank u.comp _ hu.2.2.2.2.1 hu.1 hp).2.2
      have h2 : convectionKernel L.dim G (fun g => readLocal L g u.rank (convectionLocal L B q v u.rank g)) u.comp u.i u.j u.k = .ok w.2 := h2
      simp only at h3
      rw [h2] at h3
      apply List.mem_flatMap.2
      refine ⟨_, List.mem_map.2 ⟨u.rank, List.mem_range.2 hu.2.2.2.2.1, rfl⟩, List.mem_flatMap.2
        ⟨_, List.mem_map.2 ⟨u.comp, List.mem_range.2 hu.1, rfl⟩, List.mem_map.2 ⟨_, hp, ?_⟩⟩⟩
      apply Prod.ext
      · exact h1.symm
      · exact (Except.ok.inj h3).symm

/-- the result of the convection operator at an unknown is what the kernel returned for it -/
theorem convectionMult_spec (S : Setup L G axes) (hP : Partitioned L) (q y : ℤ → K) (v : ℕ → ℕ → ℤ → K) :
    ∃ z, convectionMult L G B v q y = .ok z ∧
      ∀ u, IsUnknown L u → convectionKernel L.dim G (fun g => readLocal L g u.rank (convectionLocal L B q v u.rank g)) u.comp
        u.st.i u.st.j u.st.k = .ok (z (col L u.comp u.st)) := by
  obtain ⟨ws, h1, h2⟩ := convectionAssign_spec (B := B) S hP q v
  refine ⟨vecAssign y ws, ?_, ?_⟩
  · unfold convectionMult; rw [h1]; rfl
  · intro u hu
    obtain ⟨x, hx⟩ := kernel_defined S hP hu.1 hu.2.2.2.2.1 hu.inside hu.ownsAt (convectionLocal L B q v u.rank)
    have hm : (col L u.comp u.st, x) ∈ ws := (h2 _).2 ⟨u, hu, rfl, hx⟩
    rw [hx, vecAssign_of_mem hm]
    intro w hw hwl
    obtain ⟨u', hu', e1, e2⟩ := (h2 w).1 hw
    rw [e1] at hwl
    obtain rfl := hu'.row_inj S.layout hu hwl
    rw [hx] at e2
    exact (Except.ok.inj e2).symm

/-- there is a field -/
theorem exists_filled (S : Setup L G axes) (hP : Partitioned L) (hG : GhostsOK debug L G B) (q : ℤ → K) :
    ∃ V, Filled debug L B q V := by
  classical
  have hL := S.layout
  have hd3 := S.dim_le
  have hper : ∀ d, d < L.dim → L.periodic d d = L.periodic 0 d := fun d hd => S.periodic d d hd (by omega)
  have hpos : ∀ f d, f < L.dim → d < 3 → 0 < L.n f d := fun f d hf hd => by have := (hP f d (Or.inl hf) hd).2; omega
  let V : ℕ → Stencil → K := fun f s =>
    if Inside L.toMeshInfo f (wrapPeriodic L f s) then q (col L f (wrapPeriodic L f s))
    else if h : ∃ p, ∃ r loc b, r < L.mpiSize ∧ Point (B r) f loc (wrapPeriodic L f s) b p then h.choose.value
    else 0
  have wrap_id : ∀ f s, s.c = 0 → (∀ d, d < L.dim → L.periodic 0 d = true → 0 ≤ coordOf s d ∧ coordOf s d < L.n f d) →
      wrapPeriodic L f s = s := by
    intro f s hc h
    apply stencil_ext
    · intro d hd
      rw [wrapPeriodic_eq hper f s hd]
      split_ifs with hh
      · have := h d hh.1 hh.2
        exact Int.emod_eq_of_lt this.1 this.2
      · rfl
    · rfl
  refine ⟨V, ⟨?_, ?_, ?_⟩⟩
  · intro f s idx hf hs hi
    obtain ⟨h1, h2, _⟩ := col_inside hL (Or.inl hf) debug hs
    rw [h1] at hi; cases hi
    have e := wrap_id f s hs.2 fun d hd _ => hs.1 d (by omega)
    simp only [V]
    rw [e, if_pos hs]
  · intro f s d hf hd hp
    have e : wrapPeriodic L f (along s d (coordOf s d % L.n f d)) = wrapPeriodic L f s := by
      apply stencil_ext
      · intro e he
        rw [wrapPeriodic_eq hper f _ he, wrapPeriodic_eq hper f _ he, coordOf_along _ _ _ _ (by omega) he]
        by_cases hed : e = d
        · subst hed
          rw [if_pos rfl, if_pos ⟨hd, hp⟩, if_pos ⟨hd, hp⟩, Int.emod_emod]
        · rw [if_neg hed]
      · show (along s d _).c = s.c
        rw [along_c]
    simp only [V]
    rw [e]
  · intro r f loc s b p hr hp
    obtain ⟨hf, hloc, good⟩ := hG.good r f loc s b p hr hp
    have hper' := hG.periodic r f loc s b p hr hp
    have e := wrap_id f s good.face.2.2 fun d hd hpd => good.face.2.1 d (by omega) (by rintro rfl; rw [hper'] at hpd; cases hpd)
    have hni := point_not_inside hL hG hper hr hp
    have hex : ∃ p, ∃ r loc b, r < L.mpiSize ∧ Point (B r) f loc (wrapPeriodic L f s) b p := by
      rw [e]; exact ⟨p, r, loc, b, hr, hp⟩
    have hch : hex.choose = p := by
      obtain ⟨r', loc', b', hr', hp'⟩ := hex.choose_spec
      generalize hex.choose = p' at hp' ⊢
      rw [e] at hp'
      exact point_unique hL hG hr' hr hp' hp
    show V f s = p.value
    simp only [V]
    rw [if_neg hni, dif_pos hex, hch]

end PetIBM
