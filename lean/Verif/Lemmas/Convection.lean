/-
Values that the convection kernels read.
-/
import Verif.Lemmas.Local
import Verif.Lemmas.ExtendedRow
import Verif.Lemmas.Partition

set_option linter.unusedSectionVars false

namespace PetIBM

open Spec Layout

variable {K : Type} [Field K]

/-! ### Kernels -/

/-- points of component `g` that the kernel of component `f` reads for point `s` -/
def Reads (dim f : ℕ) (s : Stencil) (g : ℕ) (t : Stencil) : Prop :=
  (g = f ∧ (t = s ∨ ∃ d, d < dim ∧ (t = shift s d 1 ∨ t = shift s d (-1)))) ∨
  (g < dim ∧ g ≠ f ∧ (t = s ∨ t = shift s f 1 ∨ t = shift s g (-1) ∨ t = shift (shift s g (-1)) f 1))

theorem convectionKernel_eq {dim : ℕ} (hd : dim = 2 ∨ dim = 3) (G : Geom K) (flux : FluxArray K) (V : ℕ → Stencil → K) {f : ℕ}
    (hf : f < dim) (s : Stencil) (hs : s.c = 0) (h2 : dim = 2 → s.k = 0)
    (h : ∀ g t, Reads dim f s g t → flux g t.k t.j t.i = .ok (V g t)) :
    convectionKernel dim G flux f s.i s.j s.k = .ok (convective dim G V f s) := by
  obtain ⟨k, j, i, c⟩ := s
  simp only at hs h2
  subst hs
  have own0 : flux f k j i = .ok (V f ⟨k, j, i, 0⟩) := h f _ (Or.inl ⟨rfl, Or.inl rfl⟩)
  have own1 : ∀ d, d < dim → flux f (shift ⟨k, j, i, 0⟩ d 1).k (shift ⟨k, j, i, 0⟩ d 1).j (shift ⟨k, j, i, 0⟩ d 1).i =
      .ok (V f (shift ⟨k, j, i, 0⟩ d 1)) := fun d hd => h f _ (Or.inl ⟨rfl, Or.inr ⟨d, hd, Or.inl rfl⟩⟩)
  have own2 : ∀ d, d < dim → flux f (shift ⟨k, j, i, 0⟩ d (-1)).k (shift ⟨k, j, i, 0⟩ d (-1)).j (shift ⟨k, j, i, 0⟩ d (-1)).i =
      .ok (V f (shift ⟨k, j, i, 0⟩ d (-1))) := fun d hd => h f _ (Or.inl ⟨rfl, Or.inr ⟨d, hd, Or.inr rfl⟩⟩)
  have o1 : ∀ g, g < dim → g ≠ f → flux g k j i = .ok (V g ⟨k, j, i, 0⟩) := fun g hg hne =>
    h g ⟨k, j, i, 0⟩ (Or.inr ⟨hg, hne, Or.inl rfl⟩)
  have o2 := fun g hg hne => h g (shift ⟨k, j, i, 0⟩ f 1) (Or.inr ⟨hg, hne, Or.inr (Or.inl rfl)⟩)
  have o3 := fun g hg hne => h g (shift ⟨k, j, i, 0⟩ g (-1)) (Or.inr ⟨hg, hne, Or.inr (Or.inr (Or.inl rfl))⟩)
  have o4 := fun g hg hne => h g (shift (shift ⟨k, j, i, 0⟩ g (-1)) f 1) (Or.inr ⟨hg, hne, Or.inr (Or.inr (Or.inr rfl))⟩)
  clear h
  have ps : ∀ x : ℤ, x + -1 = x - 1 := fun x => rfl
  rcases hd with rfl | rfl
  · have hk := h2 rfl
    subst hk
    have p0 := own1 0 (by omega)
    have p1 := own1 1 (by omega)
    have m0 := own2 0 (by omega)
    have m1 := own2 1 (by omega)
    interval_cases f
    · have a1 := o1 1 (by omega) (by omega)
      have a2 := o2 1 (by omega) (by omega)
      have a3 := o3 1 (by omega) (by omega)
      have a4 := o4 1 (by omega) (by omega)
      simp [shift, along, coordOf, ps] at own0 p0 p1 m0 m1 a1 a2 a3 a4
      show kernelU2 G flux i j = .ok (convective 2 G V 0 ⟨0, j, i, 0⟩)
      simp [kernelU2, own0, p0, p1, m0, m1, a1, a2, a3, a4, convective, momentumFlux, Finset.sum_range_succ,
        shift, along, coordOf, ps, bind, Except.bind, pure, Except.pure]
      ring
    · have a1 := o1 0 (by omega) (by omega)
      have a2 := o2 0 (by omega) (by omega)
      have a3 := o3 0 (by omega) (by omega)
      have a4 := o4 0 (by omega) (by omega)
      simp [shift, along, coordOf, ps] at own0 p0 p1 m0 m1 a1 a2 a3 a4
      show kernelV2 G flux i j = .ok (convective 2 G V 1 ⟨0, j, i, 0⟩)
      simp [kernelV2, own0, p0, p1, m0, m1, a1, a2, a3, a4, convective, momentumFlux, Finset.sum_range_succ,
        shift, along, coordOf, ps, bind, Except.bind, pure, Except.pure]
      ring
  · have p0 := own1 0 (by omega)
    have p1 := own1 1 (by omega)
    have p2 := own1 2 (by omega)
    have m0 := own2 0 (by omega)
    have m1 := own2 1 (by omega)
    have m2 := own2 2 (by omega)
    interval_cases f
    · have a1 := o1 1 (by omega) (by omega)
      have a2 := o2 1 (by omega) (by omega)
      have a3 := o3 1 (by omega) (by omega)
      have a4 := o4 1 (by omega) (by omega)
      have b1 := o1 2 (by omega) (by omega)
      have b2 := o2 2 (by omega) (by omega)
      have b3 := o3 2 (by omega) (by omega)
      have b4 := o4 2 (by omega) (by omega)
      simp [shift, along, coordOf, ps] at own0 p0 p1 p2 m0 m1 m2 a1 a2 a3 a4 b1 b2 b3 b4
      show kernelU3 G flux i j k = .ok (convective 3 G V 0 ⟨k, j, i, 0⟩)
      simp [kernelU3, own0, p0, p1, p2, m0, m1, m2, a1, a2, a3, a4, b1, b2, b3, b4, convective, momentumFlux,
        Finset.sum_range_succ, shift, along, coordOf, ps, bind, Except.bind, pure, Except.pure]
      ring
    · have a1 := o1 0 (by omega) (by omega)
      have a2 := o2 0 (by omega) (by omega)
      have a3 := o3 0 (by omega) (by omega)
      have a4 := o4 0 (by omega) (by omega)
      have b1 := o1 2 (by omega) (by omega)
      have b2 := o2 2 (by omega) (by omega)
      have b3 := o3 2 (by omega) (by omega)
      have b4 := o4 2 (by omega) (by omega)
      simp [shift, along, coordOf, ps] at own0 p0 p1 p2 m0 m1 m2 a1 a2 a3 a4 b1 b2 b3 b4
      show kernelV3 G flux i j k = .ok (convective 3 G V 1 ⟨k, j, i, 0⟩)
      simp [kernelV3, own0, p0, p1, p2, m0, m1, m2, a1, a2, a3, a4, b1, b2, b3, b4, convective, momentumFlux,
        Finset.sum_range_succ, shift, along, coordOf, ps, bind, Except.bind, pure, Except.pure]
      ring
    · have a1 := o1 0 (by omega) (by omega)
      have a2 := o2 0 (by omega) (by omega)
      have a3 := o3 0 (by omega) (by omega)
      have a4 := o4 0 (by omega) (by omega)
      have b1 := o1 1 (by omega) (by omega)
      have b2 := o2 1 (by omega) (by omega)
      have b3 := o3 1 (by omega) (by omega)
      have b4 := o4 1 (by omega) (by omega)
      simp [shift, along, coordOf, ps] at own0 p0 p1 p2 m0 m1 m2 a1 a2 a3 a4 b1 b2 b3 b4
      show kernelW3 G flux i j k = .ok (convective 3 G V 2 ⟨k, j, i, 0⟩)
      simp [kernelW3, own0, p0, p1, p2, m0, m1, m2, a1, a2, a3, a4, b1, b2, b3, b4, convective, momentumFlux,
        Finset.sum_range_succ, shift, along, coordOf, ps, bind, Except.bind, pure, Except.pure]
      ring

theorem Reads.comp_lt {dim f g : ℕ} {s t : Stencil} (hf : f < dim) (h : Reads dim f s g t) : g < dim := by
  rcases h with ⟨rfl, _⟩ | ⟨h, _⟩ <;> assumption

/-! ### The ghosted boxes of the components -/

section
variable {L : Layout} {G : Geom K} {debug : Bool} {B : ℕ → Boundary K}

/-- with one more grid line, a process starts at most one line later, never earlier -/
theorem bg_ed_succ (hP : Partitioned L) {f g r d : ℕ} (hf : f < L.dim ∨ f = 3) (hg : g < L.dim ∨ g = 3) (hr : r < L.mpiSize)
    (hd : d < 3) (h : L.n g d = L.n f d + 1) :
    L.bg f r d ≤ L.bg g r d ∧ L.bg g r d ≤ L.bg f r d + 1 ∧ L.ed f r d ≤ L.ed g r d ∧ L.ed g r d ≤ L.ed f r d + 1 := by
  have hc := column_lt hr hd
  rw [bg_default hP hf hr hd, bg_default hP hg hr hd, ed_default hP hf hr hd, ed_default hP hg hr hd, h]
  have hp := (hP f d hf hd).2.1
  set P := L.nProc d
  set c := L.column r d
  set n := L.n f d
  by_cases hm : (n + 1) % P = 0
  · -- the remainder wraps
    have h1 : n % P = P - 1 := by
      have := Nat.mod_lt n hp
      rcases Nat.lt_or_ge (n % P + 1) P with hlt | hge
      · rw [Nat.add_mod, Nat.mod_eq_of_lt (a := 1) (by omega), Nat.mod_eq_of_lt hlt] at hm; omega
      · omega
    have h2 : (n + 1) / P = n / P + 1 := by
      rw [Nat.succ_div, if_pos (Nat.dvd_of_mod_eq_zero hm)]
    rw [hm, h1, h2]
    simp only [Nat.mul_add, Nat.add_mul, mul_one, one_mul]
    omega
  · have h2 : (n + 1) / P = n / P := by
      rw [Nat.succ_div, if_neg (fun h => hm (Nat.mod_eq_zero_of_dvd h)), add_zero]
    have h1 : (n + 1) % P = n % P + 1 := by
      have a := Nat.div_add_mod (n + 1) P
      have b := Nat.div_add_mod n P
      rw [h2] at a
      omega
    rw [h1, h2]
    omega

variable [LinearOrder K] [IsStrictOrderedRing K] {axes : ℕ → Axis K}

/-- rank `r` owns point `s` of component `f` -/
def OwnsAt (L : Layout) (f r : ℕ) (s : Stencil) : Prop :=
  (∀ d, d < 3 → (L.bg f r d : ℤ) ≤ coordOf s d ∧ coordOf s d < L.ed f r d) ∧ s.c = 0

theorem Spec.IsUnknown.ownsAt {u : Unknown} (hu : IsUnknown L u) : OwnsAt L u.comp u.rank u.st := by
  have h := owns_iff.1 hu.2.2.2.2.2
  refine ⟨fun d hd => ?_, rfl⟩
  interval_cases d <;> simp [Unknown.st, coordOf] <;> omega

theorem shift_coord (s : Stencil) {d e : ℕ} (x : ℤ) (hd : d < 3) (he : e < 3) :
    coordOf (shift s d x) e = if e = d then coordOf s d + x else coordOf s e := coordOf_along _ _ _ _ hd he

/-- everything the kernels read is in the ghosted box -/
theorem reads_inBox (S : Setup L G axes) (hP : Partitioned L) {f r : ℕ} (hf : f < L.dim) (hr : r < L.mpiSize) {s : Stencil}
    (hs : Inside L.toMeshInfo f s) (ho : OwnsAt L f r s) {g : ℕ} {t : Stencil} (h : Reads L.dim f s g t) : InBox L g r t := by
  have h3 := S.dim_le
  have hL := S.layout
  have hk : L.dim ≤ 2 → s.k = 0 := by
    intro h
    have := hs.1 2 (by omega)
    rw [hL.flat (by rcases hL.dim with h | h <;> omega) f (by omega)] at this
    simp only [coordOf] at this
    norm_num at this
    omega
  have hsk : ∀ (t : Stencil) (d : ℕ) (x : ℤ), d < L.dim → L.dim ≤ 2 → (shift t d x).k = t.k := by
    intro t d x hd hl
    unfold shift along
    split_ifs with h0 h1
    · rfl
    · rfl
    · omega
  have hsc : ∀ (t : Stencil) (d : ℕ) (x : ℤ), (shift t d x).c = t.c := fun t d x => along_c _ _ _
  rcases h with ⟨rfl, rfl | ⟨d, hd, rfl | rfl⟩⟩ | ⟨hg, hne, h⟩
  · exact ⟨fun d hd => by have := ho.1 d (by omega); omega, hk, ho.2⟩
  · refine ⟨fun e he => ?_, fun hl => ?_, ?_⟩
    · have := ho.1 e (by omega)
      rw [shift_coord _ _ (by omega) (by omega)]; split_ifs with h
      · subst h; omega
      · omega
    · rw [hsk _ _ _ hd hl, hk hl]
    · rw [hsc]; exact ho.2
  · refine ⟨fun e he => ?_, fun hl => ?_, ?_⟩
    · have := ho.1 e (by omega)
      rw [shift_coord _ _ (by omega) (by omega)]; split_ifs with h
      · subst h; omega
      · omega
    · rw [hsk _ _ _ hd hl, hk hl]
    · rw [hsc]; exact ho.2
  · -- ranges by direction
    have hF : (L.bg g r f : ℤ) - 1 ≤ coordOf s f ∧ coordOf s f + 1 ≤ L.ed g r f := by
      have h0 := ho.1 f (by omega)
      have e1 := (S.staggered g hg).1 f (by omega) (Ne.symm hne)
      rcases hper : L.periodic 0 f with _ | _
      · have e2 := (S.staggered f hf).2.2 hper
        have := bg_ed_succ hP (Or.inl hf) (Or.inl hg) hr (d := f) (by omega) (by omega)
        omega
      · have e2 := (S.staggered f hf).2.1 hper
        have := bg_congr hP (r := r) (Or.inl hf) (Or.inl hg) (d := f) (by omega) (by omega)
        omega
    have hGd : (L.bg g r g : ℤ) - 1 ≤ coordOf s g - 1 ∧ coordOf s g ≤ L.ed g r g := by
      have h0 := ho.1 g (by omega)
      have e1 := (S.staggered f hf).1 g (by omega) hne
      rcases hper : L.periodic 0 g with _ | _
      · have e2 := (S.staggered g hg).2.2 hper
        have := bg_ed_succ hP (Or.inl hg) (Or.inl hf) hr (d := g) (by omega) (by omega)
        omega
      · have e2 := (S.staggered g hg).2.1 hper
        have := bg_congr hP (r := r) (Or.inl hf) (Or.inl hg) (d := g) (by omega) (by omega)
        omega
    have hH : ∀ e, e < 3 → e ≠ f → e ≠ g → (L.bg g r e : ℤ) ≤ coordOf s e ∧ coordOf s e < L.ed g r e := by
      intro e he hef heg
      have h0 := ho.1 e he
      have e1 := (S.staggered f hf).1 e (by omega) hef
      have e2 := (S.staggered g hg).1 e (by omega) heg
      have := bg_congr hP (r := r) (Or.inl hf) (Or.inl hg) (d := e) (by omega) (by omega)
      omega
    have hall : ∀ x y : ℤ, (x = 0 ∨ x = -1) → (y = 0 ∨ y = 1) → ∀ e, e < L.dim →
        (L.bg g r e : ℤ) - 1 ≤ (if e = f then coordOf s f + y else if e = g then coordOf s g + x else coordOf s e) ∧
        (if e = f then coordOf s f + y else if e = g then coordOf s g + x else coordOf s e) ≤ L.ed g r e := by
      intro x y hx hy e he
      split_ifs with h1 h2
      · subst h1; omega
      · subst h2; omega
      · have := hH e (by omega) h1 h2; omega
    rcases h with rfl | rfl | rfl | rfl
    · refine ⟨fun e he => ?_, hk, ho.2⟩
      have := hall 0 0 (by omega) (by omega) e he
      split_ifs at this with h1 h2
      · subst h1; omega
      · subst h2; omega
      · omega
    · refine ⟨fun e he => ?_, fun hl => ?_, ?_⟩
      · have := hall 0 1 (by omega) (by omega) e he
        rw [shift_coord _ _ (by omega) (by omega)]
        split_ifs at this ⊢ with h1 h2
        · omega
        · subst h2; omega
        · omega
      · rw [hsk _ _ _ hf hl, hk hl]
      · rw [hsc]; exact ho.2
    · refine ⟨fun e he => ?_, fun hl => ?_, ?_⟩
      · have := hall (-1) 0 (by omega) (by omega) e he
        rw [shift_coord _ _ (by omega) (by omega)]
        split_ifs at this ⊢ with h1 h2 h3
        all_goals first | omega | (subst h3; omega)
      · rw [hsk _ _ _ hg hl, hk hl]
      · rw [hsc]; exact ho.2
    · refine ⟨fun e he => ?_, fun hl => ?_, ?_⟩
      · have := hall (-1) 1 (by omega) (by omega) e he
        rw [shift_coord _ _ (by omega) (by omega), shift_coord _ _ (by omega) (by omega), shift_coord _ _ (by omega) (by omega),
          if_neg (Ne.symm hne)]
        split_ifs at this ⊢ <;> omega
      · rw [hsk _ _ _ hf hl, hsk _ _ _ hg hl, hk hl]
      · rw [hsc, hsc]; exact ho.2

end

end PetIBM
