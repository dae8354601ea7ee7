/-
The vorticity utility reads the extended velocity field.
-/
import Verif.Spec.Vorticity
import Verif.Lemmas.ConvectionRun
import Verif.Lemmas.MeshInit

set_option linter.unusedSectionVars false

namespace PetIBM

open Spec Layout

variable {K : Type} [Field K]

/-! ### Distribution -/

/-- with one more grid line, a process starts at most one line later, never earlier -/
theorem start_succ {n P c : ℕ} (hp : 0 < P) (hc : c ≤ P) :
    startOf (dmdaDefault n P) c ≤ startOf (dmdaDefault (n + 1) P) c ∧ startOf (dmdaDefault (n + 1) P) c ≤ startOf (dmdaDefault n P) c + 1 := by
  rw [startOf_default hc, startOf_default hc]
  by_cases hm : (n + 1) % P = 0
  · have h1 : n % P = P - 1 := by
      have := Nat.mod_lt n hp
      rcases Nat.lt_or_ge (n % P + 1) P with hlt | hge
      · rw [Nat.add_mod, Nat.mod_eq_of_lt (a := 1) (by omega), Nat.mod_eq_of_lt hlt] at hm; omega
      · omega
    have h2 : (n + 1) / P = n / P + 1 := by
      rw [Nat.succ_div, if_pos (Nat.dvd_of_mod_eq_zero hm)]
    rw [hm, h1, h2, Nat.mul_add, mul_one]
    omega
  · have h2 : (n + 1) / P = n / P := by
      rw [Nat.succ_div, if_neg (fun h => hm (Nat.mod_eq_zero_of_dvd h)), add_zero]
    have h1 : (n + 1) % P = n % P + 1 := by
      have a := Nat.div_add_mod (n + 1) P
      have b := Nat.div_add_mod n P
      rw [h2] at a
      omega
    rw [h1, h2]
    omega

theorem ed_eq_start (L : Layout) (f r d : ℕ) : L.ed f r d = startOf (L.own f d) (L.column r d + 1) := by
  unfold ed bg m startOf sizeOf'
  rw [sum_take_succ]

variable [LinearOrder K] [IsStrictOrderedRing K]
variable {L : Layout} {G : Geom K} {axes : ℕ → Axis K} {debug : Bool} {B : ℕ → Boundary K}

theorem Spec.Setup.vertices (S : Setup L G axes) {d : ℕ} (hd : d < L.dim) : L.n 4 d = L.n 3 d + 1 := by
  have h3 := S.dim_le
  rw [S.counts 4 d (by omega) (by omega) (vertexAxis (axes d)) (by simp [fieldAxis, hd]),
    S.counts 3 d (by omega) (by omega) (pressureAxis (axes d)) (by simp [fieldAxis, hd])]
  rfl

/-- numbers of lines of the vorticity fields -/
theorem vorticityCount_eq (S : Setup L G axes) {f d : ℕ} (hd : d < 3) (hf : f < L.dim ∨ f = 3) :
    vorticityCount L.toMeshInfo f d =
      if d = vorticityComponent L.dim (if f = 3 then 2 else f) then L.n 3 d else L.n 3 d + 1 := by
  have hdim := S.layout.dim
  unfold vorticityCount vorticityComponent
  rcases hdim with h2 | h3
  · have v0 := S.vertices (d := 0) (by omega)
    have v1 := S.vertices (d := 1) (by omega)
    interval_cases d <;> simp [h2, v0, v1]
  · have v0 := S.vertices (d := 0) (by omega)
    have v1 := S.vertices (d := 1) (by omega)
    have v2 := S.vertices (d := 2) (by omega)
    have : f = 0 ∨ f = 1 ∨ f = 2 ∨ f = 3 := by omega
    rcases this with rfl | rfl | rfl | rfl <;> interval_cases d <;> simp [h3, v0, v1, v2]

theorem vorticityLayout_ok (S : Setup L G axes) : LayoutOK (vorticityLayout L) where
  dim := S.layout.dim
  flat := by
    intro h f hf
    change L.dim = 2 at h
    have : (vorticityLayout L).n f 2 = L.n 3 2 := by
      show vorticityCount L.toMeshInfo f 2 = _
      simp [vorticityCount, h]
    rw [this]
    exact S.layout.flat h 3 (by omega)
  procs := S.layout.procs
  cols := fun f d _ _ => length_dmdaDefault _ _
  lines := fun f d _ hd => sum_dmdaDefault _ _ (S.layout.procs d hd)

/-- lines owned by a process in the vorticity field and in a velocity component -/
theorem vorticity_ranges (S : Setup L G axes) (hP : Partitioned L) {f g r d : ℕ} (hf : f < L.dim) (hg : g < L.dim) (hr : r < L.mpiSize)
    (hd : d < 3) :
    L.bg g r d ≤ (vorticityLayout L).bg f r d ∧
      ((vorticityLayout L).ed f r d ≤ L.ed g r d + if d = g ∧ L.periodic 0 g = false then 2 else 1) ∧
      (d = vorticityComponent L.dim f → d ≠ g → (vorticityLayout L).ed f r d ≤ L.ed g r d) := by
  have h3 := S.dim_le
  have hc := column_lt hr hd
  have hp := S.layout.procs d hd
  have hcount := vorticityCount_eq S (f := f) hd (Or.inl hf)
  rw [if_neg (show f ≠ 3 by omega)] at hcount
  have hbw : (vorticityLayout L).bg f r d = startOf (dmdaDefault (vorticityCount L.toMeshInfo f d) (L.nProc d)) (L.column r d) := rfl
  have hew : (vorticityLayout L).ed f r d = startOf (dmdaDefault (vorticityCount L.toMeshInfo f d) (L.nProc d)) (L.column r d + 1) :=
    ed_eq_start _ _ _ _
  have hbg : L.bg g r d = startOf (dmdaDefault (L.n g d) (L.nProc d)) (L.column r d) := by
    unfold bg; rw [(hP g d (Or.inl hg) hd).1]
  have heg : L.ed g r d = startOf (dmdaDefault (L.n g d) (L.nProc d)) (L.column r d + 1) := by
    rw [ed_eq_start, (hP g d (Or.inl hg) hd).1]
  rw [hbw, hew, hbg, heg, hcount]
  have s1 := @start_succ (L.n 3 d) _ _ hp hc.le
  have s2 := @start_succ (L.n 3 d) _ (L.column r d + 1) hp (by omega)
  have st := S.staggered g hg
  by_cases hdg : d = g
  · subst hdg
    cases hper : L.periodic 0 d with
    | true =>
      rw [st.2.1 hper]
      simp only [Bool.true_eq_false, and_false, if_false]
      split_ifs <;> omega
    | false =>
      have hn := st.2.2 hper
      have t1 := @start_succ (L.n d d) _ _ hp hc.le
      have t2 := @start_succ (L.n d d) _ (L.column r d + 1) hp (by omega)
      rw [hn] at t1 t2
      simp only [and_self, if_true]
      split_ifs <;> omega
  · rw [st.1 d hd hdg]
    rw [if_neg (show ¬ (d = g ∧ L.periodic 0 g = false) by tauto)]
    refine ⟨?_, ?_, ?_⟩
    · split_ifs <;> omega
    · split_ifs <;> omega
    · intro h _
      rw [if_pos h]

/-! ### Kernel -/

theorem vorticityKernel_eq {dim : ℕ} (hd : dim = 2 ∨ dim = 3) (coord : CoordArray K) (flux : VelocityArray K) (V : ℕ → Stencil → K) {f : ℕ}
    (hf : f < dim) (h0 : dim = 2 → f = 0) (s : Stencil) (hs : s.c = 0) (h2 : dim = 2 → s.k = 0)
    (hc : ∀ g e x, g ≠ vorticityComponent dim f → e ≠ vorticityComponent dim f → g < dim → e < dim → g ≠ e →
      (x = coordOf s e ∨ x = coordOf s e - 1) → coord g e x = .ok (G.coord g e x))
    (h : ∀ g t, Around (vorticityComponent dim f) (usedPoint dim f s) g t → flux g t.k t.j t.i = .ok (V g t)) :
    vorticityKernel dim coord flux f s.i s.j s.k = .ok (curl G V (vorticityComponent dim f) (usedPoint dim f s)) := by
  obtain ⟨k, j, i, c⟩ := s
  simp only at hs h2
  subst hs
  have a1 := h _ _ .firstUpper
  have a2 := h _ _ .firstLower
  have a3 := h _ _ .secondUpper
  have a4 := h _ _ .secondLower
  clear h
  have ps : ∀ x : ℤ, x + -1 = x - 1 := fun x => rfl
  rcases hd with rfl | rfl
  · have hk := h2 rfl
    have hf0 := h0 rfl
    subst hk hf0
    have c1 := hc 1 0 i (by simp [vorticityComponent]) (by simp [vorticityComponent]) (by omega) (by omega) (by omega) (Or.inl rfl)
    have c2 := hc 1 0 (i - 1) (by simp [vorticityComponent]) (by simp [vorticityComponent]) (by omega) (by omega) (by omega) (Or.inr rfl)
    have c3 := hc 0 1 j (by simp [vorticityComponent]) (by simp [vorticityComponent]) (by omega) (by omega) (by omega) (Or.inl rfl)
    have c4 := hc 0 1 (j - 1) (by simp [vorticityComponent]) (by simp [vorticityComponent]) (by omega) (by omega) (by omega) (Or.inr rfl)
    simp [vorticityComponent, usedPoint, shift, along, coordOf, ps] at a1 a2 a3 a4
    show vorticityZ2 coord flux i j = _
    simp [vorticityZ2, a1, a2, a3, a4, c1, c2, c3, c4, curl, vorticityComponent, usedPoint, shift, along, coordOf, ps, bind, Except.bind,
      pure, Except.pure]
  · interval_cases f
    · have c1 := hc 2 1 j (by simp [vorticityComponent]) (by simp [vorticityComponent]) (by omega) (by omega) (by omega) (Or.inl rfl)
      have c2 := hc 2 1 (j - 1) (by simp [vorticityComponent]) (by simp [vorticityComponent]) (by omega) (by omega) (by omega) (Or.inr rfl)
      have c3 := hc 1 2 k (by simp [vorticityComponent]) (by simp [vorticityComponent]) (by omega) (by omega) (by omega) (Or.inl rfl)
      have c4 := hc 1 2 (k - 1) (by simp [vorticityComponent]) (by simp [vorticityComponent]) (by omega) (by omega) (by omega) (Or.inr rfl)
      simp [vorticityComponent, usedPoint, shift, along, coordOf, ps] at a1 a2 a3 a4
      show vorticityX3 coord flux i j k = _
      simp [vorticityX3, a1, a2, a3, a4, c1, c2, c3, c4, curl, vorticityComponent, usedPoint, shift, along, coordOf, ps, bind, Except.bind,
        pure, Except.pure]
    · have c1 := hc 0 2 k (by simp [vorticityComponent]) (by simp [vorticityComponent]) (by omega) (by omega) (by omega) (Or.inl rfl)
      have c2 := hc 0 2 (k - 1) (by simp [vorticityComponent]) (by simp [vorticityComponent]) (by omega) (by omega) (by omega) (Or.inr rfl)
      have c3 := hc 2 0 i (by simp [vorticityComponent]) (by simp [vorticityComponent]) (by omega) (by omega) (by omega) (Or.inl rfl)
      have c4 := hc 2 0 (i - 1) (by simp [vorticityComponent]) (by simp [vorticityComponent]) (by omega) (by omega) (by omega) (Or.inr rfl)
      simp [vorticityComponent, usedPoint, shift, along, coordOf, ps] at a1 a2 a3 a4
      show vorticityY3 coord flux i j k = _
      simp [vorticityY3, a1, a2, a3, a4, c1, c2, c3, c4, curl, vorticityComponent, usedPoint, shift, along, coordOf, ps, bind, Except.bind,
        pure, Except.pure]
    · have c1 := hc 1 0 i (by simp [vorticityComponent]) (by simp [vorticityComponent]) (by omega) (by omega) (by omega) (Or.inl rfl)
      have c2 := hc 1 0 (i - 1) (by simp [vorticityComponent]) (by simp [vorticityComponent]) (by omega) (by omega) (by omega) (Or.inr rfl)
      have c3 := hc 0 1 j (by simp [vorticityComponent]) (by simp [vorticityComponent]) (by omega) (by omega) (by omega) (Or.inl rfl)
      have c4 := hc 0 1 (j - 1) (by simp [vorticityComponent]) (by simp [vorticityComponent]) (by omega) (by omega) (by omega) (Or.inr rfl)
      simp [vorticityComponent, usedPoint, shift, along, coordOf, ps] at a1 a2 a3 a4
      show vorticityZ3 coord flux i j k = _
      simp [vorticityZ3, a1, a2, a3, a4, c1, c2, c3, c4, curl, vorticityComponent, usedPoint, shift, along, coordOf, ps, bind, Except.bind,
        pure, Except.pure]

/-! ### Reading -/

theorem around_comp {dim c g : ℕ} {s t : Stencil} (h : Around c s g t) (hc : c < 3) (hd : dim = 3 ∨ dim = 2 ∧ c = 2) :
    g < dim ∧ g ≠ c := by
  cases h <;> (interval_cases c <;> omega)

/-- coordinates of the points around a vorticity point -/
theorem around_coord {c g : ℕ} {s t : Stencil} (h : Around c s g t) (hc : c < 3) :
    t.c = s.c ∧ coordOf t g = coordOf s g - 1 ∧ coordOf t c = coordOf s c ∧
      ∀ e, e < 3 → e ≠ g → e ≠ c → coordOf t e = coordOf s e ∨ coordOf t e = coordOf s e - 1 := by
  cases h <;> interval_cases c <;>
    (refine ⟨rfl, ?_, ?_, fun e he => ?_⟩ <;> first | rfl | (interval_cases e <;> simp [shift, along, coordOf, sub_eq_add_neg]))

theorem usedPoint_coord {dim f : ℕ} (hf : f < 3) (s : Stencil) :
    (usedPoint dim f s).c = s.c ∧ ∀ e, e < 3 → coordOf (usedPoint dim f s) e =
      if (dim = 2 ∨ f = 2) then coordOf s e else if e = f then coordOf s e - 1 else coordOf s e := by
  unfold usedPoint
  split_ifs with h
  · exact ⟨rfl, fun _ _ => rfl⟩
  · refine ⟨along_c _ _ _, fun e he => ?_⟩
    rw [shift_coord _ _ hf he]
    split_ifs with h1
    · subst h1; rfl
    · rfl

/-- everything the utility reads is in the ghosted box of the process -/
theorem around_inBox (S : Setup L G axes) (hP : Partitioned L) {f r : ℕ} (hf : f < L.dim) (h0 : L.dim = 2 → f = 0) (hr : r < L.mpiSize)
    {s : Stencil} (hs : OwnsAt (vorticityLayout L) f r s) (hk : L.dim = 2 → s.k = 0) {g : ℕ} {t : Stencil}
    (h : Around (vorticityComponent L.dim f) (usedPoint L.dim f s) g t) : InBox L g r t := by
  have h3 := S.dim_le
  have hdim := S.layout.dim
  have hc3 : vorticityComponent L.dim f < 3 := by unfold vorticityComponent; split_ifs <;> omega
  obtain ⟨hg, hgc⟩ := around_comp (dim := L.dim) h hc3
    (by rcases hdim with h2 | h3; exacts [Or.inr ⟨h2, by simp [vorticityComponent, h2]⟩, Or.inl h3])
  obtain ⟨e1, e2, e3, e4⟩ := around_coord h hc3
  obtain ⟨u1, u2⟩ := usedPoint_coord (dim := L.dim) (show f < 3 by omega) s
  refine ⟨fun d hd => ?_, fun hl => ?_, by rw [e1, u1]; exact hs.2⟩
  · have hr' := vorticity_ranges S hP hf hg hr (show d < 3 by omega)
    have ho := hs.1 d (by omega)
    have hu := u2 d (by omega)
    by_cases hdg : d = g
    · subst hdg
      rw [e2]
      have : ¬ (d = f ∧ ¬ (L.dim = 2 ∨ f = 2)) := by
        rintro ⟨rfl, h⟩
        apply hgc
        unfold vorticityComponent
        rw [if_neg (fun h2 => h (Or.inl h2))]
      have hu' : coordOf (usedPoint L.dim f s) d = coordOf s d := by
        rw [hu]
        split_ifs with h1 h2
        · rfl
        · exact absurd ⟨h2, h1⟩ this
        · rfl
      rw [hu']
      obtain ⟨b1, b2, _⟩ := hr'
      split_ifs at b2 <;> omega
    · have hsx : coordOf (usedPoint L.dim f s) d = coordOf s d ∨
          coordOf (usedPoint L.dim f s) d = coordOf s d - 1 ∧ d = vorticityComponent L.dim f := by
        rw [hu]
        split_ifs with h1 h2
        · exact Or.inl rfl
        · refine Or.inr ⟨rfl, ?_⟩
          unfold vorticityComponent
          rw [if_neg (fun h => h1 (Or.inl h))]; exact h2
        · exact Or.inl rfl
      obtain ⟨b1, b2, b3⟩ := hr'
      rw [if_neg (fun h => hdg h.1)] at b2
      by_cases hdc : d = vorticityComponent L.dim f
      · have b3 := b3 hdc hdg
        have e3 := e3
        rw [← hdc] at e3
        rw [e3]
        rcases hsx with h | ⟨h, _⟩ <;> omega
      · rcases e4 d (by omega) hdg hdc with h | h <;> rcases hsx with h' | ⟨_, h'⟩ <;> omega
  · have hd2 : L.dim = 2 := by omega
    have hc2 : vorticityComponent L.dim f = 2 := by simp [vorticityComponent, hd2]
    rw [hc2] at e3
    have a : t.k = (usedPoint L.dim f s).k := e3
    have b : (usedPoint L.dim f s).k = s.k := by
      have := u2 2 (by omega)
      rw [if_pos (Or.inl hd2)] at this
      exact this
    rw [a, b, hk hd2]

theorem available_good (S : Setup L G axes) (hP : Partitioned L) (hG : GhostsOK debug L G B) {r g : ℕ} (hg : g < L.dim)
    {t : Stencil} (h : Available L r g t) :
    Inside L.toMeshInfo g (wrapPeriodic L g t) ∨ ∃ loc b p, Point (B r) g loc t b p := by
  have h3 := S.dim_le
  have hper : ∀ d, d < L.dim → L.periodic d d = L.periodic 0 d := fun d hd => S.periodic d d hd (by omega)
  have hpos : ∀ f d, f < L.dim → d < 3 → 0 < L.n f d := fun f d hf hd => by have := (hP f d (Or.inl hf) hd).2; omega
  rcases h with ⟨hc, hx⟩ | ⟨u, d, x, hu, rfl, rfl, hd, hnp, hw, rfl⟩
  · left
    refine ⟨fun d hd => ?_, hc⟩
    rw [wrapPeriodic_eq hper g t hd]
    have hp := hpos g d hg hd
    rcases hx d hd with hx | hx
    · split_ifs with hh
      · rw [Int.emod_eq_of_lt hx.1 hx.2]; exact hx
      · exact hx
    · rw [if_pos hx]
      exact ⟨Int.emod_nonneg _ (by omega), Int.emod_lt_of_pos _ (by omega)⟩
  · right
    rcases hw with ⟨rfl, hw⟩ | ⟨rfl, hw⟩
    · obtain ⟨b, p, hp⟩ := hG.covered u.comp (2 * d) u hu rfl (by omega)
        (by rw [show (2 * d) / 2 = d by omega]; exact hnp)
        (by unfold AtSide; rw [show (2 * d) / 2 = d by omega, if_pos (by omega)]; exact hw)
      have e : nbr (2 * d) u.st = along ⟨u.k, u.j, u.i, 0⟩ d (-1) := by
        unfold nbr
        rw [show (2 * d) / 2 = d by omega, if_pos (by omega)]
        change along u.st d _ = along u.st d _
        have hw : coordOf u.st d = 0 := hw
        rw [hw]; rfl
      rw [e] at hp
      exact ⟨_, b, p, hp⟩
    · obtain ⟨b, p, hp⟩ := hG.covered u.comp (2 * d + 1) u hu rfl (by omega)
        (by rw [show (2 * d + 1) / 2 = d by omega]; exact hnp)
        (by
          unfold AtSide; rw [show (2 * d + 1) / 2 = d by omega, if_neg (by omega)]
          have hw : coordOf u.st d + 1 = L.n u.comp d := hw
          omega)
      have e : nbr (2 * d + 1) u.st = along ⟨u.k, u.j, u.i, 0⟩ d (L.n u.comp d) := by
        unfold nbr
        rw [show (2 * d + 1) / 2 = d by omega, if_neg (by omega)]
        change along u.st d _ = along u.st d _
        have hw : coordOf u.st d + 1 = L.n u.comp d := hw
        rw [hw]
      rw [e] at hp
      exact ⟨_, b, p, hp⟩

/-- the coordinates read are in the arrays -/
theorem readCoord_ok (S : Setup L G axes) {f g e : ℕ} (hf : f < L.dim) (hg : g < L.dim) (he : e < L.dim) (hge : g ≠ e)
    (hec : e ≠ vorticityComponent L.dim f) {s : Stencil} (hs : Inside (vorticityLayout L).toMeshInfo f s) {x : ℤ}
    (hx : x = coordOf s e ∨ x = coordOf s e - 1) : readCoord L G g e x = .ok (G.coord g e x) := by
  have h3 := S.dim_le
  have h := hs.1 e (by omega)
  have hn : (vorticityLayout L).n f e = L.n 3 e + 1 := by
    show vorticityCount L.toMeshInfo f e = _
    rw [vorticityCount_eq S (by omega) (Or.inl hf), if_neg (show f ≠ 3 by omega), if_neg hec]
  rw [hn] at h
  have hst := (S.staggered g hg).1 e (by omega) hge.symm
  unfold readCoord
  rw [if_pos]
  push_cast at h
  omega

theorem vorticityKernel_defined (S : Setup L G axes) (hP : Partitioned L) {f r : ℕ} (hf : f < L.dim) (h0 : L.dim = 2 → f = 0)
    (hr : r < L.mpiSize) {s : Stencil} (hs : Inside (vorticityLayout L).toMeshInfo f s) (ho : OwnsAt (vorticityLayout L) f r s)
    (w : ℕ → ℤ → K) : ∃ x, vorticityKernel L.dim (readCoord L G) (fun g => readLocal L g r (w g)) f s.i s.j s.k = .ok x := by
  have hk : L.dim = 2 → s.k = 0 := by
    intro h2
    have := hs.1 2 (by omega)
    rw [(vorticityLayout_ok S).flat h2 f (by omega)] at this
    simp only [coordOf] at this
    norm_num at this
    omega
  refine ⟨_, vorticityKernel_eq (G := G) S.layout.dim _ _ (fun g t => ((readLocal L g r (w g) t.k t.j t.i).toOption).getD 0) hf h0 s hs.2 hk ?_ ?_⟩
  · intro g e x hgc hec hg he hge hx
    exact readCoord_ok S hf hg he hge hec hs hx
  · intro g t h
    obtain ⟨x, hx⟩ := read_ok S.layout (around_inBox S hP hf h0 hr ho hk h) (w g)
    rw [hx]; rfl

theorem vorticityKernel_value (S : Setup L G axes) (hP : Partitioned L) (hG : GhostsOK debug L G B) {q : ℤ → K} {V : ℕ → Stencil → K}
    (hV : Filled debug L B q V) {f r : ℕ} (hf : f < L.dim) (h0 : L.dim = 2 → f = 0)
    (hr : r < L.mpiSize) {s : Stencil} (hs : Inside (vorticityLayout L).toMeshInfo f s) (ho : OwnsAt (vorticityLayout L) f r s)
    (ha : ∀ g t, Around (vorticityComponent L.dim f) (usedPoint L.dim f s) g t → Available L r g t) :
    vorticityKernel L.dim (readCoord L G) (fun g => readLocal L g r (vorticityLocal L B q r g)) f s.i s.j s.k =
      .ok (curl G V (vorticityComponent L.dim f) (usedPoint L.dim f s)) := by
  have hk : L.dim = 2 → s.k = 0 := by
    intro h2
    have := hs.1 2 (by omega)
    rw [(vorticityLayout_ok S).flat h2 f (by omega)] at this
    simp only [coordOf] at this
    norm_num at this
    omega
  apply vorticityKernel_eq (G := G) S.layout.dim _ _ V hf h0 s hs.2 hk
  · intro g e x hgc hec hg he hge hx
    exact readCoord_ok S hf hg he hge hec hs hx
  · intro g t h
    have hb := around_inBox S hP hf h0 hr ho hk h
    have hc3 : vorticityComponent L.dim f < 3 := by have := S.dim_le; unfold vorticityComponent; split_ifs <;> omega
    obtain ⟨hg, _⟩ := around_comp (dim := L.dim) h hc3
      (by rcases S.layout.dim with h2 | h3; exacts [Or.inr ⟨h2, by simp [vorticityComponent, h2]⟩, Or.inl h3])
    exact read_filled S hG hV (fun _ _ _ => 0) hg hr hb (available_good S hP hG hg (ha g t h))

theorem pointUpdate_spec {α : Type} [DecidableEq α] (l : List (α × K)) (w : α → K) (F : α → K) (h : ∀ a ∈ l, a.2 = F a.1) (p : α) :
    (l.foldl (fun v a => Function.update v a.1 a.2) w) p = if p ∈ l.map (·.1) then F p else w p := by
  induction l using List.reverseRecOn with
  | nil => simp
  | append_singleton l x ih =>
    rw [List.foldl_append]
    have ih := ih fun a ha => h a (List.mem_append_left _ ha)
    have hx := h x (by simp)
    simp only [List.foldl_cons, List.foldl_nil, List.map_append, List.map_cons, List.map_nil, List.mem_append, List.mem_singleton]
    by_cases hp : p = x.1
    · subst hp
      rw [Function.update_self, if_pos (Or.inr rfl), hx]
    · rw [Function.update_of_ne hp, ih]
      by_cases hm : p ∈ l.map (·.1)
      · rw [if_pos hm, if_pos (Or.inl hm)]
      · rw [if_neg hm, if_neg (by tauto)]

theorem ownsAt_of_owns {W : Layout} {f r i j k : ℕ} (h : Owns W f r i j k) : OwnsAt W f r ⟨k, j, i, 0⟩ := by
  have h := owns_iff.1 h
  refine ⟨fun d hd => ?_, rfl⟩
  interval_cases d <;> simp [coordOf] <;> omega

theorem owns_rank_unique {W : Layout} (hW : LayoutOK W) {f : ℕ} (hf : f < W.dim) {i j k r r' : ℕ} (hr : r < W.mpiSize) (hr' : r' < W.mpiSize)
    (h : Owns W f r i j k) (h' : Owns W f r' i j k) : r = r' := by
  have hin := owns_inGrid hW (Or.inl hf) h
  have u1 : IsUnknown W ⟨r, f, i, j, k⟩ := ⟨hf, hin.1, hin.2.1, hin.2.2, hr, h⟩
  have u2 : IsUnknown W ⟨r', f, i, j, k⟩ := ⟨hf, hin.1, hin.2.1, hin.2.2, hr', h'⟩
  have := u1.row_inj hW u2 rfl
  exact congrArg Unknown.rank this

/-- The value of every entry of a vorticity vector is what the loop body returned for it on its owner. -/
theorem calculateVorticity_spec (S : Setup L G axes) (hP : Partitioned L) (q : ℤ → K) {f : ℕ} (hf : f < L.dim) (h0 : L.dim = 2 → f = 0)
    (w : ℕ × ℕ × ℕ → K) : ∃ z, calculateVorticity L G B q f w = .ok z ∧
      (∀ r i j k, r < L.mpiSize → Owns (vorticityLayout L) f r i j k →
        vorticityKernel L.dim (readCoord L G) (fun g => readLocal L g r (vorticityLocal L B q r g)) f i j k = .ok (z (i, j, k))) ∧
      ∀ p, ¬ (p.1 < vorticityCount L.toMeshInfo f 0 ∧ p.2.1 < vorticityCount L.toMeshInfo f 1 ∧ p.2.2 < vorticityCount L.toMeshInfo f 2) →
        z p = w p := by
  classical
  have hW := vorticityLayout_ok S
  let val : ℕ → ℕ × ℕ × ℕ → K := fun r p =>
    ((vorticityKernel L.dim (readCoord L G) (fun g => readLocal L g r (vorticityLocal L B q r g)) f p.1 p.2.1 p.2.2).toOption).getD 0
  have hok : ∀ r p, r < L.mpiSize → p ∈ (vorticityLayout L).box f r →
      vorticityKernel L.dim (readCoord L G) (fun g => readLocal L g r (vorticityLocal L B q r g)) f p.1 p.2.1 p.2.2 = .ok (val r p) := by
    intro r p hr hp
    have hown := mem_box.1 hp
    have hin := owns_inGrid hW (Or.inl hf) hown
    have hu : IsUnknown (vorticityLayout L) ⟨r, f, p.1, p.2.1, p.2.2⟩ := ⟨hf, hin.1, hin.2.1, hin.2.2, hr, hown⟩
    obtain ⟨x, hx⟩ := vorticityKernel_defined S hP hf h0 hr hu.inside hu.ownsAt (vorticityLocal L B q r)
    have hx : vorticityKernel L.dim (readCoord L G) (fun g => readLocal L g r (vorticityLocal L B q r g)) f p.1 p.2.1 p.2.2 = .ok x := hx
    have hv : val r p = x := by simp only [val]; rw [hx]; rfl
    rw [hx, hv]
  have hlist : vorticityAssign L G B q f = .ok (((List.range L.mpiSize).map fun r => ((vorticityLayout L).box f r).map fun p =>
      (p, val r p)).flatMap id) := by
    unfold vorticityAssign
    rw [mapM_ok (h := fun r => ((vorticityLayout L).box f r).map fun p => (p, val r p))]
    · rfl
    · intro r hr
      apply mapM_ok
      intro p hp
      rw [hok r p (List.mem_range.1 hr) hp]; rfl
  have hmem : ∀ a, a ∈ (((List.range L.mpiSize).map fun r => ((vorticityLayout L).box f r).map fun p => (p, val r p)).flatMap id) ↔
      ∃ r, r < L.mpiSize ∧ a.1 ∈ (vorticityLayout L).box f r ∧ a.2 = val r a.1 := by
    intro a
    constructor
    · intro ha
      obtain ⟨c, hc, ha⟩ := List.mem_flatMap.1 ha
      obtain ⟨r, hr, rfl⟩ := List.mem_map.1 hc
      obtain ⟨p, hp, rfl⟩ := List.mem_map.1 ha
      exact ⟨r, List.mem_range.1 hr, hp, rfl⟩
    · rintro ⟨r, hr, hp, e⟩
      refine List.mem_flatMap.2 ⟨_, List.mem_map.2 ⟨r, List.mem_range.2 hr, rfl⟩, List.mem_map.2 ⟨a.1, hp, ?_⟩⟩
      exact Prod.ext rfl e.symm
  let F : ℕ × ℕ × ℕ → K := fun p => if h : ∃ r, r < L.mpiSize ∧ p ∈ (vorticityLayout L).box f r then val h.choose p else 0
  have hF : ∀ r p, r < L.mpiSize → p ∈ (vorticityLayout L).box f r → F p = val r p := by
    intro r p hr hp
    have hex : ∃ r, r < L.mpiSize ∧ p ∈ (vorticityLayout L).box f r := ⟨r, hr, hp⟩
    have : hex.choose = r :=
      owns_rank_unique hW (f := f) hf hex.choose_spec.1 hr (mem_box.1 hex.choose_spec.2) (mem_box.1 hp)
    simp only [F]
    rw [dif_pos hex, this]
  have hz := pointUpdate_spec _ w F (fun a ha => by
    obtain ⟨r, hr, hp, e⟩ := (hmem a).1 ha
    rw [e, hF r a.1 hr hp])
  refine ⟨_, by unfold calculateVorticity; rw [hlist]; rfl, ?_, ?_⟩
  · intro r i j k hr ho
    have hp : (i, j, k) ∈ (vorticityLayout L).box f r := mem_box.2 ho
    rw [hz, if_pos, hF r _ hr hp]
    · exact hok r (i, j, k) hr hp
    · exact List.mem_map.2 ⟨((i, j, k), val r (i, j, k)), (hmem _).2 ⟨r, hr, hp, rfl⟩, rfl⟩
  · intro p hp
    rw [hz, if_neg]
    intro hm
    obtain ⟨a, ha, rfl⟩ := List.mem_map.1 hm
    obtain ⟨r, hr, hb, _⟩ := (hmem a).1 ha
    exact hp (owns_inGrid hW (Or.inl hf) (mem_box.1 hb))

end PetIBM
