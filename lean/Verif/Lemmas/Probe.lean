/-
Grid lines around a probe point.
-/
import Verif.Spec.Probe
import Verif.Lemmas.DeltaAxis
import Verif.Lemmas.Local

set_option linter.unusedSectionVars false

namespace PetIBM

open Spec Layout

variable {K : Type} [Field K] [LinearOrder K] [IsStrictOrderedRing K]
variable {L : Layout} {G : Geom K} {axes : ℕ → Axis K}

theorem takeWhile_spec {α : Type*} (P : α → Bool) (l : List α) :
    (l.takeWhile P).length ≤ l.length ∧
    (∀ i (_ : i < (l.takeWhile P).length) (h' : i < l.length), P l[i] = true) ∧
    (∀ h : (l.takeWhile P).length < l.length, P l[(l.takeWhile P).length] = false) := by
  induction l with
  | nil => simp
  | cons a t ih =>
    by_cases ha : P a = true
    · rw [List.takeWhile_cons_of_pos ha]
      refine ⟨by simpa using ih.1, ?_, ?_⟩
      · intro i h h'
        cases i with
        | zero => simpa using ha
        | succ i => simpa using ih.2.1 i (by simpa using h) (by simpa using h')
      · intro h
        simpa using ih.2.2 (by simpa using h)
    · rw [List.takeWhile_cons_of_neg ha]
      refine ⟨by simp, by simp, ?_⟩
      intro _
      simpa using ha

theorem takeWhile_range {α : Type*} (P : α → Bool) (c : ℕ → α) (n : ℕ) :
    ((((List.range n).map c).takeWhile P).length ≤ n) ∧
    (∀ i, i < (((List.range n).map c).takeWhile P).length → P (c i) = true) ∧
    ((((List.range n).map c).takeWhile P).length < n → P (c (((List.range n).map c).takeWhile P).length) = false) := by
  obtain ⟨h1, h2, h3⟩ := takeWhile_spec P ((List.range n).map c)
  simp only [List.length_map, List.length_range, List.getElem_map, List.getElem_range] at h1 h2 h3
  exact ⟨h1, fun i hi => h2 i hi (by omega), h3⟩

/-- coordinates of the velocity points, including the ghost points, are inside of the arrays -/
theorem Spec.Setup.meshCoord_velocity (S : Setup L G axes) {f d : ℕ} (hf : f < L.dim) (hd : d < L.dim) {s : ℤ} (h1 : -1 ≤ s)
    (h2 : s ≤ L.n f d) : meshCoord L axes f d s = .ok (G.coord f d s) := by
  have h3 := S.dim_le
  obtain ⟨A, hA, _, h⟩ := C08_ghosts_and_order (periodic := L.periodic) f d h3 hf hd (S.axesOK d hd)
  obtain ⟨g, _⟩ := S.geom f d (by omega) (by omega) A hA
  have hc := S.counts f d (by omega) (by omega) A hA
  unfold meshCoord
  rw [hA]
  change A.coord s = _
  by_cases hs : s < L.n f d
  · obtain ⟨x, y, hx, _, _⟩ := h s h1 (by omega)
    rw [hx, g _ _ hx]
  · obtain ⟨x, y, _, hy, _⟩ := h (s - 1) (by omega) (by omega)
    rw [sub_add_cancel] at hy
    rw [hy, g _ _ hy]

theorem Spec.Setup.coord_strict (S : Setup L G axes) {f d : ℕ} (hf : f < L.dim) (hd : d < L.dim) {a b : ℤ} (h1 : -1 ≤ a)
    (h2 : b ≤ L.n f d) (h : a < b) : G.coord f d a < G.coord f d b := by
  obtain ⟨m, rfl⟩ : ∃ m : ℕ, b = a + 1 + m := ⟨(b - a - 1).toNat, by omega⟩
  induction m with
  | zero => simpa using S.coord_lt f d hf hd a h1 (by omega)
  | succ m ih =>
    have := S.coord_lt f d hf hd (a + 1 + m) (by omega) (by push_cast at h2; omega)
    have e : a + 1 + ((m + 1 : ℕ) : ℤ) = a + 1 + m + 1 := by push_cast; ring
    rw [e]
    exact (ih (by push_cast at h2; omega) (by omega)).trans this

theorem Spec.Setup.coord_pressure (S : Setup L G axes) {d : ℕ} (hd : d < L.dim) {s : ℕ} (hs : s < L.n 3 d) :
    meshCoord L axes 3 d s = .ok (G.coord 3 d s) ∧ G.coord 3 d s = centre (axes d) s ∧ L.n 3 d = (axes d).dL.length := by
  have h3 := S.dim_le
  have hA : fieldAxis L.dim axes L.periodic 3 d = .ok (pressureAxis (axes d)) := by simp [fieldAxis, hd]
  have hc : L.n 3 d = (axes d).dL.length := S.counts 3 d (by omega) (by omega) _ hA
  obtain ⟨g, _⟩ := S.geom 3 d (by omega) (by omega) _ hA
  have e : (pressureAxis (axes d)).coord s = .ok (centre (axes d) s) :=
    ptrAt_ok (m := s) (by simp [pressureAxis]) (pressureAxis_get _ _ (by omega))
  unfold meshCoord
  rw [hA, g _ _ e]
  exact ⟨e, rfl, hc⟩

theorem centre_lt {a : Axis K} (ha : AxisOK a) {i j : ℕ} (hij : i < j) (hj : j < a.dL.length) : centre a i < centre a j := by
  have h1 := vert_succ a i (by omega)
  have h2 := vert_succ a j hj
  have p1 := dL_pos ha i (by omega)
  have p2 := dL_pos ha j hj
  have h3 := vert_mono ha (show i + 1 ≤ j by omega) hj.le
  unfold centre
  linarith

/-- grid lines of every field increase -/
theorem Spec.Setup.coord_inside_lt (S : Setup L G axes) {f d : ℕ} (hf : f < L.dim ∨ f = 3) (hd : d < L.dim) {a b : ℕ} (h : a < b)
    (hb : b < L.n f d) : G.coord f d a < G.coord f d b := by
  rcases hf with hf | rfl
  · exact S.coord_strict hf hd (by omega) (by omega) (by omega)
  · obtain ⟨_, e1, hc⟩ := S.coord_pressure hd (show a < L.n 3 d by omega)
    rw [e1, (S.coord_pressure hd hb).2.1]
    exact centre_lt (S.axesOK d hd) h (by omega)

theorem Spec.Setup.gridLine_eq (S : Setup L G axes) {f d : ℕ} (hf : f < L.dim ∨ f = 3) (hd : d < L.dim) :
    gridLine L axes f d = .ok ((List.range (L.n f d)).map fun i : ℕ => G.coord f d i) := by
  refine mapM_ok _ fun i hi => ?_
  rw [List.mem_range] at hi
  rcases hf with hf | rfl
  · exact S.meshCoord_velocity hf hd (by omega) (by omega)
  · exact (S.coord_pressure hd hi).1

/-- the part `lo ≤ s ≤ hi` of the grid lines of a field (with ghost lines) whose coordinates exist -/
structure Lines (L : Layout) (G : Geom K) (axes : ℕ → Axis K) (f d : ℕ) (lo : ℤ) (hi : ℕ) : Prop where
  low : lo = -1 ∨ lo = 0
  high : hi ≤ L.n f d
  line : gridLine L axes f d = .ok ((List.range (L.n f d)).map fun i : ℕ => G.coord f d i)
  coord : ∀ s : ℤ, lo ≤ s → s ≤ hi → meshCoord L axes f d s = .ok (G.coord f d s)
  lt : ∀ a b : ℤ, lo ≤ a → b ≤ hi → a < b → G.coord f d a < G.coord f d b
  inside : ∀ a b : ℤ, 0 ≤ a → b < L.n f d → a < b → G.coord f d a < G.coord f d b

theorem Spec.Setup.lines_velocity (S : Setup L G axes) {f d : ℕ} (hf : f < L.dim) (hd : d < L.dim) :
    Lines L G axes f d (-1) (L.n f d) :=
  ⟨Or.inl rfl, le_rfl, S.gridLine_eq (Or.inl hf) hd, fun _ h1 h2 => S.meshCoord_velocity hf hd h1 h2,
    fun _ _ h1 h2 h => S.coord_strict hf hd h1 h2 h, fun _ _ h1 h2 h => S.coord_strict hf hd (by omega) (by omega) h⟩

theorem Spec.Setup.lines_pressure (S : Setup L G axes) {d hi : ℕ} (hd : d < L.dim) (hhi : hi < L.n 3 d) :
    Lines L G axes 3 d 0 hi := by
  have key : ∀ a b : ℤ, 0 ≤ a → b < L.n 3 d → a < b → G.coord 3 d a < G.coord 3 d b := by
    intro a b h1 h2 h
    obtain ⟨a', rfl⟩ := Int.eq_ofNat_of_zero_le h1
    obtain ⟨b', rfl⟩ := Int.eq_ofNat_of_zero_le (h1.trans h.le)
    exact S.coord_inside_lt (Or.inr rfl) hd (by omega) (by omega)
  refine ⟨Or.inr rfl, hhi.le, S.gridLine_eq (Or.inr rfl) hd, fun s h1 h2 => ?_, fun a b h1 h2 h => key a b h1 (by omega) h, key⟩
  obtain ⟨s', rfl⟩ := Int.eq_ofNat_of_zero_le h1
  exact (S.coord_pressure hd (show s' < L.n 3 d by omega)).1

/-- a coordinate between line 0 and line `hi` -/
structure InLines (G : Geom K) (f d : ℕ) (lo : ℤ) (hi : ℕ) (x : K) : Prop where
  ge : G.coord f d 0 ≤ x
  gt : lo = 0 → G.coord f d 0 < x
  lt : x < G.coord f d hi

theorem InLines.pos {f d : ℕ} {lo : ℤ} {hi : ℕ} {x : K} (hx : InLines G f d lo hi x) : 0 < hi := by
  by_contra h
  have := hx.lt
  rw [show hi = 0 by omega] at this
  exact absurd hx.ge (not_le.2 (by simpa using this))

/-- the box of a probe point along one axis -/
theorem Lines.boxDir_eq {f d : ℕ} {lo : ℤ} {hi : ℕ} (H : Lines L G axes f d lo hi) {x : K} (hx : InLines G f d lo hi x) :
    ∃ t : ℕ, t ≤ hi ∧ lo ≤ (t : ℤ) - 1 ∧
      boxDir L axes f d x = .ok ⟨(t : ℤ) - 1, G.coord f d ((t : ℤ) - 1), G.coord f d t, x⟩ ∧
      G.coord f d ((t : ℤ) - 1) < x ∧ x ≤ G.coord f d t ∧ (t = 0 → x = G.coord f d 0) ∧
      (x ≤ G.coord f d ((L.n f d : ℤ) - 1) → t < L.n f d) := by
  have hlo := H.low
  have hhi := H.high
  have hpos := hx.pos
  obtain ⟨t, ht⟩ : ∃ t, t = lowerBoundK ((List.range (L.n f d)).map fun i : ℕ => G.coord f d i) x := ⟨_, rfl⟩
  obtain ⟨a1, a2, a3⟩ := takeWhile_range (fun a => decide (a < x)) (fun i : ℕ => G.coord f d i) (L.n f d)
  change t = (List.takeWhile _ _).length at ht
  rw [← ht] at a1 a2 a3
  simp only [decide_eq_true_eq, decide_eq_false_iff_not, not_lt] at a2 a3
  have thi : t ≤ hi := by
    by_contra h
    exact absurd (a2 hi (by omega)) (not_lt.2 hx.lt.le)
  have hle : x ≤ G.coord f d t := by
    by_cases h : t < L.n f d
    · exact a3 h
    · rw [show t = hi by omega]; exact hx.lt.le
  have h0 : t = 0 → x = G.coord f d 0 := by
    rintro rfl
    exact le_antisymm (by simpa using hle) hx.ge
  have tlo : lo ≤ (t : ℤ) - 1 := by
    rcases hlo with h | h
    · omega
    · by_contra hc
      have := h0 (by omega)
      exact absurd this (hx.gt h).ne'
  refine ⟨t, thi, tlo, ?_, ?_, hle, h0, ?_⟩
  · unfold boxDir
    rw [H.line]
    change (do
      let bl ← meshCoord L axes f d ((lowerBoundK _ x : ℕ) - 1)
      let tr ← meshCoord L axes f d ((lowerBoundK _ x : ℕ) - 1 + 1)
      return (⟨(lowerBoundK _ x : ℕ) - 1, bl, tr, x⟩ : BoxDir K)) = _
    have e : lowerBoundK ((List.range (L.n f d)).map fun i : ℕ => G.coord f d i) x = t := ht.symm
    rw [e, sub_add_cancel, H.coord _ tlo (by omega), H.coord _ (by omega) (by omega)]
    rfl
  · rcases Nat.eq_zero_or_pos t with h | h
    · have e := h0 h
      subst h
      rw [e]
      exact H.lt _ _ tlo (by omega) (by omega)
    · have := a2 (t - 1) (by omega)
      rwa [Nat.cast_sub (by omega : 1 ≤ t), Nat.cast_one] at this
  · intro h
    by_contra hn
    have e : t = L.n f d := by omega
    have := a2 (t - 1) (by omega)
    rw [e, Nat.cast_sub (by omega : 1 ≤ L.n f d), Nat.cast_one] at this
    exact absurd this (not_lt.2 h)

/-- the cell of a probe point along one axis -/
theorem Lines.cell_exists {f d : ℕ} {lo : ℤ} {hi : ℕ} (H : Lines L G axes f d lo hi) {x : K} (hx : InLines G f d lo hi x) :
    ∃ c : ℕ, c < hi ∧ ∀ m : ℕ, m ≤ hi → (G.coord f d m ≤ x ↔ m ≤ c) := by
  have hlo := H.low
  obtain ⟨a1, a2, a3⟩ := takeWhile_range (fun a => decide (a ≤ x)) (fun i : ℕ => G.coord f d i) hi
  generalize (List.takeWhile _ _).length = t at a1 a2 a3
  simp only [decide_eq_true_eq, decide_eq_false_iff_not, not_le] at a2 a3
  have h0 := hx.pos
  have ht : 0 < t := by
    by_contra h
    have e : t = 0 := by omega
    subst e
    exact absurd hx.ge (not_le.2 (by simpa using a3 h0))
  have hlt : x < G.coord f d t := by
    by_cases h : t < hi
    · exact a3 h
    · rw [show t = hi by omega]; exact hx.lt
  refine ⟨t - 1, by omega, fun m hm => ⟨fun h => ?_, fun h => a2 m (by omega)⟩⟩
  by_contra hc
  have : G.coord f d t ≤ G.coord f d m := by
    rcases Nat.lt_or_ge t m with h' | h'
    · exact (H.lt _ _ (by omega) (by omega) (by omega)).le
    · rw [show m = t by omega]
  exact absurd (lt_of_lt_of_le hlt this) (not_lt.2 h)

theorem ed_le_n (hL : LayoutOK L) {f r d : ℕ} (hf : f < L.dim ∨ f = 3) (hd : d < 3) : L.ed f r d ≤ L.n f d := by
  unfold Layout.ed Layout.bg Layout.m startOf sizeOf'
  rw [← sum_take_succ, ← hL.lines f d hf hd]
  exact sum_take_le _ _

/-- the test of one direction; the last process may start at line `hi` -/
theorem Lines.outsideDir_eq {f r d : ℕ} {lo : ℤ} {hi : ℕ} (H : Lines L G axes f d lo hi) {x : K}
    (hr : L.ed f r d ≤ hi ∨ (L.bg f r d = hi ∧ x < G.coord f d hi)) :
    outsideDir L axes f r d x = .ok (decide (x < G.coord f d (L.bg f r d) ∨ G.coord f d (L.ed f r d) ≤ x)) := by
  have hlo := H.low
  have h2 := bg_le_ed L f r d
  have hbg : L.bg f r d ≤ hi := by omega
  unfold outsideDir
  rw [H.coord _ (by omega) (by omega)]
  change (if x < G.coord f d (L.bg f r d) then _ else _) = _
  by_cases h : x < G.coord f d (L.bg f r d)
  · rw [if_pos h]
    simp [h]; rfl
  · rw [if_neg h]
    have hed : L.ed f r d ≤ hi := by
      rcases hr with hr | ⟨hr, hlt⟩
      · exact hr
      · rw [← hr] at hlt; exact absurd hlt h
    rw [H.coord _ (by omega) (by omega)]
    change Except.ok _ = Except.ok _
    simp [h]

theorem onLocalDirs_eq {f r : ℕ} {x : ℕ → K} {out : ℕ → Bool} (ds : List ℕ)
    (h : ∀ d ∈ ds, outsideDir L axes f r d (x d) = .ok (out d)) :
    onLocalDirs L axes f r x ds = .ok (ds.all fun d => !out d) := by
  induction ds with
  | nil => rfl
  | cons d ds ih =>
    unfold onLocalDirs
    rw [h d List.mem_cons_self]
    change (if out d = true then _ else _) = _
    cases ho : out d with
    | true => simp [ho]; rfl
    | false => simp only [Bool.false_eq_true, if_false]; rw [ih fun e he => h e (List.mem_cons_of_mem _ he)]; simp [ho]

/-- which processes claim a probe point -/
theorem onLocal_eq {f r : ℕ} {lo : ℕ → ℤ} {hi : ℕ → ℕ} (H : ∀ d, d < L.dim → Lines L G axes f d (lo d) (hi d)) {x : ℕ → K}
    (hr : ∀ d, d < L.dim → L.ed f r d ≤ hi d ∨ (L.bg f r d = hi d ∧ x d < G.coord f d (hi d))) :
    ∃ b, isPointOnLocalProc L axes f r x = .ok b ∧
      (b = true ↔ ∀ d, d < L.dim → G.coord f d (L.bg f r d) ≤ x d ∧ x d < G.coord f d (L.ed f r d)) := by
  refine ⟨_, onLocalDirs_eq _ fun d hd => (H d (List.mem_range.1 hd)).outsideDir_eq (hr d (List.mem_range.1 hd)), ?_⟩
  simp [List.all_eq_true]

end PetIBM
