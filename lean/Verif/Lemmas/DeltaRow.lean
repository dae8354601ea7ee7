/-
The rows of the raw delta operator.
-/
import Verif.Lemmas.DeltaAxis
import Verif.Lemmas.Column
import Verif.Lemmas.Matrix
import Verif.Lemmas.InsertLast
import Verif.Props.Body

set_option linter.unusedSectionVars false

namespace PetIBM

open Spec

/-- The value of a computation that succeeded. -/
def okVal {β : Type} [Inhabited β] : Except Error β → β
  | .ok y => y
  | .error _ => default

theorem mapM_vals {α β : Type} [Inhabited β] {g : α → Except Error β} {l : List α} {ys : List β} (h : l.mapM g = .ok ys) :
    ys = l.map (fun a => okVal (g a)) ∧ ∀ a ∈ l, g a = .ok (okVal (g a)) := by
  induction l generalizing ys with
  | nil => cases h; exact ⟨rfl, fun a ha => by cases ha⟩
  | cons a l ih =>
    rw [List.mapM_cons] at h
    obtain ⟨y, hy, h⟩ := bind_ok h
    obtain ⟨zs, hz, h⟩ := bind_ok h
    cases h
    obtain ⟨h1, h2⟩ := ih hz
    refine ⟨?_, ?_⟩
    · rw [List.map_cons, ← h1, hy]; rfl
    · intro b hb
      rcases List.mem_cons.1 hb with rfl | hb
      · rw [hy]; rfl
      · exact h2 b hb

theorem mapM_vals' {α β : Type} [Inhabited β] {g : α → Except Error β} {l : List α} {ys : List β} (h : l.mapM g = .ok ys) :
    ∃ v : α → β, ys = l.map v ∧ ∀ a ∈ l, g a = .ok (v a) := ⟨_, mapM_vals h⟩

theorem mapM_map_ok {α β γ : Type} {g : γ → Except Error β} {F : α → γ} {h : α → β} {l : List α}
    (hg : ∀ a ∈ l, g (F a) = .ok (h a)) : (l.map F).mapM g = .ok (l.map h) := by
  rw [List.mapM_map]; exact mapM_ok l hg

theorem sum_flatMap' {α K : Type} [AddMonoid K] (l : List α) (g : α → List K) :
    (l.flatMap g).sum = (l.map fun a => (g a).sum).sum := by
  induction l with
  | nil => rfl
  | cons a l ih => simp [List.flatMap_cons, ih]

theorem filter_flatten_unique {α β : Type} (l : List α) (hl : l.Nodup) (g : α → List β) (p : β → Bool) (a : α) (ha : a ∈ l)
    (h : ∀ b ∈ l, b ≠ a → ∀ e ∈ g b, p e = false) : (l.map g).flatten.filter p = (g a).filter p := by
  induction l with
  | nil => cases ha
  | cons b l ih =>
    rw [List.nodup_cons] at hl
    rw [List.map_cons, List.flatten_cons, List.filter_append]
    by_cases hb : b = a
    · subst hb
      have : (l.map g).flatten.filter p = [] := by
        rw [List.filter_eq_nil_iff]
        intro e he
        obtain ⟨x, hx, he⟩ := List.mem_flatten.1 he
        obtain ⟨c, hc, rfl⟩ := List.mem_map.1 hx
        rw [h c (List.mem_cons_of_mem _ hc) (by rintro rfl; exact hl.1 hc) e he]
        simp
      rw [this, List.append_nil]
    · rw [List.filter_eq_nil_iff.2, List.nil_append]
      · refine ih hl.2 ?_ fun c hc => h c (List.mem_cons_of_mem _ hc)
        rcases List.mem_cons.1 ha with rfl | ha
        · exact absurd rfl hb
        · exact ha
      · intro e he
        rw [h b (List.mem_cons_self ..) hb e he]; simp

theorem assemble_inv {K : Type} [Field K] {nrow ncol : ℕ} {ins adds : List (Entry K)} {D : Mat K}
    (h : assemble nrow ncol ins adds = .ok D) : (∀ e ∈ ins ++ adds, e.row < nrow ∧ e.col < ncol) ∧
      D = adds.foldl Mat.addValue (ins.foldl Mat.insertValue fun _ _ => 0) := by
  unfold assemble at h
  split_ifs at h with h'
  · rw [List.all_eq_true] at h'
    exact ⟨fun e he => by simpa using h' e he, by cases h; rfl⟩

section Row

variable {K : Type} [Field K] [LinearOrder K] [IsStrictOrderedRing K]
variable {L : Layout} {G : Geom K} {axes : ℕ → Axis K}

theorem mem_windowPoints {f d I w : ℕ} {p : ℕ × K} (h : p ∈ windowPoints L axes f d I w) :
    p.1 < L.n f d ∧ I ≤ p.1 + w ∧ p.1 ≤ I + w ∧ p.2 = velPos axes f d p.1 := by
  unfold windowPoints at h
  obtain ⟨s, hs, rfl⟩ := List.mem_map.1 h
  simp only [List.mem_filter, List.mem_range, decide_eq_true_eq] at hs
  exact ⟨hs.1, hs.2.1, hs.2.2, rfl⟩

theorem nodup_windowPoints (f d I w : ℕ) : (windowPoints L axes f d I w).Nodup := by
  unfold windowPoints
  refine List.Nodup.map ?_ (List.nodup_range.filter _)
  intro a b h
  exact (Prod.mk.inj h).1

/-- points in the third direction, which is a single layer in 2D -/
def windowZ (L : Layout) (axes : ℕ → Axis K) (f I w : ℕ) : List (ℕ × K) :=
  if L.dim = 3 then windowPoints L axes f 2 I w else [(0, 0)]

/-- weight in the third direction -/
def weightZ (L : Layout) (φ : ℕ → K → K) (X : ℕ → K) (p : ℕ × K) : K := if L.dim = 3 then φ 2 (X 2 - p.2) else 1

/-- the entries of one row -/
def rowEntries (L : Layout) (axes : ℕ → Axis K) (φ : ℕ → K → K) (X : ℕ → K) (I : ℕ → ℕ) (w f : ℕ) (row : ℤ) : List (Entry K) :=
  (windowZ L axes f (I 2) w).flatMap fun k => (windowPoints L axes f 1 (I 1) w).flatMap fun j =>
    (windowPoints L axes f 0 (I 0) w).map fun i =>
      ⟨row, col L f ⟨k.1, j.1, i.1, 0⟩, φ 0 (X 0 - i.2) * φ 1 (X 1 - j.2) * weightZ L φ X k⟩

theorem window_inside (S : Setup L G axes) {f : ℕ} (hf : f < L.dim) {I : ℕ → ℕ} {w : ℕ} {i j k : ℕ × K}
    (hi : i ∈ windowPoints L axes f 0 (I 0) w) (hj : j ∈ windowPoints L axes f 1 (I 1) w) (hk : k ∈ windowZ L axes f (I 2) w) :
    Inside L.toMeshInfo f ⟨k.1, j.1, i.1, 0⟩ := by
  refine inside_nat (mem_windowPoints hi).1 (mem_windowPoints hj).1 ?_
  unfold windowZ at hk
  split_ifs at hk with h
  · exact (mem_windowPoints hk).1
  · rw [List.mem_singleton] at hk
    rw [hk]
    have hd := S.layout.dim
    rw [S.layout.flat (by omega) f (by omega)]
    exact Nat.one_pos

/-- The loops over the neighbours give these entries. -/
theorem deltaRow_eq (S : Setup L G axes) (debug : Bool) {f : ℕ} (hf : f < L.dim) (kernel : DeltaKernel K) (φ : ℕ → K → K)
    (X : ℕ → K) (I : ℕ → ℕ) (w : ℕ) (row : ℤ) (width : ℕ → K) (hφ : ∀ d, d < L.dim → ∀ r, kernel r (width d) = .ok (φ d r))
    (XYZ : List K) (hX : ∀ d, d < L.dim → XYZ[d]? = some (X d)) :
    deltaRow debug L kernel XYZ ((List.range L.dim).map width) f row
      ((List.range L.dim).map fun d => (windowPoints L axes f d (I d) w).map fun p => ((p.1 : ℤ), p.2)) =
      .ok (rowEntries L axes φ X I w f row) := by
  have hcol : ∀ i ∈ windowPoints L axes f 0 (I 0) w, ∀ j ∈ windowPoints L axes f 1 (I 1) w, ∀ k ∈ windowZ L axes f (I 2) w,
      L.getPackedGlobalIndex debug f ⟨k.1, j.1, i.1, 0⟩ = .ok (col L f ⟨k.1, j.1, i.1, 0⟩) := fun i hi j hj k hk =>
    (col_inside S.layout (Or.inl hf) debug (window_inside S hf hi hj hk)).1
  rcases S.layout.dim with h | h
  · have hd : (List.range L.dim) = [0, 1] := by rw [h]; rfl
    unfold deltaRow
    rw [if_neg (by omega), if_pos h, hd]
    simp only [List.map_cons, List.map_nil]
    have hz : windowZ L axes f (I 2) w = [(0, 0)] := if_neg (by omega)
    rw [hz] at hcol
    rw [mapM_map_ok (h := fun j => (windowPoints L axes f 0 (I 0) w).map fun i =>
      (⟨row, col L f ⟨0, j.1, i.1, 0⟩, φ 0 (X 0 - i.2) * φ 1 (X 1 - j.2)⟩ : Entry K)) (by
      intro j hj
      refine mapM_map_ok ?_
      intro i hi
      have e := hcol i hi j hj (0, 0) (List.mem_singleton.2 rfl)
      simp only [Nat.cast_zero] at e
      simp only
      rw [e]
      simp only [bind, Except.bind]
      simp only [delta, List.length_cons, List.length_nil, List.range_succ, List.range_zero, List.nil_append, List.cons_append,
        List.foldlM_cons, List.foldlM_nil, List.getElem?_cons_zero, List.getElem?_cons_succ, hX 0 (by omega), hX 1 (by omega),
        hφ 0 (by omega), hφ 1 (by omega), bind, Except.bind, pure, Except.pure, one_mul])]
    simp only [bind, Except.bind, pure, Except.pure]
    congr 1
    unfold rowEntries
    rw [hz]
    simp only [List.flatMap_cons, List.flatMap_nil, List.append_nil, weightZ, h, Nat.cast_zero]
    rw [List.flatMap_def]
    norm_num
  · have hd : (List.range L.dim) = [0, 1, 2] := by rw [h]; rfl
    unfold deltaRow
    rw [if_pos h, hd]
    simp only [List.map_cons, List.map_nil]
    have hz : windowZ L axes f (I 2) w = windowPoints L axes f 2 (I 2) w := if_pos h
    rw [hz] at hcol
    rw [mapM_map_ok (h := fun k => (windowPoints L axes f 1 (I 1) w).map fun j =>
      (windowPoints L axes f 0 (I 0) w).map fun i =>
      (⟨row, col L f ⟨k.1, j.1, i.1, 0⟩, φ 0 (X 0 - i.2) * φ 1 (X 1 - j.2) * φ 2 (X 2 - k.2)⟩ : Entry K)) (by
      intro k hk
      refine mapM_map_ok ?_
      intro j hj
      refine mapM_map_ok ?_
      intro i hi
      have e := hcol i hi j hj k hk
      simp only
      rw [e]
      simp only [bind, Except.bind]
      simp only [delta, List.length_cons, List.length_nil, List.range_succ, List.range_zero, List.nil_append, List.cons_append,
        List.foldlM_cons, List.foldlM_nil, List.getElem?_cons_zero, List.getElem?_cons_succ, hX 0 (by omega), hX 1 (by omega),
        hX 2 (by omega), hφ 0 (by omega), hφ 1 (by omega), hφ 2 (by omega), bind, Except.bind, pure, Except.pure, one_mul])]
    simp only [bind, Except.bind, pure, Except.pure]
    congr 1
    unfold rowEntries
    rw [hz]
    simp only [weightZ, h, if_true]
    simp only [List.flatMap_def, List.flatten_flatten, List.map_map]
    rfl

/-- The columns of a row are distinct. -/
theorem nodup_rowEntries (S : Setup L G axes) {f : ℕ} (hf : f < L.dim) (φ : ℕ → K → K) (X : ℕ → K) (I : ℕ → ℕ) (w : ℕ) (row : ℤ) :
    ((rowEntries L axes φ X I w f row).map (·.col)).Nodup := by
  have hz : (windowZ L axes f (I 2) w).Nodup := by
    unfold windowZ
    split_ifs
    · exact nodup_windowPoints ..
    · simp
  have hinj : ∀ (f d I w : ℕ) (p q : ℕ × K), p ∈ windowPoints L axes f d I w → q ∈ windowPoints L axes f d I w → p.1 = q.1 → p = q := by
    intro f d I w p q hp hq h
    have h1 := (mem_windowPoints hp).2.2.2
    have h2 := (mem_windowPoints hq).2.2.2
    rw [h, ← h2] at h1
    exact Prod.ext h h1
  have hinjz : ∀ p q : ℕ × K, p ∈ windowZ L axes f (I 2) w → q ∈ windowZ L axes f (I 2) w → p.1 = q.1 → p = q := by
    intro p q hp hq h
    unfold windowZ at hp hq
    split_ifs at hp hq
    · exact hinj _ _ _ _ _ _ hp hq h
    · rw [List.mem_singleton] at hp hq; rw [hp, hq]
  unfold rowEntries
  rw [List.map_flatMap, List.nodup_flatMap]
  simp only [List.map_flatMap, List.map_map, Function.comp_def]
  refine ⟨?_, ?_⟩
  · intro k hk
    rw [List.nodup_flatMap]
    refine ⟨?_, ?_⟩
    · intro j hj
      refine List.Nodup.map_on ?_ (nodup_windowPoints ..)
      intro a ha b hb hab
      have := (col_inj S.layout hf hf (window_inside S hf ha hj hk) (window_inside S hf hb hj hk) hab).2
      simp only [Stencil.mk.injEq] at this
      exact hinj _ _ _ _ _ _ ha hb (by omega)
    · refine (nodup_windowPoints ..).pairwise_of_forall_ne ?_
      intro a ha b hb hne
      simp only [Function.onFun, List.disjoint_left]
      intro c h1 h2
      obtain ⟨i, hi, rfl⟩ := List.mem_map.1 h1
      obtain ⟨i', hi', he⟩ := List.mem_map.1 h2
      have := (col_inj S.layout hf hf (window_inside S hf hi' hb hk) (window_inside S hf hi ha hk) he).2
      simp only [Stencil.mk.injEq] at this
      exact hne (hinj _ _ _ _ _ _ ha hb (by omega))
  · refine hz.pairwise_of_forall_ne ?_
    intro a ha b hb hne
    simp only [Function.onFun, List.disjoint_left]
    intro c h1 h2
    obtain ⟨j, hj, h1⟩ := List.mem_flatMap.1 h1
    obtain ⟨j', hj', h2⟩ := List.mem_flatMap.1 h2
    obtain ⟨i, hi, rfl⟩ := List.mem_map.1 h1
    obtain ⟨i', hi', he⟩ := List.mem_map.1 h2
    have := (col_inj S.layout hf hf (window_inside S hf hi' hj' hb) (window_inside S hf hi hj ha) he).2
    simp only [Stencil.mk.injEq] at this
    exact hne (hinjz _ _ ha hb (by omega))

/-- Interpolation of a function that is affine in the coordinates. -/
theorem sum_rowEntries (φ : ℕ → K → K) (X : ℕ → K) (I : ℕ → ℕ) (w f : ℕ) (row : ℤ) (q : ℤ → K) (a : K) (g : ℕ → K)
    (hq : ∀ i ∈ windowPoints L axes f 0 (I 0) w, ∀ j ∈ windowPoints L axes f 1 (I 1) w, ∀ k ∈ windowZ L axes f (I 2) w,
      q (col L f ⟨k.1, j.1, i.1, 0⟩) = a + g 0 * i.2 + g 1 * j.2 + g 2 * k.2)
    (A0 A1 B0 B1 C0 C1 : K)
    (hA0 : ((windowPoints L axes f 0 (I 0) w).map fun p => φ 0 (X 0 - p.2)).sum = A0)
    (hA1 : ((windowPoints L axes f 0 (I 0) w).map fun p => φ 0 (X 0 - p.2) * p.2).sum = A1)
    (hB0 : ((windowPoints L axes f 1 (I 1) w).map fun p => φ 1 (X 1 - p.2)).sum = B0)
    (hB1 : ((windowPoints L axes f 1 (I 1) w).map fun p => φ 1 (X 1 - p.2) * p.2).sum = B1)
    (hC0 : ((windowZ L axes f (I 2) w).map fun p => weightZ L φ X p).sum = C0)
    (hC1 : ((windowZ L axes f (I 2) w).map fun p => weightZ L φ X p * p.2).sum = C1) :
    ((rowEntries L axes φ X I w f row).map fun e => e.val * q e.col).sum =
      a * (A0 * B0 * C0) + g 0 * (A1 * B0 * C0) + g 1 * (A0 * B1 * C0) + g 2 * (A0 * B0 * C1) := by
  unfold rowEntries
  simp only [List.map_flatMap, List.map_map, Function.comp_def, sum_flatMap']
  have hx : ∀ j ∈ windowPoints L axes f 1 (I 1) w, ∀ k ∈ windowZ L axes f (I 2) w,
      ((windowPoints L axes f 0 (I 0) w).map fun i => φ 0 (X 0 - i.2) * φ 1 (X 1 - j.2) * weightZ L φ X k *
        q (col L f ⟨k.1, j.1, i.1, 0⟩)).sum =
      (φ 1 (X 1 - j.2) * (a * A0 + g 0 * A1) + φ 1 (X 1 - j.2) * j.2 * (g 1 * A0)) * weightZ L φ X k +
        φ 1 (X 1 - j.2) * (weightZ L φ X k * k.2 * (g 2 * A0)) := by
    intro j hj k hk
    rw [← hA0, ← hA1]
    have e : (windowPoints L axes f 0 (I 0) w).map (fun i => φ 0 (X 0 - i.2) * φ 1 (X 1 - j.2) * weightZ L φ X k *
        q (col L f ⟨k.1, j.1, i.1, 0⟩)) = (windowPoints L axes f 0 (I 0) w).map (fun i =>
        φ 0 (X 0 - i.2) * (φ 1 (X 1 - j.2) * weightZ L φ X k * (a + g 1 * j.2 + g 2 * k.2)) +
        φ 0 (X 0 - i.2) * i.2 * (φ 1 (X 1 - j.2) * weightZ L φ X k * g 0)) := by
      apply List.map_congr_left
      intro i hi
      rw [hq i hi j hj k hk]; ring
    rw [e, List.sum_map_add, List.sum_map_mul_right, List.sum_map_mul_right]
    ring
  have hy : ∀ k ∈ windowZ L axes f (I 2) w,
      ((windowPoints L axes f 1 (I 1) w).map fun j => ((windowPoints L axes f 0 (I 0) w).map fun i =>
        φ 0 (X 0 - i.2) * φ 1 (X 1 - j.2) * weightZ L φ X k * q (col L f ⟨k.1, j.1, i.1, 0⟩)).sum).sum =
      weightZ L φ X k * (B0 * (a * A0 + g 0 * A1) + B1 * (g 1 * A0)) + weightZ L φ X k * k.2 * (B0 * (g 2 * A0)) := by
    intro k hk
    rw [← hB0, ← hB1]
    rw [List.map_congr_left fun j hj => hx j hj k hk]
    rw [List.sum_map_add, List.sum_map_mul_right, List.sum_map_add, List.sum_map_mul_right, List.sum_map_mul_right,
      List.sum_map_mul_right]
    ring
  rw [List.map_congr_left hy, List.sum_map_add, List.sum_map_mul_right, List.sum_map_mul_right, hC0, hC1]
  ring

/-- All entries of a row carry the index of the row. -/
theorem deltaRow_row {debug : Bool} {kernel : DeltaKernel K} {XYZ widths : List K} {f : ℕ} {row : ℤ} {nb : List (List (ℤ × K))}
    {E : List (Entry K)} (h : deltaRow debug L kernel XYZ widths f row nb = .ok E) : ∀ e ∈ E, e.row = row := by
  unfold deltaRow at h
  split_ifs at h
  · split at h
    · obtain ⟨l, hl, h⟩ := bind_ok h
      cases h
      intro e he
      obtain ⟨x, hx, he⟩ := List.mem_flatten.1 he
      obtain ⟨y, hy, hx⟩ := List.mem_flatten.1 hx
      obtain ⟨k, _, hk⟩ := mem_mapM hl hy
      obtain ⟨j, _, hj⟩ := mem_mapM hk hx
      obtain ⟨i, _, hi⟩ := mem_mapM hj he
      obtain ⟨c, _, hi⟩ := bind_ok hi
      obtain ⟨v, _, hi⟩ := bind_ok hi
      cases hi; rfl
    · cases h
  · split at h
    · obtain ⟨l, hl, h⟩ := bind_ok h
      cases h
      intro e he
      obtain ⟨x, hx, he⟩ := List.mem_flatten.1 he
      obtain ⟨j, _, hj⟩ := mem_mapM hl hx
      obtain ⟨i, _, hi⟩ := mem_mapM hj he
      obtain ⟨c, _, hi⟩ := bind_ok hi
      obtain ⟨v, _, hi⟩ := bind_ok hi
      cases hi; rfl
    · cases h

/-- The widths computed from the background indices of the first local point. -/
def deltaWidths (L : Layout) (axes : ℕ → Axis K) (I0 : List ℤ) : Except Error (List K) :=
  (List.range L.dim).mapM fun d => match I0[d]? with
    | some m => meshWidth L axes 0 d m
    | none => .error .ub

/-- The neighbours in all directions. -/
def deltaNb (L : Layout) (axes : ℕ → Axis K) (f w : ℕ) (IJK : List ℤ) (per : List Bool) : Except Error (List (List (ℤ × K))) :=
  (List.range L.dim).mapM fun d =>
    match IJK[d]?, per[d]? with
    | some I, some p => eulerianNeighbors L axes f d I p w
    | _, _ => .error .ub

/-- One row of one body as computed inside of `deltaBody`. -/
def deltaOne (debug : Bool) (L : Layout) (axes : ℕ → Axis K) (per : List Bool) (P : BodyPack K) (kernel : DeltaKernel K)
    (w : ℕ) (bIdx iGlb : ℕ) (widths : List K) (IJK : List ℤ) (XYZ : List K) (f : ℕ) : Except Error (List (Entry K)) := do
  let row ← P.getPackedGlobalIndex bIdx iGlb f
  let nb ← deltaNb L axes f w IJK per
  deltaRow debug L kernel XYZ widths f row nb

/-- Rows of different degrees of freedom have different indices. -/
theorem lag_inj {P : BodyPack K} (hP : PackOK P) {u v : LagDof} (hu : IsLagDof P u) (hv : IsLagDof P v) {row : ℤ}
    (h1 : P.getPackedGlobalIndex u.body u.point u.comp = .ok row) (h2 : P.getPackedGlobalIndex v.body v.point v.comp = .ok row) :
    u = v := by
  obtain ⟨h3, h4, _⟩ := C31_packed_index_bijective P hP
  obtain ⟨idx, h5, h6, h7⟩ := h3 u hu
  rw [h1] at h5
  cases h5
  exact (h4 row h6 h7).unique ⟨hu, h1⟩ ⟨hv, h2⟩

/-- The part of the matrix that belongs to one degree of freedom. -/
theorem createDelta_entries {debug : Bool} {L : Layout} {axes : ℕ → Axis K} {B : ℕ → Boundary K} {P : BodyPack K}
    {meshIdx : ℕ → ℕ → List (List ℤ)} {kernel : DeltaKernel K} {w : ℕ} {D : Mat K} (hP : PackOK P) (hdim : P.dim = L.dim)
    (hsize : P.mpiSize = L.mpiSize) (hD : createDelta debug L axes B P meshIdx kernel w = .ok D) {r b i f : ℕ}
    (hu : IsLagDof P ⟨r, b, i, f⟩) :
    ∃ (per : List Bool) (body : SingleBody K) (I0 IJK : List ℤ) (widths XYZ : List K) (row : ℤ) (E : List (Entry K)),
      (List.range L.dim).mapM (fun d => deltaPeriodic (B r) d) = .ok per ∧ P.bodies[b]? = some body ∧
      (meshIdx r b)[0]? = some I0 ∧
      deltaWidths L axes I0 = .ok widths ∧
      (meshIdx r b)[i - body.bgPt r]? = some IJK ∧ body.coords[i]? = some XYZ ∧
      P.getPackedGlobalIndex b i f = .ok row ∧ 0 ≤ row ∧ row < (P.dim * P.nPts : ℕ) ∧
      deltaOne debug L axes per P kernel w b i widths IJK XYZ f = .ok E ∧ (∀ e ∈ E, e.row = row) ∧
      (∀ e ∈ E, e.col < L.UN) ∧
      (∀ c : ℤ, 0 ≤ c → D row c = E.foldl Mat.insertValue (fun _ _ => 0) row c) ∧
      ∀ q : ℤ → K, ((E.filter fun e => decide (0 ≤ e.col)).map (·.col)).Nodup → Mat.mult L.UN D q row =
        ((E.filter fun e => decide (0 ≤ e.col)).map fun e => e.val * q e.col).sum := by
  have hu' := hu
  obtain ⟨hf, hr, body, hb, hi, ho⟩ := hu'
  simp only at hf hr hb hi ho
  have hbm := List.mem_of_getElem? hb
  have hbl := (List.getElem?_eq_some_iff.1 hb).1
  have hbd := hP.dim _ hbm
  unfold createDelta at hD
  obtain ⟨entries, he, hD⟩ := bind_ok hD
  obtain ⟨hrange, hDeq⟩ := assemble_inv hD
  obtain ⟨gR, hev, heok⟩ := mapM_vals' he
  -- rank r
  have hrank := heok r (List.mem_range.2 (by omega))
  obtain ⟨per, hper, hrank⟩ := bind_ok hrank
  obtain ⟨bl, hbl', hrank⟩ := bind_ok hrank
  obtain ⟨gB, hbv, hbok⟩ := mapM_vals' hbl'
  have hbody := hbok b (List.mem_range.2 hbl)
  simp only [hb] at hbody
  have hbody' := hbody
  unfold deltaBody at hbody'
  obtain ⟨widths, hw, hbody'⟩ := bind_ok hbody'
  obtain ⟨rows, hrows, hbody'⟩ := bind_ok hbody'
  obtain ⟨gP, hrv, hrok⟩ := mapM_vals' hrows
  obtain ⟨ho1, ho2⟩ := ownsPoint_iff.1 ho
  have hlcl : i - body.bgPt r < body.nLclPts r := by unfold SingleBody.nLclPts SingleBody.bgPt; omega
  have hglb : body.bgPt r + (i - body.bgPt r) = i := by unfold SingleBody.bgPt; omega
  have hpt := hrok (i - body.bgPt r) (List.mem_range.2 hlcl)
  simp only [hglb] at hpt
  rcases hIJK : (meshIdx r b)[i - body.bgPt r]? with _ | IJK
  · rw [hIJK] at hpt; cases hpt
  rcases hXYZ : body.coords[i]? with _ | XYZ
  · rw [hIJK, hXYZ] at hpt; cases hpt
  rw [hIJK, hXYZ] at hpt
  simp only at hpt
  obtain ⟨gF, hdv, hdok⟩ := mapM_vals' hpt
  have hone := hdok f (List.mem_range.2 (by omega))
  obtain ⟨row, hrow, hone'⟩ := bind_ok hone
  obtain ⟨nb, hnb, hone'⟩ := bind_ok hone'
  obtain ⟨idx, hidx, hidx0, hidx1⟩ := (C31_packed_index_bijective P hP).1 _ hu
  simp only at hidx
  rw [hrow] at hidx
  cases hidx
  -- the widths
  rcases hI0 : (meshIdx r b)[0]? with _ | I0
  · rw [hI0] at hw
    exfalso
    have : Inhabited K := ⟨0⟩
    have hd := mapM_vals (β := K) hw
    have := hd.2 0 (List.mem_range.2 (by omega))
    cases this
  rw [hI0] at hw
  simp only at hw
  have hErow : ∀ e ∈ gF f, e.row = row := deltaRow_row hone'
  -- where an entry comes from
  have src1 : ∀ (r' b' : ℕ) (body' : SingleBody K) (k f' : ℕ) (row' : ℤ), P.bodies[b']? = some body' → r' < L.mpiSize → k < body'.nLclPts r' → f' < body'.dim →
      P.getPackedGlobalIndex b' (body'.bgPt r' + k : ℕ) f' = .ok row' → row' = row →
      r' = r ∧ b' = b ∧ body'.bgPt r' + k = i ∧ f' = f := by
    intro r' b' body' k f' row' hb' hr' hk hf' hrow' he
    subst he
    have hm' := List.mem_of_getElem? hb'
    have ho' : OwnsPoint body' r' (body'.bgPt r' + k) := ownsPoint_iff.2 (by
      unfold SingleBody.nLclPts at hk; unfold SingleBody.bgPt; omega)
    have hv : IsLagDof P ⟨r', b', body'.bgPt r' + k, f'⟩ := ⟨by simpa [← hP.dim _ hm'] using hf', by simpa [hsize] using hr',
      body', hb', by
        show _ < body'.nPts
        rw [← hP.points _ hm']; exact lt_of_lt_of_le ho'.2 (sum_take_le _ _), ho'⟩
    have := lag_inj hP hv hu hrow' hrow
    simp only [LagDof.mk.injEq] at this
    exact this
  have src2 : ∀ (r' b' : ℕ) (body' : SingleBody K) (per' : List Bool), P.bodies[b']? = some body' → r' < L.mpiSize → ∀ l,
      deltaBody debug L axes per' P kernel w r' b' body' (meshIdx r' b') = .ok l → ∀ e ∈ l, e.row = row → r' = r ∧ b' = b := by
    intro r' b' body' per' hb' hr' l hl e hel herow
    unfold deltaBody at hl
    obtain ⟨widths', _, hl⟩ := bind_ok hl
    obtain ⟨rows', hrows', hl⟩ := bind_ok hl
    cases hl
    obtain ⟨x, hx, hel⟩ := List.mem_flatten.1 hel
    obtain ⟨y, hy, hx⟩ := List.mem_flatten.1 hx
    obtain ⟨k, hk, hkk⟩ := mem_mapM hrows' hy
    rw [List.mem_range] at hk
    simp only at hkk
    split at hkk
    · obtain ⟨f', hf', hff⟩ := mem_mapM hkk hx
      rw [List.mem_range] at hf'
      obtain ⟨row', hrow', hff⟩ := bind_ok hff
      obtain ⟨nb', _, hff⟩ := bind_ok hff
      have h1 := deltaRow_row hff e hel
      have := src1 r' b' body' k f' row' hb' hr' hk hf' hrow' (by rw [← h1, herow])
      exact ⟨this.1, this.2.1⟩
    · cases hkk
  -- the entries of the row
  let p : Entry K → Bool := fun e => decide (e.row = row ∧ 0 ≤ e.col)
  have hp : ∀ e : Entry K, (e.row = row → False) → p e = false := by
    intro e he
    simp only [p, decide_eq_false_iff_not]
    exact fun h => he h.1
  have hfilter : entries.flatten.filter p = (gF f).filter p := by
    rw [hev, filter_flatten_unique _ List.nodup_range _ p r (List.mem_range.2 (by omega))]
    · rw [← Except.ok.inj hrank, hbv, filter_flatten_unique _ List.nodup_range _ p b (List.mem_range.2 hbl)]
      · rw [← Except.ok.inj hbody', hrv]
        have e1 : ((List.range (body.nLclPts r)).map gP).flatten.flatten =
            ((List.range (body.nLclPts r)).map fun k => (gP k).flatten).flatten := by
          rw [List.flatten_flatten, List.map_map]; rfl
        rw [e1, filter_flatten_unique _ List.nodup_range _ p (i - body.bgPt r) (List.mem_range.2 hlcl)]
        · rw [hdv, filter_flatten_unique _ List.nodup_range _ p f (List.mem_range.2 (by omega))]
          intro f' hf' hne e hel
          rw [List.mem_range] at hf'
          apply hp
          intro herow
          have h1 := hdok f' (List.mem_range.2 hf')
          obtain ⟨row', hrow', h1⟩ := bind_ok h1
          obtain ⟨nb', _, h1⟩ := bind_ok h1
          have h2 := deltaRow_row h1 e hel
          have := src1 r b body (i - body.bgPt r) f' row' hb (by omega) hlcl hf' (by rw [hglb]; exact hrow') (by rw [← h2, herow])
          exact hne this.2.2.2
        · intro k hk hne e hel
          rw [List.mem_range] at hk
          apply hp
          intro herow
          have h1 := hrok k (List.mem_range.2 hk)
          simp only at h1
          split at h1
          · obtain ⟨x, hx, hel⟩ := List.mem_flatten.1 hel
            obtain ⟨f', hf', hff⟩ := mem_mapM h1 hx
            rw [List.mem_range] at hf'
            obtain ⟨row', hrow', hff⟩ := bind_ok hff
            obtain ⟨nb', _, hff⟩ := bind_ok hff
            have h2 := deltaRow_row hff e hel
            have := src1 r b body k f' row' hb (by omega) hk hf' hrow' (by rw [← h2, herow])
            omega
          · cases h1
      · intro b' hb' hne e hel
        rw [List.mem_range] at hb'
        apply hp
        intro herow
        have h1 := hbok b' (List.mem_range.2 hb')
        rw [List.getElem?_eq_getElem hb'] at h1
        exact hne (src2 r b' _ per (List.getElem?_eq_getElem hb') (by omega) _ h1 e hel herow).2
    · intro r' hr' hne e hel
      rw [List.mem_range] at hr'
      apply hp
      intro herow
      have h1 := heok r' (List.mem_range.2 hr')
      obtain ⟨per', _, h1⟩ := bind_ok h1
      obtain ⟨bl', hbl'', h1⟩ := bind_ok h1
      simp only [pure, Except.pure, Except.ok.injEq] at h1
      rw [← h1] at hel
      obtain ⟨x, hx, hel⟩ := List.mem_flatten.1 hel
      obtain ⟨b', hb', hbb⟩ := mem_mapM hbl'' hx
      rw [List.mem_range] at hb'
      rw [List.getElem?_eq_getElem hb'] at hbb
      exact hne (src2 r' b' _ per' (List.getElem?_eq_getElem hb') hr' _ hbb e hel herow).1
  have hpE : (gF f).filter p = (gF f).filter fun e => decide (0 ≤ e.col) := by
    apply List.filter_congr
    intro e he
    simp only [p, decide_eq_decide]
    exact ⟨fun h => h.2, fun h => ⟨hErow e he, h⟩⟩
  have hmem : ∀ e ∈ gF f, e ∈ entries.flatten := by
    intro e he
    rw [hev]
    refine List.mem_flatten.2 ⟨_, List.mem_map.2 ⟨r, List.mem_range.2 (by omega), rfl⟩, ?_⟩
    rw [← Except.ok.inj hrank, hbv]
    refine List.mem_flatten.2 ⟨_, List.mem_map.2 ⟨b, List.mem_range.2 hbl, rfl⟩, ?_⟩
    rw [← Except.ok.inj hbody', hrv]
    refine List.mem_flatten.2 ⟨_, List.mem_flatten.2 ⟨_, List.mem_map.2 ⟨_, List.mem_range.2 hlcl, rfl⟩, ?_⟩, he⟩
    rw [hdv]
    exact List.mem_map.2 ⟨f, List.mem_range.2 (by omega), rfl⟩
  refine ⟨per, body, I0, IJK, widths, XYZ, row, gF f, hper, hb, rfl, hw, hIJK, hXYZ, hrow, hidx0, hidx1, hone, hErow,
    fun e he => (hrange e (List.mem_append_left _ (hmem e he))).2, ?_, ?_⟩
  · intro c hc
    have e1 : ∀ l : List (Entry K), l.filter (fun e => decide (e.row = row ∧ e.col = c)) = (l.filter p).filter fun e => decide (e.row = row ∧ e.col = c) := by
      intro l
      rw [List.filter_filter]
      apply List.filter_congr
      intro e _
      simp only [p, ← Bool.decide_and, decide_eq_decide]
      omega
    rw [hDeq, List.foldl_nil, insertValue_filter, e1, hfilter, ← e1, ← insertValue_filter]
  intro q hnd
  rw [hDeq, mult_assembled hrange hidx0 (by rw [hfilter, hpE]; exact hnd), List.map_nil, List.sum_nil, add_zero, ← hpE, ← hfilter]
  generalize entries.flatten = l
  induction l with
  | nil => rfl
  | cons e l ih =>
    by_cases h : e.row = row ∧ 0 ≤ e.col
    · rw [List.filter_cons_of_pos (by simpa [p] using h), List.map_cons, List.map_cons, List.sum_cons, List.sum_cons, ih, if_pos h]
    · rw [List.filter_cons_of_neg (by simpa [p] using h), List.map_cons, List.sum_cons, ih, if_neg h, zero_add]

/-- The part of the matrix that belongs to one degree of freedom. -/
theorem createDelta_row {debug : Bool} {L : Layout} {axes : ℕ → Axis K} {B : ℕ → Boundary K} {P : BodyPack K}
    {meshIdx : ℕ → ℕ → List (List ℤ)} {kernel : DeltaKernel K} {w : ℕ} {D : Mat K} (hP : PackOK P) (hdim : P.dim = L.dim)
    (hsize : P.mpiSize = L.mpiSize) (hD : createDelta debug L axes B P meshIdx kernel w = .ok D) {r b i f : ℕ}
    (hu : IsLagDof P ⟨r, b, i, f⟩) :
    ∃ (per : List Bool) (body : SingleBody K) (I0 IJK : List ℤ) (widths XYZ : List K) (row : ℤ) (E : List (Entry K)),
      (List.range L.dim).mapM (fun d => deltaPeriodic (B r) d) = .ok per ∧ P.bodies[b]? = some body ∧
      (meshIdx r b)[0]? = some I0 ∧
      deltaWidths L axes I0 = .ok widths ∧
      (meshIdx r b)[i - body.bgPt r]? = some IJK ∧ body.coords[i]? = some XYZ ∧
      P.getPackedGlobalIndex b i f = .ok row ∧ 0 ≤ row ∧ row < (P.dim * P.nPts : ℕ) ∧
      deltaOne debug L axes per P kernel w b i widths IJK XYZ f = .ok E ∧ (∀ e ∈ E, e.row = row) ∧
      (∀ e ∈ E, e.col < L.UN) ∧
      ∀ q : ℤ → K, ((E.filter fun e => decide (0 ≤ e.col)).map (·.col)).Nodup → Mat.mult L.UN D q row =
        ((E.filter fun e => decide (0 ≤ e.col)).map fun e => e.val * q e.col).sum := by
  obtain ⟨per, body, I0, IJK, widths, XYZ, row, E, h1, h2, h3, h4, h5, h6, h7, h8, h9, h10, h11, h12, -, h13⟩ := createDelta_entries hP hdim hsize hD hu
  exact ⟨per, body, I0, IJK, widths, XYZ, row, E, h1, h2, h3, h4, h5, h6, h7, h8, h9, h10, h11, h12, h13⟩

end Row

end PetIBM
