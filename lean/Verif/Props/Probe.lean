/-
Point probes (C34, C35).
-/
import Verif.Lemmas.ProbePoint
import Verif.Props.MeshInit

set_option linter.unusedSectionVars false

namespace PetIBM

open Spec Layout

variable {K : Type} [Field K] [LinearOrder K] [IsStrictOrderedRing K]
variable {L : Layout} {G : Geom K} {axes : ℕ → Axis K}

/-- the processes that claim a point between the lines `0` and `N d` are those that own its cell -/
theorem claim_owner (hL : LayoutOK L) (hflat : L.dim = 2 → L.nProc 2 = 1) {f : ℕ} (hf : f < L.dim ∨ f = 3) {x : ℕ → K} {c N : ℕ → ℕ}
    (hc : ∀ d, d < L.dim → c d < N d ∧ N d ≤ L.n f d ∧ ∀ m : ℕ, m ≤ N d → (G.coord f d m ≤ x d ↔ m ≤ c d)) :
    ∃ r, r < L.mpiSize ∧ ∀ r', r' < L.mpiSize → ((∀ d, d < L.dim → L.bg f r' d ≤ c d ∧ c d < L.ed f r' d) ↔ r' = r) := by
  have hd := hL.dim
  have e : ∀ (r i j k : ℕ), Owns L f r i j k ↔ (L.bg f r 0 ≤ i ∧ i < L.ed f r 0) ∧ (L.bg f r 1 ≤ j ∧ j < L.ed f r 1) ∧
      (L.bg f r 2 ≤ k ∧ k < L.ed f r 2) := by
    intro r i j k
    unfold Owns Layout.ed Layout.bg Layout.m startOf sizeOf'
    simp only [sum_take_succ]
    rfl
  have c0 := hc 0 (by omega)
  have c1 := hc 1 (by omega)
  rcases hd with h2 | h3
  · have hn2 := hL.flat h2 f (by omega)
    obtain ⟨r, hr, ho⟩ := exists_owner hL hf (i := c 0) (j := c 1) (k := 0) (by omega) (by omega) (by omega)
    refine ⟨r, hr, fun r' hr' => ⟨fun h => ?_, ?_⟩⟩
    · refine owner_unique ((e r' (c 0) (c 1) 0).2 ⟨h 0 (by omega), h 1 (by omega), ?_⟩) ho
      have h1 := hflat h2
      have hr0 : r' / (L.nProc 0 * L.nProc 1) = 0 := by
        unfold mpiSize at hr'
        rw [h1, mul_one] at hr'
        exact Nat.div_eq_of_lt hr'
      have hlen := hL.cols f 2 hf (by omega)
      have hsum := hL.lines f 2 hf (by omega)
      rw [h1] at hlen
      obtain ⟨m, hm⟩ := List.length_eq_one_iff.1 hlen
      rw [hn2, hm] at hsum
      simp only [List.sum_cons, List.sum_nil, add_zero] at hsum
      have h22 : L.column r' 2 = 0 := by simp [Layout.column, Layout.procCoord, hr0]
      unfold Layout.ed Layout.bg Layout.m startOf sizeOf'
      rw [h22, hm, hsum]
      simp
    · rintro rfl d hdd
      have := (e r' (c 0) (c 1) 0).1 ho
      rcases (show d = 0 ∨ d = 1 by omega) with rfl | rfl
      · exact this.1
      · exact this.2.1
  · have c2 := hc 2 (by omega)
    obtain ⟨r, hr, ho⟩ := exists_owner hL hf (i := c 0) (j := c 1) (k := c 2) (by omega) (by omega) (by omega)
    refine ⟨r, hr, fun r' hr' => ⟨fun h => ?_, ?_⟩⟩
    · exact owner_unique ((e r' (c 0) (c 1) (c 2)).2 ⟨h 0 (by omega), h 1 (by omega), h 2 (by omega)⟩) ho
    · rintro rfl d hdd
      have := (e r' (c 0) (c 1) (c 2)).1 ho
      rcases (show d = 0 ∨ d = 1 ∨ d = 2 by omega) with rfl | rfl | rfl
      · exact this.1
      · exact this.2.1
      · exact this.2.2

/-- C35 for the part of the grid lines whose coordinates exist -/
theorem claim_core (hL : LayoutOK L) (hflat : L.dim = 2 → L.nProc 2 = 1) {f : ℕ} (hf : f < L.dim ∨ f = 3) {lo : ℕ → ℤ} {hi : ℕ → ℕ}
    (H : ∀ d, d < L.dim → Lines L G axes f d (lo d) (hi d)) {x : ℕ → K} (hx : ∀ d, d < L.dim → InLines G f d (lo d) (hi d) (x d))
    (hr : ∀ r d, r < L.mpiSize → d < L.dim → L.ed f r d ≤ hi d ∨ L.bg f r d = hi d) :
    ∃ r, r < L.mpiSize ∧ isPointOnLocalProc L axes f r x = .ok true ∧
      (∀ r', r' < L.mpiSize → r' ≠ r → isPointOnLocalProc L axes f r' x = .ok false) ∧
      (∀ d, d < L.dim → L.ed f r d ≤ hi d ∧ G.coord f d (L.bg f r d) ≤ x d ∧ x d < G.coord f d (L.ed f r d)) ∧
      ∃ bs, createLinInterp L axes f x = .ok bs ∧ bs.length = L.dim ∧ ∀ (d : ℕ) (b : BoxDir K), bs[d]? = some b →
        (b.target = x d ∧ b.bl < x d ∧ x d ≤ b.tr) ∧ (b.bl = G.coord f d b.idx ∧ b.tr = G.coord f d (b.idx + 1)) ∧
        (L.bg f r d : ℤ) - 1 ≤ b.idx ∧ b.idx + 1 ≤ (L.ed f r d : ℤ) := by
  have hcell : ∀ d, ∃ c, d < L.dim → c < hi d ∧ ∀ m : ℕ, m ≤ hi d → (G.coord f d m ≤ x d ↔ m ≤ c) := by
    intro d
    by_cases hd : d < L.dim
    · obtain ⟨c, hc⟩ := (H d hd).cell_exists (hx d hd)
      exact ⟨c, fun _ => hc⟩
    · exact ⟨0, fun h => absurd h hd⟩
  choose c hc using hcell
  obtain ⟨r, hrr, hown⟩ := claim_owner (G := G) hL hflat hf (x := x) (c := c) (N := hi)
    (fun d hd => ⟨(hc d hd).1, (H d hd).high, (hc d hd).2⟩)
  have hrx : ∀ r', r' < L.mpiSize → ∀ d, d < L.dim → L.ed f r' d ≤ hi d ∨ (L.bg f r' d = hi d ∧ x d < G.coord f d (hi d)) :=
    fun r' hr' d hd => (hr r' d hr' hd).imp id fun h => ⟨h, (hx d hd).lt⟩
  have hiff : ∀ r' d, r' < L.mpiSize → d < L.dim → (G.coord f d (L.bg f r' d) ≤ x d ∧ x d < G.coord f d (L.ed f r' d) ↔
      L.bg f r' d ≤ c d ∧ c d < L.ed f r' d) := by
    intro r' d hr' hd
    have h2 := bg_le_ed L f r' d
    have hcd := (hc d hd).1
    rcases hr r' d hr' hd with h | h
    · rw [(hc d hd).2 _ (by omega), ← not_le, (hc d hd).2 _ h, not_le]
    · have h1 := (hx d hd).lt
      rw [← h] at h1
      constructor
      · rintro ⟨h', _⟩
        exact absurd h1 (not_lt.2 h')
      · rintro ⟨h', _⟩
        omega
  have hcl : ∀ r', r' < L.mpiSize → ∃ b, isPointOnLocalProc L axes f r' x = .ok b ∧ (b = true ↔ r' = r) := by
    intro r' hr'
    obtain ⟨b, hb, hbt⟩ := onLocal_eq H (x := x) (hrx r' hr')
    refine ⟨b, hb, ?_⟩
    rw [hbt, ← hown r' hr']
    exact forall₂_congr fun d hd => hiff r' d hr' hd
  have hmine : ∀ d, d < L.dim → L.ed f r d ≤ hi d ∧ G.coord f d (L.bg f r d) ≤ x d ∧ x d < G.coord f d (L.ed f r d) := by
    intro d hd
    have h := (hown r hrr).2 rfl d hd
    refine ⟨?_, (hiff r d hrr hd).2 h⟩
    have hcd := (hc d hd).1
    rcases hr r d hrr hd with h' | h' <;> omega
  refine ⟨r, hrr, ?_, ?_, hmine, ?_⟩
  · obtain ⟨b, hb, hbt⟩ := hcl r hrr
    rw [hb, hbt.2 rfl]
  · intro r' hr' hne
    obtain ⟨b, hb, hbt⟩ := hcl r' hr'
    rw [hb]
    cases b with
    | false => rfl
    | true => exact absurd (hbt.1 rfl) hne
  · have hbox : ∀ d, ∃ b : BoxDir K, d < L.dim → boxDir L axes f d (x d) = .ok b ∧ (b.target = x d ∧ b.bl < x d ∧ x d ≤ b.tr) ∧
        (b.bl = G.coord f d b.idx ∧ b.tr = G.coord f d (b.idx + 1)) ∧ (L.bg f r d : ℤ) - 1 ≤ b.idx ∧ b.idx + 1 ≤ (L.ed f r d : ℤ) := by
      intro d
      by_cases hd : d < L.dim
      · obtain ⟨t, thi, tlo, hb, g1, g2, g3, _⟩ := (H d hd).boxDir_eq (hx d hd)
        obtain ⟨k0, k1, k2⟩ := hmine d hd
        have := (H d hd).range tlo thi g1 g2 k0 k1 k2
        refine ⟨_, fun _ => ⟨hb, ⟨rfl, g1, g2⟩, ⟨rfl, by simp only [sub_add_cancel]⟩, ?_⟩⟩
        simp only [sub_add_cancel]
        omega
      · exact ⟨⟨0, 0, 0, 0⟩, fun h => absurd h hd⟩
    choose b hb using hbox
    refine ⟨(List.range L.dim).map b, ?_, by simp, ?_⟩
    · unfold createLinInterp
      rw [if_pos hL.dim]
      exact mapM_ok _ fun d hd => (hb d (List.mem_range.1 hd)).1
    · intro d b' hb'
      rw [List.getElem?_map, Option.map_eq_some_iff] at hb'
      obtain ⟨d', hd', rfl⟩ := hb'
      obtain ⟨h1, h2⟩ := List.getElem?_eq_some_iff.1 hd'
      rw [List.length_range] at h1
      rw [List.getElem_range] at h2
      subst h2
      exact (hb _ h1).2

/-- C35 for the velocity components (partial: the pressure is missing, see `C35_false_pressure_one_process`). Every point from the first grid line to (excluding) the ghost line behind the last one is claimed by exactly one
process, all others reject it, and the claiming process finds the two lines around the point (`bl < x ≤ tr`, consecutive) inside
its range with one ghost layer. -/
theorem C35_velocity_partial (S : Setup L G axes) (hflat : L.dim = 2 → L.nProc 2 = 1) {f : ℕ} (hf : f < L.dim) {x : ℕ → K}
    (hx : ∀ d, d < L.dim → G.coord f d 0 ≤ x d ∧ x d < G.coord f d (L.n f d)) :
    ∃ r, r < L.mpiSize ∧ isPointOnLocalProc L axes f r x = .ok true ∧
      (∀ r', r' < L.mpiSize → r' ≠ r → isPointOnLocalProc L axes f r' x = .ok false) ∧
      ∃ bs, createLinInterp L axes f x = .ok bs ∧ bs.length = L.dim ∧ ∀ (d : ℕ) (b : BoxDir K), bs[d]? = some b →
        (b.target = x d ∧ b.bl < x d ∧ x d ≤ b.tr) ∧ (b.bl = G.coord f d b.idx ∧ b.tr = G.coord f d (b.idx + 1)) ∧
        (L.bg f r d : ℤ) - 1 ≤ b.idx ∧ b.idx + 1 ≤ (L.ed f r d : ℤ) := by
  have h3 := S.dim_le
  obtain ⟨r, hr, h1, h2, _, h4⟩ := claim_core S.layout hflat (Or.inl hf) (lo := fun _ => -1) (hi := L.n f)
    (fun d hd => S.lines_velocity hf hd) (fun d hd => ⟨(hx d hd).1, by omega, (hx d hd).2⟩)
    (fun r d _ hd => Or.inl (ed_le_n S.layout (Or.inl hf) (by omega)))
  exact ⟨r, hr, h1, h2, h4⟩

/-- C35 (velocity, complement). A point outside of this range is claimed by no process: it is silently never recorded. -/
theorem C35_outside (S : Setup L G axes) {f : ℕ} (hf : f < L.dim) {x : ℕ → K} {d : ℕ} (hd : d < L.dim)
    (hx : x d < G.coord f d 0 ∨ G.coord f d (L.n f d) ≤ x d) (r : ℕ) : isPointOnLocalProc L axes f r x = .ok false := by
  have h3 := S.dim_le
  obtain ⟨b, hb, hbt⟩ := onLocal_eq (r := r) (lo := fun _ => -1) (hi := L.n f) (fun d hd => S.lines_velocity hf hd) (x := x)
    (fun d hd => Or.inl (ed_le_n S.layout (Or.inl hf) (by omega)))
  rw [hb]
  cases b with
  | false => rfl
  | true =>
    exfalso
    obtain ⟨k1, k2⟩ := hbt.1 rfl d hd
    have h1 := ed_le_n S.layout (r := r) (Or.inl hf) (show d < 3 by omega)
    have h2 := bg_le_ed L f r d
    have mono : ∀ a b : ℕ, a ≤ b → b ≤ L.n f d → G.coord f d a ≤ G.coord f d b := by
      intro a b h hb
      rcases eq_or_lt_of_le h with e | e
      · rw [e]
      · exact (S.coord_strict hf hd (by omega) (by omega) (by omega)).le
    rcases hx with h | h
    · exact absurd ((mono 0 _ (by omega) (by omega)).trans k1) (not_le.2 (by simpa using h))
    · exact absurd (lt_of_lt_of_le k2 (mono _ _ h1 le_rfl)) (not_lt.2 h)

/-- the outputs of a process that does not have the point -/
theorem foldlM_none {f r : ℕ} (qs : List (ℤ → K)) (st : PointProbe K × List (Option K)) (h : st.1.interp = none) :
    ∃ P, qs.foldlM (pointStep L f r) st = .ok (P, st.2 ++ qs.map fun _ => none) := by
  induction qs generalizing st with
  | nil => exact ⟨st.1, by simp; rfl⟩
  | cons q qs ih =>
    obtain ⟨P, hP⟩ := ih (⟨none, scatterLocal L f r q st.1.svec⟩, st.2 ++ [none]) rfl
    refine ⟨P, ?_⟩
    have hs : pointStep L f r st q = .ok (⟨none, scatterLocal L f r q st.1.svec⟩, st.2 ++ [none]) := by
      unfold pointStep pointMonitor
      simp only [h]
      rfl
    rw [List.foldlM_cons, hs]
    change qs.foldlM (pointStep L f r) (_, _) = _
    rw [hP]
    simp

/-- the outputs of the process that has the point -/
theorem foldlM_some {f r : ℕ} {bs : List (BoxDir K)} {Q : (ℤ → K) → K → Prop}
    (hQ : ∀ q v : ℤ → K, ∃ y, interpolate L f r (scatterLocal L f r q v) bs = .ok y ∧ Q q y)
    (qs : List (ℤ → K)) (st : PointProbe K × List (Option K)) (h : st.1.interp = some bs) :
    ∃ P ys, qs.foldlM (pointStep L f r) st = .ok (P, st.2 ++ ys.map some) ∧ List.Forall₂ Q qs ys := by
  induction qs generalizing st with
  | nil => exact ⟨st.1, [], by simp; rfl, List.Forall₂.nil⟩
  | cons q qs ih =>
    obtain ⟨y, hy, hQy⟩ := hQ q st.1.svec
    obtain ⟨P, ys, hP, hf⟩ := ih (⟨some bs, scatterLocal L f r q st.1.svec⟩, st.2 ++ [some y]) rfl
    refine ⟨P, y :: ys, ?_, List.Forall₂.cons hQy hf⟩
    have hs : pointStep L f r st q = .ok (⟨some bs, scatterLocal L f r q st.1.svec⟩, st.2 ++ [some y]) := by
      unfold pointStep pointMonitor
      simp only [h, hy]
      rfl
    rw [List.foldlM_cons, hs]
    change qs.foldlM (pointStep L f r) (_, _) = _
    rw [hP]
    simp

theorem point_core (S : Setup L G axes) (hflat : L.dim = 2 → L.nProc 2 = 1) {f : ℕ} (hf : f < L.dim ∨ f = 3) {lo : ℕ → ℤ} {hi : ℕ → ℕ}
    (H : ∀ d, d < L.dim → Lines L G axes f d (lo d) (hi d)) {x : ℕ → K} (hx : ∀ d, d < L.dim → InLines G f d (lo d) (hi d) (x d))
    (hr : ∀ r d, r < L.mpiSize → d < L.dim → L.ed f r d ≤ hi d ∨ L.bg f r d = hi d)
    (hb : ∀ d, d < L.dim → x d ≤ G.coord f d ((L.n f d : ℤ) - 1)) (hz : L.dim = 2 → x 2 = 0) (qs : List (ℤ → K)) :
    ∃ r, r < L.mpiSize ∧
      (∀ r', r' < L.mpiSize → r' ≠ r → ∃ P, pointRun L axes f x r' qs = .ok (P, qs.map fun _ => none)) ∧
      ∃ P ys, pointRun L axes f x r qs = .ok (P, ys.map some) ∧ List.Forall₂ (Interpolates L G f x) qs ys := by
  have h3 := S.dim_le
  obtain ⟨r, hrr, hon, hoff, hmine, _⟩ := claim_core S.layout hflat hf H hx hr
  have hbox : ∀ d, ∃ (b : BoxDir K) (t : ℕ) (w : K), d < L.dim → boxDir L axes f d (x d) = .ok b ∧ BoxSpec L G f r d (x d) b t w := by
    intro d
    by_cases hd : d < L.dim
    · obtain ⟨k0, k1, k2⟩ := hmine d hd
      obtain ⟨b, t, w, h1, h2⟩ := (H d hd).boxSpec (hx d hd) (hb d hd) k0 k1 k2
      exact ⟨b, t, w, fun _ => ⟨h1, h2⟩⟩
    · exact ⟨⟨0, 0, 0, 0⟩, 0, 0, fun h => absurd h hd⟩
  choose b t w hb using hbox
  have hcr : createLinInterp L axes f x = .ok ((List.range L.dim).map b) := by
    unfold createLinInterp
    rw [if_pos S.layout.dim]
    exact mapM_ok _ fun d hd => (hb d (List.mem_range.1 hd)).1
  have hint : ∀ q v : ℤ → K, ∃ y, interpolate L f r (scatterLocal L f r q v) ((List.range L.dim).map b) = .ok y ∧
      Interpolates L G f x q y := by
    intro q v
    rcases S.layout.dim with h2 | h2
    · rw [h2]
      exact interpolate_2d S hf h2 (hz h2) (fun d hd => (hb d hd).2) q v
    · rw [h2]
      exact interpolate_3d S hf h2 (fun d hd => (hb d hd).2) q v
  refine ⟨r, hrr, ?_, ?_⟩
  · intro r' hr' hne
    obtain ⟨P, hP⟩ := foldlM_none (L := L) (f := f) (r := r') qs (⟨none, fun _ => 0⟩, []) rfl
    refine ⟨P, ?_⟩
    have hi : pointInit L axes f x r' = .ok ⟨none, fun _ => 0⟩ := by
      unfold pointInit
      rw [hoff r' hr' hne]
      rfl
    unfold pointRun
    rw [hi]
    change qs.foldlM (pointStep L f r') (_, _) = _
    rw [hP]
    simp
  · obtain ⟨P, ys, hP, hys⟩ := foldlM_some hint qs (⟨some ((List.range L.dim).map b), fun _ => 0⟩, []) rfl
    refine ⟨P, ys, ?_, hys⟩
    have hi : pointInit L axes f x r = .ok ⟨some ((List.range L.dim).map b), fun _ => 0⟩ := by
      unfold pointInit
      rw [hon]
      simp only [bind, Except.bind, if_true, hcr]
      rfl
    unfold pointRun
    rw [hi]
    change qs.foldlM (pointStep L f r) (_, _) = _
    rw [hP]
    simp

/-- C34. A probe of a velocity component at any point between the first and the last grid line, on any number of processes, monitored
any number of times: exactly one process prints, once for each monitored vector, and the printed value lies between the smallest
and the largest value at the surrounding grid points and is exact for multilinear fields. -/
theorem C34_point_probe (S : Setup L G axes) (hflat : L.dim = 2 → L.nProc 2 = 1) {f : ℕ} (hf : f < L.dim) {x : ℕ → K}
    (hx : ∀ d, d < L.dim → BetweenLines L.toMeshInfo G f d (x d)) (hz : L.dim = 2 → x 2 = 0) (qs : List (ℤ → K)) :
    ∃ r, r < L.mpiSize ∧
      (∀ r', r' < L.mpiSize → r' ≠ r → ∃ P, pointRun L axes f x r' qs = .ok (P, qs.map fun _ => none)) ∧
      ∃ P ys, pointRun L axes f x r qs = .ok (P, ys.map some) ∧ List.Forall₂ (Interpolates L G f x) qs ys := by
  have h3 := S.dim_le
  exact point_core S hflat (Or.inl hf) (lo := fun _ => -1) (hi := L.n f)
    (fun d hd => S.lines_velocity hf hd)
    (fun d hd => ⟨(hx d hd).1, by omega, lt_of_le_of_lt (hx d hd).2 (S.coord_strict hf hd (by omega) (by omega) (by omega))⟩)
    (fun r d _ hd => Or.inl (ed_le_n S.layout (Or.inl hf) (by omega))) (fun d hd => (hx d hd).2) hz qs

/-- first pressure line of the last process column in direction `d` -/
def lastColumn (L : Layout) (d : ℕ) : ℕ := startOf (L.own 3 d) (L.nProc d - 1)

theorem ranks_pressure (hL : LayoutOK L) {r d : ℕ} (hr : r < L.mpiSize) (hd : d < 3) :
    L.ed 3 r d ≤ lastColumn L d ∨ L.bg 3 r d = lastColumn L d := by
  have hcol : L.column r d < L.nProc d := by
    unfold Layout.column Layout.procCoord
    have p0 := hL.procs 0 (by omega)
    have p1 := hL.procs 1 (by omega)
    split_ifs with h0 h1
    · subst h0; exact Nat.mod_lt _ p0
    · subst h1; exact Nat.mod_lt _ p1
    · have e : d = 2 := by omega
      subst e
      exact Nat.div_lt_of_lt_mul hr
  rcases Nat.lt_or_ge (L.column r d) (L.nProc d - 1) with h | h
  · left
    unfold Layout.ed Layout.bg Layout.m startOf sizeOf' lastColumn startOf
    rw [← sum_take_succ]
    exact sum_take_mono _ (by omega)
  · right
    unfold Layout.bg lastColumn
    rw [show L.column r d = L.nProc d - 1 by omega]

/-- C35 for the pressure; partial: only points strictly behind the first pressure line and before the first line of the last process
column in every direction. -/
theorem C35_pressure_partial (S : Setup L G axes) (hflat : L.dim = 2 → L.nProc 2 = 1) {x : ℕ → K}
    (hx : ∀ d, d < L.dim → lastColumn L d < L.n 3 d ∧ G.coord 3 d 0 < x d ∧ x d < G.coord 3 d (lastColumn L d)) :
    ∃ r, r < L.mpiSize ∧ isPointOnLocalProc L axes 3 r x = .ok true ∧
      (∀ r', r' < L.mpiSize → r' ≠ r → isPointOnLocalProc L axes 3 r' x = .ok false) ∧
      ∃ bs, createLinInterp L axes 3 x = .ok bs ∧ bs.length = L.dim ∧ ∀ (d : ℕ) (b : BoxDir K), bs[d]? = some b →
        (b.target = x d ∧ b.bl < x d ∧ x d ≤ b.tr) ∧ (b.bl = G.coord 3 d b.idx ∧ b.tr = G.coord 3 d (b.idx + 1)) ∧
        (L.bg 3 r d : ℤ) - 1 ≤ b.idx ∧ b.idx + 1 ≤ (L.ed 3 r d : ℤ) := by
  have h3 := S.dim_le
  obtain ⟨r, hr, h1, h2, _, h4⟩ := claim_core S.layout hflat (Or.inr rfl) (lo := fun _ => 0) (hi := lastColumn L)
    (fun d hd => S.lines_pressure hd (hx d hd).1) (fun d hd => ⟨(hx d hd).2.1.le, fun _ => (hx d hd).2.1, (hx d hd).2.2⟩)
    (fun r d hr hd => ranks_pressure S.layout hr (by omega))
  exact ⟨r, hr, h1, h2, h4⟩

/-- C34 for the pressure; partial. Only points strictly behind the first pressure line and before the first line of the last
process column in every direction are handled; for the others see `C35_pressure_undefined`. -/
theorem C34_pressure_partial (S : Setup L G axes) (hflat : L.dim = 2 → L.nProc 2 = 1) {x : ℕ → K}
    (hx : ∀ d, d < L.dim → lastColumn L d < L.n 3 d ∧ G.coord 3 d 0 < x d ∧ x d < G.coord 3 d (lastColumn L d))
    (hz : L.dim = 2 → x 2 = 0) (qs : List (ℤ → K)) :
    ∃ r, r < L.mpiSize ∧
      (∀ r', r' < L.mpiSize → r' ≠ r → ∃ P, pointRun L axes 3 x r' qs = .ok (P, qs.map fun _ => none)) ∧
      ∃ P ys, pointRun L axes 3 x r qs = .ok (P, ys.map some) ∧ List.Forall₂ (Interpolates L G 3 x) qs ys := by
  have h3 := S.dim_le
  refine point_core S hflat (Or.inr rfl) (lo := fun _ => 0) (hi := lastColumn L) (fun d hd => S.lines_pressure hd (hx d hd).1)
    (fun d hd => ⟨(hx d hd).2.1.le, fun _ => (hx d hd).2.1, (hx d hd).2.2⟩)
    (fun r d hr hd => ranks_pressure S.layout hr (by omega)) (fun d hd => ?_) hz qs
  refine (hx d hd).2.2.le.trans ?_
  have H := S.lines_pressure hd (hx d hd).1
  rcases eq_or_lt_of_le (show (lastColumn L d : ℤ) ≤ (L.n 3 d : ℤ) - 1 by have := (hx d hd).1; omega) with e | e
  · rw [e]
  · exact (H.inside _ _ (by omega) (by omega) e).le

/-- C35 (pressure). The pressure mesh has no ghost lines: the process at the end of a direction, asked about a point that does not lie
before its first line, reads behind the end of the coordinates. -/
theorem C35_pressure_undefined (S : Setup L G axes) {x : ℕ → K} {r : ℕ} (hend : L.ed 3 r 0 = L.n 3 0) (hne : L.bg 3 r 0 < L.n 3 0)
    (hx : G.coord 3 0 (L.bg 3 r 0) ≤ x 0) (qs : List (ℤ → K)) :
    isPointOnLocalProc L axes 3 r x = .error .ub ∧ pointRun L axes 3 x r qs = .error .ub := by
  have hd : 0 < L.dim := by rcases S.layout.dim with h | h <;> omega
  have h3 := S.dim_le
  have hA : fieldAxis L.dim axes L.periodic 3 0 = .ok (pressureAxis (axes 0)) := by simp [fieldAxis, hd]
  have hc : L.n 3 0 = (axes 0).dL.length := S.counts 3 0 (by omega) (by omega) _ hA
  have hend' : meshCoord L axes 3 0 (L.n 3 0) = .error .ub := by
    unfold meshCoord
    rw [hA]
    change (pressureAxis (axes 0)).coord (L.n 3 0) = _
    unfold FieldAxis.coord ptrAt
    rw [if_pos (by simp [pressureAxis])]
    have : (pressureAxis (axes 0)).coordTrue[((L.n 3 0 : ℤ) + (pressureAxis (axes 0)).shift).toNat]? = none := by
      rw [List.getElem?_eq_none_iff]
      have e : ∀ (a : K) (l : List K), (partialSumFrom a l).length = l.length := by
        intro a l
        induction l generalizing a with
        | nil => rfl
        | cons b l ih => simp [partialSumFrom, ih]
      simp [pressureAxis, partialSum, e, hc]
    rw [this]
  have hon : isPointOnLocalProc L axes 3 r x = .error .ub := by
    have hout : outsideDir L axes 3 r 0 (x 0) = .error .ub := by
      unfold outsideDir
      rw [(S.coord_pressure hd hne).1]
      change (if x 0 < G.coord 3 0 (L.bg 3 r 0) then _ else _) = _
      rw [if_neg (not_lt.2 hx), hend, hend']
      rfl
    unfold isPointOnLocalProc
    obtain ⟨m, hm⟩ : ∃ m, L.dim = m + 1 := ⟨L.dim - 1, by omega⟩
    rw [hm, List.range_succ_eq_map]
    unfold onLocalDirs
    rw [hout]
    rfl
  refine ⟨hon, ?_⟩
  unfold pointRun pointInit
  rw [hon]
  rfl

/-- C35 (pressure) on one process: no probe of the pressure between the first and the last line works. -/
theorem C35_false_pressure_one_process (S : Setup L G axes) (h1 : L.nProc 0 = 1) (hn : 0 < L.n 3 0) {x : ℕ → K}
    (hx : BetweenLines L.toMeshInfo G 3 0 (x 0)) (r : ℕ) (qs : List (ℤ → K)) : pointRun L axes 3 x r qs = .error .ub := by
  have hcol : L.column r 0 = 0 := by
    unfold Layout.column Layout.procCoord
    rw [if_pos rfl, h1]
    exact Nat.mod_one r
  have hlen := S.layout.cols 3 0 (Or.inr rfl) (by omega)
  have hsum := S.layout.lines 3 0 (Or.inr rfl) (by omega)
  rw [h1] at hlen
  obtain ⟨m, hm⟩ := List.length_eq_one_iff.1 hlen
  rw [hm] at hsum
  simp only [List.sum_cons, List.sum_nil, add_zero] at hsum
  have hbg : L.bg 3 r 0 = 0 := by
    unfold Layout.bg startOf
    rw [hcol]
    rfl
  refine (C35_pressure_undefined S (r := r) ?_ (by omega) (by rw [hbg]; exact hx.1) qs).2
  unfold Layout.ed Layout.m sizeOf'
  rw [hbg, hcol, hm, ← hsum]
  simp

/-! ### Examples -/

theorem exampleWalls_setup (px py : ℕ) (hx : 1 ≤ px) (hy : 1 ≤ py) : Setup (exampleWalls px py) exampleWallsGeom exampleAxes := by
  apply meshLayout_setup (Or.inl rfl) (fun d _ => exampleAxes_ok d)
  · intro d hd; interval_cases d <;> simp <;> omega
  · exact fun _ _ _ _ => rfl

/-- a point of the plane -/
def planePoint (a b : ℚ) : ℕ → ℚ := fun d => if d = 0 then a else if d = 1 then b else 0

/-- The point (2, 2) lies between the first and the last line of `u` (x: 1, 3; y: 0.5, 2, 4.5) and on a line in y. -/
example (qs : List (ℤ → ℚ)) : ∃ r, r < 2 ∧
    (∀ r', r' < 2 → r' ≠ r → ∃ P, pointRun (exampleWalls 2 1) exampleAxes 0 (planePoint 2 2) r' qs = .ok (P, qs.map fun _ => none)) ∧
    ∃ P ys, pointRun (exampleWalls 2 1) exampleAxes 0 (planePoint 2 2) r qs = .ok (P, ys.map some) ∧
      List.Forall₂ (Interpolates (exampleWalls 2 1) exampleWallsGeom 0 (planePoint 2 2)) qs ys :=
  C34_point_probe (exampleWalls_setup 2 1 (by omega) le_rfl) (fun _ => rfl) (by decide)
    (fun d hd => by
      change d < 2 at hd
      interval_cases d <;> exact ⟨by decide +kernel, by decide +kernel⟩) (fun _ => rfl) qs

/-- The value printed for a field that is 1 on the line x = 1 and 5 on the line x = 3. -/
example : (pointRun (exampleWalls 2 1) exampleAxes 0 (planePoint (3/2) 2) 0 [fun i => if i < 3 then 1 else 5]).map (·.2) = .ok [some 2] := by
  decide +kernel

example : ∃ r, r < 2 ∧ isPointOnLocalProc (exampleWalls 2 1) exampleAxes 0 r (planePoint 2 5) = .ok true := by
  obtain ⟨r, h1, h2, _⟩ := C35_velocity_partial (exampleWalls_setup 2 1 (by omega) le_rfl) (fun _ => rfl) (f := 0) (by decide) (x := planePoint 2 5)
    (fun d hd => by
      change d < 2 at hd
      interval_cases d <;> exact ⟨by decide +kernel, by decide +kernel⟩)
  exact ⟨r, h1, h2⟩

/-- Between the wall and the first line no process claims the point. -/
example (r : ℕ) : isPointOnLocalProc (exampleWalls 2 1) exampleAxes 0 r (planePoint 2 (1/4)) = .ok false :=
  C35_outside (exampleWalls_setup 2 1 (by omega) le_rfl) (f := 0) (by decide) (d := 1) (by decide) (Or.inl (by decide +kernel)) r

/-- The pressure on 2 × 2 processes (lines 0.5, 2, 4.5; the last process owns 4.5). -/
example (qs : List (ℤ → ℚ)) : ∃ r, r < 4 ∧
    (∀ r', r' < 4 → r' ≠ r → ∃ P, pointRun (exampleWalls 2 2) exampleAxes 3 (planePoint 2 3) r' qs = .ok (P, qs.map fun _ => none)) ∧
    ∃ P ys, pointRun (exampleWalls 2 2) exampleAxes 3 (planePoint 2 3) r qs = .ok (P, ys.map some) ∧
      List.Forall₂ (Interpolates (exampleWalls 2 2) exampleWallsGeom 3 (planePoint 2 3)) qs ys :=
  C34_pressure_partial (exampleWalls_setup 2 2 (by omega) (by omega)) (fun _ => rfl)
    (fun d hd => by
      change d < 2 at hd
      interval_cases d <;> exact ⟨by decide +kernel, by decide +kernel, by decide +kernel⟩) (fun _ => rfl) qs

/-- On one process the same point fails. -/
example (qs : List (ℤ → ℚ)) : pointRun (exampleWalls 1 1) exampleAxes 3 (planePoint 2 3) 0 qs = .error .ub :=
  C35_false_pressure_one_process (exampleWalls_setup 1 1 le_rfl le_rfl) rfl (by decide) ⟨by decide +kernel, by decide +kernel⟩ 0 qs

/-- C34 fails for points of the domain behind the last line: the point (2, 5) of the domain [0, 6]² is claimed, and for the constant
field 1 the probe prints 5/6, because the ghost values of the local vector are never set. -/
theorem C34_false_behind_last_line : ∃ (L : Layout) (G : Geom ℚ) (axes : ℕ → Axis ℚ) (x : ℕ → ℚ) (y : ℚ),
    Setup L G axes ∧ (∀ d, d < L.dim → (axes d).min < x d ∧ x d < (axes d).max) ∧
    (pointRun L axes 0 x 0 [fun _ => 1]).map (·.2) = .ok [some y] ∧ y ≠ 1 := by
  refine ⟨exampleWalls 1 1, exampleWallsGeom, exampleAxes, planePoint 2 5, 5/6, exampleWalls_setup 1 1 le_rfl le_rfl, ?_, ?_, by norm_num⟩
  · intro d hd
    change d < 2 at hd
    interval_cases d <;> exact ⟨by decide +kernel, by decide +kernel⟩
  · decide +kernel

end PetIBM
