/-
The sub-volume of a probe.
-/
import Verif.Lemmas.Probe
import Verif.Props.Index
import Mathlib.Data.Finset.Prod
import Mathlib.Order.Interval.Finset.Nat

set_option linter.unusedSectionVars false

namespace PetIBM

open Spec Layout

variable {K : Type} [Field K] [LinearOrder K] [IsStrictOrderedRing K]
variable {L : Layout} {G : Geom K} {axes : ℕ → Axis K}

/-- the range of one direction -/
structure RangeDir (L : Layout) (G : Geom K) (f : ℕ) (box : ℕ → K × K) (atol : K) (d a b : ℕ) : Prop where
  le : a ≤ b
  top : b ≤ L.n f d
  low : ∀ i : ℕ, i < L.n f d → (a ≤ i ↔ (box d).1 - atol ≤ G.coord f d i)
  up : ∀ i : ℕ, i < L.n f d → (i < b ↔ G.coord f d i ≤ (box d).2 + atol)

theorem Spec.Setup.infoDir_raw (S : Setup L G axes) {f d : ℕ} (hf : f < L.dim ∨ f = 3) (hd : d < L.dim) (box : ℕ → K × K) (atol : K) :
    ∃ a b : ℕ, infoDir L axes f box atol d = .ok (a, (b : ℤ) - a) ∧ a ≤ L.n f d ∧ b ≤ L.n f d ∧
      (∀ i : ℕ, i < L.n f d → (a ≤ i ↔ (box d).1 - atol ≤ G.coord f d i)) ∧
      (∀ i : ℕ, i < L.n f d → (i < b ↔ G.coord f d i ≤ (box d).2 + atol)) := by
  have mono : ∀ i j : ℕ, i ≤ j → j < L.n f d → G.coord f d i ≤ G.coord f d j := by
    intro i j h hj
    rcases eq_or_lt_of_le h with rfl | h
    · exact le_rfl
    · exact (S.coord_inside_lt hf hd h hj).le
  obtain ⟨a, ha⟩ : ∃ a, a = lowerBoundK ((List.range (L.n f d)).map fun i : ℕ => G.coord f d i) ((box d).1 - atol) := ⟨_, rfl⟩
  obtain ⟨b, hb⟩ : ∃ b, b = SingleBody.upperBoundK ((List.range (L.n f d)).map fun i : ℕ => G.coord f d i) ((box d).2 + atol) := ⟨_, rfl⟩
  obtain ⟨a1, a2, a3⟩ := takeWhile_range (fun v => decide (v < (box d).1 - atol)) (fun i : ℕ => G.coord f d i) (L.n f d)
  obtain ⟨b1, b2, b3⟩ := takeWhile_range (fun v => decide (v ≤ (box d).2 + atol)) (fun i : ℕ => G.coord f d i) (L.n f d)
  change a = (List.takeWhile _ _).length at ha
  change b = (List.takeWhile _ _).length at hb
  rw [← ha] at a1 a2 a3
  rw [← hb] at b1 b2 b3
  simp only [decide_eq_true_eq, decide_eq_false_iff_not, not_lt] at a2 a3
  simp only [decide_eq_true_eq, decide_eq_false_iff_not, not_le] at b2 b3
  have low : ∀ i : ℕ, i < L.n f d → (a ≤ i ↔ (box d).1 - atol ≤ G.coord f d i) := by
    intro i hi
    constructor
    · exact fun h => (a3 (by omega)).trans (mono _ _ h hi)
    · intro h
      by_contra hc
      exact absurd (a2 i (by omega)) (not_lt.2 h)
  have up : ∀ i : ℕ, i < L.n f d → (i < b ↔ G.coord f d i ≤ (box d).2 + atol) := by
    intro i hi
    refine ⟨b2 i, fun h => ?_⟩
    by_contra hc
    exact absurd (lt_of_lt_of_le (b3 (by omega)) (mono _ _ (not_lt.1 hc) hi)) (not_lt.2 h)
  refine ⟨a, b, ?_, a1, b1, low, up⟩
  unfold infoDir
  rw [S.gridLine_eq hf hd]
  change Except.ok (((lowerBoundK _ _ : ℕ) : ℤ), ((SingleBody.upperBoundK _ _ : ℕ) : ℤ) - (lowerBoundK _ _ : ℕ)) = _
  rw [show lowerBoundK _ _ = a from ha.symm, show SingleBody.upperBoundK _ _ = b from hb.symm]

theorem Spec.Setup.infoDir_eq (S : Setup L G axes) {f d : ℕ} (hf : f < L.dim ∨ f = 3) (hd : d < L.dim) {box : ℕ → K × K} {atol : K}
    (hbox : (box d).1 - atol ≤ (box d).2 + atol) :
    ∃ a b : ℕ, infoDir L axes f box atol d = .ok (a, (b : ℤ) - a) ∧ RangeDir L G f box atol d a b := by
  obtain ⟨a, b, h, h1, h2, low, up⟩ := S.infoDir_raw hf hd box atol
  refine ⟨a, b, h, ?_, h2, low, up⟩
  by_contra hc
  have hb : b < L.n f d := by omega
  have g1 := (up b hb).not.1 (lt_irrefl _)
  have g2 := (low b hb).not.1 hc
  exact absurd (lt_of_le_of_lt hbox (not_le.1 g1)) (not_lt.2 (not_le.1 g2).le)

/-- the points of the sub-volume in PETSc's order -/
def subPoints (L : Layout) (f : ℕ) (M : SubMesh) : List (ℕ × ℕ × ℕ) :=
  (List.range L.mpiSize).flatMap fun r => (L.box f r).filter M.selects

theorem nodup_petscOrder (hL : LayoutOK L) {f : ℕ} (hf : f < L.dim ∨ f = 3) : (petscOrder L f).Nodup := by
  have h := nodup_aoList hL hf
  rw [aoList_eq] at h
  have e : (List.range L.mpiSize).flatMap (fun r => (L.box f r).map fun p => ((nat3 (L.n f 0) (L.n f 1) p : ℕ) : ℤ)) =
      (petscOrder L f).map fun p => ((nat3 (L.n f 0) (L.n f 1) p : ℕ) : ℤ) := by
    unfold petscOrder
    rw [List.map_flatMap]
  rw [e] at h
  exact h.of_map

theorem mem_petscOrder (hL : LayoutOK L) {f : ℕ} (hf : f < L.dim ∨ f = 3) {i j k : ℕ} :
    (i, j, k) ∈ petscOrder L f ↔ i < L.n f 0 ∧ j < L.n f 1 ∧ k < L.n f 2 := by
  unfold petscOrder
  simp only [List.mem_flatMap, List.mem_range, mem_box]
  constructor
  · rintro ⟨r, _, h⟩; exact owns_inGrid hL hf h
  · rintro ⟨hi, hj, hk⟩; exact exists_owner hL hf hi hj hk

theorem subPoints_eq (f : ℕ) (M : SubMesh) : subPoints L f M = (petscOrder L f).filter M.selects := by
  unfold subPoints petscOrder
  rw [List.filter_flatMap]

/-- number of points of the sub-volume -/
theorem length_subPoints (hL : LayoutOK L) {f : ℕ} (hf : f < L.dim ∨ f = 3) {M : SubMesh} {a b : ℕ → ℕ}
    (hs : ∀ d, d < 3 → M.start d = a d ∧ M.nPts d = (b d : ℤ) - a d ∧ a d ≤ b d ∧ b d ≤ L.n f d) :
    (subPoints L f M).length = (b 0 - a 0) * (b 1 - a 1) * (b 2 - a 2) := by
  have hnd : (subPoints L f M).Nodup := by
    rw [subPoints_eq]; exact (nodup_petscOrder hL hf).filter _
  obtain ⟨s0, n0, l0, t0⟩ := hs 0 (by omega)
  obtain ⟨s1, n1, l1, t1⟩ := hs 1 (by omega)
  obtain ⟨s2, n2, l2, t2⟩ := hs 2 (by omega)
  rw [← List.toFinset_card_of_nodup hnd]
  have e : (subPoints L f M).toFinset = Finset.Ico (a 0) (b 0) ×ˢ Finset.Ico (a 1) (b 1) ×ˢ Finset.Ico (a 2) (b 2) := by
    ext ⟨i, j, k⟩
    rw [List.mem_toFinset, subPoints_eq, List.mem_filter, mem_petscOrder hL hf]
    simp only [SubMesh.selects, s0, s1, s2, n0, n1, n2, decide_eq_true_eq, Finset.mem_product, Finset.mem_Ico]
    omega
  rw [e, Finset.card_product, Finset.card_product]
  simp only [Nat.card_Ico]
  ring

theorem dmdaEntry_ok (hL : LayoutOK L) {f : ℕ} (hf : f < L.dim ∨ f = 3) {i j k : ℕ} (hi : i < L.n f 0) (hj : j < L.n f 1)
    (hk : k < L.n f 2) (q : ℤ → K) : ∃ idx, L.getPackedGlobalIndex false f ⟨k, j, i, 0⟩ = .ok idx ∧
      dmdaEntry L f q (L.aoApplicationToPetsc f ((nat3 (L.n f 0) (L.n f 1) (i, j, k) : ℕ) : ℤ)) = .ok (q idx) := by
  obtain ⟨_, _, idx, hidx, _⟩ := C05_inside_stays_inside false L hL f hf i j k 0 hi hj hk
  rw [Nat.cast_zero] at hidx
  obtain ⟨r, hr, ho⟩ := exists_owner hL hf hi hj hk
  obtain ⟨m, hm⟩ := List.getElem?_of_mem (mem_box.2 ho)
  have h1 := getElem?_flatMap_range (fun r => L.box f r) L.mpiSize hr hm
  refine ⟨idx, hidx, ?_⟩
  rw [ao_of_owner hL hf hr hm]
  unfold dmdaEntry
  rw [if_neg (by omega), Int.toNat_natCast]
  unfold petscOrder
  rw [h1]
  change (do let idx ← L.getPackedGlobalIndex false f ⟨k, j, i, 0⟩; return q idx) = _
  rw [hidx]
  rfl

/-- the initialised probe -/
structure VolumeSpec (L : Layout) (G : Geom K) (f : ℕ) (box : ℕ → K × K) (atol : K) (P : VolumeProbe K) (a b : ℕ → ℕ) : Prop where
  range : ∀ d, d < L.dim → RangeDir L G f box atol d (a d) (b d)
  flat : ∀ d, L.dim ≤ d → a d = 0 ∧ b d = 1
  start : ∀ d, P.mesh.start d = a d
  nPts : ∀ d, P.mesh.nPts d = (b d : ℤ) - a d
  total : P.mesh.total = P.mesh.nPts 0 * P.mesh.nPts 1 * P.mesh.nPts 2
  coord : P.coord = (List.range L.dim).map fun d => (List.range (b d - a d)).map fun i : ℕ => G.coord f d ((a d : ℤ) + i)
  nat : P.isNatural = (subPoints L f P.mesh).map fun p => ((nat3 (L.n f 0) (L.n f 1) p : ℕ) : ℤ)
  petsc : P.isPetsc = (subPoints L f P.mesh).map fun p => L.aoApplicationToPetsc f ((nat3 (L.n f 0) (L.n f 1) p : ℕ) : ℤ)

theorem VolumeSpec.bounds {f : ℕ} {box : ℕ → K × K} {atol : K} {P : VolumeProbe K} {a b : ℕ → ℕ}
    (h : VolumeSpec L G f box atol P a b) (hL : LayoutOK L) (hf : f < L.dim ∨ f = 3) (d : ℕ) (hd : d < 3) :
    P.mesh.start d = a d ∧ P.mesh.nPts d = (b d : ℤ) - a d ∧ a d ≤ b d ∧ b d ≤ L.n f d := by
  refine ⟨h.start d, h.nPts d, ?_⟩
  by_cases hd' : d < L.dim
  · exact ⟨(h.range d hd').le, (h.range d hd').top⟩
  · obtain ⟨h0, h1⟩ := h.flat d (by omega)
    have h2 : L.dim = 2 := by rcases hL.dim with h | h <;> omega
    have e : d = 2 := by omega
    have := hL.flat h2 f (by omega)
    subst e
    omega

theorem Spec.Setup.volumeInit_eq (S : Setup L G axes) {f : ℕ} (hf : f < L.dim ∨ f = 3) {box : ℕ → K × K} {atol : K}
    (hbox : ∀ d, d < L.dim → (box d).1 - atol ≤ (box d).2 + atol) :
    ∃ P a b, volumeInit L axes f box atol = .ok P ∧ VolumeSpec L G f box atol P a b := by
  have h3 := S.dim_le
  have hdir : ∀ d, ∃ a b : ℕ, (d < L.dim → infoDir L axes f box atol d = .ok (a, (b : ℤ) - a) ∧ RangeDir L G f box atol d a b) ∧
      (L.dim ≤ d → a = 0 ∧ b = 1) := by
    intro d
    by_cases hd : d < L.dim
    · obtain ⟨a, b, h⟩ := S.infoDir_eq hf hd (hbox d hd)
      exact ⟨a, b, fun _ => h, fun h' => absurd hd (by omega)⟩
    · exact ⟨0, 1, fun h => absurd h hd, fun _ => ⟨rfl, rfl⟩⟩
  choose a b hab using hdir
  obtain ⟨M, hM, m1, m2, m3⟩ : ∃ M : SubMesh, getInfo L axes f box atol = .ok M ∧ (∀ d, M.start d = a d) ∧
      (∀ d, M.nPts d = (b d : ℤ) - a d) ∧ M.total = M.nPts 0 * M.nPts 1 * M.nPts 2 := by
    have e : (List.range L.dim).mapM (fun d => infoDir L axes f box atol d) =
        .ok ((List.range L.dim).map fun d => ((a d : ℤ), (b d : ℤ) - a d)) :=
      mapM_ok _ fun d hd => ((hab d).1 (List.mem_range.1 hd)).1
    refine ⟨_, by unfold getInfo; rw [e]; rfl, ?_, ?_, rfl⟩
    · intro d
      by_cases hd : d < L.dim
      · simp [hd]
      · simp [hd, ((hab d).2 (by omega)).1]
    · intro d
      by_cases hd : d < L.dim
      · simp [hd]
      · simp [hd, ((hab d).2 (by omega)).1, ((hab d).2 (by omega)).2]
  have hbd : ∀ d, d < 3 → M.start d = a d ∧ M.nPts d = (b d : ℤ) - a d ∧ a d ≤ b d ∧ b d ≤ L.n f d := by
    intro d hd
    refine ⟨m1 d, m2 d, ?_⟩
    by_cases hd' : d < L.dim
    · exact ⟨((hab d).1 hd').2.le, ((hab d).1 hd').2.top⟩
    · obtain ⟨h0, h1⟩ := (hab d).2 (by omega)
      have h2 : L.dim = 2 := by rcases S.layout.dim with h | h <;> omega
      have e : d = 2 := by omega
      have := S.layout.flat h2 f (by omega)
      subst e
      omega
  have hg : createGrid L axes f M = .ok ((List.range L.dim).map fun d => (List.range (b d - a d)).map fun i : ℕ => G.coord f d ((a d : ℤ) + i)) := by
    refine mapM_ok _ fun d hd => ?_
    rw [List.mem_range] at hd
    obtain ⟨s1, s2, s3, s4⟩ := hbd d (by omega)
    rw [if_neg (by omega), s2, show ((b d : ℤ) - a d).toNat = b d - a d by omega]
    refine mapM_ok _ fun i hi => ?_
    rw [List.mem_range] at hi
    rw [s1]
    rcases hf with hf | rfl
    · exact S.meshCoord_velocity hf hd (by omega) (by omega)
    · have := (S.coord_pressure hd (show a d + i < L.n 3 d by omega)).1
      rwa [Nat.cast_add] at this
  have hlen := length_subPoints S.layout hf hbd
  have htot : M.total = (subPoints L f M).length := by
    rw [m3, hlen, m2, m2, m2]
    obtain ⟨_, _, s0, _⟩ := hbd 0 (by omega)
    obtain ⟨_, _, s1, _⟩ := hbd 1 (by omega)
    obtain ⟨_, _, s2, _⟩ := hbd 2 (by omega)
    rw [← Nat.cast_sub s0, ← Nat.cast_sub s1, ← Nat.cast_sub s2]
    push_cast
    ring
  have his : (List.range L.mpiSize).mapM (fun r => createIS L f M r) = .ok ((List.range L.mpiSize).map fun r =>
      (((L.box f r).filter M.selects).map fun p => ((nat3 (L.n f 0) (L.n f 1) p : ℕ) : ℤ),
        ((L.box f r).filter M.selects).map fun p => L.aoApplicationToPetsc f ((nat3 (L.n f 0) (L.n f 1) p : ℕ) : ℤ))) := by
    refine mapM_ok _ fun r hr => ?_
    have e : (((L.box f r).filter M.selects).map fun p => (p.2.2 : ℤ) * (L.n f 1 * L.n f 0) + p.2.1 * L.n f 0 + p.1) =
        ((L.box f r).filter M.selects).map fun p => ((nat3 (L.n f 0) (L.n f 1) p : ℕ) : ℤ) := by
      apply List.map_congr_left
      rintro ⟨i, j, k⟩ _
      simp only [nat3]
      push_cast
      ring
    have hle : ((L.box f r).filter M.selects).length ≤ (subPoints L f M).length := by
      unfold subPoints
      rw [List.length_flatMap]
      exact List.single_le_sum (by simp) _ (List.mem_map.2 ⟨r, hr, rfl⟩)
    unfold createIS
    rw [if_neg (by omega)]
    simp only [e]
    rw [if_neg (by rw [List.length_map]; omega)]
    simp
  refine ⟨⟨M, (List.range L.dim).map fun d => (List.range (b d - a d)).map fun i : ℕ => G.coord f d ((a d : ℤ) + i),
    ((List.range L.mpiSize).map fun r =>
      (((L.box f r).filter M.selects).map fun p => ((nat3 (L.n f 0) (L.n f 1) p : ℕ) : ℤ),
        ((L.box f r).filter M.selects).map fun p => L.aoApplicationToPetsc f ((nat3 (L.n f 0) (L.n f 1) p : ℕ) : ℤ))).flatMap (·.1),
    ((List.range L.mpiSize).map fun r =>
      (((L.box f r).filter M.selects).map fun p => ((nat3 (L.n f 0) (L.n f 1) p : ℕ) : ℤ),
        ((L.box f r).filter M.selects).map fun p => L.aoApplicationToPetsc f ((nat3 (L.n f 0) (L.n f 1) p : ℕ) : ℤ))).flatMap (·.2)⟩,
    a, b, ?_, ?_⟩
  · simp only [volumeInit, hM, hg, his, bind, Except.bind]
    rfl
  · refine ⟨fun d hd => ((hab d).1 hd).2, fun d hd => (hab d).2 hd, m1, m2, m3, rfl, ?_, ?_⟩
    · change List.flatMap _ _ = _
      unfold subPoints
      rw [List.flatMap_map, List.map_flatMap]
    · change List.flatMap _ _ = _
      unfold subPoints
      rw [List.flatMap_map, List.map_flatMap]

/-! ### Averaging -/

/-- all calls of `monitorVec`; the outputs are collected -/
def accRun (nSum : ℤ) (A : Accumulator K) (l : List (List K × K)) : Accumulator K × List (ProbeOutput K) :=
  l.foldl (fun st x => ((accumulate nSum st.1 x.1 x.2).1, st.2 ++ (accumulate nSum st.1 x.1 x.2).2.toList)) (A, [])

theorem accRun_append (nSum : ℤ) (A : Accumulator K) (l : List (List K × K)) (x : List K × K) :
    accRun nSum A (l ++ [x]) = ((accumulate nSum (accRun nSum A l).1 x.1 x.2).1,
      (accRun nSum A l).2 ++ (accumulate nSum (accRun nSum A l).1 x.1 x.2).2.toList) := by
  unfold accRun
  rw [List.foldl_append]
  rfl

/-- sum of a window -/
def windowSum {α : Type} (l : List ((α → K) × K)) (p : α) : K := (l.map fun x => x.1 p).sum

/-- the output of window `j` -/
def windowOut {α : Type} (pts : List α) (m : ℕ) (l : List ((α → K) × K)) (j : ℕ) : ProbeOutput K :=
  ⟨((l[j * m + m - 1]?).map (·.2)).getD 0, m, pts.map fun p => 1 / (m : K) * windowSum ((l.drop (j * m)).take m) p⟩

theorem zipWith_map_self {α : Type} (pts : List α) (g h : α → K) :
    List.zipWith (· + ·) (pts.map g) (pts.map h) = pts.map fun p => g p + h p := by
  induction pts with
  | nil => rfl
  | cons a t ih => simp [ih]

theorem accRun_eq {α : Type} (pts : List α) (nSum : ℤ) (h0 : nSum ≠ 0) (l : List ((α → K) × K)) :
    let R := accRun nSum Accumulator.init (l.map fun x => (pts.map x.1, x.2))
    R.1.count = (l.length % nSum.natAbs : ℕ) ∧
    R.1.dvec.getD (pts.map fun _ => 0) = pts.map (windowSum (l.drop (l.length / nSum.natAbs * nSum.natAbs))) ∧
    R.2 = (List.range (l.length / nSum.natAbs)).map (windowOut pts nSum.natAbs l) := by
  intro R
  obtain ⟨m, hm⟩ : ∃ m, m = nSum.natAbs := ⟨_, rfl⟩
  have hpos : 0 < m := by omega
  rw [← hm]
  induction l using List.reverseRecOn with
  | nil =>
    refine ⟨by simp [R, accRun, Accumulator.init], ?_, by simp [R, accRun]⟩
    rw [List.drop_nil]
    rfl
  | append_singleton l x ih =>
    obtain ⟨c1, c2, c3⟩ := ih
    have hlen : (l ++ [x]).length = l.length + 1 := by simp
    have hdm := Nat.div_add_mod l.length m
    have hml := Nat.mod_lt l.length hpos
    obtain ⟨q, hq⟩ : ∃ q, q = l.length / m := ⟨_, rfl⟩
    obtain ⟨c, hc⟩ : ∃ c, c = l.length % m := ⟨_, rfl⟩
    rw [← hq] at hdm c2 c3
    rw [← hc] at hdm hml c1
    have hqm : q * m = m * q := Nat.mul_comm _ _
    have hold : ∀ j, j < q → windowOut pts m (l ++ [x]) j = windowOut pts m l j := by
      intro j hj
      have h1 : j * m + m ≤ l.length := by
        have : (j + 1) * m ≤ q * m := Nat.mul_le_mul_right _ hj
        rw [Nat.succ_mul] at this
        omega
      unfold windowOut
      rw [List.getElem?_append_left (by omega), List.drop_append_of_le_length (by omega),
        List.take_append_of_le_length (by rw [List.length_drop]; omega)]
    have hR : R = ((accumulate nSum (accRun nSum Accumulator.init (l.map fun x => (pts.map x.1, x.2))).1 (pts.map x.1) x.2).1,
        (accRun nSum Accumulator.init (l.map fun x => (pts.map x.1, x.2))).2 ++
          (accumulate nSum (accRun nSum Accumulator.init (l.map fun x => (pts.map x.1, x.2))).1 (pts.map x.1) x.2).2.toList) := by
      change accRun _ _ ((l ++ [x]).map _) = _
      rw [List.map_append]
      exact accRun_append _ _ _ _
    have hdrop : (l ++ [x]).drop (q * m) = l.drop (q * m) ++ [x] := List.drop_append_of_le_length (by omega)
    have hsum : ∀ p, windowSum (l.drop (q * m) ++ [x]) p = windowSum (l.drop (q * m)) p + x.1 p := by
      intro p
      simp [windowSum]
    have hd : List.zipWith (· + ·) ((accRun nSum Accumulator.init (l.map fun x => (pts.map x.1, x.2))).1.dvec.getD
        ((pts.map x.1).map fun _ => 0)) (pts.map x.1) = pts.map (windowSum (l.drop (q * m) ++ [x])) := by
      rw [List.map_map, show ((fun _ => (0 : K)) ∘ x.1) = fun _ => 0 from rfl, c2, zipWith_map_self]
      exact List.map_congr_left fun p _ => (hsum p).symm
    have hcount : (accRun nSum Accumulator.init (l.map fun x => (pts.map x.1, x.2))).1.count + 1 = ((c + 1 : ℕ) : ℤ) := by
      rw [c1]; push_cast; ring
    have hz : Int.tmod ((c + 1 : ℕ) : ℤ) nSum = 0 ↔ c + 1 = m := by
      rw [← Int.dvd_iff_tmod_eq_zero, ← Int.natAbs_dvd_natAbs, ← hm, Int.natAbs_natCast]
      constructor
      · intro h
        have := Nat.le_of_dvd (by omega) h
        omega
      · rintro rfl; exact dvd_rfl
    by_cases hcm : c + 1 = m
    · have e1 : (l.length + 1) / m = q + 1 := by
        have : l.length + 1 = m * (q + 1) := by rw [Nat.mul_succ]; omega
        rw [this, Nat.mul_div_cancel_left _ hpos]
      have e2 : (l.length + 1) % m = 0 := by
        have : l.length + 1 = m * (q + 1) := by rw [Nat.mul_succ]; omega
        rw [this, Nat.mul_mod_right]
      have hacc : accumulate nSum (accRun nSum Accumulator.init (l.map fun x => (pts.map x.1, x.2))).1 (pts.map x.1) x.2 =
          (⟨some (pts.map fun _ => 0), 0⟩, some ⟨x.2, m, pts.map fun p => 1 / (m : K) * windowSum (l.drop (q * m) ++ [x]) p⟩) := by
        unfold accumulate
        rw [if_pos h0]
        simp only [hd, hcount]
        rw [if_pos (hz.2 hcm), hcm]
        simp [Function.comp_def]
      rw [hR, hacc, hlen, e1, e2]
      refine ⟨rfl, ?_, ?_⟩
      · have : (l ++ [x]).drop ((q + 1) * m) = [] := by
          apply List.drop_eq_nil_of_le
          rw [Nat.succ_mul, hlen]
          omega
        rw [this]
        rfl
      · rw [List.range_succ, List.map_append]
        change _ ++ [_] = _
        congr 1
        · rw [c3]
          exact List.map_congr_left fun j hj => (hold j (List.mem_range.1 hj)).symm
        · simp only [List.map_cons, List.map_nil]
          unfold windowOut
          rw [show q * m + m - 1 = l.length by omega, hdrop, List.take_of_length_le (by simp; omega)]
          simp
    · have e1 : (l.length + 1) / m = q := by
        rw [← hdm, show m * q + c + 1 = (c + 1) + m * q by ring, Nat.add_mul_div_left _ _ hpos, Nat.div_eq_of_lt (by omega), zero_add]
      have e2 : (l.length + 1) % m = c + 1 := by
        rw [← hdm, show m * q + c + 1 = (c + 1) + m * q by ring, Nat.add_mul_mod_self_left, Nat.mod_eq_of_lt (by omega)]
      have hacc : accumulate nSum (accRun nSum Accumulator.init (l.map fun x => (pts.map x.1, x.2))).1 (pts.map x.1) x.2 =
          (⟨some (pts.map (windowSum (l.drop (q * m) ++ [x]))), ((c + 1 : ℕ) : ℤ)⟩, none) := by
        unfold accumulate
        rw [if_pos h0]
        simp only [hd, hcount]
        rw [if_neg (fun h => hcm (hz.1 h))]
      rw [hR, hacc, hlen, e1, e2]
      refine ⟨rfl, ?_, ?_⟩
      · rw [hdrop]
        rfl
      · rw [c3]
        simp only [Option.toList_none, List.append_nil]
        exact List.map_congr_left fun j hj => (hold j (List.mem_range.1 hj)).symm

end PetIBM
