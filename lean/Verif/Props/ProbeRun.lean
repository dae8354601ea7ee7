/-
C66, C67, C68: data sets of a probe, pressure probes in the coupled solver, probes and restarts.
-/
import Verif.Model.ProbeRun
import Verif.Props.ProbeVolume
import Mathlib.Tactic.Linarith
import Mathlib.Tactic.NormNum

set_option linter.unusedSectionVars false

namespace PetIBM

open Spec Layout

variable {K : Type} [Field K] [LinearOrder K] [IsStrictOrderedRing K]
variable {L : Layout} {G : Geom K} {axes : ℕ → Axis K}

/-! ### C66 -/

theorem toMicro_near (t : ℚ) : t * 1000000 - 1 / 2 ≤ toMicro t ∧ (toMicro t : ℚ) ≤ t * 1000000 + 1 / 2 := by
  have h1 := Int.floor_le (t * 1000000)
  have h2 := Int.lt_floor_add_one (t * 1000000)
  unfold toMicro
  simp only
  split_ifs with a b c
  · constructor <;> linarith
  · push_cast; constructor <;> linarith
  · have : t * 1000000 - ⌊t * 1000000⌋ = 1 / 2 := le_antisymm (not_lt.1 b) (not_lt.1 a)
    constructor <;> linarith
  · have : t * 1000000 - ⌊t * 1000000⌋ = 1 / 2 := le_antisymm (not_lt.1 b) (not_lt.1 a)
    push_cast; constructor <;> linarith

theorem toMicro_lt {a b : ℚ} (h : a + 1 / 1000000 < b) : toMicro a < toMicro b := by
  have h1 := (toMicro_near a).2
  have h2 := (toMicro_near b).1
  have : (toMicro a : ℚ) < toMicro b := by linarith
  exact_mod_cast this

theorem datasets_eq (outs : List (ProbeOutput ℚ)) (h : outs.Pairwise fun a b => toMicro a.t ≠ toMicro b.t) :
    datasets outs = outs.map fun o => (toMicro o.t, o.values) := by
  induction outs using List.reverseRecOn with
  | nil => rfl
  | append_singleton l o ih =>
    rw [List.pairwise_append] at h
    unfold datasets at ih ⊢
    rw [List.foldl_append, ih h.1, List.map_append]
    change putDataset _ o = _
    unfold putDataset
    rw [if_neg]
    · rfl
    · simp only [List.any_map, List.any_eq_true, Function.comp, beq_iff_eq, not_exists, not_and]
      intro x hx
      exact h.2.2 x hx o (by simp)

theorem times_eq {a : List (Snapshot ℚ)} {b : List (ProbeOutput ℚ)} (h : List.Forall₂ (fun s o => o.t = s.t) a b) :
    b.map (·.t) = a.map (·.t) := by
  induction h with
  | nil => rfl
  | cons a _ ih => simp only [List.map_cons, a, ih]

/-- C66, partial: sample times more than a millionth apart. With any averaging window and in any run the HDF5 file holds one data set for
each output, in order, with the values of that output. Missing: samples closer than that, see `C66_false_close_times`. -/
theorem C66_datasets_partial {G : Geom ℚ} {axes : ℕ → Axis ℚ} (S : Setup L G axes) {f : ℕ} (hf : f < L.dim ∨ f = 3) {box : ℕ → ℚ × ℚ} {atol : ℚ}
    (hbox : ∀ d, d < L.dim → (box d).1 - atol ≤ (box d).2 + atol) (T : ProbeTimes ℚ) (hn : T.nMonitor ≠ 0) (nSum : ℤ)
    (h : List (Snapshot ℚ)) (ht : h.Pairwise fun a b => a.t + 1 / 1000000 < b.t) :
    ∃ P outs, volumeRun L axes f box atol T nSum h = .ok (P, outs) ∧
      datasets outs = outs.map (fun o => (toMicro o.t, o.values)) ∧ (outs.map fun o => toMicro o.t).Pairwise (· < ·) := by
  have hd : (dueSteps T h).Pairwise fun a b => a.t + 1 / 1000000 < b.t := List.Pairwise.filter _ ht
  have key : ∀ outs : List (ProbeOutput ℚ), (outs.Pairwise fun a b => a.t + 1 / 1000000 < b.t) →
      datasets outs = outs.map (fun o => (toMicro o.t, o.values)) ∧ (outs.map fun o => toMicro o.t).Pairwise (· < ·) := by
    intro outs ho
    refine ⟨datasets_eq outs (ho.imp fun h => (toMicro_lt h).ne), ?_⟩
    rw [List.pairwise_map]
    exact ho.imp fun h => toMicro_lt h
  by_cases h0 : nSum = 0
  · subst h0
    obtain ⟨P, outs, h1, _, h2⟩ := C37_no_window S hf hbox T hn h
    refine ⟨P, outs, h1, key outs ?_⟩
    have e : outs.map (·.t) = (dueSteps T h).map (·.t) := times_eq (h2.imp fun _ _ h => h.1)
    have h3 : (outs.map (·.t)).Pairwise fun a b => a + 1 / 1000000 < b := by
      rw [e, List.pairwise_map]; exact hd
    rwa [List.pairwise_map] at h3
  · obtain ⟨P, outs, h1, _, h2, h3⟩ := C37_window S hf hbox T hn h0 h
    refine ⟨P, outs, h1, key outs ?_⟩
    rw [List.pairwise_iff_getElem]
    intro i j hi hj hij
    obtain ⟨⟨s, hs, es⟩, _⟩ := h3 i _ (List.getElem?_eq_getElem hi)
    obtain ⟨⟨s', hs', es'⟩, _⟩ := h3 j _ (List.getElem?_eq_getElem hj)
    rw [es, es']
    obtain ⟨g1, g2⟩ := List.getElem?_eq_some_iff.1 hs
    obtain ⟨g1', g2'⟩ := List.getElem?_eq_some_iff.1 hs'
    rw [← g2, ← g2']
    refine List.pairwise_iff_getElem.1 hd _ _ g1 g1' ?_
    have hm : 0 < nSum.natAbs := by omega
    have : i * nSum.natAbs < j * nSum.natAbs := Nat.mul_lt_mul_of_pos_right hij hm
    omega

/-- C66. Whatever the outputs are, the file holds for every time (in millionths) exactly one data set, with the values of the last output
of this time. -/
theorem C66_latest (outs : List (ProbeOutput ℚ)) : ((datasets outs).map (·.1)).Nodup ∧
    ∀ m v, (m, v) ∈ datasets outs ↔ ∃ l o r, outs = l ++ o :: r ∧ toMicro o.t = m ∧ o.values = v ∧ ∀ o' ∈ r, toMicro o'.t ≠ m := by
  induction outs using List.reverseRecOn with
  | nil => simp [datasets]
  | append_singleton l o ih =>
    obtain ⟨nd, ih⟩ := ih
    have e : datasets (l ++ [o]) = putDataset (datasets l) o := by simp [datasets]
    have last : ∀ m v, (∃ a o' r, l ++ [o] = a ++ o' :: r ∧ toMicro o'.t = m ∧ o'.values = v ∧ ∀ o'' ∈ r, toMicro o''.t ≠ m) ↔
        (toMicro o.t = m ∧ o.values = v) ∨ (toMicro o.t ≠ m ∧ (m, v) ∈ datasets l) := by
      intro m v
      rw [ih]
      constructor
      · rintro ⟨a, o', r, h1, h2, h3, h4⟩
        rcases List.eq_nil_or_concat r with rfl | ⟨r', z, rfl⟩
        · obtain ⟨-, h⟩ := List.append_inj' h1 rfl
          cases h
          exact Or.inl ⟨h2, h3⟩
        · rw [List.concat_eq_append] at h1 h4
          rw [← List.cons_append, ← List.append_assoc] at h1
          obtain ⟨h, h'⟩ := List.append_inj' h1 rfl
          cases h'
          exact Or.inr ⟨h4 o (by simp), a, o', r', h, h2, h3, fun o'' ho => h4 o'' (by simp [ho])⟩
      · rintro (⟨h1, h2⟩ | ⟨h0, a, o', r, h1, h2, h3, h4⟩)
        · exact ⟨l, o, [], rfl, h1, h2, by simp⟩
        · refine ⟨a, o', r ++ [o], by rw [h1]; simp, h2, h3, ?_⟩
          intro o'' ho
          rcases List.mem_append.1 ho with ho | ho
          · exact h4 o'' ho
          · rw [List.mem_singleton.1 ho]
            exact h0
    simp only [last]
    rw [e]
    unfold putDataset
    by_cases hm : (datasets l).any fun x => x.1 == toMicro o.t
    · rw [if_pos hm]
      obtain ⟨y, hy, hy'⟩ := List.any_eq_true.1 hm
      have hy' : y.1 = toMicro o.t := by simpa using hy'
      constructor
      · have : ((datasets l).map fun x => if x.1 == toMicro o.t then (x.1, o.values) else x).map (·.1) = (datasets l).map (·.1) := by
          rw [List.map_map]
          refine List.map_congr_left fun x _ => ?_
          simp only [Function.comp]
          split_ifs <;> rfl
        rw [this]
        exact nd
      · intro m v
        rw [List.mem_map]
        constructor
        · rintro ⟨x, hx, h⟩
          by_cases hc : x.1 = toMicro o.t
          · rw [if_pos (by simpa using hc)] at h
            cases h
            exact Or.inl ⟨hc.symm, rfl⟩
          · rw [if_neg (by simpa using hc)] at h
            subst h
            exact Or.inr ⟨fun h => hc h.symm, hx⟩
        · rintro (⟨rfl, rfl⟩ | ⟨h0, h⟩)
          · exact ⟨y, hy, by rw [if_pos (by simpa using hy'), hy']⟩
          · exact ⟨(m, v), h, by rw [if_neg (by simpa using fun h => h0 h.symm)]⟩
    · rw [if_neg hm]
      have hm : ∀ x ∈ datasets l, x.1 ≠ toMicro o.t := fun x hx h => hm (List.any_eq_true.2 ⟨x, hx, by simpa using h⟩)
      constructor
      · rw [List.map_append, List.nodup_append]
        refine ⟨nd, by simp, ?_⟩
        intro a ha b hb
        obtain ⟨x, hx, rfl⟩ := List.mem_map.1 ha
        have : b = toMicro o.t := by simpa using hb
        rw [this]
        exact hm x hx
      · intro m v
        rw [List.mem_append]
        constructor
        · rintro (h | h)
          · exact Or.inr ⟨fun h0 => hm _ h h0.symm, h⟩
          · have h := List.mem_singleton.1 h
            cases h
            exact Or.inl ⟨rfl, rfl⟩
        · rintro (⟨rfl, rfl⟩ | ⟨_, h⟩)
          · exact Or.inr (by simp)
          · exact Or.inl h

example : datasets [(⟨1, 1, [10]⟩ : ProbeOutput ℚ), ⟨2, 2, [20]⟩, ⟨1 + 1 / 10000000, 3, [30]⟩] = [(1000000, [30]), (2000000, [20])] := by decide +kernel

/-- Two steps of 10⁻⁷. -/
def closeHistory : List (Snapshot ℚ) := [⟨1, 1/10000000, fun _ => 0, fun _ => 10⟩, ⟨2, 2/10000000, fun _ => 0, fun _ => 20⟩]

/-- C66 is false in general: of two outputs with times 10⁻⁷ and 2·10⁻⁷ only one data set remains. -/
theorem C66_false_close_times : ∃ (L : Layout) (G : Geom ℚ) (axes : ℕ → Axis ℚ) (h : List (Snapshot ℚ)) (P : VolumeProbe ℚ)
    (outs : List (ProbeOutput ℚ)), Setup L G axes ∧ (h.Pairwise fun a b => a.t < b.t) ∧
    volumeRun L axes 3 exampleBox (1/1000000) ⟨1, 0, 1000⟩ 0 h = .ok (P, outs) ∧
    outs.length = 2 ∧ datasets outs = [(0, [20, 20])] := by
  have key : (volumeRun (exampleWalls 2 2) exampleAxes 3 exampleBox (1/1000000) ⟨1, 0, 1000⟩ 0 closeHistory).map
      (fun o => (o.2.length, datasets o.2)) = .ok (2, [(0, [20, 20])]) := by decide +kernel
  refine ⟨exampleWalls 2 2, exampleWallsGeom, exampleAxes, closeHistory, ?_⟩
  cases hr : volumeRun (exampleWalls 2 2) exampleAxes 3 exampleBox (1/1000000) ⟨1, 0, 1000⟩ 0 closeHistory with
  | error e => rw [hr] at key; cases key
  | ok o =>
    rw [hr] at key
    have := Except.ok.inj key
    rw [Prod.mk.injEq] at this
    exact ⟨o.1, o.2, exampleWalls_setup 2 2 (by omega) (by omega), by simp [closeHistory]; norm_num, rfl, this.1, this.2⟩

/-- Two steps of 10⁻²: times further apart than a millionth. -/
example : ∃ P outs, volumeRun (exampleWalls 2 2) exampleAxes 3 exampleBox (1/1000000) ⟨1, 0, 1000⟩ 0
      [⟨1, 1/100, fun _ => 0, fun _ => 10⟩, ⟨2, 2/100, fun _ => 0, fun _ => 20⟩] = .ok (P, outs) ∧
    datasets outs = outs.map (fun o => (toMicro o.t, o.values)) ∧ (outs.map fun o => toMicro o.t).Pairwise (· < ·) :=
  C66_datasets_partial (exampleWalls_setup 2 2 (by omega) (by omega)) (Or.inr rfl) (fun d hd => by
      change d < 2 at hd
      interval_cases d <;> simp [exampleBox] <;> norm_num) ⟨1, 0, 1000⟩ (by decide) 0 _ (by simp; norm_num)

/-! ### C67 -/

theorem nestPos_pressure (counts : List (ℕ × ℕ)) (r q : ℕ) (hr : r < counts.length) (hq : q < (counts[r]).1) :
    nestPos counts (.inl (((counts.take r).map (·.1)).sum + q)) =
      ((counts.take r).map (·.1)).sum + ((counts.take r).map (·.2)).sum + q := by
  induction counts generalizing r with
  | nil => simp at hr
  | cons c l ih =>
    cases r with
    | zero =>
      simp only [List.getElem_cons_zero] at hq
      simp [nestPos, hq]
    | succ r =>
      simp only [List.getElem_cons_succ] at hq
      have := ih r (by simpa using hr) hq
      simp only [List.take_succ_cons, List.map_cons, List.sum_cons]
      obtain ⟨p, f⟩ := c
      have hlt : ¬ (p + ((l.take r).map (·.1)).sum + q < p) := by omega
      have hsub : p + ((l.take r).map (·.1)).sum + q - p = ((l.take r).map (·.1)).sum + q := by omega
      simp only [nestPos, hlt, if_false, hsub, this]
      ring

/-- number of force unknowns on the processes before `r` -/
def forcesBefore (bodies : BodyPack K) (r : ℕ) : ℕ := ((List.range r).map fun s => bodies.nLclAllProcs s).sum

/-- C67 (coupled solver). Where the pressure of a point that belongs to process `r` is: as many entries behind the entry that a volume probe
reads (the index of the pressure numbering) as there are force unknowns on the processes before `r`. -/
theorem C67_coupled_shift (hL : LayoutOK L) (bodies : BodyPack K) (x : ℤ → K) {r i j k : ℕ} {idx : ℤ} (hr : r < L.mpiSize)
    (hown : Owns L 3 r i j k) (hidx : L.getPackedGlobalIndex false 3 ⟨k, j, i, 0⟩ = .ok idx) :
    subPressure (nestCounts L bodies) x idx = x (idx + forcesBefore bodies r) := by
  obtain ⟨q, hq⟩ := List.getElem?_of_mem (mem_box.2 hown)
  obtain ⟨hi, hj, hk⟩ := owns_inGrid hL (Or.inr rfl) hown
  have hg := gridOK_of hL (Or.inr rfl) hi hj hk
  have hao := ao_of_owner hL (Or.inr rfl) hr hq
  have hidx' : idx = ((((List.range r).map fun s => (L.box 3 s).length).sum + q : ℕ) : ℤ) := by
    unfold getPackedGlobalIndex getGlobalIndex at hidx
    have e : getNaturalIndexS false L.toMeshInfo 3 ⟨k, j, i, 0⟩ = .ok ((nat3 (L.n 3 0) (L.n 3 1) (i, j, k) : ℕ) : ℤ) :=
      getNaturalIndex_inGrid false L.toMeshInfo 3 hg hi hj hk
    rw [e] at hidx
    change Except.ok (L.aoApplicationToPetsc 3 _) = _ at hidx
    rw [hao] at hidx
    exact (Except.ok.inj hidx).symm
  subst hidx'
  have hql := (List.getElem?_eq_some_iff.1 hq).1
  have ht : (nestCounts L bodies).take r = (List.range r).map fun r => ((L.box 3 r).length, bodies.nLclAllProcs r) := by
    unfold nestCounts
    rw [← List.map_take, List.take_range, min_eq_left hr.le]
  have h := nestPos_pressure (nestCounts L bodies) r q (by simp [nestCounts, hr]) (by simpa [nestCounts] using hql)
  rw [ht, List.map_map, List.map_map] at h
  unfold subPressure
  rw [if_pos (by omega), Int.toNat_natCast]
  simp only [Function.comp_def] at h
  rw [h]
  congr 1
  unfold forcesBefore
  push_cast
  ring

/-- C67, partial: the coupled solver with all force unknowns on the last process (for example on one process), no averaging: pressure
probes report the pressure. Missing: several processes with bodies, see `C67_false_coupled`. The solvers without composite vector need no
theorem of their own: `C37_window` and `C37_no_window` hold for all histories, and `pGlobal` is the pressure there. -/
theorem C67_coupled_partial (S : Setup L G axes) {box : ℕ → K × K} {atol : K}
    (hbox : ∀ d, d < L.dim → (box d).1 - atol ≤ (box d).2 + atol) (T : ProbeTimes K) (hn : T.nMonitor ≠ 0) (bodies : BodyPack K)
    (hlast : forcesBefore bodies (L.mpiSize - 1) = 0) (states : List (NSState K)) :
    ∃ P outs, volumeRun L axes 3 box atol T 0 (states.map monitorSnapshot) = .ok (P, outs) ∧ Selects L G 3 box atol P ∧
      List.Forall₂ (fun s o => o.t = s.t ∧ Records L 3 P o (subPressure (nestCounts L bodies) s.p))
        (states.filter fun s => decide (Due T (monitorSnapshot s))) outs := by
  have h3 := S.dim_le
  obtain ⟨P, outs, h1, h2, h4⟩ := C37_no_window S (f := 3) (Or.inr rfl) hbox T hn (states.map monitorSnapshot)
  refine ⟨P, outs, h1, h2, ?_⟩
  unfold dueSteps at h4
  rw [List.filter_map, List.forall₂_map_left_iff] at h4
  refine h4.imp fun s o h => ⟨h.1, h.2.2.1, fun m i j k idx hi hj hk hm hidx => ?_⟩
  rw [h.2.2.2 m i j k idx hi hj hk hm hidx]
  obtain ⟨r, hr, hown⟩ := exists_owner S.layout (Or.inr rfl) hi hj hk
  rw [C67_coupled_shift S.layout bodies s.p hr hown hidx]
  have hle : forcesBefore bodies r = 0 := by
    have : forcesBefore bodies r ≤ forcesBefore bodies (L.mpiSize - 1) := by
      unfold forcesBefore
      obtain ⟨m, hm⟩ : ∃ m, L.mpiSize - 1 = r + m := ⟨L.mpiSize - 1 - r, by omega⟩
      rw [hm, List.range_add, List.map_append, List.sum_append]
      omega
    omega
  rw [hle]
  unfold fieldOf
  rw [if_neg (by omega)]
  simp [monitorSnapshot]

/-- One point of a body, on process 0. -/
def exampleOneBody : BodyPack ℚ := ⟨2, 2, [⟨2, 1, [[3, 3]], [1, 0]⟩]⟩

/-- A state of the coupled solver on 2 × 1 processes: pressure 5 everywhere, force (100, 200). -/
def exampleCoupled : NSState ℚ :=
  ⟨fun _ => 0, nestVec (nestCounts (exampleWalls 2 1) exampleOneBody) (fun _ => 5) fun i => if i = 0 then 100 else 200, fun _ => 0, [], [],
    fun _ => [], fun _ _ _ => 0, 1, 1⟩

/-- C67 is false for the coupled solver: the pressure is 5 everywhere, but at the points of the second process the probe reports
the forces on the body. -/
theorem C67_false_coupled :
    (∀ a, 0 ≤ a → a < 9 → subPressure (nestCounts (exampleWalls 2 1) exampleOneBody) exampleCoupled.p a = 5) ∧
    (volumeRun (exampleWalls 2 1) exampleAxes 3 exampleBox (1/1000000) ⟨1, 0, 1000⟩ 0 [monitorSnapshot exampleCoupled]).map
      (fun o => o.2.map fun x => x.values) = .ok [[5, 100]] := by
  refine ⟨fun a h1 h2 => ?_, by decide +kernel⟩
  interval_cases a <;> decide +kernel

example : ∃ P outs, volumeRun (exampleWalls 1 1) exampleAxes 3 exampleBox (1/1000000) ⟨1, 0, 1000⟩ 0 ([exampleCoupled].map monitorSnapshot) = .ok (P, outs) ∧
      List.Forall₂ (fun s o => o.t = s.t ∧ Records (exampleWalls 1 1) 3 P o
        (subPressure (nestCounts (exampleWalls 1 1) (⟨2, 1, [⟨2, 1, [[3, 3]], [1]⟩]⟩ : BodyPack ℚ)) s.p))
        ([exampleCoupled].filter fun s => decide (Due ⟨1, 0, 1000⟩ (monitorSnapshot s))) outs := by
  obtain ⟨P, outs, h1, _, h2⟩ := C67_coupled_partial (exampleWalls_setup 1 1 le_rfl le_rfl) (box := exampleBox) (atol := 1/1000000)
    (fun d hd => by
      change d < 2 at hd
      interval_cases d <;> simp [exampleBox] <;> norm_num) ⟨1, 0, 1000⟩ (by decide) (⟨2, 1, [⟨2, 1, [[3, 3]], [1]⟩]⟩ : BodyPack ℚ) rfl [exampleCoupled]
  exact ⟨P, outs, h1, h2⟩

/-! ### C68 -/

/-- C68 is false: after a run of two steps that is restarted after the first one, the file lacks the output of the first step. -/
theorem C68_false_overwritten :
    (fileAfterRuns (exampleWalls 2 2) exampleAxes 3 exampleBox (1/1000000) ⟨1, 0, 1000⟩ 0
      [exampleHistory.take 1, (exampleHistory.drop 1).take 1]).map (fun o => o.map fun x => (x.t, x.values)) = .ok [(1, [20, 20])] ∧
    (volumeRun (exampleWalls 2 2) exampleAxes 3 exampleBox (1/1000000) ⟨1, 0, 1000⟩ 0
      (exampleHistory.take 2)).map (fun o => o.2.map fun x => (x.t, x.values)) = .ok [(0, [10, 10]), (1, [20, 20])] := by
  constructor <;> decide +kernel

/-- C68 fails even if the files of both executions are kept: the samples of an unfinished window are lost. Mean of two samples, restart after
the first step: the uninterrupted run writes the means of steps 0, 1 and 2, 3; the second execution that of 1, 2. -/
theorem C68_false_window :
    (volumeRun (exampleWalls 2 2) exampleAxes 3 exampleBox (1/1000000) ⟨1, 0, 1000⟩ 2 (exampleHistory.take 1)).map (fun o => o.2.length) = .ok 0 ∧
    (volumeRun (exampleWalls 2 2) exampleAxes 3 exampleBox (1/1000000) ⟨1, 0, 1000⟩ 2 ((exampleHistory.drop 1).take 3)).map
      (fun o => o.2.map fun x => (x.t, x.values)) = .ok [(2, [30, 30])] ∧
    (volumeRun (exampleWalls 2 2) exampleAxes 3 exampleBox (1/1000000) ⟨1, 0, 1000⟩ 2 (exampleHistory.take 4)).map
      (fun o => o.2.map fun x => (x.t, x.values)) = .ok [(1, [15, 15]), (3, [60, 60])] := by
  refine ⟨?_, ?_, ?_⟩ <;> decide +kernel

theorem windowOut_append_left {α : Type} (pts : List α) {m : ℕ} (hm : 0 < m) (l l' : List ((α → K) × K)) {j : ℕ} (hj : j * m + m ≤ l.length) :
    windowOut pts m (l ++ l') j = windowOut pts m l j := by
  unfold windowOut
  rw [List.getElem?_append_left (by omega), List.drop_append_of_le_length (by omega),
    List.take_append_of_le_length (by rw [List.length_drop]; omega)]

theorem windowOut_append_right {α : Type} (pts : List α) {m : ℕ} (hm : 0 < m) (l l' : List ((α → K) × K)) {q j : ℕ} (hq : l.length = q * m) :
    windowOut pts m (l ++ l') (q + j) = windowOut pts m l' j := by
  unfold windowOut
  have e1 : (q + j) * m = l.length + j * m := by rw [Nat.add_mul, hq]
  rw [e1, List.drop_append, List.drop_of_length_le (by omega), List.nil_append, show l.length + j * m - l.length = j * m by omega,
    List.getElem?_append_right (by omega), show l.length + j * m + m - 1 - l.length = j * m + m - 1 by omega]

/-- C68, partial: if the first execution ends with complete windows, its outputs followed by those of the second execution are the outputs of
the uninterrupted run. Missing: unfinished windows, `C68_false_window`, and the file of the first execution has to be saved by hand,
`C68_false_overwritten`. -/
theorem C68_complete_windows_partial (S : Setup L G axes) {f : ℕ} (hf : f < L.dim ∨ f = 3) {box : ℕ → K × K} {atol : K}
    (hbox : ∀ d, d < L.dim → (box d).1 - atol ≤ (box d).2 + atol) (T : ProbeTimes K) (hn : T.nMonitor ≠ 0) {nSum : ℤ} (h h' : List (Snapshot K))
    (hw : nSum.natAbs ∣ (dueSteps T h).length ∨ nSum = 0) :
    ∃ P outs outs', volumeRun L axes f box atol T nSum h = .ok (P, outs) ∧ volumeRun L axes f box atol T nSum h' = .ok (P, outs') ∧
      volumeRun L axes f box atol T nSum (h ++ h') = .ok (P, outs ++ outs') := by
  obtain ⟨P, hP, hS⟩ := C36_volume_probe S hf hbox
  obtain ⟨pts, e, hq, hlen, hpt⟩ := volume_points S hf hbox hP
  have hrun : ∀ h, volumeRun L axes f box atol T nSum h = .ok (P, (accRun nSum Accumulator.init
      ((dueSteps T h).map fun s => (pts.map fun p => fieldOf L.dim f s (e p), s.t))).2) := by
    intro h
    unfold volumeRun
    rw [hP]
    change (do let o ← volumeMonitors L f T nSum P Accumulator.init h; return (P, o.2)) = _
    rw [volumeMonitors_eq hf T hn nSum P pts e hq h]
    rfl
  refine ⟨P, _, _, hrun h, hrun h', ?_⟩
  rw [hrun (h ++ h')]
  have hdue : dueSteps T (h ++ h') = dueSteps T h ++ dueSteps T h' := List.filter_append ..
  by_cases h0 : nSum = 0
  · subst h0
    have hacc : ∀ l : List (List K × K), (accRun 0 Accumulator.init l).1 = Accumulator.init ∧
        (accRun 0 Accumulator.init l).2 = l.map fun x => ⟨x.2, 0, x.1⟩ := by
      intro l
      induction l using List.reverseRecOn with
      | nil => exact ⟨rfl, rfl⟩
      | append_singleton l x ih =>
        rw [accRun_append, ih.1, ih.2, List.map_append]
        exact ⟨rfl, rfl⟩
    rw [(hacc _).2, (hacc _).2, (hacc _).2, hdue, List.map_append, List.map_append]
  · have hacc : ∀ h, (accRun nSum Accumulator.init ((dueSteps T h).map fun s => (pts.map fun p => fieldOf L.dim f s (e p), s.t))).2 =
        (List.range ((dueSteps T h).length / nSum.natAbs)).map (windowOut pts nSum.natAbs
          ((dueSteps T h).map fun s => (((fun p => fieldOf L.dim f s (e p)) : ℕ × ℕ × ℕ → K), s.t))) := by
      intro h
      have hacc := accRun_eq pts nSum h0 ((dueSteps T h).map fun s => (((fun p => fieldOf L.dim f s (e p)) : ℕ × ℕ × ℕ → K), s.t))
      rw [List.map_map] at hacc
      obtain ⟨_, _, h3⟩ := hacc
      rw [List.length_map] at h3
      exact h3
    rw [hacc, hacc, hacc, hdue, List.length_append, List.map_append]
    obtain ⟨m, hm⟩ : ∃ m, m = nSum.natAbs := ⟨_, rfl⟩
    have hpos : 0 < m := by omega
    rw [← hm] at hw ⊢
    obtain ⟨q, hq'⟩ := hw.resolve_right h0
    rw [Nat.mul_comm] at hq'
    rw [hq', Nat.mul_div_cancel _ hpos, show q * m + (dueSteps T h').length = (dueSteps T h').length + m * q by ring,
      Nat.add_mul_div_left _ _ hpos, Nat.add_comm, List.range_add, List.map_append]
    refine congrArg (fun l => Except.ok (P, l)) (congrArg₂ (· ++ ·) ?_ ?_)
    · refine List.map_congr_left fun j hj => ?_
      rw [List.mem_range] at hj
      apply windowOut_append_left pts hpos
      rw [List.length_map, hq']
      have : (j + 1) * m ≤ q * m := Nat.mul_le_mul_right _ hj
      rw [Nat.succ_mul] at this
      exact this
    · rw [List.map_map]
      refine List.map_congr_left fun j _ => ?_
      exact windowOut_append_right pts hpos _ _ (by rw [List.length_map, hq'])

example : ∃ P outs outs', volumeRun (exampleWalls 2 2) exampleAxes 3 exampleBox (1/1000000) ⟨1, 0, 1000⟩ 2 (exampleHistory.take 2) = .ok (P, outs) ∧
    volumeRun (exampleWalls 2 2) exampleAxes 3 exampleBox (1/1000000) ⟨1, 0, 1000⟩ 2 (exampleHistory.drop 2) = .ok (P, outs') ∧
    volumeRun (exampleWalls 2 2) exampleAxes 3 exampleBox (1/1000000) ⟨1, 0, 1000⟩ 2 (exampleHistory.take 2 ++ exampleHistory.drop 2) =
      .ok (P, outs ++ outs') :=
  C68_complete_windows_partial (exampleWalls_setup 2 2 (by omega) (by omega)) (Or.inr rfl) (fun d hd => by
      change d < 2 at hd
      interval_cases d <;> simp [exampleBox] <;> norm_num) ⟨1, 0, 1000⟩ (by decide) _ _ (Or.inl (by decide +kernel))

end PetIBM
