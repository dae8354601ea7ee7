/-
C36, C37, C38: the points, the sampling times and the averages of a volume probe.
-/
import Verif.Lemmas.ProbeVolume
import Verif.Props.Probe

set_option linter.unusedSectionVars false

namespace PetIBM

open Spec Layout

variable {K : Type} [Field K] [LinearOrder K] [IsStrictOrderedRing K]
variable {L : Layout} {G : Geom K} {axes : ℕ → Axis K}

theorem mem_subPoints (S : Setup L G axes) {f : ℕ} (hf : f < L.dim ∨ f = 3) {box : ℕ → K × K} {atol : K} {P : VolumeProbe K}
    {a b : ℕ → ℕ} (V : VolumeSpec L G f box atol P a b) {i j k : ℕ} :
    (i, j, k) ∈ subPoints L f P.mesh ↔ InVolume L.toMeshInfo G f box atol i j k := by
  have h3 := S.dim_le
  obtain ⟨s0, n0, l0, t0⟩ := V.bounds S.layout hf 0 (by omega)
  obtain ⟨s1, n1, l1, t1⟩ := V.bounds S.layout hf 1 (by omega)
  obtain ⟨s2, n2, l2, t2⟩ := V.bounds S.layout hf 2 (by omega)
  rw [subPoints_eq, List.mem_filter, mem_petscOrder S.layout hf]
  unfold InVolume
  refine and_congr_right fun ⟨hi, hj, hk⟩ => ?_
  have hd0 : 0 < L.dim := by rcases S.layout.dim with h | h <;> omega
  have hd1 : 1 < L.dim := by rcases S.layout.dim with h | h <;> omega
  have r0 := V.range 0 hd0
  have r1 := V.range 1 hd1
  have e : P.mesh.selects (i, j, k) = true ↔ (a 0 ≤ i ∧ i < b 0) ∧ (a 1 ≤ j ∧ j < b 1) ∧ (a 2 ≤ k ∧ k < b 2) := by
    simp only [SubMesh.selects, s0, s1, s2, n0, n1, n2, decide_eq_true_eq]
    omega
  rw [e, r0.low i hi, r0.up i hi, r1.low j hj, r1.up j hj]
  constructor
  · rintro ⟨g0, g1, g2⟩ d hd
    have : d = 0 ∨ d = 1 ∨ d = 2 := by omega
    rcases this with rfl | rfl | rfl
    · exact g0
    · exact g1
    · have r2 := V.range 2 hd
      rw [r2.low k hk, r2.up k hk] at g2
      exact g2
  · intro g
    refine ⟨g 0 hd0, g 1 hd1, ?_⟩
    by_cases hd : 2 < L.dim
    · have r2 := V.range 2 hd
      rw [r2.low k hk, r2.up k hk]
      exact g 2 hd
    · obtain ⟨f0, f1⟩ := V.flat 2 (by omega)
      rw [f0, f1]
      have := S.layout.flat (by omega) f (by omega)
      omega

theorem naturalOf_eq (f i j k : ℕ) : naturalOf L.toMeshInfo f i j k = ((nat3 (L.n f 0) (L.n f 1) (i, j, k) : ℕ) : ℤ) := by
  simp [naturalOf, nat3]

/-- the packed indices of the recorded points -/
theorem exists_packed (S : Setup L G axes) {f : ℕ} (hf : f < L.dim ∨ f = 3) (M : SubMesh) :
    ∃ e : ℕ × ℕ × ℕ → ℤ, (∀ p ∈ subPoints L f M, L.getPackedGlobalIndex false f ⟨p.2.2, p.2.1, p.1, 0⟩ = .ok (e p)) ∧
      ∀ q : ℤ → K, subVector L f q ((subPoints L f M).map fun p => L.aoApplicationToPetsc f ((nat3 (L.n f 0) (L.n f 1) p : ℕ) : ℤ)) =
        .ok ((subPoints L f M).map fun p => q (e p)) := by
  have h : ∀ p : ℕ × ℕ × ℕ, ∃ e : ℤ, p ∈ subPoints L f M → L.getPackedGlobalIndex false f ⟨p.2.2, p.2.1, p.1, 0⟩ = .ok e ∧
      ∀ q : ℤ → K, dmdaEntry L f q (L.aoApplicationToPetsc f ((nat3 (L.n f 0) (L.n f 1) p : ℕ) : ℤ)) = .ok (q e) := by
    rintro ⟨i, j, k⟩
    by_cases hp : (i, j, k) ∈ subPoints L f M
    · have := hp
      rw [subPoints_eq, List.mem_filter, mem_petscOrder S.layout hf] at this
      obtain ⟨⟨hi, hj, hk⟩, _⟩ := this
      obtain ⟨idx, h1, _⟩ := dmdaEntry_ok S.layout hf hi hj hk (fun _ => (0 : K))
      refine ⟨idx, fun _ => ⟨h1, fun q => ?_⟩⟩
      obtain ⟨idx', h1', h2⟩ := dmdaEntry_ok S.layout hf hi hj hk q
      rw [h1] at h1'
      rw [h2, Except.ok.inj h1']
    · exact ⟨0, fun h => absurd h hp⟩
  choose e he using h
  refine ⟨e, fun p hp => (he p hp).1, fun q => ?_⟩
  unfold subVector
  rw [List.mapM_map]
  exact mapM_ok _ fun p hp => (he p hp).2 q

theorem natural_unique {f : ℕ} {i j k : ℕ} {p : ℕ × ℕ × ℕ} (hi : i < L.n f 0) (hj : j < L.n f 1) (hp0 : p.1 < L.n f 0)
    (hp1 : p.2.1 < L.n f 1) (h : ((nat3 (L.n f 0) (L.n f 1) p : ℕ) : ℤ) = naturalOf L.toMeshInfo f i j k) : p = (i, j, k) := by
  rw [naturalOf_eq] at h
  obtain ⟨a, b, c⟩ := p
  obtain ⟨rfl, rfl, rfl⟩ := natural_inj hp0 hi hp1 hj (Int.ofNat_inj.1 h)
  rfl

/-- C36. For every mesh, distribution, field and box with lower ≤ upper ends (up to the tolerance): a point is recorded exactly if it lies
in the box, once, the number of points is right, and the data taken from the solution are those of the recorded points. -/
theorem C36_volume_probe (S : Setup L G axes) {f : ℕ} (hf : f < L.dim ∨ f = 3) {box : ℕ → K × K} {atol : K}
    (hbox : ∀ d, d < L.dim → (box d).1 - atol ≤ (box d).2 + atol) :
    ∃ P, volumeInit L axes f box atol = .ok P ∧ Selects L G f box atol P := by
  have h3 := S.dim_le
  obtain ⟨P, a, b, hP, V⟩ := S.volumeInit_eq hf hbox
  have hin : ∀ p ∈ subPoints L f P.mesh, p.1 < L.n f 0 ∧ p.2.1 < L.n f 1 ∧ p.2.2 < L.n f 2 := by
    rintro ⟨i, j, k⟩ hp
    rw [subPoints_eq, List.mem_filter, mem_petscOrder S.layout hf] at hp
    exact hp.1
  refine ⟨P, hP, ?_, ?_, ?_, ?_, ?_⟩
  · intro g
    rw [V.nat, List.mem_map]
    constructor
    · rintro ⟨⟨i, j, k⟩, hp, rfl⟩
      exact ⟨i, j, k, (mem_subPoints S hf V).1 hp, (naturalOf_eq _ _ _ _).symm⟩
    · rintro ⟨i, j, k, hv, rfl⟩
      exact ⟨(i, j, k), (mem_subPoints S hf V).2 hv, (naturalOf_eq _ _ _ _).symm⟩
  · rw [V.nat]
    have hnd : (subPoints L f P.mesh).Nodup := by
      rw [subPoints_eq]; exact (nodup_petscOrder S.layout hf).filter _
    refine List.Nodup.map_on ?_ hnd
    rintro p hp ⟨i, j, k⟩ hq h
    have h1 := hin _ hp
    have h2 := hin _ hq
    exact natural_unique (L := L) h2.1 h2.2.1 h1.1 h1.2.1 (by rw [h, naturalOf_eq])
  · rw [V.nat, List.length_map, length_subPoints S.layout hf (V.bounds S.layout hf), V.total, V.nPts, V.nPts, V.nPts]
    obtain ⟨_, _, s0, _⟩ := V.bounds S.layout hf 0 (by omega)
    obtain ⟨_, _, s1, _⟩ := V.bounds S.layout hf 1 (by omega)
    obtain ⟨_, _, s2, _⟩ := V.bounds S.layout hf 2 (by omega)
    rw [← Nat.cast_sub s0, ← Nat.cast_sub s1, ← Nat.cast_sub s2]
    push_cast
    ring
  · refine ⟨by rw [V.coord]; simp, ?_⟩
    intro d l hl
    rw [V.coord, List.getElem?_map, Option.map_eq_some_iff] at hl
    obtain ⟨d', hd', rfl⟩ := hl
    obtain ⟨g1, g2⟩ := List.getElem?_eq_some_iff.1 hd'
    rw [List.length_range] at g1
    rw [List.getElem_range] at g2
    subst g2
    have R := V.range d g1
    have hle := R.le
    have htop := R.top
    refine ⟨?_, by rw [V.nPts]; simp; omega, ?_⟩
    · rw [List.pairwise_map]
      refine List.pairwise_lt_range.imp_of_mem ?_
      intro x y hx hy hxy
      rw [List.mem_range] at hx hy
      have := S.coord_inside_lt hf g1 (show a d + x < a d + y by omega) (by omega)
      simpa using this
    · intro x
      rw [List.mem_map]
      constructor
      · rintro ⟨i, hi, rfl⟩
        rw [List.mem_range] at hi
        have h1 := (R.low (a d + i) (by omega)).1 (by omega)
        have h2 := (R.up (a d + i) (by omega)).1 (by omega)
        push_cast at h1 h2
        exact ⟨a d + i, by omega, by push_cast; rfl, h1, h2⟩
      · rintro ⟨i, hi, rfl, h1, h2⟩
        have g1 := (R.low i hi).2 h1
        have g2 := (R.up i hi).2 h2
        refine ⟨i - a d, List.mem_range.2 (by omega), ?_⟩
        rw [Nat.cast_sub g1]
        congr 1
        ring
  · intro q
    obtain ⟨e, he, hq⟩ := exists_packed (K := K) S hf P.mesh
    refine ⟨_, by rw [V.petsc]; exact hq q, by rw [V.nat]; simp, ?_⟩
    intro m i j k idx hi hj hk hm hidx
    rw [V.nat, List.getElem?_map, Option.map_eq_some_iff] at hm
    obtain ⟨p, hp, hpn⟩ := hm
    have hmem := List.mem_of_getElem? hp
    have := hin _ hmem
    have hpe := natural_unique (L := L) hi hj this.1 this.2.1 hpn
    subst hpe
    have h1 := he _ hmem
    change L.getPackedGlobalIndex false f ⟨k, j, i, 0⟩ = _ at h1
    rw [hidx] at h1
    rw [List.getElem?_map, hp, Except.ok.inj h1]
    rfl

theorem mapM_error {α β : Type} {g : α → Except Error β} (l : List α) (x : Error) (h : ∀ a ∈ l, (∃ y, g a = .ok y) ∨ g a = .error x)
    (h' : ∃ a ∈ l, g a = .error x) : l.mapM g = .error x := by
  induction l with
  | nil => obtain ⟨a, ha, _⟩ := h'; simp at ha
  | cons a t ih =>
    rw [List.mapM_cons]
    rcases h a List.mem_cons_self with ⟨y, hy⟩ | hy
    · rw [hy]
      change (do let ys ← t.mapM g; _) = _
      rw [ih (fun b hb => h b (List.mem_cons_of_mem _ hb)) ?_]
      · rfl
      · obtain ⟨b, hb, hbe⟩ := h'
        rcases List.mem_cons.1 hb with rfl | hb
        · rw [hy] at hbe; cases hbe
        · exact ⟨b, hb, hbe⟩
    · rw [hy]; rfl

/-- C36, complement. If the ends of the box are swapped and a grid line lies in between, setting up the probe throws. -/
theorem C36_swapped_box (S : Setup L G axes) {f : ℕ} (hf : f < L.dim ∨ f = 3) {box : ℕ → K × K} {atol : K} {d : ℕ} (hd : d < L.dim)
    {i : ℕ} (hi : i < L.n f d) (h1 : (box d).2 + atol < G.coord f d i) (h2 : G.coord f d i < (box d).1 - atol) :
    volumeInit L axes f box atol = .error .exception := by
  have h3 := S.dim_le
  have hdir : ∀ e, ∃ a b : ℕ, e < L.dim → infoDir L axes f box atol e = .ok (a, (b : ℤ) - a) ∧ a ≤ L.n f e ∧ b ≤ L.n f e ∧
      (∀ i : ℕ, i < L.n f e → (a ≤ i ↔ (box e).1 - atol ≤ G.coord f e i)) ∧
      (∀ i : ℕ, i < L.n f e → (i < b ↔ G.coord f e i ≤ (box e).2 + atol)) := by
    intro e
    by_cases he : e < L.dim
    · obtain ⟨a, b, h⟩ := S.infoDir_raw hf he box atol
      exact ⟨a, b, fun _ => h⟩
    · exact ⟨0, 0, fun h => absurd h he⟩
  choose a b hab using hdir
  obtain ⟨M, hM, m1, m2⟩ : ∃ M : SubMesh, getInfo L axes f box atol = .ok M ∧ (∀ e, e < L.dim → M.start e = a e) ∧
      (∀ e, e < L.dim → M.nPts e = (b e : ℤ) - a e) := by
    have e : (List.range L.dim).mapM (fun d => infoDir L axes f box atol d) =
        .ok ((List.range L.dim).map fun d => ((a d : ℤ), (b d : ℤ) - a d)) :=
      mapM_ok _ fun d hd => (hab d (List.mem_range.1 hd)).1
    exact ⟨_, by unfold getInfo; rw [e]; rfl, fun d hd => by simp [hd], fun d hd => by simp [hd]⟩
  have hg : createGrid L axes f M = .error .exception := by
    refine mapM_error _ _ (fun e he => ?_) ⟨d, List.mem_range.2 hd, ?_⟩
    · rw [List.mem_range] at he
      by_cases hn : M.nPts e < 0
      · right; rw [if_pos hn]
      · left
        rw [if_neg hn]
        refine ⟨_, mapM_ok (h := fun x : ℕ => G.coord f e (M.start e + x)) _ fun x hx => ?_⟩
        rw [List.mem_range] at hx
        have e1 := m1 e he
        have e2 := m2 e he
        obtain ⟨_, t1, t2, _⟩ := hab e he
        rw [e1]
        rcases hf with hf | rfl
        · exact S.meshCoord_velocity hf he (by omega) (by omega)
        · have := (S.coord_pressure he (show a e + x < L.n 3 e by omega)).1
          rwa [Nat.cast_add] at this
    · obtain ⟨_, _, _, low, up⟩ := hab d hd
      have g1 := (up i hi).not.2 (not_le.2 h1)
      have g2 := (low i hi).not.2 (not_le.2 h2)
      have e2 := m2 d hd
      rw [if_pos (by omega)]
  unfold volumeInit
  rw [hM]
  change (do let c ← createGrid L axes f M; _) = _
  rw [hg]
  rfl

/-- C38. A probe of an existing field samples exactly in the steps that are multiples of its period at times in its interval. -/
theorem C38_sampling_times {dim f : ℕ} (hf : f < dim ∨ f = 3) (T : ProbeTimes K) (hn : T.nMonitor ≠ 0) (s : Snapshot K) :
    (Due T s → probeMonitor dim f T s.n s.t = .ok (some (if f < dim then .velocity f else .pressure))) ∧
    (¬ Due T s → probeMonitor dim f T s.n s.t = .ok none) := by
  unfold probeMonitor Due
  rw [if_neg hn, Int.dvd_iff_tmod_eq_zero]
  constructor
  · intro h
    rw [if_pos h]
    by_cases hfd : f < dim
    · rw [if_pos hfd, if_pos hfd]
    · rw [if_neg hfd, if_neg hfd, if_pos (hf.resolve_left hfd)]
  · intro h
    rw [if_neg h]

/-- C38, error branches: a period of zero is a division by zero; a field that does not exist is rejected when it is due. -/
theorem C38_errors {dim f : ℕ} (T : ProbeTimes K) (s : Snapshot K) :
    (T.nMonitor = 0 → probeMonitor dim f T s.n s.t = .error .ub) ∧
    (T.nMonitor ≠ 0 → ¬ (f < dim ∨ f = 3) → Due T s → probeMonitor dim f T s.n s.t = .error .unsupported) := by
  unfold probeMonitor Due
  refine ⟨fun h => if_pos h, fun hn hf h => ?_⟩
  rw [Int.dvd_iff_tmod_eq_zero] at h
  rw [not_or] at hf
  rw [if_neg hn, if_pos h, if_neg hf.1, if_neg hf.2]

/-- the calls of a run -/
theorem volumeMonitors_eq {f : ℕ} (hf : f < L.dim ∨ f = 3) (T : ProbeTimes K) (hn : T.nMonitor ≠ 0) (nSum : ℤ) (P : VolumeProbe K)
    {α : Type} (pts : List α) (e : α → ℤ) (hq : ∀ q : ℤ → K, subVector L f q P.isPetsc = .ok (pts.map fun p => q (e p)))
    (h : List (Snapshot K)) :
    volumeMonitors L f T nSum P Accumulator.init h = .ok (accRun nSum Accumulator.init
      ((dueSteps T h).map fun s => (pts.map fun p => fieldOf L.dim f s (e p), s.t))) := by
  induction h using List.reverseRecOn with
  | nil => rfl
  | append_singleton h s ih =>
    have hm : ∀ A, volumeMonitor L f T nSum P A s = .ok (if Due T s then
        accumulate nSum A (pts.map fun p => fieldOf L.dim f s (e p)) s.t else (A, none)) := by
      intro A
      obtain ⟨h1, h2⟩ := C38_sampling_times hf T hn s
      unfold volumeMonitor
      by_cases hd : Due T s
      · rw [h1 hd, if_pos hd]
        by_cases hfd : f < L.dim
        · rw [if_pos hfd]
          change (do let v ← subVector L f s.U P.isPetsc; return accumulate nSum A v s.t) = _
          rw [hq]
          unfold fieldOf
          rw [if_pos hfd]
          rfl
        · rw [if_neg hfd]
          change (do let v ← subVector L f s.p P.isPetsc; return accumulate nSum A v s.t) = _
          rw [hq]
          unfold fieldOf
          rw [if_neg hfd]
          rfl
      · rw [h2 hd, if_neg hd]
        rfl
    unfold volumeMonitors at ih ⊢
    rw [List.foldlM_append, ih]
    obtain ⟨R, hR⟩ : ∃ R, R = accRun nSum Accumulator.init ((dueSteps T h).map fun s => (pts.map fun p => fieldOf L.dim f s (e p), s.t)) :=
      ⟨_, rfl⟩
    have hs : volumeStep L f T nSum P R s = .ok (accRun nSum Accumulator.init
        ((dueSteps T (h ++ [s])).map fun s => (pts.map fun p => fieldOf L.dim f s (e p), s.t))) := by
      unfold volumeStep
      rw [hm]
      unfold dueSteps
      rw [List.filter_append, List.map_append]
      by_cases hd : Due T s
      · simp only [if_pos hd, List.filter_cons_of_pos (p := fun s => decide (Due T s)) (decide_eq_true hd), List.filter_nil, List.map_cons,
          List.map_nil]
        rw [accRun_append, ← dueSteps, ← hR]
        rfl
      · simp only [if_neg hd, List.filter_cons_of_neg (p := fun s => decide (Due T s)) (by simpa using hd), List.filter_nil, List.map_nil,
          List.append_nil]
        rw [← dueSteps, ← hR]
        change Except.ok (R.1, R.2 ++ []) = _
        rw [List.append_nil]
    rw [← hR]
    change [s].foldlM (volumeStep L f T nSum P) R = _
    rw [List.foldlM_cons, hs]
    rfl

/-- the sub-vector in terms of the packed indices of the recorded points -/
theorem volume_points (S : Setup L G axes) {f : ℕ} (hf : f < L.dim ∨ f = 3) {box : ℕ → K × K} {atol : K} {P : VolumeProbe K}
    (hbox : ∀ d, d < L.dim → (box d).1 - atol ≤ (box d).2 + atol) (hP : volumeInit L axes f box atol = .ok P) :
    ∃ (pts : List (ℕ × ℕ × ℕ)) (e : ℕ × ℕ × ℕ → ℤ), (∀ q : ℤ → K, subVector L f q P.isPetsc = .ok (pts.map fun p => q (e p))) ∧
      pts.length = P.isNatural.length ∧
      ∀ (m i j k : ℕ) (idx : ℤ), i < L.n f 0 → j < L.n f 1 → k < L.n f 2 → P.isNatural[m]? = some (naturalOf L.toMeshInfo f i j k) →
        L.getPackedGlobalIndex false f ⟨k, j, i, 0⟩ = .ok idx → ∃ p, pts[m]? = some p ∧ e p = idx := by
  obtain ⟨P', a, b, hP', V⟩ := S.volumeInit_eq hf hbox
  rw [hP] at hP'
  cases hP'
  obtain ⟨e, he, hq⟩ := exists_packed (K := K) S hf P.mesh
  refine ⟨subPoints L f P.mesh, e, fun q => by rw [V.petsc]; exact hq q, by rw [V.nat]; simp, ?_⟩
  intro m i j k idx hi hj hk hm hidx
  rw [V.nat, List.getElem?_map, Option.map_eq_some_iff] at hm
  obtain ⟨p, hp, hpn⟩ := hm
  have hmem := List.mem_of_getElem? hp
  have hin : p.1 < L.n f 0 ∧ p.2.1 < L.n f 1 ∧ p.2.2 < L.n f 2 := by
    have h := hmem
    rw [subPoints_eq, List.mem_filter] at h
    exact (mem_petscOrder S.layout hf).1 h.1
  have hpe := natural_unique (L := L) hi hj hin.1 hin.2.1 hpn
  subst hpe
  have h1 := he _ hmem
  change L.getPackedGlobalIndex false f ⟨k, j, i, 0⟩ = _ at h1
  rw [hidx] at h1
  exact ⟨_, hp, (Except.ok.inj h1).symm⟩

/-- C37 with a window of `m = |nSum|` samples, for every run: output `j` is written in the last step of the window of the samples
`j m, …, j m + m - 1` and holds their mean; nothing else is written. -/
theorem C37_window (S : Setup L G axes) {f : ℕ} (hf : f < L.dim ∨ f = 3) {box : ℕ → K × K} {atol : K}
    (hbox : ∀ d, d < L.dim → (box d).1 - atol ≤ (box d).2 + atol) (T : ProbeTimes K) (hn : T.nMonitor ≠ 0) {nSum : ℤ} (h0 : nSum ≠ 0)
    (h : List (Snapshot K)) :
    ∃ P outs, volumeRun L axes f box atol T nSum h = .ok (P, outs) ∧ Selects L G f box atol P ∧
      outs.length = (dueSteps T h).length / nSum.natAbs ∧
      ∀ (j : ℕ) (o : ProbeOutput K), outs[j]? = some o →
        (∃ s, (dueSteps T h)[j * nSum.natAbs + nSum.natAbs - 1]? = some s ∧ o.t = s.t) ∧
        o.count = nSum.natAbs ∧
        Records L f P o (meanOf L.dim f (((dueSteps T h).drop (j * nSum.natAbs)).take nSum.natAbs)) := by
  obtain ⟨P, hP, hS⟩ := C36_volume_probe S hf hbox
  obtain ⟨pts, e, hq, hlen, hpt⟩ := volume_points S hf hbox hP
  have hmon := volumeMonitors_eq hf T hn nSum P pts e hq h
  have hacc := accRun_eq pts nSum h0 ((dueSteps T h).map fun s => (((fun p => fieldOf L.dim f s (e p)) : ℕ × ℕ × ℕ → K), s.t))
  rw [List.map_map] at hacc
  obtain ⟨_, _, h3⟩ := hacc
  rw [List.length_map] at h3
  refine ⟨P, (List.range ((dueSteps T h).length / nSum.natAbs)).map (windowOut pts nSum.natAbs
    ((dueSteps T h).map fun s => (((fun p => fieldOf L.dim f s (e p)) : ℕ × ℕ × ℕ → K), s.t))), ?_, hS, ?_, ?_⟩
  · unfold volumeRun
    rw [hP]
    change (do let o ← volumeMonitors L f T nSum P Accumulator.init h; return (P, o.2)) = _
    rw [hmon]
    rw [← h3]
    rfl
  · simp
  · intro j o ho
    obtain ⟨m, hm⟩ : ∃ m, m = nSum.natAbs := ⟨_, rfl⟩
    have hpos : 0 < m := by omega
    rw [← hm] at ho ⊢
    rw [List.getElem?_map, Option.map_eq_some_iff] at ho
    obtain ⟨j', hj', rfl⟩ := ho
    obtain ⟨g1, g2⟩ := List.getElem?_eq_some_iff.1 hj'
    rw [List.length_range] at g1
    rw [List.getElem_range] at g2
    subst g2
    have hle : j * m + m ≤ (dueSteps T h).length := by
      have : (j + 1) * m ≤ (dueSteps T h).length / m * m := Nat.mul_le_mul_right _ g1
      have h2 := Nat.div_mul_le_self (dueSteps T h).length m
      rw [Nat.succ_mul] at this
      omega
    refine ⟨⟨(dueSteps T h)[j * m + m - 1]'(by omega), List.getElem?_eq_getElem _, ?_⟩, rfl, ?_, ?_⟩
    · unfold windowOut
      simp [List.getElem?_eq_getElem (show j * m + m - 1 < (dueSteps T h).length by omega)]
    · unfold windowOut
      rw [List.length_map, hlen]
    · intro l i j' k idx hi hj hk hl hidx
      obtain ⟨p, hp, hpe⟩ := hpt l i j' k idx hi hj hk hl hidx
      unfold windowOut
      rw [List.getElem?_map, hp]
      simp only [Option.map_some]
      congr 1
      unfold windowSum meanOf
      rw [← List.map_drop, ← List.map_take, List.map_map, List.length_take, List.length_drop, min_eq_left (by omega), one_div_mul_eq_div]
      simp only [Function.comp_def, hpe]

/-- C37 without a window: every sample is written unchanged and without a count. -/
theorem C37_no_window (S : Setup L G axes) {f : ℕ} (hf : f < L.dim ∨ f = 3) {box : ℕ → K × K} {atol : K}
    (hbox : ∀ d, d < L.dim → (box d).1 - atol ≤ (box d).2 + atol) (T : ProbeTimes K) (hn : T.nMonitor ≠ 0) (h : List (Snapshot K)) :
    ∃ P outs, volumeRun L axes f box atol T 0 h = .ok (P, outs) ∧ Selects L G f box atol P ∧
      List.Forall₂ (fun s o => o.t = s.t ∧ o.count = 0 ∧ Records L f P o (fieldOf L.dim f s)) (dueSteps T h) outs := by
  obtain ⟨P, hP, hS⟩ := C36_volume_probe S hf hbox
  obtain ⟨pts, e, hq, hlen, hpt⟩ := volume_points S hf hbox hP
  have hmon := volumeMonitors_eq hf T hn 0 P pts e hq h
  have hacc : ∀ l : List (List K × K), accRun 0 Accumulator.init l = (Accumulator.init, l.map fun x => ⟨x.2, 0, x.1⟩) := by
    intro l
    induction l using List.reverseRecOn with
    | nil => rfl
    | append_singleton l x ih =>
      rw [accRun_append, ih, List.map_append]
      rfl
  refine ⟨P, (dueSteps T h).map fun s => ⟨s.t, 0, pts.map fun p => fieldOf L.dim f s (e p)⟩, ?_, hS, ?_⟩
  · unfold volumeRun
    rw [hP]
    change (do let o ← volumeMonitors L f T 0 P Accumulator.init h; return (P, o.2)) = _
    rw [hmon, hacc, List.map_map]
    rfl
  · rw [List.forall₂_map_right_iff, List.forall₂_same]
    intro s _
    refine ⟨rfl, rfl, by simp [hlen], ?_⟩
    intro l i j' k idx hi hj hk hl hidx
    obtain ⟨p, hp, hpe⟩ := hpt l i j' k idx hi hj hk hl hidx
    rw [List.getElem?_map, hp]
    simp [hpe]

/-! ### Examples -/

/-- A box over the lines 2 and 4.5 of the pressure in x and the line 0.5 in y. -/
def exampleBox : ℕ → ℚ × ℚ := fun d => if d = 0 then (1, 5) else if d = 1 then (0, 1) else (0, 0)

example : ∃ P, volumeInit (exampleWalls 2 2) exampleAxes 3 exampleBox (1/1000000) = .ok P ∧
    Selects (exampleWalls 2 2) exampleWallsGeom 3 exampleBox (1/1000000) P :=
  C36_volume_probe (exampleWalls_setup 2 2 (by omega) (by omega)) (Or.inr rfl) fun d hd => by
    change d < 2 at hd
    interval_cases d <;> simp [exampleBox] <;> norm_num

/-- C37. The samples of a window are kept from call to call: the calls of two consecutive parts of a run, the second one from the accumulator that the
first one leaves, give the outputs of the whole run. -/
theorem C37_continued (L : Layout) (f : ℕ) (T : ProbeTimes K) (nSum : ℤ) (P : VolumeProbe K) (A : Accumulator K) (h h' : List (Snapshot K)) :
    volumeMonitors L f T nSum P A (h ++ h') = (do
      let o ← volumeMonitors L f T nSum P A h
      let o' ← volumeMonitors L f T nSum P o.1 h'
      return (o'.1, o.2 ++ o'.2)) := by
  have shift : ∀ (h : List (Snapshot K)) (A : Accumulator K) (outs : List (ProbeOutput K)), h.foldlM (volumeStep L f T nSum P) (A, outs) =
      (h.foldlM (volumeStep L f T nSum P) (A, [])).map fun o => (o.1, outs ++ o.2) := by
    intro h
    induction h with
    | nil =>
      intro A outs
      change Except.ok _ = Except.ok _
      simp only [List.append_nil]
    | cons a h ih =>
      intro A outs
      rw [List.foldlM_cons, List.foldlM_cons]
      unfold volumeStep
      dsimp only
      change Except.bind (Except.bind (volumeMonitor L f T nSum P A a) _) _ = Except.map _ (Except.bind (Except.bind (volumeMonitor L f T nSum P A a) _) _)
      cases volumeMonitor L f T nSum P A a with
      | error _ => rfl
      | ok o =>
        change List.foldlM (volumeStep L f T nSum P) (o.1, outs ++ o.2.toList) h =
          Except.map _ (List.foldlM (volumeStep L f T nSum P) (o.1, [] ++ o.2.toList) h)
        rw [ih o.1 (outs ++ o.2.toList), ih o.1 ([] ++ o.2.toList)]
        cases List.foldlM (volumeStep L f T nSum P) (o.1, []) h with
        | error _ => rfl
        | ok q =>
          change Except.ok _ = Except.ok _
          simp only [List.nil_append, List.append_assoc]
  unfold volumeMonitors
  rw [List.foldlM_append]
  change Except.bind _ _ = Except.bind _ _
  cases List.foldlM (volumeStep L f T nSum P) (A, []) h with
  | error _ => rfl
  | ok o =>
    change List.foldlM (volumeStep L f T nSum P) (o.1, o.2) h' = Except.bind (List.foldlM (volumeStep L f T nSum P) (o.1, []) h') _
    rw [shift h' o.1 o.2]
    cases List.foldlM (volumeStep L f T nSum P) (o.1, []) h' <;> rfl

/-- natural indices and numbers of points -/
example : (volumeInit (exampleWalls 2 2) exampleAxes 3 exampleBox (1/1000000)).map
    (fun P => (P.isNatural, P.isPetsc, P.mesh.total, P.coord)) = .ok ([1, 2], [1, 4], 2, [[2, 9/2], [1/2]]) := by
  decide +kernel

example : volumeInit (exampleWalls 2 2) exampleAxes 3 (fun d => if d = 0 then (5, 1) else (0, 1)) (1/1000000) = .error .exception :=
  C36_swapped_box (exampleWalls_setup 2 2 (by omega) (by omega)) (Or.inr rfl) (d := 0) (by decide) (i := 1) (by decide)
    (by decide +kernel) (by decide +kernel)

/-- Five steps, every second one is due in the interval [0, 3]; the pressure is constant in space. -/
def exampleHistory : List (Snapshot ℚ) :=
  [⟨0, 0, fun _ => 0, fun _ => 10⟩, ⟨1, 1, fun _ => 0, fun _ => 20⟩, ⟨2, 2, fun _ => 0, fun _ => 40⟩, ⟨3, 3, fun _ => 0, fun _ => 80⟩,
    ⟨4, 4, fun _ => 0, fun _ => 90⟩]

example : (volumeRun (exampleWalls 2 2) exampleAxes 3 exampleBox (1/1000000) ⟨2, 0, 3⟩ 2 exampleHistory).map
    (fun o => o.2.map fun x => (x.t, x.count, x.values)) = .ok [(2, 2, [25, 25])] := by
  decide +kernel

example : ∃ P outs, volumeRun (exampleWalls 2 2) exampleAxes 3 exampleBox (1/1000000) ⟨2, 0, 3⟩ 2 exampleHistory = .ok (P, outs) ∧
    outs.length = 1 := by
  obtain ⟨P, outs, h1, _, h2, _⟩ := C37_window (exampleWalls_setup 2 2 (by omega) (by omega)) (f := 3) (Or.inr rfl)
    (box := exampleBox) (atol := 1/1000000) (fun d hd => by
      change d < 2 at hd
      interval_cases d <;> simp [exampleBox] <;> norm_num) ⟨2, 0, 3⟩ (by decide) (nSum := 2) (by decide) exampleHistory
  exact ⟨P, outs, h1, by rw [h2]; decide +kernel⟩

/-- A window that begins in the first part of a run and ends in the second. -/
example : (do
      let P ← volumeInit (exampleWalls 2 2) exampleAxes 3 exampleBox (1/1000000)
      let o ← volumeMonitors (exampleWalls 2 2) 3 ⟨2, 0, 3⟩ 2 P Accumulator.init (exampleHistory.take 2)
      let o' ← volumeMonitors (exampleWalls 2 2) 3 ⟨2, 0, 3⟩ 2 P o.1 (exampleHistory.drop 2)
      return (o.2.length, o'.2.length)) = Except.ok (ε := Error) (0, 1) := by
  decide +kernel

example : probeMonitor 2 3 (⟨2, 0, 3⟩ : ProbeTimes ℚ) 2 2 = .ok (some .pressure) :=
  (C38_sampling_times (Or.inr rfl) ⟨2, 0, 3⟩ (by decide) ⟨2, 2, fun _ => 0, fun _ => 0⟩).1 (by decide +kernel)

end PetIBM
