/-
C96, C97: the entries of `probes` and the files of the probes.
-/
import Verif.Lemmas.ProbeConfig

set_option linter.unusedSectionVars false

namespace PetIBM

open Spec Layout

variable {K : Type} [Field K] [LinearOrder K] [IsStrictOrderedRing K]
variable {L : Layout} {G : Geom K} {axes : ℕ → Axis K}

/-! ### C96 -/

theorem within_run (S : Setup L G axes) (hflat : L.dim = 2 → L.nProc 2 = 1) {f : ℕ} {x : ℕ → K} (hx : Within L G f x) (hz : ∀ d, L.dim ≤ d → x d = 0)
    (qs : List (ℤ → K)) : ∃ r, r < L.mpiSize ∧
      (∀ r', r' < L.mpiSize → r' ≠ r → ∃ P, pointRun L axes f x r' qs = .ok (P, qs.map fun _ => none)) ∧
      ∃ P ys, pointRun L axes f x r qs = .ok (P, ys.map some) ∧ List.Forall₂ (Interpolates L G f x) qs ys := by
  rcases hx with ⟨hf, hx⟩ | ⟨rfl, hx⟩
  · exact C34_point_probe S hflat hf hx (fun h => hz 2 h.le) qs
  · exact C34_pressure_partial S hflat hx (fun h => hz 2 h.le) qs

theorem init_of_run {f r : ℕ} {x : ℕ → K} {qs : List (ℤ → K)} {o : PointProbe K × List (Option K)} (h : pointRun L axes f x r qs = .ok o) :
    ∃ P b, pointInit L axes f x r = .ok P ∧ qs.foldlM (pointStep L f r) (P, []) = .ok o ∧ isPointOnLocalProc L axes f r x = .ok b := by
  unfold pointRun at h
  obtain ⟨P, h1, h2⟩ := bind_ok h
  have h1' := h1
  unfold pointInit at h1'
  obtain ⟨b, h3, _⟩ := bind_ok h1'
  exact ⟨P, b, h1, h2, h3⟩

/-- C96 for sub-volumes; partial. An entry whose names are known, whose limits are in order and whose file can be created gives a probe of the field in
the box, with the times, the window and the format it asks for; the file has the grid lines of the box and the index set.
What is missing: entries with unknown names, see `C96_unknown_type`, `C96_unknown_field`, `C96_unknown_direction`, `C96_unknown_viewer` and
`C96_false_unknown_names`, and files that cannot be created, see `C96_unopened`. -/
theorem C96_volume_partial (S : Setup L G axes) {writable : String → Bool} {node : ProbeNode K} {f : ℕ} {box : ℕ → K × K} {atol : K} {T : ProbeTimes K}
    {nSum : ℤ} {viewer : ViewerType} (h : AsksVolume L.dim node f box atol T nSum viewer)
    (hbox : ∀ d, d < L.dim → (box d).1 - atol ≤ (box d).2 + atol) {path : String} (hp : node.path = some path) (hw : writable path = true)
    (label : K → String) :
    ∃ P file, createProbe L axes writable node = .ok (.volume ⟨f, path, T⟩ viewer nSum P ⟨none, 0⟩, some file) ∧ Selects L G f box atol P ∧
      HoldsVolume label f viewer P [] file := by
  obtain ⟨P, _, h2, h3⟩ := volume_created S h hbox hp hw
  refine ⟨P, _, h3, h2, ?_⟩
  have hc : P.coord.length ≤ 3 := by rw [h2.grid.1]; exact S.dim_le
  have := holds_volume label f viewer hc []
  have e : addOutputs label f [] (newFile viewer P) = newFile viewer P := by cases viewer <;> simp [addOutputs, newFile]
  rwa [e] at this

/-- C96 for points; partial. An entry whose names are known, whose point is inside and whose file can be created gives a probe of the field at the point:
exactly one process interpolates, and the file is empty. What is missing: as in `C96_volume_partial`; points outside, see `C97_outside`. -/
theorem C96_point_partial (S : Setup L G axes) (hflat : L.dim = 2 → L.nProc 2 = 1) {writable : String → Bool} {node : ProbeNode K} {f : ℕ} {x : ℕ → K}
    {T : ProbeTimes K} (h : AsksPoint L.dim node f x T) (hx : Within L G f x) {path : String} (hp : node.path = some path) (hw : writable path = true) :
    ∃ ranks, createProbe L axes writable node = .ok (.point ⟨f, path, T⟩ ranks, some (.ascii [])) ∧ ranks.length = L.mpiSize ∧
      ∃ r0 < L.mpiSize, ∀ r P, ranks[r]? = some P → (P.interp.isSome = true ↔ r = r0) := by
  obtain ⟨r0, hr, hoff, P0, ys, hon, hys⟩ := within_run S hflat hx h.flat [fun _ => 0]
  have hall : ∀ r, ∃ P b, r < L.mpiSize → pointInit L axes f x r = .ok P ∧ isPointOnLocalProc L axes f r x = .ok b ∧ (P.interp.isSome = true ↔ r = r0) := by
    intro r
    by_cases hrn : r < L.mpiSize
    · have key : ∀ {o : PointProbe K × List (Option K)}, pointRun L axes f x r [fun _ => 0] = .ok o → ∀ z, o.2 = [z] →
          ∃ P b, pointInit L axes f x r = .ok P ∧ isPointOnLocalProc L axes f r x = .ok b ∧ (P.interp.isSome = true ↔ z.isSome = true) := by
        intro o ho z hz
        obtain ⟨P, b, h1, h2, h3⟩ := init_of_run ho
        refine ⟨P, b, h1, h3, ?_⟩
        obtain ⟨P', l⟩ := o
        cases hz
        obtain ⟨P1, h4, _⟩ := pointSteps_cons h2
        unfold pointMonitor at h4
        cases hi : P.interp with
        | none =>
          rw [hi] at h4
          have := Except.ok.inj h4
          simp only [Prod.mk.injEq] at this
          rw [← this.2]
          simp
        | some bx =>
          rw [hi] at h4
          obtain ⟨v, _, h5⟩ := bind_ok h4
          have := Except.ok.inj h5
          simp only [Prod.mk.injEq] at this
          rw [← this.2]
          simp
      by_cases hrr : r = r0
      · subst hrr
        match ys, hys with
        | [y], _ =>
          obtain ⟨P, b, a1, a2, a3⟩ := key hon (some y) rfl
          exact ⟨P, b, fun _ => ⟨a1, a2, by rw [a3]; simp⟩⟩
      · obtain ⟨P', hP'⟩ := hoff r hrn hrr
        obtain ⟨P, b, a1, a2, a3⟩ := key hP' none rfl
        exact ⟨P, b, fun _ => ⟨a1, a2, by rw [a3]; simp [hrr]⟩⟩
    · exact ⟨⟨none, fun _ => 0⟩, false, fun hh => absurd hh hrn⟩
  choose P b hPb using hall
  refine ⟨_, point_created S.layout.dim h hp hw (fun r hr => (hPb r hr).2.1) (fun r hr => (hPb r hr).1), by simp, r0, hr, ?_⟩
  intro r Q hQ
  obtain ⟨h1, h2⟩ := List.getElem?_eq_some_iff.1 hQ
  have hrn : r < L.mpiSize := by simpa using h1
  simp only [List.getElem_map, List.getElem_range] at h2
  rw [← h2]
  exact (hPb r hrn).2.2

/-- C96. The kinds `LINE` and `SURFACE` are reported. -/
theorem C96_kinds (writable : String → Bool) {node : ProbeNode K} (h : node.type = some "LINE" ∨ node.type = some "SURFACE") :
    createProbe L axes writable node = .error .argUnknownType := by
  unfold createProbe
  rcases h with h | h <;> rw [h] <;> rfl

/-- C96. An entry for a sub-volume or a point without field or without path is reported, as is a limit or a coordinate that is missing. -/
theorem C96_missing (writable : String → Bool) {node : ProbeNode K} (ht : node.type = none ∨ node.type = some "VOLUME" ∨ node.type = some "POINT") :
    (node.field = none ∨ node.path = none → createProbe L axes writable node = .error .exception) ∧
    (node.type ≠ some "POINT" → (∃ e ∈ node.box, e.2.1 = none ∨ e.2.2 = none) → createProbe L axes writable node = .error .exception) ∧
    (node.type = some "POINT" → (∃ d, d < L.dim ∧ node.loc[d]? = none) → createProbe L axes writable node = .error .exception) := by
  have hbase : (node.field = none ∨ node.path = none → probeBaseInit node = .error .exception) := by
    unfold probeBaseInit
    rintro (h | h) <;> rw [h]
    · rfl
    · cases node.field <;> rfl
  have hbase' : ∃ o, probeBaseInit node = o ∧ (o = .error .exception ∨ ∃ b, o = .ok b) := by
    refine ⟨_, rfl, ?_⟩
    unfold probeBaseInit
    cases node.field
    · exact Or.inl rfl
    · cases node.path
      · exact Or.inl rfl
      · exact Or.inr ⟨_, rfl⟩
  have hconv : probeVolumeInit L axes writable node = .error .exception → node.type ≠ some "POINT" →
      createProbe L axes writable node = .error .exception := by
    intro e hne
    have ht' : str2ProbeType (node.type.getD "VOLUME") = .VOLUME := by
      rcases ht with h | h | h
      · rw [h]; rfl
      · rw [h]; rfl
      · exact absurd h hne
    unfold createProbe probeConstruct
    rw [ht', e]
    rfl
  have hconp : probePointInit L axes writable node = .error .exception → node.type = some "POINT" →
      createProbe L axes writable node = .error .exception := by
    intro e hn
    unfold createProbe probeConstruct
    rw [hn, e]
    rfl
  refine ⟨fun h => ?_, fun hne hb => ?_, fun hn hl => ?_⟩
  · by_cases hn : node.type = some "POINT"
    · refine hconp ?_ hn
      unfold probePointInit
      rw [hbase h]
      rfl
    · refine hconv ?_ hn
      unfold probeVolumeInit
      rw [hbase h]
      rfl
  · refine hconv ?_ hne
    have hbox : ∀ (items : List (String × Option K × Option K)) (b : ℕ → K × K), (∃ e ∈ items, e.2.1 = none ∨ e.2.2 = none) →
        items.foldlM boxEntry b = .error .exception := by
      intro items
      induction items with
      | nil => rintro b ⟨e, he, _⟩; cases he
      | cons a items ih =>
        intro b hb
        rw [List.foldlM_cons]
        obtain ⟨s, lo, hi⟩ := a
        cases lo with
        | none => rfl
        | some lo =>
          cases hi with
          | none => rfl
          | some hi =>
            change List.foldlM boxEntry (Function.update b (str2dir s) (lo, hi)) items = _
            apply ih
            obtain ⟨e, he, h⟩ := hb
            rcases List.mem_cons.1 he with rfl | he
            · simp at h
            · exact ⟨e, he, h⟩
    obtain ⟨o, ho, hob⟩ := hbase'
    unfold probeVolumeInit
    rw [ho]
    rcases hob with rfl | ⟨b, rfl⟩
    · rfl
    · change (readBox node.box >>= _) = _
      unfold readBox
      rw [hbox _ _ hb]
      rfl
  · refine hconp ?_ hn
    have hloc : readLoc L.dim node.loc = .error .exception := by
      unfold readLoc
      obtain ⟨d, hd, hl⟩ := hl
      have : ∀ l : List ℕ, d ∈ l → l.mapM (fun d => required node.loc[d]?) = .error .exception := by
        intro l
        induction l with
        | nil => intro h; cases h
        | cons a l ih =>
          intro h
          rw [List.mapM_cons]
          cases ha : node.loc[a]? with
          | none => rfl
          | some v =>
            have hne : d ≠ a := by rintro rfl; rw [hl] at ha; cases ha
            change (List.mapM (fun d => required node.loc[d]?) l >>= _) = _
            rw [ih ((List.mem_cons.1 h).resolve_left hne)]
            rfl
      rw [this _ (List.mem_range.2 hd)]
      rfl
    obtain ⟨o, ho, hob⟩ := hbase'
    unfold probePointInit
    rw [ho]
    rcases hob with rfl | ⟨b, rfl⟩
    · rfl
    · change (readLoc L.dim node.loc >>= _) = _
      rw [hloc]
      rfl

/-- C96, complement: a type that is none of the four names gives a point probe. -/
theorem C96_unknown_type (writable : String → Bool) (node : ProbeNode K) {s : String} (h : s ∉ ["POINT", "LINE", "SURFACE", "VOLUME"]) :
    createProbe L axes writable { node with type := some s } = createProbe L axes writable { node with type := some "POINT" } := by
  simp only [List.mem_cons, List.not_mem_nil, or_false, not_or] at h
  have e : str2ProbeType s = .POINT := by
    unfold str2ProbeType
    rw [if_neg h.1, if_neg h.2.1, if_neg h.2.2.1, if_neg h.2.2.2]
  unfold createProbe
  simp only [Option.getD_some]
  rw [e]
  rfl

theorem createProbe_base (writable : String → Bool) (node : ProbeNode K) (field : Option String)
    (h : probeBaseInit { node with field := field } = probeBaseInit node) :
    createProbe L axes writable { node with field := field } = createProbe L axes writable node := by
  unfold createProbe probeConstruct probeVolumeInit probePointInit
  rw [h]

/-- C96, complement: a field that is none of the five names is taken for `u`. -/
theorem C96_unknown_field (writable : String → Bool) (node : ProbeNode K) {s : String} (h : s ∉ ["u", "v", "w", "p", "vertex"]) :
    createProbe L axes writable { node with field := some s } = createProbe L axes writable { node with field := some "u" } := by
  simp only [List.mem_cons, List.not_mem_nil, or_false, not_or] at h
  have e : str2fd s = 0 := by
    unfold str2fd
    rw [if_neg h.1, if_neg h.2.1, if_neg h.2.2.1, if_neg h.2.2.2.1, if_neg h.2.2.2.2]
  refine createProbe_base writable { node with field := some "u" } (some s) ?_
  unfold probeBaseInit
  simp only
  change (do
    let path ← required node.path
    pure ⟨str2fd s, path, _⟩ : Except Error (ProbeBase K)) = (do
    let path ← required node.path
    pure ⟨str2fd "u", path, _⟩ : Except Error (ProbeBase K))
  rw [e]
  rfl

/-- C96, complement: a direction of `box` that is none of the three names is taken for `x`. -/
theorem C96_unknown_direction (writable : String → Bool) (node : ProbeNode K) {s : String} (h : s ∉ ["x", "y", "z"])
    (l r : List (String × Option K × Option K)) (v : Option K × Option K) :
    createProbe L axes writable { node with box := l ++ (s, v) :: r } = createProbe L axes writable { node with box := l ++ ("x", v) :: r } := by
  simp only [List.mem_cons, List.not_mem_nil, or_false, not_or] at h
  have e : str2dir s = str2dir "x" := by
    unfold str2dir
    rw [if_neg h.1, if_neg h.2.1, if_neg h.2.2]
    rfl
  have hb : readBox (l ++ (s, v) :: r) = readBox (l ++ ("x", v) :: r) := by
    unfold readBox
    rw [List.foldlM_append, List.foldlM_append]
    congr 1
    funext b
    rw [List.foldlM_cons, List.foldlM_cons]
    have : boxEntry b (s, v) = boxEntry b ("x", v) := by
      unfold boxEntry
      simp only
      rw [e]
    rw [this]
  unfold createProbe probeConstruct probeVolumeInit probePointInit
  simp only
  rw [hb]
  rfl

/-- C96, complement: with a name of the viewer that is unknown, an entry that is otherwise in order ends in undefined behaviour; the error that the code
has for this case is never reached. -/
theorem C96_unknown_viewer (S : Setup L G axes) (writable : String → Bool) {node : ProbeNode K} {f : ℕ} {box : ℕ → K × K} {atol : K} {T : ProbeTimes K}
    {nSum : ℤ} {viewer : ViewerType} (h : AsksVolume L.dim node f box atol T nSum viewer)
    (hbox : ∀ d, d < L.dim → (box d).1 - atol ≤ (box d).2 + atol) {path : String} (hp : node.path = some path) {s : String} (hs : s ≠ "ascii" ∧ s ≠ "hdf5") :
    createProbe L axes writable { node with viewer := some s } = .error .ub := by
  have hdim := S.layout.dim
  obtain ⟨s', hs1, hs2⟩ := h.field
  obtain ⟨P, hP, _⟩ := C36_volume_probe S (str2fd_named hdim hs2).2 hbox
  obtain ⟨h1, h2, _⟩ := volumeInit_parts hP
  have ha : node.atol.getD (1 / 10 ^ 6) = atol := asked_default ⟨h.tolerance.1, fun e => (h.tolerance.2 e).trans (by norm_num)⟩
  have hv : viewerOption (some s) = none := by
    unfold viewerOption
    simp [hs.1, hs.2]
  have hinit : probeVolumeInit L axes writable { node with viewer := some s } = .error .ub := by
    unfold probeVolumeInit
    have hb : probeBaseInit { node with viewer := some s } = .ok ⟨f, path, T⟩ := base_asked (node := node) hdim h.field h.times hp
    rw [hb]
    simp only
    rw [hv]
    have hb : readBox node.box = .ok box := readBox_core box node.box _ h.listed fun d hd => (h.unlisted d hd).symm
    rw [hb, ha]
    change (getInfo L axes f box atol >>= fun M => createGrid L axes f M >>= fun _ => (.error .ub : Except Error (ProbeObject K × ProbeFile K))) = _
    rw [h1]
    change (createGrid L axes f P.mesh >>= fun _ => (.error .ub : Except Error (ProbeObject K × ProbeFile K))) = _
    rw [h2]
    rfl
  unfold createProbe probeConstruct
  have ht : str2ProbeType (node.type.getD "VOLUME") = .VOLUME := by rcases h.type with e | e <;> rw [e] <;> rfl
  simp only
  rw [ht, hinit]
  rfl

/-- C96, complement: if the file cannot be created, the error code is lost in the constructor and the run goes on with an incomplete probe. -/
theorem C96_unopened (S : Setup L G axes) (hflat : L.dim = 2 → L.nProc 2 = 1) {writable : String → Bool} {node : ProbeNode K} {path : String}
    (hp : node.path = some path) (hw : writable path = false) :
    (∀ f box atol T nSum viewer, AsksVolume L.dim node f box atol T nSum viewer → (∀ d, d < L.dim → (box d).1 - atol ≤ (box d).2 + atol) →
      createProbe L axes writable node = .ok (.incomplete ⟨f, path, T⟩, none)) ∧
    (∀ f x T, AsksPoint L.dim node f x T → Within L G f x → createProbe L axes writable node = .ok (.incomplete ⟨f, path, T⟩, none)) := by
  have hdim := S.layout.dim
  constructor
  · intro f box atol T nSum viewer h hbox
    obtain ⟨s', hs1, hs2⟩ := h.field
    obtain ⟨P, hP, _⟩ := C36_volume_probe S (str2fd_named hdim hs2).2 hbox
    obtain ⟨h1, h2, _⟩ := volumeInit_parts hP
    have ha : node.atol.getD (1 / 10 ^ 6) = atol := asked_default ⟨h.tolerance.1, fun e => (h.tolerance.2 e).trans (by norm_num)⟩
    have hbase : probeBaseInit node = .ok ⟨f, path, T⟩ := base_asked hdim h.field h.times hp
    have hinit : probeVolumeInit L axes writable node = .error .fileRead := by
      unfold probeVolumeInit
      rw [hbase]
      simp only
      have hb : readBox node.box = .ok box := readBox_core box node.box _ h.listed fun d hd => (h.unlisted d hd).symm
      simp only [bind, Except.bind, viewer_asked h, hb, ha, h1, h2, hw, if_true]
    unfold createProbe probeConstruct
    have ht : str2ProbeType (node.type.getD "VOLUME") = .VOLUME := by rcases h.type with e | e <;> rw [e] <;> rfl
    rw [ht, hinit, hbase]
    rfl
  · intro f x T h hx
    obtain ⟨s', hs1, hs2⟩ := h.field
    have hf := (str2fd_named hdim hs2).2
    have hbase : probeBaseInit node = .ok ⟨f, path, T⟩ := base_asked hdim h.field h.times hp
    obtain ⟨r0, hr, hoff, P0, ys, hon, hys⟩ := within_run S hflat hx h.flat []
    have hall : ∀ r, ∃ b, r < L.mpiSize → isPointOnLocalProc L axes f r x = .ok b := by
      intro r
      by_cases hrn : r < L.mpiSize
      · have : ∃ o, pointRun L axes f x r [] = .ok o := by
          by_cases hrr : r = r0
          · exact ⟨_, hrr ▸ hon⟩
          · obtain ⟨P, hP⟩ := hoff r hrn hrr
            exact ⟨_, hP⟩
        obtain ⟨o, ho⟩ := this
        obtain ⟨P, b, _, _, h3⟩ := init_of_run ho
        exact ⟨b, fun _ => h3⟩
      · exact ⟨false, fun hh => absurd hh hrn⟩
    choose b hb using hall
    have hinit : probePointInit L axes writable node = .error .fileRead := by
      unfold probePointInit
      rw [hbase]
      have hd : hasDMDA L f ≠ false := by unfold hasDMDA; simp [hf]
      simp only [bind, Except.bind, readLoc_asked h.loc h.flat, if_neg hd, mapM_ok (h := b) _ fun r hr => hb r (List.mem_range.1 hr), hw, if_true]
    unfold createProbe probeConstruct
    rw [h.type]
    simp only [Option.getD_some]
    change (do
      match ← ignoringCode (probePointInit L axes writable node) with
      | some x => return (x.1, some x.2)
      | none =>
        let base ← probeBaseInit node
        return (.incomplete base, none) : Except Error (ProbeObject K × Option (ProbeFile K))) = _
    rw [hinit, hbase]
    rfl

/-- C96, complement: no probe of a field that the mesh does not have is ever complete. -/
theorem C96_absent_field (writable : String → Bool) {node : ProbeNode K} {s : String} (hs : node.field = some s)
    (h : s = "vertex" ∧ L.dim ≤ 4 ∨ s = "w" ∧ L.dim = 2) (p : ProbeObject K) (file : ProbeFile K) :
    createProbe L axes writable node ≠ .ok (p, some file) := by
  have hno : ∀ base, probeBaseInit node = .ok base → hasDMDA L base.field = false := by
    intro base hb
    unfold probeBaseInit at hb
    rw [hs] at hb
    obtain ⟨f, h1, hb⟩ := bind_ok hb
    obtain ⟨path, h2, hb⟩ := bind_ok hb
    cases Except.ok.inj h1
    cases Except.ok.inj hb
    unfold hasDMDA
    rcases h with ⟨rfl, h⟩ | ⟨rfl, h⟩
    · have : str2fd "vertex" = 4 := rfl
      simp only [this]
      simp; omega
    · have : str2fd "w" = 2 := rfl
      simp only [this]
      simp; omega
  have hv : ∀ x, probeVolumeInit L axes writable node ≠ .ok x := by
    intro x hx
    unfold probeVolumeInit at hx
    obtain ⟨base, h1, hx⟩ := bind_ok hx
    obtain ⟨box, h2, hx⟩ := bind_ok hx
    obtain ⟨M, h3, hx⟩ := bind_ok hx
    obtain ⟨c, h4, hx⟩ := bind_ok hx
    rw [hno base h1] at hx
    split at hx
    · cases hx
    · by_cases hw : writable base.path = false
      · rw [if_pos hw] at hx; cases hx
      · rw [if_neg hw, if_pos rfl] at hx; cases hx
  have hpt : ∀ x, probePointInit L axes writable node ≠ .ok x := by
    intro x hx
    unfold probePointInit at hx
    obtain ⟨base, h1, hx⟩ := bind_ok hx
    obtain ⟨loc, h2, hx⟩ := bind_ok hx
    rw [hno base h1] at hx
    simp at hx
  have hcon : ∀ init : Except Error (ProbeObject K × ProbeFile K), (∀ x, init ≠ .ok x) → probeConstruct node init ≠ .ok (p, some file) := by
    intro init hi hc
    unfold probeConstruct at hc
    obtain ⟨o, h1, hc⟩ := bind_ok hc
    cases o with
    | none =>
      obtain ⟨b, _, hc⟩ := bind_ok hc
      have := Except.ok.inj hc
      simp at this
    | some x =>
      cases init with
      | ok y => exact hi y rfl
      | error e => cases e <;> cases h1
  unfold createProbe
  split
  · exact hcon _ hv
  · exact hcon _ hpt
  · intro hc; cases hc

/-- C96. If the solver starts, every entry was given to `createProbe`, in order, with its path below the output directory, and none was refused. -/
theorem C96_each (writable : String → Bool) (output : String) : ∀ (nodes : List (ProbeNode K)) (disk : ProbeDisk K) (ps : List (ProbeObject K))
    (disk' : ProbeDisk K), createProbes L axes writable output nodes disk = .ok (ps, disk') →
    List.Forall₂ (fun node p => ∃ path file, node.path = some path ∧
      createProbe L axes writable { node with path := some (output ++ "/" ++ path) } = .ok (p, file)) nodes ps
  | [], disk, ps, disk', h => by
    cases Except.ok.inj h
    exact .nil
  | node :: nodes, disk, ps, disk', h => by
    unfold createProbes at h
    obtain ⟨path, h1, h⟩ := bind_ok h
    obtain ⟨⟨p, file⟩, h2, h⟩ := bind_ok h
    obtain ⟨⟨qs, disk1⟩, h3, h⟩ := bind_ok h
    have := Except.ok.inj h
    simp only [Prod.mk.injEq] at this
    obtain ⟨rfl, rfl⟩ := this
    refine .cons ⟨path, file, ?_, h2⟩ (C96_each writable output nodes _ qs _ h3)
    cases hp : node.path with
    | none => rw [hp] at h1; cases h1
    | some q => rw [hp] at h1; rw [Except.ok.inj h1]

/-! ### C97 -/

theorem placed_volume {output path : String} {node : ProbeNode K} {dim f : ℕ} {box : ℕ → K × K} {atol : K} {T : ProbeTimes K} {nSum : ℤ} {viewer : ViewerType}
    (h : AsksVolume dim node f box atol T nSum viewer) : AsksVolume dim (placed output node path) f box atol T nSum viewer :=
  ⟨h.type, h.field, ⟨h.times.period, h.times.every, h.times.start, h.times.zero, h.times.stop, h.times.forever⟩, h.viewer, h.tolerance, h.window, h.listed,
    h.unlisted⟩

theorem placed_point {output path : String} {node : ProbeNode K} {dim f : ℕ} {x : ℕ → K} {T : ProbeTimes K} (h : AsksPoint dim node f x T) :
    AsksPoint dim (placed output node path) f x T :=
  ⟨h.type, h.field, ⟨h.times.period, h.times.every, h.times.start, h.times.zero, h.times.stop, h.times.forever⟩, h.loc, h.flat⟩

theorem answer_one (S : Setup L G axes) (hflat : L.dim = 2 → L.nProc 2 = 1) {writable : String → Bool} (label : K → String) {output path : String}
    {node : ProbeNode K} (hok : Answerable L G node) (hw : writable (output ++ "/" ++ path) = true) (h : List (Snapshot K)) :
    ∃ p file p' file', createProbe L axes writable (placed output node path) = .ok (p, some file) ∧ p.base.path = output ++ "/" ++ path ∧
      follow L label h p (some file) = .ok (p', some file') ∧ Answers L G label node h file' := by
  rcases hok with ⟨f, box, atol, T, nSum, viewer, hA, hbox, hn⟩ | ⟨f, x, T, hA, hx, hn⟩
  · obtain ⟨P, hP, hS, hc⟩ := volume_created S (placed_volume (output := output) (path := path) hA) hbox rfl hw
    obtain ⟨s, hs1, hs2⟩ := hA.field
    have hf := (str2fd_named S.layout.dim hs2).2
    have hrun : ∃ A outs, volumeMonitors L f T nSum P Accumulator.init h = .ok (A, outs) ∧ Outputs L f P T nSum h outs := by
      have parts : ∀ {Q : VolumeProbe K} {outs}, volumeRun L axes f box atol T nSum h = .ok (Q, outs) →
          Q = P ∧ ∃ A, volumeMonitors L f T nSum P Accumulator.init h = .ok (A, outs) := by
        intro Q outs hr
        unfold volumeRun at hr
        rw [hP] at hr
        obtain ⟨Q', e, hr⟩ := bind_ok hr
        cases Except.ok.inj e
        obtain ⟨⟨A, o⟩, e2, hr⟩ := bind_ok hr
        have := Except.ok.inj hr
        simp only [Prod.mk.injEq] at this
        obtain ⟨rfl, rfl⟩ := this
        exact ⟨rfl, A, e2⟩
      by_cases h0 : nSum = 0
      · subst h0
        obtain ⟨Q, outs, k1, _, k2⟩ := C37_no_window S hf hbox T hn h
        obtain ⟨rfl, A, k3⟩ := parts k1
        exact ⟨A, outs, k3, fun _ => k2, fun hne => absurd rfl hne⟩
      · obtain ⟨Q, outs, k1, _, k2⟩ := C37_window S hf hbox T hn h0 h
        obtain ⟨rfl, A, k3⟩ := parts k1
        exact ⟨A, outs, k3, fun hh => absurd hh h0, fun _ => k2⟩
    obtain ⟨A, outs, hm, ho⟩ := hrun
    have hk : ofKind viewer (newFile viewer P) := by cases viewer <;> trivial
    refine ⟨_, _, _, _, hc, rfl, follow_volume label ⟨f, output ++ "/" ++ path, T⟩ viewer nSum P Accumulator.init hk h A outs hm,
      Or.inl ⟨f, box, atol, T, nSum, viewer, P, outs, hA, hS, ho, ?_⟩⟩
    exact holds_volume label f viewer (by rw [hS.grid.1]; exact S.dim_le) outs
  · obtain ⟨s, hs1, hs2⟩ := hA.field
    have hf := (str2fd_named S.layout.dim hs2).2
    obtain ⟨r0, hr, hoff, P0, ys, hon, hys⟩ := within_run S hflat hx hA.flat ((dueSteps T h).map (fieldOf L.dim f))
    have hlen : ys.length = (dueSteps T h).length := by rw [← hys.length_eq, List.length_map]
    have hnone : ((dueSteps T h).map (fieldOf L.dim f)).map (fun _ => (none : Option K)) = ys.map fun _ => none := by
      rw [List.map_const', List.map_const', List.length_map, hlen]
    have hall : ∀ r, ∃ P b, r < L.mpiSize → pointInit L axes f x r = .ok P ∧ isPointOnLocalProc L axes f r x = .ok b ∧
        ∃ P', ((dueSteps T h).map (fieldOf L.dim f)).foldlM (pointStep L f r) (P, []) = .ok (P', ys.map fun y => if r = r0 then some y else none) := by
      intro r
      by_cases hrn : r < L.mpiSize
      · by_cases hrr : r = r0
        · subst hrr
          obtain ⟨P, b, h1, h2, h3⟩ := init_of_run hon
          refine ⟨P, b, fun _ => ⟨h1, h3, P0, ?_⟩⟩
          rw [h2]
          simp
        · obtain ⟨P', hP'⟩ := hoff r hrn hrr
          obtain ⟨P, b, h1, h2, h3⟩ := init_of_run hP'
          refine ⟨P, b, fun _ => ⟨h1, h3, P', ?_⟩⟩
          rw [h2, hnone]
          simp [hrr]
      · exact ⟨⟨none, fun _ => 0⟩, false, fun hh => absurd hh hrn⟩
    choose P b hPb using hall
    have hc := point_created S.layout.dim (placed_point (output := output) (path := path) hA) rfl hw (fun r hr => (hPb r hr).2.1) (fun r hr => (hPb r hr).1)
    obtain ⟨P', hfol⟩ := follow_point (L := L) label ⟨f, output ++ "/" ++ path, T⟩ hf hn hr h ys P [] hlen fun r hrn => (hPb r hrn).2.2
    refine ⟨_, _, _, _, hc, rfl, hfol, Or.inr ⟨f, x, T, hA, _, rfl, ?_⟩⟩
    rw [List.nil_append]
    rw [List.forall₂_map_left_iff] at hys
    clear * - hys
    generalize dueSteps T h = l at hys ⊢
    induction hys with
    | nil => exact .nil
    | cons h1 _ ih => exact .cons ⟨_, rfl, h1⟩ ih

theorem forall₂_of_exists {α β : Type} {R : α → β → Prop} : ∀ l : List α, (∀ a ∈ l, ∃ b, R a b) → ∃ bs, List.Forall₂ R l bs
  | [], _ => ⟨[], .nil⟩
  | a :: l, h => by
    obtain ⟨b, hb⟩ := h a (List.mem_cons_self ..)
    obtain ⟨bs, hbs⟩ := forall₂_of_exists l fun a ha => h a (List.mem_cons_of_mem _ ha)
    exact ⟨b :: bs, .cons hb hbs⟩

/-- C97, partial. A run with any number of probes whose entries are in order, whose files can be created and whose paths are all different, over any sequence of
time steps: no probe stops the run, each file is the answer to its entry (grid lines, index set and the samples or means for a sub-volume; one line with an
interpolated value for each step that is due for a point), and no other file is touched.
What is missing: probes that share a file, see `C97_false_shared_file`; points outside of the lines, see `C97_outside`; entries with unknown names and
files that cannot be created, see C96 and `C97_unopened`. -/
theorem C97_files_partial (S : Setup L G axes) (hflat : L.dim = 2 → L.nProc 2 = 1) (writable : String → Bool) (label : K → String) (output : String)
    (nodes : List (ProbeNode K)) (hok : ∀ node ∈ nodes, Answerable L G node)
    (hw : ∀ node ∈ nodes, ∃ path, node.path = some path ∧ writable (output ++ "/" ++ path) = true) (hnd : (nodes.map fun n => n.path).Nodup)
    (disk : ProbeDisk K) (h : List (Snapshot K)) :
    ∃ ps disk', probesRun L axes writable label output nodes disk h = .ok (ps, disk') ∧
      (∀ node ∈ nodes, ∀ path, node.path = some path → ∃ file, disk' (output ++ "/" ++ path) = some file ∧ Answers L G label node h file) ∧
      ∀ other, (∀ node ∈ nodes, ∀ path, node.path = some path → other ≠ output ++ "/" ++ path) → disk' other = disk other := by
  obtain ⟨xs, hxs⟩ := forall₂_of_exists (R := fun (node : ProbeNode K) (x : (ProbeObject K × ProbeFile K) × (ProbeObject K × ProbeFile K)) =>
      ∃ path, node.path = some path ∧ createProbe L axes writable (placed output node path) = .ok (x.1.1, some x.1.2) ∧
        x.1.1.base.path = output ++ "/" ++ path ∧ follow L label h x.1.1 (some x.1.2) = .ok (x.2.1, some x.2.2) ∧ Answers L G label node h x.2.2) nodes (by
    intro node hn
    obtain ⟨path, h1, h2⟩ := hw node hn
    obtain ⟨p, f, p', f', a1, a2, a3, a4⟩ := answer_one S hflat label (hok node hn) h2 h
    exact ⟨((p, f), (p', f')), path, h1, a1, a2, a3, a4⟩)
  have hpaths : xs.map (fun x => some (x.1.1.base.path)) = nodes.map fun n => n.path.map fun p => output ++ "/" ++ p := by
    clear * - hxs
    induction hxs with
    | nil => rfl
    | cons h1 _ ih =>
      obtain ⟨path, e1, _, e2, _⟩ := h1
      rw [List.map_cons, List.map_cons, ih, e1, e2]
      rfl
  have hnd' : ((xs.map (·.1)).map fun c => c.1.base.path).Nodup := by
    have h1 : (nodes.map fun n => n.path.map fun p => output ++ "/" ++ p).Nodup := by
      have : (nodes.map fun n => n.path.map fun p => output ++ "/" ++ p) = (nodes.map fun n => n.path).map (Option.map fun p => output ++ "/" ++ p) := by
        rw [List.map_map]; rfl
      rw [this]
      refine hnd.map ?_
      refine Option.map_injective fun a b e => ?_
      exact String.append_right_inj _ |>.1 e
    rw [← hpaths] at h1
    have h2 : xs.map (fun x => some (x.1.1.base.path)) = ((xs.map (·.1)).map fun c => c.1.base.path).map some := by
      rw [List.map_map, List.map_map]; rfl
    rw [h2] at h1
    exact List.Nodup.of_map _ h1
  obtain ⟨disk1, c1, c2, c3⟩ := createProbes_ok (L := L) (axes := axes) writable output nodes (xs.map (·.1)) disk hnd' (by
    rw [List.forall₂_map_right_iff]
    exact hxs.imp fun node x hx => by
      obtain ⟨path, e1, e2, _⟩ := hx
      exact ⟨path, e1, e2⟩)
  have hfol : List.Forall₂ (fun p r => follow L label h p (disk1 p.base.path) = .ok r) ((xs.map (·.1)).map (·.1))
      (xs.map fun x => (x.2.1, some x.2.2)) := by
    rw [List.map_map, List.forall₂_map_left_iff, List.forall₂_map_right_iff, List.forall₂_same]
    intro x hx
    have : ∃ node, ∃ path, node.path = some path ∧ createProbe L axes writable (placed output node path) = .ok (x.1.1, some x.1.2) ∧
        x.1.1.base.path = output ++ "/" ++ path ∧ follow L label h x.1.1 (some x.1.2) = .ok (x.2.1, some x.2.2) ∧ Answers L G label node h x.2.2 := by
      clear * - hxs hx
      induction hxs with
      | nil => cases hx
      | cons h1 _ ih =>
        rcases List.mem_cons.1 hx with rfl | hx
        · exact ⟨_, h1⟩
        · exact ih hx
    obtain ⟨node, path, _, _, _, e, _⟩ := this
    change follow L label h x.1.1 (disk1 x.1.1.base.path) = _
    rw [c2 x.1 (List.mem_map_of_mem hx)]
    exact e
  obtain ⟨disk', g1, g2, g3⟩ := follow_all label h _ _ disk1 (by simpa [List.map_map, Function.comp_def] using hnd') hfol
  refine ⟨(xs.map fun x => (x.2.1, some x.2.2)).map (·.1), disk', ?_, ?_, ?_⟩
  · unfold probesRun
    rw [c1]
    exact g1
  · intro node hn path hp
    rw [List.map_map, List.forall₂_map_left_iff, List.forall₂_map_right_iff, List.forall₂_same] at g2
    have : ∃ x ∈ xs, ∃ path, node.path = some path ∧ createProbe L axes writable (placed output node path) = .ok (x.1.1, some x.1.2) ∧
        x.1.1.base.path = output ++ "/" ++ path ∧ follow L label h x.1.1 (some x.1.2) = .ok (x.2.1, some x.2.2) ∧ Answers L G label node h x.2.2 := by
      clear * - hxs hn
      induction hxs with
      | nil => cases hn
      | cons h1 _ ih =>
        rcases List.mem_cons.1 hn with rfl | hn
        · exact ⟨_, List.mem_cons_self .., h1⟩
        · obtain ⟨x, hx, e⟩ := ih hn
          exact ⟨x, List.mem_cons_of_mem _ hx, e⟩
    obtain ⟨x, hx, path', e1, _, e2, _, e3⟩ := this
    rw [hp] at e1
    cases e1
    refine ⟨x.2.2, ?_, e3⟩
    have := g2 x hx
    change disk' x.1.1.base.path = _ at this
    rw [← e2, this]
  · intro other ho
    have hno : other ∉ (xs.map (·.1)).map fun c => c.1.base.path := by
      intro hm
      have h1 : some other ∈ xs.map fun x => some (x.1.1.base.path) := by
        rw [List.map_map] at hm
        obtain ⟨x, hx, e⟩ := List.mem_map.1 hm
        exact List.mem_map.2 ⟨x, hx, by rw [← e]; rfl⟩
      rw [hpaths] at h1
      obtain ⟨node, hn, e⟩ := List.mem_map.1 h1
      obtain ⟨path, hp, e'⟩ := Option.map_eq_some_iff.1 e
      exact ho node hn path hp e'.symm
    rw [g3 other (by simpa [List.map_map, Function.comp_def] using hno), c3 other hno]

/-- C97, complement: an object whose file could not be created ends the run with undefined behaviour at the first step that is due. -/
theorem C97_unopened (label : K → String) (base : ProbeBase K) (hf : base.field < L.dim ∨ base.field = 3) (hn : base.times.nMonitor ≠ 0)
    (file : Option (ProbeFile K)) (h : List (Snapshot K)) :
    (dueSteps base.times h = [] → follow L label h (.incomplete base) file = .ok (.incomplete base, file)) ∧
    (dueSteps base.times h ≠ [] → follow L label h (.incomplete base) file = .error .ub) := by
  induction h with
  | nil => exact ⟨fun _ => rfl, fun hne => absurd rfl hne⟩
  | cons s h ih =>
    rw [follow_cons]
    obtain ⟨c1, c2⟩ := C38_sampling_times hf base.times hn s
    by_cases hd : Due base.times s
    · have e : dueSteps base.times (s :: h) = s :: dueSteps base.times h := by simp [dueSteps, hd]
      rw [e]
      refine ⟨fun hh => (by cases hh), fun _ => ?_⟩
      unfold ProbeObject.monitor
      simp only
      rw [c1 hd]
      rfl
    · have e : dueSteps base.times (s :: h) = dueSteps base.times h := by simp [dueSteps, hd]
      rw [e]
      have : ProbeObject.monitor L label s (.incomplete base) file = .ok (.incomplete base, file) := by
        unfold ProbeObject.monitor
        simp only
        rw [c2 hd]
        rfl
      rw [this]
      exact ih

/-- no process has the point: nothing is printed -/
theorem follow_nobody (label : K → String) (base : ProbeBase K) (hf : base.field < L.dim ∨ base.field = 3) (hn : base.times.nMonitor ≠ 0) :
    ∀ (h : List (Snapshot K)) (ranks : List (PointProbe K)) (b : List (ProbeBlock K)), (∀ P ∈ ranks, P.interp = none) →
    ∃ ranks', follow L label h (.point base ranks) (some (.ascii b)) = .ok (.point base ranks', some (.ascii b)) := by
  intro h
  induction h with
  | nil => exact fun ranks b _ => ⟨ranks, rfl⟩
  | cons s h ih =>
    intro ranks b hr
    rw [follow_cons]
    obtain ⟨c1, c2⟩ := C38_sampling_times hf base.times hn s
    by_cases hd : Due base.times s
    · unfold ProbeObject.monitor
      simp only
      rw [c1 hd]
      have hm : ∀ q : ℤ → K, ranks.zipIdx.mapM (fun x => pointMonitor L base.field x.2 x.1 q) =
          .ok (ranks.zipIdx.map fun x => (⟨none, scatterLocal L base.field x.2 q x.1.svec⟩, none)) := by
        intro q
        refine mapM_ok _ fun x hx => ?_
        have hx' : x.1 ∈ ranks := by
          obtain ⟨P, i⟩ := x
          exact List.fst_mem_of_mem_zipIdx hx
        unfold pointMonitor
        rw [hr _ hx']
      simp only [bind, Except.bind, hm, pure, Except.pure]
      have h0 : ∀ l : List (PointProbe K × ℕ), ∀ q : ℤ → K,
          (l.map fun x => ((⟨none, scatterLocal L base.field x.2 q x.1.svec⟩, none) : PointProbe K × Option K)).filterMap (·.2) = [] := by
        intro l q
        induction l with
        | nil => rfl
        | cons a l ih => simp
      simp only [h0, List.map_nil, List.append_nil]
      refine ih _ b ?_
      intro P hP
      simp only [List.map_map, List.mem_map, Function.comp_def] at hP
      obtain ⟨x, _, rfl⟩ := hP
      rfl
    · have : ProbeObject.monitor L label s (.point base ranks) (some (.ascii b)) = .ok (.point base ranks, some (.ascii b)) := by
        unfold ProbeObject.monitor
        simp only
        rw [c2 hd]
        rfl
      rw [this]
      exact ih ranks b hr

/-- C97, complement: a probe of a velocity component at a point that is not between the lines of the component is created without complaint, and its file
stays empty during any run. -/
theorem C97_outside (S : Setup L G axes) {writable : String → Bool} (label : K → String) {node : ProbeNode K} {f : ℕ} (hf : f < L.dim) {x : ℕ → K}
    {T : ProbeTimes K} (hA : AsksPoint L.dim node f x T) (hn : T.nMonitor ≠ 0) {path : String} (hp : node.path = some path)
    (hw : writable path = true) {d : ℕ} (hd : d < L.dim) (hx : x d < G.coord f d 0 ∨ G.coord f d (L.n f d) ≤ x d) (h : List (Snapshot K)) :
    ∃ p p', createProbe L axes writable node = .ok (p, some (.ascii [])) ∧ follow L label h p (some (.ascii [])) = .ok (p', some (.ascii [])) := by
  have hon : ∀ r, isPointOnLocalProc L axes f r x = .ok false := C35_outside S hf hd hx
  have hc := point_created S.layout.dim hA hp hw (fun r _ => hon r) (P := fun _ => ⟨none, fun _ => 0⟩) (fun r _ => by
    unfold pointInit
    rw [hon r]
    rfl)
  obtain ⟨ranks', h'⟩ := follow_nobody (L := L) label ⟨f, path, T⟩ (Or.inl hf) hn h ((List.range L.mpiSize).map fun _ => ⟨none, fun _ => 0⟩) [] (by
    intro P hP
    obtain ⟨r, _, rfl⟩ := List.mem_map.1 hP
    rfl)
  exact ⟨_, _, hc, h'⟩

/-! ### Examples -/

/-- A pressure probe in the box [1, 5] × [0, 1], in the default format, with means over two samples. -/
def volumeNode : ProbeNode ℚ :=
  { type := none, field := some "p", path := some "p.dat", nSum := some 2, box := [("x", some 1, some 5), ("y", some 0, some 1)] }

/-- A probe of the first component at the point (3/2, 2), every second step. -/
def pointNode : ProbeNode ℚ := { type := some "POINT", field := some "u", path := some "u.dat", nMonitor := some 2, loc := [3/2, 2] }

theorem volumeNode_asks : AsksVolume 2 volumeNode 3 exampleBox (1/1000000) ⟨1, 0, 1000000000000⟩ 2 .ascii where
  type := Or.inl rfl
  field := ⟨"p", rfl, rfl⟩
  times := ⟨fun _ h => (by cases h), fun _ => rfl, fun _ h => (by cases h), fun _ => rfl, fun _ h => (by cases h), fun _ => rfl⟩
  viewer := Or.inl ⟨rfl, Or.inl rfl⟩
  tolerance := ⟨fun _ h => (by cases h), fun _ => rfl⟩
  window := ⟨fun m h => (by cases h; rfl), fun h => by cases h⟩
  listed := by
    intro e he
    simp only [volumeNode, List.mem_cons, List.not_mem_nil, or_false] at he
    rcases he with rfl | rfl
    · exact ⟨0, 1, 5, rfl, rfl, rfl, rfl⟩
    · exact ⟨1, 0, 1, rfl, rfl, rfl, rfl⟩
  unlisted := by
    intro d hd
    have h0 : d ≠ 0 := by rintro rfl; exact hd ("x", some 1, some 5) (by simp [volumeNode]) rfl
    have h1 : d ≠ 1 := by rintro rfl; exact hd ("y", some 0, some 1) (by simp [volumeNode]) rfl
    simp [exampleBox, h0, h1]

theorem pointNode_asks : AsksPoint 2 pointNode 0 (planePoint (3/2) 2) ⟨2, 0, 1000000000000⟩ where
  type := rfl
  field := ⟨"u", rfl, rfl⟩
  times := ⟨fun _ h => (by cases h; rfl), fun h => (by cases h), fun _ h => (by cases h), fun _ => rfl, fun _ h => (by cases h), fun _ => rfl⟩
  loc := by intro d hd; interval_cases d <;> rfl
  flat := by
    intro d hd
    have h0 : d ≠ 0 := by omega
    have h1 : d ≠ 1 := by omega
    simp [planePoint, h0, h1]

theorem exampleBox_ordered : ∀ d, d < (exampleWalls 2 2).dim → (exampleBox d).1 - 1/1000000 ≤ (exampleBox d).2 + 1/1000000 := by
  intro d hd
  change d < 2 at hd
  interval_cases d <;> simp [exampleBox] <;> norm_num

theorem pointNode_within : Within (exampleWalls 2 2) exampleWallsGeom 0 (planePoint (3/2) 2) := by
  refine Or.inl ⟨by decide, fun d hd => ?_⟩
  change d < 2 at hd
  interval_cases d <;> exact ⟨by decide +kernel, by decide +kernel⟩

example (label : ℚ → String) : ∃ P file, createProbe (exampleWalls 2 2) exampleAxes (fun _ => true) volumeNode =
      .ok (.volume ⟨3, "p.dat", ⟨1, 0, 1000000000000⟩⟩ .ascii 2 P ⟨none, 0⟩, some file) ∧
    Selects (exampleWalls 2 2) exampleWallsGeom 3 exampleBox (1/1000000) P ∧ HoldsVolume label 3 .ascii P [] file :=
  C96_volume_partial (exampleWalls_setup 2 2 (by omega) (by omega)) volumeNode_asks exampleBox_ordered rfl rfl label

example : ∃ ranks, createProbe (exampleWalls 2 2) exampleAxes (fun _ => true) pointNode =
      .ok (.point ⟨0, "u.dat", ⟨2, 0, 1000000000000⟩⟩ ranks, some (.ascii [])) ∧ ranks.length = 4 ∧
    ∃ r0 < 4, ∀ r P, ranks[r]? = some P → (P.interp.isSome = true ↔ r = r0) :=
  C96_point_partial (exampleWalls_setup 2 2 (by omega) (by omega)) (fun _ => rfl) pointNode_asks pointNode_within rfl rfl

example : createProbe (exampleWalls 2 2) exampleAxes (fun _ => true) { pointNode with type := some "LINE" } = .error .argUnknownType :=
  C96_kinds _ (Or.inl rfl)

example : createProbe (exampleWalls 2 2) exampleAxes (fun _ => true) { pointNode with loc := [3/2] } = .error .exception :=
  (C96_missing _ (Or.inr (Or.inr rfl))).2.2 rfl ⟨1, by decide, rfl⟩

example : createProbe (exampleWalls 2 2) exampleAxes (fun _ => true) { volumeNode with box := [("x", some 1, none)] } = .error .exception :=
  (C96_missing _ (Or.inl rfl)).2.1 (by decide) ⟨("x", some 1, none), by simp, Or.inr rfl⟩

example : createProbe (exampleWalls 2 2) exampleAxes (fun _ => true) { volumeNode with path := none } = .error .exception :=
  (C96_missing _ (Or.inl rfl)).1 (Or.inr rfl)

/-- `point` in lower case with the keys of a point probe. -/
example : createProbe (exampleWalls 2 2) exampleAxes (fun _ => true) { pointNode with type := some "point" } =
    createProbe (exampleWalls 2 2) exampleAxes (fun _ => true) { pointNode with type := some "POINT" } :=
  C96_unknown_type _ pointNode (by decide)

example : createProbe (exampleWalls 2 2) exampleAxes (fun _ => true) { volumeNode with viewer := some "HDF5" } = .error .ub :=
  C96_unknown_viewer (exampleWalls_setup 2 2 (by omega) (by omega)) _ volumeNode_asks exampleBox_ordered rfl (by decide)

example : createProbe (exampleWalls 2 2) exampleAxes (fun _ => true) { volumeNode with box := [] ++ ("X", some 1, some 5) :: [("y", some 0, some 1)] } =
    createProbe (exampleWalls 2 2) exampleAxes (fun _ => true) { volumeNode with box := [] ++ ("x", some 1, some 5) :: [("y", some 0, some 1)] } :=
  C96_unknown_direction _ volumeNode (by decide) [] _ _

example (p : ProbeObject ℚ) (file : ProbeFile ℚ) : createProbe (exampleWalls 2 2) exampleAxes (fun _ => true) { pointNode with field := some "w" } ≠ .ok (p, some file) :=
  C96_absent_field _ rfl (Or.inr ⟨rfl, rfl⟩) p file

/-- C96 is false for names and files that are wrong: an entry with the field `pressure` is accepted and gives a probe of `u`, and
an entry whose file cannot be created is accepted. -/
theorem C96_false_unknown_names : (∃ P file, createProbe (exampleWalls 2 2) exampleAxes (fun _ => true) { volumeNode with field := some "pressure" } =
      .ok (.volume ⟨0, "p.dat", ⟨1, 0, 1000000000000⟩⟩ .ascii 2 P ⟨none, 0⟩, some file)) ∧
    createProbe (exampleWalls 2 2) exampleAxes (fun _ => false) volumeNode = .ok (.incomplete ⟨3, "p.dat", ⟨1, 0, 1000000000000⟩⟩, none) := by
  refine ⟨?_, ?_⟩
  · rw [C96_unknown_field (fun _ => true) volumeNode (s := "pressure") (by decide)]
    have hA : AsksVolume 2 { volumeNode with field := some "u" } 0 exampleBox (1/1000000) ⟨1, 0, 1000000000000⟩ 2 .ascii :=
      ⟨volumeNode_asks.type, ⟨"u", rfl, rfl⟩, ⟨volumeNode_asks.times.period, volumeNode_asks.times.every, volumeNode_asks.times.start,
        volumeNode_asks.times.zero, volumeNode_asks.times.stop, volumeNode_asks.times.forever⟩, volumeNode_asks.viewer, volumeNode_asks.tolerance,
        volumeNode_asks.window, volumeNode_asks.listed, volumeNode_asks.unlisted⟩
    obtain ⟨P, file, h, _⟩ := C96_volume_partial (exampleWalls_setup 2 2 (by omega) (by omega)) hA exampleBox_ordered (writable := fun _ => true) rfl rfl
      (fun _ => "")
    exact ⟨P, file, h⟩
  · exact (C96_unopened (exampleWalls_setup 2 2 (by omega) (by omega)) (fun _ => rfl) rfl rfl).1 _ _ _ _ _ _ volumeNode_asks exampleBox_ordered

example : createProbe (exampleWalls 2 2) exampleAxes (fun _ => false) pointNode = .ok (.incomplete ⟨0, "u.dat", ⟨2, 0, 1000000000000⟩⟩, none) :=
  (C96_unopened (exampleWalls_setup 2 2 (by omega) (by omega)) (fun _ => rfl) rfl rfl).2 _ _ _ pointNode_asks pointNode_within

/-- Both probes during any run on 2 × 2 processes. -/
example (label : ℚ → String) (disk : ProbeDisk ℚ) (h : List (Snapshot ℚ)) :
    ∃ ps disk', probesRun (exampleWalls 2 2) exampleAxes (fun _ => true) label "output" [volumeNode, pointNode] disk h = .ok (ps, disk') ∧
      ∃ file file', disk' "output/p.dat" = some file ∧ Answers (exampleWalls 2 2) exampleWallsGeom label volumeNode h file ∧
        disk' "output/u.dat" = some file' ∧ Answers (exampleWalls 2 2) exampleWallsGeom label pointNode h file' := by
  obtain ⟨ps, disk', h1, h2, _⟩ := C97_files_partial (exampleWalls_setup 2 2 (by omega) (by omega)) (fun _ => rfl) (fun _ => true) label "output"
    [volumeNode, pointNode] (by
      intro node hn
      simp only [List.mem_cons, List.not_mem_nil, or_false] at hn
      rcases hn with rfl | rfl
      · exact Or.inl ⟨_, _, _, _, _, _, volumeNode_asks, exampleBox_ordered, by decide⟩
      · exact Or.inr ⟨_, _, _, pointNode_asks, pointNode_within, by decide⟩) (by
      intro node hn
      simp only [List.mem_cons, List.not_mem_nil, or_false] at hn
      rcases hn with rfl | rfl
      · exact ⟨_, rfl, rfl⟩
      · exact ⟨_, rfl, rfl⟩) (by decide) disk h
  obtain ⟨f1, a1, a2⟩ := h2 volumeNode (by simp) _ rfl
  obtain ⟨f2, b1, b2⟩ := h2 pointNode (by simp) _ rfl
  exact ⟨ps, disk', h1, f1, f2, a1, a2, b1, b2⟩

/-- Two steps: the file of the point probe has one line, that of the volume probe one mean. -/
example : (probesRun (exampleWalls 2 2) exampleAxes (fun _ => true) (fun _ => "") "output" [volumeNode, pointNode] (fun _ => none)
      [⟨1, 1/10, fun _ => 3, fun _ => 10⟩, ⟨2, 2/10, fun _ => 4, fun _ => 20⟩]).map (fun o => (o.2 "output/p.dat", o.2 "output/u.dat")) =
    .ok (some (.ascii [.vector "x" [2, 9/2], .vector "y" [1/2], .indices [1, 2], .time (2/10), .count 2, .vector "" [15, 15]]),
      some (.ascii [.line (2/10) 4])) := by decide +kernel

/-- A probe of the first component between the wall and the first line. -/
def nearNode : ProbeNode ℚ := { type := some "POINT", field := some "u", path := some "u.dat", loc := [2, 1/4] }

theorem nearNode_asks : AsksPoint 2 nearNode 0 (planePoint 2 (1/4)) ⟨1, 0, 1000000000000⟩ where
  type := rfl
  field := ⟨"u", rfl, rfl⟩
  times := ⟨fun _ h => (by cases h), fun _ => rfl, fun _ h => (by cases h), fun _ => rfl, fun _ h => (by cases h), fun _ => rfl⟩
  loc := by intro d hd; interval_cases d <;> rfl
  flat := by
    intro d hd
    have h0 : d ≠ 0 := by omega
    have h1 : d ≠ 1 := by omega
    simp [planePoint, h0, h1]

example (label : ℚ → String) (h : List (Snapshot ℚ)) : ∃ p p', createProbe (exampleWalls 2 1) exampleAxes (fun _ => true) nearNode =
      .ok (p, some (.ascii [])) ∧ follow (exampleWalls 2 1) label h p (some (.ascii [])) = .ok (p', some (.ascii [])) :=
  C97_outside (exampleWalls_setup 2 1 (by omega) le_rfl) label (by decide) nearNode_asks (by decide) (path := "u.dat") rfl rfl (d := 1) (by decide)
    (Or.inl (by decide +kernel)) h

example (label : ℚ → String) : follow (exampleWalls 2 2) label [⟨1, 1/10, fun _ => 3, fun _ => 10⟩] (.incomplete ⟨3, "p.dat", ⟨1, 0, 1000⟩⟩) none = .error .ub :=
  (C97_unopened label ⟨3, "p.dat", ⟨1, 0, 1000⟩⟩ (Or.inr rfl) (by decide) none _).2 (by decide +kernel)

/-- C97 is false for probes that share a file: of two probes in the boxes [1, 5] × [0, 1] and [1, 3] × [0, 1] with the same path, the file has the grid
lines and indices of the second only, and the samples of both one after the other. -/
theorem C97_false_shared_file : (probesRun (exampleWalls 2 2) exampleAxes (fun _ => true) (fun _ => "") "output"
      [{ volumeNode with nSum := none }, { volumeNode with nSum := none, box := [("x", some 1, some 3), ("y", some 0, some 1)] }] (fun _ => none)
      [⟨1, 1/10, fun _ => 3, fun _ => 10⟩]).map (fun o => o.2 "output/p.dat") =
    .ok (some (.ascii [.vector "x" [2], .vector "y" [1/2], .indices [1], .time (1/10), .vector "" [10, 10], .time (1/10), .vector "" [10]])) := by
  decide +kernel

end PetIBM
