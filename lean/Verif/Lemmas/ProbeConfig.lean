/-
Lemmas for the creation of probes and for their files.
-/
import Verif.Spec.ProbeConfig
import Verif.Props.ProbeVolume
import Verif.Lemmas.NavierStokesRun
import Verif.Lemmas.DeltaRow

set_option linter.unusedSectionVars false

namespace PetIBM

open Spec Layout

variable {K : Type} [Field K] [LinearOrder K] [IsStrictOrderedRing K]
variable {L : Layout} {G : Geom K} {axes : ℕ → Axis K}

/-! ### Reading the configuration -/

theorem str2dir_named {s : String} {d : ℕ} (h : dirNamed s = some d) : str2dir s = d := by
  unfold dirNamed at h
  split at h <;> simp_all [str2dir]

theorem str2fd_named {dim : ℕ} (hdim : dim = 2 ∨ dim = 3) {s : String} {f : ℕ} (h : fieldNamed dim s = some f) :
    str2fd s = f ∧ (f < dim ∨ f = 3) := by
  unfold fieldNamed at h
  split at h
  · cases h; exact ⟨rfl, by omega⟩
  · cases h; exact ⟨rfl, by omega⟩
  · split_ifs at h with h3
    cases h; exact ⟨rfl, by omega⟩
  · cases h; exact ⟨rfl, by omega⟩
  · cases h

theorem readBox_core (box : ℕ → K × K) : ∀ (items : List (String × Option K × Option K)) (b : ℕ → K × K),
    (∀ e ∈ items, ∃ d lo hi, dirNamed e.1 = some d ∧ e.2.1 = some lo ∧ e.2.2 = some hi ∧ box d = (lo, hi)) →
    (∀ d, (∀ e ∈ items, dirNamed e.1 ≠ some d) → b d = box d) → items.foldlM boxEntry b = .ok box
  | [], b, _, h => by
    have : b = box := funext fun d => h d fun e he => by cases he
    rw [this]; rfl
  | e :: items, b, hl, hu => by
    obtain ⟨d, lo, hi, h1, h2, h3, h4⟩ := hl e (List.mem_cons_self ..)
    rw [List.foldlM_cons]
    have he : boxEntry b e = .ok (Function.update b d (lo, hi)) := by
      unfold boxEntry
      rw [h2, h3, str2dir_named h1]
      rfl
    rw [he]
    refine readBox_core box items _ (fun e' he' => hl e' (List.mem_cons_of_mem _ he')) fun d' hd' => ?_
    by_cases hdd : d' = d
    · subst hdd
      rw [Function.update_self, h4]
    · rw [Function.update_of_ne hdd]
      refine hu d' fun e' he' => ?_
      rcases List.mem_cons.1 he' with rfl | he'
      · rw [h1]
        intro h
        exact hdd (Option.some.inj h).symm
      · exact hd' e' he'

theorem times_asked {node : ProbeNode K} {T : ProbeTimes K} (h : AsksTimes node T) :
    (⟨node.nMonitor.getD 1, node.tStart.getD 0, node.tEnd.getD (10 ^ 12)⟩ : ProbeTimes K) = T := by
  obtain ⟨a, b, c⟩ := T
  congr 1
  · cases hn : node.nMonitor with
    | none => exact (h.every hn).symm
    | some n => exact (h.period n hn).symm
  · cases hn : node.tStart with
    | none => exact (h.zero hn).symm
    | some n => exact (h.start n hn).symm
  · cases hn : node.tEnd with
    | none =>
      have := h.forever hn
      change c = _ at this
      rw [this]
      norm_num
    | some n => exact (h.stop n hn).symm

theorem base_asked (hdim : L.dim = 2 ∨ L.dim = 3) {node : ProbeNode K} {f : ℕ} {T : ProbeTimes K}
    (hf : ∃ s, node.field = some s ∧ fieldNamed L.dim s = some f) (hT : AsksTimes node T) {path : String} (hp : node.path = some path) :
    probeBaseInit node = .ok ⟨f, path, T⟩ := by
  obtain ⟨s, h1, h2⟩ := hf
  unfold probeBaseInit
  rw [h1, hp, ← times_asked hT]
  change Except.ok _ = _
  rw [(str2fd_named hdim h2).1]

/-! ### Creation -/

theorem volumeInit_parts {f : ℕ} {box : ℕ → K × K} {atol : K} {P : VolumeProbe K} (h : volumeInit L axes f box atol = .ok P) :
    getInfo L axes f box atol = .ok P.mesh ∧ createGrid L axes f P.mesh = .ok P.coord ∧
    ∃ s, (List.range L.mpiSize).mapM (fun r => createIS L f P.mesh r) = .ok s ∧ P.isNatural = s.flatMap (·.1) ∧ P.isPetsc = s.flatMap (·.2) := by
  unfold volumeInit at h
  obtain ⟨M, h1, h⟩ := bind_ok h
  obtain ⟨c, h2, h⟩ := bind_ok h
  obtain ⟨s, h3, h⟩ := bind_ok h
  have := Except.ok.inj h
  subst this
  exact ⟨h1, h2, s, h3, rfl, rfl⟩

/-- the file of a new volume probe -/
def newFile (viewer : ViewerType) (P : VolumeProbe K) : ProbeFile K :=
  match viewer with
  | .ascii => .ascii (List.zipWith .vector probeDirNames P.coord ++ [.indices P.isNatural])
  | .hdf5 => .hdf5 (List.zip probeDirNames P.coord) (some P.isNatural) []

theorem asked_default {α : Type} {x : Option α} {d y : α} (h : (∀ a, x = some a → y = a) ∧ (x = none → y = d)) : x.getD d = y := by
  cases hx : x with
  | none => exact (h.2 hx).symm
  | some a => exact (h.1 a hx).symm

theorem viewer_asked {dim : ℕ} {node : ProbeNode K} {f : ℕ} {box : ℕ → K × K} {atol : K} {T : ProbeTimes K} {nSum : ℤ} {viewer : ViewerType}
    (h : AsksVolume dim node f box atol T nSum viewer) : viewerOption node.viewer = some viewer := by
  rcases h.viewer with ⟨rfl, e | e⟩ | ⟨rfl, e⟩ <;> rw [e] <;> rfl

theorem volume_created (S : Setup L G axes) {writable : String → Bool} {node : ProbeNode K} {f : ℕ} {box : ℕ → K × K} {atol : K} {T : ProbeTimes K}
    {nSum : ℤ} {viewer : ViewerType} (h : AsksVolume L.dim node f box atol T nSum viewer)
    (hbox : ∀ d, d < L.dim → (box d).1 - atol ≤ (box d).2 + atol) {path : String} (hp : node.path = some path) (hw : writable path = true) :
    ∃ P, volumeInit L axes f box atol = .ok P ∧ Selects L G f box atol P ∧
      createProbe L axes writable node = .ok (.volume ⟨f, path, T⟩ viewer nSum P Accumulator.init, some (newFile viewer P)) := by
  have hdim := S.layout.dim
  obtain ⟨s, hs1, hs2⟩ := h.field
  have hf := (str2fd_named hdim hs2).2
  obtain ⟨P, hP, hS⟩ := C36_volume_probe S hf hbox
  refine ⟨P, hP, hS, ?_⟩
  obtain ⟨h1, h2, l, h3, h4, h5⟩ := volumeInit_parts hP
  have ha : node.atol.getD (1 / 10 ^ 6) = atol := asked_default ⟨h.tolerance.1, fun e => (h.tolerance.2 e).trans (by norm_num)⟩
  have hn : node.nSum.getD 0 = nSum := asked_default h.window
  have hinit : probeVolumeInit L axes writable node = .ok (.volume ⟨f, path, T⟩ viewer nSum P Accumulator.init, newFile viewer P) := by
    unfold probeVolumeInit
    rw [base_asked hdim h.field h.times hp]
    change (do
      let box ← readBox node.box
      let M ← getInfo L axes f box (node.atol.getD (1 / 10 ^ 6))
      let coord ← createGrid L axes f M
      match viewerOption node.viewer with
      | none => .error .ub
      | some viewer =>
        if writable path = false then .error .fileRead
        else if hasDMDA L f = false then .error .ub
        else
          let s ← (List.range L.mpiSize).mapM fun r => createIS L f M r
          let P : VolumeProbe K := ⟨M, coord, s.flatMap (·.1), s.flatMap (·.2)⟩
          let file ← writeIS viewer P.isNatural (writeGrid viewer coord)
          return (.volume ⟨f, path, T⟩ viewer (node.nSum.getD 0) P Accumulator.init, file) : Except Error (ProbeObject K × ProbeFile K)) = _
    have hb : readBox node.box = .ok box := readBox_core box node.box _ h.listed fun d hd => (h.unlisted d hd).symm
    rw [hb, ha, hn, viewer_asked h]
    change (do
      let M ← getInfo L axes f box atol
      let coord ← createGrid L axes f M
      if writable path = false then .error .fileRead
      else if hasDMDA L f = false then .error .ub
      else
        let s ← (List.range L.mpiSize).mapM fun r => createIS L f M r
        let P : VolumeProbe K := ⟨M, coord, s.flatMap (·.1), s.flatMap (·.2)⟩
        let file ← writeIS viewer P.isNatural (writeGrid viewer coord)
        return (.volume ⟨f, path, T⟩ viewer nSum P Accumulator.init, file) : Except Error (ProbeObject K × ProbeFile K)) = _
    rw [h1]
    change (do
      let coord ← createGrid L axes f P.mesh
      if writable path = false then .error .fileRead
      else if hasDMDA L f = false then .error .ub
      else
        let s ← (List.range L.mpiSize).mapM fun r => createIS L f P.mesh r
        let P : VolumeProbe K := ⟨P.mesh, coord, s.flatMap (·.1), s.flatMap (·.2)⟩
        let file ← writeIS viewer P.isNatural (writeGrid viewer coord)
        return (.volume ⟨f, path, T⟩ viewer nSum P Accumulator.init, file) : Except Error (ProbeObject K × ProbeFile K)) = _
    rw [h2]
    change (if writable path = false then .error .fileRead
      else if hasDMDA L f = false then .error .ub
      else do
        let s ← (List.range L.mpiSize).mapM fun r => createIS L f P.mesh r
        let P : VolumeProbe K := ⟨P.mesh, P.coord, s.flatMap (·.1), s.flatMap (·.2)⟩
        let file ← writeIS viewer P.isNatural (writeGrid viewer P.coord)
        return (.volume ⟨f, path, T⟩ viewer nSum P Accumulator.init, file) : Except Error (ProbeObject K × ProbeFile K)) = _
    rw [if_neg (by rw [hw]; decide), if_neg (by unfold hasDMDA; simp [hf]), h3]
    change (do
        let file ← writeIS viewer (l.flatMap (·.1)) (writeGrid viewer P.coord)
        return (.volume ⟨f, path, T⟩ viewer nSum ⟨P.mesh, P.coord, l.flatMap (·.1), l.flatMap (·.2)⟩ Accumulator.init, file) :
          Except Error (ProbeObject K × ProbeFile K)) = _
    rw [← h4, ← h5]
    cases viewer <;> rfl
  have ht : str2ProbeType (node.type.getD "VOLUME") = .VOLUME := by
    rcases h.type with e | e <;> rw [e] <;> rfl
  unfold createProbe probeConstruct
  rw [ht, hinit]
  rfl

theorem readLoc_asked {dim : ℕ} {loc : List K} {x : ℕ → K} (h : ∀ d, d < dim → loc[d]? = some (x d)) (hz : ∀ d, dim ≤ d → x d = 0) :
    readLoc dim loc = .ok x := by
  unfold readLoc
  have : (List.range dim).mapM (fun d => required loc[d]?) = .ok ((List.range dim).map x) := by
    refine mapM_ok _ fun d hd => ?_
    rw [h d (List.mem_range.1 hd)]
    rfl
  rw [this]
  change Except.ok _ = _
  congr 1
  funext d
  by_cases hd : d < dim
  · simp [hd]
  · simp [hd, hz d (not_lt.1 hd)]

theorem point_created (hdim : L.dim = 2 ∨ L.dim = 3) {writable : String → Bool} {node : ProbeNode K} {f : ℕ} {x : ℕ → K} {T : ProbeTimes K}
    (h : AsksPoint L.dim node f x T) {path : String} (hp : node.path = some path) (hw : writable path = true) {on : ℕ → Bool} {P : ℕ → PointProbe K}
    (hon : ∀ r, r < L.mpiSize → isPointOnLocalProc L axes f r x = .ok (on r)) (hP : ∀ r, r < L.mpiSize → pointInit L axes f x r = .ok (P r)) :
    createProbe L axes writable node = .ok (.point ⟨f, path, T⟩ ((List.range L.mpiSize).map P), some (.ascii [])) := by
  obtain ⟨s, hs1, hs2⟩ := h.field
  have hf := (str2fd_named hdim hs2).2
  have hinit : probePointInit L axes writable node = .ok (.point ⟨f, path, T⟩ ((List.range L.mpiSize).map P), .ascii []) := by
    unfold probePointInit
    rw [base_asked hdim h.field h.times hp]
    change (do
      let loc ← readLoc L.dim node.loc
      if hasDMDA L f = false then .error .ub
      else
        let _ ← (List.range L.mpiSize).mapM fun r => isPointOnLocalProc L axes f r loc
        if writable path = false then .error .fileRead
        else
          let ranks ← (List.range L.mpiSize).mapM fun r => pointInit L axes f loc r
          return (.point ⟨f, path, T⟩ ranks, .ascii []) : Except Error (ProbeObject K × ProbeFile K)) = _
    rw [readLoc_asked h.loc h.flat]
    change (if hasDMDA L f = false then .error .ub
      else do
        let _ ← (List.range L.mpiSize).mapM fun r => isPointOnLocalProc L axes f r x
        if writable path = false then .error .fileRead
        else
          let ranks ← (List.range L.mpiSize).mapM fun r => pointInit L axes f x r
          return (.point ⟨f, path, T⟩ ranks, .ascii []) : Except Error (ProbeObject K × ProbeFile K)) = _
    rw [if_neg (by unfold hasDMDA; simp [hf]), mapM_ok (h := on) _ fun r hr => hon r (List.mem_range.1 hr)]
    change (if writable path = false then .error .fileRead
        else do
          let ranks ← (List.range L.mpiSize).mapM fun r => pointInit L axes f x r
          return (.point ⟨f, path, T⟩ ranks, .ascii []) : Except Error (ProbeObject K × ProbeFile K)) = _
    rw [if_neg (by rw [hw]; decide), mapM_ok (h := P) _ fun r hr => hP r (List.mem_range.1 hr)]
    rfl
  unfold createProbe probeConstruct
  rw [h.type]
  change (do
    match ← ignoringCode (probePointInit L axes writable node) with
    | some x => return (x.1, some x.2)
    | none =>
      let base ← probeBaseInit node
      return (.incomplete base, none) : Except Error (ProbeObject K × Option (ProbeFile K))) = _
  rw [hinit]
  rfl

/-! ### One probe over a run -/

/-- one probe and its file over the steps of a run -/
def follow (L : Layout) (label : K → String) (h : List (Snapshot K)) (p : ProbeObject K) (file : Option (ProbeFile K)) :
    Except Error (ProbeObject K × Option (ProbeFile K)) :=
  h.foldlM (fun st s => st.1.monitor L label s st.2) (p, file)

theorem follow_cons (label : K → String) (s : Snapshot K) (h : List (Snapshot K)) (p : ProbeObject K) (file : Option (ProbeFile K)) :
    follow L label (s :: h) p file = (p.monitor L label s file >>= fun st => follow L label h st.1 st.2) := by
  unfold follow
  rw [List.foldlM_cons]

theorem follow_snoc (label : K → String) (s : Snapshot K) (h : List (Snapshot K)) (p : ProbeObject K) (file : Option (ProbeFile K)) :
    follow L label (h ++ [s]) p file = (follow L label h p file >>= fun st => st.1.monitor L label s st.2) := by
  unfold follow
  rw [List.foldlM_append]
  congr 1
  funext st
  rw [List.foldlM_cons]
  change (ProbeObject.monitor L label s st.1 st.2 >>= pure) = _
  rw [bind_pure]

/-- outputs added to a file -/
def addOutputs (label : K → String) (f : ℕ) (outs : List (ProbeOutput K)) : ProbeFile K → ProbeFile K
  | .ascii b => .ascii (b ++ outs.flatMap outputBlocks)
  | .hdf5 mesh is data => .hdf5 mesh is (outs.foldl (fun data o =>
      putData data ⟨fd2str f, label o.t, o.values, if o.count ≠ 0 then some o.count else none⟩) data)

/-- is the file of the kind of the viewer? -/
def ofKind : ViewerType → ProbeFile K → Prop
  | .ascii, .ascii _ => True
  | .hdf5, .hdf5 _ _ _ => True
  | _, _ => False

theorem addOutputs_kind {label : K → String} {f : ℕ} {outs : List (ProbeOutput K)} {viewer : ViewerType} {file : ProbeFile K} (h : ofKind viewer file) :
    ofKind viewer (addOutputs label f outs file) := by
  cases viewer <;> cases file <;> simp_all [ofKind, addOutputs]

theorem writeVec_add {label : K → String} {f : ℕ} {outs : List (ProbeOutput K)} {viewer : ViewerType} {file : ProbeFile K} (h : ofKind viewer file)
    (o : ProbeOutput K) : writeVec label viewer f o (some (addOutputs label f outs file)) = .ok (addOutputs label f (outs ++ [o]) file) := by
  cases viewer <;> cases file <;> simp_all [ofKind, addOutputs, writeVec]

theorem follow_volume (label : K → String) (base : ProbeBase K) (viewer : ViewerType) (nSum : ℤ) (P : VolumeProbe K) (A : Accumulator K)
    {file : ProbeFile K} (hk : ofKind viewer file) (h : List (Snapshot K)) : ∀ (A' : Accumulator K) (outs : List (ProbeOutput K)),
    volumeMonitors L base.field base.times nSum P A h = .ok (A', outs) →
    follow L label h (.volume base viewer nSum P A) (some file) = .ok (.volume base viewer nSum P A', some (addOutputs label base.field outs file)) := by
  induction h using List.reverseRecOn with
  | nil =>
    intro A' outs h
    cases Except.ok.inj h
    change Except.ok _ = _
    congr 3
    cases file <;> simp [addOutputs]
  | append_singleton h s ih =>
    intro A' outs hr
    unfold volumeMonitors at hr
    rw [List.foldlM_append] at hr
    obtain ⟨⟨A1, o1⟩, h1, h2⟩ := bind_ok hr
    rw [List.foldlM_cons] at h2
    obtain ⟨⟨A2, o2⟩, h2, h3⟩ := bind_ok h2
    cases Except.ok.inj h3
    unfold volumeStep at h2
    obtain ⟨⟨A3, o3⟩, h2', h4⟩ := bind_ok h2
    have h4 := Except.ok.inj h4
    simp only [Prod.mk.injEq] at h4
    obtain ⟨rfl, rfl⟩ := h4
    rw [follow_snoc, ih A1 o1 h1]
    change ProbeObject.monitor L label s (.volume base viewer nSum P A1) (some (addOutputs label base.field o1 file)) = _
    unfold ProbeObject.monitor
    simp only
    have h2' : volumeMonitor L base.field base.times nSum P A1 s = .ok (A3, o3) := h2'
    rw [h2']
    cases o3 with
    | none => simp; rfl
    | some o =>
      change (do
        let f ← writeVec label viewer base.field o (some (addOutputs label base.field o1 file))
        return (.volume base viewer nSum P A3, some f) : Except Error (ProbeObject K × Option (ProbeFile K))) = _
      rw [writeVec_add hk]
      rfl

/-! ### Data sets -/

theorem putData_names {data : List (ProbeDataset K)} (x : ProbeDataset K) (h : (data.map fun y => (y.group, y.name)).Nodup) :
    ((putData data x).map fun y => (y.group, y.name)).Nodup ∧
    ∀ y, y ∈ putData data x ↔ y = x ∨ (y ∈ data ∧ ¬ (y.group = x.group ∧ y.name = x.name)) := by
  unfold putData
  split_ifs with hany
  · rw [List.any_eq_true] at hany
    obtain ⟨z, hz, hzx⟩ := hany
    have hzx := of_decide_eq_true hzx
    constructor
    · have : (data.map fun y => if y.group = x.group ∧ y.name = x.name then x else y).map (fun y => (y.group, y.name)) =
          data.map fun y => (y.group, y.name) := by
        rw [List.map_map]
        refine List.map_congr_left fun y _ => ?_
        simp only [Function.comp]
        split_ifs with e
        · rw [e.1, e.2]
        · rfl
      rw [this]
      exact h
    · intro y
      rw [List.mem_map]
      constructor
      · rintro ⟨w, hw, rfl⟩
        split_ifs with e
        · exact Or.inl rfl
        · exact Or.inr ⟨hw, e⟩
      · rintro (rfl | ⟨hy, e⟩)
        · exact ⟨z, hz, if_pos hzx⟩
        · exact ⟨y, hy, if_neg e⟩
  · have hno : ∀ y ∈ data, ¬ (y.group = x.group ∧ y.name = x.name) := by
      intro y hy e
      apply hany
      rw [List.any_eq_true]
      exact ⟨y, hy, decide_eq_true e⟩
    constructor
    · rw [List.map_append, List.nodup_append]
      refine ⟨h, by simp, ?_⟩
      intro a ha b hb
      simp only [List.map_cons, List.map_nil, List.mem_singleton] at hb
      obtain ⟨y, hy, rfl⟩ := List.mem_map.1 ha
      subst hb
      intro e
      simp only [Prod.mk.injEq] at e
      exact hno y hy e
    · intro y
      rw [List.mem_append, List.mem_singleton]
      constructor
      · rintro (hy | rfl)
        · exact Or.inr ⟨hy, hno y hy⟩
        · exact Or.inl rfl
      · rintro (rfl | ⟨hy, _⟩)
        · exact Or.inr rfl
        · exact Or.inl hy

/-- the data set of an output -/
def datasetOf (label : K → String) (f : ℕ) (o : ProbeOutput K) : ProbeDataset K :=
  ⟨fd2str f, label o.t, o.values, if o.count ≠ 0 then some o.count else none⟩

theorem putAll (label : K → String) (f : ℕ) (outs : List (ProbeOutput K)) :
    ((outs.foldl (fun data o => putData data (datasetOf label f o)) []).map fun y => (y.group, y.name)).Nodup ∧
    ∀ x, x ∈ outs.foldl (fun data o => putData data (datasetOf label f o)) [] ↔ ∃ l o r, outs = l ++ o :: r ∧ x = datasetOf label f o ∧
      ∀ o' ∈ r, label o'.t ≠ label o.t := by
  induction outs using List.reverseRecOn with
  | nil => simp
  | append_singleton outs z ih =>
    rw [List.foldl_append]
    obtain ⟨n1, n2⟩ := putData_names (datasetOf label f z) ih.1
    refine ⟨n1, fun x => ?_⟩
    change x ∈ putData _ (datasetOf label f z) ↔ _
    rw [n2]
    constructor
    · rintro (rfl | ⟨hx, hne⟩)
      · exact ⟨outs, z, [], rfl, rfl, by simp⟩
      · obtain ⟨l, o, r, e, rfl, h⟩ := (ih.2 x).1 hx
        refine ⟨l, o, r ++ [z], by rw [e]; simp, rfl, ?_⟩
        intro o' ho'
        rcases List.mem_append.1 ho' with ho' | ho'
        · exact h o' ho'
        · rw [List.mem_singleton.1 ho']
          intro e'
          exact hne ⟨rfl, e'.symm⟩
    · rintro ⟨l, o, r, e, rfl, h⟩
      rcases List.eq_nil_or_concat r with rfl | ⟨r', w, rfl⟩
      · obtain ⟨_, h2⟩ := List.append_inj' e rfl
        simp only [List.cons.injEq, and_true] at h2
        subst h2
        exact Or.inl rfl
      · have e' : outs ++ [z] = (l ++ o :: r') ++ [w] := by rw [e]; simp
        obtain ⟨h1, h2⟩ := List.append_inj' e' rfl
        simp only [List.cons.injEq, and_true] at h2
        subst h2
        refine Or.inr ⟨(ih.2 _).2 ⟨l, o, r', h1, rfl, fun o' ho' => h o' (by simp [ho'])⟩, ?_⟩
        rintro ⟨_, e2⟩
        exact h z (by simp) e2.symm

theorem fd2str_letter (f : ℕ) : fd2str f = fieldLetter f := by
  unfold fd2str fieldLetter
  match f with
  | 0 => rfl
  | 1 => rfl
  | 2 => rfl
  | n + 3 => rfl

theorem grid_names {β : Type} (g : String → List K → β) (c : List (List K)) (hc : c.length ≤ 3) :
    (List.zipWith g probeDirNames c).length = c.length ∧ ∀ d l, c[d]? = some l → (List.zipWith g probeDirNames c)[d]? = some (g (dirLetter d) l) := by
  match c, hc with
  | [], _ => simp
  | [a], _ => refine ⟨rfl, fun d l h => ?_⟩; match d with
    | 0 => simp_all [probeDirNames, dirLetter]
    | n + 1 => simp at h
  | [a, b], _ => refine ⟨rfl, fun d l h => ?_⟩; match d with
    | 0 => simp_all [probeDirNames, dirLetter]
    | 1 => simp_all [probeDirNames, dirLetter]
    | n + 2 => simp at h
  | [a, b, e], _ => refine ⟨rfl, fun d l h => ?_⟩; match d with
    | 0 => simp_all [probeDirNames, dirLetter]
    | 1 => simp_all [probeDirNames, dirLetter]
    | 2 => simp_all [probeDirNames, dirLetter]
    | n + 3 => simp at h
  | _ :: _ :: _ :: _ :: _, h => simp at h; omega

theorem holds_volume (label : K → String) (f : ℕ) (viewer : ViewerType) {P : VolumeProbe K} (hP : P.coord.length ≤ 3) (outs : List (ProbeOutput K)) :
    HoldsVolume label f viewer P outs (addOutputs label f outs (newFile viewer P)) := by
  cases viewer with
  | ascii =>
    obtain ⟨g1, g2⟩ := grid_names ProbeBlock.vector P.coord hP
    refine ⟨_, ?_, g1, g2⟩
    unfold newFile addOutputs
    simp only [List.append_assoc, List.cons_append, List.nil_append]
    congr 3
    congr 1
    funext o
    unfold outputBlocks
    by_cases h : o.count = 0 <;> simp [h]
  | hdf5 =>
    obtain ⟨g1, g2⟩ := grid_names Prod.mk P.coord hP
    obtain ⟨n1, n2⟩ := putAll label f outs
    refine ⟨_, _, rfl, ⟨g1, g2⟩, n1, fun x => ?_⟩
    refine (n2 x).trans ?_
    unfold datasetOf
    rw [fd2str_letter]
    simp only [ne_eq, ite_not]

/-! ### Point probes -/

theorem pointSteps_acc {f r : ℕ} (qs : List (ℤ → K)) : ∀ (P : PointProbe K) (acc : List (Option K)),
    qs.foldlM (pointStep L f r) (P, acc) = (qs.foldlM (pointStep L f r) (P, []) >>= fun o => pure (o.1, acc ++ o.2)) := by
  induction qs with
  | nil => intro P acc; change Except.ok _ = Except.ok _; simp
  | cons q qs ih =>
    intro P acc
    rw [List.foldlM_cons, List.foldlM_cons]
    unfold pointStep
    cases hm : pointMonitor L f r P q with
    | error e => rfl
    | ok o =>
      change List.foldlM (pointStep L f r) (o.1, acc ++ [o.2]) qs = (List.foldlM (pointStep L f r) (o.1, [] ++ [o.2]) qs >>= _)
      rw [ih, ih _ ([] ++ [o.2]), bind_assoc]
      congr 1
      funext z
      change Except.ok _ = Except.ok _
      simp

theorem pointSteps_cons {f r : ℕ} {q : ℤ → K} {qs : List (ℤ → K)} {P P' : PointProbe K} {o : Option K} {os : List (Option K)}
    (h : (q :: qs).foldlM (pointStep L f r) (P, []) = .ok (P', o :: os)) :
    ∃ P1, pointMonitor L f r P q = .ok (P1, o) ∧ qs.foldlM (pointStep L f r) (P1, []) = .ok (P', os) := by
  rw [List.foldlM_cons] at h
  obtain ⟨⟨P1, l⟩, h1, h2⟩ := bind_ok h
  unfold pointStep at h1
  obtain ⟨⟨P2, o2⟩, h1', h3⟩ := bind_ok h1
  have h3 := Except.ok.inj h3
  simp only [Prod.mk.injEq] at h3
  obtain ⟨rfl, rfl⟩ := h3
  rw [pointSteps_acc] at h2
  obtain ⟨⟨P3, os3⟩, h4, h5⟩ := bind_ok h2
  have h5 := Except.ok.inj h5
  simp only [Prod.mk.injEq, List.nil_append, List.cons_append, List.cons.injEq] at h5
  obtain ⟨rfl, rfl, rfl⟩ := h5
  exact ⟨P2, h1', h4⟩

theorem filterMap_one {α : Type} (y : α) (r0 : ℕ) : ∀ n, r0 < n → (List.range n).filterMap (fun r => if r = r0 then some y else none) = [y]
  | 0, h => by omega
  | n + 1, h => by
    rw [List.range_succ, List.filterMap_append]
    by_cases hn : r0 = n
    · subst hn
      have : (List.range r0).filterMap (fun r => if r = r0 then some y else none) = [] := by
        rw [List.filterMap_eq_nil_iff]
        intro r hr
        rw [if_neg]
        have := List.mem_range.1 hr
        omega
      rw [this]
      simp
    · rw [filterMap_one y r0 n (by omega)]
      simp [Ne.symm hn]

theorem zipIdx_range {α : Type} (P : ℕ → α) (n : ℕ) : ((List.range n).map P).zipIdx = (List.range n).map fun r => (P r, r) := by
  apply List.ext_getElem
  · simp
  · intro i h1 h2
    simp

theorem follow_point (label : K → String) (base : ProbeBase K) (hf : base.field < L.dim ∨ base.field = 3) (hn : base.times.nMonitor ≠ 0) {n r0 : ℕ} (hr : r0 < n) :
    ∀ (h : List (Snapshot K)) (ys : List K) (P : ℕ → PointProbe K) (b : List (ProbeBlock K)), ys.length = (dueSteps base.times h).length →
    (∀ r, r < n → ∃ P', ((dueSteps base.times h).map (fieldOf L.dim base.field)).foldlM (pointStep L base.field r) (P r, []) =
      .ok (P', ys.map fun y => if r = r0 then some y else none)) →
    ∃ P', follow L label h (.point base ((List.range n).map P)) (some (.ascii b)) =
      .ok (.point base ((List.range n).map P'), some (.ascii (b ++ List.zipWith (fun s y => ProbeBlock.line s.t y) (dueSteps base.times h) ys))) := by
  intro h
  induction h with
  | nil =>
    intro ys P b hl _
    refine ⟨P, ?_⟩
    change Except.ok _ = _
    simp [dueSteps]
  | cons s h ih =>
    intro ys P b hl hP
    rw [follow_cons]
    obtain ⟨c1, c2⟩ := C38_sampling_times hf base.times hn s
    by_cases hd : Due base.times s
    · have e : dueSteps base.times (s :: h) = s :: dueSteps base.times h := by simp [dueSteps, hd]
      rw [e] at hl hP ⊢
      match ys, hl with
      | y :: ys, hl =>
        have hstep : ∀ r, ∃ P1, r < n → pointMonitor L base.field r (P r) (fieldOf L.dim base.field s) = .ok (P1, if r = r0 then some y else none) ∧
            ∃ P', ((dueSteps base.times h).map (fieldOf L.dim base.field)).foldlM (pointStep L base.field r) (P1, []) =
              .ok (P', ys.map fun y => if r = r0 then some y else none) := by
          intro r
          by_cases hrn : r < n
          · obtain ⟨P', hP'⟩ := hP r hrn
            rw [List.map_cons, List.map_cons] at hP'
            obtain ⟨P1, h1, h2⟩ := pointSteps_cons hP'
            exact ⟨P1, fun _ => ⟨h1, P', h2⟩⟩
          · exact ⟨P r, fun hh => absurd hh hrn⟩
        choose P1 hP1 using hstep
        have hmon : ProbeObject.monitor L label s (.point base ((List.range n).map P)) (some (.ascii b)) =
            .ok (.point base ((List.range n).map P1), some (.ascii (b ++ [ProbeBlock.line s.t y]))) := by
          unfold ProbeObject.monitor
          simp only
          rw [c1 hd]
          have hq : (match (if base.field < L.dim then ProbeSource.velocity base.field else .pressure) with
              | .velocity _ => s.U
              | .pressure => s.p) = fieldOf L.dim base.field s := by
            unfold fieldOf
            split_ifs <;> rfl
          change (do
            let outs ← ((List.range n).map P).zipIdx.mapM fun x => pointMonitor L base.field x.2 x.1
              (match (if base.field < L.dim then ProbeSource.velocity base.field else .pressure) with
              | .velocity _ => s.U
              | .pressure => s.p)
            return (.point base (outs.map (·.1)), some (.ascii (b ++ (outs.filterMap (·.2)).map (ProbeBlock.line s.t)))) :
              Except Error (ProbeObject K × Option (ProbeFile K))) = _
          rw [hq, zipIdx_range]
          have hm : ((List.range n).map fun r => (P r, r)).mapM (fun x => pointMonitor L base.field x.2 x.1 (fieldOf L.dim base.field s)) =
              .ok ((List.range n).map fun r => (P1 r, if r = r0 then some y else none)) := by
            refine mapM_map_ok fun r hr' => ?_
            exact (hP1 r (List.mem_range.1 hr')).1
          rw [hm]
          change Except.ok _ = _
          rw [List.map_map, List.filterMap_map]
          have := filterMap_one y r0 n hr
          simp only [Function.comp_def, this]
          rfl
        rw [hmon]
        obtain ⟨P', h'⟩ := ih ys P1 (b ++ [ProbeBlock.line s.t y]) (by simpa using hl) fun r hrn => (hP1 r hrn).2
        refine ⟨P', ?_⟩
        change follow L label h _ _ = _
        rw [h']
        simp
    · have e : dueSteps base.times (s :: h) = dueSteps base.times h := by simp [dueSteps, hd]
      rw [e] at hl hP ⊢
      have hmon : ProbeObject.monitor L label s (.point base ((List.range n).map P)) (some (.ascii b)) =
          .ok (.point base ((List.range n).map P), some (.ascii b)) := by
        unfold ProbeObject.monitor
        simp only
        rw [c2 hd]
        rfl
      rw [hmon]
      exact ih ys P b hl hP

/-! ### All probes of a run -/

theorem monitor_base {label : K → String} {s : Snapshot K} {p p' : ProbeObject K} {f f' : Option (ProbeFile K)}
    (h : p.monitor L label s f = .ok (p', f')) : p'.base = p.base := by
  cases p with
  | volume base viewer nSum P A =>
    unfold ProbeObject.monitor at h
    obtain ⟨⟨A', o⟩, _, h⟩ := bind_ok h
    cases o with
    | none => cases Except.ok.inj h; rfl
    | some o =>
      obtain ⟨g, _, h⟩ := bind_ok h
      cases Except.ok.inj h; rfl
  | point base ranks =>
    unfold ProbeObject.monitor at h
    obtain ⟨o, _, h⟩ := bind_ok h
    cases o with
    | none => cases Except.ok.inj h; rfl
    | some src =>
      obtain ⟨outs, _, h⟩ := bind_ok h
      split at h
      · cases Except.ok.inj h; rfl
      · cases h
  | incomplete base =>
    unfold ProbeObject.monitor at h
    obtain ⟨o, _, h⟩ := bind_ok h
    cases o with
    | none => cases Except.ok.inj h; rfl
    | some src => cases h

/-- the probes of one step, if they have different files -/
theorem monitorProbes_ok (label : K → String) (s : Snapshot K) : ∀ (ps : List (ProbeObject K)) (ms : List (ProbeObject K × Option (ProbeFile K)))
    (disk : ProbeDisk K), (ps.map fun p => p.base.path).Nodup → List.Forall₂ (fun p m => p.monitor L label s (disk p.base.path) = .ok m) ps ms →
    ∃ disk', monitorProbes L label s ps disk = .ok (ms.map (·.1), disk') ∧ List.Forall₂ (fun p m => disk' p.base.path = m.2) ps ms ∧
      ∀ path, path ∉ ps.map (fun p => p.base.path) → disk' path = disk path
  | [], _, disk, _, h => by
    cases h
    exact ⟨disk, rfl, .nil, fun _ _ => rfl⟩
  | p :: ps, [], disk, _, h => by cases h
  | p :: ps, m :: ms, disk, hnd, h => by
    rw [List.forall₂_cons] at h
    obtain ⟨h1, h2⟩ := h
    rw [List.map_cons, List.nodup_cons] at hnd
    have hne : ∀ q ∈ ps, q.base.path ≠ p.base.path := fun q hq e => hnd.1 (e ▸ List.mem_map_of_mem hq)
    have h2' : List.Forall₂ (fun q m' => q.monitor L label s (Function.update disk p.base.path m.2 q.base.path) = .ok m') ps ms := by
      rw [List.forall₂_iff_get] at h2 ⊢
      refine ⟨h2.1, fun i hi hj => ?_⟩
      rw [Function.update_of_ne (hne _ (List.get_mem ps ⟨i, hi⟩))]
      exact h2.2 i hi hj
    obtain ⟨disk', k1, k2, k3⟩ := monitorProbes_ok label s ps ms _ hnd.2 h2'
    refine ⟨disk', ?_, ?_, ?_⟩
    · unfold monitorProbes
      rw [h1]
      change (monitorProbes L label s ps (Function.update disk p.base.path m.2) >>= fun x => pure (m.1 :: x.1, x.2)) = _
      rw [k1]
      rfl
    · rw [List.forall₂_cons]
      refine ⟨?_, k2⟩
      rw [k3 _ hnd.1, Function.update_self]
    · intro path hp
      rw [List.map_cons, List.mem_cons, not_or] at hp
      rw [k3 path hp.2, Function.update_of_ne hp.1]

/-- the probes of a run, if they have different files -/
theorem follow_all (label : K → String) : ∀ (h : List (Snapshot K)) (ps : List (ProbeObject K)) (rs : List (ProbeObject K × Option (ProbeFile K)))
    (disk : ProbeDisk K), (ps.map fun p => p.base.path).Nodup → List.Forall₂ (fun p r => follow L label h p (disk p.base.path) = .ok r) ps rs →
    ∃ disk', h.foldlM (fun st s => monitorProbes L label s st.1 st.2) (ps, disk) = .ok (rs.map (·.1), disk') ∧
      List.Forall₂ (fun p r => disk' p.base.path = r.2) ps rs ∧ ∀ path, path ∉ ps.map (fun p => p.base.path) → disk' path = disk path
  | [], ps, rs, disk, _, h => by
    refine ⟨disk, ?_, ?_, fun _ _ => rfl⟩
    · change Except.ok (ps, disk) = _
      have : ps = rs.map (·.1) := by
        clear * - h
        induction h with
        | nil => rfl
        | cons h1 _ ih => rw [List.map_cons, ← ih, ← Except.ok.inj h1]
      rw [← this]
    · exact h.imp fun p r e => by rw [← Except.ok.inj e]
  | s :: h, ps, rs, disk, hnd, hr => by
    have hms : ∃ ms : List (ProbeObject K × Option (ProbeFile K)), List.Forall₂ (fun p m => p.monitor L label s (disk p.base.path) = .ok m) ps ms ∧
        List.Forall₂ (fun (m r : ProbeObject K × Option (ProbeFile K)) => follow L label h m.1 m.2 = .ok r) ms rs := by
      clear hnd
      induction hr with
      | nil => exact ⟨[], .nil, .nil⟩
      | cons h1 _ ih =>
        obtain ⟨ms, i1, i2⟩ := ih
        rw [follow_cons] at h1
        obtain ⟨m, m1, m2⟩ := bind_ok h1
        exact ⟨m :: ms, .cons m1 i1, .cons m2 i2⟩
    obtain ⟨ms, h1, h2⟩ := hms
    obtain ⟨disk1, k1, k2, k3⟩ := monitorProbes_ok label s ps ms disk hnd h1
    have hpaths : (ms.map (·.1)).map (fun p => p.base.path) = ps.map fun p => p.base.path := by
      clear * - h1
      induction h1 with
      | nil => rfl
      | cons h1 _ ih => rw [List.map_cons, List.map_cons, List.map_cons, ih, monitor_base h1]
    have h2' : List.Forall₂ (fun p r => follow L label h p (disk1 p.base.path) = .ok r) (ms.map (·.1)) rs := by
      rw [List.forall₂_map_left_iff]
      have k4 : List.Forall₂ (fun (m _ : ProbeObject K × Option (ProbeFile K)) => disk1 m.1.base.path = m.2) ms rs := by
        clear hpaths k1 k3 hr hnd
        induction h2 generalizing ps with
        | nil => exact .nil
        | cons _ _ ih =>
          cases h1 with
          | cons a1 a2 =>
            cases k2 with
            | cons b1 b2 => exact .cons (by rw [monitor_base a1, b1]) (ih _ a2 b2)
      rw [List.forall₂_iff_get] at h2 k4 ⊢
      refine ⟨h2.1, fun i hi hj => ?_⟩
      rw [k4.2 i hi hj]
      exact h2.2 i hi hj
    obtain ⟨disk', g1, g2, g3⟩ := follow_all label h (ms.map (·.1)) rs disk1 (by rw [hpaths]; exact hnd) h2'
    refine ⟨disk', ?_, ?_, ?_⟩
    · rw [List.foldlM_cons, k1]
      exact g1
    · rw [List.forall₂_map_left_iff] at g2
      clear * - h1 g2
      induction g2 generalizing ps with
      | nil => cases h1; exact .nil
      | cons a _ ih =>
        cases h1 with
        | cons b1 b2 => exact .cons (by rw [← monitor_base b1]; exact a) (ih _ b2)
    · intro path hp
      rw [g3 path (by rw [hpaths]; exact hp), k3 path hp]

/-- the entry with the path that `createProbe` gets -/
def placed (output : String) (node : ProbeNode K) (path : String) : ProbeNode K := { node with path := some (output ++ "/" ++ path) }

/-- creation of all probes, if all of them succeed and have different files -/
theorem createProbes_ok (writable : String → Bool) (output : String) : ∀ (nodes : List (ProbeNode K)) (cs : List (ProbeObject K × ProbeFile K))
    (disk : ProbeDisk K), (cs.map fun c => c.1.base.path).Nodup →
    List.Forall₂ (fun node c => ∃ path, node.path = some path ∧ createProbe L axes writable (placed output node path) = .ok (c.1, some c.2)) nodes cs →
    ∃ disk', createProbes L axes writable output nodes disk = .ok (cs.map (·.1), disk') ∧ (∀ c ∈ cs, disk' c.1.base.path = some c.2) ∧
      ∀ path, path ∉ cs.map (fun c => c.1.base.path) → disk' path = disk path
  | [], cs, disk, _, h => by
    cases h
    exact ⟨disk, rfl, by simp, fun _ _ => rfl⟩
  | node :: nodes, [], disk, _, h => by cases h
  | node :: nodes, c :: cs, disk, hnd, h => by
    rw [List.forall₂_cons] at h
    obtain ⟨⟨path, h1, h2⟩, h3⟩ := h
    rw [List.map_cons, List.nodup_cons] at hnd
    obtain ⟨disk', k1, k2, k3⟩ := createProbes_ok writable output nodes cs (Function.update disk c.1.base.path (some c.2)) hnd.2 h3
    refine ⟨disk', ?_, ?_, ?_⟩
    · unfold createProbes
      rw [h1]
      change (createProbe L axes writable (placed output node path) >>= _) = _
      rw [h2]
      change (createProbes L axes writable output nodes (Function.update disk c.1.base.path (some c.2)) >>= fun x => pure (c.1 :: x.1, x.2)) = _
      rw [k1]
      rfl
    · intro c' hc'
      rcases List.mem_cons.1 hc' with rfl | hc'
      · rw [k3 _ hnd.1, Function.update_self]
      · exact k2 c' hc'
    · intro path hp
      rw [List.map_cons, List.mem_cons, not_or] at hp
      rw [k3 path hp.2, Function.update_of_ne hp.1]

end PetIBM
