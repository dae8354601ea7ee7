/-
C89: what the configuration files describe is what the objects of a run contain.
-/
import Verif.Model.Config
import Verif.Spec.Config
import Verif.Props.Parser
import Verif.Props.Start
import Verif.Props.Run
import Verif.Lemmas.MeshAxis
import Verif.Lemmas.Steady

set_option linter.unusedSectionVars false

namespace PetIBM

open Spec

variable {K : Type} [Field K] [LinearOrder K] [IsStrictOrderedRing K]

theorem mem_fieldDirs {p : ℕ × ℕ} : p ∈ fieldDirs ↔ p.1 < 5 ∧ p.2 < 3 := by
  obtain ⟨f, d⟩ := p
  simp [fieldDirs]

/-- The lines of a field in one direction: as many as cells, one less (walls) in the own direction of a component. -/
theorem fieldAxis_count {dim : ℕ} {axes : ℕ → Axis K} (ha : ∀ d, d < dim → AxisOK (axes d)) (periodic : ℕ → ℕ → Bool) (f d : ℕ) :
    ∃ A, fieldAxis dim axes periodic f d = .ok A ∧ (dim ≤ d → A.n = 1) ∧
      (d < dim → f < dim ∨ f = 3 → (axes d).dL.length ≤ A.n + if f = d ∧ periodic f d = false then 1 else 0) := by
  unfold fieldAxis
  by_cases hf : f < 3
  · rw [if_pos hf]
    by_cases h : f < dim ∧ d < dim
    · rw [if_pos h]
      by_cases e : d = f
      · rw [if_pos e]
        subst e
        cases hp : periodic d d with
        | false =>
          obtain ⟨A, hA, h1, _⟩ := normalAxis_nonper (ha d h.2)
          exact ⟨A, hA, fun _ => by omega, fun _ _ => by rw [if_pos ⟨rfl, rfl⟩]; omega⟩
        | true =>
          obtain ⟨A, hA, h1, _⟩ := normalAxis_per (ha d h.2)
          exact ⟨A, hA, fun _ => by omega, fun _ _ => by omega⟩
      · rw [if_neg e]
        obtain ⟨A, hA, h1, _⟩ := tangentAxis_ok (ha d h.2) (periodic f d)
        exact ⟨A, hA, fun _ => by omega, fun _ _ => by omega⟩
    · rw [if_neg h]
      exact ⟨_, rfl, fun _ => rfl, fun _ _ => by omega⟩
  · rw [if_neg hf]
    by_cases h : d < dim
    · rw [if_pos h]
      by_cases e : f = 3
      · rw [if_pos e]
        exact ⟨_, rfl, fun _ => by omega, fun _ _ => by simp [pressureAxis]⟩
      · rw [if_neg e]
        exact ⟨_, rfl, fun _ => by omega, fun _ _ => by simp [vertexAxis]; omega⟩
    · rw [if_neg h]
      exact ⟨_, rfl, fun _ => rfl, fun _ _ => by omega⟩

theorem parseMesh_accepts (nodes : List (AxisNode K)) (h : ∀ a ∈ nodes, ∀ s ∈ a.subDomains, 1 ≤ s.cells ∧ 0 < s.stretchRatio) :
    ∃ r, parseMesh nodes = .ok r := by
  have key : ∀ (l : List (AxisNode K)) (m : MeshData K), (∀ a ∈ l, ∀ s ∈ a.subDomains, 1 ≤ s.cells ∧ 0 < s.stretchRatio) →
      ∃ m', parseMeshLoop l m = .ok m' := by
    intro l
    induction l with
    | nil => exact fun m _ => ⟨m, rfl⟩
    | cons a l ih =>
      intro m h
      obtain ⟨⟨n, ed, dL⟩, e⟩ := C10_accepts a.subDomains a.start (h a (List.mem_cons_self ..))
      obtain ⟨m', e'⟩ := ih (m.assign (str2dir a.direction) a.start ed n dL) fun b hb => h b (List.mem_cons_of_mem _ hb)
      exact ⟨m', by simp only [parseMeshLoop, e, bind, Except.bind]; exact e'⟩
  obtain ⟨m, e⟩ := key nodes MeshData.default h
  exact ⟨(nodes.length, m), by simp only [parseMesh, e, bind, Except.bind]; rfl⟩

theorem lastFor_none {es : List (Spec.Entry K)} {c b : ℕ} (h : ∀ e ∈ es, ¬ (e.comp = c ∧ e.loc = b)) : lastFor es c b = none := by
  unfold lastFor
  rw [List.filter_eq_nil_iff.2 (by intro e he; simpa using h e he)]
  rfl

/-- C89. For a mesh section and boundary conditions that describe a mesh and its walls, and a process grid with points for every process, all processes
construct complete mesh and boundary objects; their lines, widths, types and values are those of the file.
What is missing: errors for all other configurations (`C89_false_errors`). -/
theorem C89_set_up_partial (debug : Bool) {dim : ℕ} {nodes : List (AxisNode K)} {bs : List (BCNode K)} {T : BCTable K} {nProc : ℕ → ℕ}
    (hm : DescribedMesh dim nodes) (hw : DescribedWalls dim bs T) (hg : GridFits dim nodes T nProc) :
    ∃ L G axes T' B, setUp debug nProc (some nodes) (some (some bs)) = .ok (some (L, G, axes, (List.range L.mpiSize).map fun r => some (B r))) ∧
      Constructed debug L G axes T' B ∧ L.dim = dim ∧ L.nProc = nProc ∧ MeshOf nodes axes ∧
      ∀ f b, f < dim → b < dim * 2 → T' f b = T f b := by
  have hd3 : dim ≤ 3 := by rcases hm.dims with h | h <;> omega
  have hd2 : 2 ≤ dim := by rcases hm.dims with h | h <;> omega
  obtain ⟨⟨dim', m⟩, hp⟩ := parseMesh_accepts nodes fun a ha => (hm.cells a ha).2
  have nodup : (nodes.map fun a => dirNamed a.direction).Nodup :=
    hm.directions.nodup_iff.2 ((List.nodup_range).map (Option.some_injective _))
  have known : ∀ a ∈ nodes, ∃ d, d < dim ∧ dirNamed a.direction = some d := by
    intro a ha
    have : dirNamed a.direction ∈ (List.range dim).map some := hm.directions.mem_iff.1 (List.mem_map.2 ⟨a, ha, rfl⟩)
    obtain ⟨d, hd, e⟩ := List.mem_map.1 this
    exact ⟨d, List.mem_range.1 hd, e.symm⟩
  have every : ∀ d, d < dim → ∃ a ∈ nodes, dirNamed a.direction = some d := by
    intro d hd
    have : some d ∈ nodes.map fun a => dirNamed a.direction := hm.directions.mem_iff.2 (List.mem_map.2 ⟨d, List.mem_range.2 hd, rfl⟩)
    obtain ⟨a, ha, e⟩ := List.mem_map.1 this
    exact ⟨a, ha, e⟩
  obtain ⟨e1, data, -⟩ := C10_axis_data nodes nodup (fun a ha => by obtain ⟨d, _, e⟩ := known a ha; rw [e]; simp) dim' m hp
  have e2 : dim' = dim := by
    rw [e1]
    have := hm.directions.length_eq
    simpa using this
  subst e2
  set axes : ℕ → Axis K := fun d => ⟨m.bg d, m.ed d, m.dL d⟩ with haxes
  have ok : ∀ d, d < dim' → AxisOK (axes d) := by
    intro d hd
    obtain ⟨a, ha, e⟩ := every d hd
    obtain ⟨h1, h2⟩ := data a ha d e
    have := C10_positive_widths a.subDomains a.start (hm.cells a ha).1 (hm.cells a ha).2 (hm.forward a ha) _ _ _ h1
    rw [haxes]
    simp only [h2]
    exact this
  have meshOf : MeshOf nodes axes := by
    intro a ha d e
    obtain ⟨h1, h2⟩ := data a ha d e
    obtain ⟨-, -, h3, h4⟩ := C10_cells a.subDomains a.start (fun s hs => ((hm.cells a ha).2 s hs).1) _ _ _ h1
    exact ⟨h2, h3, h4⟩
  have count : ∀ a ∈ nodes, ∀ d, dirNamed a.direction = some d → ((axes d).dL.length : ℤ) = cellCount a := by
    intro a ha d e
    obtain ⟨h1, h2⟩ := data a ha d e
    obtain ⟨h3, h4, -⟩ := C10_cells a.subDomains a.start (fun s hs => ((hm.cells a ha).2 s hs).1) _ _ _ h1
    rw [haxes]
    show ((m.dL d).length : ℤ) = _
    rw [h4, h3]
    rfl
  obtain ⟨es, he1, he2, he3⟩ := hw.entries
  obtain ⟨T', hT1, hT2⟩ := C12_table_partial bs es he1
  have hT3 : ∀ f b, f < dim' → b < dim' * 2 → T' f b = T f b := by
    intro f b hf hb
    rw [hT2, he3 f b hf hb]
    rfl
  have hT4 : ∀ f b, ¬ (f < dim' ∧ b < dim' * 2) → T' f b = (.NOBC, 0) := by
    intro f b h
    rw [hT2, lastFor_none]
    · rfl
    · rintro e he ⟨rfl, rfl⟩
      exact h (he2 e he)
  have none : ∀ f d, ¬ (f < dim' ∧ d < dim') → NonePeriodic (fun f b => (T' f b).1) f d := by
    intro f d h
    refine ⟨?_, ?_⟩ <;> (simp only; rw [hT4 _ _ (by omega)]; simp)
  have some' : ∀ f d, f < dim' → d < dim' → (T' f (2 * d) = T f (2 * d) ∧ T' f (2 * d + 1) = T f (2 * d + 1)) :=
    fun f d hf hd => ⟨hT3 f _ hf (by omega), hT3 f _ hf (by omega)⟩
  have alike : ∀ d, (∀ f, f < dim' → BothPeriodic (fun f b => (T' f b).1) f d) ∨ ∀ f, f < dim' → NonePeriodic (fun f b => (T' f b).1) f d := by
    intro d
    by_cases hd : d < dim'
    · rcases hw.alike d hd with h | h
      · refine Or.inl fun f hf => ?_
        obtain ⟨a, b⟩ := some' f d hf hd
        exact ⟨by simp only [a]; exact (h f hf).1, by simp only [b]; exact (h f hf).2⟩
      · refine Or.inr fun f hf => ?_
        obtain ⟨a, b⟩ := some' f d hf hd
        exact ⟨by simp only [a]; exact (h f hf).1, by simp only [b]; exact (h f hf).2⟩
    · exact Or.inr fun f hf => none f d (by omega)
  classical
  let P : ℕ → ℕ → Bool := fun f d => decide (f < 3 ∧ d < 3 ∧ BothPeriodic (fun f b => (T' f b).1) f d)
  have hP : checkPeriodicBC (fun f b => (T' f b).1) = .ok P := by
    refine (C11_periodic_check _ dim' ?_ P).2 ⟨fun d hd => ?_, fun f d => by simp [P]⟩
    · rcases hm.dims with h | h
      · refine Or.inl ⟨h, fun b _ => ?_⟩
        rw [hT4 _ _ (by omega)]
      · refine Or.inr ⟨h, 0, by omega, ?_⟩
        rw [hT3 2 0 (by omega) (by omega)]
        exact hw.complete 2 0 (by omega) (by omega)
    · rcases alike d with h | h
      · exact Or.inl ⟨h, fun f hf _ => none f d (by omega)⟩
      · refine Or.inr fun f hf => ?_
        by_cases h' : f < dim'
        · exact h f h'
        · exact none f d (by omega)
  have per : ∀ f d, f < dim' → d < 3 → P f d = P 0 d := by
    intro f d hf hd
    have nb : ∀ g, NonePeriodic (fun f b => (T' f b).1) g d → ¬ BothPeriodic (fun f b => (T' f b).1) g d := fun g h h' => h.1 h'.1
    rcases alike d with h | h
    · simp only [P, h f hf, h 0 (by omega), hd, true_and, and_true]
      simp
      omega
    · simp [P, nb f (h f hf), nb 0 (h 0 (by omega))]
  have perT : ∀ f loc, f < dim' → loc < dim' * 2 → ((T' f loc).1 = .PERIODIC ↔ P 0 (loc / 2) = true) := by
    intro f loc hf hl
    have hl3 : loc / 2 < 3 := by omega
    have e : loc = 2 * (loc / 2) ∨ loc = 2 * (loc / 2) + 1 := by omega
    rcases alike (loc / 2) with h | h
    · have h0 := h 0 (by omega)
      have hf := h f hf
      simp only [P, h0, hl3, Nat.zero_lt_succ, and_self, decide_true, iff_true]
      rcases e with e | e
      · rw [e]; exact hf.1
      · rw [e]; exact hf.2
    · have h0 := h 0 (by omega)
      have hf := h f hf
      have : ¬ BothPeriodic (fun f b => (T' f b).1) 0 (loc / 2) := fun h' => h0.1 h'.1
      simp only [P, this, and_false, decide_false, Bool.false_eq_true, iff_false]
      rcases e with e | e
      · rw [e]; exact hf.1
      · rw [e]; exact hf.2
  have hproc : ∀ d, d < 3 → 0 < nProc d := by
    intro d hd
    by_cases h : d < dim'
    · obtain ⟨a, ha, e⟩ := every d h
      exact (hg.1 a ha d e).1
    · rw [hg.2 d (by omega) hd]
      exact one_pos
  have hn : ∀ f d, f < dim' ∨ f = 3 → d < 3 → nProc d ≤ (meshLayout dim' axes P nProc).n f d := by
    intro f d hf hd
    obtain ⟨A, hA, c1, c2⟩ := fieldAxis_count ok P f d
    have : (meshLayout dim' axes P nProc).n f d = A.n := by simp only [meshLayout, hA]
    rw [this]
    by_cases h : d < dim'
    · obtain ⟨a, ha, e⟩ := every d h
      have c3 := (hg.1 a ha d e).2
      rw [← count a ha d e] at c3
      have c4 := c2 h hf
      have c5 := per f d
      have c6 := perT 0 (2 * d) (by omega) (by omega)
      rw [hT3 0 (2 * d) (by omega) (by omega), show 2 * d / 2 = d by omega] at c6
      by_cases h1 : f = d ∧ P f d = false
      · rw [if_pos h1] at c4
        rw [if_neg (by rw [c6, ← c5 (by omega) hd, h1.2]; simp)] at c3
        omega
      · rw [if_neg h1] at c4
        split_ifs at c3 <;> omega
    · rw [c1 (by omega), hg.2 d (by omega) hd]
  obtain ⟨B, C⟩ := C57_construction debug hm.dims ok per hproc hn T' (fun f loc hf hl => by rw [hT3 f loc hf hl]; exact hw.complete f loc hf hl) perT
  have hmesh : createMesh nProc (some nodes) (some (some bs)) = .ok (some (meshLayout dim' axes P nProc, meshGeom dim' axes P, axes)) := by
    unfold createMesh cartesianMeshInit
    have h1 : fieldDirs.mapM (fun p => fieldAxis dim' axes P p.1 p.2) = .ok (fieldDirs.map fun p => (fieldAxis_count ok P p.1 p.2).choose) :=
      mapM_ok _ fun p _ => (fieldAxis_count ok P p.1 p.2).choose_spec.1
    have h2 : (fieldDirs.any fun p => decide (p.1 < dim' ∨ p.1 = 3) && decide ((meshLayout dim' axes P nProc).n p.1 p.2 < nProc p.2)) = false := by
      rw [Bool.eq_false_iff]
      intro h
      obtain ⟨p, hp, h⟩ := List.any_eq_true.1 h
      simp only [Bool.and_eq_true, decide_eq_true_eq] at h
      have := hn p.1 p.2 h.1 (mem_fieldDirs.1 hp).2
      omega
    simp only [hp, hT1, hP, bind, Except.bind]
    rw [if_neg (by omega)]
    show ignoringCode (Except.bind (fieldDirs.mapM fun p => fieldAxis dim' axes P p.1 p.2) fun _ => if dim' < 2 then .error .argWrong
      else if fieldDirs.any fun p => decide (p.1 < dim' ∨ p.1 = 3) && decide ((meshLayout dim' axes P nProc).n p.1 p.2 < nProc p.2) then .error .argOutOfRange
      else return (meshLayout dim' axes P nProc, meshGeom dim' axes P, axes)) = _
    rw [h1]
    simp only [Except.bind]
    rw [if_neg (by omega), h2]
    rfl
  refine ⟨meshLayout dim' axes P nProc, meshGeom dim' axes P, axes, T', B, ?_, C, rfl, rfl, meshOf, hT3⟩
  unfold setUp
  rw [hmesh]
  simp only [bind, Except.bind]
  rw [mapM_ok (h := fun r => some (B r)) _ fun r hr => ?_]
  · rfl
  · unfold createBoundary
    rw [hT1]
    simp only [bind, Except.bind]
    rw [C.init r (List.mem_range.1 hr)]
    rfl

/-- C89. Such a configuration with readable parameters and initial velocities runs to its last step, whatever is on the disk, if the linear solvers
return something. What is missing: errors for all other configurations (`C89_false_errors`). -/
theorem C89_run_partial (debug : Bool) {dim : ℕ} {nodes : List (AxisNode K)} {bs : List (BCNode K)} {T : BCTable K} {nProc : ℕ → ℕ}
    (hm : DescribedMesh dim nodes) (hw : DescribedWalls dim bs T) (hg : GridFits dim nodes T nProc) {P : NSParams K} (nu : K) (es : List (Expr K))
    (pe : Option (Expr K)) (enough : dim ≤ es.length) (few : es.length ≤ 4)
    (hP : ∃ haveAmgX output node, readParams haveAmgX output node (some ⟨some nu, some es, pe⟩) = .ok P) (hBN : 1 ≤ P.BN) (hs : P.nstart = 0)
    (h1 : P.nsave ≠ 0) (h2 : P.nrestart ≠ 0) {vSolve pSolve : LinSolve K} (hv : ∀ A guess rhs, ∃ y, vSolve A guess rhs = .ok y)
    (hp : ∀ A guess rhs, ∃ y, pSolve A guess rhs = .ok y) (disk : Disk K) (fuel : ℕ) (hf : P.nt.toNat ≤ fuel) :
    ∃ L G axes B s d, setUp debug nProc (some nodes) (some (some bs)) = .ok (some (L, G, axes, (List.range L.mpiSize).map fun r => some (B r))) ∧
      runSolver debug L G P (some ⟨some nu, some es, pe⟩) B vSolve pSolve fuel disk = some (.ok (s, d)) ∧
      s.ite = max P.nt 0 ∧ s.t = P.t + P.nt.toNat * P.dt := by
  obtain ⟨L, G, axes, T', B, e, C, hd, -⟩ := C89_set_up_partial debug hm hw hg
  obtain ⟨ops, s, disk', S⟩ := C60_start C nu es pe (by rw [hd]; exact enough) few hP hBN hs disk
  obtain ⟨r, hr, hok, herr⟩ := C45_run (vSolve := vSolve) (pSolve := pSolve) S h1 h2 fuel hf
  cases r with
  | error err =>
    obtain ⟨x, k, x0, -, hx, ha⟩ := herr err rfl
    rcases C60_step_errors S x0 hx err ha with ⟨q, hq⟩ | ⟨q, hq⟩
    · obtain ⟨y, hy⟩ := hv ops.A (x k).U q
      rw [hy] at hq
      cases hq
    · obtain ⟨y, hy⟩ := hp ops.DBNG (x k).dP q
      rw [hy] at hq
      cases hq
  | ok q =>
    obtain ⟨s', d⟩ := q
    obtain ⟨x, x0, hx, xn, i1, i2⟩ := hok s' d rfl
    obtain ⟨s₀, j1, j2⟩ := S.init
    obtain ⟨U, p, -, -, rfl⟩ := solverInit_ok j1
    have : s.t = P.t := by
      unfold ioInitialData at j2
      rw [if_pos hs] at j2
      obtain ⟨y, -, j2⟩ := bind_ok j2
      cases j2
      rfl
    exact ⟨L, G, axes, B, s', d, e, hr, by rw [i1, hs, zero_add], by rw [i2, this]⟩

/-! ### Configurations that describe nothing -/

theorem mapM_fails {α β : Type} {g : α → Except Error β} {e : Error} (l : List α) (h : ∀ a ∈ l, g a = .error e ∨ ∃ b, g a = .ok b)
    (hex : ∃ a ∈ l, g a = .error e) : l.mapM g = .error e := by
  induction l with
  | nil => obtain ⟨a, ha, _⟩ := hex; cases ha
  | cons a l ih =>
    rw [List.mapM_cons]
    rcases h a (List.mem_cons_self ..) with h1 | ⟨b, h1⟩
    · rw [h1]; rfl
    · rw [h1]
      obtain ⟨c, hc, h2⟩ := hex
      rcases List.mem_cons.1 hc with rfl | hc
      · rw [h1] at h2; cases h2
      · rw [show (Except.ok b >>= fun b' => l.mapM g >>= fun bs => pure (b' :: bs)) = (l.mapM g >>= fun bs => pure (b :: bs)) from rfl,
          ih (fun x hx => h x (List.mem_cons_of_mem _ hx)) ⟨c, hc, h2⟩]
        rfl

theorem mapM_returns {α β : Type} {g : α → Except Error β} (l : List α) (h : ∀ a ∈ l, ∃ b, g a = .ok b) : ∃ bs, l.mapM g = .ok bs := by
  induction l with
  | nil => exact ⟨[], rfl⟩
  | cons a l ih =>
    obtain ⟨b, hb⟩ := h a (List.mem_cons_self ..)
    obtain ⟨bs, hbs⟩ := ih fun x hx => h x (List.mem_cons_of_mem _ hx)
    exact ⟨b :: bs, by rw [List.mapM_cons, hb, hbs]; rfl⟩

/-- C89. If one component has no condition at one face, the boundary object of no process is complete, and its first use is undefined. (The creation
itself reports no error.) -/
theorem C89_missing_entry (debug : Bool) {L : Layout} (hL : LayoutOK L) (G : Geom K) (hn : ∀ f d, f < L.dim → d < 3 → 0 < L.n f d)
    {bs : List (BCNode K)} {es : List (Spec.Entry K)} (he : allEntries bs = some es) {f b : ℕ} (hf : f < L.dim) (hb : b < L.dim * 2)
    (hm : lastFor es f b = none) (r : ℕ) (q : ℤ → K) :
    createBoundary debug L G (some (some bs)) r = .ok none ∧
      (createBoundary debug L G (some (some bs)) r >>= fun B => boundarySetGhostICs B q) = .error .ub := by
  obtain ⟨T, hT, hv⟩ := C12_table_partial bs es he
  have hN : (T f b).1 = .NOBC := by rw [hv, hm]; rfl
  have each : ∀ g c, g < L.dim → c < L.dim * 2 → createSingleBoundary debug L G r c g (T g c).2 (T g c).1 = .error .argWrong ∨
      ∃ x, createSingleBoundary debug L G r c g (T g c).2 (T g c).1 = .ok x := by
    intro g c hg hc
    by_cases h0 : (T g c).1 = .NOBC
    · left; rw [h0]; rfl
    · by_cases hp : (T g c).1 = .PERIODIC
      · right; rw [hp]; exact ⟨_, rfl⟩
      · obtain ⟨x, hx, _⟩ := createSingleBoundary_points debug hL G g r c hg hc (fun d hd => hn g d hg hd) (T g c).2 _ h0 hp
        exact Or.inr ⟨x, hx⟩
  have row : ∀ g, g < L.dim → ((List.range (L.dim * 2)).mapM fun c => createSingleBoundary debug L G r c g (T g c).2 (T g c).1) = .error .argWrong ∨
      ∃ x, ((List.range (L.dim * 2)).mapM fun c => createSingleBoundary debug L G r c g (T g c).2 (T g c).1) = .ok x := by
    intro g hg
    by_cases h : ∃ c ∈ List.range (L.dim * 2), createSingleBoundary debug L G r c g (T g c).2 (T g c).1 = .error .argWrong
    · exact Or.inl (mapM_fails _ (fun c hc => each g c hg (List.mem_range.1 hc)) h)
    · right
      have : ∀ c ∈ List.range (L.dim * 2), ∃ x, createSingleBoundary debug L G r c g (T g c).2 (T g c).1 = .ok x := by
        intro c hc
        rcases each g c hg (List.mem_range.1 hc) with h' | h'
        · exact absurd ⟨c, hc, h'⟩ h
        · exact h'
      exact mapM_returns _ this
  have hI : boundaryInit debug L G r T = .error .argWrong := by
    unfold boundaryInit
    refine mapM_fails _ (fun g hg => row g (List.mem_range.1 hg)) ⟨f, List.mem_range.2 hf, ?_⟩
    exact mapM_fails _ (fun c hc => each f c hf (List.mem_range.1 hc)) ⟨b, List.mem_range.2 hb, by rw [hN]; rfl⟩
  have hC : createBoundary debug L G (some (some bs)) r = .ok none := by
    unfold createBoundary
    rw [hT]
    simp only [bind, Except.bind]
    rw [hI]
    rfl
  exact ⟨hC, by rw [hC]; rfl⟩

/-- What the check of the periodic conditions accepts, if there is a condition for each component at each face. -/
theorem alike_of_check {dim : ℕ} (hd3 : dim ≤ 3) {T : BCTable K} (all : ∀ f b, f < dim → b < dim * 2 → (T f b).1 ≠ .NOBC) {P : ℕ → ℕ → Bool}
    (h : checkPeriodicBC (fun f b => (T f b).1) = .ok P) : PeriodicAlike dim T := by
  have : ∃ comps, dim ≤ comps ∧ ((comps = 2 ∧ ∀ b, b < 6 → (T 2 b).1 = .NOBC) ∨ (comps = 3 ∧ ∃ b, b < 6 ∧ (T 2 b).1 ≠ .NOBC)) := by
    by_cases h2 : ∀ b, b < 6 → (T 2 b).1 = .NOBC
    · refine ⟨2, ?_, Or.inl ⟨rfl, h2⟩⟩
      by_contra h3
      exact all 2 0 (by omega) (by omega) (h2 0 (by omega))
    · push Not at h2
      exact ⟨3, hd3, Or.inr ⟨rfl, h2⟩⟩
  obtain ⟨comps, hc, hcomps⟩ := this
  have hcons := ((C11_periodic_check _ comps hcomps P).1 h).1
  intro d hd
  rcases hcons d (by omega) with h | h
  · exact Or.inl fun f hf => h.1 f (by omega)
  · exact Or.inr fun f hf => h f (by omega)

/-- C89. Components that are periodic in different directions, or at one end only: the mesh object is not complete. (The creation reports no error.) -/
theorem C89_inconsistent (nProc : ℕ → ℕ) {dim : ℕ} {nodes : List (AxisNode K)} (hm : DescribedMesh dim nodes) {bs : List (BCNode K)}
    {es : List (Spec.Entry K)} (he : allEntries bs = some es) {T : BCTable K}
    (all : ∀ f b, f < dim → b < dim * 2 → lastFor es f b = some (T f b) ∧ (T f b).1 ≠ .NOBC) (bad : ¬ PeriodicAlike dim T) :
    createMesh nProc (some nodes) (some (some bs)) = .ok none := by
  obtain ⟨⟨dim', m⟩, hp⟩ := parseMesh_accepts nodes fun a ha => (hm.cells a ha).2
  obtain ⟨T', hT1, hT2⟩ := C12_table_partial bs es he
  have hT3 : ∀ f b, f < dim → b < dim * 2 → T' f b = T f b := by
    intro f b hf hb
    rw [hT2, (all f b hf hb).1]
    rfl
  have hd3 : dim ≤ 3 := by rcases hm.dims with h | h <;> omega
  have fail : checkPeriodicBC (fun f b => (T' f b).1) = .error .argIncompatible := by
    cases h : checkPeriodicBC fun f b => (T' f b).1 with
    | error e => rw [C11_error_code _ e h]
    | ok P =>
      refine absurd (fun d hd => ?_) bad
      have := alike_of_check (dim := dim) hd3 (fun f b hf hb => by rw [hT3 f b hf hb]; exact (all f b hf hb).2) h d hd
      refine this.imp (fun h f hf => ?_) fun h f hf => ?_
      · rw [← hT3 f _ hf (by omega), ← hT3 f _ hf (by omega)]; exact h f hf
      · rw [← hT3 f _ hf (by omega), ← hT3 f _ hf (by omega)]; exact h f hf
  unfold createMesh cartesianMeshInit
  simp only [hp, hT1, fail, bind, Except.bind]
  rfl

/-- C89. Without boundary conditions the mesh object is not complete; without a mesh the creation throws. -/
theorem C89_missing_section (nProc : ℕ → ℕ) {dim : ℕ} {nodes : List (AxisNode K)} (hm : DescribedMesh dim nodes) (flow : Option (Option (List (BCNode K)))) :
    createMesh nProc (some nodes) none = .ok none ∧ createMesh nProc (some nodes) (some none) = .ok none ∧
      createMesh (K := K) nProc none flow = .error .exception := by
  obtain ⟨⟨dim', m⟩, hp⟩ := parseMesh_accepts nodes fun a ha => (hm.cells a ha).2
  refine ⟨?_, ?_, rfl⟩ <;>
  · unfold createMesh cartesianMeshInit
    simp only [hp, C12_missing_section, bind, Except.bind]
    rfl

/-- C89. More than three entries in the section of the mesh: the arrays of the mesh object have three directions, so its creation is undefined (here with
conditions that are not periodic, which all pass the check before). -/
theorem C89_too_many (debug : Bool) (nProc : ℕ → ℕ) {nodes : List (AxisNode K)} (hn : 3 < nodes.length)
    (hc : ∀ a ∈ nodes, ∀ s ∈ a.subDomains, 1 ≤ s.cells ∧ 0 < s.stretchRatio) {bs : List (BCNode K)} {es : List (Spec.Entry K)}
    (he : allEntries bs = some es) (open_ : ∀ e ∈ es, e.type ≠ .PERIODIC) :
    createMesh nProc (some nodes) (some (some bs)) = .error .ub ∧ setUp debug nProc (some nodes) (some (some bs)) = .error .ub := by
  obtain ⟨⟨dim, m⟩, hp⟩ := parseMesh_accepts nodes hc
  obtain ⟨T, hT1, hT2⟩ := C12_table_partial bs es he
  have hdim : dim = nodes.length := by
    obtain ⟨_, _, h⟩ := bind_ok hp
    cases h
    rfl
  have none_ : ∀ f b, (T f b).1 ≠ .PERIODIC := by
    intro f b h
    rw [hT2] at h
    unfold lastFor at h
    cases hl : (es.filter fun e => e.comp = f ∧ e.loc = b).getLast? with
    | none => rw [hl] at h; cases h
    | some q =>
      rw [hl] at h
      exact open_ q (List.mem_of_mem_filter (List.mem_of_getLast? hl)) h
  have comps : ∃ c, (c = 2 ∧ ∀ b, b < 6 → (T 2 b).1 = .NOBC) ∨ (c = 3 ∧ ∃ b, b < 6 ∧ (T 2 b).1 ≠ .NOBC) := by
    by_cases h2 : ∀ b, b < 6 → (T 2 b).1 = .NOBC
    · exact ⟨2, Or.inl ⟨rfl, h2⟩⟩
    · push Not at h2
      exact ⟨3, Or.inr ⟨rfl, h2⟩⟩
  obtain ⟨c, hcomps⟩ := comps
  have check : checkPeriodicBC (fun f b => (T f b).1) = .ok fun _ _ => false := by
    refine (C11_periodic_check _ c hcomps _).2 ⟨fun d _ => Or.inr fun f _ => ⟨none_ f _, none_ f _⟩, fun f d => ⟨fun h => (by cases h), fun h => ?_⟩⟩
    exact absurd h.2.2.1 (none_ f _)
  have key : createMesh nProc (some nodes) (some (some bs)) = .error .ub := by
    unfold createMesh cartesianMeshInit
    simp only [hp, hT1, check, bind, Except.bind]
    rw [if_pos (by omega)]
    rfl
  refine ⟨key, ?_⟩
  unfold setUp
  rw [key]
  rfl

theorem mapM_each {α β : Type} {g : α → Except Error β} {l : List α} {ys : List β} (h : l.mapM g = .ok ys) (a : α) (ha : a ∈ l) :
    ∃ b, g a = .ok b := by
  induction l generalizing ys with
  | nil => cases ha
  | cons c l ih =>
    rw [List.mapM_cons] at h
    obtain ⟨b, hb, h⟩ := bind_ok h
    obtain ⟨bs, hbs, _⟩ := bind_ok h
    rcases List.mem_cons.1 ha with rfl | ha
    · exact ⟨b, hb⟩
    · exact ih hbs ha

theorem ignoringCode_some {α : Type} {x : Except Error α} {y : α} (h : ignoringCode x = .ok (some y)) : x = .ok y := by
  cases x with
  | ok z =>
    cases h
    rfl
  | error e => cases e <;> cases h

/-- C89. If the mesh object and all boundary objects are complete, the configuration is: two or three directions, a condition for each component at each
face, and periodic conditions for all components alike. -/
theorem C89_complete {debug : Bool} {nProc : ℕ → ℕ} {nodes : List (AxisNode K)} {bs : List (BCNode K)} {es : List (Spec.Entry K)}
    (he : allEntries bs = some es) {L : Layout} {G : Geom K} {axes : ℕ → Axis K} {Bs : List (Option (Boundary K))}
    (h : setUp debug nProc (some nodes) (some (some bs)) = .ok (some (L, G, axes, Bs))) (hB : ∃ B, some B ∈ Bs) :
    (L.dim = 2 ∨ L.dim = 3) ∧ L.dim = nodes.length ∧
      (∀ f b, f < L.dim → b < L.dim * 2 → ∃ t v, lastFor es f b = some (t, v) ∧ t ≠ .NOBC) ∧
      PeriodicAlike L.dim (fun f b => (lastFor es f b).getD (.NOBC, 0)) ∧
      ∀ f d, f < L.dim ∨ f = 3 → d < 3 → nProc d ≤ L.n f d := by
  obtain ⟨T, hT, hv⟩ := C12_table_partial bs es he
  unfold setUp at h
  obtain ⟨m, hm, h⟩ := bind_ok h
  cases m with
  | none => cases h
  | some x =>
    obtain ⟨L', G', axes'⟩ := x
    obtain ⟨Bs', hBs, h⟩ := bind_ok h
    have hinit := ignoringCode_some hm
    cases h
    unfold cartesianMeshInit at hinit
    obtain ⟨⟨dim, m⟩, hp, hinit⟩ := bind_ok hinit
    obtain ⟨T', hT', hinit⟩ := bind_ok hinit
    rw [hT] at hT'
    cases hT'
    obtain ⟨per, hper, hinit⟩ := bind_ok hinit
    dsimp only at hinit
    split at hinit
    · cases hinit
    · rename_i h3
      obtain ⟨_, -, hinit⟩ := bind_ok hinit
      split at hinit
      · cases hinit
      · rename_i h2
        split at hinit
        · cases hinit
        · rename_i hgrid
          cases hinit
          have hdim : (meshLayout dim (fun d => (⟨m.bg d, m.ed d, m.dL d⟩ : Axis K)) per nProc).dim = dim := rfl
          have hlen : dim = nodes.length := by
            obtain ⟨_, -, hp⟩ := bind_ok hp
            cases hp
            rfl
          obtain ⟨B, hB⟩ := hB
          obtain ⟨r, -, hr⟩ := mapM_mem hBs hB
          have hr := ignoringCode_some hr
          rw [hT] at hr
          replace hr : boundaryInit debug _ _ r T = .ok B := hr
          have all : ∀ f b, f < dim → b < dim * 2 → (T f b).1 ≠ .NOBC := by
            intro f b hf hb h0
            unfold boundaryInit at hr
            obtain ⟨row, hrow⟩ := mapM_each hr f (List.mem_range.2 hf)
            obtain ⟨x, hx⟩ := mapM_each hrow b (List.mem_range.2 hb)
            rw [h0] at hx
            cases hx
          rw [hdim]
          refine ⟨by omega, hlen, fun f b hf hb => ?_, ?_, fun f d hf hd => ?_⟩
          · have h0 := all f b hf hb
            rw [hv] at h0
            cases hl : lastFor es f b with
            | none => rw [hl] at h0; exact absurd rfl h0
            | some q => exact ⟨q.1, q.2, rfl, by rw [hl] at h0; exact h0⟩
          · have : (fun f b => (lastFor es f b).getD (.NOBC, 0)) = T := by
              funext f b
              rw [hv]
            rw [this]
            exact alike_of_check (by omega) all hper
          · by_contra hlt
            refine hgrid (List.any_eq_true.2 ⟨(f, d), mem_fieldDirs.2 ⟨by omega, hd⟩, ?_⟩)
            simp only [Bool.and_eq_true, decide_eq_true_eq]
            exact ⟨hf, by omega⟩

/-! ### Examples -/

/-- A box with two sub-domains in `x`, listed after `y`. -/
def cavityMesh : List (AxisNode ℚ) := [⟨"y", -1, [⟨3, 2, 1⟩]⟩, ⟨"x", 0, [⟨2, 3, 2⟩, ⟨2, 4, 1⟩]⟩]

/-- Walls, and a lid that moves. -/
def cavityWalls : List (BCNode ℚ) :=
  [⟨some "left", [("u", "DIRICHLET", 0), ("v", "DIRICHLET", 0)]⟩, ⟨some "xPlus", [("u", "CONVECTIVE", 1), ("v", "NEUMANN", 0)]⟩,
    ⟨some "bottom", [("u", "DIRICHLET", 0), ("v", "DIRICHLET", 0)]⟩, ⟨some "top", [("u", "DIRICHLET", 1), ("v", "DIRICHLET", 0)]⟩]

def cavityEntries : List (Spec.Entry ℚ) :=
  [⟨0, 0, .DIRICHLET, 0⟩, ⟨1, 0, .DIRICHLET, 0⟩, ⟨0, 1, .CONVECTIVE, 1⟩, ⟨1, 1, .NEUMANN, 0⟩,
    ⟨0, 2, .DIRICHLET, 0⟩, ⟨1, 2, .DIRICHLET, 0⟩, ⟨0, 3, .DIRICHLET, 1⟩, ⟨1, 3, .DIRICHLET, 0⟩]

def cavityTable : BCTable ℚ := fun f b =>
  if b = 1 then (if f = 0 then (.CONVECTIVE, 1) else (.NEUMANN, 0)) else if f = 0 ∧ b = 3 then (.DIRICHLET, 1) else (.DIRICHLET, 0)

def cavityGrid : ℕ → ℕ := fun d => if d = 0 then 2 else 1

theorem cavityMesh_described : DescribedMesh 2 cavityMesh where
  dims := Or.inl rfl
  directions := by decide
  cells := by
    intro a ha
    simp only [cavityMesh, List.mem_cons, List.not_mem_nil, or_false] at ha
    rcases ha with rfl | rfl <;> simp <;> norm_num
  forward := by
    intro a ha
    simp only [cavityMesh, List.mem_cons, List.not_mem_nil, or_false] at ha
    rcases ha with rfl | rfl <;> simp [Forward] <;> norm_num

theorem cavityWalls_entries : allEntries cavityWalls = some cavityEntries := by rfl

/-- The hypotheses of `C89_too_many` are met by a mesh with each direction given twice. -/
example : 3 < (cavityMesh ++ cavityMesh).length ∧ (∀ a ∈ cavityMesh ++ cavityMesh, ∀ s ∈ a.subDomains, 1 ≤ s.cells ∧ 0 < s.stretchRatio) ∧
    allEntries cavityWalls = some cavityEntries ∧ ∀ e ∈ cavityEntries, e.type ≠ .PERIODIC := by
  refine ⟨by decide, fun a ha => ?_, cavityWalls_entries, by decide⟩
  rw [List.mem_append, or_self] at ha
  exact (cavityMesh_described.cells a ha).2

theorem cavityWalls_described : DescribedWalls 2 cavityWalls cavityTable where
  entries := ⟨cavityEntries, cavityWalls_entries, by
      intro e he
      simp only [cavityEntries, List.mem_cons, List.not_mem_nil, or_false] at he
      rcases he with rfl | rfl | rfl | rfl | rfl | rfl | rfl | rfl <;> simp, by
      intro f b hf hb
      interval_cases f <;> interval_cases b <;> rfl⟩
  complete := by
    intro f b hf hb
    interval_cases f <;> interval_cases b <;> decide
  alike := by
    intro d hd
    right
    intro f hf
    interval_cases f <;> interval_cases d <;> decide

theorem cavityGrid_fits : GridFits 2 cavityMesh cavityTable cavityGrid := by
  refine ⟨fun a ha d hd => ?_, fun d h1 h2 => ?_⟩
  · simp only [cavityMesh, List.mem_cons, List.not_mem_nil, or_false] at ha
    rcases ha with rfl | rfl
    · cases (show some 1 = some d from hd)
      decide
    · cases (show some 0 = some d from hd)
      decide
  · have : d = 2 := by omega
    subst this
    rfl

/-- C89_set_up_partial and C89_run_partial apply to it: two processes, four steps. -/
example (disk : Disk ℚ) :
    ∃ L G axes B s d, setUp true cavityGrid (some cavityMesh) (some (some cavityWalls)) =
        .ok (some (L, G, axes, (List.range L.mpiSize).map fun r => some (B r))) ∧
      runSolver true L G (exampleParams .ksp) (some exampleFlow) B (fun _ g _ => .ok g) (fun _ _ r => .ok r) 4 disk = some (.ok (s, d)) ∧
      s.ite = max 4 0 ∧ s.t = 0 + (4 : ℤ).toNat * (1 / 10) :=
  C89_run_partial true cavityMesh_described cavityWalls_described cavityGrid_fits (1 / 100) _ none (by decide) (by decide) (exampleParams_read .ksp) (le_refl 1)
    rfl (by decide) (by decide) (fun _ g _ => ⟨g, rfl⟩) (fun _ _ r => ⟨r, rfl⟩) disk 4 (by decide)

/-- C89_complete applies to it as well. -/
example : ∃ L G axes Bs, setUp true cavityGrid (some cavityMesh) (some (some cavityWalls)) = .ok (some (L, G, axes, Bs)) ∧ ∃ B, some B ∈ Bs := by
  obtain ⟨L, G, axes, T, B, e, C, -⟩ := C89_set_up_partial true cavityMesh_described cavityWalls_described cavityGrid_fits
  refine ⟨L, G, axes, _, e, B 0, List.mem_map.2 ⟨0, List.mem_range.2 ?_, rfl⟩⟩
  have := fun d (hd : d < 3) => (C.part 3 d (Or.inr rfl) hd).2.1
  exact Nat.mul_pos (Nat.mul_pos (this 0 (by omega)) (this 1 (by omega))) (this 2 (by omega))

/-- The cavity without the condition for `v` at the lid. -/
def openWalls : List (BCNode ℚ) :=
  [⟨some "left", [("u", "DIRICHLET", 0), ("v", "DIRICHLET", 0)]⟩, ⟨some "xPlus", [("u", "CONVECTIVE", 1), ("v", "NEUMANN", 0)]⟩,
    ⟨some "bottom", [("u", "DIRICHLET", 0), ("v", "DIRICHLET", 0)]⟩, ⟨some "top", [("u", "DIRICHLET", 1)]⟩]

/-- Periodic in `x`, but not for `v`. -/
def seamWalls : List (BCNode ℚ) :=
  [⟨some "left", [("u", "PERIODIC", 0), ("v", "DIRICHLET", 0)]⟩, ⟨some "xPlus", [("u", "PERIODIC", 1), ("v", "NEUMANN", 0)]⟩,
    ⟨some "bottom", [("u", "DIRICHLET", 0), ("v", "DIRICHLET", 0)]⟩, ⟨some "top", [("u", "DIRICHLET", 1), ("v", "DIRICHLET", 0)]⟩]

/-- The cavity with its ends in the wrong order. -/
def backwardMesh : List (AxisNode ℚ) := [⟨"y", -1, [⟨3, 2, 1⟩]⟩, ⟨"x", 4, [⟨4, 0, 1⟩]⟩]

/-- C89 is false for wrong configurations: the creation of mesh and boundary objects returns without error if a condition is missing (the first use of
the boundary objects is then undefined), if the periodic conditions do not agree, and if the ends of the sub-domains decrease (all objects are then
complete, with cells of negative width). -/
theorem C89_false_errors :
    (∃ L G axes, setUp true cavityGrid (some cavityMesh) (some (some openWalls)) = .ok (some (L, G, axes, [none, none])) ∧
      boundarySetGhostICs (none : Option (Boundary ℚ)) (fun _ => 0) = .error .ub) ∧
    setUp true cavityGrid (some cavityMesh) (some (some seamWalls)) = .ok none ∧
    ∃ L G axes B₀ B₁, setUp true cavityGrid (some backwardMesh) (some (some cavityWalls)) = .ok (some (L, G, axes, [some B₀, some B₁])) ∧
      (axes 0).dL = [-1, -1, -1, -1] := by
  refine ⟨?_, ?_, ?_⟩
  · have h : (setUp true cavityGrid (some cavityMesh) (some (some openWalls))).toOption.map
        (fun q => q.map fun q => q.2.2.2.map Option.isSome) = some (some [false, false]) := by decide +kernel
    revert h
    generalize setUp true cavityGrid (some cavityMesh) (some (some openWalls)) = x
    intro h
    rcases x with e | _ | ⟨L, G, axes, Bs⟩
    · cases h
    · cases h
    · have h := Option.some.inj (Option.some.inj h)
      rcases Bs with _ | ⟨a, _ | ⟨b, _ | ⟨c, l⟩⟩⟩
      · cases h
      · simp at h
      · rcases a with _ | a <;> rcases b with _ | b
        · exact ⟨L, G, axes, rfl, rfl⟩
        all_goals cases h
      · simp at h
  · have h : (setUp true cavityGrid (some cavityMesh) (some (some seamWalls))).toOption.map Option.isSome = some false := by decide +kernel
    revert h
    generalize setUp true cavityGrid (some cavityMesh) (some (some seamWalls)) = x
    intro h
    rcases x with e | _ | q
    · cases h
    · rfl
    · cases h
  · have h : (setUp true cavityGrid (some backwardMesh) (some (some cavityWalls))).toOption.map
        (fun q => q.map fun q => (q.2.2.2.map Option.isSome, (q.2.2.1 0).dL)) = some (some ([true, true], [-1, -1, -1, -1])) := by decide +kernel
    revert h
    generalize setUp true cavityGrid (some backwardMesh) (some (some cavityWalls)) = x
    intro h
    rcases x with e | _ | ⟨L, G, axes, Bs⟩
    · cases h
    · cases h
    · have h := Option.some.inj (Option.some.inj h)
      obtain ⟨h, h'⟩ := Prod.mk.inj h
      rcases Bs with _ | ⟨a, _ | ⟨b, _ | ⟨c, l⟩⟩⟩
      · cases h
      · simp at h
      · rcases a with _ | a <;> rcases b with _ | b
        · cases h
        · cases h
        · cases h
        · exact ⟨L, G, axes, a, b, rfl, h'⟩
      · simp at h

end PetIBM
