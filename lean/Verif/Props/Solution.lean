/-
Properties C54 and C56: saved fields and initial conditions.
-/
import Verif.Lemmas.Solution
import Verif.Props.Convection

set_option linter.unusedSectionVars false

namespace PetIBM

open Spec

section

variable {K : Type} [Field K]

theorem assign_velocity {L : Layout} (hL : LayoutOK L) {ws : List (ℤ × K)} {u : ℕ → ℕ × ℕ × ℕ → K}
    (hw : ∀ w, w ∈ ws ↔ ∃ f, f < L.dim ∧ ∃ p ∈ gridList L.toMeshInfo f, (col L f (pst p), u f p) = w) (U : ℤ → K)
    {f : ℕ} (hf : f < L.dim) {p : ℕ × ℕ × ℕ} (hp : p ∈ gridList L.toMeshInfo f) : vecAssign U ws (col L f (pst p)) = u f p := by
  apply vecAssign_of_mem ((hw _).2 ⟨f, hf, p, hp, rfl⟩)
  intro w h he
  obtain ⟨g, hg, p', hp', rfl⟩ := (hw w).1 h
  obtain ⟨rfl, hs⟩ := col_inj hL hg hf (inside_pst hp') (inside_pst hp) he
  have : p' = p := by
    obtain ⟨i, j, k⟩ := p
    obtain ⟨i', j', k'⟩ := p'
    simp only [pst, Stencil.mk.injEq] at hs
    simp only [Prod.mk.injEq]
    omega
  rw [this]

theorem assign_pressure {L : Layout} (hL : LayoutOK L) {ws : List (ℤ × K)} {u : ℕ × ℕ × ℕ → K}
    (hw : ∀ w, w ∈ ws ↔ ∃ p ∈ gridList L.toMeshInfo 3, (col L 3 (pst p), u p) = w) (q : ℤ → K)
    {p : ℕ × ℕ × ℕ} (hp : p ∈ gridList L.toMeshInfo 3) : vecAssign q ws (col L 3 (pst p)) = u p := by
  apply vecAssign_of_mem ((hw _).2 ⟨p, hp, rfl⟩)
  intro w h he
  obtain ⟨p', hp', rfl⟩ := (hw w).1 h
  have hs := col_inj_pressure hL (inside_pst hp') (inside_pst hp) he
  have : p' = p := by
    obtain ⟨i, j, k⟩ := p
    obtain ⟨i', j', k'⟩ := p'
    simp only [pst, Stencil.mk.injEq] at hs
    simp only [Prod.mk.injEq]
    omega
  rw [this]

/-! ### C54 -/

/-- C54. Fields written with one distribution of the mesh over processes and read with the same or another distribution
hold at every grid point the value written there, for every previous content of the vectors and of the disk. No other
file changes. -/
theorem C54_solution_round_trip {L₁ L₂ : Layout} (h₁ : LayoutOK L₁) (h₂ : LayoutOK L₂) (same : L₂.toMeshInfo = L₁.toMeshInfo)
    (U p U' p' : ℤ → K) (disk : Disk K) (path : String) :
    ∃ disk' V q, solutionWrite L₁ U p disk path = .ok disk' ∧ (∀ other, other ≠ path → disk' other = disk other) ∧
      solutionRead L₂ U' p' disk' path = .ok (V, q) ∧
      (∀ f s i₁ i₂, f < L₁.dim → Inside L₁.toMeshInfo f s → L₁.getPackedGlobalIndex false f s = .ok i₁ →
        L₂.getPackedGlobalIndex false f s = .ok i₂ → V i₂ = U i₁) ∧
      (∀ s i₁ i₂, Inside L₁.toMeshInfo 3 s → L₁.getPackedGlobalIndex false 3 s = .ok i₁ →
        L₂.getPackedGlobalIndex false 3 s = .ok i₂ → q i₂ = p i₁) := by
  obtain ⟨file, hw, _, hv, hp, _⟩ := solutionWrite_eq h₁ U p disk path
  have hd : L₂.dim = L₁.dim := congrArg MeshInfo.dim same
  let u : ℕ → ℕ × ℕ × ℕ → K := fun f x => if f = 3 then p (col L₁ 3 (pst x)) else U (col L₁ f (pst x))
  have h3 : L₁.dim ≤ 3 := by rcases h₁.dim with h | h <;> omega
  have hr := solutionRead_eq h₂ U' p' (disk := Function.update disk path (some file)) (path := path) (file := file) (by simp) (u := u)
    (by
      intro f hf
      rw [hd] at hf
      rw [hv f hf, same]
      have h : f ≠ 3 := by omega
      simp only [u, if_neg h])
    (by
      rw [hp, same]
      simp only [u, if_true])
  refine ⟨_, _, _, hw, fun o ho => by rw [Function.update_of_ne ho], hr, ?_, ?_⟩
  · intro f s i₁ i₂ hf hs e₁ e₂
    have hs₂ : Inside L₂.toMeshInfo f s := by rw [same]; exact hs
    rw [(col_inside h₁ (Or.inl hf) false hs).1] at e₁
    rw [(col_inside h₂ (Or.inl (by rw [hd]; exact hf)) false hs₂).1] at e₂
    cases e₁
    cases e₂
    obtain ⟨x, hx, rfl⟩ := exists_pst hs₂
    rw [assign_velocity h₂ (u := u) (f := f)]
    · simp only [u]
      rw [if_neg (by omega)]
    · intro w
      simp only [List.mem_flatMap, List.mem_range, List.mem_map]
    · rw [hd]; exact hf
    · exact hx
  · intro s i₁ i₂ hs e₁ e₂
    have hs₂ : Inside L₂.toMeshInfo 3 s := by rw [same]; exact hs
    rw [(col_inside h₁ (Or.inr rfl) false hs).1] at e₁
    rw [(col_inside h₂ (Or.inr rfl) false hs₂).1] at e₂
    cases e₁
    cases e₂
    obtain ⟨x, hx, rfl⟩ := exists_pst hs₂
    rw [assign_pressure h₂ (u := u 3)]
    · simp only [u, if_true]
    · intro w
      simp only [List.mem_map]
    · exact hx

/-- C54. With the same distribution the vectors are restored entry by entry. -/
theorem C54_vectors_restored {L : Layout} (hL : LayoutOK L) (U p U' p' : ℤ → K) (disk : Disk K) (path : String) :
    ∃ disk' V q, solutionWrite L U p disk path = .ok disk' ∧ solutionRead L U' p' disk' path = .ok (V, q) ∧
      (∀ i : ℤ, 0 ≤ i → i < L.UN → V i = U i) ∧ (∀ i : ℤ, 0 ≤ i → i < L.pN → q i = p i) := by
  obtain ⟨disk', V, q, h1, _, h2, h3, h4⟩ := C54_solution_round_trip hL hL rfl U p U' p' disk path
  refine ⟨disk', V, q, h1, h2, ?_, ?_⟩
  · intro i h0 hN
    obtain ⟨u, hu, rfl⟩ := col_surj hL h0 hN
    have := (col_inside hL (Or.inl hu.1) false hu.inside).1
    exact h3 _ _ _ _ hu.1 hu.inside this this
  · intro i h0 hN
    obtain ⟨x, ⟨hx, hi⟩, _⟩ := (C04_pressure_index_bijective false L hL 0).2 i h0 hN
    exact h4 (pst x) _ _ (inside_pst (mem_gridList.2 hx)) hi hi

/-- C54. Appending data sets with distinct names: they can be read back, all other data sets and the time of the file and
all other files are unchanged. Without `append` the other data sets are gone. -/
theorem C54_append (disk : Disk K) (path group : String) (names : List String) (vecs : List (List K))
    (hl : names.length = vecs.length) (hn : names.Nodup) (mode : FileMode) :
    let disk' := writeHDF5Vecs disk path group names vecs mode
    readHDF5Vecs disk' path group names (vecs.map List.length) = .ok vecs ∧
    (∀ other, other ≠ path → disk' other = disk other) ∧
    ∃ file, disk' path = some file ∧ ∀ data, (∀ name ∈ names, data ≠ group ++ name) →
      (mode = .append → ∀ old, disk path = some old → file.data data = old.data data ∧ file.time = old.time) ∧
      (mode = .write ∨ disk path = none → file.data data = none ∧ file.time = none) := by
  intro disk'
  have hz : ((names.zip vecs).map (·.1)) = names := by rw [List.map_fst_zip]; omega
  have hz2 : ((names.zip vecs).map (·.2)) = vecs := by rw [List.map_snd_zip]; omega
  have hzn : names.zip (vecs.map List.length) = (names.zip vecs).map fun nv => (nv.1, nv.2.length) := by
    rw [← List.map_id names, List.zip_map]
    simp [Prod.map]
  refine ⟨?_, fun o ho => by simp only [disk', writeHDF5Vecs]; rw [Function.update_of_ne ho], ?_⟩
  · simp only [disk', writeHDF5Vecs]
    generalize mode.start (disk path) = st
    obtain ⟨_, h2, _⟩ := foldl_put (names.zip vecs) st group
    have h2 := h2 (by rw [hz]; exact hn)
    unfold readHDF5Vecs
    rw [Function.update_self]
    simp only
    rw [hzn, List.mapM_map]
    have := mapM_ok (g := fun nv : String × List K => ((names.zip vecs).foldl (fun file nv => file.put (group ++ nv.1) nv.2) st).get (group ++ nv.1) nv.2.length)
      (h := fun nv => nv.2) (names.zip vecs) (by
        intro nv hnv
        unfold H5File.get
        rw [h2 nv hnv]
        simp)
    rw [hz2] at this
    exact this
  · simp only [disk', writeHDF5Vecs]
    refine ⟨_, Function.update_self .., ?_⟩
    intro data hdata
    have hne : ∀ nv ∈ names.zip vecs, group ++ nv.1 ≠ data := by
      intro nv hnv
      exact (hdata nv.1 (by rw [← hz]; exact List.mem_map_of_mem hnv)).symm
    constructor
    · rintro rfl old hold
      obtain ⟨h1, _, h3⟩ := foldl_put (names.zip vecs) old group
      rw [hold]
      exact ⟨h1 data hne, h3⟩
    · intro hm
      obtain ⟨h1, _, h3⟩ := foldl_put (names.zip vecs) (H5File.empty : H5File K) group
      have e : mode.start (disk path) = H5File.empty := by
        rcases hm with rfl | hm
        · rfl
        · cases mode
          · rfl
          · simp [FileMode.start, hm]
      rw [e]
      exact ⟨h1 data hne, h3⟩

/-- C54. Reading fails if there is no file, if a data set is missing or if it has another number of entries. -/
theorem C54_read_rejected {L : Layout} (hL : LayoutOK L) (U p : ℤ → K) (disk : Disk K) (path : String)
    (bad : disk path = none ∨ ∃ file, disk path = some file ∧ ((∃ f, f < L.dim ∧ ∀ v, file.data ("/" ++ fd2str f) = some v →
        v.length ≠ L.n f 0 * L.n f 1 * L.n f 2) ∨ ∀ v, file.data "/p" = some v → v.length ≠ L.n 3 0 * L.n 3 1 * L.n 3 2)) :
    solutionRead L U p disk path = .error .fileRead := by
  have len : ∀ f, (gridList L.toMeshInfo f).length = L.n f 0 * L.n f 1 * L.n f 2 := by
    intro f
    unfold gridList
    simp [List.length_flatMap]
    ring
  have bindErr : ∀ {α β : Type} {x : Except Error α} {g : α → Except Error β}, x = .error .fileRead → (x >>= g) = .error .fileRead := by
    intro α β x g h; rw [h]; rfl
  unfold solutionRead
  rw [mapM_ok (h := fun f => (gridList L.toMeshInfo f).map fun x => col L f (pst x))
      (List.range L.dim) (fun f hf => naturalOrder_eq hL (Or.inl (List.mem_range.1 hf))), naturalOrder_eq hL (Or.inr rfl)]
  show (do
    let vecs ← readHDF5Vecs disk path "/" ((List.range L.dim).map fd2str ++ ["p"]) _
    Except.ok _) = _
  apply bindErr
  have hn : (List.range L.dim).map fd2str ++ ["p"] = (fieldNames L.dim).map fd2str := by
    unfold fieldNames; rw [List.map_append]; rfl
  have hsz : (((List.range L.dim).map fun f => (gridList L.toMeshInfo f).map fun x => col L f (pst x)) ++
      [(gridList L.toMeshInfo 3).map fun x => col L 3 (pst x)]).map (·.length) =
      (fieldNames L.dim).map fun f => (gridList L.toMeshInfo f).length := by
    unfold fieldNames
    simp [Function.comp_def]
  rw [hn, hsz]
  unfold readHDF5Vecs
  rcases bad with h | ⟨file, h, bad⟩
  · rw [h]
  · rw [h, zip_map_map]
    simp only
    rw [List.mapM_map]
    have each : ∀ (a : String) (n : ℕ), file.get a n = .error .fileRead ∨ ∃ v, file.get a n = .ok v := by
      intro a n
      unfold H5File.get
      cases file.data a with
      | none => exact Or.inl rfl
      | some v =>
        by_cases hv : v.length = n
        · exact Or.inr ⟨v, by simp [hv]⟩
        · exact Or.inl (by simp [hv])
    have key : ∀ l : List ℕ, (∃ f ∈ l, file.get ("/" ++ fd2str f) (gridList L.toMeshInfo f).length = .error .fileRead) →
        l.mapM (fun f => file.get ("/" ++ fd2str f) (gridList L.toMeshInfo f).length) = .error .fileRead := by
      intro l
      induction l with
      | nil => rintro ⟨f, hf, _⟩; simp at hf
      | cons a l ih =>
        rintro ⟨f, hf, he⟩
        rw [List.mapM_cons]
        rcases each ("/" ++ fd2str a) (gridList L.toMeshInfo a).length with ha | ⟨v, ha⟩
        · exact bindErr ha
        · rw [ha]
          show (List.mapM _ l >>= fun vs => Except.ok (v :: vs)) = _
          apply bindErr
          apply ih
          rcases List.mem_cons.1 hf with rfl | hf
          · rw [ha] at he; cases he
          · exact ⟨f, hf, he⟩
    refine key _ ?_
    have miss : ∀ f, (∀ v, file.data ("/" ++ fd2str f) = some v → v.length ≠ L.n f 0 * L.n f 1 * L.n f 2) →
        file.get ("/" ++ fd2str f) (gridList L.toMeshInfo f).length = .error .fileRead := by
      intro f hf
      unfold H5File.get
      rw [len]
      cases hv : file.data ("/" ++ fd2str f) with
      | none => rfl
      | some v => simp [hf v hv]
    rcases bad with ⟨f, hf, bad⟩ | bad
    · exact ⟨f, by simp [fieldNames, hf], miss f bad⟩
    · exact ⟨3, by simp [fieldNames], miss 3 bad⟩

/-! ### C56 -/

theorem assignIC_eq {L : Layout} (hL : LayoutOK L) (G : Geom K) (ICs : List (Option (Expr K))) (nu : K) {f : ℕ}
    (hf : f < L.dim ∨ f = 3) {e : Expr K} (he : ICs[f]? = some (some e)) :
    assignIC L G ICs nu f = .ok ((List.range L.mpiSize).flatMap fun r => (L.box f r).map fun p =>
      (col L f (pst p), e (G.coord f 0 p.1) (G.coord f 1 p.2.1) (G.coord f 2 p.2.2) 0 nu)) := by
  unfold assignIC
  rw [mapM_ok (h := fun r => (L.box f r).map fun p =>
      (col L f (pst p), e (G.coord f 0 p.1) (G.coord f 1 p.2.1) (G.coord f 2 p.2.2) 0 nu))]
  · show Except.ok _ = _
    rw [List.flatMap_map]
    rfl
  · intro r hr
    apply mapM_ok
    rintro ⟨i, j, k⟩ hp
    have ho := mem_box.1 hp
    have hg := owns_inGrid hL hf ho
    have := (col_inside hL hf false (inside_nat (f := f) (M := L.toMeshInfo) hg.1 hg.2.1 hg.2.2)).1
    simp only
    rw [this]
    unfold callIC
    rw [he]
    rfl

theorem mem_boxes {L : Layout} (hL : LayoutOK L) {f : ℕ} (hf : f < L.dim ∨ f = 3) {p : ℕ × ℕ × ℕ} :
    (∃ r < L.mpiSize, p ∈ L.box f r) ↔ p ∈ gridList L.toMeshInfo f := by
  obtain ⟨i, j, k⟩ := p
  rw [mem_gridList]
  constructor
  · rintro ⟨r, _, hp⟩
    exact owns_inGrid hL hf (mem_box.1 hp)
  · rintro ⟨hi, hj, hk⟩
    obtain ⟨r, hr, ho⟩ := exists_owner hL hf hi hj hk
    exact ⟨r, hr, mem_box.2 ho⟩

/-- C56. If the configuration has the viscosity and at least one expression per component (and at most four), then
initialisation succeeds; every velocity point holds the expression of its component at its coordinates at time zero,
every pressure point the expression of the pressure, zero if there is none. Each point is set by exactly one process. -/
theorem C56_initial_conditions {L : Layout} (hL : LayoutOK L) (G : Geom K) (nu : K) (es : List (Expr K)) (pe : Option (Expr K))
    (enough : L.dim ≤ es.length) (few : es.length ≤ 4) (U p : ℤ → K) :
    ∃ V q, setInitialConditions L G (some ⟨some nu, some es, pe⟩) U p = .ok (V, q) ∧
      (∀ f i j k e idx, f < L.dim → i < L.n f 0 → j < L.n f 1 → k < L.n f 2 → es[f]? = some e →
        L.getPackedGlobalIndex false f ⟨k, j, i, 0⟩ = .ok idx → V idx = e (G.coord f 0 i) (G.coord f 1 j) (G.coord f 2 k) 0 nu) ∧
      (∀ i j k idx, i < L.n 3 0 → j < L.n 3 1 → k < L.n 3 2 → L.getPackedGlobalIndex false 3 ⟨k, j, i, 0⟩ = .ok idx →
        q idx = match pe with
          | some e => e (G.coord 3 0 i) (G.coord 3 1 j) (G.coord 3 2 k) 0 nu
          | none => 0) ∧
      (∀ f (i j k : ℕ), f < L.dim ∨ f = 3 → i < L.n f 0 → j < L.n f 1 → k < L.n f 2 → ∃! r, r < L.mpiSize ∧ (i, j, k) ∈ L.box f r) := by
  have h3 : L.dim ≤ 3 := by rcases hL.dim with h | h <;> omega
  let pe' : Expr K := pe.getD fun _ _ _ _ _ => 0
  let ICs : List (Option (Expr K)) := (es.map some ++ List.replicate (4 - es.length) none).set 3 (some pe')
  have hp : parseICs (some ⟨some nu, some es, pe⟩) = .ok ICs := by
    unfold parseICs
    simp only [few, if_true]
    rfl
  have hlen : (es.map some ++ List.replicate (4 - es.length) (none : Option (Expr K))).length = 4 := by
    simp; omega
  have hI3 : ICs[3]? = some (some pe') := by
    simp only [ICs]
    rw [List.getElem?_set_self (by omega)]
  let ev : ℕ → Expr K := fun f => es.getD f fun _ _ _ _ _ => 0
  have hIf : ∀ f, f < L.dim → ICs[f]? = some (some (ev f)) := by
    intro f hf
    simp only [ICs, ev]
    rw [List.getElem?_set_ne (by omega), List.getElem?_append_left (by simp; omega), List.getElem?_map,
      List.getD_eq_getElem?_getD, List.getElem?_eq_getElem (by omega)]
    rfl
  let u : ℕ → ℕ × ℕ × ℕ → K := fun f x => ev f (G.coord f 0 x.1) (G.coord f 1 x.2.1) (G.coord f 2 x.2.2) 0 nu
  let w : ℕ × ℕ × ℕ → K := fun x => pe' (G.coord 3 0 x.1) (G.coord 3 1 x.2.1) (G.coord 3 2 x.2.2) 0 nu
  refine ⟨vecAssign U ((List.range L.dim).flatMap fun f => (List.range L.mpiSize).flatMap fun r => (L.box f r).map fun x => (col L f (pst x), u f x)),
    vecAssign p ((List.range L.mpiSize).flatMap fun r => (L.box 3 r).map fun x => (col L 3 (pst x), w x)), ?_, ?_, ?_, ?_⟩
  · unfold setInitialConditions
    rw [hp]
    show (do
      let a ← (List.range L.dim).mapM (assignIC L G ICs nu)
      let b ← assignIC L G ICs nu 3
      return (vecAssign U (a.flatMap id), vecAssign p b)) = _
    rw [mapM_ok (h := fun f => (List.range L.mpiSize).flatMap fun r => (L.box f r).map fun x => (col L f (pst x), u f x))
      (List.range L.dim) (fun f hf => assignIC_eq hL G ICs nu (Or.inl (List.mem_range.1 hf)) (hIf f (List.mem_range.1 hf))),
      assignIC_eq hL G ICs nu (Or.inr rfl) hI3]
    show Except.ok (_, _) = _
    rw [List.flatMap_map]
    rfl
  · intro f i j k e idx hf hi hj hk he hidx
    rw [(col_inside hL (Or.inl hf) false (inside_nat (M := L.toMeshInfo) hi hj hk)).1] at hidx
    cases hidx
    have := assign_velocity hL (u := u) (ws := ((List.range L.dim).flatMap fun f => (List.range L.mpiSize).flatMap fun r =>
      (L.box f r).map fun x => (col L f (pst x), u f x))) (by
        intro w
        simp only [List.mem_flatMap, List.mem_range, List.mem_map]
        constructor
        · rintro ⟨f, hf, r, hr, x, hx, rfl⟩
          exact ⟨f, hf, x, (mem_boxes hL (Or.inl hf)).1 ⟨r, hr, hx⟩, rfl⟩
        · rintro ⟨f, hf, x, hx, rfl⟩
          obtain ⟨r, hr, hx⟩ := (mem_boxes hL (Or.inl hf)).2 hx
          exact ⟨f, hf, r, hr, x, hx, rfl⟩) U hf (p := (i, j, k)) (mem_gridList.2 ⟨hi, hj, hk⟩)
    refine Eq.trans this ?_
    have : ev f = e := by simp only [ev]; rw [List.getD_eq_getElem?_getD, he]; rfl
    simp only [u, this]
  · intro i j k idx hi hj hk hidx
    rw [(col_inside hL (Or.inr rfl) false (inside_nat (M := L.toMeshInfo) hi hj hk)).1] at hidx
    cases hidx
    have := assign_pressure hL (u := w) (ws := ((List.range L.mpiSize).flatMap fun r =>
      (L.box 3 r).map fun x => (col L 3 (pst x), w x))) (by
        intro w
        simp only [List.mem_flatMap, List.mem_range, List.mem_map]
        constructor
        · rintro ⟨r, hr, x, hx, rfl⟩
          exact ⟨x, (mem_boxes hL (Or.inr rfl)).1 ⟨r, hr, hx⟩, rfl⟩
        · rintro ⟨x, hx, rfl⟩
          obtain ⟨r, hr, hx⟩ := (mem_boxes hL (Or.inr rfl)).2 hx
          exact ⟨r, hr, x, hx, rfl⟩) p (p := (i, j, k)) (mem_gridList.2 ⟨hi, hj, hk⟩)
    refine Eq.trans this ?_
    simp only [w, pe']
    cases pe <;> rfl
  · intro f i j k hf hi hj hk
    obtain ⟨r, hr, ho⟩ := exists_owner hL hf hi hj hk
    exact ⟨r, ⟨hr, mem_box.2 ho⟩, fun r' ⟨_, h'⟩ => owner_unique (mem_box.1 h') ho⟩

/-- C56. Configurations without the viscosity or without initial velocity are rejected. -/
theorem C56_missing_rejected (L : Layout) (G : Geom K) (U p : ℤ → K) (es : Option (List (Expr K))) (pe : Option (Expr K)) (nu : K) :
    setInitialConditions L G none U p = .error .userInput ∧
    setInitialConditions L G (some ⟨none, es, pe⟩) U p = .error .userInput ∧
    setInitialConditions L G (some ⟨some nu, none, pe⟩) U p = .error .argOutOfRange := ⟨rfl, rfl, rfl⟩

/-- C56. The number of expressions is not checked: more than four are written beyond the end of the list; with fewer
than the number of components, the visitor of a component that was never set is called. -/
theorem C56_unchecked_count {L : Layout} (hL : LayoutOK L) (G : Geom K) (U p : ℤ → K) (es : List (Expr K)) (pe : Option (Expr K))
    (nu : K) (bad : 4 < es.length ∨ es.length < L.dim ∧ ∀ f, f < L.dim → 0 < L.n f 0 ∧ 0 < L.n f 1 ∧ 0 < L.n f 2) :
    setInitialConditions L G (some ⟨some nu, some es, pe⟩) U p = .error .ub := by
  have bindErr : ∀ {α β : Type} {x : Except Error α} {g : α → Except Error β}, x = .error .ub → (x >>= g) = .error .ub := by
    intro α β x g h; rw [h]; rfl
  have mapErr : ∀ {α β : Type} (l : List α) (g : α → Except Error β), (∀ a ∈ l, g a = .error .ub ∨ ∃ b, g a = .ok b) →
      (∃ a ∈ l, g a = .error .ub) → l.mapM g = .error .ub := by
    intro α β l g
    induction l with
    | nil => rintro _ ⟨a, ha, _⟩; simp at ha
    | cons a l ih =>
      rintro h ⟨b, hb, he⟩
      rw [List.mapM_cons]
      rcases h a List.mem_cons_self with ha | ⟨v, ha⟩
      · exact bindErr ha
      · rw [ha]
        show (List.mapM g l >>= fun vs => Except.ok (v :: vs)) = _
        apply bindErr
        apply ih (fun x hx => h x (List.mem_cons_of_mem _ hx))
        rcases List.mem_cons.1 hb with rfl | hb
        · rw [ha] at he; cases he
        · exact ⟨b, hb, he⟩
  rcases bad with bad | ⟨bad, pos⟩
  · unfold setInitialConditions
    show (parseICs _ >>= _) = _
    apply bindErr
    unfold parseICs
    simp only
    rw [if_neg (by omega)]
  · have h3 : L.dim ≤ 3 := by rcases hL.dim with h | h <;> omega
    let pe' : Expr K := pe.getD fun _ _ _ _ _ => 0
    let ICs : List (Option (Expr K)) := (es.map some ++ List.replicate (4 - es.length) none).set 3 (some pe')
    have hp : parseICs (some ⟨some nu, some es, pe⟩) = .ok ICs := by
      unfold parseICs
      simp only
      rw [if_pos (by omega)]
    unfold setInitialConditions
    rw [hp]
    show ((List.range L.dim).mapM (assignIC L G ICs nu) >>= _) = _
    apply bindErr
    have step : ∀ f, f < L.dim → ∀ r, r < L.mpiSize → ∀ x ∈ L.box f r,
        (do let idx ← L.getPackedGlobalIndex false f ⟨x.2.2, x.2.1, x.1, 0⟩
            let y ← callIC G ICs nu f x.1 x.2.1 x.2.2
            return (idx, y) : Except Error (ℤ × K)) = if f < es.length then
          .ok (col L f (pst x), es.getD f (fun _ _ _ _ _ => 0) (G.coord f 0 x.1) (G.coord f 1 x.2.1) (G.coord f 2 x.2.2) 0 nu) else .error .ub := by
      rintro f hf r hr ⟨i, j, k⟩ hx
      have hg := owns_inGrid hL (Or.inl hf) (mem_box.1 hx)
      have := (col_inside hL (Or.inl hf) false (inside_nat (f := f) (M := L.toMeshInfo) hg.1 hg.2.1 hg.2.2)).1
      simp only
      rw [this]
      unfold callIC
      simp only [ICs]
      rw [List.getElem?_set_ne (by omega)]
      by_cases he : f < es.length
      · rw [if_pos he, List.getElem?_append_left (by simp; omega), List.getElem?_map,
          List.getD_eq_getElem?_getD, List.getElem?_eq_getElem (by omega)]
        rfl
      · rw [if_neg he, List.getElem?_append_right (by simp; omega), List.getElem?_replicate]
        split_ifs <;> rfl
    have field : ∀ f, f < L.dim → (f < es.length → ∃ b, assignIC L G ICs nu f = .ok b) ∧
        (¬ f < es.length → assignIC L G ICs nu f = .error .ub) := by
      intro f hf
      constructor
      · intro he
        unfold assignIC
        rw [mapM_ok (h := fun r => (L.box f r).map fun x => (col L f (pst x), es.getD f (fun _ _ _ _ _ => 0) (G.coord f 0 x.1) (G.coord f 1 x.2.1) (G.coord f 2 x.2.2) 0 nu))]
        · exact ⟨_, rfl⟩
        · intro r hr
          apply mapM_ok
          intro x hx
          rw [step f hf r (List.mem_range.1 hr) x hx, if_pos he]
      · intro he
        unfold assignIC
        apply bindErr
        have inner : ∀ r, r < L.mpiSize → ∀ x ∈ L.box f r, (do
            let idx ← L.getPackedGlobalIndex false f ⟨x.2.2, x.2.1, x.1, 0⟩
            let y ← callIC G ICs nu f x.1 x.2.1 x.2.2
            return (idx, y) : Except Error (ℤ × K)) = .error .ub := by
          intro r hr x hx
          rw [step f hf r hr x hx, if_neg he]
        apply mapErr
        · intro r hr
          by_cases hem : L.box f r = []
          · rw [hem]
            exact Or.inr ⟨[], rfl⟩
          · left
            obtain ⟨x, hx⟩ := List.exists_mem_of_ne_nil _ hem
            exact mapErr _ _ (fun y hy => Or.inl (inner r (List.mem_range.1 hr) y hy)) ⟨x, hx, inner r (List.mem_range.1 hr) x hx⟩
        · obtain ⟨h0, h1, h2⟩ := pos f hf
          obtain ⟨r, hr, ho⟩ := exists_owner hL (Or.inl hf) h0 h1 h2
          refine ⟨r, List.mem_range.2 hr, ?_⟩
          exact mapErr _ _ (fun y hy => Or.inl (inner r hr y hy)) ⟨_, mem_box.2 ho, inner r hr _ (mem_box.2 ho)⟩
    apply mapErr
    · intro f hf
      by_cases he : f < es.length
      · exact Or.inr ((field f (List.mem_range.1 hf)).1 he)
      · exact Or.inl ((field f (List.mem_range.1 hf)).2 he)
    · exact ⟨es.length, List.mem_range.2 bad, (field _ bad).2 (by omega)⟩

end

theorem exampleWalls_other : LayoutOK (exampleWalls 1 2) := by
  have : ∃ B, Constructed true (exampleWalls 1 2) exampleWallsGeom exampleAxes exampleWallsTable B := by
    apply C57_construction true (Or.inl rfl) (fun d _ => exampleAxes_ok d) (fun _ _ _ _ => rfl)
    · intro d hd; interval_cases d <;> simp
    · intro f d hf hd
      rcases hf with hf | rfl
      · interval_cases d <;> interval_cases f <;> decide
      · interval_cases d <;> decide
    · intro f loc _ _
      unfold exampleWallsTable
      split_ifs <;> simp
    · intro f loc _ _
      unfold exampleWallsTable
      split_ifs <;> simp
  obtain ⟨B, h⟩ := this
  exact h.setup.layout

/-- two distributions of one mesh that number the points differently; the fields are written by the one and read by the other -/
example : LayoutOK (exampleWalls 2 1) ∧ LayoutOK (exampleWalls 1 2) ∧ (exampleWalls 1 2).toMeshInfo = (exampleWalls 2 1).toMeshInfo ∧
    (exampleWalls 2 1).getPackedGlobalIndex false 0 ⟨0, 1, 0, 0⟩ = .ok 1 ∧ (exampleWalls 1 2).getPackedGlobalIndex false 0 ⟨0, 1, 0, 0⟩ = .ok 2 ∧
    (match solutionWrite (exampleWalls 2 1) (fun i => (i : ℚ)) (fun i => (10 + i : ℚ)) (fun _ => none) "0000010.h5" with
      | .ok disk => match solutionRead (exampleWalls 1 2) (fun _ => 0) (fun _ => 0) disk "0000010.h5" with
        | .ok (V, _) => V 2
        | .error _ => 0
      | .error _ => 0) = 1 :=
  ⟨unitWalls_constructed.setup.layout, exampleWalls_other, rfl, by decide, by decide, by decide +kernel⟩

/-- appended data sets -/
example : (["0", "1"].length = [[1, 2], [3, (4 : ℚ)]].length) ∧ ["0", "1"].Nodup ∧
    readHDF5Vecs (writeHDF5Vecs (fun _ => none) "f" "/convection/" ["0", "1"] [[1, 2], [3, (4 : ℚ)]] .append) "f" "/convection/" ["0", "1"] [2, 2] =
      .ok [[1, 2], [3, 4]] := ⟨rfl, by decide, by decide +kernel⟩

/-- no file -/
example : solutionRead (exampleWalls 1 2) (fun _ => (0 : ℚ)) (fun _ => 0) (fun _ => none) "f" = .error .fileRead :=
  C54_read_rejected exampleWalls_other _ _ _ _ (Or.inl rfl)

/-- `u = x + 2 y`, `v = nu`, no pressure -/
example : (exampleWalls 2 1).dim ≤ [(fun x y _ _ _ => x + 2 * y : Expr ℚ), fun _ _ _ _ nu => nu].length ∧
    (match setInitialConditions (exampleWalls 2 1) exampleWallsGeom (some ⟨some (1 / 100),
        some [fun x y _ _ _ => x + 2 * y, fun _ _ _ _ nu => nu], none⟩) (fun _ => 7) (fun _ => 7) with
      | .ok (V, q) => [V 0, V 1, V 2, V 3, q 0]
      | .error _ => []) = [2, 5, 10, 1 / 100, 0] :=
  ⟨by decide, by decide +kernel⟩

/-- five expressions, one expression -/
example : 4 < (List.replicate 5 (fun _ _ _ _ _ => 0 : Expr ℚ)).length ∧
    (List.replicate 1 (fun _ _ _ _ _ => 0 : Expr ℚ)).length < (exampleWalls 2 1).dim ∧
    ∀ f, f < (exampleWalls 2 1).dim → 0 < (exampleWalls 2 1).n f 0 ∧ 0 < (exampleWalls 2 1).n f 1 ∧ 0 < (exampleWalls 2 1).n f 2 := by
  decide

end PetIBM
