/-
C90: the grid file has the gridlines of the configuration.
-/
import Verif.Model.WriteMesh
import Verif.Spec.WriteMesh
import Verif.Props.Config
import Verif.Props.Xdmf

set_option linter.unusedSectionVars false

namespace PetIBM

open Spec

variable {K : Type} [Field K] [LinearOrder K] [IsStrictOrderedRing K]

theorem cellEnd_vert (a : Axis K) (i : ℕ) : vert a i = cellEnd a.min a.dL i := rfl

theorem cellMiddle_centre (a : Axis K) (i : ℕ) : centre a i = cellMiddle a.min a.dL i := rfl

/-- A data set with known entries. -/
theorem coordList_map {L : Layout} {G : Geom K} {f d n : ℕ} (hn : L.n f d = n) {x : ℕ → K} (hx : ∀ i, i < n → G.coord f d i = x i) :
    coordList L G f d = (List.range n).map x := by
  unfold coordList
  rw [hn]
  exact List.map_congr_left fun i hi => hx i (List.mem_range.1 hi)

/-- Data sets of the grid file. -/
theorem gridFile_data (L : Layout) (G : Geom K) {f d : ℕ} {name dir : String} (hf : ["u", "v", "w", "p", "vertex"][f]? = some name)
    (hd : ["x", "y", "z"][d]? = some dir) : (gridFile L G).data ("/" ++ name ++ "/" ++ dir) = some (coordList L G f d) := by
  have hf5 : f < 5 := (List.getElem?_eq_some_iff.1 hf).1
  have hd3 : d < 3 := (List.getElem?_eq_some_iff.1 hd).1
  interval_cases f <;> interval_cases d <;> simp only [List.getElem?_cons_zero, List.getElem?_cons_succ, Option.some.injEq] at hf hd <;>
    subst hf <;> subst hd <;> simp [gridFile, data_putDirs]

/-- C90. The file has, for every direction, the lines that the sub-domains of the mesh section describe. -/
theorem C90_grid_file (nProc : ℕ → ℕ) {dim : ℕ} {nodes : List (AxisNode K)} {bs : List (BCNode K)} {T : BCTable K}
    (hm : DescribedMesh dim nodes) (hw : DescribedWalls dim bs T) (hg : GridFits dim nodes T nProc) (output : String) (file : Option String) (disk : Disk K) :
    ∃ disk' grid, writemesh nProc output file (some nodes) (some (some bs)) disk = .ok disk' ∧
      disk' (file.getD (output ++ "/grid.h5")) = some grid ∧ GridFileOf dim nodes T grid ∧
      ∀ path, path ≠ file.getD (output ++ "/grid.h5") → disk' path = disk path := by
  obtain ⟨L, G, axes, T', B, e, C, hd, -, hmesh, hT⟩ := C89_set_up_partial false hm hw hg
  have hc : createMesh nProc (some nodes) (some (some bs)) = .ok (some (L, G, axes)) := by
    unfold setUp at e
    obtain ⟨m, hm, e⟩ := bind_ok e
    cases m with
    | none => cases e
    | some x =>
      obtain ⟨L', G', axes'⟩ := x
      obtain ⟨bs', _, e⟩ := bind_ok e
      injection e with e
      injection e with e
      injection e with e1 e
      injection e with e2 e
      injection e with e3 e
      rw [hm, e1, e2, e3]
  refine ⟨gridWrite L G disk (file.getD (output ++ "/grid.h5")), gridFile L G, ?_, ?_, ?_, ?_⟩
  · unfold writemesh
    rw [hc]
    rfl
  · rw [gridWrite_eq, Function.update_self]
  · intro a ha d hdir
    have hdlt : d < dim := by
      have : dirNamed a.direction ∈ (List.range dim).map some := hm.directions.mem_iff.1 (List.mem_map.2 ⟨a, ha, rfl⟩)
      obtain ⟨d', hd', e⟩ := List.mem_map.1 this
      rw [hdir] at e
      cases e
      exact List.mem_range.1 hd'
    have hd3 : d < 3 := by rcases hm.dims with h | h <;> omega
    have hname : ["x", "y", "z"][d]? = some a.direction := by
      unfold dirNamed at hdir
      split at hdir <;> cases hdir <;> rename_i h <;> rw [h] <;> rfl
    obtain ⟨h1, h2, segs, h3, h4⟩ := hmesh a ha d hdir
    have hS := C.setup
    have hA := hS.axesOK d (by rw [hd]; exact hdlt)
    have geo := fun f (hf : f < 5) A hA => hS.geom f d hf hd3 A hA
    have cnt := fun f (hf : f < 5) A hA => hS.counts f d hf hd3 A hA
    refine ⟨segs, h4, ?_⟩
    rw [← h3]
    have tang : ∀ f name, f < dim → f ≠ d → ["u", "v", "w"][f]? = some name →
        (gridFile L G).data ("/" ++ name ++ "/" ++ a.direction) = some ((List.range (axes d).dL.length).map (cellMiddle (axes d).min (axes d).dL)) := by
      intro f name hf hne hn
      have hf3 : f < 3 := (List.getElem?_eq_some_iff.1 hn).1
      obtain ⟨A, e1, e2, e3, -⟩ := tangentAxis_ok hA (L.periodic f d)
      have e1' : fieldAxis L.dim axes L.periodic f d = .ok A := by
        unfold fieldAxis
        rw [if_pos hf3, if_pos ⟨by rw [hd]; exact hf, by rw [hd]; exact hdlt⟩, if_neg (fun h => hne h.symm), e1]
      rw [gridFile_data L G (f := f) (by interval_cases f <;> exact hn) hname]
      rw [coordList_map (by rw [cnt f (by omega) A e1', e2]) fun i hi => (geo f (by omega) A e1').1 i _ (e3 i (by rw [e2]; exact hi)).1]
      rfl
    refine ⟨?_, ?_, ?_, ?_⟩ <;> simp only [← h1]
    · have e1 : fieldAxis L.dim axes L.periodic 4 d = .ok (vertexAxis (axes d)) := by
        unfold fieldAxis
        rw [if_neg (by omega), if_pos (by rw [hd]; exact hdlt), if_neg (by omega)]
      have := gridFile_data L G (f := 4) rfl hname
      rw [show "/" ++ "vertex" ++ "/" = "/vertex/" from rfl] at this
      rw [this, coordList_map (cnt 4 (by omega) _ e1) fun i hi => (geo 4 (by omega) _ e1).1 i (vert (axes d) i) ?_]
      · rfl
      · exact ptrAt_ok (m := i) (by simp [vertexAxis]) (vertexAxis_get _ i (by simp only [vertexAxis] at hi; omega))
    · have e1 : fieldAxis L.dim axes L.periodic 3 d = .ok (pressureAxis (axes d)) := by
        unfold fieldAxis
        rw [if_neg (by omega), if_pos (by rw [hd]; exact hdlt), if_pos rfl]
      have := gridFile_data L G (f := 3) rfl hname
      rw [show "/" ++ "p" ++ "/" = "/p/" from rfl] at this
      rw [this, coordList_map (cnt 3 (by omega) _ e1) fun i hi => (geo 3 (by omega) _ e1).1 i (centre (axes d) i) ?_]
      · rfl
      · exact ptrAt_ok (m := i) (by simp [pressureAxis]) (pressureAxis_get _ i hi)
    · exact tang
    · intro name hn
      have htab := C.table d (2 * d) (by omega) (by omega)
      rw [hT d (2 * d) hdlt (by omega), show 2 * d / 2 = d by omega, ← hS.periodic d d (by omega) hd3] at htab
      have e1 : fieldAxis L.dim axes L.periodic d d = normalAxis (L.periodic d d) (axes d) := by
        unfold fieldAxis
        rw [if_pos hd3, if_pos ⟨by omega, by omega⟩, if_pos rfl]
      rw [gridFile_data L G (f := d) (by interval_cases d <;> exact hn) hname]
      cases hp : L.periodic d d with
      | false =>
        obtain ⟨A, e2, e3, e4, -⟩ := normalAxis_nonper hA
        rw [hp, e2] at e1
        refine ⟨A.n, fun h => absurd (htab.1 h) (by simp [hp]), fun _ => e3, ?_⟩
        rw [coordList_map (cnt d (by omega) A e1) fun i hi => (geo d (by omega) A e1).1 i _ (e4 i (by omega) (by omega))]
        rfl
      | true =>
        obtain ⟨A, e2, e3, e4, -⟩ := normalAxis_per hA
        rw [hp, e2] at e1
        refine ⟨A.n, fun _ => e3, fun h => absurd (htab.2 hp) h, ?_⟩
        rw [coordList_map (cnt d (by omega) A e1) fun i hi => (geo d (by omega) A e1).1 i _ (e4 i (by omega) (by omega))]
        rfl
  · intro path hp
    rw [gridWrite_eq, Function.update_of_ne hp]

theorem createMesh_lines {nProc : ℕ → ℕ} {mesh : Option (List (AxisNode K))} {flow : Option (Option (List (BCNode K)))} {L : Layout} {G : Geom K}
    {axes : ℕ → Axis K} (h : createMesh nProc mesh flow = .ok (some (L, G, axes))) :
    ∃ nodes dim m T periodic, mesh = some nodes ∧ parseMesh nodes = .ok (dim, m) ∧ parseBCs flow = .ok T ∧
      checkPeriodicBC (fun f b => (T f b).1) = .ok periodic ∧
      L = meshLayout dim (fun d => ⟨m.bg d, m.ed d, m.dL d⟩) periodic nProc ∧ G = meshGeom dim (fun d => ⟨m.bg d, m.ed d, m.dL d⟩) periodic := by
  have h := ignoringCode_some h
  unfold cartesianMeshInit at h
  cases mesh with
  | none => cases h
  | some nodes =>
    obtain ⟨⟨dim, m⟩, hp, h⟩ := bind_ok h
    obtain ⟨T, hT, h⟩ := bind_ok h
    obtain ⟨per, hper, h⟩ := bind_ok h
    dsimp only at h
    split at h
    · cases h
    · obtain ⟨_, -, h⟩ := bind_ok h
      split at h
      · cases h
      · split at h
        · cases h
        · cases h
          exact ⟨nodes, dim, m, T, per, rfl, hp, hT, hper, rfl, rfl⟩

/-- C90. The file does not depend on the number of processes. -/
theorem C90_processes (nProc nProc' : ℕ → ℕ) (output : String) (file : Option String) (mesh : Option (List (AxisNode K)))
    (flow : Option (Option (List (BCNode K)))) (disk d d' : Disk K) (h : writemesh nProc output file mesh flow disk = .ok d)
    (h' : writemesh nProc' output file mesh flow disk = .ok d') : d = d' := by
  obtain ⟨m, hm, h⟩ := bind_ok h
  obtain ⟨m', hm', h'⟩ := bind_ok h'
  cases m with
  | none => cases h
  | some x =>
    cases m' with
    | none => cases h'
    | some x' =>
      obtain ⟨L, G, axes⟩ := x
      obtain ⟨L', G', axes'⟩ := x'
      cases h
      cases h'
      obtain ⟨nodes, dim, q, T, per, e1, e2, e3, e4, rfl, rfl⟩ := createMesh_lines hm
      obtain ⟨nodes', dim', q', T', per', f1, f2, f3, f4, rfl, rfl⟩ := createMesh_lines hm'
      rw [e1] at f1
      cases f1
      rw [e2] at f2
      cases f2
      rw [e3] at f3
      cases f3
      rw [e4] at f4
      cases f4
      rfl

/-- C90. Without boundary conditions, or with periodic conditions that do not agree, there is no grid file: the program follows empty pointers. -/
theorem C90_undefined (nProc : ℕ → ℕ) {dim : ℕ} {nodes : List (AxisNode K)} (hm : DescribedMesh dim nodes) (output : String) (file : Option String)
    (disk : Disk K) :
    writemesh nProc output file (some nodes) none disk = .error .ub ∧ writemesh nProc output file (some nodes) (some none) disk = .error .ub ∧
    ∀ bs es T, allEntries bs = some es → (∀ f b, f < dim → b < dim * 2 → lastFor es f b = some (T f b) ∧ (T f b).1 ≠ .NOBC) → ¬ PeriodicAlike dim T →
      writemesh nProc output file (some nodes) (some (some bs)) disk = .error .ub := by
  obtain ⟨h1, h2, -⟩ := C89_missing_section nProc hm (none : Option (Option (List (BCNode K))))
  refine ⟨by unfold writemesh; rw [h1]; rfl, by unfold writemesh; rw [h2]; rfl, fun bs es T he all bad => ?_⟩
  unfold writemesh
  rw [C89_inconsistent nProc hm he all bad]
  rfl

/-! ### Examples -/

/-- The lines of the cavity: in `x` two cells with ratio two and two equal ones. -/
example (disk : Disk ℚ) : ∃ disk' grid, writemesh cavityGrid "out" none (some cavityMesh) (some (some cavityWalls)) disk = .ok disk' ∧
    disk' "out/grid.h5" = some grid ∧ GridFileOf 2 cavityMesh cavityTable grid ∧ ∀ path, path ≠ "out/grid.h5" → disk' path = disk path :=
  C90_grid_file cavityGrid cavityMesh_described cavityWalls_described cavityGrid_fits "out" none disk

example : ((writemesh cavityGrid "out" none (some cavityMesh) (some (some cavityWalls)) fun _ => none).toOption.bind fun disk : Disk ℚ =>
    (disk "out/grid.h5").map fun file => (file.data "/vertex/x", file.data "/p/x", file.data "/u/x")) =
      some (some [0, 1, 3, 7 / 2, 4], some [1 / 2, 2, 13 / 4, 15 / 4], some [1, 3, 7 / 2]) := by
  decide +kernel

/-- Periodic for one component only. -/
example (disk : Disk ℚ) : writemesh cavityGrid "out" none (some cavityMesh) (some (some seamWalls)) disk = .error .ub := by
  refine (C90_undefined cavityGrid cavityMesh_described "out" none disk).2.2 seamWalls _ (fun f b =>
    if b < 2 then (if f = 0 then (.PERIODIC, if b = 0 then 0 else 1) else if b = 0 then (.DIRICHLET, 0) else (.NEUMANN, 0))
    else if f = 0 ∧ b = 3 then (.DIRICHLET, 1) else (.DIRICHLET, 0)) rfl ?_ ?_
  · intro f b hf hb
    interval_cases f <;> interval_cases b <;> exact ⟨rfl, by decide⟩
  · intro h
    rcases h 0 (by omega) with h | h
    · exact absurd (h 1 (by omega)).1 (by decide)
    · exact absurd rfl (h 0 (by omega)).1

end PetIBM
