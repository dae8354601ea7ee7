/-
Property C72: grid files and XDMF files.
-/
import Verif.Spec.Xdmf
import Verif.Props.VorticityPlace

set_option linter.unusedSectionVars false

namespace PetIBM

open Spec

variable {K : Type} [Field K]

/-- content of a file after three data sets have been written to a group -/
def putDirs (file : H5File K) (g : String) (v : ℕ → List K) : H5File K :=
  ((file.put (g ++ "x") (v 0)).put (g ++ "y") (v 1)).put (g ++ "z") (v 2)

theorem writeDirs (disk : Disk K) (path g : String) (v : ℕ → List K) (mode : FileMode) :
    writeHDF5Vecs disk path g dirNames ((List.range 3).map v) mode = Function.update disk path (some (putDirs (mode.start (disk path)) g v)) := rfl

theorem data_putDirs (file : H5File K) (g : String) (v : ℕ → List K) (name : String) :
    (putDirs file g v).data name = if name = g ++ "z" then some (v 2) else if name = g ++ "y" then some (v 1) else
      if name = g ++ "x" then some (v 0) else file.data name := by
  simp only [putDirs, H5File.put, Function.update_apply]

/-- the coordinates of a field -/
def coordList (L : Layout) (G : Geom K) (f d : ℕ) : List K := (List.range (L.n f d)).map fun i : ℕ => G.coord f d i

/-- the coordinates of a vorticity field -/
def vorticityCoordList (L : Layout) (G : Geom K) (f d : ℕ) : List K :=
  (List.range (vorticityCount L.toMeshInfo f d)).map fun i : ℕ => vorticityCoord L.dim G f d i

/-- the grid file that the solvers write -/
def gridFile (L : Layout) (G : Geom K) : H5File K :=
  putDirs (putDirs (putDirs (putDirs (putDirs H5File.empty "/u/" (coordList L G 0)) "/v/" (coordList L G 1)) "/w/" (coordList L G 2))
    "/p/" (coordList L G 3)) "/vertex/" (coordList L G 4)

theorem gridWrite_eq (L : Layout) (G : Geom K) (disk : Disk K) (path : String) :
    gridWrite L G disk path = Function.update disk path (some (gridFile L G)) := by
  have go : ∀ (disk : Disk K) (f : ℕ) (mode : FileMode), gridWriteField L G path disk (f, mode) =
      Function.update disk path (some (putDirs (mode.start (disk path)) ("/" ++ gridName f ++ "/") (coordList L G f))) := fun disk f mode =>
    writeDirs disk path _ _ mode
  simp only [gridWrite, List.foldl_cons, List.foldl_nil, go, Function.update_idem, Function.update_self]
  rfl

/-- and with the vorticity fields -/
def gridFileVorticity (L : Layout) (G : Geom K) (file : H5File K) : H5File K :=
  if L.dim = 2 then putDirs file "/wz/" (vorticityCoordList L G 0)
  else putDirs (putDirs (putDirs file "/wx/" (vorticityCoordList L G 0)) "/wy/" (vorticityCoordList L G 1)) "/wz/" (vorticityCoordList L G 2)

theorem gridAppend_eq (L : Layout) (G : Geom K) {disk : Disk K} {path : String} {file : H5File K} (h : disk path = some file) :
    gridAppendVorticity L G disk path = Function.update disk path (some (gridFileVorticity L G file)) := by
  unfold gridAppendVorticity vorticityNames gridFileVorticity
  have go : ∀ (disk : Disk K) (f : ℕ) (g : String), writeHDF5Vecs disk path g dirNames
      ((List.range 3).map fun d => (List.range (vorticityCount L.toMeshInfo f d)).map fun i : ℕ => vorticityCoord L.dim G f d i) .append =
      Function.update disk path (some (putDirs (FileMode.append.start (disk path)) g (vorticityCoordList L G f))) := fun disk f g =>
    writeDirs disk path _ _ _
  split_ifs
  · simp only [List.zipIdx_cons, List.zipIdx_nil, List.foldl_cons, List.foldl_nil, go, h]
    rfl
  · simp only [List.zipIdx_cons, List.zipIdx_nil, List.foldl_cons, List.foldl_nil, go, Function.update_idem, Function.update_self, h]
    rfl

variable [LinearOrder K] [IsStrictOrderedRing K]
variable {L : Layout} {G : Geom K} {axes : ℕ → Axis K} {debug : Bool} {T : BCTable K} {B : ℕ → Boundary K}

/-- C72, grid file. After the grid file has been written it holds, for every field and direction, the coordinates of the points of the field without
ghost points, and the vorticity utility adds those of the vorticity fields and keeps the others. -/
theorem C72_grid_file (L : Layout) (hdim : L.dim = 2 ∨ L.dim = 3) (G : Geom K) (disk : Disk K) (path : String) :
    ∃ file file', gridWrite L G disk path path = some file ∧ gridAppendVorticity L G (gridWrite L G disk path) path path = some file' ∧
      (∀ other, other ≠ path → gridAppendVorticity L G (gridWrite L G disk path) path other = disk other) ∧
      (∀ f d name dir, ["u", "v", "w", "p", "vertex"][f]? = some name → ["x", "y", "z"][d]? = some dir →
        ∃ v, file.data ("/" ++ name ++ "/" ++ dir) = some v ∧ file'.data ("/" ++ name ++ "/" ++ dir) = some v ∧ v.length = L.n f d ∧
          ∀ i : ℕ, i < L.n f d → v[i]? = some (G.coord f d i)) ∧
      (∀ f d name dir, (vorticityNames L.dim)[f]? = some name → ["x", "y", "z"][d]? = some dir →
        ∃ v, file'.data ("/" ++ name ++ "/" ++ dir) = some v ∧ v.length = vorticityCount L.toMeshInfo f d ∧
          ∀ i : ℕ, i < vorticityCount L.toMeshInfo f d → v[i]? = some (vorticityCoord L.dim G f d i)) := by
  have h1 := gridWrite_eq L G disk path
  have h2 := gridAppend_eq L G (disk := gridWrite L G disk path) (path := path) (file := gridFile L G) (by rw [h1, Function.update_self])
  refine ⟨gridFile L G, gridFileVorticity L G (gridFile L G), by rw [h1, Function.update_self], by rw [h2, Function.update_self], ?_, ?_, ?_⟩
  · intro other ho
    rw [h2, Function.update_of_ne ho, h1, Function.update_of_ne ho]
  · intro f d name dir hn hd
    have hf : f < 5 := (List.getElem?_eq_some_iff.1 hn).1
    have hd3 : d < 3 := (List.getElem?_eq_some_iff.1 hd).1
    refine ⟨coordList L G f d, ?_, ?_, by simp [coordList], fun i hi => by simp [coordList, hi]⟩
    · interval_cases f <;> interval_cases d <;> simp only [List.getElem?_cons_zero, List.getElem?_cons_succ, Option.some.injEq] at hn hd <;>
        subst hn <;> subst hd <;> simp [gridFile, data_putDirs]
    · unfold gridFileVorticity
      interval_cases f <;> interval_cases d <;> simp only [List.getElem?_cons_zero, List.getElem?_cons_succ, Option.some.injEq] at hn hd <;>
        subst hn <;> subst hd <;> split_ifs <;> simp [gridFile, data_putDirs]
  · intro f d name dir hn hd
    have hd3 : d < 3 := (List.getElem?_eq_some_iff.1 hd).1
    refine ⟨vorticityCoordList L G f d, ?_, by simp [vorticityCoordList], fun i hi => by simp [vorticityCoordList, hi]⟩
    unfold gridFileVorticity
    unfold vorticityNames at hn
    rcases hdim with h | h
    · rw [if_pos h] at hn ⊢
      have hf : f < 1 := (List.getElem?_eq_some_iff.1 hn).1
      interval_cases f
      interval_cases d <;> simp only [List.getElem?_cons_zero, List.getElem?_cons_succ, Option.some.injEq] at hn hd <;>
        subst hn <;> subst hd <;> simp [data_putDirs]
    · rw [if_neg (by omega)] at hn ⊢
      have hf : f < 3 := (List.getElem?_eq_some_iff.1 hn).1
      interval_cases f <;> interval_cases d <;> simp only [List.getElem?_cons_zero, List.getElem?_cons_succ, Option.some.injEq] at hn hd <;>
        subst hn <;> subst hd <;> simp [data_putDirs]

/-- The names and sizes of the XDMF files: solution fields, then vorticity fields. -/
theorem mem_createXdmf {L : Layout} (hdim : L.dim = 2 ∨ L.dim = 3) {output : String} {steps : List ℤ} {X : Xdmf} (hX : X ∈ createXdmf L output steps) :
    (∃ f name, (f < L.dim ∨ f = 3) ∧ ["u", "v", "w", "p", "vertex"][f]? = some name ∧ "/" ++ name = "/" ++ (if f = 3 then "p" else fd2str f) ∧
      X = writeSingleXDMF output name L.dim [L.n f 0, L.n f 1, L.n f 2] steps) ∨
    ∃ f name, (vorticityNames L.dim)[f]? = some name ∧
      X = writeSingleXDMF output name L.dim [vorticityCount L.toMeshInfo f 0, vorticityCount L.toMeshInfo f 1, vorticityCount L.toMeshInfo f 2] steps := by
  unfold createXdmf at hX
  have three : ∀ {a b c : Xdmf}, X ∈ (if L.dim = 3 then [a, b, c] else []) → L.dim = 3 ∧ (X = a ∨ X = b ∨ X = c) := by
    intro a b c h
    split_ifs at h with h3
    · exact ⟨h3, by simpa using h⟩
    · simp at h
  have hv : ∀ f, f = (if L.dim = 2 then 0 else 2) → (vorticityNames L.dim)[f]? = some "wz" ∧
      [L.n 4 0, L.n 4 1, L.n 3 2] = [vorticityCount L.toMeshInfo f 0, vorticityCount L.toMeshInfo f 1, vorticityCount L.toMeshInfo f 2] := by
    rintro f rfl
    rcases hdim with h | h <;> simp [vorticityNames, vorticityCount, h]
  rcases List.mem_append.1 hX with h | h
  · simp only [List.mem_cons, List.not_mem_nil, or_false] at h
    rcases h with h | h | h | h
    · exact Or.inl ⟨0, "u", Or.inl (by omega), rfl, rfl, h⟩
    · exact Or.inl ⟨1, "v", Or.inl (by omega), rfl, rfl, h⟩
    · exact Or.inl ⟨3, "p", Or.inr rfl, rfl, rfl, h⟩
    · obtain ⟨h1, h2⟩ := hv _ rfl
      exact Or.inr ⟨_, "wz", h1, by rw [h, h2]⟩
  · obtain ⟨h3, h⟩ := three h
    rcases h with h | h | h
    · exact Or.inl ⟨2, "w", Or.inl (by omega), rfl, rfl, h⟩
    · exact Or.inr ⟨0, "wx", by simp [vorticityNames, h3], by rw [h]; simp [vorticityCount, h3]⟩
    · exact Or.inr ⟨1, "wy", by simp [vorticityNames, h3], by rw [h]; simp [vorticityCount, h3]⟩

/-- The geometry of one file. -/
theorem geometry_single {disk : Disk K} {output name : String} {dim : ℕ} (hdim : dim = 2 ∨ dim = 3) {n : ℕ → ℕ} (hflat : dim = 2 → n 2 = 1) {steps : List ℤ}
    (h : ∀ d dir, ["x", "y", "z"][d]? = some dir → HasEntries disk (output ++ "/grid.h5") ("/" ++ name ++ "/" ++ dir) (n d)) :
    GeometryResolves disk (writeSingleXDMF output name dim [n 0, n 1, n 2] steps) := by
  have h0 := h 0 "x" rfl
  have h1 := h 1 "y" rfl
  have h2 := h 2 "z" rfl
  rcases hdim with rfl | rfl
  · refine ⟨rfl, rfl, fun d m g hd hg => ?_⟩
    have hd3 : d < 3 := (List.getElem?_eq_some_iff.1 hd).1
    have hg' : [some (output ++ "/grid.h5", "/" ++ name ++ "/" ++ "x"), some (output ++ "/grid.h5", "/" ++ name ++ "/" ++ "y"), none][d]? = some g := hg
    have hd' : [n 0, n 1, n 2][d]? = some m := hd
    interval_cases d <;> simp only [List.getElem?_cons_zero, List.getElem?_cons_succ, Option.some.injEq] at hd' hg' <;> subst hd' <;> subst hg'
    · exact h0
    · exact h1
    · exact hflat rfl
  · refine ⟨rfl, rfl, fun d m g hd hg => ?_⟩
    have hd3 : d < 3 := (List.getElem?_eq_some_iff.1 hd).1
    have hg' : [some (output ++ "/grid.h5", "/" ++ name ++ "/" ++ "x"), some (output ++ "/grid.h5", "/" ++ name ++ "/" ++ "y"),
      some (output ++ "/grid.h5", "/" ++ name ++ "/" ++ "z")][d]? = some g := hg
    have hd' : [n 0, n 1, n 2][d]? = some m := hd
    interval_cases d <;> simp only [List.getElem?_cons_zero, List.getElem?_cons_succ, Option.some.injEq] at hd' hg' <;> subst hd' <;> subst hg'
    · exact h0
    · exact h1
    · exact h2

/-- C72. After the solver has written the grid file and the vorticity utility has appended to it, every XDMF file finds the coordinates of its
nodes, as many in each direction as it says. -/
theorem C72_geometry {L : Layout} (hL : LayoutOK L) (G : Geom K) (disk : Disk K) (output : String) (steps : List ℤ) (X : Xdmf)
    (hX : X ∈ createXdmf L output steps) :
    GeometryResolves (gridAppendVorticity L G (gridWrite L G disk (output ++ "/grid.h5")) (output ++ "/grid.h5")) X := by
  obtain ⟨file, file', _, h2, _, h4, h5⟩ := C72_grid_file L hL.dim G disk (output ++ "/grid.h5")
  rcases mem_createXdmf hL.dim hX with ⟨f, name, hf, hn, _, rfl⟩ | ⟨f, name, hn, rfl⟩
  · refine geometry_single hL.dim (n := L.n f) (fun h => hL.flat h f (by omega)) fun d dir hd => ?_
    obtain ⟨v, _, hv, hl, _⟩ := h4 f d name dir hn hd
    exact ⟨file', v, h2, hv, hl⟩
  · refine geometry_single hL.dim (n := vorticityCount L.toMeshInfo f) (fun h => ?_) fun d dir hd => ?_
    · simpa [vorticityCount, h] using hL.flat h 3 (by omega)
    · obtain ⟨v, hv, hl, _⟩ := h5 f d name dir hn hd
      exact ⟨file', v, h2, hv, hl⟩

/-- C72. The solution fields are in every file of a step that the solvers can read, with as many values as the XDMF files say; the
vorticity fields are there when the vorticity utility has treated the step. -/
theorem C72_data (C : Constructed debug L G axes T B) (h : List (Boundary.Op K)) (U p U' p' : ℤ → K) (w : ℕ → ℕ × ℕ × ℕ → K) (disk : Disk K)
    (output : String) (t : ℤ) (hread : solutionRead L U p disk (xdmfPath output t) = .ok (U', p')) (steps : List ℤ) :
    (∀ X, X ∈ createXdmf L output steps → X.path ∈ ["u", "v", "w", "p"].map (fun name => output ++ "/" ++ name ++ ".xmf") → DataResolves disk X t) ∧
    ∃ disk', vorticityStep L G (fun r => (B r).run h) U p w disk (xdmfPath output t) = .ok disk' ∧
      ∀ X, X ∈ createXdmf L output steps → DataResolves disk' X t := by
  have hL := C.setup.layout
  have len : ∃ file, disk (xdmfPath output t) = some file ∧ ∀ f, f < L.dim ∨ f = 3 → ∃ v, file.data ("/" ++ (if f = 3 then "p" else fd2str f)) = some v ∧
      v.length = L.n f 0 * L.n f 1 * L.n f 2 := by
    have hno := fun bad => C54_read_rejected hL U p disk (xdmfPath output t) bad
    rw [hread] at hno
    cases hfile : disk (xdmfPath output t) with
    | none => cases hno (Or.inl hfile)
    | some file =>
      refine ⟨file, rfl, fun f hf => ?_⟩
      by_contra hv
      push Not at hv
      have : (Except.ok (U', p') : Except Error ((ℤ → K) × (ℤ → K))) = .error .fileRead := by
        refine hno (Or.inr ⟨file, hfile, ?_⟩)
        by_cases h3 : f = 3
        · subst h3
          exact Or.inr fun v e => hv v (by rw [if_pos rfl]; exact e)
        · rw [if_neg h3] at hv
          exact Or.inl ⟨f, by omega, fun v e => hv v e⟩
      cases this
  obtain ⟨file, hfile, hlen⟩ := len
  have step : ∀ {output name dim n} {steps : List ℤ} {path nm : String}, (t, path, nm) ∈ (writeSingleXDMF output name dim n steps).data →
      path = xdmfPath output t ∧ nm = "/" ++ name := by
    intro output name dim n steps path nm hm
    obtain ⟨t', _, e⟩ := List.mem_map.1 hm
    simp only [Prod.mk.injEq] at e
    exact ⟨by rw [← e.2.1, e.1], e.2.2.symm⟩
  have prod3 : ∀ a b c : ℕ, [a, b, c].prod = a * b * c := by intro a b c; simp [mul_assoc]
  refine ⟨?_, ?_⟩
  · intro X hX hp path nm hm
    rcases mem_createXdmf hL.dim hX with ⟨f, name, hf, hn, he, rfl⟩ | ⟨f, name, hn, rfl⟩
    · obtain ⟨rfl, rfl⟩ := step hm
      obtain ⟨v, hv, hl⟩ := hlen f hf
      exact ⟨file, v, hfile, by rw [he]; exact hv, by rw [hl]; exact (prod3 _ _ _).symm⟩
    · exfalso
      obtain ⟨n', hn', e⟩ := List.mem_map.1 hp
      have e' : output ++ "/" ++ n' ++ ".xmf" = output ++ "/" ++ name ++ ".xmf" := e
      rw [String.append_left_inj, String.append_right_inj] at e'
      subst e'
      unfold vorticityNames at hn
      have hm' := List.mem_of_getElem? hn
      revert hm' hn'
      split_ifs <;> simp only [List.mem_cons, List.not_mem_nil, or_false] <;> rintro (rfl | rfl | rfl | rfl) <;> decide
  · obtain ⟨disk', file', hs, _, hd', _, hkeep, hvort⟩ := C71_output C h U p U' p' w disk (xdmfPath output t) file hfile hread
    refine ⟨disk', hs, fun X hX path nm hm => ?_⟩
    rcases mem_createXdmf hL.dim hX with ⟨f, name, hf, hn, he, rfl⟩ | ⟨f, name, hn, rfl⟩
    · obtain ⟨rfl, rfl⟩ := step hm
      obtain ⟨v, hv, hl⟩ := hlen f hf
      refine ⟨file', v, hd', ?_, by rw [hl]; exact (prod3 _ _ _).symm⟩
      rw [← he] at hv
      rw [hkeep, hv]
      all_goals
        have h4 : f < 4 := by have := hL.dim; omega
        interval_cases f <;> simp only [List.getElem?_cons_zero, List.getElem?_cons_succ, Option.some.injEq] at hn <;> subst hn <;> decide
    · obtain ⟨rfl, rfl⟩ := step hm
      obtain ⟨z, v, _, hv, hl, _⟩ := hvort f name hn
      exact ⟨file', v, hd', hv, by rw [hl]; exact (prod3 _ _ _).symm⟩

/-- C72. Every velocity component, the pressure and every vorticity component has its own XDMF file, which shows it at every step and on its
own points; there are no other files. -/
theorem C72_complete {L : Layout} (hdim : L.dim = 2 ∨ L.dim = 3) (output : String) (steps : List ℤ) :
    (∀ name, name ∈ (if L.dim = 2 then ["u", "v", "p", "wz"] else ["u", "v", "w", "p", "wx", "wy", "wz"]) →
      ∃ X, X ∈ createXdmf L output steps ∧ X.path = output ++ "/" ++ name ++ ".xmf" ∧
        (∀ t, t ∈ steps → (t, xdmfPath output t, "/" ++ name) ∈ X.data) ∧ X.data.length = steps.length ∧
        ∀ d dir, d < L.dim → ["x", "y", "z"][d]? = some dir → X.geometry[d]? = some (some (output ++ "/grid.h5", "/" ++ name ++ "/" ++ dir))) ∧
    (createXdmf L output steps).length = if L.dim = 2 then 4 else 7 := by
  have key : ∀ name n, (writeSingleXDMF output name L.dim n steps).path = output ++ "/" ++ name ++ ".xmf" ∧
      (∀ t, t ∈ steps → (t, xdmfPath output t, "/" ++ name) ∈ (writeSingleXDMF output name L.dim n steps).data) ∧
      (writeSingleXDMF output name L.dim n steps).data.length = steps.length ∧
      ∀ d dir, d < L.dim → ["x", "y", "z"][d]? = some dir →
        (writeSingleXDMF output name L.dim n steps).geometry[d]? = some (some (output ++ "/grid.h5", "/" ++ name ++ "/" ++ dir)) := by
    intro name n
    refine ⟨rfl, fun t ht => List.mem_map_of_mem (f := fun t => (t, xdmfPath output t, "/" ++ name)) ht, by simp [writeSingleXDMF], fun d dir hd he => ?_⟩
    have hd3 : d < 3 := by omega
    have hdir : dirName d = dir := by
      interval_cases d <;> simp only [List.getElem?_cons_zero, List.getElem?_cons_succ, Option.some.injEq] at he <;> subst he <;> rfl
    simp only [writeSingleXDMF]
    rw [List.getElem?_append_left (by simpa using hd), List.getElem?_map, List.getElem?_range hd, Option.map_some, hdir]
  constructor
  · intro name hname
    suffices h : ∃ n, writeSingleXDMF output name L.dim n steps ∈ createXdmf L output steps by
      obtain ⟨n, h⟩ := h
      exact ⟨_, h, key name n⟩
    unfold createXdmf
    rcases hdim with h | h
    · rw [if_pos h] at hname
      rw [h]
      simp only [List.mem_cons, List.not_mem_nil, or_false] at hname
      rcases hname with rfl | rfl | rfl | rfl
      · exact ⟨_, .head _⟩
      · exact ⟨_, .tail _ (.head _)⟩
      · exact ⟨_, .tail _ (.tail _ (.head _))⟩
      · exact ⟨_, .tail _ (.tail _ (.tail _ (.head _)))⟩
    · rw [if_neg (by omega)] at hname
      rw [if_pos h]
      simp only [List.mem_cons, List.not_mem_nil, or_false] at hname
      rcases hname with rfl | rfl | rfl | rfl | rfl | rfl | rfl
      · exact ⟨_, .head _⟩
      · exact ⟨_, .tail _ (.head _)⟩
      · exact ⟨_, .tail _ (.tail _ (.tail _ (.tail _ (.head _))))⟩
      · exact ⟨_, .tail _ (.tail _ (.head _))⟩
      · exact ⟨_, .tail _ (.tail _ (.tail _ (.tail _ (.tail _ (.head _)))))⟩
      · exact ⟨_, .tail _ (.tail _ (.tail _ (.tail _ (.tail _ (.tail _ (.head _))))))⟩
      · exact ⟨_, .tail _ (.tail _ (.tail _ (.head _)))⟩
  · unfold createXdmf
    rcases hdim with h | h <;> simp [h]

/-- C72 needs the vorticity utility after the last start of the solver: a restart writes the grid file anew, and the coordinates of the vorticity
are no longer in it, although the XDMF file of the vorticity refers to them. -/
theorem C72_false_after_restart (G : Geom ℚ) (disk : Disk ℚ) :
    let path := "output/grid.h5"
    let before := gridAppendVorticity (exampleWalls 2 1) G (gridWrite (exampleWalls 2 1) G disk path) path
    let after := gridWrite (exampleWalls 2 1) G before path
    ∃ X, X ∈ createXdmf (exampleWalls 2 1) "output" [0] ∧ GeometryResolves before X ∧ ¬ GeometryResolves after X := by
  intro path before after
  refine ⟨writeSingleXDMF "output" "wz" 2 [(exampleWalls 2 1).n 4 0, (exampleWalls 2 1).n 4 1, (exampleWalls 2 1).n 3 2] [0],
    List.mem_append_left _ (.tail _ (.tail _ (.tail _ (.head _)))), ?_, ?_⟩
  · exact C72_geometry unitWalls_constructed.setup.layout G disk "output" [0] _ (List.mem_append_left _ (.tail _ (.tail _ (.tail _ (.head _)))))
  · rintro ⟨_, _, h⟩
    obtain ⟨file, v, h1, h2, _⟩ := h 0 _ (some ("output/grid.h5", "/wz/x")) rfl rfl
    have : after "output/grid.h5" = some (gridFile (exampleWalls 2 1) G) := by
      show gridWrite _ _ _ _ _ = _
      rw [gridWrite_eq]; simp [path]
    rw [this] at h1
    cases h1
    simp [gridFile, data_putDirs, H5File.empty] at h2

/-- Four XDMF files in 2D. -/
example : (createXdmf (exampleWalls 2 1) "output" [0, 10]).map (fun X => (X.path, X.size)) =
      [("output/u.xmf", [2, 3, 1]), ("output/v.xmf", [3, 2, 1]), ("output/p.xmf", [3, 3, 1]), ("output/wz.xmf", [4, 4, 1])] ∧
    (createXdmf (exampleWalls 2 1) "output" [0, 10])[3]?.map (·.geometry) =
      some [some ("output/grid.h5", "/wz/x"), some ("output/grid.h5", "/wz/y"), none] := by
  decide +kernel

/-- A step that can be read, and its file. -/
example : xdmfPath "output" 10 = "output/0000010.h5" ∧ ∃ (disk : Disk ℚ) (U' p' : ℤ → ℚ),
    solutionRead (exampleWalls 2 1) (fun _ => 0) (fun _ => 0) disk (xdmfPath "output" 10) = .ok (U', p') := by
  refine ⟨by decide +kernel, ?_⟩
  obtain ⟨disk', V, q, _, h2, _⟩ := C54_vectors_restored unitWalls_constructed.setup.layout (fun i => (i : ℚ)) (fun _ => 2) (fun _ => 0)
    (fun _ => 0) (fun _ => none) (xdmfPath "output" 10)
  exact ⟨disk', V, q, h2⟩

end PetIBM
