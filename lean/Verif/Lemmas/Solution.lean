/-
Files and fields.
-/
import Verif.Lemmas.Local
import Verif.Lemmas.Diag
import Verif.Model.Solution

set_option linter.unusedSectionVars false

namespace PetIBM

open Spec

variable {K : Type} [Field K]

theorem mem_gridList {M : MeshInfo} {f : ℕ} {p : ℕ × ℕ × ℕ} :
    p ∈ gridList M f ↔ p.1 < M.n f 0 ∧ p.2.1 < M.n f 1 ∧ p.2.2 < M.n f 2 := by
  obtain ⟨i, j, k⟩ := p
  unfold gridList
  simp only [List.mem_flatMap, List.mem_range, List.mem_map, Prod.mk.injEq]
  constructor
  · rintro ⟨k, hk, j, hj, i, hi, rfl, rfl, rfl⟩
    exact ⟨hi, hj, hk⟩
  · rintro ⟨hi, hj, hk⟩
    exact ⟨k, hk, j, hj, i, hi, rfl, rfl, rfl⟩

/-- stencil of a point of a list -/
def pst (p : ℕ × ℕ × ℕ) : Stencil := ⟨p.2.2, p.2.1, p.1, 0⟩

theorem inside_pst {M : MeshInfo} {f : ℕ} {p : ℕ × ℕ × ℕ} (h : p ∈ gridList M f) : Inside M f (pst p) := by
  obtain ⟨a, b, c⟩ := mem_gridList.1 h
  exact inside_nat a b c

theorem exists_pst {M : MeshInfo} {f : ℕ} {s : Stencil} (h : Inside M f s) : ∃ p ∈ gridList M f, pst p = s := by
  obtain ⟨i, j, k, rfl, a, b, c⟩ := h.nat
  exact ⟨(i, j, k), mem_gridList.2 ⟨a, b, c⟩, rfl⟩

theorem naturalOrder_eq {L : Layout} (hL : LayoutOK L) {f : ℕ} (hf : f < L.dim ∨ f = 3) :
    naturalOrder L f = .ok ((gridList L.toMeshInfo f).map fun p => col L f (pst p)) := by
  unfold naturalOrder
  apply mapM_ok
  intro p hp
  exact (col_inside hL hf false (inside_pst hp)).1

theorem foldl_vecAssign {α : Type} (l : List α) (g : α → List (ℤ × K)) (q : ℤ → K) :
    l.foldl (fun q a => vecAssign q (g a)) q = vecAssign q (l.flatMap g) := by
  induction l generalizing q with
  | nil => rfl
  | cons a l ih =>
    rw [List.foldl_cons, ih, List.flatMap_cons]
    unfold vecAssign
    rw [List.foldl_append]

theorem zip_map_concat {α β γ : Type} (l : List α) (g : α → β) (h : α → γ) (x : List γ) :
    (l.map g).zip (l.map h ++ x) = l.map fun a => (g a, h a) := by
  induction l with
  | nil => rfl
  | cons a l ih => simp [ih]

theorem zip_map_map {α β γ : Type} (l : List α) (g : α → β) (h : α → γ) :
    (l.map g).zip (l.map h) = l.map fun a => (g a, h a) := by
  simpa using zip_map_concat l g h []

/-- data sets written with distinct names -/
theorem foldl_put (l : List (String × List K)) (file : H5File K) (group : String) :
    (∀ path, (∀ nv ∈ l, group ++ nv.1 ≠ path) →
      (l.foldl (fun file nv => file.put (group ++ nv.1) nv.2) file).data path = file.data path) ∧
    ((l.map (·.1)).Nodup → ∀ nv ∈ l, (l.foldl (fun file nv => file.put (group ++ nv.1) nv.2) file).data (group ++ nv.1) = some nv.2) ∧
    (l.foldl (fun file nv => file.put (group ++ nv.1) nv.2) file).time = file.time := by
  induction l generalizing file with
  | nil => simp
  | cons a l ih =>
    obtain ⟨h1, h2, h3⟩ := ih (file.put (group ++ a.1) a.2)
    simp only [List.foldl_cons]
    refine ⟨?_, ?_, h3⟩
    · intro path hp
      rw [h1 path fun nv hnv => hp nv (List.mem_cons_of_mem _ hnv)]
      have := hp a List.mem_cons_self
      unfold H5File.put
      simp only
      rw [Function.update_of_ne (Ne.symm this)]
    · intro hd nv hnv
      rw [List.map_cons, List.nodup_cons] at hd
      rcases List.mem_cons.1 hnv with rfl | hnv
      · rw [h1]
        · unfold H5File.put; simp
        · intro nv' hnv' he
          apply hd.1
          have : nv'.1 = nv.1 := by
            have := congrArg String.toList he
            rw [String.toList_append, String.toList_append, List.append_cancel_left_eq] at this
            exact String.toList_inj.1 this
          rw [← this]
          exact List.mem_map_of_mem hnv'
      · exact h2 hd.2 nv hnv

theorem fd2str_inj {f g : ℕ} (hf : f < 4) (hg : g < 4) (h : fd2str f = fd2str g) : f = g := by
  revert h
  interval_cases f <;> interval_cases g <;> simp [fd2str]

/-- the names of the fields -/
def fieldNames (dim : ℕ) : List ℕ := List.range dim ++ [3]

theorem nodup_names {dim : ℕ} (h : dim ≤ 3) : ((fieldNames dim).map fd2str).Nodup := by
  refine List.Nodup.map_on ?_ ?_
  · intro f hf g hg e
    simp only [fieldNames, List.mem_append, List.mem_range, List.mem_singleton] at hf hg
    exact fd2str_inj (by omega) (by omega) e
  · unfold fieldNames
    interval_cases dim <;> decide

/-- data sets of a written solution -/
theorem solutionWrite_eq {L : Layout} (hL : LayoutOK L) (U p : ℤ → K) (disk : Disk K) (path : String) :
    ∃ file, solutionWrite L U p disk path = .ok (Function.update disk path (some file)) ∧ file.time = none ∧
      (∀ f, f < L.dim → file.data ("/" ++ fd2str f) = some ((gridList L.toMeshInfo f).map fun x => U (col L f (pst x)))) ∧
      file.data "/p" = some ((gridList L.toMeshInfo 3).map fun x => p (col L 3 (pst x))) ∧
      ∀ name, name ≠ "/p" → (∀ f, f < L.dim → name ≠ "/" ++ fd2str f) → file.data name = none := by
  have h3 : L.dim ≤ 3 := by rcases hL.dim with h | h <;> omega
  have hn : (List.range L.dim).map fd2str ++ ["p"] = (fieldNames L.dim).map fd2str := by
    unfold fieldNames; rw [List.map_append]; rfl
  have hz : (((List.range L.dim).map fd2str ++ ["p"]).zip
      (((List.range L.dim).map fun f => ((gridList L.toMeshInfo f).map fun x => col L f (pst x)).map U) ++
        [((gridList L.toMeshInfo 3).map fun x => col L 3 (pst x)).map p])) =
      (fieldNames L.dim).map fun f => (fd2str f, if f = 3 then ((gridList L.toMeshInfo 3).map fun x => p (col L 3 (pst x))) else
        ((gridList L.toMeshInfo f).map fun x => U (col L f (pst x)))) := by
    rw [List.zip_append (by simp), zip_map_map]
    unfold fieldNames
    rw [List.map_append]
    congr 1
    · apply List.map_congr_left
      intro f hf
      rw [if_neg (by have := List.mem_range.1 hf; omega), List.map_map]
      rfl
    · simp [fd2str, Function.comp_def]
  obtain ⟨h1, h2, h4⟩ := foldl_put ((fieldNames L.dim).map fun f => (fd2str f, if f = 3 then ((gridList L.toMeshInfo 3).map fun x => p (col L 3 (pst x))) else
        ((gridList L.toMeshInfo f).map fun x => U (col L f (pst x))))) (H5File.empty : H5File K) "/"
  have h2 := h2 (by rw [List.map_map]; exact nodup_names h3)
  refine ⟨_, ?_, h4, ?_, ?_, ?_⟩
  · unfold solutionWrite
    rw [mapM_ok (h := fun f => ((gridList L.toMeshInfo f).map fun x => col L f (pst x)).map U)
      (List.range L.dim) (fun f hf => by rw [naturalOrder_eq hL (Or.inl (List.mem_range.1 hf))]; rfl), naturalOrder_eq hL (Or.inr rfl)]
    show Except.ok (writeHDF5Vecs _ _ _ _ _ _) = _
    unfold writeHDF5Vecs
    rw [hz]
    rfl
  · intro f hf
    have := h2 (fd2str f, _) (List.mem_map_of_mem (a := f) (by simp [fieldNames, hf]))
    rw [this, if_neg (by omega)]
  · have := h2 (fd2str 3, _) (List.mem_map_of_mem (a := 3) (by simp [fieldNames]))
    rw [if_pos rfl] at this
    exact this
  · intro name np nf
    rw [h1]
    · rfl
    · intro nv hnv
      obtain ⟨f, hf, rfl⟩ := List.mem_map.1 hnv
      simp only [fieldNames, List.mem_append, List.mem_range, List.mem_singleton] at hf
      rcases hf with hf | rfl
      · exact (nf f hf).symm
      · exact np.symm

/-- vectors read from a file that holds the fields -/
theorem solutionRead_eq {L : Layout} (hL : LayoutOK L) (U p : ℤ → K) {disk : Disk K} {path : String} {file : H5File K}
    (hd : disk path = some file) {u : ℕ → ℕ × ℕ × ℕ → K}
    (hf : ∀ f, f < L.dim → file.data ("/" ++ fd2str f) = some ((gridList L.toMeshInfo f).map (u f)))
    (hp : file.data "/p" = some ((gridList L.toMeshInfo 3).map (u 3))) :
    solutionRead L U p disk path = .ok
      (vecAssign U ((List.range L.dim).flatMap fun f => (gridList L.toMeshInfo f).map fun x => (col L f (pst x), u f x)),
        vecAssign p ((gridList L.toMeshInfo 3).map fun x => (col L 3 (pst x), u 3 x))) := by
  have h3 : L.dim ≤ 3 := by rcases hL.dim with h | h <;> omega
  have hn : (List.range L.dim).map fd2str ++ ["p"] = (fieldNames L.dim).map fd2str := by
    unfold fieldNames; rw [List.map_append]; rfl
  have hsz : (((List.range L.dim).map fun f => (gridList L.toMeshInfo f).map fun x => col L f (pst x)) ++
      [(gridList L.toMeshInfo 3).map fun x => col L 3 (pst x)]).map (·.length) =
      (fieldNames L.dim).map fun f => (gridList L.toMeshInfo f).length := by
    unfold fieldNames
    simp [Function.comp_def]
  have hr : readHDF5Vecs disk path "/" ((fieldNames L.dim).map fd2str) ((fieldNames L.dim).map fun f => (gridList L.toMeshInfo f).length) =
      .ok ((fieldNames L.dim).map fun f => (gridList L.toMeshInfo f).map (u f)) := by
    unfold readHDF5Vecs
    rw [hd, zip_map_map]
    simp only
    have : ∀ f ∈ fieldNames L.dim, file.get ("/" ++ fd2str f) (gridList L.toMeshInfo f).length = .ok ((gridList L.toMeshInfo f).map (u f)) := by
      intro f hfm
      have e : file.data ("/" ++ fd2str f) = some ((gridList L.toMeshInfo f).map (u f)) := by
        simp only [fieldNames, List.mem_append, List.mem_range, List.mem_singleton] at hfm
        rcases hfm with h | rfl
        · exact hf f h
        · exact hp
      unfold H5File.get
      rw [e]
      simp
    rw [List.mapM_map]
    exact mapM_ok _ this
  unfold solutionRead
  rw [mapM_ok (h := fun f => (gridList L.toMeshInfo f).map fun x => col L f (pst x))
      (List.range L.dim) (fun f hf => naturalOrder_eq hL (Or.inl (List.mem_range.1 hf))), naturalOrder_eq hL (Or.inr rfl)]
  show (do
    let vecs ← readHDF5Vecs disk path "/" ((List.range L.dim).map fd2str ++ ["p"]) _
    Except.ok _) = _
  rw [hn, hsz, hr]
  show Except.ok (_, _) = _
  congr 2
  · rw [foldl_vecAssign]
    congr 1
    unfold fieldNames
    rw [List.map_append, zip_map_concat, List.flatMap_map]
    simp only [zip_map_map]
  · unfold fieldNames
    rw [List.map_append]
    simp [zip_map_map]

end PetIBM
