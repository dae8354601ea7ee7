/-
Content of the files that the solver writes.
-/
import Verif.Lemmas.Start
import Verif.Spec.Files
import Verif.Props.Solution

namespace PetIBM

open Spec

set_option linter.unusedSectionVars false

variable {K : Type} [Field K] [LinearOrder K] [IsStrictOrderedRing K]
variable {debug : Bool} {L : Layout} {G : Geom K} {axes : ℕ → Axis K} {T : BCTable K} {B : ℕ → Boundary K}

/-- element of a concatenation of lists of equal lengths -/
theorem getElem?_flatMap_uniform {α : Type} {g : ℕ → List α} {b : ℕ} (hb : ∀ q, (g q).length = b) {a q r : ℕ} (hq : q < a) (hr : r < b) :
    ((List.range a).flatMap g)[q * b + r]? = (g q)[r]? := by
  induction a with
  | zero => omega
  | succ a ih =>
    have hl : ((List.range a).flatMap g).length = a * b := by
      rw [List.length_flatMap]
      simp [hb]
    rw [List.range_succ, List.flatMap_append, List.flatMap_singleton]
    by_cases h : q < a
    · rw [List.getElem?_append_left, ih h]
      rw [hl]
      calc q * b + r < q * b + b := by omega
        _ = (q + 1) * b := by ring
        _ ≤ a * b := Nat.mul_le_mul_right _ h
    · have : q = a := by omega
      subst this
      rw [List.getElem?_append_right (by omega), hl]
      congr 1
      omega

theorem length_gridList (M : MeshInfo) (f : ℕ) : (gridList M f).length = M.n f 0 * M.n f 1 * M.n f 2 := by
  unfold gridList
  simp [List.length_flatMap]
  ring

theorem gridList_getElem? {M : MeshInfo} {f i j k : ℕ} (hi : i < M.n f 0) (hj : j < M.n f 1) (hk : k < M.n f 2) :
    (gridList M f)[(k * M.n f 1 + j) * M.n f 0 + i]? = some (i, j, k) := by
  unfold gridList
  have hin : ∀ k' : ℕ, ((List.range (M.n f 1)).flatMap fun j => (List.range (M.n f 0)).map fun i => (i, j, k')).length = M.n f 1 * M.n f 0 := by
    intro k'
    simp [List.length_flatMap]
  rw [show (k * M.n f 1 + j) * M.n f 0 + i = k * (M.n f 1 * M.n f 0) + (j * M.n f 0 + i) by ring]
  rw [getElem?_flatMap_uniform hin hk]
  · rw [getElem?_flatMap_uniform (b := M.n f 0) (by simp) hj hi]
    simp [hi]
  · calc j * M.n f 0 + i < j * M.n f 0 + M.n f 0 := by omega
      _ = (j + 1) * M.n f 0 := by ring
      _ ≤ M.n f 1 * M.n f 0 := Nat.mul_le_mul_right _ hj

theorem fieldIn_gridList (hL : LayoutOK L) {f : ℕ} (hf : f < L.dim ∨ f = 3) (q : ℤ → K) :
    FieldIn L f q (some ((gridList L.toMeshInfo f).map fun x => q (col L f (pst x)))) := by
  refine ⟨_, rfl, by rw [List.length_map, length_gridList], ?_⟩
  intro i j k idx hi hj hk he
  rw [List.getElem?_map, gridList_getElem? hi hj hk]
  have hmem : (i, j, k) ∈ gridList L.toMeshInfo f := mem_gridList.2 ⟨hi, hj, hk⟩
  have := (col_inside hL hf false (inside_pst hmem)).1
  have he' : L.getPackedGlobalIndex false f (pst (i, j, k)) = .ok idx := he
  rw [this] at he'
  cases he'
  rfl

/-- writing the solution: only the file of this path changes, and it holds the solution -/
theorem writeSolution_spec (hL : LayoutOK L) (s : NSState K) (disk : Disk K) (path : String) :
    ∃ file, writeSolutionHDF5 L s disk path = .ok (Function.update disk path (some file)) ∧ SolutionIn L file s := by
  obtain ⟨file, h1, h2, h3, h4, _⟩ := writeSolution_eq hL s disk path
  refine ⟨file, h1, ⟨?_, ?_, h2⟩⟩
  · intro f name hf hn
    have h3d : L.dim ≤ 3 := by rcases hL.dim with h | h <;> omega
    have : name = "/" ++ fd2str f := by
      have : f < 3 := by omega
      interval_cases f <;> (cases hn; decide)
    rw [this, h3 f hf]
    exact fieldIn_gridList hL (Or.inl hf) _
  · rw [h4]
    exact fieldIn_gridList hL (Or.inr rfl) _

/-! ### Names -/

theorem stepDigits_injective {i j : ℤ} (hi : 0 ≤ i) (hj : 0 ≤ j) (h : stepDigits i = stepDigits j) : i = j := by
  obtain ⟨a, rfl⟩ := Int.eq_ofNat_of_zero_le hi
  obtain ⟨b, rfl⟩ := Int.eq_ofNat_of_zero_le hj
  have key : ∀ n : ℕ, Nat.ofDigitChars 10 (stepDigits n).toList 0 = n := by
    intro n
    have : (toString (n : ℤ)).toList = Nat.toDigits 10 n := by
      show (toString n).toList = _
      rw [Nat.toString_eq_ofList_toDigits]
      simp
    simp only [stepDigits, this, String.toList_ofList, Nat.ofDigitChars_append, Nat.ofDigitChars_replicate_zero, Nat.mul_zero,
      Nat.ofDigitChars_ten_toDigits]
  have := key a
  rw [h, key b] at this
  rw [this]

theorem toString_nat_injective {a b : ℕ} (h : toString a = toString b) : a = b := by
  have key : ∀ n : ℕ, Nat.ofDigitChars 10 (toString n).toList 0 = n := by
    intro n
    rw [Nat.toString_eq_ofList_toDigits]
    simp
  have := key a
  rw [h, key b] at this
  exact this.symm

theorem stepPath_injective {output : String} {i j : ℤ} (hi : 0 ≤ i) (hj : 0 ≤ j) (h : stepPath output i = stepPath output j) : i = j := by
  apply stepDigits_injective hi hj
  unfold stepPath at h
  have := congrArg String.toList h
  simp only [String.toList_append, List.append_assoc, List.append_cancel_left_eq, List.append_cancel_right_eq] at this
  exact String.toList_inj.1 this

/-! ### Restart data -/

/-- appending a group of vectors to a file -/
theorem appendGroup (disk : Disk K) (path group : String) {file : H5File K} (hd : disk path = some file) (N : ℕ) (l : List (ℤ → K)) :
    ∃ file', writeHDF5Vecs disk path group ((List.range l.length).map toString) (l.map (packedList N)) .append =
        Function.update disk path (some file') ∧ file'.time = file.time ∧ VectorsIn N file' group l ∧
      ∀ name, (∀ i : ℕ, name ≠ group ++ toString i) → file'.data name = file.data name := by
  unfold writeHDF5Vecs
  refine ⟨_, rfl, ?_⟩
  rw [hd]
  simp only [FileMode.start, Option.getD_some]
  obtain ⟨h1, h2, h3⟩ := foldl_put (((List.range l.length).map toString).zip (l.map (packedList N))) file group
  refine ⟨h3, ?_, ?_⟩
  · have h2 := h2 (by
      rw [List.map_fst_zip (by simp)]
      exact (List.nodup_range).map fun a b h => toString_nat_injective h)
    intro i z hz
    have hi : i < l.length := (List.getElem?_eq_some_iff.1 hz).1
    refine ⟨packedList N z, ?_, by simp [packedList], ?_⟩
    · refine h2 (toString i, packedList N z) ?_
      refine List.mem_of_getElem? (i := i) ?_
      rw [List.getElem?_zip_eq_some]
      constructor
      · simp [hi]
      · simp [hz]
    · intro m hm
      simp [packedList, hm]
  · intro name hn
    apply h1
    intro nv hnv e
    obtain ⟨h, _⟩ := List.of_mem_zip hnv
    obtain ⟨i, _, hi⟩ := List.mem_map.1 h
    exact hn i (by rw [← e, ← hi])

theorem writeRestart_spec (hL : LayoutOK L) (s : NSState K) (disk : Disk K) (path : String) :
    ∃ file, writeRestartDataHDF5 L s disk path = .ok (Function.update disk path (some file)) ∧ RestartIn L file s ∧
      (disk path = none → SolutionIn L file s) ∧
      ∀ old, disk path = some old → file.time = old.time ∧
        ∀ name, (∀ i : ℕ, name ≠ "/convection/" ++ toString i ∧ name ≠ "/diffusion/" ++ toString i) → file.data name = old.data name := by
  have step : ∀ (disk₁ : Disk K) (file₁ : H5File K), disk₁ path = some file₁ →
      ∃ file, writeHDF5Vecs (writeHDF5Vecs disk₁ path "/convection/" ((List.range s.conv.length).map toString) (s.conv.map (packedList L.UN)) .append)
        path "/diffusion/" ((List.range s.diff.length).map toString) (s.diff.map (packedList L.UN)) .append = Function.update disk₁ path (some file) ∧
        RestartIn L file s ∧ file.time = file₁.time ∧
        ∀ name, (∀ i : ℕ, name ≠ "/convection/" ++ toString i ∧ name ≠ "/diffusion/" ++ toString i) → file.data name = file₁.data name := by
    intro disk₁ file₁ h
    obtain ⟨f1, e1, t1, v1, o1⟩ := appendGroup disk₁ path "/convection/" h L.UN s.conv
    obtain ⟨f2, e2, t2, v2, o2⟩ := appendGroup (Function.update disk₁ path (some f1)) path "/diffusion/" (Function.update_self ..) L.UN s.diff
    refine ⟨f2, ?_, ⟨?_, v2⟩, t2.trans t1, ?_⟩
    · rw [e1, e2, Function.update_idem]
    · intro i z hz
      obtain ⟨v, hv, hr⟩ := v1 i z hz
      refine ⟨v, ?_, hr⟩
      rw [← hv]
      apply o2
      intro j e
      have := congrArg String.toList e
      simp only [String.toList_append] at this
      have := congrArg (fun l => l[1]?) this
      simp at this
    · intro name hn
      rw [o2 name fun i => (hn i).2, o1 name fun i => (hn i).1]
  unfold writeRestartDataHDF5
  cases hd : disk path with
  | none =>
    obtain ⟨file₁, e1, s1⟩ := writeSolution_spec hL s disk path
    obtain ⟨file, e2, r2, t2, o2⟩ := step (Function.update disk path (some file₁)) file₁ (Function.update_self ..)
    refine ⟨file, ?_, r2, ?_, ?_⟩
    · simp only [e1, bind, Except.bind, pure, Except.pure]
      rw [e2, Function.update_idem]
    · intro _
      have other : ∀ name, name.toList[2]? = none → file.data name = file₁.data name := by
        intro name hn
        apply o2
        intro i
        constructor <;>
        · rintro rfl
          simp at hn
      refine ⟨?_, ?_, t2.trans s1.time⟩
      · intro f name hf hn
        have hf3 : f < 3 := by have := (List.getElem?_eq_some_iff.1 hn).1; simpa using this
        rw [other name (by interval_cases f <;> (cases hn; decide))]
        exact s1.velocity f name hf hn
      · rw [other "/p" (by decide)]
        exact s1.pressure
    · rintro old ⟨⟩
  | some file₁ =>
    obtain ⟨file, e2, r2, t2, o2⟩ := step disk file₁ hd
    refine ⟨file, ?_, r2, by rintro ⟨⟩, ?_⟩
    · simp only [bind, Except.bind, pure, Except.pure]
      rw [e2]
    · rintro old ⟨⟩
      exact ⟨t2, o2⟩

/-- data sets with short names are not touched by restart data -/
theorem SolutionIn.of_same {L : Layout} {file old : H5File K} {s : NSState K} (h : SolutionIn L old s) (ht : file.time = old.time)
    (hd : ∀ name, (∀ i : ℕ, name ≠ "/convection/" ++ toString i ∧ name ≠ "/diffusion/" ++ toString i) → file.data name = old.data name) :
    SolutionIn L file s := by
  have other : ∀ name, name.toList[2]? = none → file.data name = old.data name := by
    intro name hn
    apply hd
    intro i
    constructor <;>
    · rintro rfl
      simp at hn
  refine ⟨?_, ?_, ht.trans h.time⟩
  · intro f name hf hn
    have hf3 : f < 3 := by have := (List.getElem?_eq_some_iff.1 hn).1; simpa using this
    rw [other name (by interval_cases f <;> (cases hn; decide))]
    exact h.velocity f name hf hn
  · rw [other "/p" (by decide)]
    exact h.pressure

end PetIBM
