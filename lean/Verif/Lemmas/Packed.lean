import Verif.Lemmas.Index
import Mathlib.Data.List.Perm.Basic
import Mathlib.Algebra.BigOperators.Group.Finset.Basic

namespace PetIBM

open Layout Spec

/-- All velocity unknowns, in packed order. -/
def unknowns (L : Layout) : List Unknown :=
  (List.range L.mpiSize).flatMap fun r => (List.range L.dim).flatMap fun f =>
    (L.box f r).map fun p => ⟨r, f, p.1, p.2.1, p.2.2⟩

theorem getNaturalIndex_inGrid (debug : Bool) (M : MeshInfo) (f : ℕ) (hM : GridOK M f) {i j k : ℕ}
    (hi : i < M.n f 0) (hj : j < M.n f 1) (hk : k < M.n f 2) :
    getNaturalIndex debug M f i j k = .ok ((nat3 (M.n f 0) (M.n f 1) (i, j, k) : ℕ) : ℤ) := by
  have h1 : ¬ ((i:ℤ) < -1 ∨ (i:ℤ) > M.n f 0 ∨ (j:ℤ) < -1 ∨ (j:ℤ) > M.n f 1 ∨ (k:ℤ) < -1 ∨ (k:ℤ) > M.n f 2) := by
    omega
  have h2 : (i:ℤ) ≠ -1 := by omega
  have h3 : (i:ℤ) ≠ M.n f 0 := by omega
  have h4 : (j:ℤ) ≠ -1 := by omega
  have h5 : (j:ℤ) ≠ M.n f 1 := by omega
  have h6 : (k:ℤ) ≠ -1 := by omega
  have h7 : (k:ℤ) ≠ M.n f 2 := by omega
  simp only [getNaturalIndex, h1, h2, h3, h4, h5, h6, h7, and_false, if_false, nat3]
  congr 1
  rcases hM.1 with h | ⟨h, hn⟩
  · simp only [h, if_true]; push_cast; ring
  · have : k = 0 := by omega
    subst this
    simp [h, mul_comm]

theorem mem_unknowns {L : Layout} (hL : LayoutOK L) {u : Unknown} : u ∈ unknowns L ↔ IsUnknown L u := by
  obtain ⟨r, f, i, j, k⟩ := u
  simp only [unknowns, List.mem_flatMap, List.mem_range, List.mem_map, Unknown.mk.injEq, IsUnknown]
  constructor
  · rintro ⟨r', hr, f', hf, ⟨i', j', k'⟩, hp, rfl, rfl, rfl, rfl, rfl⟩
    have h := mem_box.1 hp
    have h' := owns_inGrid hL (Or.inl hf) h
    exact ⟨hf, h'.1, h'.2.1, h'.2.2, hr, h⟩
  · rintro ⟨hf, _, _, _, hr, h⟩
    exact ⟨r, hr, f, hf, (i, j, k), mem_box.2 h, rfl, rfl, rfl, rfl, rfl⟩

theorem pairwise_unknowns (L : Layout) : (unknowns L).Pairwise Before := by
  unfold unknowns
  rw [List.pairwise_flatMap]
  refine ⟨fun r _ => ?_, ?_⟩
  · rw [List.pairwise_flatMap]
    refine ⟨fun f _ => ?_, ?_⟩
    · rw [List.pairwise_map]
      simp only [box, procCoord]
      rw [List.pairwise_flatMap]
      refine ⟨fun k _ => ?_, ?_⟩
      · rw [List.pairwise_flatMap]
        refine ⟨fun j _ => ?_, ?_⟩
        · rw [List.pairwise_map]
          refine (List.pairwise_lt_range' (step := 1) (pos := by simp)).imp ?_
          intro a b h
          simp [Before, h]
        · refine (List.pairwise_lt_range' (step := 1) (pos := by simp)).imp ?_
          intro a b h x hx y hy
          simp only [List.mem_map] at hx hy
          obtain ⟨_, _, rfl⟩ := hx
          obtain ⟨_, _, rfl⟩ := hy
          simp [Before, h]
      · refine (List.pairwise_lt_range' (step := 1) (pos := by simp)).imp ?_
        intro a b h x hx y hy
        simp only [List.mem_map, List.mem_flatMap] at hx hy
        obtain ⟨_, _, _, _, rfl⟩ := hx
        obtain ⟨_, _, _, _, rfl⟩ := hy
        simp [Before, h]
    · refine List.pairwise_lt_range.imp ?_
      intro a b h x hx y hy
      simp only [List.mem_map] at hx hy
      obtain ⟨_, _, rfl⟩ := hx
      obtain ⟨_, _, rfl⟩ := hy
      simp [Before, h]
  · refine List.pairwise_lt_range.imp ?_
    intro a b h x hx y hy
    simp only [List.mem_map, List.mem_flatMap] at hx hy
    obtain ⟨_, _, _, _, rfl⟩ := hx
    obtain ⟨_, _, _, _, rfl⟩ := hy
    simp [Before, h]

theorem before_irrefl (u : Unknown) : ¬ Before u u := by simp only [Before]; omega

theorem nodup_unknowns (L : Layout) : (unknowns L).Nodup := by
  refine (pairwise_unknowns L).imp ?_
  rintro a b h rfl
  exact before_irrefl a h

theorem aoList_perm {L : Layout} (hL : LayoutOK L) {f : ℕ} (hf : f < L.dim ∨ f = 3) :
    (L.aoList f).Perm ((List.range (L.n f 0 * L.n f 1 * L.n f 2)).map fun x : ℕ => (x : ℤ)) := by
  rw [List.perm_ext_iff_of_nodup (nodup_aoList hL hf)
    (List.nodup_range.map (fun a b h => by simpa using h))]
  intro x
  rw [mem_aoList hL hf]
  simp only [List.mem_map, List.mem_range]
  constructor
  · rintro ⟨i, j, k, hi, hj, hk, rfl⟩
    exact ⟨_, natural_lt hi hj hk, rfl⟩
  · rintro ⟨a, ha, rfl⟩
    have h0 : 0 < L.n f 0 := Nat.pos_of_ne_zero (by rintro h; simp [h] at ha)
    have h1 : 0 < L.n f 1 := Nat.pos_of_ne_zero (by rintro h; simp [h] at ha)
    refine ⟨a % L.n f 0, a / L.n f 0 % L.n f 1, a / L.n f 0 / L.n f 1, Nat.mod_lt _ h0, Nat.mod_lt _ h1, ?_, ?_⟩
    · rw [Nat.div_div_eq_div_mul]
      exact Nat.div_lt_of_lt_mul ha
    · simp only [nat3]
      rw [Nat.mod_add_div, Nat.mod_add_div]

theorem length_aoList {L : Layout} (hL : LayoutOK L) {f : ℕ} (hf : f < L.dim ∨ f = 3) :
    (L.aoList f).length = L.n f 0 * L.n f 1 * L.n f 2 := by
  rw [(aoList_perm hL hf).length_eq]; simp

/-- sizes of the boxes of a field add up to the size of the grid -/
theorem sum_box {L : Layout} (hL : LayoutOK L) {f : ℕ} (hf : f < L.dim ∨ f = 3) :
    ((List.range L.mpiSize).map fun r => (L.box f r).length).sum = L.n f 0 * L.n f 1 * L.n f 2 := by
  rw [← length_aoList hL hf, aoList, List.length_flatMap]; simp

theorem sum_map_comm (n m : ℕ) (g : ℕ → ℕ → ℕ) :
    ((List.range n).map fun a => ((List.range m).map fun b => g a b).sum).sum =
      ((List.range m).map fun b => ((List.range n).map fun a => g a b).sum).sum := by
  induction n with
  | zero => simp
  | succ n ih => simp [List.range_succ, ih, List.sum_map_add]

theorem UN_eq (L : Layout) : L.UN = ((List.range L.dim).map fun f => L.n f 0 * L.n f 1 * L.n f 2).sum := by
  unfold UN
  rw [List.sum_eq_foldl, List.foldl_map]

theorem length_unknowns {L : Layout} (hL : LayoutOK L) : (unknowns L).length = L.UN := by
  unfold unknowns
  simp only [List.length_flatMap, List.length_map]
  rw [sum_map_comm, UN_eq]
  congr 1
  apply List.map_congr_left
  intro f hf
  exact sum_box hL (Or.inl (List.mem_range.1 hf))

theorem UPackN_eq {L : Layout} (hL : LayoutOK L) (r : ℕ) :
    L.UPackNLocalAllProcs r = ((List.range L.dim).map fun f => (L.box f r).length).sum := by
  have h : ((List.range L.dim).map fun f => (L.box f r).length) =
      (List.range L.dim).map fun f => L.UNLocalAllProcs f r := by
    apply List.map_congr_left
    intro f hf
    exact length_box L f r (List.mem_range.1 hf)
  rw [h]
  rcases hL.dim with h | h
  · have : L.UNLocalAllProcs 2 r = 0 := by simp [UNLocalAllProcs, h]
    simp [UPackNLocalAllProcs, h, this, List.range_succ]
  · simp [UPackNLocalAllProcs, h, List.range_succ, add_assoc]

theorem foldl_add_cast (g : ℕ → ℕ) (f : ℕ) (a : ℤ) :
    (List.range f).foldl (fun acc i => acc + (g i : ℤ)) a = a + (((List.range f).map g).sum : ℕ) := by
  induction f with
  | zero => simp
  | succ f ih => simp [List.range_succ, ih, add_assoc]

theorem gridOK_of {L : Layout} (hL : LayoutOK L) {f : ℕ} (hf : f < L.dim ∨ f = 3) {i j k : ℕ}
    (hi : i < L.n f 0) (hj : j < L.n f 1) (hk : k < L.n f 2) : GridOK L.toMeshInfo f := by
  refine ⟨?_, by omega, by omega, by omega⟩
  rcases hL.dim with h | h
  · exact Or.inr ⟨h, hL.flat h f (by omega)⟩
  · exact Or.inl h

theorem getGlobalIndex_owner (debug : Bool) {L : Layout} (hL : LayoutOK L) {f : ℕ} (hf : f < L.dim ∨ f = 3)
    {r i j k c q : ℕ} (hr : r < L.mpiSize) (hq : (L.box f r)[q]? = some (i, j, k)) :
    L.getGlobalIndex debug f ⟨k, j, i, c⟩ =
      .ok ((((List.range r).map fun s => (L.box f s).length).sum + q : ℕ) : ℤ) := by
  have hin := owns_inGrid hL hf (mem_box.1 (List.mem_of_getElem? hq))
  have hg := gridOK_of hL hf hin.1 hin.2.1 hin.2.2
  simp only [getGlobalIndex, getNaturalIndexS,
    getNaturalIndex_inGrid debug L.toMeshInfo f hg hin.1 hin.2.1 hin.2.2]
  show Except.ok _ = _
  rw [ao_of_owner hL hf hr hq]

theorem getPackedGlobalIndex_owner (debug : Bool) {L : Layout} (hL : LayoutOK L) {f : ℕ} (hf : f < L.dim)
    {r i j k c q : ℕ} (hr : r < L.mpiSize) (hq : (L.box f r)[q]? = some (i, j, k)) :
    L.getPackedGlobalIndex debug f ⟨k, j, i, c⟩ =
      .ok ((((List.range r).map fun s => ((List.range L.dim).map fun f => (L.box f s).length).sum).sum +
        (((List.range f).map fun g => (L.box g r).length).sum + q) : ℕ) : ℤ) := by
  have hl : q < (L.box f r).length := (List.getElem?_eq_some_iff.1 hq).1
  have hd : L.dim ≤ 3 := by rcases hL.dim with h | h <;> omega
  have e1 : ((List.range r).map fun s => (L.box f s).length) = (List.range r).map (L.UNLocalAllProcs f) := by
    apply List.map_congr_left; intro s _; exact length_box L f s hf
  have e2 : ((List.range r).map fun s => ((List.range L.dim).map fun f => (L.box f s).length).sum) =
      (List.range r).map L.UPackNLocalAllProcs := by
    apply List.map_congr_left; intro s _; exact (UPackN_eq hL s).symm
  have e3 : ((List.range f).map fun g => (L.box g r).length) = (List.range f).map fun g => L.UNLocalAllProcs g r := by
    apply List.map_congr_left; intro g hg
    have := List.mem_range.1 hg
    exact length_box L g r (by omega)
  have hub : upperBound (L.offsetsAllProcs f) ((((List.range r).map (L.UNLocalAllProcs f)).sum + q : ℕ) : ℤ) = r + 1 :=
    upperBound_offsets _ _ _ _ hr (by rw [← length_box L f r hf]; exact hl)
  unfold getPackedGlobalIndex
  rw [getGlobalIndex_owner debug hL (Or.inl hf) hr hq, e1, e2, e3]
  show (if _ then _ else _) = _
  rw [if_neg (by omega), hub]
  have o1 : L.offsetsPackAllProcs[r]? = some ((List.range r).map L.UPackNLocalAllProcs).sum :=
    offsets_getElem? _ _ _ hr
  have o2 : (L.offsetsAllProcs f)[r]? = some ((List.range r).map (L.UNLocalAllProcs f)).sum :=
    offsets_getElem? _ _ _ hr
  simp only [Nat.add_one_sub_one, Nat.add_one_ne_zero, if_false, o1, o2, foldl_add_cast]
  show Except.ok _ = _
  congr 1
  push_cast
  ring

/-- the packed index of an unknown is its position in `unknowns` -/
theorem packed_position (debug : Bool) {L : Layout} (hL : LayoutOK L) {u : Unknown} (hu : IsUnknown L u) (c : ℕ) :
    ∃ idx : ℕ, L.getPackedGlobalIndex debug u.comp ⟨u.k, u.j, u.i, c⟩ = .ok (idx : ℤ) ∧
      (unknowns L)[idx]? = some u := by
  obtain ⟨r, f, i, j, k⟩ := u
  obtain ⟨hf, _, _, _, hr, ho⟩ := hu
  simp only at *
  obtain ⟨q, hq⟩ := List.getElem?_of_mem (mem_box.2 ho)
  refine ⟨_, getPackedGlobalIndex_owner debug hL hf hr hq, ?_⟩
  have h1 := getElem?_flatMap_range
    (fun f => (L.box f r).map fun p => (⟨r, f, p.1, p.2.1, p.2.2⟩ : Unknown)) L.dim hf (q := q)
    (a := ⟨r, f, i, j, k⟩) (by rw [List.getElem?_map, hq]; rfl)
  have h2 := getElem?_flatMap_range
    (fun r => (List.range L.dim).flatMap fun f =>
      (L.box f r).map fun p => (⟨r, f, p.1, p.2.1, p.2.2⟩ : Unknown)) L.mpiSize hr h1
  simpa [unknowns, List.length_flatMap] using h2

end PetIBM
