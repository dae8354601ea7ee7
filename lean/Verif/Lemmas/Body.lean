import Verif.Spec.Body
import Verif.Lemmas.Packed
import Mathlib.Algebra.BigOperators.Ring.List

namespace PetIBM

open Spec Layout

variable {K : Type}

/-- points per process of body `b` -/
def lclOf (P : BodyPack K) (b : ℕ) : List ℕ := match P.bodies[b]? with
  | some x => x.lcl
  | none => []

/-- degrees of freedom of body `b` on rank `r`, in order -/
def localDofs (P : BodyPack K) (r b : ℕ) : List LagDof :=
  (List.range' (startOf (lclOf P b) r) (sizeOf' (lclOf P b) r)).flatMap fun i =>
    (List.range P.dim).map fun d => ⟨r, b, i, d⟩

/-- all degrees of freedom in the demanded order -/
def lagDofs (P : BodyPack K) : List LagDof :=
  (List.range P.mpiSize).flatMap fun r => (List.range P.bodies.length).flatMap fun b => localDofs P r b

theorem lclOf_some {P : BodyPack K} {b : ℕ} {x : SingleBody K} (h : P.bodies[b]? = some x) : lclOf P b = x.lcl := by
  simp [lclOf, h]

theorem ownsPoint_iff {b : SingleBody K} {r i : ℕ} :
    OwnsPoint b r i ↔ startOf b.lcl r ≤ i ∧ i < startOf b.lcl r + sizeOf' b.lcl r := by
  unfold OwnsPoint startOf sizeOf'
  rw [sum_take_succ]

theorem mem_lagDofs {P : BodyPack K} (hP : PackOK P) {u : LagDof} : u ∈ lagDofs P ↔ IsLagDof P u := by
  obtain ⟨r, b, i, d⟩ := u
  simp only [lagDofs, localDofs, List.mem_flatMap, List.mem_range, List.mem_map, LagDof.mk.injEq, IsLagDof,
    List.mem_range'_1]
  constructor
  · rintro ⟨r', hr, b', hb, i', hi, d', hd, rfl, rfl, rfl, rfl⟩
    have hx : P.bodies[b']? = some P.bodies[b'] := List.getElem?_eq_getElem hb
    rw [lclOf_some hx] at hi
    have ho := ownsPoint_iff.2 hi
    refine ⟨hd, hr, _, hx, ?_, ho⟩
    rw [← hP.points _ (List.getElem_mem hb)]
    exact lt_of_lt_of_le ho.2 (sum_take_le _ _)
  · rintro ⟨hd, hr, x, hx, hi, ho⟩
    refine ⟨r, hr, b, (List.getElem?_eq_some_iff.1 hx).1, i, ?_, d, hd, rfl, rfl, rfl, rfl⟩
    rw [lclOf_some hx]
    exact ownsPoint_iff.1 ho

theorem pairwise_lagDofs (P : BodyPack K) : (lagDofs P).Pairwise LagBefore := by
  unfold lagDofs
  rw [List.pairwise_flatMap]
  refine ⟨fun r _ => ?_, ?_⟩
  · rw [List.pairwise_flatMap]
    refine ⟨fun b _ => ?_, ?_⟩
    · unfold localDofs
      rw [List.pairwise_flatMap]
      refine ⟨fun i _ => ?_, ?_⟩
      · rw [List.pairwise_map]
        refine List.pairwise_lt_range.imp ?_
        intro a b h
        simp [LagBefore, h]
      · refine (List.pairwise_lt_range' (step := 1) (pos := by simp)).imp ?_
        intro a b h x hx y hy
        simp only [List.mem_map] at hx hy
        obtain ⟨_, _, rfl⟩ := hx
        obtain ⟨_, _, rfl⟩ := hy
        simp [LagBefore, h]
    · refine List.pairwise_lt_range.imp ?_
      intro a b h x hx y hy
      simp only [localDofs, List.mem_map, List.mem_flatMap] at hx hy
      obtain ⟨_, _, _, _, rfl⟩ := hx
      obtain ⟨_, _, _, _, rfl⟩ := hy
      simp [LagBefore, h]
  · refine List.pairwise_lt_range.imp ?_
    intro a b h x hx y hy
    simp only [localDofs, List.mem_map, List.mem_flatMap] at hx hy
    obtain ⟨_, _, _, _, _, _, rfl⟩ := hx
    obtain ⟨_, _, _, _, _, _, rfl⟩ := hy
    simp [LagBefore, h]

theorem lagBefore_irrefl (u : LagDof) : ¬ LagBefore u u := by simp only [LagBefore]; omega

theorem nodup_lagDofs (P : BodyPack K) : (lagDofs P).Nodup := by
  refine (pairwise_lagDofs P).imp ?_
  rintro a b h rfl
  exact lagBefore_irrefl a h

theorem length_localDofs (P : BodyPack K) (r b : ℕ) : (localDofs P r b).length = sizeOf' (lclOf P b) r * P.dim := by
  simp [localDofs, List.length_flatMap]

theorem sum_map_getD (l : List ℕ) (n : ℕ) (h : l.length ≤ n) :
    ((List.range n).map fun r => l.getD r 0).sum = l.sum := by
  induction l generalizing n with
  | nil =>
    have : ((List.range n).map fun r => ([] : List ℕ).getD r 0) = List.replicate n 0 := by
      rw [List.eq_replicate_iff]; simp
    rw [this]; simp
  | cons a t ih =>
    obtain ⟨m, rfl⟩ : ∃ m, n = m + 1 := ⟨n - 1, by simp at h; omega⟩
    rw [List.range_succ_eq_map]
    simp only [List.map_cons, List.map_map, List.sum_cons, List.getD_cons_zero]
    rw [show ((fun r => (a :: t).getD r 0) ∘ Nat.succ) = fun r => t.getD r 0 from by funext r; simp]
    rw [ih m (by simpa using h)]

theorem nPts_eq (P : BodyPack K) : P.nPts = (P.bodies.map fun b => b.nPts).sum := by
  unfold BodyPack.nPts
  rw [List.sum_eq_foldl, List.foldl_map]

theorem length_lagDofs {P : BodyPack K} (hP : PackOK P) : (lagDofs P).length = P.dim * P.nPts := by
  unfold lagDofs
  simp only [List.length_flatMap, length_localDofs]
  rw [sum_map_comm, nPts_eq]
  have h1 : ∀ b, b < P.bodies.length → ((List.range P.mpiSize).map fun r => sizeOf' (lclOf P b) r * P.dim).sum =
      P.dim * ((P.bodies.map fun b => b.nPts).getD b 0) := by
    intro b hb
    have hx : P.bodies[b]? = some P.bodies[b] := List.getElem?_eq_getElem hb
    have hm := List.getElem_mem hb
    rw [lclOf_some hx]
    unfold sizeOf'
    rw [List.sum_map_mul_right, sum_map_getD _ _ (hP.procs _ hm).le, hP.points _ hm, mul_comm]
    simp [hb]
  have h2 : ((List.range P.bodies.length).map fun b =>
      ((List.range P.mpiSize).map fun r => sizeOf' (lclOf P b) r * P.dim).sum) =
      (List.range P.bodies.length).map fun b => P.dim * ((P.bodies.map fun b => b.nPts).getD b 0) := by
    apply List.map_congr_left
    intro b hb
    exact h1 b (List.mem_range.1 hb)
  rw [h2, List.sum_map_mul_left, sum_map_getD _ _ (by simp)]

/-- position of a degree of freedom in the local list of its body -/
theorem localDofs_getElem? (P : BodyPack K) {r b i d : ℕ} (hd : d < P.dim)
    (hi : startOf (lclOf P b) r ≤ i ∧ i < startOf (lclOf P b) r + sizeOf' (lclOf P b) r) :
    (localDofs P r b)[(i - startOf (lclOf P b) r) * P.dim + d]? = some ⟨r, b, i, d⟩ := by
  unfold localDofs
  have e : List.range' (startOf (lclOf P b) r) (sizeOf' (lclOf P b) r) =
      (List.range (sizeOf' (lclOf P b) r)).map fun c => startOf (lclOf P b) r + c := by
    rw [List.range'_eq_map_range]
  rw [e, List.flatMap_map]
  have h := getElem?_flatMap_range
    (fun c => (List.range P.dim).map fun d => (⟨r, b, startOf (lclOf P b) r + c, d⟩ : LagDof)) (sizeOf' (lclOf P b) r)
    (R := i - startOf (lclOf P b) r) (q := d) (a := ⟨r, b, i, d⟩) (by omega)
    (by rw [List.getElem?_map, List.getElem?_range hd]; simp; omega)
  simpa using h

theorem foldl_nLcl (l : List (SingleBody K)) (r n : ℕ) :
    l.foldl (fun n b => n + b.nLclAllProcs r) n = n + (l.map fun b => b.nLclAllProcs r).sum := by
  induction l generalizing n with
  | nil => simp
  | cons a t ih => simp [ih, add_assoc]

theorem foldl_nLcl_int (l : List (SingleBody K)) (r : ℕ) (n : ℤ) :
    l.foldl (fun (acc : ℤ) b => acc + (b.nLclAllProcs r : ℤ)) n = n + ((l.map fun b => b.nLclAllProcs r).sum : ℕ) := by
  induction l generalizing n with
  | nil => simp
  | cons a t ih => simp [ih, add_assoc]

theorem map_take_range {α β : Type} (l : List α) (m : ℕ) (hm : m ≤ l.length) (g : α → β) (h : ℕ → β)
    (hg : ∀ b x, l[b]? = some x → h b = g x) : (List.range m).map h = (l.take m).map g := by
  apply List.ext_getElem?
  intro i
  rw [List.getElem?_map, List.getElem?_map]
  by_cases hi : i < m
  · have hx : l[i]? = some l[i] := List.getElem?_eq_getElem (by omega)
    rw [List.getElem?_range hi, List.getElem?_take_of_lt hi, hx]
    simp only [Option.map_some]
    rw [hg i _ hx]
  · rw [List.getElem?_eq_none (by simpa using hi), List.getElem?_eq_none (by simp; omega)]
    rfl

/-- the offset of a process in the numbering of one body -/
theorem sum_nLcl {P : BodyPack K} (hP : PackOK P) {x : SingleBody K} (hx : x ∈ P.bodies) (r : ℕ) :
    ((List.range r).map x.nLclAllProcs).sum = startOf x.lcl r * P.dim := by
  have e : (List.range r).map x.nLclAllProcs = (List.range r).map fun s => x.lcl.getD s 0 * P.dim := by
    apply List.map_congr_left
    intro s _
    simp [SingleBody.nLclAllProcs, sizeOf', hP.dim _ hx]
  rw [e, List.sum_map_mul_right]
  congr 1
  unfold startOf
  induction r with
  | zero => simp
  | succ r ih =>
    rw [List.range_succ, List.map_append, List.sum_append, ih ?_, sum_take_succ]
    · simp
    · apply List.map_congr_left
      intro s _
      simp [SingleBody.nLclAllProcs, sizeOf', hP.dim _ hx]

/-- the owner found for a point -/
theorem findProc_eq {P : BodyPack K} (hP : PackOK P) {b r i : ℕ} {x : SingleBody K} (hx : P.bodies[b]? = some x)
    (hr : r < P.mpiSize) (hi : i < x.nPts) (ho : OwnsPoint x r i) : P.findProc b i = .ok (r : ℤ) := by
  have hb := (List.getElem?_eq_some_iff.1 hx).1
  have hm := List.mem_of_getElem? hx
  unfold BodyPack.findProc
  rw [if_neg (by omega), Int.toNat_natCast, hx]
  simp only
  unfold SingleBody.findProc
  rw [if_neg (by omega)]
  have hsz : x.mpiSize = P.mpiSize := hP.procs _ hm
  obtain ⟨h1, h2⟩ := ownsPoint_iff.1 ho
  have hd := hP.dim_pos
  have hq : (i - startOf x.lcl r) * P.dim < x.nLclAllProcs r := by
    unfold SingleBody.nLclAllProcs
    rw [hP.dim _ hm]
    exact Nat.mul_lt_mul_of_pos_right (by omega) hd
  have hub := upperBound_offsets x.nLclAllProcs x.mpiSize r _ (by rw [hsz]; exact hr) hq
  rw [sum_nLcl hP hm] at hub
  have e : (((startOf x.lcl r * P.dim + (i - startOf x.lcl r) * P.dim : ℕ)) : ℤ) = (i : ℤ) * x.dim := by
    rw [← add_mul, Nat.add_sub_cancel' h1, hP.dim _ hm]; push_cast; rfl
  rw [e] at hub
  show Except.ok (((upperBound (prefixLoop (shiftLoop x.nLclAllProcs x.mpiSize) x.mpiSize) ((i : ℤ) * x.dim) : ℕ) : ℤ) - 1) = _
  rw [hub]
  congr 1
  push_cast
  ring

/-- the packed index of a degree of freedom is its position in the demanded order -/
theorem lag_position {P : BodyPack K} (hP : PackOK P) {u : LagDof} (hu : IsLagDof P u) :
    ∃ idx : ℕ, P.getPackedGlobalIndex u.body u.point u.comp = .ok (idx : ℤ) ∧ (lagDofs P)[idx]? = some u ∧
      idx = ((List.range u.rank).map fun r' => (P.bodies.map fun b' => sizeOf' b'.lcl r' * b'.dim).sum).sum +
        (((P.bodies.take u.body).map fun b' => sizeOf' b'.lcl u.rank * b'.dim).sum +
        ((u.point - startOf (lclOf P u.body) u.rank) * P.dim + u.comp)) := by
  obtain ⟨r, b, i, d⟩ := u
  obtain ⟨hd, hr, x, hx, hi, ho⟩ := hu
  simp only at *
  have hb := (List.getElem?_eq_some_iff.1 hx).1
  have hm := List.mem_of_getElem? hx
  have ho' := ownsPoint_iff.1 ho
  have hsz : x.mpiSize = P.mpiSize := hP.procs _ hm
  refine ⟨_, ?_, ?_, rfl⟩
  · unfold BodyPack.getPackedGlobalIndex
    rw [findProc_eq hP hx hr hi ho]
    have hg : P.getGlobalIndex b i d = .ok ((i : ℤ) * x.dim + d) := by
      unfold BodyPack.getGlobalIndex
      rw [if_neg (by omega), Int.toNat_natCast, hx]
      simp only
      unfold SingleBody.getGlobalIndex
      have := hP.dim _ hm
      rw [if_neg (by omega), if_neg (by omega)]
    rw [hg]
    have o1 : P.offsetsAllProcs[r]? = some ((List.range r).map P.nLclAllProcs).sum := offsets_getElem? _ _ _ hr
    have o2 : x.offsetsAllProcs[r]? = some ((List.range r).map x.nLclAllProcs).sum :=
      offsets_getElem? _ _ _ (by rw [hsz]; exact hr)
    simp only [bind, Except.bind, Int.toNat_natCast, o1, o2, hx, foldl_nLcl_int, pure, Except.pure]
    rw [if_neg (by omega)]
    congr 1
    rw [sum_nLcl hP hm, lclOf_some hx, hP.dim _ hm]
    have e1 : (List.range r).map P.nLclAllProcs =
        (List.range r).map fun r' => (P.bodies.map fun b' => sizeOf' b'.lcl r' * b'.dim).sum := by
      apply List.map_congr_left
      intro s _
      unfold BodyPack.nLclAllProcs
      rw [foldl_nLcl, zero_add]
      rfl
    rw [e1]
    have e2 : ((P.bodies.take b).map fun b' => b'.nLclAllProcs r) =
        (P.bodies.take b).map fun b' => sizeOf' b'.lcl r * b'.dim := rfl
    rw [e2]
    obtain ⟨k, hk⟩ : ∃ k, i = startOf x.lcl r + k := ⟨i - startOf x.lcl r, by omega⟩
    rw [hk, Nat.add_sub_cancel_left]
    push_cast
    ring
  · have h0 := localDofs_getElem? P hd (by rw [lclOf_some hx]; exact ho')
    have h1 := getElem?_flatMap_range (fun b => localDofs P r b) P.bodies.length hb h0
    have h2 := getElem?_flatMap_range
      (fun r => (List.range P.bodies.length).flatMap fun b => localDofs P r b) P.mpiSize hr h1
    have g : ∀ r' b' y, P.bodies[b']? = some y → (localDofs P r' b').length = sizeOf' y.lcl r' * y.dim := by
      intro r' b' y hy
      rw [length_localDofs, lclOf_some hy, hP.dim _ (List.mem_of_getElem? hy)]
    have e1 : ∀ r', ((List.range P.bodies.length).map fun b' => (localDofs P r' b').length) =
        P.bodies.map fun b' => sizeOf' b'.lcl r' * b'.dim := by
      intro r'
      have := map_take_range P.bodies P.bodies.length le_rfl (fun b' => sizeOf' b'.lcl r' * b'.dim) _ (g r')
      rwa [List.take_length] at this
    have e2 := map_take_range P.bodies b hb.le (fun b' => sizeOf' b'.lcl r * b'.dim) _ (g r)
    simp only [List.length_flatMap, e1, e2] at h2
    exact h2

end PetIBM
