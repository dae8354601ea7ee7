import Verif.Model.Index
import Verif.Spec.Index
import Verif.Lemmas.ListSum
import Mathlib.Tactic.Ring
import Mathlib.Tactic.IntervalCases
import Mathlib.Algebra.Order.Ring.Nat
import Mathlib.Algebra.BigOperators.Group.List.Basic

namespace PetIBM

open Layout

/-! ### Offset loops -/

theorem length_foldl_set {β : Type*} (rs : List ℕ) (g : List β → ℕ → β) (l : List β) :
    (rs.foldl (fun off r => off.set r (g off r)) l).length = l.length := by
  induction rs generalizing l with
  | nil => rfl
  | cons a t ih => simp [ih]

theorem shiftLoop_length (cnt : ℕ → ℕ) (size : ℕ) : (shiftLoop cnt size).length = size := by
  unfold shiftLoop
  rw [length_foldl_set (g := fun _ r => cnt (r-1))]; simp

theorem foldl_set_getElem? (cnt : ℕ → ℕ) (rs : List ℕ) (l : List ℕ) (m : ℕ) (hm : m < l.length) :
    (rs.foldl (fun off r => off.set r (cnt (r-1))) l)[m]? =
      if m ∈ rs then some (cnt (m-1)) else l[m]? := by
  induction rs generalizing l with
  | nil => simp
  | cons a t ih =>
    rw [List.foldl_cons, ih _ (by simpa using hm)]
    by_cases h1 : m ∈ t
    · simp [h1]
    · by_cases h2 : m = a
      · subst h2; simp [h1, hm]
      · simp [h1, h2, Ne.symm h2]

theorem shiftLoop_getElem? (cnt : ℕ → ℕ) (size m : ℕ) (hm : m < size) :
    (shiftLoop cnt size)[m]? = some (if m = 0 then 0 else cnt (m-1)) := by
  unfold shiftLoop
  rw [foldl_set_getElem? _ _ _ _ (by simpa using hm)]
  simp only [List.mem_reverse, List.mem_range'_1]
  by_cases h0 : m = 0
  · subst h0; simp [hm]
  · have : 1 ≤ m ∧ m < 1 + (size - 1) := by omega
    simp [this, h0]

theorem prefixLoop_aux (off0 : List ℕ) (n : ℕ) (hn : n < off0.length) :
    let off := (List.range' 1 n).foldl
      (fun off r => off.set r (off.getD r 0 + off.getD (r - 1) 0)) off0
    off.length = off0.length ∧ (∀ m, m ≤ n → off[m]? = some ((off0.take (m+1)).sum)) ∧
      (∀ m, n < m → off[m]? = off0[m]?) := by
  induction n with
  | zero =>
    refine ⟨rfl, ?_, fun m _ => rfl⟩
    intro m hm
    have : m = 0 := by omega
    subst this
    cases off0 with
    | nil => simp at hn
    | cons a t => simp
  | succ n ih =>
    obtain ⟨h1, h2, h3⟩ := ih (by omega)
    rw [List.range'_concat, List.foldl_append]
    simp only [List.foldl_cons, List.foldl_nil, Nat.one_mul]
    set off := (List.range' 1 n).foldl
      (fun off r => off.set r (off.getD r 0 + off.getD (r - 1) 0)) off0 with hoff
    refine ⟨by simp [h1], ?_, ?_⟩
    · intro m hm
      by_cases hmn : m ≤ n
      · rw [List.getElem?_set_ne (by omega), h2 m hmn]
      · have hm' : m = 1 + n := by omega
        subst hm'
        rw [List.getElem?_set_self (by omega)]
        have e1 : off.getD (1+n) 0 = off0.getD (1+n) 0 := by
          simp only [List.getD_eq_getElem?_getD, h3 (1+n) (by omega)]
        have e2 : off.getD (1+n-1) 0 = (off0.take (n+1)).sum := by
          rw [List.getD_eq_getElem?_getD, show 1+n-1 = n by omega, h2 n le_rfl]; rfl
        rw [e1, e2, sum_take_succ off0 (1+n), Nat.add_comm 1 n]
        simp [Nat.add_comm]
    · intro m hm
      rw [List.getElem?_set_ne (by omega), h3 m (by omega)]

theorem prefixLoop_length (off0 : List ℕ) (size : ℕ) :
    (prefixLoop off0 size).length = off0.length :=
  length_foldl_set _ (fun off r => off.getD r 0 + off.getD (r - 1) 0) _

theorem sum_take_shiftLoop (cnt : ℕ → ℕ) (size m : ℕ) (hm : m < size) :
    ((shiftLoop cnt size).take (m+1)).sum = ((List.range m).map cnt).sum := by
  induction m with
  | zero => rw [sum_take_succ, List.getD_eq_getElem?_getD, shiftLoop_getElem? _ _ _ hm]; simp
  | succ m ih =>
    rw [sum_take_succ, ih (by omega), List.getD_eq_getElem?_getD, shiftLoop_getElem? _ _ _ hm,
      List.range_succ]
    simp

theorem offsets_getElem? (cnt : ℕ → ℕ) (size m : ℕ) (hm : m < size) :
    (prefixLoop (shiftLoop cnt size) size)[m]? = some ((List.range m).map cnt).sum := by
  have h := (prefixLoop_aux (shiftLoop cnt size) (size - 1) (by rw [shiftLoop_length]; omega)).2.1 m
    (by omega)
  unfold prefixLoop
  rw [h, sum_take_shiftLoop _ _ _ hm]

/-! ### `upper_bound` on offsets -/

theorem takeWhile_length_eq {α : Type*} (P : α → Bool) (v : List α) (p : ℕ) (hp : p < v.length)
    (h1 : ∀ m (hm : m ≤ p), P (v[m]'(by omega)) = true)
    (h2 : ∀ (h : p + 1 < v.length), P v[p+1] = false) :
    (v.takeWhile P).length = p + 1 := by
  induction v generalizing p with
  | nil => simp at hp
  | cons a t ih =>
    have ha : P a = true := h1 0 (by omega)
    rw [List.takeWhile_cons_of_pos ha, List.length_cons]
    cases p with
    | zero =>
      cases t with
      | nil => simp
      | cons b s =>
        have := h2 (by simp)
        simp only [List.getElem_cons_succ, List.getElem_cons_zero] at this
        rw [List.takeWhile_cons_of_neg (by simp [this])]; rfl
    | succ p =>
      rw [ih p (by simpa using hp)]
      · intro m hm; simpa using h1 (m+1) (by omega)
      · intro h; exact h2 (by simpa using h)

theorem map_range_sum_mono (cnt : ℕ → ℕ) {p q : ℕ} (h : p ≤ q) :
    ((List.range p).map cnt).sum ≤ ((List.range q).map cnt).sum := by
  induction q, h using Nat.le_induction with
  | base => rfl
  | succ n _ ih => rw [List.range_succ]; simp; omega

theorem upperBound_offsets (cnt : ℕ → ℕ) (size p q : ℕ) (hp : p < size) (hq : q < cnt p) :
    upperBound (prefixLoop (shiftLoop cnt size) size) ((((List.range p).map cnt).sum + q : ℕ) : ℤ)
      = p + 1 := by
  have hl : (prefixLoop (shiftLoop cnt size) size).length = size := by
    rw [prefixLoop_length, shiftLoop_length]
  unfold upperBound
  have key : ∀ m (hm : m < size), (prefixLoop (shiftLoop cnt size) size)[m]'(by omega) =
      ((List.range m).map cnt).sum := by
    intro m hm
    have := offsets_getElem? cnt size m hm
    rw [List.getElem?_eq_some_iff] at this
    exact this.2
  apply takeWhile_length_eq
  · intro m hm
    rw [key m (by omega)]
    have := map_range_sum_mono cnt hm
    simp only [decide_eq_true_eq]; exact_mod_cast (by omega)
  · intro h
    rw [key (p+1) (by omega)]
    rw [List.range_succ]; simp; omega
  · omega

/-! ### Process grid -/

theorem mem_ownRange {l : List ℕ} {p i : ℕ} :
    i ∈ ownRange l p ↔ (l.take p).sum ≤ i ∧ i < (l.take (p+1)).sum := by
  unfold ownRange startOf sizeOf'
  rw [List.mem_range'_1, sum_take_succ]

theorem mem_box {L : Layout} {f r i j k : ℕ} : (i, j, k) ∈ L.box f r ↔ Spec.Owns L f r i j k := by
  simp only [box, procCoord, List.mem_flatMap, List.mem_map, Prod.mk.injEq, Spec.Owns, mem_ownRange]
  constructor
  · rintro ⟨k', hk, j', hj, i', hi, rfl, rfl, rfl⟩; exact ⟨hi, hj, hk⟩
  · rintro ⟨hi, hj, hk⟩; exact ⟨k, hk, j, hj, i, hi, rfl, rfl, rfl⟩

theorem length_box (L : Layout) (f r : ℕ) (hf : f < L.dim) :
    (L.box f r).length = L.UNLocalAllProcs f r := by
  simp only [box, procCoord, List.length_flatMap, List.length_map, ownRange, List.length_range',
    UNLocalAllProcs, hf, if_true, List.map_const', List.sum_replicate, nsmul_eq_mul, Nat.cast_id]
  ring

theorem nodup_box (L : Layout) (f r : ℕ) : (L.box f r).Nodup := by
  simp only [box, procCoord]
  rw [List.nodup_flatMap]
  refine ⟨fun k _ => ?_, ?_⟩
  · rw [List.nodup_flatMap]
    refine ⟨fun j _ => ?_, ?_⟩
    · exact (List.nodup_range' (h := by simp)).map (fun a b h => by simpa using h)
    · refine (List.nodup_range' (s := _) (step := 1) (h := by simp)).imp_of_mem ?_
      intro a b _ _ hab x hx hy
      simp only [List.mem_map] at hx hy
      obtain ⟨_, _, rfl⟩ := hx
      obtain ⟨_, _, h⟩ := hy
      simp only [Prod.mk.injEq] at h
      exact hab h.2.1.symm
  · refine (List.nodup_range' (s := _) (step := 1) (h := by simp)).imp_of_mem ?_
    intro a b _ _ hab x hx hy
    simp only [List.mem_map, List.mem_flatMap] at hx hy
    obtain ⟨_, _, _, _, rfl⟩ := hx
    obtain ⟨_, _, _, _, h⟩ := hy
    simp only [Prod.mk.injEq] at h
    exact hab h.2.2.symm

theorem exists_owner {L : Layout} (hL : Spec.LayoutOK L) {f : ℕ} (hf : f < L.dim ∨ f = 3)
    {i j k : ℕ} (hi : i < L.n f 0) (hj : j < L.n f 1) (hk : k < L.n f 2) :
    ∃ r, r < L.mpiSize ∧ Spec.Owns L f r i j k := by
  obtain ⟨px, h1, h2, h3⟩ := exists_block (L.own f 0) (i := i) (by rw [hL.lines f 0 hf (by omega)]; exact hi)
  obtain ⟨py, g1, g2, g3⟩ := exists_block (L.own f 1) (i := j) (by rw [hL.lines f 1 hf (by omega)]; exact hj)
  obtain ⟨pz, e1, e2, e3⟩ := exists_block (L.own f 2) (i := k) (by rw [hL.lines f 2 hf (by omega)]; exact hk)
  rw [hL.cols f 0 hf (by omega)] at h1
  rw [hL.cols f 1 hf (by omega)] at g1
  rw [hL.cols f 2 hf (by omega)] at e1
  have a0 := hL.procs 0 (by omega)
  have a1 := hL.procs 1 (by omega)
  have r0 : (px + L.nProc 0 * (py + L.nProc 1 * pz)) % L.nProc 0 = px := by
    rw [Nat.add_mul_mod_self_left, Nat.mod_eq_of_lt h1]
  have d0 : (px + L.nProc 0 * (py + L.nProc 1 * pz)) / L.nProc 0 = py + L.nProc 1 * pz := by
    rw [Nat.add_mul_div_left _ _ a0, Nat.div_eq_of_lt h1, Nat.zero_add]
  have r1 : (py + L.nProc 1 * pz) % L.nProc 1 = py := by
    rw [Nat.add_mul_mod_self_left, Nat.mod_eq_of_lt g1]
  have d1 : (py + L.nProc 1 * pz) / L.nProc 1 = pz := by
    rw [Nat.add_mul_div_left _ _ a1, Nat.div_eq_of_lt g1, Nat.zero_add]
  refine ⟨px + L.nProc 0 * (py + L.nProc 1 * pz), ?_, ?_⟩
  · unfold mpiSize
    have h5 : py + L.nProc 1 * pz < L.nProc 1 * L.nProc 2 := by
      calc py + L.nProc 1 * pz < L.nProc 1 + L.nProc 1 * pz := by omega
        _ = L.nProc 1 * (pz + 1) := by ring
        _ ≤ L.nProc 1 * L.nProc 2 := Nat.mul_le_mul_left _ e1
    calc px + L.nProc 0 * (py + L.nProc 1 * pz) < L.nProc 0 + L.nProc 0 * (py + L.nProc 1 * pz) := by omega
      _ = L.nProc 0 * (py + L.nProc 1 * pz + 1) := by ring
      _ ≤ L.nProc 0 * (L.nProc 1 * L.nProc 2) := Nat.mul_le_mul_left _ h5
      _ = _ := by ring
  · unfold Spec.Owns
    simp only [r0, ← Nat.div_div_eq_div_mul, d0, r1, d1]
    exact ⟨⟨h2, h3⟩, ⟨g2, g3⟩, ⟨e2, e3⟩⟩

theorem owner_unique {L : Layout} {f r r' i j k : ℕ}
    (h : Spec.Owns L f r i j k) (h' : Spec.Owns L f r' i j k) : r = r' := by
  unfold Spec.Owns at h h'
  have e0 := block_unique _ h.1.1 h.1.2 h'.1.1 h'.1.2
  have e1 := block_unique _ h.2.1.1 h.2.1.2 h'.2.1.1 h'.2.1.2
  have e2 := block_unique _ h.2.2.1 h.2.2.2 h'.2.2.1 h'.2.2.2
  rw [← Nat.div_div_eq_div_mul, ← Nat.div_div_eq_div_mul] at e2
  have q : r / L.nProc 0 = r' / L.nProc 0 := by
    rw [← Nat.div_add_mod (r / L.nProc 0) (L.nProc 1), ← Nat.div_add_mod (r' / L.nProc 0) (L.nProc 1), e1, e2]
  rw [← Nat.div_add_mod r (L.nProc 0), ← Nat.div_add_mod r' (L.nProc 0), e0, q]

theorem owns_inGrid {L : Layout} (hL : Spec.LayoutOK L) {f : ℕ} (hf : f < L.dim ∨ f = 3) {r i j k : ℕ}
    (h : Spec.Owns L f r i j k) : i < L.n f 0 ∧ j < L.n f 1 ∧ k < L.n f 2 := by
  unfold Spec.Owns at h
  have h0 := sum_take_le (L.own f 0) (r % L.nProc 0 + 1)
  have h1 := sum_take_le (L.own f 1) (r / L.nProc 0 % L.nProc 1 + 1)
  have h2 := sum_take_le (L.own f 2) (r / (L.nProc 0 * L.nProc 1) + 1)
  rw [hL.lines f 0 hf (by omega)] at h0
  rw [hL.lines f 1 hf (by omega)] at h1
  rw [hL.lines f 2 hf (by omega)] at h2
  omega

/-! ### natural index arithmetic -/

theorem natural_inj {n0 n1 i j k i' j' k' : ℕ} (hi : i < n0) (hi' : i' < n0) (hj : j < n1) (hj' : j' < n1)
    (h : i + n0 * (j + n1 * k) = i' + n0 * (j' + n1 * k')) : i = i' ∧ j = j' ∧ k = k' := by
  have h0 : 0 < n0 := by omega
  have h1 : 0 < n1 := by omega
  have e : i = i' := by
    have := congrArg (· % n0) h
    simpa [Nat.add_mul_mod_self_left, Nat.mod_eq_of_lt hi, Nat.mod_eq_of_lt hi'] using this
  subst e
  have e2 : j + n1 * k = j' + n1 * k' := Nat.eq_of_mul_eq_mul_left h0 (by omega)
  have e3 : j = j' := by
    have := congrArg (· % n1) e2
    simpa [Nat.add_mul_mod_self_left, Nat.mod_eq_of_lt hj, Nat.mod_eq_of_lt hj'] using this
  subst e3
  exact ⟨rfl, rfl, Nat.eq_of_mul_eq_mul_left h1 (by omega)⟩

theorem natural_lt {n0 n1 n2 i j k : ℕ} (hi : i < n0) (hj : j < n1) (hk : k < n2) :
    i + n0 * (j + n1 * k) < n0 * n1 * n2 := by
  have h5 : j + n1 * k < n1 * n2 := by
    calc j + n1 * k < n1 + n1 * k := by omega
      _ = n1 * (k + 1) := by ring
      _ ≤ n1 * n2 := Nat.mul_le_mul_left _ hk
  calc i + n0 * (j + n1 * k) < n0 + n0 * (j + n1 * k) := by omega
    _ = n0 * (j + n1 * k + 1) := by ring
    _ ≤ n0 * (n1 * n2) := Nat.mul_le_mul_left _ h5
    _ = _ := by ring

/-- natural index of a grid point, as a natural number -/
def nat3 (n0 n1 : ℕ) (p : ℕ × ℕ × ℕ) : ℕ := p.1 + n0 * (p.2.1 + n1 * p.2.2)

theorem aoList_eq (L : Layout) (f : ℕ) : L.aoList f =
    (List.range L.mpiSize).flatMap fun r => (L.box f r).map fun p => ((nat3 (L.n f 0) (L.n f 1) p : ℕ) : ℤ) := by
  unfold aoList
  congr 1
  funext r
  apply List.map_congr_left
  rintro ⟨i, j, k⟩ _
  simp only [nat3]; push_cast; ring

theorem nodup_aoList {L : Layout} (hL : Spec.LayoutOK L) {f : ℕ} (hf : f < L.dim ∨ f = 3) :
    (L.aoList f).Nodup := by
  rw [aoList_eq, List.nodup_flatMap]
  have inj : ∀ r r' (p q : ℕ × ℕ × ℕ), p ∈ L.box f r → q ∈ L.box f r' →
      nat3 (L.n f 0) (L.n f 1) p = nat3 (L.n f 0) (L.n f 1) q → p = q := by
    rintro r r' ⟨i, j, k⟩ ⟨i', j', k'⟩ hp hq h
    have a := owns_inGrid hL hf (mem_box.1 hp)
    have b := owns_inGrid hL hf (mem_box.1 hq)
    obtain ⟨rfl, rfl, rfl⟩ := natural_inj a.1 b.1 a.2.1 b.2.1 h
    rfl
  refine ⟨fun r _ => ?_, ?_⟩
  · refine (nodup_box L f r).map_on ?_
    intro x hx y hy h
    exact inj r r x y hx hy (by exact_mod_cast h)
  · refine (List.nodup_range (n := L.mpiSize)).imp_of_mem ?_
    intro r r' _ _ hne x hx hy
    simp only [List.mem_map] at hx hy
    obtain ⟨p, hp, rfl⟩ := hx
    obtain ⟨q, hq, h⟩ := hy
    have e := inj r' r q p hq hp (by exact_mod_cast h)
    subst e
    obtain ⟨i, j, k⟩ := q
    exact hne (owner_unique (mem_box.1 hp) (mem_box.1 hq))

theorem mem_aoList {L : Layout} (hL : Spec.LayoutOK L) {f : ℕ} (hf : f < L.dim ∨ f = 3) {x : ℤ} :
    x ∈ L.aoList f ↔ ∃ i j k : ℕ, i < L.n f 0 ∧ j < L.n f 1 ∧ k < L.n f 2 ∧
      x = ((nat3 (L.n f 0) (L.n f 1) (i,j,k) : ℕ) : ℤ) := by
  rw [aoList_eq]
  simp only [List.mem_flatMap, List.mem_map, List.mem_range]
  constructor
  · rintro ⟨r, _, ⟨i, j, k⟩, hp, rfl⟩
    have := owns_inGrid hL hf (mem_box.1 hp)
    exact ⟨i, j, k, this.1, this.2.1, this.2.2, rfl⟩
  · rintro ⟨i, j, k, hi, hj, hk, rfl⟩
    obtain ⟨r, hr, ho⟩ := exists_owner hL hf hi hj hk
    exact ⟨r, hr, (i,j,k), mem_box.2 ho, rfl⟩

/-- global index of a point owned by rank `r` at local position `q` -/
theorem ao_of_owner {L : Layout} (hL : Spec.LayoutOK L) {f : ℕ} (hf : f < L.dim ∨ f = 3) {r q : ℕ}
    {p : ℕ × ℕ × ℕ} (hr : r < L.mpiSize) (hq : (L.box f r)[q]? = some p) :
    L.aoApplicationToPetsc f ((nat3 (L.n f 0) (L.n f 1) p : ℕ) : ℤ) =
      ((((List.range r).map fun s => (L.box f s).length).sum + q : ℕ) : ℤ) := by
  have h1 := getElem?_flatMap_range
    (fun r => (L.box f r).map fun p => ((nat3 (L.n f 0) (L.n f 1) p : ℕ) : ℤ)) L.mpiSize hr
    (q := q) (a := ((nat3 (L.n f 0) (L.n f 1) p : ℕ) : ℤ)) (by rw [List.getElem?_map, hq]; rfl)
  rw [← aoList_eq] at h1
  simp only [List.length_map] at h1
  have hm : ((nat3 (L.n f 0) (L.n f 1) p : ℕ) : ℤ) ∈ L.aoList f := List.mem_of_getElem? h1
  unfold aoApplicationToPetsc
  rw [if_pos hm]
  obtain ⟨h2, h3⟩ := List.getElem?_eq_some_iff.1 h1
  have := (nodup_aoList hL hf).idxOf_getElem _ h2
  rw [h3] at this
  exact_mod_cast this

end PetIBM
