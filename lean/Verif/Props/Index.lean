/-
Properties C01 - C06: natural, global and packed numbering of grid points.
-/
import Verif.Lemmas.Packed
import Mathlib.Tactic.Linarith
import Mathlib.Tactic.NormNum

namespace PetIBM

open Layout Spec

/-! ### C01 -/

/-- C01. The natural indices of the points of a grid are exactly the integers of `[0, nx*ny*nz)`, each
attained by exactly one point; no query fails. -/
theorem C01_natural_index_bijective (debug : Bool) (M : MeshInfo) (f : ℕ) (hM : GridOK M f) :
    (∀ i j k : ℤ, InGrid M f i j k → ∃ idx : ℤ, getNaturalIndex debug M f i j k = .ok idx ∧
      0 ≤ idx ∧ idx < M.n f 0 * M.n f 1 * M.n f 2) ∧
    (∀ idx : ℤ, 0 ≤ idx → idx < M.n f 0 * M.n f 1 * M.n f 2 →
      ∃! p : ℤ × ℤ × ℤ, InGrid M f p.1 p.2.1 p.2.2 ∧
        getNaturalIndex debug M f p.1 p.2.1 p.2.2 = .ok idx) := by
  have key : ∀ i j k : ℤ, InGrid M f i j k → ∃ a b c : ℕ, i = a ∧ j = b ∧ k = c ∧ a < M.n f 0 ∧
      b < M.n f 1 ∧ c < M.n f 2 := by
    intro i j k h
    obtain ⟨⟨h1, h2⟩, ⟨h3, h4⟩, ⟨h5, h6⟩⟩ := h
    exact ⟨i.toNat, j.toNat, k.toNat, by omega, by omega, by omega, by omega, by omega, by omega⟩
  constructor
  · intro i j k h
    obtain ⟨a, b, c, rfl, rfl, rfl, ha, hb, hc⟩ := key i j k h
    refine ⟨_, getNaturalIndex_inGrid debug M f hM ha hb hc, by positivity, ?_⟩
    have := natural_lt ha hb hc
    simp only [nat3]
    exact_mod_cast this
  · intro idx h0 h1
    obtain ⟨x, rfl⟩ : ∃ x : ℕ, idx = x := ⟨idx.toNat, by omega⟩
    have hx : x < M.n f 0 * M.n f 1 * M.n f 2 := by exact_mod_cast h1
    have hp0 := hM.2.1
    have hp1 := hM.2.2.1
    have a0 := Nat.mod_lt x hp0
    have a1 := Nat.mod_lt (x / M.n f 0) hp1
    have a2 : x / M.n f 0 / M.n f 1 < M.n f 2 := by
      rw [Nat.div_div_eq_div_mul]; exact Nat.div_lt_of_lt_mul hx
    refine ⟨((x % M.n f 0 : ℕ), (x / M.n f 0 % M.n f 1 : ℕ), (x / M.n f 0 / M.n f 1 : ℕ)), ⟨?_, ?_⟩, ?_⟩
    · exact ⟨⟨Int.natCast_nonneg _, Int.ofNat_lt.2 a0⟩, ⟨Int.natCast_nonneg _, Int.ofNat_lt.2 a1⟩, Int.natCast_nonneg _,
        Int.ofNat_lt.2 a2⟩
    · show getNaturalIndex debug M f ((x % M.n f 0 : ℕ) : ℤ) _ _ = _
      rw [getNaturalIndex_inGrid debug M f hM a0 a1 a2]
      simp only [nat3]
      rw [Nat.mod_add_div, Nat.mod_add_div]
    · rintro ⟨i, j, k⟩ ⟨hg, he⟩
      obtain ⟨a, b, c, rfl, rfl, rfl, ha, hb, hc⟩ := key i j k hg
      simp only at he
      rw [getNaturalIndex_inGrid debug M f hM ha hb hc] at he
      have he' : nat3 (M.n f 0) (M.n f 1) (a, b, c) = x := by
        have := Except.ok.inj he; exact_mod_cast this
      have hx' : x = x % M.n f 0 + M.n f 0 * (x / M.n f 0 % M.n f 1 + M.n f 1 * (x / M.n f 0 / M.n f 1)) := by
        rw [Nat.mod_add_div, Nat.mod_add_div]
      obtain ⟨e1, e2, e3⟩ := natural_inj ha a0 hb a1 (he'.trans hx')
      rw [← e1, ← e2, ← e3]

/-- a 4 x 3 x 2 grid for `u`, periodic in x -/
def exampleMesh3 : MeshInfo where
  dim := 3
  n := fun _ d => if d = 0 then 4 else if d = 1 then 3 else 2
  periodic := fun _ d => d == 0

example : GridOK exampleMesh3 0 := by unfold GridOK exampleMesh3; simp
example : InGrid exampleMesh3 0 3 2 1 := by simp [InGrid, exampleMesh3]
example : getNaturalIndex true exampleMesh3 0 3 2 1 = .ok 23 := by decide

/-! ### C02 -/

/-- C02 on the domain where the code is right: at most one layer outside the grid, and no coordinate that is
checked after a periodic ghost coordinate is itself outside the grid. What is missing is the rest of the
corner ghosts, where the claim is false: see `C02_false_at_corner_x` and `C02_false_at_corner_yz`. -/
theorem C02_ghost_index_partial (debug : Bool) (M : MeshInfo) (f : ℕ) (hM : GridOK M f) (i j k : ℤ)
    (hh : InHalo M f i j k)
    (hx : M.periodic 0 0 = true → (i = -1 ∨ i = M.n f 0) → (0 ≤ j ∧ j < M.n f 1) ∧ (0 ≤ k ∧ k < M.n f 2))
    (hy : M.periodic 0 1 = true → (j = -1 ∨ j = M.n f 1) → (0 ≤ k ∧ k < M.n f 2)) :
    getNaturalIndex debug M f i j k = .ok (indexOrMinusOne M f i j k) := by
  obtain ⟨hd, h0, h1, h2⟩ := hM
  obtain ⟨⟨i0, i1⟩, ⟨j0, j1⟩, ⟨k0, k1⟩⟩ := hh
  have hnd : ¬ (debug = true ∧ (i < -1 ∨ i > M.n f 0 ∨ j < -1 ∨ j > M.n f 1 ∨ k < -1 ∨ k > M.n f 2)) := by
    omega
  have wrapm : ∀ n : ℕ, 0 < n → (-1 : ℤ) % n = n - 1 := by
    intro n hn
    rw [Int.emod_eq_iff (by omega)]
    refine ⟨by omega, by omega, ⟨1, by omega⟩⟩
  have imgIn : ∀ (b : Bool) (n : ℕ) (x : ℤ), 0 ≤ x → x < n → image b n x = some x := by
    intro b n x h h'; simp [image, h, h']
  have imgM : ∀ (b : Bool) (n : ℕ), 0 < n → image b n (-1) = if b then some ((n:ℤ) - 1) else none := by
    intro b n hn; simp only [image, wrapm n hn]; simp
  have imgP : ∀ (b : Bool) (n : ℕ), 0 < n → image b n n = if b then some 0 else none := by
    intro b n hn; simp [image]
  have kin : (0 ≤ k ∧ k < M.n f 2) →
      (if M.dim = 3 then k * (M.n f 1 : ℤ) * M.n f 0 else 0) = k * M.n f 1 * M.n f 0 := by
    intro hk
    rcases hd with h | ⟨h, h'⟩
    · simp [h]
    · obtain rfl : k = 0 := by rw [h'] at hk; omega
      simp
  have kghost : (if M.dim = 3 then ((M.n f 2 : ℤ) - 1) * (M.n f 1 : ℤ) * M.n f 0 else 0) =
      ((M.n f 2 : ℤ) - 1) * M.n f 1 * M.n f 0 := by
    rcases hd with h | ⟨h, h'⟩
    · simp [h]
    · simp [h']
  unfold getNaturalIndex indexOrMinusOne
  simp only [hnd, if_false]
  have cx : i = -1 ∨ i = M.n f 0 ∨ (0 ≤ i ∧ i < M.n f 0) := by omega
  have cy : j = -1 ∨ j = M.n f 1 ∨ (0 ≤ j ∧ j < M.n f 1) := by omega
  have cz : k = -1 ∨ k = M.n f 2 ∨ (0 ≤ k ∧ k < M.n f 2) := by omega
  rcases cx with rfl | rfl | ⟨ci, ci'⟩
  · rw [imgM _ _ h0, if_pos rfl]
    by_cases px : M.periodic 0 0 = true
    · obtain ⟨hj, hk⟩ := hx px (Or.inl rfl)
      rw [imgIn _ _ j hj.1 hj.2, imgIn _ _ k hk.1 hk.2, kin hk, if_pos px, if_pos px]
      simp only; congr 1; ring
    · rw [if_neg px, if_neg px]
  · rw [imgP _ _ h0, if_neg (by omega), if_pos rfl]
    by_cases px : M.periodic 0 0 = true
    · obtain ⟨hj, hk⟩ := hx px (Or.inr rfl)
      rw [imgIn _ _ j hj.1 hj.2, imgIn _ _ k hk.1 hk.2, kin hk, if_pos px, if_pos px]
      simp only; congr 1; ring
    · rw [if_neg px, if_neg px]
  rw [imgIn _ _ i ci ci', if_neg (by omega), if_neg (by omega)]
  rcases cy with rfl | rfl | ⟨cj, cj'⟩
  · rw [imgM _ _ h1, if_pos rfl]
    by_cases py : M.periodic 0 1 = true
    · have hk := hy py (Or.inl rfl)
      rw [imgIn _ _ k hk.1 hk.2, kin hk, if_pos py, if_pos py]
      simp only; congr 1; ring
    · rw [if_neg py, if_neg py]
  · rw [imgP _ _ h1, if_neg (by omega), if_pos rfl]
    by_cases py : M.periodic 0 1 = true
    · have hk := hy py (Or.inr rfl)
      rw [imgIn _ _ k hk.1 hk.2, kin hk, if_pos py, if_pos py]
      simp only; congr 1; ring
    · rw [if_neg py, if_neg py]
  rw [imgIn _ _ j cj cj', if_neg (by omega), if_neg (by omega)]
  rcases cz with rfl | rfl | hk
  · rw [imgM _ _ h2, if_pos rfl]
    by_cases pz : M.periodic 0 2 = true
    · rw [if_pos pz, if_pos pz, kghost]
      simp only; congr 1; ring
    · rw [if_neg pz, if_neg pz]
  · rw [imgP _ _ h2, if_neg (by omega), if_pos rfl]
    by_cases pz : M.periodic 0 2 = true
    · rw [if_pos pz, if_pos pz]
      simp only; congr 1; ring
    · rw [if_neg pz, if_neg pz]
  · rw [imgIn _ _ k hk.1 hk.2, if_neg (by omega), if_neg (by omega), kin hk]
    simp only; congr 1; ring

example : GridOK exampleMesh3 0 ∧ InHalo exampleMesh3 0 (-1) 2 1 ∧
    indexOrMinusOne exampleMesh3 0 (-1) 2 1 = 23 := by
  refine ⟨by simp [GridOK, exampleMesh3], by simp [InHalo, exampleMesh3], by decide⟩
example : indexOrMinusOne exampleMesh3 0 2 (-1) 1 = -1 := by decide

/-- C02 is false: with x periodic and y not, the corner ghost `(-1, ny, 0)` must have no index, but the query
returns the index of a point in the next z-layer. -/
theorem C02_false_at_corner_x : ∃ (M : MeshInfo) (f : ℕ) (i j k : ℤ), GridOK M f ∧ InHalo M f i j k ∧
    ∀ debug, getNaturalIndex debug M f i j k ≠ .ok (indexOrMinusOne M f i j k) :=
  ⟨exampleMesh3, 0, -1, 3, 0, by simp [GridOK, exampleMesh3], by simp [InHalo, exampleMesh3], by
    intro d; cases d <;> decide⟩

/-- C02 is false even if all directions are periodic: the corner is not wrapped in the second direction. -/
theorem C02_false_at_corner_yz : ∃ (M : MeshInfo) (f : ℕ) (i j k : ℤ), GridOK M f ∧ InHalo M f i j k ∧
    M.periodic 0 0 = true ∧ M.periodic 0 1 = true ∧ M.periodic 0 2 = true ∧ (0 ≤ i ∧ i < M.n f 0) ∧
    ∀ debug, getNaturalIndex debug M f i j k ≠ .ok (indexOrMinusOne M f i j k) :=
  ⟨{ exampleMesh3 with periodic := fun _ _ => true }, 0, 1, -1, 2, by simp [GridOK, exampleMesh3],
    by simp [InHalo, exampleMesh3], rfl, rfl, rfl, by simp [exampleMesh3], by intro d; cases d <;> decide⟩

/-! ### C03 -/

/-- C03. A debug build rejects exactly the stencils more than one layer outside; a release build never fails. -/
theorem C03_range_check (M : MeshInfo) (f : ℕ) (i j k : ℤ) :
    ((∃ e, getNaturalIndex true M f i j k = .error e) ↔ ¬ InHalo M f i j k) ∧
    (InHalo M f i j k → ∃ idx, getNaturalIndex true M f i j k = .ok idx) ∧
    (∃ idx, getNaturalIndex false M f i j k = .ok idx) := by
  have hrel : ∀ d, (d = true → InHalo M f i j k) → ∃ idx, getNaturalIndex d M f i j k = .ok idx := by
    intro d hd
    unfold getNaturalIndex
    simp only
    rw [if_neg (by
      rintro ⟨h, h'⟩
      obtain ⟨⟨i0, i1⟩, ⟨j0, j1⟩, ⟨k0, k1⟩⟩ := hd h
      omega)]
    split_ifs <;> exact ⟨_, rfl⟩
  refine ⟨⟨?_, ?_⟩, fun h => hrel true (fun _ => h), hrel false (by simp)⟩
  · rintro ⟨e, he⟩ hin
    obtain ⟨x, hx⟩ := hrel true (fun _ => hin)
    rw [hx] at he; cases he
  · intro h
    refine ⟨.argWrong, ?_⟩
    unfold getNaturalIndex
    simp only
    rw [if_pos]
    refine ⟨trivial, ?_⟩
    by_contra hc
    apply h
    unfold InHalo
    omega

/-- C03. Every rejected stencil gives `PETSC_ERR_ARG_WRONG`. -/
theorem C03_error_code (d : Bool) (M : MeshInfo) (f : ℕ) (i j k : ℤ) (e : Error)
    (h : getNaturalIndex d M f i j k = .error e) : e = .argWrong ∧ d = true ∧ ¬ InHalo M f i j k := by
  unfold getNaturalIndex at h
  simp only at h
  split_ifs at h with h1
  cases h
  refine ⟨rfl, h1.1, ?_⟩
  unfold InHalo; omega

example : ¬ InHalo exampleMesh3 0 0 5 0 := by simp [InHalo, exampleMesh3]

/-! ### C04 -/

/-- C04. For every consistent layout: every velocity unknown has a packed index in `[0, UN)`, every number in
that range is the packed index of exactly one unknown, and packed indices increase in the order rank,
component, k, j, i. (Hence each rank owns one contiguous block, ordered by rank, split by component.) -/
theorem C04_packed_index_bijective (debug : Bool) (L : Layout) (hL : LayoutOK L) (c : ℕ) :
    (∀ u, IsUnknown L u → ∃ idx : ℤ, L.getPackedGlobalIndex debug u.comp ⟨u.k, u.j, u.i, c⟩ = .ok idx ∧
      0 ≤ idx ∧ idx < L.UN) ∧
    (∀ idx : ℤ, 0 ≤ idx → idx < L.UN → ∃! u, IsUnknown L u ∧
      L.getPackedGlobalIndex debug u.comp ⟨u.k, u.j, u.i, c⟩ = .ok idx) ∧
    (∀ u v a b, IsUnknown L u → IsUnknown L v → L.getPackedGlobalIndex debug u.comp ⟨u.k, u.j, u.i, c⟩ = .ok a →
      L.getPackedGlobalIndex debug v.comp ⟨v.k, v.j, v.i, c⟩ = .ok b → (a < b ↔ Before u v)) := by
  refine ⟨?_, ?_, ?_⟩
  · intro u hu
    obtain ⟨x, hx, hx'⟩ := packed_position debug hL hu c
    refine ⟨x, hx, by omega, ?_⟩
    have := (List.getElem?_eq_some_iff.1 hx').1
    rw [length_unknowns hL] at this
    exact_mod_cast this
  · intro idx h0 h1
    obtain ⟨x, rfl⟩ : ∃ x : ℕ, idx = x := ⟨idx.toNat, by omega⟩
    have hx : x < (unknowns L).length := by rw [length_unknowns hL]; exact_mod_cast h1
    have hm : (unknowns L)[x] ∈ unknowns L := List.getElem_mem hx
    have hu := (mem_unknowns hL).1 hm
    refine ⟨(unknowns L)[x], ⟨hu, ?_⟩, ?_⟩
    · obtain ⟨y, hy, hy'⟩ := packed_position debug hL hu c
      obtain ⟨hl, he⟩ := List.getElem?_eq_some_iff.1 hy'
      have : y = x := (nodup_unknowns L).getElem_inj_iff.1 he
      rw [hy, this]
    · rintro v ⟨hv, hv'⟩
      obtain ⟨y, hy, hy'⟩ := packed_position debug hL hv c
      rw [hy] at hv'
      have : y = x := by have := Except.ok.inj hv'; exact_mod_cast this
      subst this
      exact ((List.getElem?_eq_some_iff.1 hy').2).symm
  · intro u v a b hu hv ha hb
    obtain ⟨x, hx, hx'⟩ := packed_position debug hL hu c
    obtain ⟨y, hy, hy'⟩ := packed_position debug hL hv c
    rw [hx] at ha
    rw [hy] at hb
    have ea := (Except.ok.inj ha).symm
    have eb := (Except.ok.inj hb).symm
    subst ea eb
    obtain ⟨lx, ex⟩ := List.getElem?_eq_some_iff.1 hx'
    obtain ⟨ly, ey⟩ := List.getElem?_eq_some_iff.1 hy'
    have pw := List.pairwise_iff_getElem.1 (pairwise_unknowns L)
    constructor
    · intro h
      have := pw x y lx ly (by exact_mod_cast h)
      rwa [ex, ey] at this
    · intro h
      rcases Nat.lt_trichotomy x y with h' | h' | h'
      · exact_mod_cast h'
      · subst h'
        rw [ex] at ey; subst ey
        exact absurd h (before_irrefl _)
      · have h2 := pw y x ly lx h'
        rw [ex, ey] at h2
        exfalso
        unfold Before at h h2
        omega

/-- C04. Every grid point of every component is an unknown of exactly one rank. -/
theorem C04_unique_owner (L : Layout) (hL : LayoutOK L) (f i j k : ℕ) (hf : f < L.dim) (hi : i < L.n f 0)
    (hj : j < L.n f 1) (hk : k < L.n f 2) : ∃! r, IsUnknown L ⟨r, f, i, j, k⟩ := by
  obtain ⟨r, hr, ho⟩ := exists_owner hL (Or.inl hf) hi hj hk
  refine ⟨r, ⟨hf, hi, hj, hk, hr, ho⟩, ?_⟩
  rintro r' ⟨_, _, _, _, _, ho'⟩
  exact owner_unique ho' ho

/-- C04 (pressure). The global pressure index is a bijection between grid points and `[0, pN)`, ordered by rank,
then k, j, i. -/
theorem C04_pressure_index_bijective (debug : Bool) (L : Layout) (hL : LayoutOK L) (c : ℕ) :
    (∀ i j k : ℕ, i < L.n 3 0 → j < L.n 3 1 → k < L.n 3 2 → ∃ idx : ℤ,
      L.getPackedGlobalIndex debug 3 ⟨k, j, i, c⟩ = .ok idx ∧ L.getGlobalIndex debug 3 ⟨k, j, i, c⟩ = .ok idx ∧
      0 ≤ idx ∧ idx < L.pN) ∧
    (∀ idx : ℤ, 0 ≤ idx → idx < L.pN → ∃! p : ℕ × ℕ × ℕ, (p.1 < L.n 3 0 ∧ p.2.1 < L.n 3 1 ∧ p.2.2 < L.n 3 2) ∧
      L.getPackedGlobalIndex debug 3 ⟨p.2.2, p.2.1, p.1, c⟩ = .ok idx) := by
  have hpk : ∀ s, L.getPackedGlobalIndex debug 3 s = L.getGlobalIndex debug 3 s := by
    intro s
    unfold getPackedGlobalIndex
    rcases L.getGlobalIndex debug 3 s with e | v <;> rfl
  have glob : ∀ i j k : ℕ, i < L.n 3 0 → j < L.n 3 1 → k < L.n 3 2 →
      ∃ x : ℕ, L.getGlobalIndex debug 3 ⟨k, j, i, c⟩ = .ok (x : ℤ) ∧
        (L.aoList 3)[x]? = some ((nat3 (L.n 3 0) (L.n 3 1) (i, j, k) : ℕ) : ℤ) := by
    intro i j k hi hj hk
    obtain ⟨r, hr, ho⟩ := exists_owner hL (Or.inr rfl) hi hj hk
    obtain ⟨q, hq⟩ := List.getElem?_of_mem (mem_box.2 ho)
    refine ⟨_, getGlobalIndex_owner debug hL (Or.inr rfl) hr hq, ?_⟩
    have h1 := getElem?_flatMap_range
      (fun r => (L.box 3 r).map fun p => ((nat3 (L.n 3 0) (L.n 3 1) p : ℕ) : ℤ)) L.mpiSize hr
      (q := q) (a := ((nat3 (L.n 3 0) (L.n 3 1) (i, j, k) : ℕ) : ℤ)) (by rw [List.getElem?_map, hq]; rfl)
    rw [← aoList_eq] at h1
    simpa only [List.length_map] using h1
  constructor
  · intro i j k hi hj hk
    obtain ⟨x, hx, hx'⟩ := glob i j k hi hj hk
    refine ⟨x, by rw [hpk, hx], hx, by omega, ?_⟩
    have := (List.getElem?_eq_some_iff.1 hx').1
    rw [length_aoList hL (Or.inr rfl)] at this
    unfold pN
    exact_mod_cast this
  · intro idx h0 h1
    obtain ⟨x, rfl⟩ : ∃ x : ℕ, idx = x := ⟨idx.toNat, by omega⟩
    have hx : x < (L.aoList 3).length := by
      rw [length_aoList hL (Or.inr rfl)]; unfold pN at h1; exact_mod_cast h1
    obtain ⟨i, j, k, hi, hj, hk, he⟩ := (mem_aoList hL (Or.inr rfl)).1 (List.getElem_mem hx)
    refine ⟨(i, j, k), ⟨⟨hi, hj, hk⟩, ?_⟩, ?_⟩
    · obtain ⟨y, hy, hy'⟩ := glob i j k hi hj hk
      obtain ⟨hl, he'⟩ := List.getElem?_eq_some_iff.1 hy'
      have : y = x := (nodup_aoList hL (Or.inr rfl)).getElem_inj_iff.1 (he'.trans he.symm)
      simp only
      rw [hpk, hy, this]
    · rintro ⟨i', j', k'⟩ ⟨⟨hi', hj', hk'⟩, hv⟩
      obtain ⟨y, hy, hy'⟩ := glob i' j' k' hi' hj' hk'
      simp only at hv
      rw [hpk, hy] at hv
      have : y = x := by have := Except.ok.inj hv; exact_mod_cast this
      subst this
      have e2 := (List.getElem?_eq_some_iff.1 hy').2
      rw [he] at e2
      have e3 : nat3 (L.n 3 0) (L.n 3 1) (i, j, k) = nat3 (L.n 3 0) (L.n 3 1) (i', j', k') := by exact_mod_cast e2
      obtain ⟨rfl, rfl, rfl⟩ := natural_inj hi hi' hj hj' e3
      rfl

/-- A 2D layout on 2 x 2 processes: 4 x 3 cells, nothing periodic, PETSc's default distribution. -/
def exampleLayout : Layout where
  dim := 2
  n := fun f d => if d = 2 then 1 else if d = 0 then (if f = 0 then 3 else 4) else (if f = 1 then 2 else 3)
  periodic := fun _ _ => false
  nProc := fun d => if d = 2 then 1 else 2
  own := fun f d => if d = 2 then [1] else
    if d = 0 then (if f = 0 then [2, 1] else [2, 2]) else (if f = 1 then [1, 1] else [2, 1])

theorem exampleLayout_ok : LayoutOK exampleLayout where
  dim := Or.inl rfl
  flat := by intro _ f _; rfl
  procs := by intro d hd; interval_cases d <;> decide
  cols := by
    intro f d hf hd
    have hf : f < 4 := by simp only [exampleLayout] at hf; omega
    interval_cases d <;> interval_cases f <;> rfl
  lines := by
    intro f d hf hd
    have hf : f < 4 := by simp only [exampleLayout] at hf; omega
    interval_cases d <;> interval_cases f <;> rfl

example : IsUnknown exampleLayout ⟨3, 1, 2, 1, 0⟩ := by simp [IsUnknown, Owns, exampleLayout]
example : exampleLayout.UN = 17 := by decide
example : exampleLayout.getPackedGlobalIndex true 1 ⟨0, 1, 2, 0⟩ = .ok 15 := by decide

/-! ### C05 -/

/-- C05. A stencil without natural index has no global and no packed index. -/
theorem C05_outside_stays_outside (debug : Bool) (L : Layout) (hL : LayoutOK L) (f : ℕ)
    (hf : f < L.dim ∨ f = 3) (s : Stencil) (h : getNaturalIndexS debug L.toMeshInfo f s = .ok (-1)) :
    L.getGlobalIndex debug f s = .ok (-1) ∧ L.getPackedGlobalIndex debug f s = .ok (-1) := by
  have hm : (-1 : ℤ) ∉ L.aoList f := by
    rw [mem_aoList hL hf]
    rintro ⟨i, j, k, _, _, _, he⟩
    omega
  have hg : L.getGlobalIndex debug f s = .ok (-1) := by
    simp only [getGlobalIndex, h, aoApplicationToPetsc]
    show Except.ok _ = _
    rw [if_neg hm]
  refine ⟨hg, ?_⟩
  simp only [getPackedGlobalIndex, hg]
  show (if _ then _ else _) = _
  rw [if_pos (Or.inr rfl)]
  rfl

/-- C05. In-grid points never get -1 from any of the three queries. -/
theorem C05_inside_stays_inside (debug : Bool) (L : Layout) (hL : LayoutOK L) (f : ℕ)
    (hf : f < L.dim ∨ f = 3) (i j k c : ℕ) (hi : i < L.n f 0) (hj : j < L.n f 1) (hk : k < L.n f 2) :
    (∃ x, getNaturalIndexS debug L.toMeshInfo f ⟨k, j, i, c⟩ = .ok x ∧ 0 ≤ x) ∧
    (∃ x, L.getGlobalIndex debug f ⟨k, j, i, c⟩ = .ok x ∧ 0 ≤ x) ∧
    (∃ x, L.getPackedGlobalIndex debug f ⟨k, j, i, c⟩ = .ok x ∧ 0 ≤ x) := by
  have hg := gridOK_of hL hf hi hj hk
  obtain ⟨r, hr, ho⟩ := exists_owner hL hf hi hj hk
  obtain ⟨q, hq⟩ := List.getElem?_of_mem (mem_box.2 ho)
  refine ⟨⟨_, getNaturalIndex_inGrid debug L.toMeshInfo f hg hi hj hk, by omega⟩,
    ⟨_, getGlobalIndex_owner debug hL hf hr hq, by omega⟩, ?_⟩
  rcases hf with hf | rfl
  · exact ⟨_, getPackedGlobalIndex_owner debug hL hf hr hq, by omega⟩
  · obtain ⟨x, hx, _, h0, _⟩ := (C04_pressure_index_bijective debug L hL c).1 i j k hi hj hk
    exact ⟨x, hx, h0⟩

example : getNaturalIndexS true exampleLayout.toMeshInfo 0 ⟨0, -1, 2, 0⟩ = .ok (-1) := by decide

/-! ### C06 (distribution part; the per-direction counts are in `Props/Mesh.lean`) -/

/-- C06. Local counts sum to the global counts, for each component and for the packed vector; the total is the
sum over components of the product of the per-direction counts. -/
theorem C06_counts (L : Layout) (hL : LayoutOK L) :
    (∀ f, f < L.dim → ((List.range L.mpiSize).map fun r => L.UNLocalAllProcs f r).sum =
      L.n f 0 * L.n f 1 * L.n f 2) ∧
    ((List.range L.mpiSize).map L.UPackNLocalAllProcs).sum = L.UN ∧
    L.UN = ((List.range L.dim).map fun f => L.n f 0 * L.n f 1 * L.n f 2).sum := by
  have h1 : ∀ f, f < L.dim → ((List.range L.mpiSize).map fun r => L.UNLocalAllProcs f r).sum =
      L.n f 0 * L.n f 1 * L.n f 2 := by
    intro f hf
    rw [← sum_box hL (Or.inl hf)]
    congr 1
    apply List.map_congr_left
    intro r _
    exact (length_box L f r hf).symm
  refine ⟨h1, ?_, UN_eq L⟩
  have : (List.range L.mpiSize).map L.UPackNLocalAllProcs =
      (List.range L.mpiSize).map fun r => ((List.range L.dim).map fun f => (L.box f r).length).sum := by
    apply List.map_congr_left; intro r _; exact UPackN_eq hL r
  rw [this, sum_map_comm, UN_eq]
  congr 1
  apply List.map_congr_left
  intro f hf
  exact sum_box hL (Or.inl (List.mem_range.1 hf))

end PetIBM
