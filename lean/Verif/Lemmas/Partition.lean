/-
Arithmetic of the default distribution.
-/
import Verif.Spec.Partition
import Verif.Lemmas.Boundary

namespace PetIBM

open Spec Layout

theorem sizeOf_default {M m p : ℕ} (hp : p < m) :
    sizeOf' (dmdaDefault M m) p = M / m + (if p < M % m then 1 else 0) := by
  unfold sizeOf' dmdaDefault
  rw [List.getD_eq_getElem?_getD, List.getElem?_map, List.getElem?_range hp]; rfl

theorem startOf_default {M m p : ℕ} (hp : p ≤ m) :
    startOf (dmdaDefault M m) p = p * (M / m) + min p (M % m) := by
  induction p with
  | zero => simp [startOf]
  | succ p ih =>
    have h := sizeOf_default (M := M) (m := m) (p := p) (by omega)
    have ih := ih (by omega)
    unfold startOf sizeOf' at *
    rw [sum_take_succ, ih, h, Nat.add_mul, one_mul]
    split_ifs <;> omega

theorem column_lt {L : Layout} {r d : ℕ} (hr : r < L.mpiSize) (hd : d < 3) : L.column r d < L.nProc d := by
  have h : r < L.nProc 0 * L.nProc 1 * L.nProc 2 := hr
  have h0 : 0 < L.nProc 0 := by
    rcases Nat.eq_zero_or_pos (L.nProc 0) with h0 | h0
    · simp [h0] at h
    · exact h0
  have h1 : 0 < L.nProc 1 := by
    rcases Nat.eq_zero_or_pos (L.nProc 1) with h0 | h0
    · simp [h0] at h
    · exact h0
  unfold column procCoord
  interval_cases d
  · exact Nat.mod_lt _ h0
  · exact Nat.mod_lt _ h1
  · exact Nat.div_lt_of_lt_mul h

variable {L : Layout}

theorem bg_default (hP : Partitioned L) {f r d : ℕ} (hf : f < L.dim ∨ f = 3) (hr : r < L.mpiSize) (hd : d < 3) :
    L.bg f r d = L.column r d * (L.n f d / L.nProc d) + min (L.column r d) (L.n f d % L.nProc d) := by
  have hc := column_lt hr hd
  unfold bg
  rw [(hP f d hf hd).1, startOf_default hc.le]

theorem ed_default (hP : Partitioned L) {f r d : ℕ} (hf : f < L.dim ∨ f = 3) (hr : r < L.mpiSize) (hd : d < 3) :
    L.ed f r d = (L.column r d + 1) * (L.n f d / L.nProc d) + min (L.column r d + 1) (L.n f d % L.nProc d) := by
  have hc := column_lt hr hd
  unfold ed bg m
  rw [(hP f d hf hd).1, ← startOf_default (p := L.column r d + 1) (by omega)]
  simp only [startOf, sizeOf']
  rw [sum_take_succ]

/-- every process owns a line -/
theorem bg_lt_ed (hP : Partitioned L) {f r d : ℕ} (hf : f < L.dim ∨ f = 3) (hr : r < L.mpiSize) (hd : d < 3) :
    L.bg f r d < L.ed f r d := by
  rw [bg_default hP hf hr hd, ed_default hP hf hr hd, Nat.add_mul, one_mul]
  have h := (hP f d hf hd).2
  have : 0 < L.n f d / L.nProc d := Nat.div_pos h.2 h.1
  omega

/-- the first line is owned by the first column -/
theorem column_first (hP : Partitioned L) {f r d : ℕ} (hf : f < L.dim ∨ f = 3) (hr : r < L.mpiSize) (hd : d < 3)
    (h : L.bg f r d = 0) : L.column r d = 0 := by
  rw [bg_default hP hf hr hd] at h
  have h' := (hP f d hf hd).2
  have : 0 < L.n f d / L.nProc d := Nat.div_pos h'.2 h'.1
  have h2 : L.column r d * (L.n f d / L.nProc d) = 0 := by omega
  rcases Nat.mul_eq_zero.1 h2 with h | h <;> omega

/-- the last line is owned by the last column -/
theorem column_last (hP : Partitioned L) {f r d : ℕ} (hf : f < L.dim ∨ f = 3) (hr : r < L.mpiSize) (hd : d < 3)
    (h : L.n f d ≤ L.ed f r d) : L.column r d + 1 = L.nProc d := by
  have hc := column_lt hr hd
  rw [ed_default hP hf hr hd] at h
  have h' := (hP f d hf hd).2
  have hq : 0 < L.n f d / L.nProc d := Nat.div_pos h'.2 h'.1
  have hm := Nat.div_add_mod (L.n f d) (L.nProc d)
  by_contra hne
  have h2 : L.column r d + 1 + 1 ≤ L.nProc d := by omega
  have h3 := Nat.mul_le_mul_right (L.n f d / L.nProc d) h2
  rw [Nat.add_mul (L.column r d + 1)] at h3
  omega

theorem first_column (hP : Partitioned L) {f r d : ℕ} (hf : f < L.dim ∨ f = 3) (hr : r < L.mpiSize) (hd : d < 3)
    (h : L.column r d = 0) : L.bg f r d = 0 := by
  rw [bg_default hP hf hr hd, h]; simp

theorem last_column (hP : Partitioned L) {f r d : ℕ} (hf : f < L.dim ∨ f = 3) (hr : r < L.mpiSize) (hd : d < 3)
    (h : L.column r d + 1 = L.nProc d) : L.ed f r d = L.n f d := by
  have h' := (hP f d hf hd).2
  rw [ed_default hP hf hr hd, h, min_eq_right (Nat.mod_lt _ h'.1).le]
  exact Nat.div_add_mod (L.n f d) (L.nProc d)

theorem bg_congr (hP : Partitioned L) {f g r d : ℕ} (hf : f < L.dim ∨ f = 3) (hg : g < L.dim ∨ g = 3)
    (hd : d < 3) (h : L.n f d = L.n g d) : L.bg f r d = L.bg g r d ∧ L.ed f r d = L.ed g r d := by
  unfold ed bg m
  rw [(hP f d hf hd).1, (hP g d hg hd).1, h]
  exact ⟨rfl, rfl⟩

end PetIBM
