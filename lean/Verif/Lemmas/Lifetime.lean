/-
Ownership: which variables hold the references. A checker on lists of variables and its soundness.
-/
import Verif.Spec.Lifetime
import Mathlib.Data.List.Count
import Mathlib.Data.List.Nodup
import Mathlib.Data.List.Perm.Basic

namespace PetIBM
open Spec

/-- Variables that hold a reference each; variables that are null; variables that point to the object of another one. -/
structure Owned where
  own : List PVar
  nul : List PVar
  same : List (PVar × PVar)
  deriving DecidableEq

/-- `x` points to object `i`. -/
def holds (v : PVar → Handle) (i : ℕ) (x : PVar) : Bool := decide (v x = .ptr i)

theorem holds_congr {v w : PVar → Handle} {x y : PVar} (h : v x = w y) (i : ℕ) : holds v i x = holds w i y := by
  unfold holds
  rw [h]

theorem holds_update {v : PVar → Handle} {x y : PVar} (h : Handle) (hy : y ≠ x) (i : ℕ) : holds (Function.update v x h) i y = holds v i y :=
  holds_congr (Function.update_of_ne hy h v) i

theorem holds_updated (v : PVar → Handle) (x : PVar) (i j : ℕ) : holds (Function.update v x (.ptr i)) j x = decide (i = j) := by
  unfold holds
  simp

theorem holds_ptr {v : PVar → Handle} {x : PVar} {i : ℕ} (h : v x = .ptr i) (j : ℕ) : holds v j x = decide (i = j) := by
  unfold holds
  rw [h]
  simp

/-- The memory is as `s` says; all references are held by variables. -/
structure Owns (m : PMem) (s : Owned) : Prop where
  nodup : s.own.Nodup
  cnt : ∀ i, m.count i = s.own.countP (holds m.var i)
  pts : ∀ x ∈ s.own, ∃ i, m.var x = .ptr i ∧ i < m.next
  nul : ∀ x ∈ s.nul, m.var x = .null
  al : ∀ q ∈ s.same, q.2 ∈ s.own ∧ m.var q.1 = m.var q.2 ∧ q.1 ∉ s.own

/-- The variable points to an object. -/
def Owned.valid (s : Owned) (x : PVar) : Bool := decide (x ∈ s.own) || s.same.any fun q => decide (q.1 = x)

/-- The variable that holds the reference to the object of `x`. -/
def Owned.owner (s : Owned) (x : PVar) : Option PVar :=
  if x ∈ s.own then some x else (s.same.find? fun q => decide (q.1 = x)).map (·.2)

/-- `x` is about to be overwritten: if it holds a reference, another variable must take it. -/
def Owned.forget (s : Owned) (x : PVar) : Option Owned :=
  if x ∈ s.own then
    match s.same.find? fun q => decide (q.2 = x) with
    | none => none
    | some q =>
      some ⟨q.1 :: s.own.erase x, s.nul.filter (· ≠ x),
        (s.same.filter fun r => r.1 ≠ q.1).map fun r => (r.1, if r.2 = x then q.1 else r.2)⟩
  else some ⟨s.own, s.nul.filter (· ≠ x), s.same.filter fun r => r.1 ≠ x⟩

/-- The checker. -/
def Act.check : Act → Owned → Option Owned
  | .declare x, s => s.forget x
  | .create x l, s =>
    if l.all s.valid then (s.forget x).map fun s => { s with own := x :: s.own } else none
  | .use l, s => if l.all s.valid then some s else none
  | .destroy x, s =>
    match s.owner x with
    | some y => some ⟨s.own.erase y, x :: s.nul, s.same.filter fun r => r.2 ≠ y ∧ r.1 ≠ x⟩
    | none => if x ∈ s.nul then some s else none
  | .assign x y, s =>
    if x = y then none
    else
      match s.forget x with
      | none => none
      | some s =>
        match s.owner y with
        | none => none
        | some z => some { s with same := (x, z) :: s.same }
  | .null x, s => (s.forget x).map fun s => { s with nul := x :: s.nul }
  | .refer x y, s =>
    if x = y then none
    else
      match s.forget x with
      | none => none
      | some s => if (s.owner y).isSome then some { s with own := x :: s.own } else none

/-- A variable that `s` does not mention. -/
def Owned.Unknown (s : Owned) (x : PVar) : Prop := x ∉ s.own ∧ x ∉ s.nul ∧ ∀ q ∈ s.same, q.1 ≠ x

theorem Owns.alias_ne {m : PMem} {s : Owned} (h : Owns m s) {x : PVar} (hx : x ∉ s.own) : ∀ q ∈ s.same, q.2 ≠ x :=
  fun q hq e => hx (e ▸ (h.al q hq).1)

theorem Owns.owner_var {m : PMem} {s : Owned} (h : Owns m s) {x y : PVar} (hy : s.owner x = some y) : y ∈ s.own ∧ m.var x = m.var y := by
  unfold Owned.owner at hy
  split at hy
  · cases hy
    exact ⟨by assumption, rfl⟩
  · cases hf : s.same.find? fun q => decide (q.1 = x) with
    | none => rw [hf] at hy; cases hy
    | some q =>
      rw [hf] at hy
      cases hy
      have h1 := List.mem_of_find?_eq_some hf
      have h2 : q.1 = x := by simpa using List.find?_some hf
      exact ⟨(h.al q h1).1, h2 ▸ (h.al q h1).2.1⟩

theorem Owns.own_count {m : PMem} {s : Owned} (h : Owns m s) {x : PVar} (hx : x ∈ s.own) :
    ∃ i, m.var x = .ptr i ∧ i < m.next ∧ m.count i ≠ 0 := by
  obtain ⟨i, h1, h2⟩ := h.pts x hx
  refine ⟨i, h1, h2, ?_⟩
  rw [h.cnt i]
  have : 0 < s.own.countP (holds m.var i) := List.countP_pos_iff.2 ⟨x, hx, decide_eq_true h1⟩
  omega

theorem Owns.owner_live {m : PMem} {s : Owned} (h : Owns m s) {x y : PVar} (hy : s.owner x = some y) :
    ∃ i, m.var x = .ptr i ∧ i < m.next ∧ m.count i ≠ 0 := by
  obtain ⟨h1, h2⟩ := h.owner_var hy
  rw [h2]
  exact h.own_count h1

theorem Owns.valid_live {m : PMem} {s : Owned} (h : Owns m s) {x : PVar} (hx : s.valid x = true) : m.isLive x = true := by
  have key : ∃ y ∈ s.own, m.var x = m.var y := by
    unfold Owned.valid at hx
    rw [Bool.or_eq_true] at hx
    rcases hx with hx | hx
    · exact ⟨x, by simpa using hx, rfl⟩
    · obtain ⟨q, h1, h2⟩ := List.any_eq_true.1 hx
      have h2 : q.1 = x := by simpa using h2
      exact ⟨q.2, (h.al q h1).1, h2 ▸ (h.al q h1).2.1⟩
  obtain ⟨y, hy, e⟩ := key
  obtain ⟨i, h1, -, h3⟩ := h.own_count hy
  unfold PMem.isLive
  rw [e, h1]
  simpa using h3

theorem Owns.all_live {m : PMem} {s : Owned} (h : Owns m s) {l : List PVar} (hl : l.all s.valid = true) : l.all m.isLive = true := by
  rw [List.all_eq_true] at hl ⊢
  exact fun x hx => h.valid_live (hl x hx)

theorem Owns.forget_owns {m : PMem} {s t : Owned} (h : Owns m s) {x : PVar} (ht : s.forget x = some t) : Owns m t ∧ t.Unknown x := by
  unfold Owned.forget at ht
  split at ht
  · rename_i hx
    cases hf : s.same.find? fun q => decide (q.2 = x) with
    | none => rw [hf] at ht; cases ht
    | some q =>
      rw [hf] at ht
      cases ht
      have h1 := List.mem_of_find?_eq_some hf
      have h2 : q.2 = x := by simpa using List.find?_some hf
      obtain ⟨-, hv, hn⟩ := h.al q h1
      rw [h2] at hv
      have hqx : q.1 ≠ x := fun e => hn (e ▸ hx)
      have hp : s.own.Perm (x :: s.own.erase x) := List.perm_cons_erase hx
      refine ⟨⟨?_, ?_, ?_, ?_, ?_⟩, ?_, ?_, ?_⟩
      · exact List.nodup_cons.2 ⟨fun hm => hn (List.mem_of_mem_erase hm), h.nodup.erase x⟩
      · intro i
        rw [h.cnt i, hp.countP_eq, List.countP_cons, List.countP_cons, holds_congr hv]
      · intro y hy
        rcases List.mem_cons.1 hy with rfl | hy
        · rw [hv]; exact h.pts x hx
        · exact h.pts y (List.mem_of_mem_erase hy)
      · intro y hy
        exact h.nul y (List.mem_filter.1 hy).1
      · intro r hr
        obtain ⟨r', hr', rfl⟩ := List.mem_map.1 hr
        obtain ⟨hr1, hr2⟩ := List.mem_filter.1 hr'
        obtain ⟨k1, k2, k3⟩ := h.al r' hr1
        have hr2 : r'.1 ≠ q.1 := by simpa using hr2
        refine ⟨?_, ?_, ?_⟩
        · dsimp only
          split
          · exact List.mem_cons_self
          · exact List.mem_cons_of_mem _ ((List.mem_erase_of_ne (by assumption)).2 k1)
        · dsimp only
          split
          · rename_i e
            rw [k2, e, hv]
          · exact k2
        · intro hm
          rcases List.mem_cons.1 hm with e | hm
          · exact hr2 e
          · exact k3 (List.mem_of_mem_erase hm)
      · intro hm
        rcases List.mem_cons.1 hm with e | hm
        · exact hqx e.symm
        · exact (h.nodup.not_mem_erase) hm
      · intro hm
        simpa using (List.mem_filter.1 hm).2
      · intro r hr e
        obtain ⟨r', hr', rfl⟩ := List.mem_map.1 hr
        have := h.al r' (List.mem_filter.1 hr').1
        exact this.2.2 (by dsimp only at e; rw [e]; exact hx)
  · rename_i hx
    cases ht
    refine ⟨⟨h.nodup, h.cnt, h.pts, fun y hy => h.nul y (List.mem_filter.1 hy).1, fun q hq => h.al q (List.mem_filter.1 hq).1⟩, hx, ?_, ?_⟩
    · intro hm
      simpa using (List.mem_filter.1 hm).2
    · intro q hq
      simpa using (List.mem_filter.1 hq).2

theorem update_same {v : PVar → Handle} {x y : PVar} {h : Handle} (hy : y ≠ x) : Function.update v x h y = v y := Function.update_of_ne hy h v

theorem Owns.update {m : PMem} {s : Owned} (h : Owns m s) {x : PVar} (hx : s.Unknown x) (a : Handle) :
    Owns { m with var := Function.update m.var x a } s := by
  have hne : ∀ y ∈ s.own, y ≠ x := fun y hy e => hx.1 (e ▸ hy)
  refine ⟨h.nodup, fun i => ?_, fun y hy => ?_, fun y hy => ?_, fun q hq => ?_⟩
  · rw [h.cnt i]
    exact List.countP_congr fun y hy => by rw [holds_update a (hne y hy)]
  · dsimp only
    rw [update_same (hne y hy)]
    exact h.pts y hy
  · dsimp only
    rw [update_same (fun e : y = x => hx.2.1 (e ▸ hy))]
    exact h.nul y hy
  · dsimp only
    rw [update_same (hx.2.2 q hq), update_same (hne _ (h.al q hq).1)]
    exact h.al q hq

theorem Owns.grow {m : PMem} {s : Owned} (h : Owns m s) {x : PVar} (hx : s.Unknown x) :
    Owns ⟨m.next + 1, Function.update m.count m.next 1, Function.update m.var x (.ptr m.next)⟩ { s with own := x :: s.own } := by
  have hne : ∀ y ∈ s.own, y ≠ x := fun y hy e => hx.1 (e ▸ hy)
  refine ⟨List.nodup_cons.2 ⟨hx.1, h.nodup⟩, fun i => ?_, fun y hy => ?_, fun y hy => ?_, fun q hq => ?_⟩
  · dsimp only
    rw [List.countP_cons, holds_updated]
    have e : s.own.countP (holds (Function.update m.var x (.ptr m.next)) i) = s.own.countP (holds m.var i) :=
      List.countP_congr fun y hy => by rw [holds_update _ (hne y hy)]
    rw [e]
    by_cases hi : i = m.next
    · subst hi
      rw [Function.update_self]
      have : s.own.countP (holds m.var m.next) = 0 := by
        rw [List.countP_eq_zero]
        intro y hy hd
        obtain ⟨j, h1, h2⟩ := h.pts y hy
        rw [holds_ptr h1] at hd
        have : j = m.next := by simpa using hd
        omega
      rw [this]
      simp
    · rw [Function.update_of_ne hi, h.cnt i]
      simp [Ne.symm hi]
  · dsimp only
    rcases List.mem_cons.1 hy with rfl | hy
    · exact ⟨m.next, Function.update_self .., Nat.lt_succ_self _⟩
    · rw [update_same (hne y hy)]
      obtain ⟨j, h1, h2⟩ := h.pts y hy
      exact ⟨j, h1, Nat.lt_succ_of_lt h2⟩
  · dsimp only
    rw [update_same (fun e : y = x => hx.2.1 (e ▸ hy))]
    exact h.nul y hy
  · dsimp only
    rw [update_same (hx.2.2 q hq), update_same (hne _ (h.al q hq).1)]
    obtain ⟨h1, h2, h3⟩ := h.al q hq
    refine ⟨List.mem_cons_of_mem _ h1, h2, fun hm => ?_⟩
    rcases List.mem_cons.1 hm with e | hm
    · exact hx.2.2 q hq e
    · exact h3 hm

theorem Owns.addRef {m : PMem} {s : Owned} (h : Owns m s) {x : PVar} (hx : s.Unknown x) {i : ℕ} (hi : i < m.next) :
    Owns { m with count := Function.update m.count i (m.count i + 1), var := Function.update m.var x (.ptr i) } { s with own := x :: s.own } := by
  have hne : ∀ y ∈ s.own, y ≠ x := fun y hy e => hx.1 (e ▸ hy)
  refine ⟨List.nodup_cons.2 ⟨hx.1, h.nodup⟩, fun j => ?_, fun y hy => ?_, fun y hy => ?_, fun q hq => ?_⟩
  · dsimp only
    rw [List.countP_cons, holds_updated]
    have e : s.own.countP (holds (Function.update m.var x (.ptr i)) j) = s.own.countP (holds m.var j) :=
      List.countP_congr fun y hy => by rw [holds_update _ (hne y hy)]
    rw [e]
    by_cases hj : j = i
    · subst hj
      rw [Function.update_self, h.cnt j]
      simp
    · rw [Function.update_of_ne hj, h.cnt j]
      simp [Ne.symm hj]
  · dsimp only
    rcases List.mem_cons.1 hy with rfl | hy
    · exact ⟨i, Function.update_self .., hi⟩
    · rw [update_same (hne y hy)]
      exact h.pts y hy
  · dsimp only
    rw [update_same (fun e : y = x => hx.2.1 (e ▸ hy))]
    exact h.nul y hy
  · dsimp only
    rw [update_same (hx.2.2 q hq), update_same (hne _ (h.al q hq).1)]
    obtain ⟨h1, h2, h3⟩ := h.al q hq
    refine ⟨List.mem_cons_of_mem _ h1, h2, fun hm => ?_⟩
    rcases List.mem_cons.1 hm with e | hm
    · exact hx.2.2 q hq e
    · exact h3 hm

theorem Owns.release {m : PMem} {s : Owned} (h : Owns m s) {x y : PVar} (hy : s.owner x = some y) {i : ℕ} (hi : m.var x = .ptr i) :
    Owns { m with count := Function.update m.count i (m.count i - 1), var := Function.update m.var x .null }
      ⟨s.own.erase y, x :: s.nul, s.same.filter fun r => r.2 ≠ y ∧ r.1 ≠ x⟩ := by
  obtain ⟨hyo, hv⟩ := h.owner_var hy
  have hp : s.own.Perm (y :: s.own.erase y) := List.perm_cons_erase hyo
  have hne : ∀ z ∈ s.own.erase y, z ≠ x := by
    intro z hz e
    subst e
    have hz' := List.mem_of_mem_erase hz
    have : y = z := by
      unfold Owned.owner at hy
      rw [if_pos hz'] at hy
      exact (Option.some.inj hy).symm
    exact h.nodup.not_mem_erase (this ▸ hz)
  refine ⟨h.nodup.erase y, fun j => ?_, fun z hz => ?_, fun z hz => ?_, fun q hq => ?_⟩
  · dsimp only
    have e : (s.own.erase y).countP (holds (Function.update m.var x .null) j) = (s.own.erase y).countP (holds m.var j) :=
      List.countP_congr fun z hz => by rw [holds_update _ (hne z hz)]
    rw [e]
    have hc := h.cnt j
    rw [hp.countP_eq, List.countP_cons, holds_ptr (hv.symm.trans hi)] at hc
    by_cases hj : j = i
    · subst hj
      rw [Function.update_self, hc]
      simp
    · rw [Function.update_of_ne hj, hc]
      simp [Ne.symm hj]
  · dsimp only
    rw [update_same (hne z hz)]
    exact h.pts z (List.mem_of_mem_erase hz)
  · dsimp only
    by_cases e : z = x
    · subst e; exact Function.update_self ..
    · rw [update_same e]
      rcases List.mem_cons.1 hz with e' | hz
      · exact absurd e' e
      · exact h.nul z hz
  · obtain ⟨hq1, hq2⟩ := List.mem_filter.1 hq
    have hq2 : q.2 ≠ y ∧ q.1 ≠ x := by simpa using hq2
    obtain ⟨h1, h2, h3⟩ := h.al q hq1
    have k1 : q.2 ∈ s.own.erase y := (List.mem_erase_of_ne hq2.1).2 h1
    dsimp only
    rw [update_same hq2.2, update_same (hne _ k1)]
    exact ⟨k1, h2, fun hm => h3 (List.mem_of_mem_erase hm)⟩

theorem Act.sound {a : Act} {m : PMem} {s t : Owned} (h : Owns m s) (ht : a.check s = some t) : ∃ m', a.exec m = .ok m' ∧ Owns m' t := by
  cases a with
  | declare x =>
    obtain ⟨h1, h2⟩ := h.forget_owns (x := x) (t := t) ht
    exact ⟨_, rfl, h1.update h2 _⟩
  | create x l =>
    simp only [Act.check] at ht
    split at ht
    · rename_i hl
      cases hf : s.forget x with
      | none => rw [hf] at ht; cases ht
      | some s' =>
        rw [hf] at ht
        cases ht
        obtain ⟨h1, h2⟩ := h.forget_owns hf
        exact ⟨_, if_pos (h.all_live hl), h1.grow h2⟩
    · cases ht
  | use l =>
    simp only [Act.check] at ht
    split at ht
    · cases ht
      exact ⟨m, if_pos (h.all_live (by assumption)), h⟩
    · cases ht
  | destroy x =>
    simp only [Act.check] at ht
    cases ho : s.owner x with
    | none =>
      rw [ho] at ht
      dsimp only at ht
      split at ht
      · cases ht
        refine ⟨m, ?_, h⟩
        simp only [Act.exec, h.nul x (by assumption)]
      · cases ht
    | some y =>
      rw [ho] at ht
      cases ht
      obtain ⟨i, h1, h2, h3⟩ := h.owner_live ho
      refine ⟨_, ?_, h.release ho h1⟩
      simp only [Act.exec, h1, if_neg h3]
  | assign x y =>
    simp only [Act.check] at ht
    split at ht
    · cases ht
    · rename_i hxy
      cases hf : s.forget x with
      | none => rw [hf] at ht; cases ht
      | some s' =>
        rw [hf] at ht
        dsimp only at ht
        cases ho : s'.owner y with
        | none => rw [ho] at ht; cases ht
        | some z =>
          rw [ho] at ht
          cases ht
          obtain ⟨h1, h2⟩ := h.forget_owns hf
          obtain ⟨i, k1, -, -⟩ := h1.owner_live ho
          obtain ⟨k2, k3⟩ := h1.owner_var ho
          have hu := h1.update h2 (.ptr i)
          refine ⟨_, ?_, ⟨hu.nodup, hu.cnt, hu.pts, hu.nul, fun q hq => ?_⟩⟩
          · simp only [Act.exec, k1]
          · rcases List.mem_cons.1 hq with rfl | hq
            · refine ⟨k2, ?_, h2.1⟩
              dsimp only
              rw [Function.update_self, update_same (fun e : z = x => h2.1 (e ▸ k2)), ← k3, k1]
            · exact hu.al q hq
  | null x =>
    simp only [Act.check] at ht
    cases hf : s.forget x with
    | none => rw [hf] at ht; cases ht
    | some s' =>
      rw [hf] at ht
      cases ht
      obtain ⟨h1, h2⟩ := h.forget_owns hf
      have hu := h1.update h2 .null
      refine ⟨_, rfl, ⟨hu.nodup, hu.cnt, hu.pts, fun y hy => ?_, hu.al⟩⟩
      rcases List.mem_cons.1 hy with rfl | hy
      · exact Function.update_self ..
      · exact hu.nul y hy
  | refer x y =>
    simp only [Act.check] at ht
    split at ht
    · cases ht
    · cases hf : s.forget x with
      | none => rw [hf] at ht; cases ht
      | some s' =>
        rw [hf] at ht
        dsimp only at ht
        cases ho : s'.owner y with
        | none => rw [ho] at ht; cases ht
        | some z =>
          rw [ho] at ht
          cases ht
          obtain ⟨h1, h2⟩ := h.forget_owns hf
          obtain ⟨i, k1, k2, k3⟩ := h1.owner_live ho
          refine ⟨_, ?_, h1.addRef h2 k2⟩
          simp only [Act.exec, k1, if_neg k3]

/-- The checker on several acts. -/
def checkActs : List Act → Owned → Option Owned
  | [], s => some s
  | a :: l, s =>
    match a.check s with
    | none => none
    | some s => checkActs l s

theorem checkActs_sound {l : List Act} {m : PMem} {s t : Owned} (h : Owns m s) (ht : checkActs l s = some t) :
    ∃ m', execActs l m = .ok m' ∧ Owns m' t := by
  induction l generalizing m s with
  | nil => cases ht; exact ⟨m, rfl, h⟩
  | cons a l ih =>
    simp only [checkActs] at ht
    cases ha : a.check s with
    | none => rw [ha] at ht; cases ht
    | some s' =>
      rw [ha] at ht
      obtain ⟨m1, h1, h2⟩ := Act.sound h ha
      obtain ⟨m2, h3, h4⟩ := ih h2 ht
      refine ⟨m2, ?_, h4⟩
      unfold execActs
      rw [h1]
      exact h3

theorem execActs_append (l r : List Act) (m : PMem) :
    execActs (l ++ r) m = match execActs l m with
      | .error e => .error e
      | .ok m => execActs r m := by
  induction l generalizing m with
  | nil => rfl
  | cons a l ih =>
    simp only [List.cons_append, execActs]
    cases a.exec m with
    | error e => rfl
    | ok m' => exact ih m'

theorem execAll_append (l r : List Stmt) (m : PMem) :
    execAll (l ++ r) m = match execAll l m with
      | .error e => .error e
      | .ok m => execAll r m := by
  induction l generalizing m with
  | nil => rfl
  | cons a l ih =>
    simp only [List.cons_append, execAll]
    cases a.exec m with
    | error e => rfl
    | ok m' => exact ih m'

/-- `createBnHead` for variables `op`, `out` other than its own ones. -/
def bnCheck (op out : PVar) (s : Owned) : Option Owned :=
  if op ∈ s.own ∧ out ∉ s.own ∧ PVar.rightMat ∉ s.own ∧ PVar.tempResult ∉ s.own ∧ s.same = [] ∧ out ≠ .rightMat ∧ out ≠ .tempResult ∧ op ≠ .tempResult ∧ op ≠ .rightMat then
    some ⟨out :: s.own, s.nul.filter fun x => x ≠ out ∧ x ≠ .rightMat ∧ x ≠ .tempResult, []⟩
  else none

/-- In a loop of `createBnHead`. -/
def bnState (own nul : List PVar) : Owned := ⟨own, nul, []⟩

theorem bn_inner {own nul : List PVar} {op : PVar} (ho : op ∈ own) (h1 : PVar.rightMat ∉ own) (h2 : PVar.tempResult ∉ own)
    (n1 : PVar.rightMat ∉ nul) (n2 : PVar.tempResult ∉ nul) (k : ℕ) {m : PMem} (h : Owns m (bnState (.rightMat :: own) nul)) :
    ∃ m', execActs ((List.range k).flatMap fun _ => [.create .tempResult [op, .rightMat], .destroy .rightMat, .assign .rightMat .tempResult]) m = .ok m' ∧
      Owns m' (bnState (.rightMat :: own) nul) := by
  induction k with
  | zero => exact ⟨m, rfl, h⟩
  | succ k ih =>
    obtain ⟨m1, e1, o1⟩ := ih
    rw [List.range_succ, List.flatMap_append, execActs_append, e1]
    have f2 : nul.filter (fun y => !decide (y = .tempResult)) = nul := List.filter_eq_self.2 fun y hy => by
      have : y ≠ .tempResult := fun e => n2 (e ▸ hy)
      simpa using this
    have f1 : nul.filter (fun y => !decide (y = .rightMat)) = nul := List.filter_eq_self.2 fun y hy => by
      have : y ≠ .rightMat := fun e => n1 (e ▸ hy)
      simpa using this
    have hc : checkActs [.create .tempResult [op, .rightMat], .destroy .rightMat, .assign .rightMat .tempResult] (bnState (.rightMat :: own) nul) =
        some ⟨.tempResult :: own, nul, [(.rightMat, .tempResult)]⟩ := by
      have q1 : op ∈ PVar.rightMat :: own := List.mem_cons_of_mem _ ho
      simp [checkActs, Act.check, bnState, Owned.valid, Owned.forget, Owned.owner, ho, h1, h2, f1, f2]
    obtain ⟨m2, e2, o2⟩ := checkActs_sound o1 hc
    have hg : (Owned.mk (.tempResult :: own) nul [(.rightMat, .tempResult)]).forget .tempResult = some (bnState (.rightMat :: own) nul) := by
      simp [Owned.forget, bnState, f2]
    refine ⟨m2, ?_, (o2.forget_owns hg).1⟩
    simpa using e2

theorem bn_outer {own nul : List PVar} {op out : PVar} (ho : op ∈ own) (hout : out ∈ own) (h1 : PVar.rightMat ∉ own) (h2 : PVar.tempResult ∉ own)
    (n1 : PVar.rightMat ∉ nul) (n2 : PVar.tempResult ∉ nul) (n : ℕ) {m : PMem} (h : Owns m (bnState own nul)) :
    ∃ m', execActs ((List.range n).flatMap fun k =>
      [.create .rightMat [op]] ++
        (List.range k).flatMap (fun _ => [.create .tempResult [op, .rightMat], .destroy .rightMat, .assign .rightMat .tempResult]) ++
          [.use [out, .rightMat], .destroy .rightMat]) m = .ok m' ∧ Owns m' (bnState own nul) := by
  induction n with
  | zero => exact ⟨m, rfl, h⟩
  | succ n ih =>
    obtain ⟨m1, e1, o1⟩ := ih
    rw [List.range_succ, List.flatMap_append, execActs_append, e1]
    have f1 : nul.filter (fun y => !decide (y = .rightMat)) = nul := List.filter_eq_self.2 fun y hy => by
      have : y ≠ .rightMat := fun e => n1 (e ▸ hy)
      simpa using this
    have c1 : checkActs [.create .rightMat [op]] (bnState own nul) = some (bnState (.rightMat :: own) nul) := by
      simp [checkActs, Act.check, bnState, Owned.valid, Owned.forget, ho, h1, f1]
    obtain ⟨m2, e2, o2⟩ := checkActs_sound o1 c1
    obtain ⟨m3, e3, o3⟩ := bn_inner ho h1 h2 n1 n2 n o2
    have c2 : checkActs [.use [out, .rightMat], .destroy .rightMat] (bnState (.rightMat :: own) nul) = some (bnState own (.rightMat :: nul)) := by
      simp [checkActs, Act.check, bnState, Owned.valid, Owned.owner, hout]
    obtain ⟨m4, e4, o4⟩ := checkActs_sound o3 c2
    refine ⟨m4, ?_, ⟨o4.nodup, o4.cnt, o4.pts, fun x hx => o4.nul x (List.mem_cons_of_mem _ hx), o4.al⟩⟩
    dsimp only
    rw [List.flatMap_singleton, execActs_append, execActs_append, e2]
    dsimp only
    rw [e3]
    exact e4

theorem bnCheck_sound {n : ℕ} (hn : 1 ≤ n) {op out : PVar} {m : PMem} {s t : Owned} (h : Owns m s) (ht : bnCheck op out s = some t) :
    ∃ m', (Stmt.createBnHead n op out).exec m = .ok m' ∧ Owns m' t := by
  unfold bnCheck at ht
  split at ht
  · rename_i hc
    obtain ⟨ho, hout, h1, h2, ha, q1, q2, q3, q4⟩ := hc
    cases ht
    obtain ⟨own, nul, al⟩ := s
    dsimp only at ho hout h1 h2 ha ⊢
    subst ha
    have hnul : (((nul.filter fun y => !decide (y = out)).filter fun y => !decide (y = .rightMat)).filter fun y => !decide (y = .tempResult)) =
        nul.filter fun x => decide (x ≠ out ∧ x ≠ .rightMat ∧ x ≠ .tempResult) := by
      rw [List.filter_filter, List.filter_filter]
      refine List.filter_congr fun x _ => ?_
      by_cases x = out <;> by_cases x = .rightMat <;> by_cases x = .tempResult <;> simp [*]
    have hc : checkActs [.create out [op], .declare .rightMat, .declare .tempResult] ⟨own, nul, []⟩ =
        some (bnState (out :: own) (nul.filter fun x => decide (x ≠ out ∧ x ≠ .rightMat ∧ x ≠ .tempResult))) := by
      rw [← hnul]
      simp [checkActs, Act.check, bnState, Owned.valid, Owned.forget, ho, hout, h1, h2, q1.symm, q2.symm]
    obtain ⟨m1, e1, o1⟩ := checkActs_sound h hc
    obtain ⟨m2, e2, o2⟩ := bn_outer (op := op) (out := out) (List.mem_cons_of_mem _ ho) List.mem_cons_self (by simp [h1, q1.symm]) (by simp [h2, q2.symm])
      (by simp) (by simp) (n - 1) o1
    refine ⟨m2, ?_, o2⟩
    simp only [Stmt.exec, bnHeadActs]
    rw [if_neg (by omega), execActs_append, e1]
    exact e2
  · cases ht

/-- The checker on programs. -/
def checkAll : List Stmt → Owned → Option Owned
  | [], s => some s
  | .act a :: l, s =>
    match a.check s with
    | none => none
    | some s => checkAll l s
  | .createBnHead 0 _ _ :: _, _ => none
  | .createBnHead (_ + 1) op out :: l, s =>
    match bnCheck op out s with
    | none => none
    | some s => checkAll l s

theorem checkAll_sound {l : List Stmt} {m : PMem} {s t : Owned} (h : Owns m s) (ht : checkAll l s = some t) :
    ∃ m', execAll l m = .ok m' ∧ Owns m' t := by
  induction l generalizing m s with
  | nil => cases ht; exact ⟨m, rfl, h⟩
  | cons a l ih =>
    cases a with
    | act a =>
      simp only [checkAll] at ht
      cases ha : a.check s with
      | none => rw [ha] at ht; cases ht
      | some s' =>
        rw [ha] at ht
        obtain ⟨m1, h1, h2⟩ := Act.sound h ha
        obtain ⟨m2, h3, h4⟩ := ih h2 ht
        refine ⟨m2, ?_, h4⟩
        unfold execAll
        rw [show (Stmt.act a).exec m = .ok m1 from h1]
        exact h3
    | createBnHead n op out =>
      cases n with
      | zero => cases ht
      | succ n =>
        simp only [checkAll] at ht
        cases ha : bnCheck op out s with
        | none => rw [ha] at ht; cases ht
        | some s' =>
          rw [ha] at ht
          obtain ⟨m1, h1, h2⟩ := bnCheck_sound (n := n + 1) (by omega) h ha
          obtain ⟨m2, h3, h4⟩ := ih h2 ht
          refine ⟨m2, ?_, h4⟩
          unfold execAll
          rw [h1]
          exact h3

theorem start_owns : Owns PMem.start ⟨[], [], []⟩ :=
  ⟨List.nodup_nil, fun _ => rfl, fun _ h => absurd h List.not_mem_nil, fun _ h => absurd h List.not_mem_nil, fun _ h => absurd h List.not_mem_nil⟩

theorem Owns.atMost {m : PMem} {s : Owned} (h : Owns m s) : AtMostObjects m s.own.length := by
  refine ⟨s.own.filterMap fun x => match m.var x with
    | .ptr i => some i
    | _ => none, List.length_filterMap_le _ _, fun i hi => ?_⟩
  rw [h.cnt i] at hi
  obtain ⟨x, hx, e⟩ := List.countP_pos_iff.1 (Nat.pos_of_ne_zero hi)
  have e : m.var x = .ptr i := of_decide_eq_true e
  refine List.mem_filterMap.2 ⟨x, hx, ?_⟩
  rw [e]

theorem Owns.nothing {m : PMem} {s : Owned} (h : Owns m s) (hs : s.own = []) : NothingLeft m := by
  intro i
  rw [h.cnt i, hs]
  rfl

theorem Owns.weaken {m : PMem} {s t : Owned} (h : Owns m s) (hp : s.own.Perm t.own) (hn : ∀ x ∈ t.nul, x ∈ s.nul) (ha : t.same = []) : Owns m t :=
  ⟨hp.nodup_iff.1 h.nodup, fun i => (h.cnt i).trans (hp.countP_eq _), fun x hx => h.pts x (hp.mem_iff.2 hx), fun x hx => h.nul x (hn x hx),
    fun q hq => by rw [ha] at hq; exact absurd hq List.not_mem_nil⟩

/-- `t` says no more than `s`. -/
def Owned.covers (s t : Owned) : Bool := s.own.isPerm t.own && t.nul.all (fun x => decide (x ∈ s.nul)) && t.same.isEmpty

theorem Owns.covered {m : PMem} {s t : Owned} (h : Owns m s) (hc : s.covers t = true) : Owns m t := by
  unfold Owned.covers at hc
  rw [Bool.and_eq_true, Bool.and_eq_true] at hc
  obtain ⟨⟨h1, h2⟩, h3⟩ := hc
  exact h.weaken (List.isPerm_iff.1 h1) (fun x hx => by simpa using (List.all_eq_true.1 h2) x hx) (List.isEmpty_iff.1 h3)

theorem checkAll_append (l r : List Stmt) (s : Owned) :
    checkAll (l ++ r) s = match checkAll l s with
      | none => none
      | some s => checkAll r s := by
  induction l generalizing s with
  | nil => rfl
  | cons a l ih =>
    cases a with
    | act a =>
      simp only [List.cons_append, checkAll]
      cases a.check s with
      | none => rfl
      | some s' => exact ih s'
    | createBnHead n op out =>
      cases n with
      | zero => rfl
      | succ n =>
        simp only [List.cons_append, checkAll]
        cases bnCheck op out s with
        | none => rfl
        | some s' => exact ih s'

theorem checkAll_order (n : ℕ) (op out : PVar) (s : Owned) :
    checkAll [.createBnHead (n + 1) op out] s = checkAll [.createBnHead 1 op out] s := rfl

/-- The program keeps the ownership `s` between the steps. -/
structure Keeps (p : ObjProgram) (s : Owned) : Prop where
  init : ∀ zero, ((checkAll (p.init zero) ⟨[], [], []⟩).any fun t => t.covers s) = true
  step : ∀ w, ((checkAll (p.step w) s).any fun t => t.covers s) = true
  destroy : ((checkAll p.destroy s).any fun t => t.own.isEmpty) = true

theorem checked {l : List Stmt} {m : PMem} {s : Owned} {f : Owned → Bool} (h : Owns m s) (hc : ((checkAll l s).any f) = true) :
    ∃ m' t, execAll l m = .ok m' ∧ Owns m' t ∧ f t = true := by
  cases ht : checkAll l s with
  | none => rw [ht] at hc; cases hc
  | some t =>
    rw [ht] at hc
    obtain ⟨m', h1, h2⟩ := checkAll_sound h ht
    exact ⟨m', t, h1, h2, hc⟩

theorem Keeps.clean {p : ObjProgram} {s : Owned} (hk : Keeps p s) : CleanRuns p s.own.length := by
  intro zero files
  obtain ⟨m0, t0, e0, o0, c0⟩ := checked start_owns (hk.init zero)
  have o0 := o0.covered c0
  have key : ∀ (m : PMem), Owns m s → ∀ w, ∃ m', execAll (p.step w) m = .ok m' ∧ Owns m' s := by
    intro m hm w
    obtain ⟨m', t, e, o, c⟩ := checked hm (hk.step w)
    exact ⟨m', e, o.covered c⟩
  have main : ∀ (files : List StepFiles) (m0 : PMem), Owns m0 s → ∃ run : ℕ → PMem, run 0 = m0 ∧
      (∀ (k : ℕ) (h : k < files.length), execAll (p.step files[k]) (run k) = .ok (run (k + 1))) ∧ ∀ k ≤ files.length, Owns (run k) s := by
    intro files
    induction files with
    | nil => exact fun m hm => ⟨fun _ => m, rfl, fun k h => absurd h (Nat.not_lt_zero k), fun k _ => hm⟩
    | cons w files ih =>
      intro m hm
      obtain ⟨m', e, o⟩ := key m hm w
      obtain ⟨run, r0, r1, r2⟩ := ih m' o
      refine ⟨fun k => match k with
        | 0 => m
        | k + 1 => run k, rfl, ?_, ?_⟩
      · intro k hk
        cases k with
        | zero => exact e.trans (by rw [← r0])
        | succ k => exact r1 k (Nat.lt_of_succ_lt_succ hk)
      · intro k hk
        cases k with
        | zero => exact hm
        | succ k => exact r2 k (Nat.le_of_succ_le_succ hk)
  obtain ⟨run, r0, r1, r2⟩ := main files m0 o0
  obtain ⟨last, t, e, o, c⟩ := checked (r2 _ (Nat.le_refl _)) hk.destroy
  exact ⟨run, r0 ▸ e0, r1, fun k h => (r2 k h).atMost, last, e, o.nothing (List.isEmpty_iff.1 c)⟩

end PetIBM
