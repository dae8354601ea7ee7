/-
Ghost points registered on one process.
-/
import Verif.Lemmas.StdMap
import Verif.Spec.Boundary
import Verif.Props.Index
import Mathlib.Tactic.IntervalCases
import Mathlib.Tactic.Ring
import Mathlib.Tactic.LinearCombination
import Mathlib.Tactic.FieldSimp
import Mathlib.Algebra.Order.Ring.Rat
import Mathlib.Tactic.NormNum

namespace PetIBM

open Spec

variable {K : Type} [Field K]

theorem owns_iff {L : Layout} {f r i j k : ℕ} : Owns L f r i j k ↔
    (L.bg f r 0 ≤ i ∧ i < L.ed f r 0) ∧ (L.bg f r 1 ≤ j ∧ j < L.ed f r 1) ∧ (L.bg f r 2 ≤ k ∧ k < L.ed f r 2) := by
  have h : ∀ l p, startOf l p + sizeOf' l p = (l.take (p + 1)).sum := by
    intro l p; rw [sum_take_succ]; rfl
  simp only [Owns, Layout.ed, Layout.bg, Layout.m, h]
  rfl

theorem ed_le {L : Layout} (hL : LayoutOK L) {f : ℕ} (hf : f < L.dim ∨ f = 3) (r d : ℕ) (hd : d < 3) :
    L.ed f r d ≤ L.n f d := by
  rw [← hL.lines f d hf hd]
  unfold Layout.ed Layout.bg Layout.m startOf sizeOf'
  rw [← sum_take_succ]
  exact sum_take_le _ _

theorem stencil_ext {s t : Stencil} (h : ∀ d, d < 3 → coordOf s d = coordOf t d) (hc : s.c = t.c) : s = t := by
  have h0 := h 0 (by omega)
  have h1 := h 1 (by omega)
  have h2 := h 2 (by omega)
  simp [coordOf] at h0 h1 h2
  cases s; cases t; simp_all

theorem perpend_spec (loc : ℕ) (h : loc < 6) : ∃ p0 p1, getPerpendAxes (loc / 2) = .ok (p0, p1) ∧ p0 < 3 ∧ p1 < 3 ∧
    p0 < p1 ∧ p0 ≠ loc / 2 ∧ p1 ≠ loc / 2 ∧ ∀ d, d < 3 → d = loc / 2 ∨ d = p0 ∨ d = p1 := by
  interval_cases loc <;> refine ⟨_, _, rfl, ?_⟩ <;> simp <;> omega

theorem ghostTarget_spec (n : ℕ → ℕ) (loc : ℕ) (h : loc < 6) (p0 p1 : ℕ) (hp : getPerpendAxes (loc / 2) = .ok (p0, p1))
    (a b : ℤ) : ∃ g t, getGhostTargetStencil n loc a b = .ok (g, t) ∧
      coordOf g (loc / 2) = (if loc % 2 = 0 then -1 else (n (loc / 2) : ℤ)) ∧ coordOf g p0 = a ∧ coordOf g p1 = b ∧ g.c = 0 ∧
      coordOf t (loc / 2) = (if loc % 2 = 0 then 0 else (n (loc / 2) : ℤ) - 1) ∧ coordOf t p0 = a ∧ coordOf t p1 = b ∧
      t.c = 0 := by
  interval_cases loc <;> simp [getPerpendAxes] at hp <;> obtain ⟨rfl, rfl⟩ := hp <;>
    exact ⟨_, _, rfl, by simp [coordOf], by simp [coordOf], by simp [coordOf], rfl, by simp [coordOf],
      by simp [coordOf], by simp [coordOf], rfl⟩

/-- What a ghost record must contain. -/
structure GoodRecord (debug : Bool) (L : Layout) (G : Geom K) (f r loc : ℕ) (s : Stencil) (p : GhostPointInfo K) : Prop where
  face : OnFace L.toMeshInfo f loc s
  across : AcrossFace L.toMeshInfo f loc s p.targetStencil
  packed : L.getPackedGlobalIndex debug f p.targetStencil = .ok p.targetPackedId
  nonneg : 0 ≤ p.targetPackedId
  owns : ∃ i j k : ℕ, p.targetStencil = ⟨k, j, i, 0⟩ ∧ Owns L f r i j k
  localIdx : L.getLocalIndex f r s = .ok p.lclId
  area : p.area = faceArea G f (loc / 2) s
  dist : (if loc % 2 = 0 then -p.dL else p.dL) = signedDistance G f loc s p.targetStencil

theorem stencil_nat {t : Stencil} (h : ∀ d, d < 3 → 0 ≤ coordOf t d) (hc : t.c = 0) :
    t = ⟨((coordOf t 2).toNat : ℕ), ((coordOf t 1).toNat : ℕ), ((coordOf t 0).toNat : ℕ), 0⟩ := by
  apply stencil_ext
  · intro d hd
    interval_cases d <;> simp [coordOf]
    · exact h 0 (by omega)
    · exact h 1 (by omega)
    · exact h 2 (by omega)
  · simpa using hc

theorem ghostRecord_ok (debug : Bool) {L : Layout} (hL : LayoutOK L) (G : Geom K) (f r loc : ℕ) (hf : f < L.dim)
    (hloc : loc < L.dim * 2) (p0 p1 : ℕ) (hp : getPerpendAxes (loc / 2) = .ok (p0, p1))
    (hon : checkBoundaryProc L f r loc = .ok true) (a b : ℕ)
    (ha : L.bg f r p0 ≤ a ∧ a < L.ed f r p0) (hb : L.bg f r p1 ≤ b ∧ b < L.ed f r p1) :
    ∃ s p, ghostRecord debug L G f r loc p0 p1 a b = .ok (s, p) ∧ coordOf s p0 = a ∧ coordOf s p1 = b ∧
      GoodRecord debug L G f r loc s p := by
  have hd3 : L.dim ≤ 3 := by rcases hL.dim with h | h <;> omega
  have hl6 : loc < 6 := by omega
  obtain ⟨g, t, e, g1, g2, g3, g4, t1, t2, t3, t4⟩ := ghostTarget_spec (L.n f) loc hl6 p0 p1 hp a b
  obtain ⟨q0, q1, hq, q0l, q1l, q01, q0n, q1n, qall⟩ := perpend_spec loc hl6
  rw [hp] at hq
  simp only [Except.ok.injEq, Prod.mk.injEq] at hq
  obtain ⟨rfl, rfl⟩ := hq
  have hax : loc / 2 < 3 := by omega
  -- the line of the target is owned
  have hown : (L.bg f r (loc / 2) : ℤ) ≤ coordOf t (loc / 2) ∧ coordOf t (loc / 2) < L.ed f r (loc / 2) := by
    unfold checkBoundaryProc at hon
    rw [if_pos hl6] at hon
    simp only at hon
    split_ifs at hon <;> simp_all
  have hownd : ∀ d, d < 3 → (L.bg f r d : ℤ) ≤ coordOf t d ∧ coordOf t d < L.ed f r d := by
    intro d hd
    rcases qall d hd with rfl | rfl | rfl
    · exact hown
    · rw [t2]; omega
    · rw [t3]; omega
  have hn : ∀ d, d < 3 → (L.ed f r d : ℤ) ≤ L.n f d := fun d hd => by exact_mod_cast ed_le hL (Or.inl hf) r d hd
  have htn := stencil_nat (t := t) (fun d hd => by have := hownd d hd; omega) t4
  set i := (coordOf t 0).toNat with hi
  set j := (coordOf t 1).toNat with hj
  set k := (coordOf t 2).toNat with hk
  have o0 := hownd 0 (by omega)
  have o1 := hownd 1 (by omega)
  have o2 := hownd 2 (by omega)
  have ci : coordOf t 0 = i := by omega
  have cj : coordOf t 1 = j := by omega
  have ck : coordOf t 2 = k := by omega
  have hown' : Owns L f r i j k := by
    rw [owns_iff]; omega
  obtain ⟨x, hx, hx0⟩ := (C05_inside_stays_inside debug L hL f (Or.inl hf) i j k 0 (owns_inGrid hL (Or.inl hf) hown').1
    (owns_inGrid hL (Or.inl hf) hown').2.1 (owns_inGrid hL (Or.inl hf) hown').2.2).2.2
  have hpk : L.getPackedGlobalIndex debug f t = .ok x := by rw [htn]; exact hx
  have hgd : ∀ d, d < 3 → (L.bg f r d : ℤ) - 1 ≤ coordOf g d ∧ coordOf g d < (L.ed f r d : ℤ) + 1 := by
    intro d hd
    rcases qall d hd with rfl | rfl | rfl
    · have := hownd _ hd
      rw [g1]; rw [t1] at this
      split_ifs at this ⊢ <;> omega
    · rw [g2]; omega
    · rw [g3]; omega
  obtain ⟨y, hy⟩ : ∃ y, L.getLocalIndex f r g = .ok y := by
    unfold Layout.getLocalIndex
    have h0 := hgd 0 (by omega)
    have h1 := hgd 1 (by omega)
    have h2 := hgd 2 (by omega)
    simp only [coordOf] at h0 h1 h2
    norm_num at h0 h1 h2
    simp only
    rw [if_neg (by omega), if_neg (by omega), if_neg (by omega)]
    exact ⟨_, rfl⟩
  refine ⟨g, _, by unfold ghostRecord; rw [e]; simp only [bind, Except.bind]; rw [hpk]; simp only; rw [hy]; rfl, g2, g3, ?_⟩
  constructor
  · refine ⟨g1, ?_, g4⟩
    intro d hd hne
    rcases qall d hd with h | h | h
    · exact absurd h hne
    · have := hn d hd; subst h; rw [g2]; omega
    · have := hn d hd; subst h; rw [g3]; omega
  · refine ⟨t1, ?_, t4⟩
    intro d hd hne
    rcases qall d hd with h | h | h
    · exact absurd h hne
    · subst h; rw [t2, g2]
    · subst h; rw [t3, g3]
  · exact hpk
  · exact hx0
  · exact ⟨i, j, k, htn, hown'⟩
  · exact hy
  · simp only [faceArea]
    have : (List.range 3).filter (· ≠ loc / 2) = [p0, p1] := by
      clear_value i j k
      have : p0 < 3 := q0l
      interval_cases loc <;> simp [getPerpendAxes] at hp <;> obtain ⟨rfl, rfl⟩ := hp <;> decide
    rw [this]
    simp [g2, g3]
  · simp only [signedDistance, g1, t1]
    rcases Nat.mod_two_eq_zero_or_one loc with h | h
    · rw [if_pos h, if_pos h, if_pos h, if_neg (by omega)]; ring
    · have h' : ¬ loc % 2 = 0 := by omega
      have h'' : loc = 1 ∨ loc = 3 ∨ loc = 5 := by omega
      rw [if_neg h', if_neg h', if_neg h', if_pos h'']

theorem mapM_except_spec {α β ε : Type} (g : α → Except ε β) (l : List α) (h : ∀ x ∈ l, ∃ y, g x = .ok y) :
    ∃ ys, l.mapM g = .ok ys ∧ (∀ y, y ∈ ys ↔ ∃ x ∈ l, g x = .ok y) ∧
      (∀ γ : Type, ∀ φ : β → γ, (∀ x ∈ l, ∀ y ∈ l, ∀ u v, g x = .ok u → g y = .ok v → φ u = φ v → x = y) → l.Nodup →
        (ys.map φ).Nodup) := by
  induction l with
  | nil => exact ⟨[], rfl, by simp, by simp⟩
  | cons a l ih =>
    obtain ⟨y, hy⟩ := h a (by simp)
    obtain ⟨ys, h1, h2, h3⟩ := ih fun x hx => h x (by simp [hx])
    refine ⟨y :: ys, ?_, ?_, ?_⟩
    · rw [List.mapM_cons, hy]
      simp only [bind, Except.bind]
      rw [h1]; rfl
    · intro z
      simp only [List.mem_cons, h2, exists_eq_or_imp, hy, Except.ok.injEq]
      exact or_congr_left ⟨fun h => h.symm, fun h => h.symm⟩
    · intro γ φ hφ hn
      rw [List.nodup_cons] at hn
      rw [List.map_cons, List.nodup_cons]
      refine ⟨?_, h3 γ φ (fun x hx y hy => hφ x (by simp [hx]) y (by simp [hy])) hn.2⟩
      intro hmem
      obtain ⟨z, hz, hzy⟩ := List.mem_map.1 hmem
      obtain ⟨x, hx, hxz⟩ := (h2 z).1 hz
      have := hφ x (by simp [hx]) a (by simp) z y hxz hy hzy
      subst this
      exact hn.1 hx

theorem getGhostPointList_spec (debug : Bool) {L : Layout} (hL : LayoutOK L) (G : Geom K) (f r loc : ℕ) (hf : f < L.dim)
    (hloc : loc < L.dim * 2) (hon : checkBoundaryProc L f r loc = .ok true) :
    ∃ pts, getGhostPointList debug L G f r loc = .ok pts ∧ StencilMap.Sorted pts ∧
      (∀ s p, (s, p) ∈ pts → GoodRecord debug L G f r loc s p) ∧
      ∀ s, OnFace L.toMeshInfo f loc s →
        (∀ d, d < 3 → d ≠ loc / 2 → (L.bg f r d : ℤ) ≤ coordOf s d ∧ coordOf s d < L.ed f r d) → ∃ p, (s, p) ∈ pts := by
  have hd3 : L.dim ≤ 3 := by rcases hL.dim with h | h <;> omega
  have hl6 : loc < 6 := by omega
  obtain ⟨p0, p1, hp, q0l, q1l, q01, q0n, q1n, qall⟩ := perpend_spec loc hl6
  set pairs := (List.range' (L.bg f r p1) (L.m f r p1)).flatMap fun b =>
    (List.range' (L.bg f r p0) (L.m f r p0)).map fun a => (a, b) with hpairs
  have hmem : ∀ a b, (a, b) ∈ pairs ↔ (L.bg f r p0 ≤ a ∧ a < L.ed f r p0) ∧ (L.bg f r p1 ≤ b ∧ b < L.ed f r p1) := by
    intro a b
    simp only [hpairs, List.mem_flatMap, List.mem_map, List.mem_range'_1, Prod.mk.injEq]
    constructor
    · rintro ⟨b', hb', a', ha', rfl, rfl⟩; exact ⟨ha', hb'⟩
    · rintro ⟨ha, hb⟩; exact ⟨b, hb, a, ha, rfl, rfl⟩
  have hnd : pairs.Nodup := by
    rw [hpairs, List.nodup_flatMap]
    constructor
    · intro b _
      exact List.Nodup.map (fun a a' h => (Prod.mk.inj h).1) List.nodup_range'
    · refine List.Pairwise.imp ?_ (List.nodup_range' (s := L.bg f r p1) (n := L.m f r p1))
      intro b b' hne x hx hx'
      obtain ⟨_, _, rfl⟩ := List.mem_map.1 hx
      obtain ⟨_, _, h⟩ := List.mem_map.1 hx'
      exact hne (Prod.mk.inj h).2.symm
  have hrec : ∀ ab ∈ pairs, ∃ s p, ghostRecord debug L G f r loc p0 p1 ab.1 ab.2 = .ok (s, p) ∧ coordOf s p0 = ab.1 ∧
      coordOf s p1 = ab.2 ∧ GoodRecord debug L G f r loc s p := by
    rintro ⟨a, b⟩ hab
    obtain ⟨ha, hb⟩ := (hmem a b).1 hab
    exact ghostRecord_ok debug hL G f r loc hf hloc p0 p1 hp hon a b ha hb
  obtain ⟨recs, h1, h2, h3⟩ := mapM_except_spec (fun ab : ℕ × ℕ => ghostRecord debug L G f r loc p0 p1 ab.1 ab.2) pairs
    (fun ab hab => by obtain ⟨s, p, h, _⟩ := hrec ab hab; exact ⟨_, h⟩)
  have hkeys : (recs.map (·.1)).Nodup := by
    apply h3 _ _ _ hnd
    rintro ⟨a, b⟩ hx ⟨a', b'⟩ hy u v hu hv huv
    obtain ⟨s, p, h, e0, e1, _⟩ := hrec _ hx
    obtain ⟨s', p', h', e0', e1', _⟩ := hrec _ hy
    rw [hu] at h; rw [hv] at h'
    cases h; cases h'
    simp only at huv e0 e1 e0' e1'
    subst huv
    rw [Prod.mk.injEq]; omega
  refine ⟨StencilMap.ofAssignments recs, ?_, StencilMap.sorted_ofAssignments _, ?_, ?_⟩
  · unfold getGhostPointList
    rw [hp]
    simp only [bind, Except.bind]
    rw [← hpairs, h1]; rfl
  · intro s p hsp
    rw [StencilMap.mem_ofAssignments hkeys, h2] at hsp
    obtain ⟨ab, hab, h⟩ := hsp
    obtain ⟨s', p', h', _, _, good⟩ := hrec ab hab
    rw [h] at h'; cases h'
    exact good
  · intro s hs hrange
    have r0 := hrange p0 q0l q0n
    have r1 := hrange p1 q1l q1n
    have hab : ((coordOf s p0).toNat, (coordOf s p1).toNat) ∈ pairs := by rw [hmem]; omega
    obtain ⟨s', p', h', e0, e1, good⟩ := hrec _ hab
    have : s' = s := by
      apply stencil_ext
      · intro d hd
        rcases qall d hd with rfl | rfl | rfl
        · rw [good.face.1, hs.1]
        · rw [e0]; omega
        · rw [e1]; omega
      · rw [good.face.2.2, hs.2.2]
    subst this
    refine ⟨p', ?_⟩
    rw [StencilMap.mem_ofAssignments hkeys, h2]
    exact ⟨_, hab, h'⟩

end PetIBM
