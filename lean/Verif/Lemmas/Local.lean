/-
Local vectors after the scatter and after copying the ghost values.
-/
import Verif.Model.Convection
import Verif.Lemmas.Extended
import Mathlib.Tactic.Ring
import Mathlib.Tactic.Linarith

set_option linter.unusedSectionVars false

namespace PetIBM

open Spec Layout

variable {K : Type} [Field K] {L : Layout} {G : Geom K} {debug : Bool} {B : ℕ → Boundary K}

/-- `s` is in the ghosted box of rank `r` -/
def InBox (L : Layout) (f r : ℕ) (s : Stencil) : Prop :=
  (∀ d, d < L.dim → (L.bg f r d : ℤ) - 1 ≤ coordOf s d ∧ coordOf s d ≤ L.ed f r d) ∧
  (L.dim ≤ 2 → s.k = 0) ∧ s.c = 0

theorem bg_le_ed (L : Layout) (f r d : ℕ) : L.bg f r d ≤ L.ed f r d := by unfold ed; omega

theorem localIndex_ok (hd : L.dim = 2 ∨ L.dim = 3) {f r : ℕ} {s : Stencil} (hs : InBox L f r s) :
    ∃ l, L.getLocalIndex f r s = .ok l ∧ 0 ≤ l ∧ localSlot L f r l = s := by
  obtain ⟨h1, h2, h3⟩ := hs
  have i0 := h1 0 (by omega)
  have i1 := h1 1 (by omega)
  simp only [coordOf, if_true, one_ne_zero, if_false] at i0 i1
  have e0 := bg_le_ed L f r 0
  have e1 := bg_le_ed L f r 1
  obtain ⟨k, j, i, c⟩ := s
  simp only at *
  set mx : ℤ := (L.ed f r 0 : ℤ) + 1 - ((L.bg f r 0 : ℤ) - 1) with hmx
  set my : ℤ := (L.ed f r 1 : ℤ) + 1 - ((L.bg f r 1 : ℤ) - 1) with hmy
  have key : ∀ kl : ℤ, 0 ≤ kl → 0 ≤ (kl * my + (j - ((L.bg f r 1 : ℤ) - 1))) * mx + (i - ((L.bg f r 0 : ℤ) - 1)) ∧
      ((kl * my + (j - ((L.bg f r 1 : ℤ) - 1))) * mx + (i - ((L.bg f r 0 : ℤ) - 1))) % mx = i - ((L.bg f r 0 : ℤ) - 1) ∧
      ((kl * my + (j - ((L.bg f r 1 : ℤ) - 1))) * mx + (i - ((L.bg f r 0 : ℤ) - 1))) / mx = kl * my + (j - ((L.bg f r 1 : ℤ) - 1)) ∧
      (kl * my + (j - ((L.bg f r 1 : ℤ) - 1))) % my = j - ((L.bg f r 1 : ℤ) - 1) ∧
      (kl * my + (j - ((L.bg f r 1 : ℤ) - 1))) / my = kl := by
    intro kl hk
    have a : 0 ≤ i - ((L.bg f r 0 : ℤ) - 1) ∧ i - ((L.bg f r 0 : ℤ) - 1) < mx := by omega
    have b : 0 ≤ j - ((L.bg f r 1 : ℤ) - 1) ∧ j - ((L.bg f r 1 : ℤ) - 1) < my := by omega
    have p1 : 0 ≤ kl * my := mul_nonneg hk (by omega)
    refine ⟨?_, ?_, ?_, ?_, ?_⟩
    · have : 0 ≤ (kl * my + (j - ((L.bg f r 1 : ℤ) - 1))) * mx := mul_nonneg (by omega) (by omega)
      omega
    · rw [add_comm, Int.add_mul_emod_self_right, Int.emod_eq_of_lt a.1 a.2]
    · rw [add_comm, Int.add_mul_ediv_right _ _ (by omega), Int.ediv_eq_zero_of_lt a.1 a.2, zero_add]
    · rw [add_comm, Int.add_mul_emod_self_right, Int.emod_eq_of_lt b.1 b.2]
    · rw [add_comm, Int.add_mul_ediv_right _ _ (by omega), Int.ediv_eq_zero_of_lt b.1 b.2, zero_add]
  rcases hd with hd | hd
  · have hk := h2 (by omega)
    subst hk h3
    obtain ⟨k0, k1, k2, k3, k4⟩ := key 0 le_rfl
    refine ⟨_, ?_, k0, ?_⟩
    · unfold getLocalIndex
      simp only
      rw [if_neg (by omega), if_neg (by omega), if_neg (by omega), if_neg (by omega)]
    · unfold localSlot
      simp only [← hmx, ← hmy]
      rw [k1, k2, k3, if_neg (by omega)]
      congr 1 <;> omega
  · have i2 := h1 2 (by omega)
    simp only [coordOf, show ¬ (2 = 0) by omega, show ¬ (2 = 1) by omega, if_false] at i2
    subst h3
    obtain ⟨k0, k1, k2, k3, k4⟩ := key (k - ((L.bg f r 2 : ℤ) - 1)) (by omega)
    refine ⟨_, ?_, k0, ?_⟩
    · unfold getLocalIndex
      simp only
      rw [if_neg (by omega), if_neg (by omega), if_neg (by omega), if_pos (by omega)]
    · unfold localSlot
      simp only [← hmx, ← hmy]
      rw [k1, k2, k3, k4, if_pos (by omega)]
      congr 1 <;> omega

theorem vecAssign_of_not_mem {y : ℤ → K} {ws : List (ℤ × K)} {l : ℤ} (h : ∀ w ∈ ws, w.1 ≠ l) : vecAssign y ws l = y l := by
  induction ws generalizing y with
  | nil => rfl
  | cons w ws ih =>
    unfold vecAssign
    rw [List.foldl_cons]
    have := ih (y := Function.update y w.1 w.2) fun w' hw' => h w' (List.mem_cons_of_mem _ hw')
    unfold vecAssign at this
    rw [this, Function.update_of_ne (Ne.symm (h w List.mem_cons_self))]

theorem vecAssign_of_mem {y : ℤ → K} {ws : List (ℤ × K)} {l : ℤ} {x : K} (hm : (l, x) ∈ ws)
    (h : ∀ w ∈ ws, w.1 = l → w.2 = x) : vecAssign y ws l = x := by
  induction ws generalizing y with
  | nil => simp at hm
  | cons w ws ih =>
    have e : vecAssign y (w :: ws) = vecAssign (Function.update y w.1 w.2) ws := rfl
    rw [e]
    by_cases hin : ∃ w' ∈ ws, w'.1 = l
    · obtain ⟨⟨a, b⟩, hw', rfl⟩ := hin
      have hb : b = x := h (a, b) (List.mem_cons_of_mem _ hw') rfl
      subst hb
      exact ih hw' fun w hw => h w (List.mem_cons_of_mem _ hw)
    · rw [vecAssign_of_not_mem fun w' hw' he => hin ⟨w', hw', he⟩]
      rcases List.mem_cons.1 hm with rfl | hm
      · simp
      · exact absurd ⟨_, hm, rfl⟩ hin

/-- the assignments of `copyValues2LocalVecs` -/
def copyList (l : List (SingleBoundary K)) : List (ℤ × K) :=
  l.flatMap fun b => (b.points.filter fun kp => decide (0 ≤ kp.2.lclId)).map fun kp => (kp.2.lclId, kp.2.value)

theorem copyValues_eq {B : Boundary K} {f : ℕ} {l : List (SingleBoundary K)} (h : B[f]? = some l) (v : ℕ → ℤ → K) :
    B.copyValues2LocalVecs v f = vecAssign (v f) (copyList l) := by
  unfold Boundary.copyValues2LocalVecs
  rw [h]
  simp only
  generalize v f = y
  clear h
  have single : ∀ (pts : GhostPointsList K) (y : ℤ → K),
      pts.foldl (fun v kp => if kp.2.lclId < 0 then v else Function.update v kp.2.lclId kp.2.value) y =
      vecAssign y ((pts.filter fun kp => decide (0 ≤ kp.2.lclId)).map fun kp => (kp.2.lclId, kp.2.value)) := by
    intro pts
    induction pts with
    | nil => intro y; rfl
    | cons a pts ih =>
      intro y
      rw [List.foldl_cons, ih]
      by_cases ha : a.2.lclId < 0
      · rw [if_pos ha, List.filter_cons_of_neg (by simpa using ha)]
      · rw [if_neg ha, List.filter_cons_of_pos (by simpa using ha)]
        rfl
  induction l generalizing y with
  | nil => rfl
  | cons b l ih =>
    rw [List.foldl_cons, ih]
    unfold SingleBoundary.copyValues2LocalVec
    rw [single]
    unfold copyList vecAssign
    rw [List.flatMap_cons, List.foldl_append]

/-- Content of a slot of the local vector. -/
theorem local_value (hL : LayoutOK L) (hG : GhostsOK debug L G B) {f r : ℕ} (hr : r < L.mpiSize) (hf : f < L.dim)
    {s : Stencil} (hs : InBox L f r s) (q : ℤ → K) (v : ℕ → ℕ → ℤ → K) :
    ∃ l, L.getLocalIndex f r s = .ok l ∧ localSlot L f r l = s ∧
      (∀ loc b p, Point (B r) f loc s b p → (∀ loc' b' p', Point (B r) f loc' s b' p' → p' = p) →
        convectionLocal L B q v r f l = p.value) ∧
      ((¬ ∃ loc b p, Point (B r) f loc s b p) → convectionLocal L B q v r f l = scatterLocal L f r q (v r f) l) := by
  obtain ⟨l, hl, hl0, hsl⟩ := localIndex_ok hL.dim hs
  obtain ⟨bs, hbs, hlen, hsorted⟩ := hG.shape r f hr hf
  have hmem : ∀ w ∈ copyList bs, w.1 = l → ∃ loc b p, Point (B r) f loc s b p ∧ w = (p.lclId, p.value) := by
    intro w hw hwl
    obtain ⟨b, hb, hw⟩ := List.mem_flatMap.1 hw
    obtain ⟨⟨t, p⟩, hp, rfl⟩ := List.mem_map.1 hw
    have hp := (List.mem_filter.1 hp).1
    obtain ⟨loc, hloc⟩ := List.getElem?_of_mem hb
    have hfind := (StencilMap.find_iff_mem (hsorted loc b hloc).1 t p).2 hp
    have hpt : Point (B r) f loc t b p := ⟨bs, hbs, hloc, hfind⟩
    have good := (hG.good r f loc t b p hr hpt).2.2
    have hbox : InBox L f r t := by
      obtain ⟨i, j, k, hts, ho⟩ := good.owns
      have ho := owns_iff.1 ho
      have hown : ∀ d, d < 3 → (L.bg f r d : ℤ) ≤ coordOf p.targetStencil d ∧ coordOf p.targetStencil d < L.ed f r d := by
        intro d hd
        rw [hts]
        interval_cases d <;> simp [coordOf] <;> omega
      have hd3 : L.dim ≤ 3 := by rcases hL.dim with h | h <;> omega
      have hlc := (hG.good r f loc t b p hr hpt).2.1
      obtain ⟨hn, hside⟩ := face_nbr (by omega) good.face good.across
      refine ⟨fun d hd => ?_, fun h2 => ?_, good.face.2.2⟩
      · have := hown d (by omega)
        rw [hn]; unfold nbr
        rw [coordOf_along _ _ _ _ (by omega) (by omega)]
        split_ifs with h1 h2
        · subst h1; omega
        · subst h1; omega
        · omega
      · have := good.face.2.1 2 (by omega) (by omega)
        have h1 := hL.flat (by rcases hL.dim with h | h <;> omega) f (by omega)
        rw [h1] at this
        simp only [coordOf] at this
        norm_num at this
        omega
    obtain ⟨l', hl', _, hsl'⟩ := localIndex_ok hL.dim hbox
    rw [good.localIdx] at hl'
    cases hl'
    simp only at hwl
    rw [hwl, hsl] at hsl'
    subst hsl'
    exact ⟨loc, b, p, hpt, rfl⟩
  refine ⟨l, hl, hsl, ?_, ?_⟩
  · intro loc b p hp huniq
    unfold convectionLocal
    rw [copyValues_eq hbs]
    have good := (hG.good r f loc s b p hr hp).2.2
    have hlid := good.localIdx
    rw [hl] at hlid
    cases hlid
    apply vecAssign_of_mem
    · obtain ⟨l', h1, h2, h3⟩ := hp
      rw [hbs] at h1; cases h1
      apply List.mem_flatMap.2
      refine ⟨b, List.mem_of_getElem? h2, List.mem_map.2 ⟨(s, p), List.mem_filter.2 ⟨?_, by simpa using hl0⟩, rfl⟩⟩
      exact (StencilMap.find_iff_mem (hsorted loc b h2).1 s p).1 h3
    · intro w hw hwl
      obtain ⟨loc', b', p', hp', rfl⟩ := hmem w hw hwl
      rw [huniq loc' b' p' hp']
  · intro hno
    unfold convectionLocal
    rw [copyValues_eq hbs, vecAssign_of_not_mem]
    intro w hw hwl
    obtain ⟨loc, b, p, hp, _⟩ := hmem w hw hwl
    exact hno ⟨loc, b, p, hp⟩

end PetIBM
