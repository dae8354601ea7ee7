/-
Rows of the divergence in terms of the extended field.
-/
import Verif.Lemmas.ExtendedRow
import Verif.Lemmas.Gradient

set_option linter.unusedSectionVars false

namespace PetIBM

open Spec

variable {K : Type} [Field K] [LinearOrder K] [IsStrictOrderedRing K]
variable {L : Layout} {G : Geom K} {axes : ℕ → Axis K} {debug : Bool} {T : BCTable K} {B : ℕ → Boundary K}

/-- every pressure point is the stencil of a cell -/
theorem exists_cell (hL : LayoutOK L) {s : Stencil} (hs : Inside L.toMeshInfo 3 s) : ∃ c, IsCell L c ∧ cellSt c = s := by
  obtain ⟨i, j, k, rfl, hi, hj, hk⟩ := hs.nat
  obtain ⟨r, hr, ho⟩ := exists_owner hL (Or.inr rfl) hi hj hk
  exact ⟨(r, i, j, k), ⟨hr, ho⟩, rfl⟩

/-- implicit part of the ghost equation next to an unknown -/
theorem ghost_implicit (hL : LayoutOK L) (hG : GhostsOK debug L G B) {u : Unknown} (hu : IsUnknown L u) {loc : ℕ}
    (hloc : loc < L.dim * 2) (hper : L.periodic 0 (loc / 2) = false) (hside : AtSide L.toMeshInfo u.comp loc u.st) (q : ℤ → K) :
    ((ghostAt (B u.rank) u.comp loc (nbr loc u.st)).map fun p => p.a0 * q p.targetPackedId).getD 0 =
      ghostA0 (B u.rank) u.comp loc (nbr loc u.st) * q (col L u.comp u.st) := by
  have hd3 : L.dim ≤ 3 := by rcases hL.dim with h | h <;> omega
  obtain ⟨b, p, hp⟩ := hG.covered u.comp loc u hu rfl hloc hper hside
  obtain ⟨v, hv, _, hvc, hvt, hvs, hs, _, _⟩ := point_unknown hL hG hu.2.2.2.2.1 hp
  have hvi := hv.inside
  rw [hvc] at hvi
  obtain ⟨_, e⟩ := nbr_inj (by omega) (by omega) hu.inside hvi hside hs
  rw [ghostA0, ghostAt_of_point hp]
  simp only [Option.map_some, Option.getD_some]
  rw [(target_inside hL hG hu.2.2.2.2.1 hp).2, ← hvt, ← e]

/-- Value of the extended field on the two faces of a cell. -/
theorem face_values (C : Constructed debug L G axes T B) {h h' : List (Boundary.Op K)} (hi : Initialised h) {q : ℤ → K}
    {V : ℕ → Stencil → K} (hV : Extended debug L (fun r => (B r).run (h ++ h')) q V) {c : ℕ × ℕ × ℕ × ℕ} (hc : IsCell L c)
    {f : ℕ} (hf : f < L.dim) :
    V f (cellSt c) = (if col L f (cellSt c) = -1 then
        ((ghostAt ((B c.1).run h) f (2 * f + 1) (cellSt c)).map fun p => p.a0 * q p.targetPackedId).getD 0
        else q (col L f (cellSt c))) +
      (if col L f (cellSt c) = -1 then ghostA1 ((B c.1).run (h ++ h')) f (2 * f + 1) (cellSt c) else 0) ∧
    V f (nbr (2 * f) (cellSt c)) = (if col L f (nbr (2 * f) (cellSt c)) = -1 then
        ((ghostAt ((B c.1).run h) f (2 * f) (nbr (2 * f) (cellSt c))).map fun p => p.a0 * q p.targetPackedId).getD 0
        else q (col L f (nbr (2 * f) (cellSt c)))) +
      (if col L f (nbr (2 * f) (cellSt c)) = -1 then ghostA1 ((B c.1).run (h ++ h')) f (2 * f) (nbr (2 * f) (cellSt c)) else 0) := by
  have S := C.setup
  have hL := S.layout
  have h3 := S.dim_le
  have hin := hc.inside hL
  have hpos := C.pos f f hf (by omega)
  obtain ⟨base, hbase, e1, e2, h0, hle, _, a1, a2, _, b1, b2⟩ := face_cols S debug hf hpos hin
  obtain ⟨fi1, fi2⟩ := face_inside S hf hpos hin
  constructor
  · split_ifs with hcol
    · obtain ⟨hper, hx⟩ := a2.1 hcol
      obtain ⟨u, hu, rfl, hur, hside, hnb⟩ := cell_unknown S C.part hc (loc := 2 * f + 1) hf (by omega) hper
        (by rw [if_neg (by omega)]; exact hx)
      rw [if_neg (by omega)] at hnb
      have hloc : 2 * u.comp + 1 < L.dim * 2 := by omega
      have hper' : L.periodic 0 ((2 * u.comp + 1) / 2) = false := by rwa [show (2 * u.comp + 1) / 2 = u.comp by omega]
      rw [← hnb, ← hur, ghost_implicit hL (C.ghosts h) hu hloc hper' hside,
        (hV.at_side hL (C.ghosts (h ++ h')) hu hloc).1 hper' hside,
        C.a0_eq hi hu hloc hper' hside, C.a0_eq (hi.append h') hu hloc hper' hside]
    · rw [add_zero]
      exact (hV.stored f hf).self hL (Or.inl hf) (fi1 hcol)
  · split_ifs with hcol
    · obtain ⟨hper, hx⟩ := b2.1 hcol
      obtain ⟨u, hu, rfl, hur, hside, hnb⟩ := cell_unknown S C.part hc (loc := 2 * f) hf (by omega) hper
        (by rw [if_pos (by omega)]; exact hx)
      rw [if_pos (by omega)] at hnb
      have hloc : 2 * u.comp < L.dim * 2 := by omega
      have hper' : L.periodic 0 (2 * u.comp / 2) = false := by rwa [show 2 * u.comp / 2 = u.comp by omega]
      rw [← hnb, ← hur, ghost_implicit hL (C.ghosts h) hu hloc hper' hside,
        (hV.at_side hL (C.ghosts (h ++ h')) hu hloc).1 hper' hside,
        C.a0_eq hi hu hloc hper' hside, C.a0_eq (hi.append h') hu hloc hper' hside]
    · rw [add_zero]
      rw [e2] at hcol ⊢
      exact (hV.stored f hf).value hL (Or.inl hf) hbase hf (by omega) hcol

/-- A normal ghost equation without implicit part contributes nothing to the matrix. -/
theorem ghost_explicit (C : Constructed debug L G axes T B) {h : List (Boundary.Op K)} (hi : Initialised h) {r f loc : ℕ}
    (hr : r < L.mpiSize) (h0 : implicitPart T f loc = 0) (s : Stencil) (q : ℤ → K) :
    ((ghostAt ((B r).run h) f loc s).map fun p => p.a0 * q p.targetPackedId).getD 0 = 0 := by
  rcases hg : ghostAt ((B r).run h) f loc s with _ | p
  · rfl
  · have : ∃ b, Point ((B r).run h) f loc s b p := by
      unfold ghostAt at hg
      rcases h1 : ((B r).run h)[f]? with _ | l
      · rw [h1] at hg; cases hg
      · rw [h1] at hg
        simp only [Option.bind_some] at hg
        rcases h2 : l[loc]? with _ | b
        · rw [h2] at hg; cases hg
        · rw [h2] at hg
          exact ⟨b, l, h1, h2, hg⟩
    obtain ⟨b, hp⟩ := this
    simp [C.coeff hi hr hp, h0]

/-- Faces of cells and cells beside faces. -/
theorem face_of_cell (S : Setup L G axes) {f : ℕ} (hf : f < L.dim) {s t : Stencil}
    (hs : Inside L.toMeshInfo 3 s) (ht : Inside L.toMeshInfo f t) :
    (col L f s = col L f t ↔ col L 3 t = col L 3 s) ∧
    (col L f (nbr (2 * f) s) = col L f t ↔ col L 3 (along t f (coordOf t f + 1)) = col L 3 s) ∧
    ((col L f s = col L f t ∨ col L f (nbr (2 * f) s) = col L f t) → ∃ x : ℤ, s = along t f x) := by
  have hL := S.layout
  have h3 := S.dim_le
  have hn : 0 < L.n f f := by have := ht.1 f (by omega); omega
  have ht3 := S.inside_pressure hf ht
  have ht0 := (col_inside hL (Or.inl hf) false ht).2.1
  have hs0 := (col_inside hL (Or.inr rfl) false hs).2.1
  have hxt := ht.1 f (by omega)
  have hxs := hs.1 f (by omega)
  obtain ⟨_, n2, n3⟩ := S.staggered f hf
  obtain ⟨fi1, fi2⟩ := face_inside S hf hn hs
  have hnb : nbr (2 * f) s = along s f (coordOf s f - 1) := by
    unfold nbr; rw [show 2 * f / 2 = f by omega, if_pos (by omega), sub_eq_add_neg]
  have ha : col L f s = col L f t → s = t := fun h => (col_inj hL hf hf (fi1 (by omega)) ht h).2
  have hb : col L f (nbr (2 * f) s) = col L f t → ∃ y : ℤ, along s f y = t ∧ (y = coordOf s f - 1 ∨
        (L.periodic 0 f = true ∧ coordOf s f = 0 ∧ y = L.n f f - 1)) := by
    intro h
    obtain ⟨y, hy, hyc, hy'⟩ := fi2 (by omega)
    exact ⟨y, (col_inj hL hf hf hy ht (by rw [← hyc, h])).2, hy'⟩
  have hs_of : ∀ y : ℤ, along s f y = t → s = along t f (coordOf s f) ∧ coordOf t f = y := by
    rintro y rfl
    rw [along_along, along_self _ _ (by omega), coordOf_along _ _ _ _ (by omega) (by omega), if_pos rfl]
    exact ⟨rfl, rfl⟩
  refine ⟨⟨fun h => by rw [ha h], fun h => by rw [col_inj_pressure hL ht3 hs h]⟩, ⟨?_, ?_⟩, ?_⟩
  · intro h
    obtain ⟨y, hy, hy'⟩ := hb h
    obtain ⟨e, e'⟩ := hs_of y hy
    rcases hy' with hy' | ⟨hp, hz, hy'⟩
    · rw [show coordOf t f + 1 = coordOf s f by omega, ← e]
    · have := n2 hp
      have e2 : coordOf t f + 1 = L.n 3 f := by omega
      obtain ⟨_, e3, _⟩ := col_periodic hL (Or.inr rfl) false ht3 (d := f) (by omega) hp (x := L.n 3 f) (Or.inr rfl)
      rw [e2, e3, Int.emod_self]
      rw [hz] at e
      rw [← e]
  · intro h
    by_cases hlt : coordOf t f + 1 < L.n 3 f
    · have hi := ht3.along f (by omega) (coordOf t f + 1) (by omega)
      have e := col_inj_pressure hL hi hs h
      rw [hnb, ← e, along_along, coordOf_along _ _ _ _ (by omega) (by omega), if_pos rfl, add_sub_cancel_right,
        along_self _ _ (by omega)]
    · have hp : L.periodic 0 f = true := by
        cases hp : L.periodic 0 f with
        | true => rfl
        | false => have := n3 hp; omega
      have := n2 hp
      have e2 : coordOf t f + 1 = L.n 3 f := by omega
      obtain ⟨_, e3, e4⟩ := col_periodic hL (Or.inr rfl) false ht3 (d := f) (by omega) hp (x := L.n 3 f) (Or.inr rfl)
      rw [e2, e3] at h
      have e := col_inj_pressure hL e4 hs h
      rw [Int.emod_self] at e
      rw [hnb, ← e, along_along, coordOf_along _ _ _ _ (by omega) (by omega), if_pos rfl, zero_sub]
      obtain ⟨_, e5, _⟩ := col_periodic hL (Or.inl hf) false ht (d := f) (by omega) hp (x := -1) (Or.inl rfl)
      rw [e5, emod_near (by omega) (by omega) (by omega), if_pos rfl, show (L.n f f : ℤ) - 1 = coordOf t f by omega,
        along_self _ _ (by omega)]
  · rintro (h | h)
    · exact ⟨coordOf t f, by rw [ha h, along_self _ _ (by omega)]⟩
    · obtain ⟨y, hy, _⟩ := hb h
      exact ⟨_, (hs_of y hy).1⟩

end PetIBM
