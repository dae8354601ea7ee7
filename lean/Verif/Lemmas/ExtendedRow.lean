/-
Values of the extended field next to an unknown.
-/
import Verif.Lemmas.Extended
import Verif.Lemmas.DivergenceRow
import Verif.Lemmas.MeshInit
import Verif.Lemmas.Widths
import Verif.Props.Boundary

set_option linter.unusedSectionVars false

namespace PetIBM

open Spec

variable {K : Type} [Field K] [LinearOrder K] [IsStrictOrderedRing K]
variable {L : Layout} {G : Geom K} {axes : ℕ → Axis K} {debug : Bool} {T : BCTable K} {B : ℕ → Boundary K}

theorem Spec.Constructed.pos (C : Constructed debug L G axes T B) (f d : ℕ) (hf : f < L.dim) (hd : d < 3) : 0 < L.n f d := by
  have := (C.part f d (Or.inl hf) hd).2
  omega

theorem Spec.Constructed.ghosts (C : Constructed debug L G axes T B) (h : List (Boundary.Op K)) :
    GhostsOK debug L G fun r => (B r).run h :=
  ghostsOK_run C.setup.layout C.table C.pos C.init h

/-- coefficient of the ghost equations after initialisation -/
def implicitPart (T : BCTable K) (f loc : ℕ) : K :=
  match (T f loc).1 with
  | .NEUMANN => 1
  | _ => if loc / 2 = f then 0 else -1

theorem Spec.Constructed.coeff (C : Constructed debug L G axes T B) {h : List (Boundary.Op K)} (hi : Initialised h) {r f loc : ℕ}
    (hr : r < L.mpiSize) {s : Stencil} {b : SingleBoundary K} {p : GhostPointInfo K}
    (hp : Point ((B r).run h) f loc s b p) : p.a0 = implicitPart T f loc :=
  C17_implicit_part_fixed debug L C.setup.layout G r T (B r) (C.init r hr) C.pos h hi f loc s b p hp

theorem Spec.Initialised.append {h : List (Boundary.Op K)} (hi : Initialised h) (h' : List (Boundary.Op K)) :
    Initialised (h ++ h') := by
  obtain ⟨u, t, rfl⟩ := hi
  exact ⟨u, t ++ h', rfl⟩

/-- Extended field next to an unknown, by side. -/
theorem Spec.Extended.at_side (hL : LayoutOK L) (hG : GhostsOK debug L G B) {q : ℤ → K} {V : ℕ → Stencil → K}
    (hV : Extended debug L B q V) {u : Unknown} (hu : IsUnknown L u) {loc : ℕ} (hloc : loc < L.dim * 2) :
    (L.periodic 0 (loc / 2) = false → AtSide L.toMeshInfo u.comp loc u.st →
      V u.comp (nbr loc u.st) = ghostA0 (B u.rank) u.comp loc (nbr loc u.st) * q (col L u.comp u.st) +
        ghostA1 (B u.rank) u.comp loc (nbr loc u.st)) ∧
    (¬ (L.periodic 0 (loc / 2) = false ∧ AtSide L.toMeshInfo u.comp loc u.st) →
      V u.comp (nbr loc u.st) = q (col L u.comp (nbr loc u.st))) := by
  have hd3 : L.dim ≤ 3 := by rcases hL.dim with h | h <;> omega
  have hself := (hV.stored u.comp hu.1).self hL (Or.inl hu.1) hu.inside
  constructor
  · intro hper hside
    obtain ⟨b, p, hp⟩ := hG.covered u.comp loc u hu rfl hloc hper hside
    obtain ⟨v, hv, _, hvc, hvt, hvs, hs, _, _⟩ := point_unknown hL hG hu.2.2.2.2.1 hp
    have hvi := hv.inside
    rw [hvc] at hvi
    obtain ⟨_, e⟩ := nbr_inj (by omega) (by omega) hu.inside hvi hside hs
    rw [hV.ghost u.rank u.comp loc _ b p hu.2.2.2.2.1 hp, ← hvt, ← e, hself]
    simp [ghostA0, ghostA1, ghostAt_of_point hp]
  · intro hw
    have hx := nbr_range (loc := loc) (by omega) hu.inside
    apply (hV.stored u.comp hu.1).value hL (Or.inl hu.1) hu.inside (by omega) hx
    intro hc
    apply hw
    have := (col_neighbour hL (Or.inl hu.1) debug hu.inside (d := loc / 2) (by omega) hx).2.2.1 hc
    refine ⟨this.1, ?_⟩
    have hb := hu.inside.1 (loc / 2) (by omega)
    have := this.2
    unfold AtSide
    split_ifs at this ⊢ <;> omega

theorem Spec.Constructed.a0_eq (C : Constructed debug L G axes T B) {h : List (Boundary.Op K)} (hi : Initialised h) {u : Unknown}
    (hu : IsUnknown L u) {loc : ℕ} (hloc : loc < L.dim * 2) (hper : L.periodic 0 (loc / 2) = false)
    (hside : AtSide L.toMeshInfo u.comp loc u.st) :
    ghostA0 ((B u.rank).run h) u.comp loc (nbr loc u.st) = implicitPart T u.comp loc := by
  obtain ⟨b, p, hp⟩ := (C.ghosts h).covered u.comp loc u hu rfl hloc hper hside
  rw [← C.coeff hi hu.2.2.2.2.1 hp]
  simp [ghostA0, ghostAt_of_point hp]

theorem lapW_pos (S : Setup L G axes) {f : ℕ} (hf : f < L.dim) {s : Stencil} (hs : Inside L.toMeshInfo f s) {loc : ℕ}
    (hloc : loc < L.dim * 2) : 0 < lapW G f loc s := by
  have h3 := S.dim_le
  have hx := hs.1 (loc / 2) (by omega)
  have hw := S.width_pos hf (d := loc / 2) (by omega) hx.1 hx.2
  unfold lapW
  apply one_div_pos.2
  apply mul_pos _ hw
  split_ifs
  · have := S.coord_lt f (loc / 2) hf (by omega) (coordOf s (loc / 2) - 1) (by omega) (by omega)
    rw [sub_add_cancel] at this
    linarith
  · have := S.coord_lt f (loc / 2) hf (by omega) (coordOf s (loc / 2)) (by omega) (by omega)
    linarith

/-- second differences by side -/
theorem secondDifference_sides (G : Geom K) (f dim : ℕ) (s : Stencil) (v : Stencil → K) :
    ∑ d ∈ Finset.range dim, secondDifference G f d s v =
      ∑ loc ∈ Finset.range (dim * 2), lapW G f loc s * (v (nbr loc s) - v s) := by
  rw [sum_range_two]
  apply Finset.sum_congr rfl
  intro d _
  unfold secondDifference lapW nbr shift
  rw [show 2 * d / 2 = d by omega, show (2 * d + 1) / 2 = d by omega, show 2 * d % 2 = 0 by omega,
    show (2 * d + 1) % 2 = 1 by omega]
  simp only [if_true, one_ne_zero, if_false, mul_inv, div_eq_mul_inv]
  ring

end PetIBM
