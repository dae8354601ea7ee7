/-
Properties C24, C52 and C58: the convection operator.
-/
import Verif.Lemmas.ConvectionRun
import Verif.Spec.Convection
import Verif.Props.MeshInit
import Verif.Props.Laplacian
import Mathlib.Tactic.FieldSimp

set_option linter.unusedSectionVars false

namespace PetIBM

open Spec

variable {K : Type} [Field K] [LinearOrder K] [IsStrictOrderedRing K]
variable {L : Layout} {G : Geom K} {axes : ℕ → Axis K} {debug : Bool} {T : BCTable K} {B : ℕ → Boundary K}

/-! ### C52 -/

/-- C52, convection part. On every mesh and for every number of processes, the convection operator reads only entries of the
local arrays (an access outside is the error `ub` of the model), whatever the state of the boundary objects, the local
vectors and the velocity. -/
theorem C52_convection_in_bounds (C : Constructed debug L G axes T B) (B' : ℕ → Boundary K) (v : ℕ → ℕ → ℤ → K) (q y : ℤ → K) :
    ∃ z, convectionMult L G B' v q y = .ok z := by
  obtain ⟨z, hz, _⟩ := convectionMult_spec (B := B') C.setup C.part q y v
  exact ⟨z, hz⟩

example : ∃ B, Constructed true (exampleChannel 3) exampleChannelGeom exampleAxes exampleChannelTable B := exampleChannel_constructed

/-- The theorem depends on the distribution: with lines given out differently for the components, the operator reads
outside the local array. -/
example : (match convectionMult { exampleWalls 2 1 with own := fun f d => if d = 0 then (if f = 0 then [1, 1] else [3, 0]) else
      if d = 1 then [(exampleWalls 2 1).n f 1] else [1] }
    exampleWallsGeom (fun _ => []) (fun _ _ _ => 0) (fun _ => 1) (fun _ => 0) with | .error .ub => true | _ => false) = true := by
  decide +kernel

/-! ### C58 -/

theorem Spec.SeesWalls.lines {r f : ℕ} {s : Stencil} (hf : f < 3) (h : SeesWalls L r f s) : SeesWallLines L r f s := by
  intro d hd hne hp hw
  obtain ⟨u, hu, hr, hc, e⟩ := h d hd hne hp hw 0 (Or.inl rfl)
  obtain ⟨u', hu', hr', hc', e'⟩ := h d hd hne hp hw 1 (Or.inr rfl)
  have a := hu.ownsAt.1 f hf
  have a' := hu'.ownsAt.1 f hf
  unfold Unknown.st at a a'
  rw [e, hr, hc] at a
  rw [e', hr', hc'] at a'
  omega

/-- C58. The convective term of a point is the conservative difference of the velocity, of the wall values in the boundary
objects and of the periodic images, whatever was in the local vectors before. Missing: points next to a wall of another
component at the end of the lines that the process owns, see `C58_false_periodic_seam`. -/
theorem C58_convection_value_partial (C : Constructed debug L G axes T B) (h : List (Boundary.Op K)) (v : ℕ → ℕ → ℤ → K)
    (q y : ℤ → K) :
    ∃ z, convectionMult L G (fun r => (B r).run h) v q y = .ok z ∧ (∃ V, Filled debug L (fun r => (B r).run h) q V) ∧
      ∀ V, Filled debug L (fun r => (B r).run h) q V → ∀ u idx, IsUnknown L u → SeesWalls L u.rank u.comp ⟨u.k, u.j, u.i, 0⟩ →
        L.getPackedGlobalIndex debug u.comp ⟨u.k, u.j, u.i, 0⟩ = .ok idx →
        z idx = convective L.dim G V u.comp ⟨u.k, u.j, u.i, 0⟩ := by
  have S := C.setup
  obtain ⟨z, hz, hv⟩ := convectionMult_spec (B := fun r => (B r).run h) S C.part q y v
  refine ⟨z, hz, exists_filled S C.part (C.ghosts h) q, ?_⟩
  intro V hV u idx hu hs hi
  have e := (col_inside S.layout (Or.inl hu.1) debug hu.inside).1
  have hi : L.getPackedGlobalIndex debug u.comp u.st = .ok idx := hi
  rw [e] at hi; cases hi
  have h1 := hv u hu
  rw [kernel_value S C.part (C.ghosts h) hV v hu.1 hu.2.2.2.2.1 hu.inside hu.ownsAt
    (hs.lines (by have := S.dim_le; have := hu.1; omega))] at h1
  exact (Except.ok.inj h1).symm

/-- Walls all around, one process: all points are covered. -/
theorem seesWalls_single (C : Constructed debug L G axes T B) {u : Unknown} (hu : IsUnknown L u)
    (h : (∀ d, d < L.dim → d ≠ u.comp → L.periodic 0 d = true) ∨ L.nProc u.comp = 1 ∧ L.periodic 0 u.comp = false) :
    SeesWallLines L u.rank u.comp u.st := by
  intro d hd hne hp hw
  have h3 := C.setup.dim_le
  have hf := hu.1
  rcases h with h | ⟨h1, h2⟩
  · rw [h d hd hne] at hp; cases hp
  · have hin := hu.inside.1 u.comp (by omega)
    have e1 := (C.setup.staggered d hd).1 u.comp (by omega) (Ne.symm hne)
    have e2 := (C.setup.staggered u.comp hf).2.2 h2
    have hcl := column_lt hu.2.2.2.2.1 (show u.comp < 3 by omega)
    have b := first_column C.part (f := d) (Or.inl hd) hu.2.2.2.2.1 (show u.comp < 3 by omega) (by omega)
    have c := last_column C.part (f := d) (Or.inl hd) hu.2.2.2.2.1 (show u.comp < 3 by omega) (by omega)
    omega

/-- What a process has, in terms of the boundary objects. -/
theorem sees_iff (C : Constructed debug L G axes T B) (h : List (Boundary.Op K)) {r g : ℕ} (hg : g < L.dim) (hr : r < L.mpiSize) {t : Stencil} :
    Sees L r g t ↔ Inside L.toMeshInfo g (wrapPeriodic L g t) ∨ ∃ loc b p, Point ((B r).run h) g loc t b p := by
  have S := C.setup
  have hL := S.layout
  have h3 := S.dim_le
  have hper : ∀ d, d < L.dim → L.periodic d d = L.periodic 0 d := fun d hd => S.periodic d d hd (by omega)
  have hG := C.ghosts h
  constructor
  · rintro (⟨hc, s, hs, e⟩ | ⟨u, hu, rfl, rfl, loc, hl, hp, hf, ha⟩)
    · left
      refine ⟨fun d hd => ?_, hc⟩
      rw [wrapPeriodic_eq hper g t hd]
      have hsd := hs.1 d hd
      rcases e d hd with e | ⟨e1, e2, x, e3⟩
      · rw [e]
        split_ifs
        · rw [Int.emod_eq_of_lt hsd.1 hsd.2]; exact hsd
        · exact hsd
      · rw [if_pos ⟨e1, e2⟩]
        exact ⟨Int.emod_nonneg _ (by omega), Int.emod_lt_of_pos _ (by omega)⟩
    · right
      obtain ⟨b, p, hp⟩ := hG.covered u.comp loc u hu rfl hl hp (by unfold AtSide; exact ha.1)
      have e : t = nbr loc u.st := (face_nbr (by omega) hf ha).1
      rw [← e] at hp
      exact ⟨_, _, _, hp⟩
  · rintro (hi | ⟨loc, b, p, hp⟩)
    · left
      refine ⟨hi.2, _, hi, fun d hd => ?_⟩
      rw [wrapPeriodic_eq hper g t hd]
      split_ifs with hh
      · exact Or.inr ⟨hh.1, hh.2, Int.dvd_self_sub_emod⟩
      · exact Or.inl rfl
    · right
      obtain ⟨_, hl, good⟩ := hG.good r g loc t b p hr hp
      obtain ⟨i, j, k, ht, ho⟩ := good.owns
      have hin := owns_inGrid hL (Or.inl hg) ho
      refine ⟨⟨r, g, i, j, k⟩, ⟨hg, hin.1, hin.2.1, hin.2.2, hr, ho⟩, rfl, rfl, loc, hl, hG.periodic r g loc t b p hr hp, good.face, ?_⟩
      have := good.across
      rw [ht] at this
      exact this

/-- C58, without exception: the convective term of a point is the conservative difference of the field as its process has it. The
local vectors begin with zeros (they are never written where the process has no value). -/
theorem C58_convection_of_seen (C : Constructed debug L G axes T B) (h : List (Boundary.Op K)) (q y : ℤ → K) :
    ∃ z, convectionMult L G (fun r => (B r).run h) (fun _ _ _ => 0) q y = .ok z ∧
      ∀ V, Filled debug L (fun r => (B r).run h) q V → ∀ u idx, IsUnknown L u →
        L.getPackedGlobalIndex debug u.comp ⟨u.k, u.j, u.i, 0⟩ = .ok idx →
        z idx = convective L.dim G (seenBy L u.rank V) u.comp ⟨u.k, u.j, u.i, 0⟩ := by
  have S := C.setup
  have hL := S.layout
  obtain ⟨z, hz, hv⟩ := convectionMult_spec (B := fun r => (B r).run h) S C.part q y fun _ _ _ => 0
  refine ⟨z, hz, fun V hV u idx hu hi => ?_⟩
  have e := (col_inside S.layout (Or.inl hu.1) debug hu.inside).1
  have hi : L.getPackedGlobalIndex debug u.comp u.st = .ok idx := hi
  rw [e] at hi; cases hi
  have h1 := hv u hu
  have hs := hu.inside
  have hr := hu.2.2.2.2.1
  have hf := hu.1
  have key : convectionKernel L.dim G (fun g => readLocal L g u.rank (convectionLocal L (fun r => (B r).run h) q (fun _ _ _ => 0) u.rank g))
      u.comp u.st.i u.st.j u.st.k = .ok (convective L.dim G (seenBy L u.rank V) u.comp u.st) := by
    apply convectionKernel_eq hL.dim G _ _ hu.1 u.st hs.2
    · intro h2
      have := hs.1 2 (by omega)
      rw [hL.flat h2 u.comp (by omega)] at this
      simp only [coordOf] at this
      norm_num at this
      omega
    · intro g t hread
      have hg := hread.comp_lt hu.1
      have hb := reads_inBox S C.part hu.1 hr hs hu.ownsAt hread
      by_cases hsee : Sees L u.rank g t
      · rw [read_filled S (C.ghosts h) hV _ hg hr hb ((sees_iff C h hg hr).1 hsee)]
        unfold seenBy
        rw [if_pos hsee]
      · have hn := mt (sees_iff C h hg hr).2 hsee
        rw [not_or] at hn
        obtain ⟨l, hl, hsl, -, h2⟩ := local_value hL (C.ghosts h) hr hg hb q fun _ _ _ => 0
        have e : (⟨t.k, t.j, t.i, 0⟩ : Stencil) = t := by rw [← hb.2.2]
        unfold readLocal
        rw [e, hl]
        simp only
        rw [h2 hn.2]
        unfold seenBy scatterLocal
        rw [if_neg hsee]
        simp only
        rw [hsl, if_neg]
        rintro ⟨a0, a1, a2⟩
        refine hn.1 ⟨fun d hd => ?_, hb.2.2⟩
        interval_cases d
        · exact a0
        · exact a1
        · exact a2
  rw [key] at h1
  exact (Except.ok.inj h1).symm

/-- the convective term depends only on the values that the kernels read -/
theorem convective_reads {dim : ℕ} (hd : dim = 2 ∨ dim = 3) (G : Geom K) {f : ℕ} (hf : f < dim) (s : Stencil) {V W : ℕ → Stencil → K}
    (h : ∀ g t, Reads dim f s g t → V g t = W g t) : convective dim G V f s = convective dim G W f s := by
  unfold convective
  apply Finset.sum_congr rfl
  intro d hdm
  have hdm := Finset.mem_range.1 hdm
  have back : shift (shift s d (-1)) d 1 = s := by
    unfold shift along coordOf
    have : d < 3 := by omega
    interval_cases d <;> simp
  have f0 := h f s (Or.inl ⟨rfl, Or.inl rfl⟩)
  have f1 := h f (shift s d 1) (Or.inl ⟨rfl, Or.inr ⟨d, hdm, Or.inl rfl⟩⟩)
  have f2 := h f (shift s d (-1)) (Or.inl ⟨rfl, Or.inr ⟨d, hdm, Or.inr rfl⟩⟩)
  unfold momentumFlux
  by_cases hne : d = f
  · subst hne
    rw [back, f0, f1, f2]
  · have d0 := h d s (Or.inr ⟨hdm, hne, Or.inl rfl⟩)
    have d1 := h d (shift s f 1) (Or.inr ⟨hdm, hne, Or.inr (Or.inl rfl)⟩)
    have d2 := h d (shift s d (-1)) (Or.inr ⟨hdm, hne, Or.inr (Or.inr (Or.inl rfl))⟩)
    have d3 := h d (shift (shift s d (-1)) f 1) (Or.inr ⟨hdm, hne, Or.inr (Or.inr (Or.inr rfl))⟩)
    rw [back, f0, f1, f2, d0, d1, d2, d3]

/-- A closed wall has the normal velocity zero at all its points. -/
theorem closed_wall (C : Constructed debug L G axes T B) {h : List (Boundary.Op K)} (hi : Initialised h) {q q' : ℤ → K} (hj : JustRefreshed h q')
    {V : ℕ → Stencil → K} (hV : Filled debug L (fun r => (B r).run h) q V) {loc : ℕ} (hl : loc < L.dim * 2)
    (hp : L.periodic 0 (loc / 2) = false) (hc : Closed T loc) {t : Stencil} (htc : t.c = 0)
    (hw : coordOf t (loc / 2) = if loc % 2 = 0 then -1 else (L.n (loc / 2) (loc / 2) : ℤ))
    (ht : ∀ e, e < 3 → e ≠ loc / 2 → 0 ≤ coordOf t e ∧ coordOf t e < L.n (loc / 2) e ∨ (e < L.dim ∧ L.periodic 0 e = true)) :
    V (loc / 2) t = 0 := by
  have S := C.setup
  have hL := S.layout
  have h3 := S.dim_le
  have hg : loc / 2 < L.dim := by omega
  have hper : ∀ d, d < L.dim → L.periodic d d = L.periodic 0 d := fun d hd => S.periodic d d hd (by omega)
  rw [hV.wrap hper hg]
  have hwr : ∀ d, d < 3 → d ≠ loc / 2 → 0 ≤ coordOf (wrapPeriodic L (loc / 2) t) d ∧ coordOf (wrapPeriodic L (loc / 2) t) d < L.n (loc / 2) d := by
    intro d hd hne
    have hpos := C.pos (loc / 2) d hg hd
    rw [wrapPeriodic_eq hper _ _ hd]
    rcases ht d hd hne with h | h
    · split_ifs
      · rw [Int.emod_eq_of_lt h.1 h.2]; exact h
      · exact h
    · rw [if_pos h]
      exact ⟨Int.emod_nonneg _ (by omega), Int.emod_lt_of_pos _ (by omega)⟩
  have hwall : coordOf (wrapPeriodic L (loc / 2) t) (loc / 2) = if loc % 2 = 0 then -1 else (L.n (loc / 2) (loc / 2) : ℤ) := by
    rw [wrapPeriodic_eq hper _ _ (by omega), if_neg (by simp [hp]), hw]
  have hface : OnFace L.toMeshInfo (loc / 2) loc (wrapPeriodic L (loc / 2) t) := ⟨hwall, hwr, htc⟩
  -- the neighbour
  set w := wrapPeriodic L (loc / 2) t with hwdef
  have hpos := C.pos (loc / 2) (loc / 2) hg (by omega)
  have hin : Inside L.toMeshInfo (loc / 2) (along w (loc / 2) (if loc % 2 = 0 then 0 else (L.n (loc / 2) (loc / 2) : ℤ) - 1)) := by
    refine ⟨fun d hd => ?_, by rw [along_c]; exact htc⟩
    rw [coordOf_along _ _ _ _ (by omega) hd]
    split_ifs with h1 h2
    · subst h1; omega
    · subst h1; omega
    · exact hwr d hd h1
  obtain ⟨u, _, hu, hcomp, hst⟩ := exists_unknown hL hg hin
  have ha : AcrossFace L.toMeshInfo (loc / 2) loc w u.st := by
    rw [hst]
    refine ⟨?_, fun d hd hne => ?_, hin.2⟩
    · rw [coordOf_along _ _ _ _ (by omega) (by omega), if_pos rfl]
    · rw [coordOf_along _ _ _ _ (by omega) hd, if_neg hne]
  obtain ⟨b, p, hpt⟩ := (C.ghosts h).covered (loc / 2) loc u hu hcomp hl hp (by unfold AtSide; exact ha.1)
  rw [← (face_nbr (by omega) hface ha).1] at hpt
  rw [hV.ghost u.rank _ loc w b p hu.2.2.2.2.1 hpt]
  obtain ⟨_, _, _, _, e⟩ := C14_dirichlet debug L hL G (by norm_num) u.rank T (B u.rank) (C.init _ hu.2.2.2.2.1) C.pos h hi q' hj (loc / 2) loc
    (by rw [hc]) w b p hpt
  rw [hc] at e
  unfold boundaryValue at e
  rw [if_pos rfl] at e
  exact e

/-- What a process does not have is zero, at the points whose walls are closed or whose lines it has. -/
theorem seen_convective (C : Constructed debug L G axes T B) {h : List (Boundary.Op K)} (hi : Initialised h) {q q' : ℤ → K}
    (hj : JustRefreshed h q') {V : ℕ → Stencil → K} (hV : Filled debug L (fun r => (B r).run h) q V) {u : Unknown} (hu : IsUnknown L u)
    (hk : KnowsWalls L T u.rank u.comp ⟨u.k, u.j, u.i, 0⟩) :
    convective L.dim G (seenBy L u.rank V) u.comp ⟨u.k, u.j, u.i, 0⟩ = convective L.dim G V u.comp ⟨u.k, u.j, u.i, 0⟩ := by
  have S := C.setup
  have hL := S.layout
  have h3 := S.dim_le
  have hr := hu.2.2.2.2.1
  apply convective_reads hL.dim G hu.1 u.st
  intro g t hread
  unfold seenBy
  split_ifs with hsee
  · rfl
  · have hg := hread.comp_lt hu.1
    rcases reads_cases S C.part (C.ghosts h) hu.1 hr hu.inside hu.ownsAt hread with hh | ⟨_, hne, hp, hw, htc, hdir, hn⟩
    · exact absurd ((sees_iff C h hg hr).2 hh) hsee
    · symm
      have done : ∀ loc, loc / 2 = g → loc < L.dim * 2 → coordOf u.st g = (if loc % 2 = 0 then 0 else (L.n u.comp g : ℤ) - 1) →
          coordOf t g = (if loc % 2 = 0 then -1 else (L.n g g : ℤ)) → V g t = 0 := by
        rintro loc rfl hl e1 e2
        rcases hk loc hl hne hp e1 with hcl | hlines
        · exact closed_wall C hi hj hV hl hp hcl htc e2 hdir
        · exfalso
          obtain ⟨v, hv, hvr, hvc, e⟩ := hlines 0 (Or.inl rfl)
          obtain ⟨v', hv', hvr', hvc', e'⟩ := hlines 1 (Or.inr rfl)
          have hf := hu.1
          have a := hv.ownsAt.1 u.comp (by omega)
          have a' := hv'.ownsAt.1 u.comp (by omega)
          unfold Unknown.st at a a'
          rw [e, hvr, hvc] at a
          rw [e', hvr', hvc'] at a'
          apply hn
          unfold Unknown.st
          omega
      rcases hw with hw | hw
      · exact done (2 * g) (by omega) (by omega) (by rw [if_pos (by omega)]; exact hw.1) (by rw [if_pos (by omega)]; exact hw.2)
      · exact done (2 * g + 1) (by omega) (by omega) (by rw [if_neg (by omega)]; omega) (by rw [if_neg (by omega)]; exact hw.2)

/-- C58. At the points whose walls of other directions are closed, or whose process has the lines it needs, the convective term is the
conservative difference of the field, wherever the boundaries between the processes are. -/
theorem C58_closed_walls (C : Constructed debug L G axes T B) (h : List (Boundary.Op K)) (hi : Initialised h) (q q' y : ℤ → K)
    (hj : JustRefreshed h q') :
    ∃ z, convectionMult L G (fun r => (B r).run h) (fun _ _ _ => 0) q y = .ok z ∧
      ∀ V, Filled debug L (fun r => (B r).run h) q V → ∀ u idx, IsUnknown L u → KnowsWalls L T u.rank u.comp ⟨u.k, u.j, u.i, 0⟩ →
        L.getPackedGlobalIndex debug u.comp ⟨u.k, u.j, u.i, 0⟩ = .ok idx →
        z idx = convective L.dim G V u.comp ⟨u.k, u.j, u.i, 0⟩ := by
  obtain ⟨z, hz, hval⟩ := C58_convection_of_seen (debug := debug) C h q y
  refine ⟨z, hz, fun V hV u idx hu hk hidx => ?_⟩
  rw [hval V hV u idx hu hidx]
  exact seen_convective C hi hj hV hu hk

theorem Spec.SeesWalls.knows {r f : ℕ} {s : Stencil} (h : SeesWalls L r f s) : KnowsWalls L T r f s := by
  intro loc hl hne hp e
  right
  refine h (loc / 2) (by omega) hne hp ?_
  rw [e]
  split_ifs <;> omega

theorem constructed_boundaries {L : Layout} {G : Geom ℚ} {axes : ℕ → Axis ℚ} {T : BCTable ℚ}
    (h : ∃ B, Constructed true L G axes T B) : Constructed true L G axes T (boundaries true L G T) := by
  obtain ⟨B, C⟩ := h
  refine ⟨C.setup, C.part, C.table, fun r hr => ?_⟩
  unfold boundaries
  rw [C.init r hr]

/-- A cavity with a moving lid. -/
def lidTable : BCTable ℚ := fun f b => (.DIRICHLET, if f = 0 ∧ b = 3 then 1 else 0)

theorem lidTable_constructed : Constructed true (exampleWalls 2 1) exampleWallsGeom exampleAxes lidTable
    (boundaries true (exampleWalls 2 1) exampleWallsGeom lidTable) := by
  apply constructed_boundaries
  apply C57_construction true (Or.inl rfl) (fun d _ => exampleAxes_ok d) (fun _ _ _ _ => rfl)
  · intro d hd; interval_cases d <;> simp
  · intro f d hf hd
    rcases hf with hf | rfl
    · interval_cases d <;> interval_cases f <;> decide
    · interval_cases d <;> decide
  · intro f loc _ _; simp [lidTable]
  · intro f loc _ _; simp [lidTable]

/-- Two processes in a cavity with a moving lid: the point of the first process next to the second does not see its wall, but the wall
is closed. -/
example : Constructed true (exampleWalls 2 1) exampleWallsGeom exampleAxes lidTable
      (boundaries true (exampleWalls 2 1) exampleWallsGeom lidTable) ∧
    (∃ V, Filled true (exampleWalls 2 1) (fun r => (boundaries true (exampleWalls 2 1) exampleWallsGeom lidTable r).run
      [.setGhostICs fun _ => 1]) (fun _ => 1) V) ∧
    Initialised [Boundary.Op.setGhostICs fun _ => (1 : ℚ)] ∧ JustRefreshed [Boundary.Op.setGhostICs fun _ => (1 : ℚ)] (fun _ => 1) ∧
    IsUnknown (exampleWalls 2 1) ⟨1, 0, 1, 0, 0⟩ ∧ KnowsWalls (exampleWalls 2 1) lidTable 1 0 ⟨0, 0, 1, 0⟩ ∧
    (∀ f loc, loc < 4 → loc / 2 ≠ f → Closed lidTable loc) ∧
    ¬ Sees (exampleWalls 2 1) 1 1 ⟨0, -1, 1, 0⟩ := by
  have C := lidTable_constructed
  refine ⟨C, exists_filled C.setup C.part (C.ghosts _) _, ⟨_, [], rfl⟩, ⟨[], Or.inl rfl⟩, by unfold IsUnknown Owns; decide, ?_, ?_, ?_⟩
  · intro loc hl hne _ _
    left
    change loc < 4 at hl
    unfold Closed lidTable
    rw [if_neg (by omega)]
  · intro f loc hl _
    unfold Closed lidTable
    rw [if_neg (by omega)]
  · rintro (⟨_, s, hs, e⟩ | ⟨u, hu, h1, h2, loc, hl, _, hf, ha⟩)
    · rcases e 1 (by omega) with e | e
      · have := (hs.1 1 (by omega)).1
        rw [← e] at this
        exact absurd this (by decide)
      · exact absurd e.2.1 (by decide)
    · change loc < 4 at hl
      have hl2 : loc = 2 := by
        have := hf.1
        interval_cases loc
        · exact absurd this (by decide)
        · exact absurd this (by decide)
        · rfl
        · exact absurd this (by decide)
      subst hl2
      have e0 := ha.2.1 0 (by omega) (by omega)
      have a := hu.ownsAt.1 0 (by omega)
      unfold Unknown.st at a
      rw [e0, h1, h2] at a
      exact absurd a.1 (by decide)

/-! ### C24 -/

theorem faceArea_along (G : Geom K) {f d : ℕ} (hd : d < 3) (s : Stencil) (x : ℤ) :
    faceArea G f d (along s d x) = faceArea G f d s := by
  unfold faceArea along coordOf
  interval_cases d <;> simp [List.range_succ]

theorem volume_faceArea (G : Geom K) {f d : ℕ} (hd : d < 3) (s : Stencil) :
    volume G f s = faceArea G f d s * G.dL f d (coordOf s d) := by
  unfold volume faceArea coordOf
  interval_cases d <;> simp [List.range_succ] <;> ring

theorem shift_along {s : Stencil} {f d : ℕ} (hf : f < 3) (hd : d < 3) (hne : d ≠ f) (x y : ℤ) :
    shift (along s d x) f y = along (shift s f y) d x := by
  unfold shift along coordOf
  interval_cases d <;> interval_cases f <;> simp_all

/-- Sum of the convective terms over the grid. -/
theorem convective_sum (S : Setup L G axes) (hpos : ∀ f d, f < L.dim → d < 3 → 0 < L.n f d) {q : ℤ → K} {V : ℕ → Stencil → K}
    (hV : Filled debug L B q V) {f : ℕ} (hf : f < L.dim) :
    gridSum L.toMeshInfo f (fun s => volume G f s * convective L.dim G V f s) =
      ∑ d ∈ Finset.range L.dim, if L.periodic 0 d then 0 else layerSum L.toMeshInfo f d fun s =>
        faceArea G f d s * (momentumFlux V f d (along s d (L.n f d - 1)) - momentumFlux V f d (along s d (-1))) := by
  have h3 := S.dim_le
  have e1 : gridSum L.toMeshInfo f (fun s => volume G f s * convective L.dim G V f s) =
      gridSum L.toMeshInfo f fun s => ∑ d ∈ Finset.range L.dim,
        faceArea G f d s * (momentumFlux V f d s - momentumFlux V f d (shift s d (-1))) := by
    apply gridSum_congr
    intro s hs
    unfold convective
    rw [Finset.mul_sum]
    apply Finset.sum_congr rfl
    intro d hd
    have hd := Finset.mem_range.1 hd
    have hx := hs.1 d (by omega)
    have hw := (S.width_pos hf hd hx.1 hx.2).ne'
    rw [volume_faceArea G (show d < 3 by omega)]
    field_simp
  rw [e1, gridSum_finset]
  apply Finset.sum_congr rfl
  intro d hd
  have hd := Finset.mem_range.1 hd
  rw [gridSum_lines (show d < 3 by omega) (hpos f d hf (by omega))]
  have hline : ∀ s : Stencil, ∑ x ∈ Finset.range (L.n f d), faceArea G f d (along s d x) *
      (momentumFlux V f d (along s d x) - momentumFlux V f d (shift (along s d x) d (-1))) =
      faceArea G f d s * (momentumFlux V f d (along s d (L.n f d - 1)) - momentumFlux V f d (along s d (-1))) := by
    intro s
    rw [← sum_telescope (L.n f d) fun x => momentumFlux V f d (along s d x), Finset.mul_sum]
    apply Finset.sum_congr rfl
    intro x _
    rw [faceArea_along G (by omega)]
    unfold shift
    rw [along_along, coordOf_along _ _ _ _ (by omega) (by omega), if_pos rfl]
    rfl
  simp only [hline]
  split_ifs with hp
  · unfold layerSum
    refine (gridSum_congr ?_).trans gridSum_zero
    intro s _
    have key : momentumFlux V f d (along s d (L.n f d - 1)) = momentumFlux V f d (along s d (-1)) := by
      have hnd : L.n d d = L.n f d := by
        by_cases hdf : d = f
        · rw [hdf]
        · rw [(S.staggered d hd).2.1 hp, (S.staggered f hf).1 d (by omega) hdf]
      have hn := hpos f d hf (by omega)
      have hw : ∀ (g : ℕ) (t : Stencil) (x : ℤ), g < L.dim → L.n g d = L.n f d →
          V g (along t d x) = V g (along t d (x % L.n f d)) := by
        intro g t x hg hgn
        have := hV.periodic g (along t d x) d hg hd hp
        rw [this, along_along, coordOf_along _ _ _ _ (by omega) (by omega), if_pos rfl, hgn]
      have hwm : ∀ (g : ℕ) (t : Stencil), g < L.dim → L.n g d = L.n f d → V g (along t d (-1)) = V g (along t d (L.n f d - 1)) := by
        intro g t hg hgn
        rw [hw g t _ hg hgn, emod_near (by omega) (by omega) (by omega), if_pos rfl]
      have hw0 : ∀ (g : ℕ) (t : Stencil), g < L.dim → L.n g d = L.n f d → V g (along t d (L.n f d)) = V g (along t d 0) := by
        intro g t hg hgn
        rw [hw g t _ hg hgn, Int.emod_self]
      have sh : ∀ t : Stencil, ∀ x : ℤ, shift (along t d x) d 1 = along t d (x + 1) := by
        intro t x
        unfold shift
        rw [along_along, coordOf_along _ _ _ _ (by omega) (by omega), if_pos rfl]
      unfold momentumFlux
      by_cases hdf : d = f
      · subst hdf
        rw [sh, sh, hwm d s hd rfl]
        norm_num
        rw [hw0 d s hd rfl]
      · rw [shift_along (by omega) (by omega) hdf, shift_along (by omega) (by omega) hdf, sh, sh, hwm d _ hd hnd, hwm d _ hd hnd,
          hwm f _ hf rfl]
        rw [sub_add_cancel, hw0 f s hf rfl]
        norm_num
    beta_reduce
    rw [key, sub_self, mul_zero, ite_self]
  · rfl

/-- C24. The volume-weighted sum of the convective terms of a component equals the momentum flux through the outer faces of
the non-periodic directions. Missing: distributions for which `C58_convection_value_partial` does not cover all points. -/
theorem C24_momentum_balance_partial (C : Constructed debug L G axes T B) (h : List (Boundary.Op K)) (v : ℕ → ℕ → ℤ → K)
    (q y : ℤ → K) (f : ℕ) (hf : f < L.dim)
    (hw : (∀ d, d < L.dim → d ≠ f → L.periodic 0 d = true) ∨ L.nProc f = 1 ∧ L.periodic 0 f = false) :
    ∃ z, convectionMult L G (fun r => (B r).run h) v q y = .ok z ∧
      ∀ (V : ℕ → Stencil → K) (N : Stencil → K), Filled debug L (fun r => (B r).run h) q V →
        (∀ s idx, Inside L.toMeshInfo f s → L.getPackedGlobalIndex debug f s = .ok idx → N s = z idx) →
        gridSum L.toMeshInfo f (fun s => volume G f s * N s) =
          ∑ d ∈ Finset.range L.dim, if L.periodic 0 d then 0 else layerSum L.toMeshInfo f d fun s =>
            faceArea G f d s * (momentumFlux V f d (along s d (L.n f d - 1)) - momentumFlux V f d (along s d (-1))) := by
  have S := C.setup
  obtain ⟨z, hz, hv⟩ := convectionMult_spec (B := fun r => (B r).run h) S C.part q y v
  refine ⟨z, hz, ?_⟩
  intro V N hV hN
  rw [← convective_sum S C.pos hV hf]
  apply gridSum_congr
  intro s hs
  obtain ⟨u, _, hu, rfl, rfl⟩ := exists_unknown S.layout hf hs
  have h1 := hv u hu
  rw [kernel_value S C.part (C.ghosts h) hV v hu.1 hu.2.2.2.2.1 hu.inside hu.ownsAt (seesWalls_single C hu hw)] at h1
  rw [hN _ _ hs (col_inside S.layout (Or.inl hf) debug hs).1, ← Except.ok.inj h1]

/-- C24. The same balance for every number of processes and with periodic directions, if the walls of the other directions are closed
(the local vectors begin with zeros). -/
theorem C24_momentum_balance_closed (C : Constructed debug L G axes T B) (h : List (Boundary.Op K)) (hi : Initialised h) (q q' y : ℤ → K)
    (hj : JustRefreshed h q') (f : ℕ) (hf : f < L.dim)
    (hw : ∀ loc, loc < L.dim * 2 → loc / 2 ≠ f → L.periodic 0 (loc / 2) = false → Closed T loc) :
    ∃ z, convectionMult L G (fun r => (B r).run h) (fun _ _ _ => 0) q y = .ok z ∧
      ∀ (V : ℕ → Stencil → K) (N : Stencil → K), Filled debug L (fun r => (B r).run h) q V →
        (∀ s idx, Inside L.toMeshInfo f s → L.getPackedGlobalIndex debug f s = .ok idx → N s = z idx) →
        gridSum L.toMeshInfo f (fun s => volume G f s * N s) =
          ∑ d ∈ Finset.range L.dim, if L.periodic 0 d then 0 else layerSum L.toMeshInfo f d fun s =>
            faceArea G f d s * (momentumFlux V f d (along s d (L.n f d - 1)) - momentumFlux V f d (along s d (-1))) := by
  have S := C.setup
  obtain ⟨z, hz, hv⟩ := C58_closed_walls C h hi q q' y hj
  refine ⟨z, hz, ?_⟩
  intro V N hV hN
  rw [← convective_sum S C.pos hV hf]
  apply gridSum_congr
  intro s hs
  obtain ⟨u, _, hu, rfl, rfl⟩ := exists_unknown S.layout hf hs
  have e := (col_inside S.layout (Or.inl hf) debug hs).1
  rw [hN _ _ hs e]
  congr 1
  exact hv V hV u _ hu (fun loc hl hne hp _ => Or.inl (hw loc hl hne hp)) e

/-- C24. In a box that is periodic in all directions the convective terms of every component sum to zero. -/
theorem C24_periodic_box (C : Constructed debug L G axes T B) (h : List (Boundary.Op K)) (v : ℕ → ℕ → ℤ → K)
    (q y : ℤ → K) (hp : ∀ d, d < L.dim → L.periodic 0 d = true) :
    ∃ z, convectionMult L G (fun r => (B r).run h) v q y = .ok z ∧ ∀ f (N : Stencil → K), f < L.dim →
      (∀ s idx, Inside L.toMeshInfo f s → L.getPackedGlobalIndex debug f s = .ok idx → N s = z idx) →
      gridSum L.toMeshInfo f (fun s => volume G f s * N s) = 0 := by
  obtain ⟨V, hV⟩ := exists_filled C.setup C.part (C.ghosts h) q
  obtain ⟨z, hz, _⟩ := convectionMult_spec (B := fun r => (B r).run h) C.setup C.part q y v
  refine ⟨z, hz, ?_⟩
  intro f N hf hN
  obtain ⟨z', hz', hs⟩ := C24_momentum_balance_partial C h v q y f hf (Or.inl fun d hd _ => hp d hd)
  rw [hz] at hz'; cases hz'
  rw [hs V N hV hN]
  apply Finset.sum_eq_zero
  intro d hd
  rw [if_pos (hp d (Finset.mem_range.1 hd))]

/-- C24. Uniform flow has no convective term at the points that see their walls. Missing: the other points, where it is false
(`C24_false_uniform_flow`). -/
theorem C24_uniform_flow_partial (C : Constructed debug L G axes T B) (h : List (Boundary.Op K)) (v : ℕ → ℕ → ℤ → K)
    (q y : ℤ → K) (c : ℕ → K) (hV : Filled debug L (fun r => (B r).run h) q fun f _ => c f) :
    ∃ z, convectionMult L G (fun r => (B r).run h) v q y = .ok z ∧
      ∀ u idx, IsUnknown L u → SeesWalls L u.rank u.comp ⟨u.k, u.j, u.i, 0⟩ →
        L.getPackedGlobalIndex debug u.comp ⟨u.k, u.j, u.i, 0⟩ = .ok idx → z idx = 0 := by
  obtain ⟨z, hz, _, hs⟩ := C58_convection_value_partial C h v q y
  refine ⟨z, hz, fun u idx hu hw hi => ?_⟩
  rw [hs _ hV u idx hu hw hi]
  simp [convective, momentumFlux]

/-- Uniform flow through walls with the same velocity. -/
theorem uniform_filled {L : Layout} {G : Geom ℚ} {axes : ℕ → Axis ℚ} {T : BCTable ℚ} {B : ℕ → Boundary ℚ} (C : Constructed true L G axes T B)
    (hT : ∀ f loc, L.periodic 0 (loc / 2) = false → T f loc = (.DIRICHLET, 1)) :
    Filled true L (fun r => (B r).run [.setGhostICs fun _ => 1]) (fun _ => 1) fun _ _ => 1 := by
  refine ⟨fun _ _ _ _ _ _ => rfl, fun _ _ _ _ _ _ => rfl, ?_⟩
  intro r f loc s b p hr hp
  have hper := (C.ghosts _).periodic r f loc s b p hr hp
  obtain ⟨t, idx, _, _, e⟩ := C14_dirichlet true L C.setup.layout G (by norm_num) r T (B r) (C.init r hr) C.pos _ ⟨_, _, rfl⟩ (fun _ => 1)
    ⟨[], Or.inl rfl⟩ f loc (by rw [hT f loc hper]) s b p hp
  rw [hT f loc hper] at e
  unfold boundaryValue at e
  split_ifs at e
  · exact e.symm
  · simp only at e; linarith

def unitWalls : BCTable ℚ := fun _ _ => (.DIRICHLET, 1)

/-- Periodic in x, walls in y. -/
def unitChannel : BCTable ℚ := fun _ b => if b < 2 then (.PERIODIC, 0) else (.DIRICHLET, 1)

abbrev exampleSeam : Layout := meshLayout 2 exampleAxes (fun _ d => d == 0) fun _ => 1

abbrev exampleSeamGeom : Geom ℚ := meshGeom 2 exampleAxes fun _ d => d == 0

theorem unitWalls_constructed : Constructed true (exampleWalls 2 1) exampleWallsGeom exampleAxes unitWalls
    (boundaries true (exampleWalls 2 1) exampleWallsGeom unitWalls) := by
  apply constructed_boundaries
  apply C57_construction true (Or.inl rfl) (fun d _ => exampleAxes_ok d) (fun _ _ _ _ => rfl)
  · intro d hd; interval_cases d <;> simp
  · intro f d hf hd
    rcases hf with hf | rfl
    · interval_cases d <;> interval_cases f <;> decide
    · interval_cases d <;> decide
  · intro f loc _ _; simp [unitWalls]
  · intro f loc _ _; simp [unitWalls]

theorem unitChannel_constructed : Constructed true exampleSeam exampleSeamGeom exampleAxes unitChannel
    (boundaries true exampleSeam exampleSeamGeom unitChannel) := by
  apply constructed_boundaries
  apply C57_construction true (Or.inl rfl) (fun d _ => exampleAxes_ok d) (fun _ _ _ _ => rfl)
  · intro d hd; simp
  · intro f d hf hd
    rcases hf with hf | rfl
    · interval_cases d <;> interval_cases f <;> decide
    · interval_cases d <;> decide
  · intro f loc _ _; unfold unitChannel; split_ifs <;> simp
  · intro f loc _ h; unfold unitChannel; interval_cases loc <;> simp

/-- C24, C58 are false for more than one process: flow with velocity one in the whole domain and on all walls, two processes
in x. The convective term of the second value of `u` is not zero: the process does not have the wall value of `v` beyond
its own lines and uses the zero left in the local vector. -/
theorem C24_false_uniform_flow : ∃ (L : Layout) (G : Geom ℚ) (axes : ℕ → Axis ℚ) (T : BCTable ℚ) (B : ℕ → Boundary ℚ) (z : ℤ → ℚ),
    Constructed true L G axes T B ∧
    Filled true L (fun r => (B r).run [.setGhostICs fun _ => 1]) (fun _ => 1) (fun _ _ => 1) ∧
    convectionMult L G (fun r => (B r).run [.setGhostICs fun _ => 1]) (fun _ _ _ => 0) (fun _ => 1) (fun _ => 0) = .ok z ∧
    L.getPackedGlobalIndex true 0 ⟨0, 0, 1, 0⟩ = .ok 7 ∧ z 7 ≠ 0 := by
  refine ⟨exampleWalls 2 1, exampleWallsGeom, exampleAxes, unitWalls, boundaries true (exampleWalls 2 1) exampleWallsGeom unitWalls, _,
    unitWalls_constructed, uniform_filled unitWalls_constructed fun _ _ _ => rfl, rfl, by decide, by decide +kernel⟩

/-- C58 is false even for one process, if one direction is periodic and another one has walls with normal velocity: the ghost
point of the wall beyond the periodic boundary is never set. -/
theorem C58_false_periodic_seam : ∃ (L : Layout) (G : Geom ℚ) (axes : ℕ → Axis ℚ) (T : BCTable ℚ) (B : ℕ → Boundary ℚ) (z : ℤ → ℚ),
    Constructed true L G axes T B ∧ L.mpiSize = 1 ∧
    Filled true L (fun r => (B r).run [.setGhostICs fun _ => 1]) (fun _ => 1) (fun _ _ => 1) ∧
    convectionMult L G (fun r => (B r).run [.setGhostICs fun _ => 1]) (fun _ _ _ => 0) (fun _ => 1) (fun _ => 0) = .ok z ∧
    L.getPackedGlobalIndex true 0 ⟨0, 0, 2, 0⟩ = .ok 2 ∧ convective L.dim G (fun _ _ => 1) 0 ⟨0, 0, 2, 0⟩ = 0 ∧ z 2 ≠ 0 := by
  refine ⟨exampleSeam, exampleSeamGeom, exampleAxes, unitChannel, boundaries true exampleSeam exampleSeamGeom unitChannel, _,
    unitChannel_constructed, rfl, uniform_filled unitChannel_constructed ?_, rfl, by decide, by simp [convective, momentumFlux],
    by decide +kernel⟩
  intro f loc h
  have : 2 ≤ loc := by
    by_contra hl
    have : loc / 2 = 0 := by omega
    rw [this] at h
    simp [meshLayout] at h
  unfold unitChannel
  rw [if_neg (by omega)]

/-- The hypotheses of the theorems above: a constructed mesh, a field on it, points that see their walls. -/
example : Constructed true (exampleWalls 2 1) exampleWallsGeom exampleAxes unitWalls
      (boundaries true (exampleWalls 2 1) exampleWallsGeom unitWalls) ∧
    Filled true (exampleWalls 2 1) (fun r => (boundaries true (exampleWalls 2 1) exampleWallsGeom unitWalls r).run
      [.setGhostICs fun _ => 1]) (fun _ => 1) (fun _ _ => 1) ∧
    IsUnknown (exampleWalls 2 1) ⟨1, 1, 2, 0, 0⟩ ∧ SeesWalls (exampleWalls 2 1) 1 1 ⟨0, 0, 2, 0⟩ ∧
    (exampleWalls 2 1).nProc 1 = 1 ∧ (exampleWalls 2 1).periodic 0 1 = false := by
  refine ⟨unitWalls_constructed, uniform_filled unitWalls_constructed fun _ _ _ => rfl, by unfold IsUnknown Owns; decide, ?_, by decide, by decide⟩
  intro d hd hne _ _ y hy
  have : d = 0 := by change d < 2 at hd; omega
  subst this
  rcases hy with rfl | rfl
  · exact ⟨⟨1, 0, 1, 0, 0⟩, by unfold IsUnknown Owns; decide, rfl, rfl, rfl⟩
  · exact ⟨⟨1, 0, 1, 1, 0⟩, by unfold IsUnknown Owns; decide, rfl, rfl, rfl⟩

end PetIBM
