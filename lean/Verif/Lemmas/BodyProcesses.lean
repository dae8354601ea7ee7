/-
The operators between grid and bodies with two distributions over processes.
-/
import Verif.Spec.BodyProcesses
import Verif.Lemmas.ProcessesRun
import Verif.Lemmas.DeltaRun
import Verif.Lemmas.IbpmRun
import Verif.Props.Ibpm
import Verif.Props.Krylov

set_option linter.unusedSectionVars false

namespace PetIBM

open Spec

variable {K : Type} [Field K] [LinearOrder K] [IsStrictOrderedRing K]
variable {debug : Bool} {L L₁ L₂ : Layout} {G : Geom K} {axes : ℕ → Axis K} {T : BCTable K} {B₁ B₂ : ℕ → Boundary K}

local instance : Inhabited K := ⟨0⟩
local instance : Inhabited (Entry K) := ⟨⟨0, 0, 0⟩⟩

/-! ### Sums over corresponding indices -/

theorem sum_corresponding {N₁ N₂ : ℕ} {g₁ g₂ : ℤ → K} (R : ℤ → ℤ → Prop)
    (hl : ∀ a : ℤ, 0 ≤ a → a < N₁ → ∃ b : ℤ, 0 ≤ b ∧ b < N₂ ∧ R a b) (hr : ∀ b : ℤ, 0 ≤ b → b < N₂ → ∃ a : ℤ, 0 ≤ a ∧ a < N₁ ∧ R a b)
    (inj : ∀ a a' b, R a b → R a' b → a = a') (fn : ∀ a b b', R a b → R a b' → b = b') (hg : ∀ a b, R a b → g₁ a = g₂ b) :
    ∑ a ∈ Finset.range N₁, g₁ a = ∑ b ∈ Finset.range N₂, g₂ b := by
  classical
  choose! i h1 h2 h3 using hl
  refine Finset.sum_bij (fun a _ => (i a).toNat) ?_ ?_ ?_ ?_
  · intro a ha
    have := Finset.mem_range.1 ha
    have := h1 a (by omega) (by omega)
    have := h2 a (by omega) (by omega)
    exact Finset.mem_range.2 (by omega)
  · intro a ha a' ha' e
    have x := Finset.mem_range.1 ha
    have x' := Finset.mem_range.1 ha'
    have y := h1 a (by omega) (by omega)
    have y' := h1 a' (by omega) (by omega)
    have e : i a = i a' := by omega
    have z := h3 a (by omega) (by omega)
    have z' := h3 a' (by omega) (by omega)
    rw [e] at z
    have := inj _ _ _ z z'
    omega
  · intro b hb
    have := Finset.mem_range.1 hb
    obtain ⟨a, a0, a1, hab⟩ := hr b (by omega) (by omega)
    refine ⟨a.toNat, Finset.mem_range.2 (by omega), ?_⟩
    have e : ((a.toNat : ℕ) : ℤ) = a := by omega
    rw [e, fn _ _ _ (h3 a a0 a1) hab]
    omega
  · intro a ha
    have := Finset.mem_range.1 ha
    have y := h1 a (by omega) (by omega)
    rw [hg _ _ (h3 a (by omega) (by omega))]
    congr 1
    omega

/-- sums over the velocity points -/
theorem sum_velocity (h1 : LayoutOK L₁) (h2 : LayoutOK L₂) (hM : L₂.toMeshInfo = L₁.toMeshInfo) {g₁ g₂ : ℤ → K} (hg : SameVel L₁ L₂ g₁ g₂) :
    ∑ c ∈ Finset.range L₁.UN, g₁ c = ∑ c ∈ Finset.range L₂.UN, g₂ c := by
  refine sum_corresponding (fun a b => ∃ f s, f < L₁.dim ∧ Inside L₁.toMeshInfo f s ∧ col L₁ f s = a ∧ col L₂ f s = b) ?_ ?_ ?_ ?_ ?_
  · intro a a0 a1
    obtain ⟨u, hu, rfl⟩ := col_surj h1 a0 a1
    obtain ⟨v, -, hv, hvc, hvs⟩ := exists_unknown h2 (f := u.comp) (s := u.st) (by rw [hM]; exact hu.1) (by rw [hM]; exact hu.inside)
    have := col_range h2 hv
    rw [hvc, hvs] at this
    exact ⟨_, this.1, this.2, u.comp, u.st, hu.1, hu.inside, rfl, rfl⟩
  · intro a a0 a1
    obtain ⟨u, hu, rfl⟩ := col_surj h2 a0 a1
    have hd : u.comp < L₁.dim := by rw [← hM]; exact hu.1
    have hin : Inside L₁.toMeshInfo u.comp u.st := by rw [← hM]; exact hu.inside
    obtain ⟨v, -, hv, hvc, hvs⟩ := exists_unknown h1 hd hin
    have := col_range h1 hv
    rw [hvc, hvs] at this
    exact ⟨_, this.1, this.2, u.comp, u.st, hd, hin, rfl, rfl⟩
  · rintro a a' b ⟨f, s, hf, hs, rfl, rfl⟩ ⟨f', s', hf', hs', rfl, e⟩
    obtain ⟨rfl, rfl⟩ := col_inj h2 (by rw [hM]; exact hf') (by rw [hM]; exact hf) (by rw [hM]; exact hs') (by rw [hM]; exact hs) e
    rfl
  · rintro a b b' ⟨f, s, hf, hs, rfl, rfl⟩ ⟨f', s', hf', hs', e, rfl⟩
    obtain ⟨rfl, rfl⟩ := col_inj h1 hf' hf hs' hs e
    rfl
  · rintro a b ⟨f, s, hf, hs, rfl, rfl⟩
    exact hg f hf s hs

/-- corresponding rows -/
def SameRow (P₁ P₂ : BodyPack K) (x y : ℤ) : Prop :=
  ∃ b i d : ℕ, d < P₁.dim ∧ (∃ u, P₁.bodies[b]? = some u ∧ i < u.nPts) ∧ P₁.getPackedGlobalIndex b i d = .ok x ∧ P₂.getPackedGlobalIndex b i d = .ok y

theorem exists_dof {P : BodyPack K} (hP : PackOK P) {b i d : ℕ} {u : SingleBody K} (hd : d < P.dim) (hu : P.bodies[b]? = some u) (hi : i < u.nPts) :
    ∃ r x, IsLagDof P ⟨r, b, i, d⟩ ∧ P.getPackedGlobalIndex b i d = .ok x ∧ 0 ≤ x ∧ x < (P.nPts * P.dim : ℕ) := by
  obtain ⟨r, ⟨hr, ho, _⟩, _⟩ := C31_owner P hP b i u hu hi
  have hl : IsLagDof P ⟨r, b, i, d⟩ := ⟨hd, hr, u, hu, hi, ho⟩
  obtain ⟨x, h1, h2, h3⟩ := (C31_packed_index_bijective P hP).1 _ hl
  exact ⟨r, x, hl, h1, h2, by rw [mul_comm]; exact h3⟩

theorem row_surj {P : BodyPack K} (hP : PackOK P) {x : ℤ} (h0 : 0 ≤ x) (h1 : x < (P.nPts * P.dim : ℕ)) :
    ∃ b i d : ℕ, d < P.dim ∧ (∃ u, P.bodies[b]? = some u ∧ i < u.nPts) ∧ P.getPackedGlobalIndex b i d = .ok x := by
  obtain ⟨⟨r, b, i, d⟩, ⟨⟨hd, -, u, hu, hi, -⟩, e⟩, -⟩ := (C31_packed_index_bijective P hP).2.1 x h0 (by rw [mul_comm]; exact h1)
  exact ⟨b, i, d, hd, ⟨u, hu, hi⟩, e⟩

theorem Spec.SameBodies.other {P₁ P₂ : BodyPack K} (h : SameBodies P₁ P₂) {b i : ℕ} (hu : ∃ u, P₁.bodies[b]? = some u ∧ i < u.nPts) :
    ∃ u, P₂.bodies[b]? = some u ∧ i < u.nPts := by
  obtain ⟨u, hu, hi⟩ := hu
  have hb := (List.getElem?_eq_some_iff.1 hu).1
  refine ⟨_, List.getElem?_eq_getElem (by rw [← h.number]; exact hb), ?_⟩
  rw [← (h.points b _ _ hu (List.getElem?_eq_getElem (by rw [← h.number]; exact hb))).1]
  exact hi

theorem Spec.SameBodies.symm {P₁ P₂ : BodyPack K} (h : SameBodies P₁ P₂) : SameBodies P₂ P₁ :=
  ⟨h.dim.symm, h.number.symm, fun b x y hx hy => ⟨(h.points b y x hy hx).1.symm, (h.points b y x hy hx).2.symm⟩⟩

theorem SameRow.range {P₁ P₂ : BodyPack K} (h1 : PackOK P₁) (h2 : PackOK P₂) (h : SameBodies P₁ P₂) {x y : ℤ} (hr : SameRow P₁ P₂ x y) :
    (0 ≤ x ∧ x < (P₁.nPts * P₁.dim : ℕ)) ∧ 0 ≤ y ∧ y < (P₂.nPts * P₂.dim : ℕ) := by
  obtain ⟨b, i, d, hd, hu, e1, e2⟩ := hr
  obtain ⟨v, hv, hj⟩ := h.other hu
  obtain ⟨u, hu, hi⟩ := hu
  obtain ⟨_, x', -, e, a0, a1⟩ := exists_dof h1 hd hu hi
  rw [e1] at e
  cases e
  obtain ⟨_, y', -, e, b0, b1⟩ := exists_dof h2 (by rw [← h.dim]; exact hd) hv hj
  rw [e2] at e
  cases e
  exact ⟨⟨a0, a1⟩, b0, b1⟩

theorem exists_row {P₁ P₂ : BodyPack K} (h1 : PackOK P₁) (h2 : PackOK P₂) (h : SameBodies P₁ P₂) {x : ℤ} (h0 : 0 ≤ x) (hx : x < (P₁.nPts * P₁.dim : ℕ)) :
    ∃ y, SameRow P₁ P₂ x y := by
  obtain ⟨b, i, d, hd, hu, e⟩ := row_surj h1 h0 hx
  obtain ⟨v, hv, hj⟩ := h.other hu
  obtain ⟨_, y, -, e', -, -⟩ := exists_dof h2 (by rw [← h.dim]; exact hd) hv hj
  exact ⟨y, b, i, d, hd, hu, e, e'⟩

theorem SameRow.symm {P₁ P₂ : BodyPack K} (h : SameBodies P₁ P₂) {x y : ℤ} (hr : SameRow P₁ P₂ x y) : SameRow P₂ P₁ y x := by
  obtain ⟨b, i, d, hd, hu, e1, e2⟩ := hr
  exact ⟨b, i, d, by rw [← h.dim]; exact hd, h.other hu, e2, e1⟩

theorem row_inj {P : BodyPack K} (hP : PackOK P) {b i d b' i' d' : ℕ} {x : ℤ} (hd : d < P.dim) (hd' : d' < P.dim)
    (hu : ∃ u, P.bodies[b]? = some u ∧ i < u.nPts) (hu' : ∃ u, P.bodies[b']? = some u ∧ i' < u.nPts)
    (e : P.getPackedGlobalIndex b i d = .ok x) (e' : P.getPackedGlobalIndex b' i' d' = .ok x) : b = b' ∧ i = i' ∧ d = d' := by
  obtain ⟨u, hu, hi⟩ := hu
  obtain ⟨u', hu', hi'⟩ := hu'
  obtain ⟨r, _, l, -⟩ := exists_dof hP hd hu hi
  obtain ⟨r', _, l', -⟩ := exists_dof hP hd' hu' hi'
  have := lag_inj hP l l' e e'
  simp only [LagDof.mk.injEq] at this
  exact ⟨this.2.1, this.2.2.1, this.2.2.2⟩

theorem SameRow.right_unique {P₁ P₂ : BodyPack K} (h1 : PackOK P₁) {x y y' : ℤ} (hr : SameRow P₁ P₂ x y) (hr' : SameRow P₁ P₂ x y') : y = y' := by
  obtain ⟨b, i, d, hd, hu, e1, e2⟩ := hr
  obtain ⟨b', i', d', hd', hu', e1', e2'⟩ := hr'
  obtain ⟨rfl, rfl, rfl⟩ := row_inj h1 hd hd' hu hu' e1 e1'
  rw [e2] at e2'
  exact Except.ok.inj e2'

/-- the same forces -/
def SameLag (P₁ P₂ : BodyPack K) (f₁ f₂ : ℤ → K) : Prop := ∀ x y, SameRow P₁ P₂ x y → f₁ x = f₂ y

theorem sum_rows {P₁ P₂ : BodyPack K} (h1 : PackOK P₁) (h2 : PackOK P₂) (h : SameBodies P₁ P₂) {g₁ g₂ : ℤ → K} (hg : SameLag P₁ P₂ g₁ g₂) :
    ∑ k ∈ Finset.range (P₁.nPts * P₁.dim), g₁ k = ∑ k ∈ Finset.range (P₂.nPts * P₂.dim), g₂ k := by
  refine sum_corresponding (SameRow P₁ P₂) ?_ ?_ ?_ ?_ hg
  · intro a a0 a1
    obtain ⟨y, hy⟩ := exists_row h1 h2 h a0 a1
    exact ⟨y, (hy.range h1 h2 h).2.1, (hy.range h1 h2 h).2.2, hy⟩
  · intro a a0 a1
    obtain ⟨y, hy⟩ := exists_row h2 h1 h.symm a0 a1
    have hy := hy.symm h.symm
    exact ⟨y, (hy.range h1 h2 h).1.1, (hy.range h1 h2 h).1.2, hy⟩
  · intro a a' b r r'
    exact (r.symm h).right_unique h2 (r'.symm h)
  · intro a b b' r r'
    exact r.right_unique h1 r'

theorem exists_sameLag {P₁ P₂ : BodyPack K} (h2 : PackOK P₂) (h : SameBodies P₁ P₂) (f : ℤ → K) : ∃ f', SameLag P₁ P₂ f f' := by
  classical
  refine ⟨fun y => if hy : ∃ x, SameRow P₁ P₂ x y then f hy.choose else 0, ?_⟩
  intro x y hxy
  have hex : ∃ x, SameRow P₁ P₂ x y := ⟨x, hxy⟩
  simp only
  rw [dif_pos hex, ((hex.choose_spec.symm h).right_unique h2 (hxy.symm h))]

/-! ### The delta operator -/

theorem meshCoord_range (S : Setup L G axes) {f d : ℕ} {s : ℤ} {x : K} (hf : f < L.dim) (hd : d < L.dim) (h : meshCoord L axes f d s = .ok x) :
    -1 ≤ s ∧ s ≤ L.n f d := by
  have h3 := S.dim_le
  obtain ⟨A, hA, h⟩ := bind_ok h
  have hn := S.counts f d (by omega) (by omega) A hA
  have key : A.shift = 1 ∧ A.coordTrue.length = A.n + 2 := by
    have hp : 0 < (axes d).dL.length := by
      have := (S.axesOK d hd).nonempty
      exact List.length_pos_of_ne_nil this
    unfold fieldAxis at hA
    rw [if_pos (by omega), if_pos ⟨hf, hd⟩] at hA
    split_ifs at hA with hdf
    · unfold normalAxis at hA
      split at hA
      · split_ifs at hA
        · dsimp only at hA
          split at hA
          · cases hA
            refine ⟨rfl, ?_⟩
            simp [vertexAxis, partialSum_length]
            omega
          · cases hA
        · cases hA
          refine ⟨rfl, ?_⟩
          simp [vertexAxis, partialSum_length]
          omega
      · cases hA
    · unfold tangentAxis at hA
      split at hA
      · split_ifs at hA <;>
        · cases hA
          refine ⟨rfl, ?_⟩
          simp [pressureAxis, partialSum_length]
      · cases hA
  unfold FieldAxis.coord ptrAt at h
  rw [key.1] at h
  split_ifs at h with hs
  split at h
  · rename_i he
    have := (List.getElem?_eq_some_iff.1 he).1
    omega
  · cases h

theorem eulerian_range (S : Setup L G axes) (hp : Partitioned L) {f d w : ℕ} {I : ℤ} {per : Bool} {l : List (ℤ × K)} (hf : f < L.dim) (hd : d < L.dim)
    (h : eulerianNeighbors L axes f d I per w = .ok l) : ∀ p ∈ l, 0 ≤ p.1 ∧ p.1 < (L.n f d : ℤ) := by
  have h3 := S.dim_le
  have hn : 1 ≤ L.n f d := by
    have := hp f d (Or.inl hf) (by omega)
    omega
  obtain ⟨parts, h1, h⟩ := bind_ok h
  cases h
  intro p hp
  obtain ⟨q, hq, hp⟩ := List.mem_flatten.1 hp
  obtain ⟨o, -, ho⟩ := mem_mapM h1 hq
  unfold eulerianNeighbor at ho
  split_ifs at ho with c1 c2 c3
  · obtain ⟨x, -, ho⟩ := bind_ok ho
    cases ho
    rw [List.mem_singleton] at hp
    subst hp
    exact ⟨c1.1, c1.2⟩
  · obtain ⟨x, hx, ho⟩ := bind_ok ho
    have := meshCoord_range S hf hd hx
    cases ho
    rw [List.mem_singleton] at hp
    subst hp
    simp only
    omega
  · obtain ⟨x, hx, ho⟩ := bind_ok ho
    have := meshCoord_range S hf hd hx
    cases ho
    rw [List.mem_singleton] at hp
    subst hp
    simp only
    omega
  · cases ho
    cases hp

/-- the points and weights of a row, without the numbers of the columns -/
def rowPoints (L : MeshInfo) (kernel : DeltaKernel K) (XYZ widths : List K) (nb : List (List (ℤ × K))) : List (Stencil × K) :=
  if L.dim = 3 then
    match nb with
    | [nx, ny, nz] => nz.flatMap fun k => ny.flatMap fun j => nx.map fun i =>
      ((⟨k.1, j.1, i.1, 0⟩ : Stencil), okVal (delta XYZ [i.2, j.2, k.2] widths kernel))
    | _ => []
  else
    match nb with
    | [nx, ny] => ny.flatMap fun j => nx.map fun i => ((⟨0, j.1, i.1, 0⟩ : Stencil), okVal (delta XYZ [i.2, j.2] widths kernel))
    | _ => []

theorem deltaRow_points (hL : LayoutOK L) {kernel : DeltaKernel K} {XYZ widths : List K} {f : ℕ} {row : ℤ} (hf : f < L.dim)
    {nb : List (List (ℤ × K))} (hnb : ∀ d l, nb[d]? = some l → ∀ p ∈ l, 0 ≤ p.1 ∧ p.1 < (L.n f d : ℤ)) {E : List (Entry K)}
    (h : deltaRow debug L kernel XYZ widths f row nb = .ok E) :
    (∀ p ∈ rowPoints L.toMeshInfo kernel XYZ widths nb, Inside L.toMeshInfo f p.1) ∧
    E = (rowPoints L.toMeshInfo kernel XYZ widths nb).map fun p => ⟨row, col L f p.1, p.2⟩ := by
  have hin : ∀ {s : Stencil}, Inside L.toMeshInfo f s → L.getPackedGlobalIndex debug f s = .ok (col L f s) := fun hs =>
    (col_inside hL (Or.inl hf) debug hs).1
  unfold deltaRow at h
  unfold rowPoints
  split_ifs at h ⊢ with h3 h2
  · split at h
    · rename_i nx ny nz
      have ix : ∀ p ∈ nx, 0 ≤ p.1 ∧ p.1 < L.n f 0 := hnb 0 nx rfl
      have iy : ∀ p ∈ ny, 0 ≤ p.1 ∧ p.1 < L.n f 1 := hnb 1 ny rfl
      have iz : ∀ p ∈ nz, 0 ≤ p.1 ∧ p.1 < L.n f 2 := hnb 2 nz rfl
      have inside : ∀ i ∈ nx, ∀ j ∈ ny, ∀ k ∈ nz, Inside L.toMeshInfo f ⟨k.1, j.1, i.1, 0⟩ := by
        intro i hi j hj k hk
        refine ⟨fun d hd => ?_, rfl⟩
        have := ix i hi
        have := iy j hj
        have := iz k hk
        interval_cases d <;> simpa [coordOf]
      obtain ⟨e, he, h⟩ := bind_ok h
      cases h
      refine ⟨?_, ?_⟩
      · intro p hp
        obtain ⟨k, hk, hp⟩ := List.mem_flatMap.1 hp
        obtain ⟨j, hj, hp⟩ := List.mem_flatMap.1 hp
        obtain ⟨i, hi, rfl⟩ := List.mem_map.1 hp
        exact inside i hi j hj k hk
      · obtain ⟨v, rfl, hv⟩ := mapM_vals' he
        have hk : ∀ k ∈ nz, v k = ny.map fun j => nx.map fun i =>
            (⟨row, col L f ⟨k.1, j.1, i.1, 0⟩, okVal (delta XYZ [i.2, j.2, k.2] widths kernel)⟩ : Entry K) := by
          intro k hk
          obtain ⟨v', e', hv'⟩ := mapM_vals' (hv k hk)
          rw [e']
          apply List.map_congr_left
          intro j hj
          obtain ⟨v'', e'', hv''⟩ := mapM_vals' (hv' j hj)
          rw [e'']
          apply List.map_congr_left
          intro i hi
          have h := hv'' i hi
          obtain ⟨c, hc, h⟩ := bind_ok h
          obtain ⟨val, hval, h⟩ := bind_ok h
          rw [hin (inside i hi j hj k hk)] at hc
          cases hc
          rw [hval, ← Except.ok.inj h]
          rfl
        rw [List.map_congr_left hk]
        simp only [List.map_flatMap, List.flatMap_def, List.map_map, List.flatten_flatten]
        rw [List.map_flatten, List.map_map]
        congr 1
        apply List.map_congr_left
        intro k _
        simp [List.map_flatten, Function.comp_def]
    · cases h
  · split at h
    · rename_i nx ny
      have ix : ∀ p ∈ nx, 0 ≤ p.1 ∧ p.1 < L.n f 0 := hnb 0 nx rfl
      have iy : ∀ p ∈ ny, 0 ≤ p.1 ∧ p.1 < L.n f 1 := hnb 1 ny rfl
      have inside : ∀ i ∈ nx, ∀ j ∈ ny, Inside L.toMeshInfo f ⟨0, j.1, i.1, 0⟩ := by
        intro i hi j hj
        refine ⟨fun d hd => ?_, rfl⟩
        have := ix i hi
        have := iy j hj
        have := hL.flat h2 f (by omega)
        interval_cases d <;> simp_all [coordOf]
      obtain ⟨e, he, h⟩ := bind_ok h
      cases h
      refine ⟨?_, ?_⟩
      · intro p hp
        obtain ⟨j, hj, hp⟩ := List.mem_flatMap.1 hp
        obtain ⟨i, hi, rfl⟩ := List.mem_map.1 hp
        exact inside i hi j hj
      · obtain ⟨v, rfl, hv⟩ := mapM_vals' he
        have hk : ∀ j ∈ ny, v j = nx.map fun i =>
            (⟨row, col L f ⟨0, j.1, i.1, 0⟩, okVal (delta XYZ [i.2, j.2] widths kernel)⟩ : Entry K) := by
          intro j hj
          obtain ⟨v'', e'', hv''⟩ := mapM_vals' (hv j hj)
          rw [e'']
          apply List.map_congr_left
          intro i hi
          have h := hv'' i hi
          obtain ⟨c, hc, h⟩ := bind_ok h
          obtain ⟨val, hval, h⟩ := bind_ok h
          rw [hin (inside i hi j hj)] at hc
          cases hc
          rw [hval, ← Except.ok.inj h]
          rfl
        rw [List.map_congr_left hk]
        simp only [List.map_flatMap, List.flatMap_def, List.map_map]
        rw [List.map_flatten, List.map_map]
        congr 1
        apply List.map_congr_left
        intro k _
        simp [Function.comp_def]
    · cases h

theorem insert_points (hL : LayoutOK L) {f : ℕ} (hf : f < L.dim) {row : ℤ} (hrow : 0 ≤ row) {W : List (Stencil × K)}
    (hW : ∀ p ∈ W, Inside L.toMeshInfo f p.1) {g : ℕ} (hg : g < L.dim) {s : Stencil} (hs : Inside L.toMeshInfo g s) (A : Mat K) :
    (W.map fun p => (⟨row, col L f p.1, p.2⟩ : Entry K)).foldl Mat.insertValue A row (col L g s) =
      W.foldl (fun a p => if f = g ∧ p.1 = s then p.2 else a) (A row (col L g s)) := by
  induction W generalizing A with
  | nil => rfl
  | cons p W ih =>
    rw [List.map_cons, List.foldl_cons, List.foldl_cons, ih fun q hq => hW q (List.mem_cons_of_mem _ hq)]
    congr 1
    have hp := hW p (List.mem_cons_self ..)
    have r0 : 0 ≤ col L f p.1 := (col_inside hL (Or.inl hf) false hp).2.1
    unfold Mat.insertValue
    rw [if_neg (by simp only; omega)]
    simp only [Function.update_self]
    by_cases hc : f = g ∧ p.1 = s
    · obtain ⟨rfl, rfl⟩ := hc
      rw [Function.update_self, if_pos ⟨rfl, rfl⟩]
    · rw [if_neg hc, Function.update_of_ne]
      intro e
      exact hc (col_inj hL hf hg hp hs e.symm)

/-- one row of the delta operator, in terms that do not mention the processes -/
theorem delta_entry {B : ℕ → Boundary K} (C : Constructed debug L G axes T B) {P : BodyPack K} (fit : BodiesOK L P) {kernel : DeltaKernel K} {w : ℕ} {Δ : Mat K}
    (hΔ : IsDelta debug L axes B P kernel w Δ) {b i f : ℕ} {u : SingleBody K} (hu : P.bodies[b]? = some u) (hi : i < u.nPts) (hf : f < L.dim)
    {h : ℕ → K} (hw : ∀ p ∈ u.coords, ∀ d x, d < L.dim → p[d]? = some x → LocallyUniform (axes d) (h d) 1 x ∧ x + h d < (axes d).max) {row : ℤ}
    (hrow : P.getPackedGlobalIndex b i f = .ok row) :
    ∃ (X : List K) (I : ℕ → ℕ) (nb : List (List (ℤ × K))), u.coords[i]? = some X ∧ (∀ d, d < L.dim → ∃ x, X[d]? = some x ∧ InCell (axes d) (I d) x) ∧
      (List.range L.dim).mapM (fun d => eulerianNeighbors L axes f d (I d) (L.periodic 0 (d / 2)) w) = .ok nb ∧
      ∀ g s, g < L.dim → Inside L.toMeshInfo g s → Δ row (col L g s) =
        (rowPoints L.toMeshInfo kernel X ((List.range L.dim).map h) nb).foldl (fun a p => if f = g ∧ p.1 = s then p.2 else a) 0 := by
  have S := C.setup
  have h0 : 0 < L.dim := by omega
  obtain ⟨idx, hidx, hD⟩ := hΔ
  have hidx' := meshIdxAt_spec fit.procs hidx
  have hbm := List.mem_of_getElem? hu
  have hbd : u.dim = L.dim := (fit.pack.dim _ hbm).trans fit.dim
  obtain ⟨r, ⟨hr, ho, _⟩, _⟩ := C31_owner P fit.pack b i u hu hi
  have hl : IsLagDof P ⟨r, b, i, f⟩ := ⟨by rw [fit.dim]; exact hf, hr, u, hu, hi, ho⟩
  have hr' : r < L.mpiSize := by rw [← fit.procs]; exact hr
  obtain ⟨per, u', I0, IJK, widths, X, row', E, hper, hu', hI0, hwid, hIJK, hX, hrow', hrow0, hrow1, hone, hErow, hEcol, hent, -⟩ :=
    createDelta_entries fit.pack fit.dim fit.procs hD hl
  rw [hu] at hu'
  cases hu'
  rw [hrow] at hrow'
  cases hrow'
  have hmi := hidx' r b u hr' hu
  obtain ⟨hlcl, p, hp, hcell⟩ := meshIdx_point S.axesOK hbd hmi hIJK h0
  have hglb : u.bgPt r + (i - u.bgPt r) = i := by
    have := (ownsPoint_iff.1 ho).1
    unfold SingleBody.bgPt; omega
  rw [hglb, hX] at hp
  cases hp
  choose! I x hI1 hx1 hI2 using hcell
  obtain ⟨hlcl0, p0, hp0, hcell0⟩ := meshIdx_point S.axesOK hbd hmi hI0 h0
  choose! J y hJ1 hy1 hJ2 using hcell0
  have hwidths : widths = (List.range L.dim).map h := by
    have e : deltaWidths L axes I0 = .ok ((List.range L.dim).map h) := by
      apply mapM_ok
      intro d hd
      rw [List.mem_range] at hd
      simp only [hJ1 d hd]
      obtain ⟨⟨J', hc, hun⟩, hmax⟩ := hw p0 (List.mem_of_getElem? hp0) d (y d) hd (hy1 d hd)
      have := inCell_unique (S.axesOK d hd) hc (hJ2 d hd)
      subst this
      refine S.width_uniform hd le_rfl hun ?_
      by_contra hlt
      obtain ⟨c1, c2, c3⟩ := hc
      have hl : J d + 1 = (axes d).dL.length := by omega
      have e := vert_max (S.axesOK d hd)
      rw [← hl, vert_succ _ (J d) c1, hun (J d) _ (by omega) (by omega) (List.getElem?_eq_getElem c1)] at e
      change vert (axes d) (J d) ≤ y d at c2
      linarith
    rw [e] at hwid
    exact (Except.ok.inj hwid).symm
  have hflag : ∀ d, d < L.dim → per[d]? = some (L.periodic 0 (d / 2)) := by
    intro d hd
    obtain ⟨z, hz, hz'⟩ := (mapM_except_getElem? hper d).1 d (List.getElem?_range hd)
    have := deltaPeriodic_run C [] hr' (d := d) (by omega)
    rw [show (B r).run [] = B r from rfl] at this
    rw [this] at hz'
    rw [hz, Except.ok.inj hz']
  unfold deltaOne at hone
  obtain ⟨row', hrow', hone⟩ := bind_ok hone
  rw [hrow] at hrow'
  cases hrow'
  obtain ⟨nb, hnb, hone⟩ := bind_ok hone
  have hnb' : (List.range L.dim).mapM (fun d => eulerianNeighbors L axes f d (I d) (L.periodic 0 (d / 2)) w) = .ok nb := by
    rw [← hnb]
    unfold deltaNb
    apply mapM_congr_fun
    intro d hd
    rw [List.mem_range] at hd
    simp only [hI1 d hd, hflag d hd]
  refine ⟨X, I, nb, hX, fun d hd => ⟨x d, hx1 d hd, hI2 d hd⟩, hnb', ?_⟩
  intro g s hg hs
  have hrange : ∀ d l, nb[d]? = some l → ∀ p ∈ l, 0 ≤ p.1 ∧ p.1 < (L.n f d : ℤ) := by
    intro d l hd
    obtain ⟨d', hd', e⟩ := (mapM_except_getElem? hnb' d).2 l hd
    obtain ⟨hlt, rfl⟩ := getElem?_range_some hd'
    exact eulerian_range S C.part hf hlt e
  subst hwidths
  obtain ⟨hin, rfl⟩ := deltaRow_points S.layout hf hrange hone
  rw [hent _ (col_inside S.layout (Or.inl hg) false hs).2.1, insert_points S.layout hf hrow0 hin hg hs]

theorem eulerianNeighbors_layout (hM : L₂.toMeshInfo = L₁.toMeshInfo) (f d : ℕ) (I : ℤ) (per : Bool) (w : ℕ) :
    eulerianNeighbors L₂ axes f d I per w = eulerianNeighbors L₁ axes f d I per w := by
  unfold eulerianNeighbors eulerianNeighbor meshCoord
  rw [hM]

/-- the same delta operator -/
def SameDelta (L₁ L₂ : Layout) (P₁ P₂ : BodyPack K) (Δ₁ Δ₂ : Mat K) : Prop :=
  ∀ x y, SameRow P₁ P₂ x y → SameVel L₁ L₂ (Δ₁ x) (Δ₂ y)

theorem delta_same (C₁ : Constructed debug L₁ G axes T B₁) (C₂ : Constructed debug L₂ G axes T B₂) (hM : L₂.toMeshInfo = L₁.toMeshInfo)
    {P₁ P₂ : BodyPack K} (fit₁ : BodiesOK L₁ P₁) (fit₂ : BodiesOK L₂ P₂) (hB : SameBodies P₁ P₂) (one : OneWidth L₁ axes P₁)
    {kernel : DeltaKernel K} {w : ℕ} {Δ₁ Δ₂ : Mat K} (h1 : IsDelta debug L₁ axes B₁ P₁ kernel w Δ₁) (h2 : IsDelta debug L₂ axes B₂ P₂ kernel w Δ₂) :
    SameDelta L₁ L₂ P₁ P₂ Δ₁ Δ₂ := by
  rintro x y ⟨b, i, f, hf, hu, e1, e2⟩ g hg s hs
  obtain ⟨v, hv, hj⟩ := hB.other hu
  obtain ⟨u, hu, hi⟩ := hu
  obtain ⟨h, hw⟩ := one u (List.mem_of_getElem? hu)
  have hf1 : f < L₁.dim := by rw [← fit₁.dim]; exact hf
  obtain ⟨X₁, I₁, nb₁, a1, a2, a3, a4⟩ := delta_entry C₁ fit₁ h1 hu hi hf1 hw e1
  have hcoords := (hB.points b u v hu hv).2
  obtain ⟨X₂, I₂, nb₂, b1, b2, b3, b4⟩ := delta_entry C₂ fit₂ h2 hv hj (by rw [hM]; exact hf1) (h := h)
    (by rw [← hcoords, hM]; exact hw) e2
  rw [← hcoords, a1] at b1
  cases b1
  rw [hM] at b2 b3
  have hI : ∀ d, d < L₁.dim → I₁ d = I₂ d := by
    intro d hd
    obtain ⟨z, z1, z2⟩ := a2 d hd
    obtain ⟨z', z1', z2'⟩ := b2 d hd
    rw [z1] at z1'
    cases z1'
    exact inCell_unique (C₁.setup.axesOK d hd) z2 z2'
  have hnb : nb₁ = nb₂ := by
    have e : (List.range L₁.dim).mapM (fun d => eulerianNeighbors L₂ axes f d (I₂ d) (L₁.periodic 0 (d / 2)) w) = .ok nb₁ := by
      rw [← a3]
      apply mapM_congr_fun
      intro d hd
      rw [List.mem_range] at hd
      rw [eulerianNeighbors_layout hM, hI d hd]
    rw [e] at b3
    exact Except.ok.inj b3
  rw [a4 g s hg hs, b4 g s (by rw [hM]; exact hg) (by rw [hM]; exact hs), hnb, hM]

/-! ### Spreading, interpolation and the force system -/

variable {P₁ P₂ : BodyPack K}

theorem spread_same (h1 : PackOK P₁) (h2 : PackOK P₂) (hB : SameBodies P₁ P₂) {Δ₁ Δ₂ : Mat K} (hD : SameDelta L₁ L₂ P₁ P₂ Δ₁ Δ₂) {f₁ f₂ : ℤ → K}
    (hf : SameLag P₁ P₂ f₁ f₂) :
    SameVel L₁ L₂ (Mat.mult (P₁.nPts * P₁.dim) (Mat.transpose Δ₁) f₁) (Mat.mult (P₂.nPts * P₂.dim) (Mat.transpose Δ₂) f₂) := by
  intro g hg s hs
  exact sum_rows h1 h2 hB (g₁ := fun k => Δ₁ k (col L₁ g s) * f₁ k) (g₂ := fun k => Δ₂ k (col L₂ g s) * f₂ k)
    fun x y hxy => by simp only; rw [hD x y hxy g hg s hs, hf x y hxy]

theorem volume_same (h1 : LayoutOK L₁) (h2 : LayoutOK L₂) (hM : L₂.toMeshInfo = L₁.toMeshInfo) {vol₁ vol₂ : ℤ → K} (v1 : IsVolume debug L₁ G vol₁)
    (v2 : IsVolume debug L₂ G vol₂) : SameVel L₁ L₂ vol₁ vol₂ := by
  intro f hf s hs
  obtain ⟨a, b⟩ := SameVel.of_packed h1 h2 hM hf hs debug
  rw [v1 f s _ hf hs a, v2 f s _ (by rw [hM]; exact hf) (by rw [hM]; exact hs) b, hM]

theorem interpolate_same (h1 : LayoutOK L₁) (h2 : LayoutOK L₂) (hM : L₂.toMeshInfo = L₁.toMeshInfo) {vol₁ vol₂ : ℤ → K} (hv : SameVel L₁ L₂ vol₁ vol₂)
    {Δ₁ Δ₂ E₁ E₂ : Mat K} (hD : SameDelta L₁ L₂ P₁ P₂ Δ₁ Δ₂) (e1 : ∀ i c : ℤ, 0 ≤ c → c < L₁.UN → E₁ i c = Δ₁ i c * vol₁ c)
    (e2 : ∀ i c : ℤ, 0 ≤ c → c < L₂.UN → E₂ i c = Δ₂ i c * vol₂ c) {q₁ q₂ : ℤ → K} (hq : SameVel L₁ L₂ q₁ q₂) :
    SameLag P₁ P₂ (Mat.mult L₁.UN E₁ q₁) (Mat.mult L₂.UN E₂ q₂) := by
  intro x y hxy
  rw [interpolated_eq (e1 x), interpolated_eq (e2 y)]
  exact sum_velocity h1 h2 hM (g₁ := fun c => Δ₁ x c * vol₁ c * q₁ c) (g₂ := fun c => Δ₂ y c * vol₂ c * q₂ c) fun f hf s hs => by
    simp only
    rw [hD x y hxy f hf s hs, hv f hf s hs, hq f hf s hs]

/-- the same operators between grid and bodies -/
structure SameIB (L₁ L₂ : Layout) (P₁ P₂ : BodyPack K) (b₁ b₂ : IBOps K) : Prop where
  size : b₁.nF = P₁.nPts * P₁.dim ∧ b₂.nF = P₂.nPts * P₂.dim
  H : ∀ f₁ f₂ : ℤ → K, SameLag P₁ P₂ f₁ f₂ → SameVel L₁ L₂ (Mat.mult b₁.nF b₁.H f₁) (Mat.mult b₂.nF b₂.H f₂)
  E : ∀ q₁ q₂ : ℤ → K, SameVel L₁ L₂ q₁ q₂ → SameLag P₁ P₂ (Mat.mult L₁.UN b₁.E q₁) (Mat.mult L₂.UN b₂.E q₂)
  BNH : ∀ f₁ f₂ : ℤ → K, SameLag P₁ P₂ f₁ f₂ → SameVel L₁ L₂ (Mat.mult b₁.nF b₁.BNH f₁) (Mat.mult b₂.nF b₂.BNH f₂)
  EBNH : ∀ f₁ f₂ : ℤ → K, SameLag P₁ P₂ f₁ f₂ → SameLag P₁ P₂ (Mat.mult b₁.nF b₁.EBNH f₁) (Mat.mult b₂.nF b₂.EBNH f₂)
  zero : ∀ F : ℤ → K, (∀ c : ℤ, 0 ≤ c → c < L₂.UN → Mat.mult b₂.nF b₂.H F c = 0) → ∀ c : ℤ, Mat.mult b₂.nF b₂.BNH F c = 0
  kernel : ∀ F : ℤ → K, quadratic b₂.nF b₂.EBNH F = 0 → ∀ c : ℤ, 0 ≤ c → c < L₂.UN → Mat.mult b₂.nF b₂.H F c = 0

theorem sameIB {P : NSParams K} {o₁ o₂ : NSOps K} (C₁ : Constructed debug L₁ G axes T B₁) (C₂ : Constructed debug L₂ G axes T B₂)
    (hM : L₂.toMeshInfo = L₁.toMeshInfo) {u₂ : ℤ → K}
    (lap : ∀ q₁ q₂ : ℤ → K, SameVel L₁ L₂ q₁ q₂ → SameVel L₁ L₂ (Mat.mult L₁.UN o₁.L q₁) (Mat.mult L₂.UN o₂.L q₂))
    (c2 : createOperators debug L₂ G P (fun r => (B₂ r).run [.setGhostICs u₂]) = .ok o₂) (fit₁ : BodiesOK L₁ P₁) (fit₂ : BodiesOK L₂ P₂)
    (hB : SameBodies P₁ P₂) (one : OneWidth L₁ axes P₁) {kernel : DeltaKernel K} {w : ℕ} {idx₁ idx₂ : List (List (List (List ℤ)))}
    {hist₁ hist₂ : List (Boundary.Op K)} {b₁ b₂ : IBOps K} (d1 : P₁.updateMeshIdx axes = .ok idx₁) (d2 : P₂.updateMeshIdx axes = .ok idx₂)
    (e1 : createExtraOperators debug L₁ G axes P o₁ (fun r => (B₁ r).run hist₁) P₁ (meshIdxAt idx₁) kernel w = .ok b₁)
    (e2 : createExtraOperators debug L₂ G axes P o₂ (fun r => (B₂ r).run hist₂) P₂ (meshIdxAt idx₂) kernel w = .ok b₂)
    (himp : 0 ≤ P.diff.implicitCoeff) (hBN : GoodOrder L₂ P o₂.A) (hdt : 0 < P.dt) : SameIB L₁ L₂ P₁ P₂ b₁ b₂ := by
  obtain ⟨Δ₁, N₁, x1, x2, x3, x4, x5, x6, x7⟩ := createExtra_ok C₁ d1 e1
  obtain ⟨Δ₂, N₂, y1, y2, y3, y4, y5, y6, y7⟩ := createExtra_ok C₂ d2 e2
  have l1 := C₁.setup.layout
  have l2 := C₂.setup.layout
  have hD := delta_same C₁ C₂ hM fit₁ fit₂ hB one x1 y1
  obtain ⟨vol₁, v1⟩ := exists_volume C₁.setup debug
  obtain ⟨vol₂, v2⟩ := exists_volume C₂.setup debug
  have hH : ∀ f₁ f₂ : ℤ → K, SameLag P₁ P₂ f₁ f₂ → SameVel L₁ L₂ (Mat.mult b₁.nF b₁.H f₁) (Mat.mult b₂.nF b₂.H f₂) := by
    intro f₁ f₂ hf
    rw [x3, x4, y3, y4]
    exact spread_same fit₁.pack fit₂.pack hB hD hf
  have hE : ∀ q₁ q₂ : ℤ → K, SameVel L₁ L₂ q₁ q₂ → SameLag P₁ P₂ (Mat.mult L₁.UN b₁.E q₁) (Mat.mult L₂.UN b₂.E q₂) := fun q₁ q₂ hq =>
    interpolate_same l1 l2 hM (volume_same l1 l2 hM v1 v2) hD (x5 vol₁ v1) (y5 vol₂ v2) hq
  have hN : ∀ f₁ f₂ : ℤ → K, SameLag P₁ P₂ f₁ f₂ → SameVel L₁ L₂ (Mat.mult b₁.nF b₁.BNH f₁) (Mat.mult b₂.nF b₂.BNH f₂) := by
    intro f₁ f₂ hf g hg s hs
    rw [x6, y6, mult_mul, mult_mul]
    exact bn_same l1 l2 hM lap x2 y2 _ _ (hH _ _ hf) g hg s hs
  refine ⟨⟨x3, y3⟩, hH, hE, hN, ?_, ?_, ?_⟩
  · intro f₁ f₂ hf x y hxy
    rw [x7, y7, mult_mul, mult_mul]
    exact hE _ _ (hN _ _ hf) x y hxy
  · intro F hF c
    rw [y6, mult_mul, mult_congr hF, mult_zero]
  · intro F hF
    exact ((force_system C₂ c2 d2 e2 himp).2 hBN hdt F).2.1 hF

theorem same_forces (h1 : PackOK P₁) (h2 : PackOK P₂) (hB : SameBodies P₁ P₂) {b₁ b₂ : IBOps K} (I : SameIB L₁ L₂ P₁ P₂ b₁ b₂) {l2 : LayoutOK L₂}
    (hM : L₂.toMeshInfo = L₁.toMeshInfo) {r₁ r₂ x₁ x₂ : ℤ → K} (hr : SameLag P₁ P₂ r₁ r₂)
    (e1 : ∀ i : ℤ, 0 ≤ i → i < b₁.nF → Mat.mult b₁.nF b₁.EBNH x₁ i = r₁ i) (e2 : ∀ i : ℤ, 0 ≤ i → i < b₂.nF → Mat.mult b₂.nF b₂.EBNH x₂ i = r₂ i) :
    SameVel L₁ L₂ (Mat.mult b₁.nF b₁.H x₁) (Mat.mult b₂.nF b₂.H x₂) ∧ SameVel L₁ L₂ (Mat.mult b₁.nF b₁.BNH x₁) (Mat.mult b₂.nF b₂.BNH x₂) ∧
    ((∀ F : ℤ → K, (∀ c : ℤ, 0 ≤ c → c < L₂.UN → Mat.mult b₂.nF b₂.H F c = 0) → ∀ k : ℤ, 0 ≤ k → k < b₂.nF → F k = 0) → SameLag P₁ P₂ x₁ x₂) := by
  obtain ⟨n1, n2⟩ := I.size
  obtain ⟨x', hx'⟩ := exists_sameLag h2 hB x₁
  have hz : quadratic b₂.nF b₂.EBNH (fun k => x' k + -1 * x₂ k) = 0 := by
    unfold quadratic
    refine Finset.sum_eq_zero fun k hk => ?_
    have hk := Finset.mem_range.1 hk
    obtain ⟨y, hy⟩ := exists_row h2 h1 hB.symm (x := (k : ℤ)) (by omega) (by rw [← n2]; omega)
    have hy := hy.symm hB.symm
    obtain ⟨⟨a0, a1⟩, -⟩ := hy.range h1 h2 hB
    rw [mult_sub, ← I.EBNH _ _ hx' y k hy, e1 y a0 (by rw [n1]; exact a1), hr y k hy, e2 k (by omega) (by omega), sub_self, mul_zero]
  have hH := I.kernel _ hz
  have hN := I.zero _ hH
  refine ⟨?_, ?_, ?_⟩
  · intro f hf s hs
    rw [I.H _ _ hx' f hf s hs]
    obtain ⟨v, -, hv, hc, ht⟩ := exists_unknown l2 (f := f) (s := s) (by rw [hM]; exact hf) (by rw [hM]; exact hs)
    have r := col_range l2 hv
    rw [hc, ht] at r
    have := hH _ r.1 r.2
    rw [mult_sub] at this
    exact sub_eq_zero.1 this
  · intro f hf s hs
    rw [I.BNH _ _ hx' f hf s hs]
    have := hN (col L₂ f s)
    rw [mult_sub] at this
    exact sub_eq_zero.1 this
  · intro reg x y hxy
    obtain ⟨-, a0, a1⟩ := hxy.range h1 h2 hB
    have := reg _ hH y a0 (by rw [n2]; exact a1)
    rw [hx' x y hxy]
    linarith

/-- prescribed velocities that agree -/
def SameUB (P₁ P₂ : BodyPack K) : Option (ℤ → K) → Option (ℤ → K) → Prop
  | none, none => True
  | some a, some b => SameLag P₁ P₂ a b
  | _, _ => False

theorem SameLag.vec (h1 : PackOK P₁) (h2 : PackOK P₂) (hB : SameBodies P₁ P₂) {f₁ f₂ : ℤ → K} (h : SameLag P₁ P₂ f₁ f₂) {n₁ n₂ : ℕ}
    (e1 : n₁ = P₁.nPts * P₁.dim) (e2 : n₂ = P₂.nPts * P₂.dim) : SameLag P₁ P₂ (PetIBM.vec n₁ f₁) (PetIBM.vec n₂ f₂) := by
  intro x y hxy
  obtain ⟨a, b⟩ := hxy.range h1 h2 hB
  unfold PetIBM.vec
  rw [if_pos (by rw [e1]; exact a), if_pos (by rw [e2]; exact b)]
  exact h x y hxy

theorem rhsForces_same (h1 : PackOK P₁) (h2 : PackOK P₂) (hB : SameBodies P₁ P₂) {b₁ b₂ : IBOps K} (I : SameIB L₁ L₂ P₁ P₂ b₁ b₂)
    {UB₁ UB₂ : Option (ℤ → K)} (hUB : SameUB P₁ P₂ UB₁ UB₂) {U₁ U₂ : ℤ → K} (hU : SameVel L₁ L₂ U₁ U₂) :
    SameLag P₁ P₂ (assembleRHSForces L₁ b₁ UB₁ U₁) (assembleRHSForces L₂ b₂ UB₂ U₂) := by
  have h := SameLag.vec h1 h2 hB (I.E _ _ hU) I.size.1 I.size.2
  intro x y hxy
  match UB₁, UB₂, hUB with
  | none, none, _ =>
    simp only [assembleRHSForces]
    rw [h x y hxy]
  | some a, some b, hab =>
    simp only [assembleRHSForces]
    rw [h x y hxy, show a x = b y from hab x y hxy]

end PetIBM
