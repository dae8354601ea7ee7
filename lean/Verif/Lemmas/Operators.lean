/-
Loops of the operators in terms of packed indices.
-/
import Verif.Lemmas.Column
import Verif.Lemmas.Matrix
import Verif.Lemmas.Setup
import Verif.Model.Operators

set_option linter.unusedSectionVars false

namespace PetIBM

open Spec Layout

variable {K : Type} [Field K]

/-- stencil of an unknown -/
def Spec.Unknown.st (u : Unknown) : Stencil := ⟨u.k, u.j, u.i, 0⟩

theorem Spec.IsUnknown.inside {L : Layout} {u : Unknown} (h : IsUnknown L u) : Inside L.toMeshInfo u.comp u.st :=
  inside_nat h.2.1 h.2.2.1 h.2.2.2.1

theorem Spec.IsUnknown.ext {L : Layout} {u v : Unknown} (hu : IsUnknown L u) (hv : IsUnknown L v)
    (hc : u.comp = v.comp) (hs : u.st = v.st) : u = v := by
  obtain ⟨r, f, i, j, k⟩ := u
  obtain ⟨r', f', i', j', k'⟩ := v
  simp only [Unknown.st, Stencil.mk.injEq, Int.natCast_inj] at hs hc
  obtain ⟨rfl, rfl, rfl, _⟩ := hs
  subst hc
  obtain rfl := owner_unique hu.2.2.2.2.2 hv.2.2.2.2.2
  rfl

theorem Spec.IsUnknown.row_inj {L : Layout} (hL : LayoutOK L) {u v : Unknown} (hu : IsUnknown L u) (hv : IsUnknown L v)
    (h : col L u.comp u.st = col L v.comp v.st) : u = v := by
  obtain ⟨h1, h2⟩ := col_inj hL hu.1 hv.1 hu.inside hv.inside h
  exact hu.ext hv h1 h2

/-- every inside point is the stencil of an unknown -/
theorem exists_unknown {L : Layout} (hL : LayoutOK L) {f : ℕ} (hf : f < L.dim) {s : Stencil}
    (hs : Inside L.toMeshInfo f s) : ∃ u ∈ unknowns L, IsUnknown L u ∧ u.comp = f ∧ u.st = s := by
  obtain ⟨i, j, k, rfl, hi, hj, hk⟩ := hs.nat
  obtain ⟨r, hr, ho⟩ := exists_owner hL (Or.inl hf) hi hj hk
  have hu : IsUnknown L ⟨r, f, i, j, k⟩ := ⟨hf, hi, hj, hk, hr, ho⟩
  exact ⟨_, (mem_unknowns hL).2 hu, hu, rfl, rfl⟩

theorem flatMap_unknowns {β : Type} (L : Layout) (h : ℕ → ℕ → ℕ × ℕ × ℕ → List β) :
    ((List.range L.mpiSize).flatMap fun r => (List.range L.dim).flatMap fun f => (L.box f r).flatMap (h r f)) =
      (unknowns L).flatMap fun u => h u.rank u.comp (u.i, u.j, u.k) := by
  unfold unknowns
  rw [List.flatMap_assoc]
  congr 1; funext r
  rw [List.flatMap_assoc]
  congr 1; funext f
  rw [List.flatMap_map]

/-- loops over all ranks, fields and points that succeed at every unknown -/
theorem loop_unknowns {β : Type} {L : Layout} (hL : LayoutOK L) (g : ℕ → ℕ × ℕ × ℕ → Except Error β)
    (h : ℕ → ℕ × ℕ × ℕ → β)
    (hg : ∀ u, IsUnknown L u → g u.comp (u.i, u.j, u.k) = .ok (h u.comp (u.i, u.j, u.k))) :
    ((List.range L.mpiSize).mapM fun r => (List.range L.dim).mapM fun f => (L.box f r).mapM (g f)) =
      .ok ((List.range L.mpiSize).map fun r => (List.range L.dim).map fun f => (L.box f r).map (h f)) := by
  apply mapM_ok
  intro r hr
  apply mapM_ok
  intro f hf
  apply mapM_ok
  rintro ⟨i, j, k⟩ hp
  have hf := List.mem_range.1 hf
  have ho := mem_box.1 hp
  have hin := owns_inGrid hL (Or.inl hf) ho
  exact hg ⟨r, f, i, j, k⟩ ⟨hf, hin.1, hin.2.1, hin.2.2, List.mem_range.1 hr, ho⟩

/-- the value of a stored field at a neighbour with an index -/
theorem Spec.Stored.value {L : Layout} (hL : LayoutOK L) {f : ℕ} (hf : f < L.dim ∨ f = 3) {debug : Bool} {q : ℤ → K}
    {P : Stencil → K} (hP : Stored debug L f q P) {s : Stencil} (hs : Inside L.toMeshInfo f s) {d : ℕ} (hd : d < L.dim)
    {x : ℤ} (hx : -1 ≤ x ∧ x ≤ L.n f d) (hc : col L f (along s d x) ≠ -1) :
    P (along s d x) = q (col L f (along s d x)) := by
  have hd3 : d < 3 := by rcases hL.dim with h | h <;> omega
  by_cases hin : 0 ≤ x ∧ x < L.n f d
  · have h := hs.along d hd3 x hin
    exact hP.inside _ _ h (col_inside hL hf debug h).1
  · have hx' : x = -1 ∨ x = L.n f d := by omega
    have hp : L.periodic 0 d = true := by
      by_contra h
      exact hc ((col_neighbour hL hf debug hs hd3 hx).2.2.2 ⟨by simpa using h, hx'⟩)
    obtain ⟨_, h2, h3⟩ := col_periodic hL hf debug hs hd3 hp hx'
    rw [hP.periodic s d x hd hs hp hx', h2]
    exact hP.inside _ _ h3 (col_inside hL hf debug h3).1

theorem Spec.Stored.self {L : Layout} (hL : LayoutOK L) {f : ℕ} (hf : f < L.dim ∨ f = 3) {debug : Bool} {q : ℤ → K}
    {P : Stencil → K} (hP : Stored debug L f q P) {s : Stencil} (hs : Inside L.toMeshInfo f s) :
    P s = q (col L f s) :=
  hP.inside _ _ hs (col_inside hL hf debug hs).1

/-! ### Gradient -/

theorem gradientNeighbors_eq (f : ℕ) (hf : f < 3) (i j k : ℤ) :
    gradientNeighbors f i j k = [⟨k, j, i, 0⟩, along ⟨k, j, i, 0⟩ f (coordOf ⟨k, j, i, 0⟩ f + 1)] := by
  unfold gradientNeighbors along coordOf
  interval_cases f <;> rfl

theorem gradientKernel_eq (G : Geom K) (normalize : Bool) (f : ℕ) (hf : f < 3) (i j k : ℤ) :
    gradientKernel G normalize f i j k =
      [-(if normalize then 1 else 1 / G.dL f f (coordOf ⟨k, j, i, 0⟩ f)), if normalize then 1 else 1 / G.dL f f (coordOf ⟨k, j, i, 0⟩ f)] := by
  unfold gradientKernel coordOf
  cases normalize <;> interval_cases f <;> rfl

/-- value of the gradient entry -/
def gradVal (G : Geom K) (normalize : Bool) (f : ℕ) (s : Stencil) : K :=
  if normalize then 1 else 1 / G.dL f f (coordOf s f)

/-- entries of one gradient row -/
def gradPure (L : Layout) (G : Geom K) (normalize : Bool) (f : ℕ) (s : Stencil) : List (Entry K) :=
  [⟨col L f s, col L 3 s, -gradVal G normalize f s⟩,
   ⟨col L f s, col L 3 (along s f (coordOf s f + 1)), gradVal G normalize f s⟩]

variable [LinearOrder K] [IsStrictOrderedRing K] {L : Layout} {G : Geom K} {axes : ℕ → Axis K}

theorem Spec.Setup.inside_pressure (S : Setup L G axes) {f : ℕ} (hf : f < L.dim) {s : Stencil}
    (hs : Inside L.toMeshInfo f s) : Inside L.toMeshInfo 3 s := by
  refine ⟨fun d hd => ?_, hs.2⟩
  have := hs.1 d hd
  have := S.n_le f d hf hd
  omega

theorem gradientRow_eq (S : Setup L G axes) (debug normalize : Bool) {f : ℕ} (hf : f < L.dim) {i j k : ℕ}
    (hs : Inside L.toMeshInfo f ⟨k, j, i, 0⟩) :
    gradientRow debug L G normalize f (i, j, k) = .ok (gradPure L G normalize f ⟨k, j, i, 0⟩) := by
  have hL := S.layout
  have h3 := S.dim_le
  have hs3 := S.inside_pressure hf hs
  unfold gradientRow
  simp only
  rw [gradientNeighbors_eq f (by omega), gradientKernel_eq G normalize f (by omega)]
  simp only [List.zip_cons_cons, List.zip_nil_right, List.mapM_cons, List.mapM_nil]
  rw [(col_inside hL (Or.inl hf) debug hs).1, (col_inside hL (Or.inr rfl) debug hs3).1,
    (col_neighbour hL (Or.inr rfl) debug hs3 (d := f) (by omega)
      (x := coordOf ⟨k, j, i, 0⟩ f + 1) (by have := hs3.1 f (by omega); omega)).1]
  rfl

theorem createGradient_eq (S : Setup L G axes) (debug normalize : Bool) :
    createGradient debug L G normalize =
      assemble L.UN L.pN ((unknowns L).flatMap fun u => gradPure L G normalize u.comp u.st) [] := by
  unfold createGradient
  rw [loop_unknowns S.layout (gradientRow debug L G normalize) (fun f p => gradPure L G normalize f ⟨p.2.2, p.2.1, p.1, 0⟩)
    (fun u hu => gradientRow_eq S debug normalize hu.1 hu.inside)]
  show assemble _ _ _ _ = _
  rw [List.flatMap_map]
  simp only [List.flatMap_map]
  congr 1
  exact flatMap_unknowns L fun r f p => gradPure L G normalize f ⟨p.2.2, p.2.1, p.1, 0⟩

theorem gradPure_range (S : Setup L G axes) (normalize : Bool) :
    ∀ e ∈ ((unknowns L).flatMap fun u => gradPure L G normalize u.comp u.st) ++ [], e.row < (L.UN : ℤ) ∧ e.col < (L.pN : ℤ) := by
  intro e he
  rw [List.append_nil] at he
  obtain ⟨u, hu, he⟩ := List.mem_flatMap.1 he
  have hu := (mem_unknowns S.layout).1 hu
  have h3 := S.dim_le
  have hf := hu.1
  have hs3 := S.inside_pressure hf hu.inside
  have r := (col_inside S.layout (Or.inl hf) false hu.inside).2.2
  have c1 := (col_inside S.layout (Or.inr rfl) false hs3).2.2
  have c2 := (col_neighbour S.layout (Or.inr rfl) false hs3 (d := u.comp) (by omega)
      (x := coordOf u.st u.comp + 1) (by have := hs3.1 u.comp (by omega); omega)).2.1
  unfold vecSize at r c1 c2
  rw [if_neg (by omega)] at r
  simp only [if_true] at c1 c2
  simp only [gradPure, List.mem_cons, List.not_mem_nil, or_false] at he
  rcases he with rfl | rfl
  · exact ⟨r, c1⟩
  · refine ⟨r, ?_⟩
    show col L 3 _ < _
    omega

/-- the two pressure columns of a gradient row -/
theorem grad_cols (S : Setup L G axes) {f : ℕ} (hf : f < L.dim) (hn : L.periodic 0 f = true → 2 ≤ L.n 3 f)
    {s : Stencil} (hs : Inside L.toMeshInfo f s) :
    0 ≤ col L 3 s ∧ 0 ≤ col L 3 (along s f (coordOf s f + 1)) ∧ col L 3 s ≠ col L 3 (along s f (coordOf s f + 1)) := by
  have h3 := S.dim_le
  have hs3 := S.inside_pressure hf hs
  have hx := hs.1 f (by omega)
  have c1 := (col_inside S.layout (Or.inr rfl) false hs3).2
  obtain ⟨_, n2, n3⟩ := S.staggered f hf
  by_cases hin : coordOf s f + 1 < L.n 3 f
  · have hi := hs3.along f (by omega) (coordOf s f + 1) (by omega)
    refine ⟨c1.1, (col_inside S.layout (Or.inr rfl) false hi).2.1, ?_⟩
    intro h
    have e := col_inj_pressure S.layout hs3 hi h
    have := coordOf_along s f f (coordOf s f + 1) (by omega) (by omega)
    rw [← e] at this
    simp at this
  · have hp : L.periodic 0 f = true := by
      by_contra h
      have := n3 (by simpa using h)
      omega
    have hn' := n2 hp
    have hn2 := hn hp
    have e : coordOf s f + 1 = L.n 3 f := by omega
    obtain ⟨_, h2, hi⟩ := col_periodic S.layout (Or.inr rfl) false hs3 (d := f) (by omega) hp (x := coordOf s f + 1) (Or.inr e)
    rw [h2]
    refine ⟨c1.1, (col_inside S.layout (Or.inr rfl) false hi).2.1, ?_⟩
    intro h
    have e2 := col_inj_pressure S.layout hs3 hi h
    have := coordOf_along s f f ((coordOf s f + 1) % L.n 3 f) (by omega) (by omega)
    rw [← e2, e] at this
    simp at this
    omega

theorem gradient_filter (S : Setup L G axes) (normalize : Bool) {u : Unknown} (hu : IsUnknown L u)
    (p : Entry K → Bool) (hp : ∀ e, p e = true → e.row = col L u.comp u.st) :
    ((unknowns L).flatMap fun u => gradPure L G normalize u.comp u.st).filter p =
      (gradPure L G normalize u.comp u.st).filter p := by
  classical
  apply filter_flatMap_single (nodup_unknowns L) ((mem_unknowns S.layout).2 hu)
    (fun u => gradPure L G normalize u.comp u.st)
  intro v hv hne e he
  by_contra h
  have h := hp e (by simpa using h)
  apply hne
  have hv := (mem_unknowns S.layout).1 hv
  apply hv.row_inj S.layout hu
  simp only [gradPure, List.mem_cons, List.not_mem_nil, or_false] at he
  rcases he with rfl | rfl <;> exact h

theorem gradient_nodup (S : Setup L G axes) (normalize : Bool) {u : Unknown} (hu : IsUnknown L u)
    (hn : L.periodic 0 u.comp = true → 2 ≤ L.n 3 u.comp) :
    ((((unknowns L).flatMap fun u => gradPure L G normalize u.comp u.st).filter fun e =>
      decide (e.row = col L u.comp u.st ∧ 0 ≤ e.col)).map (·.col)).Nodup := by
  obtain ⟨c1, c2, c3⟩ := grad_cols S hu.1 hn hu.inside
  rw [gradient_filter S normalize hu _ (by intro e he; simp at he; exact he.1)]
  simp [gradPure, c1, c2, c3]

end PetIBM
