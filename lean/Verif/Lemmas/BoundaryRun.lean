/-
Histories of calls on the boundary object act point by point.
-/
import Verif.Lemmas.Boundary

set_option linter.unusedSectionVars false

namespace PetIBM

open Spec

variable {K : Type} [Field K]

namespace SingleBoundary

/-- one call, one point -/
def pointStep (b : SingleBoundary K) (p : GhostPointInfo K) : Boundary.Op K → GhostPointInfo K
  | .setGhostICs v => b.setGhostICsKernel (v p.targetPackedId) p
  | .updateEqs v dt => b.updateEqsKernel (v p.targetPackedId) dt p
  | .updateGhostValues v => { p with value := p.a0 * v p.targetPackedId + p.a1 }

/-- a history, one point -/
def pointRun (b : SingleBoundary K) (h : List (Boundary.Op K)) (p : GhostPointInfo K) : GhostPointInfo K :=
  h.foldl b.pointStep p

/-- a call on one boundary -/
def step (b : SingleBoundary K) : Boundary.Op K → SingleBoundary K
  | .setGhostICs v => b.setGhostICs v
  | .updateEqs v dt => b.updateEqs v dt
  | .updateGhostValues v => b.updateGhostValues v

theorem step_eq (b : SingleBoundary K) (op : Boundary.Op K) : b.step op = b.mapPoints fun p => b.pointStep p op := by
  cases op <;> rfl

theorem run_eq (b : SingleBoundary K) (h : List (Boundary.Op K)) :
    h.foldl step b = b.mapPoints (b.pointRun h) := by
  induction h using List.reverseRecOn with
  | nil => simp [mapPoints, pointRun]
  | append_singleton h op ih =>
    rw [List.foldl_append, List.foldl_cons, List.foldl_nil, ih, step_eq]
    simp only [mapPoints, List.map_map, pointRun, List.foldl_append, List.foldl_cons, List.foldl_nil]
    congr 1

/-- the members that no call changes -/
theorem pointStep_static (b : SingleBoundary K) (p : GhostPointInfo K) (op : Boundary.Op K) :
    (b.pointStep p op).targetPackedId = p.targetPackedId ∧ (b.pointStep p op).dL = p.dL ∧
    (b.pointStep p op).targetStencil = p.targetStencil ∧ (b.pointStep p op).lclId = p.lclId ∧
    (b.pointStep p op).area = p.area := by
  cases op with
  | setGhostICs v =>
    simp only [pointStep, setGhostICsKernel, kernel]
    cases b.type <;> simp only [and_self]
    · split_ifs <;> simp
    · split_ifs <;> simp [kernelSameDir, kernelDiffDir]
  | updateEqs v dt =>
    simp only [pointStep, updateEqsKernel, kernel]
    cases b.type <;> simp only [and_self]
    split_ifs <;> simp [kernelSameDir, kernelDiffDir]
  | updateGhostValues v => simp [pointStep]

theorem pointRun_static (b : SingleBoundary K) (h : List (Boundary.Op K)) (p : GhostPointInfo K) :
    (b.pointRun h p).targetPackedId = p.targetPackedId ∧ (b.pointRun h p).dL = p.dL ∧
    (b.pointRun h p).targetStencil = p.targetStencil ∧ (b.pointRun h p).lclId = p.lclId ∧
    (b.pointRun h p).area = p.area := by
  induction h generalizing p with
  | nil => simp [pointRun]
  | cons op h ih =>
    have h1 := ih (b.pointStep p op)
    have h2 := pointStep_static b p op
    simp only [pointRun, List.foldl_cons] at h1 ⊢
    rw [h1.1, h1.2.1, h1.2.2.1, h1.2.2.2.1, h1.2.2.2.2]
    exact h2

end SingleBoundary

theorem Boundary.run_eq (B : Boundary K) (h : List (Boundary.Op K)) :
    B.run h = B.map fun l => l.map fun b => b.mapPoints (b.pointRun h) := by
  have : B.run h = B.map fun l => l.map fun b => h.foldl SingleBoundary.step b := by
    induction h using List.reverseRecOn with
    | nil => simp [Boundary.run]
    | append_singleton h op ih =>
      rw [Boundary.run, List.foldl_append, List.foldl_cons, List.foldl_nil, ← Boundary.run, ih]
      cases op <;>
        simp [Boundary.step, Boundary.setGhostICs, Boundary.updateEqs, Boundary.updateGhostValues, SingleBoundary.step,
          List.foldl_append, Function.comp_def]
  rw [this]
  simp only [SingleBoundary.run_eq]

theorem find_mapPoints {T : Type} (m : StencilMap T) (g : T → T) (s : Stencil) :
    StencilMap.find (m.map fun kp => (kp.1, g kp.2)) s = (StencilMap.find m s).map g := by
  induction m with
  | nil => rfl
  | cons a m ih =>
    simp only [List.map_cons, StencilMap.find]
    split_ifs <;> simp [ih]

/-- A point after a history comes from a point before it. -/
theorem point_run {B : Boundary K} {h : List (Boundary.Op K)} {f loc : ℕ} {s : Stencil} {b : SingleBoundary K}
    {p : GhostPointInfo K} (hp : Point (B.run h) f loc s b p) :
    ∃ b0 p0, Point B f loc s b0 p0 ∧ b = b0.mapPoints (b0.pointRun h) ∧ p = b0.pointRun h p0 := by
  obtain ⟨l, hl, hb, hs⟩ := hp
  rw [Boundary.run_eq, List.getElem?_map, Option.map_eq_some_iff] at hl
  obtain ⟨l0, hl0, rfl⟩ := hl
  rw [List.getElem?_map, Option.map_eq_some_iff] at hb
  obtain ⟨b0, hb0, rfl⟩ := hb
  simp only [SingleBoundary.mapPoints] at hs
  rw [find_mapPoints, Option.map_eq_some_iff] at hs
  obtain ⟨p0, hp0, rfl⟩ := hs
  exact ⟨b0, p0, ⟨l0, hl0, hb0, hp0⟩, rfl, rfl⟩

theorem run_point {B : Boundary K} {h : List (Boundary.Op K)} {f loc : ℕ} {s : Stencil} {b0 : SingleBoundary K}
    {p0 : GhostPointInfo K} (hp : Point B f loc s b0 p0) :
    Point (B.run h) f loc s (b0.mapPoints (b0.pointRun h)) (b0.pointRun h p0) := by
  obtain ⟨l, hl, hb, hs⟩ := hp
  refine ⟨_, by rw [Boundary.run_eq, List.getElem?_map, hl]; rfl, by rw [List.getElem?_map, hb]; rfl, ?_⟩
  simp only [SingleBoundary.mapPoints]
  rw [find_mapPoints, hs]; rfl

theorem mapM_except_getElem? {α β ε : Type} {g : α → Except ε β} {l : List α} {ys : List β} (h : l.mapM g = .ok ys)
    (i : ℕ) : (∀ x, l[i]? = some x → ∃ y, ys[i]? = some y ∧ g x = .ok y) ∧
      (∀ y, ys[i]? = some y → ∃ x, l[i]? = some x ∧ g x = .ok y) := by
  induction l generalizing ys i with
  | nil => cases h; simp
  | cons a l ih =>
    rw [List.mapM_cons] at h
    rcases ha : g a with e | b
    · rw [ha] at h; cases h
    · rw [ha] at h
      simp only [bind, Except.bind] at h
      rcases hl : l.mapM g with e | bs
      · rw [hl] at h; cases h
      · rw [hl] at h
        cases h
        cases i with
        | zero => simp [ha]
        | succ i => simpa using ih hl i

theorem getElem?_range_some {n i x : ℕ} (h : (List.range n)[i]? = some x) : i < n ∧ i = x := by
  rw [List.getElem?_eq_some_iff] at h
  obtain ⟨h1, h2⟩ := h
  rw [List.length_range] at h1
  rw [List.getElem_range] at h2
  exact ⟨h1, h2⟩

theorem createSingleBoundary_static {debug : Bool} {L : Layout} {G : Geom K} {r loc f : ℕ} {v : K} {t : BCType}
    {b : SingleBoundary K} (h : createSingleBoundary debug L G r loc f v t = .ok b) :
    b.loc = loc ∧ b.field = f ∧ b.type = t ∧ b.value = v ∧ t ≠ .NOBC := by
  have key : ∀ t', t' ≠ .NOBC → (do
      let onThisProc ← checkBoundaryProc L f r loc
      let points ← if onThisProc then getGhostPointList debug L G f r loc else pure []
      return ({ loc := loc, field := f, type := t', value := v, onThisProc := onThisProc, points := points } :
        SingleBoundary K)) = Except.ok b → b.loc = loc ∧ b.field = f ∧ b.type = t' ∧ b.value = v ∧ t' ≠ .NOBC := by
    intro t' ht' h
    rcases h1 : checkBoundaryProc L f r loc with e | on
    · rw [h1] at h; cases h
    · rw [h1] at h
      simp only [bind, Except.bind] at h
      cases on with
      | true =>
        simp only [if_true] at h
        rcases h2 : getGhostPointList debug L G f r loc with e | pts
        · rw [h2] at h; cases h
        · rw [h2] at h
          cases h
          exact ⟨rfl, rfl, rfl, rfl, ht'⟩
      | false => cases h; exact ⟨rfl, rfl, rfl, rfl, ht'⟩
  cases t with
  | NOBC => cases h
  | PERIODIC => cases h; simp
  | DIRICHLET => exact key _ (by simp) h
  | NEUMANN => exact key _ (by simp) h
  | CONVECTIVE => exact key _ (by simp) h

/-- Boundaries that register points. -/
theorem createSingleBoundary_points (debug : Bool) {L : Layout} (hL : LayoutOK L) (G : Geom K) (f r loc : ℕ)
    (hf : f < L.dim) (hloc : loc < L.dim * 2) (hn : ∀ d, d < 3 → 0 < L.n f d) (v : K) (t : BCType) (ht : t ≠ .NOBC)
    (ht' : t ≠ .PERIODIC) :
    ∃ b, createSingleBoundary debug L G r loc f v t = .ok b ∧ StencilMap.Sorted b.points ∧
      (b.onThisProc = true ↔ checkBoundaryProc L f r loc = .ok true) ∧
      (b.onThisProc = false → b.points = []) ∧
      (∀ s p, (s, p) ∈ b.points → GoodRecord debug L G f r loc s p ∧ p.a0 = 0 ∧ p.a1 = 0) ∧
      (b.onThisProc = true → ∀ s, OnFace L.toMeshInfo f loc s →
        (∀ d, d < 3 → d ≠ loc / 2 → (L.bg f r d : ℤ) ≤ coordOf s d ∧ coordOf s d < L.ed f r d) →
        ∃ p, (s, p) ∈ b.points) := by
  have hd3 : L.dim ≤ 3 := by rcases hL.dim with h | h <;> omega
  obtain ⟨on, hon⟩ : ∃ on, checkBoundaryProc L f r loc = .ok on := by
    unfold checkBoundaryProc
    rw [if_pos (by omega)]
    simp only
    have := hn (loc / 2) (by omega)
    split_ifs <;> first | exact ⟨_, rfl⟩ | omega
  have hzero : ∀ pts, getGhostPointList debug L G f r loc = .ok pts → ∀ s p, (s, p) ∈ pts → p.a0 = 0 ∧ p.a1 = 0 := by
    intro pts hpts s p hsp
    unfold getGhostPointList at hpts
    obtain ⟨p0, p1, hp, _⟩ := perpend_spec loc (by omega)
    rw [hp] at hpts
    simp only [bind, Except.bind] at hpts
    split at hpts
    · cases hpts
    · rename_i recs hrecs
      cases hpts
      rw [← StencilMap.find_iff_mem (StencilMap.sorted_ofAssignments _), StencilMap.find_ofAssignments,
        Option.map_eq_some_iff] at hsp
      obtain ⟨x, hx, rfl⟩ := hsp
      have h1 := List.mem_reverse.1 (List.mem_of_find?_eq_some hx)
      obtain ⟨i, hi⟩ := List.getElem?_of_mem h1
      obtain ⟨ab, _, hab⟩ := (mapM_except_getElem? hrecs i).2 x hi
      unfold ghostRecord at hab
      simp only [bind, Except.bind] at hab
      split at hab
      · cases hab
      · split at hab
        · cases hab
        · split at hab
          · cases hab
          · cases hab; exact ⟨rfl, rfl⟩
  have key : ∃ b, (do
      let onThisProc ← checkBoundaryProc L f r loc
      let points ← if onThisProc then getGhostPointList debug L G f r loc else pure []
      return ({ loc := loc, field := f, type := t, value := v, onThisProc := onThisProc, points := points } :
        SingleBoundary K)) = Except.ok b ∧ StencilMap.Sorted b.points ∧
      (b.onThisProc = true ↔ checkBoundaryProc L f r loc = .ok true) ∧
      (b.onThisProc = false → b.points = []) ∧
      (∀ s p, (s, p) ∈ b.points → GoodRecord debug L G f r loc s p ∧ p.a0 = 0 ∧ p.a1 = 0) ∧
      (b.onThisProc = true → ∀ s, OnFace L.toMeshInfo f loc s →
        (∀ d, d < 3 → d ≠ loc / 2 → (L.bg f r d : ℤ) ≤ coordOf s d ∧ coordOf s d < L.ed f r d) →
        ∃ p, (s, p) ∈ b.points) := by
    rw [hon]
    simp only [bind, Except.bind]
    cases on with
    | true =>
      obtain ⟨pts, h1, h2, h3, h4⟩ := getGhostPointList_spec debug hL G f r loc hf hloc hon
      simp only [if_true]
      rw [h1]
      refine ⟨_, rfl, h2, by simp, by simp, ?_, fun _ => h4⟩
      intro s p hsp
      exact ⟨h3 s p hsp, hzero pts h1 s p hsp⟩
    | false => exact ⟨_, rfl, by simp [StencilMap.Sorted], by simp, by simp, by simp, by simp⟩
  cases t with
  | NOBC => exact absurd rfl ht
  | PERIODIC => exact absurd rfl ht'
  | DIRICHLET => exact key
  | NEUMANN => exact key
  | CONVECTIVE => exact key

/-- The points of an initialised boundary object. -/
theorem point_boundaryInit {debug : Bool} {L : Layout} (hL : LayoutOK L) {G : Geom K} {r : ℕ} {T : BCTable K}
    {B : Boundary K} (hB : boundaryInit debug L G r T = .ok B) {f loc : ℕ} {s : Stencil} {b : SingleBoundary K}
    {p : GhostPointInfo K} (hn : ∀ f d, f < L.dim → d < 3 → 0 < L.n f d) (hp : Point B f loc s b p) :
    f < L.dim ∧ loc < L.dim * 2 ∧ b.loc = loc ∧ b.field = f ∧ b.type = (T f loc).1 ∧ b.value = (T f loc).2 ∧
      GoodRecord debug L G f r loc s p := by
  obtain ⟨l, hl, hb, hs⟩ := hp
  unfold boundaryInit at hB
  obtain ⟨f', hf', hl'⟩ := (mapM_except_getElem? hB f).2 l hl
  obtain ⟨hf, rfl⟩ := getElem?_range_some hf'
  obtain ⟨loc', hloc', hb'⟩ := (mapM_except_getElem? hl' loc).2 b hb
  obtain ⟨hloc, rfl⟩ := getElem?_range_some hloc'
  obtain ⟨h1, h2, h3, h4, h5⟩ := createSingleBoundary_static hb'
  refine ⟨hf, hloc, h1, h2, h3, h4, ?_⟩
  by_cases hper : (T f loc).1 = .PERIODIC
  · rw [hper] at hb'
    cases hb'
    simp [StencilMap.find] at hs
  · obtain ⟨b', e, hsorted, _, _, hgood, _⟩ := createSingleBoundary_points debug hL G f r loc hf hloc (hn f · hf) (T f loc).2
      (T f loc).1 h5 hper
    rw [hb'] at e
    cases e
    exact (hgood s p ((StencilMap.find_iff_mem hsorted s p).1 hs)).1

/-- The implicit coefficient of the ghost equation demanded for each type of boundary. -/
def Spec.implicitCoeff (t : BCType) (loc f : ℕ) : K :=
  match t with
  | .NEUMANN => 1
  | _ => if loc / 2 = f then 0 else -1

theorem pointRun_coeffs (b : SingleBoundary K) (h : List (Boundary.Op K)) (hi : Initialised h) (p : GhostPointInfo K)
    (ht : b.type ≠ .PERIODIC) (ht' : b.type ≠ .NOBC) :
    (b.pointRun h p).a0 = implicitCoeff b.type b.loc b.field ∧
    (b.type = .DIRICHLET → (b.pointRun h p).a1 = if b.loc / 2 = b.field then b.value else 2 * b.value) ∧
    (b.type = .NEUMANN → (b.pointRun h p).a1 = b.normal * p.dL * b.value) := by
  obtain ⟨u, h', rfl⟩ := hi
  have hst := fun h => SingleBoundary.pointRun_static b h p
  induction h' using List.reverseRecOn with
  | nil =>
    simp only [SingleBoundary.pointRun, List.foldl_cons, List.foldl_nil, SingleBoundary.pointStep,
      SingleBoundary.setGhostICsKernel, implicitCoeff, SingleBoundary.kernel]
    cases ht1 : b.type <;> simp_all
    · split_ifs <;> simp
    · split_ifs <;> simp [SingleBoundary.kernelSameDir, SingleBoundary.kernelDiffDir]
  | append_singleton h' op ih =>
    rw [← List.cons_append]
    have e : b.pointRun (.setGhostICs u :: h' ++ [op]) p = b.pointStep (b.pointRun (.setGhostICs u :: h') p) op := by
      simp [SingleBoundary.pointRun, List.foldl_append]
    rw [e]
    set q := b.pointRun (.setGhostICs u :: h') p with hq
    have hdL : q.dL = p.dL := (hst _).2.1
    cases op with
    | setGhostICs v =>
      simp only [SingleBoundary.pointStep, SingleBoundary.setGhostICsKernel, implicitCoeff, SingleBoundary.kernel]
      cases ht1 : b.type <;> simp_all
      · split_ifs <;> simp
      · split_ifs <;> simp [SingleBoundary.kernelSameDir, SingleBoundary.kernelDiffDir]
    | updateEqs v dt =>
      simp only [SingleBoundary.pointStep, SingleBoundary.updateEqsKernel, SingleBoundary.kernel]
      cases ht1 : b.type <;> simp_all [implicitCoeff]
      split_ifs <;> simp [SingleBoundary.kernelSameDir, SingleBoundary.kernelDiffDir]
    | updateGhostValues v =>
      simp only [SingleBoundary.pointStep]
      exact ih

theorem pointRun_value (b : SingleBoundary K) (h : List (Boundary.Op K)) (u : ℤ → K) (hr : JustRefreshed h u)
    (p : GhostPointInfo K) (ht : b.type ≠ .PERIODIC) (ht' : b.type ≠ .NOBC) :
    (b.pointRun h p).value = (b.pointRun h p).a0 * u p.targetPackedId + (b.pointRun h p).a1 := by
  obtain ⟨h', rfl | rfl⟩ := hr
  · have e : b.pointRun (h' ++ [.setGhostICs u]) p = b.pointStep (b.pointRun h' p) (.setGhostICs u) := by
      simp [SingleBoundary.pointRun, List.foldl_append]
    rw [e]
    have hst := SingleBoundary.pointRun_static b h' p
    simp only [SingleBoundary.pointStep, SingleBoundary.setGhostICsKernel, SingleBoundary.kernel]
    cases ht1 : b.type <;> simp_all
    split_ifs <;> simp [SingleBoundary.kernelSameDir, SingleBoundary.kernelDiffDir]
  · have e : b.pointRun (h' ++ [.updateGhostValues u]) p = b.pointStep (b.pointRun h' p) (.updateGhostValues u) := by
      simp [SingleBoundary.pointRun, List.foldl_append]
    rw [e]
    have hst := SingleBoundary.pointRun_static b h' p
    simp only [SingleBoundary.pointStep, hst.1]

end PetIBM
