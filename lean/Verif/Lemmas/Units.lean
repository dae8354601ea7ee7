/-
C98: what every part of the solver does with a change of units.
-/
import Verif.Spec.Units
import Verif.Lemmas.NavierStokesRun

namespace PetIBM

open Spec

set_option linter.unusedSectionVars false

variable {K : Type} [Field K] {u : Scales K} {debug : Bool} {L : Layout} {G : Geom K} {c : K}

theorem mapM_scaled {α β γ : Type} {g₂ : α → Except Error γ} {g₁ : α → Except Error β} {h : β → γ} (l : List α)
    (e : ∀ a ∈ l, g₂ a = (g₁ a).map h) : l.mapM g₂ = (l.mapM g₁).map (List.map h) := by
  induction l with
  | nil => rfl
  | cons a l ih =>
    rw [List.mapM_cons, List.mapM_cons, e a (List.mem_cons_self ..), ih fun b hb => e b (List.mem_cons_of_mem _ hb)]
    cases g₁ a with
    | error _ => rfl
    | ok _ => cases l.mapM g₁ <;> rfl

/-! ### Matrices -/

def Entry.times (c : K) (e : Entry K) : Entry K := ⟨e.row, e.col, c * e.val⟩

def Mat.times (c : K) (A : Mat K) : Mat K := fun i j => c * A i j

theorem insertValue_times (A : Mat K) (e : Entry K) : (Mat.times c A).insertValue (e.times c) = Mat.times c (A.insertValue e) := by
  unfold Mat.insertValue Entry.times
  dsimp only
  split_ifs with h
  · rfl
  · funext i j
    unfold Mat.times
    by_cases hi : i = e.row
    · subst hi
      by_cases hj : j = e.col
      · subst hj; simp
      · simp [hj]
    · simp [hi]

theorem addValue_times (A : Mat K) (e : Entry K) : (Mat.times c A).addValue (e.times c) = Mat.times c (A.addValue e) := by
  unfold Mat.addValue Entry.times
  dsimp only
  split_ifs with h
  · rfl
  · funext i j
    unfold Mat.times
    by_cases hi : i = e.row
    · subst hi
      by_cases hj : j = e.col
      · subst hj; simp [mul_add]
      · simp [hj]
    · simp [hi]

theorem assemble_times (m n : ℕ) (ins adds : List (Entry K)) :
    assemble m n (ins.map (Entry.times c)) (adds.map (Entry.times c)) = (assemble m n ins adds).map (Mat.times c) := by
  have h1 : ∀ (l : List (Entry K)) (A : Mat K), (l.map (Entry.times c)).foldl Mat.insertValue (Mat.times c A) = Mat.times c (l.foldl Mat.insertValue A) := by
    intro l
    induction l with
    | nil => exact fun _ => rfl
    | cons e l ih => intro A; rw [List.map_cons, List.foldl_cons, insertValue_times, ih, List.foldl_cons]
  have h2 : ∀ (l : List (Entry K)) (A : Mat K), (l.map (Entry.times c)).foldl Mat.addValue (Mat.times c A) = Mat.times c (l.foldl Mat.addValue A) := by
    intro l
    induction l with
    | nil => exact fun _ => rfl
    | cons e l ih => intro A; rw [List.map_cons, List.foldl_cons, addValue_times, ih, List.foldl_cons]
  have h3 : ∀ e : Entry K, decide ((e.times c).row < m ∧ (e.times c).col < n) = decide (e.row < m ∧ e.col < n) := fun _ => rfl
  have h4 : ((ins.map (Entry.times c) ++ adds.map (Entry.times c)).all fun e => decide (e.row < m ∧ e.col < n)) =
      (ins ++ adds).all fun e => decide (e.row < m ∧ e.col < n) := by
    rw [← List.map_append, List.all_map]
    rfl
  unfold assemble
  rw [h4]
  split_ifs
  · change Except.ok _ = Except.ok _
    congr 1
    rw [← h2, ← h1]
    congr 2
    funext i j
    exact (mul_zero c).symm
  · rfl

theorem mult_times (n : ℕ) (A : Mat K) (a b : K) (x : ℤ → K) (r : ℤ) :
    Mat.mult n (Mat.times a A) (fun i => b * x i) r = a * b * Mat.mult n A x r := by
  unfold Mat.mult Mat.times
  rw [Finset.mul_sum]
  exact Finset.sum_congr rfl fun j _ => by ring

theorem mul_times (n : ℕ) (A B : Mat K) (a b : K) : Mat.mul n (Mat.times a A) (Mat.times b B) = Mat.times (a * b) (Mat.mul n A B) := by
  funext i j
  unfold Mat.mul Mat.times
  rw [Finset.mul_sum]
  exact Finset.sum_congr rfl fun j _ => by ring

theorem leftProducts_times (N : ℕ) (A : Mat K) (a : K) (t : ℕ) :
    leftProducts N (Mat.times a A) (Mat.times a A) (t + 2) = Mat.times (a ^ (t + 1)) (leftProducts N A A (t + 2)) := by
  unfold leftProducts
  rw [show t + 2 - 2 = t by omega]
  induction t with
  | zero => simp
  | succ t ih => rw [List.range_succ, List.foldl_append, ih, List.foldl_append, List.foldl_cons, List.foldl_nil, mul_times]; simp only [List.foldl_cons, List.foldl_nil]; congr 1; ring

/-- The approximate inverse has the units of the time step. -/
theorem bn_times (N : ℕ) (A : Mat K) (dt coeff a τ ν : K) (h : τ * ν * a = 1) (n : ℤ) :
    createBnHead N (Mat.times a A) (τ * dt) (ν * coeff) n = (createBnHead N A dt coeff n).map (Mat.times τ) := by
  unfold createBnHead
  split_ifs
  · rfl
  · change Except.ok _ = Except.ok _
    congr 1
    induction (n.toNat - 1) with
    | zero =>
      funext i j
      simp only [List.range_zero, List.foldl_nil, Mat.shift, Mat.times]
      split_ifs <;> simp
    | succ m ih =>
      rw [List.range_succ, List.foldl_append, List.foldl_append, ih]
      simp only [List.foldl_cons, List.foldl_nil]
      rw [leftProducts_times]
      funext i j
      unfold Mat.axpy Mat.times
      rw [show m + 2 - 1 = m + 1 by omega]
      have : (τ * dt) ^ (m + 2) * (ν * coeff) ^ (m + 1) * (a ^ (m + 1) * leftProducts N A A (m + 2) i j) =
          (τ * ν * a) ^ (m + 1) * (τ * (dt ^ (m + 2) * coeff ^ (m + 1) * leftProducts N A A (m + 2) i j)) := by ring
      rw [this, h]
      ring

/-! ### Ghost points -/

namespace Spec.Scales

/-- Factor of the length of a point of field `f` in direction `d`. -/
def width (u : Scales K) (dim f d : ℕ) : K := if d < dim ∧ (f < dim ∨ f = 3) then u.len else 1

/-- Factor of the face areas, which are lengths in the plane. -/
def area (u : Scales K) (dim : ℕ) : K := u.len ^ (dim - 1)

def record (u : Scales K) (dim : ℕ) (p : GhostPointInfo K) : GhostPointInfo K :=
  { p with area := u.area dim * p.area, dL := u.len * p.dL, a1 := u.vel * p.a1, value := u.vel * p.value }

def single (u : Scales K) (dim : ℕ) (b : SingleBoundary K) : SingleBoundary K :=
  { b with value := (u.condition (b.type, b.value)).2, points := b.points.map fun kp => (kp.1, u.record dim kp.2) }

def boundary (u : Scales K) (dim : ℕ) (B : Boundary K) : Boundary K := B.map (List.map (u.single dim))

end Spec.Scales

theorem ofAssignments_map {S T : Type} (h : S → T) (l : List (Stencil × S)) :
    StencilMap.ofAssignments (l.map fun kv => (kv.1, h kv.2)) = (StencilMap.ofAssignments l).map fun kv => (kv.1, h kv.2) := by
  have ins : ∀ (m : StencilMap S) (k : Stencil) (v : S),
      StencilMap.insert (m.map fun kv => (kv.1, h kv.2)) k (h v) = (StencilMap.insert m k v).map fun kv => (kv.1, h kv.2) := by
    intro m k v
    induction m with
    | nil => rfl
    | cons a m ih =>
      obtain ⟨k', v'⟩ := a
      simp only [List.map_cons, StencilMap.insert]
      split_ifs
      · rfl
      · rw [ih]; rfl
      · rfl
  have fold : ∀ (l : List (Stencil × S)) (m : StencilMap S),
      (l.map fun kv => (kv.1, h kv.2)).foldl (fun m kv => StencilMap.insert m kv.1 kv.2) (m.map fun kv => (kv.1, h kv.2)) =
        (l.foldl (fun m kv => StencilMap.insert m kv.1 kv.2) m).map fun kv => (kv.1, h kv.2) := by
    intro l
    induction l with
    | nil => exact fun _ => rfl
    | cons a l ih => intro m; rw [List.map_cons, List.foldl_cons, ins, ih, List.foldl_cons]
  exact fold l []

theorem find_map {S T : Type} (h : S → T) (m : StencilMap S) (k : Stencil) :
    StencilMap.find (m.map fun kv => (kv.1, h kv.2)) k = (StencilMap.find m k).map h := by
  induction m with
  | nil => rfl
  | cons a m ih =>
    obtain ⟨k', v'⟩ := a
    simp only [List.map_cons, StencilMap.find]
    split_ifs
    · rfl
    · exact ih
    · rfl

/-- The records that the constructors make. -/
theorem ghostPointList_units (hd : L.dim = 2 ∨ L.dim = 3) (f r loc : ℕ) (hf : f < L.dim) (hl : loc < L.dim * 2) :
    getGhostPointList debug L (u.geom L.dim G) f r loc =
      (getGhostPointList debug L G f r loc).map fun m => m.map fun kp => (kp.1, u.record L.dim kp.2) := by
  unfold getGhostPointList
  have hl6 : loc < 6 := by rcases hd with h | h <;> omega
  obtain ⟨p0, p1, hp, ha⟩ : ∃ p0 p1, getPerpendAxes (loc / 2) = .ok (p0, p1) ∧
      ∀ a b : K, (u.width L.dim f p0 * a) * (u.width L.dim f p1 * b) = u.area L.dim * (a * b) := by
    have key : ∀ p0 p1, p0 < L.dim → (p1 < L.dim ∧ L.dim = 3 ∨ L.dim = 2 ∧ p1 = 2) → ∀ a b : K,
        (u.width L.dim f p0 * a) * (u.width L.dim f p1 * b) = u.area L.dim * (a * b) := by
      intro p0 p1 h0 h1 a b
      unfold Scales.width Scales.area
      rw [if_pos ⟨h0, Or.inl hf⟩]
      rcases h1 with ⟨h1, h3⟩ | ⟨h2, rfl⟩
      · rw [if_pos ⟨h1, Or.inl hf⟩, h3]; ring
      · rw [if_neg (by omega), h2]; ring
    rcases Nat.lt_or_ge (loc / 2) 1 with h | h
    · rw [show loc / 2 = 0 by omega]
      exact ⟨1, 2, rfl, key 1 2 (by omega) (by omega)⟩
    · rcases Nat.lt_or_ge (loc / 2) 2 with h' | h'
      · rw [show loc / 2 = 1 by omega]
        exact ⟨0, 2, rfl, key 0 2 (by omega) (by omega)⟩
      · rw [show loc / 2 = 2 by omega]
        exact ⟨0, 1, rfl, key 0 1 (by omega) (by omega)⟩
  rw [hp]
  simp only [bind, Except.bind]
  rw [mapM_scaled (g₁ := fun ab => ghostRecord debug L G f r loc p0 p1 ab.1 ab.2) (h := fun kp => (kp.1, u.record L.dim kp.2))]
  · generalize List.mapM (m := Except Error) (fun ab : ℕ × ℕ => ghostRecord debug L G f r loc p0 p1 ab.1 ab.2) _ = R
    cases R with
    | error _ => rfl
    | ok l => change Except.ok _ = Except.ok _; rw [ofAssignments_map]
  · rintro ⟨a, b⟩ -
    unfold ghostRecord
    cases getGhostTargetStencil (L.n f) loc a b with
    | error _ => rfl
    | ok gt =>
      simp only [bind, Except.bind]
      cases L.getPackedGlobalIndex debug f gt.2 with
      | error _ => rfl
      | ok t =>
        dsimp only
        cases L.getLocalIndex f r gt.1 with
        | error _ => rfl
        | ok g =>
          simp only [pure, Except.pure, Except.map, Scales.record, Except.ok.injEq, Prod.mk.injEq, GhostPointInfo.mk.injEq, true_and, mul_zero, and_true]
          refine ⟨ha _ _, ?_⟩
          simp only [Scales.geom]
          split_ifs <;> ring

theorem createSingleBoundary_units (hd : L.dim = 2 ∨ L.dim = 3) (f r loc : ℕ) (hf : f < L.dim) (hl : loc < L.dim * 2) (t : BCType × K) :
    createSingleBoundary debug L (u.geom L.dim G) r loc f (u.condition t).2 (u.condition t).1 =
      (createSingleBoundary debug L G r loc f t.2 t.1).map (u.single L.dim) := by
  obtain ⟨t, x⟩ := t
  have key : ∀ t', t' = t → (do
      let onThisProc ← checkBoundaryProc L f r loc
      let points ← if onThisProc then getGhostPointList debug L (u.geom L.dim G) f r loc else pure []
      return ({ loc := loc, field := f, type := t', value := (u.condition (t, x)).2, onThisProc := onThisProc, points := points } : SingleBoundary K) :
        Except Error (SingleBoundary K)) = (do
      let onThisProc ← checkBoundaryProc L f r loc
      let points ← if onThisProc then getGhostPointList debug L G f r loc else pure []
      return ({ loc := loc, field := f, type := t', value := x, onThisProc := onThisProc, points := points } : SingleBoundary K) :
        Except Error (SingleBoundary K)).map (u.single L.dim) := by
    rintro t' rfl
    simp only [bind, Except.bind]
    cases checkBoundaryProc L f r loc with
    | error _ => rfl
    | ok b =>
      cases b with
      | false => rfl
      | true =>
        simp only [if_true]
        rw [ghostPointList_units hd f r loc hf hl]
        cases getGhostPointList debug L G f r loc <;> rfl
  cases t
  case NOBC => rfl
  case PERIODIC => rfl
  all_goals exact key _ rfl

theorem boundaryInit_units (hd : L.dim = 2 ∨ L.dim = 3) (r : ℕ) (T : BCTable K) :
    boundaryInit debug L (u.geom L.dim G) r (fun f b => u.condition (T f b)) = (boundaryInit debug L G r T).map (u.boundary L.dim) := by
  unfold boundaryInit
  rw [mapM_scaled (h := List.map (u.single L.dim)) (g₁ := fun f => (List.range (L.dim * 2)).mapM fun b =>
    createSingleBoundary debug L G r b f (T f b).2 (T f b).1)]
  · rfl
  · intro f hf
    exact mapM_scaled _ fun b hb => createSingleBoundary_units hd f r b (List.mem_range.mp hf) (List.mem_range.mp hb) _

/-! ### Ghost values -/

variable (hl : u.len ≠ 0) (hv : u.vel ≠ 0)
include hl hv

/-- The term of the convective condition. -/
theorem convective_units (n dt v w d : K) :
    n * (u.time * dt) * (u.vel * v) * (u.vel * w) / (u.len * d) = u.vel * (n * dt * v * w / d) := by
  have h : u.time * u.vel * u.len⁻¹ = 1 := by
    unfold Scales.time
    field_simp
  rw [div_eq_mul_inv, mul_inv, div_eq_mul_inv]
  linear_combination (n * dt * v * w * d⁻¹ * u.vel) * h

theorem neumann_units (n d v : K) : n * (u.len * d) * (u.vel / u.len * v) = u.vel * (n * d * v) := by
  field_simp

theorem kernel_units (dim : ℕ) (b : SingleBoundary K) (x dt : K) (p : GhostPointInfo K) :
    (u.single dim b).kernel (u.vel * x) (u.time * dt) b.normal (u.vel * b.value) (u.record dim p) = u.record dim (b.kernel x dt b.normal b.value p) := by
  rw [show (u.single dim b).kernel = b.kernel from rfl]
  unfold SingleBoundary.kernel
  split_ifs
  · simp only [SingleBoundary.kernelSameDir, Scales.record, GhostPointInfo.mk.injEq, true_and, and_true]
    rw [← mul_sub, convective_units hl hv]
    ring
  · simp only [SingleBoundary.kernelDiffDir, Scales.record, GhostPointInfo.mk.injEq, true_and, and_true]
    rw [← mul_sub, convective_units hl hv]
    ring

theorem mapPoints_units (dim : ℕ) (B : Boundary K) (g₂ g₁ : SingleBoundary K → GhostPointInfo K → GhostPointInfo K)
    (h : ∀ b p, g₂ (u.single dim b) (u.record dim p) = u.record dim (g₁ b p)) :
    (u.boundary dim B).map (fun l => l.map fun b => b.mapPoints (g₂ b)) = u.boundary dim (B.map fun l => l.map fun b => b.mapPoints (g₁ b)) := by
  unfold Scales.boundary
  rw [List.map_map, List.map_map]
  refine List.map_congr_left fun l _ => ?_
  simp only [Function.comp, List.map_map]
  refine List.map_congr_left fun b _ => ?_
  simp only [Function.comp, SingleBoundary.mapPoints, Scales.single, List.map_map, SingleBoundary.mk.injEq, true_and]
  refine List.map_congr_left fun kp _ => ?_
  exact Prod.ext rfl (h b kp.2)

theorem setGhostICs_units (dim : ℕ) (B : Boundary K) (x : ℤ → K) :
    (u.boundary dim B).setGhostICs (fun i => u.vel * x i) = u.boundary dim (B.setGhostICs x) := by
  refine mapPoints_units hl hv dim B _ _ fun b p => ?_
  have hk := kernel_units hl hv dim b (x p.targetPackedId) 0 { p with value := x p.targetPackedId }
  rw [mul_zero] at hk
  obtain ⟨loc, field, type, value, on, pts⟩ := b
  cases type
  · rfl
  · rfl
  · simp only [SingleBoundary.setGhostICsKernel, Scales.single, Scales.condition, reduceCtorEq, if_false, Scales.record]
    by_cases h : loc / 2 = field
    · simp only [h, if_true, GhostPointInfo.mk.injEq, true_and]
      ring
    · simp only [h, if_false, GhostPointInfo.mk.injEq, true_and]
      constructor <;> ring
  · simp only [SingleBoundary.setGhostICsKernel, Scales.single, Scales.condition, if_true, Scales.record, SingleBoundary.normal, GhostPointInfo.mk.injEq, true_and]
    rw [neumann_units hl hv]
    exact ⟨rfl, by ring⟩
  · exact hk

theorem updateEqs_units (dim : ℕ) (B : Boundary K) (x : ℤ → K) (dt : K) :
    (u.boundary dim B).updateEqs (fun i => u.vel * x i) (u.time * dt) = u.boundary dim (B.updateEqs x dt) := by
  refine mapPoints_units hl hv dim B _ _ fun b p => ?_
  have hk := kernel_units hl hv dim b (x p.targetPackedId) dt p
  obtain ⟨loc, field, type, value, on, pts⟩ := b
  cases type
  case CONVECTIVE => exact hk
  all_goals rfl

theorem updateGhostValues_units (dim : ℕ) (B : Boundary K) (x : ℤ → K) :
    (u.boundary dim B).updateGhostValues (fun i => u.vel * x i) = u.boundary dim (B.updateGhostValues x) := by
  refine mapPoints_units hl hv dim B _ _ fun b p => ?_
  simp only [Scales.record, GhostPointInfo.mk.injEq, true_and]
  ring

omit hl hv

theorem foldl_scaled {α : Type} (g₂ g₁ : (ℤ → K) → α → ℤ → K) (h : ∀ v a, g₂ (fun i => c * v i) a = fun i => c * g₁ v a i) (l : List α) (v : ℤ → K) :
    l.foldl g₂ (fun i => c * v i) = fun i => c * l.foldl g₁ v i := by
  induction l generalizing v with
  | nil => rfl
  | cons a l ih => rw [List.foldl_cons, h, ih, List.foldl_cons]

theorem update_scaled (v : ℤ → K) (k : ℤ) (x : K) : Function.update (fun i => c * v i) k (c * x) = fun i => c * Function.update v k x i := by
  funext i
  by_cases h : i = k
  · subst h; simp
  · simp [h]

theorem copyValues_units (dim : ℕ) (B : Boundary K) (lcl : ℕ → ℤ → K) :
    (u.boundary dim B).copyValues2LocalVecs (fun f i => u.vel * lcl f i) = fun f i => u.vel * B.copyValues2LocalVecs lcl f i := by
  funext f
  unfold Boundary.copyValues2LocalVecs Scales.boundary
  rw [List.getElem?_map]
  cases B[f]? with
  | none => rfl
  | some l =>
    simp only [Option.map_some]
    rw [List.foldl_map]
    refine foldl_scaled _ _ (fun v b => ?_) l _
    unfold SingleBoundary.copyValues2LocalVec Scales.single
    simp only
    rw [List.foldl_map]
    refine foldl_scaled _ _ (fun v kp => ?_) _ _
    change (if kp.2.lclId < 0 then fun i => u.vel * v i else Function.update (fun i => u.vel * v i) kp.2.lclId (u.vel * kp.2.value)) = _
    by_cases h : kp.2.lclId < 0
    · simp only [if_pos h]
    · simp only [if_neg h]
      exact update_scaled _ _ _

/-! ### The loops over the ghost points -/

theorem boundaryLoop_units (B : ℕ → Boundary K) :
    boundaryLoop L (fun r => u.boundary L.dim (B r)) =
      (boundaryLoop L B).map fun x => (x.1, x.2.1, x.2.2.1, u.record L.dim x.2.2.2) := by
  unfold boundaryLoop
  rw [List.map_flatMap]
  refine List.flatMap_congr fun r _ => ?_
  rw [List.map_flatMap]
  refine List.flatMap_congr fun f _ => ?_
  have : (u.boundary L.dim (B r)).getD f [] = ((B r).getD f []).map (u.single L.dim) := by
    unfold Scales.boundary
    rw [List.getD_eq_getElem?_getD, List.getD_eq_getElem?_getD, List.getElem?_map]
    cases (B r)[f]? <;> rfl
  rw [this, List.flatMap_map, List.map_flatMap]
  refine List.flatMap_congr fun b _ => ?_
  change (if b.onThisProc then List.map _ (List.map _ b.points) else []) = _
  cases b.onThisProc
  · rfl
  · simp only [if_true, List.map_map]; rfl

/-- The context of a correction in other units. -/
def Spec.Scales.mods (c : K) (m : Modifiers K) : Modifiers K := fun r f => (m r f).map fun kv => (kv.1, ⟨kv.2.row, c * kv.2.coeff⟩)

theorem modifierAt_times (m : Modifiers K) (r f : ℕ) (s : Stencil) :
    modifierAt (Scales.mods c m r f) s = ⟨(modifierAt (m r f) s).row, c * (modifierAt (m r f) s).coeff⟩ := by
  unfold modifierAt Scales.mods
  rw [find_map (fun x : RowModifier K => (⟨x.row, c * x.coeff⟩ : RowModifier K))]
  cases StencilMap.find (m r f) s with
  | none => simp
  | some _ => rfl

theorem boundaryEntries_units (B : ℕ → Boundary K) (m : Modifiers K) :
    boundaryEntries L (fun r => u.boundary L.dim (B r)) (Scales.mods c m) = (boundaryEntries L B m).map (Entry.times c) := by
  unfold boundaryEntries
  rw [boundaryLoop_units, List.map_map, List.map_map]
  refine List.map_congr_left fun x _ => ?_
  obtain ⟨r, f, s, p⟩ := x
  simp only [Function.comp, modifierAt_times, Entry.times, Scales.record, mul_assoc]

theorem correctionMult_units (B : ℕ → Boundary K) (m : Modifiers K) (i : ℤ) :
    correctionMult L (fun r => u.boundary L.dim (B r)) (Scales.mods c m) i = c * u.vel * correctionMult L B m i := by
  unfold correctionMult addVector
  rw [boundaryLoop_units, List.map_map, List.foldl_map, List.foldl_map]
  have h0 : (fun _ : ℤ => (0 : K)) = fun i => c * u.vel * (fun _ : ℤ => (0 : K)) i := by funext i; simp
  conv_lhs => rw [h0]
  refine congrFun (foldl_scaled _ _ (fun v x => ?_) _ _) i
  obtain ⟨r, f, s, p⟩ := x
  simp only [Function.comp, modifierAt_times, Scales.record]
  by_cases h : (modifierAt (m r f) s).row < 0
  · simp only [if_pos h]
  · simp only [if_neg h]
    rw [← update_scaled]
    congr 1
    ring

/-! ### Operators -/

theorem geom_dL {dim f d : ℕ} (hf : f < dim) (hd : d < dim) (i : ℤ) : (u.geom dim G).dL f d i = u.len * G.dL f d i := by
  unfold Scales.geom
  simp only
  rw [if_pos ⟨hd, Or.inl hf⟩]

section Operators

variable (hd : L.dim = 2 ∨ L.dim = 3)
include hd

theorem gradient_units : createGradient debug L (u.geom L.dim G) false = (createGradient debug L G false).map (Mat.times (1 / u.len)) := by
  unfold createGradient
  rw [mapM_scaled (h := List.map (List.map (List.map (Entry.times (1 / u.len))))) (g₁ := fun r => (List.range L.dim).mapM fun f =>
    (L.box f r).mapM (gradientRow debug L G false f))]
  · generalize List.mapM (m := Except Error) (fun r => (List.range L.dim).mapM fun f => (L.box f r).mapM (gradientRow debug L G false f)) _ = R
    cases R with
    | error _ => rfl
    | ok rows =>
      have e := assemble_times (c := 1 / u.len) L.UN L.pN (rows.flatMap fun a => a.flatMap fun b => b.flatten) []
      rw [List.map_nil] at e
      refine Eq.trans ?_ e
      change assemble L.UN L.pN ((rows.map _).flatMap _) [] = _
      congr 1
      rw [List.flatMap_map, List.map_flatMap]
      refine List.flatMap_congr fun a _ => ?_
      rw [List.flatMap_map, List.map_flatMap]
      refine List.flatMap_congr fun b _ => ?_
      rw [List.map_flatten]
  · intro r _
    refine mapM_scaled _ fun f hf => mapM_scaled _ fun p _ => ?_
    have hf : f < L.dim := List.mem_range.mp hf
    obtain ⟨i, j, k⟩ := p
    have hk : gradientKernel (u.geom L.dim G) false f i j k = (gradientKernel G false f i j k).map (1 / u.len * ·) := by
      unfold gradientKernel
      simp only [Bool.false_eq_true, if_false]
      rcases f with _ | _ | f
      · simp only [geom_dL hf hf, List.map_cons, List.map_nil]
        rw [one_div_mul_one_div_rev, mul_comm (G.dL 0 0 i)]
        congr 1
        ring
      · simp only [geom_dL hf hf, List.map_cons, List.map_nil, zero_add]
        rw [one_div_mul_one_div_rev, mul_comm (G.dL 1 1 j)]
        congr 1
        ring
      · have h2 : 2 < L.dim := by omega
        simp only [geom_dL h2 h2, List.map_cons, List.map_nil]
        rw [one_div_mul_one_div_rev, mul_comm (G.dL 2 2 k)]
        congr 1
        ring
    unfold gradientRow
    simp only [hk]
    generalize gradientKernel G false f i j k = vals
    cases gradientNeighbors f i j k with
    | nil => rfl
    | cons s l =>
      simp only [bind, Except.bind]
      cases L.getPackedGlobalIndex debug f s with
      | error _ => rfl
      | ok row =>
        simp only
        rw [List.zip_map_right, List.mapM_map]
        refine mapM_scaled _ fun sv _ => ?_
        simp only [Function.comp]
        simp only [Prod.map, id]
        cases L.getPackedGlobalIndex debug 3 sv.1 <;> rfl

theorem divergenceKernel_units {f : ℕ} (hf : f < L.dim) (i j k : ℤ) :
    divergenceKernel (u.geom L.dim G) false f i j k = u.area L.dim * divergenceKernel G false f i j k := by
  unfold divergenceKernel Scales.geom Scales.area
  simp only [Bool.false_eq_true, if_false]
  rcases hd with h | h
  · rcases f with _ | _ | f
    · simp only [h]; norm_num; ring
    · simp only [h]; norm_num; ring
    · omega
  · rcases f with _ | _ | f
    · simp only [h]; norm_num; ring
    · simp only [h]; norm_num; ring
    · simp only [h]; norm_num; ring

omit hd in
theorem getD_map_nil {α β : Type} (h : α → β) (l : List (List α)) (r : ℕ) : (l.map (List.map h)).getD r [] = (l.getD r []).map h := by
  rw [List.getD_eq_getElem?_getD, List.getD_eq_getElem?_getD, List.getElem?_map]
  cases l[r]? <;> rfl

/-- The assignments of one row in other units. -/
def timesRow (c : K) (x : List (Entry K) × List (Stencil × RowModifier K)) : List (Entry K) × List (Stencil × RowModifier K) :=
  (x.1.map (Entry.times c), x.2.map fun kv => (kv.1, ⟨kv.2.row, c * kv.2.coeff⟩))

theorem divergence_units (B : ℕ → Boundary K) :
    createDivergence debug L (u.geom L.dim G) false (fun r => u.boundary L.dim (B r)) =
      (createDivergence debug L G false B).map fun x => (Mat.times (u.area L.dim) x.1, Scales.mods (u.area L.dim) x.2) := by
  unfold createDivergence
  rw [mapM_scaled (h := List.map (List.map (timesRow (u.area L.dim)))) (g₁ := fun r => (L.box 3 r).mapM (divergenceRow debug L G false))]
  · generalize List.mapM (m := Except Error) (fun r => (L.box 3 r).mapM (divergenceRow debug L G false)) _ = R
    cases R with
    | error _ => rfl
    | ok rows =>
      have hm : (fun r f => StencilMap.ofAssignments (((rows.map (List.map (List.map (timesRow (u.area L.dim))))).getD r []).flatMap fun cell =>
          (cell.getD f ([], [])).2) : Modifiers K) =
          Scales.mods (u.area L.dim) fun r f => StencilMap.ofAssignments ((rows.getD r []).flatMap fun cell => (cell.getD f ([], [])).2) := by
        funext r f
        unfold Scales.mods
        rw [← ofAssignments_map (fun x : RowModifier K => (⟨x.row, u.area L.dim * x.coeff⟩ : RowModifier K)), getD_map_nil, List.flatMap_map, List.map_flatMap]
        congr 1
        refine List.flatMap_congr fun cell _ => ?_
        rw [List.getD_eq_getElem?_getD, List.getD_eq_getElem?_getD, List.getElem?_map]
        cases cell[f]? <;> rfl
      have he : ((rows.map (List.map (List.map (timesRow (u.area L.dim))))).flatMap fun a => a.flatMap fun cell => cell.flatMap (·.1)) =
          (rows.flatMap fun a => a.flatMap fun cell => cell.flatMap (·.1)).map (Entry.times (u.area L.dim)) := by
        rw [List.flatMap_map, List.map_flatMap]
        refine List.flatMap_congr fun a _ => ?_
        rw [List.flatMap_map, List.map_flatMap]
        refine List.flatMap_congr fun b _ => ?_
        rw [List.flatMap_map, List.map_flatMap]
        rfl
      dsimp only [Except.map, bind, Except.bind]
      rw [hm, he, boundaryEntries_units, assemble_times]
      generalize assemble (K := K) L.pN L.UN _ _ = R
      cases R <;> rfl
  · intro r _
    refine mapM_scaled _ fun p _ => ?_
    obtain ⟨i, j, k⟩ := p
    unfold divergenceRow
    simp only [bind, Except.bind]
    cases L.getGlobalIndex debug 3 ⟨k, j, i, 0⟩ with
    | error _ => rfl
    | ok self =>
      refine mapM_scaled _ fun f hf => ?_
      unfold divergenceFaces
      simp only [divergenceKernel_units hd (List.mem_range.mp hf), bind, Except.bind]
      cases L.getPackedGlobalIndex debug f ⟨k, j, i, 0⟩ with
      | error _ => rfl
      | ok a =>
        simp only
        cases L.getPackedGlobalIndex debug f (divergenceNeighbor f i j k) with
        | error _ => rfl
        | ok b =>
          simp only [pure, Except.pure, Except.map, timesRow, Entry.times, List.map_cons, List.map_nil, mul_neg, List.map_append]
          split_ifs <;> simp [mul_neg]

theorem laplacianValues_units {f : ℕ} (hf : f < L.dim) (i j k : ℤ) :
    laplacianValues L.dim (u.geom L.dim G) f i j k = (laplacianValues L.dim G f i j k).map (1 / u.len ^ 2 * ·) := by
  have h : laplacianOffDiag L.dim (u.geom L.dim G) f i j k = (laplacianOffDiag L.dim G f i j k).map (1 / u.len ^ 2 * ·) := by
    unfold laplacianOffDiag
    rw [List.map_flatMap]
    refine List.flatMap_congr fun d hd' => ?_
    simp only [geom_dL hf (List.mem_range.mp hd'), List.map_cons, List.map_nil]
    simp only [Scales.geom, ← mul_sub]
    congr 1
    · rw [one_div_mul_one_div_rev]; congr 1; ring
    · congr 1
      rw [one_div_mul_one_div_rev]; congr 1; ring
  have fold : ∀ (c : K) (l : List K) (a : K), (l.map (c * ·)).foldl (· + ·) (c * a) = c * l.foldl (· + ·) a := by
    intro c l
    induction l with
    | nil => exact fun _ => rfl
    | cons x l ih => intro a; rw [List.map_cons, List.foldl_cons, ← mul_add, ih, List.foldl_cons]
  unfold laplacianValues
  simp only [h, List.map_cons]
  congr 1
  have := fold (1 / u.len ^ 2) (laplacianOffDiag L.dim G f i j k) 0
  rw [mul_zero] at this
  rw [this]
  ring

theorem laplacian_units (B : ℕ → Boundary K) :
    createLaplacian debug L (u.geom L.dim G) (fun r => u.boundary L.dim (B r)) =
      (createLaplacian debug L G B).map fun x => (Mat.times (1 / u.len ^ 2) x.1, Scales.mods (1 / u.len ^ 2) x.2) := by
  unfold createLaplacian
  rw [mapM_scaled (h := List.map (List.map (timesRow (1 / u.len ^ 2)))) (g₁ := fun r => (List.range L.dim).mapM fun f =>
    (L.box f r).mapM (laplacianRow debug L G f))]
  · generalize List.mapM (m := Except Error) (fun r => (List.range L.dim).mapM fun f => (L.box f r).mapM (laplacianRow debug L G f)) _ = R
    cases R with
    | error _ => rfl
    | ok rows =>
      have hm : (fun r f => StencilMap.ofAssignments ((((rows.map (List.map (List.map (timesRow (1 / u.len ^ 2))))).getD r []).getD f []).flatMap (·.2)) : Modifiers K) =
          Scales.mods (1 / u.len ^ 2) fun r f => StencilMap.ofAssignments (((rows.getD r []).getD f []).flatMap (·.2)) := by
        funext r f
        unfold Scales.mods
        rw [← ofAssignments_map (fun x : RowModifier K => (⟨x.row, 1 / u.len ^ 2 * x.coeff⟩ : RowModifier K)), getD_map_nil, getD_map_nil, List.flatMap_map,
          List.map_flatMap]
        rfl
      have he : ((rows.map (List.map (List.map (timesRow (1 / u.len ^ 2))))).flatMap fun a => a.flatMap fun b => b.flatMap (·.1)) =
          (rows.flatMap fun a => a.flatMap fun b => b.flatMap (·.1)).map (Entry.times (1 / u.len ^ 2)) := by
        rw [List.flatMap_map, List.map_flatMap]
        refine List.flatMap_congr fun a _ => ?_
        rw [List.flatMap_map, List.map_flatMap]
        refine List.flatMap_congr fun b _ => ?_
        rw [List.flatMap_map, List.map_flatMap]
        rfl
      dsimp only [Except.map, bind, Except.bind]
      rw [hm, he, boundaryEntries_units, assemble_times]
      generalize assemble (K := K) L.UN L.UN _ _ = R
      cases R <;> rfl
  · intro r _
    refine mapM_scaled _ fun f hf => mapM_scaled _ fun p _ => ?_
    obtain ⟨i, j, k⟩ := p
    unfold laplacianRow
    simp only [laplacianValues_units hd (List.mem_range.mp hf), bind, Except.bind]
    cases (laplacianStencils L.dim i j k).mapM (L.getPackedGlobalIndex debug f) with
    | error _ => rfl
    | ok cols =>
      cases cols with
      | nil => rfl
      | cons row rest =>
        simp only [List.zip_map_right, pure, Except.pure, Except.map, timesRow, List.map_map, Except.ok.injEq, Prod.mk.injEq, List.filter_map]
        exact ⟨rfl, rfl⟩

end Operators


/-! ### Convective terms -/

/-- The factor of accelerations. -/
def Spec.Scales.acc (u : Scales K) : K := u.vel / u.len * u.vel

theorem acc_eq (a d : K) : u.vel ^ 2 * a / (u.len * d) = u.acc * (a / d) := by
  unfold Scales.acc
  rw [div_eq_mul_inv, mul_inv, div_eq_mul_inv, div_eq_mul_inv]
  ring

section Kernels

variable {flux : FluxArray K} {i j k : ℤ}

theorem kernelU2_units (h : (dim : ℕ) = 2) : kernelU2 (u.geom dim G) (fun f k j i => (flux f k j i).map (u.vel * ·)) i j =
    (kernelU2 G flux i j).map (u.acc * ·) := by
  subst h
  unfold kernelU2
  simp only [bind, Except.bind]
  rcases flux 0 0 j i with _ | x0
  · rfl
  simp only [Except.map]
  rcases flux 0 0 j (i - 1) with _ | x1
  · rfl
  simp only [Except.map]
  rcases flux 0 0 j (i + 1) with _ | x2
  · rfl
  simp only [Except.map]
  rcases flux 0 0 (j - 1) i with _ | x3
  · rfl
  simp only [Except.map]
  rcases flux 0 0 (j + 1) i with _ | x4
  · rfl
  simp only [Except.map]
  rcases flux 1 0 (j - 1) i with _ | x5
  · rfl
  simp only [Except.map]
  rcases flux 1 0 (j - 1) (i + 1) with _ | x6
  · rfl
  simp only [Except.map]
  rcases flux 1 0 j i with _ | x7
  · rfl
  simp only [Except.map]
  rcases flux 1 0 j (i + 1) with _ | x8
  · rfl
  simp only [Except.map]
  simp only [pure, Except.pure, Except.ok.injEq]
  rw [geom_dL (by norm_num) (by norm_num), geom_dL (by norm_num) (by norm_num)]
  unfold Scales.acc
  simp only [div_eq_mul_inv, mul_inv]
  ring

theorem kernelV2_units (h : (dim : ℕ) = 2) : kernelV2 (u.geom dim G) (fun f k j i => (flux f k j i).map (u.vel * ·)) i j =
    (kernelV2 G flux i j).map (u.acc * ·) := by
  subst h
  unfold kernelV2
  simp only [bind, Except.bind]
  rcases flux 1 0 j i with _ | x0
  · rfl
  simp only [Except.map]
  rcases flux 0 0 j (i - 1) with _ | x1
  · rfl
  simp only [Except.map]
  rcases flux 0 0 (j + 1) (i - 1) with _ | x2
  · rfl
  simp only [Except.map]
  rcases flux 0 0 j i with _ | x3
  · rfl
  simp only [Except.map]
  rcases flux 0 0 (j + 1) i with _ | x4
  · rfl
  simp only [Except.map]
  rcases flux 1 0 j (i - 1) with _ | x5
  · rfl
  simp only [Except.map]
  rcases flux 1 0 j (i + 1) with _ | x6
  · rfl
  simp only [Except.map]
  rcases flux 1 0 (j - 1) i with _ | x7
  · rfl
  simp only [Except.map]
  rcases flux 1 0 (j + 1) i with _ | x8
  · rfl
  simp only [Except.map]
  simp only [pure, Except.pure, Except.ok.injEq]
  rw [geom_dL (by norm_num) (by norm_num), geom_dL (by norm_num) (by norm_num)]
  unfold Scales.acc
  simp only [div_eq_mul_inv, mul_inv]
  ring

theorem kernelU3_units (h : (dim : ℕ) = 3) : kernelU3 (u.geom dim G) (fun f k j i => (flux f k j i).map (u.vel * ·)) i j k =
    (kernelU3 G flux i j k).map (u.acc * ·) := by
  subst h
  unfold kernelU3
  simp only [bind, Except.bind]
  rcases flux 0 k j i with _ | x0
  · rfl
  simp only [Except.map]
  rcases flux 0 k j (i - 1) with _ | x1
  · rfl
  simp only [Except.map]
  rcases flux 0 k j (i + 1) with _ | x2
  · rfl
  simp only [Except.map]
  rcases flux 0 k (j - 1) i with _ | x3
  · rfl
  simp only [Except.map]
  rcases flux 0 k (j + 1) i with _ | x4
  · rfl
  simp only [Except.map]
  rcases flux 0 (k - 1) j i with _ | x5
  · rfl
  simp only [Except.map]
  rcases flux 0 (k + 1) j i with _ | x6
  · rfl
  simp only [Except.map]
  rcases flux 1 k (j - 1) i with _ | x7
  · rfl
  simp only [Except.map]
  rcases flux 1 k (j - 1) (i + 1) with _ | x8
  · rfl
  simp only [Except.map]
  rcases flux 1 k j i with _ | x9
  · rfl
  simp only [Except.map]
  rcases flux 1 k j (i + 1) with _ | x10
  · rfl
  simp only [Except.map]
  rcases flux 2 (k - 1) j i with _ | x11
  · rfl
  simp only [Except.map]
  rcases flux 2 (k - 1) j (i + 1) with _ | x12
  · rfl
  simp only [Except.map]
  rcases flux 2 k j i with _ | x13
  · rfl
  simp only [Except.map]
  rcases flux 2 k j (i + 1) with _ | x14
  · rfl
  simp only [Except.map]
  simp only [pure, Except.pure, Except.ok.injEq]
  rw [geom_dL (by norm_num) (by norm_num), geom_dL (by norm_num) (by norm_num), geom_dL (by norm_num) (by norm_num)]
  unfold Scales.acc
  simp only [div_eq_mul_inv, mul_inv]
  ring

theorem kernelV3_units (h : (dim : ℕ) = 3) : kernelV3 (u.geom dim G) (fun f k j i => (flux f k j i).map (u.vel * ·)) i j k =
    (kernelV3 G flux i j k).map (u.acc * ·) := by
  subst h
  unfold kernelV3
  simp only [bind, Except.bind]
  rcases flux 1 k j i with _ | x0
  · rfl
  simp only [Except.map]
  rcases flux 0 k j (i - 1) with _ | x1
  · rfl
  simp only [Except.map]
  rcases flux 0 k (j + 1) (i - 1) with _ | x2
  · rfl
  simp only [Except.map]
  rcases flux 0 k j i with _ | x3
  · rfl
  simp only [Except.map]
  rcases flux 0 k (j + 1) i with _ | x4
  · rfl
  simp only [Except.map]
  rcases flux 1 k j (i - 1) with _ | x5
  · rfl
  simp only [Except.map]
  rcases flux 1 k j (i + 1) with _ | x6
  · rfl
  simp only [Except.map]
  rcases flux 1 k (j - 1) i with _ | x7
  · rfl
  simp only [Except.map]
  rcases flux 1 k (j + 1) i with _ | x8
  · rfl
  simp only [Except.map]
  rcases flux 1 (k - 1) j i with _ | x9
  · rfl
  simp only [Except.map]
  rcases flux 1 (k + 1) j i with _ | x10
  · rfl
  simp only [Except.map]
  rcases flux 2 (k - 1) j i with _ | x11
  · rfl
  simp only [Except.map]
  rcases flux 2 (k - 1) (j + 1) i with _ | x12
  · rfl
  simp only [Except.map]
  rcases flux 2 k j i with _ | x13
  · rfl
  simp only [Except.map]
  rcases flux 2 k (j + 1) i with _ | x14
  · rfl
  simp only [Except.map]
  simp only [pure, Except.pure, Except.ok.injEq]
  rw [geom_dL (by norm_num) (by norm_num), geom_dL (by norm_num) (by norm_num), geom_dL (by norm_num) (by norm_num)]
  unfold Scales.acc
  simp only [div_eq_mul_inv, mul_inv]
  ring

theorem kernelW3_units (h : (dim : ℕ) = 3) : kernelW3 (u.geom dim G) (fun f k j i => (flux f k j i).map (u.vel * ·)) i j k =
    (kernelW3 G flux i j k).map (u.acc * ·) := by
  subst h
  unfold kernelW3
  simp only [bind, Except.bind]
  rcases flux 2 k j i with _ | x0
  · rfl
  simp only [Except.map]
  rcases flux 0 k j (i - 1) with _ | x1
  · rfl
  simp only [Except.map]
  rcases flux 0 (k + 1) j (i - 1) with _ | x2
  · rfl
  simp only [Except.map]
  rcases flux 0 k j i with _ | x3
  · rfl
  simp only [Except.map]
  rcases flux 0 (k + 1) j i with _ | x4
  · rfl
  simp only [Except.map]
  rcases flux 1 k (j - 1) i with _ | x5
  · rfl
  simp only [Except.map]
  rcases flux 1 (k + 1) (j - 1) i with _ | x6
  · rfl
  simp only [Except.map]
  rcases flux 1 k j i with _ | x7
  · rfl
  simp only [Except.map]
  rcases flux 1 (k + 1) j i with _ | x8
  · rfl
  simp only [Except.map]
  rcases flux 2 k j (i - 1) with _ | x9
  · rfl
  simp only [Except.map]
  rcases flux 2 k j (i + 1) with _ | x10
  · rfl
  simp only [Except.map]
  rcases flux 2 k (j - 1) i with _ | x11
  · rfl
  simp only [Except.map]
  rcases flux 2 k (j + 1) i with _ | x12
  · rfl
  simp only [Except.map]
  rcases flux 2 (k - 1) j i with _ | x13
  · rfl
  simp only [Except.map]
  rcases flux 2 (k + 1) j i with _ | x14
  · rfl
  simp only [Except.map]
  simp only [pure, Except.pure, Except.ok.injEq]
  rw [geom_dL (by norm_num) (by norm_num), geom_dL (by norm_num) (by norm_num), geom_dL (by norm_num) (by norm_num)]
  unfold Scales.acc
  simp only [div_eq_mul_inv, mul_inv]
  ring

end Kernels

theorem readLocal_scaled (f r : ℕ) (v : ℤ → K) (k j i : ℤ) :
    readLocal L f r (fun l => c * v l) k j i = (readLocal L f r v k j i).map (c * ·) := by
  unfold readLocal
  cases L.getLocalIndex f r ⟨k, j, i, 0⟩ <;> rfl

theorem scatterLocal_scaled (f r : ℕ) (q v : ℤ → K) : scatterLocal L f r (fun i => c * q i) (fun i => c * v i) = fun l => c * scatterLocal L f r q v l := by
  funext l
  unfold scatterLocal
  dsimp only
  split_ifs
  · cases L.getPackedGlobalIndex false f (wrapPeriodic L f (localSlot L f r l)) <;> rfl
  · rfl

theorem convectionLocal_units (B : ℕ → Boundary K) (q : ℤ → K) (v : ℕ → ℕ → ℤ → K) (r : ℕ) :
    convectionLocal L (fun r => u.boundary L.dim (B r)) (fun i => u.vel * q i) (fun r f i => u.vel * v r f i) r =
      fun f i => u.vel * convectionLocal L B q v r f i := by
  unfold convectionLocal
  simp only [scatterLocal_scaled]
  exact copyValues_units _ _ _

theorem vecAssign_scaled (y : ℤ → K) (ws : List (ℤ × K)) :
    vecAssign (fun i => c * y i) (ws.map fun w => (w.1, c * w.2)) = fun i => c * vecAssign y ws i := by
  unfold vecAssign
  rw [List.foldl_map]
  exact foldl_scaled _ _ (fun v w => update_scaled _ _ _) _ _

theorem convectionMult_units (hd : L.dim = 2 ∨ L.dim = 3) (B : ℕ → Boundary K) (v : ℕ → ℕ → ℤ → K) (q y : ℤ → K) :
    convectionMult L (u.geom L.dim G) (fun r => u.boundary L.dim (B r)) (fun r f i => u.vel * v r f i) (fun i => u.vel * q i) (fun i => u.acc * y i) =
      (convectionMult L G B v q y).map fun z i => u.acc * z i := by
  have h : convectionAssign L (u.geom L.dim G) (fun r => u.boundary L.dim (B r)) (fun i => u.vel * q i) (fun r f i => u.vel * v r f i) =
      (convectionAssign L G B q v).map (List.map fun w => (w.1, u.acc * w.2)) := by
    unfold convectionAssign
    rw [mapM_scaled (h := List.map (List.map fun w => (w.1, u.acc * w.2))) (g₁ := fun r => (List.range L.dim).mapM fun f => (L.box f r).mapM fun p => do
      let idx ← L.getPackedGlobalIndex false f ⟨p.2.2, p.2.1, p.1, 0⟩
      let x ← convectionKernel L.dim G (fun g => readLocal L g r (convectionLocal L B q v r g)) f p.1 p.2.1 p.2.2
      return (idx, x))]
    · generalize List.mapM (m := Except Error) _ _ = R
      cases R with
      | error _ => rfl
      | ok a =>
        change Except.ok _ = Except.ok _
        rw [List.flatMap_map, List.map_flatMap]
        congr 1
        refine List.flatMap_congr fun b _ => ?_
        rw [List.flatMap_map, List.map_flatMap]
        rfl
    · intro r _
      refine mapM_scaled _ fun f hf => mapM_scaled _ fun p _ => ?_
      simp only [bind, Except.bind]
      cases L.getPackedGlobalIndex false f ⟨p.2.2, p.2.1, p.1, 0⟩ with
      | error _ => rfl
      | ok idx =>
        have hk : convectionKernel L.dim (u.geom L.dim G) (fun g => readLocal L g r (convectionLocal L (fun r => u.boundary L.dim (B r)) (fun i => u.vel * q i)
            (fun r f i => u.vel * v r f i) r g)) f p.1 p.2.1 p.2.2 =
            (convectionKernel L.dim G (fun g => readLocal L g r (convectionLocal L B q v r g)) f p.1 p.2.1 p.2.2).map (u.acc * ·) := by
          rw [convectionLocal_units]
          have e : (fun g => readLocal L g r fun i => u.vel * convectionLocal L B q v r g i) =
              fun g k j i => (readLocal L g r (convectionLocal L B q v r g) k j i).map (u.vel * ·) := by
            funext g k j i
            exact readLocal_scaled _ _ _ _ _ _
          rw [e]
          unfold convectionKernel
          rcases hd with h | h
          · rw [if_pos h, if_pos h]
            rcases f with _ | _ | f
            · exact kernelU2_units h
            · exact kernelV2_units h
            · rfl
          · rw [if_neg (by omega), if_neg (by omega)]
            rcases f with _ | _ | _ | f
            · exact kernelU3_units h
            · exact kernelV3_units h
            · exact kernelW3_units h
            · rfl
        simp only [hk]
        cases convectionKernel L.dim G (fun g => readLocal L g r (convectionLocal L B q v r g)) f p.1 p.2.1 p.2.2 <;> rfl
  unfold convectionMult
  rw [h]
  cases convectionAssign L G B q v with
  | error _ => rfl
  | ok ws =>
    change Except.ok _ = Except.ok _
    rw [vecAssign_scaled]

end PetIBM
