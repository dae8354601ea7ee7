import Verif.Spec.Superposition
import Verif.Lemmas.Units
import Verif.Props.Turn

/-!
Superposition: ghost points, operators and one step of three runs.
-/

set_option linter.unusedSectionVars false

namespace PetIBM

open Spec

/-- three lists of the same length with related entries -/
inductive All3 {α β γ : Type} (R : α → β → γ → Prop) : List α → List β → List γ → Prop
  | nil : All3 R [] [] []
  | cons {a b c l m n} : R a b c → All3 R l m n → All3 R (a :: l) (b :: m) (c :: n)

section Lists

variable {α β γ α' β' γ' : Type} {R : α → β → γ → Prop} {S : α' → β' → γ' → Prop}

theorem All3.map {l : List α} {m : List β} {n : List γ} (h : All3 R l m n) {f : α → α'} {g : β → β'} {k : γ → γ'}
    (hf : ∀ a b c, R a b c → S (f a) (g b) (k c)) : All3 S (l.map f) (m.map g) (n.map k) := by
  induction h with
  | nil => exact .nil
  | cons h _ ih => exact .cons (hf _ _ _ h) ih

theorem All3.append {l l' : List α} {m m' : List β} {n n' : List γ} (h : All3 R l m n) (h' : All3 R l' m' n') :
    All3 R (l ++ l') (m ++ m') (n ++ n') := by
  induction h with
  | nil => exact h'
  | cons h _ ih => exact .cons h ih

theorem All3.flatMap {l : List α} {m : List β} {n : List γ} (h : All3 R l m n) {f : α → List α'} {g : β → List β'} {k : γ → List γ'}
    (hf : ∀ a b c, R a b c → All3 S (f a) (g b) (k c)) : All3 S (l.flatMap f) (m.flatMap g) (n.flatMap k) := by
  induction h with
  | nil => exact .nil
  | cons h _ ih => exact (hf _ _ _ h).append ih

theorem All3.diag {l : List α} {R : α → α → α → Prop} (h : ∀ x ∈ l, R x x x) : All3 R l l l := by
  induction l with
  | nil => exact .nil
  | cons a l ih => exact .cons (h a (List.mem_cons_self ..)) (ih fun x hx => h x (List.mem_cons_of_mem _ hx))

theorem All3.getD {l : List (List α)} {m : List (List β)} {n : List (List γ)} (h : All3 (All3 R) l m n) (i : ℕ) :
    All3 R (l.getD i []) (m.getD i []) (n.getD i []) := by
  induction h generalizing i with
  | nil => exact .nil
  | cons h _ ih =>
    cases i with
    | zero => exact h
    | succ i => exact ih i

theorem All3.mapM {δ : Type} {f : δ → Except Error α} {g : δ → Except Error β} {k : δ → Except Error γ} {l : List δ}
    (hR : ∀ d ∈ l, ∀ a b c, f d = .ok a → g d = .ok b → k d = .ok c → R a b c) {x : List α} {y : List β} {z : List γ}
    (hx : l.mapM f = .ok x) (hy : l.mapM g = .ok y) (hz : l.mapM k = .ok z) : All3 R x y z := by
  induction l generalizing x y z with
  | nil => cases hx; cases hy; cases hz; exact .nil
  | cons d l ih =>
    rw [List.mapM_cons] at hx hy hz
    obtain ⟨a, ha, hx⟩ := bind_ok hx
    obtain ⟨_, hx', hx⟩ := bind_ok hx
    cases hx
    obtain ⟨b, hb, hy⟩ := bind_ok hy
    obtain ⟨_, hy', hy⟩ := bind_ok hy
    cases hy
    obtain ⟨c, hc, hz⟩ := bind_ok hz
    obtain ⟨_, hz', hz⟩ := bind_ok hz
    cases hz
    exact .cons (hR d (List.mem_cons_self ..) _ _ _ ha hb hc) (ih (fun d hd => hR d (List.mem_cons_of_mem _ hd)) hx' hy' hz')

theorem All3.map_eq {δ : Type} {l : List α} {m : List β} {n : List γ} (h : All3 R l m n) {f : α → δ} {g : β → δ} {k : γ → δ}
    (hf : ∀ a b c, R a b c → g b = f a ∧ k c = f a) : m.map g = l.map f ∧ n.map k = l.map f := by
  induction h with
  | nil => exact ⟨rfl, rfl⟩
  | cons h _ ih =>
    rw [List.map_cons, List.map_cons, List.map_cons, (hf _ _ _ h).1, (hf _ _ _ h).2, ih.1, ih.2]
    exact ⟨rfl, rfl⟩

end Lists

variable {K : Type} [Field K] [LinearOrder K] [IsStrictOrderedRing K]
variable {debug : Bool} {L : Layout} {G : Geom K} {axes : ℕ → Axis K} {P : NSParams K} {a b : K}

/-! ### Ghost points -/

structure MixRecord (a b : K) (p q r : GhostPointInfo K) : Prop where
  target : q.targetPackedId = p.targetPackedId ∧ r.targetPackedId = p.targetPackedId
  dL : q.dL = p.dL ∧ r.dL = p.dL
  a0 : q.a0 = p.a0 ∧ r.a0 = p.a0
  a1 : r.a1 = a * p.a1 + b * q.a1
  value : r.value = a * p.value + b * q.value

structure MixSingle (a b : K) (x y z : SingleBoundary K) : Prop where
  loc : y.loc = x.loc ∧ z.loc = x.loc
  field : y.field = x.field ∧ z.field = x.field
  type : y.type = x.type ∧ z.type = x.type
  on : y.onThisProc = x.onThisProc ∧ z.onThisProc = x.onThisProc
  speed : x.type = .CONVECTIVE → y.value = x.value ∧ z.value = x.value
  value : x.type ≠ .CONVECTIVE → z.value = a * x.value + b * y.value
  points : All3 (fun p q r => q.1 = p.1 ∧ r.1 = p.1 ∧ MixRecord a b p.2 q.2 r.2) x.points y.points z.points

def MixBoundary (a b : K) : Boundary K → Boundary K → Boundary K → Prop := All3 (All3 (MixSingle a b))

theorem mix_points {x y z : SingleBoundary K} (h : MixSingle a b x y z) {f g k : GhostPointInfo K → GhostPointInfo K}
    (hf : ∀ p q r, MixRecord a b p q r → MixRecord a b (f p) (g q) (k r)) : MixSingle a b (x.mapPoints f) (y.mapPoints g) (z.mapPoints k) := by
  obtain ⟨h1, h2, h3, h4, h5, h6, h7⟩ := h
  exact ⟨h1, h2, h3, h4, h5, h6, h7.map fun p q r h => ⟨h.1, h.2.1, hf _ _ _ h.2.2⟩⟩

/-- convective conditions -/
theorem mix_kernel {x y z : SingleBoundary K} (h : MixSingle a b x y z) (hc : x.type = .CONVECTIVE) {p q r : GhostPointInfo K}
    (R : MixRecord a b p q r) {s t u dt : K} (hu : u = a * s + b * t) :
    MixRecord a b (x.kernel s dt x.normal x.value p) (y.kernel t dt y.normal y.value q) (z.kernel u dt z.normal z.value r) := by
  obtain ⟨v1, v2⟩ := h.speed hc
  unfold SingleBoundary.kernel SingleBoundary.normal
  rw [h.loc.1, h.loc.2, h.field.1, h.field.2, v1, v2]
  generalize (if x.loc % 2 = 0 then (-1 : K) else 1) = n
  split_ifs
  · refine ⟨R.target, R.dL, ⟨rfl, rfl⟩, ?_, R.value⟩
    simp only [SingleBoundary.kernelSameDir, R.dL.1, R.dL.2, R.value, hu, div_eq_mul_inv]
    ring
  · refine ⟨R.target, R.dL, ⟨rfl, rfl⟩, ?_, R.value⟩
    simp only [SingleBoundary.kernelDiffDir, R.dL.1, R.dL.2, R.value, hu, div_eq_mul_inv]
    ring

theorem MixBoundary.lift {f : SingleBoundary K → SingleBoundary K} {g : SingleBoundary K → SingleBoundary K} {k : SingleBoundary K → SingleBoundary K}
    {B₁ B₂ B₃ : Boundary K} (h : MixBoundary a b B₁ B₂ B₃) (hf : ∀ x y z, MixSingle a b x y z → MixSingle a b (f x) (g y) (k z)) :
    MixBoundary a b (B₁.map fun l => l.map f) (B₂.map fun l => l.map g) (B₃.map fun l => l.map k) :=
  h.map fun _ _ _ h => h.map hf

theorem MixBoundary.setGhostICs {B₁ B₂ B₃ : Boundary K} (h : MixBoundary a b B₁ B₂ B₃) {u v w : ℤ → K} (hu : Mixed a b u v w) :
    MixBoundary a b (B₁.setGhostICs u) (B₂.setGhostICs v) (B₃.setGhostICs w) := by
  refine h.lift fun x y z h => mix_points h fun p q r R => ?_
  rw [R.target.1, R.target.2]
  have ht := hu p.targetPackedId
  have R' : MixRecord a b { p with value := u p.targetPackedId } { q with value := v p.targetPackedId } { r with value := w p.targetPackedId } :=
    ⟨R.target, R.dL, R.a0, R.a1, ht⟩
  unfold SingleBoundary.setGhostICsKernel
  rw [h.type.1, h.type.2]
  cases hc : x.type with
  | NOBC => exact R
  | PERIODIC => exact R
  | CONVECTIVE => exact mix_kernel h hc R' ht
  | DIRICHLET =>
    have hv := h.value (by rw [hc]; simp)
    simp only [h.loc.1, h.loc.2, h.field.1, h.field.2]
    split_ifs
    · exact ⟨R.target, R.dL, ⟨rfl, rfl⟩, hv, by simp only [hv, ht]; ring⟩
    · exact ⟨R.target, R.dL, ⟨rfl, rfl⟩, by simp only [hv]; ring, by simp only [hv, ht]; ring⟩
  | NEUMANN =>
    have hv := h.value (by rw [hc]; simp)
    simp only [SingleBoundary.normal, h.loc.1, h.loc.2]
    exact ⟨R.target, R.dL, ⟨rfl, rfl⟩, by simp only [hv, R.dL.1, R.dL.2]; ring, by simp only [hv, ht, R.dL.1, R.dL.2]; ring⟩

theorem MixBoundary.updateEqs {B₁ B₂ B₃ : Boundary K} (h : MixBoundary a b B₁ B₂ B₃) {u v w : ℤ → K} (hu : Mixed a b u v w) (dt : K) :
    MixBoundary a b (B₁.updateEqs u dt) (B₂.updateEqs v dt) (B₃.updateEqs w dt) := by
  refine h.lift fun x y z h => mix_points h fun p q r R => ?_
  rw [R.target.1, R.target.2]
  have ht := hu p.targetPackedId
  unfold SingleBoundary.updateEqsKernel
  rw [h.type.1, h.type.2]
  cases hc : x.type with
  | CONVECTIVE => exact mix_kernel h hc R ht
  | _ => exact R

theorem MixBoundary.updateGhostValues {B₁ B₂ B₃ : Boundary K} (h : MixBoundary a b B₁ B₂ B₃) {u v w : ℤ → K} (hu : Mixed a b u v w) :
    MixBoundary a b (B₁.updateGhostValues u) (B₂.updateGhostValues v) (B₃.updateGhostValues w) := by
  refine h.lift fun x y z h => mix_points h fun p q r R => ?_
  refine ⟨R.target, R.dL, R.a0, R.a1, ?_⟩
  simp only [R.target.1, R.target.2, R.a0.1, R.a0.2, R.a1, hu p.targetPackedId]
  ring

/-- new ghost points have no equations and values yet -/
theorem getGhostPointList_zero {f r loc : ℕ} {l : GhostPointsList K} (h : getGhostPointList debug L G f r loc = .ok l) {k : Stencil × GhostPointInfo K}
    (hk : k ∈ l) : k.2.a1 = 0 ∧ k.2.value = 0 := by
  unfold getGhostPointList at h
  obtain ⟨⟨p0, p1⟩, -, h⟩ := bind_ok h
  obtain ⟨recs, hr, h⟩ := bind_ok h
  cases h
  have hz : ∀ x ∈ recs, x.2.a1 = 0 ∧ x.2.value = 0 := by
    intro x hx
    obtain ⟨ab, -, e⟩ := mem_mapM hr hx
    unfold ghostRecord at e
    obtain ⟨⟨_, _⟩, -, e⟩ := bind_ok e
    obtain ⟨_, -, e⟩ := bind_ok e
    obtain ⟨_, -, e⟩ := bind_ok e
    cases e
    exact ⟨rfl, rfl⟩
  have e := ofAssignments_map (fun p : GhostPointInfo K => { p with a1 := 0, value := 0 }) recs
  rw [show (recs.map fun kv => (kv.1, ({ kv.2 with a1 := 0, value := 0 } : GhostPointInfo K))) = recs from by
    conv_rhs => rw [← List.map_id recs]
    refine List.map_congr_left fun x hx => ?_
    obtain ⟨k, ⟨_, _, _, _, _, _, _, _⟩⟩ := x
    obtain ⟨h1, h2⟩ := hz _ hx
    cases h1
    cases h2
    rfl] at e
  rw [e] at hk
  obtain ⟨x, -, rfl⟩ := List.mem_map.1 hk
  exact ⟨rfl, rfl⟩

theorem mix_create {r loc f : ℕ} {t : BCType} {x y z : K} (hs : t = .CONVECTIVE → y = x ∧ z = x) (hv : t ≠ .CONVECTIVE → z = a * x + b * y)
    {p q s : SingleBoundary K} (hp : createSingleBoundary debug L G r loc f x t = .ok p) (hq : createSingleBoundary debug L G r loc f y t = .ok q)
    (hz : createSingleBoundary debug L G r loc f z t = .ok s) : MixSingle a b p q s := by
  have key : t ≠ .NOBC → t ≠ .PERIODIC → ∃ on points, (∀ k ∈ points, k.2.a1 = 0 ∧ k.2.value = 0) ∧
      p = ⟨loc, f, t, x, on, points⟩ ∧ q = ⟨loc, f, t, y, on, points⟩ ∧ s = ⟨loc, f, t, z, on, points⟩ := by
    intro h1 h2
    have gen : ∀ v s, createSingleBoundary debug L G r loc f v t = .ok s → ∃ on points, checkBoundaryProc L f r loc = .ok on ∧
        (on = true → getGhostPointList debug L G f r loc = .ok points) ∧ (on = false → points = []) ∧ s = ⟨loc, f, t, v, on, points⟩ := by
      intro v s h
      have h' : (do
          let onThisProc ← checkBoundaryProc L f r loc
          let points ← if onThisProc then getGhostPointList debug L G f r loc else pure []
          return ({ loc := loc, field := f, type := t, value := v, onThisProc := onThisProc, points := points } : SingleBoundary K)) = .ok s := by
        rw [← h]
        cases t <;> first | exact absurd rfl h1 | exact absurd rfl h2 | rfl
      obtain ⟨on, e1, h'⟩ := bind_ok h'
      cases on with
      | false =>
        cases h'
        exact ⟨false, [], e1, fun h => (by cases h), fun _ => rfl, rfl⟩
      | true =>
        obtain ⟨pts, e2, h'⟩ := bind_ok (x := getGhostPointList debug L G f r loc) h'
        cases h'
        exact ⟨true, pts, e1, fun _ => e2, fun h => (by cases h), rfl⟩
    obtain ⟨on, pts, c1, c2, c3, rfl⟩ := gen _ _ hp
    obtain ⟨on', pts', d1, d2, d3, rfl⟩ := gen _ _ hq
    obtain ⟨on'', pts'', e1, e2, e3, rfl⟩ := gen _ _ hz
    rw [c1] at d1 e1
    cases d1
    cases e1
    cases on with
    | false =>
      rw [c3 rfl, d3 rfl, e3 rfl]
      exact ⟨false, [], fun k hk => (by cases hk), rfl, rfl, rfl⟩
    | true =>
      rw [c2 rfl] at d2 e2
      cases d2 rfl
      cases e2 rfl
      exact ⟨true, pts, fun k hk => getGhostPointList_zero (c2 rfl) hk, rfl, rfl, rfl⟩
  by_cases h1 : t = .NOBC
  · subst h1
    cases hp
  by_cases h2 : t = .PERIODIC
  · subst h2
    cases hp
    cases hq
    cases hz
    exact ⟨⟨rfl, rfl⟩, ⟨rfl, rfl⟩, ⟨rfl, rfl⟩, ⟨rfl, rfl⟩, hs, hv, .nil⟩
  obtain ⟨on, pts, h0, rfl, rfl, rfl⟩ := key h1 h2
  refine ⟨⟨rfl, rfl⟩, ⟨rfl, rfl⟩, ⟨rfl, rfl⟩, ⟨rfl, rfl⟩, hs, hv, All3.diag fun k hk => ⟨rfl, rfl, ⟨rfl, rfl⟩, ⟨rfl, rfl⟩, ⟨rfl, rfl⟩, ?_, ?_⟩⟩
  · rw [(h0 k hk).1]; ring
  · rw [(h0 k hk).2]; ring

theorem mix_init {T₁ T₂ T₃ : BCTable K} (hT : MixedTable L.dim a b T₁ T₂ T₃) {r : ℕ} {B₁ B₂ B₃ : Boundary K}
    (h1 : boundaryInit debug L G r T₁ = .ok B₁) (h2 : boundaryInit debug L G r T₂ = .ok B₂) (h3 : boundaryInit debug L G r T₃ = .ok B₃) :
    MixBoundary a b B₁ B₂ B₃ := by
  refine All3.mapM (fun f hf x y z hx hy hz => All3.mapM (fun loc hl p q s hp hq hs => ?_) hx hy hz) h1 h2 h3
  obtain ⟨t2, t3, hc, hv⟩ := hT f loc (List.mem_range.1 hf) (List.mem_range.1 hl)
  rw [t2] at hq
  rw [t3] at hs
  exact mix_create hc hv hp hq hs

/-! ### Operators -/

theorem mix_loop {B₁ B₂ B₃ : ℕ → Boundary K} (h : ∀ r, r < L.mpiSize → MixBoundary a b (B₁ r) (B₂ r) (B₃ r)) :
    All3 (fun x y z => (y.1, y.2.1, y.2.2.1) = (x.1, x.2.1, x.2.2.1) ∧ (z.1, z.2.1, z.2.2.1) = (x.1, x.2.1, x.2.2.1) ∧
      MixRecord a b x.2.2.2 y.2.2.2 z.2.2.2) (boundaryLoop L B₁) (boundaryLoop L B₂) (boundaryLoop L B₃) := by
  unfold boundaryLoop
  have d1 : All3 (fun r r' r'' => r' = r ∧ r'' = r ∧ r < L.mpiSize) (List.range L.mpiSize) (List.range L.mpiSize) (List.range L.mpiSize) :=
    All3.diag fun r hr => ⟨rfl, rfl, List.mem_range.1 hr⟩
  refine d1.flatMap ?_
  rintro _ _ r ⟨rfl, rfl, hr⟩
  have d2 : All3 (fun r r' r'' => r' = r ∧ r'' = r) (List.range L.dim) (List.range L.dim) (List.range L.dim) := All3.diag fun r hr => ⟨rfl, rfl⟩
  refine d2.flatMap ?_
  rintro _ _ f ⟨rfl, rfl⟩
  refine ((h r hr).getD f).flatMap fun x y z m => ?_
  rw [m.on.1, m.on.2]
  split_ifs
  · refine m.points.map fun p q s k => ?_
    exact ⟨by simp only [k.1], by simp only [k.2.1], k.2.2⟩
  · exact .nil

theorem mix_entries {B₁ B₂ B₃ : ℕ → Boundary K} (h : ∀ r, r < L.mpiSize → MixBoundary a b (B₁ r) (B₂ r) (B₃ r)) :
    boundaryEntries L B₂ = boundaryEntries L B₁ ∧ boundaryEntries L B₃ = boundaryEntries L B₁ := by
  have key : ∀ m, boundaryEntries L B₂ m = boundaryEntries L B₁ m ∧ boundaryEntries L B₃ m = boundaryEntries L B₁ m := by
    intro m
    refine (mix_loop h).map_eq ?_
    rintro ⟨r, f, s, p⟩ ⟨r', f', s', p'⟩ ⟨r'', f'', s'', p''⟩ ⟨e1, e2, R⟩
    cases e1
    cases e2
    dsimp only at R ⊢
    rw [R.target.1, R.target.2, R.a0.1, R.a0.2]
    exact ⟨rfl, rfl⟩
  exact ⟨funext fun m => (key m).1, funext fun m => (key m).2⟩

theorem mix_operators {B₁ B₂ B₃ : ℕ → Boundary K} (h : ∀ r, r < L.mpiSize → MixBoundary a b (B₁ r) (B₂ r) (B₃ r)) :
    createOperators debug L G P B₂ = createOperators debug L G P B₁ ∧ createOperators debug L G P B₃ = createOperators debug L G P B₁ := by
  obtain ⟨e1, e2⟩ := mix_entries h
  unfold createOperators createDivergence createLaplacian
  rw [e1, e2]
  exact ⟨rfl, rfl⟩

theorem mix_correction {B₁ B₂ B₃ : ℕ → Boundary K} (h : ∀ r, r < L.mpiSize → MixBoundary a b (B₁ r) (B₂ r) (B₃ r)) (m : Modifiers K) :
    Mixed a b (correctionMult L B₁ m) (correctionMult L B₂ m) (correctionMult L B₃ m) := by
  unfold correctionMult addVector
  have key : ∀ {l₁ l₂ l₃ : List (ℤ × K)} {y₁ y₂ y₃ : ℤ → K}, All3 (fun x y z => y.1 = x.1 ∧ z.1 = x.1 ∧ z.2 = a * x.2 + b * y.2) l₁ l₂ l₃ →
      Mixed a b y₁ y₂ y₃ →
      Mixed a b (l₁.foldl (fun y e => if e.1 < 0 then y else Function.update y e.1 (y e.1 + e.2)) y₁)
        (l₂.foldl (fun y e => if e.1 < 0 then y else Function.update y e.1 (y e.1 + e.2)) y₂)
        (l₃.foldl (fun y e => if e.1 < 0 then y else Function.update y e.1 (y e.1 + e.2)) y₃) := by
    intro l₁ l₂ l₃ y₁ y₂ y₃ hl
    induction hl generalizing y₁ y₂ y₃ with
    | nil => exact id
    | @cons x y z _ _ _ hh _ ih =>
      intro hy
      obtain ⟨k1, v1⟩ := x
      obtain ⟨k2, v2⟩ := y
      obtain ⟨k3, v3⟩ := z
      obtain ⟨e1, e2, e3⟩ := hh
      dsimp only at e1 e2 e3
      subst e1 e2 e3
      refine ih ?_
      dsimp only
      split_ifs
      · exact hy
      · intro i
        by_cases hi : i = k3
        · subst hi
          simp only [Function.update_self, hy i]
          ring
        · simp only [Function.update_of_ne hi, hy i]
  refine key ((mix_loop h).map ?_) fun i => by simp
  rintro ⟨r, f, s, p⟩ ⟨r', f', s', p'⟩ ⟨r'', f'', s'', p''⟩ ⟨e1, e2, R⟩
  cases e1
  cases e2
  refine ⟨rfl, rfl, ?_⟩
  dsimp only at R ⊢
  rw [R.a1]
  ring

theorem mix_mult {N : ℕ} {x y z : ℤ → K} {c : K} (h : ∀ i : ℤ, 0 ≤ i → i < N → z i = a * x i + b * y i + c) (A : Mat K) (i : ℤ) :
    Mat.mult N A z i = a * Mat.mult N A x i + b * Mat.mult N A y i + Mat.mult N A (fun _ => c) i := by
  rw [mult_congr h]
  unfold Mat.mult
  rw [Finset.mul_sum, Finset.mul_sum, ← Finset.sum_add_distrib, ← Finset.sum_add_distrib]
  exact Finset.sum_congr rfl fun j _ => by ring

theorem mix_mult_zero {N : ℕ} {x y z : ℤ → K} (h : ∀ i : ℤ, 0 ≤ i → i < N → z i = a * x i + b * y i) (A : Mat K) (i : ℤ) :
    Mat.mult N A z i = a * Mat.mult N A x i + b * Mat.mult N A y i := by
  rw [mix_mult (c := 0) (fun j h0 h1 => by rw [h j h0 h1, add_zero]) A i, mult_zero, add_zero]

theorem mix_vec {N : ℕ} {x y z : ℤ → K} (h : ∀ i : ℤ, 0 ≤ i → i < N → z i = a * x i + b * y i) : Mixed a b (vec N x) (vec N y) (vec N z) := by
  intro i
  unfold vec
  split_ifs with hi
  · exact h i hi.1 hi.2
  · ring

theorem mix_termSum {l₁ l₂ l₃ : List (ℤ → K)} (h : All3 (Mixed a b) l₁ l₂ l₃) (cs : List K) :
    Mixed a b (termSum cs l₁) (termSum cs l₂) (termSum cs l₃) := by
  intro i
  unfold termSum
  induction h generalizing cs with
  | nil => simp
  | cons h _ ih =>
    cases cs with
    | nil => simp
    | cons c cs =>
      simp only [List.zip_cons_cons, List.map_cons, List.sum_cons]
      rw [ih cs, h i]
      ring

theorem mix_push {l₁ l₂ l₃ : List (ℤ → K)} (h : All3 (Mixed a b) l₁ l₂ l₃) {x y z : ℤ → K} (hx : Mixed a b x y z) :
    All3 (Mixed a b) (pushTerm l₁ x) (pushTerm l₂ y) (pushTerm l₃ z) := by
  have drop : ∀ {l₁ l₂ l₃ : List (ℤ → K)}, All3 (Mixed a b) l₁ l₂ l₃ → All3 (Mixed a b) l₁.dropLast l₂.dropLast l₃.dropLast := by
    intro l₁ l₂ l₃ h
    induction h with
    | nil => exact .nil
    | cons h hs ih =>
      cases hs with
      | nil => exact .nil
      | cons h' hs => exact .cons h ih
  cases h with
  | nil => exact .nil
  | cons h hs => exact .cons hx (drop (.cons h hs))

/-! ### One step -/

structure MixState (L : Layout) (a b : K) (s₁ s₂ s₃ : NSState K) : Prop where
  vel : Mixed a b s₁.U s₂.U s₃.U
  pres : MixedPressure L.pN a b s₁.p s₂.p s₃.p
  diff : All3 (Mixed a b) s₁.diff s₂.diff s₃.diff
  ghosts : ∀ r, r < L.mpiSize → MixBoundary a b (s₁.B r) (s₂.B r) (s₃.B r)
  time : s₂.t = s₁.t ∧ s₃.t = s₁.t
  ite : s₂.ite = s₁.ite ∧ s₃.ite = s₁.ite

variable {T₁ T₂ T₃ : BCTable K} {B₁ B₂ B₃ : ℕ → Boundary K} {flow₁ flow₂ flow₃ : Option (FlowNode K)} {ops : NSOps K}
variable {disk₁ disk₁' disk₂ disk₂' disk₃ disk₃' : Disk K} {i₁ i₂ i₃ : NSState K}

/-- velocity corrections of pressures that differ by a constant from the combination -/
theorem mix_correct (S : Started debug L G axes T₃ B₃ P flow₃ ops disk₃ i₃ disk₃') (hn : ∀ f, f < L.dim → L.periodic 0 f = true → 2 ≤ L.n f f)
    {x y z : ℤ → K} (h : MixedPressure L.pN a b x y z) : ∀ i : ℤ, 0 ≤ i → i < L.UN →
      Mat.mult L.pN ops.G z i = a * Mat.mult L.pN ops.G x i + b * Mat.mult L.pN ops.G y i ∧
      Mat.mult L.pN ops.BNG z i = a * Mat.mult L.pN ops.BNG x i + b * Mat.mult L.pN ops.BNG y i := by
  have C := S.constructed
  have hn3 : ∀ f, f < L.dim → L.periodic 0 f = true → 2 ≤ L.n 3 f := fun f hf hp =>
    (hn f hf hp).trans (C.setup.n_le f f hf (by have := C.setup.dim_le; omega))
  obtain ⟨u, hops, _⟩ := S.reach
  obtain ⟨D, Dm, Gr, La, Lm, BN, o1, o2, o3, o4, rfl⟩ := createOperators_ok hops
  obtain ⟨c, hc⟩ := h
  have g : ∀ i : ℤ, 0 ≤ i → i < L.UN → Mat.mult L.pN Gr z i = a * Mat.mult L.pN Gr x i + b * Mat.mult L.pN Gr y i := by
    intro i i0 i1
    rw [mix_mult hc, gradient_const (φ := fun _ => c) C.setup hn3 o2 (fun _ _ _ _ _ _ => rfl) i0 i1, add_zero]
  intro i i0 i1
  refine ⟨g i i0 i1, ?_⟩
  dsimp only
  rw [mult_mul, mult_mul, mult_mul, mix_mult_zero g]

/-- the right-hand sides of the velocity systems -/
theorem mix_rhs (S : Started debug L G axes T₃ B₃ P flow₃ ops disk₃ i₃ disk₃') (hc : P.conv.nExplicit = 0)
    (hn : ∀ f, f < L.dim → L.periodic 0 f = true → 2 ≤ L.n f f) {u₁ u₂ u₃ : ℤ → K}
    {s₁ s₂ s₃ : NSState K} (R₁ : Reach L B₁ P ops.pN u₁ s₁) (R₂ : Reach L B₂ P ops.pN u₂ s₂) (R₃ : Reach L B₃ P ops.pN u₃ s₃)
    (hs : MixState L a b s₁ s₂ s₃) (w₁ w₂ w₃ : ℤ → K) :
    All3 (Mixed a b) (pushTerm s₁.diff (diffTerm L P.nu ops s₁)) (pushTerm s₂.diff (diffTerm L P.nu ops s₂))
      (pushTerm s₃.diff (diffTerm L P.nu ops s₃)) ∧
    ∀ i : ℤ, 0 ≤ i → i < L.UN →
      momentumRhs L P ops s₃ (pushTerm s₃.conv fun i => -1 * w₃ i) (pushTerm s₃.diff (diffTerm L P.nu ops s₃)) i =
        a * momentumRhs L P ops s₁ (pushTerm s₁.conv fun i => -1 * w₁ i) (pushTerm s₁.diff (diffTerm L P.nu ops s₁)) i +
        b * momentumRhs L P ops s₂ (pushTerm s₂.conv fun i => -1 * w₂ i) (pushTerm s₂.diff (diffTerm L P.nu ops s₂)) i := by
  have pN : ops.pN = L.pN := by
    obtain ⟨u, hops, _⟩ := S.reach
    exact createOperators_pN hops
  have hg := mix_correct S hn hs.pres
  have ge : ∀ r, r < L.mpiSize → MixBoundary a b ((s₁.B r).updateEqs s₁.U P.dt) ((s₂.B r).updateEqs s₂.U P.dt) ((s₃.B r).updateEqs s₃.U P.dt) :=
    fun r hr => (hs.ghosts r hr).updateEqs hs.vel P.dt
  have c1 : s₁.conv = [] := List.length_eq_zero_iff.1 (R₁.nconv.trans hc)
  have c2 : s₂.conv = [] := List.length_eq_zero_iff.1 (R₂.nconv.trans hc)
  have c3 : s₃.conv = [] := List.length_eq_zero_iff.1 (R₃.nconv.trans hc)
  have hdiff : All3 (Mixed a b) (pushTerm s₁.diff (diffTerm L P.nu ops s₁)) (pushTerm s₂.diff (diffTerm L P.nu ops s₂))
      (pushTerm s₃.diff (diffTerm L P.nu ops s₃)) := by
    refine mix_push hs.diff (mix_vec fun i _ _ => ?_)
    rw [mix_mult_zero (fun j _ _ => hs.vel j), mix_correction hs.ghosts ops.Lmods i]
    ring
  refine ⟨hdiff, ?_⟩
  intro i i0 i1
  have m := mix_correction ge ops.Lmods i
  have k0 : ∀ x : ℤ → K, termSum P.conv.explicitCoeffs (pushTerm [] x) i = 0 := fun x => by simp [pushTerm, termSum]
  unfold momentumRhs vec
  simp only [if_pos (show 0 ≤ i ∧ i < (L.UN : ℤ) from ⟨i0, i1⟩), c1, c2, c3, k0, pN, mix_termSum hdiff P.diff.explicitCoeffs i, (hg i i0 i1).1,
    hs.vel i, m]
  ring

/-- solutions of the velocity system -/
theorem mix_velocity (S : Started debug L G axes T₃ B₃ P flow₃ ops disk₃ i₃ disk₃')
    (hn : ∀ f d, f < L.dim → d < L.dim → L.periodic 0 d = true → 2 ≤ L.n f d) (hdt : 0 < P.dt) (hnu : 0 ≤ P.nu) {r₁ r₂ r₃ U₁ U₂ U₃ : ℤ → K}
    (hr : ∀ i : ℤ, 0 ≤ i → i < L.UN → r₃ i = a * r₁ i + b * r₂ i) (h1 : IsSolution L.UN ops.A r₁ U₁) (h2 : IsSolution L.UN ops.A r₂ U₂)
    (h3 : IsSolution L.UN ops.A r₃ U₃) : ∀ i : ℤ, 0 ≤ i → i < L.UN → U₃ i = a * U₁ i + b * U₂ i := by
  obtain ⟨y, -, uniq⟩ := C61_velocity_system_partial S hn hdt hnu r₃
  intro i i0 i1
  rw [uniq U₃ h3 i i0 i1, uniq (fun j => a * U₁ j + b * U₂ j) (fun j j0 j1 => ?_) i i0 i1]
  rw [mix_mult_zero (x := U₁) (y := U₂) (fun _ _ _ => rfl), h1 j j0 j1, h2 j j0 j1, hr j j0 j1]

/-- one step, if the intermediate velocities are combined -/
theorem mix_project (S₁ : Started debug L G axes T₁ B₁ P flow₁ ops disk₁ i₁ disk₁') (S₂ : Started debug L G axes T₂ B₂ P flow₂ ops disk₂ i₂ disk₂')
    (S₃ : Started debug L G axes T₃ B₃ P flow₃ ops disk₃ i₃ disk₃') (hc : P.conv.nExplicit = 0)
    (hn2 : ∀ f, f < L.dim → L.periodic 0 f = true → 2 ≤ L.n f f) (hdt : 0 < P.dt)
    (hT : ∀ f loc, f < L.dim → loc / 2 = f → (T₃ f loc).1 ≠ .NEUMANN) (hBN : GoodOrder L P ops.A)
    {v₁ p₁ v₂ p₂ v₃ p₃ : LinSolve K} (hp1 : Solves L.pN p₁ ops.DBNG) (hp2 : Solves L.pN p₂ ops.DBNG) (hp3 : Solves L.pN p₃ ops.DBNG)
    {u₁ u₂ u₃ : ℤ → K}
    {s₁ s₂ s₃ s₁' s₂' s₃' : NSState K} (R₁ : Reach L B₁ P ops.pN u₁ s₁) (R₂ : Reach L B₂ P ops.pN u₂ s₂) (R₃ : Reach L B₃ P ops.pN u₃ s₃)
    (hs : MixState L a b s₁ s₂ s₃)
    (hv : ∀ r₁ r₂ r₃ U₁ U₂ U₃, (∀ i : ℤ, 0 ≤ i → i < L.UN → r₃ i = a * r₁ i + b * r₂ i) → v₁ ops.A s₁.U r₁ = .ok U₁ → v₂ ops.A s₂.U r₂ = .ok U₂ →
      v₃ ops.A s₃.U r₃ = .ok U₃ → ∀ i : ℤ, 0 ≤ i → i < L.UN → U₃ i = a * U₁ i + b * U₂ i)
    (a₁ : advance L G P ops v₁ p₁ s₁ = .ok s₁') (a₂ : advance L G P ops v₂ p₂ s₂ = .ok s₂')
    (a₃ : advance L G P ops v₃ p₃ s₃ = .ok s₃') : MixState L a b s₁' s₂' s₃' := by
  obtain ⟨w₁, U₁, d₁, x1, x2, x3, x4, x5, x6, x7, x8, x9, x10, x11⟩ := advance_ok S₁.constructed S₁.schemes.1.1 S₁.schemes.2.1 R₁ a₁
  obtain ⟨w₂, U₂, d₂, y1, y2, y3, y4, y5, y6, y7, y8, y9, y10, y11⟩ := advance_ok S₂.constructed S₂.schemes.1.1 S₂.schemes.2.1 R₂ a₂
  obtain ⟨w₃, U₃, d₃, z1, z2, z3, z4, z5, z6, z7, z8, z9, z10, z11⟩ := advance_ok S₃.constructed S₃.schemes.1.1 S₃.schemes.2.1 R₃ a₃
  have pN : ops.pN = L.pN := by
    obtain ⟨u, hops, _⟩ := S₃.reach
    exact createOperators_pN hops
  have ge : ∀ r, r < L.mpiSize → MixBoundary a b ((s₁.B r).updateEqs s₁.U P.dt) ((s₂.B r).updateEqs s₂.U P.dt) ((s₃.B r).updateEqs s₃.U P.dt) :=
    fun r hr => (hs.ghosts r hr).updateEqs hs.vel P.dt
  obtain ⟨hdiff, hrhs⟩ := mix_rhs S₃ hc hn2 R₁ R₂ R₃ hs w₁ w₂ w₃
  have hU := hv _ _ _ _ _ _ hrhs x2 y2 z2
  have hq : Mixed a b (poissonRhs L ops (fun r => (s₁.B r).updateEqs s₁.U P.dt) (vec L.UN U₁))
      (poissonRhs L ops (fun r => (s₂.B r).updateEqs s₂.U P.dt) (vec L.UN U₂)) (poissonRhs L ops (fun r => (s₃.B r).updateEqs s₃.U P.dt) (vec L.UN U₃)) := by
    have main : Mixed a b
        (vec ops.pN fun i => Mat.mult L.UN ops.D (vec L.UN U₁) i + correctionMult L (fun r => (s₁.B r).updateEqs s₁.U P.dt) ops.Dmods i)
        (vec ops.pN fun i => Mat.mult L.UN ops.D (vec L.UN U₂) i + correctionMult L (fun r => (s₂.B r).updateEqs s₂.U P.dt) ops.Dmods i)
        (vec ops.pN fun i => Mat.mult L.UN ops.D (vec L.UN U₃) i + correctionMult L (fun r => (s₃.B r).updateEqs s₃.U P.dt) ops.Dmods i) := by
      refine mix_vec fun i _ _ => ?_
      rw [mix_mult_zero (fun j _ _ => mix_vec hU j), mix_correction ge ops.Dmods i]
      ring
    unfold poissonRhs
    cases ops.isRefP with
    | false => exact main
    | true =>
      intro i
      by_cases hi : i = 0
      · subst hi
        simp
      · simp only [if_true, Function.update_of_ne hi]
        exact main i
  have hd : MixedPressure L.pN a b (vec ops.pN d₁) (vec ops.pN d₂) (vec ops.pN d₃) := by
    have sol : IsSolution L.pN ops.DBNG (poissonRhs L ops (fun r => (s₃.B r).updateEqs s₃.U P.dt) (vec L.UN U₃)) fun j => a * d₁ j + b * d₂ j := by
      intro j j0 j1
      rw [mix_mult_zero (x := d₁) (y := d₂) (fun _ _ _ => rfl), hp1 _ _ _ x3 j j0 j1, hp2 _ _ _ y3 j j0 j1, hq j]
    have sol3 : IsSolution L.pN ops.DBNG (poissonRhs L ops (fun r => (s₃.B r).updateEqs s₃.U P.dt) (vec L.UN U₃)) d₃ :=
      fun j j0 j1 => hp3 _ _ _ z3 j j0 j1
    rw [pN]
    have inv : ∀ (x : ℤ → K) (i : ℤ), 0 ≤ i → i < L.pN → vec L.pN x i = x i := fun x i i0 i1 => by
      unfold vec
      rw [if_pos ⟨i0, i1⟩]
    cases hp : P.pType with
    | ksp =>
      obtain ⟨k1, -, -⟩ := C62_poisson_system_partial S₃ hn2 hT hBN hp hdt.ne'
      have k := (k1 (fun j => d₃ j + -1 * (a * d₁ j + b * d₂ j))).1 fun i i0 i1 => by rw [mult_sub, sol i i0 i1, sol3 i i0 i1, sub_self]
      refine ⟨d₃ 0 + -1 * (a * d₁ 0 + b * d₂ 0), fun i i0 i1 => ?_⟩
      rw [inv _ i i0 i1, inv _ i i0 i1, inv _ i i0 i1]
      linear_combination k i 0 i0 i1 le_rfl (by omega)
    | amgx =>
      obtain ⟨y, -, uniq⟩ := C43_pinned_system_partial S₃ hn2 hT hBN hp hdt.ne' (poissonRhs L ops (fun r => (s₃.B r).updateEqs s₃.U P.dt) (vec L.UN U₃))
      refine ⟨0, fun i i0 i1 => ?_⟩
      rw [inv _ i i0 i1, inv _ i i0 i1, inv _ i i0 i1, uniq _ sol3 i i0 i1, ← uniq _ sol i i0 i1, add_zero]
  have hvel : Mixed a b s₁'.U s₂'.U s₃'.U := by
    intro i
    rw [x4, y4, z4]
    unfold projected
    have e := mix_vec (a := a) (b := b) (N := L.UN) (x := Mat.mult ops.pN ops.BNG (vec ops.pN d₁)) (y := Mat.mult ops.pN ops.BNG (vec ops.pN d₂))
      (z := Mat.mult ops.pN ops.BNG (vec ops.pN d₃)) (fun j j0 j1 => by
        have := (mix_correct S₃ hn2 hd j j0 j1).2
        rw [pN] at this ⊢
        exact this) i
    rw [mix_vec hU i, e]
    ring
  refine ⟨hvel, ?_, ?_, ?_, ?_, ?_⟩
  · obtain ⟨c, hc⟩ := hs.pres
    obtain ⟨c', hc'⟩ := hd
    refine ⟨c + c', fun i i0 i1 => ?_⟩
    rw [x5, y5, z5]
    dsimp only
    rw [hc i i0 i1, hc' i i0 i1]
    ring
  · rw [x8, y8, z8]
    exact hdiff
  · intro r hr
    rw [x9, y9, z9]
    exact (ge r hr).updateGhostValues hvel
  · rw [x10, y10, z10, hs.time.1, hs.time.2]
    exact ⟨rfl, rfl⟩
  · rw [x11, y11, z11, hs.ite.1, hs.ite.2]
    exact ⟨rfl, rfl⟩

theorem mix_step (S₁ : Started debug L G axes T₁ B₁ P flow₁ ops disk₁ i₁ disk₁') (S₂ : Started debug L G axes T₂ B₂ P flow₂ ops disk₂ i₂ disk₂')
    (S₃ : Started debug L G axes T₃ B₃ P flow₃ ops disk₃ i₃ disk₃') (hc : P.conv.nExplicit = 0)
    (hn : ∀ f d, f < L.dim → d < L.dim → L.periodic 0 d = true → 2 ≤ L.n f d) (hdt : 0 < P.dt) (hnu : 0 ≤ P.nu)
    (hT : ∀ f loc, f < L.dim → loc / 2 = f → (T₃ f loc).1 ≠ .NEUMANN) (hBN : GoodOrder L P ops.A)
    {v₁ p₁ v₂ p₂ v₃ p₃ : LinSolve K} (hv1 : Solves L.UN v₁ ops.A) (hp1 : Solves L.pN p₁ ops.DBNG) (hv2 : Solves L.UN v₂ ops.A)
    (hp2 : Solves L.pN p₂ ops.DBNG) (hv3 : Solves L.UN v₃ ops.A) (hp3 : Solves L.pN p₃ ops.DBNG) {u₁ u₂ u₃ : ℤ → K}
    {s₁ s₂ s₃ s₁' s₂' s₃' : NSState K} (R₁ : Reach L B₁ P ops.pN u₁ s₁) (R₂ : Reach L B₂ P ops.pN u₂ s₂) (R₃ : Reach L B₃ P ops.pN u₃ s₃)
    (hs : MixState L a b s₁ s₂ s₃) (a₁ : advance L G P ops v₁ p₁ s₁ = .ok s₁') (a₂ : advance L G P ops v₂ p₂ s₂ = .ok s₂')
    (a₃ : advance L G P ops v₃ p₃ s₃ = .ok s₃') : MixState L a b s₁' s₂' s₃' := by
  refine mix_project S₁ S₂ S₃ hc (fun f hf hp => hn f f hf hf hp) hdt hT hBN hp1 hp2 hp3 R₁ R₂ R₃ hs (fun r₁ r₂ r₃ U₁ U₂ U₃ hr q1 q2 q3 => ?_) a₁ a₂ a₃
  exact mix_velocity S₃ hn hdt hnu hr (fun j j0 j1 => hv1 _ _ _ q1 j j0 j1) (fun j j0 j1 => hv2 _ _ _ q2 j j0 j1) (fun j j0 j1 => hv3 _ _ _ q3 j j0 j1)

end PetIBM
