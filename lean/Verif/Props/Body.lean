/-
Properties of immersed bodies: numbering of the forces, integrated forces, background cells.
-/
import Verif.Lemmas.Body
import Verif.Lemmas.MeshAxis
import Verif.Lemmas.MeshInit
import Verif.Lemmas.NavierStokesRun
import Verif.Props.BodyFile

set_option linter.unusedSectionVars false

namespace PetIBM

open Spec Layout

variable {K : Type}

/-! ### C31 -/

/-- C31. For any number of bodies, points and processes: every degree of freedom has a packed index in
`[0, dim * nPts)`, every number in that range belongs to exactly one degree of freedom, and the indices increase in the
order process, body, point, component. -/
theorem C31_packed_index_bijective (P : BodyPack K) (hP : PackOK P) :
    (∀ u, IsLagDof P u → ∃ idx : ℤ, P.getPackedGlobalIndex u.body u.point u.comp = .ok idx ∧ 0 ≤ idx ∧
      idx < (P.dim * P.nPts : ℕ)) ∧
    (∀ idx : ℤ, 0 ≤ idx → idx < (P.dim * P.nPts : ℕ) → ∃! u, IsLagDof P u ∧
      P.getPackedGlobalIndex u.body u.point u.comp = .ok idx) ∧
    (∀ u v a b, IsLagDof P u → IsLagDof P v → P.getPackedGlobalIndex u.body u.point u.comp = .ok a →
      P.getPackedGlobalIndex v.body v.point v.comp = .ok b → (a < b ↔ LagBefore u v)) := by
  refine ⟨?_, ?_, ?_⟩
  · intro u hu
    obtain ⟨x, hx, hx', _⟩ := lag_position hP hu
    refine ⟨x, hx, by omega, ?_⟩
    have := (List.getElem?_eq_some_iff.1 hx').1
    rw [length_lagDofs hP] at this
    exact_mod_cast this
  · intro idx h0 h1
    obtain ⟨x, rfl⟩ : ∃ x : ℕ, idx = x := ⟨idx.toNat, by omega⟩
    have hx : x < (lagDofs P).length := by rw [length_lagDofs hP]; exact_mod_cast h1
    have hm : (lagDofs P)[x] ∈ lagDofs P := List.getElem_mem hx
    have hu := (mem_lagDofs hP).1 hm
    refine ⟨(lagDofs P)[x], ⟨hu, ?_⟩, ?_⟩
    · obtain ⟨y, hy, hy', _⟩ := lag_position hP hu
      obtain ⟨hl, he⟩ := List.getElem?_eq_some_iff.1 hy'
      have : y = x := (nodup_lagDofs P).getElem_inj_iff.1 he
      rw [hy, this]
    · rintro v ⟨hv, hv'⟩
      obtain ⟨y, hy, hy', _⟩ := lag_position hP hv
      rw [hy] at hv'
      have : y = x := by have := Except.ok.inj hv'; exact_mod_cast this
      subst this
      exact ((List.getElem?_eq_some_iff.1 hy').2).symm
  · intro u v a b hu hv ha hb
    obtain ⟨x, hx, hx', _⟩ := lag_position hP hu
    obtain ⟨y, hy, hy', _⟩ := lag_position hP hv
    rw [hx] at ha
    rw [hy] at hb
    have ea := (Except.ok.inj ha).symm
    have eb := (Except.ok.inj hb).symm
    subst ea eb
    obtain ⟨lx, ex⟩ := List.getElem?_eq_some_iff.1 hx'
    obtain ⟨ly, ey⟩ := List.getElem?_eq_some_iff.1 hy'
    have pw := List.pairwise_iff_getElem.1 (pairwise_lagDofs P)
    constructor
    · intro h
      have := pw x y lx ly (by exact_mod_cast h)
      rwa [ex, ey] at this
    · intro h
      rcases Nat.lt_trichotomy x y with hxy | hxy | hxy
      · exact_mod_cast hxy
      · subst hxy
        rw [← ex, ← ey] at h
        exact absurd h (lagBefore_irrefl _)
      · have h2 := pw y x ly lx hxy
        rw [ex, ey] at h2
        simp only [LagBefore] at h h2
        omega

/-- C31. Every point of every body has exactly one owner, and `findProc` returns it. -/
theorem C31_owner (P : BodyPack K) (hP : PackOK P) (b i : ℕ) (x : SingleBody K) (hx : P.bodies[b]? = some x)
    (hi : i < x.nPts) : ∃! r : ℕ, r < P.mpiSize ∧ OwnsPoint x r i ∧ P.findProc b i = .ok (r : ℤ) := by
  have hm := List.mem_of_getElem? hx
  obtain ⟨r, hr, ho⟩ := exists_block x.lcl (i := i) (by rw [hP.points _ hm]; exact hi)
  rw [hP.procs _ hm] at hr
  refine ⟨r, ⟨hr, ho, findProc_eq hP hx hr hi ho⟩, ?_⟩
  rintro r' ⟨_, ho', _⟩
  exact block_unique x.lcl ho'.1 ho'.2 ho.1 ho.2

/-- C31. Arguments out of range give an error, never an index or an access outside the arrays. -/
theorem C31_out_of_range (P : BodyPack K) (hP : PackOK P) (b i d : ℤ)
    (h : b < 0 ∨ (P.bodies.length : ℤ) ≤ b ∨ (∀ x, P.bodies[b.toNat]? = some x → i < 0 ∨ (x.nPts : ℤ) ≤ i) ∨
      d < 0 ∨ (P.dim : ℤ) ≤ d) : P.getPackedGlobalIndex b i d = .error .argSize := by
  unfold BodyPack.getPackedGlobalIndex
  by_cases hb : b < 0 ∨ b ≥ P.bodies.length
  · unfold BodyPack.findProc
    rw [if_pos hb]; rfl
  · have hlt : b.toNat < P.bodies.length := by omega
    have hx : P.bodies[b.toNat]? = some P.bodies[b.toNat] := List.getElem?_eq_getElem hlt
    have hm := List.getElem_mem hlt
    generalize P.bodies[b.toNat] = x at hx hm
    by_cases hi : i < 0 ∨ i ≥ x.nPts
    · have : P.findProc b i = .error .argSize := by
        unfold BodyPack.findProc
        rw [if_neg hb, hx]
        simp only [SingleBody.findProc, if_pos hi]
      rw [this]; rfl
    · have hd : d < 0 ∨ d ≥ x.dim := by
        rw [hP.dim _ hm]
        rcases h with h | h | h | h
        · omega
        · omega
        · have := h x hx; omega
        · exact h
      have h1 : ∃ p, P.findProc b i = .ok p := by
        unfold BodyPack.findProc
        rw [if_neg hb, hx]
        simp only [SingleBody.findProc, if_neg hi]
        exact ⟨_, rfl⟩
      have h2 : P.getGlobalIndex b i d = .error .argSize := by
        unfold BodyPack.getGlobalIndex
        rw [if_neg hb, hx]
        simp only [SingleBody.getGlobalIndex, if_neg hi, if_pos hd]
      obtain ⟨p, h1⟩ := h1
      rw [h1, h2]; rfl

/-- C31. The bodies that the program creates are such a pack, whatever the number of processes. -/
theorem C31_created (R : Reader K) (fs : String → Option TextFile) (size dim : ℕ) (hs : 0 < size) (hd : 0 < dim)
    (node : BodiesNode) (P : BodyPack K) (h : BodyPack.init R fs size dim node = .ok P) :
    PackOK P ∧ P.dim = dim ∧ P.mpiSize = size := by
  unfold BodyPack.init at h
  rcases hnb : node.bodies with _ | l
  · rw [hnb] at h; cases h
  · rw [hnb] at h
    obtain ⟨bodies, hb, h⟩ := bind_ok h
    · simp only [pure, Except.pure, Except.ok.injEq] at h
      subst h
      have key : ∀ b ∈ bodies, b.dim = dim ∧ b.lcl = dmdaDefault b.nPts size := by
        intro b hmem
        obtain ⟨bn, _, hbn⟩ := mem_mapM hb hmem
        split at hbn
        · cases hbn
        · rename_i f _
          obtain ⟨path, _, hbn⟩ := bind_ok hbn
          obtain ⟨o, hc, hbn⟩ := bind_ok hbn
          rcases o with _ | b'
          · cases hbn
          simp only [pure, Except.pure, Except.ok.injEq] at hbn
          subst hbn
          unfold createSingleBody at hc
          split at hc
          · rcases hi : SingleBody.init R size dim (fs path) with e | b''
            · rw [hi] at hc
              cases e <;> cases hc
            · rw [hi] at hc
              simp only [Except.ok.injEq, Option.some.injEq] at hc
              subst hc
              unfold SingleBody.init at hi
              rcases hr : readLagrangianPoints R (fs path) with e | ⟨n, coords⟩
              · rw [hr] at hi; cases hi
              · rw [hr] at hi
                simp only [bind, Except.bind] at hi
                cases coords with
                | nil => cases hi
                | cons x xs =>
                  simp only at hi
                  split_ifs at hi
                  simp only [pure, Except.pure, Except.ok.injEq] at hi
                  subst hi
                  exact ⟨rfl, rfl⟩
          · cases hc
      refine ⟨⟨hd, fun b hmem => (key b hmem).1, ?_, ?_⟩, rfl, rfl⟩
      · intro b hmem
        rw [(key b hmem).2]
        simp [dmdaDefault]
      · intro b hmem
        rw [(key b hmem).2]
        exact sum_dmdaDefault _ _ hs

/-! ### C32 -/

section Forces

variable [Field K]

/-- sum over the points of a body, process by process -/
theorem sum_owned (g : ℕ → K) (l : List ℕ) (R : ℕ) : ((List.range R).map fun r =>
    ((List.range (sizeOf' l r)).map fun c => g (startOf l r + c)).sum).sum = ((List.range (startOf l R)).map g).sum := by
  induction R with
  | zero => simp [startOf]
  | succ R ih =>
    rw [List.range_succ, List.map_append, List.sum_append, ih]
    have : startOf l (R + 1) = startOf l R + sizeOf' l R := sum_take_succ l R
    rw [this, List.range_add, List.map_append, List.sum_append, List.map_map]
    simp [Function.comp_def]

theorem foldl_sub (g : ℕ → K) (n : ℕ) (a : K) :
    (List.range n).foldl (fun s c => s - g c) a = a - ((List.range n).map g).sum := by
  induction n with
  | zero => simp
  | succ n ih => rw [List.range_succ, List.foldl_append, ih]; simp; ring

theorem foldl_addK (g : ℕ → K) (n : ℕ) (a : K) :
    (List.range n).foldl (fun s c => s + g c) a = a + ((List.range n).map g).sum := by
  induction n with
  | zero => simp
  | succ n ih => rw [List.range_succ, List.foldl_append, ih]; simp; ring

theorem sum_map_neg' (g : ℕ → K) (l : List ℕ) : (l.map fun x => -g x).sum = -(l.map g).sum := by
  induction l with
  | nil => simp
  | cons a t ih => simp [ih]; ring

/-- C32. The reported force on a body is minus the sum over its points of the force stored for the point in the packed
vector; the distribution over processes does not occur in the result. -/
theorem C32_force (P : BodyPack K) (hP : PackOK P) (f : ℤ → K) (b d : ℕ) (x : SingleBody K)
    (hx : P.bodies[b]? = some x) (hd : d < P.dim) (F : ℕ → K)
    (hF : ∀ i, i < x.nPts → ∃ idx, P.getPackedGlobalIndex b i d = .ok idx ∧ F i = f idx) :
    ∃ l, (P.calculateAvgForces f)[b]? = some l ∧ l[d]? = some (-((List.range x.nPts).map F).sum) := by
  have hb := (List.getElem?_eq_some_iff.1 hx).1
  have hm := List.mem_of_getElem? hx
  refine ⟨(List.range P.dim).map fun dof => x.calculateAvgForces (P.accessArray f b) dof, ?_, ?_⟩
  · unfold BodyPack.calculateAvgForces
    rw [List.getElem?_map, List.getElem?_range hb]
    simp [hx]
  · rw [List.getElem?_map, List.getElem?_range hd]
    simp only [Option.map_some, Option.some.injEq]
    unfold SingleBody.calculateAvgForces
    have hs : x.mpiSize = P.mpiSize := hP.procs _ hm
    have e : ∀ r ∈ List.range P.mpiSize, (List.range (x.nLclPts r)).foldl
        (fun s c => s - P.accessArray f b r (c * x.dim + d)) 0 =
        -((List.range (sizeOf' x.lcl r)).map fun c => F (startOf x.lcl r + c)).sum := by
      intro r hr
      rw [List.mem_range] at hr
      rw [foldl_sub (fun c => P.accessArray f b r (c * x.dim + d)), zero_sub]
      congr 2
      apply List.map_congr_left
      intro c hc
      rw [List.mem_range] at hc
      have ho : OwnsPoint x r (startOf x.lcl r + c) := ownsPoint_iff.2 ⟨by omega, by
        unfold SingleBody.nLclPts at hc; omega⟩
      have hi : startOf x.lcl r + c < x.nPts := by
        rw [← hP.points _ hm]; exact lt_of_lt_of_le ho.2 (sum_take_le _ _)
      obtain ⟨idx, h1, h2⟩ := hF _ hi
      obtain ⟨n, g1, _, g3⟩ := lag_position hP (u := ⟨r, b, startOf x.lcl r + c, d⟩) ⟨hd, hr, x, hx, hi, ho⟩
      simp only at g1 g3
      rw [h1] at g1
      rw [h2, Except.ok.inj g1]
      unfold BodyPack.accessArray
      rw [g3, lclOf_some hx, Nat.add_sub_cancel_left, hP.dim _ hm]
    rw [hs]
    have e' : (List.range P.mpiSize).foldl (fun acc r => acc + (List.range (x.nLclPts r)).foldl
        (fun s c => s - P.accessArray f b r (c * x.dim + d)) 0) 0 =
        (List.range P.mpiSize).foldl (fun acc r => acc +
          -((List.range (sizeOf' x.lcl r)).map fun c => F (startOf x.lcl r + c)).sum) 0 := by
      apply List.foldl_ext
      intro acc r hr
      rw [e r hr]
    rw [e', foldl_addK (fun r => -((List.range (sizeOf' x.lcl r)).map fun c => F (startOf x.lcl r + c)).sum),
      zero_add, sum_map_neg', sum_owned F x.lcl P.mpiSize]
    have : startOf x.lcl P.mpiSize = x.nPts := by
      unfold startOf
      rw [← hP.procs _ hm, List.take_length, hP.points _ hm]
    rw [this]

/-- C32, in the wording of the property: two distributions of the same bodies over any numbers of processes report the same
forces for vectors that hold the same force at the same point. -/
theorem C32_partition_independent (P Q : BodyPack K) (hP : PackOK P) (hQ : PackOK Q) (hdim : P.dim = Q.dim)
    (hb : P.bodies.map (·.nPts) = Q.bodies.map (·.nPts)) (f g : ℤ → K)
    (hfg : ∀ b i d p q, P.getPackedGlobalIndex b i d = .ok p → Q.getPackedGlobalIndex b i d = .ok q → f p = g q) :
    P.calculateAvgForces f = Q.calculateAvgForces g := by
  have hlen : P.bodies.length = Q.bodies.length := by simpa using congrArg List.length hb
  apply List.ext_getElem?
  intro b
  by_cases hbl : b < P.bodies.length
  · have hx : P.bodies[b]? = some P.bodies[b] := List.getElem?_eq_getElem hbl
    have hy : Q.bodies[b]? = some (Q.bodies[b]'(by omega)) := List.getElem?_eq_getElem (by omega)
    have hn : P.bodies[b].nPts = (Q.bodies[b]'(by omega)).nPts := by
      have := congrArg (fun l : List ℕ => l[b]?) hb
      simpa [hbl, show b < Q.bodies.length by omega] using this
    generalize P.bodies[b] = x at hx hn
    generalize Q.bodies[b] = y at hy hn
    have key : ∀ d, d < P.dim → ∃ v l m, (P.calculateAvgForces f)[b]? = some l ∧ l[d]? = some v ∧
        (Q.calculateAvgForces g)[b]? = some m ∧ m[d]? = some v := by
      intro d hd
      have h1 : ∀ i, i < x.nPts → ∃ p q, P.getPackedGlobalIndex b i d = .ok p ∧ Q.getPackedGlobalIndex b i d = .ok q := by
        intro i hi
        obtain ⟨r, ⟨hr, ho, _⟩, _⟩ := C31_owner P hP b i x hx hi
        obtain ⟨r', ⟨hr', ho', _⟩, _⟩ := C31_owner Q hQ b i y hy (by omega)
        obtain ⟨p, hp, _⟩ := (C31_packed_index_bijective P hP).1 ⟨r, b, i, d⟩ ⟨hd, hr, x, hx, hi, ho⟩
        obtain ⟨q, hq, _⟩ := (C31_packed_index_bijective Q hQ).1 ⟨r', b, i, d⟩
          ⟨by simpa [← hdim] using hd, hr', y, hy, by show i < y.nPts; omega, ho'⟩
        exact ⟨p, q, hp, hq⟩
      classical
      let F : ℕ → K := fun i => if h : i < x.nPts then f (h1 i h).choose else 0
      obtain ⟨l, hl, hld⟩ := C32_force P hP f b d x hx hd F (by
        intro i hi
        refine ⟨(h1 i hi).choose, (h1 i hi).choose_spec.choose_spec.1, ?_⟩
        simp only [F, dif_pos hi])
      obtain ⟨m, hm, hmd⟩ := C32_force Q hQ g b d y hy (by rw [← hdim]; exact hd) F (by
        intro i hi
        rw [← hn] at hi
        refine ⟨(h1 i hi).choose_spec.choose, (h1 i hi).choose_spec.choose_spec.2, ?_⟩
        simp only [F, dif_pos hi]
        exact hfg b i d _ _ (h1 i hi).choose_spec.choose_spec.1 (h1 i hi).choose_spec.choose_spec.2)
      rw [← hn] at hmd
      exact ⟨_, l, m, hl, hld, hm, hmd⟩
    have el : (P.calculateAvgForces f)[b]? =
        some ((List.range P.dim).map fun dof => x.calculateAvgForces (P.accessArray f b) dof) := by
      unfold BodyPack.calculateAvgForces
      rw [List.getElem?_map, List.getElem?_range hbl]; simp [hx]
    have em : (Q.calculateAvgForces g)[b]? =
        some ((List.range Q.dim).map fun dof => y.calculateAvgForces (Q.accessArray g b) dof) := by
      unfold BodyPack.calculateAvgForces
      rw [List.getElem?_map, List.getElem?_range (by omega)]; simp [hy]
    rw [el, em]
    congr 1
    apply List.ext_getElem?
    intro d
    by_cases hd : d < P.dim
    · obtain ⟨v, l, m, hl, hld, hm, hmd⟩ := key d hd
      rw [el] at hl
      rw [em] at hm
      rw [Option.some.inj hl, Option.some.inj hm, hld, hmd]
    · rw [List.getElem?_eq_none (by simpa using hd), List.getElem?_eq_none (by rw [← hdim]; simpa using hd)]
  · rw [List.getElem?_eq_none (by simpa [BodyPack.calculateAvgForces] using hbl),
      List.getElem?_eq_none (by simp [BodyPack.calculateAvgForces]; omega)]

end Forces

/-- Two bodies with three and one points in the plane on two processes; the second body is absent from process 1. -/
def examplePack : BodyPack ℚ where
  dim := 2
  mpiSize := 2
  bodies := [⟨2, 3, [[0, 0], [1/4, 0], [1/2, 1/4]], [2, 1]⟩, ⟨2, 1, [[1/2, 1/2]], [1, 0]⟩]

/-- The same bodies on one process. -/
def examplePack1 : BodyPack ℚ where
  dim := 2
  mpiSize := 1
  bodies := [⟨2, 3, [[0, 0], [1/4, 0], [1/2, 1/4]], [3]⟩, ⟨2, 1, [[1/2, 1/2]], [1]⟩]

theorem examplePack_ok : PackOK examplePack ∧ PackOK examplePack1 := by
  constructor <;> constructor <;> decide

/-- The last point of the first body lives on process 1, behind the single point of the second body on process 0. -/
example : examplePack.getPackedGlobalIndex 0 2 1 = .ok 7 ∧ examplePack.getPackedGlobalIndex 1 0 0 = .ok 4 ∧
    examplePack.findProc 0 2 = .ok 1 ∧ examplePack.getPackedGlobalIndex 1 1 0 = .error .argSize ∧
    IsLagDof examplePack ⟨1, 0, 2, 1⟩ := by
  refine ⟨by decide, by decide, by decide, by decide, by decide, by decide, _, rfl, by decide, ?_⟩
  unfold OwnsPoint; decide

/-- Forces on two distributions; the third component of the packed vector on one process is the seventh on two. -/
example : examplePack.calculateAvgForces (fun i => [1, 10, 2, 20, 4, 40, 3, 30].getD i.toNat 0) = [[-6, -60], [-4, -40]] ∧
    examplePack1.calculateAvgForces (fun i => [1, 10, 2, 20, 3, 30, 4, 40].getD i.toNat 0) = [[-6, -60], [-4, -40]] := by
  decide +kernel

/-! ### C33 -/

section Cells

variable [Field K] [LinearOrder K] [IsStrictOrderedRing K]

/-- C33. For a point strictly inside the domain the recorded index is that of the cell containing it: the widths of the
cells before it add up to at most the distance from the lower end of the domain, those up to and including it to more. -/
theorem C33_cell (a : Axis K) (ha : AxisOK a) (x : K) (h1 : a.min < x) (h2 : x < a.max) :
    ∃ i : ℕ, SingleBody.meshIndex a x = .ok (i : ℤ) ∧ i < a.dL.length ∧
      a.min + (a.dL.take i).sum ≤ x ∧ x < a.min + (a.dL.take (i + 1)).sum := by
  have hv : ∀ i, vert a i = a.min + (a.dL.take i).sum := fun i => by unfold vert; ring
  have mono : ∀ i j, i ≤ j → j ≤ a.dL.length → vert a i ≤ vert a j := by
    intro i j hij
    induction j, hij using Nat.le_induction with
    | base => intro _; exact le_rfl
    | succ j _ ih =>
      intro hj
      rw [vert_succ a j (by omega)]
      have := dL_pos ha j (by omega)
      linarith [ih (by omega)]
  obtain ⟨i, hi, hl, hu⟩ : ∃ i, i < a.dL.length ∧ vert a i ≤ x ∧ x < vert a (i + 1) := by
    have hex : ∃ j, j ≤ a.dL.length ∧ x < vert a j := ⟨_, le_rfl, by rw [vert_max ha]; exact h2⟩
    classical
    have hs := Nat.find_spec hex
    have hm := @Nat.find_min _ _ hex
    generalize Nat.find hex = j at hs hm
    cases j with
    | zero => rw [vert_zero] at hs; exact absurd hs.2 (not_lt.2 h1.le)
    | succ i =>
      refine ⟨i, by omega, ?_, hs.2⟩
      have := hm (m := i) (by omega)
      by_contra hc
      exact this ⟨by omega, not_le.1 hc⟩
  refine ⟨i, ?_, hi, by rw [← hv]; exact hl, by rw [← hv]; exact hu⟩
  unfold SingleBody.meshIndex
  rw [if_neg (by rw [not_or]; exact ⟨not_le.2 h1, not_le.2 h2⟩)]
  have hlen := vertexAxis_length a
  have ht : (vertexAxis a).coordTrue.take (vertexAxis a).n = (vertexAxis a).coordTrue :=
    List.take_of_length_le (by rw [hlen]; rfl)
  have hg : ∀ m (hm : m < (vertexAxis a).coordTrue.length), (vertexAxis a).coordTrue[m] = vert a m := by
    intro m hm
    have := vertexAxis_get a m (by omega)
    rw [List.getElem?_eq_getElem hm] at this
    exact Option.some.inj this
  have : SingleBody.upperBoundK ((vertexAxis a).coordTrue.take (vertexAxis a).n) x = i + 1 := by
    unfold SingleBody.upperBoundK
    rw [ht]
    apply takeWhile_length_eq
    · intro m hm
      rw [hg m (by omega)]
      simpa using (mono m i hm (by omega)).trans hl
    · intro h
      rw [hg _ h]
      simpa using hu
    · omega
  rw [this]
  congr 1
  push_cast
  ring

/-- C33. Points outside of the domain (or on its surface) are refused. -/
theorem C33_outside (a : Axis K) (x : K) (h : x ≤ a.min ∨ a.max ≤ x) :
    SingleBody.meshIndex a x = .error .argSize := by
  unfold SingleBody.meshIndex
  rw [if_pos (by simpa using h)]

/-- C33 for a whole body: if all points of process `r` are inside of the domain, every one gets in every direction the
index of its cell; otherwise the call fails. -/
theorem C33_body (axes : ℕ → Axis K) (b : SingleBody K) (hax : ∀ d, d < b.dim → AxisOK (axes d)) (r : ℕ)
    (hin : ∀ i, OwnsPoint b r i → ∃ p : List K, b.coords[i]? = some p ∧ ∀ d, d < b.dim → ∃ x, p[d]? = some x ∧
      (axes d).min < x ∧ x < (axes d).max) :
    ∃ idx, b.updateMeshIdx axes r = .ok idx ∧ idx.length = b.nLclPts r ∧
      ∀ c, c < b.nLclPts r → ∃ row p, idx[c]? = some row ∧ b.coords[b.bgPt r + c]? = some p ∧
        ∀ d, d < b.dim → ∃ (m : ℕ) (x : K), row[d]? = some (m : ℤ) ∧ p[d]? = some x ∧ m < (axes d).dL.length ∧
          (axes d).min + ((axes d).dL.take m).sum ≤ x ∧ x < (axes d).min + ((axes d).dL.take (m + 1)).sum := by
  classical
  have own : ∀ i, i ∈ List.range' (b.bgPt r) (b.nLclPts r) → OwnsPoint b r i := by
    intro i hi
    rw [List.mem_range'_1] at hi
    exact ownsPoint_iff.2 hi
  -- one coordinate
  let cell : ℕ → ℕ → ℤ := fun i d => match b.coords[i]? with
    | some p => match p[d]? with
      | some x => match SingleBody.meshIndex (axes d) x with
        | .ok m => m
        | .error _ => 0
      | none => 0
    | none => 0
  have hcell : ∀ i, OwnsPoint b r i → ∀ d, d < b.dim → ∃ (p : List K) (x : K) (m : ℕ), b.coords[i]? = some p ∧
      p[d]? = some x ∧ SingleBody.meshIndex (axes d) x = .ok (m : ℤ) ∧ cell i d = m ∧ m < (axes d).dL.length ∧
      (axes d).min + ((axes d).dL.take m).sum ≤ x ∧ x < (axes d).min + ((axes d).dL.take (m + 1)).sum := by
    intro i hi d hd
    obtain ⟨p, hp, h⟩ := hin i hi
    obtain ⟨x, hx, h1, h2⟩ := h d hd
    obtain ⟨m, hm, h3, h4, h5⟩ := C33_cell (axes d) (hax d hd) x h1 h2
    refine ⟨p, x, m, hp, hx, hm, ?_, h3, h4, h5⟩
    simp only [cell, hp, hx, hm]
  refine ⟨(List.range' (b.bgPt r) (b.nLclPts r)).map fun i => (List.range b.dim).map (cell i), ?_, by simp, ?_⟩
  · unfold SingleBody.updateMeshIdx
    apply mapM_ok
    intro i hi
    apply mapM_ok
    intro d hd
    obtain ⟨p, x, m, hp, hx, hm, hc, _⟩ := hcell i (own i hi) d (List.mem_range.1 hd)
    simp only [hp, hx, hm, hc]
  · intro c hc
    have ho := own (b.bgPt r + c) (by rw [List.mem_range'_1]; omega)
    obtain ⟨p, hp, h⟩ := hin _ ho
    refine ⟨(List.range b.dim).map (cell (b.bgPt r + c)), p, ?_, hp, ?_⟩
    · rw [List.getElem?_map, List.getElem?_range' hc]; simp
    · intro d hd
      obtain ⟨p', x, m, hp', hx, hm, hcd, h3, h4, h5⟩ := hcell _ ho d hd
      rw [hp] at hp'
      cases hp'
      exact ⟨m, x, by rw [List.getElem?_map, List.getElem?_range hd]; simp [hcd], hx, h3, h4, h5⟩

end Cells

/-- A point in the second of three cells of different widths, and one on the wall. -/
example : SingleBody.meshIndex (⟨0, 4, [1, 2, 1]⟩ : Axis ℚ) (3/2) = .ok 1 ∧
    SingleBody.meshIndex (⟨0, 4, [1, 2, 1]⟩ : Axis ℚ) 1 = .ok 1 ∧
    SingleBody.meshIndex (⟨0, 4, [1, 2, 1]⟩ : Axis ℚ) 4 = .error .argSize ∧
    AxisOK (⟨0, 4, [1, 2, 1]⟩ : Axis ℚ) := by
  refine ⟨by decide +kernel, by decide +kernel, by decide +kernel, ⟨by decide, by decide +kernel, by decide +kernel⟩⟩

/-! ### C30: what becomes of the errors -/

/-- C30 is false as stated, second half: a body file that does not exist, or is malformed, or has the wrong dimension, is not
reported to the caller. `createSingleBody` returns no error but an object with indeterminate members. -/
theorem C30_false_reported (R : Reader K) (size dim : ℕ) (file : Option TextFile)
    (h : SingleBody.init R size dim file = .error .fileRead) :
    createSingleBody R size dim "points" file = .ok none := by
  simp [createSingleBody, h]

/-- Consequence for the pack: the program goes on with the object, and reads the number of points that was never set. -/
theorem C30_false_program (R : Reader K) (fs : String → Option TextFile) (size dim : ℕ) (path : String)
    (hp : path.toList.head? = some '/') (h : SingleBody.init R size dim (fs path) = .error .fileRead) :
    createBodyPack R fs size dim ⟨some [⟨none, none, some path⟩], none⟩ = .error .ub := by
  have h2 := C30_false_reported R size dim (fs path) h
  have h1 : BodyPack.init R fs size dim ⟨some [⟨none, none, some path⟩], none⟩ = .error .ub := by
    unfold BodyPack.init
    simp only [BodyPack.filePath, hp, if_true, Option.getD_none, List.mapM_cons, bind, Except.bind, h2]
  unfold createBodyPack
  rw [h1]

/-- Both hypotheses hold for a missing file and for a planar body in a three-dimensional run. -/
example : SingleBody.init decimalReader 2 3 none = .error .fileRead ∧
    SingleBody.init decimalReader 2 3 (some exampleBodyFile) = .error .fileRead ∧
    (∃ b, SingleBody.init decimalReader 2 2 (some exampleBodyFile) = .ok b ∧ b.lcl = [1, 1]) := by
  refine ⟨rfl, by decide +kernel, ⟨2, 2, [[0, 1/4], [-3/2, 1]], [1, 1]⟩, by decide +kernel, rfl⟩

end PetIBM
