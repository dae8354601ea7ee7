/-
A restarted solver has the state that was saved.
-/
import Verif.Spec.Restart
import Verif.Props.Solution
import Verif.Lemmas.RunFiles

set_option linter.unusedSectionVars false

namespace PetIBM

open Spec

variable {K : Type} [Field K] [LinearOrder K] [IsStrictOrderedRing K]
variable {debug : Bool} {L : Layout} {G : Geom K} {axes : ℕ → Axis K} {T : BCTable K} {B : ℕ → Boundary K}

/-! ### Ghost points -/

/-- without convective boundaries the ghost points depend on the last velocity only -/
theorem ghosts_determined (C : Constructed debug L G axes T B) (hT : NoConvective L T) {h h' : List (Boundary.Op K)} {u : ℤ → K}
    (i : Initialised h) (i' : Initialised h') (j : JustRefreshed h u) (j' : JustRefreshed h' u) {r : ℕ} (hr : r < L.mpiSize) :
    (B r).run h = (B r).run h' := by
  rw [Boundary.run_eq, Boundary.run_eq]
  apply List.map_congr_left
  intro l hl
  apply List.map_congr_left
  intro b hb
  obtain ⟨f, hf⟩ := List.mem_iff_getElem?.1 hl
  obtain ⟨loc, hloc⟩ := List.mem_iff_getElem?.1 hb
  have hi := C.init r hr
  unfold boundaryInit at hi
  obtain ⟨f', e1, e2⟩ := (mapM_except_getElem? hi f).2 l hf
  obtain ⟨hfd, rfl⟩ := getElem?_range_some e1
  obtain ⟨loc', e3, e4⟩ := (mapM_except_getElem? e2 loc).2 b hloc
  obtain ⟨hld, rfl⟩ := getElem?_range_some e3
  obtain ⟨_, _, ht, _, hn⟩ := createSingleBoundary_static e4
  have hc := hT f loc hfd hld
  unfold SingleBoundary.mapPoints
  congr 1
  by_cases hp : b.type = .PERIODIC
  · have : b.points = [] := by
      rw [ht] at hp
      rw [hp] at e4
      cases e4
      rfl
    rw [this]
    rfl
  · apply List.map_congr_left
    intro kp _
    have hn' : b.type ≠ .NOBC := by rw [ht]; exact hn
    have s1 := SingleBoundary.pointRun_static b h kp.2
    have s2 := SingleBoundary.pointRun_static b h' kp.2
    have c1 := pointRun_coeffs b h i kp.2 hp hn'
    have c2 := pointRun_coeffs b h' i' kp.2 hp hn'
    have v1 := pointRun_value b h u j kp.2 hp hn'
    have v2 := pointRun_value b h' u j' kp.2 hp hn'
    have a0 : (b.pointRun h kp.2).a0 = (b.pointRun h' kp.2).a0 := c1.1.trans c2.1.symm
    have a1 : (b.pointRun h kp.2).a1 = (b.pointRun h' kp.2).a1 := by
      cases hb' : b.type with
      | DIRICHLET => rw [c1.2.1 hb', c2.2.1 hb']
      | NEUMANN => rw [c1.2.2 hb', c2.2.2 hb']
      | CONVECTIVE => exact absurd (ht.symm.trans hb') hc
      | PERIODIC => exact absurd hb' hp
      | NOBC => exact absurd hb' hn'
    have vv : (b.pointRun h kp.2).value = (b.pointRun h' kp.2).value := by rw [v1, v2, a0, a1]
    congr 1
    generalize b.pointRun h kp.2 = p at *
    generalize b.pointRun h' kp.2 = q at *
    obtain ⟨⟩ := p
    obtain ⟨⟩ := q
    simp only at *
    simp_all

/-! ### Only the ghost points of existing processes matter -/

theorem mapM_congr' {α β : Type} {g g' : α → Except Error β} {l : List α} (h : ∀ a ∈ l, g a = g' a) : l.mapM g = l.mapM g' := by
  induction l with
  | nil => rfl
  | cons a l ih =>
    rw [List.mapM_cons, List.mapM_cons, h a (List.mem_cons_self ..), ih fun b hb => h b (List.mem_cons_of_mem _ hb)]

theorem flatMap_congr' {α β : Type} {g g' : α → List β} {l : List α} (h : ∀ a ∈ l, g a = g' a) : l.flatMap g = l.flatMap g' := by
  rw [List.flatMap_def, List.flatMap_def, List.map_congr_left h]

theorem boundaryLoop_congr {B B' : ℕ → Boundary K} (h : ∀ r, r < L.mpiSize → B r = B' r) : boundaryLoop L B = boundaryLoop L B' := by
  unfold boundaryLoop
  apply flatMap_congr'
  intro r hr
  rw [h r (List.mem_range.1 hr)]

theorem correctionMult_congr {B B' : ℕ → Boundary K} (h : ∀ r, r < L.mpiSize → B r = B' r) (mods : Modifiers K) :
    correctionMult L B mods = correctionMult L B' mods := by
  unfold correctionMult
  rw [boundaryLoop_congr h]

theorem convectionMult_congr {B B' : ℕ → Boundary K} (h : ∀ r, r < L.mpiSize → B r = B' r) (v : ℕ → ℕ → ℤ → K) (q y : ℤ → K) :
    convectionMult L G B v q y = convectionMult L G B' v q y := by
  unfold convectionMult convectionAssign
  have : ((List.range L.mpiSize).mapM fun r => (List.range L.dim).mapM fun f => (L.box f r).mapM fun p => do
      let idx ← L.getPackedGlobalIndex false f ⟨p.2.2, p.2.1, p.1, 0⟩
      let x ← convectionKernel L.dim G (fun g => readLocal L g r (convectionLocal L B q v r g)) f p.1 p.2.1 p.2.2
      return (idx, x)) = (List.range L.mpiSize).mapM fun r => (List.range L.dim).mapM fun f => (L.box f r).mapM fun p => do
      let idx ← L.getPackedGlobalIndex false f ⟨p.2.2, p.2.1, p.1, 0⟩
      let x ← convectionKernel L.dim G (fun g => readLocal L g r (convectionLocal L B' q v r g)) f p.1 p.2.1 p.2.2
      return (idx, x) := by
    apply mapM_congr'
    intro r hr
    have : convectionLocal L B q v r = convectionLocal L B' q v r := by
      unfold convectionLocal
      rw [h r (List.mem_range.1 hr)]
    rw [this]
  rw [this]

/-- a step from two states with the same flow -/
theorem advance_same (C : Constructed debug L G axes T B) {P : NSParams K} (hc : P.conv.explicitCoeffs.length = P.conv.nExplicit)
    (hd : P.diff.explicitCoeffs.length = P.diff.nExplicit) (ops : NSOps K) (vSolve pSolve : LinSolve K) (hg : IgnoresGuess pSolve)
    {N : ℕ} {u u' : ℤ → K} {s s' : NSState K} (R : Reach L B P N u s) (R' : Reach L B P N u' s') (E : SameFlow L s s') :
    (∀ s₁, advance L G P ops vSolve pSolve s = .ok s₁ → ∃ s₁', advance L G P ops vSolve pSolve s' = .ok s₁' ∧ SameFlow L s₁ s₁') ∧
      ∀ e, advance L G P ops vSolve pSolve s = .error e → advance L G P ops vSolve pSolve s' = .error e := by
  obtain ⟨w, hw, _, loc, _, h⟩ := advance_eq C hc hd ops vSolve pSolve R
  obtain ⟨w', hw', _, loc', _, h'⟩ := advance_eq C hc hd ops vSolve pSolve R'
  obtain ⟨U, p, dP, conv, diff, b, l, t, ite⟩ := s
  obtain ⟨U', p', dP', conv', diff', b', l', t', ite'⟩ := s'
  obtain ⟨e1, e2, e3, e4, e5, e6, e7⟩ := E
  simp only at e1 e2 e3 e4 e5 e6 e7 hw hw' h h'
  subst e1 e2 e3 e4 e5 e6
  have hww : w' = w := by
    rw [convectionMult_congr e7, hw'] at hw
    exact Except.ok.inj hw
  subst hww
  have ht : diffTerm L P.nu ops ⟨U, p, dP', conv, diff, b', l', t, ite⟩ = diffTerm L P.nu ops ⟨U, p, dP, conv, diff, b, l, t, ite⟩ := by
    unfold diffTerm
    simp only [correctionMult_congr e7]
  have hup : ∀ r, r < L.mpiSize → (b r).updateEqs U P.dt = (b' r).updateEqs U P.dt := fun r hr => by rw [e7 r hr]
  have hm : ∀ a c, momentumRhs L P ops ⟨U, p, dP', conv, diff, b', l', t, ite⟩ a c = momentumRhs L P ops ⟨U, p, dP, conv, diff, b, l, t, ite⟩ a c := by
    intro a c
    unfold momentumRhs
    simp only [correctionMult_congr hup]
  have hq : ∀ V, poissonRhs L ops (fun r => (b' r).updateEqs U P.dt) V = poissonRhs L ops (fun r => (b r).updateEqs U P.dt) V := by
    intro V
    unfold poissonRhs
    simp only [correctionMult_congr hup]
  rw [ht, hm] at h'
  simp only [hq, hg _ dP' dP] at h'
  rw [h, h']
  cases hv : vSolve ops.A U (momentumRhs L P ops ⟨U, p, dP, conv, diff, b, l, t, ite⟩ (pushTerm conv fun i => -1 * w' i)
      (pushTerm diff (diffTerm L P.nu ops ⟨U, p, dP, conv, diff, b, l, t, ite⟩))) with
  | error e =>
    simp only [Except.bind]
    exact ⟨fun _ h => (by cases h), fun _ h => (by cases h; rfl)⟩
  | ok V =>
    simp only [Except.bind]
    cases hp : pSolve ops.DBNG dP (poissonRhs L ops (fun r => (b r).updateEqs U P.dt) (vec L.UN V)) with
    | error e => exact ⟨fun _ h => (by cases h), fun _ h => (by cases h; rfl)⟩
    | ok dQ =>
      refine ⟨?_, fun _ h => (by cases h)⟩
      intro s₁ h1
      cases h1
      refine ⟨_, rfl, rfl, rfl, rfl, rfl, rfl, rfl, ?_⟩
      intro r hr
      simp only [e7 r hr]

/-! ### Reading the file -/

theorem fieldIn_data (hL : LayoutOK L) {f : ℕ} (hf : f < L.dim ∨ f = 3) {q : ℤ → K} {data : Option (List K)} (h : FieldIn L f q data) :
    data = some ((gridList L.toMeshInfo f).map fun x => q (col L f (pst x))) := by
  obtain ⟨v, rfl, hl, hv⟩ := h
  congr 1
  apply List.ext_getElem?
  intro m
  by_cases hm : m < L.n f 0 * L.n f 1 * L.n f 2
  · have h0 : 0 < L.n f 0 := by
      rcases Nat.eq_zero_or_pos (L.n f 0) with h | h
      · rw [h] at hm; simp at hm
      · exact h
    have h1 : 0 < L.n f 1 := by
      rcases Nat.eq_zero_or_pos (L.n f 1) with h | h
      · rw [h] at hm; simp at hm
      · exact h
    have hi := Nat.mod_lt m h0
    have hj := Nat.mod_lt (m / L.n f 0) h1
    have hk : m / L.n f 0 / L.n f 1 < L.n f 2 := by
      rw [Nat.div_div_eq_div_mul]
      exact Nat.div_lt_of_lt_mul hm
    have e : (m / L.n f 0 / L.n f 1 * L.n f 1 + m / L.n f 0 % L.n f 1) * L.n f 0 + m % L.n f 0 = m := by
      rw [Nat.div_add_mod', Nat.div_add_mod']
    have hmem : (m % L.n f 0, m / L.n f 0 % L.n f 1, m / L.n f 0 / L.n f 1) ∈ gridList L.toMeshInfo f := mem_gridList.2 ⟨hi, hj, hk⟩
    have a := hv _ _ _ _ hi hj hk (col_inside hL hf false (inside_pst hmem)).1
    rw [e] at a
    rw [a, List.getElem?_map]
    have := gridList_getElem? (M := L.toMeshInfo) (f := f) hi hj hk
    rw [e] at this
    rw [this]
    rfl
  · rw [List.getElem?_eq_none (by omega), List.getElem?_eq_none (by rw [List.length_map, length_gridList]; omega)]

theorem solutionRead_saved (hL : LayoutOK L) {file : H5File K} {s : NSState K} (h : SolutionIn L file s) {disk : Disk K} {path : String}
    (hd : disk path = some file) (U p : ℤ → K) (oU : ∀ i : ℤ, ¬ (0 ≤ i ∧ i < L.UN) → s.U i = U i)
    (oP : ∀ i : ℤ, ¬ (0 ≤ i ∧ i < L.pN) → s.p i = p i) : solutionRead L U p disk path = .ok (s.U, s.p) := by
  have h3 : L.dim ≤ 3 := by rcases hL.dim with h | h <;> omega
  let u : ℕ → ℕ × ℕ × ℕ → K := fun f x => if f = 3 then s.p (col L 3 (pst x)) else s.U (col L f (pst x))
  have hr := solutionRead_eq hL U p hd (u := u)
    (by
      intro f hf
      have hn : f ≠ 3 := by omega
      simp only [u, if_neg hn]
      apply fieldIn_data hL (Or.inl hf)
      apply h.velocity f _ hf
      have : f < 3 := by omega
      interval_cases f <;> rfl)
    (by simpa only [u, if_true] using fieldIn_data hL (Or.inr rfl) h.pressure)
  have ho := solutionRead_outside hL hr
  rw [hr]
  congr 2
  · funext i
    by_cases hi : 0 ≤ i ∧ i < (L.UN : ℤ)
    · obtain ⟨x, hx, rfl⟩ := col_surj hL hi.1 hi.2
      obtain ⟨y, hy, e⟩ := exists_pst hx.inside
      rw [← e, assign_velocity hL (u := u) (f := x.comp) _ _ hx.1 hy]
      · have : x.comp ≠ 3 := by have := hx.1; omega
        simp only [u, if_neg this]
      · intro w
        simp only [List.mem_flatMap, List.mem_range, List.mem_map]
    · rw [ho.1 i hi, oU i hi]
  · funext i
    by_cases hi : 0 ≤ i ∧ i < (L.pN : ℤ)
    · obtain ⟨x, ⟨hx, e⟩, _⟩ := (C04_pressure_index_bijective false L hL 0).2 i hi.1 hi.2
      have hy := mem_gridList.2 hx
      have e' := (col_inside hL (Or.inr rfl) false (inside_pst hy)).1
      have : i = col L 3 (pst x) := by
        have e2 : L.getPackedGlobalIndex false 3 (pst x) = .ok i := e
        rw [e'] at e2
        exact (Except.ok.inj e2).symm
      rw [this, assign_pressure hL (u := u 3) _ _ hy]
      · simp only [u, if_true]
      · intro w
        simp only [List.mem_map]
    · rw [ho.2 i hi, oP i hi]

theorem vectorsIn_read {N n : ℕ} {file : H5File K} {disk : Disk K} {path group : String} (hd : disk path = some file) {l : List (ℤ → K)}
    (h : VectorsIn N file group l) (hn : l.length = n) (ho : ∀ z ∈ l, ∀ i : ℤ, ¬ (0 ≤ i ∧ i < N) → z i = 0) :
    ∃ vs, readHDF5Vecs disk path group ((List.range n).map toString) (List.replicate n N) = .ok vs ∧ vs.map packedVec = l := by
  subst hn
  refine ⟨l.map (packedList N), ?_, ?_⟩
  · unfold readHDF5Vecs
    rw [hd]
    simp only
    have hz : ((List.range l.length).map toString).zip (List.replicate l.length N) = (List.range l.length).map fun i : ℕ => (toString i, N) := by
      apply List.ext_getElem?
      intro i
      by_cases hi : i < l.length
      · rw [show (((List.range l.length).map toString).zip (List.replicate l.length N))[i]? = some (toString i, N) from
          List.getElem?_zip_eq_some.2 ⟨by simp [hi], by simp [hi]⟩]
        simp [hi]
      · rw [List.getElem?_eq_none (by simp; omega), List.getElem?_eq_none (by simp; omega)]
    rw [hz, List.mapM_map]
    have key : ∀ (k : ℕ), k ≤ l.length → (List.range k).mapM (fun i : ℕ => file.get (group ++ toString i) N) = .ok ((l.take k).map (packedList N)) := by
      intro k
      induction k with
      | zero => intro _; simp; rfl
      | succ k ih =>
        intro hk
        rw [List.range_succ, List.mapM_append, ih (by omega)]
        have hlk : l[k]? = some l[k] := List.getElem?_eq_getElem (by omega)
        obtain ⟨v, e1, e2, e3⟩ := h k _ hlk
        have hv : v = packedList N l[k] := by
          apply List.ext_getElem?
          intro m
          unfold packedList
          by_cases hm : m < N
          · rw [e3 m hm]; simp [hm]
          · rw [List.getElem?_eq_none (by omega), List.getElem?_eq_none (by simp; omega)]
        have hget : file.get (group ++ toString k) N = .ok (packedList N l[k]) := by
          unfold H5File.get
          rw [e1]
          simp only [e2, if_true]
          rw [hv]
        rw [List.mapM_cons, hget, List.take_add_one, hlk, List.map_append]
        rfl
    have := key l.length le_rfl
    rw [List.take_length] at this
    exact this
  · rw [List.map_map]
    conv_rhs => rw [← List.map_id l]
    apply List.map_congr_left
    intro z hz
    funext i
    simp only [Function.comp, id]
    by_cases hi : 0 ≤ i ∧ i < (N : ℤ)
    · obtain ⟨m, rfl⟩ := Int.eq_ofNat_of_zero_le hi.1
      have hm : m < N := by omega
      unfold packedVec packedList
      rw [if_pos hi.1]
      simp [hm]
    · rw [packedVec_out (N := N) (by simp [packedList]) hi, ho z hz i hi]

theorem trajectory_unique {P : NSParams K} {ops : NSOps K} {vSolve pSolve : LinSolve K} {x y : ℕ → NSState K} {n m : ℕ} (h : x 0 = y 0)
    (hx : Trajectory L G P ops vSolve pSolve x n) (hy : Trajectory L G P ops vSolve pSolve y m) : ∀ k, k ≤ n → k ≤ m → x k = y k := by
  intro k
  induction k with
  | zero => intros; exact h
  | succ k ih =>
    intro h1 h2
    have a := hx k (by omega)
    have b := hy k (by omega)
    rw [ih (by omega) (by omega), b] at a
    exact (Except.ok.inj a).symm

end PetIBM
