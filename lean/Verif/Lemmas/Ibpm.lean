/-
Lemmas on the solvers with immersed bodies.
-/
import Verif.Spec.Ibpm
import Verif.Lemmas.Body
import Verif.Props.NavierStokes
import Verif.Props.Diag

set_option linter.unusedSectionVars false

namespace PetIBM

open Spec

/-! ### Nested numbering -/

theorem nestSplit_pos (counts : List (ℕ × ℕ)) (p₀ f₀ : ℕ) :
    (∀ a, a < (counts.map (·.1)).sum → nestSplit counts p₀ f₀ (nestPos counts (.inl a)) = some (.inl (p₀ + a)) ∧
      nestPos counts (.inl a) < (counts.map (·.1)).sum + (counts.map (·.2)).sum) ∧
    (∀ b, b < (counts.map (·.2)).sum → nestSplit counts p₀ f₀ (nestPos counts (.inr b)) = some (.inr (f₀ + b)) ∧
      nestPos counts (.inr b) < (counts.map (·.1)).sum + (counts.map (·.2)).sum) := by
  induction counts generalizing p₀ f₀ with
  | nil => simp
  | cons x l ih =>
    obtain ⟨p, f⟩ := x
    obtain ⟨i1, i2⟩ := ih (p₀ + p) (f₀ + f)
    have e1 : ∀ i, nestSplit ((p, f) :: l) p₀ f₀ i = if i < p then some (.inl (p₀ + i))
        else if i < p + f then some (.inr (f₀ + (i - p))) else nestSplit l (p₀ + p) (f₀ + f) (i - (p + f)) := fun _ => rfl
    simp only [List.map_cons, List.sum_cons]
    constructor
    · intro a ha
      by_cases h : a < p
      · have e : nestPos ((p, f) :: l) (.inl a) = a := by simp [nestPos, h]
        rw [e, e1, if_pos h]; exact ⟨rfl, by omega⟩
      · obtain ⟨j1, j2⟩ := i1 (a - p) (by omega)
        have e : nestPos ((p, f) :: l) (.inl a) = p + f + nestPos l (.inl (a - p)) := by simp [nestPos, h]
        rw [e, e1, if_neg (by omega), if_neg (by omega), Nat.add_sub_cancel_left, j1]
        exact ⟨by congr 2; omega, by omega⟩
    · intro b hb
      by_cases h : b < f
      · have e : nestPos ((p, f) :: l) (.inr b) = p + b := by simp [nestPos, h]
        rw [e, e1, if_neg (by omega), if_pos (by omega), Nat.add_sub_cancel_left]; exact ⟨rfl, by omega⟩
      · obtain ⟨j1, j2⟩ := i2 (b - f) (by omega)
        have e : nestPos ((p, f) :: l) (.inr b) = p + f + nestPos l (.inr (b - f)) := by simp [nestPos, h]
        rw [e, e1, if_neg (by omega), if_neg (by omega), Nat.add_sub_cancel_left, j1]
        exact ⟨by congr 2; omega, by omega⟩

theorem nestPos_split (counts : List (ℕ × ℕ)) (p₀ f₀ i : ℕ) (hi : i < (counts.map (·.1)).sum + (counts.map (·.2)).sum) :
    (∃ a, a < (counts.map (·.1)).sum ∧ nestSplit counts p₀ f₀ i = some (.inl (p₀ + a)) ∧ nestPos counts (.inl a) = i) ∨
    (∃ b, b < (counts.map (·.2)).sum ∧ nestSplit counts p₀ f₀ i = some (.inr (f₀ + b)) ∧ nestPos counts (.inr b) = i) := by
  induction counts generalizing p₀ f₀ i with
  | nil => simp at hi
  | cons x l ih =>
    obtain ⟨p, f⟩ := x
    simp only [List.map_cons, List.sum_cons, nestPos, nestSplit] at hi ⊢
    by_cases h1 : i < p
    · left; exact ⟨i, by omega, by rw [if_pos h1], by rw [if_pos h1]⟩
    · by_cases h2 : i < p + f
      · right; exact ⟨i - p, by omega, by rw [if_neg h1, if_pos h2], by rw [if_pos (by omega)]; omega⟩
      · rw [if_neg h1, if_neg h2]
        rcases ih (p₀ + p) (f₀ + f) (i - (p + f)) (by omega) with ⟨a, ha, e1, e2⟩ | ⟨b, hb, e1, e2⟩
        · left
          exact ⟨p + a, by omega, by rw [e1]; congr 2; omega, by rw [if_neg (by omega), Nat.add_sub_cancel_left, e2]; omega⟩
        · right
          exact ⟨f + b, by omega, by rw [e1]; congr 2; omega, by rw [if_neg (by omega), Nat.add_sub_cancel_left, e2]; omega⟩

section

variable {K : Type} [Field K] [LinearOrder K]

theorem sum_counts {L : Layout} (hL : LayoutOK L) {bodies : BodyPack K} (hB : BodiesOK L bodies) :
    ((nestCounts L bodies).map (·.1)).sum = L.pN ∧ ((nestCounts L bodies).map (·.2)).sum = bodies.nPts * bodies.dim := by
  unfold nestCounts
  constructor
  · rw [List.map_map]
    exact sum_box hL (Or.inr rfl)
  · rw [List.map_map, mul_comm, ← length_lagDofs hB.pack, ← hB.procs]
    unfold lagDofs
    rw [List.length_flatMap]
    congr 1
    apply List.map_congr_left
    intro r _
    simp only [Function.comp_def, List.length_flatMap, length_localDofs]
    unfold BodyPack.nLclAllProcs
    rw [foldl_nLcl, Nat.zero_add]
    rw [map_take_range bodies.bodies bodies.bodies.length le_rfl (fun b => b.nLclAllProcs r), List.take_length]
    intro b x hx
    rw [lclOf_some hx]
    simp [SingleBody.nLclAllProcs, hB.pack.dim _ (List.mem_of_getElem? hx)]

/-- Rows of the composite matrix. -/
theorem nestRows_pressure {counts : List (ℕ × ℕ)} (A B : Mat K) {a : ℕ} (ha : a < (counts.map (·.1)).sum) (j : ℤ) :
    Mat.nestRows counts A B (nestPos counts (.inl a) : ℕ) j = A a j := by
  unfold Mat.nestRows
  rw [if_pos (by omega), Int.toNat_natCast, ((nestSplit_pos counts 0 0).1 a ha).1]
  simp

theorem nestRows_force {counts : List (ℕ × ℕ)} (A B : Mat K) {b : ℕ} (hb : b < (counts.map (·.2)).sum) (j : ℤ) :
    Mat.nestRows counts A B (nestPos counts (.inr b) : ℕ) j = B b j := by
  unfold Mat.nestRows
  rw [if_pos (by omega), Int.toNat_natCast, ((nestSplit_pos counts 0 0).2 b hb).1]
  simp

theorem nestVec_pressure {counts : List (ℕ × ℕ)} (p f : ℤ → K) {a : ℕ} (ha : a < (counts.map (·.1)).sum) :
    nestVec counts p f (nestPos counts (.inl a) : ℕ) = p a := by
  unfold nestVec
  rw [if_pos (by omega), Int.toNat_natCast, ((nestSplit_pos counts 0 0).1 a ha).1]
  simp

theorem nestVec_force {counts : List (ℕ × ℕ)} (p f : ℤ → K) {b : ℕ} (hb : b < (counts.map (·.2)).sum) :
    nestVec counts p f (nestPos counts (.inr b) : ℕ) = f b := by
  unfold nestVec
  rw [if_pos (by omega), Int.toNat_natCast, ((nestSplit_pos counts 0 0).2 b hb).1]
  simp

theorem nestSplit_none (counts : List (ℕ × ℕ)) (p₀ f₀ i : ℕ) (hi : (counts.map (·.1)).sum + (counts.map (·.2)).sum ≤ i) :
    nestSplit counts p₀ f₀ i = none := by
  induction counts generalizing p₀ f₀ i with
  | nil => rfl
  | cons x l ih =>
    obtain ⟨p, f⟩ := x
    simp only [List.map_cons, List.sum_cons, nestSplit] at hi ⊢
    rw [if_neg (by omega), if_neg (by omega), ih _ _ _ (by omega)]

theorem nestVec_outside {counts : List (ℕ × ℕ)} (p f : ℤ → K) {i : ℤ}
    (hi : ¬ (0 ≤ i ∧ i < ((counts.map (·.1)).sum + (counts.map (·.2)).sum : ℕ))) : nestVec counts p f i = 0 := by
  unfold nestVec
  split_ifs with h
  · rw [nestSplit_none _ _ _ _ (by omega)]
  · rfl

end

/-! ### Operators -/

section

variable {K : Type} [Field K] [LinearOrder K] [IsStrictOrderedRing K]
variable {debug : Bool} {L : Layout} {G : Geom K} {axes : ℕ → Axis K} {T : BCTable K} {B : ℕ → Boundary K}

theorem volume_eq (S : Setup L G axes) {f : ℕ} {s : Stencil} (hf : f < L.dim) (hs : Inside L.toMeshInfo f s) :
    faceArea G f f s * G.dL f f (coordOf s f) = ∏ d ∈ Finset.range L.dim, G.dL f d (coordOf s d) := by
  rcases S.layout.dim with hd | hd
  · have h2 := S.flat_width hf (d := 2) (by omega) (by omega)
    have hk : coordOf s 2 = 0 := by
      have h0 := hs.1 2 (by omega)
      rw [h2.1] at h0
      omega
    have e0 : faceArea G f f s = if f = 0 then G.dL f 1 (coordOf s 1) else G.dL f 0 (coordOf s 0) := by
      rcases (show f = 0 ∨ f = 1 by omega) with rfl | rfl
      · show G.dL 0 1 (coordOf s 1) * (G.dL 0 2 (coordOf s 2) * 1) = _
        rw [hk, h2.2]; simp
      · show G.dL 1 0 (coordOf s 0) * (G.dL 1 2 (coordOf s 2) * 1) = _
        rw [hk, h2.2]; simp
    rw [e0, hd, Finset.prod_range_succ, Finset.prod_range_succ, Finset.prod_range_zero]
    rcases (show f = 0 ∨ f = 1 by omega) with rfl | rfl
    · rw [if_pos rfl]; ring
    · rw [if_neg (by omega)]; ring
  · rw [hd, Finset.prod_range_succ, Finset.prod_range_succ, Finset.prod_range_succ, Finset.prod_range_zero]
    rcases (show f = 0 ∨ f = 1 ∨ f = 2 by omega) with rfl | rfl | rfl
    · show G.dL 0 1 (coordOf s 1) * (G.dL 0 2 (coordOf s 2) * 1) * _ = _
      ring
    · show G.dL 1 0 (coordOf s 0) * (G.dL 1 2 (coordOf s 2) * 1) * _ = _
      ring
    · show G.dL 2 0 (coordOf s 0) * (G.dL 2 1 (coordOf s 1) * 1) * _ = _
      ring

/-- There is a vector of volumes. -/
theorem exists_volume (S : Setup L G axes) (debug : Bool) : ∃ vol, IsVolume debug L G vol := by
  obtain ⟨R, _, M, _, _, h1, _, h2, _, _, _, h⟩ := C25_diagonals debug S
  refine ⟨fun i => R i i * M i i, ?_⟩
  intro f s idx hf hs hi
  obtain ⟨e1, -, -, e2, -⟩ := h f s idx hf hs hi
  simp only
  rw [e1, e2, volume_eq S hf hs]

theorem volume_unique (S : Setup L G axes) {v w : ℤ → K} (hv : IsVolume debug L G v) (hw : IsVolume debug L G w) {c : ℤ} (h0 : 0 ≤ c)
    (h1 : c < L.UN) : v c = w c := by
  obtain ⟨u, hu, rfl⟩ := col_surj S.layout h0 h1
  have hc := (col_inside S.layout (Or.inl hu.1) debug hu.inside).1
  rw [hv _ _ _ hu.1 hu.inside hc, hw _ _ _ hu.1 hu.inside hc]

/-- The two operators between grid and bodies. -/
theorem createEH_ok (S : Setup L G axes) {B' : ℕ → Boundary K} {bodies : BodyPack K} {meshIdx : ℕ → ℕ → List (List ℤ)}
    {kernel : DeltaKernel K} {w : ℕ} {E H : Mat K} (h : createEH debug L G axes B' bodies meshIdx kernel w = .ok (E, H)) :
    ∃ Δ, createDelta debug L axes B' bodies meshIdx kernel w = .ok Δ ∧ H = Mat.transpose Δ ∧
      ∀ vol, IsVolume debug L G vol → ∀ i c : ℤ, 0 ≤ c → c < L.UN → E i c = Δ i c * vol c := by
  obtain ⟨R, h1, h⟩ := bind_ok h
  obtain ⟨M, h2, h⟩ := bind_ok h
  obtain ⟨Δ, h3, h⟩ := bind_ok h
  cases h
  refine ⟨Δ, h3, rfl, ?_⟩
  intro vol hvol i c hc0 hc1
  obtain ⟨R', _, M', _, _, e1, _, e2, _, _, _, hd⟩ := C25_diagonals debug S
  rw [h1] at e1
  rw [h2] at e2
  cases e1
  cases e2
  have hv : IsVolume debug L G fun i => R i i * M i i := by
    intro f s idx hf hs hi
    obtain ⟨e1, -, -, e2, -⟩ := hd f s idx hf hs hi
    simp only
    rw [e1, e2, volume_eq S hf hs]
  rw [volume_unique S hvol hv hc0 hc1]
  simp only [Mat.diagonalScale, Mat.diagonal]
  ring

theorem vec_vec (N : ℕ) (x : ℤ → K) : vec N (vec N x) = vec N x := by
  funext i
  unfold vec
  split_ifs <;> rfl

theorem vec_add (N : ℕ) (x y : ℤ → K) : vec N (fun i => vec N x i + vec N y i) = fun i => vec N x i + vec N y i := by
  funext i
  by_cases h : 0 ≤ i ∧ i < (N : ℤ) <;> simp [vec, h]

/-- interpolation and spreading as sums -/
theorem interpolated_eq {E Δ : Mat K} {vol : ℤ → K} {row : ℤ} (h : ∀ c : ℤ, 0 ≤ c → c < L.UN → E row c = Δ row c * vol c) (q : ℤ → K) :
    Mat.mult L.UN E q row = interpolated L.UN Δ vol q row := by
  unfold Mat.mult interpolated
  refine Finset.sum_congr rfl fun c hc => ?_
  rw [h c (by omega) (by have := Finset.mem_range.1 hc; omega)]

theorem spread_eq (nF : ℕ) (Δ : Mat K) (F : ℤ → K) (c : ℤ) : Mat.mult nF (Mat.transpose Δ) F c = spread nF Δ F c := rfl

/-! ### Steps -/

/-- The decoupled step is a step of the flow solver in which another velocity takes the place of the solution of the velocity
system. -/
theorem decoupled_ok (C : Constructed debug L G axes T B) {P : NSParams K} (hc : P.conv.explicitCoeffs.length = P.conv.nExplicit)
    (hd : P.diff.explicitCoeffs.length = P.diff.nExplicit) {ops : NSOps K} {ib : IBOps K} {UB : Option (ℤ → K)}
    {vSolve fSolve pSolve : LinSolve K} {u : ℤ → K} {s s' : IBState K} (R : Reach L B P ops.pN u s.ns)
    (h : decoupledAdvance L G P ops ib UB vSolve fSolve pSolve s = .ok s') :
    ∃ w Us df, convectionMult L G s.ns.B (fun _ _ _ => 0) s.ns.U (fun _ => 0) = .ok w ∧
      vSolve ops.A s.ns.U (fun i => momentumRhs L P ops s.ns (pushTerm s.ns.conv fun i => -1 * w i)
        (pushTerm s.ns.diff (diffTerm L P.nu ops s.ns)) i + vec L.UN (Mat.mult ib.nF ib.H s.f) i) = .ok Us ∧
      fSolve ib.EBNH s.df (assembleRHSForces L ib UB (vec L.UN Us)) = .ok df ∧
      advance L G P ops (fun _ _ _ => .ok fun i => vec L.UN Us i + vec L.UN (Mat.mult ib.nF ib.BNH (vec ib.nF df)) i) pSolve s.ns = .ok s'.ns ∧
      s'.f = (fun i => s.f i + 1 * vec ib.nF df i) ∧ s'.df = vec ib.nF df := by
  have R' : Reach L B P ops.pN u { s.ns with t := s.ns.t + P.dt, ite := s.ns.ite + 1 } :=
    ⟨R.hist, R.clean, R.nconv, R.ndiff, R.outU, R.outP, R.outConv, R.outDiff⟩
  obtain ⟨w, loc, hw, e⟩ := assembleRHS_eq C hc hd ops R'
  unfold decoupledAdvance at h
  simp only [e, bind, Except.bind, pure, Except.pure] at h
  refine ⟨w, ?_⟩
  cases hv : vSolve ops.A s.ns.U (fun i => momentumRhs L P ops s.ns (pushTerm s.ns.conv fun i => -1 * w i)
        (pushTerm s.ns.diff (diffTerm L P.nu ops s.ns)) i + vec L.UN (Mat.mult ib.nF ib.H s.f) i) with
  | error x =>
    have hv' : vSolve ops.A s.ns.U (fun i => momentumRhs L P ops { s.ns with t := s.ns.t + P.dt, ite := s.ns.ite + 1 } (pushTerm s.ns.conv fun i => -1 * w i)
        (pushTerm s.ns.diff (diffTerm L P.nu ops { s.ns with t := s.ns.t + P.dt, ite := s.ns.ite + 1 })) i + vec L.UN (Mat.mult ib.nF ib.H s.f) i) = _ := hv
    rw [hv'] at h
    cases h
  | ok Us =>
    have hv' : vSolve ops.A s.ns.U (fun i => momentumRhs L P ops { s.ns with t := s.ns.t + P.dt, ite := s.ns.ite + 1 } (pushTerm s.ns.conv fun i => -1 * w i)
        (pushTerm s.ns.diff (diffTerm L P.nu ops { s.ns with t := s.ns.t + P.dt, ite := s.ns.ite + 1 })) i + vec L.UN (Mat.mult ib.nF ib.H s.f) i) = _ := hv
    rw [hv'] at h
    simp only at h
    cases hf : fSolve ib.EBNH s.df (assembleRHSForces L ib UB (vec L.UN Us)) with
    | error x => rw [hf] at h; cases h
    | ok df =>
      rw [hf] at h
      simp only at h
      refine ⟨Us, df, hw, rfl, hf, ?_⟩
      unfold advance
      simp only [e, bind, Except.bind, pure, Except.pure, vec_add]
      split at h
      · cases h
      · rename_i dP hp
        have h := Except.ok.inj h
        subst h
        exact ⟨rfl, rfl, rfl⟩

/-- The coupled step is a step of the flow solver with the composite operators in which the pressure increment comes from another
right-hand side. -/
theorem coupled_ok (C : Constructed debug L G axes T B) {P : NSParams K} (hc : P.conv.explicitCoeffs.length = P.conv.nExplicit)
    (hd : P.diff.explicitCoeffs.length = P.diff.nExplicit) {counts : List (ℕ × ℕ)} {ops : NSOps K} {vSolve pSolve : LinSolve K} {u : ℤ → K}
    {s s' : NSState K} (R : Reach L B P ops.pN u s) (h : ibpmAdvance L G P counts ops vSolve pSolve s = .ok s') :
    ∃ w U dP, convectionMult L G s.B (fun _ _ _ => 0) s.U (fun _ => 0) = .ok w ∧
      vSolve ops.A s.U (momentumRhs L P ops s (pushTerm s.conv fun i => -1 * w i) (pushTerm s.diff (diffTerm L P.nu ops s))) = .ok U ∧
      pSolve ops.DBNG s.dP (ibpmRHSPoisson L counts ops { s with U := vec L.UN U, B := fun r => (s.B r).updateEqs s.U P.dt }) = .ok dP ∧
      advance L G P ops vSolve (fun _ _ _ => .ok dP) s = .ok s' := by
  have R' : Reach L B P ops.pN u { s with t := s.t + P.dt, ite := s.ite + 1 } :=
    ⟨R.hist, R.clean, R.nconv, R.ndiff, R.outU, R.outP, R.outConv, R.outDiff⟩
  obtain ⟨w, loc, hw, e⟩ := assembleRHS_eq C hc hd ops R'
  unfold ibpmAdvance at h
  simp only [e, bind, Except.bind, pure, Except.pure] at h
  refine ⟨w, ?_⟩
  split at h
  · cases h
  · rename_i U hv
    split at h
    · cases h
    · rename_i dP hp
      have h := Except.ok.inj h
      subst h
      refine ⟨U, dP, hw, hv, hp, ?_⟩
      unfold advance
      simp only [e, bind, Except.bind, pure, Except.pure, hv]

/-- Net flux after a step in terms of the divergence operator. -/
theorem netFlux_after (C : Constructed debug L G axes T B) (hn : ∀ f, f < L.dim → L.periodic 0 f = true → 2 ≤ L.n f f)
    {P : NSParams K} {N : ℕ} {u : ℤ → K} {s s' : NSState K} (R : Reach L B P N u s)
    (hB' : s'.B = fun r => ((s.B r).updateEqs s.U P.dt).updateGhostValues s'.U) {D : Mat K} {Dm : Modifiers K}
    (hD : createDivergence debug L G false (fun r => (B r).run [.setGhostICs u]) = .ok (D, Dm)) {V : ℕ → Stencil → K}
    (hV : Filled debug L s'.B s'.U V) {c : Stencil} (hc : Inside L.toMeshInfo 3 c) :
    netFlux L.dim G c V = Mat.mult L.UN D s'.U (col L 3 c) + correctionMult L (fun r => (s.B r).updateEqs s.U P.dt) Dm (col L 3 c) := by
  obtain ⟨h, hB, -⟩ := R.hist
  obtain ⟨D', Dm', e, net⟩ := C21_divergence_is_net_flux_partial C hn [.setGhostICs u] ⟨u, [], rfl⟩
  rw [hD] at e
  cases e
  have hrange := (col_inside C.setup.layout (Or.inr rfl) debug hc)
  have hB'' : s'.B = fun r => (B r).run (([.setGhostICs u] ++ (h ++ [.updateEqs s.U P.dt])) ++ [.updateGhostValues s'.U]) := by
    rw [hB']
    funext r
    simp only [hB, Boundary.run, List.foldl_append]
    rfl
  rw [hB''] at hV
  have hE := filled_extended C _ hV
  have := net (h ++ [.updateEqs s.U P.dt]) _ V hE c _ hc hrange.1
  rw [← this]
  have hBe : (fun r => (B r).run ([.setGhostICs u] ++ (h ++ [.updateEqs s.U P.dt]))) = fun r => (s.B r).updateEqs s.U P.dt := by
    funext r
    simp only [hB, Boundary.run, List.foldl_append]
    rfl
  rw [hBe]

end

end PetIBM
