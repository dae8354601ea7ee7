/-
C106 for the coupled solver.
-/
import Verif.Props.SuperpositionBodies
import Verif.Props.SolversCoupled

set_option linter.unusedSectionVars false

namespace PetIBM

open Spec

variable {K : Type} [Field K] [LinearOrder K] [IsStrictOrderedRing K]
variable {debug : Bool} {L : Layout} {G : Geom K} {axes : ℕ → Axis K} {a b : K}
variable {T₁ T₂ T₃ : BCTable K} {B₁ B₂ B₃ : ℕ → Boundary K} {P : NSParams K} {flow₁ flow₂ flow₃ : Option (FlowNode K)}
variable {disk₁ disk₁' disk₂ disk₂' disk₃ disk₃' : Disk K} {bodies : BodyPack K} {kernel : DeltaKernel K} {window : ℕ}
variable {o₁ o₂ o₃ ops : NSOps K} {i₁ i₂ i₃ : NSState K}

/-- the third of three states of the coupled solver is a combination of the others; of the pressures and forces, their composite gradient is -/
structure MixCoupled (L : Layout) (ops : NSOps K) (a b : K) (s₁ s₂ s₃ : NSState K) : Prop where
  vel : Mixed a b s₁.U s₂.U s₃.U
  grad : ∀ c : ℤ, 0 ≤ c → c < L.UN →
    Mat.mult ops.pN ops.G s₃.p c = a * Mat.mult ops.pN ops.G s₁.p c + b * Mat.mult ops.pN ops.G s₂.p c
  diff : All3 (Mixed a b) s₁.diff s₂.diff s₃.diff
  ghosts : ∀ r, r < L.mpiSize → MixBoundary a b (s₁.B r) (s₂.B r) (s₃.B r)
  time : s₂.t = s₁.t ∧ s₃.t = s₁.t
  ite : s₂.ite = s₁.ite ∧ s₃.ite = s₁.ite

/-- the composite operators do not depend on the boundary values -/
theorem mix_composite (C₁ : Constructed debug L G axes T₁ B₁) (C₂ : Constructed debug L G axes T₂ B₂) (C₃ : Constructed debug L G axes T₃ B₃)
    {u₁ u₂ u₃ : ℤ → K}
    (h : ∀ r, r < L.mpiSize → MixBoundary a b ((B₁ r).run [.setGhostICs u₁]) ((B₂ r).run [.setGhostICs u₂]) ((B₃ r).run [.setGhostICs u₃])) :
    ibpmCreateOperators debug L G axes P (fun r => (B₂ r).run [.setGhostICs u₂]) bodies kernel window =
      ibpmCreateOperators debug L G axes P (fun r => (B₁ r).run [.setGhostICs u₁]) bodies kernel window ∧
    ibpmCreateOperators debug L G axes P (fun r => (B₃ r).run [.setGhostICs u₃]) bodies kernel window =
      ibpmCreateOperators debug L G axes P (fun r => (B₁ r).run [.setGhostICs u₁]) bodies kernel window := by
  obtain ⟨e1, e2⟩ := mix_entries h
  have d2 : ∀ m, createDelta debug L axes (fun r => (B₂ r).run [.setGhostICs u₂]) bodies m kernel window =
      createDelta debug L axes (fun r => (B₁ r).run [.setGhostICs u₁]) bodies m kernel window := by
    intro m
    apply createDelta_congr
    intro r d hr hd
    rw [deltaPeriodic_run C₁ _ hr (by omega), deltaPeriodic_run C₂ _ hr (by omega)]
  have d3 : ∀ m, createDelta debug L axes (fun r => (B₃ r).run [.setGhostICs u₃]) bodies m kernel window =
      createDelta debug L axes (fun r => (B₁ r).run [.setGhostICs u₁]) bodies m kernel window := by
    intro m
    apply createDelta_congr
    intro r d hr hd
    rw [deltaPeriodic_run C₁ _ hr (by omega), deltaPeriodic_run C₃ _ hr (by omega)]
  unfold ibpmCreateOperators createDivergence createLaplacian createEH
  simp only [e1, e2, d2, d3]
  exact ⟨trivial, trivial⟩

theorem mix_coupled_start (S₁ : CoupledStarted debug L G axes T₁ B₁ P flow₁ bodies kernel window o₁ disk₁ i₁ disk₁')
    (S₂ : CoupledStarted debug L G axes T₂ B₂ P flow₂ bodies kernel window o₂ disk₂ i₂ disk₂')
    (S₃ : CoupledStarted debug L G axes T₃ B₃ P flow₃ bodies kernel window o₃ disk₃ i₃ disk₃') (hT : MixedTable L.dim a b T₁ T₂ T₃)
    (hF : MixedFlow L.dim a b flow₁ flow₂ flow₃) (start : P.nstart = 0) : o₂ = o₁ ∧ o₃ = o₁ ∧ MixCoupled L o₁ a b i₁ i₂ i₃ := by
  have C₁ := S₁.constructed
  have C₂ := S₂.constructed
  have C₃ := S₃.constructed
  obtain ⟨z₁, ⟨E₁, H₁⟩, e1, f1⟩ := S₁.init
  obtain ⟨z₂, ⟨E₂, H₂⟩, e2, f2⟩ := S₂.init
  obtain ⟨z₃, ⟨E₃, H₃⟩, e3, f3⟩ := S₃.init
  obtain ⟨⟨U₁, q₁⟩, x1, e1⟩ := bind_ok e1
  obtain ⟨⟨U₂, q₂⟩, y1, e2⟩ := bind_ok e2
  obtain ⟨⟨U₃, q₃⟩, w1, e3⟩ := bind_ok e3
  obtain ⟨g₁, x2, e1⟩ := bind_ok e1
  obtain ⟨g₂, y2, e2⟩ := bind_ok e2
  obtain ⟨g₃, w2, e3⟩ := bind_ok e3
  cases e1
  cases e2
  cases e3
  obtain ⟨hu, -⟩ := mix_initial C₁ C₂ C₃ hF x1 y1 w1
  have hB : ∀ r, r < L.mpiSize → MixBoundary a b ((B₁ r).run [.setGhostICs U₁]) ((B₂ r).run [.setGhostICs U₂]) ((B₃ r).run [.setGhostICs U₃]) :=
    fun r hr => (mix_init hT (C₁.init r hr) (C₂.init r hr) (C₃.init r hr)).setGhostICs hu
  obtain ⟨g2, g3⟩ := mix_composite (P := P) (bodies := bodies) (kernel := kernel) (window := window) C₁ C₂ C₃ hB
  have x2' : ibpmCreateOperators debug L G axes P (fun r => (B₁ r).run [.setGhostICs U₁]) bodies kernel window = .ok (o₁, E₁, H₁) := x2
  have y2' : ibpmCreateOperators debug L G axes P (fun r => (B₂ r).run [.setGhostICs U₂]) bodies kernel window = .ok (o₂, E₂, H₂) := y2
  have w2' : ibpmCreateOperators debug L G axes P (fun r => (B₃ r).run [.setGhostICs U₃]) bodies kernel window = .ok (o₃, E₃, H₃) := w2
  rw [x2', y2'] at g2
  rw [x2', w2'] at g3
  cases g2
  cases g3
  refine ⟨rfl, rfl, ?_⟩
  have rep : ∀ n : ℕ, All3 (Mixed a b) (List.replicate n fun _ => (0 : K)) (List.replicate n fun _ => 0) (List.replicate n fun _ => 0) := by
    intro n
    induction n with
    | zero => exact All3.nil
    | succ m ih => exact All3.cons (fun _ => by ring) ih
  unfold ibpmIoInitialData at f1 f2 f3
  rw [if_pos start] at f1 f2 f3
  obtain ⟨d1, -, f1⟩ := bind_ok f1
  cases f1
  obtain ⟨d2, -, f2⟩ := bind_ok f2
  cases f2
  obtain ⟨d3, -, f3⟩ := bind_ok f3
  cases f3
  exact ⟨hu, fun c _ _ => mix_mult_zero (fun _ _ _ => by ring) _ c, rep _, hB, ⟨rfl, rfl⟩, rfl, rfl⟩

theorem mix_nest {counts : List (ℕ × ℕ)} {p₁ p₂ p₃ f₁ f₂ f₃ : ℤ → K} (hp : Mixed a b p₁ p₂ p₃) (hf : Mixed a b f₁ f₂ f₃) :
    Mixed a b (nestVec counts p₁ f₁) (nestVec counts p₂ f₂) (nestVec counts p₃ f₃) := by
  intro i
  unfold nestVec
  split
  · split
    · exact hp _
    · exact hf _
    · ring
  · ring

/-- one step of three runs of the coupled solver -/
theorem mix_coupled (S₁ : CoupledStarted debug L G axes T₁ B₁ P flow₁ bodies kernel window ops disk₁ i₁ disk₁')
    (S₂ : CoupledStarted debug L G axes T₂ B₂ P flow₂ bodies kernel window ops disk₂ i₂ disk₂')
    (S₃ : CoupledStarted debug L G axes T₃ B₃ P flow₃ bodies kernel window ops disk₃ i₃ disk₃') (hc : P.conv.nExplicit = 0)
    (hn : ∀ f d, f < L.dim → d < L.dim → L.periodic 0 d = true → 2 ≤ L.n f d) (hdt : 0 < P.dt) (hnu : 0 ≤ P.nu)
    (hT : ∀ f loc, f < L.dim → loc / 2 = f → (T₃ f loc).1 ≠ .NEUMANN) (hBN : GoodOrder L P ops.A) (hp : P.pType = .ksp)
    {v₁ p₁ v₂ p₂ v₃ p₃ : LinSolve K} (hv1 : Solves L.UN v₁ ops.A) (hp1 : Solves ops.pN p₁ ops.DBNG) (hv2 : Solves L.UN v₂ ops.A)
    (hp2 : Solves ops.pN p₂ ops.DBNG) (hv3 : Solves L.UN v₃ ops.A) (hp3 : Solves ops.pN p₃ ops.DBNG) {u₁ u₂ u₃ : ℤ → K}
    {s₁ s₂ s₃ s₁' s₂' s₃' : NSState K} (R₁ : Reach L B₁ P ops.pN u₁ s₁) (R₂ : Reach L B₂ P ops.pN u₂ s₂) (R₃ : Reach L B₃ P ops.pN u₃ s₃)
    (hs : MixCoupled L ops a b s₁ s₂ s₃) (a₁ : ibpmAdvance L G P (nestCounts L bodies) ops v₁ p₁ s₁ = .ok s₁')
    (a₂ : ibpmAdvance L G P (nestCounts L bodies) ops v₂ p₂ s₂ = .ok s₂') (a₃ : ibpmAdvance L G P (nestCounts L bodies) ops v₃ p₃ s₃ = .ok s₃') :
    MixCoupled L ops a b s₁' s₂' s₃' := by
  obtain ⟨W₁, V₁, d₁, X1, X2, X3, X4⟩ := coupled_ok S₁.constructed S₁.schemes.1.1 S₁.schemes.2.1 R₁ a₁
  obtain ⟨W₂, V₂, d₂, Y1, Y2, Y3, Y4⟩ := coupled_ok S₂.constructed S₂.schemes.1.1 S₂.schemes.2.1 R₂ a₂
  obtain ⟨W₃, V₃, d₃, Z1, Z2, Z3, Z4⟩ := coupled_ok S₃.constructed S₃.schemes.1.1 S₃.schemes.2.1 R₃ a₃
  obtain ⟨w₁, U₁, d, x1, x2, x3, x4, x5, x6, x7, x8, x9, x10, x11⟩ := advance_ok S₁.constructed S₁.schemes.1.1 S₁.schemes.2.1 R₁ X4
  obtain ⟨w₂, U₂, d', y1, y2, y3, y4, y5, y6, y7, y8, y9, y10, y11⟩ := advance_ok S₂.constructed S₂.schemes.1.1 S₂.schemes.2.1 R₂ Y4
  obtain ⟨w₃, U₃, d'', z1, z2, z3, z4, z5, z6, z7, z8, z9, z10, z11⟩ := advance_ok S₃.constructed S₃.schemes.1.1 S₃.schemes.2.1 R₃ Z4
  cases x3
  cases y3
  cases z3
  rw [X1] at x1
  cases x1
  rw [X2] at x2
  cases x2
  rw [Y1] at y1
  cases y1
  rw [Y2] at y2
  cases y2
  rw [Z1] at z1
  cases z1
  rw [Z2] at z2
  cases z2
  obtain ⟨u', E, H, hops, _⟩ := S₃.reach
  obtain ⟨D, Dm, Gr, La, Lm, BN, idx, q1, q2, q3, q4, q5, q6, eops⟩ := ibpmCreate_ok hops
  have hA : ops.A = Mat.shift (Mat.scale La (-P.diff.implicitCoeff * P.nu)) (1 / P.dt) := by rw [eops]
  have hBNG : ops.BNG = Mat.mul L.UN BN ops.G := by rw [eops]
  have ge : ∀ r, r < L.mpiSize → MixBoundary a b ((s₁.B r).updateEqs s₁.U P.dt) ((s₂.B r).updateEqs s₂.U P.dt) ((s₃.B r).updateEqs s₃.U P.dt) :=
    fun r hr => (hs.ghosts r hr).updateEqs hs.vel P.dt
  have c1 : s₁.conv = [] := List.length_eq_zero_iff.1 (R₁.nconv.trans hc)
  have c2 : s₂.conv = [] := List.length_eq_zero_iff.1 (R₂.nconv.trans hc)
  have c3 : s₃.conv = [] := List.length_eq_zero_iff.1 (R₃.nconv.trans hc)
  have hdiff : All3 (Mixed a b) (pushTerm s₁.diff (diffTerm L P.nu ops s₁)) (pushTerm s₂.diff (diffTerm L P.nu ops s₂))
      (pushTerm s₃.diff (diffTerm L P.nu ops s₃)) := by
    refine mix_push hs.diff (mix_vec fun i _ _ => ?_)
    rw [mix_mult_zero (fun j _ _ => hs.vel j), mix_correction hs.ghosts ops.Lmods i]
    ring
  have hU : ∀ i : ℤ, 0 ≤ i → i < L.UN → V₃ i = a * V₁ i + b * V₂ i := by
    obtain ⟨y, -, uniq⟩ := velocity_unique (P := P) S₃.constructed hn q3 (implicit_nonneg S₃.params) hdt hnu
      (momentumRhs L P ops s₃ (pushTerm s₃.conv fun i => -1 * W₃ i) (pushTerm s₃.diff (diffTerm L P.nu ops s₃)))
    rw [← hA] at uniq
    intro i i0 i1
    rw [uniq V₃ (fun j j0 j1 => hv3 _ _ _ Z2 j j0 j1) i i0 i1, uniq (fun j => a * V₁ j + b * V₂ j) (fun j j0 j1 => ?_) i i0 i1]
    rw [mix_mult_zero (x := V₁) (y := V₂) (fun _ _ _ => rfl), hv1 _ _ _ X2 j j0 j1, hv2 _ _ _ Y2 j j0 j1]
    have m := mix_correction ge ops.Lmods j
    have k0 : ∀ x : ℤ → K, termSum P.conv.explicitCoeffs (pushTerm [] x) j = 0 := fun x => by simp [pushTerm, termSum]
    unfold momentumRhs vec
    simp only [if_pos (show 0 ≤ j ∧ j < (L.UN : ℤ) from ⟨j0, j1⟩), c1, c2, c3, k0, mix_termSum hdiff P.diff.explicitCoeffs j, hs.grad j j0 j1,
      hs.vel j, m]
    ring
  have hV := mix_vec hU
  have hr : Mixed a b (ibpmRHSPoisson L (nestCounts L bodies) ops { s₁ with U := vec L.UN V₁, B := fun r => (s₁.B r).updateEqs s₁.U P.dt })
      (ibpmRHSPoisson L (nestCounts L bodies) ops { s₂ with U := vec L.UN V₂, B := fun r => (s₂.B r).updateEqs s₂.U P.dt })
      (ibpmRHSPoisson L (nestCounts L bodies) ops { s₃ with U := vec L.UN V₃, B := fun r => (s₃.B r).updateEqs s₃.U P.dt }) := by
    have hd : Mixed a b (vec ops.pN (Mat.mult L.UN ops.D (vec L.UN V₁))) (vec ops.pN (Mat.mult L.UN ops.D (vec L.UN V₂)))
        (vec ops.pN (Mat.mult L.UN ops.D (vec L.UN V₃))) := mix_vec fun i _ _ => mix_mult_zero (fun j _ _ => hV j) ops.D i
    have hb := mix_vec (N := L.pN) (fun i _ _ => mix_correction ge ops.Dmods i)
    have main := mix_nest (counts := nestCounts L bodies) (a := a) (b := b)
      (p₁ := fun x => subPressure (nestCounts L bodies) (vec ops.pN (Mat.mult L.UN ops.D (vec L.UN V₁))) x +
        vec L.pN (correctionMult L (fun r => (s₁.B r).updateEqs s₁.U P.dt) ops.Dmods) x)
      (p₂ := fun x => subPressure (nestCounts L bodies) (vec ops.pN (Mat.mult L.UN ops.D (vec L.UN V₂))) x +
        vec L.pN (correctionMult L (fun r => (s₂.B r).updateEqs s₂.U P.dt) ops.Dmods) x)
      (p₃ := fun x => subPressure (nestCounts L bodies) (vec ops.pN (Mat.mult L.UN ops.D (vec L.UN V₃))) x +
        vec L.pN (correctionMult L (fun r => (s₃.B r).updateEqs s₃.U P.dt) ops.Dmods) x)
      (f₁ := subForces (nestCounts L bodies) (vec ops.pN (Mat.mult L.UN ops.D (vec L.UN V₁))))
      (f₂ := subForces (nestCounts L bodies) (vec ops.pN (Mat.mult L.UN ops.D (vec L.UN V₂))))
      (f₃ := subForces (nestCounts L bodies) (vec ops.pN (Mat.mult L.UN ops.D (vec L.UN V₃))))
      (fun i => by
        dsimp only
        rw [hb i]
        unfold subPressure
        split_ifs
        · rw [hd]
          ring
        · ring)
      (fun i => by
        unfold subForces
        split_ifs
        · exact hd _
        · ring)
    unfold ibpmRHSPoisson
    cases ops.isRefP with
    | false => exact main
    | true =>
      intro i
      by_cases hi : i = 0
      · subst hi
        simp
      · simp only [if_true, Function.update_of_ne hi]
        exact main i
  obtain ⟨-, -, -, -, -, def_⟩ := composite_definite S₃ hT hBN hp hdt
  have hg : ∀ c : ℤ, 0 ≤ c → c < L.UN →
      Mat.mult ops.pN ops.G (vec ops.pN d₃) c = a * Mat.mult ops.pN ops.G (vec ops.pN d₁) c + b * Mat.mult ops.pN ops.G (vec ops.pN d₂) c := by
    intro c c0 c1
    have := (def_ fun j => d₃ j + -1 * (a * d₁ j + b * d₂ j)).2 (Finset.sum_eq_zero fun i hi => by
      have := Finset.mem_range.1 hi
      rw [mult_sub, mix_mult_zero (x := d₁) (y := d₂) (fun _ _ _ => rfl), hp1 _ _ _ X3 i (by omega) (by omega), hp2 _ _ _ Y3 i (by omega) (by omega),
        hp3 _ _ _ Z3 i (by omega) (by omega), hr i, sub_self, mul_zero]) c c0 c1
    rw [mult_sub, mix_mult_zero (x := d₁) (y := d₂) (fun _ _ _ => rfl)] at this
    rw [mult_vec, mult_vec, mult_vec]
    exact sub_eq_zero.1 this
  have hvel : Mixed a b s₁'.U s₂'.U s₃'.U := by
    intro i
    rw [x4, y4, z4]
    unfold projected
    have e := mix_vec (a := a) (b := b) (N := L.UN) (x := Mat.mult ops.pN ops.BNG (vec ops.pN d₁)) (y := Mat.mult ops.pN ops.BNG (vec ops.pN d₂))
      (z := Mat.mult ops.pN ops.BNG (vec ops.pN d₃)) (fun j j0 j1 => by
        rw [hBNG, mult_mul, mult_mul, mult_mul, mix_mult_zero hg]) i
    rw [hV i, e]
    ring
  refine ⟨hvel, fun c c0 c1 => ?_, ?_, ?_, ?_, ?_⟩
  · rw [x5, y5, z5]
    have key : ∀ (a b : ℤ → K), Mat.mult ops.pN ops.G (fun i => a i + 1 * b i) c = Mat.mult ops.pN ops.G a c + Mat.mult ops.pN ops.G b c := by
      intro a b
      unfold Mat.mult
      rw [← Finset.sum_add_distrib]
      exact Finset.sum_congr rfl fun i _ => by ring
    rw [key, key, key, hs.grad c c0 c1, hg c c0 c1]
    ring
  · rw [x8, y8, z8]
    exact hdiff
  · intro r hr
    rw [x9, y9, z9]
    exact (ge r hr).updateGhostValues hvel
  · rw [x10, y10, z10, hs.time.1, hs.time.2]
    exact ⟨rfl, rfl⟩
  · rw [x11, y11, z11, hs.ite.1, hs.ite.2]
    exact ⟨rfl, rfl⟩

/-- C106, coupled solver. Three configurations with the same bodies whose boundary values and initial velocities superpose, without convective terms: the
operators are the same; at every step the velocities superpose, and so do the gradients of the pressures less the forces of the bodies on the grid. If
no forces at the points, except zero, spread to the gradient of a pressure, the pressures superpose up to a constant, and the forces superpose.
Missing: as in `C106_superposition_partial`, and the solvers of AmgX. -/
theorem C106_coupled_partial (S₁ : CoupledStarted debug L G axes T₁ B₁ P flow₁ bodies kernel window o₁ disk₁ i₁ disk₁')
    (S₂ : CoupledStarted debug L G axes T₂ B₂ P flow₂ bodies kernel window o₂ disk₂ i₂ disk₂')
    (S₃ : CoupledStarted debug L G axes T₃ B₃ P flow₃ bodies kernel window o₃ disk₃ i₃ disk₃') (hT : MixedTable L.dim a b T₁ T₂ T₃)
    (hF : MixedFlow L.dim a b flow₁ flow₂ flow₃) (start : P.nstart = 0) (hc : P.conv.nExplicit = 0)
    (hn : ∀ f d, f < L.dim → d < L.dim → L.periodic 0 d = true → 2 ≤ L.n f d) (hdt : 0 < P.dt) (hnu : 0 ≤ P.nu)
    (hN : ∀ f loc, f < L.dim → loc / 2 = f → (T₁ f loc).1 ≠ .NEUMANN) (hBN : GoodOrder L P o₁.A) (hp : P.pType = .ksp) :
    o₂ = o₁ ∧ o₃ = o₁ ∧ ∀ {v₁ p₁ v₂ p₂ v₃ p₃ : LinSolve K}, Solves L.UN v₁ o₁.A → Solves o₁.pN p₁ o₁.DBNG → Solves L.UN v₂ o₁.A →
      Solves o₁.pN p₂ o₁.DBNG → Solves L.UN v₃ o₁.A → Solves o₁.pN p₃ o₁.DBNG → ∀ {x₁ x₂ x₃ : ℕ → NSState K} {n : ℕ}, x₁ 0 = i₁ → x₂ 0 = i₂ →
      x₃ 0 = i₃ → CoupledTrajectory L G P (nestCounts L bodies) o₁ v₁ p₁ x₁ n → CoupledTrajectory L G P (nestCounts L bodies) o₁ v₂ p₂ x₂ n →
      CoupledTrajectory L G P (nestCounts L bodies) o₁ v₃ p₃ x₃ n → ∀ k, k ≤ n →
        Mixed a b (x₁ k).U (x₂ k).U (x₃ k).U ∧ (x₂ k).t = (x₁ k).t ∧ (x₃ k).t = (x₁ k).t ∧
        (∀ Δ Gr, IsDelta debug L axes B₁ bodies kernel window Δ → createGradient debug L G false = .ok Gr → ∀ c : ℤ, 0 ≤ c → c < L.UN →
          Mat.mult L.pN Gr (subPressure (nestCounts L bodies) (x₃ k).p) c -
              spread (bodies.nPts * bodies.dim) Δ (subForces (nestCounts L bodies) (x₃ k).p) c =
            a * (Mat.mult L.pN Gr (subPressure (nestCounts L bodies) (x₁ k).p) c -
              spread (bodies.nPts * bodies.dim) Δ (subForces (nestCounts L bodies) (x₁ k).p) c) +
            b * (Mat.mult L.pN Gr (subPressure (nestCounts L bodies) (x₂ k).p) c -
              spread (bodies.nPts * bodies.dim) Δ (subForces (nestCounts L bodies) (x₂ k).p) c)) ∧
        (IndependentOfGradients debug L G axes B₁ bodies kernel window →
          MixedPressure L.pN a b (subPressure (nestCounts L bodies) (x₁ k).p) (subPressure (nestCounts L bodies) (x₂ k).p)
            (subPressure (nestCounts L bodies) (x₃ k).p) ∧
          ∀ i : ℤ, 0 ≤ i → i < (bodies.nPts * bodies.dim : ℕ) → subForces (nestCounts L bodies) (x₃ k).p i =
            a * subForces (nestCounts L bodies) (x₁ k).p i + b * subForces (nestCounts L bodies) (x₂ k).p i) := by
  obtain ⟨e2, e3, init⟩ := mix_coupled_start S₁ S₂ S₃ hT hF start
  have e2 := e2.symm
  have e3 := e3.symm
  subst e2 e3
  refine ⟨rfl, rfl, ?_⟩
  intro v₁ p₁ v₂ p₂ v₃ p₃ hv1 hp1 hv2 hp2 hv3 hp3 x₁ x₂ x₃ n h1 h2 h3 t₁ t₂ t₃
  have hN3 : ∀ f loc, f < L.dim → loc / 2 = f → (T₃ f loc).1 ≠ .NEUMANN := fun f loc hf hl => by
    rw [(hT f loc hf (by omega)).2.1]
    exact hN f loc hf hl
  obtain ⟨u₁, _, _, -, r1⟩ := S₁.reach_at h1 t₁
  obtain ⟨u₂, _, _, -, r2⟩ := S₂.reach_at h2 t₂
  obtain ⟨u₃, _, _, -, r3⟩ := S₃.reach_at h3 t₃
  have all : ∀ k, k ≤ n → MixCoupled L o₁ a b (x₁ k) (x₂ k) (x₃ k) := by
    intro k
    induction k with
    | zero =>
      intro _
      rw [h1, h2, h3]
      exact init
    | succ k ih =>
      intro hk
      exact mix_coupled S₁ S₂ S₃ hc hn hdt hnu hN3 hBN hp hv1 hp1 hv2 hp2 hv3 hp3 (r1 k (by omega)) (r2 k (by omega)) (r3 k (by omega)) (ih (by omega))
        (t₁ k (by omega)) (t₂ k (by omega)) (t₃ k (by omega))
  intro k hk
  have h := all k hk
  obtain ⟨Δ, Gr, c1, c2, c3, -⟩ := composite_definite S₁ hN hBN hp hdt
  refine ⟨h.vel, h.time.1, h.time.2, fun Δ' Gr' hΔ hG c c0 c1' => ?_, fun ind => ?_⟩
  · obtain ⟨idx, i1, i2⟩ := c1
    obtain ⟨idx', j1, j2⟩ := hΔ
    rw [i1] at j1
    cases j1
    rw [i2] at j2
    cases j2
    rw [c2] at hG
    cases hG
    rw [← c3, ← c3, ← c3]
    exact h.grad c c0 c1'
  have hz : ∀ c : ℤ, 0 ≤ c → c < L.UN → Mat.mult o₁.pN o₁.G (fun j => (x₃ k).p j + -1 * (a * (x₁ k).p j + b * (x₂ k).p j)) c = 0 := by
    intro c d0 d1
    rw [mult_sub, mix_mult_zero (x := (x₁ k).p) (y := (x₂ k).p) (fun _ _ _ => rfl), h.grad c d0 d1, sub_self]
  have hFo := ind Δ Gr c1 c2 (subPressure (nestCounts L bodies) fun j => (x₃ k).p j + -1 * (a * (x₁ k).p j + b * (x₂ k).p j))
    (subForces (nestCounts L bodies) fun j => (x₃ k).p j + -1 * (a * (x₁ k).p j + b * (x₂ k).p j)) fun c d0 d1 => by
      have := hz c d0 d1
      rw [c3] at this
      exact sub_eq_zero.1 this
  have hsp : ∀ c : ℤ,
      spread (bodies.nPts * bodies.dim) Δ (subForces (nestCounts L bodies) fun j => (x₃ k).p j + -1 * (a * (x₁ k).p j + b * (x₂ k).p j)) c = 0 := by
    intro c
    unfold spread
    refine Finset.sum_eq_zero fun i hi => ?_
    have := Finset.mem_range.1 hi
    rw [hFo i (by omega) (by omega), mul_zero]
  have hn3 : ∀ f, f < L.dim → L.periodic 0 f = true → 2 ≤ L.n 3 f := fun f hf hp => by
    have := hn f f hf hf hp
    have := S₁.constructed.setup.n_le f f hf (by have := S₁.constructed.setup.dim_le; omega)
    omega
  have hconst := gradient_kernel S₁.constructed.setup hn3 c2
    (φ := subPressure (nestCounts L bodies) fun j => (x₃ k).p j + -1 * (a * (x₁ k).p j + b * (x₂ k).p j)) fun c d0 d1 => by
      have := hz c d0 d1
      rwa [c3, hsp, sub_zero] at this
  constructor
  · refine ⟨subPressure (nestCounts L bodies) (fun j => (x₃ k).p j + -1 * (a * (x₁ k).p j + b * (x₂ k).p j)) 0, fun i i0 i1 => ?_⟩
    rw [← hconst i 0 i0 i1 le_rfl (by omega)]
    unfold subPressure
    rw [if_pos i0, if_pos i0, if_pos i0, if_pos i0]
    ring
  · intro i i0 i1
    have := hFo i i0 i1
    unfold subForces at this ⊢
    rw [if_pos i0] at this ⊢
    rw [if_pos i0, if_pos i0]
    linear_combination this

/-! ### Example -/

/-- Starts of the coupled solver in the box with two lids. -/
theorem lids_coupled {x y : ℚ} (h : (ibpmInit true (seamLayout 2) seamGeom seamAxes (boxParams (1 / 4) 1 eulerImplicit crankNicolson)
      (some (lidsFlow x y)) (seamB (lids x y) 2) boxBody hatKernel 1).toOption.isSome = true) :
    ∃ ops s d, CoupledStarted true (seamLayout 2) seamGeom seamAxes (lids x y) (seamB (lids x y) 2) (boxParams (1 / 4) 1 eulerImplicit crankNicolson)
      (some (lidsFlow x y)) boxBody hatKernel 1 ops (fun _ => none) s d := by
  obtain ⟨⟨⟨ops, EH⟩, s⟩, h1⟩ := pick h
  have C := seam_constructed (lids x y) (fun _ _ => rfl) 2 (Or.inr rfl)
  have hi : s.ite = 0 := by
    obtain ⟨⟨U, p⟩, h3, h1⟩ := bind_ok h1
    obtain ⟨⟨ops', E', H'⟩, h4, h1⟩ := bind_ok h1
    cases h1
    rfl
  obtain ⟨file, hf, _⟩ := writeSolution_spec C.setup.layout { s with p := subPressure (nestCounts (seamLayout 2) boxBody) s.p }
    (fun _ => none) (stepPath (boxParams (1 / 4) 1 eulerImplicit crankNicolson).output s.ite)
  refine ⟨ops, s, Function.update (fun _ => none) (stepPath (boxParams (1 / 4) 1 eulerImplicit crankNicolson).output s.ite) (some file), C,
    ⟨false, "out", some (boxNode (1 / 4) "EULER_IMPLICIT" "CRANK_NICOLSON"), rfl⟩, boxBody_ok, s, EH, h1, ?_⟩
  unfold ibpmIoInitialData ibpmWriteSolution
  rw [if_pos hi, hf]
  rfl

/-- Runs of any length of the coupled solver with two points between two lids, of which only the upper one, only the lower one, or both move: the
hypotheses of `C106_coupled_partial` hold with the factors 2 and 3. -/
example : ∃ o₁ o₂ o₃ i₁ i₂ i₃ d₁ d₂ d₃ x₁ x₂ x₃,
    CoupledStarted true (seamLayout 2) seamGeom seamAxes (lids 1 0) (seamB (lids 1 0) 2) (boxParams (1 / 4) 1 eulerImplicit crankNicolson)
      (some (lidsFlow 1 0)) boxBody hatKernel 1 o₁ (fun _ => none) i₁ d₁ ∧
    CoupledStarted true (seamLayout 2) seamGeom seamAxes (lids 0 1) (seamB (lids 0 1) 2) (boxParams (1 / 4) 1 eulerImplicit crankNicolson)
      (some (lidsFlow 0 1)) boxBody hatKernel 1 o₂ (fun _ => none) i₂ d₂ ∧
    CoupledStarted true (seamLayout 2) seamGeom seamAxes (lids 2 3) (seamB (lids 2 3) 2) (boxParams (1 / 4) 1 eulerImplicit crankNicolson)
      (some (lidsFlow 2 3)) boxBody hatKernel 1 o₃ (fun _ => none) i₃ d₃ ∧
    MixedTable 2 2 3 (lids 1 0) (lids 0 1) (lids 2 3) ∧ MixedFlow 2 2 3 (some (lidsFlow 1 0)) (some (lidsFlow 0 1)) (some (lidsFlow 2 3)) ∧
    (boxParams (1 / 4) 1 eulerImplicit crankNicolson : NSParams ℚ).conv.nExplicit = 0 ∧ (∀ d, (seamLayout 2).periodic 0 d = false) ∧
    x₁ 0 = i₁ ∧ x₂ 0 = i₂ ∧ x₃ 0 = i₃ ∧
    (∀ n, CoupledTrajectory (seamLayout 2) seamGeom (boxParams (1 / 4) 1 eulerImplicit crankNicolson) (nestCounts (seamLayout 2) boxBody) o₁
      (exactSolve (seamLayout 2).UN) (exactSolve o₁.pN) x₁ n) ∧
    (∀ n, CoupledTrajectory (seamLayout 2) seamGeom (boxParams (1 / 4) 1 eulerImplicit crankNicolson) (nestCounts (seamLayout 2) boxBody) o₂
      (exactSolve (seamLayout 2).UN) (exactSolve o₂.pN) x₂ n) ∧
    ∀ n, CoupledTrajectory (seamLayout 2) seamGeom (boxParams (1 / 4) 1 eulerImplicit crankNicolson) (nestCounts (seamLayout 2) boxBody) o₃
      (exactSolve (seamLayout 2).UN) (exactSolve o₃.pN) x₃ n := by
  have run : ∀ {x y : ℚ} {o : NSOps ℚ} {i : NSState ℚ} {d : Disk ℚ}, CoupledStarted true (seamLayout 2) seamGeom seamAxes (lids x y)
      (seamB (lids x y) 2) (boxParams (1 / 4) 1 eulerImplicit crankNicolson) (some (lidsFlow x y)) boxBody hatKernel 1 o (fun _ => none) i d →
      ∃ X, X 0 = i ∧ ∀ n, CoupledTrajectory (seamLayout 2) seamGeom (boxParams (1 / 4) 1 eulerImplicit crankNicolson)
        (nestCounts (seamLayout 2) boxBody) o (exactSolve (seamLayout 2).UN) (exactSolve o.pN) X n := by
    intro x y o i d S
    refine C93_coupled_runs_partial S (fun _ _ _ _ hp => by cases hp) (Or.inl fun loc _ _ => ?_) (Or.inl rfl) rfl (by norm_num [boxParams])
      (by norm_num [boxParams]) (exactSolve_finds _ _) (exactSolve_finds _ _)
    unfold Closed lids
    rw [if_neg (by omega), if_neg (by omega)]
  obtain ⟨o₁, i₁, d₁, S₁⟩ := lids_coupled (x := 1) (y := 0) (by decide +kernel)
  obtain ⟨o₂, i₂, d₂, S₂⟩ := lids_coupled (x := 0) (y := 1) (by decide +kernel)
  obtain ⟨o₃, i₃, d₃, S₃⟩ := lids_coupled (x := 2) (y := 3) (by decide +kernel)
  obtain ⟨X, X0, hX⟩ := run S₁
  obtain ⟨Y, Y0, hY⟩ := run S₂
  obtain ⟨Z, Z0, hZ⟩ := run S₃
  have m := lids_mixed 2 3 1 0 0 1
  norm_num at m
  exact ⟨o₁, o₂, o₃, i₁, i₂, i₃, d₁, d₂, d₃, X, Y, Z, S₁, S₂, S₃, m.1, m.2, rfl, fun _ => rfl, X0, Y0, Z0, hX, hY, hZ⟩

end PetIBM
