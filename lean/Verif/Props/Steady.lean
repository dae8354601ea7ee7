/-
C86: steady flows.
-/
import Verif.Lemmas.Steady
import Verif.Props.Processes

set_option linter.unusedSectionVars false

namespace PetIBM

open Spec

variable {K : Type} [Field K] [LinearOrder K] [IsStrictOrderedRing K]
variable {debug : Bool} {L : Layout} {G : Geom K} {axes : ℕ → Axis K} {T : BCTable K} {B : ℕ → Boundary K}
variable {P : NSParams K} {flow : Option (FlowNode K)} {ops : NSOps K} {disk disk' : Disk K} {s : NSState K}

theorem meets_filled (C : Constructed debug L G axes T B) {q : ℤ → K} {V : ℕ → Stencil → K} (hV : Meets debug L G T q V) {B' : ℕ → Boundary K}
    (hB : ∀ r, r < L.mpiSize → B' r = (B r).setGhostICs q) : Filled debug L B' q V := by
  refine ⟨hV.inside, hV.periodic, ?_⟩
  intro r f loc st b p hr hp
  rw [hB r hr] at hp
  have hp : Point ((B r).run [.setGhostICs q]) f loc st b p := hp
  have hper := (C.ghosts _).periodic r f loc st b p hr hp
  have hall := hp
  obtain ⟨b0, p0, hp0, rfl, rfl⟩ := point_run hp
  obtain ⟨hf, hl, h1, h2, h3, h4, good⟩ := point_boundaryInit C.setup.layout (C.init r hr) C.pos hp0
  have hj : JustRefreshed [Boundary.Op.setGhostICs q] q := ⟨[], Or.inl rfl⟩
  have hi : Initialised [Boundary.Op.setGhostICs q] := ⟨_, _, rfl⟩
  have ht : ∀ t idx, AcrossFace L.toMeshInfo f loc st t → L.getPackedGlobalIndex debug f t = .ok idx → V f t = q idx := by
    intro t idx ha hidx
    have e := (face_nbr (by have := C.setup.dim_le; omega) good.face ha).1
    have e' := (face_nbr (by have := C.setup.dim_le; omega) good.face good.across).1
    refine hV.inside f t idx hf ?_ hidx
    refine ⟨fun d hd => ?_, ha.2.2⟩
    have hpos := C.pos f d hf hd
    by_cases hdl : d = loc / 2
    · subst hdl
      rw [ha.1]
      split_ifs <;> omega
    · rw [ha.2.1 d hd hdl]
      exact good.face.2.1 d hd hdl
  cases htype : (T f loc).1 with
  | DIRICHLET =>
    obtain ⟨t, idx, ha, hidx, e⟩ := C14_dirichlet debug L C.setup.layout G (by norm_num) r T (B r) (C.init r hr) C.pos _ hi q hj f loc htype st _ _ hall
    have := hV.dirichlet f loc st t hf hl htype good.face ha
    rw [← e, ht t idx ha hidx] at this
    unfold boundaryValue at this
    split_ifs at this
    · exact this
    · linarith
  | NEUMANN =>
    obtain ⟨t, idx, ha, hidx, e⟩ := C15_neumann debug L C.setup.layout G r T (B r) (C.init r hr) C.pos _ hi q hj f loc htype st _ _ hall
    have := hV.neumann f loc st t hf hl htype good.face ha
    rw [← e, ht t idx ha hidx] at this
    linarith
  | CONVECTIVE =>
    rw [hV.convective f loc st _ hf hl htype good.face good.across, ht _ _ good.across good.packed]
    rw [htype] at h3
    simp only [SingleBoundary.pointRun, List.foldl_cons, List.foldl_nil, SingleBoundary.pointStep, SingleBoundary.setGhostICsKernel, h3,
      SingleBoundary.kernel, SingleBoundary.kernelSameDir, SingleBoundary.kernelDiffDir]
    split_ifs <;> rfl
  | PERIODIC =>
    have := (C.table f loc hf hl).1 htype
    rw [hper] at this
    cases this
  | NOBC =>
    exfalso
    have : b0.points = [] := by
      obtain ⟨l, hl', hb, _⟩ := hp0
      exact boundaryInit_proper (C.init r hr) l (List.mem_of_getElem? hl') b0 (List.mem_of_getElem? hb) (Or.inr (by rw [h3, htype]))
    obtain ⟨l, _, _, hs⟩ := hp0
    rw [this] at hs
    cases hs

/-- C86. A flow that satisfies the discretised equations, without change in time, stays: if the mass of every cell and the momentum of every
velocity point are balanced, the velocity never changes and the pressure only by a constant, with every number of processes and every order
of the approximate inverse. What is missing: Adams-Bashforth terms that do not vanish, because the first step gives them the weight 3/2
(`C86_false_first_step`); Neumann conditions for normal components; inexact solvers. -/
theorem C86_steady_partial (S : Started debug L G axes T B P flow ops disk s disk') (hs : P.nstart = 0)
    (hn : ∀ f d, f < L.dim → d < L.dim → L.periodic 0 d = true → 3 ≤ L.n f d)
    (hT : ∀ f loc, f < L.dim → loc / 2 = f → (T f loc).1 ≠ .NEUMANN) (hBN : GoodOrder L P ops.A) (hdt : 0 < P.dt) (hnu : 0 ≤ P.nu)
    {vSolve pSolve : LinSolve K} (exactV : Solves L.UN vSolve ops.A) (exactP : Solves L.pN pSolve ops.DBNG)
    {x : ℕ → NSState K} {n : ℕ} (h0 : x 0 = s) (hx : Trajectory L G P ops vSolve pSolve x n)
    {V : ℕ → Stencil → K} {p : Stencil → K} (hV : Meets debug L G T s.U V) (hp : Stored debug L 3 s.p p)
    (mass : Solenoidal L G V) (momentum : Balanced L G axes P.nu V p)
    (hc : P.conv = eulerExplicit ∨ NoConvection L G V) (hd : P.diff ≠ adamsBashforth2 ∨ NoDiffusion L G V) (k : ℕ) (hk : k ≤ n) :
    (x k).U = s.U ∧ ∃ c, ∀ i : ℤ, 0 ≤ i → i < L.pN → (x k).p i = s.p i + c := by
  have := steady_run S hs h0 hx hn hT hBN hdt hnu exactV exactP (meets_filled S.constructed hV (S.kept hs).B) hp mass momentum hc hd hk
  exact ⟨this.U, this.p⟩

theorem laplace_const (dim : ℕ) (G : Geom K) (f : ℕ) (st : Stencil) (c : K) : laplace dim G f st (fun _ => c) = 0 := by
  unfold laplace secondDifference
  simp

theorem convective_const (dim : ℕ) (G : Geom K) (f : ℕ) (st : Stencil) (c : ℕ → K) : convective dim G (fun g _ => c g) f st = 0 := by
  unfold convective momentumFlux
  simp

/-- C86. A uniform flow that the boundary conditions allow stays uniform, with every scheme, if it is along an axis or the processes
have the walls of their points. What is missing: oblique flows through walls with several processes (`C86_false_processes`). -/
theorem C86_uniform_partial (S : Started debug L G axes T B P flow ops disk s disk') (hs : P.nstart = 0)
    (hn : ∀ f d, f < L.dim → d < L.dim → L.periodic 0 d = true → 3 ≤ L.n f d)
    (hT : ∀ f loc, f < L.dim → loc / 2 = f → (T f loc).1 ≠ .NEUMANN) (hBN : GoodOrder L P ops.A) (hdt : 0 < P.dt) (hnu : 0 ≤ P.nu)
    {vSolve pSolve : LinSolve K} (exactV : Solves L.UN vSolve ops.A) (exactP : Solves L.pN pSolve ops.DBNG)
    {x : ℕ → NSState K} {n : ℕ} (h0 : x 0 = s) (hx : Trajectory L G P ops vSolve pSolve x n)
    {c : ℕ → K} {p₀ : K} (hc : CarriedBy L T c)
    (hU : ∀ f st idx, f < L.dim → Inside L.toMeshInfo f st → L.getPackedGlobalIndex debug f st = .ok idx → s.U idx = c f)
    (hp : ∀ i : ℤ, 0 ≤ i → i < L.pN → s.p i = p₀)
    (hw : (∃ g, ∀ f, f ≠ g → c f = 0) ∨ ∀ u, IsUnknown L u → KnowsWalls L T u.rank u.comp ⟨u.k, u.j, u.i, 0⟩) (k : ℕ) (hk : k ≤ n) :
    (∀ f st idx, f < L.dim → Inside L.toMeshInfo f st → L.getPackedGlobalIndex debug f st = .ok idx → (x k).U idx = c f) ∧
      ∃ p₁, ∀ i : ℤ, 0 ≤ i → i < L.pN → (x k).p i = p₁ := by
  have C := S.constructed
  have hL := C.setup.layout
  have h3 := C.setup.dim_le
  have hV : Meets debug L G T s.U fun f _ => c f := by
    have tab : ∀ f loc st, f < L.dim → loc < L.dim * 2 → (T f loc).1 ≠ .PERIODIC → OnFace L.toMeshInfo f loc st →
        T f loc = (.DIRICHLET, c f) ∨ T f loc = (.NEUMANN, 0) ∨ (T f loc).1 = .CONVECTIVE := by
      intro f loc st hf hl ht _
      apply hc f loc hf hl
      by_contra hper
      exact ht ((C.table f loc hf hl).2 (by simpa using hper))
    refine ⟨fun f st idx hf hin hi => (hU f st idx hf hin hi).symm, fun _ _ _ _ _ _ => rfl, ?_, ?_, fun _ _ _ _ _ _ _ _ _ => rfl⟩
    · intro f loc st t hf hl ht hface _
      rcases tab f loc st hf hl (by rw [ht]; simp) hface with e | e | e
      · rw [e]
        unfold boundaryValue
        split_ifs
        · rfl
        · simp
      · rw [e] at ht; cases ht
      · rw [e] at ht; cases ht
    · intro f loc st t hf hl ht hface _
      rcases tab f loc st hf hl (by rw [ht]; simp) hface with e | e | e
      · rw [e] at ht; cases ht
      · rw [e]; simp
      · rw [e] at ht; cases ht
  have hfill := meets_filled C hV (S.kept hs).B
  have hconv : NoConvection L G fun f _ => c f := by
    intro u hu
    rcases hw with ⟨g, hg⟩ | hw
    · have hr := hu.2.2.2.2.1
      by_cases hcf : c u.comp = 0
      · unfold convective
        apply Finset.sum_eq_zero
        intro d _
        have z : ∀ t, seenBy L u.rank (fun f _ => c f) u.comp t = 0 := by
          intro t
          unfold seenBy
          simp [hcf]
        unfold momentumFlux
        simp only [z]
        simp
      · rw [convective_reads hL.dim G hu.1 _ (W := fun g _ => c g) ?_, convective_const]
        intro h t hread
        have hh := hread.comp_lt hu.1
        unfold seenBy
        split_ifs with hsee
        · rfl
        · rcases reads_cases C.setup C.part (C.ghosts [.setGhostICs s.U]) hu.1 hr hu.inside hu.ownsAt hread with hin | ⟨_, hne, _⟩
          · exact absurd ((sees_iff C _ hh hr).2 hin) hsee
          · by_cases hhg : h = g
            · exact absurd (hg u.comp fun e => hne (hhg.trans e.symm)) hcf
            · exact (hg h hhg).symm
    · rw [seen_convective C (h := [.setGhostICs s.U]) (q := s.U) (q' := s.U) ⟨_, _, rfl⟩ ⟨[], Or.inl rfl⟩
        (meets_filled C hV fun _ _ => rfl) hu (hw u hu), convective_const]
  have hdiff : NoDiffusion L G fun f _ => c f := fun u _ => laplace_const _ _ _ _ _
  obtain ⟨h1, c1, h2⟩ := C86_steady_partial S hs hn hT hBN hdt hnu exactV exactP h0 hx (V := fun f _ => c f) (p := fun _ => p₀) hV
    ⟨fun st idx hin hi => by
      rw [(col_inside hL (Or.inr rfl) debug hin).1] at hi
      cases hi
      exact (hp _ (pcol_range hL hin).1 (pcol_range hL hin).2).symm, fun _ _ _ _ _ _ _ => rfl⟩
    (fun st _ => by unfold netFlux; simp)
    (fun u hu => by
      have a := hconv u hu
      have b := hdiff u hu
      simp only at a b
      rw [a, b]
      unfold pressureSlope
      simp) (Or.inr hconv) (Or.inr hdiff) k hk
  refine ⟨fun f st idx hf hin hi => by rw [h1]; exact hU f st idx hf hin hi, p₀ + c1, fun i i0 i1 => ?_⟩
  rw [h2 i i0 i1, hp i i0 i1]

theorem of_toOption {ε α : Type} {x : Except ε α} {y : α} (h : x.toOption = some y) : x = .ok y := by
  cases x with
  | error e => cases h
  | ok z => cases h; rfl

/-! ### Fluid that is pressed through a box with a moving lid -/

/-- Velocity 2 through bottom and top, the top moves sideways. -/
def suctionTable : BCTable ℚ := fun f b => (.DIRICHLET, if f = 0 then (if b = 3 then 1 else 0) else 2)

def suctionFlow : FlowNode ℚ := ⟨some 1, some [fun _ _ _ _ _ => 0, fun _ _ _ _ _ => 2], none⟩

/-- The flow with its ghost points. -/
def suctionField : ℕ → Stencil → ℚ := fun f s => if f = 0 then (if s.j = 2 then 2 else 0) else 2

theorem suction_start (scheme : TimeScheme ℚ) (h : scheme = eulerExplicit ∨ scheme = adamsBashforth2) :
    (seamRun suctionTable suctionFlow scheme 1 2).toOption.map (fun q =>
      ((List.range 7).map fun i : ℕ => q.2.1.U (i : ℤ), (List.range 6).map fun i : ℕ => q.2.1.p (i : ℤ))) =
    some ([0, 0, 0, 0, 2, 2, 2], [0, 0, 0, 0, 0, 0]) := by
  rcases h with rfl | rfl <;> decide +kernel

theorem suction_points {f : ℕ} {s : Stencil} (hf : f < 2) (hs : Inside (seamLayout 1).toMeshInfo f s) :
    (f = 0 ∧ s ∈ ([⟨0, 0, 0, 0⟩, ⟨0, 0, 1, 0⟩, ⟨0, 1, 0, 0⟩, ⟨0, 1, 1, 0⟩] : List Stencil)) ∨
      (f = 1 ∧ s ∈ ([⟨0, 0, 0, 0⟩, ⟨0, 0, 1, 0⟩, ⟨0, 0, 2, 0⟩] : List Stencil)) := by
  obtain ⟨h, hc⟩ := hs
  obtain ⟨k, j, i, c⟩ := s
  have h0 : 0 ≤ i ∧ i < ((seamLayout 1).toMeshInfo.n f 0 : ℕ) := h 0 (by omega)
  have h1 : 0 ≤ j ∧ j < ((seamLayout 1).toMeshInfo.n f 1 : ℕ) := h 1 (by omega)
  have h2 : 0 ≤ k ∧ k < ((seamLayout 1).toMeshInfo.n f 2 : ℕ) := h 2 (by omega)
  have hc : c = 0 := hc
  have n : ∀ f, f < 2 → ((seamLayout 1).n f 0 = if f = 0 then 2 else 3) ∧ ((seamLayout 1).n f 1 = if f = 0 then 2 else 1) ∧ (seamLayout 1).n f 2 = 1 := by
    intro f hf
    interval_cases f <;> decide
  obtain ⟨n0, n1, n2⟩ := n f hf
  have m0 : (seamLayout 1).toMeshInfo.n f 0 = if f = 0 then 2 else 3 := n0
  have m1 : (seamLayout 1).toMeshInfo.n f 1 = if f = 0 then 2 else 1 := n1
  have m2 : (seamLayout 1).toMeshInfo.n f 2 = 1 := n2
  rw [m0] at h0
  rw [m1] at h1
  rw [m2] at h2
  subst hc
  obtain rfl : k = 0 := by push_cast at h2; omega
  interval_cases f
  · left
    simp only [if_true] at h0 h1
    obtain ⟨a, b⟩ := h0
    obtain ⟨a', b'⟩ := h1
    push_cast at b b'
    interval_cases i <;> interval_cases j <;> simp
  · right
    simp only [Nat.one_ne_zero, if_false] at h0 h1
    obtain ⟨a, b⟩ := h0
    obtain ⟨a', b'⟩ := h1
    push_cast at b b'
    interval_cases i <;> interval_cases j <;> simp

theorem suction_index {f : ℕ} {s : Stencil} {idx : ℤ} (hf : f < 2) (hs : Inside (seamLayout 1).toMeshInfo f s)
    (hi : (seamLayout 1).getPackedGlobalIndex true f s = .ok idx) : (f = 0 ∧ idx ∈ ([0, 1, 2, 3] : List ℤ)) ∨ (f = 1 ∧ idx ∈ ([4, 5, 6] : List ℤ)) := by
  have key : (∀ s ∈ ([⟨0, 0, 0, 0⟩, ⟨0, 0, 1, 0⟩, ⟨0, 1, 0, 0⟩, ⟨0, 1, 1, 0⟩] : List Stencil), ∃ i ∈ ([0, 1, 2, 3] : List ℤ),
        (seamLayout 1).getPackedGlobalIndex true 0 s = .ok i) ∧
      ∀ s ∈ ([⟨0, 0, 0, 0⟩, ⟨0, 0, 1, 0⟩, ⟨0, 0, 2, 0⟩] : List Stencil), ∃ i ∈ ([4, 5, 6] : List ℤ),
        (seamLayout 1).getPackedGlobalIndex true 1 s = .ok i := by decide +kernel
  rcases suction_points hf hs with ⟨rfl, h⟩ | ⟨rfl, h⟩
  · obtain ⟨i, h1, h2⟩ := key.1 s h
    rw [h2] at hi; cases hi
    exact Or.inl ⟨rfl, h1⟩
  · obtain ⟨i, h1, h2⟩ := key.2 s h
    rw [h2] at hi; cases hi
    exact Or.inr ⟨rfl, h1⟩

theorem suction_meets {U : ℤ → ℚ} (h : (List.range 7).map (fun i : ℕ => U (i : ℤ)) = [0, 0, 0, 0, 2, 2, 2]) :
    Meets true (seamLayout 1) seamGeom suctionTable U suctionField := by
  rw [show List.range 7 = [0, 1, 2, 3, 4, 5, 6] from rfl] at h
  simp only [List.map_cons, List.map_nil, List.cons.injEq, and_true, Nat.cast_ofNat, Nat.cast_zero, Nat.cast_one] at h
  obtain ⟨u0, u1, u2, u3, u4, u5, u6⟩ := h
  refine ⟨?_, ?_, ?_, ?_, ?_⟩
  · intro f s idx hf hs hi
    rcases suction_index hf hs hi with ⟨rfl, h⟩ | ⟨rfl, h⟩
    · have e : suctionField 0 s = 0 := by
        rcases suction_points hf hs with ⟨_, h⟩ | ⟨h, _⟩
        · clear hi hs
          revert s
          decide +kernel
        · cases h
      rw [e]
      fin_cases h <;> simp [*]
    · have e : suctionField 1 s = 2 := rfl
      rw [e]
      fin_cases h <;> simp [*]
  · intro f s d _ _ h
    cases h
  · intro f loc s t hf hl _ hs ht
    have hf : f < 2 := hf
    have hl : loc < 4 := hl
    obtain ⟨s1, s2, -⟩ := hs
    obtain ⟨t1, t2, -⟩ := ht
    interval_cases f
    · have n1 : (seamLayout 1).toMeshInfo.n 0 1 = 2 := by decide
      interval_cases loc
      · have : s.j ≠ 2 := fun h => by
          have := (s2 1 (by omega) (by omega)).2
          rw [n1, show coordOf s 1 = s.j from rfl, h] at this
          norm_num at this
        simp [boundaryValue, suctionField, this, suctionTable]
      · have : s.j ≠ 2 := fun h => by
          have := (s2 1 (by omega) (by omega)).2
          rw [n1, show coordOf s 1 = s.j from rfl, h] at this
          norm_num at this
        simp [boundaryValue, suctionField, this, suctionTable]
      · have hs : s.j = -1 := s1
        have ht : t.j = 0 := t1
        simp [boundaryValue, suctionField, suctionTable, hs, ht]
      · have hs : s.j = (((seamLayout 1).toMeshInfo.n 0 1 : ℕ) : ℤ) := s1
        have ht : t.j = (((seamLayout 1).toMeshInfo.n 0 1 : ℕ) : ℤ) - 1 := t1
        rw [n1] at hs ht
        simp [boundaryValue, suctionField, suctionTable, hs, ht]
    · simp [boundaryValue, suctionField, suctionTable]
  · intro f loc s t _ _ h
    cases h
  · intro f loc s t _ _ h
    cases h

theorem suction_knows (u : Unknown) (hu : IsUnknown (seamLayout 1) u) : KnowsWalls (seamLayout 1) suctionTable u.rank u.comp ⟨u.k, u.j, u.i, 0⟩ := by
  have hr : u.rank = 0 := by
    have : u.rank < 1 := hu.2.2.2.2.1
    omega
  intro loc hl hne _ _
  have hl : loc < 4 := hl
  by_cases h : loc / 2 = 0
  · left
    unfold Closed suctionTable
    rw [h, if_pos rfl, if_neg (by omega)]
  · right
    have hcomp : u.comp = 0 := by
      have : u.comp < 2 := hu.1
      omega
    have hl1 : loc / 2 = 1 := by omega
    intro y hy
    obtain ⟨v, _, hv, hc, hs⟩ := exists_unknown (seam_constructed suctionTable (fun _ _ => rfl) 1 (Or.inl rfl)).setup.layout
      (show 1 < (seamLayout 1).dim by decide) (s := ⟨0, 0, u.i + y, 0⟩) (by
        have := hu.inside.1 0 (by omega)
        rw [hcomp] at this
        have : (0 : ℤ) ≤ u.i ∧ (u.i : ℤ) < 2 := this
        refine ⟨fun d hd => ?_, rfl⟩
        interval_cases d
        · show 0 ≤ u.i + y ∧ u.i + y < 3
          omega
        · show (0 : ℤ) ≤ 0 ∧ (0 : ℤ) < 1
          omega
        · show (0 : ℤ) ≤ 0 ∧ (0 : ℤ) < 1
          omega)
    refine ⟨v, hv, ?_, by rw [hc, hl1], ?_⟩
    · have : v.rank < 1 := hv.2.2.2.2.1
      omega
    · rw [hcomp]
      have : v.i = u.i + y := by
        have := congrArg Stencil.i hs
        exact this
      exact this

theorem suction_solenoidal : Solenoidal (seamLayout 1) seamGeom suctionField := by
  intro c hc
  obtain ⟨h, hc0⟩ := hc
  obtain ⟨k, j, i, cc⟩ := c
  have hj : 0 ≤ j ∧ j < (2 : ℤ) := h 1 (by omega)
  have a : j ≠ 2 := by omega
  show ∑ f ∈ Finset.range 2, _ = _
  simp [Finset.sum_range_succ, suctionField, shift, along, a, coordOf]

theorem suction_balanced : Balanced (seamLayout 1) seamGeom seamAxes 1 suctionField fun _ => 0 := by
  intro u hu
  obtain ⟨⟨o, i, e⟩, h, hv⟩ := Option.map_eq_some_iff.1 (suction_start eulerExplicit (Or.inl rfl))
  have C := seam_constructed suctionTable (fun _ _ => rfl) 1 (Or.inl rfl)
  rw [seen_convective C (h := [.setGhostICs i.U]) (q := i.U) (q' := i.U) ⟨_, _, rfl⟩ ⟨[], Or.inl rfl⟩
    (meets_filled C (suction_meets (congrArg Prod.fst hv)) fun _ _ => rfl) hu (suction_knows u hu)]
  have hs := suction_points hu.1 hu.inside
  have key : (∀ s ∈ ([⟨0, 0, 0, 0⟩, ⟨0, 0, 1, 0⟩, ⟨0, 1, 0, 0⟩, ⟨0, 1, 1, 0⟩] : List Stencil),
        convective 2 seamGeom suctionField 0 s = 1 * laplace 2 seamGeom 0 s (suctionField 0)) ∧
      ∀ s ∈ ([⟨0, 0, 0, 0⟩, ⟨0, 0, 1, 0⟩, ⟨0, 0, 2, 0⟩] : List Stencil),
        convective 2 seamGeom suctionField 1 s = 1 * laplace 2 seamGeom 1 s (suctionField 1) := by decide +kernel
  have e : pressureSlope (seamLayout 1) seamGeom seamAxes (fun _ => (0 : ℚ)) u.comp ⟨u.k, u.j, u.i, 0⟩ = 0 := by
    unfold pressureSlope
    simp
  rw [e, add_zero]
  unfold Unknown.st at hs
  rcases hs with ⟨h1, h2⟩ | ⟨h1, h2⟩
  · rw [h1]; exact key.1 _ h2
  · rw [h1]; exact key.2 _ h2

theorem suction_pressure {p : ℤ → ℚ} (h : (List.range 6).map (fun i : ℕ => p (i : ℤ)) = [0, 0, 0, 0, 0, 0]) :
    Stored true (seamLayout 1) 3 p fun _ => 0 := by
  rw [show List.range 6 = [0, 1, 2, 3, 4, 5] from rfl] at h
  simp only [List.map_cons, List.map_nil, List.cons.injEq, and_true, Nat.cast_ofNat, Nat.cast_zero, Nat.cast_one] at h
  obtain ⟨u0, u1, u2, u3, u4, u5⟩ := h
  have hL := (seam_constructed suctionTable (fun _ _ => rfl) 1 (Or.inl rfl)).setup.layout
  refine ⟨fun st idx hin hi => ?_, fun _ _ _ _ _ _ _ => rfl⟩
  rw [(col_inside hL (Or.inr rfl) true hin).1] at hi
  cases hi
  have h0 := (pcol_range hL hin).1
  have h1 := (pcol_range hL hin).2
  rw [seam_sizes.2.2.1] at h1
  generalize col (seamLayout 1) 3 st = c at h0 h1
  push_cast at h1
  interval_cases c <;> simp [*]

/-- The hypotheses of `C86_steady_partial` for the flow through the box: convective and viscous terms balance each other. -/
example : ∃ o i d x, Started true (seamLayout 1) seamGeom seamAxes suctionTable (seamB suctionTable 1) (seamParams eulerExplicit) (some suctionFlow) o
      (fun _ => none) i d ∧ (seamParams eulerExplicit).nstart = 0 ∧ (∀ d, (seamLayout 1).periodic 0 d = false) ∧
    (∀ f loc, (suctionTable f loc).1 ≠ .NEUMANN) ∧ GoodOrder (seamLayout 1) (seamParams eulerExplicit) o.A ∧ 0 < (seamParams eulerExplicit).dt ∧
    0 ≤ (seamParams eulerExplicit).nu ∧ Solves (seamLayout 1).UN (gaussSolve 7) o.A ∧ Solves (seamLayout 1).pN (gaussSolve 6) o.DBNG ∧ x 0 = i ∧
    Trajectory (seamLayout 1) seamGeom (seamParams eulerExplicit) o (gaussSolve 7) (gaussSolve 6) x 2 ∧
    Meets true (seamLayout 1) seamGeom suctionTable i.U suctionField ∧ (Stored true (seamLayout 1) 3 i.p fun _ => 0) ∧
    Solenoidal (seamLayout 1) seamGeom suctionField ∧
    (Balanced (seamLayout 1) seamGeom seamAxes (seamParams eulerExplicit).nu suctionField fun _ => 0) ∧
    (seamParams eulerExplicit).conv = eulerExplicit ∧ (seamParams eulerExplicit).diff ≠ adamsBashforth2 ∧
    convective 2 seamGeom suctionField 0 ⟨0, 1, 0, 0⟩ = 2 := by
  obtain ⟨⟨o, i, e⟩, h, hv⟩ := Option.map_eq_some_iff.1 (suction_start eulerExplicit (Or.inl rfl))
  obtain ⟨d, x, S, x0, -, t⟩ := seam_run (conv := "EULER_EXPLICIT") (fun _ _ => rfl) rfl (Or.inl rfl) (of_toOption h)
  rw [seam_sizes.1, seam_sizes.2.2.1]
  exact ⟨o, i, d, x, S, rfl, fun _ => rfl, fun _ _ => by simp [suctionTable], Or.inl rfl, by norm_num [seamParams], by norm_num [seamParams],
    gaussSolve_exact _ _, gaussSolve_exact _ _, x0, t, suction_meets (congrArg Prod.fst hv), suction_pressure (congrArg Prod.snd hv),
    suction_solenoidal, suction_balanced, rfl, fun h => by simpa [seamParams, eulerExplicit, adamsBashforth2] using congrArg TimeScheme.nExplicit h,
    by decide +kernel⟩

/-- C86 is false for Adams-Bashforth terms: the first step gives the convective term the weight 3/2, and a flow that satisfies the
discretised equations is disturbed. -/
theorem C86_false_first_step : ∃ (L : Layout) (G : Geom ℚ) (axes : ℕ → Axis ℚ) (T : BCTable ℚ) (B : ℕ → Boundary ℚ) (P : NSParams ℚ)
    (flow : Option (FlowNode ℚ)) (o : NSOps ℚ) (disk d : Disk ℚ) (i : NSState ℚ) (x : ℕ → NSState ℚ) (v p : LinSolve ℚ) (V : ℕ → Stencil → ℚ)
    (q : Stencil → ℚ), Started true L G axes T B P flow o disk i d ∧ P.nstart = 0 ∧ L.mpiSize = 1 ∧ (∀ d, L.periodic 0 d = false) ∧
    (∀ f loc, (T f loc).1 = .DIRICHLET) ∧ P.BN = 1 ∧ 0 < P.dt ∧ 0 ≤ P.nu ∧ Solves L.UN v o.A ∧ Solves L.pN p o.DBNG ∧ x 0 = i ∧
    Trajectory L G P o v p x 2 ∧ Meets true L G T i.U V ∧ Stored true L 3 i.p q ∧ Solenoidal L G V ∧ Balanced L G axes P.nu V q ∧
    P.conv = adamsBashforth2 ∧ P.diff = eulerExplicit ∧ (x 2).U ≠ i.U := by
  obtain ⟨⟨o, i, e⟩, h, hv⟩ := Option.map_eq_some_iff.1 (suction_start adamsBashforth2 (Or.inr rfl))
  obtain ⟨d, x, S, x0, xn, t⟩ := seam_run (conv := "ADAMS_BASHFORTH_2") (fun _ _ => rfl) rfl (Or.inl rfl) (of_toOption h)
  refine ⟨_, _, _, _, _, _, _, o, _, d, i, x, _, _, suctionField, fun _ => 0, S, rfl, rfl, fun _ => rfl, fun _ _ => rfl, rfl, by norm_num [seamParams],
    by norm_num [seamParams], by rw [seam_sizes.1]; exact gaussSolve_exact _ _, by rw [seam_sizes.2.2.1]; exact gaussSolve_exact _ _, x0, t,
    suction_meets (congrArg Prod.fst hv), suction_pressure (congrArg Prod.snd hv), suction_solenoidal, suction_balanced, rfl, rfl, ?_⟩
  intro he
  have key : ((seamRun suctionTable suctionFlow adamsBashforth2 1 2).toOption.map fun q => decide (q.2.2.U 2 = q.2.1.U 2)) = some false := by
    decide +kernel
  rw [h] at key
  simp only [Option.map_some, Option.some.injEq, decide_eq_false_iff_not] at key
  exact key (by rw [← xn, he])

/-- Walls that move with a flow along the first axis. -/
def axisTable : BCTable ℚ := fun f _ => (.DIRICHLET, if f = 0 then 1 else 0)

def axisFlow : FlowNode ℚ := ⟨some 1, some [fun _ _ _ _ _ => 1, fun _ _ _ _ _ => 0], none⟩

/-- The hypotheses of `C86_uniform_partial` for a flow along an axis, two processes. -/
example : ∃ o i d x, Started true (seamLayout 2) seamGeom seamAxes axisTable (seamB axisTable 2) (seamParams adamsBashforth2) (some axisFlow) o
      (fun _ => none) i d ∧ (seamParams adamsBashforth2).nstart = 0 ∧ (∀ d, (seamLayout 2).periodic 0 d = false) ∧
    (∀ f loc, (axisTable f loc).1 ≠ .NEUMANN) ∧ GoodOrder (seamLayout 2) (seamParams adamsBashforth2) o.A ∧ 0 < (seamParams adamsBashforth2).dt ∧
    0 ≤ (seamParams adamsBashforth2).nu ∧ Solves (seamLayout 2).UN (gaussSolve 7) o.A ∧ Solves (seamLayout 2).pN (gaussSolve 6) o.DBNG ∧ x 0 = i ∧
    Trajectory (seamLayout 2) seamGeom (seamParams adamsBashforth2) o (gaussSolve 7) (gaussSolve 6) x 2 ∧
    (CarriedBy (seamLayout 2) axisTable fun f => if f = 0 then 1 else 0) ∧
    (∀ f st idx, f < (seamLayout 2).dim → Inside (seamLayout 2).toMeshInfo f st → (seamLayout 2).getPackedGlobalIndex true f st = .ok idx →
      i.U idx = if f = 0 then 1 else 0) ∧ (∀ j : ℤ, 0 ≤ j → j < 6 → i.p j = 0) ∧ (∀ f, f ≠ 0 → (if f = 0 then (1 : ℚ) else 0) = 0) := by
  have run : (seamRun axisTable axisFlow adamsBashforth2 2 2).toOption.map (fun q =>
      ((List.range 7).map fun i : ℕ => q.2.1.U (i : ℤ), (List.range 6).map fun i : ℕ => q.2.1.p (i : ℤ))) =
    some ([1, 1, 0, 0, 1, 1, 0], [0, 0, 0, 0, 0, 0]) := by decide +kernel
  obtain ⟨⟨o, i, e⟩, h, hv⟩ := Option.map_eq_some_iff.1 run
  obtain ⟨d, x, S, x0, xn, t⟩ := seam_run (conv := "ADAMS_BASHFORTH_2") (fun _ _ => rfl) rfl (Or.inr rfl) (of_toOption h)
  have h1 := congrArg Prod.fst hv
  have h2 := congrArg Prod.snd hv
  simp only at h1 h2
  rw [show List.range 7 = [0, 1, 2, 3, 4, 5, 6] from rfl] at h1
  rw [show List.range 6 = [0, 1, 2, 3, 4, 5] from rfl] at h2
  simp only [List.map_cons, List.map_nil, List.cons.injEq, and_true, Nat.cast_ofNat, Nat.cast_zero, Nat.cast_one] at h1 h2
  obtain ⟨u0, u1, u2, u3, u4, u5, u6⟩ := h1
  obtain ⟨p0, p1, p2, p3, p4, p5⟩ := h2
  rw [seam_sizes.2.1, seam_sizes.2.2.2]
  refine ⟨o, i, d, x, S, rfl, fun _ => rfl, fun _ _ => by simp [axisTable], Or.inl rfl, by norm_num [seamParams], by norm_num [seamParams],
    gaussSolve_exact _ _, gaussSolve_exact _ _, x0, t, fun _ _ _ _ _ => Or.inl rfl, ?_, ?_, fun f hf => if_neg hf⟩
  · intro f st idx hf hin hi
    have key : (∀ s ∈ ([⟨0, 0, 0, 0⟩, ⟨0, 0, 1, 0⟩, ⟨0, 1, 0, 0⟩, ⟨0, 1, 1, 0⟩] : List Stencil), ∃ i ∈ ([0, 1, 4, 5] : List ℤ),
          (seamLayout 2).getPackedGlobalIndex true 0 s = .ok i) ∧
        ∀ s ∈ ([⟨0, 0, 0, 0⟩, ⟨0, 0, 1, 0⟩, ⟨0, 0, 2, 0⟩] : List Stencil), ∃ i ∈ ([2, 3, 6] : List ℤ),
          (seamLayout 2).getPackedGlobalIndex true 1 s = .ok i := by decide +kernel
    rcases suction_points hf hin with ⟨rfl, h⟩ | ⟨rfl, h⟩
    · obtain ⟨j, h1, h2⟩ := key.1 st h
      rw [h2] at hi; cases hi
      fin_cases h1 <;> simp [*]
    · obtain ⟨j, h1, h2⟩ := key.2 st h
      rw [h2] at hi; cases hi
      fin_cases h1 <;> simp [*]
  · intro j j0 j1
    interval_cases j <;> assumption

theorem one_start (px : ℕ) (h : px = 1 ∨ px = 2) :
    (seamRun unitWalls oneFlow eulerExplicit px 1).toOption.map (fun q =>
      ((List.range 7).map fun i : ℕ => q.2.1.U (i : ℤ), (List.range 6).map fun i : ℕ => q.2.1.p (i : ℤ))) =
    some ([1, 1, 1, 1, 1, 1, 1], [0, 0, 0, 0, 0, 0]) := by
  rcases h with rfl | rfl <;> decide +kernel

/-- C86 is false for oblique flows with several processes: the uniform flow through the box meets all boundary conditions, but the second
process does not have the wall velocity at the seam, and after one step the flow is not uniform any more. -/
theorem C86_false_processes : ∃ (L : Layout) (G : Geom ℚ) (axes : ℕ → Axis ℚ) (T : BCTable ℚ) (B : ℕ → Boundary ℚ) (P : NSParams ℚ)
    (flow : Option (FlowNode ℚ)) (o : NSOps ℚ) (disk d : Disk ℚ) (i : NSState ℚ) (x : ℕ → NSState ℚ) (v p : LinSolve ℚ),
    Started true L G axes T B P flow o disk i d ∧ P.nstart = 0 ∧ L.mpiSize = 2 ∧ (∀ d, L.periodic 0 d = false) ∧
    (∀ f loc, (T f loc).1 = .DIRICHLET) ∧ P.BN = 1 ∧ 0 < P.dt ∧ 0 ≤ P.nu ∧ P.conv = eulerExplicit ∧ P.diff = eulerExplicit ∧ Solves L.UN v o.A ∧
    Solves L.pN p o.DBNG ∧ x 0 = i ∧ Trajectory L G P o v p x 1 ∧ (CarriedBy L T fun _ => 1) ∧ (∀ j : ℤ, 0 ≤ j → j < L.UN → i.U j = 1) ∧
    (∀ j : ℤ, 0 ≤ j → j < L.pN → i.p j = 0) ∧ ∃ j : ℤ, 0 ≤ j ∧ j < L.UN ∧ (x 1).U j ≠ 1 := by
  obtain ⟨⟨o, i, e⟩, h, hv⟩ := Option.map_eq_some_iff.1 (one_start 2 (Or.inr rfl))
  obtain ⟨d, x, S, x0, xn, t⟩ := seam_run (conv := "EULER_EXPLICIT") (fun _ _ => rfl) rfl (Or.inr rfl) (of_toOption h)
  have h1 := congrArg Prod.fst hv
  have h2 := congrArg Prod.snd hv
  simp only at h1 h2
  rw [show List.range 7 = [0, 1, 2, 3, 4, 5, 6] from rfl] at h1
  rw [show List.range 6 = [0, 1, 2, 3, 4, 5] from rfl] at h2
  simp only [List.map_cons, List.map_nil, List.cons.injEq, and_true, Nat.cast_ofNat, Nat.cast_zero, Nat.cast_one] at h1 h2
  obtain ⟨u0, u1, u2, u3, u4, u5, u6⟩ := h1
  obtain ⟨p0, p1, p2, p3, p4, p5⟩ := h2
  refine ⟨_, _, _, _, _, _, _, o, _, d, i, x, _, _, S, rfl, by decide, fun _ => rfl, fun _ _ => rfl, rfl, by norm_num [seamParams],
    by norm_num [seamParams], rfl, rfl, by rw [seam_sizes.2.1]; exact gaussSolve_exact _ _, by rw [seam_sizes.2.2.2]; exact gaussSolve_exact _ _,
    x0, t, fun _ _ _ _ _ => Or.inl rfl, ?_, ?_, ?_⟩
  · intro j j0 j1
    rw [seam_sizes.2.1] at j1
    push_cast at j1
    interval_cases j <;> assumption
  · intro j j0 j1
    rw [seam_sizes.2.2.2] at j1
    push_cast at j1
    interval_cases j <;> assumption
  · have key : ((seamRun unitWalls oneFlow eulerExplicit 2 1).toOption.map fun q => decide (q.2.2.U 4 = 1)) = some false := by
      decide +kernel
    rw [h] at key
    simp only [Option.map_some, Option.some.injEq, decide_eq_false_iff_not] at key
    exact ⟨4, by norm_num, by rw [seam_sizes.2.1]; norm_num, by rw [xn]; exact key⟩

end PetIBM
