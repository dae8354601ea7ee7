/-
C104: plane Couette flow.
-/
import Verif.Spec.Couette
import Verif.Props.Steady
import Verif.Props.MomentumRun
import Verif.Props.Turn

set_option linter.unusedSectionVars false

namespace PetIBM

open Spec

section

variable {K : Type} [Field K] [LinearOrder K] [IsStrictOrderedRing K]
variable {debug : Bool} {L : Layout} {G : Geom K} {axes : ℕ → Axis K} {T : BCTable K} {B : ℕ → Boundary K}
variable {P : NSParams K} {flow : Option (FlowNode K)} {ops : NSOps K} {disk disk' : Disk K} {s : NSState K} {g e : ℕ} {a b : K}

theorem shear_shift (G : Geom K) {g e d : ℕ} (a b : K) (f : ℕ) (st : Stencil) (x : ℤ) (he : e < 3) (hd : d < 3) (h : d ≠ e) :
    shearOf G g e a b f (shift st d x) = shearOf G g e a b f st := by
  unfold shearOf
  rw [shift_coord _ _ hd he, if_neg (Ne.symm h)]

theorem shear_convective (hg : g < L.dim) (he : e < L.dim) (hge : g ≠ e) (h3 : L.dim ≤ 3) (st : Stencil) :
    convective L.dim G (shearOf G g e a b) g st = 0 := by
  unfold convective
  apply Finset.sum_eq_zero
  intro d hd
  have hd := Finset.mem_range.1 hd
  unfold momentumFlux
  by_cases h : d = g
  · subst h
    rw [shear_shift G a b _ st 1 (by omega) (by omega) hge, shear_shift G a b _ _ 1 (by omega) (by omega) hge,
      shear_shift G a b _ _ (-1) (by omega) (by omega) hge]
    simp
  · have z : ∀ t, shearOf G g e a b d t = 0 := fun t => if_neg h
    rw [z, z, z, z]
    simp

theorem shear_laplace (C : Setup L G axes) (hg : g < L.dim) (he : e < L.dim) (f : ℕ) (hf : f < L.dim) {st : Stencil} (hst : Inside L.toMeshInfo f st) :
    laplace L.dim G f st (shearOf G g e a b f) = 0 := by
  have h3 := C.dim_le
  by_cases hfg : f = g
  · subst hfg
    unfold laplace
    apply Finset.sum_eq_zero
    intro d hd
    have hd := Finset.mem_range.1 hd
    unfold secondDifference
    by_cases h : d = e
    · subst h
      have hi := hst.1 d (by omega)
      have h1 := C.coord_lt f d hf hd (coordOf st d) (by omega) hi.2
      have h2 := C.coord_lt f d hf hd (coordOf st d - 1) (by omega) (by omega)
      rw [sub_add_cancel] at h2
      unfold shearOf
      rw [if_pos rfl, if_pos rfl, if_pos rfl, shift_coord _ _ (by omega) (by omega), if_pos rfl, shift_coord _ _ (by omega) (by omega), if_pos rfl,
        ← sub_eq_add_neg]
      have e1 : (a + b * G.coord f d (coordOf st d + 1) - (a + b * G.coord f d (coordOf st d))) /
          (G.coord f d (coordOf st d + 1) - G.coord f d (coordOf st d)) = b := by
        rw [div_eq_iff (by linarith : (G.coord f d (coordOf st d + 1) - G.coord f d (coordOf st d) : K) > 0).ne']
        ring
      have e2 : (a + b * G.coord f d (coordOf st d) - (a + b * G.coord f d (coordOf st d - 1))) /
          (G.coord f d (coordOf st d) - G.coord f d (coordOf st d - 1)) = b := by
        rw [div_eq_iff (by linarith : (G.coord f d (coordOf st d) - G.coord f d (coordOf st d - 1) : K) > 0).ne']
        ring
      rw [e1, e2]
      simp
    · rw [shear_shift G a b _ st 1 (by omega) (by omega) h, shear_shift G a b _ st (-1) (by omega) (by omega) h]
      simp
  · rw [show shearOf G g e a b f = fun _ => 0 from funext fun t => if_neg hfg]
    exact laplace_const _ _ _ _ _

theorem shear_meets (C : Constructed debug L G axes T B) (hA : AllowsShear L T axes g e a b) {U : ℤ → K}
    (hU : ∀ f st idx, f < L.dim → Inside L.toMeshInfo f st → L.getPackedGlobalIndex debug f st = .ok idx → U idx = shearOf G g e a b f st) :
    Meets debug L G T U (shearOf G g e a b) := by
  have h3 := C.setup.dim_le
  have he := hA.dir
  have open' : ∀ f loc, f < L.dim → loc < L.dim * 2 → (T f loc).1 ≠ .PERIODIC → L.periodic 0 (loc / 2) = false := by
    intro f loc hf hl ht
    by_contra hper
    exact ht ((C.table f loc hf hl).2 (by simpa using hper))
  -- sides of the other directions: the velocity next to them is the same
  have same : ∀ f loc st t, f < L.dim → loc < L.dim * 2 → loc / 2 ≠ e ∨ f ≠ g → AcrossFace L.toMeshInfo f loc st t →
      shearOf G g e a b f st = shearOf G g e a b f t := by
    intro f loc st t hf hl h ht
    unfold shearOf
    by_cases hfg : f = g
    · rw [if_pos hfg, if_pos hfg, ht.2.1 e (by omega) (fun h' => by rcases h with h | h; exact h h'.symm; exact h hfg)]
    · rw [if_neg hfg, if_neg hfg]
  refine ⟨fun f st idx hf hin hi => (hU f st idx hf hin hi).symm, ?_, ?_, ?_, ?_⟩
  · intro f st d hf hd hp
    have hde : e ≠ d := fun h => by rw [← h, hA.walled] at hp; cases hp
    unfold shearOf
    rw [coordOf_along _ _ _ _ (by omega) (by omega), if_neg hde]
  · intro f loc st t hf hl ht hface hacr
    have hp := open' f loc hf hl (by rw [ht]; simp)
    by_cases hfg : f = g
    · subst hfg
      by_cases hle : loc / 2 = e
      · rcases hA.walls loc hle with h | h
        · rw [h]
          unfold boundaryValue wallAt shearOf
          rw [if_neg (fun h' => hA.across (h'.symm.trans hle)), if_pos rfl, if_pos rfl]
          have hpf : L.periodic f e = false := by rw [C.setup.periodic f e hf (by omega)]; exact hA.walled
          obtain ⟨w1, w2⟩ := (C.setup.wall_position f e hf he hpf).2 (Ne.symm hA.across)
          have s1 := hface.1
          have t1 := hacr.1
          rw [hle] at s1 t1
          rw [s1, t1, hle]
          dsimp only
          split_ifs
          · rw [← w1]; ring
          · rw [← w2]; ring
        · rw [h] at ht; cases ht
      · rcases hA.along loc hl hle hp with h | h <;> rw [h] at ht <;> cases ht
    · rcases hA.others f loc hf hfg hl hp with h | h | h
      · rw [h]
        unfold boundaryValue shearOf
        simp [hfg]
      · rw [h] at ht; cases ht
      · rw [h] at ht; cases ht
  · intro f loc st t hf hl ht hface hacr
    have hp := open' f loc hf hl (by rw [ht]; simp)
    by_cases hz : loc / 2 = e ∧ f = g
    · obtain ⟨hle, rfl⟩ := hz
      rcases hA.walls loc hle with h | h
      · rw [h] at ht; cases ht
      · rw [h]
        unfold shearOf signedDistance
        rw [if_pos rfl, if_pos rfl, hle]
        ring
    · have hz' : loc / 2 ≠ e ∨ f ≠ g := by tauto
      rw [same f loc st t hf hl hz' hacr]
      have : T f loc = (.NEUMANN, 0) := by
        by_cases hfg : f = g
        · subst hfg
          rcases hA.along loc hl (by tauto) hp with h | h
          · exact h
          · rw [h] at ht; cases ht
        · rcases hA.others f loc hf hfg hl hp with h | h | h
          · rw [h] at ht; cases ht
          · exact h
          · rw [h] at ht; cases ht
      rw [this]
      simp
  · intro f loc st t hf hl ht hface hacr
    refine same f loc st t hf hl ?_ hacr
    by_contra hz
    push Not at hz
    obtain ⟨hle, rfl⟩ := hz
    rcases hA.walls loc hle with h | h <;> rw [h] at ht <;> cases ht

/-- C104. Plane Couette flow stays as it is: if the velocity along one axis grows linearly with the position along another one, the boundary
conditions allow this flow and the pressure is the same everywhere, no step of a run changes the velocity, and the pressure stays the same
everywhere. This holds on every mesh, however stretched, with every number of processes, every time scheme and every order of the
approximate inverse. Missing: periodic directions with fewer than three cells, Neumann conditions for normal components, solvers that
are not exact. -/
theorem C104_couette_partial (S : Started debug L G axes T B P flow ops disk s disk') (hs : P.nstart = 0)
    (hn : ∀ f d, f < L.dim → d < L.dim → L.periodic 0 d = true → 3 ≤ L.n f d)
    (hT : ∀ f loc, f < L.dim → loc / 2 = f → (T f loc).1 ≠ .NEUMANN) (hBN : GoodOrder L P ops.A) (hdt : 0 < P.dt) (hnu : 0 ≤ P.nu)
    {vSolve pSolve : LinSolve K} (exactV : Solves L.UN vSolve ops.A) (exactP : Solves L.pN pSolve ops.DBNG)
    {x : ℕ → NSState K} {n : ℕ} (h0 : x 0 = s) (hx : Trajectory L G P ops vSolve pSolve x n) {p₀ : K} (hA : AllowsShear L T axes g e a b)
    (hU : ∀ f st idx, f < L.dim → Inside L.toMeshInfo f st → L.getPackedGlobalIndex debug f st = .ok idx → s.U idx = shearOf G g e a b f st)
    (hp : ∀ st idx, Inside L.toMeshInfo 3 st → L.getPackedGlobalIndex debug 3 st = .ok idx → s.p idx = p₀) (k : ℕ) (hk : k ≤ n) :
    (∀ f st idx, f < L.dim → Inside L.toMeshInfo f st → L.getPackedGlobalIndex debug f st = .ok idx → (x k).U idx = shearOf G g e a b f st) ∧
      ∃ p₁, ∀ st idx, Inside L.toMeshInfo 3 st → L.getPackedGlobalIndex debug 3 st = .ok idx → (x k).p idx = p₁ := by
  have C := S.constructed
  have hL := C.setup.layout
  have h3 := C.setup.dim_le
  have he := hA.dir
  have hg := hA.comp
  have hV := shear_meets C hA hU
  have hconv : NoConvection L G (shearOf G g e a b) := by
    intro u hu
    by_cases hcf : u.comp = g
    · rw [convective_reads hL.dim G hu.1 _ (W := shearOf G g e a b) ?_, hcf, shear_convective hg he hA.across h3]
      intro h t hread
      have hh := hread.comp_lt hu.1
      unfold seenBy
      split_ifs with hsee
      · rfl
      · rcases reads_cases C.setup C.part (C.ghosts [.setGhostICs s.U]) hu.1 hu.2.2.2.2.1 hu.inside hu.ownsAt hread with hin | ⟨_, hne, _⟩
        · exact absurd ((sees_iff C _ hh hu.2.2.2.2.1).2 hin) hsee
        · exact (if_neg (by rw [← hcf]; exact hne)).symm
    · unfold convective
      apply Finset.sum_eq_zero
      intro d _
      have z : ∀ t, seenBy L u.rank (shearOf G g e a b) u.comp t = 0 := by
        intro t
        unfold seenBy shearOf
        simp [hcf]
      unfold momentumFlux
      simp only [z]
      simp
  have hdiff : NoDiffusion L G (shearOf G g e a b) := fun u hu => shear_laplace C.setup hg he u.comp hu.1 hu.inside
  obtain ⟨h1, c1, h2⟩ := C86_steady_partial S hs hn hT hBN hdt hnu exactV exactP h0 hx (V := shearOf G g e a b) (p := fun _ => p₀) hV
    ⟨fun st idx hin hi => (hp st idx hin hi).symm, fun _ _ _ _ _ _ _ => rfl⟩
    (fun st _ => by
      unfold netFlux
      apply Finset.sum_eq_zero
      intro f hf
      have hf := Finset.mem_range.1 hf
      by_cases hfg : f = g
      · subst hfg
        rw [shear_shift G a b _ st (-1) (by omega) (by omega) hA.across, sub_self]
      · rw [show ∀ t, shearOf G g e a b f t = 0 from fun t => if_neg hfg]
        simp [shearOf, hfg])
    (fun u hu => by
      have a' := hconv u hu
      have b' := hdiff u hu
      rw [a', b']
      unfold pressureSlope
      simp) (Or.inr hconv) (Or.inr hdiff) k hk
  refine ⟨fun f st idx hf hin hi => by rw [h1]; exact hU f st idx hf hin hi, p₀ + c1, fun st idx hin hi => ?_⟩
  have hidx := hi
  rw [(col_inside hL (Or.inr rfl) debug hin).1] at hi
  cases hi
  rw [h2 _ (pcol_range hL hin).1 (pcol_range hL hin).2, hp st _ hin hidx]

/-- C104 from the configuration: the expressions of the initial velocity give the flow, nothing is given for the pressure. Missing: as in
`C104_couette_partial`. -/
theorem C104_configured_partial {nu : K} {es : List (Expr K)} (S : Started debug L G axes T B P (some ⟨some nu, some es, none⟩) ops disk s disk')
    (hs : P.nstart = 0) (hn : ∀ f d, f < L.dim → d < L.dim → L.periodic 0 d = true → 3 ≤ L.n f d)
    (hT : ∀ f loc, f < L.dim → loc / 2 = f → (T f loc).1 ≠ .NEUMANN) (hBN : GoodOrder L P ops.A) (hdt : 0 < P.dt) (hnu : 0 ≤ P.nu)
    {vSolve pSolve : LinSolve K} (exactV : Solves L.UN vSolve ops.A) (exactP : Solves L.pN pSolve ops.DBNG)
    {x : ℕ → NSState K} {n : ℕ} (h0 : x 0 = s) (hx : Trajectory L G P ops vSolve pSolve x n) (hA : AllowsShear L T axes g e a b)
    (hlen : L.dim ≤ es.length)
    (hes : ∀ f ex, f < L.dim → es[f]? = some ex → ∀ q : ℕ → K, ex (q 0) (q 1) (q 2) 0 nu = if f = g then a + b * q e else 0) (k : ℕ) (hk : k ≤ n) :
    (∀ f st idx, f < L.dim → Inside L.toMeshInfo f st → L.getPackedGlobalIndex debug f st = .ok idx → (x k).U idx = shearOf G g e a b f st) ∧
      ∃ p₁, ∀ st idx, Inside L.toMeshInfo 3 st → L.getPackedGlobalIndex debug 3 st = .ok idx → (x k).p idx = p₁ := by
  have C := S.constructed
  have hL := C.setup.layout
  obtain ⟨s₀, i1, i2⟩ := S.init
  obtain ⟨U, p, hIC, _, rfl⟩ := solverInit_ok i1
  unfold ioInitialData at i2
  rw [if_pos hs] at i2
  obtain ⟨d, _, i2⟩ := bind_ok i2
  cases i2
  obtain ⟨ν, hν, v1, v2⟩ := initial_at C hIC
  cases hν
  refine C104_couette_partial S hs hn hT hBN hdt hnu exactV exactP h0 hx (p₀ := 0) hA ?_ ?_ k hk
  · intro f st idx hf hin hi
    rw [(col_inside hL (Or.inl hf) debug hin).1] at hi
    cases hi
    obtain ⟨ex, hex⟩ : ∃ ex, es[f]? = some ex := ⟨es[f]'(by omega), List.getElem?_eq_getElem _⟩
    have := hes f ex hf hex fun d => G.coord f d (coordOf st d)
    dsimp only
    rw [v1 f st ex hf hin hex, this]
    unfold shearOf
    by_cases h : f = g
    · rw [if_pos h, if_pos h, h]
    · rw [if_neg h, if_neg h]
  · intro st idx hin hi
    rw [(col_inside hL (Or.inr rfl) debug hin).1] at hi
    cases hi
    exact v2 st hin

end

/-! ### Examples -/

/-- The slip channel with a bottom that moves with velocity 1 and a top that moves with velocity 7. -/
def couetteTable : BCTable ℚ := fun f loc => if loc < 2 then (.PERIODIC, 0) else if f = 0 then (.DIRICHLET, if loc = 2 then 1 else 7) else (.DIRICHLET, 0)

theorem couette_constructed : ∃ B, Constructed true slipLayout slipGeom slipAxes couetteTable B := by
  apply C57_construction true (Or.inl rfl) (fun d _ => ?_) (fun _ _ _ _ => rfl)
  · intro d hd; interval_cases d <;> simp
  · intro f d hf hd
    rcases hf with hf | rfl
    · interval_cases d <;> interval_cases f <;> decide
    · interval_cases d <;> decide
  · intro f loc hf hl
    change f < 2 at hf
    change loc < 4 at hl
    interval_cases f <;> interval_cases loc <;> simp [couetteTable]
  · intro f loc hf hl
    change f < 2 at hf
    change loc < 4 at hl
    interval_cases f <;> interval_cases loc <;> simp [couetteTable]
  · unfold slipAxes
    split_ifs
    · exact ⟨by simp, by simp, by norm_num⟩
    · exact ⟨by simp, by simp, by norm_num⟩

theorem couette_allowed : AllowsShear slipLayout couetteTable slipAxes 0 1 (1 : ℚ) 2 := by
  refine ⟨by decide, by decide, by decide, rfl, ?_, ?_, ?_⟩
  · intro loc hl
    left
    have : loc = 2 ∨ loc = 3 := by omega
    rcases this with rfl | rfl <;> decide +kernel
  · intro loc hl h hp
    change loc < 4 at hl
    interval_cases loc <;> first | exact absurd rfl h | cases hp
  · intro f loc hf hfg hl hp
    change f < 2 at hf
    change loc < 4 at hl
    have : f = 1 := by omega
    subst this
    left
    interval_cases loc <;> first | rfl | cases hp

/-- C104: runs of any length between two moving walls that meet the hypotheses, on a stretched mesh, with two processes,
Adams-Bashforth and Crank-Nicolson terms. -/
example : ∃ (B : ℕ → Boundary ℚ) (ops : NSOps ℚ) (s : NSState ℚ) (d : Disk ℚ) (x : ℕ → NSState ℚ),
    Started true slipLayout slipGeom slipAxes couetteTable B (boxParams (1 / 4) 1 adamsBashforth2 crankNicolson)
      (some ⟨some 1, some [fun _ y _ _ _ => 1 + 2 * y, fun _ _ _ _ _ => 0], none⟩) ops (fun _ => none) s d ∧ x 0 = s ∧
    (∀ n, Trajectory slipLayout slipGeom (boxParams (1 / 4) 1 adamsBashforth2 crankNicolson) ops (exactSolve slipLayout.UN)
      (exactSolve slipLayout.pN) x n) ∧
    (∀ f d, f < slipLayout.dim → d < slipLayout.dim → slipLayout.periodic 0 d = true → 3 ≤ slipLayout.n f d) ∧
    (∀ f loc, f < slipLayout.dim → loc / 2 = f → (couetteTable f loc).1 ≠ .NEUMANN) ∧
    Solves slipLayout.UN (exactSolve slipLayout.UN) ops.A ∧ Solves slipLayout.pN (exactSolve slipLayout.pN) ops.DBNG ∧
    AllowsShear slipLayout couetteTable slipAxes 0 1 (1 : ℚ) 2 ∧
    ∀ f ex, f < slipLayout.dim → ([fun _ y _ _ _ => 1 + 2 * y, fun _ _ _ _ _ => 0] : List (Expr ℚ))[f]? = some ex →
      ∀ q : ℕ → ℚ, ex (q 0) (q 1) (q 2) 0 1 = if f = 0 then 1 + 2 * q 1 else 0 := by
  obtain ⟨B, C⟩ := couette_constructed
  obtain ⟨ops, s, d, S⟩ := C60_start (P := boxParams (1 / 4) 1 adamsBashforth2 crankNicolson) C 1
    [fun _ y _ _ _ => 1 + 2 * y, fun _ _ _ _ _ => 0] none (le_refl 2) (by decide)
    ⟨false, "out", some (boxNode (1 / 4) "ADAMS_BASHFORTH_2" "CRANK_NICOLSON"), rfl⟩ (le_refl 1) rfl (fun _ => none)
  have hn : ∀ f d, f < slipLayout.dim → d < slipLayout.dim → slipLayout.periodic 0 d = true → 3 ≤ slipLayout.n f d := by
    intro f d hf hd
    change f < 2 at hf
    change d < 2 at hd
    interval_cases f <;> interval_cases d <;> decide
  have hT : ∀ f loc, f < slipLayout.dim → loc / 2 = f → (couetteTable f loc).1 ≠ .NEUMANN := by
    intro f loc hf hl
    change f < 2 at hf
    have : loc < 4 := by omega
    interval_cases loc <;> simp at hl <;> subst hl <;> simp [couetteTable]
  obtain ⟨x, x0, hx, -⟩ := C62_runs_partial S (vSolve := exactSolve slipLayout.UN) (pSolve := exactSolve slipLayout.pN)
    (fun f d hf hd hp => by have := hn f d hf hd hp; omega) (fun f loc hf hl => by
      change f < 2 at hf
      have : loc < 4 := by omega
      interval_cases loc <;> simp at hl <;> subst hl <;> simp [couetteTable]) (by decide +kernel) (Or.inl rfl) rfl (by norm_num [boxParams])
    (by norm_num [boxParams]) (exactSolve_finds _ _) (exactSolve_finds _ _) (exactSolve_solves _ _)
  refine ⟨B, ops, s, d, x, S, x0, hx, hn, hT, exactSolve_solves _ _, exactSolve_solves _ _, couette_allowed, ?_⟩
  intro f ex hf h q
  change f < 2 at hf
  interval_cases f <;> cases h <;> rfl

end PetIBM
