/-
Total momentum of the steps.
-/
import Verif.Props.Energy
import Verif.Props.MomentumBodies
import Verif.Spec.MomentumRun

set_option linter.unusedSectionVars false

namespace PetIBM

open Spec

variable {K : Type} [Field K] [LinearOrder K] [IsStrictOrderedRing K]
variable {L : Layout} {G : Geom K} {axes : ℕ → Axis K} {debug : Bool} {T : BCTable K} {B : ℕ → Boundary K} {P : NSParams K}

/-! ### Sums -/

theorem momentum_add (N : ℕ) (vol e x y : ℤ → K) : momentum N vol e (fun i => x i + y i) = momentum N vol e x + momentum N vol e y := by
  unfold momentum
  rw [← Finset.sum_add_distrib]
  exact Finset.sum_congr rfl fun i _ => by ring

theorem momentum_mul (N : ℕ) (vol e x : ℤ → K) (c : K) : momentum N vol e (fun i => c * x i) = c * momentum N vol e x := by
  unfold momentum
  rw [Finset.mul_sum]
  exact Finset.sum_congr rfl fun i _ => by ring

theorem momentum_zero (N : ℕ) (vol e : ℤ → K) : momentum N vol e (fun _ => 0) = 0 := by simp [momentum]

theorem momentum_congr {N : ℕ} {vol e x y : ℤ → K} (h : ∀ i : ℤ, 0 ≤ i → i < N → x i = y i) : momentum N vol e x = momentum N vol e y := by
  unfold momentum
  refine Finset.sum_congr rfl fun i hi => ?_
  have := Finset.mem_range.1 hi
  rw [h i (by omega) (by omega)]

theorem momentum_vec (N : ℕ) (vol e x : ℤ → K) : momentum N vol e (vec N x) = momentum N vol e x :=
  momentum_congr fun _ i0 i1 => if_pos ⟨i0, i1⟩

theorem momentum_terms {N : ℕ} {vol e : ℤ → K} (cs : List K) {l : List (ℤ → K)} (h : ∀ z ∈ l, momentum N vol e z = 0) :
    momentum N vol e (termSum cs l) = 0 := by
  induction cs generalizing l with
  | nil => exact (momentum_congr (y := fun _ => 0) fun i _ _ => by simp [termSum]).trans (momentum_zero N vol e)
  | cons c cs ih =>
    cases l with
    | nil => exact (momentum_congr (y := fun _ => 0) fun i _ _ => by simp [termSum]).trans (momentum_zero N vol e)
    | cons z l =>
      rw [show termSum (c :: cs) (z :: l) = fun i => (fun i => c * z i) i + termSum cs l i from funext fun i => by simp [termSum], momentum_add,
        momentum_mul, h z (by simp), ih fun z hz => h z (by simp [hz])]
      ring

/-- A self-adjoint matrix that multiplies `e` by `c` multiplies the momentum by `c`. -/
theorem momentum_symm {N : ℕ} {vol e : ℤ → K} {M : Mat K} {c : K}
    (hs : ∀ x y : ℤ, 0 ≤ x → x < N → 0 ≤ y → y < N → vol x * M x y = vol y * M y x)
    (he : ∀ i : ℤ, 0 ≤ i → i < N → Mat.mult N M e i = c * e i) (x : ℤ → K) : momentum N vol e (Mat.mult N M x) = c * momentum N vol e x := by
  have h : momentum N vol e (Mat.mult N M x) = ∑ j ∈ Finset.range N, vol j * Mat.mult N M e j * x j := by
    unfold momentum Mat.mult
    simp only [Finset.mul_sum, Finset.sum_mul]
    rw [Finset.sum_comm]
    refine Finset.sum_congr rfl fun j hj => Finset.sum_congr rfl fun i hi => ?_
    have hi := Finset.mem_range.1 hi
    have hj := Finset.mem_range.1 hj
    have := hs i j (by omega) (by omega) (by omega) (by omega)
    linear_combination e i * x j * this
  rw [h]
  unfold momentum
  rw [Finset.mul_sum]
  refine Finset.sum_congr rfl fun j hj => ?_
  have hj := Finset.mem_range.1 hj
  rw [he j (by omega) (by omega)]
  ring

/-- The approximate inverse of an operator that annihilates `e` multiplies it by the step. -/
theorem bn_annihilated {N : ℕ} {Op BN : Mat K} {dt c : K} {m : ℤ} (h : createBnHead N Op dt c m = .ok BN) {e : ℤ → K}
    (he : ∀ i : ℤ, 0 ≤ i → i < N → Mat.mult N Op e i = 0) {i : ℤ} (i0 : 0 ≤ i) (i1 : i < N) : Mat.mult N BN e i = dt * e i := by
  unfold createBnHead at h
  split_ifs at h
  cases h
  have h0 : (Op.toM N N).mulVec (onFin N e) = 0 := by
    funext j
    rw [mulVec_onFin]
    exact he j (by omega) (by omega)
  have hp : ∀ t : ℕ, (((dt * c) • Op.toM N N) ^ t).mulVec (onFin N e) = if t = 0 then onFin N e else 0 := by
    intro t
    cases t with
    | zero => simp
    | succ t => rw [pow_succ, ← Matrix.mulVec_mulVec, Matrix.smul_mulVec, h0]; simp
  have := mulVec_onFin N ((List.range (m.toNat - 1)).foldl (fun B t => Mat.axpy B (dt ^ (t + 2) * c ^ (t + 2 - 1)) (leftProducts N Op Op (t + 2)))
      (Mat.shift (fun _ _ => 0) dt)) e ⟨i.toNat, by omega⟩
  rw [bnHead_toM, Matrix.smul_mulVec, Matrix.sum_mulVec, Finset.sum_congr rfl fun t _ => hp t] at this
  simp only [Finset.sum_ite_eq', Finset.mem_range, Nat.succ_pos, if_true, Pi.smul_apply, smul_eq_mul, onFin, Int.toNat_of_nonneg i0] at this
  exact this.symm

/-! ### A uniform velocity along the walls -/

theorem Spec.FreeAlong.closed {f : ℕ} (hw : FreeAlong L T f) : AllClosed L T := fun loc hl hp => (hw.2 loc hl hp).1

/-- The ghost points of a velocity that slips repeat the value at their neighbours. -/
theorem slip_coeffs (C : Constructed debug L G axes T B) {f : ℕ} (hw : FreeAlong L T f) {h : List (Boundary.Op K)} (hi : Initialised h) {r loc : ℕ}
    {s : Stencil} {b : SingleBoundary K} {p : GhostPointInfo K} (hr : r < L.mpiSize) (hp : Point ((B r).run h) f loc s b p) : p.a0 = 1 ∧ p.a1 = 0 := by
  have hL := C.setup.layout
  obtain ⟨b0, p0, hp0, rfl, rfl⟩ := point_run hp
  obtain ⟨hf, hloc, h1, h2, h3, h4, good⟩ := point_boundaryInit hL (C.init _ hr) C.pos hp0
  have hper : L.periodic 0 (loc / 2) = false := (C.ghosts h).periodic r f loc s _ _ hr hp
  have ht := (hw.2 loc hloc hper).2
  rw [ht] at h3 h4
  obtain ⟨c0, _, c2⟩ := pointRun_coeffs b0 h hi p0 (by rw [h3]; simp) (by rw [h3]; simp)
  refine ⟨?_, by rw [c2 h3, h4]; simp⟩
  rw [c0, h3]
  rfl

/-- The velocity `c` along `f`, nothing in the other directions, with its values beyond the walls. -/
theorem uniform_extended (C : Constructed debug L G axes T B) {f : ℕ} (hw : FreeAlong L T f) {h : List (Boundary.Op K)} (hi : Initialised h)
    {e : ℤ → K} (he : IsComponent debug L f e) :
    ∃ V : ℕ → Stencil → K, ∀ c : K, Extended debug L (fun r => (B r).run h) (fun i => c * e i) fun g s => if g = f then c else V g s := by
  obtain ⟨V, hV⟩ := exists_extended C.setup.layout (C.ghosts h) fun _ => (0 : K)
  refine ⟨V, fun c => ⟨fun g hg => ⟨fun s idx hs hidx => ?_, fun s d x hd hs hp hx => ?_⟩, fun r g loc s b p hr hp => ?_⟩⟩
  · rw [he g s idx hg hs hidx]
    split_ifs with h
    · simp
    · rw [(hV.stored g hg).inside s idx hs hidx]; simp
  · split_ifs with h
    · rfl
    · exact (hV.stored g hg).periodic s d x hd hs hp hx
  · by_cases hgf : g = f
    · subst hgf
      obtain ⟨a, b⟩ := slip_coeffs C hw hi hr hp
      rw [if_pos rfl, if_pos rfl, a, b]; ring
    · rw [if_neg hgf, if_neg hgf]
      exact hV.ghost r g loc s b p hr hp

/-- The Laplacian annihilates a uniform velocity, and the walls add nothing to the equations of its direction. -/
theorem uniform_laplacian (C : Constructed debug L G axes T B) {f : ℕ} (hw : FreeAlong L T f)
    (hn : ∀ f d, f < L.dim → d < L.dim → L.periodic 0 d = true → 3 ≤ L.n f d) {h : List (Boundary.Op K)} (hi : Initialised h)
    {La : Mat K} {Lm : Modifiers K} (hA : createLaplacian debug L G (fun r => (B r).run h) = .ok (La, Lm)) {e : ℤ → K}
    (he : IsComponent debug L f e) {i : ℤ} (i0 : 0 ≤ i) (i1 : i < L.UN) :
    Mat.mult L.UN La e i = 0 ∧ ∀ h', e i * correctionMult L (fun r => (B r).run (h ++ h')) Lm i = 0 := by
  obtain ⟨A', m', e', key⟩ := C22_laplacian_of_extended_field_partial C hn h hi
  rw [hA] at e'
  cases e'
  obtain ⟨u, hu, rfl⟩ := col_surj C.setup.layout i0 i1
  have hidx := (col_inside C.setup.layout (Or.inl hu.1) debug hu.inside).1
  obtain ⟨v, k, rfl⟩ := hi
  have zero : ∀ c : K, Mat.mult L.UN La (fun i => c * e i) (col L u.comp u.st) = c * Mat.mult L.UN La e (col L u.comp u.st) := by
    intro c
    unfold Mat.mult
    rw [Finset.mul_sum]
    exact Finset.sum_congr rfl fun j _ => by ring
  have row : ∀ h' (c : K), ∃ V : ℕ → Stencil → K, c * Mat.mult L.UN La e (col L u.comp u.st) +
      correctionMult L (fun r => (B r).run (Boundary.Op.setGhostICs v :: k ++ h')) Lm (col L u.comp u.st) =
        (if u.comp = f then 0 else ∑ d ∈ Finset.range L.dim, secondDifference G u.comp d u.st (V u.comp)) ∧
      0 * Mat.mult L.UN La e (col L u.comp u.st) +
      correctionMult L (fun r => (B r).run (Boundary.Op.setGhostICs v :: k ++ h')) Lm (col L u.comp u.st) =
        (if u.comp = f then 0 else ∑ d ∈ Finset.range L.dim, secondDifference G u.comp d u.st (V u.comp)) := by
    intro h' c
    obtain ⟨V, hV⟩ := uniform_extended C hw (h := Boundary.Op.setGhostICs v :: k ++ h') ⟨v, k ++ h', by simp⟩ he
    have at' : ∀ c : K, c * Mat.mult L.UN La e (col L u.comp u.st) +
        correctionMult L (fun r => (B r).run (Boundary.Op.setGhostICs v :: k ++ h')) Lm (col L u.comp u.st) =
          (if u.comp = f then 0 else ∑ d ∈ Finset.range L.dim, secondDifference G u.comp d u.st (V u.comp)) := by
      intro c
      have := key h' _ _ (hV c) _ _ _ hu.1 hu.inside hidx
      rw [zero] at this
      rw [this]
      split_ifs with hf
      · simp [secondDifference]
      · rfl
    exact ⟨V, at' c, at' 0⟩
  refine ⟨?_, fun h' => ?_⟩
  · obtain ⟨V, a, b⟩ := row [] 1
    rw [← b] at a
    linear_combination a
  · rw [he _ _ _ hu.1 hu.inside hidx]
    split_ifs with hf
    · obtain ⟨V, a, b⟩ := row h' 0
      rw [if_pos hf, zero_mul, zero_add] at a
      rw [a, mul_zero]
    · rw [zero_mul]

/-- A uniform velocity has no divergence. -/
theorem uniform_divergence (C : Constructed debug L G axes T B) {f : ℕ} (hw : FreeAlong L T f)
    (hn : ∀ f, f < L.dim → L.periodic 0 f = true → 2 ≤ L.n f f) {h : List (Boundary.Op K)} (hi : Initialised h)
    {D : Mat K} {Dm : Modifiers K} (hD : createDivergence debug L G false (fun r => (B r).run h) = .ok (D, Dm)) {e : ℤ → K}
    (he : IsComponent debug L f e) {i : ℤ} (i0 : 0 ≤ i) (i1 : i < L.pN) : Mat.mult L.UN D e i = 0 := by
  obtain ⟨A', m', e', key⟩ := C21_divergence_is_net_flux_partial C hn h hi
  rw [hD] at e'
  cases e'
  obtain ⟨s, hs, rfl⟩ := pressure_surj C.setup.layout i0 i1
  have hidx := (col_inside C.setup.layout (Or.inr rfl) debug hs).1
  obtain ⟨V, hV⟩ := uniform_extended C hw hi he
  have a := key [] (fun i => 1 * e i) _ (by rw [List.append_nil]; exact hV 1) s _ hs hidx
  have b := key [] (fun i => 0 * e i) _ (by rw [List.append_nil]; exact hV 0) s _ hs hidx
  have : netFlux L.dim G s (fun g t => if g = f then (1 : K) else V g t) = netFlux L.dim G s (fun g t => if g = f then (0 : K) else V g t) := by
    unfold netFlux
    refine Finset.sum_congr rfl fun g _ => ?_
    dsimp only
    split_ifs <;> ring
  rw [this, ← b] at a
  have z : Mat.mult L.UN D (fun i => 0 * e i) (col L 3 s) = 0 := by simp [Mat.mult]
  have o : Mat.mult L.UN D (fun i => 1 * e i) (col L 3 s) = Mat.mult L.UN D e (col L 3 s) := by simp [Mat.mult]
  rw [z, o] at a
  linear_combination a

/-- The gradient of a pressure has no momentum. -/
theorem gradient_momentum (C : Constructed debug L G axes T B) {f : ℕ} (hw : FreeAlong L T f)
    (hn : ∀ f, f < L.dim → L.periodic 0 f = true → 2 ≤ L.n f f) {h : List (Boundary.Op K)} (hi : Initialised h)
    {D Gr : Mat K} {Dm : Modifiers K} (hD : createDivergence debug L G false (fun r => (B r).run h) = .ok (D, Dm))
    (hG : createGradient debug L G false = .ok Gr) {vol : ℤ → K} (hvol : IsVolume debug L G vol) {e : ℤ → K}
    (he : IsComponent debug L f e) (p : ℤ → K) : momentum L.UN vol e (Mat.mult L.pN Gr p) = 0 := by
  have hT : ∀ f loc, f < L.dim → loc / 2 = f → (T f loc).1 ≠ .NEUMANN := by
    intro f loc hf hl
    by_cases hp : L.periodic 0 f = true
    · rw [(C.table f loc hf (by omega)).2 (by rw [hl]; exact hp)]; simp
    · have := hw.closed loc (by omega) (by rw [hl]; simpa using hp)
      unfold Closed at this
      rw [hl] at this
      rw [this]; simp
  exact gradient_work (N := L.UN) (M := L.pN) (D := D) (fun a b a0 a1 b0 b1 => divergence_volume C hT h hi hD hG hvol a0 a1 b0 b1)
    (fun a a0 a1 => uniform_divergence C hw hn hi hD he a0 a1) p

/-- The convective term of a flow has no momentum. -/
theorem convection_momentum (C : Constructed debug L G axes T B) {f : ℕ} (hf : f < L.dim) (hw : FreeAlong L T f) {h : List (Boundary.Op K)}
    (hi : Initialised h) {q : ℤ → K} (hj : JustRefreshed h q) {vol : ℤ → K} (hvol : IsVolume debug L G vol) {e : ℤ → K}
    (he : IsComponent debug L f e) {z : ℤ → K} (hz : convectionMult L G (fun r => (B r).run h) (fun _ _ _ => 0) q (fun _ => 0) = .ok z) :
    momentum L.UN vol e z = 0 := by
  have S := C.setup
  have hL := S.layout
  have h3 := S.dim_le
  obtain ⟨z', hz', key⟩ := C24_momentum_balance_closed C h hi q q (fun _ => 0) hj f hf fun loc hl _ hp => hw.closed loc hl hp
  rw [hz] at hz'
  cases hz'
  obtain ⟨V, hV⟩ := exists_filled S C.part (C.ghosts h) q
  have e1 : momentum L.UN vol e z = gridSum L.toMeshInfo f fun s => volume G f s * z (col L f s) := by
    unfold momentum
    rw [velocity_sum hL fun i => vol i * e i * z i, Finset.sum_eq_single_of_mem f (Finset.mem_range.2 hf)]
    · apply gridSum_congr
      intro s hs
      rw [volume_of S hvol hf hs, he f s _ hf hs (col_inside hL (Or.inl hf) debug hs).1, if_pos rfl]
      ring
    · intro g hg hgf
      have hg := Finset.mem_range.1 hg
      refine (gridSum_congr fun s hs => ?_).trans gridSum_zero
      rw [he g s _ hg hs (col_inside hL (Or.inl hg) debug hs).1, if_neg hgf]
      ring
  rw [e1, key V (fun s => z (col L f s)) hV fun s idx hs hidx => by
    rw [(col_inside hL (Or.inl hf) debug hs).1] at hidx
    cases hidx
    rfl]
  refine Finset.sum_eq_zero fun d hd => ?_
  have hd := Finset.mem_range.1 hd
  split_ifs with hp
  · rfl
  · have hp : L.periodic 0 d = false := by simpa using hp
    have hdf : d ≠ f := by
      rintro rfl
      rw [hw.1] at hp
      cases hp
    obtain ⟨n1, _, n4⟩ := S.staggered d hd
    obtain ⟨m1, _, _⟩ := S.staggered f hf
    have n4 := n4 hp
    have hwall : ∀ t, t.c = 0 → (coordOf t d = -1 ∨ coordOf t d = L.n d d) →
        (∀ g, g < 3 → g ≠ d → 0 ≤ coordOf t g ∧ coordOf t g < L.n d g ∨ (g < L.dim ∧ L.periodic 0 g = true)) → V d t = 0 := by
      intro t hc ht he
      rcases ht with ht | ht
      · have := closed_wall C hi hj hV (loc := 2 * d) (t := t) (by omega) (by rw [show 2 * d / 2 = d by omega]; exact hp)
          (hw.closed _ (by omega) (by rw [show 2 * d / 2 = d by omega]; exact hp)) hc
        rw [show 2 * d / 2 = d by omega] at this
        exact this (by rw [ht, if_pos (by omega)]) he
      · have := closed_wall C hi hj hV (loc := 2 * d + 1) (t := t) (by omega) (by rw [show (2 * d + 1) / 2 = d by omega]; exact hp)
          (hw.closed _ (by omega) (by rw [show (2 * d + 1) / 2 = d by omega]; exact hp)) hc
        rw [show (2 * d + 1) / 2 = d by omega] at this
        exact this (by rw [ht, if_neg (by omega)]) he
    unfold layerSum
    refine (gridSum_congr fun s hs => ?_).trans gridSum_zero
    split_ifs
    · have flux : ∀ x : ℤ, (x = -1 ∨ x = L.n d d) → momentumFlux V f d (along s d x) = 0 := by
        intro x hx
        have hc : ∀ t d' (y : ℤ), (along t d' y).c = t.c := fun t d' y => by unfold along; split_ifs <;> rfl
        have z1 : V d (along s d x) = 0 := by
          refine hwall _ ((hc _ _ _).trans hs.2) (by rw [coordOf_along _ _ _ _ (by omega) (by omega), if_pos rfl]; exact hx) fun g hg hgd => ?_
          rw [coordOf_along _ _ _ _ (by omega) hg, if_neg hgd]
          by_cases hgf : g = f
          · subst hgf
            exact Or.inr ⟨hf, hw.1⟩
          · have := hs.1 g hg
            rw [n1 g hg hgd, ← m1 g hg hgf]
            exact Or.inl this
        have z2 : V d (shift (along s d x) f 1) = 0 := by
          unfold shift
          refine hwall _ ((hc _ _ _).trans ((hc _ _ _).trans hs.2)) ?_ fun g hg hgd => ?_
          · rw [coordOf_along _ _ _ _ (by omega) (by omega), if_neg hdf, coordOf_along _ _ _ _ (by omega) (by omega), if_pos rfl]
            exact hx
          · rw [coordOf_along _ _ _ _ (by omega) hg]
            by_cases hgf : g = f
            · subst hgf
              exact Or.inr ⟨hf, hw.1⟩
            · rw [if_neg hgf, coordOf_along _ _ _ _ (by omega) hg, if_neg hgd]
              have := hs.1 g hg
              rw [n1 g hg hgd, ← m1 g hg hgf]
              exact Or.inl this
        unfold momentumFlux
        rw [z1, z2]
        ring
      have := m1 d (by omega) hdf
      dsimp only
      rw [show (L.n f d : ℤ) - 1 = L.n d d by omega, flux _ (Or.inr rfl), flux _ (Or.inl rfl)]
      ring
    · rfl

/-! ### Steps -/

/-- The stored terms that were computed in the run have no momentum. -/
def TermsAtRest (N : ℕ) (vol e : ℤ → K) (Z : Prop) (k : ℕ) (l : List (ℤ → K)) : Prop :=
  ∀ i z, l[i]? = some z → (i < k ∨ Z) → momentum N vol e z = 0

theorem TermsAtRest.push {N : ℕ} {vol e : ℤ → K} {Z : Prop} {k : ℕ} {l : List (ℤ → K)} (h : TermsAtRest N vol e Z k l) {z : ℤ → K}
    (hz : momentum N vol e z = 0) : TermsAtRest N vol e Z (k + 1) (pushTerm l z) := by
  intro i y hy hi
  cases l with
  | nil => simp [pushTerm] at hy
  | cons a t =>
    cases i with
    | zero =>
      simp only [pushTerm, List.getElem?_cons_zero, Option.some.injEq] at hy
      rw [← hy]
      exact hz
    | succ i =>
      simp only [pushTerm, List.getElem?_cons_succ, List.getElem?_dropLast] at hy
      split_ifs at hy
      exact h i y hy (by rcases hi with h | h; exacts [Or.inl (by omega), Or.inr h])

theorem TermsAtRest.start {N : ℕ} {vol e : ℤ → K} {m : ℕ} {l : List (ℤ → K)} :
    TermsAtRest N vol e (l = List.replicate m fun _ => 0) 0 l := by
  intro i y hy hi
  rcases hi with h | h
  · omega
  · rw [h] at hy
    have := List.mem_of_getElem? hy
    rw [(List.mem_replicate.1 this).2]
    exact momentum_zero ..

theorem TermsAtRest.all {N : ℕ} {vol e : ℤ → K} {Z : Prop} {k : ℕ} {l : List (ℤ → K)} (h : TermsAtRest N vol e Z k l)
    (hk : Z ∨ l.length ≤ k) {z : ℤ → K} (hz : z ∈ l) : momentum N vol e z = 0 := by
  obtain ⟨i, hi, rfl⟩ := List.getElem_of_mem hz
  refine h i _ (List.getElem?_eq_getElem hi) ?_
  rcases hk with hk | hk
  · exact Or.inr hk
  · exact Or.inl (by omega)

/-- What the operators of the solvers do to the momentum. -/
structure Conserving (N : ℕ) (vol e : ℤ → K) (L : Layout) (B : ℕ → Boundary K) (P : NSParams K) (ops : NSOps K) (u : ℤ → K) : Prop where
  laplacian : ∀ x, momentum N vol e (Mat.mult N ops.L x) = 0
  correction : ∀ h, momentum N vol e (correctionMult L (fun r => (B r).run ([.setGhostICs u] ++ h)) ops.Lmods) = 0
  system : ∀ x, momentum N vol e (Mat.mult N ops.A x) = 1 / P.dt * momentum N vol e x
  inverse : ∀ BN, createBnHead N ops.L P.dt (P.diff.implicitCoeff * P.nu) P.BN = .ok BN → ∀ x, momentum N vol e (Mat.mult N BN x) = P.dt * momentum N vol e x

theorem mult_system (N : ℕ) (La : Mat K) (a b : K) (x : ℤ → K) {i : ℤ} (i0 : 0 ≤ i) (i1 : i < N) :
    Mat.mult N (Mat.shift (Mat.scale La a) b) x i = b * x i + a * Mat.mult N La x i := by
  unfold Mat.mult Mat.shift Mat.scale
  have : ∀ c ∈ Finset.range N, (if i = (c : ℤ) then a * La i c + b else a * La i c) * x c = (if c = i.toNat then b * x c else 0) + a * (La i c * x c) := by
    intro c _
    by_cases hc : i = (c : ℤ)
    · rw [if_pos hc, if_pos (by omega)]; ring
    · rw [if_neg hc, if_neg (by omega)]; ring
  rw [Finset.sum_congr rfl this, Finset.sum_add_distrib, ← Finset.mul_sum, Finset.sum_ite_eq', if_pos (Finset.mem_range.2 (by omega)),
    show ((i.toNat : ℕ) : ℤ) = i by omega]

theorem conserving (C : Constructed debug L G axes T B) {f : ℕ} (hw : FreeAlong L T f)
    (hn : ∀ f d, f < L.dim → d < L.dim → L.periodic 0 d = true → 3 ≤ L.n f d) {vol : ℤ → K} (hvol : IsVolume debug L G vol) {e : ℤ → K}
    (he : IsComponent debug L f e) {ops : NSOps K} {u : ℤ → K}
    (hLa : createLaplacian debug L G (fun r => (B r).run [.setGhostICs u]) = .ok (ops.L, ops.Lmods))
    (hA : ops.A = Mat.shift (Mat.scale ops.L (-P.diff.implicitCoeff * P.nu)) (1 / P.dt)) : Conserving L.UN vol e L B P ops u := by
  have hi : Initialised [Boundary.Op.setGhostICs u] := ⟨u, [], rfl⟩
  have hz := fun (i : ℤ) (i0 : 0 ≤ i) (i1 : i < L.UN) => uniform_laplacian C hw hn hi hLa he i0 i1
  have hs := fun (x y : ℤ) (x0 : 0 ≤ x) (x1 : x < L.UN) (y0 : 0 ≤ y) (y1 : y < L.UN) =>
    laplacian_symm C.setup (C.ghosts [.setGhostICs u]) hn hLa hvol x0 x1 y0 y1
  have lap : ∀ x, momentum L.UN vol e (Mat.mult L.UN ops.L x) = 0 := fun x => by
    rw [momentum_symm (c := 0) hs (fun i i0 i1 => by rw [(hz i i0 i1).1, zero_mul]) x, zero_mul]
  refine ⟨lap, fun h => ?_, fun x => ?_, fun BN hB x => ?_⟩
  · unfold momentum
    refine Finset.sum_eq_zero fun i hi => ?_
    have hi := Finset.mem_range.1 hi
    rw [mul_assoc, (hz i (by omega) (by omega)).2 h, mul_zero]
  · rw [hA, momentum_congr fun i i0 i1 => mult_system L.UN ops.L _ _ x i0 i1, momentum_add, momentum_mul, momentum_mul, lap]
    ring
  · exact momentum_symm (M := BN) (fun x y x0 x1 y0 y1 => bn_symm hB hs x0 x1 y0 y1) (fun i i0 i1 => bn_annihilated hB (fun i i0 i1 => (hz i i0 i1).1) i0 i1) x

/-- What a step computes before the projection: only the pressure and the forces change the momentum. -/
theorem system_momentum {vol e u : ℤ → K} {ops : NSOps K} (Q : Conserving L.UN vol e L B P ops u) (hdt : P.dt ≠ 0) {s : NSState K}
    (R : Reach L B P ops.pN u s) {conv diff : List (ℤ → K)} (hc : ∀ z ∈ conv, momentum L.UN vol e z = 0) (hd : ∀ z ∈ diff, momentum L.UN vol e z = 0)
    {U F : ℤ → K} (hU : ∀ i : ℤ, 0 ≤ i → i < L.UN → Mat.mult L.UN ops.A U i = momentumRhs L P ops s conv diff i + F i) :
    momentum L.UN vol e U = momentum L.UN vol e s.U + P.dt * (momentum L.UN vol e F - momentum L.UN vol e (Mat.mult ops.pN ops.G s.p)) := by
  obtain ⟨h, hB, -⟩ := R.hist
  have e0 := Q.system U
  have hcorr : momentum L.UN vol e (fun i => P.diff.implicitCoeff *
      vec L.UN (fun i => P.nu * correctionMult L (fun r => (s.B r).updateEqs s.U P.dt) ops.Lmods i) i) = 0 := by
    have hBe : (fun r => (B r).run ([.setGhostICs u] ++ (h ++ [.updateEqs s.U P.dt]))) = fun r => (s.B r).updateEqs s.U P.dt := by
      funext r
      simp only [hB, Boundary.run, List.foldl_append]
      rfl
    rw [momentum_mul, momentum_vec, momentum_mul, ← hBe, Q.correction]
    ring
  rw [momentum_congr hU, momentum_add] at e0
  have e1 : momentum L.UN vol e (momentumRhs L P ops s conv diff) =
      -momentum L.UN vol e (Mat.mult ops.pN ops.G s.p) + 1 / P.dt * momentum L.UN vol e s.U := by
    unfold momentumRhs
    rw [momentum_add, momentum_add, momentum_add, momentum_add, hcorr, momentum_terms _ hc, momentum_terms _ hd, momentum_mul, momentum_vec, momentum_mul]
    ring
  rw [e1] at e0
  field_simp at e0
  linear_combination -e0

/-- The terms that a step uses have no momentum, if it uses none from before the run. -/
theorem terms_momentum (C : Constructed debug L G axes T B) (hc : P.conv.explicitCoeffs.length = P.conv.nExplicit)
    (hd : P.diff.explicitCoeffs.length = P.diff.nExplicit) {f : ℕ} (hf : f < L.dim) (hw : FreeAlong L T f) {vol : ℤ → K}
    (hvol : IsVolume debug L G vol) {e : ℤ → K} (he : IsComponent debug L f e) {ops : NSOps K} {u : ℤ → K} (Q : Conserving L.UN vol e L B P ops u)
    {x : ℕ → NSState K} {k : ℕ} (R : ∀ m, m ≤ k → Reach L B P ops.pN u (x m))
    (hadv : ∀ m, m < k → ∃ s : LinSolve K × LinSolve K, advance L G P ops s.1 s.2 (x m) = .ok (x (m + 1)))
    (hstart : Known P k (x 0).conv (x 0).diff) {w : ℤ → K}
    (hz : convectionMult L G (x k).B (fun _ _ _ => 0) (x k).U (fun _ => 0) = .ok w) :
    (∀ z ∈ pushTerm (x k).conv (fun i => -1 * w i), momentum L.UN vol e z = 0) ∧
      ∀ z ∈ pushTerm (x k).diff (diffTerm L P.nu ops (x k)), momentum L.UN vol e z = 0 := by
  have new : ∀ m, m ≤ k → (∀ w, convectionMult L G (x m).B (fun _ _ _ => 0) (x m).U (fun _ => 0) = .ok w →
      momentum L.UN vol e (fun i => -1 * w i) = 0) ∧ momentum L.UN vol e (diffTerm L P.nu ops (x m)) = 0 := by
    intro m hm
    obtain ⟨h, hB, hj⟩ := (R m hm).hist
    refine ⟨fun w hw' => ?_, ?_⟩
    · rw [hB] at hw'
      rw [momentum_mul, convection_momentum C hf hw ⟨u, h, rfl⟩ hj hvol he hw', mul_zero]
    · unfold diffTerm
      rw [momentum_vec, momentum_mul, momentum_add, Q.laplacian, hB, Q.correction]
      ring
  have inv : ∀ m, m ≤ k → TermsAtRest L.UN vol e ((x 0).conv = List.replicate P.conv.nExplicit fun _ => 0) m (x m).conv ∧
      TermsAtRest L.UN vol e ((x 0).diff = List.replicate P.diff.nExplicit fun _ => 0) m (x m).diff := by
    intro m
    induction m with
    | zero => intro _; exact ⟨.start, .start⟩
    | succ m ih =>
      intro hm
      obtain ⟨i1, i2⟩ := ih (by omega)
      obtain ⟨sv, ha⟩ := hadv m (by omega)
      obtain ⟨w, U, dP, h1, _, _, _, _, _, h7, h8, _⟩ := advance_ok C hc hd (R m (by omega)) ha
      obtain ⟨n1, n2⟩ := new m (by omega)
      rw [h7, h8]
      exact ⟨i1.push (n1 w h1), i2.push n2⟩
  obtain ⟨i1, i2⟩ := inv k le_rfl
  obtain ⟨n1, n2⟩ := new k le_rfl
  refine ⟨fun z hz' => (i1.push (n1 w hz)).all ?_ hz', fun z hz' => (i2.push n2).all ?_ hz'⟩
  · rw [length_pushTerm, (R k le_rfl).nconv]
    exact hstart.1
  · rw [length_pushTerm, (R k le_rfl).ndiff]
    exact hstart.2

end PetIBM
