/-
C87: complete runs with prescribed motion, and continuing them from a file.
-/
import Verif.Spec.RigidRun
import Verif.Props.IbpmRestart
import Verif.Props.Motion

set_option linter.unusedSectionVars false

namespace PetIBM

open Spec

variable {K : Type} [Field K] [LinearOrder K] [IsStrictOrderedRing K]
variable {debug : Bool} {L : Layout} {G : Geom K} {axes : ℕ → Axis K} {T : BCTable K} {B : ℕ → Boundary K}
variable {P : NSParams K} {flow : Option (FlowNode K)} {bodies : BodyPack K} {kernel : DeltaKernel K} {window : ℕ} {ops : NSOps K} {ib : IBOps K}
variable {disk disk' : Disk K} {vSolve fSolve pSolve : LinSolve K} {fmt : K → List Char} {n : ℕ}
variable {M : Motion K} {names : List String} {s : RigidState K} {x : ℕ → RigidState K}

/-! ### The loop -/

section

variable {adv : RigidState K → Except Error (RigidState K)} {write : RigidState K → Disk K → TextDisk → Except Error (Disk K × TextDisk)}

theorem rigidLoop_more : ∀ (f g : ℕ) (s : RigidState K) (disk : Disk K) (text : TextDisk) r, rigidLoop P adv write f s disk text = some r → f ≤ g →
    rigidLoop P adv write g s disk text = some r := by
  intro f
  induction f with
  | zero =>
    intro g s disk text r h _
    unfold rigidLoop at h ⊢
    split_ifs at h ⊢ with hf
    exact h
  | succ f ih =>
    intro g s disk text r h hg
    obtain ⟨g, rfl⟩ : ∃ g', g = g' + 1 := ⟨g - 1, by omega⟩
    unfold rigidLoop at h ⊢
    split_ifs at h ⊢ with hf
    · exact h
    · cases ha : adv s with
      | error e => simpa [ha] using h
      | ok s₁ =>
        simp only [ha] at h ⊢
        cases hw : write s₁ disk text with
        | error e => simpa [hw] using h
        | ok d₁ =>
          simp only [hw] at h ⊢
          exact ih g s₁ _ _ r h (by omega)

theorem rigidLoop_spec {I : RigidState K → Prop} (hI : ∀ s s', I s → adv s = .ok s' → I s' ∧ s'.ns.ite = s.ns.ite + 1)
    (hw : ∀ s disk text, I s → ∃ d t, write s disk text = .ok (d, t)) :
    ∀ (n fuel : ℕ) (s : RigidState K) (disk : Disk K) (text : TextDisk), I s → (P.nstart + P.nt - s.ns.ite).toNat = n → n ≤ fuel →
      ∃ r, rigidLoop P adv write fuel s disk text = some r ∧
        (∀ s' d text', r = .ok (s', d, text') → ∃ (x : ℕ → RigidState K) (e : ℕ → Disk K) (g : ℕ → TextDisk), x 0 = s ∧ e 0 = disk ∧ g 0 = text ∧
          (∀ k, k < n → adv (x k) = .ok (x (k + 1))) ∧ (∀ k, k < n → write (x (k + 1)) (e k) (g k) = .ok (e (k + 1), g (k + 1))) ∧
          x n = s' ∧ e n = d ∧ g n = text') ∧
        ∀ err, r = .error err → ∃ (x : ℕ → RigidState K) (k : ℕ), x 0 = s ∧ k < n ∧ (∀ j, j < k → adv (x j) = .ok (x (j + 1))) ∧ adv (x k) = .error err := by
  intro n
  induction n with
  | zero =>
    intro fuel s disk text _ hn _
    have hf : finished P s.ns = true := by unfold finished; simp; omega
    refine ⟨.ok (s, disk, text), ?_, ?_, ?_⟩
    · unfold rigidLoop
      rw [if_pos hf]
    · rintro s' d t' ⟨⟩
      exact ⟨fun _ => s, fun _ => disk, fun _ => text, rfl, rfl, rfl, fun k hk => absurd hk (by omega), fun k hk => absurd hk (by omega), rfl, rfl, rfl⟩
    · rintro err ⟨⟩
  | succ n ih =>
    intro fuel s disk text hs hn hfuel
    have hf : finished P s.ns = false := by unfold finished; simp; omega
    obtain ⟨fuel, rfl⟩ : ∃ f, fuel = f + 1 := ⟨fuel - 1, by omega⟩
    cases ha : adv s with
    | error e =>
      refine ⟨.error e, ?_, ?_, ?_⟩
      · unfold rigidLoop
        rw [if_neg (by rw [hf]; simp)]
        simp only [ha]
      · rintro s' d t' ⟨⟩
      · rintro err ⟨⟩
        exact ⟨fun _ => s, 0, rfl, by omega, fun k hk => absurd hk (by omega), ha⟩
    | ok s₁ =>
      obtain ⟨hs1, hi⟩ := hI s s₁ hs ha
      obtain ⟨disk₁, text₁, hw1⟩ := hw s₁ disk text hs1
      obtain ⟨r, hr, hok, herr⟩ := ih fuel s₁ disk₁ text₁ hs1 (by omega) (by omega)
      have shift : ∀ {x : ℕ → RigidState K} {m : ℕ}, x 0 = s₁ → (∀ k, k < m → adv (x k) = .ok (x (k + 1))) →
          ∀ k, k < m + 1 → adv ((fun k => if k = 0 then s else x (k - 1)) k) = .ok ((fun k => if k = 0 then s else x (k - 1)) (k + 1)) := by
        intro x m hx0 hx k hk
        cases k with
        | zero => simp only [if_true]; rw [ha]; simp [hx0]
        | succ k => simpa using hx k (by omega)
      refine ⟨r, ?_, ?_, ?_⟩
      · rw [← hr]
        conv_lhs => unfold rigidLoop
        rw [if_neg (by rw [hf]; simp)]
        simp only [ha, hw1]
      · intro s' d t' h
        obtain ⟨x, e, g, x0, e0, g0, hx, hW, xn, en, gn⟩ := hok s' d t' h
        refine ⟨fun k => if k = 0 then s else x (k - 1), fun k => if k = 0 then disk else e (k - 1), fun k => if k = 0 then text else g (k - 1),
          rfl, rfl, rfl, shift x0 hx, ?_, by simpa using xn, by simpa using en, by simpa using gn⟩
        intro k hk
        cases k with
        | zero => simp [x0, e0, g0, hw1]
        | succ k => simpa using hW k (by omega)
      · intro err h
        obtain ⟨x, k, x0, hk, hx, he⟩ := herr err h
        exact ⟨fun k => if k = 0 then s else x (k - 1), k + 1, rfl, by omega, shift x0 hx, by simpa using he⟩

theorem rigidLoop_ok {I : RigidState K → Prop} (hI : ∀ s s', I s → adv s = .ok s' → I s' ∧ s'.ns.ite = s.ns.ite + 1)
    (hw : ∀ s disk text, I s → ∃ d t, write s disk text = .ok (d, t)) {n fuel : ℕ} {s s' : RigidState K} {disk d : Disk K} {text text' : TextDisk}
    (hs : I s) (hn : (P.nstart + P.nt - s.ns.ite).toNat = n) (hr : rigidLoop P adv write fuel s disk text = some (.ok (s', d, text'))) :
    ∃ (x : ℕ → RigidState K) (e : ℕ → Disk K) (g : ℕ → TextDisk), x 0 = s ∧ e 0 = disk ∧ g 0 = text ∧
          (∀ k, k < n → adv (x k) = .ok (x (k + 1))) ∧ (∀ k, k < n → write (x (k + 1)) (e k) (g k) = .ok (e (k + 1), g (k + 1))) ∧
          x n = s' ∧ e n = d ∧ g n = text' := by
  obtain ⟨r, hr', hok, _⟩ := rigidLoop_spec (P := P) hI hw n (max fuel n) s disk text hs hn (le_max_right _ _)
  rw [rigidLoop_more _ _ _ _ _ _ hr (le_max_left _ _)] at hr'
  cases hr'
  exact hok s' d text' rfl

end

/-! ### Steps and files -/

/-- what every state of a run satisfies -/
structure RigidState.Fits (L : Layout) (bodies : BodyPack K) (names : List String) (s : RigidState K) : Prop where
  fit : BodiesOK L s.bodies
  points : PointsOK s.bodies
  same : s.bodies.bodies.map (·.nPts) = bodies.bodies.map (·.nPts)
  nF : s.ib.nF = bodies.nPts * bodies.dim
  ite : 0 ≤ s.ns.ite

theorem nPts_map (b : BodyPack K) : b.nPts = (b.bodies.map (·.nPts)).foldl (· + ·) 0 := by
  unfold BodyPack.nPts
  rw [List.foldl_map]

theorem rigid_ite {s' : RigidState K} (h : rigidAdvance debug L G axes P ops M kernel window vSolve fSolve pSolve s = .ok s') :
    s'.ns.ite = s.ns.ite + 1 := decoupled_ite (rigid_ok h).2.2.2

theorem RigidState.Fits.step (hM : MovesPoints L M) (hb : bodies.dim = L.dim) {s' : RigidState K} (F : s.Fits L bodies names)
    (h : rigidAdvance debug L G axes P ops M kernel window vSolve fSolve pSolve s = .ok s') : s'.Fits L bodies names := by
  obtain ⟨e1, _, ⟨idx, e3, e4⟩, _⟩ := rigid_ok h
  have fit : BodiesOK L s'.bodies := e1 ▸ hM.ok _ _ F.fit
  have same : s'.bodies.bodies.map (·.nPts) = bodies.bodies.map (·.nPts) := by rw [e1, hM.same, F.same]
  refine ⟨fit, e1 ▸ hM.points _ _ F.fit F.points, same, ?_, by rw [rigid_ite h]; have := F.ite; omega⟩
  obtain ⟨⟨E, H⟩, _, e4⟩ := bind_ok e4
  obtain ⟨BN, _, e4⟩ := bind_ok e4
  injection e4 with e4
  rw [← e4]
  show s'.bodies.nPts * s'.bodies.dim = _
  rw [nPts_map, same, ← nPts_map, fit.dim, hb]

/-- one call of `write` -/
theorem rigid_writes (hL : LayoutOK L) (h1 : P.nsave ≠ 0) (h2 : P.nrestart ≠ 0) (hnames : names.Nodup) (hlen : names.length = bodies.bodies.length)
    (F : s.Fits L bodies names) (d : Disk K) (text : TextDisk) :
    ∃ d' text', rigidWriteStep L P fmt names s d text = .ok (d', text') ∧ WrittenForces L P (bodies.nPts * bodies.dim) s.ns s.f d d' ∧
      text' (forcesPath P.output P.nstart) =
        printForces P.output P.nstart (forcesLine fmt s.ns.t (s.bodies.calculateAvgForces s.f)) text (forcesPath P.output P.nstart) ∧
      (P.nsave ∣ s.ns.ite → ∀ (i : ℕ) (name : String) (b : SingleBody K), names[i]? = some name → s.bodies.bodies[i]? = some b →
        ∃ file, text' (bodyPath P.output name s.ns.ite L.dim) = some file ∧ HoldsPoints fmt file b.coords) ∧
      ∀ path, path ≠ forcesPath P.output P.nstart → (P.nsave ∣ s.ns.ite → ∀ name ∈ names, path ≠ bodyPath P.output name s.ns.ite L.dim) →
        text' path = text path := by
  have t1 : Int.tmod s.ns.ite P.nsave = 0 ↔ P.nsave ∣ s.ns.ite := (Int.dvd_iff_tmod_eq_zero).symm
  obtain ⟨d', e, W⟩ := writeWithForces_spec hL P h1 h2 s.ib.nF s.ns s.f d
  have hw : decoupledWriteStep L P s.ib s.bodies s.toIBState d = .ok (d', (s.ns.t, s.bodies.calculateAvgForces s.f)) := by
    rw [decoupledWrite_eq, e]
    rfl
  rw [F.nF] at W
  have hlen' : names.length = s.bodies.bodies.length := by
    rw [hlen]
    have := congrArg List.length F.same
    simpa using this.symm
  have hdim : s.bodies.dim = 2 ∨ s.bodies.dim = 3 := by rw [F.fit.dim]; have := hL.dim; omega
  set text₁ := printForces P.output P.nstart (forcesLine fmt s.ns.t (s.bodies.calculateAvgForces s.f)) text with ht
  by_cases hs : P.nsave ∣ s.ns.ite
  · obtain ⟨text', w1, w2, w3⟩ := C74_write fmt P.output s.ns.ite F.ite names s.bodies text₁ F.fit.pack hdim F.points hlen' hnames
    rw [F.fit.dim] at w2 w3
    refine ⟨d', text', ?_, W, ?_, fun _ => w2, ?_⟩
    · unfold rigidWriteStep
      simp only [hw, bind, Except.bind, if_pos (t1.2 hs), ← ht, w1]
      rfl
    · exact w3 _ fun name _ => forcesPath_ne _ _ _ _ _ _
    · intro path hp hq
      rw [w3 path (hq hs), ht, printForces_other hp]
  · refine ⟨d', text₁, ?_, W, rfl, fun h => absurd h hs, ?_⟩
    · unfold rigidWriteStep
      simp only [hw, bind, Except.bind, if_neg (fun h => hs (t1.1 h)), ← ht]
      rfl
    · intro path hp _
      rw [ht, printForces_other hp]

theorem Spec.RigidStarted.ite (S : RigidStarted debug L G axes T B P flow bodies M kernel window ops disk s disk') : s.ns.ite = P.nstart := by
  have := (C45_counters S.started.started (x := fun _ => s.ns) (n := 0) (vSolve := fun _ _ _ => .error .ub) (pSolve := fun _ _ _ => .error .ub) rfl
    (fun k hk => absurd hk (by omega)) 0 le_rfl).1
  simpa using this

theorem Spec.RigidStarted.fits (S : RigidStarted debug L G axes T B P flow bodies M kernel window ops disk s disk') (hs : 0 ≤ P.nstart)
    (hpts : PointsOK bodies) : s.Fits L bodies names := by
  obtain ⟨_, _, _, _, hn, _⟩ := S.started.operators
  exact ⟨S.same ▸ S.started.fit, S.same ▸ hpts, by rw [S.same], hn, by rw [S.ite]; exact hs⟩

/-- the start of `main` -/
theorem rigid_start (S : RigidStarted debug L G axes T B P flow bodies M kernel window ops disk s disk') (hs : 0 ≤ P.nstart) (hpts : PointsOK bodies)
    (hnames : names.Nodup) (hlen : names.length = bodies.bodies.length) (text : TextDisk) :
    ∃ text₀, (∀ fuel, runRigid debug L G axes P flow B bodies names M kernel window fmt vSolve fSolve pSolve fuel disk text =
        rigidLoop P (rigidAdvance debug L G axes P ops M kernel window vSolve fSolve pSolve) (rigidWriteStep L P fmt names) fuel s disk' text₀) ∧
      text₀ (forcesPath P.output P.nstart) = some ⟨[], true⟩ ∧
      (∀ (i : ℕ) (name : String) (b : SingleBody K), names[i]? = some name → s.bodies.bodies[i]? = some b →
        ∃ file, text₀ (bodyPath P.output name P.nstart L.dim) = some file ∧ HoldsPoints fmt file b.coords) ∧
      ∀ path, path ≠ forcesPath P.output P.nstart → (∀ name ∈ names, path ≠ bodyPath P.output name P.nstart L.dim) → text₀ path = text path := by
  obtain ⟨s₀, h1, h2⟩ := S.started.init
  have h0 : s₀.ns.ite = P.nstart := by
    obtain ⟨⟨ops', ns⟩, h3, h1⟩ := bind_ok h1
    obtain ⟨idx, h4, h1⟩ := bind_ok h1
    obtain ⟨ib', h5, h1⟩ := bind_ok h1
    cases h1
    obtain ⟨_, _, _, _, rfl⟩ := solverInit_ok h3
    rfl
  have F := S.fits (names := names) hs hpts
  have hL := S.started.constructed.setup.layout
  have hdim : s.bodies.dim = 2 ∨ s.bodies.dim = 3 := by rw [F.fit.dim]; have := hL.dim; omega
  obtain ⟨text₀, w1, w2, w3⟩ := C74_write fmt P.output s.ns.ite F.ite names s.bodies (openForces P.output P.nstart text) F.fit.pack hdim F.points
    (by rw [S.same]; exact hlen) hnames
  rw [F.fit.dim, S.ite] at w2 w3
  refine ⟨text₀, ?_, ?_, w2, ?_⟩
  · intro fuel
    have hi : rigidInit debug L G axes P flow B bodies kernel window = .ok (ops, ⟨s₀, bodies, fun _ => 0, s.ib⟩) := by
      unfold rigidInit
      simp only [h1, bind, Except.bind]
      rfl
    have hio : rigidIoInitialData L P fmt names ⟨s₀, bodies, fun _ => 0, s.ib⟩ disk (openForces P.output P.nstart text) = .ok (s, disk', text₀) := by
      have e : s = ⟨s.toIBState, bodies, fun _ => 0, s.ib⟩ := by
        obtain ⟨a, b, c, d⟩ := s
        have e1 : b = bodies := S.same
        have e2 : c = fun _ => 0 := S.UB
        rw [e1, e2]
      rw [S.same] at w1
      unfold rigidIoInitialData
      simp only [h2, bind, Except.bind, w1]
      rw [e]
      rfl
    unfold runRigid
    simp only [hi, h0, hio]
  · rw [w3 _ fun name _ => forcesPath_ne _ _ _ _ _ _]
    exact Function.update_self ..
  · intro path hp hq
    rw [w3 path hq]
    exact Function.update_of_ne hp _ _

theorem RigidTrajectory.ite (hi : (x 0).ns.ite = P.nstart) (hx : RigidTrajectory debug L G axes P ops M kernel window vSolve fSolve pSolve x n) :
    ∀ k, k ≤ n → (x k).ns.ite = P.nstart + k := by
  intro k
  induction k with
  | zero => intro _; simpa using hi
  | succ k ih =>
    intro hk
    rw [rigid_ite (hx k (by omega)), ih (by omega)]
    push_cast
    ring

/-- C87. After `nt` iterations a run with prescribed motion is over, with success or with the error of a step. -/
theorem C87_ends (S : RigidStarted debug L G axes T B P flow bodies M kernel window ops disk s disk') (h1 : P.nsave ≠ 0) (h2 : P.nrestart ≠ 0)
    (hs : 0 ≤ P.nstart) (hM : MovesPoints L M) (hpts : PointsOK bodies) (hnames : names.Nodup) (hlen : names.length = bodies.bodies.length)
    (fuel : ℕ) (hf : P.nt.toNat ≤ fuel) (text : TextDisk) :
    ∃ r, runRigid debug L G axes P flow B bodies names M kernel window fmt vSolve fSolve pSolve fuel disk text = some r ∧
      ∀ err, r = .error err → ∃ x k, x 0 = s ∧ k < P.nt.toNat ∧ RigidTrajectory debug L G axes P ops M kernel window vSolve fSolve pSolve x k ∧
        rigidAdvance debug L G axes P ops M kernel window vSolve fSolve pSolve (x k) = .error err := by
  obtain ⟨text₀, e, _⟩ := rigid_start (fmt := fmt) (vSolve := vSolve) (fSolve := fSolve) (pSolve := pSolve) S hs hpts hnames hlen text
  rw [e]
  have hL := S.started.constructed.setup.layout
  obtain ⟨r, hr, _, he⟩ := rigidLoop_spec (P := P) (adv := rigidAdvance debug L G axes P ops M kernel window vSolve fSolve pSolve)
    (write := rigidWriteStep L P fmt names) (I := fun s => s.Fits L bodies names)
    (fun a b ha h => ⟨ha.step hM S.started.fit.dim h, rigid_ite h⟩)
    (fun a d t ha => by
      obtain ⟨d', t', h, _⟩ := rigid_writes (fmt := fmt) hL h1 h2 hnames hlen ha d t
      exact ⟨d', t', h⟩)
    P.nt.toNat fuel s disk' text₀ (S.fits hs hpts) (by rw [S.ite]; congr 1; ring) hf
  exact ⟨r, hr, he⟩

theorem rigid_run_eq (S : RigidStarted debug L G axes T B P flow bodies M kernel window ops disk s disk') (h1 : P.nsave ≠ 0) (h2 : P.nrestart ≠ 0)
    (hs : 0 ≤ P.nstart) (hM : MovesPoints L M) (hpts : PointsOK bodies) (hnames : names.Nodup) (hlen : names.length = bodies.bodies.length)
    (fuel : ℕ) (text text' : TextDisk) (s' : RigidState K) (d : Disk K)
    (hr : runRigid debug L G axes P flow B bodies names M kernel window fmt vSolve fSolve pSolve fuel disk text = some (.ok (s', d, text'))) :
    ∃ x, x 0 = s ∧ RigidTrajectory debug L G axes P ops M kernel window vSolve fSolve pSolve x P.nt.toNat ∧ x P.nt.toNat = s' ∧
      (∀ k, k ≤ P.nt.toNat → (x k).Fits L bodies names) ∧
      RunFiles L P (bodies.nPts * bodies.dim) P.nt.toNat (fun k => (x k).ns) (fun k => (x k).f) disk d ∧
      text' (forcesPath P.output P.nstart) = some ⟨(List.range P.nt.toNat).map (fun k => forcesLine fmt (x (k + 1)).ns.t
        ((x (k + 1)).bodies.calculateAvgForces (x (k + 1)).f)), true⟩ ∧
      BodyFiles fmt P names L.dim P.nt.toNat (fun k => (x k).bodies) text text' := by
  obtain ⟨text₀, e, z1, z2, z3⟩ := rigid_start (fmt := fmt) (vSolve := vSolve) (fSolve := fSolve) (pSolve := pSolve) S hs hpts hnames hlen text
  rw [e] at hr
  have hL := S.started.constructed.setup.layout
  have hstep : ∀ a b : RigidState K, a.Fits L bodies names → rigidAdvance debug L G axes P ops M kernel window vSolve fSolve pSolve a = .ok b →
    b.Fits L bodies names ∧ b.ns.ite = a.ns.ite + 1 := fun a b ha h => ⟨ha.step hM S.started.fit.dim h, rigid_ite h⟩
  obtain ⟨x, e, g, x0, e0, g0, hx, hW, xn, rfl, rfl⟩ := rigidLoop_ok (P := P) (I := fun s => s.Fits L bodies names) hstep
    (fun a d t ha => by
      obtain ⟨d', t', h, _⟩ := rigid_writes (fmt := fmt) hL h1 h2 hnames hlen ha d t
      exact ⟨d', t', h⟩)
    (n := P.nt.toNat) (S.fits hs hpts) (by rw [S.ite]; congr 1; ring) hr
  have hF : ∀ k, k ≤ P.nt.toNat → (x k).Fits L bodies names := by
    intro k
    induction k with
    | zero => intro _; rw [x0]; exact S.fits hs hpts
    | succ k ih => intro hk; exact (hstep _ _ (ih (by omega)) (hx k (by omega))).1
  have hi := RigidTrajectory.ite (by rw [x0]; exact S.ite) hx
  have hW' : ∀ k, k < P.nt.toNat → WrittenForces L P (bodies.nPts * bodies.dim) (x (k + 1)).ns (x (k + 1)).f (e k) (e (k + 1)) ∧
      g (k + 1) (forcesPath P.output P.nstart) = printForces P.output P.nstart (forcesLine fmt (x (k + 1)).ns.t
        ((x (k + 1)).bodies.calculateAvgForces (x (k + 1)).f)) (g k) (forcesPath P.output P.nstart) ∧
      (P.nsave ∣ P.nstart + ((k + 1 : ℕ) : ℤ) → ∀ (i : ℕ) (name : String) (b : SingleBody K), names[i]? = some name → (x (k + 1)).bodies.bodies[i]? = some b →
        ∃ file, g (k + 1) (bodyPath P.output name (P.nstart + ((k + 1 : ℕ) : ℤ)) L.dim) = some file ∧ HoldsPoints fmt file b.coords) ∧
      ∀ path, path ≠ forcesPath P.output P.nstart → (P.nsave ∣ P.nstart + ((k + 1 : ℕ) : ℤ) → ∀ name ∈ names,
        path ≠ bodyPath P.output name (P.nstart + ((k + 1 : ℕ) : ℤ)) L.dim) → g (k + 1) path = g k path := by
    intro k hk
    obtain ⟨d', t', w0, w1, w2, w3, w4⟩ := rigid_writes (fmt := fmt) hL h1 h2 hnames hlen (hF (k + 1) (by omega)) (e k) (g k)
    rw [hW k hk] at w0
    cases w0
    rw [hi (k + 1) (by omega)] at w3 w4
    exact ⟨w1, w2, w3, w4⟩
  refine ⟨x, x0, hx, xn, hF, ?_, ?_, ?_, ?_⟩
  · obtain ⟨i1, i2⟩ := started_files S.started.started
    rw [← e0] at i1 i2
    exact runFiles hs hi (fun k hk => (hW' k hk).1) i1 (fun h => by rw [x0]; exact i2 h)
  · have : ∀ m, m ≤ P.nt.toNat → g m (forcesPath P.output P.nstart) = some ⟨(List.range m).map (fun k => forcesLine fmt (x (k + 1)).ns.t
        ((x (k + 1)).bodies.calculateAvgForces (x (k + 1)).f)), true⟩ := by
      intro m
      induction m with
      | zero => intro _; rw [g0, z1]; rfl
      | succ m ih =>
        intro hm
        rw [(hW' m (by omega)).2.1]
        unfold printForces
        rw [Function.update_self, ih (by omega)]
        simp [List.range_succ]
    exact this _ le_rfl
  · intro k hk hsave i name b hn hb
    have hmem : name ∈ names := List.mem_of_getElem? hn
    have hfile : ∃ file, g k (bodyPath P.output name (P.nstart + (k : ℤ)) L.dim) = some file ∧ HoldsPoints fmt file b.coords := by
      cases k with
      | zero =>
        simp only [Nat.cast_zero, add_zero, g0]
        exact z2 i name b hn (by rw [← x0]; exact hb)
      | succ k =>
        refine (hW' k (by omega)).2.2.1 ?_ i name b hn hb
        rcases hsave with h | h
        · omega
        · exact h
    obtain ⟨file, hf, hh⟩ := hfile
    refine ⟨file, ?_, hh⟩
    have keep : ∀ m, k ≤ m → m ≤ P.nt.toNat → g m (bodyPath P.output name (P.nstart + (k : ℤ)) L.dim) = some file := by
      intro m hm
      induction m, hm using Nat.le_induction with
      | base => intro _; exact hf
      | succ m hm ih =>
        intro hmn
        rw [(hW' m (by omega)).2.2.2 _ (forcesPath_ne _ _ _ _ _ _).symm, ih (by omega)]
        intro _ name' _ he
        have := (C74_names _ _ _ _ _ _ (by omega) (by omega) he).2
        omega
    exact keep _ hk le_rfl
  · intro path hp hq
    have keep : ∀ m, m ≤ P.nt.toNat → g m path = text path := by
      intro m
      induction m with
      | zero =>
        intro _
        rw [g0]
        refine z3 path hp fun name hn => ?_
        simpa using hq 0 (by omega) (Or.inl rfl) name hn
      | succ m ih =>
        intro hm
        rw [(hW' m (by omega)).2.2.2 path hp fun h name hn => hq (m + 1) hm (Or.inr h) name hn, ih (by omega)]
    exact keep _ le_rfl

/-- C87. If a run with prescribed motion succeeds, it has made `nt` steps, each with the bodies at their positions at the time of the step; the
steps that are multiples of `nsave` or `nrestart` have their files, the latter with the Lagrangian forces; the file of forces has one line per
step, with time and total force on every body; every body has a file with its points for the start and every multiple of `nsave`; other files
are as before. -/
theorem C87_run (S : RigidStarted debug L G axes T B P flow bodies M kernel window ops disk s disk') (h1 : P.nsave ≠ 0) (h2 : P.nrestart ≠ 0)
    (hs : 0 ≤ P.nstart) (hM : MovesPoints L M) (hpts : PointsOK bodies) (hnames : names.Nodup) (hlen : names.length = bodies.bodies.length)
    (fuel : ℕ) (text text' : TextDisk) (s' : RigidState K) (d : Disk K)
    (hr : runRigid debug L G axes P flow B bodies names M kernel window fmt vSolve fSolve pSolve fuel disk text = some (.ok (s', d, text'))) :
    ∃ x, x 0 = s ∧ RigidTrajectory debug L G axes P ops M kernel window vSolve fSolve pSolve x P.nt.toNat ∧ x P.nt.toNat = s' ∧
      (∀ k, k < P.nt.toNat → (x (k + 1)).bodies = M.coordinates (s.ns.t + (k + 1) * P.dt) (x k).bodies) ∧
      RunFiles L P (bodies.nPts * bodies.dim) P.nt.toNat (fun k => (x k).ns) (fun k => (x k).f) disk d ∧
      (∃ file, text' (forcesPath P.output P.nstart) = some file ∧
        MovingForcesFile fmt (fun k => (x k).bodies) P.nt.toNat (fun k => (x k).ns) (fun k => (x k).f) file) ∧
      BodyFiles fmt P names L.dim P.nt.toNat (fun k => (x k).bodies) text text' := by
  obtain ⟨x, x0, hx, xn, hF, r1, r2, r3⟩ := rigid_run_eq S h1 h2 hs hM hpts hnames hlen fuel text text' s' d hr
  refine ⟨x, x0, hx, xn, ?_, r1, ⟨_, r2, rfl, by simp, ?_⟩, r3⟩
  · obtain ⟨u, _, R⟩ := S.reach_at x0 hx
    have Fs := S.started.started
    have ht : ∀ k, k ≤ P.nt.toNat → (x k).ns.t = s.ns.t + k * P.dt := by
      intro k
      induction k with
      | zero => intro _; rw [x0]; simp
      | succ k ih =>
        intro hk
        obtain ⟨_, _, _, h⟩ := rigid_ok (hx k (by omega))
        obtain ⟨w, Us, df, _, _, _, ha, _⟩ := decoupled_ok S.started.constructed Fs.schemes.1.1 Fs.schemes.2.1 (R k (by omega)).1 h
        obtain ⟨_, _, _, _, _, _, _, _, _, _, _, _, ht, _⟩ := advance_ok S.started.constructed Fs.schemes.1.1 Fs.schemes.2.1 (R k (by omega)).1 ha
        rw [ht, ih (by omega)]
        push_cast
        ring
    intro k hk
    rw [(rigid_ok (hx k hk)).1, ht k hk.le]
    congr 1
    ring
  · intro k hk
    refine ⟨_, totalForces _ (hF (k + 1) (by omega)).fit.pack _, ?_⟩
    simp [hk, forcesLine]

/-! ### Restart -/

/-- the operators for the bodies do not depend on the history of the ghost points -/
theorem createExtra_run (C : Constructed debug L G axes T B) (hist : List (Boundary.Op K)) (b : BodyPack K) (meshIdx : ℕ → ℕ → List (List ℤ)) :
    createExtraOperators debug L G axes P ops (fun r => (B r).run hist) b meshIdx kernel window =
      createExtraOperators debug L G axes P ops B b meshIdx kernel window := by
  unfold createExtraOperators createEH
  rw [createDelta_run C]

theorem rigid_eq (s : RigidState K) : rigidAdvance debug L G axes P ops M kernel window vSolve fSolve pSolve s =
    ((M.coordinates (s.ns.t + P.dt) s.bodies).updateMeshIdx axes).bind fun idx =>
    (createExtraOperators debug L G axes P ops s.ns.B (M.coordinates (s.ns.t + P.dt) s.bodies) (meshIdxAt idx) kernel window).bind fun ib =>
    (decoupledAdvance L G P ops ib (some (M.velocity (s.ns.t + P.dt) (M.coordinates (s.ns.t + P.dt) s.bodies) s.UB)) vSolve fSolve pSolve s.toIBState).bind
      fun st => .ok ⟨st, M.coordinates (s.ns.t + P.dt) s.bodies, M.velocity (s.ns.t + P.dt) (M.coordinates (s.ns.t + P.dt) s.bodies) s.UB, ib⟩ := by
  unfold rigidAdvance moveBodies
  cases h : (M.coordinates (s.ns.t + P.dt) s.bodies).updateMeshIdx axes with
  | error e => simp only [h, bind, Except.bind]
  | ok idx =>
    simp only [h, bind, Except.bind]
    cases h2 : createExtraOperators debug L G axes P ops s.ns.B (M.coordinates (s.ns.t + P.dt) s.bodies) (meshIdxAt idx) kernel window with
    | error e => rfl
    | ok ib => rfl

/-- the next positions and velocities are the same -/
def SameMotion (M : Motion K) (a b : RigidState K) : Prop := ∀ t, M.coordinates t a.bodies = M.coordinates t b.bodies ∧
  M.velocity t (M.coordinates t a.bodies) a.UB = M.velocity t (M.coordinates t b.bodies) b.UB

theorem rigid_same (C : Constructed debug L G axes T B) (hc : P.conv.explicitCoeffs.length = P.conv.nExplicit)
    (hd : P.diff.explicitCoeffs.length = P.diff.nExplicit) (hgf : IgnoresGuess fSolve) (hg : IgnoresGuess pSolve) {u u' : ℤ → K} {a b : RigidState K}
    (R : Reach L B P ops.pN u a.ns) (R' : Reach L B P ops.pN u' b.ns) (E : SameFlow L a.ns b.ns) (Ef : a.f = b.f) (Em : SameMotion M a b) :
    (∀ a₁, rigidAdvance debug L G axes P ops M kernel window vSolve fSolve pSolve a = .ok a₁ →
      ∃ b₁, rigidAdvance debug L G axes P ops M kernel window vSolve fSolve pSolve b = .ok b₁ ∧ SameFlow L a₁.ns b₁.ns ∧ a₁.f = b₁.f ∧
        a₁.bodies = b₁.bodies ∧ a₁.UB = b₁.UB) ∧
      ∀ e, rigidAdvance debug L G axes P ops M kernel window vSolve fSolve pSolve a = .error e →
        rigidAdvance debug L G axes P ops M kernel window vSolve fSolve pSolve b = .error e := by
  rw [rigid_eq, rigid_eq]
  obtain ⟨m1, m2⟩ := Em (b.ns.t + P.dt)
  rw [E.t, m2, m1]
  obtain ⟨h, hB, _⟩ := R.hist
  obtain ⟨h', hB', _⟩ := R'.hist
  rw [hB, hB']
  cases hidx : (M.coordinates (b.ns.t + P.dt) b.bodies).updateMeshIdx axes with
  | error e => exact ⟨fun _ h => (by cases h), fun _ h => (by cases h; rfl)⟩
  | ok idx =>
    simp only [Except.bind]
    rw [createExtra_run C, createExtra_run C]
    cases hib : createExtraOperators debug L G axes P ops B (M.coordinates (b.ns.t + P.dt) b.bodies) (meshIdxAt idx) kernel window with
    | error e => exact ⟨fun _ h => (by cases h), fun _ h => (by cases h; rfl)⟩
    | ok ib =>
      simp only []
      obtain ⟨d1, d2⟩ := decoupled_same (ib := ib) (UB := some (M.velocity (b.ns.t + P.dt) (M.coordinates (b.ns.t + P.dt) b.bodies) b.UB))
        (vSolve := vSolve) C hc hd hgf hg R R' E Ef
      cases ha : decoupledAdvance L G P ops ib (some (M.velocity (b.ns.t + P.dt) (M.coordinates (b.ns.t + P.dt) b.bodies) b.UB)) vSolve fSolve pSolve
        a.toIBState with
      | error e =>
        rw [d2 e ha]
        exact ⟨fun _ h => (by cases h), fun _ h => (by cases h; rfl)⟩
      | ok st =>
        obtain ⟨st', e1, e2, e3⟩ := d1 st ha
        rw [e1]
        refine ⟨?_, fun _ h => (by cases h)⟩
        intro a₁ h
        cases h
        exact ⟨_, rfl, e2, e3, rfl, rfl⟩

theorem Spec.RigidStarted.outF (S : RigidStarted debug L G axes T B P flow bodies M kernel window ops disk s disk') (hM : MovesPoints L M) (h0 : x 0 = s)
    (hx : RigidTrajectory debug L G axes P ops M kernel window vSolve fSolve pSolve x n) :
    ∀ k, k ≤ n → (x k).ib.nF = bodies.nPts * bodies.dim ∧ (x k).bodies.bodies.map (·.nPts) = bodies.bodies.map (·.nPts) ∧
      ∀ i : ℤ, ¬ (0 ≤ i ∧ i < (bodies.nPts * bodies.dim : ℕ)) → (x k).f i = 0 := by
  obtain ⟨_, _, _, _, hn, _⟩ := S.started.operators
  obtain ⟨u, _, R⟩ := S.reach_at h0 hx
  intro k
  induction k with
  | zero =>
    intro _
    rw [h0]
    refine ⟨hn, by rw [S.same], fun i hi => ?_⟩
    have := S.started.outF (vSolve := vSolve) (fSolve := fSolve) (pSolve := pSolve) (x := fun _ => s.toIBState) (n := 0) rfl
      (fun k hk => absurd hk (by omega)) 0 le_rfl i (by rw [hn]; exact hi)
    exact this
  | succ k ih =>
    intro hk
    obtain ⟨a, b, c⟩ := ih (by omega)
    obtain ⟨e1, _, ⟨idx, e3, e4⟩, h⟩ := rigid_ok (hx k (by omega))
    have same : (x (k + 1)).bodies.bodies.map (·.nPts) = bodies.bodies.map (·.nPts) := by rw [e1, hM.same, b]
    have hnF : (x (k + 1)).ib.nF = bodies.nPts * bodies.dim := by
      obtain ⟨⟨E, H⟩, _, e4⟩ := bind_ok e4
      obtain ⟨BN, _, e4⟩ := bind_ok e4
      injection e4 with e4
      rw [← e4]
      show (x (k + 1)).bodies.nPts * (x (k + 1)).bodies.dim = _
      rw [nPts_map, same, ← nPts_map, (R (k + 1) hk).2.dim, S.started.fit.dim]
    refine ⟨hnF, same, fun i hi => ?_⟩
    obtain ⟨_, _, df, _, _, _, _, e, _⟩ := decoupled_ok S.started.constructed S.started.started.schemes.1.1 S.started.started.schemes.2.1
      (R k (by omega)).1 h
    rw [e]
    simp only [c i hi, vec, hnF, if_neg hi]
    ring

/-- C87. A run with prescribed motion is saved in step `k` (solution, restart data and Lagrangian forces), and a fresh solver with the same
configuration, except that it starts at this step, reads the file. For all boundary conditions and motions it is initialised without error, and step, time,
velocity, pressure, explicit terms and Lagrangian forces are those of step `k`. Missing: the bodies, which are as at time 0 until the first step, the ghost
points at convective boundaries and the last increments of pressure and forces. -/
theorem C87_state_partial (S : RigidStarted debug L G axes T B P flow bodies M kernel window ops disk s disk') (hM : MovesPoints L M) (h0 : x 0 = s)
    (hx : RigidTrajectory debug L G axes P ops M kernel window vSolve fSolve pSolve x n) (k : ℕ) (hk : k ≤ n) (hne : P.nstart + k ≠ 0) (nt : ℤ)
    (d : Disk K) (file : H5File K) (hf : d (stepPath P.output (P.nstart + k)) = some file) (hS : SolutionIn L file (x k).ns)
    (hR : RestartIn L file (x k).ns) (hF : ForceIn (bodies.nPts * bodies.dim) file (x k).f) :
    ∃ s', RigidStarted debug L G axes T B (continued P k nt) flow bodies M kernel window ops d s' d ∧ s'.ns.ite = (x k).ns.ite ∧ s'.ns.t = (x k).ns.t ∧
      s'.ns.U = (x k).ns.U ∧ s'.ns.p = (x k).ns.p ∧ s'.ns.conv = (x k).ns.conv ∧ s'.ns.diff = (x k).ns.diff ∧ s'.f = (x k).f := by
  obtain ⟨u, _, R⟩ := S.reach_at h0 hx
  obtain ⟨_, _, _, _, hn, _⟩ := S.started.operators
  obtain ⟨s', s₀, S', e1, _, _, e2, _⟩ := decoupled_reads S.started (R k hk).1 (by rw [hn]; exact (S.outF hM h0 hx k hk).2.2) k hne nt d file hf hS hR hF
  refine ⟨⟨s', bodies, fun _ => 0, s.ib⟩, ⟨S', rfl, rfl, S.motion⟩, ?_, ?_, ?_, ?_, ?_, ?_, e1⟩
  · rw [RigidTrajectory.ite (by rw [h0]; exact S.ite) hx k hk]
    show s'.ns.ite = _
    rw [e2]
  all_goals (show _ = _; simp only [e2])

/-- The positions and velocities after some steps are those of the time of the step. -/
theorem rigid_positions (S : RigidStarted debug L G axes T B P flow bodies M kernel window ops disk s disk') (hM : FollowsTime M bodies) (h0 : x 0 = s)
    (hx : RigidTrajectory debug L G axes P ops M kernel window vSolve fSolve pSolve x n) : ∀ k, k ≤ n →
      ((x k).bodies = bodies ∧ (x k).UB = fun _ => 0) ∨
      ∃ t, (x k).bodies = M.coordinates t bodies ∧ (x k).UB = M.velocity t (M.coordinates t bodies) fun _ => 0 := by
  intro k
  induction k with
  | zero => intro _; rw [h0]; exact Or.inl ⟨S.same, S.UB⟩
  | succ k ih =>
    intro hk
    obtain ⟨e1, e2, _, _⟩ := rigid_ok (hx k (by omega))
    refine Or.inr ⟨(x k).ns.t + P.dt, ?_⟩
    rcases ih (by omega) with ⟨a, b⟩ | ⟨t, a, b⟩
    · rw [e2, e1, a, b]
      exact ⟨rfl, rfl⟩
    · rw [e2, e1, a, b, hM.position, hM.velocity]
      exact ⟨rfl, rfl⟩

/-- C87. In the situation of `C87_state_partial`, without convective boundaries and for a motion that is a function of time, the steps of the fresh
solver are those of the first run, with the same flow, forces, positions and velocities of the bodies, or the same error. Missing: motions that move the
points from where they are (see `C87_false_incremental`), convective boundaries (the ghost values are not saved, see `C77_false_convective`), and
linear solvers for pressure and forces whose result depends on the initial guess, the last increment, which is not saved. -/
theorem C87_restart_partial (S : RigidStarted debug L G axes T B P flow bodies M kernel window ops disk s disk') (hM : MovesPoints L M)
    (hF' : FollowsTime M bodies) (h0 : x 0 = s)
    (hx : RigidTrajectory debug L G axes P ops M kernel window vSolve fSolve pSolve x n) (hT : NoConvective L T) (hgf : IgnoresGuess fSolve)
    (hg : IgnoresGuess pSolve) (k : ℕ) (hk : k ≤ n) (hne : P.nstart + k ≠ 0) (nt : ℤ)
    (d : Disk K) (file : H5File K) (hf : d (stepPath P.output (P.nstart + k)) = some file) (hS : SolutionIn L file (x k).ns)
    (hR : RestartIn L file (x k).ns) (hF : ForceIn (bodies.nPts * bodies.dim) file (x k).f) :
    ∃ s', RigidStarted debug L G axes T B (continued P k nt) flow bodies M kernel window ops d s' d ∧
      ∃ y, y 0 = s' ∧ RigidTrajectory debug L G axes (continued P k nt) ops M kernel window vSolve fSolve pSolve y (n - k) ∧
        (∀ j, k + j ≤ n → SameFlow L (x (k + j)).ns (y j).ns ∧ (x (k + j)).f = (y j).f ∧
          (1 ≤ j → (x (k + j)).bodies = (y j).bodies ∧ (x (k + j)).UB = (y j).UB)) ∧
        ∀ e, rigidAdvance debug L G axes P ops M kernel window vSolve fSolve pSolve (x n) = .error e →
          rigidAdvance debug L G axes (continued P k nt) ops M kernel window vSolve fSolve pSolve (y (n - k)) = .error e := by
  obtain ⟨u, _, R⟩ := S.reach_at h0 hx
  obtain ⟨_, _, _, _, hn, _⟩ := S.started.operators
  obtain ⟨s', s₀, S', e1, _, e0, es, _⟩ := decoupled_reads S.started (R k hk).1 (by rw [hn]; exact (S.outF hM h0 hx k hk).2.2) k hne nt d file hf hS hR hF
  have C := S.started.constructed
  have E : SameFlow L (x k).ns s'.ns := by
    rw [es]
    refine ⟨RigidTrajectory.ite (by rw [h0]; exact S.ite) hx k hk, rfl, rfl, rfl, rfl, rfl, ?_⟩
    intro r hr
    obtain ⟨h, hB, hj⟩ := (R k hk).1.hist
    rw [hB]
    simp only [e0]
    show _ = (B r).run ([.setGhostICs s₀.U] ++ [.setGhostICs (x k).ns.U])
    exact ghosts_determined C hT ⟨u, h, rfl⟩ ⟨s₀.U, _, rfl⟩ hj ⟨[.setGhostICs s₀.U], Or.inl rfl⟩ hr
  obtain ⟨u', _, R'⟩ := S'.started.reach
  have R' : Reach L B P ops.pN u' s'.ns := ⟨R'.hist, R'.clean, R'.nconv, R'.ndiff, R'.outU, R'.outP, R'.outConv, R'.outDiff⟩
  have hc := S.started.started.schemes
  have Em : SameMotion M (x k) ⟨s', bodies, fun _ => 0, s.ib⟩ := by
    intro t
    rcases rigid_positions S hF' h0 hx k hk with ⟨a, b⟩ | ⟨t', a, b⟩
    · rw [a, b]
      exact ⟨rfl, rfl⟩
    · rw [a, b, hF'.position, hF'.velocity]
      exact ⟨rfl, rfl⟩
  obtain ⟨y, y0, hy, hE, he⟩ := same_steps (adv := rigidAdvance debug L G axes P ops M kernel window vSolve fSolve pSolve)
    (E := fun a b => Reach L B P ops.pN u a.ns ∧ Reach L B P ops.pN u' b.ns ∧ SameFlow L a.ns b.ns ∧ a.f = b.f ∧ SameMotion M a b)
    (by
      rintro a b ⟨Ra, Rb, Eab, Ef, Em⟩
      obtain ⟨h1, h2⟩ := rigid_same (debug := debug) (axes := axes) (kernel := kernel) (window := window) (vSolve := vSolve)
        C hc.1.1 hc.2.1 hgf hg Ra Rb Eab Ef Em
      refine ⟨?_, h2⟩
      intro a₁ ha
      obtain ⟨b₁, hb, E1, E2, E3, E4⟩ := h1 a₁ ha
      obtain ⟨_, _, _, _, _, _, ha', _⟩ := decoupled_ok C hc.1.1 hc.2.1 Ra (rigid_ok ha).2.2.2
      obtain ⟨_, _, _, _, _, _, hb', _⟩ := decoupled_ok C hc.1.1 hc.2.1 Rb (rigid_ok hb).2.2.2
      exact ⟨b₁, hb, Ra.step C hc.1.1 hc.2.1 ha', Rb.step C hc.1.1 hc.2.1 hb', E1, E2, fun t => ⟨by rw [E3], by rw [E3, E4]⟩⟩)
    hk hx ⟨(R k hk).1, R', E, e1.symm, Em⟩
  refine ⟨_, ⟨S', rfl, rfl, S.motion⟩, y, y0, hy, ?_, he⟩
  intro j hj
  refine ⟨(hE j hj).2.2.1, (hE j hj).2.2.2.1, ?_⟩
  intro hj1
  obtain ⟨j, rfl⟩ : ∃ i, j = i + 1 := ⟨j - 1, by omega⟩
  obtain ⟨_, _, E1, _, E2⟩ := hE j (by omega)
  obtain ⟨a1, a2, _, _⟩ := rigid_ok (hx (k + j) (by omega))
  obtain ⟨b1, b2, _, _⟩ := rigid_ok (hy j (by omega))
  have a1' : (x (k + (j + 1))).bodies = M.coordinates ((x (k + j)).ns.t + P.dt) (x (k + j)).bodies := a1
  have a2' : (x (k + (j + 1))).UB = M.velocity ((x (k + j)).ns.t + P.dt) (x (k + (j + 1))).bodies (x (k + j)).UB := a2
  rw [a2', b2, a1', b1, E1.t]
  exact E2 _

/-- the run with another number of steps -/
theorem Spec.RigidStarted.shorter (S : RigidStarted debug L G axes T B P flow bodies M kernel window ops disk s disk') (nt : ℤ) :
    RigidStarted debug L G axes T B { P with nt := nt } flow bodies M kernel window ops disk s disk' :=
  ⟨S.started.shorter nt, S.same, S.UB, S.motion⟩

theorem rigidTrajectory_unique {x y : ℕ → RigidState K} {m : ℕ} (h0 : x 0 = y 0)
    (hx : RigidTrajectory debug L G axes P ops M kernel window vSolve fSolve pSolve x n)
    (hy : RigidTrajectory debug L G axes P ops M kernel window vSolve fSolve pSolve y m) : ∀ k, k ≤ n → k ≤ m → x k = y k := by
  intro k
  induction k with
  | zero => intros; exact h0
  | succ k ih =>
    intro h1 h2
    have a := hx k (by omega)
    rw [ih (by omega) (by omega), hy k (by omega)] at a
    exact (Except.ok.inj a).symm

/-- A run whose steps succeed succeeds. -/
theorem rigid_succeeds (S : RigidStarted debug L G axes T B P flow bodies M kernel window ops disk s disk') (h1 : P.nsave ≠ 0) (h2 : P.nrestart ≠ 0)
    (hs : 0 ≤ P.nstart) (hM : MovesPoints L M) (hpts : PointsOK bodies) (hnames : names.Nodup) (hlen : names.length = bodies.bodies.length)
    (h0 : x 0 = s) (hx : RigidTrajectory debug L G axes P ops M kernel window vSolve fSolve pSolve x n) (hn : P.nt.toNat ≤ n) (fuel : ℕ)
    (hf : P.nt.toNat ≤ fuel) (text : TextDisk) :
    ∃ s' d t, runRigid debug L G axes P flow B bodies names M kernel window fmt vSolve fSolve pSolve fuel disk text = some (.ok (s', d, t)) := by
  obtain ⟨r, hr, herr⟩ := C87_ends (fmt := fmt) (vSolve := vSolve) (fSolve := fSolve) (pSolve := pSolve) S h1 h2 hs hM hpts hnames hlen fuel hf text
  cases r with
  | ok q => exact ⟨q.1, q.2.1, q.2.2, hr⟩
  | error e =>
    obtain ⟨y, j, y0, hj, hy, he⟩ := herr e rfl
    rw [← rigidTrajectory_unique (h0.trans y0.symm) hx hy j (by omega) le_rfl, hx j (by omega)] at he
    cases he

theorem holdsPoints_unique {f g : TextFile} {coords : List (List K)} (hf : HoldsPoints fmt f coords) (hg : HoldsPoints fmt g coords) : f = g := by
  obtain ⟨l, t⟩ := f
  obtain ⟨l', t'⟩ := g
  obtain ⟨a1, a2, a3⟩ := hf
  obtain ⟨b1, b2, b3⟩ := hg
  simp only at a1 a2 a3 b1 b2 b3
  have : l = l' := by
    apply List.ext_getElem?
    intro i
    by_cases hi : i < coords.length
    · rw [a3 i _ (List.getElem?_eq_getElem hi), b3 i _ (List.getElem?_eq_getElem hi)]
    · rw [List.getElem?_eq_none (by omega), List.getElem?_eq_none (by omega)]
  rw [this, a2, b2]

/-- C87. A run of `k + m` steps with a motion that is a function of time that succeeds can be replaced by a run of `k` steps, at whose end solution and
restart data are due, and a run of `m ≥ 1` steps that starts from the files of the first: both succeed, and the last states agree. The lines of the file of
forces of the long run are those of the first run followed by those of the second, and the body files of all saved steps are those of the long run, except
those of the step of the restart. Missing: as in `C87_restart_partial`, the body files of the step of the restart (see `C74_false_restart`), and an
old file of step `nstart + k` that is not overwritten by the solution (see `C48_false_stale_file`). -/
theorem C87_interrupted_partial (S : RigidStarted debug L G axes T B P flow bodies M kernel window ops disk s disk') (h1 : P.nsave ≠ 0)
    (h2 : P.nrestart ≠ 0) (hs : 0 ≤ P.nstart) (hM : MovesPoints L M) (hF' : FollowsTime M bodies) (hpts : PointsOK bodies) (hnames : names.Nodup)
    (hlen : names.length = bodies.bodies.length) (hT : NoConvective L T) (hgf : IgnoresGuess fSolve) (hg : IgnoresGuess pSolve) (k m : ℕ) (hk : 1 ≤ k)
    (hm : 1 ≤ m) (hn : P.nt = k + m) (hr : P.nrestart ∣ P.nstart + k) (hc : P.nsave ∣ P.nstart + k ∨ disk (stepPath P.output (P.nstart + k)) = none)
    (fuel : ℕ) (text : TextDisk) (s₃ : RigidState K) (d₃ : Disk K) (t₃ : TextDisk)
    (hrun : runRigid debug L G axes P flow B bodies names M kernel window fmt vSolve fSolve pSolve fuel disk text = some (.ok (s₃, d₃, t₃))) :
    ∃ s₁ d₁ t₁ s₂ d₂ t₂,
      runRigid debug L G axes { P with nt := k } flow B bodies names M kernel window fmt vSolve fSolve pSolve k disk text = some (.ok (s₁, d₁, t₁)) ∧
      runRigid debug L G axes (continued P k m) flow B bodies names M kernel window fmt vSolve fSolve pSolve m d₁ t₁ = some (.ok (s₂, d₂, t₂)) ∧
      SameFlow L s₃.ns s₂.ns ∧ s₃.f = s₂.f ∧ s₃.bodies = s₂.bodies ∧ s₃.UB = s₂.UB ∧
      (∃ f₁ f₂ f₃, t₂ (forcesPath P.output P.nstart) = some f₁ ∧ t₂ (forcesPath P.output (P.nstart + k)) = some f₂ ∧
        t₃ (forcesPath P.output P.nstart) = some f₃ ∧ f₃.lines = f₁.lines ++ f₂.lines) ∧
      ∀ j : ℕ, j ≤ k + m → j ≠ k → j = 0 ∨ P.nsave ∣ P.nstart + j → ∀ name ∈ names,
        ∃ file, t₂ (bodyPath P.output name (P.nstart + j) L.dim) = some file ∧ t₃ (bodyPath P.output name (P.nstart + j) L.dim) = some file := by
  obtain ⟨x, x0, hx, xn, Fx, _, hg₃, BF₃⟩ := rigid_run_eq S h1 h2 hs hM hpts hnames hlen fuel text t₃ s₃ d₃ hrun
  have en : P.nt.toNat = k + m := by rw [hn]; omega
  rw [en] at hx xn hg₃ BF₃ Fx
  have S₁ := S.shorter (k : ℤ)
  have hx₁ : RigidTrajectory debug L G axes { P with nt := k } ops M kernel window vSolve fSolve pSolve x (k + m) := hx
  obtain ⟨s₁, d₁, t₁, hr1⟩ := rigid_succeeds (fmt := fmt) S₁ h1 h2 hs hM hpts hnames hlen x0 hx₁ (by simp) k (by simp) text
  obtain ⟨y, y0, hy, yn, _, hfiles, hg₁, BF₁⟩ := rigid_run_eq S₁ h1 h2 hs hM hpts hnames hlen k text t₁ s₁ d₁ hr1
  have ek : ({ P with nt := (k : ℤ) } : NSParams K).nt.toNat = k := by simp
  rw [ek] at hy yn hfiles hg₁ BF₁
  have hxy : ∀ j, j ≤ k → x j = y j := fun j hj => rigidTrajectory_unique (x0.trans y0.symm) hx₁ hy j (by omega) hj
  obtain ⟨file, f1, f2, f3, f4⟩ := hfiles.restart k hk le_rfl hr
  have f4' : SolutionIn L file (y k).ns := by
    rcases hc with hc | hc
    · obtain ⟨file', e1, e2, _⟩ := hfiles.saved k hk le_rfl hc
      rw [f1] at e1
      cases e1
      exact e2
    · exact f4 hc
  simp only [← hxy k le_rfl] at f2 f3 f4'
  obtain ⟨s', S', z, z0, hz, hE, _⟩ := C87_restart_partial S hM hF' x0 hx hT hgf hg k (by omega) (by omega) m d₁ file f1 f4' f2 f3
  rw [show k + m - k = m by omega] at hz
  have em : (continued P (k : ℤ) (m : ℤ)).nt.toNat = m := by simp [continued]
  have hs' : 0 ≤ (continued P (k : ℤ) (m : ℤ)).nstart := by show 0 ≤ P.nstart + (k : ℤ); omega
  obtain ⟨s₂, d₂, t₂, hr2⟩ := rigid_succeeds (fmt := fmt) S' h1 h2 hs' hM hpts hnames hlen z0 hz (by rw [em]) m (by rw [em]) t₁
  obtain ⟨w, w0, hw, wn, _, _, hg₂, BF₂⟩ := rigid_run_eq S' h1 h2 hs' hM hpts hnames hlen m t₁ t₂ s₂ d₂ hr2
  rw [em] at hw wn hg₂ BF₂
  have hzw : ∀ j, j ≤ m → z j = w j := fun j hj => rigidTrajectory_unique (z0.trans w0.symm) hz hw j hj hj
  have hend := hE m le_rfl
  have hfirst := (BF₂.other (forcesPath P.output P.nstart) (by
      intro h
      have : P.nstart = P.nstart + (k : ℤ) := forcesPath_injective hs (show 0 ≤ P.nstart + (k : ℤ) by omega) h
      omega) (fun j _ _ name _ => forcesPath_ne _ _ _ _ _ _)).trans hg₁
  refine ⟨s₁, d₁, t₁, s₂, d₂, t₂, hr1, hr2, ?_, ?_, ?_, ?_, ⟨_, _, _, hfirst, hg₂, hg₃, ?_⟩, ?_⟩
  · rw [← xn, ← wn, ← hzw m le_rfl]; exact hend.1
  · rw [← xn, ← wn, ← hzw m le_rfl]; exact hend.2.1
  · rw [← xn, ← wn, ← hzw m le_rfl]; exact (hend.2.2 hm).1
  · rw [← xn, ← wn, ← hzw m le_rfl]; exact (hend.2.2 hm).2
  · rw [List.range_add, List.map_append, List.map_map]
    dsimp only
    congr 1
    · apply List.map_congr_left
      intro j hj
      rw [hxy _ (by have := List.mem_range.1 hj; omega)]
    · apply List.map_congr_left
      intro j hj
      have hj := List.mem_range.1 hj
      obtain ⟨a, b, c⟩ := hE (j + 1) (by omega)
      simp only [Function.comp]
      rw [← hzw (j + 1) (by omega), show k + j + 1 = k + (j + 1) by omega, a.t, b, (c (by omega)).1]
  · intro j hj hjk hsave name hname
    obtain ⟨i, hi⟩ := List.mem_iff_getElem?.1 hname
    have hi' : i < names.length := (List.getElem?_eq_some_iff.1 hi).1
    have hbl : i < (x j).bodies.bodies.length := by
      have := congrArg List.length (Fx j hj).same
      simp only [List.length_map] at this
      omega
    obtain ⟨file₃, g1, g2⟩ := BF₃.saved j hj hsave i name _ hi (List.getElem?_eq_getElem hbl)
    refine ⟨file₃, ?_, g1⟩
    rcases Nat.lt_or_ge k j with hlt | hge
    · obtain ⟨q, rfl⟩ : ∃ q, j = k + q := ⟨j - k, by omega⟩
      obtain ⟨_, _, c⟩ := hE q hj
      have ec : (x (k + q)).bodies = (w q).bodies := by rw [(c (by omega)).1, hzw q (by omega)]
      have hsv : P.nsave ∣ P.nstart + (k : ℤ) + (q : ℤ) := by
        rcases hsave with h | h
        · omega
        · rwa [show P.nstart + (k : ℤ) + (q : ℤ) = P.nstart + ((k + q : ℕ) : ℤ) by push_cast; ring]
      obtain ⟨file₂, g3, g4⟩ := BF₂.saved q (by omega) (Or.inr hsv) i name _ hi (by rw [← ec]; exact List.getElem?_eq_getElem hbl)
      rw [← holdsPoints_unique g4 g2, ← g3]
      show t₂ (bodyPath P.output name (P.nstart + ((k + q : ℕ) : ℤ)) L.dim) = t₂ (bodyPath P.output name (P.nstart + (k : ℤ) + (q : ℤ)) L.dim)
      rw [show P.nstart + (k : ℤ) + (q : ℤ) = P.nstart + ((k + q : ℕ) : ℤ) by push_cast; ring]
    · have hjk' : j < k := by omega
      obtain ⟨file₂, g3, g4⟩ := BF₁.saved j (by omega) hsave i name _ hi (by rw [← hxy j (by omega)]; exact List.getElem?_eq_getElem hbl)
      rw [← holdsPoints_unique g4 g2, ← g3]
      refine BF₂.other _ (forcesPath_ne _ _ _ _ _ _).symm ?_
      intro q hq _ name' _ h
      have := (C74_names _ _ _ _ _ _ (by omega) (by show 0 ≤ P.nstart + (k : ℤ) + (q : ℤ); omega) h).2
      have : P.nstart + (j : ℤ) = P.nstart + (k : ℤ) + (q : ℤ) := this
      omega

/-! ### Examples -/

theorem rising_moves : MovesPoints twoByTwo risingMotion := by
  refine ⟨risingMotion_ok, ?_, ?_⟩
  · intro t b hB hb c hc
    simp only [risingMotion, List.mem_map] at hc
    obtain ⟨c, hc, rfl⟩ := hc
    have h2 : c.dim = 2 := (hB.pack.dim c hc).trans hB.dim
    refine ⟨by simpa using (hb c hc).1, ?_⟩
    intro x hx
    simp only [List.mem_map] at hx
    obtain ⟨_, _, rfl⟩ := hx
    exact h2.symm
  · intro t b
    simp only [risingMotion, List.map_map]
    rfl

theorem pointPack_points : PointsOK pointPack := by
  intro b hb
  simp only [pointPack, List.mem_singleton] at hb
  subst hb
  exact ⟨rfl, by simp⟩

theorem rising_follows : FollowsTime risingMotion pointPack := by
  refine ⟨fun t t' => rfl, fun t t' => ?_⟩
  funext i
  simp only [risingMotion]
  split_ifs <;> rfl

/-- C87: the hypotheses hold for the rising point, and a run of two steps succeeds. -/
example (fmt : ℚ → List Char) (text : TextDisk) : ∃ ops s disk' s' d t,
    RigidStarted true twoByTwo tailGeom twoAxes throughTable throughB tailParams (some (pushedFlow none)) pointPack risingMotion hatKernel 1 ops
      (fun _ => none) s disk' ∧
    runRigid true twoByTwo tailGeom twoAxes tailParams (some (pushedFlow none)) throughB pointPack ["body0"] risingMotion hatKernel 1 fmt (gaussSolve 4)
      (gaussSolve 2) (gaussSolve 4) 2 (fun _ => none) text = some (.ok (s', d, t)) ∧
    MovesPoints twoByTwo risingMotion ∧ FollowsTime risingMotion pointPack ∧ PointsOK pointPack ∧ ["body0"].Nodup ∧
    ["body0"].length = pointPack.bodies.length ∧
    NoConvective twoByTwo throughTable ∧ IgnoresGuess (gaussSolve 2) ∧ IgnoresGuess (gaussSolve 4) ∧ tailParams.nsave ≠ 0 ∧ tailParams.nrestart ≠ 0 ∧
    0 ≤ tailParams.nstart ∧ tailParams.nt = (1 : ℕ) + (1 : ℕ) ∧ tailParams.nrestart ∣ tailParams.nstart + (1 : ℕ) := by
  obtain ⟨ops, s, disk', x, S, x0, hx, _⟩ := rigid_runs
  obtain ⟨s', d, t, hr⟩ := rigid_succeeds (fmt := fmt) S (by decide) (by decide) (by decide) rising_moves pointPack_points (names := ["body0"])
    (by decide) rfl x0 hx (le_refl 2) 2 (le_refl 2) text
  exact ⟨ops, s, disk', s', d, t, S, hr, rising_moves, rising_follows, pointPack_points, by decide, rfl, through_noConvective, fun _ _ _ _ => rfl,
    fun _ _ _ _ => rfl, by decide, by decide, by decide, rfl, by decide⟩

/-- The oscillating cylinder is where the sine puts it, whatever the time of the step before. -/
theorem oscillation_follows (O : Oscillation) (b : BodyPack ℝ) (body : SingleBody ℝ) (hb : b.bodies = [body])
    (h2 : ∀ p ∈ body.coords, 2 ≤ p.length) : FollowsTime (oscillatingCylinder O body.coords) b := by
  obtain ⟨dim, m, l⟩ := b
  simp only at hb
  subst hb
  have key : ∀ (X Y X' Y' : ℝ) (l : List (List ℝ)), (∀ p ∈ l, 2 ≤ p.length) →
      List.zipWith (displace X Y) l (List.zipWith (displace X' Y') l l) = List.zipWith (displace X Y) l l := by
    intro X Y X' Y' l
    induction l with
    | nil => intro _; rfl
    | cons p l ih =>
      intro h
      have hp := h p (by simp)
      match p, hp with
      | a :: b :: rest, _ =>
        simp only [List.zipWith_cons_cons, displace]
        rw [ih fun q hq => h q (by simp [hq])]
  refine ⟨fun t t' => ?_, fun t t' => ?_⟩
  · simp only [oscillatingCylinder, List.modifyHead_cons]
    rw [key _ _ _ _ _ h2]
  · funext i
    simp only [oscillatingCylinder, List.modifyHead_cons]
    split_ifs <;> rfl

/-- C87: the hypothesis about the motion, for a cylinder with two points. -/
example : FollowsTime (oscillatingCylinder (oscillationInit (some (1 / 5)) (some 1) (some 5)) [[1 / 2, 0], [0, 1 / 2]])
    ⟨2, 1, [⟨2, 2, [[1 / 2, 0], [0, 1 / 2]], [2]⟩]⟩ :=
  oscillation_follows _ _ ⟨2, 2, [[1 / 2, 0], [0, 1 / 2]], [2]⟩ rfl (by
    intro p hp
    simp only [List.mem_cons, List.not_mem_nil, or_false] at hp
    rcases hp with rfl | rfl <;> simp)

/-! ### Motions that start from the current positions -/

/-- A point that moves upwards by 1/32 in every step, from where it is. -/
def creepingMotion : Motion ℚ where
  coordinates := fun _ P => { P with bodies := P.bodies.map fun b => { b with coords := b.coords.map fun x => [x.getD 0 0, x.getD 1 0 + 1 / 32] } }
  velocity := fun _ _ UB => fun i => if i = 1 then 1 / 8 else UB i

/-- a run with the creeping point -/
def creepingRun (P : NSParams ℚ) (fuel : ℕ) (disk : Disk ℚ) (text : TextDisk) : Option (Except Error (RigidState ℚ × Disk ℚ × TextDisk)) :=
  runRigid true twoByTwo tailGeom twoAxes P (some (pushedFlow none)) throughB pointPack ["body0"] creepingMotion hatKernel 1 fractionText (gaussSolve 4)
    (gaussSolve 2) (gaussSolve 4) fuel disk text

/-- Two steps, and one step after a restart: where are the points, and what is the force on them? -/
def creepingPoints : Option ((List (List (List ℚ)) × ℚ) × (List (List (List ℚ)) × ℚ)) :=
  match creepingRun tailParams 2 (fun _ => none) (fun _ => none) with
  | some (.ok (s₃, _, _)) =>
    match creepingRun { tailParams with nt := 1 } 1 (fun _ => none) (fun _ => none) with
    | some (.ok (_, d₁, t₁)) =>
      match creepingRun (continued tailParams 1 1) 1 d₁ t₁ with
      | some (.ok (s₂, _, _)) => some ((s₃.bodies.bodies.map (·.coords), s₃.f 0), (s₂.bodies.bodies.map (·.coords), s₂.f 0))
      | _ => none
    | _ => none
  | _ => none

theorem creepingPoints_eq : creepingPoints = some (([[[5 / 4, 13 / 16]]], -4736 / 231), ([[[5 / 4, 25 / 32]]], -9472 / 483)) := by decide +kernel

theorem creeping_moves : MovesPoints twoByTwo creepingMotion := by
  refine ⟨?_, ?_, ?_⟩
  · intro t b h
    refine ⟨⟨h.pack.dim_pos, ?_, ?_, ?_⟩, h.dim, h.procs⟩ <;> intro x hx <;> obtain ⟨y, hy, rfl⟩ := List.mem_map.1 hx
    · exact h.pack.dim y hy
    · exact h.pack.procs y hy
    · exact h.pack.points y hy
  · intro t b hB hb c hc
    simp only [creepingMotion, List.mem_map] at hc
    obtain ⟨c, hc, rfl⟩ := hc
    have h2 : c.dim = 2 := (hB.pack.dim c hc).trans hB.dim
    refine ⟨by simpa using (hb c hc).1, ?_⟩
    intro x hx
    simp only [List.mem_map] at hx
    obtain ⟨_, _, rfl⟩ := hx
    exact h2.symm
  · intro t b
    simp only [creepingMotion, List.map_map]
    rfl

/-- C87 is false for motions that move the points from where they are: the positions are not in the restart data, a fresh solver starts with those of the body
files. A run of two steps and a run of one step that is continued by one step end with different positions and different forces, although no boundary is
convective and all systems are solved exactly. -/
theorem C87_false_incremental : ∃ (M : Motion ℚ) (s₁ s₂ s₃ : RigidState ℚ) (d₁ d₂ d₃ : Disk ℚ) (t₁ t₂ t₃ : TextDisk),
    MovesPoints twoByTwo M ∧ NoConvective twoByTwo throughTable ∧ IgnoresGuess (gaussSolve 2) ∧ IgnoresGuess (gaussSolve 4) ∧ PointsOK pointPack ∧
    tailParams.nsave = 1 ∧ tailParams.nrestart = 1 ∧ tailParams.nt = 2 ∧
    runRigid true twoByTwo tailGeom twoAxes tailParams (some (pushedFlow none)) throughB pointPack ["body0"] M hatKernel 1 fractionText (gaussSolve 4)
      (gaussSolve 2) (gaussSolve 4) 2 (fun _ => none) (fun _ => none) = some (.ok (s₃, d₃, t₃)) ∧
    runRigid true twoByTwo tailGeom twoAxes { tailParams with nt := 1 } (some (pushedFlow none)) throughB pointPack ["body0"] M hatKernel 1 fractionText
      (gaussSolve 4) (gaussSolve 2) (gaussSolve 4) 1 (fun _ => none) (fun _ => none) = some (.ok (s₁, d₁, t₁)) ∧
    runRigid true twoByTwo tailGeom twoAxes (continued tailParams 1 1) (some (pushedFlow none)) throughB pointPack ["body0"] M hatKernel 1 fractionText
      (gaussSolve 4) (gaussSolve 2) (gaussSolve 4) 1 d₁ t₁ = some (.ok (s₂, d₂, t₂)) ∧
    s₃.bodies ≠ s₂.bodies ∧ s₃.f ≠ s₂.f := by
  have key := creepingPoints_eq
  unfold creepingPoints at key
  split at key
  · rename_i s₃ d₃ t₃ h3
    split at key
    · rename_i s₁ d₁ t₁ h1
      split at key
      · rename_i s₂ d₂ t₂ h2
        simp only [Option.some.injEq, Prod.mk.injEq] at key
        obtain ⟨⟨k1, k2⟩, k3, k4⟩ := key
        refine ⟨creepingMotion, s₁, s₂, s₃, d₁, d₂, d₃, t₁, t₂, t₃, creeping_moves, through_noConvective, fun _ _ _ _ => rfl, fun _ _ _ _ => rfl,
          pointPack_points, rfl, rfl, rfl, h3, h1, h2, ?_, ?_⟩
        · intro h
          rw [h, k3] at k1
          exact absurd k1 (by decide +kernel)
        · intro h
          rw [h, k4] at k2
          exact absurd k2 (by norm_num)
      · cases key
    · cases key
  · cases key

end PetIBM
