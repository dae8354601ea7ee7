/-
The main loop: number of steps, files.
-/
import Verif.Lemmas.Files

namespace PetIBM

open Spec

set_option linter.unusedSectionVars false

variable {K : Type} [Field K] [LinearOrder K] [IsStrictOrderedRing K]
variable {debug : Bool} {L : Layout} {G : Geom K} {axes : ℕ → Axis K} {T : BCTable K} {B : ℕ → Boundary K}

theorem advance_ite {P : NSParams K} {ops : NSOps K} {vSolve pSolve : LinSolve K} {s s' : NSState K}
    (h : advance L G P ops vSolve pSolve s = .ok s') : s'.ite = s.ite + 1 := by
  unfold advance at h
  obtain ⟨⟨rhs, s₁⟩, h1, h⟩ := bind_ok h
  obtain ⟨U, _, h⟩ := bind_ok h
  obtain ⟨dP, _, h⟩ := bind_ok h
  cases h
  unfold assembleRHSVelocity at h1
  obtain ⟨⟨c, l⟩, _, h1⟩ := bind_ok h1
  obtain ⟨r1, _, h1⟩ := bind_ok h1
  obtain ⟨d, _, h1⟩ := bind_ok h1
  obtain ⟨r2, _, h1⟩ := bind_ok h1
  cases h1
  rfl

/-- what `write` does to the files -/
structure WrittenStep (L : Layout) (P : NSParams K) (s : NSState K) (disk disk' : Disk K) : Prop where
  other : ∀ path, path ≠ stepPath P.output s.ite → disk' path = disk path
  idle : ¬ P.nsave ∣ s.ite → ¬ P.nrestart ∣ s.ite → disk' = disk
  saved : P.nsave ∣ s.ite → ∃ file, disk' (stepPath P.output s.ite) = some file ∧ SolutionIn L file s ∧
    (¬ P.nrestart ∣ s.ite → ∀ i : ℕ, file.data ("/convection/" ++ toString i) = none ∧ file.data ("/diffusion/" ++ toString i) = none)
  restart : P.nrestart ∣ s.ite → ∃ file, disk' (stepPath P.output s.ite) = some file ∧ RestartIn L file s ∧
    (disk (stepPath P.output s.ite) = none → SolutionIn L file s)

theorem writeStep_spec (hL : LayoutOK L) (P : NSParams K) (h1 : P.nsave ≠ 0) (h2 : P.nrestart ≠ 0) (s : NSState K) (disk : Disk K) :
    ∃ disk', writeStep L P s disk = .ok disk' ∧ WrittenStep L P s disk disk' := by
  unfold writeStep
  rw [if_neg h1]
  have t1 : Int.tmod s.ite P.nsave = 0 ↔ P.nsave ∣ s.ite := (Int.dvd_iff_tmod_eq_zero).symm
  have t2 : Int.tmod s.ite P.nrestart = 0 ↔ P.nrestart ∣ s.ite := (Int.dvd_iff_tmod_eq_zero).symm
  simp only [t1, t2, if_neg h2]
  by_cases a : P.nsave ∣ s.ite
  · obtain ⟨file₁, e1, time1, v1, p1, n1⟩ := writeSolution_eq hL s disk (stepPath P.output s.ite)
    obtain ⟨file₁', e1', s1⟩ := writeSolution_spec hL s disk (stepPath P.output s.ite)
    have : file₁' = file₁ := by
      rw [e1] at e1'
      have := congrFun (Except.ok.inj e1') (stepPath P.output s.ite)
      rw [Function.update_self, Function.update_self] at this
      exact (Option.some.inj this).symm
    subst this
    simp only [if_pos a, e1, bind, Except.bind]
    by_cases b : P.nrestart ∣ s.ite
    · obtain ⟨file₂, e2, r2, _, o2⟩ := writeRestart_spec hL s (Function.update disk (stepPath P.output s.ite) (some file₁')) (stepPath P.output s.ite)
      rw [if_pos b, e2]
      obtain ⟨o3, o4⟩ := o2 _ (Function.update_self ..)
      refine ⟨_, rfl, ?_, ?_, ?_, ?_⟩
      · intro path hp
        rw [Function.update_of_ne hp, Function.update_of_ne hp]
      · intro h; exact absurd a h
      · intro _
        exact ⟨file₂, Function.update_self .., SolutionIn.of_same s1 o3 o4, fun h => absurd b h⟩
      · intro _
        exact ⟨file₂, Function.update_self .., r2, fun _ => SolutionIn.of_same s1 o3 o4⟩
    · rw [if_neg b]
      refine ⟨_, rfl, ?_, ?_, ?_, ?_⟩
      · intro path hp
        rw [Function.update_of_ne hp]
      · intro h; exact absurd a h
      · intro _
        refine ⟨file₁', Function.update_self .., s1, ?_⟩
        intro _ i
        have long : ∀ name : String, name.toList[2]? ≠ none → file₁'.data name = none := by
          intro name hn
          apply n1
          · rintro rfl; exact hn (by decide)
          · intro f _ e
            apply hn
            rw [e]
            unfold fd2str
            split_ifs <;> decide
        constructor <;>
        · apply long
          simp
      · intro h; exact absurd h b
  · simp only [if_neg a, bind, Except.bind, pure, Except.pure]
    by_cases b : P.nrestart ∣ s.ite
    · obtain ⟨file₂, e2, r2, o1, o2⟩ := writeRestart_spec hL s disk (stepPath P.output s.ite)
      rw [if_pos b, e2]
      refine ⟨_, rfl, ?_, ?_, ?_, ?_⟩
      · intro path hp
        rw [Function.update_of_ne hp]
      · intro _ h; exact absurd b h
      · intro h; exact absurd h a
      · intro _
        exact ⟨file₂, Function.update_self .., r2, o1⟩
    · rw [if_neg b]
      exact ⟨disk, rfl, fun _ _ => rfl, fun _ _ => rfl, fun h => absurd h a, fun h => absurd h b⟩

/-- the files during the loop -/
theorem mainLoop_spec (hL : LayoutOK L) (P : NSParams K) (h1 : P.nsave ≠ 0) (h2 : P.nrestart ≠ 0) (ops : NSOps K) (vSolve pSolve : LinSolve K) :
    ∀ (n fuel : ℕ) (s : NSState K) (disk : Disk K), (P.nstart + P.nt - s.ite).toNat = n → n ≤ fuel →
      ∃ r, mainLoop L G P ops vSolve pSolve fuel s disk = some r ∧
        (∀ s' d, r = .ok (s', d) → ∃ (x : ℕ → NSState K) (e : ℕ → Disk K), x 0 = s ∧ e 0 = disk ∧ Trajectory L G P ops vSolve pSolve x n ∧
          (∀ k, k < n → WrittenStep L P (x (k + 1)) (e k) (e (k + 1))) ∧ x n = s' ∧ e n = d) ∧
        ∀ err, r = .error err → ∃ (x : ℕ → NSState K) (k : ℕ), x 0 = s ∧ k < n ∧ Trajectory L G P ops vSolve pSolve x k ∧
          advance L G P ops vSolve pSolve (x k) = .error err := by
  intro n
  induction n with
  | zero =>
    intro fuel s disk hn _
    have hf : finished P s = true := by unfold finished; simp; omega
    refine ⟨.ok (s, disk), ?_, ?_, ?_⟩
    · unfold mainLoop
      rw [if_pos hf]
    · rintro s' d ⟨⟩
      exact ⟨fun _ => s, fun _ => disk, rfl, rfl, fun k hk => absurd hk (by omega), fun k hk => absurd hk (by omega), rfl, rfl⟩
    · rintro err ⟨⟩
  | succ n ih =>
    intro fuel s disk hn hfuel
    have hf : finished P s = false := by unfold finished; simp; omega
    obtain ⟨fuel, rfl⟩ : ∃ f, fuel = f + 1 := ⟨fuel - 1, by omega⟩
    cases ha : advance L G P ops vSolve pSolve s with
    | error e =>
      refine ⟨.error e, ?_, ?_, ?_⟩
      · unfold mainLoop
        rw [if_neg (by rw [hf]; simp)]
        simp only [ha]
      · rintro s' d ⟨⟩
      · rintro err ⟨⟩
        exact ⟨fun _ => s, 0, rfl, by omega, fun k hk => absurd hk (by omega), ha⟩
    | ok s₁ =>
      have hi := advance_ite ha
      obtain ⟨disk₁, hw, W⟩ := writeStep_spec hL P h1 h2 s₁ disk
      obtain ⟨r, hr, hok, herr⟩ := ih fuel s₁ disk₁ (by omega) (by omega)
      have shift : ∀ {x : ℕ → NSState K} {m : ℕ}, x 0 = s₁ → Trajectory L G P ops vSolve pSolve x m →
          Trajectory L G P ops vSolve pSolve (fun k => if k = 0 then s else x (k - 1)) (m + 1) := by
        intro x m hx0 hx k hk
        cases k with
        | zero => simp only [if_true]; rw [ha]; simp [hx0]
        | succ k => simpa using hx k (by omega)
      refine ⟨r, ?_, ?_, ?_⟩
      · rw [← hr]
        conv_lhs => unfold mainLoop
        rw [if_neg (by rw [hf]; simp)]
        simp only [ha, hw]
      · intro s' d hd
        obtain ⟨x, e, x0, e0, hx, hW, xn, en⟩ := hok s' d hd
        refine ⟨fun k => if k = 0 then s else x (k - 1), fun k => if k = 0 then disk else e (k - 1), rfl, rfl, shift x0 hx, ?_, by simpa using xn, by simpa using en⟩
        intro k hk
        cases k with
        | zero => simpa [x0, e0] using W
        | succ k => simpa using hW k (by omega)
      · intro err he
        obtain ⟨x, k, x0, hk, hx, hadv⟩ := herr err he
        exact ⟨fun k => if k = 0 then s else x (k - 1), k + 1, rfl, by omega, shift x0 hx, by simpa using hadv⟩

end PetIBM
