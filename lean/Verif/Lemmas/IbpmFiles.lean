/-
Files of the solvers with immersed bodies.
-/
import Verif.Spec.IbpmRun
import Verif.Lemmas.RunFiles
import Verif.Props.Body

set_option linter.unusedSectionVars false

namespace PetIBM

open Spec

variable {K : Type} [Field K] [LinearOrder K] [IsStrictOrderedRing K]
variable {debug : Bool} {L : Layout} {G : Geom K} {axes : ℕ → Axis K} {T : BCTable K} {B : ℕ → Boundary K}

theorem totalForces (bodies : BodyPack K) (hB : PackOK bodies) (f : ℤ → K) : TotalForces bodies f (bodies.calculateAvgForces f) := by
  have hl : (bodies.calculateAvgForces f).length = bodies.bodies.length := by simp [BodyPack.calculateAvgForces]
  refine ⟨hl, ?_⟩
  intro b x hx
  have hb := (List.getElem?_eq_some_iff.1 hx).1
  refine ⟨(bodies.calculateAvgForces f)[b]'(by omega), List.getElem?_eq_getElem _, ?_, ?_⟩
  · simp [BodyPack.calculateAvgForces, hx]
  · intro d hd F hF
    obtain ⟨l, h1, h2⟩ := C32_force bodies hB f b d x hx hd F hF
    rw [List.getElem?_eq_getElem (by omega)] at h1
    rw [Option.some.inj h1, h2]

/-- what `write` does to the files -/
structure WrittenForces (L : Layout) (P : NSParams K) (nF : ℕ) (s : NSState K) (f : ℤ → K) (disk disk' : Disk K) : Prop where
  other : ∀ path, path ≠ stepPath P.output s.ite → disk' path = disk path
  idle : ¬ P.nsave ∣ s.ite → ¬ P.nrestart ∣ s.ite → disk' = disk
  saved : P.nsave ∣ s.ite → ∃ file, disk' (stepPath P.output s.ite) = some file ∧ SolutionIn L file s ∧
    (¬ P.nrestart ∣ s.ite → file.data "/force" = none ∧
      ∀ i : ℕ, file.data ("/convection/" ++ toString i) = none ∧ file.data ("/diffusion/" ++ toString i) = none)
  restart : P.nrestart ∣ s.ite → ∃ file, disk' (stepPath P.output s.ite) = some file ∧ RestartIn L file s ∧ ForceIn nF file f ∧
    (disk (stepPath P.output s.ite) = none → SolutionIn L file s)

/-- `write` of the base class, then the forces -/
def writeWithForces (L : Layout) (P : NSParams K) (nF : ℕ) (s : NSState K) (f : ℤ → K) (disk : Disk K) : Except Error (Disk K) := do
  let disk ← writeStep L P s disk
  return if Int.tmod s.ite P.nrestart = 0 then writeHDF5Vecs disk (stepPath P.output s.ite) "/" ["force"] [packedList nF f] .append else disk

theorem decoupledWrite_eq (P : NSParams K) (ib : IBOps K) (bodies : BodyPack K) (s : IBState K) (disk : Disk K) :
    decoupledWriteStep L P ib bodies s disk =
      (writeWithForces L P ib.nF s.ns s.f disk).map fun d => (d, (s.ns.t, bodies.calculateAvgForces s.f)) := by
  unfold decoupledWriteStep writeWithForces writeStep decoupledWriteRestart
  by_cases h1 : P.nsave = 0
  · simp only [if_pos h1]; rfl
  · by_cases h2 : P.nrestart = 0
    · by_cases h0 : Int.tmod s.ns.ite P.nsave = 0
      · simp only [if_neg h1, if_pos h2, if_pos h0, bind, Except.bind, pure, Except.pure]
        cases writeSolutionHDF5 L s.ns disk (stepPath P.output s.ns.ite) <;> rfl
      · simp only [if_neg h1, if_pos h2, if_neg h0, bind, Except.bind, pure, Except.pure]
        rfl
    · by_cases h3 : Int.tmod s.ns.ite P.nrestart = 0
      · by_cases h0 : Int.tmod s.ns.ite P.nsave = 0
        · simp only [if_neg h1, if_neg h2, if_pos h0, if_pos h3, bind, Except.bind, pure, Except.pure]
          cases writeSolutionHDF5 L s.ns disk (stepPath P.output s.ns.ite) with
          | error e => rfl
          | ok d =>
            simp only []
            cases writeRestartDataHDF5 L s.ns d (stepPath P.output s.ns.ite) <;> rfl
        · simp only [if_neg h1, if_neg h2, if_neg h0, if_pos h3, bind, Except.bind, pure, Except.pure]
          cases writeRestartDataHDF5 L s.ns disk (stepPath P.output s.ns.ite) <;> rfl
      · by_cases h0 : Int.tmod s.ns.ite P.nsave = 0
        · simp only [if_neg h1, if_neg h2, if_pos h0, if_neg h3, bind, Except.bind, pure, Except.pure]
          cases writeSolutionHDF5 L s.ns disk (stepPath P.output s.ns.ite) <;> rfl
        · simp only [if_neg h1, if_neg h2, if_neg h0, if_neg h3, bind, Except.bind, pure, Except.pure]
          rfl

theorem ibpmWrite_eq (P : NSParams K) (counts : List (ℕ × ℕ)) (bodies : BodyPack K) (s : NSState K) (disk : Disk K) :
    ibpmWriteStep L P counts bodies s disk =
      (writeWithForces L P (bodies.nPts * bodies.dim) { s with p := subPressure counts s.p } (subForces counts s.p) disk).map
        fun d => (d, (s.t, bodies.calculateAvgForces (subForces counts s.p))) := by
  unfold ibpmWriteStep writeWithForces writeStep ibpmWriteRestart ibpmWriteSolution
  by_cases h1 : P.nsave = 0
  · simp only [if_pos h1]; rfl
  · by_cases h2 : P.nrestart = 0
    · by_cases h0 : Int.tmod s.ite P.nsave = 0
      · simp only [if_neg h1, if_pos h2, if_pos h0, bind, Except.bind, pure, Except.pure]
        cases writeSolutionHDF5 L { s with p := subPressure counts s.p } disk (stepPath P.output s.ite) <;> rfl
      · simp only [if_neg h1, if_pos h2, if_neg h0, bind, Except.bind, pure, Except.pure]
        rfl
    · by_cases h3 : Int.tmod s.ite P.nrestart = 0
      · by_cases h0 : Int.tmod s.ite P.nsave = 0
        · simp only [if_neg h1, if_neg h2, if_pos h0, if_pos h3, bind, Except.bind, pure, Except.pure]
          cases writeSolutionHDF5 L { s with p := subPressure counts s.p } disk (stepPath P.output s.ite) with
          | error e => rfl
          | ok d =>
            simp only []
            cases writeRestartDataHDF5 L { s with p := subPressure counts s.p } d (stepPath P.output s.ite) <;> rfl
        · simp only [if_neg h1, if_neg h2, if_neg h0, if_pos h3, bind, Except.bind, pure, Except.pure]
          cases writeRestartDataHDF5 L { s with p := subPressure counts s.p } disk (stepPath P.output s.ite) <;> rfl
      · by_cases h0 : Int.tmod s.ite P.nsave = 0
        · simp only [if_neg h1, if_neg h2, if_pos h0, if_neg h3, bind, Except.bind, pure, Except.pure]
          cases writeSolutionHDF5 L { s with p := subPressure counts s.p } disk (stepPath P.output s.ite) <;> rfl
        · simp only [if_neg h1, if_neg h2, if_neg h0, if_neg h3, bind, Except.bind, pure, Except.pure]
          rfl

theorem appendForce (disk : Disk K) (path : String) {file : H5File K} (hd : disk path = some file) (nF : ℕ) (f : ℤ → K) :
    writeHDF5Vecs disk path "/" ["force"] [packedList nF f] .append = Function.update disk path (some (file.put "/force" (packedList nF f))) := by
  unfold writeHDF5Vecs
  rw [hd]
  rfl

theorem put_other (file : H5File K) (v : List K) {name : String} (h : name ≠ "/force") : (file.put "/force" v).data name = file.data name :=
  Function.update_of_ne h _ _

theorem Spec.SolutionIn.put_force {file : H5File K} {s : NSState K} (h : SolutionIn L file s) (v : List K) : SolutionIn L (file.put "/force" v) s := by
  refine ⟨?_, ?_, h.time⟩
  · intro f name hf hn
    have := h.velocity f name hf hn
    rwa [put_other]
    rintro rfl
    rcases f with _ | _ | _ | f <;> simp at hn
  · have := h.pressure
    rwa [put_other _ _ (by decide)]

theorem Spec.RestartIn.put_force {file : H5File K} {s : NSState K} (h : RestartIn L file s) (v : List K) : RestartIn L (file.put "/force" v) s := by
  constructor
  · intro i z hz
    have := h.convection i z hz
    rwa [put_other]
    intro e
    have := congrArg (fun s => s.toList[1]?) e
    simp at this
  · intro i z hz
    have := h.diffusion i z hz
    rwa [put_other]
    intro e
    have := congrArg (fun s => s.toList[1]?) e
    simp at this

theorem forceIn_put (file : H5File K) (nF : ℕ) (f : ℤ → K) : ForceIn nF (file.put "/force" (packedList nF f)) f := by
  refine ⟨packedList nF f, by simp [H5File.put], by simp [packedList], ?_⟩
  intro m hm
  simp [packedList, hm]

/-- the solution file has nothing but the solution -/
theorem writeSolution_none (hL : LayoutOK L) (s : NSState K) (disk disk' : Disk K) (path : String)
    (h : writeSolutionHDF5 L s disk path = .ok disk') (file : H5File K) (hf : disk' path = some file) : file.data "/force" = none := by
  obtain ⟨file₁, e1, time1, v1, p1, n1⟩ := writeSolution_eq hL s disk path
  rw [e1] at h
  cases h
  rw [Function.update_self] at hf
  cases hf
  apply n1
  · decide
  · intro f _ e
    have := congrArg (fun s => s.toList[2]?) e
    revert this
    unfold fd2str
    split_ifs <;> decide

theorem writeWithForces_spec (hL : LayoutOK L) (P : NSParams K) (h1 : P.nsave ≠ 0) (h2 : P.nrestart ≠ 0) (nF : ℕ) (s : NSState K) (f : ℤ → K)
    (disk : Disk K) : ∃ disk', writeWithForces L P nF s f disk = .ok disk' ∧ WrittenForces L P nF s f disk disk' := by
  obtain ⟨d, hd, W⟩ := writeStep_spec hL P h1 h2 s disk
  have t2 : Int.tmod s.ite P.nrestart = 0 ↔ P.nrestart ∣ s.ite := (Int.dvd_iff_tmod_eq_zero).symm
  unfold writeWithForces
  rw [hd]
  simp only [bind, Except.bind, pure, Except.pure, t2]
  by_cases b : P.nrestart ∣ s.ite
  · obtain ⟨file, e, r, o⟩ := W.restart b
    rw [if_pos b, appendForce d _ e]
    refine ⟨_, rfl, ?_, ?_, ?_, ?_⟩
    · intro path hp
      rw [Function.update_of_ne hp, W.other path hp]
    · intro _ h; exact absurd b h
    · intro a
      obtain ⟨file', e', s', _⟩ := W.saved a
      rw [e] at e'
      cases e'
      exact ⟨_, Function.update_self .., s'.put_force _, fun h => absurd b h⟩
    · intro _
      exact ⟨_, Function.update_self .., r.put_force _, forceIn_put file nF f, fun h => (o h).put_force _⟩
  · rw [if_neg b]
    refine ⟨d, rfl, W.other, W.idle, ?_, fun h => absurd h b⟩
    intro a
    obtain ⟨file, e, s', o⟩ := W.saved a
    refine ⟨file, e, s', fun h => ⟨?_, o h⟩⟩
    have t1 : Int.tmod s.ite P.nsave = 0 := (Int.dvd_iff_tmod_eq_zero).1 a
    unfold writeStep at hd
    rw [if_neg h1] at hd
    simp only [if_pos t1, if_neg h2, t2, if_neg b, pure, Except.pure] at hd
    obtain ⟨d', hd', hd⟩ := bind_ok hd
    cases hd
    exact writeSolution_none hL s disk _ _ hd' file e

/-! ### The loop -/

section

variable {S : Type} {P : NSParams K} {fmt : K → List Char} {ns : S → NSState K} {adv : S → Except Error S}
variable {write : S → Disk K → Except Error (Disk K × (K × List (List K)))}

theorem bodyLoop_more : ∀ (f g : ℕ) (s : S) (disk : Disk K) (text : TextDisk) r, bodyLoop P fmt ns adv write f s disk text = some r → f ≤ g →
    bodyLoop P fmt ns adv write g s disk text = some r := by
  intro f
  induction f with
  | zero =>
    intro g s disk text r h _
    unfold bodyLoop at h ⊢
    split_ifs at h ⊢ with hf
    exact h
  | succ f ih =>
    intro g s disk text r h hg
    obtain ⟨g, rfl⟩ : ∃ g', g = g' + 1 := ⟨g - 1, by omega⟩
    unfold bodyLoop at h ⊢
    split_ifs at h ⊢ with hf
    · exact h
    · cases ha : adv s with
      | error e => simpa [ha] using h
      | ok s₁ =>
        simp only [ha] at h ⊢
        cases hw : write s₁ disk with
        | error e => simpa [hw] using h
        | ok d₁ =>
          simp only [hw] at h ⊢
          exact ih g s₁ _ _ r h (by omega)

theorem bodyLoop_spec {nF : ℕ} {view : S → NSState K} {f : S → ℤ → K} {avg : S → List (List K)}
    (hadv : ∀ s s', adv s = .ok s' → (ns s').ite = (ns s).ite + 1)
    (hw : ∀ s disk, ∃ disk', write s disk = .ok (disk', ((ns s).t, avg s)) ∧ WrittenForces L P nF (view s) (f s) disk disk') :
    ∀ (n fuel : ℕ) (s : S) (disk : Disk K) (text : TextDisk), (P.nstart + P.nt - (ns s).ite).toNat = n → n ≤ fuel →
      ∃ r, bodyLoop P fmt ns adv write fuel s disk text = some r ∧
        (∀ s' d text', r = .ok (s', d, text') → ∃ (x : ℕ → S) (e : ℕ → Disk K), x 0 = s ∧ e 0 = disk ∧ (∀ k, k < n → adv (x k) = .ok (x (k + 1))) ∧
          (∀ k, k < n → WrittenForces L P nF (view (x (k + 1))) (f (x (k + 1))) (e k) (e (k + 1))) ∧ x n = s' ∧ e n = d ∧
          text' = ((List.range n).map fun k => forcesLine fmt (ns (x (k + 1))).t (avg (x (k + 1)))).foldl
            (fun t line => printForces P.output P.nstart line t) text) ∧
        ∀ err, r = .error err → ∃ (x : ℕ → S) (k : ℕ), x 0 = s ∧ k < n ∧ (∀ j, j < k → adv (x j) = .ok (x (j + 1))) ∧ adv (x k) = .error err := by
  intro n
  induction n with
  | zero =>
    intro fuel s disk text hn _
    have hf : finished P (ns s) = true := by unfold finished; simp; omega
    refine ⟨.ok (s, disk, text), ?_, ?_, ?_⟩
    · unfold bodyLoop
      rw [if_pos hf]
    · rintro s' d t' ⟨⟩
      exact ⟨fun _ => s, fun _ => disk, rfl, rfl, fun k hk => absurd hk (by omega), fun k hk => absurd hk (by omega), rfl, rfl, rfl⟩
    · rintro err ⟨⟩
  | succ n ih =>
    intro fuel s disk text hn hfuel
    have hf : finished P (ns s) = false := by unfold finished; simp; omega
    obtain ⟨fuel, rfl⟩ : ∃ f, fuel = f + 1 := ⟨fuel - 1, by omega⟩
    cases ha : adv s with
    | error e =>
      refine ⟨.error e, ?_, ?_, ?_⟩
      · unfold bodyLoop
        rw [if_neg (by rw [hf]; simp)]
        simp only [ha]
      · rintro s' d t' ⟨⟩
      · rintro err ⟨⟩
        exact ⟨fun _ => s, 0, rfl, by omega, fun k hk => absurd hk (by omega), ha⟩
    | ok s₁ =>
      have hi := hadv s s₁ ha
      obtain ⟨disk₁, hw1, W⟩ := hw s₁ disk
      obtain ⟨r, hr, hok, herr⟩ := ih fuel s₁ disk₁ (printForces P.output P.nstart (forcesLine fmt (ns s₁).t (avg s₁)) text) (by omega) (by omega)
      have shift : ∀ {x : ℕ → S} {m : ℕ}, x 0 = s₁ → (∀ k, k < m → adv (x k) = .ok (x (k + 1))) →
          ∀ k, k < m + 1 → adv ((fun k => if k = 0 then s else x (k - 1)) k) = .ok ((fun k => if k = 0 then s else x (k - 1)) (k + 1)) := by
        intro x m hx0 hx k hk
        cases k with
        | zero => simp only [if_true]; rw [ha]; simp [hx0]
        | succ k => simpa using hx k (by omega)
      refine ⟨r, ?_, ?_, ?_⟩
      · rw [← hr]
        conv_lhs => unfold bodyLoop
        rw [if_neg (by rw [hf]; simp)]
        simp only [ha, hw1]
      · intro s' d t' hd
        obtain ⟨x, e, x0, e0, hx, hW, xn, en, ht⟩ := hok s' d t' hd
        refine ⟨fun k => if k = 0 then s else x (k - 1), fun k => if k = 0 then disk else e (k - 1), rfl, rfl, shift x0 hx, ?_, by simpa using xn,
          by simpa using en, ?_⟩
        · intro k hk
          cases k with
          | zero => simpa [x0, e0] using W
          | succ k => simpa using hW k (by omega)
        · rw [ht, List.range_succ_eq_map, List.map_cons, List.foldl_cons, List.map_map]
          simp only [Nat.zero_add, Nat.add_sub_cancel, one_ne_zero, if_false, Nat.succ_ne_zero, Nat.sub_self, x0]
          rfl
      · intro err he
        obtain ⟨x, k, x0, hk, hx, hadv⟩ := herr err he
        exact ⟨fun k => if k = 0 then s else x (k - 1), k + 1, rfl, by omega, shift x0 hx, by simpa using hadv⟩

/-- the loop does not depend on the fuel -/
theorem bodyLoop_ok {nF : ℕ} {view : S → NSState K} {f : S → ℤ → K} {avg : S → List (List K)}
    (hadv : ∀ s s', adv s = .ok s' → (ns s').ite = (ns s).ite + 1)
    (hw : ∀ s disk, ∃ disk', write s disk = .ok (disk', ((ns s).t, avg s)) ∧ WrittenForces L P nF (view s) (f s) disk disk')
    {n fuel : ℕ} {s s' : S} {disk d : Disk K} {text text' : TextDisk} (hn : (P.nstart + P.nt - (ns s).ite).toNat = n)
    (hr : bodyLoop P fmt ns adv write fuel s disk text = some (.ok (s', d, text'))) :
    ∃ (x : ℕ → S) (e : ℕ → Disk K), x 0 = s ∧ e 0 = disk ∧ (∀ k, k < n → adv (x k) = .ok (x (k + 1))) ∧
          (∀ k, k < n → WrittenForces L P nF (view (x (k + 1))) (f (x (k + 1))) (e k) (e (k + 1))) ∧ x n = s' ∧ e n = d ∧
          text' = ((List.range n).map fun k => forcesLine fmt (ns (x (k + 1))).t (avg (x (k + 1)))).foldl
            (fun t line => printForces P.output P.nstart line t) text := by
  obtain ⟨r, hr', hok, _⟩ := bodyLoop_spec (fmt := fmt) hadv hw n (max fuel n) s disk text hn (le_max_right _ _)
  rw [bodyLoop_more _ _ _ _ _ _ hr (le_max_left _ _)] at hr'
  cases hr'
  exact hok s' d text' rfl

end

theorem printAll (output : String) (ite : ℤ) (text : TextDisk) (lines : List (List Char)) :
    lines.foldl (fun t line => printForces output ite line t) (openForces output ite text) =
      Function.update text (forcesPath output ite) (some ⟨lines, true⟩) := by
  have : ∀ (lines old : List (List Char)), lines.foldl (fun t line => printForces output ite line t)
      (Function.update text (forcesPath output ite) (some ⟨old, true⟩)) = Function.update text (forcesPath output ite) (some ⟨old ++ lines, true⟩) := by
    intro lines
    induction lines with
    | nil => intro old; simp
    | cons l ls ih =>
      intro old
      rw [List.foldl_cons]
      have : printForces output ite l (Function.update text (forcesPath output ite) (some ⟨old, true⟩)) =
          Function.update text (forcesPath output ite) (some ⟨old ++ [l], true⟩) := by
        unfold printForces
        simp
      rw [this, ih, List.append_assoc]
      rfl
  exact this lines []

/-! ### The files after the loop -/

theorem runFiles {P : NSParams K} {nF n : ℕ} {ns : ℕ → NSState K} {f : ℕ → ℤ → K} {disk : Disk K} {e : ℕ → Disk K} (hs : 0 ≤ P.nstart)
    (ite : ∀ k, k ≤ n → (ns k).ite = P.nstart + k)
    (hW : ∀ k, k < n → WrittenForces L P nF (ns (k + 1)) (f (k + 1)) (e k) (e (k + 1)))
    (init0 : ∀ path, (P.nstart = 0 → path ≠ stepPath P.output 0) → e 0 path = disk path)
    (init1 : P.nstart = 0 → ∃ file, e 0 (stepPath P.output 0) = some file ∧ SolutionIn L file (ns 0)) :
    RunFiles L P nF n ns f disk (e n) := by
  have keep : ∀ (path : String) (k m : ℕ), k ≤ m → m ≤ n → (∀ j, k < j → j ≤ m → path ≠ stepPath P.output (P.nstart + j)) →
      e m path = e k path := by
    intro path k m hkm
    induction m, hkm using Nat.le_induction with
    | base => intros; rfl
    | succ m hkm ih =>
      intro hm hp
      rw [(hW m (by omega)).other path (by rw [ite _ hm]; exact hp (m + 1) (by omega) le_rfl)]
      exact ih (by omega) fun j a b => hp j a (by omega)
  have inj : ∀ a b : ℕ, stepPath P.output (P.nstart + a) = stepPath P.output (P.nstart + b) → a = b := by
    intro a b h
    have := stepPath_injective (by omega) (by omega) h
    omega
  have path0 : P.nstart = 0 → stepPath P.output 0 = stepPath P.output (P.nstart + (0 : ℕ)) := by
    intro h
    rw [h]
    rfl
  have last : ∀ k, k + 1 ≤ n → e n (stepPath P.output (P.nstart + ((k + 1 : ℕ) : ℤ))) = e (k + 1) (stepPath P.output (P.nstart + ((k + 1 : ℕ) : ℤ))) := by
    intro k hk
    apply keep _ _ _ hk le_rfl
    intro j hj _ he
    have := inj _ _ he
    omega
  refine ⟨?_, ?_, ?_, ?_⟩
  · intro k hk1 hk h
    obtain ⟨k, rfl⟩ : ∃ k', k = k' + 1 := ⟨k - 1, by omega⟩
    have hw := ite _ hk
    rw [last k hk]
    have := (hW k (by omega)).saved (by rw [hw]; exact h)
    rw [hw] at this
    exact this
  · intro k hk1 hk h
    obtain ⟨k, rfl⟩ : ∃ k', k = k' + 1 := ⟨k - 1, by omega⟩
    have hw := ite _ hk
    have before : e k (stepPath P.output (P.nstart + ((k + 1 : ℕ) : ℤ))) = disk (stepPath P.output (P.nstart + ((k + 1 : ℕ) : ℤ))) := by
      rw [keep _ 0 k (by omega) (by omega) ?_]
      · apply init0
        intro h he
        rw [path0 h] at he
        have := inj _ _ he
        omega
      · intro j hj hjk he
        have := inj _ _ he
        omega
    rw [last k hk]
    have := (hW k (by omega)).restart (by rw [hw]; exact h)
    rw [hw, before] at this
    exact this
  · intro h
    obtain ⟨file, hf, hsol⟩ := init1 h
    refine ⟨file, ?_, hsol⟩
    rw [← hf]
    apply keep _ _ _ (by omega) le_rfl
    intro j hj _ he
    rw [path0 h] at he
    have := inj _ _ he
    omega
  · intro path hp hp0
    rw [← init0 path hp0]
    have : ∀ m, m ≤ n → e m path = e 0 path := by
      intro m
      induction m with
      | zero => intro _; rfl
      | succ m ih =>
        intro hm
        rw [← ih (by omega)]
        have W := hW m (by omega)
        have hw := ite _ hm
        by_cases h : P.nsave ∣ P.nstart + ((m + 1 : ℕ) : ℤ) ∨ P.nrestart ∣ P.nstart + ((m + 1 : ℕ) : ℤ)
        · exact W.other path (by rw [hw]; exact hp (m + 1) (by omega) hm h)
        · rw [W.idle (by rw [hw]; exact fun a => h (Or.inl a)) (by rw [hw]; exact fun a => h (Or.inr a))]
    exact this _ le_rfl

theorem forcesFile {fmt : K → List Char} {bodies : BodyPack K} (hB : PackOK bodies) {n : ℕ} {ns : ℕ → NSState K} {f : ℕ → ℤ → K} :
    ForcesFile fmt bodies n ns f ⟨(List.range n).map fun k => forcesLine fmt (ns (k + 1)).t (bodies.calculateAvgForces (f (k + 1))), true⟩ := by
  refine ⟨rfl, by simp, ?_⟩
  intro k hk
  refine ⟨_, totalForces bodies hB _, ?_⟩
  simp [hk, forcesLine]

end PetIBM
