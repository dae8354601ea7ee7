/-
The bodies of a simulation are those of its configuration.
-/
import Verif.Props.Body
import Verif.Spec.BodyPack

set_option linter.unusedSectionVars false

namespace PetIBM

open Spec

variable {K : Type}

theorem mapM_forall₂ {α β : Type} {g : α → Except Error β} {R : α → β → Prop} (hR : ∀ a b, g a = .ok b → R a b) {l : List α} {ys : List β}
    (h : l.mapM g = .ok ys) : List.Forall₂ R l ys := by
  induction l generalizing ys with
  | nil => cases h; exact .nil
  | cons a l ih =>
    rw [List.mapM_cons] at h
    obtain ⟨y, h1, h⟩ := bind_ok h
    obtain ⟨zs, h2, h⟩ := bind_ok h
    cases h
    exact .cons (hR _ _ h1) (ih h2)

theorem forall₂_mapM {α β : Type} {g : α → Except Error β} {R : α → β → Prop} {f : β → β} (hR : ∀ a b, R a b → g a = .ok (f b)) {l : List α} {ys : List β}
    (h : List.Forall₂ R l ys) : l.mapM g = .ok (ys.map f) := by
  induction h with
  | nil => rfl
  | cons h1 _ ih =>
    rw [List.mapM_cons, hR _ _ h1, ih]
    rfl

theorem absolutePath_iff (f : String) : AbsolutePath f ↔ f.toList.head? = some '/' := by
  unfold AbsolutePath
  cases f.toList with
  | nil => simp
  | cons c l => simp

theorem filePath_iff (node : BodiesNode) (f path : String) : BodyPack.filePath node f = .ok path ↔ FileOf node f path := by
  unfold BodyPack.filePath FileOf
  rw [absolutePath_iff]
  by_cases h : f.toList.head? = some '/'
  · simp [h, eq_comm]
  · simp only [h, if_false, false_and, not_false_eq_true, true_and, false_or]
    cases node.directory with
    | none => simp
    | some d => simp [eq_comm]

theorem bodyFileLoose_lengths {R : Reader K} {f : TextFile} {n : ℕ} {coords : List (List K)} (h : BodyFileLoose R f n coords) :
    ∃ x xs, coords = x :: xs ∧ ∀ y ∈ coords, y.length = x.length := by
  obtain ⟨head, first, body, dim, vs, rest, vss, _, _, _, _, rfl, _, hl, _, h⟩ := h
  refine ⟨vs, vss, rfl, ?_⟩
  intro y hy
  rcases List.mem_cons.1 hy with e | hy
  · rw [e]
  · obtain ⟨i, hi, rfl⟩ := List.mem_iff_getElem.1 hy
    rw [hl]
    exact (List.Forall₂.get h (h.length_eq ▸ hi) hi).2

theorem singleBody_init_iff (R : Reader K) (size dim : ℕ) (file : Option TextFile) (b : SingleBody K) :
    SingleBody.init R size dim file = .ok b ↔ ∃ f, file = some f ∧ BodyFileLoose R f b.nPts b.coords ∧ (∀ x ∈ b.coords, x.length = dim) ∧ b.dim = dim ∧
      b.lcl = dmdaDefault b.nPts size := by
  constructor
  · intro h
    obtain ⟨⟨n, coords⟩, h1, h⟩ := bind_ok h
    cases file with
    | none => cases h1
    | some f =>
      rw [C30_accepted_iff_partial] at h1
      obtain ⟨x, xs, rfl, hx⟩ := bodyFileLoose_lengths h1
      simp only at h
      split_ifs at h with hd
      cases h
      push Not at hd
      exact ⟨f, rfl, h1, by rw [hd]; exact hx, rfl, rfl⟩
  · rintro ⟨f, rfl, h1, h2, h3, h4⟩
    have h5 := (C30_accepted_iff_partial R f _ _).2 h1
    obtain ⟨x, xs, e, _⟩ := bodyFileLoose_lengths h1
    unfold SingleBody.init
    rw [h5]
    simp only [bind, Except.bind]
    rw [e]
    simp only
    rw [if_neg (by rw [h2 x (by rw [e]; exact List.mem_cons_self ..)]; simp)]
    obtain ⟨_, _, _, _⟩ := b
    simp only at e h3 h4
    subst h3 h4
    rw [e]
    rfl

/-- C79. The bodies that the program creates are those of the configuration: one for every entry, in their order, each with the points of its
file. A relative path is a path in the directory of the simulation. Missing: that every other configuration is reported as an error, which is
false (`C79_false_reported`, `C30_false_program`). -/
theorem C79_bodies_partial (R : Reader K) (fs : String → Option TextFile) (size dim : ℕ) (node : BodiesNode) (P : BodyPack K)
    (h : createBodyPack R fs size dim node = .ok (some P)) :
    P.dim = dim ∧ P.mpiSize = size ∧ ∃ l, node.bodies = some l ∧ List.Forall₂ (BodyFrom (BodyFileLoose R) fs dim node) l P.bodies := by
  have h : BodyPack.init R fs size dim node = .ok P := by
    unfold createBodyPack at h
    split at h
    · rename_i h1; cases h; exact h1
    all_goals cases h
  unfold BodyPack.init at h
  cases hn : node.bodies with
  | none => rw [hn] at h; cases h
  | some l =>
    rw [hn] at h
    obtain ⟨bodies, h1, h⟩ := bind_ok h
    cases h
    refine ⟨rfl, rfl, l, rfl, mapM_forall₂ ?_ h1⟩
    intro bn b hb
    cases hf : bn.file with
    | none => rw [hf] at hb; cases hb
    | some f =>
      rw [hf] at hb
      obtain ⟨path, h2, hb⟩ := bind_ok hb
      obtain ⟨o, h3, hb⟩ := bind_ok hb
      cases o with
      | none => cases hb
      | some b' =>
        cases hb
        unfold createSingleBody at h3
        split_ifs at h3 with ht
        cases h4 : SingleBody.init R size dim (fs path) with
        | error e => rw [h4] at h3; cases e <;> cases h3
        | ok b' =>
          rw [h4] at h3
          cases h3
          obtain ⟨file, h5, h6, h7, h8, _⟩ := (singleBody_init_iff R size dim _ _).1 h4
          refine ⟨?_, f, path, file, hf, (filePath_iff node f path).1 h2, h5, h6, h7, h8⟩
          cases hbt : bn.type with
          | none => exact Or.inl rfl
          | some t => rw [hbt] at ht; exact Or.inr (congrArg some ht)

/-- C79. If every entry describes a body with a well-formed file, the program creates these bodies. -/
theorem C79_accepted (R : Reader K) (fs : String → Option TextFile) (size dim : ℕ) (node : BodiesNode) (l : List BodyNode) (hl : node.bodies = some l)
    (h : ∀ bn ∈ l, Describes R fs dim node bn) :
    ∃ P, createBodyPack R fs size dim node = .ok (some P) ∧ List.Forall₂ (BodyFrom (BodyFileOK R) fs dim node) l P.bodies := by
  have hex : ∃ bs : List (SingleBody K), List.Forall₂ (BodyFrom (BodyFileOK R) fs dim node) l bs := by
    clear hl
    induction l with
    | nil => exact ⟨[], .nil⟩
    | cons a l ih =>
      obtain ⟨b, hb⟩ := h a (List.mem_cons_self ..)
      obtain ⟨bs, hbs⟩ := ih fun bn hbn => h bn (List.mem_cons_of_mem _ hbn)
      exact ⟨b :: bs, .cons hb hbs⟩
  obtain ⟨bs, hbs⟩ := hex
  let place : SingleBody K → SingleBody K := fun b => { b with lcl := dmdaDefault b.nPts size }
  refine ⟨⟨dim, size, bs.map place⟩, ?_, ?_⟩
  · have : BodyPack.init R fs size dim node = .ok ⟨dim, size, bs.map place⟩ := by
      unfold BodyPack.init
      rw [hl]
      simp only
      rw [forall₂_mapM (f := place) ?_ hbs]
      · rfl
      · rintro bn b ⟨ht, f, path, file, h1, h2, h3, h4, h5, h6⟩
        have h7 : SingleBody.init R size dim (fs path) = .ok (place b) :=
          (singleBody_init_iff R size dim _ _).2 ⟨file, h3, (C30_accepted_iff_partial R file _ _).1 (C30_well_formed_partial R file _ _ h4), h5, h6, rfl⟩
        have h8 : createSingleBody R size dim (bn.type.getD "points") (fs path) = .ok (some (place b)) := by
          unfold createSingleBody
          rw [h7, if_pos (by rcases ht with ht | ht <;> rw [ht] <;> rfl)]
        rw [h1]
        simp only [(filePath_iff node f path).2 h2, h8, bind, Except.bind]
        rfl
    unfold createBodyPack
    rw [this]
  · rw [List.forall₂_map_right_iff]
    exact hbs.imp fun _ _ h => h

/-- C79 is false as stated for errors: without the key "bodies", or with an entry without file or of an unknown type, `createBodyPack` reports no
error, and the pack stays half-initialised. -/
theorem C79_false_reported (R : Reader K) (fs : String → Option TextFile) (size dim : ℕ) :
    createBodyPack R fs size dim ⟨none, none⟩ = .ok none ∧
    createBodyPack R fs size dim ⟨some [⟨none, none, none⟩], none⟩ = .ok none ∧
    createBodyPack R fs size dim ⟨some [⟨none, some "surface", some "/b"⟩], none⟩ = .ok none := by
  refine ⟨rfl, rfl, ?_⟩
  have : BodyPack.init R fs size dim ⟨some [⟨none, some "surface", some "/b"⟩], none⟩ = .error .argWrong := by
    have h : BodyPack.filePath ⟨some [⟨none, some "surface", some "/b"⟩], none⟩ "/b" = .ok "/b" := (filePath_iff _ _ _).2 (Or.inl ⟨⟨['b'], by decide⟩, rfl⟩)
    unfold BodyPack.init createSingleBody
    simp only [List.mapM_cons, h, Option.getD_some, if_neg (show ¬ "surface" = "points" by decide), bind, Except.bind]
  unfold createBodyPack
  rw [this]

theorem mapM_first {α β : Type} {g : α → Except Error β} {e : Error} (l : List α) (a : α) (r : List α) (hl : ∀ x ∈ l, ∃ y, g x = .ok y)
    (ha : g a = .error e) : (l ++ a :: r).mapM g = .error e := by
  induction l with
  | nil => rw [List.nil_append, List.mapM_cons, ha]; rfl
  | cons x l ih =>
    obtain ⟨y, hy⟩ := hl x (List.mem_cons_self ..)
    rw [List.cons_append, List.mapM_cons, hy]
    simp only [bind, Except.bind]
    rw [ih fun z hz => hl z (List.mem_cons_of_mem _ hz)]

/-- C79, the first entry that describes no body: without file or of an unknown type it leaves the pack half-initialised without a report; with a relative
path but no directory of the simulation the program ends with an exception; a file that does not exist is followed by undefined behaviour. -/
theorem C79_first_wrong_entry (R : Reader K) (fs : String → Option TextFile) (size dim : ℕ) (node : BodiesNode) (l r : List BodyNode) (bn : BodyNode)
    (hn : node.bodies = some (l ++ bn :: r)) (h : ∀ bn ∈ l, Describes R fs dim node bn) :
    (bn.file = none → createBodyPack R fs size dim node = .ok none) ∧
    ∀ f, bn.file = some f →
      (¬ AbsolutePath f → node.directory = none → createBodyPack R fs size dim node = .error .exception) ∧
      ∀ path, FileOf node f path →
        ((∃ t, bn.type = some t ∧ t ≠ "points") → createBodyPack R fs size dim node = .ok none) ∧
        ((bn.type = none ∨ bn.type = some "points") → fs path = none → createBodyPack R fs size dim node = .error .ub) := by
  obtain ⟨g, hg0, hg1, hinit⟩ : ∃ g : BodyNode → Except Error (SingleBody K), (∀ x, x.file = none → g x = .error .argWrong) ∧
      (∀ x f, x.file = some f → g x = (BodyPack.filePath node f >>= fun path =>
        createSingleBody R size dim (x.type.getD "points") (fs path) >>= fun o => o.elim (.error .ub) pure)) ∧
      BodyPack.init R fs size dim node = ((l ++ bn :: r).mapM g >>= fun bodies => pure { dim := dim, mpiSize := size, bodies := bodies }) := by
    unfold BodyPack.init
    rw [hn]
    refine ⟨_, fun x hx => ?_, fun x f hx => ?_, rfl⟩
    · simp only [hx]
    · simp only [hx]
      congr 1
      funext path
      congr 1
      funext o
      cases o <;> rfl
  have hok : ∀ x ∈ l, ∃ y, g x = .ok y := by
    intro x hx
    obtain ⟨b, ht, f, path, file, h1, h2, h3, h4, h5, h6⟩ := h x hx
    let b' : SingleBody K := { b with lcl := dmdaDefault b.nPts size }
    have h7 : SingleBody.init R size dim (fs path) = .ok b' :=
      (singleBody_init_iff R size dim _ _).2 ⟨file, h3, (C30_accepted_iff_partial R file _ _).1 (C30_well_formed_partial R file _ _ h4), h5, h6, rfl⟩
    have h8 : createSingleBody R size dim (x.type.getD "points") (fs path) = .ok (some b') := by
      unfold createSingleBody
      rw [h7, if_pos (by rcases ht with ht | ht <;> rw [ht] <;> rfl)]
    refine ⟨b', ?_⟩
    rw [hg1 x f h1, (filePath_iff node f path).2 h2]
    simp only [bind, Except.bind, h8]
    rfl
  have key : ∀ e, g bn = .error e → BodyPack.init R fs size dim node = .error e := by
    intro e he
    rw [hinit, mapM_first l bn r hok he]
    rfl
  refine ⟨fun hf => ?_, fun f hf => ⟨fun h1 h2 => ?_, fun path hp => ⟨fun ht => ?_, fun ht h3 => ?_⟩⟩⟩
  · unfold createBodyPack
    rw [key .argWrong (hg0 _ hf)]
  · have : BodyPack.filePath node f = .error .exception := by
      unfold BodyPack.filePath
      rw [absolutePath_iff] at h1
      rw [if_neg h1, h2]
    unfold createBodyPack
    rw [key .exception (by rw [hg1 bn f hf, this]; rfl)]
  · obtain ⟨t, ht, hne⟩ := ht
    unfold createBodyPack
    rw [key .argWrong (by
      rw [hg1 bn f hf, (filePath_iff node f path).2 hp]
      simp only [ht, Option.getD_some, createSingleBody, if_neg hne, bind, Except.bind])]
  · have hty : bn.type.getD "points" = "points" := by rcases ht with ht | ht <;> rw [ht] <;> rfl
    unfold createBodyPack
    rw [key .ub (by
      rw [hg1 bn f hf, (filePath_iff node f path).2 hp]
      simp only [hty, h3, bind, Except.bind]
      rfl)]

/-- Two bodies in one directory, one of them given by its absolute path. -/
example : ∀ bn ∈ [⟨none, none, some "cylinder.body"⟩, ⟨some "wing", some "points", some "/data/wing.body"⟩],
    Describes decimalReader (fun path => if path = "/run/cylinder.body" ∨ path = "/data/wing.body" then some exampleBodyFile else none) 2
      ⟨some [⟨none, none, some "cylinder.body"⟩, ⟨some "wing", some "points", some "/data/wing.body"⟩], some "/run"⟩ bn := by
  intro bn hbn
  rcases List.mem_cons.1 hbn with rfl | hbn
  · refine ⟨⟨2, 2, [[0, 1/4], [-3/2, 1]], []⟩, Or.inl rfl, "cylinder.body", "/run/cylinder.body", exampleBodyFile, rfl, Or.inr ⟨?_, "/run", rfl, by decide⟩, ?_, exampleBodyFile_ok, by decide, rfl⟩
    · rw [absolutePath_iff]; decide
    · exact if_pos (Or.inl rfl)
  · rcases List.mem_cons.1 hbn with rfl | hbn
    · refine ⟨⟨2, 2, [[0, 1/4], [-3/2, 1]], []⟩, Or.inr rfl, "/data/wing.body", "/data/wing.body", exampleBodyFile, rfl, Or.inl ⟨?_, rfl⟩, ?_, exampleBodyFile_ok, by decide, rfl⟩
      · rw [absolutePath_iff]; decide
      · exact if_pos (Or.inr rfl)
    · cases hbn

/-- A body that is well described, followed by one whose path is relative although the simulation has no directory. -/
example (fs : String → Option TextFile) (hfs : fs "/data/wing.body" = some exampleBodyFile) (size : ℕ) :
    createBodyPack decimalReader fs size 2 ⟨some [⟨some "wing", some "points", some "/data/wing.body"⟩, ⟨none, none, some "cylinder.body"⟩], none⟩ =
      .error .exception := by
  refine ((C79_first_wrong_entry decimalReader fs size 2 _ [⟨some "wing", some "points", some "/data/wing.body"⟩] [] ⟨none, none, some "cylinder.body"⟩
    rfl ?_).2 _ rfl).1 ?_ rfl
  · intro bn hbn
    rcases List.mem_cons.1 hbn with rfl | hbn
    · refine ⟨⟨2, 2, [[0, 1/4], [-3/2, 1]], []⟩, Or.inr rfl, "/data/wing.body", "/data/wing.body", exampleBodyFile, rfl, Or.inl ⟨?_, rfl⟩, hfs, exampleBodyFile_ok, by decide, rfl⟩
      rw [absolutePath_iff]; decide
    · cases hbn
  · rw [absolutePath_iff]; decide

end PetIBM
