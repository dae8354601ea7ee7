/-
Properties C53 and C69: settings.
-/
import Verif.Spec.Settings
import Mathlib.Tactic.SplitIfs

namespace PetIBM

open Spec

variable {V σ : Type}

theorem Settings.get_assign (S : Settings V) (key k : String) (v : V) :
    (S.assign key v).get k = if key = k then some v else S.get k := by
  induction S with
  | nil => simp [Settings.assign, Settings.get]
  | cons x rest ih =>
    obtain ⟨a, w⟩ := x
    by_cases h : a = key
    · subst h
      simp only [Settings.assign, Settings.get, if_true]
      split_ifs <;> rfl
    · simp only [Settings.assign, Settings.get, if_neg h, ih]
      by_cases h1 : a = k
      · subst h1
        rw [if_pos rfl, if_neg (fun e => h e.symm), if_pos rfl]
      · rw [if_neg h1, if_neg h1]

theorem lastValue_append (key : String) (l : List (String × V)) (p : String × V) :
    lastValue key (l ++ [p]) = if p.1 = key then some p.2 else lastValue key l := by
  unfold lastValue
  rw [List.filter_append]
  by_cases h : p.1 = key <;> simp [h]

/-- Settings that hold the last value of every key. -/
def Holds (S : Settings V) (l : List (String × V)) : Prop := ∀ key, S.get key = lastValue key l

theorem Holds.assign {S : Settings V} {l : List (String × V)} (h : Holds S l) (k : String) (v : V) :
    Holds (S.assign k v) (l ++ [(k, v)]) := by
  intro key
  rw [Settings.get_assign, lastValue_append, h key]

theorem Holds.items {S S' : Settings V} {l : List (String × V)} (h : Holds S l) {pairs : List (Option String × V)}
    (e : assignItems pairs S = .ok S') : ∃ m : List (String × V), pairs = m.map (fun p => (some p.1, p.2)) ∧ Holds S' (l ++ m) := by
  induction pairs generalizing S l with
  | nil =>
    cases e
    exact ⟨[], rfl, by simpa using h⟩
  | cons x rest ih =>
    obtain ⟨k, v⟩ := x
    cases k with
    | none => cases e
    | some k =>
      obtain ⟨m, hm, hh⟩ := ih (h.assign k v) e
      exact ⟨(k, v) :: m, by rw [hm]; rfl, by simpa using hh⟩

theorem assignItems_ok (m : List (String × V)) (S : Settings V) :
    ∃ S', assignItems (m.map fun p => (some p.1, p.2)) S = .ok S' := by
  induction m generalizing S with
  | nil => exact ⟨S, rfl⟩
  | cons x m ih => exact ih _

theorem Holds.read {S S' : Settings V} {l : List (String × V)} (h : Holds S l) {files : String → YamlFile V} {path : String}
    (e : readYAMLFile files path S = .ok S') : ∃ m, Sections (files path) m ∧ Holds S' (l ++ m) := by
  unfold readYAMLFile at e
  split at e
  · cases e
  · cases e
  · rename_i hf
    cases e
    exact ⟨[], hf ▸ .scalar, by simpa using h⟩
  · rename_i n hf
    split_ifs at e with h0
    subst h0
    cases e
    exact ⟨[], hf ▸ .empty, by simpa using h⟩
  · rename_i pairs hf
    obtain ⟨m, hm, hh⟩ := h.items e
    exact ⟨m, by rw [hf, hm]; exact .map m, hh⟩

theorem readYAMLFile_ok {files : String → YamlFile V} {path : String} {m : List (String × V)} (h : Sections (files path) m)
    (S : Settings V) : ∃ S', readYAMLFile files path S = .ok S' := by
  unfold readYAMLFile
  generalize files path = F at h
  cases h with
  | scalar => exact ⟨S, rfl⟩
  | empty => exact ⟨S, rfl⟩
  | map => exact assignItems_ok m S

theorem Holds.cli {S S' : Settings V} {l : List (String × V)} (h : Holds S l) {files : String → YamlFile V} {opts : String → Option String}
    {os : List String} (e : readCliFiles opts files os S = .ok S') :
    ∃ ms : List (List (String × V)), List.Forall₂ (fun path m => Sections (files path) m) (os.filterMap opts) ms ∧ Holds S' (l ++ ms.flatten) := by
  induction os generalizing S l with
  | nil =>
    cases e
    exact ⟨[], .nil, by simpa using h⟩
  | cons o os ih =>
    unfold readCliFiles at e
    split at e
    · rename_i ho
      obtain ⟨ms, h1, h2⟩ := ih h e
      exact ⟨ms, by simpa [List.filterMap_cons, ho] using h1, h2⟩
    · rename_i path ho
      cases hr : readYAMLFile files path S with
      | error x => rw [hr] at e; cases e
      | ok T =>
        rw [hr] at e
        obtain ⟨m, hm, hh⟩ := h.read hr
        obtain ⟨ms, h1, h2⟩ := ih hh e
        refine ⟨m :: ms, ?_, by simpa using h2⟩
        rw [List.filterMap_cons, ho]
        exact .cons hm h1

theorem forall₂_left {α β : Type} {R : α → β → Prop} {l : List α} {m : List β} (h : List.Forall₂ R l m) : ∀ a ∈ l, ∃ b, R a b := by
  induction h with
  | nil => intro a ha; cases ha
  | cons hab _ ih =>
    intro a ha
    rcases List.mem_cons.1 ha with rfl | ha
    · exact ⟨_, hab⟩
    · exact ih a ha

theorem forall₂_right {α β : Type} {R : α → β → Prop} {l : List α} {m : List β} (h : List.Forall₂ R l m) : ∀ b ∈ m, ∃ a ∈ l, R a b := by
  induction h with
  | nil => intro a ha; cases ha
  | cons hab _ ih =>
    intro a ha
    rcases List.mem_cons.1 ha with rfl | ha
    · exact ⟨_, List.mem_cons_self, hab⟩
    · obtain ⟨x, hx, hr⟩ := ih a ha
      exact ⟨x, List.mem_cons_of_mem _ hx, hr⟩

theorem readCliFiles_ok {files : String → YamlFile V} {opts : String → Option String} {os : List String}
    (h : ∀ path ∈ os.filterMap opts, ∃ m, Sections (files path) m) (S : Settings V) : ∃ S', readCliFiles opts files os S = .ok S' := by
  induction os generalizing S with
  | nil => exact ⟨S, rfl⟩
  | cons o os ih =>
    unfold readCliFiles
    cases ho : opts o with
    | none =>
      refine ih (fun p hp => h p ?_) S
      simpa [List.filterMap_cons, ho] using hp
    | some path =>
      rw [List.filterMap_cons, ho] at h
      obtain ⟨m, hm⟩ := h path List.mem_cons_self
      obtain ⟨T, hT⟩ := readYAMLFile_ok hm S
      obtain ⟨S', hS⟩ := ih (fun p hp => h p (List.mem_cons_of_mem _ hp)) T
      exact ⟨S', by simp only [hT]; exact hS⟩

/-- The settings before the first file is read. -/
def initialSettings (text : String → V) (opts : String → Option String) : Settings V :=
  let directory := (opts "-directory").getD "./"
  let output := (opts "-output").getD (directory ++ "/output")
  [("directory", text directory), ("output", text output), ("logs", text ((opts "-logs").getD (output ++ "/logs")))]

theorem getSettings_eq (text : String → V) (opts : String → Option String) (files : String → YamlFile V) (fs : FileSystem σ) (s : σ) :
    getSettings text opts files fs s = (do
      let directory := (opts "-directory").getD "./"
      let output := (opts "-output").getD (directory ++ "/output")
      let s ← createDirectory fs s output
      let s ← createDirectory fs s ((opts "-logs").getD (output ++ "/logs"))
      let S ← readYAMLFile files ((opts "-config").getD (directory ++ "/config.yaml")) (initialSettings text opts)
      let S ← readCliFiles opts files cliOpts S
      return (S, s)) := by
  unfold getSettings initialSettings
  rcases opts "-directory" with _ | d <;> rcases opts "-output" with _ | o <;> rcases opts "-logs" with _ | l <;>
    simp [Settings.assign]

theorem initialSettings_holds (text : String → V) (opts : String → Option String) :
    Holds (initialSettings text opts) (directories text opts) := by
  intro key
  unfold initialSettings directories lastValue
  simp only [Settings.get]
  by_cases h1 : "directory" = key
  · subst h1; simp
  by_cases h2 : "output" = key
  · subst h2; simp
  by_cases h3 : "logs" = key
  · subst h3; simp
  simp [h1, h2, h3]

/-- C53. When the settings are read, every file that was read is a map with strings as keys (or empty), and every key has the value of the last
pair with this key in the sequence: directories, configuration file, files of the options `-mesh`, `-flow`, `-parameters`, `-bodies`, `-probes`.
In particular a section that no later file defines keeps its value, and a key that occurs nowhere is undefined. -/
theorem C53_last_file_wins (text : String → V) (opts : String → Option String) (files : String → YamlFile V) (fs : FileSystem σ) (s s' : σ)
    (S : Settings V) (h : getSettings text opts files fs s = .ok (S, s')) :
    ∃ ms : List (List (String × V)), List.Forall₂ (fun path m => Sections (files path) m) (filesRead opts) ms ∧
      ∀ key, S.get key = lastValue key (directories text opts ++ ms.flatten) := by
  rw [getSettings_eq] at h
  simp only [bind, Except.bind] at h
  split at h
  · cases h
  split at h
  · cases h
  split at h
  · cases h
  rename_i T hT
  split at h
  · cases h
  rename_i T' hT'
  cases h
  obtain ⟨m, hm, h1⟩ := (initialSettings_holds text opts).read hT
  obtain ⟨ms, h2, h3⟩ := h1.cli hT'
  exact ⟨m :: ms, .cons hm h2, by simpa [Holds] using h3⟩

/-- C53, when it succeeds: exactly if both directories can be created (or exist) and every file is a map with strings as keys or empty. -/
theorem C53_success (text : String → V) (opts : String → Option String) (files : String → YamlFile V) (fs : FileSystem σ) (s : σ) :
    (∃ R, getSettings text opts files fs s = .ok R) ↔
      (∃ s₁ s₂ output logs, output = (opts "-output").getD ((opts "-directory").getD "./" ++ "/output") ∧
        logs = (opts "-logs").getD (output ++ "/logs") ∧ (fs.mkdir s output).2 ≠ .failed ∧ (fs.mkdir s output).1 = s₁ ∧
        (fs.mkdir s₁ logs).2 ≠ .failed ∧ (fs.mkdir s₁ logs).1 = s₂) ∧ ∀ path ∈ filesRead opts, ∃ m, Sections (files path) m := by
  have hc : ∀ s dir, (∃ s', createDirectory fs s dir = .ok s') ↔ (fs.mkdir s dir).2 ≠ .failed := by
    intro s dir
    unfold createDirectory
    rcases fs.mkdir s dir with ⟨a, _ | _ | _⟩ <;> simp
  have hv : ∀ s s' dir, createDirectory fs s dir = .ok s' → (fs.mkdir s dir).1 = s' := by
    intro s s' dir h
    unfold createDirectory at h
    rcases hm : fs.mkdir s dir with ⟨a, _ | _ | _⟩ <;> rw [hm] at h <;> first | exact Except.ok.inj h | cases h
  constructor
  · rintro ⟨⟨S, s'⟩, h⟩
    have hf := C53_last_file_wins text opts files fs s s' S h
    rw [getSettings_eq] at h
    simp only [bind, Except.bind] at h
    split at h
    · cases h
    rename_i s₁ h₁
    split at h
    · cases h
    rename_i s₂ h₂
    refine ⟨⟨s₁, s₂, _, _, rfl, rfl, (hc _ _).1 ⟨_, h₁⟩, hv _ _ _ h₁, (hc _ _).1 ⟨_, h₂⟩, hv _ _ _ h₂⟩, ?_⟩
    obtain ⟨ms, hms, _⟩ := hf
    intro path hp
    exact forall₂_left hms path hp
  · rintro ⟨⟨s₁, s₂, output, logs, rfl, rfl, a, e, b, e'⟩, hf⟩
    obtain ⟨t₁, h₁⟩ := (hc _ _).2 a
    obtain rfl := (hv _ _ _ h₁).symm.trans e
    obtain ⟨t₂, h₂⟩ := (hc _ _).2 b
    obtain ⟨m, hm⟩ := hf _ List.mem_cons_self
    obtain ⟨S₁, hS₁⟩ := readYAMLFile_ok hm (initialSettings text opts)
    obtain ⟨S₂, hS₂⟩ := readCliFiles_ok (os := cliOpts) (fun p hp => hf p (List.mem_cons_of_mem _ hp)) S₁
    refine ⟨(S₂, t₂), ?_⟩
    rw [getSettings_eq]
    simp only [bind, Except.bind, h₁, h₂, hS₁, hS₂]
    rfl

/-- C53, the error of a missing file: when the directories can be created and the first file that is no map with strings as keys (nor empty)
is missing, reading stops with the error of the reader. The configuration file is needed also when every section comes from other files. -/
theorem C53_missing_file (text : String → V) (opts : String → Option String) (files : String → YamlFile V) (fs : FileSystem σ) (s : σ)
    (before after : List String) (path : String) (hsplit : filesRead opts = before ++ path :: after)
    (hbefore : ∀ q ∈ before, ∃ m, Sections (files q) m) (hmissing : files path = .missing) (hmk : ∀ s d, (fs.mkdir s d).2 ≠ .failed) :
    getSettings text opts files fs s = .error .fileRead := by
  have hc : ∀ s dir, ∃ s', createDirectory fs s dir = .ok s' := by
    intro s dir
    have := hmk s dir
    unfold createDirectory
    rcases h : fs.mkdir s dir with ⟨a, _ | _ | _⟩
    · exact ⟨_, rfl⟩
    · exact ⟨_, rfl⟩
    · rw [h] at this; exact absurd rfl this
  have hcli : ∀ (os : List String) (b a : List String) (S : Settings V), os.filterMap opts = b ++ path :: a →
      (∀ q ∈ b, ∃ m, Sections (files q) m) → readCliFiles opts files os S = .error .fileRead := by
    intro os
    induction os with
    | nil => intro b a S e; cases b <;> cases e
    | cons o os ih =>
      intro b a S e hb
      unfold readCliFiles
      cases ho : opts o with
      | none =>
        rw [List.filterMap_cons, ho] at e
        exact ih b a S e hb
      | some q =>
        rw [List.filterMap_cons, ho] at e
        cases b with
        | nil =>
          cases e
          simp only [readYAMLFile, hmissing]
          rfl
        | cons q' b =>
          have e' : q :: os.filterMap opts = q' :: (b ++ path :: a) := e
          injection e' with e1 e2
          subst e1
          obtain ⟨m, hm⟩ := hb q List.mem_cons_self
          obtain ⟨T, hT⟩ := readYAMLFile_ok hm S
          simp only [hT]
          exact ih b a T e2 fun x hx => hb x (List.mem_cons_of_mem _ hx)
  rw [getSettings_eq]
  obtain ⟨s₁, h₁⟩ := hc s ((opts "-output").getD ((opts "-directory").getD "./" ++ "/output"))
  obtain ⟨s₂, h₂⟩ := hc s₁ ((opts "-logs").getD (((opts "-output").getD ((opts "-directory").getD "./" ++ "/output")) ++ "/logs"))
  simp only [bind, Except.bind, h₁, h₂]
  unfold filesRead at hsplit
  cases before with
  | nil =>
    obtain ⟨e, _⟩ := List.cons.inj hsplit
    simp only [readYAMLFile, e, hmissing]
  | cons q b =>
    obtain ⟨rfl, e⟩ := List.cons.inj hsplit
    obtain ⟨m, hm⟩ := hbefore _ List.mem_cons_self
    obtain ⟨T, hT⟩ := readYAMLFile_ok hm (initialSettings text opts)
    simp only [hT]
    rw [hcli cliOpts b after T e fun x hx => hbefore x (List.mem_cons_of_mem _ hx)]

/-- C53. Whatever goes wrong, the program stops with the error code of the reader (a directory that cannot be created, a file that cannot be opened) or
with an exception of yaml-cpp; nothing is undefined. -/
theorem C53_error_kinds (text : String → V) (opts : String → Option String) (files : String → YamlFile V) (fs : FileSystem σ) (s : σ) (e : Error)
    (h : getSettings text opts files fs s = .error e) :
    (e = .fileRead ∧ ((∃ s dir, (fs.mkdir s dir).2 = .failed) ∨ ∃ path ∈ filesRead opts, files path = .missing)) ∨
      (e = .exception ∧ ∃ path ∈ filesRead opts, files path ≠ .missing ∧ ¬ ∃ m, Sections (files path) m) := by
  have hc : ∀ s dir e, createDirectory fs s dir = .error e → e = .fileRead ∧ (fs.mkdir s dir).2 = .failed := by
    intro s dir e h
    unfold createDirectory at h
    rcases hm : fs.mkdir s dir with ⟨a, _ | _ | _⟩ <;> rw [hm] at h
    · cases h
    · cases h
    · cases h; exact ⟨rfl, rfl⟩
  have hi : ∀ (l : List (Option String × V)) S e, assignItems l S = .error e → e = .exception := by
    intro l
    induction l with
    | nil => intro S e h; cases h
    | cons a l ih =>
      obtain ⟨_ | k, v⟩ := a
      · intro S e h; cases h; rfl
      · intro S e h; exact ih _ e h
  have hr : ∀ path S e, readYAMLFile files path S = .error e →
      (e = .fileRead ∧ files path = .missing) ∨ (e = .exception ∧ files path ≠ .missing ∧ ¬ ∃ m, Sections (files path) m) := by
    intro path S e h
    by_cases hs : ∃ m, Sections (files path) m
    · obtain ⟨m, hm⟩ := hs
      obtain ⟨T, hT⟩ := readYAMLFile_ok hm S
      rw [hT] at h
      cases h
    · unfold readYAMLFile at h
      cases hf : files path with
      | missing => rw [hf] at h; cases h; exact Or.inl ⟨rfl, rfl⟩
      | invalid => rw [hf] at h hs; cases h; exact Or.inr ⟨rfl, by simp, hs⟩
      | scalar => rw [hf] at h; cases h
      | sequence n =>
        rw [hf] at h hs
        simp only at h
        split_ifs at h
        cases h
        exact Or.inr ⟨rfl, by simp, hs⟩
      | map pairs =>
        rw [hf] at h hs
        exact Or.inr ⟨hi _ _ _ h, by simp, hs⟩
  have hcli : ∀ (os : List String) S e, readCliFiles opts files os S = .error e → ∃ path ∈ os.filterMap opts,
      (e = .fileRead ∧ files path = .missing) ∨ (e = .exception ∧ files path ≠ .missing ∧ ¬ ∃ m, Sections (files path) m) := by
    intro os
    induction os with
    | nil => intro S e h; cases h
    | cons o os ih =>
      intro S e h
      unfold readCliFiles at h
      cases ho : opts o with
      | none =>
        rw [ho] at h
        obtain ⟨path, h1, h2⟩ := ih _ _ h
        exact ⟨path, by rw [List.filterMap_cons, ho]; exact h1, h2⟩
      | some q =>
        rw [ho] at h
        simp only [bind, Except.bind] at h
        split at h
        · rename_i e' he
          cases h
          exact ⟨q, by rw [List.filterMap_cons, ho]; exact List.mem_cons_self, hr _ _ _ he⟩
        · obtain ⟨path, h1, h2⟩ := ih _ _ h
          exact ⟨path, by rw [List.filterMap_cons, ho]; exact List.mem_cons_of_mem _ h1, h2⟩
  have fin : ∀ path ∈ filesRead opts, (e = .fileRead ∧ files path = .missing) ∨ (e = .exception ∧ files path ≠ .missing ∧ ¬ ∃ m, Sections (files path) m) →
      (e = .fileRead ∧ ((∃ s dir, (fs.mkdir s dir).2 = .failed) ∨ ∃ path ∈ filesRead opts, files path = .missing)) ∨
      (e = .exception ∧ ∃ path ∈ filesRead opts, files path ≠ .missing ∧ ¬ ∃ m, Sections (files path) m) := by
    rintro path hp (⟨h1, h2⟩ | ⟨h1, h2⟩)
    · exact Or.inl ⟨h1, Or.inr ⟨path, hp, h2⟩⟩
    · exact Or.inr ⟨h1, path, hp, h2⟩
  rw [getSettings_eq] at h
  simp only [bind, Except.bind] at h
  split at h
  · rename_i he
    cases h
    exact Or.inl ⟨(hc _ _ _ he).1, Or.inl ⟨_, _, (hc _ _ _ he).2⟩⟩
  split at h
  · rename_i he
    cases h
    exact Or.inl ⟨(hc _ _ _ he).1, Or.inl ⟨_, _, (hc _ _ _ he).2⟩⟩
  split at h
  · rename_i he
    cases h
    exact fin _ List.mem_cons_self (hr _ _ _ he)
  split at h
  · rename_i he
    cases h
    obtain ⟨path, h1, h2⟩ := hcli _ _ _ he
    exact fin path (List.mem_cons_of_mem _ h1) h2
  · cases h

/-- Options of the example: a working directory and a file for the flow. -/
def exampleOpts : String → Option String
  | "-directory" => some "run"
  | "-flow" => some "flow.yaml"
  | _ => none

/-- Files of the example: sections are numbers. -/
def exampleFiles : String → YamlFile String
  | "run/config.yaml" => .map [(some "mesh", "m"), (some "flow", "f0")]
  | "flow.yaml" => .map [(some "flow", "f1")]
  | _ => .missing

/-- A file system that only records the directories made. -/
def recordingFS : FileSystem (List String) where
  mkdir s d := if d ∈ s then (s, .eexist) else (d :: s, .created)

/-- The section `flow` comes from the second file, `mesh` is kept from the first. -/
example : getSettings id exampleOpts exampleFiles recordingFS [] =
    .ok ([("directory", "run"), ("output", "run/output"), ("logs", "run/output/logs"), ("mesh", "m"), ("flow", "f1")],
      ["run/output/logs", "run/output"]) := by
  rfl

/-- Both kinds of error occur. -/
example : getSettings id exampleOpts exampleFiles ⟨fun s _ => (s, .failed)⟩ ([] : List String) = .error .fileRead ∧
    getSettings id exampleOpts (fun p => if p = "flow.yaml" then .map [(none, "x")] else exampleFiles p) recordingFS [] = .error .exception := by
  constructor <;> rfl

example : filesRead exampleOpts = ["run/config.yaml", "flow.yaml"] := by rfl

example : getSettings id exampleOpts (fun p => if p = "flow.yaml" then .missing else exampleFiles p) recordingFS [] = .error .fileRead := by
  rfl

/-- C69. When no file defines the keys `directory`, `output` and `logs`, the settings hold the directories of the command line (or the default
ones below them), and `output` and `logs` have been made, in this order. The condition on the files is what is missing:
`C69_false_overridden`. -/
theorem C69_directories_partial (text : String → V) (opts : String → Option String) (files : String → YamlFile V) (fs : FileSystem σ) (s s' : σ)
    (S : Settings V) (h : getSettings text opts files fs s = .ok (S, s'))
    (hfiles : ∀ path ∈ filesRead opts, ∀ m, Sections (files path) m → ∀ p ∈ m, p.1 ≠ "directory" ∧ p.1 ≠ "output" ∧ p.1 ≠ "logs") :
    ∃ directory output logs, directory = (opts "-directory").getD "./" ∧ output = (opts "-output").getD (directory ++ "/output") ∧
      logs = (opts "-logs").getD (output ++ "/logs") ∧
      S.get "directory" = some (text directory) ∧ S.get "output" = some (text output) ∧ S.get "logs" = some (text logs) ∧
      (fs.mkdir s output).2 ≠ .failed ∧ (fs.mkdir (fs.mkdir s output).1 logs).2 ≠ .failed ∧
      s' = (fs.mkdir (fs.mkdir s output).1 logs).1 := by
  obtain ⟨ms, hms, hS⟩ := C53_last_file_wins text opts files fs s s' S h
  have key : ∀ k, k = "directory" ∨ k = "output" ∨ k = "logs" →
      lastValue k (directories text opts ++ ms.flatten) = lastValue k (directories text opts) := by
    intro k hk
    have hnone : (ms.flatten.filter fun p => decide (p.1 = k)) = [] := by
      rw [List.filter_eq_nil_iff]
      intro p hp
      obtain ⟨m, hm, hpm⟩ := List.mem_flatten.1 hp
      obtain ⟨path, hpath, hsec⟩ := forall₂_right hms m hm
      have := hfiles path hpath m hsec p hpm
      rcases hk with rfl | rfl | rfl <;> simp [this]
    unfold lastValue
    rw [List.filter_append, hnone, List.append_nil]
  refine ⟨_, _, _, rfl, rfl, rfl, ?_, ?_, ?_, ?_⟩
  · rw [hS, key _ (.inl rfl)]
    simp [lastValue, directories]
  · rw [hS, key _ (.inr (.inl rfl))]
    simp [lastValue, directories]
  · rw [hS, key _ (.inr (.inr rfl))]
    simp [lastValue, directories]
  · rw [getSettings_eq] at h
    simp only [bind, Except.bind] at h
    have hc : ∀ a b d, createDirectory fs a d = .ok b → (fs.mkdir a d).2 ≠ .failed ∧ (fs.mkdir a d).1 = b := by
      intro a b d h
      unfold createDirectory at h
      rcases hm : fs.mkdir a d with ⟨x, _ | _ | _⟩ <;> rw [hm] at h <;> first | exact ⟨by simp, Except.ok.inj h⟩ | cases h
    split at h
    · cases h
    rename_i s₁ h₁
    split at h
    · cases h
    rename_i s₂ h₂
    obtain ⟨a₁, rfl⟩ := hc _ _ _ h₁
    obtain ⟨a₂, rfl⟩ := hc _ _ _ h₂
    split at h
    · cases h
    split at h
    · cases h
    cases h
    exact ⟨a₁, a₂, rfl⟩

example : ∀ path ∈ filesRead exampleOpts, ∀ m, Sections (exampleFiles path) m → ∀ p ∈ m, p.1 ≠ "directory" ∧ p.1 ≠ "output" ∧ p.1 ≠ "logs" := by
  intro path hp m hm p hpm
  have h : path = "run/config.yaml" ∨ path = "flow.yaml" := by simpa [filesRead, exampleOpts] using hp
  rcases h with rfl | rfl
  · change Sections (YamlFile.map [(some "mesh", "m"), (some "flow", "f0")]) m at hm
    generalize e : YamlFile.map [(some "mesh", "m"), (some "flow", "f0")] = F at hm
    cases hm <;> simp_all
    rcases m with _ | ⟨a, _ | ⟨b, _ | _⟩⟩ <;> simp_all
    rcases hpm with rfl | rfl <;> simp [← e.1.1, ← e.2.1]
  · change Sections (YamlFile.map [(some "flow", "f1")]) m at hm
    generalize e : YamlFile.map [(some "flow", "f1")] = F at hm
    cases hm <;> simp_all
    rcases m with _ | ⟨a, _ | _⟩ <;> simp_all
    simp [← e.1]

/-- C69 fails when a file defines `output`: with `-output out` and `output: other` in the configuration file, the settings name a directory
that is not the one of the command line and that has not been made. -/
theorem C69_false_overridden : ∃ (opts : String → Option String) (files : String → YamlFile String) (S : Settings String) (s : List String),
    opts "-output" = some "out" ∧ getSettings id opts files recordingFS [] = .ok (S, s) ∧ S.get "output" = some "other" ∧ "other" ∉ s :=
  ⟨fun o => if o = "-output" then some "out" else none, fun _ => .map [(some "output", "other")], _, _, by rfl, by rfl, by rfl, by decide⟩

end PetIBM
