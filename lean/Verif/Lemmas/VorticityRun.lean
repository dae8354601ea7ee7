/-
The objects of `petibm-vorticity` after a pass of its loop are as good as new ones.
-/
import Verif.Spec.VorticityRun
import Verif.Props.VorticityPlace
import Verif.Lemmas.Files
import Verif.Lemmas.Restart
import Verif.Lemmas.Solution

namespace PetIBM

open Spec

set_option linter.unusedSectionVars false

variable {K : Type} [Field K] [LinearOrder K] [IsStrictOrderedRing K] {debug : Bool} {L : Layout} {G : Geom K} {axes : ℕ → Axis K} {T : BCTable K}
  {B : ℕ → Boundary K}

theorem setGhostICs_again (b : Boundary K) (v v' : ℤ → K) : (b.setGhostICs v).setGhostICs v' = b.setGhostICs v' := by
  unfold Boundary.setGhostICs
  rw [List.map_map]
  refine List.map_congr_left fun l _ => ?_
  simp only [Function.comp, List.map_map]
  refine List.map_congr_left fun sb _ => ?_
  unfold SingleBoundary.setGhostICs SingleBoundary.mapPoints SingleBoundary.setGhostICsKernel SingleBoundary.kernel
  simp only [Function.comp, List.map_map]
  congr 1
  refine List.map_congr_left fun kp _ => ?_
  simp only [Function.comp]
  congr 1
  cases sb.type <;> (try split_ifs) <;> rfl

/-- Assignments of the same entries replace the earlier ones. -/
theorem assign_again {A V : Type} [DecidableEq A] (l l' : List (A × V)) (h : ∀ a ∈ l.map (·.1), a ∈ l'.map (·.1)) (w : A → V) :
    l'.foldl (fun v a => Function.update v a.1 a.2) (l.foldl (fun v a => Function.update v a.1 a.2) w) =
      l'.foldl (fun v a => Function.update v a.1 a.2) w := by
  have miss : ∀ (l : List (A × V)) (w : A → V) (x : A), x ∉ l.map (·.1) → l.foldl (fun v a => Function.update v a.1 a.2) w x = w x := by
    intro l
    induction l with
    | nil => exact fun _ _ _ => rfl
    | cons a l ih =>
      intro w x hx
      rw [List.map_cons, List.mem_cons, not_or] at hx
      rw [List.foldl_cons, ih _ _ hx.2, Function.update_of_ne hx.1]
  have hit : ∀ (l : List (A × V)) (w w' : A → V) (x : A), w x = w' x ∨ x ∈ l.map (·.1) →
      l.foldl (fun v a => Function.update v a.1 a.2) w x = l.foldl (fun v a => Function.update v a.1 a.2) w' x := by
    intro l
    induction l with
    | nil =>
      intro w w' x hx
      rcases hx with hx | hx
      · exact hx
      · cases hx
    | cons a l ih =>
      intro w w' x hx
      rw [List.foldl_cons, List.foldl_cons]
      refine ih _ _ x ?_
      by_cases hxa : x = a.1
      · left
        rw [hxa, Function.update_self, Function.update_self]
      · rw [Function.update_of_ne hxa, Function.update_of_ne hxa]
        rcases hx with hx | hx
        · exact Or.inl hx
        · rw [List.map_cons, List.mem_cons] at hx
          rcases hx with hx | hx
          · exact absurd hx hxa
          · exact Or.inr hx
  funext x
  refine hit l' _ _ x ?_
  by_cases hx : x ∈ l.map (·.1)
  · exact Or.inr (h x hx)
  · exact Or.inl (miss l w x hx)

theorem mapM_keys {A C : Type} {l : List A} {g g' : A → Except Error C} {r r' : List (A × C)}
    (h : (l.mapM fun p => do return (p, ← g p)) = .ok r) (h' : (l.mapM fun p => do return (p, ← g' p)) = .ok r') : r.map (·.1) = r'.map (·.1) := by
  have key : ∀ {g : A → Except Error C} {l : List A} {r : List (A × C)}, (l.mapM fun p => do return (p, ← g p)) = .ok r → r.map (·.1) = l := by
    intro g l
    induction l with
    | nil =>
      intro r h
      cases h
      rfl
    | cons a l ih =>
      intro r h
      rw [List.mapM_cons] at h
      obtain ⟨x, h1, h⟩ := bind_ok h
      obtain ⟨y, h2, h⟩ := bind_ok h
      cases h
      obtain ⟨z, _, h1⟩ := bind_ok h1
      cases h1
      rw [List.map_cons, ih h2]
  rw [key h, key h']

/-- The points that are assigned depend only on the mesh. -/
theorem assign_keys {f : ℕ} {B B' : ℕ → Boundary K} {q q' : ℤ → K} {a a' : List ((ℕ × ℕ × ℕ) × K)} (h : vorticityAssign L G B q f = .ok a)
    (h' : vorticityAssign L G B' q' f = .ok a') : a.map (·.1) = a'.map (·.1) := by
  unfold vorticityAssign at h h'
  obtain ⟨r, h1, h⟩ := bind_ok h
  obtain ⟨r', h1', h'⟩ := bind_ok h'
  cases h
  cases h'
  have : ∀ (l : List ℕ) {r r' : List (List ((ℕ × ℕ × ℕ) × K))},
      (l.mapM fun r => ((vorticityLayout L).box f r).mapM fun p => do
        let x ← vorticityKernel L.dim (readCoord L G) (fun g => readLocal L g r (vorticityLocal L B q r g)) f p.1 p.2.1 p.2.2
        return (p, x)) = Except.ok r →
      (l.mapM fun r => ((vorticityLayout L).box f r).mapM fun p => do
        let x ← vorticityKernel L.dim (readCoord L G) (fun g => readLocal L g r (vorticityLocal L B' q' r g)) f p.1 p.2.1 p.2.2
        return (p, x)) = Except.ok r' → (r.flatMap id).map (·.1) = (r'.flatMap id).map (·.1) := by
    intro l
    induction l with
    | nil =>
      intro r r' h h'
      cases h
      cases h'
      rfl
    | cons m l ih =>
      intro r r' h h'
      rw [List.mapM_cons] at h h'
      obtain ⟨x, h1, h⟩ := bind_ok h
      obtain ⟨y, h2, h⟩ := bind_ok h
      cases h
      obtain ⟨x', h1', h'⟩ := bind_ok h'
      obtain ⟨y', h2', h'⟩ := bind_ok h'
      cases h'
      rw [List.flatMap_cons, List.flatMap_cons, List.map_append, List.map_append, ih h2 h2']
      congr 1
      exact mapM_keys h1 h1'
  exact this _ h1 h1'

theorem calculate_again {f : ℕ} {B B' : ℕ → Boundary K} {q q' : ℤ → K} {w w' : ℕ × ℕ × ℕ → K} (h : calculateVorticity L G B q f w = .ok w') :
    calculateVorticity L G B' q' f w' = calculateVorticity L G B' q' f w := by
  unfold calculateVorticity at h ⊢
  obtain ⟨a, h1, h⟩ := bind_ok h
  cases h
  cases h2 : vorticityAssign L G B' q' f with
  | error _ => rfl
  | ok a' =>
    change Except.ok _ = Except.ok _
    congr 1
    exact assign_again a a' (fun x hx => assign_keys h1 h2 ▸ hx) w

theorem solutionRead_congr {U p : ℤ → K} {d d' : Disk K} {path path' : String} (h : d path = d' path') :
    solutionRead L U p d path = solutionRead L U p d' path' := by
  unfold solutionRead readHDF5Vecs
  rw [h]

theorem get_lengths {file : H5File K} {group : String} : ∀ {ns : List (String × ℕ)} {vs : List (List K)},
    (ns.mapM fun n => file.get (group ++ n.1) n.2) = .ok vs → vs.map (·.length) = ns.map (·.2) := by
  intro ns
  induction ns with
  | nil =>
    intro vs h
    cases h
    rfl
  | cons n ns ih =>
    intro vs h
    rw [List.mapM_cons] at h
    obtain ⟨x, h1, h⟩ := bind_ok h
    obtain ⟨y, h2, h⟩ := bind_ok h
    cases h
    rw [List.map_cons, List.map_cons, ih h2]
    congr 1
    unfold H5File.get at h1
    split at h1
    · cases h1
    · split_ifs at h1 with hl
      cases h1
      exact hl

theorem zip_keys : ∀ {idx : List (List ℤ)} {vs : List (List K)}, (∀ i, i < idx.length → (vs[i]?).map (·.length) = (idx[i]?).map (·.length)) →
    ((idx.zip vs).flatMap fun iv => iv.1.zip iv.2).map (·.1) = idx.flatMap id := by
  intro idx
  induction idx with
  | nil => exact fun _ => rfl
  | cons a idx ih =>
    intro vs h
    cases vs with
    | nil =>
      have := h 0 (Nat.zero_lt_succ _)
      cases this
    | cons v vs =>
      rw [List.zip_cons_cons, List.flatMap_cons, List.map_append, List.flatMap_cons, ih fun i hi => h (i + 1) (Nat.succ_lt_succ hi)]
      congr 1
      have : v.length = a.length := by simpa using h 0 (Nat.zero_lt_succ _)
      exact List.map_fst_zip (le_of_eq this.symm)

/-- What has been read is replaced by the next file. -/
theorem read_again (hL : LayoutOK L) {U p U' p' : ℤ → K} {d : Disk K} {path : String} (h : solutionRead L U p d path = .ok (U', p')) (d' : Disk K)
    (path' : String) : solutionRead L U' p' d' path' = solutionRead L U p d' path' := by
  obtain ⟨idx, hidx⟩ : ∃ idx, (List.range L.dim).mapM (fun f => naturalOrder L f) = .ok idx :=
    ⟨_, mapM_ok (h := fun f => (gridList L.toMeshInfo f).map fun x => col L f (pst x)) (List.range L.dim)
      (fun f hf => naturalOrder_eq hL (Or.inl (List.mem_range.1 hf)))⟩
  obtain ⟨pidx, hp⟩ : ∃ pidx, naturalOrder L 3 = .ok pidx := ⟨_, naturalOrder_eq hL (Or.inr rfl)⟩
  have hlen : idx.length = L.dim := by rw [length_mapM hidx, List.length_range]
  have shape : ∀ (U p : ℤ → K) (d : Disk K) (path : String), solutionRead L U p d path =
      (readHDF5Vecs d path "/" ((List.range L.dim).map fd2str ++ ["p"]) ((idx ++ [pidx]).map (·.length))).map fun vecs =>
        (vecAssign U ((idx.zip vecs).flatMap fun iv => iv.1.zip iv.2), match vecs.getLast? with
          | some v => vecAssign p (pidx.zip v)
          | none => p) := by
    intro U p d path
    unfold solutionRead
    rw [hidx, hp]
    simp only [bind, Except.bind, pure, Except.pure, foldl_vecAssign]
    cases readHDF5Vecs d path "/" ((List.range L.dim).map fd2str ++ ["p"]) ((idx ++ [pidx]).map (·.length)) <;> rfl
  have sizes : ∀ {d : Disk K} {path : String} {vecs : List (List K)},
      readHDF5Vecs d path "/" ((List.range L.dim).map fd2str ++ ["p"]) ((idx ++ [pidx]).map (·.length)) = .ok vecs →
      vecs.map (·.length) = (idx ++ [pidx]).map (·.length) := by
    intro d path vecs h
    unfold readHDF5Vecs at h
    cases hd : d path with
    | none =>
      rw [hd] at h
      cases h
    | some file =>
      rw [hd] at h
      rw [get_lengths h, List.map_snd_zip]
      simp [hlen]
  have keys : ∀ {vecs : List (List K)}, vecs.map (·.length) = (idx ++ [pidx]).map (·.length) →
      ((idx.zip vecs).flatMap fun iv => iv.1.zip iv.2).map (·.1) = idx.flatMap id ∧
        ∃ v, vecs.getLast? = some v ∧ (pidx.zip v).map (·.1) = pidx := by
    intro vecs h
    constructor
    · refine zip_keys fun i hi => ?_
      have := congrArg (fun l => l[i]?) h
      simp only [List.getElem?_map] at this
      rw [this, List.getElem?_append_left hi]
    · have := congrArg List.getLast? h
      rw [List.getLast?_map, List.getLast?_map, List.getLast?_append] at this
      cases hv : vecs.getLast? with
      | none =>
        rw [hv] at this
        simp at this
      | some v =>
        rw [hv] at this
        simp at this
        exact ⟨v, rfl, List.map_fst_zip (by omega)⟩
  rw [shape] at h
  rw [shape, shape]
  cases hr : readHDF5Vecs d path "/" ((List.range L.dim).map fd2str ++ ["p"]) ((idx ++ [pidx]).map (·.length)) with
  | error _ =>
    rw [hr] at h
    cases h
  | ok vecs =>
    rw [hr] at h
    obtain ⟨k1, v, k2, k3⟩ := keys (sizes hr)
    simp only [Except.map, k2, Except.ok.injEq, Prod.mk.injEq] at h
    obtain ⟨h1, h2⟩ := h
    cases hr' : readHDF5Vecs d' path' "/" ((List.range L.dim).map fd2str ++ ["p"]) ((idx ++ [pidx]).map (·.length)) with
    | error _ => rfl
    | ok vecs' =>
      obtain ⟨k1', v', k2', k3'⟩ := keys (sizes hr')
      simp only [Except.map, k2']
      rw [← h1, ← h2]
      unfold vecAssign
      rw [assign_again _ _ fun x hx => by rw [k1']; rwa [k1] at hx, assign_again _ _ fun x hx => by rw [k3']; rwa [k3] at hx]

/-- New objects. -/
def newObjects (B : ℕ → Boundary K) (d : Disk K) : VorticityState K := ⟨fun _ => 0, fun _ => 0, B, fun _ _ => 0, d⟩

/-- Objects that do what new ones do. -/
def AsNew (L : Layout) (G : Geom K) (B : ℕ → Boundary K) (s : VorticityState K) : Prop :=
  ∀ path d, vorticityPass L G path { s with disk := d } = vorticityPass L G path (newObjects B d)

theorem asNew_new (d : Disk K) : AsNew L G B (newObjects B d) := fun _ _ => rfl

theorem pass_shape (path : String) (s : VorticityState K) (ok : ∀ f, f < (vorticityNames L.dim).length → ∀ B' q w, ∃ z, calculateVorticity L G B' q f w = .ok z)
    {U p : ℤ → K} (h : solutionRead L s.U s.p s.disk path = .ok (U, p)) :
    ∃ z : ℕ → ℕ × ℕ × ℕ → K, (∀ f, f < (vorticityNames L.dim).length → calculateVorticity L G (fun r => (s.B r).setGhostICs U) U f (s.w f) = .ok (z f)) ∧
      (∀ f, ¬ f < (vorticityNames L.dim).length → z f = s.w f) ∧
      vorticityPass L G path s = .ok ⟨U, p, fun r => (s.B r).setGhostICs U, z, writeHDF5Vecs s.disk path "/" (vorticityNames L.dim)
        ((List.range (vorticityNames L.dim).length).map fun f => (gridList (vorticityLayout L).toMeshInfo f).map (z f)) .append⟩ := by
  classical
  let z : ℕ → ℕ × ℕ × ℕ → K := fun f => if h : f < (vorticityNames L.dim).length then
    (ok f h (fun r => (s.B r).setGhostICs U) U (s.w f)).choose else s.w f
  have hz : ∀ f, f < (vorticityNames L.dim).length → calculateVorticity L G (fun r => (s.B r).setGhostICs U) U f (s.w f) = .ok (z f) := by
    intro f h
    simp only [z, dif_pos h]
    exact (ok f h _ _ _).choose_spec
  refine ⟨z, hz, fun f hf => dif_neg hf, ?_⟩
  unfold vorticityPass
  rw [h]
  simp only [bind, Except.bind]
  rw [mapM_ok (h := z) _ fun f hf => hz f (List.mem_range.1 hf)]
  simp only [pure, Except.pure]
  have : (fun f => (((List.range (vorticityNames L.dim).length).map z)[f]?).getD (s.w f)) = z := by
    funext f
    by_cases hf : f < (vorticityNames L.dim).length
    · simp [hf]
    · simp [hf, z]
  have this' := fun f => congrFun this f
  simp only [this']

theorem asNew_pass (C : Constructed debug L G axes T B) {s s' : VorticityState K} {path : String} (hs : AsNew L G B s)
    (h : vorticityPass L G path s = .ok s') : AsNew L G B s' := by
  have ok : ∀ f, f < (vorticityNames L.dim).length → ∀ B' q w, ∃ z, calculateVorticity L G B' q f w = .ok z := fun f hf B' q w =>
    C52_vorticity_in_bounds C B' q f hf w
  have h' : vorticityPass L G path (newObjects B s.disk) = .ok s' := by rw [← hs path s.disk, ← h]
  cases hr : solutionRead L (newObjects B s.disk).U (newObjects B s.disk).p (newObjects B s.disk).disk path with
  | error e =>
    unfold vorticityPass at h'
    rw [hr] at h'
    cases h'
  | ok x =>
    obtain ⟨U, p⟩ := x
    obtain ⟨z, z1, z2, z3⟩ := pass_shape path (newObjects B s.disk) ok hr
    rw [z3] at h'
    cases h'
    intro path' d
    have hra := read_again C.setup.layout hr d path'
    unfold vorticityPass
    dsimp only
    rw [hra]
    change (solutionRead L (fun _ => 0) (fun _ => 0) d path').bind _ = (solutionRead L (fun _ => 0) (fun _ => 0) d path').bind _
    cases solutionRead L (fun _ => (0 : K)) (fun _ => 0) d path' with
    | error _ => rfl
    | ok y =>
      obtain ⟨U', p'⟩ := y
      simp only [Except.bind, newObjects, setGhostICs_again]
      have e : (List.range (vorticityNames L.dim).length).mapM (fun f => calculateVorticity L G (fun r => (B r).setGhostICs U') U' f (z f)) =
          (List.range (vorticityNames L.dim).length).mapM fun f => calculateVorticity L G (fun r => (B r).setGhostICs U') U' f (fun _ => 0) :=
        mapM_congr' fun f hf => calculate_again (z1 f (List.mem_range.1 hf))
      rw [e]
      have zz : ∀ ws : List (ℕ × ℕ × ℕ → K), ws.length = (vorticityNames L.dim).length →
          (fun f => (ws[f]?).getD (z f)) = fun f => (ws[f]?).getD fun _ => 0 := by
        intro ws hw
        funext f
        by_cases hf : f < (vorticityNames L.dim).length
        · rw [List.getElem?_eq_getElem (by omega)]
          rfl
        · rw [List.getElem?_eq_none (by omega)]
          exact z2 f hf
      cases hm : (List.range (vorticityNames L.dim).length).mapM fun f => calculateVorticity L G (fun r => (B r).setGhostICs U') U' f (fun _ => 0) with
      | error _ => rfl
      | ok ws =>
        have := zz ws (by rw [length_mapM hm, List.length_range])
        have this' := fun f => congrFun this f
        simp only [bind, Except.bind, this']

theorem read_other {U p U' p' : ℤ → K} {d : Disk K} {path : String} {x : (ℤ → K) × (ℤ → K)} (h : solutionRead L U p d path = .ok x) :
    ∃ y, solutionRead L U' p' d path = .ok y := by
  unfold solutionRead at h ⊢
  obtain ⟨idx, h1, h⟩ := bind_ok h
  obtain ⟨pidx, h2, h⟩ := bind_ok h
  obtain ⟨vecs, h3, h⟩ := bind_ok h
  rw [h1, h2]
  simp only [bind, Except.bind, h3]
  exact ⟨_, rfl⟩

/-- Data sets that `read` does not ask for are irrelevant. -/
theorem read_same {U p : ℤ → K} {d d' : Disk K} {path path' : String} {file file' : H5File K} (h : d path = some file) (h' : d' path' = some file')
    (hd : ∀ name, name ≠ "/wx" → name ≠ "/wy" → name ≠ "/wz" → file'.data name = file.data name) :
    solutionRead L U p d' path' = solutionRead L U p d path := by
  have names : ∀ n ∈ (List.range L.dim).map fd2str ++ ["p"], "/" ++ n ≠ "/wx" ∧ "/" ++ n ≠ "/wy" ∧ "/" ++ n ≠ "/wz" := by
    intro n hn
    have : n = "u" ∨ n = "v" ∨ n = "w" ∨ n = "p" := by
      rw [List.mem_append, List.mem_map, List.mem_singleton] at hn
      rcases hn with ⟨f, _, rfl⟩ | rfl
      · unfold fd2str
        split_ifs <;> simp
      · simp
    rcases this with rfl | rfl | rfl | rfl <;> decide
  unfold solutionRead readHDF5Vecs
  rw [h, h']
  dsimp only
  have e : ∀ sizes, (((List.range L.dim).map fd2str ++ ["p"]).zip sizes).mapM (fun ns => file'.get ("/" ++ ns.1) ns.2) =
      (((List.range L.dim).map fd2str ++ ["p"]).zip sizes).mapM fun ns => file.get ("/" ++ ns.1) ns.2 := by
    intro sizes
    refine mapM_congr' fun ns hns => ?_
    obtain ⟨n1, n2, n3⟩ := names ns.1 (List.of_mem_zip hns).1
    unfold H5File.get
    rw [hd _ n1 n2 n3]
  simp only [e]

theorem stepPath_grid (output : String) (t : ℤ) : stepPath output t ≠ output ++ "/grid.h5" := by
  intro h
  have := congrArg String.toList h
  unfold stepPath stepDigits at this
  have e : "/grid.h5".toList = "/".toList ++ "grid.h5".toList := by decide
  simp only [String.toList_append, e, List.append_assoc, List.append_cancel_left_eq] at this
  have := congrArg List.length this
  have e1 : ".h5".toList.length = 3 := by decide
  have e2 : "grid.h5".toList.length = 7 := by decide
  rw [List.length_append, e1, e2, String.toList_ofList, List.length_append, List.length_replicate] at this
  omega

/-- A sequence of data sets in one file. -/
theorem puts_eq (l : List (String × List K)) (file : H5File K) : l.foldl (fun file nv => file.put nv.1 nv.2) file =
    ⟨(l.map fun nv => (nv.1, some nv.2)).foldl (fun v a => Function.update v a.1 a.2) file.data, file.time⟩ := by
  induction l generalizing file with
  | nil => rfl
  | cons a l ih =>
    rw [List.foldl_cons, ih, List.map_cons, List.foldl_cons]
    rfl

theorem puts_again (l : List (String × List K)) (file : H5File K) :
    l.foldl (fun file nv => file.put nv.1 nv.2) (l.foldl (fun file nv => file.put nv.1 nv.2) file) = l.foldl (fun file nv => file.put nv.1 nv.2) file := by
  rw [puts_eq, puts_eq]
  congr 1
  exact assign_again _ _ (fun _ h => h) _

/-- The lines of the vorticity fields as one sequence of data sets. -/
theorem gridAppend_puts (L : Layout) (G : Geom K) : ∃ l : List (String × List K), ∀ (d : Disk K) path, gridAppendVorticity L G d path =
    Function.update d path (some (l.foldl (fun file nv => file.put nv.1 nv.2) ((d path).getD H5File.empty))) := by
  have one : ∀ (d : Disk K) path group names vecs, writeHDF5Vecs d path group names vecs .append = Function.update d path
      (some (((names.zip vecs).map fun nv => (group ++ nv.1, nv.2)).foldl (fun file nv => file.put nv.1 nv.2) ((d path).getD H5File.empty))) := by
    intro d path group names vecs
    unfold writeHDF5Vecs
    rw [List.foldl_map]
    rfl
  have two : ∀ (d : Disk K) path (file file' : H5File K) , Function.update (Function.update d path (some file)) path (some file') =
      Function.update d path (some file') := fun d path file file' => by rw [Function.update_idem]
  unfold gridAppendVorticity
  by_cases h : L.dim = 2
  · have : vorticityNames L.dim = ["wz"] := by simp [vorticityNames, h]
    simp only [this, List.zipIdx_cons, List.zipIdx_nil, List.foldl_cons, List.foldl_nil, one]
    exact ⟨_, fun _ _ => rfl⟩
  · have : vorticityNames L.dim = ["wx", "wy", "wz"] := by simp [vorticityNames, h]
    simp only [this, List.zipIdx_cons, List.zipIdx_nil, List.foldl_cons, List.foldl_nil, one, Function.update_self, Option.getD_some, two,
      ← List.foldl_append]
    exact ⟨_, fun _ _ => rfl⟩

end PetIBM
