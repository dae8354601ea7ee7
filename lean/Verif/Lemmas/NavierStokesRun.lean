/-
What holds in every state of a run.
-/
import Verif.Lemmas.NavierStokes
import Verif.Spec.NavierStokes
import Verif.Props.TimeIntegration

set_option linter.unusedSectionVars false

namespace PetIBM

open Spec

variable {K : Type} [Field K] [LinearOrder K] [IsStrictOrderedRing K]

theorem mem_mapM {α β : Type} {g : α → Except Error β} {l : List α} {ys : List β} (h : l.mapM g = .ok ys) {y : β} (hy : y ∈ ys) :
    ∃ a ∈ l, g a = .ok y := by
  induction l generalizing ys with
  | nil => cases h; cases hy
  | cons a l ih =>
    rw [List.mapM_cons] at h
    cases ha : g a with
    | error e => rw [ha] at h; cases h
    | ok b =>
      cases hl : l.mapM g with
      | error e => rw [ha, hl] at h; cases h
      | ok bs =>
        rw [ha, hl] at h
        cases h
        rcases List.mem_cons.1 hy with rfl | hy
        · exact ⟨a, List.mem_cons_self .., ha⟩
        · obtain ⟨c, hc, e⟩ := ih hl hy
          exact ⟨c, List.mem_cons_of_mem _ hc, e⟩

theorem length_mapM {α β : Type} {g : α → Except Error β} {l : List α} {ys : List β} (h : l.mapM g = .ok ys) : ys.length = l.length := by
  induction l generalizing ys with
  | nil => cases h; rfl
  | cons a l ih =>
    rw [List.mapM_cons] at h
    cases ha : g a with
    | error e => rw [ha] at h; cases h
    | ok b =>
      cases hl : l.mapM g with
      | error e => rw [ha, hl] at h; cases h
      | ok bs =>
        rw [ha, hl] at h
        cases h
        simp [ih hl]

theorem bind_ok {α β : Type} {x : Except Error α} {g : α → Except Error β} {y : β} (h : (x >>= g) = .ok y) :
    ∃ a, x = .ok a ∧ g a = .ok y := by
  cases x with
  | error e => cases h
  | ok a => exact ⟨a, rfl, h⟩

theorem vecAssign_out {y : ℤ → K} {ws : List (ℤ × K)} {N : ℕ} (h : ∀ w ∈ ws, 0 ≤ w.1 ∧ w.1 < N) {i : ℤ} (hi : ¬ (0 ≤ i ∧ i < N)) :
    vecAssign y ws i = y i :=
  vecAssign_of_not_mem fun w hw e => hi (e ▸ h w hw)

theorem vecSize_velocity {L : Layout} (hL : LayoutOK L) {f : ℕ} (hf : f < L.dim) : vecSize L f = L.UN := by
  unfold vecSize
  rw [if_neg (by rcases hL.dim with h | h <;> omega)]

theorem assignIC_range {L : Layout} (hL : LayoutOK L) (G : Geom K) (ICs : List (Option (Expr K))) (nu : K) {f : ℕ}
    (hf : f < L.dim ∨ f = 3) {ws : List (ℤ × K)} (h : assignIC L G ICs nu f = .ok ws) : ∀ w ∈ ws, 0 ≤ w.1 ∧ w.1 < vecSize L f := by
  obtain ⟨a, ha, e⟩ := bind_ok h
  cases e
  intro w hw
  obtain ⟨l, hl, hw⟩ := List.mem_flatMap.1 hw
  obtain ⟨r, hr, hl⟩ := mem_mapM ha hl
  obtain ⟨p, hp, e⟩ := mem_mapM hl hw
  obtain ⟨idx, h1, e⟩ := bind_ok e
  obtain ⟨v, _, e⟩ := bind_ok e
  cases e
  have hin : Inside L.toMeshInfo f (pst p) := by
    apply inside_pst
    obtain ⟨i, j, k⟩ := p
    exact mem_gridList.2 (owns_inGrid hL hf (mem_box.1 hp))
  have hc := col_inside hL hf false hin
  have : L.getPackedGlobalIndex false f (pst p) = .ok idx := h1
  rw [hc.1] at this
  cases this
  exact hc.2

theorem setIC_outside {L : Layout} (hL : LayoutOK L) {G : Geom K} {flow : Option (FlowNode K)} {U p V q : ℤ → K}
    (h : setInitialConditions L G flow U p = .ok (V, q)) :
    (∀ i : ℤ, ¬ (0 ≤ i ∧ i < L.UN) → V i = U i) ∧ (∀ i : ℤ, ¬ (0 ≤ i ∧ i < L.pN) → q i = p i) := by
  unfold setInitialConditions at h
  cases hnu : flow.bind (·.nu) with
  | none => rw [hnu] at h; cases h
  | some nu =>
  rw [hnu] at h
  obtain ⟨ICs, _, h⟩ := bind_ok (x := parseICs flow) h
  obtain ⟨a, ha, h⟩ := bind_ok h
  obtain ⟨b, hb, h⟩ := bind_ok h
  cases h
  constructor
  · intro i hi
    refine vecAssign_out (N := L.UN) ?_ hi
    intro w hw
    obtain ⟨l, hl, hw⟩ := List.mem_flatMap.1 hw
    obtain ⟨f, hf, hl⟩ := mem_mapM ha hl
    have := assignIC_range hL G ICs nu (Or.inl (List.mem_range.1 hf)) hl w hw
    rwa [vecSize_velocity hL (List.mem_range.1 hf)] at this
  · intro i hi
    exact vecAssign_out (N := L.pN) (assignIC_range hL G ICs nu (Or.inr rfl) hb) hi

theorem naturalOrder_range {L : Layout} (hL : LayoutOK L) {f : ℕ} (hf : f < L.dim ∨ f = 3) {l : List ℤ} (h : naturalOrder L f = .ok l) :
    ∀ i ∈ l, 0 ≤ i ∧ i < vecSize L f := by
  rw [naturalOrder_eq hL hf] at h
  cases h
  intro i hi
  obtain ⟨p, hp, rfl⟩ := List.mem_map.1 hi
  exact (col_inside hL hf false (inside_pst hp)).2

theorem solutionRead_outside {L : Layout} (hL : LayoutOK L) {U p V q : ℤ → K} {disk : Disk K} {path : String}
    (h : solutionRead L U p disk path = .ok (V, q)) :
    (∀ i : ℤ, ¬ (0 ≤ i ∧ i < L.UN) → V i = U i) ∧ (∀ i : ℤ, ¬ (0 ≤ i ∧ i < L.pN) → q i = p i) := by
  obtain ⟨idx, h1, h⟩ := bind_ok h
  obtain ⟨pidx, h2, h⟩ := bind_ok h
  obtain ⟨vecs, h3, h⟩ := bind_ok h
  cases h
  constructor
  · intro i hi
    rw [foldl_vecAssign (g := fun iv : List ℤ × List K => iv.1.zip iv.2)]
    refine vecAssign_out (N := L.UN) ?_ hi
    intro w hw
    obtain ⟨iv, hiv, hw⟩ := List.mem_flatMap.1 hw
    obtain ⟨f, hf, e⟩ := mem_mapM h1 (List.of_mem_zip hiv).1
    have := naturalOrder_range hL (Or.inl (List.mem_range.1 hf)) e w.1 (List.of_mem_zip hw).1
    rwa [vecSize_velocity hL (List.mem_range.1 hf)] at this
  · intro i hi
    cases vecs.getLast? with
    | some v =>
      refine vecAssign_out (N := L.pN) ?_ hi
      intro w hw
      exact naturalOrder_range hL (Or.inr rfl) h2 w.1 (List.of_mem_zip hw).1
    | none => rfl

theorem readHDF5_lengths {disk : Disk K} {path group : String} {names : List String} {sizes : List ℕ} {vs : List (List K)}
    (hl : names.length = sizes.length) (h : readHDF5Vecs disk path group names sizes = .ok vs) :
    vs.length = names.length ∧ ∀ v ∈ vs, v.length ∈ sizes := by
  unfold readHDF5Vecs at h
  split at h
  · cases h
  · constructor
    · rw [length_mapM h, List.length_zip, ← hl, min_self]
    · intro v hv
      obtain ⟨ns, hns, e⟩ := mem_mapM h hv
      unfold H5File.get at e
      split at e
      · cases e
      · split_ifs at e with hlen
        cases e
        rw [hlen]
        exact (List.of_mem_zip hns).2

theorem packedVec_out {N : ℕ} {l : List K} (h : l.length = N) {i : ℤ} (hi : ¬ (0 ≤ i ∧ i < N)) : packedVec l i = 0 := by
  unfold packedVec
  by_cases h0 : 0 ≤ i
  · rw [if_pos h0, List.getD_eq_getElem?_getD, List.getElem?_eq_none (by omega)]
    rfl
  · exact if_neg h0

variable {debug : Bool} {L : Layout} {G : Geom K} {axes : ℕ → Axis K} {T : BCTable K} {B : ℕ → Boundary K}

theorem params_schemes {haveAmgX : Bool} {output : String} {node : Option (ParamNode K)} {flow : Option (FlowNode K)} {P : NSParams K}
    (h : readParams haveAmgX output node flow = .ok P) :
    (∃ p, createTimeIntegration "convection" (some p) = .ok P.conv ∧ createTimeIntegration "diffusion" (some p) = .ok P.diff) ∧
      ∃ type, createLinSolver haveAmgX type = .ok P.pType := by
  obtain ⟨node, _, h⟩ := bind_ok h
  obtain ⟨dt, _, h⟩ := bind_ok h
  obtain ⟨nt, _, h⟩ := bind_ok h
  obtain ⟨nsave, _, h⟩ := bind_ok h
  obtain ⟨nrestart, _, h⟩ := bind_ok h
  obtain ⟨nu, _, h⟩ := bind_ok h
  obtain ⟨conv, h1, h⟩ := bind_ok h
  obtain ⟨diff, h2, h⟩ := bind_ok h
  obtain ⟨v, _, h⟩ := bind_ok h
  obtain ⟨p, h3, h⟩ := bind_ok h
  cases h
  exact ⟨⟨_, h1, h2⟩, _, h3⟩

theorem Spec.Started.schemes {P : NSParams K} {flow : Option (FlowNode K)} {ops : NSOps K} {disk disk' : Disk K} {s : NSState K}
    (S : Started debug L G axes T B P flow ops disk s disk') :
    (P.conv.explicitCoeffs.length = P.conv.nExplicit ∧ P.conv.implicitCoeff + P.conv.explicitCoeffs.sum = 1) ∧
      (P.diff.explicitCoeffs.length = P.diff.nExplicit ∧ P.diff.implicitCoeff + P.diff.explicitCoeffs.sum = 1) := by
  obtain ⟨a, o, n, h⟩ := S.params
  obtain ⟨⟨p, h1, h2⟩, _⟩ := params_schemes h
  exact ⟨C39_consistent _ _ _ h1, C39_consistent _ _ _ h2⟩

theorem createOperators_pN {P : NSParams K} {B' : ℕ → Boundary K} {ops : NSOps K} (h : createOperators debug L G P B' = .ok ops) :
    ops.pN = L.pN := by
  obtain ⟨⟨D, Dm⟩, _, h⟩ := bind_ok h
  obtain ⟨Gr, _, h⟩ := bind_ok h
  obtain ⟨⟨La, Lm⟩, _, h⟩ := bind_ok h
  obtain ⟨BN, _, h⟩ := bind_ok h
  cases h
  rfl

/-- what `init` gives -/
theorem solverInit_ok {P : NSParams K} {flow : Option (FlowNode K)} {ops : NSOps K} {s : NSState K}
    (h : solverInit debug L G P flow B = .ok (ops, s)) :
    ∃ U p, setInitialConditions L G flow (fun _ => 0) (fun _ => 0) = .ok (U, p) ∧
      createOperators debug L G P (fun r => (B r).run [.setGhostICs U]) = .ok ops ∧
      s = { U := U, p := p, dP := fun _ => 0, conv := List.replicate P.conv.nExplicit fun _ => 0,
            diff := List.replicate P.diff.nExplicit fun _ => 0, B := fun r => (B r).run [.setGhostICs U], loc := fun _ _ _ => 0, t := P.t, ite := P.nstart } := by
  obtain ⟨⟨U, p⟩, h1, h⟩ := bind_ok h
  obtain ⟨ops', h2, h⟩ := bind_ok h
  cases h
  exact ⟨U, p, h1, h2, rfl⟩

theorem Reach.init (hL : LayoutOK L) {P : NSParams K} {flow : Option (FlowNode K)} {ops : NSOps K} {s : NSState K}
    (h : solverInit debug L G P flow B = .ok (ops, s)) :
    ∃ u, createOperators debug L G P (fun r => (B r).run [.setGhostICs u]) = .ok ops ∧ Reach L B P ops.pN u s := by
  obtain ⟨U, p, h1, h2, rfl⟩ := solverInit_ok h
  have ho := setIC_outside hL h1
  refine ⟨U, h2, ?_⟩
  rw [createOperators_pN h2]
  exact ⟨⟨[], rfl, [], Or.inl rfl⟩, Clean.zero L B, List.length_replicate, List.length_replicate, ho.1, ho.2,
    fun x hx i _ => by rw [List.eq_of_mem_replicate hx], fun x hx i _ => by rw [List.eq_of_mem_replicate hx]⟩

/-- what reading restart data gives -/
theorem readRestart_ok {s s' : NSState K} {disk : Disk K} {path : String} (h : readRestartDataHDF5 L s disk path = .ok s') :
    ∃ U p t conv diff, solutionRead L s.U s.p disk path = .ok (U, p) ∧
      (∃ file, disk path = some file ∧ file.time = some t) ∧
      readHDF5Vecs disk path "/convection/" ((List.range s.conv.length).map toString) (List.replicate s.conv.length L.UN) = .ok conv ∧
      readHDF5Vecs disk path "/diffusion/" ((List.range s.diff.length).map toString) (List.replicate s.diff.length L.UN) = .ok diff ∧
      s' = { s with U := U, p := p, t := t, conv := conv.map packedVec, diff := diff.map packedVec, B := fun r => (s.B r).setGhostICs U } := by
  unfold readRestartDataHDF5 at h
  split at h
  · cases h
  · rename_i file hfile
    obtain ⟨⟨U, p⟩, h1, h⟩ := bind_ok h
    simp only at h
    cases hp : file.data "/p" with
    | none => rw [hp] at h; cases h
    | some v =>
    cases ht : file.time with
    | none => rw [hp, ht] at h; cases h
    | some t =>
    rw [hp, ht] at h
    obtain ⟨conv, h3, h⟩ := bind_ok (x := readHDF5Vecs disk path "/convection/" _ _) h
    obtain ⟨diff, h4, h⟩ := bind_ok h
    cases h
    exact ⟨U, p, t, conv, diff, h1, ⟨file, hfile, ht⟩, h3, h4, rfl⟩

theorem Reach.restart (hL : LayoutOK L) {P : NSParams K} {s s' : NSState K} {disk : Disk K} {path : String} {u : ℤ → K} (R : Reach L B P L.pN u s)
    (h : readRestartDataHDF5 L s disk path = .ok s') : Reach L B P L.pN u s' := by
  obtain ⟨U, p, t, conv, diff, h1, _, h3, h4, rfl⟩ := readRestart_ok h
  have ho := solutionRead_outside hL h1
  have l3 := readHDF5_lengths (by simp) h3
  have l4 := readHDF5_lengths (by simp) h4
  obtain ⟨hh, hB, -⟩ := R.hist
  refine ⟨⟨hh ++ [.setGhostICs U], ?_, ⟨[.setGhostICs u] ++ hh, Or.inl (by simp)⟩⟩, R.clean, ?_, ?_, ?_, ?_, ?_, ?_⟩
  · funext r
    simp only [hB]
    simp only [Boundary.run, List.foldl_append]
    rfl
  · rw [List.length_map, l3.1, List.length_map, List.length_range, R.nconv]
  · rw [List.length_map, l4.1, List.length_map, List.length_range, R.ndiff]
  · intro i hi; exact (ho.1 i hi).trans (R.outU i hi)
  · intro i hi; exact (ho.2 i hi).trans (R.outP i hi)
  · intro x hx i hi
    obtain ⟨l, hl, rfl⟩ := List.mem_map.1 hx
    exact packedVec_out (List.eq_of_mem_replicate (l3.2 l hl)) hi
  · intro x hx i hi
    obtain ⟨l, hl, rfl⟩ := List.mem_map.1 hx
    exact packedVec_out (List.eq_of_mem_replicate (l4.2 l hl)) hi

theorem Spec.Started.reach {P : NSParams K} {flow : Option (FlowNode K)} {ops : NSOps K} {disk disk' : Disk K} {s : NSState K}
    (S : Started debug L G axes T B P flow ops disk s disk') :
    ∃ u, createOperators debug L G P (fun r => (B r).run [.setGhostICs u]) = .ok ops ∧ Reach L B P ops.pN u s := by
  obtain ⟨s₀, h1, h2⟩ := S.init
  have hL := S.constructed.setup.layout
  obtain ⟨u, h3, R⟩ := Reach.init hL h1
  refine ⟨u, h3, ?_⟩
  rw [createOperators_pN h3] at R ⊢
  unfold ioInitialData at h2
  split_ifs at h2
  · obtain ⟨d, _, h2⟩ := bind_ok h2
    cases h2
    exact R
  · obtain ⟨d, hd, h2⟩ := bind_ok h2
    cases h2
    exact R.restart hL hd

theorem Spec.Started.reach_at {P : NSParams K} {flow : Option (FlowNode K)} {ops : NSOps K} {disk disk' : Disk K} {s : NSState K}
    (S : Started debug L G axes T B P flow ops disk s disk') {vSolve pSolve : LinSolve K} {x : ℕ → NSState K} {n : ℕ} (h0 : x 0 = s)
    (hx : Trajectory L G P ops vSolve pSolve x n) :
    ∃ u, createOperators debug L G P (fun r => (B r).run [.setGhostICs u]) = .ok ops ∧ ∀ k, k ≤ n → Reach L B P ops.pN u (x k) := by
  obtain ⟨u, h1, R⟩ := S.reach
  refine ⟨u, h1, ?_⟩
  intro k
  induction k with
  | zero => intro _; rw [h0]; exact R
  | succ k ih =>
    intro hk
    exact (ih (by omega)).step S.constructed S.schemes.1.1 S.schemes.2.1 (hx k (by omega))

end PetIBM
