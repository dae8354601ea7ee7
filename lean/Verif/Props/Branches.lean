/-
Further branches of functions: names that are not known, locations out of range, overloads with stencils, dimensions that cannot be written, packs without a list of bodies.
-/
import Verif.Props.BodyPack
import Verif.Props.Parser
import Verif.Props.Boundary
import Verif.Lemmas.NavierStokesRun
import Verif.Props.Motion

namespace PetIBM

open Spec

set_option linter.unusedSectionVars false

section

variable {K : Type} [Field K] [LinearOrder K] [IsStrictOrderedRing K]

/-- C31. The overloads that take a stencil use its `i` as number of the point and its `c` as component, and nothing else of it: for every
degree of freedom of the pack they give the index of C31, whatever `j` and `k` are, and they reject the same arguments. Example of a pack: `Props/Body.lean`. -/
theorem C31_stencil (P : BodyPack K) (hP : PackOK P) (j k : ℤ) :
    (∀ u, IsLagDof P u → ∃ idx : ℤ, P.getPackedGlobalIndexS u.body ⟨k, j, u.point, u.comp⟩ = .ok idx ∧
      P.getPackedGlobalIndex u.body u.point u.comp = .ok idx ∧ 0 ≤ idx ∧ idx < (P.dim * P.nPts : ℕ)) ∧
    (∀ b i d : ℤ, (b < 0 ∨ (P.bodies.length : ℤ) ≤ b ∨ (∀ x, P.bodies[b.toNat]? = some x → i < 0 ∨ (x.nPts : ℤ) ≤ i) ∨ d < 0 ∨ (P.dim : ℤ) ≤ d) →
      P.getPackedGlobalIndexS b ⟨k, j, i, d⟩ = .error .argSize) ∧
    ∀ b ∈ P.bodies, ∀ i d : ℕ, i < b.nPts → d < b.dim → b.getGlobalIndexS ⟨k, j, i, d⟩ = .ok (i * b.dim + d : ℤ) := by
  refine ⟨fun u hu => ?_, fun b i d h => C31_out_of_range P hP b i d h, fun b _ i d hi hd => ?_⟩
  · obtain ⟨idx, h1, h2, h3⟩ := (C31_packed_index_bijective P hP).1 u hu
    exact ⟨idx, h1, h1, h2, h3⟩
  · unfold SingleBody.getGlobalIndexS SingleBody.getGlobalIndex
    dsimp only
    rw [if_neg (by omega), if_neg (by omega)]

/-- C10. An axis whose name is not one of the three directions is taken for the x-direction, without an error: at the end of the file it replaces what
was given for x, and the other directions are as without it, only the dimension counts it. -/
theorem C10_unknown_direction (l : List (AxisNode K)) (ax : AxisNode K) (hk : dirNamed ax.direction = none) (dim : ℕ) (m : MeshData K)
    (h : parseMesh (l ++ [ax]) = .ok (dim, m)) :
    parseSubDomains ax.subDomains ax.start = .ok (m.n 0, m.ed 0, m.dL 0) ∧ m.bg 0 = ax.start ∧
      ∃ dim' m', parseMesh l = .ok (dim', m') ∧ dim = dim' + 1 ∧
        ∀ d, d ≠ 0 → m.n d = m'.n d ∧ m.ed d = m'.ed d ∧ m.dL d = m'.dL d ∧ m.bg d = m'.bg d := by
  have hs : str2dir ax.direction = 0 := by
    unfold dirNamed at hk
    split at hk <;> simp_all [str2dir]
  have key : ∀ (l : List (AxisNode K)) (m₀ m : MeshData K), parseMeshLoop (l ++ [ax]) m₀ = .ok m →
      ∃ m', parseMeshLoop l m₀ = .ok m' ∧ ∃ n ed dL, parseSubDomains ax.subDomains ax.start = .ok (n, ed, dL) ∧ m = m'.assign 0 ax.start ed n dL := by
    intro l
    induction l with
    | nil =>
      intro m₀ m h
      simp only [List.nil_append, parseMeshLoop] at h
      obtain ⟨⟨n, ed, dL⟩, h1, h⟩ := bind_ok h
      rw [hs] at h
      exact ⟨m₀, rfl, n, ed, dL, h1, (Except.ok.inj h).symm⟩
    | cons a l ih =>
      intro m₀ m h
      simp only [List.cons_append, parseMeshLoop] at h
      obtain ⟨⟨n, ed, dL⟩, h1, h⟩ := bind_ok h
      obtain ⟨m', h2, h3⟩ := ih _ _ h
      refine ⟨m', ?_, h3⟩
      simp only [parseMeshLoop, h1]
      exact h2
  unfold parseMesh at h ⊢
  obtain ⟨m₁, h1, h⟩ := bind_ok h
  cases h
  obtain ⟨m', h2, n, ed, dL, h3, rfl⟩ := key _ _ _ h1
  refine ⟨by simpa [MeshData.assign] using h3, by simp [MeshData.assign], l.length, m', by rw [h2]; rfl, by simp, fun d hd => ?_⟩
  simp [MeshData.assign, hd]

example : dirNamed "X" = none ∧ ((parseMesh [⟨"y", 0, [⟨2, 1, 1⟩]⟩, ⟨"X", 0, [⟨3, 1, 1⟩]⟩] : Except Error (ℕ × MeshData ℚ)).toOption.map fun r => (r.1, r.2.n 0, r.2.n 1)) = some (2, 3, 2) :=
  ⟨rfl, by decide +kernel⟩

/-- C12. A map without location, after maps whose names are all known, ends the reading with an exception. -/
theorem C12_missing_location (bs rest : List (BCNode K)) (es : List (Spec.Entry K)) (h : allEntries bs = some es) (b : BCNode K) (hb : b.location = none) :
    parseBCs (some (some (bs ++ b :: rest))) = .error .exception := by
  have key : ∀ (bs : List (BCNode K)) (T T' : BCTable K), parseBCList bs T = .ok T' → parseBCList (bs ++ b :: rest) T = .error .exception := by
    intro bs
    induction bs with
    | nil => intro T T' _; simp only [List.nil_append, parseBCList, hb]
    | cons a bs ih =>
      intro T T' h
      simp only [List.cons_append, parseBCList] at h ⊢
      cases ha : a.location with
      | none => rfl
      | some l =>
        rw [ha] at h
        obtain ⟨T1, h1, h⟩ := bind_ok h
        simp only [h1]
        exact ih _ _ h
  exact key _ _ _ (parseBCList_entries bs es _ h)

example : allEntries ([⟨some "left", [("u", "DIRICHLET", 1)]⟩] : List (BCNode ℚ)) = some [⟨0, 0, .DIRICHLET, 1⟩] ∧
    (⟨none, [("v", "DIRICHLET", 0)]⟩ : BCNode ℚ).location = none := ⟨rfl, rfl⟩

/-- C13. Locations beyond the six boundaries are rejected. -/
theorem C13_location_range (debug : Bool) (L : Layout) (G : Geom K) (f r loc : ℕ) (h : 6 ≤ loc) : getGhostPointList debug L G f r loc = .error .argWrong := by
  obtain ⟨n, hn⟩ : ∃ n, loc / 2 = n + 3 := ⟨loc / 2 - 3, by omega⟩
  unfold getGhostPointList
  rw [hn]
  rfl

/-- C79. Without the key "bodies" there is a pack without bodies and without a report. -/
theorem C79_missing_list (R : Reader K) (fs : String → Option TextFile) (size dim : ℕ) (node : BodiesNode) (h : node.bodies = none) :
    createBodyPack R fs size dim node = .ok none := by
  unfold createBodyPack BodyPack.init
  rw [h]

end

variable {K : Type}

/-- C74. A body that is neither two- nor three-dimensional is not written: the call for the pack ends with the error, whatever its other
bodies are. -/
theorem C74_dimension (fmt : K → List Char) (output : String) (ite : ℤ) (names : List String) (P : BodyPack K) (text : TextDisk) (i : ℕ) (name : String)
    (b : SingleBody K) (hn : names[i]? = some name) (hb : P.bodies[i]? = some b) (hdim : b.dim ≠ 2 ∧ b.dim ≠ 3)
    (hpts : ∀ x ∈ P.bodies, ∀ p, p < x.nPts → ∀ d, d < x.dim → ∃ v, x.coordAt p d = .ok v) :
    writeBodies fmt output ite names P text = .error .fileRead := by
  have hone : ∀ x ∈ P.bodies, (∃ file, x.writeBody fmt = .ok file) ∨ x.writeBody fmt = .error .fileRead := by
    intro x hx
    unfold SingleBody.writeBody
    by_cases h : x.dim = 3 ∨ x.dim = 2
    · rw [if_pos h]
      left
      have : ∀ p ∈ List.range x.nPts, ∃ l, (do
          let xs ← (List.range x.dim).mapM fun d : ℕ => x.coordAt p d
          return bodyLine fmt xs : Except Error (List Char)) = .ok l := by
        intro p hp
        have hv : ∀ d, ∃ v, d ∈ List.range x.dim → x.coordAt p d = .ok v := by
          intro d
          by_cases hd : d ∈ List.range x.dim
          · obtain ⟨v, hv⟩ := hpts x hx p (List.mem_range.1 hp) d (List.mem_range.1 hd)
            exact ⟨v, fun _ => hv⟩
          · cases hw : x.coordAt p d with
            | ok v => exact ⟨v, fun _ => rfl⟩
            | error e =>
              by_cases h0 : ∃ v, x.coordAt p 0 = .ok v
              · obtain ⟨v, _⟩ := h0
                exact ⟨v, fun h' => absurd h' hd⟩
              · exfalso
                exact h0 (hpts x hx p (List.mem_range.1 hp) 0 (by omega))
        choose v hv using hv
        exact ⟨bodyLine fmt ((List.range x.dim).map v), by rw [mapM_ok _ hv]; rfl⟩
      have hl : ∀ p, ∃ l, p ∈ List.range x.nPts → (do
          let xs ← (List.range x.dim).mapM fun d : ℕ => x.coordAt p d
          return bodyLine fmt xs : Except Error (List Char)) = .ok l := by
        intro p
        by_cases hp : p ∈ List.range x.nPts
        · obtain ⟨l, hl⟩ := this p hp
          exact ⟨l, fun _ => hl⟩
        · exact ⟨[], fun h => absurd h hp⟩
      choose l hl using hl
      rw [mapM_ok _ hl]
      exact ⟨_, rfl⟩
    · rw [if_neg h]
      exact Or.inr rfl
  have hbad : b.writeBody fmt = .error .fileRead := by
    unfold SingleBody.writeBody
    rw [if_neg (by omega)]
  have key : ∀ (l : List (String × SingleBody K)) (text : TextDisk), (∀ q ∈ l, q.2 ∈ P.bodies) → (∃ n, (n, b) ∈ l) →
      l.foldlM (writeBodyAt fmt output ite) text = .error .fileRead := by
    intro l
    induction l with
    | nil => rintro _ _ ⟨n, h⟩; cases h
    | cons q l ih =>
      rintro text hl ⟨n, hmem⟩
      rw [List.foldlM_cons]
      rcases hone q.2 (hl q (List.mem_cons_self ..)) with ⟨file, hf⟩ | hf
      · have hstep : writeBodyAt fmt output ite text q = .ok (Function.update text (bodyPath output q.1 ite q.2.dim) (some file)) := by
          unfold writeBodyAt
          rw [hf]
          rfl
        rw [hstep]
        refine ih _ (fun q' hq' => hl q' (List.mem_cons_of_mem _ hq')) ?_
        rcases List.mem_cons.1 hmem with rfl | h
        · rw [hbad] at hf
          cases hf
        · exact ⟨n, h⟩
      · have hstep : writeBodyAt fmt output ite text q = .error .fileRead := by
          unfold writeBodyAt
          rw [hf]
          rfl
        rw [hstep]
        rfl
  refine key _ text (fun q hq => (List.of_mem_zip hq).2) ⟨name, ?_⟩
  refine List.mem_of_getElem? (i := i) ?_
  rw [List.getElem?_zip_eq_some]
  exact ⟨hn, hb⟩

/-- The hypotheses hold for a pack with a point in the plane and a point on a line. -/
example : ∃ P : BodyPack ℚ, P.bodies[1]? = some ⟨1, 1, [[3]], [1]⟩ ∧
    (∀ x ∈ P.bodies, ∀ p, p < x.nPts → ∀ d, d < x.dim → ∃ v, x.coordAt p d = .ok v) ∧
    ∀ fmt text, writeBodies fmt "out" 4 ["a", "b"] P text = .error .fileRead := by
  have hpts : ∀ x ∈ [(⟨2, 1, [[1, 2]], [1]⟩ : SingleBody ℚ), ⟨1, 1, [[3]], [1]⟩], ∀ p, p < x.nPts → ∀ d, d < x.dim → ∃ v, x.coordAt p d = .ok v := by
    intro x hx p hp d hd
    rcases List.mem_cons.1 hx with rfl | hx
    · obtain rfl : p = 0 := Nat.lt_one_iff.1 hp
      have hd : d < 2 := hd
      interval_cases d
      · exact ⟨1, rfl⟩
      · exact ⟨2, rfl⟩
    · obtain rfl := List.mem_singleton.1 hx
      obtain rfl : p = 0 := Nat.lt_one_iff.1 hp
      obtain rfl : d = 0 := Nat.lt_one_iff.1 hd
      exact ⟨3, rfl⟩
  exact ⟨⟨2, 1, [⟨2, 1, [[1, 2]], [1]⟩, ⟨1, 1, [[3]], [1]⟩]⟩, rfl, hpts, fun fmt text =>
    C74_dimension fmt "out" 4 ["a", "b"] ⟨2, 1, [⟨2, 1, [[1, 2]], [1]⟩, ⟨1, 1, [[3]], [1]⟩]⟩ text 1 "b" ⟨1, 1, [[3]], [1]⟩ rfl rfl (by decide) hpts⟩

end PetIBM
