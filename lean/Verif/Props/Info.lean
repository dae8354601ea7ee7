/-
C109: what the objects print about themselves.
-/
import Verif.Lemmas.Info
import Verif.Lemmas.Index
import Verif.Lemmas.Packed
import Verif.Props.Index
import Verif.Props.Body

namespace PetIBM

set_option linter.unusedSectionVars false

open Spec

variable {K : Type}

/-! ### Printing -/

/-- C109. The texts of the processes are printed unchanged, in the order of the ranks, exactly if none of them has a percent sign. -/
theorem C109_unchanged_iff (infos : List (List Char)) : ioPrint infos = .ok (infos.flatten ++ ['\n']) ↔ ∀ s ∈ infos, '%' ∉ s := by
  constructor
  · intro h
    unfold ioPrint at h
    obtain ⟨texts, ht, h⟩ := bind_ok h
    have h : texts.flatten ++ ['\n'] = infos.flatten ++ ['\n'] := Except.ok.inj h
    have he : texts.flatten.length = infos.flatten.length := by rw [List.append_cancel_right h]
    clear h
    have key : ∀ (infos texts : List (List Char)), infos.mapM printf = .ok texts → texts.flatten.length ≤ infos.flatten.length ∧
        (texts.flatten.length = infos.flatten.length → ∀ s ∈ infos, '%' ∉ s) := by
      intro infos
      induction infos with
      | nil => intro texts ht; cases ht; simp
      | cons s l ih =>
        intro texts ht
        rw [List.mapM_cons] at ht
        obtain ⟨u, hu, ht⟩ := bind_ok ht
        obtain ⟨us, hus, ht⟩ := bind_ok ht
        cases ht
        obtain ⟨h1, h2⟩ := ih us hus
        obtain ⟨h3, h4⟩ := printf_length s u hu
        simp only [List.flatten_cons, List.length_append]
        refine ⟨by omega, fun he v hv => ?_⟩
        rcases List.mem_cons.1 hv with rfl | hv
        · exact h4 (by omega)
        · exact h2 (by omega) v hv
    exact (key infos texts ht).2 he
  · exact ioPrint_clean

/-! ### The mesh -/

section Mesh

theorem showSizes_eq {dim : ℕ} (hd : dim = 2 ∨ dim = 3) (n : ℕ → ℕ) : showSizes dim n = printedProduct ((List.range dim).map n) := by
  rcases hd with rfl | rfl
  · simp [showSizes, printedProduct, showNat, List.range_succ, List.intercalate, List.intersperse]
  · simp [showSizes, printedProduct, showNat, List.range_succ, List.intercalate, List.intersperse]

theorem clean_header {fmt : K → List Char} (hf : ∀ x, PlainText (fmt x)) (L : Layout) (lo hi : ℕ → K) : ∀ s ∈ meshHeader fmt L lo hi, CleanText s := by
  intro s hs
  unfold meshHeader at hs
  simp only [List.mem_append, List.mem_cons, List.not_mem_nil, or_false, List.mem_map, List.mem_range] at hs
  rcases hs with ((rfl | rfl | rfl | rfl | rfl | rfl | rfl | rfl | rfl) | ⟨f, _, rfl⟩) | rfl | rfl | rfl
  · exact clean_ruler
  · exact clean_lit (by decide)
  · exact clean_ruler
  · exact clean_append (clean_lit (by decide)) (clean_nat _)
  · exact clean_nil
  · refine clean_append (clean_lit (by decide)) (clean_append (clean_interval hf _ _) (clean_append (clean_lit (by decide))
      (clean_append (clean_interval hf _ _) ?_)))
    split_ifs
    · exact clean_append (clean_lit (by decide)) (clean_interval hf _ _)
    · exact clean_nil
  · exact clean_nil
  · refine clean_append (clean_lit (by decide)) (clean_append ?_ (clean_lit (by decide)))
    split_ifs
    · exact clean_nil
    · exact clean_lit (by decide)
  · exact clean_append (clean_lit (by decide)) (clean_sizes _ _)
  · exact clean_append (clean_lit (by decide)) (clean_append (clean_fd2str _) (clean_append (clean_lit (by decide)) (clean_sizes _ _)))
  · exact clean_nil
  · exact clean_lit (by decide)
  · exact clean_append (clean_lit (by decide)) (clean_append (clean_nat _) (clean_append (clean_lit (by decide)) (clean_append (clean_nat _)
      (clean_append (clean_lit (by decide)) (clean_nat _)))))

theorem clean_local (L : Layout) (r : ℕ) : ∀ s ∈ meshLocal L r, CleanText s := by
  intro s hs
  unfold meshLocal at hs
  simp only [List.mem_append, List.mem_cons, List.not_mem_nil, or_false, List.mem_map, List.mem_range] at hs
  rcases hs with (rfl | rfl) | ⟨f, _, rfl⟩
  · exact clean_append (clean_lit (by decide)) (clean_append (clean_nat _) (clean_lit (by decide)))
  · exact clean_append (clean_lit (by decide)) (clean_box _ _ _)
  · exact clean_append (clean_lit (by decide)) (clean_append (clean_fd2str _) (clean_append (clean_lit (by decide)) (clean_box _ _ _)))

/-- The lines of rank `r`. -/
def meshLines (fmt : K → List Char) (L : Layout) (lo hi : ℕ → K) (r : ℕ) : List (List Char) :=
  (if r = 0 then meshHeader fmt L lo hi else []) ++ meshLocal L r ++ [[]]

theorem clean_meshLines {fmt : K → List Char} (hf : ∀ x, PlainText (fmt x)) (L : Layout) (lo hi : ℕ → K) (r : ℕ) :
    ∀ s ∈ meshLines fmt L lo hi r, CleanText s := by
  intro s hs
  unfold meshLines at hs
  rcases List.mem_append.1 hs with hs | hs
  · rcases List.mem_append.1 hs with hs | hs
    · split_ifs at hs
      · exact clean_header hf L lo hi s hs
      · cases hs
    · exact clean_local L r s hs
  · rw [List.mem_singleton.1 hs]; exact clean_nil

theorem meshPrint_eq {fmt : K → List Char} (hf : ∀ x, PlainText (fmt x)) (L : Layout) (lo hi : ℕ → K) :
    meshPrint fmt L lo hi = .ok (stream ((List.range L.mpiSize).flatMap (meshLines fmt L lo hi)) ++ ['\n']) := by
  unfold meshPrint
  rw [ioPrint_clean]
  · have := flatten_stream (List.range L.mpiSize) (meshLines fmt L lo hi)
    rw [← this]
    rfl
  · intro s hs
    obtain ⟨r, _, rfl⟩ := List.mem_map.1 hs
    exact stream_percent (clean_meshLines hf L lo hi r)

theorem mesh_textLines {fmt : K → List Char} (hf : ∀ x, PlainText (fmt x)) (L : Layout) (lo hi : ℕ → K) :
    textLines (stream ((List.range L.mpiSize).flatMap (meshLines fmt L lo hi)) ++ ['\n']) =
      (List.range L.mpiSize).flatMap (meshLines fmt L lo hi) ++ [[], []] := by
  rw [textLines_stream]
  · rfl
  · intro s hs
    obtain ⟨r, _, hs⟩ := List.mem_flatMap.1 hs
    exact clean_meshLines hf L lo hi r s hs

/-- The ranges of all fields of rank `r`, pressure first. -/
def rankBoxes (L : Layout) (r : ℕ) : List (List (ℕ × ℕ)) :=
  (3 :: List.range L.dim).map fun f => [(L.bg f r 0, L.ed f r 0), (L.bg f r 1, L.ed f r 1), (L.bg f r 2, L.ed f r 2)]

theorem ranges_header {fmt : K → List Char} (hf : ∀ x, PlainText (fmt x)) (L : Layout) (lo hi : ℕ → K) :
    ∀ s ∈ meshHeader fmt L lo hi, rangesIn s = [] := by
  have hsz : ∀ n : ℕ → ℕ, '[' ∉ showSizes L.dim n := by
    intro n h
    rcases List.mem_append.1 h with h | h
    · exact no_bracket_nat _ h
    · obtain ⟨i, _, h⟩ := List.mem_flatMap.1 h
      rcases List.mem_append.1 h with h | h
      · revert h; decide
      · exact no_bracket_nat _ h
  intro s hs
  unfold meshHeader at hs
  simp only [List.mem_append, List.mem_cons, List.not_mem_nil, or_false, List.mem_map, List.mem_range] at hs
  rcases hs with ((rfl | rfl | rfl | rfl | rfl | rfl | rfl | rfl | rfl) | ⟨f, _, rfl⟩) | rfl | rfl | rfl
  · exact rangesIn_none (by decide)
  · exact rangesIn_none (by decide)
  · exact rangesIn_none (by decide)
  · rw [rangesIn_skip (by decide), rangesIn_none (no_bracket_nat _)]
  · rfl
  · rw [rangesIn_skip (by decide), rangesIn_interval hf, rangesIn_skip (by decide), rangesIn_interval hf]
    split_ifs
    · have := rangesIn_interval hf (lo 2) (hi 2) []
      rw [List.append_nil] at this
      rw [rangesIn_skip (by decide), this]
      rfl
    · rfl
  · rfl
  · rw [rangesIn_skip (by decide)]
    split_ifs <;> exact rangesIn_none (by decide)
  · rw [rangesIn_skip (by decide), rangesIn_none (hsz _)]
  · rw [rangesIn_skip (by decide), rangesIn_skip (by unfold fd2str; split_ifs <;> decide), rangesIn_skip (by decide), rangesIn_none (hsz _)]
  · rfl
  · exact rangesIn_none (by decide)
  · rw [rangesIn_skip (by decide), rangesIn_skip (no_bracket_nat _), rangesIn_skip (by decide), rangesIn_skip (no_bracket_nat _),
      rangesIn_skip (by decide), rangesIn_none (no_bracket_nat _)]

theorem filter_all_nil {l : List (List Char)} (h : ∀ s ∈ l, rangesIn s = []) : (l.map rangesIn).filter (fun l => l ≠ []) = [] := by
  rw [List.filter_eq_nil_iff]
  intro a ha
  obtain ⟨s, hs, rfl⟩ := List.mem_map.1 ha
  simp [h s hs]

theorem ranges_local (L : Layout) (r : ℕ) : ((meshLocal L r).map rangesIn).filter (fun l => l ≠ []) = rankBoxes L r := by
  have h1 : rangesIn ("\t\tRank ".toList ++ (showNat r ++ ": ".toList)) = [] := by
    rw [rangesIn_skip (by decide), rangesIn_skip (no_bracket_nat _), rangesIn_none (by decide)]
  have h2 : rangesIn ("\t\t\tPressure Grid: ".toList ++ showBox L 3 r) = [(L.bg 3 r 0, L.ed 3 r 0), (L.bg 3 r 1, L.ed 3 r 1), (L.bg 3 r 2, L.ed 3 r 2)] := by
    rw [rangesIn_skip (by decide), rangesIn_box]
  have h3 : ∀ f, rangesIn ("\t\t\t".toList ++ ((fd2str f).toList ++ ("-Velocity Grid: ".toList ++ showBox L f r))) =
      [(L.bg f r 0, L.ed f r 0), (L.bg f r 1, L.ed f r 1), (L.bg f r 2, L.ed f r 2)] := by
    intro f
    rw [rangesIn_skip (by decide), rangesIn_skip (by unfold fd2str; split_ifs <;> decide), rangesIn_skip (by decide), rangesIn_box]
  unfold meshLocal rankBoxes
  rw [List.map_append, List.map_cons, List.map_cons, List.map_nil, h1, h2, List.map_map, List.map_cons]
  have : (rangesIn ∘ fun f => "\t\t\t".toList ++ ((fd2str f).toList ++ ("-Velocity Grid: ".toList ++ showBox L f r))) =
      fun f => [(L.bg f r 0, L.ed f r 0), (L.bg f r 1, L.ed f r 1), (L.bg f r 2, L.ed f r 2)] := funext h3
  have hself : ((List.range L.dim).map fun f => [(L.bg f r 0, L.ed f r 0), (L.bg f r 1, L.ed f r 1), (L.bg f r 2, L.ed f r 2)]).filter
      (fun l => decide (l ≠ [])) = (List.range L.dim).map fun f => [(L.bg f r 0, L.ed f r 0), (L.bg f r 1, L.ed f r 1), (L.bg f r 2, L.ed f r 2)] := by
    rw [List.filter_eq_self]
    intro a ha
    obtain ⟨f, _, rfl⟩ := List.mem_map.1 ha
    simp
  rw [this, List.filter_append, hself]
  rfl

theorem mesh_ranges {fmt : K → List Char} (hf : ∀ x, PlainText (fmt x)) (L : Layout) (lo hi : ℕ → K) :
    printedRanges (stream ((List.range L.mpiSize).flatMap (meshLines fmt L lo hi)) ++ ['\n']) = (List.range L.mpiSize).flatMap (rankBoxes L) := by
  unfold printedRanges
  rw [mesh_textLines hf, List.map_append, List.filter_append]
  have h0 : ([[], []].map rangesIn).filter (fun l => l ≠ []) = ([] : List (List (ℕ × ℕ))) := by decide
  rw [h0, List.append_nil]
  have key : ∀ r, ((meshLines fmt L lo hi r).map rangesIn).filter (fun l => l ≠ []) = rankBoxes L r := by
    intro r
    unfold meshLines
    rw [List.map_append, List.map_append, List.filter_append, List.filter_append, ranges_local, filter_all_nil, filter_all_nil, List.append_nil, List.nil_append]
    · intro s hs
      rw [List.mem_singleton.1 hs]; rfl
    · intro s hs
      split_ifs at hs
      · exact ranges_header hf L lo hi s hs
      · cases hs
  generalize L.mpiSize = N
  induction N with
  | zero => rfl
  | succ n ih => rw [List.range_succ, List.flatMap_append, List.flatMap_append, List.map_append, List.filter_append, ih, List.flatMap_singleton, List.flatMap_singleton, key]

theorem box_owns {L : Layout} {f r i j k : ℕ} :
    InRanges [i, j, k] [(L.bg f r 0, L.ed f r 0), (L.bg f r 1, L.ed f r 1), (L.bg f r 2, L.ed f r 2)] ↔ Owns L f r i j k := by
  have hs : ∀ (l : List ℕ) (p : ℕ), startOf l p + sizeOf' l p = (l.take (p + 1)).sum := by
    intro l p
    unfold startOf sizeOf'
    rw [List.take_add_one, List.sum_append]
    rcases h : l[p]? with _ | v
    · simp [List.getD_eq_getElem?_getD, h]
    · simp [List.getD_eq_getElem?_getD, h]
  unfold InRanges Owns
  simp only [List.forall₂_cons, List.forall₂_nil_left_iff, and_true]
  unfold Layout.ed Layout.m Layout.bg
  rw [hs, hs, hs]
  rfl

/-- C109. The text that the mesh prints, in two or three dimensions and for every distribution: it has the dimension, the domain, the numbers of
points of all grids and of processes in each direction; and the printed ranges put every point of every grid on exactly one process, its owner. -/
theorem C109_mesh (L : Layout) (hL : LayoutOK L) (fmt : K → List Char) (hf : ∀ x, PlainText (fmt x)) (lo hi : ℕ → K) :
    ∃ text, meshPrint fmt L lo hi = .ok text ∧
      entryOf "\tDimension: " text = some (toString L.dim).toList ∧
      entryOf "\tDomain Range: " text =
        some (List.intercalate "; ".toList ((List.range L.dim).map fun d => "[".toList ++ fmt (lo d) ++ ", ".toList ++ fmt (hi d) ++ "]".toList)) ∧
      entryOf "\t\tPressure Grid: " text = some (printedProduct ((List.range L.dim).map (L.n 3))) ∧
      (∀ f label, (f, label) ∈ [(0, "\t\tu-Velocity Grid: "), (1, "\t\tv-Velocity Grid: "), (2, "\t\tw-Velocity Grid: ")] → f < L.dim →
        entryOf label text = some (printedProduct ((List.range L.dim).map (L.n f)))) ∧
      entryOf "\t\tMPI Processes: " text = some (printedProduct [L.nProc 0, L.nProc 1, L.nProc 2]) ∧
      (printedRanges text).length = L.mpiSize * (L.dim + 1) ∧
      ∀ f g, f = 3 ∧ g = 0 ∨ f < L.dim ∧ g = f + 1 → ∀ i j k, i < L.n f 0 → j < L.n f 1 → k < L.n f 2 →
        (∀ r, r < L.mpiSize → ((∃ box, (printedRanges text)[r * (L.dim + 1) + g]? = some box ∧ InRanges [i, j, k] box) ↔ Owns L f r i j k)) ∧
        ∃! r, r < L.mpiSize ∧ ∃ box, (printedRanges text)[r * (L.dim + 1) + g]? = some box ∧ InRanges [i, j, k] box := by
  refine ⟨_, meshPrint_eq hf L lo hi, ?_⟩
  have hpos : L.mpiSize = (L.mpiSize - 1) + 1 := by
    have := Nat.mul_pos (Nat.mul_pos (hL.procs 0 (by omega)) (hL.procs 1 (by omega))) (hL.procs 2 (by omega))
    unfold Layout.mpiSize
    omega
  have hlines : ∃ rest, textLines (stream ((List.range L.mpiSize).flatMap (meshLines fmt L lo hi)) ++ ['\n']) = meshHeader fmt L lo hi ++ rest := by
    rw [mesh_textLines hf, hpos, List.range_succ_eq_map, List.flatMap_cons]
    generalize ((List.range (L.mpiSize - 1)).map Nat.succ).flatMap (meshLines fmt L lo hi) = X
    refine ⟨meshLocal L 0 ++ ([[]] ++ (X ++ [[], []])), ?_⟩
    unfold meshLines
    rw [if_pos rfl, List.append_assoc, List.append_assoc, List.append_assoc]
  obtain ⟨rest, hlines⟩ := hlines
  have entry : ∀ label, entryOf label (stream ((List.range L.mpiSize).flatMap (meshLines fmt L lo hi)) ++ ['\n']) =
      (meshHeader fmt L lo hi ++ rest).findSome? fun l => label.toList.isPrefixOf? l := by
    intro label
    unfold entryOf
    rw [hlines]
  rw [mesh_ranges hf]
  have hlen : ∀ r, (rankBoxes L r).length = L.dim + 1 := by intro r; simp [rankBoxes]
  have hbox : ∀ f g, f = 3 ∧ g = 0 ∨ f < L.dim ∧ g = f + 1 → ∀ r, r < L.mpiSize →
      ((List.range L.mpiSize).flatMap (rankBoxes L))[r * (L.dim + 1) + g]? =
        some [(L.bg f r 0, L.ed f r 0), (L.bg f r 1, L.ed f r 1), (L.bg f r 2, L.ed f r 2)] := by
    intro f g hfg r hr
    rw [get_blocks hlen hr (by omega)]
    unfold rankBoxes
    rcases hfg with ⟨rfl, rfl⟩ | ⟨hf, rfl⟩
    · rfl
    · rw [List.getElem?_map, List.getElem?_cons_succ, List.getElem?_range hf]
      rfl
  have hown : ∀ f g, f = 3 ∧ g = 0 ∨ f < L.dim ∧ g = f + 1 → ∀ i j k r, r < L.mpiSize →
      ((∃ box, ((List.range L.mpiSize).flatMap (rankBoxes L))[r * (L.dim + 1) + g]? = some box ∧ InRanges [i, j, k] box) ↔ Owns L f r i j k) := by
    intro f g hfg i j k r hr
    rw [hbox f g hfg r hr]
    constructor
    · rintro ⟨box, hb, h⟩
      cases hb
      exact box_owns.1 h
    · exact fun h => ⟨_, rfl, box_owns.2 h⟩
  refine ⟨?_, ?_, ?_, ?_, ?_, ?_, ?_⟩
  · rw [entry]
    unfold meshHeader
    simp only [List.cons_append, List.nil_append, List.append_assoc]
    rw [find_other (by decide), find_other (by decide), find_other (by decide), find_hit]
    rfl
  · rw [entry]
    unfold meshHeader
    simp only [List.cons_append, List.nil_append, List.append_assoc]
    rw [find_other (by decide), find_other (by decide), find_other (by decide), find_skip (by decide), find_empty (by decide), find_hit]
    rcases hL.dim with h | h <;>
      simp [h, showInterval, List.range_succ, List.intercalate, List.intersperse]
  · rw [entry]
    unfold meshHeader
    simp only [List.cons_append, List.nil_append, List.append_assoc]
    rw [find_other (by decide), find_other (by decide), find_other (by decide), find_skip (by decide), find_empty (by decide), find_skip (by decide),
      find_empty (by decide), find_skip (by decide), find_hit, showSizes_eq hL.dim]
  · intro f label hm hfd
    rw [entry]
    have line : ∀ f label, (f, label) ∈ [(0, "\t\tu-Velocity Grid: "), (1, "\t\tv-Velocity Grid: "), (2, "\t\tw-Velocity Grid: ")] → ∀ X : List Char,
        "\t\t".toList ++ ((fd2str f).toList ++ ("-Velocity Grid: ".toList ++ X)) = label.toList ++ X := by
      intro f label h X
      simp only [List.mem_cons, Prod.mk.injEq, List.not_mem_nil, or_false] at h
      rcases h with ⟨rfl, rfl⟩ | ⟨rfl, rfl⟩ | ⟨rfl, rfl⟩ <;> rfl
    unfold meshHeader
    simp only [List.mem_cons, Prod.mk.injEq, List.not_mem_nil, or_false] at hm
    have e0 := line 0 "\t\tu-Velocity Grid: " (by simp) (showSizes L.dim (L.n 0))
    have e1 := line 1 "\t\tv-Velocity Grid: " (by simp) (showSizes L.dim (L.n 1))
    have e2 := line 2 "\t\tw-Velocity Grid: " (by simp) (showSizes L.dim (L.n 2))
    have hr : ∃ R, (List.range L.dim).map (fun f => "\t\t".toList ++ ((fd2str f).toList ++ ("-Velocity Grid: ".toList ++ showSizes L.dim (L.n f)))) =
        ("\t\tu-Velocity Grid: ".toList ++ showSizes L.dim (L.n 0)) :: ("\t\tv-Velocity Grid: ".toList ++ showSizes L.dim (L.n 1)) :: R ∧
        (L.dim = 3 → R = ["\t\tw-Velocity Grid: ".toList ++ showSizes L.dim (L.n 2)]) := by
      rw [← e0, ← e1, ← e2]
      generalize hg : (fun f => "\t\t".toList ++ ((fd2str f).toList ++ ("-Velocity Grid: ".toList ++ showSizes L.dim (L.n f)))) = g
      have hg' : ∀ f, "\t\t".toList ++ ((fd2str f).toList ++ ("-Velocity Grid: ".toList ++ showSizes L.dim (L.n f))) = g f := fun f => by rw [← hg]
      rw [hg' 0, hg' 1, hg' 2]
      rcases hL.dim with h | h
      · exact ⟨[], by rw [h]; rfl, by omega⟩
      · exact ⟨[g 2], by rw [h]; rfl, fun _ => rfl⟩
    obtain ⟨R, hr, hR⟩ := hr
    rw [hr]
    simp only [List.cons_append, List.nil_append, List.append_assoc]
    rcases hm with ⟨rfl, rfl⟩ | ⟨rfl, rfl⟩ | ⟨rfl, rfl⟩
    · rw [find_other (by decide), find_other (by decide), find_other (by decide), find_skip (by decide), find_empty (by decide), find_skip (by decide),
        find_empty (by decide), find_skip (by decide), find_skip (by decide), find_hit, showSizes_eq hL.dim]
    · rw [find_other (by decide), find_other (by decide), find_other (by decide), find_skip (by decide), find_empty (by decide), find_skip (by decide),
        find_empty (by decide), find_skip (by decide), find_skip (by decide), find_skip (by decide), find_hit, showSizes_eq hL.dim]
    · have h3 : L.dim = 3 := by rcases hL.dim with h | h <;> omega
      rw [hR h3]
      simp only [List.cons_append, List.nil_append]
      rw [find_other (by decide), find_other (by decide), find_other (by decide), find_skip (by decide), find_empty (by decide), find_skip (by decide),
        find_empty (by decide), find_skip (by decide), find_skip (by decide), find_skip (by decide), find_skip (by decide), find_hit, showSizes_eq hL.dim]
  · rw [entry]
    unfold meshHeader
    have skipV : ∀ (l : List ℕ) (ls : List (List Char)), ((l.map (fun f => "\t\t".toList ++ ((fd2str f).toList ++ ("-Velocity Grid: ".toList ++
        showSizes L.dim (L.n f))))) ++ ls).findSome? (fun l => "\t\tMPI Processes: ".toList.isPrefixOf? l) =
        ls.findSome? (fun l => "\t\tMPI Processes: ".toList.isPrefixOf? l) := by
      intro l ls
      induction l with
      | nil => rfl
      | cons f l ih =>
        rw [List.map_cons, List.cons_append, ← List.append_assoc]
        rw [find_skip (by unfold fd2str; split_ifs <;> decide), ih]
    simp only [List.cons_append, List.nil_append, List.append_assoc]
    rw [find_other (by decide), find_other (by decide), find_other (by decide), find_skip (by decide), find_empty (by decide), find_skip (by decide),
      find_empty (by decide), find_skip (by decide), find_skip (by decide), skipV, find_empty (by decide), find_other (by decide), find_hit]
    simp [printedProduct, showNat, List.intercalate, List.intersperse]
  · rw [List.length_flatMap]
    simp [hlen]
  · intro f g hfg i j k hi hj hk
    refine ⟨hown f g hfg i j k, ?_⟩
    obtain ⟨r, hr, ho⟩ := exists_owner hL (f := f) (by rcases hfg with h | h <;> [exact Or.inr h.1; exact Or.inl h.1]) hi hj hk
    refine ⟨r, ⟨hr, (hown f g hfg i j k r hr).2 ho⟩, ?_⟩
    rintro r' ⟨hr', h'⟩
    exact owner_unique ((hown f g hfg i j k r' hr').1 h') ho

/-- The layout of the examples on four processes, printed with a fixed text for numbers. -/
example : ∃ text, meshPrint (fun _ : ℚ => "0".toList) exampleLayout (fun _ => 0) (fun _ => 1) = .ok text ∧
    (printedRanges text)[3 * 3 + 1]? = some [(2, 3), (2, 3), (0, 1)] := by
  refine ⟨_, meshPrint_eq (by intro x c hc; simp at hc; subst hc; decide) _ _ _, ?_⟩
  rw [mesh_ranges (by intro x c hc; simp at hc; subst hc; decide)]
  decide +kernel

end Mesh

/-! ### Bodies -/

section Bodies

/-- The lines of a body on rank `r`. -/
def bodyLines (name path : List Char) (b : SingleBody K) (r : ℕ) : List (List Char) :=
  (if r = 0 then bodyHeader name path b else []) ++
    ["\t\tRank ".toList ++ (showNat r ++ ":".toList), "\t\t\tNumber of points: ".toList ++ showNat (b.nLclPts r),
      "\t\t\tRange of points: ".toList ++ showRange (b.bgPt r) (b.bgPt r + b.nLclPts r)]

theorem clean_bodyLines {name path : List Char} (hn : PlainText name) (hp : PlainText path) (b : SingleBody K) (r : ℕ) :
    ∀ s ∈ bodyLines name path b r, CleanText s := by
  intro s hs
  unfold bodyLines at hs
  rcases List.mem_append.1 hs with hs | hs
  · split_ifs at hs
    · unfold bodyHeader at hs
      simp only [List.mem_cons, List.not_mem_nil, or_false] at hs
      rcases hs with rfl | rfl | rfl | rfl | rfl | rfl | rfl | rfl | rfl | rfl | rfl | rfl | rfl
      · exact clean_ruler
      · exact clean_append (clean_lit (by decide)) (clean_append hn.clean (clean_lit (by decide)))
      · exact clean_ruler
      · exact clean_append (clean_lit (by decide)) hp.clean
      · exact clean_nil
      · exact clean_append (clean_lit (by decide)) (clean_nat _)
      · exact clean_nil
      · exact clean_append (clean_lit (by decide)) (clean_nat _)
      · exact clean_nil
      · exact clean_append (clean_lit (by decide)) (clean_append (clean_nat _) (clean_lit (by decide)))
      · exact clean_nil
      · exact clean_lit (by decide)
      · exact clean_nil
    · cases hs
  · simp only [List.mem_cons, List.not_mem_nil, or_false] at hs
    rcases hs with rfl | rfl | rfl
    · exact clean_append (clean_lit (by decide)) (clean_append (clean_nat _) (clean_lit (by decide)))
    · exact clean_append (clean_lit (by decide)) (clean_nat _)
    · exact clean_append (clean_lit (by decide)) (clean_range _ _)

theorem bodyPrint_eq {name path : List Char} (hn : PlainText name) (hp : PlainText path) (b : SingleBody K) :
    bodyPrint name path b = .ok (stream ((List.range b.mpiSize).flatMap (bodyLines name path b)) ++ ['\n']) := by
  unfold bodyPrint
  rw [ioPrint_clean]
  · have := flatten_stream (List.range b.mpiSize) (bodyLines name path b)
    rw [← this]
    rfl
  · intro s hs
    obtain ⟨r, _, rfl⟩ := List.mem_map.1 hs
    exact stream_percent (clean_bodyLines hn hp b r)

theorem ranges_bodyLines {name path : List Char} (hn : PlainText name) (hp : PlainText path) (b : SingleBody K) (r : ℕ) :
    ((bodyLines name path b r).map rangesIn).filter (fun l => l ≠ []) = [[(b.bgPt r, b.bgPt r + b.nLclPts r)]] := by
  have nb : ∀ s, PlainText s → '[' ∉ s := fun s hs h => (hs _ h).2.2.1 rfl
  unfold bodyLines
  rw [List.map_append, List.filter_append, filter_all_nil, List.nil_append]
  · have h1 : rangesIn ("\t\tRank ".toList ++ (showNat r ++ ":".toList)) = [] := by
      rw [rangesIn_skip (by decide), rangesIn_skip (no_bracket_nat _), rangesIn_none (by decide)]
    have h2 : rangesIn ("\t\t\tNumber of points: ".toList ++ showNat (b.nLclPts r)) = [] := by
      rw [rangesIn_skip (by decide), rangesIn_none (no_bracket_nat _)]
    have h3 : rangesIn ("\t\t\tRange of points: ".toList ++ showRange (b.bgPt r) (b.bgPt r + b.nLclPts r)) = [(b.bgPt r, b.bgPt r + b.nLclPts r)] := by
      have := rangesIn_range (b.bgPt r) (b.bgPt r + b.nLclPts r) []
      rw [List.append_nil] at this
      rw [rangesIn_skip (by decide), this]
      rfl
    rw [List.map_cons, List.map_cons, List.map_cons, List.map_nil, h1, h2, h3]
    rfl
  · intro s hs
    split_ifs at hs
    · unfold bodyHeader at hs
      simp only [List.mem_cons, List.not_mem_nil, or_false] at hs
      rcases hs with rfl | rfl | rfl | rfl | rfl | rfl | rfl | rfl | rfl | rfl | rfl | rfl | rfl
      · exact rangesIn_none (by decide)
      · rw [rangesIn_skip (by decide), rangesIn_skip (nb _ hn), rangesIn_none (by decide)]
      · exact rangesIn_none (by decide)
      · rw [rangesIn_skip (by decide), rangesIn_none (nb _ hp)]
      · rfl
      · rw [rangesIn_skip (by decide), rangesIn_none (no_bracket_nat _)]
      · rfl
      · rw [rangesIn_skip (by decide), rangesIn_none (no_bracket_nat _)]
      · rfl
      · rw [rangesIn_skip (by decide), rangesIn_skip (no_bracket_nat _), rangesIn_none (by decide)]
      · rfl
      · exact rangesIn_none (by decide)
      · rfl
    · cases hs

theorem flatMap_ranges {g : ℕ → List (List Char)} {h : ℕ → List (List (ℕ × ℕ))}
    (key : ∀ r, ((g r).map rangesIn).filter (fun l => l ≠ []) = h r) (n : ℕ) :
    (((List.range n).flatMap g).map rangesIn).filter (fun l => l ≠ []) = (List.range n).flatMap h := by
  induction n with
  | zero => rfl
  | succ n ih =>
    rw [List.range_succ, List.flatMap_append, List.flatMap_append, List.map_append, List.filter_append, ih, List.flatMap_singleton, List.flatMap_singleton, key]

theorem body_ranges {name path : List Char} (hn : PlainText name) (hp : PlainText path) (b : SingleBody K) :
    printedRanges (stream ((List.range b.mpiSize).flatMap (bodyLines name path b)) ++ ['\n']) =
      (List.range b.mpiSize).map fun r => [(b.bgPt r, b.bgPt r + b.nLclPts r)] := by
  unfold printedRanges
  rw [textLines_stream]
  · rw [List.map_append, List.filter_append, flatMap_ranges (ranges_bodyLines hn hp b)]
    have h0 : ((textLines ['\n']).map rangesIn).filter (fun l => l ≠ []) = ([] : List (List (ℕ × ℕ))) := by decide
    rw [h0, List.append_nil, ← List.map_eq_flatMap]
  · intro s hs
    obtain ⟨r, _, hs⟩ := List.mem_flatMap.1 hs
    exact clean_bodyLines hn hp b r s hs

/-- C109 (part). The text that a body prints, for every distribution: it has the name of the file, the dimension and the number of points; and the printed
ranges, one for each process, put every point on exactly one process, its owner. What is missing: names of bodies and files with a percent sign or other
special characters, see `C109_false_percent`. -/
theorem C109_body_partial (b : SingleBody K) (hs : 0 < b.mpiSize) (hb : b.lcl.sum = b.nPts) (name path : List Char) (hn : PlainText name)
    (hp : PlainText path) :
    ∃ text, bodyPrint name path b = .ok text ∧
      entryOf "Body " text = some (name ++ [':']) ∧
      entryOf "\tInput mesh file: " text = some path ∧
      entryOf "\tDimension: " text = some (toString b.dim).toList ∧
      entryOf "\tTotal number of Lagrangian points: " text = some (toString b.nPts).toList ∧
      (printedRanges text).length = b.mpiSize ∧
      ∀ i, i < b.nPts → (∀ r, r < b.mpiSize → ((∃ box, (printedRanges text)[r]? = some box ∧ InRanges [i] box) ↔ OwnsPoint b r i)) ∧
        ∃! r, r < b.mpiSize ∧ ∃ box, (printedRanges text)[r]? = some box ∧ InRanges [i] box := by
  refine ⟨_, bodyPrint_eq hn hp b, ?_⟩
  have hlines : ∃ rest, textLines (stream ((List.range b.mpiSize).flatMap (bodyLines name path b)) ++ ['\n']) = bodyHeader name path b ++ rest := by
    rw [textLines_stream]
    · obtain ⟨m, hm⟩ : ∃ m, b.mpiSize = m + 1 := ⟨b.mpiSize - 1, by omega⟩
      rw [hm, List.range_succ_eq_map, List.flatMap_cons]
      generalize ((List.range m).map Nat.succ).flatMap (bodyLines name path b) = X
      unfold bodyLines
      rw [if_pos rfl, List.append_assoc, List.append_assoc]
      exact ⟨_, rfl⟩
    · intro s hs
      obtain ⟨r, _, hs⟩ := List.mem_flatMap.1 hs
      exact clean_bodyLines hn hp b r s hs
  obtain ⟨rest, hlines⟩ := hlines
  have entry : ∀ label, entryOf label (stream ((List.range b.mpiSize).flatMap (bodyLines name path b)) ++ ['\n']) =
      (bodyHeader name path b ++ rest).findSome? fun l => label.toList.isPrefixOf? l := by
    intro label
    unfold entryOf
    rw [hlines]
  have hsum : ∀ (l : List ℕ) (p : ℕ), startOf l p + sizeOf' l p = (l.take (p + 1)).sum := by
    intro l p
    unfold startOf sizeOf'
    rw [List.take_add_one, List.sum_append]
    rcases h : l[p]? with _ | v
    · simp [List.getD_eq_getElem?_getD, h]
    · simp [List.getD_eq_getElem?_getD, h]
  rw [body_ranges hn hp]
  have hown : ∀ i r, r < b.mpiSize →
      ((∃ box, ((List.range b.mpiSize).map fun r => [(b.bgPt r, b.bgPt r + b.nLclPts r)])[r]? = some box ∧ InRanges [i] box) ↔ OwnsPoint b r i) := by
    intro i r hr
    rw [List.getElem?_map, List.getElem?_range hr, Option.map_some]
    unfold SingleBody.bgPt SingleBody.nLclPts
    rw [hsum]
    constructor
    · rintro ⟨box, hb, h⟩
      cases hb
      unfold InRanges at h
      simp only [List.forall₂_cons, List.forall₂_nil_left_iff, and_true] at h
      exact h
    · intro h
      refine ⟨_, rfl, ?_⟩
      unfold InRanges
      simp only [List.forall₂_cons, List.forall₂_nil_left_iff, and_true]
      exact h
  refine ⟨?_, ?_, ?_, ?_, ?_, ?_⟩
  · rw [entry]
    unfold bodyHeader
    simp only [List.cons_append, List.nil_append]
    rw [find_other (by decide), find_hit]
    rfl
  · rw [entry]
    unfold bodyHeader
    simp only [List.cons_append, List.nil_append]
    rw [find_other (by decide), find_skip (by decide), find_other (by decide), find_hit]
  · rw [entry]
    unfold bodyHeader
    simp only [List.cons_append, List.nil_append]
    rw [find_other (by decide), find_skip (by decide), find_other (by decide), find_skip (by decide), find_empty (by decide), find_hit]
    rfl
  · rw [entry]
    unfold bodyHeader
    simp only [List.cons_append, List.nil_append]
    rw [find_other (by decide), find_skip (by decide), find_other (by decide), find_skip (by decide), find_empty (by decide), find_skip (by decide),
      find_empty (by decide), find_hit]
    rfl
  · simp
  · intro i hi
    refine ⟨hown i, ?_⟩
    obtain ⟨r, hr, ho⟩ := exists_block b.lcl (i := i) (by rw [hb]; exact hi)
    refine ⟨r, ⟨hr, (hown i r hr).2 ho⟩, ?_⟩
    rintro r' ⟨hr', h'⟩
    have ho' := (hown i r' hr').1 h'
    exact block_unique b.lcl ho'.1 ho'.2 ho.1 ho.2

/-- The first body of the example on two processes. -/
example : ∃ b ∈ examplePack.bodies, 0 < b.mpiSize ∧ b.lcl.sum = b.nPts ∧ PlainText "wing".toList ∧ PlainText "/data/wing.2D".toList := by
  refine ⟨_, List.mem_cons_self, by decide, by decide, ?_, ?_⟩ <;> (intro c hc; revert c; decide)

/-- C109. A percent sign in the name of a body or of its file is never printed as such: the printed text is not what the processes prepared. -/
theorem C109_percent (b : SingleBody K) (hs : 0 < b.mpiSize) (name path : List Char) (h : '%' ∈ name ∨ '%' ∈ path) :
    bodyPrint name path b ≠ .ok (((List.range b.mpiSize).map (bodyInfo name path b)).flatten ++ ['\n']) := by
  intro he
  have := (C109_unchanged_iff _).1 he (bodyInfo name path b 0) (List.mem_map.2 ⟨0, List.mem_range.2 hs, rfl⟩)
  apply this
  unfold bodyInfo stream bodyHeader
  rw [if_pos rfl]
  rcases h with h | h
  · exact List.mem_flatMap.2 ⟨"Body ".toList ++ (name ++ ":".toList), by simp, by simp [h]⟩
  · exact List.mem_flatMap.2 ⟨"\tInput mesh file: ".toList ++ path, by simp, by simp [h]⟩

/-- C109 is false for such names: what a body prints is the format of a `printf` without arguments, so that a percent sign in its name reads an argument
that does not exist, which is undefined, or the name that is printed is another one. -/
theorem C109_false_percent : ∃ b ∈ examplePack.bodies, bodyPrint "100%d".toList "/data/wing.2D".toList b = .error .ub ∧
    (bodyPrint "100%%".toList "/data/wing.2D".toList b).toOption.bind (entryOf "Body ") = some "100%:".toList := by
  refine ⟨_, List.mem_cons_self, ?_, ?_⟩
  · decide +kernel
  · decide +kernel

/-- C109 (part). All bodies together: first their number and their names, then the text of each of them, in the order of the configuration. What is
missing: as for `C109_body_partial`. -/
theorem C109_bodies_partial (P : BodyPack K) (hs : 0 < P.mpiSize) (labels : List (List Char × List Char))
    (hl : labels.length = P.bodies.length) (hp : ∀ x ∈ labels, PlainText x.1 ∧ PlainText x.2) :
    ∃ head texts, packPrint labels P = .ok (head ++ texts.flatten) ∧
      List.Forall₂ (fun x t => bodyPrint x.1.1 x.1.2 x.2 = .ok t) (labels.zip P.bodies) texts ∧ texts.length = P.bodies.length ∧
      entryOf "\tDimension: " head = some (toString P.dim).toList ∧
      entryOf "\tNumber of bodies: " head = some (toString P.bodies.length).toList ∧
      entryOf "\tName of bodies: " head = some ("[".toList ++ labels.flatMap (fun x => x.1 ++ ", ".toList) ++ "]".toList) ∧
      printedRanges head = [] := by
  have hn : CleanText ((labels.map Prod.fst).flatMap fun n => n ++ ", ".toList) := by
    refine clean_flatMap fun n hn => ?_
    obtain ⟨x, hx, rfl⟩ := List.mem_map.1 hn
    exact clean_append (hp x hx).1.clean (clean_lit (by decide))
  have hclean : ∀ s ∈ [ruler, "Body Pack:".toList, ruler, "\tDimension: ".toList ++ showNat P.dim, [],
      "\tNumber of bodies: ".toList ++ showNat P.bodies.length, [],
      "\tName of bodies: ".toList ++ '[' :: ((labels.map Prod.fst).flatMap (fun n => n ++ ", ".toList) ++ [']'])], CleanText s := by
    intro s hs
    simp only [List.mem_cons, List.not_mem_nil, or_false] at hs
    rcases hs with rfl | rfl | rfl | rfl | rfl | rfl | rfl | rfl
    · exact clean_ruler
    · exact clean_lit (by decide)
    · exact clean_ruler
    · exact clean_append (clean_lit (by decide)) (clean_nat _)
    · exact clean_nil
    · exact clean_append (clean_lit (by decide)) (clean_nat _)
    · exact clean_nil
    · exact clean_append (clean_lit (by decide)) (clean_cons (by decide) (clean_append hn (clean_cons (by decide) clean_nil)))
  have hhead : ioPrint ((List.range P.mpiSize).map (packInfo (labels.map Prod.fst) P)) =
      .ok (stream [ruler, "Body Pack:".toList, ruler, "\tDimension: ".toList ++ showNat P.dim, [],
        "\tNumber of bodies: ".toList ++ showNat P.bodies.length, [],
        "\tName of bodies: ".toList ++ '[' :: ((labels.map Prod.fst).flatMap (fun n => n ++ ", ".toList) ++ [']'])] ++ ['\n']) := by
    rw [ioPrint_clean]
    · obtain ⟨m, hm⟩ : ∃ m, P.mpiSize = m + 1 := ⟨P.mpiSize - 1, by omega⟩
      rw [hm, List.range_succ_eq_map, List.map_cons, List.flatten_cons, List.map_map]
      have : ((List.range m).map (packInfo (labels.map Prod.fst) P ∘ Nat.succ)).flatten = [] := by
        rw [List.flatten_eq_nil_iff]
        intro l hl
        obtain ⟨r, _, rfl⟩ := List.mem_map.1 hl
        rfl
      rw [this, List.append_nil]
      rfl
    · intro s hs
      obtain ⟨r, _, rfl⟩ := List.mem_map.1 hs
      unfold packInfo
      split_ifs
      · exact stream_percent hclean
      · simp
  have hbodies : ∃ texts, (labels.zip P.bodies).mapM (fun x => bodyPrint x.1.1 x.1.2 x.2) = .ok texts ∧
      List.Forall₂ (fun x t => bodyPrint x.1.1 x.1.2 x.2 = .ok t) (labels.zip P.bodies) texts := by
    have hz : ∀ x ∈ labels.zip P.bodies, PlainText x.1.1 ∧ PlainText x.1.2 := fun x hx => hp x.1 (List.of_mem_zip hx).1
    revert hz
    generalize labels.zip P.bodies = l
    intro hz
    induction l with
    | nil => exact ⟨[], rfl, .nil⟩
    | cons x l ih =>
      obtain ⟨texts, h1, h2⟩ := ih fun y hy => hz y (List.mem_cons_of_mem _ hy)
      obtain ⟨hx1, hx2⟩ := hz x (by simp)
      have hb := bodyPrint_eq hx1 hx2 x.2
      refine ⟨_ :: texts, ?_, .cons hb h2⟩
      rw [List.mapM_cons, hb, h1]
      rfl
  obtain ⟨texts, ht, hf⟩ := hbodies
  have hpack : ∀ head, ioPrint ((List.range P.mpiSize).map (packInfo (labels.map Prod.fst) P)) = .ok head →
      packPrint labels P = .ok (head ++ texts.flatten) := by
    intro head h
    unfold packPrint
    rw [h, ht]
    rfl
  refine ⟨_, texts, hpack _ hhead, hf, ?_, ?_⟩
  · rw [← hf.length_eq]
    simp [hl]
  have hlines := textLines_stream hclean ['\n']
  refine ⟨?_, ?_, ?_, ?_⟩
  · unfold entryOf
    rw [hlines]
    simp only [List.cons_append, List.nil_append]
    rw [find_other (by decide), find_other (by decide), find_other (by decide), find_hit]
    rfl
  · unfold entryOf
    rw [hlines]
    simp only [List.cons_append, List.nil_append]
    rw [find_other (by decide), find_other (by decide), find_other (by decide), find_skip (by decide), find_empty (by decide), find_hit]
    rfl
  · unfold entryOf
    rw [hlines]
    simp only [List.cons_append, List.nil_append]
    rw [find_other (by decide), find_other (by decide), find_other (by decide), find_skip (by decide), find_empty (by decide), find_skip (by decide),
      find_empty (by decide), find_hit, List.flatMap_map]
    rfl
  · unfold printedRanges
    rw [hlines, List.map_append, List.filter_append, filter_all_nil, List.nil_append]
    · decide
    · intro s hs
      simp only [List.mem_cons, List.not_mem_nil, or_false] at hs
      rcases hs with rfl | rfl | rfl | rfl | rfl | rfl | rfl | rfl
      · exact rangesIn_none (by decide)
      · exact rangesIn_none (by decide)
      · exact rangesIn_none (by decide)
      · rw [rangesIn_skip (by decide), rangesIn_none (no_bracket_nat _)]
      · rfl
      · rw [rangesIn_skip (by decide), rangesIn_none (no_bracket_nat _)]
      · rfl
      · rw [rangesIn_skip (by decide), rangesIn_closed]
        · rfl
        · intro h
          obtain ⟨n, hn, h⟩ := List.mem_flatMap.1 h
          obtain ⟨x, hx, rfl⟩ := List.mem_map.1 hn
          rcases List.mem_append.1 h with h | h
          · exact ((hp x hx).1 _ h).2.2.1 rfl
          · revert h; decide
        · intro h
          obtain ⟨n, hn, h⟩ := List.mem_flatMap.1 h
          obtain ⟨x, hx, rfl⟩ := List.mem_map.1 hn
          rcases List.mem_append.1 h with h | h
          · exact ((hp x hx).1 _ h).2.2.2 rfl
          · revert h; decide

/-- Both bodies of the example. -/
example : ∃ labels : List (List Char × List Char), 0 < examplePack.mpiSize ∧ labels.length = examplePack.bodies.length ∧
    ∀ x ∈ labels, PlainText x.1 ∧ PlainText x.2 := by
  refine ⟨[("wing".toList, "/a".toList), ("flap".toList, "/b".toList)], by decide, rfl, ?_⟩
  intro x hx
  simp only [List.mem_cons, List.not_mem_nil, or_false] at hx
  rcases hx with rfl | rfl <;> constructor <;> (intro c hc; revert c; decide)

end Bodies

/-! ### Solution and linear solvers -/

/-- The lines of the solution on rank 0. -/
def solutionLines (L : Layout) : List (List Char) :=
  [ruler, "Solution Vectors:".toList, ruler, "\tDimension: ".toList ++ showNat L.dim, [],
    "\tLength of Global Packed Velocity Vector: ".toList ++ showNat L.UN, [],
    "\tLength of Global Pressure Vector: ".toList ++ showNat L.pN, []]

theorem clean_solutionLines (L : Layout) : ∀ s ∈ solutionLines L, CleanText s := by
  intro s hs
  unfold solutionLines at hs
  simp only [List.mem_cons, List.not_mem_nil, or_false] at hs
  rcases hs with rfl | rfl | rfl | rfl | rfl | rfl | rfl | rfl | rfl
  · exact clean_ruler
  · exact clean_lit (by decide)
  · exact clean_ruler
  · exact clean_append (clean_lit (by decide)) (clean_nat _)
  · exact clean_nil
  · exact clean_append (clean_lit (by decide)) (clean_nat _)
  · exact clean_nil
  · exact clean_append (clean_lit (by decide)) (clean_nat _)
  · exact clean_nil

/-- C109. The solution prints the dimension and the lengths of its two vectors: the numbers of velocity points and of pressure points. -/
theorem C109_solution (L : Layout) (hL : LayoutOK L) :
    ∃ text, solutionPrint L = .ok text ∧
      entryOf "\tDimension: " text = some (toString L.dim).toList ∧
      entryOf "\tLength of Global Packed Velocity Vector: " text =
        some (toString ((List.range L.dim).map fun f => L.n f 0 * L.n f 1 * L.n f 2).sum).toList ∧
      entryOf "\tLength of Global Pressure Vector: " text = some (toString (L.n 3 0 * L.n 3 1 * L.n 3 2)).toList := by
  have hprint : solutionPrint L = .ok (stream (solutionLines L) ++ ['\n']) := by
    unfold solutionPrint
    rw [ioPrint_clean]
    · obtain ⟨m, hm⟩ : ∃ m, L.mpiSize = m + 1 := ⟨L.mpiSize - 1, by
        have := Nat.mul_pos (Nat.mul_pos (hL.procs 0 (by omega)) (hL.procs 1 (by omega))) (hL.procs 2 (by omega))
        unfold Layout.mpiSize
        omega⟩
      rw [hm, List.range_succ_eq_map, List.map_cons, List.flatten_cons, List.map_map]
      have : ((List.range m).map (solutionInfo L ∘ Nat.succ)).flatten = [] := by
        rw [List.flatten_eq_nil_iff]
        intro l hl
        obtain ⟨r, _, rfl⟩ := List.mem_map.1 hl
        rfl
      rw [this, List.append_nil]
      rfl
    · intro s hs
      obtain ⟨r, _, rfl⟩ := List.mem_map.1 hs
      unfold solutionInfo
      split_ifs
      · exact stream_percent (clean_solutionLines L)
      · intro h; cases h
  refine ⟨_, hprint, ?_⟩
  unfold entryOf
  rw [textLines_stream (clean_solutionLines L)]
  unfold solutionLines
  simp only [List.cons_append, List.nil_append]
  refine ⟨?_, ?_, ?_⟩
  · rw [find_other (by decide), find_other (by decide), find_other (by decide), find_hit]
    rfl
  · rw [find_other (by decide), find_other (by decide), find_other (by decide), find_skip (by decide), find_empty (by decide), find_hit, UN_eq]
    rfl
  · rw [find_other (by decide), find_other (by decide), find_other (by decide), find_skip (by decide), find_empty (by decide), find_skip (by decide),
      find_empty (by decide), find_hit]
    rfl

/-- The layout of the examples: 3 x 3 and 4 x 2 velocity points. -/
example : (solutionPrint exampleLayout).toOption.bind (entryOf "\tLength of Global Packed Velocity Vector: ") = some "17".toList := by decide +kernel

/-- C109. What a linear solver prints, whatever its name and configuration file are (but for newlines): here the text is not a format. -/
theorem C109_solver (s : SolverObject K) (hn : '\n' ∉ s.name.toList) (ht : '\n' ∉ s.type.toList) (hc : '\n' ∉ s.config.toList) :
    entryOf "Linear Solver " (solverPrint s) = some (s.name.toList ++ [':']) ∧
      entryOf "\tType: " (solverPrint s) = some s.type.toList ∧ entryOf "\tConfig file: " (solverPrint s) = some s.config.toList := by
  have hlines : textLines (solverPrint s) = [ruler, "Linear Solver ".toList ++ (s.name.toList ++ ":".toList), ruler, "\tType: ".toList ++ s.type.toList, [],
      "\tConfig file: ".toList ++ s.config.toList, [], []] := by
    have key : ∀ l : List (List Char), (∀ s ∈ l, '\n' ∉ s) → textLines (stream l) = l ++ [[]] := by
      intro l
      induction l with
      | nil => intro _; rfl
      | cons s l ih =>
        intro h
        have : stream (s :: l) = s ++ '\n' :: stream l := by
          unfold stream
          rw [List.flatMap_cons]
          simp
        rw [this, textLines_line (h s (by simp)), ih fun u hu => h u (List.mem_cons_of_mem _ hu)]
        rfl
    unfold solverPrint
    rw [key]
    · rfl
    · intro l hl
      simp only [List.mem_cons, List.not_mem_nil, or_false] at hl
      rcases hl with rfl | rfl | rfl | rfl | rfl | rfl | rfl
      · decide
      · intro h
        rcases List.mem_append.1 h with h | h
        · revert h; decide
        · rcases List.mem_append.1 h with h | h
          · exact hn h
          · revert h; decide
      · decide
      · intro h
        rcases List.mem_append.1 h with h | h
        · revert h; decide
        · exact ht h
      · decide
      · intro h
        rcases List.mem_append.1 h with h | h
        · revert h; decide
        · exact hc h
      · decide
  unfold entryOf
  rw [hlines]
  refine ⟨?_, ?_, ?_⟩
  · rw [find_other (by decide), find_hit]
    rfl
  · rw [find_other (by decide), find_skip (by decide), find_other (by decide), find_hit]
  · rw [find_other (by decide), find_skip (by decide), find_other (by decide), find_skip (by decide), find_empty (by decide), find_hit]

/-- A solver whose configuration file has a percent sign in its name. -/
example : entryOf "\tConfig file: " (solverPrint (kspConstruct (K := ℚ) (fun _ => true) "velocity" "/data/100%.info")) =
    some "/data/100%.info".toList := (C109_solver _ (by decide +kernel) (by decide +kernel) (by decide +kernel)).2.2

end PetIBM
