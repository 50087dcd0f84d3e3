import Verif.Lemmas.Report
import Verif.Model.DisplayProgram
import Verif.Props.PGraphs
import Verif.Props.FloatPlacement

/-!
# C81: the report program (src/main.rs, examples/graph_properties.rs)
-/

namespace Systre
namespace Report
open Systre.Modular (FloatOps)

section
variable {T : Type} [LabelVector T] [LawfulLabelVector T] [Shown T] [ShowsCoordinates T]

theorem factsOf_code (raw : List (Edge T)) : ∃ (n : Graph T) (seq : Nat → Nat → Nat) (c : Bool),
    (Graph.new raw).shiftNormalized = .ok n ∧
    (∀ v ∈ (Graph.new raw).vertices, ∀ k, (Graph.new raw).coordinationItem v k = .ok (seq v k)) ∧
    (Graph.new raw).isConnected = .ok c ∧ FactsOf raw (codeFacts (Graph.new raw) n seq c) := by
  obtain ⟨n, d, h1, h2, h3, es, rfl⟩ := C30_shift_normalized raw
  obtain ⟨c, h4, h5⟩ := C32_is_connected raw
  have hv : ∀ v, v ∈ (Graph.new raw).vertices → IsVertex raw v := fun v h =>
    ((C27_vertices raw).2 v).1 h
  refine ⟨Graph.new es, fun v k => {x : Nat × T | AtDistance raw (k + 1) (v, 0) x}.ncard, c, h1,
    fun v h k => (C29_coordination_sequence raw v k (hv v h)).2, h4, ?_⟩
  have hm : ((Graph.new raw).vertices.map (fun v => (v, (List.range 20).map (fun k =>
      {x : Nat × T | AtDistance raw (k + 1) (v, 0) x}.ncard)))).map Prod.fst = (Graph.new raw).vertices := by
    rw [List.map_map]; exact List.map_id _
  refine ⟨(C26_normal_form raw raw).1, (C26_normal_form raw raw).2.1, (C26_normal_form es es).1, (wf_new es).canon,
    ⟨d, h2⟩, h3, ⟨?_, fun v => ?_⟩, ?_, h5⟩
  · show List.Pairwise _ (List.map _ (List.map _ _))
    rw [hm]; exact (C27_vertices raw).1
  · show v ∈ List.map _ (List.map _ _) ↔ _
    rw [hm]; exact (C27_vertices raw).2 v
  · intro s hs
    obtain ⟨v, -, rfl⟩ := List.mem_map.1 hs
    rfl

theorem closing_ok : (do
      sayln []
      sayln "==========".toList
      sayln [] : Print Unit) = ⟨printed lastLines, .ok ()⟩ := by
  simp only [sayln, print_bind]; rfl

/-- C81: for every graph the first half of the report is printed and is true; if the graph is not connected, that is
all of it. -/
theorem C81_first_half (raw : List (Edge T)) (tb : Outcome PosTable) :
    ∃ f, FactsOf raw f ∧ (∃ rest, (testGraph tb (Graph.new raw)).out = printed (firstLines f) ++ rest) ∧
      (¬ PeriodicConnected raw → testGraph tb (Graph.new raw) = ⟨printed (firstLines f ++ lastLines), .ok ()⟩) := by
  obtain ⟨n, seq, c, h1, h2, h3, h4⟩ := factsOf_code raw
  refine ⟨_, h4, ?_, fun hc => ?_⟩
  · rw [testGraph_eq, firstPart_ok h1 h2 h3, print_bind]
    exact ⟨_, rfl⟩
  · have hf : c = false := by
      cases c with
      | false => rfl
      | true => exact (hc (h4.connected.1 rfl)).elim
    subst hf
    rw [testGraph_eq, firstPart_ok h1 h2 h3, print_bind, closing_ok, printed_append]
    rfl

/-- C81: if the graph is connected and its vertices can be placed, the program prints the whole report, and it is
true. -/
theorem C81_report (raw : List (Edge T)) (tb : Outcome PosTable) (pos : Nat → Fin (LabelVector.dim T) → ℚ)
    (hc : PeriodicConnected raw) (hp : Places tb (Graph.new raw) pos) :
    ∃ f es p, FactsOf raw f ∧ AllDirected raw es ∧ PlacementFactsOf raw pos es p ∧
      testGraph tb (Graph.new raw) = ⟨printed (firstLines f ++ secondLines p ++ lastLines), .ok ()⟩ := by
  obtain ⟨n, seq, c, h1, h2, h3, h4⟩ := factsOf_code raw
  have hct : c = true := h4.connected.2 hc
  obtain ⟨s, h5, h6⟩ := C35_is_stable raw tb pos hp
  obtain ⟨l, h7, h8⟩ := isLocallyStable_ok hp
  obtain ⟨o, h9, h10⟩ := hasSecondOrderCollisions_ok hp
  set g := Graph.new raw with hg
  set uniq : Edge T → Option (Edge T) := fun e =>
    if ((allInc g).filter (fun e' => e'.head = e.head ∧ edgeVec pos e' = edgeVec pos e)).length = 1 then some e else none
    with hu
  have hfil : ∀ e, IsDirected g.edges e →
      (allInc g).filter (fun e' => e'.head = e.head ∧ edgeVec pos e' = edgeVec pos e) =
      (g.inc e.head).filter (fun e' => List.ofFn (edgeVec pos e') = List.ofFn (edgeVec pos e)) := by
    intro e he
    rw [← filter_allInc g e.head (g.head_mem he), List.filter_filter]
    apply List.filter_congr
    intro x _
    rw [Bool.eq_iff_iff]
    simp only [decide_eq_true_eq, Bool.and_eq_true, List.ofFn_inj]
    exact and_comm
  have h11 : ∀ e, IsDirected g.edges e →
      edgeByUniqueDeltaIn tb g e.head (List.ofFn (edgeVec pos e)) = .ok (uniq e) := by
    intro e he
    obtain ⟨r, a1, a2⟩ := edgeByUniqueDelta_ok hp e.head (List.ofFn (edgeVec pos e))
    rw [a1, hu]
    congr 1
    simp only [hfil e he]
    have hmem : e ∈ (g.inc e.head).filter (fun e' => List.ofFn (edgeVec pos e') = List.ofFn (edgeVec pos e)) :=
      List.mem_filter.2 ⟨(g.mem_inc _ _).2 ⟨he, rfl⟩, by simp⟩
    split
    · rename_i hl
      obtain ⟨x, hx⟩ := List.length_eq_one_iff.1 hl
      rw [hx, List.mem_singleton] at hmem
      rw [a2, hx, hmem]
      exact ⟨hmem ▸ g.head_mem he, rfl⟩
    · rename_i hl
      cases r with
      | none => rfl
      | some x =>
        have := ((a2 x).1 rfl).2
        exact (hl (by rw [this]; rfl)).elim
  have hmv : ∀ v, v ∈ g.vertices ↔ IsVertex raw v := (C27_vertices raw).2
  have hinc : ∀ v, IsVertex raw v → (allInc g).filter (fun e => e.head = v) = g.inc v := fun v hv =>
    filter_allInc g v ((hmv v).2 hv)
  refine ⟨_, allInc g, codePlacement g pos s l o uniq, h4, ⟨fun e => ?_, allInc_heads g, fun e => count_allInc (wf_new raw)⟩,
    ⟨⟨?_, fun v => ?_⟩, ?_, h6, ?_, ?_, ?_⟩, ?_⟩
  · rw [mem_allInc, isDirected_new]
  · show List.Pairwise _ (List.map _ (List.map _ _))
    rw [List.map_map, show (Prod.fst ∘ fun v => (v, List.ofFn (pos v))) = id from rfl, List.map_id]
    exact (C27_vertices raw).1
  · show v ∈ List.map _ (List.map _ _) ↔ _
    rw [List.map_map, show (Prod.fst ∘ fun v => (v, List.ofFn (pos v))) = id from rfl, List.map_id]
    exact hmv v
  · intro q hq
    obtain ⟨v, -, rfl⟩ := List.mem_map.1 hq
    rfl
  · show l = true ↔ _
    rw [h8]
    constructor
    · intro h v
      by_cases hv : v ∈ g.vertices
      · rw [filter_allInc g v hv]; exact h v hv
      · rw [filter_allInc_none g v hv]; simp
    · intro h v hv
      have := h v
      rwa [filter_allInc g v hv] at this
  · show o = true ↔ _
    rw [h10]
    constructor
    · rintro ⟨v, hv, w, hw, a, b, d⟩
      refine ⟨v, w, (hmv v).1 hv, (hmv w).1 hw, a, b, ?_⟩
      rw [filter_allInc g v hv, filter_allInc g w hw]; exact d
    · rintro ⟨v, w, hv, hw, a, b, d⟩
      rw [hinc v hv, hinc w hw] at d
      exact ⟨v, (hmv v).2 hv, w, (hmv w).2 hw, a, b, d⟩
  · show List.Forall₂ _ (allInc g) (List.map _ (allInc g))
    rw [List.forall₂_map_right_iff]
    exact List.forall₂_same.2 (fun e _ => ⟨rfl, rfl, rfl⟩)
  · rw [testGraph_eq, firstPart_ok h1 h2 h3, print_bind, closing_ok, hct, if_pos rfl, secondPart_ok hp h5 h7 h9 h11,
      print_bind, printed_append, printed_append, List.append_assoc]

/-- C81: if the graph is connected but the vertices cannot be placed (C33 says when), the first half is printed, and
then the program stops with a panic. -/
theorem C81_no_placement (raw : List (Edge T)) (tb : Outcome PosTable) (hne : raw ≠ []) (hc : PeriodicConnected raw)
    (hp : ∀ v, IsVertex raw v → positionIn tb v = .panic) :
    ∃ f, FactsOf raw f ∧ testGraph tb (Graph.new raw) = ⟨printed (firstLines f), .panic⟩ := by
  obtain ⟨n, seq, c, h1, h2, h3, h4⟩ := factsOf_code raw
  have hct : c = true := h4.connected.2 hc
  refine ⟨_, h4, ?_⟩
  have h5 : secondPart tb (Graph.new raw) = ⟨[], .panic⟩ := by
    unfold secondPart
    obtain ⟨v, vs, hv⟩ : ∃ v vs, (Graph.new raw).vertices = v :: vs := by
      obtain ⟨e, he⟩ := List.exists_mem_of_ne_nil _ hne
      have := ((C27_vertices raw).2 e.head).2 ⟨e, he, Or.inl rfl⟩
      cases hvs : (Graph.new raw).vertices with
      | nil => rw [hvs] at this; simp at this
      | cons v vs => exact ⟨v, vs, rfl⟩
    have hp' := hp v (((C27_vertices raw).2 v).1 (by rw [hv]; simp))
    rw [hv]
    simp only [forEach, hp']
    rfl
  rw [testGraph_eq, firstPart_ok h1 h2 h3, print_bind, hct, if_pos rfl, h5]
  show (⟨_ ++ [], _⟩ : Print Unit) = _
  rw [List.append_nil]
  rfl

/-- the text is a complete and true report about the graph; the placement is barycentric, with the vertex of the
smallest number at the origin -/
def IsReport (raw : List (Edge T)) (text : List Char) : Prop :=
  ∃ f, FactsOf raw f ∧
    ((¬ PeriodicConnected raw ∧ text = printed (firstLines f ++ lastLines)) ∨
     (PeriodicConnected raw ∧ ∃ pos es p, IsBarycentric (Graph.new raw).edges (Graph.new raw).vertices pos ∧
        (∀ v, (∀ w, IsVertex raw w → v ≤ w) → IsVertex raw v → ∀ k, pos v k = 0) ∧
        AllDirected raw es ∧ PlacementFactsOf raw pos es p ∧
        text = printed (firstLines f ++ secondLines p ++ lastLines)))

theorem head_le {l : List Nat} (hne : l ≠ []) (hs : l.Pairwise (· < ·)) {v : Nat} (hv : v ∈ l) : l.head hne ≤ v := by
  cases l with
  | nil => exact (hne rfl).elim
  | cons a l =>
    rcases List.mem_cons.1 hv with rfl | h
    · exact le_rfl
    · exact ((List.pairwise_cons.1 hs).1 v h).le

theorem report_connected {F : FloatOps} {u : ℝ} (hF : F.Accurate u) (hu : 0 ≤ u) (hu52 : u ≤ 1 / 2 ^ 52)
    (raw : List (Edge T)) (tb : PosTable) (hcon : (Graph.new raw).isConnected = .ok true)
    (htb : placement 10 (Graph.new raw) = .ok tb)
    (hv : (Graph.new raw).vertices ≠ [] ∧ (Graph.new raw).vertices.length ≤ 21)
    (hE : (Graph.new raw).edges.length ≤ 100)
    (hS : ∀ e ∈ (Graph.new raw).edges, ∀ k : Fin (LabelVector.dim T), |rent (LabelVector.toVec e.shift) k| ≤ 2)
    (hs : Modular.stepsNeeded (pinnedLaplacian (Graph.new raw).edges (Graph.new raw).vertices)
      (shiftSums (Graph.new raw).edges (Graph.new raw).vertices) 9999991 ≤ 4) :
    ∃ t, testGraph (placementFloat F (Graph.new raw)) (Graph.new raw) = ⟨t, .ok ()⟩ ∧ IsReport raw t := by
  obtain ⟨b, hb1, hb2⟩ := C32_is_connected raw
  rw [hcon] at hb1
  have hc := hb2.1 (Outcome.ok.inj hb1).symm
  have hdet : ¬ 9999991 ∣ (pinnedLaplacian (Graph.new raw).edges (Graph.new raw).vertices).det := by
    intro h
    have := C33_panics raw 10 0 (Or.inr h)
    have h2 := C33_panics raw 10 ((Graph.new raw).vertices.head hv.1) (Or.inr h)
    have h3 : placement 10 (Graph.new raw) = .panic := by
      apply placement_panic _
      right; exact h
    rw [htb] at h3
    cases h3
  obtain ⟨pos, h1, -, h3, h4, -⟩ := C77_positions hF hu hu52 raw hv.1 hv.2 hdet (by omega) 2 (by norm_num) hS
    (by norm_num; omega) hs
  have hp : Places (placementFloat F (Graph.new raw)) (Graph.new raw) pos := fun v h =>
    h1 v (((C27_vertices raw).2 v).1 h)
  obtain ⟨f, es, p, g1, g2, g3, g4⟩ := C81_report raw _ pos hc hp
  refine ⟨_, g4, f, g1, Or.inr ⟨hc, pos, es, p, h4, fun v hmin hvv k => ?_, g2, g3, rfl⟩⟩
  have hm := (C27_vertices raw).2
  have : v = (Graph.new raw).vertices.head hv.1 := by
    apply le_antisymm
    · exact hmin _ ((hm _).1 (List.head_mem _))
    · exact head_le hv.1 (C27_vertices raw).1 ((hm v).2 hvv)
  rw [this]; exact h3 k

theorem report_disconnected (raw : List (Edge T)) (tb : Outcome PosTable) (hcon : (Graph.new raw).isConnected = .ok false) :
    ∃ t, testGraph tb (Graph.new raw) = ⟨t, .ok ()⟩ ∧ IsReport raw t := by
  obtain ⟨b, hb1, hb2⟩ := C32_is_connected raw
  rw [hcon] at hb1
  have hc : ¬ PeriodicConnected raw := by
    intro h
    have := hb2.2 h
    rw [← Outcome.ok.inj hb1] at this
    cases this
  obtain ⟨f, h1, -, h2⟩ := C81_first_half raw tb
  exact ⟨_, h2 hc, f, h1, Or.inl ⟨hc, rfl⟩⟩

end

/-! ## The program -/

theorem graph_1 : graph2d spec1 = Graph.new example1 := by decide +kernel

theorem report_1 {F : FloatOps} {u : ℝ} (hF : F.Accurate u) (hu : 0 ≤ u) (hu52 : u ≤ 1 / 2 ^ 52) :
    ∃ t, testGraph (placementFloat F (graph2d spec1)) (graph2d spec1) = ⟨t, .ok ()⟩ ∧ IsReport example1 t := by
  rw [graph_1]
  exact report_connected hF hu hu52 example1 [(1, [0, 0]), (2, [-1/3, -1/3])]
    (by decide +kernel) (by decide +kernel) (by decide +kernel) (by decide +kernel) (by decide +kernel)
    (Modular.steps_le_four (LawfulLabelVector.dim_pos (T := V2)) _ _ 20 (by norm_num) (by decide +kernel) (by decide +kernel)
      (by decide +kernel))

theorem graph_2 : graph3d spec2 = Graph.new example2 := by decide +kernel

theorem report_2 (tb : Outcome PosTable) :
    ∃ t, testGraph tb (graph3d spec2) = ⟨t, .ok ()⟩ ∧ IsReport example2 t := by
  rw [graph_2]
  exact report_disconnected example2 tb (by decide +kernel)

theorem graph_3 : graph3d spec3 = Graph.new example3 := by decide +kernel

theorem report_3 {F : FloatOps} {u : ℝ} (hF : F.Accurate u) (hu : 0 ≤ u) (hu52 : u ≤ 1 / 2 ^ 52) :
    ∃ t, testGraph (placementFloat F (graph3d spec3)) (graph3d spec3) = ⟨t, .ok ()⟩ ∧ IsReport example3 t := by
  rw [graph_3]
  exact report_connected hF hu hu52 example3 [(1, [0, 0, 0]), (2, [-1/4, -1/4, -1/4])]
    (by decide +kernel) (by decide +kernel) (by decide +kernel) (by decide +kernel) (by decide +kernel)
    (Modular.steps_le_four (LawfulLabelVector.dim_pos (T := V3)) _ _ 40 (by norm_num) (by decide +kernel) (by decide +kernel)
      (by decide +kernel))

theorem graph_4 : graph2d spec4 = Graph.new example4 := by decide +kernel

theorem report_4 {F : FloatOps} {u : ℝ} (hF : F.Accurate u) (hu : 0 ≤ u) (hu52 : u ≤ 1 / 2 ^ 52) :
    ∃ t, testGraph (placementFloat F (graph2d spec4)) (graph2d spec4) = ⟨t, .ok ()⟩ ∧ IsReport example4 t := by
  rw [graph_4]
  exact report_connected hF hu hu52 example4 [(1, [0, 0]), (2, [-1/2, -1/2]), (3, [-1/2, 1/2])]
    (by decide +kernel) (by decide +kernel) (by decide +kernel) (by decide +kernel) (by decide +kernel)
    (Modular.steps_le_four (LawfulLabelVector.dim_pos (T := V2)) _ _ 100 (by norm_num) (by decide +kernel) (by decide +kernel)
      (by decide +kernel))

theorem graph_5 : graph2d spec5 = Graph.new example5 := by decide +kernel

theorem report_5 {F : FloatOps} {u : ℝ} (hF : F.Accurate u) (hu : 0 ≤ u) (hu52 : u ≤ 1 / 2 ^ 52) :
    ∃ t, testGraph (placementFloat F (graph2d spec5)) (graph2d spec5) = ⟨t, .ok ()⟩ ∧ IsReport example5 t := by
  rw [graph_5]
  exact report_connected hF hu hu52 example5 [(1, [0, 0]), (2, [-1/2, -1/2]), (3, [-1/2, 1/2]), (4, [-1/2, 1/2])]
    (by decide +kernel) (by decide +kernel) (by decide +kernel) (by decide +kernel) (by decide +kernel)
    (Modular.steps_le_four (LawfulLabelVector.dim_pos (T := V2)) _ _ 200 (by norm_num) (by decide +kernel) (by decide +kernel)
      (by decide +kernel))

theorem graph_6 : graph3d spec6 = Graph.new example6 := by decide +kernel

theorem report_6 {F : FloatOps} {u : ℝ} (hF : F.Accurate u) (hu : 0 ≤ u) (hu52 : u ≤ 1 / 2 ^ 52) :
    ∃ t, testGraph (placementFloat F (graph3d spec6)) (graph3d spec6) = ⟨t, .ok ()⟩ ∧ IsReport example6 t := by
  rw [graph_6]
  exact report_connected hF hu hu52 example6 [(1, [0, 0, 0])]
    (by decide +kernel) (by decide +kernel) (by decide +kernel) (by decide +kernel) (by decide +kernel)
    (Modular.steps_le_four (LawfulLabelVector.dim_pos (T := V3)) _ _ 20 (by norm_num) (by decide +kernel) (by decide +kernel)
      (by decide +kernel))

theorem graph_7 : graph3d spec7 = Graph.new example7 := by decide +kernel

theorem report_7 (tb : Outcome PosTable) :
    ∃ t, testGraph tb (graph3d spec7) = ⟨t, .ok ()⟩ ∧ IsReport example7 t := by
  rw [graph_7]
  exact report_disconnected example7 tb (by decide +kernel)

theorem graph_8 : graph3d spec8 = Graph.new example8 := by decide +kernel

theorem report_8 (tb : Outcome PosTable) :
    ∃ t, testGraph tb (graph3d spec8) = ⟨t, .ok ()⟩ ∧ IsReport example8 t := by
  rw [graph_8]
  exact report_disconnected example8 tb (by decide +kernel)

theorem graph_9 : graph3d spec9 = Graph.new example9 := by decide +kernel

theorem report_9 {F : FloatOps} {u : ℝ} (hF : F.Accurate u) (hu : 0 ≤ u) (hu52 : u ≤ 1 / 2 ^ 52) :
    ∃ t, testGraph (placementFloat F (graph3d spec9)) (graph3d spec9) = ⟨t, .ok ()⟩ ∧ IsReport example9 t := by
  rw [graph_9]
  exact report_connected hF hu hu52 example9 [(1, [0, 0, 0]), (2, [-1/2, 0, 0]), (3, [-1/2, -1/2, 0]), (4, [-1/2, -1/2, -1/2]), (5, [0, -1/2, -1/2]), (6, [0, 0, -1/2])]
    (by decide +kernel) (by decide +kernel) (by decide +kernel) (by decide +kernel) (by decide +kernel)
    (Modular.steps_le_four (LawfulLabelVector.dim_pos (T := V3)) _ _ 40 (by norm_num) (by decide +kernel) (by decide +kernel)
      (by decide +kernel))

/-- C81: the program runs to its end and prints nine true reports; `F` is the arithmetic of `f64`, which is only used
for the number of p-adic steps. -/
theorem C81_main {F : FloatOps} {u : ℝ} (hF : F.Accurate u) (hu : 0 ≤ u) (hu52 : u ≤ 1 / 2 ^ 52) :
    ∃ t1 t2 t3 t4 t5 t6 t7 t8 t9, main (placementFloat F) (placementFloat F) =
        ⟨t1 ++ (t2 ++ (t3 ++ (t4 ++ (t5 ++ (t6 ++ (t7 ++ (t8 ++ t9))))))), .ok ()⟩ ∧
      IsReport example1 t1 ∧ IsReport example2 t2 ∧ IsReport example3 t3 ∧ IsReport example4 t4 ∧ IsReport example5 t5 ∧
      IsReport example6 t6 ∧ IsReport example7 t7 ∧ IsReport example8 t8 ∧ IsReport example9 t9 := by
  obtain ⟨t1, a1, b1⟩ := report_1 hF hu hu52
  obtain ⟨t2, a2, b2⟩ := report_2 (placementFloat F (graph3d spec2))
  obtain ⟨t3, a3, b3⟩ := report_3 hF hu hu52
  obtain ⟨t4, a4, b4⟩ := report_4 hF hu hu52
  obtain ⟨t5, a5, b5⟩ := report_5 hF hu hu52
  obtain ⟨t6, a6, b6⟩ := report_6 hF hu hu52
  obtain ⟨t7, a7, b7⟩ := report_7 (placementFloat F (graph3d spec7))
  obtain ⟨t8, a8, b8⟩ := report_8 (placementFloat F (graph3d spec8))
  obtain ⟨t9, a9, b9⟩ := report_9 hF hu hu52
  refine ⟨t1, t2, t3, t4, t5, t6, t7, t8, t9, ?_, b1, b2, b3, b4, b5, b6, b7, b8, b9⟩
  unfold main
  rw [a1, a2, a3, a4, a5, a6, a7, a8, a9]
  rfl

/-- the hypotheses are met by an arithmetic that makes an error in every operation -/
example : (main (placementFloat (Modular.biasedFloat (1 / 2 ^ 52))) (placementFloat (Modular.biasedFloat (1 / 2 ^ 52)))).result =
    .ok () := by
  obtain ⟨_, _, _, _, _, _, _, _, _, h, -⟩ := C81_main
    (Modular.biasedFloat_accurate (u := 1 / 2 ^ 52) (by norm_num)) (by norm_num) le_rfl
  rw [h]

/-! ## Examples -/

example : ∃ f es p, FactsOf hcbEx f ∧ AllDirected hcbEx es ∧ PlacementFactsOf hcbEx hcbPos es p ∧
    testGraph hcbTb (Graph.new hcbEx) = ⟨printed (firstLines f ++ secondLines p ++ lastLines), .ok ()⟩ := by
  obtain ⟨b, h1, h2⟩ := C32_is_connected hcbEx
  have : (Graph.new hcbEx).isConnected = .ok true := by decide +kernel
  rw [this] at h1
  exact C81_report hcbEx hcbTb hcbPos (h2.1 (Outcome.ok.inj h1).symm) hcb_places

/-- a connected graph for which the program panics (C33) -/
example (steps : Nat) : ∃ f, FactsOf primeTrees f ∧
    testGraph (placement steps (Graph.new primeTrees)) (Graph.new primeTrees) = ⟨printed (firstLines f), .panic⟩ :=
  C81_no_placement primeTrees _ (by unfold primeTrees; simp) C33_refuted.1 (fun v _ => C33_refuted.2 v steps)

/-- the second half for two vertices in the same place: the edges to them are not unique -/
example : (secondPart (placement 10 (Graph.new collideEx)) (Graph.new collideEx)).out =
    ("pos(1) = (0, 0)\npos(2) = (0, 0)\npos(3) = (0, 0)\n\nStable: false\nLocally stable: false\n" ++
    "Second order collisions: true\n\n" ++
    "1 => (0, 1) => 1 --(0, 1)-> 1\n1 => (0, -1) => 1 --(0, -1)-> 1\n1 => (1, 0) => 1 --(1, 0)-> 1\n" ++
    "1 => (-1, 0) => 1 --(-1, 0)-> 1\n1 => (0, 0) => None\n1 => (0, 0) => None\n" ++
    "2 => (0, 0) => 2 --(0, 0)-> 1\n3 => (0, 0) => 3 --(0, 0)-> 1\n").toList := by decide +kernel

/-- a whole report, of a graph that is not connected -/
example : (testGraph .panic (Graph.new ([⟨1, 1, ⟨2, 0⟩⟩] : List (Edge V2)))).out =
    ("Graph:\n1 --(2, 0)-> 1\n\nWith normalized shifts:\n1 --(2, 0)-> 1\n\nCoordination sequences:\n" ++
    "1:  2 2 2 2 2 2 2 2 2 2 2 2 2 2 2 2 2 2 2 2\n\nConnected: false\n\n\n==========\n\n").toList := by decide +kernel

/-! ## the demonstration program display_matrix -/

theorem andThen_call {α β : Type} {x : Outcome α} {a : α} (h : x = .ok a) (f : α → Print β) :
    (call x).andThen f = f a := by
  subst h
  rfl

theorem andThen_sayln {β : Type} (t : List Char) (f : Unit → Print β) :
    (sayln t).andThen f = ⟨t ++ ['\n'] ++ (f ()).out, (f ()).result⟩ := rfl

/-- **C72** The demonstration program for printed matrices comes to its end, and prints each of its seven objects as it is:
one line per row, the entries after a space, for maps the shift after three more spaces. -/
theorem C72_program {F : Type} [Shown F] (a b c d e f : F) :
    (displayMain a b c d e f).result = .ok () ∧
    (displayMain a b c d e f).out =
      "Matrix:\n 1 2 3\n 4 5 6\n\nColumn:\n ".toList ++ Shown.text a ++ "\n ".toList ++ Shown.text b ++ "\n ".toList ++
      Shown.text c ++ "\n\nVector:\n ".toList ++ Shown.text d ++ "\n ".toList ++ Shown.text e ++ "\n ".toList ++
      Shown.text f ++ "\n\nPoint:\n 3/4\n 4/3\n 1/2\n\n".toList ++
      "ScalarProduct:\n 1 0 0 0\n 0 1 0 0\n 0 0 1 0\n 0 0 0 1\n\n".toList ++
      "AffineMap:\n 1 0 0 0    0\n 0 1 0 0    0\n 0 0 1 0    0\n 0 0 0 1    0\n\n".toList ++
      "CoordinateMap:\n 1 0 0 0    0\n 0 1 0 0    0\n 0 0 1 0    0\n 0 0 0 1    0\n\n".toList := by
  have e1 : Mat.new 3 [1, 2, 3, 4, 5, (6 : Int)] = .ok ⟨2, 3, [1, 2, 3, 4, 5, 6]⟩ := by decide +kernel
  have t1 : (⟨2, 3, [1, 2, 3, 4, 5, 6]⟩ : Mat Int).text = .ok " 1 2 3\n 4 5 6\n".toList := by decide +kernel
  have e2 : ∀ x y z : F, Mat.col [x, y, z] = .ok ⟨3, 1, [x, y, z]⟩ := by simp [Mat.col, Mat.new]
  have t2 : ∀ x y z : F, (⟨3, 1, [x, y, z]⟩ : Mat F).text =
      .ok ((' ' :: Shown.text x) ++ ('\n' :: ' ' :: Shown.text y) ++ ('\n' :: ' ' :: Shown.text z) ++ ['\n']) := by
    intro x y z
    have h : (⟨3, 1, [x, y, z]⟩ : Mat F).text = .ok ([([(' ' :: Shown.text x)].flatten ++ ['\n']),
      ([(' ' :: Shown.text y)].flatten ++ ['\n']), ([(' ' :: Shown.text z)].flatten ++ ['\n'])].flatten) := rfl
    rw [h]
    simp
  have e3 : Vec.new [d, e, f] = .ok ⟨⟨3, 1, [d, e, f]⟩⟩ := by unfold Vec.new; rw [e2]; rfl
  have e4 : Pt.new [(3 / 4 : Rat), 4 / 3, 1 / 2] = .ok ⟨⟨3, 1, [3 / 4, 4 / 3, 1 / 2]⟩⟩ := by decide +kernel
  have t4 : (⟨⟨3, 1, [3 / 4, 4 / 3, 1 / 2]⟩⟩ : Pt Rat).text = .ok " 3/4\n 4/3\n 1/2\n".toList := by decide +kernel
  have e5 : ScalarProduct.default (T := Rat) 4 = .ok ⟨⟨4, 4, [1, 0, 0, 0, 0, 1, 0, 0, 0, 0, 1, 0, 0, 0, 0, 1]⟩⟩ := by
    decide +kernel
  have t5 : (⟨⟨4, 4, [1, 0, 0, 0, 0, 1, 0, 0, 0, 0, 1, 0, 0, 0, 0, 1]⟩⟩ : ScalarProduct Rat).text =
      .ok " 1 0 0 0\n 0 1 0 0\n 0 0 1 0\n 0 0 0 1\n".toList := by decide +kernel
  have e6 : AffineMap.identity (T := Rat) 4 =
      .ok ⟨⟨4, 4, [1, 0, 0, 0, 0, 1, 0, 0, 0, 0, 1, 0, 0, 0, 0, 1]⟩, ⟨⟨4, 1, [0, 0, 0, 0]⟩⟩⟩ := by decide +kernel
  have t6 : (⟨⟨4, 4, [1, 0, 0, 0, 0, 1, 0, 0, 0, 0, 1, 0, 0, 0, 0, 1]⟩, ⟨⟨4, 1, [0, 0, 0, 0]⟩⟩⟩ : AffineMap Rat).text =
      .ok " 1 0 0 0    0\n 0 1 0 0    0\n 0 0 1 0    0\n 0 0 0 1    0\n".toList := by decide +kernel
  have e7 : AffineMap.identity (T := Int) 4 =
      .ok ⟨⟨4, 4, [1, 0, 0, 0, 0, 1, 0, 0, 0, 0, 1, 0, 0, 0, 0, 1]⟩, ⟨⟨4, 1, [0, 0, 0, 0]⟩⟩⟩ := by decide +kernel
  obtain ⟨k, e8, t8⟩ : ∃ k, CoordMap.new (⟨⟨4, 4, [1, 0, 0, 0, 0, 1, 0, 0, 0, 0, 1, 0, 0, 0, 0, 1]⟩,
      ⟨⟨4, 1, [0, 0, 0, 0]⟩⟩⟩ : AffineMap Int) = .ok k ∧
      k.text = .ok " 1 0 0 0    0\n 0 1 0 0    0\n 0 0 1 0    0\n 0 0 0 1    0\n".toList :=
    ⟨⟨⟨⟨4, 4, [1, 0, 0, 0, 0, 1, 0, 0, 0, 0, 1, 0, 0, 0, 0, 1]⟩, ⟨⟨4, 1, [0, 0, 0, 0]⟩⟩⟩,
      ⟨⟨4, 4, [1, 0, 0, 0, 0, 1, 0, 0, 0, 0, 1, 0, 0, 0, 0, 1]⟩, ⟨⟨4, 1, [0, 0, 0, 0]⟩⟩⟩⟩, by decide +kernel, by decide +kernel⟩
  unfold displayMain
  simp only [bind]
  rw [andThen_call e1, andThen_call t1, andThen_sayln, andThen_call (e2 a b c), andThen_call (t2 a b c), andThen_sayln,
    andThen_call e3, andThen_call (show Vec.text ⟨⟨3, 1, [d, e, f]⟩⟩ = _ from t2 d e f), andThen_sayln, andThen_call e4,
    andThen_call t4, andThen_sayln, andThen_call e5, andThen_call t5, andThen_sayln, andThen_call e6, andThen_call t6,
    andThen_sayln, andThen_call e7, andThen_call e8, andThen_call t8]
  refine ⟨rfl, ?_⟩
  simp [sayln]

end Report
end Systre
