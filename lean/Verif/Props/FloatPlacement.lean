import Verif.Model.FloatPlacement
import Verif.Props.FloatSteps
import Verif.Lemmas.Placement
import Verif.Props.PGraphs

/-!
# C77 for graphs: positions do not suffer from rounding errors
-/

namespace Systre
open Systre.Modular

variable {T : Type} [LabelVector T] [LawfulLabelVector T]

theorem neighbours_length_le (E : List (Edge T)) (v : Nat) : (neighbours E v).length ≤ 2 * E.length := by
  unfold neighbours
  induction E with
  | nil => simp
  | cons e es ih =>
    rw [List.flatMap_cons, List.length_append, List.length_cons, List.length_append]
    have h1 : (if e.head = v then [(e.tail, e.shift)] else []).length ≤ 1 := by split <;> simp
    have h2 : (if e.tail = v then [(e.head, -e.shift)] else []).length ≤ 1 := by split <;> simp
    omega

theorem pinned_entry_le (E : List (Edge T)) (vs : List Nat) (hE : E ≠ []) (i j : Fin vs.length) :
    |pinnedLaplacian E vs i j| ≤ 2 * (E.length : Int) := by
  have hE1 : 1 ≤ E.length := List.length_pos_of_ne_nil hE
  unfold pinnedLaplacian
  by_cases h0 : i.1 = 0
  · rw [if_pos h0]
    by_cases hj : j.1 = 0 <;> simp [hj] <;> omega
  · rw [if_neg h0]
    have h1 := neighbours_length_le E vs[i]
    have h2 := List.length_filter_le (fun p : Nat × T => decide (p.1 = vs[j])) (neighbours E vs[i])
    by_cases hij : i = j
    · rw [if_pos hij, abs_le]
      constructor <;> omega
    · rw [if_neg hij, abs_le]
      constructor <;> omega

theorem shiftSums_le (E : List (Edge T)) (vs : List Nat) (S : Int) (hS0 : 0 ≤ S)
    (hS : ∀ e ∈ E, ∀ k : Fin (LabelVector.dim T), |rent (LabelVector.toVec e.shift) k| ≤ S)
    (i : Fin vs.length) (k : Fin (LabelVector.dim T)) : |shiftSums E vs i k| ≤ 2 * E.length * S := by
  unfold shiftSums
  by_cases h0 : i.1 = 0
  · rw [if_pos h0, abs_zero]; positivity
  · rw [if_neg h0]
    have h1 := neighbours_length_le E vs[i]
    have h2 : ∀ l : List (Nat × T), (∀ p ∈ l, |rent (LabelVector.toVec p.2) k.1| ≤ S) →
        |(l.map (fun p => rent (LabelVector.toVec p.2) k.1)).sum| ≤ l.length * S := by
      intro l hl
      induction l with
      | nil => simp
      | cons p l ih =>
        rw [List.map_cons, List.sum_cons, List.length_cons]
        have h3 := hl p (by simp)
        have h4 := ih (fun q hq => hl q (List.mem_cons_of_mem _ hq))
        have := abs_add_le (rent (LabelVector.toVec p.2) k.1) (l.map (fun p => rent (LabelVector.toVec p.2) k.1)).sum
        push_cast
        linarith
    have h5 : ∀ p ∈ neighbours E vs[i], |rent (LabelVector.toVec p.2) k.1| ≤ S := by
      intro p hp
      obtain ⟨e, he, hp⟩ := List.mem_flatMap.1 hp
      rcases List.mem_append.1 hp with h | h
      · split at h
        · rw [List.mem_singleton.1 h]; exact hS e he k
        · simp at h
      · split at h
        · rw [List.mem_singleton.1 h]
          simp only [LawfulLabelVector.toVec_neg, abs_neg]
          exact hS e he k
        · simp at h
    refine (h2 _ h5).trans ?_
    apply mul_le_mul_of_nonneg_right _ hS0
    exact_mod_cast h1

/-- C77: positions of a graph with at most 21 vertices whose equations need at most four steps (the product of the
norms is at most about `6 * 10^13`) and with moderate shifts: `i64` arithmetic does not overflow, the
rounding errors of the number of steps do not matter, and `position` returns the unique barycentric placement with
the first vertex at the origin. -/
theorem C77_positions {F : FloatOps} {u : ℝ} (hF : F.Accurate u) (hu : 0 ≤ u) (hu52 : u ≤ 1 / 2 ^ 52)
    (raw : List (Edge T)) (hne : (Graph.new raw).vertices ≠ [])
    (hn21 : (Graph.new raw).vertices.length ≤ 21)
    (hdet : ¬ 9999991 ∣ (pinnedLaplacian (Graph.new raw).edges (Graph.new raw).vertices).det)
    (hsm : (Graph.new raw).edges.length < 9999991) (S : Int) (hS0 : 0 ≤ S)
    (hS : ∀ e ∈ (Graph.new raw).edges, ∀ k : Fin (LabelVector.dim T), |rent (LabelVector.toVec e.shift) k| ≤ S)
    (hSE : 9999991 * (2 * (Graph.new raw).edges.length * (S + 21)) < 2 ^ 63)
    (hs : stepsNeeded (pinnedLaplacian (Graph.new raw).edges (Graph.new raw).vertices)
      (shiftSums (Graph.new raw).edges (Graph.new raw).vertices) 9999991 ≤ 4) :
    ∃ pos : Nat → Fin (LabelVector.dim T) → ℚ,
      (∀ v, IsVertex raw v → positionIn (placementFloat F (Graph.new raw)) v = .ok (List.ofFn (pos v))) ∧
      (∀ v, ¬ IsVertex raw v → positionIn (placementFloat F (Graph.new raw)) v = .panic) ∧
      (∀ k, pos ((Graph.new raw).vertices.head hne) k = 0) ∧
      IsBarycentric (Graph.new raw).edges (Graph.new raw).vertices pos ∧
      ∀ pos' : Nat → Fin (LabelVector.dim T) → ℚ, (∀ k, pos' ((Graph.new raw).vertices.head hne) k = 0) →
        IsBarycentric (Graph.new raw).edges (Graph.new raw).vertices pos' → ∀ v, IsVertex raw v → pos' v = pos v := by
  have hdet' : ¬ thePrime ∣ (pinnedLaplacian (Graph.new raw).edges (Graph.new raw).vertices).det := hdet
  have hE : (Graph.new raw).edges ≠ [] := by
    intro h
    obtain ⟨v, hv⟩ := List.exists_mem_of_ne_nil _ hne
    rw [Graph.mem_vertices] at hv
    rcases hv with ⟨e, he, -⟩
    rw [h] at he
    simp at he
  set E := (Graph.new raw).edges.length with hEdef
  have hE0 : (0 : Int) ≤ E := Int.natCast_nonneg _
  have hES : (0 : Int) ≤ E * S := mul_nonneg hE0 hS0
  have hn0 := vertices_first (Graph.new raw) hne
  have hnr : ((Graph.new raw).vertices.length : Int) ≤ 21 := by exact_mod_cast hn21
  obtain ⟨X, h1, h2⟩ := C77_solve_exact_small hF hu hu52 hn0 hn21 LawfulLabelVector.dim_pos
    (pinnedLaplacian (Graph.new raw).edges (Graph.new raw).vertices)
    (shiftSums (Graph.new raw).edges (Graph.new raw).vertices)
    (hneg_of_small (Graph.new raw) hsm) hdet' (2 * E) (2 * E * (S + 21))
    (fun i j => pinned_entry_le _ _ hE i j)
    (fun i k => (shiftSums_le _ _ S hS0 hS i k).trans (by nlinarith))
    (by nlinarith) (by unfold thePrime; exact hSE) hs
  have hcode : placementFloat F (Graph.new raw) =
      .ok ((Graph.new raw).vertices.zip (List.ofFn (fun i => List.ofFn (X i)))) := by
    unfold placementFloat
    rw [laplaceSystem_ok _ hne]
    simp only [Outcome.ok_bind, h1, unwrap]
    rw [omap_range (g := fun i => List.ofFn (X i)) (fun i => Modular.vecGet_toLists X i)]
    rfl
  obtain ⟨pos, g2, g3, g4, g5, g6⟩ := position_of_solution (Graph.new raw) hne hdet' X h2
  simp only [Graph.mem_vertices, isVertex_new] at g2 g3 g6
  refine ⟨pos, fun v hv => ?_, fun v hv => ?_, g4, g5, g6⟩
  · unfold positionIn; rw [hcode, Outcome.ok_bind, g2 v hv]; rfl
  · unfold positionIn; rw [hcode, Outcome.ok_bind, g3 v hv]; rfl

/-- the hypotheses hold for the honeycomb, on a machine that makes an error in every operation -/
example : ∃ pos : Nat → Fin 2 → ℚ,
    positionIn (placementFloat (biasedFloat (1 / 2 ^ 52)) (Graph.new hcbEx)) 2 = .ok (List.ofFn (pos 2)) := by
  have hv : (Graph.new hcbEx).vertices = [1, 2] := by decide +kernel
  have he : (Graph.new hcbEx).edges = [⟨1, 2, ⟨0, 0⟩⟩, ⟨1, 2, ⟨0, 1⟩⟩, ⟨1, 2, ⟨1, 0⟩⟩] := by decide +kernel
  obtain ⟨pos, h, -⟩ := C77_positions (biasedFloat_accurate (u := 1 / 2 ^ 52) (by norm_num)) (by norm_num) le_rfl
    hcbEx (by rw [hv]; simp) (by rw [hv]; simp)
    (by
      have : (pinnedLaplacian (Graph.new hcbEx).edges (Graph.new hcbEx).vertices).det = 3 := by
        rw [hv, he]
        exact (Matrix.det_fin_two _).trans (by decide)
      rw [this]; decide) (by rw [he]; simp) 1 (by norm_num)
    (by rw [he]; decide) (by rw [he]; decide)
    (by
      rw [hv, he]
      exact steps_le_four (LawfulLabelVector.dim_pos (T := V2)) _ _ 20 (by norm_num) (by decide) (by decide)
        (by norm_num))
  exact ⟨pos, h 2 ⟨_, List.mem_cons_self, Or.inl rfl⟩⟩

end Systre
