import Verif.Spec.Energy
import Verif.Lemmas.Stability
import Verif.Lemmas.Translations2

/-! # Lemmas for C85: the barycentric placement minimises the sum of the squared edge lengths -/

set_option linter.unusedSectionVars false

namespace Systre

open Matrix

variable {T : Type} [LabelVector T] [LawfulLabelVector T]

/-- a sum over directed edges, vertex by vertex -/
theorem sum_by_head (F : Edge T → ℝ) (vs : Finset Nat) : ∀ (L : List (Edge T)), (∀ e ∈ L, e.head ∈ vs) →
    (L.map F).sum = ∑ v ∈ vs, ((L.filter (fun e => e.head = v)).map F).sum := by
  intro L
  induction L with
  | nil => simp
  | cons a L ih =>
    intro h
    have h1 : ∀ v ∈ vs, (((a :: L).filter (fun e => e.head = v)).map F).sum =
        (if a.head = v then F a else 0) + ((L.filter (fun e => e.head = v)).map F).sum := by
      intro v _
      rw [List.filter_cons]
      by_cases hv : a.head = v <;> simp [hv]
    rw [Finset.sum_congr rfl h1, Finset.sum_add_distrib, ← ih (fun e he => h e (by simp [he])), List.map_cons,
      List.sum_cons, Finset.sum_ite_eq vs a.head (fun _ => F a), if_pos (h a (by simp))]

theorem realEdgeVec_neg (pos : Nat → Fin (LabelVector.dim T) → ℝ) (e : Edge T) :
    realEdgeVec pos e.neg = -realEdgeVec pos e := by
  funext k
  have h := edgeVec_neg (fun _ _ => (0 : ℚ)) e k
  unfold edgeVec at h
  have h2 : ((rent (LabelVector.toVec e.neg.shift) k.1 : ℤ) : ℚ) = -((rent (LabelVector.toVec e.shift) k.1 : ℤ) : ℚ) := by
    linarith
  have h3 : rent (LabelVector.toVec e.neg.shift) k.1 = -rent (LabelVector.toVec e.shift) k.1 := by exact_mod_cast h2
  show pos e.neg.tail k + ((rent (LabelVector.toVec e.neg.shift) k.1 : ℤ) : ℝ) - pos e.neg.head k = -(_ - _)
  rw [h3]
  show pos e.head k + _ - pos e.tail k = _
  push_cast
  ring

/-- the edge vectors at a vertex sum to zero -/
def Balanced (g : Graph T) (pos : Nat → Fin (LabelVector.dim T) → ℝ) : Prop :=
  ∀ v ∈ g.vertices, ∀ k, ((g.inc v).map (fun e => realEdgeVec pos e k)).sum = 0

theorem dot_list_sum {d : Nat} (h : Fin d → ℝ) (Q : Matrix (Fin d) (Fin d) ℝ) (F : Edge T → Fin d → ℝ) (L : List (Edge T)) :
    (L.map (fun e => h ⬝ᵥ (Q *ᵥ F e))).sum = h ⬝ᵥ (Q *ᵥ fun k => (L.map (fun e => F e k)).sum) := by
  induction L with
  | nil =>
    simp only [List.map_nil, List.sum_nil]
    have : (fun _ : Fin d => (0 : ℝ)) = 0 := rfl
    rw [this, mulVec_zero, dotProduct_zero]
  | cons a L ih =>
    simp only [List.map_cons, List.sum_cons]
    rw [ih, ← dotProduct_add, ← mulVec_add]
    rfl

theorem cross_zero {g : Graph T} {pos : Nat → Fin (LabelVector.dim T) → ℝ} (hb : Balanced g pos)
    (Q : Matrix (Fin (LabelVector.dim T)) (Fin (LabelVector.dim T)) ℝ) (h : Nat → Fin (LabelVector.dim T) → ℝ) :
    (g.edges.map (fun e => (h e.tail - h e.head) ⬝ᵥ (Q *ᵥ realEdgeVec pos e))).sum = 0 := by
  have h1 : (((g.edges.flatMap (fun e => [e, e.neg])).map (fun e => h e.head ⬝ᵥ (Q *ᵥ realEdgeVec pos e))).sum : ℝ) = 0 := by
    rw [sum_by_head _ g.vertices.toFinset]
    · apply Finset.sum_eq_zero
      intro v hv
      have hv' := List.mem_toFinset.1 hv
      have e1 : ((g.edges.flatMap (fun e => [e, e.neg])).filter (fun e => e.head = v)).map
          (fun e => h e.head ⬝ᵥ (Q *ᵥ realEdgeVec pos e)) =
          (g.inc v).map (fun e => h v ⬝ᵥ (Q *ᵥ realEdgeVec pos e)) := by
        apply List.map_congr_left
        intro e he
        rw [((g.mem_inc v e).1 he).2]
      rw [e1, dot_list_sum]
      have e2 : (fun k => ((g.inc v).map (fun e => realEdgeVec pos e k)).sum) = 0 := funext fun k => hb v hv' k
      rw [e2, mulVec_zero, dotProduct_zero]
    · intro e he
      rw [List.mem_toFinset]
      have : e ∈ g.inc e.head := List.mem_filter.2 ⟨he, by simp⟩
      exact g.head_mem ((g.mem_inc _ _).1 this).1
  have h2 : ∀ L : List (Edge T), ((L.flatMap (fun e => [e, e.neg])).map (fun e => h e.head ⬝ᵥ (Q *ᵥ realEdgeVec pos e))).sum =
      -(L.map (fun e => (h e.tail - h e.head) ⬝ᵥ (Q *ᵥ realEdgeVec pos e))).sum := by
    intro L
    induction L with
    | nil => simp
    | cons a L ih =>
      rw [List.flatMap_cons, List.map_append, List.sum_append, ih, List.map_cons, List.sum_cons]
      simp only [List.map_cons, List.map_nil, List.sum_cons, List.sum_nil]
      rw [realEdgeVec_neg, sub_dotProduct, mulVec_neg, dotProduct_neg]
      show _ + (-(h a.tail ⬝ᵥ _) + 0) + _ = _
      ring
  rw [h2] at h1
  linarith

/-- the energy of any placement -/
theorem energy_split {g : Graph T} {pos : Nat → Fin (LabelVector.dim T) → ℝ} (hb : Balanced g pos)
    {Q : Matrix (Fin (LabelVector.dim T)) (Fin (LabelVector.dim T)) ℝ} (hQ : Q.transpose = Q)
    (pos' : Nat → Fin (LabelVector.dim T) → ℝ) :
    energy Q g.edges pos' = energy Q g.edges pos + (g.edges.map (fun e =>
      (realEdgeVec pos' e - realEdgeVec pos e) ⬝ᵥ (Q *ᵥ (realEdgeVec pos' e - realEdgeVec pos e)))).sum := by
  have hc := cross_zero hb Q (fun v => pos' v - pos v)
  have hd : ∀ e : Edge T, (pos' e.tail - pos e.tail) - (pos' e.head - pos e.head) = realEdgeVec pos' e - realEdgeVec pos e := by
    intro e
    funext k
    simp only [Pi.sub_apply, realEdgeVec]
    ring
  simp only [hd] at hc
  have key : ∀ x y : Fin (LabelVector.dim T) → ℝ, y ⬝ᵥ (Q *ᵥ y) = x ⬝ᵥ (Q *ᵥ x) + (y - x) ⬝ᵥ (Q *ᵥ (y - x)) +
      2 * ((y - x) ⬝ᵥ (Q *ᵥ x)) := by
    intro x y
    have hs : x ⬝ᵥ (Q *ᵥ y) = y ⬝ᵥ (Q *ᵥ x) := by
      conv_rhs => rw [dotProduct_mulVec, ← mulVec_transpose, hQ, dotProduct_comm]
    simp only [mulVec_sub, sub_dotProduct, dotProduct_sub]
    rw [hs]
    ring
  unfold energy
  have h2 : ∀ L : List (Edge T), (L.map (fun e => realEdgeVec pos' e ⬝ᵥ (Q *ᵥ realEdgeVec pos' e))).sum =
      (L.map (fun e => realEdgeVec pos e ⬝ᵥ (Q *ᵥ realEdgeVec pos e))).sum + (L.map (fun e =>
      (realEdgeVec pos' e - realEdgeVec pos e) ⬝ᵥ (Q *ᵥ (realEdgeVec pos' e - realEdgeVec pos e)))).sum +
      2 * (L.map (fun e => (realEdgeVec pos' e - realEdgeVec pos e) ⬝ᵥ (Q *ᵥ realEdgeVec pos e))).sum := by
    intro L
    induction L with
    | nil => simp
    | cons a L ih =>
      simp only [List.map_cons, List.sum_cons]
      rw [ih, key (realEdgeVec pos a) (realEdgeVec pos' a)]
      ring
  rw [h2, hc]
  ring

theorem balanced_of_barycentric {g : Graph T} {pos : Nat → Fin (LabelVector.dim T) → ℚ}
    (hb : IsBarycentric g.edges g.vertices pos) : Balanced g (fun v k => (pos v k : ℝ)) := by
  intro v hv k
  have h := sum_edgeVec g pos hb hv k
  have h2 : ∀ L : List (Edge T), ((L.map (fun e => realEdgeVec (fun v k => (pos v k : ℝ)) e k)).sum : ℝ) =
      (((L.map (fun e => edgeVec pos e k)).sum : ℚ) : ℝ) := by
    intro L
    induction L with
    | nil => simp
    | cons a L ih =>
      rw [List.map_cons, List.sum_cons, List.map_cons, List.sum_cons, ih]
      unfold realEdgeVec edgeVec
      push_cast
      rfl
  rw [h2, h]
  simp

end Systre
