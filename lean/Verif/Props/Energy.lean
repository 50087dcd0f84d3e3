import Verif.Lemmas.Energy
import Verif.Props.PGraphs

/-!
# Property C85: the placement minimises the sum of the squared edge lengths
-/

namespace Systre

open Matrix

variable {T : Type} [LabelVector T] [LawfulLabelVector T]

/-- every vertex is at the average of its neighbours: then the sum is minimal, and the other minima are translates -/
theorem energy_minimal {raw : List (Edge T)} (hc : QuotientConnected raw) {pos : Nat → Fin (LabelVector.dim T) → ℚ}
    (hb : IsBarycentric (Graph.new raw).edges (Graph.new raw).vertices pos)
    {Q : Matrix (Fin (LabelVector.dim T)) (Fin (LabelVector.dim T)) ℝ} (hQ : IsScalarProduct Q)
    (pos' : Nat → Fin (LabelVector.dim T) → ℝ) :
    energy Q (Graph.new raw).edges (fun v k => (pos v k : ℝ)) ≤ energy Q (Graph.new raw).edges pos' ∧
    (energy Q (Graph.new raw).edges pos' = energy Q (Graph.new raw).edges (fun v k => (pos v k : ℝ)) ↔
      ∃ c : Fin (LabelVector.dim T) → ℝ, ∀ v, IsVertex raw v → ∀ k, pos' v k = (pos v k : ℝ) + c k) := by
  have hnn : ∀ x, 0 ≤ x ⬝ᵥ (Q *ᵥ x) := by
    intro x
    by_cases h : x = 0
    · rw [h, zero_dotProduct]
    · exact (hQ.pos x h).le
  rw [energy_split (balanced_of_barycentric hb) hQ.symm pos']
  have hsum : ∀ L : List (Edge T), 0 ≤ (L.map (fun e =>
      (realEdgeVec pos' e - realEdgeVec (fun v k => (pos v k : ℝ)) e) ⬝ᵥ
        (Q *ᵥ (realEdgeVec pos' e - realEdgeVec (fun v k => (pos v k : ℝ)) e)))).sum := by
    intro L
    exact List.sum_nonneg (by
      intro x hx
      obtain ⟨e, -, rfl⟩ := List.mem_map.1 hx
      exact hnn _)
  have hzero : ∀ L : List (Edge T), (L.map (fun e =>
      (realEdgeVec pos' e - realEdgeVec (fun v k => (pos v k : ℝ)) e) ⬝ᵥ
        (Q *ᵥ (realEdgeVec pos' e - realEdgeVec (fun v k => (pos v k : ℝ)) e)))).sum = 0 ↔
      ∀ e ∈ L, realEdgeVec pos' e = realEdgeVec (fun v k => (pos v k : ℝ)) e := by
    intro L
    induction L with
    | nil => simp
    | cons a L ih =>
      rw [List.map_cons, List.sum_cons, add_eq_zero_iff_of_nonneg (hnn _) (hsum L), ih, List.forall_mem_cons]
      refine and_congr_left fun _ => ⟨fun h => ?_, fun h => ?_⟩
      · by_contra hne
        exact absurd h (hQ.pos _ (sub_ne_zero.2 hne)).ne'
      · rw [h, sub_self, zero_dotProduct]
  refine ⟨by linarith [hsum (Graph.new raw).edges], ?_⟩
  rw [add_eq_left, hzero]
  constructor
  · intro h
    have hdir : ∀ e, IsDirected raw e → ∀ k, pos' e.tail k - (pos e.tail k : ℝ) = pos' e.head k - (pos e.head k : ℝ) := by
      intro e he k
      rcases (isDirected_new raw e).2 he with h1 | h1
      · have := congrFun (h e h1) k
        unfold realEdgeVec at this
        linarith
      · have := congrFun (h _ h1) k
        unfold realEdgeVec at this
        dsimp only at this
        linarith
    by_cases hv : ∃ v, IsVertex raw v
    · obtain ⟨v, hv⟩ := hv
      refine ⟨fun k => pos' v k - (pos v k : ℝ), fun w hw k => ?_⟩
      have hj : ∀ w, QJoined raw v w → pos' w k - (pos w k : ℝ) = pos' v k - (pos v k : ℝ) := by
        intro w hw
        induction hw with
        | refl => rfl
        | tail _ h2 ih =>
          obtain ⟨e, he, h3, h4⟩ := h2
          rw [← ih, ← h4, ← h3]
          exact hdir e he k
      linarith [hj w (hc v w hv hw)]
    · exact ⟨0, fun v h => absurd ⟨v, h⟩ hv⟩
  · rintro ⟨c, h⟩ e he
    funext k
    have hd : IsDirected raw e := (isDirected_new raw e).1 (Or.inl he)
    have hd2 := isDirected_neg.2 hd
    unfold realEdgeVec
    rw [h e.tail ?_ k, h e.head ?_ k]
    · ring
    · exact (isVertex_new raw _).1 (((Graph.new raw).mem_vertices _).1 ((Graph.new raw).head_mem (Or.inl he)))
    · exact (isVertex_new raw _).1 (((Graph.new raw).mem_vertices _).1 ((Graph.new raw).tail_mem (Or.inl he)))

/-- C85: if `position` does not panic for some vertex, it returns for all vertices, and the positions minimise the sum
of the squared edge lengths, for every scalar product and among all placements with real coordinates and the same
lattice; the other minima are the translates of this one. -/
theorem C85_minimises (raw : List (Edge T)) (hne : (Graph.new raw).vertices ≠ []) (steps : Nat)
    (hs : Modular.stepsNeeded (pinnedLaplacian (Graph.new raw).edges (Graph.new raw).vertices)
      (shiftSums (Graph.new raw).edges (Graph.new raw).vertices) 9999991 ≤ steps)
    (v0 : Nat) (h0 : positionIn (placement steps (Graph.new raw)) v0 ≠ .panic) :
    ∃ pos : Nat → Fin (LabelVector.dim T) → ℚ,
      (∀ v, IsVertex raw v → positionIn (placement steps (Graph.new raw)) v = .ok (List.ofFn (pos v))) ∧
      ∀ Q, IsScalarProduct Q → ∀ pos' : Nat → Fin (LabelVector.dim T) → ℝ,
        energy Q (Graph.new raw).edges (fun v k => (pos v k : ℝ)) ≤ energy Q (Graph.new raw).edges pos' ∧
        (energy Q (Graph.new raw).edges pos' = energy Q (Graph.new raw).edges (fun v k => (pos v k : ℝ)) ↔
          ∃ c : Fin (LabelVector.dim T) → ℝ, ∀ v, IsVertex raw v → ∀ k, pos' v k = (pos v k : ℝ) + c k) := by
  have hc : QuotientConnected raw := by
    by_contra hcon
    exact h0 (C33_panics raw steps v0 (Or.inl hcon))
  rcases C33_any raw hne steps hs with ⟨h, -⟩ | ⟨pos, h1, -, -, h4, -⟩
  · exact absurd (h v0) h0
  · exact ⟨pos, h1, fun Q hQ pos' => energy_minimal hc h4 hQ pos'⟩

/-- the identity matrix is a scalar product -/
theorem isScalarProduct_one : IsScalarProduct (1 : Matrix (Fin 2) (Fin 2) ℝ) where
  symm := Matrix.transpose_one
  pos := by
    intro x hx
    rw [Matrix.one_mulVec, dotProduct, Fin.sum_univ_two]
    by_contra hcon
    have h0 : x 0 = 0 := by nlinarith [mul_self_nonneg (x 0), mul_self_nonneg (x 1)]
    have h1 : x 1 = 0 := by nlinarith [mul_self_nonneg (x 0), mul_self_nonneg (x 1)]
    exact hx (by funext i; fin_cases i <;> assumption)

/-- the hypotheses of `C85_minimises` hold for the honeycomb -/
example : ∃ pos : Nat → Fin 2 → ℚ, ∃ steps,
    positionIn (placement steps (Graph.new hcbEx)) 2 = .ok (List.ofFn (pos 2)) ∧
    ∀ pos' : Nat → Fin 2 → ℝ, energy (T := V2) 1 (Graph.new hcbEx).edges (fun v k => (pos v k : ℝ)) ≤
      energy (T := V2) 1 (Graph.new hcbEx).edges pos' := by
  have hv : (Graph.new hcbEx).vertices = [1, 2] := by decide +kernel
  have hne : (Graph.new hcbEx).vertices ≠ [] := by rw [hv]; simp
  have h2 : IsVertex hcbEx 2 := ⟨_, List.mem_cons_self, Or.inl rfl⟩
  obtain ⟨pos, h, -⟩ := C33_position_partial hcbEx hne (by decide +kernel)
    (by
      have : (pinnedLaplacian (Graph.new hcbEx).edges (Graph.new hcbEx).vertices).det = 3 := by
        rw [hv]
        rw [show (Graph.new hcbEx).edges = [⟨1, 2, ⟨0, 0⟩⟩, ⟨1, 2, ⟨0, 1⟩⟩, ⟨1, 2, ⟨1, 0⟩⟩] by decide +kernel]
        exact (Matrix.det_fin_two _).trans (by decide)
      rw [this]; decide) _ le_rfl
  obtain ⟨pos, h1, h3⟩ := C85_minimises hcbEx hne _ le_rfl 2 (by rw [h 2 h2]; nofun)
  exact ⟨pos, _, h1 2 h2, fun pos' => (h3 1 isScalarProduct_one pos').1⟩

end Systre
