import Verif.Lemmas.Measures

/-! # `shift_normalized` -/

set_option linter.unusedSectionVars false
set_option linter.unusedVariables false

namespace Systre
section
variable {T : Type} [LabelVector T] [LawfulLabelVector T]

structure SNInv (g : Graph T) (seen : List Nat) (edges : List (Edge T)) (c : Nat → T) : Prop where
  closed : ∀ v ∈ seen, ∀ w, QJoined g.edges v w → w ∈ seen
  edges : ∀ e, e ∈ edges ↔ ∃ f ∈ g.edges, f.head ∈ seen ∧ e = adjEdge c f
  tree : ∀ v ∈ seen, ∀ w, QJoined g.edges v w → Relation.ReflTransGen (ZeroStep g.edges c) v w

theorem rtg_symm {α : Type} {r : α → α → Prop} (hr : ∀ a b, r a b → r b a) {a b : α}
    (h : Relation.ReflTransGen r a b) : Relation.ReflTransGen r b a := by
  induction h with
  | refl => exact Relation.ReflTransGen.refl
  | tail _ h2 ih => exact Relation.ReflTransGen.head (hr _ _ h2) ih

theorem shiftNormLoop_ok {g : Graph T} (hg : g.WF) : ∀ (vs seen : List Nat) (edges : List (Edge T)) (c : Nat → T),
    (∀ v ∈ vs, v ∈ g.vertices) → SNInv g seen edges c →
    ∃ edges' seen' c', shiftNormLoop g vs seen edges = .ok edges' ∧ SNInv g seen' edges' c' ∧
      (∀ v ∈ seen, v ∈ seen') ∧ ∀ v ∈ vs, v ∈ seen' := by
  intro vs
  induction vs with
  | nil => intro seen edges c _ h; exact ⟨edges, seen, c, rfl, h, fun v hv => hv, by simp⟩
  | cons v vs ih =>
    intro seen edges c hvs h
    have hv : v ∈ g.vertices := hvs v (by simp)
    rw [shiftNormLoop]
    by_cases hin : v ∈ seen
    · rw [if_pos hin]
      obtain ⟨e', s', c', h1, h2, h3, h4⟩ := ih seen edges c (fun u hu => hvs u (by simp [hu])) h
      refine ⟨e', s', c', h1, h2, h3, fun u hu => ?_⟩
      rcases List.mem_cons.1 hu with h5 | h5
      · rw [h5]; exact h3 v hin
      · exact h4 u h5
    · rw [if_neg hin]
      obtain ⟨σ, sn, h1, h2, h3, h4, h5⟩ := traverse_ok hg hv
      have hend := mem_endpoints hg hv (σ := σ) h3
      classical
      let c1 : Nat → T := fun u => if QJoined g.edges v u then σ u else c u
      have hdisj : ∀ u ∈ seen, ¬ QJoined g.edges v u := by
        intro u hu hq
        exact hin (h.closed u hu v (qjoined_symm hq))
      have hinv : SNInv g (seen ++ (sn.map (adjEdge σ)).flatMap (fun e => [e.head, e.tail]))
          (edges ++ sn.map (adjEdge σ)) c1 := by
        refine ⟨?_, ?_, ?_⟩
        · intro u hu w hq
          rw [List.mem_append] at hu ⊢
          rcases hu with hu | hu
          · exact Or.inl (h.closed u hu w hq)
          · right
            rw [hend] at hu ⊢
            exact Relation.ReflTransGen.trans hu hq
        · intro e
          rw [List.mem_append, h.edges]
          constructor
          · rintro (⟨f, hf, h6, h7⟩ | h6)
            · refine ⟨f, hf, List.mem_append_left _ h6, ?_⟩
              have ht : f.tail ∈ seen := h.closed _ h6 _ (Relation.ReflTransGen.single ⟨f, Or.inl hf, rfl, rfl⟩)
              rw [h7]
              simp only [adjEdge, c1, if_neg (hdisj _ h6), if_neg (hdisj _ ht)]
            · obtain ⟨f, hf, rfl⟩ := List.mem_map.1 h6
              obtain ⟨h7, h8⟩ := (h3 f).1 hf
              refine ⟨f, h7, List.mem_append_right _ ((hend _).2 h8), ?_⟩
              have ht : QJoined g.edges v f.tail := Relation.ReflTransGen.tail h8 ⟨f, Or.inl h7, rfl, rfl⟩
              simp only [adjEdge, c1, if_pos h8, if_pos ht]
          · rintro ⟨f, hf, h6, h7⟩
            rw [List.mem_append] at h6
            rcases h6 with h6 | h6
            · left
              refine ⟨f, hf, h6, ?_⟩
              have ht : f.tail ∈ seen := h.closed _ h6 _ (Relation.ReflTransGen.single ⟨f, Or.inl hf, rfl, rfl⟩)
              rw [h7]
              simp only [adjEdge, c1, if_neg (hdisj _ h6), if_neg (hdisj _ ht)]
            · right
              rw [hend] at h6
              refine List.mem_map.2 ⟨f, (h3 f).2 ⟨hf, h6⟩, ?_⟩
              have ht : QJoined g.edges v f.tail := Relation.ReflTransGen.tail h6 ⟨f, Or.inl hf, rfl, rfl⟩
              rw [h7]
              simp only [adjEdge, c1, if_pos h6, if_pos ht]
        · intro u hu w hq
          rw [List.mem_append] at hu
          rcases hu with hu | hu
          · have hw := h.tree u hu w hq
            have key : ∀ w, Relation.ReflTransGen (ZeroStep g.edges c) u w →
                w ∈ seen ∧ Relation.ReflTransGen (ZeroStep g.edges c1) u w := by
              intro w hw
              induction hw with
              | refl => exact ⟨hu, Relation.ReflTransGen.refl⟩
              | tail _ h6 ih =>
                obtain ⟨i1, i2⟩ := ih
                obtain ⟨e, he, h7, h8, h9⟩ := h6
                rename_i b d _
                have hd : d ∈ seen := h.closed _ i1 _ (Relation.ReflTransGen.single ⟨e, he, h7, h8⟩)
                exact ⟨hd, Relation.ReflTransGen.tail i2 ⟨e, he, h7, h8, by
                  simp only [c1, if_neg (hdisj _ i1), if_neg (hdisj _ hd)]; exact h9⟩⟩
            exact (key w hw).2
          · rw [hend] at hu
            have key : ∀ w, Relation.ReflTransGen (ZeroStep g.edges σ) v w →
                QJoined g.edges v w ∧ Relation.ReflTransGen (ZeroStep g.edges c1) v w := by
              intro w hw
              induction hw with
              | refl => exact ⟨Relation.ReflTransGen.refl, Relation.ReflTransGen.refl⟩
              | tail _ h6 ih =>
                obtain ⟨i1, i2⟩ := ih
                obtain ⟨e, he, h7, h8, h9⟩ := h6
                rename_i b d _
                have hd : QJoined g.edges v d := Relation.ReflTransGen.tail i1 ⟨e, he, h7, h8⟩
                exact ⟨hd, Relation.ReflTransGen.tail i2 ⟨e, he, h7, h8, by
                  simp only [c1, if_pos i1, if_pos hd]; exact h9⟩⟩
            have k1 := (key u (h5 u hu)).2
            have k2 := (key w (h5 w (Relation.ReflTransGen.trans hu hq))).2
            exact Relation.ReflTransGen.trans (rtg_symm (fun a b => zeroStep_symm) k1) k2
      obtain ⟨e', s', c', g1, g2, g3, g4⟩ := ih _ _ c1 (fun u hu => hvs u (by simp [hu])) hinv
      refine ⟨e', s', c', ?_, g2, fun u hu => g3 u (List.mem_append_left _ hu), fun u hu => ?_⟩
      · rw [h1, Outcome.ok_bind]; exact g1
      · rcases List.mem_cons.1 hu with h6 | h6
        · rw [h6]; exact g3 v (List.mem_append_right _ ((hend v).2 Relation.ReflTransGen.refl))
        · exact g4 u h6

theorem adjEdge_neg (c : Nat → T) (e : Edge T) : adjEdge c e.neg = (adjEdge c e).neg := by
  ext <;> simp [adjEdge]
  abel

theorem shiftNormalized_ok {g : Graph T} (hg : g.WF) :
    ∃ (h : Graph T) (c : Nat → T), g.shiftNormalized = .ok h ∧
      (∀ e, IsDirected h.edges e ↔ ∃ f, IsDirected g.edges f ∧ e = adjEdge c f) ∧
      (∀ v w, IsVertex g.edges v → QJoined g.edges v w → Relation.ReflTransGen (ZeroStep g.edges c) v w) ∧
      ∃ raw, h = Graph.new raw := by
  obtain ⟨es, seen, c, h1, h2, -, h4⟩ := shiftNormLoop_ok hg g.vertices [] [] (fun _ => 0) (fun v hv => hv)
    ⟨by simp, by simp, by simp⟩
  refine ⟨Graph.new es, c, by unfold Graph.shiftNormalized; rw [h1]; rfl, fun e => ?_, fun v w hv hq => ?_, es, rfl⟩
  · rw [isDirected_new, isDirected_iff, h2.edges, h2.edges]
    constructor
    · rintro (⟨f, hf, -, h5⟩ | ⟨f, hf, -, h5⟩)
      · exact ⟨f, Or.inl hf, h5⟩
      · refine ⟨f.neg, isDirected_neg.2 (Or.inl hf), ?_⟩
        rw [adjEdge_neg, ← h5, Edge.neg_neg]
    · rintro ⟨f, hf, h5⟩
      rcases (isDirected_iff _ _).1 hf with h6 | h6
      · exact Or.inl ⟨f, h6, h4 _ (g.head_mem (Or.inl h6)), h5⟩
      · exact Or.inr ⟨f.neg, h6, h4 _ (g.head_mem (Or.inl h6)), by rw [h5, adjEdge_neg]⟩
  · exact h2.tree v (h4 v ((g.mem_vertices v).2 hv)) w hq

end
end Systre
