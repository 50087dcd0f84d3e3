import Verif.Lemmas.Automorphism
import Mathlib.LinearAlgebra.Matrix.NonsingularInverse

/-! # Results of the search for automorphisms -/

set_option linter.unusedSectionVars false

namespace Systre
section
variable {T : Type} [LabelVector T] [LawfulLabelVector T]
variable {g : Graph T} {pos : Nat → Fin (LabelVector.dim T) → ℚ} {tb : Outcome PosTable}
  {A B : Matrix (Fin (LabelVector.dim T)) (Fin (LabelVector.dim T)) ℚ}

theorem mem_allDirected (g : Graph T) (e : Edge T) :
    e ∈ g.edges.flatMap (fun e => [e, e.neg]) ↔ IsDirected g.edges e := by
  have := g.mem_inc e.head e
  unfold Graph.inc at this
  rw [List.mem_filter] at this
  simpa using this

theorem finite_dir (g : Graph T) : Finite {e : Edge T // IsDirected g.edges e} := by
  apply Finite.of_injective (β := {e : Edge T // e ∈ (g.edges.flatMap (fun e : Edge T => [e, e.neg])).toFinset})
    (fun e : {e : Edge T // IsDirected g.edges e} =>
      ⟨e.1, by rw [List.mem_toFinset, mem_allDirected]; exact e.2⟩)
  intro a b h
  simp only [Subtype.mk.injEq] at h
  exact Subtype.ext h

theorem finite_vert (g : Graph T) : Finite {v : Nat // IsVertex g.edges v} := by
  apply Finite.of_injective (β := {v : Nat // v ∈ g.vertices.toFinset})
    (fun v => ⟨v.1, by rw [List.mem_toFinset, g.mem_vertices]; exact v.2⟩)
  intro a b h
  simp only [Subtype.mk.injEq] at h
  exact Subtype.ext h

theorem automorphism_ok (hg : g.WF) (hp : Places tb g pos) (hs : LocallyStable g.edges pos)
    (hc : QuotientConnected g.edges) {a : AffineMap ℚ}
    {t : Fin (LabelVector.dim T) → ℚ} (ha : IsAff a A t) (v0 w0 : Nat) (hv0 : IsVertex g.edges v0) :
    ∃ r, automorphism tb g v0 w0 a = .ok r ∧
      (∀ φ, r = some φ → φ.transform = a ∧ ∃ vm em, Stands g.edges φ vm em A t ∧ StarMap g pos A vm em ∧ vm v0 = w0) ∧
      (r = none → ∀ vm em, StarMap g pos A vm em → vm v0 ≠ w0) := by
  have hI : AInv g pos A v0 w0 ⟨[], [], [(v0, w0)]⟩ := by
    refine ⟨by simp, by simp, ?_, by simp, by simp, by simp⟩
    intro p hp
    rw [List.mem_singleton.1 hp, g.mem_vertices]; exact hv0
  obtain ⟨r, h1, h2, h3⟩ := autLoop_ok hg hp hs ha v0 w0 (2 * g.edges.length + 2) _ hI (by
    have : autRem g [] = 2 * g.edges.length := by
      unfold autRem
      simp [List.length_flatMap, Nat.mul_comm]
    simp only [List.length_singleton, this]; omega)
  refine ⟨r, h1, ?_, ?_⟩
  · intro φ hr
    obtain ⟨h4, h5⟩ := h2 φ hr
    refine ⟨h4, ?_⟩
    have hroot : φ.vertexMap.lookup v0 = some w0 := by simpa using h5.root
    -- all vertices are keys
    have hall : ∀ v, IsVertex g.edges v → ∃ w, φ.vertexMap.lookup v = some w := by
      intro v hv
      have := hc v0 v hv0 hv
      clear hv
      induction this with
      | refl => exact ⟨w0, hroot⟩
      | tail _ h ih =>
        obtain ⟨w, hw⟩ := ih
        obtain ⟨e, he, h6, h7⟩ := h
        have := ((h5.closed _ _ hw).2 e ((g.mem_inc _ _).2 ⟨he, h6⟩)).2.2
        simp only [List.not_mem_nil, false_or] at this
        rw [h7] at this
        exact ⟨_, this⟩
    let vm : Nat → Nat := fun v => (φ.vertexMap.lookup v).getD 0
    let em : Edge T → Edge T := fun e => (φ.edgeMap.lookup e).getD e
    have hvm : ∀ v, IsVertex g.edges v → φ.vertexMap.lookup v = some (vm v) := by
      intro v hv
      obtain ⟨w, hw⟩ := hall v hv
      simp only [vm, hw, Option.getD_some]
    have hem : ∀ e, IsDirected g.edges e → φ.edgeMap.lookup e = some (em e) ∧
        em e = imgEdge g pos A (vm e.head) e ∧ GoodImg g pos A (vm e.head) e (em e) ∧ (em e).tail = vm e.tail := by
      intro e he
      have hh : IsVertex g.edges e.head := (g.mem_vertices _).1 (g.head_mem he)
      have ht : IsVertex g.edges e.tail := (g.mem_vertices _).1 (g.tail_mem he)
      obtain ⟨h6, h7, h8⟩ := (h5.closed _ _ (hvm _ hh)).2 e ((g.mem_inc _ _).2 ⟨he, rfl⟩)
      have h9 : em e = imgEdge g pos A (vm e.head) e := by
        simp only at h7
        simp only [em, h7, Option.getD_some]
      refine ⟨by rw [h9]; exact h7, h9, by rw [h9]; exact imgEdge_good h6, ?_⟩
      simp only [List.not_mem_nil, false_or] at h8
      rw [hvm _ ht] at h8
      rw [h9]; exact (Option.some.inj h8).symm
    refine ⟨vm, em, ⟨?_, ?_, h5.vnodup, h5.enodup, by rw [h4]; exact ha⟩, ?_, ?_⟩
    · intro v w
      constructor
      · intro h
        have hv := (g.mem_vertices _).1 (h5.closed v w h).1
        rw [hvm v hv] at h
        exact ⟨hv, (Option.some.inj h).symm⟩
      · rintro ⟨hv, rfl⟩; exact hvm v hv
    · intro e f
      constructor
      · intro h
        have he := (h5.ekeys e f h).1
        rw [(hem e he).1] at h
        exact ⟨he, (Option.some.inj h).symm⟩
      · rintro ⟨he, rfl⟩; exact (hem e he).1
    · intro e he
      exact (hem e he).2.2
    · have := hvm v0 hv0
      rw [hroot] at this
      exact (Option.some.inj this).symm
  · intro hr vm em hst hv
    exact h3 hr vm em hst (by simp [hv]) (by simp)

/-- the reverse of an edge goes to the reverse of its image -/
theorem StarMap.rev (hs : LocallyStable g.edges pos) {vm : Nat → Nat} {em : Edge T → Edge T}
    (h : StarMap g pos A vm em) {e : Edge T} (he : IsDirected g.edges e) : em e.neg = (em e).neg := by
  obtain ⟨h1, h2⟩ := h e he
  obtain ⟨h3, h4⟩ := h e.neg (isDirected_neg.2 he)
  apply h3.unique hs
  refine ⟨isDirected_neg.2 h1.1, h2, ?_⟩
  have e1 : edgeVec pos (em e).neg = - edgeVec pos (em e) := funext (edgeVec_neg pos (em e))
  have e2 : edgeVec pos e.neg = - edgeVec pos e := funext (edgeVec_neg pos e)
  rw [e1, e2, h1.2.2, Matrix.mulVec_neg]

theorem StarMap.isGraphAut (hs : LocallyStable g.edges pos) (hc : QuotientConnected g.edges)
    (hA : IsUnit A) {vm : Nat → Nat} {em : Edge T → Edge T}
    (h : StarMap g pos A vm em) (hV : ∀ v, IsVertex g.edges v → IsVertex g.edges (vm v)) :
    IsGraphAut g.edges pos vm em A := by
  haveI := finite_dir g
  haveI := finite_vert g
  have hhead : ∀ e, IsDirected g.edges e → IsVertex g.edges e.head := fun e he => (g.mem_vertices _).1 (g.head_mem he)
  have hbij := star_injective_bijective (V := {v : Nat // IsVertex g.edges v}) (D := {e : Edge T // IsDirected g.edges e})
    (fun e => ⟨e.1.head, hhead e.1 e.2⟩) (fun e => ⟨e.1.neg, isDirected_neg.2 e.2⟩)
    (fun e => Subtype.ext (Edge.neg_neg _))
    (by
      rintro ⟨v, hv⟩ ⟨w, hw⟩
      have := hc v w hv hw
      induction this with
      | refl => exact Relation.ReflTransGen.refl
      | @tail b c h1 h2 ih =>
        obtain ⟨e, he, h3, h4⟩ := h2
        have hb : IsVertex g.edges b := h3 ▸ hhead e he
        exact (ih hb).tail ⟨⟨e, he⟩, Subtype.ext h3, Subtype.ext h4⟩)
    (fun v => ⟨vm v.1, hV v.1 v.2⟩) (fun e => ⟨em e.1, (h e.1 e.2).1.1⟩)
    (fun e => Subtype.ext (h e.1 e.2).1.2.1) (fun e => Subtype.ext (h.rev hs e.2))
    (by
      rintro ⟨e, he⟩ ⟨f, hf⟩ h1 h2
      simp only [Subtype.mk.injEq] at h1 h2 ⊢
      apply hs.1 e f he hf h1
      have e1 := (h e he).1.2.2
      have e2 := (h f hf).1.2.2
      rw [h2, e2] at e1
      exact (Matrix.mulVec_injective_of_isUnit hA e1).symm)
  obtain ⟨⟨i1, s1⟩, ⟨i2, s2⟩⟩ := hbij
  refine ⟨⟨fun v hv => hV v hv, ?_, ?_⟩, ⟨fun e he => (h e he).1.1, ?_, ?_⟩, fun e he => (h e he).1.2.1,
    fun e he => (h e he).2, fun e he => h.rev hs he, fun e he => (h e he).1.2.2⟩
  · intro v hv w hw hvw
    have := @i1 ⟨v, hv⟩ ⟨w, hw⟩ (Subtype.ext hvw)
    exact congrArg Subtype.val this
  · intro w hw
    obtain ⟨⟨v, hv⟩, h1⟩ := s1 ⟨w, hw⟩
    exact ⟨v, hv, congrArg Subtype.val h1⟩
  · intro v hv w hw hvw
    have := @i2 ⟨v, hv⟩ ⟨w, hw⟩ (Subtype.ext hvw)
    exact congrArg Subtype.val this
  · intro w hw
    obtain ⟨⟨v, hv⟩, h1⟩ := s2 ⟨w, hw⟩
    exact ⟨v, hv, congrArg Subtype.val h1⟩

theorem IsGraphAut.starMap {vm : Nat → Nat} {em : Edge T → Edge T} (h : IsGraphAut g.edges pos vm em A) :
    StarMap g pos A vm em := fun e he => ⟨⟨h.ebij.mapsTo he, h.head e he, h.vec e he⟩, h.tail e he⟩

theorem StarMap.verts {vm : Nat → Nat} {em : Edge T → Edge T} (h : StarMap g pos A vm em) :
    ∀ v, IsVertex g.edges v → IsVertex g.edges (vm v) := by
  intro v hv
  obtain ⟨e, he, rfl⟩ := (isVertex_iff _ _).1 hv
  have := (h e he).1
  rw [← this.2.1]
  exact (g.mem_vertices _).1 (g.head_mem this.1)

/-- A connected periodic graph is determined along its edges: two maps that agree at a vertex agree. -/
theorem StarMap.unique (hs : LocallyStable g.edges pos) (hc : QuotientConnected g.edges) {vm vm' : Nat → Nat}
    {em em' : Edge T → Edge T} (h : StarMap g pos A vm em) (h' : StarMap g pos A vm' em') {v0 : Nat}
    (hv0 : IsVertex g.edges v0) (heq : vm v0 = vm' v0) :
    (∀ v, IsVertex g.edges v → vm v = vm' v) ∧ (∀ e, IsDirected g.edges e → em e = em' e) := by
  have key : ∀ e, IsDirected g.edges e → vm e.head = vm' e.head → em e = em' e ∧ vm e.tail = vm' e.tail := by
    intro e he hh
    obtain ⟨h1, h2⟩ := h e he
    obtain ⟨h3, h4⟩ := h' e he
    rw [← hh] at h3
    have := h1.unique hs h3
    exact ⟨this, by rw [← h2, ← h4, this]⟩
  have hV : ∀ v, IsVertex g.edges v → vm v = vm' v := by
    intro v hv
    have := hc v0 v hv0 hv
    clear hv
    induction this with
    | refl => exact heq
    | tail _ h2 ih =>
      obtain ⟨e, he, h3, h4⟩ := h2
      rw [← h4]
      exact (key e he (by rw [h3]; exact ih)).2
  exact ⟨hV, fun e he => (key e he (hV _ ((g.mem_vertices _).1 (g.head_mem he)))).1⟩

end
end Systre
