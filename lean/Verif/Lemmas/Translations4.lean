import Verif.Lemmas.Translations3

/-!
# `translational_equivalences`, `translational_orbits`, `is_minimal`, `is_ladder`, `ladder_symmetries`
-/

namespace Systre

open Submodule Partitions

variable {T : Type} [LabelVector T] [LawfulLabelVector T]
variable {g : Graph T} {tb : Outcome PosTable} {pos : Nat → Fin (LabelVector.dim T) → ℚ}

theorem genEq_trivial {α : Type} {U : List (α × α)} (h : ∀ q ∈ U, q.1 = q.2) {x y : α} (hxy : GenEq U x y) : x = y := by
  induction hxy with
  | rel x y h' => exact h _ h'
  | refl x => rfl
  | symm x y _ ih => exact ih.symm
  | trans x y z _ _ ih1 ih2 => exact ih1.trans ih2

theorem sameMod1_ok (hp : Places tb g pos) {v0 : Nat} (hz : pos v0 = 0) {v : Nat} (hv : IsVertex g.edges v) :
    ∃ b, sameMod1 tb (mod1 (List.ofFn (pos v0))) v = .ok b ∧ (b = true ↔ ∃ t : T, pos v = shv t) := by
  unfold sameMod1
  rw [bind_ok (hp v ((g.mem_vertices v).2 hv))]
  refine ⟨_, rfl, ?_⟩
  rw [decide_eq_true_eq, mod1_eq_zero_iff hz]

/-- the classes of `raw_translational_equivalences`; the first one is the orbit of the first vertex -/
theorem rawClasses_ok (hg : g.WF) (hp : Places tb g pos) (hs : LocallyStable g.edges pos)
    (hc : QuotientConnected g.edges) {v0 : Nat} {rest : List Nat} (hv : g.vertices = v0 :: rest) :
    ∃ p U p' c cs', rawTranslationalEquivalences tb g = .ok p ∧
      Partitions.classes p g.vertices = .ok (p', (v0 :: c) :: cs') ∧ PRel p' U ∧ FromTrans g.edges pos U ∧
      (∀ x, IsVertex g.edges x → ∀ y, GenEq U x y ↔ ∃ γ, IsTranslation g.edges pos γ ∧ γ x = y) ∧
      (v0 :: c).Nodup ∧ (∀ v, v ∈ v0 :: c ↔ ∃ γ, IsTranslation g.edges pos γ ∧ γ v0 = v) ∧
      (∀ d ∈ (v0 :: c) :: cs', d ≠ []) ∧ ((v0 :: c) :: cs').flatten.Perm g.vertices ∧
      ∀ d ∈ (v0 :: c) :: cs', ∀ x ∈ d, ∀ y, y ∈ d ↔ ∃ γ, IsTranslation g.edges pos γ ∧ γ x = y := by
  obtain ⟨p, U, h1, h2, h3, h4⟩ := rawEquiv_ok hg hp hs hc hv
  obtain ⟨p', cs, e1, e2, e3, e4, e5, -⟩ := h2.classes g.vertices
  have e1' := e1
  rw [hv] at e1'
  obtain ⟨c, cs', rfl⟩ := h2.classes_first e1'
  have hv0 : IsVertex g.edges v0 := (g.mem_vertices v0).1 (by rw [hv]; exact List.mem_cons_self)
  have hmem : ∀ d ∈ (v0 :: c) :: cs', ∀ x ∈ d, ∀ y, y ∈ d ↔ ∃ γ, IsTranslation g.edges pos γ ∧ γ x = y := by
    intro d hd x hx y
    have hxv : IsVertex g.edges x := (g.mem_vertices x).1 (e4.mem_iff.1 (List.mem_flatten.2 ⟨d, hd, hx⟩))
    rw [e5 d hd x hx y, h4 x hxv]
    constructor
    · exact fun h => h.2
    · rintro ⟨γ, h, rfl⟩
      exact ⟨(g.mem_vertices _).2 (h.vertex hxv), γ, h, rfl⟩
  refine ⟨p, U, p', c, cs', h1, e1, e2, h3, h4, ?_, ?_, e3, e4, hmem⟩
  · have hn : ((v0 :: c) :: cs').flatten.Nodup := e4.nodup_iff.2 vertices_nodup
    rw [List.flatten_cons, List.nodup_append] at hn
    exact hn.1
  · exact hmem _ List.mem_cons_self v0 List.mem_cons_self

theorem translationalEquivalences_ok (hg : g.WF) (hp : Places tb g pos) (hs : LocallyStable g.edges pos)
    (hc : PeriodicConnected g.edges) (hsm : g.vertices.length ≤ 2147483647) {v0 : Nat} {rest : List Nat}
    (hv : g.vertices = v0 :: rest) (hv0 : IsVertex g.edges v0) (hz : pos v0 = 0) :
    ∃ p U, translationalEquivalences tb g = .ok p ∧ PRel p U ∧ FromTrans g.edges pos U ∧
      (∀ x, x ∈ trLat (tgroup_all g.edges pos) hc hv0 → x ∈ trLat (tgroup_genEq (raw := g.edges) (pos := pos) U) hc hv0) ∧
      ((∀ γ, IsTranslation g.edges pos γ → (∃ t : T, pos (γ v0) = shv t) → γ v0 = v0) →
        ∀ x, IsVertex g.edges x → ∀ y, GenEq U x y ↔ ∃ γ, IsTranslation g.edges pos γ ∧ γ x = y) ∧
      ((∀ γ, IsTranslation g.edges pos γ → ∃ t : T, pos (γ v0) = shv t) → ∀ v, GenEq U v0 v → v = v0) := by
  have hqc := quotient_of_periodic hc
  obtain ⟨p, U, p', c, cs', h1, h2, h3, h4, h5, h6, h7, -⟩ := rawClasses_ok hg hp hs hqc hv
  obtain ⟨a, ha, -⟩ := aff_identity (T := ℚ) (LabelVector.dim T)
  have hcv : ∀ v ∈ c, IsVertex g.edges v := by
    intro v hvc
    obtain ⟨γ, k1, rfl⟩ := (h7 v).1 (List.mem_cons_of_mem _ hvc)
    exact k1.vertex hv0
  have hsame : ∀ v ∈ c, ∃ b, sameMod1 tb (mod1 (List.ofFn (pos v0))) v = .ok b ∧ (b = true ↔ ∃ t : T, pos v = shv t) :=
    fun v hvc => sameMod1_ok hp hz (hcv v hvc)
  choose! B hB1 hB2 using hsame
  have hom := omap_ok hB1
  unfold translationalEquivalences
  rw [bind_ok h1, h2, Outcome.ok_bind]
  simp only
  rw [show vecGet ((v0 :: c) :: cs') 0 = .ok (v0 :: c) from rfl, Outcome.ok_bind,
    show vecGet (v0 :: c) 0 = .ok v0 from rfl, Outcome.ok_bind, bind_ok (hp v0 ((g.mem_vertices v0).2 hv0)),
    bind_ok ha, List.drop_one, List.tail_cons, bind_ok hom]
  by_cases hall : (List.map B c).all (fun b => !b) = true
  · rw [if_pos hall]
    have hnone : ∀ v ∈ c, ¬ ∃ t : T, pos v = shv t := by
      intro v hvc hex
      have := List.all_eq_true.1 hall _ (List.mem_map_of_mem hvc)
      rw [(hB2 v hvc).2 hex] at this
      simp at this
    refine ⟨p', U, rfl, h3, h4, ?_, fun _ => h5, ?_⟩
    · rintro x ⟨γ, k1, t, rfl⟩
      exact ⟨γ, ⟨k1, fun w hw => (h5 w hw _).2 ⟨γ, k1, rfl⟩⟩, t, rfl⟩
    · intro hint v hgv
      obtain ⟨γ, k1, rfl⟩ := (h5 v0 hv0 v).1 hgv
      have hm := (h7 (γ v0)).2 ⟨γ, k1, rfl⟩
      rcases List.mem_cons.1 hm with h | h
      · exact h
      · exact absurd (hint γ k1) (hnone _ h)
  · rw [if_neg hall]
    have hsome : ∃ v ∈ c, ∃ t : T, pos v = shv t := by
      by_contra hno
      apply hall
      rw [List.all_eq_true]
      intro b hb
      obtain ⟨v, hvc, rfl⟩ := List.mem_map.1 hb
      by_contra hbv
      have : B v = true := by simpa using hbv
      exact hno ⟨v, hvc, (hB2 v hvc).1 this⟩
    have hne : c ≠ [] := by
      obtain ⟨v, hvc, -⟩ := hsome
      exact List.ne_nil_of_mem hvc
    obtain ⟨bs, e1, -, e3, -, e5⟩ := extendedBasis_ok hp hc hsm hv0 hne
      (fun v hvc => (h7 v).1 (List.mem_cons_of_mem _ hvc))
      (fun γ k1 => ⟨γ v0, (h7 _).2 ⟨γ, k1, rfl⟩, 0, by rw [shv_zero, add_zero]⟩)
    have hbm : ∀ b ∈ bs, b.length = LabelVector.dim T ∧ rowVec _ b ∈ trLat (tgroup_all g.edges pos) hc hv0 := by
      intro b hb
      refine ⟨e3 b hb, (e5 _).1 (subset_span ⟨b, hb, rfl⟩)⟩
    obtain ⟨p3, U3, f1, f2, f3, -, f5, f6⟩ := basisEquivLoop_ok hg hp hs hc ha hv0 hz h7 bs PState.new [] PRel.new
      (by intro q hq; cases hq) hbm
    rw [bind_ok e1]
    refine ⟨p3, U3, f1, f2, f3, ?_, ?_, ?_⟩
    · intro x hx
      have hx' := (e5 x).2 hx
      clear hx
      induction hx' using span_induction with
      | mem x hx =>
        obtain ⟨b, hb, rfl⟩ := hx
        exact f5 b hb
      | zero => exact zero_mem _
      | add x y _ _ hx hy => exact add_mem hx hy
      | smul a x _ hx => exact zsmul_mem hx a
    · intro hlad
      exfalso
      obtain ⟨v, hvc, t, ht⟩ := hsome
      obtain ⟨γ, k1, rfl⟩ := (h7 v).1 (List.mem_cons_of_mem _ hvc)
      have := hlad γ k1 ⟨t, ht⟩
      rw [this] at hvc
      exact (List.nodup_cons.1 h6).1 hvc
    · intro hint v hgv
      refine (genEq_trivial (f6 ?_ (by simp)) hgv).symm
      intro b hb
      obtain ⟨γ, k1, t, ht⟩ := (mem_trLat _ _ _ _).1 (hbm b hb).2
      obtain ⟨s, hs'⟩ := hint γ k1
      rw [integerVectors_iff]
      exact ⟨s + t, by rw [ht, hs', hz, shv_add, sub_zero]⟩

/-- the orbits of `translational_orbits` -/
theorem translationalOrbits_ok (hg : g.WF) (hp : Places tb g pos) (hs : LocallyStable g.edges pos)
    (hc : PeriodicConnected g.edges) (hsm : g.vertices.length ≤ 2147483647) {v0 : Nat} {rest : List Nat}
    (hv : g.vertices = v0 :: rest) (hv0 : IsVertex g.edges v0) (hz : pos v0 = 0) :
    ∃ c cs, translationalOrbits tb g = .ok ((v0 :: c) :: cs) ∧
      (∀ d ∈ (v0 :: c) :: cs, d ≠ []) ∧ ((v0 :: c) :: cs).flatten.Perm g.vertices ∧
      (∀ d ∈ (v0 :: c) :: cs, ∀ x ∈ d, ∀ y ∈ d, ∃ γ, IsTranslation g.edges pos γ ∧ γ x = y) ∧
      (∀ γ, IsTranslation g.edges pos γ → ∃ v ∈ v0 :: c, ∃ t : T, pos (γ v0) = pos v + shv t) ∧
      ((∀ γ, IsTranslation g.edges pos γ → (∃ t : T, pos (γ v0) = shv t) → γ v0 = v0) →
        ∀ d ∈ (v0 :: c) :: cs, ∀ x ∈ d, ∀ y, y ∈ d ↔ ∃ γ, IsTranslation g.edges pos γ ∧ γ x = y) ∧
      (c = [] ↔ ∀ γ, IsTranslation g.edges pos γ → ∃ t : T, pos (γ v0) = shv t) := by
  obtain ⟨p, U, h1, h2, h3, h4, h5, h6⟩ := translationalEquivalences_ok hg hp hs hc hsm hv hv0 hz
  obtain ⟨p', cs0, e1, e2, e3, e4, e5, -⟩ := h2.classes g.vertices
  have e1' := e1
  rw [hv] at e1'
  obtain ⟨c, cs, rfl⟩ := h2.classes_first e1'
  obtain ⟨b, s1, s2⟩ := isLocallyStable_ok hp
  have hb : b = true := s2.2 ((locStable_iff hg pos).2 hs)
  subst hb
  have hvert : ∀ d ∈ (v0 :: c) :: cs, ∀ x ∈ d, IsVertex g.edges x := by
    intro d hd x hx
    exact (g.mem_vertices x).1 (e4.mem_iff.1 (List.mem_flatten.2 ⟨d, hd, hx⟩))
  have hcover : ∀ γ, IsTranslation g.edges pos γ → ∃ v ∈ v0 :: c, ∃ t : T, pos (γ v0) = pos v + shv t := by
    intro γ hγ
    obtain ⟨δ, ⟨k1, k2⟩, t, ht⟩ := h4 (pos (γ v0) - pos v0) ⟨γ, hγ, 0, by rw [shv_zero, add_zero]⟩
    refine ⟨δ v0, ?_, t, ?_⟩
    · rw [e5 _ List.mem_cons_self v0 List.mem_cons_self]
      exact ⟨(g.mem_vertices _).2 (k1.vertex hv0), k2 v0 hv0⟩
    · rw [hz, sub_zero, sub_zero] at ht
      exact ht
  refine ⟨c, cs, ?_, e3, e4, ?_, hcover, ?_, ?_⟩
  · unfold translationalOrbits
    rw [bind_ok s1, show rassert true = .ok () from rfl, Outcome.ok_bind, bind_ok h1, bind_ok e1]
  · intro d hd x hx y hy
    rcases h3.genEq ((e5 d hd x hx y).1 hy).2 with rfl | ⟨-, γ, k1, k2, -⟩
    · exact ⟨_, IsTranslation.id _ _, rfl⟩
    · exact ⟨γ, k1, k2⟩
  · intro hlad d hd x hx y
    rw [e5 d hd x hx y, h5 hlad x (hvert d hd x hx)]
    constructor
    · exact fun h => h.2
    · rintro ⟨γ, h, rfl⟩
      exact ⟨(g.mem_vertices _).2 (h.vertex (hvert d hd x hx)), γ, h, rfl⟩
  · constructor
    · rintro rfl γ hγ
      obtain ⟨v, hv', t, ht⟩ := hcover γ hγ
      simp only [List.mem_cons, List.not_mem_nil, or_false] at hv'
      subst hv'
      exact ⟨t, by rw [ht, hz, zero_add]⟩
    · intro hint
      have hall : ∀ v ∈ c, v = v0 := by
        intro v hvc
        exact h6 hint v ((e5 _ List.mem_cons_self v0 List.mem_cons_self v).1 (List.mem_cons_of_mem _ hvc)).2
      have hn : ((v0 :: c) :: cs).flatten.Nodup := e4.nodup_iff.2 vertices_nodup
      rw [List.flatten_cons, List.nodup_append] at hn
      have hn0 := (List.nodup_cons.1 hn.1).1
      cases c with
      | nil => rfl
      | cons x c =>
        exfalso
        apply hn0
        rw [← hall x List.mem_cons_self]
        exact List.mem_cons_self

theorem isMinimal_ok (hg : g.WF) (hp : Places tb g pos) (hs : LocallyStable g.edges pos)
    (hc : PeriodicConnected g.edges) (hsm : g.vertices.length ≤ 2147483647) {v0 : Nat} {rest : List Nat}
    (hv : g.vertices = v0 :: rest) (hv0 : IsVertex g.edges v0) (hz : pos v0 = 0) :
    ∃ b, isMinimal tb g = .ok b ∧ (b = true ↔ ∀ γ, IsTranslation g.edges pos γ → ∃ t : T, pos (γ v0) = shv t) := by
  obtain ⟨c, cs, h1, -, -, -, -, -, h2⟩ := translationalOrbits_ok hg hp hs hc hsm hv hv0 hz
  refine ⟨decide ((v0 :: c).length = 1), ?_, ?_⟩
  · unfold isMinimal
    rw [bind_ok h1]
    rfl
  · rw [decide_eq_true_eq, ← h2]
    simp

end Systre
