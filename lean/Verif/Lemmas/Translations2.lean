import Verif.Lemmas.Translations

/-!
# `raw_translational_equivalences`, `translational_equivalences`, `is_minimal`
-/

namespace Systre

open Submodule Partitions

section
variable {α : Type} [DecidableEq α]

theorem PRel.classes_first {p : PState α} {U : List (α × α)} (h : PRel p U) {v0 : α} {rest : List α} {p' : PState α}
    {cs : List (List α)} (hc : Partitions.classes p (v0 :: rest) = .ok (p', cs)) : ∃ c cs', cs = (v0 :: c) :: cs' := by
  classical
  obtain ⟨ops, h1, h2⟩ := h
  obtain ⟨p'', cs', h3, h4, h5, h6, h7⟩ := C04_classes ops (v0 :: rest) p h1
  rw [hc] at h3
  cases h3
  have hv : v0 ∈ cs.flatten := h5.mem_iff.2 List.mem_cons_self
  obtain ⟨c, hcm, hvc⟩ := List.mem_flatten.1 hv
  have hhead : ∃ c', c = v0 :: c' := by
    have := h6 c hcm v0 hvc
    rw [List.filter_cons_of_pos (by rw [decide_eq_true_eq]; exact Relation.EqvGen.refl _)] at this
    exact ⟨_, this⟩
  obtain ⟨c', rfl⟩ := hhead
  cases cs with
  | nil => cases hcm
  | cons d ds =>
    rcases List.mem_cons.1 hcm with h | h
    · exact ⟨c', ds, by rw [h]⟩
    · rw [List.pairwise_cons] at h7
      have h8 := h7.1 _ h
      cases d with
      | nil => exact absurd rfl (h4 [] List.mem_cons_self)
      | cons x d =>
        have := h8 x (by simp) v0 (by simp)
        simp at this
end

variable {T : Type} [LabelVector T] [LawfulLabelVector T]
variable {g : Graph T} {tb : Outcome PosTable} {pos : Nat → Fin (LabelVector.dim T) → ℚ}

theorem identity_aff {a : AffineMap ℚ} (h : AffineMap.identity (LabelVector.dim T) = .ok a) :
    IsAff a (1 : Matrix (Fin (LabelVector.dim T)) (Fin (LabelVector.dim T)) ℚ) 0 := by
  obtain ⟨t, h1, h2⟩ := aff_identity (T := ℚ) (LabelVector.dim T)
  rw [h] at h1
  cases h1
  exact h2

theorem autId_ok (hg : g.WF) (hp : Places tb g pos) (hs : LocallyStable g.edges pos)
    (hc : QuotientConnected g.edges) {a : AffineMap ℚ} (ha : AffineMap.identity (LabelVector.dim T) = .ok a)
    (v0 w0 : Nat) (hv0 : IsVertex g.edges v0) :
    ∃ r, automorphism tb g v0 w0 a = .ok r ∧
      (∀ φ, r = some φ → ∃ vm, IsTranslation g.edges pos vm ∧ vm v0 = w0 ∧ IsTable φ.vertexMap (IsVertex g.edges) vm) ∧
      (r = none → ∀ vm, IsTranslation g.edges pos vm → vm v0 ≠ w0) := by
  obtain ⟨r, h1, h2, h3⟩ := automorphism_ok hg hp hs hc (identity_aff ha) v0 w0 hv0
  refine ⟨r, h1, ?_, ?_⟩
  · intro φ hφ
    obtain ⟨-, vm, em, h5, h6, h7⟩ := h2 φ hφ
    exact ⟨vm, ⟨em, h6.isGraphAut hs hc isUnit_one h6.verts⟩, h7, h5.vt⟩
  · rintro hr vm ⟨em, h⟩
    exact h3 hr vm em h.starMap

theorem vertexPairs_ok {φ : Automorphism T} {vm : Nat → Nat} (h : IsTable φ.vertexMap (IsVertex g.edges) vm) :
    vertexPairs g φ = .ok (g.vertices.map (fun w => (w, vm w))) := by
  unfold vertexPairs
  apply omap_ok
  intro w hw
  rw [h.get ((g.mem_vertices w).1 hw)]
  rfl

theorem fromTrans_pairs {vm : Nat → Nat} (h : IsTranslation g.edges pos vm) :
    FromTrans g.edges pos (g.vertices.map (fun w => (w, vm w))) := by
  intro q hq
  obtain ⟨w, hw, rfl⟩ := List.mem_map.1 hq
  refine ⟨(g.mem_vertices w).1 hw, vm, h, rfl, ?_⟩
  intro x hx
  exact List.mem_map.2 ⟨x, (g.mem_vertices x).2 hx, rfl⟩

theorem rawEquivLoop_ok (hg : g.WF) (hp : Places tb g pos) (hs : LocallyStable g.edges pos)
    (hc : QuotientConnected g.edges) {a : AffineMap ℚ} (ha : AffineMap.identity (LabelVector.dim T) = .ok a)
    {v0 : Nat} (hv0 : IsVertex g.edges v0) : ∀ (vs : List Nat) (p : PState Nat) (U : List (Nat × Nat)), PRel p U →
      FromTrans g.edges pos U → ∃ p' U', rawEquivLoop tb g a v0 vs p = .ok p' ∧ PRel p' U' ∧
        FromTrans g.edges pos U' ∧ (∀ q ∈ U, q ∈ U') ∧
        ∀ v ∈ vs, ∀ γ, IsTranslation g.edges pos γ → γ v0 = v → GenEq U' v0 v := by
  intro vs
  induction vs with
  | nil => intro p U h1 h2; exact ⟨p, U, rfl, h1, h2, fun _ h => h, by simp⟩
  | cons v vs ih =>
    intro p U h1 h2
    obtain ⟨r1, r2, p1, p2, f1, f2, f3, f4⟩ := h1.find2 v0 v
    unfold rawEquivLoop
    rw [f1, Outcome.ok_bind]
    simp only
    rw [f2, Outcome.ok_bind]
    simp only
    by_cases hr : r1 = r2
    · rw [if_neg (by simpa using hr)]
      obtain ⟨p', U', e1, e2, e3, e4, e5⟩ := ih p2 U f3 h2
      refine ⟨p', U', e1, e2, e3, e4, ?_⟩
      intro w hw γ hγ hγw
      rcases List.mem_cons.1 hw with rfl | hw
      · exact genEq_mono e4 (f4.1 hr)
      · exact e5 w hw γ hγ hγw
    · rw [if_pos hr]
      obtain ⟨r, a1, a2, a3⟩ := autId_ok hg hp hs hc ha v0 v hv0
      rw [bind_ok a1]
      cases r with
      | none =>
        obtain ⟨p', U', e1, e2, e3, e4, e5⟩ := ih p2 U f3 h2
        refine ⟨p', U', e1, e2, e3, e4, ?_⟩
        intro w hw γ hγ hγw
        rcases List.mem_cons.1 hw with rfl | hw
        · exact absurd hγw (a3 rfl γ hγ)
        · exact e5 w hw γ hγ hγw
      | some φ =>
        obtain ⟨vm, b1, b2, b3⟩ := a2 φ rfl
        obtain ⟨p3, c1, c2⟩ := PRel.uniteAll (g.vertices.map (fun w => (w, vm w))) f3
        simp only
        rw [bind_ok (vertexPairs_ok b3), bind_ok c1]
        obtain ⟨p', U', e1, e2, e3, e4, e5⟩ := ih p3 _ c2 (h2.append (fromTrans_pairs b1))
        refine ⟨p', U', e1, e2, e3, fun q hq => e4 q (List.mem_append_left _ hq), ?_⟩
        intro w hw γ hγ hγw
        rcases List.mem_cons.1 hw with rfl | hw
        · apply Relation.EqvGen.rel
          apply e4
          rw [← b2]
          exact List.mem_append_right _ (List.mem_map.2 ⟨v0, (g.mem_vertices v0).2 hv0, rfl⟩)
        · exact e5 w hw γ hγ hγw

theorem rawEquiv_ok (hg : g.WF) (hp : Places tb g pos) (hs : LocallyStable g.edges pos)
    (hc : QuotientConnected g.edges) {v0 : Nat} {rest : List Nat} (hv : g.vertices = v0 :: rest) :
    ∃ p U, rawTranslationalEquivalences tb g = .ok p ∧ PRel p U ∧ FromTrans g.edges pos U ∧
      ∀ x, IsVertex g.edges x → ∀ y, GenEq U x y ↔ ∃ γ, IsTranslation g.edges pos γ ∧ γ x = y := by
  have hv0 : IsVertex g.edges v0 := (g.mem_vertices v0).1 (by rw [hv]; exact List.mem_cons_self)
  obtain ⟨a, ha, -⟩ := aff_identity (T := ℚ) (LabelVector.dim T)
  obtain ⟨p', U', e1, e2, e3, e4, e5⟩ := rawEquivLoop_ok hg hp hs hc ha hv0 g.vertices PState.new [] PRel.new
    (by intro q hq; cases hq)
  refine ⟨p', U', ?_, e2, e3, ?_⟩
  · unfold rawTranslationalEquivalences
    rw [bind_ok ha]
    rw [hv] at e1 ⊢
    exact e1
  · intro x hx y
    constructor
    · intro h
      rcases e3.genEq h with rfl | ⟨-, γ, h1, h2, -⟩
      · exact ⟨_, IsTranslation.id _ _, rfl⟩
      · exact ⟨γ, h1, h2⟩
    · rintro ⟨γ, h1, rfl⟩
      have h2 := e5 (γ v0) ((g.mem_vertices _).2 (h1.vertex hv0)) γ h1 rfl
      rcases e3.genEq h2 with h3 | ⟨-, δ, h3, h4, h5⟩
      · have := (IsTranslation.id g.edges pos).unique hs hc h1 hv0 h3 x hx
        rw [← this]
        exact Relation.EqvGen.refl _
      · have := h3.unique hs hc h1 hv0 h4 x hx
        rw [← this]
        exact h5 x hx

/-! ### positions -/

theorem vertices_nodup : g.vertices.Nodup := (Graph.vertices_sorted g).imp (fun h => ne_of_lt h)

theorem rem1_list (x y : Fin (LabelVector.dim T) → ℚ) :
    (List.zipWith (· - ·) (List.ofFn x) (List.ofFn y)).map rem1 = List.ofFn (fun k => rem1 (x k - y k)) := by
  apply List.ext_getElem <;> simp

/-- `%` by one gives an equivalent number. -/
theorem rem1_int (x : ℚ) : ∃ z : ℤ, rem1 x = x - z := by
  rw [rem1_eq]
  exact ⟨_, rfl⟩

/-- the number of vertices clears the denominators of translation vectors -/
theorem IsTranslation.denom (hc : PeriodicConnected g.edges) {vm : Nat → Nat} (h : IsTranslation g.edges pos vm)
    {v0 : Nat} (hv0 : IsVertex g.edges v0) (k : Fin (LabelVector.dim T)) :
    ∃ z : ℤ, (g.vertices.length : ℚ) * (pos (vm v0) k - pos v0 k) = z := by
  have hperm : (g.vertices.map vm).Perm g.vertices := by
    rw [List.perm_ext_iff_of_nodup _ vertices_nodup]
    · intro v
      rw [g.mem_vertices, List.mem_map]
      constructor
      · rintro ⟨w, hw, rfl⟩
        exact h.vertex ((g.mem_vertices w).1 hw)
      · intro hv
        obtain ⟨vm', h1, h2⟩ := h.symm
        exact ⟨vm' v, (g.mem_vertices _).2 (h1.vertex hv), (h2 v hv).2⟩
    · refine List.Nodup.map_on ?_ vertices_nodup
      intro x hx y hy hxy
      obtain ⟨em, h1⟩ := h
      exact h1.vbij.injOn ((g.mem_vertices x).1 hx) ((g.mem_vertices y).1 hy) hxy
  have hsum : ((g.vertices.map vm).map (fun v => pos v k)).sum = (g.vertices.map (fun v => pos v k)).sum :=
    (hperm.map _).sum_eq
  have key : ∀ vs : List Nat, (∀ v ∈ vs, IsVertex g.edges v) → ∃ z : ℤ,
      ((vs.map vm).map (fun v => pos v k)).sum - (vs.map (fun v => pos v k)).sum =
        (vs.length : ℚ) * (pos (vm v0) k - pos v0 k) + z := by
    intro vs
    induction vs with
    | nil => intro _; exact ⟨0, by simp⟩
    | cons v vs ih =>
      intro hvs
      obtain ⟨z, hz⟩ := ih (fun w hw => hvs w (List.mem_cons_of_mem _ hw))
      obtain ⟨t, ht⟩ := h.vector hc (hvs v List.mem_cons_self) hv0
      have htk := congrFun ht k
      simp only [Pi.sub_apply, Pi.add_apply] at htk
      refine ⟨z + rent (LabelVector.toVec t) k.1, ?_⟩
      simp only [List.map_cons, List.sum_cons, List.length_cons]
      push_cast
      have : shv t k = ((rent (LabelVector.toVec t) k.1 : ℤ) : ℚ) := rfl
      rw [← this]
      linear_combination hz + htk
  obtain ⟨z, hz⟩ := key g.vertices (fun v hv => (g.mem_vertices v).1 hv)
  rw [hsum, sub_self] at hz
  exact ⟨-z, by push_cast; linarith⟩

end Systre
