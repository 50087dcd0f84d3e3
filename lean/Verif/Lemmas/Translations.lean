import Verif.Lemmas.SymTransfer
import Verif.Lemmas.RationalLattice

/-!
# Translations: automorphisms whose linear part is the identity
-/

namespace Systre

open Submodule Partitions

variable {T : Type} [LabelVector T] [LawfulLabelVector T]
variable {raw : List (Edge T)} {pos : Nat → Fin (LabelVector.dim T) → ℚ}
  {A B : Matrix (Fin (LabelVector.dim T)) (Fin (LabelVector.dim T)) ℚ}
variable {vm vm' : Nat → Nat} {em em' : Edge T → Edge T}

/-- the inverse of an automorphism -/
theorem IsGraphAut.symm (h : IsGraphAut raw pos vm em A) (hBA : B * A = 1) :
    ∃ vm' em', IsGraphAut raw pos vm' em' B ∧ (∀ v, IsVertex raw v → vm' (vm v) = v ∧ vm (vm' v) = v) ∧
      ∀ e, IsDirected raw e → em' (em e) = e ∧ em (em' e) = e := by
  classical
  haveI : Nonempty (Edge T) := ⟨⟨0, 0, 0⟩⟩
  have hv := h.vbij.invOn_invFunOn
  have he := h.ebij.invOn_invFunOn
  have hvb := h.vbij.symm hv.symm
  have heb := h.ebij.symm he.symm
  set vm' := Function.invFunOn vm {v | IsVertex raw v}
  set em' := Function.invFunOn em {e | IsDirected raw e}
  have hem : ∀ e, IsDirected raw e → IsDirected raw (em' e) := fun e h => heb.mapsTo h
  have hhd : ∀ e, IsDirected raw e → IsVertex raw e.head := fun e he => (isVertex_iff _ _).2 ⟨e, he, rfl⟩
  have htl : ∀ e, IsDirected raw e → IsVertex raw e.tail := fun e he =>
    (isVertex_iff _ _).2 ⟨e.neg, isDirected_neg.2 he, rfl⟩
  refine ⟨vm', em', ⟨hvb, heb, ?_, ?_, ?_, ?_⟩, fun v hv' => ⟨hv.1 hv', hv.2 hv'⟩, fun e he' => ⟨he.1 he', he.2 he'⟩⟩
  · intro e hd
    apply h.vbij.injOn (hhd _ (hem e hd)) (hvb.mapsTo (hhd e hd))
    rw [← h.head _ (hem e hd), he.2 hd, hv.2 (hhd e hd)]
  · intro e hd
    apply h.vbij.injOn (htl _ (hem e hd)) (hvb.mapsTo (htl e hd))
    rw [← h.tail _ (hem e hd), he.2 hd, hv.2 (htl e hd)]
  · intro e hd
    have hn : IsDirected raw (⟨e.tail, e.head, -e.shift⟩ : Edge T) := isDirected_neg.2 hd
    apply h.ebij.injOn (hem _ hn) (isDirected_neg.2 (hem e hd))
    have h1 := h.rev _ (hem e hd)
    rw [he.2 hd] at h1
    rw [he.2 hn]
    exact h1.symm
  · intro e hd
    have h1 := h.vec _ (hem e hd)
    rw [he.2 hd] at h1
    rw [h1, Matrix.mulVec_mulVec, hBA, Matrix.one_mulVec]

theorem IsTranslation.id (raw : List (Edge T)) (pos : Nat → Fin (LabelVector.dim T) → ℚ) :
    IsTranslation raw pos (fun v => v) := ⟨_, IsGraphAut.id raw pos⟩

theorem IsTranslation.comp (h : IsTranslation raw pos vm) (h' : IsTranslation raw pos vm') :
    IsTranslation raw pos (fun v => vm (vm' v)) := by
  obtain ⟨em, h1⟩ := h
  obtain ⟨em', h2⟩ := h'
  have := h1.comp h2
  rw [mul_one] at this
  exact ⟨_, this⟩

theorem IsTranslation.symm (h : IsTranslation raw pos vm) :
    ∃ vm', IsTranslation raw pos vm' ∧ ∀ v, IsVertex raw v → vm' (vm v) = v ∧ vm (vm' v) = v := by
  obtain ⟨em, h1⟩ := h
  obtain ⟨vm', em', h2, h3, -⟩ := h1.symm (B := 1) (by simp)
  exact ⟨vm', ⟨em', h2⟩, h3⟩

theorem IsTranslation.vertex (h : IsTranslation raw pos vm) {v : Nat} (hv : IsVertex raw v) : IsVertex raw (vm v) := by
  obtain ⟨em, h1⟩ := h
  exact h1.vbij.mapsTo hv

/-- translations act freely -/
theorem IsTranslation.unique (hs : LocallyStable raw pos) (hc : QuotientConnected raw)
    (h : IsTranslation raw pos vm) (h' : IsTranslation raw pos vm') {v0 : Nat} (hv0 : IsVertex raw v0)
    (heq : vm v0 = vm' v0) : ∀ v, IsVertex raw v → vm v = vm' v := by
  obtain ⟨em, h1⟩ := h
  obtain ⟨em', h2⟩ := h'
  rw [← isGraphAut_new] at h1 h2
  have := (StarMap.unique (locallyStable_new.2 hs) (quotientConnected_new.2 hc) h1.starMap h2.starMap
    ((isVertex_new raw v0).2 hv0) heq).1
  intro v hv
  exact this v ((isVertex_new raw v).2 hv)

/-- the vector of a translation is the same at all vertices, up to lattice vectors -/
theorem IsTranslation.vector (hc : PeriodicConnected raw) (h : IsTranslation raw pos vm) {v w : Nat}
    (hv : IsVertex raw v) (hw : IsVertex raw w) : ∃ t : T, pos (vm v) - pos v = pos (vm w) - pos w + shv t := by
  obtain ⟨em, h1⟩ := h
  obtain ⟨c, Φ, -, h2, -⟩ := h1.infinite hc hv
  have e1 := (h2 (v, 0) hv)
  have e2 := (h2 (w, 0) hw)
  unfold place at e1 e2
  simp only [Matrix.one_mulVec, shv_zero, add_zero] at e1 e2
  refine ⟨(Φ (w, 0)).2 - (Φ (v, 0)).2, ?_⟩
  rw [shv_sub]
  have a1 := e1.2
  have a2 := e2.2
  rw [e1.1] at a1
  rw [e2.1] at a2
  have b1 : pos (vm v) = pos v + c - shv (Φ (v, 0)).2 := by rw [← a1]; abel
  have b2 : pos (vm w) = pos w + c - shv (Φ (w, 0)).2 := by rw [← a2]; abel
  rw [b1, b2]
  abel

/-- a group of translations -/
structure TGroup (raw : List (Edge T)) (pos : Nat → Fin (LabelVector.dim T) → ℚ) (P : (Nat → Nat) → Prop) : Prop where
  trans : ∀ vm, P vm → IsTranslation raw pos vm
  id : P (fun v => v)
  comp : ∀ vm vm', P vm → P vm' → P (fun v => vm (vm' v))
  symm : ∀ vm, P vm → ∃ vm', P vm' ∧ ∀ v, IsVertex raw v → vm' (vm v) = v ∧ vm (vm' v) = v

theorem tgroup_all (raw : List (Edge T)) (pos : Nat → Fin (LabelVector.dim T) → ℚ) :
    TGroup raw pos (IsTranslation raw pos) :=
  ⟨fun _ h => h, IsTranslation.id raw pos, fun _ _ h h' => h.comp h', fun _ h => h.symm⟩

/-- the vectors of the translations in a group, including the lattice vectors -/
def trLat {P : (Nat → Nat) → Prop} (hP : TGroup raw pos P) {v0 : Nat}
    (hc : PeriodicConnected raw) (hv0 : IsVertex raw v0) : AddSubgroup (Fin (LabelVector.dim T) → ℚ) where
  carrier := {x | ∃ vm, P vm ∧ ∃ t : T, x = pos (vm v0) - pos v0 + shv t}
  zero_mem' := ⟨_, hP.id, 0, by simp [shv_zero]⟩
  add_mem' := by
    rintro x y ⟨vm, h1, t, rfl⟩ ⟨vm', h2, s, rfl⟩
    obtain ⟨u, hu⟩ := (hP.trans vm h1).vector hc hv0 ((hP.trans vm' h2).vertex hv0)
    refine ⟨_, hP.comp _ _ h1 h2, u + s + t, ?_⟩
    rw [shv_add, shv_add, hu]
    abel
  neg_mem' := by
    rintro x ⟨vm, h1, t, rfl⟩
    obtain ⟨vm', h2, h3⟩ := hP.symm vm h1
    obtain ⟨u, hu⟩ := (hP.trans vm h1).vector hc hv0 ((hP.trans vm' h2).vertex hv0)
    rw [(h3 v0 hv0).2] at hu
    refine ⟨vm', h2, -(u + t), ?_⟩
    rw [shv_neg, shv_add, hu]
    abel

theorem mem_trLat {P : (Nat → Nat) → Prop} (hP : TGroup raw pos P) {v0 : Nat} (hc : PeriodicConnected raw)
    (hv0 : IsVertex raw v0) (x : Fin (LabelVector.dim T) → ℚ) :
    x ∈ trLat hP hc hv0 ↔ ∃ vm, P vm ∧ ∃ t : T, x = pos (vm v0) - pos v0 + shv t := Iff.rfl

theorem shv_mem_trLat {P : (Nat → Nat) → Prop} (hP : TGroup raw pos P) {v0 : Nat} (hc : PeriodicConnected raw)
    (hv0 : IsVertex raw v0) (t : T) : shv t ∈ trLat hP hc hv0 :=
  (mem_trLat hP hc hv0 _).2 ⟨_, hP.id, t, by simp⟩

/-! ### partitions generated by translations -/

/-- the pairs come from translations -/
def FromTrans (raw : List (Edge T)) (pos : Nat → Fin (LabelVector.dim T) → ℚ) (U : List (Nat × Nat)) : Prop :=
  ∀ q ∈ U, IsVertex raw q.1 ∧ ∃ γ, IsTranslation raw pos γ ∧ γ q.1 = q.2 ∧ ∀ w, IsVertex raw w → (w, γ w) ∈ U

theorem FromTrans.genEq {U : List (Nat × Nat)} (hU : FromTrans raw pos U) {x y : Nat} (h : GenEq U x y) :
    x = y ∨ IsVertex raw x ∧ ∃ γ, IsTranslation raw pos γ ∧ γ x = y ∧ ∀ w, IsVertex raw w → GenEq U w (γ w) := by
  induction h with
  | rel x y h =>
    obtain ⟨h1, γ, h2, h3, h4⟩ := hU _ h
    exact Or.inr ⟨h1, γ, h2, h3, fun w hw => Relation.EqvGen.rel _ _ (h4 w hw)⟩
  | refl x => exact Or.inl rfl
  | symm x y _ ih =>
    rcases ih with rfl | ⟨h1, γ, h2, rfl, h4⟩
    · exact Or.inl rfl
    · obtain ⟨δ, h5, h6⟩ := h2.symm
      refine Or.inr ⟨h2.vertex h1, δ, h5, (h6 x h1).1, ?_⟩
      intro w hw
      have := h4 (δ w) (h5.vertex hw)
      rw [(h6 w hw).2] at this
      exact Relation.EqvGen.symm _ _ this
  | trans x y z _ _ ih1 ih2 =>
    rcases ih1 with rfl | ⟨h1, γ, h2, rfl, h4⟩
    · exact ih2
    · rcases ih2 with rfl | ⟨h1', δ, h5, rfl, h6⟩
      · exact Or.inr ⟨h1, γ, h2, rfl, h4⟩
      · refine Or.inr ⟨h1, _, h5.comp h2, rfl, ?_⟩
        intro w hw
        exact Relation.EqvGen.trans _ _ _ (h4 w hw) (h6 _ (h2.vertex hw))

theorem FromTrans.append {U V : List (Nat × Nat)} (hU : FromTrans raw pos U) (hV : FromTrans raw pos V) :
    FromTrans raw pos (U ++ V) := by
  intro q hq
  rcases List.mem_append.1 hq with h | h
  · obtain ⟨h1, γ, h2, h3, h4⟩ := hU q h
    exact ⟨h1, γ, h2, h3, fun w hw => List.mem_append_left _ (h4 w hw)⟩
  · obtain ⟨h1, γ, h2, h3, h4⟩ := hV q h
    exact ⟨h1, γ, h2, h3, fun w hw => List.mem_append_right _ (h4 w hw)⟩

theorem tgroup_genEq (U : List (Nat × Nat)) :
    TGroup raw pos (fun γ => IsTranslation raw pos γ ∧ ∀ w, IsVertex raw w → GenEq U w (γ w)) := by
  refine ⟨fun _ h => h.1, ⟨IsTranslation.id raw pos, fun w _ => Relation.EqvGen.refl w⟩, ?_, ?_⟩
  · rintro γ δ ⟨h2, h4⟩ ⟨h5, h6⟩
    exact ⟨h2.comp h5, fun w hw => Relation.EqvGen.trans _ _ _ (h6 w hw) (h4 _ (h5.vertex hw))⟩
  · rintro γ ⟨h2, h4⟩
    obtain ⟨δ, h5, h6⟩ := h2.symm
    refine ⟨δ, ⟨h5, ?_⟩, h6⟩
    intro w hw
    have := h4 (δ w) (h5.vertex hw)
    rw [(h6 w hw).2] at this
    exact Relation.EqvGen.symm _ _ this

theorem genEq_mono {α : Type} {U V : List (α × α)} (h : ∀ q ∈ U, q ∈ V) {x y : α} (hxy : GenEq U x y) : GenEq V x y := by
  induction hxy with
  | rel x y h' => exact Relation.EqvGen.rel _ _ (h _ h')
  | refl x => exact Relation.EqvGen.refl _
  | symm x y _ ih => exact Relation.EqvGen.symm _ _ ih
  | trans x y z _ _ ih1 ih2 => exact Relation.EqvGen.trans _ _ _ ih1 ih2

end Systre
