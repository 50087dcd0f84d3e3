import Verif.Lemmas.AutGroup
import Mathlib.LinearAlgebra.Dimension.StrongRankCondition
import Mathlib.LinearAlgebra.FiniteDimensional.Basic
import Mathlib.LinearAlgebra.Matrix.NonsingularInverse
import Mathlib.LinearAlgebra.StdBasis
import Mathlib.LinearAlgebra.Pi

/-! # Edge vectors span the space, linear parts of automorphisms are unimodular -/

set_option linter.unusedSectionVars false

namespace Systre

open Submodule

section
variable {T : Type} [LabelVector T] [LawfulLabelVector T]
variable {raw : List (Edge T)} {pos : Nat → Fin (LabelVector.dim T) → ℚ}
  {A B : Matrix (Fin (LabelVector.dim T)) (Fin (LabelVector.dim T)) ℚ}

theorem shv_zero : shv (0 : T) = 0 := by
  ext k; simp [shv, LawfulLabelVector.toVec_zero]
theorem shv_add (s t : T) : shv (s + t) = shv s + shv t := by
  ext k; simp [shv, LawfulLabelVector.toVec_add]
theorem shv_neg (s : T) : shv (-s) = - shv s := by
  ext k; simp [shv, LawfulLabelVector.toVec_neg]
theorem shv_sub (s t : T) : shv (s - t) = shv s - shv t := by
  rw [sub_eq_add_neg, shv_add, shv_neg, sub_eq_add_neg]

theorem shv_inj {s t : T} (h : shv s = shv t) : s = t := by
  apply LawfulLabelVector.toVec_inj
  apply ext_rent
  · rw [LawfulLabelVector.toVec_length, LawfulLabelVector.toVec_length]
  · intro k
    by_cases hk : k < LabelVector.dim T
    · have := congrFun h ⟨k, hk⟩
      simpa [shv] using this
    · rw [rent_ge (by rw [LawfulLabelVector.toVec_length]; omega), rent_ge (by rw [LawfulLabelVector.toVec_length]; omega)]

theorem shv_surj (z : Fin (LabelVector.dim T) → ℤ) : ∃ t : T, shv t = fun k => (z k : ℚ) := by
  obtain ⟨t, ht⟩ := LawfulLabelVector.toVec_surj (T := T) (List.ofFn z) (by simp)
  refine ⟨t, ?_⟩
  ext k
  simp [shv, ht, rent]

theorem edgeVec_eq (pos : Nat → Fin (LabelVector.dim T) → ℚ) (e : Edge T) :
    edgeVec pos e = pos e.tail + shv e.shift - pos e.head := rfl

theorem adj_place {x y : Nat × T} (h : Adj raw x y) : ∃ e, IsDirected raw e ∧ e.head = x.1 ∧ e.tail = y.1 ∧
    x.2 + e.shift = y.2 ∧ place pos y - place pos x = edgeVec pos e := by
  obtain ⟨e, he, h1, h2, h3⟩ := h
  refine ⟨e, he, h1, h2, h3, ?_⟩
  rw [edgeVec_eq, place, place, ← h3, shv_add, h1, h2]
  abel

/-- all edge vectors -/
def edgeVecs (raw : List (Edge T)) (pos : Nat → Fin (LabelVector.dim T) → ℚ) : Set (Fin (LabelVector.dim T) → ℚ) :=
  edgeVec pos '' {e | IsDirected raw e}

theorem joined_place {x y : Nat × T} (h : Joined raw x y) :
    place pos y - place pos x ∈ span ℚ (edgeVecs raw pos) := by
  induction h with
  | refl => rw [sub_self]; exact zero_mem _
  | @tail y z _ h2 ih =>
    obtain ⟨e, he, -, -, -, h4⟩ := adj_place (pos := pos) h2
    have : place pos z - place pos x = (place pos z - place pos y) + (place pos y - place pos x) := by abel
    rw [this, h4]
    exact add_mem (subset_span ⟨e, he, rfl⟩) ih

theorem span_edgeVecs (hc : PeriodicConnected raw) {v : Nat} (hv : IsVertex raw v) :
    span ℚ (edgeVecs raw pos) = ⊤ := by
  rw [eq_top_iff]
  intro x _
  have h1 : ∀ t : T, shv t ∈ span ℚ (edgeVecs raw pos) := by
    intro t
    have := joined_place (pos := pos) (hc v v hv hv 0 t)
    simpa [place, shv_zero] using this
  have h2 : x = ∑ k, x k • (Pi.single k (1 : ℚ) : Fin (LabelVector.dim T) → ℚ) := by
    ext j
    simp [Finset.sum_apply, Pi.single_apply]
  rw [h2]
  refine sum_mem (fun k _ => smul_mem _ _ ?_)
  obtain ⟨t, ht⟩ := shv_surj (T := T) (Pi.single k 1)
  have : (Pi.single k (1 : ℚ) : Fin (LabelVector.dim T) → ℚ) = shv t := by
    rw [ht]; ext j
    simp only [Pi.single_apply]
    split <;> simp
  rw [this]; exact h1 t

theorem mat_ext_span (hs : span ℚ (edgeVecs raw pos) = ⊤)
    (h : ∀ e, IsDirected raw e → A.mulVec (edgeVec pos e) = B.mulVec (edgeVec pos e)) : A = B := by
  apply Matrix.mulVec_injective
  funext x
  have hx : x ∈ span ℚ (edgeVecs raw pos) := by rw [hs]; trivial
  induction hx using span_induction with
  | mem x hx => obtain ⟨e, he, rfl⟩ := hx; exact h e he
  | zero => simp
  | add x y _ _ h1 h2 => rw [Matrix.mulVec_add, Matrix.mulVec_add, h1, h2]
  | smul c x _ h1 => rw [Matrix.mulVec_smul, Matrix.mulVec_smul, h1]

variable {vm vm' : Nat → Nat} {em em' : Edge T → Edge T}

/-- an automorphism lifts walks -/
theorem IsGraphAut.lift (h : IsGraphAut raw pos vm em A) {x y : Nat × T} (hj : Joined raw x y) (s : T) :
    ∃ t, Joined raw (vm x.1, s) (vm y.1, t) ∧
      place pos (vm y.1, t) - place pos (vm x.1, s) = A.mulVec (place pos y - place pos x) := by
  induction hj with
  | refl => exact ⟨s, Relation.ReflTransGen.refl, by simp⟩
  | @tail y z _ h2 ih =>
    obtain ⟨t, h3, h4⟩ := ih
    obtain ⟨e, he, h5, h6, h7, h8⟩ := adj_place (pos := pos) h2
    have hd : IsDirected raw (em e) := h.ebij.mapsTo he
    refine ⟨t + (em e).shift, h3.tail ⟨em e, hd, ?_, ?_, rfl⟩, ?_⟩
    · rw [h.head e he, h5]
    · rw [h.tail e he, h6]
    · have e1 : place pos z - place pos x = edgeVec pos e + (place pos y - place pos x) := by rw [← h8]; abel
      rw [e1, Matrix.mulVec_add, ← h.vec e he, ← h4, edgeVec_eq, h.head e he, h.tail e he, h5, h6]
      simp only [place, shv_add]
      abel

theorem IsGraphAut.integral (h : IsGraphAut raw pos vm em A) (hc : PeriodicConnected raw) {v : Nat}
    (hv : IsVertex raw v) (t : T) : ∃ t' : T, shv t' = A.mulVec (shv t) := by
  obtain ⟨t', -, h2⟩ := h.lift (hc v v hv hv 0 t) 0
  refine ⟨t', ?_⟩
  simpa [place, shv_zero] using h2

/-- the permutation of the directed edges -/
noncomputable def IsGraphAut.perm (h : IsGraphAut raw pos vm em A) : Equiv.Perm {e : Edge T // IsDirected raw e} :=
  Equiv.ofBijective (fun e => ⟨em e.1, h.ebij.mapsTo e.2⟩) (by
    constructor
    · intro e f hef
      exact Subtype.ext (h.ebij.injOn e.2 f.2 (congrArg Subtype.val hef))
    · intro f
      obtain ⟨e, he, h1⟩ := h.ebij.surjOn f.2
      exact ⟨⟨e, he⟩, Subtype.ext h1⟩)

theorem IsGraphAut.perm_apply (h : IsGraphAut raw pos vm em A) (e : {e : Edge T // IsDirected raw e}) :
    (h.perm e).1 = em e.1 := rfl

theorem IsGraphAut.perm_pow (h : IsGraphAut raw pos vm em A) (n : Nat) (e : {e : Edge T // IsDirected raw e}) :
    edgeVec pos ((h.perm ^ n) e).1 = (A ^ n).mulVec (edgeVec pos e.1) := by
  induction n with
  | zero => simp
  | succ n ih =>
    rw [pow_succ', Equiv.Perm.mul_apply, h.perm_apply, h.vec _ ((h.perm ^ n) e).2, ih, Matrix.mulVec_mulVec, ← pow_succ']

theorem finite_dir_raw (raw : List (Edge T)) : Finite {e : Edge T // IsDirected raw e} := by
  have := finite_dir (Graph.new raw)
  have h : ∀ e, IsDirected (Graph.new raw).edges e ↔ IsDirected raw e := isDirected_new raw
  simpa only [h] using this

theorem IsGraphAut.pow_one (h : IsGraphAut raw pos vm em A) (hs : span ℚ (edgeVecs raw pos) = ⊤) :
    ∃ n, 0 < n ∧ A ^ n = 1 := by
  haveI := finite_dir_raw raw
  haveI := Fintype.ofFinite {e : Edge T // IsDirected raw e}
  refine ⟨orderOf h.perm, orderOf_pos _, mat_ext_span hs (fun e he => ?_)⟩
  rw [← h.perm_pow _ ⟨e, he⟩, pow_orderOf_eq_one]
  simp

theorem IsGraphAut.isUnit (h : IsGraphAut raw pos vm em A) (hs : span ℚ (edgeVecs raw pos) = ⊤) : IsUnit A := by
  obtain ⟨n, hn, h1⟩ := h.pow_one hs
  exact IsUnit.of_pow_eq_one h1 hn.ne'

theorem IsGraphAut.unimodular (h : IsGraphAut raw pos vm em A) (hc : PeriodicConnected raw) {v : Nat}
    (hv : IsVertex raw v) : ∃ M : Matrix (Fin (LabelVector.dim T)) (Fin (LabelVector.dim T)) ℤ,
      A = M.map (fun x : ℤ => (x : ℚ)) ∧ |M.det| = 1 := by
  have hcol : ∀ j, ∃ z : Fin (LabelVector.dim T) → ℤ, ∀ i, A i j = z i := by
    intro j
    obtain ⟨t, ht⟩ := shv_surj (T := T) (Pi.single j 1)
    obtain ⟨t', ht'⟩ := h.integral hc hv t
    refine ⟨fun i => rent (LabelVector.toVec t') i.1, fun i => ?_⟩
    have h1 := congrFun ht' i
    have h2 : (shv t : Fin (LabelVector.dim T) → ℚ) = Pi.single j 1 := by
      rw [ht]; ext k
      simp only [Pi.single_apply]
      split <;> simp
    rw [h2, Matrix.mulVec_single_one] at h1
    exact h1.symm
  choose z hz using hcol
  let M : Matrix (Fin (LabelVector.dim T)) (Fin (LabelVector.dim T)) ℤ := Matrix.of (fun i j => z j i)
  have hM : A = M.map (fun x : ℤ => (x : ℚ)) := by
    ext i j; exact hz j i
  refine ⟨M, hM, ?_⟩
  obtain ⟨n, hn, h1⟩ := h.pow_one (span_edgeVecs hc hv)
  have hd : (M.det : ℚ) = A.det := by
    rw [hM]
    exact (Int.castRingHom ℚ).map_det M
  have h2 : A.det ^ n = 1 := by rw [← Matrix.det_pow, h1, Matrix.det_one]
  have h3 : M.det ^ n = 1 := by
    rw [← hd] at h2; exact_mod_cast h2
  have h4 : IsUnit M.det := IsUnit.of_pow_eq_one h3 hn.ne'
  exact Int.isUnit_iff_abs_eq.1 h4

end
end Systre
