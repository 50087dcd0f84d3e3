import Verif.Model.HashAut
import Verif.Props.Symmetries

/-!
# C73: `Hash` and `Eq` of automorphisms agree
-/

namespace Systre

/-! ## Lemmas -/

theorem pairLe_total (p q : Nat × Nat) : pairLe p q ∨ pairLe q p := by unfold pairLe; omega

theorem pairLe_trans {p q r : Nat × Nat} (h : pairLe p q) (h' : pairLe q r) : pairLe p r := by
  unfold pairLe at *; omega

theorem pairLe_antisymm {p q : Nat × Nat} (h : pairLe p q) (h' : pairLe q p) : p = q := by
  unfold pairLe at *; ext <;> omega

instance : IsTrans (Nat × Nat) pairLe := ⟨fun _ _ _ => pairLe_trans⟩
instance : Std.Total pairLe := ⟨pairLe_total⟩
instance : Std.Antisymm pairLe := ⟨fun _ _ => pairLe_antisymm⟩

theorem sort_eq_iff_perm {l l' : List (Nat × Nat)} :
    l.insertionSort pairLe = l'.insertionSort pairLe ↔ l.Perm l' := by
  constructor
  · intro h
    exact (List.perm_insertionSort pairLe l).symm.trans (h ▸ List.perm_insertionSort pairLe l')
  · intro h
    exact List.Perm.eq_of_pairwise' (List.pairwise_insertionSort pairLe l) (List.pairwise_insertionSort pairLe l')
      ((List.perm_insertionSort pairLe l).trans (h.trans (List.perm_insertionSort pairLe l').symm))

theorem hmEq_iff_perm {α β : Type} [DecidableEq α] [DecidableEq β] {m m' : List (α × β)}
    (h : (m.map Prod.fst).Nodup) (h' : (m'.map Prod.fst).Nodup) : hmEq m m' = true ↔ m.Perm m' := by
  unfold hmEq
  rw [Bool.and_eq_true, decide_eq_true_eq, List.all_eq_true]
  constructor
  · rintro ⟨h1, h2⟩
    have hs : m ⊆ m' := fun p hp => by
      have := h2 p hp
      rw [decide_eq_true_eq] at this
      exact mem_of_lookup this
    exact (List.subperm_of_subset (List.Nodup.of_map _ h) hs).perm_of_length_le h1.ge
  · intro hp
    refine ⟨hp.length_eq, fun p hm => ?_⟩
    rw [decide_eq_true_eq]
    exact lookup_of_mem h' (hp.subset hm)

section
variable {T : Type} [LabelVector T]

/-- hash maps have every key once -/
def Automorphism.Proper (a : Automorphism T) : Prop :=
  (a.vertexMap.map Prod.fst).Nodup ∧ (a.edgeMap.map Prod.fst).Nodup

theorem eqv_iff_perm {a b : Automorphism T} (ha : a.Proper) (hb : b.Proper) :
    a.eqv b = true ↔ a.vertexMap.Perm b.vertexMap ∧ a.edgeMap.Perm b.edgeMap ∧ a.transform = b.transform := by
  unfold Automorphism.eqv
  rw [Bool.and_eq_true, Bool.and_eq_true, hmEq_iff_perm ha.1 hb.1, hmEq_iff_perm ha.2 hb.2, decide_eq_true_eq, and_assoc]

/-! ## C73 -/

/-- C73: equal automorphisms have equal hashes, whatever the iteration orders of their hash maps are, and `==` is
an equivalence relation. -/
theorem C73_consistent (a b c : Automorphism T) (ha : a.Proper) (hb : b.Proper) (hc : c.Proper) :
    (a.eqv b = true → a.hashInput = b.hashInput) ∧ a.eqv a = true ∧ (a.eqv b = true → b.eqv a = true) ∧
    (a.eqv b = true → b.eqv c = true → a.eqv c = true) := by
  rw [eqv_iff_perm ha hb, eqv_iff_perm ha ha, eqv_iff_perm hb ha, eqv_iff_perm hb hc, eqv_iff_perm ha hc]
  refine ⟨?_, ⟨.refl _, .refl _, rfl⟩, fun h => ⟨h.1.symm, h.2.1.symm, h.2.2.symm⟩,
    fun h h' => ⟨h.1.trans h'.1, h.2.1.trans h'.2.1, h.2.2.trans h'.2.2⟩⟩
  rintro ⟨h1, -, h3⟩
  unfold Automorphism.hashInput
  rw [h3, sort_eq_iff_perm.2 h1]

/-- C73: what is hashed determines an automorphism of a given graph, although the edge map is left out. -/
theorem C73_determined [LawfulLabelVector T] (raw : List (Edge T)) (pos : Nat → Fin (LabelVector.dim T) → ℚ)
    (a b : Automorphism T) (A B : Matrix (Fin (LabelVector.dim T)) (Fin (LabelVector.dim T)) ℚ)
    (s t : Fin (LabelVector.dim T) → ℚ) (ha : IsAutomorphism raw pos a A s) (hb : IsAutomorphism raw pos b B t) :
    a.hashInput = b.hashInput ↔ a.eqv b = true := by
  obtain ⟨vm, em, h1, h2⟩ := ha
  obtain ⟨vm', em', h3, h4⟩ := hb
  have pa : a.Proper := ⟨h1.vnodup, h1.enodup⟩
  have pb : b.Proper := ⟨h3.vnodup, h3.enodup⟩
  refine ⟨fun h => ?_, (C73_consistent a b b pa pb pb).1⟩
  have ht : a.transform = b.transform := congrArg Prod.fst h
  have hp : a.vertexMap.Perm b.vertexMap := sort_eq_iff_perm.1 (congrArg Prod.snd h)
  have hv : ∀ v, IsVertex raw v → vm v = vm' v := by
    intro v hv
    have h5 := (h1.vkeys v (vm v)).2 ⟨hv, rfl⟩
    have h6 := lookup_of_mem h3.vnodup (hp.subset (mem_of_lookup h5))
    exact ((h3.vkeys _ _).1 h6).2
  have hAB : A = B ∧ s = t := by
    have h5 := h1.aff
    rw [ht] at h5
    exact h5.inj h3.aff
  rw [eqv_iff h1 h3]
  refine ⟨hv, fun e he => ?_, hAB⟩
  have hh : (em e).head = (em' e).head := by
    rw [h2.head e he, h4.head e he]; exact hv _ ((isVertex_iff _ _).2 ⟨e, he, rfl⟩)
  have htl : (em e).tail = (em' e).tail := by
    rw [h2.tail e he, h4.tail e he]; exact hv _ ((isVertex_iff _ _).2 ⟨e.neg, isDirected_neg.2 he, rfl⟩)
  have hs : (em e).shift = (em' e).shift := by
    have h5 := h2.vec e he
    rw [hAB.1, ← h4.vec e he] at h5
    apply shv_inj
    funext k
    have h6 := congrFun h5 k
    simp only [edgeVec, hh, htl, sub_left_inj, add_right_inj] at h6
    exact h6
  cases hx : em e; cases hy : em' e
  simp_all

end

/-! ## Witnesses -/

/-- the identity of the square net, with the entries of the vertex map in two orders -/
def autEx (vm : List (Nat × Nat)) : Automorphism V2 := ⟨vm, [], ⟨⟨2, 2, [1, 0, 0, 1]⟩, ⟨⟨2, 1, [0, 0]⟩⟩⟩⟩

example : (autEx [(1, 2), (2, 1)]).eqv (autEx [(2, 1), (1, 2)]) = true := by decide +kernel
example : (autEx [(1, 2), (2, 1)]).hashInput = (autEx [(2, 1), (1, 2)]).hashInput := by decide +kernel
example : (autEx [(1, 2), (2, 1)]).hashInput ≠ (autEx [(1, 1), (2, 2)]).hashInput := by decide +kernel
example : (autEx [(1, 2), (2, 1)]).Proper ∧ (autEx [(2, 1), (1, 2)]).Proper := by
  unfold Automorphism.Proper; decide +kernel

/-- the twelve symmetries of the honeycomb net have twelve different hash inputs -/
example : (symmetries 13 hcbTb (Graph.new hcbEx) >>= fun l =>
    Outcome.ok ((l.map Automorphism.hashInput).dedup.length)) = .ok 12 := by decide +kernel

/-- the hypotheses of `C73_determined` hold for two different automorphisms -/
example : ∃ φ ψ, IsAutomorphism triEx triPos φ sixMat 0 ∧ IsAutomorphism triEx triPos ψ 1 0 ∧
    φ.hashInput ≠ ψ.hashInput := by
  obtain ⟨r, h1, h2, -⟩ := C37_automorphism triEx triTb triPos tri_places tri_locallyStable
    (quotient_of_periodic tri_connected) sixAff sixMat 0 sixAff_isAff
    ((Matrix.isUnit_iff_isUnit_det _).2 (by simp [sixMat, Matrix.det_fin_two])) 1 1 ⟨_, List.mem_cons_self, Or.inl rfl⟩
  have h3 : (automorphism triTb (Graph.new triEx) 1 1 sixAff >>= fun r => Outcome.ok r.isSome) = .ok true := by
    decide +kernel
  rw [h1] at h3
  cases r with
  | none => cases Outcome.ok.inj h3
  | some φ =>
    obtain ⟨-, vm, em, h4, h5, -⟩ := h2 φ rfl
    have hφ : IsAutomorphism triEx triPos φ sixMat 0 := ⟨vm, em, h4, h5⟩
    obtain ⟨i, x, y, h6, -, h7, -⟩ := C38_identity triEx triPos φ sixMat 0 hφ
    refine ⟨φ, i, hφ, h7, fun h => ?_⟩
    rw [C73_determined triEx triPos φ i _ _ _ _ hφ h7] at h
    obtain ⟨vm', em', h8, -⟩ := h7
    have h9 := (C38_eq triEx φ i _ _ _ _ _ _ _ _ h4 h8).1 h
    have h10 := congrFun (congrFun h9.2.2.1 0) 1
    simp [sixMat] at h10

end Systre
