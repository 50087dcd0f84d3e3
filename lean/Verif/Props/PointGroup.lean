import Verif.Props.Translations
import Verif.Props.Finder

/-!
# C89: the symmetries of a graph form a crystallographic group (`symmetries`, src/symmetries.rs)

What `symmetries` returns can be handed over to the functions for space groups: the linear parts form a finite group of
unimodular integer matrices, of orders 1, 2, 3, 4 or 6 as computed by `matrix_order`, that leave a scalar product
invariant; in the plane `crystal_system_and_basis_2d` finds the crystal system of the net from them.
The specification is in `Verif/Spec/Symmetries.lean` and `Verif/Spec/Finder.lean`.
-/

namespace Systre
open Finder

section
variable {T : Type} [LabelVector T] [LawfulLabelVector T]

theorem forall₂_left {α β : Type} {R : α → β → Prop} {l : List α} {m : List β} (h : List.Forall₂ R l m) :
    ∀ a ∈ l, ∃ b ∈ m, R a b := by
  induction h with
  | nil => simp
  | cons h _ ih =>
    intro a ha
    rcases List.mem_cons.1 ha with rfl | ha
    · exact ⟨_, by simp, h⟩
    · obtain ⟨b, hb, h'⟩ := ih a ha
      exact ⟨b, by simp [hb], h'⟩

theorem forall₂_right {α β : Type} {R : α → β → Prop} {l : List α} {m : List β} (h : List.Forall₂ R l m) :
    ∀ b ∈ m, ∃ a ∈ l, R a b := forall₂_left h.flip

/-- products of permutations belong to products of linear parts -/
theorem linearPart_mul {raw : List (Edge T)} {pos : Nat → Fin (LabelVector.dim T) → ℚ}
    (hsp : Submodule.span ℚ (edgeVecs raw pos) = ⊤) {a b c : Automorphism T}
    {A B C : Matrix (Fin (LabelVector.dim T)) (Fin (LabelVector.dim T)) ℚ} (ha : IsAutomorphism raw pos a A 0)
    (hb : IsAutomorphism raw pos b B 0) (hc : IsAutomorphism raw pos c C 0)
    (h : autPerm raw c = autPerm raw a * autPerm raw b) : C = A * B := by
  obtain ⟨vm1, em1, h1, h1'⟩ := ha
  obtain ⟨vm2, em2, h2, h2'⟩ := hb
  obtain ⟨vm3, em3, h3, h3'⟩ := hc
  refine (em_determines hsp h3' (h1'.comp h2') (fun e he => ?_)).2
  have := congrArg (fun σ => (σ ⟨e, he⟩).1) h
  simp only [Equiv.Perm.mul_apply] at this
  rw [autPerm_apply h3 h3', autPerm_apply h1 h1', autPerm_apply h2 h2'] at this
  exact this

theorem orderOf_crystallographic {n : Nat} (hn : n ≤ 3) {M : Matrix (Fin n) (Fin n) ℚ} (hM : 0 < orderOf M) :
    orderOf M ∈ [1, 2, 3, 4, 6] := by
  have h : orderOf M ∣ 4 ∨ orderOf M ∣ 6 := by
    rcases restriction hn M hM (pow_orderOf_eq_one M) with h | h
    · exact Or.inl (orderOf_dvd_of_pow_eq_one h)
    · exact Or.inr (orderOf_dvd_of_pow_eq_one h)
  generalize orderOf M = k at *
  have hk : k ≤ 6 := by
    rcases h with h | h
    · exact (Nat.le_of_dvd (by omega) h).trans (by omega)
    · exact Nat.le_of_dvd (by omega) h
  interval_cases k <;> simp_all <;> omega

/-- everything about the linear parts -/
theorem linearParts_all (raw : List (Edge T)) (tb : Outcome PosTable)
    (pos : Nat → Fin (LabelVector.dim T) → ℚ) (hp : Places tb (Graph.new raw) pos) (hs : LocallyStable raw pos)
    (hc : PeriodicConnected raw) (hne : raw ≠ []) :
    ∃ N l As, (∀ fuel, N ≤ fuel → symmetries fuel tb (Graph.new raw) = .ok l) ∧
      List.Forall₂ (fun φ A => IsAutomorphism raw pos φ A 0) l As ∧ IsFiniteGroupSet As ∧
      ((∀ γ, IsTranslation raw pos γ → ∀ v, IsVertex raw v → γ v = v) → As.Nodup) := by
  classical
  obtain ⟨N, l, h1, h2, h3, ⟨i, hi, hi'⟩, -⟩ := symmetries_all raw tb pos hp hs hc hne
  obtain ⟨e0, he0⟩ := List.exists_mem_of_ne_nil raw hne
  have hv0 : IsVertex raw e0.head := ⟨e0, he0, Or.inl rfl⟩
  have hsp := span_edgeVecs (pos := pos) hc hv0
  have hsp' := span_edgeVecs (pos := pos) (periodicConnected_new.2 hc) ((isVertex_new raw _).2 hv0)
  choose! L hL using fun a (ha : a ∈ l) => goodAut_isAutomorphism (h2.good a ha)
  have hL' : ∀ a ∈ l, IsAutomorphism (Graph.new raw).edges pos a (L a) 0 := by
    intro a ha
    obtain ⟨vm, em, h4, h5⟩ := hL a ha
    exact ⟨vm, em, stands_new.2 h4, isGraphAut_new.2 h5⟩
  have hmul : ∀ a ∈ l, ∀ b ∈ l, ∀ c ∈ l, autPerm (Graph.new raw).edges c =
      autPerm (Graph.new raw).edges a * autPerm (Graph.new raw).edges b → L c = L a * L b :=
    fun a ha b hb c hc => linearPart_mul hsp' (hL' a ha) (hL' b hb) (hL' c hc)
  refine ⟨N, l, l.map L, h1, ?_, ⟨?_, ?_, ?_⟩, ?_⟩
  · rw [List.forall₂_map_right_iff, List.forall₂_same]
    exact hL
  · rw [Ne, List.map_eq_nil_iff]
    rintro rfl
    exact absurd hi List.not_mem_nil
  · intro A hA B hB
    obtain ⟨a, ha, rfl⟩ := List.mem_map.1 hA
    obtain ⟨b, hb, rfl⟩ := List.mem_map.1 hB
    obtain ⟨c, hc, h⟩ := h2.mul ha hb
    rw [← hmul a ha b hb c hc h]
    exact List.mem_map_of_mem hc
  · intro A hA
    obtain ⟨a, ha, rfl⟩ := List.mem_map.1 hA
    obtain ⟨vm, em, -, h5⟩ := hL a ha
    have := h5.isUnit hsp
    rw [Matrix.isUnit_iff_isUnit_det, isUnit_iff_ne_zero] at this
    exact this
  · intro htr
    have hnd : l.Nodup := h3.of_map _
    refine List.Nodup.map_on ?_ hnd
    intro a ha b hb hab
    obtain ⟨b', hb', hbi⟩ := h2.inv hb
    obtain ⟨c, hcl, hcm⟩ := h2.mul ha hb'
    have hone : L i = 1 := by
      obtain ⟨j, h4, h5⟩ := stands_identity (Graph.new raw)
      rw [hi'] at h4
      cases h4
      obtain ⟨vm, em, h6, h7⟩ := hL' i hi
      exact (em_determines hsp' h7 (IsGraphAut.id _ pos) (fun e he => by
        rw [← autPerm_apply h6 h7 ⟨e, he⟩, autPerm_apply h5 (IsGraphAut.id _ pos)])).2
    have hione : autPerm (Graph.new raw).edges i = 1 := by
      obtain ⟨j, h4, h5⟩ := stands_identity (Graph.new raw)
      rw [hi'] at h4
      cases h4
      ext e : 2
      rw [autPerm_apply h5 (IsGraphAut.id _ pos)]; rfl
    have h6 : L b * L b' = 1 := by
      rw [← hone]
      exact (hmul b hb b' hb' i hi (by rw [hione, hbi]; simp)).symm
    have h7 : L c = 1 := by rw [hmul a ha b' hb' c hcl hcm, hab, h6]
    obtain ⟨vm, em, h8, h9⟩ := hL c hcl
    rw [h7] at h9
    have hfix := htr vm ⟨em, h9⟩
    -- so it fixes all edges, too
    have hu := StarMap.unique (locallyStable_new.2 hs) (quotient_of_periodic (periodicConnected_new.2 hc))
      (isGraphAut_new.2 h9).starMap (IsGraphAut.id (Graph.new raw).edges pos).starMap
      (v0 := e0.head) ((isVertex_new raw _).2 hv0) (hfix _ hv0)
    have hc1 : autPerm (Graph.new raw).edges c = 1 := by
      ext e : 2
      rw [autPerm_apply (stands_new.2 h8) (isGraphAut_new.2 (by rw [h7]; exact h9)), hu.2 e.1 e.2]; rfl
    rw [hc1, hbi] at hcm
    exact List.inj_on_of_nodup_map h3 ha hb (mul_inv_eq_one.1 hcm.symm)

/-- if all translations are lattice translations and no one moves a vertex to another one at the same place, then
all of them fix the vertices of the quotient graph -/
theorem fixes_of_full {raw : List (Edge T)} {pos : Nat → Fin (LabelVector.dim T) → ℚ} (h : LatticeIsFull raw pos)
    (h' : ¬ ∃ γ, IsLadderTranslation raw pos γ) : ∀ γ, IsTranslation raw pos γ → ∀ v, IsVertex raw v → γ v = v := by
  intro γ hγ v hv
  by_contra hne
  exact h' ⟨γ, hγ, v, hv, hne, h γ hγ v hv⟩

/-- C89: the linear parts of the symmetries of a graph form a finite group of integer matrices with determinant
1 or -1. If the lattice contains all translations of the graph (see `is_minimal`) and it is no ladder (see
`is_ladder`), they are all different. -/
theorem C89_group (raw : List (Edge T)) (tb : Outcome PosTable)
    (pos : Nat → Fin (LabelVector.dim T) → ℚ) (hp : Places tb (Graph.new raw) pos) (hs : LocallyStable raw pos)
    (hc : PeriodicConnected raw) (hne : raw ≠ []) :
    ∃ N l As, (∀ fuel, N ≤ fuel → symmetries fuel tb (Graph.new raw) = .ok l) ∧
      List.Forall₂ (fun φ A => IsAutomorphism raw pos φ A 0) l As ∧ IsFiniteGroupSet As ∧
      (∀ A ∈ As, ∃ M : Matrix (Fin (LabelVector.dim T)) (Fin (LabelVector.dim T)) ℤ,
        A = M.map (fun x : ℤ => (x : ℚ)) ∧ |M.det| = 1) ∧
      (LatticeIsFull raw pos → (¬ ∃ γ, IsLadderTranslation raw pos γ) → IsFiniteGroup As) := by
  obtain ⟨N, l, As, h1, h2, h3, h4⟩ := linearParts_all raw tb pos hp hs hc hne
  refine ⟨N, l, As, h1, h2, h3, fun A hA => ?_, fun h h' => ⟨h3, h4 (fixes_of_full h h')⟩⟩
  obtain ⟨φ, -, hφ⟩ := forall₂_right h2 A hA
  obtain ⟨vm, em, -, h⟩ := hφ
  exact C37_unimodular raw pos hc hne vm em A h

/-- C89: in dimensions up to three, `matrix_order` applied to the linear part of a symmetry gives its order, which
is 1, 2, 3, 4 or 6, and `OperatorDetails::from` accepts it. -/
theorem C89_order (hd : LabelVector.dim T ≤ 3) (raw : List (Edge T)) (tb : Outcome PosTable)
    (pos : Nat → Fin (LabelVector.dim T) → ℚ) (hp : Places tb (Graph.new raw) pos) (hs : LocallyStable raw pos)
    (hc : PeriodicConnected raw) (hne : raw ≠ []) :
    ∃ N l, (∀ fuel, N ≤ fuel → symmetries fuel tb (Graph.new raw) = .ok l) ∧
      ∀ φ ∈ l, ∃ A k, IsAutomorphism raw pos φ A 0 ∧ matrixOrder φ.transform.linear 6 = .ok k ∧
        k ∈ [1, 2, 3, 4, 6] ∧ A ^ k = 1 ∧ (∀ j, 1 ≤ j → j < k → A ^ j ≠ 1) ∧
        ∃ d, OperatorDetails.from φ.transform.linear = .ok d ∧ d.order = k ∧
          (d.isOrientationPreserving = true ↔ A.det = 1) := by
  obtain ⟨N, l, As, h1, h2, h3, -⟩ := linearParts_all raw tb pos hp hs hc hne
  refine ⟨N, l, h1, fun φ hφ => ?_⟩
  obtain ⟨A, hA, hφA⟩ := forall₂_left h2 φ hφ
  have hpos := h3.order_pos hA
  have hrep : Rep φ.transform.linear A := by
    obtain ⟨vm, em, h, -⟩ := hφA
    exact h.aff.1
  obtain ⟨d, d1, -, -, d2, d3, -⟩ := C57_details (LawfulLabelVector.dim_pos (T := T)) hd hrep
  refine ⟨A, orderOf A, hφA, C57_order_six hd hrep, orderOf_crystallographic hd hpos, pow_orderOf_eq_one A, ?_,
    d, d1, d2, ?_⟩
  · intro j hj hjk
    exact pow_ne_one_of_lt_orderOf (by omega) hjk
  · rw [d3]
    have := pow_orderOf_eq_one A
    have hdet : A.det ^ orderOf A = 1 := by rw [← Matrix.det_pow, this, Matrix.det_one]
    have habs : |A.det| = 1 := by
      have h5 : |A.det| ^ orderOf A = 1 := by rw [← abs_pow, hdet, abs_one]
      exact (pow_eq_one_iff_of_nonneg (abs_nonneg _) (by omega)).1 h5
    constructor
    · intro h; rwa [abs_of_nonneg h] at habs
    · intro h; rw [h]; norm_num

/-- C89: there is a positive definite scalar product for which all symmetries are isometries. -/
theorem C89_isometries (raw : List (Edge T)) (tb : Outcome PosTable)
    (pos : Nat → Fin (LabelVector.dim T) → ℚ) (hp : Places tb (Graph.new raw) pos) (hs : LocallyStable raw pos)
    (hc : PeriodicConnected raw) (hne : raw ≠ []) :
    ∃ N l, (∀ fuel, N ≤ fuel → symmetries fuel tb (Graph.new raw) = .ok l) ∧
      ∃ G : Matrix (Fin (LabelVector.dim T)) (Fin (LabelVector.dim T)) ℚ, G.IsSymm ∧ PosDefQ G ∧
        ∀ φ ∈ l, ∀ A, IsAutomorphism raw pos φ A 0 → A.transpose * G * A = G := by
  classical
  obtain ⟨N, l, As, h1, h2, h3, -⟩ := linearParts_all raw tb pos hp hs hc hne
  refine ⟨N, l, h1, ∑ A ∈ As.toFinset, A.transpose * A, ?_, ?_, ?_⟩
  · unfold Matrix.IsSymm
    rw [Matrix.transpose_sum]
    refine Finset.sum_congr rfl (fun A _ => ?_)
    rw [Matrix.transpose_mul, Matrix.transpose_transpose]
  · intro x hx
    rw [Matrix.sum_mulVec, dotProduct_sum]
    have hq : ∀ A : Matrix (Fin (LabelVector.dim T)) (Fin (LabelVector.dim T)) ℚ,
        x ⬝ᵥ (A.transpose * A).mulVec x = A.mulVec x ⬝ᵥ A.mulVec x := by
      intro A
      rw [← Matrix.mulVec_mulVec, Matrix.dotProduct_mulVec, Matrix.vecMul_transpose]
    obtain ⟨A, hA⟩ := List.exists_mem_of_ne_nil As h3.nonempty
    refine Finset.sum_pos' (fun B _ => ?_) ⟨A, List.mem_toFinset.2 hA, ?_⟩
    · rw [hq]; exact Finset.sum_nonneg (fun i _ => mul_self_nonneg _)
    · rw [hq]
      have hne : A.mulVec x ≠ 0 := fun h => hx (Matrix.eq_zero_of_mulVec_eq_zero (h3.det A hA) h)
      obtain ⟨i, hi⟩ := Function.ne_iff.1 hne
      exact Finset.sum_pos' (fun j _ => mul_self_nonneg _) ⟨i, Finset.mem_univ _, mul_self_pos.2 hi⟩
  · intro φ hφ A hA
    obtain ⟨B, hB, hφB⟩ := forall₂_left h2 φ hφ
    have hAB : A = B := by
      obtain ⟨vm, em, h, -⟩ := hA
      obtain ⟨vm', em', h', -⟩ := hφB
      exact h.aff.1.inj h'.aff.1
    subst hAB
    rw [Finset.mul_sum, Finset.sum_mul]
    have hU : IsUnit A := by
      rw [Matrix.isUnit_iff_isUnit_det, isUnit_iff_ne_zero]; exact h3.det A hB
    have hinj : Function.Injective (fun C : Matrix (Fin (LabelVector.dim T)) (Fin (LabelVector.dim T)) ℚ => C * A) :=
      fun C D h => hU.mul_right_cancel h
    have himg : As.toFinset.image (fun C => C * A) = As.toFinset := by
      apply Finset.eq_of_subset_of_card_le
      · intro D hD
        obtain ⟨C, hC, rfl⟩ := Finset.mem_image.1 hD
        exact List.mem_toFinset.2 (h3.mul C (List.mem_toFinset.1 hC) A hB)
      · rw [Finset.card_image_of_injective _ hinj]
    conv_rhs => rw [← himg, Finset.sum_image (fun C _ D _ h => hinj h)]
    refine Finset.sum_congr rfl (fun C _ => ?_)
    rw [Matrix.transpose_mul]
    simp only [Matrix.mul_assoc]

end

/-- C89: for a plane graph that is no ladder and whose lattice contains all its translations,
`crystal_system_and_basis_2d` applied to the linear parts of what `symmetries` returns gives the crystal system of
these symmetries and a right-handed basis: hexagonal exactly if a symmetry has order three, square exactly if one has order four, otherwise
rectangular if there is a reflection and oblique if there is none; the first basis vector is fixed by a reflection
if there is one. -/
theorem C89_crystal_system (raw : List (Edge V2)) (tb : Outcome PosTable)
    (pos : Nat → Fin (LabelVector.dim V2) → ℚ) (hp : Places tb (Graph.new raw) pos) (hs : LocallyStable raw pos)
    (hc : PeriodicConnected raw) (hne : raw ≠ [])
    (hfull : LatticeIsFull raw pos) (hladder : ¬ ∃ γ, IsLadderTranslation raw pos γ) :
    ∃ N l s x y X Y, (∀ fuel, N ≤ fuel → symmetries fuel tb (Graph.new raw) = .ok l) ∧
      crystalSystemAndBasis2d (l.map (fun φ => φ.transform.linear)) = .ok (s, [x, y]) ∧
      IsVec ⟨x⟩ X ∧ IsVec ⟨y⟩ Y ∧ 0 < (Matrix.of ![X, Y]).det ∧
      (s = .hexagonal ↔ ∃ φ ∈ l, matrixOrder φ.transform.linear 6 = .ok 3) ∧
      (s = .square ↔ ∃ φ ∈ l, matrixOrder φ.transform.linear 6 = .ok 4) ∧
      (s = .rectangular ↔ (∀ φ ∈ l, ∃ k ≤ 2, matrixOrder φ.transform.linear 6 = .ok k) ∧
        ∃ φ ∈ l, ∃ A : Matrix (Fin 2) (Fin 2) ℚ, IsAutomorphism raw pos φ A 0 ∧ A.det = -1) ∧
      (s = .oblique ↔ (∀ φ ∈ l, ∃ k ≤ 2, matrixOrder φ.transform.linear 6 = .ok k) ∧
        ∀ φ ∈ l, ∀ A : Matrix (Fin 2) (Fin 2) ℚ, IsAutomorphism raw pos φ A 0 → A.det = 1) ∧
      ((∃ φ ∈ l, ∃ A : Matrix (Fin 2) (Fin 2) ℚ, IsAutomorphism raw pos φ A 0 ∧ A.det = -1) →
        ∃ φ ∈ l, ∃ A : Matrix (Fin 2) (Fin 2) ℚ, IsAutomorphism raw pos φ A 0 ∧ A.det = -1 ∧ A.mulVec X = X) := by
  obtain ⟨N, l, As, h1, h2, h3, h4⟩ := linearParts_all raw tb pos hp hs hc hne
  have h2' : List.Forall₂ (fun m (M : Matrix (Fin 2) (Fin 2) ℚ) => Rep m M) (l.map (fun φ => φ.transform.linear)) As := by
    rw [List.forall₂_map_left_iff]
    exact h2.imp (fun φ A hA => by obtain ⟨vm, em, h, -⟩ := hA; exact h.aff.1)
  obtain ⟨s, x, y, X, Y, c1, c2, c3, c4, c5, c6, c7, c8, c9, -⟩ := C65_crystal_system_2d h2' ⟨h3, h4 (fixes_of_full hfull hladder)⟩
  have hord : ∀ φ A, IsAutomorphism raw pos φ A 0 → matrixOrder φ.transform.linear 6 = .ok (orderOf A) := by
    rintro φ A ⟨vm, em, h, -⟩
    exact C57_order_six (by show 2 ≤ 3; omega) h.aff.1
  have hex : ∀ k, (∃ M ∈ As, orderOf M = k) ↔ ∃ φ ∈ l, matrixOrder φ.transform.linear 6 = .ok k := by
    intro k
    constructor
    · rintro ⟨M, hM, rfl⟩
      obtain ⟨φ, hφ, h⟩ := forall₂_right h2 M hM
      exact ⟨φ, hφ, hord φ M h⟩
    · rintro ⟨φ, hφ, h⟩
      obtain ⟨A, hA, h'⟩ := forall₂_left h2 φ hφ
      rw [hord φ A h'] at h
      exact ⟨A, hA, Outcome.ok.inj h⟩
  have hmir : ∀ P : Matrix (Fin 2) (Fin 2) ℚ → Prop, (∃ M ∈ As, P M) ↔
      ∃ φ ∈ l, ∃ A : Matrix (Fin 2) (Fin 2) ℚ, IsAutomorphism raw pos φ A 0 ∧ P A := by
    intro P
    constructor
    · rintro ⟨M, hM, h⟩
      obtain ⟨φ, hφ, h'⟩ := forall₂_right h2 M hM
      exact ⟨φ, hφ, M, h', h⟩
    · rintro ⟨φ, hφ, A, ⟨vm, em, h, -⟩, hP⟩
      obtain ⟨B, hB, ⟨vm', em', h', -⟩⟩ := forall₂_left h2 φ hφ
      rw [h.aff.1.inj h'.aff.1] at hP
      exact ⟨B, hB, hP⟩
  have hle : (∀ M ∈ As, orderOf M ≤ 2) ↔ ∀ φ ∈ l, ∃ k ≤ 2, matrixOrder φ.transform.linear 6 = .ok k := by
    constructor
    · intro h φ hφ
      obtain ⟨A, hA, h'⟩ := forall₂_left h2 φ hφ
      exact ⟨_, h A hA, hord φ A h'⟩
    · intro h A hA
      obtain ⟨φ, hφ, h'⟩ := forall₂_right h2 A hA
      obtain ⟨k, hk, hk'⟩ := h φ hφ
      rw [hord φ A h'] at hk'
      rw [Outcome.ok.inj hk']; exact hk
  refine ⟨N, l, s, x, y, X, Y, h1, c1, c2, c3, c4, c5.trans (hex 3), c6.trans (hex 4), ?_, ?_, ?_⟩
  · refine c7.trans ((and_congr_right' (hmir (fun M => M.det = -1))).trans (and_congr_left (fun _ => ?_)))
    exact hle
  · refine c8.trans ⟨fun h => ⟨hle.1 (fun M hM => (h M hM).1), ?_⟩, fun h M hM => ⟨hle.2 h.1 M hM, ?_⟩⟩
    · rintro φ hφ A ⟨vm, em, h5, -⟩
      obtain ⟨B, hB, ⟨vm', em', h', -⟩⟩ := forall₂_left h2 φ hφ
      rw [h5.aff.1.inj h'.aff.1]
      exact (h B hB).2
    · obtain ⟨φ, hφ, h'⟩ := forall₂_right h2 M hM
      exact h.2 φ hφ M h'
  · exact fun h => (hmir (fun M => M.det = -1 ∧ M.mulVec X = X)).1 (c9 ((hmir (fun M => M.det = -1)).2 h))

/-! ## Witnesses -/

theorem hcb_zero' : ∀ v ∈ (Graph.new hcbEx).vertices.head?, hcbPos v = 0 := by
  have hv : (Graph.new hcbEx).vertices.head? = some 1 := by decide +kernel
  intro v h
  rw [hv] at h
  cases h
  decide +kernel

theorem hcb_noLadder : ¬ ∃ γ, IsLadderTranslation hcbEx hcbPos γ := by
  obtain ⟨b, h1, h2⟩ := C64_is_ladder hcbEx hcbTb hcbPos hcb_places hcb_locallyStable hcb_connected (by decide)
    hcb_zero'
  rw [← h2]
  have h3 : isLadder hcbTb (Graph.new hcbEx) = .ok false := by decide +kernel
  rw [h1] at h3
  rw [Outcome.ok.inj h3]
  decide

theorem hcb_full : LatticeIsFull hcbEx hcbPos := by
  obtain ⟨b, h1, h2⟩ := C42_is_minimal hcbEx hcbTb hcbPos hcb_places hcb_locallyStable hcb_connected (by decide)
    (by
      have hv : (Graph.new hcbEx).vertices.length = 2 := by decide +kernel
      omega) hcb_zero'
  rw [← h2]
  have h3 : isMinimal hcbTb (Graph.new hcbEx) = .ok true := by decide +kernel
  rw [h1] at h3
  rw [Outcome.ok.inj h3]

/-- the hypotheses hold for the honeycomb -/
example := C89_group hcbEx hcbTb hcbPos hcb_places hcb_locallyStable hcb_connected (by decide)
example := C89_order (by decide) hcbEx hcbTb hcbPos hcb_places hcb_locallyStable hcb_connected (by decide)
example := C89_isometries hcbEx hcbTb hcbPos hcb_places hcb_locallyStable hcb_connected (by decide)
example := C89_crystal_system hcbEx hcbTb hcbPos hcb_places hcb_locallyStable hcb_connected (by decide) hcb_full
  hcb_noLadder

set_option maxRecDepth 100000 in
/-- its system is hexagonal -/
example : (symmetries 13 hcbTb (Graph.new hcbEx) >>= fun l => do
    let (s, _) ← crystalSystemAndBasis2d (l.map (fun φ => φ.transform.linear))
    Outcome.ok s) = .ok .hexagonal := by decide +kernel

end Systre
