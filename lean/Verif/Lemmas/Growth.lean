import Verif.Lemmas.Measures
import Verif.Lemmas.Shells
import Verif.Lemmas.Coords
import Mathlib.Data.Set.Card.Arithmetic
import Mathlib.Data.Finset.Card
import Mathlib.Data.Int.Interval

/-!
# Lemmas for C86: balls and spheres of the infinite graph
-/

namespace Systre

variable {T : Type} [LabelVector T] [LawfulLabelVector T] {raw : List (Edge T)} {a : Nat × T}

theorem joined_iff_walk {b : Nat × T} : Joined raw a b ↔ ∃ n, Walk raw n a b := by
  constructor
  · intro h
    induction h with
    | refl => exact ⟨0, Walk.here a⟩
    | tail _ h2 ih =>
      obtain ⟨n, hn⟩ := ih
      exact ⟨n + 1, Walk.step hn h2⟩
  · rintro ⟨n, h⟩
    induction h with
    | here => exact Relation.ReflTransGen.refl
    | step _ h2 ih => exact Relation.ReflTransGen.tail ih h2

theorem Walk.trans {m n : Nat} {b c : Nat × T} (h : Walk raw m a b) (h' : Walk raw n b c) : Walk raw (m + n) a c := by
  induction h' with
  | here => exact h
  | step _ h2 ih => rw [← Nat.add_assoc]; exact Walk.step (ih h) h2

theorem walk_translate {n : Nat} {b : Nat × T} (h : Walk raw n a b) (t : T) :
    Walk raw n (a.1, a.2 + t) (b.1, b.2 + t) := by
  induction h with
  | here => exact Walk.here _
  | step _ h2 ih =>
    refine Walk.step ih ?_
    obtain ⟨e, he, h3, h4, h5⟩ := h2
    exact ⟨e, he, h3, h4, by simp only; rw [← h5]; abel⟩

/-- the sphere -/
def sphere (raw : List (Edge T)) (a : Nat × T) (k : Nat) : Set (Nat × T) := {x | AtDistance raw k a x}

/-- the ball -/
def ball (raw : List (Edge T)) (a : Nat × T) (k : Nat) : Set (Nat × T) := {x | ∃ m, m ≤ k ∧ Walk raw m a x}

theorem sphere_zero : sphere raw a 0 = {a} := by
  ext x
  constructor
  · intro h; exact h.1.zero_eq
  · rintro rfl; exact ⟨Walk.here _, fun m hm => absurd hm (Nat.not_lt_zero m)⟩

theorem ball_zero : ball raw a 0 = {a} := by
  ext x
  constructor
  · rintro ⟨m, hm, h⟩
    obtain rfl : m = 0 := by omega
    exact h.zero_eq
  · rintro rfl; exact ⟨0, le_rfl, Walk.here _⟩

theorem ball_succ (k : Nat) : ball raw a (k + 1) = ball raw a k ∪ sphere raw a (k + 1) := by
  ext x
  constructor
  · rintro ⟨m, hm, h⟩
    obtain ⟨j, hj, hd⟩ := exists_atDistance h
    rcases Nat.lt_or_ge j (k + 1) with h1 | h1
    · exact Or.inl ⟨j, by omega, hd.1⟩
    · obtain rfl : j = k + 1 := by omega
      exact Or.inr hd
  · rintro (⟨m, hm, h⟩ | h)
    · exact ⟨m, by omega, h⟩
    · exact ⟨k + 1, le_rfl, h.1⟩

theorem ball_disjoint (k : Nat) : Disjoint (ball raw a k) (sphere raw a (k + 1)) := by
  rw [Set.disjoint_left]
  rintro x ⟨m, hm, h⟩ h'
  exact h'.2 m (by omega) h

theorem ball_card (hf : ∀ k, (sphere raw a (k + 1)).Finite) (k : Nat) :
    (ball raw a k).Finite ∧ (ball raw a k).ncard = 1 + ∑ i ∈ Finset.range k, (sphere raw a (i + 1)).ncard := by
  induction k with
  | zero => rw [ball_zero]; simp
  | succ k ih =>
    rw [ball_succ]
    refine ⟨ih.1.union (hf k), ?_⟩
    rw [Set.ncard_union_eq (ball_disjoint k) ih.1 (hf k), ih.2, Finset.sum_range_succ, add_assoc]

theorem sphere_pred {k : Nat} {x : Nat × T} (h : x ∈ sphere raw a (k + 1)) : ∃ b ∈ sphere raw a k, Adj raw b x := by
  obtain ⟨b, h1, h2⟩ := h.1.uncons
  exact ⟨b, ⟨h1, fun m hm h3 => h.2 (m + 1) (by omega) (Walk.step h3 h2)⟩, h2⟩

theorem sphere_empty {k m : Nat} (h : sphere raw a k = ∅) (hkm : k ≤ m) : sphere raw a m = ∅ := by
  induction m, hkm using Nat.le_induction with
  | base => exact h
  | succ m _ ih =>
    by_contra hne
    obtain ⟨x, hx⟩ := Set.nonempty_iff_ne_empty.2 hne
    obtain ⟨b, hb, -⟩ := sphere_pred hx
    rw [ih] at hb
    exact hb

theorem component_eq (k : Nat) (h : sphere raw a (k + 1) = ∅) : {x | Joined raw a x} = ball raw a k := by
  ext x
  constructor
  · intro hj
    obtain ⟨n, hn⟩ := joined_iff_walk.1 hj
    obtain ⟨m, -, hd⟩ := exists_atDistance hn
    refine ⟨m, ?_, hd.1⟩
    by_contra hlt
    have : sphere raw a m = ∅ := sphere_empty h (by omega)
    exact Set.eq_empty_iff_forall_notMem.1 this x hd
  · rintro ⟨m, -, h⟩
    exact joined_iff_walk.2 ⟨m, h⟩

theorem ball_subset (k : Nat) : ball raw a k ⊆ {x | Joined raw a x} := by
  rintro x ⟨m, -, h⟩
  exact joined_iff_walk.2 ⟨m, h⟩

theorem infinite_iff (hf : ∀ k, (sphere raw a (k + 1)).Finite) :
    {x | Joined raw a x}.Infinite ↔ ∀ k, 0 < (sphere raw a (k + 1)).ncard := by
  constructor
  · intro h k
    rw [Set.ncard_pos (hf k), Set.nonempty_iff_ne_empty]
    intro h0
    apply h
    rw [component_eq k h0]
    exact (ball_card hf k).1
  · intro h hfin
    have h1 : ∀ k, k ≤ (ball raw a k).ncard := by
      intro k
      rw [(ball_card hf k).2]
      have : ∑ i ∈ Finset.range k, 1 ≤ ∑ i ∈ Finset.range k, (sphere raw a (i + 1)).ncard :=
        Finset.sum_le_sum fun i _ => h i
      simp at this
      omega
    have h2 := h1 ({x | Joined raw a x}.ncard + 1)
    have h3 := Set.ncard_le_ncard (ball_subset (raw := raw) (a := a) ({x | Joined raw a x}.ncard + 1)) hfin
    omega

/-- the neighbours of a vertex of the infinite graph -/
def nbrs (raw : List (Edge T)) (b : Nat × T) : Set (Nat × T) := {x | Adj raw b x}

theorem sphere_one : sphere raw a 1 = nbrs raw a \ {a} := by
  ext x
  constructor
  · intro h
    obtain ⟨b, hb, h2⟩ := sphere_pred h
    rw [sphere_zero] at hb
    rw [Set.mem_singleton_iff.1 hb] at h2
    refine ⟨h2, fun hx => ?_⟩
    rw [Set.mem_singleton_iff.1 hx] at h
    exact h.2 0 (by omega) (Walk.here _)
  · rintro ⟨h1, h2⟩
    refine ⟨Walk.step (Walk.here _) h1, fun m hm h => h2 ?_⟩
    obtain rfl : m = 0 := by omega
    exact h.zero_eq

theorem sphere_step (hf : ∀ k, (sphere raw a (k + 1)).Finite) {D : Nat}
    (hn : ∀ b ∈ {x | Joined raw a x}, (nbrs raw b).Finite ∧ (nbrs raw b).ncard ≤ D) (k : Nat) :
    (sphere raw a (k + 2)).ncard ≤ (sphere raw a (k + 1)).ncard * (D - 1) := by
  have hj : ∀ b ∈ sphere raw a (k + 1), b ∈ {x | Joined raw a x} := fun b hb => joined_iff_walk.2 ⟨_, hb.1⟩
  have hsub : sphere raw a (k + 2) ⊆ ⋃ b ∈ (hf k).toFinset, (nbrs raw b \ sphere raw a k) := by
    intro x hx
    obtain ⟨b, hb, h2⟩ := sphere_pred hx
    rw [Set.mem_iUnion₂]
    refine ⟨b, (hf k).mem_toFinset.2 hb, h2, fun h3 => ?_⟩
    have := atDistance_unique hx h3
    omega
  have hfin : ∀ b ∈ (hf k).toFinset, (nbrs raw b \ sphere raw a k).Finite ∧
      (nbrs raw b \ sphere raw a k).ncard ≤ D - 1 := by
    intro b hb
    rw [(hf k).mem_toFinset] at hb
    obtain ⟨h1, h2⟩ := hn b (hj b hb)
    refine ⟨h1.subset Set.diff_subset, ?_⟩
    obtain ⟨c, hc, h3⟩ := sphere_pred hb
    have hlt : (nbrs raw b \ sphere raw a k).ncard < (nbrs raw b).ncard := by
      refine Set.ncard_lt_ncard ⟨Set.diff_subset, fun h => ?_⟩ h1
      exact (h (show c ∈ nbrs raw b from h3.symm)).2 hc
    omega
  have hunion : (⋃ b ∈ (hf k).toFinset, (nbrs raw b \ sphere raw a k)).Finite :=
    (hf k).toFinset.finite_toSet.biUnion fun b hb => (hfin b hb).1
  refine (Set.ncard_le_ncard hsub hunion).trans ?_
  refine (Finset.set_ncard_biUnion_le _ _).trans ?_
  refine (Finset.sum_le_card_nsmul _ _ (D - 1) fun b hb => (hfin b hb).2).trans ?_
  rw [smul_eq_mul, ← Set.ncard_eq_toFinset_card _ (hf k)]

/-! ### growth -/

theorem walk_bound {M : Int} (hM : ∀ e, IsDirected raw e → ∀ i, |vecAdd e.shift i| ≤ M) {n : Nat} {b : Nat × T}
    (h : Walk raw n a b) (ha : a.2 = 0) (i : Fin (LabelVector.dim T)) : |vecAdd b.2 i| ≤ n * M := by
  induction h with
  | here => rw [ha, map_zero]; simp
  | @step n x y z _ h2 ih =>
    obtain ⟨e, he, -, -, h3⟩ := h2
    rw [← h3, map_add]
    have := hM e he i
    have h4 := abs_add_le (vecAdd y.2 i) (vecAdd e.shift i)
    rw [Pi.add_apply]
    push_cast
    linarith [ih ha]

theorem walk_vertex {n : Nat} {b : Nat × T} (h : Walk raw n a b) (ha : IsVertex raw a.1) : IsVertex raw b.1 := by
  cases h with
  | here => exact ha
  | step _ h2 =>
    obtain ⟨e, he, -, h3, -⟩ := h2
    rw [← h3]
    rcases he with he | he
    · exact ⟨e, he, Or.inr rfl⟩
    · exact ⟨_, he, Or.inl rfl⟩

/-- the vectors of the translations of a component -/
theorem lattice_coords (v : Nat) :
    ∃ κ : Finset (Fin (LabelVector.dim T)),
      κ.card = Module.finrank ℤ (AddSubgroup.toIntSubmodule (cycleLattice raw v)) ∧
      ∀ t, Joined raw (v, 0) (v, t) → (∀ i ∈ κ, vecAdd t i = 0) → t = 0 := by
  let N := AddSubgroup.toIntSubmodule (cycleLattice raw v)
  let φ : T ≃ₗ[ℤ] (Fin (LabelVector.dim T) → ℤ) := (vecAdd (T := T)).toIntLinearEquiv
  obtain ⟨κ, h1, h2⟩ := exists_coords (N.map φ.toLinearMap)
  refine ⟨κ, h1.trans (LinearEquiv.finrank_eq (φ.submoduleMap N)).symm, fun t ht h0 => ?_⟩
  have h3 := h2 (φ t) ⟨t, mem_cycleLattice.2 ht, rfl⟩ h0
  exact (LinearEquiv.map_eq_zero_iff φ).1 h3

theorem ball_upper {vs : List Nat} (hvs : ∀ v, IsVertex raw v → v ∈ vs) {M : Nat}
    (hM : ∀ e, IsDirected raw e → ∀ i, |vecAdd e.shift i| ≤ M) (ha : a.2 = 0) (hv : IsVertex raw a.1) (k : Nat) :
    (ball raw a k).ncard ≤
      vs.length * (2 * (k * M) + 1) ^ Module.finrank ℤ (AddSubgroup.toIntSubmodule (cycleLattice raw a.1)) := by
  classical
  obtain ⟨v, z⟩ := a
  obtain rfl : z = 0 := ha
  obtain ⟨κ, hκ, hdet⟩ := lattice_coords (raw := raw) (T := T) v
  let box : Finset (κ → ℤ) := Fintype.piFinset fun _ => Finset.Icc (-((k * M : ℕ) : ℤ)) ((k * M : ℕ) : ℤ)
  let S : Finset (ℕ × (κ → ℤ)) := vs.toFinset ×ˢ box
  have hinj : Set.InjOn (fun x : Nat × T => (x.1, fun i : κ => vecAdd x.2 i)) (ball raw (v, 0) k) := by
    rintro ⟨x, s⟩ hs ⟨y, t⟩ ht h
    obtain ⟨h1, h2⟩ := Prod.mk.inj h
    obtain rfl : x = y := h1
    have h3 := joined_translate (joined_symm (ball_subset k hs)) (t - s)
    simp only [zero_add, add_sub_cancel] at h3
    have h4 := hdet (t - s) (Relation.ReflTransGen.trans (ball_subset k ht) h3) fun i hi => by
      have h5 := congrFun h2 ⟨i, hi⟩
      simp only at h5
      rw [map_sub, Pi.sub_apply, h5, sub_self]
    rw [sub_eq_zero.1 h4]
  have hmaps : ∀ x ∈ ball raw (v, 0) k, (fun x : Nat × T => (x.1, fun i : κ => vecAdd x.2 i)) x ∈ (S : Set _) := by
    rintro x ⟨m, hm, hw⟩
    rw [Finset.mem_coe, Finset.mem_product, List.mem_toFinset, Fintype.mem_piFinset]
    refine ⟨hvs _ (walk_vertex hw hv), fun i => ?_⟩
    rw [Finset.mem_Icc, ← abs_le]
    refine (walk_bound hM hw rfl i).trans ?_
    push_cast
    exact mul_le_mul_of_nonneg_right (by exact_mod_cast hm) (Int.natCast_nonneg _)
  have h1 := Set.ncard_le_ncard_of_injOn _ hmaps hinj (Finset.finite_toSet S)
  rw [Set.ncard_coe_finset] at h1
  refine h1.trans ?_
  rw [Finset.card_product, Fintype.card_piFinset, ← hκ]
  refine Nat.mul_le_mul (List.toFinset_card_le vs) (le_of_eq ?_)
  rw [Finset.prod_const, Int.card_Icc, Finset.card_univ, Fintype.card_coe]
  congr 1
  omega

theorem walk_nsmul {v : Nat} {l : Nat} {t : T} (h : Walk raw l (v, 0) (v, t)) (n : Nat) :
    Walk raw (n * l) (v, 0) (v, n • t) := by
  induction n with
  | zero => rw [Nat.zero_mul, zero_nsmul]; exact Walk.here _
  | succ n ih =>
    rw [Nat.succ_mul, succ_nsmul]
    have := walk_translate h (n • t)
    simp only [zero_add] at this
    rw [add_comm (n • t)]
    exact ih.trans this

theorem walk_combination {v : Nat} {ι : Type} [DecidableEq ι] (l : ι → Nat) (t : ι → T)
    (h : ∀ i, Walk raw (l i) (v, 0) (v, t i)) (n : ι → Nat) (s : Finset ι) :
    Walk raw (∑ i ∈ s, n i * l i) (v, 0) (v, ∑ i ∈ s, n i • t i) := by
  induction s using Finset.induction_on with
  | empty => exact Walk.here _
  | insert i s hi ih =>
    rw [Finset.sum_insert hi, Finset.sum_insert hi]
    have := walk_translate ih (n i • t i)
    simp only [zero_add] at this
    rw [add_comm (n i • t i)]
    exact (walk_nsmul (h i) (n i)).trans this

instance freeT : Module.Free ℤ T := Module.Free.of_equiv (vecAdd (T := T)).toIntLinearEquiv.symm
instance finiteT : Module.Finite ℤ T := Module.Finite.equiv (vecAdd (T := T)).toIntLinearEquiv.symm

theorem ball_lower (hf : ∀ k, (sphere raw a (k + 1)).Finite) (ha : a.2 = 0) :
    ∃ L, 0 < L ∧ ∀ k, (k + 1) ^ Module.finrank ℤ (AddSubgroup.toIntSubmodule (cycleLattice raw a.1)) ≤
      (ball raw a (k * L)).ncard := by
  classical
  obtain ⟨v, z⟩ := a
  obtain rfl : z = 0 := ha
  let N := AddSubgroup.toIntSubmodule (cycleLattice raw v)
  let b := Module.finBasis ℤ N
  have hw : ∀ i, ∃ l, Walk raw l (v, 0) (v, ((b i : N) : T)) := fun i =>
    joined_iff_walk.1 (mem_cycleLattice.1 (show ((b i : N) : T) ∈ cycleLattice raw v from (b i).2))
  choose l hl using hw
  refine ⟨∑ i, l i + 1, by omega, fun k => ?_⟩
  let f : (Fin (Module.finrank ℤ N) → Fin (k + 1)) → Nat × T := fun n => (v, ∑ i, (n i).1 • ((b i : N) : T))
  have hinj : Function.Injective f := by
    intro n n' h
    have h1 : ∑ i, (n i).1 • ((b i : N) : T) = ∑ i, (n' i).1 • ((b i : N) : T) := (Prod.mk.inj h).2
    have h2 : ∑ i, ((n i).1 : ℤ) • b i = ∑ i, ((n' i).1 : ℤ) • b i := by
      apply Subtype.ext
      push_cast
      simpa only [natCast_zsmul] using h1
    funext i
    have h3 := congrArg (fun x => b.repr x i) h2
    simp only [map_sum, map_smul, Module.Basis.repr_self, Finsupp.coe_finset_sum, Finset.sum_apply, Finsupp.smul_apply,
      Finsupp.single_apply, smul_eq_mul, mul_ite, mul_one, mul_zero, Finset.sum_ite_eq', Finset.mem_univ, if_true] at h3
    exact Fin.ext (by exact_mod_cast h3)
  have hmem : ∀ n ∈ (Set.univ : Set (Fin (Module.finrank ℤ N) → Fin (k + 1))), f n ∈ ball raw (v, 0) (k * (∑ i, l i + 1)) := by
    intro n _
    refine ⟨_, ?_, walk_combination l (fun i => ((b i : N) : T)) hl (fun i => (n i).1) Finset.univ⟩
    calc ∑ i, (n i).1 * l i ≤ ∑ i, k * l i := Finset.sum_le_sum fun i _ => Nat.mul_le_mul_right _ (by omega)
      _ = k * ∑ i, l i := by rw [Finset.mul_sum]
      _ ≤ _ := Nat.mul_le_mul_left _ (by omega)
  have h1 := Set.ncard_le_ncard_of_injOn f hmem hinj.injOn (ball_card hf _).1
  rw [Set.ncard_univ, Nat.card_eq_fintype_card, Fintype.card_fun, Fintype.card_fin, Fintype.card_fin] at h1
  exact h1

/-- the component is infinite exactly if its lattice of translations is not trivial -/
theorem infinite_iff_rank {vs : List Nat} (hvs : ∀ v, IsVertex raw v → v ∈ vs) {v : Nat} (hv : IsVertex raw v) :
    {x | Joined raw (v, 0) x}.Infinite ↔ 0 < Module.finrank ℤ (AddSubgroup.toIntSubmodule (cycleLattice raw v)) := by
  rw [Nat.pos_iff_ne_zero, Ne, Submodule.finrank_eq_zero]
  refine not_congr (Iff.symm ?_)
  constructor
  · intro h
    have hz : ∀ t, Joined raw (v, 0) (v, t) → t = 0 := by
      intro t ht
      have h1 : t ∈ AddSubgroup.toIntSubmodule (cycleLattice raw v) := mem_cycleLattice.2 ht
      rw [h] at h1
      exact (Submodule.mem_bot ℤ).1 h1
    have hinj : Set.InjOn (fun x : Nat × T => x.1) {x | Joined raw (v, 0) x} := by
      rintro ⟨x, s⟩ hs ⟨y, t⟩ ht hxy
      obtain rfl : x = y := hxy
      have h1 := joined_translate (joined_symm hs) (t - s)
      simp only [zero_add, add_sub_cancel] at h1
      have h2 := hz (t - s) (Relation.ReflTransGen.trans ht (joined_symm (joined_symm h1)))
      rw [sub_eq_zero.1 h2]
    refine Set.Finite.of_injOn (t := {x | x ∈ vs}) ?_ hinj (List.finite_toSet vs)
    intro x hx
    obtain ⟨n, hn⟩ := joined_iff_walk.1 hx
    exact hvs _ (walk_vertex hn hv)
  · intro hfin
    rw [eq_bot_iff]
    intro t ht
    rw [Submodule.mem_bot]
    by_contra h0
    have hinj : Function.Injective (fun n : ℕ => ((v, (n : ℤ) • t) : Nat × T)) := by
      intro m n h
      have h1 : (m : ℤ) • t = (n : ℤ) • t := (Prod.mk.inj h).2
      exact_mod_cast smul_left_injective ℤ h0 h1
    refine Set.infinite_of_injective_forall_mem hinj (fun n => ?_) hfin
    exact mem_cycleLattice.1 ((AddSubgroup.toIntSubmodule (cycleLattice raw v)).smul_mem _ ht)

end Systre
