import Verif.Spec.SpaceGroups
import Verif.Lemmas.Generate
import Verif.Lemmas.LinAlgRep
import Verif.Lemmas.Geometry

/-! Helper lemmas about `shift_space` and `gram_matrix_configuration_space`. -/

namespace Systre
namespace SpaceGroups
open Submodule Matrix

theorem rowSpan_perp {n : Nat} {A B : Set (List ℚ)}
    (h : span ℚ (rowVec n '' A) = span ℚ (rowVec n '' B)) (y : Fin n → ℚ) :
    (∀ v ∈ A, rowVec n v ⬝ᵥ y = 0) → ∀ v ∈ B, rowVec n v ⬝ᵥ y = 0 := by
  intro hA v hv
  have hm : rowVec n v ∈ span ℚ (rowVec n '' A) := by
    rw [h]; exact subset_span ⟨v, hv, rfl⟩
  generalize rowVec n v = u at hm
  induction hm using Submodule.span_induction with
  | mem x hx => obtain ⟨w, hw, rfl⟩ := hx; exact hA w hw
  | zero => exact zero_dotProduct y
  | add x z _ _ hx hz => rw [add_dotProduct, hx, hz, add_zero]
  | smul c x _ hx => rw [smul_dotProduct, hx, smul_zero]

/-- the part shared by the two functions -/
theorem kernel_rows {n : Nat} (vs : List (List ℚ)) (h : ∀ v ∈ vs, v.length = n) :
    ∃ bs, extendAll vs [] = .ok bs ∧ (bs = [] ↔ ∀ v ∈ vs, rowVec n v = 0) ∧
      (bs ≠ [] → ∃ m r, stackRows bs = .ok m ∧ nullSpace m = .ok r ∧
        IsBasisOf r (fun y : Fin n → ℚ => ∀ v ∈ vs, rowVec n v ⬝ᵥ y = 0)) := by
  obtain ⟨bs, h1, h2, h3, -, -⟩ := extendAll_ok n vs [] (Ech.nil _) h
  have hl : ∀ b ∈ bs, b.length = n := fun b hb => (h2.row b hb).1
  have hsp : span ℚ (rowVec n '' {b | b ∈ bs}) = span ℚ (rowVec n '' {v | v ∈ vs}) := by
    rw [rspan_nil, sup_bot_eq] at h3
    exact (rspan_eq_iff hl h).1 h3
  have hpos : bs ≠ [] → 0 < n := by
    intro hne
    obtain ⟨p, -, hp⟩ := h2.pivots
    have := (hp ⟨0, List.length_pos_iff.2 hne⟩).2; omega
  refine ⟨bs, h1, ⟨?_, ?_⟩, ?_⟩
  · rintro rfl v hv
    have : rowVec n v ∈ span ℚ (rowVec n '' {b | b ∈ ([] : List (List ℚ))}) := by
      rw [hsp]; exact subset_span ⟨v, hv, rfl⟩
    simpa using this
  · intro hz
    by_contra hne
    obtain ⟨c, hc, hp⟩ := h2.pivots
    have hb : rowVec n (bs[0]'(List.length_pos_iff.2 hne)) ∈ span ℚ (rowVec n '' {v | v ∈ vs}) := by
      rw [← hsp]; exact subset_span ⟨_, List.getElem_mem _, rfl⟩
    have hz' : span ℚ (rowVec n '' {v | v ∈ vs}) = ⊥ := by
      rw [span_eq_bot]
      rintro x ⟨v, hv, rfl⟩
      exact hz v hv
    rw [hz', mem_bot] at hb
    have h0 := (hp ⟨0, List.length_pos_iff.2 hne⟩)
    exact h0.1.2 (congrFun hb ⟨_, h0.2⟩)
  · intro hne
    have hrep := (repRows_matOf h2).1 (List.length_pos_iff.2 hne)
    have hiff : ∀ y : Fin n → ℚ, (bM n bs).mulVec y = 0 ↔ ∀ v ∈ vs, rowVec n v ⬝ᵥ y = 0 := by
      intro y
      have : (bM n bs).mulVec y = 0 ↔ ∀ v ∈ {b | b ∈ bs}, rowVec n v ⬝ᵥ y = 0 := by
        constructor
        · intro h v hv
          obtain ⟨i, hi, rfl⟩ := List.getElem_of_mem hv
          exact congrFun h ⟨i, hi⟩
        · intro h
          funext i
          exact h _ (List.getElem_mem i.2)
      rw [this]
      exact ⟨rowSpan_perp hsp y, rowSpan_perp hsp.symm y⟩
    rcases gen_nullSpace hrep (List.length_pos_iff.2 hne) with ⟨x, d, X, e1, e2, e3, e4, e5, e6⟩ | ⟨e1, e2⟩
    · refine ⟨_, some x, stackRows_ok hl hpos, e1, d, X, e2, e3, e5, fun y => ?_⟩
      refine Iff.trans (hiff y).symm ?_
      refine ⟨e6 y, ?_⟩
      rintro ⟨g, rfl⟩
      rw [mulVec_mulVec, e4, zero_mulVec]
    · refine ⟨_, none, stackRows_ok hl hpos, e1, fun y => ?_⟩
      refine Iff.trans (hiff y).symm ?_
      exact ⟨e2 y, by rintro rfl; exact mulVec_zero _⟩

/-! ### shift_space -/

section
variable {n : Nat}

theorem shift_rows (p : Op n) (i : Mat ℚ) (hi : Rep i (1 : Matrix (Fin n) (Fin n) ℚ)) :
    ∃ rows : List (List ℚ), (do let d ← (toAff p).linear.sub i; d.getRows) = .ok rows ∧
      (∀ v ∈ rows, v.length = n) ∧ ∀ y : Fin n → ℚ,
        ((∀ v ∈ rows, rowVec n v ⬝ᵥ y = 0) ↔ (p.1 - 1).mulVec y = 0) := by
  obtain ⟨d, h1, h2⟩ := rep_sub (toAff_isAff p).1 hi
  refine ⟨_, by rw [bind_ok h1]; exact Mat.getRows_eq h2.wf, ?_, ?_⟩
  · intro v hv
    obtain ⟨k, hk, rfl⟩ := List.mem_map.1 hv
    simp [Mat.rowL, h2.cols]
  · intro y
    have hrow : ∀ k : Fin n, rowVec n (d.rowL k.1) = (p.1 - 1) k := by
      intro k
      funext j
      simp [rowVec, Mat.rowL, h2.cols, h2.ent k j]
    constructor
    · intro h
      funext k
      have := h (d.rowL k.1) (List.mem_map.2 ⟨k.1, by rw [h2.rows]; simp, rfl⟩)
      rw [hrow k] at this
      exact this
    · intro h v hv
      obtain ⟨k, hk, rfl⟩ := List.mem_map.1 hv
      rw [h2.rows, List.mem_range] at hk
      rw [hrow ⟨k, hk⟩]
      exact congrFun h ⟨k, hk⟩

theorem shift_all (os : List (Op n)) (i : Mat ℚ) (hi : Rep i (1 : Matrix (Fin n) (Fin n) ℚ)) :
    ∃ rows : List (List (List ℚ)),
      omap (fun (op : AffineMap Rat) => do let d ← op.linear.sub i; d.getRows) (os.map toAff) = .ok rows ∧
      (∀ v ∈ rows.flatten, v.length = n) ∧ ∀ y : Fin n → ℚ,
        ((∀ v ∈ rows.flatten, rowVec n v ⬝ᵥ y = 0) ↔ ∀ p ∈ os, p.1.mulVec y = y) := by
  choose f h1 h2 h3 using fun p : Op n => shift_rows p i hi
  refine ⟨os.map f, ?_, ?_, ?_⟩
  · rw [omap_map', omap_ok (g := f) (fun p _ => h1 p)]
  · intro v hv
    obtain ⟨l, hl, hv⟩ := List.mem_flatten.1 hv
    obtain ⟨p, hp, rfl⟩ := List.mem_map.1 hl
    exact h2 p v hv
  · intro y
    have : ∀ p : Op n, (∀ v ∈ f p, rowVec n v ⬝ᵥ y = 0) ↔ p.1.mulVec y = y := by
      intro p
      rw [h3, sub_mulVec, one_mulVec, sub_eq_zero]
    simp only [← this]
    constructor
    · intro h p hp v hv
      exact h v (List.mem_flatten.2 ⟨f p, List.mem_map.2 ⟨p, hp, rfl⟩, hv⟩)
    · intro h v hv
      obtain ⟨l, hl, hv⟩ := List.mem_flatten.1 hv
      obtain ⟨p, hp, rfl⟩ := List.mem_map.1 hl
      exact h p hp v hv

theorem head_dim {ops : List (AffineMap ℚ)} {os : List (Op n)} (h : AreOps ops os) (hne : ops ≠ []) :
    ∃ o0, vecGet ops 0 = .ok o0 ∧ o0.dim = n := by
  rw [h.eq] at hne ⊢
  cases os with
  | nil => simp at hne
  | cons g gs => exact ⟨toAff g, rfl, (toAff_isAff g).2.dim_eq⟩

theorem shiftSpace_spec {ops : List (AffineMap ℚ)} {os : List (Op n)} (h : AreOps ops os) (hne : ops ≠ []) :
    ((∃ p ∈ os, p.1 ≠ 1) → ∃ r, shiftSpace ops = .ok r ∧
      IsBasisOf r (fun x : Fin n → ℚ => ∀ p ∈ os, p.1.mulVec x = x)) ∧
    ((∀ p ∈ os, p.1 = 1) → shiftSpace ops = .ok none) := by
  obtain ⟨o0, h0, hd⟩ := head_dim h hne
  obtain ⟨i, hi, hi'⟩ := rep_identity (T := ℚ) n
  obtain ⟨rows, h1, h2, h3⟩ := shift_all os i hi'
  obtain ⟨bs, h4, h5, h6⟩ := kernel_rows rows.flatten h2
  have key : bs = [] ↔ ∀ p ∈ os, p.1 = 1 := by
    rw [h5]
    constructor
    · intro hz p hp
      have : ∀ y : Fin n → ℚ, p.1.mulVec y = y := fun y =>
        (h3 y).1 (fun v hv => by rw [hz v hv, zero_dotProduct]) p hp
      apply Matrix.toLin'.injective
      refine LinearMap.ext fun y => ?_
      simp [this]
    · intro hz v hv
      have h7 : ∀ y : Fin n → ℚ, rowVec n v ⬝ᵥ y = 0 := fun y =>
        (h3 y).2 (fun p hp => by rw [hz p hp, one_mulVec]) v hv
      funext j
      have := h7 (Pi.single j 1)
      simpa using this
  have hstart : shiftSpace ops = (do let m ← stackRows bs; nullSpace m) := by
    unfold shiftSpace
    rw [bind_ok h0, hd, bind_ok hi, h.eq, bind_ok h1, bind_ok h4]
  rw [hstart]
  constructor
  · rintro ⟨p, hp, hp1⟩
    have hbne : bs ≠ [] := fun hb => hp1 (key.1 hb p hp)
    obtain ⟨m, r, e1, e2, e3⟩ := h6 hbne
    refine ⟨r, by rw [bind_ok e1, e2], ?_⟩
    have : (fun y : Fin n → ℚ => ∀ v ∈ rows.flatten, rowVec n v ⬝ᵥ y = 0) = fun x => ∀ p ∈ os, p.1.mulVec x = x :=
      funext fun y => propext (h3 y)
    rw [← this]
    exact e3
  · intro hall
    rw [key.2 hall]
    rfl

end

/-! ### The Gram matrix equations -/

section
variable {n : Nat}

theorem upper_prefix (i : Nat) (f : Nat → List (Nat × Nat)) (hf : ∀ k, (f k).length = n - k) :
    ((List.range i).flatMap f).length = upperCount n i := by
  unfold upperCount
  induction i with
  | zero => simp
  | succ i ih => rw [List.range_succ, List.flatMap_append, List.length_append, ih, Finset.sum_range_succ]; simp [hf]

theorem upperPairs_length : (upperPairs n).length = upperCount n n := by
  unfold upperPairs
  exact upper_prefix n _ (fun k => by simp)

theorem upperPairs_get {i j : Nat} (hij : i ≤ j) (hj : j < n) :
    (upperPairs n)[upperCount n i + (j - i)]? = some (i, j) := by
  unfold upperPairs
  have hr : List.range n = List.range i ++ (i :: List.range' (i + 1) (n - i - 1)) := by
    rw [List.range_eq_range', List.range_eq_range']
    rw [← List.range'_succ, show n - i - 1 + 1 = n - i by omega]
    have := List.range'_append_1 (s := 0) (m := i) (n := n - i)
    rw [Nat.zero_add] at this
    rw [this]
    congr 1; omega
  rw [hr, List.flatMap_append, List.flatMap_cons]
  rw [List.getElem?_append_right (by rw [upper_prefix (n := n) i _ (fun k => by simp)]; omega)]
  rw [upper_prefix (n := n) i _ (fun k => by simp), Nat.add_sub_cancel_left]
  rw [List.getElem?_append_left (by simp; omega)]
  rw [List.getElem?_map, List.getElem?_range' (by omega)]
  simp
  omega

theorem upperPairs_mem {p : Nat × Nat} (h : p ∈ upperPairs n) : p.1 ≤ p.2 ∧ p.2 < n := by
  unfold upperPairs at h
  obtain ⟨i, hi, hp⟩ := List.mem_flatMap.1 h
  obtain ⟨j, hj, rfl⟩ := List.mem_map.1 hp
  rw [List.mem_range'_1] at hj
  have := List.mem_range.1 hi
  exact ⟨hj.1, by simp only; omega⟩

theorem mem_upperPairs {i j : Nat} (hij : i ≤ j) (hj : j < n) : (i, j) ∈ upperPairs n :=
  List.mem_of_getElem? (upperPairs_get hij hj)

theorem upperPairs_nodup : (upperPairs n).Nodup := by
  unfold upperPairs
  rw [List.nodup_flatMap]
  refine ⟨fun i _ => (List.nodup_range').map (fun a b h => (Prod.mk.inj h).2), ?_⟩
  refine List.Pairwise.imp_of_mem ?_ (List.nodup_range (n := n))
  intro a b _ _ hab
  intro p hp hq
  obtain ⟨j, -, rfl⟩ := List.mem_map.1 hp
  obtain ⟨k, -, h⟩ := List.mem_map.1 hq
  exact hab (Prod.mk.inj h).1.symm

/-- the number of a pair -/
theorem kIndex_eq {i j : Nat} (hi : i < n) (hj : j < n) :
    kIndex n i j = upperCount n (min i j) + (max i j - min i j) := by
  unfold kIndex
  have h := upperPairs_get (n := n) (i := min i j) (j := max i j) (by omega) (by omega)
  obtain ⟨hk, he⟩ := List.getElem?_eq_some_iff.1 h
  have := upperPairs_nodup.idxOf_getElem _ hk
  rwa [he] at this

theorem kIndex_lt {i j : Nat} (hi : i < n) (hj : j < n) : kIndex n i j < upperCount n n := by
  rw [kIndex_eq hi hj, ← upperPairs_length]
  exact (List.getElem?_eq_some_iff.1 (upperPairs_get (n := n) (i := min i j) (j := max i j) (by omega) (by omega))).1

theorem kIndex_comm (i j : Nat) : kIndex n i j = kIndex n j i := by
  unfold kIndex; rw [min_comm, max_comm]

def kF (i j : Fin n) : Fin (upperCount n n) := ⟨kIndex n i j, kIndex_lt i.2 j.2⟩

theorem kF_val (i j : Fin n) : (kF i j).1 = kIndex n i j := rfl

/-- the symmetric matrix with the coordinates `g` -/
def symOf (g : Fin (upperCount n n) → ℚ) : Matrix (Fin n) (Fin n) ℚ := Matrix.of fun i j => g (kF i j)

theorem symOf_upper (g : Fin (upperCount n n) → ℚ) : IsUpper g (symOf g) := by
  refine ⟨?_, ?_⟩
  · ext i j
    simp only [Matrix.transpose_apply, symOf, Matrix.of_apply, kF, kIndex_comm j.1 i.1]
  · intro i j k hij hk
    simp only [symOf, Matrix.of_apply]
    congr 1
    apply Fin.ext
    have hij' : i.1 ≤ j.1 := hij
    rw [hk, kF_val, kIndex_eq i.2 j.2, min_eq_left hij', max_eq_right hij']

theorem upper_unique {g : Fin (upperCount n n) → ℚ} {G : Matrix (Fin n) (Fin n) ℚ} (h : IsUpper g G) :
    G = symOf g := by
  have key : ∀ i j : Fin n, i ≤ j → G i j = symOf g i j := by
    intro i j hij
    have hk : (kF i j).1 = upperCount n i + (j - i) := by
      have hij' : i.1 ≤ j.1 := hij
      rw [kF_val, kIndex_eq i.2 j.2, min_eq_left hij', max_eq_right hij']
    rw [← h.2 i j (kF i j) hij hk, (symOf_upper g).2 i j (kF i j) hij hk]
  ext i j
  rcases le_total i j with hij | hij
  · exact key i j hij
  · rw [← h.1, Matrix.transpose_apply, key j i hij, ← Matrix.transpose_apply (symOf g), (symOf_upper g).1]

theorem rowVec_set_dot {N : Nat} (e : List ℚ) (k : Fin N) (he : e.length = N) (x : ℚ) (g : Fin N → ℚ) :
    rowVec N (e.set k.1 x) ⬝ᵥ g = rowVec N e ⬝ᵥ g + (x - rowVec N e k) * g k := by
  have : rowVec N (e.set k.1 x) = rowVec N e + Pi.single k (x - rowVec N e k) := by
    funext j
    by_cases h : j = k
    · subst h; simp [rowVec, he]
    · have h' : k.1 ≠ j.1 := fun h' => h (Fin.ext h'.symm)
      simp [rowVec, Pi.single_eq_of_ne h, List.getD, List.getElem?_set_ne h']
  rw [this, add_dotProduct, single_dotProduct]

theorem rowVec_get {N : Nat} (e : List ℚ) (k : Fin N) (he : e.length = N) :
    vecGet e k.1 = .ok (rowVec N e k) := by
  rw [vecGet_eq_ok]
  simp [rowVec, he]

theorem gramEqnLoop_ok (s : Mat ℚ) (S : Matrix (Fin n) (Fin n) ℚ) (hs : Rep s S) (ia ib : Fin n)
    (g : Fin (upperCount n n) → ℚ) : ∀ (ps : List (Fin n × Fin n)) (e : List ℚ), e.length = upperCount n n →
    ∃ e', gramEqnLoop n s ia ib (ps.map (fun p => (p.1.1, p.2.1))) e = .ok e' ∧ e'.length = upperCount n n ∧
      rowVec _ e' ⬝ᵥ g = rowVec _ e ⬝ᵥ g + (ps.map fun p => S ia p.1 * S ib p.2 * g (kF p.1 p.2)).sum
  | [], e, he => ⟨e, rfl, he, by simp⟩
  | (ja, jb) :: ps, e, he => by
    have h1 := rowVec_get e (kF ja jb) he
    have h2 : vecSet e (kF ja jb).1 (rowVec _ e (kF ja jb) + S ia ja * S ib jb) =
        .ok (e.set (kF ja jb).1 (rowVec _ e (kF ja jb) + S ia ja * S ib jb)) := by
      unfold vecSet; rw [if_pos (by rw [he]; exact (kF ja jb).2)]
    obtain ⟨e', h3, h4, h5⟩ := gramEqnLoop_ok s S hs ia ib g ps
      (e.set (kF ja jb).1 (rowVec _ e (kF ja jb) + S ia ja * S ib jb)) (by rw [List.length_set]; exact he)
    refine ⟨e', ?_, h4, ?_⟩
    · rw [List.map_cons]
      unfold gramEqnLoop
      simp only
      rw [show kIndex n ja.1 jb.1 = (kF ja jb).1 from rfl]
      rw [bind_ok h1, bind_ok (hs.entry ia ja), bind_ok (hs.entry ib jb), bind_ok h2, h3]
    · rw [h5, rowVec_set_dot _ _ he, List.map_cons, List.sum_cons]
      ring

/-- all pairs -/
def finPairs (n : Nat) : List (Fin n × Fin n) :=
  (List.finRange n).flatMap fun a => (List.finRange n).map fun b => (a, b)

theorem allPairs_eq : allPairs n = (finPairs n).map (fun p => (p.1.1, p.2.1)) := by
  unfold allPairs finPairs
  have : List.range n = (List.finRange n).map Fin.val := by simp
  rw [this, List.map_flatMap, List.flatMap_map]
  simp only [List.map_map, Function.comp_def]

theorem sum_flatMap' {α : Type} (l : List α) (f : α → List ℚ) :
    (l.flatMap f).sum = (l.map fun a => (f a).sum).sum := by
  induction l with
  | nil => rfl
  | cons a l ih => simp [ih]

theorem gramEqn_ok (s : Mat ℚ) (S : Matrix (Fin n) (Fin n) ℚ) (hs : Rep s S) (ia ib : Fin n) :
    ∃ e, gramEqn n s (ia.1, ib.1) = .ok e ∧ e.length = upperCount n n ∧
      ∀ g : Fin (upperCount n n) → ℚ, rowVec _ e ⬝ᵥ g = (S * symOf g * S.transpose) ia ib - symOf g ia ib := by
  have h0 : (List.replicate (upperPairs n).length (0 : ℚ)).length = upperCount n n := by
    rw [List.length_replicate, upperPairs_length]
  obtain ⟨e, h1, h2, -⟩ := gramEqnLoop_ok s S hs ia ib 0 (finPairs n) _ h0
  rw [← allPairs_eq] at h1
  refine ⟨e.set (kF ia ib).1 (rowVec _ e (kF ia ib) - 1), ?_, by rw [List.length_set]; exact h2, fun g => ?_⟩
  · unfold gramEqn
    simp only
    rw [bind_ok h1, show kIndex n ia.1 ib.1 = (kF ia ib).1 from rfl, bind_ok (rowVec_get e _ h2)]
    unfold vecSet
    rw [if_pos (by rw [h2]; exact (kF ia ib).2)]
  · obtain ⟨e', h3, h4, h5⟩ := gramEqnLoop_ok s S hs ia ib g (finPairs n) _ h0
    rw [← allPairs_eq, h1] at h3
    have h3 := Outcome.ok.inj h3
    subst h3
    rw [rowVec_set_dot _ _ h2, h5]
    have hz : rowVec (upperCount n n) (List.replicate (upperPairs n).length (0 : ℚ)) = 0 := by
      funext j
      simp [rowVec, List.getD, List.getElem?_replicate]
      split <;> rfl
    rw [hz, zero_dotProduct, zero_add]
    have e1 : ((finPairs n).map fun p => S ia p.1 * S ib p.2 * g (kF p.1 p.2)).sum =
        (S * symOf g * S.transpose) ia ib := by
      unfold finPairs
      simp only [List.map_flatMap, sum_flatMap', List.map_map, Function.comp_def]
      rw [Matrix.mul_apply]
      simp only [Matrix.mul_apply, Matrix.transpose_apply, Finset.sum_mul]
      rw [Finset.sum_comm]
      rw [← List.sum_ofFn, List.ofFn_eq_map]
      congr 1
      apply List.map_congr_left
      intro a _
      rw [← List.sum_ofFn, List.ofFn_eq_map]
      congr 1
      apply List.map_congr_left
      intro b _
      simp only [symOf, Matrix.of_apply]
      ring
    rw [e1]
    simp only [symOf, Matrix.of_apply]
    ring

theorem gram_all (os : List (Op n)) :
    ∃ eqns : List (List (List ℚ)),
      omap (fun (op : AffineMap Rat) => omap (gramEqn n op.linear) (upperPairs n)) (os.map toAff) = .ok eqns ∧
      (∀ v ∈ eqns.flatten, v.length = upperCount n n) ∧ ∀ g : Fin (upperCount n n) → ℚ,
        ((∀ v ∈ eqns.flatten, rowVec _ v ⬝ᵥ g = 0) ↔
          ∀ p ∈ os, p.1 * symOf g * p.1.transpose = symOf g) := by
  have key : ∀ (p : Op n) (q : Nat × Nat), ∃ e, (q.1 ≤ q.2 ∧ q.2 < n → gramEqn n (toAff p).linear q = .ok e ∧
      e.length = upperCount n n ∧ ∀ (g : Fin (upperCount n n) → ℚ) (a b : Fin n), a.1 = q.1 → b.1 = q.2 →
        rowVec _ e ⬝ᵥ g = (p.1 * symOf g * p.1.transpose) a b - symOf g a b) := by
    intro p q
    by_cases hq : q.1 ≤ q.2 ∧ q.2 < n
    · obtain ⟨e, h1, h2, h3⟩ := gramEqn_ok _ _ (toAff_isAff p).1 ⟨q.1, by omega⟩ ⟨q.2, hq.2⟩
      refine ⟨e, fun _ => ⟨h1, h2, ?_⟩⟩
      intro g a b ha hb
      rw [h3]
      rw [show (⟨q.1, by omega⟩ : Fin n) = a from Fin.ext ha.symm, show (⟨q.2, hq.2⟩ : Fin n) = b from Fin.ext hb.symm]
    · exact ⟨[], fun h => absurd h hq⟩
  choose f hf using key
  refine ⟨os.map (fun p => (upperPairs n).map (f p)), ?_, ?_, ?_⟩
  · rw [omap_map', omap_ok (g := fun p => (upperPairs n).map (f p))]
    intro p _
    exact omap_ok (fun q hq => (hf p q (upperPairs_mem hq)).1)
  · intro v hv
    obtain ⟨l, hl, hv⟩ := List.mem_flatten.1 hv
    obtain ⟨p, hp, rfl⟩ := List.mem_map.1 hl
    obtain ⟨q, hq, rfl⟩ := List.mem_map.1 hv
    exact (hf p q (upperPairs_mem hq)).2.1
  · intro g
    constructor
    · intro h p hp
      have hup : ∀ a b : Fin n, a ≤ b → (p.1 * symOf g * p.1.transpose) a b = symOf g a b := by
        intro a b hab
        have hm := mem_upperPairs (n := n) (i := a.1) (j := b.1) hab b.2
        have := (hf p (a.1, b.1) (upperPairs_mem hm)).2.2 g a b rfl rfl
        rw [h _ (List.mem_flatten.2 ⟨_, List.mem_map.2 ⟨p, hp, rfl⟩, List.mem_map.2 ⟨_, hm, rfl⟩⟩)] at this
        exact (sub_eq_zero.1 this.symm)
      have hsym : (p.1 * symOf g * p.1.transpose).transpose = p.1 * symOf g * p.1.transpose := by
        rw [Matrix.transpose_mul, Matrix.transpose_mul, Matrix.transpose_transpose, (symOf_upper g).1, Matrix.mul_assoc]
      ext a b
      rcases le_total a b with hab | hab
      · exact hup a b hab
      · rw [← hsym, Matrix.transpose_apply, hup b a hab, ← Matrix.transpose_apply (symOf g), (symOf_upper g).1]
    · intro h v hv
      obtain ⟨l, hl, hv⟩ := List.mem_flatten.1 hv
      obtain ⟨p, hp, rfl⟩ := List.mem_map.1 hl
      obtain ⟨q, hq, rfl⟩ := List.mem_map.1 hv
      have hq' := upperPairs_mem hq
      rw [(hf p q hq').2.2 g ⟨q.1, by omega⟩ ⟨q.2, hq'.2⟩ rfl rfl, h p hp, sub_self]

theorem upperCount_pos (hn : 0 < n) : 0 < upperCount n n := by
  have := kIndex_lt (n := n) hn hn
  omega

theorem gramSpace_spec {ops : List (AffineMap ℚ)} {os : List (Op n)} (h : AreOps ops os) (hne : ops ≠ [])
    (hn : 0 < n) : ∃ r, gramSpace ops = .ok r ∧
      IsBasisOf r (fun g : Fin (upperCount n n) → ℚ => ∀ p ∈ os, p.1 * symOf g * p.1.transpose = symOf g) := by
  obtain ⟨o0, h0, hd⟩ := head_dim h hne
  obtain ⟨eqns, h1, h2, h3⟩ := gram_all os
  obtain ⟨bs, h4, h5, h6⟩ := kernel_rows eqns.flatten h2
  have hstart : gramSpace ops = (if bs = [] then do
      let i ← Mat.identity (upperPairs n).length
      .ok (some i) else do
      let m ← stackRows bs
      nullSpace m) := by
    unfold gramSpace
    rw [bind_ok h0, h.eq]
    simp only [hd]
    rw [bind_ok h1, bind_ok h4]
  have hP : (fun y : Fin (upperCount n n) → ℚ => ∀ v ∈ eqns.flatten, rowVec _ v ⬝ᵥ y = 0) =
      fun g => ∀ p ∈ os, p.1 * symOf g * p.1.transpose = symOf g := funext fun y => propext (h3 y)
  rw [hstart]
  by_cases hb : bs = []
  · rw [if_pos hb, upperPairs_length]
    obtain ⟨i, e1, e2⟩ := rep_identity (T := ℚ) (upperCount n n)
    refine ⟨some i, by rw [bind_ok e1], upperCount n n, 1, upperCount_pos hn, e2, ?_, ?_⟩
    · have : (1 : Matrix (Fin (upperCount n n)) (Fin (upperCount n n)) ℚ).col = fun j => Pi.single j (1 : ℚ) := by
        funext j i
        rw [Matrix.col_apply, Matrix.one_apply, Pi.single_apply]
      rw [this]
      exact Pi.linearIndependent_single_one _ ℚ
    · intro y
      rw [← hP]
      refine ⟨fun _ => ⟨y, (one_mulVec y).symm⟩, fun _ v hv => ?_⟩
      rw [h5.1 hb v hv, zero_dotProduct]
  · rw [if_neg hb]
    obtain ⟨m, r, e1, e2, e3⟩ := h6 hb
    refine ⟨r, by rw [bind_ok e1, e2], ?_⟩
    rw [← hP]
    exact e3

end

end SpaceGroups
end Systre
