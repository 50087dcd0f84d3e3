import Verif.Lemmas.Determinant

/-! Helper lemmas: `solve`, `null_space`, `inverse`, generic in the scalar type. -/

set_option linter.unusedSectionVars false

namespace Systre
open Submodule Mat

variable {T : Type} [CommRing T]

/-- row `i` of a list of rows, as a function -/
def rw' (bs : List (List T)) (i : Nat) : Nat → T := rent (bs.getD i [])

theorem rw'_ge {bs : List (List T)} {i : Nat} (h : bs.length ≤ i) (j : Nat) : rw' bs i j = 0 := by
  simp [rw', List.getD, h, rent]

theorem rw'_lt {bs : List (List T)} {i : Nat} (h : i < bs.length) : rw' bs i = rent bs[i] := by
  simp [rw', List.getD, h]

theorem rspan_le_iff {bs : List (List T)} {S : Submodule T (Nat → T)} :
    rspan bs ≤ S ↔ ∀ i, i < bs.length → rw' bs i ∈ S := by
  rw [rspan_le]
  constructor
  · intro h i hi; rw [rw'_lt hi]; exact h _ (List.getElem_mem hi)
  · intro h b hb
    obtain ⟨i, hi, rfl⟩ := List.getElem_of_mem hb
    rw [← rw'_lt hi]; exact h i hi

/-- a linear functional given by finitely many coefficients -/
def lf (s : Finset Nat) (a : Nat → T) : (Nat → T) →ₗ[T] T where
  toFun f := ∑ j ∈ s, f j * a j
  map_add' f g := by rw [← Finset.sum_add_distrib]; apply Finset.sum_congr rfl; intros; simp [add_mul]
  map_smul' c f := by simp only [Pi.smul_apply, smul_eq_mul, RingHom.id_apply, Finset.mul_sum, mul_assoc]

theorem lf_apply (s : Finset Nat) (a f : Nat → T) : lf s a f = ∑ j ∈ s, f j * a j := rfl

/-- evaluation -/
def evl (c : Nat) : (Nat → T) →ₗ[T] T := LinearMap.proj c

/-- same span, same linear relations -/
theorem rel_iff {bs bs' : List (List T)} (h : rspan bs = rspan bs') (φ : (Nat → T) →ₗ[T] T) :
    (∀ i, i < bs.length → φ (rw' bs i) = 0) ↔ (∀ i, i < bs'.length → φ (rw' bs' i) = 0) := by
  have h1 := rspan_le_iff (bs := bs) (S := LinearMap.ker φ)
  have h2 := rspan_le_iff (bs := bs') (S := LinearMap.ker φ)
  simp only [LinearMap.mem_ker] at h1 h2
  rw [← h1, ← h2, h]

theorem mem_rspan_sum {bs : List (List T)} {f : Nat → T} :
    f ∈ rspan bs ↔ ∃ g : Nat → T, ∀ j, f j = ∑ l ∈ Finset.range bs.length, g l * rw' bs l j := by
  have hr : rspan bs = span T (Set.range (fun i : Fin bs.length => rw' bs i.1)) := by
    unfold rspan
    congr 1
    ext f
    constructor
    · rintro ⟨b, hb, rfl⟩
      obtain ⟨i, hi, rfl⟩ := List.getElem_of_mem hb
      exact ⟨⟨i, hi⟩, rw'_lt hi⟩
    · rintro ⟨i, rfl⟩
      exact ⟨_, List.getElem_mem i.2, rw'_lt i.2⟩
  rw [hr, mem_span_range_iff_exists_fun]
  constructor
  · rintro ⟨g, rfl⟩
    refine ⟨fun l => if h : l < bs.length then g ⟨l, h⟩ else 0, fun j => ?_⟩
    rw [Finset.sum_range]
    simp
  · rintro ⟨g, hg⟩
    refine ⟨fun i => g i.1, ?_⟩
    ext j
    rw [hg, Finset.sum_range]
    simp

variable [IsDomain T]

/-! ### reduced basis of `[Lᵀ | I]` -/

/-- the rows of `[Lᵀ | I]` for an `r × n` matrix `L` -/
def AugRow (r n : Nat) (L : Nat → Nat → T) (bs0 : List (List T)) : Prop :=
  bs0.length = n ∧ ∀ i, i < n → ∀ j, rw' bs0 i j = if j < r then L j i else if j = r + i then 1 else 0

section
variable {r n : Nat} {L : Nat → Nat → T} {bs0 bs : List (List T)}

theorem aug_length (h0 : AugRow r n L bs0) (hE : Ech (r + n) bs) (hs : rspan bs = rspan bs0) :
    bs.length = n := by
  rw [← hE.finrank, hs, rspan_eq_range, finrank_span_eq_card, Fintype.card_fin, h0.1]
  rw [Fintype.linearIndependent_iff]
  intro g hg i
  have := congrFun hg (r + i.1)
  simp only [Finset.sum_apply, Pi.smul_apply, smul_eq_mul, Pi.zero_apply] at this
  rw [Finset.sum_eq_single i] at this
  · have h1 := h0.2 i.1 (by rw [← h0.1]; exact i.2) (r + i.1)
    rw [rw'_lt i.2, if_neg (by omega), if_pos rfl] at h1
    unfold bv at this
    rwa [h1, mul_one] at this
  · intro k _ hk
    have h1 := h0.2 k.1 (by rw [← h0.1]; exact k.2) (r + i.1)
    have hne : ¬ (r + i.1 = r + k.1) := fun h => hk (Fin.ext (by omega))
    rw [rw'_lt k.2, if_neg (by omega), if_neg hne] at h1
    unfold bv
    rw [h1, mul_zero]
  · simp

theorem aug_rel (h0 : AugRow r n L bs0) (hs : rspan bs = rspan bs0) (i : Nat) (hi : i < r) (j : Nat)
    (hj : j < bs.length) :
    rw' bs j i = ∑ l ∈ Finset.range n, rw' bs j (r + l) * L i l := by
  have := (rel_iff hs (evl i - lf ((Finset.range n).map (addLeftEmbedding r)) (fun k => L i (k - r)))).2 ?_ j hj
  · simp only [LinearMap.sub_apply, lf_apply, evl, LinearMap.proj_apply, Finset.sum_map,
      addLeftEmbedding_apply, Nat.add_sub_cancel_left] at this
    exact sub_eq_zero.1 this
  · intro k hk
    rw [h0.1] at hk
    simp only [LinearMap.sub_apply, lf_apply, evl, LinearMap.proj_apply, Finset.sum_map,
      addLeftEmbedding_apply, Nat.add_sub_cancel_left]
    rw [h0.2 k hk i, if_pos hi, Finset.sum_eq_single k]
    · rw [h0.2 k hk, if_neg (by omega), if_pos rfl, one_mul, sub_self]
    · intro l _ hl
      rw [h0.2 k hk, if_neg (by omega), if_neg (by omega), zero_mul]
    · intro h; exact absurd (Finset.mem_range.2 hk) h

theorem aug_inv (h0 : AugRow r n L bs0) (hE : Ech (r + n) bs) (hs : rspan bs = rspan bs0) :
    ∃ V : Nat → Nat → T,
      (∀ k, k < n → ∀ j, ∑ l ∈ Finset.range n, V k l * rw' bs l j = rw' bs0 k j) ∧
      (∀ k, k < n → ∀ j, j < n → ∑ l ∈ Finset.range n, rw' bs k (r + l) * V l j = if k = j then 1 else 0) ∧
      (∀ k, k < n → ∀ j, j < n → ∑ l ∈ Finset.range n, V k l * rw' bs l (r + j) = if k = j then 1 else 0) := by
  have hlen := aug_length h0 hE hs
  have h1 : ∀ k, ∃ g : Nat → T, k < n → ∀ j, rw' bs0 k j = ∑ l ∈ Finset.range n, g l * rw' bs l j := by
    intro k
    by_cases hk : k < n
    · have : rw' bs0 k ∈ rspan bs := by
        rw [hs]; have hk' : k < bs0.length := by rw [h0.1]; exact hk
        rw [rw'_lt hk']; exact mem_rspan (List.getElem_mem _)
      obtain ⟨g, hg⟩ := mem_rspan_sum.1 this
      rw [hlen] at hg
      exact ⟨g, fun _ => hg⟩
    · exact ⟨0, fun h => absurd h hk⟩
  choose V hV using h1
  have hVU : ∀ k, k < n → ∀ j, j < n →
      ∑ l ∈ Finset.range n, V k l * rw' bs l (r + j) = if k = j then 1 else 0 := by
    intro k hk j hj
    rw [← hV k hk, h0.2 k hk, if_neg (by omega)]
    by_cases h : k = j
    · rw [if_pos h, if_pos (by omega)]
    · rw [if_neg h, if_neg (by omega)]
  refine ⟨V, fun k hk j => (hV k hk j).symm, ?_, hVU⟩
  let U : Matrix (Fin n) (Fin n) T := fun i j => rw' bs i.1 (r + j.1)
  let W : Matrix (Fin n) (Fin n) T := fun i j => V i.1 j.1
  have hWU : W * U = 1 := by
    ext i j
    rw [Matrix.mul_apply, Matrix.one_apply]
    have := hVU i.1 i.2 j.1 j.2
    rw [Finset.sum_range] at this
    simp only [Fin.ext_iff]
    exact this
  have hUW := mul_eq_one_comm.1 hWU
  intro k hk j hj
  have := congrFun (congrFun hUW ⟨k, hk⟩) ⟨j, hj⟩
  rw [Matrix.mul_apply, Matrix.one_apply] at this
  simp only [Fin.ext_iff] at this
  rw [Finset.sum_range]
  exact this

theorem aug_pivots (h0 : AugRow r n L bs0) (hE : Ech (r + n) bs) (hs : rspan bs = rspan bs0)
    (hli : ∀ g : Nat → T, (∀ j, j < n → ∑ i ∈ Finset.range r, g i * L i j = 0) → ∀ i, i < r → g i = 0) :
    ∀ i, i < r → i < n ∧ Piv (rw' bs i) i := by
  have hlen := aug_length h0 hE hs
  obtain ⟨V, hV, -, -⟩ := aug_inv h0 hE hs
  obtain ⟨c, hc, hp⟩ := hE.pivots
  intro i hi
  by_contra hcon
  have hz : ∀ l, i ≤ l → ∀ j, j ≤ i → rw' bs l j = 0 := by
    intro l hl j hj
    by_cases hln : l < bs.length
    · have hin : i < bs.length := by omega
      have h1 := strictMono_ge hc ⟨i, hin⟩
      have hpi := (hp ⟨i, hin⟩).1
      have hne : c ⟨i, hin⟩ ≠ i := by
        intro h
        rw [h] at hpi
        apply hcon
        refine ⟨by omega, ?_⟩
        rw [rw'_lt hin]; exact hpi
      have h2 : c ⟨i, hin⟩ ≤ c ⟨l, hln⟩ := hc.monotone (by simpa [Fin.le_def] using hl)
      have h3 := (hp ⟨l, hln⟩).1.1 j (by simp only at h1; omega)
      rw [rw'_lt hln]; exact h3
    · exact rw'_ge (by omega) j
  let S : Matrix (Fin (i + 1)) (Fin (i + 1)) T := fun l j => rw' bs l.1 j.1
  have hdet : S.det = 0 := by
    apply Matrix.det_eq_zero_of_row_eq_zero (Fin.last i)
    intro j
    exact hz i le_rfl j.1 (by omega)
  obtain ⟨v, hv0, hv⟩ := Matrix.exists_mulVec_eq_zero_iff.2 hdet
  set g : Nat → T := fun j => if h : j < i + 1 then v ⟨j, h⟩ else 0 with hg
  have hq : ∀ l, ∑ j ∈ Finset.range r, rw' bs l j * g j = 0 := by
    intro l
    have hsub : Finset.range (i + 1) ⊆ Finset.range r := by
      intro x hx; rw [Finset.mem_range] at *; omega
    rw [← Finset.sum_subset hsub]
    · by_cases hl : l < i + 1
      · have := congrFun hv ⟨l, hl⟩
        rw [Matrix.mulVec, dotProduct] at this
        rw [Finset.sum_range]
        refine Eq.trans (Finset.sum_congr rfl fun x _ => ?_) this
        rw [hg]; simp only; rw [dif_pos x.2]
      · apply Finset.sum_eq_zero
        intro j hj
        rw [hz l (by omega) j (by rw [Finset.mem_range] at hj; omega), zero_mul]
    · intro x _ hx
      rw [Finset.mem_range] at hx
      rw [hg]; simp [hx]
  have hg0 := hli g (fun k hk => by
    have : ∀ j ∈ Finset.range r, g j * L j k = ∑ l ∈ Finset.range n, V k l * (rw' bs l j * g j) := by
      intro j hj
      have h1 := hV k hk j
      rw [h0.2 k hk, if_pos (Finset.mem_range.1 hj)] at h1
      rw [← h1, Finset.mul_sum]
      apply Finset.sum_congr rfl
      intros; ring
    rw [Finset.sum_congr rfl this, Finset.sum_comm]
    apply Finset.sum_eq_zero
    intro l _
    rw [← Finset.mul_sum, hq, mul_zero])
  apply hv0
  ext j
  have := hg0 j.1 (by omega)
  rw [hg] at this
  simp only [dif_pos j.2] at this
  exact this

end

/-! ### forward substitution -/

section
variable [Scalar T] [DecidableEq T] [LawfulScalar T]

/-- triangular system: row `i` of `b` with unknown rows `Y` gives row `i` of `R`, column `c` -/
def TriEq (b : Nat → Nat → T) (R Y : Nat → Nat → T) (i c : Nat) : Prop :=
  ∑ j ∈ Finset.range i, b i j * Y j c + b i i * Y i c = R i c

theorem tri_unique {b R Y Y' : Nat → Nat → T} {i c : Nat} (hb : ∀ k, k < i → b k k ≠ 0)
    (h : ∀ k, k < i → TriEq b R Y k c) (h' : ∀ k, k < i → TriEq b R Y' k c) :
    ∀ k, k < i → Y k c = Y' k c := by
  intro k
  induction k using Nat.strong_induction_on with
  | _ k ih =>
  intro hk
  have h1 := h k hk
  have h2 := h' k hk
  unfold TriEq at h1 h2
  have : ∑ j ∈ Finset.range k, b k j * Y j c = ∑ j ∈ Finset.range k, b k j * Y' j c := by
    apply Finset.sum_congr rfl
    intro j hj
    have := Finset.mem_range.1 hj
    rw [ih j this (by omega)]
  rw [this] at h1
  have h3 : b k k * (Y k c - Y' k c) = 0 := by linear_combination h1 - h2
  exact sub_eq_zero.1 ((mul_eq_zero.1 h3).resolve_left (hb k hk))

theorem solveLoop_ok {bm rm : Mat T} {b : Nat → Nat → T} {n k : Nat} (hbw : bm.WF) (hrw : rm.WF)
    (hbr : bm.nrows = rm.nrows) (hbn : bm.ncols = n) (hrk : rm.ncols = k) (hn : rm.nrows ≤ n)
    (hb : ∀ i, i < rm.nrows → ∀ j, j < n → bm.ent i j = b i j)
    (hnorm : ∀ i, i < rm.nrows → LawfulScalar.Norm (b i i))
    (hred : ∀ i, i < rm.nrows → ∀ j, j < i → LawfulScalar.Red (b i j) (b i i)) :
    ∀ (d i : Nat) (x : List (List T)), i + d = rm.nrows → x.length = i → (∀ y ∈ x, y.length = k) →
      (∀ i', i' < i → ∀ c, c < k → TriEq b rm.ent (rw' x) i' c) →
      (∃ x', solveLoop bm rm (List.range' i d) x = .ok (some x') ∧ x'.length = rm.nrows ∧
        (∀ y ∈ x', y.length = k) ∧ ∀ i', i' < rm.nrows → ∀ c, c < k → TriEq b rm.ent (rw' x') i' c) ∨
      (solveLoop bm rm (List.range' i d) x = .ok none ∧ ∃ c, c < k ∧
        ∀ Y : Nat → Nat → T, ¬ ∀ i', i' < rm.nrows → TriEq b rm.ent Y i' c) := by
  intro d
  induction d with
  | zero =>
    intro i x hi hx hy hT
    left
    exact ⟨x, rfl, by omega, hy, fun i' hi' => hT i' (by omega)⟩
  | succ d ih =>
    intro i x hi hx hy hT
    have hir : i < rm.nrows := by omega
    rw [List.range'_succ]
    unfold solveLoop
    rw [getRow_eq hbw (by omega), getRow_eq hrw hir]
    simp only [Outcome.ok_bind]
    have eb : ∀ j, j ≤ i → rent (bm.rowL i) j = b i j := by
      intro j hj
      rw [rent_rowL, if_pos (by omega), hb i hir j (by omega)]
    have er : ∀ c, c < k → rent (rm.rowL i) c = rm.ent i c := by
      intro c hc
      rw [rent_rowL, if_pos (by omega)]
    have hsum : ∀ c, ∑ j ∈ Finset.range x.length, rent (bm.rowL i) j * rent (x.getD j []) c =
        ∑ j ∈ Finset.range i, b i j * rw' x j c := by
      intro c
      rw [hx]
      apply Finset.sum_congr rfl
      intro j hj
      rw [eb j (by have := Finset.mem_range.1 hj; omega)]; rfl
    have hlen : (rm.rowL i).length = k := by simpa using hrk
    rcases LawfulScalar.solveRow (bm.rowL i) x (rm.rowL i) (by rw [hx, eb i le_rfl]; exact hnorm i hir)
      (by intro j hj; rw [hx, eb i le_rfl, eb j (by omega)]; exact hred i hir j (by omega)) with
      ⟨y, h1, h2, h3⟩ | ⟨h1, c, hc, h2⟩
    · rw [h1]
      simp only [Outcome.ok_bind]
      apply ih (i + 1) (x ++ [y]) (by omega) (by simp [hx])
      · intro z hz
        rcases List.mem_append.1 hz with hz | hz
        · exact hy z hz
        · rw [List.mem_singleton.1 hz, h2, hlen]
      · have old : ∀ j, j < i → rw' (x ++ [y]) j = rw' x j := by
          intro j hj
          unfold rw'
          rw [List.getD, List.getD, List.getElem?_append_left (by omega)]
        have new : rw' (x ++ [y]) i = rent y := by
          unfold rw'
          rw [List.getD, List.getElem?_append_right (by omega)]
          simp [hx]
        intro i' hi' c hc
        unfold TriEq
        have hs : ∑ j ∈ Finset.range i', b i' j * rw' (x ++ [y]) j c =
            ∑ j ∈ Finset.range i', b i' j * rw' x j c := by
          apply Finset.sum_congr rfl
          intro j hj
          rw [old j (by have := Finset.mem_range.1 hj; omega)]
        rw [hs]
        by_cases h : i' < i
        · rw [old i' h]; exact hT i' h c hc
        · have : i' = i := by omega
          subst this
          have h4 := h3 c (by omega)
          rw [hsum, hx, eb i' le_rfl, er c hc] at h4
          rw [new]; exact h4
    · right
      rw [h1]
      refine ⟨rfl, c, by omega, fun Y hY => ?_⟩
      apply h2 (Y i c)
      rw [hsum, hx, eb i le_rfl, er c (by omega)]
      have hu := tri_unique (b := b) (R := rm.ent) (Y := rw' x) (Y' := Y) (i := i) (c := c)
        (fun l hl => LawfulScalar.norm_ne (hnorm l (by omega))) (fun l hl => hT l hl c (by omega))
        (fun l hl => hY l (by omega))
      have h5 := hY i hir
      unfold TriEq at h5
      rw [← h5]
      congr 1
      apply Finset.sum_congr rfl
      intro j hj
      rw [hu j (Finset.mem_range.1 hj)]

end

end Systre
