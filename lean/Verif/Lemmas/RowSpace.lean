import Verif.Lemmas.Echelon
import Verif.Lemmas.MatrixRep
import Mathlib.LinearAlgebra.LinearIndependent.Defs
import Mathlib.LinearAlgebra.Dimension.OrzechProperty
import Mathlib.LinearAlgebra.Dimension.Constructions
import Mathlib.LinearAlgebra.Matrix.Rank
import Mathlib.LinearAlgebra.Matrix.NonsingularInverse
import Mathlib.LinearAlgebra.Matrix.ToLinearEquiv
import Mathlib.RingTheory.OrzechProperty

/-! Helper lemmas: pivots, linear independence and row spaces. -/

set_option linter.unusedSectionVars false

namespace Systre
open Submodule Mat

variable {T : Type} [CommRing T] [IsDomain T]

/-! ### families with strictly increasing pivots -/

section
variable {r : Nat} {b : Fin r → Nat → T} {c : Fin r → Nat}

theorem piv_coeff (hc : StrictMono c) (hp : ∀ i, Piv (b i) (c i)) (g : Fin r → T) (d : Nat)
    (h : ∀ j, j < d → ∑ i, g i * b i j = 0) : ∀ i, c i < d → g i = 0 := by
  intro i
  induction i using WellFoundedLT.induction with
  | _ i ih =>
  intro hi
  have := h (c i) hi
  rw [Finset.sum_eq_single i] at this
  · exact (mul_eq_zero.1 this).resolve_right (hp i).2
  · intro k _ hk
    rcases lt_or_gt_of_ne hk with h1 | h1
    · rw [ih k h1 (lt_trans (hc h1) hi), zero_mul]
    · rw [(hp k).1 _ (hc h1), mul_zero]
  · simp

theorem piv_li (hc : StrictMono c) (hp : ∀ i, Piv (b i) (c i)) : LinearIndependent T b := by
  rw [Fintype.linearIndependent_iff]
  intro g hg i
  refine piv_coeff hc hp g (c i + 1) (fun j _ => ?_) i (by omega)
  have := congrFun hg j
  simpa using this

theorem piv_mem (hc : StrictMono c) (hp : ∀ i, Piv (b i) (c i)) {f : Nat → T}
    (hf : f ∈ span T (Set.range b)) {d : Nat} (hd : Piv f d) : ∃ i, c i = d := by
  obtain ⟨g, rfl⟩ := (mem_span_range_iff_exists_fun T).1 hf
  by_contra hne
  push Not at hne
  have h0 := piv_coeff hc hp g d (fun j hj => by have := hd.1 j hj; simpa using this)
  apply hd.2
  simp only [Finset.sum_apply, Pi.smul_apply, smul_eq_mul]
  apply Finset.sum_eq_zero
  intro i _
  rcases lt_or_gt_of_ne (hne i) with h | h
  · rw [h0 i h, zero_mul]
  · rw [(hp i).1 d h, mul_zero]
end

/-! ### lists of rows as families -/

def bv (bs : List (List T)) : Fin bs.length → Nat → T := fun i => rent bs[i.1]

theorem range_bv (bs : List (List T)) : Set.range (bv bs) = {f | ∃ b ∈ bs, f = rent b} := by
  ext f
  constructor
  · rintro ⟨i, rfl⟩; exact ⟨bs[i.1], List.getElem_mem i.2, rfl⟩
  · rintro ⟨b, hb, rfl⟩
    obtain ⟨i, hi, rfl⟩ := List.getElem_of_mem hb
    exact ⟨⟨i, hi⟩, rfl⟩

theorem rspan_eq_range (bs : List (List T)) : rspan bs = span T (Set.range (bv bs)) := by
  rw [range_bv]; rfl

theorem Ech.pivots {n : Nat} {bs : List (List T)} (h : Ech n bs) :
    ∃ c : Fin bs.length → Nat, StrictMono c ∧ ∀ i, Piv (bv bs i) (c i) ∧ c i < n := by
  have h1 : ∀ i : Fin bs.length, ∃ c, Piv (bv bs i) c := fun i => (h.row _ (List.getElem_mem i.2)).2
  choose c hc using h1
  refine ⟨c, ?_, fun i => ⟨hc i, ?_⟩⟩
  · intro i j hij
    have := List.pairwise_iff_getElem.1 h.inc i j i.2 j.2 hij (c i) (hc i)
    by_contra hle
    exact (hc j).2 (this (c j) (by omega))
  · have := (hc i).lt_length
    rwa [(h.row _ (List.getElem_mem i.2)).1] at this

theorem Ech.li {n : Nat} {bs : List (List T)} (h : Ech n bs) : LinearIndependent T (bv bs) := by
  obtain ⟨c, hc, hp⟩ := h.pivots
  exact piv_li hc (fun i => (hp i).1)

theorem Ech.finrank {n : Nat} {bs : List (List T)} (h : Ech n bs) :
    Module.finrank T (rspan bs) = bs.length := by
  rw [rspan_eq_range, finrank_span_eq_card h.li, Fintype.card_fin]

/-! ### embedding of finite rows -/

/-- extension by zero -/
def emb (n : Nat) : (Fin n → T) →ₗ[T] (Nat → T) where
  toFun f k := if h : k < n then f ⟨k, h⟩ else 0
  map_add' f g := by ext k; by_cases h : k < n <;> simp [h]
  map_smul' a f := by ext k; by_cases h : k < n <;> simp [h]

theorem emb_lt {n : Nat} (f : Fin n → T) (i : Fin n) : emb n f i.1 = f i := by simp [emb]

theorem emb_inj (n : Nat) : Function.Injective (emb n : (Fin n → T) →ₗ[T] (Nat → T)) := by
  intro f g h
  ext i
  rw [← emb_lt f, h, emb_lt]

/-- a list as a vector of length `n` -/
def vecN (n : Nat) (l : List T) : Fin n → T := fun i => rent l i.1

theorem emb_vecN {n : Nat} {l : List T} (h : l.length ≤ n) : emb n (vecN n l) = rent l := by
  ext k
  by_cases hk : k < n
  · simp [emb, vecN, hk]
  · simp only [emb, LinearMap.coe_mk, AddHom.coe_mk, dif_neg hk]
    rw [rent_ge (by omega)]

theorem rspan_map {n : Nat} {bs : List (List T)} (h : ∀ b ∈ bs, b.length = n) :
    rspan bs = map (emb n) (span T (vecN n '' {b | b ∈ bs})) := by
  rw [map_span]
  unfold rspan
  congr 1
  ext f
  constructor
  · rintro ⟨b, hb, rfl⟩
    exact ⟨vecN n b, ⟨b, hb, rfl⟩, emb_vecN (h b hb).le⟩
  · rintro ⟨_, ⟨b, hb, rfl⟩, rfl⟩
    exact ⟨b, hb, emb_vecN (h b hb).le⟩

theorem rspan_eq_iff {n : Nat} {bs bs' : List (List T)} (h : ∀ b ∈ bs, b.length = n)
    (h' : ∀ b ∈ bs', b.length = n) :
    rspan bs = rspan bs' ↔ span T (vecN n '' {b | b ∈ bs}) = span T (vecN n '' {b | b ∈ bs'}) := by
  rw [rspan_map h, rspan_map h']
  exact (map_injective_of_injective (emb_inj n)).eq_iff

theorem bv_vecN {n : Nat} {bs : List (List T)} (h : ∀ b ∈ bs, b.length = n) :
    bv bs = emb n ∘ (fun i : Fin bs.length => vecN n bs[i.1]) := by
  ext i
  simp only [Function.comp]
  rw [emb_vecN (h _ (List.getElem_mem i.2)).le]; rfl

theorem li_vecN {n : Nat} {bs : List (List T)} (h : ∀ b ∈ bs, b.length = n) :
    LinearIndependent T (bv bs) ↔ LinearIndependent T (fun i : Fin bs.length => vecN n bs[i.1]) := by
  rw [bv_vecN h]
  exact LinearMap.linearIndependent_iff _ (LinearMap.ker_eq_bot.2 (emb_inj n))

/-! ### matrices -/

theorem rent_rowL (m : Mat T) (i j : Nat) : rent (m.rowL i) j = if j < m.ncols then m.ent i j else 0 := by
  split
  · rename_i h; exact m.rowL_getD i j h
  · rename_i h; exact rent_ge (by simpa using h)

theorem rent_rowL_rep {m : Mat T} {r c : Nat} {M : Matrix (Fin r) (Fin c) T} (h : Rep m M) (i : Fin r) :
    rent (m.rowL i.1) = emb c (M.row i) := by
  ext j
  rw [rent_rowL, h.cols]
  by_cases hj : j < c
  · simp only [emb, LinearMap.coe_mk, AddHom.coe_mk, dif_pos hj, if_pos hj]
    exact h.ent i ⟨j, hj⟩
  · simp [emb, hj]

def rowsL (m : Mat T) : List (List T) := (List.range m.nrows).map m.rowL

theorem rowsL_len {m : Mat T} : ∀ b ∈ rowsL m, b.length = m.ncols := by
  intro b hb
  obtain ⟨i, _, rfl⟩ := List.mem_map.1 hb
  simp

theorem rspan_rowsL {m : Mat T} {r c : Nat} {M : Matrix (Fin r) (Fin c) T} (h : Rep m M) :
    rspan (rowsL m) = map (emb c) (span T (Set.range M.row)) := by
  rw [map_span]
  unfold rspan
  congr 1
  ext f
  constructor
  · rintro ⟨b, hb, rfl⟩
    obtain ⟨i, hi, rfl⟩ := List.mem_map.1 hb
    rw [List.mem_range, h.rows] at hi
    exact ⟨M.row ⟨i, hi⟩, ⟨⟨i, hi⟩, rfl⟩, (rent_rowL_rep h ⟨i, hi⟩).symm⟩
  · rintro ⟨_, ⟨i, rfl⟩, rfl⟩
    exact ⟨m.rowL i.1, List.mem_map.2 ⟨i.1, by rw [List.mem_range, h.rows]; exact i.2, rfl⟩,
      (rent_rowL_rep h i).symm⟩

section
variable [Scalar T] [DecidableEq T] [LawfulScalar T]

theorem rowBasis_ok {m : Mat T} (h : m.WF) : ∃ bs, rowBasis m = .ok bs ∧ Ech m.ncols bs ∧
    rspan bs = rspan (rowsL m) ∧ bs.length ≤ m.nrows ∧
    ((bs.length < m.nrows ∧ ∀ D, Alt m.ncols D → D (rowsL m) = 0) ∨
     (bs.length = m.nrows ∧ ∀ D, Alt m.ncols D → D (rowsL m) = D bs)) := by
  unfold rowBasis
  rw [getRows_eq h]
  simp only [Outcome.ok_bind]
  obtain ⟨bs, h1, h2, h3, h4, h5⟩ := extendAll_ok m.ncols (rowsL m) [] (Ech.nil _) rowsL_len
  have hlen : (rowsL m).length = m.nrows := by simp [rowsL]
  refine ⟨bs, h1, h2, by simpa using h3, by simpa [hlen] using h4, ?_⟩
  rcases h5 with ⟨h5, h6⟩ | ⟨h5, h6⟩
  · left
    exact ⟨by simpa [hlen] using h5, fun D hD => by simpa using h6 D hD []⟩
  · right
    exact ⟨by simpa [hlen] using h5, fun D hD => by simpa using h6 D hD []⟩

theorem rank_ok {m : Mat T} (h : m.WF) : rank m = .ok (Module.finrank T (rspan (rowsL m))) := by
  obtain ⟨bs, h1, h2, h3, _⟩ := rowBasis_ok h
  unfold rank
  rw [h1]
  simp only [Outcome.ok_bind]
  rw [← h3, h2.finrank]

theorem rank_rep {m : Mat T} {r c : Nat} {M : Matrix (Fin r) (Fin c) T} (h : Rep m M) :
    rank m = .ok (Module.finrank T (span T (Set.range M.row))) := by
  rw [rank_ok h.wf, rspan_rowsL h]
  congr 1
  exact (LinearEquiv.finrank_eq (equivMapOfInjective _ (emb_inj c) _)).symm

/-- the matrix `reduced_basis` makes of a list of rows -/
def matOf (n : Nat) (bs : List (List T)) : Mat T := if bs = [] then ⟨0, 0, []⟩ else ofRows n bs

theorem stackRows_ok {n : Nat} {bs : List (List T)} (hl : ∀ b ∈ bs, b.length = n) (hn : bs ≠ [] → 0 < n) :
    stackRows bs = .ok (matOf n bs) := by
  unfold stackRows matOf
  by_cases h : bs = []
  · subst h; rfl
  · rw [if_neg h, omap_ok (g := fun r => ofRows n [r]) (fun b hb => row_eq b (hl b hb) (hn h))]
    simp only [Outcome.ok_bind]
    exact vstack_rows (hn h) bs hl h

theorem reducedBasis_ok {m : Mat T} (h : m.WF) : ∃ bs, reducedBasis m = .ok (matOf m.ncols bs) ∧
    Ech m.ncols bs ∧ RedEch bs ∧ rspan bs = rspan (rowsL m) ∧ bs.length ≤ m.nrows := by
  obtain ⟨bs0, h1, h2, h3, h4, _⟩ := rowBasis_ok h
  obtain ⟨bs, h5, h6, h7, h8, h9⟩ := reduceRows_ok m.ncols bs0 [] 0 (by simpa using h2)
    ⟨by simp, by simp⟩ (by intros; omega)
  refine ⟨bs, ?_, h6, h7, ?_, ?_⟩
  · unfold reducedBasis
    rw [h1]
    simp only [Outcome.ok_bind]
    rw [h5]
    simp only [Outcome.ok_bind]
    refine stackRows_ok (fun b hb => (h6.row b hb).1) (fun hne => ?_)
    obtain ⟨b, hb⟩ := List.exists_mem_of_ne_nil _ hne
    obtain ⟨hl, c, hc⟩ := h6.row b hb
    have := hc.lt_length
    omega
  · rw [h8, List.nil_append, h3]
  · rw [h9, List.nil_append]; exact h4

end

end Systre
