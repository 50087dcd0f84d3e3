import Verif.Spec.Modular
import Verif.Lemmas.Modular
import Verif.Lemmas.Matrices
import Mathlib.LinearAlgebra.Matrix.NonsingularInverse
import Mathlib.LinearAlgebra.Matrix.ToLinearEquiv
import Mathlib.LinearAlgebra.Finsupp.LinearCombination
import Mathlib.FieldTheory.Finite.Basic

namespace Systre.Modular
open Systre Submodule

section lists
variable {T : Type} {r c : Nat}

theorem toLists_length (A : Matrix (Fin r) (Fin c) T) : (toLists A).length = r := by simp [toLists]

theorem toLists_getD [Zero T] (A : Matrix (Fin r) (Fin c) T) (i : Fin r) :
    (toLists A).getD i.1 [] = List.ofFn (A i) := by
  simp [toLists, List.getD]

theorem rent_ofFn [Zero T] (f : Fin c → T) (j : Fin c) : rent (List.ofFn f) j.1 = f j := by
  simp [rent, List.getD]

theorem toLists_ent [Zero T] (A : Matrix (Fin r) (Fin c) T) (i : Fin r) (j : Fin c) :
    rent ((toLists A).getD i.1 []) j.1 = A i j := by
  rw [toLists_getD, rent_ofFn]

theorem omap_ofFn {α β : Type} {f : α → Outcome β} {n : Nat} {g : Fin n → α} {g' : Fin n → β}
    (h : ∀ i, f (g i) = .ok (g' i)) : omap f (List.ofFn g) = .ok (List.ofFn g') := by
  induction n with
  | zero => simp [omap]
  | succ n ih =>
    rw [List.ofFn_succ, List.ofFn_succ]
    simp only [omap, h 0]
    rw [ih (fun i => h i.succ)]

theorem omap_range {β : Type} {f : Nat → Outcome β} {n : Nat} {g : Fin n → β}
    (h : ∀ i : Fin n, f i.1 = .ok (g i)) : omap f (List.range n) = .ok (List.ofFn g) := by
  have : List.range n = List.ofFn (fun i : Fin n => i.1) := by
    apply List.ext_getElem <;> simp
  rw [this]
  exact omap_ofFn h

theorem exists_toLists (a : List (List T)) (n c : Nat) (h1 : a.length = n) (h2 : ∀ row ∈ a, row.length = c) :
    ∃ A : Matrix (Fin n) (Fin c) T, a = toLists A := by
  subst h1
  refine ⟨fun i j => a[i.1][j.1]'(by rw [h2 _ (List.getElem_mem i.2)]; exact j.2), ?_⟩
  apply List.ext_getElem
  · simp [toLists]
  · intro i hi hi'
    have := h2 _ (List.getElem_mem hi)
    apply List.ext_getElem
    · simp [toLists, this]
    · intro j hj hj'; simp [toLists]

theorem toLists_injective {A B : Matrix (Fin r) (Fin c) T} (h : toLists A = toLists B) : A = B := by
  unfold toLists at h
  have := List.ofFn_injective h
  ext i j
  exact congrFun (List.ofFn_injective (congrFun this i)) j

theorem vecGet_ofFn (f : Fin c → T) (j : Fin c) : vecGet (List.ofFn f) j.1 = .ok (f j) := by
  rw [vecGet_eq_ok]; simp

theorem mget_toLists (A : Matrix (Fin r) (Fin c) Int) (i : Fin r) (j : Fin c) :
    mget (toLists A) i.1 j.1 = .ok (A i j) := by
  unfold mget
  rw [toLists, vecGet_ofFn]
  simp only [Outcome.ok_bind]
  rw [vecGet_ofFn]

theorem sameLengths_toLists (A : Matrix (Fin r) (Fin c) Int) : sameLengths (toLists A) = true := by
  cases r with
  | zero => simp [toLists, sameLengths]
  | succ r => simp [toLists, sameLengths, List.ofFn_succ, List.all_eq_true]

end lists

section step
variable {n c : Nat} {p : Nat}

theorem findPivot_none {A : Matrix (Fin n) (Fin c) Int} {k : Nat} {l : Fin c}
    (h : findPivot (toLists A) k l.1 = none) (i : Fin n) (hi : k ≤ i.1) : A i l = 0 := by
  unfold findPivot at h
  rw [List.find?_eq_none] at h
  have := h i.1 (by rw [List.mem_range'_1, toLists_length]; omega)
  rw [toLists_ent] at this
  simpa using this

theorem findPivot_some {A : Matrix (Fin n) (Fin c) Int} {k r : Nat} {l : Fin c}
    (h : findPivot (toLists A) k l.1 = some r) : ∃ hr : r < n, k ≤ r ∧ A ⟨r, hr⟩ l ≠ 0 := by
  unfold findPivot at h
  have h1 := List.mem_of_find?_eq_some h
  have h2 := List.find?_some h
  rw [List.mem_range'_1, toLists_length] at h1
  refine ⟨by omega, h1.1, ?_⟩
  have h3 := toLists_ent A ⟨r, by omega⟩ l
  simp only at h3
  rw [h3] at h2
  simpa using h2

theorem swapRows_toLists (A : Matrix (Fin n) (Fin c) Int) (i j : Fin n) :
    swapRows (toLists A) i.1 j.1 = toLists (fun k => A (Equiv.swap i j k)) := by
  unfold swapRows
  rw [toLists_getD, toLists_getD]
  apply List.ext_getElem
  · simp [toLists]
  · intro k hk hk'
    have hk2 : k < n := by simpa [toLists] using hk'
    simp only [toLists, List.getElem_ofFn, List.getElem_set]
    by_cases h1 : k = j.1
    · have : (⟨k, hk2⟩ : Fin n) = j := Fin.ext h1
      simp [this, h1]
    · by_cases h2 : k = i.1
      · have : (⟨k, hk2⟩ : Fin n) = i := Fin.ext h2
        simp [this, h2, Ne.symm h1]
        intro h3; omega
      · have : Equiv.swap i j ⟨k, hk2⟩ = ⟨k, hk2⟩ :=
          Equiv.swap_apply_of_ne_of_ne (by intro h; exact h2 (by rw [← h])) (by intro h; exact h1 (by rw [← h]))
        simp [this, Ne.symm h1, Ne.symm h2]

theorem cast_tmod {x : Int} (hx : 0 ≤ x) : ((x.tmod p : Int) : ZMod p) = x := by
  rw [Int.tmod_eq_emod_of_nonneg hx]
  exact ZMod.intCast_mod x p

theorem tmod_range {x : Int} (hp : 0 < p) (hx : 0 ≤ x) : 0 ≤ x.tmod p ∧ x.tmod p < p :=
  ⟨Int.tmod_nonneg _ hx, Int.tmod_lt_of_pos _ (by exact_mod_cast hp)⟩

theorem scaleRow_ok {ck : Int → Outcome Int} (hck : Accepts ck (p * p : Nat)) (hp : 0 < p) (k : Nat)
    (f : Int) (hf : 0 ≤ f ∧ f < p) (row : Fin c → Int) (hr : ∀ j, 0 ≤ row j ∧ row j < p)
    (hz : ∀ j : Fin c, j.1 < k → row j = 0) :
    ∃ row' : Fin c → Int, scaleRow ck p k f (List.ofFn row) = .ok (List.ofFn row') ∧
      (∀ j, 0 ≤ row' j ∧ row' j < p) ∧ (∀ j, ((row' j : Int) : ZMod p) = (f : ZMod p) * row j) ∧
      (∀ j : Fin c, j.1 < k → row' j = 0) ∧ (∀ j : Fin c, k ≤ j.1 → row' j = (row j * f).tmod p) := by
  refine ⟨fun j => if j.1 < k then row j else (row j * f).tmod p, ?_, ?_, ?_, ?_, ?_⟩
  · unfold scaleRow
    rw [List.length_ofFn]
    apply omap_range
    intro j
    rw [rent_ofFn]
    split
    · rfl
    · rw [hck]
      · rfl
      · have := hr j
        rw [abs_of_nonneg (mul_nonneg this.1 hf.1)]
        push_cast
        exact mul_le_mul this.2.le hf.2.le hf.1 (by omega)
  · intro j
    simp only
    split
    · exact hr j
    · exact tmod_range hp (mul_nonneg (hr j).1 hf.1)
  · intro j
    simp only
    split
    · rw [hz j ‹_›]; simp
    · rw [cast_tmod (mul_nonneg (hr j).1 hf.1)]; push_cast; ring
  · intro j hj
    simp only [if_pos hj]; exact hz j hj
  · intro j hj
    simp only [if_neg (not_lt.2 hj)]

theorem clearRow_ok {ck : Int → Outcome Int} (hck : Accepts ck (p * p : Nat)) (hp : 1 < p) (k : Fin c)
    (piv row : Fin c → Int) (hv : ∀ j, 0 ≤ piv j ∧ piv j < p) (hr : ∀ j, 0 ≤ row j ∧ row j < p)
    (hz : ∀ j : Fin c, j.1 < k.1 → piv j = 0) (h1 : piv k = 1) :
    ∃ row' : Fin c → Int, clearRow ck p k.1 (List.ofFn piv) (List.ofFn row) = .ok (List.ofFn row') ∧
      (∀ j, 0 ≤ row' j ∧ row' j < p) ∧
      (∀ j, ((row' j : Int) : ZMod p) = (row j : ZMod p) - (row k : ZMod p) * piv j) ∧
      (∀ j : Fin c, j.1 < k.1 → row' j = row j) ∧ row' k = 0 := by
  have hpp : (p : Int) + p ≤ (p * p : Nat) := by
    push_cast; nlinarith [show (2 : Int) ≤ p by exact_mod_cast hp]
  unfold clearRow
  rw [rent_ofFn, List.length_ofFn]
  by_cases hf : row k = 0
  · refine ⟨row, ?_, hr, ?_, fun _ _ => rfl, hf⟩
    · simp [hf]
    · intro j; rw [hf]; simp
  · simp only [ne_eq, hf, not_false_eq_true, if_true]
    have hx : ∀ j, 0 ≤ piv j * row k ∧ piv j * row k ≤ (p * p : Nat) := fun j => by
      constructor
      · exact mul_nonneg (hv j).1 (hr k).1
      · push_cast
        exact mul_le_mul (hv j).2.le (hr k).2.le (hr k).1 (by omega)
    have ht : ∀ j, 0 ≤ (piv j * row k).tmod p ∧ (piv j * row k).tmod p < p :=
      fun j => tmod_range (by omega) (hx j).1
    have hzz : ∀ j, 0 ≤ (p : Int) - (piv j * row k).tmod p + row j := fun j => by
      have := ht j; have := hr j; omega
    refine ⟨fun j => if j.1 < k.1 then row j else if piv j ≠ 0 then
      (p - (piv j * row k).tmod p + row j).tmod p else row j, ?_, ?_, ?_, ?_, ?_⟩
    · apply omap_range
      intro j
      rw [rent_ofFn, rent_ofFn]
      split
      · rfl
      · split
        · rw [hck _ (by rw [abs_of_nonneg (hx j).1]; exact (hx j).2)]
          simp only [Outcome.ok_bind]
          rw [hck _ (by have := ht j; rw [abs_of_nonneg (by omega)]; omega)]
          simp only [Outcome.ok_bind]
          rw [hck _ (by have := ht j; have := hr j; rw [abs_of_nonneg (by omega)]; omega)]
          rfl
        · rfl
    · intro j
      simp only
      split
      · exact hr j
      · split
        · exact tmod_range (by omega) (hzz j)
        · exact hr j
    · intro j
      simp only
      split
      · rename_i hj; rw [hz j hj]; simp
      · split
        · rw [cast_tmod (hzz j)]
          push_cast
          rw [cast_tmod (hx j).1]
          push_cast
          simp; ring
        · rename_i hj; simp at hj; simp [hj]
    · intro j hj; simp [hj]
    · simp only [lt_irrefl, if_false, h1]
      have h2 : (row k).tmod p = row k := Int.tmod_eq_of_lt (hr k).1 (hr k).2
      simp [h2]

end step

section spans
variable {K : Type} [Field K] {n c : Nat}

theorem span_swap (A : Matrix (Fin n) (Fin c) K) (e : Equiv.Perm (Fin n)) :
    span K (Set.range (fun i => A (e i))) = span K (Set.range A.row) := by
  congr 1
  exact e.surjective.range_comp A.row

theorem span_elim (A B : Matrix (Fin n) (Fin c) K) (k : Fin n) (f g : K) (w : Fin n → K) (hfg : g * f = 1)
    (hk : B k = f • A k) (hi : ∀ i, i ≠ k → B i = A i - w i • B k) :
    span K (Set.range B.row) = span K (Set.range A.row) := by
  have hB : ∀ i, B.row i = B i := fun _ => rfl
  have hA : ∀ i, A.row i = A i := fun _ => rfl
  have hkA : B k ∈ span K (Set.range A.row) := by
    rw [hk]; exact smul_mem _ _ (subset_span ⟨k, rfl⟩)
  apply le_antisymm <;> rw [span_le] <;> rintro _ ⟨i, rfl⟩
  · rw [hB]
    by_cases h : i = k
    · rw [h]; exact hkA
    · rw [hi i h]; exact sub_mem (subset_span ⟨i, rfl⟩) (smul_mem _ _ hkA)
  · rw [hA]
    by_cases h : i = k
    · have : A k = g • B k := by rw [hk, smul_smul, hfg, one_smul]
      rw [h, this]; exact smul_mem _ _ (subset_span ⟨k, rfl⟩)
    · have : A i = B i + w i • B k := by rw [hi i h]; simp
      rw [this]; exact add_mem (subset_span ⟨i, rfl⟩) (smul_mem _ _ (subset_span ⟨k, rfl⟩))

theorem exists_mul_of_span {m : Nat} {A : Matrix (Fin n) (Fin c) K} {B : Matrix (Fin m) (Fin c) K}
    (h : span K (Set.range B.row) ≤ span K (Set.range A.row)) : ∃ P : Matrix (Fin m) (Fin n) K, B = P * A := by
  have : ∀ i, ∃ w : Fin n → K, ∑ j, w j • A.row j = B.row i := fun i => by
    rw [← mem_span_range_iff_exists_fun]
    exact h (subset_span ⟨i, rfl⟩)
  choose P hP using this
  refine ⟨Matrix.of P, ?_⟩
  ext i j
  have := congrFun (hP i) j
  rw [Matrix.mul_apply]
  rw [show B i j = B.row i j from rfl, ← this]
  simp [Finset.sum_apply]

end spans

section loop
variable {n c : Nat} {p : Nat} [hpf : Fact p.Prime]

/-- One step of the elimination on residues. -/
theorem refStep_ok {ck : Int → Outcome Int} (hck : Accepts ck (p * p : Nat)) (A : Matrix (Fin n) (Fin c) Int)
    (hA : Residues p A) (k : Fin c) (hz : ∀ (i : Fin n) (j : Fin c), j.1 < k.1 → k.1 ≤ i.1 → A i j = 0) :
    (refStep ck p k.1 k.1 (toLists A) = .ok (toLists A) ∧ ∀ i : Fin n, k.1 ≤ i.1 → A i k = 0) ∨
    (∃ A' : Matrix (Fin n) (Fin c) Int, refStep ck p k.1 k.1 (toLists A) = .ok (toLists A') ∧ k.1 < n ∧
      Residues p A' ∧ span (ZMod p) (Set.range (modP p A').row) = span (ZMod p) (Set.range (modP p A).row) ∧
      (∀ i, A' i k = if i.1 = k.1 then 1 else 0) ∧ ∀ (i : Fin n) (j : Fin c), j.1 < k.1 → A' i j = A i j) := by
  have hp1 : 1 < p := hpf.out.one_lt
  unfold refStep
  cases hfp : findPivot (toLists A) k.1 k.1 with
  | none => exact Or.inl ⟨rfl, fun i hi => findPivot_none hfp i hi⟩
  | some r =>
    right
    obtain ⟨hr, hkr, hne⟩ := findPivot_some hfp
    have hkn : k.1 < n := by omega
    let kk : Fin n := ⟨k.1, hkn⟩
    let A1 : Matrix (Fin n) (Fin c) Int := fun i => A (Equiv.swap kk ⟨r, hr⟩ i)
    have hsw : (if r ≠ k.1 then swapRows (toLists A) k.1 r else toLists A) = toLists A1 := by
      split
      · exact swapRows_toLists A kk ⟨r, hr⟩
      · rename_i h
        have h : r = k.1 := by simpa using h
        have : A1 = A := by
          funext i
          show A (Equiv.swap kk ⟨r, hr⟩ i) = A i
          have : (⟨r, hr⟩ : Fin n) = kk := Fin.ext h
          rw [this, Equiv.swap_self]; rfl
        rw [this]
    have hA1 : Residues p A1 := fun i j => hA _ j
    have hz1 : ∀ (i : Fin n) (j : Fin c), j.1 < k.1 → A1 i j = A i j := by
      intro i j hj
      show A (Equiv.swap kk ⟨r, hr⟩ i) j = A i j
      by_cases h1 : i = kk
      · rw [h1, Equiv.swap_apply_left, hz ⟨r, hr⟩ j hj hkr, hz kk j hj le_rfl]
      · by_cases h2 : i = ⟨r, hr⟩
        · rw [h2, Equiv.swap_apply_right, hz kk j hj le_rfl, hz ⟨r, hr⟩ j hj hkr]
        · rw [Equiv.swap_apply_of_ne_of_ne h1 h2]
    have hne1 : A1 kk k ≠ 0 := by
      show A (Equiv.swap kk ⟨r, hr⟩ kk) k ≠ 0
      rw [Equiv.swap_apply_left]; exact hne
    have hcop : Int.gcd (A1 kk k) p = 1 := by
      have h1 := hA1 kk k
      have h2 : (A1 kk k).natAbs < p := by omega
      have h3 : (A1 kk k).natAbs ≠ 0 := by omega
      have := (Nat.Prime.coprime_iff_not_dvd hpf.out).2 (fun hd => by
        have := Nat.le_of_dvd (by omega) hd; omega : ¬ p ∣ (A1 kk k).natAbs)
      rw [Int.gcd_comm]
      exact this
    obtain ⟨f, hf, hf0, hf1, hf2⟩ := (modularInverse_ok (hck.mono (by push_cast; nlinarith)) (by omega)
      (hA1 kk k).1 (hA1 kk k).2).1 hcop
    obtain ⟨piv, hpv, hpr, hpc, hpz, hpe⟩ := scaleRow_ok hck (by omega) k.1 f ⟨hf0, hf1⟩ (A1 kk) (hA1 kk)
      (fun j hj => by rw [hz1 kk j hj]; exact hz kk j hj le_rfl)
    have hfm : (f : ZMod p) * (A1 kk k : ZMod p) = 1 := by
      have h1 : (p : Int) ∣ A1 kk k * f - 1 := hf2
      have h2 := (ZMod.intCast_zmod_eq_zero_iff_dvd _ p).2 h1
      push_cast at h2
      rw [mul_comm]; exact sub_eq_zero.1 h2
    have hp1' : piv k = 1 := by
      have h1 : ((piv k : Int) : ZMod p) = ((1 : Int) : ZMod p) := by rw [hpc, hfm]; simp
      rw [ZMod.intCast_eq_intCast_iff] at h1
      have h2 : piv k % p = 1 % p := h1
      rw [Int.emod_eq_of_lt (hpr k).1 (hpr k).2, Int.emod_eq_of_lt (by omega) (by exact_mod_cast hp1)] at h2
      exact h2
    have hcl : ∀ i : Fin n, ∃ row' : Fin c → Int, (if i.1 ≠ k.1 then
        clearRow ck p k.1 (List.ofFn piv) ((toLists A1).getD i.1 []) else .ok (List.ofFn piv)) =
          .ok (List.ofFn row') ∧ (∀ j, 0 ≤ row' j ∧ row' j < p) ∧
        (∀ j : Fin c, j.1 < k.1 → row' j = A i j) ∧ (row' k = if i.1 = k.1 then 1 else 0) ∧
        (i = kk → row' = piv) ∧ (i ≠ kk → ∀ j, ((row' j : Int) : ZMod p) = (A1 i j : ZMod p) -
          (A1 i k : ZMod p) * piv j) := by
      intro i
      by_cases hi : i.1 = k.1
      · have hik : i = kk := Fin.ext hi
        refine ⟨piv, by simp [hi], hpr, ?_, by simp [hi, hp1'], fun _ => rfl, fun h => absurd hik h⟩
        intro j hj
        rw [hpz j hj, hik, hz kk j hj le_rfl]
      · obtain ⟨row', h1, h2, h3, h4, h5⟩ := clearRow_ok hck hp1 k piv (A1 i) hpr (hA1 i) hpz hp1'
        refine ⟨row', ?_, h2, ?_, ?_, ?_, fun _ => h3⟩
        · rw [if_pos hi, toLists_getD, h1]
        · intro j hj; rw [h4 j hj, hz1 i j hj]
        · rw [h5, if_neg hi]
        · intro h; exact absurd (by rw [h]) hi
    choose A' hA'1 hA'2 hA'3 hA'4 hA'5 hA'6 using hcl
    refine ⟨A', ?_, hkn, hA'2, ?_, hA'4, hA'3⟩
    · simp only [hsw]
      rw [show (toLists A1).getD k.1 [] = List.ofFn (A1 kk) from toLists_getD A1 kk, rent_ofFn, hf]
      simp only [Outcome.ok_bind, unwrap]
      rw [hpv]
      simp only [Outcome.ok_bind]
      rw [toLists_length]
      exact omap_range hA'1
    · rw [span_elim (modP p A1) (modP p A') kk (f : ZMod p) (A1 kk k : ZMod p)
        (fun i => (A1 i k : ZMod p)) (by rw [mul_comm]; exact hfm) ?_ ?_]
      · exact span_swap (modP p A) (Equiv.swap kk ⟨r, hr⟩)
      · funext j
        show ((A' kk j : Int) : ZMod p) = (f : ZMod p) * ((A1 kk j : Int) : ZMod p)
        rw [hA'5 kk rfl, hpc]
      · intro i hi
        funext j
        show ((A' i j : Int) : ZMod p) = (A1 i j : ZMod p) - (A1 i k : ZMod p) * ((A' kk j : Int) : ZMod p)
        rw [hA'5 kk rfl]
        exact hA'6 i hi j

/-- The leading square block. -/
def lead {K : Type} (h : n ≤ c) (A : Matrix (Fin n) (Fin c) K) : Matrix (Fin n) (Fin n) K :=
  fun i j => A i (Fin.castLE h j)

theorem lead_mul {K : Type} [Field K] (h : n ≤ c) (P : Matrix (Fin n) (Fin n) K) (A : Matrix (Fin n) (Fin c) K) :
    lead h (P * A) = P * lead h A := by
  ext i j
  rfl

theorem lead_det_of_span {K : Type} [Field K] (h : n ≤ c) {A B : Matrix (Fin n) (Fin c) K}
    (hs : span K (Set.range A.row) ≤ span K (Set.range B.row)) (hd : (lead h A).det ≠ 0) :
    (lead h B).det ≠ 0 := by
  obtain ⟨P, hP⟩ := exists_mul_of_span hs
  rw [hP, lead_mul, Matrix.det_mul] at hd
  exact right_ne_zero_of_mul hd

/-- A missing pivot in column `k` after `k` unit columns makes the leading block singular. -/
theorem lead_singular {K : Type} [Field K] (h : n ≤ c) (A : Matrix (Fin n) (Fin c) K) (k : Fin n)
    (hu : ∀ (i j : Fin n), j.1 < k.1 → lead h A i j = if i = j then 1 else 0)
    (hk : ∀ i : Fin n, k.1 ≤ i.1 → lead h A i k = 0) : (lead h A).det = 0 := by
  rw [← Matrix.exists_mulVec_eq_zero_iff]
  refine ⟨fun j => if j = k then 1 else if j.1 < k.1 then - lead h A j k else 0, ?_, ?_⟩
  · intro h0
    have := congrFun h0 k
    simp at this
  · funext i
    simp only [Matrix.mulVec, dotProduct, Pi.zero_apply]
    have : ∀ j : Fin n, lead h A i j * (if j = k then 1 else if j.1 < k.1 then - lead h A j k else 0) =
        (if j = k then lead h A i k else 0) + (if j = i then (if i.1 < k.1 then - lead h A i k else 0) else 0) := by
      intro j
      by_cases h1 : j = k
      · subst h1
        by_cases h2 : j = i
        · subst h2; simp
        · simp [h2]
      · by_cases h2 : j.1 < k.1
        · rw [hu i j h2]
          by_cases h3 : i = j
          · subst h3; simp [h1, h2]
          · simp [h1, h3, Ne.symm h3]
        · by_cases h3 : j = i
          · subst h3; simp [h1, h2]
          · simp [h1, h2, h3]
    simp only [this, Finset.sum_add_distrib, Finset.sum_ite_eq', Finset.mem_univ, if_true]
    split
    · simp
    · rename_i h1; rw [hk i (by omega)]; simp

theorem refLoop_ok {ck : Int → Outcome Int} (hck : Accepts ck (p * p : Nat)) : ∀ (m k : Nat)
    (A : Matrix (Fin n) (Fin c) Int), k + m = c → Residues p A →
    (∀ (i : Fin n) (j : Fin c), j.1 < k → k ≤ i.1 → A i j = 0) →
    ∃ A' : Matrix (Fin n) (Fin c) Int, refLoop ck p (List.range' k m) k (toLists A) = .ok (toLists A') ∧
      Residues p A' ∧ span (ZMod p) (Set.range (modP p A').row) = span (ZMod p) (Set.range (modP p A).row) ∧
      ∀ h : n ≤ c, (lead h (modP p A)).det ≠ 0 →
        (∀ (i j : Fin n), j.1 < k → A i (Fin.castLE h j) = if i = j then 1 else 0) →
        ∀ (i j : Fin n), A' i (Fin.castLE h j) = if i = j then 1 else 0 := by
  intro m
  induction m with
  | zero =>
    intro k A hkc hA hz
    refine ⟨A, rfl, hA, rfl, ?_⟩
    intro h hd hg i j
    exact hg i j (by omega)
  | succ m ih =>
    intro k A hkc hA hz
    rw [List.range'_succ]
    unfold refLoop
    rcases refStep_ok hck A hA ⟨k, by omega⟩ hz with ⟨h1, h2⟩ | ⟨A', h1, hkn, h2, h3, h4, h5⟩
    · simp only at h1 h2
      rw [h1]
      simp only [Outcome.ok_bind]
      obtain ⟨A'', g1, g2, g3, g4⟩ := ih (k + 1) A (by omega) hA (by
        intro i j hj hi
        rcases Nat.lt_or_ge j.1 k with h | h
        · exact hz i j h (by omega)
        · have : j = ⟨k, by omega⟩ := Fin.ext (by simp; omega)
          rw [this]; exact h2 i (by omega))
      refine ⟨A'', g1, g2, g3, fun h hd hg => g4 h hd ?_⟩
      intro i j hj
      rcases Nat.lt_or_ge j.1 k with hjk | hjk
      · exact hg i j hjk
      · exfalso
        have hjk : j.1 = k := by omega
        apply hd
        apply lead_singular h _ j
        · intro i' j' hj'
          show ((A i' (Fin.castLE h j') : Int) : ZMod p) = _
          rw [hg i' j' (by omega)]; split <;> simp
        · intro i' hi'
          show ((A i' (Fin.castLE h j) : Int) : ZMod p) = _
          have : Fin.castLE h j = ⟨k, by omega⟩ := Fin.ext (by simp; omega)
          rw [this, h2 i' (by omega)]; simp
    · simp only at h1 h4 h5 hkn
      rw [h1]
      simp only [Outcome.ok_bind]
      obtain ⟨A'', g1, g2, g3, g4⟩ := ih (k + 1) A' (by omega) h2 (by
        intro i j hj hi
        rcases Nat.lt_or_ge j.1 k with h | h
        · rw [h5 i j h]; exact hz i j h (by omega)
        · have : j = ⟨k, by omega⟩ := Fin.ext (by simp; omega)
          rw [this, h4 i, if_neg (by omega)])
      refine ⟨A'', g1, g2, by rw [g3, h3], fun h hd hg => g4 h ?_ ?_⟩
      · exact lead_det_of_span h (by rw [h3]) hd
      · intro i j hj
        rcases Nat.lt_or_ge j.1 k with hjk | hjk
        · rw [h5 i _ (by simpa using hjk)]; exact hg i j hjk
        · have : Fin.castLE h j = ⟨k, by omega⟩ := Fin.ext (by simp; omega)
          rw [this, h4 i]
          simp only [Fin.ext_iff]
          have : j.1 = k := by omega
          rw [this]

theorem residue_ok {ck : Int → Outcome Int} (hck : Accepts ck (p * p : Nat)) {x : Int}
    (hx : ¬ (x < 0 ∧ (p : Int) ∣ x)) :
    ∃ y, residue ck p x = .ok y ∧ 0 ≤ y ∧ y < p ∧ ((y : Int) : ZMod p) = x := by
  have hp1 : 1 < p := hpf.out.one_lt
  have hpp : (p : Int) ≤ (p * p : Nat) := by push_cast; nlinarith [show (1 : Int) ≤ p by omega]
  have hcast : ((x.tmod p : Int) : ZMod p) = x := by
    have h1 := Int.mul_tdiv_add_tmod x p
    have h2 : ((x : Int) : ZMod p) = ((p * x.tdiv p + x.tmod p : Int) : ZMod p) := by rw [h1]
    rw [h2]; push_cast; simp
  have hneg' : x < 0 → x.tmod p ≤ 0 ∧ -(p : Int) < x.tmod p := by
    intro hx0
    have h1 : x.tmod p = -((-x).tmod p) := by rw [Int.neg_tmod]; omega
    have h2 : 0 ≤ (-x).tmod p := Int.tmod_nonneg _ (by omega)
    have h3 : (-x).tmod p < p := Int.tmod_lt_of_pos _ (by omega)
    omega
  unfold residue
  rw [if_neg (by omega)]
  by_cases hneg : x < 0
  · have h1 := hneg' hneg
    have h2 : x.tmod p ≠ 0 := by
      intro h; exact hx ⟨hneg, Int.dvd_of_tmod_eq_zero h⟩
    rw [if_pos hneg, hck _ (by rw [abs_of_nonneg (by omega)]; omega)]
    exact ⟨_, rfl, by omega, by omega, by push_cast; simp [hcast]⟩
  · have h1 : 0 ≤ x.tmod p := Int.tmod_nonneg _ (by omega)
    have : x.tmod p < p := Int.tmod_lt_of_pos _ (by omega)
    rw [if_neg hneg, add_zero, hck _ (by rw [abs_of_nonneg h1]; omega)]
    exact ⟨_, rfl, h1, by omega, hcast⟩

theorem rowEchelonForm_ok {ck : Int → Outcome Int} (hck : Accepts ck (p * p : Nat)) (hn : 0 < n)
    (A : Matrix (Fin n) (Fin c) Int) (hA : ∀ i j, ¬ (A i j < 0 ∧ (p : Int) ∣ A i j)) :
    ∃ A' : Matrix (Fin n) (Fin c) Int, rowEchelonForm ck (toLists A) p = .ok (toLists A') ∧
      Residues p A' ∧ span (ZMod p) (Set.range (modP p A').row) = span (ZMod p) (Set.range (modP p A).row) ∧
      ∀ h : n ≤ c, (lead h (modP p A)).det ≠ 0 →
        ∀ (i j : Fin n), A' i (Fin.castLE h j) = if i = j then 1 else 0 := by
  have : ∀ i j, ∃ y, residue ck p (A i j) = .ok y ∧ 0 ≤ y ∧ y < p ∧ ((y : Int) : ZMod p) = A i j :=
    fun i j => residue_ok hck (hA i j)
  choose R h1 h2 h3 h4 using this
  have hR : modP p R = modP p A := by ext i j; exact h4 i j
  obtain ⟨A', g1, g2, g3, g4⟩ := refLoop_ok hck c 0 R (by omega) (fun i j => ⟨h2 i j, h3 i j⟩)
    (fun i j hj => by omega)
  rw [hR] at g3
  refine ⟨A', ?_, g2, g3, fun h hd => g4 h (by rw [hR]; exact hd) (fun i j hj => by omega)⟩
  have hne : ∃ r0 rs, toLists A = r0 :: rs ∧ r0.length = c := by
    obtain ⟨m, rfl⟩ : ∃ m, n = m + 1 := ⟨n - 1, by omega⟩
    exact ⟨_, _, by rw [toLists, List.ofFn_succ], by simp⟩
  obtain ⟨r0, rs, he, hl⟩ := hne
  unfold rowEchelonForm
  have hsame := sameLengths_toLists A
  rw [he] at hsame ⊢
  simp only
  rw [if_pos hsame, ← he]
  have : omap (fun row => omap (residue ck p) row) (toLists A) = .ok (toLists R) :=
    omap_ofFn (fun i => omap_ofFn (fun j => h1 i j))
  rw [this]
  simp only [Outcome.ok_bind]
  rw [hl, List.range_eq_range']
  exact g1

end loop

end Systre.Modular
