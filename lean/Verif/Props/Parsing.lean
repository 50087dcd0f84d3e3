import Verif.Lemmas.OperatorText
import Mathlib.LinearAlgebra.Matrix.Notation

/-!
# C58, C59: the texts of symmetry operators (src/spacegroups/parse_operator.rs, parse_table.rs)

The grammar and the meaning of the texts is `Verif/Spec/Operators.lean`; texts are lists of characters.
-/

namespace Systre
open ParseOperator OpText

/-! ### C59 -/

/-- **C59** (soundness). When `parse_operator` succeeds it has read a prefix that is an operator (a list of
coordinates, each a sum of terms), up to blanks around it; the matrix and the shift are its coefficients, cut to the
number of coordinates, so there are `n` rows of `min n 3` entries and `n` shifts. -/
theorem C59_sound (s rest : List Char) (A : List (List ℚ)) (b : List ℚ) (h : parseOperator s = .ok (.parsed rest A b)) :
    (∃ u w v ls, s = u ++ w ++ v ++ rest ∧ Blank u ∧ Blank v ∧ Operator w ls ∧ A = ls.map (row ls.length) ∧
      b = ls.map (fun l => coefficient l none)) ∧
    A.length = b.length ∧ 0 < b.length ∧ ∀ r ∈ A, r.length = min b.length 3 := by
  obtain ⟨u, w, v, ls, e, hu, hv, ho, hA, hb⟩ := parseOperator_sound h
  refine ⟨⟨u, w, v, ls, e, hu, hv, ho, hA, hb⟩, by rw [hA, hb]; simp, ?_, ?_⟩
  · rw [hb, List.length_map]
    cases ho <;> simp
  · intro r hr
    rw [hA] at hr
    obtain ⟨l, -, rfl⟩ := List.mem_map.1 hr
    rw [hb]
    simp [row]

/-- **C59** (completeness). Every text of the grammar, with blanks around it, is read completely and gets its meaning;
the sums must not have two terms for the same axis (they would be added with `i32` arithmetic). -/
theorem C59_complete (u w v : List Char) (ls : List (List (ℚ × Option (Fin 3)))) (hu : Blank u) (hv : Blank v)
    (h : Operator w ls) (ho : ∀ l ∈ ls, Once l) :
    parseOperator (u ++ w ++ v) = .ok (.parsed [] (ls.map (row ls.length)) (ls.map (fun l => coefficient l none))) :=
  parseOperator_complete hu hv h ho

/-- **C59** (totality, without zero denominators). `parse_operator` returns for every text in which no slash is followed
by a numeral that is zero. Missing: the texts of `C59_zero_denominator_refuted`. -/
theorem C59_no_panic_partial (s : List Char) (h : NoZeroDenominator s) : ∃ r, parseOperator s = .ok r :=
  parseOperator_safe h

/-- **C59** is false for texts with a zero denominator: `1/0` panics, even inside a longer text. -/
theorem C59_zero_denominator_refuted :
    parseOperator ['1', '/', '0'] = .panic ∧ parseOperator ['x', '+', '1', ' ', '/', ' ', '0', '0', ',', 'y'] = .panic := by
  constructor <;> decide +kernel

/-- **C59**, for `AffineMap::from_string`: up to three coordinates give the affine map that was read, whatever the rest of
the text is; more than three coordinates panic. -/
theorem C59_from_string (s rest : List Char) (A : List (List ℚ)) (b : List ℚ)
    (h : parseOperator s = .ok (.parsed rest A b)) :
    (b.length ≤ 3 → ∃ m, affFromString s = .ok (some m) ∧
      IsAff (n := b.length) m (Matrix.of (fun i j => (A.getD i []).getD j 0)) (fun i => b.getD i 0)) ∧
    (3 < b.length → affFromString s = .panic) := by
  obtain ⟨-, hl, h0, hr⟩ := C59_sound s rest A b h
  have hne : A ≠ [] := by intro e; rw [e] at hl; simp at hl; omega
  have hpos : 0 < min b.length 3 := by omega
  have h1 : omap Mat.row A = .ok (A.map (fun r => Mat.ofRows (min b.length 3) [r])) :=
    omap_ok (fun r hr' => Mat.row_eq r (hr r hr') hpos)
  have h2 := Mat.vstack_rows hpos A hr hne
  obtain ⟨v, h3, h4⟩ := vec_new (l := b) (x := b.get) (List.ofFn_get b).symm
  have hgo : affFromString s = (do let m ← AffineMap.new (Mat.ofRows (min b.length 3) A) v; .ok (some m)) := by
    unfold affFromString
    rw [bind_ok h]
    simp only [hl, ne_eq, not_true_eq_false, if_false]
    rw [bind_ok h1, bind_ok h2, bind_ok h3]
  constructor
  · intro hle
    have hm : min b.length 3 = b.length := by omega
    have hrep : Rep (Mat.ofRows (min b.length 3) A)
        (Matrix.of (fun (i j : Fin b.length) => (A.getD i []).getD j 0)) := by
      have := rep_ofFn (r := A.length) (c := min b.length 3) (fun i j => (A.getD i []).getD j (0 : ℚ)) (fun _ => hpos)
      unfold Mat.ofRows
      rw [hm, hl] at this ⊢
      exact this
    obtain ⟨e1, e2⟩ := aff_new hrep h4
    refine ⟨_, by rw [hgo, e1]; rfl, ?_⟩
    have e : b.get = fun i : Fin b.length => b.getD i 0 := by
      funext i
      simp [List.getD]
    rw [← e]
    exact e2
  · intro hgt
    rw [hgo]
    unfold AffineMap.new
    have hd : v.dim = b.length := h4.dim_eq
    have hc : (Mat.ofRows (min b.length 3) A).ncols = min b.length 3 := rfl
    rw [hd, hc]
    have hne' : ¬ min b.length 3 = b.length := by omega
    by_cases hrow : (Mat.ofRows (min b.length 3) A).nrows = b.length
    · rw [bind_ok (rassert_true (by simp [hrow]))]
      simp [rassert, hne']
    · simp [rassert, hrow]

/-- what happens when nothing can be read -/
theorem C59_from_string_error (s : List Char) (k : Nom.Kind) (t : List Char) (h : parseOperator s = .ok (.error k t)) :
    affFromString s = .ok none := by
  unfold affFromString
  rw [bind_ok h]

/-- The text `x - 1/2, 2/3*y` is in the grammar, and what it means. -/
theorem C59_witness : Operator ['x', ' ', '-', ' ', '1', '/', '2', ',', ' ', '2', '/', '3', '*', 'y']
    [[(1, some 0), (-((1 : ℕ) / (2 : ℕ)), none)], [((2 : ℕ) / (3 : ℕ), some 1)]] := by
  have n1 : Numeral ['1'] 1 := by unfold Numeral; decide
  have n2 : Numeral ['2'] 2 := by unfold Numeral; decide
  have n3 : Numeral ['3'] 3 := by unfold Numeral; decide
  have b0 : Blank [] := by unfold Blank; decide
  have b1 : Blank [' '] := by unfold Blank; decide
  have c1 : Coord ['x', ' ', '-', ' ', '1', '/', '2'] _ :=
    .unsigned (.axis .x) (.cons b1 (.minus b1 (.const (.quot n1 b0 b0 n2 (by decide)))) .nil)
  have c2 : Coord ['2', '/', '3', '*', 'y'] _ := .unsigned (.times (.quot n2 b0 b0 n3 (by decide)) .y) .nil
  exact .cons c1 b0 b1 (.single c2)

example : parseOperator ['x', ' ', '-', ' ', '1', '/', '2', ',', ' ', '2', '/', '3', '*', 'y'] =
    .ok (.parsed [] [[1, 0], [0, 2 / 3]] [-1 / 2, 0]) := by decide +kernel

example : NoZeroDenominator ['x', '+', '1', '/', '2'] := by
  intro pre u t post e hu ht hp
  rcases pre with _ | ⟨a, _ | ⟨b, _ | ⟨c, _ | ⟨d, pre⟩⟩⟩⟩
  · simp at e
  · simp at e
  · simp at e
  · simp only [List.cons_append, List.nil_append, List.cons.injEq, true_and] at e
    obtain ⟨rfl, rfl, rfl, e⟩ := e
    cases u with
    | nil =>
      cases t with
      | nil => exact ht.1 rfl
      | cons x t =>
        simp only [List.nil_append, List.cons_append, List.cons.injEq] at e
        obtain ⟨rfl, e⟩ := e
        have : t = [] ∧ post = [] := by simpa using e.symm
        rw [this.1] at ht
        exact absurd ht.2.2.2 (by decide)
    | cons x u =>
      simp only [List.cons_append, List.cons.injEq] at e
      have := hu x (by simp)
      rw [← e.1] at this
      exact absurd this (by decide)
  · simp only [List.cons_append, List.cons.injEq] at e
    obtain ⟨rfl, rfl, rfl, rfl, e⟩ := e
    rcases pre with _ | ⟨a, pre⟩ <;> simp at e

/-- The axis `z` is dropped without notice when there are two coordinates only, and what cannot be read is ignored: the
text `x, y+z` and the text `x, y, q` are read as `x, y`. -/
theorem C59_ignored : affFromString ['x', ',', 'y', '+', 'z'] = affFromString ['x', ',', 'y'] ∧
    affFromString ['x', ',', 'y', ',', 'q'] = affFromString ['x', ',', 'y'] ∧
    affFromString ['x', ',', 'y', ',', 'z', ',', 'x'] = .panic := by
  refine ⟨by decide +kernel, by decide +kernel, by decide +kernel⟩

/-! ### C58 -/

/-- **C58**. For an affine map of dimension 1 to 3 whose numbers have at most nine digits above and below the fraction
bar, the text written by `Display` is read back as the same map exactly when no shift is `1` or `-1`. Missing from the
English claim: shifts of `1` and `-1` are never read back (`C58_shift_one_refuted`). -/
theorem C58_round_trip_partial (n : Nat) (hn : 1 ≤ n) (hn3 : n ≤ 3) (m : AffineMap ℚ) (A : Matrix (Fin n) (Fin n) ℚ)
    (s : Fin n → ℚ) (h : IsAff m A s) (hA : ∀ i j, Small (A i j)) (hs : ∀ i, Small (s i)) :
    ∃ text, writeOp m = .ok text ∧ (affFromString text = .ok (some m) ↔ ∀ i, s i ≠ 1 ∧ s i ≠ -1) := by
  obtain ⟨t, h1, h2⟩ := round_trip hn hn3 h hA hs
  refine ⟨t, h1, h2.trans ⟨fun h i => ?_, fun h i => ?_⟩⟩
  · have := h i
    constructor
    · intro e; rw [e] at this; simp at this
    · intro e; rw [e] at this; simp at this
  · intro e
    rcases eq_or_eq_neg_of_abs_eq e with e | e
    · exact (h i).1 e
    · exact (h i).2 e

/-- the map `x ↦ x + 1` -/
def plusOne : AffineMap ℚ := ⟨⟨1, 1, [1]⟩, ⟨⟨1, 1, [1]⟩⟩⟩

/-- the map `x ↦ 1` -/
def constOne : AffineMap ℚ := ⟨⟨1, 1, [0]⟩, ⟨⟨1, 1, [1]⟩⟩⟩

/-- **C58** is false for a shift of `1`: `x ↦ x + 1` is written as `x+` and read back as the identity, and `x ↦ 1` is
written as the empty text, which is rejected. -/
theorem C58_shift_one_refuted :
    (writeOp plusOne = .ok ['x', '+'] ∧ affFromString ['x', '+'] = .ok (some ⟨⟨1, 1, [1]⟩, ⟨⟨1, 1, [0]⟩⟩⟩)) ∧
    (writeOp constOne = .ok [] ∧ affFromString [] = .ok none) := by
  refine ⟨⟨by decide +kernel, by decide +kernel⟩, by decide +kernel, by decide +kernel⟩

/-- the map `(x, y) ↦ (-y + 1/2, 2/3 x)` -/
def C58_sample : AffineMap ℚ := ⟨⟨2, 2, [0, -1, 2 / 3, 0]⟩, ⟨⟨2, 1, [1 / 2, 0]⟩⟩⟩

example : IsAff (n := 2) C58_sample !![0, -1; 2 / 3, 0] ![1 / 2, 0] := by
  refine ⟨⟨rfl, rfl, rfl, by decide, ?_⟩, ⟨rfl, rfl, rfl, by decide, ?_⟩⟩
  · intro i j; fin_cases i <;> fin_cases j <;> decide +kernel
  · intro i j; fin_cases i <;> fin_cases j <;> decide +kernel

example : writeOp C58_sample = .ok ['-', 'y', '+', '1', '/', '2', ',', '2', '/', '3', 'x'] := by decide +kernel

example : affFromString ['-', 'y', '+', '1', '/', '2', ',', '2', '/', '3', 'x'] = .ok (some C58_sample) := by decide +kernel

example : ∀ i j : Fin 2, Small ((!![0, -1; 2 / 3, 0] : Matrix (Fin 2) (Fin 2) ℚ) i j) := by
  intro i j; unfold OpText.Small; fin_cases i <;> fin_cases j <;> decide +kernel

end Systre
