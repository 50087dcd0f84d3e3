import Verif.Lemmas.RowSpace
import Mathlib.LinearAlgebra.Matrix.Determinant.Basic
import Mathlib.LinearAlgebra.Matrix.Block

/-! Helper lemmas: the determinant of a list of rows is alternating; value of `determinant`. -/

set_option linter.unusedSectionVars false

namespace Systre
open Submodule Mat

variable {T : Type} [CommRing T]

def rowsM (n : Nat) (L : List (List T)) : Fin n → Fin n → T := fun i j => rent (L.getD i.1 []) j.1

open Classical in
/-- determinant of a list of `n` rows -/
noncomputable def detL (n : Nat) (L : List (List T)) : T := if L.length = n then Matrix.detRowAlternating (rowsM n L) else 0

theorem getD_mid {α : Type} (P S : List α) (v d : α) (i : Nat) :
    (P ++ v :: S).getD i d = if i = P.length then v else if i < P.length then P.getD i d
      else S.getD (i - P.length - 1) d := by
  unfold List.getD
  rcases lt_trichotomy i P.length with h | h | h
  · rw [if_neg (by omega), if_pos h, List.getElem?_append_left h]
  · subst h; simp
  · rw [if_neg (by omega), if_neg (by omega), List.getElem?_append_right (by omega)]
    obtain ⟨k, hk⟩ : ∃ k, i - P.length = k + 1 := ⟨i - P.length - 1, by omega⟩
    rw [hk]; simp

theorem rowsM_update {n : Nat} (P S : List (List T)) (v w : List T) (h : P.length < n) :
    rowsM n (P ++ v :: S) = Function.update (rowsM n (P ++ w :: S)) ⟨P.length, h⟩
      (fun j => rent v j.1) := by
  funext i
  by_cases hi : i = ⟨P.length, h⟩
  · subst hi; rw [Function.update_self]; funext j; simp [rowsM]
  · rw [Function.update_of_ne hi]
    have : i.1 ≠ P.length := fun h' => hi (Fin.ext h')
    funext j; simp only [rowsM, getD_mid, if_neg this]

theorem rowsM_update2 {n : Nat} (P S : List (List T)) (v b : List T)
    (h : P.length + 1 < n) : ∃ M0 : Fin n → Fin n → T, ∀ v b : List T, rowsM n (P ++ v :: b :: S) =
      Function.update (Function.update M0 ⟨P.length, by omega⟩
      (fun j => rent v j.1)) ⟨P.length + 1, h⟩ (fun j => rent b j.1) := by
  refine ⟨rowsM n (P ++ v :: b :: S), fun v' b' => ?_⟩
  have h1 := rowsM_update (n := n) (P ++ [v']) S b' b (by simpa using h)
  have h2 := rowsM_update (n := n) P (b :: S) v' v (by omega)
  simp only [List.append_assoc, List.singleton_append, List.length_append, List.length_singleton] at h1
  rw [h1, h2]

theorem det_comb {n : Nat} (M : Fin n → Fin n → T) (i j : Fin n) (hij : i ≠ j)
    (v b : Fin n → T) (p q r s : T) :
    Matrix.detRowAlternating (Function.update (Function.update M i (p • b + q • v)) j (r • b + s • v)) =
      -(p * s - q * r) * Matrix.detRowAlternating (Function.update (Function.update M i v) j b) := by
  set D := (Matrix.detRowAlternating : (Fin n → T) [⋀^Fin n]→ₗ[T] T)
  have same : ∀ x, D (Function.update (Function.update M i x) j x) = 0 := by
    intro x
    apply D.map_eq_zero_of_eq _ _ hij
    rw [Function.update_self, Function.update_of_ne hij, Function.update_self]
  have lin2 : ∀ (x y z : Fin n → T) (a b : T), D (Function.update (Function.update M i x) j (a • y + b • z)) =
      a * D (Function.update (Function.update M i x) j y) +
      b * D (Function.update (Function.update M i x) j z) := by
    intro x y z a b
    rw [D.map_update_add, D.map_update_smul, D.map_update_smul]; simp
  have lin1 : ∀ (x y z : Fin n → T) (a b : T), D (Function.update (Function.update M i (a • y + b • z)) j x) =
      a * D (Function.update (Function.update M i y) j x) +
      b * D (Function.update (Function.update M i z) j x) := by
    intro x y z a b
    simp only [Function.update_comm hij]
    rw [D.map_update_add, D.map_update_smul, D.map_update_smul]; simp
  have swap : D (Function.update (Function.update M i b) j v) =
      - D (Function.update (Function.update M i v) j b) := by
    have h := same (1 • b + 1 • v)
    have e : (1 • b + 1 • v) = ((1:T) • b + (1:T) • v) := by simp
    rw [e, lin2, lin1, lin1, same, same] at h
    linear_combination h
  rw [lin2, lin1, lin1, same, same, swap]
  ring

theorem alt_detL (n : Nat) : Alt n (detL n : List (List T) → T) := by
  refine ⟨?_, ?_, ?_⟩
  · intro P S b v b' v' p q r s hdet _ _ _ _ hb hv
    unfold detL
    have hlen : (P ++ v :: b :: S).length = n ↔ (P ++ b' :: v' :: S).length = n := by simp
    by_cases h : (P ++ v :: b :: S).length = n
    · rw [if_pos h, if_pos (hlen.1 h)]
      have hlt : P.length + 1 < n := by simp at h; omega
      obtain ⟨M0, hM⟩ := rowsM_update2 P S v b hlt
      rw [hM v b, hM b' v']
      have eb : (fun j : Fin n => rent b' j.1) = p • (fun j : Fin n => rent b j.1) +
          q • (fun j : Fin n => rent v j.1) := by ext j; simp [hb]
      have ev : (fun j : Fin n => rent v' j.1) = r • (fun j : Fin n => rent b j.1) +
          s • (fun j : Fin n => rent v j.1) := by ext j; simp [hv]
      have := det_comb M0 ⟨P.length, by omega⟩ ⟨P.length + 1, hlt⟩ (by simp)
        (fun j : Fin n => rent v j.1) (fun j : Fin n => rent b j.1) p q r s
      rw [eb, ev]
      rw [this, hdet]; ring
    · rw [if_neg h, if_neg (fun h' => h (hlen.2 h')), neg_zero]
  · intro P S v hv
    unfold detL
    split
    · rename_i h
      have hlt : P.length < n := by simp at h; omega
      apply AlternatingMap.map_coord_zero _ (i := ⟨P.length, hlt⟩)
      ext j
      simp [rowsM, hv]
    · rfl
  · intro P S v v' _ _ hv
    unfold detL
    have hlen : (P ++ v :: S).length = n ↔ (P ++ v' :: S).length = n := by simp
    by_cases h : (P ++ v :: S).length = n
    · rw [if_pos h, if_pos (hlen.1 h)]
      have hlt : P.length < n := by simp at h; omega
      have h1 := rowsM_update P S v' v hlt
      have h2 := rowsM_update P S v v hlt
      have ev : (fun j : Fin n => rent v' j.1) = (-1 : T) • (fun j : Fin n => rent v j.1) := by
        ext j; simp [hv]
      rw [h1, ev, AlternatingMap.map_update_smul, ← h2]; simp
    · rw [if_neg h, if_neg (fun h' => h (hlen.2 h')), neg_zero]

variable [IsDomain T]

theorem strictMono_ge {r : Nat} {c : Fin r → Nat} (hc : StrictMono c) : ∀ i, i.1 ≤ c i := by
  intro i
  obtain ⟨k, hk⟩ := i
  induction k with
  | zero => exact Nat.zero_le _
  | succ k ih =>
    have := ih (by omega)
    have h2 := hc (show (⟨k, by omega⟩ : Fin r) < ⟨k + 1, hk⟩ by simp [Fin.lt_def])
    simp only at this ⊢; omega

theorem Ech.lower_zero {n : Nat} {bs : List (List T)} (h : Ech n bs) {i j : Nat} (hij : j < i) :
    rent (bs.getD i []) j = 0 := by
  by_cases hi : i < bs.length
  · obtain ⟨c, hc, hp⟩ := h.pivots
    have := strictMono_ge hc ⟨i, hi⟩
    have h2 := (hp ⟨i, hi⟩).1.1 j (by simp at *; omega)
    simpa [List.getD, hi, bv] using h2
  · simp [List.getD, hi, rent]

theorem detL_ech {n : Nat} {bs : List (List T)} (h : Ech n bs) (hl : bs.length = n) :
    detL n bs = ∏ i : Fin n, rent (bs.getD i.1 []) i.1 := by
  unfold detL
  rw [if_pos hl]
  show Matrix.det (Matrix.of (rowsM n bs)) = _
  rw [Matrix.det_of_isUpperTriangular]
  · rfl
  · intro i j hij
    exact h.lower_zero hij

theorem rowsM_rowsL {m : Mat T} {n : Nat} {M : Matrix (Fin n) (Fin n) T} (h : Rep m M) :
    rowsM n (rowsL m) = fun i j => M i j := by
  ext i j
  have : (rowsL m).getD i.1 [] = m.rowL i.1 := by
    simp [rowsL, List.getD, h.rows]
  unfold rowsM
  rw [this, rent_rowL_rep h, emb_lt]; rfl

theorem foldl_mul_prod (l : List T) (a : T) : l.foldl (· * ·) a = a * l.prod := by
  induction l generalizing a with
  | nil => simp
  | cons x l ih => rw [List.foldl_cons, ih, List.prod_cons, mul_assoc]

theorem prod_range_map (n : Nat) (f : Nat → T) : ((List.range n).map f).prod = ∏ i : Fin n, f i.1 := by
  induction n with
  | zero => simp
  | succ k ih => rw [List.range_succ, List.map_append, List.prod_append, ih, Fin.prod_univ_castSucc]; simp

variable [Scalar T] [DecidableEq T] [LawfulScalar T]

theorem determinant_rep {m : Mat T} {n : Nat} {M : Matrix (Fin n) (Fin n) T} (h : Rep m M) :
    determinant m = .ok M.det := by
  unfold determinant
  rw [if_neg (by simp [h.rows, h.cols])]
  have e := fun i j : Fin n => h.entry i j
  obtain ⟨bs, h1, h2, h3, h4, h5⟩ := rowBasis_ok h.wf
  have hr := h.rows
  rw [h.cols] at h2
  rw [h.cols, hr] at h5
  have hlen : (rowsL m).length = n := by simp [rowsL, hr]
  have hdet : detL n (rowsL m) = M.det := by
    unfold detL; rw [if_pos hlen, rowsM_rowsL h]; rfl
  rw [hr]
  clear hr
  match n, M, h, e, h2, h5, hlen, hdet with
  | 0, M, h, e, _, _, _, _ => simp
  | 1, M, h, e, _, _, _, _ => simp; exact e 0 0
  | 2, M, h, e, _, _, _, _ =>
    have a := e 0 0; have b := e 0 1; have c := e 1 0; have d := e 1 1
    simp at a b c d
    simp [a, b, c, d, Matrix.det_fin_two]
  | 3, M, h, e, _, _, _, _ =>
    have a := e 0 0; have b := e 0 1; have c := e 0 2
    have a1 := e 1 0; have b1 := e 1 1; have c1 := e 1 2
    have a2 := e 2 0; have b2 := e 2 1; have c2 := e 2 2
    simp at a b c a1 b1 c1 a2 b2 c2
    simp only [a, b, c, a1, b1, c1, a2, b2, c2, Outcome.ok_bind, Matrix.det_fin_three]
    congr 1; ring
  | n + 4, M, h, e, h2, h5, hlen, hdet =>
    simp only [h1, Outcome.ok_bind]
    rcases h5 with ⟨h5, h6⟩ | ⟨h5, h6⟩
    · rw [if_pos h5, ← hdet, h6 _ (alt_detL _)]
    · rw [if_neg (by omega)]
      rw [omap_ok (g := fun i => rent (bs.getD i []) i)]
      · simp only [Outcome.ok_bind]
        rw [foldl_mul_prod, one_mul, prod_range_map, ← hdet, h6 _ (alt_detL _), detL_ech h2 h5]
      · intro i hi
        have hi := List.mem_range.1 hi
        have hib : i < bs.length := by omega
        unfold diagEntry vecGet
        rw [List.getElem?_eq_getElem hib]
        simp only [Outcome.ok_bind]
        have hl := (h2.row _ (List.getElem_mem hib)).1
        rw [List.getElem?_eq_getElem (by omega)]
        simp only [List.getD, List.getElem?_eq_getElem hib, Option.getD_some]
        rw [rent_lt (by omega)]

end Systre
