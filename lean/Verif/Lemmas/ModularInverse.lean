import Verif.Lemmas.ModularRef

namespace Systre.Modular
open Systre Submodule

variable {n : Nat} {p : Nat} [hpf : Fact p.Prime]

/-- `[A | I]` -/
def augM {K : Type} [Zero K] [One K] (A : Matrix (Fin n) (Fin n) K) : Matrix (Fin n) (Fin (n + n)) K :=
  fun i => Fin.append (A i) (fun j => if i = j then 1 else 0)

theorem augment_ok (A : Matrix (Fin n) (Fin n) Int) :
    omap (fun i => augmentRow n i ((toLists A).getD i [])) (List.range n) = .ok (toLists (augM A)) := by
  apply omap_range
  intro i
  rw [toLists_getD]
  unfold augmentRow
  rw [if_pos (by simp)]
  congr 1
  unfold augM
  rw [List.ofFn_fin_append]
  congr 1
  apply List.ext_getElem
  · simp
  · intro j hj hj'
    simp only [List.getElem_ofFn, List.getElem_set, List.getElem_replicate, Fin.ext_iff]

theorem lead_aug {K : Type} [Zero K] [One K] (A : Matrix (Fin n) (Fin n) K) :
    lead (Nat.le_add_right n n) (augM A) = A := by
  ext i j
  have : Fin.castLE (Nat.le_add_right n n) j = Fin.castAdd n j := rfl
  simp only [lead, augM, this]
  rw [Fin.append_left]

theorem modP_aug (A : Matrix (Fin n) (Fin n) Int) : modP p (augM A) = augM (modP p A) := by
  ext i j
  refine Fin.addCases (fun j => ?_) (fun j => ?_) j
  · simp [modP, augM, Fin.append_left]
  · simp only [modP, augM, Matrix.map_apply, Fin.append_right]
    split <;> simp

theorem matrixInverse_ok {ck : Int → Outcome Int} (hck : Accepts ck (p * p : Nat)) (hn : 0 < n)
    (A : Matrix (Fin n) (Fin n) Int) (hA : ∀ i j, ¬ (A i j < 0 ∧ (p : Int) ∣ A i j)) :
    ((modP p A).det ≠ 0 ∧ ∃ C : Matrix (Fin n) (Fin n) Int,
      matrixInverse ck (toLists A) p = .ok (some (toLists C)) ∧ Residues p C ∧ modP p A * modP p C = 1 ∧
      modP p C * modP p A = 1) ∨
    ((modP p A).det = 0 ∧ matrixInverse ck (toLists A) p = .ok none) := by
  have hp1 : 1 < p := hpf.out.one_lt
  have haug : ∀ i j, ¬ (augM A i j < 0 ∧ (p : Int) ∣ augM A i j) := by
    intro i j
    refine Fin.addCases (fun j => ?_) (fun j => ?_) j
    · simp only [augM, Fin.append_left]; exact hA i j
    · simp only [augM, Fin.append_right]; split <;> omega
  obtain ⟨A', h1, h2, h3, h4⟩ := rowEchelonForm_ok hck hn (augM A) haug
  have hle := Nat.le_add_right n n
  obtain ⟨P, hP⟩ := exists_mul_of_span (le_of_eq h3)
  have hlead : lead hle (modP p A') = P * modP p A := by
    rw [hP, lead_mul, modP_aug, lead_aug]
  have hcol : ∀ i (j : Fin n), ((A' i (Fin.natAdd n j) : Int) : ZMod p) = P i j := by
    intro i j
    have : modP p A' i (Fin.natAdd n j) = (P * modP p (augM A)) i (Fin.natAdd n j) := by rw [hP]
    rw [modP_aug, Matrix.mul_apply] at this
    simp only [augM, Fin.append_right] at this
    rw [show ((A' i (Fin.natAdd n j) : Int) : ZMod p) = modP p A' i (Fin.natAdd n j) from rfl, this]
    simp
  have hall : ((List.range n).all (fun i => (List.range n).all (fun j =>
        rent ((toLists A').getD i []) j = if i = j then 1 else 0)) = true) ↔
      ∀ i j : Fin n, A' i (Fin.castLE hle j) = if i = j then 1 else 0 := by
    simp only [List.all_eq_true, List.mem_range, decide_eq_true_eq]
    constructor
    · intro h i j
      have := h i.1 i.2 j.1 j.2
      have h5 := toLists_ent A' i (Fin.castLE hle j)
      simp only [Fin.val_castLE] at h5
      rw [h5] at this
      rw [this]; simp [Fin.ext_iff]
    · intro h i hi j hj
      have := h ⟨i, hi⟩ ⟨j, hj⟩
      have h5 := toLists_ent A' ⟨i, hi⟩ (Fin.castLE hle ⟨j, hj⟩)
      simp only [Fin.val_castLE] at h5
      rw [h5, this]; simp [Fin.ext_iff]
  have hmain : matrixInverse ck (toLists A) p = if (List.range n).all (fun i => (List.range n).all (fun j =>
        rent ((toLists A').getD i []) j = if i = j then 1 else 0)) then
      .ok (some ((toLists A').map (fun row => row.drop n))) else .ok none := by
    unfold matrixInverse
    simp only [toLists_length]
    rw [if_neg (by omega), augment_ok]
    simp only [Outcome.ok_bind]
    rw [h1]
    simp only [Outcome.ok_bind]
  have hunit : (∀ i j : Fin n, A' i (Fin.castLE hle j) = if i = j then 1 else 0) → P * modP p A = 1 := by
    intro h
    rw [← hlead]
    ext i j
    show ((A' i (Fin.castLE hle j) : Int) : ZMod p) = _
    rw [h i j, Matrix.one_apply]
    split <;> simp
  by_cases hd : (modP p A).det = 0
  · right
    refine ⟨hd, ?_⟩
    rw [hmain, if_neg]
    rw [hall]
    intro h
    have := congrArg Matrix.det (hunit h)
    rw [Matrix.det_mul, hd, mul_zero, Matrix.det_one] at this
    exact zero_ne_one this
  · left
    have hI := h4 hle (by rw [modP_aug, lead_aug]; exact hd)
    have hPA := hunit hI
    let C : Matrix (Fin n) (Fin n) Int := fun i j => A' i (Fin.natAdd n j)
    have hC : modP p C = P := by ext i j; exact hcol i j
    refine ⟨hd, C, ?_, fun i j => h2 _ _, ?_, ?_⟩
    · rw [hmain, if_pos (hall.2 hI)]
      congr 2
      unfold toLists
      rw [List.map_ofFn]
      congr 1
      funext i
      simp only [Function.comp]
      have : A' i = Fin.append (fun j => A' i (Fin.castAdd n j)) (fun j => A' i (Fin.natAdd n j)) :=
        (Fin.append_castAdd_natAdd).symm
      rw [this, List.ofFn_fin_append, List.drop_left' (by simp)]
    · rw [hC]; exact mul_eq_one_comm.1 hPA
    · rw [hC]; exact hPA

end Systre.Modular
