import Verif.Lemmas.Superbase

/-! Helper lemmas: the loop of `reduced_lattice_basis`. -/

namespace Systre.Lattices
open Systre Submodule

variable {d : Nat} {dot : List Rat → List Rat → Rat} {B : (Fin d → ℚ) →ₗ[ℚ] (Fin d → ℚ) →ₗ[ℚ] ℚ}

/-- what the loop knows about the vectors `a` chosen from `all` -/
structure Good (B : (Fin d → ℚ) →ₗ[ℚ] (Fin d → ℚ) →ₗ[ℚ] ℚ) (R : List Rat → List Rat → Prop)
    (all a : List (List Rat)) : Prop where
  len : ∀ v ∈ a, v.length = d
  indep : Indep d a
  sgn : ∀ v ∈ a, ∃ w ∈ all, v = w ∨ v = vNeg w
  best : ∀ i v, a[i]? = some v → ∀ y ∈ all, rowVec d y ∈ span ℚ (rowVec d '' {x | x ∈ a.take i}) ∨
    B (rowVec d v) (rowVec d v) ≤ B (rowVec d y) (rowVec d y)
  tie : ∀ i v, a[i]? = some v → ∀ y ∈ all, rowVec d y ∈ span ℚ (rowVec d '' {x | x ∈ a.take i}) ∨ R v y
  mono : a.Pairwise (fun v w => B (rowVec d v) (rowVec d v) ≤ B (rowVec d w) (rowVec d w))
  obtuse : ∀ a0 r, a = a0 :: r → ∀ v ∈ r, B (rowVec d a0) (rowVec d v) ≤ 0

theorem Good.nil (R : List Rat → List Rat → Prop) (all : List (List Rat)) : Good B R all [] where
  len := by simp
  indep := by
    rw [indep_iff_finrank]
    have : {v : List Rat | v ∈ ([] : List (List Rat))} = ∅ := by ext; simp
    rw [this, Set.image_empty, span_empty, finrank_bot]; rfl
  sgn := by simp
  best := by simp
  tie := by simp
  mono := List.Pairwise.nil
  obtuse := by simp

theorem norm_neg' (x : Fin d → ℚ) : B (-x) (-x) = B x x := by simp

theorem clean_zero (w : List Rat) : w.map (fun x => if |x| < 0 then 0 else x) = w := by
  conv_rhs => rw [← List.map_id w]
  apply List.map_congr_left
  intro x _
  rw [if_neg (not_lt.2 (abs_nonneg x))]; rfl

/-- the candidate with its sign -/
def pick (dot : List Rat → List Rat → Rat) (a : List (List Rat)) (w : List Rat) : List Rat :=
  match a with
  | [] => w
  | a0 :: _ => if 0 < dot a0 w then vNeg w else w

theorem reducedLoop_cons (ws a : List (List Rat)) (w : List Rat) {r : Nat}
    (hr : rankOf (a ++ [pick dot a w]) = .ok r) : reducedLoop dot 0 d (w :: ws) a =
        (if r < (a ++ [pick dot a w]).length then reducedLoop dot 0 d ws a
         else if (a ++ [pick dot a w]).length ≥ d then .ok (some (a ++ [pick dot a w]))
         else reducedLoop dot 0 d ws (a ++ [pick dot a w])) := by
  cases a with
  | nil =>
    simp only [reducedLoop, clean_zero]
    unfold pick at *
    simp only at hr
    rw [hr]; rfl
  | cons a0 a =>
    simp only [reducedLoop, clean_zero]
    unfold pick at *
    simp only at hr
    rw [hr]; rfl

theorem greedy_ok {R : List Rat → List Rat → Prop} (hRr : ∀ v, R v v) (hRn : ∀ v w, R v w → R (vNeg v) w)
    (hd : ∀ v w, v.length = d → w.length = d → dot v w = B (rowVec d v) (rowVec d w)) :
    ∀ (ws P a all : List (List Rat)), all = P ++ ws → (∀ y ∈ all, y.length = d) → a.length < d →
      Good B R all a → (∀ v ∈ a, ∃ w ∈ P, v = w ∨ v = vNeg w) →
      (∀ y ∈ P, rowVec d y ∈ span ℚ (rowVec d '' {x | x ∈ a})) →
      ws.Pairwise (fun v w => B (rowVec d v) (rowVec d v) ≤ B (rowVec d w) (rowVec d w)) →
      (∀ y ∈ P, ∀ z ∈ ws, B (rowVec d y) (rowVec d y) ≤ B (rowVec d z) (rowVec d z)) →
      ws.Pairwise R → span ℚ (rowVec d '' {x | x ∈ all}) = ⊤ →
      ∃ r, reducedLoop dot 0 d ws a = .ok (some r) ∧ r.length = d ∧ Good B R all r := by
  intro ws
  induction ws with
  | nil =>
    intro P a all hall hl hlt hg hsg hP _ _ _ htop
    exfalso
    rw [List.append_nil] at hall
    subst hall
    have h1 : span ℚ (rowVec d '' {x | x ∈ a}) = ⊤ := by
      rw [eq_top_iff, ← htop, span_le]
      rintro _ ⟨y, hy, rfl⟩
      exact hP y hy
    have h2 := (indep_iff_finrank _).1 hg.indep
    rw [h1, finrank_top, Module.finrank_fintype_fun_eq_card, Fintype.card_fin] at h2
    omega
  | cons w ws ih =>
    intro P a all hall hl hlt hg hsg hP hsort hPw hR htop
    have hwm : w ∈ all := by rw [hall]; simp
    have hwl := hl w hwm
    have hPw' : ∀ y ∈ P ++ [w], ∀ z ∈ ws, B (rowVec d y) (rowVec d y) ≤ B (rowVec d z) (rowVec d z) := by
      intro y hy z hz
      rcases List.mem_append.1 hy with hy | hy
      · exact hPw y hy z (by simp [hz])
      · rw [List.mem_singleton.1 hy]
        exact (List.pairwise_cons.1 hsort).1 z hz
    -- the candidate
    obtain ⟨w', hw', hsg', hob⟩ : ∃ w', w' = pick dot a w ∧ (w' = w ∨ w' = vNeg w) ∧
        ∀ a0 r, a = a0 :: r → B (rowVec d a0) (rowVec d w') ≤ 0 := by
      refine ⟨_, rfl, ?_, ?_⟩
      · cases a with
        | nil => exact Or.inl rfl
        | cons a0 r =>
          unfold pick
          simp only
          split
          · exact Or.inr rfl
          · exact Or.inl rfl
      · rintro a0 r rfl
        unfold pick
        simp only
        have ha0 := hg.len a0 (by simp)
        split
        · rename_i h
          rw [hd _ _ ha0 hwl] at h
          rw [rv_neg, map_neg]; linarith
        · rename_i h
          rw [hd _ _ ha0 hwl] at h
          exact not_lt.1 h
    have hw'l : w'.length = d := by
      rcases hsg' with h | h <;> rw [h]
      · exact hwl
      · rw [vNeg_length, hwl]
    have hw'n : B (rowVec d w') (rowVec d w') = B (rowVec d w) (rowVec d w) := by
      rcases hsg' with h | h <;> rw [h]
      rw [rv_neg, norm_neg']
    have hw's : ∀ (S : Submodule ℚ (Fin d → ℚ)), rowVec d w' ∈ S ↔ rowVec d w ∈ S := by
      intro S
      rcases hsg' with h | h <;> rw [h]
      rw [rv_neg, neg_mem_iff]
    have hal' : ∀ v ∈ a ++ [w'], v.length = d := by
      intro v hv
      rcases List.mem_append.1 hv with hv | hv
      · exact hg.len v hv
      · rw [List.mem_singleton.1 hv]; exact hw'l
    obtain ⟨r, hr, hri⟩ := rankOf_ok hal'
    have hstep : reducedLoop dot 0 d (w :: ws) a =
        (if r < (a ++ [w']).length then reducedLoop dot 0 d ws a
         else if (a ++ [w']).length ≥ d then .ok (some (a ++ [w'])) else reducedLoop dot 0 d ws (a ++ [w'])) := by
      rw [hw'] at hr ⊢
      exact reducedLoop_cons ws a w hr
    rw [hstep]
    by_cases hin : Indep d (a ++ [w'])
    · rw [if_neg (by rw [hri]; exact not_not.2 hin)]
      have hgood : Good B R all (a ++ [w']) := by
        refine ⟨hal', hin, ?_, ?_, ?_, ?_, ?_⟩
        · intro v hv
          rcases List.mem_append.1 hv with hv | hv
          · exact hg.sgn v hv
          · rw [List.mem_singleton.1 hv]; exact ⟨w, hwm, hsg'⟩
        · intro i v hv y hy
          rcases lt_trichotomy i a.length with h | h | h
          · rw [List.getElem?_append_left h] at hv
            rw [List.take_append_of_le_length h.le]
            exact hg.best i v hv y hy
          · subst h
            rw [List.getElem?_concat_length] at hv
            cases hv
            rw [List.take_left]
            rw [hall] at hy
            rcases List.mem_append.1 hy with hy | hy
            · exact Or.inl (hP y hy)
            · right
              rw [hw'n]
              rcases List.mem_cons.1 hy with rfl | hy
              · exact le_rfl
              · exact (List.pairwise_cons.1 hsort).1 y hy
          · rw [List.getElem?_eq_none (by simp; omega)] at hv
            cases hv
        · intro i v hv y hy
          rcases lt_trichotomy i a.length with h | h | h
          · rw [List.getElem?_append_left h] at hv
            rw [List.take_append_of_le_length h.le]
            exact hg.tie i v hv y hy
          · subst h
            rw [List.getElem?_concat_length] at hv
            cases hv
            rw [List.take_left]
            rw [hall] at hy
            rcases List.mem_append.1 hy with hy | hy
            · exact Or.inl (hP y hy)
            · right
              have hwy : R w y := by
                rcases List.mem_cons.1 hy with rfl | hy
                · exact hRr _
                · exact (List.pairwise_cons.1 hR).1 y hy
              rcases hsg' with h | h <;> rw [h]
              · exact hwy
              · exact hRn _ _ hwy
          · rw [List.getElem?_eq_none (by simp; omega)] at hv
            cases hv
        · rw [List.pairwise_append]
          refine ⟨hg.mono, by simp, ?_⟩
          intro v hv z hz
          rw [List.mem_singleton.1 hz, hw'n]
          obtain ⟨p, hp, h⟩ := hsg v hv
          have : B (rowVec d v) (rowVec d v) = B (rowVec d p) (rowVec d p) := by
            rcases h with h | h <;> rw [h]
            rw [rv_neg, norm_neg']
          rw [this]
          exact hPw p hp w (by simp)
        · intro a0 r ha v hv
          cases a with
          | nil => simp at ha; rw [ha.2] at hv; simp at hv
          | cons b0 s =>
            simp only [List.cons_append, List.cons.injEq] at ha
            obtain ⟨rfl, rfl⟩ := ha
            rcases List.mem_append.1 hv with hv | hv
            · exact hg.obtuse b0 s rfl v hv
            · rw [List.mem_singleton.1 hv]; exact hob b0 s rfl
      by_cases hge : (a ++ [w']).length ≥ d
      · rw [if_pos hge]
        refine ⟨_, rfl, ?_, hgood⟩
        rw [List.length_append] at hge ⊢
        simp at hge ⊢; omega
      · rw [if_neg hge]
        refine ih (P ++ [w]) (a ++ [w']) all (by rw [hall]; simp) hl (by omega) hgood ?_ ?_
          (List.pairwise_cons.1 hsort).2 hPw' (List.pairwise_cons.1 hR).2 htop
        · intro v hv
          rcases List.mem_append.1 hv with hv | hv
          · obtain ⟨p, hp, h⟩ := hsg v hv
            exact ⟨p, by simp [hp], h⟩
          · rw [List.mem_singleton.1 hv]; exact ⟨w, by simp, hsg'⟩
        · intro y hy
          have hmono : span ℚ (rowVec d '' {x | x ∈ a}) ≤ span ℚ (rowVec d '' {x | x ∈ a ++ [w']}) :=
            span_mono (Set.image_mono (fun x hx => List.mem_append_left _ hx))
          rcases List.mem_append.1 hy with hy | hy
          · exact hmono (hP y hy)
          · rw [List.mem_singleton.1 hy, ← hw's]
            exact subset_span ⟨w', by simp, rfl⟩
    · rw [if_pos (hri.2 hin)]
      refine ih (P ++ [w]) a all (by rw [hall]; simp) hl hlt hg ?_ ?_
        (List.pairwise_cons.1 hsort).2 hPw' (List.pairwise_cons.1 hR).2 htop
      · intro v hv
        obtain ⟨p, hp, h⟩ := hsg v hv
        exact ⟨p, by simp [hp], h⟩
      · intro y hy
        rcases List.mem_append.1 hy with hy | hy
        · exact hP y hy
        · rw [List.mem_singleton.1 hy]
          by_contra hn
          exact hin ((indep_append hg.indep).2 (by rw [hw's]; exact hn))

/-! ### sorting -/

theorem lexLeQ_total : ∀ a b : List Rat, lexLeQ a b = true ∨ lexLeQ b a = true
  | [], _ => Or.inl rfl
  | _ :: _, [] => Or.inr rfl
  | a :: as, b :: bs => by
    rcases lt_trichotomy a b with h | h | h
    · left; simp [lexLeQ, h]
    · subst h
      simpa [lexLeQ] using lexLeQ_total as bs
    · right; simp [lexLeQ, h]

theorem lexLeQ_trans : ∀ a b c : List Rat, lexLeQ a b = true → lexLeQ b c = true → lexLeQ a c = true
  | [], _, _, _, _ => rfl
  | _ :: _, [], _, h, _ => by simp [lexLeQ] at h
  | _ :: _, _ :: _, [], _, h => by simp [lexLeQ] at h
  | a :: as, b :: bs, c :: cs, h1, h2 => by
    have ih := lexLeQ_trans as bs cs
    simp only [lexLeQ] at h1 h2 ⊢
    split at h1 <;> split at h2 <;> split <;> simp_all
    all_goals first
      | (split at h1 <;> simp_all; done)
      | skip
    all_goals grind

instance sortLe_total (dot : List Rat → List Rat → Rat) : Std.Total (sortLe dot) := ⟨by
  intro v w
  unfold sortLe
  rcases lt_trichotomy (dot v v) (dot w w) with h | h | h
  · exact Or.inl (Or.inl h)
  · rcases lexLeQ_total (positiveDirection w) (positiveDirection v) with h' | h'
    · exact Or.inl (Or.inr ⟨h, h'⟩)
    · exact Or.inr (Or.inr ⟨h.symm, h'⟩)
  · exact Or.inr (Or.inl h)⟩

instance sortLe_trans (dot : List Rat → List Rat → Rat) : IsTrans _ (sortLe dot) := ⟨by
  intro u v w h1 h2
  unfold sortLe at *
  rcases h1 with h1 | ⟨h1, h1'⟩ <;> rcases h2 with h2 | ⟨h2, h2'⟩
  · exact Or.inl (h1.trans h2)
  · exact Or.inl (h2 ▸ h1)
  · exact Or.inl (h1 ▸ h2)
  · exact Or.inr ⟨h1.trans h2, lexLeQ_trans _ _ _ h2' h1'⟩⟩

theorem vNeg_zero' {v : List Rat} (h : v.find? (fun x => decide (x ≠ 0)) = none) : vNeg v = v := by
  rw [List.find?_eq_none] at h
  unfold vNeg
  conv_rhs => rw [← List.map_id v]
  apply List.map_congr_left
  intro x hx
  have := h x hx
  simp at this
  simp [this]

theorem vNeg_vNeg (v : List Rat) : vNeg (vNeg v) = v := by
  unfold vNeg
  rw [List.map_map]
  conv_rhs => rw [← List.map_id v]
  apply List.map_congr_left
  intro x _
  simp

theorem find_vNeg (v : List Rat) :
    (vNeg v).find? (fun x => decide (x ≠ 0)) = (v.find? (fun x => decide (x ≠ 0))).map (fun x => -x) := by
  unfold vNeg
  rw [List.find?_map]
  congr 2
  funext x
  simp

theorem positiveDirection_vNeg (v : List Rat) : positiveDirection (vNeg v) = positiveDirection v := by
  unfold positiveDirection
  rw [find_vNeg]
  cases h : v.find? (fun x => decide (x ≠ 0)) with
  | none => simp [vNeg_zero' h]
  | some x =>
    have hx := List.find?_some h
    simp only [ne_eq, decide_not, Bool.not_eq_eq_eq_not, Bool.not_true, decide_eq_false_iff_not] at hx
    simp only [Option.map_some, vNeg_vNeg]
    rcases lt_or_gt_of_ne hx with h | h
    · rw [if_neg (by linarith), if_pos h]
    · rw [if_pos (by linarith), if_neg (by linarith)]

theorem positiveDirection_cases (v : List Rat) : positiveDirection v = v ∨ positiveDirection v = vNeg v := by
  unfold positiveDirection
  split
  · split
    · exact Or.inr rfl
    · exact Or.inl rfl
  · exact Or.inl rfl

theorem positiveDirection_inj {v w : List Rat} (h : positiveDirection v = positiveDirection w) :
    v = w ∨ v = vNeg w := by
  rcases positiveDirection_cases v with h1 | h1 <;> rcases positiveDirection_cases w with h2 | h2 <;>
    rw [h1, h2] at h
  · exact Or.inl h
  · exact Or.inr h
  · right; rw [← h, vNeg_vNeg]
  · left; rw [← vNeg_vNeg v, h, vNeg_vNeg]

theorem lexLeQ_antisymm : ∀ a b : List Rat, lexLeQ a b = true → lexLeQ b a = true → a = b
  | [], [], _, _ => rfl
  | [], _ :: _, _, h => by simp [lexLeQ] at h
  | _ :: _, [], h, _ => by simp [lexLeQ] at h
  | a :: as, b :: bs, h1, h2 => by
    rcases lt_trichotomy a b with h | h | h
    · simp [lexLeQ, h, not_lt.2 h.le] at h2
    · subst h
      simp only [lexLeQ, lt_irrefl, if_false] at h1 h2
      rw [lexLeQ_antisymm as bs h1 h2]
    · simp [lexLeQ, h, not_lt.2 h.le] at h1

theorem sort_norms (dot : List Rat → List Rat → Rat) (ws : List (List Rat)) :
    (ws.insertionSort (sortLe dot)).Pairwise (fun v w => dot v v ≤ dot w w) := by
  refine (List.pairwise_insertionSort (sortLe dot) ws).imp ?_
  intro v w h
  rcases h with h | h
  · exact h.le
  · exact h.1.le

end Systre.Lattices
