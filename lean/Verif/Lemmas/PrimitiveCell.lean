import Verif.Lemmas.CrystalSystem
import Verif.Lemmas.Generate
import Verif.Lemmas.EdgeLists

/-! `primitive_cell` over the rational numbers. -/

namespace Systre.Finder
open Matrix

variable {n : Nat}

theorem extend_full : ∀ (bs : List (List ℚ)) (i : Nat) (v : List ℚ),
    (∀ k (h : k < bs.length), bs[k].length = n ∧ Piv (rent bs[k]) (i + k)) → i + bs.length = n → v.length = n →
    (∀ j < i, rent v j = 0) → extendBasis v bs = .ok bs
  | [], i, v, _, hi, hv, hz => by
    unfold extendBasis
    have : pivotColumn v = none := by
      rw [pivotColumn_none]
      intro k
      by_cases hk : k < i
      · exact hz k hk
      · exact rent_ge (by simp at hi; omega)
    rw [this]; rfl
  | b :: bs, i, v, hb, hi, hv, hz => by
    obtain ⟨h1, h2⟩ := hb 0 (by simp)
    simp only [List.getElem_cons_zero, Nat.add_zero] at h1 h2
    have hb' : ∀ k (h : k < bs.length), bs[k].length = n ∧ Piv (rent bs[k]) (i + 1 + k) := by
      intro k h
      have := hb (k + 1) (by simpa using h)
      rw [List.getElem_cons_succ] at this
      rwa [show i + 1 + k = i + (k + 1) by omega]
    have hi' : i + 1 + bs.length = n := by simp at hi; omega
    unfold extendBasis
    rw [if_neg (by rw [h1, hv]; simp)]
    cases hp : pivotColumn v with
    | none => rfl
    | some c =>
      rw [pivotColumn_some] at hp
      rw [pivotColumn_some.2 h2]
      simp only
      have hci : i ≤ c := by
        by_contra h
        exact hp.2 (hz c (by omega))
      rw [if_neg (by omega)]
      by_cases hc : c = i
      · subst hc
        rw [if_pos rfl]
        have e : (Scalar.clearColumn c v b : Outcome (List ℚ × List ℚ)) = ratClearColumn c v b := rfl
        rw [e]
        unfold ratClearColumn
        rw [if_neg h2.2]
        simp only [Outcome.ok_bind]
        rw [extend_full bs (c + 1) _ hb' hi' (by simp [hv])]
        · rfl
        · intro j hj
          rw [rent_rowFn]
          split_ifs with h3 h4 h5
          · exact hp.1 j h4
          · rfl
          · omega
          · rfl
      · rw [if_neg hc, extend_full bs (i + 1) v hb' hi' hv ?_]
        · rfl
        · intro j hj; exact hp.1 j (by omega)

theorem cellLoop_full {identity : Mat ℚ} {cell : List (List ℚ)}
    (hc : ∀ k (h : k < cell.length), cell[k].length = n ∧ Piv (rent cell[k]) (0 + k)) (hl : 0 + cell.length = n) :
    ∀ (ops : List (AffineMap ℚ)), (∀ a ∈ ops, a.shift.coords.data.length = n) → cellLoop identity ops cell = .ok cell
  | [], _ => rfl
  | a :: ops, h => by
    have ih := cellLoop_full (identity := identity) hc hl ops (fun b hb => h b (by simp [hb]))
    unfold cellLoop
    split_ifs
    · rw [bind_ok (extend_full cell 0 _ hc hl (h a (by simp)) (by simp))]
      exact ih
    · exact ih

theorem primitiveCell_eq {ops : List (AffineMap ℚ)} {os : List (Op n)} (h : AreOps ops os) (hne : ops ≠ []) :
    ∃ cols, primitiveCell ops = .ok cols ∧
      List.Forall₂ (fun c (k : Fin n) => Rep c (colM (Pi.single k (1 : ℚ)))) cols (List.finRange n) := by
  have hall : ∀ a ∈ ops, ∃ p : Op n, IsAff a p.1 p.2 := by
    have : ∀ {ops : List (AffineMap ℚ)} {os : List (Op n)}, AreOps ops os → ∀ a ∈ ops, ∃ p : Op n, IsAff a p.1 p.2 := by
      intro ops os h
      induction h with
      | nil => simp
      | @cons a p _ _ h _ ih =>
        intro b hb
        rcases List.mem_cons.1 hb with rfl | hb
        · exact ⟨p, h⟩
        · exact ih b hb
    exact this h
  obtain ⟨a, ops', rfl⟩ := List.exists_cons_of_ne_nil hne
  obtain ⟨p, hp⟩ := hall a (by simp)
  have hdim : a.dim = n := hp.2.rows
  obtain ⟨i, hi, hi'⟩ := rep_identity (T := ℚ) n
  have hrows := Mat.getRows_eq hi'.wf
  rw [hi'.rows] at hrows
  have hrow : ∀ k, k < n → ∀ j, j < n → rent (i.rowL k) j = if k = j then 1 else 0 := by
    intro k hk j hj
    have := hi'.ent ⟨k, hk⟩ ⟨j, hj⟩
    have e : rent (i.rowL k) j = i.ent k j := by simp [Mat.rowL, rent, hi'.cols, hj]
    rw [e, this, one_apply]
    simp [Fin.ext_iff]
  have hlen : ∀ k, (i.rowL k).length = n := fun k => by rw [Mat.rowL_length, hi'.cols]
  have hcell := cellLoop_full (n := n) (identity := i) (cell := (List.range n).map i.rowL) (by
    intro k hk
    simp at hk
    simp only [List.getElem_map, List.getElem_range, Nat.zero_add]
    refine ⟨hlen k, fun j hj => ?_, ?_⟩
    · rw [hrow k hk j (by omega), if_neg (by omega)]
    · rw [hrow k hk k hk, if_pos rfl]; norm_num) (by simp) (a :: ops') (by
    intro b hb
    obtain ⟨q, hq⟩ := hall b hb
    have := hq.2.size
    simpa using this)
  have hcols : ∀ k : Fin n, ∃ c, Mat.col (i.rowL k.1) = .ok c ∧ Rep c (colM (Pi.single k (1 : ℚ))) := by
    intro k
    apply col_ofFn
    apply List.ext_getElem
    · simp [hlen]
    · intro j h1 h2
      have hj : j < n := by rw [hlen] at h1; exact h1
      have := hrow k.1 k.2 j hj
      rw [rent_lt h1] at this
      rw [this, List.getElem_ofFn, Pi.single_apply]
      simp [Fin.ext_iff, eq_comm]
  choose f hf using hcols
  refine ⟨(List.finRange n).map f, ?_, ?_⟩
  · unfold primitiveCell
    rw [bind_ok (show vecGet (a :: ops') 0 = .ok a from rfl), hdim, bind_ok hi, bind_ok hrows, bind_ok hcell]
    rw [← List.map_coe_finRange_eq_range, List.map_map, omap_map']
    exact omap_ok (fun k _ => (hf k).1)
  · rw [List.forall₂_map_left_iff, List.forall₂_same]
    exact fun k _ => (hf k).2

end Systre.Finder
