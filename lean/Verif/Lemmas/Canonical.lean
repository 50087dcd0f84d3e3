import Verif.Lemmas.LinAlgRep

/-! Helper lemmas: uniqueness of reduced bases over the rationals; what is unique over the integers. -/

set_option linter.unusedSectionVars false

namespace Systre
open Submodule Mat

section
variable {T : Type} [CommRing T] [IsDomain T] [Scalar T] [DecidableEq T] [LawfulScalar T]

/-- leading coefficient of a span member is a multiple of the pivot in that column -/
theorem span_lead {n : Nat} {bs : List (List T)} (hE : Ech n bs) {f : Nat → T} (hf : f ∈ rspan bs) {i d : Nat}
    (hi : i < bs.length) (hd : Piv (rw' bs i) d) (h0 : ∀ j, j < d → f j = 0) : ∃ g, f d = g * rw' bs i d := by
  obtain ⟨c, hc, hp⟩ := hE.pivots
  rw [rspan_eq_range] at hf
  obtain ⟨g, rfl⟩ := (mem_span_range_iff_exists_fun T).1 hf
  have hci : c ⟨i, hi⟩ = d := by
    rw [rw'_lt hi] at hd
    exact (hp ⟨i, hi⟩).1.unique hd
  have hz := piv_coeff hc (fun i => (hp i).1) g d (fun j hj => by have := h0 j hj; simpa using this)
  refine ⟨g ⟨i, hi⟩, ?_⟩
  simp only [Finset.sum_apply, Pi.smul_apply, smul_eq_mul]
  rw [Finset.sum_eq_single ⟨i, hi⟩, rw'_lt hi]
  · rfl
  · intro k _ hk
    rcases lt_or_gt_of_ne hk with h | h
    · rw [hz k (by rw [← hci]; exact hc h), zero_mul]
    · rw [(hp k).1.1 d (by rw [← hci]; exact hc h), mul_zero]
  · simp

theorem rw'_mem {bs : List (List T)} {i : Nat} : rw' bs i ∈ rspan bs := by
  by_cases h : i < bs.length
  · rw [rw'_lt h]; exact mem_rspan (List.getElem_mem h)
  · have : rw' bs i = 0 := by ext j; exact rw'_ge (by omega) j
    rw [this]; exact zero_mem _

theorem list_ext_rw' {n : Nat} {bs bs' : List (List T)} (h : ∀ b ∈ bs, b.length = n)
    (h' : ∀ b ∈ bs', b.length = n) (hl : bs.length = bs'.length)
    (he : ∀ i, i < bs.length → rw' bs i = rw' bs' i) : bs = bs' := by
  apply List.ext_getElem hl
  intro i h1 h2
  apply ext_rent
  · rw [h _ (List.getElem_mem h1), h' _ (List.getElem_mem h2)]
  · intro k
    have := he i h1
    rw [rw'_lt h1, rw'_lt h2] at this
    rw [this]

theorem piv_exists {f : Nat → T} (h : f ≠ 0) : ∃ d, Piv f d := by
  classical
  have hex : ∃ d, f d ≠ 0 := by
    by_contra hh
    push Not at hh
    exact h (funext hh)
  refine ⟨Nat.find hex, fun j hj => ?_, Nat.find_spec hex⟩
  have := Nat.find_min hex hj
  push Not at this
  exact this

/-- two echelon bases of the same span whose rows agree at all pivot columns up to multiples are equal -/
theorem ech_unique {n : Nat} {bs bs' : List (List T)} (hE : Ech n bs) (hE' : Ech n bs')
    (h : rspan bs = rspan bs') (hpv : ∀ i, i < bs.length → ∀ l, l < bs.length → ∀ d, Piv (rw' bs l) d →
      (∃ g, rw' bs' i d - rw' bs i d = g * rw' bs l d) → rw' bs' i d = rw' bs i d) : bs = bs' := by
  have hu := pivots_unique hE hE' h
  refine list_ext_rw' (fun b hb => (hE.row b hb).1) (fun b hb => (hE'.row b hb).1) hu.1 (fun i hi => ?_)
  by_contra hne
  have hf : rw' bs' i - rw' bs i ≠ 0 := fun h0 => hne (sub_eq_zero.1 h0).symm
  obtain ⟨d, hd⟩ := piv_exists hf
  have hmem : rw' bs' i - rw' bs i ∈ rspan bs := sub_mem (by rw [h]; exact rw'_mem) rw'_mem
  obtain ⟨c, hc, hp⟩ := hE.pivots
  have hmem' := hmem
  rw [rspan_eq_range] at hmem'
  obtain ⟨l, hl⟩ := piv_mem hc (fun i => (hp i).1) hmem' hd
  have hpl : Piv (rw' bs l.1) d := by rw [rw'_lt l.2, ← hl]; exact (hp l).1
  have := hpv i hi l.1 l.2 d hpl (span_lead hE hmem l.2 hpl hd.1)
  apply hd.2
  simp [this]

end

theorem rat_pivot_entry {n : Nat} {bs : List (List Rat)} (hE : Ech n bs) (hR : RedEch bs) {i l d : Nat}
    (hi : i < bs.length) (hl : l < bs.length) (hd : Piv (rw' bs l) d) :
    rw' bs i d = if i = l then 1 else 0 := by
  rw [rw'_lt hl] at hd
  rw [rw'_lt hi]
  split
  · rename_i h; subst h
    exact hR.norm _ (List.getElem_mem _) d hd
  · rename_i h
    rcases lt_or_gt_of_ne h with h | h
    · exact List.pairwise_iff_getElem.1 hR.red i l hi hl h d hd
    · exact List.pairwise_iff_getElem.1 hE.inc l i hl hi h d hd d le_rfl

theorem rat_unique {n : Nat} {bs bs' : List (List Rat)} (hE : Ech n bs) (hE' : Ech n bs') (hR : RedEch bs)
    (hR' : RedEch bs') (h : rspan bs = rspan bs') : bs = bs' := by
  have hu := pivots_unique hE hE' h
  apply ech_unique hE hE' h
  intro i hi l hl d hd _
  rw [rat_pivot_entry hE hR hi hl hd, rat_pivot_entry hE' hR' (by rw [← hu.1]; exact hi) (by rw [← hu.1]; exact hl)
    ((hu.2 l hl d).1 hd)]

theorem int_pivot_pos {bs : List (List Int)} (hR : RedEch bs) {l d : Nat} (hl : l < bs.length)
    (hd : Piv (rw' bs l) d) : 0 < rw' bs l d := by
  rw [rw'_lt hl] at hd ⊢
  exact hR.norm _ (List.getElem_mem _) d hd

theorem int_pivot_unique {n : Nat} {bs bs' : List (List Int)} (hE : Ech n bs) (hE' : Ech n bs')
    (hR : RedEch bs) (hR' : RedEch bs') (h : rspan bs = rspan bs') {i d : Nat} (hi : i < bs.length)
    (hd : Piv (rw' bs i) d) : rw' bs i d = rw' bs' i d := by
  have hu := pivots_unique hE hE' h
  have hi' : i < bs'.length := by rw [← hu.1]; exact hi
  have hd' := (hu.2 i hi d).1 hd
  have p1 := int_pivot_pos hR hi hd
  have p2 := int_pivot_pos hR' hi' hd'
  obtain ⟨g, hg⟩ := span_lead hE (f := rw' bs' i) (by rw [h]; exact rw'_mem) hi hd hd'.1
  obtain ⟨g', hg'⟩ := span_lead hE' (f := rw' bs i) (by rw [← h]; exact rw'_mem) hi' hd' hd.1
  have d1 : rw' bs i d ∣ rw' bs' i d := ⟨g, by rw [hg]; ring⟩
  have d2 : rw' bs' i d ∣ rw' bs i d := ⟨g', by rw [hg']; ring⟩
  exact Int.dvd_antisymm p1.le p2.le d1 d2

/-- strictly reduced -/
def StrictRed (bs : List (List Int)) : Prop :=
  ∀ i l, i < l → l < bs.length → ∀ d, Piv (rw' bs l) d → rw' bs i d < rw' bs l d

theorem int_strict_unique {n : Nat} {bs bs' : List (List Int)} (hE : Ech n bs) (hE' : Ech n bs')
    (hR : RedEch bs) (hR' : RedEch bs') (h : rspan bs = rspan bs') (hs : StrictRed bs)
    (hs' : StrictRed bs') : bs = bs' := by
  have hu := pivots_unique hE hE' h
  apply ech_unique hE hE' h
  rintro i hi l hl d hd ⟨g, hg⟩
  have hi' : i < bs'.length := by rw [← hu.1]; exact hi
  have hl' : l < bs'.length := by rw [← hu.1]; exact hl
  have hd' := (hu.2 l hl d).1 hd
  have hpe := int_pivot_unique hE hE' hR hR' h hl hd
  rcases lt_trichotomy i l with hil | hil | hil
  · have b1 := hs i l hil hl d hd
    have b2 := hs' i l hil hl' d hd'
    have r1 : 0 ≤ rw' bs i d := by
      rw [rw'_lt hl] at hd; rw [rw'_lt hi]
      exact (List.pairwise_iff_getElem.1 hR.red i l hi hl hil d hd).1
    have r2 : 0 ≤ rw' bs' i d := by
      rw [rw'_lt hl'] at hd'; rw [rw'_lt hi']
      exact (List.pairwise_iff_getElem.1 hR'.red i l hi' hl' hil d hd').1
    rw [← hpe] at b2
    have hp := int_pivot_pos hR hl hd
    have : g = 0 := by
      by_contra hg0
      rcases lt_or_gt_of_ne hg0 with h1 | h1
      · have : g * rw' bs l d ≤ -1 * rw' bs l d := by
          apply mul_le_mul_of_nonneg_right _ hp.le; omega
        omega
      · have : 1 * rw' bs l d ≤ g * rw' bs l d := by
          apply mul_le_mul_of_nonneg_right _ hp.le; omega
        omega
    rw [this, zero_mul] at hg
    exact sub_eq_zero.1 hg
  · subst hil; exact hpe.symm
  · have z : ∀ (qs : List (List Int)), Ech n qs → ∀ (hl : l < qs.length) (hi : i < qs.length),
        Piv (rw' qs l) d → rw' qs i d = 0 := by
      intro qs hq hl hi hd
      rw [rw'_lt hl] at hd; rw [rw'_lt hi]
      exact List.pairwise_iff_getElem.1 hq.inc l i hl hi hil d hd d le_rfl
    rw [z bs hE hl hi hd, z bs' hE' hl' hi' hd']

end Systre
