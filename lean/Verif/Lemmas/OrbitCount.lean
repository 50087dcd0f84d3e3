import Mathlib.Algebra.Group.Subgroup.Basic
import Mathlib.Algebra.BigOperators.Group.Finset.Basic
import Mathlib.Data.Finset.Card
import Mathlib.Algebra.Order.BigOperators.Group.Finset

/-!
# Orbits and stabilizers, for a list that stands for a group
-/

namespace Systre

/-- Orbit times stabilizer is the group: `P` sends the members of `l` to different elements of a group that form a
subgroup, `f a` says how the member `a` moves the points. -/
theorem orbit_stabilizer {β G α : Type} [Group G] [DecidableEq α] {l : List β} {P : β → G}
    (hnd : (l.map P).Nodup) {H : Subgroup G} (hH : ∀ y, y ∈ H ↔ y ∈ l.map P) {f : β → α → α} {x : α}
    (hmul : ∀ a ∈ l, ∀ b ∈ l, ∀ c ∈ l, P c = P a * P b → f c x = f a (f b x))
    (hone : ∀ a ∈ l, P a = 1 → f a x = x) {c : List α} (hc : c.Nodup)
    (hmem : ∀ y, y ∈ c ↔ ∃ a ∈ l, f a x = y) :
    c.length * (l.filter (fun a => decide (f a x = x))).length = l.length := by
  classical
  have hl : l.Nodup := hnd.of_map P
  have hinj : ∀ a ∈ l, ∀ b ∈ l, P a = P b → a = b := fun a ha b hb h => List.inj_on_of_nodup_map hnd ha hb h
  have hprod : ∀ a ∈ l, ∀ b ∈ l, ∃ c ∈ l, P c = P a * P b := by
    intro a ha b hb
    have := (hH _).1 (H.mul_mem ((hH _).2 (List.mem_map_of_mem ha)) ((hH _).2 (List.mem_map_of_mem hb)))
    obtain ⟨c, h1, h2⟩ := List.mem_map.1 this
    exact ⟨c, h1, h2⟩
  have hinv : ∀ a ∈ l, ∃ c ∈ l, P c = (P a)⁻¹ := by
    intro a ha
    have := (hH _).1 (H.inv_mem ((hH _).2 (List.mem_map_of_mem ha)))
    obtain ⟨c, h1, h2⟩ := List.mem_map.1 this
    exact ⟨c, h1, h2⟩
  obtain ⟨i, hi, hi1⟩ : ∃ i ∈ l, P i = 1 := by
    obtain ⟨c, h1, h2⟩ := List.mem_map.1 ((hH 1).1 H.one_mem)
    exact ⟨c, h1, h2⟩
  have hcard : ∀ p : β → Prop, [DecidablePred p] → (l.filter (fun a => decide (p a))).length = (l.toFinset.filter p).card := by
    intro p _
    rw [← List.toFinset_card_of_nodup (hl.filter _)]
    congr 1
    ext a
    simp
  have hfib : ∀ y ∈ c, (l.toFinset.filter (fun a => f a x = y)).card = (l.toFinset.filter (fun a => f a x = x)).card := by
    intro y hy
    obtain ⟨a, ha, rfl⟩ := (hmem y).1 hy
    obtain ⟨a', ha', hP⟩ := hinv a ha
    have hback : f a' (f a x) = x := by
      rw [← hmul a' ha' a ha i hi (by rw [hP, hi1]; simp)]
      exact hone i hi hi1
    choose! m hm1 hm2 using fun d => fun p : d ∈ l ∧ True => hprod a' ha' d p.1
    choose! n hn1 hn2 using fun d => fun p : d ∈ l ∧ True => hprod a ha d p.1
    apply le_antisymm
    · apply Finset.card_le_card_of_injOn m
      · intro d hd
        simp only [Finset.coe_filter, List.mem_toFinset, Set.mem_setOf_eq] at hd ⊢
        refine ⟨hm1 d ⟨hd.1, trivial⟩, ?_⟩
        rw [hmul a' ha' d hd.1 _ (hm1 d ⟨hd.1, trivial⟩) (hm2 d ⟨hd.1, trivial⟩), hd.2, hback]
      · intro d hd e he hde
        simp only [Finset.coe_filter, List.mem_toFinset, Set.mem_setOf_eq] at hd he
        apply hinj d hd.1 e he.1
        have h1 := hm2 d ⟨hd.1, trivial⟩
        rw [hde, hm2 e ⟨he.1, trivial⟩] at h1
        exact (mul_left_cancel h1).symm
    · apply Finset.card_le_card_of_injOn n
      · intro d hd
        simp only [Finset.coe_filter, List.mem_toFinset, Set.mem_setOf_eq] at hd ⊢
        refine ⟨hn1 d ⟨hd.1, trivial⟩, ?_⟩
        rw [hmul a ha d hd.1 _ (hn1 d ⟨hd.1, trivial⟩) (hn2 d ⟨hd.1, trivial⟩), hd.2]
      · intro d hd e he hde
        simp only [Finset.coe_filter, List.mem_toFinset, Set.mem_setOf_eq] at hd he
        apply hinj d hd.1 e he.1
        have h1 := hn2 d ⟨hd.1, trivial⟩
        rw [hde, hn2 e ⟨he.1, trivial⟩] at h1
        exact (mul_left_cancel h1).symm
  rw [hcard, ← List.toFinset_card_of_nodup hl, ← List.toFinset_card_of_nodup hc]
  have := Finset.card_eq_sum_card_fiberwise (f := fun a => f a x) (s := l.toFinset) (t := c.toFinset) (by
    intro a ha
    simp only [List.coe_toFinset, Set.mem_setOf_eq] at ha ⊢
    exact (hmem _).2 ⟨a, ha, rfl⟩)
  rw [this, Finset.sum_congr rfl (fun y hy => hfib y (List.mem_toFinset.1 hy)), Finset.sum_const, smul_eq_mul]

end Systre
