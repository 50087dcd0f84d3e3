import Verif.Lemmas.Scalar
import Mathlib.LinearAlgebra.Span.Basic
import Mathlib.Algebra.Module.Pi

/-! Helper lemmas: `extend_basis` and the row loop of `reduced_basis`, generic in the scalar type. -/

set_option linter.unusedSectionVars false

namespace Systre

open Submodule

variable {T : Type} [CommRing T]

/-- `c` is the first non-zero position of `f` -/
def Piv (f : Nat → T) (c : Nat) : Prop := (∀ j, j < c → f j = 0) ∧ f c ≠ 0

theorem Piv.unique {f : Nat → T} {c d : Nat} (hc : Piv f c) (hd : Piv f d) : c = d := by
  rcases lt_trichotomy c d with h | h | h
  · exact absurd (hd.1 c h) hc.2
  · exact h
  · exact absurd (hc.1 d h) hd.2

theorem Piv.lt_length {l : List T} {c : Nat} (h : Piv (rent l) c) : c < l.length := by
  by_contra hc
  exact h.2 (rent_ge (by omega))

/-- span of the rows -/
def rspan (bs : List (List T)) : Submodule T (Nat → T) := span T {f | ∃ b ∈ bs, f = rent b}

@[simp] theorem rspan_nil : rspan ([] : List (List T)) = ⊥ := by simp [rspan]

theorem rspan_cons (b : List T) (bs : List (List T)) :
    rspan (b :: bs) = span T {rent b} ⊔ rspan bs := by
  unfold rspan
  rw [← span_union]
  congr 1
  ext f
  simp

theorem rspan_append (as bs : List (List T)) : rspan (as ++ bs) = rspan as ⊔ rspan bs := by
  induction as with
  | nil => simp
  | cons a as ih => rw [List.cons_append, rspan_cons, rspan_cons, ih, sup_assoc]

theorem mem_rspan {b : List T} {bs : List (List T)} (h : b ∈ bs) : rent b ∈ rspan bs :=
  subset_span ⟨b, h, rfl⟩

theorem rspan_le {bs : List (List T)} {S : Submodule T (Nat → T)} :
    rspan bs ≤ S ↔ ∀ b ∈ bs, rent b ∈ S := by
  unfold rspan
  rw [span_le]
  constructor
  · intro h b hb; exact h ⟨b, hb, rfl⟩
  · rintro h f ⟨b, hb, rfl⟩; exact h b hb

/-- echelon form: rows of length `n`, non-zero, pivots strictly increasing -/
structure Ech (n : Nat) (bs : List (List T)) : Prop where
  row : ∀ b ∈ bs, b.length = n ∧ ∃ c, Piv (rent b) c
  inc : bs.Pairwise (fun b d => ∀ c, Piv (rent b) c → ∀ j, j ≤ c → rent d j = 0)

theorem Ech.nil (n : Nat) : Ech n ([] : List (List T)) := ⟨by simp, by simp⟩

theorem ech_cons {n : Nat} {b : List T} {bs : List (List T)} :
    Ech n (b :: bs) ↔ (b.length = n ∧ ∃ c, Piv (rent b) c ∧ ∀ d ∈ bs, ∀ j, j ≤ c → rent d j = 0) ∧
      Ech n bs := by
  constructor
  · intro h
    obtain ⟨hl, c, hc⟩ := h.row b (by simp)
    have hp := List.pairwise_cons.1 h.inc
    exact ⟨⟨hl, c, hc, fun d hd => hp.1 d hd c hc⟩, ⟨fun d hd => h.row d (by simp [hd]), hp.2⟩⟩
  · rintro ⟨⟨hl, c, hc, hd⟩, h⟩
    refine ⟨?_, List.pairwise_cons.2 ⟨?_, h.inc⟩⟩
    · intro d hd
      rcases List.mem_cons.1 hd with rfl | hd
      · exact ⟨hl, c, hc⟩
      · exact h.row d hd
    · intro d hd' c' hc'
      rw [hc'.unique hc]
      exact hd d hd'

/-- vectors that vanish up to position `c` -/
def zeroUpTo (c : Nat) : Submodule T (Nat → T) where
  carrier := {f | ∀ j, j ≤ c → f j = 0}
  add_mem' := by intro f g hf hg j hj; simp [hf j hj, hg j hj]
  zero_mem' := by intro j _; rfl
  smul_mem' := by intro a f hf j hj; simp [hf j hj]

theorem mem_zeroUpTo {c : Nat} {f : Nat → T} : f ∈ zeroUpTo c ↔ ∀ j, j ≤ c → f j = 0 := Iff.rfl

/-- an alternating function of a list of rows of length `n` (as much as the elimination uses) -/
structure Alt (n : Nat) (D : List (List T) → T) : Prop where
  comb : ∀ (P S : List (List T)) (b v b' v' : List T) (p q r s : T), p * s - q * r = 1 →
    b.length = n → v.length = n → b'.length = n → v'.length = n →
    (∀ k, rent b' k = p * rent b k + q * rent v k) → (∀ k, rent v' k = r * rent b k + s * rent v k) →
    D (P ++ v :: b :: S) = - D (P ++ b' :: v' :: S)
  zero : ∀ (P S : List (List T)) (v : List T), (∀ k, rent v k = 0) → D (P ++ v :: S) = 0
  neg : ∀ (P S : List (List T)) (v v' : List T), v.length = n → v'.length = n →
    (∀ k, rent v' k = - rent v k) → D (P ++ v' :: S) = - D (P ++ v :: S)

theorem span_pair_of_comb {b v b' v' : Nat → T} {p q r s : T} (hdet : p * s - q * r = 1)
    (hb : ∀ k, b' k = p * b k + q * v k) (hv : ∀ k, v' k = r * b k + s * v k) :
    span T {b'} ⊔ span T {v'} = span T {v} ⊔ span T {b} := by
  have eb : b' = p • b + q • v := by ext k; simp [hb]
  have ev : v' = r • b + s • v := by ext k; simp [hv]
  have eb' : b = s • b' - q • v' := by
    ext k; simp [hb, hv]; linear_combination (- b k) * hdet
  have ev' : v = p • v' - r • b' := by
    ext k; simp [hb, hv]; linear_combination (- v k) * hdet
  apply le_antisymm
  · apply sup_le
    · rw [span_singleton_le_iff_mem, eb, add_comm]
      exact add_mem (mem_sup_left (smul_mem _ _ (mem_span_singleton_self _)))
        (mem_sup_right (smul_mem _ _ (mem_span_singleton_self _)))
    · rw [span_singleton_le_iff_mem, ev, add_comm]
      exact add_mem (mem_sup_left (smul_mem _ _ (mem_span_singleton_self _)))
        (mem_sup_right (smul_mem _ _ (mem_span_singleton_self _)))
  · apply sup_le
    · rw [span_singleton_le_iff_mem, ev']
      exact sub_mem (mem_sup_right (smul_mem _ _ (mem_span_singleton_self _)))
        (mem_sup_left (smul_mem _ _ (mem_span_singleton_self _)))
    · rw [span_singleton_le_iff_mem, eb']
      exact sub_mem (mem_sup_left (smul_mem _ _ (mem_span_singleton_self _)))
        (mem_sup_right (smul_mem _ _ (mem_span_singleton_self _)))

theorem rent_map_neg (v : List T) (k : Nat) : rent (v.map (fun x => -x)) k = - rent v k := by
  unfold rent List.getD
  rw [List.getElem?_map]
  cases v[k]? <;> simp

theorem span_neg (v w : Nat → T) (h : ∀ k, w k = - v k) : span T {w} = span T {v} := by
  have : w = -v := by ext k; exact h k
  rw [this]
  apply le_antisymm
  · rw [span_singleton_le_iff_mem]; exact neg_mem (mem_span_singleton_self _)
  · rw [span_singleton_le_iff_mem]
    have := neg_mem (mem_span_singleton_self (R := T) (-v)); rwa [neg_neg] at this

variable [Scalar T] [DecidableEq T]

theorem pivotColumn_some {v : List T} {c : Nat} : pivotColumn v = some c ↔ Piv (rent v) c := by
  unfold pivotColumn
  rw [List.findIdx?_eq_some_iff_getElem]
  constructor
  · rintro ⟨h1, h2, h3⟩
    refine ⟨fun j hj => ?_, ?_⟩
    · have := h3 j hj; rw [rent_lt (by omega)]; simpa using this
    · rw [rent_lt h1]; simpa using h2
  · intro h
    have hlt := h.lt_length
    refine ⟨hlt, ?_, ?_⟩
    · have := h.2; rw [rent_lt hlt] at this; simpa using this
    · intro j hj; have := h.1 j hj; rw [rent_lt (by omega)] at this; simpa using this

theorem pivotColumn_none {v : List T} : pivotColumn v = none ↔ ∀ k, rent v k = 0 := by
  unfold pivotColumn
  rw [List.findIdx?_eq_none_iff]
  constructor
  · intro h k
    by_cases hk : k < v.length
    · rw [rent_lt hk]; have := h _ (List.getElem_mem hk); simpa using this
    · exact rent_ge (by omega)
  · intro h x hx
    obtain ⟨k, hk, rfl⟩ := List.getElem_of_mem hx
    have := h k; rw [rent_lt hk] at this; simp [this]

theorem extendBasis_ok [LawfulScalar T] (n : Nat) : ∀ (bs : List (List T)) (v : List T), Ech n bs →
    v.length = n → ∃ bs', extendBasis v bs = .ok bs' ∧ Ech n bs' ∧
      rspan bs' = span T {rent v} ⊔ rspan bs ∧
      ((bs'.length = bs.length ∧ ∀ D, Alt n D → ∀ P S, D (P ++ v :: (bs ++ S)) = 0) ∨
       (bs'.length = bs.length + 1 ∧ ∀ D, Alt n D → ∀ P S,
          D (P ++ v :: (bs ++ S)) = (-1) ^ bs.length * D (P ++ (bs' ++ S)))) := by
  intro bs
  induction bs with
  | nil =>
    intro v hE hl
    unfold extendBasis
    cases hp : pivotColumn v with
    | none =>
      rw [pivotColumn_none] at hp
      have : rent v = 0 := by ext k; exact hp k
      refine ⟨[], by simp, Ech.nil n, by simp [this], Or.inl ⟨rfl, fun D hD P S => hD.zero P S v hp⟩⟩
    | some c =>
      rw [pivotColumn_some] at hp
      refine ⟨[v], by simp, ech_cons.2 ⟨⟨hl, c, hp, by simp⟩, Ech.nil n⟩, by simp [rspan_cons],
        Or.inr ⟨rfl, fun D hD P S => by simp⟩⟩
  | cons b bs ih =>
    intro v hE hl
    obtain ⟨⟨hlb, cB, hcB, hrest⟩, hE'⟩ := ech_cons.1 hE
    unfold extendBasis
    rw [if_neg (by simp [hl, hlb])]
    cases hp : pivotColumn v with
    | none =>
      rw [pivotColumn_none] at hp
      have : rent v = 0 := by ext k; exact hp k
      exact ⟨b :: bs, rfl, hE, by simp [this], Or.inl ⟨rfl, fun D hD P S => hD.zero P _ v hp⟩⟩
    | some c =>
      rw [pivotColumn_some] at hp
      rw [pivotColumn_some.2 hcB]
      simp only
      by_cases h1 : c < cB
      · rw [if_pos h1]
        have zeros : ∀ d ∈ b :: bs, ∀ j, j ≤ c → rent d j = 0 := by
          intro d hd j hj
          rcases List.mem_cons.1 hd with rfl | hd
          · exact hcB.1 j (by omega)
          · exact hrest d hd j (by omega)
        by_cases hodd : (b :: bs).length % 2 > 0
        · rw [if_pos hodd]
          have hn := rent_map_neg v
          refine ⟨_, rfl, ech_cons.2 ⟨⟨by simpa using hl, c, ⟨fun j hj => ?_, ?_⟩, zeros⟩, hE⟩, ?_,
            Or.inr ⟨rfl, fun D hD P S => ?_⟩⟩
          · rw [hn, hp.1 j hj, neg_zero]
          · rw [hn]; exact neg_ne_zero.2 hp.2
          · rw [rspan_cons, span_neg _ _ hn]
          · rw [List.cons_append (a := v.map _), hD.neg P _ v _ hl (by simpa using hl) hn,
              Odd.neg_one_pow (Nat.odd_iff.2 (by omega))]
            ring
        · rw [if_neg hodd]
          refine ⟨_, rfl, ech_cons.2 ⟨⟨hl, c, hp, zeros⟩, hE⟩, by rw [rspan_cons],
            Or.inr ⟨rfl, fun D hD P S => ?_⟩⟩
          rw [Even.neg_one_pow (Nat.even_iff.2 (by omega)), one_mul]; rfl
      · rw [if_neg h1]
        by_cases h2 : c = cB
        · rw [if_pos h2]
          subst h2
          obtain ⟨v', b', p, q, r, s, e1, hlv', hlb', hdet, hb', hv', hv0, hb0⟩ :=
            LawfulScalar.clear c v b (by rw [hl, hlb]) hp.lt_length hp.1 hcB.1 hcB.2
          rw [e1]
          simp only [Outcome.ok_bind]
          obtain ⟨rest, e2, hEr, hspan, hcase⟩ := ih v' hE' (by rw [hlv', hl])
          rw [e2]
          simp only [Outcome.ok_bind]
          have hv'0 : ∀ j, j ≤ c → rent v' j = 0 := by
            intro j hj
            rcases Nat.lt_or_eq_of_le hj with h | h
            · rw [hv', hcB.1 j h, hp.1 j h]; ring
            · rw [h]; exact hv0
          have hz : rspan rest ≤ zeroUpTo c := by
            rw [hspan]
            apply sup_le
            · rw [span_singleton_le_iff_mem]; exact hv'0
            · rw [rspan_le]; exact fun d hd => hrest d hd
          have hsp : rspan (b' :: rest) = span T {rent v} ⊔ rspan (b :: bs) := by
            rw [rspan_cons, hspan, rspan_cons, ← sup_assoc, ← sup_assoc, span_pair_of_comb hdet hb' hv']
          refine ⟨_, rfl, ech_cons.2 ⟨⟨by rw [hlb', hl], c, ⟨?_, hb0⟩,
            fun d hd => hz (mem_rspan hd)⟩, hEr⟩, hsp, ?_⟩
          · intro j hj; rw [hb', hcB.1 j hj, hp.1 j hj]; ring
          · rcases hcase with ⟨hlen, hD0⟩ | ⟨hlen, hD1⟩
            · left
              refine ⟨by simp [hlen], fun D hD P S => ?_⟩
              rw [List.cons_append, hD.comb P (bs ++ S) b v b' v' p q r s hdet hlb hl (by rw [hlb', hl])
                (by rw [hlv', hl]) hb' hv']
              have := hD0 D hD (P ++ [b']) S
              simp only [List.append_assoc, List.singleton_append] at this
              rw [this, neg_zero]
            · right
              refine ⟨by simp [hlen], fun D hD P S => ?_⟩
              rw [List.cons_append, hD.comb P (bs ++ S) b v b' v' p q r s hdet hlb hl (by rw [hlb', hl])
                (by rw [hlv', hl]) hb' hv']
              have := hD1 D hD (P ++ [b']) S
              simp only [List.append_assoc, List.singleton_append] at this
              rw [this, List.length_cons, pow_succ, List.cons_append]
              ring
        · rw [if_neg h2]
          obtain ⟨rest, e2, hEr, hspan, hcase⟩ := ih v hE' hl
          rw [e2]
          simp only [Outcome.ok_bind]
          have hz : rspan rest ≤ zeroUpTo cB := by
            rw [hspan]
            apply sup_le
            · rw [span_singleton_le_iff_mem]; intro j hj; exact hp.1 j (by omega)
            · rw [rspan_le]; exact fun d hd => hrest d hd
          refine ⟨_, rfl, ech_cons.2 ⟨⟨hlb, cB, hcB, fun d hd => hz (mem_rspan hd)⟩, hEr⟩, ?_, ?_⟩
          · rw [rspan_cons, hspan, rspan_cons, ← sup_assoc, ← sup_assoc, sup_comm (span T {rent b})]
          · have swap : ∀ D, Alt n D → ∀ P S, D (P ++ v :: b :: S) = - D (P ++ b :: v :: S) := by
              intro D hD P S
              exact hD.comb P S b v b v 1 0 0 1 (by ring) hlb hl hlb hl (fun k => by ring)
                (fun k => by ring)
            rcases hcase with ⟨hlen, hD0⟩ | ⟨hlen, hD1⟩
            · left
              refine ⟨by simp [hlen], fun D hD P S => ?_⟩
              rw [List.cons_append, swap D hD]
              have := hD0 D hD (P ++ [b]) S
              simp only [List.append_assoc, List.singleton_append] at this
              rw [this, neg_zero]
            · right
              refine ⟨by simp [hlen], fun D hD P S => ?_⟩
              rw [List.cons_append, swap D hD]
              have := hD1 D hD (P ++ [b]) S
              simp only [List.append_assoc, List.singleton_append] at this
              rw [this, List.length_cons, pow_succ, List.cons_append]
              ring

theorem alt_move {n : Nat} {D : List (List T) → T} (hD : Alt n D) (P : List (List T)) (v : List T)
    (hv : v.length = n) : ∀ (bs : List (List T)) (_ : ∀ b ∈ bs, b.length = n) (S : List (List T)),
    D (P ++ (bs ++ v :: S)) = (-1) ^ bs.length * D (P ++ v :: (bs ++ S)) := by
  intro bs
  induction bs generalizing P with
  | nil => intro _ S; simp
  | cons b bs ih =>
    intro hb S
    have h1 := ih (P ++ [b]) (fun d hd => hb d (by simp [hd])) S
    simp only [List.append_assoc, List.singleton_append] at h1
    rw [List.cons_append, h1]
    have h2 := hD.comb P (bs ++ S) b v b v 1 0 0 1 (by ring) (hb b (by simp)) hv (hb b (by simp)) hv
      (fun k => by ring) (fun k => by ring)
    rw [List.cons_append, h2, List.length_cons, pow_succ]
    ring

theorem extendAll_ok [LawfulScalar T] (n : Nat) : ∀ (vs bs : List (List T)), Ech n bs →
    (∀ v ∈ vs, v.length = n) → ∃ bs', extendAll vs bs = .ok bs' ∧ Ech n bs' ∧
      rspan bs' = rspan vs ⊔ rspan bs ∧ bs'.length ≤ bs.length + vs.length ∧
      ((bs'.length < bs.length + vs.length ∧ ∀ D, Alt n D → ∀ S, D (bs ++ (vs ++ S)) = 0) ∨
       (bs'.length = bs.length + vs.length ∧ ∀ D, Alt n D → ∀ S, D (bs ++ (vs ++ S)) = D (bs' ++ S))) := by
  intro vs
  induction vs with
  | nil =>
    intro bs hE _
    exact ⟨bs, rfl, hE, by simp, by simp, Or.inr ⟨rfl, fun D hD S => rfl⟩⟩
  | cons v vs ih =>
    intro bs hE hl
    have hvl := hl v (by simp)
    obtain ⟨bs1, e1, hE1, hs1, hc1⟩ := extendBasis_ok n bs v hE hvl
    obtain ⟨bs2, e2, hE2, hs2, hle, hc2⟩ := ih bs1 hE1 (fun w hw => hl w (by simp [hw]))
    have hle1 : bs1.length ≤ bs.length + 1 := by
      rcases hc1 with ⟨h, _⟩ | ⟨h, _⟩ <;> omega
    have hmove : ∀ D, Alt n D → ∀ S, D (bs ++ (v :: vs ++ S)) =
        (-1) ^ bs.length * D (v :: (bs ++ (vs ++ S))) := by
      intro D hD S
      have := alt_move hD [] v hvl bs (fun b hb => (hE.row b hb).1) (vs ++ S)
      simpa using this
    refine ⟨bs2, ?_, hE2, ?_, by simp only [List.length_cons]; omega, ?_⟩
    · unfold extendAll; rw [e1]; simpa using e2
    · rw [hs2, hs1, rspan_cons, ← sup_assoc, sup_comm (rspan vs)]
    · rcases hc1 with ⟨h1, d1⟩ | ⟨h1, d1⟩
      · left
        refine ⟨by simp only [List.length_cons]; omega, fun D hD S => ?_⟩
        rw [hmove D hD]
        have := d1 D hD [] (vs ++ S)
        simp only [List.nil_append] at this
        rw [this, mul_zero]
      · have hk : ∀ D, Alt n D → ∀ S, D (bs ++ (v :: vs ++ S)) = D (bs1 ++ (vs ++ S)) := by
          intro D hD S
          rw [hmove D hD]
          have := d1 D hD [] (vs ++ S)
          simp only [List.nil_append] at this
          rw [this, ← mul_assoc, ← mul_pow]
          simp
        rcases hc2 with ⟨h2, d2⟩ | ⟨h2, d2⟩
        · left
          refine ⟨by simp only [List.length_cons]; omega, fun D hD S => ?_⟩
          rw [hk D hD, d2 D hD]
        · right
          refine ⟨by simp only [List.length_cons]; omega, fun D hD S => ?_⟩
          rw [hk D hD, d2 D hD]

/-! ### the row loop of `reduced_basis` -/

theorem omap_forall₂ {α β : Type} {f : α → Outcome β} {R : α → β → Prop} {l : List α}
    (h : ∀ a ∈ l, ∃ b, f a = .ok b ∧ R a b) : ∃ l', omap f l = .ok l' ∧ List.Forall₂ R l l' := by
  induction l with
  | nil => exact ⟨[], rfl, .nil⟩
  | cons a l ih =>
    obtain ⟨b, h1, h2⟩ := h a (by simp)
    obtain ⟨l', h3, h4⟩ := ih (fun x hx => h x (by simp [hx]))
    exact ⟨b :: l', by simp [omap, h1, h3], .cons h2 h4⟩

theorem skipZeros_ok {v : List T} {c col : Nat} (h : Piv (rent v) c) (hc : col ≤ c) :
    skipZeros v col = .ok c := by
  unfold skipZeros
  have hlt := h.lt_length
  have : (v.drop col).findIdx? (fun x => decide (x ≠ 0)) = some (c - col) := by
    rw [List.findIdx?_eq_some_iff_getElem]
    refine ⟨by simp; omega, ?_, ?_⟩
    · have := h.2
      rw [rent_lt hlt] at this
      simp only [List.getElem_drop]
      simpa [Nat.add_sub_cancel' hc] using this
    · intro j hj
      have h0 := h.1 (col + j) (by omega)
      rw [rent_lt (l := v) (k := col + j) (by omega)] at h0
      simp [List.getElem_drop, h0]
  rw [this]
  show Outcome.ok (col + (c - col)) = .ok c
  rw [Nat.add_sub_cancel' hc]

theorem forall₂_mem_right {α β : Type} {R : α → β → Prop} {l : List α} {l' : List β}
    (h : List.Forall₂ R l l') : ∀ b ∈ l', ∃ a ∈ l, R a b := by
  induction h with
  | nil => simp
  | cons h1 _ ih =>
    intro b hb
    rcases List.mem_cons.1 hb with rfl | hb
    · exact ⟨_, by simp, h1⟩
    · obtain ⟨a, ha, hr⟩ := ih b hb; exact ⟨a, by simp [ha], hr⟩

theorem forall₂_pairwise {α β : Type} {R : α → β → Prop} {P : α → α → Prop} {Q : β → β → Prop}
    {l : List α} {l' : List β} (h : List.Forall₂ R l l') (hp : l.Pairwise P)
    (hi : ∀ a ∈ l, ∀ a' b b', a' ∈ l → R a b → R a' b' → P a a' → Q b b') : l'.Pairwise Q := by
  induction h with
  | nil => simp
  | @cons a b l l' h1 h2 ih =>
    rw [List.pairwise_cons] at hp ⊢
    refine ⟨?_, ih hp.2 (fun x hx x' y y' hx' => hi x (by simp [hx]) x' y y' (by simp [hx']))⟩
    intro b' hb'
    obtain ⟨a', ha', hr⟩ := forall₂_mem_right h2 b' hb'
    exact hi a (by simp) a' b b' (by simp [ha']) h1 hr (hp.1 a' ha')

/-- reduced echelon form, generic -/
structure RedEch [LawfulScalar T] (bs : List (List T)) : Prop where
  norm : ∀ b ∈ bs, ∀ c, Piv (rent b) c → LawfulScalar.Norm (rent b c)
  red : bs.Pairwise (fun b d => ∀ c, Piv (rent d) c → LawfulScalar.Red (rent b c) (rent d c))

theorem rspan_sub_sup {b : Nat → T} {dn dn' : List (List T)}
    (h : List.Forall₂ (fun v v' => ∃ f : T, ∀ k, rent v' k = rent v k - f * b k) dn dn') :
    rspan dn' ⊔ span T {b} = rspan dn ⊔ span T {b} := by
  induction h with
  | nil => rfl
  | @cons v v' dn dn' h1 _ ih =>
    obtain ⟨f, hf⟩ := h1
    have e : rent v' = rent v - f • b := by ext k; simp [hf]
    rw [rspan_cons, rspan_cons, sup_assoc, ih, sup_assoc, sup_comm (rspan dn), ← sup_assoc, ← sup_assoc]
    congr 1
    apply le_antisymm
    · apply sup_le _ le_sup_right
      rw [span_singleton_le_iff_mem, e]
      exact sub_mem (mem_sup_left (mem_span_singleton_self _))
        (mem_sup_right (smul_mem _ _ (mem_span_singleton_self _)))
    · apply sup_le _ le_sup_right
      rw [span_singleton_le_iff_mem]
      have : rent v = rent v' + f • b := by rw [e]; simp
      rw [this]
      exact add_mem (mem_sup_left (mem_span_singleton_self _))
        (mem_sup_right (smul_mem _ _ (mem_span_singleton_self _)))

theorem reduceRows_ok [IsDomain T] [LawfulScalar T] (n : Nat) :
    ∀ (rest dn : List (List T)) (col : Nat), Ech n (dn ++ rest) → RedEch dn →
      (∀ b ∈ rest, ∀ c, Piv (rent b) c → col ≤ c) →
      ∃ bs', reduceRows dn rest col = .ok bs' ∧ Ech n bs' ∧ RedEch bs' ∧
        rspan bs' = rspan (dn ++ rest) ∧ bs'.length = (dn ++ rest).length := by
  intro rest
  induction rest with
  | nil =>
    intro dn col hE hR _
    exact ⟨dn, rfl, by simpa using hE, hR, by simp, by simp⟩
  | cons b rest ih =>
    intro dn col hE hR hcol
    obtain ⟨hlb, c, hc⟩ := hE.row b (by simp)
    unfold reduceRows
    rw [skipZeros_ok hc (hcol b (by simp) c hc)]
    simp only [Outcome.ok_bind]
    obtain ⟨b', e, e', h1, hl', hu, hb', hnorm⟩ := LawfulScalar.normalize c b hc.lt_length hc.1 hc.2
    rw [h1]
    simp only [Outcome.ok_bind]
    have hpw := List.pairwise_append.1 hE.inc
    have he0 : e ≠ 0 := by rintro rfl; simp at hu
    have hc' : Piv (rent b') c := ⟨fun j hj => by rw [hb', hc.1 j hj, mul_zero],
      by rw [hb']; exact mul_ne_zero he0 hc.2⟩
    have hred : ∀ v ∈ dn, ∃ v', Scalar.reduceColumn c v b' = .ok v' ∧
        (v'.length = n ∧ LawfulScalar.Red (rent v' c) (rent b' c) ∧
          ∃ f, ∀ k, rent v' k = rent v k - f * rent b' k) := by
      intro v hv
      have hlv := (hE.row v (by simp [hv])).1
      obtain ⟨v', f, h2, h3, h4, h5⟩ := LawfulScalar.reduce c v b' (by rw [hl', hlb, hlv])
        (by rw [hlv, ← hlb]; exact hc.lt_length) hc'.1 hnorm
      exact ⟨v', h2, by rw [h3, hlv], h5, f, h4⟩
    obtain ⟨dn', h2, h3⟩ := omap_forall₂ hred
    rw [h2]
    simp only [Outcome.ok_bind]
    have pivlt : ∀ v ∈ dn, ∀ d, Piv (rent v) d → d < c := by
      intro v hv d hd
      have := hpw.2.2 v hv b (by simp) d hd
      by_contra hcd
      exact hc.2 (this c (by omega))
    have below : ∀ v v', (∃ f, ∀ k, rent v' k = rent v k - f * rent b' k) → ∀ k, k < c →
        rent v' k = rent v k := by
      rintro v v' ⟨f, hf⟩ k hk
      rw [hf, hc'.1 k hk, mul_zero, sub_zero]
    have piv' : ∀ v ∈ dn, ∀ v', (∃ f, ∀ k, rent v' k = rent v k - f * rent b' k) → ∀ d,
        Piv (rent v') d ↔ Piv (rent v) d := by
      intro v hv v' hf d
      obtain ⟨_, d0, hd0⟩ := hE.row v (by simp [hv])
      have hlt := pivlt v hv d0 hd0
      have hbel := below v v' hf
      have hd0' : Piv (rent v') d0 := ⟨fun j hj => by rw [hbel j (by omega)]; exact hd0.1 j hj,
        by rw [hbel d0 hlt]; exact hd0.2⟩
      constructor
      · intro h; rw [h.unique hd0']; exact hd0
      · intro h; rw [h.unique hd0]; exact hd0'
    have hE' : Ech n ((dn' ++ [b']) ++ rest) := by
      refine ⟨?_, ?_⟩
      · intro w hw
        simp only [List.mem_append, List.mem_singleton] at hw
        rcases hw with (hw | rfl) | hw
        · obtain ⟨v, hv, hr⟩ := forall₂_mem_right h3 w hw
          obtain ⟨_, d0, hd0⟩ := hE.row v (by simp [hv])
          exact ⟨hr.1, d0, (piv' v hv w hr.2.2 d0).2 hd0⟩
        · exact ⟨by rw [hl', hlb], c, hc'⟩
        · exact hE.row w (by simp [hw])
      · rw [List.append_assoc, List.pairwise_append]
        have hpr := List.pairwise_cons.1 hpw.2.1
        refine ⟨?_, ?_, ?_⟩
        · refine forall₂_pairwise h3 hpw.1 ?_
          intro v hv w v' w' hw hr hr' hvw d hd j hj
          rw [piv' v hv v' hr.2.2] at hd
          rw [below w w' hr'.2.2 j (by have := pivlt v hv d hd; omega)]
          exact hvw d hd j hj
        · rw [List.singleton_append, List.pairwise_cons]
          refine ⟨?_, hpr.2⟩
          intro w hw d hd
          rw [hd.unique hc']
          exact hpr.1 w hw c hc
        · intro v' hv' w hw d hd j hj
          obtain ⟨v, hv, hr⟩ := forall₂_mem_right h3 v' hv'
          rw [piv' v hv v' hr.2.2] at hd
          have hdc := pivlt v hv d hd
          rcases List.mem_append.1 hw with hw | hw
          · rw [List.mem_singleton.1 hw]; exact hc'.1 j (by omega)
          · exact hpw.2.2 v hv w (by simp [hw]) d hd j hj
    have hR' : RedEch (dn' ++ [b']) := by
      refine ⟨?_, ?_⟩
      · intro w hw d hd
        rcases List.mem_append.1 hw with hw | hw
        · obtain ⟨v, hv, hr⟩ := forall₂_mem_right h3 w hw
          rw [piv' v hv w hr.2.2] at hd
          rw [below v w hr.2.2 d (pivlt v hv d hd)]
          exact hR.norm v hv d hd
        · have hw := List.mem_singleton.1 hw
          subst hw; rw [hd.unique hc']; exact hnorm
      · rw [List.pairwise_append]
        refine ⟨?_, by simp, ?_⟩
        · refine forall₂_pairwise h3 hR.red ?_
          intro v hv w v' w' hw hr hr' hvw d hd
          rw [piv' w hw w' hr'.2.2] at hd
          have hdc := pivlt w hw d hd
          rw [below v v' hr.2.2 d hdc, below w w' hr'.2.2 d hdc]
          exact hvw d hd
        · intro v' hv' w hw d hd
          rw [List.mem_singleton.1 hw] at hd ⊢
          obtain ⟨v, hv, hr⟩ := forall₂_mem_right h3 v' hv'
          rw [hd.unique hc']
          exact hr.2.1
    have hcol' : ∀ w ∈ rest, ∀ d, Piv (rent w) d → c ≤ d := by
      intro w hw d hd
      have hpr := List.pairwise_cons.1 hpw.2.1
      have := hpr.1 w hw c hc
      by_contra hcd
      exact hd.2 (this d (by omega))
    obtain ⟨bs', h4, h5, h6, h7, h8⟩ := ih (dn' ++ [b']) c hE' hR' hcol'
    refine ⟨bs', h4, h5, h6, ?_, ?_⟩
    · rw [h7, rspan_append, rspan_append, rspan_append, rspan_cons, rspan_cons]
      have hsb : span T {rent b'} = span T {rent b} := by
        apply le_antisymm
        · rw [span_singleton_le_iff_mem]
          have : rent b' = e • rent b := by ext k; simp [hb']
          rw [this]; exact smul_mem _ _ (mem_span_singleton_self _)
        · rw [span_singleton_le_iff_mem]
          have : rent b = e' • rent b' := by
            ext k; simp only [Pi.smul_apply, smul_eq_mul, hb']
            rw [← mul_assoc, mul_comm e', hu, one_mul]
          rw [this]; exact smul_mem _ _ (mem_span_singleton_self _)
      have := rspan_sub_sup (b := rent b') (dn := dn) (dn' := dn')
        (h3.imp (fun _ _ h => h.2.2))
      rw [rspan_nil, sup_bot_eq, this, hsb, sup_assoc]
    · rw [h8]
      have := h3.length_eq
      simp; omega

end Systre
