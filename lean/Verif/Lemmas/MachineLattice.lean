import Verif.Lemmas.MachineSafe
import Verif.Lemmas.RowSpace
import Verif.Lemmas.RationalLattice

/-!
# `rational_lattice_basis` without overflow
-/

namespace Systre.Machine

theorem mem_of_omap {α β : Type} {f : α → Outcome β} {l : List α} : ∀ {l' : List β}, omap f l = .ok l' →
    ∀ b ∈ l', ∃ a ∈ l, f a = .ok b := by
  induction l with
  | nil =>
    intro l' h b hb
    obtain rfl := Outcome.ok.inj h
    exact absurd hb (by simp)
  | cons a l ih =>
    intro l' h b hb
    simp only [omap] at h
    cases h1 : f a with
    | ok b0 =>
      rw [h1] at h
      cases h2 : omap f l with
      | ok bs =>
        simp only [h2] at h
        obtain rfl := Outcome.ok.inj h
        rcases List.mem_cons.1 hb with rfl | hb
        · exact ⟨a, List.mem_cons_self, h1⟩
        · obtain ⟨a', h5, h6⟩ := ih h2 b hb
          exact ⟨a', List.mem_cons_of_mem _ h5, h6⟩
      | panic => simp only [h2] at h; cases h
      | diverge => simp only [h2] at h; cases h
    | panic => rw [h1] at h; cases h
    | diverge => rw [h1] at h; cases h

theorem omap_length {α β : Type} {f : α → Outcome β} {l : List α} : ∀ {l' : List β}, omap f l = .ok l' →
    l'.length = l.length := by
  induction l with
  | nil =>
    intro l' h
    obtain rfl := Outcome.ok.inj h
    rfl
  | cons a l ih =>
    intro l' h
    simp only [omap] at h
    cases h1 : f a with
    | ok b0 =>
      rw [h1] at h
      cases h2 : omap f l with
      | ok bs =>
        simp only [h2] at h
        obtain rfl := Outcome.ok.inj h
        simp [ih h2]
      | panic => simp only [h2] at h; cases h
      | diverge => simp only [h2] at h; cases h
    | panic => rw [h1] at h; cases h
    | diverge => rw [h1] at h; cases h

theorem Ech.length_le {n : Nat} {bs : List (List Int)} (h : Ech n bs) : bs.length ≤ n := by
  obtain ⟨c, hc, hp⟩ := h.pivots
  have h1 : Function.Injective (fun i : Fin bs.length => (⟨c i, (hp i).2⟩ : Fin n)) := fun i j hij =>
    hc.injective (Fin.mk.inj_iff.1 hij)
  simpa using Fintype.card_le_of_injective _ h1

/-- A bound for the numbers in a basis of at most `n` rows with entries at most `M` after `j` more vectors with entries
at most `M`. -/
def growthIn (n M : Nat) : Nat → Nat
  | 0 => M
  | j + 1 => max (growthIn n M j) ((2 * growthIn n M j) ^ n * M)

theorem growthIn_mono (n M j l : Nat) : growthIn n M j ≤ growthIn n M (j + l) := by
  induction l with
  | zero => exact le_refl _
  | succ l ih => exact ih.trans (le_max_left _ _)

theorem extendAll_safe_in {w n M : Nat} (hM : 1 ≤ M) (vs : List (List Int)) : ∀ (bs : List (List Int)) (j : Nat),
    Ech n bs → growthIn n M (j + vs.length) < 2 ^ (w - 1) → (∀ b ∈ bs, Small (growthIn n M j) b) →
    (∀ v ∈ vs, v.length = n ∧ Small M v) →
    ∀ bs', Systre.extendAll vs bs = .ok bs' → extendAll (.debug w) vs bs = .ok bs' := by
  induction vs with
  | nil => intro bs j _ _ _ _ bs' h; exact h
  | cons v vs ih =>
    intro bs j hj hN hb hv bs' h
    unfold Systre.extendAll at h
    obtain ⟨b1, k1, k2⟩ := Outcome.bind_eq_ok.1 h
    have hG : 1 ≤ growthIn n M j := hM.trans (by simpa [growthIn] using growthIn_mono n M 0 j)
    have hle : (2 * (growthIn n M j : Int)) ^ bs.length * (M : Int) ≤ ((growthIn n M (j + 1) : Nat) : Int) := by
      have : (2 * growthIn n M j) ^ bs.length * M ≤ growthIn n M (j + 1) :=
        (Nat.mul_le_mul_right M (Nat.pow_le_pow_right (by omega) (Ech.length_le hj))).trans (le_max_right _ _)
      exact_mod_cast this
    have hN' : ((growthIn n M (j + 1) : Nat) : Int) < 2 ^ (w - 1) := by
      have h1 := growthIn_mono n M (j + 1) vs.length
      rw [show j + 1 + vs.length = j + (v :: vs).length by simp only [List.length_cons]; omega] at h1
      exact_mod_cast lt_of_le_of_lt h1 hN
    obtain ⟨k3, k4⟩ := extendBasis_safe (w := w) (M := growthIn n M j) (by exact_mod_cast hG) bs v M (by exact_mod_cast hM)
      (lt_of_le_of_lt hle hN') hb (hv v List.mem_cons_self).2 b1 k1
    obtain ⟨b1', e1, e2, -, -⟩ := extendBasis_ok n bs v hj (hv v List.mem_cons_self).1
    rw [k1] at e1
    obtain rfl := Outcome.ok.inj e1
    unfold extendAll
    rw [k3, Outcome.ok_bind]
    refine ih b1 (j + 1) e2 ?_ ?_ (fun x hx => hv x (List.mem_cons_of_mem _ hx)) bs' k2
    · rw [show j + 1 + vs.length = j + (v :: vs).length by simp only [List.length_cons]; omega]; exact hN
    · intro b hb'
      refine (k4 b hb').mono (max_le ?_ hle)
      exact_mod_cast growthIn_mono n M j 1

theorem extendBasis_last (k : IntKind) (v : List Int) {c : Nat} (hc : pivotColumn v = some c) :
    ∀ bs : List (List Int), (∀ b ∈ bs, b.length = v.length ∧ ∃ d, pivotColumn b = some d ∧ d < c) →
    extendBasis k v bs = .ok (bs ++ [v]) := by
  intro bs
  induction bs with
  | nil =>
    intro _
    unfold extendBasis
    rw [hc]; rfl
  | cons b bs ih =>
    intro h
    obtain ⟨h1, d, h2, h3⟩ := h b List.mem_cons_self
    unfold extendBasis
    rw [if_neg (by simp [h1]), hc]
    simp only [h2]
    rw [if_neg (by omega), if_neg (by omega), ih (fun b hb => h b (List.mem_cons_of_mem _ hb)), Outcome.ok_bind]
    rfl

theorem unit_pivot {n i : Nat} (hi : i < n) {c : Int} (hc : c ≠ 0) :
    pivotColumn ((List.replicate n (0 : Int)).set i c) = some i := by
  rw [pivotColumn_some]
  constructor
  · intro j hj
    simp only [rent, List.getD_eq_getElem?_getD]
    rw [List.getElem?_set_ne (by omega), List.getElem?_replicate, if_pos (by omega)]
    rfl
  · simp only [rent, List.getD_eq_getElem?_getD]
    rw [List.getElem?_set_self (by simpa using hi)]
    exact hc

theorem extendAll_units (k : IntKind) {n : Nat} {c : Int} (hc : c ≠ 0) : ∀ (l : List Nat) (bs : List (List Int)),
    l.Pairwise (· < ·) → (∀ i ∈ l, i < n) → (∀ b ∈ bs, b.length = n ∧ ∃ d, pivotColumn b = some d ∧ ∀ i ∈ l, d < i) →
    extendAll k (l.map (fun i => (List.replicate n (0 : Int)).set i c)) bs =
      .ok (bs ++ l.map (fun i => (List.replicate n (0 : Int)).set i c)) := by
  intro l
  induction l with
  | nil => intro bs _ _ _; simp [extendAll]
  | cons i l ih =>
    intro bs hp hn hb
    simp only [List.map_cons, extendAll]
    have hu := unit_pivot (hn i List.mem_cons_self) hc
    rw [extendBasis_last k _ hu bs (fun b h => ⟨by simp [(hb b h).1], by
      obtain ⟨d, h1, h2⟩ := (hb b h).2
      exact ⟨d, h1, h2 i List.mem_cons_self⟩⟩), Outcome.ok_bind]
    rw [List.pairwise_cons] at hp
    rw [ih _ hp.2 (fun j hj => hn j (List.mem_cons_of_mem _ hj)) ?_]
    · simp
    · intro b h
      rcases List.mem_append.1 h with h | h
      · obtain ⟨h0, d, h1, h2⟩ := hb b h
        exact ⟨h0, d, h1, fun j hj => h2 j (List.mem_cons_of_mem _ hj)⟩
      · obtain rfl := List.mem_singleton.1 h
        exact ⟨by simp, i, hu, hp.1⟩

theorem rational_safe {n M : Nat} {vs : List (List Rat)} (hl : ∀ v ∈ vs, v.length = n) {m : ℕ} (hm : 0 < m) (hmM : m ≤ M)
    (hx : ∀ v ∈ vs, ∀ x ∈ v, (∃ z : ℤ, x * m = z) ∧ |x * m| ≤ M) {w : Nat} (hN : growthIn n M vs.length < 2 ^ (w - 1))
    {bs : List (List Rat)} (h : Lattices.rationalLatticeBasis vs = .ok bs) :
    rationalLatticeBasis (.debug w) vs = .ok bs := by
  obtain ⟨cd, hc0, hc1, hc2, hc3⟩ := Lattices.commonDenom_ok vs
  have hcle := Nat.le_of_dvd hm (hc3 m (fun v hv x hxv => Lattices.den_dvd_of_int (hx v hv x hxv).1))
  have hcq : (0 : ℚ) < cd := by exact_mod_cast hc0
  unfold Lattices.rationalLatticeBasis at h
  obtain ⟨v0, h1, h2⟩ := Outcome.bind_eq_ok.1 h
  obtain ⟨cd', h3, h4⟩ := Outcome.bind_eq_ok.1 h2
  obtain ⟨b0, h5, h6⟩ := Outcome.bind_eq_ok.1 h4
  obtain ⟨ints, h7, h8⟩ := Outcome.bind_eq_ok.1 h6
  obtain ⟨b1, h9, h10⟩ := Outcome.bind_eq_ok.1 h8
  have hv0 : v0 ∈ vs := by
    cases vs with
    | nil => exact absurd h1 (by simp [vecGet])
    | cons a l =>
      have : (.ok a : Outcome (List Rat)) = .ok v0 := h1
      rw [Outcome.ok.inj this]; exact List.mem_cons_self
  have hcd : cd' = (cd : Int) := by
    rw [hc1] at h3
    unfold Lattices.toI32 at h3
    split at h3
    · exact (Outcome.ok.inj h3).symm
    · exact absurd h3 (by simp [unwrap])
  subst hcd
  have hcz : (cd : Int) ≠ 0 := by omega
  have hul := extendAll_units .ideal (n := n) hcz (List.range n) [] List.pairwise_lt_range (by simp) (by simp)
  have hud := extendAll_units (.debug w) (n := n) hcz (List.range n) [] List.pairwise_lt_range (by simp) (by simp)
  rw [hl v0 hv0] at h5
  rw [ideal_extendAll, h5] at hul
  obtain rfl := Outcome.ok.inj hul
  have hE : Ech n ((List.range n).map (fun i => (List.replicate n (0 : Int)).set i (cd : Int))) := by
    obtain ⟨b', e1, e2, -⟩ := extendAll_ok n ((List.range n).map (fun i => (List.replicate n (0 : Int)).set i (cd : Int)))
      [] (Ech.nil _) (by
        intro v hv
        obtain ⟨i, -, rfl⟩ := List.mem_map.1 hv
        simp)
    rw [h5] at e1
    obtain rfl := Outcome.ok.inj e1
    exact e2
  have hints : ∀ v ∈ ints, v.length = n ∧ Small M v := by
    intro v hv
    obtain ⟨d, hd, hd'⟩ := mem_of_omap h7 v hv
    refine ⟨?_, fun y hy => ?_⟩
    · have : v.length = d.length := (omap_length hd')
      rw [this, hl d hd]
    · obtain ⟨x, hxd, hx'⟩ := mem_of_omap hd' y hy
      have hden := Lattices.int_of_den_dvd (hc2 d hd x hxd)
      have hy' : y = (x * (cd : ℚ)).num := by
        have e : (((cd : ℕ) : ℤ) : ℚ) = (cd : ℚ) := by push_cast; rfl
        rw [e] at hx'
        unfold Lattices.rToI32 Lattices.toI32 at hx'
        rw [if_pos hden] at hx'
        split at hx'
        · exact (Outcome.ok.inj hx').symm
        · exact absurd hx' (by simp [unwrap])
      have habs : |x * cd| ≤ (M : ℚ) := by
        refine le_trans ?_ (hx d hd x hxd).2
        rw [abs_mul, abs_mul, abs_of_pos hcq, abs_of_pos (by exact_mod_cast hm : (0 : ℚ) < m)]
        exact mul_le_mul_of_nonneg_left (by exact_mod_cast hcle) (abs_nonneg _)
      rw [Lattices.num_of_den_one hden, ← hy'] at habs
      exact_mod_cast habs
  have hlen : ints.length = vs.length := omap_length h7
  have h11 := extendAll_safe_in (w := w) (n := n) (M := M) (by omega) ints _ 0 hE (by rw [hlen, Nat.zero_add]; exact hN) (by
    intro b hb
    obtain ⟨i, -, rfl⟩ := List.mem_map.1 hb
    intro x hx
    rcases List.mem_or_eq_of_mem_set hx with hx | rfl
    · rw [List.mem_replicate] at hx
      rw [hx.2]; simp
    · rw [abs_of_nonneg (by omega)]
      have : cd ≤ M := hcle.trans hmM
      simp only [growthIn]
      exact_mod_cast this) hints b1 h9
  unfold rationalLatticeBasis
  rw [h1, Outcome.ok_bind, h3, Outcome.ok_bind, hl v0 hv0]
  simp only [List.nil_append] at hud
  dsimp only
  rw [hud, Outcome.ok_bind, h7, Outcome.ok_bind, h11, Outcome.ok_bind]
  exact h10

theorem omap_not_diverge {α β : Type} {f : α → Outcome β} {l : List α} (h : ∀ a ∈ l, f a ≠ .diverge) :
    omap f l ≠ .diverge := by
  induction l with
  | nil => exact fun h' => by cases h'
  | cons a l ih =>
    intro h'
    simp only [omap] at h'
    have h0 := h a List.mem_cons_self
    have h2 := ih (fun b hb => h b (List.mem_cons_of_mem _ hb))
    cases h1 : f a with
    | ok b0 =>
      rw [h1] at h'
      cases h3 : omap f l with
      | ok bs => simp only [h3] at h'; cases h'
      | panic => simp only [h3] at h'; cases h'
      | diverge => exact h2 h3
    | panic => rw [h1] at h'; cases h'
    | diverge => exact h0 h1

theorem rational_not_diverge {n : Nat} {vs : List (List Rat)} (hl : ∀ v ∈ vs, v.length = n) :
    Lattices.rationalLatticeBasis vs ≠ .diverge := by
  unfold Lattices.rationalLatticeBasis
  cases vs with
  | nil => simp [vecGet]
  | cons v0 vt =>
    have hv0 := hl v0 List.mem_cons_self
    have hget : vecGet (v0 :: vt) 0 = .ok v0 := rfl
    rw [hget, Outcome.ok_bind]
    have hun : ∀ o : Option Int, unwrap o ≠ .diverge := fun o => by cases o <;> exact fun h => by cases h
    cases h1 : unwrap (Lattices.toI32 (Lattices.commonDenom (v0 :: vt))) with
    | panic => exact fun h => by cases h
    | diverge => exact absurd h1 (hun _)
    | ok cd =>
      rw [Outcome.ok_bind, hv0]
      obtain ⟨b0, e1, e2, -⟩ := extendAll_ok n ((List.range n).map (fun i => (List.replicate n (0 : Int)).set i cd))
        [] (Ech.nil _) (by
          intro v hv
          obtain ⟨i, -, rfl⟩ := List.mem_map.1 hv
          simp)
      dsimp only
      rw [e1, Outcome.ok_bind]
      cases h2 : omap (fun d => omap (fun x => unwrap (Lattices.rToI32 (x * (cd : Rat)))) d) (v0 :: vt) with
      | panic => exact fun h => by cases h
      | diverge => exact absurd h2 (omap_not_diverge fun a _ => omap_not_diverge fun x _ => hun _)
      | ok ints =>
        rw [Outcome.ok_bind]
        obtain ⟨b1, e3, -⟩ := extendAll_ok n ints b0 e2 (by
          intro v hv
          obtain ⟨d, hd, hd'⟩ := mem_of_omap h2 v hv
          rw [omap_length hd', hl d hd])
        rw [e3, Outcome.ok_bind]
        exact fun h => by cases h

end Systre.Machine
