import Verif.Lemmas.ModularInverse

/-! The modular elimination without an assumption on the entries: negative multiples of the prime become the prime
itself instead of zero. -/

namespace Systre.Modular
open Systre Submodule

section step
variable {n c : Nat} {p : Nat}

/-- entries between 0 and `p` -/
def Small (p : Nat) {r c : Nat} (A : Matrix (Fin r) (Fin c) Int) : Prop := ∀ i j, 0 ≤ A i j ∧ A i j ≤ p

theorem scaleRow_any (hp : 0 < p) (k : Nat)
    (f : Int) (hf : 0 ≤ f ∧ f < p) (row : Fin c → Int) (hr : ∀ j, 0 ≤ row j ∧ row j ≤ p)
    (hz : ∀ j : Fin c, j.1 < k → row j = 0) :
    ∃ row' : Fin c → Int, (∀ ck, Accepts ck (p * p : Nat) → scaleRow ck p k f (List.ofFn row) = .ok (List.ofFn row')) ∧
      (∀ j, 0 ≤ row' j ∧ row' j < p) ∧ (∀ j, ((row' j : Int) : ZMod p) = (f : ZMod p) * row j) ∧
      (∀ j : Fin c, j.1 < k → row' j = 0) ∧ (∀ j : Fin c, k ≤ j.1 → row' j = (row j * f).tmod p) := by
  refine ⟨fun j => if j.1 < k then row j else (row j * f).tmod p, ?_, ?_, ?_, ?_, ?_⟩
  · intro ck hck
    unfold scaleRow
    rw [List.length_ofFn]
    apply omap_range
    intro j
    rw [rent_ofFn]
    split
    · rfl
    · rw [hck]
      · rfl
      · have := hr j
        rw [abs_of_nonneg (mul_nonneg this.1 hf.1)]
        push_cast
        exact mul_le_mul this.2 hf.2.le hf.1 (by omega)
  · intro j
    simp only
    split
    · rw [hz j ‹_›]; exact ⟨le_rfl, by exact_mod_cast hp⟩
    · exact tmod_range hp (mul_nonneg (hr j).1 hf.1)
  · intro j
    simp only
    split
    · rw [hz j ‹_›]; simp
    · rw [cast_tmod (mul_nonneg (hr j).1 hf.1)]; push_cast; ring
  · intro j hj
    simp only [if_pos hj]; exact hz j hj
  · intro j hj
    simp only [if_neg (not_lt.2 hj)]

theorem clearRow_any (hp : 1 < p) (k : Fin c)
    (piv row : Fin c → Int) (hv : ∀ j, 0 ≤ piv j ∧ piv j < p) (hr : ∀ j, 0 ≤ row j ∧ row j ≤ p)
    (hz : ∀ j : Fin c, j.1 < k.1 → piv j = 0) (h1 : piv k = 1) :
    ∃ row' : Fin c → Int, (∀ ck, Accepts ck (p * p : Nat) → 
        clearRow ck p k.1 (List.ofFn piv) (List.ofFn row) = .ok (List.ofFn row')) ∧
      (∀ j, 0 ≤ row' j ∧ row' j ≤ p) ∧
      (∀ j, ((row' j : Int) : ZMod p) = (row j : ZMod p) - (row k : ZMod p) * piv j) ∧
      (∀ j : Fin c, j.1 < k.1 → row' j = row j) ∧ row' k = 0 ∧ ((∀ j, row j < p) → ∀ j, row' j < p) := by
  have hpp : (p : Int) + p ≤ (p * p : Nat) := by
    push_cast; nlinarith [show (2 : Int) ≤ p by exact_mod_cast hp]
  unfold clearRow
  rw [rent_ofFn, List.length_ofFn]
  by_cases hf : row k = 0
  · refine ⟨row, ?_, hr, ?_, fun _ _ => rfl, hf, fun h => h⟩
    · intro ck hck; simp [hf]
    · intro j; rw [hf]; simp
  · simp only [ne_eq, hf, not_false_eq_true, if_true]
    have hx : ∀ j, 0 ≤ piv j * row k ∧ piv j * row k ≤ (p * p : Nat) := fun j => by
      constructor
      · exact mul_nonneg (hv j).1 (hr k).1
      · push_cast
        exact mul_le_mul (hv j).2.le (hr k).2 (hr k).1 (by omega)
    have ht : ∀ j, 0 ≤ (piv j * row k).tmod p ∧ (piv j * row k).tmod p < p :=
      fun j => tmod_range (by omega) (hx j).1
    have hzz : ∀ j, 0 ≤ (p : Int) - (piv j * row k).tmod p + row j := fun j => by
      have := ht j; have := hr j; omega
    refine ⟨fun j => if j.1 < k.1 then row j else if piv j ≠ 0 then
      (p - (piv j * row k).tmod p + row j).tmod p else row j, ?_, ?_, ?_, ?_, ?_, ?_⟩
    · intro ck hck
      apply omap_range
      intro j
      rw [rent_ofFn, rent_ofFn]
      split
      · rfl
      · split
        · rw [hck _ (by rw [abs_of_nonneg (hx j).1]; exact (hx j).2)]
          simp only [Outcome.ok_bind]
          rw [hck _ (by have := ht j; rw [abs_of_nonneg (by omega)]; omega)]
          simp only [Outcome.ok_bind]
          rw [hck _ (by have := ht j; have := hr j; rw [abs_of_nonneg (by omega)]; omega)]
          rfl
        · rfl
    · intro j
      simp only
      split
      · exact hr j
      · split
        · have := tmod_range (p := p) (by omega) (hzz j)
          exact ⟨this.1, this.2.le⟩
        · exact hr j
    · intro j
      simp only
      split
      · rename_i hj; rw [hz j hj]; simp
      · split
        · rw [cast_tmod (hzz j)]
          push_cast
          rw [cast_tmod (hx j).1]
          push_cast
          simp; ring
        · rename_i hj; simp at hj; simp [hj]
    · intro j hj; simp [hj]
    · simp only [lt_irrefl, if_false, h1]
      rcases (hr k).2.lt_or_eq with h3 | h3
      · have h2 : (row k).tmod p = row k := Int.tmod_eq_of_lt (hr k).1 h3
        simp [h2]
      · simp [h3, ← two_mul]
    · intro h j
      simp only
      split
      · exact h j
      · split
        · exact (tmod_range (p := p) (by omega) (hzz j)).2
        · exact h j

end step

section loop
variable {n c : Nat} {p : Nat} [hpf : Fact p.Prime]

theorem modularInverse_self {ck : Int → Outcome Int} (hck : Accepts ck (p * p : Nat)) :
    modularInverse ck p p = .ok none := by
  have hp1 : 1 < p := hpf.out.one_lt
  have hpp : (p : Int) ≤ (p * p : Nat) := by push_cast; nlinarith [show (1 : Int) ≤ p by omega]
  have hp0 : (p : Int) ≠ 0 := by omega
  obtain ⟨q, rfl⟩ : ∃ q, p = q + 1 := ⟨p - 1, by omega⟩
  unfold modularInverse
  simp only [Int.natAbs_natCast]
  unfold invLoop
  rw [if_pos hp0, Int.tdiv_self hp0, hck 1 (by rw [abs_one]; omega)]
  simp only [Outcome.ok_bind, one_mul]
  rw [hck 1 (by rw [abs_one]; omega)]
  simp only [Outcome.ok_bind]
  rw [hck (0 - 1) (by rw [show |(0 : Int) - 1| = 1 by decide]; omega)]
  simp only [Outcome.ok_bind]
  rw [hck _ (by rw [abs_of_nonneg (by omega)]; exact hpp)]
  simp only [Outcome.ok_bind, sub_self]
  rw [hck 0 (by rw [abs_zero]; omega)]
  simp only [Outcome.ok_bind]
  unfold invLoop
  rw [if_neg (by simp)]
  simp only [Outcome.ok_bind]
  rw [if_neg (by push_cast at hp1 ⊢; omega)]

/-- One step of the elimination on residues. -/
theorem refStep_any (A : Matrix (Fin n) (Fin c) Int)
    (hA : Small p A) (k : Fin c) (hz : ∀ (i : Fin n) (j : Fin c), j.1 < k.1 → k.1 ≤ i.1 → A i j = 0) :
    ((∀ ck, Accepts ck (p * p : Nat) → refStep ck p k.1 k.1 (toLists A) = .ok (toLists A)) ∧ ∀ i : Fin n, k.1 ≤ i.1 → A i k = 0) ∨
    (∀ ck, Accepts ck (p * p : Nat) → refStep ck p k.1 k.1 (toLists A) = .panic) ∨
    (∃ A' : Matrix (Fin n) (Fin c) Int, (∀ ck, Accepts ck (p * p : Nat) → 
        refStep ck p k.1 k.1 (toLists A) = .ok (toLists A')) ∧ k.1 < n ∧
      Small p A' ∧ span (ZMod p) (Set.range (modP p A').row) = span (ZMod p) (Set.range (modP p A).row) ∧
      (∀ i, A' i k = if i.1 = k.1 then 1 else 0) ∧ (∀ (i : Fin n) (j : Fin c), j.1 < k.1 → A' i j = A i j) ∧
      ∀ i : Fin n, i.1 = k.1 ∨ (i.1 < k.1 ∧ ∀ j, A i j < p) → ∀ j, A' i j < p) := by
  have hp1 : 1 < p := hpf.out.one_lt
  unfold refStep
  cases hfp : findPivot (toLists A) k.1 k.1 with
  | none => exact Or.inl ⟨fun _ _ => rfl, fun i hi => findPivot_none hfp i hi⟩
  | some r =>
    right
    obtain ⟨hr, hkr, hne⟩ := findPivot_some hfp
    have hkn : k.1 < n := by omega
    let kk : Fin n := ⟨k.1, hkn⟩
    let A1 : Matrix (Fin n) (Fin c) Int := fun i => A (Equiv.swap kk ⟨r, hr⟩ i)
    have hsw : (if r ≠ k.1 then swapRows (toLists A) k.1 r else toLists A) = toLists A1 := by
      split
      · exact swapRows_toLists A kk ⟨r, hr⟩
      · rename_i h
        have h : r = k.1 := by simpa using h
        have : A1 = A := by
          funext i
          show A (Equiv.swap kk ⟨r, hr⟩ i) = A i
          have : (⟨r, hr⟩ : Fin n) = kk := Fin.ext h
          rw [this, Equiv.swap_self]; rfl
        rw [this]
    have hA1 : Small p A1 := fun i j => hA _ j
    have hz1 : ∀ (i : Fin n) (j : Fin c), j.1 < k.1 → A1 i j = A i j := by
      intro i j hj
      show A (Equiv.swap kk ⟨r, hr⟩ i) j = A i j
      by_cases h1 : i = kk
      · rw [h1, Equiv.swap_apply_left, hz ⟨r, hr⟩ j hj hkr, hz kk j hj le_rfl]
      · by_cases h2 : i = ⟨r, hr⟩
        · rw [h2, Equiv.swap_apply_right, hz kk j hj le_rfl, hz ⟨r, hr⟩ j hj hkr]
        · rw [Equiv.swap_apply_of_ne_of_ne h1 h2]
    have hne1 : A1 kk k ≠ 0 := by
      show A (Equiv.swap kk ⟨r, hr⟩ kk) k ≠ 0
      rw [Equiv.swap_apply_left]; exact hne
    rcases (hA1 kk k).2.lt_or_eq with hlt | heq
    swap
    · left
      intro ck hck
      simp only [hsw]
      rw [show (toLists A1).getD k.1 [] = List.ofFn (A1 kk) from toLists_getD A1 kk, rent_ofFn, heq,
        modularInverse_self hck]
      rfl
    right
    have hcop : Int.gcd (A1 kk k) p = 1 := by
      have h1 := (hA1 kk k).1
      have h2 : (A1 kk k).natAbs < p := by omega
      have h3 : (A1 kk k).natAbs ≠ 0 := by omega
      have := (Nat.Prime.coprime_iff_not_dvd hpf.out).2 (fun hd => by
        have := Nat.le_of_dvd (by omega) hd; omega : ¬ p ∣ (A1 kk k).natAbs)
      rw [Int.gcd_comm]
      exact this
    obtain ⟨f, hf, hf0, hf1, hf2⟩ := (modularInverse_ok (accepts_ideal _) (by omega)
      (hA1 kk k).1 hlt).1 hcop
    have hf : ∀ ck, Accepts ck (p * p : Nat) → modularInverse ck (A1 kk k) p = .ok (some f) := by
      intro ck hck
      obtain ⟨f', h1, h2, h3, h4⟩ := (modularInverse_ok (hck.mono (by push_cast; nlinarith)) (by omega)
        (hA1 kk k).1 hlt).1 hcop
      have h5 : (p : Int) ∣ A1 kk k * (f' - f) := by
        have := dvd_sub h4 hf2
        rwa [show A1 kk k * f' - 1 - (A1 kk k * f - 1) = A1 kk k * (f' - f) by ring] at this
      have h6 : (p : Int) ∣ f' - f := Int.dvd_of_dvd_mul_right_of_gcd_one h5 (by rw [Int.gcd_comm]; exact hcop)
      have h7 : f' - f = 0 := Int.eq_zero_of_abs_lt_dvd h6 (by rw [abs_lt]; omega)
      rw [h1, show f' = f by omega]
    obtain ⟨piv, hpv, hpr, hpc, hpz, hpe⟩ := scaleRow_any (by omega) k.1 f ⟨hf0, hf1⟩ (A1 kk) (hA1 kk)
      (fun j hj => by rw [hz1 kk j hj]; exact hz kk j hj le_rfl)
    have hfm : (f : ZMod p) * (A1 kk k : ZMod p) = 1 := by
      have h1 : (p : Int) ∣ A1 kk k * f - 1 := hf2
      have h2 := (ZMod.intCast_zmod_eq_zero_iff_dvd _ p).2 h1
      push_cast at h2
      rw [mul_comm]; exact sub_eq_zero.1 h2
    have hp1' : piv k = 1 := by
      have h1 : ((piv k : Int) : ZMod p) = ((1 : Int) : ZMod p) := by rw [hpc, hfm]; simp
      rw [ZMod.intCast_eq_intCast_iff] at h1
      have h2 : piv k % p = 1 % p := h1
      rw [Int.emod_eq_of_lt (hpr k).1 (hpr k).2, Int.emod_eq_of_lt (by omega) (by exact_mod_cast hp1)] at h2
      exact h2
    have hcl : ∀ i : Fin n, ∃ row' : Fin c → Int, (∀ ck, Accepts ck (p * p : Nat) → (if i.1 ≠ k.1 then
        clearRow ck p k.1 (List.ofFn piv) ((toLists A1).getD i.1 []) else .ok (List.ofFn piv)) =
          .ok (List.ofFn row')) ∧ (∀ j, 0 ≤ row' j ∧ row' j ≤ p) ∧
        (i.1 = k.1 ∨ (i.1 < k.1 ∧ ∀ j, A i j < p) → ∀ j, row' j < p) ∧
        (∀ j : Fin c, j.1 < k.1 → row' j = A i j) ∧ (row' k = if i.1 = k.1 then 1 else 0) ∧
        (i = kk → row' = piv) ∧ (i ≠ kk → ∀ j, ((row' j : Int) : ZMod p) = (A1 i j : ZMod p) -
          (A1 i k : ZMod p) * piv j) := by
      intro i
      by_cases hi : i.1 = k.1
      · have hik : i = kk := Fin.ext hi
        refine ⟨piv, fun ck hck => by simp [hi], fun j => ⟨(hpr j).1, (hpr j).2.le⟩, fun _ j => (hpr j).2, ?_,
          by simp [hi, hp1'], fun _ => rfl, fun h => absurd hik h⟩
        intro j hj
        rw [hpz j hj, hik, hz kk j hj le_rfl]
      · obtain ⟨row', h1, h2, h3, h4, h5, h6⟩ := clearRow_any hp1 k piv (A1 i) hpr (hA1 i) hpz hp1'
        refine ⟨row', ?_, h2, ?_, ?_, ?_, ?_, fun _ => h3⟩
        · intro ck hck; rw [if_pos hi, toLists_getD, h1 ck hck]
        · rintro (h | ⟨hlt', h⟩)
          · exact absurd h hi
          · apply h6
            intro j
            show A (Equiv.swap kk ⟨r, hr⟩ i) j < p
            rw [Equiv.swap_apply_of_ne_of_ne (fun h' => hi (by rw [h']))
              (fun h' => by rw [h'] at hlt'; exact absurd hkr (by simpa using hlt'))]
            exact h j
        · intro j hj; rw [h4 j hj, hz1 i j hj]
        · rw [h5, if_neg hi]
        · intro h; exact absurd (by rw [h]) hi
    choose A' hA'1 hA'2 hA'7 hA'3 hA'4 hA'5 hA'6 using hcl
    refine ⟨A', ?_, hkn, hA'2, ?_, hA'4, hA'3, hA'7⟩
    · intro ck hck
      simp only [hsw]
      rw [show (toLists A1).getD k.1 [] = List.ofFn (A1 kk) from toLists_getD A1 kk, rent_ofFn, hf ck hck]
      simp only [Outcome.ok_bind, unwrap]
      rw [hpv ck hck]
      simp only [Outcome.ok_bind]
      rw [toLists_length]
      exact omap_range (fun i => hA'1 i ck hck)
    · rw [span_elim (modP p A1) (modP p A') kk (f : ZMod p) (A1 kk k : ZMod p)
        (fun i => (A1 i k : ZMod p)) (by rw [mul_comm]; exact hfm) ?_ ?_]
      · exact span_swap (modP p A) (Equiv.swap kk ⟨r, hr⟩)
      · funext j
        show ((A' kk j : Int) : ZMod p) = (f : ZMod p) * ((A1 kk j : Int) : ZMod p)
        rw [hA'5 kk rfl, hpc]
      · intro i hi
        funext j
        show ((A' i j : Int) : ZMod p) = (A1 i j : ZMod p) - (A1 i k : ZMod p) * ((A' kk j : Int) : ZMod p)
        rw [hA'5 kk rfl]
        exact hA'6 i hi j

theorem refLoop_any : ∀ (m k : Nat)
    (A : Matrix (Fin n) (Fin c) Int), k + m = c → Small p A →
    (∀ (i : Fin n) (j : Fin c), j.1 < k → k ≤ i.1 → A i j = 0) →
    (∀ ck, Accepts ck (p * p : Nat) → refLoop ck p (List.range' k m) k (toLists A) = .panic) ∨
    ∃ A' : Matrix (Fin n) (Fin c) Int, (∀ ck, Accepts ck (p * p : Nat) → 
        refLoop ck p (List.range' k m) k (toLists A) = .ok (toLists A')) ∧
      Small p A' ∧ span (ZMod p) (Set.range (modP p A').row) = span (ZMod p) (Set.range (modP p A).row) ∧
      ∀ h : n ≤ c, (lead h (modP p A)).det ≠ 0 →
        (∀ (i j : Fin n), j.1 < k → A i (Fin.castLE h j) = if i = j then 1 else 0) →
        (∀ i : Fin n, i.1 < k → ∀ j, A i j < p) →
        (∀ (i j : Fin n), A' i (Fin.castLE h j) = if i = j then 1 else 0) ∧ Residues p A' := by
  intro m
  induction m with
  | zero =>
    intro k A hkc hA hz
    refine Or.inr ⟨A, fun _ _ => rfl, hA, rfl, ?_⟩
    intro h hd hg hr
    exact ⟨fun i j => hg i j (by omega), fun i j => ⟨(hA i j).1, hr i (by omega) j⟩⟩
  | succ m ih =>
    intro k A hkc hA hz
    rw [List.range'_succ]
    unfold refLoop
    rcases refStep_any A hA ⟨k, by omega⟩ hz with ⟨h1, h2⟩ | h1 | ⟨A', h1, hkn, h2, h3, h4, h5, h6⟩
    · simp only at h1 h2
      rcases ih (k + 1) A (by omega) hA (by
        intro i j hj hi
        rcases Nat.lt_or_ge j.1 k with h | h
        · exact hz i j h (by omega)
        · have : j = ⟨k, by omega⟩ := Fin.ext (by simp; omega)
          rw [this]; exact h2 i (by omega)) with g1 | ⟨A'', g1, g2, g3, g4⟩
      · exact Or.inl (fun ck hck => by rw [h1 ck hck]; exact g1 ck hck)
      refine Or.inr ⟨A'', fun ck hck => by rw [h1 ck hck]; exact g1 ck hck, g2, g3, fun h hd hg hr => ?_⟩
      have key : ∀ (i j : Fin n), j.1 < k + 1 → A i (Fin.castLE h j) = if i = j then 1 else 0 := ?_
      · refine g4 h hd key ?_
        intro i hi j
        rcases Nat.lt_or_ge i.1 k with hik | hik
        · exact hr i hik j
        · have hik : i.1 = k := by omega
          have e1 := h2 i (by omega)
          have e2 := key i i (by omega)
          have : Fin.castLE h i = ⟨k, by omega⟩ := Fin.ext (by simp; omega)
          rw [this] at e2
          rw [show A i ⟨k, by omega⟩ = 0 from e1] at e2
          simp at e2
      intro i j hj
      rcases Nat.lt_or_ge j.1 k with hjk | hjk
      · exact hg i j hjk
      · exfalso
        have hjk : j.1 = k := by omega
        apply hd
        apply lead_singular h _ j
        · intro i' j' hj'
          show ((A i' (Fin.castLE h j') : Int) : ZMod p) = _
          rw [hg i' j' (by omega)]; split <;> simp
        · intro i' hi'
          show ((A i' (Fin.castLE h j) : Int) : ZMod p) = _
          have : Fin.castLE h j = ⟨k, by omega⟩ := Fin.ext (by simp; omega)
          rw [this, h2 i' (by omega)]; simp
    · exact Or.inl (fun ck hck => by rw [h1 ck hck]; rfl)
    · simp only at h1 h4 h5 h6 hkn
      rcases ih (k + 1) A' (by omega) h2 (by
        intro i j hj hi
        rcases Nat.lt_or_ge j.1 k with h | h
        · rw [h5 i j h]; exact hz i j h (by omega)
        · have : j = ⟨k, by omega⟩ := Fin.ext (by simp; omega)
          rw [this, h4 i, if_neg (by omega)]) with g1 | ⟨A'', g1, g2, g3, g4⟩
      · exact Or.inl (fun ck hck => by rw [h1 ck hck]; exact g1 ck hck)
      refine Or.inr ⟨A'', fun ck hck => by rw [h1 ck hck]; exact g1 ck hck, g2, by rw [g3, h3], fun h hd hg hr => g4 h ?_ ?_ ?_⟩
      · exact lead_det_of_span h (by rw [h3]) hd
      · intro i j hj
        rcases Nat.lt_or_ge j.1 k with hjk | hjk
        · rw [h5 i _ (by simpa using hjk)]; exact hg i j hjk
        · have : Fin.castLE h j = ⟨k, by omega⟩ := Fin.ext (by simp; omega)
          rw [this, h4 i]
          simp only [Fin.ext_iff]
          have : j.1 = k := by omega
          rw [this]
      · intro i hi
        apply h6
        rcases Nat.lt_or_ge i.1 k with hik | hik
        · exact Or.inr ⟨hik, hr i hik⟩
        · exact Or.inl (by omega)

theorem residue_any (x : Int) :
    ∃ y, (∀ ck, Accepts ck (p * p : Nat) → residue ck p x = .ok y) ∧ 0 ≤ y ∧ y ≤ p ∧ ((y : Int) : ZMod p) = x := by
  by_cases hx : x < 0 ∧ (p : Int) ∣ x
  · have hp1 : 1 < p := hpf.out.one_lt
    have hpp : (p : Int) ≤ (p * p : Nat) := by push_cast; nlinarith [show (1 : Int) ≤ p by omega]
    refine ⟨p, ?_, by omega, le_rfl, ?_⟩
    · intro ck hck
      unfold residue
      rw [if_neg (by omega), if_pos hx.1, Int.tmod_eq_zero_of_dvd hx.2, zero_add,
        hck _ (by rw [abs_of_nonneg (by omega)]; exact hpp)]
    · rw [(ZMod.intCast_zmod_eq_zero_iff_dvd _ p).2 hx.2]; simp
  · obtain ⟨y, h1, h2, h3, h4⟩ := residue_ok (p := p) (accepts_ideal _) hx
    refine ⟨y, fun ck hck => ?_, h2, h3.le, h4⟩
    obtain ⟨y', k1, k2, k3, k4⟩ := residue_ok hck hx
    rw [← h4, ZMod.intCast_eq_intCast_iff] at k4
    have k5 : y' % p = y % p := k4
    rw [Int.emod_eq_of_lt k2 k3, Int.emod_eq_of_lt h2 h3] at k5
    rw [k1, k5]

theorem rowEchelonForm_any (hn : 0 < n)
    (A : Matrix (Fin n) (Fin c) Int) :
    (∀ ck, Accepts ck (p * p : Nat) → rowEchelonForm ck (toLists A) p = .panic) ∨
    ∃ A' : Matrix (Fin n) (Fin c) Int, (∀ ck, Accepts ck (p * p : Nat) → 
        rowEchelonForm ck (toLists A) p = .ok (toLists A')) ∧
      Small p A' ∧ span (ZMod p) (Set.range (modP p A').row) = span (ZMod p) (Set.range (modP p A).row) ∧
      ∀ h : n ≤ c, (lead h (modP p A)).det ≠ 0 →
        (∀ (i j : Fin n), A' i (Fin.castLE h j) = if i = j then 1 else 0) ∧ Residues p A' := by
  have : ∀ i j, ∃ y, (∀ ck, Accepts ck (p * p : Nat) → residue ck p (A i j) = .ok y) ∧ 0 ≤ y ∧ y ≤ p ∧
      ((y : Int) : ZMod p) = A i j := fun i j => residue_any (A i j)
  choose R h1 h2 h3 h4 using this
  have hR : modP p R = modP p A := by ext i j; exact h4 i j
  have hne : ∃ r0 rs, toLists A = r0 :: rs ∧ r0.length = c := by
    obtain ⟨m, rfl⟩ : ∃ m, n = m + 1 := ⟨n - 1, by omega⟩
    exact ⟨_, _, by rw [toLists, List.ofFn_succ], by simp⟩
  obtain ⟨r0, rs, he, hl⟩ := hne
  have hun : ∀ ck, Accepts ck (p * p : Nat) → 
      rowEchelonForm ck (toLists A) p = refLoop ck p (List.range' 0 c) 0 (toLists R) := by
    intro ck hck
    unfold rowEchelonForm
    have hsame := sameLengths_toLists A
    rw [he] at hsame ⊢
    simp only
    rw [if_pos hsame, ← he]
    have : omap (fun row => omap (residue ck p) row) (toLists A) = .ok (toLists R) :=
      omap_ofFn (fun i => omap_ofFn (fun j => h1 i j ck hck))
    rw [this]
    simp only [Outcome.ok_bind]
    rw [hl, List.range_eq_range']
  rcases refLoop_any c 0 R (by omega) (fun i j => ⟨h2 i j, h3 i j⟩)
    (fun i j hj => by omega) with g1 | ⟨A', g1, g2, g3, g4⟩
  · exact Or.inl (fun ck hck => by rw [hun ck hck]; exact g1 ck hck)
  rw [hR] at g3
  exact Or.inr ⟨A', fun ck hck => by rw [hun ck hck]; exact g1 ck hck, g2, g3, fun h hd => g4 h (by rw [hR]; exact hd) (fun i j hj => by omega)
    (fun i hi => by omega)⟩

theorem matrixInverse_any (hn : 0 < n)
    (A : Matrix (Fin n) (Fin n) Int) :
    (∀ ck, Accepts ck (p * p : Nat) → matrixInverse ck (toLists A) p = .panic) ∨
    ((modP p A).det ≠ 0 ∧ ∃ C : Matrix (Fin n) (Fin n) Int,
      (∀ ck, Accepts ck (p * p : Nat) → matrixInverse ck (toLists A) p = .ok (some (toLists C))) ∧ Residues p C ∧ modP p A * modP p C = 1 ∧
      modP p C * modP p A = 1) ∨
    ((modP p A).det = 0 ∧ ∀ ck, Accepts ck (p * p : Nat) → matrixInverse ck (toLists A) p = .ok none) := by
  have hp1 : 1 < p := hpf.out.one_lt
  rcases rowEchelonForm_any (p := p) hn (augM A) with h1 | ⟨A', h1, h2', h3, h4⟩
  · left
    intro ck hck
    unfold matrixInverse
    simp only [toLists_length]
    rw [if_neg (by omega), augment_ok]
    simp only [Outcome.ok_bind]
    rw [h1 ck hck]
    rfl
  right
  have hle := Nat.le_add_right n n
  obtain ⟨P, hP⟩ := exists_mul_of_span (le_of_eq h3)
  have hlead : lead hle (modP p A') = P * modP p A := by
    rw [hP, lead_mul, modP_aug, lead_aug]
  have hcol : ∀ i (j : Fin n), ((A' i (Fin.natAdd n j) : Int) : ZMod p) = P i j := by
    intro i j
    have : modP p A' i (Fin.natAdd n j) = (P * modP p (augM A)) i (Fin.natAdd n j) := by rw [hP]
    rw [modP_aug, Matrix.mul_apply] at this
    simp only [augM, Fin.append_right] at this
    rw [show ((A' i (Fin.natAdd n j) : Int) : ZMod p) = modP p A' i (Fin.natAdd n j) from rfl, this]
    simp
  have hall : ((List.range n).all (fun i => (List.range n).all (fun j =>
        rent ((toLists A').getD i []) j = if i = j then 1 else 0)) = true) ↔
      ∀ i j : Fin n, A' i (Fin.castLE hle j) = if i = j then 1 else 0 := by
    simp only [List.all_eq_true, List.mem_range, decide_eq_true_eq]
    constructor
    · intro h i j
      have := h i.1 i.2 j.1 j.2
      have h5 := toLists_ent A' i (Fin.castLE hle j)
      simp only [Fin.val_castLE] at h5
      rw [h5] at this
      rw [this]; simp [Fin.ext_iff]
    · intro h i hi j hj
      have := h ⟨i, hi⟩ ⟨j, hj⟩
      have h5 := toLists_ent A' ⟨i, hi⟩ (Fin.castLE hle ⟨j, hj⟩)
      simp only [Fin.val_castLE] at h5
      rw [h5, this]; simp [Fin.ext_iff]
  have hmain : ∀ ck, Accepts ck (p * p : Nat) → 
      matrixInverse ck (toLists A) p = if (List.range n).all (fun i => (List.range n).all (fun j =>
        rent ((toLists A').getD i []) j = if i = j then 1 else 0)) then
      .ok (some ((toLists A').map (fun row => row.drop n))) else .ok none := by
    intro ck hck
    unfold matrixInverse
    simp only [toLists_length]
    rw [if_neg (by omega), augment_ok]
    simp only [Outcome.ok_bind]
    rw [h1 ck hck]
    simp only [Outcome.ok_bind]
  have hunit : (∀ i j : Fin n, A' i (Fin.castLE hle j) = if i = j then 1 else 0) → P * modP p A = 1 := by
    intro h
    rw [← hlead]
    ext i j
    show ((A' i (Fin.castLE hle j) : Int) : ZMod p) = _
    rw [h i j, Matrix.one_apply]
    split <;> simp
  by_cases hd : (modP p A).det = 0
  · right
    refine ⟨hd, fun ck hck => ?_⟩
    rw [hmain ck hck, if_neg]
    rw [hall]
    intro h
    have := congrArg Matrix.det (hunit h)
    rw [Matrix.det_mul, hd, mul_zero, Matrix.det_one] at this
    exact zero_ne_one this
  · left
    obtain ⟨hI, h2⟩ := h4 hle (by rw [modP_aug, lead_aug]; exact hd)
    have hPA := hunit hI
    let C : Matrix (Fin n) (Fin n) Int := fun i j => A' i (Fin.natAdd n j)
    have hC : modP p C = P := by ext i j; exact hcol i j
    refine ⟨hd, C, ?_, fun i j => h2 _ _, ?_, ?_⟩
    · intro ck hck
      rw [hmain ck hck, if_pos (hall.2 hI)]
      congr 2
      unfold toLists
      rw [List.map_ofFn]
      congr 1
      funext i
      simp only [Function.comp]
      have : A' i = Fin.append (fun j => A' i (Fin.castAdd n j)) (fun j => A' i (Fin.natAdd n j)) :=
        (Fin.append_castAdd_natAdd).symm
      rw [this, List.ofFn_fin_append, List.drop_left' (by simp)]
    · rw [hC]; exact mul_eq_one_comm.1 hPA
    · rw [hC]; exact hPA

end loop

end Systre.Modular
