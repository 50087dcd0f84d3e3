import Verif.Lemmas.Nom
import Verif.Model.ParseOperator
import Verif.Spec.Operators
import Mathlib.Tactic
import Mathlib.Data.List.TakeWhile

/-! # Soundness of the operator parser -/

namespace Systre.ParseOperator
open Nom OpText

/-- the axis of the specification -/
def axisIdx : Axis → Option (Fin 3)
  | .x => some 0
  | .y => some 1
  | .z => some 2
  | .none => Option.none

theorem isBlank_iff {c : Char} : isBlank c = true ↔ c = ' ' ∨ c = '\t' := by simp [isBlank]

theorem isDig_iff {c : Char} : isDig c = true ↔ '0' ≤ c ∧ c ≤ '9' := by simp [isDig]

theorem blank_takeWhile (s : List Char) : Blank (s.takeWhile isBlank) := by
  intro c hc
  exact isBlank_iff.1 (List.mem_takeWhile_imp hc)

theorem dropWhile_blank_append {u t : List Char} (h : Blank u) : (u ++ t).dropWhile isBlank = t.dropWhile isBlank := by
  induction u with
  | nil => rfl
  | cons c u ih =>
    have hc : isBlank c = true := isBlank_iff.2 (h c (by simp))
    rw [List.cons_append, List.dropWhile_cons_of_pos hc]
    exact ih (fun d hd => h d (by simp [hd]))

theorem space0_done {s t : List Char} (h : space0 s = .ok (.done t ())) : ∃ u, Blank u ∧ s = u ++ t := by
  unfold space0 at h
  injection h with h; injection h with h
  exact ⟨s.takeWhile isBlank, blank_takeWhile s, by rw [← h, List.takeWhile_append_dropWhile]⟩

theorem space0_append {u t : List Char} (h : Blank u) (ht : ∀ c r, t = c :: r → ¬ isBlank c) : space0 (u ++ t) = .ok (.done t ()) := by
  unfold space0
  rw [dropWhile_blank_append h]
  cases t with
  | nil => rfl
  | cons c r => rw [List.dropWhile_cons_of_neg (ht c r rfl)]

theorem fold_eq (ds : List Char) : ds.foldl (fun n c => n * 10 + digitVal c) 0 =
    ds.foldl (fun n c => 10 * n + (c.toNat - '0'.toNat)) 0 := by
  congr 1
  funext n c
  rw [Nat.mul_comm, digitVal]

theorem integer_done {s t : List Char} {n : Nat} (h : integer s = .ok (.done t n)) :
    ∃ w, s = w ++ t ∧ Numeral w n ∧ ∀ c r, t = c :: r → ¬ isDig c := by
  obtain ⟨ds, h1, h2⟩ := mapOpt_done.1 h
  have h2 := Outcome.ok.inj h2
  unfold mapInteger at h2
  split_ifs at h2 with hl
  have h2 := Option.some.inj h2
  unfold digit1 at h1
  cases s with
  | nil => simp at h1
  | cons c s =>
    dsimp only at h1
    split_ifs at h1 with hc
    swap
    · cases Outcome.ok.inj h1
    · have h1 := Outcome.ok.inj h1
      injection h1 with e1 e2
      refine ⟨ds, ?_, ⟨?_, hl, ?_, ?_⟩, ?_⟩
      · rw [← e1, ← e2, List.takeWhile_append_dropWhile]
      · rw [← e2, List.takeWhile_cons_of_pos hc]; simp
      · intro d hd
        rw [← e2] at hd
        exact isDig_iff.1 (List.mem_takeWhile_imp hd)
      · rw [← h2, fold_eq]
      · intro d r hr hd
        rw [← e1] at hr
        have := List.head?_dropWhile_not (p := isDig) (l := c :: s)
        rw [hr] at this
        simp [hd] at this

theorem axis_done {s t : List Char} {a : Axis} (h : axis s = .ok (.done t a)) :
    ∃ c k, s = c :: t ∧ Letter c k ∧ axisIdx a = some k := by
  obtain ⟨c, h1, h2⟩ := mapOpt_done.1 h
  unfold oneOf at h1
  cases s with
  | nil => simp at h1
  | cons d s =>
    dsimp only at h1
    split_ifs at h1 with hd
    swap
    · cases Outcome.ok.inj h1
    have h1 := Outcome.ok.inj h1
    injection h1 with e1 e2
    subst e1 e2
    have h2 := Outcome.ok.inj h2
    rcases List.mem_cons.1 hd with rfl | hd
    · simp at h2; subst h2; exact ⟨_, _, rfl, .x, rfl⟩
    rcases List.mem_cons.1 hd with rfl | hd
    · simp at h2; subst h2; exact ⟨_, _, rfl, .y, rfl⟩
    rcases List.mem_cons.1 hd with rfl | hd
    · simp at h2; subst h2; exact ⟨_, _, rfl, .z, rfl⟩
    · simp at hd

theorem sign_done {s t : List Char} {v : Int} (h : sign s = .ok (.done t v)) :
    (s = '+' :: t ∧ v = 1) ∨ (s = '-' :: t ∧ v = -1) := by
  obtain ⟨c, h1, h2⟩ := mapOpt_done.1 h
  unfold oneOf at h1
  cases s with
  | nil => simp at h1
  | cons d s =>
    dsimp only at h1
    split_ifs at h1 with hd
    swap
    · cases Outcome.ok.inj h1
    have h1 := Outcome.ok.inj h1
    injection h1 with e1 e2
    subst e1 e2
    have h2 := Outcome.ok.inj h2
    rcases List.mem_cons.1 hd with rfl | hd
    · simp at h2; subst h2; exact Or.inl ⟨rfl, rfl⟩
    rcases List.mem_cons.1 hd with rfl | hd
    · simp at h2; subst h2; exact Or.inr ⟨rfl, rfl⟩
    · simp at hd

theorem char_done {c d : Char} {s t : List Char} (h : char c s = .ok (.done t d)) : s = c :: t := by
  unfold char at h
  cases s with
  | nil => simp at h
  | cons e s =>
    dsimp only at h
    split_ifs at h with hd
    swap
    · cases Outcome.ok.inj h
    have h := Outcome.ok.inj h
    injection h with e1 e2
    rw [hd, e1]

theorem sep_done {c : Char} {s t : List Char} {x : Unit}
    (h : andThen space0 (fun _ => andThen (char c) (fun _ => space0)) s = .ok (.done t x)) :
    ∃ u v, Blank u ∧ Blank v ∧ s = u ++ c :: v ++ t := by
  obtain ⟨s1, _, h1, h⟩ := andThen_done.1 h
  obtain ⟨s2, _, h2, h3⟩ := andThen_done.1 h
  obtain ⟨u, hu, e1⟩ := space0_done h1
  have e2 := char_done h2
  obtain ⟨v, hv, e3⟩ := space0_done h3
  exact ⟨u, v, hu, hv, by rw [e1, e2, e3]; simp⟩

theorem separatedPair_done {α β γ : Type} {p : Parser α} {q : Parser β} {r : Parser γ} {s t : List Char} {v : α × γ} :
    separatedPair p q r s = .ok (.done t v) → ∃ s1 s2 b, p s = .ok (.done s1 v.1) ∧ q s1 = .ok (.done s2 b) ∧
      r s2 = .ok (.done t v.2) := by
  intro h
  obtain ⟨s1, a, h1, h⟩ := andThen_done.1 h
  obtain ⟨s2, b, h2, h⟩ := andThen_done.1 h
  obtain ⟨s3, c, h3, h⟩ := andThen_done.1 h
  have h := Outcome.ok.inj h
  injection h with e1 e2
  subst e1 e2
  exact ⟨s1, s2, b, h1, h2, h3⟩

/-- The texts on which `Ratio::new` is called. -/
theorem quotient_done {s t : List Char} {v : Nat × Nat}
    (h : separatedPair integer (andThen space0 (fun _ => andThen (char '/') (fun _ => space0))) integer s = .ok (.done t v)) :
    ∃ w1 u w v2, Blank u ∧ Blank w ∧ Numeral w1 v.1 ∧ Numeral v2 v.2 ∧ s = w1 ++ u ++ '/' :: w ++ v2 ++ t ∧
      ∀ c r, t = c :: r → ¬ isDig c := by
  obtain ⟨s1, s2, b, h1, h2, h3⟩ := separatedPair_done h
  obtain ⟨w1, e1, n1, _⟩ := integer_done h1
  obtain ⟨u, w, hu, hw, e2⟩ := sep_done h2
  obtain ⟨w2, e3, n2, hd⟩ := integer_done h3
  exact ⟨w1, u, w, w2, hu, hw, n1, n2, by rw [e1, e2, e3]; simp, hd⟩

theorem fraction_done {s t : List Char} {q : Rat} (h : unsignedFraction s = .ok (.done t q)) :
    ∃ w, s = w ++ t ∧ Fraction w q := by
  rcases orElse_done.1 h with h | ⟨_, _, _, h⟩
  · obtain ⟨v, h1, h2⟩ := mapOpt_done.1 h
    obtain ⟨w1, u, w, v2, hu, hw, n1, n2, e, _⟩ := quotient_done h1
    unfold ratioNew at h2
    split_ifs at h2 with hz
    · cases h2
    · have h2 := Option.some.inj (Outcome.ok.inj h2)
      refine ⟨_, e, ?_⟩
      rw [← h2]
      have := Fraction.quot n1 hu hw n2 (by exact_mod_cast hz)
      simpa using this
  · obtain ⟨n, h1, h2⟩ := mapOpt_done.1 h
    obtain ⟨w, e, hn, _⟩ := integer_done h1
    have h2 := Option.some.inj (Outcome.ok.inj h2)
    exact ⟨w, e, h2 ▸ Fraction.int hn⟩

theorem unsignedTerm_done {s t : List Char} {v : Term} (h : unsignedTerm s = .ok (.done t v)) :
    ∃ w, s = w ++ t ∧ Unsigned w v.1 (axisIdx v.2) := by
  rcases orElse_done.1 h with h | ⟨_, _, _, h⟩
  · obtain ⟨v', h1, h2⟩ := mapOpt_done.1 h
    have h2 := Option.some.inj (Outcome.ok.inj h2)
    subst h2
    obtain ⟨s1, s2, b, h1, h2, h3⟩ := separatedPair_done h1
    obtain ⟨w, e1, hf⟩ := fraction_done h1
    have e2 := char_done h2
    obtain ⟨c, k, e3, hl, ha⟩ := axis_done h3
    refine ⟨w ++ '*' :: [c], by rw [e1, e2, e3]; simp, ?_⟩
    rw [ha]; exact .times hf hl
  rcases orElse_done.1 h with h | ⟨_, _, _, h⟩
  · obtain ⟨v', h1, h2⟩ := mapOpt_done.1 h
    have h2 := Option.some.inj (Outcome.ok.inj h2)
    subst h2
    obtain ⟨s1, s2, b, h1, h2, h3⟩ := separatedPair_done h1
    obtain ⟨w, e1, hf⟩ := fraction_done h1
    obtain ⟨u, hu, e2⟩ := space0_done h2
    obtain ⟨c, k, e3, hl, ha⟩ := axis_done h3
    refine ⟨w ++ u ++ [c], by rw [e1, e2, e3]; simp, ?_⟩
    rw [ha]; exact .juxt hf hu hl
  rcases orElse_done.1 h with h | ⟨_, _, _, h⟩
  · obtain ⟨q, h1, h2⟩ := mapOpt_done.1 h
    have h2 := Option.some.inj (Outcome.ok.inj h2)
    subst h2
    obtain ⟨w, e1, hf⟩ := fraction_done h1
    exact ⟨w, e1, .const hf⟩
  · obtain ⟨a, h1, h2⟩ := mapOpt_done.1 h
    have h2 := Option.some.inj (Outcome.ok.inj h2)
    subst h2
    obtain ⟨c, k, e3, hl, ha⟩ := axis_done h1
    refine ⟨[c], by rw [e3]; simp, ?_⟩
    show Unsigned [c] 1 (axisIdx a)
    rw [ha]; exact .axis hl

theorem signedTerm_done {s t : List Char} {v : Term} (h : signedTerm s = .ok (.done t v)) :
    ∃ w, s = w ++ t ∧ Signed w v.1 (axisIdx v.2) := by
  obtain ⟨v', h1, h2⟩ := mapOpt_done.1 h
  have h2 := Option.some.inj (Outcome.ok.inj h2)
  obtain ⟨s1, s2, b, h1, h3, h4⟩ := separatedPair_done h1
  obtain ⟨u, hu, e2⟩ := space0_done h3
  obtain ⟨w, e3, hw⟩ := unsignedTerm_done h4
  rcases sign_done h1 with ⟨e1, ev⟩ | ⟨e1, ev⟩
  · refine ⟨'+' :: u ++ w, by rw [e1, e2, e3]; simp, ?_⟩
    rw [← h2, ev]
    simpa using Signed.plus hu hw
  · refine ⟨'-' :: u ++ w, by rw [e1, e2, e3]; simp, ?_⟩
    rw [← h2, ev]
    simpa using Signed.minus hu hw

/-- the terms as the specification has them -/
def specTerm (v : Term) : ℚ × Option (Fin 3) := (v.1, axisIdx v.2)

theorem many_done : ∀ (fuel : Nat) (acc : List Term) (s t : List Char) (l : List Term),
    many0Loop (preceded space0 signedTerm) fuel acc s = .ok (.done t l) →
      ∃ w l', s = w ++ t ∧ l = acc ++ l' ∧ Tail w (l'.map specTerm)
  | 0, _, _, _, _, h => by simp [many0Loop] at h
  | fuel + 1, acc, s, t, l, h => by
    unfold many0Loop at h
    cases hp : preceded space0 signedTerm s with
    | ok r =>
      rw [hp] at h
      cases r with
      | done u a =>
        simp only [Outcome.ok_bind] at h
        split_ifs at h with hl
        · cases Outcome.ok.inj h
        obtain ⟨w, l', e1, e2, ht⟩ := many_done fuel _ _ _ _ h
        obtain ⟨s1, _, h1, h2⟩ := andThen_done.1 hp
        obtain ⟨b, hb, e3⟩ := space0_done h1
        obtain ⟨w', e4, hw⟩ := signedTerm_done h2
        refine ⟨b ++ w' ++ w, a :: l', by rw [e3, e4, e1]; simp, by rw [e2]; simp, ?_⟩
        exact .cons hb hw ht
      | err k u =>
        have h := Outcome.ok.inj h
        injection h with e1 e2
        exact ⟨[], [], by simp [e1], by simp [e2], .nil⟩
      | fail k u => cases Outcome.ok.inj h
    | panic => rw [hp] at h; cases h
    | diverge => rw [hp] at h; cases h

theorem i32_eq {z w : Int} (h : i32 z = some w) : w = z := by
  unfold i32 at h
  split_ifs at h
  exact (Option.some.inj h).symm

theorem checkedAdd_eq {a b c : Rat} (h : checkedAdd a b = some c) : c = a + b := by
  unfold checkedAdd at h
  simp only [Option.bind_eq_bind, Option.bind_eq_some_iff, Option.some.injEq] at h
  obtain ⟨l, h1, x, h2, y, h3, z, h4, h5⟩ := h
  have e1 := i32_eq h1
  have e2 := i32_eq h2
  have e3 := i32_eq h3
  have e4 := i32_eq h4
  have ha : (a.den : ℚ) ≠ 0 := by exact_mod_cast a.den_ne_zero
  have hb : (b.den : ℚ) ≠ 0 := by exact_mod_cast b.den_ne_zero
  have hg : Nat.gcd a.den b.den ≠ 0 := fun h => a.den_ne_zero (Nat.eq_zero_of_gcd_eq_zero_left h)
  obtain ⟨p, hp⟩ := Nat.gcd_dvd_left a.den b.den
  obtain ⟨r, hr⟩ := Nat.gcd_dvd_right a.den b.den
  set g := Nat.gcd a.den b.den with hgdef
  have hpg : a.den / g = p := by rw [hp]; exact Nat.mul_div_cancel_left _ (Nat.pos_of_ne_zero hg)
  have hl1 : l = (p : ℤ) * b.den := by rw [e1, hpg]; push_cast; ring
  have hl2 : l = (r : ℤ) * a.den := by
    rw [hl1]
    have : p * b.den = r * a.den := by rw [hp, hr]; ring
    exact_mod_cast this
  have ha' : (a.den : ℤ) ≠ 0 := by exact_mod_cast a.den_ne_zero
  have hb' : (b.den : ℤ) ≠ 0 := by exact_mod_cast b.den_ne_zero
  have d1 : l / a.den = r := by rw [hl2]; exact Int.mul_ediv_cancel _ ha'
  have d2 : l / b.den = p := by rw [hl1]; exact Int.mul_ediv_cancel _ hb'
  have hp0 : (p : ℚ) ≠ 0 := by
    intro h0; apply ha; rw [hp]; push_cast; rw [h0, mul_zero]
  have hr0 : (r : ℚ) ≠ 0 := by
    intro h0; apply hb; rw [hr]; push_cast; rw [h0, mul_zero]
  rw [← h5, e4, e2, e3, d1, d2]
  push_cast
  have q1 : (l : ℚ) = r * a.den := by rw [hl2]; push_cast; ring
  have q2 : (l : ℚ) = p * b.den := by rw [hl1]; push_cast; ring
  rw [add_div]
  congr 1
  · rw [q1, mul_div_mul_left _ _ hr0]; exact Rat.num_div_den a
  · rw [q2, mul_div_mul_left _ _ hp0]; exact Rat.num_div_den b

theorem coefficient_cons (v : ℚ × Option (Fin 3)) (l : List (ℚ × Option (Fin 3))) (k : Option (Fin 3)) :
    coefficient (v :: l) k = (if v.2 = k then v.1 else 0) + coefficient l k := by
  unfold coefficient
  rw [List.filter_cons]
  by_cases h : v.2 = k
  · simp [h]
  · simp [h]

theorem collectLoop_eq : ∀ (l : List Term) (rx ry rz s : Rat) (c : Coordinate),
    collectLoop l (rx, ry, rz) s = some c →
      c = ([rx + coefficient (l.map specTerm) (some 0), ry + coefficient (l.map specTerm) (some 1),
        rz + coefficient (l.map specTerm) (some 2)], s + coefficient (l.map specTerm) none)
  | [], rx, ry, rz, s, c, h => by
    have h := Option.some.inj h
    rw [← h]
    simp [coefficient]
  | (q, a) :: l, rx, ry, rz, s, c, h => by
    cases a <;>
    · unfold collectLoop at h
      obtain ⟨v, h1, h2⟩ := Option.bind_eq_some_iff.1 h
      have e := checkedAdd_eq h1
      rw [collectLoop_eq l _ _ _ _ _ h2]
      simp only [List.map_cons, coefficient_cons, specTerm, axisIdx, e]
      simp
      try ring

theorem coordinate_done {s t : List Char} {c : Coordinate} (h : coordinate s = .ok (.done t c)) :
    ∃ w l, s = w ++ t ∧ Coord w l ∧ c = (row 3 l, coefficient l none) := by
  obtain ⟨v, h1, h2⟩ := mapOpt_done.1 h
  have h2 := Outcome.ok.inj h2
  obtain ⟨s1, a, h3, h1⟩ := andThen_done.1 h1
  obtain ⟨s2, b, h4, h1⟩ := andThen_done.1 h1
  have h1 := Outcome.ok.inj h1
  injection h1 with e1 e2
  subst e1 e2
  obtain ⟨w, l', e3, e4, ht⟩ := many_done _ _ _ _ _ h4
  have e4 : b = l' := by simpa using e4
  subst e4
  have hc := collectLoop_eq _ _ _ _ _ _ h2
  simp only [zero_add] at hc
  rcases orElse_done.1 h3 with h3 | ⟨_, _, _, h3⟩
  · obtain ⟨w', e5, hw⟩ := signedTerm_done h3
    exact ⟨w' ++ w, (a :: b).map specTerm, by rw [e5, e3]; simp, .signed hw ht, hc⟩
  · obtain ⟨w', e5, hw⟩ := unsignedTerm_done h3
    exact ⟨w' ++ w, (a :: b).map specTerm, by rw [e5, e3]; simp, .unsigned hw ht, hc⟩

/-- the further coordinates: separator and coordinate, again and again -/
inductive More : List Char → List (List (ℚ × Option (Fin 3))) → Prop
  | nil : More [] []
  | cons {u v s t l ls} : Blank u → Blank v → Coord s l → More t ls → More (u ++ ',' :: v ++ s ++ t) (l :: ls)

/-- a coordinate as the parser represents it -/
def specCoord (l : List (ℚ × Option (Fin 3))) : Coordinate := (row 3 l, coefficient l none)

theorem sep_loop_done : ∀ (fuel : Nat) (acc : List Coordinate) (s t : List Char) (cs : List Coordinate),
    sepLoop comma coordinate fuel acc s = .ok (.done t cs) →
      ∃ w ls, s = w ++ t ∧ cs = acc ++ ls.map specCoord ∧ More w ls
  | 0, _, _, _, _, h => by simp [sepLoop] at h
  | fuel + 1, acc, s, t, cs, h => by
    have hstop : ∀ {α : Type} {a b : List α} {u v : List Char}, (Outcome.ok (Res.done u a) : Outcome (Res (List α))) = .ok (.done v b) → u = v ∧ a = b := by
      intro α a b u v h
      have h := Outcome.ok.inj h
      injection h with e1 e2
      exact ⟨e1, e2⟩
    unfold sepLoop at h
    cases hp : comma s with
    | ok r =>
      rw [hp] at h
      cases r with
      | done u a =>
        simp only [Outcome.ok_bind] at h
        split_ifs at h with hl
        · cases Outcome.ok.inj h
        cases hq : coordinate u with
        | ok r =>
          rw [hq] at h
          cases r with
          | done u' c =>
            simp only [Outcome.ok_bind] at h
            obtain ⟨w, ls, e1, e2, hm⟩ := sep_loop_done fuel _ _ _ _ h
            obtain ⟨b1, b2, hb1, hb2, e3⟩ := sep_done hp
            obtain ⟨w', l, e4, hc, e5⟩ := coordinate_done hq
            refine ⟨b1 ++ ',' :: b2 ++ w' ++ w, l :: ls, by rw [e3, e4, e1]; simp, by rw [e2, e5]; simp [specCoord], ?_⟩
            exact .cons hb1 hb2 hc hm
          | err k u =>
            obtain ⟨e1, e2⟩ := hstop h
            exact ⟨[], [], by simp [e1], by simp [e2], .nil⟩
          | fail k u => cases Outcome.ok.inj h
        | panic => rw [hq] at h; cases h
        | diverge => rw [hq] at h; cases h
      | err k u =>
        obtain ⟨e1, e2⟩ := hstop h
        exact ⟨[], [], by simp [e1], by simp [e2], .nil⟩
      | fail k u => cases Outcome.ok.inj h
    | panic => rw [hp] at h; cases h
    | diverge => rw [hp] at h; cases h

theorem more_operator {s w : List Char} {l : List (ℚ × Option (Fin 3))} {ls : List (List (ℚ × Option (Fin 3)))}
    (hs : Coord s l) (hm : More w ls) : Operator (s ++ w) (l :: ls) := by
  induction hm generalizing s l with
  | nil => rw [List.append_nil]; exact .single hs
  | @cons u v s' t l' ls hu hv hc hm ih =>
    have := Operator.cons hs hu hv (ih hc)
    simpa using this

theorem operator_done {s t : List Char} {cs : List Coordinate} (h : operator s = .ok (.done t cs)) :
    ∃ w ls, s = w ++ t ∧ Operator w ls ∧ cs = ls.map specCoord := by
  unfold operator separatedList1 at h
  cases hq : coordinate s with
  | ok r =>
    rw [hq] at h
    cases r with
    | done u c =>
      obtain ⟨w', l, e4, hc, e5⟩ := coordinate_done hq
      obtain ⟨w, ls, e1, e2, hm⟩ := sep_loop_done _ _ _ _ _ h
      exact ⟨w' ++ w, l :: ls, by rw [e4, e1]; simp, more_operator hc hm, by rw [e2, e5]; simp [specCoord]⟩
    | err k u => cases Outcome.ok.inj h
    | fail k u => cases Outcome.ok.inj h
  | panic => rw [hq] at h; cases h
  | diverge => rw [hq] at h; cases h

theorem convert_spec (ls : List (List (ℚ × Option (Fin 3)))) :
    convertOperator (ls.map specCoord) = (ls.map (row ls.length), ls.map (fun l => coefficient l none)) := by
  unfold convertOperator
  simp only [List.map_map, List.length_map, specCoord, row]
  rw [Prod.mk.injEq]
  refine ⟨?_, rfl⟩
  apply List.map_congr_left
  intro l _
  rfl

theorem parseOperator_sound {s rest : List Char} {A : List (List Rat)} {b : List Rat}
    (h : parseOperator s = .ok (.parsed rest A b)) :
    ∃ u w v ls, s = u ++ w ++ v ++ rest ∧ Blank u ∧ Blank v ∧ Operator w ls ∧ A = ls.map (row ls.length) ∧
      b = ls.map (fun l => coefficient l none) := by
  unfold parseOperator at h
  cases hp : delimited space0 operator space0 s with
  | ok r =>
    rw [hp] at h
    cases r with
    | done t cs =>
      have h := Outcome.ok.inj h
      injection h with e1 e2 e3
      obtain ⟨s1, _, h1, hp⟩ := andThen_done.1 hp
      obtain ⟨s2, _, h2, hp⟩ := andThen_done.1 hp
      obtain ⟨s3, _, h3, hp⟩ := andThen_done.1 hp
      have hp := Outcome.ok.inj hp
      injection hp with e4 e5
      subst e4 e5
      obtain ⟨u, hu, e6⟩ := space0_done h1
      obtain ⟨w, ls, e7, ho, e8⟩ := operator_done h2
      obtain ⟨v, hv, e9⟩ := space0_done h3
      rw [e8, convert_spec] at e2 e3
      exact ⟨u, w, v, ls, by rw [e6, e7, e9, e1]; simp, hu, hv, ho, e2.symm, e3.symm⟩
    | err k u => cases Outcome.ok.inj h
    | fail k u => cases Outcome.ok.inj h
  | panic => rw [hp] at h; cases h
  | diverge => rw [hp] at h; cases h

/-! ### No panic -/


theorem noZero_suffix {s t : List Char} (h : NoZeroDenominator s) (hs : t <:+ s) : NoZeroDenominator t := by
  obtain ⟨p, rfl⟩ := hs
  intro pre u w post e hu hw hp
  exact h (p ++ pre) u w post (by rw [e]; simp) hu hw hp

theorem safe_integer {P : List Char → Prop} : Safe P integer := safe_mapOpt' safe_digit1

theorem safe_fraction : Safe NoZeroDenominator unsignedFraction := by
  have hP : ∀ s t, NoZeroDenominator s → t <:+ s → NoZeroDenominator t := fun _ _ => noZero_suffix
  refine safe_orElse (safe_mapOpt (safe_separatedPair hP safe_integer
    (safe_andThen hP safe_space0 (fun _ => safe_andThen hP (safe_char _) (fun _ => safe_space0))) safe_integer) ?_)
    (safe_mapOpt' safe_integer)
  intro s t v hs h
  obtain ⟨w1, u, w, v2, hu, hw, n1, n2, e, hd⟩ := quotient_done h
  unfold ratioNew
  by_cases hz : v.2 = 0
  · exfalso
    refine hs (w1 ++ u) w v2 t e hw (hz ▸ n2) ?_
    intro c r hc h9
    exact hd c r hc (isDig_iff.2 h9)
  · have : ((v.2 : ℕ) : ℤ) ≠ 0 := by exact_mod_cast hz
    rw [if_neg this]
    exact ⟨_, rfl⟩

theorem safe_axis {P : List Char → Prop} : Safe P axis := safe_mapOpt' (safe_oneOf _)

theorem safe_sign {P : List Char → Prop} : Safe P sign := safe_mapOpt' (safe_oneOf _)

theorem parseOperator_safe {s : List Char} (h : NoZeroDenominator s) : ∃ r, parseOperator s = .ok r := by
  have hP : ∀ s t, NoZeroDenominator s → t <:+ s → NoZeroDenominator t := fun _ _ => noZero_suffix
  have hu : Safe NoZeroDenominator unsignedTerm :=
    safe_orElse (safe_mapOpt' (safe_separatedPair hP safe_fraction (safe_char _) safe_axis))
      (safe_orElse (safe_mapOpt' (safe_separatedPair hP safe_fraction safe_space0 safe_axis))
        (safe_orElse (safe_mapOpt' safe_fraction) (safe_mapOpt' safe_axis)))
  have hsg : Safe NoZeroDenominator signedTerm := safe_mapOpt' (safe_separatedPair hP safe_sign safe_space0 hu)
  have hc : Safe NoZeroDenominator coordinate :=
    safe_mapOpt' (safe_pair hP (safe_orElse hsg hu) (safe_many0 hP (safe_preceded hP safe_space0 hsg)))
  have hcm : Safe NoZeroDenominator comma :=
    safe_andThen hP safe_space0 (fun _ => safe_andThen hP (safe_char _) (fun _ => safe_space0))
  have ho : Safe NoZeroDenominator (delimited space0 operator space0) :=
    safe_delimited hP safe_space0 (safe_separatedList1 hP hcm hc) safe_space0
  obtain ⟨r, h1, -⟩ := ho s h
  unfold parseOperator
  rw [h1]
  cases r <;> exact ⟨_, rfl⟩

end Systre.ParseOperator
