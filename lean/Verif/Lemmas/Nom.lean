import Verif.Model.Nom
import Mathlib.Tactic.Common

/-! # Rules for the parser combinators -/

namespace Systre.Nom

variable {α β γ : Type}

theorem andThen_done {p : Parser α} {f : α → Parser β} {s t : List Char} {b : β} :
    andThen p f s = .ok (.done t b) ↔ ∃ u a, p s = .ok (.done u a) ∧ f a u = .ok (.done t b) := by
  unfold andThen
  cases h : p s with
  | ok r => cases r <;> simp
  | panic => simp
  | diverge => simp

theorem mapOpt_done {p : Parser α} {f : α → Outcome (Option β)} {s t : List Char} {b : β} :
    mapOpt p f s = .ok (.done t b) ↔ ∃ a, p s = .ok (.done t a) ∧ f a = .ok (some b) := by
  unfold mapOpt
  cases h : p s with
  | ok r =>
    cases r with
    | done u a =>
      cases h2 : f a with
      | ok o => cases o <;> simp_all
      | panic => simp_all
      | diverge => simp_all
    | err => simp
    | fail => simp
  | panic => simp
  | diverge => simp

theorem orElse_done {p q : Parser α} {s t : List Char} {b : α} :
    orElse p q s = .ok (.done t b) ↔
      p s = .ok (.done t b) ∨ ∃ k u, p s = .ok (.err k u) ∧ q s = .ok (.done t b) := by
  unfold orElse
  cases h : p s with
  | ok r => cases r <;> simp
  | panic => simp
  | diverge => simp

theorem andThen_eq {p : Parser α} {f : α → Parser β} {s u : List Char} {a : α} (h : p s = .ok (.done u a)) :
    andThen p f s = f a u := by
  unfold andThen; rw [h]; rfl

theorem andThen_err {p : Parser α} {f : α → Parser β} {s u : List Char} {k : Kind} (h : p s = .ok (.err k u)) :
    andThen p f s = .ok (.err k u) := by
  unfold andThen; rw [h]; rfl

theorem mapOpt_eq {p : Parser α} {f : α → Outcome (Option β)} {s u : List Char} {a : α} {b : β}
    (h : p s = .ok (.done u a)) (hf : f a = .ok (some b)) : mapOpt p f s = .ok (.done u b) :=
  mapOpt_done.2 ⟨a, h, hf⟩

theorem mapOpt_none {p : Parser α} {f : α → Outcome (Option β)} {s u : List Char} {a : α}
    (h : p s = .ok (.done u a)) (hf : f a = .ok none) : mapOpt p f s = .ok (.err .mapOpt s) := by
  unfold mapOpt; rw [h]; simp [hf]

theorem mapOpt_err {p : Parser α} {f : α → Outcome (Option β)} {s u : List Char} {k : Kind}
    (h : p s = .ok (.err k u)) : mapOpt p f s = .ok (.err k u) := by
  unfold mapOpt; rw [h]; rfl

theorem orElse_left {p q : Parser α} {s u : List Char} {a : α} (h : p s = .ok (.done u a)) :
    orElse p q s = .ok (.done u a) := by
  unfold orElse; rw [h]; rfl

theorem orElse_right {p q : Parser α} {s u : List Char} {k : Kind} (h : p s = .ok (.err k u)) :
    orElse p q s = q s := by
  unfold orElse; rw [h]; rfl

/-! ### Parsers that neither panic nor loop -/

/-- On texts with the property `P` (a property of suffixes too) the parser ends without panic, and what it
leaves is a suffix. -/
def Safe (P : List Char → Prop) (p : Parser α) : Prop :=
  ∀ s, P s → ∃ r, p s = .ok r ∧ (∀ t a, r = .done t a → t <:+ s)

variable {P : List Char → Prop}

theorem safe_ret (a : α) : Safe P (ret a) := fun s _ => ⟨_, rfl, fun t b h => by
  injection h with h1; exact h1 ▸ List.suffix_refl _⟩

theorem safe_space0 : Safe P space0 := fun s _ => ⟨_, rfl, fun t b h => by
  injection h with h1; rw [← h1]; exact List.dropWhile_suffix _⟩

theorem safe_space1 : Safe P space1 := fun s _ => by
  unfold space1
  cases s with
  | nil => exact ⟨_, rfl, by simp⟩
  | cons c t =>
    dsimp only
    split_ifs with h
    · refine ⟨_, rfl, fun u b h => ?_⟩
      injection h with h1; rw [← h1]
      exact (List.dropWhile_suffix _).trans (List.suffix_cons _ _)
    · exact ⟨_, rfl, by simp⟩

theorem safe_char (c : Char) : Safe P (char c) := fun s _ => by
  unfold char
  cases s with
  | nil => exact ⟨_, rfl, by simp⟩
  | cons d t =>
    dsimp only
    split_ifs with h
    · refine ⟨_, rfl, fun u b h => ?_⟩
      injection h with h1; rw [← h1]
      exact List.suffix_cons _ _
    · exact ⟨_, rfl, by simp⟩

theorem safe_oneOf (cs : List Char) : Safe P (oneOf cs) := fun s _ => by
  unfold oneOf
  cases s with
  | nil => exact ⟨_, rfl, by simp⟩
  | cons d t =>
    dsimp only
    split_ifs with h
    · refine ⟨_, rfl, fun u b h => ?_⟩
      injection h with h1; rw [← h1]
      exact List.suffix_cons _ _
    · exact ⟨_, rfl, by simp⟩

theorem safe_digit1 : Safe P digit1 := fun s _ => by
  unfold digit1
  cases s with
  | nil => exact ⟨_, rfl, by simp⟩
  | cons d t =>
    dsimp only
    split_ifs with h
    · refine ⟨_, rfl, fun u b h => ?_⟩
      injection h with h1; rw [← h1]
      exact List.dropWhile_suffix _
    · exact ⟨_, rfl, by simp⟩

theorem safe_takeTill1 (f : Char → Bool) : Safe P (takeTill1 f) := fun s _ => by
  unfold takeTill1
  cases s with
  | nil => exact ⟨_, rfl, by simp⟩
  | cons d t =>
    dsimp only
    split_ifs with h
    · exact ⟨_, rfl, by simp⟩
    · refine ⟨_, rfl, fun u b h => ?_⟩
      injection h with h1; rw [← h1]
      exact List.dropWhile_suffix _

theorem safe_tag (w : List Char) : Safe P (tag w) := fun s _ => by
  unfold tag
  split_ifs with h
  · refine ⟨_, rfl, fun u b h => ?_⟩
    injection h with h1; rw [← h1]
    exact List.drop_suffix _ _
  · exact ⟨_, rfl, by simp⟩

section
variable (hP : ∀ s t, P s → t <:+ s → P t)
include hP

theorem safe_andThen {p : Parser α} {f : α → Parser β} (hp : Safe P p) (hf : ∀ a, Safe P (f a)) :
    Safe P (andThen p f) := fun s hs => by
  obtain ⟨r, h1, h2⟩ := hp s hs
  cases r with
  | done t a =>
    rw [andThen_eq h1]
    have ht := h2 t a rfl
    obtain ⟨r, h3, h4⟩ := hf a t (hP s t hs ht)
    exact ⟨r, h3, fun u b h => (h4 u b h).trans ht⟩
  | err k t => rw [andThen_err h1]; exact ⟨_, rfl, by simp⟩
  | fail k t => refine ⟨.fail k t, ?_, by simp⟩; unfold andThen; rw [h1]; rfl

theorem safe_pair {p : Parser α} {q : Parser β} (hp : Safe P p) (hq : Safe P q) : Safe P (pair p q) :=
  safe_andThen hP hp (fun _ => safe_andThen hP hq (fun _ => safe_ret _))

theorem safe_separatedPair {p : Parser α} {q : Parser β} {r : Parser γ} (hp : Safe P p) (hq : Safe P q)
    (hr : Safe P r) : Safe P (separatedPair p q r) :=
  safe_andThen hP hp (fun _ => safe_andThen hP hq (fun _ => safe_andThen hP hr (fun _ => safe_ret _)))

theorem safe_delimited {p : Parser α} {q : Parser β} {r : Parser γ} (hp : Safe P p) (hq : Safe P q)
    (hr : Safe P r) : Safe P (delimited p q r) :=
  safe_andThen hP hp (fun _ => safe_andThen hP hq (fun _ => safe_andThen hP hr (fun _ => safe_ret _)))

theorem safe_preceded {p : Parser α} {q : Parser β} (hp : Safe P p) (hq : Safe P q) : Safe P (preceded p q) :=
  safe_andThen hP hp (fun _ => hq)

theorem safe_many0Loop {p : Parser α} (hp : Safe P p) : ∀ (fuel : Nat) (acc : List α) (s : List Char), P s →
    s.length < fuel → ∃ r, many0Loop p fuel acc s = .ok r ∧ (∀ t a, r = .done t a → t <:+ s)
  | 0, _, _, _, h => absurd h (Nat.not_lt_zero _)
  | fuel + 1, acc, s, hs, h => by
    obtain ⟨r, h1, h2⟩ := hp s hs
    unfold many0Loop
    rw [h1]
    cases r with
    | done t a =>
      have ht := h2 t a rfl
      simp only [Outcome.ok_bind]
      split_ifs with he
      · exact ⟨_, rfl, by simp⟩
      · have hl := ht.length_le
        obtain ⟨r, h3, h4⟩ := safe_many0Loop hp fuel (acc ++ [a]) t (hP s t hs ht) (by omega)
        exact ⟨r, h3, fun u b h => (h4 u b h).trans ht⟩
    | err k t =>
      refine ⟨_, rfl, fun u b h => ?_⟩
      injection h with h1; exact h1 ▸ List.suffix_refl _
    | fail k t => exact ⟨_, rfl, by simp⟩

theorem safe_many0 {p : Parser α} (hp : Safe P p) : Safe P (many0 p) := fun s hs =>
  safe_many0Loop hP hp (s.length + 1) [] s hs (by omega)

theorem safe_sepLoop {sep : Parser β} {p : Parser α} (hs : Safe P sep) (hp : Safe P p) : ∀ (fuel : Nat) (acc : List α)
    (s : List Char), P s → s.length < fuel →
      ∃ r, sepLoop sep p fuel acc s = .ok r ∧ (∀ t a, r = .done t a → t <:+ s)
  | 0, _, _, _, h => absurd h (Nat.not_lt_zero _)
  | fuel + 1, acc, s, hPs, h => by
    obtain ⟨r, h1, h2⟩ := hs s hPs
    unfold sepLoop
    rw [h1]
    cases r with
    | done t a =>
      have ht := h2 t a rfl
      simp only [Outcome.ok_bind]
      split_ifs with he
      · exact ⟨_, rfl, by simp⟩
      · have hl := ht.length_le
        obtain ⟨r, h3, h4⟩ := hp t (hP s t hPs ht)
        rw [h3]
        cases r with
        | done u b =>
          have hu := h4 u b rfl
          have hl := hu.length_le
          obtain ⟨r, h5, h6⟩ := safe_sepLoop hs hp fuel (acc ++ [b]) u (hP _ _ (hP s t hPs ht) hu) (by omega)
          exact ⟨r, h5, fun w b h => (h6 w b h).trans (hu.trans ht)⟩
        | err k t =>
          refine ⟨_, rfl, fun u b h => ?_⟩
          injection h with h1; exact h1 ▸ List.suffix_refl _
        | fail k t => exact ⟨_, rfl, by simp⟩
    | err k t =>
      refine ⟨_, rfl, fun u b h => ?_⟩
      injection h with h1; exact h1 ▸ List.suffix_refl _
    | fail k t => exact ⟨_, rfl, by simp⟩

theorem safe_separatedList1 {sep : Parser β} {p : Parser α} (hs : Safe P sep) (hp : Safe P p) :
    Safe P (separatedList1 sep p) := fun s hPs => by
  obtain ⟨r, h1, h2⟩ := hp s hPs
  unfold separatedList1
  rw [h1]
  cases r with
  | done t a =>
    have ht := h2 t a rfl
    obtain ⟨r, h3, h4⟩ := safe_sepLoop hP hs hp (t.length + 1) [a] t (hP s t hPs ht) (by omega)
    exact ⟨r, h3, fun u b h => (h4 u b h).trans ht⟩
  | err k t => exact ⟨_, rfl, by simp⟩
  | fail k t => exact ⟨_, rfl, by simp⟩

theorem safe_separatedList0 {sep : Parser β} {p : Parser α} (hs : Safe P sep) (hp : Safe P p) :
    Safe P (separatedList0 sep p) := fun s hPs => by
  obtain ⟨r, h1, h2⟩ := hp s hPs
  unfold separatedList0
  rw [h1]
  cases r with
  | done t a =>
    have ht := h2 t a rfl
    obtain ⟨r, h3, h4⟩ := safe_sepLoop hP hs hp (t.length + 1) [a] t (hP s t hPs ht) (by omega)
    exact ⟨r, h3, fun u b h => (h4 u b h).trans ht⟩
  | err k t =>
    refine ⟨_, rfl, fun u b h => ?_⟩
    injection h with h1; exact h1 ▸ List.suffix_refl _
  | fail k t => exact ⟨_, rfl, by simp⟩

end

theorem safe_mapOpt {p : Parser α} {f : α → Outcome (Option β)} (hp : Safe P p)
    (hf : ∀ s t a, P s → p s = .ok (.done t a) → ∃ o, f a = .ok o) : Safe P (mapOpt p f) := fun s hs => by
  obtain ⟨r, h1, h2⟩ := hp s hs
  cases r with
  | done t a =>
    obtain ⟨o, ho⟩ := hf s t a hs h1
    cases o with
    | some b => exact ⟨_, mapOpt_eq h1 ho, fun u c h => by injection h with h3; rw [← h3]; exact h2 t a rfl⟩
    | none => exact ⟨_, mapOpt_none h1 ho, by simp⟩
  | err k t => exact ⟨_, mapOpt_err h1, by simp⟩
  | fail k t => refine ⟨.fail k t, ?_, by simp⟩; unfold mapOpt; rw [h1]; rfl

theorem safe_mapOpt' {p : Parser α} {f : α → Option β} (hp : Safe P p) : Safe P (mapOpt p (fun a => .ok (f a))) :=
  safe_mapOpt hp (fun _ _ _ _ _ => ⟨_, rfl⟩)

theorem safe_orElse {p q : Parser α} (hp : Safe P p) (hq : Safe P q) : Safe P (orElse p q) := fun s hs => by
  obtain ⟨r, h1, h2⟩ := hp s hs
  cases r with
  | done t a => exact ⟨_, orElse_left h1, h2⟩
  | err k t => rw [orElse_right h1]; exact hq s hs
  | fail k t => refine ⟨.fail k t, ?_, by simp⟩; unfold orElse; rw [h1]; rfl

theorem safe_opt {p : Parser α} (hp : Safe P p) : Safe P (opt p) := fun s hs => by
  obtain ⟨r, h1, h2⟩ := hp s hs
  unfold opt
  rw [h1]
  cases r with
  | done t a => exact ⟨_, rfl, fun u b h => by injection h with h3; rw [← h3]; exact h2 t a rfl⟩
  | err k t => exact ⟨_, rfl, fun u b h => by injection h with h3; exact h3 ▸ List.suffix_refl _⟩
  | fail k t => exact ⟨_, rfl, by simp⟩

theorem safe_cut {p : Parser α} (hp : Safe P p) : Safe P (cut p) := fun s hs => by
  obtain ⟨r, h1, h2⟩ := hp s hs
  unfold cut
  rw [h1]
  cases r with
  | done t a => exact ⟨_, rfl, h2⟩
  | err k t => exact ⟨_, rfl, by simp⟩
  | fail k t => exact ⟨_, rfl, by simp⟩

end Systre.Nom
