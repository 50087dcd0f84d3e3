import Verif.Model.Display
import Verif.Lemmas.OperatorText
import Verif.Lemmas.GraphBasic
import Verif.Lemmas.MatrixRep

/-! # Displayed texts determine the values -/

namespace Systre

/-! ### texts with separators -/

theorem span_unique {P : Char → Prop} : ∀ {a a' : List Char} {c c' : Char} {s s' : List Char}, (∀ x ∈ a, P x) →
    (∀ x ∈ a', P x) → ¬ P c → ¬ P c' → a ++ c :: s = a' ++ c' :: s' → a = a' ∧ c = c' ∧ s = s'
  | [], [], c, c', s, s', _, _, _, _, h => by
    simp only [List.nil_append, List.cons.injEq] at h; exact ⟨rfl, h⟩
  | [], x :: a', c, c', s, s', _, h2, h3, _, h => by
    simp only [List.nil_append, List.cons_append, List.cons.injEq] at h
    exact absurd (h.1 ▸ h2 x (by simp)) h3
  | x :: a, [], c, c', s, s', h1, _, _, h4, h => by
    simp only [List.nil_append, List.cons_append, List.cons.injEq] at h
    exact absurd (h.1 ▸ h1 x (by simp)) h4
  | x :: a, x' :: a', c, c', s, s', h1, h2, h3, h4, h => by
    simp only [List.cons_append, List.cons.injEq] at h
    obtain ⟨e1, e2, e3⟩ := span_unique (fun y hy => h1 y (by simp [hy])) (fun y hy => h2 y (by simp [hy])) h3 h4 h.2
    exact ⟨by rw [h.1, e1], e2, e3⟩

/-- pieces that end with a separator -/
theorem ends_inj {c : Char} : ∀ {ls ls' : List (List Char)}, (∀ l ∈ ls, c ∉ l) → (∀ l ∈ ls', c ∉ l) →
    ls.flatMap (fun l => l ++ [c]) = ls'.flatMap (fun l => l ++ [c]) → ls = ls'
  | [], [], _, _, _ => rfl
  | [], l :: ls', _, _, h => by simp at h
  | l :: ls, [], _, _, h => by simp at h
  | l :: ls, l' :: ls', h1, h2, h => by
    simp only [List.flatMap_cons, List.append_assoc, List.cons_append, List.nil_append] at h
    obtain ⟨e1, -, e3⟩ := span_unique (P := fun x => x ≠ c) (fun x hx e => h1 l (by simp) (e ▸ hx))
      (fun x hx e => h2 l' (by simp) (e ▸ hx)) (by simp) (by simp) h
    rw [e1, ends_inj (fun x hx => h1 x (by simp [hx])) (fun x hx => h2 x (by simp [hx])) e3]

/-- pieces that begin with a separator -/
theorem begins_inj {c : Char} {ls ls' : List (List Char)} (h1 : ∀ l ∈ ls, c ∉ l) (h2 : ∀ l ∈ ls', c ∉ l)
    (h : ls.flatMap (fun l => c :: l) = ls'.flatMap (fun l => c :: l)) : ls = ls' := by
  have h3 : ∀ l : List (List Char), l.flatMap (fun l => c :: l) ++ [c] = c :: l.flatMap (fun l => l ++ [c]) := by
    intro l
    induction l with
    | nil => rfl
    | cons a l ih => simp only [List.flatMap_cons, List.cons_append, List.append_assoc, ih]; simp
  have h4 := congrArg (· ++ [c]) h
  simp only [h3, List.cons.injEq, true_and] at h4
  exact ends_inj h1 h2 h4

/-! ### numbers -/

theorem natText_inj {m n : Nat} (h : Nat.toDigits 10 m = Nat.toDigits 10 n) : m = n := by
  rw [← @Nat.ofDigitChars_ten_toDigits m, h, Nat.ofDigitChars_ten_toDigits]

/-- characters of numbers -/
def NumChar (c : Char) : Prop := c.isDigit = true ∨ c = '-' ∨ c = '/'

theorem natText_digit {n : Nat} : ∀ c ∈ Nat.toDigits 10 n, c.isDigit = true := fun _ hc =>
  Nat.isDigit_of_mem_toDigits (by norm_num) (by norm_num) hc

theorem natText_head (n : Nat) : ∃ c s, Nat.toDigits 10 n = c :: s ∧ c.isDigit = true := by
  cases h : Nat.toDigits 10 n with
  | nil => exact absurd h Nat.toDigits_ne_nil
  | cons c s => exact ⟨c, s, rfl, natText_digit (n := n) c (by rw [h]; simp)⟩

theorem intText_inj {a b : Int} (h : intText a = intText b) : a = b := by
  unfold intText at h
  obtain ⟨c, s, e, hc⟩ := natText_head a.natAbs
  obtain ⟨d, t, e', hd⟩ := natText_head b.natAbs
  by_cases ha : a < 0 <;> by_cases hb : b < 0
  · simp only [ha, hb, if_true, List.cons_append, List.nil_append, List.cons.injEq, true_and] at h
    have := natText_inj h; omega
  · simp only [ha, hb, if_true, if_false, List.cons_append, List.nil_append, e', List.cons.injEq] at h
    rw [← h.1] at hd; exact absurd hd (by decide)
  · simp only [ha, hb, if_true, if_false, List.cons_append, List.nil_append, e, List.cons.injEq] at h
    rw [h.1] at hc; exact absurd hc (by decide)
  · simp only [ha, hb, if_false, List.nil_append] at h
    have := natText_inj h; omega

theorem intText_char {a : Int} : ∀ c ∈ intText a, c.isDigit = true ∨ c = '-' := by
  intro c hc
  unfold intText at hc
  rw [List.mem_append] at hc
  rcases hc with hc | hc
  · split_ifs at hc with h
    · right; simpa using hc
    · simp at hc
  · exact Or.inl (natText_digit c hc)

theorem rat_ext' {a b : Rat} (h1 : a.num = b.num) (h2 : a.den = b.den) : a = b := Rat.ext h1 h2

theorem rationalText_inj {a b : Rat} (h : rationalText a = rationalText b) : a = b := by
  unfold rationalText at h
  have hP : ∀ q : Int, ∀ x ∈ intText q, x ≠ '/' := by
    intro q x hx e
    rcases intText_char x hx with h | h
    · rw [e] at h; exact absurd h (by decide)
    · rw [e] at h; exact absurd h (by decide)
  have hno : ∀ (q : Int) (l s : List Char), intText q ≠ l ++ '/' :: s := by
    intro q l s e
    exact hP q '/' (by rw [e]; simp) rfl
  split_ifs at h with ha hb hb
  · exact rat_ext' (intText_inj h) (by rw [ha, hb])
  · exact absurd h (hno _ _ _)
  · exact absurd h.symm (hno _ _ _)
  · obtain ⟨e1, -, e2⟩ := span_unique (hP _) (hP _) (by simp) (by simp) h
    exact rat_ext' (intText_inj e1) (natText_inj e2)

theorem rationalText_char {a : Rat} : ∀ c ∈ rationalText a, NumChar c := by
  intro c hc
  unfold rationalText at hc
  split_ifs at hc
  · rcases intText_char c hc with h | h
    · exact Or.inl h
    · exact Or.inr (Or.inl h)
  · rw [List.mem_append, List.mem_cons] at hc
    rcases hc with hc | hc | hc
    · rcases intText_char c hc with h | h
      · exact Or.inl h
      · exact Or.inr (Or.inl h)
    · exact Or.inr (Or.inr hc)
    · exact Or.inl (natText_digit c hc)

theorem numChar_not {c : Char} (h : NumChar c) : c ≠ ' ' ∧ c ≠ '\n' ∧ c ≠ ',' ∧ c ≠ ')' ∧ c ≠ 'x' ∧ c ≠ 'y' ∧ c ≠ 'z' ∧ c ≠ '+' := by
  refine ⟨?_, ?_, ?_, ?_, ?_, ?_, ?_, ?_⟩ <;> (rintro rfl; revert h; unfold NumChar; decide)

/-- distinct values have distinct texts, without blanks -/
class LawfulShown (T : Type) [Shown T] : Prop where
  inj : ∀ a b : T, Shown.text a = Shown.text b → a = b
  blank : ∀ a : T, ' ' ∉ Shown.text a
  newline : ∀ a : T, '\n' ∉ Shown.text a

instance : LawfulShown Int where
  inj a b h := intText_inj h
  blank a h := by
    have := intText_char ' ' h; revert this; decide
  newline a h := by
    have := intText_char '\n' h; revert this; decide

instance : LawfulShown Rat where
  inj a b h := rationalText_inj h
  blank a h := (numChar_not (rationalText_char ' ' h)).1 rfl
  newline a h := (numChar_not (rationalText_char '\n' h)).2.1 rfl

/-! ### edges and graphs -/

/-- texts of labels: they end with their only closing parenthesis -/
class LawfulLabelText (T : Type) [Shown T] : Prop where
  inj : ∀ a b : T, Shown.text a = Shown.text b → a = b
  close : ∀ a : T, ∃ s, Shown.text a = s ++ [')'] ∧ ∀ c ∈ s, c ≠ ')'
  newline : ∀ a : T, '\n' ∉ Shown.text a

theorem int_comma {a : Int} : ∀ c ∈ intText a, c ≠ ',' := by
  intro c hc e
  have := intText_char c hc; rw [e] at this; revert this; decide
theorem int_close {a : Int} : ∀ c ∈ intText a, c ≠ ')' := by
  intro c hc e
  have := intText_char c hc; rw [e] at this; revert this; decide
theorem int_newline {a : Int} : '\n' ∉ intText a := by
  intro h
  have := intText_char '\n' h; revert this; decide

instance : LawfulLabelText V2 where
  inj a b h := by
    simp only [Shown.text, V2.text, List.cons_append, List.nil_append, List.append_assoc, List.cons.injEq, true_and] at h
    obtain ⟨h1, -, h2⟩ := span_unique int_comma int_comma (by simp) (by simp) h
    simp only [List.cons.injEq, true_and] at h2
    obtain ⟨h3, -⟩ := span_unique int_close int_close (by simp) (by simp) h2
    exact V2.ext (intText_inj h1) (intText_inj h3)
  close a := by
    refine ⟨['('] ++ intText a.x ++ [',', ' '] ++ intText a.y, rfl, ?_⟩
    intro c hc
    simp only [List.mem_append, List.mem_cons, List.not_mem_nil, or_false] at hc
    rcases hc with ((rfl | hc) | rfl | rfl) | hc
    · decide
    · exact int_close c hc
    · decide
    · decide
    · exact int_close c hc
  newline a h := by
    simp only [Shown.text, V2.text, List.mem_append, List.mem_cons, List.not_mem_nil, or_false] at h
    rcases h with (((h | h) | h | h) | h) | h
    · exact absurd h (by decide)
    · exact int_newline h
    · exact absurd h (by decide)
    · exact absurd h (by decide)
    · exact int_newline h
    · exact absurd h (by decide)

instance : LawfulLabelText V3 where
  inj a b h := by
    simp only [Shown.text, V3.text, List.cons_append, List.nil_append, List.append_assoc, List.cons.injEq, true_and] at h
    obtain ⟨h1, -, h2⟩ := span_unique int_comma int_comma (by simp) (by simp) h
    simp only [List.cons.injEq, true_and] at h2
    obtain ⟨h3, -, h4⟩ := span_unique int_comma int_comma (by simp) (by simp) h2
    simp only [List.cons.injEq, true_and] at h4
    obtain ⟨h5, -⟩ := span_unique int_close int_close (by simp) (by simp) h4
    exact V3.ext (intText_inj h1) (intText_inj h3) (intText_inj h5)
  close a := by
    refine ⟨['('] ++ intText a.x ++ [',', ' '] ++ intText a.y ++ [',', ' '] ++ intText a.z, rfl, ?_⟩
    intro c hc
    simp only [List.mem_append, List.mem_cons, List.not_mem_nil, or_false] at hc
    rcases hc with ((((rfl | hc) | rfl | rfl) | hc) | rfl | rfl) | hc
    · decide
    · exact int_close c hc
    · decide
    · decide
    · exact int_close c hc
    · decide
    · decide
    · exact int_close c hc
  newline a h := by
    simp only [Shown.text, V3.text, List.mem_append, List.mem_cons, List.not_mem_nil, or_false] at h
    rcases h with (((((h | h) | h | h) | h) | h | h) | h) | h
    · exact absurd h (by decide)
    · exact int_newline h
    · exact absurd h (by decide)
    · exact absurd h (by decide)
    · exact int_newline h
    · exact absurd h (by decide)
    · exact absurd h (by decide)
    · exact int_newline h
    · exact absurd h (by decide)

section
variable {T : Type} [Shown T] [LawfulLabelText T]

theorem digit_blank {n : Nat} : ∀ c ∈ Nat.toDigits 10 n, c ≠ ' ' := by
  intro c hc e
  have := natText_digit c hc; rw [e] at this; revert this; decide

theorem edgeText_inj {e f : Edge T} (h : e.text = f.text) : e = f := by
  obtain ⟨s, hs, hs'⟩ := LawfulLabelText.close e.shift
  obtain ⟨t, ht, ht'⟩ := LawfulLabelText.close f.shift
  unfold Edge.text at h
  rw [hs, ht] at h
  simp only [List.append_assoc, List.cons_append, List.nil_append] at h
  obtain ⟨h1, -, h2⟩ := span_unique digit_blank digit_blank (by simp) (by simp) h
  simp only [List.cons.injEq, true_and] at h2
  obtain ⟨h3, -, h4⟩ := span_unique hs' ht' (by simp) (by simp) h2
  simp only [List.cons.injEq, true_and] at h4
  ext
  · exact natText_inj h1
  · exact natText_inj h4
  · exact LawfulLabelText.inj _ _ (by rw [hs, ht, h3])

theorem edgeText_newline (e : Edge T) : '\n' ∉ e.text := by
  intro h
  have hd : ∀ n : Nat, '\n' ∉ Nat.toDigits 10 n := by
    intro n hn
    have := natText_digit _ hn; revert this; decide
  unfold Edge.text at h
  simp only [List.mem_append, List.mem_cons, List.not_mem_nil, or_false] at h
  rcases h with (((h | h | h | h) | h) | h | h | h) | h
  · exact hd _ h
  · exact absurd h (by decide)
  · exact absurd h (by decide)
  · exact absurd h (by decide)
  · exact LawfulLabelText.newline _ h
  · exact absurd h (by decide)
  · exact absurd h (by decide)
  · exact absurd h (by decide)
  · exact hd _ h

theorem graphText_inj {g h : Graph T} (e : g.text = h.text) : g = h := by
  have h1 : ∀ g : Graph T, g.text = (g.edges.map Edge.text).flatMap (fun l => l ++ ['\n']) := by
    intro g
    unfold Graph.text
    rw [List.flatMap_map]
  rw [h1, h1] at e
  have h2 := ends_inj (by
    intro l hl
    obtain ⟨x, -, rfl⟩ := List.mem_map.1 hl
    exact edgeText_newline x) (by
    intro l hl
    obtain ⟨x, -, rfl⟩ := List.mem_map.1 hl
    exact edgeText_newline x) e
  have h3 := List.map_injective_iff.2 (fun a b h => edgeText_inj h) h2
  cases g; cases h
  exact congrArg _ h3

end

/-! ### matrices and affine maps -/

section
variable {T : Type} [Shown T] [LawfulShown T]

/-- the text of one row -/
def rowText (l : List T) : List Char := (l.map Shown.text).flatMap (fun t => ' ' :: t)

theorem ofFn_flatten_map {α β : Type} {n : Nat} (f : Fin n → α) (g : α → List β) :
    (List.ofFn (fun i => g (f i))).flatten = (List.ofFn f).flatMap g := by
  rw [List.flatMap_def, List.map_ofFn]; rfl

theorem matText_eq {m : Mat T} {r c : Nat} {M : Matrix (Fin r) (Fin c) T} (h : Rep m M) :
    m.text = .ok ((List.ofFn (fun i => rowText (List.ofFn (M i)))).flatMap (fun l => l ++ ['\n'])) := by
  unfold Mat.text
  rw [h.rows, h.cols, Modular.omap_range (g := fun i : Fin r => rowText (List.ofFn (M i)) ++ ['\n'])]
  · rw [Outcome.ok_bind]
    congr 1
    exact ofFn_flatten_map (fun i => rowText (List.ofFn (M i))) (fun l => l ++ ['\n'])
  · intro i
    rw [Modular.omap_range (g := fun j : Fin c => ' ' :: Shown.text (M i j))]
    · rw [Outcome.ok_bind]
      congr 2
      unfold rowText
      rw [List.map_ofFn]
      exact ofFn_flatten_map (fun j => Shown.text (M i j)) (fun t => ' ' :: t)
    · intro j
      rw [h.entry i j]; rfl

theorem rowText_inj {l l' : List T} (h : rowText l = rowText l') : l = l' := by
  have h2 := begins_inj (by
    intro l hl
    obtain ⟨x, -, rfl⟩ := List.mem_map.1 hl
    exact LawfulShown.blank x) (by
    intro l hl
    obtain ⟨x, -, rfl⟩ := List.mem_map.1 hl
    exact LawfulShown.blank x) h
  exact List.map_injective_iff.2 (fun a b h => LawfulShown.inj a b h) h2

theorem rowText_newline (l : List T) : '\n' ∉ rowText l := by
  intro h
  unfold rowText at h
  obtain ⟨t, ht, h⟩ := List.mem_flatMap.1 h
  obtain ⟨x, -, rfl⟩ := List.mem_map.1 ht
  rcases List.mem_cons.1 h with h | h
  · exact absurd h (by decide)
  · exact LawfulShown.newline x h

theorem Rep.eq_of [Zero T] {m m' : Mat T} {r c : Nat} {M : Matrix (Fin r) (Fin c) T} (h : Rep m M) (h' : Rep m' M) : m = m' := by
  refine Mat.ext_ent h.wf h'.wf (by rw [h.rows, h'.rows]) (by rw [h.cols, h'.cols]) ?_
  intro i hi j hj
  rw [h.rows] at hi
  rw [h.cols] at hj
  exact (h.ent ⟨i, hi⟩ ⟨j, hj⟩).trans (h'.ent ⟨i, hi⟩ ⟨j, hj⟩).symm

theorem ofFn_inj' {α : Type} {m n : Nat} {f : Fin m → α} {g : Fin n → α} (h : List.ofFn f = List.ofFn g) :
    ∃ e : m = n, ∀ i, f i = g (Fin.cast e i) := by
  have e : m = n := by simpa using congrArg List.length h
  subst e
  exact ⟨rfl, fun i => congrFun (List.ofFn_injective h) i⟩

theorem matText_inj [Zero T] {m m' : Mat T} {r c r' c' : Nat} {M : Matrix (Fin r) (Fin c) T} {M' : Matrix (Fin r') (Fin c') T}
    (h : Rep m M) (h' : Rep m' M') : m.text = m'.text ↔ m = m' ∨ (r = 0 ∧ r' = 0) := by
  constructor
  · intro e
    rw [matText_eq h, matText_eq h'] at e
    have e2 := ends_inj (by
      intro l hl
      rw [List.mem_ofFn'] at hl
      obtain ⟨i, rfl⟩ := hl
      exact rowText_newline _) (by
      intro l hl
      rw [List.mem_ofFn'] at hl
      obtain ⟨i, rfl⟩ := hl
      exact rowText_newline _) (Outcome.ok.inj e)
    obtain ⟨rfl, e3⟩ := ofFn_inj' e2
    by_cases hr : r = 0
    · exact Or.inr ⟨hr, hr⟩
    · left
      obtain ⟨rfl, -⟩ := ofFn_inj' (rowText_inj (e3 ⟨0, by omega⟩))
      have : M = M' := by
        funext i j
        exact (ofFn_inj' (rowText_inj (e3 i))).2 j
      subst this
      exact h.eq_of h'
  · rintro (rfl | ⟨rfl, rfl⟩)
    · rfl
    · rw [matText_eq h, matText_eq h']; simp

theorem affText_eq {a : AffineMap T} {n : Nat} {A : Matrix (Fin n) (Fin n) T} {s : Fin n → T} (h : IsAff a A s) :
    a.text = .ok ((List.ofFn (fun i => ((List.ofFn (A i)).map Shown.text ++ [[], [], [], Shown.text (s i)]).flatMap
      (fun t => ' ' :: t))).flatMap (fun l => l ++ ['\n'])) := by
  have hd : a.dim = n := h.2.rows
  unfold AffineMap.text
  rw [hd, Modular.omap_range (g := fun i : Fin n => (((List.ofFn (A i)).map Shown.text ++ [[], [], [], Shown.text (s i)]).flatMap
      (fun t => ' ' :: t)) ++ ['\n'])]
  · rw [Outcome.ok_bind]
    congr 1
    exact ofFn_flatten_map (fun i => (((List.ofFn (A i)).map Shown.text ++ [[], [], [], Shown.text (s i)]).flatMap
      (fun t => ' ' :: t))) (fun l => l ++ ['\n'])
  · intro i
    rw [Modular.omap_range (g := fun j : Fin n => ' ' :: Shown.text (A i j))]
    · have h0 : a.shift.coords.get i.1 0 = .ok (s i) := h.2.entry i 0
      rw [Outcome.ok_bind, h0, Outcome.ok_bind]
      congr 1
      rw [List.flatMap_append, List.map_ofFn, ← ofFn_flatten_map (Shown.text ∘ A i) (fun t => ' ' :: t)]
      simp
    · intro j
      rw [h.1.entry i j]; rfl

theorem affText_inj [Zero T] {a a' : AffineMap T} {n n' : Nat} {A : Matrix (Fin n) (Fin n) T} {s : Fin n → T}
    {A' : Matrix (Fin n') (Fin n') T} {s' : Fin n' → T} (h : IsAff a A s) (h' : IsAff a' A' s')
    (e : a.text = a'.text) : a = a' := by
  rw [affText_eq h, affText_eq h'] at e
  have hnl : ∀ {k : Nat} (B : Matrix (Fin k) (Fin k) T) (t : Fin k → T), ∀ l ∈ List.ofFn (fun i =>
      ((List.ofFn (B i)).map Shown.text ++ [[], [], [], Shown.text (t i)]).flatMap (fun t => ' ' :: t)), '\n' ∉ l := by
    intro k B t l hl hn
    rw [List.mem_ofFn'] at hl
    obtain ⟨i, rfl⟩ := hl
    obtain ⟨x, hx, hn⟩ := List.mem_flatMap.1 hn
    rcases List.mem_cons.1 hn with hn | hn
    · exact absurd hn (by decide)
    · rcases List.mem_append.1 hx with hx | hx
      · obtain ⟨y, -, rfl⟩ := List.mem_map.1 hx
        exact LawfulShown.newline y hn
      · simp only [List.mem_cons, List.not_mem_nil, or_false] at hx
        rcases hx with rfl | rfl | rfl | rfl
        · simp at hn
        · simp at hn
        · simp at hn
        · exact LawfulShown.newline _ hn
  have e2 := ends_inj (hnl A s) (hnl A' s') (Outcome.ok.inj e)
  obtain ⟨rfl, e3⟩ := ofFn_inj' e2
  have hbl : ∀ (B : Matrix (Fin n) (Fin n) T) (t : Fin n → T) (i : Fin n),
      ∀ l ∈ (List.ofFn (B i)).map Shown.text ++ [[], [], [], Shown.text (t i)], ' ' ∉ l := by
    intro B t i l hx hn
    rcases List.mem_append.1 hx with hx | hx
    · obtain ⟨y, -, rfl⟩ := List.mem_map.1 hx
      exact LawfulShown.blank y hn
    · simp only [List.mem_cons, List.not_mem_nil, or_false] at hx
      rcases hx with rfl | rfl | rfl | rfl
      · simp at hn
      · simp at hn
      · simp at hn
      · exact LawfulShown.blank _ hn
  have key : ∀ i, A i = A' i ∧ s i = s' i := by
    intro i
    have h4 := begins_inj (hbl A s i) (hbl A' s' i) (e3 i)
    obtain ⟨h5, h6⟩ := List.append_inj h4 (by simp)
    refine ⟨?_, ?_⟩
    · exact List.ofFn_injective (List.map_injective_iff.2 (fun a b h => LawfulShown.inj a b h) h5)
    · simp only [List.cons.injEq, true_and, and_true] at h6
      exact LawfulShown.inj _ _ h6
  have hA : A = A' := by funext i j; exact congrFun (key i).1 j
  have hs : s = s' := funext fun i => (key i).2
  subst hA hs
  have e5 := h.1.eq_of h'.1
  have e6 := h.2.eq_of h'.2
  cases a with | mk l v => cases a' with | mk l' v' =>
  cases v; cases v'
  simp only at e5 e6
  rw [e5, e6]

end

/-! ### operators in coordinate form -/

namespace ParseOperator

/-- sign and size of a part -/
def numText (k : Nat) (v : Rat) : List Char :=
  (if k > 0 ∧ v > 0 then ['+'] else if v < 0 then ['-'] else []) ++ (if absRat v ≠ 1 then ratText (absRat v) else [])

theorem partText_num (k : Nat) (v : Rat) (ax : List Char) : partText k v ax = numText k v ++ ax := rfl

theorem ratText_eq {q : Rat} (h : 0 ≤ q) : ratText q = rationalText q := by
  have hn : 0 ≤ q.num := Rat.num_nonneg.2 h
  have hi : intText q.num = Nat.toDigits 10 q.num.natAbs := by
    unfold intText; rw [if_neg (by omega)]; rfl
  unfold ratText rationalText
  rw [hi]

theorem absRat_nonneg (q : Rat) : 0 ≤ absRat q := by rw [absRat_eq]; exact abs_nonneg q

theorem ratText_inj {a b : Rat} (ha : 0 ≤ a) (hb : 0 ≤ b) (h : ratText a = ratText b) : a = b := by
  rw [ratText_eq ha, ratText_eq hb] at h
  exact rationalText_inj h

theorem ratText_head (q : Rat) : ∃ c s, ratText q = c :: s ∧ c.isDigit = true := by
  obtain ⟨c, s, e, hc⟩ := natText_head q.num.natAbs
  unfold ratText
  split_ifs
  · exact ⟨c, s, e, hc⟩
  · exact ⟨c, _, by rw [e]; rfl, hc⟩

/-- the size in a part -/
def sizeText (v : Rat) : List Char := if absRat v ≠ 1 then ratText (absRat v) else []

theorem sizeText_inj {v w : Rat} (h : sizeText v = sizeText w) : absRat v = absRat w := by
  unfold sizeText at h
  split_ifs at h with h1 h2 h2
  · exact ratText_inj (absRat_nonneg v) (absRat_nonneg w) h
  · obtain ⟨c, s, e, -⟩ := ratText_head (absRat v)
    rw [e] at h; simp at h
  · obtain ⟨c, s, e, -⟩ := ratText_head (absRat w)
    rw [e] at h; simp at h
  · push Not at h1 h2; rw [h1, h2]

theorem sizeText_head (v : Rat) : sizeText v = [] ∨ ∃ c s, sizeText v = c :: s ∧ c.isDigit = true := by
  unfold sizeText
  split_ifs
  · exact Or.inr (ratText_head _)
  · exact Or.inl rfl

theorem numText_inj {k : Nat} {v w : Rat} (hv : v ≠ 0) (hw : w ≠ 0) (h : numText k v = numText k w) : v = w := by
  have hn : ∀ u : Rat, numText k u = (if k > 0 ∧ u > 0 then ['+'] else if u < 0 then ['-'] else []) ++ sizeText u :=
    fun _ => rfl
  have hbad : ∀ (u : Rat) (c : Char) (s : List Char), c.isDigit = false → sizeText u ≠ c :: s := by
    intro u c s hc e
    rcases sizeText_head u with h | ⟨d, t, h, hd⟩
    · rw [h] at e; simp at e
    · rw [h] at e; simp only [List.cons.injEq] at e; rw [e.1, hc] at hd; simp at hd
  rw [hn, hn] at h
  have habs : ∀ {u : Rat}, u > 0 → absRat u = u := fun h => by rw [absRat_eq, abs_of_pos h]
  have habs' : ∀ {u : Rat}, u < 0 → absRat u = -u := fun h => by rw [absRat_eq, abs_of_neg h]
  rcases lt_or_gt_of_ne hv with h1 | h1 <;> rcases lt_or_gt_of_ne hw with h2 | h2
  · rw [if_neg (by intro h; linarith [h.2]), if_pos h1, if_neg (by intro h; linarith [h.2]), if_pos h2] at h
    have := sizeText_inj (List.append_cancel_left h)
    rw [habs' h1, habs' h2] at this; linarith
  · exfalso
    rw [if_neg (by intro h; linarith [h.2]), if_pos h1] at h
    by_cases hk : k > 0
    · rw [if_pos ⟨hk, h2⟩] at h
      simp at h
    · rw [if_neg (by intro h; exact hk h.1), if_neg (by linarith)] at h
      exact hbad _ '-' _ (by decide) h.symm
  · exfalso
    rw [if_neg (c := k > 0 ∧ w > 0) (by intro h; linarith [h.2]), if_pos h2] at h
    by_cases hk : k > 0
    · rw [if_pos ⟨hk, h1⟩] at h
      simp at h
    · rw [if_neg (by intro h; exact hk h.1), if_neg (by linarith)] at h
      exact hbad _ '-' _ (by decide) h
  · have : (if k > 0 ∧ v > 0 then ['+'] else if v < 0 then ['-'] else []) =
        (if k > 0 ∧ w > 0 then ['+'] else if w < 0 then ['-'] else ([] : List Char)) := by
      by_cases hk : k > 0
      · rw [if_pos ⟨hk, h1⟩, if_pos ⟨hk, h2⟩]
      · rw [if_neg (by intro h; exact hk h.1), if_neg (by linarith), if_neg (by intro h; exact hk h.1), if_neg (by linarith)]
    rw [this] at h
    have := sizeText_inj (List.append_cancel_left h)
    rw [habs h1, habs h2] at this; exact this

theorem numText_char {k : Nat} {v : Rat} : ∀ c ∈ numText k v, NumChar c ∨ c = '+' := by
  intro c hc
  unfold numText at hc
  rw [List.mem_append] at hc
  rcases hc with hc | hc
  · split_ifs at hc
    · right; simpa using hc
    · left; right; left; simpa using hc
    · simp at hc
  · split_ifs at hc
    · left
      rw [ratText_eq (absRat_nonneg v)] at hc
      exact rationalText_char c hc
    · simp at hc

theorem numText_not {k : Nat} {v : Rat} {c : Char} (hc : c ∈ numText k v) :
    c ≠ 'x' ∧ c ≠ 'y' ∧ c ≠ 'z' ∧ c ≠ ',' ∧ c ≠ '\n' := by
  rcases numText_char c hc with h | h
  · obtain ⟨-, h2, h3, -, h5, h6, h7, -⟩ := numChar_not h
    exact ⟨h5, h6, h7, h3, h2⟩
  · subst h; decide

/-- the parts of a row -/
def rowOf (axes : List (List Char)) (r : List Rat) (s : Rat) : List (Rat × List Char) :=
  ((r.zip axes) ++ [(s, [])]).filter (fun p => decide (p.1 ≠ 0))

theorem rowOf_cons (ax : List Char) (axes : List (List Char)) (v : Rat) (r : List Rat) (s : Rat) :
    rowOf (ax :: axes) (v :: r) s = if v ≠ 0 then (v, ax) :: rowOf axes r s else rowOf axes r s := by
  unfold rowOf
  rw [List.zip_cons_cons, List.cons_append, List.filter_cons]
  simp

theorem parts_char : ∀ (r : List Rat) (axes : List (List Char)) (s : Rat) (k : Nat), ∀ c ∈ partsText k (rowOf axes r s),
    (∃ l v, c ∈ numText l v) ∨ ∃ ax ∈ axes, c ∈ ax
  | [], axes, s, k => by
    intro c hc
    unfold rowOf at hc
    simp only [List.zip_nil_left, List.nil_append, List.filter_cons, List.filter_nil] at hc
    split_ifs at hc
    · rw [partsText, partsText, partText_num] at hc
      simp only [List.append_nil] at hc
      exact Or.inl ⟨_, _, hc⟩
    · simp [partsText] at hc
  | v :: r, [], s, k => by
    intro c hc
    unfold rowOf at hc
    simp only [List.zip_nil_right, List.nil_append, List.filter_cons, List.filter_nil] at hc
    split_ifs at hc
    · rw [partsText, partsText, partText_num] at hc
      simp only [List.append_nil] at hc
      exact Or.inl ⟨_, _, hc⟩
    · simp [partsText] at hc
  | v :: r, ax :: axes, s, k => by
    intro c hc
    rw [rowOf_cons] at hc
    split_ifs at hc with hv
    · rw [partsText, partText_num, List.mem_append, List.mem_append] at hc
      rcases hc with (hc | hc) | hc
      · exact Or.inl ⟨_, _, hc⟩
      · exact Or.inr ⟨ax, by simp, hc⟩
      · rcases parts_char r axes s (k + 1) c hc with h | ⟨a, ha, h⟩
        · exact Or.inl h
        · exact Or.inr ⟨a, by simp [ha], h⟩
    · rcases parts_char r axes s k c hc with h | ⟨a, ha, h⟩
      · exact Or.inl h
      · exact Or.inr ⟨a, by simp [ha], h⟩

/-- the text of the parts determines the row, if not all numbers are zero -/
theorem parts_inj : ∀ (axes : List Char) (k : Nat) (r r' : List Rat) (s s' : Rat), axes.Nodup →
    (∀ c ∈ axes, c = 'x' ∨ c = 'y' ∨ c = 'z') → r.length = r'.length → r.length ≤ axes.length →
    partsText k (rowOf (axes.map (fun c => [c])) r s) = partsText k (rowOf (axes.map (fun c => [c])) r' s') →
    (k = 0 → rowOf (axes.map (fun c => [c])) r s ≠ [] ∧ rowOf (axes.map (fun c => [c])) r' s' ≠ []) →
    r = r' ∧ s = s'
  | axes, k, [], [], s, s', _, _, _, _, h, hk => by
    refine ⟨rfl, ?_⟩
    have hr : ∀ s, rowOf (axes.map (fun c => [c])) [] s = if s ≠ 0 then [(s, [])] else [] := by
      intro s
      unfold rowOf
      simp only [List.zip_nil_left, List.nil_append, List.filter_cons, List.filter_nil]
      simp
    rw [hr, hr] at h hk
    have hnum : ∀ u : Rat, k > 0 → u ≠ 0 → numText k u ≠ [] := by
      intro u hk hu e
      unfold numText at e
      rcases lt_or_gt_of_ne hu with h | h
      · rw [if_neg (by intro h; linarith [h.2]), if_pos h] at e; simp at e
      · rw [if_pos ⟨hk, h⟩] at e; simp at e
    by_cases h1 : s = 0 <;> by_cases h2 : s' = 0
    · rw [h1, h2]
    · exfalso
      by_cases hk0 : k = 0
      · have := (hk hk0).1; rw [if_neg (by simpa using h1)] at this; exact this rfl
      · rw [if_neg (by simpa using h1), if_pos h2] at h
        simp only [partsText, partText_num, List.append_nil] at h
        exact hnum s' (by omega) h2 h.symm
    · exfalso
      by_cases hk0 : k = 0
      · have := (hk hk0).2; rw [if_neg (by simpa using h2)] at this; exact this rfl
      · rw [if_pos h1, if_neg (by simpa using h2)] at h
        simp only [partsText, partText_num, List.append_nil] at h
        exact hnum s (by omega) h1 h
    · rw [if_pos h1, if_pos h2] at h
      simp only [partsText, partText_num, List.append_nil] at h
      exact numText_inj h1 h2 h
  | [], k, v :: r, r', s, s', _, _, _, hl, _, _ => by simp at hl
  | ax :: axes, k, v :: r, [], s, s', _, _, hl, _, _, _ => by simp at hl
  | axes, k, [], _ :: _, s, s', _, _, hl, _, _, _ => by simp at hl
  | ax :: axes, k, v :: r, v' :: r', s, s', hn, hx, hl, hl', h, hk => by
    rw [List.map_cons, rowOf_cons, rowOf_cons] at h hk
    have hn' := (List.nodup_cons.1 hn)
    have hno : ∀ (l : Nat) (v : Rat), ∀ c ∈ numText l v, c ≠ ax := by
      intro l v c hc e
      have := numText_not hc
      rcases hx ax (by simp) with h | h | h <;> rw [e, h] at this <;> simp at this
    have hnot : ∀ (l : Nat) (r : List Rat) (s : Rat), ax ∉ partsText l (rowOf (axes.map (fun c => [c])) r s) := by
      intro l r s hm
      rcases parts_char _ _ _ _ _ hm with ⟨l', v', h⟩ | ⟨a, ha, h⟩
      · exact hno _ _ _ h rfl
      · obtain ⟨c, hc, rfl⟩ := List.mem_map.1 ha
        simp only [List.mem_cons, List.not_mem_nil, or_false] at h
        exact hn'.1 (h ▸ hc)
    have hlen : r.length = r'.length := by simpa using hl
    have hlen' : r.length ≤ axes.length := by simpa using hl'
    have hx' : ∀ c ∈ axes, c = 'x' ∨ c = 'y' ∨ c = 'z' := fun c hc => hx c (by simp [hc])
    by_cases h1 : v = 0 <;> by_cases h2 : v' = 0
    · rw [if_neg (by simpa using h1), if_neg (by simpa using h2)] at h hk
      obtain ⟨e1, e2⟩ := parts_inj axes k r r' s s' hn'.2 hx' hlen hlen' h hk
      exact ⟨by rw [h1, h2, e1], e2⟩
    · exfalso
      rw [if_neg (by simpa using h1), if_pos h2] at h
      refine hnot k r s ?_
      rw [h, partsText, partText_num]; simp
    · exfalso
      rw [if_pos h1, if_neg (by simpa using h2)] at h
      refine hnot k r' s' ?_
      rw [← h, partsText, partText_num]; simp
    · rw [if_pos h1, if_pos h2] at h
      simp only [partsText, partText_num, List.append_assoc, List.cons_append, List.nil_append] at h
      obtain ⟨e1, -, e2⟩ := span_unique (P := fun c => c ≠ ax) (hno k v) (hno k v') (by simp) (by simp) h
      obtain ⟨e3, e4⟩ := parts_inj axes (k + 1) r r' s s' hn'.2 hx' hlen hlen' e2 (by intro h; omega)
      exact ⟨by rw [numText_inj h1 h2 e1, e3], e4⟩

theorem writeOpRow_rowOf (r : List Rat) (s : Rat) :
    writeOpRow r s = if rowOf (['x', 'y', 'z'].map (fun c => [c])) r s = [] then ['0']
      else partsText 0 (rowOf (['x', 'y', 'z'].map (fun c => [c])) r s) := rfl

theorem zero_text {axes : List (List Char)} (hax : ∀ a ∈ axes, a = ['x'] ∨ a = ['y'] ∨ a = ['z']) : ∀ (r : List Rat) (s : Rat),
    rowOf axes r s ≠ [] → partsText 0 (rowOf axes r s) ≠ ['0'] := by
  intro r s hne e
  cases hr : rowOf axes r s with
  | nil => exact hne hr
  | cons p ps =>
    have hp : p ∈ rowOf axes r s := by rw [hr]; simp
    have hp0 : p.1 ≠ 0 := by
      have := (List.mem_filter.1 hp).2
      simpa using this
    rw [hr, partsText, partText_num] at e
    have hp2 : p.2 = [] ∨ p.2 ∈ axes := by
      have := (List.mem_filter.1 hp).1
      rw [List.mem_append] at this
      rcases this with h | h
      · exact Or.inr (List.of_mem_zip h).2
      · left; simp only [List.mem_cons, List.not_mem_nil, or_false] at h; rw [h]
    have hnum : numText 0 p.1 = [] ∨ numText 0 p.1 = ['0'] := by
      rw [List.append_assoc] at e
      cases hN : numText 0 p.1 with
      | nil => exact Or.inl rfl
      | cons c l =>
        rw [hN, List.cons_append, List.cons.injEq] at e
        right
        rw [e.1]
        have := (List.append_eq_nil_iff.1 e.2).1
        rw [this]
    rcases hnum with h | h
    · -- the size is 1: the text continues with the axis or another part
      rcases hp2 with h2 | h2
      · rw [h, h2] at e
        simp only [List.nil_append] at e
        cases ps with
        | nil => simp [partsText] at e
        | cons p' ps' =>
          have hp' : p'.1 ≠ 0 := by
            have : p' ∈ rowOf axes r s := by rw [hr]; simp
            have := (List.mem_filter.1 this).2
            simpa using this
          rw [partsText, partText_num] at e
          unfold numText at e
          rcases lt_or_gt_of_ne hp' with h5 | h5
          · rw [if_neg (by intro h; linarith [h.2]), if_pos h5] at e; simp at e
          · rw [if_pos ⟨by norm_num, h5⟩] at e; simp at e
      · rw [h] at e
        rcases hax _ h2 with h3 | h3 | h3 <;> rw [h3] at e <;> simp at e
    · have h3 : numText 0 p.1 = (if p.1 < 0 then ['-'] else []) ++ sizeText p.1 := by
        unfold numText sizeText; simp
      rw [h3] at h
      split_ifs at h
      · simp at h
      · rw [List.nil_append] at h
        unfold sizeText at h
        split_ifs at h
        have h5 : ratText (0 : Rat) = ['0'] := by decide +kernel
        rw [← h5] at h
        have := ratText_inj (absRat_nonneg _) le_rfl h
        rw [absRat_eq, abs_eq_zero] at this
        exact hp0 this

theorem writeOpRow_inj {r r' : List Rat} {s s' : Rat} (hl : r.length = r'.length) (h3 : r.length ≤ 3)
    (h : writeOpRow r s = writeOpRow r' s') : r = r' ∧ s = s' := by
  have hax : ∀ a ∈ (['x', 'y', 'z'].map (fun c => [c])), a = ['x'] ∨ a = ['y'] ∨ a = ['z'] := by simp
  rw [writeOpRow_rowOf, writeOpRow_rowOf] at h
  have hzero : ∀ (r : List Rat) (s : Rat), r.length ≤ 3 → rowOf (['x', 'y', 'z'].map (fun c => [c])) r s = [] →
      (∀ x ∈ r, x = 0) ∧ s = 0 := by
    intro r s hr h
    unfold rowOf at h
    rw [List.filter_eq_nil_iff] at h
    constructor
    · intro x hx
      have : x ∈ (r.zip (['x', 'y', 'z'].map (fun c => [c]))).map Prod.fst := by
        rw [List.map_fst_zip (by simpa using hr)]; exact hx
      obtain ⟨p, hp, rfl⟩ := List.mem_map.1 this
      have := h p (List.mem_append_left _ hp)
      simpa using this
    · have := h (s, []) (by simp)
      simpa using this
  by_cases h1 : rowOf (['x', 'y', 'z'].map (fun c => [c])) r s = [] <;>
    by_cases h2 : rowOf (['x', 'y', 'z'].map (fun c => [c])) r' s' = []
  · obtain ⟨a1, a2⟩ := hzero r s h3 h1
    obtain ⟨b1, b2⟩ := hzero r' s' (hl ▸ h3) h2
    refine ⟨?_, by rw [a2, b2]⟩
    rw [List.eq_replicate_of_mem a1, List.eq_replicate_of_mem b1, hl]
  · rw [if_pos h1, if_neg h2] at h
    exact absurd h.symm (zero_text hax _ _ h2)
  · rw [if_neg h1, if_pos h2] at h
    exact absurd h (zero_text hax _ _ h1)
  · rw [if_neg h1, if_neg h2] at h
    exact parts_inj ['x', 'y', 'z'] 0 r r' s s' (by decide) (by simp) hl (by simpa using h3) h (fun _ => ⟨h1, h2⟩)

theorem writeOpRow_char (r : List Rat) (s : Rat) : ',' ∉ writeOpRow r s ∧ '\n' ∉ writeOpRow r s := by
  rw [writeOpRow_rowOf]
  split_ifs
  · decide
  · constructor <;> intro hm <;> rcases parts_char _ _ _ _ _ hm with ⟨l, v, h⟩ | ⟨a, ha, h⟩
    · exact (numText_not h).2.2.2.1 rfl
    · simp only [List.map_cons, List.map_nil, List.mem_cons, List.not_mem_nil, or_false] at ha
      rcases ha with rfl | rfl | rfl <;> simp at h
    · exact (numText_not h).2.2.2.2 rfl
    · simp only [List.map_cons, List.map_nil, List.mem_cons, List.not_mem_nil, or_false] at ha
      rcases ha with rfl | rfl | rfl <;> simp at h

theorem moreText_eq (ps : List (List Rat × Rat)) :
    moreText ps = (ps.map (fun p => writeOpRow p.1 p.2)).flatMap (fun t => ',' :: t) := by
  induction ps with
  | nil => rfl
  | cons p ps ih => rw [moreText, ih]; simp

theorem fullText_more {ps : List (List Rat × Rat)} (h : ps ≠ []) : ',' :: fullText ps = moreText ps := by
  cases ps with
  | nil => exact absurd rfl h
  | cons p ps => rfl

theorem writeOp_inj {n n' : Nat} {m m' : AffineMap Rat} {A : Matrix (Fin n) (Fin n) Rat} {s : Fin n → Rat}
    {A' : Matrix (Fin n') (Fin n') Rat} {s' : Fin n' → Rat} (h : IsAff m A s) (h' : IsAff m' A' s')
    (hn : 0 < n) (hn' : 0 < n') (h3 : n ≤ 3) (e : writeOp m = writeOp m') : m = m' := by
  rw [writeOp_eq h, writeOp_eq h'] at e
  have e1 := Outcome.ok.inj e
  have hne : ∀ {k : Nat} (_ : 0 < k) (B : Matrix (Fin k) (Fin k) Rat) (t : Fin k → Rat),
      (List.ofFn (fun i => List.ofFn (B i))).zip (List.ofFn t) ≠ [] := by
    intro k hk B t h
    have := congrArg List.length h
    simp at this; omega
  have e2 : moreText ((List.ofFn (fun i => List.ofFn (A i))).zip (List.ofFn s)) =
      moreText ((List.ofFn (fun i => List.ofFn (A' i))).zip (List.ofFn s')) := by
    rw [← fullText_more (hne hn A s), ← fullText_more (hne hn' A' s'), e1]
  rw [moreText_eq, moreText_eq] at e2
  have hc : ∀ ps : List (List Rat × Rat), ∀ l ∈ ps.map (fun p => writeOpRow p.1 p.2), ',' ∉ l := by
    intro ps l hl
    obtain ⟨p, -, rfl⟩ := List.mem_map.1 hl
    exact (writeOpRow_char _ _).1
  have e3 := begins_inj (hc _) (hc _) e2
  have hz : ∀ {k : Nat} (B : Matrix (Fin k) (Fin k) Rat) (t : Fin k → Rat),
      (List.ofFn (fun i => List.ofFn (B i))).zip (List.ofFn t) = List.ofFn (fun i => (List.ofFn (B i), t i)) := by
    intro k B t
    apply List.ext_getElem <;> simp
  rw [hz, hz, List.map_ofFn, List.map_ofFn] at e3
  obtain ⟨rfl, e4⟩ := ofFn_inj' e3
  have key : ∀ i, A i = A' i ∧ s i = s' i := by
    intro i
    obtain ⟨h1, h2⟩ := writeOpRow_inj (by simp) (by simpa using h3) (e4 i)
    exact ⟨List.ofFn_injective h1, h2⟩
  have hA : A = A' := by funext i j; exact congrFun (key i).1 j
  have hs : s = s' := funext fun i => (key i).2
  subst hA hs
  have e5 := h.1.eq_of h'.1
  have e6 := h.2.eq_of h'.2
  cases m with | mk l v => cases m' with | mk l' v' =>
  cases v; cases v'
  simp only at e5 e6
  rw [e5, e6]

theorem writeOp_newline {n : Nat} {m : AffineMap Rat} {A : Matrix (Fin n) (Fin n) Rat} {s : Fin n → Rat}
    (h : IsAff m A s) {t : List Char} (ht : writeOp m = .ok t) : '\n' ∉ t := by
  rw [writeOp_eq h] at ht
  have := Outcome.ok.inj ht
  rw [← this]
  cases hP : (List.ofFn (fun i => List.ofFn (A i))).zip (List.ofFn s) with
  | nil => simp [fullText]
  | cons p ps =>
    rw [← hP]
    intro hm
    have h2 : '\n' ∈ moreText ((List.ofFn (fun i => List.ofFn (A i))).zip (List.ofFn s)) := by
      rw [← fullText_more (by rw [hP]; simp)]; simp [hm]
    rw [moreText_eq] at h2
    obtain ⟨l, hl, h3⟩ := List.mem_flatMap.1 h2
    obtain ⟨p, -, rfl⟩ := List.mem_map.1 hl
    rcases List.mem_cons.1 h3 with h4 | h4
    · exact absurd h4 (by decide)
    · exact (writeOpRow_char _ _).2 h4

end ParseOperator
end Systre
