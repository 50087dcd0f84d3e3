import Verif.Spec.CgdEdit
import Verif.Lemmas.HashOrder
import Mathlib.Data.List.Forall2
import Mathlib.Data.List.Induction

/-! # Two runs of `parse_blocks` side by side -/

namespace Systre.Cgd
variable {D : Type} {lower : List Char → List Char} {f : Nat → Nat} {text keys : Bool}

theorem SameEntry.addError {e e' : Entry D} (h : SameEntry f text keys e e') (m : Message) :
    SameEntry f text keys (e.addError m) (e'.addError m) := by
  refine ⟨h.type_, h.fields, ?_, h.number, h.content, ?_⟩
  · show e'.notes ++ _ = e.notes ++ _
    rw [h.notes]
  · exact h.key.imp id fun ⟨a, b⟩ => ⟨a, List.mem_append_left _ b⟩

theorem SameEntry.addWarning {e e' : Entry D} (h : SameEntry f text keys e e') (m : Message) :
    SameEntry f text keys (e.addWarning m) (e'.addWarning m) := by
  refine ⟨h.type_, h.fields, ?_, h.number, h.content, ?_⟩
  · show e'.notes ++ _ = e.notes ++ _
    rw [h.notes]
  · exact h.key.imp id fun ⟨a, b⟩ => ⟨a, List.mem_append_left _ b⟩

/-- The states of two runs: `seen` says that a line with a keyword other than `END` has been read. -/
structure SameState (f : Nat → Nat) (text keys : Bool) (old : List (Block D)) (seen : Prop) (st st' : BlockState D) : Prop where
  blocks : ∃ bs, st'.blocks = old ++ bs ∧ List.Forall₂ (SameBlock f text keys) st.blocks bs
  type_ : st'.current.blockType = st.current.blockType
  entries : List.Forall₂ (SameEntry f text keys) st.current.entries st'.current.entries
  inBlock : st'.inBlock = st.inBlock
  start : st.inBlock = true → st'.current.linenoStart = f st.current.linenoStart
  key : st.inBlock = true ∨ seen → st'.key = st.key

theorem SameState.step {old : List (Block D)} {seen : Prop} {st st' : BlockState D} (h : SameState f text keys old seen st st')
    {e e' : Entry D} (he : SameEntry f text false e e')
    (hseen : keys = false → e.entryType = .data → e.key = none → seen) :
    SameState f text keys old (seen ∨ ∃ k, e.entryType = .data ∧ e.key = some k ∧ lower k ≠ endText)
      (blockStep lower st e) (blockStep lower st' e') := by
  obtain ⟨t, k, fs, ns, n, c⟩ := e
  obtain ⟨t', k', fs', ns', n', c'⟩ := e'
  obtain ⟨h1, h2, h3, h4, hc, h6⟩ := he
  obtain ⟨bs, ⟨bt, s0, s1, es⟩, key, ib⟩ := st
  obtain ⟨bs', ⟨bt', s0', s1', es'⟩, key', ib'⟩ := st'
  obtain ⟨⟨b1, b2, b3⟩, g1, g2, g3, g4, g5⟩ := h
  simp only at h1 h2 h3 h4 hc h6 b2 b3 g1 g2 g3 g4 g5 hseen
  replace h6 : k' = k := h6.elim id fun h => absurd h.1 Bool.false_ne_true
  subst h1 h2 h3 h4 h6 b2 g1 g3
  have mk : ∀ (t : EntryType) (k : Option (List Char)) (ns : List Note),
      SameEntry f text keys ⟨t, k, fs', ns, n, c⟩ ⟨t, k, fs', ns, f n, c'⟩ := fun t k ns =>
    ⟨rfl, rfl, rfl, rfl, hc, Or.inl rfl⟩
  have push : ∀ {x x' : Entry D}, SameEntry f text keys x x' →
      List.Forall₂ (SameEntry f text keys) (es ++ [x]) (es' ++ [x']) := fun hx =>
    List.rel_append g2 (List.Forall₂.cons hx List.Forall₂.nil)
  have hb := b3
  have key : ∀ {P : Prop}, (∀ k, t' = .data → k' = some k → lower k = endText) →
      (P ∨ seen ∨ ∃ k, t' = .data ∧ k' = some k ∧ lower k ≠ endText) → P ∨ seen := by
    rintro P h (h1 | h1 | ⟨k, h1, h2, h3⟩)
    · exact Or.inl h1
    · exact Or.inr h1
    · exact absurd (h k h1 h2) h3
  cases t' with
  | empty =>
    cases ns' with
    | nil => exact ⟨⟨b1, rfl, b3⟩, rfl, g2, rfl, g4, fun hh => g5 (key (by simp) hh)⟩
    | cons a l => exact ⟨⟨b1, rfl, b3⟩, rfl, push (mk _ _ _), rfl, g4, fun hh => g5 (key (by simp) hh)⟩
  | error => exact ⟨⟨b1, rfl, b3⟩, rfl, push (mk _ _ _), rfl, g4, fun hh => g5 (key (by simp) hh)⟩
  | begin_ => exact ⟨⟨b1, rfl, b3⟩, rfl, g2, rfl, g4, fun hh => g5 (key (by simp) hh)⟩
  | end_ => exact ⟨⟨b1, rfl, b3⟩, rfl, g2, rfl, g4, fun hh => g5 (key (by simp) hh)⟩
  | data =>
    cases k' with
    | some k =>
      by_cases hend : lower k = endText
      · have hk : ∀ {P : Prop}, (P ∨ seen ∨ ∃ k', EntryType.data = .data ∧ some k = some k' ∧ lower k' ≠ endText) → P ∨ seen :=
          key fun k' _ h2 => by cases h2; exact hend
        by_cases hf : fs'.length > 1
        · cases ib'
          · simp only [blockStep, hend, Bool.not_false, if_true, Entry.addError, Entry.addWarning, hf, Block.push]
            refine ⟨⟨_, List.append_assoc _ _ _, List.rel_append b3 (List.Forall₂.cons
              ⟨rfl, rfl, rfl, push (mk _ _ _)⟩ List.Forall₂.nil)⟩, rfl, List.Forall₂.nil, rfl, fun h => (Bool.false_ne_true h).elim,
              fun hh => g5 (hk ?_)⟩
            exact hh.imp id fun hh => hh.imp id fun ⟨k, _, h⟩ => ⟨k, rfl, h⟩
          · simp only [blockStep, hend, Bool.not_true, Bool.false_eq_true, if_false, if_true, Entry.addWarning, hf, Block.push]
            refine ⟨⟨_, List.append_assoc _ _ _, List.rel_append b3 (List.Forall₂.cons
              ⟨rfl, g4 rfl, rfl, push (mk _ _ _)⟩ List.Forall₂.nil)⟩, rfl, List.Forall₂.nil, rfl, fun h => (Bool.false_ne_true h).elim,
              fun hh => g5 (Or.inl rfl)⟩
        · cases ib'
          · simp only [blockStep, hend, Bool.not_false, if_true, Entry.addError, if_neg hf, Block.push]
            refine ⟨⟨_, List.append_assoc _ _ _, List.rel_append b3 (List.Forall₂.cons
              ⟨rfl, rfl, rfl, push (mk _ _ _)⟩ List.Forall₂.nil)⟩, rfl, List.Forall₂.nil, rfl, fun h => (Bool.false_ne_true h).elim,
              fun hh => g5 (hk ?_)⟩
            exact hh.imp id fun hh => hh.imp id fun ⟨k, _, h⟩ => ⟨k, rfl, h⟩
          · simp only [blockStep, hend, Bool.not_true, Bool.false_eq_true, if_false, if_true, if_neg hf, Block.push]
            refine ⟨⟨_, List.append_assoc _ _ _, List.rel_append b3 (List.Forall₂.cons
              ⟨rfl, g4 rfl, rfl, push (mk _ _ _)⟩ List.Forall₂.nil)⟩, rfl, List.Forall₂.nil, rfl, fun h => (Bool.false_ne_true h).elim,
              fun hh => g5 (Or.inl rfl)⟩
      · cases ib'
        · by_cases hf : fs'.length > 1
          · simp only [blockStep, if_neg hend, Bool.not_false, if_true, Entry.addWarning, hf, Block.push]
            exact ⟨⟨b1, rfl, b3⟩, rfl, push (mk _ _ _), rfl, fun _ => rfl, fun _ => rfl⟩
          · simp only [blockStep, if_neg hend, Bool.not_false, if_true, if_neg hf, Block.push]
            exact ⟨⟨b1, rfl, b3⟩, rfl, push (mk _ _ _), rfl, fun _ => rfl, fun _ => rfl⟩
        · simp only [blockStep, if_neg hend, Bool.not_true, Bool.false_eq_true, if_false, Block.push]
          exact ⟨⟨b1, rfl, b3⟩, rfl, push (mk _ _ _), rfl, g4, fun _ => rfl⟩
    | none =>
      cases ib'
      · simp only [blockStep, Bool.not_false, if_true, Entry.addError, Block.push]
        refine ⟨⟨b1, rfl, b3⟩, rfl, push ⟨rfl, rfl, rfl, rfl, hc, ?_⟩, rfl, g4, fun hh => g5 (key (by simp) (hh.imp id fun hh => hh.imp id fun ⟨k, _, h⟩ => ⟨k, rfl, h⟩))⟩
        cases hkeys : keys
        · exact Or.inl (g5 (Or.inr (hseen hkeys rfl rfl)))
        · exact Or.inr ⟨rfl, by simp⟩
      · simp only [blockStep, Bool.not_true, Bool.false_eq_true, if_false, Block.push]
        have h5 := g5 (Or.inl rfl)
        subst h5
        exact ⟨⟨b1, rfl, b3⟩, rfl, push (mk _ _ _), rfl, g4, fun hh => rfl⟩

/-- a run after the other -/
theorem SameState.fold {old : List (Block D)} {es es' : List (Entry D)} (he : List.Forall₂ (SameEntry f text false) es es') :
    ∀ {seen : Prop} {st st' : BlockState D}, SameState f text keys old seen st st' →
    (keys = false → ∀ p e q, es = p ++ e :: q → e.entryType = .data → e.key = none →
      seen ∨ ∃ c ∈ p, ∃ k, c.entryType = .data ∧ c.key = some k ∧ lower k ≠ endText) →
    ∃ seen', SameState f text keys old seen' (es.foldl (blockStep lower) st) (es'.foldl (blockStep lower) st') := by
  induction he with
  | nil => exact fun h _ => ⟨_, h⟩
  | @cons e e' es es' h1 _ ih =>
    intro seen st st' h hk
    refine ih (h.step h1 fun h2 h3 h4 => ?_) fun h2 p x q hx h3 h4 => ?_
    · rcases hk h2 [] e es rfl h3 h4 with h5 | ⟨c, hc, -⟩
      · exact h5
      · cases hc
    · rcases hk h2 (e :: p) x q (by rw [hx]; rfl) h3 h4 with h5 | ⟨c, hc, k, h5⟩
      · exact Or.inl (Or.inl h5)
      · rcases List.mem_cons.1 hc with rfl | hc
        · exact Or.inl (Or.inr ⟨k, h5⟩)
        · exact Or.inr ⟨c, hc, k, h5⟩

theorem forall₂_last {α β : Type} {R : α → β → Prop} {a : List α} {b : List β} (h : List.Forall₂ R a b) :
    (a = [] ∧ b = []) ∨ ∃ a' x b' y, a = a' ++ [x] ∧ b = b' ++ [y] ∧ List.Forall₂ R a' b' ∧ R x y := by
  induction h with
  | nil => exact Or.inl ⟨rfl, rfl⟩
  | @cons x y a b h1 h2 ih =>
    right
    rcases ih with ⟨rfl, rfl⟩ | ⟨a', x', b', y', rfl, rfl, h3, h4⟩
    · exact ⟨[], x, [], y, rfl, rfl, List.Forall₂.nil, h1⟩
    · exact ⟨x :: a', x', y :: b', y', rfl, rfl, List.Forall₂.cons h1 h3, h4⟩

/-- the results -/
theorem SameState.finish {old : List (Block D)} {seen : Prop} {st st' : BlockState D} (h : SameState f text keys old seen st st') :
    (finishBlocks st = .panic ∧ finishBlocks st' = .panic) ∨
    ∃ bs bs', finishBlocks st = .ok bs ∧ finishBlocks st' = .ok (old ++ bs') ∧ List.Forall₂ (SameBlock f text keys) bs bs' := by
  obtain ⟨b1, b2, b3⟩ := h.blocks
  unfold finishBlocks
  rw [h.inBlock]
  cases hb : st.inBlock
  · exact Or.inr ⟨_, b1, rfl, by simp [b2], b3⟩
  · rcases forall₂_last h.entries with ⟨h1, h2⟩ | ⟨a', x, b', y, h1, h2, h3, h4⟩
    · left
      simp [h1, h2]
    · right
      refine ⟨st.blocks ++ [⟨st.current.blockType, st.current.linenoStart, x.lineNumber, a' ++ [x.addError .missingEnd]⟩],
        b1 ++ [⟨st'.current.blockType, st'.current.linenoStart, y.lineNumber, b' ++ [y.addError .missingEnd]⟩], ?_, ?_, ?_⟩
      · simp [h1]
      · simp [h2, b2]
      · exact List.rel_append b3 (List.Forall₂.cons ⟨h.type_, h.start hb, h4.number,
          List.rel_append h3 (List.Forall₂.cons (h4.addError _) List.Forall₂.nil)⟩ List.Forall₂.nil)

/-! ### the lines -/

variable {F : Floats D}

theorem parseLine_same {l l' : Line} (h : SameMeaning F lower l l') (ht : text = false → l = l') {n m : Nat} (hm : f n = m) :
    SameOutcome (SameEntry f text false) (parseLine F lower n l) (parseLine F lower m l') := by
  subst hm
  cases h with
  | same l =>
    cases l with
    | ioError m => exact .ok ⟨rfl, rfl, rfl, rfl, fun _ => rfl, Or.inl rfl⟩
    | text s =>
      unfold parseLine
      simp only
      cases parseCgdLine F s with
      | panic => exact .panic
      | diverge => exact .diverge
      | ok r =>
        cases r with
        | error k t => exact .ok ⟨rfl, rfl, rfl, rfl, fun _ => rfl, Or.inl rfl⟩
        | parsed rest fields =>
          simp only [Outcome.ok_bind]
          split <;> exact .ok ⟨rfl, rfl, rfl, rfl, fun _ => rfl, Or.inl rfl⟩
  | @fields s s' he =>
    have hs : text = false → some s' = some s := fun h => by
      have := ht h
      injection this with this
      rw [this]
    unfold parseLine
    simp only
    rw [he]
    cases parseCgdLine F s' with
    | panic => exact .panic
    | diverge => exact .diverge
    | ok r =>
      cases r with
      | error k t => exact .ok ⟨rfl, rfl, rfl, rfl, hs, Or.inl rfl⟩
      | parsed rest fields =>
        simp only [Outcome.ok_bind]
        split <;> exact .ok ⟨rfl, rfl, rfl, rfl, hs, Or.inl rfl⟩
  | @case s s' r k k' fs h1 h2 h3 =>
    have hs : text = false → some s' = some s := fun h => by
      have := ht h
      injection this with this
      rw [this]
    unfold parseLine
    simp only [h1, h2, Outcome.ok_bind, h3]
    exact .ok ⟨rfl, rfl, rfl, rfl, hs, Or.inl rfl⟩

theorem parseLinesFrom_same {ls ls' : List Line} (h : List.Forall₂ (SameMeaning F lower) ls ls')
    (ht : text = false → ls = ls') : ∀ {n m : Nat}, (∀ i < ls.length, f (n + i) = m + i) →
    SameOutcome (List.Forall₂ (SameEntry f text false)) (parseLinesFrom F lower n ls) (parseLinesFrom F lower m ls') := by
  induction h with
  | nil => exact fun _ => .ok List.Forall₂.nil
  | @cons l l' ls ls' h1 h2 ih =>
    intro n m hf
    unfold parseLinesFrom
    refine (parseLine_same h1 (fun h => (List.cons.inj (ht h)).1) (hf 0 (by simp))).bind fun e e' he => ?_
    refine (ih (fun h => (List.cons.inj (ht h)).2) fun i hi => ?_).bind fun es es' hes => ?_
    · have := hf (i + 1) (by simpa using hi)
      rw [show n + 1 + i = n + (i + 1) by omega, this]
      omega
    · exact .ok (List.Forall₂.cons he hes)

theorem parseLinesFrom_append (a b : List Line) : ∀ n : Nat, parseLinesFrom F lower n (a ++ b) =
    (do
      let es ← parseLinesFrom F lower n a
      let es' ← parseLinesFrom F lower (n + a.length) b
      .ok (es ++ es')) := by
  induction a with
  | nil =>
    intro n
    simp only [List.nil_append, parseLinesFrom, Outcome.ok_bind, List.length_nil, Nat.add_zero]
    cases parseLinesFrom F lower n b <;> rfl
  | cons l a ih =>
    intro n
    simp only [List.cons_append, parseLinesFrom, ih, List.length_cons]
    rw [show n + 1 + a.length = n + (a.length + 1) by omega]
    cases parseLine F lower n l with
    | panic => rfl
    | diverge => rfl
    | ok e =>
      simp only [Outcome.ok_bind]
      cases parseLinesFrom F lower (n + 1) a with
      | panic => rfl
      | diverge => rfl
      | ok es =>
        simp only [Outcome.ok_bind]
        cases parseLinesFrom F lower (n + (a.length + 1)) b <;> rfl

theorem sameMeaning_refl (ls : List Line) : List.Forall₂ (SameMeaning F lower) ls ls := by
  induction ls with
  | nil => exact List.Forall₂.nil
  | cons l ls ih => exact List.Forall₂.cons (.same l) ih

theorem sameState_init : SameState f text keys [] True (⟨[], Block.new, none, false⟩ : BlockState D) ⟨[], Block.new, none, false⟩ :=
  ⟨⟨[], rfl, List.Forall₂.nil⟩, rfl, List.Forall₂.nil, rfl, fun h => (Bool.false_ne_true h).elim, fun _ => rfl⟩

theorem SameEntry.eq {e e' : Entry D} (h : SameEntry f false false e e') : e' = e.renumber f := by
  obtain ⟨t, k, fs, ns, n, c⟩ := e
  obtain ⟨t', k', fs', ns', n', c'⟩ := e'
  obtain ⟨h1, h2, h3, h4, h5, h6⟩ := h
  replace h5 := h5 rfl
  replace h6 := h6.elim id fun h => absurd h.1 Bool.false_ne_true
  simp only at h1 h2 h3 h4 h5 h6
  subst h1 h2 h3 h4 h5 h6
  rfl

theorem forall₂_map_eq {α β : Type} {R : α → β → Prop} {g : α → β} (h : ∀ a b, R a b → b = g a) {a : List α} {b : List β}
    (hab : List.Forall₂ R a b) : b = a.map g := by
  induction hab with
  | nil => rfl
  | cons h1 _ ih => rw [h _ _ h1, ih]; rfl

theorem SameBlock.eq {b b' : Block D} (h : SameBlock f false false b b') : b' = b.renumber f := by
  obtain ⟨t, s, e, es⟩ := b
  obtain ⟨t', s', e', es'⟩ := b'
  obtain ⟨h1, h2, h3, h4⟩ := h
  replace h4 := forall₂_map_eq (fun _ _ => SameEntry.eq) h4
  simp only at h1 h2 h3 h4
  subst h1 h2 h3 h4
  rfl

end Systre.Cgd
