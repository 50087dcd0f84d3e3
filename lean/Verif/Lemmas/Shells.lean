import Verif.Lemmas.GraphBasic
import Mathlib.Data.Set.Card

/-! # Coordination sequences: shells of the infinite graph -/

set_option linter.unusedSectionVars false

namespace Systre
section
variable {T : Type} [LabelVector T] [LawfulLabelVector T]

theorem Adj.symm {raw : List (Edge T)} {a b : Nat × T} (h : Adj raw a b) : Adj raw b a := by
  obtain ⟨e, he, h1, h2, h3⟩ := h
  exact ⟨e.neg, isDirected_neg.2 he, h2, h1, by rw [← h3]; simp⟩

theorem adj_iff_inc (g : Graph T) (v : Nat) (s : T) (b : Nat × T) :
    Adj g.edges (v, s) b ↔ ∃ e ∈ g.inc v, b = (e.tail, e.shift + s) := by
  constructor
  · rintro ⟨e, he, h1, h2, h3⟩
    refine ⟨e, (g.mem_inc v e).2 ⟨he, h1⟩, ?_⟩
    ext
    · exact h2.symm
    · rw [← h3, add_comm]
  · rintro ⟨e, he, h⟩
    have := (g.mem_inc v e).1 he
    refine ⟨e, this.1, this.2, by rw [h], by rw [h, add_comm]⟩

theorem Walk.uncons {raw : List (Edge T)} {n : Nat} {a c : Nat × T} (h : Walk raw (n + 1) a c) :
    ∃ b, Walk raw n a b ∧ Adj raw b c := by
  cases h with
  | step h1 h2 => exact ⟨_, h1, h2⟩

theorem Walk.zero_eq {raw : List (Edge T)} {a c : Nat × T} (h : Walk raw 0 a c) : c = a := by
  cases h; rfl

theorem atDistance_unique {raw : List (Edge T)} {m n : Nat} {a b : Nat × T} (h : AtDistance raw m a b)
    (h' : AtDistance raw n a b) : m = n := by
  rcases lt_trichotomy m n with h1 | h1 | h1
  · exact (h'.2 m h1 h.1).elim
  · exact h1
  · exact (h.2 n h1 h'.1).elim

theorem exists_atDistance {raw : List (Edge T)} {n : Nat} {a b : Nat × T} (h : Walk raw n a b) :
    ∃ m, m ≤ n ∧ AtDistance raw m a b := by
  classical
  have hex : ∃ m, Walk raw m a b := ⟨n, h⟩
  exact ⟨Nat.find hex, Nat.find_min' hex h, Nat.find_spec hex, fun m hm => Nat.find_min hex hm⟩

/-- The neighbours of the sphere of radius `k` that are not in the two last spheres form the next
sphere. -/
theorem sphere_succ {raw : List (Edge T)} {a : Nat × T} (k : Nat) (w : Nat × T) :
    AtDistance raw (k + 1) a w ↔
      (∃ x, AtDistance raw k a x ∧ Adj raw x w) ∧ (∀ j, j + 1 = k → ¬ AtDistance raw j a w) ∧
        ¬ AtDistance raw k a w := by
  constructor
  · intro h
    refine ⟨?_, fun j hj h2 => ?_, fun h2 => ?_⟩
    · obtain ⟨x, h1, h2⟩ := h.1.uncons
      exact ⟨x, ⟨h1, fun m hm h3 => h.2 (m + 1) (by omega) (Walk.step h3 h2)⟩, h2⟩
    · have := atDistance_unique h h2; omega
    · have := atDistance_unique h h2; omega
  · rintro ⟨⟨x, h1, h2⟩, h3, h4⟩
    refine ⟨Walk.step h1.1 h2, fun m hm h5 => ?_⟩
    obtain ⟨m', hm', h6⟩ := exists_atDistance h5
    rcases Nat.lt_or_ge (m' + 1) k with h7 | h7
    · exact h1.2 (m' + 1) h7 (Walk.step h6.1 h2.symm)
    · rcases Nat.lt_or_ge m' k with h8 | h8
      · exact h3 m' (by omega) h6
      · have : m' = k := by omega
        exact h4 (this ▸ h6)

theorem shellInner_mem (last this : List (Nat × T)) (s : T) (x : Nat × T) : ∀ (es : List (Edge T))
    (nxt : List (Nat × T)), x ∈ shellInner last this s es nxt ↔
      x ∈ nxt ∨ ((∃ e ∈ es, x = (e.tail, e.shift + s)) ∧ x ∉ last ∧ x ∉ this) := by
  intro es
  induction es with
  | nil => intro nxt; simp [shellInner]
  | cons e es ih =>
    intro nxt
    rw [shellInner]
    by_cases h : (e.tail, e.shift + s) ∉ last ∧ (e.tail, e.shift + s) ∉ this
    · rw [if_pos h, ih]
      have : (x ∈ if (e.tail, e.shift + s) ∈ nxt then nxt else nxt ++ [(e.tail, e.shift + s)]) ↔
          x ∈ nxt ∨ x = (e.tail, e.shift + s) := by
        split
        · rename_i h2
          constructor
          · exact Or.inl
          · rintro (h3 | h3)
            · exact h3
            · rw [h3]; exact h2
        · simp
      rw [this]
      constructor
      · rintro ((h1 | h1) | ⟨⟨e', he', h1⟩, h2⟩)
        · exact Or.inl h1
        · exact Or.inr ⟨⟨e, by simp, h1⟩, by rw [h1]; exact h⟩
        · exact Or.inr ⟨⟨e', by simp [he'], h1⟩, h2⟩
      · rintro (h1 | ⟨⟨e', he', h1⟩, h2⟩)
        · exact Or.inl (Or.inl h1)
        · rcases List.mem_cons.1 he' with h3 | h3
          · exact Or.inl (Or.inr (h3 ▸ h1))
          · exact Or.inr ⟨⟨e', h3, h1⟩, h2⟩
    · rw [if_neg h, ih]
      constructor
      · rintro (h1 | ⟨⟨e', he', h1⟩, h2⟩)
        · exact Or.inl h1
        · exact Or.inr ⟨⟨e', by simp [he'], h1⟩, h2⟩
      · rintro (h1 | ⟨⟨e', he', h1⟩, h2⟩)
        · exact Or.inl h1
        · rcases List.mem_cons.1 he' with h3 | h3
          · exfalso; apply h; rw [h3] at h1; rw [← h1]; exact h2
          · exact Or.inr ⟨⟨e', h3, h1⟩, h2⟩

theorem shellInner_nodup (last this : List (Nat × T)) (s : T) : ∀ (es : List (Edge T))
    (nxt : List (Nat × T)), nxt.Nodup → (shellInner last this s es nxt).Nodup := by
  intro es
  induction es with
  | nil => intro nxt h; exact h
  | cons e es ih =>
    intro nxt h
    rw [shellInner]
    split
    · apply ih
      split
      · exact h
      · rename_i h2
        rw [List.nodup_append]
        refine ⟨h, by simp, ?_⟩
        intro a ha b hb hab
        rw [List.mem_singleton] at hb
        exact h2 (hb ▸ hab ▸ ha)
    · exact ih _ h

theorem shellOuter_ok (g : Graph T) (last this : List (Nat × T)) : ∀ (todo nxt : List (Nat × T)),
    (∀ p ∈ todo, p.1 ∈ g.vertices) → nxt.Nodup →
    ∃ r, shellOuter g last this todo nxt = .ok r ∧ r.Nodup ∧
      ∀ x, x ∈ r ↔ x ∈ nxt ∨ ((∃ p ∈ todo, Adj g.edges p x) ∧ x ∉ last ∧ x ∉ this) := by
  intro todo
  induction todo with
  | nil => intro nxt _ h; exact ⟨nxt, rfl, h, by simp⟩
  | cons p todo ih =>
    intro nxt hv h
    obtain ⟨v, s⟩ := p
    have hv0 : v ∈ g.vertices := hv (v, s) (by simp)
    obtain ⟨r, h1, h2, h3⟩ := ih (shellInner last this s (g.inc v) nxt) (fun p hp => hv p (by simp [hp]))
      (shellInner_nodup _ _ _ _ _ h)
    refine ⟨r, ?_, h2, fun x => ?_⟩
    · rw [shellOuter, g.incidences_ok hv0]; exact h1
    · rw [h3, shellInner_mem, ← adj_iff_inc]
      simp only [List.mem_cons, exists_eq_or_imp]
      tauto

/-- The state after `k` steps. -/
structure ShellInv (g : Graph T) (v0 : Nat) (k : Nat) (s : CoordSeq T) : Prop where
  nodup : s.this.Nodup
  this : ∀ x, x ∈ s.this ↔ AtDistance g.edges k (v0, 0) x
  last : ∀ x, x ∈ s.last ↔ ∃ j, j + 1 = k ∧ AtDistance g.edges j (v0, 0) x

theorem shell_vertex {g : Graph T} {v0 : Nat} (hv : v0 ∈ g.vertices) {k : Nat} {x : Nat × T}
    (h : Walk g.edges k (v0, 0) x) : x.1 ∈ g.vertices := by
  cases h with
  | here => exact hv
  | step _ h2 =>
    obtain ⟨e, he, -, h3, -⟩ := h2
    rw [← h3]; exact g.tail_mem he

theorem shell_next {g : Graph T} {v0 : Nat} (hv : v0 ∈ g.vertices) {k : Nat} {s : CoordSeq T}
    (h : ShellInv g v0 k s) : ∃ s', s.next g = .ok (s'.this.length, s') ∧ ShellInv g v0 (k + 1) s' := by
  obtain ⟨r, h1, h2, h3⟩ := shellOuter_ok g s.last s.this s.this []
    (fun p hp => shell_vertex hv ((h.this p).1 hp).1) List.nodup_nil
  refine ⟨⟨s.this, r⟩, ?_, h2, fun x => ?_, fun x => ?_⟩
  · unfold CoordSeq.next; rw [h1]; rfl
  · simp only [h3, List.not_mem_nil, false_or, h.this, h.last]
    rw [sphere_succ]
    simp only [not_exists, not_and]
  · simp only [h.this]
    constructor
    · intro hx; exact ⟨k, rfl, hx⟩
    · rintro ⟨j, hj, hx⟩
      have : j = k := by omega
      exact this ▸ hx

theorem shell_iterate {g : Graph T} {v0 : Nat} (hv : v0 ∈ g.vertices) : ∀ (n k : Nat) (s : CoordSeq T),
    ShellInv g v0 k s → ∃ s', CoordSeq.iterate g n s = .ok s' ∧ ShellInv g v0 (k + n) s' := by
  intro n
  induction n with
  | zero => intro k s h; exact ⟨s, rfl, h⟩
  | succ n ih =>
    intro k s h
    obtain ⟨s1, h1, h2⟩ := shell_next hv h
    obtain ⟨s2, h3, h4⟩ := ih (k + 1) s1 h2
    refine ⟨s2, ?_, by rw [show k + (n + 1) = k + 1 + n by omega]; exact h4⟩
    rw [CoordSeq.iterate, h1]; exact h3

theorem shell_init (g : Graph T) (v0 : Nat) : ShellInv g v0 0 (CoordSeq.new v0) := by
  refine ⟨by simp [CoordSeq.new], fun x => ?_, fun x => ?_⟩
  · simp only [CoordSeq.new, List.mem_singleton]
    constructor
    · intro h; rw [h]; exact ⟨Walk.here _, by simp⟩
    · intro h; exact h.1.zero_eq
  · simp [CoordSeq.new]

theorem coordinationItem_ok (g : Graph T) {v0 : Nat} (hv : v0 ∈ g.vertices) (k : Nat) :
    ∃ l : List (Nat × T), g.coordinationItem v0 k = .ok l.length ∧ l.Nodup ∧
      ∀ x, x ∈ l ↔ AtDistance g.edges (k + 1) (v0, 0) x := by
  obtain ⟨s, h1, h2⟩ := shell_iterate hv k 0 _ (shell_init g v0)
  obtain ⟨s', h3, h4⟩ := shell_next hv h2
  refine ⟨s'.this, ?_, h4.nodup, fun x => ?_⟩
  · unfold Graph.coordinationItem; rw [h1, Outcome.ok_bind, h3]; rfl
  · rw [h4.this, Nat.zero_add]

theorem coordinationItem_panic (g : Graph T) {v0 : Nat} (hv : v0 ∉ g.vertices) (k : Nat) :
    g.coordinationItem v0 k = .panic := by
  have h : (CoordSeq.new v0 : CoordSeq T).next g = .panic := by
    unfold CoordSeq.next CoordSeq.new
    simp only [shellOuter]
    rw [g.incidences_eq, if_neg hv]; rfl
  unfold Graph.coordinationItem
  cases k with
  | zero => simp [CoordSeq.iterate, h]
  | succ k => simp [CoordSeq.iterate, h]

theorem walk_new (raw : List (Edge T)) (n : Nat) (a b : Nat × T) :
    Walk (Graph.new raw).edges n a b ↔ Walk raw n a b := by
  constructor
  · intro h
    induction h with
    | here a => exact Walk.here a
    | step _ h2 ih => exact Walk.step ih ((adj_new _ _ _).1 h2)
  · intro h
    induction h with
    | here a => exact Walk.here a
    | step _ h2 ih => exact Walk.step ih ((adj_new _ _ _).2 h2)

theorem atDistance_new (raw : List (Edge T)) (n : Nat) (a b : Nat × T) :
    AtDistance (Graph.new raw).edges n a b ↔ AtDistance raw n a b := by
  simp only [AtDistance, walk_new]

end
end Systre
