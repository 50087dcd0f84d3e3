import Verif.Spec.PeriodicGraph
import Mathlib.Tactic.Linarith
import Mathlib.Data.List.Dedup
import Mathlib.Tactic.Abel
import Mathlib.Algebra.Group.Pi.Basic
import Mathlib.Algebra.Group.Equiv.Basic

/-! # Edges, canonical forms, construction and accessors of graphs -/

set_option linter.unusedSectionVars false

namespace Systre

/-- What the proofs need about `LabelVector` implementations. -/
class LawfulLabelVector (T : Type) [LabelVector T] : Prop where
  isNegative_iff : ∀ a : T, LabelVector.isNegative a = true ↔ a < 0
  neg_neg_iff : ∀ a : T, -a < 0 ↔ 0 < a
  add_lt_add : ∀ a b c : T, a < b → a + c < b + c
  dim_pos : 0 < LabelVector.dim T
  toVec_length : ∀ a : T, (LabelVector.toVec a).length = LabelVector.dim T
  toVec_zero : ∀ k, rent (LabelVector.toVec (0 : T)) k = 0
  toVec_add : ∀ (a b : T) k, rent (LabelVector.toVec (a + b)) k =
    rent (LabelVector.toVec a) k + rent (LabelVector.toVec b) k
  toVec_neg : ∀ (a : T) k, rent (LabelVector.toVec (-a)) k = - rent (LabelVector.toVec a) k
  toVec_inj : ∀ a b : T, LabelVector.toVec a = LabelVector.toVec b → a = b
  toVec_surj : ∀ l : List Int, l.length = LabelVector.dim T → ∃ a : T, LabelVector.toVec a = l
  fromVec_ok : ∀ (l : List Int) (a : T), LabelVector.fromVec l = .ok a ↔ LabelVector.toVec a = l

theorem V2.lt_iff (a b : V2) : a < b ↔ a.x < b.x ∨ (a.x = b.x ∧ a.y < b.y) := by
  change toLex (a.x, a.y) < toLex (b.x, b.y) ↔ _
  rw [Prod.Lex.toLex_lt_toLex]

theorem V3.lt_iff (a b : V3) :
    a < b ↔ a.x < b.x ∨ (a.x = b.x ∧ (a.y < b.y ∨ (a.y = b.y ∧ a.z < b.z))) := by
  change toLex (a.x, toLex (a.y, a.z)) < toLex (b.x, toLex (b.y, b.z)) ↔ _
  rw [Prod.Lex.toLex_lt_toLex]
  simp only [Prod.Lex.toLex_lt_toLex]

instance : LawfulLabelVector V2 where
  isNegative_iff a := by
    rw [V2.lt_iff]
    simp [LabelVector.isNegative]
  neg_neg_iff a := by rw [V2.lt_iff, V2.lt_iff]; simp; omega
  add_lt_add a b c h := by rw [V2.lt_iff] at h ⊢; simp; omega
  dim_pos := by decide
  toVec_length a := rfl
  toVec_zero k := by
    match k with
    | 0 => rfl
    | 1 => rfl
    | k + 2 => rfl
  toVec_add a b k := by
    match k with
    | 0 => rfl
    | 1 => rfl
    | k + 2 => rfl
  toVec_neg a k := by
    match k with
    | 0 => rfl
    | 1 => rfl
    | k + 2 => rfl
  toVec_inj a b h := by
    simp only [LabelVector.toVec, List.cons.injEq] at h
    exact V2.ext h.1 h.2.1
  toVec_surj l h := by
    match l, h with
    | [x, y], _ => exact ⟨⟨x, y⟩, rfl⟩
  fromVec_ok l a := by
    cases a
    match l with
    | [] => simp [LabelVector.fromVec, LabelVector.toVec]
    | [x] => simp [LabelVector.fromVec, LabelVector.toVec]
    | [x, y] => simp [LabelVector.fromVec, LabelVector.toVec, eq_comm]
    | x :: y :: z :: l => simp [LabelVector.fromVec, LabelVector.toVec]

instance : LawfulLabelVector V3 where
  isNegative_iff a := by
    rw [V3.lt_iff]
    simp [LabelVector.isNegative]
    tauto
  neg_neg_iff a := by rw [V3.lt_iff, V3.lt_iff]; simp; omega
  add_lt_add a b c h := by rw [V3.lt_iff] at h ⊢; simp; omega
  dim_pos := by decide
  toVec_length a := rfl
  toVec_zero k := by
    match k with
    | 0 => rfl
    | 1 => rfl
    | 2 => rfl
    | k + 3 => rfl
  toVec_add a b k := by
    match k with
    | 0 => rfl
    | 1 => rfl
    | 2 => rfl
    | k + 3 => rfl
  toVec_neg a k := by
    match k with
    | 0 => rfl
    | 1 => rfl
    | 2 => rfl
    | k + 3 => rfl
  toVec_inj a b h := by
    simp only [LabelVector.toVec, List.cons.injEq] at h
    exact V3.ext h.1 h.2.1 h.2.2.1
  toVec_surj l h := by
    match l, h with
    | [x, y, z], _ => exact ⟨⟨x, y, z⟩, rfl⟩
  fromVec_ok l a := by
    cases a
    match l with
    | [] => simp [LabelVector.fromVec, LabelVector.toVec]
    | [x] => simp [LabelVector.fromVec, LabelVector.toVec]
    | [x, y] => simp [LabelVector.fromVec, LabelVector.toVec]
    | [x, y, z] => simp [LabelVector.fromVec, LabelVector.toVec, eq_comm]
    | x :: y :: z :: w :: l => simp [LabelVector.fromVec, LabelVector.toVec]

section
variable {T : Type} [LabelVector T]

@[simp] theorem Edge.neg_head (e : Edge T) : e.neg.head = e.tail := rfl
@[simp] theorem Edge.neg_tail (e : Edge T) : e.neg.tail = e.head := rfl
@[simp] theorem Edge.neg_shift (e : Edge T) : e.neg.shift = -e.shift := rfl
@[simp] theorem Edge.neg_neg (e : Edge T) : e.neg.neg = e := by
  ext <;> simp [Edge.neg]

theorem canonical_or (e : Edge T) : e.canonical = e ∨ e.canonical = e.neg := by
  unfold Edge.canonical; split <;> simp

variable [LawfulLabelVector T]

theorem canonical_neg (e : Edge T) : e.neg.canonical = e.canonical := by
  unfold Edge.canonical
  simp only [Edge.neg_head, Edge.neg_tail, Edge.neg_shift, LawfulLabelVector.isNegative_iff,
    LawfulLabelVector.neg_neg_iff, Edge.neg_neg]
  rcases lt_trichotomy e.head e.tail with h | h | h
  · rw [if_pos (Or.inl h), if_neg (by omega)]
  · rcases lt_trichotomy e.shift 0 with h2 | h2 | h2
    · rw [if_neg, if_pos (Or.inr ⟨h.symm, h2⟩)]
      rintro (h3 | ⟨-, h3⟩)
      · omega
      · exact lt_asymm h2 h3
    · rw [if_neg, if_neg]
      · ext <;> simp [h, h2]
      · rintro (h3 | ⟨-, h3⟩)
        · omega
        · rw [h2] at h3; exact lt_irrefl _ h3
      · rintro (h3 | ⟨-, h3⟩)
        · omega
        · rw [h2] at h3; exact lt_irrefl _ h3
    · rw [if_pos (Or.inr ⟨h, h2⟩), if_neg]
      rintro (h3 | ⟨-, h3⟩)
      · omega
      · exact lt_asymm h2 h3
  · rw [if_neg (by omega), if_pos (Or.inl h)]

theorem canonical_idem (e : Edge T) : e.canonical.canonical = e.canonical := by
  rcases canonical_or e with h | h
  · rw [h, h]
  · rw [h, canonical_neg, h]

theorem canonical_eq_iff (e f : Edge T) : e.canonical = f.canonical ↔ e = f ∨ e = f.neg := by
  constructor
  · intro h
    rcases canonical_or e with h1 | h1 <;> rcases canonical_or f with h2 | h2 <;> rw [h1, h2] at h
    · exact Or.inl h
    · exact Or.inr h
    · right; rw [← h]; simp
    · left; have := congrArg Edge.neg h; simpa using this
  · rintro (h | h)
    · rw [h]
    · rw [h, canonical_neg]

/-- `e` or its reverse is an edge of `g`. -/
def Graph.Dir (g : Graph T) (e : Edge T) : Prop := IsDirected g.edges e

/-- What `Graph::new` guarantees. -/
structure Graph.WF (g : Graph T) : Prop where
  canon : ∀ e ∈ g.edges, e.canonical = e
  sorted : g.edges.Pairwise (· < ·)

theorem mem_new (raw : List (Edge T)) (e : Edge T) : e ∈ (Graph.new raw).edges ↔ ∃ f ∈ raw, f.canonical = e := by
  simp [Graph.new, List.mem_insertionSort]

theorem sorted_new {α : Type} [LinearOrder α] (l : List α) (h : l.Nodup) :
    (l.insertionSort (· ≤ ·)).Pairwise (· < ·) := by
  have h1 : (l.insertionSort (· ≤ ·)).Pairwise (· ≤ ·) := List.pairwise_insertionSort _ _
  have h2 : (l.insertionSort (· ≤ ·)).Nodup := (List.perm_insertionSort _ _).nodup_iff.2 h
  exact (h1.and h2).imp (fun h => lt_of_le_of_ne h.1 h.2)

theorem wf_new (raw : List (Edge T)) : (Graph.new raw).WF := by
  refine ⟨fun e he => ?_, sorted_new _ (List.nodup_dedup _)⟩
  obtain ⟨f, -, h⟩ := (mem_new raw e).1 he
  rw [← h, canonical_idem]

theorem sorted_ext {α : Type} [LinearOrder α] {l l' : List α} (h : l.Pairwise (· < ·))
    (h' : l'.Pairwise (· < ·)) (hm : ∀ x, x ∈ l ↔ x ∈ l') : l = l' := by
  have hp : l.Perm l' := (List.perm_ext_iff_of_nodup (h.imp (fun h => h.ne)) (h'.imp (fun h => h.ne))).2 hm
  exact hp.eq_of_pairwise (fun a b _ _ h1 h2 => (lt_asymm h1 h2).elim) h h'

theorem isDirected_neg {raw : List (Edge T)} {e : Edge T} : IsDirected raw e.neg ↔ IsDirected raw e := by
  have h : (⟨e.neg.tail, e.neg.head, -e.neg.shift⟩ : Edge T) = e := by ext <;> simp
  unfold IsDirected
  rw [h]
  exact or_comm

theorem isDirected_iff (raw : List (Edge T)) (e : Edge T) : IsDirected raw e ↔ e ∈ raw ∨ e.neg ∈ raw := Iff.rfl

theorem isDirected_new (raw : List (Edge T)) (e : Edge T) :
    IsDirected (Graph.new raw).edges e ↔ IsDirected raw e := by
  rw [isDirected_iff, isDirected_iff, mem_new, mem_new]
  constructor
  · rintro (⟨f, hf, h⟩ | ⟨f, hf, h⟩) <;> rcases canonical_or f with h2 | h2 <;> rw [h2] at h
    · left; rw [← h]; exact hf
    · right; rw [← h, Edge.neg_neg]; exact hf
    · right; rw [← h]; exact hf
    · left; have := congrArg Edge.neg h; simp only [Edge.neg_neg] at this; rw [← this]; exact hf
  · intro h
    have : ∃ f ∈ raw, f.canonical = e.canonical := by
      rcases h with h | h
      · exact ⟨e, h, rfl⟩
      · exact ⟨e.neg, h, canonical_neg e⟩
    obtain ⟨f, hf, h2⟩ := this
    rcases canonical_or e with h3 | h3
    · left; exact ⟨f, hf, by rw [h2, h3]⟩
    · right; exact ⟨f, hf, by rw [h2, h3]⟩

theorem adj_new (raw : List (Edge T)) (a b : Nat × T) : Adj (Graph.new raw).edges a b ↔ Adj raw a b := by
  simp only [Adj, isDirected_new]

theorem isVertex_iff (raw : List (Edge T)) (v : Nat) : IsVertex raw v ↔ ∃ e, IsDirected raw e ∧ e.head = v := by
  constructor
  · rintro ⟨e, he, h | h⟩
    · exact ⟨e, Or.inl he, h.symm⟩
    · refine ⟨e.neg, Or.inr ?_, h.symm⟩
      show e.neg.neg ∈ raw
      rwa [Edge.neg_neg]
  · rintro ⟨e, he | he, h⟩
    · exact ⟨e, he, Or.inl h.symm⟩
    · exact ⟨_, he, Or.inr h.symm⟩

theorem isVertex_new (raw : List (Edge T)) (v : Nat) : IsVertex (Graph.new raw).edges v ↔ IsVertex raw v := by
  simp only [isVertex_iff, isDirected_new]

theorem Graph.mem_vertices (g : Graph T) (v : Nat) : v ∈ g.vertices ↔ IsVertex g.edges v := by
  simp only [Graph.vertices, List.mem_insertionSort, List.mem_dedup, List.mem_flatMap, List.mem_cons,
    List.not_mem_nil, or_false, IsVertex]

theorem Graph.vertices_sorted (g : Graph T) : g.vertices.Pairwise (· < ·) := sorted_new _ (List.nodup_dedup _)

theorem Graph.vertices_nodup (g : Graph T) : g.vertices.Nodup := g.vertices_sorted.imp (fun h => h.ne)

/-! ### the incidence map -/

theorem lookup_map_key {α β : Type} [BEq α] [LawfulBEq α] (l : List (α × β)) (f : α → β → β) (k : α) :
    (l.map (fun p => (p.1, f p.1 p.2))).lookup k = (l.lookup k).map (f k) := by
  induction l with
  | nil => rfl
  | cons p l ih =>
    obtain ⟨a, b⟩ := p
    simp only [List.map_cons, List.lookup_cons]
    by_cases h : k = a
    · subst h; simp
    · have : (k == a) = false := by simpa using h
      simp [this, ih]

theorem lookup_append' {α β : Type} [BEq α] (l l' : List (α × β)) (k : α) :
    (l ++ l').lookup k = (l.lookup k).or (l'.lookup k) := by
  induction l with
  | nil => simp
  | cons p l ih =>
    obtain ⟨a, b⟩ := p
    simp only [List.cons_append, List.lookup_cons]
    cases h : k == a <;> simp [ih]

theorem pushAt_lookup (m : List (Nat × List (Edge T))) (e : Edge T) (v : Nat) :
    (Graph.pushAt m e).lookup v =
      if v = e.head then some (((m.lookup v).getD []) ++ [e]) else m.lookup v := by
  unfold Graph.pushAt
  have hm : ∀ m : List (Nat × List (Edge T)),
      (m.map (fun kl => if kl.1 = e.head then (kl.1, kl.2 ++ [e]) else kl)) =
      m.map (fun p => (p.1, (fun k l => if k = e.head then l ++ [e] else l) p.1 p.2)) := by
    intro m
    apply List.map_congr_left
    rintro ⟨k, l⟩ -
    by_cases h : k = e.head <;> simp [h]
  split
  · rename_i l hl
    rw [hm, lookup_map_key m (fun k l => if k = e.head then l ++ [e] else l) v]
    by_cases h : v = e.head
    · subst h; simp [hl]
    · simp [h]
  · rename_i hl
    rw [lookup_append']
    by_cases h : v = e.head
    · subst h; simp [hl]
    · have : (v == e.head) = false := by simpa using h
      simp [h, List.lookup_cons, this]

theorem foldl_pushAt (es : List (Edge T)) : ∀ (m : List (Nat × List (Edge T))) (v : Nat),
    (es.foldl Graph.pushAt m).lookup v =
      if (es.filter (fun e => e.head = v)) = [] then m.lookup v
      else some ((m.lookup v).getD [] ++ es.filter (fun e => e.head = v)) := by
  induction es with
  | nil => intro m v; simp
  | cons e es ih =>
    intro m v
    rw [List.foldl_cons, ih, pushAt_lookup]
    by_cases h : v = e.head
    · subst h
      by_cases h2 : es.filter (fun f => f.head = e.head) = []
      · simp [h2]
      · simp [h2]
    · have h' : ¬ e.head = v := fun h2 => h h2.symm
      simp [h, h']

/-- The directed edges leaving `v`, in the order in which the code lists them. -/
def Graph.inc (g : Graph T) (v : Nat) : List (Edge T) :=
  (g.edges.flatMap (fun e => [e, e.neg])).filter (fun e => e.head = v)

theorem Graph.mem_inc (g : Graph T) (v : Nat) (e : Edge T) : e ∈ g.inc v ↔ IsDirected g.edges e ∧ e.head = v := by
  unfold Graph.inc
  rw [List.mem_filter, isDirected_iff]
  simp only [List.mem_flatMap, List.mem_cons, List.not_mem_nil, or_false, decide_eq_true_eq]
  constructor
  · rintro ⟨⟨f, hf, h | h⟩, h2⟩
    · exact ⟨Or.inl (h ▸ hf), h2⟩
    · refine ⟨Or.inr ?_, h2⟩
      rw [h, Edge.neg_neg]; exact hf
  · rintro ⟨h | h, h2⟩
    · exact ⟨⟨e, h, Or.inl rfl⟩, h2⟩
    · exact ⟨⟨e.neg, h, Or.inr (by simp)⟩, h2⟩

theorem Graph.incidences_eq (g : Graph T) (v : Nat) :
    g.incidences v = if v ∈ g.vertices then .ok (g.inc v) else .panic := by
  have hv : v ∈ g.vertices ↔ g.inc v ≠ [] := by
    rw [g.mem_vertices, isVertex_iff, ne_eq, List.eq_nil_iff_forall_not_mem, not_forall]
    simp only [not_not, g.mem_inc]
  unfold Graph.incidences Graph.incidenceMap
  rw [foldl_pushAt]
  by_cases h : g.inc v = []
  · have hv' : v ∉ g.vertices := by rw [hv]; simpa using h
    rw [if_neg hv']
    unfold Graph.inc at h
    rw [if_pos h]
    rfl
  · have hv' : v ∈ g.vertices := hv.2 h
    rw [if_pos hv']
    unfold Graph.inc at h ⊢
    rw [if_neg h]
    rfl

theorem Graph.incidences_ok (g : Graph T) {v : Nat} (h : v ∈ g.vertices) : g.incidences v = .ok (g.inc v) := by
  rw [g.incidences_eq, if_pos h]

theorem Graph.tail_mem (g : Graph T) {e : Edge T} (h : IsDirected g.edges e) : e.tail ∈ g.vertices := by
  rw [g.mem_vertices, isVertex_iff]
  exact ⟨e.neg, isDirected_neg.2 h, rfl⟩

theorem Graph.head_mem (g : Graph T) {e : Edge T} (h : IsDirected g.edges e) : e.head ∈ g.vertices := by
  rw [g.mem_vertices, isVertex_iff]
  exact ⟨e, h, rfl⟩

theorem Graph.canon_mem {g : Graph T} (hg : g.WF) {e : Edge T} (h : IsDirected g.edges e) :
    e.canonical ∈ g.edges := by
  rcases (isDirected_iff _ _).1 h with h | h
  · rw [hg.canon e h]; exact h
  · rw [← canonical_neg, hg.canon _ h]; exact h

end

end Systre
