import Verif.Props.Partitions
import Verif.Model.Symmetries

/-! # Partitions as they are used by other code -/

namespace Systre

open Partitions

variable {α : Type} [DecidableEq α]

/-- a partition after calls of `find`, `classes` and `unite` for exactly the pairs in `U` -/
def PRel (p : PState α) (U : List (α × α)) : Prop :=
  ∃ ops, run PState.new ops = .ok p ∧ ∀ x y, Op.unite x y ∈ ops ↔ (x, y) ∈ U

/-- the equivalence relation generated by a list of pairs -/
def GenEq (U : List (α × α)) (a b : α) : Prop := Relation.EqvGen (fun x y => (x, y) ∈ U) a b

theorem joined_iff_genEq {ops : List (Op α)} {U : List (α × α)} (h : ∀ x y, Op.unite x y ∈ ops ↔ (x, y) ∈ U) (a b : α) :
    Partitions.Joined ops a b ↔ GenEq U a b := by
  unfold Partitions.Joined GenEq
  simp only [h]

theorem run_append (p : PState α) (ops ops' : List (Op α)) {q : PState α} (h : run p ops = .ok q) :
    run p (ops ++ ops') = run q ops' := by
  induction ops generalizing p with
  | nil => simp only [run] at h; cases h; rfl
  | cons op ops ih =>
    simp only [List.cons_append, run] at h ⊢
    cases hs : step p op with
    | ok s => rw [hs] at h; exact ih s h
    | panic => rw [hs] at h; cases h
    | diverge => rw [hs] at h; cases h

theorem PRel.new : PRel (PState.new : PState α) [] := ⟨[], rfl, by simp⟩

theorem PRel.step {p q : PState α} {U : List (α × α)} (h : PRel p U) {op : Op α} (hs : step p op = .ok q)
    (V : List (α × α)) (hV : ∀ x y, op = Op.unite x y ↔ (x, y) ∈ V) : PRel q (U ++ V) := by
  obtain ⟨ops, h1, h2⟩ := h
  refine ⟨ops ++ [op], ?_, ?_⟩
  · rw [run_append _ _ _ h1]
    simp only [run, hs]
    rfl
  · intro x y
    rw [List.mem_append, List.mem_append, h2, List.mem_singleton, ← hV, eq_comm (a := op)]

theorem PRel.find {p : PState α} {U : List (α × α)} (h : PRel p U) (a : α) :
    ∃ r p', find p a = .ok (r, p') ∧ PRel p' U := by
  obtain ⟨ops, h1, h2⟩ := h
  obtain ⟨s, ρ, h3, h4, -⟩ := run_new ops
  rw [h1] at h3; cases h3
  obtain ⟨p', h5, -⟩ := h4.find_ok a
  refine ⟨_, p', h5, ?_⟩
  have := PRel.step (op := Op.find a) (q := p') ⟨ops, h1, h2⟩ (by simp only [Partitions.step, h5]; rfl) [] (by simp)
  simpa using this

theorem PRel.find2 {p : PState α} {U : List (α × α)} (h : PRel p U) (a b : α) :
    ∃ r1 r2 p1 p2, Partitions.find p a = .ok (r1, p1) ∧ Partitions.find p1 b = .ok (r2, p2) ∧ PRel p2 U ∧
      (r1 = r2 ↔ GenEq U a b) := by
  obtain ⟨r1, p1, h1, h2⟩ := h.find a
  obtain ⟨r2, p2, h3, h4⟩ := h2.find b
  obtain ⟨ops, h5, h6⟩ := h
  refine ⟨r1, r2, p1, p2, h1, h3, h4, ?_⟩
  rw [C01_find_iff_joined ops a b p p1 p2 r1 r2 h5 h1 h3, joined_iff_genEq h6]

theorem PRel.unite {p : PState α} {U : List (α × α)} (h : PRel p U) (a b : α) :
    ∃ p', unite p a b = .ok p' ∧ PRel p' (U ++ [(a, b)]) := by
  obtain ⟨ops, h1, h2⟩ := h
  obtain ⟨s, ρ, h3, h4, -⟩ := run_new ops
  rw [h1] at h3; cases h3
  obtain ⟨p', ρ', h5, -⟩ := h4.unite_ok a b
  refine ⟨p', h5, ?_⟩
  refine PRel.step (op := Op.unite a b) (q := p') ⟨ops, h1, h2⟩ h5 [(a, b)] ?_
  intro x y
  simp [eq_comm]

theorem PRel.uniteAll : ∀ (l : List (α × α)) {p : PState α} {U : List (α × α)}, PRel p U →
    ∃ p', uniteAll l p = .ok p' ∧ PRel p' (U ++ l) := by
  intro l
  induction l with
  | nil => intro p U h; exact ⟨p, rfl, by simpa using h⟩
  | cons x l ih =>
    intro p U h
    obtain ⟨p1, h1, h2⟩ := h.unite x.1 x.2
    obtain ⟨p2, h3, h4⟩ := ih h2
    refine ⟨p2, ?_, by simpa using h4⟩
    unfold Systre.uniteAll
    simp only [h1]
    exact h3

theorem PRel.classes {p : PState α} {U : List (α × α)} (h : PRel p U) (elms : List α) :
    ∃ p' cs, classes p elms = .ok (p', cs) ∧ PRel p' U ∧ (∀ c ∈ cs, c ≠ []) ∧ cs.flatten.Perm elms ∧
      (∀ c ∈ cs, ∀ x ∈ c, ∀ y, y ∈ c ↔ y ∈ elms ∧ GenEq U x y) ∧
      cs.Pairwise (fun c d => ∀ x ∈ c.head?, ∀ y ∈ d.head?, elms.idxOf x < elms.idxOf y) := by
  classical
  have h' := h
  obtain ⟨ops, h1, h2⟩ := h
  obtain ⟨p', cs, h3, h4, h5, h6, h7⟩ := C04_classes ops elms p h1
  refine ⟨p', cs, h3, ?_, h4, h5, ?_, h7⟩
  · have := h'.step (op := Op.classes elms) (q := p') (by simp only [Partitions.step, h3]; rfl) [] (by simp)
    simpa using this
  · intro c hc x hx y
    rw [h6 c hc x hx]
    simp [joined_iff_genEq h2]

end Systre
