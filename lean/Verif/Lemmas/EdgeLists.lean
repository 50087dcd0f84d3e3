import Verif.Lemmas.Spanning
import Verif.Lemmas.LinAlgRep
import Verif.Lemmas.LatticeLoops
import Verif.Lemmas.Stability
import Mathlib.Data.List.Sublists

/-! # Characteristic edge lists -/

set_option linter.unusedSectionVars false

namespace Systre

open Submodule

/-! ### combinations and permutations -/

section
variable {α : Type}

theorem omap_map' {β γ : Type} (f : β → Outcome γ) (k : α → β) (l : List α) :
    omap f (l.map k) = omap (fun a => f (k a)) l := by
  induction l with
  | nil => rfl
  | cons a l ih => simp only [List.map_cons, omap, ih]

theorem omap_congr' {β : Type} {f f' : α → Outcome β} {l : List α} (h : ∀ a ∈ l, f a = f' a) :
    omap f l = omap f' l := by
  induction l with
  | nil => rfl
  | cons a l ih => simp only [omap, ih (fun b hb => h b (by simp [hb])), h a (by simp)]

theorem mem_combos : ∀ (k : Nat) (l x : List α), x ∈ combos k l ↔ x.Sublist l ∧ x.length = k := by
  intro k
  induction k with
  | zero =>
    intro l x
    simp only [combos, List.mem_singleton]
    constructor
    · rintro rfl; simp
    · rintro ⟨-, h⟩; exact List.length_eq_zero_iff.1 h
  | succ k ih =>
    intro l
    induction l with
    | nil =>
      intro x
      simp only [combos, List.not_mem_nil, false_iff]
      rintro ⟨h1, h2⟩
      rw [List.sublist_nil.1 h1] at h2
      simp at h2
    | cons a l ih2 =>
      intro x
      simp only [combos, List.mem_append, List.mem_map, ih, ih2]
      constructor
      · rintro (⟨y, ⟨h1, h2⟩, rfl⟩ | ⟨h1, h2⟩)
        · exact ⟨List.Sublist.cons_cons a h1, by simp [h2]⟩
        · exact ⟨List.Sublist.cons a h1, h2⟩
      · rintro ⟨h1, h2⟩
        cases h1 with
        | cons _ h => exact Or.inr ⟨h, h2⟩
        | @cons_cons y _ _ h => exact Or.inl ⟨y, ⟨h, by simpa using h2⟩, rfl⟩

theorem mem_picks : ∀ (l : List α) (p : α × List α), p ∈ picks l ↔ ∃ l1 l2, l = l1 ++ p.1 :: l2 ∧ p.2 = l1 ++ l2 := by
  intro l
  induction l with
  | nil => intro p; simp [picks]
  | cons a l ih =>
    intro p
    simp only [picks, List.mem_cons, List.mem_map, ih]
    constructor
    · rintro (rfl | ⟨q, ⟨l1, l2, h1, h2⟩, rfl⟩)
      · exact ⟨[], l, rfl, rfl⟩
      · exact ⟨a :: l1, l2, by simp [h1], by simp [h2]⟩
    · rintro ⟨l1, l2, h1, h2⟩
      cases l1 with
      | nil =>
        left
        simp only [List.nil_append, List.cons.injEq] at h1 h2
        obtain ⟨p1, p2⟩ := p
        simp only at h1 h2
        rw [h1.1, h1.2, h2]
      | cons b l1 =>
        right
        simp only [List.cons_append, List.cons.injEq] at h1
        refine ⟨(p.1, l1 ++ l2), ⟨l1, l2, h1.2, rfl⟩, ?_⟩
        obtain ⟨p1, p2⟩ := p
        simp only at h1 h2 ⊢
        rw [h1.1, h2]; rfl

theorem mem_perms : ∀ (k : Nat) (l x : List α), l.length = k → (x ∈ perms k l ↔ x.Perm l) := by
  intro k
  induction k with
  | zero =>
    intro l x hl
    rw [List.length_eq_zero_iff.1 hl]
    simp [perms]
  | succ k ih =>
    intro l x hl
    simp only [perms, List.mem_flatMap, List.mem_map, mem_picks]
    constructor
    · rintro ⟨p, ⟨l1, l2, h1, h2⟩, y, hy, rfl⟩
      have : (p.2).length = k := by
        rw [h2, List.length_append]
        rw [h1, List.length_append, List.length_cons] at hl
        omega
      rw [ih _ _ this, h2] at hy
      rw [h1]
      exact (hy.cons p.1).trans List.perm_middle.symm
    · intro h
      cases x with
      | nil => rw [← h.length_eq] at hl; simp at hl
      | cons a x =>
        have ha : a ∈ l := h.subset (by simp)
        obtain ⟨l1, l2, rfl⟩ := List.append_of_mem ha
        refine ⟨(a, l1 ++ l2), ⟨l1, l2, rfl, rfl⟩, x, ?_, rfl⟩
        rw [ih _ _ (by simp at hl ⊢; omega)]
        exact (h.trans List.perm_middle).cons_inv
end

section
variable {T : Type} [LabelVector T] [LawfulLabelVector T]
variable {g : Graph T} {pos : Nat → Fin (LabelVector.dim T) → ℚ} {tb : Outcome PosTable}

/-- the space spanned by the vectors of a list of edges -/
def espan (pos : Nat → Fin (LabelVector.dim T) → ℚ) (es : List (Edge T)) : Submodule ℚ (Fin (LabelVector.dim T) → ℚ) :=
  span ℚ (edgeVec pos '' {e | e ∈ es})

/-- the vectors of the edges are linearly independent -/
def EIndep (pos : Nat → Fin (LabelVector.dim T) → ℚ) (es : List (Edge T)) : Prop :=
  es.length = Module.finrank ℚ (espan pos es)

theorem rowVec_ofFn {n : Nat} (x : Fin n → ℚ) : rowVec n (List.ofFn x) = x := by
  ext i; simp [rowVec]

theorem eindep_perm {es fs : List (Edge T)} (h : es.Perm fs) : EIndep pos es ↔ EIndep pos fs := by
  unfold EIndep espan
  rw [h.length_eq]
  have : {e | e ∈ es} = {e | e ∈ fs} := by ext e; exact h.mem_iff
  rw [this]

theorem areLI_ok (hp : Places tb g pos) {es : List (Edge T)} (he : ∀ e ∈ es, IsDirected g.edges e) :
    ∃ b, areLinearlyIndependent tb es = .ok b ∧ (b = true ↔ EIndep pos es) := by
  have h1 : omap (edgeVectorIn tb) es = .ok (es.map (fun e => List.ofFn (edgeVec pos e))) :=
    omap_ok (fun e h => edgeVector_ok hp (he e h))
  obtain ⟨bs, h2, -, -, h3, h4⟩ := gen_extend (LabelVector.dim T) (es.map (fun e => List.ofFn (edgeVec pos e)))
    (by
      intro v hv
      obtain ⟨e, -, rfl⟩ := List.mem_map.1 hv
      simp)
  refine ⟨decide (bs.length = es.length), ?_, ?_⟩
  · unfold areLinearlyIndependent
    rw [bind_ok h1, bind_ok h2]
  · rw [decide_eq_true_eq]
    have h5 := (Lattices.indep_iff_finrank (d := LabelVector.dim T) bs).1 h4
    have h6 : span ℚ (rowVec (LabelVector.dim T) '' {v | v ∈ es.map (fun e => List.ofFn (edgeVec pos e))}) = espan pos es := by
      unfold espan
      congr 1
      ext x
      simp only [Set.mem_image, Set.mem_ofPred_eq, List.mem_map, exists_exists_and_eq_and, rowVec_ofFn]
    rw [h3, h6] at h5
    unfold EIndep
    rw [← h5]
    exact eq_comm

/-- an independent list of `dim` edges -/
structure GoodList (g : Graph T) (pos : Nat → Fin (LabelVector.dim T) → ℚ) (es : List (Edge T)) : Prop where
  dir : ∀ e ∈ es, IsDirected g.edges e
  len : es.length = LabelVector.dim T
  indep : EIndep pos es

theorem goodCombinations_ok (hp : Places tb g pos) {edges : List (Edge T)} (he : ∀ e ∈ edges, IsDirected g.edges e) :
    ∃ ls, goodCombinations tb edges = .ok ls ∧ ∀ es, es ∈ ls ↔ GoodList g pos es ∧ es.Subperm edges := by
  have key : ∀ cs : List (List (Edge T)), (∀ c ∈ cs, c.Sublist edges ∧ c.length = LabelVector.dim T) →
      ∃ ls, goodCombinationsLoop tb (LabelVector.dim T) cs = .ok ls ∧
        ∀ es, es ∈ ls ↔ ∃ c ∈ cs, EIndep pos c ∧ es.Perm c := by
    intro cs
    induction cs with
    | nil => intro _; exact ⟨[], rfl, by simp⟩
    | cons c cs ih =>
      intro hc
      obtain ⟨b, h1, h2⟩ := areLI_ok hp (es := c) (fun e h => he e ((hc c (by simp)).1.subset h))
      obtain ⟨ls, h3, h4⟩ := ih (fun c' h => hc c' (by simp [h]))
      refine ⟨(if b then perms (LabelVector.dim T) c else []) ++ ls, ?_, ?_⟩
      · unfold goodCombinationsLoop
        rw [bind_ok h1, bind_ok h3]
      · intro es
        rw [List.mem_append, h4]
        have h5 : es ∈ (if b then perms (LabelVector.dim T) c else []) ↔ EIndep pos c ∧ es.Perm c := by
          rw [← h2]
          cases b with
          | true => simp [mem_perms _ c es (hc c (by simp)).2]
          | false => simp
        rw [h5]
        simp
  obtain ⟨ls, h1, h2⟩ := key (combos (LabelVector.dim T) edges) (fun c hc => (mem_combos _ _ _).1 hc)
  refine ⟨ls, h1, fun es => ?_⟩
  rw [h2]
  constructor
  · rintro ⟨c, hc, h3, h4⟩
    obtain ⟨h5, h6⟩ := (mem_combos _ _ _).1 hc
    exact ⟨⟨fun e h => he e (h5.subset (h4.subset h)), by rw [h4.length_eq, h6], (eindep_perm h4).2 h3⟩,
      ⟨c, h4.symm, h5⟩⟩
  · rintro ⟨h3, c, h4, h5⟩
    exact ⟨c, (mem_combos _ _ _).2 ⟨h5, by rw [h4.length_eq, h3.len]⟩, (eindep_perm h4).2 h3.indep, h4.symm⟩

theorem espan_cons (pos : Nat → Fin (LabelVector.dim T) → ℚ) (e : Edge T) (es : List (Edge T)) :
    espan pos (e :: es) = span ℚ {edgeVec pos e} ⊔ espan pos es := by
  unfold espan
  rw [← span_union]
  congr 1
  ext x
  simp only [Set.mem_image, Set.mem_ofPred_eq, List.mem_cons, Set.mem_union, Set.mem_singleton_iff]
  constructor
  · rintro ⟨f, rfl | h, rfl⟩
    · exact Or.inl rfl
    · exact Or.inr ⟨f, h, rfl⟩
  · rintro (rfl | ⟨f, h, rfl⟩)
    · exact ⟨e, Or.inl rfl, rfl⟩
    · exact ⟨f, Or.inr h, rfl⟩

/-- linearly independent, as a family -/
theorem eindep_iff (es : List (Edge T)) :
    EIndep pos es ↔ LinearIndependent ℚ (fun i : Fin es.length => edgeVec pos es[i.1]) := by
  have hr : Set.range (fun i : Fin es.length => edgeVec pos es[i.1]) = edgeVec pos '' {e | e ∈ es} := by
    ext x
    constructor
    · rintro ⟨i, rfl⟩; exact ⟨_, List.getElem_mem i.2, rfl⟩
    · rintro ⟨v, hv, rfl⟩
      obtain ⟨i, hi, rfl⟩ := List.getElem_of_mem hv
      exact ⟨⟨i, hi⟩, rfl⟩
  rw [linearIndependent_iff_card_eq_finrank_span, Set.finrank, hr, Fintype.card_fin]
  rfl

theorem eindep_cons {e : Edge T} {es : List (Edge T)} (h : EIndep pos es) (he : edgeVec pos e ∉ espan pos es) :
    EIndep pos (e :: es) := by
  rw [eindep_iff] at h ⊢
  have hr : Set.range (fun i : Fin es.length => edgeVec pos es[i.1]) = edgeVec pos '' {e | e ∈ es} := by
    ext x
    constructor
    · rintro ⟨i, rfl⟩; exact ⟨_, List.getElem_mem i.2, rfl⟩
    · rintro ⟨v, hv, rfl⟩
      obtain ⟨i, hi, rfl⟩ := List.getElem_of_mem hv
      exact ⟨⟨i, hi⟩, rfl⟩
  have : (fun i : Fin (e :: es).length => edgeVec pos (e :: es)[i.1]) =
      (Fin.cons (edgeVec pos e) (fun i : Fin es.length => edgeVec pos es[i.1]) : Fin (es.length + 1) → _) := by
    funext i
    refine Fin.cases ?_ (fun j => ?_) i
    · rfl
    · rfl
  rw [this]
  rw [linearIndependent_finCons]
  refine ⟨h, ?_⟩
  rw [hr]; exact he

/-- a sublist that is a basis of the span -/
theorem exists_basis_sublist (pos : Nat → Fin (LabelVector.dim T) → ℚ) (l : List (Edge T)) :
    ∃ es, es.Sublist l ∧ EIndep pos es ∧ espan pos es = espan pos l := by
  induction l with
  | nil =>
    refine ⟨[], List.Sublist.refl _, ?_, rfl⟩
    rw [eindep_iff]
    haveI : IsEmpty (Fin ([] : List (Edge T)).length) := inferInstanceAs (IsEmpty (Fin 0))
    exact linearIndependent_empty_type
  | cons e l ih =>
    obtain ⟨es, h1, h2, h3⟩ := ih
    by_cases he : edgeVec pos e ∈ espan pos es
    · refine ⟨es, h1.cons e, h2, ?_⟩
      rw [espan_cons, ← h3]
      symm
      rw [sup_eq_right, span_singleton_le_iff_mem]; exact he
    · exact ⟨e :: es, h1.cons_cons e, eindep_cons h2 he, by rw [espan_cons, espan_cons, h3]⟩

/-- every edge starts where the one before it ends -/
def EChain (es : List (Edge T)) : Prop := es.IsChain (fun e f => f.head = e.tail)

theorem eindep_prefix {es fs : List (Edge T)} (h : EIndep pos (es ++ fs)) : EIndep pos es := by
  rw [eindep_iff] at h ⊢
  have := h.comp (Fin.castLE (by simp) : Fin es.length → Fin (es ++ fs).length) (Fin.castLE_injective _)
  convert this using 1
  funext i
  simp only [Function.comp_apply, Fin.val_castLE]
  rw [List.getElem_append_left]

/-- all chains of edges that extend `edges` -/
theorem edgeChainExtensions_ok (hp : Places tb g pos) : ∀ (n : Nat) (edges : List (Edge T)), edges ≠ [] →
    (∀ e ∈ edges, IsDirected g.edges e) → EChain edges →
    ∃ ls, edgeChainExtensions tb g n edges = .ok ls ∧ ∀ es, es ∈ ls ↔ (∃ fs, es = edges ++ fs ∧ fs.length = n) ∧
      (∀ e ∈ es, IsDirected g.edges e) ∧ EChain es ∧ (n = 0 ∨ EIndep pos es) := by
  intro n
  induction n with
  | zero =>
    intro edges _ hd hi
    refine ⟨[edges], rfl, ?_⟩
    intro es
    rw [List.mem_singleton]
    constructor
    · rintro rfl; exact ⟨⟨[], by simp, rfl⟩, hd, hi, Or.inl rfl⟩
    · rintro ⟨⟨fs, h1, h2⟩, -⟩
      rw [h1, List.length_eq_zero_iff.1 h2, List.append_nil]
  | succ n ih =>
    intro edges hne hd hi
    have hl : edges.getLast? = some (edges.getLast hne) := List.getLast?_eq_some_getLast hne
    have hdl := hd _ (List.getLast_mem hne)
    have hinc := g.incidences_ok (g.tail_mem hdl)
    have hf : ∀ e ∈ g.inc (edges.getLast hne).tail, ∃ ls, (do
        let b ← areLinearlyIndependent tb (edges ++ [e])
        if b then edgeChainExtensions tb g n (edges ++ [e]) else Outcome.ok []) = .ok ls ∧
        ∀ es, es ∈ ls ↔ (∃ fs, es = edges ++ e :: fs ∧ fs.length = n) ∧ (∀ e ∈ es, IsDirected g.edges e) ∧
          EChain es ∧ EIndep pos es := by
      intro e he
      have hm := (g.mem_inc _ _).1 he
      have hd' : ∀ f ∈ edges ++ [e], IsDirected g.edges f := by
        intro f hf
        rcases List.mem_append.1 hf with h | h
        · exact hd f h
        · rw [List.mem_singleton.1 h]; exact hm.1
      have hch : EChain (edges ++ [e]) := by
        unfold EChain
        rw [List.isChain_append]
        refine ⟨hi, by simp, ?_⟩
        intro x hx y hy
        rw [hl, Option.mem_some_iff] at hx
        simp only [List.head?_cons, Option.mem_some_iff] at hy
        rw [← hx, ← hy, hm.2]
      obtain ⟨b, h1, h2⟩ := areLI_ok hp hd'
      rw [bind_ok h1]
      cases b with
      | false =>
        refine ⟨[], rfl, fun es => ?_⟩
        simp only [List.not_mem_nil, false_iff]
        rintro ⟨⟨fs, h3, -⟩, -, -, h4⟩
        rw [h3, show edges ++ e :: fs = (edges ++ [e]) ++ fs by simp] at h4
        exact absurd (h2.2 (eindep_prefix h4)) (by simp)
      | true =>
        have hI := h2.1 rfl
        obtain ⟨ls, h3, h4⟩ := ih (edges ++ [e]) (by simp) hd' hch
        refine ⟨ls, h3, ?_⟩
        intro es
        rw [h4]
        have as : ∀ fs, edges ++ [e] ++ fs = edges ++ e :: fs := by simp
        simp only [as]
        constructor
        · rintro ⟨⟨fs, h5, h6⟩, h7, h8, h9⟩
          refine ⟨⟨fs, h5, h6⟩, h7, h8, ?_⟩
          rcases h9 with h | h
          · rw [h] at h6
            rw [h5, List.length_eq_zero_iff.1 h6]; exact hI
          · exact h
        · rintro ⟨h5, h7, h8, h9⟩; exact ⟨h5, h7, h8, Or.inr h9⟩
    choose! F hF1 hF2 using hf
    refine ⟨((g.inc (edges.getLast hne).tail).map F).flatten, ?_, ?_⟩
    · unfold edgeChainExtensions
      rw [hl]
      show (do
        let es ← g.incidences (edges.getLast hne).tail
        let ls ← omap _ es
        Outcome.ok ls.flatten) = _
      rw [bind_ok hinc, bind_ok (omap_ok hF1)]
    · intro es
      simp only [List.mem_flatten, List.mem_map, exists_exists_and_eq_and]
      constructor
      · rintro ⟨e, he, h⟩
        obtain ⟨⟨fs, h1, h2⟩, h3, h4, h5⟩ := (hF2 e he es).1 h
        exact ⟨⟨e :: fs, h1, by simp [h2]⟩, h3, h4, Or.inr h5⟩
      · rintro ⟨⟨fs, h1, h2⟩, h3, h4, h5⟩
        cases fs with
        | nil => simp at h2
        | cons e fs =>
          have he : e ∈ g.inc (edges.getLast hne).tail := by
            rw [g.mem_inc]
            refine ⟨h3 e (by rw [h1]; simp), ?_⟩
            unfold EChain at h4
            rw [h1, List.isChain_append] at h4
            exact h4.2.2 _ (by rw [hl]; rfl) e (by simp)
          refine ⟨e, he, (hF2 e he es).2 ⟨⟨fs, h1, by simpa using h2⟩, h3, h4, ?_⟩⟩
          rcases h5 with h | h
          · omega
          · exact h

theorem exists_goodList (hs : span ℚ (edgeVecs g.edges pos) = ⊤) {l : List (Edge T)}
    (hl : ∀ e, e ∈ l ↔ IsDirected g.edges e) : ∃ es, es.Sublist l ∧ GoodList g pos es := by
  obtain ⟨es, h1, h2, h3⟩ := exists_basis_sublist pos l
  refine ⟨es, h1, fun e he => (hl e).1 (h1.subset he), ?_, h2⟩
  have : espan pos l = ⊤ := by
    rw [← hs]
    unfold espan edgeVecs
    congr 2
    ext e; exact hl e
  have h4 : es.length = _ := h2
  rw [h4, h3, this, finrank_top]
  simp

theorem directedEdges_ok (g : Graph T) : ∃ es, g.directedEdges = .ok es ∧ ∀ e, e ∈ es ↔ IsDirected g.edges e := by
  refine ⟨(g.vertices.map g.inc).flatten, ?_, ?_⟩
  · unfold Graph.directedEdges
    rw [omap_ok (fun v hv => g.incidences_ok hv)]
    rfl
  · intro e
    simp only [List.mem_flatten, List.mem_map, exists_exists_and_eq_and, Graph.mem_inc]
    constructor
    · rintro ⟨v, hv, h, -⟩; exact h
    · intro h; exact ⟨e.head, g.head_mem h, h, rfl⟩

/-- Which edge lists are looked at: independent lists of edges at one vertex; if there are none, chains; if
there are none, all independent lists. -/
theorem characteristic_ok (hp : Places tb g pos) (hs : span ℚ (edgeVecs g.edges pos) = ⊤) :
    ∃ ls, characteristicEdgeLists tb g = .ok ls ∧ ls ≠ [] ∧ (∀ es ∈ ls, GoodList g pos es) ∧
      ((∀ es, es ∈ ls ↔ GoodList g pos es ∧ ∃ v ∈ g.vertices, es.Subperm (g.inc v)) ∨
       (∀ es, es ∈ ls ↔ GoodList g pos es ∧ EChain es) ∨
       (∃ des, (∀ e, e ∈ des ↔ IsDirected g.edges e) ∧ ∀ es, es ∈ ls ↔ GoodList g pos es ∧ es.Subperm des)) := by
  have h1 : ∀ v ∈ g.vertices, ∃ ls, (do
      let es ← g.incidences v
      goodCombinations tb es) = .ok ls ∧ ∀ es, es ∈ ls ↔ GoodList g pos es ∧ es.Subperm (g.inc v) := by
    intro v hv
    obtain ⟨ls, h1, h2⟩ := goodCombinations_ok hp (edges := g.inc v) (fun e he => ((g.mem_inc _ _).1 he).1)
    exact ⟨ls, by rw [bind_ok (g.incidences_ok hv), h1], h2⟩
  choose! F hF1 hF2 using h1
  obtain ⟨des, hd1, hd2⟩ := directedEdges_ok g
  unfold characteristicEdgeLists
  rw [bind_ok (omap_ok hF1)]
  have hF : ∀ es, es ∈ (g.vertices.map F).flatten ↔ GoodList g pos es ∧ ∃ v ∈ g.vertices, es.Subperm (g.inc v) := by
    intro es
    simp only [List.mem_flatten, List.mem_map, exists_exists_and_eq_and]
    constructor
    · rintro ⟨v, hv, h⟩
      have := (hF2 v hv es).1 h
      exact ⟨this.1, v, hv, this.2⟩
    · rintro ⟨h, v, hv, h'⟩; exact ⟨v, hv, (hF2 v hv es).2 ⟨h, h'⟩⟩
  by_cases hne : (g.vertices.map F).flatten ≠ []
  · rw [if_pos hne]
    exact ⟨_, rfl, hne, fun es hes => ((hF es).1 hes).1, Or.inl hF⟩
  rw [if_neg hne]
  push Not at hne
  -- one dimension
  have hdim : LabelVector.dim T ≠ 1 := by
    intro hd
    obtain ⟨es, h2, h3⟩ := exists_goodList hs hd2
    have hlen : es.length = 1 := h3.len.trans hd
    obtain ⟨e, rfl⟩ := List.length_eq_one_iff.1 hlen
    have he := h3.dir e (by simp)
    have hmem : e ∈ g.inc e.head := (g.mem_inc _ _).2 ⟨he, rfl⟩
    have : [e] ∈ (g.vertices.map F).flatten :=
      (hF _).2 ⟨h3, e.head, g.head_mem he, List.singleton_subperm_iff.2 hmem⟩
    rw [hne] at this
    simp at this
  have hpos := LawfulLabelVector.dim_pos (T := T)
  have h2 : ∀ e ∈ des, ∃ ls, edgeChainExtensions tb g (LabelVector.dim T - 1) [e] = .ok ls ∧
      ∀ es, es ∈ ls ↔ GoodList g pos es ∧ EChain es ∧ es.head? = some e := by
    intro e he
    obtain ⟨ls, h3, h4⟩ := edgeChainExtensions_ok hp (LabelVector.dim T - 1) [e] (by simp)
      (by intro f hf; rw [List.mem_singleton.1 hf]; exact (hd2 e).1 he) (by simp [EChain])
    refine ⟨ls, h3, fun es => (h4 es).trans ?_⟩
    constructor
    · rintro ⟨⟨fs, h5, h6⟩, h7, h8, h9⟩
      refine ⟨⟨h7, by rw [h5, List.length_append, h6, List.length_singleton]; omega, ?_⟩, h8, by rw [h5]; rfl⟩
      rcases h9 with h | h
      · omega
      · exact h
    · rintro ⟨h5, h6, h7⟩
      obtain ⟨fs, rfl⟩ : ∃ fs, es = [e] ++ fs := by
        cases es with
        | nil => simp at h7
        | cons f fs => exact ⟨fs, by simp at h7; simp [h7]⟩
      refine ⟨⟨fs, rfl, ?_⟩, h5.dir, h6, Or.inr h5.indep⟩
      have := h5.len
      rw [List.length_append, List.length_singleton] at this
      omega
  choose! C hC1 hC2 using h2
  have h3 : goodEdgeChains tb g = .ok (des.map C).flatten := by
    unfold goodEdgeChains
    rw [bind_ok hd1, bind_ok (omap_ok hC1)]
  rw [bind_ok h3]
  have hC : ∀ es, es ∈ (des.map C).flatten ↔ GoodList g pos es ∧ EChain es := by
    intro es
    simp only [List.mem_flatten, List.mem_map, exists_exists_and_eq_and]
    constructor
    · rintro ⟨e, he, h⟩
      have := (hC2 e he es).1 h
      exact ⟨this.1, this.2.1⟩
    · rintro ⟨h, h'⟩
      cases es with
      | nil => have := h.len; simp at this; omega
      | cons e es =>
        have he := (hd2 e).2 (h.dir e (by simp))
        exact ⟨e, he, (hC2 e he _).2 ⟨h, h', rfl⟩⟩
  by_cases hne2 : (des.map C).flatten ≠ []
  · rw [if_pos hne2]
    exact ⟨_, rfl, hne2, fun es hes => ((hC es).1 hes).1, Or.inr (Or.inl hC)⟩
  rw [if_neg hne2, bind_ok hd1]
  obtain ⟨ls, h4, h5⟩ := goodCombinations_ok hp (edges := des) (fun e he => (hd2 e).1 he)
  refine ⟨ls, h4, ?_, fun es hes => ((h5 es).1 hes).1, Or.inr (Or.inr ⟨des, hd2, h5⟩)⟩
  obtain ⟨es, h6, h7⟩ := exists_goodList hs hd2
  exact List.ne_nil_of_mem ((h5 es).2 ⟨h7, h6.subperm⟩)

/-- the matrix whose rows are the vectors of the edges -/
def rowsOf (pos : Nat → Fin (LabelVector.dim T) → ℚ) (es : List (Edge T)) (hl : es.length = LabelVector.dim T) :
    Matrix (Fin (LabelVector.dim T)) (Fin (LabelVector.dim T)) ℚ :=
  Matrix.of (fun i => edgeVec pos (es[i.1]'(by rw [hl]; exact i.2)))

theorem matrixFromEdgeList_ok (hp : Places tb g pos) {es : List (Edge T)} (h : ∀ e ∈ es, IsDirected g.edges e)
    (hl : es.length = LabelVector.dim T) :
    ∃ m, matrixFromEdgeList tb es = .ok m ∧ Rep m (rowsOf pos es hl) := by
  have hpos := LawfulLabelVector.dim_pos (T := T)
  have hne : es ≠ [] := by rintro rfl; simp at hl; omega
  let bs := es.map (fun e => List.ofFn (edgeVec pos e))
  have hbs : bs ≠ [] := by simpa [bs] using hne
  have hbl : bs.length = LabelVector.dim T := by simp [bs, hl]
  refine ⟨matOf (LabelVector.dim T) bs, ?_, ?_⟩
  · have h1 := stackRows_ok (n := LabelVector.dim T) (bs := bs) (by
      intro b hb
      obtain ⟨e, -, rfl⟩ := List.mem_map.1 hb
      simp) (fun _ => hpos)
    rw [← h1]
    unfold matrixFromEdgeList stackRows
    congr 1
    simp only [bs]
    rw [omap_map']
    apply omap_congr'
    intro e he
    rw [bind_ok (edgeVector_ok hp (h e he))]
  · unfold matOf
    rw [if_neg hbs]
    unfold Mat.ofRows
    rw [hbl]
    refine rep_ofFn' (fun _ => hpos) (fun i j => ?_)
    have hi : i.1 < es.length := by rw [hl]; exact i.2
    simp [bs, rowsOf, List.getD, hi]

end
end Systre
