import Verif.Lemmas.Traverse
import Verif.Lemmas.Padic
import Verif.Lemmas.Scalar
import Verif.Spec.Barycentric
import Verif.Props.ModularSolver
import Mathlib.LinearAlgebra.Matrix.ToLinearEquiv
import Mathlib.Algebra.Order.BigOperators.Group.List
import Mathlib.Tactic.LinearCombination

namespace Systre
open Modular (toLists omap_range)
set_option linter.unusedSectionVars false

section
variable {T : Type} [LabelVector T] [LawfulLabelVector T]

theorem _root_.List.sum_map_sub_rat {α : Type} (l : List α) (f h : α → ℚ) :
    (l.map (fun a => f a - h a)).sum = (l.map f).sum - (l.map h).sum := by
  induction l with
  | nil => simp
  | cons a l ih => simp only [List.map_cons, List.sum_cons, ih]; ring

theorem neighbours_eq (g : Graph T) (v : Nat) :
    neighbours g.edges v = (g.inc v).map (fun e => (e.tail, e.shift)) := by
  unfold neighbours Graph.inc
  induction g.edges with
  | nil => rfl
  | cons e es ih =>
    simp only [List.flatMap_cons, List.filter_append, List.map_append, ih]
    congr 1
    by_cases h1 : e.head = v <;> by_cases h2 : e.tail = v <;> simp [h1, h2]

theorem rent_addAt (l : List Int) (j : Nat) (x : Int) (hj : j < l.length) (k : Nat) :
    rent (addAt l j x) k = rent l k + if j = k then x else 0 := by
  unfold addAt rent List.getD
  rw [List.getElem?_set]
  by_cases h : j = k
  · subst h; simp [hj]
  · simp [h]

theorem length_addAt (l : List Int) (j : Nat) (x : Int) : (addAt l j x).length = l.length := by simp [addAt]

theorem idxOf?_of_mem {l : List Nat} {a : Nat} (h : a ∈ l) : l.idxOf? a = some (l.idxOf a) := by
  induction l with
  | nil => simp at h
  | cons b l ih =>
    rw [List.idxOf?_cons, List.idxOf_cons]
    by_cases hb : b = a
    · simp [hb]
    · have : (b == a) = false := by simpa using hb
      have ha : a ∈ l := by
        rcases List.mem_cons.1 h with h | h
        · exact (hb h.symm).elim
        · exact h
      simp [this, ih ha]

theorem laplaceRow_ok (verts : List Nat) (hnd : verts.Nodup) (i : Nat) (hi : i < verts.length) :
    ∀ (es : List (Edge T)) (ra rt : List Int), (∀ e ∈ es, e.tail ∈ verts) → ra.length = verts.length →
      ∃ ra' rt', laplaceRow verts i es ra rt = .ok (ra', rt') ∧ ra'.length = verts.length ∧ rt'.length = rt.length ∧
        (∀ j : Fin verts.length, rent ra' j.1 = rent ra j.1 + (if i = j.1 then (es.length : Int) else 0) -
          ((es.filter (fun e => e.tail = verts[j])).length : Int)) ∧
        (∀ k, k < rt.length → rent rt' k = rent rt k + (es.map (fun e => rent (LabelVector.toVec e.shift) k)).sum) := by
  intro es
  induction es with
  | nil => intro ra rt _ h; exact ⟨ra, rt, rfl, h, rfl, by simp, by simp⟩
  | cons e es ih =>
    intro ra rt hm hl
    have he : e.tail ∈ verts := hm e (by simp)
    have hlt : verts.idxOf e.tail < verts.length := List.idxOf_lt_length_iff.2 he
    rw [laplaceRow, idxOf?_of_mem he]
    simp only [unwrap, Outcome.ok_bind]
    obtain ⟨ra', rt', h1, h2, h3, h4, h5⟩ := ih (addAt (addAt ra (verts.idxOf e.tail) (-1)) i 1)
      (rowFn rt.length (fun k => rent rt k + rent (LabelVector.toVec e.shift) k))
      (fun f hf => hm f (by simp [hf])) (by rw [length_addAt, length_addAt, hl])
    refine ⟨ra', rt', h1, h2, by rw [h3, rowFn_length], fun j => ?_, fun k hk => ?_⟩
    · rw [h4, rent_addAt _ _ _ (by rw [length_addAt, hl]; exact hi), rent_addAt _ _ _ (by rw [hl]; exact hlt)]
      have hj : verts.idxOf e.tail = j.1 ↔ e.tail = verts[j] := by
        constructor
        · intro h
          have := List.getElem_idxOf hlt
          rw [← this]; simp only [h]; rfl
        · intro h
          rw [h]; exact hnd.idxOf_getElem _ _
      rw [List.filter_cons]
      by_cases hjj : e.tail = verts[j]
      · rw [if_pos (hj.2 hjj), if_pos (decide_eq_true hjj), List.length_cons, List.length_cons]
        push_cast
        by_cases hij : i = j.1
        · simp only [if_pos hij]; ring
        · simp only [if_neg hij]; ring
      · rw [if_neg (fun h => hjj (hj.1 h)), if_neg (c := decide (e.tail = verts[j]) = true) (by simpa using hjj), List.length_cons]
        push_cast
        by_cases hij : i = j.1
        · simp only [if_pos hij]; ring
        · simp only [if_neg hij]; ring
    · rw [h5 k (by rw [rowFn_length]; exact hk), rent_rowFn, if_pos hk]
      simp [add_assoc]

theorem getD_ofFn_rows {α : Type} {n : Nat} (f : Fin n → α) (i : Fin n) (d : α) : (List.ofFn f).getD i.1 d = f i := by
  simp [List.getD]

theorem eq_ofFn_of_rent {n : Nat} {l : List Int} {f : Fin n → Int} (hl : l.length = n)
    (h : ∀ j : Fin n, rent l j.1 = f j) : l = List.ofFn f := by
  subst hl
  apply List.ext_getElem
  · simp
  · intro i h1 h2
    have := h ⟨i, h1⟩
    rw [rent_lt (k := i) h1] at this
    simp [this]

theorem rent_replicate_zero (n k : Nat) : rent (List.replicate n (0 : Int)) k = 0 := by
  unfold rent List.getD
  rw [List.getElem?_replicate]
  split <;> rfl

theorem laplaceSystem_ok (g : Graph T) (hne : g.vertices ≠ []) :
    laplaceSystem g = .ok (toLists (pinnedLaplacian g.edges g.vertices), toLists (shiftSums g.edges g.vertices)) := by
  have hn : g.vertices.length ≠ 0 := by simpa using hne
  unfold laplaceSystem
  simp only [if_neg hn]
  rw [omap_range (g := fun i => (List.ofFn (pinnedLaplacian g.edges g.vertices i),
    List.ofFn (shiftSums g.edges g.vertices i)))]
  · simp only [Outcome.ok_bind, List.map_ofFn]; rfl
  · intro i
    by_cases h0 : i.1 = 0
    · rw [if_pos h0]
      congr 2
      · apply eq_ofFn_of_rent
        · simp
        · intro j
          unfold pinnedLaplacian
          rw [if_pos h0]
          unfold rent List.getD
          rw [List.getElem?_set]
          by_cases hj : j.1 = 0
          · simp [hj, List.length_pos_iff.2 hne]
          · have : ¬ 0 = j.1 := fun h => hj h.symm
            rw [if_neg this, if_neg hj, List.getElem?_replicate]
            split <;> rfl
      · apply eq_ofFn_of_rent
        · simp
        · intro j
          unfold shiftSums
          rw [if_pos h0, rent_replicate_zero]
    · rw [if_neg h0]
      have hv : vecGet g.vertices i.1 = .ok (g.vertices[i]) := by
        rw [vecGet_eq_ok]; simp
      rw [hv, Outcome.ok_bind, g.incidences_ok (v := g.vertices[i]) (List.getElem_mem i.2), Outcome.ok_bind]
      obtain ⟨ra', rt', h1, h2, h3, h4, h5⟩ := laplaceRow_ok g.vertices g.vertices_nodup i.1 i.2 (g.inc g.vertices[i])
        (List.replicate g.vertices.length 0) (List.replicate (LabelVector.dim T) 0)
        (fun e he => g.tail_mem ((g.mem_inc _ _).1 he).1) (by simp)
      have e1 : ra' = List.ofFn (pinnedLaplacian g.edges g.vertices i) := by
        apply eq_ofFn_of_rent h2
        intro j
        rw [h4, rent_replicate_zero]
        unfold pinnedLaplacian
        rw [if_neg h0, neighbours_eq, List.length_map, zero_add]
        congr 1
        · by_cases hij : i = j
          · rw [if_pos hij, if_pos (congrArg Fin.val hij)]
          · rw [if_neg hij, if_neg (fun h => hij (Fin.ext h))]
        · rw [List.filter_map, List.length_map]
          rfl
      have e2 : rt' = List.ofFn (shiftSums g.edges g.vertices i) := by
        apply eq_ofFn_of_rent (by rw [h3]; simp)
        intro k
        rw [h5 _ (by simp), rent_replicate_zero, zero_add]
        unfold shiftSums
        rw [if_neg h0, neighbours_eq, List.map_map]
        rfl
      rw [← e1, ← e2]
      exact h1

theorem lookup_zip_ofFn {α : Type} (l : List Nat) (hl : l.Nodup) (f : Fin l.length → α) (i : Fin l.length) :
    (l.zip (List.ofFn f)).lookup l[i] = some (f i) := by
  induction l with
  | nil => exact i.elim0
  | cons a l ih =>
    rw [List.ofFn_succ, List.zip_cons_cons]
    rw [List.nodup_cons] at hl
    refine Fin.cases ?_ (fun i => ?_) i
    · exact lookup_cons_self'
    · have h1 : (a :: l)[i.succ] = l[i] := rfl
      rw [h1]
      have : l[i] ≠ a := by
        intro h; exact hl.1 (h ▸ List.getElem_mem _)
      rw [lookup_cons_ne this]
      exact ih hl.2 (fun j => f j.succ) i

/-! ### sums over incidences -/

theorem sum_filter_flatMap {α β : Type} [DecidableEq β] (key : α → β) (f : α → ℚ) (vs : List β) (hvs : vs.Nodup) :
    ∀ (l : List α), (∀ a ∈ l, key a ∈ vs) →
    (vs.map (fun v => ((l.filter (fun a => key a = v)).map f).sum)).sum = (l.map f).sum := by
  intro l
  induction l with
  | nil => intro _; simp
  | cons a l ih =>
    intro h
    have h1 : ∀ v, (((a :: l).filter (fun a => key a = v)).map f).sum =
        (if key a = v then f a else 0) + ((l.filter (fun a => key a = v)).map f).sum := by
      intro v
      rw [List.filter_cons]
      by_cases hv : key a = v <;> simp [hv]
    simp only [h1]
    rw [List.sum_map_add, ih (fun b hb => h b (by simp [hb]))]
    have h2 : ∀ vs : List β, vs.Nodup → key a ∈ vs → (vs.map (fun v => if key a = v then f a else 0)).sum = f a := by
      intro vs
      induction vs with
      | nil => intro _ h; simp at h
      | cons w vs ihv =>
        intro hn hm
        rw [List.nodup_cons] at hn
        rw [List.map_cons, List.sum_cons]
        by_cases hw : key a = w
        · rw [if_pos hw]
          have : (vs.map (fun v => if key a = v then f a else 0)).sum = 0 := by
            apply List.sum_eq_zero
            intro x hx
            obtain ⟨v, hv, rfl⟩ := List.mem_map.1 hx
            rw [if_neg]
            rintro rfl
            exact hn.1 (hw ▸ hv)
          rw [this, add_zero]
        · rw [if_neg hw, zero_add]
          apply ihv hn.2
          rcases List.mem_cons.1 hm with h | h
          · exact (hw h).elim
          · exact h
    rw [h2 vs hvs (h a (by simp)), List.map_cons, List.sum_cons]

/-- Summing over the incidences of all vertices is summing over both directions of all edges. -/
theorem sum_inc (g : Graph T) (f : Edge T → ℚ) :
    (g.vertices.map (fun v => ((g.inc v).map f).sum)).sum = (g.edges.map (fun e => f e + f e.neg)).sum := by
  unfold Graph.inc
  rw [sum_filter_flatMap (fun e : Edge T => e.head) f g.vertices g.vertices_nodup]
  · induction g.edges with
    | nil => rfl
    | cons e es ih => simp [ih, add_assoc]
  · intro e he
    obtain ⟨e', h1, h2⟩ := List.mem_flatMap.1 he
    apply g.head_mem
    rcases List.mem_cons.1 h2 with h | h
    · rw [h]; exact Or.inl h1
    · rw [List.mem_singleton.1 h]; exact isDirected_neg.2 (Or.inl h1)

/-! ### the system as equations -/

/-- The value at a vertex of a vector indexed by the positions in `vs`. -/
noncomputable def atV (vs : List Nat) (x : Fin vs.length → ℚ) (v : Nat) : ℚ :=
  if h : vs.idxOf v < vs.length then x ⟨vs.idxOf v, h⟩ else 0

theorem atV_get {vs : List Nat} (hvs : vs.Nodup) (x : Fin vs.length → ℚ) (i : Fin vs.length) : atV vs x vs[i] = x i := by
  have h : vs.idxOf vs[i] = i.1 := hvs.idxOf_getElem _ _
  unfold atV
  rw [dif_pos (by rw [h]; exact i.2)]
  congr 1
  exact Fin.ext h

/-- sum over a list grouped by keys -/
theorem sum_by_index (vs : List Nat) (hvs : vs.Nodup) (x : Fin vs.length → ℚ) : ∀ (l : List Nat), (∀ v ∈ l, v ∈ vs) →
    (∑ j : Fin vs.length, ((l.filter (fun v => v = vs[j])).length : ℚ) * x j) = (l.map (atV vs x)).sum := by
  intro l
  induction l with
  | nil => intro _; simp
  | cons a l ih =>
    intro h
    rw [List.map_cons, List.sum_cons, ← ih (fun v hv => h v (by simp [hv]))]
    obtain ⟨i, hi, rfl⟩ := List.mem_iff_getElem.1 (h a (by simp))
    have : atV vs x vs[i] = x ⟨i, hi⟩ := atV_get hvs x ⟨i, hi⟩
    rw [this]
    have h2 : ∀ j : Fin vs.length, (((vs[i] :: l).filter (fun v => v = vs[j])).length : ℚ) * x j =
        (if j = ⟨i, hi⟩ then x j else 0) + ((l.filter (fun v => v = vs[j])).length : ℚ) * x j := by
      intro j
      rw [List.filter_cons]
      by_cases hj : j = ⟨i, hi⟩
      · subst hj; simp; ring
      · have : ¬ vs[i] = vs[j] := by
          intro hh
          apply hj
          have := (hvs.getElem_inj_iff (hi := hi) (hj := j.2)).1 hh
          exact Fin.ext this.symm
        rw [if_neg (by simpa using this), if_neg hj, zero_add]
    simp only [h2]
    rw [Finset.sum_add_distrib, Finset.sum_ite_eq' Finset.univ (⟨i, hi⟩ : Fin vs.length) x]
    simp

theorem laplacian_mulVec (g : Graph T) (x : Fin g.vertices.length → ℚ) (i : Fin g.vertices.length) (hi : i.1 ≠ 0) :
    (∑ j, (pinnedLaplacian g.edges g.vertices i j : ℚ) * x j) =
      ((g.inc g.vertices[i]).map (fun e => atV g.vertices x e.head - atV g.vertices x e.tail)).sum := by
  have h1 : ∀ j, (pinnedLaplacian g.edges g.vertices i j : ℚ) * x j =
      (if i = j then ((g.inc g.vertices[i]).length : ℚ) * x j else 0) -
      ((((g.inc g.vertices[i]).map Edge.tail).filter (fun v => v = g.vertices[j])).length : ℚ) * x j := by
    intro j
    unfold pinnedLaplacian
    rw [if_neg hi, neighbours_eq, List.length_map, List.filter_map, List.length_map, List.filter_map, List.length_map]
    have : ((fun v => decide (v = g.vertices[j])) ∘ Edge.tail : Edge T → Bool) =
      ((fun p : Nat × T => decide (p.1 = g.vertices[j])) ∘ fun e : Edge T => (e.tail, e.shift)) := rfl
    rw [this]
    by_cases hij : i = j
    · subst hij; simp; ring
    · simp [hij]
  simp only [h1]
  rw [Finset.sum_sub_distrib, sum_by_index g.vertices g.vertices_nodup x, Finset.sum_ite_eq]
  · rw [if_pos (Finset.mem_univ _)]
    have h2 : ((g.inc g.vertices[i]).map (fun e => atV g.vertices x e.head)) =
        ((g.inc g.vertices[i]).map (fun _ => x i)) := by
      apply List.map_congr_left
      intro e he
      rw [((g.mem_inc _ _).1 he).2, atV_get g.vertices_nodup]
    rw [List.sum_map_sub_rat, h2]
    simp [List.map_map, Function.comp_def]
  · intro v hv
    obtain ⟨e, he, rfl⟩ := List.mem_map.1 hv
    exact g.tail_mem ((g.mem_inc _ _).1 he).1

theorem laplacian_row0 (g : Graph T) (x : Fin g.vertices.length → ℚ) (i : Fin g.vertices.length) (hi : i.1 = 0) :
    (∑ j, (pinnedLaplacian g.edges g.vertices i j : ℚ) * x j) = x i := by
  have : ∀ j, (pinnedLaplacian g.edges g.vertices i j : ℚ) * x j = if i = j then x j else 0 := by
    intro j
    unfold pinnedLaplacian
    rw [if_pos hi]
    by_cases hij : i = j
    · subst hij; simp [hi]
    · have : j.1 ≠ 0 := fun h => hij (Fin.ext (hi.trans h.symm))
      simp [hij, this]
  simp only [this]
  rw [Finset.sum_ite_eq]; simp

/-! ### connectivity and the determinant -/

/-- energy argument: a vector in the kernel is constant on edges -/
theorem kernel_const (g : Graph T) (x : Fin g.vertices.length → ℚ)
    (hx : ∀ i, (∑ j, (pinnedLaplacian g.edges g.vertices i j : ℚ) * x j) = 0) :
    ∀ e, IsDirected g.edges e → atV g.vertices x e.head = atV g.vertices x e.tail := by
  set y := atV g.vertices x
  have h1 : (g.vertices.map (fun v => ((g.inc v).map (fun e => y e.head * (y e.head - y e.tail))).sum)).sum = 0 := by
    apply List.sum_eq_zero
    intro s hs
    obtain ⟨v, hv, rfl⟩ := List.mem_map.1 hs
    obtain ⟨i, hi, rfl⟩ := List.mem_iff_getElem.1 hv
    have h2 : ((g.inc g.vertices[i]).map (fun e => y e.head * (y e.head - y e.tail))) =
        ((g.inc g.vertices[i]).map (fun e => x ⟨i, hi⟩ * (y e.head - y e.tail))) := by
      apply List.map_congr_left
      intro e he
      have hh := ((g.mem_inc _ _).1 he).2
      have h3 : y g.vertices[i] = x ⟨i, hi⟩ := atV_get g.vertices_nodup x ⟨i, hi⟩
      rw [hh, h3]
    rw [h2, List.sum_map_mul_left]
    by_cases h0 : i = 0
    · have := hx ⟨i, hi⟩
      rw [laplacian_row0 g x ⟨i, hi⟩ h0] at this
      rw [this, zero_mul]
    · have := hx ⟨i, hi⟩
      rw [laplacian_mulVec g x ⟨i, hi⟩ h0] at this
      have h4 : ((g.inc g.vertices[i]).map (fun e => y e.head - y e.tail)).sum = 0 := this
      rw [h4, mul_zero]
  rw [sum_inc] at h1
  have h5 : ∀ e ∈ g.edges, y e.head = y e.tail := by
    intro e he
    have h6 : ∀ z ∈ g.edges.map (fun e => y e.head * (y e.head - y e.tail) + y e.neg.head * (y e.neg.head - y e.neg.tail)),
        (0 : ℚ) ≤ z := by
      intro z hz
      obtain ⟨f, -, rfl⟩ := List.mem_map.1 hz
      simp only [Edge.neg]
      nlinarith [sq_nonneg (y f.head - y f.tail)]
    have h7 := List.all_zero_of_le_zero_le_of_sum_eq_zero (fun {z} hz => h6 z hz) h1
      (List.mem_map.2 ⟨e, he, rfl⟩)
    simp only [Edge.neg] at h7
    have : (y e.head - y e.tail) ^ 2 = 0 := by linear_combination h7
    have := pow_eq_zero_iff (two_ne_zero) |>.1 this
    linarith
  intro e he
  rcases (isDirected_iff _ _).1 he with h | h
  · exact h5 e h
  · have := h5 _ h
    exact this.symm

theorem det_cast_ne_zero {n : Nat} (A : Matrix (Fin n) (Fin n) ℤ) :
    (A.map (fun x => (x : ℚ))).det ≠ 0 ↔ A.det ≠ 0 := by
  have : (A.map (fun x => (x : ℚ))).det = ((A.det : ℤ) : ℚ) := by
    have := (Int.castRingHom ℚ).map_det A
    simpa using this.symm
  rw [this]
  exact_mod_cast Iff.rfl

theorem vertices_first (g : Graph T) (hne : g.vertices ≠ []) : 0 < g.vertices.length := List.length_pos_iff.2 hne

theorem det_ne_zero_of_connected (g : Graph T) (hc : QuotientConnected g.edges) :
    (pinnedLaplacian g.edges g.vertices).det ≠ 0 := by
  rw [← det_cast_ne_zero]
  intro h
  obtain ⟨x, hx0, hx⟩ := Matrix.exists_mulVec_eq_zero_iff.2 h
  have hk : ∀ i, (∑ j, (pinnedLaplacian g.edges g.vertices i j : ℚ) * x j) = 0 := fun i => congrFun hx i
  have hc' := kernel_const g x hk
  have hstep : ∀ v w, QJoined g.edges v w → atV g.vertices x v = atV g.vertices x w := by
    intro v w h
    induction h with
    | refl => rfl
    | tail _ h2 ih =>
      obtain ⟨e, he, rfl, rfl⟩ := h2
      rw [ih]; exact hc' e he
  apply hx0
  funext i
  have hpos : 0 < g.vertices.length := lt_of_le_of_lt (Nat.zero_le _) i.2
  have h0 := hk ⟨0, hpos⟩
  rw [laplacian_row0 g x ⟨0, hpos⟩ rfl] at h0
  have hj := hstep g.vertices[(⟨0, hpos⟩ : Fin _)] g.vertices[i] (hc _ _
    ((g.mem_vertices _).1 (List.getElem_mem _)) ((g.mem_vertices _).1 (List.getElem_mem _)))
  rw [atV_get g.vertices_nodup, atV_get g.vertices_nodup] at hj
  rw [← hj, h0]; rfl

theorem det_zero_of_disconnected (g : Graph T) (hc : ¬ QuotientConnected g.edges) :
    (pinnedLaplacian g.edges g.vertices).det = 0 := by
  classical
  by_contra hd
  rw [← ne_eq, ← det_cast_ne_zero] at hd
  have hne : g.vertices ≠ [] := by
    rintro h
    apply hc
    intro v w hv
    rw [← g.mem_vertices, h] at hv
    simp at hv
  have hpos := vertices_first g hne
  set v0 := g.vertices[0]
  -- a vertex not joined to the first one
  have hex : ∃ w, w ∈ g.vertices ∧ ¬ QJoined g.edges v0 w := by
    by_contra hcon
    push Not at hcon
    apply hc
    intro v w hv hw
    have h1 := hcon v ((g.mem_vertices v).2 hv)
    have h2 := hcon w ((g.mem_vertices w).2 hw)
    exact (qjoined_symm h1).trans h2
  obtain ⟨w, hw, hwj⟩ := hex
  let x : Fin g.vertices.length → ℚ := fun i => if QJoined g.edges v0 g.vertices[i] then 0 else 1
  have hy : ∀ v ∈ g.vertices, atV g.vertices x v = if QJoined g.edges v0 v then 0 else 1 := by
    intro v hv
    obtain ⟨i, hi, rfl⟩ := List.mem_iff_getElem.1 hv
    exact atV_get g.vertices_nodup x ⟨i, hi⟩
  have hk : ((pinnedLaplacian g.edges g.vertices).map (fun x => (x : ℚ))).mulVec x = 0 := by
    funext i
    show (∑ j, (pinnedLaplacian g.edges g.vertices i j : ℚ) * x j) = 0
    by_cases h0 : i.1 = 0
    · rw [laplacian_row0 g x i h0]
      show (if QJoined g.edges v0 g.vertices[i] then (0:ℚ) else 1) = 0
      rw [if_pos]
      have : g.vertices[i] = v0 := by
        simp only [v0, Fin.getElem_fin, h0]
      rw [this]; exact Relation.ReflTransGen.refl
    · rw [laplacian_mulVec g x i h0]
      apply List.sum_eq_zero
      intro s hs
      obtain ⟨e, he, rfl⟩ := List.mem_map.1 hs
      have hd := ((g.mem_inc _ _).1 he).1
      rw [hy _ (g.head_mem hd), hy _ (g.tail_mem hd)]
      have : QJoined g.edges v0 e.head ↔ QJoined g.edges v0 e.tail :=
        ⟨fun h => h.tail ⟨e, hd, rfl, rfl⟩, fun h => h.tail ⟨e.neg, isDirected_neg.2 hd, rfl, rfl⟩⟩
      simp [this]
  have hx := Matrix.eq_zero_of_mulVec_eq_zero hd hk
  obtain ⟨i, hi, rfl⟩ := List.mem_iff_getElem.1 hw
  have := congrFun hx ⟨i, hi⟩
  simp only [x, Pi.zero_apply] at this
  rw [if_neg (by exact hwj)] at this
  exact one_ne_zero this

/-! ### placements -/

theorem hneg_of_small (g : Graph T) (h : g.edges.length < 9999991) (i j : Fin g.vertices.length) :
    ¬ (pinnedLaplacian g.edges g.vertices i j < 0 ∧ Modular.thePrime ∣ pinnedLaplacian g.edges g.vertices i j) := by
  rintro ⟨h1, h2⟩
  unfold pinnedLaplacian at h1 h2
  by_cases h0 : i.1 = 0
  · rw [if_pos h0] at h1
    by_cases hj : j.1 = 0 <;> simp [hj] at h1
  · rw [if_neg h0] at h1 h2
    by_cases hij : i = j
    · subst hij
      rw [if_pos rfl] at h1
      have := List.length_filter_le (fun p : Nat × T => decide (p.1 = g.vertices[i])) (neighbours g.edges g.vertices[i])
      omega
    · rw [if_neg hij, zero_sub] at h1 h2
      have hle : ((neighbours g.edges g.vertices[i]).filter (fun p => p.1 = g.vertices[j])).length ≤ g.edges.length := by
        have hne : g.vertices[i] ≠ g.vertices[j] := by
          intro hh
          exact hij (Fin.ext ((g.vertices_nodup.getElem_inj_iff (hi := i.2) (hj := j.2)).1 hh))
        unfold neighbours
        generalize g.vertices[i] = a at hne
        generalize g.vertices[j] = b at hne
        induction g.edges with
        | nil => simp
        | cons e es ih =>
          rw [List.flatMap_cons, List.filter_append, List.length_append, List.length_cons]
          have : (((if e.head = a then [(e.tail, e.shift)] else []) ++
              (if e.tail = a then [(e.head, -e.shift)] else [])).filter (fun p => decide (p.1 = b))).length ≤ 1 := by
            by_cases c1 : e.head = a <;> by_cases c2 : e.tail = a
            · simp [c1, c2, hne]
            · by_cases c3 : e.tail = b <;> simp [c1, c2, c3] <;> omega
            · by_cases c3 : e.head = b <;> simp [c1, c2, c3] <;> omega
            · simp [c1, c2]
          omega
      obtain ⟨c, hc⟩ := h2
      simp only [Modular.thePrime] at hc
      omega

theorem placement_ok (g : Graph T) (hne : g.vertices ≠ []) (hsm : g.edges.length < 9999991)
    (hdet : ¬ Modular.thePrime ∣ (pinnedLaplacian g.edges g.vertices).det) (steps : Nat)
    (hs : Modular.stepsNeeded (pinnedLaplacian g.edges g.vertices) (shiftSums g.edges g.vertices) 9999991 ≤ steps) :
    ∃ X : Matrix (Fin g.vertices.length) (Fin (LabelVector.dim T)) ℚ,
      placement steps g = .ok (g.vertices.zip (List.ofFn (fun i => List.ofFn (X i)))) ∧
      (pinnedLaplacian g.edges g.vertices).map (fun x => (x : ℚ)) * X =
        (shiftSums g.edges g.vertices).map (fun x => (x : ℚ)) := by
  obtain ⟨X, h1, h2⟩ := Modular.C23_exact_solution (vertices_first g hne) _ (shiftSums g.edges g.vertices)
    (hneg_of_small g hsm) hdet steps hs
  refine ⟨X, ?_, h2⟩
  unfold placement
  rw [laplaceSystem_ok g hne]
  simp only [Outcome.ok_bind, h1, unwrap]
  rw [omap_range (g := fun i => List.ofFn (X i)) (fun i => Modular.vecGet_toLists X i)]
  rfl

/-- Without a bound on the number of edges: right, or a panic, which needs many edges. -/
theorem placement_any (g : Graph T) (hne : g.vertices ≠ [])
    (hdet : ¬ Modular.thePrime ∣ (pinnedLaplacian g.edges g.vertices).det) (steps : Nat)
    (hs : Modular.stepsNeeded (pinnedLaplacian g.edges g.vertices) (shiftSums g.edges g.vertices) 9999991 ≤ steps) :
    (placement steps g = .panic ∧ 9999991 ≤ g.edges.length) ∨
    ∃ X : Matrix (Fin g.vertices.length) (Fin (LabelVector.dim T)) ℚ,
      placement steps g = .ok (g.vertices.zip (List.ofFn (fun i => List.ofFn (X i)))) ∧
      (pinnedLaplacian g.edges g.vertices).map (fun x => (x : ℚ)) * X =
        (shiftSums g.edges g.vertices).map (fun x => (x : ℚ)) := by
  rcases Modular.C23_any (vertices_first g hne) (pinnedLaplacian g.edges g.vertices) (shiftSums g.edges g.vertices)
    steps hs with ⟨h1, i, j, h2⟩ | ⟨-, X, h1, h2⟩ | ⟨h1, -⟩
  · left
    refine ⟨?_, ?_⟩
    · unfold placement
      rw [laplaceSystem_ok g hne]
      simp only [Outcome.ok_bind, h1]
      rfl
    · by_contra hcon
      exact hneg_of_small g (by omega) i j h2
  · right
    refine ⟨X, ?_, h2⟩
    unfold placement
    rw [laplaceSystem_ok g hne]
    simp only [Outcome.ok_bind, h1, unwrap]
    rw [omap_range (g := fun i => List.ofFn (X i)) (fun i => Modular.vecGet_toLists X i)]
    rfl
  · exact absurd h1 hdet

theorem placement_panic (g : Graph T)
    (hdet : g.vertices = [] ∨ Modular.thePrime ∣ (pinnedLaplacian g.edges g.vertices).det) (steps : Nat) :
    placement steps g = .panic := by
  by_cases hne : g.vertices = []
  · unfold placement laplaceSystem
    simp [hne]
  · unfold placement
    rw [laplaceSystem_ok g hne]
    simp only [Outcome.ok_bind]
    rcases Modular.C23_any_none (vertices_first g hne) _ (Modular.toLists (shiftSums g.edges g.vertices))
      (hdet.resolve_left hne) steps with h | ⟨h, -⟩ <;> rw [h] <;> rfl

/-- The equations for all vertices but the first are those of a barycentric placement. -/
theorem barycentric_iff (g : Graph T) (hne : g.vertices ≠ [])
    (X : Matrix (Fin g.vertices.length) (Fin (LabelVector.dim T)) ℚ) :
    (pinnedLaplacian g.edges g.vertices).map (fun x => (x : ℚ)) * X =
        (shiftSums g.edges g.vertices).map (fun x => (x : ℚ)) ↔
      (∀ k, X ⟨0, vertices_first g hne⟩ k = 0) ∧
        IsBarycentric g.edges g.vertices (fun v k => atV g.vertices (fun i => X i k) v) := by
  have hrow : ∀ i k, ((pinnedLaplacian g.edges g.vertices).map (fun x => (x : ℚ)) * X) i k =
      ∑ j, (pinnedLaplacian g.edges g.vertices i j : ℚ) * X j k := by
    intro i k; rw [Matrix.mul_apply]; rfl
  -- one equation, for a vertex
  have hv : ∀ (v : Nat) (k : Fin (LabelVector.dim T)) (y : Nat → ℚ),
      ((((neighbours g.edges v).length : ℚ) * y v =
        ((neighbours g.edges v).map (fun p => y p.1 + ((rent (LabelVector.toVec p.2) k.1 : ℤ) : ℚ))).sum) ↔
      ((g.inc v).map (fun e => y e.head - y e.tail - ((rent (LabelVector.toVec e.shift) k.1 : ℤ) : ℚ))).sum = 0) := by
    intro v k y
    rw [neighbours_eq, List.length_map, List.map_map]
    have h2 : ((g.inc v).map (fun e => y e.head)) = ((g.inc v).map (fun _ => y v)) := by
      apply List.map_congr_left
      intro e he
      rw [((g.mem_inc _ _).1 he).2]
    have h3 : ((g.inc v).map (fun e => y e.head)).sum = ((g.inc v).length : ℚ) * y v := by
      rw [h2]; simp
    rw [List.sum_map_sub_rat, List.sum_map_sub_rat, h3]
    have h4 : ((g.inc v).map ((fun p : Nat × T => y p.1 + ((rent (LabelVector.toVec p.2) k.1 : ℤ) : ℚ)) ∘
        fun e => (e.tail, e.shift))).sum = ((g.inc v).map (fun e => y e.tail)).sum +
          ((g.inc v).map (fun e => ((rent (LabelVector.toVec e.shift) k.1 : ℤ) : ℚ))).sum := by
      rw [← List.sum_map_add]; rfl
    rw [h4]
    constructor <;> intro h <;> linarith
  have hcast : ∀ (l : List (Edge T)) (k : Nat), (((l.map (fun e => rent (LabelVector.toVec e.shift) k)).sum : ℤ) : ℚ) =
      (l.map (fun e => ((rent (LabelVector.toVec e.shift) k : ℤ) : ℚ))).sum := by
    intro l k
    induction l with
    | nil => simp
    | cons e l ih => simp [ih]
  -- one equation of the system
  have hsys : ∀ (i : Fin g.vertices.length) (k), i.1 ≠ 0 →
      ((∑ j, (pinnedLaplacian g.edges g.vertices i j : ℚ) * X j k) = (shiftSums g.edges g.vertices i k : ℚ) ↔
      ((g.inc g.vertices[i]).map (fun e => atV g.vertices (fun i => X i k) e.head -
        atV g.vertices (fun i => X i k) e.tail - ((rent (LabelVector.toVec e.shift) k.1 : ℤ) : ℚ))).sum = 0) := by
    intro i k hi
    rw [laplacian_mulVec g (fun j => X j k) i hi]
    unfold shiftSums
    rw [if_neg hi, neighbours_eq, List.map_map]
    have := hcast (g.inc g.vertices[i]) k
    simp only [Function.comp_def]
    rw [List.sum_map_sub_rat (f := fun e : Edge T => atV g.vertices (fun i => X i k) e.head -
        atV g.vertices (fun i => X i k) e.tail), this, sub_eq_zero]
  constructor
  · intro h
    have hi : ∀ i k, ∑ j, (pinnedLaplacian g.edges g.vertices i j : ℚ) * X j k =
        (shiftSums g.edges g.vertices i k : ℚ) := by
      intro i k; rw [← hrow, h]; rfl
    refine ⟨fun k => ?_, fun v hvm k => ?_⟩
    · have := hi ⟨0, vertices_first g hne⟩ k
      rw [laplacian_row0 g (fun j => X j k) ⟨0, vertices_first g hne⟩ rfl] at this
      simpa [shiftSums] using this
    · rw [hv v k (atV g.vertices (fun i => X i k))]
      set f : Edge T → ℚ := fun e => atV g.vertices (fun i => X i k) e.head -
        atV g.vertices (fun i => X i k) e.tail - ((rent (LabelVector.toVec e.shift) k.1 : ℤ) : ℚ)
      obtain ⟨i, hilt, rfl⟩ := List.mem_iff_getElem.1 hvm
      by_cases h0 : i = 0
      · -- the first vertex: all other sums vanish, and the total vanishes
        have htot := sum_inc g f
        have hz : (g.edges.map (fun e => f e + f e.neg)).sum = 0 := by
          apply List.sum_eq_zero
          intro s hs
          obtain ⟨e, -, rfl⟩ := List.mem_map.1 hs
          simp only [f, Edge.neg, LawfulLabelVector.toVec_neg]
          push_cast; ring
        rw [hz] at htot
        subst h0
        have hsplit : g.vertices = g.vertices[0] :: g.vertices.tail := by
          rw [List.getElem_zero]; exact (List.cons_head_tail hne).symm
        have hrest : ∀ w ∈ g.vertices.tail, ((g.inc w).map f).sum = 0 := by
          intro w hw
          obtain ⟨m, hm, rfl⟩ := List.mem_iff_getElem.1 hw
          have hm' : m + 1 < g.vertices.length := by
            rw [List.length_tail] at hm; omega
          have := (hsys ⟨m + 1, hm'⟩ k (by simp)).1 (hi _ _)
          rw [List.getElem_tail]
          exact this
        rw [hsplit, List.map_cons, List.sum_cons] at htot
        have : (g.vertices.tail.map (fun v => ((g.inc v).map f).sum)).sum = 0 := by
          apply List.sum_eq_zero
          intro s hs
          obtain ⟨w, hw, rfl⟩ := List.mem_map.1 hs
          exact hrest w hw
        rw [this, add_zero] at htot
        exact htot
      · exact (hsys ⟨i, hilt⟩ k h0).1 (hi _ _)
  · rintro ⟨h0, hb⟩
    ext i k
    rw [hrow]
    show _ = (shiftSums g.edges g.vertices i k : ℚ)
    by_cases hi : i.1 = 0
    · rw [laplacian_row0 g (fun j => X j k) i hi]
      have : i = ⟨0, vertices_first g hne⟩ := Fin.ext hi
      rw [this, h0]
      simp [shiftSums]
    · rw [hsys i k hi]
      have := (hv g.vertices[i] k (atV g.vertices (fun i => X i k))).1 (hb _ (List.getElem_mem _) k)
      exact this

/-- What a solution of the equations gives for the table of positions. -/
theorem position_of_solution (g : Graph T) (hne : g.vertices ≠ [])
    (hdet : ¬ Modular.thePrime ∣ (pinnedLaplacian g.edges g.vertices).det)
    (X : Matrix (Fin g.vertices.length) (Fin (LabelVector.dim T)) ℚ)
    (h2 : (pinnedLaplacian g.edges g.vertices).map (fun x => (x : ℚ)) * X =
        (shiftSums g.edges g.vertices).map (fun x => (x : ℚ))) :
    ∃ pos : Nat → Fin (LabelVector.dim T) → ℚ,
      (∀ v ∈ g.vertices, (g.vertices.zip (List.ofFn (fun i => List.ofFn (X i)))).lookup v =
        some (List.ofFn (pos v))) ∧
      (∀ v, v ∉ g.vertices → (g.vertices.zip (List.ofFn (fun i => List.ofFn (X i)))).lookup v = none) ∧
      (∀ k, pos (g.vertices.head hne) k = 0) ∧ IsBarycentric g.edges g.vertices pos ∧
      ∀ pos' : Nat → Fin (LabelVector.dim T) → ℚ, (∀ k, pos' (g.vertices.head hne) k = 0) →
        IsBarycentric g.edges g.vertices pos' → ∀ v ∈ g.vertices, pos' v = pos v := by
  obtain ⟨h3, h4⟩ := (barycentric_iff g hne X).1 h2
  have hget : ∀ (Y : Matrix (Fin g.vertices.length) (Fin (LabelVector.dim T)) ℚ) (i : Fin g.vertices.length),
      (fun k => atV g.vertices (fun i => Y i k) g.vertices[i]) = Y i := by
    intro Y i
    funext k
    rw [atV_get g.vertices_nodup]
  have hhead : g.vertices.head hne = g.vertices[(⟨0, vertices_first g hne⟩ : Fin _)] := (List.getElem_zero _).symm
  refine ⟨_, fun v hv => ?_, fun v hv => ?_, fun k => ?_, h4, fun pos' hp0 hpb v hv => ?_⟩
  · obtain ⟨i, hi, rfl⟩ := List.mem_iff_getElem.1 hv
    have := lookup_zip_ofFn g.vertices g.vertices_nodup (fun i => List.ofFn (X i)) ⟨i, hi⟩
    have h5 : (fun k => atV g.vertices (fun i => X i k) g.vertices[i]) = X ⟨i, hi⟩ := hget X ⟨i, hi⟩
    rw [h5]
    exact this
  · rw [List.lookup_eq_none_iff]
    rintro ⟨w, p⟩ hw
    have := (List.of_mem_zip hw).1
    simp only [bne_iff_ne, ne_eq, beq_eq_false_iff_ne]
    rintro rfl
    exact hv this
  · have := congrFun (hget X ⟨0, vertices_first g hne⟩) k
    rw [hhead]
    exact this.trans (h3 k)
  · let Y : Matrix (Fin g.vertices.length) (Fin (LabelVector.dim T)) ℚ := fun i => pos' g.vertices[i]
    have hY : ∀ v ∈ g.vertices, ∀ k, atV g.vertices (fun i => Y i k) v = pos' v k := by
      intro v hv k
      obtain ⟨i, hi, rfl⟩ := List.mem_iff_getElem.1 hv
      exact atV_get g.vertices_nodup _ ⟨i, hi⟩
    have hYb := (barycentric_iff g hne Y).2 ⟨fun k => by rw [← hp0 k, hhead], fun v hv k => ?_⟩
    · have hd : ((pinnedLaplacian g.edges g.vertices).map (fun x => (x : ℚ))).det ≠ 0 := by
        rw [det_cast_ne_zero]
        intro h
        exact hdet (h ▸ dvd_zero _)
      have hXY : X = Y := by
        have hu : IsUnit ((pinnedLaplacian g.edges g.vertices).map (fun x => (x : ℚ))).det := isUnit_iff_ne_zero.2 hd
        have := congrArg (fun M => ((pinnedLaplacian g.edges g.vertices).map (fun x => (x : ℚ)))⁻¹ * M) (h2.trans hYb.symm)
        simpa [← Matrix.mul_assoc, Matrix.nonsing_inv_mul _ hu] using this
      funext k
      rw [hXY]
      exact (hY v hv k).symm
    · have := hpb v hv k
      simp only
      rw [hY v hv, this]
      congr 1
      apply List.map_congr_left
      rintro ⟨w, s⟩ hp
      rw [neighbours_eq] at hp
      obtain ⟨e, he, h⟩ := List.mem_map.1 hp
      have : w = e.tail := by rw [Prod.mk.injEq] at h; exact h.1.symm
      rw [hY w (this ▸ g.tail_mem ((g.mem_inc _ _).1 he).1)]

/-- The vertices in order, the first one at the origin, and the barycentre condition. -/
theorem position_ok (g : Graph T) (hne : g.vertices ≠ []) (hsm : g.edges.length < 9999991)
    (hdet : ¬ Modular.thePrime ∣ (pinnedLaplacian g.edges g.vertices).det) (steps : Nat)
    (hs : Modular.stepsNeeded (pinnedLaplacian g.edges g.vertices) (shiftSums g.edges g.vertices) 9999991 ≤ steps) :
    ∃ (tb : PosTable) (pos : Nat → Fin (LabelVector.dim T) → ℚ), placement steps g = .ok tb ∧
      (∀ v ∈ g.vertices, tb.lookup v = some (List.ofFn (pos v))) ∧
      (∀ v, v ∉ g.vertices → tb.lookup v = none) ∧
      (∀ k, pos (g.vertices.head hne) k = 0) ∧ IsBarycentric g.edges g.vertices pos ∧
      ∀ pos' : Nat → Fin (LabelVector.dim T) → ℚ, (∀ k, pos' (g.vertices.head hne) k = 0) →
        IsBarycentric g.edges g.vertices pos' → ∀ v ∈ g.vertices, pos' v = pos v := by
  obtain ⟨X, h1, h2⟩ := placement_ok g hne hsm hdet steps hs
  obtain ⟨pos, h⟩ := position_of_solution g hne hdet X h2
  exact ⟨_, pos, h1, h⟩

/-- The same without a bound on the number of edges. -/
theorem position_any (g : Graph T) (hne : g.vertices ≠ [])
    (hdet : ¬ Modular.thePrime ∣ (pinnedLaplacian g.edges g.vertices).det) (steps : Nat)
    (hs : Modular.stepsNeeded (pinnedLaplacian g.edges g.vertices) (shiftSums g.edges g.vertices) 9999991 ≤ steps) :
    (placement steps g = .panic ∧ 9999991 ≤ g.edges.length) ∨
    ∃ (tb : PosTable) (pos : Nat → Fin (LabelVector.dim T) → ℚ), placement steps g = .ok tb ∧
      (∀ v ∈ g.vertices, tb.lookup v = some (List.ofFn (pos v))) ∧
      (∀ v, v ∉ g.vertices → tb.lookup v = none) ∧
      (∀ k, pos (g.vertices.head hne) k = 0) ∧ IsBarycentric g.edges g.vertices pos ∧
      ∀ pos' : Nat → Fin (LabelVector.dim T) → ℚ, (∀ k, pos' (g.vertices.head hne) k = 0) →
        IsBarycentric g.edges g.vertices pos' → ∀ v ∈ g.vertices, pos' v = pos v := by
  rcases placement_any g hne hdet steps hs with h | ⟨X, h1, h2⟩
  · exact Or.inl h
  · obtain ⟨pos, h⟩ := position_of_solution g hne hdet X h2
    exact Or.inr ⟨_, pos, h1, h⟩

end
end Systre
