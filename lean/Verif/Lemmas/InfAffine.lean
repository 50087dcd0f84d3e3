import Verif.Lemmas.Harmonic
import Verif.Spec.InfiniteSymmetry
import Verif.Lemmas.Stability
import Verif.Lemmas.SymTransfer
import Verif.Lemmas.PeriodicIso
import Verif.Lemmas.Ladder

/-!
# Symmetries of the infinite graph are affine

The coordinates of the barycentric places are harmonic functions; so are their compositions with a symmetry of
the infinite graph.
-/

set_option linter.unusedSectionVars false

namespace Systre

section
variable {T : Type} [LabelVector T] [LawfulLabelVector T] {raw raw' : List (Edge T)}
  {pos pos' : Nat → Fin (LabelVector.dim T) → ℚ}

theorem inc_filter_nodup (raw : List (Edge T)) (v : Nat) :
    (((Graph.new raw).inc v).filter (fun e => e.neg ≠ e)).Nodup := by
  have hwf := wf_new raw
  unfold Graph.inc
  rw [List.filter_filter]
  rw [List.filter_flatMap]
  rw [List.nodup_flatMap]
  refine ⟨fun e _ => ?_, ?_⟩
  · by_cases h : e.neg = e
    · have : [e, e.neg].filter (fun a => decide (a.neg ≠ a) && decide (a.head = v)) = [] := by
        rw [List.filter_eq_nil_iff]
        intro a ha
        simp only [List.mem_cons, List.not_mem_nil, or_false] at ha
        rcases ha with rfl | rfl
        · simp [h]
        · simp [h]
      rw [this]
      exact List.nodup_nil
    · refine List.Nodup.filter _ ?_
      simp only [List.nodup_cons, List.mem_singleton, List.not_mem_nil, not_false_eq_true, List.nodup_nil, and_true]
      exact fun h2 => h h2.symm
  · have hnd : (Graph.new raw).edges.Pairwise (· ≠ ·) := hwf.sorted.imp (fun h => ne_of_lt h)
    refine hnd.imp_of_mem ?_
    intro e f he hf hne a ha hb
    have ha := (List.mem_filter.1 ha).1
    have hb := (List.mem_filter.1 hb).1
    simp only [List.mem_cons, List.not_mem_nil, or_false] at ha hb
    apply hne
    rw [← hwf.canon e he, ← hwf.canon f hf]
    have e1 : a.canonical = e.canonical := by rcases ha with rfl | rfl <;> simp [canonical_neg]
    have e2 : a.canonical = f.canonical := by rcases hb with rfl | rfl <;> simp [canonical_neg]
    rw [← e1, ← e2]

theorem sum_filter_zero {α : Type} (F : α → ℚ) (p : α → Bool) (h : ∀ a, p a = false → F a = 0) (l : List α) :
    ((l.filter p).map F).sum = (l.map F).sum := by
  induction l with
  | nil => rfl
  | cons a l ih =>
    rw [List.filter_cons]
    cases hp : p a
    · simp [ih, h a hp]
    · simp [ih]

theorem edgeVec_self_neg {e : Edge T} (h : e.neg = e) (k : Fin (LabelVector.dim T)) : edgeVec pos e k = 0 := by
  have := edgeVec_neg pos e k
  rw [h] at this
  linarith

theorem harmonic_place (hb : IsBarycentric (Graph.new raw).edges (Graph.new raw).vertices pos)
    (k : Fin (LabelVector.dim T)) : Harmonic raw (fun x => ((place pos x k : ℚ) : ℝ)) := by
  classical
  intro x hx
  have h1 := sum_edgeVec _ pos hb (mem_vertices_raw.2 hx) k
  rw [← sum_filter_zero (fun e => edgeVec pos e k) (fun e => decide (e.neg ≠ e)) (fun e he => by
    simp only [ne_eq, decide_not, Bool.not_eq_eq_eq_not, Bool.not_false, decide_eq_true_eq] at he
    exact edgeVec_self_neg he k)] at h1
  rw [← List.sum_toFinset _ (inc_filter_nodup raw x.1)] at h1
  unfold nbrSet
  rw [Finset.sum_image]
  · have h2 : ∀ e ∈ (finite_dirs raw).toFinset.filter (fun e => e.head = x.1),
        ((place pos (e.tail, x.2 + e.shift) k : ℚ) : ℝ) - ((place pos x k : ℚ) : ℝ) = ((edgeVec pos e k : ℚ) : ℝ) := by
      intro e he
      rw [← Rat.cast_sub]
      congr 1
      have hh := (Finset.mem_filter.1 he).2
      simp only [place, edgeVec_eq, shv_add, Pi.add_apply, Pi.sub_apply, hh]
      ring
    rw [Finset.sum_congr rfl h2, ← Rat.cast_sum]
    rw [← Rat.cast_zero, ← h1]
    congr 1
    symm
    apply Finset.sum_subset
    · intro e he
      rw [List.mem_toFinset, List.mem_filter, Graph.mem_inc, isDirected_new] at he
      rw [Finset.mem_filter, Set.Finite.mem_toFinset]
      exact he.1
    · intro e he hne
      apply edgeVec_self_neg
      by_contra h3
      apply hne
      rw [List.mem_toFinset, List.mem_filter, Graph.mem_inc, isDirected_new]
      rw [Finset.mem_filter, Set.Finite.mem_toFinset] at he
      exact ⟨he, by simpa using h3⟩
  · intro e he f hf hef
    have h1 := (Finset.mem_filter.1 he).2
    have h2 := (Finset.mem_filter.1 hf).2
    simp only [Prod.mk.injEq, add_right_inj] at hef
    obtain ⟨a, b, c⟩ := e
    obtain ⟨a', b', c'⟩ := f
    simp only at h1 h2 hef
    rw [h1, h2, hef.1, hef.2]

/-- one step changes a coordinate by a bounded amount -/
theorem exists_step_bound (raw : List (Edge T)) (pos : Nat → Fin (LabelVector.dim T) → ℚ)
    (k : Fin (LabelVector.dim T)) : ∃ C : ℝ, 0 ≤ C ∧ ∀ x y, Adj raw x y →
      |((place pos y k : ℚ) : ℝ) - ((place pos x k : ℚ) : ℝ)| ≤ C := by
  refine ⟨∑ e ∈ (finite_dirs raw).toFinset, |((edgeVec pos e k : ℚ) : ℝ)|,
    Finset.sum_nonneg (fun _ _ => abs_nonneg _), fun x y h => ?_⟩
  obtain ⟨e, he, -, -, -, h2⟩ := adj_place (pos := pos) h
  rw [← Rat.cast_sub, ← Pi.sub_apply, h2]
  exact Finset.single_le_sum (f := fun e => |((edgeVec pos e k : ℚ) : ℝ)|) (fun _ _ => abs_nonneg _)
    ((Set.Finite.mem_toFinset _).2 he)

/-- along a path, functions that change by at most `C` per step change by a bounded amount, uniformly in
translations -/
theorem exists_path_bound {x y : Nat × T} (h : Joined raw x y) : ∃ n : ℝ, 0 ≤ n ∧ ∀ (f : Nat × T → ℝ) (C : ℝ), 0 ≤ C →
    (∀ x y, Adj raw x y → |f y - f x| ≤ C) → ∀ r, |f (move r y) - f (move r x)| ≤ n * C := by
  induction h with
  | refl => exact ⟨0, le_rfl, fun f C _ _ r => by simp⟩
  | @tail y z _ h2 ih =>
    obtain ⟨n, hn, ih⟩ := ih
    refine ⟨n + 1, by linarith, fun f C hC hf r => ?_⟩
    have h3 := ih f C hC hf r
    have h4 := hf _ _ ((adj_move r).2 h2)
    have : f (move r z) - f (move r x) = (f (move r z) - f (move r y)) + (f (move r y) - f (move r x)) := by ring
    rw [this]
    refine (abs_add_le _ _).trans ?_
    linarith

theorem exists_move_bound (hc : PeriodicConnected raw) (t : T) : ∃ n : ℝ, ∀ (f : Nat × T → ℝ) (C : ℝ), 0 ≤ C →
    (∀ x y, Adj raw x y → |f y - f x| ≤ C) → ∀ x, IsVertex raw x.1 → |f (move t x) - f x| ≤ n * C := by
  obtain ⟨n, _, h⟩ := exists_uniform (Graph.new raw).vertices (P := fun v n => 
    ∀ (f : Nat × T → ℝ) (C : ℝ), 0 ≤ C →
    (∀ x y, Adj raw x y → |f y - f x| ≤ C) → ∀ r : T, |f (v, t + r) - f (v, 0 + r)| ≤ n * C) (by
      intro v K K' hKK h f C hC hf r
      exact (h f C hC hf r).trans (mul_le_mul_of_nonneg_right hKK hC)) (by
      intro v hv
      obtain ⟨n, _, h⟩ := exists_path_bound (hc v v (mem_vertices_raw.1 hv) (mem_vertices_raw.1 hv) 0 t)
      exact ⟨n, h⟩)
  refine ⟨n, fun f C hC hf x hx => ?_⟩
  have := h x.1 (mem_vertices_raw.2 hx) f C hC hf x.2
  rw [zero_add, add_comm t] at this
  exact this

/-- harmonic functions with bounded steps change by a constant under each translation -/
theorem Harmonic.increment (hc : PeriodicConnected raw) {f : Nat × T → ℝ} (hf : Harmonic raw f) {C : ℝ} (hC : 0 ≤ C)
    (hs : ∀ x y, Adj raw x y → |f y - f x| ≤ C) (t : T) {x y : Nat × T} (hx : IsVertex raw x.1) (hy : IsVertex raw y.1) :
    f (move t x) - f x = f (move t y) - f y := by
  obtain ⟨n, hn⟩ := exists_move_bound hc t
  exact ((hf.comp (isInfSymmetry_move t)).sub hf).const hc (fun x hx => hn f C hC hs x hx) hx hy

theorem place_move (t : T) (x : Nat × T) : place pos (move t x) = place pos x + shv t := by
  simp only [place, move, shv_add]
  abel

/-- an additive function of lattice vectors is linear -/
theorem exists_row (c : T →+ ℚ) : ∃ a : Fin (LabelVector.dim T) → ℚ, ∀ t, c t = ∑ j, a j * shv t j := by
  classical
  choose u hu using exists_unit (T := T)
  refine ⟨fun j => c (u j), fun t => ?_⟩
  have ht : t = ∑ k, (rent (LabelVector.toVec t) k.1 : ℤ) • u k := by
    apply shv_inj
    let S : T →+ (Fin (LabelVector.dim T) → ℚ) := ⟨⟨shv, shv_zero⟩, shv_add⟩
    show shv t = S _
    rw [map_sum]
    simp only [map_zsmul]
    ext j
    rw [Finset.sum_apply]
    have : ∀ k, ((rent (LabelVector.toVec t) k.1 : ℤ) • S (u k)) j =
        if k = j then ((rent (LabelVector.toVec t) j.1 : ℤ) : ℚ) else 0 := by
      intro k
      show ((rent (LabelVector.toVec t) k.1 : ℤ) • shv (u k)) j = _
      rw [hu]
      by_cases h : k = j
      · subst h; simp
      · simp [h, Ne.symm h]
    simp only [this, Finset.sum_ite_eq', Finset.mem_univ, if_true]
    rfl
  conv_lhs => rw [ht]
  rw [map_sum]
  refine Finset.sum_congr rfl (fun k _ => ?_)
  rw [map_zsmul, zsmul_eq_mul]
  simp only [shv]
  ring

/-- one coordinate of the image under a symmetry is an affine function of the place -/
theorem IsInfiniteIso.row (hc : PeriodicConnected raw)
    (hb : IsBarycentric (Graph.new raw).edges (Graph.new raw).vertices pos)
    (hb' : IsBarycentric (Graph.new raw').edges (Graph.new raw').vertices pos') {v0 : Nat} (hv0 : IsVertex raw v0)
    {Φ : Nat × T → Nat × T} (h : IsInfiniteIso raw raw' Φ) (k : Fin (LabelVector.dim T)) :
    ∃ (a : Fin (LabelVector.dim T) → ℚ) (c : ℚ), ∀ x, IsVertex raw x.1 →
      place pos' (Φ x) k = ∑ j, a j * place pos x j + c := by
  set f : Nat × T → ℝ := fun x => ((place pos' (Φ x) k : ℚ) : ℝ) with hfdef
  have hf : Harmonic raw f := (harmonic_place hb' k).comp h
  obtain ⟨C, hC, hs⟩ := exists_step_bound raw' pos' k
  have hs' : ∀ x y, Adj raw x y → |f y - f x| ≤ C := fun x y hxy =>
    hs _ _ ((h.2 x y hxy.vertex_left hxy.vertex_right).2 hxy)
  have hinc : ∀ t x, IsVertex raw x.1 →
      place pos' (Φ (move t x)) k - place pos' (Φ x) k = place pos' (Φ (v0, t)) k - place pos' (Φ (v0, 0)) k := by
    intro t x hx
    have h1 := hf.increment hc hC hs' t hx (y := (v0, 0)) hv0
    have h2 : move t (v0, (0 : T)) = (v0, t) := by simp [move]
    rw [h2] at h1
    simp only [hfdef] at h1
    exact_mod_cast h1
  let c : T →+ ℚ :=
    { toFun := fun t => place pos' (Φ (v0, t)) k - place pos' (Φ (v0, 0)) k
      map_zero' := by simp
      map_add' := fun s t => by
        have h1 := hinc t (v0, s) hv0
        have h2 : move t (v0, s) = (v0, s + t) := rfl
        rw [h2] at h1
        linarith }
  obtain ⟨a, ha⟩ := exists_row c
  have hl : Harmonic raw (fun x => ∑ j ∈ Finset.univ, (a j : ℝ) * ((place pos x j : ℚ) : ℝ)) :=
    Harmonic.sum (f := fun j x => (a j : ℝ) * ((place pos x j : ℚ) : ℝ)) (fun j _ => (harmonic_place hb j).smul _)
  have hd := hf.sub hl
  refine ⟨a, place pos' (Φ (v0, 0)) k - ∑ j, a j * place pos (v0, (0 : T)) j, fun x hx => ?_⟩
  have := hd.const_of_periodic hc (fun t x hx => by
    have h1 := hinc t x hx
    have h2 : place pos' (Φ (v0, t)) k - place pos' (Φ (v0, 0)) k = ∑ j, a j * shv t j := ha t
    rw [h2] at h1
    have h3 : ∑ j, a j * place pos (move t x) j = ∑ j, a j * place pos x j + ∑ j, a j * shv t j := by
      rw [← Finset.sum_add_distrib]
      refine Finset.sum_congr rfl (fun j _ => ?_)
      rw [place_move, Pi.add_apply]
      ring
    have h4 : place pos' (Φ (move t x)) k - ∑ j, a j * place pos (move t x) j =
        place pos' (Φ x) k - ∑ j, a j * place pos x j := by linarith
    simp only [hfdef]
    exact_mod_cast h4) hx (y := (v0, 0)) hv0
  simp only [hfdef] at this
  have h5 : place pos' (Φ x) k - ∑ j, a j * place pos x j =
      place pos' (Φ (v0, 0)) k - ∑ j, a j * place pos (v0, (0 : T)) j := by exact_mod_cast this
  linarith

/-- a symmetry of the infinite graph acts on the places as an affine map -/
theorem IsInfiniteIso.affine (hc : PeriodicConnected raw)
    (hb : IsBarycentric (Graph.new raw).edges (Graph.new raw).vertices pos)
    (hb' : IsBarycentric (Graph.new raw').edges (Graph.new raw').vertices pos') {v0 : Nat} (hv0 : IsVertex raw v0)
    {Φ : Nat × T → Nat × T} (h : IsInfiniteIso raw raw' Φ) :
    ∃ (A : Matrix (Fin (LabelVector.dim T)) (Fin (LabelVector.dim T)) ℚ) (s : Fin (LabelVector.dim T) → ℚ),
      ∀ x, IsVertex raw x.1 → place pos' (Φ x) = A.mulVec (place pos x) + s := by
  choose a c hac using fun k => h.row hc hb hb' hv0 k
  refine ⟨Matrix.of a, c, fun x hx => ?_⟩
  ext k
  rw [hac k x hx]
  rfl

/-- the inverse of an isomorphism -/
theorem IsInfiniteIso.exists_inv {Φ : Nat × T → Nat × T} (h : IsInfiniteIso raw raw' Φ) :
    ∃ Ψ, IsInfiniteIso raw' raw Ψ ∧
    (∀ x, IsVertex raw x.1 → Ψ (Φ x) = x) ∧ ∀ x, IsVertex raw' x.1 → Φ (Ψ x) = x := by
  classical
  have hex : ∀ x : Nat × T, ∃ y, IsVertex raw' x.1 → (IsVertex raw y.1 ∧ Φ y = x) := by
    intro x
    by_cases hx : IsVertex raw' x.1
    · obtain ⟨y, hy, h1⟩ := h.1.surjOn hx
      exact ⟨y, fun _ => ⟨hy, h1⟩⟩
    · exact ⟨x, fun h => absurd h hx⟩
  choose Ψ hΨ using hex
  have h1 : ∀ x, IsVertex raw x.1 → Ψ (Φ x) = x := fun x hx =>
    h.1.injOn (hΨ _ (h.1.mapsTo hx)).1 hx (hΨ _ (h.1.mapsTo hx)).2
  have h2 : ∀ x, IsVertex raw' x.1 → Φ (Ψ x) = x := fun x hx => (hΨ x hx).2
  refine ⟨Ψ, ⟨⟨fun x hx => (hΨ x hx).1, fun x hx y hy hxy => ?_, fun x hx => ⟨Φ x, h.1.mapsTo hx, h1 x hx⟩⟩, ?_⟩, h1, h2⟩
  · rw [← h2 x hx, ← h2 y hy, hxy]
  · intro x y hx hy
    rw [← h.2 (Ψ x) (Ψ y) (hΨ x hx).1 (hΨ y hy).1, h2 x hx, h2 y hy]

theorem IsInfiniteIso.comp {raw'' : List (Edge T)} {Φ Ψ : Nat × T → Nat × T} (h : IsInfiniteIso raw' raw'' Φ)
    (h' : IsInfiniteIso raw raw' Ψ) : IsInfiniteIso raw raw'' (fun x => Φ (Ψ x)) := by
  refine ⟨h.1.comp h'.1, fun x y hx hy => ?_⟩
  rw [h.2 _ _ (h'.1.mapsTo hx) (h'.1.mapsTo hy), h'.2 x y hx hy]

theorem joined_mono {x y : Nat × T} {Φ : Nat × T → Nat × T} (h : IsInfiniteIso raw raw' Φ) (hj : Joined raw x y) :
    Joined raw' (Φ x) (Φ y) := by
  induction hj with
  | refl => exact Relation.ReflTransGen.refl
  | tail _ h2 ih => exact ih.tail ((h.2 _ _ h2.vertex_left h2.vertex_right).2 h2)

theorem IsInfiniteIso.connected {Φ : Nat × T → Nat × T} (h : IsInfiniteIso raw raw' Φ) (hc : PeriodicConnected raw) :
    PeriodicConnected raw' := by
  intro v w hv hw s t
  obtain ⟨x, hx, hx'⟩ := h.1.surjOn (show (v, s) ∈ {x : Nat × T | IsVertex raw' x.1} from hv)
  obtain ⟨y, hy, hy'⟩ := h.1.surjOn (show (w, t) ∈ {x : Nat × T | IsVertex raw' x.1} from hw)
  rw [← hx', ← hy']
  exact joined_mono h (hc x.1 y.1 hx hy x.2 y.2)

/-- the affine map is unique -/
theorem affine_unique {v0 : Nat} (hv0 : IsVertex raw v0)
    {A B : Matrix (Fin (LabelVector.dim T)) (Fin (LabelVector.dim T)) ℚ} {s t : Fin (LabelVector.dim T) → ℚ}
    (h : ∀ x : Nat × T, IsVertex raw x.1 → A.mulVec (place pos x) + s = B.mulVec (place pos x) + t) : A = B ∧ s = t := by
  have hA : A = B := by
    apply mat_ext_shv
    intro r
    have h1 := h (v0, 0) hv0
    have h2 := h (v0, r) hv0
    simp only [place, shv_zero, add_zero, Matrix.mulVec_add] at h1 h2
    have e1 : A.mulVec (shv r) = (A.mulVec (pos v0) + A.mulVec (shv r) + s) - (A.mulVec (pos v0) + s) := by abel
    rw [e1, h1, h2]; abel
  subst hA
  exact ⟨rfl, add_left_cancel (h (v0, 0) hv0)⟩

theorem IsInfiniteIso.affine_inv (hc : PeriodicConnected raw)
    (hb : IsBarycentric (Graph.new raw).edges (Graph.new raw).vertices pos)
    (hb' : IsBarycentric (Graph.new raw').edges (Graph.new raw').vertices pos') {v0 : Nat} (hv0 : IsVertex raw v0)
    {Φ Ψ : Nat × T → Nat × T} (h : IsInfiniteIso raw raw' Φ) (hΨ : IsInfiniteIso raw' raw Ψ)
    (h1 : ∀ x, IsVertex raw x.1 → Ψ (Φ x) = x) :
    ∃ (A B : Matrix (Fin (LabelVector.dim T)) (Fin (LabelVector.dim T)) ℚ) (s t : Fin (LabelVector.dim T) → ℚ),
      B * A = 1 ∧ (∀ x, IsVertex raw x.1 → place pos' (Φ x) = A.mulVec (place pos x) + s) ∧
      ∀ x, IsVertex raw' x.1 → place pos (Ψ x) = B.mulVec (place pos' x) + t := by
  obtain ⟨A, s, hA⟩ := h.affine hc hb hb' hv0
  obtain ⟨B, t, hB⟩ := hΨ.affine (h.connected hc) hb' hb (h.1.mapsTo (show IsVertex raw (v0, (0 : T)).1 from hv0))
  refine ⟨A, B, s, t, ?_, hA, hB⟩
  refine (affine_unique (raw := raw) (pos := pos) (s := B.mulVec s + t) (t := 0) hv0 (fun x hx => ?_)).1
  rw [Matrix.one_mulVec, add_zero, ← Matrix.mulVec_mulVec, ← add_assoc, ← Matrix.mulVec_add, ← hA x hx,
    ← hB _ (h.1.mapsTo hx), h1 x hx]

theorem IsInfiniteIso.affine_unit (hc : PeriodicConnected raw)
    (hb : IsBarycentric (Graph.new raw).edges (Graph.new raw).vertices pos)
    (hb' : IsBarycentric (Graph.new raw').edges (Graph.new raw').vertices pos') {v0 : Nat} (hv0 : IsVertex raw v0)
    {Φ : Nat × T → Nat × T} (h : IsInfiniteIso raw raw' Φ) :
    ∃ (A : Matrix (Fin (LabelVector.dim T)) (Fin (LabelVector.dim T)) ℚ) (s : Fin (LabelVector.dim T) → ℚ),
      IsUnit A ∧ ∀ x, IsVertex raw x.1 → place pos' (Φ x) = A.mulVec (place pos x) + s := by
  obtain ⟨Ψ, hΨ, h1, -⟩ := h.exists_inv
  obtain ⟨A, B, s, t, key, hA, -⟩ := h.affine_inv hc hb hb' hv0 hΨ h1
  exact ⟨A, s, IsUnit.of_mul_eq_one B (mul_eq_one_comm.1 key), hA⟩

/-! ### symmetries that respect the lattice come from automorphisms of the quotient graph -/

theorem PlacesDistinct.inj (hd : PlacesDistinct raw pos) {x y : Nat × T} (hx : IsVertex raw x.1) (hy : IsVertex raw y.1)
    (h : place pos x = place pos y) : x = y := by
  have h1 : x.1 = y.1 := by
    refine hd _ _ hx hy (sameModLattice_iff.2 ⟨y.2 - x.2, ?_⟩)
    rw [shv_sub]
    have : pos x.1 + shv x.2 = pos y.1 + shv y.2 := h
    have e : pos x.1 - pos y.1 = (pos x.1 + shv x.2) - pos y.1 - shv x.2 := by abel
    rw [e, this]; abel
  refine Prod.ext h1 (shv_inj ?_)
  have : pos x.1 + shv x.2 = pos y.1 + shv y.2 := h
  rw [h1] at this
  exact add_left_cancel this

variable {A : Matrix (Fin (LabelVector.dim T)) (Fin (LabelVector.dim T)) ℚ} {s : Fin (LabelVector.dim T) → ℚ}

/-- the map of directed edges of a map of the infinite graph -/
def edgeImage (Φ : Nat × T → Nat × T) (e : Edge T) : Edge T :=
  ⟨(Φ (e.head, 0)).1, (Φ (e.tail, e.shift)).1, (Φ (e.tail, e.shift)).2 - (Φ (e.head, 0)).2⟩

theorem IsInfiniteIso.equivariant (hd : PlacesDistinct raw' pos') {Φ : Nat × T → Nat × T} (h : IsInfiniteIso raw raw' Φ)
    (hA : ∀ x, IsVertex raw x.1 → place pos' (Φ x) = A.mulVec (place pos x) + s) {L : T → T}
    (hL : ∀ t, shv (L t) = A.mulVec (shv t)) (t : T) {x : Nat × T} (hx : IsVertex raw x.1) :
    Φ (move t x) = move (L t) (Φ x) := by
  have hm : IsVertex raw (move t x).1 := hx
  refine hd.inj (h.1.mapsTo hm) (show IsVertex raw' (move (L t) (Φ x)).1 from h.1.mapsTo hx) ?_
  rw [hA (move t x) hm, place_move, place_move, hA x hx, hL, Matrix.mulVec_add]
  abel

theorem IsInfiniteIso.descends (hd : PlacesDistinct raw pos) {Φ : Nat × T → Nat × T} (h : IsInfiniteIso raw raw Φ)
    (hA : ∀ x, IsVertex raw x.1 → place pos (Φ x) = A.mulVec (place pos x) + s) {L : T → T}
    (hL : ∀ t, shv (L t) = A.mulVec (shv t)) :
    IsGraphAut raw pos (fun v => (Φ (v, 0)).1) (edgeImage Φ) A ∧
      ∀ x, IsVertex raw x.1 → (Φ x).1 = (Φ (x.1, 0)).1 := by
  have heq : ∀ t x, IsVertex raw x.1 → Φ (move t x) = move (L t) (Φ x) := fun t x hx => h.equivariant hd hA hL t hx
  have h1 : ∀ x, IsVertex raw x.1 → Φ x = move (L x.2) (Φ (x.1, 0)) := by
    intro x hx
    rw [← heq _ _ (show IsVertex raw (x.1, (0 : T)).1 from hx)]
    simp [move]
  have h2 : ∀ x, IsVertex raw x.1 → (Φ x).1 = (Φ (x.1, 0)).1 := fun x hx => by rw [h1 x hx]; rfl
  have hh : ∀ e, IsDirected raw e → IsVertex raw e.head := fun e he => (isVertex_iff _ _).2 ⟨e, he, rfl⟩
  have ht : ∀ e, IsDirected raw e → IsVertex raw e.tail := fun e he =>
    (isVertex_iff _ _).2 ⟨e.neg, isDirected_neg.2 he, rfl⟩
  have hfin : {v | IsVertex raw v}.Finite := by
    refine Set.Finite.subset (List.finite_toSet (Graph.new raw).vertices) (fun v hv => mem_vertices_raw.2 hv)
  have hmaps : Set.MapsTo (edgeImage Φ) {e | IsDirected raw e} {e | IsDirected raw e} := by
    intro e he
    have hadj : Adj raw (e.head, (0 : T)) (e.tail, e.shift) := ⟨e, he, rfl, rfl, zero_add _⟩
    obtain ⟨f, hf, f1, f2, f3⟩ := (h.2 _ _ (hh e he) (ht e he)).2 hadj
    have : edgeImage Φ e = f := by
      obtain ⟨a, b, c⟩ := f
      simp only at f1 f2 f3
      rw [edgeImage, f1, f2, ← f3, add_sub_cancel_left]
    show IsDirected raw (edgeImage Φ e)
    rw [this]; exact hf
  refine ⟨⟨?_, ?_, fun _ _ => rfl, fun e he => h2 _ (ht e he), fun e he => ?_, fun e he => ?_⟩, h2⟩
  · have hsurj : Set.SurjOn (fun v => (Φ (v, (0 : T))).1) {v | IsVertex raw v} {v | IsVertex raw v} := by
      intro w hw
      obtain ⟨x, hx, hxw⟩ := h.1.surjOn (show (w, (0 : T)) ∈ {x : Nat × T | IsVertex raw x.1} from hw)
      exact ⟨x.1, hx, by show (Φ (x.1, 0)).1 = w; rw [← h2 x hx, hxw]⟩
    exact (Set.Finite.surjOn_iff_bijOn_of_mapsTo hfin (fun v hv => h.1.mapsTo (show IsVertex raw (v, (0 : T)).1 from hv))).1 hsurj
  · refine (Set.Finite.surjOn_iff_bijOn_of_mapsTo (finite_dirs raw) hmaps).1 ?_
    intro f hf
    have hadj : Adj raw (f.head, (0 : T)) (f.tail, f.shift) := ⟨f, hf, rfl, rfl, zero_add _⟩
    obtain ⟨x, hx, hx'⟩ := h.1.surjOn (show (f.head, (0 : T)) ∈ {x : Nat × T | IsVertex raw x.1} from hh f hf)
    obtain ⟨y, hy, hy'⟩ := h.1.surjOn (show (f.tail, f.shift) ∈ {x : Nat × T | IsVertex raw x.1} from ht f hf)
    rw [← hx', ← hy'] at hadj
    obtain ⟨e, he, e1, e2, e3⟩ := (h.2 x y hx hy).1 hadj
    refine ⟨e, he, ?_⟩
    have hxe : x = move x.2 (e.head, 0) := by rw [e1]; simp [move]
    have hye : y = move x.2 (e.tail, e.shift) := by
      refine Prod.ext e2.symm ?_
      show y.2 = e.shift + x.2
      rw [← e3]; abel
    rw [hxe, heq _ _ (hh e he)] at hx'
    rw [hye, heq _ _ (ht e he)] at hy'
    obtain ⟨a, b, c⟩ := f
    simp only [move, Prod.mk.injEq] at hx' hy'
    rw [edgeImage, hx'.1, hy'.1]
    congr 1
    have : (Φ (e.head, 0)).2 = - L x.2 := by
      have := hx'.2
      exact eq_neg_of_add_eq_zero_left this
    rw [this, sub_neg_eq_add]
    exact hy'.2
  · have e1 : ((e.tail, (0 : T)) : Nat × T) = move (-e.shift) (e.tail, e.shift) := by simp [move]
    have e2 : ((e.head, -e.shift) : Nat × T) = move (-e.shift) (e.head, 0) := by simp [move]
    show (⟨(Φ (e.tail, 0)).1, (Φ (e.head, -e.shift)).1, (Φ (e.head, -e.shift)).2 - (Φ (e.tail, 0)).2⟩ : Edge T) = _
    rw [e1, e2, heq _ _ (ht e he), heq _ _ (hh e he)]
    simp only [edgeImage, move]
    congr 1
    abel
  · rw [edgeVec_eq]
    have e1 : pos (edgeImage Φ e).tail + shv (edgeImage Φ e).shift - pos (edgeImage Φ e).head =
        place pos (Φ (e.tail, e.shift)) - place pos (Φ (e.head, 0)) := by
      simp only [edgeImage, place, shv_sub]
      abel
    rw [e1, hA (e.tail, e.shift) (ht e he), hA (e.head, 0) (hh e he), edgeVec_eq]
    simp only [place, shv_zero, add_zero, Matrix.mulVec_sub, Matrix.mulVec_add]
    abel

/-- conjugating a lattice translation by an isomorphism gives a lattice translation, if the lattice is full -/
theorem IsInfiniteIso.lattice (hd : PlacesDistinct raw' pos') (hfull : LatticeIsFull raw' pos') {v0 : Nat}
    (hv0 : IsVertex raw' v0) {Φ : Nat × T → Nat × T} (h : IsInfiniteIso raw raw' Φ)
    (hA : ∀ x, IsVertex raw x.1 → place pos' (Φ x) = A.mulVec (place pos x) + s) (t : T) :
    ∃ t' : T, shv t' = A.mulVec (shv t) := by
  obtain ⟨Ψ, hΨ, h1, h2⟩ := h.exists_inv
  have hX : IsInfiniteIso raw' raw' (fun x => Φ (move t (Ψ x))) := (h.comp (isInfSymmetry_move t)).comp hΨ
  have hpl : ∀ x, IsVertex raw' x.1 → place pos' (Φ (move t (Ψ x))) =
      (1 : Matrix (Fin (LabelVector.dim T)) (Fin (LabelVector.dim T)) ℚ).mulVec (place pos' x) + A.mulVec (shv t) := by
    intro x hx
    have hx' : IsVertex raw (Ψ x).1 := hΨ.1.mapsTo hx
    have e := hA (move t (Ψ x)) hx'
    rw [place_move, Matrix.mulVec_add] at e
    have e2 := hA (Ψ x) hx'
    rw [h2 x hx] at e2
    rw [e, Matrix.one_mulVec, e2]
    abel
  have hg := (hX.descends (L := fun t => t) hd hpl (fun t => by rw [Matrix.one_mulVec])).1
  have hs := hfull _ ⟨_, hg⟩ v0 hv0
  obtain ⟨r, hr⟩ := sameModLattice_iff.1 hs
  have := hpl (v0, 0) hv0
  rw [Matrix.one_mulVec] at this
  simp only [place, shv_zero, add_zero] at this
  refine ⟨r + (Φ (move t (Ψ (v0, 0)))).2, ?_⟩
  rw [shv_add, ← hr]
  have e : pos' (Φ (move t (Ψ (v0, 0)))).1 - pos' v0 + shv (Φ (move t (Ψ (v0, 0)))).2 =
    (pos' (Φ (move t (Ψ (v0, 0)))).1 + shv (Φ (move t (Ψ (v0, 0)))).2) - pos' v0 := by abel
  rw [e, this, add_sub_cancel_left]

/-- isomorphic graphs have distinct places both or none -/
theorem PlacesDistinct.transfer (hd : PlacesDistinct raw pos) {Φ : Nat × T → Nat × T} (h : IsInfiniteIso raw raw' Φ)
    (hU : IsUnit A) (hA : ∀ x, IsVertex raw x.1 → place pos' (Φ x) = A.mulVec (place pos x) + s) :
    PlacesDistinct raw' pos' := by
  intro v w hv hw hvw
  obtain ⟨t, ht⟩ := sameModLattice_iff.1 hvw
  obtain ⟨x, hx, hx'⟩ := h.1.surjOn (show (v, (0 : T)) ∈ {x : Nat × T | IsVertex raw' x.1} from hv)
  obtain ⟨y, hy, hy'⟩ := h.1.surjOn (show (w, t) ∈ {x : Nat × T | IsVertex raw' x.1} from hw)
  have e : place pos' (Φ x) = place pos' (Φ y) := by
    rw [hx', hy']
    show pos' v + shv 0 = pos' w + shv t
    rw [← ht, shv_zero]; abel
  rw [hA x hx, hA y hy] at e
  have e2 := Matrix.mulVec_injective_iff_isUnit.2 hU (add_right_cancel e)
  have := hd.inj hx hy e2
  rw [this, hy'] at hx'
  exact (congrArg Prod.fst hx').symm

/-- an isomorphism of stable graphs with full lattices respects the lattices -/
theorem IsInfiniteIso.exists_equiv (hc : PeriodicConnected raw)
    (hb : IsBarycentric (Graph.new raw).edges (Graph.new raw).vertices pos)
    (hb' : IsBarycentric (Graph.new raw').edges (Graph.new raw').vertices pos') {v0 : Nat} (hv0 : IsVertex raw v0)
    (hd : PlacesDistinct raw pos) (hfull : LatticeIsFull raw pos) (hfull' : LatticeIsFull raw' pos')
    {Φ : Nat × T → Nat × T} (h : IsInfiniteIso raw raw' Φ) :
    ∃ (A : Matrix (Fin (LabelVector.dim T)) (Fin (LabelVector.dim T)) ℚ) (s : Fin (LabelVector.dim T) → ℚ) (L : T ≃+ T),
      IsUnit A ∧ (∀ x, IsVertex raw x.1 → place pos' (Φ x) = A.mulVec (place pos x) + s) ∧
      (∀ t, shv (L t) = A.mulVec (shv t)) ∧ ∀ t x, IsVertex raw x.1 → Φ (move t x) = move (L t) (Φ x) := by
  obtain ⟨Ψ, hΨ, h1, h2⟩ := h.exists_inv
  obtain ⟨A, B, s, t, key, hA, hB⟩ := h.affine_inv hc hb hb' hv0 hΨ h1
  have hU : IsUnit A := IsUnit.of_mul_eq_one B (mul_eq_one_comm.1 key)
  have hd' := hd.transfer h hU hA
  have hv0' : IsVertex raw' (Φ (v0, 0)).1 := h.1.mapsTo (show IsVertex raw (v0, (0 : T)).1 from hv0)
  choose L hL using h.lattice hd' hfull' hv0' hA
  choose M hM using hΨ.lattice hd hfull hv0 hB
  let Le : T ≃+ T :=
    { toFun := L
      invFun := M
      left_inv := fun t => shv_inj (by rw [hM, hL, Matrix.mulVec_mulVec, key, Matrix.one_mulVec])
      right_inv := fun t => shv_inj (by rw [hL, hM, Matrix.mulVec_mulVec, mul_eq_one_comm.1 key, Matrix.one_mulVec])
      map_add' := fun s t => shv_inj (by rw [hL, shv_add, shv_add, hL, hL, Matrix.mulVec_add]) }
  exact ⟨A, s, Le, hU, hA, hL, fun t x hx => h.equivariant hd' hA hL t hx⟩

/-! ### bounded symmetries -/

theorem walk_place {C : ℝ} {k : Fin (LabelVector.dim T)}
    (hC : ∀ x y, Adj raw x y → |((place pos y k : ℚ) : ℝ) - ((place pos x k : ℚ) : ℝ)| ≤ C) {n : Nat} {x y : Nat × T}
    (h : Walk raw n x y) : |((place pos y k : ℚ) : ℝ) - ((place pos x k : ℚ) : ℝ)| ≤ n * C := by
  induction h with
  | here => simp
  | @step m a y z _ h2 ih =>
    have := hC _ _ h2
    have e : ((place pos z k : ℚ) : ℝ) - ((place pos a k : ℚ) : ℝ) =
      (((place pos z k : ℚ) : ℝ) - ((place pos y k : ℚ) : ℝ)) + (((place pos y k : ℚ) : ℝ) - ((place pos a k : ℚ) : ℝ)) := by
      ring
    rw [e]
    refine (abs_add_le _ _).trans ?_
    push_cast
    linarith

theorem shv_nsmul (n : Nat) (t : T) : shv (n • t) = (n : ℚ) • shv t := by
  induction n with
  | zero => simp [shv_zero]
  | succ n ih => rw [succ_nsmul, shv_add, ih]; push_cast; rw [add_smul, one_smul]

/-- a bounded symmetry is a translation of the places -/
theorem IsBoundedMap.linear_one {Φ : Nat × T → Nat × T} (hbd : IsBoundedMap raw Φ) {v0 : Nat} (hv0 : IsVertex raw v0)
    (hA : ∀ x, IsVertex raw x.1 → place pos (Φ x) = A.mulVec (place pos x) + s) : A = 1 := by
  obtain ⟨n, hn⟩ := hbd
  apply mat_ext_shv
  intro t
  rw [Matrix.one_mulVec]
  ext k
  by_contra hne
  obtain ⟨C, hC, hs⟩ := exists_step_bound raw pos k
  set δ : ℚ := A.mulVec (shv t) k - shv t k with hδ
  have hδ0 : δ ≠ 0 := sub_ne_zero.2 hne
  set b : ℚ := A.mulVec (pos v0) k - pos v0 k + s k with hb
  have key : ∀ N : Nat, |((b : ℚ) : ℝ) + N * (δ : ℝ)| ≤ n * C := by
    intro N
    obtain ⟨m, hm, hw⟩ := hn (v0, N • t) hv0
    have h1 := walk_place hs hw
    have h2 := congrFun (hA (v0, N • t) hv0) k
    have h3 : place pos (Φ (v0, N • t)) k - place pos (v0, N • t) k = b + N * δ := by
      rw [h2]
      simp only [place, shv_nsmul, Matrix.mulVec_add, Matrix.mulVec_smul, Pi.add_apply, Pi.smul_apply, smul_eq_mul, hb, hδ]
      ring
    rw [← Rat.cast_sub, h3] at h1
    push_cast at h1
    refine h1.trans (mul_le_mul_of_nonneg_right ?_ hC)
    exact_mod_cast hm
  have hδ1 : 0 < |(δ : ℝ)| := abs_pos.2 (by exact_mod_cast hδ0)
  obtain ⟨N, hN⟩ := exists_nat_gt ((n * C + |((b : ℚ) : ℝ)|) / |(δ : ℝ)|)
  rw [div_lt_iff₀ hδ1] at hN
  have h4 := key N
  have h5 : (N : ℝ) * |(δ : ℝ)| = |(N : ℝ) * (δ : ℝ)| := by rw [abs_mul, Nat.abs_cast]
  have h6 : |(N : ℝ) * (δ : ℝ)| ≤ |((b : ℚ) : ℝ) + N * (δ : ℝ)| + |((b : ℚ) : ℝ)| := by
    have : (N : ℝ) * (δ : ℝ) = (((b : ℚ) : ℝ) + N * (δ : ℝ)) - ((b : ℚ) : ℝ) := by ring
    rw [this]
    refine (abs_sub _ _).trans ?_
    rw [this]
    simp
  rw [← h5] at h6
  linarith

theorem exists_walk {x y : Nat × T} (h : Joined raw x y) : ∃ n, Walk raw n x y := by
  induction h with
  | refl => exact ⟨0, .here _⟩
  | tail _ h2 ih =>
    obtain ⟨n, hn⟩ := ih
    exact ⟨n + 1, hn.step h2⟩

theorem walk_move {n : Nat} {x y : Nat × T} (t : T) (h : Walk raw n x y) : Walk raw n (move t x) (move t y) := by
  induction h with
  | here => exact .here _
  | step _ h2 ih => exact ih.step ((adj_move t).2 h2)

/-- a symmetry that commutes with the lattice translations is bounded -/
theorem bounded_of_equivariant (hc : PeriodicConnected raw) {Φ : Nat × T → Nat × T} (h : IsInfiniteIso raw raw Φ)
    (heq : ∀ t x, IsVertex raw x.1 → Φ (move t x) = move t (Φ x)) : IsBoundedMap raw Φ := by
  have hex : ∀ v, ∃ n, IsVertex raw v → Walk raw n (v, 0) (Φ (v, 0)) := by
    intro v
    by_cases hv : IsVertex raw v
    · have hv' : IsVertex raw (Φ (v, (0 : T))).1 := h.1.mapsTo (show IsVertex raw (v, (0 : T)).1 from hv)
      obtain ⟨n, hn⟩ := exists_walk (hc v _ hv hv' 0 (Φ (v, 0)).2)
      exact ⟨n, fun _ => hn⟩
    · exact ⟨0, fun h => absurd h hv⟩
  choose n hn using hex
  refine ⟨((Graph.new raw).vertices.map n).sum, fun x hx => ⟨n x.1, ?_, ?_⟩⟩
  · exact List.single_le_sum (by simp) _ (List.mem_map_of_mem (mem_vertices_raw.2 hx))
  · have h1 := walk_move x.2 (hn x.1 hx)
    rw [← heq _ _ (show IsVertex raw (x.1, (0 : T)).1 from hx)] at h1
    have : move x.2 (x.1, (0 : T)) = x := by simp [move]
    rwa [this] at h1

end

end Systre
