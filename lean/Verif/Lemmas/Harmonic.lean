import Verif.Lemmas.Spanning
import Mathlib.Data.Real.Archimedean
import Mathlib.Algebra.Order.BigOperators.Group.Finset
import Mathlib.Algebra.Order.BigOperators.Ring.Finset

/-!
# Harmonic functions on periodic graphs

A function on the vertices of the infinite graph is harmonic if its value at each vertex is the average of the values
at the neighbours. Bounded harmonic functions on connected periodic graphs are constant, and harmonic functions with
bounded increments under lattice translations are affine functions of the place.
-/

namespace Systre

section
variable {T : Type} [LabelVector T] [LawfulLabelVector T] {raw : List (Edge T)}

theorem finite_dirs (raw : List (Edge T)) : {e : Edge T | IsDirected raw e}.Finite := finite_dir_raw raw

open Classical in
/-- the neighbours of a vertex of the infinite graph -/
noncomputable def nbrSet (raw : List (Edge T)) (x : Nat × T) : Finset (Nat × T) :=
  ((finite_dirs raw).toFinset.filter (fun e => e.head = x.1)).image (fun e => (e.tail, x.2 + e.shift))

theorem mem_nbrSet {x y : Nat × T} : y ∈ nbrSet raw x ↔ Adj raw x y := by
  unfold nbrSet Adj
  simp only [Finset.mem_image, Finset.mem_filter, Set.Finite.mem_toFinset, Set.mem_setOf_eq]
  constructor
  · rintro ⟨e, ⟨h1, h2⟩, rfl⟩; exact ⟨e, h1, h2, rfl, rfl⟩
  · rintro ⟨e, h1, h2, h3, h4⟩; exact ⟨e, ⟨h1, h2⟩, by rw [h3, h4]⟩

theorem card_nbrSet_le (x : Nat × T) : (nbrSet raw x).card ≤ (finite_dirs raw).toFinset.card :=
  Finset.card_image_le.trans (Finset.card_filter_le _ _)

theorem Adj.vertex_right {x y : Nat × T} (h : Adj raw x y) : IsVertex raw y.1 := by
  obtain ⟨e, he, h1, h2, h3⟩ := h
  exact (isVertex_iff _ _).2 ⟨e.neg, isDirected_neg.2 he, h2⟩

theorem Adj.vertex_left {x y : Nat × T} (h : Adj raw x y) : IsVertex raw x.1 := by
  obtain ⟨e, he, h1, h2, h3⟩ := h
  exact (isVertex_iff _ _).2 ⟨e, he, h1⟩

/-- translation by a lattice vector -/
def move (t : T) (x : Nat × T) : Nat × T := (x.1, x.2 + t)

theorem move_move (s t : T) (x : Nat × T) : move s (move t x) = move (t + s) x := by
  simp [move, add_assoc]
theorem move_zero (x : Nat × T) : move 0 x = x := by simp [move]

theorem adj_move (t : T) {x y : Nat × T} : Adj raw (move t x) (move t y) ↔ Adj raw x y := by
  unfold Adj move
  constructor <;> rintro ⟨e, h1, h2, h3, h4⟩ <;> refine ⟨e, h1, h2, h3, ?_⟩
  · have h4' : x.2 + t + e.shift = y.2 + t := h4
    have : x.2 + e.shift + t = y.2 + t := by rw [← h4']; abel
    exact add_right_cancel this
  · show x.2 + t + e.shift = y.2 + t
    rw [← h4]; abel

theorem isInfSymmetry_move (t : T) : IsInfiniteIso raw raw (move t) := by
  refine ⟨⟨fun x hx => hx, fun x _ y _ h => ?_, fun x hx => ⟨move (-t) x, hx, ?_⟩⟩, fun x y _ _ => adj_move t⟩
  · simp only [move, Prod.mk.injEq, add_left_inj] at h
    exact Prod.ext h.1 h.2
  · rw [move_move]; simp [move]

theorem sum_nbrSet {raw' : List (Edge T)} {Φ : Nat × T → Nat × T} (h : IsInfiniteIso raw raw' Φ) {x : Nat × T} (hx : IsVertex raw x.1)
    (f : Nat × T → ℝ) : ∑ y ∈ nbrSet raw' (Φ x), f y = ∑ y ∈ nbrSet raw x, f (Φ y) := by
  symm
  apply Finset.sum_nbij Φ
  · intro y hy
    rw [mem_nbrSet] at hy ⊢
    exact (h.2 x y hx hy.vertex_right).2 hy
  · intro y hy z hz hyz
    rw [Finset.mem_coe, mem_nbrSet] at hy hz
    exact h.1.injOn hy.vertex_right hz.vertex_right hyz
  · intro z hz
    rw [Finset.mem_coe, mem_nbrSet] at hz
    obtain ⟨y, hy, rfl⟩ := h.1.surjOn hz.vertex_right
    exact ⟨y, by rw [Finset.mem_coe, mem_nbrSet]; exact (h.2 x y hx hy).1 hz, rfl⟩
  · intro y _; rfl

/-- the value at each vertex is the average of the values at the neighbours -/
def Harmonic (raw : List (Edge T)) (f : Nat × T → ℝ) : Prop :=
  ∀ x, IsVertex raw x.1 → ∑ y ∈ nbrSet raw x, (f y - f x) = 0

theorem Harmonic.comp {raw' : List (Edge T)} {f : Nat × T → ℝ} (hf : Harmonic raw' f) {Φ : Nat × T → Nat × T}
    (h : IsInfiniteIso raw raw' Φ) :
    Harmonic raw (fun x => f (Φ x)) := by
  intro x hx
  rw [← sum_nbrSet h hx (fun y => f y - f (Φ x))]
  exact hf _ (h.1.mapsTo hx)

theorem Harmonic.sub {f g : Nat × T → ℝ} (hf : Harmonic raw f) (hg : Harmonic raw g) :
    Harmonic raw (fun x => f x - g x) := by
  intro x hx
  have : ∀ y, f y - g y - (f x - g x) = (f y - f x) - (g y - g x) := fun y => by ring
  simp only [this]
  rw [Finset.sum_sub_distrib, hf x hx, hg x hx, sub_zero]

theorem Harmonic.neg {f : Nat × T → ℝ} (hf : Harmonic raw f) : Harmonic raw (fun x => - f x) := by
  intro x hx
  have : ∀ y, - f y - - f x = - (f y - f x) := fun y => by ring
  simp only [this]
  rw [Finset.sum_neg_distrib, hf x hx, neg_zero]

theorem Harmonic.smul {f : Nat × T → ℝ} (hf : Harmonic raw f) (c : ℝ) : Harmonic raw (fun x => c * f x) := by
  intro x hx
  simp only [← mul_sub]
  rw [← Finset.mul_sum, hf x hx, mul_zero]

theorem Harmonic.sum {ι : Type} {s : Finset ι} {f : ι → Nat × T → ℝ} (hf : ∀ i ∈ s, Harmonic raw (f i)) :
    Harmonic raw (fun x => ∑ i ∈ s, f i x) := by
  intro x hx
  show ∑ y ∈ nbrSet raw x, ((∑ i ∈ s, f i y) - ∑ i ∈ s, f i x) = 0
  rw [Finset.sum_congr rfl (fun y _ => (Finset.sum_sub_distrib (s := s) (fun i => f i y) (fun i => f i x)).symm)]
  rw [Finset.sum_comm]
  exact Finset.sum_eq_zero (fun i hi => hf i hi x hx)

/-- a bound on how the distance to an upper bound grows from one vertex to a neighbour -/
theorem Harmonic.step {g : Nat × T → ℝ} (hg : Harmonic raw g) {M : ℝ} (hM : ∀ x, IsVertex raw x.1 → g x ≤ M)
    {x y : Nat × T} (h : Adj raw x y) : M - g y ≤ ((finite_dirs raw).toFinset.card + 1 : ℝ) * (M - g x) := by
  have hx := h.vertex_left
  have h1 : ∑ z ∈ nbrSet raw x, (M - g z) = (nbrSet raw x).card * (M - g x) := by
    have : ∀ z, M - g z = (M - g x) - (g z - g x) := fun z => by ring
    rw [Finset.sum_congr rfl (fun z _ => this z), Finset.sum_sub_distrib, hg x hx, sub_zero, Finset.sum_const,
      nsmul_eq_mul]
  have h2 : M - g y ≤ ∑ z ∈ nbrSet raw x, (M - g z) :=
    Finset.single_le_sum (f := fun z => M - g z) (fun z hz => sub_nonneg.2 (hM z (mem_nbrSet.1 hz).vertex_right))
      (mem_nbrSet.2 h)
  rw [h1] at h2
  refine h2.trans (mul_le_mul_of_nonneg_right ?_ (sub_nonneg.2 (hM x hx)))
  have : ((nbrSet raw x).card : ℝ) ≤ (finite_dirs raw).toFinset.card := by exact_mod_cast card_nbrSet_le x
  linarith

theorem spread {x y : Nat × T} (h : Joined raw x y) : ∃ K : ℝ, 1 ≤ K ∧ ∀ (g : Nat × T → ℝ) (M : ℝ), Harmonic raw g →
    (∀ x, IsVertex raw x.1 → g x ≤ M) → ∀ r : T, M - g (move r y) ≤ K * (M - g (move r x)) := by
  induction h with
  | refl => exact ⟨1, le_refl _, fun g M _ _ r => by rw [one_mul]⟩
  | @tail y z h1 h2 ih =>
    obtain ⟨K, hK, ih⟩ := ih
    have hD : (0 : ℝ) ≤ (finite_dirs raw).toFinset.card := Nat.cast_nonneg _
    refine ⟨((finite_dirs raw).toFinset.card + 1) * K, by nlinarith, fun g M hg hM r => ?_⟩
    refine (hg.step hM ((adj_move r).2 h2)).trans ?_
    rw [mul_assoc]
    exact mul_le_mul_of_nonneg_left (ih g M hg hM r) (by linarith)

theorem exists_uniform (l : List Nat) {P : Nat → ℝ → Prop} (hmono : ∀ v K K', K ≤ K' → P v K → P v K')
    (h : ∀ v ∈ l, ∃ K, P v K) : ∃ K, 1 ≤ K ∧ ∀ v ∈ l, P v K := by
  induction l with
  | nil => exact ⟨1, le_refl _, by simp⟩
  | cons v l ih =>
    obtain ⟨K, hK1, hK⟩ := ih (fun w hw => h w (by simp [hw]))
    obtain ⟨K', hK'⟩ := h v (by simp)
    refine ⟨max K K', hK1.trans (le_max_left _ _), fun w hw => ?_⟩
    rcases List.mem_cons.1 hw with rfl | hw
    · exact hmono _ _ _ (le_max_right _ _) hK'
    · exact hmono _ _ _ (le_max_left _ _) (hK w hw)

theorem mem_vertices_raw {v : Nat} : v ∈ (Graph.new raw).vertices ↔ IsVertex raw v := by
  rw [Graph.mem_vertices, isVertex_new]

theorem spread_move (hc : PeriodicConnected raw) (t : T) : ∃ K : ℝ, 1 ≤ K ∧ ∀ (g : Nat × T → ℝ) (M : ℝ),
    Harmonic raw g → (∀ x, IsVertex raw x.1 → g x ≤ M) →
    ∀ x, IsVertex raw x.1 → M - g (move t x) ≤ K * (M - g x) := by
  obtain ⟨K, hK, h⟩ := exists_uniform (Graph.new raw).vertices (P := fun v K => IsVertex raw v →
    ∀ (g : Nat × T → ℝ) (M : ℝ), Harmonic raw g → (∀ x, IsVertex raw x.1 → g x ≤ M) →
    ∀ r : T, M - g (v, t + r) ≤ K * (M - g (v, 0 + r))) (by
      intro v K K' hKK h hv g M hg hM r
      exact (h hv g M hg hM r).trans (mul_le_mul_of_nonneg_right hKK (sub_nonneg.2 (hM _ hv)))) (by
      intro v hv
      obtain ⟨K, _, h⟩ := spread (hc v v (mem_vertices_raw.1 hv) (mem_vertices_raw.1 hv) 0 t)
      exact ⟨K, fun _ => h⟩)
  refine ⟨K, hK, fun g M hg hM x hx => ?_⟩
  have := h x.1 (mem_vertices_raw.2 hx) hx g M hg hM x.2
  rw [zero_add, add_comm t] at this
  exact this

/-- bounded harmonic functions do not grow in any direction -/
theorem Harmonic.move_le (hc : PeriodicConnected raw) {f : Nat × T → ℝ} (hf : Harmonic raw f) {B : ℝ}
    (hB : ∀ x, IsVertex raw x.1 → |f x| ≤ B) (t : T) {x₀ : Nat × T} (hx₀ : IsVertex raw x₀.1) :
    f (move t x₀) ≤ f x₀ := by
  by_contra hlt
  push Not at hlt
  set g : Nat × T → ℝ := fun x => f (move t x) - f x with hgdef
  have hg : Harmonic raw g := (hf.comp (isInfSymmetry_move t)).sub hf
  set S : Set ℝ := {r | ∃ x, IsVertex raw x.1 ∧ g x = r} with hS
  have hbd : BddAbove S := ⟨2 * B, by
    rintro _ ⟨x, hx, rfl⟩
    have h1 := abs_le.1 (hB x hx)
    have h2 := abs_le.1 (hB (move t x) hx)
    simp only [hgdef]
    linarith [h1.1, h2.2]⟩
  set M := sSup S with hMdef
  have hM : ∀ x, IsVertex raw x.1 → g x ≤ M := fun x hx => le_csSup hbd ⟨x, hx, rfl⟩
  have hM0 : 0 < M := lt_of_lt_of_le (sub_pos.2 hlt) (hM x₀ hx₀)
  obtain ⟨K, hK, hsp⟩ := spread_move (raw := raw) hc t
  obtain ⟨N, hN⟩ := exists_nat_gt (2 * B / (M / 2))
  have hN' : 2 * B < N * (M / 2) := (div_lt_iff₀ (by linarith)).1 hN
  have hKN : 0 < K ^ N := pow_pos (by linarith) N
  obtain ⟨_, ⟨x, hx, rfl⟩, hxM⟩ := exists_lt_of_lt_csSup (s := S) ⟨_, x₀, hx₀, rfl⟩
    (show M - M / 2 / K ^ N < sSup S by rw [← hMdef]; have := div_pos (half_pos hM0) hKN; linarith)
  have hit : ∀ k, IsVertex raw ((move t)^[k] x).1 ∧ M - g ((move t)^[k] x) ≤ K ^ k * (M - g x) := by
    intro k
    induction k with
    | zero => exact ⟨hx, by simp⟩
    | succ k ih =>
      rw [Function.iterate_succ_apply']
      refine ⟨ih.1, (hsp g M hg hM _ ih.1).trans ?_⟩
      rw [pow_succ', mul_assoc]
      exact mul_le_mul_of_nonneg_left ih.2 (by linarith)
  have hgk : ∀ k ≤ N, M / 2 ≤ g ((move t)^[k] x) := by
    intro k hk
    have h1 := (hit k).2
    have h2 : K ^ k ≤ K ^ N := pow_le_pow_right₀ hK hk
    have h3 : M - g x ≤ M / 2 / K ^ N := by linarith
    have h4 : K ^ k * (M - g x) ≤ K ^ N * (M / 2 / K ^ N) :=
      mul_le_mul h2 h3 (sub_nonneg.2 (hM x hx)) hKN.le
    rw [mul_div_cancel₀ _ hKN.ne'] at h4
    linarith
  have hsum : ∀ n ≤ N, f x + n * (M / 2) ≤ f ((move t)^[n] x) := by
    intro n
    induction n with
    | zero => intro _; simp
    | succ n ih =>
      intro hn
      have h1 := ih (by omega)
      have h2 := hgk n (by omega)
      rw [Function.iterate_succ_apply']
      simp only [hgdef] at h2
      push_cast
      linarith
  have h1 := hsum N le_rfl
  have h2 := abs_le.1 (hB x hx)
  have h3 := abs_le.1 (hB _ (hit N).1)
  linarith [h2.1, h3.2]

/-- bounded harmonic functions are periodic -/
theorem Harmonic.periodic (hc : PeriodicConnected raw) {f : Nat × T → ℝ} (hf : Harmonic raw f) {B : ℝ}
    (hB : ∀ x, IsVertex raw x.1 → |f x| ≤ B) (t : T) {x : Nat × T} (hx : IsVertex raw x.1) :
    f (move t x) = f x := by
  refine le_antisymm (hf.move_le hc hB t hx) ?_
  have := hf.neg.move_le hc (fun x hx => by rw [abs_neg]; exact hB x hx) t hx
  linarith

theorem list_max (l : List Nat) (hl : l ≠ []) (f : Nat → ℝ) : ∃ v ∈ l, ∀ w ∈ l, f w ≤ f v := by
  obtain ⟨v, hv, h⟩ := l.toFinset.exists_max_image f (List.toFinset_nonempty_iff _ |>.2 hl)
  exact ⟨v, List.mem_toFinset.1 hv, fun w hw => h w (List.mem_toFinset.2 hw)⟩

/-- periodic harmonic functions are constant -/
theorem Harmonic.const_of_periodic (hc : PeriodicConnected raw) {f : Nat × T → ℝ} (hf : Harmonic raw f)
    (hp : ∀ t x, IsVertex raw x.1 → f (move t x) = f x) {x y : Nat × T} (hx : IsVertex raw x.1)
    (hy : IsVertex raw y.1) : f x = f y := by
  have h0 : ∀ x : Nat × T, IsVertex raw x.1 → f x = f (x.1, 0) := by
    intro x hx
    have := hp x.2 (x.1, 0) hx
    rw [← this, move, zero_add]
  obtain ⟨v, hv, hmax⟩ := list_max (Graph.new raw).vertices
    (List.ne_nil_of_mem (mem_vertices_raw.2 hx)) (fun v => f (v, 0))
  have hv' := mem_vertices_raw.1 hv
  have hM : ∀ x, IsVertex raw x.1 → f x ≤ f (v, 0) := by
    intro x hx
    rw [h0 x hx]
    exact hmax _ (mem_vertices_raw.2 hx)
  have key : ∀ x : Nat × T, IsVertex raw x.1 → f x = f (v, 0) := by
    intro x hx
    obtain ⟨K, _, h⟩ := spread (hc v x.1 hv' hx 0 x.2)
    have := h f _ hf hM 0
    rw [move_zero, move_zero, sub_self, mul_zero] at this
    exact le_antisymm (hM x hx) (by linarith)
  rw [key x hx, key y hy]

/-- bounded harmonic functions are constant -/
theorem Harmonic.const (hc : PeriodicConnected raw) {f : Nat × T → ℝ} (hf : Harmonic raw f) {B : ℝ}
    (hB : ∀ x, IsVertex raw x.1 → |f x| ≤ B) {x y : Nat × T} (hx : IsVertex raw x.1)
    (hy : IsVertex raw y.1) : f x = f y :=
  hf.const_of_periodic hc (fun t _ hx => hf.periodic hc hB t hx) hx hy

end

end Systre
