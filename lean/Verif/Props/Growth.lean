import Verif.Lemmas.Growth
import Verif.Props.PGraphs

/-!
# Property C86: growth of coordination sequences
-/

namespace Systre

variable {T : Type} [LabelVector T] [LawfulLabelVector T]

theorem sphere_finite {raw : List (Edge T)} {v : Nat} (hv : IsVertex raw v) (k : Nat) :
    (sphere raw (v, (0 : T)) (k + 1)).Finite := (C29_coordination_sequence raw v k hv).1

theorem item_eq {raw : List (Edge T)} {v : Nat} (hv : IsVertex raw v) (k : Nat) :
    (Graph.new raw).coordinationItem v k = .ok (sphere raw (v, (0 : T)) (k + 1)).ncard :=
  (C29_coordination_sequence raw v k hv).2

theorem items_eq {raw : List (Edge T)} {v : Nat} (hv : IsVertex raw v) {c : Nat → Nat}
    (hc : ∀ k, (Graph.new raw).coordinationItem v k = .ok (c k)) (k : Nat) :
    c k = (sphere raw (v, (0 : T)) (k + 1)).ncard := Outcome.ok.inj ((hc k).symm.trans (item_eq hv k))

theorem sum_items {raw : List (Edge T)} {v : Nat} (hv : IsVertex raw v) {c : Nat → Nat}
    (hc : ∀ k, (Graph.new raw).coordinationItem v k = .ok (c k)) (k : Nat) :
    (ball raw (v, (0 : T)) k).ncard = 1 + ∑ i ∈ Finset.range k, c i := by
  rw [(ball_card (sphere_finite hv) k).2]
  congr 1
  exact Finset.sum_congr rfl fun i _ => (items_eq hv hc i).symm

/-- **C86** The sum of the first `k` terms, plus one, is the number of vertices of the infinite graph at distance at most
`k`, and the first term is the number of the neighbours other than the vertex itself. -/
theorem C86_balls (raw : List (Edge T)) (v : Nat) (hv : IsVertex raw v) (c : Nat → Nat)
    (hc : ∀ k, (Graph.new raw).coordinationItem v k = .ok (c k)) :
    (∀ k, {x : Nat × T | ∃ m, m ≤ k ∧ Walk raw m (v, 0) x}.Finite ∧
      {x : Nat × T | ∃ m, m ≤ k ∧ Walk raw m (v, 0) x}.ncard = 1 + ∑ i ∈ Finset.range k, c i) ∧
    c 0 = {x : Nat × T | Adj raw (v, 0) x ∧ x ≠ (v, 0)}.ncard := by
  refine ⟨fun k => ⟨(ball_card (sphere_finite hv) k).1, sum_items hv hc k⟩, ?_⟩
  rw [items_eq hv hc 0, sphere_one]
  rfl

/-- **C86** All terms are positive exactly if the component of the vertex is infinite, which is the case exactly if its
dimension in the component measures is positive. Otherwise all terms from the first zero on are zero, and the sum of the
terms, plus one, is the number of vertices of the component. -/
theorem C86_positive (raw : List (Edge T)) (v : Nat) (hv : IsVertex raw v) (c : Nat → Nat)
    (hc : ∀ k, (Graph.new raw).coordinationItem v k = .ok (c k)) :
    ((∀ k, 0 < c k) ↔ {x : Nat × T | Joined raw (v, 0) x}.Infinite) ∧
    (∀ n r o, componentMeasures (Graph.new raw) v = .ok (n, r, o) → ((∀ k, 0 < c k) ↔ 0 < r)) ∧
    ∀ K, c K = 0 → (∀ m, K ≤ m → c m = 0) ∧ {x : Nat × T | Joined raw (v, 0) x}.Finite ∧
      {x : Nat × T | Joined raw (v, 0) x}.ncard = 1 + ∑ i ∈ Finset.range K, c i := by
  have h1 : (∀ k, 0 < c k) ↔ {x : Nat × T | Joined raw (v, 0) x}.Infinite := by
    rw [infinite_iff (sphere_finite hv)]
    exact forall_congr' fun k => by rw [items_eq hv hc k]
  refine ⟨h1, fun n r o hm => ?_, fun K hK => ?_⟩
  · rw [C31_component_measures raw v hv] at hm
    have hr : Module.finrank ℤ (AddSubgroup.toIntSubmodule (cycleLattice raw v)) = r :=
      (Prod.mk.inj (Prod.mk.inj (Outcome.ok.inj hm)).2).1
    rw [h1, ← hr]
    exact infinite_iff_rank (vs := (Graph.new raw).vertices) (fun w hw => (C27_vertices raw).2 w |>.2 hw) hv
  · have h0 : sphere raw (v, (0 : T)) (K + 1) = ∅ := by
      rw [items_eq hv hc K] at hK
      exact (Set.ncard_eq_zero (sphere_finite hv K)).1 hK
    refine ⟨fun m hm => ?_, ?_, ?_⟩
    · rw [items_eq hv hc m, sphere_empty h0 (by omega), Set.ncard_empty]
    · rw [component_eq K h0]
      exact (ball_card (sphere_finite hv) K).1
    · rw [component_eq K h0]
      exact sum_items hv hc K

/-- **C86** If at most `D` edges leave each vertex, the first term is at most `D` and each term is at most `D - 1` times the
term before it. -/
theorem C86_degree (raw : List (Edge T)) (v : Nat) (hv : IsVertex raw v) (c : Nat → Nat)
    (hc : ∀ k, (Graph.new raw).coordinationItem v k = .ok (c k)) (D : Nat)
    (hD : ∀ w es, (Graph.new raw).incidences w = .ok es → es.length ≤ D) :
    c 0 ≤ D ∧ ∀ k, c (k + 1) ≤ c k * (D - 1) := by
  classical
  have hn : ∀ b : Nat × T, IsVertex raw b.1 → (nbrs raw b).Finite ∧ (nbrs raw b).ncard ≤ D := by
    intro b hb
    obtain ⟨es, h1, -, h2⟩ := (C27_incidences raw b.1).1 hb
    have hsub : nbrs raw b ⊆ ((es.map fun e => (e.tail, b.2 + e.shift)).toFinset : Set (Nat × T)) := by
      rintro x ⟨e, he, h3, h4, h5⟩
      rw [Finset.mem_coe, List.mem_toFinset, List.mem_map]
      exact ⟨e, (h2 e).2 ⟨he, h3⟩, Prod.ext h4 h5⟩
    refine ⟨(Finset.finite_toSet _).subset hsub, (Set.ncard_le_ncard hsub (Finset.finite_toSet _)).trans ?_⟩
    rw [Set.ncard_coe_finset]
    refine (List.toFinset_card_le _).trans ?_
    rw [List.length_map]
    exact hD _ _ h1
  constructor
  · rw [items_eq hv hc 0, sphere_one]
    exact (Set.ncard_le_ncard Set.diff_subset (hn _ hv).1).trans (hn _ hv).2
  · intro k
    rw [items_eq hv hc k, items_eq hv hc (k + 1)]
    refine sphere_step (sphere_finite hv) (fun b hb => ?_) k
    obtain ⟨n, hw⟩ := joined_iff_walk.1 hb
    exact hn b (walk_vertex hw hv)

/-- **C86** The sums of the terms grow exactly like the `r`-th power, where `r` is the dimension in the component measures:
with `V` vertices and shifts of coordinates at most `M`, the first `k` terms sum up to at most `V (2 k M + 1) ^ r - 1`, and
there is an `L` such that the first `k L` terms sum up to at least `(k + 1) ^ r - 1`. -/
theorem C86_growth (raw : List (Edge T)) (v : Nat) (hv : IsVertex raw v) (c : Nat → Nat)
    (hc : ∀ k, (Graph.new raw).coordinationItem v k = .ok (c k)) (n r : Nat) (o : Option Nat)
    (hm : componentMeasures (Graph.new raw) v = .ok (n, r, o)) :
    (∀ M : Nat, (∀ e ∈ raw, ∀ z ∈ LabelVector.toVec e.shift, |z| ≤ M) → ∀ k,
      1 + ∑ i ∈ Finset.range k, c i ≤ (Graph.new raw).vertices.length * (2 * (k * M) + 1) ^ r) ∧
    ∃ L, 0 < L ∧ ∀ k, (k + 1) ^ r ≤ 1 + ∑ i ∈ Finset.range (k * L), c i := by
  rw [C31_component_measures raw v hv] at hm
  have hr : Module.finrank ℤ (AddSubgroup.toIntSubmodule (cycleLattice raw v)) = r :=
    (Prod.mk.inj (Prod.mk.inj (Outcome.ok.inj hm)).2).1
  constructor
  · intro M hM k
    rw [← sum_items hv hc k, ← hr]
    refine ball_upper (fun w hw => (C27_vertices raw).2 w |>.2 hw) ?_ rfl hv k
    have key : ∀ e ∈ raw, ∀ i : Fin (LabelVector.dim T), |vecAdd e.shift i| ≤ M := by
      intro e he i
      rw [vecAdd_apply]
      have hi : i.1 < (LabelVector.toVec e.shift).length := by rw [LawfulLabelVector.toVec_length]; exact i.2
      rw [show rent (LabelVector.toVec e.shift) i.1 = (LabelVector.toVec e.shift)[i.1] by simp [rent, hi]]
      exact hM e he _ (List.getElem_mem hi)
    intro e he i
    rcases he with he | he
    · exact key e he i
    · have := key _ he i
      simpa only [map_neg, Pi.neg_apply, abs_neg] using this
  · obtain ⟨L, h1, h2⟩ := ball_lower (sphere_finite hv) rfl
    refine ⟨L, h1, fun k => ?_⟩
    rw [← sum_items hv hc (k * L), ← hr]
    exact h2 k

/-- **C86** In a connected graph every term of every coordination sequence is positive. -/
theorem C86_connected (raw : List (Edge T)) (hcon : (Graph.new raw).isConnected = .ok true) (v : Nat) (hv : IsVertex raw v)
    (k : Nat) : ∃ c, (Graph.new raw).coordinationItem v k = .ok c ∧ 0 < c := by
  obtain ⟨b, h1, h2⟩ := C32_is_connected raw
  obtain rfl : b = true := Outcome.ok.inj (h1.symm.trans hcon)
  have hp := h2.1 rfl
  refine ⟨_, item_eq hv k, ?_⟩
  refine ((infinite_iff (sphere_finite hv)).1 ?_) k
  have hd : 0 < LabelVector.dim T := LawfulLabelVector.dim_pos
  have hinj : Function.Injective (fun n : ℕ => ((v, vecAdd.symm (fun _ => (n : ℤ))) : Nat × T)) := by
    intro m n h
    have h1 := vecAdd.symm.injective (Prod.mk.inj h).2
    exact_mod_cast congrFun h1 ⟨0, hd⟩
  exact Set.infinite_of_injective_forall_mem hinj (fun n => hp v v hv hv _ _)

/-- the hypotheses hold for the honeycomb, whose sequence is 3, 6, 9, ... -/
example : ∃ L, 0 < L ∧ ∀ k, ∃ c : Nat → Nat, (∀ j, (Graph.new hcbEx).coordinationItem 1 j = .ok (c j)) ∧
    (k + 1) ^ 2 ≤ 1 + ∑ i ∈ Finset.range (k * L), c i := by
  have hv : IsVertex hcbEx 1 := ⟨_, List.mem_cons_self, Or.inr rfl⟩
  obtain ⟨L, h1, h2⟩ := (C86_growth hcbEx 1 hv _ (item_eq hv) 2 2 (some 1) (by decide +kernel)).2
  exact ⟨L, h1, fun k => ⟨_, item_eq hv, h2 k⟩⟩
example : ∀ w es, (Graph.new hcbEx).incidences w = .ok es → es.length ≤ 3 := by
  intro w es h
  by_cases hw : IsVertex hcbEx w
  · rw [← (C27_vertices hcbEx).2 w, show (Graph.new hcbEx).vertices = [1, 2] by decide +kernel] at hw
    have h1 : ((Graph.new hcbEx).incidences 1 >>= fun es => .ok es.length) = .ok 3 := by decide +kernel
    have h2 : ((Graph.new hcbEx).incidences 2 >>= fun es => .ok es.length) = .ok 3 := by decide +kernel
    rcases List.mem_cons.1 hw with rfl | hw
    · rw [h] at h1; exact (Outcome.ok.inj h1).le
    · obtain rfl := List.mem_singleton.1 hw
      rw [h] at h2; exact (Outcome.ok.inj h2).le
  · rw [(C27_incidences hcbEx w).2 hw] at h
    cases h
-- a finite component
example : (List.range 3).map ((Graph.new ([⟨1, 2, ⟨5, 7⟩⟩] : List (Edge V2))).coordinationItem 1) = [.ok 1, .ok 0, .ok 0] := by
  decide +kernel

end Systre
