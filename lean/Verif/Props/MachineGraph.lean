import Verif.Lemmas.MachineGraph
import Verif.Props.PGraphs

/-!
# C75: labels made of machine integers

`Machine.f (.debug w)` computes with labels of `w` bits and overflow checks, `Machine.f (.release w)` without the checks
(results wrap around); the code has `w = 32`. Graphs are built from a list of edges with the same arithmetic.
-/

namespace Systre
open Machine (IntKind SmallEdges Small)

section
variable {T : Type} [LabelVector T] [LawfulLabelVector T]

/-- all label coordinates are between `-B` and `B` -/
def LabelsWithin (B : Nat) (raw : List (Edge T)) : Prop := ∀ e ∈ raw, ∀ x ∈ LabelVector.toVec e.shift, |x| ≤ (B : Int)

instance (B : Nat) (raw : List (Edge T)) : Decidable (LabelsWithin B raw) := by unfold LabelsWithin; infer_instance

/-- a computation with graphs from `Graph::new`, in the arithmetic `k` -/
def withGraph {α : Type} (k : IntKind) (raw : List (Edge T)) (f : Graph T → Outcome α) : Outcome α := do
  let g ← Machine.graphNew k raw
  f g

theorem withGraph_cases {α : Type} {w : Nat} (hw : 0 < w) {raw : List (Edge T)}
    {f : IntKind → Graph T → Outcome α} {r : Outcome α} (hle : ∀ k k' g, Machine.Below k k' → Machine.Le (f k g) (f k' g))
    (hi : f .ideal (Graph.new raw) = r) :
    withGraph (.debug w) raw (f (.debug w)) = .panic ∨
    (withGraph (.debug w) raw (f (.debug w)) = r ∧ withGraph (.release w) raw (f (.release w)) = r) := by
  have h1 : Machine.Le (withGraph (.debug w) raw (f (.debug w))) (withGraph .ideal raw (f .ideal)) :=
    (Machine.le_graphNew (Machine.debug_below_ideal w) raw).bind fun g => hle _ _ g (Machine.debug_below_ideal w)
  have h2 : Machine.Le (withGraph (.debug w) raw (f (.debug w))) (withGraph (.release w) raw (f (.release w))) :=
    (Machine.le_graphNew (Machine.debug_below_release hw) raw).bind fun g => hle _ _ g (Machine.debug_below_release hw)
  have h3 : withGraph .ideal raw (f .ideal) = r := by
    unfold withGraph
    rw [Machine.ideal_graphNew, Outcome.ok_bind, hi]
  rw [h3] at h1
  rcases h1 with h1 | h1
  · exact Or.inl h1
  · rcases h2 with h2 | h2
    · exact Or.inl h2
    · exact Or.inr ⟨h1, by rw [← h2, h1]⟩

theorem withGraph_safe {α : Type} {w : Nat} (hw : 0 < w) {raw : List (Edge T)} {B : Nat} (hB : B < 2 ^ (w - 1))
    (hr : LabelsWithin B raw)
    {f : IntKind → Graph T → Outcome α} {r : α} (hle : ∀ k k' g, Machine.Below k k' → Machine.Le (f k g) (f k' g))
    (hs : SmallEdges B (Graph.new raw).edges → f (.debug w) (Graph.new raw) = .ok r) :
    withGraph (.debug w) raw (f (.debug w)) = .ok r ∧ withGraph (.release w) raw (f (.release w)) = .ok r := by
  obtain ⟨h1, h2⟩ := Machine.graphNew_safe (w := w) (M := B) (by exact_mod_cast hB) hr
  have h3 : withGraph (.debug w) raw (f (.debug w)) = .ok r := by
    unfold withGraph
    rw [h1, Outcome.ok_bind]
    exact hs h2
  have h4 : Machine.Le (withGraph (.debug w) raw (f (.debug w))) (withGraph (.release w) raw (f (.release w))) :=
    (Machine.le_graphNew (Machine.debug_below_release hw) raw).bind fun g => hle _ _ g (Machine.debug_below_release hw)
  exact ⟨h3, h4.ok h3⟩

/-! ## C75 -/

/-- C75: with overflow checks, coordination sequences, `shift_normalized`, component measures and `is_connected` panic
or are what they should be (see C29-C32); in the second case the same results come without the checks. -/
theorem C75_checked (w : Nat) (hw : 0 < w) (raw : List (Edge T)) (v k : Nat) (hv : IsVertex raw v) :
    (withGraph (.debug w) raw (Machine.coordinationItem (.debug w) · v k) = .panic ∨
      withGraph (.debug w) raw (Machine.coordinationItem (.debug w) · v k) =
        .ok {x : Nat × T | AtDistance raw (k + 1) (v, 0) x}.ncard ∧
      withGraph (.release w) raw (Machine.coordinationItem (.release w) · v k) =
        .ok {x : Nat × T | AtDistance raw (k + 1) (v, 0) x}.ncard) ∧
    (withGraph (.debug w) raw (Machine.shiftNormalized (.debug w)) = .panic ∨
      withGraph (.debug w) raw (Machine.shiftNormalized (.debug w)) = (Graph.new raw).shiftNormalized ∧
      withGraph (.release w) raw (Machine.shiftNormalized (.release w)) = (Graph.new raw).shiftNormalized) ∧
    (withGraph (.debug w) raw (Machine.componentMeasures (.debug w) · v) = .panic ∨
      withGraph (.debug w) raw (Machine.componentMeasures (.debug w) · v) = componentMeasures (Graph.new raw) v ∧
      withGraph (.release w) raw (Machine.componentMeasures (.release w) · v) = componentMeasures (Graph.new raw) v) := by
  refine ⟨withGraph_cases hw (f := fun k' g => Machine.coordinationItem k' g v k)
      (fun _ _ g h => Machine.le_coordinationItem h g v k) ?_,
    withGraph_cases hw (f := fun k' g => Machine.shiftNormalized k' g) (fun _ _ g h => Machine.le_shiftNormalized h g)
      (Machine.ideal_shiftNormalized _),
    withGraph_cases hw (f := fun k' g => Machine.componentMeasures k' g v)
      (fun _ _ g h => Machine.le_componentMeasures h g v) (Machine.ideal_componentMeasures _ _)⟩
  rw [Machine.ideal_coordinationItem]
  exact (C29_coordination_sequence raw v k hv).2

/-- C32 with overflow checks: `is_connected` is right or panics; without the checks see `C32_overflow_refuted`. -/
theorem C32_checked_partial (w : Nat) (hw : 0 < w) (raw : List (Edge T)) :
    withGraph (.debug w) raw (Machine.isConnected (.debug w)) = .panic ∨
    ∃ b, withGraph (.debug w) raw (Machine.isConnected (.debug w)) = .ok b ∧
      withGraph (.release w) raw (Machine.isConnected (.release w)) = .ok b ∧ (b = true ↔ PeriodicConnected raw) := by
  obtain ⟨b, h1, h2⟩ := C32_is_connected raw
  rcases withGraph_cases hw (f := fun k' g => Machine.isConnected k' g) (fun _ _ g h => Machine.le_isConnected h g)
    ((Machine.ideal_isConnected _).trans h1) with h | h
  · exact Or.inl h
  · exact Or.inr ⟨b, h.1, h.2, h2⟩

/-- C31 with overflow checks: the measures are right or the call panics; without the checks see
`C31_overflow_refuted`. -/
theorem C31_checked_partial (w : Nat) (hw : 0 < w) (raw : List (Edge T)) (v : Nat) (hv : IsVertex raw v) :
    withGraph (.debug w) raw (Machine.componentMeasures (.debug w) · v) = .panic ∨
    ∃ r, withGraph (.debug w) raw (Machine.componentMeasures (.debug w) · v) = .ok r ∧
      withGraph (.release w) raw (Machine.componentMeasures (.release w) · v) = .ok r ∧
      r = ({w | QJoined raw v w}.ncard, Module.finrank ℤ (AddSubgroup.toIntSubmodule (cycleLattice raw v)),
        if Module.finrank ℤ (AddSubgroup.toIntSubmodule (cycleLattice raw v)) = LabelVector.dim T
        then some ((cycleLattice raw v).index : Int) else none) := by
  rcases (C75_checked w hw raw v 0 hv).2.2 with h | ⟨h1, h2⟩
  · exact Or.inl h
  · rw [C31_component_measures raw v hv] at h1 h2
    exact Or.inr ⟨_, h1, h2, rfl⟩

/-- C75: the `k`-th item of a coordination sequence is right, with or without overflow checks, if `k` times the largest
coordinate of a label fits. -/
theorem C75_coordination_sequence (w : Nat) (hw : 0 < w) (raw : List (Edge T)) (B v k : Nat) (hv : IsVertex raw v)
    (hr : LabelsWithin B raw) (hB : (k + 1) * B < 2 ^ (w - 1)) :
    withGraph (.debug w) raw (Machine.coordinationItem (.debug w) · v k) =
      .ok {x : Nat × T | AtDistance raw (k + 1) (v, 0) x}.ncard ∧
    withGraph (.release w) raw (Machine.coordinationItem (.release w) · v k) =
      .ok {x : Nat × T | AtDistance raw (k + 1) (v, 0) x}.ncard := by
  have hB' : B < 2 ^ (w - 1) := lt_of_le_of_lt (Nat.le_mul_of_pos_left B (Nat.succ_pos k)) hB
  refine withGraph_safe hw hB' hr (f := fun k' g => Machine.coordinationItem k' g v k)
    (fun _ _ g h => Machine.le_coordinationItem h g v k) fun hs => ?_
  exact Machine.coordinationItem_safe (M := B) (by omega) hs (by exact_mod_cast hB) (C29_coordination_sequence raw v k hv).2

/-- C75: `shift_normalized` has no overflow if the largest coordinate of a label, times twice the number of vertices
minus one, fits. -/
theorem C75_shift_normalized (w : Nat) (hw : 0 < w) (raw : List (Edge T)) (B : Nat) (hr : LabelsWithin B raw)
    (hB0 : B < 2 ^ (w - 1)) (hB : (2 * (Graph.new raw).vertices.length - 1) * B < 2 ^ (w - 1)) :
    ∃ g, (Graph.new raw).shiftNormalized = .ok g ∧ withGraph (.debug w) raw (Machine.shiftNormalized (.debug w)) = .ok g ∧
      withGraph (.release w) raw (Machine.shiftNormalized (.release w)) = .ok g := by
  obtain ⟨g, -, h1, -⟩ := C30_shift_normalized raw
  refine ⟨g, h1, withGraph_safe hw hB0 hr (f := fun k' g => Machine.shiftNormalized k' g)
    (fun _ _ g h => Machine.le_shiftNormalized h g) fun hs => ?_⟩
  refine Machine.shiftNormalized_safe (B := B) (by omega) ?_ hs h1
  have h2 : ((2 * (Graph.new raw).vertices.length - 1 : Nat) : Int) * B < 2 ^ (w - 1) := by exact_mod_cast hB
  refine lt_of_le_of_lt (mul_le_mul_of_nonneg_right ?_ (by omega)) h2
  omega

end

/-! ## Overflow -/

/-- one vertex with six loops whose labels are between -15 and 15 -/
def wrapEx : List (Edge V3) := [⟨1, 1, ⟨2, -14, -9⟩⟩, ⟨1, 1, ⟨6, 10, -14⟩⟩, ⟨1, 1, ⟨7, 9, 11⟩⟩, ⟨1, 1, ⟨8, 14, 6⟩⟩,
  ⟨1, 1, ⟨12, -7, 2⟩⟩, ⟨1, 1, ⟨12, -5, -1⟩⟩]

/-- C31: without overflow checks the multiplicity can be wrong even if all labels are small; with them the call
panics. -/
theorem C31_overflow_refuted :
    withGraph (.debug 32) wrapEx (Machine.componentMeasures (.debug 32) · 1) = .panic ∧
    withGraph (.release 32) wrapEx (Machine.componentMeasures (.release 32) · 1) = .ok (1, 3, some 1) ∧
    componentMeasures (Graph.new wrapEx) 1 = .ok (1, 3, some 7) := by
  decide +kernel

/-- C32: without overflow checks `is_connected` can say that a graph with seven components is connected. -/
theorem C32_overflow_refuted :
    withGraph (.debug 32) wrapEx (Machine.isConnected (.debug 32)) = .panic ∧
    withGraph (.release 32) wrapEx (Machine.isConnected (.release 32)) = .ok true ∧ ¬ PeriodicConnected wrapEx := by
  refine ⟨by decide +kernel, by decide +kernel, fun h => ?_⟩
  obtain ⟨b, h1, h2⟩ := C32_is_connected wrapEx
  have h3 : (Graph.new wrapEx).isConnected = .ok false := by decide +kernel
  rw [h3] at h1
  have := h2.2 h
  rw [← Outcome.ok.inj h1] at this
  cases this

/-- C75: the smallest number is its own negative without overflow checks: `canonical` then goes back and forth. -/
theorem C75_smallest :
    Machine.canonical (.debug 32) (⟨1, 1, ⟨-2147483648, 1⟩⟩ : Edge V2) = .panic ∧
    Machine.canonical (.release 32) (⟨1, 1, ⟨-2147483648, 1⟩⟩ : Edge V2) = .ok ⟨1, 1, ⟨-2147483648, -1⟩⟩ ∧
    Machine.canonical (.release 32) (⟨1, 1, ⟨-2147483648, -1⟩⟩ : Edge V2) = .ok ⟨1, 1, ⟨-2147483648, 1⟩⟩ := by
  decide +kernel

/-! ## Examples -/

example : LabelsWithin 1 hcbEx := by decide
example : IsVertex hcbEx 1 := ⟨_, List.mem_cons_self, Or.inr rfl⟩
example : withGraph (.debug 32) hcbEx (Machine.coordinationItem (.debug 32) · 1 4) =
    .ok {x : Nat × V2 | AtDistance hcbEx 5 (1, 0) x}.ncard :=
  (C75_coordination_sequence 32 (by norm_num) hcbEx 1 1 4 ⟨_, List.mem_cons_self, Or.inr rfl⟩ (by decide) (by norm_num)).1
example : withGraph (.debug 32) hcbEx (Machine.coordinationItem (.debug 32) · 1 3) = .ok 12 := by decide +kernel
example : withGraph (.debug 32) twoEx (Machine.shiftNormalized (.debug 32)) = (Graph.new twoEx).shiftNormalized := by
  decide +kernel
example := C75_shift_normalized 32 (by norm_num) twoEx 2 (by decide) (by norm_num) (by decide +kernel)
example : withGraph (.debug 32) twoEx (Machine.componentMeasures (.debug 32) · 1) = .ok (2, 3, some 2) := by decide +kernel
example : withGraph (.debug 32) sqlEx (Machine.isConnected (.debug 32)) = .ok true := by decide +kernel
/-- an overflow with few bits -/
example : withGraph (.debug 4) hcbEx (Machine.coordinationItem (.debug 4) · 1 13) = .ok 42 ∧
    withGraph (.debug 4) hcbEx (Machine.coordinationItem (.debug 4) · 1 16) = .panic := by decide +kernel

end Systre
