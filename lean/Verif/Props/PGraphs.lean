import Verif.Lemmas.Shells
import Verif.Lemmas.Measures
import Verif.Lemmas.ShiftNorm
import Verif.Lemmas.Stability
import Verif.Lemmas.GraphCache

/-!
# C25-C36: periodic graphs (src/pgraphs.rs)

All theorems are for label vectors of any dimension satisfying `LawfulLabelVector`; `LabelVector2d` (`V2`)
and `LabelVector3d` (`V3`) satisfy it (instances in `Verif/Lemmas/GraphBasic.lean`). A graph is always
`Graph.new raw` for an arbitrary list `raw` of edges, and the infinite periodic graph is described in
`Verif/Spec/PeriodicGraph.lean` from `raw` alone.
-/

namespace Systre
set_option linter.unusedSectionVars false

/-! Graphs for the examples. -/

/-- a square lattice with one vertex -/
def sqlEx : List (Edge V2) := [⟨1, 1, ⟨1, 0⟩⟩, ⟨1, 1, ⟨0, 1⟩⟩]
/-- honeycomb, with a repetition and reversed edges -/
def hcbEx : List (Edge V2) := [⟨2, 1, ⟨0, 0⟩⟩, ⟨1, 2, ⟨1, 0⟩⟩, ⟨1, 2, ⟨0, 1⟩⟩, ⟨2, 1, ⟨0, -1⟩⟩]
/-- a 3d graph with two components, one of them doubled -/
def twoEx : List (Edge V3) := [⟨1, 2, ⟨0, 0, 0⟩⟩, ⟨2, 1, ⟨2, 0, 0⟩⟩, ⟨1, 1, ⟨0, 1, 0⟩⟩, ⟨1, 1, ⟨0, 0, 1⟩⟩,
  ⟨3, 3, ⟨1, 0, 0⟩⟩]

section
variable {T : Type} [LabelVector T] [LawfulLabelVector T]

/-! ## C25 -/

/-- C25 (statement in `properties.jsonl`); `Edge.neg` is `-e`. -/
theorem C25_canonical (e f : Edge T) :
    e.canonical.canonical = e.canonical ∧ (e.canonical = e ∨ e.canonical = ⟨e.tail, e.head, -e.shift⟩) ∧
    (⟨e.tail, e.head, -e.shift⟩ : Edge T).canonical = e.canonical ∧
    (e.canonical = f.canonical ↔ e = f ∨ e = ⟨f.tail, f.head, -f.shift⟩) :=
  ⟨canonical_idem e, canonical_or e, canonical_neg e, canonical_eq_iff e f⟩

example : (⟨2, 2, ⟨0, -1⟩⟩ : Edge V2).canonical = ⟨2, 2, ⟨0, 1⟩⟩ := by decide
example : (⟨2, 1, ⟨5, -1, 3⟩⟩ : Edge V3).canonical = ⟨1, 2, ⟨-5, 1, -3⟩⟩ := by decide

/-! ## C26 -/

/-- C26: the edge list is strictly sorted (so without repetition), consists of the canonical forms, and is
a complete invariant of the set of undirected edges. -/
theorem C26_normal_form (raw raw' : List (Edge T)) :
    (Graph.new raw).edges.Pairwise (· < ·) ∧
    (∀ e, e ∈ (Graph.new raw).edges ↔ ∃ f ∈ raw, f.canonical = e) ∧
    (Graph.new raw = Graph.new raw' ↔ ∀ e, IsDirected raw e ↔ IsDirected raw' e) := by
  refine ⟨(wf_new raw).sorted, mem_new raw, ?_, ?_⟩
  · intro h e
    rw [← isDirected_new raw, ← isDirected_new raw', h]
  · intro h
    have hm : (Graph.new raw).edges = (Graph.new raw').edges := by
      apply sorted_ext (wf_new raw).sorted (wf_new raw').sorted
      have key : ∀ (r r' : List (Edge T)), (∀ e, IsDirected r e ↔ IsDirected r' e) →
          ∀ e, e ∈ (Graph.new r).edges → e ∈ (Graph.new r').edges := by
        intro r r' hrr e he
        have h2 : IsDirected (Graph.new r').edges e := by
          rw [isDirected_new, ← hrr, ← isDirected_new]; exact Or.inl he
        have := Graph.canon_mem (wf_new r') h2
        rwa [(wf_new r).canon e he] at this
      exact fun e => ⟨key raw raw' h e, key raw' raw (fun e => (h e).symm) e⟩
    have : ∀ g g' : Graph T, g.edges = g'.edges → g = g' := by rintro ⟨_⟩ ⟨_⟩ rfl; rfl
    exact this _ _ hm

example : (Graph.new hcbEx).edges = [⟨1, 2, ⟨0, 0⟩⟩, ⟨1, 2, ⟨0, 1⟩⟩, ⟨1, 2, ⟨1, 0⟩⟩] := by decide +kernel

/-! ## C27 -/

/-- C27, vertices -/
theorem C27_vertices (raw : List (Edge T)) :
    (Graph.new raw).vertices.Pairwise (· < ·) ∧ ∀ v, v ∈ (Graph.new raw).vertices ↔ IsVertex raw v :=
  ⟨Graph.vertices_sorted _, fun v => by rw [Graph.mem_vertices, isVertex_new]⟩

/-- C27, incidences: one entry for each direction of each undirected edge that leaves `v`, in the order of
the edges; a panic exactly for a vertex that is not there. -/
theorem C27_incidences (raw : List (Edge T)) (v : Nat) :
    (IsVertex raw v → ∃ es, (Graph.new raw).incidences v = .ok es ∧
      es = ((Graph.new raw).edges.flatMap
        (fun e => [e, ⟨e.tail, e.head, -e.shift⟩])).filter (fun e => e.head = v) ∧
      ∀ e, e ∈ es ↔ IsDirected raw e ∧ e.head = v) ∧
    (¬ IsVertex raw v → (Graph.new raw).incidences v = .panic) := by
  constructor
  · intro h
    rw [← isVertex_new, ← Graph.mem_vertices] at h
    refine ⟨_, Graph.incidences_ok _ h, rfl, fun e => ?_⟩
    rw [Graph.mem_inc, isDirected_new]
  · intro h
    rw [← isVertex_new, ← Graph.mem_vertices] at h
    rw [Graph.incidences_eq, if_neg h]

/-- C27, directed edges: the incidences of all vertices one after the other; an edge is listed exactly if
it is one of the given edges or the inverse of one. -/
theorem C27_directed_edges (raw : List (Edge T)) :
    ∃ es, (Graph.new raw).directedEdges = .ok es ∧ (∀ e, e ∈ es ↔ IsDirected raw e) ∧
      (∀ e, e ∈ es → (⟨e.tail, e.head, -e.shift⟩ : Edge T) ∈ es) ∧
      es.length = 2 * (Graph.new raw).edges.length := by
  set g := Graph.new raw
  refine ⟨(g.vertices.map g.inc).flatten, ?_, ?_⟩
  · unfold Graph.directedEdges
    rw [omap_ok (fun v hv => g.incidences_ok hv)]
    rfl
  have hm : ∀ e, e ∈ (g.vertices.map g.inc).flatten ↔ IsDirected raw e := by
    intro e
    rw [← isDirected_new]
    simp only [List.mem_flatten, List.mem_map, exists_exists_and_eq_and, Graph.mem_inc]
    constructor
    · rintro ⟨v, -, h, -⟩; exact h
    · intro h; exact ⟨e.head, g.head_mem h, h, rfl⟩
  refine ⟨hm, fun e he => ?_, ?_⟩
  · rw [hm] at he ⊢
    exact isDirected_neg.2 he
  · have h := sum_inc g (fun _ => 1)
    have h2 : (((g.vertices.map g.inc).flatten.length : ℕ) : ℚ) = 2 * (g.edges.length : ℚ) := by
      rw [List.length_flatten]
      have h3 : ∀ l : List Nat, (((l.map g.inc).map List.length).sum : ℚ) =
          (l.map (fun v => ((g.inc v).map (fun _ => (1 : ℚ))).sum)).sum := by
        intro l
        induction l with
        | nil => simp
        | cons a l ih =>
          simp only [List.map_cons, List.sum_cons]
          push_cast
          rw [← ih]
          simp
      rw [h3, h]
      simp; ring
    exact_mod_cast h2

example : (Graph.new hcbEx).incidences 2 =
    .ok [⟨2, 1, ⟨0, 0⟩⟩, ⟨2, 1, ⟨0, -1⟩⟩, ⟨2, 1, ⟨-1, 0⟩⟩] := by decide +kernel
example : (Graph.new sqlEx).incidences 1 =
    .ok [⟨1, 1, ⟨0, 1⟩⟩, ⟨1, 1, ⟨0, -1⟩⟩, ⟨1, 1, ⟨1, 0⟩⟩, ⟨1, 1, ⟨-1, 0⟩⟩] := by decide +kernel
example : (Graph.new sqlEx).incidences 3 = .panic := by decide +kernel

/-! ## C28 -/

/-- C28: after any history of accessor calls, including calls that panicked, the next call returns what it
returns on a fresh graph without any cache (`pure3`, the functions of `Verif/Model/PGraphs.lean`). This
holds for every program `sym` that computes the symmetries with the other accessors. -/
theorem C28_cache_transparent {A : Type} (raw : List (Edge T)) (steps : Nat) (sym : Prog2 T (List A))
    (history : List Op3) (op : Op3) :
    (handle3 (Graph.new raw) steps sym op (afterCalls (Graph.new raw) steps sym history)).1 =
      pure3 (Graph.new raw) steps sym op :=
  (handle3_ok _ steps sym op _ (cacheInv_after _ steps sym history)).1

/-- C28 for programs: code that uses the accessors in any way, deciding on each call from earlier results,
computes the same with and without caches, whatever happened before. -/
theorem C28_programs {A α : Type} (raw : List (Edge T)) (steps : Nat) (sym : Prog2 T (List A))
    (history : List Op3) (prog : Prog3 T A α) :
    (prog.run (handle3 (Graph.new raw) steps sym) (afterCalls (Graph.new raw) steps sym history)).1 =
      prog.runPure (pure3 (Graph.new raw) steps sym) :=
  (Prog.run_eq (handle3_ok _ steps sym) prog _ (cacheInv_after _ steps sym history)).1

/-- the results meant by C28 are those of the accessors of the model -/
theorem C28_pure_meaning {A : Type} (raw : List (Edge T)) (steps : Nat) (sym : Prog2 T (List A)) (v : Nat)
    (d : List Rat) :
    pure3 (Graph.new raw) steps sym (.base (.base (.base .vertices))) = .ok (Graph.new raw).vertices ∧
    pure3 (Graph.new raw) steps sym (.base (.base (.base (.incidences v)))) = (Graph.new raw).incidences v ∧
    pure3 (Graph.new raw) steps sym (.base (.base (.position v))) =
      positionIn (placement steps (Graph.new raw)) v ∧
    pure3 (Graph.new raw) steps sym (.base (.edgeByUniqueDelta v d)) =
      edgeByUniqueDeltaIn (placement steps (Graph.new raw)) (Graph.new raw) v d := ⟨rfl, rfl, rfl, rfl⟩

/-- the cache really is used: after `position(1)` the table is stored -/
example : (handle3 (A := Unit) (Graph.new hcbEx) 4 (.ret (.ok [()])) (.base (.base (.position 2)))
    (Caches.new V2 Unit)).2.positions = [(1, [0, 0]), (2, [-1/3, -1/3])] := by decide +kernel

/-! ## C29 -/

/-- C29: the number of vertices of the infinite graph at distance `k + 1` (they are finitely many). -/
theorem C29_coordination_sequence (raw : List (Edge T)) (v k : Nat) (hv : IsVertex raw v) :
    {x : Nat × T | AtDistance raw (k + 1) (v, 0) x}.Finite ∧
    (Graph.new raw).coordinationItem v k = .ok {x : Nat × T | AtDistance raw (k + 1) (v, 0) x}.ncard := by
  rw [← isVertex_new, ← Graph.mem_vertices] at hv
  obtain ⟨l, h1, h2, h3⟩ := coordinationItem_ok (Graph.new raw) hv k
  have hs : {x : Nat × T | AtDistance raw (k + 1) (v, 0) x} = {x | x ∈ l} := by
    ext x
    show AtDistance raw (k + 1) (v, 0) x ↔ x ∈ l
    rw [h3, atDistance_new]
  rw [hs]
  refine ⟨List.finite_toSet l, ?_⟩
  rw [h1, ← ncard_of_list (S := {x | x ∈ l}) (l := l) (fun x => Iff.rfl), List.dedup_eq_self.2 h2]

/-- C29 for a vertex that is not there -/
theorem C29_no_vertex (raw : List (Edge T)) (v k : Nat) (hv : ¬ IsVertex raw v) :
    (Graph.new raw).coordinationItem v k = .panic := by
  rw [← isVertex_new, ← Graph.mem_vertices] at hv
  exact coordinationItem_panic _ hv k

example : (List.range 4).map ((Graph.new hcbEx).coordinationItem 1) = [.ok 3, .ok 6, .ok 9, .ok 12] := by
  decide +kernel
example : IsVertex hcbEx 1 := ⟨_, List.mem_cons_self, Or.inr rfl⟩

/-! ## C30 -/

/-- C30: there are shifts `c` of the vertices such that the directed edges of the result are those of `g`
with `c(head) + shift - c(tail)`, and in every component any two vertices are joined by a path of edges
whose new shift is zero (so a spanning tree of each component has zero shifts). -/
theorem C30_shift_normalized (raw : List (Edge T)) :
    ∃ (h : Graph T) (c : Nat → T), (Graph.new raw).shiftNormalized = .ok h ∧
      (∀ e, IsDirected h.edges e ↔
        ∃ f, IsDirected raw f ∧ e = ⟨f.head, f.tail, c f.head + f.shift - c f.tail⟩) ∧
      (∀ v w, IsVertex raw v → QJoined raw v w →
        Relation.ReflTransGen (fun a b => IsDirected h.edges ⟨a, b, 0⟩) v w) ∧
      ∃ es, h = Graph.new es := by
  obtain ⟨h, c, h1, h2, h3, h4⟩ := shiftNormalized_ok (wf_new raw)
  refine ⟨h, c, h1, fun e => ?_, fun v w hv hq => ?_, h4⟩
  · rw [h2]
    simp only [isDirected_new, adjEdge]
  · have hq' : QJoined (Graph.new raw).edges v w :=
      rtg_mono (fun a b hab => by
        obtain ⟨e, he, h5, h6⟩ := hab
        exact ⟨e, (isDirected_new _ _).2 he, h5, h6⟩) hq
    apply rtg_mono _ (h3 v w ((isVertex_new _ _).2 hv) hq')
    rintro a b ⟨e, he, rfl, rfl, h5⟩
    rw [h2]
    refine ⟨e, he, ?_⟩
    ext
    · rfl
    · rfl
    · simp [adjEdge, h5]

example : (Graph.new ([⟨1, 2, ⟨3, 1⟩⟩, ⟨1, 2, ⟨4, 1⟩⟩, ⟨2, 3, ⟨0, 7⟩⟩, ⟨4, 4, ⟨1, 1⟩⟩] : List (Edge V2))).shiftNormalized =
    .ok ⟨[⟨1, 2, ⟨0, 0⟩⟩, ⟨1, 2, ⟨1, 0⟩⟩, ⟨2, 3, ⟨0, 0⟩⟩, ⟨4, 4, ⟨1, 1⟩⟩]⟩ := by decide +kernel

/-! ## C31 -/

/-- C31: number of vertices of the component, rank of the lattice of cycle shifts, and its index if the
rank is full. -/
theorem C31_component_measures (raw : List (Edge T)) (v : Nat) (hv : IsVertex raw v) :
    componentMeasures (Graph.new raw) v = .ok ({w | QJoined raw v w}.ncard,
      Module.finrank ℤ (AddSubgroup.toIntSubmodule (cycleLattice raw v)),
      if Module.finrank ℤ (AddSubgroup.toIntSubmodule (cycleLattice raw v)) = LabelVector.dim T
      then some ((cycleLattice raw v).index : Int) else none) := by
  have h := measures_ok (wf_new raw) (((Graph.new raw).mem_vertices v).2 ((isVertex_new raw v).2 hv))
  have hq : ∀ a b, QJoined (Graph.new raw).edges a b ↔ QJoined raw a b := by
    intro a b
    unfold QJoined QAdj
    simp only [isDirected_new]
  have hj : Joined (Graph.new raw).edges = Joined raw := by
    unfold Joined
    congr 1
    funext a b
    exact propext (adj_new raw a b)
  have hl : cycleLattice (Graph.new raw).edges v = cycleLattice raw v := by
    unfold cycleLattice; rw [hj]
  rw [hl] at h
  simp only [hq] at h
  exact h

/-- the set measured by the lattice: shifts of closed walks at `v` -/
theorem C31_lattice_meaning (raw : List (Edge T)) (v : Nat) (t : T) :
    t ∈ cycleLattice raw v ↔ Joined raw (v, 0) (v, t) := mem_cycleLattice

example : componentMeasures (Graph.new twoEx) 1 = .ok (2, 3, some 2) := by decide +kernel
example : componentMeasures (Graph.new twoEx) 3 = .ok (1, 1, none) := by decide +kernel

/-! ## C32 -/

/-- C32 -/
theorem C32_is_connected (raw : List (Edge T)) :
    ∃ b, (Graph.new raw).isConnected = .ok b ∧ (b = true ↔ PeriodicConnected raw) := by
  obtain ⟨b, h1, h2⟩ := isConnected_ok (wf_new raw)
  refine ⟨b, h1, h2.trans ?_⟩
  have hj : Joined (Graph.new raw).edges = Joined raw := by
    unfold Joined
    congr 1
    funext a b
    exact propext (adj_new raw a b)
  unfold PeriodicConnected
  simp only [isVertex_new, hj]

example : PeriodicConnected hcbEx := by
  obtain ⟨b, h1, h2⟩ := C32_is_connected hcbEx
  have : (Graph.new hcbEx).isConnected = .ok true := by decide +kernel
  rw [this] at h1
  exact h2.1 (Outcome.ok.inj h1).symm
example : ¬ PeriodicConnected ([⟨1, 1, ⟨2, 0⟩⟩, ⟨1, 1, ⟨0, 1⟩⟩] : List (Edge V2)) := by
  obtain ⟨b, h1, h2⟩ := C32_is_connected ([⟨1, 1, ⟨2, 0⟩⟩, ⟨1, 1, ⟨0, 1⟩⟩] : List (Edge V2))
  have : (Graph.new ([⟨1, 1, ⟨2, 0⟩⟩, ⟨1, 1, ⟨0, 1⟩⟩] : List (Edge V2))).isConnected = .ok false := by decide +kernel
  rw [this] at h1
  intro h
  have := h2.2 h
  injection h1 with h
  rw [← h] at this
  simp at this

/-! ## C33 -/

/-- C33 as far as it is true: if 9999991 does not divide the determinant (and with enough p-adic steps,
fewer than 9999991 edges), the first vertex is at the origin, every vertex is at the average of its
neighbours, and no other placement has these two properties. -/
theorem C33_position_partial (raw : List (Edge T)) (hne : (Graph.new raw).vertices ≠ [])
    (hsm : (Graph.new raw).edges.length < 9999991)
    (hdet : ¬ 9999991 ∣ (pinnedLaplacian (Graph.new raw).edges (Graph.new raw).vertices).det) (steps : Nat)
    (hs : Modular.stepsNeeded (pinnedLaplacian (Graph.new raw).edges (Graph.new raw).vertices)
      (shiftSums (Graph.new raw).edges (Graph.new raw).vertices) 9999991 ≤ steps) :
    ∃ pos : Nat → Fin (LabelVector.dim T) → ℚ,
      (∀ v, IsVertex raw v → positionIn (placement steps (Graph.new raw)) v = .ok (List.ofFn (pos v))) ∧
      (∀ v, ¬ IsVertex raw v → positionIn (placement steps (Graph.new raw)) v = .panic) ∧
      (∀ k, pos ((Graph.new raw).vertices.head hne) k = 0) ∧
      IsBarycentric (Graph.new raw).edges (Graph.new raw).vertices pos ∧
      ∀ pos' : Nat → Fin (LabelVector.dim T) → ℚ, (∀ k, pos' ((Graph.new raw).vertices.head hne) k = 0) →
        IsBarycentric (Graph.new raw).edges (Graph.new raw).vertices pos' → ∀ v, IsVertex raw v → pos' v = pos v := by
  obtain ⟨tb, pos, h1, h2, h3, h4, h5, h6⟩ := position_ok (Graph.new raw) hne hsm hdet steps hs
  simp only [Graph.mem_vertices, isVertex_new] at h2 h3 h6
  refine ⟨pos, fun v hv => ?_, fun v hv => ?_, h4, h5, h6⟩
  · unfold positionIn; rw [h1, Outcome.ok_bind, h2 v hv]; rfl
  · unfold positionIn; rw [h1, Outcome.ok_bind, h3 v hv]; rfl

/-- C33 without a bound on the number of edges: `position` never returns a wrong placement. Either it panics for all
vertices, because the prime divides the determinant or there are at least 9999991 edges, or the positions are those of
the barycentric placement. -/
theorem C33_any (raw : List (Edge T)) (hne : (Graph.new raw).vertices ≠ []) (steps : Nat)
    (hs : Modular.stepsNeeded (pinnedLaplacian (Graph.new raw).edges (Graph.new raw).vertices)
      (shiftSums (Graph.new raw).edges (Graph.new raw).vertices) 9999991 ≤ steps) :
    ((∀ v, positionIn (placement steps (Graph.new raw)) v = .panic) ∧
      (9999991 ∣ (pinnedLaplacian (Graph.new raw).edges (Graph.new raw).vertices).det ∨
        9999991 ≤ (Graph.new raw).edges.length)) ∨
    ∃ pos : Nat → Fin (LabelVector.dim T) → ℚ,
      (∀ v, IsVertex raw v → positionIn (placement steps (Graph.new raw)) v = .ok (List.ofFn (pos v))) ∧
      (∀ v, ¬ IsVertex raw v → positionIn (placement steps (Graph.new raw)) v = .panic) ∧
      (∀ k, pos ((Graph.new raw).vertices.head hne) k = 0) ∧
      IsBarycentric (Graph.new raw).edges (Graph.new raw).vertices pos ∧
      ∀ pos' : Nat → Fin (LabelVector.dim T) → ℚ, (∀ k, pos' ((Graph.new raw).vertices.head hne) k = 0) →
        IsBarycentric (Graph.new raw).edges (Graph.new raw).vertices pos' → ∀ v, IsVertex raw v → pos' v = pos v := by
  by_cases hdet : 9999991 ∣ (pinnedLaplacian (Graph.new raw).edges (Graph.new raw).vertices).det
  · refine Or.inl ⟨fun v => ?_, Or.inl hdet⟩
    unfold positionIn
    rw [placement_panic _ (Or.inr hdet)]
    rfl
  · rcases position_any (Graph.new raw) hne hdet steps hs with ⟨h1, h2⟩ | ⟨tb, pos, h1, h2, h3, h4, h5, h6⟩
    · refine Or.inl ⟨fun v => ?_, Or.inr h2⟩
      unfold positionIn
      rw [h1]
      rfl
    · right
      simp only [Graph.mem_vertices, isVertex_new] at h2 h3 h6
      refine ⟨pos, fun v hv => ?_, fun v hv => ?_, h4, h5, h6⟩
      · unfold positionIn; rw [h1, Outcome.ok_bind, h2 v hv]; rfl
      · unfold positionIn; rw [h1, Outcome.ok_bind, h3 v hv]; rfl

/-- C33: when the quotient graph is connected the determinant is not zero (it is the number of spanning
trees), so the placement is well defined and only the divisibility by the prime can go wrong. -/
theorem C33_connected_det (raw : List (Edge T)) (hc : QuotientConnected raw) :
    (pinnedLaplacian (Graph.new raw).edges (Graph.new raw).vertices).det ≠ 0 := by
  apply det_ne_zero_of_connected
  intro v w hv hw
  have := hc v w ((isVertex_new _ _).1 hv) ((isVertex_new _ _).1 hw)
  refine rtg_mono (fun a b hab => ?_) this
  obtain ⟨e, he, h5, h6⟩ := hab
  exact ⟨e, (isDirected_new _ _).2 he, h5, h6⟩

/-- C33: `position` panics exactly when the quotient is disconnected or the prime divides the number of
spanning trees: this is the panic half. -/
theorem C33_panics (raw : List (Edge T)) (steps v : Nat)
    (h : ¬ QuotientConnected raw ∨
      9999991 ∣ (pinnedLaplacian (Graph.new raw).edges (Graph.new raw).vertices).det) :
    positionIn (placement steps (Graph.new raw)) v = .panic := by
  have : placement steps (Graph.new raw) = .panic := by
    apply placement_panic
    right
    rcases h with h | h
    · rw [det_zero_of_disconnected]
      · exact dvd_zero _
      · intro hc
        apply h
        intro v w hv hw
        have := hc v w ((isVertex_new _ _).2 hv) ((isVertex_new _ _).2 hw)
        refine rtg_mono (fun a b hab => ?_) this
        obtain ⟨e, he, h5, h6⟩ := hab
        exact ⟨e, (isDirected_new _ _).1 he, h5, h6⟩
    · exact h
  unfold positionIn
  rw [this]; rfl

end

/-- A connected graph with 13 vertices and 40 edges that has exactly 9999991 spanning trees. -/
def primeTrees : List (Edge V2) :=
  [⟨1, 2, ⟨0, 0⟩⟩, ⟨1, 2, ⟨1, 0⟩⟩, ⟨1, 3, ⟨0, 0⟩⟩, ⟨1, 4, ⟨0, 0⟩⟩, ⟨1, 5, ⟨0, 0⟩⟩, ⟨1, 5, ⟨1, 0⟩⟩,
   ⟨1, 5, ⟨0, 1⟩⟩, ⟨1, 6, ⟨0, 0⟩⟩, ⟨1, 6, ⟨1, 0⟩⟩, ⟨1, 6, ⟨0, 1⟩⟩, ⟨1, 7, ⟨0, 0⟩⟩, ⟨1, 7, ⟨1, 0⟩⟩,
   ⟨1, 7, ⟨0, 1⟩⟩, ⟨1, 8, ⟨0, 0⟩⟩, ⟨1, 8, ⟨1, 0⟩⟩, ⟨1, 9, ⟨0, 0⟩⟩, ⟨1, 9, ⟨1, 0⟩⟩, ⟨1, 9, ⟨0, 1⟩⟩,
   ⟨1, 10, ⟨0, 0⟩⟩, ⟨1, 11, ⟨0, 0⟩⟩, ⟨1, 11, ⟨1, 0⟩⟩, ⟨1, 11, ⟨0, 1⟩⟩, ⟨1, 12, ⟨0, 0⟩⟩, ⟨1, 12, ⟨1, 0⟩⟩,
   ⟨1, 12, ⟨0, 1⟩⟩, ⟨1, 12, ⟨1, 1⟩⟩, ⟨1, 12, ⟨-1, 0⟩⟩, ⟨1, 13, ⟨0, 0⟩⟩, ⟨1, 13, ⟨1, 0⟩⟩, ⟨2, 3, ⟨0, 0⟩⟩,
   ⟨3, 4, ⟨0, 0⟩⟩, ⟨4, 5, ⟨0, 0⟩⟩, ⟨5, 6, ⟨0, 0⟩⟩, ⟨6, 7, ⟨0, 0⟩⟩, ⟨7, 8, ⟨0, 0⟩⟩, ⟨8, 9, ⟨0, 0⟩⟩,
   ⟨9, 10, ⟨0, 0⟩⟩, ⟨10, 11, ⟨0, 0⟩⟩, ⟨11, 12, ⟨0, 0⟩⟩, ⟨12, 13, ⟨0, 0⟩⟩]

set_option maxRecDepth 100000 in
theorem primeTrees_none : (do
    let (a, _) ← laplaceSystem (Graph.new primeTrees)
    Modular.matrixInverse Modular.ideal a Modular.thePrime) = .ok none := by decide +kernel

/-- C33 is false for all connected graphs: this connected graph has a barycentric placement, but
`position` panics for every vertex. -/
theorem C33_refuted : PeriodicConnected primeTrees ∧
    ∀ v steps, positionIn (placement steps (Graph.new primeTrees)) v = .panic := by
  constructor
  · obtain ⟨b, h1, h2⟩ := C32_is_connected primeTrees
    have : (Graph.new primeTrees).isConnected = .ok true := by decide +kernel
    rw [this] at h1
    exact h2.1 (Outcome.ok.inj h1).symm
  · intro v steps
    have h : (do
        let (a, _) ← laplaceSystem (Graph.new primeTrees)
        Modular.matrixInverse Modular.ideal a Modular.thePrime) = .ok none := primeTrees_none
    have : placement steps (Graph.new primeTrees) = .panic := by
      unfold placement
      rcases hl : laplaceSystem (Graph.new primeTrees) with ⟨a, t⟩ | _ | _
      · rw [hl] at h
        simp only [Outcome.ok_bind] at h ⊢
        unfold Modular.solveWith
        rw [h]; rfl
      · rfl
      · rw [hl] at h; simp at h
    unfold positionIn
    rw [this]; rfl

example : (Graph.new primeTrees).vertices.length = 13 := by decide +kernel

/-- the hypotheses of `C33_position_partial` hold for the honeycomb -/
example : ∃ pos : Nat → Fin 2 → ℚ, ∃ steps,
    positionIn (placement steps (Graph.new hcbEx)) 2 = .ok (List.ofFn (pos 2)) := by
  have hv : (Graph.new hcbEx).vertices = [1, 2] := by decide +kernel
  obtain ⟨pos, h, -⟩ := C33_position_partial hcbEx (by rw [hv]; simp) (by decide +kernel)
    (by
      have : (pinnedLaplacian (Graph.new hcbEx).edges (Graph.new hcbEx).vertices).det = 3 := by
        rw [hv]
        rw [show (Graph.new hcbEx).edges = [⟨1, 2, ⟨0, 0⟩⟩, ⟨1, 2, ⟨0, 1⟩⟩, ⟨1, 2, ⟨1, 0⟩⟩] by decide +kernel]
        exact (Matrix.det_fin_two _).trans (by decide)
      rw [this]; decide) _ le_rfl
  exact ⟨pos, _, h 2 ⟨_, List.mem_cons_self, Or.inl rfl⟩⟩

example : positionIn (placement 4 (Graph.new hcbEx)) 2 = .ok [-1/3, -1/3] := by decide +kernel

section
variable {T : Type} [LabelVector T] [LawfulLabelVector T]

/-! ## C34

`Places tb g pos` says that `position(v)` is `pos v` for the vertices of `g`; C33 gives such a `pos`. -/

/-- C34: the value of `edge_vector`, and antisymmetry. -/
theorem C34_edge_vector (raw : List (Edge T)) (tb : Outcome PosTable) (pos : Nat → Fin (LabelVector.dim T) → ℚ)
    (hp : Places tb (Graph.new raw) pos) (e : Edge T) (he : IsDirected raw e) :
    edgeVectorIn tb e = .ok (List.ofFn (fun k =>
      pos e.tail k + ((rent (LabelVector.toVec e.shift) k.1 : ℤ) : ℚ) - pos e.head k)) ∧
    edgeVectorIn tb (⟨e.tail, e.head, -e.shift⟩ : Edge T) = .ok (List.ofFn (fun k =>
      -(pos e.tail k + ((rent (LabelVector.toVec e.shift) k.1 : ℤ) : ℚ) - pos e.head k))) := by
  have he' := (isDirected_new raw e).2 he
  refine ⟨edgeVector_ok hp he', ?_⟩
  have := edgeVector_ok hp (isDirected_neg.2 he')
  show edgeVectorIn tb e.neg = _
  rw [this]
  congr 2
  funext k
  exact edgeVec_neg pos e k

/-- C34: for a barycentric placement the vectors of the edges leaving a vertex sum to zero. -/
theorem C34_balanced (raw : List (Edge T)) (tb : Outcome PosTable) (pos : Nat → Fin (LabelVector.dim T) → ℚ)
    (hp : Places tb (Graph.new raw) pos)
    (hb : IsBarycentric (Graph.new raw).edges (Graph.new raw).vertices pos) (v : Nat) (hv : IsVertex raw v) :
    ∃ es vecs, (Graph.new raw).incidences v = .ok es ∧ omap (edgeVectorIn tb) es = .ok vecs ∧
      ∀ k < LabelVector.dim T, (vecs.map (fun x => rent x k)).sum = 0 := by
  have hv' := ((Graph.new raw).mem_vertices v).2 ((isVertex_new raw v).2 hv)
  refine ⟨_, _, Graph.incidences_ok _ hv', omap_ok (fun e he =>
    edgeVector_ok hp (((Graph.new raw).mem_inc _ _).1 he).1), fun k hk => ?_⟩
  have := sum_edgeVec (Graph.new raw) pos hb hv' ⟨k, hk⟩
  rw [List.map_map, ← this]
  congr 1
  apply List.map_congr_left
  intro e _
  exact Modular.rent_ofFn _ (⟨k, hk⟩ : Fin (LabelVector.dim T))

/-- C34: the normalized position. -/
theorem C34_position_normalized (raw : List (Edge T)) (tb : Outcome PosTable)
    (pos : Nat → Fin (LabelVector.dim T) → ℚ) (hp : Places tb (Graph.new raw) pos) (v : Nat) (hv : IsVertex raw v) :
    ∃ q : Fin (LabelVector.dim T) → ℚ, positionNormalizedIn tb v = .ok (List.ofFn q) ∧
      SameModLattice (pos v) q ∧ ∀ k, 0 ≤ q k ∧ q k < 1 := by
  have hv' := ((Graph.new raw).mem_vertices v).2 ((isVertex_new raw v).2 hv)
  refine ⟨_, positionNormalized_ok hp hv', ⟨fun k => ⌊pos v k⌋, fun k => ?_⟩, fun k =>
    ⟨Int.fract_nonneg _, Int.fract_lt_one _⟩⟩
  have := Int.floor_add_fract (pos v k)
  linarith

example : edgeVectorIn (placement 4 (Graph.new hcbEx)) (⟨2, 1, ⟨0, -1⟩⟩ : Edge V2) = .ok [1/3, -2/3] := by
  decide +kernel
example : positionNormalizedIn (.ok [(7, [-1/3, 5/2])]) 7 = .ok [2/3, 1/2] := by decide +kernel

/-! ## C35 -/

/-- C35: `is_stable` -/
theorem C35_is_stable (raw : List (Edge T)) (tb : Outcome PosTable) (pos : Nat → Fin (LabelVector.dim T) → ℚ)
    (hp : Places tb (Graph.new raw) pos) :
    ∃ b, isStableIn tb (Graph.new raw) = .ok b ∧
      (b = true ↔ ∀ v w, IsVertex raw v → IsVertex raw w → v ≠ w → ¬ SameModLattice (pos v) (pos w)) := by
  obtain ⟨b, h1, h2⟩ := isStable_ok hp
  refine ⟨b, h1, h2.trans ?_⟩
  simp only [Graph.mem_vertices, isVertex_new]
  exact ⟨fun h v w hv hw => h v hv w hw, fun h v hv w hw => h v w hv hw⟩

/-- C35: `is_locally_stable` -/
theorem C35_is_locally_stable (raw : List (Edge T)) (tb : Outcome PosTable)
    (pos : Nat → Fin (LabelVector.dim T) → ℚ) (hp : Places tb (Graph.new raw) pos) :
    ∃ b, isLocallyStableIn tb (Graph.new raw) = .ok b ∧
      (b = true ↔ ∀ v es, (Graph.new raw).incidences v = .ok es → (es.map (edgeVec pos)).Nodup) := by
  obtain ⟨b, h1, h2⟩ := isLocallyStable_ok hp
  refine ⟨b, h1, h2.trans ?_⟩
  constructor
  · intro h v es he
    rw [Graph.incidences_eq] at he
    by_cases hv : v ∈ (Graph.new raw).vertices
    · rw [if_pos hv] at he
      injection he with he
      rw [← he]; exact h v hv
    · rw [if_neg hv] at he; simp at he
  · intro h v hv
    exact h v _ (Graph.incidences_ok _ hv)

/-- C35: `has_second_order_collisions` -/
theorem C35_second_order_collisions (raw : List (Edge T)) (tb : Outcome PosTable)
    (pos : Nat → Fin (LabelVector.dim T) → ℚ) (hp : Places tb (Graph.new raw) pos) :
    ∃ b, hasSecondOrderCollisionsIn tb (Graph.new raw) = .ok b ∧
      (b = true ↔ ∃ v w es fs, (Graph.new raw).incidences v = .ok es ∧ (Graph.new raw).incidences w = .ok fs ∧
        v ≠ w ∧ SameModLattice (pos v) (pos w) ∧ (es.map (edgeVec pos)).Perm (fs.map (edgeVec pos))) := by
  obtain ⟨b, h1, h2⟩ := hasSecondOrderCollisions_ok hp
  refine ⟨b, h1, h2.trans ?_⟩
  constructor
  · rintro ⟨v, hv, w, hw, h3⟩
    exact ⟨v, w, _, _, Graph.incidences_ok _ hv, Graph.incidences_ok _ hw, h3⟩
  · rintro ⟨v, w, es, fs, hv, hw, h3⟩
    rw [Graph.incidences_eq] at hv hw
    by_cases hv' : v ∈ (Graph.new raw).vertices
    · by_cases hw' : w ∈ (Graph.new raw).vertices
      · rw [if_pos hv'] at hv
        rw [if_pos hw'] at hw
        injection hv with hv
        injection hw with hw
        rw [← hv, ← hw] at h3
        exact ⟨v, hv', w, hw', h3⟩
      · rw [if_neg hw'] at hw; simp at hw
    · rw [if_neg hv'] at hv; simp at hv

/-! ## C36 -/

/-- C36: `edge_by_unique_delta(v, d)` is `Some(e)` exactly if, among the incidences of `v`, there is
exactly one entry with edge vector `d`, and that is `e`. -/
theorem C36_edge_by_unique_delta (raw : List (Edge T)) (tb : Outcome PosTable)
    (pos : Nat → Fin (LabelVector.dim T) → ℚ) (hp : Places tb (Graph.new raw) pos) (v : Nat) (d : List Rat) :
    ∃ r, edgeByUniqueDeltaIn tb (Graph.new raw) v d = .ok r ∧
      (∀ e, r = some e ↔ ∃ es, (Graph.new raw).incidences v = .ok es ∧
        es.filter (fun e => List.ofFn (edgeVec pos e) = d) = [e]) ∧
      (¬ IsVertex raw v → r = none) := by
  obtain ⟨r, h1, h2⟩ := edgeByUniqueDelta_ok hp v d
  refine ⟨r, h1, fun e => (h2 e).trans ?_, fun hv => ?_⟩
  · constructor
    · rintro ⟨hv, h⟩
      exact ⟨_, Graph.incidences_ok _ hv, h⟩
    · rintro ⟨es, he, h⟩
      rw [Graph.incidences_eq] at he
      by_cases hv : v ∈ (Graph.new raw).vertices
      · rw [if_pos hv] at he
        injection he with he
        rw [← he] at h
        exact ⟨hv, h⟩
      · rw [if_neg hv] at he; simp at he
  · cases r with
    | none => rfl
    | some e =>
      have := ((h2 e).1 rfl).1
      rw [Graph.mem_vertices, isVertex_new] at this
      exact (hv this).elim

end

/-! Examples for C35 and C36: the positions of the honeycomb, and a graph with two vertices on top of
each other. -/

def hcbTb : Outcome PosTable := .ok [(1, [0, 0]), (2, [-1/3, -1/3])]
def hcbPos : Nat → Fin 2 → ℚ := fun v => if v = 2 then ![-1/3, -1/3] else ![0, 0]

example : placement 4 (Graph.new hcbEx) = hcbTb := by decide +kernel

theorem hcb_places : Places hcbTb (Graph.new hcbEx) hcbPos := by
  have hv : (Graph.new hcbEx).vertices = [1, 2] := by decide +kernel
  intro v h
  rw [hv] at h
  simp only [List.mem_cons, List.not_mem_nil, or_false] at h
  rcases h with rfl | rfl <;> decide +kernel

example : isStableIn hcbTb (Graph.new hcbEx) = .ok true := by decide +kernel
example : isLocallyStableIn hcbTb (Graph.new hcbEx) = .ok true := by decide +kernel
example : hasSecondOrderCollisionsIn hcbTb (Graph.new hcbEx) = .ok false := by decide +kernel
example : edgeByUniqueDeltaIn hcbTb (Graph.new hcbEx) 1 [-1/3, 2/3] = .ok (some ⟨1, 2, ⟨0, 1⟩⟩) := by
  decide +kernel

/-- two vertices attached to the same square lattice in the same way -/
def collideEx : List (Edge V2) := sqlEx ++ [⟨1, 2, ⟨0, 0⟩⟩, ⟨1, 3, ⟨0, 0⟩⟩]

example : placement 4 (Graph.new collideEx) = .ok [(1, [0, 0]), (2, [0, 0]), (3, [0, 0])] := by decide +kernel
example : isStableIn (placement 4 (Graph.new collideEx)) (Graph.new collideEx) = .ok false := by decide +kernel
example : isLocallyStableIn (placement 4 (Graph.new collideEx)) (Graph.new collideEx) = .ok false := by decide +kernel
example : hasSecondOrderCollisionsIn (placement 4 (Graph.new collideEx)) (Graph.new collideEx) = .ok true := by
  decide +kernel
example : edgeByUniqueDeltaIn (placement 4 (Graph.new collideEx)) (Graph.new collideEx) 1 [0, 0] = .ok none := by
  decide +kernel
example : edgeByUniqueDeltaIn (placement 4 (Graph.new collideEx)) (Graph.new collideEx) 3 [0, 0] =
    .ok (some ⟨3, 1, ⟨0, 0⟩⟩) := by decide +kernel

end Systre
