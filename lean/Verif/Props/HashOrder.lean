import Verif.Lemmas.HashOrder
import Verif.Props.Symmetries

/-!
# Property C84: results do not depend on the iteration order of hash tables

`HashOrder` is an arbitrary order for every iteration over a hash table; the functions whose names end in `In` are the
code with that order. -/

namespace Systre

open Partitions (PState)

variable {T : Type} [LabelVector T]

/-- C84: `Graph::new` builds the same graph, with the same order of edges. -/
theorem C84_graph (o : HashOrder) (raw : List (Edge T)) : Graph.newIn o raw = Graph.new raw := by
  unfold Graph.newIn Graph.new
  congr 1
  refine List.Perm.eq_of_pairwise' (List.pairwise_insertionSort (· ≤ ·) _) (List.pairwise_insertionSort (· ≤ ·) _) ?_
  exact (List.perm_insertionSort _ _).trans ((o.perm _ _).trans (List.perm_insertionSort _ _).symm)

/-- C84: coordination sequences are the same, item by item (and panic in the same cases). -/
theorem C84_coordination_sequence (o : HashOrder) (g : Graph T) (v k : Nat) :
    g.coordinationItemIn o v k = g.coordinationItem v k := by
  unfold Graph.coordinationItem Graph.coordinationItemIn
  refine (SameOutcome.eq ?_).symm
  refine (iterateIn_same o g k 0 (s := CoordSeq.new v) ⟨.rfl, .rfl⟩).bind ?_
  intro s s' h
  refine (nextIn_same o g k h).bind ?_
  rintro ⟨a, s1⟩ ⟨b, s2⟩ ⟨h1, -⟩
  exact .ok h1

/-- C84: `symmetries` returns the same automorphisms, each as often, in some order; it panics in the same cases, and
its loop ends after the same number of rounds. -/
theorem C84_symmetries (o : HashOrder) (fuel : Nat) (tb : Outcome PosTable) (g : Graph T) :
    SameOutcome SameAuts (symmetries fuel tb g) (symmetriesIn o fuel tb g) := by
  refine (symmetriesIn_same o fuel tb g).mono ?_
  rintro l l' ⟨l'', h1, h2⟩
  exact ⟨l'', forall₂_imp (fun a b h => h.1) h1, h2⟩

/-- C84: `vertex_orbits` and `edge_orbits` return the same lists, with the same order of the orbits and in the
orbits. -/
theorem C84_orbits (o : HashOrder) (fuel : Nat) (tb : Outcome PosTable) (g : Graph T) (l l' : List (Automorphism T))
    (h : symmetries fuel tb g = .ok l) (h' : symmetriesIn o fuel tb g = .ok l') :
    vertexOrbits g l' = vertexOrbits g l ∧ edgeOrbits g l' = edgeOrbits g l := by
  have := symmetriesIn_same o fuel tb g
  rw [h, h'] at this
  cases this with
  | ok h => exact ⟨(vertexOrbits_same g h).symm, (edgeOrbits_same g h).symm⟩

/-- C84: the answer of `classes` depends only on which elements are joined: not on the order of the calls of `unite`,
nor on the order of their arguments. -/
theorem C84_classes {α : Type} [DecidableEq α] (ops ops' : List (Partitions.Op α)) (s s' : PState α)
    (hs : Partitions.run PState.new ops = .ok s) (hs' : Partitions.run PState.new ops' = .ok s')
    (h : ∀ x y, Partitions.Joined ops x y ↔ Partitions.Joined ops' x y) (elms : List α) :
    ∃ t t' cs, Partitions.classes s elms = .ok (t, cs) ∧ Partitions.classes s' elms = .ok (t', cs) :=
  classes_joined hs hs' h elms

/-- C84: for a connected locally stable graph there are lists of orbits that `vertex_orbits` and `edge_orbits` return
for every order. -/
theorem C84_orbits_returned [LawfulLabelVector T] (raw : List (Edge T)) (tb : Outcome PosTable)
    (pos : Nat → Fin (LabelVector.dim T) → ℚ) (hp : Places tb (Graph.new raw) pos) (hs : LocallyStable raw pos)
    (hc : PeriodicConnected raw) (hne : raw ≠ []) :
    ∃ N cs es, ∀ (o : HashOrder) (fuel : Nat), N ≤ fuel → ∃ l, symmetriesIn o fuel tb (Graph.newIn o raw) = .ok l ∧
      vertexOrbits (Graph.newIn o raw) l = .ok cs ∧ edgeOrbits (Graph.newIn o raw) l = .ok es := by
  obtain ⟨N, l, cs, h1, h2, -⟩ := C41_vertex_orbits raw tb pos hp hs hc hne
  obtain ⟨N', l', es, h1', h2', -⟩ := C41_edge_orbits raw tb pos hp hs hc hne
  have hl : l' = l := by
    have a := h1 (max N N') (le_max_left _ _)
    rw [h1' (max N N') (le_max_right _ _)] at a
    exact Outcome.ok.inj a
  subst hl
  refine ⟨N, cs, es, fun o fuel hf => ?_⟩
  rw [C84_graph]
  have h3 := C84_symmetries o fuel tb (Graph.new raw)
  rw [h1 fuel hf] at h3
  cases h4 : symmetriesIn o fuel tb (Graph.new raw) with
  | panic => rw [h4] at h3; cases h3
  | diverge => rw [h4] at h3; cases h3
  | ok l' =>
    obtain ⟨a, b⟩ := C84_orbits o fuel tb _ _ _ (h1 fuel hf) h4
    exact ⟨l', rfl, a.trans h2, b.trans h2'⟩

/-! ### Witnesses -/

/-- every table is iterated backwards -/
def backwards : HashOrder := ⟨fun _ l => l.reverse, fun _ l => List.reverse_perm l⟩

/-- The first iteration forwards, the next backwards, and so on. -/
def zigzag : HashOrder := ⟨fun n l => if n % 2 = 0 then l else l.reverse, fun n l => by
  split
  · exact .rfl
  · exact List.reverse_perm l⟩

example := C84_orbits_returned hcbEx hcbTb hcbPos hcb_places hcb_locallyStable hcb_connected (by decide)

/-- The order does change the list of symmetries: the last one found, which is not the identity, comes first. -/
example : (symmetries 13 hcbTb (Graph.new hcbEx) >>= fun l => Outcome.ok (l.map (fun φ => φ.vertexMap))) ≠
    (symmetriesIn backwards 13 hcbTb (Graph.new hcbEx) >>= fun l => Outcome.ok (l.map (fun φ => φ.vertexMap))) := by
  decide +kernel

example : (symmetriesIn zigzag 13 hcbTb (Graph.new hcbEx) >>= fun l => edgeOrbits (Graph.new hcbEx) l) =
    .ok [[⟨1, 2, ⟨0, 0⟩⟩, ⟨1, 2, ⟨0, 1⟩⟩, ⟨1, 2, ⟨1, 0⟩⟩]] := by decide +kernel

end Systre
