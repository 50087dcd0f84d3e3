import Verif.Lemmas.ShiftNorm

/-! # Change of vertex representatives -/

set_option linter.unusedSectionVars false

namespace Systre
section
variable {T : Type} [LabelVector T] [LawfulLabelVector T]

theorem adjEdge_canonical (c : Nat → T) (e : Edge T) : (adjEdge c e).canonical = adjEdge c e.canonical := by
  have hh : (adjEdge c e).head = e.head := rfl
  have ht : (adjEdge c e).tail = e.tail := rfl
  have hs : e.tail = e.head → (adjEdge c e).shift = e.shift := by
    intro h
    show c e.head + e.shift - c e.tail = e.shift
    rw [h]; abel
  unfold Edge.canonical
  rw [hh, ht]
  by_cases h : e.tail = e.head
  · rw [hs h]
    split
    · exact (adjEdge_neg c e).symm
    · rfl
  · by_cases h2 : e.tail < e.head
    · rw [if_pos (Or.inl h2), if_pos (Or.inl h2)]; exact (adjEdge_neg c e).symm
    · rw [if_neg (by simp [h, h2]), if_neg (by simp [h, h2])]

theorem Edge.lt_iff (e f : Edge T) : e < f ↔
    e.head < f.head ∨ (e.head = f.head ∧ (e.tail < f.tail ∨ (e.tail = f.tail ∧ e.shift < f.shift))) := by
  change toLex (e.head, toLex (e.tail, e.shift)) < toLex (f.head, toLex (f.tail, f.shift)) ↔ _
  rw [Prod.Lex.toLex_lt_toLex]
  simp only [Prod.Lex.toLex_lt_toLex]

theorem adjEdge_lt (c : Nat → T) {e f : Edge T} (h : e < f) : adjEdge c e < adjEdge c f := by
  rw [Edge.lt_iff] at h ⊢
  rcases h with h | ⟨h1, h | ⟨h2, h3⟩⟩
  · exact Or.inl h
  · exact Or.inr ⟨h1, Or.inl h⟩
  · refine Or.inr ⟨h1, Or.inr ⟨h2, ?_⟩⟩
    show c e.head + e.shift - c e.tail < c f.head + f.shift - c f.tail
    rw [h1, h2]
    have := LawfulLabelVector.add_lt_add e.shift f.shift (c f.head - c f.tail) h3
    have h4 : ∀ s : T, c f.head + s - c f.tail = s + (c f.head - c f.tail) := by intro s; abel
    rw [h4, h4]; exact this

theorem adjEdge_adjEdge (c d : Nat → T) (e : Edge T) : adjEdge d (adjEdge c e) = adjEdge (fun v => d v + c v) e := by
  ext
  · rfl
  · rfl
  · show d e.head + (c e.head + e.shift - c e.tail) - d e.tail = d e.head + c e.head + e.shift - (d e.tail + c e.tail)
    abel

theorem adjEdge_inj (c : Nat → T) : Function.Injective (adjEdge c) := by
  intro e f h
  rcases lt_trichotomy e f with h1 | h1 | h1
  · exact absurd h (adjEdge_lt c h1).ne
  · exact h1
  · exact absurd h.symm (adjEdge_lt c h1).ne

/-- the graph with the other representatives -/
def Graph.rep (c : Nat → T) (g : Graph T) : Graph T := ⟨g.edges.map (adjEdge c)⟩

theorem Graph.ext_new {raw raw' : List (Edge T)} (h : ∀ e, IsDirected raw e ↔ IsDirected raw' e) :
    Graph.new raw = Graph.new raw' := by
  have : (Graph.new raw).edges = (Graph.new raw').edges := by
    refine sorted_ext (wf_new raw).sorted (wf_new raw').sorted (fun e => ?_)
    constructor
    · intro he
      have h1 := (wf_new raw).canon e he
      have h2 := (isDirected_new raw' e).2 ((h e).1 ((isDirected_new raw e).1 (Or.inl he)))
      have := Graph.canon_mem (wf_new raw') h2
      rwa [h1] at this
    · intro he
      have h1 := (wf_new raw').canon e he
      have h2 := (isDirected_new raw e).2 ((h e).2 ((isDirected_new raw' e).1 (Or.inl he)))
      have := Graph.canon_mem (wf_new raw) h2
      rwa [h1] at this
  cases hA : Graph.new raw; cases hB : Graph.new raw'
  rw [hA, hB] at this
  exact congrArg _ this

theorem isDirected_map (c : Nat → T) (raw : List (Edge T)) (e : Edge T) :
    IsDirected (raw.map (adjEdge c)) e ↔ ∃ f, IsDirected raw f ∧ e = adjEdge c f := by
  rw [isDirected_iff]
  constructor
  · rintro (h | h)
    · obtain ⟨f, hf, rfl⟩ := List.mem_map.1 h
      exact ⟨f, Or.inl hf, rfl⟩
    · obtain ⟨f, hf, h2⟩ := List.mem_map.1 h
      refine ⟨f.neg, isDirected_neg.2 (Or.inl hf), ?_⟩
      rw [adjEdge_neg, h2, Edge.neg_neg]
  · rintro ⟨f, hf, rfl⟩
    rcases (isDirected_iff _ _).1 hf with h | h
    · exact Or.inl (List.mem_map.2 ⟨f, h, rfl⟩)
    · exact Or.inr (List.mem_map.2 ⟨f.neg, h, adjEdge_neg c f⟩)

theorem rep_new (c : Nat → T) (raw : List (Edge T)) :
    Graph.new (raw.map (adjEdge c)) = (Graph.new raw).rep c := by
  have : (Graph.new (raw.map (adjEdge c))).edges = (Graph.new raw).edges.map (adjEdge c) := by
    refine sorted_ext (wf_new _).sorted (List.pairwise_map.2 ((wf_new raw).sorted.imp (fun h => adjEdge_lt c h)))
      (fun e => ?_)
    rw [mem_new, List.mem_map]
    simp only [mem_new, List.mem_map]
    constructor
    · rintro ⟨f, ⟨f', hf', rfl⟩, rfl⟩
      exact ⟨f'.canonical, ⟨f', hf', rfl⟩, (adjEdge_canonical c f').symm⟩
    · rintro ⟨f, ⟨f', hf', rfl⟩, rfl⟩
      exact ⟨adjEdge c f', ⟨f', hf', rfl⟩, adjEdge_canonical c f'⟩
  cases hA : Graph.new (raw.map (adjEdge c))
  rw [hA] at this
  exact congrArg _ this

theorem rep_vertices (c : Nat → T) (g : Graph T) : (g.rep c).vertices = g.vertices := by
  unfold Graph.vertices Graph.rep
  simp only [List.flatMap_map]
  rfl

theorem rep_inc (c : Nat → T) (g : Graph T) (v : Nat) : (g.rep c).inc v = (g.inc v).map (adjEdge c) := by
  have h : ∀ l : List (Edge T), (l.map (adjEdge c)).flatMap (fun e => [e, e.neg]) =
      (l.flatMap (fun e => [e, e.neg])).map (adjEdge c) := by
    intro l
    induction l with
    | nil => rfl
    | cons e l ih =>
      rw [List.map_cons, List.flatMap_cons, List.flatMap_cons, ih, List.map_append]
      simp [adjEdge_neg]
  unfold Graph.inc Graph.rep
  rw [h, List.filter_map]
  rfl

theorem rep_incidences (c : Nat → T) (g : Graph T) (v : Nat) :
    (g.rep c).incidences v = (g.incidences v >>= fun es => Outcome.ok (es.map (adjEdge c))) := by
  rw [Graph.incidences_eq, Graph.incidences_eq, rep_vertices, rep_inc]
  split <;> rfl

/-- how the states of the two traversals belong together -/
structure TravRel (c : Nat → T) (c0 : T) (s s' : Trav T) : Prop where
  shifts : ∀ v, s'.shifts.lookup v = (s.shifts.lookup v).map (fun t => t + c0 - c v)
  seen : s'.seen = s.seen.map (adjEdge c)
  queue : s'.queue = s.queue
  result : s'.result = s.result

/-- both fail alike or both succeed with related results -/
def OutRel {α β : Type} (R : α → β → Prop) : Outcome α → Outcome β → Prop
  | .ok a, .ok b => R a b
  | .panic, .panic => True
  | .diverge, .diverge => True
  | _, _ => False

theorem OutRel.bind {α β α' β' : Type} {R : α → β → Prop} {S : α' → β' → Prop} {x : Outcome α} {y : Outcome β}
    {f : α → Outcome α'} {g : β → Outcome β'} (h : OutRel R x y) (hf : ∀ a b, R a b → OutRel S (f a) (g b)) :
    OutRel S (x >>= f) (y >>= g) := by
  cases x <;> cases y <;> simp only [OutRel] at h
  · exact hf _ _ h
  · trivial
  · trivial

theorem OutRel.eq {α : Type} {x y : Outcome α} (h : OutRel (· = ·) x y) : x = y := by
  cases x <;> cases y <;> simp only [OutRel] at h
  · rw [h]
  · rfl
  · rfl

theorem unwrap_rel {α β : Type} (o : Option α) (f : α → β) :
    OutRel (fun a b => b = f a) (unwrap o) (unwrap (o.map f)) := by
  cases o
  · trivial
  · rfl

theorem travVisit_rel {c : Nat → T} {c0 : T} {s s' : Trav T} (h : TravRel c c0 s s') (v : Nat) {e : Edge T}
    (he : e.head = v) : OutRel (TravRel c c0) (travVisit v e s) (travVisit v (adjEdge c e) s') := by
  unfold travVisit
  have ht : (adjEdge c e).tail = e.tail := rfl
  rw [ht, h.shifts e.tail]
  cases hl : s.shifts.lookup e.tail with
  | some t => exact h
  | none =>
    simp only [Option.map_none]
    rw [h.shifts v]
    refine OutRel.bind (unwrap_rel _ _) ?_
    rintro a b rfl
    refine ⟨fun w => ?_, h.seen, ?_, h.result⟩
    · by_cases hw : w = e.tail
      · subst hw
        show List.lookup _ (_ :: _) = Option.map _ (List.lookup _ (_ :: _))
        rw [lookup_cons_self', lookup_cons_self', Option.map_some]
        congr 1
        show a + c0 - c v + (c e.head + e.shift - c e.tail) = a + e.shift + c0 - c e.tail
        rw [he]; abel
      · show List.lookup _ (_ :: _) = Option.map _ (List.lookup _ (_ :: _))
        rw [lookup_cons_ne hw, lookup_cons_ne hw, h.shifts]
    · show s'.queue ++ _ = s.queue ++ _
      rw [h.queue]

theorem travRecord_rel {c : Nat → T} {c0 : T} {s s' : Trav T} (h : TravRel c c0 s s') (e : Edge T) :
    OutRel (TravRel c c0) (travRecord e s) (travRecord (adjEdge c e) s') := by
  unfold travRecord
  have hm : adjEdge c e ∈ s'.seen ↔ e ∈ s.seen := by
    rw [h.seen, List.mem_map_of_injective (adjEdge_inj c)]
  by_cases hs : e ∈ s.seen
  · rw [if_pos hs, if_pos (hm.2 hs)]; exact h
  · rw [if_neg hs, if_neg (fun h => hs (hm.1 h))]
    have ht : (adjEdge c e).tail = e.tail := rfl
    have hh : (adjEdge c e).head = e.head := rfl
    rw [ht, hh, h.shifts, h.shifts]
    refine OutRel.bind (unwrap_rel _ _) ?_
    rintro a _ rfl
    refine OutRel.bind (unwrap_rel _ _) ?_
    rintro b _ rfl
    refine ⟨h.shifts, ?_, h.queue, ?_⟩
    · show _ :: s'.seen = List.map _ (_ :: s.seen)
      rw [h.seen, List.map_cons]
    · show s'.result ++ _ = s.result ++ _
      rw [h.result]
      congr 2
      ext
      · rfl
      · rfl
      · show a + c0 - c e.head + (c e.head + e.shift - c e.tail) - (b + c0 - c e.tail) = a + e.shift - b
        abel

theorem travInner_rel {c : Nat → T} {c0 : T} (v : Nat) : ∀ (es : List (Edge T)), (∀ e ∈ es, e.head = v) →
    ∀ {s s' : Trav T}, TravRel c c0 s s' →
    OutRel (TravRel c c0) (travInner v es s) (travInner v (es.map (adjEdge c)) s') := by
  intro es
  induction es with
  | nil => intro _ s s' h; exact h
  | cons e es ih =>
    intro hes s s' h
    rw [List.map_cons, travInner, travInner]
    refine OutRel.bind (travVisit_rel h v (hes e (by simp))) ?_
    intro a b hab
    rw [adjEdge_canonical]
    refine OutRel.bind (travRecord_rel hab _) ?_
    intro a' b' hab'
    exact ih (fun f hf => hes f (by simp [hf])) hab'

theorem travLoop_rel {c : Nat → T} {c0 : T} (g : Graph T) : ∀ (fuel : Nat) {s s' : Trav T}, TravRel c c0 s s' →
    OutRel (· = ·) (travLoop g fuel s) (travLoop (g.rep c) fuel s') := by
  intro fuel
  induction fuel with
  | zero => intro s s' _; trivial
  | succ fuel ih =>
    intro s s' h
    rw [travLoop, travLoop, h.queue]
    cases hq : s.queue with
    | nil => exact h.result.symm
    | cons v q =>
      simp only
      rw [rep_incidences, Graph.incidences_eq]
      split
      · rw [Outcome.ok_bind, Outcome.ok_bind, Outcome.ok_bind]
        refine OutRel.bind (travInner_rel v _ (fun e he => ((g.mem_inc v e).1 he).2)
          (s := { s with queue := q }) (s' := { s' with queue := q }) ⟨h.shifts, h.seen, rfl, h.result⟩) ?_
        intro a b hab
        exact ih hab
      · trivial

theorem traverse_rep (c : Nat → T) (g : Graph T) (v0 : Nat) : traverse (g.rep c) v0 = traverse g v0 := by
  unfold traverse
  rw [rep_vertices]
  refine (travLoop_rel (c := c) (c0 := c v0) g _ ⟨fun v => ?_, rfl, rfl, rfl⟩).eq.symm
  by_cases h : v = v0
  · subst h
    rw [lookup_cons_self', Option.map_some]
    congr 1
    abel
  · rw [lookup_cons_ne h]; rfl

theorem shiftNormLoop_rep (c : Nat → T) (g : Graph T) : ∀ (vs seen : List Nat) (edges : List (Edge T)),
    shiftNormLoop (g.rep c) vs seen edges = shiftNormLoop g vs seen edges := by
  intro vs
  induction vs with
  | nil => intro seen edges; rfl
  | cons v vs ih =>
    intro seen edges
    rw [shiftNormLoop, shiftNormLoop, traverse_rep]
    simp only [ih]

theorem shiftNormalized_rep (c : Nat → T) (g : Graph T) : (g.rep c).shiftNormalized = g.shiftNormalized := by
  unfold Graph.shiftNormalized
  rw [rep_vertices, shiftNormLoop_rep]

theorem componentMeasures_rep (c : Nat → T) (g : Graph T) (v : Nat) :
    componentMeasures (g.rep c) v = componentMeasures g v := by
  unfold componentMeasures
  rw [traverse_rep]

theorem isConnected_rep (c : Nat → T) (g : Graph T) : (g.rep c).isConnected = g.isConnected := by
  unfold Graph.isConnected
  rw [rep_vertices]
  simp only [componentMeasures_rep]

end
end Systre
