import Verif.Lemmas.InfiniteIso
import Verif.Props.Translations

/-!
# Theorems about changes of the vertex representatives and coordination sequences as invariants (C70, C71)
-/

set_option linter.unusedSectionVars false

namespace Systre
section
variable {T : Type} [LabelVector T] [LawfulLabelVector T]

/-! ## C70 -/

/-- C70: `shift_normalized` is a complete invariant of the choice of representatives. -/
theorem C70_normal_form (raw raw' : List (Edge T)) :
    SameUpToRepresentatives raw raw' ↔ (Graph.new raw).shiftNormalized = (Graph.new raw').shiftNormalized := by
  constructor
  · rintro ⟨c, h⟩
    rw [new_of_changes h, shiftNormalized_rep]
  · intro h
    obtain ⟨k, c, h1, h2, -⟩ := C30_shift_normalized raw
    obtain ⟨k', c', h1', h2', -⟩ := C30_shift_normalized raw'
    have hk : k' = k := by rw [h1, h1'] at h; exact (Outcome.ok.inj h).symm
    subst hk
    refine ⟨fun v => -c' v + c v, fun e => ?_⟩
    constructor
    · intro he
      obtain ⟨f, hf, hef⟩ := (h2 _).1 ((h2' _).2 ⟨e, he, rfl⟩)
      refine ⟨f, hf, ?_⟩
      simp only [Edge.mk.injEq] at hef
      obtain ⟨ha, hb, hs⟩ := hef
      ext
      · exact ha
      · exact hb
      · simp only
        rw [ha, hb] at hs
        have : e.shift = -c' f.head + (c' f.head + e.shift - c' f.tail) + c' f.tail := by abel
        rw [this, hs]; abel
    · rintro ⟨f, hf, rfl⟩
      obtain ⟨e, he, hef⟩ := (h2' _).1 ((h2 _).2 ⟨f, hf, rfl⟩)
      simp only [Edge.mk.injEq] at hef
      obtain ⟨ha, hb, hs⟩ := hef
      have : (⟨f.head, f.tail, -c' f.head + c f.head + f.shift - (-c' f.tail + c f.tail)⟩ : Edge T) = e := by
        ext
        · exact ha
        · exact hb
        · simp only
          rw [← ha, ← hb] at hs
          have h5 : -c' f.head + c f.head + f.shift - (-c' f.tail + c f.tail) =
              -c' f.head + (c f.head + f.shift - c f.tail) + c' f.tail := by abel
          rw [h5, hs]; abel
      rw [this]; exact he

/-- C70: the result of `shift_normalized` is its own normal form. -/
theorem C70_idempotent (raw : List (Edge T)) :
    ∃ h, (Graph.new raw).shiftNormalized = .ok h ∧ h.shiftNormalized = .ok h := by
  obtain ⟨h, c, h1, h2, -, es, rfl⟩ := C30_shift_normalized raw
  refine ⟨_, h1, ?_⟩
  rw [← h1]
  refine ((C70_normal_form raw es).1 ⟨c, fun e => ?_⟩).symm
  rw [← isDirected_new es, h2]

/-- C70: vertices, component measures, connectedness and coordination numbers. -/
theorem C70_results (raw raw' : List (Edge T)) (h : SameUpToRepresentatives raw raw') :
    (Graph.new raw').vertices = (Graph.new raw).vertices ∧
    (∀ v, componentMeasures (Graph.new raw') v = componentMeasures (Graph.new raw) v) ∧
    (Graph.new raw').isConnected = (Graph.new raw).isConnected ∧
    ∀ v k, (Graph.new raw').coordinationItem v k = (Graph.new raw).coordinationItem v k := by
  obtain ⟨c, h⟩ := h
  refine ⟨by rw [new_of_changes h, rep_vertices], fun v => by rw [new_of_changes h, componentMeasures_rep],
    by rw [new_of_changes h, isConnected_rep], fun v k => ?_⟩
  by_cases hv : IsVertex raw v
  · exact (rep_iso h).coordinationItem (x := (v, 0)) hv k
  · rw [C29_no_vertex raw v k hv, C29_no_vertex raw' v k]
    rw [← isVertex_new, ← Graph.mem_vertices, new_of_changes h, rep_vertices, Graph.mem_vertices, isVertex_new]
    exact hv

/-- C70: positions, edge vectors and the stability predicates. -/
theorem C70_positions (raw raw' : List (Edge T)) (c : Nat → T) (h : ChangesRepresentatives c raw raw')
    (hc : QuotientConnected raw) (hne : (Graph.new raw).vertices ≠ []) (tb tb' : Outcome PosTable)
    (pos pos' : Nat → Fin (LabelVector.dim T) → ℚ)
    (hp : Places tb (Graph.new raw) pos) (hp' : Places tb' (Graph.new raw') pos')
    (hb : IsBarycentric (Graph.new raw).edges (Graph.new raw).vertices pos)
    (hb' : IsBarycentric (Graph.new raw').edges (Graph.new raw').vertices pos')
    (h0 : ∀ v ∈ (Graph.new raw).vertices.head?, pos v = 0)
    (h0' : ∀ v ∈ (Graph.new raw').vertices.head?, pos' v = 0) :
    (∀ v, IsVertex raw v →
      pos' v = pos v + shv (c v) - shv (c ((Graph.new raw).vertices.head hne))) ∧
    (∀ e, IsDirected raw e →
      edgeVectorIn tb' (⟨e.head, e.tail, c e.head + e.shift - c e.tail⟩ : Edge T) = edgeVectorIn tb e) ∧
    isStableIn tb' (Graph.new raw') = isStableIn tb (Graph.new raw) ∧
    isLocallyStableIn tb' (Graph.new raw') = isLocallyStableIn tb (Graph.new raw) ∧
    hasSecondOrderCollisionsIn tb' (Graph.new raw') = hasSecondOrderCollisionsIn tb (Graph.new raw) := by
  have hg := new_of_changes h
  rw [hg] at hb' h0' hp' ⊢
  rw [rep_vertices] at h0'
  have hc' : QuotientConnected (Graph.new raw).edges := by
    intro v w hv hw
    have := hc v w ((isVertex_new _ _).1 hv) ((isVertex_new _ _).1 hw)
    refine rtg_mono (fun a b hab => ?_) this
    obtain ⟨e, he, h5, h6⟩ := hab
    exact ⟨e, (isDirected_new _ _).2 he, h5, h6⟩
  have hpos := rep_positions c (Graph.new raw) hc' hne hb hb' h0 h0'
  have hvec : ∀ e, IsDirected (Graph.new raw).edges e → edgeVec pos' (adjEdge c e) = edgeVec pos e := by
    intro e he
    rw [← edgeVec_rep c (-shv (c ((Graph.new raw).vertices.head hne))) pos e]
    rw [edgeVec_eq_shv, edgeVec_eq_shv]
    have ht : (adjEdge c e).tail = e.tail := rfl
    have hh : (adjEdge c e).head = e.head := rfl
    rw [ht, hh, hpos _ ((Graph.new raw).tail_mem he), hpos _ ((Graph.new raw).head_mem he)]
    simp only [sub_eq_add_neg]
  have hmod : ∀ v ∈ (Graph.new raw).vertices, ∀ w ∈ (Graph.new raw).vertices,
      (SameModLattice (pos' v) (pos' w) ↔ SameModLattice (pos v) (pos w)) := by
    intro v hv w hw
    rw [hpos v hv, hpos w hw, sameModLattice_iff (T := T), sameModLattice_iff (T := T)]
    constructor
    · rintro ⟨t, ht⟩
      refine ⟨t - c v + c w, ?_⟩
      rw [shv_add, shv_sub, ← ht]; abel
    · rintro ⟨t, ht⟩
      refine ⟨t + c v - c w, ?_⟩
      rw [shv_sub, shv_add, ← ht]; abel
  have hinc : ∀ v, (((Graph.new raw).rep c).inc v).map (edgeVec pos') = ((Graph.new raw).inc v).map (edgeVec pos) := by
    intro v
    rw [rep_inc, List.map_map]
    apply List.map_congr_left
    intro e he
    exact hvec e (((Graph.new raw).mem_inc _ _).1 he).1
  refine ⟨fun v hv => hpos v (((Graph.new raw).mem_vertices v).2 ((isVertex_new _ _).2 hv)), fun e he => ?_, ?_, ?_, ?_⟩
  · have he' := (isDirected_new raw e).2 he
    show edgeVectorIn tb' (adjEdge c e) = _
    rw [edgeVector_ok hp he', edgeVector_ok hp' ((isDirected_map c _ _).2 ⟨e, he', rfl⟩), hvec e he']
  · obtain ⟨b, h1, h2⟩ := isStable_ok hp
    obtain ⟨b', h1', h2'⟩ := isStable_ok hp'
    rw [h1, h1']
    congr 1
    rw [Bool.eq_iff_iff, h2, h2', rep_vertices]
    constructor
    · intro H v hv w hw hvw hm; exact H v hv w hw hvw ((hmod v hv w hw).2 hm)
    · intro H v hv w hw hvw hm; exact H v hv w hw hvw ((hmod v hv w hw).1 hm)
  · obtain ⟨b, h1, h2⟩ := isLocallyStable_ok hp
    obtain ⟨b', h1', h2'⟩ := isLocallyStable_ok hp'
    rw [h1, h1']
    congr 1
    rw [Bool.eq_iff_iff, h2, h2', rep_vertices]
    simp only [hinc]
  · obtain ⟨b, h1, h2⟩ := hasSecondOrderCollisions_ok hp
    obtain ⟨b', h1', h2'⟩ := hasSecondOrderCollisions_ok hp'
    rw [h1, h1']
    congr 1
    rw [Bool.eq_iff_iff, h2, h2', rep_vertices]
    simp only [hinc]
    constructor
    · rintro ⟨v, hv, w, hw, h3, h4, h5⟩
      exact ⟨v, hv, w, hw, h3, (hmod v hv w hw).1 h4, h5⟩
    · rintro ⟨v, hv, w, hw, h3, h4, h5⟩
      exact ⟨v, hv, w, hw, h3, (hmod v hv w hw).2 h4, h5⟩

/-! ## C71 -/

/-- C71: vertices related by a symmetry have the same coordination sequence. -/
theorem C71_automorphism (raw : List (Edge T)) (pos : Nat → Fin (LabelVector.dim T) → ℚ)
    (hc : PeriodicConnected raw) (a : Automorphism T)
    (A : Matrix (Fin (LabelVector.dim T)) (Fin (LabelVector.dim T)) ℚ) (s : Fin (LabelVector.dim T) → ℚ)
    (ha : IsAutomorphism raw pos a A s) (v w : Nat) (hvw : a.vertexMap.lookup v = some w) (k : Nat) :
    (Graph.new raw).coordinationItem w k = (Graph.new raw).coordinationItem v k := by
  obtain ⟨vm, em, h1, h2⟩ := ha
  obtain ⟨hv, rfl⟩ := (h1.vkeys v w).1 hvw
  have hne : raw ≠ [] := by rintro rfl; obtain ⟨e, he, -⟩ := hv; simp at he
  obtain ⟨c, Φ, h3, h4, h5⟩ := C37_infinite_graph raw pos hc hne vm em A h2
  have := IsInfiniteIso.coordinationItem (Φ := Φ) ⟨h3, h5⟩ (x := (v, 0)) hv k
  rwa [(h4 (v, 0) hv).1] at this

/-- C71: all vertices of an orbit that `vertex_orbits` returns have the same coordination sequence. -/
theorem C71_vertex_orbits (raw : List (Edge T)) (tb : Outcome PosTable)
    (pos : Nat → Fin (LabelVector.dim T) → ℚ) (hp : Places tb (Graph.new raw) pos) (hs : LocallyStable raw pos)
    (hc : PeriodicConnected raw) (hne : raw ≠ []) :
    ∃ N l cs, (∀ fuel, N ≤ fuel → symmetries fuel tb (Graph.new raw) = .ok l) ∧
      vertexOrbits (Graph.new raw) l = .ok cs ∧
      ∀ c ∈ cs, ∀ v ∈ c, ∀ w ∈ c, ∀ k,
        (Graph.new raw).coordinationItem w k = (Graph.new raw).coordinationItem v k := by
  obtain ⟨N, l, h1, h2, -⟩ := C39_symmetries_group raw tb pos hp hs hc hne
  obtain ⟨N', l', cs, h1', h3, -, -, -, h4⟩ := C41_vertex_orbits raw tb pos hp hs hc hne
  have hl : l' = l := Outcome.ok.inj ((h1' (max N N') (le_max_right _ _)).symm.trans (h1 _ (le_max_left _ _)))
  subst hl
  refine ⟨N, l', cs, h1, h3, fun c hcc v hv w hw k => ?_⟩
  obtain ⟨φ, hφ, hl⟩ := (h4 c hcc v hv w).1 hw
  obtain ⟨A, hA⟩ := h2 φ hφ
  exact C71_automorphism raw pos hc φ A 0 hA v w hl k

/-- C71: `minimal_image` keeps the coordination sequences. -/
theorem C71_minimal_image (raw : List (Edge T)) (tb : Outcome PosTable)
    (pos : Nat → Fin (LabelVector.dim T) → ℚ)
    (hp : Places tb (Graph.new raw) pos) (hs : LocallyStable raw pos) (hc : PeriodicConnected raw) (hne : raw ≠ [])
    (hsm : (Graph.new raw).vertices.length ≤ 2147483647)
    (hz : ∀ v ∈ (Graph.new raw).vertices.head?, pos v = 0) (hlad : ¬ ∃ γ, IsLadderTranslation raw pos γ)
    (g : Graph T) (hg : minimalImage tb (Graph.new raw) = .ok (some g)) :
    (∃ m : Nat → Nat, ∀ v, IsVertex raw v → IsVertex g.edges (m v) ∧
      ∀ k, g.coordinationItem (m v) k = (Graph.new raw).coordinationItem v k) ∧
    ∀ w, IsVertex g.edges w → ∃ v, IsVertex raw v ∧
      ∀ k, g.coordinationItem w k = (Graph.new raw).coordinationItem v k := by
  obtain ⟨v0, rest, hv, hv0⟩ := first_vertex hne
  have hz0 : pos v0 = 0 := hz v0 (by rw [hv]; rfl)
  rcases minimalImage_ok (wf_new raw) hp (locallyStable_new.2 hs) (periodicConnected_new.2 hc) hsm hv
    ((isVertex_new _ _).2 hv0) hz0 (by rwa [isLadder_new_eq]) with ⟨h1, -⟩ | ⟨-, ⟨g', h1, hwf, h2⟩ | h1⟩
  · rw [h1] at hg; simp at hg
  · rw [h1] at hg
    have : g' = g := Option.some.inj (Outcome.ok.inj hg)
    subst this
    obtain ⟨Φ, hΦ1, hΦ2, -⟩ := isFinerForm_new.1 h2
    have hiso : IsInfiniteIso raw g'.edges Φ := ⟨hΦ1, hΦ2⟩
    have hitem := fun (x : Nat × T) (hx : IsVertex raw x.1) k => hiso.coordinationItem hx k
    simp only [new_of_wf hwf] at hitem
    refine ⟨⟨fun v => (Φ (v, 0)).1, fun v hv => ⟨hΦ1.mapsTo (show IsVertex raw (v, (0 : T)).1 from hv), fun k =>
      hitem (v, 0) hv k⟩⟩, fun w hw => ?_⟩
    obtain ⟨x, hx, hxw⟩ := hΦ1.surjOn (show ((w, 0) : Nat × T) ∈ {y : Nat × T | IsVertex g'.edges y.1} from hw)
    refine ⟨x.1, hx, fun k => ?_⟩
    have := hitem x hx k
    rwa [hxw] at this
  · rw [h1] at hg; simp at hg

end

/-! ### Examples: the honeycomb, written with other representatives -/

/-- the other representatives -/
def hcbC : Nat → V2 := fun v => if v = 1 then ⟨1, 2⟩ else ⟨0, -3⟩
def hcb'Ex : List (Edge V2) := [⟨1, 2, ⟨1, 5⟩⟩, ⟨2, 1, ⟨-1, -6⟩⟩, ⟨1, 2, ⟨2, 5⟩⟩]
def hcb'Tb : Outcome PosTable := .ok [(1, [0, 0]), (2, [-4/3, -16/3])]
def hcb'Pos : Nat → Fin 2 → ℚ := fun v => if v = 2 then ![-4/3, -16/3] else ![0, 0]

theorem hcb'_changes : ChangesRepresentatives hcbC hcbEx hcb'Ex := by
  have h : Graph.new hcb'Ex = Graph.new (hcbEx.map (adjEdge hcbC)) := by decide +kernel
  intro e
  rw [((C26_normal_form _ _).2.2).1 h, isDirected_map]
  rfl

example : placement 10 (Graph.new hcb'Ex) = hcb'Tb := by decide +kernel

theorem hcb'_places : Places hcb'Tb (Graph.new hcb'Ex) hcb'Pos := by
  have hv : (Graph.new hcb'Ex).vertices = [1, 2] := by decide +kernel
  intro v h
  rw [hv] at h
  simp only [List.mem_cons, List.not_mem_nil, or_false] at h
  rcases h with rfl | rfl <;> decide +kernel

theorem hcb_quotient : QuotientConnected hcbEx := by
  have h : ∀ a b, (a, b) ∈ [(1, 2), (2, 1)] → QAdj hcbEx a b := by
    intro a b hab
    simp only [List.mem_cons, Prod.mk.injEq, List.not_mem_nil, or_false] at hab
    rcases hab with ⟨rfl, rfl⟩ | ⟨rfl, rfl⟩
    · exact ⟨⟨1, 2, ⟨1, 0⟩⟩, Or.inl (by decide), rfl, rfl⟩
    · exact ⟨⟨2, 1, ⟨0, 0⟩⟩, Or.inl (by decide), rfl, rfl⟩
  intro v w hv hw
  have hx : ∀ x, IsVertex hcbEx x → x = 1 ∨ x = 2 := by
    rintro x ⟨e, he, h⟩
    simp only [hcbEx, List.mem_cons, List.not_mem_nil, or_false] at he
    rcases he with rfl | rfl | rfl | rfl <;> simp at h <;> tauto
  rcases hx v hv with rfl | rfl <;> rcases hx w hw with rfl | rfl
  · exact Relation.ReflTransGen.refl
  · exact Relation.ReflTransGen.single (h 1 2 (by simp))
  · exact Relation.ReflTransGen.single (h 2 1 (by simp))
  · exact Relation.ReflTransGen.refl

theorem hcb_barycentric : IsBarycentric (Graph.new hcbEx).edges (Graph.new hcbEx).vertices hcbPos := by
  unfold IsBarycentric; decide +kernel
theorem hcb'_barycentric : IsBarycentric (Graph.new hcb'Ex).edges (Graph.new hcb'Ex).vertices hcb'Pos := by
  unfold IsBarycentric; decide +kernel

example := C70_positions hcbEx hcb'Ex hcbC hcb'_changes hcb_quotient (by decide +kernel) hcbTb hcb'Tb hcbPos hcb'Pos
  hcb_places hcb'_places hcb_barycentric hcb'_barycentric
  (by intro v hv
      have : (Graph.new hcbEx).vertices = [1, 2] := by decide +kernel
      rw [this] at hv; cases hv; decide +kernel)
  (by intro v hv
      have : (Graph.new hcb'Ex).vertices = [1, 2] := by decide +kernel
      rw [this] at hv; cases hv; decide +kernel)

example : (Graph.new hcbEx).shiftNormalized = (Graph.new hcb'Ex).shiftNormalized :=
  (C70_normal_form _ _).1 ⟨hcbC, hcb'_changes⟩
example : Graph.new hcbEx ≠ Graph.new hcb'Ex := by decide +kernel
/-- a graph that is not the same up to representatives -/
example : ¬ SameUpToRepresentatives hcbEx ([⟨1, 2, ⟨0, 0⟩⟩, ⟨1, 2, ⟨1, 0⟩⟩, ⟨1, 2, ⟨0, -1⟩⟩] : List (Edge V2)) := by
  rw [C70_normal_form]; decide +kernel
example : (Graph.new hcb'Ex).coordinationItem 2 3 = .ok 12 := by
  rw [(C70_results hcbEx hcb'Ex ⟨hcbC, hcb'_changes⟩).2.2.2]; decide +kernel

example := C71_vertex_orbits hcbEx hcbTb hcbPos hcb_places hcb_locallyStable hcb_connected (by decide)
example : ∃ h, minimalImage sql2Tb (Graph.new sql2Ex) = .ok (some h) ∧
    ∃ m : Nat → Nat, ∀ v, IsVertex sql2Ex v → IsVertex h.edges (m v) ∧
      ∀ k, h.coordinationItem (m v) k = (Graph.new sql2Ex).coordinationItem v k := by
  have h0 : (minimalImage sql2Tb (Graph.new sql2Ex) >>= fun g => Outcome.ok (g.map Graph.edges)) =
      .ok (some [⟨1, 1, ⟨0, 1⟩⟩, ⟨1, 1, ⟨1, 0⟩⟩]) := by decide +kernel
  obtain ⟨r, hr⟩ := ok_of_bind_ok h0
  cases r with
  | none => rw [hr] at h0; exact absurd h0 (by decide)
  | some h =>
    exact ⟨h, hr, (C71_minimal_image sql2Ex sql2Tb sql2Pos sql2_places sql2_locallyStable sql2_connected (by decide)
      sql2_small sql2_origin sql2_noLadder h hr).1⟩

end Systre
