import Verif.Lemmas.MachineLattice
import Verif.Lemmas.Traverse
import Verif.Model.MachineGraph

/-!
# Labels made of machine integers: monotonicity, the unbounded kind, bounds
-/

namespace Systre.Machine

variable {T : Type} [LabelVector T]

/-! ### monotonicity -/

section
variable {k k' : IntKind} (h : Below k k')
include h

theorem le_vneg (a : T) : Le (vneg k a) (vneg k' a) := (Le.omap (fun _ => h.res _) _).bind fun _ => .refl _
theorem le_vadd (a b : T) : Le (vadd k a b) (vadd k' a b) := (Le.omap (fun _ => h.res _) _).bind fun _ => .refl _
theorem le_vsub (a b : T) : Le (vsub k a b) (vsub k' a b) := (Le.omap (fun _ => h.res _) _).bind fun _ => .refl _
theorem le_edgeNeg (e : Edge T) : Le (edgeNeg k e) (edgeNeg k' e) := (le_vneg h _).bind fun _ => .refl _

theorem le_canonical (e : Edge T) : Le (canonical k e) (canonical k' e) := by
  unfold canonical
  split
  · exact le_edgeNeg h _
  · exact .refl _

theorem le_graphNew (raw : List (Edge T)) : Le (graphNew k raw) (graphNew k' raw) :=
  (Le.omap (fun _ => le_canonical h _) _).bind fun _ => .refl _

theorem le_incidences (g : Graph T) (v : Nat) : Le (incidences k g v) (incidences k' g v) :=
  ((Le.omap (fun _ => (le_edgeNeg h _).bind fun _ => .refl _) _).bind fun _ => .refl _).bind fun _ => .refl _

theorem le_shellInner (last this : List (Nat × T)) (s : T) (es : List (Edge T)) : ∀ nxt,
    Le (shellInner k last this s es nxt) (shellInner k' last this s es nxt) := by
  induction es with
  | nil => exact fun _ => .refl _
  | cons e es ih =>
    intro nxt
    unfold shellInner
    refine (le_vadd h _ _).bind fun x => ?_
    dsimp only
    split
    · exact ih _
    · exact ih _

theorem le_shellOuter (g : Graph T) (last this rest : List (Nat × T)) : ∀ nxt,
    Le (shellOuter k g last this rest nxt) (shellOuter k' g last this rest nxt) := by
  induction rest with
  | nil => exact fun _ => .refl _
  | cons p rest ih =>
    intro nxt
    unfold shellOuter
    exact (le_incidences h _ _).bind fun _ => (le_shellInner h _ _ _ _ _).bind fun _ => ih _

theorem le_csNext (g : Graph T) (s : CoordSeq T) : Le (csNext k g s) (csNext k' g s) :=
  (le_shellOuter h _ _ _ _ _).bind fun _ => .refl _

theorem le_csIterate (g : Graph T) (j : Nat) : ∀ s, Le (csIterate k g j s) (csIterate k' g j s) := by
  induction j with
  | zero => exact fun _ => .refl _
  | succ j ih => exact fun s => (le_csNext h g s).bind fun _ => ih _

theorem le_coordinationItem (g : Graph T) (v j : Nat) : Le (coordinationItem k g v j) (coordinationItem k' g v j) :=
  (le_csIterate h _ _ _).bind fun _ => (le_csNext h _ _).bind fun _ => .refl _

theorem le_travVisit (v : Nat) (e : Edge T) (s : Trav T) : Le (travVisit k v e s) (travVisit k' v e s) := by
  unfold travVisit
  split
  · exact .refl _
  · exact (Le.refl _).bind fun _ => (le_vadd h _ _).bind fun _ => .refl _

theorem le_travRecord (c : Edge T) (s : Trav T) : Le (travRecord k c s) (travRecord k' c s) := by
  unfold travRecord
  split
  · exact .refl _
  · exact (Le.refl _).bind fun _ => (le_vadd h _ _).bind fun _ => (Le.refl _).bind fun _ =>
      (le_vsub h _ _).bind fun _ => .refl _

theorem le_travInner (v : Nat) (es : List (Edge T)) : ∀ s, Le (travInner k v es s) (travInner k' v es s) := by
  induction es with
  | nil => exact fun _ => .refl _
  | cons e es ih =>
    exact fun s => (le_travVisit h v e s).bind fun _ => (le_canonical h e).bind fun _ =>
      (le_travRecord h _ _).bind fun _ => ih _

theorem le_travLoop (g : Graph T) (n : Nat) : ∀ s, Le (travLoop k g n s) (travLoop k' g n s) := by
  induction n with
  | zero => exact fun _ => .refl _
  | succ n ih =>
    intro s
    unfold travLoop
    split
    · exact .refl _
    · exact (le_incidences h _ _).bind fun _ => (le_travInner h _ _ _).bind fun _ => ih _

theorem le_traverse (g : Graph T) (v0 : Nat) : Le (traverse k g v0) (traverse k' g v0) := le_travLoop h _ _ _

theorem le_shiftNormLoop (g : Graph T) (vs : List Nat) : ∀ seen edges,
    Le (shiftNormLoop k g vs seen edges) (shiftNormLoop k' g vs seen edges) := by
  induction vs with
  | nil => exact fun _ _ => .refl _
  | cons v vs ih =>
    intro seen edges
    unfold shiftNormLoop
    split
    · exact ih _ _
    · exact (le_traverse h _ _).bind fun _ => ih _ _

theorem le_shiftNormalized (g : Graph T) : Le (shiftNormalized k g) (shiftNormalized k' g) :=
  (le_shiftNormLoop h _ _ _ _).bind fun _ => le_graphNew h _

theorem le_componentMeasures (g : Graph T) (v0 : Nat) : Le (componentMeasures k g v0) (componentMeasures k' g v0) := by
  refine (le_traverse h _ _).bind fun _ => ?_
  refine (le_extendAll h _ _).bind fun basis => ?_
  dsimp only
  split
  · exact (Le.refl _).bind fun _ => (le_prodLoop h _ _).bind fun _ => (h.res _).bind fun _ => .refl _
  · exact .refl _

theorem le_isConnected (g : Graph T) : Le (isConnected k g) (isConnected k' g) := by
  unfold isConnected
  split
  · exact .refl _
  · exact (le_componentMeasures h _ _).bind fun _ => .refl _

end

/-! ### unbounded integers -/

section
variable [LawfulLabelVector T]
open LawfulLabelVector

theorem toVec_neg_map (a : T) : LabelVector.toVec (-a) = (LabelVector.toVec a).map (fun x => -x) := by
  refine List.ext_getElem (by simp [toVec_length]) fun i h1 h2 => ?_
  have := toVec_neg a i
  simp only [rent, List.getD_eq_getElem?_getD] at this
  rw [List.getElem?_eq_getElem h1, List.getElem?_eq_getElem (by simpa using h2)] at this
  simpa using this

theorem toVec_add_zip (a b : T) : LabelVector.toVec (a + b) =
    ((LabelVector.toVec a).zip (LabelVector.toVec b)).map (fun p => p.1 + p.2) := by
  refine List.ext_getElem (by simp [toVec_length]) fun i h1 h2 => ?_
  have := toVec_add a b i
  simp only [rent, List.getD_eq_getElem?_getD] at this
  simp only [List.length_map, List.length_zip, lt_min_iff] at h2
  rw [List.getElem?_eq_getElem h1, List.getElem?_eq_getElem h2.1, List.getElem?_eq_getElem h2.2] at this
  simpa using this

theorem toVec_sub_zip (a b : T) : LabelVector.toVec (a - b) =
    ((LabelVector.toVec a).zip (LabelVector.toVec b)).map (fun p => p.1 - p.2) := by
  rw [sub_eq_add_neg, toVec_add_zip, toVec_neg_map, List.zip_map_right, List.map_map]
  congr 1

theorem fromVec_toVec (a : T) : LabelVector.fromVec (LabelVector.toVec a) = .ok a := (fromVec_ok _ _).2 rfl

theorem ideal_vneg (a : T) : vneg .ideal a = .ok (-a) := by
  unfold vneg
  rw [omap_ok (f := fun x => IntKind.ideal.res (-x)) (g := fun x => -x) (fun _ _ => rfl), Outcome.ok_bind, ← toVec_neg_map, fromVec_toVec]

theorem ideal_vadd (a b : T) : vadd .ideal a b = .ok (a + b) := by
  unfold vadd
  rw [omap_ok (f := fun p : Int × Int => IntKind.ideal.res (p.1 + p.2)) (g := fun p => p.1 + p.2) (fun _ _ => rfl), Outcome.ok_bind, ← toVec_add_zip, fromVec_toVec]

theorem ideal_vsub (a b : T) : vsub .ideal a b = .ok (a - b) := by
  unfold vsub
  rw [omap_ok (f := fun p : Int × Int => IntKind.ideal.res (p.1 - p.2)) (g := fun p => p.1 - p.2) (fun _ _ => rfl), Outcome.ok_bind, ← toVec_sub_zip, fromVec_toVec]

theorem ideal_edgeNeg (e : Edge T) : edgeNeg .ideal e = .ok e.neg := by
  unfold edgeNeg
  rw [ideal_vneg]; rfl

theorem ideal_canonical (e : Edge T) : canonical .ideal e = .ok e.canonical := by
  unfold canonical Edge.canonical
  split
  · exact ideal_edgeNeg e
  · rfl

theorem ideal_graphNew (raw : List (Edge T)) : graphNew .ideal raw = .ok (Graph.new raw) := by
  unfold graphNew
  rw [omap_ok (g := Edge.canonical) (fun e _ => ideal_canonical e)]
  rfl

theorem ideal_incidences (g : Graph T) (v : Nat) : incidences .ideal g v = g.incidences v := by
  unfold incidences incidenceMap
  rw [omap_ok (g := fun e => [e, e.neg]) (fun e _ => by rw [ideal_edgeNeg]; rfl)]
  rfl

theorem ideal_shellInner (last this : List (Nat × T)) (s : T) (es : List (Edge T)) : ∀ nxt,
    shellInner .ideal last this s es nxt = .ok (Systre.shellInner last this s es nxt) := by
  induction es with
  | nil => exact fun _ => rfl
  | cons e es ih =>
    intro nxt
    unfold shellInner Systre.shellInner
    rw [ideal_vadd, Outcome.ok_bind]
    dsimp only
    split
    · exact ih _
    · exact ih _

theorem ideal_shellOuter (g : Graph T) (last this rest : List (Nat × T)) : ∀ nxt,
    shellOuter .ideal g last this rest nxt = Systre.shellOuter g last this rest nxt := by
  induction rest with
  | nil => exact fun _ => rfl
  | cons p rest ih =>
    intro nxt
    unfold shellOuter Systre.shellOuter
    rw [ideal_incidences]
    refine bind_congr fun es => ?_
    rw [ideal_shellInner, Outcome.ok_bind, ih]

theorem ideal_csNext (g : Graph T) (s : CoordSeq T) : csNext .ideal g s = s.next g := by
  unfold csNext CoordSeq.next
  rw [ideal_shellOuter]

theorem ideal_csIterate (g : Graph T) (j : Nat) : ∀ s, csIterate .ideal g j s = CoordSeq.iterate g j s := by
  induction j with
  | zero => exact fun _ => rfl
  | succ j ih =>
    intro s
    unfold csIterate CoordSeq.iterate
    rw [ideal_csNext]
    exact bind_congr fun r => ih _

theorem ideal_coordinationItem (g : Graph T) (v j : Nat) : coordinationItem .ideal g v j = g.coordinationItem v j := by
  unfold coordinationItem Graph.coordinationItem
  rw [ideal_csIterate]
  refine bind_congr fun s => ?_
  rw [ideal_csNext]

theorem ideal_travVisit (v : Nat) (e : Edge T) (s : Trav T) : travVisit .ideal v e s = Systre.travVisit v e s := by
  unfold travVisit Systre.travVisit
  cases s.shifts.lookup e.tail with
  | some _ => rfl
  | none =>
    dsimp only
    refine bind_congr fun sv => ?_
    rw [ideal_vadd]; rfl

theorem ideal_travRecord (c : Edge T) (s : Trav T) : travRecord .ideal c s = Systre.travRecord c s := by
  unfold travRecord Systre.travRecord
  split
  · rfl
  · refine bind_congr fun a => ?_
    rw [ideal_vadd, Outcome.ok_bind]
    refine bind_congr fun b => ?_
    rw [ideal_vsub]; rfl

theorem ideal_travInner (v : Nat) (es : List (Edge T)) : ∀ s, travInner .ideal v es s = Systre.travInner v es s := by
  induction es with
  | nil => exact fun _ => rfl
  | cons e es ih =>
    intro s
    unfold travInner Systre.travInner
    rw [ideal_travVisit]
    refine bind_congr fun s1 => ?_
    rw [ideal_canonical, Outcome.ok_bind, ideal_travRecord]
    exact bind_congr fun s2 => ih _

theorem ideal_travLoop (g : Graph T) (n : Nat) : ∀ s, travLoop .ideal g n s = Systre.travLoop g n s := by
  induction n with
  | zero => exact fun _ => rfl
  | succ n ih =>
    intro s
    unfold travLoop Systre.travLoop
    cases s.queue with
    | nil => rfl
    | cons v q =>
      dsimp only
      rw [ideal_incidences]
      refine bind_congr fun es => ?_
      rw [ideal_travInner]
      exact bind_congr fun s2 => ih _

theorem ideal_traverse (g : Graph T) (v0 : Nat) : traverse .ideal g v0 = Systre.traverse g v0 := ideal_travLoop _ _ _

theorem ideal_shiftNormLoop (g : Graph T) (vs : List Nat) : ∀ seen edges,
    shiftNormLoop .ideal g vs seen edges = Systre.shiftNormLoop g vs seen edges := by
  induction vs with
  | nil => exact fun _ _ => rfl
  | cons v vs ih =>
    intro seen edges
    unfold shiftNormLoop Systre.shiftNormLoop
    split
    · exact ih _ _
    · rw [ideal_traverse]
      exact bind_congr fun _ => ih _ _

theorem ideal_shiftNormalized (g : Graph T) : shiftNormalized .ideal g = g.shiftNormalized := by
  unfold shiftNormalized Graph.shiftNormalized
  rw [ideal_shiftNormLoop]
  exact bind_congr fun _ => ideal_graphNew _

theorem ideal_componentMeasures (g : Graph T) (v0 : Nat) :
    componentMeasures .ideal g v0 = Systre.componentMeasures g v0 := by
  unfold componentMeasures Systre.componentMeasures
  rw [ideal_traverse]
  refine bind_congr fun es => ?_
  rw [ideal_extendAll]
  dsimp only
  refine bind_congr fun basis => ?_
  split
  · refine bind_congr fun ds => ?_
    rw [ideal_prodLoop, Outcome.ok_bind]
    rfl
  · rfl

theorem ideal_isConnected (g : Graph T) : isConnected .ideal g = g.isConnected := by
  unfold isConnected Graph.isConnected
  cases g.vertices with
  | nil => rfl
  | cons v vs =>
    dsimp only
    rw [ideal_componentMeasures]


/-! ### bounds -/

section
variable {w : Nat}

theorem vneg_safe {M : Int} (hM : M < 2 ^ (w - 1)) {a : T} (ha : Small M (LabelVector.toVec a)) :
    vneg (.debug w) a = .ok (-a) ∧ Small M (LabelVector.toVec (-a)) := by
  constructor
  · unfold vneg
    rw [omap_ok (f := fun x => (IntKind.debug w).res (-x)) (g := fun x => -x)
      (fun x hx => res_of_abs hM (by rw [abs_neg]; exact ha x hx)), Outcome.ok_bind, ← toVec_neg_map, fromVec_toVec]
  · rw [toVec_neg_map]
    intro x hx
    obtain ⟨y, hy, rfl⟩ := List.mem_map.1 hx
    rw [abs_neg]; exact ha y hy

theorem vadd_safe {M N K : Int} (hK : K < 2 ^ (w - 1)) (hMN : M + N ≤ K) {a b : T} (ha : Small M (LabelVector.toVec a))
    (hb : Small N (LabelVector.toVec b)) :
    vadd (.debug w) a b = .ok (a + b) ∧ Small K (LabelVector.toVec (a + b)) := by
  have key : ∀ p ∈ (LabelVector.toVec a).zip (LabelVector.toVec b), |p.1 + p.2| ≤ K := by
    rintro ⟨x, y⟩ hp
    have := List.of_mem_zip hp
    exact (abs_add_le _ _).trans ((add_le_add (ha x this.1) (hb y this.2)).trans hMN)
  constructor
  · unfold vadd
    rw [omap_ok (f := fun p => (IntKind.debug w).res (p.1 + p.2)) (g := fun p => p.1 + p.2)
      (fun p hp => res_of_abs hK (key p hp)), Outcome.ok_bind, ← toVec_add_zip, fromVec_toVec]
  · rw [toVec_add_zip]
    intro x hx
    obtain ⟨p, hp, rfl⟩ := List.mem_map.1 hx
    exact key p hp

theorem vsub_safe {M N K : Int} (hK : K < 2 ^ (w - 1)) (hMN : M + N ≤ K) {a b : T} (ha : Small M (LabelVector.toVec a))
    (hb : Small N (LabelVector.toVec b)) :
    vsub (.debug w) a b = .ok (a - b) ∧ Small K (LabelVector.toVec (a - b)) := by
  have key : ∀ p ∈ (LabelVector.toVec a).zip (LabelVector.toVec b), |p.1 - p.2| ≤ K := by
    rintro ⟨x, y⟩ hp
    have := List.of_mem_zip hp
    exact (abs_sub _ _).trans ((add_le_add (ha x this.1) (hb y this.2)).trans hMN)
  constructor
  · unfold vsub
    rw [omap_ok (f := fun p => (IntKind.debug w).res (p.1 - p.2)) (g := fun p => p.1 - p.2)
      (fun p hp => res_of_abs hK (key p hp)), Outcome.ok_bind, ← toVec_sub_zip, fromVec_toVec]
  · rw [toVec_sub_zip]
    intro x hx
    obtain ⟨p, hp, rfl⟩ := List.mem_map.1 hx
    exact key p hp

theorem edgeNeg_safe {M : Int} (hM : M < 2 ^ (w - 1)) {e : Edge T} (he : Small M (LabelVector.toVec e.shift)) :
    edgeNeg (.debug w) e = .ok e.neg ∧ Small M (LabelVector.toVec e.neg.shift) := by
  obtain ⟨h1, h2⟩ := vneg_safe hM he
  refine ⟨?_, h2⟩
  unfold edgeNeg
  rw [h1]; rfl

theorem canonical_safe {M : Int} (hM : M < 2 ^ (w - 1)) {e : Edge T} (he : Small M (LabelVector.toVec e.shift)) :
    canonical (.debug w) e = .ok e.canonical ∧ Small M (LabelVector.toVec e.canonical.shift) := by
  unfold canonical Edge.canonical
  split
  · exact edgeNeg_safe hM he
  · exact ⟨rfl, he⟩

/-- the labels of the edges are at most `M` -/
def SmallEdges (M : Int) (es : List (Edge T)) : Prop := ∀ e ∈ es, Small M (LabelVector.toVec e.shift)

theorem graphNew_safe {M : Int} (hM : M < 2 ^ (w - 1)) {raw : List (Edge T)} (h : SmallEdges M raw) :
    graphNew (.debug w) raw = .ok (Graph.new raw) ∧ SmallEdges M (Graph.new raw).edges := by
  constructor
  · unfold graphNew
    rw [omap_ok (g := Edge.canonical) (fun e he => (canonical_safe hM (h e he)).1)]
    rfl
  · intro e he
    unfold Graph.new at he
    simp only [List.mem_insertionSort, List.mem_dedup, List.mem_map] at he
    obtain ⟨f, hf, rfl⟩ := he
    exact (canonical_safe hM (h f hf)).2

theorem inc_small {M : Int} {g : Graph T} (h : SmallEdges M g.edges) {e : Edge T} (he : IsDirected g.edges e) :
    Small M (LabelVector.toVec e.shift) := by
  rcases (isDirected_iff _ _).1 he with he | he
  · exact h e he
  · have := h _ he
    rw [Edge.neg] at this
    simp only [toVec_neg_map] at this
    intro x hx
    have := this (-x) (List.mem_map.2 ⟨x, hx, rfl⟩)
    rwa [abs_neg] at this

theorem incidences_safe {M : Int} (hM : M < 2 ^ (w - 1)) {g : Graph T} (h : SmallEdges M g.edges) (v : Nat) :
    incidences (.debug w) g v = g.incidences v := by
  unfold incidences incidenceMap
  rw [omap_ok (g := fun e => [e, e.neg]) (fun e he => by rw [(edgeNeg_safe hM (h e he)).1]; rfl)]
  rfl

/-! #### coordination sequences -/

/-- the labels of the vertices are at most `M` -/
def SmallVerts (M : Int) (l : List (Nat × T)) : Prop := ∀ p ∈ l, Small M (LabelVector.toVec p.2)

theorem shellInner_safe {M N K : Int} (hK : K < 2 ^ (w - 1)) (hMN : M + N ≤ K) (last this : List (Nat × T)) {s : T}
    (hs : Small N (LabelVector.toVec s)) (es : List (Edge T)) : SmallEdges M es → ∀ nxt, SmallVerts K nxt →
    shellInner (.debug w) last this s es nxt = .ok (Systre.shellInner last this s es nxt) ∧
      SmallVerts K (Systre.shellInner last this s es nxt) := by
  induction es with
  | nil => exact fun _ nxt h => ⟨rfl, h⟩
  | cons e es ih =>
    intro he nxt hn
    unfold shellInner Systre.shellInner
    obtain ⟨h1, h2⟩ := vadd_safe hK hMN (he e List.mem_cons_self) hs
    have he' : SmallEdges M es := fun f hf => he f (List.mem_cons_of_mem _ hf)
    rw [h1, Outcome.ok_bind]
    dsimp only
    split
    · refine ih he' _ ?_
      split
      · exact hn
      · intro p hp
        rcases List.mem_append.1 hp with hp | hp
        · exact hn p hp
        · obtain rfl := List.mem_singleton.1 hp
          exact h2
    · exact ih he' _ hn

theorem shellOuter_safe {M N K : Int} (hM : M < 2 ^ (w - 1)) (hK : K < 2 ^ (w - 1)) (hMN : M + N ≤ K) {g : Graph T}
    (hg : SmallEdges M g.edges) (last this rest : List (Nat × T)) : SmallVerts N rest → ∀ nxt, SmallVerts K nxt →
    ∀ r, Systre.shellOuter g last this rest nxt = .ok r →
    shellOuter (.debug w) g last this rest nxt = .ok r ∧ SmallVerts K r := by
  induction rest with
  | nil =>
    intro _ nxt hn r h
    obtain rfl := Outcome.ok.inj h
    exact ⟨rfl, hn⟩
  | cons p rest ih =>
    intro hr nxt hn r h
    unfold Systre.shellOuter at h
    unfold shellOuter
    rw [incidences_safe hM hg]
    obtain ⟨es, h1, h2⟩ := Outcome.bind_eq_ok.1 h
    rw [h1, Outcome.ok_bind]
    have hes : SmallEdges M es := by
      rw [g.incidences_eq] at h1
      split at h1
      · obtain rfl := Outcome.ok.inj h1
        exact fun e he => inc_small hg ((g.mem_inc _ e).1 he).1
      · cases h1
    obtain ⟨h3, h4⟩ := shellInner_safe hK hMN last this (hr p List.mem_cons_self) es hes nxt hn
    rw [h3, Outcome.ok_bind]
    exact ih (fun q hq => hr q (List.mem_cons_of_mem _ hq)) _ h4 r h2

theorem csNext_safe {M N K : Int} (hM : M < 2 ^ (w - 1)) (hK : K < 2 ^ (w - 1)) (hMN : M + N ≤ K) {g : Graph T}
    (hg : SmallEdges M g.edges) {s : CoordSeq T} (hs : SmallVerts N s.this) {r : Nat × CoordSeq T}
    (h : s.next g = .ok r) : csNext (.debug w) g s = .ok r ∧ SmallVerts K r.2.this := by
  unfold CoordSeq.next at h
  obtain ⟨nxt, h1, h2⟩ := Outcome.bind_eq_ok.1 h
  obtain rfl := Outcome.ok.inj h2
  obtain ⟨h3, h4⟩ := shellOuter_safe hM hK hMN hg s.last s.this s.this hs [] (fun p hp => absurd hp (by simp)) nxt h1
  unfold csNext
  rw [h3]
  exact ⟨rfl, h4⟩

theorem csIterate_safe {M : Int} (hM0 : 0 ≤ M) {g : Graph T} (hg : SmallEdges M g.edges) (j : Nat) : ∀ (i : Nat)
    (s : CoordSeq T), (i + j : Nat) * M < 2 ^ (w - 1) → M < 2 ^ (w - 1) → SmallVerts (i * M) s.this → ∀ r,
    CoordSeq.iterate g j s = .ok r → csIterate (.debug w) g j s = .ok r ∧ SmallVerts ((i + j : Nat) * M) r.this := by
  induction j with
  | zero =>
    intro i s _ _ hs r h
    obtain rfl := Outcome.ok.inj h
    exact ⟨rfl, hs⟩
  | succ j ih =>
    intro i s hK hM hs r h
    unfold CoordSeq.iterate at h
    obtain ⟨q, h1, h2⟩ := Outcome.bind_eq_ok.1 h
    have hle : ((i + 1 : Nat) : Int) * M ≤ ((i + (j + 1) : Nat) : Int) * M :=
      mul_le_mul_of_nonneg_right (by push_cast; omega) hM0
    obtain ⟨h3, h4⟩ := csNext_safe (K := ((i + 1 : Nat) : Int) * M) hM (lt_of_le_of_lt hle hK)
      (by push_cast; linarith) hg hs h1
    unfold csIterate
    rw [h3, Outcome.ok_bind]
    have e : i + 1 + j = i + (j + 1) := by omega
    have := ih (i + 1) q.2 (by rw [e]; exact hK) hM h4 r h2
    rwa [e] at this

theorem coordinationItem_safe {M : Int} (hM0 : 0 ≤ M) {g : Graph T} (hg : SmallEdges M g.edges) {v j n : Nat}
    (hK : (j + 1 : Nat) * M < 2 ^ (w - 1)) (h : g.coordinationItem v j = .ok n) :
    coordinationItem (.debug w) g v j = .ok n := by
  unfold Graph.coordinationItem at h
  obtain ⟨s, h1, h2⟩ := Outcome.bind_eq_ok.1 h
  obtain ⟨r, h3, h4⟩ := Outcome.bind_eq_ok.1 h2
  have hM : M < 2 ^ (w - 1) := lt_of_le_of_lt (by push_cast; nlinarith [Int.natCast_nonneg j]) hK
  have hj : ((0 + j : Nat) : Int) * M ≤ (j + 1 : Nat) * M := mul_le_mul_of_nonneg_right (by push_cast; omega) hM0
  obtain ⟨h5, h6⟩ := csIterate_safe hM0 hg j 0 (CoordSeq.new v) (lt_of_le_of_lt hj hK) hM (by
    intro p hp
    obtain rfl := List.mem_singleton.1 hp
    intro x hx
    obtain ⟨i, hi, rfl⟩ := List.getElem_of_mem hx
    have := toVec_zero (T := T) i
    simp only [rent, List.getD_eq_getElem?_getD, List.getElem?_eq_getElem hi, Option.getD_some] at this
    rw [this]; simp) s h1
  obtain ⟨h7, -⟩ := csNext_safe (K := (j + 1 : Nat) * M) hM hK (by push_cast; linarith) hg h6 h3
  unfold coordinationItem
  rw [h5, Outcome.ok_bind, h7, Outcome.ok_bind]
  exact h4

/-! #### traversal -/

structure TSmall (g : Graph T) (B : Int) (s : Trav T) : Prop where
  nodup : (s.shifts.map Prod.fst).Nodup
  verts : ∀ p ∈ s.shifts, p.1 ∈ g.vertices
  pos : 0 < s.shifts.length
  small : SmallVerts (((s.shifts.length : Int) - 1) * B) s.shifts
  res : SmallEdges ((2 * (g.vertices.length : Int) - 1) * B) s.result

theorem TSmall.length_le {g : Graph T} {B : Int} {s : Trav T} (h : TSmall g B s) : s.shifts.length ≤ g.vertices.length := by
  have h1 := (List.subperm_of_subset h.nodup (l₂ := g.vertices) (by
    intro v hv
    obtain ⟨p, hp, rfl⟩ := List.mem_map.1 hv
    exact h.verts p hp)).length_le
  simpa using h1

theorem mem_of_lookup' {β : Type} {m : List (Nat × β)} {v : Nat} {x : β} (h : m.lookup v = some x) : (v, x) ∈ m := by
  induction m with
  | nil => simp at h
  | cons p m ih =>
    rw [List.lookup_cons] at h
    split at h
    · rename_i hp
      obtain rfl := Option.some.inj h
      rw [beq_iff_eq] at hp
      rw [hp]; exact List.mem_cons_self
    · exact List.mem_cons_of_mem _ (ih h)

theorem lookup_none_not_mem {β : Type} {m : List (Nat × β)} {v : Nat} (h : m.lookup v = none) : v ∉ m.map Prod.fst := by
  induction m with
  | nil => simp
  | cons p m ih =>
    rw [List.lookup_cons] at h
    split at h
    · cases h
    · rename_i hp
      rw [List.map_cons, List.mem_cons, not_or]
      exact ⟨by simpa using hp, ih h⟩

theorem travVisit_safe {g : Graph T} {B : Int} (hB : 0 ≤ B) (hK : (2 * (g.vertices.length : Int) - 1) * B < 2 ^ (w - 1))
    {v : Nat} {e : Edge T} (he : Small B (LabelVector.toVec e.shift)) (ht : e.tail ∈ g.vertices) {s s' : Trav T}
    (hs : TSmall g B s) (h : Systre.travVisit v e s = .ok s') :
    travVisit (.debug w) v e s = .ok s' ∧ TSmall g B s' := by
  unfold Systre.travVisit at h
  unfold travVisit
  cases hl : s.shifts.lookup e.tail with
  | some x =>
    rw [hl] at h
    obtain rfl := Outcome.ok.inj h
    exact ⟨rfl, hs⟩
  | none =>
    rw [hl] at h
    dsimp only at h ⊢
    obtain ⟨sv, h1, h2⟩ := Outcome.bind_eq_ok.1 h
    obtain rfl := Outcome.ok.inj h2
    have hsv : s.shifts.lookup v = some sv := by
      cases hv : s.shifts.lookup v with
      | none => rw [hv] at h1; cases h1
      | some y => rw [hv] at h1; rw [Outcome.ok.inj h1]
    have hn := lookup_none_not_mem hl
    have hnd : (((e.tail, sv + e.shift) :: s.shifts).map Prod.fst).Nodup := by
      rw [List.map_cons, List.nodup_cons]; exact ⟨hn, hs.nodup⟩
    have hlen : s.shifts.length + 1 ≤ g.vertices.length := by
      have h1 := (List.subperm_of_subset hnd (l₂ := g.vertices) (by
        intro v hv
        obtain ⟨p, hp, rfl⟩ := List.mem_map.1 hv
        rcases List.mem_cons.1 hp with rfl | hp
        · exact ht
        · exact hs.verts p hp)).length_le
      simpa using h1
    have hpos := hs.pos
    have hle : (s.shifts.length : Int) * B ≤ (2 * (g.vertices.length : Int) - 1) * B :=
      mul_le_mul_of_nonneg_right (by omega) hB
    obtain ⟨h3, h4⟩ := vadd_safe (w := w) (K := (s.shifts.length : Int) * B) (lt_of_le_of_lt hle hK) (by linarith)
      (hs.small _ (mem_of_lookup' hsv)) he
    rw [h1, Outcome.ok_bind, h3, Outcome.ok_bind]
    refine ⟨rfl, hnd, ?_, by simp, ?_, hs.res⟩
    · intro p hp
      rcases List.mem_cons.1 hp with rfl | hp
      · exact ht
      · exact hs.verts p hp
    · have e1 : (((e.tail, sv + e.shift) :: s.shifts).length : Int) - 1 = s.shifts.length := by
        rw [List.length_cons]; push_cast; ring
      intro p hp
      rw [e1]
      rcases List.mem_cons.1 hp with rfl | hp
      · exact h4
      · exact (hs.small p hp).mono (by nlinarith)

theorem travRecord_safe {g : Graph T} {B : Int} (hB : 0 ≤ B) (hK : (2 * (g.vertices.length : Int) - 1) * B < 2 ^ (w - 1))
    {c : Edge T} (he : Small B (LabelVector.toVec c.shift)) {s s' : Trav T}
    (hs : TSmall g B s) (h : Systre.travRecord c s = .ok s') :
    travRecord (.debug w) c s = .ok s' ∧ TSmall g B s' := by
  unfold Systre.travRecord at h
  unfold travRecord
  split at h
  · rename_i hc
    rw [if_pos hc]
    obtain rfl := Outcome.ok.inj h
    exact ⟨rfl, hs⟩
  · rename_i hc
    rw [if_neg hc]
    obtain ⟨a, h1, h2⟩ := Outcome.bind_eq_ok.1 h
    obtain ⟨b, h3, h4⟩ := Outcome.bind_eq_ok.1 h2
    obtain rfl := Outcome.ok.inj h4
    have hlk : ∀ {v : Nat} {y : T}, unwrap (s.shifts.lookup v) = .ok y → Small (((s.shifts.length : Int) - 1) * B) (LabelVector.toVec y) := by
      intro v y hy
      cases hv : s.shifts.lookup v with
      | none => rw [hv] at hy; cases hy
      | some z =>
        rw [hv] at hy
        obtain rfl := Outcome.ok.inj hy
        exact hs.small _ (mem_of_lookup' hv)
    have hlen := hs.length_le
    have hpos := hs.pos
    have hle : (s.shifts.length : Int) * B ≤ (2 * (g.vertices.length : Int) - 1) * B :=
      mul_le_mul_of_nonneg_right (by omega) hB
    have hle2 : (2 * (s.shifts.length : Int) - 1) * B ≤ (2 * (g.vertices.length : Int) - 1) * B :=
      mul_le_mul_of_nonneg_right (by omega) hB
    obtain ⟨h5, h6⟩ := vadd_safe (w := w) (K := (s.shifts.length : Int) * B) (lt_of_le_of_lt hle hK) (by linarith) (hlk h1) he
    obtain ⟨h7, h8⟩ := vsub_safe (w := w) (K := (2 * (g.vertices.length : Int) - 1) * B) hK (by linarith) h6 (hlk h3)
    rw [h1, Outcome.ok_bind, h5, Outcome.ok_bind, h3, Outcome.ok_bind, h7, Outcome.ok_bind]
    refine ⟨rfl, hs.nodup, hs.verts, hs.pos, hs.small, ?_⟩
    intro f hf
    rcases List.mem_append.1 hf with hf | hf
    · exact hs.res f hf
    · obtain rfl := List.mem_singleton.1 hf
      exact h8

theorem travInner_safe {g : Graph T} {B : Int} (hB : 0 ≤ B) (hK : (2 * (g.vertices.length : Int) - 1) * B < 2 ^ (w - 1))
    (hBw : B < 2 ^ (w - 1)) {v : Nat} (es : List (Edge T)) : (∀ e ∈ es, Small B (LabelVector.toVec e.shift) ∧ e.tail ∈ g.vertices) →
    ∀ s s' : Trav T, TSmall g B s → Systre.travInner v es s = .ok s' →
    travInner (.debug w) v es s = .ok s' ∧ TSmall g B s' := by
  induction es with
  | nil =>
    intro _ s s' hs h
    obtain rfl := Outcome.ok.inj h
    exact ⟨rfl, hs⟩
  | cons e es ih =>
    intro he s s' hs h
    unfold Systre.travInner at h
    obtain ⟨s1, h1, h2⟩ := Outcome.bind_eq_ok.1 h
    obtain ⟨s2, h3, h4⟩ := Outcome.bind_eq_ok.1 h2
    obtain ⟨k1, k2⟩ := travVisit_safe hB hK (he e List.mem_cons_self).1 (he e List.mem_cons_self).2 hs h1
    obtain ⟨k3, k4⟩ := canonical_safe hBw (he e List.mem_cons_self).1
    obtain ⟨k5, k6⟩ := travRecord_safe hB hK k4 k2 h3
    unfold travInner
    rw [k1, Outcome.ok_bind, k3, Outcome.ok_bind, k5, Outcome.ok_bind]
    exact ih (fun f hf => he f (List.mem_cons_of_mem _ hf)) s2 s' k6 h4

theorem travLoop_safe {g : Graph T} {B : Int} (hB : 0 ≤ B) (hK : (2 * (g.vertices.length : Int) - 1) * B < 2 ^ (w - 1))
    (hBw : B < 2 ^ (w - 1)) (hg : SmallEdges B g.edges) (n : Nat) : ∀ (s : Trav T) (r : List (Edge T)), TSmall g B s →
    Systre.travLoop g n s = .ok r →
    travLoop (.debug w) g n s = .ok r ∧ SmallEdges ((2 * (g.vertices.length : Int) - 1) * B) r := by
  induction n with
  | zero => intro s r _ h; cases h
  | succ n ih =>
    intro s r hs h
    unfold Systre.travLoop at h
    unfold travLoop
    cases hq : s.queue with
    | nil =>
      rw [hq] at h
      obtain rfl := Outcome.ok.inj h
      exact ⟨rfl, hs.res⟩
    | cons v q =>
      rw [hq] at h
      dsimp only at h ⊢
      obtain ⟨es, h1, h2⟩ := Outcome.bind_eq_ok.1 h
      obtain ⟨s2, h3, h4⟩ := Outcome.bind_eq_ok.1 h2
      rw [incidences_safe hBw hg, h1, Outcome.ok_bind]
      have hes : ∀ e ∈ es, Small B (LabelVector.toVec e.shift) ∧ e.tail ∈ g.vertices := by
        rw [g.incidences_eq] at h1
        split at h1
        · obtain rfl := Outcome.ok.inj h1
          exact fun e he => ⟨inc_small hg ((g.mem_inc _ e).1 he).1, g.tail_mem ((g.mem_inc _ e).1 he).1⟩
        · cases h1
      obtain ⟨k1, k2⟩ := travInner_safe hB hK hBw es hes { s with queue := q } s2
        ⟨hs.nodup, hs.verts, hs.pos, hs.small, hs.res⟩ h3
      rw [k1, Outcome.ok_bind]
      exact ih s2 r k2 h4

theorem traverse_safe {g : Graph T} {B : Int} (hB : 0 ≤ B) (hK : (2 * (g.vertices.length : Int) - 1) * B < 2 ^ (w - 1))
    (hg : SmallEdges B g.edges) {v0 : Nat} (hv : v0 ∈ g.vertices) {r : List (Edge T)} (h : Systre.traverse g v0 = .ok r) :
    traverse (.debug w) g v0 = .ok r ∧ SmallEdges ((2 * (g.vertices.length : Int) - 1) * B) r := by
  have hpos : 0 < g.vertices.length := List.length_pos_of_mem hv
  refine travLoop_safe hB hK (lt_of_le_of_lt (by nlinarith) hK) hg _ _ r ⟨by simp, ?_, by simp, ?_, ?_⟩ h
  · intro p hp
    obtain rfl := List.mem_singleton.1 hp
    exact hv
  · intro p hp
    obtain rfl := List.mem_singleton.1 hp
    intro x hx
    obtain ⟨i, hi, rfl⟩ := List.getElem_of_mem hx
    have := toVec_zero (T := T) i
    simp only [rent, List.getD_eq_getElem?_getD, List.getElem?_eq_getElem hi, Option.getD_some] at this
    rw [this]; simp
  · exact fun e he => absurd he (by simp)

theorem shiftNormLoop_safe {g : Graph T} {B : Int} (hB : 0 ≤ B)
    (hK : (2 * (g.vertices.length : Int) - 1) * B < 2 ^ (w - 1)) (hg : SmallEdges B g.edges) (vs : List Nat) :
    (∀ v ∈ vs, v ∈ g.vertices) → ∀ seen edges r, SmallEdges ((2 * (g.vertices.length : Int) - 1) * B) edges →
    Systre.shiftNormLoop g vs seen edges = .ok r →
    shiftNormLoop (.debug w) g vs seen edges = .ok r ∧ SmallEdges ((2 * (g.vertices.length : Int) - 1) * B) r := by
  induction vs with
  | nil =>
    intro _ seen edges r he h
    obtain rfl := Outcome.ok.inj h
    exact ⟨rfl, he⟩
  | cons v vs ih =>
    intro hv seen edges r he h
    unfold Systre.shiftNormLoop at h
    unfold shiftNormLoop
    have hv' : ∀ u ∈ vs, u ∈ g.vertices := fun u hu => hv u (List.mem_cons_of_mem _ hu)
    split at h
    · rename_i hs
      rw [if_pos hs]
      exact ih hv' _ _ _ he h
    · rename_i hs
      rw [if_neg hs]
      obtain ⟨es, h1, h2⟩ := Outcome.bind_eq_ok.1 h
      obtain ⟨h3, h4⟩ := traverse_safe hB hK hg (hv v List.mem_cons_self) h1
      rw [h3, Outcome.ok_bind]
      refine ih hv' _ _ _ ?_ h2
      intro e he'
      rcases List.mem_append.1 he' with he' | he'
      · exact he e he'
      · exact h4 e he'

theorem shiftNormalized_safe {g : Graph T} {B : Int} (hB : 0 ≤ B)
    (hK : (2 * (g.vertices.length : Int) - 1) * B < 2 ^ (w - 1)) (hg : SmallEdges B g.edges) {g' : Graph T}
    (h : g.shiftNormalized = .ok g') : shiftNormalized (.debug w) g = .ok g' := by
  unfold Graph.shiftNormalized at h
  obtain ⟨es, h1, h2⟩ := Outcome.bind_eq_ok.1 h
  obtain rfl := Outcome.ok.inj h2
  obtain ⟨h3, h4⟩ := shiftNormLoop_safe hB hK hg g.vertices (fun _ hv => hv) [] [] es (fun e he => absurd he (by simp)) h1
  unfold shiftNormalized
  rw [h3, Outcome.ok_bind]
  exact (graphNew_safe hK h4).1

theorem prodLoop_safe (l : List Int) : ∀ (d N : Int), 1 ≤ N → (∀ x ∈ l, |x| ≤ N) → |d| * N ^ l.length < 2 ^ (w - 1) →
    prodLoop (.debug w) l d = .ok (l.foldl (· * ·) d) := by
  induction l with
  | nil => exact fun d N _ _ _ => rfl
  | cons x l ih =>
    intro d N hN hx h
    have h1 : |d * x| ≤ |d| * N := by
      rw [abs_mul]; exact mul_le_mul_of_nonneg_left (hx x List.mem_cons_self) (abs_nonneg _)
    have h2 : (1 : Int) ≤ N ^ l.length := one_le_pow₀ hN
    have h3 : |d * x| * N ^ l.length ≤ |d| * N ^ (x :: l).length := by
      rw [List.length_cons, pow_succ', ← mul_assoc]
      exact mul_le_mul_of_nonneg_right h1 (by linarith)
    have h4 : |d * x| ≤ |d * x| * N ^ l.length := le_mul_of_one_le_right (abs_nonneg _) h2
    unfold prodLoop
    rw [res_of_abs (lt_of_le_of_lt h3 h) h4, Outcome.ok_bind]
    exact ih (d * x) N hN (fun y hy => hx y (List.mem_cons_of_mem _ hy)) (lt_of_le_of_lt h3 h)

end

end

end Systre.Machine
