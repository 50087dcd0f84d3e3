import Verif.Lemmas.Representatives
import Verif.Lemmas.Spanning
import Verif.Props.PGraphs

/-! # Isomorphisms of the infinite graphs, placements with other representatives -/

set_option linter.unusedSectionVars false

namespace Systre
section
variable {T : Type} [LabelVector T] [LawfulLabelVector T]

theorem adj_isVertex {raw : List (Edge T)} {x y : Nat × T} (h : Adj raw x y) : IsVertex raw x.1 ∧ IsVertex raw y.1 := by
  obtain ⟨e, he, h1, h2, -⟩ := h
  rw [isVertex_iff, isVertex_iff]
  exact ⟨⟨e, he, h1⟩, ⟨e.neg, isDirected_neg.2 he, h2⟩⟩

theorem walk_isVertex {raw : List (Edge T)} {n : Nat} {x y : Nat × T} (h : Walk raw n x y) (hx : IsVertex raw x.1) :
    IsVertex raw y.1 := by
  induction h with
  | here => exact hx
  | step _ h _ => exact (adj_isVertex h).2

theorem IsInfiniteIso.walk {raw raw' : List (Edge T)} {Φ : Nat × T → Nat × T} (h : IsInfiniteIso raw raw' Φ) (n : Nat)
    {x : Nat × T} (hx : IsVertex raw x.1) (y : Nat × T) (hy : IsVertex raw y.1) :
    Walk raw' n (Φ x) (Φ y) ↔ Walk raw n x y := by
  induction n generalizing y with
  | zero =>
    constructor
    · intro hw
      have := h.1.injOn hy hx hw.zero_eq
      rw [this]; exact Walk.here _
    · intro hw
      rw [hw.zero_eq]; exact Walk.here _
  | succ n ih =>
    constructor
    · intro hw
      obtain ⟨b, h1, h2⟩ := hw.uncons
      obtain ⟨z, hz, rfl⟩ := h.1.surjOn (show b ∈ {y : Nat × T | IsVertex raw' y.1} from (adj_isVertex h2).1)
      exact Walk.step ((ih z hz).1 h1) ((h.2 z y hz hy).1 h2)
    · intro hw
      obtain ⟨b, h1, h2⟩ := hw.uncons
      have hb := (adj_isVertex h2).1
      exact Walk.step ((ih b hb).2 h1) ((h.2 b y hb hy).2 h2)

theorem IsInfiniteIso.atDistance {raw raw' : List (Edge T)} {Φ : Nat × T → Nat × T} (h : IsInfiniteIso raw raw' Φ)
    (n : Nat) {x : Nat × T} (hx : IsVertex raw x.1) (y : Nat × T) (hy : IsVertex raw y.1) :
    AtDistance raw' n (Φ x) (Φ y) ↔ AtDistance raw n x y := by
  unfold AtDistance
  rw [h.walk n hx y hy]
  simp only [h.walk _ hx y hy]

theorem IsInfiniteIso.sphere {raw raw' : List (Edge T)} {Φ : Nat × T → Nat × T} (h : IsInfiniteIso raw raw' Φ)
    (n : Nat) {x : Nat × T} (hx : IsVertex raw x.1) :
    {y | AtDistance raw' n (Φ x) y}.ncard = {y | AtDistance raw n x y}.ncard := by
  have : {y | AtDistance raw' n (Φ x) y} = Φ '' {y | AtDistance raw n x y} := by
    ext y
    constructor
    · intro hy
      have h1 : IsVertex raw' y.1 := walk_isVertex hy.1 (h.1.mapsTo hx)
      obtain ⟨z, hz, rfl⟩ := h.1.surjOn h1
      exact ⟨z, (h.atDistance n hx z hz).1 hy, rfl⟩
    · rintro ⟨z, hz, rfl⟩
      exact (h.atDistance n hx z (walk_isVertex hz.1 hx)).2 hz
  rw [this]
  apply Set.ncard_image_of_injOn
  intro a ha b hb hab
  exact h.1.injOn (walk_isVertex ha.1 hx) (walk_isVertex hb.1 hx) hab

theorem translate_iso (raw : List (Edge T)) (t : T) : IsInfiniteIso raw raw (fun x => (x.1, x.2 + t)) := by
  refine ⟨⟨fun x hx => hx, fun x hx y hy hxy => ?_, fun y hy => ⟨(y.1, y.2 - t), hy, by simp⟩⟩, fun x y hx hy => ?_⟩
  · simp only [Prod.mk.injEq, add_left_inj] at hxy
    exact Prod.ext hxy.1 hxy.2
  · unfold Adj
    simp only
    constructor
    · rintro ⟨e, h1, h2, h3, h4⟩
      refine ⟨e, h1, h2, h3, ?_⟩
      have h5 : x.2 + e.shift + t = y.2 + t := by rw [← h4]; abel
      exact add_right_cancel h5
    · rintro ⟨e, h1, h2, h3, h4⟩
      refine ⟨e, h1, h2, h3, ?_⟩
      rw [← h4]; abel

theorem IsInfiniteIso.coordinationItem {raw raw' : List (Edge T)} {Φ : Nat × T → Nat × T}
    (h : IsInfiniteIso raw raw' Φ) {x : Nat × T} (hx : IsVertex raw x.1) (k : Nat) :
    (Graph.new raw').coordinationItem (Φ x).1 k = (Graph.new raw).coordinationItem x.1 k := by
  have hx' : IsVertex raw' (Φ x).1 := h.1.mapsTo hx
  rw [(C29_coordination_sequence raw x.1 k hx).2, (C29_coordination_sequence raw' (Φ x).1 k hx').2]
  congr 1
  have h1 := (translate_iso raw x.2).sphere (k + 1) (x := (x.1, 0)) hx
  have h2 := (translate_iso raw' (Φ x).2).sphere (k + 1) (x := ((Φ x).1, 0)) hx'
  simp only [zero_add] at h1 h2
  rw [← h1, ← h2]
  exact h.sphere (k + 1) hx

theorem rep_iso {c : Nat → T} {raw raw' : List (Edge T)} (h : ChangesRepresentatives c raw raw') :
    IsInfiniteIso raw raw' (fun x => (x.1, x.2 - c x.1)) := by
  have hv : ∀ v, IsVertex raw' v ↔ IsVertex raw v := by
    intro v
    rw [isVertex_iff, isVertex_iff]
    constructor
    · rintro ⟨e, he, rfl⟩
      obtain ⟨f, hf, rfl⟩ := (h e).1 he
      exact ⟨f, hf, rfl⟩
    · rintro ⟨f, hf, rfl⟩
      exact ⟨_, (h _).2 ⟨f, hf, rfl⟩, rfl⟩
  refine ⟨⟨fun x hx => (hv _).2 hx, fun x hx y hy hxy => ?_, fun y hy => ⟨(y.1, y.2 + c y.1), (hv _).1 hy, by simp⟩⟩,
    fun x y hx hy => ?_⟩
  · simp only [Prod.mk.injEq] at hxy
    refine Prod.ext hxy.1 ?_
    have h2 := hxy.2
    rw [hxy.1] at h2
    exact sub_left_inj.1 h2
  · unfold Adj
    constructor
    · rintro ⟨e, h1, h2, h3, h4⟩
      obtain ⟨f, hf, rfl⟩ := (h e).1 h1
      simp only at h2 h3 h4
      refine ⟨f, hf, h2, h3, ?_⟩
      rw [h2, h3] at h4
      have : x.2 + f.shift - c y.1 = y.2 - c y.1 := by rw [← h4]; abel
      exact sub_left_inj.1 this
    · rintro ⟨f, hf, h2, h3, h4⟩
      refine ⟨_, (h _).2 ⟨f, hf, rfl⟩, h2, h3, ?_⟩
      simp only
      rw [h2, h3, ← h4]; abel

theorem new_of_changes {c : Nat → T} {raw raw' : List (Edge T)} (h : ChangesRepresentatives c raw raw') :
    Graph.new raw' = (Graph.new raw).rep c := by
  rw [← rep_new]
  apply Graph.ext_new
  intro e
  rw [h e, isDirected_map]
  rfl

theorem new_of_wf {g : Graph T} (hg : g.WF) : Graph.new g.edges = g := by
  have : (Graph.new g.edges).edges = g.edges := by
    refine sorted_ext (wf_new _).sorted hg.sorted (fun e => ?_)
    rw [mem_new]
    constructor
    · rintro ⟨f, hf, rfl⟩
      rw [hg.canon f hf]; exact hf
    · intro he; exact ⟨e, he, hg.canon e he⟩
  cases hA : Graph.new g.edges
  rw [hA] at this
  cases g
  simp only at this
  rw [this]

/-! ### placements -/

theorem isBarycentric_iff (g : Graph T) (pos : Nat → Fin (LabelVector.dim T) → ℚ) :
    IsBarycentric g.edges g.vertices pos ↔
      ∀ v ∈ g.vertices, ∀ k, ((g.inc v).map (fun e => edgeVec pos e k)).sum = 0 := by
  constructor
  · intro h v hv k; exact sum_edgeVec g pos h hv k
  · intro h v hv k
    have h0 := h v hv k
    rw [neighbours_eq, List.length_map, List.map_map]
    have h2 : ((g.inc v).map (fun e => edgeVec pos e k)) =
        ((g.inc v).map (fun e => (pos e.tail k + ((rent (LabelVector.toVec e.shift) k.1 : ℤ) : ℚ)) - pos v k)) := by
      apply List.map_congr_left
      intro e he
      rw [edgeVec, ((g.mem_inc _ _).1 he).2]
    rw [h2, List.sum_map_sub_rat] at h0
    have h3 : ((g.inc v).map (fun _ => pos v k)).sum = ((g.inc v).length : ℚ) * pos v k := by simp
    rw [h3] at h0
    simp only [Function.comp_def]
    linarith

/-- a placement with vanishing vertex sums is determined by one position -/
theorem barycentric_unique (g : Graph T) (hc : QuotientConnected g.edges) (hne : g.vertices ≠ [])
    {pos pos' : Nat → Fin (LabelVector.dim T) → ℚ} (hb : IsBarycentric g.edges g.vertices pos)
    (hb' : IsBarycentric g.edges g.vertices pos')
    (h0 : ∀ k, pos (g.vertices.head hne) k = 0) (h0' : ∀ k, pos' (g.vertices.head hne) k = 0) :
    ∀ v ∈ g.vertices, pos' v = pos v := by
  have hhead : g.vertices.head hne = g.vertices[(⟨0, vertices_first g hne⟩ : Fin _)] := (List.getElem_zero _).symm
  have key : ∀ pos' : Nat → Fin (LabelVector.dim T) → ℚ, (∀ k, pos' (g.vertices.head hne) k = 0) →
      IsBarycentric g.edges g.vertices pos' →
      (pinnedLaplacian g.edges g.vertices).map (fun x => (x : ℚ)) *
        (Matrix.of (fun (i : Fin g.vertices.length) k => pos' g.vertices[i] k)) =
        (shiftSums g.edges g.vertices).map (fun x => (x : ℚ)) := by
    intro pos' hp0 hpb
    let Y : Matrix (Fin g.vertices.length) (Fin (LabelVector.dim T)) ℚ := Matrix.of (fun (i : Fin g.vertices.length) k => pos' g.vertices[i] k)
    have hY : ∀ v ∈ g.vertices, ∀ k, atV g.vertices (fun i => Y i k) v = pos' v k := by
      intro v hv k
      obtain ⟨i, hi, rfl⟩ := List.mem_iff_getElem.1 hv
      exact atV_get g.vertices_nodup _ ⟨i, hi⟩
    refine (barycentric_iff g hne Y).2 ⟨fun k => by rw [← hp0 k, hhead]; rfl, fun v hv k => ?_⟩
    have := hpb v hv k
    simp only
    rw [hY v hv, this]
    congr 1
    apply List.map_congr_left
    rintro ⟨w, s⟩ hp
    rw [neighbours_eq] at hp
    obtain ⟨e, he, h⟩ := List.mem_map.1 hp
    have : w = e.tail := by rw [Prod.mk.injEq] at h; exact h.1.symm
    rw [hY w (this ▸ g.tail_mem ((g.mem_inc _ _).1 he).1)]
  have hd : ((pinnedLaplacian g.edges g.vertices).map (fun x => (x : ℚ))).det ≠ 0 := by
    rw [det_cast_ne_zero]; exact det_ne_zero_of_connected g hc
  have hu : IsUnit ((pinnedLaplacian g.edges g.vertices).map (fun x => (x : ℚ))).det := isUnit_iff_ne_zero.2 hd
  have hXY := congrArg (fun M => ((pinnedLaplacian g.edges g.vertices).map (fun x => (x : ℚ)))⁻¹ * M)
    ((key pos h0 hb).trans (key pos' h0' hb').symm)
  simp only [← Matrix.mul_assoc, Matrix.nonsing_inv_mul _ hu, Matrix.one_mul] at hXY
  intro v hv
  obtain ⟨i, hi, rfl⟩ := List.mem_iff_getElem.1 hv
  exact (congrFun hXY ⟨i, hi⟩).symm

theorem edgeVec_eq_shv (pos : Nat → Fin (LabelVector.dim T) → ℚ) (e : Edge T) :
    edgeVec pos e = pos e.tail + shv e.shift - pos e.head := rfl

theorem edgeVec_rep (c : Nat → T) (a : Fin (LabelVector.dim T) → ℚ) (pos : Nat → Fin (LabelVector.dim T) → ℚ)
    (e : Edge T) : edgeVec (fun v => pos v + shv (c v) + a) (adjEdge c e) = edgeVec pos e := by
  rw [edgeVec_eq_shv, edgeVec_eq_shv]
  simp only [adjEdge, shv_add, shv_sub]
  abel

theorem rep_barycentric (c : Nat → T) (a : Fin (LabelVector.dim T) → ℚ) (g : Graph T)
    {pos : Nat → Fin (LabelVector.dim T) → ℚ} (hb : IsBarycentric g.edges g.vertices pos) :
    IsBarycentric (g.rep c).edges (g.rep c).vertices (fun v => pos v + shv (c v) + a) := by
  rw [isBarycentric_iff] at hb ⊢
  intro v hv k
  rw [rep_vertices] at hv
  rw [rep_inc, List.map_map, ← hb v hv k]
  congr 1
  apply List.map_congr_left
  intro e _
  exact congrFun (edgeVec_rep c a pos e) k

theorem rep_quotient (c : Nat → T) {g : Graph T} (hc : QuotientConnected g.edges) :
    QuotientConnected (g.rep c).edges := by
  have hv : ∀ v, IsVertex (g.rep c).edges v ↔ IsVertex g.edges v := by
    intro v
    rw [← Graph.mem_vertices, rep_vertices, Graph.mem_vertices]
  intro v w hv' hw'
  refine rtg_mono (fun a b hab => ?_) (hc v w ((hv v).1 hv') ((hv w).1 hw'))
  obtain ⟨e, he, h1, h2⟩ := hab
  exact ⟨adjEdge c e, (isDirected_map c _ _).2 ⟨e, he, rfl⟩, h1, h2⟩

/-- the positions with the other representatives -/
theorem rep_positions (c : Nat → T) (g : Graph T) (hc : QuotientConnected g.edges) (hne : g.vertices ≠ [])
    {pos pos' : Nat → Fin (LabelVector.dim T) → ℚ} (hb : IsBarycentric g.edges g.vertices pos)
    (hb' : IsBarycentric (g.rep c).edges (g.rep c).vertices pos')
    (h0 : ∀ v ∈ g.vertices.head?, pos v = 0) (h0' : ∀ v ∈ g.vertices.head?, pos' v = 0) :
    ∀ v ∈ g.vertices, pos' v = pos v + shv (c v) - shv (c (g.vertices.head hne)) := by
  have hh : g.vertices.head hne ∈ g.vertices.head? := by rw [List.head?_eq_some_head hne]; rfl
  have hne' : (g.rep c).vertices ≠ [] := by rw [rep_vertices]; exact hne
  have hhead : (g.rep c).vertices.head hne' = g.vertices.head hne := by simp only [rep_vertices]
  intro v hv
  have := barycentric_unique (g.rep c) (rep_quotient c hc) hne'
    (rep_barycentric c (-shv (c (g.vertices.head hne))) g hb) hb' (fun k => ?_) (fun k => ?_) v
    (by rw [rep_vertices]; exact hv)
  · rw [this, sub_eq_add_neg]
  · rw [hhead, h0 _ hh]; simp
  · rw [hhead, h0' _ hh]; rfl

end
end Systre
