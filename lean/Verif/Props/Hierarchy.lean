import Verif.Props.InfiniteSymmetry

/-!
# C91: how the tests and counts for one graph are related
(src/pgraphs.rs: is_stable, is_locally_stable, has_second_order_collisions, coordination_sequence, incidences;
src/symmetries.rs: is_ladder, ladder_symmetries)

Nothing new is modelled; the theorems relate answers of different functions for the same graph.
-/

set_option linter.unusedSectionVars false

namespace Systre

section
variable {T : Type} [LabelVector T] [LawfulLabelVector T]

omit [LawfulLabelVector T] in
theorem noLoops_iff {raw : List (Edge T)} : NoLoops raw ↔ ∀ x : Nat × T, ¬ Adj raw x x := by
  constructor
  · rintro h ⟨v, s⟩ ⟨e, he, h1, h2, h3⟩
    have h4 : e.shift = 0 := by simpa using h3
    rcases he with he | he
    · exact h e he ⟨h1.trans h2.symm, h4⟩
    · exact h _ he ⟨h2.trans h1.symm, by simp [h4]⟩
  · rintro h e he ⟨h1, h2⟩
    exact h (e.head, 0) ⟨e, Or.inl he, rfl, h1.symm, by simp [h2]⟩

theorem selfNeg_iff {e : Edge T} : (⟨e.tail, e.head, -e.shift⟩ : Edge T) = e ↔ e.head = e.tail ∧ e.shift = 0 := by
  constructor
  · intro h
    refine ⟨(congrArg Edge.tail h), ?_⟩
    have h1 : -e.shift = e.shift := congrArg Edge.shift h
    apply shv_inj
    rw [shv_zero]
    funext k
    have h2 := congrFun (congrArg shv h1) k
    rw [shv_neg] at h2
    simp only [Pi.neg_apply, Pi.zero_apply] at h2 ⊢
    linarith
  · rintro ⟨h1, h2⟩
    cases e; simp_all

theorem noLoops_directed {raw : List (Edge T)} (h : NoLoops raw) {e : Edge T} (he : IsDirected raw e) :
    (⟨e.tail, e.head, -e.shift⟩ : Edge T) ≠ e := by
  rw [Ne, selfNeg_iff]
  rintro ⟨h1, h2⟩
  exact noLoops_iff.1 h (e.head, 0) ⟨e, he, rfl, h1.symm, by simp [h2]⟩

theorem placesDistinct_locallyStable {raw : List (Edge T)} {pos : Nat → Fin (LabelVector.dim T) → ℚ}
    (hd : PlacesDistinct raw pos) (hl : NoLoops raw) : LocallyStable raw pos := by
  refine ⟨fun e f he hf hef hv => ?_, fun e he => noLoops_directed hl he⟩
  have h1 : place pos (e.tail, e.shift) = place pos (f.tail, f.shift) := by
    have h2 : pos e.tail + shv e.shift - pos e.head = pos f.tail + shv f.shift - pos f.head := by
      have := hv
      simpa [edgeVec, funext_iff, shv] using this
    rw [hef] at h2
    exact sub_left_inj.1 h2
  have h3 := hd.inj (x := (e.tail, e.shift)) (y := (f.tail, f.shift)) (isVertex_tail he) (isVertex_tail hf) h1
  cases e; cases f; simp_all

/-- C91: a stable graph without loops is locally stable. -/
theorem C91_stable_locally_stable (raw : List (Edge T)) (tb : Outcome PosTable)
    (pos : Nat → Fin (LabelVector.dim T) → ℚ) (hp : Places tb (Graph.new raw) pos) (hl : NoLoops raw)
    (hst : isStableIn tb (Graph.new raw) = .ok true) : isLocallyStableIn tb (Graph.new raw) = .ok true := by
  obtain ⟨b, h1, h2⟩ := C35_is_stable raw tb pos hp
  have hd : PlacesDistinct raw pos := placesDistinct_iff.2 (h2.1 (Outcome.ok.inj (h1.symm.trans hst)))
  obtain ⟨c, h3, h4⟩ := C37_locally_stable raw tb pos hp
  rw [h3, h4.2 (placesDistinct_locallyStable hd hl)]

/-- C91: a locally stable graph has no loops. -/
theorem C91_locally_stable_no_loops (raw : List (Edge T)) (tb : Outcome PosTable)
    (pos : Nat → Fin (LabelVector.dim T) → ℚ) (hp : Places tb (Graph.new raw) pos)
    (hst : isLocallyStableIn tb (Graph.new raw) = .ok true) : NoLoops raw := by
  obtain ⟨c, h3, h4⟩ := C37_locally_stable raw tb pos hp
  have hs := h4.1 (Outcome.ok.inj (h3.symm.trans hst))
  exact fun e he h => hs.2 e (Or.inl he) (selfNeg_iff.2 h)

/-- C91: a stable graph has no second order collisions. -/
theorem C91_stable_collisions (raw : List (Edge T)) (tb : Outcome PosTable)
    (pos : Nat → Fin (LabelVector.dim T) → ℚ) (hp : Places tb (Graph.new raw) pos)
    (hst : isStableIn tb (Graph.new raw) = .ok true) : hasSecondOrderCollisionsIn tb (Graph.new raw) = .ok false := by
  obtain ⟨b, h1, h2⟩ := C35_is_stable raw tb pos hp
  have hd := h2.1 (Outcome.ok.inj (h1.symm.trans hst))
  obtain ⟨c, h3, h4⟩ := C35_second_order_collisions raw tb pos hp
  rw [h3]
  cases c with
  | false => rfl
  | true =>
    obtain ⟨v, w, es, fs, hv, hw, h5, h6, -⟩ := h4.1 rfl
    have hv' : IsVertex raw v := by
      by_contra h
      rw [(C27_incidences raw v).2 h] at hv; cases hv
    have hw' : IsVertex raw w := by
      by_contra h
      rw [(C27_incidences raw w).2 h] at hw; cases hw
    exact absurd h6 (hd v w hv' hw' h5)

/-- C91: a stable, connected graph without loops is no ladder. -/
theorem C91_stable_ladder (raw : List (Edge T)) (tb : Outcome PosTable)
    (pos : Nat → Fin (LabelVector.dim T) → ℚ) (hp : Places tb (Graph.new raw) pos) (hc : PeriodicConnected raw)
    (hne : raw ≠ []) (hl : NoLoops raw) (hz : ∀ v ∈ (Graph.new raw).vertices.head?, pos v = 0)
    (hst : isStableIn tb (Graph.new raw) = .ok true) :
    isLadder tb (Graph.new raw) = .ok false ∧ ladderSymmetries tb (Graph.new raw) = .ok [] := by
  obtain ⟨b, h1, h2⟩ := C35_is_stable raw tb pos hp
  have hd : PlacesDistinct raw pos := placesDistinct_iff.2 (h2.1 (Outcome.ok.inj (h1.symm.trans hst)))
  have hs := placesDistinct_locallyStable hd hl
  have hno : ∀ γ, ¬ IsLadderTranslation raw pos γ := by
    rintro γ ⟨⟨em, hg⟩, v, hv, hne', hsm⟩
    exact hne' (hd _ _ (hg.vbij.mapsTo hv) hv hsm)
  obtain ⟨c, h3, h4⟩ := C64_is_ladder raw tb pos hp hs hc hne hz
  obtain ⟨l, h5, h6, -⟩ := C64_ladder_symmetries raw tb pos hp hs hc hne hz
  constructor
  · rw [h3]
    cases c with
    | false => rfl
    | true => obtain ⟨γ, hγ⟩ := h4.1 rfl; exact absurd hγ (hno γ)
  · rw [h5]
    cases l with
    | nil => rfl
    | cons φ l =>
      obtain ⟨vm, em, -, -, k⟩ := h6 φ List.mem_cons_self
      exact absurd k (hno vm)

/-- incidences of a vertex and of its image under an automorphism -/
theorem IsGraphAut.incidences_perm {raw : List (Edge T)} {pos : Nat → Fin (LabelVector.dim T) → ℚ} {vm em}
    {A : Matrix (Fin (LabelVector.dim T)) (Fin (LabelVector.dim T)) ℚ}
    (hs : LocallyStable raw pos) (hg : IsGraphAut raw pos vm em A) {v : Nat} (hv : IsVertex raw v) :
    ∃ es fs, (Graph.new raw).incidences v = .ok es ∧ (Graph.new raw).incidences (vm v) = .ok fs ∧
      (es.map em).Perm fs ∧ ∀ e ∈ es, IsDirected raw e := by
  obtain ⟨es, h1, -, h2⟩ := (C27_incidences raw v).1 hv
  obtain ⟨fs, h3, -, h4⟩ := (C27_incidences raw (vm v)).1 (hg.vbij.mapsTo hv)
  have hnd : ∀ w, IsVertex raw w → ∀ l, (Graph.new raw).incidences w = .ok l → l.Nodup := by
    intro w hw l hl
    have := ((locStable_iff (wf_new raw) pos).2 (locallyStable_new.2 hs)) w ((Graph.mem_vertices _ _).2 ((isVertex_new _ _).2 hw))
    rw [Graph.incidences_ok _ ((Graph.mem_vertices _ _).2 ((isVertex_new _ _).2 hw))] at hl
    rw [← Outcome.ok.inj hl]
    exact this.of_map
  refine ⟨es, fs, h1, h3, ?_, fun e he => ((h2 e).1 he).1⟩
  rw [List.perm_ext_iff_of_nodup ?_ (hnd _ (hg.vbij.mapsTo hv) _ h3)]
  · intro f
    rw [h4, List.mem_map]
    constructor
    · rintro ⟨e, he, rfl⟩
      obtain ⟨k1, rfl⟩ := (h2 e).1 he
      exact ⟨hg.ebij.mapsTo k1, hg.head e k1⟩
    · rintro ⟨k1, k2⟩
      obtain ⟨e, he, rfl⟩ := hg.ebij.surjOn k1
      refine ⟨e, (h2 e).2 ⟨he, ?_⟩, rfl⟩
      rw [hg.head e he] at k2
      exact hg.vbij.injOn ((isVertex_iff _ _).2 ⟨e, he, rfl⟩) hv k2
  · refine List.Nodup.map_on (fun e he f hf hef => ?_) (hnd v hv es h1)
    exact hg.ebij.injOn ((h2 e).1 he).1 ((h2 f).1 hf).1 hef

/-- C91: a ladder has second order collisions. -/
theorem C91_ladder_collisions (raw : List (Edge T)) (tb : Outcome PosTable)
    (pos : Nat → Fin (LabelVector.dim T) → ℚ) (hp : Places tb (Graph.new raw) pos) (hs : LocallyStable raw pos)
    (hc : PeriodicConnected raw) (hne : raw ≠ []) (hz : ∀ v ∈ (Graph.new raw).vertices.head?, pos v = 0)
    (hlad : isLadder tb (Graph.new raw) = .ok true) : hasSecondOrderCollisionsIn tb (Graph.new raw) = .ok true := by
  obtain ⟨c, h3, h4⟩ := C64_is_ladder raw tb pos hp hs hc hne hz
  obtain ⟨γ, ⟨em, hg⟩, v, hv, hvn, hsm⟩ := h4.1 (Outcome.ok.inj (h3.symm.trans hlad))
  obtain ⟨b, h5, h6⟩ := C35_second_order_collisions raw tb pos hp
  obtain ⟨es, fs, k1, k2, k3, k4⟩ := hg.incidences_perm hs hv
  rw [h5, h6.2 ⟨γ v, v, fs, es, k2, k1, hvn, hsm, ?_⟩]
  refine (k3.map (edgeVec pos)).symm.trans ?_
  rw [List.map_map]
  rw [List.map_congr_left (g := edgeVec pos)]
  intro e he
  simp [hg.vec e (k4 e he)]

/-- C91: without loops, the first item of the coordination sequence of a vertex is the number of its incidences. -/
theorem C91_degree (raw : List (Edge T)) (hl : NoLoops raw) (v : Nat) (hv : IsVertex raw v) :
    ∃ es, (Graph.new raw).incidences v = .ok es ∧ (Graph.new raw).coordinationItem v 0 = .ok es.length := by
  classical
  have hv' := (Graph.mem_vertices _ _).2 ((isVertex_new raw v).2 hv)
  obtain ⟨es, h1, -, h2⟩ := (C27_incidences raw v).1 hv
  have hnd : es.Nodup := by
    rw [Graph.incidences_ok _ hv'] at h1
    have h3 := inc_filter_nodup raw v
    rw [Outcome.ok.inj h1] at h3
    have h4 : es.filter (fun e => decide (e.neg ≠ e)) = es :=
      List.filter_eq_self.2 (fun e he => decide_eq_true (noLoops_directed hl ((h2 e).1 he).1))
    rwa [h4] at h3
  refine ⟨es, h1, ?_⟩
  rw [(C29_coordination_sequence raw v 0 hv).2]
  congr 1
  have hinj : (es.map (fun e => (e.tail, e.shift))).Nodup := by
    refine List.Nodup.map_on (fun e he f hf hef => ?_) hnd
    have k1 := ((h2 e).1 he).2
    have k2 := ((h2 f).1 hf).2
    simp only [Prod.mk.injEq] at hef
    cases e; cases f; simp_all
  have hset : {x : Nat × T | AtDistance raw (0 + 1) (v, 0) x} = ((es.map (fun e => (e.tail, e.shift))).toFinset : Set (Nat × T)) := by
    ext ⟨w, t⟩
    simp only [Set.mem_ofPred_eq, List.coe_toFinset, List.mem_map]
    constructor
    · rintro ⟨hw, -⟩
      cases hw with
      | step h0 ha =>
        cases h0
        obtain ⟨e, he, k1, k2, k3⟩ := ha
        exact ⟨e, (h2 e).2 ⟨he, k1⟩, Prod.ext k2 (by simpa using k3)⟩
    · rintro ⟨e, he, hx⟩
      obtain ⟨k1, k2⟩ := (h2 e).1 he
      have ha : Adj raw (v, 0) (w, t) := by
        simp only [Prod.mk.injEq] at hx
        exact ⟨e, k1, k2, hx.1, by simp [hx.2]⟩
      refine ⟨.step (.here _) ha, fun m hm hw => ?_⟩
      obtain rfl : m = 0 := by omega
      cases hw
      exact noLoops_iff.1 hl _ ha
  rw [hset, Set.ncard_coe_finset, List.toFinset_card_of_nodup hinj, List.length_map]

/-- C91: without loops, the first items of all coordination sequences add up to twice the number of edges. -/
theorem C91_degree_sum (raw : List (Edge T)) (hl : NoLoops raw) :
    ∃ ds : List Nat, omap (fun v => (Graph.new raw).coordinationItem v 0) (Graph.new raw).vertices = .ok ds ∧
      ds.sum = 2 * (Graph.new raw).edges.length := by
  obtain ⟨des, h1, -, -, h2⟩ := C27_directed_edges raw
  refine ⟨(Graph.new raw).vertices.map (fun v => ((Graph.new raw).inc v).length), ?_, ?_⟩
  · apply omap_ok
    intro v hv
    obtain ⟨es, h3, h4⟩ := C91_degree raw hl v ((isVertex_new _ _).1 ((Graph.mem_vertices _ _).1 hv))
    rw [Graph.incidences_ok _ hv] at h3
    rw [h4, Outcome.ok.inj h3]
  · unfold Graph.directedEdges at h1
    rw [omap_ok (fun v hv => (Graph.new raw).incidences_ok hv)] at h1
    rw [← h2, ← Outcome.ok.inj h1, List.length_flatten, List.map_map]
    rfl

/-- C91: vertices in the same class of `vertex_orbits` have equally many incidences. -/
theorem C91_orbit_degrees (raw : List (Edge T)) (tb : Outcome PosTable)
    (pos : Nat → Fin (LabelVector.dim T) → ℚ) (hp : Places tb (Graph.new raw) pos) (hs : LocallyStable raw pos)
    (hc : PeriodicConnected raw) (hne : raw ≠ []) :
    ∃ N l cs, (∀ fuel, N ≤ fuel → symmetries fuel tb (Graph.new raw) = .ok l) ∧
      vertexOrbits (Graph.new raw) l = .ok cs ∧
      ∀ c ∈ cs, ∀ v ∈ c, ∀ w ∈ c, ∃ es fs, (Graph.new raw).incidences v = .ok es ∧
        (Graph.new raw).incidences w = .ok fs ∧ es.length = fs.length := by
  obtain ⟨N, l, cs, h1, h2, -, -, h5, h6⟩ := C41_vertex_orbits raw tb pos hp hs hc hne
  obtain ⟨N', l', h1', h7, -⟩ := C39_symmetries_group raw tb pos hp hs hc hne
  have hl : l' = l := by
    have a := h1 (max N N') (le_max_left _ _)
    have b := h1' (max N N') (le_max_right _ _)
    exact Outcome.ok.inj (b.symm.trans a)
  subst hl
  refine ⟨N, l', cs, h1, h2, fun c hcs v hv w hw => ?_⟩
  obtain ⟨φ, hφ, hlook⟩ := (h6 c hcs v hv w).1 hw
  obtain ⟨A, vm, em, h8, h9⟩ := h7 φ hφ
  obtain ⟨hvv, rfl⟩ := (h8.vkeys v w).1 hlook
  obtain ⟨es, fs, k1, k2, k3, -⟩ := h9.incidences_perm hs hvv
  exact ⟨es, fs, k1, k2, by rw [← k3.length_eq, List.length_map]⟩

theorem sum_inc_length (raw : List (Edge T)) :
    ((Graph.new raw).vertices.map (fun v => ((Graph.new raw).inc v).length)).sum = 2 * (Graph.new raw).edges.length := by
  obtain ⟨des, h1, -, -, h2⟩ := C27_directed_edges raw
  unfold Graph.directedEdges at h1
  rw [omap_ok (fun v hv => (Graph.new raw).incidences_ok hv)] at h1
  rw [← h2, ← Outcome.ok.inj h1, List.length_flatten, List.map_map]
  rfl

/-- translations that agree at one vertex agree everywhere -/
theorem translation_unique {raw : List (Edge T)} {pos : Nat → Fin (LabelVector.dim T) → ℚ} (hs : LocallyStable raw pos)
    (hc : PeriodicConnected raw) {γ δ : Nat → Nat} (hγ : IsTranslation raw pos γ) (hδ : IsTranslation raw pos δ)
    {v : Nat} (hv : IsVertex raw v) (h : γ v = δ v) : ∀ w, IsVertex raw w → γ w = δ w := by
  obtain ⟨em, h1⟩ := hγ
  obtain ⟨em', h2⟩ := hδ
  have hu := StarMap.unique (locallyStable_new.2 hs) (quotientConnected_new.2 (quotient_of_periodic hc))
    (isGraphAut_new.2 h1).starMap (isGraphAut_new.2 h2).starMap ((isVertex_new raw _).2 hv) h
  exact fun w hw => hu.1 w ((isVertex_new raw _).2 hw)

/-- C91: unless the graph is a ladder, all classes that `translational_orbits` returns have the same size, and the
number of vertices is the product of this size and the number of classes. -/
theorem C91_class_sizes (raw : List (Edge T)) (tb : Outcome PosTable) (pos : Nat → Fin (LabelVector.dim T) → ℚ)
    (hp : Places tb (Graph.new raw) pos) (hs : LocallyStable raw pos) (hc : PeriodicConnected raw) (hne : raw ≠ [])
    (hsm : (Graph.new raw).vertices.length ≤ 2147483647)
    (hz : ∀ v ∈ (Graph.new raw).vertices.head?, pos v = 0) (hlad : ¬ ∃ γ, IsLadderTranslation raw pos γ) :
    ∃ cs m, translationalOrbits tb (Graph.new raw) = .ok cs ∧ (∀ c ∈ cs, c.length = m) ∧ 0 < m ∧
      (∀ c ∈ cs, c.Nodup ∧ ∀ x ∈ c, IsVertex raw x ∧ ∀ y, y ∈ c ↔ ∃ γ, IsTranslation raw pos γ ∧ γ x = y) ∧
      (∀ v, IsVertex raw v → ∃ c ∈ cs, v ∈ c) ∧
      (Graph.new raw).vertices.length = m * cs.length := by
  obtain ⟨v0, c0, cs, -, h1, h2, h3, h4, -, -, h7⟩ := C42_translational_orbits raw tb pos hp hs hc hne hsm hz
  have h7 := h7 hlad
  set ds := (v0 :: c0) :: cs with hds
  have hnd : ∀ c ∈ ds, c.Nodup := fun c hcm => (List.nodup_flatten.1 h3).1 c hcm
  have hvx : ∀ c ∈ ds, ∀ x ∈ c, IsVertex raw x := fun c hcm x hx => (h4 x).1 (List.mem_flatten.2 ⟨c, hcm, hx⟩)
  have hle : ∀ c ∈ ds, ∀ d ∈ ds, c.length ≤ d.length := by
    intro c hcm d hdm
    obtain ⟨x, hx⟩ := List.exists_mem_of_ne_nil c (h2 c hcm)
    obtain ⟨x', hx'⟩ := List.exists_mem_of_ne_nil d (h2 d hdm)
    have hex : ∀ y : Nat, ∃ γ, y ∈ c → IsTranslation raw pos γ ∧ γ x = y := by
      intro y
      by_cases hy : y ∈ c
      · obtain ⟨γ, hγ⟩ := (h7 c hcm x hx y).1 hy
        exact ⟨γ, fun _ => hγ⟩
      · exact ⟨fun v => v, fun h => absurd h hy⟩
    choose γ hγ using hex
    have hinj : (c.map (fun y => γ y x')).Nodup := by
      refine List.Nodup.map_on (fun y hy z hzm hyz => ?_) (hnd c hcm)
      have := translation_unique hs hc (hγ y hy).1 (hγ z hzm).1 (hvx d hdm x' hx') hyz x (hvx c hcm x hx)
      rw [(hγ y hy).2, (hγ z hzm).2] at this
      exact this
    have hsub : (c.map (fun y => γ y x')) ⊆ d := by
      intro z hzm
      obtain ⟨y, hy, rfl⟩ := List.mem_map.1 hzm
      exact (h7 d hdm x' hx' _).2 ⟨γ y, (hγ y hy).1, rfl⟩
    have := (List.subperm_of_subset hinj hsub).length_le
    rwa [List.length_map] at this
  have hm : ∀ c ∈ ds, c.length = (v0 :: c0).length := fun c hcm =>
    le_antisymm (hle c hcm _ (by simp [hds])) (hle _ (by simp [hds]) c hcm)
  refine ⟨ds, (v0 :: c0).length, h1, hm, by simp, fun c hcm => ⟨hnd c hcm, fun x hx => ⟨hvx c hcm x hx, h7 c hcm x hx⟩⟩,
    fun v hv => ?_, ?_⟩
  · obtain ⟨c, hcm, hvc⟩ := List.mem_flatten.1 ((h4 v).2 hv)
    exact ⟨c, hcm, hvc⟩
  · have hperm : (Graph.new raw).vertices.Perm ds.flatten := by
      rw [List.perm_ext_iff_of_nodup (Graph.vertices_nodup _) h3]
      intro v
      rw [h4, Graph.mem_vertices, isVertex_new]
    rw [hperm.length_eq, List.length_flatten, List.map_congr_left hm, List.map_const', List.sum_replicate, smul_eq_mul,
      Nat.mul_comm]

/-- C91: if `minimal_image` returns a graph, the numbers of vertices and of edges of the given graph are multiples of
those of the returned one, both by the size of the classes of `translational_orbits`, which is at least two. -/
theorem C91_minimal_image_counts (raw : List (Edge T)) (tb : Outcome PosTable)
    (pos : Nat → Fin (LabelVector.dim T) → ℚ)
    (hp : Places tb (Graph.new raw) pos) (hs : LocallyStable raw pos) (hc : PeriodicConnected raw) (hne : raw ≠ [])
    (hsm : (Graph.new raw).vertices.length ≤ 2147483647)
    (hz : ∀ v ∈ (Graph.new raw).vertices.head?, pos v = 0) (hlad : ¬ ∃ γ, IsLadderTranslation raw pos γ)
    (g : Graph T) (hg : minimalImage tb (Graph.new raw) = .ok (some g)) :
    ∃ cs m, translationalOrbits tb (Graph.new raw) = .ok cs ∧ (∀ c ∈ cs, c.length = m) ∧ 2 ≤ m ∧
      cs.length = g.vertices.length ∧ (Graph.new raw).vertices.length = m * g.vertices.length ∧
      (Graph.new raw).edges.length = m * g.edges.length := by
  classical
  obtain ⟨cs, m, h1, h2, h3, h4, h5, h6⟩ := C91_class_sizes raw tb pos hp hs hc hne hsm hz hlad
  obtain ⟨v0, rest, hv, hv0⟩ := first_vertex hne
  have hz0 : pos v0 = 0 := hz v0 (by rw [hv]; rfl)
  have hwf : g.WF ∧ IsFinerForm raw pos g.edges := by
    rcases minimalImage_ok (wf_new raw) hp (locallyStable_new.2 hs) (periodicConnected_new.2 hc) hsm hv
      ((isVertex_new _ _).2 hv0) hz0 (by rwa [isLadder_new_eq]) with ⟨h1, -⟩ | ⟨-, ⟨g', h1, hwf, h2⟩ | h1⟩
    · rw [h1] at hg; simp at hg
    · rw [h1] at hg
      have : g' = g := Option.some.inj (Outcome.ok.inj hg)
      exact this ▸ ⟨hwf, isFinerForm_new.1 h2⟩
    · rw [h1] at hg; simp at hg
  have hnf : ¬ LatticeIsFull raw pos := by
    rcases C42_minimal_image_partial raw tb pos hp hs hc hne hsm hz hlad with ⟨-, k⟩ | ⟨k, -⟩
    · rw [k] at hg; simp at hg
    · exact k
  obtain ⟨hwf, Φ, hΦ1, hΦ2, hΦ3, -⟩ := hwf
  have hiso : IsInfiniteIso raw g.edges Φ := ⟨hΦ1, hΦ2⟩
  have hng : Graph.new g.edges = g := new_of_wf hwf
  -- two members in each class
  have hm2 : 2 ≤ m := by
    unfold LatticeIsFull at hnf
    push Not at hnf
    obtain ⟨γ, hγ, v, hvv, hns⟩ := hnf
    have hne' : γ v ≠ v := fun h => hns (by rw [h]; exact ⟨fun _ => 0, fun k => by simp⟩)
    obtain ⟨c, hcm, hvc⟩ := h5 v hvv
    have hγc : γ v ∈ c := (((h4 c hcm).2 v hvc).2 _).2 ⟨γ, hγ, rfl⟩
    rw [← h2 c hcm]
    have hnd2 : [v, γ v].Nodup := by simpa using fun h : v = γ v => hne' h.symm
    exact (List.subperm_of_subset hnd2 (by
      intro z hzm
      simp only [List.mem_cons, List.not_mem_nil, or_false] at hzm
      rcases hzm with rfl | rfl
      · exact hvc
      · exact hγc)).length_le
  -- the vertex of the image
  let f : Nat → Nat := fun v => (Φ (v, 0)).1
  let V := (Graph.new raw).vertices.toFinset
  let V' := g.vertices.toFinset
  have hV : ∀ v, v ∈ V ↔ IsVertex raw v := fun v => by
    rw [List.mem_toFinset, Graph.mem_vertices, isVertex_new]
  have hV' : ∀ v, v ∈ V' ↔ IsVertex g.edges v := fun v => by
    rw [List.mem_toFinset, Graph.mem_vertices]
  have hmaps : ∀ v ∈ V, f v ∈ V' := fun v hvm =>
    (hV' _).2 (hΦ1.mapsTo (show IsVertex raw (v, (0 : T)).1 from (hV v).1 hvm))
  have hfib : ∀ w ∈ V', (V.filter (fun v => f v = w)).card = m := by
    intro w hw
    obtain ⟨⟨v, s⟩, hvv, hvw⟩ := hΦ1.surjOn (show ((w, 0) : Nat × T) ∈ {y : Nat × T | IsVertex g.edges y.1} from (hV' w).1 hw)
    have hfv : f v = w := by
      have : (Φ (v, (0 : T))).1 = (Φ (v, s)).1 :=
        (hΦ3 (v, 0) (v, s) hvv hvv).2 ⟨fun v => v, ⟨_, IsGraphAut.id raw pos⟩, rfl⟩
      show (Φ (v, 0)).1 = w
      rw [this, hvw]
    obtain ⟨c, hcm, hvc⟩ := h5 v hvv
    rw [← h2 c hcm, ← List.toFinset_card_of_nodup (h4 c hcm).1]
    congr 1
    ext y
    rw [Finset.mem_filter, hV, List.mem_toFinset, ((h4 c hcm).2 v hvc).2, ← hfv]
    constructor
    · rintro ⟨hy, hyf⟩
      exact (hΦ3 (v, 0) (y, 0) hvv hy).1 hyf.symm
    · rintro ⟨γ, hγ, rfl⟩
      have hy : IsVertex raw (γ v) := by obtain ⟨em, k⟩ := hγ; exact k.vbij.mapsTo hvv
      exact ⟨hy, ((hΦ3 (v, 0) (γ v, 0) hvv hy).2 ⟨γ, hγ, rfl⟩).symm⟩
  have hcV : V.card = (Graph.new raw).vertices.length := List.toFinset_card_of_nodup (Graph.vertices_nodup _)
  have hcV' : V'.card = g.vertices.length := List.toFinset_card_of_nodup (Graph.vertices_nodup _)
  have hVm : (Graph.new raw).vertices.length = m * g.vertices.length := by
    rw [← hcV, ← hcV', Finset.card_eq_sum_card_fiberwise (f := f) (t := V') (fun v hvm => hmaps v hvm),
      Finset.sum_congr rfl hfib, Finset.sum_const, smul_eq_mul, Nat.mul_comm]
  -- degrees
  have hl : NoLoops raw := fun e he h => hs.2 e (Or.inl he) (selfNeg_iff.2 h)
  have hl' : NoLoops g.edges := by
    rw [noLoops_iff]
    intro y hy
    obtain ⟨x, hx, rfl⟩ := hΦ1.surjOn (show y ∈ {y : Nat × T | IsVertex g.edges y.1} from (adj_isVertex hy).1)
    exact noLoops_iff.1 hl x ((hΦ2 x x hx hx).1 hy)
  have hdeg : ∀ v ∈ V, ((Graph.new raw).inc v).length = (g.inc (f v)).length := by
    intro v hvm
    have hvv := (hV v).1 hvm
    obtain ⟨es, k1, k2⟩ := C91_degree raw hl v hvv
    obtain ⟨es', k1', k2'⟩ := C91_degree g.edges hl' (f v) ((hV' _).1 (hmaps v hvm))
    have k3 := hiso.coordinationItem (x := (v, 0)) hvv 0
    rw [Graph.incidences_ok _ ((Graph.mem_vertices _ _).2 ((isVertex_new _ _).2 hvv))] at k1
    rw [hng, Graph.incidences_ok _ ((Graph.mem_vertices _ _).2 ((hV' _).1 (hmaps v hvm)))] at k1'
    have k4 : Outcome.ok es'.length = Outcome.ok es.length := by rw [← k2', ← k2]; exact k3
    rw [Outcome.ok.inj k1, Outcome.ok.inj k1', Outcome.ok.inj k4]
  have hs1 := sum_inc_length raw
  have hs2 := sum_inc_length g.edges
  rw [hng] at hs2
  rw [← List.sum_toFinset _ (Graph.vertices_nodup _)] at hs1 hs2
  have hsum : 2 * (Graph.new raw).edges.length = m * (2 * g.edges.length) := by
    rw [← hs1, ← hs2, Finset.sum_congr rfl hdeg, ← Finset.sum_fiberwise_of_maps_to hmaps, Finset.mul_sum]
    refine Finset.sum_congr rfl (fun w hw => ?_)
    rw [Finset.sum_congr rfl (g := fun _ => (g.inc w).length) (fun v hvm => by rw [(Finset.mem_filter.1 hvm).2]),
      Finset.sum_const, hfib w hw, smul_eq_mul]
  refine ⟨cs, m, h1, h2, hm2, ?_, hVm, ?_⟩
  · rw [h6] at hVm
    exact Nat.eq_of_mul_eq_mul_left h3 hVm
  · have : 2 * (Graph.new raw).edges.length = 2 * (m * g.edges.length) := by rw [hsum]; ring
    omega

end

/-! ## Witnesses -/

theorem hcb_noLoops : NoLoops hcbEx := by
  unfold NoLoops; decide

theorem hcb_isStable : isStableIn hcbTb (Graph.new hcbEx) = .ok true := by decide +kernel

example := C91_stable_locally_stable hcbEx hcbTb hcbPos hcb_places hcb_noLoops hcb_isStable
example := C91_stable_collisions hcbEx hcbTb hcbPos hcb_places hcb_isStable
example := C91_stable_ladder hcbEx hcbTb hcbPos hcb_places hcb_connected (by decide) hcb_noLoops hcb_zero hcb_isStable
example := C91_locally_stable_no_loops hcbEx hcbTb hcbPos hcb_places (by decide +kernel)
example := C91_ladder_collisions twistEx twistTb twistPos twist_places twist_locallyStable twist_connected (by decide)
  twist_origin (by decide +kernel)
example := C91_degree hcbEx hcb_noLoops 1 ⟨_, List.mem_cons_self, Or.inr rfl⟩
example := C91_degree_sum hcbEx hcb_noLoops
example := C91_orbit_degrees hcbEx hcbTb hcbPos hcb_places hcb_locallyStable hcb_connected (by decide)

example : omap (fun v => (Graph.new hcbEx).coordinationItem v 0) (Graph.new hcbEx).vertices = .ok [3, 3] ∧
    (Graph.new hcbEx).edges.length = 3 := by decide +kernel

example := C91_class_sizes sql2Ex sql2Tb sql2Pos sql2_places sql2_locallyStable sql2_connected (by decide) sql2_small
  sql2_origin sql2_noLadder

/-- the square lattice with a cell of twice the size: two vertices and four edges, in the image one and two -/
example : ∃ g m, minimalImage sql2Tb (Graph.new sql2Ex) = .ok (some g) ∧ 2 ≤ m ∧ 2 = m * g.vertices.length ∧
    4 = m * g.edges.length := by
  obtain ⟨g, h1⟩ : ∃ g, minimalImage sql2Tb (Graph.new sql2Ex) = .ok (some g) := by
    rcases C42_minimal_image_partial sql2Ex sql2Tb sql2Pos sql2_places sql2_locallyStable sql2_connected (by decide)
      sql2_small sql2_origin sql2_noLadder with ⟨h, -⟩ | ⟨-, ⟨h, h1, -⟩ | h⟩
    · exact absurd h sql2_notFull
    · exact ⟨h, h1⟩
    · have h0 : (minimalImage sql2Tb (Graph.new sql2Ex) >>= fun g => Outcome.ok g.isSome) = .ok true := by decide +kernel
      rw [h] at h0; cases h0
  obtain ⟨cs, m, -, -, h2, -, h3, h4⟩ := C91_minimal_image_counts sql2Ex sql2Tb sql2Pos sql2_places sql2_locallyStable
    sql2_connected (by decide) sql2_small sql2_origin sql2_noLadder g h1
  have h5 : (Graph.new sql2Ex).vertices.length = 2 ∧ (Graph.new sql2Ex).edges.length = 4 := by decide +kernel
  exact ⟨g, m, h1, h2, by rw [← h3, h5.1], by rw [← h4, h5.2]⟩

/-- the square lattice with a loop at each vertex -/
def loopEx : List (Edge V2) := [⟨1, 1, ⟨0, 0⟩⟩, ⟨1, 1, ⟨1, 0⟩⟩, ⟨1, 1, ⟨0, 1⟩⟩]
def loopTb : Outcome PosTable := .ok [(1, [0, 0])]

/-- C91: the hypothesis of `C91_stable_locally_stable` and of `C91_degree` that there are no loops is needed: this
graph is stable but not locally stable; its vertex has six incidences, but only four neighbours. The converses fail,
too: the ladder `twistEx` is locally stable but not stable. -/
theorem C91_loops_needed :
    isStableIn loopTb (Graph.new loopEx) = .ok true ∧ isLocallyStableIn loopTb (Graph.new loopEx) = .ok false ∧
    ((Graph.new loopEx).incidences 1 >>= fun es => Outcome.ok es.length) = .ok 6 ∧
    (Graph.new loopEx).coordinationItem 1 0 = .ok 4 ∧
    isLocallyStableIn twistTb (Graph.new twistEx) = .ok true ∧ isStableIn twistTb (Graph.new twistEx) = .ok false := by
  decide +kernel

example : Places loopTb (Graph.new loopEx) (fun _ => ![0, 0]) := by
  have hv : (Graph.new loopEx).vertices = [1] := by decide +kernel
  intro v h
  rw [hv] at h
  simp only [List.mem_cons, List.not_mem_nil, or_false] at h
  subst h
  decide +kernel

end Systre
