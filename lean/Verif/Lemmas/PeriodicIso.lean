import Verif.Lemmas.InfiniteIso
import Verif.Spec.Isomorphism
import Verif.Props.Translations

/-! # Isomorphic periodic graphs -/

set_option linter.unusedSectionVars false

namespace Systre
section
variable {T : Type} [LabelVector T] [LawfulLabelVector T]

/-- the image of an edge -/
def isoEdge (vm : Nat → Nat) (L : T ≃+ T) (c : Nat → T) (e : Edge T) : Edge T :=
  ⟨vm e.head, vm e.tail, L (c e.head + e.shift - c e.tail)⟩

theorem isoEdge_neg (vm : Nat → Nat) (L : T ≃+ T) (c : Nat → T) (e : Edge T) :
    isoEdge vm L c e.neg = (isoEdge vm L c e).neg := by
  ext
  · rfl
  · rfl
  · show L (c e.tail + -e.shift - c e.head) = - L (c e.head + e.shift - c e.tail)
    rw [← map_neg]; congr 1; abel

variable {raw raw' : List (Edge T)} {vm : Nat → Nat} {L : T ≃+ T} {c : Nat → T}

theorem isVertex_head {e : Edge T} (h : IsDirected raw e) : IsVertex raw e.head := (isVertex_iff _ _).2 ⟨e, h, rfl⟩
theorem isVertex_tail {e : Edge T} (h : IsDirected raw e) : IsVertex raw e.tail :=
  (isVertex_iff _ _).2 ⟨e.neg, isDirected_neg.2 h, rfl⟩

theorem IsPeriodicIso.directed (h : IsPeriodicIso raw raw' vm L c) (f : Edge T) :
    IsDirected raw' f ↔ ∃ e, IsDirected raw e ∧ f = isoEdge vm L c e := h.edges f

theorem IsPeriodicIso.edge_inj (h : IsPeriodicIso raw raw' vm L c) {e f : Edge T} (he : IsDirected raw e)
    (hf : IsDirected raw f) (hef : isoEdge vm L c e = isoEdge vm L c f) : e = f := by
  simp only [isoEdge, Edge.mk.injEq] at hef
  obtain ⟨h1, h2, h3⟩ := hef
  have h1 := h.inj (isVertex_head he) (isVertex_head hf) h1
  have h2 := h.inj (isVertex_tail he) (isVertex_tail hf) h2
  have h3 := L.injective h3
  rw [h1, h2] at h3
  ext
  · exact h1
  · exact h2
  · have : c f.head + e.shift = c f.head + f.shift := sub_left_inj.1 h3
    exact add_left_cancel this

theorem IsPeriodicIso.isVertex (h : IsPeriodicIso raw raw' vm L c) (w : Nat) :
    IsVertex raw' w ↔ ∃ v, IsVertex raw v ∧ w = vm v := by
  rw [isVertex_iff]
  constructor
  · rintro ⟨f, hf, rfl⟩
    obtain ⟨e, he, rfl⟩ := (h.directed _).1 hf
    exact ⟨e.head, isVertex_head he, rfl⟩
  · rintro ⟨v, hv, rfl⟩
    obtain ⟨e, he, rfl⟩ := (isVertex_iff _ _).1 hv
    exact ⟨_, (h.directed _).2 ⟨e, he, rfl⟩, rfl⟩

theorem IsPeriodicIso.vertex (h : IsPeriodicIso raw raw' vm L c) {v : Nat} (hv : IsVertex raw v) :
    IsVertex raw' (vm v) := (h.isVertex _).2 ⟨v, hv, rfl⟩

theorem isPeriodicIso_map (h : ∀ a, IsVertex raw a → ∀ b, IsVertex raw b → vm a = vm b → a = b)
    (hr : Graph.new raw' = Graph.new (raw.map (isoEdge vm L c))) : IsPeriodicIso raw raw' vm L c := by
  refine ⟨fun a ha b hb hab => h a ha b hb hab, fun f => ?_⟩
  rw [((C26_normal_form _ _).2.2).1 hr, isDirected_iff]
  constructor
  · rintro (h | h)
    · obtain ⟨e, he, rfl⟩ := List.mem_map.1 h
      exact ⟨e, Or.inl he, rfl⟩
    · obtain ⟨e, he, h1⟩ := List.mem_map.1 h
      refine ⟨e.neg, isDirected_neg.2 (Or.inl he), ?_⟩
      show f = isoEdge vm L c e.neg
      rw [isoEdge_neg, h1, Edge.neg_neg]
  · rintro ⟨e, he, rfl⟩
    rcases (isDirected_iff _ _).1 he with h | h
    · exact Or.inl (List.mem_map.2 ⟨e, h, rfl⟩)
    · exact Or.inr (List.mem_map.2 ⟨e.neg, h, isoEdge_neg _ _ _ e⟩)

/-- the other direction -/
theorem IsPeriodicIso.symm (h : IsPeriodicIso raw raw' vm L c) :
    ∃ vm', (∀ v, IsVertex raw v → vm' (vm v) = v) ∧ (∀ w, IsVertex raw' w → vm (vm' w) = w) ∧
      IsPeriodicIso raw' raw vm' L.symm (fun w => - L (c (vm' w))) := by
  classical
  let vm' : Nat → Nat := fun w => if hw : ∃ v, IsVertex raw v ∧ w = vm v then hw.choose else w
  have h1 : ∀ v, IsVertex raw v → vm' (vm v) = v := by
    intro v hv
    have hw : ∃ u, IsVertex raw u ∧ vm v = vm u := ⟨v, hv, rfl⟩
    show (if hw : ∃ u, IsVertex raw u ∧ vm v = vm u then hw.choose else vm v) = v
    rw [dif_pos hw]
    exact (h.inj hv hw.choose_spec.1 hw.choose_spec.2).symm
  refine ⟨vm', h1, ?_, ?_, ?_⟩
  · intro w hw
    obtain ⟨v, hv, rfl⟩ := (h.isVertex w).1 hw
    rw [h1 v hv]
  · intro a ha b hb hab
    obtain ⟨v, hv, rfl⟩ := (h.isVertex a).1 ha
    obtain ⟨w, hw, rfl⟩ := (h.isVertex b).1 hb
    rw [h1 v hv, h1 w hw] at hab
    rw [hab]
  · have key : ∀ e, IsDirected raw e →
        (⟨vm' (isoEdge vm L c e).head, vm' (isoEdge vm L c e).tail,
          L.symm (- L (c (vm' (isoEdge vm L c e).head)) + (isoEdge vm L c e).shift -
            - L (c (vm' (isoEdge vm L c e).tail)))⟩ : Edge T) = e := by
      intro e he
      have hh : vm' (vm e.head) = e.head := h1 _ (isVertex_head he)
      have ht : vm' (vm e.tail) = e.tail := h1 _ (isVertex_tail he)
      ext
      · exact hh
      · exact ht
      · show L.symm (- L (c (vm' (vm e.head))) + L (c e.head + e.shift - c e.tail) - - L (c (vm' (vm e.tail)))) = _
        rw [hh, ht, ← map_neg, ← map_neg, ← map_add, ← map_sub, AddEquiv.symm_apply_apply]
        abel
    intro e
    constructor
    · intro he
      exact ⟨_, (h.directed _).2 ⟨e, he, rfl⟩, (key e he).symm⟩
    · rintro ⟨f, hf, rfl⟩
      obtain ⟨e, he, rfl⟩ := (h.directed _).1 hf
      rw [key e he]; exact he

theorem IsPeriodicIso.vertices_perm (h : IsPeriodicIso raw raw' vm L c) :
    (Graph.new raw').vertices.Perm ((Graph.new raw).vertices.map vm) := by
  refine (List.perm_ext_iff_of_nodup (Graph.vertices_nodup _) ?_).2 (fun w => ?_)
  · refine (List.nodup_map_iff_inj_on (Graph.vertices_nodup _)).2 (fun v hv w hw hvw => ?_)
    rw [Graph.mem_vertices, isVertex_new] at hv hw
    exact h.inj hv hw hvw
  · rw [Graph.mem_vertices, isVertex_new, h.isVertex, List.mem_map]
    constructor
    · rintro ⟨v, hv, rfl⟩
      exact ⟨v, (Graph.mem_vertices _ _).2 ((isVertex_new _ _).2 hv), rfl⟩
    · rintro ⟨v, hv, rfl⟩
      exact ⟨v, (isVertex_new _ _).1 ((Graph.mem_vertices _ _).1 hv), rfl⟩

/-! ### the infinite graphs -/

theorem IsPeriodicIso.infinite (h : IsPeriodicIso raw raw' vm L c) :
    IsInfiniteIso raw raw' (fun x => (vm x.1, L (x.2 - c x.1))) := by
  refine ⟨⟨fun x hx => h.vertex hx, fun x hx y hy hxy => ?_, fun y hy => ?_⟩, fun x y hx hy => ?_⟩
  · simp only [Prod.mk.injEq] at hxy
    have h1 := h.inj hx hy hxy.1
    refine Prod.ext h1 ?_
    have h2 := L.injective hxy.2
    rw [h1] at h2
    exact sub_left_inj.1 h2
  · obtain ⟨v, hv, h1⟩ := (h.isVertex _).1 hy
    refine ⟨(v, L.symm y.2 + c v), hv, ?_⟩
    simp only [add_sub_cancel_right, AddEquiv.apply_symm_apply]
    exact Prod.ext h1.symm rfl
  · unfold Adj
    constructor
    · rintro ⟨f, h1, h2, h3, h4⟩
      obtain ⟨e, he, rfl⟩ := (h.directed f).1 h1
      have h2 : e.head = x.1 := h.inj (isVertex_head he) hx h2
      have h3 : e.tail = y.1 := h.inj (isVertex_tail he) hy h3
      refine ⟨e, he, h2, h3, ?_⟩
      have h4 : L (x.2 - c x.1) + L (c e.head + e.shift - c e.tail) = L (y.2 - c y.1) := h4
      rw [← map_add] at h4
      have h4 := L.injective h4
      rw [h2, h3] at h4
      have : x.2 + e.shift - c y.1 = y.2 - c y.1 := by rw [← h4]; abel
      exact sub_left_inj.1 this
    · rintro ⟨e, he, h2, h3, h4⟩
      refine ⟨_, (h.directed _).2 ⟨e, he, rfl⟩, congrArg vm h2, congrArg vm h3, ?_⟩
      show L (x.2 - c x.1) + L (c e.head + e.shift - c e.tail) = L (y.2 - c y.1)
      rw [← map_add, h2, h3, ← h4]
      congr 1; abel

theorem IsInfiniteIso.joined {raw raw' : List (Edge T)} {Φ : Nat × T → Nat × T} (h : IsInfiniteIso raw raw' Φ)
    {x y : Nat × T} (hx : IsVertex raw x.1) (hy : IsVertex raw y.1) :
    Joined raw' (Φ x) (Φ y) ↔ Joined raw x y := by
  constructor
  · intro hj
    have key : ∀ z, Joined raw' (Φ x) z → ∃ u, IsVertex raw u.1 ∧ Φ u = z ∧ Joined raw x u := by
      intro z hz
      induction hz with
      | refl => exact ⟨x, hx, rfl, Relation.ReflTransGen.refl⟩
      | tail h1 h2 ih =>
        obtain ⟨u, hu, rfl, hxu⟩ := ih
        obtain ⟨w, hw, rfl⟩ := h.1.surjOn (adj_isVertex h2).2
        exact ⟨w, hw, rfl, hxu.tail ((h.2 u w hu hw).1 h2)⟩
    obtain ⟨u, hu, h1, h2⟩ := key _ hj
    rwa [h.1.injOn hu hy h1] at h2
  · intro hj
    induction hj with
    | refl => exact Relation.ReflTransGen.refl
    | tail h1 h2 ih =>
      have hb := (adj_isVertex h2).1
      exact (ih hb).tail ((h.2 _ _ hb hy).2 h2)

theorem IsPeriodicIso.connected (h : IsPeriodicIso raw raw' vm L c) :
    PeriodicConnected raw' ↔ PeriodicConnected raw := by
  have key : ∀ {raw raw' : List (Edge T)} {vm L} {c : Nat → T}, IsPeriodicIso raw raw' vm L c →
      PeriodicConnected raw → PeriodicConnected raw' := by
    intro raw raw' vm L c h hc a b ha hb s t
    obtain ⟨v, hv, rfl⟩ := (h.isVertex a).1 ha
    obtain ⟨w, hw, rfl⟩ := (h.isVertex b).1 hb
    have := (h.infinite.joined (x := (v, L.symm s + c v)) (y := (w, L.symm t + c w)) hv hw).2 (hc _ _ hv hw _ _)
    simpa using this
  refine ⟨fun hc => ?_, key h⟩
  obtain ⟨vm', -, -, h'⟩ := h.symm
  exact key h' hc

theorem IsPeriodicIso.cycleLattice (h : IsPeriodicIso raw raw' vm L c) {v : Nat} (hv : IsVertex raw v) :
    cycleLattice raw' (vm v) = (cycleLattice raw v).map L.toAddMonoidHom := by
  ext t
  rw [mem_cycleLattice, AddSubgroup.mem_map]
  have h1 := fun t => h.infinite.joined (x := (v, c v)) (y := (v, t + c v)) hv hv
  simp only [sub_self, map_zero, add_sub_cancel_right] at h1
  have h2 := fun t => (translate_iso raw (c v)).joined (x := (v, 0)) (y := (v, t)) hv hv
  simp only [zero_add] at h2
  constructor
  · intro hj
    refine ⟨L.symm t, mem_cycleLattice.2 ?_, L.apply_symm_apply t⟩
    rw [← h2, ← h1, L.apply_symm_apply]; exact hj
  · rintro ⟨s, hs, rfl⟩
    rw [mem_cycleLattice, ← h2, ← h1] at hs
    exact hs

theorem IsPeriodicIso.qjoined (h : IsPeriodicIso raw raw' vm L c) {v : Nat} (hv : IsVertex raw v) :
    {w | QJoined raw' (vm v) w} = vm '' {w | QJoined raw v w} ∧ {w | QJoined raw v w} ⊆ {w | IsVertex raw w} := by
  have hsub : {w | QJoined raw v w} ⊆ {w | IsVertex raw w} := by
    intro w hw
    induction hw with
    | refl => exact hv
    | tail h1 h2 ih => obtain ⟨e, he, -, rfl⟩ := h2; exact isVertex_tail he
  refine ⟨?_, hsub⟩
  ext w
  constructor
  · intro hw
    replace hw : QJoined raw' (vm v) w := hw
    induction hw with
    | refl => exact ⟨v, Relation.ReflTransGen.refl, rfl⟩
    | tail h1 h2 ih =>
      obtain ⟨u, hu, rfl⟩ := ih
      obtain ⟨f, hf, h3, rfl⟩ := h2
      obtain ⟨e, he, rfl⟩ := (h.directed f).1 hf
      have := h.inj (isVertex_head he) (hsub hu) h3
      exact ⟨e.tail, Relation.ReflTransGen.tail hu ⟨e, he, this, rfl⟩, rfl⟩
  · rintro ⟨u, hu, rfl⟩
    replace hu : QJoined raw v u := hu
    induction hu with
    | refl => exact Relation.ReflTransGen.refl
    | tail h1 h2 ih =>
      obtain ⟨e, he, rfl, rfl⟩ := h2
      exact Relation.ReflTransGen.tail ih ⟨_, (h.directed _).2 ⟨e, he, rfl⟩, rfl, rfl⟩

theorem IsPeriodicIso.measures (h : IsPeriodicIso raw raw' vm L c) {v : Nat} (hv : IsVertex raw v) :
    componentMeasures (Graph.new raw') (vm v) = componentMeasures (Graph.new raw) v := by
  rw [C31_component_measures raw v hv, C31_component_measures raw' (vm v) (h.vertex hv), h.cycleLattice hv]
  obtain ⟨h1, h2⟩ := h.qjoined hv
  rw [h1, Set.ncard_image_of_injOn (h.inj.mono h2)]
  have h3 : Module.finrank ℤ (AddSubgroup.toIntSubmodule ((Systre.cycleLattice raw v).map L.toAddMonoidHom)) =
      Module.finrank ℤ (AddSubgroup.toIntSubmodule (Systre.cycleLattice raw v)) :=
    (((L.addSubgroupMap (Systre.cycleLattice raw v)).toIntLinearEquiv).finrank_eq).symm
  have h4 : ((Systre.cycleLattice raw v).map L.toAddMonoidHom).index = (Systre.cycleLattice raw v).index :=
    AddSubgroup.index_map_equiv _ L
  rw [h3, h4]

theorem IsPeriodicIso.isConnected (h : IsPeriodicIso raw raw' vm L c) :
    (Graph.new raw').isConnected = (Graph.new raw).isConnected := by
  obtain ⟨b, h1, h2⟩ := C32_is_connected raw
  obtain ⟨b', h1', h2'⟩ := C32_is_connected raw'
  rw [h1, h1']
  congr 1
  rw [Bool.eq_iff_iff, h2, h2', h.connected]

/-! ### incidences -/

theorem flatMap_canonical (l : List (Edge T)) :
    ((l.map Edge.canonical).flatMap (fun e => [e, e.neg])).Perm (l.flatMap (fun e => [e, e.neg])) := by
  induction l with
  | nil => exact List.Perm.refl _
  | cons e l ih =>
    simp only [List.map_cons, List.flatMap_cons]
    refine List.Perm.append ?_ ih
    rcases canonical_or e with h | h
    · rw [h]
    · rw [h, Edge.neg_neg]; exact List.Perm.swap _ _ _

theorem IsPeriodicIso.edges_perm (h : IsPeriodicIso raw raw' vm L c) :
    (Graph.new raw').edges.Perm (((Graph.new raw).edges.map (isoEdge vm L c)).map Edge.canonical) := by
  rw [List.map_map]
  refine (List.perm_ext_iff_of_nodup ((wf_new raw').sorted.imp (fun h => ne_of_lt h)) ?_).2 (fun f => ?_)
  · refine (List.nodup_map_iff_inj_on ((wf_new raw).sorted.imp (fun h => ne_of_lt h))).2 (fun e he f hf hef => ?_)
    have he' := (isDirected_new raw e).1 (Or.inl he)
    have hf' := (isDirected_new raw f).1 (Or.inl hf)
    rcases (canonical_eq_iff _ _).1 hef with h1 | h1
    · exact h.edge_inj he' hf' h1
    · rw [← isoEdge_neg] at h1
      have := h.edge_inj he' (isDirected_neg.2 hf') h1
      rw [← (wf_new raw).canon e he, ← (wf_new raw).canon f hf, this, canonical_neg]
  · rw [List.mem_map]
    constructor
    · intro hf
      obtain ⟨e, he, h1⟩ := (h.directed f).1 ((isDirected_new raw' f).1 (Or.inl hf))
      have h2 := (isDirected_new raw e).2 he
      refine ⟨e.canonical, Graph.canon_mem (wf_new raw) h2, ?_⟩
      simp only [Function.comp_apply]
      have h3 : (isoEdge vm L c e.canonical).canonical = (isoEdge vm L c e).canonical := by
        rcases canonical_or e with h | h
        · rw [h]
        · rw [h, isoEdge_neg, canonical_neg]
      rw [h3, ← h1, (wf_new raw').canon f hf]
    · rintro ⟨e, he, rfl⟩
      have he' := (isDirected_new raw e).1 (Or.inl he)
      exact Graph.canon_mem (wf_new raw') ((isDirected_new raw' _).2 ((h.directed _).2 ⟨e, he', rfl⟩))

theorem IsPeriodicIso.inc_perm (h : IsPeriodicIso raw raw' vm L c) {v : Nat} (hv : IsVertex raw v) :
    ((Graph.new raw').inc (vm v)).Perm (((Graph.new raw).inc v).map (isoEdge vm L c)) := by
  unfold Graph.inc
  have h1 := ((h.edges_perm.flatMap_right (fun e => [e, e.neg])).trans (flatMap_canonical _)).filter
    (fun e => decide (e.head = vm v))
  refine h1.trans (List.Perm.of_eq ?_)
  have h2 : ((Graph.new raw).edges.map (isoEdge vm L c)).flatMap (fun e => [e, e.neg]) =
      ((Graph.new raw).edges.flatMap (fun e => [e, e.neg])).map (isoEdge vm L c) := by
    rw [List.flatMap_map, List.map_flatMap]
    simp only [List.map_cons, List.map_nil, isoEdge_neg]
  rw [h2, List.filter_map]
  congr 1
  apply List.filter_congr
  intro e he
  have he' : IsDirected raw e := by
    rw [← isDirected_new, isDirected_iff]
    simp only [List.mem_flatMap, List.mem_cons, List.not_mem_nil, or_false] at he
    obtain ⟨f, hf, rfl | rfl⟩ := he
    · exact Or.inl hf
    · exact Or.inr (by rwa [Edge.neg_neg])
  rw [Bool.eq_iff_iff]
  simp only [Function.comp_apply, decide_eq_true_eq]
  show vm e.head = vm v ↔ e.head = v
  exact ⟨fun h3 => h.inj (isVertex_head he') hv h3, fun h3 => by rw [h3]⟩

/-! ### the matrix of a change of the lattice basis -/

theorem exists_unit (k : Fin (LabelVector.dim T)) : ∃ t : T, shv t = Pi.single k 1 := by
  obtain ⟨t, ht⟩ := shv_surj (T := T) (Pi.single k 1)
  refine ⟨t, ht.trans ?_⟩
  ext j
  by_cases h : j = k
  · subst h; simp
  · simp [h]

theorem exists_latMat (L : T →+ T) :
    ∃ M : Matrix (Fin (LabelVector.dim T)) (Fin (LabelVector.dim T)) ℚ, ∀ t, shv (L t) = M.mulVec (shv t) := by
  classical
  choose u hu using exists_unit (T := T)
  let S : T →+ (Fin (LabelVector.dim T) → ℚ) := ⟨⟨shv, shv_zero⟩, shv_add⟩
  refine ⟨Matrix.of (fun i k => shv (L (u k)) i), fun t => ?_⟩
  have ht : t = ∑ k, (rent (LabelVector.toVec t) k.1 : ℤ) • u k := by
    apply shv_inj
    show shv t = S _
    rw [map_sum]
    simp only [map_zsmul]
    ext j
    rw [Finset.sum_apply]
    have : ∀ k, ((rent (LabelVector.toVec t) k.1 : ℤ) • S (u k)) j =
        if k = j then ((rent (LabelVector.toVec t) j.1 : ℤ) : ℚ) else 0 := by
      intro k
      show ((rent (LabelVector.toVec t) k.1 : ℤ) • shv (u k)) j = _
      rw [hu]
      by_cases h : k = j
      · subst h; simp
      · simp [h, Ne.symm h]
    simp only [this, Finset.sum_ite_eq', Finset.mem_univ, if_true]
    rfl
  conv_lhs => rw [ht]
  show S (L _) = _
  rw [map_sum, map_sum]
  simp only [map_zsmul]
  ext i
  rw [Finset.sum_apply]
  simp only [Matrix.mulVec, dotProduct, Matrix.of_apply]
  refine Finset.sum_congr rfl (fun k _ => ?_)
  show ((rent (LabelVector.toVec t) k.1 : ℤ) • shv (L (u k))) i = shv (L (u k)) i * shv t k
  simp only [Pi.smul_apply, zsmul_eq_mul, shv]
  ring

theorem mat_ext_shv {M N : Matrix (Fin (LabelVector.dim T)) (Fin (LabelVector.dim T)) ℚ}
    (h : ∀ t : T, M.mulVec (shv t) = N.mulVec (shv t)) : M = N := by
  ext i k
  obtain ⟨t, ht⟩ := exists_unit (T := T) k
  have := congrFun (h t) i
  rw [ht] at this
  simpa using this

theorem exists_latMat_unit (L : T ≃+ T) :
    ∃ M N : Matrix (Fin (LabelVector.dim T)) (Fin (LabelVector.dim T)) ℚ, M * N = 1 ∧ N * M = 1 ∧
      (∀ t, shv (L t) = M.mulVec (shv t)) ∧ ∀ t, shv (L.symm t) = N.mulVec (shv t) := by
  obtain ⟨M, hM⟩ := exists_latMat L.toAddMonoidHom
  obtain ⟨N, hN⟩ := exists_latMat L.symm.toAddMonoidHom
  have hM : ∀ t, shv (L t) = M.mulVec (shv t) := hM
  have hN : ∀ t, shv (L.symm t) = N.mulVec (shv t) := hN
  refine ⟨M, N, mat_ext_shv (fun t => ?_), mat_ext_shv (fun t => ?_), hM, hN⟩
  · rw [← Matrix.mulVec_mulVec, ← hN, ← hM, L.apply_symm_apply, Matrix.one_mulVec]
  · rw [← Matrix.mulVec_mulVec, ← hM, ← hN, L.symm_apply_apply, Matrix.one_mulVec]

/-! ### placements -/

theorem sum_mulVec (M : Matrix (Fin (LabelVector.dim T)) (Fin (LabelVector.dim T)) ℚ)
    (f : Edge T → Fin (LabelVector.dim T) → ℚ) (l : List (Edge T)) (k : Fin (LabelVector.dim T)) :
    (l.map (fun e => (M.mulVec (f e)) k)).sum = (M.mulVec (fun j => (l.map (fun e => f e j)).sum)) k := by
  induction l with
  | nil => simp [Matrix.mulVec, dotProduct]
  | cons e l ih =>
    simp only [List.map_cons, List.sum_cons]
    rw [ih]
    have : (fun j => f e j + (l.map (fun e => f e j)).sum) = f e + fun j => (l.map (fun e => f e j)).sum := rfl
    rw [this, Matrix.mulVec_add]; rfl

theorem edgeVec_add_const (pos : Nat → Fin (LabelVector.dim T) → ℚ) (a : Fin (LabelVector.dim T) → ℚ) (e : Edge T) :
    edgeVec (fun v => pos v + a) e = edgeVec pos e := by
  rw [edgeVec_eq_shv, edgeVec_eq_shv]; abel

theorem barycentric_add_const {g : Graph T} {pos : Nat → Fin (LabelVector.dim T) → ℚ} (a : Fin (LabelVector.dim T) → ℚ)
    (hb : IsBarycentric g.edges g.vertices pos) : IsBarycentric g.edges g.vertices (fun v => pos v + a) := by
  rw [isBarycentric_iff] at hb ⊢
  intro v hv k
  simp only [edgeVec_add_const]
  exact hb v hv k

/-- a barycentric placement is determined up to a translation -/
theorem barycentric_unique' (g : Graph T) (hc : QuotientConnected g.edges)
    {pos pos' : Nat → Fin (LabelVector.dim T) → ℚ} (hb : IsBarycentric g.edges g.vertices pos)
    (hb' : IsBarycentric g.edges g.vertices pos') : ∃ a, ∀ v ∈ g.vertices, pos' v = pos v + a := by
  by_cases hne : g.vertices = []
  · exact ⟨0, fun v hv => by rw [hne] at hv; simp at hv⟩
  · refine ⟨pos' (g.vertices.head hne) - pos (g.vertices.head hne), fun v hv => ?_⟩
    have := barycentric_unique g hc hne (barycentric_add_const (-pos (g.vertices.head hne)) hb)
      (barycentric_add_const (-pos' (g.vertices.head hne)) hb') (fun k => by simp) (fun k => by simp) v hv
    have h2 : pos' v = pos' v + -pos' (g.vertices.head hne) + pos' (g.vertices.head hne) := by abel
    rw [h2, this]; abel

theorem IsPeriodicIso.quotient (h : IsPeriodicIso raw raw' vm L c) (hc : QuotientConnected raw) :
    QuotientConnected raw' := by
  intro a b ha hb
  obtain ⟨v, hv, rfl⟩ := (h.isVertex a).1 ha
  obtain ⟨w, hw, rfl⟩ := (h.isVertex b).1 hb
  have : vm w ∈ {u | QJoined raw' (vm v) u} := by
    rw [(h.qjoined hv).1]; exact ⟨w, hc v w hv hw, rfl⟩
  exact this

/-- the placement of the other graph -/
theorem IsPeriodicIso.edgeVec (M : Matrix (Fin (LabelVector.dim T)) (Fin (LabelVector.dim T)) ℚ)
    (hM : ∀ t, shv (L t) = M.mulVec (shv t)) {pos pos' : Nat → Fin (LabelVector.dim T) → ℚ}
    {a : Fin (LabelVector.dim T) → ℚ}
    (hp : ∀ v, IsVertex raw v → pos' (vm v) = M.mulVec (pos v + shv (c v)) + a) {e : Edge T} (he : IsDirected raw e) :
    edgeVec pos' (isoEdge vm L c e) = M.mulVec (edgeVec pos e) := by
  rw [edgeVec_eq_shv, edgeVec_eq_shv]
  show pos' (vm e.tail) + shv (L (c e.head + e.shift - c e.tail)) - pos' (vm e.head) = _
  rw [hp _ (isVertex_tail he), hp _ (isVertex_head he), hM, shv_sub, shv_add]
  simp only [Matrix.mulVec_add, Matrix.mulVec_sub]
  abel

theorem IsPeriodicIso.positions (h : IsPeriodicIso raw raw' vm L c) (hc : QuotientConnected raw)
    {M : Matrix (Fin (LabelVector.dim T)) (Fin (LabelVector.dim T)) ℚ}
    (hM : ∀ t, shv (L t) = M.mulVec (shv t))
    {pos pos' : Nat → Fin (LabelVector.dim T) → ℚ}
    (hb : IsBarycentric (Graph.new raw).edges (Graph.new raw).vertices pos)
    (hb' : IsBarycentric (Graph.new raw').edges (Graph.new raw').vertices pos') :
    ∃ a, ∀ v, IsVertex raw v → pos' (vm v) = M.mulVec (pos v + shv (c v)) + a := by
  obtain ⟨vm', h1, h2, -⟩ := h.symm
  let q : Nat → Fin (LabelVector.dim T) → ℚ := fun w => M.mulVec (pos (vm' w) + shv (c (vm' w)))
  have hq : ∀ v, IsVertex raw v → q (vm v) = M.mulVec (pos v + shv (c v)) := by
    intro v hv
    show M.mulVec (pos (vm' (vm v)) + shv (c (vm' (vm v)))) = _
    rw [h1 v hv]
  have hbq : IsBarycentric (Graph.new raw').edges (Graph.new raw').vertices q := by
    rw [isBarycentric_iff] at hb ⊢
    intro w hw k
    rw [Graph.mem_vertices, isVertex_new] at hw
    obtain ⟨v, hv, rfl⟩ := (h.isVertex w).1 hw
    rw [((h.inc_perm hv).map _).sum_eq, List.map_map]
    have h3 : ((Graph.new raw).inc v).map ((fun e => Systre.edgeVec q e k) ∘ isoEdge vm L c) =
        ((Graph.new raw).inc v).map (fun e => (M.mulVec (Systre.edgeVec pos e)) k) := by
      apply List.map_congr_left
      intro e he
      have he' := (isDirected_new raw e).1 (((Graph.new raw).mem_inc _ _).1 he).1
      simp only [Function.comp_apply]
      rw [IsPeriodicIso.edgeVec (a := 0) M hM (fun v hv => by rw [hq v hv, add_zero]) he']
    rw [h3, sum_mulVec]
    have h4 : (fun j => (((Graph.new raw).inc v).map (fun e => Systre.edgeVec pos e j)).sum) = 0 := by
      funext j
      exact hb v (((Graph.new raw).mem_vertices v).2 ((isVertex_new _ _).2 hv)) j
    rw [h4, Matrix.mulVec_zero]; rfl
  obtain ⟨a, ha⟩ := barycentric_unique' (Graph.new raw') (quotientConnected_new.2 (h.quotient hc)) hbq hb'
  refine ⟨a, fun v hv => ?_⟩
  rw [ha (vm v) (((Graph.new raw').mem_vertices _).2 ((isVertex_new _ _).2 (h.vertex hv))), hq v hv]

theorem IsPeriodicIso.sameMod {M N : Matrix (Fin (LabelVector.dim T)) (Fin (LabelVector.dim T)) ℚ} (hNM : N * M = 1)
    (hM : ∀ t, shv (L t) = M.mulVec (shv t)) (hN : ∀ t, shv (L.symm t) = N.mulVec (shv t))
    {pos pos' : Nat → Fin (LabelVector.dim T) → ℚ} {a : Fin (LabelVector.dim T) → ℚ}
    (hp : ∀ v, IsVertex raw v → pos' (vm v) = M.mulVec (pos v + shv (c v)) + a) {v w : Nat} (hv : IsVertex raw v)
    (hw : IsVertex raw w) : SameModLattice (pos' (vm v)) (pos' (vm w)) ↔ SameModLattice (pos v) (pos w) := by
  rw [hp v hv, hp w hw, sameModLattice_iff (T := T), sameModLattice_iff (T := T)]
  have h1 : M.mulVec (pos v + shv (c v)) + a - (M.mulVec (pos w + shv (c w)) + a) =
      M.mulVec (pos v - pos w + shv (c v - c w)) := by
    rw [shv_sub]
    simp only [Matrix.mulVec_add, Matrix.mulVec_sub]; abel
  rw [h1]
  constructor
  · rintro ⟨t, ht⟩
    refine ⟨L.symm t - (c v - c w), ?_⟩
    rw [shv_sub, hN, ← ht, Matrix.mulVec_mulVec, hNM, Matrix.one_mulVec]; abel
  · rintro ⟨t, ht⟩
    refine ⟨L (t + (c v - c w)), ?_⟩
    rw [hM, shv_add, ← ht]

theorem isoEdge_symm {vm' : Nat → Nat} (h1 : ∀ v, IsVertex raw v → vm' (vm v) = v) {e : Edge T}
    (he : IsDirected raw e) :
    isoEdge vm' L.symm (fun w => - L (c (vm' w))) (isoEdge vm L c e) = e := by
  have hh : vm' (vm e.head) = e.head := h1 _ (isVertex_head he)
  have ht : vm' (vm e.tail) = e.tail := h1 _ (isVertex_tail he)
  ext
  · exact hh
  · exact ht
  · show L.symm (- L (c (vm' (vm e.head))) + L (c e.head + e.shift - c e.tail) - - L (c (vm' (vm e.tail)))) = _
    rw [hh, ht, ← map_neg, ← map_neg, ← map_add, ← map_sub, AddEquiv.symm_apply_apply]
    abel

/-- automorphisms are carried over -/
theorem IsPeriodicIso.graphAut (h : IsPeriodicIso raw raw' vm L c)
    {M N : Matrix (Fin (LabelVector.dim T)) (Fin (LabelVector.dim T)) ℚ} (hNM : N * M = 1)
    (hM : ∀ t, shv (L t) = M.mulVec (shv t))
    {pos pos' : Nat → Fin (LabelVector.dim T) → ℚ} {a : Fin (LabelVector.dim T) → ℚ}
    (hp : ∀ v, IsVertex raw v → pos' (vm v) = M.mulVec (pos v + shv (c v)) + a)
    {γ : Nat → Nat} {em : Edge T → Edge T} {A : Matrix (Fin (LabelVector.dim T)) (Fin (LabelVector.dim T)) ℚ}
    (hA : IsGraphAut raw pos γ em A) {vm' : Nat → Nat} (h1 : ∀ v, IsVertex raw v → vm' (vm v) = v) :
    ∃ em', IsGraphAut raw' pos' (fun w => vm (γ (vm' w))) em' (M * A * N) ∧
      ∀ e, IsDirected raw e → em' (isoEdge vm L c e) = isoEdge vm L c (em e) := by
  let ψ := isoEdge vm L c
  let φ := isoEdge vm' L.symm (fun w => - L (c (vm' w)))
  have hφ : ∀ e, IsDirected raw e → φ (ψ e) = e := fun e he => isoEdge_symm h1 he
  have hem : ∀ e, IsDirected raw e → IsDirected raw (em e) := fun e he => hA.ebij.mapsTo he
  refine ⟨fun f => ψ (em (φ f)), ⟨⟨?_, ?_, ?_⟩, ⟨?_, ?_, ?_⟩, ?_, ?_, ?_, ?_⟩, fun e he => by
    show ψ (em (φ (ψ e))) = ψ (em e)
    rw [hφ e he]⟩
  · intro w hw
    obtain ⟨v, hv, rfl⟩ := (h.isVertex w).1 hw
    show IsVertex raw' (vm (γ (vm' (vm v))))
    rw [h1 v hv]; exact h.vertex (hA.vbij.mapsTo hv)
  · intro w hw u hu hwu
    obtain ⟨v, hv, rfl⟩ := (h.isVertex w).1 hw
    obtain ⟨x, hx, rfl⟩ := (h.isVertex u).1 hu
    have hwu : vm (γ (vm' (vm v))) = vm (γ (vm' (vm x))) := hwu
    rw [h1 v hv, h1 x hx] at hwu
    rw [hA.vbij.injOn hv hx (h.inj (hA.vbij.mapsTo hv) (hA.vbij.mapsTo hx) hwu)]
  · intro w hw
    obtain ⟨v, hv, rfl⟩ := (h.isVertex w).1 hw
    obtain ⟨x, hx, rfl⟩ := hA.vbij.surjOn hv
    refine ⟨vm x, h.vertex hx, ?_⟩
    show vm (γ (vm' (vm x))) = _
    rw [h1 x hx]
  · intro f hf
    obtain ⟨e, he, rfl⟩ := (h.directed f).1 hf
    show IsDirected raw' (ψ (em (φ (ψ e))))
    rw [hφ e he]
    exact (h.directed _).2 ⟨_, hem e he, rfl⟩
  · intro f hf f2 hf2 hff
    obtain ⟨e, he, rfl⟩ := (h.directed f).1 hf
    obtain ⟨e2, he2, rfl⟩ := (h.directed f2).1 hf2
    have hff : ψ (em (φ (ψ e))) = ψ (em (φ (ψ e2))) := hff
    rw [hφ e he, hφ e2 he2] at hff
    rw [hA.ebij.injOn he he2 (h.edge_inj (hem e he) (hem e2 he2) hff)]
  · intro f hf
    obtain ⟨e, he, rfl⟩ := (h.directed f).1 hf
    obtain ⟨e2, he2, rfl⟩ := hA.ebij.surjOn he
    refine ⟨ψ e2, (h.directed _).2 ⟨_, he2, rfl⟩, ?_⟩
    show ψ (em (φ (ψ e2))) = _
    rw [hφ e2 he2]
  · intro f hf
    obtain ⟨e, he, rfl⟩ := (h.directed f).1 hf
    show (ψ (em (φ (ψ e)))).head = vm (γ (vm' (vm e.head)))
    rw [hφ e he, h1 _ (isVertex_head he)]
    show vm (em e).head = _
    rw [hA.head e he]
  · intro f hf
    obtain ⟨e, he, rfl⟩ := (h.directed f).1 hf
    show (ψ (em (φ (ψ e)))).tail = vm (γ (vm' (vm e.tail)))
    rw [hφ e he, h1 _ (isVertex_tail he)]
    show vm (em e).tail = _
    rw [hA.tail e he]
  · intro f hf
    obtain ⟨e, he, rfl⟩ := (h.directed f).1 hf
    show ψ (em (φ (ψ e).neg)) = (ψ (em (φ (ψ e)))).neg
    have h2 : (ψ e).neg = ψ e.neg := (isoEdge_neg vm L c e).symm
    rw [h2, hφ e he, hφ e.neg (isDirected_neg.2 he)]
    show ψ (em ⟨e.tail, e.head, -e.shift⟩) = _
    rw [hA.rev e he]
    exact isoEdge_neg vm L c (em e)
  · intro f hf
    obtain ⟨e, he, rfl⟩ := (h.directed f).1 hf
    show Systre.edgeVec pos' (ψ (em (φ (ψ e)))) = (M * A * N).mulVec (Systre.edgeVec pos' (ψ e))
    rw [hφ e he, IsPeriodicIso.edgeVec M hM hp (hem e he), IsPeriodicIso.edgeVec M hM hp he, hA.vec e he,
      Matrix.mulVec_mulVec, Matrix.mulVec_mulVec, Matrix.mul_assoc, hNM, Matrix.mul_one]

/-- the relation of the placements in the other direction -/
theorem positions_symm {M N : Matrix (Fin (LabelVector.dim T)) (Fin (LabelVector.dim T)) ℚ} (hNM : N * M = 1)
    (h : IsPeriodicIso raw raw' vm L c)
    (hM : ∀ t, shv (L t) = M.mulVec (shv t))
    {pos pos' : Nat → Fin (LabelVector.dim T) → ℚ} {a : Fin (LabelVector.dim T) → ℚ}
    (hp : ∀ v, IsVertex raw v → pos' (vm v) = M.mulVec (pos v + shv (c v)) + a)
    {vm' : Nat → Nat} (h1 : ∀ v, IsVertex raw v → vm' (vm v) = v) :
    ∀ w, IsVertex raw' w → pos (vm' w) = N.mulVec (pos' w + shv (- L (c (vm' w)))) + -N.mulVec a := by
  intro w hw
  obtain ⟨v, hv, rfl⟩ := (h.isVertex w).1 hw
  rw [h1 v hv, hp v hv, shv_neg, hM]
  simp only [Matrix.mulVec_add, Matrix.mulVec_neg, Matrix.mulVec_mulVec, hNM, Matrix.one_mulVec]
  abel

theorem IsPeriodicIso.full (h : IsPeriodicIso raw raw' vm L c)
    {M N : Matrix (Fin (LabelVector.dim T)) (Fin (LabelVector.dim T)) ℚ} (hNM : N * M = 1) (hMN : M * N = 1)
    (hM : ∀ t, shv (L t) = M.mulVec (shv t)) (hN : ∀ t, shv (L.symm t) = N.mulVec (shv t))
    {pos pos' : Nat → Fin (LabelVector.dim T) → ℚ} {a : Fin (LabelVector.dim T) → ℚ}
    (hp : ∀ v, IsVertex raw v → pos' (vm v) = M.mulVec (pos v + shv (c v)) + a) (hf : LatticeIsFull raw pos) :
    LatticeIsFull raw' pos' := by
  obtain ⟨vm', h1, h2, h'⟩ := h.symm
  have hp' := positions_symm hNM h hM hp h1
  rintro γ ⟨em, hγ⟩ w hw
  obtain ⟨v, hv, rfl⟩ := (h.isVertex w).1 hw
  obtain ⟨em', h3, -⟩ := h'.graphAut hMN hN hp' hγ (vm' := vm) h2
  rw [Matrix.mul_one, hNM] at h3
  have h4 := hf _ ⟨em', h3⟩ v hv
  have h5 := h3.vbij.mapsTo hv
  have h6 := (IsPeriodicIso.sameMod hNM hM hN hp h5 hv).2 h4
  rwa [h2 _ (hγ.vbij.mapsTo (h.vertex hv))] at h6

theorem IsPeriodicIso.stable (h : IsPeriodicIso raw raw' vm L c)
    {M N : Matrix (Fin (LabelVector.dim T)) (Fin (LabelVector.dim T)) ℚ} (hNM : N * M = 1)
    (hM : ∀ t, shv (L t) = M.mulVec (shv t))
    {pos pos' : Nat → Fin (LabelVector.dim T) → ℚ} {a : Fin (LabelVector.dim T) → ℚ}
    (hp : ∀ v, IsVertex raw v → pos' (vm v) = M.mulVec (pos v + shv (c v)) + a) (hs : LocallyStable raw pos) :
    LocallyStable raw' pos' := by
  have hinj : Function.Injective M.mulVec := by
    intro x y hxy
    have := congrArg N.mulVec hxy
    simpa [Matrix.mulVec_mulVec, hNM] using this
  constructor
  · intro f f2 hf hf2 hh hv
    obtain ⟨e, he, rfl⟩ := (h.directed f).1 hf
    obtain ⟨e2, he2, rfl⟩ := (h.directed f2).1 hf2
    rw [IsPeriodicIso.edgeVec M hM hp he, IsPeriodicIso.edgeVec M hM hp he2] at hv
    rw [hs.1 e e2 he he2 (h.inj (isVertex_head he) (isVertex_head he2) hh) (hinj hv)]
  · intro f hf hn
    obtain ⟨e, he, rfl⟩ := (h.directed f).1 hf
    have hn : (isoEdge vm L c e).neg = isoEdge vm L c e := hn
    rw [← isoEdge_neg] at hn
    exact hs.2 e he (h.edge_inj (isDirected_neg.2 he) he hn)

/-! ### isomorphisms of the infinite graphs that respect the translations -/

theorem isDirected_iff_adj (raw : List (Edge T)) (e : Edge T) :
    IsDirected raw e ↔ Adj raw (e.head, 0) (e.tail, e.shift) := by
  constructor
  · intro h; exact ⟨e, h, rfl, rfl, by simp⟩
  · rintro ⟨f, hf, h1, h2, h3⟩
    have : f = e := by
      ext
      · exact h1
      · exact h2
      · simpa using h3
    rwa [← this]

theorem adj_translate {raw : List (Edge T)} (a b : Nat) (s t u : T) :
    Adj raw (a, s + u) (b, t + u) ↔ Adj raw (a, s) (b, t) := by
  unfold Adj
  constructor
  · rintro ⟨e, h1, h2, h3, h4⟩
    refine ⟨e, h1, h2, h3, ?_⟩
    have h4 : s + u + e.shift = t + u := h4
    have h5 : s + e.shift + u = t + u := by rw [← h4]; abel
    exact add_right_cancel h5
  · rintro ⟨e, h1, h2, h3, h4⟩
    refine ⟨e, h1, h2, h3, ?_⟩
    simp only at h4 ⊢
    rw [← h4]; abel

/-- an isomorphism of the infinite graphs of this form comes from an isomorphism of the periodic graphs -/
theorem IsInfiniteIso.periodic {Θ : Nat × T → Nat × T} (h : IsInfiniteIso raw raw' Θ)
    (hf : ∀ v, IsVertex raw v → ∀ t, Θ (v, t) = (vm v, L (t - c v))) : IsPeriodicIso raw raw' vm L c := by
  have hv' : ∀ v, IsVertex raw v → IsVertex raw' (vm v) := by
    intro v hv
    have := h.1.mapsTo (show IsVertex raw (v, (0 : T)).1 from hv)
    rw [hf v hv] at this; exact this
  have hadj : ∀ e, IsVertex raw e.head → IsVertex raw e.tail →
      (IsDirected raw' (isoEdge vm L c e) ↔ IsDirected raw e) := by
    intro e h1 h2
    have h3 := h.2 (e.head, c e.head) (e.tail, e.shift + c e.head) h1 h2
    have h4 := adj_translate (raw := raw) e.head e.tail 0 e.shift (c e.head)
    rw [zero_add] at h4
    rw [h4, ← isDirected_iff_adj, hf _ h1, hf _ h2, sub_self, map_zero] at h3
    rw [isDirected_iff_adj, ← h3]
    have : (isoEdge vm L c e).shift = L (e.shift + c e.head - c e.tail) := by
      show L _ = L _
      rw [add_comm e.shift]
    rw [this]; rfl
  refine ⟨fun a ha b hb hab => ?_, fun f => ⟨fun hfd => ?_, ?_⟩⟩
  · have h1 : Θ (a, c a) = Θ (b, c b) := by rw [hf a ha, hf b hb, sub_self, sub_self, hab]
    exact (Prod.mk.injEq _ _ _ _ ▸ h.1.injOn (show IsVertex raw (a, c a).1 from ha) (show IsVertex raw (b, c b).1 from hb) h1).1
  · obtain ⟨⟨v, s⟩, hv, h1⟩ := h.1.surjOn (show IsVertex raw' (f.head, (0 : T)).1 from isVertex_head hfd)
    obtain ⟨⟨w, t⟩, hw, h2⟩ := h.1.surjOn (show IsVertex raw' (f.tail, f.shift).1 from isVertex_tail hfd)
    have hv : IsVertex raw v := hv
    have hw : IsVertex raw w := hw
    rw [hf v hv, Prod.mk.injEq] at h1
    rw [hf w hw, Prod.mk.injEq] at h2
    have hs : s - c v = 0 := L.injective (by rw [h1.2, map_zero])
    have hs : s = c v := sub_eq_zero.1 hs
    have he : f = isoEdge vm L c ⟨v, w, t - c v⟩ := by
      ext
      · exact h1.1.symm
      · exact h2.1.symm
      · show f.shift = L (c v + (t - c v) - c w)
        rw [← h2.2]; congr 1; abel
    rw [he] at hfd ⊢
    exact ⟨_, (hadj _ hv hw).1 hfd, rfl⟩
  · rintro ⟨e, he, rfl⟩
    exact (hadj e (isVertex_head he) (isVertex_tail he)).2 he

/-- the form required above follows from respecting the translations -/
theorem IsInfiniteIso.form {Θ : Nat × T → Nat × T}
    (hf : ∀ v, IsVertex raw v → ∀ s t, Θ (v, s + t) = ((Θ (v, s)).1, (Θ (v, s)).2 + L t)) :
    ∀ v, IsVertex raw v → ∀ t, Θ (v, t) = ((Θ (v, 0)).1, L (t - (- L.symm (Θ (v, 0)).2))) := by
  intro v hv t
  have := hf v hv 0 t
  rw [zero_add] at this
  rw [this]
  congr 1
  rw [sub_neg_eq_add, map_add, L.apply_symm_apply, add_comm]

/-! ### minimal images -/

theorem place_iso {M : Matrix (Fin (LabelVector.dim T)) (Fin (LabelVector.dim T)) ℚ}
    (hM : ∀ t, shv (L t) = M.mulVec (shv t)) {pos pos' : Nat → Fin (LabelVector.dim T) → ℚ}
    {a : Fin (LabelVector.dim T) → ℚ}
    (hp : ∀ v, IsVertex raw v → pos' (vm v) = M.mulVec (pos v + shv (c v)) + a) {x : Nat × T} (hx : IsVertex raw x.1) :
    place pos' (vm x.1, L (x.2 - c x.1)) = M.mulVec (place pos x) + a := by
  unfold place
  rw [hp _ hx, hM, shv_sub]
  simp only [Matrix.mulVec_add, Matrix.mulVec_sub]
  abel

theorem IsPeriodicIso.translation (h : IsPeriodicIso raw raw' vm L c)
    {M N : Matrix (Fin (LabelVector.dim T)) (Fin (LabelVector.dim T)) ℚ} (hNM : N * M = 1) (hMN : M * N = 1)
    (hM : ∀ t, shv (L t) = M.mulVec (shv t))
    {pos pos' : Nat → Fin (LabelVector.dim T) → ℚ} {a : Fin (LabelVector.dim T) → ℚ}
    (hp : ∀ v, IsVertex raw v → pos' (vm v) = M.mulVec (pos v + shv (c v)) + a) {γ : Nat → Nat}
    (hγ : IsTranslation raw pos γ) :
    ∃ γ', IsTranslation raw' pos' γ' ∧ ∀ v, IsVertex raw v → γ' (vm v) = vm (γ v) := by
  obtain ⟨vm', h1, h2, -⟩ := h.symm
  obtain ⟨em, hγ⟩ := hγ
  obtain ⟨em', h3, -⟩ := h.graphAut hNM hM hp hγ h1
  rw [Matrix.mul_one, hMN] at h3
  refine ⟨_, ⟨em', h3⟩, fun v hv => ?_⟩
  show vm (γ (vm' (vm v))) = _
  rw [h1 v hv]

theorem IsPeriodicIso.translation_iff (h : IsPeriodicIso raw raw' vm L c)
    {M N : Matrix (Fin (LabelVector.dim T)) (Fin (LabelVector.dim T)) ℚ} (hNM : N * M = 1) (hMN : M * N = 1)
    (hM : ∀ t, shv (L t) = M.mulVec (shv t)) (hN : ∀ t, shv (L.symm t) = N.mulVec (shv t))
    {pos pos' : Nat → Fin (LabelVector.dim T) → ℚ} {a : Fin (LabelVector.dim T) → ℚ}
    (hp : ∀ v, IsVertex raw v → pos' (vm v) = M.mulVec (pos v + shv (c v)) + a) {v w : Nat} (hv : IsVertex raw v)
    (hw : IsVertex raw w) :
    (∃ γ', IsTranslation raw' pos' γ' ∧ γ' (vm v) = vm w) ↔ ∃ γ, IsTranslation raw pos γ ∧ γ v = w := by
  obtain ⟨vm', h1, h2, h'⟩ := h.symm
  constructor
  · rintro ⟨γ', hγ', h3⟩
    obtain ⟨γ, hγ, h4⟩ := h'.translation hMN hNM hN (positions_symm hNM h hM hp h1) hγ'
    have := h4 (vm v) (h.vertex hv)
    rw [h1 v hv, h3, h1 w hw] at this
    exact ⟨γ, hγ, this⟩
  · rintro ⟨γ, hγ, rfl⟩
    obtain ⟨γ', hγ', h4⟩ := h.translation hNM hMN hM hp hγ
    exact ⟨γ', hγ', h4 v hv⟩

theorem IsPeriodicIso.ladder (h : IsPeriodicIso raw raw' vm L c)
    {M N : Matrix (Fin (LabelVector.dim T)) (Fin (LabelVector.dim T)) ℚ} (hNM : N * M = 1) (hMN : M * N = 1)
    (hM : ∀ t, shv (L t) = M.mulVec (shv t)) (hN : ∀ t, shv (L.symm t) = N.mulVec (shv t))
    {pos pos' : Nat → Fin (LabelVector.dim T) → ℚ} {a : Fin (LabelVector.dim T) → ℚ}
    (hp : ∀ v, IsVertex raw v → pos' (vm v) = M.mulVec (pos v + shv (c v)) + a)
    (hl : ∃ γ, IsLadderTranslation raw' pos' γ) : ∃ γ, IsLadderTranslation raw pos γ := by
  obtain ⟨vm', h1, h2, h'⟩ := h.symm
  obtain ⟨γ', hγ', w, hw, h3, h4⟩ := hl
  have hp' := positions_symm hNM h hM hp h1
  obtain ⟨γ, hγ, h5⟩ := h'.translation hMN hNM hN hp' hγ'
  have hw' : IsVertex raw' (γ' w) := by obtain ⟨em, hem⟩ := hγ'; exact hem.vbij.mapsTo hw
  refine ⟨γ, hγ, vm' w, h'.vertex hw, ?_, ?_⟩
  · rw [h5 w hw]
    exact fun h6 => h3 (h'.inj hw' hw h6)
  · rw [h5 w hw]
    exact (IsPeriodicIso.sameMod (L := L.symm) hMN hN (fun t => by simpa using hM t) hp' hw' hw).2 h4

/-- two descriptions of isomorphic graphs with respect to the lattice of all translations -/
theorem finerForm_iso (h : IsPeriodicIso raw raw' vm L c) (hne : ∃ v, IsVertex raw v)
    {M N : Matrix (Fin (LabelVector.dim T)) (Fin (LabelVector.dim T)) ℚ} (hNM : N * M = 1) (hMN : M * N = 1)
    (hM : ∀ t, shv (L t) = M.mulVec (shv t)) (hN : ∀ t, shv (L.symm t) = N.mulVec (shv t))
    {pos pos' : Nat → Fin (LabelVector.dim T) → ℚ} {a : Fin (LabelVector.dim T) → ℚ}
    (hp : ∀ v, IsVertex raw v → pos' (vm v) = M.mulVec (pos v + shv (c v)) + a) {E E' : List (Edge T)}
    (hE : IsFinerForm raw pos E) (hE' : IsFinerForm raw' pos' E') : AreIsomorphic E E' := by
  classical
  obtain ⟨Φ, b1, b2, b3, C, hC, b4⟩ := hE
  obtain ⟨Φ', d1, d2, d3, C', hC', d4⟩ := hE'
  let Ψ : Nat × T → Nat × T := fun x => (vm x.1, L (x.2 - c x.1))
  have hΨ : IsInfiniteIso raw raw' Ψ := h.infinite
  -- the inverse of `Φ`
  have hsur : ∀ y : Nat × T, ∃ x : Nat × T, IsVertex E y.1 → IsVertex raw x.1 ∧ Φ x = y := by
    intro y
    by_cases hy : IsVertex E y.1
    · obtain ⟨x, hx, h1⟩ := b1.surjOn hy
      exact ⟨x, fun _ => ⟨hx, h1⟩⟩
    · exact ⟨y, fun h => absurd h hy⟩
  choose inv hinv using hsur
  let Θ : Nat × T → Nat × T := fun y => Φ' (Ψ (inv y))
  have hinvΦ : ∀ x, IsVertex raw x.1 → inv (Φ x) = x := by
    intro x hx
    obtain ⟨h1, h2⟩ := hinv (Φ x) (b1.mapsTo hx)
    exact b1.injOn h1 hx h2
  have hΘ : IsInfiniteIso E E' Θ := by
    refine ⟨⟨fun y hy => d1.mapsTo (hΨ.1.mapsTo (hinv y hy).1), fun y hy z hz hyz => ?_, fun z hz => ?_⟩,
      fun y z hy hz => ?_⟩
    · obtain ⟨hy1, hy2⟩ := hinv y hy
      obtain ⟨hz1, hz2⟩ := hinv z hz
      have := hΨ.1.injOn hy1 hz1 (d1.injOn (hΨ.1.mapsTo hy1) (hΨ.1.mapsTo hz1) hyz)
      rw [← hy2, ← hz2, this]
    · obtain ⟨u, hu, rfl⟩ := d1.surjOn hz
      obtain ⟨x, hx, rfl⟩ := hΨ.1.surjOn hu
      refine ⟨Φ x, b1.mapsTo hx, ?_⟩
      show Φ' (Ψ (inv (Φ x))) = _
      rw [hinvΦ x hx]
    · obtain ⟨hy1, hy2⟩ := hinv y hy
      obtain ⟨hz1, hz2⟩ := hinv z hz
      show Adj E' (Φ' (Ψ (inv y))) (Φ' (Ψ (inv z))) ↔ _
      rw [d2 _ _ (hΨ.1.mapsTo hy1) (hΨ.1.mapsTo hz1), hΨ.2 _ _ hy1 hz1, ← b2 _ _ hy1 hz1, hy2, hz2]
  have hfst : ∀ y z : Nat × T, IsVertex E y.1 → IsVertex E z.1 → ((Θ y).1 = (Θ z).1 ↔ y.1 = z.1) := by
    intro y z hy hz
    obtain ⟨hy1, hy2⟩ := hinv y hy
    obtain ⟨hz1, hz2⟩ := hinv z hz
    have h1 := d3 (Ψ (inv y)) (Ψ (inv z)) (hΨ.1.mapsTo hy1) (hΨ.1.mapsTo hz1)
    have h2 := b3 (inv y) (inv z) hy1 hz1
    rw [hy2, hz2] at h2
    rw [h2]
    refine h1.trans ?_
    exact h.translation_iff hNM hMN hM hN hp hy1 hz1
  let P := C' * M * C⁻¹
  have hP : ∀ w, IsVertex E w → ∀ t, shv (Θ (w, t)).2 - shv (Θ (w, 0)).2 = P.mulVec (shv t) := by
    intro w hw t
    obtain ⟨hy1, hy2⟩ := hinv (w, 0) hw
    obtain ⟨hz1, hz2⟩ := hinv (w, t) hw
    have h1 := d4 (Ψ (inv (w, 0))) (Ψ (inv (w, t))) (hΨ.1.mapsTo hy1) (hΨ.1.mapsTo hz1)
      ((hfst (w, 0) (w, t) hw hw).2 rfl)
    have h2 := b4 (inv (w, 0)) (inv (w, t)) hy1 hz1 (by rw [hy2, hz2])
    rw [hy2, hz2] at h2
    simp only [shv_zero, sub_zero] at h2
    show shv (Φ' (Ψ (inv (w, t)))).2 - shv (Φ' (Ψ (inv (w, 0)))).2 = _
    rw [h1, h2]
    have h3 : place pos' (Ψ (inv (w, t))) - place pos' (Ψ (inv (w, 0))) =
        M.mulVec (place pos (inv (w, t)) - place pos (inv (w, 0))) := by
      have e1 : place pos' (Ψ (inv (w, t))) = _ := place_iso hM hp hz1
      have e2 : place pos' (Ψ (inv (w, 0))) = _ := place_iso hM hp hy1
      rw [e1, e2, Matrix.mulVec_sub]; abel
    rw [h3, Matrix.mulVec_mulVec, Matrix.mulVec_mulVec]
    congr 1
    have : C⁻¹ * C = 1 := Matrix.nonsing_inv_mul C ((Matrix.isUnit_iff_isUnit_det C).1 hC)
    show C' * M = C' * M * C⁻¹ * C
    rw [Matrix.mul_assoc (C' * M), this, Matrix.mul_one]
  obtain ⟨v0, hv0⟩ := hne
  obtain ⟨w0, hw0⟩ : ∃ w, IsVertex E w := ⟨_, b1.mapsTo (show IsVertex raw (v0, (0 : T)).1 from hv0)⟩
  let Lf : T →+ T :=
    { toFun := fun t => (Θ (w0, t)).2 - (Θ (w0, 0)).2
      map_zero' := sub_self _
      map_add' := fun s t => by
        apply shv_inj
        rw [shv_add, shv_sub, shv_sub, shv_sub, hP w0 hw0, hP w0 hw0, hP w0 hw0, shv_add, Matrix.mulVec_add] }
  have hLf : ∀ t, shv (Lf t) = P.mulVec (shv t) := by
    intro t
    show shv ((Θ (w0, t)).2 - (Θ (w0, 0)).2) = _
    rw [shv_sub, hP w0 hw0]
  have hbij : Function.Bijective Lf := by
    constructor
    · intro s t hst
      have h1 : (Θ (w0, s)).2 - (Θ (w0, 0)).2 = (Θ (w0, t)).2 - (Θ (w0, 0)).2 := hst
      have h2 : Θ (w0, s) = Θ (w0, t) := Prod.ext ((hfst _ _ hw0 hw0).2 rfl) (sub_left_inj.1 h1)
      have h3 := hΘ.1.injOn (show IsVertex E (w0, s).1 from hw0) (show IsVertex E (w0, t).1 from hw0) h2
      exact (Prod.mk.injEq _ _ _ _ ▸ h3).2
    · intro s
      have h1 : IsVertex E' ((Θ (w0, 0)).1, s + (Θ (w0, 0)).2).1 := hΘ.1.mapsTo (show IsVertex E (w0, (0 : T)).1 from hw0)
      obtain ⟨⟨w, t⟩, hw, h2⟩ := hΘ.1.surjOn h1
      have h3 : (Θ (w, t)).1 = (Θ (w0, 0)).1 := by rw [h2]
      have h4 : w = w0 := (hfst (w, t) (w0, 0) hw hw0).1 h3
      subst h4
      refine ⟨t, ?_⟩
      show (Θ (w, t)).2 - (Θ (w, 0)).2 = s
      rw [h2]; simp
  let L' := AddEquiv.ofBijective Lf hbij
  have hform : ∀ v, IsVertex E v → ∀ t, Θ (v, t) = ((Θ (v, 0)).1, L' (t - (- L'.symm (Θ (v, 0)).2))) := by
    intro v hv t
    refine Prod.ext ((hfst (v, t) (v, 0) hv hv).2 rfl) ?_
    show (Θ (v, t)).2 = L' (t - (- L'.symm (Θ (v, 0)).2))
    rw [sub_neg_eq_add, map_add, L'.apply_symm_apply]
    apply shv_inj
    have : shv (L' t) = P.mulVec (shv t) := hLf t
    rw [shv_add, this, ← hP v hv t]; abel
  exact ⟨_, L', _, hΘ.periodic hform⟩

end
end Systre
