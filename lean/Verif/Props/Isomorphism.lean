import Verif.Lemmas.PeriodicIso
import Verif.Props.Representatives

/-!
# Theorems about isomorphic periodic graphs (C80)
-/

set_option linter.unusedSectionVars false

namespace Systre
section
variable {T : Type} [LabelVector T] [LawfulLabelVector T]

/-- C80: the vertices, up to their names. -/
theorem C80_vertices (raw raw' : List (Edge T)) (vm : Nat → Nat) (L : T ≃+ T) (c : Nat → T)
    (h : IsPeriodicIso raw raw' vm L c) :
    (Graph.new raw').vertices.Perm ((Graph.new raw).vertices.map vm) ∧
    (Graph.new raw').vertices.length = (Graph.new raw).vertices.length ∧
    (Graph.new raw').edges.length = (Graph.new raw).edges.length :=
  ⟨h.vertices_perm, by rw [h.vertices_perm.length_eq, List.length_map],
    by rw [h.edges_perm.length_eq, List.length_map, List.length_map]⟩

/-- C80: being isomorphic is an equivalence. -/
theorem C80_equivalence : Equivalence (AreIsomorphic (T := T)) := by
  refine ⟨fun raw => ⟨id, AddEquiv.refl T, 0, ⟨Function.injective_id.injOn, fun f => ⟨fun h => ⟨f, h, ?_⟩, ?_⟩⟩⟩, ?_, ?_⟩
  · ext <;> simp
  · rintro ⟨e, he, rfl⟩
    have : (⟨id e.head, id e.tail, AddEquiv.refl T ((0 : Nat → T) e.head + e.shift - (0 : Nat → T) e.tail)⟩ : Edge T) = e := by
      ext <;> simp
    rwa [this]
  · rintro raw raw' ⟨vm, L, c, h⟩
    obtain ⟨vm', -, -, h'⟩ := h.symm
    exact ⟨vm', _, _, h'⟩
  · rintro raw raw' raw'' ⟨vm, L, c, h⟩ ⟨vm', L', c', h'⟩
    refine ⟨vm' ∘ vm, L.trans L', fun v => L.symm (c' (vm v)) + c v, ?_, fun f => ?_⟩
    · intro a ha b hb hab
      exact h.inj ha hb (h'.inj (h.vertex ha) (h.vertex hb) hab)
    · have key : ∀ e, isoEdge vm' L' c' (isoEdge vm L c e) =
          ⟨(vm' ∘ vm) e.head, (vm' ∘ vm) e.tail, (L.trans L') ((L.symm (c' (vm e.head)) + c e.head) + e.shift -
            (L.symm (c' (vm e.tail)) + c e.tail))⟩ := by
        intro e
        ext
        · rfl
        · rfl
        · show L' (c' (vm e.head) + L (c e.head + e.shift - c e.tail) - c' (vm e.tail)) = L' (L _)
          congr 1
          simp only [map_add, map_sub, AddEquiv.apply_symm_apply]
          abel
      rw [h'.directed]
      constructor
      · rintro ⟨e, he, rfl⟩
        obtain ⟨e2, he2, rfl⟩ := (h.directed e).1 he
        exact ⟨e2, he2, key e2⟩
      · rintro ⟨e, he, rfl⟩
        exact ⟨_, (h.directed _).2 ⟨e, he, rfl⟩, (key e).symm⟩

/-- C80: the infinite graphs are isomorphic, the translation by `t` becomes the translation by `L t`. -/
theorem C80_infinite_graph (raw raw' : List (Edge T)) (vm : Nat → Nat) (L : T ≃+ T) (c : Nat → T)
    (h : IsPeriodicIso raw raw' vm L c) :
    ∃ Φ : Nat × T → Nat × T, IsInfiniteIso raw raw' Φ ∧ (∀ x, (Φ x).1 = vm x.1) ∧
      ∀ x t, Φ (x.1, x.2 + t) = ((Φ x).1, (Φ x).2 + L t) := by
  refine ⟨_, h.infinite, fun x => rfl, fun x t => Prod.ext rfl ?_⟩
  show L (x.2 + t - c x.1) = L (x.2 - c x.1) + L t
  rw [← map_add]; congr 1; abel

/-- C80: component measures, connectedness and coordination numbers. -/
theorem C80_results (raw raw' : List (Edge T)) (vm : Nat → Nat) (L : T ≃+ T) (c : Nat → T)
    (h : IsPeriodicIso raw raw' vm L c) :
    (∀ v, IsVertex raw v → componentMeasures (Graph.new raw') (vm v) = componentMeasures (Graph.new raw) v) ∧
    (Graph.new raw').isConnected = (Graph.new raw).isConnected ∧
    ∀ v, IsVertex raw v → ∀ k, (Graph.new raw').coordinationItem (vm v) k = (Graph.new raw).coordinationItem v k :=
  ⟨fun _ hv => h.measures hv, h.isConnected, fun v hv k => h.infinite.coordinationItem (x := (v, 0)) hv k⟩

/-- C80: positions, edge vectors and the stability predicates. -/
theorem C80_positions (raw raw' : List (Edge T)) (vm : Nat → Nat) (L : T ≃+ T) (c : Nat → T)
    (h : IsPeriodicIso raw raw' vm L c) (hc : QuotientConnected raw) (tb tb' : Outcome PosTable)
    (pos pos' : Nat → Fin (LabelVector.dim T) → ℚ)
    (hp : Places tb (Graph.new raw) pos) (hp' : Places tb' (Graph.new raw') pos')
    (hb : IsBarycentric (Graph.new raw).edges (Graph.new raw).vertices pos)
    (hb' : IsBarycentric (Graph.new raw').edges (Graph.new raw').vertices pos') :
    (∃ M : Matrix (Fin (LabelVector.dim T)) (Fin (LabelVector.dim T)) ℚ, IsUnit M ∧
      (∀ t : T, shv (L t) = M.mulVec (shv t)) ∧
      (∃ a, ∀ v, IsVertex raw v → pos' (vm v) = M.mulVec (pos v + shv (c v)) + a) ∧
      ∀ e, IsDirected raw e →
        edgeVec pos' (⟨vm e.head, vm e.tail, L (c e.head + e.shift - c e.tail)⟩ : Edge T) = M.mulVec (edgeVec pos e)) ∧
    isStableIn tb' (Graph.new raw') = isStableIn tb (Graph.new raw) ∧
    isLocallyStableIn tb' (Graph.new raw') = isLocallyStableIn tb (Graph.new raw) ∧
    hasSecondOrderCollisionsIn tb' (Graph.new raw') = hasSecondOrderCollisionsIn tb (Graph.new raw) := by
  obtain ⟨M, N, hMN, hNM, hM, hN⟩ := exists_latMat_unit L
  obtain ⟨a, ha⟩ := h.positions hc hM hb hb'
  have hmod := fun {v w} (hv : IsVertex raw v) (hw : IsVertex raw w) => IsPeriodicIso.sameMod hNM hM hN ha hv hw
  have hinj : Function.Injective M.mulVec := by
    intro x y hxy
    have := congrArg N.mulVec hxy
    simpa [Matrix.mulVec_mulVec, hNM] using this
  have hmem : ∀ v, v ∈ (Graph.new raw).vertices ↔ IsVertex raw v := fun v => by rw [Graph.mem_vertices, isVertex_new]
  have hmem' : ∀ v, v ∈ (Graph.new raw').vertices ↔ ∃ u, IsVertex raw u ∧ v = vm u := fun v => by
    rw [Graph.mem_vertices, isVertex_new, h.isVertex]
  have hinc : ∀ v, IsVertex raw v → (((Graph.new raw').inc (vm v)).map (edgeVec pos')).Perm
      ((((Graph.new raw).inc v).map (edgeVec pos)).map M.mulVec) := by
    intro v hv
    refine ((h.inc_perm hv).map _).trans (List.Perm.of_eq ?_)
    rw [List.map_map, List.map_map]
    apply List.map_congr_left
    intro e he
    exact IsPeriodicIso.edgeVec M hM ha ((isDirected_new raw e).1 (((Graph.new raw).mem_inc _ _).1 he).1)
  refine ⟨⟨M, IsUnit.of_mul_eq_one N hMN, hM, ⟨a, ha⟩, fun e he => IsPeriodicIso.edgeVec M hM ha he⟩, ?_, ?_, ?_⟩
  · obtain ⟨b, h1, h2⟩ := isStable_ok hp
    obtain ⟨b', h1', h2'⟩ := isStable_ok hp'
    rw [h1, h1']
    congr 1
    rw [Bool.eq_iff_iff, h2, h2']
    constructor
    · intro H v hv w hw hvw hm
      have hv := (hmem v).1 hv
      have hw := (hmem w).1 hw
      exact H (vm v) ((hmem' _).2 ⟨v, hv, rfl⟩) (vm w) ((hmem' _).2 ⟨w, hw, rfl⟩) (fun h3 => hvw (h.inj hv hw h3))
        ((hmod hv hw).2 hm)
    · intro H x hx y hy hxy hm
      obtain ⟨v, hv, rfl⟩ := (hmem' x).1 hx
      obtain ⟨w, hw, rfl⟩ := (hmem' y).1 hy
      exact H v ((hmem _).2 hv) w ((hmem _).2 hw) (fun h3 => hxy (by rw [h3])) ((hmod hv hw).1 hm)
  · obtain ⟨b, h1, h2⟩ := isLocallyStable_ok hp
    obtain ⟨b', h1', h2'⟩ := isLocallyStable_ok hp'
    rw [h1, h1']
    congr 1
    rw [Bool.eq_iff_iff, h2, h2']
    constructor
    · intro H v hv
      have hv := (hmem v).1 hv
      have := H (vm v) ((hmem' _).2 ⟨v, hv, rfl⟩)
      rw [(hinc v hv).nodup_iff] at this
      exact List.Nodup.of_map _ this
    · intro H x hx
      obtain ⟨v, hv, rfl⟩ := (hmem' x).1 hx
      rw [(hinc v hv).nodup_iff]
      exact (H v ((hmem _).2 hv)).map hinj
  · obtain ⟨b, h1, h2⟩ := hasSecondOrderCollisions_ok hp
    obtain ⟨b', h1', h2'⟩ := hasSecondOrderCollisions_ok hp'
    rw [h1, h1']
    congr 1
    rw [Bool.eq_iff_iff, h2, h2']
    have hcol : ∀ v w, IsVertex raw v → IsVertex raw w →
        ((((Graph.new raw').inc (vm v)).map (edgeVec pos')).Perm (((Graph.new raw').inc (vm w)).map (edgeVec pos')) ↔
        (((Graph.new raw).inc v).map (edgeVec pos)).Perm (((Graph.new raw).inc w).map (edgeVec pos))) := by
      intro v w hv hw
      refine Iff.trans ?_ (List.map_perm_map_iff hinj)
      exact ⟨fun h3 => ((hinc v hv).symm.trans h3).trans (hinc w hw), fun h3 => ((hinc v hv).trans h3).trans (hinc w hw).symm⟩
    constructor
    · rintro ⟨x, hx, y, hy, h3, h4, h5⟩
      obtain ⟨v, hv, rfl⟩ := (hmem' x).1 hx
      obtain ⟨w, hw, rfl⟩ := (hmem' y).1 hy
      exact ⟨v, (hmem _).2 hv, w, (hmem _).2 hw, fun h6 => h3 (by rw [h6]), (hmod hv hw).1 h4, (hcol v w hv hw).1 h5⟩
    · rintro ⟨v, hv, w, hw, h3, h4, h5⟩
      have hv := (hmem v).1 hv
      have hw := (hmem w).1 hw
      exact ⟨vm v, (hmem' _).2 ⟨v, hv, rfl⟩, vm w, (hmem' _).2 ⟨w, hw, rfl⟩, fun h6 => h3 (h.inj hv hw h6),
        (hmod hv hw).2 h4, (hcol v w hv hw).2 h5⟩

/-- C80: the automorphisms of the placed graphs correspond to each other. -/
theorem C80_automorphisms (raw raw' : List (Edge T)) (vm : Nat → Nat) (L : T ≃+ T) (c : Nat → T)
    (h : IsPeriodicIso raw raw' vm L c) (hc : QuotientConnected raw)
    (pos pos' : Nat → Fin (LabelVector.dim T) → ℚ)
    (hb : IsBarycentric (Graph.new raw).edges (Graph.new raw).vertices pos)
    (hb' : IsBarycentric (Graph.new raw').edges (Graph.new raw').vertices pos')
    (γ : Nat → Nat) (em : Edge T → Edge T) (A : Matrix (Fin (LabelVector.dim T)) (Fin (LabelVector.dim T)) ℚ)
    (hA : IsGraphAut raw pos γ em A) :
    ∃ γ' em' M N, M * N = 1 ∧ (∀ t : T, shv (L t) = M.mulVec (shv t)) ∧ IsGraphAut raw' pos' γ' em' (M * A * N) ∧
      (∀ v, IsVertex raw v → γ' (vm v) = vm (γ v)) ∧
      ∀ e, IsDirected raw e → em' (⟨vm e.head, vm e.tail, L (c e.head + e.shift - c e.tail)⟩ : Edge T) =
        ⟨vm (em e).head, vm (em e).tail, L (c (em e).head + (em e).shift - c (em e).tail)⟩ := by
  obtain ⟨M, N, hMN, hNM, hM, hN⟩ := exists_latMat_unit L
  obtain ⟨a, ha⟩ := h.positions hc hM hb hb'
  obtain ⟨vm', h1, h2, -⟩ := h.symm
  obtain ⟨em', h3, h4⟩ := h.graphAut hNM hM ha hA h1
  refine ⟨_, em', M, N, hMN, hM, h3, fun v hv => ?_, h4⟩
  show vm (γ (vm' (vm v))) = vm (γ v)
  rw [h1 v hv]

/-- C80: `is_minimal` -/
theorem C80_is_minimal (raw raw' : List (Edge T)) (vm : Nat → Nat) (L : T ≃+ T) (c : Nat → T)
    (h : IsPeriodicIso raw raw' vm L c) (hc : PeriodicConnected raw) (hne : raw ≠ [])
    (tb tb' : Outcome PosTable) (pos pos' : Nat → Fin (LabelVector.dim T) → ℚ)
    (hp : Places tb (Graph.new raw) pos) (hp' : Places tb' (Graph.new raw') pos')
    (hb : IsBarycentric (Graph.new raw).edges (Graph.new raw).vertices pos)
    (hb' : IsBarycentric (Graph.new raw').edges (Graph.new raw').vertices pos')
    (hz : ∀ v ∈ (Graph.new raw).vertices.head?, pos v = 0)
    (hz' : ∀ v ∈ (Graph.new raw').vertices.head?, pos' v = 0)
    (hs : LocallyStable raw pos) (hsm : (Graph.new raw).vertices.length ≤ 2147483647) :
    LocallyStable raw' pos' ∧ isMinimal tb' (Graph.new raw') = isMinimal tb (Graph.new raw) := by
  obtain ⟨M, N, hMN, hNM, hM, hN⟩ := exists_latMat_unit L
  obtain ⟨a, ha⟩ := h.positions (quotient_of_periodic hc) hM hb hb'
  have hs' := h.stable hNM hM ha hs
  have hne' : raw' ≠ [] := by
    obtain ⟨e, he⟩ := List.exists_mem_of_ne_nil raw hne
    rintro rfl
    have := (h.directed _).2 ⟨e, Or.inl he, rfl⟩
    rcases this with h | h <;> simp at h
  refine ⟨hs', ?_⟩
  obtain ⟨b, h1, h2⟩ := C42_is_minimal raw tb pos hp hs hc hne hsm hz
  obtain ⟨b', h1', h2'⟩ := C42_is_minimal raw' tb' pos' hp' hs' (h.connected.2 hc) hne'
    (by rw [(C80_vertices _ _ _ _ _ h).2.1]; exact hsm) hz'
  rw [h1, h1']
  congr 1
  rw [Bool.eq_iff_iff, h2, h2']
  refine ⟨fun hf => ?_, fun hf => h.full hNM hMN hM hN ha hf⟩
  obtain ⟨vm', h3, h4, h'⟩ := h.symm
  exact h'.full hMN hNM hN hM (positions_symm hNM h hM ha h3) hf

/-- C80: what being isomorphic means: there is an isomorphism of the infinite graphs that respects the translations. -/
theorem C80_meaning (raw raw' : List (Edge T)) :
    AreIsomorphic raw raw' ↔ ∃ (Φ : Nat × T → Nat × T) (L : T ≃+ T), IsInfiniteIso raw raw' Φ ∧
      ∀ v, IsVertex raw v → ∀ s t, Φ (v, s + t) = ((Φ (v, s)).1, (Φ (v, s)).2 + L t) := by
  constructor
  · rintro ⟨vm, L, c, h⟩
    obtain ⟨Φ, h1, -, h3⟩ := C80_infinite_graph raw raw' vm L c h
    exact ⟨Φ, L, h1, fun v _ s t => h3 (v, s) t⟩
  · rintro ⟨Φ, L, h1, h2⟩
    exact ⟨_, L, _, h1.periodic (IsInfiniteIso.form h2)⟩

/-- C80: `minimal_image`: it finds smaller descriptions for both graphs or for none, and these are isomorphic. -/
theorem C80_minimal_image (raw raw' : List (Edge T)) (vm : Nat → Nat) (L : T ≃+ T) (c : Nat → T)
    (h : IsPeriodicIso raw raw' vm L c) (hc : PeriodicConnected raw) (hne : raw ≠ [])
    (tb tb' : Outcome PosTable) (pos pos' : Nat → Fin (LabelVector.dim T) → ℚ)
    (hp : Places tb (Graph.new raw) pos) (hp' : Places tb' (Graph.new raw') pos')
    (hb : IsBarycentric (Graph.new raw).edges (Graph.new raw).vertices pos)
    (hb' : IsBarycentric (Graph.new raw').edges (Graph.new raw').vertices pos')
    (hz : ∀ v ∈ (Graph.new raw).vertices.head?, pos v = 0)
    (hz' : ∀ v ∈ (Graph.new raw').vertices.head?, pos' v = 0)
    (hs : LocallyStable raw pos) (hsm : (Graph.new raw).vertices.length ≤ 2147483647)
    (hlad : ¬ ∃ γ, IsLadderTranslation raw pos γ) (r r' : Option (Graph T))
    (hr : minimalImage tb (Graph.new raw) = .ok r) (hr' : minimalImage tb' (Graph.new raw') = .ok r') :
    (r' = none ↔ r = none) ∧ ∀ g g', r = some g → r' = some g' → AreIsomorphic g.edges g'.edges := by
  obtain ⟨M, N, hMN, hNM, hM, hN⟩ := exists_latMat_unit L
  obtain ⟨a, ha⟩ := h.positions (quotient_of_periodic hc) hM hb hb'
  have hs' := h.stable hNM hM ha hs
  obtain ⟨e, he⟩ := List.exists_mem_of_ne_nil raw hne
  have hne' : raw' ≠ [] := by
    rintro rfl
    have := (h.directed _).2 ⟨e, Or.inl he, rfl⟩
    rcases this with h | h <;> simp at h
  have hlad' : ¬ ∃ γ, IsLadderTranslation raw' pos' γ := fun h1 => hlad (h.ladder hNM hMN hM hN ha h1)
  have hfull : LatticeIsFull raw' pos' ↔ LatticeIsFull raw pos := by
    refine ⟨fun hf => ?_, fun hf => h.full hNM hMN hM hN ha hf⟩
    obtain ⟨vm', h3, h4, h'⟩ := h.symm
    exact h'.full hMN hNM hN hM (positions_symm hNM h hM ha h3) hf
  have h1 := C42_minimal_image_partial raw tb pos hp hs hc hne hsm hz hlad
  have h2 := C42_minimal_image_partial raw' tb' pos' hp' hs' (h.connected.2 hc) hne'
    (by rw [(C80_vertices _ _ _ _ _ h).2.1]; exact hsm) hz' hlad'
  rw [hr] at h1
  rw [hr', hfull] at h2
  rcases h1 with ⟨hf, h1⟩ | ⟨hf, ⟨g, h1, h3⟩ | h1⟩
  · have h1 := Outcome.ok.inj h1
    subst h1
    rcases h2 with ⟨-, h2⟩ | ⟨hf', -⟩
    · have h2 := Outcome.ok.inj h2
      subst h2
      simp
    · exact absurd hf hf'
  · have h1 := Outcome.ok.inj h1
    subst h1
    rcases h2 with ⟨hf', -⟩ | ⟨-, ⟨g', h2, h4⟩ | h2⟩
    · exact absurd hf' hf
    · have h2 := Outcome.ok.inj h2
      subst h2
      refine ⟨by simp, fun k k' hk hk' => ?_⟩
      rw [Option.some.injEq] at hk hk'
      subst hk hk'
      exact finerForm_iso h ⟨_, isVertex_head (Or.inl he)⟩ hNM hMN hM hN ha h3 h4
    · cases h2
  · cases h1

end

/-! ### Examples -/

/-- lattice vectors in the basis (1, 1), (0, 1) -/
def skew : V2 ≃+ V2 where
  toFun a := ⟨a.x, a.x + a.y⟩
  invFun a := ⟨a.x, a.y - a.x⟩
  left_inv a := by ext <;> simp
  right_inv a := by ext <;> simp
  map_add' a b := by
    ext
    · rfl
    · show a.x + b.x + (a.y + b.y) = a.x + a.y + (b.x + b.y)
      ring

/-- other names of the vertices -/
def hcbVm : Nat → Nat := fun v => if v = 1 then 7 else 3

/-- the honeycomb in the other basis, with the other representatives and names -/
def hcb3Ex : List (Edge V2) := [⟨7, 3, ⟨1, 6⟩⟩, ⟨3, 7, ⟨-1, -7⟩⟩, ⟨7, 3, ⟨2, 7⟩⟩]
def hcb3Tb : Outcome PosTable := .ok [(3, [0, 0]), (7, [4/3, 20/3])]
def hcb3Pos : Nat → Fin 2 → ℚ := fun v => if v = 7 then ![4/3, 20/3] else ![0, 0]

theorem hcb3_iso : IsPeriodicIso hcbEx hcb3Ex hcbVm skew hcbC := by
  have hx : ∀ x, IsVertex hcbEx x → x = 1 ∨ x = 2 := by
    rintro x ⟨e, he, h⟩
    simp only [hcbEx, List.mem_cons, List.not_mem_nil, or_false] at he
    rcases he with rfl | rfl | rfl | rfl <;> simp at h <;> tauto
  refine isPeriodicIso_map (fun a ha b hb hab => ?_) (by decide +kernel)
  rcases hx a ha with rfl | rfl <;> rcases hx b hb with rfl | rfl <;> simp [hcbVm] at hab ⊢

example : placement 10 (Graph.new hcb3Ex) = hcb3Tb := by decide +kernel

theorem hcb3_places : Places hcb3Tb (Graph.new hcb3Ex) hcb3Pos := by
  have hv : (Graph.new hcb3Ex).vertices = [3, 7] := by decide +kernel
  intro v h
  rw [hv] at h
  simp only [List.mem_cons, List.not_mem_nil, or_false] at h
  rcases h with rfl | rfl <;> decide +kernel

theorem hcb3_barycentric : IsBarycentric (Graph.new hcb3Ex).edges (Graph.new hcb3Ex).vertices hcb3Pos := by
  unfold IsBarycentric; decide +kernel

example := C80_positions hcbEx hcb3Ex hcbVm skew hcbC hcb3_iso hcb_quotient hcbTb hcb3Tb hcbPos hcb3Pos
  hcb_places hcb3_places hcb_barycentric hcb3_barycentric

theorem hcb_zero : ∀ v ∈ (Graph.new hcbEx).vertices.head?, hcbPos v = 0 := by
  intro v hv
  have : (Graph.new hcbEx).vertices = [1, 2] := by decide +kernel
  rw [this] at hv; cases hv; decide +kernel
theorem hcb3_zero : ∀ v ∈ (Graph.new hcb3Ex).vertices.head?, hcb3Pos v = 0 := by
  intro v hv
  have : (Graph.new hcb3Ex).vertices = [3, 7] := by decide +kernel
  rw [this] at hv; cases hv; decide +kernel

theorem hcb3_minimal : LocallyStable hcb3Ex hcb3Pos ∧
    isMinimal hcb3Tb (Graph.new hcb3Ex) = isMinimal hcbTb (Graph.new hcbEx) :=
  C80_is_minimal hcbEx hcb3Ex hcbVm skew hcbC hcb3_iso hcb_connected (by decide) hcbTb hcb3Tb hcbPos hcb3Pos
    hcb_places hcb3_places hcb_barycentric hcb3_barycentric hcb_zero hcb3_zero hcb_locallyStable (by decide +kernel)

/-- `symmetries` finds all twelve symmetries of the honeycomb, but only two if the same graph is written in
another basis of the lattice; so the number of the symmetries and the number of the edge orbits are not invariants. -/
theorem C80_symmetries_refuted : AreIsomorphic hcbEx hcb3Ex ∧ PeriodicConnected hcbEx ∧ LocallyStable hcbEx hcbPos ∧
    LocallyStable hcb3Ex hcb3Pos ∧
    ∃ l l' o o', (∀ fuel, 13 ≤ fuel → symmetries fuel (placement 10 (Graph.new hcbEx)) (Graph.new hcbEx) = .ok l) ∧
      (∀ fuel, 13 ≤ fuel → symmetries fuel (placement 10 (Graph.new hcb3Ex)) (Graph.new hcb3Ex) = .ok l') ∧
      l.length = 12 ∧ l'.length = 2 ∧ edgeOrbits (Graph.new hcbEx) l = .ok o ∧
      edgeOrbits (Graph.new hcb3Ex) l' = .ok o' ∧ o.length = 1 ∧ o'.length = 3 := by
  refine ⟨⟨_, _, _, hcb3_iso⟩, hcb_connected, hcb_locallyStable, hcb3_minimal.1, ?_⟩
  have h1 : (symmetries 13 (placement 10 (Graph.new hcbEx)) (Graph.new hcbEx) >>= fun l =>
      edgeOrbits (Graph.new hcbEx) l >>= fun o => Outcome.ok (l.length, o.length)) = .ok (12, 1) := by decide +kernel
  have h2 : (symmetries 13 (placement 10 (Graph.new hcb3Ex)) (Graph.new hcb3Ex) >>= fun l =>
      edgeOrbits (Graph.new hcb3Ex) l >>= fun o => Outcome.ok (l.length, o.length)) = .ok (2, 3) := by decide +kernel
  obtain ⟨l, hl⟩ := ok_of_bind_ok h1
  obtain ⟨l', hl'⟩ := ok_of_bind_ok h2
  rw [hl, Outcome.ok_bind] at h1
  rw [hl', Outcome.ok_bind] at h2
  obtain ⟨o, ho⟩ := ok_of_bind_ok h1
  obtain ⟨o', ho'⟩ := ok_of_bind_ok h2
  rw [ho, Outcome.ok_bind] at h1
  rw [ho', Outcome.ok_bind] at h2
  have h1 := Outcome.ok.inj h1
  have h2 := Outcome.ok.inj h2
  rw [Prod.mk.injEq] at h1 h2
  exact ⟨l, l', o, o', fun fuel hf => symmetries_mono hl hf, fun fuel hf => symmetries_mono hl' hf, h1.1, h2.1, ho, ho',
    h1.2, h2.2⟩

/-- lattice vectors in the basis (1, 0), (1, 1) -/
def skew' : V2 ≃+ V2 where
  toFun a := ⟨a.x + a.y, a.y⟩
  invFun a := ⟨a.x - a.y, a.y⟩
  left_inv a := by ext <;> simp
  right_inv a := by ext <;> simp
  map_add' a b := by
    ext
    · show a.x + b.x + (a.y + b.y) = a.x + a.y + (b.x + b.y)
      ring
    · rfl

theorem sql2_two : ∀ x, IsVertex sql2Ex x → x = 1 ∨ x = 2 := by
  rintro x ⟨e, he, h⟩
  simp only [sql2Ex, List.mem_cons, List.not_mem_nil, or_false] at he
  rcases he with rfl | rfl | rfl | rfl <;> simp at h <;> tauto

theorem sql2_barycentric : IsBarycentric (Graph.new sql2Ex).edges (Graph.new sql2Ex).vertices sql2Pos := by
  unfold IsBarycentric; decide +kernel

/-- the square lattice with a doubled cell in other words -/
def sql4Ex : List (Edge V2) := [⟨4, 3, ⟨4, 2⟩⟩, ⟨3, 4, ⟨-3, -2⟩⟩, ⟨4, 4, ⟨1, 1⟩⟩, ⟨3, 3, ⟨1, 1⟩⟩]
def sql4Tb : Outcome PosTable := .ok [(3, [0, 0]), (4, [7/2, 2])]
def sql4Pos : Nat → Fin 2 → ℚ := fun v => if v = 4 then ![7/2, 2] else ![0, 0]
def sql4C : Nat → V2 := fun v => if v = 1 then ⟨2, 1⟩ else ⟨0, -1⟩

theorem sql4_iso : IsPeriodicIso sql2Ex sql4Ex (fun v => 5 - v) skew' sql4C := by
  refine isPeriodicIso_map (fun a ha b hb hab => ?_) (by decide +kernel)
  rcases sql2_two a ha with rfl | rfl <;> rcases sql2_two b hb with rfl | rfl <;> simp at hab ⊢

theorem sql4_places : Places sql4Tb (Graph.new sql4Ex) sql4Pos := by
  have hv : (Graph.new sql4Ex).vertices = [3, 4] := by decide +kernel
  intro v h
  rw [hv] at h
  simp only [List.mem_cons, List.not_mem_nil, or_false] at h
  rcases h with rfl | rfl <;> decide +kernel

theorem sql4_barycentric : IsBarycentric (Graph.new sql4Ex).edges (Graph.new sql4Ex).vertices sql4Pos := by
  unfold IsBarycentric; decide +kernel

theorem sql4_zero : ∀ v ∈ (Graph.new sql4Ex).vertices.head?, sql4Pos v = 0 := by
  intro v hv
  have : (Graph.new sql4Ex).vertices = [3, 4] := by decide +kernel
  rw [this] at hv; cases hv; decide +kernel

example : placement 10 (Graph.new sql4Ex) = sql4Tb := by decide +kernel
example : ∃ g g', minimalImage sql2Tb (Graph.new sql2Ex) = .ok (some g) ∧
    minimalImage sql4Tb (Graph.new sql4Ex) = .ok (some g') ∧ g.edges = [⟨1, 1, ⟨0, 1⟩⟩, ⟨1, 1, ⟨1, 0⟩⟩] ∧
    g'.edges = [⟨1, 1, ⟨1, 0⟩⟩, ⟨1, 1, ⟨2, -1⟩⟩] ∧ AreIsomorphic g.edges g'.edges := by
  have h0 : (minimalImage sql2Tb (Graph.new sql2Ex) >>= fun g => Outcome.ok (g.map Graph.edges)) =
      .ok (some [⟨1, 1, ⟨0, 1⟩⟩, ⟨1, 1, ⟨1, 0⟩⟩]) := by decide +kernel
  have h0' : (minimalImage sql4Tb (Graph.new sql4Ex) >>= fun g => Outcome.ok (g.map Graph.edges)) =
      .ok (some [⟨1, 1, ⟨1, 0⟩⟩, ⟨1, 1, ⟨2, -1⟩⟩]) := by decide +kernel
  obtain ⟨r, hr⟩ := ok_of_bind_ok h0
  obtain ⟨r', hr'⟩ := ok_of_bind_ok h0'
  have h2 := C80_minimal_image sql2Ex sql4Ex _ skew' sql4C sql4_iso sql2_connected (by decide) sql2Tb sql4Tb sql2Pos
    sql4Pos sql2_places sql4_places sql2_barycentric sql4_barycentric sql2_origin sql4_zero sql2_locallyStable
    sql2_small sql2_noLadder r r' hr hr'
  cases r with
  | none => rw [hr] at h0; exact absurd h0 (by decide)
  | some g =>
    cases r' with
    | none => rw [hr'] at h0'; exact absurd h0' (by decide)
    | some g' =>
      rw [hr] at h0
      rw [hr'] at h0'
      exact ⟨g, g', hr, hr', Option.some.inj (Outcome.ok.inj h0), Option.some.inj (Outcome.ok.inj h0'),
        h2.2 g g' rfl rfl⟩

/-- the same graph in still other words -/
def sql5Ex : List (Edge V2) := [⟨4, 3, ⟨0, 0⟩⟩, ⟨3, 4, ⟨1, 1⟩⟩, ⟨4, 4, ⟨0, 1⟩⟩, ⟨3, 3, ⟨0, 1⟩⟩]

theorem sql5_iso : IsPeriodicIso sql2Ex sql5Ex (fun v => 5 - v) skew 0 := by
  refine isPeriodicIso_map (fun a ha b hb hab => ?_) (by decide +kernel)
  rcases sql2_two a ha with rfl | rfl <;> rcases sql2_two b hb with rfl | rfl <;> simp at hab ⊢

/-- whether `minimal_image` panics is not an invariant: it returns the square lattice for one description of the
graph and panics for another one -/
theorem C80_minimal_image_refuted : AreIsomorphic sql2Ex sql5Ex ∧ PeriodicConnected sql2Ex ∧
    LocallyStable sql2Ex sql2Pos ∧ Places (placement 10 (Graph.new sql2Ex)) (Graph.new sql2Ex) sql2Pos ∧
    (∃ g, minimalImage (placement 10 (Graph.new sql2Ex)) (Graph.new sql2Ex) = .ok (some g)) ∧
    (∃ tb, placement 10 (Graph.new sql5Ex) = .ok tb) ∧
    minimalImage (placement 10 (Graph.new sql5Ex)) (Graph.new sql5Ex) = .panic := by
  have hpl : placement 10 (Graph.new sql2Ex) = sql2Tb := by decide +kernel
  have hpl5 : placement 10 (Graph.new sql5Ex) = .ok [(3, [0, 0]), (4, [-1/2, -1/2])] := by decide +kernel
  refine ⟨⟨_, _, _, sql5_iso⟩, sql2_connected, sql2_locallyStable, ?_, ?_, ⟨_, hpl5⟩, ?_⟩
  · rw [hpl]; exact sql2_places
  · rw [hpl]
    have h0 : (minimalImage sql2Tb (Graph.new sql2Ex) >>= fun g => Outcome.ok (g.map Graph.edges)) =
        .ok (some [⟨1, 1, ⟨0, 1⟩⟩, ⟨1, 1, ⟨1, 0⟩⟩]) := by decide +kernel
    obtain ⟨r, hr⟩ := ok_of_bind_ok h0
    cases r with
    | none => rw [hr] at h0; exact absurd h0 (by decide)
    | some g => exact ⟨g, hr⟩
  · rw [hpl5]
    decide +kernel

end Systre
