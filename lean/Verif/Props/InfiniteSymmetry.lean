import Verif.Lemmas.InfAffine
import Verif.Props.PointGroup
import Verif.Props.Isomorphism

/-!
# C90: the program sees all symmetries and isomorphisms of the infinite graphs

`Graph`, `symmetries` and `automorphism` (src/pgraphs.rs, src/symmetries.rs) work with the barycentric placement and
a lattice. The theorems here are about arbitrary isomorphisms of the infinite graphs, bijections of the vertices that
preserve adjacency, which know neither: they are affine maps of the places anyway, and map lattice translations to
lattice translations if the graphs are stable and minimal.
The specification is in `Verif/Spec/InfiniteSymmetry.lean`.
-/

namespace Systre

section
variable {T : Type} [LabelVector T] [LawfulLabelVector T]

theorem placesDistinct_iff {raw : List (Edge T)} {pos : Nat → Fin (LabelVector.dim T) → ℚ} : PlacesDistinct raw pos ↔
    ∀ v w, IsVertex raw v → IsVertex raw w → v ≠ w → ¬ SameModLattice (pos v) (pos w) :=
  ⟨fun h v w hv hw hne hs => hne (h v w hv hw hs), fun h v w hv hw hs => by_contra fun hne => h v w hv hw hne hs⟩

/-- C90: every isomorphism of infinite graphs acts on the barycentric places as an affine map. -/
theorem C90_affine (raw raw' : List (Edge T)) (pos pos' : Nat → Fin (LabelVector.dim T) → ℚ)
    (hc : PeriodicConnected raw) (hne : raw ≠ [])
    (hb : IsBarycentric (Graph.new raw).edges (Graph.new raw).vertices pos)
    (hb' : IsBarycentric (Graph.new raw').edges (Graph.new raw').vertices pos')
    (Φ : Nat × T → Nat × T) (h : IsInfiniteIso raw raw' Φ) :
    ∃ (A : Matrix (Fin (LabelVector.dim T)) (Fin (LabelVector.dim T)) ℚ) (s : Fin (LabelVector.dim T) → ℚ),
      IsUnit A ∧ ∀ x, IsVertex raw x.1 → place pos' (Φ x) = A.mulVec (place pos x) + s := by
  obtain ⟨e, he⟩ := List.exists_mem_of_ne_nil raw hne
  exact h.affine_unit hc hb hb' (v0 := e.head) ⟨e, he, Or.inl rfl⟩

/-- C90: for stable graphs (`is_stable`) with full lattices (`is_minimal`), the data are isomorphic in the sense of
C80 as soon as the infinite graphs are isomorphic. -/
theorem C90_isomorphic (raw raw' : List (Edge T)) (pos pos' : Nat → Fin (LabelVector.dim T) → ℚ)
    (hc : PeriodicConnected raw) (hne : raw ≠ [])
    (hb : IsBarycentric (Graph.new raw).edges (Graph.new raw).vertices pos)
    (hb' : IsBarycentric (Graph.new raw').edges (Graph.new raw').vertices pos')
    (hd : PlacesDistinct raw pos) (hfull : LatticeIsFull raw pos) (hfull' : LatticeIsFull raw' pos') :
    AreIsomorphic raw raw' ↔ ∃ Φ, IsInfiniteIso raw raw' Φ := by
  rw [C80_meaning]
  constructor
  · rintro ⟨Φ, L, h, -⟩; exact ⟨Φ, h⟩
  · rintro ⟨Φ, h⟩
    obtain ⟨e, he⟩ := List.exists_mem_of_ne_nil raw hne
    obtain ⟨A, s, L, -, -, -, hL⟩ := h.exists_equiv hc hb hb' (v0 := e.head) ⟨e, he, Or.inl rfl⟩ hd hfull hfull'
    exact ⟨Φ, L, h, fun v hv r t => hL t (v, r) hv⟩

/-- C90: the same in terms of the results of the program. -/
theorem C90_isomorphic_program (raw raw' : List (Edge T)) (tb tb' : Outcome PosTable)
    (pos pos' : Nat → Fin (LabelVector.dim T) → ℚ)
    (hp : Places tb (Graph.new raw) pos) (hp' : Places tb' (Graph.new raw') pos')
    (hb : IsBarycentric (Graph.new raw).edges (Graph.new raw).vertices pos)
    (hb' : IsBarycentric (Graph.new raw').edges (Graph.new raw').vertices pos')
    (hz : ∀ v ∈ (Graph.new raw).vertices.head?, pos v = 0)
    (hz' : ∀ v ∈ (Graph.new raw').vertices.head?, pos' v = 0)
    (hsm : (Graph.new raw).vertices.length ≤ 2147483647) (hsm' : (Graph.new raw').vertices.length ≤ 2147483647)
    (hne : raw ≠ []) (hne' : raw' ≠ [])
    (hc : PeriodicConnected raw) (hc' : PeriodicConnected raw')
    (hl : isLocallyStableIn tb (Graph.new raw) = .ok true) (hl' : isLocallyStableIn tb' (Graph.new raw') = .ok true)
    (hst : isStableIn tb (Graph.new raw) = .ok true)
    (hm : isMinimal tb (Graph.new raw) = .ok true) (hm' : isMinimal tb' (Graph.new raw') = .ok true) :
    AreIsomorphic raw raw' ↔ ∃ Φ, IsInfiniteIso raw raw' Φ := by
  have hs : LocallyStable raw pos := by
    obtain ⟨b, h1, h2⟩ := C37_locally_stable raw tb pos hp
    exact h2.1 (Outcome.ok.inj (h1.symm.trans hl))
  have hs' : LocallyStable raw' pos' := by
    obtain ⟨b, h1, h2⟩ := C37_locally_stable raw' tb' pos' hp'
    exact h2.1 (Outcome.ok.inj (h1.symm.trans hl'))
  have hd : PlacesDistinct raw pos := by
    obtain ⟨b, h1, h2⟩ := C35_is_stable raw tb pos hp
    exact placesDistinct_iff.2 (h2.1 (Outcome.ok.inj (h1.symm.trans hst)))
  have hf : LatticeIsFull raw pos := by
    obtain ⟨b, h1, h2⟩ := C42_is_minimal raw tb pos hp hs hc hne hsm hz
    exact h2.1 (Outcome.ok.inj (h1.symm.trans hm))
  have hf' : LatticeIsFull raw' pos' := by
    obtain ⟨b, h1, h2⟩ := C42_is_minimal raw' tb' pos' hp' hs' hc' hne' hsm' hz'
    exact h2.1 (Outcome.ok.inj (h1.symm.trans hm'))
  exact C90_isomorphic raw raw' pos pos' hc hne hb hb' hd hf hf'

/-- C90: every symmetry of the infinite graph of a stable graph with full lattice comes from an automorphism of the
quotient graph. -/
theorem C90_symmetry (raw : List (Edge T)) (pos : Nat → Fin (LabelVector.dim T) → ℚ)
    (hc : PeriodicConnected raw) (hne : raw ≠ [])
    (hb : IsBarycentric (Graph.new raw).edges (Graph.new raw).vertices pos)
    (hd : PlacesDistinct raw pos) (hfull : LatticeIsFull raw pos)
    (Φ : Nat × T → Nat × T) (h : IsInfiniteIso raw raw Φ) :
    ∃ vm em A s, IsGraphAut raw pos vm em A ∧
      ∀ x, IsVertex raw x.1 → (Φ x).1 = vm x.1 ∧ place pos (Φ x) = A.mulVec (place pos x) + s := by
  obtain ⟨e, he⟩ := List.exists_mem_of_ne_nil raw hne
  obtain ⟨A, s, L, -, hA, hL, -⟩ := h.exists_equiv hc hb hb (v0 := e.head) ⟨e, he, Or.inl rfl⟩ hd hfull hfull
  obtain ⟨h1, h2⟩ := h.descends hd hA hL
  exact ⟨_, _, A, s, h1, fun x hx => ⟨h2 x hx, hA x hx⟩⟩

/-- C90: `automorphism` finds every symmetry of the infinite graph: asked for the image of some vertex and the linear
part, it returns the automorphism that the symmetry induces. -/
theorem C90_automorphism (raw : List (Edge T)) (tb : Outcome PosTable) (pos : Nat → Fin (LabelVector.dim T) → ℚ)
    (hp : Places tb (Graph.new raw) pos) (hs : LocallyStable raw pos) (hc : PeriodicConnected raw) (hne : raw ≠ [])
    (hb : IsBarycentric (Graph.new raw).edges (Graph.new raw).vertices pos)
    (hd : PlacesDistinct raw pos) (hfull : LatticeIsFull raw pos)
    (Φ : Nat × T → Nat × T) (h : IsInfiniteIso raw raw Φ) :
    ∃ A, IsUnit A ∧ (∃ s, ∀ x, IsVertex raw x.1 → place pos (Φ x) = A.mulVec (place pos x) + s) ∧
      ∀ (x0 : Nat × T) (a : AffineMap ℚ) (t : Fin (LabelVector.dim T) → ℚ), IsVertex raw x0.1 → IsAff a A t →
        ∃ φ vm em, automorphism tb (Graph.new raw) x0.1 (Φ x0).1 a = .ok (some φ) ∧ Stands raw φ vm em A t ∧
          IsGraphAut raw pos vm em A ∧ ∀ x, IsVertex raw x.1 → (Φ x).1 = vm x.1 := by
  obtain ⟨e, he⟩ := List.exists_mem_of_ne_nil raw hne
  obtain ⟨A, s, L, hU, hA, hL, -⟩ := h.exists_equiv hc hb hb (v0 := e.head) ⟨e, he, Or.inl rfl⟩ hd hfull hfull
  obtain ⟨h1, h2⟩ := h.descends hd hA hL
  refine ⟨A, hU, ⟨s, hA⟩, fun x0 a t hx0 ha => ?_⟩
  have hq : QuotientConnected raw := quotient_of_periodic hc
  obtain ⟨r, h3, h4, h5⟩ := C37_automorphism raw tb pos hp hs hq a A t ha hU x0.1 (Φ x0).1 hx0
  cases r with
  | none => exact absurd (h2 x0 hx0).symm (h5 rfl _ _ h1)
  | some φ =>
    obtain ⟨-, vm, em, h6, h7, h8⟩ := h4 φ rfl
    refine ⟨φ, vm, em, h3, h6, h7, fun x hx => ?_⟩
    have hu := StarMap.unique (locallyStable_new.2 hs) (quotientConnected_new.2 hq)
      (isGraphAut_new.2 h1).starMap (isGraphAut_new.2 h7).starMap ((isVertex_new raw _).2 hx0)
      (show (Φ (x0.1, 0)).1 = vm x0.1 by rw [h8, h2 x0 hx0])
    rw [h2 x hx, ← hu.1 x.1 ((isVertex_new raw _).2 hx)]

/-- symmetries that translate the places are lattice translations, if the lattice is full -/
theorem translation_of_one {raw : List (Edge T)} {pos : Nat → Fin (LabelVector.dim T) → ℚ}
    {s : Fin (LabelVector.dim T) → ℚ} {v0 : Nat} (hv0 : IsVertex raw v0)
    (hd : PlacesDistinct raw pos) (hfull : LatticeIsFull raw pos) {Φ : Nat × T → Nat × T} (h : IsInfiniteIso raw raw Φ)
    (hA : ∀ x, IsVertex raw x.1 → place pos (Φ x) =
      (1 : Matrix (Fin (LabelVector.dim T)) (Fin (LabelVector.dim T)) ℚ).mulVec (place pos x) + s) :
    ∃ t : T, ∀ x, IsVertex raw x.1 → Φ x = (x.1, x.2 + t) := by
  have hg := (h.descends (L := fun t => t) hd hA (fun t => by rw [Matrix.one_mulVec])).1
  have hfix : ∀ v, IsVertex raw v → (Φ (v, 0)).1 = v := fun v hv =>
    hd _ _ (h.1.mapsTo (show IsVertex raw (v, (0 : T)).1 from hv)) hv (hfull _ ⟨_, hg⟩ v hv)
  refine ⟨(Φ (v0, 0)).2, fun x hx => ?_⟩
  have h3 := hA (v0, 0) hv0
  rw [Matrix.one_mulVec] at h3
  have h4 : shv (Φ (v0, (0 : T))).2 = s := by
    have h5 : pos (Φ (v0, (0 : T))).1 + shv (Φ (v0, (0 : T))).2 = pos v0 + shv (0 : T) + s := h3
    rw [hfix _ hv0, shv_zero, add_zero] at h5
    exact add_left_cancel h5
  refine hd.inj (h.1.mapsTo hx) hx ?_
  rw [hA x hx, Matrix.one_mulVec, ← h4]
  exact (place_move _ x).symm

theorem affine_iterate {raw : List (Edge T)} {pos : Nat → Fin (LabelVector.dim T) → ℚ}
    {A : Matrix (Fin (LabelVector.dim T)) (Fin (LabelVector.dim T)) ℚ}
    {s : Fin (LabelVector.dim T) → ℚ} {Φ : Nat × T → Nat × T} (h : IsInfiniteIso raw raw Φ)
    (hA : ∀ x, IsVertex raw x.1 → place pos (Φ x) = A.mulVec (place pos x) + s) (n : Nat) :
    IsInfiniteIso raw raw Φ^[n] ∧
      ∃ r, ∀ x, IsVertex raw x.1 → place pos (Φ^[n] x) = (A ^ n).mulVec (place pos x) + r := by
  induction n with
  | zero =>
    refine ⟨?_, 0, fun x _ => by simp⟩
    have := isInfSymmetry_move (raw := raw) (0 : T)
    have e : (move (0 : T)) = Φ^[0] := funext move_zero
    rwa [e] at this
  | succ n ih =>
    obtain ⟨h1, r, h2⟩ := ih
    refine ⟨?_, A.mulVec r + s, fun x hx => ?_⟩
    · rw [Function.iterate_succ']
      exact h.comp h1
    · rw [Function.iterate_succ_apply', hA _ (h1.1.mapsTo hx), h2 x hx, Matrix.mulVec_add, Matrix.mulVec_mulVec,
        ← pow_succ', add_assoc]

/-- C90: crystallographic restriction. The linear part of every symmetry of the infinite graph is an integer matrix with
determinant 1 or -1, and repeated 1, 2, 3, 4 or 6 times the symmetry becomes a lattice translation. -/
theorem C90_crystallographic (hdim : LabelVector.dim T ≤ 3) (raw : List (Edge T))
    (pos : Nat → Fin (LabelVector.dim T) → ℚ) (hc : PeriodicConnected raw) (hne : raw ≠ [])
    (hb : IsBarycentric (Graph.new raw).edges (Graph.new raw).vertices pos)
    (hd : PlacesDistinct raw pos) (hfull : LatticeIsFull raw pos)
    (Φ : Nat × T → Nat × T) (h : IsInfiniteIso raw raw Φ) :
    ∃ (M : Matrix (Fin (LabelVector.dim T)) (Fin (LabelVector.dim T)) ℤ) (s : Fin (LabelVector.dim T) → ℚ),
      |M.det| = 1 ∧
      (∀ x, IsVertex raw x.1 → place pos (Φ x) = (M.map (fun x : ℤ => (x : ℚ))).mulVec (place pos x) + s) ∧
      ∃ k ∈ [1, 2, 3, 4, 6], (M.map (fun x : ℤ => (x : ℚ))) ^ k = 1 ∧
        ∃ t : T, ∀ x, IsVertex raw x.1 → Φ^[k] x = (x.1, x.2 + t) := by
  obtain ⟨e, he⟩ := List.exists_mem_of_ne_nil raw hne
  have hv0 : IsVertex raw e.head := ⟨e, he, Or.inl rfl⟩
  obtain ⟨vm, em, A, s, hg, hA⟩ := C90_symmetry raw pos hc hne hb hd hfull Φ h
  obtain ⟨M, rfl, hM⟩ := hg.unimodular hc hv0
  have : Finite {e : Edge T // IsDirected raw e} := finite_dirs raw
  have hfo : 0 < orderOf (M.map (fun x : ℤ => (x : ℚ))) := by
    have h1 : (M.map (fun x : ℤ => (x : ℚ))) ^ orderOf hg.perm = 1 := by
      refine mat_ext_span (span_edgeVecs (pos := pos) hc hv0) (fun e he => ?_)
      rw [← hg.perm_pow _ ⟨e, he⟩, pow_orderOf_eq_one, Matrix.one_mulVec]
      rfl
    exact orderOf_pos_iff.2 (isOfFinOrder_iff_pow_eq_one.2 ⟨_, orderOf_pos hg.perm, h1⟩)
  refine ⟨M, s, hM, fun x hx => (hA x hx).2, _, orderOf_crystallographic hdim hfo, pow_orderOf_eq_one _, ?_⟩
  obtain ⟨h1, r, h2⟩ := affine_iterate h (fun x hx => (hA x hx).2) (orderOf (M.map (fun x : ℤ => (x : ℚ))))
  rw [pow_orderOf_eq_one] at h2
  exact translation_of_one hv0 hd hfull h1 h2

/-- enough directed edges with independent vectors -/
theorem exists_indep_edges {raw : List (Edge T)} {pos : Nat → Fin (LabelVector.dim T) → ℚ}
    (hc : PeriodicConnected raw) {v0 : Nat} (hv0 : IsVertex raw v0) :
    ∃ es : Fin (LabelVector.dim T) → Edge T, (∀ k, IsDirected raw (es k)) ∧
      Submodule.span ℚ (Set.range (fun k => edgeVec pos (es k))) = ⊤ := by
  have hsp : Submodule.span ℚ (Set.range (fun e : {e : Edge T // IsDirected raw e} => edgeVec pos e.1)) = ⊤ := by
    rw [← span_edgeVecs (pos := pos) hc hv0]
    congr 1
    ext x
    simp [edgeVecs, eq_comm]
  have : Finite {e : Edge T // IsDirected raw e} := finite_dirs raw
  obtain ⟨b, hb1, hb2, hb3⟩ := exists_linearIndependent ℚ
    (Set.range (fun e : {e : Edge T // IsDirected raw e} => edgeVec pos e.1))
  have hfin : Finite b := (Set.finite_range _).subset hb1 |>.to_subtype
  have := Fintype.ofFinite b
  have hcard : Fintype.card b = LabelVector.dim T := by
    have h1 := Module.finrank_eq_card_basis (Module.Basis.mk hb3 (by rw [Subtype.range_coe, hb2, hsp]))
    rw [← h1]; simp
  let eq := (Fintype.equivFinOfCardEq hcard).symm
  have hch : ∀ k, ∃ e : {e : Edge T // IsDirected raw e}, edgeVec pos e.1 = (eq k).1 := fun k => hb1 (eq k).2
  choose g hg using hch
  refine ⟨fun k => (g k).1, fun k => (g k).2, ?_⟩
  have : (fun k => edgeVec pos (g k).1) = Subtype.val ∘ eq := funext hg
  rw [this, eq.surjective.range_comp, Subtype.range_coe, hb2, hsp]

/-- C90: up to lattice translations there are at most as many symmetries of the infinite graph as there are directed
edges in the quotient graph, to the power of the dimension. -/
theorem C90_finite (raw : List (Edge T)) (pos : Nat → Fin (LabelVector.dim T) → ℚ)
    (hc : PeriodicConnected raw) (hne : raw ≠ [])
    (hb : IsBarycentric (Graph.new raw).edges (Graph.new raw).vertices pos)
    (hd : PlacesDistinct raw pos) (hfull : LatticeIsFull raw pos) :
    ∃ L : List (Nat × T → Nat × T), L.length ≤ (2 * (Graph.new raw).edges.length) ^ LabelVector.dim T ∧
      (∀ Ψ ∈ L, IsInfiniteIso raw raw Ψ) ∧
      ∀ Φ, IsInfiniteIso raw raw Φ → ∃ Ψ ∈ L, ∃ t : T, ∀ x, IsVertex raw x.1 → Φ x = ((Ψ x).1, (Ψ x).2 + t) := by
  classical
  obtain ⟨e, he⟩ := List.exists_mem_of_ne_nil raw hne
  have hv0 : IsVertex raw e.head := ⟨e, he, Or.inl rfl⟩
  obtain ⟨es, hes, hsp⟩ := exists_indep_edges (pos := pos) hc hv0
  obtain ⟨des, -, hdes, -, hlen⟩ := C27_directed_edges raw
  have hcd : des.toFinset.card ≤ 2 * (Graph.new raw).edges.length := by
    rw [← hlen]; exact List.toFinset_card_le des
  -- every symmetry has a linear part and moves the edges `es` to directed edges
  have hsym : ∀ Φ : {Φ : Nat × T → Nat × T // IsInfiniteIso raw raw Φ}, ∃ vm em A s, IsGraphAut raw pos vm em A ∧
      ∀ x, IsVertex raw x.1 → (Φ.1 x).1 = vm x.1 ∧ place pos (Φ.1 x) = A.mulVec (place pos x) + s :=
    fun Φ => C90_symmetry raw pos hc hne hb hd hfull Φ.1 Φ.2
  choose vm em A s hg hA using hsym
  have key : ∀ v0, IsVertex raw v0 → ∀ Φ Ψ, (∀ k, em Φ (es k) = em Ψ (es k)) → vm Φ v0 = vm Ψ v0 → ∃ t : T, ∀ x, IsVertex raw x.1 →
      Φ.1 x = ((Ψ.1 x).1, (Ψ.1 x).2 + t) := by
    intro v0 hv0 Φ Ψ hk hv
    have hAB : A Φ = A Ψ := by
      apply Matrix.mulVec_injective
      funext x
      have hx : x ∈ Submodule.span ℚ (Set.range (fun k => edgeVec pos (es k))) := by rw [hsp]; trivial
      induction hx using Submodule.span_induction with
      | mem y hy =>
        obtain ⟨k, rfl⟩ := hy
        show (A Φ).mulVec _ = (A Ψ).mulVec _
        rw [← (hg Φ).vec _ (hes k), ← (hg Ψ).vec _ (hes k), hk]
      | zero => simp
      | add y z _ _ h1 h2 => rw [Matrix.mulVec_add, Matrix.mulVec_add, h1, h2]
      | smul c y _ h1 => rw [Matrix.mulVec_smul, Matrix.mulVec_smul, h1]
    refine ⟨(Φ.1 (v0, 0)).2 - (Ψ.1 (v0, 0)).2, fun x hx => ?_⟩
    have e1 := hA Φ (v0, 0) hv0
    have e2 := hA Ψ (v0, 0) hv0
    have e3 : place pos (Φ.1 (v0, 0)) = place pos (Ψ.1 (v0, 0)) +
        shv ((Φ.1 (v0, 0)).2 - (Ψ.1 (v0, 0)).2) := by
      have : (Φ.1 (v0, 0)).1 = (Ψ.1 (v0, 0)).1 := by rw [e1.1, e2.1]; exact hv
      simp only [place, this, shv_sub]
      abel
    rw [e1.2, e2.2, hAB, add_assoc] at e3
    have e4 := add_left_cancel e3
    refine hd.inj (Φ.2.1.mapsTo hx) (Ψ.2.1.mapsTo hx) ?_
    rw [(hA Φ x hx).2, hAB, e4, ← add_assoc, ← (hA Ψ x hx).2]
    exact (place_move _ _).symm
  have key' : ∀ Φ Ψ, (∀ k, em Φ (es k) = em Ψ (es k)) → ∃ t : T, ∀ x, IsVertex raw x.1 →
      Φ.1 x = ((Ψ.1 x).1, (Ψ.1 x).2 + t) := by
    intro Φ Ψ hk
    rcases Nat.eq_zero_or_pos (LabelVector.dim T) with h0 | h0
    · have : IsEmpty (Fin (LabelVector.dim T)) := by rw [h0]; infer_instance
      refine key e.head hv0 Φ Ψ hk (hd _ _ ((hg Φ).vbij.mapsTo hv0) ((hg Ψ).vbij.mapsTo hv0) ?_)
      exact ⟨fun _ => 0, fun i => this.elim i⟩
    · have h1 : IsVertex raw (es ⟨0, h0⟩).head := (isVertex_iff _ _).2 ⟨_, hes ⟨0, h0⟩, rfl⟩
      refine key _ h1 Φ Ψ hk ?_
      rw [← (hg Φ).head _ (hes _), ← (hg Ψ).head _ (hes _), hk]
  -- one symmetry for each choice of images
  let F : {Φ : Nat × T → Nat × T // IsInfiniteIso raw raw Φ} → Fin (LabelVector.dim T) → Edge T := fun Φ k => em Φ (es k)
  let S := (Fintype.piFinset (fun _ : Fin (LabelVector.dim T) => des.toFinset)).filter (fun g => ∃ Φ, F Φ = g)
  have hS : S.card ≤ des.toFinset.card ^ LabelVector.dim T := by
    refine (Finset.card_filter_le _ _).trans ?_
    rw [Fintype.card_piFinset]; simp
  have hmem : ∀ Φ, F Φ ∈ S := by
    intro Φ
    refine Finset.mem_filter.2 ⟨Fintype.mem_piFinset.2 (fun k => ?_), Φ, rfl⟩
    rw [List.mem_toFinset, hdes]
    exact (hg Φ).ebij.mapsTo (hes k)
  refine ⟨S.toList.attach.map (fun g => (Finset.mem_filter.1 (Finset.mem_toList.1 g.2)).2.choose.1), ?_, ?_, ?_⟩
  · rw [List.length_map, List.length_attach, Finset.length_toList]
    exact hS.trans (Nat.pow_le_pow_left hcd _)
  · intro Ψ hΨ
    obtain ⟨g, -, rfl⟩ := List.mem_map.1 hΨ
    exact (Finset.mem_filter.1 (Finset.mem_toList.1 g.2)).2.choose.2
  · intro Φ h
    have hm := Finset.mem_toList.2 (hmem ⟨Φ, h⟩)
    have hsp := (Finset.mem_filter.1 (Finset.mem_toList.1 hm)).2.choose_spec
    refine ⟨_, List.mem_map.2 ⟨⟨_, hm⟩, List.mem_attach _ _, rfl⟩, ?_⟩
    exact key' ⟨Φ, h⟩ _ (fun k => congrFun hsp.symm k)

/-- C90: the answer of `is_minimal` for a stable graph, without reference to places: does every symmetry of the infinite
graph that moves all vertices by a bounded number of steps come from the given lattice? -/
theorem C90_is_minimal (raw : List (Edge T)) (tb : Outcome PosTable) (pos : Nat → Fin (LabelVector.dim T) → ℚ)
    (hp : Places tb (Graph.new raw) pos) (hs : LocallyStable raw pos) (hc : PeriodicConnected raw) (hne : raw ≠ [])
    (hsm : (Graph.new raw).vertices.length ≤ 2147483647)
    (hz : ∀ v ∈ (Graph.new raw).vertices.head?, pos v = 0)
    (hb : IsBarycentric (Graph.new raw).edges (Graph.new raw).vertices pos) (hd : PlacesDistinct raw pos) :
    ∃ b, isMinimal tb (Graph.new raw) = .ok b ∧
      (b = true ↔ ∀ Φ, IsInfiniteIso raw raw Φ → IsBoundedMap raw Φ →
        ∃ t : T, ∀ x, IsVertex raw x.1 → Φ x = (x.1, x.2 + t)) := by
  obtain ⟨b, h1, h2⟩ := C42_is_minimal raw tb pos hp hs hc hne hsm hz
  refine ⟨b, h1, h2.trans ?_⟩
  obtain ⟨e, he⟩ := List.exists_mem_of_ne_nil raw hne
  have hv0 : IsVertex raw e.head := ⟨e, he, Or.inl rfl⟩
  constructor
  · intro hfull Φ h hbd
    obtain ⟨A, s, hA⟩ := h.affine hc hb hb hv0
    obtain rfl : A = 1 := hbd.linear_one hv0 hA
    exact translation_of_one hv0 hd hfull h hA
  · intro hall γ ⟨em, hg⟩ v hv
    obtain ⟨c, Φ, k1, k2, k3⟩ := C37_infinite_graph raw pos hc hne γ em 1 hg
    have h : IsInfiniteIso raw raw Φ := ⟨k1, k3⟩
    have heq := fun t x hx => h.equivariant (A := 1) (s := c) hd (fun x hx => (k2 x hx).2) (L := fun t => t)
      (fun t => by rw [Matrix.one_mulVec]) t (x := x) hx
    obtain ⟨t, ht⟩ := hall Φ h (bounded_of_equivariant hc h heq)
    have h3 := ht (v, 0) hv
    have h4 : γ v = v := by
      rw [← (k2 (v, 0) hv).1, h3]
    rw [h4]
    exact ⟨0, fun k => by simp⟩

/-- C90: a symmetry of a stable graph is determined by the images of `d + 1` vertices. -/
theorem C90_determined (raw : List (Edge T)) (pos : Nat → Fin (LabelVector.dim T) → ℚ)
    (hc : PeriodicConnected raw) (hb : IsBarycentric (Graph.new raw).edges (Graph.new raw).vertices pos)
    (hd : PlacesDistinct raw pos) (v : Nat) (hv : IsVertex raw v) (u : Fin (LabelVector.dim T) → T)
    (hu : ∀ k, shv (u k) = Pi.single k 1) (Φ Ψ : Nat × T → Nat × T) (h : IsInfiniteIso raw raw Φ)
    (h' : IsInfiniteIso raw raw Ψ) (h0 : Φ (v, 0) = Ψ (v, 0)) (hk : ∀ k, Φ (v, u k) = Ψ (v, u k)) :
    ∀ x, IsVertex raw x.1 → Φ x = Ψ x := by
  obtain ⟨A, s, hA⟩ := h.affine hc hb hb hv
  obtain ⟨B, t, hB⟩ := h'.affine hc hb hb hv
  have e0 : A.mulVec (pos v) + s = B.mulVec (pos v) + t := by
    have e1 := hA (v, 0) hv
    have e2 := hB (v, 0) hv
    rw [h0, e2] at e1
    simpa [place, shv_zero] using e1.symm
  have hAB : A = B := by
    ext i k
    have e1 := hA (v, u k) hv
    have e2 := hB (v, u k) hv
    rw [hk, e2] at e1
    simp only [place, Matrix.mulVec_add, hu] at e1
    have e3 : B.mulVec (Pi.single k 1) = A.mulVec (Pi.single k 1) := by
      have a1 : B.mulVec (Pi.single k 1) = (B.mulVec (pos v) + B.mulVec (Pi.single k 1) + t) - (B.mulVec (pos v) + t) := by
        abel
      rw [a1, e1, ← e0]; abel
    have := congrFun e3 i
    simpa using this.symm
  subst hAB
  have hst : s = t := add_left_cancel e0
  subst hst
  intro x hx
  exact hd.inj (h.1.mapsTo hx) (h'.1.mapsTo hx) (by rw [hA x hx, hB x hx])

/-- C90: vertices in the same class of `vertex_orbits` are related by a symmetry of the infinite graph. -/
theorem C90_vertex_orbits (raw : List (Edge T)) (tb : Outcome PosTable)
    (pos : Nat → Fin (LabelVector.dim T) → ℚ) (hp : Places tb (Graph.new raw) pos) (hs : LocallyStable raw pos)
    (hc : PeriodicConnected raw) (hne : raw ≠ []) :
    ∃ N l cs, (∀ fuel, N ≤ fuel → symmetries fuel tb (Graph.new raw) = .ok l) ∧
      vertexOrbits (Graph.new raw) l = .ok cs ∧ (∀ v, v ∈ cs.flatten ↔ IsVertex raw v) ∧
      ∀ c ∈ cs, ∀ v ∈ c, ∀ w ∈ c, ∀ s t : T, ∃ Φ, IsInfiniteIso raw raw Φ ∧ Φ (v, s) = (w, t) := by
  obtain ⟨N, l, cs, h1, h2, -, -, h5, h6⟩ := C41_vertex_orbits raw tb pos hp hs hc hne
  obtain ⟨N', l', h1', h7, -⟩ := C39_symmetries_group raw tb pos hp hs hc hne
  have hl : l' = l := by
    have a := h1 (max N N') (le_max_left _ _)
    have b := h1' (max N N') (le_max_right _ _)
    exact Outcome.ok.inj (b.symm.trans a)
  subst hl
  refine ⟨N, l', cs, h1, h2, h5, ?_⟩
  intro c hcs v hv w hw s t
  obtain ⟨φ, hφ, hlook⟩ := (h6 c hcs v hv w).1 hw
  obtain ⟨A, vm, em, h8, h9⟩ := h7 φ hφ
  obtain ⟨hvv, rfl⟩ := (h8.vkeys v w).1 hlook
  obtain ⟨d, Φ, k1, k2, k3⟩ := C37_infinite_graph raw pos hc hne vm em A h9
  have h : IsInfiniteIso raw raw Φ := ⟨k1, k3⟩
  refine ⟨fun x => move (t - (Φ (v, s)).2) (Φ x), (isInfSymmetry_move _).comp h, ?_⟩
  refine Prod.ext (k2 (v, s) hvv).1 ?_
  show (Φ (v, s)).2 + (t - (Φ (v, s)).2) = t
  abel

theorem locallyStable_transfer {raw raw' : List (Edge T)} {pos pos' : Nat → Fin (LabelVector.dim T) → ℚ}
    (hs : LocallyStable raw pos) (hd' : PlacesDistinct raw' pos') {Φ : Nat × T → Nat × T}
    (h : IsInfiniteIso raw raw' Φ) : LocallyStable raw' pos' := by
  have hh : ∀ e, IsDirected raw' e → IsVertex raw' e.head := fun e he => (isVertex_iff _ _).2 ⟨e, he, rfl⟩
  have ht : ∀ e, IsDirected raw' e → IsVertex raw' e.tail := fun e he =>
    (isVertex_iff _ _).2 ⟨e.neg, isDirected_neg.2 he, rfl⟩
  constructor
  · intro e f he hf hef hv
    rw [edgeVec_eq, edgeVec_eq, hef] at hv
    have h1 : ((e.tail, e.shift) : Nat × T) = (f.tail, f.shift) := hd'.inj (ht e he) (ht f hf) (sub_left_injective hv)
    obtain ⟨a, b, c⟩ := e
    obtain ⟨a', b', c'⟩ := f
    simp only [Prod.mk.injEq] at h1 hef
    rw [hef, h1.1, h1.2]
  · intro e he heq
    have h1 : e.tail = e.head := congrArg Edge.head heq
    have h2 : -e.shift = e.shift := congrArg Edge.shift heq
    have h3 : e.shift = 0 := by
      apply shv_inj
      have := congrArg shv h2
      rw [shv_neg] at this
      rw [shv_zero]
      ext k
      have := congrFun this k
      simp only [Pi.neg_apply, Pi.zero_apply] at this ⊢
      linarith
    obtain ⟨x, hx, hx'⟩ := h.1.surjOn (show (e.head, (0 : T)) ∈ {x : Nat × T | IsVertex raw' x.1} from hh e he)
    have hadj : Adj raw' (e.head, (0 : T)) (e.head, 0) := ⟨e, he, rfl, h1, by rw [h3, add_zero]⟩
    rw [← hx'] at hadj
    obtain ⟨f, hf, f1, f2, f3⟩ := (h.2 x x hx hx).1 hadj
    refine hs.2 f hf ?_
    have f4 : f.shift = 0 := by simpa using f3
    obtain ⟨a, b, c⟩ := f
    simp only at f1 f2 f4
    simp [f1, f2, f4]

/-- C90: what `minimal_image` returns for a stable graph is stable and has the full lattice. -/
theorem C90_finer_form (raw raw' : List (Edge T)) (pos pos' : Nat → Fin (LabelVector.dim T) → ℚ)
    (hs : LocallyStable raw pos) (hc : PeriodicConnected raw) (hne : raw ≠ [])
    (hb : IsBarycentric (Graph.new raw).edges (Graph.new raw).vertices pos)
    (hb' : IsBarycentric (Graph.new raw').edges (Graph.new raw').vertices pos')
    (hd : PlacesDistinct raw pos) (hfin : IsFinerForm raw pos raw') :
    PeriodicConnected raw' ∧ LocallyStable raw' pos' ∧ PlacesDistinct raw' pos' ∧ LatticeIsFull raw' pos' := by
  obtain ⟨Φ, k1, k2, k3, -⟩ := hfin
  have h : IsInfiniteIso raw raw' Φ := ⟨k1, k2⟩
  obtain ⟨e, he⟩ := List.exists_mem_of_ne_nil raw hne
  have hv0 : IsVertex raw e.head := ⟨e, he, Or.inl rfl⟩
  obtain ⟨Ψ, hΨ, h1, h2⟩ := h.exists_inv
  obtain ⟨A, B, s, t, key, hA, hB⟩ := h.affine_inv hc hb hb' hv0 hΨ h1
  have hU : IsUnit A := IsUnit.of_mul_eq_one B (mul_eq_one_comm.1 key)
  have hc' := h.connected hc
  have hd' := hd.transfer h hU hA
  refine ⟨hc', locallyStable_transfer hs hd' h, hd', ?_⟩
  rintro γ ⟨em, hg⟩ v hv
  have hne' : raw' ≠ [] := by
    rintro rfl
    obtain ⟨f, hf, -⟩ := hv
    exact absurd hf List.not_mem_nil
  obtain ⟨c, X, m1, m2, m3⟩ := C37_infinite_graph raw' pos' hc' hne' γ em 1 hg
  have hX : IsInfiniteIso raw' raw' X := ⟨m1, m3⟩
  have hY : IsInfiniteIso raw raw (fun x => Ψ (X (Φ x))) := (hΨ.comp hX).comp h
  have hpl : ∀ x, IsVertex raw x.1 → place pos (Ψ (X (Φ x))) =
      (1 : Matrix (Fin (LabelVector.dim T)) (Fin (LabelVector.dim T)) ℚ).mulVec (place pos x) + B.mulVec c := by
    intro x hx
    have e1 := hB _ (hX.1.mapsTo (h.1.mapsTo hx))
    rw [(m2 _ (h.1.mapsTo hx)).2, Matrix.one_mulVec, Matrix.mulVec_add] at e1
    have e2 := hB _ (h.1.mapsTo hx)
    rw [h1 x hx] at e2
    rw [e1, Matrix.one_mulVec, e2]
    abel
  obtain ⟨hY1, hY2⟩ := hY.descends (L := fun t => t) hd hpl (fun t => by rw [Matrix.one_mulVec])
  obtain ⟨x, hx, hx'⟩ := h.1.surjOn (show (v, (0 : T)) ∈ {x : Nat × T | IsVertex raw' x.1} from hv)
  have hmx : IsVertex raw (Ψ (X (Φ x))).1 := hY.1.mapsTo hx
  have e3 : (Φ x).1 = (Φ (Ψ (X (Φ x)))).1 := (k3 x _ hx hmx).2 ⟨_, ⟨_, hY1⟩, (hY2 x hx).symm⟩
  rw [h2 _ (hX.1.mapsTo (h.1.mapsTo hx)), (m2 _ (h.1.mapsTo hx)).1, hx'] at e3
  rw [← e3]
  exact ⟨0, fun k => by simp⟩

/-- `raw'` describes the graph of `raw` after `minimal_image`: that function returned `None` and it is `raw`, or it
returned a graph with the edge list `raw'`. -/
def MinimalImageIs (tb : Outcome PosTable) (raw raw' : List (Edge T)) : Prop :=
  (minimalImage tb (Graph.new raw) = .ok none ∧ raw' = raw) ∨
  ∃ g, minimalImage tb (Graph.new raw) = .ok (some g) ∧ raw' = g.edges

/-- everything about the minimal image of one stable graph -/
theorem minimalImageIs_all {raw raw' : List (Edge T)} {tb : Outcome PosTable}
    {pos pos' : Nat → Fin (LabelVector.dim T) → ℚ}
    (hp : Places tb (Graph.new raw) pos) (hs : LocallyStable raw pos) (hc : PeriodicConnected raw) (hne : raw ≠ [])
    (hsm : (Graph.new raw).vertices.length ≤ 2147483647)
    (hz : ∀ v ∈ (Graph.new raw).vertices.head?, pos v = 0)
    (hb : IsBarycentric (Graph.new raw).edges (Graph.new raw).vertices pos) (hd : PlacesDistinct raw pos)
    (hm : MinimalImageIs tb raw raw')
    (hb' : IsBarycentric (Graph.new raw').edges (Graph.new raw').vertices pos') :
    (∃ Φ, IsInfiniteIso raw raw' Φ) ∧ PlacesDistinct raw' pos' ∧ LatticeIsFull raw' pos' := by
  have hlad : ¬ ∃ γ, IsLadderTranslation raw pos γ := by
    rintro ⟨γ, ⟨em, hg⟩, v, hv, hne', hsame⟩
    exact hne' (hd _ _ (hg.vbij.mapsTo hv) hv hsame)
  have hid : IsInfiniteIso raw raw (fun x => x) := by
    have := isInfSymmetry_move (raw := raw) (0 : T)
    have e : (move (0 : T)) = fun x => x := funext move_zero
    rwa [e] at this
  rcases C42_minimal_image_partial raw tb pos hp hs hc hne hsm hz hlad with ⟨hf, hi⟩ | ⟨hf, ⟨g, hi, hg⟩ | hi⟩
  · rcases hm with ⟨-, rfl⟩ | ⟨g, hg, -⟩
    · obtain ⟨e, he⟩ := List.exists_mem_of_ne_nil raw' hne
      have hv0 : IsVertex raw' e.head := ⟨e, he, Or.inl rfl⟩
      obtain ⟨A, s, hU, hA⟩ := hid.affine_unit hc hb hb' hv0
      have hd' := hd.transfer hid hU hA
      refine ⟨⟨_, hid⟩, hd', ?_⟩
      rintro γ ⟨em, hg⟩ v hv
      obtain ⟨c, X, m1, m2, m3⟩ := C37_infinite_graph raw' pos' hc hne γ em 1 hg
      have hX : IsInfiniteIso raw' raw' X := ⟨m1, m3⟩
      have heq : ∀ t x, IsVertex raw' x.1 → X (move t x) = move t (X x) := fun t x hx =>
        hX.equivariant (A := 1) (s := c) hd' (fun x hx => (m2 x hx).2) (L := fun t => t)
          (fun t => by rw [Matrix.one_mulVec]) t hx
      obtain ⟨C, r, hC⟩ := hX.affine hc hb hb hv0
      have hbd := bounded_of_equivariant hc hX heq
      obtain rfl : C = 1 := hbd.linear_one hv0 hC
      have h1 := (hX.descends (L := fun t => t) hd hC (fun t => by rw [Matrix.one_mulVec])).1
      have h2 := hd _ _ (hX.1.mapsTo (show IsVertex raw' (v, (0 : T)).1 from hv)) hv (hf _ ⟨_, h1⟩ v hv)
      rw [(m2 (v, 0) hv).1] at h2
      rw [h2]
      exact ⟨0, fun k => by simp⟩
    · rw [hi] at hg; exact absurd (Outcome.ok.inj hg) (by simp)
  · rcases hm with ⟨hi', -⟩ | ⟨g', hi', rfl⟩
    · rw [hi] at hi'; exact absurd (Outcome.ok.inj hi') (by simp)
    · rw [hi] at hi'
      obtain rfl := Option.some.inj (Outcome.ok.inj hi')
      obtain ⟨-, -, h1, h2⟩ := C90_finer_form raw _ pos pos' hs hc hne hb hb' hd hg
      obtain ⟨Φ, k1, k2, -⟩ := hg
      exact ⟨⟨Φ, k1, k2⟩, h1, h2⟩
  · rcases hm with ⟨hi', -⟩ | ⟨g', hi', -⟩ <;> rw [hi] at hi' <;> cases hi'

/-- C90: the infinite graphs of two stable graphs, given with respect to any lattices, are isomorphic exactly if
their minimal images are isomorphic as data (as far as `minimal_image` does not panic, see C42). -/
theorem C90_minimal_images (raw₁ raw₂ m₁ m₂ : List (Edge T)) (tb₁ tb₂ : Outcome PosTable)
    (pos₁ pos₂ q₁ q₂ : Nat → Fin (LabelVector.dim T) → ℚ)
    (hp₁ : Places tb₁ (Graph.new raw₁) pos₁) (hp₂ : Places tb₂ (Graph.new raw₂) pos₂)
    (hs₁ : LocallyStable raw₁ pos₁) (hs₂ : LocallyStable raw₂ pos₂)
    (hc₁ : PeriodicConnected raw₁) (hc₂ : PeriodicConnected raw₂) (hne₁ : raw₁ ≠ []) (hne₂ : raw₂ ≠ [])
    (hsm₁ : (Graph.new raw₁).vertices.length ≤ 2147483647) (hsm₂ : (Graph.new raw₂).vertices.length ≤ 2147483647)
    (hz₁ : ∀ v ∈ (Graph.new raw₁).vertices.head?, pos₁ v = 0) (hz₂ : ∀ v ∈ (Graph.new raw₂).vertices.head?, pos₂ v = 0)
    (hb₁ : IsBarycentric (Graph.new raw₁).edges (Graph.new raw₁).vertices pos₁)
    (hb₂ : IsBarycentric (Graph.new raw₂).edges (Graph.new raw₂).vertices pos₂)
    (hd₁ : PlacesDistinct raw₁ pos₁) (hd₂ : PlacesDistinct raw₂ pos₂)
    (hm₁ : MinimalImageIs tb₁ raw₁ m₁) (hm₂ : MinimalImageIs tb₂ raw₂ m₂)
    (hq₁ : IsBarycentric (Graph.new m₁).edges (Graph.new m₁).vertices q₁)
    (hq₂ : IsBarycentric (Graph.new m₂).edges (Graph.new m₂).vertices q₂) :
    (∃ Φ, IsInfiniteIso raw₁ raw₂ Φ) ↔ AreIsomorphic m₁ m₂ := by
  obtain ⟨⟨Φ₁, h₁⟩, d₁, f₁⟩ := minimalImageIs_all hp₁ hs₁ hc₁ hne₁ hsm₁ hz₁ hb₁ hd₁ hm₁ hq₁
  obtain ⟨⟨Φ₂, h₂⟩, d₂, f₂⟩ := minimalImageIs_all hp₂ hs₂ hc₂ hne₂ hsm₂ hz₂ hb₂ hd₂ hm₂ hq₂
  have hnm : m₁ ≠ [] := by
    rintro rfl
    obtain ⟨e, he⟩ := List.exists_mem_of_ne_nil raw₁ hne₁
    obtain ⟨f, hf, -⟩ := h₁.1.mapsTo (show IsVertex raw₁ (e.head, (0 : T)).1 from ⟨e, he, Or.inl rfl⟩)
    exact absurd hf List.not_mem_nil
  rw [C90_isomorphic m₁ m₂ q₁ q₂ (h₁.connected hc₁) hnm hq₁ hq₂ d₁ f₁ f₂]
  obtain ⟨Ψ₁, g₁, -, -⟩ := h₁.exists_inv
  obtain ⟨Ψ₂, g₂, -, -⟩ := h₂.exists_inv
  constructor
  · rintro ⟨Φ, h⟩; exact ⟨_, (h₂.comp h).comp g₁⟩
  · rintro ⟨Φ, h⟩; exact ⟨_, (g₂.comp h).comp h₁⟩

end

/-! ## Witnesses -/

theorem hcb_distinct : PlacesDistinct hcbEx hcbPos := by
  obtain ⟨b, h1, h2⟩ := C35_is_stable hcbEx hcbTb hcbPos hcb_places
  have h3 : isStableIn hcbTb (Graph.new hcbEx) = .ok true := by decide +kernel
  exact placesDistinct_iff.2 (h2.1 (Outcome.ok.inj (h1.symm.trans h3)))

theorem hcb3_connected : PeriodicConnected hcb3Ex := hcb3_iso.connected.2 hcb_connected

/-- the hypotheses hold for the honeycomb and for the honeycomb in another basis of the lattice -/
theorem hcb_hcb3 : AreIsomorphic hcbEx hcb3Ex ↔ ∃ Φ, IsInfiniteIso hcbEx hcb3Ex Φ :=
  C90_isomorphic_program hcbEx hcb3Ex hcbTb hcb3Tb hcbPos hcb3Pos hcb_places hcb3_places hcb_barycentric hcb3_barycentric
    hcb_zero hcb3_zero (by decide +kernel) (by decide +kernel) (by decide) (by decide) hcb_connected hcb3_connected
    (by decide +kernel) (by decide +kernel) (by decide +kernel) (by decide +kernel) (by decide +kernel)

example : ∃ Φ, IsInfiniteIso hcbEx hcb3Ex Φ := hcb_hcb3.1 ⟨_, _, _, hcb3_iso⟩

/-- a half turn of the honeycomb around the middle of an edge, and what the theorems say about it -/
theorem hcb_turn : IsPeriodicIso hcbEx hcbEx (fun v => 3 - v) (AddEquiv.neg V2) 0 := by
  have hx : ∀ x, IsVertex hcbEx x → x = 1 ∨ x = 2 := by
    rintro x ⟨e, he, h⟩
    simp only [hcbEx, List.mem_cons, List.not_mem_nil, or_false] at he
    rcases he with rfl | rfl | rfl | rfl <;> simp at h <;> tauto
  refine isPeriodicIso_map (fun a ha b hb hab => ?_) (by decide +kernel)
  rcases hx a ha with rfl | rfl <;> rcases hx b hb with rfl | rfl <;> simp at hab ⊢

example := C90_symmetry hcbEx hcbPos hcb_connected (by decide) hcb_barycentric hcb_distinct hcb_full _ hcb_turn.infinite
example := C90_automorphism hcbEx hcbTb hcbPos hcb_places hcb_locallyStable hcb_connected (by decide) hcb_barycentric
  hcb_distinct hcb_full _ hcb_turn.infinite
example := C90_affine hcbEx hcb3Ex hcbPos hcb3Pos hcb_connected (by decide) hcb_barycentric hcb3_barycentric
example := C90_finite hcbEx hcbPos hcb_connected (by decide) hcb_barycentric hcb_distinct hcb_full
example := C90_crystallographic (by decide) hcbEx hcbPos hcb_connected (by decide) hcb_barycentric hcb_distinct hcb_full
  _ hcb_turn.infinite
example := C90_is_minimal hcbEx hcbTb hcbPos hcb_places hcb_locallyStable hcb_connected (by decide) (by decide +kernel)
  hcb_zero hcb_barycentric hcb_distinct
example := C90_vertex_orbits hcbEx hcbTb hcbPos hcb_places hcb_locallyStable hcb_connected (by decide)
example := C90_determined hcbEx hcbPos hcb_connected hcb_barycentric hcb_distinct 1 ⟨⟨1, 2, ⟨1, 0⟩⟩, by decide, Or.inl rfl⟩
  ![⟨1, 0⟩, ⟨0, 1⟩] (by decide +kernel)

/-- without full lattices the data need not be isomorphic although the infinite graphs are: the square lattice and the
square lattice with a doubled cell -/
theorem C90_lattice_needed : ∃ raw' : List (Edge V2), (∃ Φ, IsInfiniteIso sql2Ex raw' Φ) ∧ PlacesDistinct sql2Ex sql2Pos ∧
    ¬ AreIsomorphic sql2Ex raw' := by
  have h0 : (minimalImage sql2Tb (Graph.new sql2Ex) >>= fun g => Outcome.ok (g.map Graph.edges)) =
      .ok (some [⟨1, 1, ⟨0, 1⟩⟩, ⟨1, 1, ⟨1, 0⟩⟩]) := by decide +kernel
  rcases C42_minimal_image_partial sql2Ex sql2Tb sql2Pos sql2_places sql2_locallyStable sql2_connected (by decide)
    sql2_small sql2_origin sql2_noLadder with ⟨h, -⟩ | ⟨-, ⟨h, h1, h2⟩ | h⟩
  · exact absurd h sql2_notFull
  · rw [h1] at h0
    have he := Option.some.inj (Outcome.ok.inj h0)
    rw [he] at h2
    obtain ⟨Φ, k1, k2, -⟩ := h2
    refine ⟨_, ⟨Φ, k1, k2⟩, ?_, ?_⟩
    · obtain ⟨b, h1, h2⟩ := C35_is_stable sql2Ex sql2Tb sql2Pos sql2_places
      have h3 : isStableIn sql2Tb (Graph.new sql2Ex) = .ok true := by decide +kernel
      exact placesDistinct_iff.2 (h2.1 (Outcome.ok.inj (h1.symm.trans h3)))
    · rintro ⟨vm, L, c, hi⟩
      have := (C80_vertices _ _ _ _ _ hi).2.1
      revert this
      decide +kernel
  · rw [h] at h0
    cases h0

/-- the hypotheses hold for the square lattice and the square lattice with a doubled cell in two forms -/
theorem sql2_distinct : PlacesDistinct sql2Ex sql2Pos := by
  obtain ⟨b, h1, h2⟩ := C35_is_stable sql2Ex sql2Tb sql2Pos sql2_places
  have h3 : isStableIn sql2Tb (Graph.new sql2Ex) = .ok true := by decide +kernel
  exact placesDistinct_iff.2 (h2.1 (Outcome.ok.inj (h1.symm.trans h3)))

theorem sql2_image : MinimalImageIs sql2Tb sql2Ex [⟨1, 1, ⟨0, 1⟩⟩, ⟨1, 1, ⟨1, 0⟩⟩] := by
  have h0 : (minimalImage sql2Tb (Graph.new sql2Ex) >>= fun g => Outcome.ok (g.map Graph.edges)) =
      .ok (some [⟨1, 1, ⟨0, 1⟩⟩, ⟨1, 1, ⟨1, 0⟩⟩]) := by decide +kernel
  obtain ⟨g, h1⟩ := ok_of_bind_ok h0
  rw [h1] at h0
  cases g with
  | none => cases h0
  | some g =>
    exact Or.inr ⟨g, h1, (Option.some.inj (Outcome.ok.inj h0)).symm⟩

theorem hcb_image : MinimalImageIs hcbTb hcbEx hcbEx := by
  have h0 : (minimalImage hcbTb (Graph.new hcbEx) >>= fun g => Outcome.ok (g.map Graph.edges)) = .ok none := by
    decide +kernel
  obtain ⟨g, h1⟩ := ok_of_bind_ok h0
  rw [h1] at h0
  cases g with
  | none => exact Or.inl ⟨h1, rfl⟩
  | some g => cases h0

/-- the square lattice with the doubled cell is no honeycomb -/
example : ¬ ∃ Φ, IsInfiniteIso hcbEx sql2Ex Φ := by
  rw [C90_minimal_images hcbEx sql2Ex hcbEx [⟨1, 1, ⟨0, 1⟩⟩, ⟨1, 1, ⟨1, 0⟩⟩] hcbTb sql2Tb hcbPos sql2Pos hcbPos sqPos
    hcb_places sql2_places hcb_locallyStable sql2_locallyStable hcb_connected sql2_connected (by decide) (by decide)
    (by decide +kernel) sql2_small hcb_zero sql2_origin hcb_barycentric sql2_barycentric hcb_distinct sql2_distinct
    hcb_image sql2_image hcb_barycentric (by unfold IsBarycentric; decide +kernel)]
  rintro ⟨vm, L, c, hi⟩
  have := (C80_vertices _ _ _ _ _ hi).2.1
  revert this
  decide +kernel

end Systre
