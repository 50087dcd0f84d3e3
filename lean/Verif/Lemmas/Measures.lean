import Verif.Lemmas.Traverse
import Verif.Lemmas.LinAlgRep
import Mathlib.LinearAlgebra.FreeModule.Finite.CardQuotient
import Mathlib.GroupTheory.Index

/-! # Lattices of cycles, rank and index -/

set_option linter.unusedSectionVars false

namespace Systre
open Submodule
section
variable {T : Type} [LabelVector T] [LawfulLabelVector T]

/-- Shift vectors as integer vectors. -/
noncomputable def vecAdd : T ≃+ (Fin (LabelVector.dim T) → ℤ) :=
  AddEquiv.ofBijective
    ({ toFun := fun a i => rent (LabelVector.toVec a) i.1
       map_zero' := by ext i; exact LawfulLabelVector.toVec_zero _
       map_add' := by intro a b; ext i; exact LawfulLabelVector.toVec_add _ _ _ } :
      T →+ (Fin (LabelVector.dim T) → ℤ))
    (by
      constructor
      · intro a b h
        apply LawfulLabelVector.toVec_inj
        apply List.ext_getElem
        · rw [LawfulLabelVector.toVec_length, LawfulLabelVector.toVec_length]
        · intro i h1 h2
          have := congrFun h ⟨i, by rw [LawfulLabelVector.toVec_length] at h1; exact h1⟩
          simp only [AddMonoidHom.coe_mk, ZeroHom.coe_mk, rent, List.getD, List.getElem?_eq_getElem h1,
            List.getElem?_eq_getElem h2, Option.getD_some] at this
          exact this
      · intro f
        obtain ⟨a, ha⟩ := LawfulLabelVector.toVec_surj (T := T) (List.ofFn f) (by simp)
        refine ⟨a, ?_⟩
        ext i
        simp only [AddMonoidHom.coe_mk, ZeroHom.coe_mk, ha]
        simp [rent, List.getD])

theorem vecAdd_apply (a : T) (i : Fin (LabelVector.dim T)) : vecAdd a i = rent (LabelVector.toVec a) i.1 := rfl

theorem vecAdd_rowVec (a : T) : vecAdd a = rowVec (LabelVector.dim T) (LabelVector.toVec a) := rfl

/-- Rank and index of a lattice from the echelon basis. -/
theorem lattice_measures (ts : List T) :
    ∃ bs : List (List Int), extendAll (ts.map LabelVector.toVec) [] = .ok bs ∧
      bs.length = Module.finrank ℤ (AddSubgroup.toIntSubmodule (AddSubgroup.closure {t | t ∈ ts})) ∧
      (bs.length = LabelVector.dim T → ∃ ds, omap (diagEntry bs) (List.range bs.length) = .ok ds ∧
        |ds.foldl (· * ·) 1| = ((AddSubgroup.closure {t | t ∈ ts}).index : Int)) := by
  obtain ⟨bs, h1, hE, h3, -, -⟩ := extendAll_ok (LabelVector.dim T) (ts.map LabelVector.toVec) []
    (Ech.nil _) (by
      intro v hv
      obtain ⟨t, -, rfl⟩ := List.mem_map.1 hv
      exact LawfulLabelVector.toVec_length t)
  rw [rspan_nil, sup_bot_eq] at h3
  have hl : ∀ b ∈ bs, b.length = LabelVector.dim T := fun b hb => (hE.row b hb).1
  have hl' : ∀ b ∈ ts.map LabelVector.toVec, b.length = LabelVector.dim T := by
    intro v hv
    obtain ⟨t, -, rfl⟩ := List.mem_map.1 hv
    exact LawfulLabelVector.toVec_length t
  have hspan := (rspan_eq_iff hl hl').1 h3
  have hli := (li_vecN hl).1 hE.li
  set L := AddSubgroup.closure {t : T | t ∈ ts} with hL
  let ψ : T ≃ₗ[ℤ] (Fin (LabelVector.dim T) → ℤ) := (vecAdd (T := T)).toIntLinearEquiv
  have hLs : AddSubgroup.toIntSubmodule L = span ℤ {t : T | t ∈ ts} := by
    rw [hL]
    exact AddSubgroup.toIntSubmodule_closure _
  have hmap : Submodule.map (ψ : T →ₗ[ℤ] _) (AddSubgroup.toIntSubmodule L) =
      span ℤ (Set.range (fun i : Fin bs.length => vecN (LabelVector.dim T) bs[i.1])) := by
    rw [hLs, map_span]
    have e1 : (fun i : Fin bs.length => vecN (LabelVector.dim T) bs[i.1]) =
      (vecN (LabelVector.dim T)) ∘ (fun i : Fin bs.length => bs[i.1]) := rfl
    rw [e1, Set.range_comp]
    have e2 : Set.range (fun i : Fin bs.length => bs[i.1]) = {b | b ∈ bs} := by
      ext b
      constructor
      · rintro ⟨i, rfl⟩; exact List.getElem_mem _
      · intro hb
        obtain ⟨i, hi, rfl⟩ := List.getElem_of_mem hb
        exact ⟨⟨i, hi⟩, rfl⟩
    rw [e2, hspan]
    congr 1
    ext f
    constructor
    · rintro ⟨t, ht, rfl⟩
      exact ⟨LabelVector.toVec t, List.mem_map.2 ⟨t, ht, rfl⟩, rfl⟩
    · rintro ⟨b, hb, rfl⟩
      obtain ⟨t, ht, rfl⟩ := List.mem_map.1 hb
      exact ⟨t, ht, rfl⟩
  refine ⟨bs, h1, ?_, fun hd => ?_⟩
  · have e := (ψ.submoduleMap (AddSubgroup.toIntSubmodule L)).finrank_eq
    rw [e, hmap, finrank_span_eq_card hli, Fintype.card_fin]
  · have hds : omap (diagEntry bs) (List.range bs.length) =
        .ok ((List.range bs.length).map (fun i => rent (bs.getD i []) i)) := by
      apply omap_ok
      intro i hi
      rw [List.mem_range] at hi
      unfold diagEntry
      have h5 : vecGet bs i = .ok bs[i] := by rw [vecGet_eq_ok]; exact List.getElem?_eq_getElem hi
      rw [h5, Outcome.ok_bind]
      have h6 : i < bs[i].length := by rw [hl _ (List.getElem_mem hi), ← hd]; exact hi
      rw [vecGet_eq_ok, List.getElem?_eq_getElem h6]
      simp [rent, List.getD, hi, h6]
    refine ⟨_, hds, ?_⟩
    rw [foldl_mul_prod, one_mul, prod_range_map]
    -- index through the equivalence
    have hidx : L.index = (L.map (vecAdd (T := T)).toAddMonoidHom).index :=
      (AddSubgroup.index_map_equiv L (vecAdd (T := T))).symm
    set N := span ℤ (Set.range (fun i : Fin bs.length => vecN (LabelVector.dim T) bs[i.1])) with hN
    have hL' : L.map (vecAdd (T := T)).toAddMonoidHom = N.toAddSubgroup := by
      rw [← hmap]
      ext x
      simp only [Submodule.mem_toAddSubgroup, Submodule.mem_map]
      constructor
      · rintro ⟨t, ht, rfl⟩; exact ⟨t, ht, rfl⟩
      · rintro ⟨t, ht, rfl⟩; exact ⟨t, ht, rfl⟩
    let b0 : Module.Basis (Fin bs.length) ℤ N := Module.Basis.span hli
    let b1 := b0.reindex (finCongr hd)
    have h7 := Submodule.natAbs_det_basis_change (Pi.basisFun ℤ (Fin (LabelVector.dim T))) N b1
    have h7' : (L.map (vecAdd (T := T)).toAddMonoidHom).index =
        ((Pi.basisFun ℤ (Fin (LabelVector.dim T))).det ((↑) ∘ b1)).natAbs := by
      rw [h7, hL']; rfl
    rw [hidx, h7', Int.natCast_natAbs]
    congr 1
    have h8 : ((↑) ∘ b1 : Fin (LabelVector.dim T) → (Fin (LabelVector.dim T) → ℤ)) =
        rowsM (LabelVector.dim T) bs := by
      ext i j
      have : (b1 i : Fin (LabelVector.dim T) → ℤ) =
          vecN (LabelVector.dim T) (bs[i.1]'(by rw [hd]; exact i.2)) := by
        simp only [b1, Module.Basis.reindex_apply]
        exact congrArg Subtype.val (Module.Basis.span_apply hli ((finCongr hd).symm i))
      simp only [Function.comp, this]
      unfold rowsM vecN
      simp [List.getD, hd]
    rw [h8]
    have h9 := detL_ech hE hd
    unfold detL at h9
    rw [if_pos hd] at h9
    rw [Module.Basis.det_apply]
    have h10 : (Pi.basisFun ℤ (Fin (LabelVector.dim T))).toMatrix (rowsM (LabelVector.dim T) bs) =
        (Matrix.of (rowsM (LabelVector.dim T) bs)).transpose := by
      ext i j; simp [Module.Basis.toMatrix_apply]
    rw [h10, Matrix.det_transpose]
    have h11 : (Matrix.of (rowsM (LabelVector.dim T) bs)).det = ∏ i : Fin (LabelVector.dim T), rent (bs.getD i.1 []) i.1 := h9
    rw [h11]
    have : ∀ n, n = LabelVector.dim T → (∏ i : Fin n, rent (bs.getD i.1 []) i.1) =
        ∏ i : Fin (LabelVector.dim T), rent (bs.getD i.1 []) i.1 := by rintro n rfl; rfl
    exact this _ hd

theorem joined_translate {raw : List (Edge T)} {a b : Nat × T} (h : Joined raw a b) (t : T) :
    Joined raw (a.1, a.2 + t) (b.1, b.2 + t) := by
  induction h with
  | refl => exact Relation.ReflTransGen.refl
  | tail _ h2 ih =>
    refine Relation.ReflTransGen.tail ih ?_
    obtain ⟨e, he, h3, h4, h5⟩ := h2
    exact ⟨e, he, h3, h4, by simp only; rw [← h5]; abel⟩

theorem joined_symm {raw : List (Edge T)} {a b : Nat × T} (h : Joined raw a b) : Joined raw b a := by
  induction h with
  | refl => exact Relation.ReflTransGen.refl
  | tail _ h2 ih => exact Relation.ReflTransGen.head h2.symm ih

theorem joined_qjoined {raw : List (Edge T)} {a b : Nat × T} (h : Joined raw a b) : QJoined raw a.1 b.1 := by
  induction h with
  | refl => exact Relation.ReflTransGen.refl
  | tail _ h2 ih =>
    obtain ⟨e, he, h3, h4, -⟩ := h2
    exact Relation.ReflTransGen.tail ih ⟨e, he, h3, h4⟩

/-- the closed walks at `v` already form a group -/
theorem mem_cycleLattice {raw : List (Edge T)} {v : Nat} {t : T} :
    t ∈ cycleLattice raw v ↔ Joined raw (v, 0) (v, t) := by
  constructor
  · intro h
    induction h using AddSubgroup.closure_induction with
    | mem x hx => exact hx
    | zero => exact Relation.ReflTransGen.refl
    | add x y _ _ hx hy =>
      have := joined_translate hy x
      simp only [zero_add] at this
      rw [add_comm]
      exact Relation.ReflTransGen.trans hx this
    | neg x _ hx =>
      have := joined_translate (joined_symm hx) (-x)
      simpa using this
  · intro h; exact AddSubgroup.subset_closure h

theorem zero_tree_joined {raw : List (Edge T)} {σ : Nat → T} {v w : Nat}
    (h : Relation.ReflTransGen (ZeroStep raw σ) v w) : Joined raw (v, σ v) (w, σ w) := by
  induction h with
  | refl => exact Relation.ReflTransGen.refl
  | tail _ h2 ih =>
    obtain ⟨e, he, h3, h4, h5⟩ := h2
    exact Relation.ReflTransGen.tail ih ⟨e, he, h3, h4, h5⟩

/-- With potentials `σ` along a spanning tree, the lattice of cycles is generated by the adjusted
shifts. -/
theorem cycleLattice_eq {g : Graph T} {v0 : Nat} {σ : Nat → T} {seen : List (Edge T)} (hg : g.WF)
    (hs : ∀ e, e ∈ seen ↔ e ∈ g.edges ∧ QJoined g.edges v0 e.head) (h0 : σ v0 = 0)
    (ht : ∀ v, QJoined g.edges v0 v → Relation.ReflTransGen (ZeroStep g.edges σ) v0 v) :
    cycleLattice g.edges v0 = AddSubgroup.closure {t | t ∈ (seen.map (adjEdge σ)).map (fun e => e.shift)} := by
  apply le_antisymm
  · intro t h
    rw [mem_cycleLattice] at h
    set S := AddSubgroup.closure {t | t ∈ (seen.map (adjEdge σ)).map (fun e => e.shift)} with hS
    have key : ∀ b, Joined g.edges (v0, 0) b → b.2 - σ b.1 ∈ S := by
      intro b hb
      induction hb with
      | refl => simp [h0]
      | tail h1 h2 ih =>
        rename_i b c
        obtain ⟨e, he, h3, h4, h5⟩ := h2
        have hq : QJoined g.edges v0 e.head := by rw [h3]; exact joined_qjoined h1
        have hq' : QJoined g.edges v0 e.tail := Relation.ReflTransGen.tail hq ⟨e, he, rfl, rfl⟩
        have hin : σ e.head + e.shift - σ e.tail ∈ S := by
          rcases (isDirected_iff _ _).1 he with h6 | h6
          · apply AddSubgroup.subset_closure
            exact List.mem_map.2 ⟨adjEdge σ e, List.mem_map.2 ⟨e, (hs e).2 ⟨h6, hq⟩, rfl⟩, rfl⟩
          · rw [← neg_mem_iff]
            apply AddSubgroup.subset_closure
            refine List.mem_map.2 ⟨adjEdge σ e.neg, List.mem_map.2 ⟨e.neg, (hs _).2 ⟨h6, hq'⟩, rfl⟩, ?_⟩
            simp only [adjEdge, Edge.neg_head, Edge.neg_tail, Edge.neg_shift]
            abel
        have : c.2 - σ c.1 = (b.2 - σ b.1) + (σ e.head + e.shift - σ e.tail) := by
          rw [← h5, ← h4, h3]; abel
        rw [this]
        exact S.add_mem ih hin
    have := key _ h
    simpa [h0] using this
  · rw [AddSubgroup.closure_le]
    intro t h
    obtain ⟨f, hf, rfl⟩ := List.mem_map.1 h
    obtain ⟨e, he, rfl⟩ := List.mem_map.1 hf
    obtain ⟨h1, h2⟩ := (hs e).1 he
    show σ e.head + e.shift - σ e.tail ∈ cycleLattice g.edges v0
    rw [mem_cycleLattice]
    have h3 : QJoined g.edges v0 e.tail := Relation.ReflTransGen.tail h2 ⟨e, Or.inl h1, rfl, rfl⟩
    have j1 := zero_tree_joined (ht _ h2)
    have j2 := joined_symm (zero_tree_joined (ht _ h3))
    rw [h0] at j1 j2
    have j3 : Joined g.edges (v0, 0) (e.tail, σ e.head + e.shift) :=
      Relation.ReflTransGen.tail j1 ⟨e, Or.inl h1, rfl, rfl, rfl⟩
    have j4 := joined_translate j2 (σ e.head + e.shift - σ e.tail)
    have : σ e.tail + (σ e.head + e.shift - σ e.tail) = σ e.head + e.shift := by abel
    simp only [this, zero_add] at j4
    exact Relation.ReflTransGen.trans j3 j4

/-- the end points of the traversed edges are the vertices of the component -/
theorem mem_endpoints {g : Graph T} (hg : g.WF) {v0 : Nat} (hv : v0 ∈ g.vertices) {σ : Nat → T}
    {seen : List (Edge T)} (hs : ∀ e, e ∈ seen ↔ e ∈ g.edges ∧ QJoined g.edges v0 e.head) (w : Nat) :
    w ∈ (seen.map (adjEdge σ)).flatMap (fun e => [e.head, e.tail]) ↔ QJoined g.edges v0 w := by
  simp only [List.mem_flatMap, List.mem_map, List.mem_cons, List.not_mem_nil, or_false]
  constructor
  · rintro ⟨_, ⟨e, he, rfl⟩, h | h⟩
    · rw [h]; exact ((hs e).1 he).2
    · obtain ⟨h1, h2⟩ := (hs e).1 he
      rw [h]; exact Relation.ReflTransGen.tail h2 ⟨e, Or.inl h1, rfl, rfl⟩
  · intro h
    have : ∃ e, IsDirected g.edges e ∧ e.head = w := by
      rcases Relation.ReflTransGen.cases_tail h with h1 | ⟨u, -, e, he, h2, h3⟩
      · rw [h1]
        rw [g.mem_vertices, isVertex_iff] at hv
        exact hv
      · exact ⟨e.neg, isDirected_neg.2 he, h3⟩
    obtain ⟨e, he, h1⟩ := this
    rcases (isDirected_iff _ _).1 he with h2 | h2
    · exact ⟨_, ⟨e, (hs e).2 ⟨h2, h1 ▸ h⟩, rfl⟩, Or.inl h1.symm⟩
    · exact ⟨_, ⟨e.neg, (hs _).2 ⟨h2, Relation.ReflTransGen.tail (h1 ▸ h) ⟨e, he, rfl, rfl⟩⟩, rfl⟩, Or.inr h1.symm⟩

theorem ncard_of_list {α : Type} [DecidableEq α] {l : List α} {S : Set α} (h : ∀ x, x ∈ l ↔ x ∈ S) :
    l.dedup.length = S.ncard := by
  have : S = (l.toFinset : Set α) := by
    ext x; simp [h]
  rw [this, Set.ncard_coe_finset, List.card_toFinset]

theorem measures_ok {g : Graph T} (hg : g.WF) {v0 : Nat} (hv : v0 ∈ g.vertices) :
    componentMeasures g v0 = .ok (Set.ncard {w | QJoined g.edges v0 w},
      Module.finrank ℤ (AddSubgroup.toIntSubmodule (cycleLattice g.edges v0)),
      if Module.finrank ℤ (AddSubgroup.toIntSubmodule (cycleLattice g.edges v0)) = LabelVector.dim T
        then some ((cycleLattice g.edges v0).index : Int) else none) := by
  obtain ⟨σ, seen, h1, h2, h3, h4, h5⟩ := traverse_ok hg hv
  have hL := cycleLattice_eq hg h3 h4 h5
  obtain ⟨bs, h6, h7, h8⟩ := lattice_measures ((seen.map (adjEdge σ)).map (fun e => e.shift))
  rw [← hL] at h7 h8
  unfold componentMeasures
  rw [h1, Outcome.ok_bind]
  simp only
  have hm : (seen.map (adjEdge σ)).map (fun e => LabelVector.toVec e.shift) =
    ((seen.map (adjEdge σ)).map (fun e => e.shift)).map LabelVector.toVec := by simp
  rw [hm, h6, Outcome.ok_bind, ncard_of_list (S := {w | QJoined g.edges v0 w}) (mem_endpoints hg hv h3), h7]
  by_cases hd : bs.length = LabelVector.dim T
  · obtain ⟨ds, h9, h10⟩ := h8 hd
    rw [← h7, if_pos hd, if_pos hd, h9, Outcome.ok_bind, h10]
  · rw [← h7, if_neg hd, if_neg hd]

theorem finrank_of_index_one {L : AddSubgroup T} (h : L.index = 1) :
    Module.finrank ℤ (AddSubgroup.toIntSubmodule L) = LabelVector.dim T := by
  have hL : L = ⊤ := AddSubgroup.index_eq_one.1 h
  have h1 : AddSubgroup.toIntSubmodule L = ⊤ := by rw [hL]; rfl
  rw [h1, finrank_top, (vecAdd (T := T)).toIntLinearEquiv.finrank_eq]
  simp

theorem isConnected_ok {g : Graph T} (hg : g.WF) :
    ∃ b, g.isConnected = .ok b ∧ (b = true ↔ PeriodicConnected g.edges) := by
  unfold Graph.isConnected
  cases hvs : g.vertices with
  | nil =>
    refine ⟨true, rfl, ⟨fun _ v w hv => ?_, fun _ => rfl⟩⟩
    rw [← g.mem_vertices, hvs] at hv
    exact absurd hv List.not_mem_nil
  | cons v0 vs =>
    have hv : v0 ∈ g.vertices := by rw [hvs]; simp
    simp only [measures_ok hg hv, Outcome.ok_bind]
    refine ⟨_, rfl, ?_⟩
    rw [Bool.and_eq_true, decide_eq_true_eq, decide_eq_true_eq, ← hvs]
    have hfin : {w | QJoined g.edges v0 w} ⊆ {w | w ∈ g.vertices} := by
      intro w hw
      rcases Relation.ReflTransGen.cases_tail hw with h1 | ⟨u, -, e, he, h2, h3⟩
      · rw [Set.mem_ofPred_eq, h1]; exact hv
      · rw [Set.mem_ofPred_eq, ← h3]; exact g.tail_mem he
    have hcard : g.vertices.length = Set.ncard {w | w ∈ g.vertices} := by
      rw [← ncard_of_list (l := g.vertices) (S := {w | w ∈ g.vertices}) (fun x => Iff.rfl), List.dedup_eq_self.2 g.vertices_nodup]
    constructor
    · rintro ⟨h1, h2⟩
      rw [hcard] at h1
      have hset := Set.eq_of_subset_of_ncard_le hfin h1.ge (by
        have : {w | w ∈ g.vertices} = (g.vertices.toFinset : Set Nat) := by ext; simp
        rw [this]; exact Finset.finite_toSet _)
      have hidx : (cycleLattice g.edges v0).index = 1 := by
        split at h2
        · simpa using h2
        · simp at h2
      have htop := AddSubgroup.index_eq_one.1 hidx
      have h0 : ∀ t : T, Joined g.edges (v0, 0) (v0, t) := by
        intro t; rw [← mem_cycleLattice, htop]; trivial
      have hall : ∀ w, IsVertex g.edges w → ∀ t : T, Joined g.edges (v0, 0) (w, t) := by
        intro w hw t
        have hq : QJoined g.edges v0 w := by
          rw [← g.mem_vertices] at hw
          have : w ∈ {w | w ∈ g.vertices} := hw
          rw [← hset] at this; exact this
        obtain ⟨σ, seen, -, -, -, h4, h5⟩ := traverse_ok hg hv
        have j := zero_tree_joined (h5 w hq)
        rw [h4] at j
        have j2 := joined_translate j (t - σ w)
        have e : σ w + (t - σ w) = t := by abel
        simp only [e, zero_add] at j2
        exact Relation.ReflTransGen.trans (h0 _) j2
      intro v w hv' hw' s t
      exact Relation.ReflTransGen.trans (joined_symm (hall v hv' s)) (hall w hw' t)
    · intro h
      have hv0 : IsVertex g.edges v0 := (g.mem_vertices v0).1 hv
      have hidx : (cycleLattice g.edges v0).index = 1 := by
        rw [AddSubgroup.index_eq_one]
        ext t
        rw [mem_cycleLattice]
        simp only [AddSubgroup.mem_top, iff_true]
        exact h v0 v0 hv0 hv0 0 t
      refine ⟨?_, ?_⟩
      · rw [hcard]
        congr 1
        ext w
        refine ⟨fun hw => hfin hw, fun hw => ?_⟩
        exact joined_qjoined (h v0 w hv0 ((g.mem_vertices w).1 hw) 0 0)
      · rw [if_pos (finrank_of_index_one hidx), hidx]; rfl

end
end Systre
