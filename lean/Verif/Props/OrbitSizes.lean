import Verif.Lemmas.OrbitCount
import Verif.Props.Symmetries
import Verif.Lemmas.Translations
import Mathlib.Data.Fintype.BigOperators
import Mathlib.GroupTheory.Coset.Card

/-!
# C88: the sizes of the orbits (`symmetries`, `vertex_orbits` and `edge_orbits`, src/symmetries.rs and src/pgraphs.rs)

The number of the symmetries, the sizes of the orbits and the numbers of the symmetries that fix a vertex or an edge
fit together, and the number of the symmetries has a bound that depends only on the numbers of edges and dimensions.
The specification is in `Verif/Spec/Symmetries.lean`; see C39 and C41 for what `symmetries` and the orbits are.
-/

namespace Systre

section
variable {T : Type} [LabelVector T] [LawfulLabelVector T]

/-- C88: every orbit of vertices has as many members as there are symmetries, divided by the number of the
symmetries that fix one of its vertices. -/
theorem C88_vertex_orbits (raw : List (Edge T)) (tb : Outcome PosTable)
    (pos : Nat → Fin (LabelVector.dim T) → ℚ) (hp : Places tb (Graph.new raw) pos) (hs : LocallyStable raw pos)
    (hc : PeriodicConnected raw) (hne : raw ≠ []) :
    ∃ N l cs, (∀ fuel, N ≤ fuel → symmetries fuel tb (Graph.new raw) = .ok l) ∧
      vertexOrbits (Graph.new raw) l = .ok cs ∧
      ∀ c ∈ cs, ∀ v ∈ c,
        c.length * (l.filter (fun φ => decide (φ.vertexMap.lookup v = some v))).length = l.length := by
  obtain ⟨N, l, h1, h2, h3, -⟩ := symmetries_all raw tb pos hp hs hc hne
  obtain ⟨N', l', cs, h1', h4, -, h5, h6, h7⟩ := C41_vertex_orbits raw tb pos hp hs hc hne
  have hl : l' = l := Outcome.ok.inj ((h1' (max N N') (le_max_right _ _)).symm.trans (h1 _ (le_max_left _ _)))
  subst hl
  refine ⟨N, l', cs, h1, h4, fun c hcc v hv => ?_⟩
  have hvx : IsVertex (Graph.new raw).edges v := (isVertex_new raw v).2 ((h6 v).1 (List.mem_flatten.2 ⟨c, hcc, hv⟩))
  obtain ⟨H, hH⟩ := h2.grp
  let f : Automorphism T → Nat → Nat := fun φ x => (φ.vertexMap.lookup x).getD 0
  have hf : ∀ φ ∈ l', ∀ e : {e : Edge T // IsDirected (Graph.new raw).edges e},
      φ.vertexMap.lookup e.1.head = some (autPerm _ φ e).1.head := fun φ hφ e => ((h2.good φ hφ).vertex e _).2 rfl
  obtain ⟨e, he, rfl⟩ := (isVertex_iff _ _).1 hvx
  have hfe : ∀ φ ∈ l', ∀ e : {e : Edge T // IsDirected (Graph.new raw).edges e},
      f φ e.1.head = (autPerm _ φ e).1.head := by
    intro φ hφ e
    show (φ.vertexMap.lookup e.1.head).getD 0 = _
    rw [hf φ hφ e]; rfl
  have key := orbit_stabilizer (P := autPerm (Graph.new raw).edges) h3 hH (f := f) (x := e.head)
    (by
      intro a ha b hb d hd hab
      rw [hfe d hd ⟨e, he⟩, hfe b hb ⟨e, he⟩, hfe a ha, hab]; rfl)
    (by
      intro a ha h
      rw [hfe a ha ⟨e, he⟩, h]; rfl)
    (c := c) ((List.nodup_flatten.1 h5).1 c hcc)
    (by
      intro y
      rw [h7 c hcc _ hv]
      constructor
      · rintro ⟨φ, hφ, h⟩
        exact ⟨φ, hφ, by show (φ.vertexMap.lookup e.head).getD 0 = _; rw [h]; rfl⟩
      · rintro ⟨φ, hφ, rfl⟩
        exact ⟨φ, hφ, by rw [hfe φ hφ ⟨e, he⟩]; exact hf φ hφ ⟨e, he⟩⟩)
  rw [← key]
  congr 2
  apply List.filter_congr
  intro φ hφ
  rw [hfe φ hφ ⟨e, he⟩, hf φ hφ ⟨e, he⟩]
  simp

/-- C88: the same for the orbits of edges; a symmetry fixes an edge if it maps it to itself or to its reversal. -/
theorem C88_edge_orbits (raw : List (Edge T)) (tb : Outcome PosTable)
    (pos : Nat → Fin (LabelVector.dim T) → ℚ) (hp : Places tb (Graph.new raw) pos) (hs : LocallyStable raw pos)
    (hc : PeriodicConnected raw) (hne : raw ≠ []) :
    ∃ N l cs, (∀ fuel, N ≤ fuel → symmetries fuel tb (Graph.new raw) = .ok l) ∧
      edgeOrbits (Graph.new raw) l = .ok cs ∧
      ∀ c ∈ cs, ∀ e ∈ c,
        c.length * (l.filter (fun φ => decide (φ.edgeMap.lookup e = some e ∨
          φ.edgeMap.lookup e = some ⟨e.tail, e.head, -e.shift⟩))).length = l.length := by
  obtain ⟨N, l, h1, h2, h3, -⟩ := symmetries_all raw tb pos hp hs hc hne
  obtain ⟨N', l', cs, h1', h4, -, h5, h6, h7⟩ := C41_edge_orbits raw tb pos hp hs hc hne
  have hl : l' = l := Outcome.ok.inj ((h1' (max N N') (le_max_right _ _)).symm.trans (h1 _ (le_max_left _ _)))
  subst hl
  refine ⟨N, l', cs, h1, h4, fun c hcc e hec => ?_⟩
  have hem : e ∈ (Graph.new raw).edges := (h6 e).1 (List.mem_flatten.2 ⟨c, hcc, hec⟩)
  have he : IsDirected (Graph.new raw).edges e := Or.inl hem
  have hce := (wf_new raw).canon e hem
  obtain ⟨H, hH⟩ := h2.grp
  let f : Automorphism T → Edge T → Edge T := fun φ x => ((φ.edgeMap.lookup x).getD x).canonical
  have hf : ∀ φ ∈ l', ∀ e : {e : Edge T // IsDirected (Graph.new raw).edges e},
      φ.edgeMap.lookup e.1 = some (autPerm _ φ e).1 := fun φ hφ e => ((h2.good φ hφ).edge e _).2 rfl
  have hfe : ∀ φ ∈ l', ∀ e : {e : Edge T // IsDirected (Graph.new raw).edges e},
      f φ e.1 = (autPerm _ φ e).1.canonical := by
    intro φ hφ e
    show ((φ.edgeMap.lookup e.1).getD e.1).canonical = _
    rw [hf φ hφ e]; rfl
  -- automorphisms respect the reversal of edges
  have hcan : ∀ φ ∈ l', ∀ e : {e : Edge T // IsDirected (Graph.new raw).edges e},
      f φ e.1.canonical = (autPerm _ φ e).1.canonical := by
    intro φ hφ e
    rcases canonical_or e.1 with h | h
    · rw [h]; exact hfe φ hφ e
    · rw [h]
      obtain ⟨A, vm, em, s1, s2⟩ := h2.good φ hφ
      have hd : IsDirected (Graph.new raw).edges e.1.neg := isDirected_neg.2 e.2
      rw [hfe φ hφ ⟨_, hd⟩, autPerm_apply s1 s2, autPerm_apply s1 s2]
      show (em ⟨e.1.tail, e.1.head, -e.1.shift⟩).canonical = _
      rw [s2.rev e.1 e.2]
      exact canonical_neg (em e.1)
  have key := orbit_stabilizer (P := autPerm (Graph.new raw).edges) h3 hH (f := f) (x := e)
    (by
      intro a ha b hb d hd hab
      rw [hfe d hd ⟨e, he⟩, hfe b hb ⟨e, he⟩, hcan a ha, hab]; rfl)
    (by
      intro a ha h
      rw [hfe a ha ⟨e, he⟩, h]; exact hce)
    (c := c) ((List.nodup_flatten.1 h5).1 c hcc)
    (by
      intro y
      rw [h7 c hcc _ hec]
      constructor
      · rintro ⟨hy, φ, hφ, g, hg, h⟩
        refine ⟨φ, hφ, ?_⟩
        show ((φ.edgeMap.lookup e).getD e).canonical = _
        rw [hg, ← (wf_new raw).canon y hy]
        exact ((canonical_eq_iff y g).2 h).symm
      · rintro ⟨φ, hφ, rfl⟩
        rw [hfe φ hφ ⟨e, he⟩]
        exact ⟨Graph.canon_mem (wf_new raw) (autPerm _ φ ⟨e, he⟩).2, φ, hφ, _, hf φ hφ ⟨e, he⟩, canonical_or _⟩)
  rw [← key]
  congr 2
  apply List.filter_congr
  intro φ hφ
  rw [hfe φ hφ ⟨e, he⟩, hf φ hφ ⟨e, he⟩]
  simp only [Option.some.injEq, decide_eq_decide]
  have hg : ∀ g : Edge T, (g = e ∨ g = e.neg) ↔ g.canonical = e := by
    intro g
    rw [← canonical_eq_iff, hce]
  exact hg _

/-- C88: symmetries that agree on as many edges as there are dimensions, with independent vectors, are equal. -/
theorem C88_determined (raw : List (Edge T)) (pos : Nat → Fin (LabelVector.dim T) → ℚ) (hs : LocallyStable raw pos)
    (hc : PeriodicConnected raw) (a b : Automorphism T)
    (A B : Matrix (Fin (LabelVector.dim T)) (Fin (LabelVector.dim T)) ℚ) (ha : IsAutomorphism raw pos a A 0)
    (hb : IsAutomorphism raw pos b B 0) (es : Fin (LabelVector.dim T) → Edge T) (hd : ∀ k, IsDirected raw (es k))
    (hi : LinearIndependent ℚ (fun k => edgeVec pos (es k)))
    (hab : ∀ k, a.edgeMap.lookup (es k) = b.edgeMap.lookup (es k)) : a.eqv b = true := by
  obtain ⟨vm, em, h1, h2⟩ := ha
  obtain ⟨vm', em', h3, h4⟩ := hb
  have hem : ∀ k, em (es k) = em' (es k) := by
    intro k
    have := hab k
    rw [(h1.ekeys _ _).2 ⟨hd k, rfl⟩, (h3.ekeys _ _).2 ⟨hd k, rfl⟩] at this
    exact Option.some.inj this
  have hAB : A = B := by
    apply Matrix.mulVec_injective
    funext x
    have hx : x ∈ Submodule.span ℚ (Set.range (fun k => edgeVec pos (es k))) := by
      rw [hi.span_eq_top_of_card_eq_finrank' (by simp)]; trivial
    induction hx using Submodule.span_induction with
    | mem x hx =>
      obtain ⟨k, rfl⟩ := hx
      show A.mulVec _ = B.mulVec _
      rw [← h2.vec _ (hd k), ← h4.vec _ (hd k), hem k]
    | zero => simp
    | add x y _ _ hx hy => simp only [Matrix.mulVec_add] at *; rw [hx, hy]
    | smul c x _ hx => simp only [Matrix.mulVec_smul] at *; rw [hx]
  subst hAB
  let k0 : Fin (LabelVector.dim T) := ⟨0, LawfulLabelVector.dim_pos⟩
  have hv : vm (es k0).head = vm' (es k0).head := by
    rw [← h2.head _ (hd k0), ← h4.head _ (hd k0), hem k0]
  have hu := StarMap.unique (locallyStable_new.2 hs) (quotient_of_periodic (periodicConnected_new.2 hc))
    (isGraphAut_new.2 h2).starMap (isGraphAut_new.2 h4).starMap (v0 := (es k0).head)
    ((isVertex_new raw _).2 ((isVertex_iff _ _).2 ⟨_, hd k0, rfl⟩)) hv
  rw [eqv_iff h1 h3]
  exact ⟨fun v hv => hu.1 v ((isVertex_new raw v).2 hv), fun e he => hu.2 e ((isDirected_new raw e).2 he), rfl, rfl⟩

/-- C88: the number of symmetries is at most the `d`-th power of the number of directed edges, where `d` is the
dimension. -/
theorem C88_bound (raw : List (Edge T)) (tb : Outcome PosTable)
    (pos : Nat → Fin (LabelVector.dim T) → ℚ) (hp : Places tb (Graph.new raw) pos) (hs : LocallyStable raw pos)
    (hc : PeriodicConnected raw) (hne : raw ≠ []) :
    ∃ N l, (∀ fuel, N ≤ fuel → symmetries fuel tb (Graph.new raw) = .ok l) ∧
      l.length ≤ (2 * (Graph.new raw).edges.length) ^ LabelVector.dim T := by
  classical
  obtain ⟨N, l, h1, h2, h3, -, list0, -, -, h0, -⟩ := symmetries_all raw tb pos hp hs hc hne
  refine ⟨N, l, h1, ?_⟩
  obtain ⟨e, he⟩ := List.exists_mem_of_ne_nil raw hne
  have hsp := span_edgeVecs (pos := pos) (periodicConnected_new.2 hc)
    ((isVertex_new raw _).2 (⟨e, he, Or.inl rfl⟩ : IsVertex raw e.head))
  obtain ⟨des, -, hdes, -, hlen⟩ := C27_directed_edges raw
  let es : Fin (LabelVector.dim T) → Edge T := fun k => list0[k.1]'(by rw [h0.len]; exact k.2)
  have hd : ∀ k, IsDirected (Graph.new raw).edges (es k) := fun k => h0.dir _ (List.getElem_mem _)
  have hi : LinearIndependent ℚ (fun k => edgeVec pos (es k)) :=
    ((eindep_iff list0).1 h0.indep).comp (Fin.cast h0.len.symm) (Fin.cast_injective _)
  have hnd : l.Nodup := h3.of_map _
  rw [← List.toFinset_card_of_nodup hnd]
  have hcd : des.toFinset.card ≤ 2 * (Graph.new raw).edges.length := by
    rw [← hlen]; exact List.toFinset_card_le des
  refine le_trans ?_ (Nat.pow_le_pow_left hcd _)
  have hpi : (Fintype.piFinset (fun _ : Fin (LabelVector.dim T) => des.toFinset)).card =
      des.toFinset.card ^ LabelVector.dim T := by
    rw [Fintype.card_piFinset]; simp
  rw [← hpi]
  apply Finset.card_le_card_of_injOn (fun φ k => (autPerm (Graph.new raw).edges φ ⟨es k, hd k⟩).1)
  · intro φ _
    simp only [Finset.mem_coe, Fintype.mem_piFinset, List.mem_toFinset]
    intro k
    rw [hdes, ← isDirected_new]
    exact (autPerm _ φ _).2
  · intro a ha b hb hab
    simp only [List.coe_toFinset, Set.mem_setOf_eq] at ha hb
    obtain ⟨A, hA⟩ := goodAut_isAutomorphism (h2.good a ha)
    obtain ⟨B, hB⟩ := goodAut_isAutomorphism (h2.good b hb)
    have := C88_determined raw pos hs hc a b A B hA hB es (fun k => (isDirected_new raw _).1 (hd k)) hi (by
      intro k
      rw [((h2.good a ha).edge ⟨es k, hd k⟩ _).2 rfl, ((h2.good b hb).edge ⟨es k, hd k⟩ _).2 rfl]
      exact congrArg some (congrFun hab k))
    rw [goodAut_eqv hsp (h2.good a ha) (h2.good b hb)] at this
    exact List.inj_on_of_nodup_map h3 ha hb this

/-- C88: the number of symmetries found divides the number of the automorphisms of the graph, as permutations of
its directed edges; all of them are found exactly when the numbers are equal. So `symmetries` either finds all
of them or at most half. -/
theorem C88_lagrange (raw : List (Edge T)) (tb : Outcome PosTable)
    (pos : Nat → Fin (LabelVector.dim T) → ℚ) (hp : Places tb (Graph.new raw) pos) (hs : LocallyStable raw pos)
    (hc : PeriodicConnected raw) (hne : raw ≠ []) :
    ∃ N l, (∀ fuel, N ≤ fuel → symmetries fuel tb (Graph.new raw) = .ok l) ∧
      ∀ S : Set (Equiv.Perm {e : Edge T // IsDirected (Graph.new raw).edges e}),
        (∀ σ, σ ∈ S ↔ ∃ vm em A, IsGraphAut raw pos vm em A ∧ ∀ e, (σ e).1 = em e.1) →
        S.Finite ∧ l.length ∣ S.ncard ∧
        ((∀ vm em A, IsGraphAut raw pos vm em A → ∃ x ∈ l, Stands raw x vm em A 0) ↔ l.length = S.ncard) ∧
        (l.length = S.ncard ∨ 2 * l.length ≤ S.ncard) := by
  obtain ⟨N, l, h1, h2, h3, -⟩ := symmetries_all raw tb pos hp hs hc hne
  obtain ⟨e, he⟩ := List.exists_mem_of_ne_nil raw hne
  have hv0 : IsVertex (Graph.new raw).edges e.head := (isVertex_new raw _).2 ⟨e, he, Or.inl rfl⟩
  have hsp := span_edgeVecs (pos := pos) (periodicConnected_new.2 hc) hv0
  refine ⟨N, l, h1, fun S hS => ?_⟩
  haveI := finite_dir_raw (Graph.new raw).edges
  obtain ⟨H, hH⟩ := h2.grp
  let G : Subgroup (Equiv.Perm {e : Edge T // IsDirected (Graph.new raw).edges e}) :=
    { carrier := S
      one_mem' := (hS 1).2 ⟨_, _, _, isGraphAut_new.1 (IsGraphAut.id _ pos), fun e => rfl⟩
      mul_mem' := by
        intro σ τ hσ hτ
        obtain ⟨v1, e1, A, a1, a2⟩ := (hS σ).1 hσ
        obtain ⟨v2, e2, B, b1, b2⟩ := (hS τ).1 hτ
        exact (hS _).2 ⟨_, _, _, a1.comp b1, fun e => by rw [Equiv.Perm.mul_apply, a2, b2]⟩
      inv_mem' := by
        intro σ hσ
        obtain ⟨v1, e1, A, a1, a2⟩ := (hS σ).1 hσ
        have a1' := isGraphAut_new.2 a1
        obtain ⟨u, hu⟩ := a1'.isUnit hsp
        obtain ⟨v2, e2, b1, -, b2⟩ := a1'.symm (B := (u⁻¹ : (Matrix _ _ ℚ)ˣ).1) (by rw [← hu]; exact u.inv_mul)
        refine (hS _).2 ⟨v2, e2, _, isGraphAut_new.1 b1, fun e => ?_⟩
        have h := (b2 _ (σ⁻¹ e).2).1
        rw [← a2] at h
        rw [← h]
        simp }
  have hHG : H ≤ G := by
    intro σ hσ
    obtain ⟨x, hx, rfl⟩ := List.mem_map.1 ((hH σ).1 hσ)
    obtain ⟨A, vm, em, h5, h6⟩ := h2.good x hx
    exact (hS _).2 ⟨vm, em, A, isGraphAut_new.1 h6, autPerm_apply h5 h6⟩
  have hcH : Nat.card H = l.length := by
    classical
    have : (H : Set (Equiv.Perm {e : Edge T // IsDirected (Graph.new raw).edges e})) =
        ((l.map (autPerm (Graph.new raw).edges)).toFinset : Set _) := by
      ext σ
      rw [List.coe_toFinset]
      exact hH σ
    rw [← SetLike.coe_sort_coe, Nat.card_coe_set_eq, this, Set.ncard_coe_finset, List.toFinset_card_of_nodup h3,
      List.length_map]
  have hcG : Nat.card G = S.ncard := Nat.card_coe_set_eq S
  have hdvd : l.length ∣ S.ncard := by rw [← hcH, ← hcG]; exact Subgroup.card_dvd_of_le hHG
  have hpos : 0 < S.ncard := by rw [← hcG]; exact Nat.card_pos
  refine ⟨Set.toFinite _, hdvd, ⟨fun hall => ?_, fun heq vm em A hA => ?_⟩, ?_⟩
  · have hGH : G = H := by
      refine le_antisymm (fun σ hσ => ?_) hHG
      obtain ⟨vm, em, A, a1, a2⟩ := (hS σ).1 hσ
      obtain ⟨x, hx, h5⟩ := hall vm em A a1
      refine (hH σ).2 (List.mem_map.2 ⟨x, hx, ?_⟩)
      ext e : 2
      rw [autPerm_apply (stands_new.2 h5) (isGraphAut_new.2 a1), a2]
    rw [← hcH, ← hcG, hGH]
  · have hGH : H = G := Subgroup.eq_of_le_of_card_ge hHG (by rw [hcH, hcG, heq])
    have hmem : (isGraphAut_new.2 hA).perm ∈ H := by
      rw [hGH]
      exact (hS _).2 ⟨vm, em, A, hA, fun e => rfl⟩
    obtain ⟨x, hx, h5⟩ := List.mem_map.1 ((hH _).1 hmem)
    exact ⟨x, hx, stands_of_perm hsp (h2.good x hx) hA (fun e => by rw [h5]; rfl)⟩
  · obtain ⟨k, hk⟩ := hdvd
    rcases k with - | - | k
    · omega
    · left; omega
    · right
      rw [hk, Nat.mul_comm l.length]
      exact Nat.mul_le_mul_right _ (by omega)
end

/-! ## Witnesses -/

/-- the hypotheses hold for the honeycomb: twelve symmetries, one orbit of two vertices (six symmetries fix a
vertex) and one of three edges (four symmetries fix an edge); at most 36 symmetries are possible. -/
example := C88_vertex_orbits hcbEx hcbTb hcbPos hcb_places hcb_locallyStable hcb_connected (by decide)
example := C88_edge_orbits hcbEx hcbTb hcbPos hcb_places hcb_locallyStable hcb_connected (by decide)
example := C88_bound hcbEx hcbTb hcbPos hcb_places hcb_locallyStable hcb_connected (by decide)

example := C88_lagrange hcbEx hcbTb hcbPos hcb_places hcb_locallyStable hcb_connected (by decide)

/-- for the triangular lattice, where a rotation is missed, at most half of the automorphisms are found -/
example (S : Set (Equiv.Perm {e : Edge V2 // IsDirected (Graph.new triEx).edges e}))
    (hS : ∀ σ, σ ∈ S ↔ ∃ vm em A, IsGraphAut triEx triPos vm em A ∧ ∀ e, (σ e).1 = em e.1) : 8 ≤ S.ncard := by
  obtain ⟨N, l, h1, h2⟩ := C88_lagrange triEx triTb triPos tri_places tri_locallyStable tri_connected (by decide)
  obtain ⟨-, -, -, ⟨vm, em, hA⟩, l', h3, h4, h5⟩ := C40_refuted
  obtain rfl : l = l' := Outcome.ok.inj ((h1 (max N 5) (le_max_left _ _)).symm.trans (h3 _ (le_max_right _ _)))
  obtain ⟨-, -, h6, h7⟩ := h2 S hS
  rcases h7 with h7 | h7
  · obtain ⟨x, hx, h8⟩ := h6.2 h7 vm em _ hA
    exact absurd h8 (h5 x hx vm em 0)
  · omega

/-- two edges of the honeycomb, in different directions -/
def hcbTwo : Fin 2 → Edge V2 := ![⟨1, 2, ⟨0, 0⟩⟩, ⟨1, 2, ⟨1, 0⟩⟩]

/-- they are enough to tell its symmetries apart -/
example : ∃ N l, (∀ fuel, N ≤ fuel → symmetries fuel hcbTb (Graph.new hcbEx) = .ok l) ∧
    ∀ a ∈ l, ∀ b ∈ l, (∀ k, a.edgeMap.lookup (hcbTwo k) = b.edgeMap.lookup (hcbTwo k)) → a.eqv b = true := by
  obtain ⟨N, l, h1, h2, -⟩ := C39_symmetries_group hcbEx hcbTb hcbPos hcb_places hcb_locallyStable hcb_connected
    (by decide)
  refine ⟨N, l, h1, fun a ha b hb hab => ?_⟩
  obtain ⟨A, hA⟩ := h2 a ha
  obtain ⟨B, hB⟩ := h2 b hb
  refine C88_determined hcbEx hcbPos hcb_locallyStable hcb_connected a b A B hA hB hcbTwo ?_ ?_
    (fun k => by convert hab k)
  · have : ∀ k : Fin 2, hcbTwo k ∈ (Graph.new hcbEx).edges := by decide +kernel
    exact fun k => (isDirected_new _ _).1 (Or.inl (this k))
  · have : IsUnit (Matrix.of (fun k : Fin 2 => edgeVec (T := V2) hcbPos (hcbTwo k)) : Matrix (Fin 2) (Fin 2) ℚ) := by
      rw [Matrix.isUnit_iff_isUnit_det, Matrix.det_fin_two, isUnit_iff_ne_zero]
      decide +kernel
    exact Matrix.linearIndependent_rows_iff_isUnit.2 this

example : (symmetries 13 hcbTb (Graph.new hcbEx) >>= fun l => Outcome.ok (l.length,
    (l.filter (fun φ => decide (φ.vertexMap.lookup 1 = some 1))).length,
    (l.filter (fun φ => decide (φ.edgeMap.lookup ⟨1, 2, ⟨0, 0⟩⟩ = some ⟨1, 2, ⟨0, 0⟩⟩ ∨
      φ.edgeMap.lookup ⟨1, 2, ⟨0, 0⟩⟩ = some ⟨2, 1, -⟨0, 0⟩⟩))).length)) = .ok (12, 6, 4) := by decide +kernel

end Systre
