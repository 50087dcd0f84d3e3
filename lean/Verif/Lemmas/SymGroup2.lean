import Verif.Lemmas.SymGroup

/-! # `symmetries` returns a group -/

set_option linter.unusedSectionVars false

namespace Systre

open Submodule Partitions

theorem mgLoop_mono {α : Type} {mul : α → α → Outcome α} {eqv : α → α → Bool} {gens : List α} :
    ∀ (fuel fuel' : Nat) (result queue l : List α), mgLoop mul eqv gens fuel result queue = .ok l → fuel ≤ fuel' →
      mgLoop mul eqv gens fuel' result queue = .ok l := by
  intro fuel
  induction fuel with
  | zero => intro fuel' r q l h; simp [mgLoop] at h
  | succ fuel ih =>
    intro fuel' r q l h hf
    obtain ⟨k, rfl⟩ := Nat.exists_eq_add_of_le' (show 1 ≤ fuel' by omega)
    unfold mgLoop at h ⊢
    cases q with
    | nil => exact h
    | cons phi q =>
      simp only at h ⊢
      cases hi : mgInner mul eqv phi gens r q with
      | ok x =>
        rw [hi] at h
        obtain ⟨r', q'⟩ := x
        exact ih k r' q' l h (by omega)
      | panic => rw [hi] at h; cases h
      | diverge => rw [hi] at h; cases h

section
variable {T : Type} [LabelVector T] [LawfulLabelVector T]
variable {raw : List (Edge T)} {g : Graph T} {pos : Nat → Fin (LabelVector.dim T) → ℚ} {tb : Outcome PosTable}
  {A B : Matrix (Fin (LabelVector.dim T)) (Fin (LabelVector.dim T)) ℚ}
  {vm vm' : Nat → Nat} {em em' : Edge T → Edge T}

theorem eindep_map (h : IsGraphAut g.edges pos vm em A) (hA : IsUnit A) {es : List (Edge T)}
    (hd : ∀ e ∈ es, IsDirected g.edges e) (hi : EIndep pos es) : EIndep pos (es.map em) := by
  rw [eindep_iff] at hi ⊢
  have hinj : LinearMap.ker A.mulVecLin = ⊥ :=
    LinearMap.ker_eq_bot.2 (fun x y hxy => Matrix.mulVec_injective_of_isUnit hA hxy)
  have h1 := hi.map' A.mulVecLin hinj
  have h2 := h1.comp (Fin.cast (by simp) : Fin (es.map em).length → Fin es.length) (Fin.cast_injective _)
  have heq : (fun i : Fin (es.map em).length => edgeVec pos (es.map em)[i.1]) =
      (A.mulVecLin ∘ fun i : Fin es.length => edgeVec pos es[i.1]) ∘ Fin.cast (by simp) := by
    funext i
    have hi' : i.1 < es.length := by have := i.2; simpa using this
    simp only [Function.comp_apply, Fin.val_cast, Matrix.mulVecLin_apply]
    rw [List.getElem_map, h.vec _ (hd _ (List.getElem_mem hi'))]
  rw [heq]
  exact h2

theorem goodList_map (h : IsGraphAut g.edges pos vm em A) (hA : IsUnit A) {es : List (Edge T)}
    (hl : GoodList g pos es) : GoodList g pos (es.map em) := by
  refine ⟨?_, by rw [List.length_map, hl.len], eindep_map h hA hl.dir hl.indep⟩
  intro f hf
  obtain ⟨e, he, rfl⟩ := List.mem_map.1 hf
  exact h.ebij.mapsTo (hl.dir e he)

theorem goodList_nodup {es : List (Edge T)} (hl : GoodList g pos es) : es.Nodup := by
  have h := (eindep_iff es).1 hl.indep
  have := h.injective
  rw [List.nodup_iff_injective_get]
  intro i j hij
  apply this
  simp only [List.get_eq_getElem] at hij
  simp only [hij]

theorem char_closed (hp : Places tb g pos) (hs : span ℚ (edgeVecs g.edges pos) = ⊤)
    {ls : List (List (Edge T))} (hls : characteristicEdgeLists tb g = .ok ls)
    (h : IsGraphAut g.edges pos vm em A) (hA : IsUnit A) {es : List (Edge T)} (he : es ∈ ls) : es.map em ∈ ls := by
  obtain ⟨ls', h1, -, h2, h3⟩ := characteristic_ok hp hs
  rw [hls] at h1
  cases h1
  have hG := h2 es he
  have hG' := goodList_map h hA hG
  rcases h3 with h3 | h3 | ⟨des, hdes, h3⟩
  · obtain ⟨-, v, hv, h4⟩ := (h3 es).1 he
    refine (h3 _).2 ⟨hG', vm v, ?_, ?_⟩
    · rw [g.mem_vertices] at hv ⊢; exact h.vbij.mapsTo hv
    · apply List.subperm_of_subset (goodList_nodup hG')
      intro f hf
      obtain ⟨e, he', rfl⟩ := List.mem_map.1 hf
      have hm := (g.mem_inc _ _).1 (h4.subset he')
      rw [g.mem_inc]
      exact ⟨h.ebij.mapsTo hm.1, by rw [h.head e hm.1, hm.2]⟩
  · refine (h3 _).2 ⟨hG', ?_⟩
    have h4 := ((h3 es).1 he).2
    unfold EChain at h4 ⊢
    rw [List.isChain_map]
    have : ∀ e ∈ es, ∀ f ∈ es, f.head = e.tail → (em f).head = (em e).tail := by
      intro e he f hf hef
      rw [h.head f (hG.dir f hf), h.tail e (hG.dir e he), hef]
    exact h4.imp_of_mem_imp (fun e f he hf hef => this e he f hf hef)
  · refine (h3 _).2 ⟨hG', ?_⟩
    apply List.subperm_of_subset (goodList_nodup hG')
    intro f hf
    rw [hdes]; exact hG'.dir f hf

theorem closure_isGraphAut {gens : List (Automorphism T)} (hgens : ∀ x ∈ gens, GoodAut raw pos x)
    {σ : Equiv.Perm {e : Edge T // IsDirected raw e}}
    (hσ : σ ∈ Subgroup.closure {y | ∃ x ∈ gens, y = autPerm raw x}) :
    ∃ vm em A, IsGraphAut raw pos vm em A ∧ ∀ e, (σ e).1 = em e.1 := by
  haveI := finite_dir_raw raw
  rw [← Subgroup.mem_toSubmonoid, Subgroup.closure_toSubmonoid_of_finite] at hσ
  induction hσ using Submonoid.closure_induction with
  | mem x hx =>
    obtain ⟨a, ha, rfl⟩ := hx
    obtain ⟨A, vm, em, h1, h2⟩ := hgens a ha
    exact ⟨vm, em, A, h2, autPerm_apply h1 h2⟩
  | one => exact ⟨_, _, _, IsGraphAut.id raw pos, fun e => rfl⟩
  | mul x y _ _ h1 h2 =>
    obtain ⟨vm, em, A, h3, h4⟩ := h1
    obtain ⟨vm', em', A', h5, h6⟩ := h2
    exact ⟨_, _, _, h3.comp h5, fun e => by rw [Equiv.Perm.mul_apply, h4, h6]⟩

theorem symmetryGenerators_ok (hg : g.WF) (hp : Places tb g pos) (hs : LocallyStable g.edges pos)
    (hc : PeriodicConnected g.edges) {v0 : Nat} (hv0 : IsVertex g.edges v0) :
    ∃ gens ls list0 rest, symmetryGenerators tb g = .ok gens ∧ (∀ x ∈ gens, GoodAut g.edges pos x) ∧
      characteristicEdgeLists tb g = .ok ls ∧ ls = list0 :: rest ∧ ∃ h0 : GoodList g pos list0,
      ∀ vm em A vm' em' A', IsGraphAut g.edges pos vm em A → IsGraphAut g.edges pos vm' em' A' →
        (∀ e ∈ list0.head?, vm' e.head = vm e.head) →
        rowsOf pos list0 h0.len * A.transpose = A' * rowsOf pos list0 h0.len →
        ∃ σ ∈ Subgroup.closure {y | ∃ x ∈ gens, y = autPerm g.edges x},
          (∀ e, (σ e).1 = em e.1) ∨ (∀ e, (σ e).1 = em' e.1) := by
  have hq := quotient_of_periodic hc
  have hsp := span_edgeVecs (pos := pos) hc hv0
  obtain ⟨b, s1, s2⟩ := isLocallyStable_ok hp
  have hb : b = true := s2.2 ((locStable_iff hg pos).2 hs)
  subst hb
  obtain ⟨ls, l1, l2, l3, l4⟩ := characteristic_ok hp hsp
  obtain ⟨list0, rest, rfl⟩ := List.exists_cons_of_ne_nil l2
  have h0 := l3 list0 (by simp)
  obtain ⟨e0, e1, e2, e3⟩ := head_ok h0
  have hseeds : ∃ seeds, omap (fun es : List (Edge T) => do
      let e ← vecGet es 0
      Outcome.ok e.head) (list0 :: rest) = .ok seeds := by
    obtain ⟨l', h, -⟩ := omap_forall₂ (f := fun es : List (Edge T) => do
      let e ← vecGet es 0
      Outcome.ok e.head) (R := fun _ _ => True) (l := list0 :: rest) (by
        intro es hes
        obtain ⟨e, h1, -⟩ := head_ok (l3 es hes)
        exact ⟨e.head, by rw [bind_ok h1], trivial⟩)
    exact ⟨l', h⟩
  obtain ⟨seeds, hseeds⟩ := hseeds
  obtain ⟨b0, b1, b2⟩ := matrixFromEdgeList_ok hp h0.dir h0.len
  have hbases : ∃ bs, omap (matrixFromEdgeList tb) (list0 :: rest) = .ok (b0 :: bs) := by
    obtain ⟨l', h, h'⟩ := omap_forall₂ (f := matrixFromEdgeList tb) (R := fun es m => matrixFromEdgeList tb es = .ok m)
      (l := list0 :: rest) (by
        intro es hes
        obtain ⟨m, h1, -⟩ := matrixFromEdgeList_ok hp (l3 es hes).dir (l3 es hes).len
        exact ⟨m, h1, h1⟩)
    cases h' with
    | cons x y =>
      rw [b1] at x
      cases x
      exact ⟨_, h⟩
  obtain ⟨bs, hbases⟩ := hbases
  have hU := rowsOf_isUnit h0
  rcases gen_inverse b2 with ⟨inv, Binv, i1, i2, i3, i4⟩ | ⟨i1, i2⟩
  swap
  · exact absurd ((Matrix.isUnit_iff_isUnit_det _).1 hU) i2
  have hseed : IsVertex g.edges e0.head := (g.mem_vertices _).1 (g.head_mem (h0.dir e0 e2))
  obtain ⟨gens, j1, j2, -, j4⟩ := symLoop_ok hg hp hs hc (all := list0 :: rest) l3 h0 hseed i2 (list0 :: rest)
    PState.new [] [] l3 (by simp) PRel.new (by simp)
  refine ⟨gens, _, list0, rest, ?_, j2, l1, rfl, h0, ?_⟩
  · unfold symmetryGenerators
    rw [bind_ok s1]
    show (do
      let lists ← characteristicEdgeLists tb g
      _) = _
    rw [bind_ok l1, bind_ok hseeds, bind_ok hbases]
    show (do
      let inv ← inverse b0
      _) = _
    rw [bind_ok i1]
    show (do
      let e0 ← vecGet list0 0
      _) = _
    rw [bind_ok e1]
    exact j1
  · intro vm em A vm1 em1 A1 hA hA1 hv1 hcomm
    have hAu := hA.isUnit hsp
    have hmem := char_closed hp hsp l1 hA hAu (es := list0) (by simp)
    have hl' : (list0.map em).length = LabelVector.dim T := by rw [List.length_map, h0.len]
    have hrows' : ∀ {vm em A}, IsGraphAut g.edges pos vm em A → ∀ hl',
        rowsOf pos (list0.map em) hl' = rowsOf pos list0 h0.len * A.transpose := by
      intro vm em A hA hl'
      ext i j
      have hi : i.1 < list0.length := by rw [h0.len]; exact i.2
      simp only [rowsOf, Matrix.of_apply, List.getElem_map]
      rw [hA.vec _ (h0.dir _ (List.getElem_mem hi)), Matrix.mul_apply, Matrix.mulVec, dotProduct]
      apply Finset.sum_congr rfl
      intro k _
      simp [Matrix.transpose_apply, mul_comm]
    have hrows := hrows' hA hl'
    have hM : rowsOf pos (list0.map em) hl' * Binv = A1 := by
      rw [hrows, hcomm, mul_assoc, i3, mul_one]
    rcases j4 (list0.map em) hmem hl' with ⟨σ, h1, h2⟩ | h
    · refine ⟨σ, h1, Or.inl ?_⟩
      -- σ is induced by an automorphism that agrees with `em` on a basis
      obtain ⟨vm', em', A', k1, k2⟩ := closure_isGraphAut j2 h1
      obtain ⟨ds, k3, k4⟩ := h2
      have k5 : ∀ e ∈ list0, em' e = em e := by
        rw [k3, List.map_map] at k4
        intro e he
        rw [k3] at he
        obtain ⟨d, hd, rfl⟩ := List.mem_map.1 he
        have := List.map_inj_left.1 k4 d hd
        rw [← k2 d, ← this]
        rfl
      have k6 : A' = A := by
        have : rowsOf pos list0 h0.len * A'.transpose = rowsOf pos list0 h0.len * A.transpose := by
          rw [← hrows' k1 (by rw [List.length_map, h0.len]), ← hrows]
          ext i j
          simp only [rowsOf, Matrix.of_apply, List.getElem_map]
          rw [k5 _ (List.getElem_mem _)]
        have := hU.mul_left_cancel this
        exact Matrix.transpose_injective this
      subst k6
      have k7 : vm' e0.head = vm e0.head := by
        rw [← k1.head e0 (h0.dir e0 e2), ← hA.head e0 (h0.dir e0 e2), k5 e0 e2]
      intro e
      rw [k2 e]
      exact (StarMap.unique hs hq k1.starMap hA.starMap hseed k7).2 e.1 e.2
    · rw [hM] at h
      obtain ⟨x, hx, h1⟩ := h vm1 em1 hA1 (by
        intro e he
        rw [List.head?_map, e3, Option.map_some, Option.mem_some_iff] at he
        rw [← he, hA.head e0 (h0.dir e0 e2)]
        exact hv1 e0 (by rw [e3]; rfl))
      exact ⟨_, Subgroup.subset_closure ⟨x, hx, rfl⟩, Or.inr h1⟩

/-- `symmetries` returns a finite group of automorphisms, each element once. -/
theorem symmetries_ok (hg : g.WF) (hp : Places tb g pos) (hs : LocallyStable g.edges pos)
    (hc : PeriodicConnected g.edges) {v0 : Nat} (hv0 : IsVertex g.edges v0) :
    ∃ N l, (∀ fuel, N ≤ fuel → symmetries fuel tb g = .ok l) ∧ (∀ x ∈ l, GoodAut g.edges pos x) ∧
      (l.map (autPerm g.edges)).Nodup ∧ (∃ i ∈ l, Automorphism.identity g = .ok i) ∧
      (∃ H : Subgroup (Equiv.Perm {e : Edge T // IsDirected g.edges e}), ∀ y, y ∈ H ↔ y ∈ l.map (autPerm g.edges)) ∧
      ∃ list0 rest, characteristicEdgeLists tb g = .ok (list0 :: rest) ∧ ∃ h0 : GoodList g pos list0,
        ∀ vm em A vm' em' A', IsGraphAut g.edges pos vm em A → IsGraphAut g.edges pos vm' em' A' →
          (∀ e ∈ list0.head?, vm' e.head = vm e.head) →
          rowsOf pos list0 h0.len * A.transpose = A' * rowsOf pos list0 h0.len →
          ∃ x ∈ l, (∀ e, (autPerm g.edges x e).1 = em e.1) ∨ (∀ e, (autPerm g.edges x e).1 = em' e.1) := by
  have hsp := span_edgeVecs (pos := pos) hc hv0
  obtain ⟨gens, ls, list0, rest, h1, h2, h3, rfl, h0, h4⟩ := symmetryGenerators_ok hg hp hs hc hv0
  obtain ⟨i, i1, i2⟩ := stands_identity g
  have hgi : GoodAut g.edges pos i := ⟨_, _, _, i2, IsGraphAut.id _ _⟩
  have hpi : autPerm g.edges i = 1 := by
    rw [autPerm_eq i2 (IsGraphAut.id g.edges pos)]
    ext e : 2
    rfl
  haveI := finite_dir_raw g.edges
  obtain ⟨l, j1, j2, j3, j4, j5⟩ := multiplicativeGroup_ok (mul := Automorphism.mul) (eqv := Automorphism.eqv)
    (Good := GoodAut g.edges pos) (ρ := autPerm g.edges) (fun a b ha hb => goodAut_mul ha hb)
    (fun a b ha hb => goodAut_eqv hsp ha hb) h2 hgi hpi (le_refl _)
  refine ⟨Nat.card (Equiv.Perm {e : Edge T // IsDirected g.edges e}) + 1, l, ?_, j2, j3, ⟨i, j4, i1⟩, ⟨_, j5⟩, list0, rest, h3, h0, ?_⟩
  · intro fuel hf
    unfold symmetries
    rw [bind_ok h1, bind_ok i1]
    exact mgLoop_mono _ _ _ _ _ j1 hf
  · intro vm em A vm' em' A' hA hA' hv hcomm
    obtain ⟨σ, h5, h6⟩ := h4 vm em A vm' em' A' hA hA' hv hcomm
    obtain ⟨x, hx, rfl⟩ := List.mem_map.1 ((j5 σ).1 h5)
    exact ⟨x, hx, h6⟩

end
end Systre
