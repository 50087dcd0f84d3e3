import Verif.Lemmas.FinerForm

/-!
# `minimal_image`
-/

namespace Systre

open Submodule Partitions

/-! ### numbering of the orbits -/

/-- the index of the orbit of `v` -/
def orbIx (os : List (List Nat)) (v : Nat) : Nat := os.findIdx (fun d => decide (v ∈ d))
/-- the first vertex of the orbit of `v` -/
def orbRp (os : List (List Nat)) (v : Nat) : Nat := (os.getD (orbIx os v) []).headD 0

theorem orbIx_eq {os : List (List Nat)} (hn : os.flatten.Nodup) {i : Nat} (hi : i < os.length) {v : Nat}
    (hv : v ∈ os[i]) : orbIx os v = i := by
  unfold orbIx
  rw [List.findIdx_eq hi]
  refine ⟨by simpa using hv, ?_⟩
  intro j hj
  rw [List.nodup_flatten] at hn
  have := List.pairwise_iff_getElem.1 hn.2 j i (hj.trans hi) hi hj
  simp only [decide_eq_false_iff_not]
  intro hvj
  exact this hvj hv

theorem orb_spec {os : List (List Nat)} (hn : os.flatten.Nodup) {v : Nat} (hv : v ∈ os.flatten) :
    ∃ h : orbIx os v < os.length, v ∈ os[orbIx os v] := by
  obtain ⟨d, hd, hvd⟩ := List.mem_flatten.1 hv
  obtain ⟨i, hi, rfl⟩ := List.getElem_of_mem hd
  have := orbIx_eq hn hi hvd
  rw [this]
  exact ⟨hi, hvd⟩

theorem orbRp_mem {os : List (List Nat)} (hn : os.flatten.Nodup) {v : Nat} (hv : v ∈ os.flatten) :
    ∃ h : orbIx os v < os.length, ∃ hl : 0 < (os[orbIx os v]).length, orbRp os v = (os[orbIx os v])[0] := by
  obtain ⟨h, hm⟩ := orb_spec hn hv
  refine ⟨h, List.length_pos_of_mem hm, ?_⟩
  unfold orbRp
  have : os.getD (orbIx os v) [] = os[orbIx os v] := by simp [List.getD, h]
  rw [this]
  have key : ∀ (l : List Nat) (h : 0 < l.length), l.headD 0 = l[0] := by
    intro l h
    cases l with
    | nil => simp at h
    | cons a l => rfl
  exact key _ _

variable {T : Type} [LabelVector T] [LawfulLabelVector T]
variable {g : Graph T} {tb : Outcome PosTable} {pos : Nat → Fin (LabelVector.dim T) → ℚ}

theorem orbitData {os : List (List Nat)} (hn : os.flatten.Nodup) (hv : ∀ v, v ∈ os.flatten ↔ IsVertex g.edges v)
    (hor : ∀ d ∈ os, ∀ x ∈ d, ∀ y, y ∈ d ↔ ∃ γ, IsTranslation g.edges pos γ ∧ γ x = y) :
    OrbitData g.edges pos (orbIx os) (orbRp os) := by
  refine ⟨?_, ?_, ?_, ?_⟩
  · intro v hv'
    obtain ⟨h, hl, e⟩ := orbRp_mem hn ((hv v).2 hv')
    rw [e, ← hv]
    exact List.mem_flatten.2 ⟨_, List.getElem_mem h, List.getElem_mem hl⟩
  · intro v hv'
    obtain ⟨h, hl, e⟩ := orbRp_mem hn ((hv v).2 hv')
    obtain ⟨_, hm⟩ := orb_spec hn ((hv v).2 hv')
    rw [e]
    exact (hor _ (List.getElem_mem h) _ (List.getElem_mem hl) v).1 hm
  · intro v w h1 h2
    obtain ⟨h, hm⟩ := orb_spec hn ((hv v).2 h1)
    obtain ⟨h', hm'⟩ := orb_spec hn ((hv w).2 h2)
    rw [← hor _ (List.getElem_mem h) _ hm w]
    constructor
    · intro e
      simp only [e]
      exact hm'
    · intro hw
      exact (orbIx_eq hn h hw).symm
  · intro v w _ _ h3
    unfold orbRp
    rw [h3]

/-! ### the table -/

/-- the entry of `v` in `imgs` and `shifts` -/
def orbEntry (pos : Nat → Fin (LabelVector.dim T) → ℚ) (os : List (List Nat)) (v : Nat) : Nat × List Rat :=
  (orbIx os v + 1, List.ofFn (pos v - pos (orbRp os v)))

theorem zipWith_sub_ofFn {n : Nat} (x y : Fin n → ℚ) :
    List.zipWith (· - ·) (List.ofFn x) (List.ofFn y) = List.ofFn (x - y) := by
  apply List.ext_getElem
  · simp
  · intro i h1 h2
    simp

theorem zipWith_add_ofFn {n : Nat} (x y : Fin n → ℚ) :
    List.zipWith (· + ·) (List.ofFn x) (List.ofFn y) = List.ofFn (x + y) := by
  apply List.ext_getElem
  · simp
  · intro i h1 h2
    simp

theorem table_ok (hp : Places tb g pos) {os : List (List Nat)} (hn : os.flatten.Nodup)
    (hv : ∀ v, v ∈ os.flatten ↔ IsVertex g.edges v) (hne : ∀ d ∈ os, d ≠ []) :
    ∃ tab, omap (fun (i : Nat) => do
      let orbit ← vecGet os i
      orbitEntries tb i orbit) (List.range os.length) = .ok tab ∧
      ∀ v, IsVertex g.edges v → tab.flatten.lookup v = some (orbEntry pos os v) := by
  have hpos : ∀ v, IsVertex g.edges v → positionIn tb v = .ok (List.ofFn (pos v)) :=
    fun v hv => hp v ((g.mem_vertices v).2 hv)
  refine ⟨(List.range os.length).map (fun i => (os.getD i []).map (fun v => (v, orbEntry pos os v))), ?_, ?_⟩
  · apply omap_ok
    intro i hi
    rw [List.mem_range] at hi
    have e1 : vecGet os i = .ok os[i] := by unfold vecGet; simp [hi]
    have e2 : os.getD i [] = os[i] := by simp [List.getD, hi]
    rw [bind_ok e1, e2]
    have hd := hne _ (List.getElem_mem hi)
    have hl : 0 < os[i].length := List.length_pos_iff.2 hd
    have e3 : vecGet os[i] 0 = .ok (os[i])[0] := by unfold vecGet; simp [hl]
    have hmem : ∀ v ∈ os[i], IsVertex g.edges v := fun v h =>
      (hv v).1 (List.mem_flatten.2 ⟨_, List.getElem_mem hi, h⟩)
    unfold orbitEntries
    rw [bind_ok e3, bind_ok (hpos _ (hmem _ (List.getElem_mem hl)))]
    apply omap_ok
    intro v hvm
    rw [bind_ok (hpos v (hmem v hvm)), zipWith_sub_ofFn]
    unfold orbEntry
    have h1 := orbIx_eq hn hi hvm
    have h2 : orbRp os v = (os[i])[0] := by
      obtain ⟨h, hl, e⟩ := orbRp_mem hn ((hv v).2 (hmem v hvm))
      rw [e]
      simp only [h1]
    rw [h1, h2]
  · intro v hv'
    have e : ((List.range os.length).map (fun i => (os.getD i []).map (fun v => (v, orbEntry pos os v)))).flatten =
        os.flatten.map (fun v => (v, orbEntry pos os v)) := by
      have : (List.range os.length).map (fun i => (os.getD i []).map (fun v => (v, orbEntry pos os v))) =
          os.map (fun d => d.map (fun v => (v, orbEntry pos os v))) := by
        apply List.ext_getElem
        · simp
        · intro i h1 h2
          simp at h1
          simp [List.getD, h1]
      rw [this, List.map_flatten]
    rw [e]
    have := lookup_of_mem (m := os.flatten.map (fun v => (v, orbEntry pos os v))) (by
      rw [List.map_map]
      simpa [Function.comp_def] using hn) (List.mem_map.2 ⟨v, (hv v).2 hv', rfl⟩)
    exact this

/-! ### the new edges -/

theorem rToI32_eq_some {x : ℚ} {z : ℤ} : Lattices.rToI32 x = some z ↔
    x = z ∧ -2147483648 ≤ z ∧ z ≤ 2147483647 := by
  unfold Lattices.rToI32 Lattices.toI32
  constructor
  · intro h
    split at h
    · rename_i hd
      split at h
      · rename_i hr
        simp only [Option.some.injEq] at h
        subst h
        exact ⟨(Rat.coe_int_num_of_den_eq_one hd).symm, hr⟩
      · cases h
    · cases h
  · rintro ⟨rfl, h⟩
    simp [h]

/-- the vector has integral coordinates in the range of `i32` -/
def FitsI32 {n : Nat} (x : Fin n → ℚ) : Prop :=
  ∀ k, ∃ z : ℤ, x k = z ∧ -2147483648 ≤ z ∧ z ≤ 2147483647

theorem imageEdge_ok {A : Matrix (Fin (LabelVector.dim T)) (Fin (LabelVector.dim T)) ℚ} {s : Fin (LabelVector.dim T) → ℚ}
    {aff : AffineMap ℚ} (ha : IsAff aff A s) {os : List (List Nat)} {tab : List (Nat × Nat × List Rat)}
    (ht : ∀ v, IsVertex g.edges v → tab.lookup v = some (orbEntry pos os v)) {e : Edge T} (he : IsDirected g.edges e) :
    (FitsI32 (A.mulVec (relVec pos (orbRp os) e)) → ∃ t : T, shv t = A.mulVec (relVec pos (orbRp os) e) ∧
      imageEdge aff tab e = .ok ⟨orbIx os e.head + 1, orbIx os e.tail + 1, t⟩) ∧
    (¬ FitsI32 (A.mulVec (relVec pos (orbRp os) e)) → imageEdge aff tab e = .panic) := by
  have hu1 : unwrap (tab.lookup e.head) = .ok (orbEntry pos os e.head) := by rw [ht _ (head_vertex he)]; rfl
  have hu2 : unwrap (tab.lookup e.tail) = .ok (orbEntry pos os e.tail) := by rw [ht _ (tail_vertex he)]; rfl
  have hs : (LabelVector.toVec e.shift).map (fun (x : Int) => (x : Rat)) = List.ofFn (shv e.shift) := by
    apply List.ext_getElem
    · simp [LawfulLabelVector.toVec_length]
    · intro i h1 h2
      simp at h1
      simp [shv, rent, List.getD, h1]
  have hvec : shv e.shift + (pos e.tail - pos (orbRp os e.tail)) - (pos e.head - pos (orbRp os e.head)) =
      relVec pos (orbRp os) e := by
    unfold relVec
    rw [edgeVec_eq]
    abel
  have key : imageEdge aff tab e = (do
      let z ← omap (fun x => unwrap (Lattices.rToI32 x)) (List.ofFn (A.mulVec (relVec pos (orbRp os) e)))
      let t ← LabelVector.fromVec z
      .ok ⟨orbIx os e.head + 1, orbIx os e.tail + 1, t⟩) := by
    unfold imageEdge
    rw [bind_ok hu1]
    simp only [orbEntry]
    rw [bind_ok hu2]
    simp only [orbEntry]
    rw [hs, zipWith_add_ofFn, zipWith_sub_ofFn, hvec, bind_ok (applyLin_ok ha)]
  rw [key]
  set x := A.mulVec (relVec pos (orbRp os) e) with hx
  constructor
  · intro hf
    choose z hz1 hz2 using hf
    obtain ⟨t, ht⟩ := shv_surj (T := T) z
    refine ⟨t, by rw [ht]; funext k; exact (hz1 k).symm, ?_⟩
    have e1 : omap (fun x => unwrap (Lattices.rToI32 x)) (List.ofFn x) = .ok (List.ofFn z) := by
      rw [show List.ofFn x = (List.finRange _).map x from List.ofFn_eq_map]
      rw [omap_map', omap_ok (g := z)]
      · rw [List.ofFn_eq_map]
      · intro k _
        rw [rToI32_eq_some.2 ⟨hz1 k, hz2 k⟩]
        rfl
    have e2 : LabelVector.fromVec (T := T) (List.ofFn z) = .ok t := by
      rw [LawfulLabelVector.fromVec_ok]
      apply ext_rent
      · rw [LawfulLabelVector.toVec_length, List.length_ofFn]
      · intro k
        by_cases hk : k < LabelVector.dim T
        · have := congrFun ht ⟨k, hk⟩
          simp only [shv, Int.cast_inj] at this
          rw [this, rent]
          simp [List.getD, hk]
        · rw [rent_ge (by rw [LawfulLabelVector.toVec_length]; omega), rent_ge (by rw [List.length_ofFn]; omega)]
    rw [bind_ok e1, bind_ok e2]
  · intro hf
    unfold FitsI32 at hf
    push Not at hf
    obtain ⟨k, hk⟩ := hf
    have e1 : omap (fun x => unwrap (Lattices.rToI32 x)) (List.ofFn x) = .panic := by
      refine omap_panic (a := x k) (g := fun x => (Lattices.rToI32 x).getD 0) ?_ ?_ ?_
      · exact (List.mem_ofFn' _ _).2 ⟨k, rfl⟩
      · cases h : Lattices.rToI32 (x k) with
        | none => rfl
        | some z =>
          obtain ⟨h1, h2, h3⟩ := rToI32_eq_some.1 h
          exact absurd h3 (not_le.2 (hk z h1 h2))
      · intro b _
        cases h : Lattices.rToI32 b with
        | none => left; rfl
        | some z => right; rfl
    rw [e1]
    rfl

/-! ### the result -/

theorem minimalImage_eq (hg : g.WF) (hp : Places tb g pos) (hs : LocallyStable g.edges pos)
    (hc : PeriodicConnected g.edges) (hsm : g.vertices.length ≤ 2147483647) {v0 : Nat} {rest : List Nat}
    (hv : g.vertices = v0 :: rest) (hv0 : IsVertex g.edges v0) (hz : pos v0 = 0)
    (hlad : ∀ γ, IsTranslation g.edges pos γ → (∃ t : T, pos (γ v0) = shv t) → γ v0 = v0) :
    (minimalImage tb g = .ok none ∧ ∀ γ, IsTranslation g.edges pos γ → ∃ t : T, pos (γ v0) = shv t) ∨
    ((∃ γ, IsTranslation g.edges pos γ ∧ ¬ ∃ t : T, pos (γ v0) = shv t) ∧
      ∃ (B C : Matrix (Fin (LabelVector.dim T)) (Fin (LabelVector.dim T)) ℚ) (ix rp : Nat → Nat),
        B * C = 1 ∧ C * B = 1 ∧ OrbitData g.edges pos ix rp ∧
        (∀ x, x ∈ trLat (tgroup_all g.edges pos) hc hv0 ↔ ∃ t : T, x = B.transpose.mulVec (shv t)) ∧
        ((∀ e, IsDirected g.edges e → e = e.canonical → FitsI32 (C.mulVec (relVec pos rp e))) →
          ∃ (h : Graph T) (τ : Edge T → T), minimalImage tb g = .ok (some h) ∧ h.WF ∧
            (∀ e, IsDirected g.edges e → shv (τ e) = C.mulVec (relVec pos rp e)) ∧
            ∀ f, IsDirected h.edges f ↔ ∃ e, IsDirected g.edges e ∧ f = ⟨ix e.head + 1, ix e.tail + 1, τ e⟩) ∧
        ((∃ e, IsDirected g.edges e ∧ e = e.canonical ∧ ¬ FitsI32 (C.mulVec (relVec pos rp e))) →
          minimalImage tb g = .panic) ∧
        ∃ o os bs, translationalOrbits tb g = .ok (o :: os) ∧ extendedTranslationBasis tb o = .ok bs ∧
          bs.length = LabelVector.dim T ∧ (∀ v ∈ bs, v.length = LabelVector.dim T) ∧
          ∀ i, B i = rowVec (LabelVector.dim T) (bs.getD i.1 [])) := by
  obtain ⟨c, cs, h1, h2, h3, h4, h5, h6, h7⟩ := translationalOrbits_ok hg hp hs hc hsm hv hv0 hz
  have h6 := h6 hlad
  obtain ⟨b, s1, s2⟩ := isLocallyStable_ok hp
  have hb : b = true := s2.2 ((locStable_iff hg pos).2 hs)
  subst hb
  set os := (v0 :: c) :: cs with hos
  have hpre : minimalImage tb g = (if (v0 :: c).length = 1 then .ok none
      else do
        let bs ← extendedTranslationBasis tb (v0 :: c)
        let rows ← omap Mat.row bs
        let bm ← Mat.vstack rows
        let inv ← inverse bm
        let m ← unwrap inv
        let z ← Vec.zero (LabelVector.dim T)
        let aff ← AffineMap.new m z
        let tab ← omap (fun (i : Nat) => do
          let orbit ← vecGet os i
          orbitEntries tb i orbit) (List.range os.length)
        let des ← g.directedEdges
        let edges ← omap (imageEdge aff tab.flatten) (des.filter (fun e => decide (e = e.canonical)))
        .ok (some (Graph.new edges))) := by
    unfold minimalImage
    rw [bind_ok s1, show rassert true = .ok () from rfl, Outcome.ok_bind, bind_ok h1]
    rfl
  by_cases hcn : c = []
  · left
    refine ⟨?_, h7.1 hcn⟩
    rw [hpre, hcn]
    rfl
  right
  have hnall : ∃ γ, IsTranslation g.edges pos γ ∧ ¬ ∃ t : T, pos (γ v0) = shv t := by
    by_contra hcon
    push Not at hcon
    apply hcn
    apply h7.2
    intro γ hγ
    obtain ⟨t, ht⟩ := hcon γ hγ
    exact ⟨t, ht⟩
  refine ⟨hnall, ?_⟩
  have hlen : ¬ (v0 :: c).length = 1 := by
    simpa using hcn
  rw [if_neg hlen] at hpre
  obtain ⟨bs, e1, e2, e3, e4, e5⟩ := extendedBasis_ok hp hc hsm hv0 hcn
    (fun v hv' => h4 _ List.mem_cons_self v0 List.mem_cons_self v (List.mem_cons_of_mem _ hv')) h5
  have hd := LawfulLabelVector.dim_pos (T := T)
  have hbs : bs ≠ [] := by rintro rfl; simp at e2; omega
  have hstack := stackRows_ok (n := LabelVector.dim T) (bs := bs) e3 (fun _ => hd)
  unfold stackRows at hstack
  let B : Matrix (Fin (LabelVector.dim T)) (Fin (LabelVector.dim T)) ℚ := fun i => rowVec (LabelVector.dim T) (bs.getD i.1 [])
  have hrep : Rep (matOf (LabelVector.dim T) bs) B := by
    unfold matOf
    rw [if_neg hbs]
    unfold Mat.ofRows
    rw [e2]
    exact rep_ofFn' (fun _ => hd) (fun i j => rfl)
  have hBrow : ∀ i : Fin (LabelVector.dim T), B i = rowVec (LabelVector.dim T) (bs[i.1]'(by rw [e2]; exact i.2)) := by
    intro i
    have : i.1 < bs.length := by rw [e2]; exact i.2
    simp [B, List.getD, this]
  have hBind : LinearIndependent ℚ B.row := by
    have := e4
    unfold Indep at this
    have h' := this.comp (Fin.cast e2.symm) (Fin.cast_injective _)
    have : (fun i : Fin bs.length => rowVec (LabelVector.dim T) bs[i.1]) ∘ Fin.cast e2.symm = B.row := by
      funext i
      exact (hBrow i).symm
    rw [this] at h'
    exact h'
  have hBu : IsUnit B := Matrix.linearIndependent_rows_iff_isUnit.1 hBind
  obtain ⟨m, C, i1, i2, hBC, hCB⟩ : ∃ m C, inverse (matOf (LabelVector.dim T) bs) = .ok (some m) ∧ Rep m C ∧ B * C = 1 ∧ C * B = 1 := by
    rcases gen_inverse hrep with h | ⟨-, h⟩
    · exact h
    · exact absurd ((Matrix.isUnit_iff_isUnit_det _).1 hBu) h
  obtain ⟨z, z1, z2⟩ := vec_zero (T := ℚ) (LabelVector.dim T)
  obtain ⟨a1, a2⟩ := aff_new i2 z2
  have hperm : ∀ v, v ∈ os.flatten ↔ IsVertex g.edges v := fun v => h3.mem_iff.trans (g.mem_vertices v)
  have hnd : os.flatten.Nodup := h3.nodup_iff.2 vertices_nodup
  obtain ⟨tab, t1, t2⟩ := table_ok hp hnd hperm h2
  obtain ⟨des, d1, d2⟩ := directedEdges_ok g
  have hpre2 : minimalImage tb g = (do
        let edges ← omap (imageEdge ⟨m, z⟩ tab.flatten) (des.filter (fun e => decide (e = e.canonical)))
        .ok (some (Graph.new edges))) := by
    rw [hpre, bind_ok e1, ← bind_assoc, hstack, Outcome.ok_bind, bind_ok i1,
      show unwrap (some m) = .ok m from rfl, Outcome.ok_bind, bind_ok z1, bind_ok a1, bind_ok t1, bind_ok d1]
  have hmemf : ∀ e, e ∈ des.filter (fun e => decide (e = e.canonical)) ↔ IsDirected g.edges e ∧ e = e.canonical := by
    intro e
    rw [List.mem_filter, d2, decide_eq_true_eq]
  refine ⟨B, C, orbIx os, orbRp os, hBC, hCB, orbitData hnd hperm h6, ?_, ?_, ?_, v0 :: c, cs, bs, h1, e1, e2, e3, fun _ => rfl⟩
  · intro x
    rw [← e5]
    have hset : rowVec (LabelVector.dim T) '' {v | v ∈ bs} = Set.range B := by
      ext y
      constructor
      · rintro ⟨v, hv', rfl⟩
        obtain ⟨i, hi, rfl⟩ := List.getElem_of_mem hv'
        exact ⟨⟨i, e2 ▸ hi⟩, hBrow _⟩
      · rintro ⟨i, rfl⟩
        exact ⟨_, List.getElem_mem (by rw [e2]; exact i.2), (hBrow i).symm⟩
    unfold latticeOf
    rw [hset, mem_span_range_iff_exists_fun]
    have hsum : ∀ z : Fin (LabelVector.dim T) → ℤ, ∑ i, z i • B i = B.transpose.mulVec (fun k => (z k : ℚ)) := by
      intro z
      funext j
      simp [Matrix.mulVec, dotProduct, mul_comm, Finset.sum_apply]
    constructor
    · rintro ⟨z, rfl⟩
      obtain ⟨t, ht⟩ := shv_surj (T := T) z
      exact ⟨t, by rw [ht, hsum]⟩
    · rintro ⟨t, rfl⟩
      exact ⟨fun k => rent (LabelVector.toVec t) k.1, hsum _⟩
  · intro hfit
    have hsome : ∀ e, IsDirected g.edges e → ∃ t : T, shv t = C.mulVec (relVec pos (orbRp os) e) ∧
        (e = e.canonical → imageEdge ⟨m, z⟩ tab.flatten e = .ok ⟨orbIx os e.head + 1, orbIx os e.tail + 1, t⟩) := by
      intro e he
      by_cases hcan : e = e.canonical
      · obtain ⟨t, k1, k2⟩ := (imageEdge_ok a2 t2 he).1 (hfit e he hcan)
        exact ⟨t, k1, fun _ => k2⟩
      · have hneg : e.canonical = e.neg := by
          rcases canonical_or e with h | h
          · exact absurd h.symm hcan
          · exact h
        have he' : IsDirected g.edges e.neg := isDirected_neg.2 he
        have hcan' : e.neg = e.neg.canonical := by rw [← hneg, canonical_idem]
        obtain ⟨t, k1, -⟩ := (imageEdge_ok a2 t2 he').1 (hfit _ he' hcan')
        refine ⟨-t, ?_, fun h => absurd h hcan⟩
        rw [shv_neg, k1, relVec_neg, Matrix.mulVec_neg, neg_neg]
    choose! τ hτ1 hτ2 using hsome
    let F : Edge T → Edge T := fun e => ⟨orbIx os e.head + 1, orbIx os e.tail + 1, τ e⟩
    have hom : omap (imageEdge ⟨m, z⟩ tab.flatten) (des.filter (fun e => decide (e = e.canonical))) =
        .ok ((des.filter (fun e => decide (e = e.canonical))).map F) := by
      apply omap_ok
      intro e he
      obtain ⟨k1, k2⟩ := (hmemf e).1 he
      exact hτ2 e k1 k2
    refine ⟨Graph.new ((des.filter (fun e => decide (e = e.canonical))).map F), τ, ?_, wf_new _, hτ1, ?_⟩
    · rw [hpre2, bind_ok hom]
    · intro f
      rw [isDirected_new, isDirected_iff]
      have hFneg : ∀ e, IsDirected g.edges e → (F e).neg = F e.neg := by
        intro e he
        have : τ e.neg = - τ e := by
          apply shv_inj
          rw [hτ1 _ (isDirected_neg.2 he), shv_neg, hτ1 e he, relVec_neg, Matrix.mulVec_neg]
        simp only [F, this]
        rfl
      constructor
      · rintro (h | h)
        · obtain ⟨e, he, rfl⟩ := List.mem_map.1 h
          exact ⟨e, ((hmemf e).1 he).1, rfl⟩
        · obtain ⟨e, he, h'⟩ := List.mem_map.1 h
          have he := ((hmemf e).1 he).1
          refine ⟨e.neg, isDirected_neg.2 he, ?_⟩
          show f = F e.neg
          rw [← hFneg e he, h', Edge.neg_neg]
      · rintro ⟨e, he, rfl⟩
        rcases canonical_or e with h | h
        · left
          exact List.mem_map.2 ⟨e, (hmemf e).2 ⟨he, h.symm⟩, rfl⟩
        · right
          show (F e).neg ∈ _
          rw [hFneg e he]
          exact List.mem_map.2 ⟨e.neg, (hmemf _).2 ⟨isDirected_neg.2 he, by rw [← h, canonical_idem]⟩, rfl⟩
  · rintro ⟨e, he, hcan, hf⟩
    rw [hpre2]
    have : omap (imageEdge ⟨m, z⟩ tab.flatten) (des.filter (fun e => decide (e = e.canonical))) = .panic := by
      classical
      refine omap_panic (a := e) (g := fun e => match imageEdge ⟨m, z⟩ tab.flatten e with | .ok f => f | _ => e)
        ((hmemf e).2 ⟨he, hcan⟩) ((imageEdge_ok a2 t2 he).2 hf) ?_
      intro e' he'
      obtain ⟨k1, k2⟩ := (hmemf e').1 he'
      by_cases hf' : FitsI32 (C.mulVec (relVec pos (orbRp os) e'))
      · right
        obtain ⟨t, -, k3⟩ := (imageEdge_ok a2 t2 k1).1 hf'
        rw [k3]
      · left
        exact (imageEdge_ok a2 t2 k1).2 hf'
    rw [this]
    rfl

end Systre
