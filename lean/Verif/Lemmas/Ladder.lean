import Verif.Lemmas.MinimalImage

/-!
# `is_ladder`, `ladder_symmetries`, and the correctness of `minimal_image`
-/

namespace Systre

open Submodule Partitions

variable {T : Type} [LabelVector T] [LawfulLabelVector T]
variable {g : Graph T} {tb : Outcome PosTable} {pos : Nat → Fin (LabelVector.dim T) → ℚ}
variable {raw : List (Edge T)}

theorem sameModLattice_iff {x y : Fin (LabelVector.dim T) → ℚ} : SameModLattice x y ↔ ∃ t : T, x - y = shv t := by
  constructor
  · rintro ⟨z, hz⟩
    obtain ⟨t, ht⟩ := shv_surj (T := T) z
    exact ⟨t, by rw [ht]; funext k; exact hz k⟩
  · rintro ⟨t, ht⟩
    exact ⟨fun k => rent (LabelVector.toVec t) k.1, fun k => congrFun ht k⟩

/-- the property of a translation at one vertex holds at all of them -/
theorem ladder_at (hs : LocallyStable raw pos) (hc : PeriodicConnected raw) {v0 : Nat} (hv0 : IsVertex raw v0)
    {γ : Nat → Nat} (hγ : IsTranslation raw pos γ) :
    IsLadderTranslation raw pos γ ↔ γ v0 ≠ v0 ∧ ∃ t : T, pos (γ v0) - pos v0 = shv t := by
  constructor
  · rintro ⟨-, v, hv, hne, hm⟩
    constructor
    · intro h0
      exact hne ((IsTranslation.id raw pos).unique hs (quotient_of_periodic hc) hγ hv0 h0.symm v hv).symm
    · obtain ⟨t, ht⟩ := sameModLattice_iff.1 hm
      obtain ⟨u, hu⟩ := hγ.vector hc hv0 hv
      exact ⟨t + u, by rw [hu, ht, shv_add]⟩
  · rintro ⟨h1, h2⟩
    exact ⟨hγ, v0, hv0, h1, sameModLattice_iff.2 h2⟩

theorem isLadder_ok (hg : g.WF) (hp : Places tb g pos) (hs : LocallyStable g.edges pos)
    (hc : PeriodicConnected g.edges) {v0 : Nat} {rest : List Nat} (hv : g.vertices = v0 :: rest)
    (hv0 : IsVertex g.edges v0) (hz : pos v0 = 0) :
    ∃ b, isLadder tb g = .ok b ∧ (b = true ↔ ∃ γ, IsLadderTranslation g.edges pos γ) := by
  have hqc := quotient_of_periodic hc
  obtain ⟨b, s1, s2⟩ := isLocallyStable_ok hp
  have hb : b = true := s2.2 ((locStable_iff hg pos).2 hs)
  subst hb
  obtain ⟨st, s3, s4⟩ := isStable_ok hp
  unfold isLadder
  rw [bind_ok s1, show rassert true = .ok () from rfl, Outcome.ok_bind, bind_ok s3]
  cases st with
  | true =>
    refine ⟨false, rfl, ?_⟩
    simp only [Bool.false_eq_true, false_iff]
    rintro ⟨γ, hγ, v, hv', hne, hm⟩
    exact s4.1 rfl _ ((g.mem_vertices _).2 (hγ.vertex hv')) _ ((g.mem_vertices _).2 hv') hne hm
  | false =>
    obtain ⟨p, U, p', c, cs', h1, h2, h3, h4, h5, h6, h7, -⟩ := rawClasses_ok hg hp hs hqc hv
    have hcv : ∀ v ∈ c, IsVertex g.edges v := by
      intro v hvc
      obtain ⟨γ, k1, rfl⟩ := (h7 v).1 (List.mem_cons_of_mem _ hvc)
      exact k1.vertex hv0
    have hsame : ∀ v ∈ c, ∃ b, sameMod1 tb (mod1 (List.ofFn (pos v0))) v = .ok b ∧ (b = true ↔ ∃ t : T, pos v = shv t) :=
      fun v hvc => sameMod1_ok hp hz (hcv v hvc)
    choose! B hB1 hB2 using hsame
    have hom := omap_ok hB1
    have hraw : rawTranslationalOrbits tb g = .ok ((v0 :: c) :: cs') := by
      unfold rawTranslationalOrbits
      rw [bind_ok h1, h2, Outcome.ok_bind]
    refine ⟨(c.map B).any id, ?_, ?_⟩
    · rw [if_neg (by decide), bind_ok hraw, show vecGet ((v0 :: c) :: cs') 0 = .ok (v0 :: c) from rfl, Outcome.ok_bind,
        show vecGet (v0 :: c) 0 = .ok v0 from rfl, Outcome.ok_bind, bind_ok (hp v0 ((g.mem_vertices v0).2 hv0)),
        List.drop_one, List.tail_cons, bind_ok hom]
    · rw [List.any_eq_true]
      constructor
      · rintro ⟨x, hx, hx'⟩
        obtain ⟨v, hvc, rfl⟩ := List.mem_map.1 hx
        obtain ⟨t, ht⟩ := (hB2 v hvc).1 hx'
        obtain ⟨γ, k1, rfl⟩ := (h7 v).1 (List.mem_cons_of_mem _ hvc)
        refine ⟨γ, (ladder_at hs hc hv0 k1).2 ⟨?_, t, by rw [hz, sub_zero, ht]⟩⟩
        intro heq
        rw [heq] at hvc
        exact (List.nodup_cons.1 h6).1 hvc
      · rintro ⟨γ, hγ⟩
        obtain ⟨k1, t, ht⟩ := (ladder_at hs hc hv0 hγ.1).1 hγ
        rw [hz, sub_zero] at ht
        have hm := (h7 (γ v0)).2 ⟨γ, hγ.1, rfl⟩
        rcases List.mem_cons.1 hm with h | h
        · exact absurd h k1
        · exact ⟨B (γ v0), List.mem_map_of_mem h, (hB2 _ h).2 ⟨t, ht⟩⟩

theorem ladderSymmetries_ok (hg : g.WF) (hp : Places tb g pos) (hs : LocallyStable g.edges pos)
    (hc : PeriodicConnected g.edges) {v0 : Nat} {rest : List Nat} (hv : g.vertices = v0 :: rest)
    (hv0 : IsVertex g.edges v0) (hz : pos v0 = 0) :
    ∃ l, ladderSymmetries tb g = .ok l ∧
      (∀ φ ∈ l, ∃ vm em, Stands g.edges φ vm em 1 0 ∧ IsGraphAut g.edges pos vm em 1 ∧ IsLadderTranslation g.edges pos vm) ∧
      (∀ γ, IsLadderTranslation g.edges pos γ → ∃ φ ∈ l, ∀ v, IsVertex g.edges v → φ.vertexMap.lookup v = some (γ v)) ∧
      l.Pairwise (fun φ ψ => ∃ v, IsVertex g.edges v ∧ φ.vertexMap.lookup v ≠ ψ.vertexMap.lookup v) := by
  have hqc := quotient_of_periodic hc
  obtain ⟨b, s1, s2⟩ := isLocallyStable_ok hp
  have hb : b = true := s2.2 ((locStable_iff hg pos).2 hs)
  subst hb
  obtain ⟨a, ha, -⟩ := aff_identity (T := ℚ) (LabelVector.dim T)
  obtain ⟨p, U, p', c, cs', h1, h2, h3, h4, h5, h6, h7, -⟩ := rawClasses_ok hg hp hs hqc hv
  have hcv : ∀ v ∈ c, IsVertex g.edges v := by
    intro v hvc
    obtain ⟨γ, k1, rfl⟩ := (h7 v).1 (List.mem_cons_of_mem _ hvc)
    exact k1.vertex hv0
  have hsame : ∀ v ∈ c, ∃ b, sameMod1 tb (mod1 (List.ofFn (pos v0))) v = .ok b ∧ (b = true ↔ ∃ t : T, pos v = shv t) :=
    fun v hvc => sameMod1_ok hp hz (hcv v hvc)
  choose! B hB1 hB2 using hsame
  have hom : omap (fun v => do
      let b ← sameMod1 tb (mod1 (List.ofFn (pos v0))) v
      .ok (v, b)) c = .ok (c.map (fun v => (v, B v))) := by
    apply omap_ok
    intro v hvc
    rw [bind_ok (hB1 v hvc)]
  have hraw : rawTranslationalOrbits tb g = .ok ((v0 :: c) :: cs') := by
    unfold rawTranslationalOrbits
    rw [bind_ok h1, h2, Outcome.ok_bind]
  have haut : ∀ v ∈ c, ∃ φ, automorphism tb g v0 v a = .ok (some φ) ∧
      ∃ vm em, Stands g.edges φ vm em 1 0 ∧ IsGraphAut g.edges pos vm em 1 ∧ vm v0 = v := by
    intro v hvc
    obtain ⟨r, a1, a2, a3⟩ := automorphism_ok hg hp hs hqc (identity_aff ha) v0 v hv0
    cases r with
    | none =>
      exfalso
      obtain ⟨γ, ⟨em, k1⟩, k2⟩ := (h7 v).1 (List.mem_cons_of_mem _ hvc)
      exact a3 rfl γ em k1.starMap k2
    | some φ =>
      obtain ⟨-, vm, em, b1, b2, b3⟩ := a2 φ rfl
      exact ⟨φ, a1, vm, em, b1, b2.isGraphAut hs hqc isUnit_one b2.verts, b3⟩
  set L := ((c.map (fun v => (v, B v))).filter (fun p => p.2)).map Prod.fst with hL
  have hmemL : ∀ v, v ∈ L ↔ v ∈ c ∧ ∃ t : T, pos v = shv t := by
    intro v
    rw [hL]
    simp only [List.mem_map, List.mem_filter]
    constructor
    · rintro ⟨⟨w, x⟩, ⟨⟨w', hw, he⟩, hx⟩, rfl⟩
      simp only [Prod.mk.injEq] at he
      obtain ⟨rfl, rfl⟩ := he
      exact ⟨hw, (hB2 _ hw).1 hx⟩
    · rintro ⟨hvc, ht⟩
      exact ⟨(v, B v), ⟨⟨v, hvc, rfl⟩, (hB2 v hvc).2 ht⟩, rfl⟩
  have hLnd : L.Nodup := by
    have hcn : c.Nodup := (List.nodup_cons.1 h6).2
    have : L.Sublist c := by
      rw [hL]
      have hs' : (((c.map (fun v => (v, B v))).filter (fun p => p.2)).map Prod.fst).Sublist
          ((c.map (fun v => (v, B v))).map Prod.fst) := List.Sublist.map _ List.filter_sublist
      rwa [List.map_map, show (Prod.fst ∘ fun v => (v, B v)) = id from rfl, List.map_id] at hs'
    exact hcn.sublist this
  have : Nonempty (Automorphism T) := ⟨⟨[], [], a⟩⟩
  choose! F hF1 hF2 using haut
  have hom2 : omap (fun v => do
      let r ← automorphism tb g v0 v a
      unwrap r) L = .ok (L.map F) := by
    apply omap_ok
    intro v hvL
    rw [bind_ok (hF1 v ((hmemL v).1 hvL).1)]
    rfl
  refine ⟨L.map F, ?_, ?_, ?_, ?_⟩
  · unfold ladderSymmetries
    rw [bind_ok s1, show rassert true = .ok () from rfl, Outcome.ok_bind, bind_ok hraw,
      show vecGet ((v0 :: c) :: cs') 0 = .ok (v0 :: c) from rfl, Outcome.ok_bind,
      show vecGet (v0 :: c) 0 = .ok v0 from rfl, Outcome.ok_bind, bind_ok (hp v0 ((g.mem_vertices v0).2 hv0)),
      bind_ok ha, List.drop_one, List.tail_cons, bind_ok hom, hom2]
  · intro φ hφ
    obtain ⟨v, hvL, rfl⟩ := List.mem_map.1 hφ
    obtain ⟨hvc, t, ht⟩ := (hmemL v).1 hvL
    obtain ⟨vm, em, k1, k2, k3⟩ := hF2 v hvc
    refine ⟨vm, em, k1, k2, (ladder_at hs hc hv0 ⟨em, k2⟩).2 ⟨?_, t, by rw [k3, hz, sub_zero, ht]⟩⟩
    rw [k3]
    rintro rfl
    exact (List.nodup_cons.1 h6).1 hvc
  · intro γ hγ
    obtain ⟨k1, t, ht⟩ := (ladder_at hs hc hv0 hγ.1).1 hγ
    rw [hz, sub_zero] at ht
    have hvc : γ v0 ∈ c := (List.mem_cons.1 ((h7 (γ v0)).2 ⟨γ, hγ.1, rfl⟩)).resolve_left k1
    refine ⟨F (γ v0), List.mem_map_of_mem ((hmemL _).2 ⟨hvc, t, ht⟩), ?_⟩
    obtain ⟨vm, em, k4, k5, k6⟩ := hF2 _ hvc
    intro v hv'
    rw [k4.vkeys]
    exact ⟨hv', hγ.1.unique hs hqc ⟨em, k5⟩ hv0 k6.symm v hv'⟩
  · rw [List.pairwise_map]
    refine hLnd.imp_of_mem ?_
    intro v w hvL hwL hne
    obtain ⟨vm, em, k1, -, k3⟩ := hF2 v ((hmemL v).1 hvL).1
    obtain ⟨vm', em', k1', -, k3'⟩ := hF2 w ((hmemL w).1 hwL).1
    refine ⟨v0, hv0, ?_⟩
    rw [(k1.vkeys v0 v).2 ⟨hv0, k3.symm⟩, (k1'.vkeys v0 w).2 ⟨hv0, k3'.symm⟩]
    simpa using hne

/-! ### `minimal_image` -/

/-- If all the vectors of edges are integral in the new coordinates, the new coordinates of the lattice are the
integral vectors (although `C` is the inverse of `B`, and not of its transpose). -/
theorem lattice_of_integral {d : Nat} {L : AddSubgroup (Fin d → ℚ)} {B C : Matrix (Fin d) (Fin d) ℚ} (hBC : B * C = 1)
    (hCB : C * B = 1) (hL : ∀ x, x ∈ L ↔ ∃ z : Fin d → ℤ, x = B.transpose.mulVec (fun k => (z k : ℚ)))
    (hint : ∀ x ∈ L, ∃ z : Fin d → ℤ, C.mulVec x = fun k => (z k : ℚ)) (x : Fin d → ℚ) :
    x ∈ L ↔ ∃ z : Fin d → ℤ, (fun k => (z k : ℚ)) = C.mulVec x := by
  constructor
  · intro h
    obtain ⟨z, hz⟩ := hint x h
    exact ⟨z, hz.symm⟩
  rintro ⟨z, hz⟩
  have hrow : ∀ i : Fin d, ∃ z : Fin d → ℤ, C.mulVec (B i) = fun k => (z k : ℚ) := by
    intro i
    apply hint
    rw [hL]
    refine ⟨Pi.single i 1, ?_⟩
    funext j
    simp [Matrix.mulVec, dotProduct, Pi.single_apply]
  choose Q hQ using hrow
  let Qm : Matrix (Fin d) (Fin d) ℤ := fun k i => Q i k
  have hQm : Qm.map (fun z : ℤ => (z : ℚ)) = C * B.transpose := by
    ext k i
    have := congrFun (hQ i) k
    rw [Matrix.map_apply]
    show ((Q i k : ℤ) : ℚ) = _
    rw [← this]
    rfl
  have hdet : Qm.det = 1 := by
    have h1 : ((Qm.det : ℤ) : ℚ) = (C * B.transpose).det := by
      rw [← hQm]
      exact Int.cast_det Qm
    rw [Matrix.det_mul, Matrix.det_transpose, ← Matrix.det_mul, hCB, Matrix.det_one] at h1
    exact_mod_cast h1
  rw [hL]
  refine ⟨Qm.adjugate.mulVec z, ?_⟩
  have h2 : Qm.mulVec (Qm.adjugate.mulVec z) = z := by
    rw [Matrix.mulVec_mulVec, Matrix.mul_adjugate, hdet, one_smul, Matrix.one_mulVec]
  have h3 : (C * B.transpose).mulVec (fun k => ((Qm.adjugate.mulVec z k : ℤ) : ℚ)) = fun k => (z k : ℚ) := by
    rw [← hQm]
    funext k
    have := congrFun h2 k
    rw [← this]
    simp [Matrix.mulVec, dotProduct]
  have h4 : x = B.mulVec (C.mulVec x) := by
    rw [Matrix.mulVec_mulVec, hBC, Matrix.one_mulVec]
  rw [h4, ← hz, ← h3, Matrix.mulVec_mulVec, ← Matrix.mul_assoc, hBC, Matrix.one_mul]

theorem minimalImage_ok (hg : g.WF) (hp : Places tb g pos) (hs : LocallyStable g.edges pos)
    (hc : PeriodicConnected g.edges) (hsm : g.vertices.length ≤ 2147483647) {v0 : Nat} {rest : List Nat}
    (hv : g.vertices = v0 :: rest) (hv0 : IsVertex g.edges v0) (hz : pos v0 = 0)
    (hlad : ¬ ∃ γ, IsLadderTranslation g.edges pos γ) :
    (minimalImage tb g = .ok none ∧ ∀ γ, IsTranslation g.edges pos γ → ∃ t : T, pos (γ v0) = shv t) ∨
    ((∃ γ, IsTranslation g.edges pos γ ∧ ¬ ∃ t : T, pos (γ v0) = shv t) ∧
      ((∃ h : Graph T, minimalImage tb g = .ok (some h) ∧ h.WF ∧ IsFinerForm g.edges pos h.edges) ∨
        minimalImage tb g = .panic)) := by
  have hlad1 : ∀ γ, IsTranslation g.edges pos γ → (∃ t : T, pos (γ v0) - pos v0 = shv t) → γ v0 = v0 := by
    intro γ hγ ht
    by_contra hne
    exact hlad ⟨γ, (ladder_at hs hc hv0 hγ).2 ⟨hne, ht⟩⟩
  rcases minimalImage_eq hg hp hs hc hsm hv hv0 hz (by
    intro γ hγ ht
    exact hlad1 γ hγ (by rwa [hz, sub_zero])) with h | ⟨h1, B, C, ix, rp, hBC, hCB, hO, hlat, hfit, hpan, -⟩
  · exact Or.inl h
  refine Or.inr ⟨h1, ?_⟩
  by_cases hf : ∀ e, IsDirected g.edges e → e = e.canonical → FitsI32 (C.mulVec (relVec pos rp e))
  · left
    obtain ⟨h, τ, k1, k2, k3, k4⟩ := hfit hf
    refine ⟨h, k1, k2, ?_⟩
    have hCu : IsUnit C := ⟨⟨C, B, hCB, hBC⟩, rfl⟩
    refine hO.finer hs hc hv0 hlad1 hCu ?_ k3 k4
    intro x
    have hle := hO.lattice_le hc hv0
      { carrier := {x | ∃ z : Fin (LabelVector.dim T) → ℤ, C.mulVec x = fun k => (z k : ℚ)}
        add_mem' := by
          rintro x y ⟨z, hz⟩ ⟨w, hw⟩
          exact ⟨z + w, by rw [Matrix.mulVec_add, hz, hw]; funext k; simp⟩
        zero_mem' := ⟨0, by rw [Matrix.mulVec_zero]; funext k; simp⟩
        neg_mem' := by
          rintro x ⟨z, hz⟩
          exact ⟨-z, by rw [Matrix.mulVec_neg, hz]; funext k; simp⟩ } (by
        intro e he
        refine ⟨fun k => rent (LabelVector.toVec (τ e)) k.1, ?_⟩
        rw [← k3 e he]
        rfl)
    have hkey := lattice_of_integral (L := trLat (tgroup_all g.edges pos) hc hv0) hBC hCB (by
      intro x
      rw [hlat]
      constructor
      · rintro ⟨t, ht⟩
        exact ⟨fun k => rent (LabelVector.toVec t) k.1, ht⟩
      · rintro ⟨z, hz⟩
        obtain ⟨t, ht⟩ := shv_surj (T := T) z
        exact ⟨t, by rw [ht]; exact hz⟩) (fun x hx => hle hx) x
    rw [hkey]
    constructor
    · rintro ⟨z, hz⟩
      obtain ⟨t, ht⟩ := shv_surj (T := T) z
      exact ⟨t, by rw [ht]; exact hz⟩
    · rintro ⟨t, ht⟩
      exact ⟨fun k => rent (LabelVector.toVec t) k.1, ht⟩
  · right
    push Not at hf
    exact hpan hf

/-- exactly when the image is returned -/
theorem minimalImage_panics (hg : g.WF) (hp : Places tb g pos) (hs : LocallyStable g.edges pos)
    (hc : PeriodicConnected g.edges) (hsm : g.vertices.length ≤ 2147483647) {v0 : Nat} {rest : List Nat}
    (hv : g.vertices = v0 :: rest) (hv0 : IsVertex g.edges v0) (hz : pos v0 = 0)
    (hlad : ¬ ∃ γ, IsLadderTranslation g.edges pos γ)
    (hfull : ∃ γ, IsTranslation g.edges pos γ ∧ ¬ ∃ t : T, pos (γ v0) = shv t) :
    ∃ (o : List Nat) (os : List (List Nat)) (bs : List (List ℚ)),
      translationalOrbits tb g = .ok (o :: os) ∧ extendedTranslationBasis tb o = .ok bs ∧
      bs.length = LabelVector.dim T ∧ (∀ v ∈ bs, v.length = LabelVector.dim T) ∧
      ∃ B : Matrix (Fin (LabelVector.dim T)) (Fin (LabelVector.dim T)) ℚ,
        (∀ i, B i = rowVec (LabelVector.dim T) (bs.getD i.1 [])) ∧ IsUnit B ∧
        ((¬ ∀ i j, ∃ z : ℤ, (B⁻¹ * B.transpose) i j = z) → minimalImage tb g = .panic) ∧
        ((∀ i j, ∃ z : ℤ, (B⁻¹ * B.transpose) i j = z) →
          (∃ h : Graph T, minimalImage tb g = .ok (some h) ∧ IsFinerForm g.edges pos h.edges) ∨
          (minimalImage tb g = .panic ∧ ∃ e v w, IsDirected g.edges e ∧
            (∃ γ, IsTranslation g.edges pos γ ∧ γ v = e.head) ∧ (∃ γ, IsTranslation g.edges pos γ ∧ γ w = e.tail) ∧
            ∃ k, (B⁻¹.mulVec (edgeVec pos e + pos v - pos w) k < -2147483648 ∨
              2147483647 < B⁻¹.mulVec (edgeVec pos e + pos v - pos w) k))) := by
  have hlad1 : ∀ γ, IsTranslation g.edges pos γ → (∃ t : T, pos (γ v0) - pos v0 = shv t) → γ v0 = v0 := by
    intro γ hγ ht
    by_contra hne
    exact hlad ⟨γ, (ladder_at hs hc hv0 hγ).2 ⟨hne, ht⟩⟩
  rcases minimalImage_eq hg hp hs hc hsm hv hv0 hz (by
    intro γ hγ ht
    exact hlad1 γ hγ (by rwa [hz, sub_zero])) with ⟨-, h⟩ |
      ⟨h1, B, C, ix, rp, hBC, hCB, hO, hlat, hfit, hpan, o, os, bs, e1, e2, e3, e4, e5⟩
  · obtain ⟨γ, k1, k2⟩ := hfull
    exact absurd (h γ k1) k2
  have hC : B⁻¹ = C := Matrix.inv_eq_right_inv hBC
  refine ⟨o, os, bs, e1, e2, e3, e4, B, e5, ⟨⟨B, C, hBC, hCB⟩, rfl⟩, ?_, ?_⟩
  · intro hni
    apply hpan
    by_contra hcon
    have hf : ∀ e, IsDirected g.edges e → e = e.canonical → FitsI32 (C.mulVec (relVec pos rp e)) := by
      intro e he hce
      by_contra hh
      exact hcon ⟨e, he, hce, hh⟩
    obtain ⟨h, τ, k1, k2, k3, k4⟩ := hfit hf
    have hle := hO.lattice_le hc hv0
      { carrier := {x | ∃ z : Fin (LabelVector.dim T) → ℤ, C.mulVec x = fun k => (z k : ℚ)}
        add_mem' := by
          rintro x y ⟨z, hz⟩ ⟨w, hw⟩
          exact ⟨z + w, by rw [Matrix.mulVec_add, hz, hw]; funext k; simp⟩
        zero_mem' := ⟨0, by rw [Matrix.mulVec_zero]; funext k; simp⟩
        neg_mem' := by
          rintro x ⟨z, hz⟩
          exact ⟨-z, by rw [Matrix.mulVec_neg, hz]; funext k; simp⟩ } (by
        intro e he
        refine ⟨fun k => rent (LabelVector.toVec (τ e)) k.1, ?_⟩
        rw [← k3 e he]
        rfl)
    apply hni
    intro i j
    obtain ⟨t, ht⟩ := shv_surj (T := T) (Pi.single j 1)
    have hm : B.transpose.mulVec (shv t) ∈ trLat (tgroup_all g.edges pos) hc hv0 := (hlat _).2 ⟨t, rfl⟩
    obtain ⟨z, hz⟩ := hle hm
    refine ⟨z i, ?_⟩
    have hz' := congrFun hz i
    rw [Matrix.mulVec_mulVec, ht] at hz'
    have hs1 : (fun k => (((Pi.single j 1 : Fin (LabelVector.dim T) → ℤ) k : ℤ) : ℚ)) = Pi.single j 1 := by
      funext k
      by_cases hk : k = j
      · subst hk; simp
      · simp [Pi.single_apply, hk]
    rw [hs1, Matrix.mulVec_single_one] at hz'
    rw [hC]
    exact hz'
  · intro hint
    rw [hC] at hint ⊢
    by_cases hf : ∀ e, IsDirected g.edges e → e = e.canonical → FitsI32 (C.mulVec (relVec pos rp e))
    · left
      rcases minimalImage_ok hg hp hs hc hsm hv hv0 hz hlad with ⟨-, h⟩ | ⟨-, ⟨h, k1, -, k2⟩ | h⟩
      · obtain ⟨γ, k1, k2⟩ := hfull
        exact absurd (h γ k1) k2
      · exact ⟨h, k1, k2⟩
      · obtain ⟨h', τ, k1, -⟩ := hfit hf
        rw [h] at k1
        cases k1
    · right
      push Not at hf
      obtain ⟨e, he, hce, hx⟩ := hf
      refine ⟨hpan ⟨e, he, hce, hx⟩, e, rp e.head, rp e.tail, he, hO.rpt _ (head_vertex he),
        hO.rpt _ (tail_vertex he), ?_⟩
      by_contra hcon
      push Not at hcon
      apply hx
      obtain ⟨t, ht⟩ := (hlat _).1 (hO.rel_mem hc hv0 he)
      intro k
      choose Z hZ using hint
      have hk : C.mulVec (relVec pos rp e) k = ((∑ j, Z k j * rent (LabelVector.toVec t) j.1 : ℤ) : ℚ) := by
        rw [ht, Matrix.mulVec_mulVec]
        unfold Matrix.mulVec dotProduct
        push_cast
        refine Finset.sum_congr rfl fun j _ => ?_
        rw [hZ]
        rfl
      refine ⟨_, hk, ?_, ?_⟩
      · have := (hcon k).1
        change -2147483648 ≤ C.mulVec (relVec pos rp e) k at this
        rw [hk] at this
        exact_mod_cast this
      · have := (hcon k).2
        change C.mulVec (relVec pos rp e) k ≤ 2147483647 at this
        rw [hk] at this
        exact_mod_cast this

end Systre
