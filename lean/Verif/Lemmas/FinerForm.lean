import Verif.Lemmas.Translations4

/-!
# The quotient of a periodic graph by its translations
-/

namespace Systre

open Submodule Partitions

variable {T : Type} [LabelVector T] [LawfulLabelVector T]
variable {raw : List (Edge T)} {pos : Nat → Fin (LabelVector.dim T) → ℚ}

/-- `ix` numbers the orbits of translations, `rp` selects a vertex of each of them -/
structure OrbitData (raw : List (Edge T)) (pos : Nat → Fin (LabelVector.dim T) → ℚ) (ix rp : Nat → Nat) : Prop where
  rpv : ∀ v, IsVertex raw v → IsVertex raw (rp v)
  rpt : ∀ v, IsVertex raw v → ∃ γ, IsTranslation raw pos γ ∧ γ (rp v) = v
  iff : ∀ v w, IsVertex raw v → IsVertex raw w → (ix v = ix w ↔ ∃ γ, IsTranslation raw pos γ ∧ γ v = w)
  same : ∀ v w, IsVertex raw v → IsVertex raw w → ix v = ix w → rp v = rp w

/-- the vector of an edge between the representatives -/
def relVec (pos : Nat → Fin (LabelVector.dim T) → ℚ) (rp : Nat → Nat) (e : Edge T) : Fin (LabelVector.dim T) → ℚ :=
  edgeVec pos e + pos (rp e.head) - pos (rp e.tail)

theorem relVec_neg (rp : Nat → Nat) (e : Edge T) : relVec pos rp e.neg = - relVec pos rp e := by
  unfold relVec
  have e1 : edgeVec pos e.neg = - edgeVec pos e := funext (edgeVec_neg pos e)
  rw [e1]
  show -edgeVec pos e + pos (rp e.tail) - pos (rp e.head) = _
  abel

variable {ix rp : Nat → Nat} {v0 : Nat}

theorem trans_mem_trLat (hc : PeriodicConnected raw) (hv0 : IsVertex raw v0) {γ : Nat → Nat}
    (hγ : IsTranslation raw pos γ) {v : Nat} (hv : IsVertex raw v) (t : T) :
    pos (γ v) - pos v + shv t ∈ trLat (tgroup_all raw pos) hc hv0 := by
  obtain ⟨u, hu⟩ := hγ.vector hc hv hv0
  refine (mem_trLat _ _ _ _).2 ⟨γ, hγ, u + t, ?_⟩
  rw [hu, shv_add]
  abel

theorem mem_trLat_at (hc : PeriodicConnected raw) (hv0 : IsVertex raw v0) {v : Nat} (hv : IsVertex raw v)
    {x : Fin (LabelVector.dim T) → ℚ} (hx : x ∈ trLat (tgroup_all raw pos) hc hv0) :
    ∃ γ, IsTranslation raw pos γ ∧ ∃ t : T, x = pos (γ v) - pos v + shv t := by
  obtain ⟨γ, hγ, t, rfl⟩ := (mem_trLat _ _ _ _).1 hx
  obtain ⟨u, hu⟩ := hγ.vector hc hv0 hv
  refine ⟨γ, hγ, u + t, ?_⟩
  rw [hu, shv_add]
  abel

theorem head_vertex {e : Edge T} (he : IsDirected raw e) : IsVertex raw e.head := (isVertex_iff _ _).2 ⟨e, he, rfl⟩
theorem tail_vertex {e : Edge T} (he : IsDirected raw e) : IsVertex raw e.tail :=
  (isVertex_iff _ _).2 ⟨e.neg, isDirected_neg.2 he, rfl⟩

theorem OrbitData.rel_mem (h : OrbitData raw pos ix rp) (hc : PeriodicConnected raw) (hv0 : IsVertex raw v0)
    {e : Edge T} (he : IsDirected raw e) : relVec pos rp e ∈ trLat (tgroup_all raw pos) hc hv0 := by
  obtain ⟨γ, h1, h2⟩ := h.rpt _ (head_vertex he)
  obtain ⟨δ, h3, h4⟩ := h.rpt _ (tail_vertex he)
  have k1 := trans_mem_trLat hc hv0 h1 (h.rpv _ (head_vertex he)) 0
  have k2 := trans_mem_trLat hc hv0 h3 (h.rpv _ (tail_vertex he)) e.shift
  rw [h2] at k1
  rw [h4] at k2
  have : relVec pos rp e = (pos e.tail - pos (rp e.tail) + shv e.shift) - (pos e.head - pos (rp e.head) + shv (0 : T)) := by
    unfold relVec
    rw [edgeVec_eq, shv_zero]
    abel
  rw [this]
  exact sub_mem k2 k1

/-- the lattice is generated by the vectors of the edges -/
theorem OrbitData.lattice_le (h : OrbitData raw pos ix rp) (hc : PeriodicConnected raw) (hv0 : IsVertex raw v0)
    (L : AddSubgroup (Fin (LabelVector.dim T) → ℚ)) (hL : ∀ e, IsDirected raw e → relVec pos rp e ∈ L) :
    trLat (tgroup_all raw pos) hc hv0 ≤ L := by
  have key : ∀ x y : Nat × T, Joined raw x y →
      (place pos y - pos (rp y.1)) - (place pos x - pos (rp x.1)) ∈ L := by
    intro x y hj
    induction hj with
    | refl => rw [sub_self]; exact zero_mem _
    | @tail y z _ h2 ih =>
      obtain ⟨e, he, h5, h6, h7, h8⟩ := adj_place (pos := pos) h2
      have : (place pos z - pos (rp z.1)) - (place pos x - pos (rp x.1)) =
          ((place pos y - pos (rp y.1)) - (place pos x - pos (rp x.1))) + relVec pos rp e := by
        unfold relVec
        rw [h5, h6, ← h8]
        abel
      rw [this]
      exact add_mem ih (hL e he)
  rintro x ⟨γ, hγ, t, rfl⟩
  have k := key (v0, 0) (γ v0, t) (hc _ _ hv0 (hγ.vertex hv0) _ _)
  have hrp : rp (γ v0) = rp v0 := by
    apply h.same _ _ (hγ.vertex hv0) hv0
    exact ((h.iff _ _ hv0 (hγ.vertex hv0)).2 ⟨γ, hγ, rfl⟩).symm
  unfold place at k
  simp only [hrp, shv_zero, add_zero] at k
  have : pos (γ v0) - pos v0 + shv t = pos (γ v0) + shv t - pos (rp v0) - (pos v0 - pos (rp v0)) := by abel
  rw [this]
  exact k

theorem OrbitData.finer (h : OrbitData raw pos ix rp) (hs : LocallyStable raw pos) (hc : PeriodicConnected raw)
    (hv0 : IsVertex raw v0) (hlad : ∀ γ, IsTranslation raw pos γ → (∃ t : T, pos (γ v0) - pos v0 = shv t) → γ v0 = v0)
    {C : Matrix (Fin (LabelVector.dim T)) (Fin (LabelVector.dim T)) ℚ} (hC : IsUnit C)
    (hL : ∀ x, x ∈ trLat (tgroup_all raw pos) hc hv0 ↔ ∃ t : T, shv t = C.mulVec x)
    {τ : Edge T → T} (hτ : ∀ e, IsDirected raw e → shv (τ e) = C.mulVec (relVec pos rp e))
    {raw' : List (Edge T)} (hraw : ∀ f, IsDirected raw' f ↔ ∃ e, IsDirected raw e ∧ f = ⟨ix e.head + 1, ix e.tail + 1, τ e⟩) :
    IsFinerForm raw pos raw' := by
  have hqc := quotient_of_periodic hc
  have hinj : Function.Injective C.mulVec := Matrix.mulVec_injective_of_isUnit hC
  have hex : ∀ x : Nat × T, IsVertex raw x.1 → ∃ σ : T, shv σ = C.mulVec (place pos x - pos (rp x.1)) := by
    intro x hx
    rw [← hL]
    obtain ⟨γ, h1, h2⟩ := h.rpt _ hx
    have k := trans_mem_trLat hc hv0 h1 (h.rpv _ hx) x.2
    rw [h2] at k
    have : place pos x - pos (rp x.1) = pos x.1 - pos (rp x.1) + shv x.2 := by unfold place; abel
    rw [this]
    exact k
  choose! F hF using hex
  have hvert' : ∀ w, IsVertex raw' w ↔ ∃ v, IsVertex raw v ∧ w = ix v + 1 := by
    intro w
    rw [isVertex_iff]
    constructor
    · rintro ⟨f, hf, rfl⟩
      obtain ⟨e, he, rfl⟩ := (hraw f).1 hf
      exact ⟨e.head, head_vertex he, rfl⟩
    · rintro ⟨v, hv, rfl⟩
      obtain ⟨e, he, rfl⟩ := (isVertex_iff _ _).1 hv
      exact ⟨_, (hraw _).2 ⟨e, he, rfl⟩, rfl⟩
  have hFinj : ∀ x y : Nat × T, IsVertex raw x.1 → IsVertex raw y.1 → ix x.1 = ix y.1 → F x = F y → x = y := by
    intro x y hx hy h1 h2
    have h3 := hF x hx
    rw [h2, hF y hy, h.same _ _ hx hy h1] at h3
    have h4 := hinj h3
    have h5 : place pos y = place pos x := sub_left_injective h4
    obtain ⟨γ, hγ, h6⟩ := (h.iff _ _ hx hy).1 h1
    unfold place at h5
    obtain ⟨u, hu⟩ := hγ.vector hc hv0 hx
    have hγ0 : γ v0 = v0 := by
      apply hlad γ hγ
      refine ⟨x.2 - y.2 + u, ?_⟩
      rw [hu, h6, shv_add, shv_sub]
      have : pos y.1 = pos x.1 + shv x.2 - shv y.2 := by rw [← h5]; abel
      rw [this]
      abel
    have h7 : x.1 = y.1 := by
      rw [← h6]
      exact ((IsTranslation.id raw pos).unique hs hqc hγ hv0 hγ0.symm x.1 hx)
    rw [h7] at h5
    exact Prod.ext h7 (shv_inj (add_left_cancel h5)).symm
  -- images of neighbours
  have hstep : ∀ x y : Nat × T, ∀ e, IsDirected raw e → e.head = x.1 → e.tail = y.1 → x.2 + e.shift = y.2 →
      F x + τ e = F y := by
    intro x y e he h1 h2 h3
    apply shv_inj
    rw [shv_add, hF x (h1 ▸ head_vertex he), hF y (h2 ▸ tail_vertex he), hτ e he, ← Matrix.mulVec_add]
    congr 1
    unfold relVec place
    rw [edgeVec_eq, ← h3, shv_add, h1, h2]
    abel
  refine ⟨fun x => (ix x.1 + 1, F x), ⟨?_, ?_, ?_⟩, ?_, ?_, C, hC, ?_⟩
  · intro x hx
    exact (hvert' _).2 ⟨x.1, hx, rfl⟩
  · intro x hx y hy hxy
    simp only [Prod.mk.injEq, add_left_inj] at hxy
    exact hFinj x y hx hy hxy.1 hxy.2
  · rintro ⟨w, σ⟩ hw
    obtain ⟨v, hv, hwv⟩ := (hvert' _).1 hw
    simp only at hwv
    subst hwv
    obtain ⟨D, hD⟩ := hC.exists_right_inv
    have hx : D.mulVec (shv σ) ∈ trLat (tgroup_all raw pos) hc hv0 := by
      rw [hL]
      exact ⟨σ, by rw [Matrix.mulVec_mulVec, hD, Matrix.one_mulVec]⟩
    obtain ⟨γ, hγ, t, ht⟩ := mem_trLat_at hc hv0 (h.rpv v hv) hx
    have hgv := hγ.vertex (h.rpv v hv)
    obtain ⟨δ, hδ1, hδ2⟩ := h.rpt v hv
    have hixrp : ix (rp v) = ix v := (h.iff _ _ (h.rpv v hv) hv).2 ⟨δ, hδ1, hδ2⟩
    have hix : ix (γ (rp v)) = ix v := by
      rw [← hixrp]
      exact ((h.iff _ _ (h.rpv v hv) hgv).2 ⟨γ, hγ, rfl⟩).symm
    refine ⟨(γ (rp v), t), hgv, ?_⟩
    refine Prod.ext (by show ix (γ (rp v)) + 1 = _; rw [hix]) ?_
    apply shv_inj
    show shv (F (γ (rp v), t)) = shv σ
    rw [hF _ hgv]
    simp only
    rw [h.same _ _ hgv hv hix]
    have : place pos (γ (rp v), t) - pos (rp v) = D.mulVec (shv σ) := by
      rw [ht]; unfold place; abel
    rw [this, Matrix.mulVec_mulVec, hD, Matrix.one_mulVec]
  · intro x y hx hy
    constructor
    · rintro ⟨f, hf, h1, h2, h3⟩
      obtain ⟨e, he, rfl⟩ := (hraw f).1 hf
      simp only [add_left_inj] at h1 h2 h3
      obtain ⟨γ, hγ, h4⟩ := (h.iff _ _ (head_vertex he) hx).1 h1
      obtain ⟨em, hem⟩ := hγ
      have hγ : IsTranslation raw pos γ := ⟨em, hem⟩
      have he' := hem.ebij.mapsTo he
      have hh : (em e).head = x.1 := by rw [hem.head e he, h4]
      have ht := hem.tail e he
      have hty := hγ.vertex (tail_vertex he)
      have hixt : ix (γ e.tail) = ix y.1 := by
        rw [← h2]
        exact ((h.iff _ _ (tail_vertex he) hty).2 ⟨γ, hγ, rfl⟩).symm
      have hτe : τ (em e) = τ e := by
        apply shv_inj
        rw [hτ _ he', hτ _ he]
        congr 1
        unfold relVec
        rw [hem.vec e he, Matrix.one_mulVec, hh, ht, h.same _ _ hx (head_vertex he) h1.symm,
          h.same _ _ hty (tail_vertex he) (hixt.trans h2.symm)]
      have h5 := hstep x (γ e.tail, x.2 + (em e).shift) (em e) he' hh ht rfl
      rw [hτe, h3] at h5
      have h6 := hFinj y (γ e.tail, x.2 + (em e).shift) hy hty hixt.symm h5
      rw [h6]
      exact ⟨em e, he', hh, ht, rfl⟩
    · rintro ⟨e, he, h1, h2, h3⟩
      refine ⟨_, (hraw _).2 ⟨e, he, rfl⟩, ?_, ?_, hstep x y e he h1 h2 h3⟩
      · show ix e.head + 1 = ix x.1 + 1
        rw [h1]
      · show ix e.tail + 1 = ix y.1 + 1
        rw [h2]
  · intro x y hx hy
    simp only [add_left_inj]
    exact h.iff _ _ hx hy
  · intro x y hx hy hxy
    simp only [add_left_inj] at hxy
    simp only
    rw [hF y hy, hF x hx, ← Matrix.mulVec_sub, h.same _ _ hx hy hxy]
    congr 1
    abel

end Systre
