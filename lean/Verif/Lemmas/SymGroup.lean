import Verif.Lemmas.EdgeLists
import Verif.Lemmas.PartitionUse
import Verif.Lemmas.Determinant
import Verif.Lemmas.GeomExtra

/-! # The generators found by `symmetries` -/

set_option linter.unusedSectionVars false

namespace Systre

open Submodule Partitions

section
variable {T : Type} [LabelVector T] [LawfulLabelVector T]
variable {raw : List (Edge T)} {g : Graph T} {pos : Nat → Fin (LabelVector.dim T) → ℚ} {tb : Outcome PosTable}
  {A B : Matrix (Fin (LabelVector.dim T)) (Fin (LabelVector.dim T)) ℚ}
  {vm vm' : Nat → Nat} {em em' : Edge T → Edge T}

theorem quotient_of_periodic (h : PeriodicConnected raw) : QuotientConnected raw := by
  intro v w hv hw
  have := h v w hv hw 0 0
  have key : ∀ x y : Nat × T, Joined raw x y → QJoined raw x.1 y.1 := by
    intro x y hxy
    induction hxy with
    | refl => exact Relation.ReflTransGen.refl
    | tail _ h2 ih =>
      obtain ⟨e, he, h3, h4, -⟩ := h2
      exact ih.tail ⟨e, he, h3, h4⟩
  exact key _ _ this

/-- an automorphism without translation part -/
def GoodAut (raw : List (Edge T)) (pos : Nat → Fin (LabelVector.dim T) → ℚ) (a : Automorphism T) : Prop :=
  ∃ A vm em, Stands raw a vm em A 0 ∧ IsGraphAut raw pos vm em A

open Classical in
/-- the permutation of the directed edges of an automorphism -/
noncomputable def autPerm (raw : List (Edge T)) (a : Automorphism T) : Equiv.Perm {e : Edge T // IsDirected raw e} :=
  if h : ∃ σ : Equiv.Perm {e : Edge T // IsDirected raw e}, ∀ e, a.edgeMap.lookup e.1 = some (σ e).1 then h.choose else 1

theorem autPerm_eq {a : Automorphism T} {t : Fin (LabelVector.dim T) → ℚ} (h : Stands raw a vm em A t)
    (h' : IsGraphAut raw pos vm em A) : autPerm raw a = h'.perm := by
  have hx : ∃ σ : Equiv.Perm {e : Edge T // IsDirected raw e}, ∀ e, a.edgeMap.lookup e.1 = some (σ e).1 :=
    ⟨h'.perm, fun e => h.et.get e.2⟩
  unfold autPerm
  rw [dif_pos hx]
  ext e : 2
  have h1 := hx.choose_spec e
  have h2 := h.et.get e.2
  rw [h2] at h1
  exact (Option.some.inj h1).symm

theorem autPerm_apply {a : Automorphism T} {t : Fin (LabelVector.dim T) → ℚ} (h : Stands raw a vm em A t)
    (h' : IsGraphAut raw pos vm em A) (e : {e : Edge T // IsDirected raw e}) : (autPerm raw a e).1 = em e.1 := by
  rw [autPerm_eq h h']; rfl

theorem autPerm_lookup {a : Automorphism T} (h : GoodAut raw pos a) (e : {e : Edge T // IsDirected raw e}) :
    a.edgeMap.lookup e.1 = some (autPerm raw a e).1 := by
  obtain ⟨A, vm, em, h1, h2⟩ := h
  rw [autPerm_apply h1 h2]
  exact h1.et.get e.2

theorem goodAut_mul {a b : Automorphism T} (ha : GoodAut raw pos a) (hb : GoodAut raw pos b) :
    ∃ c, a.mul b = .ok c ∧ GoodAut raw pos c ∧ autPerm raw c = autPerm raw a * autPerm raw b := by
  obtain ⟨A, vm, em, h1, h2⟩ := ha
  obtain ⟨B, vm', em', h3, h4⟩ := hb
  obtain ⟨c, h5, h6⟩ := stands_mul h1 h3 (fun v hv => h4.vbij.mapsTo hv) (fun e he => h4.ebij.mapsTo he)
  rw [Matrix.mulVec_zero, zero_add] at h6
  refine ⟨c, h5, ⟨_, _, _, h6, h2.comp h4⟩, ?_⟩
  rw [autPerm_eq h6 (h2.comp h4), autPerm_eq h1 h2, autPerm_eq h3 h4]
  ext e : 2
  rfl

theorem em_determines (hs : span ℚ (edgeVecs raw pos) = ⊤) (h : IsGraphAut raw pos vm em A)
    (h' : IsGraphAut raw pos vm' em' B) (he : ∀ e, IsDirected raw e → em e = em' e) :
    (∀ v, IsVertex raw v → vm v = vm' v) ∧ A = B := by
  constructor
  · intro v hv
    obtain ⟨e, hd, rfl⟩ := (isVertex_iff _ _).1 hv
    rw [← h.head e hd, ← h'.head e hd, he e hd]
  · apply mat_ext_span hs
    intro e hd
    rw [← h.vec e hd, ← h'.vec e hd, he e hd]

theorem goodAut_eqv (hs : span ℚ (edgeVecs raw pos) = ⊤) {a b : Automorphism T} (ha : GoodAut raw pos a)
    (hb : GoodAut raw pos b) : a.eqv b = true ↔ autPerm raw a = autPerm raw b := by
  obtain ⟨A, vm, em, h1, h2⟩ := ha
  obtain ⟨B, vm', em', h3, h4⟩ := hb
  rw [eqv_iff h1 h3]
  constructor
  · rintro ⟨-, h, -⟩
    ext e : 2
    rw [autPerm_apply h1 h2, autPerm_apply h3 h4, h _ e.2]
  · intro h
    have he : ∀ e, IsDirected raw e → em e = em' e := by
      intro e he
      rw [← autPerm_apply h1 h2 ⟨e, he⟩, ← autPerm_apply h3 h4 ⟨e, he⟩, h]
    obtain ⟨h5, h6⟩ := em_determines hs h2 h4 he
    exact ⟨h5, he, h6, rfl⟩

/-! ### matrices -/

theorem rowsOf_isUnit {es : List (Edge T)} (h : GoodList g pos es) : IsUnit (rowsOf pos es h.len) := by
  rw [← Matrix.linearIndependent_rows_iff_isUnit]
  have h1 := (eindep_iff es).1 h.indep
  have := h1.comp (Fin.cast h.len.symm) (Fin.cast_injective _)
  exact this

theorem rem1_zero_iff (x : ℚ) : rem1 x = 0 ↔ ∃ z : ℤ, x = z := by
  have h0 : rem1 0 = 0 := by decide +kernel
  have := rem1_eq_iff x 0
  rw [h0] at this
  rw [this]
  constructor
  · rintro ⟨⟨z, hz⟩, -⟩; exact ⟨z, by rw [← hz, sub_zero]⟩
  · rintro ⟨z, hz⟩; exact ⟨⟨z, by rw [← hz, sub_zero]⟩, Or.inl ⟨z, hz⟩⟩

theorem rep_mem_data {m : Mat ℚ} {r c : Nat} {M : Matrix (Fin r) (Fin c) ℚ} (hm : Rep m M) (x : ℚ) :
    x ∈ m.data ↔ ∃ i j, M i j = x := by
  have h1 : m.data = gridData r c m.ent := by
    conv_lhs => rw [Mat.eq_ofFn hm.wf]
    unfold Mat.ofFn
    simp only [hm.rows, hm.cols]
  rw [h1]
  unfold gridData
  simp only [List.mem_flatMap, List.mem_range, List.mem_map]
  constructor
  · rintro ⟨i, hi, j, hj, h⟩
    exact ⟨⟨i, hi⟩, ⟨j, hj⟩, by rw [← hm.ent ⟨i, hi⟩ ⟨j, hj⟩]; exact h⟩
  · rintro ⟨i, j, h⟩
    exact ⟨i.1, i.2, j.1, j.2, by rw [hm.ent i j]; exact h⟩

theorem isUnimodular_ok {m : Mat ℚ} (hm : Rep m A) :
    ∃ b, isUnimodular m = .ok b ∧
      (b = true ↔ (∀ i j, ∃ z : ℤ, A i j = z) ∧ |A.det| = 1) := by
  have hall : (m.data.all (fun x => decide (rem1 x = 0))) = true ↔ ∀ i j, ∃ z : ℤ, A i j = z := by
    rw [List.all_eq_true]
    simp only [decide_eq_true_eq, rem1_zero_iff, rep_mem_data hm]
    constructor
    · intro h i j; exact h _ ⟨i, j, rfl⟩
    · rintro h _ ⟨i, j, rfl⟩; exact h i j
  unfold isUnimodular
  by_cases h : (m.data.all (fun x => decide (rem1 x = 0))) = true
  · rw [if_pos h, bind_ok (determinant_rep hm)]
    refine ⟨_, rfl, ?_⟩
    rw [decide_eq_true_eq]
    exact ⟨fun h' => ⟨hall.1 h, h'⟩, fun h' => h'.2⟩
  · rw [if_neg h]
    refine ⟨_, rfl, ?_⟩
    simp only [Bool.false_eq_true, false_iff]
    rintro ⟨h', -⟩
    exact h (hall.2 h')


theorem isUnit_of_unimodular (h : |A.det| = 1) : IsUnit A := by
  rw [Matrix.isUnit_iff_isUnit_det, isUnit_iff_ne_zero]
  intro h0
  rw [h0, abs_zero] at h
  exact zero_ne_one h

/-- the list `fs` is the image of `es` -/
def LMap (σ : Equiv.Perm {e : Edge T // IsDirected raw e}) (es fs : List (Edge T)) : Prop :=
  ∃ ds : List {e : Edge T // IsDirected raw e}, es = ds.map Subtype.val ∧ fs = ds.map (fun d => (σ d).1)

theorem LMap.one {es : List (Edge T)} (h : ∀ e ∈ es, IsDirected raw e) : LMap (raw := raw) 1 es es := by
  refine ⟨es.attach.map (fun e => ⟨e.1, h e.1 e.2⟩), ?_, ?_⟩ <;> simp [List.map_map, Function.comp_def]

theorem LMap.inv {σ : Equiv.Perm {e : Edge T // IsDirected raw e}} {es fs : List (Edge T)} (h : LMap σ es fs) :
    LMap σ⁻¹ fs es := by
  obtain ⟨ds, h1, h2⟩ := h
  refine ⟨ds.map σ, by rw [h2, List.map_map]; rfl, ?_⟩
  rw [h1, List.map_map]
  apply List.map_congr_left
  intro d _
  simp

theorem LMap.mul {σ τ : Equiv.Perm {e : Edge T // IsDirected raw e}} {es fs hs : List (Edge T)} (h : LMap σ es fs)
    (h' : LMap τ fs hs) : LMap (τ * σ) es hs := by
  obtain ⟨ds, h1, h2⟩ := h
  obtain ⟨cs, h3, h4⟩ := h'
  have : cs = ds.map σ := by
    apply List.map_injective_iff.2 Subtype.val_injective
    rw [← h3, h2, List.map_map]; rfl
  refine ⟨ds, h1, ?_⟩
  rw [h4, this, List.map_map]
  rfl

theorem genEq_lmap {gens : List (Automorphism T)} {U : List (List (Edge T) × List (Edge T))}
    (hU : ∀ q ∈ U, ∃ x ∈ gens, LMap (autPerm raw x) q.1 q.2) {es fs : List (Edge T)} (h : GenEq U es fs) :
    es = fs ∨ ∃ σ ∈ Subgroup.closure {y | ∃ x ∈ gens, y = autPerm raw x}, LMap σ es fs := by
  induction h with
  | rel x y hxy =>
    obtain ⟨a, ha, h1⟩ := hU _ hxy
    exact Or.inr ⟨_, Subgroup.subset_closure ⟨a, ha, rfl⟩, h1⟩
  | refl x => exact Or.inl rfl
  | symm x y _ ih =>
    rcases ih with h | ⟨σ, h1, h2⟩
    · exact Or.inl h.symm
    · exact Or.inr ⟨_, inv_mem h1, h2.inv⟩
  | trans x y z _ _ ih1 ih2 =>
    rcases ih1 with h | ⟨σ, h1, h2⟩
    · rw [h]; exact ih2
    · rcases ih2 with h | ⟨τ, h3, h4⟩
      · rw [← h]; exact Or.inr ⟨σ, h1, h2⟩
      · exact Or.inr ⟨_, mul_mem h3 h1, h2.mul h4⟩

theorem uniteMapped_ok {iso : Automorphism T} (hiso : GoodAut g.edges pos iso) : ∀ (lists : List (List (Edge T)))
    (p : PState (List (Edge T))) (U : List (List (Edge T) × List (Edge T))),
    (∀ es ∈ lists, ∀ e ∈ es, IsDirected g.edges e) → PRel p U →
    ∃ p' V, uniteMapped iso lists p = .ok p' ∧ PRel p' (U ++ V) ∧
      ∀ q ∈ V, LMap (autPerm g.edges iso) q.1 q.2 := by
  intro lists
  induction lists with
  | nil => intro p U _ h; exact ⟨p, [], rfl, by simpa using h, by simp⟩
  | cons es lists ih =>
    intro p U hd hp
    have hes := hd es (by simp)
    let ds : List {e : Edge T // IsDirected g.edges e} := es.attach.map (fun e => ⟨e.1, hes e.1 e.2⟩)
    have hds : es = ds.map Subtype.val := by simp [ds, List.map_map, Function.comp_def]
    have h1 : omap (fun e => unwrap (iso.edgeMap.lookup e)) es = .ok (ds.map (fun d => (autPerm g.edges iso d).1)) := by
      conv_lhs => rw [hds]
      rw [omap_map']
      apply omap_ok
      intro d _
      rw [autPerm_lookup hiso d]; rfl
    obtain ⟨p1, h2, h3⟩ := hp.unite es (ds.map (fun d => (autPerm g.edges iso d).1))
    obtain ⟨p2, V, h4, h5, h6⟩ := ih p1 _ (fun es' h => hd es' (by simp [h])) h3
    refine ⟨p2, (es, ds.map (fun d => (autPerm g.edges iso d).1)) :: V, ?_, by simpa using h5, ?_⟩
    · unfold uniteMapped
      rw [bind_ok h1, bind_ok h2, h4]
    · intro q hq
      rcases List.mem_cons.1 hq with rfl | hq
      · exact ⟨ds, hds, rfl⟩
      · exact h6 q hq

theorem head_ok {es : List (Edge T)} (h : GoodList g pos es) : ∃ e, vecGet es 0 = .ok e ∧ e ∈ es ∧ es.head? = some e := by
  have hpos := LawfulLabelVector.dim_pos (T := T)
  cases es with
  | nil => have := h.len; simp at this; omega
  | cons e es => exact ⟨e, rfl, by simp, rfl⟩

theorem symLoop_ok (hg : g.WF) (hp : Places tb g pos) (hs : LocallyStable g.edges pos)
    (hc : PeriodicConnected g.edges) {all : List (List (Edge T))} (hall : ∀ es ∈ all, GoodList g pos es)
    {list0 : List (Edge T)} (h0 : GoodList g pos list0) {seed0 : Nat} (hseed : IsVertex g.edges seed0)
    {invB : Mat ℚ} {Binv : Matrix (Fin (LabelVector.dim T)) (Fin (LabelVector.dim T)) ℚ} (hinv : Rep invB Binv) :
    ∀ (lists : List (List (Edge T))) (p : PState (List (Edge T))) (gens : List (Automorphism T))
      (U : List (List (Edge T) × List (Edge T))), (∀ es ∈ lists, GoodList g pos es) →
      (∀ x ∈ gens, GoodAut g.edges pos x) → PRel p U →
      (∀ q ∈ U, ∃ x ∈ gens, LMap (autPerm g.edges x) q.1 q.2) →
      ∃ gens', symLoop tb g all list0 seed0 invB lists p gens = .ok gens' ∧ (∀ x ∈ gens', GoodAut g.edges pos x) ∧
        (∀ x ∈ gens, x ∈ gens') ∧
        ∀ es, ∀ he : es ∈ lists, ∀ (hl : es.length = LabelVector.dim T),
          (∃ σ ∈ Subgroup.closure {y | ∃ x ∈ gens', y = autPerm g.edges x}, LMap σ list0 es) ∨
          (∀ vm em, IsGraphAut g.edges pos vm em (rowsOf pos es hl * Binv) → (∀ e ∈ es.head?, vm seed0 = e.head) →
            ∃ x ∈ gens', ∀ e, (autPerm g.edges x e).1 = em e.1) := by
  have hq := quotient_of_periodic hc
  intro lists
  induction lists with
  | nil => intro p gens U _ hgens _ _; exact ⟨gens, rfl, hgens, fun x h => h, by simp⟩
  | cons es lists ih =>
    intro p gens U hl hgens hrel hU
    have hes := hl es (by simp)
    obtain ⟨r1, r2, p1, p2, f1, f2, f3, f4⟩ := hrel.find2 es list0
    unfold symLoop
    rw [bind_ok f1]
    simp only
    rw [bind_ok f2]
    simp only
    have hmono : ∀ {gens' gens'' : List (Automorphism T)}, (∀ x ∈ gens', x ∈ gens'') →
        Subgroup.closure {y | ∃ x ∈ gens', y = autPerm g.edges x} ≤
        Subgroup.closure {y | ∃ x ∈ gens'', y = autPerm g.edges x} := by
      intro gens' gens'' h
      apply Subgroup.closure_mono
      rintro y ⟨x, hx, rfl⟩
      exact ⟨x, h x hx, rfl⟩
    by_cases hr : r1 ≠ r2
    · rw [if_pos hr]
      obtain ⟨base, b1, b2⟩ := matrixFromEdgeList_ok hp hes.dir hes.len
      obtain ⟨m, m1, m2⟩ := rep_mul b2 hinv
      obtain ⟨u, u1, u2⟩ := isUnimodular_ok m2
      rw [bind_ok b1, bind_ok m1, bind_ok u1]
      have hskip : ∀ {gens'' : List (Automorphism T)}, (∀ vm em, ¬ (IsGraphAut g.edges pos vm em (rowsOf pos es hes.len * Binv) ∧
          (∀ e ∈ es.head?, vm seed0 = e.head))) → (∃ gens', symLoop tb g all list0 seed0 invB lists p2 gens = .ok gens' ∧
          (∀ x ∈ gens', GoodAut g.edges pos x) ∧ (∀ x ∈ gens, x ∈ gens') ∧
          ∀ es', ∀ he : es' ∈ es :: lists, ∀ (hl : es'.length = LabelVector.dim T),
          (∃ σ ∈ Subgroup.closure {y | ∃ x ∈ gens', y = autPerm g.edges x}, LMap σ list0 es') ∨
          (∀ vm em, IsGraphAut g.edges pos vm em (rowsOf pos es' hl * Binv) → (∀ e ∈ es'.head?, vm seed0 = e.head) →
            ∃ x ∈ gens', ∀ e, (autPerm g.edges x e).1 = em e.1)) := by
        intro _ hno
        obtain ⟨gens', e1, e2, e3, e4⟩ := ih p2 gens U (fun x h => hl x (by simp [h])) hgens f3 hU
        refine ⟨gens', e1, e2, e3, ?_⟩
        intro es' he' hl'
        rcases List.mem_cons.1 he' with rfl | he'
        · exact Or.inr (fun vm em h1 h2 => absurd ⟨h1, h2⟩ (hno vm em))
        · exact e4 es' he' hl'
      cases u with
      | false =>
        simp only [Bool.false_eq_true, if_false]
        apply hskip (gens'' := gens)
        rintro vm em ⟨h1, -⟩
        obtain ⟨M, h2, h3⟩ := h1.unimodular hc hseed
        have : (false = true) := u2.2 ⟨fun i j => ⟨M i j, by rw [h2]; rfl⟩, by
          rw [h2]
          have hd : (M.map (fun x : ℤ => (x : ℚ))).det = ((M.det : ℤ) : ℚ) := ((Int.castRingHom ℚ).map_det M).symm
          rw [hd]
          exact_mod_cast h3⟩
        exact Bool.false_ne_true this
      | true =>
        simp only [if_true]
        obtain ⟨z, z1, z2⟩ := vec_zero (T := ℚ) (LabelVector.dim T)
        obtain ⟨a1, a2⟩ := aff_new m2 z2
        obtain ⟨e0, e1, e2, e3⟩ := head_ok hes
        obtain ⟨r, i1, i2, i3⟩ := automorphism_ok hg hp hs hq a2 seed0 e0.head hseed
        rw [bind_ok z1, bind_ok a1, bind_ok e1, bind_ok i1]
        have hU1 := isUnit_of_unimodular (u2.1 rfl).2
        cases r with
        | none =>
          simp only
          apply hskip (gens'' := gens)
          rintro vm em ⟨h1, h2⟩
          exact i3 rfl vm em h1.starMap (h2 e0 (by rw [e3]; rfl))
        | some iso =>
          simp only
          obtain ⟨-, vm, em, st, sm, hv⟩ := i2 iso rfl
          have hga := sm.isGraphAut hs hq hU1 sm.verts
          have hiso : GoodAut g.edges pos iso := ⟨_, vm, em, st, hga⟩
          obtain ⟨p3, V, v1, v2, v3⟩ := uniteMapped_ok hiso all p2 U (fun es h => (hall es h).dir) f3
          rw [bind_ok v1]
          obtain ⟨gens', j1, j2, j3, j4⟩ := ih p3 (gens ++ [iso]) (U ++ V) (fun x h => hl x (by simp [h]))
            (by
              intro x hx
              rcases List.mem_append.1 hx with h | h
              · exact hgens x h
              · rw [List.mem_singleton.1 h]; exact hiso) v2
            (by
              intro q hq
              rcases List.mem_append.1 hq with h | h
              · obtain ⟨x, hx, h'⟩ := hU q h
                exact ⟨x, by simp [hx], h'⟩
              · exact ⟨iso, by simp, v3 q h⟩)
          refine ⟨gens', j1, j2, fun x hx => j3 x (by simp [hx]), ?_⟩
          intro es' he' hl'
          rcases List.mem_cons.1 he' with rfl | he'
          · right
            intro vm' em' h1 h2
            refine ⟨iso, j3 iso (by simp), fun e => ?_⟩
            rw [autPerm_apply st hga]
            have := (StarMap.unique hs hq sm h1.starMap hseed (by rw [hv, h2 e0 (by rw [e3]; rfl)])).2 e.1 e.2
            exact this
          · exact j4 es' he' hl'
    · rw [if_neg hr]
      push Not at hr
      obtain ⟨gens', e1, e2, e3, e4⟩ := ih p2 gens U (fun x h => hl x (by simp [h])) hgens f3 hU
      refine ⟨gens', e1, e2, e3, ?_⟩
      intro es' he' hl'
      rcases List.mem_cons.1 he' with rfl | he'
      · left
        rcases genEq_lmap hU (f4.1 hr) with h | ⟨σ, h1, h2⟩
        · exact ⟨1, one_mem _, by rw [h]; exact LMap.one h0.dir⟩
        · exact ⟨σ⁻¹, hmono e3 (inv_mem h1), h2.inv⟩
      · exact e4 es' he' hl'

end
end Systre
