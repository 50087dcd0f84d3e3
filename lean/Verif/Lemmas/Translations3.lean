import Verif.Lemmas.Translations2

/-!
# `extended_translation_basis`, `translational_equivalences`, `is_minimal`
-/

namespace Systre

open Submodule Partitions

variable {T : Type} [LabelVector T] [LawfulLabelVector T]
variable {g : Graph T} {tb : Outcome PosTable} {pos : Nat → Fin (LabelVector.dim T) → ℚ}

theorem integerVectors_iff (x : Fin (LabelVector.dim T) → ℚ) :
    x ∈ integerVectors (LabelVector.dim T) ↔ ∃ t : T, x = shv t := by
  constructor
  · rintro ⟨z, hz⟩
    obtain ⟨t, ht⟩ := shv_surj (T := T) z
    exact ⟨t, by rw [ht]; funext k; exact hz k⟩
  · rintro ⟨t, rfl⟩
    exact ⟨fun k => rent (LabelVector.toVec t) k.1, fun k => rfl⟩

theorem rem1_vec (x : Fin (LabelVector.dim T) → ℚ) : ∃ t : T, (fun k => rem1 (x k)) = x - shv t := by
  choose z hz using fun k => rem1_int (x k)
  obtain ⟨t, ht⟩ := shv_surj (T := T) z
  exact ⟨t, by rw [ht]; funext k; exact hz k⟩

theorem extendedBasis_ok (hp : Places tb g pos) (hc : PeriodicConnected g.edges)
    (hsm : g.vertices.length ≤ 2147483647) {o0 : Nat} {o : List Nat} (ho0 : IsVertex g.edges o0) (hne : o ≠ [])
    (h1 : ∀ v ∈ o, ∃ γ, IsTranslation g.edges pos γ ∧ γ o0 = v)
    (h2 : ∀ γ, IsTranslation g.edges pos γ → ∃ v ∈ o0 :: o, ∃ t : T, pos (γ o0) = pos v + shv t) :
    ∃ bs, extendedTranslationBasis tb (o0 :: o) = .ok bs ∧ bs.length = LabelVector.dim T ∧
      (∀ b ∈ bs, b.length = LabelVector.dim T) ∧ Indep (LabelVector.dim T) bs ∧
      ∀ x, x ∈ latticeOf (LabelVector.dim T) bs ↔ x ∈ trLat (tgroup_all g.edges pos) hc ho0 := by
  have hvert : ∀ v ∈ o, IsVertex g.edges v := by
    intro v hv
    obtain ⟨γ, h3, rfl⟩ := h1 v hv
    exact h3.vertex ho0
  have hpos : ∀ v, IsVertex g.edges v → positionIn tb v = .ok (List.ofFn (pos v)) :=
    fun v hv => hp v ((g.mem_vertices v).2 hv)
  set ds := o.map (fun v => List.ofFn (fun k => rem1 (pos v k - pos o0 k))) with hds
  have hdelta : omap (fun v => do
      let p ← positionIn tb v
      .ok ((List.zipWith (· - ·) p (List.ofFn (pos o0))).map rem1)) o = .ok ds := by
    apply omap_ok
    intro v hv
    rw [bind_ok (hpos v (hvert v hv)), rem1_list]
  have hlpos : 0 < g.vertices.length := List.length_pos_of_mem ((g.mem_vertices o0).2 ho0)
  obtain ⟨bs, e1, e2, e3, e4, e5⟩ := Lattices.rational_ok (n := LabelVector.dim T) (vs := ds)
    (by simpa [hds] using hne) (by
      intro v hv
      rw [hds, List.mem_map] at hv
      obtain ⟨w, -, rfl⟩ := hv
      simp) hlpos hsm (by
      intro v hv x hx
      rw [hds, List.mem_map] at hv
      obtain ⟨w, hw, rfl⟩ := hv
      obtain ⟨k, rfl⟩ := (List.mem_ofFn' _ _).1 hx
      obtain ⟨γ, h3, rfl⟩ := h1 w hw
      obtain ⟨z, hz⟩ := h3.denom hc ho0 k
      obtain ⟨y, hy⟩ := rem1_int (pos (γ o0) k - pos o0 k)
      constructor
      · refine ⟨z - y * g.vertices.length, ?_⟩
        show rem1 (pos (γ o0) k - pos o0 k) * _ = _
        rw [hy]
        push_cast
        rw [← hz]
        ring
      · have h4 := rem1_abs (pos (γ o0) k - pos o0 k)
        show |rem1 (pos (γ o0) k - pos o0 k) * _| ≤ _
        rw [abs_mul, Nat.abs_cast]
        have h5 : (g.vertices.length : ℚ) ≤ 2147483647 := by exact_mod_cast hsm
        have h6 : (0 : ℚ) ≤ (g.vertices.length : ℚ) := Nat.cast_nonneg _
        nlinarith [abs_nonneg (rem1 (pos (γ o0) k - pos o0 k))])
  refine ⟨bs, ?_, e2, e3, e4, ?_⟩
  · unfold extendedTranslationBasis
    rw [show vecGet (o0 :: o) 0 = .ok o0 from rfl, Outcome.ok_bind, bind_ok (hpos o0 ho0), List.drop_one, List.tail_cons,
      bind_ok hdelta]
    exact e1
  · intro x
    rw [e5]
    have hrow : ∀ v, rowVec (LabelVector.dim T) (List.ofFn (fun k => rem1 (pos v k - pos o0 k))) =
        fun k => rem1 (pos v k - pos o0 k) := fun v => rowVec_ofFn _
    constructor
    · intro hx
      induction hx using span_induction with
      | mem x hx =>
        rcases hx with hx | ⟨v, hv, rfl⟩
        · obtain ⟨t, rfl⟩ := (integerVectors_iff x).1 hx
          exact shv_mem_trLat _ _ _ _
        · obtain ⟨w, hw, rfl⟩ := List.mem_map.1 (show v ∈ ds from hv)
          obtain ⟨γ, h3, rfl⟩ := h1 w hw
          rw [hrow]
          obtain ⟨t, ht⟩ := rem1_vec (T := T) (fun k => pos (γ o0) k - pos o0 k)
          rw [ht]
          refine (mem_trLat _ _ _ _).2 ⟨γ, h3, -t, ?_⟩
          rw [shv_neg, sub_eq_add_neg]
          rfl
      | zero => exact zero_mem _
      | add x y _ _ hx hy => exact add_mem hx hy
      | smul a x _ hx => exact zsmul_mem hx a
    · intro hx
      obtain ⟨γ, h3, t, rfl⟩ := (mem_trLat _ _ _ _).1 hx
      have hint : ∀ t : T, shv t ∈ span ℤ (integerVectors (LabelVector.dim T) ∪
          rowVec (LabelVector.dim T) '' {v | v ∈ ds}) := fun t =>
        subset_span (Or.inl ((integerVectors_iff _).2 ⟨t, rfl⟩))
      obtain ⟨v, hv, s, hs⟩ := h2 γ h3
      rcases List.mem_cons.1 hv with rfl | hv
      · have : pos (γ v) - pos v + shv t = shv s + shv t := by rw [hs]; abel
        rw [this]
        exact add_mem (hint s) (hint t)
      · obtain ⟨u, hu⟩ := rem1_vec (T := T) (fun k => pos v k - pos o0 k)
        have : pos (γ o0) - pos o0 + shv t = (fun k => rem1 (pos v k - pos o0 k)) + (shv u + shv s + shv t) := by
          rw [hu, hs]
          have : (fun k => pos v k - pos o0 k) = pos v - pos o0 := rfl
          rw [this]
          abel
        rw [this]
        refine add_mem (subset_span (Or.inr ⟨_, ?_, hrow v⟩)) (add_mem (add_mem (hint u) (hint s)) (hint t))
        exact List.mem_map.2 ⟨v, hv, rfl⟩

/-! ### the branch for ladders -/

theorem mod1_ofFn (x : Fin (LabelVector.dim T) → ℚ) : mod1 (List.ofFn x) = List.ofFn (fun k => rem1 (x k)) := by
  unfold mod1
  rw [List.map_ofFn]
  rfl

theorem mod1_eq_zero_iff {x y : Fin (LabelVector.dim T) → ℚ} (hy : y = 0) :
    mod1 (List.ofFn x) = mod1 (List.ofFn y) ↔ ∃ t : T, x = shv t := by
  subst hy
  rw [mod1_ofFn, mod1_ofFn, List.ofFn_inj, ← integerVectors_iff]
  have h0 : rem1 0 = 0 := by decide +kernel
  constructor
  · intro h
    choose z hz using fun k => (rem1_zero_iff (x k)).1 (by
      have := congrFun h k
      simpa [h0] using this)
    exact ⟨z, hz⟩
  · rintro ⟨z, hz⟩
    funext k
    rw [Pi.zero_apply, h0]
    exact (rem1_zero_iff _).2 ⟨z k, hz k⟩

theorem ofFn_rowVec {d : Nat} {b : List ℚ} (h : b.length = d) : List.ofFn (rowVec d b) = b := by
  apply ext_rent
  · simp [h]
  · intro k
    by_cases hk : k < d
    · have := congrFun (rowVec_ofFn (rowVec d b)) ⟨k, hk⟩; exact this
    · rw [rent_ge (by simpa using hk), rent_ge (by omega)]

theorem findShifted_ok (hp : Places tb g pos) {q : Fin (LabelVector.dim T) → ℚ} (hq : q = 0) {b : List ℚ}
    (hb : b.length = LabelVector.dim T) : ∀ orbit : List Nat, (∀ v ∈ orbit, IsVertex g.edges v) →
      (∃ v ∈ orbit, ∃ t : T, pos v + rowVec _ b = shv t) →
      ∃ v ∈ orbit, findShifted tb b (mod1 (List.ofFn q)) orbit = .ok v ∧ (∃ t : T, pos v + rowVec _ b = shv t) ∧
        ∀ o0 o, orbit = o0 :: o → (∃ t : T, pos o0 + rowVec _ b = shv t) → v = o0 := by
  intro orbit
  induction orbit with
  | nil => rintro - ⟨v, hv, -⟩; cases hv
  | cons o0 o ih =>
    intro hv hex
    have hadd : List.zipWith (· + ·) (List.ofFn (pos o0)) b = List.ofFn (pos o0 + rowVec _ b) := by
      conv_lhs => rw [← ofFn_rowVec hb]
      apply List.ext_getElem <;> simp
    unfold findShifted
    rw [bind_ok (hp o0 ((g.mem_vertices o0).2 (hv o0 List.mem_cons_self))), hadd]
    by_cases h : ∃ t : T, pos o0 + rowVec _ b = shv t
    · rw [if_pos ((mod1_eq_zero_iff hq).2 h)]
      refine ⟨o0, List.mem_cons_self, rfl, h, ?_⟩
      rintro o0' o' h' -
      injection h'
    · rw [if_neg (fun h' => h ((mod1_eq_zero_iff hq).1 h'))]
      obtain ⟨v, hv', hvt⟩ := hex
      rcases List.mem_cons.1 hv' with rfl | hv'
      · exact absurd hvt h
      · obtain ⟨w, e1, e2, e3, -⟩ := ih (fun w hw => hv w (List.mem_cons_of_mem _ hw)) ⟨v, hv', hvt⟩
        refine ⟨w, List.mem_cons_of_mem _ e1, e2, e3, ?_⟩
        rintro o0' o' h' h''
        injection h' with h1 _
        subst h1
        exact absurd h'' h

theorem basisEquivLoop_ok (hg : g.WF) (hp : Places tb g pos) (hs : LocallyStable g.edges pos)
    (hc : PeriodicConnected g.edges) {a : AffineMap ℚ} (ha : AffineMap.identity (LabelVector.dim T) = .ok a)
    {o0 : Nat} {o : List Nat} (ho0 : IsVertex g.edges o0) (hz : pos o0 = 0)
    (ho : ∀ v, v ∈ o0 :: o ↔ ∃ γ, IsTranslation g.edges pos γ ∧ γ o0 = v) :
    ∀ (bs : List (List ℚ)) (p : PState Nat) (U : List (Nat × Nat)), PRel p U → FromTrans g.edges pos U →
      (∀ b ∈ bs, b.length = LabelVector.dim T ∧ rowVec _ b ∈ trLat (tgroup_all g.edges pos) hc ho0) →
      ∃ p' U', basisEquivLoop tb g a (o0 :: o) o0 (mod1 (List.ofFn (pos o0))) bs p = .ok p' ∧ PRel p' U' ∧
        FromTrans g.edges pos U' ∧ (∀ q ∈ U, q ∈ U') ∧
        (∀ b ∈ bs, rowVec _ b ∈ trLat (tgroup_genEq (raw := g.edges) (pos := pos) U') hc ho0) ∧
        ((∀ b ∈ bs, rowVec _ b ∈ integerVectors (LabelVector.dim T)) → (∀ q ∈ U, q.1 = q.2) → ∀ q ∈ U', q.1 = q.2) := by
  have hqc := quotient_of_periodic hc
  have hvert : ∀ v ∈ o0 :: o, IsVertex g.edges v := by
    intro v hv
    obtain ⟨γ, h3, rfl⟩ := (ho v).1 hv
    exact h3.vertex ho0
  intro bs
  induction bs with
  | nil => intro p U h1 h2 _; exact ⟨p, U, rfl, h1, h2, fun _ h => h, by simp, fun _ h => h⟩
  | cons b bs ih =>
    intro p U h1 h2 hb
    obtain ⟨hbl, hbm⟩ := hb b List.mem_cons_self
    -- a vertex with the right position exists
    have hex : ∃ v ∈ o0 :: o, ∃ t : T, pos v + rowVec _ b = shv t := by
      have := neg_mem hbm
      obtain ⟨γ, h3, t, ht⟩ := (mem_trLat _ _ _ _).1 this
      refine ⟨γ o0, (ho _).2 ⟨γ, h3, rfl⟩, -t, ?_⟩
      rw [hz, sub_zero] at ht
      rw [shv_neg, eq_neg_iff_add_eq_zero, add_assoc, add_comm (rowVec _ b), ← add_assoc, ← ht, neg_add_cancel]
    obtain ⟨v, f1, f2, ⟨t, ft⟩, f4⟩ := findShifted_ok hp hz hbl (o0 :: o) hvert hex
    obtain ⟨γ0, g1, g2⟩ := (ho v).1 f1
    obtain ⟨r, a1, a2, a3⟩ := autId_ok hg hp hs hqc ha o0 v ho0
    unfold basisEquivLoop
    rw [bind_ok f2, bind_ok a1]
    cases r with
    | none => exact absurd g2 (a3 rfl γ0 g1)
    | some φ =>
      obtain ⟨vm, b1, b2, b3⟩ := a2 φ rfl
      obtain ⟨p3, c1, c2⟩ := PRel.uniteAll (g.vertices.map (fun w => (w, vm w))) h1
      rw [show unwrap (some φ) = .ok φ from rfl, Outcome.ok_bind, bind_ok (vertexPairs_ok b3), bind_ok c1]
      obtain ⟨p', U', e1, e2, e3, e4, e5, e6⟩ := ih p3 _ c2 (h2.append (fromTrans_pairs b1))
        (fun b' hb' => hb b' (List.mem_cons_of_mem _ hb'))
      refine ⟨p', U', e1, e2, e3, fun q hq => e4 q (List.mem_append_left _ hq), ?_, ?_⟩
      · intro b' hb'
        rcases List.mem_cons.1 hb' with rfl | hb'
        · have : -rowVec (LabelVector.dim T) b' ∈ trLat (tgroup_genEq (raw := g.edges) (pos := pos) U') hc ho0 := by
            refine (mem_trLat _ _ _ _).2 ⟨vm, ⟨b1, ?_⟩, -t, ?_⟩
            · intro w hw
              exact Relation.EqvGen.rel _ _ (e4 _ (List.mem_append_right _
                (List.mem_map.2 ⟨w, (g.mem_vertices w).2 hw, rfl⟩)))
            · rw [b2, hz, sub_zero, shv_neg, ← ft]
              abel
          exact neg_mem_iff.1 this
        · exact e5 b' hb'
      · intro hint hU
        refine e6 (fun b' hb' => hint b' (List.mem_cons_of_mem _ hb')) ?_
        intro q hq
        rcases List.mem_append.1 hq with hq | hq
        · exact hU q hq
        · obtain ⟨w, hw, rfl⟩ := List.mem_map.1 hq
          obtain ⟨u, hu⟩ := (integerVectors_iff (T := T) _).1 (hint b List.mem_cons_self)
          have hv : v = o0 := f4 o0 o rfl ⟨u, by rw [hz, hu, zero_add]⟩
          exact (IsTranslation.id g.edges pos).unique hs hqc b1 ho0 (by rw [b2, hv]) w ((g.mem_vertices w).1 hw)

end Systre
