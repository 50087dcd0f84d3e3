import Verif.Lemmas.Generate
import Verif.Lemmas.SymGroup
import Verif.Lemmas.OperatorText
import Verif.Spec.Finder
import Verif.Props.Lattices
import Verif.Props.SpaceGroups

/-!
# C69: primitive settings (`PrimitiveSetting::new`)

`ops` are the operators given to the program, `os` the affine maps they stand for. The lattice of the
translations is `translationLattice os`, generated by the integer vectors and the shifts of the pure translations.
-/

namespace Systre
open Lattices SpaceGroups

variable {n : Nat}

theorem areOps_unique {n : Nat} {l : List (AffineMap Rat)} {os os' : List (Op n)} (h : AreOps l os) (h' : AreOps l os') : os = os' := by
  unfold AreOps at h h'
  induction h generalizing os' with
  | nil => cases h'; rfl
  | cons a _ ih =>
    cases h' with
    | cons b t =>
      obtain ⟨a1, a2⟩ := a
      obtain ⟨b1, b2⟩ := b
      rw [ih t]
      congr 1
      refine Prod.ext (a1.inj b1) ?_
      funext i
      exact congrFun (congrFun (Rep.inj a2 b2) i) 0

theorem areOps_mem {ops : List (AffineMap Rat)} {os : List (Op n)} (h : AreOps ops os) :
    (∀ a ∈ ops, ∃ p ∈ os, IsAff a p.1 p.2) ∧ (∀ p ∈ os, ∃ a ∈ ops, IsAff a p.1 p.2) := by
  unfold AreOps at h
  constructor
  · intro a ha
    induction h with
    | nil => simp at ha
    | @cons b p _ _ h _ ih =>
      rcases List.mem_cons.1 ha with rfl | ha
      · exact ⟨p, by simp, h⟩
      · obtain ⟨q, hq, hq'⟩ := ih ha
        exact ⟨q, by simp [hq], hq'⟩
  · intro p hp
    induction h with
    | nil => simp at hp
    | @cons b q _ _ h _ ih =>
      rcases List.mem_cons.1 hp with rfl | hp
      · exact ⟨b, by simp, h⟩
      · obtain ⟨a, ha, ha'⟩ := ih hp
        exact ⟨a, by simp [ha], ha'⟩

/-- the shifts of the pure translations, as the program collects them -/
theorem translations_mem {ops : List (AffineMap Rat)} {os : List (Op n)} (h : AreOps ops os) {id : Mat Rat} {s0 : Vec Rat}
    (hid : Rep id (1 : Matrix (Fin n) (Fin n) ℚ)) (hs0 : IsVec s0 (0 : Fin n → ℚ)) (v : List ℚ) :
    v ∈ (ops.filter (fun op => decide (op.linear = id ∧ op.shift ≠ s0))).map (fun op => op.shift.coords.data) ↔
      ∃ s : Fin n → ℚ, (1, s) ∈ os ∧ s ≠ 0 ∧ v = List.ofFn s := by
  simp only [List.mem_map, List.mem_filter, decide_eq_true_eq]
  constructor
  · rintro ⟨a, ⟨ha, h1, h2⟩, rfl⟩
    obtain ⟨p, hp, hp'⟩ := (areOps_mem h).1 a ha
    refine ⟨p.2, ?_, ?_, ParseOperator.isVec_data hp'.2⟩
    · have : p.1 = 1 := (h1 ▸ hp'.1).inj hid
      rw [← this]; exact hp
    · intro h0
      apply h2
      have := hp'.2
      rw [h0] at this
      exact this.unique hs0
  · rintro ⟨s, hs, hne, rfl⟩
    obtain ⟨a, ha, ha'⟩ := (areOps_mem h).2 _ hs
    refine ⟨a, ⟨ha, rep_unique ha'.1 hid, ?_⟩, ParseOperator.isVec_data ha'.2⟩
    intro he
    have h1 := ha'.2
    rw [he] at h1
    exact hne (h1.inj hs0)

/-- what happens to one operator -/
def toSetting (C B : Matrix (Fin n) (Fin n) ℚ) (p : Op n) : Op n := (C * p.1 * B, fun i => rem1 (C.mulVec p.2 i))

theorem step_ok {c : CoordMap ℚ} {C B : Matrix (Fin n) (Fin n) ℚ} (hc : IsCoordMap c C B 0 0) {a : AffineMap ℚ} {p : Op n}
    (ha : IsAff a p.1 p.2) : ∃ x, c.applyAff a = .ok x ∧ x.modZ = .ok (toAff (toSetting C B p)) := by
  obtain ⟨r1, h1, g1⟩ := aff_mul hc.1 ha
  obtain ⟨r2, h2, g2⟩ := aff_mul g1 hc.2.1
  obtain ⟨r3, h3, g3⟩ := aff_modZ g2
  refine ⟨r2, by unfold CoordMap.applyAff; rw [bind_ok h1, h2], ?_⟩
  have e : (fun i => rem1 (((C * p.1).mulVec 0 + (C.mulVec p.2 + 0)) i)) = (toSetting C B p).2 := by
    funext i; simp [toSetting]
  rw [e] at g3
  rw [h3, eq_toAff (p := toSetting C B p) g3]

theorem primitiveOps_ok {c : CoordMap ℚ} {C B : Matrix (Fin n) (Fin n) ℚ} (hc : IsCoordMap c C B 0 0)
    {ops : List (AffineMap Rat)} {os : List (Op n)} (h : AreOps ops os) :
    ∀ (seen : List (AffineMap ℚ)) (acc : List (Op n)), (∀ x, x ∈ seen ↔ x ∈ acc.map toAff) → acc.Nodup →
      ∃ qs : List (Op n), primitiveOps c ops seen (acc.map toAff) = .ok (qs.map toAff) ∧ qs.Nodup ∧
        ∀ q, q ∈ qs ↔ q ∈ acc ∨ ∃ p ∈ os, q = toSetting C B p := by
  unfold AreOps at h
  induction h with
  | nil => intro seen acc _ hn; exact ⟨acc, rfl, hn, by simp⟩
  | @cons a p _ os' h _ ih =>
    intro seen acc hs hn
    obtain ⟨x, h1, h2⟩ := step_ok hc h
    unfold primitiveOps
    rw [bind_ok h1, bind_ok h2]
    by_cases hm : toSetting C B p ∈ acc
    · have hin : toAff (toSetting C B p) ∈ seen := (hs _).2 (List.mem_map_of_mem hm)
      rw [if_pos hin]
      obtain ⟨qs, k1, k2, k3⟩ := ih seen acc hs hn
      refine ⟨qs, k1, k2, fun q => ?_⟩
      rw [k3]
      constructor
      · rintro (h | ⟨p', hp', rfl⟩)
        · exact Or.inl h
        · exact Or.inr ⟨p', by simp [hp'], rfl⟩
      · rintro (h | ⟨p', hp', rfl⟩)
        · exact Or.inl h
        · rcases List.mem_cons.1 hp' with rfl | hp'
          · exact Or.inl hm
          · exact Or.inr ⟨p', hp', rfl⟩
    · have hin : toAff (toSetting C B p) ∉ seen := by
        rw [hs, List.mem_map_of_injective toAff_inj]; exact hm
      rw [if_neg hin]
      obtain ⟨qs, k1, k2, k3⟩ := ih (toAff (toSetting C B p) :: seen) (acc ++ [toSetting C B p])
        (by intro y; simp only [List.mem_cons, hs, List.map_append, List.mem_append, List.map_cons, List.map_nil,
              List.not_mem_nil, or_false]; tauto)
        (by rw [List.nodup_append]; exact ⟨hn, by simp, by rintro y hy z hz rfl; simp at hz; exact hm (hz ▸ hy)⟩)
      refine ⟨qs, by simpa using k1, k2, fun q => ?_⟩
      rw [k3]
      simp only [List.mem_append, List.mem_cons, List.not_mem_nil, or_false]
      constructor
      · rintro ((h | rfl) | ⟨p', hp', rfl⟩)
        · exact Or.inl h
        · exact Or.inr ⟨p, by simp, rfl⟩
        · exact Or.inr ⟨p', by simp [hp'], rfl⟩
      · rintro (h | ⟨p', rfl | hp', rfl⟩)
        · exact Or.inl (Or.inl h)
        · exact Or.inl (Or.inr rfl)
        · exact Or.inr ⟨p', hp', rfl⟩

/-- **C69** If there is a pure translation other than the identity among the operators, and the shifts of the
pure translations have a common denominator `m` below 2³¹ and are not too large, `PrimitiveSetting::new` returns.
`cell` is a basis `B` of the lattice of the translations, `to_primitive` is the change of coordinates to this
basis, and `ops` are the given operators in the new coordinates, each up to an integer translation, with shifts
between -1 and 1 and without repetition. The identity is the only pure translation among them. If the given
operators map the lattice to itself, then all matrices are integral in the new coordinates. If those of the given
operators that have the same matrix differ by a translation of the lattice, then in the new coordinates they differ
by an integer translation.
What is missing from the expectation: groups without centring (`C69_primitive_refuted`), and that every
operator modulo translations is there only once (`C69_repeated_refuted`). -/
theorem C69_primitive_setting_partial {ops : List (AffineMap Rat)} {os : List (Op n)} (h : AreOps ops os)
    (ht : ∃ s, s ≠ 0 ∧ ((1 : Matrix (Fin n) (Fin n) ℚ), s) ∈ os) {m : ℕ} (hm : 0 < m) (hm2 : m ≤ 2147483647)
    (hx : ∀ s, ((1 : Matrix (Fin n) (Fin n) ℚ), s) ∈ os → ∀ i, (∃ z : ℤ, s i * m = z) ∧ |s i * m| ≤ 2147483647) :
    ∃ (ps : PrimitiveSetting) (C B : Matrix (Fin n) (Fin n) ℚ) (qs : List (Op n)),
      PrimitiveSetting.new ops = .ok ps ∧
      List.Forall₂ (fun v (k : Fin n) => IsVec v (B.col k)) ps.cell (List.finRange n) ∧
      Submodule.span ℤ (Set.range B.col) = translationLattice os ∧
      IsCoordMap ps.toPrimitive C B 0 0 ∧
      AreOps ps.ops qs ∧ qs.Nodup ∧ (∀ q ∈ qs, ∀ i, |q.2 i| < 1) ∧
      (∀ p ∈ os, ∃ q ∈ qs, SameModZ q (C * p.1 * B, C.mulVec p.2)) ∧
      (∀ q ∈ qs, ∃ p ∈ os, SameModZ q (C * p.1 * B, C.mulVec p.2)) ∧
      (∀ q ∈ qs, q.1 = 1 → q = Op.one) ∧
      ((∀ p ∈ os, ∀ z ∈ translationLattice os, p.1.mulVec z ∈ translationLattice os) → ∀ q ∈ qs, IsIntegral q.1) ∧
      ((∀ p ∈ os, ∀ p' ∈ os, p.1 = p'.1 → p.2 - p'.2 ∈ translationLattice os) →
        ∀ q ∈ qs, ∀ r ∈ qs, q.1 = r.1 → SameModZ q r) := by
  obtain ⟨s1, hs1, hs1'⟩ := ht
  obtain ⟨id, hid1, hid⟩ := rep_identity (T := ℚ) n
  obtain ⟨s0, hs01, hs0⟩ := vec_zero (T := ℚ) n
  have hmem := translations_mem h hid hs0
  set ts := (ops.filter (fun op => decide (op.linear = id ∧ op.shift ≠ s0))).map (fun op => op.shift.coords.data) with hts
  obtain ⟨bs, hb1, hb2, hb3, hb4, hb5⟩ := C52_rational_lattice (n := n) (vs := ts) (m := m)
    (List.ne_nil_of_mem ((hmem _).2 ⟨s1, hs1', hs1, rfl⟩))
    (by intro v hv; obtain ⟨s, -, -, rfl⟩ := (hmem v).1 hv; simp) hm hm2
    (by
      intro v hv x hxv
      obtain ⟨s, hs, -, rfl⟩ := (hmem v).1 hv
      obtain ⟨i, rfl⟩ := (List.mem_ofFn' s x).1 hxv
      exact hx s hs i)
  subst hb2
  set X : Fin bs.length → Fin bs.length → ℚ := fun k => rowVec bs.length bs[k.1] with hX
  have hv : ∀ b ∈ bs, b = List.ofFn (rowVec bs.length b) := by
    intro b hb
    apply List.ext_getElem
    · simp [hb3 b hb]
    · intro j h1 h2; simp [rowVec, h1]
  haveI : Nonempty (Vec ℚ) := ⟨s0⟩
  choose! f hf using fun b (hb : b ∈ bs) => vec_new (hv b hb)
  have hcell : omap Vec.new bs = .ok (bs.map f) := omap_ok (fun b hb => (hf b hb).1)
  have hvec : ∀ k : Fin bs.length, IsVec ((bs.map f)[k.1]'(by simp)) (X k) := by
    intro k; simp only [List.getElem_map]; exact (hf _ (List.getElem_mem _)).2
  obtain ⟨c, C, t, hc1, hc2⟩ := (fromBasis_ok (by simp) X hvec).1 hb4
  have htz : t = 0 := by
    have := hc2.2.2.2.2.2 0
    simpa using this
  subst htz
  set B : Matrix (Fin bs.length) (Fin bs.length) ℚ := Matrix.of fun i k => X k i with hB
  have hc := hc2.symm
  have hto : CoordMap.toBasis (bs.map f) = .ok c.inverse := by unfold CoordMap.toBasis; rw [bind_ok hc1]
  obtain ⟨qs, hq1, hq2, hq3⟩ := primitiveOps_ok hc h [] [] (by simp) List.nodup_nil
  have hlat : Submodule.span ℤ (Set.range B.col) = translationLattice os := by
    have e1 : Set.range B.col = rowVec bs.length '' {v | v ∈ bs} := by
      ext y
      constructor
      · rintro ⟨k, rfl⟩
        exact ⟨bs[k.1], List.getElem_mem _, rfl⟩
      · rintro ⟨b, hb, rfl⟩
        obtain ⟨j, hj, rfl⟩ := List.getElem_of_mem hb
        exact ⟨⟨j, hj⟩, rfl⟩
    rw [e1]
    show latticeOf bs.length bs = _
    rw [hb5]
    unfold translationLattice
    apply le_antisymm
    · rw [Submodule.span_le]
      rintro y (⟨z, hz⟩ | ⟨v, hv, rfl⟩)
      · have : y = ∑ k, z k • (Pi.single k 1 : Fin bs.length → ℚ) := by
          funext i
          rw [Finset.sum_apply, hz i]
          simp [Pi.single_apply]
        rw [this]
        exact Submodule.sum_mem _ (fun k _ => Submodule.smul_mem _ _ (Submodule.subset_span (Or.inl ⟨k, rfl⟩)))
      · obtain ⟨s, hs, -, rfl⟩ := (hmem v).1 hv
        have : rowVec bs.length (List.ofFn s) = s := by
          funext i; simp [rowVec]
        rw [this]
        exact Submodule.subset_span (Or.inr hs)
    · rw [Submodule.span_le]
      rintro y (⟨k, rfl⟩ | hs)
      · refine Submodule.subset_span (Or.inl ⟨fun i => if i = k then 1 else 0, fun i => ?_⟩)
        by_cases hik : i = k <;> simp [Pi.single_apply, hik]
      · by_cases h0 : y = 0
        · rw [h0]; exact Submodule.zero_mem _
        · refine Submodule.subset_span (Or.inr ⟨_, (hmem _).2 ⟨y, hs, h0, rfl⟩, ?_⟩)
          funext i; simp [rowVec]
  have hCB : C * B = 1 := hc2.2.2.2.1
  have hBC : B * C = 1 := hc2.2.2.1
  -- the lattice in the new coordinates
  have hint : ∀ y ∈ translationLattice os, ∀ i, ∃ z : ℤ, C.mulVec y i = z := by
    intro y hy
    rw [← hlat] at hy
    induction hy using Submodule.span_induction with
    | mem y hy =>
      obtain ⟨k, rfl⟩ := hy
      intro i
      have : C.mulVec (B.col k) = (C * B).col k := by
        funext j; simp [Matrix.mulVec, dotProduct, Matrix.mul_apply, Matrix.col]
      rw [this, hCB]
      exact ⟨if i = k then 1 else 0, by by_cases hik : i = k <;> simp [Matrix.col, Matrix.one_apply, hik]⟩
    | zero => intro i; exact ⟨0, by simp⟩
    | add a b _ _ ha hb =>
      intro i
      obtain ⟨z, hz⟩ := ha i
      obtain ⟨w, hw⟩ := hb i
      exact ⟨z + w, by rw [Matrix.mulVec_add, Pi.add_apply, hz, hw]; push_cast; ring⟩
    | smul r a _ ha =>
      intro i
      obtain ⟨z, hz⟩ := ha i
      exact ⟨r * z, by rw [Matrix.mulVec_smul, Pi.smul_apply, hz]; push_cast; simp⟩
  have hsame : ∀ p : Op bs.length, SameModZ (toSetting C B p) (C * p.1 * B, C.mulVec p.2) := by
    intro p
    refine ⟨rfl, fun i => ⟨-((C.mulVec p.2 i).num.tdiv (C.mulVec p.2 i).den), ?_⟩⟩
    show rem1 _ - _ = _
    rw [rem1_eq]; push_cast; ring
  have hq : ∀ q, q ∈ qs ↔ ∃ p ∈ os, q = toSetting C B p := by intro q; rw [hq3]; simp
  refine ⟨⟨bs.map f, c.inverse, qs.map toAff⟩, C, B, qs, ?_, ?_, hlat, hc, areOps_toAff qs, hq2, ?_, ?_, ?_, ?_, ?_, ?_⟩
  · have hne : ops ≠ [] := by
      rintro rfl
      cases h
      simp at hs1'
    obtain ⟨a, ops', rfl⟩ := List.exists_cons_of_ne_nil hne
    obtain ⟨p, -, hp⟩ := (areOps_mem h).1 a (by simp)
    have hdim : a.dim = bs.length := hp.2.rows
    unfold PrimitiveSetting.new
    have hr : rassert (decide (a :: ops' ≠ [])) = .ok () := by simp [rassert]
    rw [bind_ok hr]
    have hg : vecGet (a :: ops') 0 = .ok a := rfl
    rw [bind_ok hg, hdim, bind_ok hid1, bind_ok hs01]
    simp only [← hts]
    rw [bind_ok hb1, bind_ok hcell, bind_ok hto]
    have : primitiveOps c.inverse (a :: ops') [] [] = .ok (qs.map toAff) := hq1
    rw [bind_ok this]
  · show List.Forall₂ _ (bs.map f) _
    rw [List.forall₂_iff_get]
    refine ⟨by simp, fun i h1 h2 => ?_⟩
    have := hvec ⟨i, by simpa using h1⟩
    simp only [List.get_eq_getElem, List.getElem_finRange] at this ⊢
    exact this
  · intro q hq' i
    obtain ⟨p, -, rfl⟩ := (hq q).1 hq'
    exact rem1_abs _
  · intro p hp
    exact ⟨_, (hq _).2 ⟨p, hp, rfl⟩, hsame p⟩
  · intro q hq'
    obtain ⟨p, hp, rfl⟩ := (hq q).1 hq'
    exact ⟨p, hp, hsame p⟩
  · intro q hq' h1
    obtain ⟨p, hp, rfl⟩ := (hq q).1 hq'
    have h1' : C * p.1 * B = 1 := h1
    have hp1 : p.1 = 1 := by
      calc p.1 = (B * C) * p.1 * (B * C) := by rw [hBC]; simp
        _ = B * (C * p.1 * B) * C := by simp only [Matrix.mul_assoc]
        _ = 1 := by rw [h1', Matrix.mul_one, hBC]
    refine Prod.ext h1 ?_
    funext i
    show rem1 _ = 0
    rw [rem1_zero_iff]
    refine hint p.2 (Submodule.subset_span (Or.inr ?_)) i
    show ((1 : Matrix _ _ ℚ), p.2) ∈ os
    rw [← hp1]; exact hp
  · intro hinv q hq' i j
    obtain ⟨p, hp, rfl⟩ := (hq q).1 hq'
    have hBj : B.col j ∈ translationLattice os := by
      rw [← hlat]; exact Submodule.subset_span ⟨j, rfl⟩
    obtain ⟨z, hz⟩ := hint _ (hinv p hp _ hBj) i
    refine ⟨z, ?_⟩
    rw [← hz]
    show (C * p.1 * B) i j = _
    rw [Matrix.mulVec_mulVec]
    rfl
  · intro hd q hq' r hr' he
    obtain ⟨p, hp, rfl⟩ := (hq q).1 hq'
    obtain ⟨p', hp', rfl⟩ := (hq r).1 hr'
    have he' : C * p.1 * B = C * p'.1 * B := he
    have hpp : p.1 = p'.1 := by
      calc p.1 = (B * C) * p.1 * (B * C) := by rw [hBC]; simp
        _ = B * (C * p.1 * B) * C := by simp only [Matrix.mul_assoc]
        _ = (B * C) * p'.1 * (B * C) := by rw [he']; simp only [Matrix.mul_assoc]
        _ = p'.1 := by rw [hBC]; simp
    refine ⟨he, fun i => ?_⟩
    obtain ⟨a, ha⟩ := (hsame p).2 i
    obtain ⟨b, hb⟩ := (hsame p').2 i
    obtain ⟨z, hz⟩ := hint _ (hd p hp p' hp' hpp) i
    rw [Matrix.mulVec_sub, Pi.sub_apply] at hz
    refine ⟨a + z - b, ?_⟩
    push_cast
    rw [← ha, ← hb, ← hz]
    ring

/-- **C69** (multiplicity) Two operators of the primitive setting that differ by an integer translation are equal if their
shifts have the same positive coordinates. So no operator modulo translations is there more than `2 ^ n` times. -/
theorem C69_multiplicity {qs : List (Op n)} {ops : List (AffineMap Rat)} {os : List (Op n)}
    (h : AreOps ops os) (ht : ∃ s, s ≠ 0 ∧ ((1 : Matrix (Fin n) (Fin n) ℚ), s) ∈ os) {m : ℕ} (hm : 0 < m)
    (hm2 : m ≤ 2147483647)
    (hx : ∀ s, ((1 : Matrix (Fin n) (Fin n) ℚ), s) ∈ os → ∀ i, (∃ z : ℤ, s i * m = z) ∧ |s i * m| ≤ 2147483647)
    {ps : PrimitiveSetting} (hps : PrimitiveSetting.new ops = .ok ps) (hq : AreOps ps.ops qs) :
    (∀ q ∈ qs, ∀ r ∈ qs, SameModZ q r → (∀ i, 0 < q.2 i ↔ 0 < r.2 i) → q = r) ∧
    ∀ (p : Op n) (c : List (Op n)), c.Sublist qs → (∀ q ∈ c, SameModZ q p) → c.length ≤ 2 ^ n := by
  obtain ⟨ps', C, B, qs', h1, -, -, -, h2, hnd, h3, -⟩ := C69_primitive_setting_partial h ht hm hm2 hx
  obtain rfl := Outcome.ok.inj (hps.symm.trans h1)
  have he : qs = qs' := areOps_unique hq h2
  subst he
  have hone : ∀ q ∈ qs, ∀ r ∈ qs, SameModZ q r → (∀ i, 0 < q.2 i ↔ 0 < r.2 i) → q = r := by
    intro q hq r hr hqr h4
    refine Prod.ext hqr.1 (funext fun i => ?_)
    rw [← rem1_of_abs_lt (h3 q hq i), ← rem1_of_abs_lt (h3 r hr i)]
    exact (rem1_eq_iff _ _).2 ⟨hqr.2 i, Or.inr (h4 i)⟩
  refine ⟨hone, fun p c hc hcp => ?_⟩
  have hnd' : (c.map (fun q : Op n => fun i => decide (0 < q.2 i))).Nodup := by
    refine List.Nodup.map_on ?_ (hnd.sublist hc)
    intro q hq r hr he
    exact hone q (hc.subset hq) r (hc.subset hr) ((hcp q hq).trans (hcp r hr).symm)
      (fun i => by simpa using congrFun he i)
  have := hnd'.length_le_card
  simpa using this

/-- **C69 refuted** For every list of operators without a pure translation other than the identity, as for
every group given in a primitive cell, `PrimitiveSetting::new` panics. -/
theorem C69_primitive_refuted {ops : List (AffineMap Rat)} {os : List (Op n)} (h : AreOps ops os)
    (ht : ∀ s, ((1 : Matrix (Fin n) (Fin n) ℚ), s) ∈ os → s = 0) : PrimitiveSetting.new ops = .panic := by
  cases ops with
  | nil => rfl
  | cons a ops' =>
    obtain ⟨p, -, hp⟩ := (areOps_mem h).1 a (by simp)
    have hdim : a.dim = n := hp.2.rows
    obtain ⟨id, hid1, hid⟩ := rep_identity (T := ℚ) n
    obtain ⟨s0, hs01, hs0⟩ := vec_zero (T := ℚ) n
    have hmem := translations_mem h hid hs0
    unfold PrimitiveSetting.new
    have hr : rassert (decide (a :: ops' ≠ [])) = .ok () := by simp [rassert]
    rw [bind_ok hr]
    have hg : vecGet (a :: ops') 0 = .ok a := rfl
    rw [bind_ok hg, hdim, bind_ok hid1, bind_ok hs01]
    have hnil : ((a :: ops').filter (fun op => decide (op.linear = id ∧ op.shift ≠ s0))).map (fun op => op.shift.coords.data) = [] := by
      apply List.eq_nil_iff_forall_not_mem.2
      intro v hv
      obtain ⟨s, hs, hne, -⟩ := (hmem v).1 hv
      exact hne (ht s hs)
    simp only [hnil, C52_empty]
    rfl

/-- the plane group `p2mg` in a doubled cell, as `generate` returns it -/
def p2mgDoubled : List (AffineMap Rat) :=
  [af2 1 0 0 1 0 0, af2 1 0 0 1 0 (1 / 2), af2 1 0 0 (-1) (1 / 2) 0, af2 (-1) 0 0 1 0 0, af2 1 0 0 (-1) (1 / 2) (1 / 2),
   af2 (-1) 0 0 1 0 (1 / 2), af2 1 0 0 (-1) (1 / 2) (-1 / 2), af2 (-1) 0 0 (-1) (1 / 2) 0, af2 (-1) 0 0 (-1) (-1 / 2) 0,
   af2 (-1) 0 0 (-1) (1 / 2) (1 / 2), af2 (-1) 0 0 (-1) (-1 / 2) (1 / 2), af2 1 0 0 1 0 (-1 / 2),
   af2 (-1) 0 0 (-1) (1 / 2) (-1 / 2), af2 (-1) 0 0 (-1) (-1 / 2) (-1 / 2), af2 1 0 0 (-1) (-1 / 2) 0,
   af2 1 0 0 (-1) (-1 / 2) (1 / 2), af2 (-1) 0 0 1 0 (-1 / 2), af2 1 0 0 (-1) (-1 / 2) (-1 / 2)]

/-- **C69 refuted** An operator can be there more than once: `p2mg` has four operators modulo translations, but in
the primitive setting computed from a doubled cell there are six, because `mod_z` keeps signs. -/
theorem C69_repeated_refuted :
    generate 30 [af2 1 0 0 1 0 (1 / 2), af2 1 0 0 (-1) (1 / 2) 0, af2 (-1) 0 0 1 0 0] = .ok p2mgDoubled ∧
    ∃ (ps : PrimitiveSetting) (qs : List (Op 2)), PrimitiveSetting.new p2mgDoubled = .ok ps ∧ AreOps ps.ops qs ∧
      qs.length = 6 ∧ ∃ q ∈ qs, ∃ r ∈ qs, q ≠ r ∧ SameModZ q r := by
  refine ⟨by decide +kernel, ⟨[⟨⟨2, 1, [1, 0]⟩⟩, ⟨⟨2, 1, [0, 1 / 2]⟩⟩],
      ⟨⟨⟨2, 2, [1, 0, 0, 2]⟩, ⟨⟨2, 1, [0, 0]⟩⟩⟩, ⟨⟨2, 2, [1, 0, 0, 1 / 2]⟩, ⟨⟨2, 1, [0, 0]⟩⟩⟩⟩,
      [af2 1 0 0 1 0 0, af2 1 0 0 (-1) (1 / 2) 0, af2 (-1) 0 0 1 0 0, af2 (-1) 0 0 (-1) (1 / 2) 0,
        af2 (-1) 0 0 (-1) (-1 / 2) 0, af2 1 0 0 (-1) (-1 / 2) 0]⟩,
    [op2 1 0 0 1 0 0, op2 1 0 0 (-1) (1 / 2) 0, op2 (-1) 0 0 1 0 0, op2 (-1) 0 0 (-1) (1 / 2) 0,
        op2 (-1) 0 0 (-1) (-1 / 2) 0, op2 1 0 0 (-1) (-1 / 2) 0], by decide +kernel, ?_, rfl,
    op2 1 0 0 (-1) (1 / 2) 0, by simp, op2 1 0 0 (-1) (-1 / 2) 0, by simp, ?_, rfl, ?_⟩
  · exact .cons (af2_isAff ..) (.cons (af2_isAff ..) (.cons (af2_isAff ..) (.cons (af2_isAff ..) (.cons (af2_isAff ..)
      (.cons (af2_isAff ..) .nil)))))
  · intro h
    have := congrFun (congrArg Prod.snd h) 0
    norm_num [op2] at this
  · intro i
    fin_cases i
    · exact ⟨1, by norm_num [op2]⟩
    · exact ⟨0, by norm_num [op2]⟩

/-- the centred group `cm`: the cell is half as large, and two operators remain -/
example : AreOps [af2 1 0 0 1 0 0, af2 1 0 0 1 (1 / 2) (1 / 2), af2 (-1) 0 0 1 0 0, af2 (-1) 0 0 1 (1 / 2) (1 / 2)]
      [op2 1 0 0 1 0 0, op2 1 0 0 1 (1 / 2) (1 / 2), op2 (-1) 0 0 1 0 0, op2 (-1) 0 0 1 (1 / 2) (1 / 2)] ∧
    (∃ s, s ≠ 0 ∧ ((1 : Matrix (Fin 2) (Fin 2) ℚ), s) ∈
      [op2 1 0 0 1 0 0, op2 1 0 0 1 (1 / 2) (1 / 2), op2 (-1) 0 0 1 0 0, op2 (-1) 0 0 1 (1 / 2) (1 / 2)]) ∧
    (∀ s, ((1 : Matrix (Fin 2) (Fin 2) ℚ), s) ∈
      [op2 1 0 0 1 0 0, op2 1 0 0 1 (1 / 2) (1 / 2), op2 (-1) 0 0 1 0 0, op2 (-1) 0 0 1 (1 / 2) (1 / 2)] →
      ∀ i, (∃ z : ℤ, s i * (2 : ℕ) = z) ∧ |s i * (2 : ℕ)| ≤ 2147483647) ∧
    (PrimitiveSetting.new [af2 1 0 0 1 0 0, af2 1 0 0 1 (1 / 2) (1 / 2), af2 (-1) 0 0 1 0 0, af2 (-1) 0 0 1 (1 / 2) (1 / 2)] >>=
      fun ps => .ok (ps.cell, ps.ops)) =
      .ok ([⟨⟨2, 1, [-1 / 2, -1 / 2]⟩⟩, ⟨⟨2, 1, [0, 1]⟩⟩], [af2 1 0 0 1 0 0, af2 (-1) 0 (-1) 1 0 0]) := by
  refine ⟨.cons (af2_isAff ..) (.cons (af2_isAff ..) (.cons (af2_isAff ..) (.cons (af2_isAff ..) .nil))),
    ⟨![1 / 2, 1 / 2], ?_, ?_⟩, ?_, by decide +kernel⟩
  · intro h
    have := congrFun h 0
    norm_num at this
  · have h1 : (1 : Matrix (Fin 2) (Fin 2) ℚ) = !![1, 0; 0, 1] := Matrix.one_fin_two
    rw [h1]
    simp [op2]
  · intro s hs i
    have h2 : s i = 0 ∨ s i = 1 / 2 := by
      simp only [List.mem_cons, List.not_mem_nil, or_false, op2, Prod.mk.injEq] at hs
      rcases hs with ⟨-, rfl⟩ | ⟨-, rfl⟩ | ⟨-, rfl⟩ | ⟨-, rfl⟩ <;> fin_cases i <;> simp
    rcases h2 with h2 | h2
    · exact ⟨⟨0, by rw [h2]; norm_num⟩, by rw [h2]; norm_num⟩
    · exact ⟨⟨1, by rw [h2]; norm_num⟩, by rw [h2]; norm_num⟩

end Systre
