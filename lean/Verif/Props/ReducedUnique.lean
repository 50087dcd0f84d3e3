import Verif.Props.Lattices

/-!
# Property C83: the reduced basis depends only on the lattice, up to signs

`reduced_lattice_basis` starts from a given basis of a lattice. Its result is determined by the lattice, the
scalar product and the coordinates: the `k`-th vector is, among the shortest lattice vectors outside the span of
the previous ones, the one that comes last in lexicographic order when each vector is written with a positive
first nonzero coordinate. Only the signs depend on the basis one starts with. In one and two dimensions the
scalar products of the vectors of the result do not even depend on the signs; in three dimensions they do.
-/

namespace Systre.Lattices
open Systre

variable {d : Nat} {dot : List Rat → List Rat → Rat}

/-! ### specification -/

/-- the first nonzero coordinate is positive -/
def HeadPos (v : List Rat) : Prop :=
  ∃ (i : Nat) (x : Rat), v[i]? = some x ∧ 0 < x ∧ ∀ (j : Nat) (y : Rat), j < i → v[j]? = some y → y = 0

/-- the lexicographic order of vectors of one length: equal, or smaller at the first difference -/
def LexLe (a b : List Rat) : Prop :=
  a = b ∨ ∃ (i : Nat) (x y : Rat), a.take i = b.take i ∧ a[i]? = some x ∧ b[i]? = some y ∧ x < y

/-- `u` is `v` or `-v` -/
def SameUpToSign (u v : List Rat) : Prop := u = v ∨ u = vNeg v

/-- lattice vectors, as lists of coordinates, outside the span of the vectors in `b` -/
def Outside (d : Nat) (vs b : List (List Rat)) (y : List Rat) : Prop :=
  y.length = d ∧ rowVec d y ∈ latticeOf d vs ∧ rowVec d y ∉ Submodule.span ℚ (rowVec d '' {w | w ∈ b})

/-- `v` is a shortest vector among those with the property `P`, and of these the last in lexicographic order
if all are written with a positive first nonzero coordinate. -/
def Selected (dot : List Rat → List Rat → Rat) (P : List Rat → Prop) (v : List Rat) : Prop :=
  P v ∧ ∀ y, P y → dot v v ≤ dot y y ∧
    (dot y y = dot v v → ∀ v' y', SameUpToSign v' v → SameUpToSign y' y → HeadPos v' → HeadPos y' → LexLe y' v')

/-! ### helpers -/

theorem lexLe_cons (a b : Rat) (as bs : List Rat) :
    LexLe (a :: as) (b :: bs) ↔ a < b ∨ (a = b ∧ LexLe as bs) := by
  constructor
  · rintro (h | ⟨i, x, y, h1, h2, h3, h4⟩)
    · obtain ⟨rfl, rfl⟩ := List.cons.inj h
      exact Or.inr ⟨rfl, Or.inl rfl⟩
    · cases i with
      | zero => simp at h2 h3; subst h2 h3; exact Or.inl h4
      | succ i =>
        simp only [List.take_succ_cons, List.cons.injEq] at h1
        exact Or.inr ⟨h1.1, Or.inr ⟨i, x, y, h1.2, by simpa using h2, by simpa using h3, h4⟩⟩
  · rintro (h | ⟨rfl, rfl | ⟨i, x, y, h1, h2, h3, h4⟩⟩)
    · exact Or.inr ⟨0, a, b, rfl, rfl, rfl, h⟩
    · exact Or.inl rfl
    · exact Or.inr ⟨i + 1, x, y, by simp [h1], by simpa using h2, by simpa using h3, h4⟩

theorem lexLeQ_iff : ∀ a b : List Rat, a.length = b.length → (lexLeQ a b = true ↔ LexLe a b)
  | [], [], _ => by simp [lexLeQ, LexLe]
  | [], _ :: _, h => by simp at h
  | _ :: _, [], h => by simp at h
  | a :: as, b :: bs, h => by
    rw [lexLe_cons, ← lexLeQ_iff as bs (by simpa using h)]
    rcases lt_trichotomy a b with h | h | h
    · simp [lexLeQ, h]
    · subst h; simp [lexLeQ]
    · simp [lexLeQ, h, not_lt.2 h.le, h.ne']

theorem SameUpToSign.length {u v : List Rat} (h : SameUpToSign u v) : u.length = v.length := by
  rcases h with rfl | rfl
  · rfl
  · rw [vNeg_length]

theorem headPos_cons (x : Rat) (v : List Rat) : HeadPos (x :: v) ↔ 0 < x ∨ (x = 0 ∧ HeadPos v) := by
  constructor
  · rintro ⟨i, y, h1, h2, h3⟩
    cases i with
    | zero => simp at h1; exact Or.inl (h1 ▸ h2)
    | succ i =>
      refine Or.inr ⟨h3 0 x (by omega) rfl, i, y, by simpa using h1, h2, ?_⟩
      intro j z hj hz
      exact h3 (j + 1) z (by omega) (by simpa using hz)
  · rintro (h | ⟨rfl, i, y, h1, h2, h3⟩)
    · exact ⟨0, x, rfl, h, by omega⟩
    · refine ⟨i + 1, y, by simpa using h1, h2, ?_⟩
      intro j z hj hz
      cases j with
      | zero => simpa using hz.symm
      | succ j => exact h3 j z (by omega) (by simpa using hz)

/-- `positive_direction` gives the multiple with a positive first nonzero coordinate -/
theorem headPos_find : ∀ v : List Rat, HeadPos v ↔ ∃ x, v.find? (fun x => decide (x ≠ 0)) = some x ∧ 0 < x
  | [] => by simp [HeadPos]
  | x :: v => by
    rw [headPos_cons, headPos_find v]
    by_cases h : x = 0
    · subst h; simp
    · simp [h]

theorem headPos_direction {v : List Rat} (h : HeadPos v) : positiveDirection v = v := by
  obtain ⟨x, hx, h0⟩ := (headPos_find v).1 h
  unfold positiveDirection
  rw [hx]
  simp [not_lt.2 h0.le]

theorem SameUpToSign.direction {u v : List Rat} (h : SameUpToSign u v) (hu : HeadPos u) :
    positiveDirection v = u := by
  rw [← headPos_direction hu]
  rcases h with rfl | rfl
  · rfl
  · rw [positiveDirection_vNeg]

theorem exists_headPos {v : List Rat} (h : rowVec d v ≠ 0) :
    SameUpToSign (positiveDirection v) v ∧ HeadPos (positiveDirection v) := by
  refine ⟨positiveDirection_cases v, ?_⟩
  cases hf : v.find? (fun x => decide (x ≠ 0)) with
  | none =>
    exfalso
    apply h
    rw [List.find?_eq_none] at hf
    funext i
    rw [rowVec_apply]
    by_cases hb : i.1 < v.length
    · rw [show rent v i.1 = v[i.1] by simp [rent, hb]]
      have := hf _ (List.getElem_mem hb)
      simpa using this
    · rw [rent_ge (by omega)]; rfl
  | some x =>
    have hx := List.find?_some hf
    simp only [ne_eq, decide_not, Bool.not_eq_eq_eq_not, Bool.not_true, decide_eq_false_iff_not] at hx
    rw [headPos_find]
    unfold positiveDirection
    rw [hf]
    dsimp only
    split
    · rename_i hneg
      exact ⟨-x, by rw [find_vNeg, hf]; rfl, by linarith⟩
    · rename_i hneg
      exact ⟨x, hf, lt_of_le_of_ne (not_lt.1 hneg) (Ne.symm hx)⟩

theorem SameUpToSign.norm (h : IsDot d dot) {u v : List Rat} (hv : v.length = d) (huv : SameUpToSign u v) :
    dot u u = dot v v := by
  obtain ⟨B, -, hd⟩ := isDot_form h
  rcases huv with rfl | rfl
  · rfl
  · have hn : (vNeg v).length = d := by rw [vNeg_length, hv]
    rw [hd _ _ hn hn, hd _ _ hv hv, rv_neg, norm_neg']

/-- the selection determines the vector up to its sign -/
theorem Selected.unique {P : List Rat → Prop} {v w : List Rat} (hv : Selected dot P v) (hw : Selected dot P w)
    (hPl : ∀ y, P y → y.length = d) (hP : ∀ y, P y → rowVec d y ≠ 0) : SameUpToSign v w := by
  obtain ⟨sv, pv⟩ := exists_headPos (hP v hv.1)
  obtain ⟨sw, pw⟩ := exists_headPos (hP w hw.1)
  have h1 := hv.2 w hw.1
  have h2 := hw.2 v hv.1
  have he : dot w w = dot v v := le_antisymm h2.1 h1.1
  have l1 := h1.2 he _ _ sv sw pv pw
  have l2 := h2.2 he.symm _ _ sw sv pw pv
  have hl : (positiveDirection v).length = (positiveDirection w).length := by
    rw [sv.length, sw.length, hPl v hv.1, hPl w hw.1]
  exact positiveDirection_inj (lexLeQ_antisymm _ _ ((lexLeQ_iff _ _ hl).2 l2) ((lexLeQ_iff _ _ hl.symm).2 l1))

/-! ### theorems -/

/-- **C83** What `reduced_lattice_basis` returns, without reference to the basis it starts with: the `k`-th
vector is the selected one among the lattice vectors outside the span of the vectors before it. -/
theorem C83_selected (hl3 : d = 1 ∨ d = 2 ∨ d = 3) (h : IsDot d dot) {vs : List (List Rat)}
    (hvs : vs.length = d) (hvl : ∀ v ∈ vs, v.length = d) (hi : Indep d vs) :
    ∃ N a, (∀ fuel, N ≤ fuel → reducedLatticeBasis fuel vs dot 0 = .ok (some a)) ∧ a.length = d ∧
      ∀ k v, a[k]? = some v → Selected dot (Outside d vs (a.take k)) v := by
  obtain ⟨N, a, g1, g2, g3, g4, -, -, g7, g8⟩ := basis_eps (le_refl (0 : ℚ)) hl3 h hvs hvl hi
    (fun y _ x _ => Or.inr (abs_nonneg x))
  refine ⟨N, a, g1, g2, ?_⟩
  intro k v hk
  have hvl' := g3 v (List.mem_of_getElem? hk)
  have hind := indep_of_lattice g4 (by rw [g2, hvs]) hi
  refine ⟨⟨hvl', ?_, ?_⟩, ?_⟩
  · rw [← g4]; exact latticeOf_mem (List.mem_of_getElem? hk)
  · obtain ⟨hkl, rfl⟩ := List.getElem?_eq_some_iff.1 hk
    intro hm
    have := hind.notMem_span_image (s := {i | i.1 < k}) (x := ⟨k, hkl⟩) (by simp)
    apply this
    refine Submodule.span_mono ?_ hm
    rintro _ ⟨w, hw, rfl⟩
    obtain ⟨i, hi', rfl⟩ := List.getElem_of_mem hw
    simp only [List.length_take] at hi'
    exact ⟨⟨i, by omega⟩, by show i < k; omega, by simp⟩
  · rintro y ⟨hy, hym, hyW⟩
    refine ⟨g7 rfl k v hk y hy hym hyW, ?_⟩
    intro he v' y' hv' hy' pv py
    have := g8 rfl k v hk y hy hym hyW
    rcases this with h | ⟨-, h⟩
    · exact absurd he (ne_of_gt h)
    · rw [hv'.direction pv, hy'.direction py] at h
      exact (lexLeQ_iff _ _ (by rw [hy'.length, hv'.length, hy, hvl'])).1 h

/-- **C83** Two bases of one lattice lead to the same reduced basis, up to the signs of the vectors. -/
theorem C83_unique (hl3 : d = 1 ∨ d = 2 ∨ d = 3) (h : IsDot d dot) {vs vs' : List (List Rat)}
    (hvs : vs.length = d) (hvl : ∀ v ∈ vs, v.length = d) (hi : Indep d vs)
    (hvs' : vs'.length = d) (hvl' : ∀ v ∈ vs', v.length = d) (hlat : latticeOf d vs = latticeOf d vs') :
    ∃ N a b, (∀ fuel, N ≤ fuel → reducedLatticeBasis fuel vs dot 0 = .ok (some a) ∧
        reducedLatticeBasis fuel vs' dot 0 = .ok (some b)) ∧
      List.Forall₂ SameUpToSign a b := by
  have hi' : Indep d vs' := indep_of_lattice hlat.symm (by rw [hvs, hvs']) hi
  obtain ⟨N, a, a1, a2, a3⟩ := C83_selected hl3 h hvs hvl hi
  obtain ⟨M, b, b1, b2, b3⟩ := C83_selected hl3 h hvs' hvl' hi'
  refine ⟨max N M, a, b, fun fuel hf => ⟨a1 fuel (by omega), b1 fuel (by omega)⟩, ?_⟩
  have key : ∀ k : Nat, ∀ i < k, ∀ v w : List Rat, a[i]? = some v → b[i]? = some w → SameUpToSign v w := by
    intro k
    induction k with
    | zero => intro i hi; omega
    | succ k ih =>
      intro i hi v w hv hw
      rcases Nat.lt_or_ge i k with hlt | hge
      · exact ih i hlt v w hv hw
      obtain rfl : i = k := by omega
      have hspan : Submodule.span ℚ (rowVec d '' {x | x ∈ a.take i}) =
          Submodule.span ℚ (rowVec d '' {x | x ∈ b.take i}) := by
        have one : ∀ (p q : List (List Rat)), p.length = d → q.length = d →
            (∀ j < i, ∀ v w : List Rat, p[j]? = some v → q[j]? = some w → SameUpToSign v w) →
            Submodule.span ℚ (rowVec d '' {x | x ∈ p.take i}) ≤ Submodule.span ℚ (rowVec d '' {x | x ∈ q.take i}) := by
          intro p q hp hq hpq
          rw [Submodule.span_le]
          rintro _ ⟨x, hx, rfl⟩
          obtain ⟨j, hj, rfl⟩ := List.getElem_of_mem hx
          simp only [List.length_take] at hj
          rw [List.getElem_take]
          have hjq : j < q.length := by omega
          have hq' : rowVec d q[j] ∈ Submodule.span ℚ (rowVec d '' {x | x ∈ q.take i}) :=
            Submodule.subset_span ⟨_, by
              rw [Set.mem_ofPred_eq, List.mem_take_iff_getElem]
              exact ⟨j, by omega, rfl⟩, rfl⟩
          rcases hpq j (by omega) p[j] q[j] (List.getElem?_eq_getElem _) (List.getElem?_eq_getElem hjq) with h | h
          · rw [h]; exact hq'
          · rw [h, rv_neg]; exact Submodule.neg_mem _ hq'
        refine le_antisymm (one a b a2 b2 ih) (one b a b2 a2 ?_)
        intro j hj v w hv hw
        rcases ih j hj w v hw hv with h | h
        · exact Or.inl h.symm
        · right; rw [h, vNeg_vNeg]
      have hP : Outside d vs (a.take i) = Outside d vs' (b.take i) := by
        funext y
        unfold Outside
        rw [hlat, hspan]
      refine Selected.unique (d := d) (a3 i v hv) (hP ▸ b3 i w hw) (fun y hy => hy.1) ?_
      rintro y ⟨-, -, hy⟩ h0
      exact hy (h0 ▸ Submodule.zero_mem _)
  rw [List.forall₂_iff_get]
  refine ⟨by rw [a2, b2], ?_⟩
  intro i h1 h2
  exact key (i + 1) i (by omega) _ _ (List.getElem?_eq_getElem h1) (List.getElem?_eq_getElem h2)

/-- **C83** (idempotence) Reducing a reduced basis gives the same basis again, up to the signs of its vectors. -/
theorem C83_idempotent (hl3 : d = 1 ∨ d = 2 ∨ d = 3) (h : IsDot d dot) {vs : List (List Rat)}
    (hvs : vs.length = d) (hvl : ∀ v ∈ vs, v.length = d) (hi : Indep d vs) :
    ∃ N a b, (∀ fuel, N ≤ fuel → reducedLatticeBasis fuel vs dot 0 = .ok (some a) ∧
        reducedLatticeBasis fuel a dot 0 = .ok (some b)) ∧
      List.Forall₂ SameUpToSign a b := by
  obtain ⟨N1, a, c1, c2, c3, c4, -⟩ := C50_reduced_basis hl3 h hvs hvl hi
  obtain ⟨N, a', b, h1, h2⟩ := C83_unique hl3 h hvs hvl hi c2 c3 c4.symm
  have e : a = a' := by
    have e1 := c1 (max N N1) (le_max_right _ _)
    rw [(h1 (max N N1) (le_max_left _ _)).1] at e1
    exact (Option.some.inj (Outcome.ok.inj e1)).symm
  subst e
  exact ⟨N, a, b, h1, h2⟩

/-- **C83** In one and two dimensions the scalar products of the vectors of the result depend on the lattice
only. -/
theorem C83_gram (hl2 : d = 1 ∨ d = 2) (h : IsDot d dot) {vs vs' : List (List Rat)}
    (hvs : vs.length = d) (hvl : ∀ v ∈ vs, v.length = d) (hi : Indep d vs)
    (hvs' : vs'.length = d) (hvl' : ∀ v ∈ vs', v.length = d) (hlat : latticeOf d vs = latticeOf d vs') :
    ∃ N a b, (∀ fuel, N ≤ fuel → reducedLatticeBasis fuel vs dot 0 = .ok (some a) ∧
        reducedLatticeBasis fuel vs' dot 0 = .ok (some b)) ∧
      a.map (fun v => a.map (dot v)) = b.map (fun v => b.map (dot v)) := by
  have hl3 : d = 1 ∨ d = 2 ∨ d = 3 := by omega
  have hi' : Indep d vs' := indep_of_lattice hlat.symm (by rw [hvs, hvs']) hi
  obtain ⟨N, a, b, h1, h2⟩ := C83_unique hl3 h hvs hvl hi hvs' hvl' hlat
  obtain ⟨N1, a', c1, c2, c3, -, -, c6, -⟩ := C50_reduced_basis hl3 h hvs hvl hi
  obtain ⟨N2, b', e1, e2, e3, -, -, e6, -⟩ := C50_reduced_basis hl3 h hvs' hvl' hi'
  have ea : a = a' := by
    have x := (h1 (max N (max N1 N2)) (by omega)).1
    rw [c1 _ (by omega)] at x
    exact (Option.some.inj (Outcome.ok.inj x)).symm
  have eb : b = b' := by
    have x := (h1 (max N (max N1 N2)) (by omega)).2
    rw [e1 _ (by omega)] at x
    exact (Option.some.inj (Outcome.ok.inj x)).symm
  subst ea eb
  refine ⟨N, a, b, h1, ?_⟩
  obtain ⟨B, hB, hd⟩ := isDot_form h
  rcases hl2 with rfl | rfl
  · match a, b, h2 with
    | [v], [w], .cons h .nil =>
      have hv := c3 v (by simp)
      have hw := e3 w (by simp)
      simp only [List.map_cons, List.map_nil]
      rw [hd _ _ hv hv, hd _ _ hw hw]
      rcases h with h | h
      · rw [h]
      · rw [h, rv_neg, norm_neg']
    | [], _, _ => simp at c2
    | _ :: _ :: _, _, _ => simp at c2
  · match a, b, h2 with
    | [v, v1], [w, w1], .cons h (.cons h1 .nil) =>
      have hv := c3 v (by simp)
      have hw := e3 w (by simp)
      have hv1 := c3 v1 (by simp)
      have hw1 := e3 w1 (by simp)
      have o1 := c6 v [v1] rfl v1 (by simp)
      have o2 := e6 w [w1] rfl w1 (by simp)
      simp only [List.map_cons, List.map_nil]
      rw [hd _ _ hv hv1] at o1
      rw [hd _ _ hw hw1] at o2
      rw [hd _ _ hv hv, hd _ _ hw hw, hd _ _ hv hv1, hd _ _ hw hw1, hd _ _ hv1 hv, hd _ _ hw1 hw,
        hd _ _ hv1 hv1, hd _ _ hw1 hw1, hB.symm (rowVec 2 v1), hB.symm (rowVec 2 w1)]
      rcases h with h | h <;> rcases h1 with h1 | h1 <;> rw [h, h1] at o1 ⊢ <;>
        simp only [rv_neg, map_neg, LinearMap.neg_apply, neg_neg] at o1 ⊢
      all_goals
        have hz : B (rowVec 2 w) (rowVec 2 w1) = 0 := by linarith
        simp [hz]
    | [], _, _ => simp at c2
    | [_], _, _ => simp at c2
    | _ :: _ :: _ :: _, _, _ => simp at c2

/-- **C83** In space, if the first vector of the result is perpendicular to neither of the others, the result
is determined by the lattice up to one sign for all three vectors. -/
theorem C83_space (h : IsDot 3 dot) {vs vs' : List (List Rat)}
    (hvs : vs.length = 3) (hvl : ∀ v ∈ vs, v.length = 3) (hi : Indep 3 vs)
    (hvs' : vs'.length = 3) (hvl' : ∀ v ∈ vs', v.length = 3) (hlat : latticeOf 3 vs = latticeOf 3 vs') :
    ∃ N a b, (∀ fuel, N ≤ fuel → reducedLatticeBasis fuel vs dot 0 = .ok (some a) ∧
        reducedLatticeBasis fuel vs' dot 0 = .ok (some b)) ∧
      ((∀ a0 r, a = a0 :: r → ∀ v ∈ r, dot a0 v ≠ 0) → a = b ∨ a = b.map vNeg) := by
  have hl3 : 3 = 1 ∨ 3 = 2 ∨ 3 = 3 := by omega
  have hi' : Indep 3 vs' := indep_of_lattice hlat.symm (by rw [hvs, hvs']) hi
  obtain ⟨N, a, b, h1, h2⟩ := C83_unique hl3 h hvs hvl hi hvs' hvl' hlat
  obtain ⟨N1, a', c1, c2, c3, -, -, c6, -⟩ := C50_reduced_basis hl3 h hvs hvl hi
  obtain ⟨N2, b', e1, e2, e3, -, -, e6, -⟩ := C50_reduced_basis hl3 h hvs' hvl' hi'
  have ea : a = a' := by
    have x := (h1 (max N (max N1 N2)) (by omega)).1
    rw [c1 _ (by omega)] at x
    exact (Option.some.inj (Outcome.ok.inj x)).symm
  have eb : b = b' := by
    have x := (h1 (max N (max N1 N2)) (by omega)).2
    rw [e1 _ (by omega)] at x
    exact (Option.some.inj (Outcome.ok.inj x)).symm
  subst ea eb
  refine ⟨N, a, b, h1, ?_⟩
  obtain ⟨B, hB, hd⟩ := isDot_form h
  intro hnz
  match a, b, h2 with
  | [u, v, w], [u', v', w'], .cons hu (.cons hv (.cons hw .nil)) =>
    have lu := e3 u' (by simp)
    have key : ∀ x x', x ∈ [v, w] → x' ∈ [v', w'] → SameUpToSign x x' →
        (u = u' ∧ x = x') ∨ (u = vNeg u' ∧ x = vNeg x') := by
      intro x x' hx hx' hs
      have lx' : x'.length = 3 := e3 x' (List.mem_cons_of_mem _ hx')
      have lx : x.length = 3 := c3 x (List.mem_cons_of_mem _ hx)
      have lu1 : u.length = 3 := c3 u (by simp)
      have n1 := hnz u [v, w] rfl x hx
      have o1 := c6 u [v, w] rfl x hx
      have o2 := e6 u' [v', w'] rfl x' hx'
      rw [hd _ _ lu1 lx] at n1 o1
      rw [hd _ _ lu lx'] at o2
      rcases hu with h | h <;> rcases hs with h' | h'
      · exact Or.inl ⟨h, h'⟩
      · exfalso
        subst h h'
        rw [rv_neg, map_neg] at n1 o1
        exact n1 (by linarith)
      · exfalso
        subst h h'
        rw [rv_neg, map_neg, LinearMap.neg_apply] at n1 o1
        exact n1 (by linarith)
      · exact Or.inr ⟨h, h'⟩
    have k1 := key v v' (by simp) (by simp) hv
    have k2 := key w w' (by simp) (by simp) hw
    by_cases huu : u = u'
    · left
      have hne : u ≠ vNeg u' := by
        intro hc
        rw [huu] at hc
        have n1 := hnz u [v, w] rfl v (by simp)
        have lv : v.length = 3 := c3 v (by simp)
        rw [huu, hd _ _ lu lv] at n1
        have hz : rowVec 3 u' = -rowVec 3 u' := by rw [← rv_neg, ← hc]
        have h0 : B (rowVec 3 u') (rowVec 3 v) = -B (rowVec 3 u') (rowVec 3 v) := by
          conv_lhs => rw [hz]
          rw [map_neg, LinearMap.neg_apply]
        exact n1 (by linarith)
      rcases k1 with k1 | k1
      · rcases k2 with k2 | k2
        · rw [huu, k1.2, k2.2]
        · exact absurd k2.1 hne
      · exact absurd k1.1 hne
    · right
      rcases k1 with k1 | k1
      · exact absurd k1.1 huu
      · rcases k2 with k2 | k2
        · exact absurd k2.1 huu
        · rw [k1.1, k1.2, k2.2]; rfl
  | [], _, _ => simp at c2
  | [_], _, _ => simp at c2
  | [_, _], _, _ => simp at c2
  | _ :: _ :: _ :: _ :: _, _, _ => simp at c2

/-! ### witnesses and the sign -/

theorem lattice_swap (u v w : List Rat) : latticeOf 3 [u, v, w] = latticeOf 3 [u, vNeg v, w] := by
  have one : ∀ u v w : List Rat, latticeOf 3 [u, v, w] ≤ latticeOf 3 [u, vNeg v, w] := by
    intro u v w
    unfold latticeOf
    rw [Submodule.span_le]
    rintro _ ⟨x, hx, rfl⟩
    simp only [Set.mem_ofPred_eq, List.mem_cons, List.not_mem_nil, or_false] at hx
    rcases hx with rfl | rfl | rfl
    · exact Submodule.subset_span ⟨_, by simp, rfl⟩
    · rw [← vNeg_vNeg x, rv_neg]
      exact Submodule.neg_mem _ (Submodule.subset_span ⟨_, by simp [vNeg_vNeg], rfl⟩)
    · exact Submodule.subset_span ⟨_, by simp, rfl⟩
  refine le_antisymm (one u v w) ?_
  have := one u (vNeg v) w
  rwa [vNeg_vNeg] at this

theorem indep_ex3 : Indep 3 [[1, 0, 0], [0, 2, 0], [0, 1, 2]] := by
  unfold Indep
  rw [Fintype.linearIndependent_iff]
  intro g hg
  have e0 := congrFun hg 0
  have e1 := congrFun hg 1
  have e2 := congrFun hg 2
  replace hg : ∑ i : Fin 3, g i • rowVec 3 ([[1, 0, 0], [0, 2, 0], [0, 1, 2]] : List (List Rat))[i.1] = 0 := hg
  rw [Fin.sum_univ_three] at hg
  have e0 := congrFun hg 0
  have e1 := congrFun hg 1
  have e2 := congrFun hg 2
  simp [rowVec_apply, rent] at e0 e1 e2
  intro i
  match i with
  | ⟨0, _⟩ => exact e0
  | ⟨1, _⟩ => 
    have h2 : g 2 = 0 := e2
    show g 1 = 0
    rw [h2] at e1
    linarith
  | ⟨2, _⟩ => exact e2

/-- a case of the hypotheses: two bases of one lattice whose results differ by the sign of the second vector -/
example := C83_unique (Or.inr (Or.inr rfl)) stdDot_isDot (vs := [[1, 0, 0], [0, 2, 0], [0, 1, 2]])
  (vs' := [[1, 0, 0], vNeg [0, 2, 0], [0, 1, 2]]) rfl (by decide) indep_ex3 rfl (by decide) (lattice_swap _ _ _)

/-- six vectors of the hexagonal lattice have the least length; the choice does not depend on the basis, the sign
does -/
example : reducedLatticeBasis 20 [[1, 0], [5, 1]] hexDot 0 = .ok (some [[1, 1], [-1, 0]]) ∧
    reducedLatticeBasis 20 [[-1, 0], [0, 1]] hexDot 0 = .ok (some [[-1, -1], [1, 0]]) := by decide +kernel

/-- a lattice (body centred cubic) whose first reduced vector is perpendicular to neither of the others -/
example : reducedLatticeBasis 20 [[2, 0, 0], [0, 2, 0], [1, 1, 1]] stdDot 0 =
      .ok (some [[1, 1, 1], [-1, -1, 1], [-1, 1, -1]]) ∧
    stdDot [1, 1, 1] [-1, -1, 1] ≠ 0 ∧ stdDot [1, 1, 1] [-1, 1, -1] ≠ 0 := by decide +kernel

/-- **C83** The signs do depend on the basis one starts with, and in space so do the scalar products: for these
two bases of one lattice the angle between the last two vectors is acute for one result and obtuse for the
other. -/
theorem C83_signs_refuted : ∃ vs vs' : List (List Rat), Indep 3 vs ∧ latticeOf 3 vs = latticeOf 3 vs' ∧
    reducedLatticeBasis 20 vs stdDot 0 = .ok (some [[1, 0, 0], [0, 2, 0], [0, 1, 2]]) ∧
    reducedLatticeBasis 20 vs' stdDot 0 = .ok (some [[1, 0, 0], [0, -2, 0], [0, 1, 2]]) ∧
    0 < stdDot [0, 2, 0] [0, 1, 2] ∧ stdDot [0, -2, 0] [0, 1, 2] < 0 := by
  refine ⟨[[1, 0, 0], [0, 2, 0], [0, 1, 2]], [[1, 0, 0], [0, -2, 0], [0, 1, 2]], ?_, ?_, ?_, ?_, ?_, ?_⟩
  · exact indep_ex3
  · have := lattice_swap [1, 0, 0] [0, 2, 0] [0, 1, 2]
    rwa [show vNeg [0, 2, 0] = [0, -2, 0] by decide +kernel] at this
  · decide +kernel
  · decide +kernel
  · decide +kernel
  · decide +kernel

end Systre.Lattices
