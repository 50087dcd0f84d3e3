import Verif.Lemmas.PointGroup2

/-! `crystal_system_and_basis_2d` on a finite group. -/

namespace Systre.Finder
open Matrix

theorem forall₂_filter {α β : Type} {R : α → β → Prop} {p : α → Bool} {q : β → Bool} {l : List α} {l' : List β}
    (h : List.Forall₂ R l l') (hpq : ∀ a b, R a b → p a = q b) : List.Forall₂ R (l.filter p) (l'.filter q) := by
  induction h with
  | nil => exact .nil
  | @cons a b l l' hab _ ih =>
    rw [List.filter_cons, List.filter_cons, hpq a b hab]
    split_ifs
    · exact .cons hab ih
    · exact ih

/-- what is known about the details of an element of a finite group -/
structure IsDetails (d : OperatorDetails) (M : M2) : Prop where
  matrix : Rep d.matrix M
  order : d.order = orderOf M
  preserving : d.isOrientationPreserving = decide (0 ≤ M.det)
  axis : M.det = -1 → ∃ v, d.axis = some v ∧ v.length = 2 ∧ IsAxis M 1 (rowVec 2 v)
  clockwise : M.det = 1 → 2 < orderOf M → (d.isClockwise = true ↔ 0 ≤ M 0 1)

theorem details_group {Ms : List M2} (hg : IsFiniteGroupSet Ms) {m : Mat ℚ} {M : M2} (hM : M ∈ Ms) (hm : Rep m M) :
    ∃ d, OperatorDetails.from m = .ok d ∧ IsDetails d M := by
  obtain ⟨axis, c, h1, h2, h3⟩ := details_ok (by omega) (by omega) hm
  refine ⟨_, h3, hm, rfl, rfl, ?_, ?_⟩
  · intro hd
    obtain ⟨k, hk, hk1⟩ := hg.fin_order hM
    have hs : axisSign M = 1 := by unfold axisSign; rw [if_neg]; rintro ⟨h, _⟩; exact h rfl
    rcases operatorAxis_ok (by omega) hm with ⟨v, e1, e2, e3, e4⟩ | ⟨e1, e2⟩
    · rw [e1] at h1
      have := Outcome.ok.inj h1
      rw [hs] at e4
      exact ⟨v, this.symm, e2, e4⟩
    · exfalso; apply e2; rw [hs]; exact mirror_axis M hd hk hk1
  · intro hd ho
    have h01 : m.get 0 1 = .ok (M 0 1) := hm.entry 0 1
    unfold clockwise at h2
    rw [if_pos rfl, if_neg (by simp [hd]), if_pos (Or.inr ho), bind_ok h01] at h2
    have := Outcome.ok.inj h2
    rw [← this]
    simp

theorem omap_details {Ms : List M2} (hg : IsFiniteGroupSet Ms) : ∀ {ops : List (Mat ℚ)} {Ns : List M2},
    List.Forall₂ (fun m M => Rep m M) ops Ns → (∀ N ∈ Ns, N ∈ Ms) →
    ∃ ds, omap OperatorDetails.from ops = .ok ds ∧ List.Forall₂ IsDetails ds Ns
  | _, _, .nil, _ => ⟨[], rfl, .nil⟩
  | m :: ops, N :: Ns, .cons h hs, hsub => by
    obtain ⟨d, h1, h2⟩ := details_group hg (hsub N (by simp)) h
    obtain ⟨ds, h3, h4⟩ := omap_details hg hs (fun N hN => hsub N (by simp [hN]))
    exact ⟨d :: ds, by unfold omap; rw [h1]; simp only; rw [h3], .cons h2 h4⟩

theorem foldl_max_spec (l : List Nat) (a : Nat) : a ≤ l.foldl max a ∧ (∀ x ∈ l, x ≤ l.foldl max a) ∧
    (l.foldl max a = a ∨ l.foldl max a ∈ l) := by
  induction l generalizing a with
  | nil => simp
  | cons b l ih =>
    obtain ⟨h1, h2, h3⟩ := ih (max a b)
    rw [List.foldl_cons]
    refine ⟨by omega, ?_, ?_⟩
    · intro x hx
      rcases List.mem_cons.1 hx with rfl | hx
      · omega
      · exact h2 x hx
    · rcases h3 with h3 | h3
      · rw [h3]
        rcases Nat.le_total a b with h | h
        · right; rw [Nat.max_eq_right h]; simp
        · left; exact Nat.max_eq_left h
      · right; simp [h3]

theorem maxNat_spec {l : List Nat} (h : l ≠ []) : ∃ n, maxNat l = some n ∧ n ∈ l ∧ ∀ x ∈ l, x ≤ n := by
  cases l with
  | nil => exact absurd rfl h
  | cons a l =>
    obtain ⟨h1, h2, h3⟩ := foldl_max_spec l a
    refine ⟨_, rfl, ?_, ?_⟩
    · rcases h3 with h3 | h3
      · rw [h3]; simp
      · simp [h3]
    · intro x hx
      rcases List.mem_cons.1 hx with rfl | hx
      · exact h1
      · exact h2 x hx

theorem forall₂_find {α β : Type} {R : α → β → Prop} {p : α → Bool} {q : β → Bool} {l : List α} {l' : List β}
    (h : List.Forall₂ R l l') (hpq : ∀ a b, R a b → b ∈ l' → p a = q b) (hex : ∃ b ∈ l', q b = true) :
    ∃ a b, l.find? p = some a ∧ b ∈ l' ∧ q b = true ∧ R a b := by
  induction h with
  | nil => obtain ⟨b, hb, _⟩ := hex; simp at hb
  | @cons a b l l' hab _ ih =>
    rw [List.find?_cons]
    by_cases hp : p a = true
    · rw [hp]
      exact ⟨a, b, rfl, by simp, by rw [← hpq a b hab (by simp)]; exact hp, hab⟩
    · have hp : p a = false := by simpa using hp
      rw [hp]
      obtain ⟨a', b', h1, h2, h3, h4⟩ := ih (fun a b h h' => hpq a b h (by simp [h'])) (by
        obtain ⟨b', hb', hq⟩ := hex
        rcases List.mem_cons.1 hb' with rfl | hb'
        · rw [← hpq a b' hab (by simp), hp] at hq; simp at hq
        · exact ⟨b', hb', hq⟩)
      exact ⟨a', b', h1, by simp [h2], h3, h4⟩

theorem rot_disc {Ms : List M2} (hg : IsFiniteGroupSet Ms) {S : M2} (hS : S ∈ Ms) (hd : S.det = 1) (ho : 2 < orderOf S) :
    (S 0 0 - S 1 1) ^ 2 + 4 * (S 0 1 * S 1 0) < 0 := by
  obtain ⟨k, hk, hk1⟩ := hg.fin_order hS
  refine rot2 S hd hk hk1 ?_ ?_
  · rintro rfl; rw [orderOf_one] at ho; omega
  · rintro rfl
    have := orderOf_dvd_of_pow_eq_one (show (-1 : M2) ^ 2 = 1 by rw [neg_sq, one_pow])
    have := Nat.le_of_dvd (by omega) this
    omega

theorem big_order_rot {Ms : List M2} (hg : IsFiniteGroupSet Ms) {S : M2} (hS : S ∈ Ms) (ho : 2 < orderOf S) : S.det = 1 := by
  rcases hg.det_cases hS with h | h
  · exact h
  · exfalso
    obtain ⟨k, hk, hk1⟩ := hg.fin_order hS
    have h2 := mirror_sq S h hk hk1
    rw [← pow_two] at h2
    have := Nat.le_of_dvd (by omega) (orderOf_dvd_of_pow_eq_one h2)
    omega

/-- a rotation or its inverse is clockwise -/
theorem exists_clockwise {Ms : List M2} (hg : IsFiniteGroupSet Ms) {S : M2} (hS : S ∈ Ms) (ho : 2 < orderOf S) :
    ∃ T ∈ Ms, T.det = 1 ∧ 0 ≤ T 0 1 ∧ orderOf T = orderOf S := by
  have hd := big_order_rot hg hS ho
  by_cases h : 0 ≤ S 0 1
  · exact ⟨S, hS, hd, h, rfl⟩
  · have hpow : S * S ^ (orderOf S - 1) = 1 := by
      rw [← pow_succ', show orderOf S - 1 + 1 = orderOf S by omega, pow_orderOf_eq_one]
    set T := S ^ (orderOf S - 1) with hT
    have hTm : T ∈ Ms := hg.pow_mem' hS (by omega)
    have hTd : T.det = 1 := by rw [hT, det_pow, hd, one_pow]
    have hadj : T = S.adjugate := by
      have : S.adjugate * (S * T) = S.adjugate * 1 := by rw [hpow]
      rwa [← mul_assoc, adjugate_mul, hd, one_smul, one_mul, mul_one] at this
    refine ⟨T, hTm, hTd, ?_, ?_⟩
    · rw [hadj, adjugate_fin_two]
      simp; linarith
    · rw [hT]
      exact Nat.Coprime.orderOf_pow ((Nat.coprime_self_sub_right (by omega)).2 (Nat.coprime_one_right _))

theorem order_three {Ms : List M2} (hg : IsFiniteGroupSet Ms) {S : M2} (hS : S ∈ Ms) (ho : orderOf S = 6) :
    S ^ 2 ∈ Ms ∧ orderOf (S ^ 2) = 3 := by
  refine ⟨hg.pow_mem' hS (by omega), ?_⟩
  rw [orderOf_pow' S (by omega), ho]; rfl

theorem neg_order {S : M2} {k : Nat} (hS : orderOf S = 3) (hk : k = 6) : orderOf (-S) = k := by
  subst hk
  have hc : Commute (-1 : M2) S := by rw [commute_iff_eq]; simp
  have h2 : orderOf (-1 : M2) = 2 := by
    rw [orderOf_eq_iff (by omega)]
    refine ⟨by rw [neg_sq, one_pow], fun m h1 h3 h4 => ?_⟩
    have : m = 1 := by omega
    subst this
    rw [pow_one] at h4
    have := congrFun (congrFun h4 0) 0
    norm_num [neg_apply] at this
  have := hc.orderOf_mul_eq_mul_orderOf_of_coprime (by rw [h2, hS]; decide)
  rw [h2, hS] at this
  simpa using this

theorem det_rows2 (x y : Fin 2 → ℚ) : (Matrix.of ![x, y]).det = x 0 * y 1 - x 1 * y 0 := by
  rw [det_fin_two]; simp

theorem hstack2 {x y : Mat ℚ} {X Y : Fin 2 → ℚ} (hx : Rep x (colM X)) (hy : Rep y (colM Y)) :
    ∃ b, Mat.hstack [x, y] = .ok b ∧ isLeftHanded b = .ok (decide ((Matrix.of ![X, Y]).det < 0)) := by
  obtain ⟨mh, hh1, hh2⟩ := hstack_basis (n := 2) (bs := [⟨x⟩, ⟨y⟩]) rfl ![X, Y] (by
      intro k; fin_cases k
      · exact hx
      · exact hy)
  refine ⟨mh, hh1, ?_⟩
  rw [isLeftHanded_ok hh2, ← det_transpose]
  rfl

/-- the last step: the second vector is reversed if needed -/
theorem finish {x y : Mat ℚ} {X Y : Fin 2 → ℚ} (hx : Rep x (colM X)) (hy : Rep y (colM Y)) (hd : (Matrix.of ![X, Y]).det ≠ 0)
    (s : CrystalSystem) : ∃ (y' : Mat ℚ) (Y' : Fin 2 → ℚ), Rep y' (colM Y') ∧ 0 < (Matrix.of ![X, Y']).det ∧
      (((Matrix.of ![X, Y]).det < 0 ∧ Y' = -Y) ∨ (0 < (Matrix.of ![X, Y]).det ∧ Y' = Y)) ∧
      (do
        let b ← Mat.hstack [x, y]
        let l ← isLeftHanded b
        if l then do
          let ny ← y.neg
          .ok (s, [x, ny])
        else .ok (s, [x, y]) : Outcome (CrystalSystem × List (Mat ℚ))) = .ok (s, [x, y']) := by
  obtain ⟨b, h1, h2⟩ := hstack2 hx hy
  rw [bind_ok h1, bind_ok h2]
  by_cases hneg : (Matrix.of ![X, Y]).det < 0
  · obtain ⟨ny, h3, h4⟩ := rep_neg hy
    refine ⟨ny, -Y, h4, ?_, Or.inl ⟨hneg, rfl⟩, by simp [hneg, bind_ok h3]⟩
    rw [det_rows2] at hneg ⊢
    simp; linarith
  · have hpos : 0 < (Matrix.of ![X, Y]).det := lt_of_le_of_ne (not_lt.1 hneg) hd.symm
    exact ⟨y, Y, hy, hpos, Or.inr ⟨hpos, rfl⟩, by simp [hneg]⟩

theorem axis_col {v : List ℚ} (hl : v.length = 2) : ∃ x, Mat.col v = .ok x ∧ Rep x (colM (rowVec 2 v)) := by
  apply col_ofFn
  match v, hl with
  | [a, b], _ => simp [rowVec]

/-- Everything that is claimed about the answer. -/
structure Answer (Ms : List M2) (s : CrystalSystem) (X Y : Fin 2 → ℚ) : Prop where
  right : 0 < (Matrix.of ![X, Y]).det
  hexagonal : s = .hexagonal ↔ ∃ M ∈ Ms, orderOf M = 3
  square : s = .square ↔ ∃ M ∈ Ms, orderOf M = 4
  rectangular : s = .rectangular ↔ (∀ M ∈ Ms, orderOf M ≤ 2) ∧ ∃ M ∈ Ms, M.det = -1
  oblique : s = .oblique ↔ ∀ M ∈ Ms, orderOf M ≤ 2 ∧ M.det = 1
  mirror : (∃ M ∈ Ms, M.det = -1) → ∃ M ∈ Ms, M.det = -1 ∧ M.mulVec X = X
  axes : s = .rectangular → ∀ M ∈ Ms, (M.mulVec X = X ∨ M.mulVec X = -X) ∧ (M.mulVec Y = Y ∨ M.mulVec Y = -Y)
  turn : s = .square ∨ s = .hexagonal → ∃ R : M2, Y = R.mulVec X ∧ orderOf R = (if s = .square then 4 else 6) ∧ -R ∈ Ms

theorem system_facts {Ms : List M2} (hg : IsFiniteGroupSet Ms) {n : Nat} (hn : ∃ M ∈ Ms, orderOf M = n)
    (hmax : ∀ M ∈ Ms, orderOf M ≤ n) {c : Nat} (hc : 0 < c ↔ ∃ M ∈ Ms, M.det = -1) :
    (systemOf n c = .hexagonal ↔ ∃ M ∈ Ms, orderOf M = 3) ∧
    (systemOf n c = .square ↔ ∃ M ∈ Ms, orderOf M = 4) ∧
    (systemOf n c = .rectangular ↔ (∀ M ∈ Ms, orderOf M ≤ 2) ∧ ∃ M ∈ Ms, M.det = -1) ∧
    (systemOf n c = .oblique ↔ ∀ M ∈ Ms, orderOf M ≤ 2 ∧ M.det = 1) ∧
    (n = 1 ∨ n = 2 ∨ n = 3 ∨ n = 4 ∨ n = 6) := by
  obtain ⟨S, hS, hSn⟩ := hn
  have hcases := hg.order_cases (by omega) hS
  rw [hSn] at hcases
  have h3 : (∃ M ∈ Ms, orderOf M = 3) ↔ (n = 3 ∨ n = 6) := by
    constructor
    · rintro ⟨M, hM, h⟩
      have h1 := hmax M hM
      rcases hcases with h2 | h2 | h2 | h2 | h2
      · omega
      · omega
      · exact Or.inl h2
      · exact absurd (not_three_four hg hM hS (big_order_rot hg hM (by omega)) (big_order_rot hg hS (by omega)) h (by omega)) (by simp)
      · exact Or.inr h2
    · rintro (h | h)
      · exact ⟨S, hS, by omega⟩
      · exact ⟨S ^ 2, order_three hg hS (by omega)⟩
  have h4 : (∃ M ∈ Ms, orderOf M = 4) ↔ n = 4 := by
    constructor
    · rintro ⟨M, hM, h⟩
      have h1 := hmax M hM
      rcases hcases with h2 | h2 | h2 | h2 | h2
      · omega
      · omega
      · omega
      · exact h2
      · obtain ⟨a, b⟩ := order_three hg hS (by omega)
        exact absurd (not_three_four hg a hM (big_order_rot hg a (by omega)) (big_order_rot hg hM (by omega)) b h) (by simp)
    · intro h; exact ⟨S, hS, by omega⟩
  have h2 : (∀ M ∈ Ms, orderOf M ≤ 2) ↔ n ≤ 2 := by
    constructor
    · intro h; have := h S hS; omega
    · intro h M hM; have := hmax M hM; omega
  have hdet : (∀ M ∈ Ms, M.det = 1) ↔ ¬ 0 < c := by
    rw [hc]
    constructor
    · rintro h ⟨M, hM, h'⟩; rw [h M hM] at h'; norm_num at h'
    · intro h M hM
      exact (hg.det_cases hM).resolve_right (fun h' => h ⟨M, hM, h'⟩)
  rw [h3, h4, h2, ← hc]
  have hob : (∀ M ∈ Ms, orderOf M ≤ 2 ∧ M.det = 1) ↔ n ≤ 2 ∧ ¬ 0 < c := by
    rw [← hdet, ← h2]
    exact ⟨fun h => ⟨fun M hM => (h M hM).1, fun M hM => (h M hM).2⟩, fun h M hM => ⟨h.1 M hM, h.2 M hM⟩⟩
  rw [hob]
  unfold systemOf
  rcases hcases with h | h | h | h | h <;> subst h <;> by_cases hc0 : c = 0 <;> simp [hc0, Nat.pos_iff_ne_zero]

theorem order_four_neg {T : M2} (hT : orderOf T = 4) : orderOf (-T) = 4 := by
  refine orderOf_eq_prime_pow (x := -T) (p := 2) (n := 1) ?_ ?_
  · rw [pow_one, neg_sq]
    intro h
    have := Nat.le_of_dvd (by omega) (orderOf_dvd_of_pow_eq_one h)
    omega
  · show (-T) ^ 4 = 1
    rw [Even.neg_pow (by decide), ← hT, pow_orderOf_eq_one]

/-- The elements of a group without rotations of order above two, given a mirror. -/
theorem quad {Ms : List M2} (hg : IsFiniteGroupSet Ms) (h2 : ∀ M ∈ Ms, orderOf M ≤ 2) {M0 M : M2} (h0 : M0 ∈ Ms) (hd0 : M0.det = -1)
    (hM : M ∈ Ms) : M = 1 ∨ M = -1 ∨ M = M0 ∨ M = -M0 := by
  have rot : ∀ N ∈ Ms, N.det = 1 → N = 1 ∨ N = -1 := by
    intro N hN hd
    refine invol_rot N hd ?_
    have h3 := h2 N hN
    have h4 := hg.order_pos hN
    have h5 : orderOf N ∣ 2 := by
      have : orderOf N = 1 ∨ orderOf N = 2 := by omega
      rcases this with h | h <;> rw [h] <;> norm_num
    rw [← pow_two]; exact orderOf_dvd_iff_pow_eq_one.1 h5
  rcases hg.det_cases hM with hd | hd
  · rcases rot M hM hd with h | h <;> simp [h]
  · obtain ⟨k, hk, hk1⟩ := hg.fin_order h0
    have hsq := mirror_sq M0 hd0 hk hk1
    have hback : M = M * M0 * M0 := by rw [mul_assoc, hsq, mul_one]
    rcases rot (M * M0) (hg.mul _ hM _ h0) (by rw [det_mul, hd, hd0]; norm_num) with h | h <;> rw [h] at hback
    · right; right; left; simpa using hback
    · right; right; right; simpa using hback

theorem quad_axes {Ms : List M2} (hg : IsFiniteGroupSet Ms) (h2 : ∀ M ∈ Ms, orderOf M ≤ 2) {M0 : M2} (h0 : M0 ∈ Ms) (hd0 : M0.det = -1)
    {X Y : Fin 2 → ℚ} (hX : M0.mulVec X = X) (hY : M0.mulVec Y = -Y) :
    ∀ M ∈ Ms, (M.mulVec X = X ∨ M.mulVec X = -X) ∧ (M.mulVec Y = Y ∨ M.mulVec Y = -Y) := by
  intro M hM
  rcases quad hg h2 h0 hd0 hM with rfl | rfl | rfl | rfl <;> simp [neg_mulVec, hX, hY]

theorem quad_det {M0 : M2} {X Y : Fin 2 → ℚ} (hX : M0.mulVec X = X) (hY : M0.mulVec Y = -Y) (hX0 : X ≠ 0) (hY0 : Y ≠ 0) :
    (Matrix.of ![X, Y]).det ≠ 0 := by
  intro h
  rw [det_rows2, sub_eq_zero] at h
  obtain ⟨c, rfl⟩ := par2 hX0 h
  rw [mulVec_smul, hX] at hY
  apply hY0
  funext i
  have := congrFun hY i
  simp only [Pi.neg_apply] at this
  simp only [Pi.zero_apply]
  linarith

theorem crystal_main {Ms : List M2} (hg : IsFiniteGroupSet Ms) (hnt : ¬ TwinMirrors Ms) {ops : List (Mat ℚ)}
    (hops : List.Forall₂ (fun m M => Rep m M) ops Ms) :
    ∃ s x y X Y, crystalSystemAndBasis2d ops = .ok (s, [x, y]) ∧ Rep x (colM X) ∧ Rep y (colM Y) ∧ Answer Ms s X Y := by
  obtain ⟨ds, hds, hrel⟩ := omap_details hg hops (fun _ h => h)
  have hlen : ds.map (·.order) = Ms.map orderOf := by
    have : ∀ {ds : List OperatorDetails} {Ns : List M2}, List.Forall₂ IsDetails ds Ns → ds.map (·.order) = Ns.map orderOf := by
      intro ds Ns h
      induction h with
      | nil => rfl
      | cons h _ ih => simp [h.order, ih]
    exact this hrel
  obtain ⟨n, hn1, hn2, hn3⟩ := maxNat_spec (l := ds.map (·.order)) (by
    rw [hlen]; simpa using hg.nonempty)
  rw [hlen] at hn2 hn3
  have hnex : ∃ M ∈ Ms, orderOf M = n := by simpa using hn2
  have hmax : ∀ M ∈ Ms, orderOf M ≤ n := fun M hM => hn3 _ (List.mem_map.2 ⟨M, hM, rfl⟩)
  have hmir : List.Forall₂ IsDetails (ds.filter (fun d => !d.isOrientationPreserving)) (Ms.filter (fun M => decide (M.det < 0))) :=
    forall₂_filter hrel (fun d M h => by rw [h.preserving, ← decide_not, decide_eq_decide, not_le])
  have hRs : ∀ M, M ∈ Ms.filter (fun M => decide (M.det < 0)) ↔ M ∈ Ms ∧ M.det = -1 := by
    intro M
    rw [List.mem_filter, decide_eq_true_eq]
    constructor
    · rintro ⟨h, h'⟩
      exact ⟨h, (hg.det_cases h).resolve_left (fun e => by rw [e] at h'; norm_num at h')⟩
    · rintro ⟨h, h'⟩; exact ⟨h, by rw [h']; norm_num⟩
  unfold TwinMirrors at hnt
  have hfacts := system_facts hg hnex hmax (c := (ds.filter (fun d => !d.isOrientationPreserving)).length) (by
    rw [hmir.length_eq, List.length_pos_iff_exists_mem]
    simp only [hRs])
  generalize hmirs : ds.filter (fun d => !d.isOrientationPreserving) = mirrors at *
  generalize hRsd : Ms.filter (fun M => decide (M.det < 0)) = Rs at *
  obtain ⟨f1, f2, f3, f4, f5⟩ := hfacts
  -- the first vector
  have hx : ∃ x X, basisX mirrors = .ok x ∧ Rep x (colM X) ∧ X ≠ 0 ∧
      ((Rs = [] ∧ X = ![1, 0]) ∨ (∃ M Rs', Rs = M :: Rs' ∧ IsAxis M 1 X)) := by
    cases hmir with
    | nil =>
      obtain ⟨x, h1, h2⟩ := col_ofFn ([1, 0] : List ℚ) ![1, 0] (by simp)
      exact ⟨x, _, h1, h2, by intro h; have := congrFun h 0; simp at this, Or.inl ⟨rfl, rfl⟩⟩
    | @cons d M ds' Rs' hd hds' =>
      obtain ⟨v, h1, h2, h3⟩ := hd.axis ((hRs M).1 (by simp)).2
      obtain ⟨x, h4, h5⟩ := axis_col h2
      refine ⟨x, _, ?_, h5, h3.1, Or.inr ⟨M, Rs', rfl, h3⟩⟩
      unfold basisX
      simp only [h1]
      rw [bind_ok (show unwrap (some v) = .ok v from rfl)]
      exact h4
  obtain ⟨x, X, hx1, hx2, hX0, hX⟩ := hx
  have hmirror : (∃ M ∈ Ms, M.det = -1) → ∃ M ∈ Ms, M.det = -1 ∧ M.mulVec X = X := by
    rintro ⟨M, hM⟩
    rcases hX with ⟨h, -⟩ | ⟨N, Rs', h, hN⟩
    · have := (hRs M).2 hM; rw [h] at this; simp at this
    · obtain ⟨h1, h2⟩ := (hRs N).1 (by rw [h]; simp)
      exact ⟨N, h1, h2, by have := (hN.2 X).2 ⟨1, (one_smul _ _).symm⟩; rwa [one_smul] at this⟩
  have hstart : ∀ y, basisY ds mirrors (if n = 6 then 3 else n) x = .ok y →
      crystalSystemAndBasis2d ops = (do
        let b ← Mat.hstack [x, y]
        let l ← isLeftHanded b
        if l then do
          let ny ← y.neg
          .ok (systemOf n mirrors.length, [x, ny])
        else .ok (systemOf n mirrors.length, [x, y])) := by
    intro y hy
    unfold crystalSystemAndBasis2d
    rw [bind_ok hds]
    simp only
    rw [hmirs, hn1, bind_ok (show unwrap (some n) = .ok n from rfl), bind_ok hx1, bind_ok hy]
  have hanswer : ∀ {y : Mat ℚ} {Y : Fin 2 → ℚ}, basisY ds mirrors (if n = 6 then 3 else n) x = .ok y → Rep y (colM Y) →
      (Matrix.of ![X, Y]).det ≠ 0 →
      (systemOf n mirrors.length = .rectangular → ∀ M ∈ Ms, (M.mulVec X = X ∨ M.mulVec X = -X) ∧ (M.mulVec Y = Y ∨ M.mulVec Y = -Y)) →
      (systemOf n mirrors.length = .square ∨ systemOf n mirrors.length = .hexagonal → (Matrix.of ![X, Y]).det < 0 ∧
        ∃ R : M2, -Y = R.mulVec X ∧ orderOf R = (if systemOf n mirrors.length = .square then 4 else 6) ∧ -R ∈ Ms) →
      ∃ s x y X Y, crystalSystemAndBasis2d ops = .ok (s, [x, y]) ∧ Rep x (colM X) ∧ Rep y (colM Y) ∧ Answer Ms s X Y := by
    intro y Y h1 h2 h3 h4 h5
    obtain ⟨y', Y', e1, e2, e3, e4⟩ := finish hx2 h2 h3 (systemOf n mirrors.length)
    refine ⟨systemOf n mirrors.length, x, y', X, Y', (hstart y h1).trans e4, hx2, e1, e2, f1, f2, f3, f4, hmirror, ?_, ?_⟩
    · intro hs M hM
      obtain ⟨h6, h7⟩ := h4 hs M hM
      refine ⟨h6, ?_⟩
      rcases e3 with ⟨-, rfl⟩ | ⟨-, rfl⟩
      · rw [mulVec_neg, neg_neg, neg_inj, neg_eq_iff_eq_neg]; exact h7
      · exact h7
    · intro hs
      obtain ⟨h6, h7⟩ := h5 hs
      rcases e3 with ⟨-, rfl⟩ | ⟨h8, -⟩
      · exact h7
      · exact absurd h6 (not_lt.2 h8.le)
  by_cases hn : n ≤ 2
  · have hord : ∀ M ∈ Ms, orderOf M ≤ 2 := fun M hM => (hmax M hM).trans hn
    have hm : ¬ (if n = 6 then 3 else n) ≥ 3 := by rw [if_neg (by omega)]; omega
    have hnot : ¬ (systemOf n mirrors.length = .square ∨ systemOf n mirrors.length = .hexagonal) := by
      rw [f1, f2]
      rintro (⟨M, hM, h⟩ | ⟨M, hM, h⟩) <;> have := hord M hM <;> omega
    have hmirY : ∀ {M0 : M2} {y : Mat ℚ} {Y : Fin 2 → ℚ}, M0 ∈ Ms → M0.det = -1 → M0.mulVec X = X → M0.mulVec Y = -Y → Y ≠ 0 →
        basisY ds mirrors (if n = 6 then 3 else n) x = .ok y → Rep y (colM Y) →
        ∃ s x y X Y, crystalSystemAndBasis2d ops = .ok (s, [x, y]) ∧ Rep x (colM X) ∧ Rep y (colM Y) ∧ Answer Ms s X Y := by
      intro M0 y Y h1 h2 h3 h4 h5 h6 h7
      exact hanswer h6 h7 (quad_det h3 h4 hX0 h5) (fun _ => quad_axes hg hord h1 h2 h3 h4) (fun h => absurd h hnot)
    cases hmir with
    | nil =>
      rcases hX with ⟨-, rfl⟩ | ⟨_, _, h, -⟩
      swap
      · cases h
      obtain ⟨y, h1, h2⟩ := col_ofFn ([0, 1] : List ℚ) ![0, 1] (by simp)
      have h00 : x.get 0 0 = .ok 1 := hx2.entry 0 0
      refine hanswer (y := y) (Y := ![0, 1]) ?_ h2 (by rw [det_rows2]; simp) ?_ (fun h => absurd h hnot)
      · unfold basisY
        rw [if_neg hm]
        simp only
        rw [bind_ok h00, if_neg (by norm_num), bind_ok h1]
      · intro h
        obtain ⟨M, hM⟩ := (f3.1 h).2
        have := (hRs M).2 hM
        simp at this
    | @cons d0 M0 ds0 Rs0 hd0 hds0 =>
      rcases hX with ⟨h, -⟩ | ⟨M0', _, h, hax⟩
      · cases h
      cases h
      obtain ⟨hM0, hM0d⟩ := (hRs M0).1 (by simp)
      obtain ⟨k, hk, hk1⟩ := hg.fin_order hM0
      have hsq := mirror_sq M0 hM0d hk hk1
      have hMX : M0.mulVec X = X := by have := (hax.2 X).2 ⟨1, (one_smul _ _).symm⟩; rwa [one_smul] at this
      cases hds0 with
      | nil =>
        -- one mirror
        have h00 : x.get 0 0 = .ok (X 0) := hx2.entry 0 0
        have ht : ∃ (t : Mat ℚ) (T : Fin 2 → ℚ), (if X 0 = 0 then Mat.col [1, 0] else Mat.col [0, 1]) = .ok t ∧ Rep t (colM T) ∧
            X 0 * T 1 ≠ X 1 * T 0 := by
          by_cases hX00 : X 0 = 0
          · obtain ⟨t, h1, h2⟩ := col_ofFn ([1, 0] : List ℚ) ![1, 0] (by simp)
            refine ⟨t, _, by rw [if_pos hX00]; exact h1, h2, ?_⟩
            intro h
            apply hX0
            funext i
            fin_cases i
            · exact hX00
            · simpa [hX00] using h.symm
          · obtain ⟨t, h1, h2⟩ := col_ofFn ([0, 1] : List ℚ) ![0, 1] (by simp)
            refine ⟨t, _, by rw [if_neg hX00]; exact h1, h2, ?_⟩
            simpa using hX00
        obtain ⟨t, T, ht1, ht2, ht3⟩ := ht
        obtain ⟨mt, h1, h2⟩ := mul_col hd0.matrix ht2
        obtain ⟨y, h3, h4⟩ := rep_sub ht2 h2
        have hY : M0.mulVec (T - M0.mulVec T) = -(T - M0.mulVec T) := by
          rw [mulVec_sub, mulVec_mulVec, hsq, one_mulVec]; simp
        refine hmirY (y := y) hM0 hM0d hMX hY ?_ ?_ h4
        · intro h
          have := fixes_two hMX (sub_eq_zero.1 h).symm ht3
          rw [this, det_one] at hM0d
          norm_num at hM0d
        · unfold basisY
          rw [if_neg hm]
          simp only
          rw [bind_ok h00]
          split_ifs at ht1 ⊢
          · rw [bind_ok ht1, bind_ok h1]
            exact h3
          · rw [bind_ok ht1, bind_ok h1]
            exact h3
      | @cons d1 M1 ds1 Rs1 hd1 hds1 =>
        obtain ⟨hM1, hM1d⟩ := (hRs M1).1 (by simp)
        have hne : M1 ≠ M0 := by
          rintro rfl
          exact hnt ⟨hord, _, _, rfl⟩
        have hM1' : M1 = -M0 := by
          rcases quad hg hord hM0 hM0d hM1 with h | h | h | h
          · rw [h, det_one] at hM1d; norm_num at hM1d
          · rw [h, det_neg, det_one] at hM1d; norm_num at hM1d
          · exact absurd h hne
          · exact h
        obtain ⟨v, h1, h2, h3⟩ := hd1.axis hM1d
        obtain ⟨y, h4, h5⟩ := axis_col h2
        have hY : M1.mulVec (rowVec 2 v) = rowVec 2 v := by
          have := (h3.2 (rowVec 2 v)).2 ⟨1, (one_smul _ _).symm⟩; rwa [one_smul] at this
        rw [hM1', neg_mulVec, neg_eq_iff_eq_neg] at hY
        refine hmirY (y := y) hM0 hM0d hMX hY h3.1 ?_ h5
        unfold basisY
        rw [if_neg hm]
        simp only [h1]
        rw [bind_ok (show unwrap (some v) = .ok v from rfl)]
        exact h4
  · -- a rotation of order three, four or six
    set m := (if n = 6 then 3 else n) with hm
    have hm34 : (m = 3 ∧ (n = 3 ∨ n = 6)) ∨ (m = 4 ∧ n = 4) := by
      rw [hm]; split_ifs <;> omega
    have hSm : ∃ S ∈ Ms, orderOf S = m := by
      rcases hm34 with ⟨h, h'⟩ | ⟨h, h'⟩
      · rw [h, ← f1]; unfold systemOf; rw [if_pos h']
      · rw [h, ← f2]; unfold systemOf; rw [if_neg (by omega), if_pos h']
    obtain ⟨S, hS, hSo⟩ := hSm
    have hm3 : 3 ≤ m := by omega
    obtain ⟨T, hT, hTd, hTc, hTo⟩ := exists_clockwise hg hS (by omega)
    obtain ⟨d, T', hf, hT', hq, hd⟩ := forall₂_find (p := fun s => s.isOrientationPreserving && s.isClockwise && decide (s.order = m))
      (q := fun M : M2 => decide (M.det = 1 ∧ 0 ≤ M 0 1 ∧ orderOf M = m)) hrel (by
        intro d M h hM
        by_cases ho : orderOf M = m
        · have hdet := big_order_rot hg hM (by omega)
          have hcl := h.clockwise hdet (by omega)
          rw [h.preserving, h.order]
          by_cases hc : 0 ≤ M 0 1
          · rw [hcl.2 hc]; simp [hdet, ho, hc]
          · have : d.isClockwise = false := by
              rw [Bool.eq_false_iff]; exact fun h => hc (hcl.1 h)
            rw [this]; simp [hc]
        · rw [h.order]; simp [ho]) ⟨T, hT, by simp [hTd, hTc, hTo, hSo]⟩
    simp only [decide_eq_true_eq] at hq
    obtain ⟨hT'd, hT'c, hT'o⟩ := hq
    obtain ⟨y, h1, h2⟩ := mul_col hd.matrix hx2
    have hdisc := rot_disc hg hT' hT'd (by omega)
    have hlt : (Matrix.of ![X, T'.mulVec X]).det < 0 := by
      have hv : X 0 ≠ 0 ∨ X 1 ≠ 0 := by
        by_contra hc; push Not at hc
        exact hX0 (funext fun i => by fin_cases i; exacts [hc.1, hc.2])
      have h3 := turn2 T' hdisc (X 0) (X 1) hv
      have h4 : T' 1 0 < 0 := by
        by_contra hc
        push Not at hc
        nlinarith [mul_nonneg hT'c hc, sq_nonneg (T' 0 0 - T' 1 1)]
      rw [det_rows2]
      have e : X 0 * T'.mulVec X 1 - X 1 * T'.mulVec X 0 =
          X 0 * (T' 1 0 * X 0 + T' 1 1 * X 1) - X 1 * (T' 0 0 * X 0 + T' 0 1 * X 1) := by
        simp [mulVec, dotProduct, Fin.sum_univ_two]
      rw [e]
      by_contra hc
      push Not at hc
      nlinarith
    refine hanswer (y := y) (Y := T'.mulVec X) ?_ h2 hlt.ne ?_ ?_
    · unfold basisY
      rw [if_pos hm3, hf, bind_ok (show unwrap (some d) = .ok d from rfl)]
      exact h1
    · intro h
      have := (f3.1 h).1 S hS
      omega
    · intro _
      refine ⟨hlt, -T', by rw [neg_mulVec], ?_, by rw [neg_neg]; exact hT'⟩
      rcases hm34 with ⟨h, h'⟩ | ⟨h, h'⟩
      · rw [if_neg (by unfold systemOf; rw [if_pos h']; simp)]
        exact neg_order (by omega) rfl
      · rw [if_pos (by unfold systemOf; rw [if_neg (by omega), if_pos h'])]
        exact order_four_neg (by omega)

theorem crystal_twin {Ms : List M2} (hg : IsFiniteGroupSet Ms) (ht : TwinMirrors Ms) {ops : List (Mat ℚ)}
    (hops : List.Forall₂ (fun m M => Rep m M) ops Ms) :
    ∃ x y X Y, crystalSystemAndBasis2d ops = .ok (.rectangular, [x, y]) ∧ Rep x (colM X) ∧ Rep y (colM Y) ∧
      (∃ M ∈ Ms, M.det = -1 ∧ M.mulVec X = X) ∧ X ≠ 0 ∧ Y ≠ 0 ∧ (Matrix.of ![X, Y]).det = 0 := by
  obtain ⟨hord, M0, rest, htw⟩ := ht
  obtain ⟨ds, hds, hrel⟩ := omap_details hg hops (fun _ h => h)
  have hlen : ds.map (·.order) = Ms.map orderOf := by
    have : ∀ {ds : List OperatorDetails} {Ns : List M2}, List.Forall₂ IsDetails ds Ns → ds.map (·.order) = Ns.map orderOf := by
      intro ds Ns h
      induction h with
      | nil => rfl
      | cons h _ ih => simp [h.order, ih]
    exact this hrel
  obtain ⟨n, hn1, hn2, hn3⟩ := maxNat_spec (l := ds.map (·.order)) (by
    rw [hlen]; simpa using hg.nonempty)
  rw [hlen] at hn2 hn3
  have hnex : ∃ M ∈ Ms, orderOf M = n := by simpa using hn2
  have hmax : ∀ M ∈ Ms, orderOf M ≤ n := fun M hM => hn3 _ (List.mem_map.2 ⟨M, hM, rfl⟩)
  have hmir : List.Forall₂ IsDetails (ds.filter (fun d => !d.isOrientationPreserving)) (Ms.filter (fun M => decide (M.det < 0))) :=
    forall₂_filter hrel (fun d M h => by rw [h.preserving, ← decide_not, decide_eq_decide, not_le])
  have hRs : ∀ M, M ∈ Ms.filter (fun M => decide (M.det < 0)) ↔ M ∈ Ms ∧ M.det = -1 := by
    intro M
    rw [List.mem_filter, decide_eq_true_eq]
    constructor
    · rintro ⟨h, h'⟩
      exact ⟨h, (hg.det_cases h).resolve_left (fun e => by rw [e] at h'; norm_num at h')⟩
    · rintro ⟨h, h'⟩; exact ⟨h, by rw [h']; norm_num⟩
  have hfacts := system_facts hg hnex hmax (c := (ds.filter (fun d => !d.isOrientationPreserving)).length) (by
    rw [hmir.length_eq, List.length_pos_iff_exists_mem]
    simp only [hRs])
  generalize hmirs : ds.filter (fun d => !d.isOrientationPreserving) = mirrors at *
  obtain ⟨f1, f2, f3, f4, f5⟩ := hfacts
  have hn2 : n ≤ 2 := by
    obtain ⟨M, hM, h⟩ := hnex
    rw [← h]; exact hord M hM
  have hm : ¬ (if n = 6 then 3 else n) ≥ 3 := by rw [if_neg (by omega)]; omega
  obtain ⟨hM0, hM0d⟩ := (hRs M0).1 (by rw [htw]; simp)
  have hsys : systemOf n mirrors.length = .rectangular := f3.2 ⟨hord, M0, hM0, hM0d⟩
  rw [htw] at hmir
  rcases mirrors with _ | ⟨d0, _ | ⟨d1, ds1⟩⟩
  · cases hmir
  · cases hmir with | cons _ h => cases h
  cases hmir with
  | cons hd0 h =>
    cases h with
    | cons hd1 _ =>
      obtain ⟨v, h1, h2, h3⟩ := hd0.axis hM0d
      obtain ⟨x, h4, h5⟩ := axis_col h2
      obtain ⟨w, k1, k2, k3⟩ := hd1.axis hM0d
      obtain ⟨y, k4, k5⟩ := axis_col k2
      have hX : M0.mulVec (rowVec 2 v) = rowVec 2 v := by
        have := (h3.2 (rowVec 2 v)).2 ⟨1, (one_smul _ _).symm⟩; rwa [one_smul] at this
      have hY : M0.mulVec (rowVec 2 w) = rowVec 2 w := by
        have := (k3.2 (rowVec 2 w)).2 ⟨1, (one_smul _ _).symm⟩; rwa [one_smul] at this
      obtain ⟨c, hc⟩ := (h3.2 (rowVec 2 w)).1 (by rw [one_smul]; exact hY)
      have hdet : (Matrix.of ![rowVec 2 v, rowVec 2 w]).det = 0 := by
        rw [det_rows2, hc]
        simp only [Pi.smul_apply, smul_eq_mul]
        ring
      refine ⟨x, y, _, _, ?_, h5, k5, ⟨M0, hM0, hM0d, hX⟩, h3.1, k3.1, hdet⟩
      obtain ⟨b, e1, e2⟩ := hstack2 h5 k5
      unfold crystalSystemAndBasis2d
      rw [bind_ok hds]
      simp only
      have hbx : basisX (d0 :: d1 :: ds1) = .ok x := by
        unfold basisX
        simp only [h1]
        rw [bind_ok (show unwrap (some v) = .ok v from rfl)]
        exact h4
      have hby : basisY ds (d0 :: d1 :: ds1) (if n = 6 then 3 else n) x = .ok y := by
        unfold basisY
        rw [if_neg hm]
        simp only [k1]
        rw [bind_ok (show unwrap (some w) = .ok w from rfl)]
        exact k4
      rw [hmirs, hn1, bind_ok (show unwrap (some n) = .ok n from rfl), bind_ok hbx, bind_ok hby, bind_ok e1, bind_ok e2, hsys]
      simp [hdet]

end Systre.Finder
