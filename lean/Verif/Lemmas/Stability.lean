import Verif.Lemmas.Placement
import Verif.Spec.Placement

namespace Systre
open Modular (toLists omap_range)
set_option linter.unusedSectionVars false

section
variable {T : Type} [LabelVector T] [LawfulLabelVector T]

theorem vecGet_ofFn' {α : Type} {n : Nat} (f : Fin n → α) (i : Fin n) : vecGet (List.ofFn f) i.1 = .ok (f i) := by
  rw [vecGet_eq_ok]; simp

theorem vecGet_toVec (t : T) (k : Fin (LabelVector.dim T)) :
    vecGet (LabelVector.toVec t) k.1 = .ok (rent (LabelVector.toVec t) k.1) := by
  have h : k.1 < (LabelVector.toVec t).length := by rw [LawfulLabelVector.toVec_length]; exact k.2
  rw [vecGet_eq_ok, rent_lt h]; simp

theorem edgeVector_ok {tb : Outcome PosTable} {g : Graph T} {pos : Nat → Fin (LabelVector.dim T) → ℚ}
    (hp : Places tb g pos) {e : Edge T} (he : IsDirected g.edges e) :
    edgeVectorIn tb e = .ok (List.ofFn (edgeVec pos e)) := by
  unfold edgeVectorIn
  rw [hp _ (g.head_mem he), hp _ (g.tail_mem he)]
  simp only [Outcome.ok_bind]
  apply omap_range
  intro k
  rw [vecGet_ofFn', vecGet_ofFn', vecGet_toVec]
  rfl

theorem edgeVec_neg (pos : Nat → Fin (LabelVector.dim T) → ℚ) (e : Edge T) (k : Fin (LabelVector.dim T)) :
    edgeVec pos e.neg k = - edgeVec pos e k := by
  simp only [edgeVec, Edge.neg, LawfulLabelVector.toVec_neg]
  push_cast; ring

theorem sum_edgeVec (g : Graph T) (pos : Nat → Fin (LabelVector.dim T) → ℚ)
    (hb : IsBarycentric g.edges g.vertices pos) {v : Nat} (hv : v ∈ g.vertices) (k : Fin (LabelVector.dim T)) :
    ((g.inc v).map (fun e => edgeVec pos e k)).sum = 0 := by
  have h := hb v hv k
  rw [neighbours_eq, List.length_map, List.map_map] at h
  have h2 : ((g.inc v).map (fun e => edgeVec pos e k)) =
      ((g.inc v).map (fun e => (pos e.tail k + ((rent (LabelVector.toVec e.shift) k.1 : ℤ) : ℚ)) - pos v k)) := by
    apply List.map_congr_left
    intro e he
    rw [edgeVec, ((g.mem_inc _ _).1 he).2]
  rw [h2, List.sum_map_sub_rat]
  have h3 : ((g.inc v).map (fun _ => pos v k)).sum = ((g.inc v).length : ℚ) * pos v k := by simp
  rw [h3, h]
  simp [Function.comp_def]

theorem positionNormalized_ok {tb : Outcome PosTable} {g : Graph T} {pos : Nat → Fin (LabelVector.dim T) → ℚ}
    (hp : Places tb g pos) {v : Nat} (hv : v ∈ g.vertices) :
    positionNormalizedIn tb v = .ok (List.ofFn (fun k => Int.fract (pos v k))) := by
  unfold positionNormalizedIn
  rw [hp v hv]
  simp only [Outcome.ok_bind, List.map_ofFn]
  rfl

theorem fract_ofFn_eq_iff {d : Nat} (x y : Fin d → ℚ) :
    List.ofFn (fun k => Int.fract (x k)) = List.ofFn (fun k => Int.fract (y k)) ↔ SameModLattice x y := by
  rw [List.ofFn_inj]
  constructor
  · intro h
    have : ∀ k, ∃ z : ℤ, x k - y k = z := fun k => Int.fract_eq_fract.1 (congrFun h k)
    choose z hz using this
    exact ⟨z, hz⟩
  · rintro ⟨z, hz⟩
    funext k
    exact Int.fract_eq_fract.2 ⟨z k, hz k⟩

theorem allDistinct_ok {α β : Type} [DecidableEq β] (f : α → Outcome β) (h : α → β) : ∀ (l : List α) (seen : List β),
    (∀ a ∈ l, f a = .ok (h a)) →
    ∃ b, allDistinct f l seen = .ok b ∧ (b = true ↔ (l.map h).Nodup ∧ ∀ a ∈ l, h a ∉ seen) := by
  intro l
  induction l with
  | nil => intro seen _; exact ⟨true, rfl, by simp⟩
  | cons a l ih =>
    intro seen hf
    rw [allDistinct, hf a (by simp)]
    simp only [Outcome.ok_bind]
    by_cases hs : h a ∈ seen
    · rw [if_pos hs]
      refine ⟨false, rfl, ?_⟩
      constructor
      · intro hh; simp at hh
      · rintro ⟨-, hh⟩; exact (hh a (by simp) hs).elim
    · rw [if_neg hs]
      obtain ⟨b, h1, h2⟩ := ih (h a :: seen) (fun x hx => hf x (by simp [hx]))
      refine ⟨b, h1, h2.trans ?_⟩
      rw [List.map_cons, List.nodup_cons]
      simp only [List.mem_cons, List.mem_map, not_or, forall_eq_or_imp, not_exists, not_and]
      constructor
      · rintro ⟨h3, h4⟩
        exact ⟨⟨fun x hx => (h4 x hx).1, h3⟩, hs, fun x hx => (h4 x hx).2⟩
      · rintro ⟨⟨h3, h4⟩, -, h5⟩
        exact ⟨h4, fun x hx => ⟨h3 x hx, h5 x hx⟩⟩

theorem nodup_map_iff {α β : Type} (f : α → β) (l : List α) (hl : l.Nodup) :
    (l.map f).Nodup ↔ ∀ a ∈ l, ∀ b ∈ l, a ≠ b → f a ≠ f b := by
  rw [List.nodup_map_iff_inj_on hl]
  constructor
  · intro h a ha b hb hne hf; exact hne (h a ha b hb hf)
  · intro h a ha b hb hf; by_contra hne; exact h a ha b hb hne hf

theorem isStable_ok {tb : Outcome PosTable} {g : Graph T} {pos : Nat → Fin (LabelVector.dim T) → ℚ}
    (hp : Places tb g pos) :
    ∃ b, isStableIn tb g = .ok b ∧
      (b = true ↔ ∀ v ∈ g.vertices, ∀ w ∈ g.vertices, v ≠ w → ¬ SameModLattice (pos v) (pos w)) := by
  obtain ⟨b, h1, h2⟩ := allDistinct_ok (positionNormalizedIn tb) (fun v => List.ofFn (fun k => Int.fract (pos v k)))
    g.vertices [] (fun v hv => positionNormalized_ok hp hv)
  refine ⟨b, h1, h2.trans ?_⟩
  rw [nodup_map_iff _ _ g.vertices_nodup]
  simp only [ne_eq, fract_ofFn_eq_iff, List.not_mem_nil, not_false_eq_true, implies_true, and_true]

theorem locallyStableLoop_ok {tb : Outcome PosTable} {g : Graph T} {pos : Nat → Fin (LabelVector.dim T) → ℚ}
    (hp : Places tb g pos) : ∀ vs : List Nat, (∀ v ∈ vs, v ∈ g.vertices) →
    ∃ b, locallyStableLoop tb g vs = .ok b ∧
      (b = true ↔ ∀ v ∈ vs, ((g.inc v).map (edgeVec pos)).Nodup) := by
  intro vs
  induction vs with
  | nil => intro _; exact ⟨true, rfl, by simp⟩
  | cons v vs ih =>
    intro hv
    rw [locallyStableLoop, g.incidences_ok (hv v (by simp)), Outcome.ok_bind]
    obtain ⟨b, h1, h2⟩ := allDistinct_ok (edgeVectorIn tb) (fun e => List.ofFn (edgeVec pos e)) (g.inc v) []
      (fun e he => edgeVector_ok hp ((g.mem_inc _ _).1 he).1)
    have h3 : b = true ↔ ((g.inc v).map (edgeVec pos)).Nodup := by
      rw [h2]
      have : (g.inc v).map (fun e => List.ofFn (edgeVec pos e)) = ((g.inc v).map (edgeVec pos)).map List.ofFn := by
        rw [List.map_map]; rfl
      rw [this, List.nodup_map_iff List.ofFn_injective]
      simp
    obtain ⟨c, h4, h5⟩ := ih (fun w hw => hv w (by simp [hw]))
    rw [h1, Outcome.ok_bind]
    cases b with
    | false =>
      refine ⟨false, rfl, ?_⟩
      simp only [List.mem_cons, forall_eq_or_imp]
      rw [← h3]; simp
    | true =>
      refine ⟨c, h4, h5.trans ?_⟩
      simp only [List.mem_cons, forall_eq_or_imp, ← h3, true_and]

theorem isLocallyStable_ok {tb : Outcome PosTable} {g : Graph T} {pos : Nat → Fin (LabelVector.dim T) → ℚ}
    (hp : Places tb g pos) :
    ∃ b, isLocallyStableIn tb g = .ok b ∧
      (b = true ↔ ∀ v ∈ g.vertices, ((g.inc v).map (edgeVec pos)).Nodup) :=
  locallyStableLoop_ok hp g.vertices (fun _ h => h)

/-! ### sorting of coordinate lists -/

theorem lexLe_refl : ∀ a : List Rat, lexLe a a = true
  | [] => rfl
  | x :: a => by simp [lexLe, lexLe_refl a]

theorem lexLe_total : ∀ a b : List Rat, lexLe a b = true ∨ lexLe b a = true
  | [], _ => Or.inl (by simp [lexLe])
  | _ :: _, [] => Or.inr (by simp [lexLe])
  | x :: a, y :: b => by
    rcases lt_trichotomy x y with h | h | h
    · left; simp [lexLe, h]
    · subst h; simpa [lexLe] using lexLe_total a b
    · right; simp [lexLe, h]

theorem lexLe_antisymm : ∀ a b : List Rat, lexLe a b = true → lexLe b a = true → a = b
  | [], [], _, _ => rfl
  | [], _ :: _, _, h => by simp [lexLe] at h
  | _ :: _, [], h, _ => by simp [lexLe] at h
  | x :: a, y :: b, h1, h2 => by
    rcases lt_trichotomy x y with h | h | h
    · simp [lexLe, h, not_lt_of_gt h] at h2
    · subst h
      simp only [lexLe, lt_irrefl, if_false] at h1 h2
      rw [lexLe_antisymm a b h1 h2]
    · simp [lexLe, h, not_lt_of_gt h] at h1

theorem lexLe_trans : ∀ a b c : List Rat, lexLe a b = true → lexLe b c = true → lexLe a c = true
  | [], _, _, _, _ => by simp [lexLe]
  | _ :: _, [], _, h, _ => by simp [lexLe] at h
  | _ :: _, _ :: _, [], _, h => by simp [lexLe] at h
  | x :: a, y :: b, z :: c, h1, h2 => by
    rcases lt_trichotomy x y with h | h | h
    · rcases lt_trichotomy y z with h' | h' | h'
      · simp [lexLe, h.trans h']
      · subst h'; simp [lexLe, h]
      · simp [lexLe, h', not_lt_of_gt h'] at h2
    · subst h
      rcases lt_trichotomy x z with h' | h' | h'
      · simp [lexLe, h']
      · subst h'
        simp only [lexLe, lt_irrefl, if_false] at h1 h2 ⊢
        exact lexLe_trans a b c h1 h2
      · simp [lexLe, h', not_lt_of_gt h'] at h2
    · simp [lexLe, h, not_lt_of_gt h] at h1

instance : Std.Total (fun a b : List Rat => lexLe a b = true) := ⟨lexLe_total⟩
instance : IsTrans (List Rat) (fun a b => lexLe a b = true) := ⟨lexLe_trans⟩
instance : Std.Antisymm (fun a b : List Rat => lexLe a b = true) := ⟨fun a b => lexLe_antisymm a b⟩

theorem sort_eq_iff (l l' : List (List Rat)) :
    l.insertionSort (fun a b => lexLe a b = true) = l'.insertionSort (fun a b => lexLe a b = true) ↔ l.Perm l' := by
  constructor
  · intro h
    exact (List.perm_insertionSort _ l).symm.trans (h ▸ List.perm_insertionSort _ l')
  · intro h
    exact List.Perm.eq_of_pairwise (le := fun a b => lexLe a b = true)
      (fun a b _ _ h1 h2 => lexLe_antisymm a b h1 h2)
      (List.pairwise_insertionSort _ _) (List.pairwise_insertionSort _ _)
      ((List.perm_insertionSort _ _).trans (h.trans (List.perm_insertionSort _ _).symm))

theorem hasSecondOrderCollisions_ok {tb : Outcome PosTable} {g : Graph T} {pos : Nat → Fin (LabelVector.dim T) → ℚ}
    (hp : Places tb g pos) :
    ∃ b, hasSecondOrderCollisionsIn tb g = .ok b ∧
      (b = true ↔ ∃ v ∈ g.vertices, ∃ w ∈ g.vertices, v ≠ w ∧ SameModLattice (pos v) (pos w) ∧
        ((g.inc v).map (edgeVec pos)).Perm ((g.inc w).map (edgeVec pos))) := by
  let key : Nat → List (List Rat) := fun v =>
    (((g.inc v).map (fun e => List.ofFn (edgeVec pos e))).insertionSort (fun a b => lexLe a b = true)) ++
      [List.ofFn (fun k => Int.fract (pos v k))]
  have hk : ∀ v ∈ g.vertices, collisionKey tb g v = .ok (key v) := by
    intro v hv
    unfold collisionKey
    rw [g.incidences_ok hv, Outcome.ok_bind,
      omap_ok (fun e he => edgeVector_ok hp ((g.mem_inc _ _).1 he).1), Outcome.ok_bind,
      positionNormalized_ok hp hv]
    rfl
  obtain ⟨b, h1, h2⟩ := allDistinct_ok (collisionKey tb g) key g.vertices [] hk
  refine ⟨!b, by unfold hasSecondOrderCollisionsIn; rw [h1]; rfl, ?_⟩
  rw [nodup_map_iff _ _ g.vertices_nodup] at h2
  simp only [List.not_mem_nil, not_false_eq_true, implies_true, and_true] at h2
  rw [Bool.not_eq_true', ← Bool.not_eq_true, h2]
  push Not
  have hkey : ∀ v w, key v = key w ↔ SameModLattice (pos v) (pos w) ∧
      ((g.inc v).map (edgeVec pos)).Perm ((g.inc w).map (edgeVec pos)) := by
    intro v w
    simp only [key]
    have hmap : ∀ u, (g.inc u).map (fun e => List.ofFn (edgeVec pos e)) = ((g.inc u).map (edgeVec pos)).map List.ofFn := by
      intro u; rw [List.map_map]; rfl
    constructor
    · intro h
      have h3 := List.append_inj' h rfl
      refine ⟨(fract_ofFn_eq_iff _ _).1 (by simpa using h3.2), ?_⟩
      have h4 := (sort_eq_iff _ _).1 h3.1
      rw [hmap, hmap] at h4
      exact (List.map_perm_map_iff List.ofFn_injective).1 h4
    · rintro ⟨h3, h4⟩
      rw [(fract_ofFn_eq_iff _ _).2 h3, hmap, hmap, (sort_eq_iff _ _).2 (h4.map _)]
  constructor
  · rintro ⟨v, hv, w, hw, hne, h⟩
    exact ⟨v, hv, w, hw, hne, (hkey v w).1 h⟩
  · rintro ⟨v, hv, w, hw, hne, h⟩
    exact ⟨v, hv, w, hw, hne, (hkey v w).2 h⟩

/-! ### edges by unique deltas -/

theorem lookup_filter_ne {β : Type} (l : List (List Rat × β)) (d x : List Rat) :
    (l.filter (fun p => p.1 ≠ d)).lookup x = if x = d then none else l.lookup x := by
  induction l with
  | nil => simp
  | cons p l ih =>
    obtain ⟨a, b⟩ := p
    rw [List.filter_cons]
    by_cases ha : a = d
    · subst ha
      simp only [ne_eq, not_true_eq_false, decide_false, Bool.false_eq_true, if_false]
      rw [ih]
      by_cases hx : x = a
      · simp [hx]
      · have : (x == a) = false := by simpa using hx
        rw [if_neg hx, if_neg hx, List.lookup_cons, this]
    · simp only [ne_eq, ha, not_false_eq_true, decide_true, if_true]
      rw [List.lookup_cons, List.lookup_cons, ih]
      by_cases hx : x = a
      · subst hx; simp [ha]
      · have : (x == a) = false := by simpa using hx
        simp [this]

theorem uniqueDeltasLoop_ok {tb : Outcome PosTable} (f : Edge T → List Rat) : ∀ (es : List (Edge T))
    (done : List (Edge T)) (seen : List (List Rat)) (toEdge : List (List Rat × Edge T)),
    (∀ e ∈ es, edgeVectorIn tb e = .ok (f e)) →
    (∀ x, x ∈ seen ↔ ∃ e ∈ done, f e = x) →
    (∀ x e, toEdge.lookup x = some e ↔ done.filter (fun e => f e = x) = [e]) →
    ∃ r, uniqueDeltasLoop tb es seen toEdge = .ok r ∧
      ∀ x e, r.lookup x = some e ↔ (done ++ es).filter (fun e => f e = x) = [e] := by
  intro es
  induction es with
  | nil => intro done seen toEdge _ _ h; exact ⟨toEdge, rfl, by simpa using h⟩
  | cons a es ih =>
    intro done seen toEdge hf hs ht
    rw [uniqueDeltasLoop, hf a (by simp)]
    simp only [Outcome.ok_bind]
    have happ : done ++ a :: es = (done ++ [a]) ++ es := by simp
    rw [happ]
    by_cases hm : f a ∈ seen
    · rw [if_pos hm]
      apply ih _ _ _ (fun e he => hf e (by simp [he]))
      · intro x
        rw [hs]
        constructor
        · rintro ⟨e, he, h⟩; exact ⟨e, by simp [he], h⟩
        · rintro ⟨e, he, h⟩
          rcases List.mem_append.1 he with he | he
          · exact ⟨e, he, h⟩
          · rw [List.mem_singleton.1 he] at h
            rw [← h]; exact (hs _).1 hm
      · intro x e
        rw [lookup_filter_ne, List.filter_append]
        by_cases hx : x = f a
        · subst hx
          rw [if_pos rfl]
          simp only [List.filter_cons, decide_true, if_true, List.filter_nil, reduceCtorEq, false_iff]
          intro h
          obtain ⟨e', he', h'⟩ := (hs _).1 hm
          have : (done.filter (fun e => f e = f a)).length ≥ 1 :=
            List.length_pos_iff.2 (List.ne_nil_of_mem (List.mem_filter.2 ⟨he', by simpa using h'⟩))
          have h2 := congrArg List.length h
          simp only [List.length_append, List.length_cons, List.length_nil] at h2
          omega
        · rw [if_neg hx, ht]
          have : ¬ f a = x := fun h => hx h.symm
          simp [List.filter_cons, this]
    · rw [if_neg hm]
      apply ih _ _ _ (fun e he => hf e (by simp [he]))
      · intro x
        rw [List.mem_cons, hs]
        constructor
        · rintro (rfl | ⟨e, he, h⟩)
          · exact ⟨a, by simp, rfl⟩
          · exact ⟨e, by simp [he], h⟩
        · rintro ⟨e, he, h⟩
          rcases List.mem_append.1 he with he | he
          · exact Or.inr ⟨e, he, h⟩
          · rw [List.mem_singleton.1 he] at h; exact Or.inl h.symm
      · intro x e
        rw [List.lookup_cons, List.filter_append]
        by_cases hx : x = f a
        · subst hx
          have h0 : done.filter (fun e => f e = f a) = [] := by
            rw [List.filter_eq_nil_iff]
            intro e he h
            exact hm ((hs _).2 ⟨e, he, by simpa using h⟩)
          rw [h0]
          simp [List.filter_cons]
        · have h1 : (x == f a) = false := by simpa using hx
          have h2 : ¬ f a = x := fun h => hx h.symm
          rw [h1]
          simp only [ht]
          simp [List.filter_cons, h2]

theorem lookup_map_pair {β : Type} (h : Nat → β) (l : List Nat) (v : Nat) :
    (l.map (fun w => (w, h w))).lookup v = if v ∈ l then some (h v) else none := by
  induction l with
  | nil => simp
  | cons a l ih =>
    rw [List.map_cons]
    by_cases ha : v = a
    · subst ha; rw [lookup_cons_self']; simp
    · rw [lookup_cons_ne ha, ih]; simp [ha]

theorem edgeByUniqueDelta_ok {tb : Outcome PosTable} {g : Graph T} {pos : Nat → Fin (LabelVector.dim T) → ℚ}
    (hp : Places tb g pos) (v : Nat) (d : List Rat) :
    ∃ r, edgeByUniqueDeltaIn tb g v d = .ok r ∧
      ∀ e, r = some e ↔ v ∈ g.vertices ∧ (g.inc v).filter (fun e => List.ofFn (edgeVec pos e) = d) = [e] := by
  have h1 : ∀ w ∈ g.vertices, ∃ r, uniqueDeltas tb g w = .ok r ∧
      ∀ x e, r.lookup x = some e ↔ (g.inc w).filter (fun e => List.ofFn (edgeVec pos e) = x) = [e] := by
    intro w hw
    unfold uniqueDeltas
    rw [g.incidences_ok hw, Outcome.ok_bind]
    have := uniqueDeltasLoop_ok (tb := tb) (fun e => List.ofFn (edgeVec pos e)) (g.inc w) [] [] []
      (fun e he => edgeVector_ok hp ((g.mem_inc _ _).1 he).1) (by simp) (by simp)
    simpa using this
  choose! t ht1 ht2 using h1
  have h2 : edgesByUniqueDeltas tb g = .ok (g.vertices.map (fun w => (w, t w))) := by
    unfold edgesByUniqueDeltas
    apply omap_ok
    intro w hw
    rw [ht1 w hw]; rfl
  unfold edgeByUniqueDeltaIn
  rw [h2, Outcome.ok_bind]
  refine ⟨_, rfl, fun e => ?_⟩
  rw [lookup_map_pair]
  by_cases hv : v ∈ g.vertices
  · rw [if_pos hv]
    simp only [Option.bind_eq_bind, Option.bind_some, ht2 v hv, hv, true_and]
  · simp [if_neg hv, hv]

end
end Systre
