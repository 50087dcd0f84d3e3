import Verif.Spec.Symmetries
import Verif.Lemmas.Stability
import Verif.Lemmas.Geometry
import Verif.Lemmas.SelfImmersion

/-! # The search for automorphisms -/

set_option linter.unusedSectionVars false

namespace Systre

/-! ### hash maps as lists -/

section
variable {α β : Type} [DecidableEq α]

theorem lookup_cons' {k a : α} {b : β} {m : List (α × β)} :
    ((a, b) :: m).lookup k = if k = a then some b else m.lookup k := by
  rw [List.lookup_cons]
  by_cases h : k = a
  · subst h; simp
  · have : (k == a) = false := by simpa using h
    rw [this, if_neg h]

theorem lookup_filter_ne' (l : List (α × β)) (d x : α) :
    (l.filter (fun p => p.1 ≠ d)).lookup x = if x = d then none else l.lookup x := by
  induction l with
  | nil => simp
  | cons p l ih =>
    obtain ⟨a, b⟩ := p
    rw [List.filter_cons]
    by_cases ha : a = d
    · subst ha
      simp only [ne_eq, not_true_eq_false, decide_false, Bool.false_eq_true, if_false]
      rw [ih, lookup_cons']
      by_cases hx : x = a <;> simp [hx]
    · simp only [ne_eq, ha, not_false_eq_true, decide_true, if_true]
      rw [lookup_cons', lookup_cons', ih]
      by_cases hx : x = a
      · subst hx; simp [ha]
      · simp [hx]

theorem hmInsert_lookup (m : List (α × β)) (k : α) (v : β) (x : α) :
    (hmInsert m k v).lookup x = if x = k then some v else m.lookup x := by
  unfold hmInsert
  rw [lookup_cons', lookup_filter_ne']
  by_cases h : x = k <;> simp [h]

theorem hmInsert_nodup {m : List (α × β)} (h : (m.map Prod.fst).Nodup) (k : α) (v : β) :
    ((hmInsert m k v).map Prod.fst).Nodup := by
  unfold hmInsert
  rw [List.map_cons, List.nodup_cons]
  constructor
  · simp
  · exact (h.sublist ((List.filter_sublist).map _))

theorem foldl_hmInsert_lookup (F : α → β) : ∀ (es : List α) (m : List (α × β)) (x : α),
    (es.foldl (fun m e => hmInsert m e (F e)) m).lookup x = if x ∈ es then some (F x) else m.lookup x := by
  intro es
  induction es with
  | nil => simp
  | cons e es ih =>
    intro m x
    rw [List.foldl_cons, ih, hmInsert_lookup]
    by_cases h1 : x ∈ es
    · simp [h1]
    · by_cases h2 : x = e
      · subst h2; simp
      · simp [h1, h2]

theorem foldl_hmInsert_nodup (F : α → β) : ∀ (es : List α) (m : List (α × β)), (m.map Prod.fst).Nodup →
    ((es.foldl (fun m e => hmInsert m e (F e)) m).map Prod.fst).Nodup := by
  intro es
  induction es with
  | nil => intro m h; exact h
  | cons e es ih => intro m h; rw [List.foldl_cons]; exact ih _ (hmInsert_nodup h _ _)

end

section
variable {T : Type} [LabelVector T] [LawfulLabelVector T]

theorem isDirected_rev (raw : List (Edge T)) (e : Edge T) :
    IsDirected raw (⟨e.tail, e.head, -e.shift⟩ : Edge T) ↔ IsDirected raw e := isDirected_neg

/-! ### local stability -/

theorem allDirected_nodup {g : Graph T} (hg : g.WF) (hs : ∀ e, IsDirected g.edges e → e.neg ≠ e) :
    (g.edges.flatMap (fun e => [e, e.neg])).Nodup := by
  rw [List.nodup_flatMap]
  constructor
  · intro e he
    have := hs e (Or.inl he)
    simp [Ne.symm this]
  · have h := hg.sorted
    refine List.Pairwise.imp_of_mem ?_ h
    intro a b ha hb hab
    have hne : a ≠ b := hab.ne
    have h2 : a.canonical ≠ b.canonical := by rw [hg.canon a ha, hg.canon b hb]; exact hne
    rw [Ne, canonical_eq_iff, not_or] at h2
    intro x hx hx'
    simp only [List.mem_cons, List.not_mem_nil, or_false] at hx hx'
    rcases hx with rfl | rfl <;> rcases hx' with h3 | h3
    · exact h2.1 h3
    · exact h2.2 h3
    · apply h2.2; rw [← h3, Edge.neg_neg]
    · exact h2.1 (by have := congrArg Edge.neg h3; simpa using this)

theorem locStable_iff {g : Graph T} (hg : g.WF) (pos : Nat → Fin (LabelVector.dim T) → ℚ) :
    (∀ v ∈ g.vertices, ((g.inc v).map (edgeVec pos)).Nodup) ↔ LocallyStable g.edges pos := by
  constructor
  · intro h
    constructor
    · intro e f he hf hef hv
      have h1 := h e.head (g.head_mem he)
      exact List.inj_on_of_nodup_map h1 ((g.mem_inc _ _).2 ⟨he, rfl⟩) ((g.mem_inc _ _).2 ⟨hf, hef.symm⟩) hv
    · intro e he heq
      have h1 := (h e.head (g.head_mem he)).of_map
      have hm : e ∈ g.edges := by
        rcases he with he | he
        · exact he
        · rw [heq] at he; exact he
      have h2 : (g.edges.flatMap (fun e => [e, e.neg])).count e ≥ 2 := by
        obtain ⟨l1, l2, hl⟩ := List.append_of_mem hm
        have h3 : e.neg = e := heq
        rw [hl]
        simp only [List.flatMap_append, List.flatMap_cons, List.count_append, h3, List.count_cons_self]
        omega
      have h4 : (g.inc e.head).count e ≥ 2 := by
        unfold Graph.inc
        rw [List.count_filter (by simp)]; exact h2
      have := List.nodup_iff_count_le_one.1 h1 e
      omega
  · rintro ⟨h1, h2⟩ v hv
    apply List.Nodup.map_on
    · intro e he f hf hef
      rw [g.mem_inc] at he hf
      exact h1 e f he.1 hf.1 (he.2.trans hf.2.symm) hef
    · exact (allDirected_nodup hg h2).filter _

/-- `f` is the image of `e` at the vertex `w` under the linear map `A`. -/
def GoodImg (g : Graph T) (pos : Nat → Fin (LabelVector.dim T) → ℚ)
    (A : Matrix (Fin (LabelVector.dim T)) (Fin (LabelVector.dim T)) ℚ) (w : Nat) (e f : Edge T) : Prop :=
  IsDirected g.edges f ∧ f.head = w ∧ edgeVec pos f = A.mulVec (edgeVec pos e)

variable {g : Graph T} {pos : Nat → Fin (LabelVector.dim T) → ℚ} {tb : Outcome PosTable}
  {A : Matrix (Fin (LabelVector.dim T)) (Fin (LabelVector.dim T)) ℚ}

theorem GoodImg.unique (hs : LocallyStable g.edges pos) {w : Nat} {e f f' : Edge T} (h : GoodImg g pos A w e f)
    (h' : GoodImg g pos A w e f') : f = f' :=
  hs.1 f f' h.1 h'.1 (h.2.1.trans h'.2.1.symm) (h.2.2.trans h'.2.2.symm)

open Classical in
/-- the image, if there is one -/
noncomputable def imgEdge (g : Graph T) (pos : Nat → Fin (LabelVector.dim T) → ℚ)
    (A : Matrix (Fin (LabelVector.dim T)) (Fin (LabelVector.dim T)) ℚ) (w : Nat) (e : Edge T) : Edge T :=
  if h : ∃ f, GoodImg g pos A w e f then h.choose else e

theorem imgEdge_good {w : Nat} {e : Edge T} (h : ∃ f, GoodImg g pos A w e f) :
    GoodImg g pos A w e (imgEdge g pos A w e) := by
  unfold imgEdge
  rw [dif_pos h]
  exact h.choose_spec

theorem GoodImg.eq_img (hs : LocallyStable g.edges pos) {w : Nat} {e f : Edge T} (h : GoodImg g pos A w e f) :
    f = imgEdge g pos A w e := h.unique hs (imgEdge_good ⟨f, h⟩)

theorem applyLin_ok {a : AffineMap ℚ} {s x : Fin (LabelVector.dim T) → ℚ} (ha : IsAff a A s) :
    applyLin a (List.ofFn x) = .ok (List.ofFn (A.mulVec x)) := by
  unfold applyLin
  obtain ⟨v, h1, h2⟩ := vec_new (l := List.ofFn x) rfl
  obtain ⟨w, h3, h4⟩ := aff_applyVec ha h2
  rw [h1, Outcome.ok_bind, h3, Outcome.ok_bind, rep_col_data h4]

theorem uniqueDelta_img (hg : g.WF) (hp : Places tb g pos) (hs : LocallyStable g.edges pos) (w : Nat) (e : Edge T) :
    ∃ r, edgeByUniqueDeltaIn tb g w (List.ofFn (A.mulVec (edgeVec pos e))) = .ok r ∧
      ∀ f, r = some f ↔ GoodImg g pos A w e f := by
  obtain ⟨r, h1, h2⟩ := edgeByUniqueDelta_ok hp w (List.ofFn (A.mulVec (edgeVec pos e)))
  refine ⟨r, h1, fun f => (h2 f).trans ?_⟩
  constructor
  · rintro ⟨hw, h⟩
    have hm : f ∈ (g.inc w).filter (fun e' => List.ofFn (edgeVec pos e') = List.ofFn (A.mulVec (edgeVec pos e))) := by
      rw [h]; simp
    rw [List.mem_filter, g.mem_inc] at hm
    exact ⟨hm.1.1, hm.1.2, List.ofFn_injective (by simpa using hm.2)⟩
  · rintro ⟨h3, h4, h5⟩
    have hw : w ∈ g.vertices := by rw [← h4]; exact g.head_mem h3
    refine ⟨hw, ?_⟩
    have hnd : (g.inc w).Nodup := (((locStable_iff hg pos).2 hs) w hw).of_map
    have hm : f ∈ (g.inc w).filter (fun e' => List.ofFn (edgeVec pos e') = List.ofFn (A.mulVec (edgeVec pos e))) := by
      rw [List.mem_filter, g.mem_inc]
      exact ⟨⟨h3, h4⟩, by simp [h5]⟩
    have hall : ∀ x ∈ (g.inc w).filter (fun e' => List.ofFn (edgeVec pos e') = List.ofFn (A.mulVec (edgeVec pos e))),
        x = f := by
      intro x hx
      rw [List.mem_filter, g.mem_inc] at hx
      have hx2 : edgeVec pos x = A.mulVec (edgeVec pos e) := List.ofFn_injective (by simpa using hx.2)
      exact hs.1 x f hx.1.1 h3 (hx.1.2.trans h4.symm) (hx2.trans h5.symm)
    have hnd2 := hnd.filter (fun e' => decide (List.ofFn (edgeVec pos e') = List.ofFn (A.mulVec (edgeVec pos e))))
    generalize (g.inc w).filter (fun e' => decide (List.ofFn (edgeVec pos e') = List.ofFn (A.mulVec (edgeVec pos e)))) = l
      at hm hall hnd2
    match l, hm, hall, hnd2 with
    | [x], _, hall, _ => rw [hall x (by simp)]
    | x :: y :: l, _, hall, hnd2 =>
      rw [hall x (by simp), hall y (by simp)] at hnd2
      simp at hnd2

/-! ### the loops -/

open Classical in
theorem autInner_eq (hg : g.WF) (hp : Places tb g pos) (hs : LocallyStable g.edges pos) {a : AffineMap ℚ}
    {t : Fin (LabelVector.dim T) → ℚ} (ha : IsAff a A t) (w : Nat) : ∀ (es : List (Edge T)) (s : AutState T),
    (∀ e ∈ es, IsDirected g.edges e) →
    autInner tb g a w es s = .ok (if ∀ e ∈ es, ∃ f, GoodImg g pos A w e f then
      some ⟨s.vertexMap, es.foldl (fun m e => hmInsert m e (imgEdge g pos A w e)) s.edgeMap,
        s.queue ++ es.map (fun e => (e.tail, (imgEdge g pos A w e).tail))⟩ else none) := by
  intro es
  induction es with
  | nil => intro s _; simp [autInner]
  | cons e es ih =>
    intro s hd
    rw [autInner, edgeVector_ok hp (hd e (by simp)), Outcome.ok_bind, applyLin_ok ha, Outcome.ok_bind]
    obtain ⟨r, h1, h2⟩ := uniqueDelta_img (A := A) hg hp hs w e
    rw [h1, Outcome.ok_bind]
    cases r with
    | none =>
      rw [if_neg]
      intro h
      obtain ⟨f, hf⟩ := h e (by simp)
      have := (h2 f).2 hf
      simp at this
    | some f =>
      have hf := (h2 f).1 rfl
      have hfe := hf.eq_img hs
      show autInner tb g a w es _ = _
      rw [ih _ (fun x hx => hd x (by simp [hx]))]
      have hiff : (∀ x ∈ e :: es, ∃ f, GoodImg g pos A w x f) ↔ ∀ x ∈ es, ∃ f, GoodImg g pos A w x f := by
        constructor
        · intro h x hx; exact h x (by simp [hx])
        · intro h x hx
          rcases List.mem_cons.1 hx with rfl | hx
          · exact ⟨f, hf⟩
          · exact h x hx
      by_cases hc : ∀ x ∈ es, ∃ f, GoodImg g pos A w x f
      · rw [if_pos hc, if_pos (hiff.2 hc)]
        simp [hfe]
      · rw [if_neg hc, if_neg (fun h => hc (hiff.1 h))]

/-- `vm`, `em` map the edges at each vertex to the edges at its image. -/
def StarMap (g : Graph T) (pos : Nat → Fin (LabelVector.dim T) → ℚ)
    (A : Matrix (Fin (LabelVector.dim T)) (Fin (LabelVector.dim T)) ℚ) (vm : Nat → Nat) (em : Edge T → Edge T) : Prop :=
  ∀ e, IsDirected g.edges e → GoodImg g pos A (vm e.head) e (em e) ∧ (em e).tail = vm e.tail

/-- invariant of the loop over the queue -/
structure AInv (g : Graph T) (pos : Nat → Fin (LabelVector.dim T) → ℚ)
    (A : Matrix (Fin (LabelVector.dim T)) (Fin (LabelVector.dim T)) ℚ) (v0 w0 : Nat) (s : AutState T) : Prop where
  closed : ∀ v w, s.vertexMap.lookup v = some w → v ∈ g.vertices ∧ ∀ e ∈ g.inc v,
    (∃ f, GoodImg g pos A w e f) ∧ s.edgeMap.lookup e = some (imgEdge g pos A w e) ∧
    ((e.tail, (imgEdge g pos A w e).tail) ∈ s.queue ∨ s.vertexMap.lookup e.tail = some (imgEdge g pos A w e).tail)
  ekeys : ∀ e f, s.edgeMap.lookup e = some f → IsDirected g.edges e ∧ ∃ w, s.vertexMap.lookup e.head = some w
  queue : ∀ p ∈ s.queue, p.1 ∈ g.vertices
  root : (v0, w0) ∈ s.queue ∨ s.vertexMap.lookup v0 = some w0
  vnodup : (s.vertexMap.map Prod.fst).Nodup
  enodup : (s.edgeMap.map Prod.fst).Nodup

/-- the directed edges at vertices that were not visited -/
def autRem (g : Graph T) (m : List (Nat × Nat)) : Nat :=
  ((g.edges.flatMap (fun e => [e, e.neg])).filter (fun e => decide (m.lookup e.head = none))).length

theorem autRem_insert {m : List (Nat × Nat)} {v w : Nat} (h : m.lookup v = none) :
    autRem g (hmInsert m v w) + (g.inc v).length = autRem g m := by
  unfold autRem Graph.inc
  generalize g.edges.flatMap (fun e => [e, e.neg]) = D
  induction D with
  | nil => simp
  | cons e D ih =>
    simp only [List.filter_cons, hmInsert_lookup] at ih ⊢
    by_cases he : e.head = v
    · simp only [he, if_true, reduceCtorEq, decide_false, Bool.false_eq_true, if_false, decide_true, h,
        List.length_cons] at ih ⊢
      omega
    · simp only [he, if_false, decide_false, Bool.false_eq_true] at ih ⊢
      by_cases hn : m.lookup e.head = none
      · simp only [hn, decide_true, if_true, List.length_cons] at ih ⊢
        omega
      · simp only [hn, decide_false, Bool.false_eq_true, if_false] at ih ⊢
        omega

theorem autLoop_ok (hg : g.WF) (hp : Places tb g pos) (hs : LocallyStable g.edges pos) {a : AffineMap ℚ}
    {t : Fin (LabelVector.dim T) → ℚ} (ha : IsAff a A t) (v0 w0 : Nat) : ∀ (fuel : Nat) (s : AutState T),
    AInv g pos A v0 w0 s → s.queue.length + autRem g s.vertexMap + 1 ≤ fuel →
    ∃ r, autLoop tb g a fuel s = .ok r ∧
      (∀ φ, r = some φ → φ.transform = a ∧ AInv g pos A v0 w0 ⟨φ.vertexMap, φ.edgeMap, []⟩) ∧
      (r = none → ∀ vm em, StarMap g pos A vm em → (∀ p ∈ s.queue, p.2 = vm p.1) →
        (∀ v w, s.vertexMap.lookup v = some w → w = vm v) → False) := by
  intro fuel
  induction fuel with
  | zero => intro s _ h; omega
  | succ fuel ih =>
    intro s hI hf
    obtain ⟨vmap, emap, queue⟩ := s
    rw [autLoop]
    cases queue with
    | nil =>
      refine ⟨_, rfl, ?_, ?_⟩
      · rintro φ h
        have := Option.some.inj h
        subst this
        exact ⟨rfl, hI⟩
      · intro h; simp at h
    | cons p q =>
      obtain ⟨v, w⟩ := p
      simp only at hf ⊢
      have hv : v ∈ g.vertices := hI.queue (v, w) (by simp)
      cases hl : vmap.lookup v with
      | some u =>
        simp only
        by_cases hu : u = w
        · rw [if_neg (by simpa using hu)]
          subst hu
          have hI' : AInv g pos A v0 w0 ⟨vmap, emap, q⟩ := by
            refine ⟨fun v' w' h => ⟨(hI.closed v' w' h).1, fun e he => ?_⟩, hI.ekeys, fun p hp => hI.queue p (by simp [hp]),
              ?_, hI.vnodup, hI.enodup⟩
            · obtain ⟨h1, h2, h3⟩ := (hI.closed v' w' h).2 e he
              refine ⟨h1, h2, ?_⟩
              rcases h3 with h3 | h3
              · rcases List.mem_cons.1 h3 with h3 | h3
                · right
                  rw [Prod.mk.injEq] at h3
                  show vmap.lookup e.tail = _
                  rw [h3.1, h3.2]; exact hl
                · exact Or.inl h3
              · exact Or.inr h3
            · rcases hI.root with h | h
              · rcases List.mem_cons.1 h with h | h
                · right; rw [Prod.mk.injEq] at h; rw [h.1, h.2]; exact hl
                · exact Or.inl h
              · exact Or.inr h
          obtain ⟨r, h1, h2, h3⟩ := ih _ hI' (by simp only [List.length_cons] at hf ⊢; omega)
          exact ⟨r, h1, h2, fun hr vm em hst hq hvm => h3 hr vm em hst (fun p hp => hq p (by simp [hp])) hvm⟩
        · rw [if_pos (by simpa using hu)]
          refine ⟨none, rfl, by simp, ?_⟩
          intro _ vm em _ hq hvm
          exact hu ((hvm v u hl).trans (hq (v, w) (by simp)).symm)
      | none =>
        simp only
        rw [g.incidences_ok hv, Outcome.ok_bind,
          autInner_eq hg hp hs ha w (g.inc v) _ (fun e he => ((g.mem_inc _ _).1 he).1), Outcome.ok_bind]
        by_cases hc : ∀ e ∈ g.inc v, ∃ f, GoodImg g pos A w e f
        · rw [if_pos hc]
          have hne : ∀ v' w', vmap.lookup v' = some w' → v' ≠ v := by
            intro v' w' h h2; rw [h2, hl] at h; simp at h
          have hI' : AInv g pos A v0 w0 ⟨hmInsert vmap v w,
              (g.inc v).foldl (fun m e => hmInsert m e (imgEdge g pos A w e)) emap,
              q ++ (g.inc v).map (fun e => (e.tail, (imgEdge g pos A w e).tail))⟩ := by
            refine ⟨fun v' w' h => ?_, fun e f h => ?_, fun p hp => ?_, ?_, hmInsert_nodup hI.vnodup _ _,
              foldl_hmInsert_nodup _ _ _ hI.enodup⟩
            · simp only [hmInsert_lookup] at h
              by_cases hvv : v' = v
              · rw [if_pos hvv] at h
                have hww := Option.some.inj h
                subst hvv; subst hww
                refine ⟨hv, fun e he => ⟨hc e he, ?_, ?_⟩⟩
                · simp only [foldl_hmInsert_lookup, if_pos he]
                · left
                  simp only [List.mem_append, List.mem_map]
                  exact Or.inr ⟨e, he, rfl⟩
              · rw [if_neg hvv] at h
                refine ⟨(hI.closed v' w' h).1, fun e he => ?_⟩
                obtain ⟨h1, h2, h3⟩ := (hI.closed v' w' h).2 e he
                refine ⟨h1, ?_, ?_⟩
                · simp only [foldl_hmInsert_lookup]
                  rw [if_neg]
                  · exact h2
                  · intro hm
                    have e1 := ((g.mem_inc _ _).1 hm).2
                    have e2 := ((g.mem_inc _ _).1 he).2
                    exact hvv (e2.symm.trans e1)
                · simp only [hmInsert_lookup, List.mem_append]
                  rcases h3 with h3 | h3
                  · rcases List.mem_cons.1 h3 with h3 | h3
                    · right
                      rw [Prod.mk.injEq] at h3
                      rw [if_pos h3.1, h3.2]
                    · exact Or.inl (Or.inl h3)
                  · right
                    rw [if_neg (hne _ _ h3)]; exact h3
            · simp only [foldl_hmInsert_lookup] at h
              simp only [hmInsert_lookup]
              by_cases hm : e ∈ g.inc v
              · rw [g.mem_inc] at hm
                exact ⟨hm.1, w, by rw [if_pos hm.2]⟩
              · rw [if_neg hm] at h
                obtain ⟨h1, u, h2⟩ := hI.ekeys e f h
                exact ⟨h1, u, by rw [if_neg (hne _ _ h2)]; exact h2⟩
            · simp only [List.mem_append, List.mem_map] at hp
              rcases hp with hp | ⟨e, he, rfl⟩
              · exact hI.queue p (by simp [hp])
              · exact g.tail_mem ((g.mem_inc _ _).1 he).1
            · simp only [hmInsert_lookup, List.mem_append]
              rcases hI.root with h | h
              · rcases List.mem_cons.1 h with h | h
                · right; rw [Prod.mk.injEq] at h; rw [if_pos h.1, h.2]
                · exact Or.inl (Or.inl h)
              · right; rw [if_neg (hne _ _ h)]; exact h
          obtain ⟨r, h1, h2, h3⟩ := ih _ hI' (by
            have := autRem_insert (g := g) (m := vmap) (v := v) (w := w) hl
            simp only [List.length_cons, List.length_append, List.length_map] at hf ⊢
            omega)
          refine ⟨r, h1, h2, fun hr vm em hst hq hvm => h3 hr vm em hst ?_ ?_⟩
          · intro p hp
            simp only [List.mem_append, List.mem_map] at hp
            rcases hp with hp | ⟨e, he, rfl⟩
            · exact hq p (by simp [hp])
            · have hd := ((g.mem_inc _ _).1 he)
              obtain ⟨h4, h5⟩ := hst e hd.1
              have h6 : vm e.head = w := by rw [hd.2]; exact (hq (v, w) (by simp)).symm
              rw [h6] at h4
              rw [← h4.eq_img hs, h5]
          · intro v' w' h
            simp only [hmInsert_lookup] at h
            by_cases hvv : v' = v
            · rw [if_pos hvv] at h
              rw [← Option.some.inj h, hvv]; exact hq (v, w) (by simp)
            · rw [if_neg hvv] at h; exact hvm v' w' h
        · rw [if_neg hc]
          refine ⟨none, rfl, by simp, ?_⟩
          intro _ vm em hst hq hvm
          apply hc
          intro e he
          have hd := ((g.mem_inc _ _).1 he)
          obtain ⟨h4, -⟩ := hst e hd.1
          have h6 : vm e.head = w := by rw [hd.2]; exact (hq (v, w) (by simp)).symm
          rw [h6] at h4
          exact ⟨_, h4⟩

end
end Systre
