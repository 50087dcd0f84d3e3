import Verif.Lemmas.Shells

/-! # The traversal with shift adjustments -/

set_option linter.unusedSectionVars false

namespace Systre
section
variable {T : Type} [LabelVector T] [LawfulLabelVector T]

/-- The shift of an edge after moving the representatives of its end points. -/
def adjEdge (σ : Nat → T) (e : Edge T) : Edge T := ⟨e.head, e.tail, σ e.head + e.shift - σ e.tail⟩

/-- `b` is reached from `a` along an edge whose adjusted shift is zero. -/
def ZeroStep (raw : List (Edge T)) (σ : Nat → T) (a b : Nat) : Prop :=
  ∃ e, IsDirected raw e ∧ e.head = a ∧ e.tail = b ∧ σ a + e.shift = σ b

/-- reading the map of shifts -/
def sig (m : List (Nat × T)) (v : Nat) : T := (m.lookup v).getD 0

theorem rtg_mono {α : Type} {r r' : α → α → Prop} (h : ∀ a b, r a b → r' a b) {a b : α}
    (hab : Relation.ReflTransGen r a b) : Relation.ReflTransGen r' a b := by
  induction hab with
  | refl => exact Relation.ReflTransGen.refl
  | tail _ h2 ih => exact Relation.ReflTransGen.tail ih (h _ _ h2)

structure TInv (g : Graph T) (v0 : Nat) (done : List Nat) (rem : List (Edge T)) (s : Trav T) : Prop where
  keys : ∀ v, (s.shifts.lookup v).isSome ↔ v ∈ done ∨ v ∈ s.queue
  nodup : (done ++ s.queue).Nodup
  verts : ∀ v, v ∈ done ∨ v ∈ s.queue → v ∈ g.vertices
  root : s.shifts.lookup v0 = some 0
  tree : ∀ v, v ∈ done ∨ v ∈ s.queue →
    Relation.ReflTransGen (fun a b => ((s.shifts.lookup a).isSome ∧ (s.shifts.lookup b).isSome) ∧
      ZeroStep g.edges (sig s.shifts) a b) v0 v
  seen_sub : ∀ e ∈ s.seen, e ∈ g.edges ∧ (s.shifts.lookup e.head).isSome ∧ (s.shifts.lookup e.tail).isSome
  seen_nodup : s.seen.Nodup
  result : s.result = s.seen.reverse.map (adjEdge (sig s.shifts))
  closed : ∀ u ∈ done, ∀ e ∈ g.inc u, e ∈ rem ∨ ((s.shifts.lookup e.tail).isSome ∧ e.canonical ∈ s.seen)

theorem lookup_cons_ne {β : Type} {k v : Nat} {b : β} {m : List (Nat × β)} (h : v ≠ k) :
    ((k, b) :: m).lookup v = m.lookup v := by
  have : (v == k) = false := by simpa using h
  rw [List.lookup_cons, this]

theorem lookup_cons_self' {β : Type} {k : Nat} {b : β} {m : List (Nat × β)} :
    ((k, b) :: m).lookup k = some b := by simp

theorem sig_of_lookup {m : List (Nat × T)} {v : Nat} {t : T} (h : m.lookup v = some t) : sig m v = t := by
  simp [sig, h]

/-- inserting a new vertex -/
theorem tinv_insert {g : Graph T} {v0 : Nat} {done : List Nat} {rem : List (Edge T)} {s : Trav T}
    (h : TInv g v0 done rem s) {e : Edge T} (he : IsDirected g.edges e) (hv : e.head ∈ done)
    (hn : s.shifts.lookup e.tail = none) {sv : T} (hsv : s.shifts.lookup e.head = some sv) :
    TInv g v0 done rem { s with shifts := (e.tail, sv + e.shift) :: s.shifts, queue := s.queue ++ [e.tail] } := by
  have hnew : ¬ (e.tail ∈ done ∨ e.tail ∈ s.queue) := by
    rw [← h.keys, hn]; simp
  have hold : ∀ v, (s.shifts.lookup v).isSome → ((e.tail, sv + e.shift) :: s.shifts).lookup v = s.shifts.lookup v := by
    intro v hv
    apply lookup_cons_ne
    rintro rfl
    rw [hn] at hv; simp at hv
  have hsig : ∀ v, (s.shifts.lookup v).isSome → sig ((e.tail, sv + e.shift) :: s.shifts) v = sig s.shifts v := by
    intro v hv; unfold sig; rw [hold v hv]
  have hmono : ∀ v, (s.shifts.lookup v).isSome → (((e.tail, sv + e.shift) :: s.shifts).lookup v).isSome := by
    intro v hv; rw [hold v hv]; exact hv
  have htree : ∀ v, v ∈ done ∨ v ∈ s.queue →
      Relation.ReflTransGen (fun a b => ((((e.tail, sv + e.shift) :: s.shifts).lookup a).isSome ∧
        (((e.tail, sv + e.shift) :: s.shifts).lookup b).isSome) ∧
        ZeroStep g.edges (sig ((e.tail, sv + e.shift) :: s.shifts)) a b) v0 v := by
    intro v hv
    refine rtg_mono ?_ (h.tree v hv)
    rintro a b ⟨⟨ha, hb⟩, f, hf, h1, h2, h3⟩
    exact ⟨⟨hmono a ha, hmono b hb⟩, f, hf, h1, h2, by rw [hsig a ha, hsig b hb]; exact h3⟩
  refine ⟨?_, ?_, ?_, ?_, ?_, ?_, h.seen_nodup, ?_, ?_⟩
  · intro v
    by_cases hvt : v = e.tail
    · subst hvt; simp
    · rw [lookup_cons_ne hvt, h.keys]; simp [hvt]
  · have := h.nodup
    rw [← List.append_assoc, List.nodup_append]
    refine ⟨this, by simp, ?_⟩
    intro a ha b hb hab
    rw [List.mem_singleton] at hb
    rw [hab, hb] at ha
    exact hnew (List.mem_append.1 ha)
  · intro v hv'
    simp only [List.mem_append, List.mem_singleton] at hv'
    rcases hv' with h1 | h1 | h1
    · exact h.verts v (Or.inl h1)
    · exact h.verts v (Or.inr h1)
    · rw [h1]; exact g.tail_mem he
  · simp only
    rw [hold v0 (by rw [h.root]; rfl), h.root]
  · intro v hv'
    simp only [List.mem_append, List.mem_singleton] at hv'
    rcases hv' with h1 | h1 | h1
    · exact htree v (Or.inl h1)
    · exact htree v (Or.inr h1)
    · refine Relation.ReflTransGen.tail (htree e.head (Or.inl hv)) ⟨⟨hmono _ (by rw [hsv]; rfl), ?_⟩, e, he, rfl, h1.symm, ?_⟩
      · rw [h1]; simp
      · rw [hsig _ (by rw [hsv]; rfl), sig_of_lookup hsv, h1]
        simp [sig]
  · intro f hf
    obtain ⟨h1, h2, h3⟩ := h.seen_sub f hf
    exact ⟨h1, hmono _ h2, hmono _ h3⟩
  · simp only
    rw [h.result]
    apply List.map_congr_left
    intro f hf
    obtain ⟨h1, h2, h3⟩ := h.seen_sub f (by simpa using hf)
    unfold adjEdge
    rw [hsig _ h2, hsig _ h3]
  · intro u hu f hf
    rcases h.closed u hu f hf with h1 | ⟨h1, h2⟩
    · exact Or.inl h1
    · exact Or.inr ⟨hmono _ h1, h2⟩

theorem isSome_get {α : Type} {o : Option α} (h : o.isSome) : ∃ a, o = some a := Option.isSome_iff_exists.1 h

theorem travInner_ok {g : Graph T} (hg : g.WF) {v0 v : Nat} {done : List Nat} (hv : v ∈ done) :
    ∀ (es : List (Edge T)) (s : Trav T), (∀ e ∈ es, e ∈ g.inc v) → TInv g v0 done es s →
    ∃ s', travInner v es s = .ok s' ∧ TInv g v0 done [] s' := by
  intro es
  induction es with
  | nil => intro s _ h; exact ⟨s, rfl, h⟩
  | cons e es ih =>
    intro s hes h
    have he := (g.mem_inc v e).1 (hes e (by simp))
    obtain ⟨sv, hsv⟩ := isSome_get ((h.keys v).2 (Or.inl hv))
    -- first part: insert the tail
    obtain ⟨s1, h1, h2, h3⟩ : ∃ s1, travVisit v e s = .ok s1 ∧ TInv g v0 done (e :: es) s1 ∧
        (s1.shifts.lookup e.tail).isSome := by
      unfold travVisit
      cases hl : s.shifts.lookup e.tail with
      | some t => exact ⟨s, rfl, h, by rw [hl]; rfl⟩
      | none =>
        refine ⟨_, ?_, tinv_insert h he.1 (he.2 ▸ hv) hl (by rw [he.2]; exact hsv), by simp⟩
        simp only [hsv, unwrap, Outcome.ok_bind]
    have hc := g.canon_mem hg he.1
    have hkv : (s1.shifts.lookup v).isSome := (h2.keys v).2 (Or.inl hv)
    have hck : (s1.shifts.lookup e.canonical.head).isSome ∧ (s1.shifts.lookup e.canonical.tail).isSome := by
      rcases canonical_or e with hc' | hc' <;> rw [hc']
      · exact ⟨by rw [he.2]; exact hkv, h3⟩
      · exact ⟨h3, by rw [Edge.neg_tail, he.2]; exact hkv⟩
    obtain ⟨s2, h4, h5⟩ : ∃ s2, travRecord e.canonical s1 = .ok s2 ∧ TInv g v0 done es s2 := by
      unfold travRecord
      by_cases hin : e.canonical ∈ s1.seen
      · refine ⟨s1, by rw [if_pos hin], ⟨h2.keys, h2.nodup, h2.verts, h2.root, h2.tree, h2.seen_sub,
          h2.seen_nodup, h2.result, fun u hu f hf => ?_⟩⟩
        rcases h2.closed u hu f hf with h6 | h6
        · rcases List.mem_cons.1 h6 with h7 | h7
          · exact Or.inr (h7 ▸ ⟨h3, hin⟩)
          · exact Or.inl h7
        · exact Or.inr h6
      · obtain ⟨a, ha⟩ := isSome_get hck.1
        obtain ⟨b, hb⟩ := isSome_get hck.2
        refine ⟨{ s1 with
                  result := s1.result ++ [⟨e.canonical.head, e.canonical.tail, a + e.canonical.shift - b⟩],
                  seen := e.canonical :: s1.seen },
          by rw [if_neg hin, ha, hb]; rfl, ⟨h2.keys, h2.nodup, h2.verts, h2.root, h2.tree, ?_,
          ?_, ?_, fun u hu f hf => ?_⟩⟩
        · intro f hf
          rcases List.mem_cons.1 hf with h7 | h7
          · rw [h7]; exact ⟨hc, hck⟩
          · exact h2.seen_sub f h7
        · exact List.nodup_cons.2 ⟨hin, h2.seen_nodup⟩
        · simp only [List.reverse_cons, List.map_append, List.map_cons, List.map_nil]
          rw [h2.result]
          unfold adjEdge
          simp [sig, ha, hb]
        · rcases h2.closed u hu f hf with h6 | ⟨h6, h6'⟩
          · rcases List.mem_cons.1 h6 with h7 | h7
            · right; rw [h7]; exact ⟨h3, by simp⟩
            · exact Or.inl h7
          · exact Or.inr ⟨h6, List.mem_cons_of_mem _ h6'⟩
    obtain ⟨s3, h6, h7⟩ := ih s2 (fun f hf => hes f (by simp [hf])) h5
    refine ⟨s3, ?_, h7⟩
    rw [travInner]
    rw [h1, Outcome.ok_bind, h4, Outcome.ok_bind]
    exact h6

/-- what is known when the queue is empty -/
theorem travLoop_ok {g : Graph T} (hg : g.WF) {v0 : Nat} : ∀ (fuel : Nat) (done : List Nat) (s : Trav T),
    TInv g v0 done [] s → g.vertices.length < fuel + done.length →
    ∃ done' s', travLoop g fuel s = .ok s'.result ∧ TInv g v0 done' [] s' ∧ s'.queue = [] := by
  intro fuel
  induction fuel with
  | zero =>
    intro done s h hf
    exfalso
    have h1 : done.Nodup := (List.nodup_append.1 h.nodup).1
    have h2 : done.length ≤ g.vertices.length :=
      (h1.subperm (fun v hv => h.verts v (Or.inl hv))).length_le
    omega
  | succ fuel ih =>
    intro done s h hf
    cases hq : s.queue with
    | nil => exact ⟨done, s, by rw [travLoop, hq], h, hq⟩
    | cons v q =>
      have hv : v ∈ g.vertices := h.verts v (Or.inr (by rw [hq]; simp))
      have hnd := h.nodup
      rw [hq] at hnd
      have h0 : TInv g v0 (v :: done) (g.inc v) { s with queue := q } := by
        have hm : ∀ u, u ∈ v :: done ∨ u ∈ q ↔ u ∈ done ∨ u ∈ s.queue := by
          intro u; rw [hq]; simp only [List.mem_cons]; tauto
        refine ⟨fun u => ?_, ?_, fun u hu => h.verts u ((hm u).1 hu), h.root, fun u hu => h.tree u ((hm u).1 hu),
          h.seen_sub, h.seen_nodup, h.result, fun u hu e he => ?_⟩
        · simp only; rw [hm]; exact h.keys u
        · exact (List.perm_middle (l₁ := done) (l₂ := q) (a := v)).nodup_iff.1 hnd
        · rcases List.mem_cons.1 hu with h1 | h1
          · left; rw [← h1]; exact he
          · rcases h.closed u h1 e he with h2 | h2
            · exact absurd h2 List.not_mem_nil
            · exact Or.inr h2
      obtain ⟨s', h1, h2⟩ := travInner_ok hg (v := v) (done := v :: done) (by simp) (g.inc v) _ (fun e he => he) h0
      obtain ⟨done'', s'', h3, h4, h5⟩ := ih (v :: done) s' h2 (by simp only [List.length_cons]; omega)
      refine ⟨done'', s'', ?_, h4, h5⟩
      rw [travLoop, hq]
      simp only
      rw [g.incidences_ok hv, Outcome.ok_bind, h1, Outcome.ok_bind]
      exact h3

theorem qadj_symm {raw : List (Edge T)} {v w : Nat} (h : QAdj raw v w) : QAdj raw w v := by
  obtain ⟨e, he, h1, h2⟩ := h
  exact ⟨e.neg, isDirected_neg.2 he, h2, h1⟩

theorem qjoined_symm {raw : List (Edge T)} {v w : Nat} (h : QJoined raw v w) : QJoined raw w v := by
  induction h with
  | refl => exact Relation.ReflTransGen.refl
  | tail _ h2 ih => exact Relation.ReflTransGen.head (qadj_symm h2) ih

theorem zeroStep_symm {raw : List (Edge T)} {σ : Nat → T} {v w : Nat} (h : ZeroStep raw σ v w) :
    ZeroStep raw σ w v := by
  obtain ⟨e, he, h1, h2, h3⟩ := h
  exact ⟨e.neg, isDirected_neg.2 he, h2, h1, by rw [← h3]; simp⟩

/-- The traversal from `v0` returns the edges of the component of `v0`, shifts adjusted. -/
theorem traverse_ok {g : Graph T} (hg : g.WF) {v0 : Nat} (hv : v0 ∈ g.vertices) :
    ∃ (σ : Nat → T) (seen : List (Edge T)), traverse g v0 = .ok (seen.map (adjEdge σ)) ∧ seen.Nodup ∧
      (∀ e, e ∈ seen ↔ e ∈ g.edges ∧ QJoined g.edges v0 e.head) ∧ σ v0 = 0 ∧
      ∀ v, QJoined g.edges v0 v → Relation.ReflTransGen (ZeroStep g.edges σ) v0 v := by
  have h0 : TInv g v0 [] [] ⟨[(v0, 0)], [], [v0], []⟩ := by
    refine ⟨fun v => ?_, by simp, fun v h => ?_, by simp, fun v h => ?_, by simp, List.nodup_nil, by simp, by simp⟩
    · by_cases h : v = v0
      · subst h; simp
      · rw [lookup_cons_ne h]; simp [h]
    · simp only [List.not_mem_nil, List.mem_singleton, false_or] at h
      rw [h]; exact hv
    · simp only [List.not_mem_nil, List.mem_singleton, false_or] at h
      rw [h]
  obtain ⟨done, s, h1, h2, h3⟩ := travLoop_ok hg (g.vertices.length + 1) [] _ h0 (by simp)
  have hk : ∀ v, (s.shifts.lookup v).isSome ↔ v ∈ done := by
    intro v; rw [h2.keys, h3]; simp
  have hclosed : ∀ u ∈ done, ∀ e ∈ g.inc u, (s.shifts.lookup e.tail).isSome ∧ e.canonical ∈ s.seen := by
    intro u hu e he
    rcases h2.closed u hu e he with h | h
    · exact absurd h List.not_mem_nil
    · exact h
  have hr : v0 ∈ done := by rw [← hk, h2.root]; rfl
  have hdone : ∀ v, v ∈ done ↔ QJoined g.edges v0 v := by
    intro v
    constructor
    · intro h
      refine rtg_mono ?_ (h2.tree v (Or.inl h))
      rintro a b ⟨-, e, he, h4, h5, -⟩
      exact ⟨e, he, h4, h5⟩
    · intro h
      induction h with
      | refl => exact hr
      | tail _ h5 ih =>
        obtain ⟨e, he, h6, h7⟩ := h5
        rw [← hk, ← h7]
        exact (hclosed _ ih e ((g.mem_inc _ e).2 ⟨he, h6⟩)).1
  refine ⟨sig s.shifts, s.seen.reverse, ?_, by simpa using h2.seen_nodup, fun e => ?_, ?_, fun v hv' => ?_⟩
  · unfold traverse; rw [h1, h2.result]
  · rw [List.mem_reverse]
    constructor
    · intro h
      obtain ⟨h4, h5, -⟩ := h2.seen_sub e h
      exact ⟨h4, (hdone _).1 ((hk _).1 h5)⟩
    · rintro ⟨h4, h5⟩
      have := (hclosed e.head ((hdone _).2 h5) e ((g.mem_inc _ e).2 ⟨Or.inl h4, rfl⟩)).2
      rwa [hg.canon e h4] at this
  · simp [sig, h2.root]
  · refine rtg_mono ?_ (h2.tree v (Or.inl ((hdone v).2 hv')))
    rintro a b ⟨-, h⟩
    exact h

theorem traverse_panic (g : Graph T) {v0 : Nat} (hv : v0 ∉ g.vertices) : traverse g v0 = .panic := by
  unfold traverse
  rw [travLoop]
  simp only
  rw [g.incidences_eq, if_neg hv]
  rfl

end
end Systre
