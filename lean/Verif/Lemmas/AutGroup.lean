import Verif.Lemmas.Automorphism2
import Mathlib.GroupTheory.OrderOfElement
import Mathlib.Algebra.Group.Subgroup.Finite

/-! # Products and equality of automorphisms, the group generated -/

set_option linter.unusedSectionVars false

namespace Systre

/-! ### hash maps with given keys -/

section
variable {α β : Type} [DecidableEq α] [DecidableEq β]

theorem lookup_isSome_iff_mem (m : List (α × β)) (k : α) : (∃ v, m.lookup k = some v) ↔ k ∈ m.map Prod.fst := by
  induction m with
  | nil => simp
  | cons p m ih =>
    obtain ⟨a, b⟩ := p
    rw [lookup_cons']
    by_cases h : k = a
    · simp [h]
    · rw [if_neg h, ih]; simp [h]

theorem lookup_of_mem {m : List (α × β)} (hn : (m.map Prod.fst).Nodup) {p : α × β} (hp : p ∈ m) :
    m.lookup p.1 = some p.2 := by
  induction m with
  | nil => simp at hp
  | cons q m ih =>
    obtain ⟨a, b⟩ := q
    rw [List.map_cons, List.nodup_cons] at hn
    rw [lookup_cons']
    rcases List.mem_cons.1 hp with h | h
    · subst h; simp
    · have : p.1 ≠ a := by
        intro he
        apply hn.1
        show a ∈ _
        rw [← he]
        exact List.mem_map_of_mem h
      rw [if_neg this]; exact ih hn.2 h

theorem mem_of_lookup {m : List (α × β)} {k : α} {v : β} (h : m.lookup k = some v) : (k, v) ∈ m := by
  induction m with
  | nil => simp at h
  | cons q m ih =>
    obtain ⟨a, b⟩ := q
    rw [lookup_cons'] at h
    by_cases hk : k = a
    · rw [if_pos hk] at h
      rw [hk, Option.some.inj h]; simp
    · rw [if_neg hk] at h; exact List.mem_cons_of_mem _ (ih h)

/-- the table of `f` on the keys with property `P` -/
structure IsTable (m : List (α × β)) (P : α → Prop) (f : α → β) : Prop where
  look : ∀ k v, m.lookup k = some v ↔ P k ∧ v = f k
  nodup : (m.map Prod.fst).Nodup

theorem IsTable.keys {m : List (α × β)} {P : α → Prop} {f : α → β} (h : IsTable m P f) (k : α) :
    k ∈ m.map Prod.fst ↔ P k := by
  rw [← lookup_isSome_iff_mem]
  constructor
  · rintro ⟨v, hv⟩; exact ((h.look k v).1 hv).1
  · intro hk; exact ⟨f k, (h.look _ _).2 ⟨hk, rfl⟩⟩

theorem IsTable.get {m : List (α × β)} {P : α → Prop} {f : α → β} (h : IsTable m P f) {k : α} (hk : P k) :
    m.lookup k = some (f k) := (h.look _ _).2 ⟨hk, rfl⟩

theorem hmEq_iff {m m' : List (α × β)} {P : α → Prop} {f f' : α → β} (h : IsTable m P f) (h' : IsTable m' P f') :
    hmEq m m' = true ↔ ∀ k, P k → f k = f' k := by
  have hl : m.length = m'.length := by
    have : (m.map Prod.fst).Perm (m'.map Prod.fst) := by
      rw [List.perm_ext_iff_of_nodup h.nodup h'.nodup]
      intro k; rw [h.keys, h'.keys]
    simpa using this.length_eq
  unfold hmEq
  simp only [hl, decide_true, Bool.true_and, List.all_eq_true, decide_eq_true_eq]
  constructor
  · intro hh k hk
    have := hh (k, f k) (mem_of_lookup (h.get hk))
    simp only at this
    rw [h'.get hk] at this
    exact (Option.some.inj this).symm
  · intro hh p hp
    have h1 := lookup_of_mem h.nodup hp
    obtain ⟨h2, h3⟩ := (h.look _ _).1 h1
    rw [h'.get h2, h3, hh _ h2]

theorem lookup_map_self (l : List α) (f : α → β) (k : α) :
    (l.map (fun a => (a, f a))).lookup k = if k ∈ l then some (f k) else none := by
  induction l with
  | nil => simp
  | cons a l ih =>
    rw [List.map_cons, lookup_cons', ih]
    by_cases h : k = a
    · simp [h]
    · simp [h]

theorem isTable_map {l : List α} (hl : l.Nodup) {P : α → Prop} (hP : ∀ k, k ∈ l ↔ P k) (f : α → β) :
    IsTable (l.map (fun a => (a, f a))) P f := by
  constructor
  · intro k v
    rw [lookup_map_self, ← hP]
    by_cases h : k ∈ l
    · simp [h, eq_comm]
    · simp [h]
  · rw [List.map_map]; simpa [Function.comp_def] using hl

theorem isTable_collect {l : List α} {P : α → Prop} (hP : ∀ k, k ∈ l ↔ P k) (f : α → β) :
    IsTable (hmCollect (l.map (fun a => (a, f a)))) P f := by
  have : hmCollect (l.map (fun a => (a, f a))) = l.foldl (fun m a => hmInsert m a (f a)) [] := by
    unfold hmCollect
    rw [List.foldl_map]
  rw [this]
  constructor
  · intro k v
    rw [foldl_hmInsert_lookup, ← hP]
    by_cases h : k ∈ l
    · simp [h, eq_comm]
    · simp [h]
  · exact foldl_hmInsert_nodup f l [] (by simp)

end

theorem mulMap_table {α : Type} [DecidableEq α] {m m' : List (α × α)} {P : α → Prop} {f f' : α → α}
    (h : IsTable m P f) (h' : IsTable m' P f') (hP : ∀ k, P k → P (f' k)) :
    ∃ r, Automorphism.mulMap m m' = .ok r ∧ IsTable r P (fun k => f (f' k)) := by
  refine ⟨(Automorphism.keysOf m).map (fun k => (k, f (f' k))), ?_, isTable_map h.nodup h.keys _⟩
  unfold Automorphism.mulMap
  apply omap_ok
  intro k hk
  have hk' := (h.keys k).1 hk
  rw [h'.get hk']
  show (do
    let z ← unwrap (List.lookup (f' k) m)
    Outcome.ok (k, z)) = _
  rw [h.get (hP k hk')]
  rfl

section
variable {T : Type} [LabelVector T] [LawfulLabelVector T]
variable {raw : List (Edge T)} {pos : Nat → Fin (LabelVector.dim T) → ℚ}
  {A B : Matrix (Fin (LabelVector.dim T)) (Fin (LabelVector.dim T)) ℚ} {s t : Fin (LabelVector.dim T) → ℚ}
  {a b : Automorphism T} {vm vm' : Nat → Nat} {em em' : Edge T → Edge T}

theorem Stands.vt (h : Stands raw a vm em A s) : IsTable a.vertexMap (IsVertex raw) vm := ⟨h.vkeys, h.vnodup⟩
theorem Stands.et (h : Stands raw a vm em A s) : IsTable a.edgeMap (IsDirected raw) em := ⟨h.ekeys, h.enodup⟩

theorem stands_mul (ha : Stands raw a vm em A s) (hb : Stands raw b vm' em' B t)
    (hV : ∀ v, IsVertex raw v → IsVertex raw (vm' v)) (hE : ∀ e, IsDirected raw e → IsDirected raw (em' e)) :
    ∃ c, a.mul b = .ok c ∧ Stands raw c (fun v => vm (vm' v)) (fun e => em (em' e)) (A * B) (A.mulVec t + s) := by
  obtain ⟨c, h1, h2⟩ := aff_mul ha.aff hb.aff
  obtain ⟨r, h3, h4⟩ := mulMap_table ha.vt hb.vt hV
  obtain ⟨q, h5, h6⟩ := mulMap_table ha.et hb.et hE
  refine ⟨⟨r, q, c⟩, ?_, ⟨h4.look, h6.look, h4.nodup, h6.nodup, h2⟩⟩
  unfold Automorphism.mul
  rw [bind_ok h1, bind_ok h3, bind_ok h5]

theorem eqv_iff (ha : Stands raw a vm em A s) (hb : Stands raw b vm' em' B t) :
    a.eqv b = true ↔ (∀ v, IsVertex raw v → vm v = vm' v) ∧ (∀ e, IsDirected raw e → em e = em' e) ∧
      A = B ∧ s = t := by
  unfold Automorphism.eqv
  rw [Bool.and_eq_true, Bool.and_eq_true, hmEq_iff ha.vt hb.vt, hmEq_iff ha.et hb.et, decide_eq_true_eq, and_assoc]
  have : a.transform = b.transform ↔ A = B ∧ s = t := by
    constructor
    · intro h
      have h1 := ha.aff
      rw [h] at h1
      exact h1.inj hb.aff
    · rintro ⟨rfl, rfl⟩
      exact ha.aff.unique hb.aff
  rw [this]

theorem stands_identity (g : Graph T) : ∃ i, Automorphism.identity g = .ok i ∧
    Stands g.edges i (fun v => v) (fun e => e) 1 0 := by
  obtain ⟨t, h1, h2⟩ := aff_identity (T := ℚ) (LabelVector.dim T)
  have hd : g.directedEdges = .ok ((g.vertices.map g.inc).flatten) := by
    unfold Graph.directedEdges
    rw [omap_ok (fun v hv => g.incidences_ok hv)]
    rfl
  have hm : ∀ e, e ∈ (g.vertices.map g.inc).flatten ↔ IsDirected g.edges e := by
    intro e
    simp only [List.mem_flatten, List.mem_map, exists_exists_and_eq_and, Graph.mem_inc]
    constructor
    · rintro ⟨v, hv, h, -⟩; exact h
    · intro h; exact ⟨e.head, g.head_mem h, h, rfl⟩
  have v1 := isTable_collect (l := g.vertices) (P := IsVertex g.edges) (fun v => g.mem_vertices v) (fun v => v)
  have e1 := isTable_collect hm (fun e => e)
  refine ⟨⟨_, _, t⟩, ?_, ⟨v1.look, e1.look, v1.nodup, e1.nodup, h2⟩⟩
  unfold Automorphism.identity
  rw [bind_ok h1, bind_ok hd]
  rfl

theorem IsGraphAut.id (raw : List (Edge T)) (pos : Nat → Fin (LabelVector.dim T) → ℚ) :
    IsGraphAut raw pos (fun v => v) (fun e => e) 1 :=
  ⟨Set.bijOn_id _, Set.bijOn_id _, fun _ _ => rfl, fun _ _ => rfl, fun _ _ => rfl, fun _ _ => by simp⟩

theorem IsGraphAut.comp (ha : IsGraphAut raw pos vm em A) (hb : IsGraphAut raw pos vm' em' B) :
    IsGraphAut raw pos (fun v => vm (vm' v)) (fun e => em (em' e)) (A * B) := by
  refine ⟨ha.vbij.comp hb.vbij, ha.ebij.comp hb.ebij, ?_, ?_, ?_, ?_⟩
  · intro e he; rw [ha.head _ (hb.ebij.mapsTo he), hb.head e he]
  · intro e he; rw [ha.tail _ (hb.ebij.mapsTo he), hb.tail e he]
  · intro e he; rw [hb.rev e he, ha.rev _ (hb.ebij.mapsTo he)]
  · intro e he; rw [ha.vec _ (hb.ebij.mapsTo he), hb.vec e he, Matrix.mulVec_mulVec]

end

/-! ### the group generated by a list -/

section
variable {α G : Type} [Group G] [Finite G] {mul : α → α → Outcome α} {eqv : α → α → Bool} {Good : α → Prop}
  {ρ : α → G}

theorem mgInner_ok (hmul : ∀ a b, Good a → Good b → ∃ c, mul a b = .ok c ∧ Good c ∧ ρ c = ρ a * ρ b)
    (heqv : ∀ a b, Good a → Good b → (eqv a b = true ↔ ρ a = ρ b)) {phi : α} (hphi : Good phi) :
    ∀ (gens result queue : List α), (∀ x ∈ gens, Good x) → (∀ x ∈ result, Good x) → (result.map ρ).Nodup →
      ∃ new : List α, mgInner mul eqv phi gens result queue = .ok (result ++ new, queue ++ new) ∧
        (∀ x ∈ new, Good x ∧ ∃ g ∈ gens, ρ x = ρ phi * ρ g) ∧ ((result ++ new).map ρ).Nodup ∧
        ∀ g ∈ gens, ρ phi * ρ g ∈ (result ++ new).map ρ := by
  intro gens
  induction gens with
  | nil => intro result queue _ _ hn; exact ⟨[], by simp [mgInner], by simp, by simpa using hn, by simp⟩
  | cons psi gens ih =>
    intro result queue hg hr hn
    obtain ⟨c, h1, h2, h3⟩ := hmul phi psi hphi (hg psi (by simp))
    have hany : result.any (eqv c) = true ↔ ρ c ∈ result.map ρ := by
      rw [List.any_eq_true, List.mem_map]
      constructor
      · rintro ⟨x, hx, h⟩; exact ⟨x, hx, ((heqv c x h2 (hr x hx)).1 h).symm⟩
      · rintro ⟨x, hx, h⟩; exact ⟨x, hx, (heqv c x h2 (hr x hx)).2 h.symm⟩
    by_cases hc : result.any (eqv c) = true
    · obtain ⟨new, e1, e2, e3, e4⟩ := ih result queue (fun x hx => hg x (by simp [hx])) hr hn
      refine ⟨new, ?_, ?_, e3, ?_⟩
      · unfold mgInner
        rw [bind_ok h1, if_pos hc, e1]
      · intro x hx
        obtain ⟨i1, g, i2, i3⟩ := e2 x hx
        exact ⟨i1, g, by simp [i2], i3⟩
      · intro g hgm
        rcases List.mem_cons.1 hgm with rfl | hgm
        · rw [← h3, List.map_append, List.mem_append]; exact Or.inl (hany.1 hc)
        · exact e4 g hgm
    · have hnot : ρ c ∉ result.map ρ := fun h => hc (hany.2 h)
      obtain ⟨new, e1, e2, e3, e4⟩ := ih (result ++ [c]) (queue ++ [c]) (fun x hx => hg x (by simp [hx]))
        (by
          intro x hx
          rcases List.mem_append.1 hx with h | h
          · exact hr x h
          · rw [List.mem_singleton.1 h]; exact h2)
        (by
          rw [List.map_append, List.map_singleton, List.nodup_append]
          refine ⟨hn, by simp, ?_⟩
          intro x hx y hy
          rw [List.mem_singleton.1 hy]
          rintro rfl; exact hnot hx)
      have as1 : result ++ [c] ++ new = result ++ c :: new := by simp
      rw [as1] at e1 e3 e4
      have as2 : queue ++ [c] ++ new = queue ++ c :: new := by simp
      rw [as2] at e1
      refine ⟨c :: new, ?_, ?_, e3, ?_⟩
      · unfold mgInner
        rw [bind_ok h1, if_neg hc, e1]
      · intro x hx
        rcases List.mem_cons.1 hx with rfl | hx
        · exact ⟨h2, psi, by simp, h3⟩
        · obtain ⟨i1, g, i2, i3⟩ := e2 x hx
          exact ⟨i1, g, by simp [i2], i3⟩
      · intro g hgm
        rcases List.mem_cons.1 hgm with rfl | hgm
        · rw [← h3]; simp
        · exact e4 g hgm

theorem mgLoop_ok (hmul : ∀ a b, Good a → Good b → ∃ c, mul a b = .ok c ∧ Good c ∧ ρ c = ρ a * ρ b)
    (heqv : ∀ a b, Good a → Good b → (eqv a b = true ↔ ρ a = ρ b)) {gens : List α} (hg : ∀ x ∈ gens, Good x) :
    ∀ (fuel : Nat) (don queue : List α), Nat.card G + 1 ≤ fuel + don.length →
      (∀ x ∈ don ++ queue, Good x) → ((don ++ queue).map ρ).Nodup →
      (∀ x ∈ don ++ queue, ρ x ∈ Subgroup.closure {y | ∃ g ∈ gens, y = ρ g}) →
      (∀ x ∈ don, ∀ g ∈ gens, ρ x * ρ g ∈ (don ++ queue).map ρ) →
      ∃ l, mgLoop mul eqv gens fuel (don ++ queue) queue = .ok l ∧ (∀ x ∈ l, Good x) ∧ (l.map ρ).Nodup ∧
        (∀ x ∈ l, ρ x ∈ Subgroup.closure {y | ∃ g ∈ gens, y = ρ g}) ∧
        (∀ x ∈ l, ∀ g ∈ gens, ρ x * ρ g ∈ l.map ρ) ∧ (∀ x ∈ don ++ queue, x ∈ l) := by
  have hcard : ∀ l : List α, (l.map ρ).Nodup → l.length ≤ Nat.card G := by
    classical
    intro l hl
    haveI := Fintype.ofFinite G
    rw [Nat.card_eq_fintype_card]
    have := hl.length_le_card
    simpa using this
  intro fuel
  induction fuel with
  | zero =>
    intro don queue hf _ hn
    have := hcard don (by rw [List.map_append, List.nodup_append] at hn; exact hn.1)
    omega
  | succ fuel ih =>
    intro don queue hf hgood hn hcl hdone
    cases queue with
    | nil =>
      refine ⟨don ++ [], by unfold mgLoop; rfl, hgood, hn, hcl, ?_, fun x hx => hx⟩
      intro x hx; exact hdone x (by simpa using hx)
    | cons phi q =>
      have hphi : Good phi := hgood phi (by simp)
      obtain ⟨new, e1, e2, e3, e4⟩ := mgInner_ok hmul heqv hphi gens (don ++ phi :: q) q hg hgood hn
      have as : don ++ phi :: q ++ new = (don ++ [phi]) ++ (q ++ new) := by simp
      rw [as] at e1 e3 e4
      obtain ⟨l, h1, h2, h3, h4, h5, h6⟩ := ih (don ++ [phi]) (q ++ new)
        (by rw [List.length_append, List.length_singleton]; omega)
        (by
          intro x hx
          rw [← as, List.mem_append] at hx
          rcases hx with hx | hx
          · exact hgood x hx
          · exact (e2 x hx).1)
        e3
        (by
          intro x hx
          rw [← as, List.mem_append] at hx
          rcases hx with hx | hx
          · exact hcl x hx
          · obtain ⟨-, g, i2, i3⟩ := e2 x hx
            rw [i3]
            exact mul_mem (hcl phi (by simp)) (Subgroup.subset_closure ⟨g, i2, rfl⟩))
        (by
          intro x hx g hgm
          rcases List.mem_append.1 hx with hx | hx
          · have := hdone x hx g hgm
            rw [← as, List.map_append, List.mem_append]
            exact Or.inl this
          · rw [List.mem_singleton.1 hx]
            exact e4 g hgm)
      refine ⟨l, ?_, h2, h3, h4, h5, ?_⟩
      · unfold mgLoop
        simp only
        rw [e1]
        exact h1
      · intro x hx
        apply h6
        rw [← as, List.mem_append]; exact Or.inl hx

/-- The list is the subgroup generated by the generators, each element once. -/
theorem multiplicativeGroup_ok (hmul : ∀ a b, Good a → Good b → ∃ c, mul a b = .ok c ∧ Good c ∧ ρ c = ρ a * ρ b)
    (heqv : ∀ a b, Good a → Good b → (eqv a b = true ↔ ρ a = ρ b)) {gens : List α} (hg : ∀ x ∈ gens, Good x)
    {one : α} (h1 : Good one) (hone : ρ one = 1) {fuel : Nat} (hf : Nat.card G + 1 ≤ fuel) :
    ∃ l, multiplicativeGroup mul eqv fuel one gens = .ok l ∧ (∀ x ∈ l, Good x) ∧ (l.map ρ).Nodup ∧ one ∈ l ∧
      ∀ y, y ∈ Subgroup.closure {y | ∃ g ∈ gens, y = ρ g} ↔ y ∈ l.map ρ := by
  obtain ⟨l, e1, e2, e3, e4, e5, e6⟩ := mgLoop_ok hmul heqv hg fuel [] [one] (by simpa using hf) (by simpa using h1)
    (by simp) (by
      intro x hx
      rw [List.mem_singleton.1 hx, hone]
      exact one_mem _) (by simp)
  refine ⟨l, e1, e2, e3, e6 one (by simp), fun y => ⟨?_, ?_⟩⟩
  · intro hy
    have hone' : (1 : G) ∈ l.map ρ := List.mem_map.2 ⟨one, e6 one (by simp), hone⟩
    have hfin : y ∈ Submonoid.closure {y | ∃ g ∈ gens, y = ρ g} := by
      rw [← Subgroup.mem_toSubmonoid, Subgroup.closure_toSubmonoid_of_finite] at hy
      exact hy
    clear hy
    induction hfin using Submonoid.closure_induction_right with
    | one => exact hone'
    | mul_right x _ g hg ih =>
      obtain ⟨g, hg, rfl⟩ := hg
      obtain ⟨x', hx', rfl⟩ := List.mem_map.1 ih
      exact e5 x' hx' g hg
  · intro hy
    obtain ⟨x, hx, rfl⟩ := List.mem_map.1 hy
    exact e4 x hx

end

end Systre
