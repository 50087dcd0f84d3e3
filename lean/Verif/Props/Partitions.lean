import Verif.Lemmas.Partitions
import Mathlib.Logic.Relation

/-! # C01-C05: `Partition` (src/partitions.rs) -/

namespace Systre.Partitions

open Systre

variable {T : Type} [DecidableEq T]

/-! ## Specification -/

/-- `a` and `b` are connected by a chain of pairs on which `unite` was called in the history. -/
def Joined (ops : List (Op T)) (a b : T) : Prop :=
  Relation.EqvGen (fun x y => Op.unite x y ∈ ops) a b

/-- Two histories with the same `unite` calls in the same order (`find` and `classes` calls are free). -/
def SameUnites (ops ops' : List (Op T)) : Prop :=
  ops.filter (fun | .unite _ _ => true | _ => false) =
    ops'.filter (fun | .unite _ _ => true | _ => false)

/-- `HopPath parent i k r`: following `parent` from `i` takes `k` proper hops to reach `r`. -/
inductive HopPath (parent : List Nat) : Nat → Nat → Nat → Prop
  | stop (i : Nat) : HopPath parent i 0 i
  | hop {i p k r : Nat} : parent[i]? = some p → p ≠ i → HopPath parent p k r →
      HopPath parent i (k + 1) r

/-! ## Lemmas about the abstract machine -/

theorem Joined.mono {ops ops' : List (Op T)} (h : ∀ o ∈ ops, o ∈ ops') {a b : T}
    (hab : Joined ops a b) : Joined ops' a b :=
  Relation.EqvGen.mono (fun _ _ hxy => h _ hxy) _ _ hab

theorem abs_joined (ops : List (Op T)) :
    (∀ a, (absRun Abs.init ops).rep ((absRun Abs.init ops).rep a) = (absRun Abs.init ops).rep a) ∧
    (∀ a, Joined ops a ((absRun Abs.init ops).rep a)) ∧
    (∀ a b, (absRun Abs.init ops).rep a = (absRun Abs.init ops).rep b ↔ Joined ops a b) := by
  induction ops using List.reverseRecOn with
  | nil =>
    refine ⟨fun a => rfl, fun a => Relation.EqvGen.refl a, fun a b => ⟨?_, ?_⟩⟩
    · intro h; have h' : a = b := h; subst h'; exact Relation.EqvGen.refl a
    · intro h
      show a = b
      induction h with
      | rel x y h => simp at h
      | refl x => rfl
      | symm x y _ ih => exact ih.symm
      | trans x y z _ _ ih1 ih2 => exact ih1.trans ih2
  | append_singleton ops op ih =>
    have hm : ∀ o ∈ ops, o ∈ ops ++ [op] := fun o ho => by simp [ho]
    obtain ⟨i1, i2, i3⟩ := ih
    generalize hA : absRun Abs.init ops = A at i1 i2 i3
    have hrun : absRun Abs.init (ops ++ [op]) = absStep A op := by
      rw [← hA]; simp [absRun, List.foldl_append]
    rw [hrun]
    cases op with
    | find c =>
      have hiff : ∀ a b, Joined (ops ++ [Op.find c]) a b ↔ Joined ops a b := by
        intro a b
        refine ⟨Relation.EqvGen.mono ?_ _ _, fun h => h.mono hm⟩
        intro x y h; simpa using h
      refine ⟨i1, fun a => (i2 a).mono hm, fun a b => ?_⟩
      rw [hiff]; exact i3 a b
    | classes es =>
      have hiff : ∀ a b, Joined (ops ++ [Op.classes es]) a b ↔ Joined ops a b := by
        intro a b
        refine ⟨Relation.EqvGen.mono ?_ _ _, fun h => h.mono hm⟩
        intro x y h; simpa using h
      refine ⟨i1, fun a => (i2 a).mono hm, fun a b => ?_⟩
      rw [hiff]; exact i3 a b
    | unite c d =>
      have hcd : Joined (ops ++ [Op.unite c d]) c d := Relation.EqvGen.rel _ _ (by simp)
      have hrr : Joined (ops ++ [Op.unite c d]) (A.rep c) (A.rep d) :=
        (((i2 c).mono hm).symm).trans _ _ _ (hcd.trans _ _ _ ((i2 d).mono hm))
      -- general shape of the new representative map
      have key : ∀ (u v : T), A.rep u = u → A.rep v = v → Joined (ops ++ [Op.unite c d]) u v →
          (∀ w, (if A.rep w = u then v else A.rep w) = (if A.rep w = u then v else A.rep w)) →
          (({u, v} : Set T) = {A.rep c, A.rep d}) → 
          (∀ a, (if A.rep (if A.rep a = u then v else A.rep a) = u then v
              else A.rep (if A.rep a = u then v else A.rep a)) = (if A.rep a = u then v else A.rep a)) ∧
          (∀ a, Joined (ops ++ [Op.unite c d]) a (if A.rep a = u then v else A.rep a)) ∧
          (∀ a b, (if A.rep a = u then v else A.rep a) = (if A.rep b = u then v else A.rep b) ↔
            Joined (ops ++ [Op.unite c d]) a b) := by
        intro u v hu hv huv _ hset
        have hcdne : (if A.rep c = u then v else A.rep c) = (if A.rep d = u then v else A.rep d) := by
          have h1 : A.rep c ∈ ({u, v} : Set T) := by rw [hset]; simp
          have h2 : A.rep d ∈ ({u, v} : Set T) := by rw [hset]; simp
          have ev : ∀ z ∈ ({u, v} : Set T), (if z = u then v else z) = v := by
            rintro z (rfl | hz)
            · simp
            · have hz' : z = v := hz
              subst hz'; split <;> rfl
          rw [ev _ h1, ev _ h2]
        have p2 : ∀ a, Joined (ops ++ [Op.unite c d]) a (if A.rep a = u then v else A.rep a) := by
          intro a; split
          · rename_i h; exact (((i2 a).mono hm)).trans _ _ _ (h ▸ huv)
          · exact (i2 a).mono hm
        refine ⟨?_, p2, ?_⟩
        · intro a
          by_cases h : A.rep a = u
          · rw [if_pos h, hv]; split <;> rfl
          · rw [if_neg h, i1, if_neg h]
        · intro a b
          constructor
          · intro h
            refine (p2 a).trans _ _ _ ?_
            rw [h]; exact (p2 b).symm
          · intro h
            induction h with
            | rel x y h =>
              simp only [List.mem_append, List.mem_singleton, Op.unite.injEq] at h
              rcases h with h | ⟨rfl, rfl⟩
              · have : A.rep x = A.rep y := (i3 x y).2 (Relation.EqvGen.rel _ _ h)
                rw [this]
              · exact hcdne
            | refl x => rfl
            | symm x y _ ih => exact ih.symm
            | trans x y z _ _ ih1 ih2 => exact ih1.trans ih2
      show (∀ a, (A.unite c d).rep ((A.unite c d).rep a) = (A.unite c d).rep a) ∧
        (∀ a, Joined (ops ++ [Op.unite c d]) a ((A.unite c d).rep a)) ∧
        (∀ a b, (A.unite c d).rep a = (A.unite c d).rep b ↔ Joined (ops ++ [Op.unite c d]) a b)
      unfold Abs.unite
      dsimp only
      split
      · rename_i h
        refine ⟨i1, fun a => (i2 a).mono hm, fun a b => ⟨fun hab => ((i3 a b).1 hab).mono hm, ?_⟩⟩
        intro hab
        induction hab with
        | rel x y hxy =>
          simp only [List.mem_append, List.mem_singleton, Op.unite.injEq] at hxy
          rcases hxy with hxy | ⟨rfl, rfl⟩
          · exact (i3 x y).2 (Relation.EqvGen.rel _ _ hxy)
          · exact h
        | refl x => rfl
        | symm x y _ ih => exact ih.symm
        | trans x y z _ _ ih1 ih2 => exact ih1.trans ih2
      · split
        · exact key (A.rep c) (A.rep d) (i1 c) (i1 d) hrr (fun _ => rfl) rfl
        · exact key (A.rep d) (A.rep c) (i1 d) (i1 c) hrr.symm (fun _ => rfl) (Set.pair_comm _ _)

/-! ## C03 -/

/-- **C03** No history of calls on a fresh partition panics or loops: every call returns, and so do
`find`, `unite` and `classes` afterwards. -/
theorem C03_total (ops : List (Op T)) :
    ∃ s, run PState.new ops = .ok s ∧
      (∀ a, ∃ r s', find s a = .ok (r, s')) ∧ (∀ a b, ∃ s', unite s a b = .ok s') ∧
      (∀ es, ∃ cs s', classes s es = .ok (s', cs)) := by
  obtain ⟨s, ρ, h1, h2, -⟩ := run_new ops
  refine ⟨s, h1, fun a => ?_, fun a b => ?_, fun es => ?_⟩
  · obtain ⟨s', h, -⟩ := h2.find_ok a; exact ⟨_, s', h⟩
  · obtain ⟨s', ρ', h, -⟩ := h2.unite_ok a b; exact ⟨s', h⟩
  · obtain ⟨s', h, -⟩ := classes_ok h2 es; exact ⟨_, s', h⟩

/-! ## C01 -/

/-- **C01** After any history, two finds agree exactly on elements joined by united pairs. The two
`find` calls are made one after the other, as in the program, on the evolving state. -/
theorem C01_find_iff_joined (ops : List (Op T)) (a b : T) (s s1 s2 : PState T) (ra rb : T)
    (hs : run PState.new ops = .ok s) (ha : find s a = .ok (ra, s1)) (hb : find s1 b = .ok (rb, s2)) :
    ra = rb ↔ Joined ops a b := by
  obtain ⟨s', ρ, h1, h2, -⟩ := run_new ops
  rw [hs] at h1; cases h1
  obtain ⟨s1', h3, h4, -⟩ := h2.find_ok a
  rw [ha] at h3; cases h3
  obtain ⟨s2', h5, h6, -⟩ := h4.find_ok b
  rw [hb] at h5; cases h5
  exact (abs_joined ops).2.2 a b

/-- hypotheses of C01 are met: 1-2 and 3-4 united, then 2-3; 1 and 4 share a representative -/
example : ∃ s s1 s2 ra rb,
    run PState.new [Op.unite 1 2, .unite 3 4, .find 2, .unite 2 3] = .ok s ∧
    find s 1 = .ok (ra, s1) ∧ find s1 4 = .ok (rb, s2) ∧ ra = rb :=
  ⟨_, _, _, _, _, rfl, rfl, rfl, rfl⟩

/-- and with 5, never united, the answers differ -/
example : ∃ s s1 s2 ra rb,
    run PState.new [Op.unite 1 2, .unite 3 4, .find 2, .unite 2 3] = .ok s ∧
    find s 1 = .ok (ra, s1) ∧ find s1 5 = .ok (rb, s2) ∧ ra ≠ rb :=
  ⟨_, _, _, _, _, rfl, rfl, rfl, by decide⟩

/-! ## C02 -/

/-- **C02** (a) `find` calls are invisible: histories with the same `unite` calls give the same
representative. -/
theorem C02_find_invisible (ops ops' : List (Op T)) (h : SameUnites ops ops') (a : T)
    (s s' s1 s1' : PState T) (r r' : T)
    (hs : run PState.new ops = .ok s) (hs' : run PState.new ops' = .ok s')
    (hr : find s a = .ok (r, s1)) (hr' : find s' a = .ok (r', s1')) : r = r' := by
  obtain ⟨t, ρ, h1, h2, -⟩ := run_new ops
  rw [hs] at h1; cases h1
  obtain ⟨t, ρ', h1, h2', -⟩ := run_new ops'
  rw [hs'] at h1; cases h1
  obtain ⟨t, h3, -⟩ := h2.find_ok a
  rw [hr] at h3; cases h3
  obtain ⟨t, h3, -⟩ := h2'.find_ok a
  rw [hr'] at h3; cases h3
  have e := absRun_filter (Abs.init (T := T)) ops
    (fun | .unite _ _ => true | _ => false) (fun _ _ => rfl)
  have e' := absRun_filter (Abs.init (T := T)) ops'
    (fun | .unite _ _ => true | _ => false) (fun _ _ => rfl)
  rw [← e, ← e', h]

/-- **C02** (a') the same for the answer of `classes`. -/
theorem C02_classes_invisible (ops ops' : List (Op T)) (h : SameUnites ops ops') (elms : List T)
    (s s' s1 s1' : PState T) (cs cs' : List (List T))
    (hs : run PState.new ops = .ok s) (hs' : run PState.new ops' = .ok s')
    (hr : classes s elms = .ok (s1, cs)) (hr' : classes s' elms = .ok (s1', cs')) : cs = cs' := by
  obtain ⟨t, ρ, h1, h2, -⟩ := run_new ops
  rw [hs] at h1; cases h1
  obtain ⟨t, ρ', h1, h2', -⟩ := run_new ops'
  rw [hs'] at h1; cases h1
  obtain ⟨t, h3, -⟩ := classes_ok h2 elms
  rw [hr] at h3; cases h3
  obtain ⟨t, h3, -⟩ := classes_ok h2' elms
  rw [hr'] at h3; cases h3
  have e := absRun_filter (Abs.init (T := T)) ops
    (fun | .unite _ _ => true | _ => false) (fun _ _ => rfl)
  have e' := absRun_filter (Abs.init (T := T)) ops'
    (fun | .unite _ _ => true | _ => false) (fun _ _ => rfl)
  rw [← e, ← e', h]

/-- **C02** (b) the representative lies in the class of the argument, and it is the representative
of itself. -/
theorem C02_rep_in_class (ops : List (Op T)) (a : T) (s s1 : PState T) (r : T)
    (hs : run PState.new ops = .ok s) (hr : find s a = .ok (r, s1)) :
    Joined ops a r ∧ ∃ s2, find s1 r = .ok (r, s2) := by
  obtain ⟨t, ρ, h1, h2, -⟩ := run_new ops
  rw [hs] at h1; cases h1
  obtain ⟨t, h3, h4, -⟩ := h2.find_ok a
  rw [hr] at h3; cases h3
  refine ⟨(abs_joined ops).2.1 a, ?_⟩
  obtain ⟨t2, h5, -⟩ := h4.find_ok ((absRun Abs.init ops).rep a)
  exact ⟨t2, by rw [h5, (abs_joined ops).1]⟩

/-- **C02** (c) an element that was never united is its own representative. -/
theorem C02_never_united (ops : List (Op T)) (a : T) (s s1 : PState T) (r : T)
    (hs : run PState.new ops = .ok s) (hr : find s a = .ok (r, s1))
    (hn : ∀ x y, Op.unite x y ∈ ops → a ≠ x ∧ a ≠ y) : r = a := by
  have h := (C02_rep_in_class ops a s s1 r hs hr).1
  have : ∀ x y, Joined ops x y → (x = a ↔ y = a) := by
    intro x y hxy
    induction hxy with
    | rel x y hxy => have := hn x y hxy; exact ⟨fun h => absurd h.symm this.1, fun h => absurd h.symm this.2⟩
    | refl x => exact Iff.rfl
    | symm x y _ ih => exact ih.symm
    | trans x y z _ _ ih1 ih2 => exact ih1.trans ih2
  exact (this a r h).1 rfl

example : SameUnites [Op.find 7, .unite 1 2, .find 1, .classes [1, 2, 3], .unite 2 3, .find 3] [Op.unite 1 2, .unite 2 3] :=
  rfl

example : ∀ x y, Op.unite x y ∈ [Op.unite 1 2, Op.find 3] → 3 ≠ x ∧ 3 ≠ y := by
  intro x y h; simp at h; omega

/-! ## C04 -/

open Classical in
/-- **C04** `classes(elms)` after any history: returns; classes are non-empty; together they hold each
occurrence of the input exactly once; the class of `x` consists of exactly the occurrences of elements
joined to `x`, in input order; classes are ordered by first occurrence. -/
theorem C04_classes (ops : List (Op T)) (elms : List T) (s : PState T)
    (hs : run PState.new ops = .ok s) :
    ∃ s' cs, classes s elms = .ok (s', cs) ∧
      (∀ c ∈ cs, c ≠ []) ∧
      cs.flatten.Perm elms ∧
      (∀ c ∈ cs, ∀ x ∈ c, c = elms.filter (fun y => decide (Joined ops x y))) ∧
      cs.Pairwise (fun c d => ∀ x ∈ c.head?, ∀ y ∈ d.head?, elms.idxOf x < elms.idxOf y) := by
  obtain ⟨t, ρ, h1, h2, -⟩ := run_new ops
  rw [hs] at h1; cases h1
  have J := (abs_joined ops).2.2
  generalize absRun Abs.init ops = A at h2 J
  obtain ⟨s', hc, -⟩ := classes_ok h2 elms
  refine ⟨s', _, hc, ?_, ?_, ?_, ?_⟩
  · intro c hcm hce
    obtain ⟨r, hr, rfl⟩ := List.mem_map.1 hcm
    rw [mem_firsts] at hr
    obtain ⟨x, hx, rfl⟩ := List.mem_map.1 hr
    rw [List.filter_eq_nil_iff] at hce
    exact hce x hx (by simp)
  · rw [List.perm_iff_count]
    intro x
    rw [List.count_flatten, List.map_map]
    by_cases hx : x ∈ elms
    · have hmem : A.rep x ∈ firsts (elms.map A.rep) :=
        (mem_firsts _ _).2 (List.mem_map_of_mem hx)
      have nd := firsts_nodup (elms.map A.rep)
      obtain ⟨l1, l2, hl⟩ := List.append_of_mem hmem
      rw [hl] at nd ⊢
      rw [List.map_append, List.map_cons, List.sum_append, List.sum_cons]
      have z : ∀ l : List T, A.rep x ∉ l →
          (l.map (List.count x ∘ fun r => elms.filter (fun e => A.rep e = r))).sum = 0 := by
        intro l hl
        apply sum_zero
        intro n hn
        obtain ⟨r, hr, rfl⟩ := List.mem_map.1 hn
        simp only [Function.comp]
        rw [List.count_eq_zero]
        intro hm; have := (List.mem_filter.1 hm).2
        simp at this; rw [this] at hl; exact hl hr
      rw [List.nodup_append, List.nodup_cons] at nd
      rw [z l1 (fun h => nd.2.2 _ h _ (by simp) rfl), z l2 nd.2.1.1]
      simp [List.count_filter]
    · rw [List.count_eq_zero.2 hx]
      apply sum_zero
      intro n hn
      obtain ⟨r, hr, rfl⟩ := List.mem_map.1 hn
      simp only [Function.comp]
      rw [List.count_eq_zero]
      intro hm; exact hx (List.mem_filter.1 hm).1
  · intro c hcm x hx
    obtain ⟨r, hr, rfl⟩ := List.mem_map.1 hcm
    have hxr := (List.mem_filter.1 hx).2
    simp at hxr
    subst hxr
    apply List.filter_congr
    intro y _
    rw [decide_eq_decide, ← J x y]
    exact eq_comm
  · -- order of first occurrences
    rw [List.pairwise_map]
    have main : ∀ l : List T, (firsts (l.map A.rep)).Pairwise (fun r q =>
        ∀ x ∈ (l.filter (fun e => A.rep e = r)).head?,
        ∀ y ∈ (l.filter (fun e => A.rep e = q)).head?, l.idxOf x < l.idxOf y) := by
      intro l
      induction l using List.reverseRecOn with
      | nil => simp [firsts]
      | append_singleton l e ih =>
        have fwd : ∀ r ∈ firsts (l.map A.rep), ∃ x, x ∈ l ∧
            (l.filter (fun e => A.rep e = r)).head? = some x ∧
            ((l ++ [e]).filter (fun e => A.rep e = r)).head? = some x := by
          intro r hr
          rw [mem_firsts] at hr
          obtain ⟨x, hx, rfl⟩ := List.mem_map.1 hr
          cases hf : l.filter (fun e => A.rep e = A.rep x) with
          | nil => rw [List.filter_eq_nil_iff] at hf; exact absurd (by simp) (hf x hx)
          | cons z zs =>
            refine ⟨z, ?_, rfl, ?_⟩
            · have : z ∈ l.filter (fun e => A.rep e = A.rep x) := by rw [hf]; simp
              exact (List.mem_filter.1 this).1
            · rw [List.filter_append, hf]; rfl
        have old : (firsts (l.map A.rep)).Pairwise (fun r q =>
            ∀ x ∈ ((l ++ [e]).filter (fun e => A.rep e = r)).head?,
            ∀ y ∈ ((l ++ [e]).filter (fun e => A.rep e = q)).head?,
              (l ++ [e]).idxOf x < (l ++ [e]).idxOf y) := by
          refine List.Pairwise.imp_of_mem ?_ ih
          intro r q hr hq h x hx y hy
          obtain ⟨x', hx', f1, f2⟩ := fwd r hr
          obtain ⟨y', hy', g1, g2⟩ := fwd q hq
          rw [f2] at hx; rw [g2] at hy
          cases hx; cases hy
          rw [List.idxOf_append_of_mem hx', List.idxOf_append_of_mem hy']
          exact h _ (by rw [f1]; rfl) _ (by rw [g1]; rfl)
        rw [List.map_append, List.map_singleton, firsts_snoc]
        split
        · exact old
        · rename_i hne
          rw [List.pairwise_append]
          refine ⟨old, by simp, ?_⟩
          intro r hr q hq x hx y hy
          simp at hq; subst hq
          obtain ⟨x', hx', f1, f2⟩ := fwd r hr
          rw [f2] at hx; cases hx
          have he : e ∉ l := fun h => hne ((mem_firsts _ _).2 (List.mem_map_of_mem h))
          have hy' : y = e := by
            have : l.filter (fun x => A.rep x = A.rep e) = [] := by
              rw [List.filter_eq_nil_iff]
              intro z hz; simp only [decide_eq_true_eq]
              intro hze; exact hne ((mem_firsts _ _).2 (by rw [← hze]; exact List.mem_map_of_mem hz))
            rw [List.filter_append, this] at hy
            simp at hy; exact hy.symm
          subst hy'
          rw [List.idxOf_append_of_mem hx', List.idxOf_append_of_notMem he]
          have := List.idxOf_lt_length_iff.2 hx'
          omega
    exact main elms

example : ∃ s s' cs, run PState.new [Op.unite 1 3, .unite 4 2] = .ok s ∧
    classes s [5, 1, 2, 3, 1, 4] = .ok (s', cs) ∧ cs = [[5], [1, 3, 1], [2, 4]] :=
  ⟨_, _, _, rfl, rfl, rfl⟩

/-! ## C05 -/

private theorem hop_rank {n : Nat} {parent rank : List Nat} {ρ : Nat → Nat}
    (F : Forest n parent rank ρ) {i k r : Nat} (h : HopPath parent i k r) (hi : i < n) :
    k + rk rank i ≤ rk rank r ∧ r < n ∧ ρ r = ρ i := by
  induction h with
  | stop i => exact ⟨by omega, hi, rfl⟩
  | @hop i p k r h1 h2 _ ih =>
    have hp : p = par parent i := by
      rw [par_of_lt (by rw [F.plen]; exact hi)] at h1; exact (Option.some.inj h1).symm
    subst hp
    have := ih (F.plt i hi)
    have h3 := F.inc i hi h2
    have h4 := F.rpar i hi
    exact ⟨by omega, this.2.1, by rw [this.2.2, h4]⟩

/-- **C05** In every reachable state, any path of parent hops that `root_index` can walk from the index
of an element has length at most `log2` of the number of distinct elements mentioned so far (including
the one being looked up, which `get_index` has just added if it was new). -/
theorem C05_log_height (ops : List (Op T)) (a : T) (s s' : PState T) (x k r : Nat)
    (hs : run PState.new ops = .ok s) (hi : getIndex s a = (x, s'))
    (hp : HopPath s'.parent x k r) :
    k ≤ Nat.log 2 (a :: ops.flatMap (fun | .find b => [b] | .unite b c => [b, c] | .classes es => es)).dedup.length := by
  obtain ⟨t, ρ, h1, h2, hm⟩ := run_new ops
  rw [hs] at h1; cases h1
  obtain ⟨i, t, h3, h4, h5, -, hm2⟩ := h2.getIndex_ok a
  rw [hi] at h3; cases h3
  have hx : x < s'.elements.length := (List.getElem?_eq_some_iff.1 h5).1
  obtain ⟨k1, k2, k3⟩ := hop_rank h4.forest hp hx
  have hr : rk s'.rank r ≤ Nat.log 2 s'.elements.length := by
    have := h4.forest.rank_le_log k2
    by_cases h : ρ r = r
    · rwa [h] at this
    · have h6 := h4.forest.rinc r k2 h; omega
  have hlen : s'.elements.length =
      (a :: ops.flatMap (fun | .find b => [b] | .unite b c => [b, c] | .classes es => es)).dedup.length := by
    apply List.Perm.length_eq
    rw [List.perm_ext_iff_of_nodup h4.nodup (List.nodup_dedup _)]
    intro b
    rw [hm2, hm, List.mem_dedup, List.mem_cons, or_comm]
    rfl
  rw [← hlen]; omega

/-- there are reachable states in which a path of two hops exists among five elements -/
example : ∃ s s' x, run PState.new [Op.unite 1 2, .unite 3 4, .unite 1 3, .find 5] = .ok s ∧
    getIndex s 4 = (x, s') ∧ HopPath s'.parent x 2 0 :=
  ⟨_, _, _, rfl, rfl, .hop (p := 2) rfl (by decide) (.hop (p := 0) rfl (by decide) (.stop 0))⟩

end Systre.Partitions
