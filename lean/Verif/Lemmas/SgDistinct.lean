import Verif.Lemmas.SgSystem
import Mathlib.Algebra.BigOperators.Group.List.Basic

/-! # The groups of the lookups in standard coordinates are different -/

namespace Systre.Sg

variable {n : Nat}

/-! ## equal groups have the same sums -/

/-- the maps that agree with `o` up to an integer translation -/
def cls (o : Op n) : Set (Op n) := {g | SameModZ g o}

theorem cls_eq {o p : Op n} : cls o = cls p ↔ SameModZ o p := by
  constructor
  · intro h
    have : o ∈ cls o := same_refl o
    rw [h] at this
    exact this
  · intro h
    ext g
    exact ⟨fun hg => same_trans hg h, fun hg => same_trans hg (same_symm h)⟩

/-- a number that is the same for maps that agree up to an integer translation -/
def Q.key (q : Q) : Nat := keyOf q.r0.key q.r1.key q.r2.key

theorem key_eq {p q : Q} (hp : shape n p = true) (hq : shape n q = true) (h : SameModZ (p.op n) (q.op n)) : p.key = q.key := by
  obtain ⟨h1, h2, h3⟩ := same_rows hp hq h
  unfold Q.key
  rw [h1, h2, h3]

theorem keys_perm {S S' : List Q} (hS : ∀ q ∈ S, shape n q = true) (hS' : ∀ q ∈ S', shape n q = true)
    (hd : DistinctModZ (S.map (Q.op n))) (hd' : DistinctModZ (S'.map (Q.op n)))
    (he : groupOf (S.map (Q.op n)) = groupOf (S'.map (Q.op n))) : (S.map Q.key).Perm (S'.map Q.key) := by
  classical
  let F : Set (Op n) → Nat := fun C => if h : ∃ q, shape n q = true ∧ cls (q.op n) = C then (Classical.choose h).key else 0
  have hF : ∀ q, shape n q = true → F (cls (q.op n)) = q.key := by
    intro q hq
    have hex : ∃ p, shape n p = true ∧ cls (p.op n) = cls (q.op n) := ⟨q, hq, rfl⟩
    have hF : F (cls (q.op n)) = (Classical.choose hex).key := dif_pos hex
    rw [hF]
    obtain ⟨h1, h2⟩ := Classical.choose_spec hex
    exact key_eq h1 hq (cls_eq.1 h2)
  have hm : ∀ {S : List Q}, (∀ q ∈ S, shape n q = true) → S.map Q.key = ((S.map (Q.op n)).map cls).map F := by
    intro S hS
    rw [List.map_map, List.map_map]
    apply List.map_congr_left
    intro q hq
    exact (hF q (hS q hq)).symm
  have hn : ∀ {S : List Q}, DistinctModZ (S.map (Q.op n)) → ((S.map (Q.op n)).map cls).Nodup := by
    intro S hd
    unfold List.Nodup
    rw [List.pairwise_map]
    exact List.Pairwise.imp (fun h e => h (cls_eq.1 e)) hd
  have hsub : ∀ {S S' : List Q}, groupOf (S.map (Q.op n)) = groupOf (S'.map (Q.op n)) →
      ∀ C ∈ (S.map (Q.op n)).map cls, C ∈ (S'.map (Q.op n)).map cls := by
    intro S S' he C hC
    obtain ⟨o, ho, rfl⟩ := List.mem_map.1 hC
    have : o ∈ groupOf (S.map (Q.op n)) := ⟨o, ho, same_refl o⟩
    rw [he] at this
    obtain ⟨p, hp, hs⟩ := this
    exact List.mem_map.2 ⟨p, hp, cls_eq.2 (same_symm hs)⟩
  rw [hm hS, hm hS']
  refine List.Perm.map F ?_
  rw [List.perm_ext_iff_of_nodup (hn hd) (hn hd')]
  exact fun C => ⟨hsub he C, hsub he.symm C⟩

/-- a scrambled number -/
def mix (k : Nat) : Nat := Nat.mod (Nat.mul (Nat.mul (Nat.mul (Nat.mul k k) k) k) k) 2305843009213693951

/-- the sum of the scrambled numbers of some maps -/
noncomputable def keySum (l : List Q) : Nat :=
  List.rec (motive := fun _ => Nat) 0 (fun q _ ih => Nat.add (mix (Q.key q)) ih) l

theorem keySum_eq (l : List Q) : keySum l = ((l.map Q.key).map mix).sum := by
  induction l with
  | nil => rfl
  | cons q l ih =>
    rw [List.map_cons, List.map_cons, List.sum_cons, ← ih]
    rfl

/-! ## standard coordinates -/

/-- the composition of two maps whose matrices are integral -/
def mulQ (p q : Q) : Q :=
  let row (r : R) : R := ⟨by24 (dot r q.r0.a q.r1.a q.r2.a), by24 (dot r q.r0.b q.r1.b q.r2.b), by24 (dot r q.r0.c q.r1.c q.r2.c),
    by24 (Int.add (dot r q.r0.s q.r1.s q.r2.s) (Int.mul 24 r.s))⟩
  ⟨row p.r0, row p.r1, row p.r2⟩

/-- an operator in standard coordinates -/
def stdOp (f fi q : Q) : Q := mulQ (mulQ f q) fi

/-- the check of the operators in standard coordinates -/
noncomputable def stdOk (f fi : Q) (dim : Nat) (ops : List Tr) : Bool :=
  cond (cond (integralB f) (integralB fi) false) (allB (fun t => (fun s => cond (shape dim s) (mulEq f t.q s f) false) (stdOp f fi t.q)) ops) false

/-- the operators in standard coordinates -/
noncomputable def stdOps (f fi : Q) (ops : List Tr) : List Q := ops.map (fun t => stdOp f fi t.q)

/-- a number for the group of a lookup -/
noncomputable def groupKey (l : Look) (ops : List Tr) : Nat :=
  Nat.add (Nat.mul (keySum (stdOps l.o.s.tr.q l.o.s.trInv ops)) 4) l.o.s.dim

theorem same_conj {f fi g o : Op n} (hf : IsIntegral f.1) (hfi : IsIntegral fi.1) (h1 : f.comp fi = Op.one) (h2 : fi.comp f = Op.one) :
    SameModZ ((fi.comp g).comp f) o ↔ SameModZ g ((f.comp o).comp fi) := by
  constructor
  · intro h
    have := same_comp_right (same_comp_left hf h) fi
    rwa [← comp_assoc, ← comp_assoc, h1, one_comp, comp_assoc g, h1, comp_one] at this
  · intro h
    have := same_comp_right (same_comp_left hfi h) f
    rwa [comp_assoc fi ((f.comp o).comp fi) f, comp_assoc (f.comp o), h2, comp_one, ← comp_assoc fi f, h2, one_comp] at this

theorem std_sound {f fi : Q} {dim : Nat} {ops : List Tr} (h : stdOk f fi dim ops = true) (hf : shape dim f = true)
    (h1 : (f.op dim).comp (fi.op dim) = Op.one) (hd : DistinctModZ (ops.map (fun t => t.q.op dim))) :
    (∀ q ∈ stdOps f fi ops, shape dim q = true) ∧ DistinctModZ ((stdOps f fi ops).map (Q.op dim)) ∧
    pullBack (fi.op dim) (f.op dim) (groupOf (ops.map (fun t => t.q.op dim))) = groupOf ((stdOps f fi ops).map (Q.op dim)) := by
  unfold stdOk at h
  rw [cond_and, cond_and, allB_iff] at h
  obtain ⟨⟨i1, i2⟩, h⟩ := h
  have i1 := integralB_sound (n := dim) i1
  have i2 := integralB_sound (n := dim) i2
  have h2 := matrix_inv h1
  have hs : ∀ t ∈ ops, shape dim (stdOp f fi t.q) = true := fun t ht => (cond_and.1 (h t ht)).1
  have hm : ∀ t ∈ ops, SameModZ (((f.op dim).comp (t.q.op dim)).comp (fi.op dim)) ((stdOp f fi t.q).op dim) := by
    intro t ht
    have := mulEq_sound (n := dim) hf (hs t ht) (cond_and.1 (h t ht)).2
    have := same_comp_right this (fi.op dim)
    rwa [comp_assoc _ (f.op dim), h1, comp_one] at this
  refine ⟨?_, ?_, ?_⟩
  · intro q hq
    obtain ⟨t, ht, rfl⟩ := List.mem_map.1 hq
    exact hs t ht
  · unfold DistinctModZ stdOps at *
    rw [List.map_map]
    rw [List.pairwise_map] at hd ⊢
    refine List.Pairwise.imp_of_mem ?_ hd
    intro a b ha hb hne he
    apply hne
    have h3 := same_trans (hm a ha) (same_trans he (same_symm (hm b hb)))
    have h4 := (same_conj i1 i2 h1 h2).2 h3
    refine same_trans (same_symm ?_) h4
    rw [← comp_assoc, ← comp_assoc, h2, one_comp, comp_assoc, h2, comp_one]
    exact same_refl _
  · ext g
    unfold pullBack groupOf stdOps
    simp only [Set.mem_setOf_eq, List.mem_map]
    constructor
    · rintro ⟨o, ⟨t, ht, rfl⟩, he⟩
      exact ⟨_, ⟨_, ⟨t, ht, rfl⟩, rfl⟩, same_trans ((same_conj i1 i2 h1 h2).1 he) (hm t ht)⟩
    · rintro ⟨o, ⟨q, ⟨t, ht, rfl⟩, rfl⟩, he⟩
      exact ⟨_, ⟨t, ht, rfl⟩, (same_conj i1 i2 h1 h2).2 (same_trans he (same_symm (hm t ht)))⟩

end Systre.Sg
