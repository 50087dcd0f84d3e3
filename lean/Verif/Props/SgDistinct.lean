import Verif.Props.SgSystem
import Verif.Lemmas.SgTable.Distinct

/-! # C79: the lookups in the shipped table of space groups stand for different groups -/

namespace Systre
open Table ParseOperator Sg Sg.Data

variable {lower : List Char → List Char}

namespace Sg.Data

theorem change_inj {n : Nat} {c : CoordMap ℚ} {f fi g gi : Op n} (h : IsChange c f fi) (h' : IsChange c g gi) : f = g ∧ fi = gi := by
  obtain ⟨⟨a1, a2⟩, ⟨b1, b2⟩, -⟩ := h
  obtain ⟨⟨c1, c2⟩, ⟨d1, d2⟩, -⟩ := h'
  refine ⟨Prod.ext (a1.inj c1) ?_, Prod.ext (b1.inj d1) ?_⟩
  · funext i
    exact congrFun (congrFun (Rep.inj a2 c2) i) 0
  · funext i
    exact congrFun (congrFun (Rep.inj b2 d2) i) 0

/-- what the checks say about the group of a lookup in standard coordinates -/
theorem lookup_std (hl : LowersAscii lower) {T : Tables} (h : Shipped lower T) {e : Lookup} (he : e ∈ T.lookup) {c : TableEntry}
    (hc : mapGet T.settings e.name = some c) {n : Nat} {os : List (Op n)} (ho : AreOps c.operators os) {f fi : Op n}
    (hf : IsChange e.fromStd f fi) :
    ∃ l ∈ looks, ∃ S : List Q, e.name = l.name ∧ groupKey l (nth b0 blocks l.block).c.ops = keySum S * 4 + n ∧
      (∀ q ∈ S, shape n q = true) ∧ DistinctModZ (S.map (Q.op n)) ∧ pullBack fi f (groupOf os) = groupOf (S.map (Q.op n)) := by
  obtain ⟨h1, -, h3⟩ := shipped_of hl h
  obtain ⟨l, hlm, k1, k2, k3, k4⟩ := forall₂_right h3 he
  obtain ⟨a1, a2, a3⟩ := look_ok hlm
  have hstd := allB_iff.1 std_ok l hlm
  have hlo := allB_iff.1 looks_ok l hlm
  simp only [lookOk, Bool.and_eq_true, decide_eq_true_eq] at hlo
  obtain ⟨⟨o1, o2⟩, o3⟩ := hlo
  refine ⟨l, hlm, stdOps l.o.s.tr.q l.o.s.trInv (nth b0 blocks l.block).c.ops, k1, ?_⟩
  have hbm : nth b0 blocks l.block ∈ blocks := nth_mem (by unfold blocks; exact List.mem_cons_self) _
  generalize nth b0 blocks l.block = b at o1 o2 o3 hbm hstd
  obtain ⟨hbok, hbs⟩ := block_ok hbm
  have hpm := hbs (b.c, b.c.name) (by simp [Item.settings])
  have hname : l.name = b.c.name := nameOk_key a1 (names_ok hpm) (Nat.eq_of_beq_eq_true o1)
  obtain ⟨c', h4, h5⟩ := get_setting h1 hpm
  rw [k1, hname] at hc
  have e1 : c' = c := Option.some.inj (h4.symm.trans hc)
  subst e1
  have hg := (Block.sound hbok).1
  have hd := dims hg h5.2.2.2.2 ho
  have hdl : l.o.s.dim = n := (Nat.eq_of_beq_eq_true o2).trans hd
  have hops := h5.2.2.2.2
  obtain ⟨-, g2, -, -, g5⟩ := Setting.group_sound hg
  obtain ⟨-, t2, t3⟩ := Other.sound (lat_ok _) a2
  have t4 := t2.inv
  rw [hd] at hops g2 g5
  rw [hdl] at t3 t4 k4 hstd
  rw [areOps_inj ho hops, (change_inj hf k4).1, (change_inj hf k4).2]
  obtain ⟨s1, s2, s3⟩ := std_sound hstd t3 t4 g5
  refine ⟨?_, s1, s2, s3⟩
  show _ * 4 + l.o.s.dim = _
  rw [hdl]

end Sg.Data

/-- **C79** (the lookups are different). If the groups of two lookups, each in the standard coordinates that its lookup leads
to, are the same set of maps, then the two are the same lookup: a group in standard coordinates is found at most once. -/
theorem C79_lookup_distinct (hl : LowersAscii lower) (T : Tables) (h : Shipped lower T) (e e' : Lookup) (he : e ∈ T.lookup)
    (he' : e' ∈ T.lookup) (c c' : TableEntry) (hc : mapGet T.settings e.name = some c) (hc' : mapGet T.settings e'.name = some c')
    (n : Nat) (os os' : List (Op n)) (ho : AreOps c.operators os) (ho' : AreOps c'.operators os') (f fi f' fi' : Op n)
    (hf : IsChange e.fromStd f fi) (hf' : IsChange e'.fromStd f' fi')
    (heq : pullBack fi f (groupOf os) = pullBack fi' f' (groupOf os')) : e = e' := by
  obtain ⟨l, hlm, S, k1, k2, k3, k4, k5⟩ := lookup_std hl h he hc ho hf
  obtain ⟨l', hlm', S', k1', k2', k3', k4', k5'⟩ := lookup_std hl h he' hc' ho' hf'
  have hp := keys_perm k3 k3' k4 k4' (by rw [← k5, ← k5', heq])
  have hs : keySum S = keySum S' := by
    rw [keySum_eq, keySum_eq]
    exact (hp.map mix).sum_eq
  have hnd : (looks.map (fun l => groupKey l (nth b0 blocks l.block).c.ops)).Nodup := by
    rw [natsEq_sound sums_eq]
    exact nodup_sound sums_nodup
  have e1 : l = l' := List.inj_on_of_nodup_map hnd hlm hlm' (by rw [k2, k2', hs])
  obtain ⟨-, -, h3⟩ := shipped_of hl h
  have hn : (T.lookup.map Lookup.name).Nodup := by
    have : List.Forall₂ (fun a b => a = b) (looks.map Look.name) (T.lookup.map Lookup.name) := by
      rw [List.forall₂_map_left_iff, List.forall₂_map_right_iff]
      exact h3.imp (fun p x hx => hx.1.symm)
    have e : looks.map Look.name = T.lookup.map Lookup.name := List.forall₂_eq_eq_eq ▸ this
    rw [← e]
    exact looks_nodup
  exact List.inj_on_of_nodup_map hn he he' (by rw [k1, k1', e1])

/-- all the hypotheses hold for each lookup of the table, with itself -/
example : ∃ T, Shipped lowerLetters T ∧ T.lookup ≠ [] ∧ ∀ e ∈ T.lookup, ∃ c, mapGet T.settings e.name = some c ∧
    ∃ n, ∃ os : List (Op n), AreOps c.operators os ∧ ∃ f fi : Op n, IsChange e.fromStd f fi := by
  have hl : LowersAscii lowerLetters := fun _ _ => rfl
  obtain ⟨T, h, -, -, -, -, h1⟩ := C79_reads (lower := lowerLetters) hl
  refine ⟨T, h, ?_, ?_⟩
  · intro e
    rw [e] at h1
    cases h1
  · intro e he
    obtain ⟨c, hc, -, os, f, fi, ho, hf, -⟩ := C79_lookup hl T h e he
    exact ⟨c, hc, _, os, ho, f, fi, hf⟩

end Systre
