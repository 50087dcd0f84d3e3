import Verif.Model.Partitions
import Mathlib.Data.Finset.Card
import Mathlib.Data.Nat.Log
import Mathlib.Logic.Function.Basic
import Mathlib.Data.List.Basic
import Mathlib.Tactic.NormNum

/-! Helper lemmas for C01-C05: representation invariant of the union-find structure and its
refinement to a pure abstract machine. -/

namespace Systre.Partitions

open Systre

variable {T : Type} [DecidableEq T]

/-- parent of `i` as a total function -/
def par (l : List Nat) (i : Nat) : Nat := l.getD i i
def rk (l : List Nat) (i : Nat) : Nat := l.getD i 0

theorem par_of_lt {l : List Nat} {i : Nat} (h : i < l.length) : l[i]? = some (par l i) := by
  simp [par, List.getD, h]

theorem rk_of_lt {l : List Nat} {i : Nat} (h : i < l.length) : l[i]? = some (rk l i) := by
  simp [rk, List.getD, h]

theorem par_ge {l : List Nat} {i : Nat} (h : l.length ≤ i) : par l i = i := by
  simp [par, List.getD, h]

theorem par_set {l : List Nat} {i j v : Nat} (h : i < l.length) :
    par (l.set i v) j = if j = i then v else par l j := by
  unfold par List.getD
  rw [List.getElem?_set]
  by_cases hj : j = i
  · subst hj; simp [h]
  · simp [hj, Ne.symm hj]

theorem rk_set {l : List Nat} {i j v : Nat} (h : i < l.length) :
    rk (l.set i v) j = if j = i then v else rk l j := by
  unfold rk List.getD
  rw [List.getElem?_set]
  by_cases hj : j = i
  · subst hj; simp [h]
  · simp [hj, Ne.symm hj]

theorem vecGet_par {l : List Nat} {i : Nat} (h : i < l.length) : vecGet l i = .ok (par l i) :=
  vecGet_eq_ok.2 (par_of_lt h)

theorem vecGet_rk {l : List Nat} {i : Nat} (h : i < l.length) : vecGet l i = .ok (rk l i) :=
  vecGet_eq_ok.2 (rk_of_lt h)

/-- forest invariant on indices; `ρ` maps an index to the root of its tree -/
structure Forest (n : Nat) (parent rank : List Nat) (ρ : Nat → Nat) : Prop where
  plen : parent.length = n
  rlen : rank.length = n
  ge : ∀ i, n ≤ i → ρ i = i
  lt : ∀ i, i < n → ρ i < n
  plt : ∀ i, i < n → par parent i < n
  proot : ∀ i, i < n → par parent (ρ i) = ρ i
  rpar : ∀ i, i < n → ρ (par parent i) = ρ i
  fix : ∀ i, i < n → par parent i = i → ρ i = i
  inc : ∀ i, i < n → par parent i ≠ i → rk rank i < rk rank (par parent i)
  rinc : ∀ i, i < n → ρ i ≠ i → rk rank i < rk rank (ρ i)
  size : ∀ r, r < n → ρ r = r → 2 ^ rk rank r ≤ ((Finset.range n).filter (fun i => ρ i = r)).card

namespace Forest

variable {n : Nat} {parent rank : List Nat} {ρ : Nat → Nat}

theorem rho_rho (F : Forest n parent rank ρ) (i : Nat) : ρ (ρ i) = ρ i := by
  by_cases h : i < n
  · exact F.fix _ (F.lt i h) (F.proot i h)
  · rw [F.ge i (by omega), F.ge i (by omega)]

theorem rank_le_log (F : Forest n parent rank ρ) {i : Nat} (h : i < n) :
    rk rank (ρ i) ≤ Nat.log 2 n := by
  have h1 := F.size _ (F.lt i h) (F.rho_rho i)
  have h2 : ((Finset.range n).filter (fun j => ρ j = ρ i)).card ≤ n := by
    simpa using Finset.card_filter_le (Finset.range n) (fun j => ρ j = ρ i)
  exact Nat.le_log_of_pow_le (by norm_num) (h1.trans h2)

theorem findRoot_ok (F : Forest n parent rank ρ) : ∀ (fuel i : Nat), i < n →
    rk rank (ρ i) - rk rank i < fuel → findRoot fuel parent i = .ok (ρ i)
  | 0, _, _, h => by omega
  | fuel + 1, i, hi, h => by
    have hp := F.plt i hi
    unfold findRoot
    rw [vecGet_par (by rw [F.plen]; exact hi)]
    simp only [Outcome.ok_bind]
    by_cases hpi : par parent i = i
    · simp [hpi, F.fix i hi hpi]
    · rw [if_pos hpi, findRoot_ok F fuel _ hp, F.rpar i hi]
      rw [F.rpar i hi]
      have h1 := F.inc i hi hpi
      have h2 : rk rank (par parent i) ≤ rk rank (ρ i) := by
        have := F.rpar i hi
        by_cases h3 : ρ (par parent i) = par parent i
        · rw [← this, h3]
        · have := F.rinc _ hp h3; rw [F.rpar i hi] at this; omega
      omega

/-- path compression step keeps the forest -/
theorem set_root (F : Forest n parent rank ρ) {x : Nat} (hx : x < n) (hne : x ≠ ρ x) :
    Forest n (parent.set x (ρ x)) rank ρ := by
  have hl : x < parent.length := by rw [F.plen]; exact hx
  refine ⟨by simpa using F.plen, F.rlen, F.ge, F.lt, ?_, ?_, ?_, ?_, ?_, F.rinc, F.size⟩
  · intro i hi; rw [par_set hl]; split
    · exact F.lt x hx
    · exact F.plt i hi
  · intro i hi; rw [par_set hl]; split
    · rename_i h; exact absurd (by rw [← F.rho_rho i, h] : ρ i = ρ x) (by
        rw [h]; exact hne)
    · exact F.proot i hi
  · intro i hi; rw [par_set hl]; split
    · rename_i h; rw [h]; exact F.rho_rho x
    · exact F.rpar i hi
  · intro i hi; rw [par_set hl]; split
    · rename_i h; intro h2; exact absurd (h2.trans h).symm hne
    · exact F.fix i hi
  · intro i hi; rw [par_set hl]; split
    · rename_i h; subst h; intro _; exact F.rinc i hi (Ne.symm hne)
    · exact F.inc i hi

theorem compress_ok : ∀ (fuel : Nat) {parent : List Nat} (x : Nat), Forest n parent rank ρ → x < n →
    rk rank (ρ x) - rk rank x < fuel → ∃ parent', compress fuel parent x (ρ x) = .ok parent' ∧
      Forest n parent' rank ρ
  | 0, _, _, _, _, h => by omega
  | fuel + 1, parent, x, F, hx, h => by
    unfold compress
    by_cases hne : x = ρ x
    · rw [if_neg (by simpa using hne)]; exact ⟨parent, rfl, F⟩
    · rw [if_pos (by simpa using hne), vecGet_par (by rw [F.plen]; exact hx)]
      simp only [Outcome.ok_bind, vecSet]
      rw [if_pos (by rw [F.plen]; exact hx)]
      simp only [Outcome.ok_bind]
      have hp := F.plt x hx
      have hpne : par parent x ≠ x := fun h3 => hne (F.fix x hx h3).symm
      have h1 := F.inc x hx hpne
      have h2 : rk rank (par parent x) ≤ rk rank (ρ x) := by
        by_cases h3 : ρ (par parent x) = par parent x
        · rw [← F.rpar x hx, h3]
        · have := F.rinc _ hp h3; rw [F.rpar x hx] at this; omega
      have := compress_ok fuel (par parent x) (F.set_root hx hne) hp (by rw [F.rpar x hx]; omega)
      rwa [F.rpar x hx] at this

/-- linking root `y` below root `x` -/
theorem link (F : Forest n parent rank ρ) {x y : Nat} (hx : x < n) (hy : y < n) (hrx : ρ x = x)
    (hry : ρ y = y) (hne : x ≠ y) (hle : rk rank y ≤ rk rank x) :
    Forest n (parent.set y x)
      (if rk rank y = rk rank x then rank.set x (rk rank x + 1) else rank)
      (fun i => if ρ i = y then x else ρ i) := by
  have hl : y < parent.length := by rw [F.plen]; exact hy
  have hxl : x < rank.length := by rw [F.rlen]; exact hx
  set R := (if rk rank y = rk rank x then rank.set x (rk rank x + 1) else rank) with hR
  have hRk : ∀ i, rk R i = if i = x then (if rk rank y = rk rank x then rk rank x + 1 else rk rank x)
      else rk rank i := by
    intro i; rw [hR]; split
    · rw [rk_set hxl]
    · split
      · rename_i h; rw [h]
      · rfl
  have hRx : rk rank y < rk R x := by rw [hRk, if_pos rfl]; split <;> omega
  have hRge : ∀ i, rk rank i ≤ rk R i := by
    intro i; rw [hRk]; split
    · rename_i h; subst h; split <;> omega
    · exact le_rfl
  have hRne : ∀ i, i ≠ x → rk R i = rk rank i := by
    intro i hi; rw [hRk, if_neg hi]
  have fixx : ∀ i, ρ i = x → i ≠ x → rk rank i < rk rank x := by
    intro i h1 h2
    by_cases hi : i < n
    · have := F.rinc i hi (by rw [h1]; exact h2.symm); rwa [h1] at this
    · exact absurd (F.ge i (by omega)) (by rw [h1]; exact h2.symm)
  have parroot : ∀ r, r < n → ρ r = r → par parent r = r := by
    intro r hr h; have := F.proot r hr; rwa [h] at this
  refine ⟨by simpa using F.plen, ?_, ?_, ?_, ?_, ?_, ?_, ?_, ?_, ?_, ?_⟩
  · rw [hR]; split <;> simpa using F.rlen
  · intro i hi; rw [F.ge i hi, if_neg (by omega)]
  · intro i hi; (try dsimp only); split
    · exact hx
    · exact F.lt i hi
  · intro i hi; rw [par_set hl]; split
    · exact hx
    · exact F.plt i hi
  · intro i hi; (try dsimp only); split
    · rw [par_set hl, if_neg hne]; exact parroot x hx hrx
    · rename_i h; rw [par_set hl, if_neg h]; exact F.proot i hi
  · intro i hi; (try dsimp only); rw [par_set hl]; split
    · rename_i h; subst h; rw [hrx, if_neg hne, hry, if_pos rfl]
    · rw [F.rpar i hi]
  · intro i hi; rw [par_set hl]; split
    · rename_i h; intro h2; exact absurd (h2.trans h) hne
    · rename_i h; intro h2; have := F.fix i hi h2; simp [this, h]
  · intro i hi; rw [par_set hl]; split
    · rename_i h; subst h; intro _; rw [hRne i (Ne.symm hne)]; exact hRx
    · intro h2
      have hix : i ≠ x := by rintro rfl; exact h2 (parroot i hi hrx)
      rw [hRne i hix]; exact (F.inc i hi h2).trans_le (hRge _)
  · intro i hi; (try dsimp only); split
    · rename_i h; intro h2
      rw [hRne i h2.symm]
      by_cases hiy : i = y
      · subst hiy; exact hRx
      · have := F.rinc i hi (by rw [h]; exact Ne.symm hiy); rw [h] at this; omega
    · rename_i h; intro h2
      have hix : i ≠ x := by rintro rfl; exact h2 hrx
      rw [hRne i hix]; exact (F.rinc i hi h2).trans_le (hRge _)
  · intro r hr hrr
    try dsimp only at hrr ⊢
    have hry' : r ≠ y := by rintro rfl; rw [hry, if_pos rfl] at hrr; exact hne hrr
    have hrr' : ρ r = r := by
      split at hrr
      · rename_i h; rw [← hrr, hrx] at h; exact absurd h hne
      · exact hrr
    by_cases hrx' : r = x
    · subst hrx'
      have e : (Finset.range n).filter (fun i => (if ρ i = y then r else ρ i) = r) =
          (Finset.range n).filter (fun i => ρ i = r) ∪ (Finset.range n).filter (fun i => ρ i = y) := by
        ext i; simp only [Finset.mem_filter, Finset.mem_union]; constructor
        · rintro ⟨h1, h2⟩; split at h2
          · right; exact ⟨h1, by assumption⟩
          · left; exact ⟨h1, h2⟩
        · rintro (⟨h1, h2⟩ | ⟨h1, h2⟩)
          · refine ⟨h1, ?_⟩; split
            · rfl
            · exact h2
          · exact ⟨h1, by rw [if_pos h2]⟩
      rw [e, Finset.card_union_of_disjoint]
      · have h1 := F.size r hr hrr'
        have h2 := F.size y hy hry
        rw [hRk, if_pos rfl]; split
        · rename_i h; rw [h] at h2; rw [pow_succ]; omega
        · omega
      · rw [Finset.disjoint_filter]; intro i _ h1 h2; exact hne (h1.symm.trans h2)
    · rw [hRne r hrx']
      refine (F.size r hr hrr').trans (Finset.card_le_card ?_)
      intro i; simp only [Finset.mem_filter]; rintro ⟨h1, h2⟩
      exact ⟨h1, by rw [h2, if_neg hry']⟩

theorem snoc (F : Forest n parent rank ρ) : Forest (n + 1) (parent ++ [n]) (rank ++ [0]) ρ := by
  have hp : ∀ i, par (parent ++ [n]) i = par parent i := by
    intro i; unfold par List.getD
    rcases lt_trichotomy i n with h | h | h
    · rw [List.getElem?_append_left (by rw [F.plen]; exact h)]
    · subst h; simp [← F.plen]
    · rw [List.getElem?_eq_none (by simp [F.plen]; omega), List.getElem?_eq_none (by rw [F.plen]; omega)]
  have hr : ∀ i, rk (rank ++ [0]) i = rk rank i := by
    intro i; unfold rk List.getD
    rcases lt_trichotomy i n with h | h | h
    · rw [List.getElem?_append_left (by rw [F.rlen]; exact h)]
    · subst h; simp [← F.rlen]
    · rw [List.getElem?_eq_none (by simp [F.rlen]; omega), List.getElem?_eq_none (by rw [F.rlen]; omega)]
  have hpn : par parent n = n := par_ge (by rw [F.plen])
  have hrn : ρ n = n := F.ge n le_rfl
  have cases : ∀ {P : Nat → Prop}, (∀ i, i < n → P i) → P n → ∀ i, i < n + 1 → P i := by
    intro P h1 h2 i hi
    rcases Nat.lt_succ_iff_lt_or_eq.1 hi with h | h
    · exact h1 i h
    · rw [h]; exact h2
  refine ⟨by simp [F.plen], by simp [F.rlen], fun i hi => F.ge i (by omega), ?_, ?_, ?_, ?_, ?_, ?_,
    ?_, ?_⟩
  · exact cases (fun i hi => (F.lt i hi).trans (Nat.lt_succ_self n)) (by rw [hrn]; omega)
  · simp only [hp]; exact cases (fun i hi => (F.plt i hi).trans (Nat.lt_succ_self n)) (by rw [hpn]; omega)
  · simp only [hp]; exact cases F.proot (by rw [hrn, hpn])
  · simp only [hp]; exact cases F.rpar (by rw [hpn])
  · simp only [hp]; exact cases F.fix (fun _ => hrn)
  · simp only [hp, hr]; exact cases F.inc (fun h => absurd hpn h)
  · simp only [hr]; exact cases F.rinc (fun h => absurd hrn h)
  · intro r h1 h2
    rw [hr]
    rcases Nat.lt_succ_iff_lt_or_eq.1 h1 with h | h
    · refine (F.size r h h2).trans (Finset.card_le_card ?_)
      intro i; simp only [Finset.mem_filter, Finset.mem_range]; rintro ⟨h3, h4⟩; exact ⟨by omega, h4⟩
    · subst h
      have : rk rank r = 0 := by simp [rk, List.getD, F.rlen]
      rw [this, Nat.pow_zero, Nat.succ_le_iff, Finset.card_pos]
      exact ⟨r, by simp [hrn]⟩

end Forest

/-- The abstract machine: representative map and rank of representatives. -/
structure Abs (T : Type) where
  rep : T → T
  rk : T → Nat

def Abs.init : Abs T := { rep := id, rk := fun _ => 0 }

/-- pure union by rank -/
def Abs.unite (A : Abs T) (a b : T) : Abs T :=
  let x := A.rep a
  let y := A.rep b
  if x = y then A
  else if A.rk x < A.rk y then
    { rep := fun c => if A.rep c = x then y else A.rep c, rk := A.rk }
  else
    { rep := fun c => if A.rep c = y then x else A.rep c
      rk := if A.rk x = A.rk y then fun c => if c = x then A.rk x + 1 else A.rk c else A.rk }

/-- The concrete state `s` represents the abstract state `A`. -/
structure Rel (s : PState T) (A : Abs T) (ρ : Nat → Nat) : Prop where
  forest : Forest s.elements.length s.parent s.rank ρ
  index : ∀ a i, s.index.lookup a = some i ↔ s.elements[i]? = some a
  known : ∀ i a, s.elements[i]? = some a →
    s.elements[ρ i]? = some (A.rep a) ∧ Partitions.rk s.rank (ρ i) = A.rk (A.rep a)
  unknown : ∀ a, a ∉ s.elements → A.rep a = a ∧ A.rk a = 0

theorem rel_new : Rel (PState.new : PState T) Abs.init id := by
  refine ⟨⟨rfl, rfl, ?_, ?_, ?_, ?_, ?_, ?_, ?_, ?_, ?_⟩, ?_, ?_, ?_⟩ <;> simp [PState.new, Abs.init]

namespace Rel

variable {s : PState T} {A : Abs T} {ρ : Nat → Nat}

theorem inj (h : Rel s A ρ) {i j : Nat} {a : T} (hi : s.elements[i]? = some a)
    (hj : s.elements[j]? = some a) : i = j := by
  have h1 := (h.index a i).2 hi
  have h2 := (h.index a j).2 hj
  rw [h1] at h2; exact Option.some.inj h2

theorem nodup (h : Rel s A ρ) : s.elements.Nodup := by
  rw [List.nodup_iff_injective_getElem]
  intro i j hij
  have := h.inj (i := i) (j := j) (a := s.elements[i.1]) (by simp) (by simp [hij])
  exact Fin.ext this

theorem getIndex_ok (h : Rel s A ρ) (a : T) :
    ∃ i s', getIndex s a = (i, s') ∧ Rel s' A ρ ∧ s'.elements[i]? = some a ∧
      (∀ (j : Nat) (b : T), s.elements[j]? = some b → s'.elements[j]? = some b) ∧
      (∀ b, b ∈ s'.elements ↔ b ∈ s.elements ∨ b = a) := by
  unfold getIndex
  cases hl : s.index.lookup a with
  | some i =>
    have hia := (h.index a i).1 hl
    refine ⟨i, s, rfl, h, hia, fun j b hb => hb, fun b => ⟨Or.inl, ?_⟩⟩
    rintro (h1 | rfl)
    · exact h1
    · exact List.mem_of_getElem? hia
  | none =>
    have hna : a ∉ s.elements := by
      intro hm
      obtain ⟨j, hj⟩ := List.getElem?_of_mem hm
      rw [(h.index a j).2 hj] at hl; cases hl
    refine ⟨s.elements.length, _, rfl, ⟨?_, ?_, ?_, ?_⟩, ?_, ?_, ?_⟩
    · simpa using h.forest.snoc
    · intro b i
      simp only [List.lookup_cons]
      by_cases hb : b = a
      · subst hb
        simp only [beq_self_eq_true]
        constructor
        · intro h1; cases h1; simp
        · intro h1
          rw [List.getElem?_append] at h1
          split at h1
          · exact absurd (List.mem_of_getElem? h1) hna
          · rename_i h2
            congr 1
            by_contra h3
            rw [List.getElem?_eq_none (by simp; omega)] at h1; cases h1
      · have : (b == a) = false := by simpa using hb
        rw [this]
        simp only []
        rw [h.index b i, List.getElem?_append]
        constructor
        · intro h1
          have := (List.getElem?_eq_some_iff.1 h1).1
          rw [if_pos this]; exact h1
        · intro h1
          split at h1
          · exact h1
          · have h2 := List.mem_of_getElem? h1
            simp at h2; exact absurd h2 hb
    · intro i b hb
      have F := h.forest
      simp only at hb ⊢
      have hrk : Partitions.rk (s.rank ++ [0]) (ρ i) = Partitions.rk s.rank (ρ i) := by
        unfold Partitions.rk List.getD
        rcases lt_trichotomy (ρ i) s.rank.length with h | h | h
        · rw [List.getElem?_append_left h]
        · rw [h]; simp
        · rw [List.getElem?_eq_none (by simp; omega), List.getElem?_eq_none (by omega)]
      rw [hrk]
      rw [List.getElem?_append] at hb
      split at hb
      · rename_i hi
        obtain ⟨h1, h2⟩ := h.known i b hb
        refine ⟨?_, h2⟩
        rw [List.getElem?_append_left (F.lt i hi)]; exact h1
      · rename_i hi
        have hba : b = a := by
          have h2 := List.mem_of_getElem? hb
          simpa using h2
        have hin : i = s.elements.length := by
          by_contra h3
          rw [List.getElem?_eq_none (by simp; omega)] at hb; cases hb
        obtain ⟨h1, h2⟩ := h.unknown a hna
        rw [hba, h1, h2, F.ge i (by omega), hin]
        refine ⟨by simp, ?_⟩
        rw [← F.rlen]; simp [Partitions.rk, List.getD]
    · intro b hb
      refine h.unknown b (fun h1 => hb ?_)
      simp [h1]
    · simp
    · intro j b hb
      simp only
      rw [List.getElem?_append_left (List.getElem?_eq_some_iff.1 hb).1]; exact hb
    · intro b; simp

theorem rootIndex_ok (h : Rel s A ρ) (a : T) :
    ∃ (r : Nat) (s' : PState T), rootIndex s a = .ok (r, s') ∧ Rel s' A ρ ∧ s'.elements[r]? = some (A.rep a) ∧
      Partitions.rk s'.rank r = A.rk (A.rep a) ∧ ρ r = r ∧
      (∀ (j : Nat) (b : T), s.elements[j]? = some b → s'.elements[j]? = some b) ∧
      (∀ b, b ∈ s'.elements ↔ b ∈ s.elements ∨ b = a) ∧
      ∃ i : Nat, s'.elements[i]? = some a ∧ ρ i = r := by
  obtain ⟨i, s1, h1, h2, h3, h4, h5⟩ := h.getIndex_ok a
  have F := h2.forest
  have hi : i < s1.elements.length := (List.getElem?_eq_some_iff.1 h3).1
  have hfuel : Partitions.rk s1.rank (ρ i) - Partitions.rk s1.rank i < s1.parent.length + 1 := by
    have := F.rank_le_log hi
    have h6 := Nat.log_lt_self 2 (x := s1.elements.length) (by omega)
    rw [F.plen]; omega
  obtain ⟨p', hp1, hp2⟩ := Forest.compress_ok (s1.parent.length + 1) i F hi hfuel
  have hk := h2.known i a h3
  refine ⟨ρ i, { s1 with parent := p' }, ?_, ⟨hp2, h2.index, h2.known, h2.unknown⟩, hk.1, hk.2,
    F.rho_rho i, h4, h5, i, h3, rfl⟩
  unfold rootIndex
  rw [h1]
  simp only [F.findRoot_ok _ i hi hfuel, Outcome.ok_bind, hp1]

theorem find_ok (h : Rel s A ρ) (a : T) :
    ∃ s', find s a = .ok (A.rep a, s') ∧ Rel s' A ρ ∧
      (∀ b, b ∈ s'.elements ↔ b ∈ s.elements ∨ b = a) := by
  obtain ⟨r, s', h1, h2, h3, _, _, _, h5, _⟩ := h.rootIndex_ok a
  refine ⟨s', ?_, h2, h5⟩
  unfold find
  rw [h1]
  simp only [Outcome.ok_bind, vecGet, h3]

/-- concrete link of root y below root x -/
theorem link_rel (h : Rel s A ρ) {x y : Nat} {a b : T} (hx : s.elements[x]? = some a)
    (hy : s.elements[y]? = some b) (hrx : ρ x = x) (hry : ρ y = y) (hne : x ≠ y)
    (hle : Partitions.rk s.rank y ≤ Partitions.rk s.rank x) :
    Rel { s with parent := s.parent.set y x,
                 rank := (if Partitions.rk s.rank y = Partitions.rk s.rank x then
                    s.rank.set x (Partitions.rk s.rank x + 1) else s.rank) }
      { rep := fun c => if A.rep c = b then a else A.rep c
        rk := if A.rk a = A.rk b then fun c => if c = a then A.rk a + 1 else A.rk c else A.rk }
      (fun i => if ρ i = y then x else ρ i) := by
  have hxn : x < s.elements.length := (List.getElem?_eq_some_iff.1 hx).1
  have hyn : y < s.elements.length := (List.getElem?_eq_some_iff.1 hy).1
  have hab : a ≠ b := by rintro rfl; exact hne (h.inj hx hy)
  have ka := h.known x a hx
  have kb := h.known y b hy
  rw [hrx, hx] at ka
  rw [hry, hy] at kb
  have ra : A.rep a = a := (Option.some.inj ka.1).symm
  have rb : A.rep b = b := (Option.some.inj kb.1).symm
  have rka : Partitions.rk s.rank x = A.rk a := by rw [ka.2, ra]
  have rkb : Partitions.rk s.rank y = A.rk b := by rw [kb.2, rb]
  have hxl : x < s.rank.length := by rw [h.forest.rlen]; exact hxn
  refine ⟨h.forest.link hxn hyn hrx hry hne hle, h.index, ?_, ?_⟩
  · intro i c hc
    obtain ⟨k1, k2⟩ := h.known i c hc
    have iff : ρ i = y ↔ A.rep c = b := by
      constructor
      · intro h1; rw [h1, hy] at k1; exact (Option.some.inj k1).symm
      · intro h1; rw [h1] at k1; exact h.inj k1 hy
    have iffx : ρ i = x ↔ A.rep c = a := by
      constructor
      · intro h1; rw [h1, hx] at k1; exact (Option.some.inj k1).symm
      · intro h1; rw [h1] at k1; exact h.inj k1 hx
    dsimp only
    by_cases hc1 : ρ i = y
    · have hc2 := iff.1 hc1
      rw [if_pos hc1, if_pos hc2]
      refine ⟨hx, ?_⟩
      rw [rka, rkb]
      by_cases he : A.rk a = A.rk b
      · rw [if_pos he, if_pos he.symm, rk_set hxl]; simp
      · rw [if_neg he, if_neg (Ne.symm he)]; exact rka
    · have hc2 : ¬ A.rep c = b := fun h1 => hc1 (iff.2 h1)
      rw [if_neg hc1, if_neg hc2]
      refine ⟨k1, ?_⟩
      rw [rka, rkb]
      by_cases he : A.rk a = A.rk b
      · rw [if_pos he, if_pos he.symm, rk_set hxl]
        by_cases h1 : ρ i = x
        · rw [if_pos h1, if_pos (iffx.1 h1)]
        · rw [if_neg h1, if_neg (fun h2 => h1 (iffx.2 h2)), k2]
      · rw [if_neg he, if_neg (Ne.symm he)]; exact k2
  · intro c hc
    obtain ⟨u1, u2⟩ := h.unknown c hc
    have hcb : c ≠ b := by rintro rfl; exact hc (List.mem_of_getElem? hy)
    have hca : c ≠ a := by rintro rfl; exact hc (List.mem_of_getElem? hx)
    dsimp only
    rw [u1, if_neg hcb]
    refine ⟨rfl, ?_⟩
    split
    · show (if c = a then _ else _) = 0
      rw [if_neg hca, u2]
    · exact u2

theorem unite_ok (h : Rel s A ρ) (a b : T) :
    ∃ s' ρ', unite s a b = .ok s' ∧ Rel s' (A.unite a b) ρ' ∧
      (∀ c, c ∈ s'.elements ↔ c ∈ s.elements ∨ c = a ∨ c = b) := by
  obtain ⟨x, s1, h1, r1, e1, k1, x1, m1, mem1, -⟩ := h.rootIndex_ok a
  obtain ⟨y, s2, h2, r2, e2, k2, y1, m2, mem2, -⟩ := r1.rootIndex_ok b
  have hmem : ∀ c, c ∈ s2.elements ↔ c ∈ s.elements ∨ c = a ∨ c = b := by
    intro c; rw [mem2, mem1, or_assoc]
  have ex : s2.elements[x]? = some (A.rep a) := m2 _ _ e1
  have hxn : x < s2.elements.length := (List.getElem?_eq_some_iff.1 ex).1
  have hyn : y < s2.elements.length := (List.getElem?_eq_some_iff.1 e2).1
  have hxl : x < s2.rank.length := by rw [r2.forest.rlen]; exact hxn
  have hyl : y < s2.rank.length := by rw [r2.forest.rlen]; exact hyn
  have hxp : x < s2.parent.length := by rw [r2.forest.plen]; exact hxn
  have hyp : y < s2.parent.length := by rw [r2.forest.plen]; exact hyn
  have rr : ∀ {x : Nat} {c : T}, s2.elements[x]? = some (A.rep c) → ρ x = x →
      A.rep (A.rep c) = A.rep c ∧ Partitions.rk s2.rank x = A.rk (A.rep c) := by
    intro x c hx hr
    have := r2.known x _ hx
    rw [hr, hx] at this
    have h3 := (Option.some.inj this.1).symm
    exact ⟨h3, by rw [this.2, h3]⟩
  have rkx := (rr ex x1).2
  have rky := (rr e2 y1).2
  unfold unite
  rw [h1]
  simp only [Outcome.ok_bind, h2]
  by_cases hxy : x = y
  · have : A.rep a = A.rep b := by rw [hxy, e2] at ex; exact (Option.some.inj ex).symm
    rw [if_neg (by simpa using hxy)]
    refine ⟨s2, ρ, rfl, ?_, hmem⟩
    unfold Abs.unite; simp only [this, if_true]; exact r2
  · have hab : A.rep a ≠ A.rep b := fun he => hxy (r2.inj ex (he ▸ e2))
    rw [if_pos (by simpa using hxy), vecGet_rk hxl, vecGet_rk hyl]
    simp only [Outcome.ok_bind]
    by_cases hlt : Partitions.rk s2.rank x < Partitions.rk s2.rank y
    · rw [if_pos hlt]
      simp only [vecSet, if_pos hxp, Outcome.ok_bind]
      refine ⟨_, (fun i => if ρ i = x then y else ρ i), rfl, ?_, hmem⟩
      have := r2.link_rel e2 ex y1 x1 (Ne.symm hxy) hlt.le
      rw [if_neg (by omega)] at this
      rw [rkx, rky] at hlt
      rw [if_neg (by omega)] at this
      unfold Abs.unite; simp only [if_neg hab, if_pos hlt]
      exact this
    · rw [if_neg hlt]
      have hle : Partitions.rk s2.rank y ≤ Partitions.rk s2.rank x := by omega
      have := r2.link_rel ex e2 x1 y1 hxy hle
      rw [rkx, rky] at hlt
      have ab : A.unite a b = { rep := fun c => if A.rep c = A.rep b then A.rep a else A.rep c, rk := if A.rk (A.rep a) = A.rk (A.rep b) then fun c => if c = A.rep a then A.rk (A.rep a) + 1 else A.rk c else A.rk } := by
        unfold Abs.unite; simp only [if_neg hab, if_neg hlt]
      rw [← ab] at this
      by_cases he : Partitions.rk s2.rank x = Partitions.rk s2.rank y
      · rw [if_pos he]
        simp only [vecSet, if_pos hxl, if_pos hyp, Outcome.ok_bind]
        rw [if_pos he.symm] at this
        exact ⟨_, (fun i => if ρ i = y then x else ρ i), rfl, this, hmem⟩
      · rw [if_neg he]
        simp only [vecSet, if_pos hyp, Outcome.ok_bind]
        rw [if_neg (Ne.symm he)] at this
        exact ⟨_, (fun i => if ρ i = y then x else ρ i), rfl, this, hmem⟩

end Rel

/-- keep the first occurrence of each value -/
def firsts (l : List T) : List T :=
  l.foldl (fun acc r => if r ∈ acc then acc else acc ++ [r]) []

theorem firsts_snoc (l : List T) (r : T) :
    firsts (l ++ [r]) = if r ∈ firsts l then firsts l else firsts l ++ [r] := by
  unfold firsts; rw [List.foldl_append]; rfl

theorem mem_firsts (l : List T) (r : T) : r ∈ firsts l ↔ r ∈ l := by
  induction l using List.reverseRecOn with
  | nil => simp [firsts]
  | append_singleton l x ih =>
    rw [firsts_snoc]
    by_cases h : x ∈ firsts l
    · rw [if_pos h, List.mem_append, List.mem_singleton, ih]
      refine ⟨Or.inl, ?_⟩
      rintro (h1 | rfl)
      · exact h1
      · exact ih.1 h
    · rw [if_neg h]; simp [ih]

theorem firsts_nodup (l : List T) : (firsts l).Nodup := by
  induction l using List.reverseRecOn with
  | nil => simp [firsts]
  | append_singleton l x ih =>
    rw [firsts_snoc]; split
    · exact ih
    · rename_i h
      rw [List.nodup_append]
      refine ⟨ih, by simp, ?_⟩
      intro a ha b hb; simp at hb; subst hb; rintro rfl; exact h ha

theorem sum_zero (l : List Nat) (h : ∀ n ∈ l, n = 0) : l.sum = 0 := by
  induction l with
  | nil => rfl
  | cons a l ih =>
    rw [List.sum_cons, ih (fun n hn => h n (by simp [hn])), h a (by simp)]

theorem classesLoop_ok (rep : T → T) :
    ∀ (es dn : List T) (s : PState T) (A : Abs T) (ρ : Nat → Nat) (cfr : List (T × Nat))
      (cl : List (List T)), Rel s A ρ → A.rep = rep →
      cl = (firsts (dn.map rep)).map (fun r => dn.filter (fun e => rep e = r)) →
      (∀ r k, cfr.lookup r = some k ↔ (firsts (dn.map rep))[k]? = some r) →
      ∃ s', classesLoop es s cfr cl = .ok (s', (firsts ((dn ++ es).map rep)).map
          (fun r => (dn ++ es).filter (fun e => rep e = r))) ∧ Rel s' A ρ ∧
          (∀ b, b ∈ s'.elements ↔ b ∈ s.elements ∨ b ∈ es) := by
  intro es
  induction es with
  | nil =>
    intro dn s A ρ cfr cl h hA h1 h2
    exact ⟨s, by simp [classesLoop, h1], h, by simp⟩
  | cons e es ih =>
    intro dn s A ρ cfr cl h hA h1 h2
    obtain ⟨s1, f1, r1, m1⟩ := h.find_ok e
    have hmm : ∀ {s' : PState T}, (∀ b, b ∈ s'.elements ↔ b ∈ s1.elements ∨ b ∈ es) →
        (∀ b, b ∈ s'.elements ↔ b ∈ s.elements ∨ b ∈ e :: es) := by
      intro s' hm b; rw [hm, m1, List.mem_cons, or_assoc]
    have hsplit : dn ++ e :: es = (dn ++ [e]) ++ es := by simp
    unfold classesLoop classesStep
    rw [f1, hA]
    simp only [Outcome.ok_bind]
    have nodup := firsts_nodup (dn.map rep)
    cases hl : cfr.lookup (rep e) with
    | some k =>
      have hk := (h2 (rep e) k).1 hl
      have hmem : rep e ∈ firsts (dn.map rep) := List.mem_of_getElem? hk
      have hfs : firsts ((dn ++ [e]).map rep) = firsts (dn.map rep) := by
        rw [List.map_append, List.map_singleton, firsts_snoc, if_pos hmem]
      have hck : cl[k]? = some (dn.filter (fun x => rep x = rep e)) := by
        rw [h1, List.getElem?_map, hk]; rfl
      simp only [vecGet, hck, Outcome.ok_bind]
      rw [hsplit]
      have fin := ih (dn ++ [e]) s1 A ρ cfr (cl.set k (dn.filter (fun x => rep x = rep e) ++ [e])) r1 hA ?_ ?_
      · obtain ⟨s', g1, g2, g3⟩ := fin
        exact ⟨s', g1, g2, hmm g3⟩
      · rw [hfs]
        apply List.ext_getElem?
        intro j
        rw [List.getElem?_set]
        split
        · rename_i hkj; subst hkj
          have hlt := (List.getElem?_eq_some_iff.1 hck).1
          rw [if_pos hlt, List.getElem?_map, hk]
          simp [List.filter_append]
        · rename_i hkj
          rw [h1, List.getElem?_map, List.getElem?_map]
          cases hj : (firsts (dn.map rep))[j]? with
          | none => rfl
          | some r =>
            have hr : rep e ≠ r := by
              rintro rfl
              have := List.getElem?_inj (i := k) (j := j) (List.getElem?_eq_some_iff.1 hk).1 nodup |>.1
                (by rw [hk, hj])
              exact hkj this
            simp [List.filter_append, hr]
      · rw [hfs]; exact h2
    | none =>
      have hnm : rep e ∉ firsts (dn.map rep) := by
        intro hm
        obtain ⟨j, hj⟩ := List.getElem?_of_mem hm
        rw [(h2 _ j).2 hj] at hl; cases hl
      have hfs : firsts ((dn ++ [e]).map rep) = firsts (dn.map rep) ++ [rep e] := by
        rw [List.map_append, List.map_singleton, firsts_snoc, if_neg hnm]
      have hlen : cl.length = (firsts (dn.map rep)).length := by rw [h1]; simp
      rw [hsplit]
      have fin := ih (dn ++ [e]) s1 A ρ ((rep e, cl.length) :: cfr) (cl ++ [[e]]) r1 hA ?_ ?_
      · obtain ⟨s', g1, g2, g3⟩ := fin
        exact ⟨s', g1, g2, hmm g3⟩
      · rw [hfs, List.map_append, h1]
        congr 1
        · apply List.map_congr_left
          intro r hr
          have : rep e ≠ r := by rintro rfl; exact hnm hr
          simp [List.filter_append, this]
        · have : dn.filter (fun x => rep x = rep e) = [] := by
            rw [List.filter_eq_nil_iff]
            intro x hx; simp only [decide_eq_true_eq]
            intro hxe; exact hnm ((mem_firsts _ _).2 (by rw [← hxe]; exact List.mem_map_of_mem hx))
          simp [List.filter_append, this]
      · intro r k
        rw [hfs, List.lookup_cons, hlen]
        by_cases hr : r = rep e
        · subst hr
          simp only [beq_self_eq_true]
          constructor
          · intro h3; cases h3; simp
          · intro h3
            rw [List.getElem?_append] at h3
            split at h3
            · exact absurd (List.mem_of_getElem? h3) hnm
            · rename_i h4
              by_cases h5 : k = (firsts (dn.map rep)).length
              · rw [h5]
              · rw [List.getElem?_eq_none (by simp; omega)] at h3; cases h3
        · have : (r == rep e) = false := by simpa using hr
          rw [this]; simp only []
          rw [h2, List.getElem?_append]
          constructor
          · intro h3; rw [if_pos (List.getElem?_eq_some_iff.1 h3).1]; exact h3
          · intro h3
            split at h3
            · exact h3
            · have := List.mem_of_getElem? h3; simp at this; exact absurd this hr

theorem classes_ok {s : PState T} {A : Abs T} {ρ : Nat → Nat} (h : Rel s A ρ) (elms : List T) :
    ∃ s', classes s elms = .ok (s', (firsts (elms.map A.rep)).map
        (fun r => elms.filter (fun e => A.rep e = r))) ∧ Rel s' A ρ ∧
        (∀ b, b ∈ s'.elements ↔ b ∈ s.elements ∨ b ∈ elms) := by
  have := classesLoop_ok A.rep elms [] s A ρ [] [] h rfl (by simp [firsts]) (by simp [firsts])
  simpa [classes] using this

/-- effect of a call on the abstract machine: `find` does nothing -/
def absStep (A : Abs T) : Op T → Abs T
  | .find _ => A
  | .unite a b => A.unite a b
  | .classes _ => A

def absRun (A : Abs T) (ops : List (Op T)) : Abs T := ops.foldl absStep A

def opMentions : Op T → List T
  | .find a => [a]
  | .unite a b => [a, b]
  | .classes elms => elms

theorem run_rel {s : PState T} {A : Abs T} {ρ : Nat → Nat} (h : Rel s A ρ) (ops : List (Op T)) :
    ∃ s' ρ', run s ops = .ok s' ∧ Rel s' (absRun A ops) ρ' ∧
      (∀ c, c ∈ s'.elements ↔ c ∈ s.elements ∨ c ∈ ops.flatMap opMentions) := by
  induction ops generalizing s A ρ with
  | nil => exact ⟨s, ρ, rfl, h, by simp⟩
  | cons op ops ih =>
    cases op with
    | find a =>
      obtain ⟨s1, h1, r1, m1⟩ := h.find_ok a
      obtain ⟨s2, ρ2, h2, r2, m2⟩ := ih r1
      refine ⟨s2, ρ2, ?_, r2, ?_⟩
      · simp [run, step, h1, h2]
      · intro c; rw [m2, m1]; simp [opMentions, or_assoc]
    | unite a b =>
      obtain ⟨s1, ρ1, h1, r1, m1⟩ := h.unite_ok a b
      obtain ⟨s2, ρ2, h2, r2, m2⟩ := ih r1
      refine ⟨s2, ρ2, ?_, r2, ?_⟩
      · simp [run, step, h1, h2]
      · intro c; rw [m2, m1]; simp [opMentions, or_assoc]
    | classes elms =>
      obtain ⟨s1, h1, r1, m1⟩ := classes_ok h elms
      obtain ⟨s2, ρ2, h2, r2, m2⟩ := ih r1
      refine ⟨s2, ρ2, ?_, r2, ?_⟩
      · simp [run, step, h1, h2]
      · intro c; rw [m2, m1]; simp [opMentions, or_assoc]

theorem run_new (ops : List (Op T)) :
    ∃ s ρ, run PState.new ops = .ok s ∧ Rel s (absRun Abs.init ops) ρ ∧
      (∀ c, c ∈ s.elements ↔ c ∈ ops.flatMap opMentions) := by
  obtain ⟨s, ρ, h1, h2, h3⟩ := run_rel rel_new ops
  exact ⟨s, ρ, h1, h2, by intro c; rw [h3]; simp [PState.new]⟩

/-- abstract machine only depends on the unite calls -/
theorem absRun_filter (A : Abs T) (ops : List (Op T)) (p : Op T → Bool)
    (hp : ∀ a b, p (.unite a b) = true) : absRun A (ops.filter p) = absRun A ops := by
  induction ops generalizing A with
  | nil => rfl
  | cons op ops ih =>
    cases op with
    | find a =>
      rw [List.filter_cons]; split
      · exact ih _
      · exact ih _
    | classes es =>
      rw [List.filter_cons]; split
      · exact ih _
      · exact ih _
    | unite a b => rw [List.filter_cons, hp, if_pos rfl]; exact ih _

end Systre.Partitions
