import Verif.Lemmas.SgItems

/-! # Settings with certificates, and what the checks imply for their groups -/

namespace Systre.Sg
open ParseOperator OpText

/-- a generator, its action on the operators by composition from the left (indices in base 256, the first one lowest),
and the index of its inverse -/
structure G where
  g : Tr
  perm : Nat
  inv : Nat

/-- a setting of a space group -/
structure Setting where
  name : List Char
  dim : Nat
  tr : Tr
  trInv : Q
  ops : List Tr
  gens : List G
  words : List (List Nat)
  aligned : Bool

/-- the `n`-th element -/
noncomputable def nth {α : Type} (d : α) (l : List α) : Nat → α :=
  List.rec (motive := fun _ => Nat → α) (fun _ => d) (fun a _ ih n => Nat.rec (motive := fun _ => α) a (fun m _ => ih m) n) l

theorem nth_mem {α : Type} {d : α} {l : List α} (hd : d ∈ l) (n : Nat) : nth d l n ∈ l := by
  suffices h : ∀ (l' : List α) n, nth d l' n = d ∨ nth d l' n ∈ l' by
    rcases h l n with h | h
    · rw [h]; exact hd
    · exact h
  intro l'
  induction l' with
  | nil => intro n; exact Or.inl rfl
  | cons a l' ih =>
    intro n
    cases n with
    | zero => exact Or.inr (by change a ∈ _; simp)
    | succ n =>
      change nth d l' n = d ∨ nth d l' n ∈ _
      rcases ih n with h | h
      · exact Or.inl h
      · exact Or.inr (List.mem_cons_of_mem _ h)

theorem nth_eq {α : Type} {d : α} {l : List α} {n : Nat} (h : n < l.length) : nth d l n = l[n] := by
  induction l generalizing n with
  | nil => simp at h
  | cons a l ih =>
    cases n with
    | zero => rfl
    | succ n => exact ih (by simpa using h)

/-- digit `j` in base 256 -/
def dig (p j : Nat) : Nat := Nat.mod (Nat.div p (Nat.pow 256 j)) 256

/-- composition of `g` with the operators `ss` gives the operators with the indices `p` -/
noncomputable def permOk (d : Tr) (ops : List Tr) (len : Nat) (g : Q) (ss : List Tr) : Nat → Bool :=
  List.rec (motive := fun _ => Nat → Bool) (fun _ => true)
    (fun s _ ih p => cond (Nat.blt (Nat.mod p 256) len)
      (cond (mulIs g s.q (nth d ops (Nat.mod p 256)).q) (ih (Nat.div p 256)) false) false) ss

theorem permOk_sound {d : Tr} {ops : List Tr} {len : Nat} {g : Q} {ss : List Tr} {p : Nat} (h : permOk d ops len g ss p = true)
    (j : Nat) (hj : j < ss.length) : mulIs g ss[j].q (nth d ops (dig p j)).q = true ∧ dig p j < len := by
  induction ss generalizing p j with
  | nil => simp at hj
  | cons s ss ih =>
    have h : cond (Nat.blt (Nat.mod p 256) len)
      (cond (mulIs g s.q (nth d ops (Nat.mod p 256)).q) (permOk d ops len g ss (Nat.div p 256)) false) false = true := h
    rw [cond_and, cond_and] at h
    cases j with
    | zero =>
      have e : dig p 0 = Nat.mod p 256 := by
        change p / 256 ^ 0 % 256 = p % 256
        simp
      rw [e]
      exact ⟨h.2.1, Nat.le_of_ble_eq_true h.1⟩
    | succ j =>
      have := ih h.2.2 j (by simpa using hj)
      have e : dig p (j + 1) = dig (Nat.div p 256) j := by
        change p / 256 ^ (j + 1) % 256 = p / 256 / 256 ^ j % 256
        rw [pow_succ', Nat.div_div_eq_div_mul]
      rw [e]
      exact this

/-- the index of the operator that a word in the generators gives -/
noncomputable def follow (d : G) (gens : List G) (w : List Nat) : Nat :=
  List.rec (motive := fun _ => Nat) 0 (fun k _ ih => dig (nth d gens k).perm ih) w

/-- the words give the operators number `i`, `i + 1`, … -/
noncomputable def wordsOk (d : G) (gens : List G) (ws : List (List Nat)) : Nat → Bool :=
  List.rec (motive := fun _ => Nat → Bool) (fun _ => true)
    (fun w _ ih i => cond (Nat.beq (follow d gens w) i) (ih (Nat.succ i)) false) ws

theorem wordsOk_sound {d : G} {gens : List G} {ws : List (List Nat)} {i : Nat} (h : wordsOk d gens ws i = true) (j : Nat)
    (hj : j < ws.length) : ∃ w, follow d gens w = i + j := by
  induction ws generalizing i j with
  | nil => simp at hj
  | cons w ws ih =>
    have h : cond (Nat.beq (follow d gens w) i) (wordsOk d gens ws (Nat.succ i)) false = true := h
    rw [cond_and] at h
    cases j with
    | zero => exact ⟨w, Nat.eq_of_beq_eq_true h.1⟩
    | succ j =>
      obtain ⟨w', hw⟩ := ih h.2 j (by simpa using hj)
      exact ⟨w', by rw [hw]; omega⟩

/-- not one of the numbers -/
noncomputable def fresh (k : Nat) (l : List Nat) : Bool :=
  List.rec (motive := fun _ => Bool) true (fun x _ ih => cond (Nat.beq k x) false ih) l

/-- all different -/
noncomputable def nodup (l : List Nat) : Bool :=
  List.rec (motive := fun _ => Bool) true (fun x xs ih => cond (fresh x xs) ih false) l

theorem fresh_sound {k : Nat} {l : List Nat} (h : fresh k l = true) : k ∉ l := by
  induction l with
  | nil => simp
  | cons x l ih =>
    have h : cond (Nat.beq k x) false (fresh k l) = true := h
    cases hb : Nat.beq k x
    · rw [hb] at h
      rw [List.mem_cons]
      rintro (rfl | h')
      · rw [Nat.beq_refl] at hb; cases hb
      · exact ih h h'
    · rw [hb] at h; cases h

theorem nodup_sound {l : List Nat} (h : nodup l = true) : l.Nodup := by
  induction l with
  | nil => simp
  | cons x l ih =>
    have h : cond (fresh x l) (nodup l) false = true := h
    rw [cond_and] at h
    exact List.nodup_cons.2 ⟨fresh_sound h.1, ih h.2⟩

/-- every element satisfies the check -/
noncomputable def allB {α : Type} (f : α → Bool) (l : List α) : Bool :=
  List.rec (motive := fun _ => Bool) true (fun x _ ih => cond (f x) ih false) l

theorem allB_iff {α : Type} {f : α → Bool} {l : List α} : allB f l = true ↔ ∀ x ∈ l, f x = true := by
  induction l with
  | nil => simp [allB]
  | cons x l ih =>
    change cond (f x) (allB f l) false = true ↔ _
    rw [cond_and, ih]
    simp

/-- the entries of the linear part are integers -/
def integralB (q : Q) : Bool :=
  decide ((q.r0.a % 24 = 0 ∧ q.r0.b % 24 = 0 ∧ q.r0.c % 24 = 0) ∧ (q.r1.a % 24 = 0 ∧ q.r1.b % 24 = 0 ∧ q.r1.c % 24 = 0) ∧
    (q.r2.a % 24 = 0 ∧ q.r2.b % 24 = 0 ∧ q.r2.c % 24 = 0))

theorem integralB_sound {n : Nat} {q : Q} (h : integralB q = true) : IsIntegral (q.op n).1 := by
  simp only [integralB, decide_eq_true_eq] at h
  obtain ⟨⟨a1, a2, a3⟩, ⟨b1, b2, b3⟩, ⟨c1, c2, c3⟩⟩ := h
  have key : ∀ i j, (q.row i).coef j % 24 = 0 := by
    intro i j
    unfold Q.row R.coef
    split <;> split <;> assumption
  intro i j
  refine ⟨(q.row i).coef j / 24, ?_⟩
  have := Int.ediv_mul_cancel (Int.dvd_of_emod_eq_zero (key i j))
  simp only [Q.op, Matrix.of_apply]
  rw [div_eq_iff (by norm_num)]
  exact_mod_cast this.symm

/-- the check of a setting: the operators are representatives of a group modulo the integer translations -/
noncomputable def Setting.groupOk (s : Setting) : Bool :=
  match s.ops, s.gens with
  | o :: os, g :: gs =>
    decide (o.q = idQ) && allB (fun t => shape s.dim t.q) s.ops && shape s.dim g.g.q &&
    allB (fun g => shape s.dim g.g.q && integralB g.g.q && permOk o (o :: os) (o :: os).length g.g.q (o :: os) g.perm &&
      Nat.beq (dig g.perm g.inv) 0 && Nat.blt g.inv (o :: os).length) (g :: gs) &&
    Nat.beq s.words.length (o :: os).length && wordsOk g (g :: gs) s.words 0 && nodup ((o :: os).map Tr.key)
  | [o], [] => decide (o.q = idQ) && shape s.dim o.q
  | _, _ => false

/-- the affine maps of the operators -/
def Setting.maps (s : Setting) (n : Nat) : List (Op n) := s.ops.map (fun t => t.q.op n)

/-- the affine maps of the generators -/
def Setting.genMaps (s : Setting) (n : Nat) : List (Op n) := s.gens.map (fun g => g.g.q.op n)

theorem Setting.group_sound {s : Setting} (h : s.groupOk = true) :
    (s.dim = 1 ∨ s.dim = 2 ∨ s.dim = 3) ∧ (∀ t ∈ s.ops, shape s.dim t.q = true) ∧ (∀ g ∈ s.gens, shape s.dim g.g.q = true) ∧
    Cert (s.maps s.dim) (s.genMaps s.dim) ∧ DistinctModZ (s.maps s.dim) := by
  unfold Setting.groupOk at h
  split at h
  · rename_i o os g gs ho hg
    simp only [Bool.and_eq_true, decide_eq_true_eq] at h
    obtain ⟨⟨⟨⟨⟨⟨h1, h2⟩, h3⟩, h4⟩, h5⟩, h6⟩, h7⟩ := h
    rw [allB_iff] at h2 h4
    have hdim := shape_dim h3
    rw [← ho] at h4 h5 h7
    rw [← hg] at h4 h6
    have hgs : ∀ g ∈ s.gens, shape s.dim g.g.q = true := by
      intro g hg
      have := h4 g hg
      simp only [Bool.and_eq_true] at this
      exact this.1.1.1.1
    have hom : o ∈ s.ops := by rw [ho]; simp
    have hone : o.q.op s.dim = Op.one := by rw [h1]; exact idQ_op hdim
    have hnth : ∀ k, (nth o s.ops k).q.op s.dim ∈ (s.maps s.dim) := fun k => List.mem_map_of_mem (nth_mem hom k)
    have hperm : ∀ g ∈ s.gens, ∀ j < s.ops.length,
        SameModZ ((g.g.q.op s.dim).comp ((nth o s.ops j).q.op s.dim)) ((nth o s.ops (dig g.perm j)).q.op s.dim) ∧
        dig g.perm j < s.ops.length := by
      intro g hg j hj
      have := h4 g hg
      simp only [Bool.and_eq_true] at this
      have hp := permOk_sound this.1.1.2 j hj
      rw [nth_eq hj]
      exact ⟨mulIs_sound (hgs g hg) hp.1, hp.2⟩
    refine ⟨hdim, h2, hgs, ?_, ?_⟩
    · refine ⟨?_, ?_, ?_, ?_, ?_⟩
      · rw [← hone]; exact List.mem_map_of_mem hom
      · intro x hx
        obtain ⟨g, hg, rfl⟩ := List.mem_map.1 hx
        have := h4 g hg
        simp only [Bool.and_eq_true] at this
        exact integralB_sound this.1.1.1.2
      · intro x hx y hy
        obtain ⟨g, hg, rfl⟩ := List.mem_map.1 hx
        obtain ⟨t, ht, rfl⟩ := List.mem_map.1 hy
        obtain ⟨j, hj, rfl⟩ := List.mem_iff_getElem.1 ht
        refine ⟨_, hnth (dig g.perm j), ?_⟩
        have := (hperm g hg j hj).1
        rwa [nth_eq hj] at this
      · intro x hx
        obtain ⟨g, hg, rfl⟩ := List.mem_map.1 hx
        have := h4 g hg
        simp only [Bool.and_eq_true] at this
        have hlt : g.inv < s.ops.length := Nat.le_of_ble_eq_true this.2
        refine ⟨_, hnth g.inv, ?_⟩
        have hp := (hperm g hg g.inv hlt).1
        rw [Nat.eq_of_beq_eq_true this.1.2] at hp
        have : nth o s.ops 0 = o := by rw [ho]; rfl
        rw [this, hone] at hp
        exact hp
      · have h0 : nth o s.ops 0 = o := by rw [ho]; rfl
        have hgm : g ∈ s.gens := by rw [hg]; simp
        have hfol : ∀ w, follow g s.gens w < s.ops.length ∧ Reach (s.genMaps s.dim) ((nth o s.ops (follow g s.gens w)).q.op s.dim) := by
          intro w
          induction w with
          | nil =>
            refine ⟨by rw [ho]; exact Nat.succ_pos _, ?_⟩
            change Reach _ ((nth o s.ops 0).q.op s.dim)
            rw [h0, hone]
            exact .one
          | cons k w ih =>
            obtain ⟨k1, k2⟩ := hperm _ (nth_mem hgm k) _ ih.1
            exact ⟨k2, .step (List.mem_map_of_mem (nth_mem hgm k)) ih.2 k1⟩
        intro x hx
        obtain ⟨t, ht, rfl⟩ := List.mem_map.1 hx
        obtain ⟨j, hj, rfl⟩ := List.mem_iff_getElem.1 ht
        have hl : s.words.length = s.ops.length := Nat.eq_of_beq_eq_true h5
        obtain ⟨w, hw⟩ := wordsOk_sound h6 j (by omega)
        have := (hfol w).2
        rw [hw, Nat.zero_add, nth_eq hj] at this
        exact this
    · unfold DistinctModZ Setting.maps
      rw [List.pairwise_map]
      have hnd := nodup_sound h7
      unfold List.Nodup at hnd
      rw [List.pairwise_map] at hnd
      refine hnd.imp_of_mem ?_
      intro a b ha hb hne hsame
      exact hne (same_key (h2 a ha) (h2 b hb) hsame)
  · rename_i o ho hg
    simp only [Bool.and_eq_true, decide_eq_true_eq] at h
    obtain ⟨h1, h2⟩ := h
    have hdim := shape_dim h2
    have hm : (s.maps s.dim) = [Op.one] := by
      unfold Setting.maps
      rw [ho]
      simp [h1, idQ_op hdim]
    have hgm : (s.genMaps s.dim) = [] := by
      unfold Setting.genMaps
      rw [hg]
      rfl
    refine ⟨hdim, by rw [ho]; simpa using h2, by rw [hg]; simp, ?_, by rw [hm]; simp [DistinctModZ]⟩
    rw [hm, hgm]
    exact ⟨by simp, by simp, by simp, by simp, by simpa using Reach.one⟩
  · cases h

theorem Setting.head_one {s : Setting} (h : s.groupOk = true) : (s.maps s.dim).head? = some Op.one := by
  have hd := (Setting.group_sound h).1
  unfold Setting.groupOk at h
  unfold Setting.maps
  split at h
  · rename_i o os g gs ho hg
    simp only [Bool.and_eq_true, decide_eq_true_eq] at h
    rw [ho, List.map_cons, List.head?_cons, h.1.1.1.1.1.1, idQ_op hd]
  · rename_i o ho hg
    simp only [Bool.and_eq_true, decide_eq_true_eq] at h
    rw [ho, List.map_cons, List.head?_cons, h.1, idQ_op hd]
  · cases h

/-! ### Changes of coordinates -/

/-- `f ∘ g ∘ f⁻¹` is, up to an integer translation, the operator with the given index, for each of the maps -/
noncomputable def conjOk (d : Tr) (ops : List Tr) (f : Q) (gs : List Q) : List Nat → Bool :=
  List.rec (motive := fun _ => List Nat → Bool) (fun _ => true) (fun g _ ih ks =>
    List.rec (motive := fun _ => Bool) false (fun k ks _ => cond (mulEq f g (nth d ops k).q f) (ih ks) false) ks) gs

theorem conjOk_sound {d : Tr} {ops : List Tr} {f : Q} {gs : List Q} {ks : List Nat} (h : conjOk d ops f gs ks = true) (hd : d ∈ ops) :
    ∀ g ∈ gs, ∃ t ∈ ops, mulEq f g t.q f = true := by
  induction gs generalizing ks with
  | nil => simp
  | cons g gs ih =>
    cases ks with
    | nil => cases h
    | cons k ks =>
      have h : cond (mulEq f g (nth d ops k).q f) (conjOk d ops f gs ks) false = true := h
      rw [cond_and] at h
      intro x hx
      rcases List.mem_cons.1 hx with rfl | hx
      · exact ⟨_, nth_mem hd k, h.1⟩
      · exact ih h.2 x hx

/-- the unit translations -/
def units : Nat → List Q
  | 1 => [⟨⟨24, 0, 0, 24⟩, ⟨0, 24, 0, 0⟩, ⟨0, 0, 24, 0⟩⟩]
  | 2 => [⟨⟨24, 0, 0, 24⟩, ⟨0, 24, 0, 0⟩, ⟨0, 0, 24, 0⟩⟩, ⟨⟨24, 0, 0, 0⟩, ⟨0, 24, 0, 24⟩, ⟨0, 0, 24, 0⟩⟩]
  | _ => [⟨⟨24, 0, 0, 24⟩, ⟨0, 24, 0, 0⟩, ⟨0, 0, 24, 0⟩⟩, ⟨⟨24, 0, 0, 0⟩, ⟨0, 24, 0, 24⟩, ⟨0, 0, 24, 0⟩⟩,
      ⟨⟨24, 0, 0, 0⟩, ⟨0, 24, 0, 0⟩, ⟨0, 0, 24, 24⟩⟩]

theorem unit_mem {n : Nat} (h : n = 1 ∨ n = 2 ∨ n = 3) (i : Fin n) : ∃ q ∈ units n, q.op n = unitTrans i := by
  have key : ∀ q : Q, (∀ a b : Fin n, ((q.row a).coef b : ℚ) / 24 = if a = b then 1 else 0) →
      (∀ a : Fin n, ((q.row a).s : ℚ) / 24 = if a = i then 1 else 0) → q.op n = unitTrans i := by
    intro q h1 h2
    refine Prod.ext ?_ ?_
    · ext a b
      simp only [Q.op, Matrix.of_apply, unitTrans, trans, Matrix.one_apply]
      exact h1 a b
    · ext a
      simp only [Q.op, unitTrans, trans, Pi.single_apply]
      rw [h2 a]
      split <;> simp
  rcases h with rfl | rfl | rfl
  · fin_cases i
    exact ⟨_, by simp [units], key ⟨⟨24, 0, 0, 24⟩, ⟨0, 24, 0, 0⟩, ⟨0, 0, 24, 0⟩⟩
      (by intro a b; fin_cases a; fin_cases b; norm_num [Q.row, R.coef]) (by intro a; fin_cases a; norm_num [Q.row, R.coef])⟩
  · fin_cases i
    · exact ⟨_, by simp [units], key ⟨⟨24, 0, 0, 24⟩, ⟨0, 24, 0, 0⟩, ⟨0, 0, 24, 0⟩⟩
        (by intro a b; fin_cases a <;> fin_cases b <;> norm_num [Q.row, R.coef]) (by intro a; fin_cases a <;> norm_num [Q.row, R.coef])⟩
    · exact ⟨_, by simp [units], key ⟨⟨24, 0, 0, 0⟩, ⟨0, 24, 0, 24⟩, ⟨0, 0, 24, 0⟩⟩
        (by intro a b; fin_cases a <;> fin_cases b <;> norm_num [Q.row, R.coef]) (by intro a; fin_cases a <;> norm_num [Q.row, R.coef])⟩
  · fin_cases i
    · exact ⟨_, by simp [units], key ⟨⟨24, 0, 0, 24⟩, ⟨0, 24, 0, 0⟩, ⟨0, 0, 24, 0⟩⟩
        (by intro a b; fin_cases a <;> fin_cases b <;> norm_num [Q.row, R.coef]) (by intro a; fin_cases a <;> norm_num [Q.row, R.coef])⟩
    · exact ⟨_, by simp [units], key ⟨⟨24, 0, 0, 0⟩, ⟨0, 24, 0, 24⟩, ⟨0, 0, 24, 0⟩⟩
        (by intro a b; fin_cases a <;> fin_cases b <;> norm_num [Q.row, R.coef]) (by intro a; fin_cases a <;> norm_num [Q.row, R.coef])⟩
    · exact ⟨_, by simp [units], key ⟨⟨24, 0, 0, 0⟩, ⟨0, 24, 0, 0⟩, ⟨0, 0, 24, 24⟩⟩
        (by intro a b; fin_cases a <;> fin_cases b <;> norm_num [Q.row, R.coef]) (by intro a; fin_cases a <;> norm_num [Q.row, R.coef])⟩

/-- the check that `f` takes the group of `s` into the group of `c` -/
noncomputable def intoOk (f : Q) (s c : Setting) (ks : List Nat) : Bool :=
  match c.ops with
  | o :: os => conjOk o (o :: os) f (s.gens.map (fun g => g.g.q) ++ units s.dim) ks
  | [] => false

theorem into_sound {f : Q} {s c : Setting} {ks : List Nat} {n : Nat} (h : intoOk f s c ks = true) (hn : s.dim = n)
    (hd : n = 1 ∨ n = 2 ∨ n = 3) (hf : shape n f = true) (hc : ∀ t ∈ c.ops, shape n t.q = true) :
    (∀ g ∈ s.genMaps n, ∃ p ∈ c.maps n, SameModZ ((f.op n).comp g) (p.comp (f.op n))) ∧
    (∀ i : Fin n, ∃ p ∈ c.maps n, SameModZ ((f.op n).comp (unitTrans i)) (p.comp (f.op n))) := by
  unfold intoOk at h
  split at h
  · rename_i o os ho
    rw [hn] at h
    have hs := conjOk_sound h (by simp)
    rw [← ho] at hs
    constructor
    · intro x hx
      obtain ⟨g, hg, rfl⟩ := List.mem_map.1 hx
      obtain ⟨t, ht, e⟩ := hs g.g.q (List.mem_append_left _ (List.mem_map_of_mem (f := fun g : G => g.g.q) hg))
      exact ⟨_, List.mem_map_of_mem ht, mulEq_sound hf (hc t ht) e⟩
    · intro i
      obtain ⟨q, hq, e1⟩ := unit_mem hd i
      obtain ⟨t, ht, e⟩ := hs q (List.mem_append_right _ hq)
      rw [← e1]
      exact ⟨_, List.mem_map_of_mem ht, mulEq_sound hf (hc t ht) e⟩
  · cases h

/-- a setting that is not the canonical one: `fwd` and `bwd` are certificates for its change of coordinates -/
structure Other where
  s : Setting
  fwd : List Nat
  bwd : List Nat

/-- the check of a setting against the canonical one -/
noncomputable def Other.ok (c : Setting) (o : Other) : Bool :=
  o.s.groupOk && Nat.beq o.s.dim c.dim && shape o.s.dim o.s.tr.q && shape o.s.dim o.s.trInv && isInv o.s.tr.q o.s.trInv &&
    intoOk o.s.tr.q o.s c o.fwd && intoOk o.s.trInv c o.s o.bwd

/-- a canonical setting and the other settings of the same group -/
structure Block where
  c : Setting
  others : List Other

/-- the check of a block -/
noncomputable def Block.ok (b : Block) : Bool :=
  b.c.groupOk && decide (b.c.tr.q = idQ) && decide (b.c.trInv = idQ) && allB (fun o => o.ok b.c && decide (o.s.tr.q ≠ idQ)) b.others

theorem idQ_shape {n : Nat} (h : n = 1 ∨ n = 2 ∨ n = 3) : shape n idQ = true := by
  rcases h with rfl | rfl | rfl <;> rfl

/-- what the check of a setting says about its change of coordinates -/
structure Linked (s c : Setting) : Prop where
  dim : c.dim = s.dim
  dims : s.dim = 1 ∨ s.dim = 2 ∨ s.dim = 3
  inv : (s.tr.q.op s.dim).comp (s.trInv.op s.dim) = Op.one
  eq : groupOf (s.maps s.dim) = pullBack (s.tr.q.op s.dim) (s.trInv.op s.dim) (groupOf (c.maps s.dim))

theorem Other.sound {c : Setting} (hc : c.groupOk = true) {o : Other} (h : o.ok c = true) :
    o.s.groupOk = true ∧ Linked o.s c ∧ shape o.s.dim o.s.tr.q = true := by
  unfold Other.ok at h
  simp only [Bool.and_eq_true, decide_eq_true_eq] at h
  obtain ⟨⟨⟨⟨⟨⟨h1, h2⟩, h3⟩, h4⟩, h5⟩, h7⟩, h8⟩ := h
  have hd : c.dim = o.s.dim := (Nat.eq_of_beq_eq_true h2).symm
  obtain ⟨k1, k2, k3, k4, -⟩ := Setting.group_sound h1
  obtain ⟨-, l2, l3, l4, -⟩ := Setting.group_sound hc
  have l2' : ∀ t ∈ c.ops, shape o.s.dim t.q = true := hd ▸ l2
  have l4' : Cert (c.maps o.s.dim) (c.genMaps o.s.dim) := hd ▸ l4
  obtain ⟨a1, a2⟩ := into_sound h7 rfl k1 h3 l2'
  obtain ⟨b1, b2⟩ := into_sound h8 hd k1 h4 k2
  have hi := isInv_sound h3 h5
  exact ⟨h1, ⟨hd, k1, hi, pullBack_eq k4 l4' hi a1 a2 b1 b2⟩, h3⟩

/-- what the check of a block says -/
theorem Block.sound {b : Block} (h : b.ok = true) :
    b.c.groupOk = true ∧ b.c.tr.q = idQ ∧ Linked b.c b.c ∧
    ∀ o ∈ b.others, o.s.groupOk = true ∧ Linked o.s b.c ∧ shape o.s.dim o.s.tr.q = true ∧ o.s.tr.q ≠ idQ := by
  unfold Block.ok at h
  simp only [Bool.and_eq_true, decide_eq_true_eq] at h
  obtain ⟨⟨⟨h1, h2⟩, h3⟩, h4⟩ := h
  rw [allB_iff] at h4
  obtain ⟨k1, -⟩ := Setting.group_sound h1
  refine ⟨h1, h2, ⟨rfl, k1, ?_, ?_⟩, ?_⟩
  · rw [h2, h3, idQ_op k1, comp_one]
  · rw [h2, h3, idQ_op k1]
    ext x
    unfold pullBack
    rw [Set.mem_setOf_eq, one_comp, comp_one]
  · intro o ho
    have := h4 o ho
    simp only [Bool.and_eq_true, decide_eq_true_eq] at this
    obtain ⟨a, b, c⟩ := Other.sound h1 this.1
    exact ⟨a, b, c, this.2⟩

end Systre.Sg
