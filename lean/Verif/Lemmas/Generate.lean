import Verif.Spec.SpaceGroups
import Verif.Lemmas.Translations2
import Mathlib.Data.Set.Finite.Lattice
import Mathlib.Data.Set.Finite.List
import Mathlib.Data.Fintype.Pi
import Mathlib.Order.Interval.Finset.Basic
import Mathlib.Data.Int.Interval
import Mathlib.LinearAlgebra.Matrix.NonsingularInverse
import Mathlib.Algebra.Order.Floor.Ring

/-! Helper lemmas about `generate`. -/

namespace Systre
namespace SpaceGroups

/-! ### The search, abstractly -/

section
variable {α β : Type} [DecidableEq α] (step : α → β → α)

def bInner (a : α) : List β → List α → List α → List α × List α
  | [], seen, result => (seen, result)
  | b :: gs, seen, result =>
    if step a b ∈ seen then bInner a gs seen result
    else bInner a gs (step a b :: seen) (result ++ [step a b])

def bLoop (gs : List β) : Nat → Nat → List α → List α → Option (List α)
  | 0, _, _, _ => none
  | fuel + 1, i, seen, result =>
    match result[i]? with
    | none => some result
    | some a => bLoop gs fuel (i + 1) (bInner step a gs seen result).1 (bInner step a gs seen result).2

/-- reachable from the start by steps -/
inductive BReach (gs : List β) (x : α) : α → Prop
  | start : BReach gs x x
  | step {a : α} {b : β} : BReach gs x a → b ∈ gs → BReach gs x (step a b)

theorem bInner_spec (a : α) : ∀ (gs : List β) (seen result : List α), (∀ x, x ∈ seen ↔ x ∈ result) → result.Nodup →
    (∀ x, x ∈ (bInner step a gs seen result).1 ↔ x ∈ (bInner step a gs seen result).2) ∧
    (bInner step a gs seen result).2.Nodup ∧
    (∃ l, (bInner step a gs seen result).2 = result ++ l) ∧
    (∀ b ∈ gs, step a b ∈ (bInner step a gs seen result).2) ∧
    (∀ x ∈ (bInner step a gs seen result).2, x ∈ result ∨ ∃ b ∈ gs, x = step a b)
  | [], seen, result, h, hn => ⟨h, hn, ⟨[], by simp [bInner]⟩, by simp, fun x hx => Or.inl hx⟩
  | b :: gs, seen, result, h, hn => by
    unfold bInner
    split
    · next hs =>
      obtain ⟨h1, h2, ⟨l, h3⟩, h4, h5⟩ := bInner_spec a gs seen result h hn
      refine ⟨h1, h2, ⟨l, h3⟩, ?_, ?_⟩
      · intro c hc
        rcases List.mem_cons.1 hc with rfl | hc
        · rw [h3]; exact List.mem_append_left _ ((h _).1 hs)
        · exact h4 c hc
      · intro x hx
        rcases h5 x hx with h | ⟨c, hc, e⟩
        · exact Or.inl h
        · exact Or.inr ⟨c, List.mem_cons_of_mem _ hc, e⟩
    · next hs =>
      obtain ⟨h1, h2, ⟨l, h3⟩, h4, h5⟩ := bInner_spec a gs (step a b :: seen) (result ++ [step a b])
        (by intro x; simp [h x, or_comm]) (by
          rw [List.nodup_append]
          exact ⟨hn, by simp, by
            intro y hy z hz
            rw [List.mem_singleton.1 hz]
            rintro rfl
            exact hs ((h _).2 hy)⟩)
      refine ⟨h1, h2, ⟨step a b :: l, by rw [h3]; simp⟩, ?_, ?_⟩
      · intro c hc
        rcases List.mem_cons.1 hc with rfl | hc
        · rw [h3]; simp
        · exact h4 c hc
      · intro x hx
        rcases h5 x hx with h | ⟨c, hc, e⟩
        · rcases List.mem_append.1 h with h | h
          · exact Or.inl h
          · exact Or.inr ⟨b, List.mem_cons_self, List.mem_singleton.1 h⟩
        · exact Or.inr ⟨c, List.mem_cons_of_mem _ hc, e⟩

/-- the state of the loop -/
structure BInv (gs : List β) (x : α) (i : Nat) (seen result : List α) : Prop where
  le : i ≤ result.length
  head : result.head? = some x
  same : ∀ y, y ∈ seen ↔ y ∈ result
  nodup : result.Nodup
  reach : ∀ y ∈ result, BReach step gs x y
  closed : ∀ j (hj : j < result.length), j < i → ∀ b ∈ gs, step result[j] b ∈ result

theorem BInv.next {gs : List β} {x : α} {i : Nat} {seen result : List α} (h : BInv step gs x i seen result)
    (hi : i < result.length) :
    BInv step gs x (i + 1) (bInner step result[i] gs seen result).1 (bInner step result[i] gs seen result).2 := by
  obtain ⟨h1, h2, ⟨l, h3⟩, h4, h5⟩ := bInner_spec step result[i] gs seen result h.same h.nodup
  refine ⟨?_, ?_, h1, h2, ?_, ?_⟩
  · rw [h3]; simp; omega
  · rw [h3, List.head?_append, h.head]; rfl
  · intro y hy
    rcases h5 y hy with hy | ⟨b, hb, rfl⟩
    · exact h.reach y hy
    · exact .step (h.reach _ (List.getElem_mem hi)) hb
  · intro j hj hji b hb
    rcases Nat.lt_succ_iff_lt_or_eq.1 hji with hlt | rfl
    · have hjr : j < result.length := by omega
      have e : (bInner step result[i] gs seen result).2[j] = result[j] := by
        simp only [h3]; exact List.getElem_append_left hjr
      rw [e, h3]
      exact List.mem_append_left _ (h.closed j hjr hlt b hb)
    · have e : (bInner step result[j] gs seen result).2[j] = result[j] := by
        simp only [h3]; exact List.getElem_append_left hi
      rw [e]
      exact h4 b hb

theorem bLoop_spec (gs : List β) (x : α) : ∀ (fuel i : Nat) (seen result l : List α),
    BInv step gs x i seen result → bLoop step gs fuel i seen result = some l →
    l.head? = some x ∧ l.Nodup ∧ ∀ y, y ∈ l ↔ BReach step gs x y
  | 0, _, _, _, _, _, h => by simp [bLoop] at h
  | fuel + 1, i, seen, result, l, hI, h => by
    unfold bLoop at h
    split at h
    · next hn =>
      have hn := List.getElem?_eq_none_iff.1 hn
      rw [Option.some.injEq] at h
      subst h
      refine ⟨hI.head, hI.nodup, fun y => ⟨hI.reach y, fun hy => ?_⟩⟩
      induction hy with
      | start => exact List.mem_of_mem_head? (by rw [hI.head]; rfl)
      | step ha hb ih =>
        obtain ⟨j, hj, rfl⟩ := List.getElem_of_mem ih
        exact hI.closed j hj (by omega) _ hb
    · next a ha =>
      obtain ⟨hi, rfl⟩ := List.getElem?_eq_some_iff.1 ha
      exact bLoop_spec gs x fuel _ _ _ l (hI.next step hi) h

theorem bLoop_terminates (gs : List β) (x : α) (F : List α) (hF : ∀ y, BReach step gs x y → y ∈ F) :
    ∀ (fuel i : Nat) (seen result : List α), BInv step gs x i seen result → F.length < fuel + i →
    ∃ l, bLoop step gs fuel i seen result = some l
  | 0, i, seen, result, hI, h => by
    have := (hI.nodup.subperm (fun y hy => hF y (hI.reach y hy))).length_le
    have := hI.le
    omega
  | fuel + 1, i, seen, result, hI, h => by
    unfold bLoop
    split
    · exact ⟨_, rfl⟩
    · next a ha =>
      obtain ⟨hi, rfl⟩ := List.getElem?_eq_some_iff.1 ha
      exact bLoop_terminates gs x F hF fuel _ _ _ (hI.next step hi) (by omega)

theorem bInv_start (gs : List β) (x : α) : BInv step gs x 0 [x] [x] :=
  ⟨by simp, rfl, by simp, by simp, by intro y hy; rw [List.mem_singleton.1 hy]; exact .start,
    by intro j _ h; omega⟩

end

/-! ### The code does this search -/

section
variable {n : Nat}

theorem exists_aff (p : Op n) : ∃ a : AffineMap ℚ, IsAff a p.1 p.2 := by
  obtain ⟨v, -, hv⟩ := vec_new (T := ℚ) (x := p.2) rfl
  exact ⟨⟨_, v⟩, rep_ofFn' (f := fun i j => if h : i < n ∧ j < n then p.1 ⟨i, h.1⟩ ⟨j, h.2⟩ else 0)
    (fun h => h) (fun i j => by simp), hv⟩

noncomputable def toAff (p : Op n) : AffineMap ℚ := (exists_aff p).choose
theorem toAff_isAff (p : Op n) : IsAff (toAff p) p.1 p.2 := (exists_aff p).choose_spec
theorem eq_toAff {a : AffineMap ℚ} {p : Op n} (h : IsAff a p.1 p.2) : a = toAff p := h.unique (toAff_isAff p)
theorem toAff_inj : Function.Injective (toAff (n := n)) := by
  intro p q h
  have h1 := toAff_isAff p
  rw [h] at h1
  have := h1.inj (toAff_isAff q)
  exact Prod.ext this.1 this.2

theorem areOps_toAff (os : List (Op n)) : AreOps (os.map toAff) os := by
  unfold AreOps
  rw [List.forall₂_map_left_iff, List.forall₂_same]
  exact fun p _ => toAff_isAff p

theorem _root_.Systre.AreOps.eq {l : List (AffineMap ℚ)} {os : List (Op n)} (h : AreOps l os) : l = os.map toAff := by
  induction h with
  | nil => rfl
  | cons h _ ih => rw [ih, eq_toAff h]; rfl

/-- the product modulo integer translations, as the code computes it -/
def opStep (p g : Op n) : Op n := (p.1 * g.1, fun i => rem1 ((p.1.mulVec g.2 + p.2) i))

theorem mul_modZ (p g : Op n) : ((toAff p).mul (toAff g) >>= AffineMap.modZ) = .ok (toAff (opStep p g)) := by
  obtain ⟨c, h1, h2⟩ := aff_mul (toAff_isAff p) (toAff_isAff g)
  obtain ⟨d, h3, h4⟩ := aff_modZ h2
  rw [bind_ok h1, h3, eq_toAff (p := opStep p g) h4]

theorem genInner_eq (a : Op n) : ∀ (gs seen result : List (Op n)),
    genInner (toAff a) (gs.map toAff) (seen.map toAff) (result.map toAff) =
      .ok ((bInner opStep a gs seen result).1.map toAff, (bInner opStep a gs seen result).2.map toAff)
  | [], _, _ => rfl
  | g :: gs, seen, result => by
    rw [List.map_cons]
    unfold genInner bInner
    have := mul_modZ a g
    rw [← bind_assoc, bind_ok this]
    simp only [List.mem_map_of_injective toAff_inj]
    split
    · exact genInner_eq a gs seen result
    · have := genInner_eq a gs (opStep a g :: seen) (result ++ [opStep a g])
      simpa using this

theorem genLoop_eq (gs : List (Op n)) : ∀ (fuel i : Nat) (seen result : List (Op n)),
    genLoop (gs.map toAff) fuel i (seen.map toAff) (result.map toAff) =
      match bLoop opStep gs fuel i seen result with
      | some l => .ok (l.map toAff)
      | none => .diverge
  | 0, _, _, _ => rfl
  | fuel + 1, i, seen, result => by
    unfold genLoop bLoop
    rw [List.getElem?_map]
    cases h : result[i]? with
    | none => rfl
    | some a =>
      simp only [Option.map_some]
      rw [bind_ok (genInner_eq a gs seen result)]
      exact genLoop_eq gs fuel _ _ _

theorem generate_eq {gens : List (AffineMap ℚ)} {gs : List (Op n)} (h : AreOps gens gs) (hne : gens ≠ [])
    (fuel : Nat) : generate fuel gens =
      match bLoop opStep gs fuel 0 [Op.one] [Op.one] with
      | some l => .ok (l.map toAff)
      | none => .diverge := by
  have e := AreOps.eq h
  have hd : ∃ g0, vecGet gens 0 = .ok g0 ∧ g0.dim = n := by
    cases gs with
    | nil => rw [e] at hne; simp at hne
    | cons g gs => exact ⟨toAff g, by rw [e]; rfl, (toAff_isAff g).2.dim_eq⟩
  obtain ⟨g0, h0, h1⟩ := hd
  obtain ⟨i, h2, h3⟩ := aff_identity (T := ℚ) n
  have h4 : i = toAff (Op.one (n := n)) := eq_toAff (p := Op.one) h3
  unfold generate
  rw [bind_ok (rassert_true (by simpa using hne)), bind_ok h0, h1, bind_ok h2, e, h4]
  exact genLoop_eq gs fuel 0 [Op.one] [Op.one]

/-! ### Cosets -/

theorem _root_.Systre.SameModZ.refl (p : Op n) : SameModZ p p := ⟨rfl, fun i => ⟨0, by simp⟩⟩
theorem _root_.Systre.SameModZ.symm {p q : Op n} (h : SameModZ p q) : SameModZ q p :=
  ⟨h.1.symm, fun i => by obtain ⟨z, hz⟩ := h.2 i; exact ⟨-z, by push_cast; rw [← hz]; ring⟩⟩
theorem _root_.Systre.SameModZ.trans {p q r : Op n} (h : SameModZ p q) (h' : SameModZ q r) : SameModZ p r :=
  ⟨h.1.trans h'.1, fun i => by
    obtain ⟨z, hz⟩ := h.2 i
    obtain ⟨w, hw⟩ := h'.2 i
    exact ⟨z + w, by push_cast; rw [← hz, ← hw]; ring⟩⟩

theorem _root_.Systre.SameModZ.comp_right {p q : Op n} (h : SameModZ p q) (g : Op n) : SameModZ (p.comp g) (q.comp g) := by
  refine ⟨by simp [Op.comp, h.1], fun i => ?_⟩
  obtain ⟨z, hz⟩ := h.2 i
  exact ⟨z, by simp only [Op.comp, h.1, Pi.add_apply]; rw [← hz]; ring⟩

theorem opStep_same (p g : Op n) : SameModZ (opStep p g) (p.comp g) := by
  refine ⟨rfl, fun i => ?_⟩
  obtain ⟨z, hz⟩ := rem1_int ((p.1.mulVec g.2 + p.2) i)
  exact ⟨-z, by simp only [opStep, Op.comp, hz]; push_cast; ring⟩

theorem _root_.Systre.Op.prod_snoc (w : List (Op n)) (g : Op n) : Op.prod (w ++ [g]) = (Op.prod w).comp g := by
  simp [Op.prod]

theorem reach_word {gs : List (Op n)} {p : Op n} (h : BReach opStep gs Op.one p) :
    ∃ w : List (Op n), (∀ g ∈ w, g ∈ gs) ∧ SameModZ p (Op.prod w) := by
  induction h with
  | start => exact ⟨[], by simp, SameModZ.refl _⟩
  | @step a b ha hb ih =>
    obtain ⟨w, h1, h2⟩ := ih
    refine ⟨w ++ [b], ?_, ?_⟩
    · intro g hg
      rcases List.mem_append.1 hg with hg | hg
      · exact h1 g hg
      · rw [List.mem_singleton.1 hg]; exact hb
    · rw [Op.prod_snoc]
      exact (opStep_same a b).trans (h2.comp_right b)

theorem word_reach {gs : List (Op n)} (w : List (Op n)) (hw : ∀ g ∈ w, g ∈ gs) :
    ∃ p, BReach opStep gs Op.one p ∧ SameModZ p (Op.prod w) := by
  induction w using List.reverseRecOn with
  | nil => exact ⟨Op.one, .start, SameModZ.refl _⟩
  | append_singleton w g ih =>
    obtain ⟨p, h1, h2⟩ := ih (fun x hx => hw x (by simp [hx]))
    refine ⟨opStep p g, .step h1 (hw g (by simp)), ?_⟩
    rw [Op.prod_snoc]
    exact (opStep_same p g).trans (h2.comp_right g)

theorem reach_abs {gs : List (Op n)} {p : Op n} (h : BReach opStep gs Op.one p) (i : Fin n) : |p.2 i| < 1 := by
  cases h with
  | start => simp [Op.one]
  | step => exact rem1_abs _

theorem finite_reps (t : ℚ) : {q : ℚ | |q| < 1 ∧ ∃ z : ℤ, q - t = z}.Finite := by
  obtain ⟨N, hN⟩ := exists_nat_gt (1 + |t|)
  refine ((Set.finite_Icc (-(N : ℤ)) N).image (fun z : ℤ => t + (z : ℚ))).subset ?_
  rintro q ⟨hq, z, hz⟩
  refine ⟨z, ?_, by simp only [← hz]; ring⟩
  have h1 := abs_lt.1 hq
  have h2 := neg_abs_le t
  have h3 := le_abs_self t
  constructor
  · have : (-(N : ℤ) : ℚ) ≤ z := by rw [← hz]; push_cast; linarith
    exact_mod_cast this
  · have : (z : ℚ) ≤ (N : ℤ) := by rw [← hz]; push_cast; linarith
    exact_mod_cast this

theorem finite_coset_reps (p : Op n) : {q : Op n | SameModZ q p ∧ ∀ i, |q.2 i| < 1}.Finite := by
  have hf : (Set.pi Set.univ (fun i => {q : ℚ | |q| < 1 ∧ ∃ z : ℤ, q - p.2 i = z})).Finite :=
    Set.Finite.pi' (fun i => finite_reps (p.2 i)) |>.subset (by intro x hx i; exact hx i (Set.mem_univ i))
  refine (hf.image (fun s => ((p.1, s) : Op n))).subset ?_
  rintro q ⟨h1, h2⟩
  exact ⟨q.2, fun i _ => ⟨h2 i, h1.2 i⟩, by rw [← h1.1]⟩

theorem reach_finite {gs : List (Op n)} (L : List (Op n))
    (hL : ∀ w : List (Op n), (∀ g ∈ w, g ∈ gs) → ∃ q ∈ L, SameModZ (Op.prod w) q) :
    {p | BReach opStep gs Op.one p}.Finite := by
  have hf : (⋃ q ∈ {q | q ∈ L}, {p : Op n | SameModZ p q ∧ ∀ i, |p.2 i| < 1}).Finite :=
    (List.finite_toSet L).biUnion (fun q _ => finite_coset_reps q)
  refine hf.subset ?_
  intro p hp
  obtain ⟨w, h1, h2⟩ := reach_word hp
  obtain ⟨q, hq, h3⟩ := hL w h1
  simp only [Set.mem_iUnion]
  exact ⟨q, hq, h2.trans h3, reach_abs hp⟩

/-! ### Groups -/

theorem _root_.Systre.Op.comp_assoc (p q r : Op n) : (p.comp q).comp r = p.comp (q.comp r) := by
  refine Prod.ext (Matrix.mul_assoc _ _ _) ?_
  simp only [Op.comp, Matrix.mulVec_add, Matrix.mulVec_mulVec, add_assoc]

theorem _root_.Systre.Op.one_comp (p : Op n) : Op.one.comp p = p := by
  refine Prod.ext ?_ ?_ <;> simp [Op.comp, Op.one]

theorem _root_.Systre.Op.comp_one (p : Op n) : p.comp Op.one = p := by
  refine Prod.ext ?_ ?_ <;> simp [Op.comp, Op.one]

theorem _root_.Systre.Op.prod_append (w v : List (Op n)) : Op.prod (w ++ v) = (Op.prod w).comp (Op.prod v) := by
  induction v using List.reverseRecOn with
  | nil => rw [List.append_nil]; exact (Op.comp_one _).symm
  | append_singleton v g ih => rw [← List.append_assoc, Op.prod_snoc, ih, Op.prod_snoc, Op.comp_assoc]

theorem _root_.Systre.SameModZ.comp_left {p q r : Op n} (hp : IsIntegral p.1) (h : SameModZ q r) :
    SameModZ (p.comp q) (p.comp r) := by
  refine ⟨by simp [Op.comp, h.1], fun i => ?_⟩
  choose a ha using hp
  choose z hz using h.2
  refine ⟨∑ j, a i j * z j, ?_⟩
  simp only [Op.comp, Pi.add_apply, Matrix.mulVec, dotProduct]
  rw [add_sub_add_right_eq_sub, ← Finset.sum_sub_distrib]
  push_cast
  exact Finset.sum_congr rfl fun j _ => by rw [← hz, ← ha]; ring

theorem isIntegral_one : IsIntegral (1 : Matrix (Fin n) (Fin n) ℚ) := by
  intro i j
  by_cases h : i = j
  · exact ⟨1, by subst h; simp⟩
  · exact ⟨0, by simp [h]⟩

theorem isIntegral_mul {A B : Matrix (Fin n) (Fin n) ℚ} (hA : IsIntegral A) (hB : IsIntegral B) :
    IsIntegral (A * B) := by
  intro i j
  choose a ha using hA
  choose b hb using hB
  refine ⟨∑ k, a i k * b k j, ?_⟩
  rw [Matrix.mul_apply]
  push_cast
  exact Finset.sum_congr rfl fun k _ => by rw [ha, hb]

theorem isIntegral_prod (w : List (Op n)) (h : ∀ g ∈ w, IsIntegral g.1) : IsIntegral (Op.prod w).1 := by
  induction w using List.reverseRecOn with
  | nil => exact isIntegral_one
  | append_singleton w g ih =>
    rw [Op.prod_snoc]
    exact isIntegral_mul (ih fun x hx => h x (by simp [hx])) (h g (by simp))

theorem _root_.Systre.SameModZ.cancel {p q g : Op n} (hg : g.1.det ≠ 0) (h : SameModZ (p.comp g) (q.comp g)) :
    SameModZ p q := by
  have hu : IsUnit g.1.det := isUnit_iff_ne_zero.2 hg
  have h1 : p.1 = q.1 := by
    have := congrArg (· * g.1⁻¹) h.1
    simpa [Op.comp, Matrix.mul_assoc, Matrix.mul_nonsing_inv _ hu] using this
  refine ⟨h1, fun i => ?_⟩
  obtain ⟨z, hz⟩ := h.2 i
  exact ⟨z, by rw [← hz]; simp only [Op.comp, h1, Pi.add_apply]; ring⟩

/-- one representative for each coset -/
def canon (p : Op n) : Op n := (p.1, fun i => Int.fract (p.2 i))

theorem canon_same (p : Op n) : SameModZ (canon p) p :=
  ⟨rfl, fun i => ⟨-⌊p.2 i⌋, by simp only [canon, Int.fract]; push_cast; ring⟩⟩

theorem canon_eq_iff {p q : Op n} : canon p = canon q ↔ SameModZ p q := by
  constructor
  · intro h
    have h1 := (canon_same p).symm
    rw [h] at h1
    exact h1.trans (canon_same q)
  · rintro ⟨h1, h2⟩
    refine Prod.ext h1 (funext fun i => ?_)
    exact Int.fract_eq_fract.2 (h2 i)

/-- Right multiplication permutes a finite closed set of cosets. -/
theorem right_surj (os : List (Op n)) (g : Op n) (hg : g.1.det ≠ 0)
    (hc : ∀ p ∈ os, ∃ q ∈ os, SameModZ q (p.comp g)) (p : Op n) (hp : p ∈ os) :
    ∃ q ∈ os, SameModZ (q.comp g) p := by
  classical
  let S : Finset (Op n) := (os.map canon).toFinset
  have hS : ∀ x, x ∈ S ↔ ∃ y ∈ os, canon y = x := by intro x; simp [S]
  have hmap : Set.MapsTo (fun x : Op n => canon (x.comp g)) S S := by
    intro x hx
    obtain ⟨y, hy, rfl⟩ := (hS x).1 hx
    obtain ⟨q, hq, h⟩ := hc y hy
    refine (hS _).2 ⟨q, hq, canon_eq_iff.2 ?_⟩
    exact h.trans ((canon_same y).symm.comp_right g)
  have hinj : Set.InjOn (fun x : Op n => canon (x.comp g)) S := by
    intro x hx y hy h
    obtain ⟨x', _, rfl⟩ := (hS x).1 hx
    obtain ⟨y', _, rfl⟩ := (hS y).1 hy
    have := SameModZ.cancel hg (canon_eq_iff.1 h)
    exact canon_eq_iff.2 (((canon_same x').symm.trans this).trans (canon_same y'))
  have hsurj := Finset.surjOn_of_injOn_of_card_le _ hmap hinj le_rfl
  obtain ⟨x, hx, he⟩ := hsurj ((hS (canon p)).2 ⟨p, hp, rfl⟩)
  obtain ⟨q, hq, rfl⟩ := (hS x).1 hx
  exact ⟨q, hq, ((canon_same q).symm.comp_right g).trans (canon_eq_iff.1 he)⟩

theorem right_surj_word (os gs : List (Op n)) (hg : ∀ g ∈ gs, g.1.det ≠ 0)
    (hc : ∀ p ∈ os, ∀ g ∈ gs, ∃ q ∈ os, SameModZ q (p.comp g)) (w : List (Op n)) (hw : ∀ g ∈ w, g ∈ gs) :
    ∀ p ∈ os, ∃ q ∈ os, SameModZ (q.comp (Op.prod w)) p := by
  induction w using List.reverseRecOn with
  | nil => exact fun p hp => ⟨p, hp, by rw [show Op.prod [] = (Op.one : Op n) from rfl, Op.comp_one]; exact .refl p⟩
  | append_singleton w g ih =>
    intro p hp
    have hgm := hw g (by simp)
    obtain ⟨r, hr, h1⟩ := right_surj os g (hg g hgm) (fun p hp => hc p hp g hgm) p hp
    obtain ⟨q, hq, h2⟩ := ih (fun x hx => hw x (by simp [hx])) r hr
    refine ⟨q, hq, ?_⟩
    rw [Op.prod_snoc, ← Op.comp_assoc]
    exact (h2.comp_right g).trans h1

end
end SpaceGroups
end Systre
