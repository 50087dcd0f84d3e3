import Verif.Spec.SgTable
import Mathlib.LinearAlgebra.Matrix.NonsingularInverse
import Mathlib.Tactic.Linarith
import Mathlib.Tactic.Ring

/-! # Groups of affine maps given by coset representatives: a few generators suffice -/

namespace Systre.Sg

variable {n : Nat}

theorem comp_one (g : Op n) : g.comp Op.one = g := by
  ext <;> simp [Op.comp, Op.one]

theorem one_comp (g : Op n) : Op.one.comp g = g := by
  ext <;> simp [Op.comp, Op.one]

theorem comp_assoc (f g h : Op n) : (f.comp g).comp h = f.comp (g.comp h) := by
  ext i j
  · simp [Op.comp, Matrix.mul_assoc]
  · simp only [Op.comp, Matrix.mulVec_add, Matrix.mulVec_mulVec, Pi.add_apply]
    ring

theorem same_refl (g : Op n) : SameModZ g g := ⟨rfl, fun i => ⟨0, by simp⟩⟩
theorem same_symm {g h : Op n} (e : SameModZ g h) : SameModZ h g :=
  ⟨e.1.symm, fun i => by obtain ⟨z, hz⟩ := e.2 i; exact ⟨-z, by push_cast; linarith⟩⟩
theorem same_trans {f g h : Op n} (e : SameModZ f g) (e' : SameModZ g h) : SameModZ f h :=
  ⟨e.1.trans e'.1, fun i => by
    obtain ⟨z, hz⟩ := e.2 i
    obtain ⟨w, hw⟩ := e'.2 i
    exact ⟨z + w, by push_cast; linarith⟩⟩

/-- the translation by `z` -/
def trans (z : Fin n → ℤ) : Op n := (1, fun i => (z i : ℚ))

theorem same_iff {g h : Op n} : SameModZ g h ↔ ∃ z : Fin n → ℤ, g = (trans z).comp h := by
  constructor
  · rintro ⟨e, hz⟩
    choose z hz using hz
    refine ⟨z, ?_⟩
    ext i j
    · simp [Op.comp, trans, e]
    · simp only [Op.comp, trans, Matrix.one_mulVec, Pi.add_apply]
      linarith [hz i]
  · rintro ⟨z, rfl⟩
    refine ⟨by simp [Op.comp, trans], fun i => ⟨z i, by simp [Op.comp, trans]⟩⟩

theorem same_comp_right {g h : Op n} (e : SameModZ g h) (k : Op n) : SameModZ (g.comp k) (h.comp k) := by
  obtain ⟨z, rfl⟩ := same_iff.1 e
  exact same_iff.2 ⟨z, comp_assoc _ _ _⟩

theorem same_comp_left {k g h : Op n} (hk : IsIntegral k.1) (e : SameModZ g h) : SameModZ (k.comp g) (k.comp h) := by
  refine ⟨by simp [Op.comp, e.1], fun i => ?_⟩
  choose z hz using e.2
  choose a ha using hk
  refine ⟨∑ j, a i j * z j, ?_⟩
  simp only [Op.comp, Pi.add_apply, Matrix.mulVec, dotProduct]
  rw [add_sub_add_right_eq_sub, ← Finset.sum_sub_distrib]
  push_cast
  refine Finset.sum_congr rfl (fun j _ => ?_)
  rw [← mul_sub, hz, ha]

theorem trans_add (z w : Fin n → ℤ) : trans (z + w) = (trans z).comp (trans w) := by
  ext i j
  · simp [Op.comp, trans]
  · simp [Op.comp, trans, add_comm]

theorem trans_zero : trans (0 : Fin n → ℤ) = Op.one := by
  ext i j <;> simp [trans, Op.one]

theorem integral_one : IsIntegral (1 : Matrix (Fin n) (Fin n) ℚ) := fun i j =>
  ⟨(1 : Matrix (Fin n) (Fin n) ℤ) i j, by by_cases h : i = j <;> simp [Matrix.one_apply, h]⟩

theorem integral_mul {A B : Matrix (Fin n) (Fin n) ℚ} (hA : IsIntegral A) (hB : IsIntegral B) : IsIntegral (A * B) := by
  intro i j
  choose a ha using hA
  choose b hb using hB
  exact ⟨∑ k, a i k * b k j, by rw [Matrix.mul_apply]; push_cast; exact Finset.sum_congr rfl (fun k _ => by rw [ha, hb])⟩

/-- what a few generators reach -/
inductive Reach (gs : List (Op n)) : Op n → Prop
  | one : Reach gs Op.one
  | step {g o p : Op n} : g ∈ gs → Reach gs o → SameModZ (g.comp o) p → Reach gs p

/-- what the certificates say about the coset representatives `os` and the generators `gs` -/
structure Cert (os gs : List (Op n)) : Prop where
  one : Op.one ∈ os
  integral : ∀ g ∈ gs, IsIntegral g.1
  perm : ∀ g ∈ gs, ∀ o ∈ os, ∃ p ∈ os, SameModZ (g.comp o) p
  inv : ∀ g ∈ gs, ∃ o ∈ os, SameModZ (g.comp o) Op.one
  reach : ∀ o ∈ os, Reach gs o

/-- the generators and the integer translations -/
def IsGen (gs : List (Op n)) (g : Op n) : Prop := g ∈ gs ∨ ∃ z, trans z = g

/-- products of generators -/
inductive Gen (gs : List (Op n)) : Op n → Prop
  | one : Gen gs Op.one
  | mul {g x : Op n} : IsGen gs g → Gen gs x → Gen gs (g.comp x)

theorem gen_comp {gs : List (Op n)} {x y : Op n} (hx : Gen gs x) (hy : Gen gs y) : Gen gs (x.comp y) := by
  induction hx with
  | one => rwa [one_comp]
  | mul hg _ ih => rw [comp_assoc]; exact .mul hg ih

theorem gen_of {gs : List (Op n)} {g : Op n} (h : IsGen gs g) : Gen gs g := by
  have := Gen.mul h Gen.one
  rwa [comp_one] at this

variable {os gs os' gs' : List (Op n)}

theorem mem_of_same {g h : Op n} (e : SameModZ g h) (hh : h ∈ groupOf os) : g ∈ groupOf os := by
  obtain ⟨o, ho, e'⟩ := hh
  exact ⟨o, ho, same_trans e e'⟩

theorem integral_gen (c : Cert os gs) {g : Op n} (hg : IsGen gs g) : IsIntegral g.1 := by
  rcases hg with hg | ⟨z, rfl⟩
  · exact c.integral g hg
  · exact integral_one

theorem gen_mem (c : Cert os gs) {g x : Op n} (hg : IsGen gs g) (hx : x ∈ groupOf os) : g.comp x ∈ groupOf os := by
  rcases hg with hg | ⟨z, rfl⟩
  · obtain ⟨o, ho, e⟩ := hx
    obtain ⟨p, hp, e'⟩ := c.perm g hg o ho
    exact ⟨p, hp, same_trans (same_comp_left (c.integral g hg) e) e'⟩
  · exact mem_of_same (same_iff.2 ⟨z, rfl⟩) hx

theorem reach_closure {o : Op n} (h : Reach gs o) : Gen gs o := by
  induction h with
  | one => exact .one
  | @step g o p hg _ e ih =>
    obtain ⟨z, rfl⟩ := same_iff.1 (same_symm e)
    exact gen_comp (gen_of (Or.inr ⟨z, rfl⟩))
      (gen_comp (gen_of (Or.inl hg)) ih)

theorem mem_closure (c : Cert os gs) (g : Op n) : g ∈ groupOf os ↔ Gen gs g := by
  constructor
  · rintro ⟨o, ho, e⟩
    obtain ⟨z, rfl⟩ := same_iff.1 e
    exact gen_comp (gen_of (Or.inr ⟨z, rfl⟩)) (reach_closure (c.reach o ho))
  · intro h
    induction h with
    | one => exact ⟨_, c.one, same_refl _⟩
    | @mul x y hx _ ih => exact gen_mem c hx ih

theorem integral_of_mem (c : Cert os gs) {g : Op n} (hg : g ∈ groupOf os) : IsIntegral g.1 := by
  rw [mem_closure c] at hg
  induction hg with
  | one => exact integral_one
  | @mul x y hx _ ih => exact integral_mul (integral_gen c hx) ih

theorem comp_mem (c : Cert os gs) {g h : Op n} (hg : g ∈ groupOf os) (hh : h ∈ groupOf os) : g.comp h ∈ groupOf os := by
  rw [mem_closure c] at *
  exact gen_comp hg hh

theorem trans_mem (c : Cert os gs) (z : Fin n → ℤ) : trans z ∈ groupOf os :=
  ⟨_, c.one, same_iff.2 ⟨z, (comp_one _).symm⟩⟩

theorem matrix_inv {g h : Op n} (e : g.comp h = Op.one) : h.comp g = Op.one := by
  have h1 : g.1 * h.1 = 1 := congrArg Prod.fst e
  have h2 : g.1.mulVec h.2 + g.2 = 0 := congrArg Prod.snd e
  have h3 : h.1 * g.1 = 1 := mul_eq_one_comm.1 h1
  refine Prod.ext h3 ?_
  change h.1.mulVec g.2 + h.2 = 0
  have : g.2 = - g.1.mulVec h.2 := by rw [eq_neg_iff_add_eq_zero, add_comm]; exact h2
  rw [this, Matrix.mulVec_neg, Matrix.mulVec_mulVec, h3, Matrix.one_mulVec]
  simp

theorem inv_mem (c : Cert os gs) {g : Op n} (hg : g ∈ groupOf os) :
    ∃ h ∈ groupOf os, g.comp h = Op.one ∧ h.comp g = Op.one := by
  suffices ∃ h ∈ groupOf os, g.comp h = Op.one by
    obtain ⟨h, h1, h2⟩ := this
    exact ⟨h, h1, h2, matrix_inv h2⟩
  rw [mem_closure c] at hg
  induction hg with
  | one => exact ⟨Op.one, ⟨_, c.one, same_refl _⟩, comp_one _⟩
  | @mul x y hx hy ih =>
    obtain ⟨k, hk, e⟩ := ih
    have : ∃ h ∈ groupOf os, Op.comp x h = Op.one := by
      rcases hx with hx | ⟨z, rfl⟩
      · obtain ⟨o, ho, e⟩ := c.inv x hx
        obtain ⟨z, e⟩ := same_iff.1 e
        refine ⟨o.comp (trans (-z)), comp_mem c ⟨o, ho, same_refl _⟩ (trans_mem c _), ?_⟩
        rw [← comp_assoc, e, comp_one, ← trans_add, add_neg_cancel, trans_zero]
      · exact ⟨trans (-z), trans_mem c _, by rw [← trans_add, add_neg_cancel, trans_zero]⟩
    obtain ⟨h, hh, e'⟩ := this
    refine ⟨k.comp h, comp_mem c hk hh, ?_⟩
    rw [comp_assoc, ← comp_assoc y k h]
    rw [e, one_comp, e']

/-- the representatives stand for a group, with integer linear parts -/
theorem isGroup (c : Cert os gs) : IsGroupOfMaps (groupOf os) ∧ ∀ o ∈ os, IsIntegral o.1 :=
  ⟨⟨⟨_, c.one, same_refl _⟩, fun _ hg _ hh => comp_mem c hg hh, fun _ hg => inv_mem c hg⟩,
    fun o ho => integral_of_mem c ⟨o, ho, same_refl _⟩⟩

/-- the `i`-th unit translation -/
def unitTrans (i : Fin n) : Op n := trans (Pi.single i 1)

theorem trans_of_units {S : (Fin n → ℤ) → Prop} (h0 : S 0) (hadd : ∀ z w, S z → S w → S (z + w)) (hneg : ∀ z, S z → S (-z))
    (h1 : ∀ i, S (Pi.single i 1)) (z : Fin n → ℤ) : S z := by
  have hsm : ∀ (i : Fin n) (k : ℤ), S (Pi.single i k) := by
    intro i k
    have hn : ∀ k : ℕ, S (Pi.single i (k : ℤ)) := by
      intro k
      induction k with
      | zero => simpa using h0
      | succ k ih =>
        have := hadd _ _ ih (h1 i)
        rwa [← Pi.single_add] at this
    obtain ⟨k, rfl | rfl⟩ := Int.eq_nat_or_neg k
    · exact hn k
    · have := hneg _ (hn k)
      rwa [← Pi.single_neg] at this
  have hz : z = ∑ i, Pi.single i (z i) := (Finset.univ_sum_single z).symm
  rw [hz]
  exact Finset.sum_induction _ S hadd h0 (fun i _ => hsm i _)

/-- Conjugation by `f` takes the group `os` into the group `os'` if it takes the generators and the unit translations
into it. -/
theorem conj_mem (c : Cert os gs) (c' : Cert os' gs') {f fi : Op n} (h1 : f.comp fi = Op.one)
    (hg : ∀ g ∈ gs, ∃ p ∈ os', SameModZ (f.comp g) (p.comp f))
    (hu : ∀ i : Fin n, ∃ p ∈ os', SameModZ (f.comp (unitTrans i)) (p.comp f)) {x : Op n} (hx : x ∈ groupOf os) :
    (f.comp x).comp fi ∈ groupOf os' := by
  have h2 := matrix_inv h1
  have key : ∀ g, (∃ p ∈ os', SameModZ (f.comp g) (p.comp f)) → (f.comp g).comp fi ∈ groupOf os' := by
    rintro g ⟨p, hp, e⟩
    refine ⟨p, hp, ?_⟩
    have := same_comp_right e fi
    rwa [comp_assoc p, h1, comp_one] at this
  have hmul : ∀ x y : Op n, (f.comp x).comp fi ∈ groupOf os' → (f.comp y).comp fi ∈ groupOf os' →
      (f.comp (x.comp y)).comp fi ∈ groupOf os' := by
    intro x y hx hy
    have : (f.comp (x.comp y)).comp fi = ((f.comp x).comp fi).comp ((f.comp y).comp fi) := by
      rw [comp_assoc (f.comp x), comp_assoc f y, ← comp_assoc fi f, h2, one_comp]
      simp only [comp_assoc]
    rw [this]
    exact comp_mem c' hx hy
  have hone : (f.comp Op.one).comp fi ∈ groupOf os' := by
    rw [comp_one, h1]
    exact ⟨_, c'.one, same_refl _⟩
  have ht : ∀ z, (f.comp (trans z)).comp fi ∈ groupOf os' := by
    refine trans_of_units ?_ ?_ ?_ ?_
    · rw [trans_zero]; exact hone
    · intro z w hz hw
      rw [trans_add]
      exact hmul _ _ hz hw
    · intro z hz
      obtain ⟨h, hh, e1, e2⟩ := inv_mem c' hz
      have : (f.comp (trans (-z))).comp fi = h := by
        have e3 : ((f.comp (trans z)).comp fi).comp ((f.comp (trans (-z))).comp fi) = Op.one := by
          rw [comp_assoc (f.comp _), comp_assoc f (trans (-z)), ← comp_assoc fi f, h2, one_comp, comp_assoc f, ← comp_assoc (trans z),
            ← trans_add, add_neg_cancel, trans_zero, one_comp, h1]
        calc _ = (h.comp ((f.comp (trans z)).comp fi)).comp ((f.comp (trans (-z))).comp fi) := by rw [e2, one_comp]
          _ = h := by rw [comp_assoc, e3, comp_one]
      rw [this]
      exact hh
    · intro i
      exact key _ (hu i)
  rw [mem_closure c] at hx
  induction hx with
  | one => exact hone
  | @mul x y hx _ ih =>
    refine hmul _ _ ?_ ih
    rcases hx with hx | ⟨z, rfl⟩
    · exact key _ (hg x hx)
    · exact ht z

/-- the group `os` is the group `os'` seen through the change of coordinates `f` -/
theorem pullBack_eq (c : Cert os gs) (c' : Cert os' gs') {f fi : Op n} (h1 : f.comp fi = Op.one)
    (hg : ∀ g ∈ gs, ∃ p ∈ os', SameModZ (f.comp g) (p.comp f))
    (hu : ∀ i : Fin n, ∃ p ∈ os', SameModZ (f.comp (unitTrans i)) (p.comp f))
    (hg' : ∀ g ∈ gs', ∃ p ∈ os, SameModZ (fi.comp g) (p.comp fi))
    (hu' : ∀ i : Fin n, ∃ p ∈ os, SameModZ (fi.comp (unitTrans i)) (p.comp fi)) :
    groupOf os = pullBack f fi (groupOf os') := by
  have h2 := matrix_inv h1
  ext x
  constructor
  · exact fun hx => conj_mem c c' h1 hg hu hx
  · intro hx
    have := conj_mem c' c h2 hg' hu' hx
    rwa [comp_assoc, comp_assoc, h2, comp_one, ← comp_assoc, h2, one_comp] at this

end Systre.Sg
