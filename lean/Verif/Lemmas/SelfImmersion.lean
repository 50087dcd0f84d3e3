import Mathlib.Data.Fintype.Pigeonhole
import Mathlib.Data.Fintype.EquivFin
import Mathlib.Data.Fintype.Pi
import Mathlib.Algebra.Group.End
import Mathlib.Algebra.Group.Prod
import Mathlib.Data.Fintype.Prod
import Mathlib.Data.Finite.Prod
import Mathlib.Logic.Relation
import Mathlib.Tactic.Ring
import Mathlib.Tactic.Linarith
import Mathlib.Tactic.Positivity

/-! Star-injective endomorphisms of finite connected graphs are bijective. -/

namespace Systre

/-- every element of a finite monoid has a positive idempotent power -/
theorem exists_idem_pow {M : Type*} [Monoid M] [Finite M] (x : M) : ∃ n, 0 < n ∧ x ^ n * x ^ n = x ^ n := by
  obtain ⟨i, j, hne, hij⟩ := Finite.exists_ne_map_eq_of_infinite (fun n : ℕ => x ^ n)
  wlog hlt : i < j generalizing i j
  · exact this j i (Ne.symm hne) hij.symm (by omega)
  obtain ⟨p, rfl⟩ := Nat.exists_eq_add_of_lt hlt
  have h1 : ∀ k t, i ≤ t → x ^ (t + k * (p + 1)) = x ^ t := by
    intro k
    induction k with
    | zero => intro t _; simp
    | succ k ih =>
      intro t ht
      have : t + (k + 1) * (p + 1) = (t + (p + 1)) + k * (p + 1) := by ring
      rw [this, ih _ (by omega)]
      obtain ⟨r, rfl⟩ := Nat.exists_eq_add_of_le ht
      have : i + r + (p + 1) = (i + p + 1) + r := by ring
      rw [this, pow_add, ← hij, ← pow_add]
  refine ⟨(i + 1) * (p + 1), by positivity, ?_⟩
  rw [← pow_add]
  apply h1
  nlinarith

/-- A map of a finite connected graph to itself that is injective on the edges at each vertex is
bijective. -/
theorem star_injective_bijective {V D : Type} [Finite V] [Finite D] (head : D → V) (neg : D → D)
    (hneg : ∀ e, neg (neg e) = e) (hconn : ∀ v w, Relation.ReflTransGen (fun a b => ∃ e, head e = a ∧ head (neg e) = b) v w)
    (vm : V → V) (em : D → D) (hh : ∀ e, head (em e) = vm (head e)) (hn : ∀ e, em (neg e) = neg (em e))
    (hinj : ∀ e f, head e = head f → em e = em f → e = f) :
    Function.Bijective vm ∧ Function.Bijective em := by
  let x : Function.End V × Function.End D := (vm, em)
  haveI : Finite (Function.End V) := inferInstanceAs (Finite (V → V))
  haveI : Finite (Function.End D) := inferInstanceAs (Finite (D → D))
  obtain ⟨n, hn0, hid⟩ := exists_idem_pow x
  -- the powers are graph maps too
  have hpow : ∀ k : ℕ, (∀ e, head ((x ^ k).2 e) = (x ^ k).1 (head e)) ∧
      (∀ e, (x ^ k).2 (neg e) = neg ((x ^ k).2 e)) ∧
      (∀ e f, head e = head f → (x ^ k).2 e = (x ^ k).2 f → e = f) := by
    intro k
    induction k with
    | zero => exact ⟨fun e => rfl, fun e => rfl, fun e f _ h => h⟩
    | succ k ih =>
      obtain ⟨i1, i2, i3⟩ := ih
      have e1 : ∀ v, (x ^ (k + 1)).1 v = (x ^ k).1 (vm v) := fun v => by rw [pow_succ]; rfl
      have e2 : ∀ v, (x ^ (k + 1)).2 v = (x ^ k).2 (em v) := fun v => by rw [pow_succ]; rfl
      refine ⟨fun e => ?_, fun e => ?_, fun e f h1 h2 => ?_⟩
      · rw [e2, e1, i1, hh]
      · rw [e2, e2, hn, i2]
      · rw [e2, e2] at h2
        exact hinj e f h1 (i3 _ _ (by rw [hh, hh, h1]) h2)
  obtain ⟨p1, p2, p3⟩ := hpow n
  have hidV : ∀ v, (x ^ n).1 ((x ^ n).1 v) = (x ^ n).1 v := fun v => congrFun (congrArg Prod.fst hid) v
  have hidD : ∀ v, (x ^ n).2 ((x ^ n).2 v) = (x ^ n).2 v := fun v => congrFun (congrArg Prod.snd hid) v
  -- fixed vertices have fixed edges
  have hfixE : ∀ e, (x ^ n).1 (head e) = head e → (x ^ n).2 e = e := by
    intro e he
    exact p3 _ _ (by rw [p1, he]) (hidD e)
  have hstep : ∀ v w, (x ^ n).1 v = v → (∃ e, head e = v ∧ head (neg e) = w) → (x ^ n).1 w = w := by
    rintro v w hv ⟨e, rfl, rfl⟩
    rw [← p1, p2, hfixE e hv]
  have hfixV : ∀ v, (x ^ n).1 v = v := by
    intro v
    have h0 := hidV v
    have h1 := hconn ((x ^ n).1 v) v
    have : ∀ u w, Relation.ReflTransGen (fun a b => ∃ e, head e = a ∧ head (neg e) = b) u w →
        (x ^ n).1 u = u → (x ^ n).1 w = w := by
      intro u w h
      induction h with
      | refl => exact id
      | tail _ h ih => exact fun hu => hstep _ _ (ih hu) h
    exact this _ _ h1 h0
  obtain ⟨k, rfl⟩ : ∃ k, n = k + 1 := ⟨n - 1, by omega⟩
  have e1 : ∀ v, (x ^ (k + 1)).1 v = (x ^ k).1 (vm v) := fun v => by rw [pow_succ]; rfl
  have e2 : ∀ v, (x ^ (k + 1)).2 v = (x ^ k).2 (em v) := fun v => by rw [pow_succ]; rfl
  have iV : Function.Injective vm := by
    intro a b h
    rw [← hfixV a, ← hfixV b, e1, e1, h]
  have iD : Function.Injective em := by
    intro a b h
    rw [← hfixE a (hfixV _), ← hfixE b (hfixV _), e2, e2, h]
  exact ⟨Finite.injective_iff_bijective.1 iV, Finite.injective_iff_bijective.1 iD⟩

end Systre
