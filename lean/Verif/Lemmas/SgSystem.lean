import Verif.Lemmas.SgLook
import Mathlib.Tactic.LinearCombination

/-! # Checking the crystal systems of the groups of a space group table -/

namespace Systre.Sg
open Finder (CrystalSystem)

/-! ## orders -/

section order
variable {α : Type} (mul : α → α → α) (isOne : α → Bool)

/-- the order of an element, if it is 1, 2, 3, 4 or 6 -/
def ordB (a : α) : Nat :=
  cond (isOne a) 1 (cond (isOne (mul a a)) 2 (cond (isOne (mul a (mul a a))) 3
    (cond (isOne (mul (mul a a) (mul a a))) 4 (cond (isOne (mul (mul a (mul a a)) (mul a (mul a a)))) 6 0))))

variable {M : Type} [Monoid M] {φ : α → M} {mul isOne}

theorem ordB_sound (hm : ∀ a b, φ (mul a b) = φ a * φ b) (h1 : ∀ a, isOne a = true ↔ φ a = 1) (a : α) (h : ordB mul isOne a ≠ 0) :
    orderOf (φ a) = ordB mul isOne a := by
  have e2 : φ (mul a a) = φ a ^ 2 := by rw [hm, pow_two]
  have e3 : φ (mul a (mul a a)) = φ a ^ 3 := by rw [hm, e2, pow_succ' _ 2]
  have e4 : φ (mul (mul a a) (mul a a)) = φ a ^ 4 := by rw [hm, e2, ← pow_add]
  have e6 : φ (mul (mul a (mul a a)) (mul a (mul a a))) = φ a ^ 6 := by rw [hm, e3, ← pow_add]
  have f : ∀ a, isOne a = false → φ a ≠ 1 := fun a ha h => by rw [(h1 a).2 h] at ha; cases ha
  unfold ordB at h ⊢
  cases k1 : isOne a with
  | true => simp [(h1 _).1 k1]
  | false =>
    have n1 := f _ k1
    cases k2 : isOne (mul a a) with
    | true =>
      have := (h1 _).1 k2
      rw [e2] at this
      simpa using orderOf_eq_prime (p := 2) this n1
    | false =>
      have n2 := f _ k2
      rw [e2] at n2
      cases k3 : isOne (mul a (mul a a)) with
      | true =>
        have := (h1 _).1 k3
        rw [e3] at this
        have : Fact (Nat.Prime 3) := ⟨Nat.prime_three⟩
        simpa using orderOf_eq_prime (p := 3) (by assumption) n1
      | false =>
        have n3 := f _ k3
        rw [e3] at n3
        cases k4 : isOne (mul (mul a a) (mul a a)) with
        | true =>
          have := (h1 _).1 k4
          rw [e4] at this
          simpa using orderOf_eq_prime_pow (p := 2) (n := 1) (x := φ a) n2 this
        | false =>
          cases k6 : isOne (mul (mul a (mul a a)) (mul a (mul a a))) with
          | true =>
            have := (h1 _).1 k6
            rw [e6] at this
            simp only [cond_false, cond_true]
            refine orderOf_eq_of_pow_and_pow_div_prime (by norm_num) this ?_
            intro p hp hd
            have : p ≤ 6 := Nat.le_of_dvd (by norm_num) hd
            interval_cases p
            · exact absurd hp (by norm_num)
            · exact absurd hp (by norm_num)
            · exact n3
            · exact n2
            · exact absurd hp (by norm_num)
            · exact absurd hd (by norm_num)
            · exact absurd hp (by norm_num)
          | false =>
            rw [k1, k2, k3, k4, k6] at h
            exact absurd rfl h

end order

/-! ## matrices of integers -/

/-- a 3 by 3 matrix of integers -/
structure I3 where
  a : Int
  b : Int
  c : Int
  d : Int
  e : Int
  f : Int
  g : Int
  h : Int
  i : Int

/-- the matrix -/
def I3.mat (m : I3) : Matrix (Fin 3) (Fin 3) ℚ := !![m.a, m.b, m.c; m.d, m.e, m.f; m.g, m.h, m.i]

/-- the product -/
def I3.mul (m n : I3) : I3 :=
  ⟨Int.add (Int.add (Int.mul m.a n.a) (Int.mul m.b n.d)) (Int.mul m.c n.g),
   Int.add (Int.add (Int.mul m.a n.b) (Int.mul m.b n.e)) (Int.mul m.c n.h),
   Int.add (Int.add (Int.mul m.a n.c) (Int.mul m.b n.f)) (Int.mul m.c n.i),
   Int.add (Int.add (Int.mul m.d n.a) (Int.mul m.e n.d)) (Int.mul m.f n.g),
   Int.add (Int.add (Int.mul m.d n.b) (Int.mul m.e n.e)) (Int.mul m.f n.h),
   Int.add (Int.add (Int.mul m.d n.c) (Int.mul m.e n.f)) (Int.mul m.f n.i),
   Int.add (Int.add (Int.mul m.g n.a) (Int.mul m.h n.d)) (Int.mul m.i n.g),
   Int.add (Int.add (Int.mul m.g n.b) (Int.mul m.h n.e)) (Int.mul m.i n.h),
   Int.add (Int.add (Int.mul m.g n.c) (Int.mul m.h n.f)) (Int.mul m.i n.i)⟩

theorem I3.mat_mul (m n : I3) : (m.mul n).mat = m.mat * n.mat := by
  have e : m.mul n = ⟨m.a * n.a + m.b * n.d + m.c * n.g, m.a * n.b + m.b * n.e + m.c * n.h, m.a * n.c + m.b * n.f + m.c * n.i,
      m.d * n.a + m.e * n.d + m.f * n.g, m.d * n.b + m.e * n.e + m.f * n.h, m.d * n.c + m.e * n.f + m.f * n.i,
      m.g * n.a + m.h * n.d + m.i * n.g, m.g * n.b + m.h * n.e + m.i * n.h, m.g * n.c + m.h * n.f + m.i * n.i⟩ := rfl
  rw [e]
  ext i j
  fin_cases i <;> fin_cases j <;> simp [I3.mat, Matrix.mul_apply, Fin.sum_univ_three]

/-- the same matrix -/
def I3.beq (m n : I3) : Bool :=
  cond (ieq m.a n.a) (cond (ieq m.b n.b) (cond (ieq m.c n.c) (cond (ieq m.d n.d) (cond (ieq m.e n.e) (cond (ieq m.f n.f)
    (cond (ieq m.g n.g) (cond (ieq m.h n.h) (ieq m.i n.i) false) false) false) false) false) false) false) false

theorem ieq_refl (x : Int) : ieq x x = true := by
  cases x <;> simp [ieq]

theorem I3.beq_iff {m n : I3} : m.beq n = true ↔ m.mat = n.mat := by
  constructor
  · intro h
    simp only [I3.beq, cond_and] at h
    obtain ⟨h1, h2, h3, h4, h5, h6, h7, h8, h9⟩ := h
    rw [I3.mat, ieq_iff h1, ieq_iff h2, ieq_iff h3, ieq_iff h4, ieq_iff h5, ieq_iff h6, ieq_iff h7, ieq_iff h8, ieq_iff h9]
    rfl
  · intro h
    have k := fun i j => congrFun (congrFun h i) j
    have h1 : m.a = n.a := Int.cast_injective (α := ℚ) (k 0 0)
    have h2 : m.b = n.b := Int.cast_injective (α := ℚ) (k 0 1)
    have h3 : m.c = n.c := Int.cast_injective (α := ℚ) (k 0 2)
    have h4 : m.d = n.d := Int.cast_injective (α := ℚ) (k 1 0)
    have h5 : m.e = n.e := Int.cast_injective (α := ℚ) (k 1 1)
    have h6 : m.f = n.f := Int.cast_injective (α := ℚ) (k 1 2)
    have h7 : m.g = n.g := Int.cast_injective (α := ℚ) (k 2 0)
    have h8 : m.h = n.h := Int.cast_injective (α := ℚ) (k 2 1)
    have h9 : m.i = n.i := Int.cast_injective (α := ℚ) (k 2 2)
    simp only [I3.beq, h1, h2, h3, h4, h5, h6, h7, h8, h9, ieq_refl, cond_true]

/-- the unit matrix -/
def I3.one : I3 := ⟨1, 0, 0, 0, 1, 0, 0, 0, 1⟩

theorem I3.mat_one : I3.one.mat = 1 := by
  ext i j
  fin_cases i <;> fin_cases j <;> simp [I3.mat, I3.one]

/-- the determinant -/
def I3.det (m : I3) : Int :=
  Int.add (Int.add (Int.mul m.a (Int.sub (Int.mul m.e m.i) (Int.mul m.f m.h)))
    (Int.mul m.b (Int.sub (Int.mul m.f m.g) (Int.mul m.d m.i)))) (Int.mul m.c (Int.sub (Int.mul m.d m.h) (Int.mul m.e m.g)))

theorem I3.mat_det (m : I3) : m.mat.det = m.det := by
  have : m.det = m.a * (m.e * m.i - m.f * m.h) + m.b * (m.f * m.g - m.d * m.i) + m.c * (m.d * m.h - m.e * m.g) := rfl
  rw [this, Matrix.det_fin_three]
  simp [I3.mat]
  ring

/-- the determinant times the matrix -/
noncomputable def I3.turn (m : I3) : I3 :=
  I3.rec (motive := fun _ => I3) (fun a b c d e f g h i => (fun z => ⟨Int.mul z a, Int.mul z b, Int.mul z c, Int.mul z d, Int.mul z e,
    Int.mul z f, Int.mul z g, Int.mul z h, Int.mul z i⟩) (I3.det ⟨a, b, c, d, e, f, g, h, i⟩)) m

theorem I3.mat_turn (m : I3) : m.turn.mat = m.mat.det • m.mat := by
  rw [m.mat_det]
  have : m.turn = ⟨m.det * m.a, m.det * m.b, m.det * m.c, m.det * m.d, m.det * m.e, m.det * m.f, m.det * m.g, m.det * m.h,
    m.det * m.i⟩ := rfl
  rw [this]
  ext i j
  fin_cases i <;> fin_cases j <;> simp [I3.mat]

/-- the order -/
def I3.ord (m : I3) : Nat := ordB I3.mul (fun m => I3.beq m I3.one) m

theorem I3.ord_sound {m : I3} (h : m.ord ≠ 0) : orderOf m.mat = m.ord :=
  ordB_sound (φ := I3.mat) I3.mat_mul (fun a => by rw [I3.beq_iff, I3.mat_one]) m h

/-- the check that a list of rotations is that of a crystal system -/
noncomputable def sysOk3 (s : CrystalSystem) (l : List I3) : Bool :=
  match s with
  | .hexagonal => l.any (fun m => Nat.beq m.ord 6)
  | .cubic => l.all (fun m => (fun k => Nat.ble 1 k && Nat.ble k 4) m.ord) &&
      l.any (fun m => Nat.beq m.ord 3 && l.any (fun n => Nat.beq n.ord 3 && Bool.not ((m.mul n).beq (n.mul m))))
  | .trigonal => l.all (fun m => (fun k => Nat.ble 1 k && Nat.ble k 4) m.ord) && l.any (fun m => Nat.beq m.ord 3) &&
      l.all (fun m => Bool.not (Nat.beq m.ord 3) || l.all (fun n => Bool.not (Nat.beq n.ord 3) || (m.mul n).beq (n.mul m)))
  | .tetragonal => l.all (fun m => (fun k => Nat.beq k 1 || Nat.beq k 2 || Nat.beq k 4) m.ord) && l.any (fun m => Nat.beq m.ord 4)
  | .orthorhombic => l.all (fun m => (m.mul m).beq I3.one) &&
      l.any (fun m => Bool.not (m.beq I3.one) && l.any (fun n => Bool.not (n.beq I3.one) && Bool.not (m.beq n)))
  | .monoclinic => l.all (fun m => (m.mul m).beq I3.one) &&
      l.any (fun m => Bool.not (m.beq I3.one) && l.all (fun n => n.beq I3.one || n.beq m))
  | .triclinic => l.all (fun m => m.beq I3.one)
  | _ => false

theorem I3.not_beq {m n : I3} (h : m.beq n = false) : m.mat ≠ n.mat := fun e => by
  rw [I3.beq_iff.2 e] at h; cases h

theorem sysOk3_sound {s : CrystalSystem} {l : List I3} {G : Set (Op 3)} (hG : ∀ P, P ∈ turnsOf G ↔ ∃ m ∈ l, P = m.mat)
    (h : sysOk3 s l = true) : HasSystem3 s G := by
  have mem : ∀ m ∈ l, m.mat ∈ turnsOf G := fun m hm => (hG _).2 ⟨m, hm, rfl⟩
  have ord : ∀ {m : I3} {k : Nat}, Nat.beq m.ord k = true → k ≠ 0 → orderOf m.mat = k := by
    intro m k hk h0
    have := Nat.eq_of_beq_eq_true hk
    rw [I3.ord_sound (by omega), this]
  have ordF : ∀ {m : I3}, m.ord ≠ 0 → Nat.beq m.ord 3 = false → orderOf m.mat ≠ 3 := by
    intro m hm h3 he
    rw [I3.ord_sound hm] at he
    rw [he] at h3
    cases h3
  cases s with
  | hexagonal =>
    simp only [sysOk3, List.any_eq_true] at h
    obtain ⟨m, hm, h6⟩ := h
    exact ⟨_, mem m hm, ord h6 (by norm_num)⟩
  | cubic =>
    simp only [sysOk3, Bool.and_eq_true, List.all_eq_true, List.any_eq_true, Bool.not_eq_true'] at h
    obtain ⟨h1, m, hm, h3, n, hn, h4, h5⟩ := h
    refine ⟨?_, _, mem m hm, _, mem n hn, ord h3 (by norm_num), ord h4 (by norm_num), ?_⟩
    · intro P hP
      obtain ⟨m, hm, rfl⟩ := (hG _).1 hP
      have k1 := Nat.le_of_ble_eq_true (h1 m hm).1
      have k2 := Nat.le_of_ble_eq_true (h1 m hm).2
      rw [I3.ord_sound (by omega)]
      omega
    · have := I3.not_beq h5
      rwa [I3.mat_mul, I3.mat_mul] at this
  | trigonal =>
    simp only [sysOk3, Bool.and_eq_true, List.all_eq_true, List.any_eq_true, Bool.not_eq_true', Bool.or_eq_true] at h
    obtain ⟨⟨h1, m, hm, h3⟩, h4⟩ := h
    have nz : ∀ m ∈ l, m.ord ≠ 0 := fun m hm => by have := Nat.le_of_ble_eq_true (h1 m hm).1; omega
    refine ⟨?_, ⟨_, mem m hm, ord h3 (by norm_num)⟩, ?_⟩
    · intro P hP
      obtain ⟨m, hm, rfl⟩ := (hG _).1 hP
      have k2 := Nat.le_of_ble_eq_true (h1 m hm).2
      rw [I3.ord_sound (nz m hm)]
      omega
    · intro P hP Q hQ o1 o2
      obtain ⟨m, hm, rfl⟩ := (hG _).1 hP
      obtain ⟨n, hn, rfl⟩ := (hG _).1 hQ
      rcases h4 m hm with k | k
      · exact absurd o1 (ordF (nz m hm) k)
      · rcases k n hn with k | k
        · exact absurd o2 (ordF (nz n hn) k)
        · have := I3.beq_iff.1 k
          rwa [I3.mat_mul, I3.mat_mul] at this
  | tetragonal =>
    simp only [sysOk3, Bool.and_eq_true, List.all_eq_true, List.any_eq_true, Bool.or_eq_true] at h
    obtain ⟨h1, m, hm, h4⟩ := h
    refine ⟨?_, _, mem m hm, ord h4 (by norm_num)⟩
    intro P hP
    obtain ⟨m, hm, rfl⟩ := (hG _).1 hP
    have : orderOf m.mat = 1 ∨ orderOf m.mat = 2 ∨ orderOf m.mat = 4 := by
      rcases h1 m hm with (k | k) | k
      · exact Or.inl (ord k (by norm_num))
      · exact Or.inr (Or.inl (ord k (by norm_num)))
      · exact Or.inr (Or.inr (ord k (by norm_num)))
    omega
  | orthorhombic =>
    simp only [sysOk3, Bool.and_eq_true, List.all_eq_true, List.any_eq_true, Bool.not_eq_true'] at h
    obtain ⟨h1, m, hm, h3, n, hn, h4, h5⟩ := h
    refine ⟨?_, _, mem m hm, _, mem n hn, ?_, ?_, I3.not_beq h5⟩
    · intro P hP
      obtain ⟨m, hm, rfl⟩ := (hG _).1 hP
      have := I3.beq_iff.1 (h1 m hm)
      rwa [I3.mat_mul, I3.mat_one] at this
    · exact I3.mat_one ▸ I3.not_beq h3
    · exact I3.mat_one ▸ I3.not_beq h4
  | monoclinic =>
    simp only [sysOk3, Bool.and_eq_true, List.all_eq_true, List.any_eq_true, Bool.not_eq_true', Bool.or_eq_true] at h
    obtain ⟨h1, m, hm, h3, h4⟩ := h
    refine ⟨?_, m.mat, ⟨mem m hm, I3.mat_one ▸ I3.not_beq h3⟩, ?_⟩
    · intro P hP
      obtain ⟨m, hm, rfl⟩ := (hG _).1 hP
      have := I3.beq_iff.1 (h1 m hm)
      rwa [I3.mat_mul, I3.mat_one] at this
    · rintro P ⟨hP, hP1⟩
      obtain ⟨n, hn, rfl⟩ := (hG _).1 hP
      rcases h4 n hn with k | k
      · exact absurd (I3.mat_one ▸ I3.beq_iff.1 k) hP1
      · exact I3.beq_iff.1 k
  | triclinic =>
    simp only [sysOk3, List.all_eq_true] at h
    intro P hP
    obtain ⟨m, hm, rfl⟩ := (hG _).1 hP
    exact I3.mat_one ▸ I3.beq_iff.1 (h m hm)
  | oblique => cases h
  | rectangular => cases h
  | square => cases h

/-- a 2 by 2 matrix of integers -/
structure I2 where
  a : Int
  b : Int
  d : Int
  e : Int

/-- the matrix -/
def I2.mat (m : I2) : Matrix (Fin 2) (Fin 2) ℚ := !![m.a, m.b; m.d, m.e]

/-- the product -/
def I2.mul (m n : I2) : I2 :=
  ⟨m.a * n.a + m.b * n.d, m.a * n.b + m.b * n.e, m.d * n.a + m.e * n.d, m.d * n.b + m.e * n.e⟩

theorem I2.mat_mul (m n : I2) : (m.mul n).mat = m.mat * n.mat := by
  ext i j
  fin_cases i <;> fin_cases j <;> simp [I2.mat, I2.mul, Matrix.mul_apply, Fin.sum_univ_two]

/-- the unit matrix -/
def I2.isOne (m : I2) : Bool := ieq m.a 1 && ieq m.b 0 && ieq m.d 0 && ieq m.e 1

theorem I2.isOne_iff {m : I2} : m.isOne = true ↔ m.mat = 1 := by
  constructor
  · intro h
    simp only [I2.isOne, Bool.and_eq_true] at h
    obtain ⟨⟨⟨h1, h2⟩, h3⟩, h4⟩ := h
    rw [I2.mat, ieq_iff h1, ieq_iff h2, ieq_iff h3, ieq_iff h4]
    ext i j
    fin_cases i <;> fin_cases j <;> simp
  · intro h
    have k := fun i j => congrFun (congrFun h i) j
    have h1 : m.a = 1 := Int.cast_injective (α := ℚ) (by simpa [I2.mat] using k 0 0)
    have h2 : m.b = 0 := Int.cast_injective (α := ℚ) (by simpa [I2.mat] using k 0 1)
    have h3 : m.d = 0 := Int.cast_injective (α := ℚ) (by simpa [I2.mat] using k 1 0)
    have h4 : m.e = 1 := Int.cast_injective (α := ℚ) (by simpa [I2.mat] using k 1 1)
    simp [I2.isOne, h1, h2, h3, h4, ieq]

/-- the determinant -/
def I2.det (m : I2) : Int := m.a * m.e - m.b * m.d

theorem I2.mat_det (m : I2) : m.mat.det = m.det := by
  rw [Matrix.det_fin_two]
  simp [I2.mat, I2.det]

/-- the order -/
def I2.ord (m : I2) : Nat := ordB I2.mul I2.isOne m

theorem I2.ord_sound {m : I2} (h : m.ord ≠ 0) : orderOf m.mat = m.ord :=
  ordB_sound (φ := I2.mat) I2.mat_mul (fun _ => I2.isOne_iff) m h

/-- the check that a list of matrices is that of a crystal system -/
def sysOk2 (s : CrystalSystem) (l : List I2) : Bool :=
  match s with
  | .hexagonal => l.any (fun m => Nat.beq m.ord 3)
  | .square => l.all (fun m => Nat.ble 1 m.ord && Bool.not (Nat.beq m.ord 3)) && l.any (fun m => Nat.beq m.ord 4)
  | .rectangular => l.all (fun m => Nat.ble 1 m.ord && Nat.ble m.ord 2) && l.any (fun m => ieq m.det (-1))
  | .oblique => l.all (fun m => (Nat.ble 1 m.ord && Nat.ble m.ord 2) && ieq m.det 1)
  | _ => false

theorem sysOk2_sound {s : CrystalSystem} {l : List I2} {G : Set (Op 2)} (hG : ∀ A, A ∈ linearPartsOf G ↔ ∃ m ∈ l, A = m.mat)
    (h : sysOk2 s l = true) : HasSystem2 s G := by
  have mem : ∀ m ∈ l, m.mat ∈ linearPartsOf G := fun m hm => (hG _).2 ⟨m, hm, rfl⟩
  have small : ∀ {m : I2}, Nat.ble 1 m.ord = true → Nat.ble m.ord 2 = true → orderOf m.mat ≤ 2 := by
    intro m h1 h2
    have h1 := Nat.le_of_ble_eq_true h1
    have h2 := Nat.le_of_ble_eq_true h2
    rw [I2.ord_sound (by omega)]
    exact h2
  cases s with
  | hexagonal =>
    simp only [sysOk2, List.any_eq_true] at h
    obtain ⟨m, hm, h6⟩ := h
    have := Nat.eq_of_beq_eq_true h6
    exact ⟨_, mem m hm, by rw [I2.ord_sound (by omega), this]⟩
  | square =>
    simp only [sysOk2, List.any_eq_true, List.all_eq_true, Bool.and_eq_true, Bool.not_eq_true'] at h
    obtain ⟨h1, m, hm, h6⟩ := h
    have := Nat.eq_of_beq_eq_true h6
    refine ⟨?_, _, mem m hm, by rw [I2.ord_sound (by omega), this]⟩
    intro A hA
    obtain ⟨m, hm, rfl⟩ := (hG _).1 hA
    have k1 := Nat.le_of_ble_eq_true (h1 m hm).1
    rw [I2.ord_sound (by omega)]
    intro h3
    have := (h1 m hm).2
    rw [h3] at this
    cases this
  | rectangular =>
    simp only [sysOk2, List.any_eq_true, List.all_eq_true, Bool.and_eq_true] at h
    obtain ⟨h1, m, hm, h2⟩ := h
    refine ⟨?_, _, mem m hm, by rw [I2.mat_det, ieq_iff h2]; norm_num⟩
    intro A hA
    obtain ⟨m, hm, rfl⟩ := (hG _).1 hA
    exact small (h1 m hm).1 (h1 m hm).2
  | oblique =>
    simp only [sysOk2, List.all_eq_true, Bool.and_eq_true] at h
    intro A hA
    obtain ⟨m, hm, rfl⟩ := (hG _).1 hA
    exact ⟨small (h m hm).1.1 (h m hm).1.2, by rw [I2.mat_det, ieq_iff (h m hm).2]; norm_num⟩
  | cubic => cases h
  | trigonal => cases h
  | tetragonal => cases h
  | orthorhombic => cases h
  | monoclinic => cases h
  | triclinic => cases h

/-! ## the settings -/

/-- division by 24 -/
def by24 : Int → Int
  | .ofNat a => .ofNat (Nat.div a 24)
  | .negSucc a => Int.neg (.ofNat (Nat.div (Nat.succ a) 24))

/-- the linear part -/
def Q.i3 (q : Q) : I3 := ⟨by24 q.r0.a, by24 q.r0.b, by24 q.r0.c, by24 q.r1.a, by24 q.r1.b, by24 q.r1.c, by24 q.r2.a, by24 q.r2.b, by24 q.r2.c⟩

/-- the linear part in the plane -/
def Q.i2 (q : Q) : I2 := ⟨by24 q.r0.a, by24 q.r0.b, by24 q.r1.a, by24 q.r1.b⟩

theorem by24_eq (z : Int) : by24 (24 * z) = z := by
  cases h : 24 * z with
  | ofNat a =>
    have h' : (24 : Int) * z = a := h
    change ((a / 24 : Nat) : Int) = z
    omega
  | negSucc a =>
    have h' : (24 : Int) * z = -((a : Int) + 1) := by rw [h]; omega
    change -(((a + 1) / 24 : Nat) : Int) = z
    omega

theorem by24_div {x : Int} (h : ∃ z : ℤ, (x : ℚ) / 24 = z) : (x : ℚ) / 24 = by24 x := by
  obtain ⟨z, hz⟩ := h
  have : x = 24 * z := by
    rw [div_eq_iff (by norm_num)] at hz
    have : (x : ℚ) = ((24 * z : ℤ) : ℚ) := by push_cast; linarith
    exact_mod_cast this
  rw [hz, this, by24_eq]

theorem Q.i3_mat {q : Q} (h : IsIntegral (q.op 3).1) : q.i3.mat = (q.op 3).1 := by
  ext i j
  obtain ⟨z, hz⟩ := h i j
  have hz' : (((q.row i).coef j : ℤ) : ℚ) / 24 = z := hz
  have := by24_div ⟨z, hz'⟩
  change _ = (((q.row i).coef j : ℤ) : ℚ) / 24
  rw [this]
  fin_cases i <;> fin_cases j <;> rfl

theorem Q.i2_mat {q : Q} (h : IsIntegral (q.op 2).1) : q.i2.mat = (q.op 2).1 := by
  ext i j
  obtain ⟨z, hz⟩ := h i j
  have hz' : (((q.row i).coef j : ℤ) : ℚ) / 24 = z := hz
  have := by24_div ⟨z, hz'⟩
  change _ = (((q.row i).coef j : ℤ) : ℚ) / 24
  rw [this]
  fin_cases i <;> fin_cases j <;> rfl

/-- the check of the crystal system of a setting -/
noncomputable def Setting.sysOk (c : Setting) (s : CrystalSystem) : Bool :=
  cond (Nat.beq c.dim 2) (sysOk2 s (c.ops.map (fun t => t.q.i2))) (sysOk3 s (c.ops.map (fun t => t.q.i3.turn)))

theorem Setting.sys_sound3 {c : Setting} {s : CrystalSystem} (hd : c.dim = 3) (hi : ∀ o ∈ c.maps 3, IsIntegral o.1) (h : c.sysOk s = true) :
    HasSystem3 s (groupOf (c.maps 3)) := by
  unfold Setting.sysOk at h
  rw [hd] at h
  refine sysOk3_sound ?_ h
  intro P
  constructor
  · rintro ⟨g, ⟨o, ho, hs⟩, rfl⟩
    obtain ⟨t, ht, rfl⟩ := List.mem_map.1 ho
    refine ⟨_, List.mem_map.2 ⟨t, ht, rfl⟩, ?_⟩
    rw [I3.mat_turn, Q.i3_mat (hi _ ho), hs.1]
  · rintro ⟨m, hm, rfl⟩
    obtain ⟨t, ht, rfl⟩ := List.mem_map.1 hm
    have ho : t.q.op 3 ∈ c.maps 3 := List.mem_map.2 ⟨t, ht, rfl⟩
    refine ⟨_, ⟨_, ho, same_refl _⟩, ?_⟩
    rw [I3.mat_turn, Q.i3_mat (hi _ ho)]

theorem Setting.sys_sound2 {c : Setting} {s : CrystalSystem} (hd : c.dim = 2) (hi : ∀ o ∈ c.maps 2, IsIntegral o.1) (h : c.sysOk s = true) :
    HasSystem2 s (groupOf (c.maps 2)) := by
  unfold Setting.sysOk at h
  rw [hd] at h
  refine sysOk2_sound ?_ h
  intro P
  constructor
  · rintro ⟨g, ⟨o, ho, hs⟩, rfl⟩
    obtain ⟨t, ht, rfl⟩ := List.mem_map.1 ho
    refine ⟨_, List.mem_map.2 ⟨t, ht, rfl⟩, ?_⟩
    rw [Q.i2_mat (hi _ ho), hs.1]
  · rintro ⟨m, hm, rfl⟩
    obtain ⟨t, ht, rfl⟩ := List.mem_map.1 hm
    have ho : t.q.op 2 ∈ c.maps 2 := List.mem_map.2 ⟨t, ht, rfl⟩
    refine ⟨_, ⟨_, ho, same_refl _⟩, ?_⟩
    rw [Q.i2_mat (hi _ ho)]

end Systre.Sg
