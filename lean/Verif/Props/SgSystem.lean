import Verif.Props.SgTable
import Verif.Props.Finder
import Verif.Lemmas.SgTable.Systems

/-! # C79: the crystal systems in the shipped table of space groups -/

namespace Systre
open Table ParseOperator Sg Sg.Data
open Finder (CrystalSystem crystalSystemAndBasis2d)

variable {lower : List Char → List Char}

namespace Sg.Data

theorem areOps_inj {n : Nat} {l : List (AffineMap Rat)} {os os' : List (Op n)} (h : AreOps l os) (h' : AreOps l os') : os = os' := by
  unfold AreOps at h h'
  induction h generalizing os' with
  | nil => cases h'; rfl
  | cons a _ ih =>
    cases h' with
    | cons b t =>
      obtain ⟨a1, a2⟩ := a
      obtain ⟨b1, b2⟩ := b
      rw [ih t]
      congr 1
      refine Prod.ext (a1.inj b1) ?_
      funext i
      exact congrFun (congrFun (Rep.inj a2 b2) i) 0

/-- what the checks say about a lookup -/
theorem lookup_block (hl : LowersAscii lower) {T : Tables} (h : Shipped lower T) {e : Lookup} (he : e ∈ T.lookup) {c : TableEntry}
    (hc : mapGet T.settings e.name = some c) :
    ∃ b : Block, b.c.dim = centeringDim e.centering ∧ AreOps c.operators (b.c.maps b.c.dim) ∧ b.c.sysOk e.system = true ∧
      b.c.groupOk = true := by
  obtain ⟨h1, -, h3⟩ := shipped_of hl h
  obtain ⟨l, hlm, k1, k2, k3, k4⟩ := forall₂_right h3 he
  obtain ⟨a1, a2, a3⟩ := look_ok hlm
  have hsys := allB_iff.1 systems_ok l hlm
  have hlo := allB_iff.1 looks_ok l hlm
  simp only [lookOk, Bool.and_eq_true, decide_eq_true_eq] at hlo
  obtain ⟨⟨o1, o2⟩, o3⟩ := hlo
  have hbm : nth b0 blocks l.block ∈ blocks := nth_mem (by unfold blocks; exact List.mem_cons_self) _
  generalize nth b0 blocks l.block = b at o1 o2 o3 hbm hsys
  obtain ⟨hbok, hbs⟩ := block_ok hbm
  have hpm := hbs (b.c, b.c.name) (by simp [Item.settings])
  have hname : l.name = b.c.name := nameOk_key a1 (names_ok hpm) (Nat.eq_of_beq_eq_true o1)
  obtain ⟨c', h4, h5⟩ := get_setting h1 hpm
  rw [k1, hname] at hc
  have e1 : c' = c := Option.some.inj (h4.symm.trans hc)
  subst e1
  refine ⟨b, ?_, h5.2.2.2.2, by rw [k2]; exact hsys, (Block.sound hbok).1⟩
  rw [k3, ← a3, Nat.eq_of_beq_eq_true o2]

theorem dims {n : Nat} {b : Setting} {c : TableEntry} (hg : b.groupOk = true) (hb : AreOps c.operators (b.maps b.dim)) {os : List (Op n)}
    (ho : AreOps c.operators os) : b.dim = n := by
  have hh := Setting.head_one hg
  cases hm : b.maps b.dim with
  | nil => rw [hm] at hh; cases hh
  | cons q qs =>
    rw [hm] at hb
    unfold AreOps at ho hb
    generalize c.operators = l at ho hb
    cases hb with
    | cons ha _ =>
      cases ho with
      | cons hb _ =>
        have e1 := ha.1.1
        have e2 := hb.1.1
        omega

end Sg.Data

/-- **C79** (crystal systems in space). The crystal system that a lookup gives is the one of its group. -/
theorem C79_system_3d (hl : LowersAscii lower) (T : Tables) (h : Shipped lower T) (e : Lookup) (he : e ∈ T.lookup) (c : TableEntry)
    (hc : mapGet T.settings e.name = some c) (os : List (Op 3)) (ho : AreOps c.operators os) : HasSystem3 e.system (groupOf os) := by
  obtain ⟨b, h1, h2, h3, h4⟩ := lookup_block hl h he hc
  have hd := dims h4 h2 ho
  rw [hd] at h2
  rw [areOps_inj ho h2]
  obtain ⟨-, -, -, k4, -⟩ := Setting.group_sound h4
  rw [hd] at k4
  exact Setting.sys_sound3 hd (isGroup k4).2 h3

/-- **C79** (crystal systems in the plane). -/
theorem C79_system_2d (hl : LowersAscii lower) (T : Tables) (h : Shipped lower T) (e : Lookup) (he : e ∈ T.lookup) (c : TableEntry)
    (hc : mapGet T.settings e.name = some c) (os : List (Op 2)) (ho : AreOps c.operators os) : HasSystem2 e.system (groupOf os) := by
  obtain ⟨b, h1, h2, h3, h4⟩ := lookup_block hl h he hc
  have hd := dims h4 h2 ho
  rw [hd] at h2
  rw [areOps_inj ho h2]
  obtain ⟨-, -, -, k4, -⟩ := Setting.group_sound h4
  rw [hd] at k4
  exact Setting.sys_sound2 hd (isGroup k4).2 h3

/-- A group has at most one crystal system. -/
theorem C79_system_unique {s t : CrystalSystem} :
    (∀ G : Set (Op 3), HasSystem3 s G → HasSystem3 t G → s = t) ∧ (∀ G : Set (Op 2), HasSystem2 s G → HasSystem2 t G → s = t) := by
  constructor
  · intro G
    have key : ∀ s, HasSystem3 s G →
        (s = .hexagonal ↔ ∃ P ∈ turnsOf G, orderOf P = 6) ∧
        (s = .hexagonal ∨ (s = .cubic ↔ ∃ P ∈ turnsOf G, ∃ Q ∈ turnsOf G, orderOf P = 3 ∧ orderOf Q = 3 ∧ P * Q ≠ Q * P)) ∧
        (s = .hexagonal ∨ (s = .cubic ∨ s = .trigonal ↔ ∃ P ∈ turnsOf G, orderOf P = 3)) ∧
        (s = .hexagonal ∨ s = .cubic ∨ s = .trigonal ∨ (s = .tetragonal ↔ ∃ P ∈ turnsOf G, orderOf P = 4)) ∧
        (s = .hexagonal ∨ s = .cubic ∨ s = .trigonal ∨ s = .tetragonal ∨
          (s = .orthorhombic ↔ ∃ P ∈ turnsOf G, ∃ Q ∈ turnsOf G, P ≠ 1 ∧ Q ≠ 1 ∧ P ≠ Q)) ∧
        (s = .triclinic → ∀ P ∈ turnsOf G, P = 1) ∧ (s = .monoclinic → ∃ P ∈ turnsOf G, P ≠ 1) ∧
        (s = .hexagonal ∨ s = .cubic ∨ s = .trigonal ∨ s = .tetragonal ∨ s = .orthorhombic ∨ s = .monoclinic ∨ s = .triclinic) := by
      have sq : ∀ {P : Matrix (Fin 3) (Fin 3) ℚ} {k : Nat}, P * P = 1 → orderOf P = k → k ≤ 2 := fun {P k} h e =>
        e ▸ orderOf_le_of_pow_eq_one (by norm_num) (by rw [pow_two]; exact h)
      intro s hs
      cases s with
      | hexagonal => exact ⟨iff_of_true rfl hs, by simp⟩
      | cubic =>
        obtain ⟨h1, P, hP, Q, hQ, h2, h3, h4⟩ := hs
        refine ⟨by simpa using h1, Or.inr ?_, Or.inr ?_, by simp⟩
        · simpa using ⟨P, hP, Q, hQ, h2, h3, h4⟩
        · simpa using ⟨P, hP, h2⟩
      | trigonal =>
        obtain ⟨h1, ⟨P, hP, h2⟩, h3⟩ := hs
        refine ⟨by simpa using h1, Or.inr ?_, Or.inr ?_, by simp⟩
        · simpa using h3
        · simpa using ⟨P, hP, h2⟩
      | tetragonal =>
        obtain ⟨h1, P, hP, h2⟩ := hs
        refine ⟨?_, Or.inr ?_, Or.inr ?_, Or.inr (Or.inr (Or.inr ?_)), by simp⟩
        · simpa using fun P hP => (h1 P hP).1
        · simpa using fun P hP Q hQ h3 => absurd h3 (h1 P hP).2
        · simpa using fun P hP => (h1 P hP).2
        · simpa using ⟨P, hP, h2⟩
      | orthorhombic =>
        obtain ⟨h1, P, hP, Q, hQ, h2⟩ := hs
        refine ⟨?_, Or.inr ?_, Or.inr ?_, Or.inr (Or.inr (Or.inr ?_)), ?_, by simp⟩
        · simpa using fun P hP e => absurd (sq (h1 P hP) e) (by norm_num)
        · simpa using fun P hP Q hQ e => absurd (sq (h1 P hP) e) (by norm_num)
        · simpa using fun P hP e => absurd (sq (h1 P hP) e) (by norm_num)
        · simpa using fun P hP e => absurd (sq (h1 P hP) e) (by norm_num)
        · simpa using ⟨P, hP, Q, hQ, h2⟩
      | monoclinic =>
        obtain ⟨h1, P, ⟨hP, h2⟩, h3⟩ := hs
        refine ⟨?_, Or.inr ?_, Or.inr ?_, Or.inr (Or.inr (Or.inr ?_)), Or.inr (Or.inr (Or.inr (Or.inr ?_))), by simp, ?_, by simp⟩
        · simpa using fun P hP e => absurd (sq (h1 P hP) e) (by norm_num)
        · simpa using fun P hP Q hQ e => absurd (sq (h1 P hP) e) (by norm_num)
        · simpa using fun P hP e => absurd (sq (h1 P hP) e) (by norm_num)
        · simpa using fun P hP e => absurd (sq (h1 P hP) e) (by norm_num)
        · simpa using fun A hA B hB n1 n2 => (h3 A ⟨hA, n1⟩).trans (h3 B ⟨hB, n2⟩).symm
        · simpa using ⟨P, hP, h2⟩
      | triclinic =>
        have h1 : ∀ P ∈ turnsOf G, P = 1 := hs
        have h2 : ∀ P ∈ turnsOf G, P * P = 1 := fun P hP => by rw [h1 P hP, one_mul]
        refine ⟨?_, Or.inr ?_, Or.inr ?_, Or.inr (Or.inr (Or.inr ?_)), Or.inr (Or.inr (Or.inr (Or.inr ?_))), by simpa using h1, by simp, by simp⟩
        · simpa using fun P hP e => absurd (sq (h2 P hP) e) (by norm_num)
        · simpa using fun P hP Q hQ e => absurd (sq (h2 P hP) e) (by norm_num)
        · simpa using fun P hP e => absurd (sq (h2 P hP) e) (by norm_num)
        · simpa using fun P hP e => absurd (sq (h2 P hP) e) (by norm_num)
        · simpa using fun A hA B hB n1 => absurd (h1 A hA) n1
      | oblique => exact hs.elim
      | rectangular => exact hs.elim
      | square => exact hs.elim
    intro hs ht
    obtain ⟨a1, a2, a3, a4, a5, a6, a7, a8⟩ := key s hs
    obtain ⟨b1, b2, b3, b4, b5, b6, b7, b8⟩ := key t ht
    rw [← b1] at a1
    by_cases e1 : t = .hexagonal
    · rw [e1] at a1 ⊢; simpa using a1
    have e1' : s ≠ .hexagonal := fun h => e1 (a1.1 h)
    replace a2 := a2.resolve_left e1'
    replace b2 := b2.resolve_left e1
    rw [← b2] at a2
    replace a3 := a3.resolve_left e1'
    replace b3 := b3.resolve_left e1
    rw [← b3] at a3
    by_cases e2 : t = .cubic
    · rw [e2] at a2 ⊢; simpa using a2
    have e2' : s ≠ .cubic := fun h => e2 (a2.1 h)
    by_cases e3 : t = .trigonal
    · rw [e3] at a3 ⊢; simpa [e2'] using a3
    have e3' : s ≠ .trigonal := fun h => by rcases a3.1 (Or.inr h) with h | h <;> contradiction
    replace a4 := ((a4.resolve_left e1').resolve_left e2').resolve_left e3'
    replace b4 := ((b4.resolve_left e1).resolve_left e2).resolve_left e3
    rw [← b4] at a4
    by_cases e4 : t = .tetragonal
    · rw [e4] at a4 ⊢; simpa using a4
    have e4' : s ≠ .tetragonal := fun h => e4 (a4.1 h)
    replace a5 := (((a5.resolve_left e1').resolve_left e2').resolve_left e3').resolve_left e4'
    replace b5 := (((b5.resolve_left e1).resolve_left e2).resolve_left e3).resolve_left e4
    rw [← b5] at a5
    by_cases e5 : t = .orthorhombic
    · rw [e5] at a5 ⊢; simpa using a5
    have e5' : s ≠ .orthorhombic := fun h => e5 (a5.1 h)
    replace a8 := ((((a8.resolve_left e1').resolve_left e2').resolve_left e3').resolve_left e4').resolve_left e5'
    replace b8 := ((((b8.resolve_left e1).resolve_left e2).resolve_left e3).resolve_left e4).resolve_left e5
    rcases a8 with r | r <;> rcases b8 with r' | r'
    · rw [r, r']
    · obtain ⟨P, hP, h1⟩ := a7 r
      exact absurd (b6 r' P hP) h1
    · obtain ⟨P, hP, h1⟩ := b7 r'
      exact absurd (a6 r P hP) h1
    · rw [r, r']
  · intro G
    have key : ∀ s, HasSystem2 s G →
        (s = .hexagonal ↔ ∃ A ∈ linearPartsOf G, orderOf A = 3) ∧
        (s = .hexagonal ∨ (s = .square ↔ ∃ A ∈ linearPartsOf G, orderOf A = 4)) ∧
        (s = .hexagonal ∨ s = .square ∨ (s = .rectangular ↔ ∃ A ∈ linearPartsOf G, A.det = -1)) ∧
        (s = .hexagonal ∨ s = .square ∨ s = .rectangular ∨ s = .oblique) := by
      intro s hs
      cases s with
      | hexagonal => exact ⟨iff_of_true rfl hs, by simp⟩
      | square =>
        obtain ⟨h1, A, hA, h2⟩ := hs
        exact ⟨by simpa using h1, Or.inr (by simpa using ⟨A, hA, h2⟩), by simp⟩
      | rectangular =>
        obtain ⟨h1, A, hA, h2⟩ := hs
        refine ⟨?_, Or.inr ?_, Or.inr (Or.inr (by simpa using ⟨A, hA, h2⟩)), by simp⟩
        · simpa using fun A hA e => absurd (h1 A hA) (by rw [e]; norm_num)
        · simpa using fun A hA e => absurd (h1 A hA) (by rw [e]; norm_num)
      | oblique =>
        have h1 : ∀ A ∈ linearPartsOf G, orderOf A ≤ 2 ∧ A.det = 1 := hs
        refine ⟨?_, Or.inr ?_, Or.inr (Or.inr ?_), by simp⟩
        · simpa using fun A hA e => absurd (h1 A hA).1 (by rw [e]; norm_num)
        · simpa using fun A hA e => absurd (h1 A hA).1 (by rw [e]; norm_num)
        · simpa using fun A hA e => absurd (h1 A hA).2 (by rw [e]; norm_num)
      | _ => exact hs.elim
    intro hs ht
    obtain ⟨a1, a2, a3, a4⟩ := key s hs
    obtain ⟨b1, b2, b3, b4⟩ := key t ht
    rw [← b1] at a1
    by_cases e1 : t = .hexagonal
    · rw [e1] at a1 ⊢; simpa using a1
    have e1' : s ≠ .hexagonal := fun h => e1 (a1.1 h)
    replace a2 := a2.resolve_left e1'
    replace b2 := b2.resolve_left e1
    rw [← b2] at a2
    by_cases e2 : t = .square
    · rw [e2] at a2 ⊢; simpa using a2
    have e2' : s ≠ .square := fun h => e2 (a2.1 h)
    replace a3 := (a3.resolve_left e1').resolve_left e2'
    replace b3 := (b3.resolve_left e1).resolve_left e2
    rw [← b3] at a3
    by_cases e3 : t = .rectangular
    · rw [e3] at a3 ⊢; simpa using a3
    have e3' : s ≠ .rectangular := fun h => e3 (a3.1 h)
    rw [((a4.resolve_left e1').resolve_left e2').resolve_left e3', ((b4.resolve_left e1).resolve_left e2).resolve_left e3]

/-- **C79** (the program agrees with the table for plane groups). For each of the plane groups in the table, in any
coordinates, `crystal_system_and_basis_2d` finds the crystal system of the lookup from the linear parts of the group,
listed without repetition. -/
theorem C79_program_2d (hl : LowersAscii lower) (T : Tables) (h : Shipped lower T) (e : Lookup) (he : e ∈ T.lookup) (c : TableEntry)
    (hc : mapGet T.settings e.name = some c) (os : List (Op 2)) (ho : AreOps c.operators os)
    (B Bi : Matrix (Fin 2) (Fin 2) ℚ) (hB : B * Bi = 1) (Ms : List (Matrix (Fin 2) (Fin 2) ℚ)) (hnd : Ms.Nodup)
    (hMs : ∀ M, M ∈ Ms ↔ ∃ A ∈ linearPartsOf (groupOf os), M = B * A * Bi)
    (ops : List (Mat Rat)) (hops : List.Forall₂ (fun m M => Rep m M) ops Ms) :
    ∃ basis, crystalSystemAndBasis2d ops = .ok (e.system, basis) := by
  have hsys := C79_system_2d hl T h e he c hc os ho
  obtain ⟨b, h1, h2, h3, h4⟩ := lookup_block hl h he hc
  have hd := dims h4 h2 ho
  rw [hd] at h2
  have hos := areOps_inj ho h2
  obtain ⟨-, -, -, k4, -⟩ := Setting.group_sound h4
  rw [hd, ← hos] at k4
  have hG := (isGroup k4).1
  have hB' : Bi * B = 1 := mul_eq_one_comm.1 hB
  have conj_mul : ∀ A A' : Matrix (Fin 2) (Fin 2) ℚ, B * A * Bi * (B * A' * Bi) = B * (A * A') * Bi := by
    intro A A'
    calc B * A * Bi * (B * A' * Bi) = B * A * (Bi * B) * A' * Bi := by simp only [Matrix.mul_assoc]
      _ = _ := by rw [hB', Matrix.mul_one]; simp only [Matrix.mul_assoc]
  have conj_one : ∀ A : Matrix (Fin 2) (Fin 2) ℚ, B * A * Bi = 1 ↔ A = 1 := by
    intro A
    constructor
    · intro h
      calc A = (Bi * B) * A * (Bi * B) := by rw [hB']; simp
        _ = Bi * (B * A * Bi) * B := by simp only [Matrix.mul_assoc]
        _ = 1 := by rw [h, Matrix.mul_one, hB']
    · rintro rfl
      rw [Matrix.mul_one, hB]
  have conj_pow : ∀ (A : Matrix (Fin 2) (Fin 2) ℚ) k, (B * A * Bi) ^ k = B * A ^ k * Bi := by
    intro A k
    induction k with
    | zero => simp [hB]
    | succ k ih => rw [pow_succ, ih, conj_mul, ← pow_succ]
  have ord : ∀ A : Matrix (Fin 2) (Fin 2) ℚ, orderOf (B * A * Bi) = orderOf A := by
    intro A
    rw [orderOf_eq_orderOf_iff]
    intro k
    rw [conj_pow, conj_one]
  have det : ∀ A : Matrix (Fin 2) (Fin 2) ℚ, (B * A * Bi).det = A.det := by
    intro A
    have : B.det * Bi.det = 1 := by rw [← Matrix.det_mul, hB, Matrix.det_one]
    rw [Matrix.det_mul, Matrix.det_mul]
    linear_combination A.det * this
  have hfin : IsFiniteGroup Ms := by
    refine ⟨⟨?_, ?_, ?_⟩, hnd⟩
    · have : (B * 1 * Bi) ∈ Ms := (hMs _).2 ⟨1, ⟨Op.one, hG.one, rfl⟩, rfl⟩
      exact List.ne_nil_of_mem this
    · intro M hM N hN
      obtain ⟨A, ⟨g, hg, rfl⟩, rfl⟩ := (hMs _).1 hM
      obtain ⟨A', ⟨g', hg', rfl⟩, rfl⟩ := (hMs _).1 hN
      exact (hMs _).2 ⟨_, ⟨_, hG.comp g hg g' hg', rfl⟩, conj_mul _ _⟩
    · intro M hM h0
      obtain ⟨A, ⟨g, hg, rfl⟩, rfl⟩ := (hMs _).1 hM
      rw [det] at h0
      obtain ⟨g', -, hi, -⟩ := hG.inv g hg
      have : g.1 * g'.1 = 1 := congrArg Prod.fst hi
      have := congrArg Matrix.det this
      rw [Matrix.det_mul, h0, Matrix.det_one, zero_mul] at this
      exact zero_ne_one this
  have mem : ∀ A ∈ linearPartsOf (groupOf os), B * A * Bi ∈ Ms := fun A hA => (hMs _).2 ⟨A, hA, rfl⟩
  obtain ⟨s, x, y, X, Y, k, -, -, -, c1, c2, c3, c4, -⟩ := C65_crystal_system_2d hops hfin
  refine ⟨[x, y], ?_⟩
  suffices hs : s = e.system by rw [k, hs]
  generalize e.system = t at hsys
  cases t with
  | hexagonal =>
    obtain ⟨A, hA, h3⟩ := hsys
    exact c1.2 ⟨_, mem A hA, by rw [ord, h3]⟩
  | square =>
    obtain ⟨-, A, hA, h3⟩ := hsys
    exact c2.2 ⟨_, mem A hA, by rw [ord, h3]⟩
  | rectangular =>
    obtain ⟨h5, A, hA, h3⟩ := hsys
    refine c3.2 ⟨?_, _, mem A hA, by rw [det, h3]⟩
    intro M hM
    obtain ⟨A, hA, rfl⟩ := (hMs _).1 hM
    rw [ord]
    exact h5 A hA
  | oblique =>
    refine c4.2 ?_
    intro M hM
    obtain ⟨A, hA, rfl⟩ := (hMs _).1 hM
    rw [ord, det]
    exact hsys A hA
  | _ => exact hsys.elim

/-- a cubic lookup (P-43n) with its operators, and a hexagonal one in the plane (p6) -/
example : ∃ T, Shipped lowerLetters T ∧
    (∃ e ∈ T.lookup, e.system = .cubic ∧ ∃ c, mapGet T.settings e.name = some c ∧ ∃ os : List (Op 3), AreOps c.operators os) ∧
    (∃ e ∈ T.lookup, e.system = .hexagonal ∧ ∃ c, mapGet T.settings e.name = some c ∧ ∃ os : List (Op 2), AreOps c.operators os) := by
  have hl : LowersAscii lowerLetters := fun _ _ => rfl
  obtain ⟨T, h, -⟩ := C79_reads (lower := lowerLetters) hl
  refine ⟨T, h, ?_, ?_⟩
  · obtain ⟨-, -, h3⟩ := shipped_of hl h
    have hm : l17 ∈ looks := by
      have : nth l0 looks 17 = l17 := rfl
      rw [← this]
      exact nth_mem (by unfold looks; exact List.mem_cons_self) _
    obtain ⟨e, he, k1, k2, k3, -⟩ := forall₂_left h3 hm
    obtain ⟨c, hc, -, os, -, -, ho, -⟩ := C79_lookup hl T h e he
    have hex : ∃ os : List (Op (centeringDim e.centering)), AreOps c.operators os := ⟨os, ho⟩
    rw [k3] at hex
    exact ⟨e, he, k2, c, hc, hex⟩
  · obtain ⟨-, -, h3⟩ := shipped_of hl h
    have hm : l15 ∈ looks := by
      have : nth l0 looks 15 = l15 := rfl
      rw [← this]
      exact nth_mem (by unfold looks; exact List.mem_cons_self) _
    obtain ⟨e, he, k1, k2, k3, -⟩ := forall₂_left h3 hm
    obtain ⟨c, hc, -, os, -, -, ho, -⟩ := C79_lookup hl T h e he
    have hex : ∃ os : List (Op (centeringDim e.centering)), AreOps c.operators os := ⟨os, ho⟩
    rw [k3] at hex
    exact ⟨e, he, k2, c, hc, hex⟩

end Systre
