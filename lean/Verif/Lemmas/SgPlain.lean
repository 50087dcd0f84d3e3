import Verif.Lemmas.SgTable.All
import Verif.Props.SgTable
import Verif.Props.Parsing

/-! # The numbers in the shipped table are small, and no shift of a change of coordinates is 1 or -1 -/

namespace Systre.Sg

/-- the entries of a row are small -/
def R.small (r : R) : Bool :=
  Nat.blt r.a.natAbs 1000 && Nat.blt r.b.natAbs 1000 && Nat.blt r.c.natAbs 1000 && Nat.blt r.s.natAbs 1000

/-- the shift is not 1 or -1 -/
def R.plain (r : R) : Bool := Bool.not (Nat.beq r.s.natAbs 24)

def Q.small (q : Q) : Bool := q.r0.small && q.r1.small && q.r2.small

def Q.plain (q : Q) : Bool := q.r0.plain && q.r1.plain && q.r2.plain

noncomputable def Setting.plain (s : Setting) : Bool := s.tr.q.plain && s.tr.q.small && allB (fun t => t.q.small) s.ops

noncomputable def Block.plain (b : Block) : Bool := b.c.plain && allB (fun o => o.s.plain) b.others

noncomputable def Item.plain : Item → Bool
  | .block b => b.plain
  | .look l => l.o.s.tr.q.plain && l.o.s.tr.q.small
  | _ => true

theorem small_div {z : Int} (h : z.natAbs < 1000) : OpText.Small ((z : ℚ) / 24) := by
  have e : (z : ℚ) / 24 = mkRat z 24 := by rw [Rat.mkRat_eq_div]; norm_num
  rw [e]
  have h1 : (mkRat z 24).num ∣ z := by
    exact Rat.num_dvd z (show (24 : Int) ≠ 0 by norm_num)
  have h2 : ((mkRat z 24).den : Int) ∣ 24 := by
    exact Rat.den_dvd z 24
  constructor
  · by_cases hz : z = 0
    · subst hz; simp
    · have := Nat.le_of_dvd (Int.natAbs_pos.2 hz) (Int.natAbs_dvd_natAbs.2 h1)
      omega
  · have : (mkRat z 24).den ∣ 24 := by exact_mod_cast h2
    have := Nat.le_of_dvd (by norm_num) this
    omega

theorem R.small_sound {r : R} (h : r.small = true) : (∀ j, OpText.Small ((r.coef j : ℚ) / 24)) ∧ OpText.Small ((r.s : ℚ) / 24) := by
  simp only [R.small, Bool.and_eq_true, Nat.blt_eq] at h
  obtain ⟨⟨⟨h1, h2⟩, h3⟩, h4⟩ := h
  refine ⟨fun j => ?_, small_div h4⟩
  match j with
  | 0 => exact small_div h1
  | 1 => exact small_div h2
  | k + 2 => exact small_div h3

theorem R.plain_sound {r : R} (h : r.plain = true) : (r.s : ℚ) / 24 ≠ 1 ∧ (r.s : ℚ) / 24 ≠ -1 := by
  simp only [R.plain, Bool.not_eq_true'] at h
  have h5 : r.s.natAbs ≠ 24 := fun e => by rw [e] at h; cases h
  refine ⟨fun e => h5 ?_, fun e => h5 ?_⟩
  · have : (r.s : ℚ) = 24 := by linarith
    have : r.s = 24 := by exact_mod_cast this
    rw [this]; rfl
  · have : (r.s : ℚ) = -24 := by linarith
    have : r.s = -24 := by exact_mod_cast this
    rw [this]; rfl

theorem Q.small_sound {q : Q} (h : q.small = true) (n : Nat) : (∀ i j, OpText.Small ((q.op n).1 i j)) ∧ (∀ i, OpText.Small ((q.op n).2 i)) := by
  simp only [Q.small, Bool.and_eq_true] at h
  have hr : ∀ i, (q.row i).small = true := by
    intro i
    match i with
    | 0 => exact h.1.1
    | 1 => exact h.1.2
    | k + 2 => exact h.2
  exact ⟨fun i j => (R.small_sound (hr i)).1 j, fun i => (R.small_sound (hr i)).2⟩

theorem Q.plain_sound {q : Q} (h : q.plain = true) (n : Nat) : ∀ i, (q.op n).2 i ≠ 1 ∧ (q.op n).2 i ≠ -1 := by
  simp only [Q.plain, Bool.and_eq_true] at h
  have hr : ∀ i, (q.row i).plain = true := by
    intro i
    match i with
    | 0 => exact h.1.1
    | 1 => exact h.1.2
    | k + 2 => exact h.2
  exact fun i => R.plain_sound (hr i)

namespace Data
set_option maxRecDepth 1000000
set_option maxHeartbeats 0

theorem items_plain : allB Item.plain items = true := by decide +kernel

theorem setting_plain {p : Setting × List Char} (h : p ∈ items.flatMap Item.settings) : p.1.plain = true := by
  obtain ⟨i, hi, hp⟩ := List.mem_flatMap.1 h
  have := allB_iff.1 items_plain i hi
  cases i with
  | block b =>
    simp only [Item.plain, Block.plain, Bool.and_eq_true, allB_iff] at this
    simp only [Item.settings, List.mem_cons, List.mem_map] at hp
    rcases hp with rfl | ⟨o, ho, rfl⟩
    · exact this.1
    · exact this.2 o ho
  | nothing l => cases hp
  | alias_ a b => cases hp
  | look l => cases hp

theorem look_plain {l : Look} (h : l ∈ looks) : l.o.s.tr.q.plain = true ∧ l.o.s.tr.q.small = true := by
  rw [← looks_eq] at h
  obtain ⟨i, hi, hp⟩ := List.mem_flatMap.1 h
  have := allB_iff.1 items_plain i hi
  cases i with
  | look l' =>
    simp only [Item.looks, List.mem_singleton] at hp
    subst hp
    simpa only [Item.plain, Bool.and_eq_true] using this
  | nothing l => cases hp
  | alias_ a b => cases hp
  | block l => cases hp

end Data
end Systre.Sg
