import Verif.Model.FloatLinear
import Verif.Lemmas.Matrices
import Verif.Lemmas.Scalar
import Verif.Lemmas.MatrixRep
import Verif.Lemmas.Echelon

/-! Helper lemmas: the shape of what the elimination over `f64` computes, for arithmetic without laws. -/

namespace Systre.FloatShape

open Systre Mat

variable {F : Type} [FloatArith F] [DecidableEq F]

/-- `c` is the first non-zero position of `f` -/
def Piv (f : Nat → F) (c : Nat) : Prop := (∀ j, j < c → f j = 0) ∧ f c ≠ 0

omit [DecidableEq F] in
theorem Piv.unique {f : Nat → F} {c d : Nat} (hc : Piv f c) (hd : Piv f d) : c = d := by
  rcases lt_trichotomy c d with h | h | h
  · exact absurd (hd.1 c h) hc.2
  · exact h
  · exact absurd (hc.1 d h) hd.2

omit [DecidableEq F] in
theorem Piv.lt_length {l : List F} {c : Nat} (h : Piv (rent l) c) : c < l.length := by
  by_contra hc
  exact h.2 (rent_ge (by omega))

/-- rows of length `n`, non-zero, pivots strictly increasing -/
structure Ech (n : Nat) (bs : List (List F)) : Prop where
  row : ∀ b ∈ bs, b.length = n ∧ ∃ c, Piv (rent b) c
  inc : bs.Pairwise (fun b d => ∀ c, Piv (rent b) c → ∀ j, j ≤ c → rent d j = 0)

omit [DecidableEq F] in
theorem Ech.nil (n : Nat) : Ech n ([] : List (List F)) := ⟨by simp, by simp⟩

omit [DecidableEq F] in
theorem ech_cons {n : Nat} {b : List F} {bs : List (List F)} :
    Ech n (b :: bs) ↔ (b.length = n ∧ ∃ c, Piv (rent b) c ∧ ∀ d ∈ bs, ∀ j, j ≤ c → rent d j = 0) ∧
      Ech n bs := by
  constructor
  · intro h
    obtain ⟨hl, c, hc⟩ := h.row b (by simp)
    have hp := List.pairwise_cons.1 h.inc
    exact ⟨⟨hl, c, hc, fun d hd => hp.1 d hd c hc⟩, ⟨fun d hd => h.row d (by simp [hd]), hp.2⟩⟩
  · rintro ⟨⟨hl, c, hc, hd⟩, h⟩
    refine ⟨?_, List.pairwise_cons.2 ⟨?_, h.inc⟩⟩
    · intro d hd
      rcases List.mem_cons.1 hd with rfl | hd
      · exact ⟨hl, c, hc⟩
      · exact h.row d hd
    · intro d hd' c' hc'
      rw [hc'.unique hc]
      exact hd d hd'

theorem pivotColumn_some {v : List F} {c : Nat} : pivotColumn v = some c ↔ Piv (rent v) c := by
  unfold pivotColumn
  rw [List.findIdx?_eq_some_iff_getElem]
  constructor
  · rintro ⟨h1, h2, h3⟩
    refine ⟨fun j hj => ?_, ?_⟩
    · have := h3 j hj; rw [rent_lt (by omega)]; simpa using this
    · rw [rent_lt h1]; simpa using h2
  · intro h
    have hlt := h.lt_length
    refine ⟨hlt, ?_, ?_⟩
    · have := h.2; rw [rent_lt hlt] at this; simpa using this
    · intro j hj; have := h.1 j hj; rw [rent_lt (by omega)] at this; simpa using this

theorem pivotColumn_none {v : List F} : pivotColumn v = none ↔ ∀ k, rent v k = 0 := by
  unfold pivotColumn
  rw [List.findIdx?_eq_none_iff]
  constructor
  · intro h k
    by_cases hk : k < v.length
    · rw [rent_lt hk]; have := h _ (List.getElem_mem hk); simpa using this
    · exact rent_ge (by omega)
  · intro h x hx
    obtain ⟨k, hk, rfl⟩ := List.getElem_of_mem hx
    have := h k; rw [rent_lt hk] at this; simp [this]

omit [DecidableEq F] in
theorem rent_map_neg (v : List F) (k : Nat) : rent (v.map (fun x => -x)) k = 0 ↔ rent v k = 0 := by
  by_cases hk : k < v.length
  · rw [rent_lt (by simpa using hk), rent_lt hk]
    simp [FloatArith.neg_eq_zero]
  · rw [rent_ge (by simpa using hk), rent_ge (by omega)]

/-- a row has its pivot in column `c` -/
def Has (bs : List (List F)) (c : Nat) : Prop := ∃ b ∈ bs, Piv (rent b) c

theorem clear_ok {col : Nat} {v b : List F} (hb : rent b col ≠ 0) (hv : ∀ k, k < col → rent v k = 0) :
    ∃ v', (Scalar.clearColumn col v b : Outcome (List F × List F)) = .ok (v', b) ∧ v'.length = v.length ∧
      ∀ k, k ≤ col → rent v' k = 0 := by
  refine ⟨rowFn v.length (fun k => if k < col then rent v k else if k = col then 0 else
    rent v k - rent b k * (rent v col / rent b col)), ?_, ?_, ?_⟩
  · show floatClearColumn col v b = _
    unfold floatClearColumn
    rw [if_neg hb]
  · simp
  · intro k hk
    rw [rent_rowFn]
    split
    · rcases Nat.lt_or_eq_of_le hk with h | h
      · rw [if_pos h]; exact hv k h
      · subst h; simp
    · rfl

/-- `extend_basis` keeps the echelon form, loses no pivot, and the new row's pivot column is one of the pivot columns
afterwards. -/
theorem extendBasis_ok (n : Nat) : ∀ (bs : List (List F)) (v : List F), Ech n bs → v.length = n →
    ∃ bs', extendBasis v bs = .ok bs' ∧ Ech n bs' ∧ bs.length ≤ bs'.length ∧ bs'.length ≤ bs.length + 1 ∧
      (∀ c, Has bs c → Has bs' c) ∧ (∀ c, Piv (rent v) c → Has bs' c) ∧
      (∀ c, (∀ j, j ≤ c → rent v j = 0) → (∀ b ∈ bs, ∀ j, j ≤ c → rent b j = 0) →
        ∀ b ∈ bs', ∀ j, j ≤ c → rent b j = 0) := by
  intro bs
  induction bs with
  | nil =>
    intro v hE hl
    unfold extendBasis
    cases hp : pivotColumn v with
    | none =>
      rw [pivotColumn_none] at hp
      refine ⟨[], by simp, Ech.nil n, by simp, by simp, fun c h => h, fun c h => absurd (hp c) h.2, by simp⟩
    | some c =>
      rw [pivotColumn_some] at hp
      refine ⟨[v], by simp, ech_cons.2 ⟨⟨hl, c, hp, by simp⟩, Ech.nil n⟩, by simp, by simp, ?_, ?_, ?_⟩
      · rintro c ⟨b, hb, -⟩; simp at hb
      · intro c hc; exact ⟨v, by simp, hc⟩
      · intro c h1 _ b hb
        rw [List.mem_singleton.1 hb]; exact h1
  | cons b bs ih =>
    intro v hE hl
    obtain ⟨⟨hlb, cB, hcB, hrest⟩, hE'⟩ := ech_cons.1 hE
    unfold extendBasis
    rw [if_neg (by simp [hl, hlb])]
    cases hp : pivotColumn v with
    | none =>
      rw [pivotColumn_none] at hp
      exact ⟨b :: bs, rfl, hE, le_rfl, by simp, fun c h => h, fun c h => absurd (hp c) h.2, fun c _ h => h⟩
    | some c =>
      rw [pivotColumn_some] at hp
      rw [pivotColumn_some.2 hcB]
      simp only
      by_cases h1 : c < cB
      · rw [if_pos h1]
        have zeros : ∀ d ∈ b :: bs, ∀ j, j ≤ c → rent d j = 0 := by
          intro d hd j hj
          rcases List.mem_cons.1 hd with rfl | hd
          · exact hcB.1 j (by omega)
          · exact hrest d hd j (by omega)
        obtain ⟨w, hw, hlw, hz⟩ : ∃ w, (if (b :: bs).length % 2 > 0 then v.map (fun x => -x) else v) = w ∧
            w.length = n ∧ ∀ k, rent w k = 0 ↔ rent v k = 0 := by
          refine ⟨_, rfl, ?_, ?_⟩
          · split <;> simp [hl]
          · intro k; split
            · exact rent_map_neg v k
            · rfl
        rw [hw]
        have hpw : Piv (rent w) c := ⟨fun j hj => (hz j).2 (hp.1 j hj), fun h => hp.2 ((hz c).1 h)⟩
        refine ⟨_, rfl, ech_cons.2 ⟨⟨hlw, c, hpw, zeros⟩, hE⟩, by simp, by simp, ?_, ?_, ?_⟩
        · rintro d ⟨x, hx, hd⟩; exact ⟨x, by simp [hx], hd⟩
        · intro d hd
          rw [hd.unique hp]; exact ⟨w, by simp, hpw⟩
        · intro d h2 h3 x hx j hj
          rcases List.mem_cons.1 hx with rfl | hx
          · exact (hz j).2 (h2 j hj)
          · exact h3 x hx j hj
      · rw [if_neg h1]
        by_cases h2 : c = cB
        · rw [if_pos h2]
          subst h2
          obtain ⟨v', e1, hlv', hv'0⟩ := clear_ok hcB.2 hp.1
          rw [e1]
          simp only [Outcome.ok_bind]
          obtain ⟨rest, e2, hEr, hle1, hle2, hhas, hpiv, hz⟩ := ih v' hE' (by rw [hlv', hl])
          rw [e2]
          simp only [Outcome.ok_bind]
          refine ⟨_, rfl, ech_cons.2 ⟨⟨hlb, c, hcB, hz c hv'0 hrest⟩, hEr⟩, by simpa using hle1,
            by simpa using hle2, ?_, ?_, ?_⟩
          · rintro d ⟨x, hx, hd⟩
            rcases List.mem_cons.1 hx with rfl | hx
            · exact ⟨x, by simp, hd⟩
            · obtain ⟨y, hy, hd'⟩ := hhas d ⟨x, hx, hd⟩
              exact ⟨y, by simp [hy], hd'⟩
          · intro d hd
            rw [hd.unique hp]; exact ⟨b, by simp, hcB⟩
          · intro d h4 h5 x hx j hj
            have hdc : d < c := by
              by_contra hh
              exact hp.2 (h4 c (by omega))
            rcases List.mem_cons.1 hx with rfl | hx
            · exact h5 x (by simp) j hj
            · exact hz d (fun j hj => hv'0 j (by omega)) (fun y hy => h5 y (by simp [hy])) x hx j hj
        · rw [if_neg h2]
          obtain ⟨rest, e2, hEr, hle1, hle2, hhas, hpiv, hz⟩ := ih v hE' hl
          rw [e2]
          simp only [Outcome.ok_bind]
          refine ⟨_, rfl, ech_cons.2 ⟨⟨hlb, cB, hcB, hz cB (fun j hj => hp.1 j (by omega)) hrest⟩, hEr⟩,
            by simpa using hle1, by simpa using hle2, ?_, ?_, ?_⟩
          · rintro d ⟨x, hx, hd⟩
            rcases List.mem_cons.1 hx with rfl | hx
            · exact ⟨x, by simp, hd⟩
            · obtain ⟨y, hy, hd'⟩ := hhas d ⟨x, hx, hd⟩
              exact ⟨y, by simp [hy], hd'⟩
          · intro d hd
            obtain ⟨y, hy, hd'⟩ := hpiv d hd
            exact ⟨y, by simp [hy], hd'⟩
          · intro d h4 h5 x hx
            rcases List.mem_cons.1 hx with rfl | hx
            · exact h5 x (by simp)
            · exact hz d h4 (fun y hy => h5 y (by simp [hy])) x hx

theorem extendAll_ok (n : Nat) : ∀ (vs bs : List (List F)), Ech n bs → (∀ v ∈ vs, v.length = n) →
    ∃ bs', extendAll vs bs = .ok bs' ∧ Ech n bs' ∧ bs'.length ≤ bs.length + vs.length ∧
      (∀ c, Has bs c → Has bs' c) ∧ (∀ c, Has vs c → Has bs' c) := by
  intro vs
  induction vs with
  | nil => intro bs hE _; exact ⟨bs, rfl, hE, by simp, fun c h => h, by rintro c ⟨b, hb, -⟩; simp at hb⟩
  | cons v vs ih =>
    intro bs hE hl
    obtain ⟨b1, e1, hE1, -, hle, hh1, hp1, -⟩ := extendBasis_ok n bs v hE (hl v (by simp))
    obtain ⟨b2, e2, hE2, hle2, hh2, hp2⟩ := ih b1 hE1 (fun w hw => hl w (by simp [hw]))
    refine ⟨b2, by simp [extendAll, e1, e2], hE2, by simp only [List.length_cons]; omega, fun c h => hh2 c (hh1 c h), ?_⟩
    rintro c ⟨b, hb, hc⟩
    rcases List.mem_cons.1 hb with rfl | hb
    · exact hh2 c (hp1 c hc)
    · exact hp2 c ⟨b, hb, hc⟩

omit [DecidableEq F] in
/-- the pivot columns, one after the other -/
theorem Ech.pivots {n : Nat} {bs : List (List F)} (h : Ech n bs) :
    ∃ p : Fin bs.length → Fin n, StrictMono p ∧ ∀ i, Piv (rent bs[i.1]) (p i).1 := by
  have hc : ∀ i : Fin bs.length, ∃ c, Piv (rent bs[i.1]) c := fun i => (h.row _ (List.getElem_mem i.2)).2
  choose p hp using hc
  have hlt : ∀ i, p i < n := fun i => by
    have := (hp i).lt_length
    rwa [(h.row _ (List.getElem_mem i.2)).1] at this
  refine ⟨fun i => ⟨p i, hlt i⟩, ?_, hp⟩
  intro i j hij
  show p i < p j
  by_contra hle
  have := List.pairwise_iff_getElem.1 h.inc i.1 j.1 i.2 j.2 hij (p i) (hp i) (p j) (by omega)
  exact (hp j).2 this

omit [DecidableEq F] in
theorem Ech.length_le {n : Nat} {bs : List (List F)} (h : Ech n bs) : bs.length ≤ n := by
  obtain ⟨p, hp, -⟩ := h.pivots
  simpa using Fintype.card_le_of_injective p hp.injective

/-! ### rows that are in echelon form already -/

/-- A row that starts further to the right is appended. -/
theorem extendBasis_append (n : Nat) : ∀ (bs : List (List F)) (v : List F), Ech n bs → v.length = n →
    (∀ b ∈ bs, ∀ c, Piv (rent b) c → ∀ j, j ≤ c → rent v j = 0) →
    extendBasis v bs = .ok (if (pivotColumn v).isSome then bs ++ [v] else bs) := by
  intro bs
  induction bs with
  | nil =>
    intro v _ _ _
    unfold extendBasis
    cases pivotColumn v <;> rfl
  | cons b bs ih =>
    intro v hE hl h
    obtain ⟨⟨hlb, cB, hcB, hrest⟩, hE'⟩ := ech_cons.1 hE
    unfold extendBasis
    rw [if_neg (by simp [hl, hlb])]
    cases hp : pivotColumn v with
    | none => rfl
    | some c =>
      have hp' := pivotColumn_some.1 hp
      rw [pivotColumn_some.2 hcB]
      have hlt : cB < c := by
        by_contra hh
        exact hp'.2 (h b (by simp) cB hcB c (by omega))
      simp only
      rw [if_neg (by omega), if_neg (by omega), ih v hE' hl (fun x hx => h x (by simp [hx])), hp]
      simp

/-- Nothing is changed if the rows are in echelon form. -/
theorem extendAll_ech (n : Nat) : ∀ (vs bs : List (List F)), Ech n (bs ++ vs) → extendAll vs bs = .ok (bs ++ vs) := by
  intro vs
  induction vs with
  | nil => intro bs _; simp [extendAll]
  | cons v vs ih =>
    intro bs h
    have h1 : Ech n bs := ⟨fun b hb => h.row b (by simp [hb]), (List.pairwise_append.1 h.inc).1⟩
    obtain ⟨hl, c, hc⟩ := h.row v (by simp)
    unfold extendAll
    rw [extendBasis_append n bs v h1 hl (fun b hb c hc j hj =>
      (List.pairwise_append.1 h.inc).2.2 b hb v (by simp) c hc j hj), pivotColumn_some.2 hc]
    simp only [Option.isSome_some, if_true, Outcome.ok_bind]
    rw [ih (bs ++ [v]) (by simpa using h)]
    simp

/-- Zero rows at the end are dropped. -/
theorem extendAll_zero (n : Nat) : ∀ (vs bs : List (List F)), Ech n bs → (∀ v ∈ vs, v.length = n ∧ ∀ k, rent v k = 0) →
    extendAll vs bs = .ok bs := by
  intro vs
  induction vs with
  | nil => intro bs _ _; rfl
  | cons v vs ih =>
    intro bs h hz
    unfold extendAll
    rw [extendBasis_append n bs v h (hz v (by simp)).1 (fun b hb c hc j hj => (hz v (by simp)).2 j),
      pivotColumn_none.2 (hz v (by simp)).2]
    simp only [Option.isSome_none, Bool.false_eq_true, if_false, Outcome.ok_bind]
    exact ih bs h (fun w hw => hz w (by simp [hw]))

theorem extendAll_append : ∀ (us vs bs : List (List F)),
    extendAll (us ++ vs) bs = (extendAll us bs >>= fun b => extendAll vs b) := by
  intro us
  induction us with
  | nil => intro vs bs; rfl
  | cons u us ih =>
    intro vs bs
    show (extendBasis u bs >>= fun b => extendAll (us ++ vs) b) = ((extendBasis u bs >>= fun b => extendAll us b) >>= _)
    rw [bind_assoc]
    congr 1
    funext b
    exact ih vs b

/-! ### `reduced_basis` -/

/-- pivots are one, and alone in their columns -/
structure Red (bs : List (List F)) : Prop where
  one : ∀ b ∈ bs, ∀ c, Piv (rent b) c → rent b c = 1
  zero : bs.Pairwise (fun b d => ∀ c, Piv (rent d) c → rent b c = 0)

theorem skipZeros_ok {v : List F} {c col : Nat} (h : Piv (rent v) c) (hc : col ≤ c) :
    skipZeros v col = .ok c := by
  unfold skipZeros
  have hlt := h.lt_length
  have : (v.drop col).findIdx? (fun x => decide (x ≠ 0)) = some (c - col) := by
    rw [List.findIdx?_eq_some_iff_getElem]
    refine ⟨by simp; omega, ?_, ?_⟩
    · have := h.2
      rw [rent_lt hlt] at this
      simp only [List.getElem_drop]
      simpa [Nat.add_sub_cancel' hc] using this
    · intro j hj
      have h0 := h.1 (col + j) (by omega)
      rw [rent_lt (l := v) (k := col + j) (by omega)] at h0
      simp [List.getElem_drop, h0]
  rw [this]
  show Outcome.ok (col + (c - col)) = .ok c
  rw [Nat.add_sub_cancel' hc]

theorem normalize_ok {col : Nat} {v : List F} (h : Piv (rent v) col) :
    ∃ v', (Scalar.normalizeColumn col v : Outcome (List F)) = .ok v' ∧ v'.length = v.length ∧
      Piv (rent v') col ∧ rent v' col = 1 := by
  have hlt := h.lt_length
  have e1 : rent (rowFn v.length (fun k => if k < col then rent v k else if k = col then (1 : F) else
      rent v k / rent v col)) col = 1 := by
    rw [rent_rowFn, if_pos hlt]; simp
  refine ⟨rowFn v.length (fun k => if k < col then rent v k else if k = col then (1 : F) else
      rent v k / rent v col), ?_, ?_, ⟨?_, ?_⟩, e1⟩
  · show floatNormalizeColumn col v = _
    unfold floatNormalizeColumn
    rw [if_neg h.2]
  · simp
  · intro j hj
    rw [rent_rowFn, if_pos (by omega), if_pos hj]; exact h.1 j hj
  · rw [e1]; exact FloatArith.one_ne_zero

theorem reduce_ok {col : Nat} {v b : List F} (hc : col < v.length) :
    ∃ v', (Scalar.reduceColumn col v b : Outcome (List F)) = .ok v' ∧ v'.length = v.length ∧
      (∀ k, k < col → rent v' k = rent v k) ∧ rent v' col = 0 := by
  refine ⟨_, rfl, ?_, ?_, ?_⟩
  · simp
  · intro k hk
    rw [rent_rowFn, if_pos (by omega), if_pos hk]
  · rw [rent_rowFn, if_pos hc]; simp

theorem reduceRows_ok (n : Nat) :
    ∀ (rest dn : List (List F)) (col : Nat), Ech n (dn ++ rest) → Red dn →
      (∀ b ∈ rest, ∀ c, Piv (rent b) c → col ≤ c) →
      ∃ bs', reduceRows dn rest col = .ok bs' ∧ Ech n bs' ∧ Red bs' ∧
        List.Forall₂ (fun b b' => ∀ c, Piv (rent b) c ↔ Piv (rent b') c) (dn ++ rest) bs' := by
  intro rest
  induction rest with
  | nil =>
    intro dn col hE hR _
    refine ⟨dn, rfl, by simpa using hE, hR, ?_⟩
    simp [List.forall₂_same]
  | cons b rest ih =>
    intro dn col hE hR hcol
    obtain ⟨hlb, c, hc⟩ := hE.row b (by simp)
    unfold reduceRows
    rw [skipZeros_ok hc (hcol b (by simp) c hc)]
    simp only [Outcome.ok_bind]
    obtain ⟨b', h1, hl', hc', hone⟩ := normalize_ok hc
    rw [h1]
    simp only [Outcome.ok_bind]
    have hpw := List.pairwise_append.1 hE.inc
    have hred : ∀ v ∈ dn, ∃ v', (Scalar.reduceColumn c v b' : Outcome (List F)) = .ok v' ∧
        (v'.length = n ∧ (∀ k, k < c → rent v' k = rent v k) ∧ rent v' c = 0) := by
      intro v hv
      have hlv := (hE.row v (by simp [hv])).1
      obtain ⟨v', h2, h3, h4, h5⟩ := reduce_ok (col := c) (v := v) (b := b')
        (by rw [hlv, ← hlb]; exact hc.lt_length)
      exact ⟨v', h2, by rw [h3, hlv], h4, h5⟩
    obtain ⟨dn', h2, h3⟩ := omap_forall₂ hred
    rw [h2]
    simp only [Outcome.ok_bind]
    have pivlt : ∀ v ∈ dn, ∀ d, Piv (rent v) d → d < c := by
      intro v hv d hd
      have := hpw.2.2 v hv b (by simp) d hd
      by_contra hcd
      exact hc.2 (this c (by omega))
    have piv' : ∀ v ∈ dn, ∀ v', (∀ k, k < c → rent v' k = rent v k) → ∀ d,
        Piv (rent v') d ↔ Piv (rent v) d := by
      intro v hv v' hbel d
      obtain ⟨_, d0, hd0⟩ := hE.row v (by simp [hv])
      have hlt := pivlt v hv d0 hd0
      have hd0' : Piv (rent v') d0 := ⟨fun j hj => by rw [hbel j (by omega)]; exact hd0.1 j hj,
        by rw [hbel d0 hlt]; exact hd0.2⟩
      constructor
      · intro h; rw [h.unique hd0']; exact hd0
      · intro h; rw [h.unique hd0]; exact hd0'
    have hE' : Ech n ((dn' ++ [b']) ++ rest) := by
      refine ⟨?_, ?_⟩
      · intro w hw
        simp only [List.mem_append, List.mem_singleton] at hw
        rcases hw with (hw | rfl) | hw
        · obtain ⟨v, hv, hr⟩ := forall₂_mem_right h3 w hw
          obtain ⟨_, d0, hd0⟩ := hE.row v (by simp [hv])
          exact ⟨hr.1, d0, (piv' v hv w hr.2.1 d0).2 hd0⟩
        · exact ⟨by rw [hl', hlb], c, hc'⟩
        · exact hE.row w (by simp [hw])
      · rw [List.append_assoc, List.pairwise_append]
        have hpr := List.pairwise_cons.1 hpw.2.1
        refine ⟨?_, ?_, ?_⟩
        · refine forall₂_pairwise h3 hpw.1 ?_
          intro v hv w v' w' hw hr hr' hvw d hd j hj
          rw [piv' v hv v' hr.2.1] at hd
          rw [hr'.2.1 j (by have := pivlt v hv d hd; omega)]
          exact hvw d hd j hj
        · rw [List.singleton_append, List.pairwise_cons]
          refine ⟨?_, hpr.2⟩
          intro w hw d hd
          rw [hd.unique hc']
          exact hpr.1 w hw c hc
        · intro v' hv' w hw d hd j hj
          obtain ⟨v, hv, hr⟩ := forall₂_mem_right h3 v' hv'
          rw [piv' v hv v' hr.2.1] at hd
          have hdc := pivlt v hv d hd
          rcases List.mem_append.1 hw with hw | hw
          · rw [List.mem_singleton.1 hw]; exact hc'.1 j (by omega)
          · exact hpw.2.2 v hv w (by simp [hw]) d hd j hj
    have hR' : Red (dn' ++ [b']) := by
      refine ⟨?_, ?_⟩
      · intro w hw d hd
        rcases List.mem_append.1 hw with hw | hw
        · obtain ⟨v, hv, hr⟩ := forall₂_mem_right h3 w hw
          rw [piv' v hv w hr.2.1] at hd
          rw [hr.2.1 d (pivlt v hv d hd)]
          exact hR.one v hv d hd
        · rw [List.mem_singleton.1 hw] at hd ⊢
          rw [hd.unique hc']; exact hone
      · rw [List.pairwise_append]
        refine ⟨?_, by simp, ?_⟩
        · refine forall₂_pairwise h3 hR.zero ?_
          intro v hv w v' w' hw hr hr' hvw d hd
          rw [piv' w hw w' hr'.2.1] at hd
          rw [hr.2.1 d (pivlt w hw d hd)]
          exact hvw d hd
        · intro v' hv' w hw d hd
          rw [List.mem_singleton.1 hw] at hd
          obtain ⟨v, hv, hr⟩ := forall₂_mem_right h3 v' hv'
          rw [hd.unique hc']; exact hr.2.2
    obtain ⟨bs', e, hEb, hRb, hfor⟩ := ih (dn' ++ [b']) c hE' hR' (by
      intro w hw d hd
      have hpr := List.pairwise_cons.1 hpw.2.1
      by_contra hlt
      exact hd.2 (hpr.1 w hw c hc d (by omega)))
    refine ⟨bs', e, hEb, hRb, ?_⟩
    have hfor1 : List.Forall₂ (fun b b' => ∀ c, Piv (rent b) c ↔ Piv (rent b') c) (dn ++ b :: rest)
        (dn' ++ [b'] ++ rest) := by
      rw [List.append_assoc]
      refine List.rel_append ?_ ?_
      · have : List.Forall₂ (fun v v' => v ∈ dn ∧ (v'.length = n ∧ (∀ k, k < c → rent v' k = rent v k) ∧ rent v' c = 0))
            dn dn' := (List.forall₂_and_left _ _).2 ⟨fun _ h => h, h3⟩
        exact this.imp (fun v v' h d => (piv' v h.1 v' h.2.2.1 d).symm)
      · refine List.Forall₂.cons ?_ (by simp [List.forall₂_same])
        intro d
        constructor
        · intro h; rw [h.unique hc]; exact hc'
        · intro h; rw [h.unique hc']; exact hc
    have trans : ∀ (as bs cs : List (List F)),
        List.Forall₂ (fun b b' => ∀ c, Piv (rent b) c ↔ Piv (rent b') c) as bs →
        List.Forall₂ (fun b b' => ∀ c, Piv (rent b) c ↔ Piv (rent b') c) bs cs →
        List.Forall₂ (fun b b' => ∀ c, Piv (rent b) c ↔ Piv (rent b') c) as cs := by
      intro as bs cs h
      induction h generalizing cs with
      | nil => intro h; cases h; exact .nil
      | cons h1 _ ih =>
        intro h
        cases h with
        | cons h2 h3 => exact .cons (fun c => (h1 c).trans (h2 c)) (ih _ h3)
    exact trans _ _ _ hfor1 hfor

end Systre.FloatShape
