import Verif.Spec.Table
import Verif.Props.Parsing

/-! # The lines of a table, one after another -/

namespace Systre.Table
open ParseOperator
variable {lower : List Char → List Char}

theorem mapGet_insert {V : Type} (m : List (List Char × V)) (k : List Char) (v : V) : mapGet (mapInsert m k v) k = some v := by
  unfold mapGet mapInsert
  rw [List.find?_append, List.find?_eq_none.2]
  · simp
  · intro p hp
    have := (List.mem_filter.1 hp).2
    simpa using this

theorem mapGet_insert_ne {V : Type} (m : List (List Char × V)) {k k' : List Char} (h : k' ≠ k) (v : V) :
    mapGet (mapInsert m k v) k' = mapGet m k' := by
  unfold mapGet mapInsert
  rw [List.find?_append]
  have h2 : List.find? (fun p : List Char × V => decide (p.1 = k')) [(k, v)] = none := by
    simp [Ne.symm h]
  rw [h2, Option.or_none, List.find?_filter]
  congr 1
  have : ∀ l : List (List Char × V), List.find? (fun p => decide (decide (p.1 ≠ k) = true ∧ decide (p.1 = k') = true)) l =
      List.find? (fun p => decide (p.1 = k')) l := by
    intro l
    congr 1
    funext p
    by_cases hp : p.1 = k'
    · simp [hp, h]
    · simp [hp]
  exact this m

theorem vecGet_some {α : Type} {l : List α} {i : Nat} {a : α} (h : vecGet l i = .ok a) : l[i]? = some a := vecGet_eq_ok.1 h

theorem step_cases {st st' : TableState} {l : List Char} (h : tableStep lower st l = .ok (some st')) :
    (IsNothing l ∧ st' = st) ∨
    (IsOperator l ∧ ∃ m e, affFromString (trim l) = .ok (some m) ∧ mapGet st.settings st.currentName = some e ∧
      st' = { st with settings := mapInsert st.settings st.currentName { e with operators := e.operators ++ [m] } }) ∨
    (∃ a b, IsAlias lower l a b ∧ st' = { st with alias_ := mapInsert st.alias_ a b }) ∨
    (IsLookup lower l ∧ ∃ e, Says lower l e ∧ st' = { st with lookup := st.lookup ++ [e] }) ∨
    (∃ name c b, IsSetting lower l name ∧ transformOf l = .ok (some c) ∧ coordIsIdentity c = .ok b ∧
      st' = { st with
        canonicalName := if b then name else st.canonicalName
        currentName := name
        settings := mapInsert st.settings name ⟨name, if b then name else st.canonicalName, c, []⟩ }) := by
  unfold tableStep at h
  simp only at h
  by_cases hn : trim l = [] ∨ (trim l).head? = some '#'
  · rw [if_pos hn] at h
    left
    exact ⟨hn, (Option.some.inj (Outcome.ok.inj h)).symm⟩
  rw [if_neg hn] at h
  by_cases hs : l.head? = some ' '
  · rw [if_pos hs] at h
    right; left
    obtain ⟨op, h1, h⟩ := Outcome.bind_eq_ok.1 h
    cases op with
    | none => cases Outcome.ok.inj h
    | some m =>
      simp only at h
      cases hg : mapGet st.settings st.currentName with
      | none => rw [hg] at h; cases Outcome.ok.inj h
      | some e =>
        rw [hg] at h
        exact ⟨⟨hn, hs⟩, m, e, h1, rfl, (Option.some.inj (Outcome.ok.inj h)).symm⟩
  rw [if_neg hs] at h
  right; right
  obtain ⟨f0, h0, h⟩ := Outcome.bind_eq_ok.1 h
  have hst : Starts l f0 := ⟨hn, hs, vecGet_some h0⟩
  by_cases ha : lower f0 = aliasText
  · rw [if_pos ha] at h
    left
    obtain ⟨f1, h1, h⟩ := Outcome.bind_eq_ok.1 h
    obtain ⟨f2, h2, h⟩ := Outcome.bind_eq_ok.1 h
    exact ⟨f1, f2, ⟨f0, hst, ha, vecGet_some h1, vecGet_some h2⟩, (Option.some.inj (Outcome.ok.inj h)).symm⟩
  rw [if_neg ha] at h
  right
  by_cases hl : lower f0 = lookupText
  · rw [if_pos hl] at h
    left
    obtain ⟨o, h1, h⟩ := Outcome.bind_eq_ok.1 h
    cases o with
    | none => cases Outcome.ok.inj h
    | some e =>
      refine ⟨⟨f0, hst, ha, hl⟩, e, ?_, (Option.some.inj (Outcome.ok.inj h)).symm⟩
      unfold makeLookupEntry at h1
      obtain ⟨name, g1, h1⟩ := Outcome.bind_eq_ok.1 h1
      obtain ⟨rest, g2, h1⟩ := Outcome.bind_eq_ok.1 h1
      obtain ⟨t, g3, h1⟩ := Outcome.bind_eq_ok.1 h1
      cases t with
      | none => cases Outcome.ok.inj h1
      | some t =>
        obtain ⟨f2, g4, h1⟩ := Outcome.bind_eq_ok.1 h1
        cases hsys : systemFromString lower f2 with
        | none => rw [hsys] at h1; cases Outcome.ok.inj h1
        | some sys =>
          rw [hsys] at h1
          obtain ⟨f3, g5, h1⟩ := Outcome.bind_eq_ok.1 h1
          cases hcen : Centering.fromString f3 with
          | none => rw [hcen] at h1; cases Outcome.ok.inj h1
          | some cen =>
            rw [hcen] at h1
            have h1 := Option.some.inj (Outcome.ok.inj h1)
            subst h1
            refine ⟨f2, f3, vecGet_some g1, vecGet_some g4, hsys, vecGet_some g5, hcen, ?_⟩
            unfold sliceFrom at g2
            split_ifs at g2
            have g2 := Outcome.ok.inj g2
            rw [← g2] at g3
            exact g3
  · rw [if_neg hl] at h
    right
    obtain ⟨rest, g2, h⟩ := Outcome.bind_eq_ok.1 h
    obtain ⟨t, g3, h⟩ := Outcome.bind_eq_ok.1 h
    cases t with
    | none => cases Outcome.ok.inj h
    | some t =>
      obtain ⟨b, g4, h⟩ := Outcome.bind_eq_ok.1 h
      refine ⟨f0, t, b, ⟨hst, ha, hl⟩, ?_, g4, (Option.some.inj (Outcome.ok.inj h)).symm⟩
      unfold sliceFrom at g2
      split_ifs at g2
      have g2 := Outcome.ok.inj g2
      rw [← g2] at g3
      exact g3

/-! ### The kinds of lines exclude each other -/

theorem starts_unique {l w w' : List Char} (h : Starts l w) (h' : Starts l w') : w = w' :=
  Option.some.inj (h.2.2.symm.trans h'.2.2)

theorem setting_unique {l n n' : List Char} (h : IsSetting lower l n) (h' : IsSetting lower l n') : n = n' := starts_unique h.1 h'.1

theorem nothing_not_setting {l n : List Char} (h : IsNothing l) : ¬ IsSetting lower l n := fun h' => h'.1.1 h
theorem operator_not_setting {l n : List Char} (h : IsOperator l) : ¬ IsSetting lower l n := fun h' => h'.1.2.1 h.2
theorem alias_not_setting {l a b n : List Char} (h : IsAlias lower l a b) : ¬ IsSetting lower l n := by
  rintro ⟨h1, h2, -⟩
  obtain ⟨w, hw, h3, -⟩ := h
  exact h2 (starts_unique h1 hw ▸ h3)
theorem lookup_not_setting {l n : List Char} (h : IsLookup lower l) : ¬ IsSetting lower l n := by
  rintro ⟨h1, -, h2⟩
  obtain ⟨w, hw, -, h3⟩ := h
  exact h2 (starts_unique h1 hw ▸ h3)
theorem nothing_not_operator {l : List Char} (h : IsNothing l) : ¬ IsOperator l := fun h' => h'.1 h
theorem alias_not_operator {l a b : List Char} (h : IsAlias lower l a b) : ¬ IsOperator l := by
  obtain ⟨w, hw, -⟩ := h
  exact fun h' => hw.2.1 h'.2
theorem lookup_not_operator {l : List Char} (h : IsLookup lower l) : ¬ IsOperator l := by
  obtain ⟨w, hw, -⟩ := h
  exact fun h' => hw.2.1 h'.2
theorem setting_not_operator {l n : List Char} (h : IsSetting lower l n) : ¬ IsOperator l := fun h' => h.1.2.1 h'.2
theorem alias_not_lookup {l a b : List Char} (h : IsAlias lower l a b) : ¬ IsLookup lower l := by
  rintro ⟨w', hw', h1, -⟩
  obtain ⟨w, hw, h3, -⟩ := h
  exact h1 (starts_unique hw' hw ▸ h3)

/-! ### Running -/

/-- the loop, with the state as its result -/
def run (lower : List Char → List Char) : TableState → List (List Char) → Outcome (Option TableState)
  | st, [] => .ok (some st)
  | st, l :: ls => do
    let r ← tableStep lower st l
    match r with
    | none => .ok none
    | some st => run lower st ls

theorem run_append (st : TableState) (a b : List (List Char)) :
    run lower st (a ++ b) = (do
      let r ← run lower st a
      match r with
      | none => .ok none
      | some st => run lower st b) := by
  induction a generalizing st with
  | nil => simp [run]
  | cons l a ih =>
    simp only [List.cons_append, run]
    cases tableStep lower st l with
    | panic => rfl
    | diverge => rfl
    | ok r =>
      cases r with
      | none => rfl
      | some st' => exact ih st'

theorem run_append_some {st st' : TableState} {a b : List (List Char)} (h : run lower st (a ++ b) = .ok (some st')) :
    ∃ st1, run lower st a = .ok (some st1) ∧ run lower st1 b = .ok (some st') := by
  rw [run_append] at h
  obtain ⟨r, h1, h⟩ := Outcome.bind_eq_ok.1 h
  cases r with
  | none => cases Outcome.ok.inj h
  | some st1 => exact ⟨st1, h1, h⟩

theorem run_cons_some {st st' : TableState} {l : List Char} {b : List (List Char)} (h : run lower st (l :: b) = .ok (some st')) :
    ∃ st1, tableStep lower st l = .ok (some st1) ∧ run lower st1 b = .ok (some st') := by
  unfold run at h
  obtain ⟨r, h1, h⟩ := Outcome.bind_eq_ok.1 h
  cases r with
  | none => cases Outcome.ok.inj h
  | some st1 => exact ⟨st1, h1, h⟩

/-- the tables of a state -/
def TableState.tables (st : TableState) : Tables := ⟨st.settings, st.alias_, st.lookup⟩

theorem loop_run (st : TableState) (ls : List (List Char)) (rest : List (Option (List Char))) :
    tableLoop lower st (ls.map some ++ rest) = (do
      let r ← run lower st ls
      match r with
      | none => .ok none
      | some st => tableLoop lower st rest) := by
  induction ls generalizing st with
  | nil => simp [run]
  | cons l ls ih =>
    simp only [List.map_cons, List.cons_append, tableLoop, run]
    cases tableStep lower st l with
    | panic => rfl
    | diverge => rfl
    | ok r =>
      cases r with
      | none => rfl
      | some st' => exact ih st'

theorem loop_some {st : TableState} {ls : List (Option (List Char))} {T : Tables} (h : tableLoop lower st ls = .ok (some T)) :
    ∃ lines st', ls = lines.map some ∧ run lower st lines = .ok (some st') ∧ T = st'.tables := by
  induction ls generalizing st with
  | nil =>
    unfold tableLoop at h
    exact ⟨[], st, rfl, rfl, (Option.some.inj (Outcome.ok.inj h)).symm⟩
  | cons o ls ih =>
    cases o with
    | none => unfold tableLoop at h; cases Outcome.ok.inj h
    | some l =>
      unfold tableLoop at h
      obtain ⟨r, h1, h⟩ := Outcome.bind_eq_ok.1 h
      cases r with
      | none => cases Outcome.ok.inj h
      | some st1 =>
        obtain ⟨lines, st', e1, e2, e3⟩ := ih h
        refine ⟨l :: lines, st', by rw [e1]; rfl, ?_, e3⟩
        unfold run
        rw [h1]
        exact e2

/-- the state at the beginning -/
def init : TableState := ⟨[], [], [], [], []⟩

theorem parseTable_some {ls : List (Option (List Char))} {T : Tables} (h : parseTable lower ls = .ok (some T)) :
    ∃ lines st', ls = lines.map some ∧ run lower init lines = .ok (some st') ∧ T = st'.tables := loop_some h

/-! ### What the lines do to the tables -/

theorem aff_identity_iff {n : Nat} {m : AffineMap ℚ} {A : Matrix (Fin n) (Fin n) ℚ} {s : Fin n → ℚ} (h : IsAff m A s) :
    ∃ b, m.isIdentity = .ok b ∧ (b = true ↔ ∃ k, IsAff (n := k) m 1 0) := by
  obtain ⟨b, h1, h2⟩ := rep_isIdentity h.1
  refine ⟨b && m.shift.coords.data.all (fun x => decide (x = 0)), ?_, ?_⟩
  · unfold AffineMap.isIdentity
    rw [bind_ok h1]
  · rw [Bool.and_eq_true, h2, isVec_data h.2]
    simp only [true_and, List.all_eq_true, List.mem_ofFn, decide_eq_true_eq, forall_exists_index, forall_apply_eq_imp_iff]
    constructor
    · rintro ⟨h3, h4⟩
      refine ⟨n, ?_⟩
      have e1 : A = 1 := by
        ext i j
        rw [h3, Matrix.one_apply]
        simp [Fin.ext_iff]
      have e2 : s = 0 := funext h4
      rw [← e1, ← e2]
      exact h
    · rintro ⟨k, hk⟩
      have hkn : k = n := by rw [← hk.2.dim_eq, h.2.dim_eq]
      subst hkn
      have e1 := h.1.inj hk.1
      have e2 : s = 0 := h.2.inj hk.2
      rw [e1, e2]
      refine ⟨fun i j => ?_, fun i => rfl⟩
      rw [Matrix.one_apply]
      simp [Fin.ext_iff]

theorem affFromString_isAff {t : List Char} {m : AffineMap ℚ} (h : affFromString t = .ok (some m)) :
    ∃ n A s, IsAff (n := n) m A s := by
  obtain ⟨rest, A, b, h1, -⟩ := affFromString_data h
  obtain ⟨h2, h3⟩ := C59_from_string t rest A b h1
  by_cases hl : b.length ≤ 3
  · obtain ⟨m', h4, h5⟩ := h2 hl
    rw [h] at h4
    have := Option.some.inj (Outcome.ok.inj h4)
    subst this
    exact ⟨_, _, _, h5⟩
  · rw [h3 (by omega)] at h
    cases h

theorem identity_setting {t : List Char} {c : CoordMap ℚ} {b : Bool} (h : coordFromString t = .ok (some c))
    (hb : coordIsIdentity c = .ok b) : b = true ↔ ∃ n, IsAff (n := n) c.forward 1 0 := by
  unfold coordFromString at h
  obtain ⟨o, h1, h⟩ := Outcome.bind_eq_ok.1 h
  cases o with
  | none => cases Outcome.ok.inj h
  | some m =>
    obtain ⟨c', h2, h⟩ := Outcome.bind_eq_ok.1 h
    have h := Option.some.inj (Outcome.ok.inj h)
    subst h
    have hf : c'.forward = m := by
      unfold CoordMap.new at h2
      obtain ⟨i, -, h2⟩ := Outcome.bind_eq_ok.1 h2
      obtain ⟨j, -, h2⟩ := Outcome.bind_eq_ok.1 h2
      rw [← Outcome.ok.inj h2]
    obtain ⟨n, A, s, hA⟩ := affFromString_isAff h1
    obtain ⟨b', h3, h4⟩ := aff_identity_iff hA
    unfold coordIsIdentity at hb
    rw [hf] at hb ⊢
    rw [h3] at hb
    rw [← Outcome.ok.inj hb]
    exact h4

/-- settings, canonical and current name do not change -/
theorem step_keep {st st' : TableState} {l : List Char} (h : tableStep lower st l = .ok (some st'))
    (hs : ∀ n, ¬ IsSetting lower l n) : st'.canonicalName = st.canonicalName ∧ st'.currentName = st.currentName ∧
      (¬ IsOperator l → st'.settings = st.settings) := by
  rcases step_cases h with ⟨h1, rfl⟩ | ⟨h1, m, e, -, -, rfl⟩ | ⟨a, b, h1, rfl⟩ | ⟨h1, e, -, rfl⟩ | ⟨n, c, b, h1, -⟩
  · exact ⟨rfl, rfl, fun _ => rfl⟩
  · exact ⟨rfl, rfl, fun h => absurd h1 h⟩
  · exact ⟨rfl, rfl, fun _ => rfl⟩
  · exact ⟨rfl, rfl, fun _ => rfl⟩
  · exact absurd h1 (hs n)

theorem run_canonical {st : TableState} {ls : List (List Char)} (h : run lower init ls = .ok (some st)) :
    IsCanonical lower ls st.canonicalName := by
  induction ls using List.reverseRecOn generalizing st with
  | nil =>
    unfold run at h
    have := Option.some.inj (Outcome.ok.inj h)
    subst this
    exact Or.inr ⟨rfl, by simp⟩
  | append_singleton ls l ih =>
    obtain ⟨st1, h1, h2⟩ := run_append_some h
    obtain ⟨st2, h3, h4⟩ := run_cons_some h2
    have := Option.some.inj (Outcome.ok.inj h4)
    subst this
    have hold := ih h1
    have hkeep : (∀ n, ¬ IsStandard lower l n) → st2.canonicalName = st1.canonicalName → IsCanonical lower (ls ++ [l]) st2.canonicalName := by
      intro hn e
      rw [e]
      rcases hold with ⟨p, x, q, e1, e2, e3⟩ | ⟨e1, e2⟩
      · refine Or.inl ⟨p, x, q ++ [l], by rw [e1]; simp, e2, ?_⟩
        intro y hy n
        rcases List.mem_append.1 hy with hy | hy
        · exact e3 y hy n
        · rw [List.mem_singleton] at hy; rw [hy]; exact hn n
      · refine Or.inr ⟨e1, ?_⟩
        intro y hy n
        rcases List.mem_append.1 hy with hy | hy
        · exact e2 y hy n
        · rw [List.mem_singleton] at hy; rw [hy]; exact hn n
    by_cases hs : ∃ n, IsSetting lower l n
    · obtain ⟨n, hs⟩ := hs
      rcases step_cases h3 with ⟨g1, -⟩ | ⟨g1, -⟩ | ⟨a, b, g1, -⟩ | ⟨g1, -⟩ | ⟨n', c, b, g1, g2, g3, g4⟩
      · exact absurd hs (nothing_not_setting g1)
      · exact absurd hs (operator_not_setting g1)
      · exact absurd hs (alias_not_setting g1)
      · exact absurd hs (lookup_not_setting g1)
      · have hid := identity_setting g2 g3
        cases b with
        | true =>
          left
          refine ⟨ls, l, [], rfl, ?_, by simp⟩
          rw [g4]
          obtain ⟨k, hk⟩ := hid.1 rfl
          exact ⟨g1, c, k, g2, hk⟩
        | false =>
          refine hkeep ?_ (by rw [g4]; rfl)
          rintro n'' ⟨-, c', k, e1, e2⟩
          rw [g2] at e1
          have := Option.some.inj (Outcome.ok.inj e1)
          subst this
          have := hid.2 ⟨k, e2⟩
          cases this
    · have hs' : ∀ n, ¬ IsSetting lower l n := fun n h => hs ⟨n, h⟩
      exact hkeep (fun n h => hs' n h.1) (step_keep h3 hs').1

/-- lines after a setting line, up to the next one -/
theorem run_mid {name : List Char} {ls : List (List Char)} {st st' : TableState} {e : TableEntry}
    (h : run lower st ls = .ok (some st')) (hs : ∀ l ∈ ls, ∀ n, ¬ IsSetting lower l n) (hc : st.currentName = name)
    (he : mapGet st.settings name = some e) :
    ∃ ops, List.Forall₂ (fun l m => affFromString (trim l) = .ok (some m)) (ls.filter IsOperator) ops ∧
      mapGet st'.settings name = some { e with operators := e.operators ++ ops } ∧ st'.currentName = name := by
  induction ls generalizing st e with
  | nil =>
    unfold run at h
    have := Option.some.inj (Outcome.ok.inj h)
    subst this
    exact ⟨[], by simp, by simpa using he, hc⟩
  | cons l ls ih =>
    obtain ⟨st1, h1, h2⟩ := run_cons_some h
    have hs' : ∀ l ∈ ls, ∀ n, ¬ IsSetting lower l n := fun x hx => hs x (List.mem_cons_of_mem _ hx)
    by_cases ho : IsOperator l
    · rcases step_cases h1 with ⟨g, -⟩ | ⟨-, m, e', g1, g2, rfl⟩ | ⟨a, b, g, -⟩ | ⟨g, -⟩ | ⟨n, c, b, g, -⟩
      · exact absurd ho (nothing_not_operator g)
      · rw [hc, he] at g2
        cases g2
        obtain ⟨ops, k1, k2, k3⟩ := ih (e := { e with operators := e.operators ++ [m] }) h2 hs' hc (by
          simp only [hc]; exact mapGet_insert _ _ _)
        refine ⟨m :: ops, ?_, ?_, k3⟩
        · rw [List.filter_cons_of_pos (by simpa using ho)]
          exact .cons g1 k1
        · rw [k2]; simp
      · exact absurd ho (alias_not_operator g)
      · exact absurd ho (lookup_not_operator g)
      · exact absurd g (hs l List.mem_cons_self n)
    · obtain ⟨-, g2, g3⟩ := step_keep h1 (hs l List.mem_cons_self)
      obtain ⟨ops, k1, k2, k3⟩ := ih h2 hs' (g2.trans hc) (by rw [g3 ho]; exact he)
      refine ⟨ops, ?_, k2, k3⟩
      rw [List.filter_cons_of_neg (by simpa using ho)]
      exact k1

/-- lines in which another setting is current -/
theorem run_other {name : List Char} {ls : List (List Char)} {st st' : TableState}
    (h : run lower st ls = .ok (some st')) (hs : ∀ l ∈ ls, ¬ IsSetting lower l name)
    (hc : st.currentName ≠ name ∨ mapGet st.settings name = none ∨ ∃ l q n, ls = l :: q ∧ IsSetting lower l n) :
    mapGet st'.settings name = mapGet st.settings name := by
  induction ls generalizing st with
  | nil =>
    unfold run at h
    rw [Option.some.inj (Outcome.ok.inj h)]
  | cons l ls ih =>
    obtain ⟨st1, h1, h2⟩ := run_cons_some h
    have hs' : ∀ l ∈ ls, ¬ IsSetting lower l name := fun x hx => hs x (List.mem_cons_of_mem _ hx)
    rcases step_cases h1 with ⟨g, rfl⟩ | ⟨g, m, e', g1, g2, rfl⟩ | ⟨a, b, g, rfl⟩ | ⟨g, e, -, rfl⟩ | ⟨n, c, b, g, -, -, rfl⟩
    · refine ih h2 hs' ?_
      rcases hc with hc | hc | ⟨x, q, n, hx, hn⟩
      · exact Or.inl hc
      · exact Or.inr (Or.inl hc)
      · cases hx; exact absurd hn (nothing_not_setting g)
    · have hne : st.currentName ≠ name := by
        rcases hc with hc | hc | ⟨x, q, n, hx, hn⟩
        · exact hc
        · rintro rfl
          rw [g2] at hc; cases hc
        · cases hx; exact absurd hn (operator_not_setting g)
      rw [ih h2 hs' (Or.inl hne)]
      exact mapGet_insert_ne _ (Ne.symm hne) _
    · refine ih (st := { st with alias_ := mapInsert st.alias_ a b }) h2 hs' ?_
      rcases hc with hc | hc | ⟨x, q, n, hx, hn⟩
      · exact Or.inl hc
      · exact Or.inr (Or.inl hc)
      · cases hx; exact absurd hn (alias_not_setting g)
    · refine ih (st := { st with lookup := st.lookup ++ [e] }) h2 hs' ?_
      rcases hc with hc | hc | ⟨x, q, n, hx, hn⟩
      · exact Or.inl hc
      · exact Or.inr (Or.inl hc)
      · cases hx; exact absurd hn (lookup_not_setting g)
    · have hne : n ≠ name := by
        rintro rfl
        exact hs l List.mem_cons_self g
      rw [ih h2 hs' (Or.inl hne)]
      exact mapGet_insert_ne _ (Ne.symm hne) _

theorem run_alias {a : List Char} {ls : List (List Char)} {st st' : TableState}
    (h : run lower st ls = .ok (some st')) (hs : ∀ l ∈ ls, ∀ b, ¬ IsAlias lower l a b) :
    mapGet st'.alias_ a = mapGet st.alias_ a := by
  induction ls generalizing st with
  | nil =>
    unfold run at h
    rw [Option.some.inj (Outcome.ok.inj h)]
  | cons l ls ih =>
    obtain ⟨st1, h1, h2⟩ := run_cons_some h
    have hs' : ∀ l ∈ ls, ∀ b, ¬ IsAlias lower l a b := fun x hx => hs x (List.mem_cons_of_mem _ hx)
    rw [ih h2 hs']
    rcases step_cases h1 with ⟨g, rfl⟩ | ⟨g, m, e', g1, g2, rfl⟩ | ⟨a', b, g, rfl⟩ | ⟨g, e, -, rfl⟩ | ⟨n, c, b, g, -, -, rfl⟩
    · rfl
    · rfl
    · refine mapGet_insert_ne _ ?_ _
      rintro rfl
      exact hs l List.mem_cons_self b g
    · rfl
    · rfl

theorem nothing_not_starts {l w : List Char} (h : IsNothing l) : ¬ Starts l w := fun h' => h'.1 h
theorem operator_not_starts {l w : List Char} (h : IsOperator l) : ¬ Starts l w := fun h' => h'.2.1 h.2

theorem run_lookup {ls : List (List Char)} {st st' : TableState}
    (h : run lower st ls = .ok (some st')) [DecidablePred (IsLookup lower)] :
    ∃ es, List.Forall₂ (Says lower) (ls.filter (IsLookup lower)) es ∧ st'.lookup = st.lookup ++ es := by
  induction ls generalizing st with
  | nil =>
    unfold run at h
    rw [Option.some.inj (Outcome.ok.inj h)]
    exact ⟨[], by simp, by simp⟩
  | cons l ls ih =>
    obtain ⟨st1, h1, h2⟩ := run_cons_some h
    obtain ⟨es, k1, k2⟩ := ih h2
    by_cases hl : IsLookup lower l
    · rcases step_cases h1 with ⟨g, rfl⟩ | ⟨g, m, e', g1, g2, rfl⟩ | ⟨a', b, g, rfl⟩ | ⟨g, e, g1, rfl⟩ | ⟨n, c, b, g, -, -, rfl⟩
      · obtain ⟨w, hw, -⟩ := hl; exact absurd hw (nothing_not_starts g)
      · obtain ⟨w, hw, -⟩ := hl; exact absurd hw (operator_not_starts g)
      · exact absurd hl (alias_not_lookup g)
      · refine ⟨e :: es, ?_, by rw [k2]; simp⟩
        rw [List.filter_cons_of_pos (by simpa using hl)]
        exact .cons g1 k1
      · exact absurd g (lookup_not_setting hl)
    · rw [List.filter_cons_of_neg (by simpa using hl)]
      refine ⟨es, k1, ?_⟩
      rw [k2]
      congr 1
      rcases step_cases h1 with ⟨g, rfl⟩ | ⟨g, m, e', g1, g2, rfl⟩ | ⟨a', b, g, rfl⟩ | ⟨g, e, g1, rfl⟩ | ⟨n, c, b, g, -, -, rfl⟩
      · rfl
      · rfl
      · rfl
      · exact absurd g hl
      · rfl

/-! ### Lines that make sense -/

theorem isIdentity_ok {t : List Char} {c : CoordMap ℚ} (h : coordFromString t = .ok (some c)) : ∃ b, coordIsIdentity c = .ok b := by
  unfold coordFromString at h
  obtain ⟨o, h1, h⟩ := Outcome.bind_eq_ok.1 h
  cases o with
  | none => cases Outcome.ok.inj h
  | some m =>
    obtain ⟨c', h2, h⟩ := Outcome.bind_eq_ok.1 h
    have h := Option.some.inj (Outcome.ok.inj h)
    subst h
    have hf : c'.forward = m := by
      unfold CoordMap.new at h2
      obtain ⟨i, -, h2⟩ := Outcome.bind_eq_ok.1 h2
      obtain ⟨j, -, h2⟩ := Outcome.bind_eq_ok.1 h2
      rw [← Outcome.ok.inj h2]
    obtain ⟨n, A, s, hA⟩ := affFromString_isAff h1
    obtain ⟨b', h3, -⟩ := aff_identity_iff hA
    unfold coordIsIdentity
    rw [hf]
    exact ⟨b', h3⟩

theorem starts_length {l : List Char} {k : Nat} {w : List Char} (h : (wordsOf l)[k]? = some w) :
    sliceFrom (wordsOf l) (k + 1) = .ok ((wordsOf l).drop (k + 1)) := by
  unfold sliceFrom
  rw [if_pos]
  have := List.getElem?_eq_some_iff.1 h
  obtain ⟨h1, -⟩ := this
  omega

theorem step_setting {st : TableState} {l n : List Char} (hs : IsSetting lower l n) :
    tableStep lower st l = (do
      let t ← transformOf l
      match t with
      | none => .ok none
      | some t => do
        let b ← coordIsIdentity t
        let canonical := if b then n else st.canonicalName
        .ok (some { st with
          canonicalName := canonical
          currentName := n
          settings := mapInsert st.settings n ⟨n, canonical, t, []⟩ })) := by
  obtain ⟨⟨h1, h2, h3⟩, h4, h5⟩ := hs
  have h1 : ¬ (trim l = [] ∨ (trim l).head? = some '#') := h1
  unfold tableStep
  simp only
  have h3' : vecGet (splitWhitespace (trim l)) 0 = .ok n := vecGet_eq_ok.2 h3
  have h4 : lower n ≠ aliasText := h4
  have h5 : lower n ≠ lookupText := h5
  rw [if_neg h1, if_neg h2, bind_ok h3', if_neg h4, if_neg h5]
  have : sliceFrom (splitWhitespace (trim l)) 1 = .ok ((wordsOf l).drop 1) := starts_length h3
  rw [bind_ok this]
  rfl

theorem step_lookup {st : TableState} {l : List Char} (hs : IsLookup lower l) :
    tableStep lower st l = (do
      let o ← makeLookupEntry lower (wordsOf l)
      match o with
      | none => .ok none
      | some o => .ok (some { st with lookup := st.lookup ++ [o] })) := by
  obtain ⟨w, ⟨h1, h2, h3⟩, h4, h5⟩ := hs
  have h1 : ¬ (trim l = [] ∨ (trim l).head? = some '#') := h1
  unfold tableStep
  simp only
  have h3' : vecGet (splitWhitespace (trim l)) 0 = .ok w := vecGet_eq_ok.2 h3
  have h4 : lower w ≠ aliasText := h4
  have h5 : lower w = lookupText := h5
  rw [if_neg h1, if_neg h2, bind_ok h3', if_neg h4, if_pos h5]
  rfl

theorem makeLookupEntry_says {l : List Char} {e : Lookup} (h : Says lower l e) : makeLookupEntry lower (wordsOf l) = .ok (some e) := by
  obtain ⟨sys, cen, h1, h2, h3, h4, h5, h6⟩ := h
  unfold makeLookupEntry
  have h6 : coordFromString (joinSpace ((wordsOf l).drop 4)) = .ok (some e.fromStd) := h6
  rw [bind_ok (vecGet_eq_ok.2 h1), bind_ok (starts_length h4), bind_ok h6]
  simp only
  rw [bind_ok (vecGet_eq_ok.2 h2), h3]
  simp only
  rw [bind_ok (vecGet_eq_ok.2 h4), h5]

theorem step_operator {st : TableState} {l : List Char} (hs : IsOperator l) :
    tableStep lower st l = (do
      let op ← affFromString (trim l)
      match op with
      | none => .ok none
      | some op =>
        match mapGet st.settings st.currentName with
        | none => .ok none
        | some e => .ok (some { st with
            settings := mapInsert st.settings st.currentName { e with operators := e.operators ++ [op] } })) := by
  obtain ⟨h1, h2⟩ := hs
  have h1 : ¬ (trim l = [] ∨ (trim l).head? = some '#') := h1
  unfold tableStep
  simp only
  rw [if_neg h1, if_pos h2]
  all_goals rfl

/-- there is an open setting once there was a setting line, and not before -/
theorem run_current {ls : List (List Char)} {st : TableState} (h : run lower init ls = .ok (some st)) :
    (mapGet st.settings st.currentName).isSome ↔ ∃ s ∈ ls, ∃ n, IsSetting lower s n := by
  induction ls using List.reverseRecOn generalizing st with
  | nil =>
    unfold run at h
    have := Option.some.inj (Outcome.ok.inj h)
    subst this
    simp [init, mapGet]
  | append_singleton ls l ih =>
    obtain ⟨st1, h1, h2⟩ := run_append_some h
    obtain ⟨st2, h3, h4⟩ := run_cons_some h2
    have := Option.some.inj (Outcome.ok.inj h4)
    subst this
    have hold := ih h1
    have hmem : (∃ s ∈ ls ++ [l], ∃ n, IsSetting lower s n) ↔ (∃ s ∈ ls, ∃ n, IsSetting lower s n) ∨ ∃ n, IsSetting lower l n := by
      simp only [List.mem_append, List.mem_singleton]
      constructor
      · rintro ⟨s, hs | rfl, hn⟩
        · exact Or.inl ⟨s, hs, hn⟩
        · exact Or.inr hn
      · rintro (⟨s, hs, hn⟩ | hn)
        · exact ⟨s, Or.inl hs, hn⟩
        · exact ⟨l, Or.inr rfl, hn⟩
    rw [hmem]
    rcases step_cases h3 with ⟨g, rfl⟩ | ⟨g, m, e', g1, g2, rfl⟩ | ⟨a', b, g, rfl⟩ | ⟨g, e, -, rfl⟩ | ⟨n, c, b, g, -, -, rfl⟩
    · rw [hold]
      exact ⟨Or.inl, fun h => h.resolve_right (fun ⟨n, hn⟩ => nothing_not_setting g hn)⟩
    · rw [g2] at hold
      simp only [mapGet_insert, Option.isSome_some, true_iff]
      exact Or.inl (hold.1 rfl)
    · rw [hold]
      exact ⟨Or.inl, fun h => h.resolve_right (fun ⟨n, hn⟩ => alias_not_setting g hn)⟩
    · rw [hold]
      exact ⟨Or.inl, fun h => h.resolve_right (fun ⟨n, hn⟩ => lookup_not_setting g hn)⟩
    · simp only [mapGet_insert, Option.isSome_some, true_iff]
      exact Or.inr ⟨n, g⟩

theorem step_lineOk {ls : List (List Char)} {st : TableState} (h : run lower init ls = .ok (some st)) {l : List Char} :
    (∃ st', tableStep lower st l = .ok (some st')) ↔ LineOk lower ls l := by
  have hcur := run_current h
  constructor
  · rintro ⟨st', h1⟩
    rcases step_cases h1 with ⟨g, -⟩ | ⟨g, m, e', g1, g2, -⟩ | ⟨a', b, g, -⟩ | ⟨g, e, g1, -⟩ | ⟨n, c, b, g, g1, -⟩
    · exact Or.inl g
    · refine Or.inr (Or.inl ⟨g, ⟨m, g1⟩, hcur.1 ?_⟩)
      rw [g2]; rfl
    · exact Or.inr (Or.inr (Or.inl ⟨a', b, g⟩))
    · exact Or.inr (Or.inr (Or.inr (Or.inl ⟨g, e, g1⟩)))
    · exact Or.inr (Or.inr (Or.inr (Or.inr ⟨n, c, g, g1⟩)))
  · rintro (g | ⟨g, ⟨m, g1⟩, g2⟩ | ⟨a, b, w, ⟨h1, h2, h3⟩, h4, h5, h6⟩ | ⟨g, e, g1⟩ | ⟨n, c, g, g1⟩)
    · refine ⟨st, ?_⟩
      have g : trim l = [] ∨ (trim l).head? = some '#' := g
      unfold tableStep
      simp only
      rw [if_pos g]
    · have := hcur.2 g2
      obtain ⟨e, he⟩ := Option.isSome_iff_exists.1 this
      rw [step_operator g, bind_ok g1]
      simp only
      rw [he]
      exact ⟨_, rfl⟩
    · have h1 : ¬ (trim l = [] ∨ (trim l).head? = some '#') := h1
      unfold tableStep
      simp only
      have h3' : vecGet (splitWhitespace (trim l)) 0 = .ok w := vecGet_eq_ok.2 h3
      have h5' : vecGet (splitWhitespace (trim l)) 1 = .ok a := vecGet_eq_ok.2 h5
      have h6' : vecGet (splitWhitespace (trim l)) 2 = .ok b := vecGet_eq_ok.2 h6
      have h4 : lower w = aliasText := h4
      rw [if_neg h1, if_neg h2, bind_ok h3', if_pos h4, bind_ok h5', bind_ok h6']
      exact ⟨_, rfl⟩
    · rw [step_lookup g, bind_ok (makeLookupEntry_says g1)]
      exact ⟨_, rfl⟩
    · rw [step_setting g, bind_ok g1]
      obtain ⟨b, hb⟩ := isIdentity_ok g1
      simp only
      rw [bind_ok hb]
      exact ⟨_, rfl⟩

theorem run_allOk {ls : List (List Char)} : (∃ st, run lower init ls = .ok (some st)) ↔ AllOk lower ls := by
  induction ls using List.reverseRecOn with
  | nil => exact ⟨fun _ p l q h => by simp at h, fun _ => ⟨_, rfl⟩⟩
  | append_singleton ls l ih =>
    constructor
    · rintro ⟨st, h⟩ p x q e
      obtain ⟨st1, h1, h2⟩ := run_append_some h
      obtain ⟨st2, h3, -⟩ := run_cons_some h2
      rcases List.eq_nil_or_concat q with rfl | ⟨q', y, rfl⟩
      · obtain ⟨e1, e2⟩ := List.append_inj' e rfl
        cases e2
        subst e1
        exact (step_lineOk h1).1 ⟨st2, h3⟩
      · have e' : ls ++ [l] = (p ++ x :: q') ++ [y] := by rw [e]; simp
        obtain ⟨e1, -⟩ := List.append_inj' e' rfl
        exact ih.1 ⟨st1, h1⟩ p x q' e1
    · intro h
      obtain ⟨st1, h1⟩ := ih.2 (fun p x q e => h p x (q ++ [l]) (by rw [e]; simp))
      obtain ⟨st2, h2⟩ := (step_lineOk h1).2 (h ls l [] rfl)
      refine ⟨st2, ?_⟩
      rw [run_append, bind_ok h1]
      simp only [run]
      rw [bind_ok h2]

/-! ### Words -/

theorem splitLoop_words {s : List Char} : ∀ word, (∀ c ∈ word, isWhite c = false) →
    (word = [] → Words s (splitLoop [] s)) ∧
    (word ≠ [] → ∃ w rest ws, word ++ s = w ++ rest ∧ word <+: w ∧ (∀ c ∈ w, isWhite c = false) ∧
      (∀ c, rest.head? = some c → isWhite c = true) ∧ Words rest ws ∧ splitLoop word s = w :: ws) := by
  induction s with
  | nil =>
    intro word hw
    refine ⟨fun _ => .nil (by simp), fun h => ⟨word, [], [], rfl, List.prefix_rfl, hw, by simp, .nil (by simp), ?_⟩⟩
    simp [splitLoop, h]
  | cons c s ih =>
    intro word hw
    constructor
    · rintro -
      unfold splitLoop
      by_cases hc : isWhite c = true
      · rw [if_pos hc, if_pos rfl]
        have := (ih [] (by simp)).1 rfl
        generalize hr : splitLoop [] s = r at this
        cases this with
        | nil hu => exact .nil (by intro x hx; rcases List.mem_cons.1 hx with rfl | hx; exacts [hc, hu x hx])
        | @cons u w rest ws hu h1 h2 h3 h4 =>
          have : c :: (u ++ w ++ rest) = (c :: u) ++ w ++ rest := rfl
          rw [this]
          exact .cons (by intro x hx; rcases List.mem_cons.1 hx with rfl | hx; exacts [hc, hu x hx]) h1 h2 h3 h4
      · rw [if_neg hc]
        obtain ⟨w, rest, ws, e, hp, h2, h3, h4, h5⟩ := (ih ([] ++ [c]) (by intro x hx; simp at hx; subst hx; simpa using hc)).2 (by simp)
        rw [h5]
        have : c :: s = [] ++ w ++ rest := by simpa using e
        rw [this]
        refine .cons (by simp) ?_ h2 h3 h4
        rintro rfl
        simp at hp
    · intro hne
      unfold splitLoop
      by_cases hc : isWhite c = true
      · rw [if_pos hc, if_neg hne]
        refine ⟨word, c :: s, splitLoop [] s, rfl, List.prefix_rfl, hw, by simp [hc], ?_, rfl⟩
        have := (ih [] (by simp)).1 rfl
        generalize hr : splitLoop [] s = r at this
        cases this with
        | nil hu => exact .nil (by intro x hx; rcases List.mem_cons.1 hx with rfl | hx; exacts [hc, hu x hx])
        | @cons u w rest ws hu h1 h2 h3 h4 =>
          have : c :: (u ++ w ++ rest) = (c :: u) ++ w ++ rest := rfl
          rw [this]
          exact .cons (by intro x hx; rcases List.mem_cons.1 hx with rfl | hx; exacts [hc, hu x hx]) h1 h2 h3 h4
      · rw [if_neg hc]
        obtain ⟨w, rest, ws, e, hp, h2, h3, h4, h5⟩ := (ih (word ++ [c]) (by
          intro x hx
          rcases List.mem_append.1 hx with hx | hx
          · exact hw x hx
          · simp at hx; subst hx; simpa using hc)).2 (by simp)
        refine ⟨w, rest, ws, by rw [← e]; simp, (List.prefix_append _ _).trans hp, h2, h3, h4, h5⟩

theorem words_split (s : List Char) : Words s (splitWhitespace s) := (splitLoop_words [] (by simp)).1 rfl

theorem splitLoop_word {w rest : List Char} (hw : ∀ c ∈ w, isWhite c = false) : ∀ p, splitLoop p (w ++ rest) = splitLoop (p ++ w) rest := by
  induction w with
  | nil => intro p; simp
  | cons c w ih =>
    intro p
    have hc : ¬ isWhite c = true := by simp [hw c List.mem_cons_self]
    change splitLoop p (c :: (w ++ rest)) = _
    rw [splitLoop, if_neg hc, ih (fun x hx => hw x (List.mem_cons_of_mem _ hx))]
    simp

theorem splitLoop_white {u rest : List Char} (hu : ∀ c ∈ u, isWhite c = true) : splitLoop [] (u ++ rest) = splitLoop [] rest := by
  induction u with
  | nil => rfl
  | cons c u ih =>
    change splitLoop [] (c :: (u ++ rest)) = _
    rw [splitLoop, if_pos (hu c List.mem_cons_self), if_pos rfl, ih (fun x hx => hu x (List.mem_cons_of_mem _ hx))]

theorem words_unique {s : List Char} {ws : List (List Char)} (h : Words s ws) : ws = splitWhitespace s := by
  unfold splitWhitespace
  induction h with
  | @nil u hu =>
    have := splitLoop_white (rest := []) hu
    rw [List.append_nil] at this
    rw [this]; rfl
  | @cons u w rest ws hu h1 h2 h3 h4 ih =>
    rw [List.append_assoc, splitLoop_white hu, splitLoop_word h2, List.nil_append, ih]
    cases rest with
    | nil => simp [splitLoop, h1]
    | cons c r =>
      have hc := h3 c rfl
      rw [splitLoop, splitLoop, if_pos hc, if_pos hc, if_pos rfl, if_neg h1]

theorem trim_trimmed (s : List Char) : Trimmed s (trim s) := by
  unfold Trimmed trim
  set a := s.dropWhile isWhite
  have h1 : s = s.takeWhile isWhite ++ a := (List.takeWhile_append_dropWhile).symm
  have h2 : a.reverse = a.reverse.takeWhile isWhite ++ a.reverse.dropWhile isWhite := (List.takeWhile_append_dropWhile).symm
  have h3 : a = (a.reverse.dropWhile isWhite).reverse ++ (a.reverse.takeWhile isWhite).reverse := by
    have := congrArg List.reverse h2
    rwa [List.reverse_reverse, List.reverse_append] at this
  refine ⟨⟨s.takeWhile isWhite, (a.reverse.takeWhile isWhite).reverse, ?_, ?_, ?_⟩, ?_, ?_⟩
  · rw [List.append_assoc, ← h3]; exact h1
  · intro c hc; exact List.mem_takeWhile_imp hc
  · intro c hc; rw [List.mem_reverse] at hc; exact List.mem_takeWhile_imp hc
  · intro c hc
    have ha : a.head? = some c := by
      rw [h3]
      cases hb : (a.reverse.dropWhile isWhite).reverse with
      | nil => rw [hb] at hc; cases hc
      | cons x y => rw [hb] at hc; simpa using hc
    have := List.head?_dropWhile_not isWhite s
    rw [show s.dropWhile isWhite = a from rfl, ha] at this
    simpa using this
  · intro c hc
    rw [List.getLast?_reverse] at hc
    have := List.head?_dropWhile_not isWhite a.reverse
    rw [hc] at this
    simpa using this

theorem words_trim (s : List Char) : splitWhitespace (trim s) = splitWhitespace s := by
  obtain ⟨⟨u, v, e, hu, hv⟩, -, -⟩ := trim_trimmed s
  symm
  have : Words s (splitWhitespace (trim s)) := by
    generalize trim s = t at *
    subst e
    have hw := words_split t
    have key : ∀ {t ws}, Words t ws → ∀ u v, (∀ c ∈ u, isWhite c = true) → (∀ c ∈ v, isWhite c = true) → Words (u ++ t ++ v) ws := by
      intro t ws h
      induction h with
      | @nil x hx =>
        intro u v hu hv
        exact .nil (by intro c hc; simp only [List.mem_append] at hc; rcases hc with (hc | hc) | hc; exacts [hu c hc, hx c hc, hv c hc])
      | @cons x w rest ws hx h1 h2 h3 h4 ih =>
        intro u v hu hv
        have e : u ++ (x ++ w ++ rest) ++ v = (u ++ x) ++ w ++ ([] ++ rest ++ v) := by simp
        rw [e]
        refine .cons (by intro c hc; rcases List.mem_append.1 hc with hc | hc; exacts [hu c hc, hx c hc]) h1 h2 ?_ (ih [] v (by simp) hv)
        intro c hc
        cases rest with
        | nil =>
          simp only [List.nil_append, List.append_nil] at hc
          exact hv c (List.mem_of_mem_head? hc)
        | cons y r => exact h3 c (by simpa using hc)
    exact key hw u v hu hv
  exact (words_unique this).symm

theorem returns_bind {α β : Type} {x : Outcome α} {f : α → Outcome β} (hx : ∃ a, x = .ok a)
    (hf : ∀ a, ∃ b, f a = .ok b) : ∃ b, (x >>= f) = .ok b := by
  obtain ⟨a, rfl⟩ := hx
  exact hf a

theorem no_return {α : Type} {x : Outcome α} (h : ¬ ∀ r, x ≠ .ok r) : ∃ a, x = .ok a := by
  by_contra hn
  exact h (fun r hr => hn ⟨r, hr⟩)

theorem starts_of_plain {l : List Char} (h1 : ¬ IsNothing l) (h2 : l.head? ≠ some ' ') : ∃ w, Starts l w := by
  cases hw : (wordsOf l)[0]? with
  | some w => exact ⟨w, h1, h2, hw⟩
  | none =>
    exfalso
    have hnil : wordsOf l = [] := by
      cases h : wordsOf l with
      | nil => rfl
      | cons a b => rw [h] at hw; simp at hw
    have hs : Words (trim l) [] := by rw [← hnil]; exact words_split (trim l)
    have hall : ∀ c ∈ trim l, isWhite c = true := by
      generalize trim l = t at hs
      generalize hws : ([] : List (List Char)) = ws at hs
      cases hs with
      | nil h => exact h
      | cons => cases hws
    have hne : trim l ≠ [] := fun e => h1 (Or.inl e)
    obtain ⟨c, t, e⟩ := List.exists_cons_of_ne_nil hne
    have h3 := (trim_trimmed l).2.1 c (by rw [e]; rfl)
    rw [hall c (by rw [e]; simp)] at h3
    cases h3

theorem step_alias {st : TableState} {l w : List Char} (hs : Starts l w) (ha : lower w = "alias".toList) :
    tableStep lower st l = (do
      let f1 ← vecGet (wordsOf l) 1
      let f2 ← vecGet (wordsOf l) 2
      .ok (some { st with alias_ := mapInsert st.alias_ f1 f2 })) := by
  obtain ⟨h1, h2, h3⟩ := hs
  have h1 : ¬ (trim l = [] ∨ (trim l).head? = some '#') := h1
  unfold tableStep
  simp only
  have h3' : vecGet (splitWhitespace (trim l)) 0 = .ok w := vecGet_eq_ok.2 h3
  have h4 : lower w = aliasText := ha
  rw [if_neg h1, if_neg h2, bind_ok h3', if_pos h4]
  rfl

theorem vecGet_returns {α : Type} {l : List α} {i : Nat} (h : i < l.length) : ∃ a, vecGet l i = .ok a :=
  ⟨l[i], vecGet_eq_ok.2 (List.getElem?_eq_getElem h)⟩

theorem vecGet_length {α : Type} {l : List α} {i : Nat} {a : α} (h : vecGet l i = .ok a) : i < l.length :=
  (List.getElem?_eq_some_iff.1 (vecGet_some h)).1

theorem step_stops {st : TableState} {l : List Char} :
    (∃ r, tableStep lower st l = .ok r) ↔ ¬ LineStops lower l := by
  by_cases h1 : IsNothing l
  · have h1' : trim l = [] ∨ (trim l).head? = some '#' := h1
    refine ⟨fun _ => ?_, fun _ => ⟨some st, by unfold tableStep; simp only; rw [if_pos h1']⟩⟩
    rintro (⟨h, -⟩ | ⟨w, h, -⟩ | ⟨⟨w, h, -⟩, -⟩ | ⟨n, h, -⟩)
    · exact h.1 h1
    · exact h.1 h1
    · exact h.1 h1
    · exact h.1.1 h1
  by_cases h2 : l.head? = some ' '
  · have ho : IsOperator l := ⟨h1, h2⟩
    rw [step_operator ho]
    constructor
    · rintro ⟨r, h⟩ (⟨-, h'⟩ | ⟨w, h', -⟩ | ⟨⟨w, h', -⟩, -⟩ | ⟨n, h', -⟩)
      · obtain ⟨a, e, -⟩ := Outcome.bind_eq_ok.1 h
        exact h' a e
      · exact h'.2.1 h2
      · exact h'.2.1 h2
      · exact h'.1.2.1 h2
    · intro h
      refine returns_bind (no_return (fun h' => h (Or.inl ⟨ho, h'⟩))) (fun a => ?_)
      cases a with
      | none => exact ⟨_, rfl⟩
      | some a =>
        simp only
        cases mapGet st.settings st.currentName <;> exact ⟨_, rfl⟩
  obtain ⟨w, hw⟩ := starts_of_plain h1 h2
  by_cases ha : lower w = "alias".toList
  · rw [step_alias hw ha]
    constructor
    · rintro ⟨r, h⟩ (⟨h', -⟩ | ⟨w', -, -, h'⟩ | ⟨⟨w', h', h3, -⟩, -⟩ | ⟨n, ⟨h', h3, -⟩, -⟩)
      · exact h2 h'.2
      · obtain ⟨a, -, h⟩ := Outcome.bind_eq_ok.1 h
        obtain ⟨b, e, -⟩ := Outcome.bind_eq_ok.1 h
        have := vecGet_length e
        omega
      · rw [starts_unique h' hw] at h3; exact h3 ha
      · rw [starts_unique h' hw] at h3; exact h3 ha
    · intro h
      have hl : ¬ (wordsOf l).length < 3 := fun h' => h (Or.inr (Or.inl ⟨w, hw, ha, h'⟩))
      exact returns_bind (vecGet_returns (by omega)) (fun a => returns_bind (vecGet_returns (by omega)) (fun b => ⟨_, rfl⟩))
  by_cases hk : lower w = "lookup".toList
  · have hL : IsLookup lower l := ⟨w, hw, ha, hk⟩
    rw [step_lookup hL]
    constructor
    · rintro ⟨r, h⟩ (⟨h', -⟩ | ⟨w', h', h3, -⟩ | ⟨-, h'⟩ | ⟨n, ⟨h', -, h3⟩, -⟩)
      · exact h2 h'.2
      · rw [starts_unique h' hw] at h3; exact ha h3
      · obtain ⟨o, h, -⟩ := Outcome.bind_eq_ok.1 h
        unfold makeLookupEntry at h
        obtain ⟨a, -, h⟩ := Outcome.bind_eq_ok.1 h
        obtain ⟨b, e, h⟩ := Outcome.bind_eq_ok.1 h
        obtain ⟨c, e', -⟩ := Outcome.bind_eq_ok.1 h
        unfold sliceFrom at e
        split at e
        · next hlen =>
          rcases h' with h' | h'
          · omega
          · rw [← Outcome.ok.inj e] at e'
            exact h' _ e'
        · cases e
      · rw [starts_unique h' hw] at h3; exact h3 hk
    · intro h
      have hl : ¬ (wordsOf l).length < 4 := fun h' => h (Or.inr (Or.inr (Or.inl ⟨hL, Or.inl h'⟩)))
      have hc := no_return (fun h' => h (Or.inr (Or.inr (Or.inl ⟨hL, Or.inr h'⟩))))
      refine returns_bind ?_ (fun a => by cases a <;> exact ⟨_, rfl⟩)
      unfold makeLookupEntry
      refine returns_bind (vecGet_returns (by omega)) (fun a => ?_)
      have hsl : sliceFrom (wordsOf l) 4 = .ok ((wordsOf l).drop 4) := by
        unfold sliceFrom
        rw [if_pos (by omega)]
      rw [bind_ok hsl]
      refine returns_bind hc (fun b => ?_)
      cases b with
      | none => exact ⟨_, rfl⟩
      | some b =>
        refine returns_bind (vecGet_returns (by omega)) (fun f => ?_)
        cases systemFromString lower f with
        | none => exact ⟨_, rfl⟩
        | some sy =>
          obtain ⟨x, hx⟩ := vecGet_returns (l := wordsOf l) (i := 3) (by omega)
          simp only
          rw [bind_ok hx]
          cases Centering.fromString x <;> exact ⟨_, rfl⟩
  · have hS : IsSetting lower l w := ⟨hw, ha, hk⟩
    rw [step_setting hS]
    constructor
    · rintro ⟨r, h⟩ (⟨h', -⟩ | ⟨w', h', h3, -⟩ | ⟨⟨w', h', -, h3⟩, -⟩ | ⟨n, -, h'⟩)
      · exact h2 h'.2
      · rw [starts_unique h' hw] at h3; exact ha h3
      · rw [starts_unique h' hw] at h3; exact hk h3
      · obtain ⟨a, e, -⟩ := Outcome.bind_eq_ok.1 h
        exact h' a e
    · intro h
      obtain ⟨a, e⟩ := no_return (fun h' => h (Or.inr (Or.inr (Or.inr ⟨w, hS, h'⟩))))
      rw [bind_ok e]
      cases a with
      | none => exact ⟨_, rfl⟩
      | some c =>
        obtain ⟨b, hb⟩ := isIdentity_ok e
        simp only
        rw [bind_ok hb]
        exact ⟨_, rfl⟩

/-- the first item of the input that is not a line that makes sense -/
theorem first_bad (input : List (Option (List Char))) :
    (∃ lines, input = lines.map some ∧ AllOk lower lines) ∨
    (∃ pre rest, input = pre.map some ++ none :: rest ∧ AllOk lower pre) ∨
    (∃ pre l rest, input = pre.map some ++ some l :: rest ∧ AllOk lower pre ∧ ¬ LineOk lower pre l) := by
  induction input using List.reverseRecOn with
  | nil => exact Or.inl ⟨[], rfl, fun p l q h => by simp at h⟩
  | append_singleton xs x ih =>
    rcases ih with ⟨lines, rfl, h⟩ | ⟨pre, rest, rfl, h⟩ | ⟨pre, l, rest, rfl, h, h'⟩
    · cases x with
      | none => exact Or.inr (Or.inl ⟨lines, [], rfl, h⟩)
      | some l =>
        by_cases hl : LineOk lower lines l
        · refine Or.inl ⟨lines ++ [l], by simp, ?_⟩
          obtain ⟨st, h1⟩ := run_allOk.2 h
          obtain ⟨st2, h2⟩ := (step_lineOk h1).2 hl
          refine run_allOk.1 ⟨st2, ?_⟩
          rw [run_append, bind_ok h1]
          simp only [run]
          rw [bind_ok h2]
        · exact Or.inr (Or.inr ⟨lines, l, [], rfl, h, hl⟩)
    · exact Or.inr (Or.inl ⟨pre, rest ++ [x], by simp, h⟩)
    · exact Or.inr (Or.inr ⟨pre, l, rest ++ [x], by simp, h, h'⟩)

end Systre.Table
