import Verif.Lemmas.SgSetting
import Verif.Lemmas.ParseTable
import Verif.Lemmas.GeomExtra

/-! # The lines of a space group table in structured form, and what the parser makes of them -/

namespace Systre.Sg
open ParseOperator OpText Table
open Finder (CrystalSystem)

variable {lower : List Char → List Char}

/-- a word: not empty, without white space -/
def IsWord (w : List Char) : Prop := w ≠ [] ∧ ∀ c ∈ w, isWhite c = false

/-- words with single spaces between them -/
def joinW : List (List Char) → List Char
  | [] => []
  | [w] => w
  | w :: ws => w ++ ' ' :: joinW ws

theorem joinW_words {ws : List (List Char)} (h : ∀ w ∈ ws, IsWord w) : Words (joinW ws) ws := by
  induction ws with
  | nil => exact .nil (by simp [joinW])
  | cons w ws ih =>
    obtain ⟨h1, h2⟩ := h w (by simp)
    have ih := ih (fun w hw => h w (by simp [hw]))
    cases ws with
    | nil => simpa [joinW] using Words.cons (u := []) (rest := []) (by simp) h1 h2 (by simp) ih
    | cons v vs =>
      have hv : Words (' ' :: joinW (v :: vs)) (v :: vs) := by
        have h3 := words_unique ih
        have := splitLoop_white (u := [' ']) (rest := joinW (v :: vs)) (by decide)
        change splitWhitespace (' ' :: joinW (v :: vs)) = splitWhitespace (joinW (v :: vs)) at this
        rw [← this] at h3
        have h4 := words_split (' ' :: joinW (v :: vs))
        rwa [← h3] at h4
      simpa [joinW] using Words.cons (u := []) (by simp) h1 h2 (by simp; decide) hv

theorem joinW_head {w : List Char} {ws : List (List Char)} (h : w ≠ []) : (joinW (w :: ws)).head? = w.head? := by
  cases w with
  | nil => exact absurd rfl h
  | cons c w => cases ws <;> rfl

theorem trim_head {l : List Char} {c : Char} (h : l.head? = some c) (hc : isWhite c = false) : (trim l).head? = some c := by
  obtain ⟨⟨u, v, e, hu, hv⟩, -, -⟩ := trim_trimmed l
  cases u with
  | cons x u =>
    rw [e] at h
    simp only [List.cons_append, List.head?_cons, Option.some.injEq] at h
    subst h
    rw [hu x (by simp)] at hc
    cases hc
  | nil =>
    cases ht : trim l with
    | cons y t =>
      rw [ht] at e
      rw [e] at h
      simpa using h
    | nil =>
      rw [ht] at e
      rw [e] at h
      simp only [List.nil_append] at h
      have := hv c (List.mem_of_mem_head? h)
      rw [this] at hc
      cases hc

theorem starts_joinW {w : List Char} {ws : List (List Char)} (h : ∀ x ∈ w :: ws, IsWord x) (hh : w.head? ≠ some '#') :
    Starts (joinW (w :: ws)) w ∧ wordsOf (joinW (w :: ws)) = w :: ws := by
  have e : wordsOf (joinW (w :: ws)) = w :: ws := by
    unfold wordsOf
    rw [words_trim]
    exact (words_unique (joinW_words h)).symm
  refine ⟨⟨?_, ?_, by rw [e]; rfl⟩, e⟩
  · obtain ⟨h1, h2⟩ := h w (by simp)
    cases hw : w with
    | nil => exact absurd hw h1
    | cons c w' =>
      have hc : isWhite c = false := h2 c (by rw [hw]; simp)
      have ht := trim_head (l := joinW (w :: ws)) (by rw [joinW_head h1, hw]; rfl) hc
      rw [hw] at ht
      unfold IsNothing
      rintro (h3 | h3)
      · rw [h3] at ht; cases ht
      · rw [h3] at ht
        rw [hw] at hh
        exact hh ht.symm
  · obtain ⟨h1, h2⟩ := h w (by simp)
    rw [joinW_head h1]
    intro h3
    have := h2 ' ' (List.mem_of_mem_head? h3)
    revert this
    decide

/-! ### texts of operators -/

theorem co_word (c : Co) : IsWord c.text ∧ ∀ x ∈ c.text, x ≠ '#' := by
  obtain ⟨h1, h2, -, -, -, -, h3⟩ := c.ok
  refine ⟨⟨?_, fun x hx => (h3 x hx).1⟩, fun x hx => (h3 x hx).2⟩
  intro h
  have hc := co_coord c
  rw [h] at hc
  generalize hw : ([] : List Char) = w at hc
  cases hts : c.ts with
  | nil => exact h2 hts
  | cons t ts =>
    rw [h1, hts] at h
    have hb : ∀ t : Tm, t.body ≠ [] := by
      intro t
      cases t <;> simp only [Tm.body, numText] <;> first | (simp; done) | (split <;> simp)
    unfold coText at h
    have := (List.append_eq_nil_iff.1 h).1
    split at this
    · cases this
    · exact hb t this

theorem tr_word (n : Nat) (t : Tr) : IsWord (t.text n) ∧ ∀ x ∈ t.text n, x ≠ '#' := by
  obtain ⟨⟨a1, a2⟩, a3⟩ := co_word t.c0
  obtain ⟨⟨b1, b2⟩, b3⟩ := co_word t.c1
  obtain ⟨⟨c1, c2⟩, c3⟩ := co_word t.c2
  have hcomma : isWhite ',' = false := by decide
  unfold Tr.text
  split
  · exact ⟨⟨a1, a2⟩, a3⟩
  · refine ⟨⟨by simp, ?_⟩, ?_⟩
    · intro c hc
      simp only [List.append_nil, List.append_assoc, List.mem_append, List.mem_cons, List.cons_append, List.nil_append] at hc
      rcases hc with hc | rfl | hc
      exacts [a2 c hc, hcomma, b2 c hc]
    · intro c hc
      simp only [List.append_nil, List.append_assoc, List.mem_append, List.mem_cons, List.cons_append, List.nil_append] at hc
      rcases hc with hc | rfl | hc
      exacts [a3 c hc, by decide, b3 c hc]
  · refine ⟨⟨by simp, ?_⟩, ?_⟩
    · intro c hc
      simp only [List.append_nil, List.append_assoc, List.mem_append, List.mem_cons, List.cons_append, List.nil_append] at hc
      rcases hc with hc | rfl | hc | rfl | hc
      exacts [a2 c hc, hcomma, b2 c hc, hcomma, c2 c hc]
    · intro c hc
      simp only [List.append_nil, List.append_assoc, List.mem_append, List.mem_cons, List.cons_append, List.nil_append] at hc
      rcases hc with hc | rfl | hc | rfl | hc
      exacts [a3 c hc, by decide, b3 c hc, by decide, c3 c hc]

/-- the spaces before an operator -/
def indent (aligned : Bool) (t : List Char) : List Char :=
  match aligned, t with
  | true, '-' :: _ => [' ', ' ', ' ']
  | _, _ => [' ', ' ', ' ', ' ']

theorem indent_cases (a : Bool) (t : List Char) : indent a t = [' ', ' ', ' '] ∨ indent a t = [' ', ' ', ' ', ' '] := by
  unfold indent
  split
  · exact Or.inl rfl
  · exact Or.inr rfl

theorem trim_word {w : List Char} (h : IsWord w) : ∀ u : List Char, (∀ c ∈ u, isWhite c = true) → trim (u ++ w) = w := by
  intro u hu
  unfold trim
  have h1 : (u ++ w).dropWhile isWhite = w := by
    rw [List.dropWhile_append_of_pos hu]
    cases w with
    | nil => rfl
    | cons c w => rw [List.dropWhile_cons_of_neg]; rw [h.2 c (by simp)]; decide
  rw [h1]
  have h2 : w.reverse.dropWhile isWhite = w.reverse := by
    cases hw : w.reverse with
    | nil => rfl
    | cons c r =>
      have hc : c ∈ w := by rw [← List.mem_reverse, hw]; simp
      rw [List.dropWhile_cons_of_neg]; rw [h.2 c hc]; decide
  rw [h2, List.reverse_reverse]

theorem operator_line (a : Bool) (n : Nat) (t : Tr) :
    IsOperator (indent a (t.text n) ++ t.text n) ∧ trim (indent a (t.text n) ++ t.text n) = t.text n := by
  obtain ⟨h1, h2⟩ := tr_word n t
  have hu : ∀ c ∈ indent a (t.text n), isWhite c = true := by
    rcases indent_cases a (t.text n) with e | e <;> rw [e] <;> decide
  have e := trim_word h1 _ hu
  refine ⟨⟨?_, ?_⟩, e⟩
  · unfold IsNothing
    rw [e]
    rintro (h | h)
    · exact h1.1 h
    · exact h2 _ (List.mem_of_mem_head? h) rfl
  · rcases indent_cases a (t.text n) with e | e <;> rw [e] <;> rfl

/-! ### changes of coordinates -/

theorem change_parse {n : Nat} (hn : n = 1 ∨ n = 2 ∨ n = 3) (t : Tr) (fi : Q) (h : (t.q.op n).comp (fi.op n) = Op.one) :
    ∃ c, coordFromString (t.text n) = .ok (some c) ∧ IsChange c (t.q.op n) (fi.op n) := by
  obtain ⟨m, h1, h2⟩ := tr_parse hn t
  have hA : (t.q.op n).1 * (fi.op n).1 = 1 := congrArg Prod.fst h
  have hs : (t.q.op n).1.mulVec (fi.op n).2 + (t.q.op n).2 = 0 := congrArg Prod.snd h
  have hdet : (t.q.op n).1.det ≠ 0 := by
    intro h0
    have := congrArg Matrix.det hA
    rw [Matrix.det_mul, h0] at this
    simp at this
  obtain ⟨c, B, s, h3, h4⟩ := (coord_new h2).1 hdet
  refine ⟨c, ?_, ?_⟩
  · unfold coordFromString
    rw [bind_ok h1]
    simp only
    rw [bind_ok h3]
  · have hB : B = (fi.op n).1 := by
      have : B * ((t.q.op n).1 * (fi.op n).1) = B * 1 := by rw [hA]
      rw [← Matrix.mul_assoc, h4.2.2.2.1, Matrix.one_mul, Matrix.mul_one] at this
      exact this.symm
    have ht : s = (fi.op n).2 := by
      have k1 := h4.2.2.2.2.1 0
      rw [Matrix.mulVec_zero, zero_add] at k1
      have : (t.q.op n).1.mulVec s = (t.q.op n).1.mulVec (fi.op n).2 := add_right_cancel (k1.trans hs.symm)
      have := congrArg B.mulVec this
      rwa [Matrix.mulVec_mulVec, Matrix.mulVec_mulVec, h4.2.2.2.1, Matrix.one_mulVec, Matrix.one_mulVec] at this
    unfold IsChange
    rw [← hB, ← ht]
    exact h4

theorem op_one {n : Nat} {q : Q} (hq : shape n q = true) (h : q.op n = Op.one) : q = idQ := by
  have hA : ∀ i j : Fin n, ((q.row i).coef j : ℚ) / 24 = (1 : Matrix (Fin n) (Fin n) ℚ) i j := fun i j => by
    have := congrFun (congrFun (congrArg Prod.fst h) i) j
    exact this
  have hs : ∀ i : Fin n, ((q.row i).s : ℚ) / 24 = 0 := fun i => congrFun (congrArg Prod.snd h) i
  obtain ⟨⟨a0, b0, c0, s0⟩, ⟨a1, b1, c1, s1⟩, ⟨a2, b2, c2, s2⟩⟩ := q
  rcases shape_dim hq with rfl | rfl | rfl
  · simp [shape] at hq
    have h1 := hA 0 0
    have h2 := hs 0
    simp [Q.row, R.coef] at h1 h2
    rw [div_eq_iff (by norm_num)] at h1
    obtain ⟨rfl, rfl, ⟨rfl, rfl, rfl, rfl⟩, rfl, rfl, rfl, rfl⟩ := hq
    have : a0 = 24 := by exact_mod_cast (by linarith : (a0 : ℚ) = 24)
    subst this h2
    rfl
  · simp [shape] at hq
    have h1 := hA 0 0
    have h2 := hA 0 1
    have h3 := hA 1 0
    have h4 := hA 1 1
    have h5 := hs 0
    have h6 := hs 1
    simp [Q.row, R.coef] at h1 h2 h3 h4 h5 h6
    rw [div_eq_iff (by norm_num)] at h1 h4
    obtain ⟨rfl, rfl, rfl, rfl, rfl, rfl⟩ := hq
    have e1 : a0 = 24 := by exact_mod_cast (by linarith : (a0 : ℚ) = 24)
    have e2 : b1 = 24 := by exact_mod_cast (by linarith : (b1 : ℚ) = 24)
    subst e1 e2 h2 h3 h5 h6
    rfl
  · have h1 := hA 0 0
    have h2 := hA 0 1
    have h3 := hA 0 2
    have h4 := hA 1 0
    have h5 := hA 1 1
    have h6 := hA 1 2
    have h7 := hA 2 0
    have h8 := hA 2 1
    have h9 := hA 2 2
    have k1 := hs 0
    have k2 := hs 1
    have k3 := hs 2
    simp [Q.row, R.coef] at h1 h2 h3 h4 h5 h6 h7 h8 h9 k1 k2 k3
    rw [div_eq_iff (by norm_num)] at h1 h5 h9
    have e1 : a0 = 24 := by exact_mod_cast (by linarith : (a0 : ℚ) = 24)
    have e2 : b1 = 24 := by exact_mod_cast (by linarith : (b1 : ℚ) = 24)
    have e3 : c2 = 24 := by exact_mod_cast (by linarith : (c2 : ℚ) = 24)
    subst e1 e2 e3 h2 h3 h4 h6 h7 h8 k1 k2 k3
    rfl

/-- the program recognises the identity -/
theorem change_identity {n : Nat} (hn : n = 1 ∨ n = 2 ∨ n = 3) {t : Tr} {fi : Q} {c : CoordMap ℚ} (hs : shape n t.q = true)
    (h : coordFromString (t.text n) = .ok (some c)) (hc : IsChange c (t.q.op n) (fi.op n)) :
    coordIsIdentity c = .ok (decide (t.q = idQ)) := by
  obtain ⟨b, hb⟩ := isIdentity_ok h
  rw [hb]
  congr 1
  have h1 := identity_setting h hb
  have h2 : (∃ k, IsAff (n := k) c.forward 1 0) ↔ t.q = idQ := by
    constructor
    · rintro ⟨k, hk⟩
      have hf := hc.1
      have : k = n := by
        have e1 := hk.1.1
        have e2 := hf.1.1
        omega
      subst this
      obtain ⟨e1, e2⟩ := IsAff.inj hk hf
      exact op_one hs (Prod.ext e1.symm e2.symm)
    · intro e
      refine ⟨n, ?_⟩
      have := hc.1
      rw [e, idQ_op hn] at this
      exact this
  rw [h2] at h1
  cases b
  · simpa using h1
  · simpa using h1

/-! ### the lines -/

/-- letters, digits and signs -/
noncomputable def nameOk (w : List Char) : Bool :=
  match w with
  | [] => false
  | c :: cs => decide (c ≠ '#') && allB (fun c => Nat.ble 33 c.toNat && Nat.ble c.toNat 126) (c :: cs)

theorem nameOk_sound {w : List Char} (h : nameOk w = true) :
    IsWord w ∧ w.head? ≠ some '#' ∧ ∀ c ∈ w, c.toNat < 128 := by
  cases w with
  | nil => cases h
  | cons c cs =>
    simp only [nameOk, Bool.and_eq_true, decide_eq_true_eq, allB_iff] at h
    have key : ∀ x ∈ c :: cs, 33 ≤ x.toNat ∧ x.toNat ≤ 126 := fun x hx =>
      ⟨Nat.le_of_ble_eq_true (h.2 x hx).1, Nat.le_of_ble_eq_true (h.2 x hx).2⟩
    refine ⟨⟨by simp, fun x hx => ?_⟩, by simpa using h.1, fun x hx => by have := key x hx; omega⟩
    have := key x hx
    rw [← Bool.not_eq_true, C62_white]
    intro h'
    simp only [List.mem_cons, List.not_mem_nil, or_false] at h'
    omega

/-- a line of a lookup; `o` has the change of coordinates, the translations among the operators of the setting, and
certificates for the comparison with the lattice of the centering -/
structure Look where
  name : List Char
  system : CrystalSystem
  centering : Centering
  block : Nat
  o : Other

/-- a stretch of the table -/
inductive Item
  | nothing (l : List Char)
  | block (b : Block)
  | alias_ (a b : List Char)
  | look (l : Look)

/-- the lines of a setting -/
def Setting.lines (s : Setting) : List (List Char) :=
  joinW [s.name, s.tr.text s.dim] :: s.ops.map (fun t => indent s.aligned (t.text s.dim) ++ t.text s.dim)

/-- the lines of a block -/
def Block.lines (b : Block) : List (List Char) := b.c.lines ++ b.others.flatMap (fun o => o.s.lines)

/-- the line of a lookup -/
def Look.line (l : Look) : List Char :=
  joinW [lookupText, l.name, systemText l.system, l.centering.text, l.o.s.tr.text l.o.s.dim]

/-- the lines -/
def Item.lines : Item → List (List Char)
  | .nothing l => [l]
  | .block b => b.lines
  | .alias_ a b => [joinW [aliasText, a, b]]
  | .look l => [l.line]

/-- a name that is not a keyword -/
noncomputable def settingNameOk (w : List Char) : Bool :=
  nameOk w && decide (lowerLetters w ≠ aliasText) && decide (lowerLetters w ≠ lookupText)

/-- the checks of the names -/
noncomputable def Item.namesOk : Item → Bool
  | .nothing l => decide (IsNothing l)
  | .block b => settingNameOk b.c.name && allB (fun o : Other => settingNameOk o.s.name) b.others
  | .alias_ a b => nameOk a && nameOk b
  | .look l => nameOk l.name

theorem lowersAscii_lowerLetters : LowersAscii lowerLetters := fun _ _ => rfl

/-! ### running the parser over the lines -/

/-- the program's entry `x` is the setting `s` with the canonical name `k` -/
def IsEntry (s : Setting) (k : List Char) (x : List Char × TableEntry) : Prop :=
  x.1 = s.name ∧ x.2.name = s.name ∧ x.2.canonicalName = k ∧
  IsChange x.2.transform (s.tr.q.op s.dim) (s.trInv.op s.dim) ∧ AreOps x.2.operators (s.maps s.dim)

theorem mapInsert_fresh {V : Type} {m : List (List Char × V)} {k : List Char} (h : k ∉ m.map Prod.fst) (v : V) :
    mapInsert m k v = m ++ [(k, v)] := by
  unfold mapInsert
  rw [List.filter_eq_self.2]
  intro p hp
  simp only [ne_eq, decide_eq_true_eq]
  rintro rfl
  exact h (List.mem_map_of_mem hp)

theorem mapInsert_last {V : Type} {m : List (List Char × V)} {k : List Char} (h : k ∉ m.map Prod.fst) (v v' : V) :
    mapInsert (m ++ [(k, v)]) k v' = m ++ [(k, v')] := by
  rw [← mapInsert_fresh h v']
  unfold mapInsert
  rw [List.filter_append]
  simp

theorem mapGet_last {V : Type} {m : List (List Char × V)} {k : List Char} (h : k ∉ m.map Prod.fst) (v : V) :
    mapGet (m ++ [(k, v)]) k = some v := by
  rw [← mapInsert_fresh h]
  exact mapGet_insert _ _ _

theorem run_cons {st st' : TableState} {l : List Char} {ls : List (List Char)} (h : tableStep lower st l = .ok (some st')) :
    run lower st (l :: ls) = run lower st' ls := by
  rw [run, bind_ok h]

theorem run_app {st st' : TableState} {a b : List (List Char)} (h : run lower st a = .ok (some st')) :
    run lower st (a ++ b) = run lower st' b := by
  rw [run_append, bind_ok h]

theorem run_ops {n : Nat} (hn : n = 1 ∨ n = 2 ∨ n = 3) (al : Bool) (ts : List Tr) :
    ∀ (st : TableState) (m : List (List Char × TableEntry)) (k : List Char) (e : TableEntry), k ∉ m.map Prod.fst →
      st.settings = m ++ [(k, e)] → st.currentName = k →
      ∃ ops, AreOps ops (ts.map (fun t => t.q.op n)) ∧
        run lower st (ts.map (fun t => indent al (t.text n) ++ t.text n)) =
          .ok (some { st with settings := m ++ [(k, { e with operators := e.operators ++ ops })] }) := by
  induction ts with
  | nil =>
    intro st m k e hk hs hc
    refine ⟨[], .nil, ?_⟩
    change Outcome.ok (some st) = _
    rw [List.append_nil, ← hs]
  | cons t ts ih =>
    intro st m k e hk hs hc
    obtain ⟨h1, h2⟩ := operator_line al n t
    obtain ⟨a, h3, h4⟩ := tr_parse hn t
    have hstep : tableStep lower st (indent al (t.text n) ++ t.text n) =
        .ok (some { st with settings := m ++ [(k, { e with operators := e.operators ++ [a] })] }) := by
      rw [step_operator h1, h2, bind_ok h3]
      simp only
      rw [hs, hc, mapGet_last hk]
      simp only
      rw [mapInsert_last hk]
    obtain ⟨ops, h5, h6⟩ := ih { st with settings := m ++ [(k, { e with operators := e.operators ++ [a] })] } m k _ hk rfl hc
    refine ⟨a :: ops, .cons h4 h5, ?_⟩
    rw [List.map_cons, run_cons hstep, h6]
    simp

theorem run_setting {s : Setting} (hl : LowersAscii lower) (hn : s.dim = 1 ∨ s.dim = 2 ∨ s.dim = 3)
    (hs : shape s.dim s.tr.q = true)
    (hinv : (s.tr.q.op s.dim).comp (s.trInv.op s.dim) = Op.one) (hname : settingNameOk s.name = true) (st : TableState)
    (hfresh : s.name ∉ st.settings.map Prod.fst) :
    ∃ x, IsEntry s (if s.tr.q = idQ then s.name else st.canonicalName) x ∧ run lower st s.lines = .ok (some
      { st with settings := st.settings ++ [x],
                canonicalName := if s.tr.q = idQ then s.name else st.canonicalName, currentName := s.name }) := by
  simp only [settingNameOk, Bool.and_eq_true, decide_eq_true_eq] at hname
  obtain ⟨⟨hname, k1⟩, k2⟩ := hname
  obtain ⟨w1, w2, w3⟩ := nameOk_sound hname
  obtain ⟨c, h1, h2⟩ := change_parse hn s.tr s.trInv hinv
  obtain ⟨h3, h4⟩ := starts_joinW (w := s.name) (ws := [s.tr.text s.dim]) (by
    intro x hx
    simp only [List.mem_cons, List.not_mem_nil, or_false] at hx
    rcases hx with rfl | rfl
    exacts [w1, (tr_word _ _).1]) w2
  have hset : IsSetting lower (joinW [s.name, s.tr.text s.dim]) s.name :=
    ⟨h3, by rw [hl _ w3]; exact k1, by rw [hl _ w3]; exact k2⟩
  have ht : transformOf (joinW [s.name, s.tr.text s.dim]) = .ok (some c) := by
    unfold transformOf
    rw [h4]
    change coordFromString (joinSpace [s.tr.text s.dim]) = _
    rw [show joinSpace [s.tr.text s.dim] = s.tr.text s.dim by simp [joinSpace, List.intercalate]]
    exact h1
  have hid := change_identity hn hs h1 h2
  have hstep : tableStep lower st (joinW [s.name, s.tr.text s.dim]) = .ok (some { st with
      canonicalName := if s.tr.q = idQ then s.name else st.canonicalName
      currentName := s.name
      settings := st.settings ++ [(s.name, ⟨s.name, if s.tr.q = idQ then s.name else st.canonicalName, c, []⟩)] }) := by
    rw [step_setting hset, bind_ok ht]
    simp only
    rw [bind_ok hid, mapInsert_fresh hfresh]
    simp
  obtain ⟨ops, h5, h6⟩ := run_ops (lower := lower) hn s.aligned s.ops { st with
      canonicalName := if s.tr.q = idQ then s.name else st.canonicalName
      currentName := s.name
      settings := st.settings ++ [(s.name, ⟨s.name, if s.tr.q = idQ then s.name else st.canonicalName, c, []⟩)] }
    st.settings s.name _ hfresh rfl rfl
  refine ⟨(s.name, ⟨s.name, if s.tr.q = idQ then s.name else st.canonicalName, c, ops⟩), ⟨rfl, rfl, rfl, h2, h5⟩, ?_⟩
  unfold Setting.lines
  rw [run_cons hstep, h6]
  rfl

/-- the settings of an item, with their canonical names -/
def Item.settings : Item → List (Setting × List Char)
  | .block b => (b.c, b.c.name) :: b.others.map (fun o => (o.s, b.c.name))
  | _ => []

/-- the aliases of an item -/
def Item.aliases : Item → List (List Char × List Char)
  | .alias_ a b => [(a, b)]
  | _ => []

/-- the lookups of an item -/
def Item.looks : Item → List Look
  | .look l => [l]
  | _ => []

/-- the program's lookup `e` is the line `l` -/
def IsLook (l : Look) (e : Lookup) : Prop :=
  e.name = l.name ∧ e.system = l.system ∧ e.centering = l.centering ∧
  IsChange e.fromStd (l.o.s.tr.q.op l.o.s.dim) (l.o.s.trInv.op l.o.s.dim)

/-- the checks -/
def Item.Good (i : Item) : Prop :=
  i.namesOk = true ∧
  match i with
  | .block b => b.ok = true
  | .look l => ∃ c, c.groupOk = true ∧ l.o.ok c = true
  | _ => True

theorem run_others (hl : LowersAscii lower) {k : List Char} (os : List Other) :
    (∀ o ∈ os, settingNameOk o.s.name = true ∧ shape o.s.dim o.s.tr.q = true ∧ o.s.tr.q ≠ idQ ∧ ∃ c, Linked o.s c) →
    ∀ st : TableState, st.canonicalName = k → (st.settings.map Prod.fst ++ os.map (fun o => o.s.name)).Nodup →
    ∃ xs, List.Forall₂ (fun p x => IsEntry p.1 p.2 x) (os.map (fun o => (o.s, k))) xs ∧
      ∃ cur, run lower st (os.flatMap (fun o => o.s.lines)) =
        .ok (some { st with settings := st.settings ++ xs, currentName := cur }) := by
  induction os with
  | nil =>
    intro _ st _ _
    exact ⟨[], .nil, st.currentName, by rw [List.append_nil]; rfl⟩
  | cons o os ih =>
    intro hos st hk hnd
    obtain ⟨h1, h2, h3, c, h4⟩ := hos o (by simp)
    have hfresh : o.s.name ∉ st.settings.map Prod.fst := by
      intro h
      exact (List.nodup_append.1 hnd).2.2 _ h _ (by simp) rfl
    obtain ⟨x, h5, h6⟩ := run_setting hl h4.dims h2 h4.inv h1 st hfresh
    rw [if_neg h3, hk] at h5 h6
    obtain ⟨xs, h7, cur, h8⟩ := ih (fun o ho => hos o (by simp [ho]))
      { st with settings := st.settings ++ [x], canonicalName := k, currentName := o.s.name } rfl (by
        rw [List.map_append, List.append_assoc]
        simpa [h5.1] using hnd)
    refine ⟨x :: xs, .cons h5 h7, cur, ?_⟩
    rw [List.flatMap_cons, run_app h6, h8]
    simp [hk]

theorem run_block (hl : LowersAscii lower) {b : Block} (hb : b.ok = true) (hn : (Item.block b).namesOk = true)
    (st : TableState) (hnd : (st.settings.map Prod.fst ++ (Item.block b).settings.map (fun p => p.1.name)).Nodup) :
    ∃ xs, List.Forall₂ (fun p x => IsEntry p.1 p.2 x) (Item.block b).settings xs ∧
      ∃ can cur, run lower st (Item.block b).lines =
        .ok (some { st with settings := st.settings ++ xs, canonicalName := can, currentName := cur }) := by
  obtain ⟨h1, h2, h3, h4⟩ := Block.sound hb
  simp only [Item.namesOk, Bool.and_eq_true, allB_iff] at hn
  simp only [Item.settings, List.map_cons, List.map_map] at hnd
  have hfresh : b.c.name ∉ st.settings.map Prod.fst := by
    intro h
    exact (List.nodup_append.1 hnd).2.2 _ h _ (by simp) rfl
  obtain ⟨x, h5, h6⟩ := run_setting hl h3.dims (by rw [h2]; exact idQ_shape h3.dims) h3.inv hn.1 st hfresh
  rw [if_pos h2] at h5 h6
  obtain ⟨xs, h7, cur, h8⟩ := run_others (k := b.c.name) hl b.others
    (fun o ho => ⟨hn.2 o ho, (h4 o ho).2.2.1, (h4 o ho).2.2.2, _, (h4 o ho).2.1⟩)
    { st with settings := st.settings ++ [x], canonicalName := b.c.name, currentName := b.c.name } rfl (by
        rw [List.map_append, List.append_assoc]
        simpa [h5.1, Function.comp_def] using hnd)
  refine ⟨x :: xs, .cons h5 h7, b.c.name, cur, ?_⟩
  change run lower st (b.c.lines ++ _) = _
  rw [run_app h6, h8]
  simp

theorem lower_alias (hl : LowersAscii lower) : lower aliasText = aliasText := by
  rw [hl _ (by decide)]; decide

theorem lower_lookup (hl : LowersAscii lower) : lower lookupText = lookupText := by
  rw [hl _ (by decide)]; decide

theorem lower_system (hl : LowersAscii lower) (x : CrystalSystem) : lower (systemText x) = systemText x := by
  rw [hl _ (by cases x <;> decide)]; cases x <;> decide

theorem system_word (x : CrystalSystem) : IsWord (systemText x) := by
  unfold IsWord
  cases x <;> decide

theorem centering_word (x : Centering) : IsWord x.text := by
  unfold IsWord
  cases x <;> decide

theorem run_look (hl : LowersAscii lower) {l : Look} (hn : nameOk l.name = true) {c : Setting} (hc : c.groupOk = true)
    (h : l.o.ok c = true) (st : TableState) :
    ∃ e, IsLook l e ∧ tableStep lower st l.line = .ok (some { st with lookup := st.lookup ++ [e] }) := by
  obtain ⟨-, h1, -⟩ := Other.sound hc h
  obtain ⟨w1, -, -⟩ := nameOk_sound hn
  obtain ⟨m, h2, h3⟩ := change_parse h1.dims l.o.s.tr l.o.s.trInv h1.inv
  obtain ⟨h4, h5⟩ := starts_joinW (w := lookupText) (ws := [l.name, systemText l.system, l.centering.text, l.o.s.tr.text l.o.s.dim]) (by
    intro x hx
    simp only [List.mem_cons, List.not_mem_nil, or_false] at hx
    rcases hx with rfl | rfl | rfl | rfl | rfl
    exacts [by unfold IsWord; decide, w1, system_word _, centering_word _, (tr_word _ _).1]) (by decide)
  have hlook : IsLookup lower l.line := ⟨_, h4, by rw [lower_lookup hl]; decide, lower_lookup hl⟩
  refine ⟨⟨l.name, l.system, l.centering, m⟩, ⟨rfl, rfl, rfl, h3⟩, ?_⟩
  have hsays : Says lower l.line ⟨l.name, l.system, l.centering, m⟩ := by
    refine ⟨systemText l.system, l.centering.text, ?_, ?_, C63_system_round_trip (lower_system hl) _, ?_,
      (C63_centering _ _).2 rfl, ?_⟩
    · change (wordsOf (joinW _))[1]? = _; rw [h5]; rfl
    · change (wordsOf (joinW _))[2]? = _; rw [h5]; rfl
    · change (wordsOf (joinW _))[3]? = _; rw [h5]; rfl
    · change coordFromString (joinSpace ((wordsOf (joinW _)).drop 4)) = _
      rw [h5]
      change coordFromString (joinSpace [l.o.s.tr.text l.o.s.dim]) = _
      rw [show joinSpace [l.o.s.tr.text l.o.s.dim] = l.o.s.tr.text l.o.s.dim by simp [joinSpace, List.intercalate]]
      exact h2
  rw [step_lookup hlook, bind_ok (makeLookupEntry_says hsays)]

theorem step_alias {a b : List Char} (hl : LowersAscii lower) (ha : nameOk a = true) (hb : nameOk b = true) (st : TableState)
    (hfresh : a ∉ st.alias_.map Prod.fst) :
    tableStep lower st (joinW [aliasText, a, b]) = .ok (some { st with alias_ := st.alias_ ++ [(a, b)] }) := by
  obtain ⟨h4, h5⟩ := starts_joinW (w := aliasText) (ws := [a, b]) (by
    intro x hx
    simp only [List.mem_cons, List.not_mem_nil, or_false] at hx
    rcases hx with rfl | rfl | rfl
    exacts [by unfold IsWord; decide, (nameOk_sound ha).1, (nameOk_sound hb).1]) (by decide)
  obtain ⟨h1, h2, h3⟩ := h4
  have h1 : ¬ (trim (joinW [aliasText, a, b]) = [] ∨ (trim (joinW [aliasText, a, b])).head? = some '#') := h1
  have h5 : splitWhitespace (trim (joinW [aliasText, a, b])) = [aliasText, a, b] := h5
  unfold tableStep
  simp only
  rw [if_neg h1, if_neg h2, h5]
  change (if lower aliasText = aliasText then _ else _) = _
  rw [if_pos (lower_alias hl)]
  change Outcome.ok (some { st with alias_ := mapInsert st.alias_ a b }) = _
  rw [mapInsert_fresh hfresh]

/-- the parser reads the items one after the other -/
theorem run_items (hl : LowersAscii lower) (items : List Item) : ∀ (st : TableState), (∀ i ∈ items, i.Good) →
    (st.settings.map Prod.fst ++ (items.flatMap Item.settings).map (fun p => p.1.name)).Nodup →
    (st.alias_.map Prod.fst ++ (items.flatMap Item.aliases).map Prod.fst).Nodup →
    ∃ st', run lower st (items.flatMap Item.lines) = .ok (some st') ∧
      (∃ xs, List.Forall₂ (fun p x => IsEntry p.1 p.2 x) (items.flatMap Item.settings) xs ∧ st'.settings = st.settings ++ xs) ∧
      st'.alias_ = st.alias_ ++ items.flatMap Item.aliases ∧
      (∃ ls, List.Forall₂ IsLook (items.flatMap Item.looks) ls ∧ st'.lookup = st.lookup ++ ls) := by
  induction items with
  | nil => exact fun st _ _ _ => ⟨st, rfl, ⟨[], .nil, by simp⟩, by simp, ⟨[], .nil, by simp⟩⟩
  | cons i items ih =>
    intro st hg hnd hna
    have hgi := hg i (by simp)
    have ih := fun st => ih st (fun i hi => hg i (by simp [hi]))
    simp only [List.flatMap_cons, List.map_append] at hnd hna ⊢
    cases i with
    | nothing l =>
      have hn : trim l = [] ∨ (trim l).head? = some '#' := of_decide_eq_true (p := IsNothing l) hgi.1
      have hstep : tableStep lower st l = .ok (some st) := by
        unfold tableStep
        simp only
        rw [if_pos hn]
      obtain ⟨st', h1, h2, h3, h4⟩ := ih st (by simpa [Item.settings] using hnd) (by simpa [Item.aliases] using hna)
      refine ⟨st', ?_, by simpa [Item.settings] using h2, by simpa [Item.aliases] using h3, by simpa [Item.looks] using h4⟩
      change run lower st (l :: _) = _
      rw [run_cons hstep]
      exact h1
    | block b =>
      obtain ⟨xs, h1, can, cur, h2⟩ := run_block hl hgi.2 hgi.1 st (by
        rw [← List.append_assoc] at hnd
        exact (List.nodup_append.1 hnd).1)
      have he : xs.map Prod.fst = (Item.block b).settings.map (fun p => p.1.name) := by
        have : List.Forall₂ (fun a b => a = b) ((Item.block b).settings.map (fun p => p.1.name)) (xs.map Prod.fst) := by
          rw [List.forall₂_map_left_iff, List.forall₂_map_right_iff]
          exact h1.imp (fun p x hx => hx.1.symm)
        exact (List.forall₂_eq_eq_eq ▸ this : _ = _).symm
      obtain ⟨st', h3, ⟨ys, h4, h5⟩, h6, h7⟩ := ih
        { st with settings := st.settings ++ xs, canonicalName := can, currentName := cur }
        (by rw [List.map_append, he, List.append_assoc]; exact hnd)
        (by simpa [Item.aliases] using hna)
      refine ⟨st', ?_, ⟨xs ++ ys, List.rel_append h1 h4, by rw [h5, List.append_assoc]⟩, by simpa [Item.aliases] using h6,
        by simpa [Item.looks] using h7⟩
      rw [run_app h2]
      exact h3
    | alias_ a b =>
      have hn := hgi.1
      simp only [Item.namesOk, Bool.and_eq_true] at hn
      have hstep := step_alias hl hn.1 hn.2 st (by
        intro h
        exact (List.nodup_append.1 hna).2.2 _ h _ (by simp [Item.aliases]) rfl)
      obtain ⟨st', h1, h2, h3, h4⟩ := ih { st with alias_ := st.alias_ ++ [(a, b)] }
        (by simpa [Item.settings] using hnd) (by simpa [Item.aliases] using hna)
      refine ⟨st', ?_, by simpa [Item.settings] using h2, by simpa [Item.aliases] using h3, by simpa [Item.looks] using h4⟩
      change run lower st (joinW [aliasText, a, b] :: _) = _
      rw [run_cons hstep]
      exact h1
    | look l =>
      obtain ⟨c, hc, hok⟩ := hgi.2
      obtain ⟨e, he, hstep⟩ := run_look hl hgi.1 hc hok st
      obtain ⟨st', h1, h2, h3, ls, h4, h5⟩ := ih { st with lookup := st.lookup ++ [e] }
        (by simpa [Item.settings] using hnd) (by simpa [Item.aliases] using hna)
      refine ⟨st', ?_, by simpa [Item.settings] using h2, by simpa [Item.aliases] using h3, ⟨e :: ls, .cons he h4, by simpa using h5⟩⟩
      change run lower st (l.line :: _) = _
      rw [run_cons hstep]
      exact h1

/-- the table that the parser makes of the lines of the items -/
theorem parse_items (hl : LowersAscii lower) {items : List Item} (hg : ∀ i ∈ items, i.Good)
    (hnd : ((items.flatMap Item.settings).map (fun p => p.1.name)).Nodup) (hna : ((items.flatMap Item.aliases).map Prod.fst).Nodup) :
    ∃ T, parseTable lower ((items.flatMap Item.lines).map some) = .ok (some T) ∧
      List.Forall₂ (fun p x => IsEntry p.1 p.2 x) (items.flatMap Item.settings) T.settings ∧
      T.alias_ = items.flatMap Item.aliases ∧ List.Forall₂ IsLook (items.flatMap Item.looks) T.lookup := by
  obtain ⟨st, h1, ⟨xs, h2, h3⟩, h4, ⟨ls, h5, h6⟩⟩ := run_items hl items init hg (by simpa [init] using hnd) (by simpa [init] using hna)
  refine ⟨st.tables, ?_, ?_, ?_, ?_⟩
  · have := loop_run (lower := lower) init (items.flatMap Item.lines) []
    rw [List.append_nil] at this
    unfold parseTable
    change tableLoop lower init _ = _
    rw [this, bind_ok h1]
    rfl
  · change List.Forall₂ _ _ st.settings
    rw [h3]
    exact h2
  · change st.alias_ = _
    rw [h4]
    rfl
  · change List.Forall₂ _ _ st.lookup
    rw [h6]
    exact h5

end Systre.Sg
