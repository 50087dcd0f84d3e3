import Verif.Lemmas.SgPlain
import Verif.Lemmas.Generate
import Verif.Model.TablesProgram
import Verif.Props.Display

/-!
# C82: the printed form of the shipped table of space groups (src/data/sgtable.data, src/spacegroups/parse_table.rs,
examples/read_spacegroup_tables.rs)
-/

namespace Systre
open Table ParseOperator Sg OpText Report

variable {lower : List Char → List Char}

namespace Sg

/-- the affine map as the program stores it -/
def Q.aff (n : Nat) (q : Q) : AffineMap ℚ :=
  ⟨⟨n, n, (List.range n).flatMap (fun i => (List.range n).map (fun j => ((q.row i).coef j : ℚ) / 24))⟩,
    ⟨⟨n, 1, (List.range n).map (fun i => ((q.row i).s : ℚ) / 24)⟩⟩⟩

theorem Q.aff_isAff {n : Nat} (hn : n = 1 ∨ n = 2 ∨ n = 3) (q : Q) : IsAff (q.aff n) (q.op n).1 (q.op n).2 := by
  rcases hn with rfl | rfl | rfl
  all_goals
    refine ⟨⟨rfl, rfl, rfl, by norm_num, ?_⟩, rfl, rfl, rfl, by norm_num, ?_⟩
    · intro i j; fin_cases i <;> fin_cases j <;> rfl
    · intro i j; fin_cases i <;> fin_cases j <;> rfl

theorem areOps_eq {n : Nat} (hn : n = 1 ∨ n = 2 ∨ n = 3) {l : List (AffineMap ℚ)} {ts : List Tr}
    (h : AreOps l (ts.map (fun t => t.q.op n))) : l = ts.map (fun t => t.q.aff n) := by
  induction ts generalizing l with
  | nil => cases h; rfl
  | cons t ts ih =>
    cases h with
    | cons h1 h2 => rw [List.map_cons, ← ih h2, h1.unique (Q.aff_isAff hn t.q)]

/-- what is printed for a setting of the table -/
noncomputable def Setting.shown (s : Setting) (k : List Char) : Outcome (List Char) :=
  (⟨s.name, k, ⟨s.tr.q.aff s.dim, s.tr.q.aff s.dim⟩, s.ops.map (fun t => t.q.aff s.dim)⟩ : TableEntry).text

theorem entry_shown {s : Setting} {k : List Char} {x : List Char × TableEntry} (hn : s.dim = 1 ∨ s.dim = 2 ∨ s.dim = 3)
    (h : IsEntry s k x) : x.2.text = s.shown k := by
  obtain ⟨-, h1, h2, h3, h4⟩ := h
  have h5 := areOps_eq hn h4
  have h6 : x.2.transform.forward = s.tr.q.aff s.dim := h3.1.unique (Q.aff_isAff hn _)
  unfold Setting.shown TableEntry.text
  simp only [h1, h2, h5, h6]

/-- what is printed for a lookup of the table -/
noncomputable def Look.shown (l : Look) : Outcome (List Char) :=
  (⟨l.name, l.system, l.centering, ⟨l.o.s.tr.q.aff l.o.s.dim, l.o.s.tr.q.aff l.o.s.dim⟩⟩ : Lookup).text

theorem look_shown {l : Look} {e : Lookup} (hn : l.o.s.dim = 1 ∨ l.o.s.dim = 2 ∨ l.o.s.dim = 3)
    (h : IsLook l e) : e.text = l.shown := by
  obtain ⟨h1, h2, h3, h4⟩ := h
  have h6 : e.fromStd.forward = l.o.s.tr.q.aff l.o.s.dim := h4.1.unique (Q.aff_isAff hn _)
  unfold Look.shown Lookup.text
  simp only [h1, h2, h3, h6]

end Sg

open Sg.Data

/-- a line of text that is printed for a map, and read back as the same map unless a shift is 1 or -1 -/
def Shows (a : AffineMap ℚ) (t : List Char) : Prop :=
  '\n' ∉ t ∧ ∃ (n : Nat) (A : Matrix (Fin n) (Fin n) ℚ) (s : Fin n → ℚ), IsAff a A s ∧
    (affFromString t = .ok (some a) ↔ ∀ i, s i ≠ 1 ∧ s i ≠ -1)

theorem Sg.shows {n : Nat} (hn : n = 1 ∨ n = 2 ∨ n = 3) {q : Q} (hq : q.small = true) {a : AffineMap ℚ}
    (h : IsAff a (q.op n).1 (q.op n).2) : ∃ t, writeOpAny a = .ok t ∧ Shows a t ∧ (q.plain = true → affFromString t = .ok (some a)) := by
  obtain ⟨h1, h2⟩ := q.small_sound hq n
  have hp : 1 ≤ n := by omega
  have hp3 : n ≤ 3 := by omega
  obtain ⟨t, h3, h4⟩ := C58_round_trip_partial n hp hp3 a _ _ h h1 h2
  obtain ⟨t', h5, h6⟩ := writeOpAny_ok ⟨n, _, _, hp, hp3, h⟩
  have hd : a.dim = n := h.2.rows
  have h7 : writeOpAny a = .ok t := by
    unfold writeOpAny
    rw [if_neg (by omega), h3]
  have e := Outcome.ok.inj (h7.symm.trans h5)
  subst e
  exact ⟨t, h5, ⟨h6, n, _, _, h, h4⟩, fun hpl => h4.2 (q.plain_sound hpl n)⟩

/-- **C82** (settings, partial). Printing a setting of the shipped table does not panic, and gives these lines: its name,
the name of its group, the change of coordinates, which is read back as the same map, and then one line per operator, in
the order of the table, which is read back as the same operator unless a coordinate of its shift is 1 or -1. Missing: those
operators (`C82_operator_refuted`). -/
theorem C82_setting_partial (hl : LowersAscii lower) (T : Tables) (h : Shipped lower T) (name : List Char) (e : TableEntry)
    (he : mapGet T.settings name = some e) : ∃ t ts,
      e.text = .ok ("Setting Name: ".toList ++ name ++ "\nGroup name: ".toList ++ e.canonicalName ++ "\nTransform: ".toList ++ t ++
        "\nOperators:\n".toList ++ ts.flatMap (fun t => t ++ ['\n'])) ∧
      Shows e.transform.forward t ∧ affFromString t = .ok (some e.transform.forward) ∧ List.Forall₂ Shows e.operators ts := by
  obtain ⟨h1, -, -⟩ := shipped_of hl h
  obtain ⟨p, hp, h2⟩ := forall₂_right h1 (mapGet_mem he)
  have hpl := setting_plain hp
  simp only [Setting.plain, Bool.and_eq_true, allB_iff] at hpl
  obtain ⟨b, hb, -, hg, -⟩ := settings_block hp
  obtain ⟨hn, -⟩ := Setting.group_sound hg
  obtain ⟨h3, h4, -, h5, h6⟩ := h2
  obtain ⟨t, k1, k2, k3⟩ := Sg.shows hn hpl.1.2 h5.1
  have hops : ∀ {ts : List Tr} {l : List (AffineMap ℚ)}, AreOps l (ts.map (fun t => t.q.op p.1.dim)) →
      (∀ t ∈ ts, t.q.small = true) → ∃ us : List (List Char), omap (fun op => do
      let t ← writeOpAny op
      .ok (t ++ ['\n'])) l = .ok (us.map (fun t => t ++ ['\n'])) ∧ List.Forall₂ Shows l us := by
    intro ts
    induction ts with
    | nil => intro l hl _; cases hl; exact ⟨[], rfl, .nil⟩
    | cons t ts ih =>
      intro l hl hs
      cases hl with
      | cons g1 g2 =>
        obtain ⟨us, g3, g4⟩ := ih g2 (fun x hx => hs x (by simp [hx]))
        obtain ⟨u, g5, g6, -⟩ := Sg.shows hn (hs t (by simp)) g1
        refine ⟨u :: us, ?_, .cons g6 g4⟩
        simp only [omap, g5, g3, Outcome.ok_bind]
        rfl
  obtain ⟨us, k4, k5⟩ := hops h6 hpl.2
  refine ⟨t, us, ?_, k2, k3 hpl.1.1, k5⟩
  have hname : name = p.1.name := h3
  rw [entry_text k1 k4, h4, ← hname]
  have e1 : "\nGroup name: ".toList = '\n' :: "Group name: ".toList := by decide +kernel
  have e2 : "\nTransform: ".toList = '\n' :: "Transform: ".toList := by decide +kernel
  have e3 : "\nOperators:\n".toList = '\n' :: ("Operators:".toList ++ ['\n']) := by decide +kernel
  rw [e1, e2, e3, List.flatMap_def]
  simp only [List.append_assoc, List.cons_append, List.nil_append]

/-- **C82** (lookups). Printing a lookup of the shipped table does not panic; it gives its name, crystal system, centering
and change of coordinates, which is read back as the same map. -/
theorem C82_lookup (hl : LowersAscii lower) (T : Tables) (h : Shipped lower T) (l : Lookup) (hm : l ∈ T.lookup) : ∃ t,
    l.text = .ok ("Lookup name: ".toList ++ l.name ++ "\nCrystal system: ".toList ++ systemText l.system ++
      "\nCentering: ".toList ++ l.centering.text ++ "\nTransform: ".toList ++ t ++ ['\n']) ∧
    '\n' ∉ t ∧ affFromString t = .ok (some l.fromStd.forward) := by
  obtain ⟨-, -, h1⟩ := shipped_of hl h
  obtain ⟨k, hk, h2⟩ := forall₂_right h1 hm
  obtain ⟨g1, g2⟩ := look_plain hk
  obtain ⟨-, hok, -⟩ := look_ok hk
  have hn : k.o.s.dim = 1 ∨ k.o.s.dim = 2 ∨ k.o.s.dim = 3 := by
    simp only [Other.ok, Bool.and_eq_true] at hok
    exact (Setting.group_sound hok.1.1.1.1.1.1).1
  obtain ⟨t, k1, k2, k3⟩ := Sg.shows hn g2 h2.2.2.2.1
  refine ⟨t, ?_, k2.1, k3 g1⟩
  rw [lookup_text k1]
  have e1 : "\nCrystal system: ".toList = '\n' :: "Crystal system: ".toList := by decide +kernel
  have e2 : "\nTransform: ".toList = '\n' :: "Transform: ".toList := by decide +kernel
  have e3 : "\nCentering: ".toList = '\n' :: "Centering: ".toList := by decide +kernel
  rw [e1, e2, e3]
  simp only [List.append_assoc, List.cons_append, List.nil_append]

/-- **C82** (names). Settings with different names are printed as different texts. -/
theorem C82_distinct (hl : LowersAscii lower) (T : Tables) (h : Shipped lower T) (name name' : List Char) (e e' : TableEntry)
    (he : mapGet T.settings name = some e) (he' : mapGet T.settings name' = some e') (ht : e.text = e'.text) : name = name' := by
  have key : ∀ {w : List Char} {x : TableEntry}, mapGet T.settings w = some x → ∀ c ∈ w, c ≠ '\n' := by
    intro w x hx c hc
    obtain ⟨h1, -, -⟩ := shipped_of hl h
    obtain ⟨p, hp, h2⟩ := forall₂_right h1 (mapGet_mem hx)
    have hw : w = p.1.name := h2.1
    have := (nameOk_sound (names_ok hp)).1.2 c (hw ▸ hc)
    rintro rfl
    revert this
    decide
  obtain ⟨t, ts, k1, -⟩ := C82_setting_partial hl T h name e he
  obtain ⟨t', ts', k1', -⟩ := C82_setting_partial hl T h name' e' he'
  rw [k1, k1'] at ht
  have h6 := Outcome.ok.inj ht
  have e1 : "\nGroup name: ".toList = '\n' :: "Group name: ".toList := by decide +kernel
  rw [e1] at h6
  simp only [List.append_assoc, List.cons_append] at h6
  exact (span_unique (key he) (key he') (by simp) (by simp) (List.append_cancel_left h6)).1

theorem Sg.Data.block_mem {n : Nat} {b : Block} (h : nth b0 blocks n = b) : b ∈ blocks := by
  rw [← h]
  exact nth_mem (by unfold blocks; exact List.mem_cons_self) _

/-- **C82** (refuted: operators with a shift of 1). The setting A1n1 of the shipped table has the operator
`(x + 1/2, -y + 1, z + 1/2)`; it is printed as `x+1/2,-y+,z+1/2`, which is read back as the map `(x + 1/2, -y)` of the
plane. -/
theorem C82_operator_refuted (hl : LowersAscii lower) (T : Tables) (h : Shipped lower T) :
    ∃ e, mapGet T.settings "A1n1".toList = some e ∧
      e.operators[3]? = some ⟨⟨3, 3, [1, 0, 0, 0, -1, 0, 0, 0, 1]⟩, ⟨⟨3, 1, [1 / 2, 1, 1 / 2]⟩⟩⟩ ∧
      e.text = .ok ("Setting Name: A1n1\nGroup name: C1c1\nTransform: x-z,y,x\nOperators:\nx,y,z\n".toList ++
        "x+1/2,-y+1/2,z\nx,y+1/2,z+1/2\nx+1/2,-y+,z+1/2\n".toList) ∧
      affFromString "x+1/2,-y+,z+1/2".toList = .ok (some ⟨⟨2, 2, [1, 0, 0, -1]⟩, ⟨⟨2, 1, [1 / 2, 0]⟩⟩⟩) := by
  obtain ⟨h1, -, -⟩ := shipped_of hl h
  have hm : (s58, b27.c.name) ∈ items.flatMap Item.settings :=
    (block_ok (block_mem (n := 27) (b := b27) rfl)).2 _ (by simp [Item.settings, b27])
  obtain ⟨e, k1, k2⟩ := get_setting h1 hm
  have hn : s58.dim = 1 ∨ s58.dim = 2 ∨ s58.dim = 3 := Or.inr (Or.inr rfl)
  refine ⟨e, ?_, ?_, ?_, by decide +kernel⟩
  · rw [← k1]
    congr 1
  · rw [areOps_eq hn k2.2.2.2.2]
    decide +kernel
  · rw [entry_shown hn k2]
    decide +kernel

/-- the text of a call that does not panic -/
def txtOf : Outcome (List Char) → List Char
  | .ok t => t
  | _ => []

def okB : Outcome (List Char) → Bool
  | .ok _ => true
  | _ => false

theorem shown_txt {x : Outcome (List Char)} (h : okB x = true) : x = .ok (txtOf x) := by
  cases x with
  | ok t => rfl
  | panic => cases h
  | diverge => cases h

/-- the lines of the text that the program prints -/
def tablesLines : List String := [
  "Setting Name: c2mm", "Group name: c2mm", "Transform: x,y", "Operators:", "x,y", "-x,-y", "-x,y", "x,-y",
  "x+1/2,y+1/2", "-x+1/2,-y+1/2", "-x+1/2,y+1/2", "x+1/2,-y+1/2", "", "", "Setting Name: R3:R", "Group name: R3:H",
  "Transform: -1/3x+2/3y-1/3z,-2/3x+1/3y+1/3z,1/3x+1/3y+1/3z", "Operators:", "x,y,z", "z,x,y", "y,z,x", "", "",
  "Setting Name: P4132", "Group name: P4132", "Transform: x,y,z", "Operators:", "x,y,z", "-y+1/4,x+3/4,z+1/4",
  "-x+1/2,-y,z+1/2", "y+1/4,-x+1/4,z+3/4", "x+1/2,-y+1/2,-z", "y+3/4,x+1/4,-z+1/4", "-x,y+1/2,-z+1/2",
  "-y+3/4,-x+3/4,-z+3/4", "z,x,y", "-x+1/4,z+3/4,y+1/4", "-z+1/2,-x,y+1/2", "x+1/4,-z+1/4,y+3/4", "z+1/2,-x+1/2,-y",
  "x+3/4,z+1/4,-y+1/4", "-z,x+1/2,-y+1/2", "-x+3/4,-z+3/4,-y+3/4", "y,z,x", "y+1/2,-z+1/2,-x", "z+3/4,y+1/4,-x+1/4",
  "-y,z+1/2,-x+1/2", "-z+3/4,-y+3/4,-x+3/4", "-y+1/2,-z,x+1/2", "z+1/4,-y+1/4,x+3/4", "-z+1/4,y+3/4,x+1/4", "", "",
  "Pm3 -> Pm-3", "A2/a -> A12/a1", "XYZ -> <not found>", "", "", "Lookup name: p4mm", "Crystal system: square",
  "Centering: p", "Transform: x,y", "", "", "Lookup name: P4/mcc", "Crystal system: tetragonal", "Centering: P",
  "Transform: x,y,z-1/4", "", "", "Lookup name: Immm", "Crystal system: orthorhombic", "Centering: I",
  "Transform: x,y,z", "", ""]

/-- the text that the program prints -/
def tablesOutput : List Char := tablesLines.flatMap (fun l => l.toList ++ ['\n'])

theorem tables_run {T : Tables} {t1 t2 t3 t4 t5 t6 t7 t8 t9 : List Char} (h : shippedTables lower = .ok T)
    (h1 : printSetting T "c2mm".toList = ⟨t1, .ok ()⟩) (h2 : printSetting T "R3:R".toList = ⟨t2, .ok ()⟩)
    (h3 : printSetting T "P4132".toList = ⟨t3, .ok ()⟩) (h4 : printAlias T "Pm3".toList = ⟨t4, .ok ()⟩)
    (h5 : printAlias T "A2/a".toList = ⟨t5, .ok ()⟩) (h6 : printAlias T "XYZ".toList = ⟨t6, .ok ()⟩)
    (h7 : printLookup T 10 = ⟨t7, .ok ()⟩) (h8 : printLookup T 20 = ⟨t8, .ok ()⟩) (h9 : printLookup T 30 = ⟨t9, .ok ()⟩) :
    tablesMain lower = ⟨t1 ++ (t2 ++ (t3 ++ (t4 ++ (t5 ++ t6) ++ ('\n' :: '\n' :: (t7 ++ (t8 ++ t9)))))), .ok ()⟩ := by
  unfold tablesMain
  rw [h]
  simp only [bind, Print.andThen, call, h1, h2, h3, forEach, h4, h5, h6, h7, h8, h9, sayln]
  simp only [List.nil_append, List.append_nil, List.append_assoc, List.cons_append]

/-- **C82** (the program). The demonstration program reads the shipped table and prints this text; it does not panic. -/
theorem C82_program (hl : LowersAscii lower) : tablesMain lower = ⟨tablesOutput, .ok ()⟩ := by
  obtain ⟨T, h, -⟩ := shipped hl
  obtain ⟨h1, h2, h3⟩ := shipped_of hl h
  have set : ∀ {s : Setting} {k : List Char} {name t : List Char}, (s, k) ∈ items.flatMap Item.settings →
      s.name = name → s.shown k = .ok t → printSetting T name = ⟨t ++ ['\n', '\n'], .ok ()⟩ := by
    intro s k name t hm hname ht
    obtain ⟨e, k1, k2⟩ := get_setting h1 hm
    obtain ⟨b, hb, -, hg, -⟩ := settings_block hm
    have k3 := entry_shown (Setting.group_sound hg).1 k2
    have k4 : e.text = .ok t := by rw [← ht]; exact k3
    have k5 : mapGet T.settings name = some e := by rw [← hname]; exact k1
    unfold printSetting
    rw [k5]
    show Print.andThen (call (.ok e)) _ = _
    simp only [Print.andThen, call, bind, k4, say, List.nil_append]
  have look : ∀ {i : Nat} {l : Look} {t : List Char}, looks[i]? = some l → l.shown = .ok t →
      printLookup T i = ⟨t ++ ['\n', '\n'], .ok ()⟩ := by
    intro i l t hi ht
    obtain ⟨x, hx, k2⟩ : ∃ x, T.lookup[i]? = some x ∧ IsLook l x := by
      have hlen : i < looks.length := by
        by_contra hc
        rw [List.getElem?_eq_none (by omega)] at hi
        cases hi
      have hlen2 : i < T.lookup.length := h3.length_eq ▸ hlen
      refine ⟨_, List.getElem?_eq_getElem hlen2, ?_⟩
      have := h3.get hlen hlen2
      rw [List.getElem?_eq_getElem hlen] at hi
      rw [← Option.some.inj hi]
      exact this
    have hk : l ∈ looks := List.mem_of_getElem? hi
    obtain ⟨-, hok, -⟩ := look_ok hk
    have hn : l.o.s.dim = 1 ∨ l.o.s.dim = 2 ∨ l.o.s.dim = 3 := by
      simp only [Other.ok, Bool.and_eq_true] at hok
      exact (Setting.group_sound hok.1.1.1.1.1.1).1
    have k4 : x.text = .ok t := by rw [← ht]; exact look_shown hn k2
    have k5 : vecGet T.lookup i = .ok x := vecGet_eq_ok.2 hx
    unfold printLookup
    rw [k5]
    show Print.andThen (call (.ok x)) _ = _
    simp only [Print.andThen, call, bind, k4, say, List.nil_append]
  have ali : ∀ {a b : List Char}, (a, b) ∈ items.flatMap Item.aliases →
      printAlias T a = ⟨a ++ " -> ".toList ++ b ++ ['\n'], .ok ()⟩ := by
    intro a b hab
    have := mapGet_of_mem (m := T.alias_) (by rw [h2]; exact aliases_nodup) (h2 ▸ hab)
    unfold printAlias
    rw [this]
    rfl
  have noAli : mapGet T.alias_ "XYZ".toList = none := by
    have := (C79_example hl T h).2.1
    rw [← this]
    congr 1
  have hT : shippedTables lower = .ok T := by
    unfold shippedTables
    rw [show parseTable lower (sgTable.map some) = .ok (some T) from h]
    rfl
  have m1 : (s10, b10.c.name) ∈ items.flatMap Item.settings :=
    (block_ok (block_mem (n := 10) (b := b10) rfl)).2 _ (by simp [Item.settings, b10])
  have m2 : (s452, b164.c.name) ∈ items.flatMap Item.settings :=
    (block_ok (block_mem (n := 164) (b := b164) rfl)).2 _ (by simp [Item.settings, b164])
  have m3 : (s527, b231.c.name) ∈ items.flatMap Item.settings :=
    (block_ok (block_mem (n := 231) (b := b231) rfl)).2 _ (by simp [Item.settings, b231])
  have p1 := set m1 (name := "c2mm".toList) (by decide +kernel) (shown_txt (by decide +kernel))
  have p2 := set m2 (name := "R3:R".toList) (by decide +kernel) (shown_txt (by decide +kernel))
  have p3 := set m3 (name := "P4132".toList) (by decide +kernel) (shown_txt (by decide +kernel))
  have a1 := ali (a := "Pm3".toList) (b := "Pm-3".toList) (by decide +kernel)
  have a2 := ali (a := "A2/a".toList) (b := "A12/a1".toList) (by decide +kernel)
  have a3 : printAlias T "XYZ".toList = ⟨"XYZ -> <not found>\n".toList, .ok ()⟩ := by
    unfold printAlias sayln
    rw [noAli]
    refine congrArg (fun t => Print.mk t (Outcome.ok ())) ?_
    decide +kernel
  have l1 := look (i := 10) (l := l10) rfl (shown_txt (by decide +kernel))
  have l2 := look (i := 20) (l := l20) rfl (shown_txt (by decide +kernel))
  have l3 := look (i := 30) (l := l30) rfl (shown_txt (by decide +kernel))
  rw [tables_run hT p1 p2 p3 a1 a2 a3 l1 l2 l3]
  refine congrArg (fun t => Print.mk t (Outcome.ok ())) ?_
  decide +kernel

/-- the hypotheses are met: lower-casing the letters A to Z; there is a table, with that setting and some lookups -/
example : (tablesMain lowerLetters).result = .ok () := by rw [C82_program (lower := lowerLetters) (fun _ _ => rfl)]
example : ∃ T, Shipped lowerLetters T ∧ (∃ e, mapGet T.settings "A1n1".toList = some e) ∧ ∃ l, l ∈ T.lookup := by
  obtain ⟨T, h, -, -, -, -, h1⟩ := C79_reads (lower := lowerLetters) (fun _ _ => rfl)
  obtain ⟨e, he, -⟩ := C82_operator_refuted (fun _ _ => rfl) T h
  refine ⟨T, h, ⟨e, he⟩, ?_⟩
  cases hl : T.lookup with
  | nil => rw [hl] at h1; cases h1
  | cons l ls => exact ⟨l, by simp⟩

end Systre
