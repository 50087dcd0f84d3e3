import Verif.Lemmas.GeomExtra
import Verif.Lemmas.Display
import Verif.Props.Table
import Verif.Props.PGraphs

/-!
# Theorems about displayed texts (C72)
-/

namespace Systre

/-! ## C72 -/

/-- C72: the text of a 2-dimensional graph is a complete invariant of its undirected edges. -/
theorem C72_graph2d (raw raw' : List (Edge V2)) :
    (Graph.new raw).text = (Graph.new raw').text ↔ ∀ e, IsDirected raw e ↔ IsDirected raw' e := by
  rw [← (C26_normal_form raw raw').2.2]
  exact ⟨graphText_inj, fun h => by rw [h]⟩

/-- C72: the same for a 3-dimensional graph. -/
theorem C72_graph3d (raw raw' : List (Edge V3)) :
    (Graph.new raw).text = (Graph.new raw').text ↔ ∀ e, IsDirected raw e ↔ IsDirected raw' e := by
  rw [← (C26_normal_form raw raw').2.2]
  exact ⟨graphText_inj, fun h => by rw [h]⟩

/-- C72: edges and label vectors. -/
theorem C72_edge (e f : Edge V2) (e' f' : Edge V3) (a b : V2) (a' b' : V3) :
    (e.text = f.text ↔ e = f) ∧ (e'.text = f'.text ↔ e' = f') ∧ (a.text = b.text ↔ a = b) ∧
    (a'.text = b'.text ↔ a' = b') :=
  ⟨⟨edgeText_inj, fun h => by rw [h]⟩, ⟨edgeText_inj, fun h => by rw [h]⟩,
    ⟨LawfulLabelText.inj a b, fun h => by rw [h]⟩, ⟨LawfulLabelText.inj a' b', fun h => by rw [h]⟩⟩

/-- C72: numbers. -/
theorem C72_numbers (a b : Int) (p q : Rat) :
    (intText a = intText b ↔ a = b) ∧ (rationalText p = rationalText q ↔ p = q) :=
  ⟨⟨intText_inj, fun h => by rw [h]⟩, ⟨rationalText_inj, fun h => by rw [h]⟩⟩

/-- C72: rational and integer matrices (so also vectors, points and scalar products, which print their matrix).
Only the number of columns of a matrix without rows is not shown. -/
theorem C72_matrix {r c r' c' : Nat} (m m' : Mat Rat) (M : Matrix (Fin r) (Fin c) Rat) (M' : Matrix (Fin r') (Fin c') Rat)
    (h : Rep m M) (h' : Rep m' M') :
    (∃ t, m.text = .ok t) ∧ (m.text = m'.text ↔ m = m' ∨ (r = 0 ∧ r' = 0)) :=
  ⟨⟨_, matText_eq h⟩, matText_inj h h'⟩

/-- C72: integer matrices. -/
theorem C72_integer_matrix {r c r' c' : Nat} (m m' : Mat Int) (M : Matrix (Fin r) (Fin c) Int)
    (M' : Matrix (Fin r') (Fin c') Int) (h : Rep m M) (h' : Rep m' M') :
    (∃ t, m.text = .ok t) ∧ (m.text = m'.text ↔ m = m' ∨ (r = 0 ∧ r' = 0)) :=
  ⟨⟨_, matText_eq h⟩, matText_inj h h'⟩

/-- C72: affine maps of any dimension, and coordinate changes, of which the forward map is shown. -/
theorem C72_affine_map {n n' : Nat} (a a' : AffineMap Rat) (A : Matrix (Fin n) (Fin n) Rat) (s : Fin n → Rat)
    (A' : Matrix (Fin n') (Fin n') Rat) (s' : Fin n' → Rat) (h : IsAff a A s) (h' : IsAff a' A' s') :
    (∃ t, a.text = .ok t) ∧ (a.text = a'.text ↔ a = a') :=
  ⟨⟨_, affText_eq h⟩, affText_inj h h', fun h => by rw [h]⟩

/-- C72: changes of coordinates: the change of coordinates that `new` makes of a map prints like this map, and two changes
of coordinates print the same text only if they are equal. -/
theorem C72_coordinate_map {n n' : Nat} (a : AffineMap Rat) (c c' : CoordMap Rat) (hn : CoordMap.new a = .ok c)
    (h : BuiltCoordMap n c) (h' : BuiltCoordMap n' c') :
    c.text = a.text ∧ (∃ t, c.text = .ok t) ∧ (c.text = c'.text ↔ c = c') := by
  obtain ⟨A, B, s, t, hF, hB, e1, e2, e3, e4⟩ := built_coord h
  obtain ⟨A', B', s', t', hF', hB', e1', e2', e3', e4'⟩ := built_coord h'
  refine ⟨?_, ⟨_, affText_eq hF⟩, fun hh => ?_, fun hh => by rw [hh]⟩
  · unfold CoordMap.new at hn
    obtain ⟨i, -, h2⟩ := Outcome.bind_eq_ok.1 hn
    obtain ⟨b, -, h3⟩ := Outcome.bind_eq_ok.1 h2
    rw [← Outcome.ok.inj h3]
    rfl
  · have hf : c.forward = c'.forward := affText_inj hF hF' hh
    rw [← hf] at hF'
    have hd : n = n' := by
      have h1 := hF.1.rows
      have h2 := hF'.1.rows
      omega
    subst hd
    obtain rfl : A = A' := hF.1.inj hF'.1
    have hs : s = s' := hF.2.inj hF'.2
    subst hs
    obtain rfl : B = B' := by
      calc B = B * (A * B') := by rw [e1', Matrix.mul_one]
        _ = B' := by rw [← Matrix.mul_assoc, e2, Matrix.one_mul]
    have ht : t = t' := by
      have h1 := e4 0
      have h2 := e4' 0
      exact add_left_cancel (h1.trans h2.symm)
    subst ht
    have hb : c.backward = c'.backward := hB.unique hB'
    cases c
    cases c'
    simp only at hf hb
    rw [hf, hb]

example : (CoordMap.new (⟨⟨2, 2, [2, 1, 1, 1]⟩, ⟨⟨2, 1, [1/2, 0]⟩⟩⟩ : AffineMap Rat) >>= fun c => c.text) =
    .ok " 2 1    1/2\n 1 1    0\n".toList := by decide +kernel

/-- C72: operators in coordinate form, for example `-y+1/2,2/3x`. -/
theorem C72_operator {n n' : Nat} (a a' : AffineMap Rat) (A : Matrix (Fin n) (Fin n) Rat) (s : Fin n → Rat)
    (A' : Matrix (Fin n') (Fin n') Rat) (s' : Fin n' → Rat) (h : IsAff a A s) (h' : IsAff a' A' s')
    (hn : 0 < n) (hn' : 0 < n') (h3 : n ≤ 3) :
    (∃ t, ParseOperator.writeOp a = .ok t) ∧ (ParseOperator.writeOp a = ParseOperator.writeOp a' ↔ a = a') :=
  ⟨⟨_, ParseOperator.writeOp_eq h⟩, ParseOperator.writeOp_inj h h' hn hn' h3, fun h => by rw [h]⟩

namespace Table
open ParseOperator

/-- a map of dimension 1, 2 or 3, as `from_string` makes them -/
def SmallDim (a : AffineMap Rat) : Prop :=
  ∃ (n : Nat) (A : Matrix (Fin n) (Fin n) Rat) (s : Fin n → Rat), 0 < n ∧ n ≤ 3 ∧ IsAff a A s

theorem writeOpAny_ok {a : AffineMap Rat} (h : SmallDim a) : ∃ t, writeOpAny a = .ok t ∧ '\n' ∉ t := by
  obtain ⟨n, A, s, h1, h2, h3⟩ := h
  have hd : a.dim = n := h3.2.rows
  unfold writeOpAny
  rw [if_neg (by omega)]
  exact ⟨_, writeOp_eq h3, writeOp_newline h3 (writeOp_eq h3)⟩

theorem writeOpAny_inj {a b : AffineMap Rat} (h : SmallDim a) (h' : SmallDim b) (e : writeOpAny a = writeOpAny b) :
    a = b := by
  obtain ⟨n, A, s, h1, h2, h3⟩ := h
  obtain ⟨n', A', s', h1', h2', h3'⟩ := h'
  have hd : a.dim = n := h3.2.rows
  have hd' : b.dim = n' := h3'.2.rows
  unfold writeOpAny at e
  rw [if_neg (by omega), if_neg (by omega)] at e
  exact writeOp_inj h3 h3' h1 h1' h2 e

theorem ops_text : ∀ {l : List (AffineMap Rat)}, (∀ a ∈ l, SmallDim a) →
    ∃ ts : List (List Char), omap (fun op => do
      let t ← writeOpAny op
      .ok (t ++ ['\n'])) l = .ok (ts.map (fun t => t ++ ['\n'])) ∧ (∀ t ∈ ts, '\n' ∉ t) ∧
      List.Forall₂ (fun a t => writeOpAny a = .ok t) l ts
  | [], _ => ⟨[], rfl, by simp, .nil⟩
  | a :: l, h => by
    obtain ⟨ts, h1, h2, h3⟩ := ops_text (l := l) (fun b hb => h b (by simp [hb]))
    obtain ⟨t, ht, hn⟩ := writeOpAny_ok (h a (by simp))
    refine ⟨t :: ts, ?_, ?_, .cons ht h3⟩
    · rw [omap, ht, Outcome.ok_bind, h1]; rfl
    · intro u hu
      rcases List.mem_cons.1 hu with rfl | hu
      · exact hn
      · exact h2 u hu

theorem ops_eq : ∀ {l l' : List (AffineMap Rat)} {ts : List (List Char)}, (∀ a ∈ l, SmallDim a) →
    (∀ a ∈ l', SmallDim a) → List.Forall₂ (fun a t => writeOpAny a = .ok t) l ts →
    List.Forall₂ (fun a t => writeOpAny a = .ok t) l' ts → l = l'
  | [], [], _, _, _, _, _ => rfl
  | [], _ :: _, _, _, _, .nil, h => by cases h
  | _ :: _, [], _, _, _, h, .nil => by cases h
  | a :: l, b :: l', _, h1, h2, .cons h3 h4, .cons h5 h6 => by
    rw [writeOpAny_inj (h1 a (by simp)) (h2 b (by simp)) (h3.trans h5.symm),
      ops_eq (fun c hc => h1 c (by simp [hc])) (fun c hc => h2 c (by simp [hc])) h4 h6]

theorem entry_text {e : TableEntry} {t : List Char} {ts : List (List Char)} (h : writeOpAny e.transform.forward = .ok t)
    (h2 : omap (fun op => do
      let t ← writeOpAny op
      .ok (t ++ ['\n'])) e.operators = .ok (ts.map (fun t => t ++ ['\n']))) :
    e.text = .ok ("Setting Name: ".toList ++ e.name ++ ['\n'] ++ "Group name: ".toList ++ e.canonicalName ++ ['\n'] ++
    "Transform: ".toList ++ t ++ ['\n'] ++ "Operators:".toList ++ ['\n'] ++ (ts.map (fun t => t ++ ['\n'])).flatten) := by
  unfold TableEntry.text; rw [h, Outcome.ok_bind, h2, Outcome.ok_bind]

theorem lookup_text {l : Lookup} {t : List Char} (h : writeOpAny l.fromStd.forward = .ok t) :
    l.text = .ok ("Lookup name: ".toList ++ l.name ++ ['\n'] ++ "Crystal system: ".toList ++ systemText l.system ++ ['\n'] ++
    "Centering: ".toList ++ l.centering.text ++ ['\n'] ++ "Transform: ".toList ++ t ++ ['\n']) := by
  unfold Lookup.text; rw [h, Outcome.ok_bind]

end Table

open Table in
/-- C72: table entries and look-ups, with names of one line. -/
theorem C72_table_entry (e e' : TableEntry) (hn : '\n' ∉ e.name) (hn' : '\n' ∉ e'.name) (hc : '\n' ∉ e.canonicalName)
    (hc' : '\n' ∉ e'.canonicalName) (ht : SmallDim e.transform.forward) (ht' : SmallDim e'.transform.forward)
    (hm : CoordMap.new e.transform.forward = .ok e.transform)
    (hm' : CoordMap.new e'.transform.forward = .ok e'.transform)
    (ho : ∀ a ∈ e.operators, SmallDim a) (ho' : ∀ a ∈ e'.operators, SmallDim a) :
    (∃ t, e.text = .ok t) ∧ (e.text = e'.text ↔ e = e') := by
  obtain ⟨t, h1, h2⟩ := writeOpAny_ok ht
  obtain ⟨t', h1', h2'⟩ := writeOpAny_ok ht'
  obtain ⟨ts, h3, h4, h5⟩ := ops_text ho
  obtain ⟨ts', h3', h4', h5'⟩ := ops_text ho'
  have he := entry_text h1 h3
  have he' := entry_text h1' h3'
  refine ⟨⟨_, he⟩, fun h => ?_, fun h => by rw [h]⟩
  rw [he, he'] at h
  have h6 := Outcome.ok.inj h
  have hP : ∀ {l : List Char}, '\n' ∉ l → ∀ c ∈ l, c ≠ '\n' := fun hl c hc e => hl (e ▸ hc)
  simp only [List.append_assoc, List.cons_append, List.nil_append] at h6
  obtain ⟨a1, -, h7⟩ := span_unique (hP hn) (hP hn') (by simp) (by simp) (List.append_cancel_left h6)
  obtain ⟨a2, -, h8⟩ := span_unique (hP hc) (hP hc') (by simp) (by simp) (List.append_cancel_left h7)
  obtain ⟨a3, -, h9⟩ := span_unique (hP h2) (hP h2') (by simp) (by simp) (List.append_cancel_left h8)
  have h10 := List.append_cancel_left h9
  simp only [List.cons.injEq, true_and] at h10
  have h11 := ends_inj h4 h4' h10
  have a4 := ops_eq ho ho' h5 (h11 ▸ h5')
  have a5 := writeOpAny_inj ht ht' (by rw [h1, h1', a3])
  have a6 : e.transform = e'.transform := by
    rw [a5, hm'] at hm; exact (Outcome.ok.inj hm).symm
  cases e; cases e'
  simp only at a1 a2 a4 a6
  rw [a1, a2, a4, a6]

open Table in
/-- C72: look-ups. -/
theorem C72_lookup (e e' : Lookup) (hn : '\n' ∉ e.name) (hn' : '\n' ∉ e'.name)
    (ht : SmallDim e.fromStd.forward) (ht' : SmallDim e'.fromStd.forward)
    (hm : CoordMap.new e.fromStd.forward = .ok e.fromStd) (hm' : CoordMap.new e'.fromStd.forward = .ok e'.fromStd) :
    (∃ t, e.text = .ok t) ∧ (e.text = e'.text ↔ e = e') := by
  obtain ⟨t, h1, h2⟩ := writeOpAny_ok ht
  obtain ⟨t', h1', h2'⟩ := writeOpAny_ok ht'
  have he := lookup_text h1
  have he' := lookup_text h1'
  refine ⟨⟨_, he⟩, fun h => ?_, fun h => by rw [h]⟩
  rw [he, he'] at h
  have h6 := Outcome.ok.inj h
  have hP : ∀ {l : List Char}, '\n' ∉ l → ∀ c ∈ l, c ≠ '\n' := fun hl c hc e => hl (e ▸ hc)
  have hs : ∀ s : Finder.CrystalSystem, '\n' ∉ systemText s := by intro s; cases s <;> decide
  have hc : ∀ s : Centering, '\n' ∉ s.text := by intro s; cases s <;> decide
  simp only [List.append_assoc, List.cons_append, List.nil_append] at h6
  obtain ⟨a1, -, h7⟩ := span_unique (hP hn) (hP hn') (by simp) (by simp) (List.append_cancel_left h6)
  obtain ⟨a2, -, h8⟩ := span_unique (hP (hs _)) (hP (hs _)) (by simp) (by simp) (List.append_cancel_left h7)
  obtain ⟨a3, -, h9⟩ := span_unique (hP (hc _)) (hP (hc _)) (by simp) (by simp) (List.append_cancel_left h8)
  obtain ⟨a4, -, -⟩ := span_unique (hP h2) (hP h2') (by simp) (by simp) (List.append_cancel_left h9)
  have b2 : e.system = e'.system := by
    revert a2; cases e.system <;> cases e'.system <;> decide
  have b3 : e.centering = e'.centering := by
    revert a3; cases e.centering <;> cases e'.centering <;> decide
  have a5 := writeOpAny_inj ht ht' (by rw [h1, h1', a4])
  have a6 : e.fromStd = e'.fromStd := by
    rw [a5, hm'] at hm; exact (Outcome.ok.inj hm).symm
  cases e; cases e'
  simp only at a1 b2 b3 a6
  rw [a1, b2, b3, a6]

/-! ### Examples -/

example : (Graph.new hcbEx).text = ['1', ' ', '-', '-', '(', '0', ',', ' ', '0', ')', '-', '>', ' ', '2', '\n',
    '1', ' ', '-', '-', '(', '0', ',', ' ', '1', ')', '-', '>', ' ', '2', '\n',
    '1', ' ', '-', '-', '(', '1', ',', ' ', '0', ')', '-', '>', ' ', '2', '\n'] := by decide +kernel
example : (⟨2, 2, [1, -3/2, 0, 7]⟩ : Mat Rat).text =
    .ok [' ', '1', ' ', '-', '3', '/', '2', '\n', ' ', '0', ' ', '7', '\n'] := by decide +kernel
example : (⟨0, 3, []⟩ : Mat Rat).text = (⟨0, 2, []⟩ : Mat Rat).text := by decide +kernel
example : (⟨⟨2, 2, [1, 0, 0, -1]⟩, ⟨⟨2, 1, [1/2, 0]⟩⟩⟩ : AffineMap Rat).text =
    .ok [' ', '1', ' ', '0', ' ', ' ', ' ', ' ', '1', '/', '2', '\n', ' ', '0', ' ', '-', '1', ' ', ' ', ' ', ' ', '0', '\n'] := by
  decide +kernel

/-- the entry of the plane group p2 -/
def entryEx : Table.TableEntry := ⟨['p', '2'], ['p', '2'], ⟨⟨⟨2, 2, [1, 0, 0, 1]⟩, ⟨⟨2, 1, [0, 0]⟩⟩⟩,
  ⟨⟨2, 2, [1, 0, 0, 1]⟩, ⟨⟨2, 1, [0, 0]⟩⟩⟩⟩,
  [⟨⟨2, 2, [1, 0, 0, 1]⟩, ⟨⟨2, 1, [0, 0]⟩⟩⟩, ⟨⟨2, 2, [-1, 0, 0, -1]⟩, ⟨⟨2, 1, [0, 0]⟩⟩⟩]⟩

theorem small2 (a b c d e f : Rat) : Table.SmallDim ⟨⟨2, 2, [a, b, c, d]⟩, ⟨⟨2, 1, [e, f]⟩⟩⟩ := by
  refine ⟨2, !![a, b; c, d], ![e, f], by norm_num, by norm_num, ⟨rfl, rfl, rfl, by norm_num, ?_⟩, rfl, rfl, rfl, by norm_num, ?_⟩
  · intro i j; fin_cases i <;> fin_cases j <;> rfl
  · intro i j; fin_cases i <;> fin_cases j <;> rfl

example (e' : Table.TableEntry) (h1 : '\n' ∉ e'.name) (h2 : '\n' ∉ e'.canonicalName)
    (h3 : Table.SmallDim e'.transform.forward) (h4 : CoordMap.new e'.transform.forward = .ok e'.transform)
    (h5 : ∀ a ∈ e'.operators, Table.SmallDim a) : entryEx.text = e'.text ↔ entryEx = e' := by
  refine (C72_table_entry entryEx e' (by decide) h1 (by decide) h2 (small2 ..) h3 (by decide +kernel) h4 ?_ h5).2
  intro a ha
  simp only [entryEx, List.mem_cons, List.not_mem_nil, or_false] at ha
  rcases ha with rfl | rfl <;> exact small2 ..

example : (entryEx.text >>= fun t => Outcome.ok (t.drop 32)) = .ok ['T', 'r', 'a', 'n', 's', 'f', 'o', 'r', 'm', ':', ' ', 'x', ',', 'y', '\n',
    'O', 'p', 'e', 'r', 'a', 't', 'o', 'r', 's', ':', '\n', 'x', ',', 'y', '\n', '-', 'x', ',', '-', 'y', '\n'] := by decide +kernel

end Systre
