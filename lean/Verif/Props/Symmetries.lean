import Verif.Lemmas.SymStable
import Verif.Lemmas.SymTransfer
import Verif.Props.PGraphs
import Mathlib.Data.Fin.VecNotation
import Mathlib.LinearAlgebra.Matrix.Notation

/-!
# C37-C42: symmetries (src/symmetries.rs, `Automorphism` and the orbits in src/pgraphs.rs)

The specification (`IsGraphAut`, `Stands`, `LocallyStable`, `place`) is in `Verif/Spec/Symmetries.lean`.
`Places tb g pos` says that `position(v)` is `pos v` (see C33).
-/

namespace Systre

section
variable {T : Type} [LabelVector T] [LawfulLabelVector T]

/-! ## C37 -/

/-- C37: `automorphism(v0, w0, x ↦ A x + t)` returns the automorphism with the linear part `A` that maps `v0`
to `w0`, or `None` if there is none. -/
theorem C37_automorphism (raw : List (Edge T)) (tb : Outcome PosTable) (pos : Nat → Fin (LabelVector.dim T) → ℚ)
    (hp : Places tb (Graph.new raw) pos) (hs : LocallyStable raw pos) (hc : QuotientConnected raw)
    (a : AffineMap ℚ) (A : Matrix (Fin (LabelVector.dim T)) (Fin (LabelVector.dim T)) ℚ)
    (t : Fin (LabelVector.dim T) → ℚ) (ha : IsAff a A t) (hA : IsUnit A) (v0 w0 : Nat) (hv0 : IsVertex raw v0) :
    ∃ r, automorphism tb (Graph.new raw) v0 w0 a = .ok r ∧
      (∀ φ, r = some φ → φ.transform = a ∧
        ∃ vm em, Stands raw φ vm em A t ∧ IsGraphAut raw pos vm em A ∧ vm v0 = w0) ∧
      (r = none → ∀ vm em, IsGraphAut raw pos vm em A → vm v0 ≠ w0) := by
  rw [← isVertex_new] at hv0
  rw [← locallyStable_new] at hs
  rw [← quotientConnected_new] at hc
  obtain ⟨r, h1, h2, h3⟩ := automorphism_ok (wf_new raw) hp hs hc ha v0 w0 hv0
  refine ⟨r, h1, ?_, ?_⟩
  · intro φ hφ
    obtain ⟨h4, vm, em, h5, h6, h7⟩ := h2 φ hφ
    exact ⟨h4, vm, em, stands_new.1 h5, isGraphAut_new.1 (h6.isGraphAut hs hc hA h6.verts), h7⟩
  · intro hr vm em h
    exact h3 hr vm em (isGraphAut_new.2 h).starMap

/-- C37: the answer of `is_locally_stable`, which all functions of symmetries.rs assert. -/
theorem C37_locally_stable (raw : List (Edge T)) (tb : Outcome PosTable) (pos : Nat → Fin (LabelVector.dim T) → ℚ)
    (hp : Places tb (Graph.new raw) pos) :
    ∃ b, isLocallyStableIn tb (Graph.new raw) = .ok b ∧ (b = true ↔ LocallyStable raw pos) := by
  obtain ⟨b, h1, h2⟩ := isLocallyStable_ok hp
  exact ⟨b, h1, by rw [h2, locStable_iff (wf_new raw), locallyStable_new]⟩

/-- C37: the linear part of an automorphism is an integral matrix with determinant 1 or -1. -/
theorem C37_unimodular (raw : List (Edge T)) (pos : Nat → Fin (LabelVector.dim T) → ℚ)
    (hc : PeriodicConnected raw) (hne : raw ≠ []) (vm : Nat → Nat) (em : Edge T → Edge T)
    (A : Matrix (Fin (LabelVector.dim T)) (Fin (LabelVector.dim T)) ℚ) (h : IsGraphAut raw pos vm em A) :
    ∃ M : Matrix (Fin (LabelVector.dim T)) (Fin (LabelVector.dim T)) ℤ,
      A = M.map (fun x : ℤ => (x : ℚ)) ∧ |M.det| = 1 := by
  obtain ⟨e, he⟩ := List.exists_mem_of_ne_nil raw hne
  exact h.unimodular hc (v := e.head) ⟨e, he, Or.inl rfl⟩

/-- C37: what an automorphism means for the infinite graph: a bijection of its vertices that preserves
adjacency and non-adjacency, and is the restriction of an affine map. -/
theorem C37_infinite_graph (raw : List (Edge T)) (pos : Nat → Fin (LabelVector.dim T) → ℚ)
    (hc : PeriodicConnected raw) (hne : raw ≠ []) (vm : Nat → Nat) (em : Edge T → Edge T)
    (A : Matrix (Fin (LabelVector.dim T)) (Fin (LabelVector.dim T)) ℚ) (h : IsGraphAut raw pos vm em A) :
    ∃ (c : Fin (LabelVector.dim T) → ℚ) (Φ : Nat × T → Nat × T),
      Set.BijOn Φ {x | IsVertex raw x.1} {x | IsVertex raw x.1} ∧
      (∀ x, IsVertex raw x.1 → (Φ x).1 = vm x.1 ∧ place pos (Φ x) = A.mulVec (place pos x) + c) ∧
      ∀ x y, IsVertex raw x.1 → IsVertex raw y.1 → (Adj raw (Φ x) (Φ y) ↔ Adj raw x y) := by
  obtain ⟨e, he⟩ := List.exists_mem_of_ne_nil raw hne
  exact h.infinite hc (v0 := e.head) ⟨e, he, Or.inl rfl⟩

/-! ## C38 -/

/-- C38: the product composes vertex maps, edge maps and affine maps, and is an automorphism again. -/
theorem C38_mul (raw : List (Edge T)) (pos : Nat → Fin (LabelVector.dim T) → ℚ) (a b : Automorphism T)
    (vm vm' : Nat → Nat) (em em' : Edge T → Edge T)
    (A B : Matrix (Fin (LabelVector.dim T)) (Fin (LabelVector.dim T)) ℚ) (s t : Fin (LabelVector.dim T) → ℚ)
    (ha : Stands raw a vm em A s) (ha' : IsGraphAut raw pos vm em A)
    (hb : Stands raw b vm' em' B t) (hb' : IsGraphAut raw pos vm' em' B) :
    ∃ c, a.mul b = .ok c ∧ Stands raw c (vm ∘ vm') (em ∘ em') (A * B) (A.mulVec t + s) ∧
      IsGraphAut raw pos (vm ∘ vm') (em ∘ em') (A * B) := by
  obtain ⟨c, h1, h2⟩ := stands_mul ha hb (fun v hv => hb'.vbij.mapsTo hv) (fun e he => hb'.ebij.mapsTo he)
  exact ⟨c, h1, h2, ha'.comp hb'⟩

/-- C38: `==` on automorphisms compares the maps. -/
theorem C38_eq (raw : List (Edge T)) (a b : Automorphism T)
    (vm vm' : Nat → Nat) (em em' : Edge T → Edge T)
    (A B : Matrix (Fin (LabelVector.dim T)) (Fin (LabelVector.dim T)) ℚ) (s t : Fin (LabelVector.dim T) → ℚ)
    (ha : Stands raw a vm em A s) (hb : Stands raw b vm' em' B t) :
    a.eqv b = true ↔ (∀ v, IsVertex raw v → vm v = vm' v) ∧ (∀ e, IsDirected raw e → em e = em' e) ∧
      A = B ∧ s = t :=
  eqv_iff ha hb

/-- C38: `identity()` stands for the identity maps, and is neutral. -/
theorem C38_identity (raw : List (Edge T)) (pos : Nat → Fin (LabelVector.dim T) → ℚ) (a : Automorphism T)
    (A : Matrix (Fin (LabelVector.dim T)) (Fin (LabelVector.dim T)) ℚ) (s : Fin (LabelVector.dim T) → ℚ)
    (ha : IsAutomorphism raw pos a A s) :
    ∃ i x y, Automorphism.identity (Graph.new raw) = .ok i ∧ Stands raw i id id 1 0 ∧
      IsAutomorphism raw pos i 1 0 ∧
      i.mul a = .ok x ∧ x.eqv a = true ∧ a.mul i = .ok y ∧ y.eqv a = true := by
  obtain ⟨i, h1, h2⟩ := stands_identity (Graph.new raw)
  rw [stands_new] at h2
  obtain ⟨vm, em, h3, h4⟩ := ha
  have h5 := IsGraphAut.id raw pos
  obtain ⟨x, h6, h7, -⟩ := C38_mul raw pos i a _ _ _ _ _ _ _ _ h2 h5 h3 h4
  obtain ⟨y, h8, h9, -⟩ := C38_mul raw pos a i _ _ _ _ _ _ _ _ h3 h4 h2 h5
  refine ⟨i, x, y, h1, h2, ⟨_, _, h2, h5⟩, h6, ?_, h8, ?_⟩
  · rw [eqv_iff h7 h3]; simp
  · rw [eqv_iff h9 h3]; simp

/-- C38: the product is associative. -/
theorem C38_assoc (raw : List (Edge T)) (pos : Nat → Fin (LabelVector.dim T) → ℚ) (a b c : Automorphism T)
    (A B C : Matrix (Fin (LabelVector.dim T)) (Fin (LabelVector.dim T)) ℚ) (s t u : Fin (LabelVector.dim T) → ℚ)
    (ha : IsAutomorphism raw pos a A s) (hb : IsAutomorphism raw pos b B t) (hc : IsAutomorphism raw pos c C u) :
    ∃ ab bc x y, a.mul b = .ok ab ∧ b.mul c = .ok bc ∧ ab.mul c = .ok x ∧ a.mul bc = .ok y ∧ x.eqv y = true := by
  obtain ⟨vm1, em1, h1, h1'⟩ := ha
  obtain ⟨vm2, em2, h2, h2'⟩ := hb
  obtain ⟨vm3, em3, h3, h3'⟩ := hc
  obtain ⟨ab, e1, e2, e3⟩ := C38_mul raw pos a b _ _ _ _ _ _ _ _ h1 h1' h2 h2'
  obtain ⟨bc, f1, f2, f3⟩ := C38_mul raw pos b c _ _ _ _ _ _ _ _ h2 h2' h3 h3'
  obtain ⟨x, x1, x2, -⟩ := C38_mul raw pos ab c _ _ _ _ _ _ _ _ e2 e3 h3 h3'
  obtain ⟨y, y1, y2, -⟩ := C38_mul raw pos a bc _ _ _ _ _ _ _ _ h1 h1' f2 f3
  refine ⟨ab, bc, x, y, e1, f1, x1, y1, ?_⟩
  rw [eqv_iff x2 y2]
  refine ⟨fun _ _ => rfl, fun _ _ => rfl, Matrix.mul_assoc _ _ _, ?_⟩
  rw [Matrix.mulVec_add, Matrix.mulVec_mulVec, add_assoc]

/-! ## C39 -/

theorem goodAut_isAutomorphism {raw : List (Edge T)} {pos : Nat → Fin (LabelVector.dim T) → ℚ} {a : Automorphism T}
    (h : GoodAut (Graph.new raw).edges pos a) : ∃ A, IsAutomorphism raw pos a A 0 := by
  obtain ⟨A, vm, em, h1, h2⟩ := h
  exact ⟨A, vm, em, stands_new.1 h1, isGraphAut_new.1 h2⟩

/-- everything about the value of `symmetries`; `l` is the result -/
theorem symmetries_all (raw : List (Edge T)) (tb : Outcome PosTable) (pos : Nat → Fin (LabelVector.dim T) → ℚ)
    (hp : Places tb (Graph.new raw) pos) (hs : LocallyStable raw pos) (hc : PeriodicConnected raw) (hne : raw ≠ []) :
    ∃ N l, (∀ fuel, N ≤ fuel → symmetries fuel tb (Graph.new raw) = .ok l) ∧ GroupList (Graph.new raw) pos l ∧
      (l.map (autPerm (Graph.new raw).edges)).Nodup ∧ (∃ i ∈ l, Automorphism.identity (Graph.new raw) = .ok i) ∧
      ∃ list0 rest, characteristicEdgeLists tb (Graph.new raw) = .ok (list0 :: rest) ∧
        ∃ h0 : GoodList (Graph.new raw) pos list0,
        ∀ vm em A vm' em' A', IsGraphAut (Graph.new raw).edges pos vm em A →
          IsGraphAut (Graph.new raw).edges pos vm' em' A' → (∀ e ∈ list0.head?, vm' e.head = vm e.head) →
          rowsOf pos list0 h0.len * A.transpose = A' * rowsOf pos list0 h0.len →
          ∃ x ∈ l, (∀ e, (autPerm (Graph.new raw).edges x e).1 = em e.1) ∨
            (∀ e, (autPerm (Graph.new raw).edges x e).1 = em' e.1) := by
  obtain ⟨e, he⟩ := List.exists_mem_of_ne_nil raw hne
  have hv0 : IsVertex raw e.head := ⟨e, he, Or.inl rfl⟩
  rw [← isVertex_new] at hv0
  rw [← locallyStable_new] at hs
  rw [← periodicConnected_new] at hc
  obtain ⟨N, l, h1, h2, h3, h4, h5, h6⟩ := symmetries_ok (wf_new raw) hp hs hc hv0
  exact ⟨N, l, h1, ⟨h2, h5⟩, h3, h4, h6⟩

/-- C39: `symmetries` returns (with enough steps, see DESIGN.md) a list of automorphisms, no two of them equal,
that contains the identity and is closed under products and inverses. -/
theorem C39_symmetries_group (raw : List (Edge T)) (tb : Outcome PosTable)
    (pos : Nat → Fin (LabelVector.dim T) → ℚ) (hp : Places tb (Graph.new raw) pos) (hs : LocallyStable raw pos)
    (hc : PeriodicConnected raw) (hne : raw ≠ []) :
    ∃ N l, (∀ fuel, N ≤ fuel → symmetries fuel tb (Graph.new raw) = .ok l) ∧
      (∀ a ∈ l, ∃ A, IsAutomorphism raw pos a A 0) ∧
      l.Pairwise (fun a b => a.eqv b = false) ∧
      (∃ i ∈ l, Automorphism.identity (Graph.new raw) = .ok i) ∧
      (∀ a ∈ l, ∀ b ∈ l, ∃ c ∈ l, ∃ p, a.mul b = .ok p ∧ p.eqv c = true) ∧
      (∀ a ∈ l, ∃ b ∈ l, ∃ p q i, a.mul b = .ok p ∧ b.mul a = .ok q ∧
        Automorphism.identity (Graph.new raw) = .ok i ∧ p.eqv i = true ∧ q.eqv i = true) := by
  obtain ⟨N, l, h1, h2, h3, ⟨i, hi, hi'⟩, -⟩ := symmetries_all raw tb pos hp hs hc hne
  obtain ⟨e, he⟩ := List.exists_mem_of_ne_nil raw hne
  have hv0 : IsVertex (Graph.new raw).edges e.head := (isVertex_new raw _).2 ⟨e, he, Or.inl rfl⟩
  have hsp := span_edgeVecs (pos := pos) (periodicConnected_new.2 hc) hv0
  have hione : autPerm (Graph.new raw).edges i = 1 := by
    obtain ⟨j, h4, h5⟩ := stands_identity (Graph.new raw)
    rw [hi'] at h4
    cases h4
    ext e : 2
    rw [autPerm_apply h5 (IsGraphAut.id _ pos)]; rfl
  refine ⟨N, l, h1, fun a ha => goodAut_isAutomorphism (h2.good a ha), ?_, ⟨i, hi, hi'⟩, ?_, ?_⟩
  · rw [List.nodup_iff_pairwise_ne, List.pairwise_map] at h3
    refine List.Pairwise.imp_of_mem ?_ h3
    intro a b ha hb hab
    rw [← Bool.not_eq_true, goodAut_eqv hsp (h2.good a ha) (h2.good b hb)]
    exact hab
  · intro a ha b hb
    obtain ⟨c, hc, hab⟩ := h2.mul ha hb
    obtain ⟨p, h4, h5, h6⟩ := goodAut_mul (h2.good a ha) (h2.good b hb)
    refine ⟨c, hc, p, h4, ?_⟩
    rw [goodAut_eqv hsp h5 (h2.good c hc), h6, hab]
  · intro a ha
    obtain ⟨b, hb, hab⟩ := h2.inv ha
    obtain ⟨p, h4, h5, h6⟩ := goodAut_mul (h2.good a ha) (h2.good b hb)
    obtain ⟨q, h7, h8, h9⟩ := goodAut_mul (h2.good b hb) (h2.good a ha)
    refine ⟨b, hb, p, q, i, h4, h7, hi', ?_, ?_⟩
    · rw [goodAut_eqv hsp h5 (h2.good i hi), h6, hab, hione]; simp
    · rw [goodAut_eqv hsp h8 (h2.good i hi), h9, hab, hione]; simp

/-! ## C40 -/

/-- C40 as far as it is true: if the rows of `B` are the vectors of the first characteristic edge list, then every
automorphism with a linear part `A` such that `B Aᵀ = A B` is found. (The code computes `A` as `B' B⁻¹`, where
`B'` has the images of the rows of `B` as rows; the correct matrix is the transposed one of `B⁻¹ B'`.)
Missing: the other automorphisms, see `C40_refuted`. -/
theorem C40_complete_partial (raw : List (Edge T)) (tb : Outcome PosTable)
    (pos : Nat → Fin (LabelVector.dim T) → ℚ) (hp : Places tb (Graph.new raw) pos) (hs : LocallyStable raw pos)
    (hc : PeriodicConnected raw) (hne : raw ≠ []) :
    ∃ N l, (∀ fuel, N ≤ fuel → symmetries fuel tb (Graph.new raw) = .ok l) ∧
      ∃ list0 rest, characteristicEdgeLists tb (Graph.new raw) = .ok (list0 :: rest) ∧
      ∃ B : Matrix (Fin (LabelVector.dim T)) (Fin (LabelVector.dim T)) ℚ, IsUnit B ∧
        (∀ i, ∃ e, list0[i.1]? = some e ∧ IsDirected raw e ∧ B i = edgeVec pos e) ∧
        ∀ vm em A, IsGraphAut raw pos vm em A → B * A.transpose = A * B → ∃ x ∈ l, Stands raw x vm em A 0 := by
  obtain ⟨N, l, h1, h2, -, -, list0, rest, h3, h0, h4⟩ := symmetries_all raw tb pos hp hs hc hne
  obtain ⟨e, he⟩ := List.exists_mem_of_ne_nil raw hne
  have hv0 : IsVertex (Graph.new raw).edges e.head := (isVertex_new raw _).2 ⟨e, he, Or.inl rfl⟩
  have hsp := span_edgeVecs (pos := pos) (periodicConnected_new.2 hc) hv0
  refine ⟨N, l, h1, list0, rest, h3, rowsOf pos list0 h0.len, rowsOf_isUnit h0, ?_, ?_⟩
  · intro i
    have hi : i.1 < list0.length := by rw [h0.len]; exact i.2
    refine ⟨list0[i.1], by rw [List.getElem?_eq_getElem hi], (isDirected_new raw _).1 (h0.dir _ (List.getElem_mem hi)), rfl⟩
  · intro vm em A hA hBA
    obtain ⟨x, hx, hxe⟩ := h4 vm em A vm em A (isGraphAut_new.2 hA) (isGraphAut_new.2 hA) (fun _ _ => rfl) hBA
    rw [or_self] at hxe
    refine ⟨x, hx, ?_⟩
    obtain ⟨A', vm', em', h5, h6⟩ := h2.good x hx
    have hem : ∀ e, IsDirected (Graph.new raw).edges e → em' e = em e := by
      intro e he
      rw [← hxe ⟨e, he⟩, autPerm_apply h5 h6]
    obtain ⟨hvm, hAA⟩ := em_determines hsp h6 (isGraphAut_new.2 hA) hem
    rw [← stands_new]
    refine ⟨?_, ?_, h5.vnodup, h5.enodup, by rw [← hAA]; exact h5.aff⟩
    · intro v w
      rw [h5.vkeys]
      constructor <;> rintro ⟨hv, rfl⟩ <;> exact ⟨hv, by rw [hvm v hv]⟩
    · intro e f
      rw [h5.ekeys]
      constructor <;> rintro ⟨hv, rfl⟩ <;> exact ⟨hv, by rw [hem e hv]⟩

/-- an element of the result that agrees with an automorphism on the directed edges stands for it -/
theorem stands_of_perm {raw : List (Edge T)} {pos : Nat → Fin (LabelVector.dim T) → ℚ}
    (hsp : Submodule.span ℚ (edgeVecs (Graph.new raw).edges pos) = ⊤) {x : Automorphism T}
    (hx : GoodAut (Graph.new raw).edges pos x) {vm : Nat → Nat} {em : Edge T → Edge T}
    {A : Matrix (Fin (LabelVector.dim T)) (Fin (LabelVector.dim T)) ℚ} (hA : IsGraphAut raw pos vm em A)
    (hxe : ∀ e, (autPerm (Graph.new raw).edges x e).1 = em e.1) : Stands raw x vm em A 0 := by
  obtain ⟨A', vm', em', h5, h6⟩ := hx
  have hem : ∀ e, IsDirected (Graph.new raw).edges e → em' e = em e := by
    intro e he
    rw [← hxe ⟨e, he⟩, autPerm_apply h5 h6]
  obtain ⟨hvm, hAA⟩ := em_determines hsp h6 (isGraphAut_new.2 hA) hem
  rw [← stands_new]
  refine ⟨?_, ?_, h5.vnodup, h5.enodup, by rw [← hAA]; exact h5.aff⟩
  · intro v w
    rw [h5.vkeys]
    constructor <;> rintro ⟨hv, rfl⟩ <;> exact ⟨hv, by rw [hvm v hv]⟩
  · intro e f
    rw [h5.ekeys]
    constructor <;> rintro ⟨hv, rfl⟩ <;> exact ⟨hv, by rw [hem e hv]⟩

/-- C40: a condition for the whole group. If for every automorphism `φ` with the linear part `A` there is an
automorphism with the linear part `B Aᵀ B⁻¹` that maps the first vertex (the head of the first characteristic edge
list) to the same vertex as `φ`, then `symmetries` finds all automorphisms.
Missing: the other graphs, see `C40_refuted`. -/
theorem C40_transposed_partial (raw : List (Edge T)) (tb : Outcome PosTable)
    (pos : Nat → Fin (LabelVector.dim T) → ℚ) (hp : Places tb (Graph.new raw) pos) (hs : LocallyStable raw pos)
    (hc : PeriodicConnected raw) (hne : raw ≠ []) :
    ∃ N l, (∀ fuel, N ≤ fuel → symmetries fuel tb (Graph.new raw) = .ok l) ∧
      ∃ list0 rest, characteristicEdgeLists tb (Graph.new raw) = .ok (list0 :: rest) ∧
      ∃ B : Matrix (Fin (LabelVector.dim T)) (Fin (LabelVector.dim T)) ℚ, IsUnit B ∧
        (∀ i, ∃ e, list0[i.1]? = some e ∧ IsDirected raw e ∧ B i = edgeVec pos e) ∧
        ((∀ vm em A, IsGraphAut raw pos vm em A → ∃ vm' em' A', IsGraphAut raw pos vm' em' A' ∧
            B * A.transpose = A' * B ∧ ∀ e ∈ list0.head?, vm' e.head = vm e.head) →
          ∀ vm em A, IsGraphAut raw pos vm em A → ∃ x ∈ l, Stands raw x vm em A 0) := by
  obtain ⟨N, l, h1, h2, -, -, list0, rest, h3, h0, h4⟩ := symmetries_all raw tb pos hp hs hc hne
  obtain ⟨e, he⟩ := List.exists_mem_of_ne_nil raw hne
  have hv0 : IsVertex (Graph.new raw).edges e.head := (isVertex_new raw _).2 ⟨e, he, Or.inl rfl⟩
  have hsp := span_edgeVecs (pos := pos) (periodicConnected_new.2 hc) hv0
  have hU := rowsOf_isUnit h0
  refine ⟨N, l, h1, list0, rest, h3, rowsOf pos list0 h0.len, hU, ?_, ?_⟩
  · intro i
    have hi : i.1 < list0.length := by rw [h0.len]; exact i.2
    refine ⟨list0[i.1], by rw [List.getElem?_eq_getElem hi], (isDirected_new raw _).1 (h0.dir _ (List.getElem_mem hi)), rfl⟩
  · intro hτ vm em A hA
    -- linear parts of all automorphisms, and of those that are found
    let P : Set (Matrix (Fin (LabelVector.dim T)) (Fin (LabelVector.dim T)) ℚ) :=
      {A | ∃ vm em, IsGraphAut (Graph.new raw).edges pos vm em A}
    let Q : Set (Matrix (Fin (LabelVector.dim T)) (Fin (LabelVector.dim T)) ℚ) :=
      {A | ∃ x ∈ l, ∃ vm em, IsGraphAut (Graph.new raw).edges pos vm em A ∧
        ∀ e, (autPerm (Graph.new raw).edges x e).1 = em e.1}
    have hlin : ∀ {x y : Automorphism T} {vm em A vm' em' A'}, autPerm (Graph.new raw).edges x = autPerm (Graph.new raw).edges y →
        IsGraphAut (Graph.new raw).edges pos vm em A → (∀ e, (autPerm (Graph.new raw).edges x e).1 = em e.1) →
        IsGraphAut (Graph.new raw).edges pos vm' em' A' → (∀ e, (autPerm (Graph.new raw).edges y e).1 = em' e.1) → A = A' := by
      intro x y vm em A vm' em' A' hxy a1 a2 a3 a4
      exact (em_determines hsp a1 a3 (fun e he => by rw [← a2 ⟨e, he⟩, ← a4 ⟨e, he⟩, hxy])).2
    have hgood : ∀ x ∈ l, ∃ A ∈ Q, ∃ vm em, IsGraphAut (Graph.new raw).edges pos vm em A ∧
        ∀ e, (autPerm (Graph.new raw).edges x e).1 = em e.1 := by
      intro x hx
      obtain ⟨A', vm', em', h5, h6⟩ := h2.good x hx
      exact ⟨A', ⟨x, hx, vm', em', h6, autPerm_apply h5 h6⟩, vm', em', h6, autPerm_apply h5 h6⟩
    have hfin : P.Finite := by
      haveI := finite_dir_raw (Graph.new raw).edges
      have hch : ∀ A ∈ P, ∃ σ : Equiv.Perm {e : Edge T // IsDirected (Graph.new raw).edges e},
          ∃ vm em, IsGraphAut (Graph.new raw).edges pos vm em A ∧ ∀ e, (σ e).1 = em e.1 := by
        rintro A ⟨vm, em, h⟩
        exact ⟨Set.BijOn.equiv em h.ebij, vm, em, h, fun e => rfl⟩
      choose! f hf using hch
      refine Set.Finite.of_injOn (f := f) (t := Set.univ) (fun _ _ => Set.mem_univ _) ?_ Set.finite_univ
      intro A hA A' hA' hff
      obtain ⟨vm, em, a1, a2⟩ := hf A hA
      obtain ⟨vm', em', a3, a4⟩ := hf A' hA'
      exact (em_determines hsp a1 a3 (fun e he => by rw [← a2 ⟨e, he⟩, ← a4 ⟨e, he⟩, hff])).2
    have hone : ∀ x ∈ l, ∀ y ∈ l, ∃ z ∈ l, autPerm (Graph.new raw).edges z =
        autPerm (Graph.new raw).edges x * autPerm (Graph.new raw).edges y := fun x hx y hy => h2.mul hx hy
    have hPQ := group_of_transposed hU (P := P) (Q := Q)
      (by rintro a ⟨v1, e1, h5⟩ b ⟨v2, e2, h6⟩; exact ⟨_, _, h5.comp h6⟩) hfin
      (by
        rintro a ⟨x, hx, v1, e1, h5, h5'⟩ b ⟨y, hy, v2, e2, h6, h6'⟩
        obtain ⟨z, hz, h7⟩ := hone x hx y hy
        exact ⟨z, hz, _, _, h5.comp h6, fun e => by rw [h7, Equiv.Perm.mul_apply, h5', h6']⟩)
      (by
        rintro a ⟨x, hx, v1, e1, h5, h5'⟩
        obtain ⟨y, hy, h7⟩ := h2.inv hx
        obtain ⟨b, hb, v2, e2, h6, h6'⟩ := hgood y hy
        refine ⟨b, hb, ?_⟩
        refine (em_determines hsp (h5.comp h6) (IsGraphAut.id _ pos) (fun e he => ?_)).2
        show e1 (e2 e) = e
        rw [← h6' ⟨e, he⟩, ← h5', h7]
        simp)
      (by rintro a ⟨x, hx, v1, e1, h5, -⟩; exact ⟨v1, e1, h5⟩)
      (by
        rintro a ⟨v1, e1, h5⟩
        obtain ⟨v2, e2, a', h6, h7, h8⟩ := hτ v1 e1 a (isGraphAut_new.1 h5)
        obtain ⟨x, hx, h9⟩ := h4 v1 e1 a v2 e2 a' h5 (isGraphAut_new.2 h6) h8 h7
        rcases h9 with h9 | h9
        · exact Or.inl ⟨x, hx, v1, e1, h5, h9⟩
        · exact Or.inr ⟨a', ⟨x, hx, v2, e2, isGraphAut_new.2 h6, h9⟩, h7⟩)
    obtain ⟨x, hx, v1, e1, h5, h5'⟩ := hPQ ⟨vm, em, isGraphAut_new.2 hA⟩
    -- the quotient of the two automorphisms is a translation, and all translations are found
    obtain ⟨y, hy, h7⟩ := h2.inv hx
    obtain ⟨b, -, v2, e2, h6, h6'⟩ := hgood y hy
    have hba : b * A = 1 := by
      refine (em_determines hsp (h6.comp h5) (IsGraphAut.id _ pos) (fun e he => ?_)).2
      show e2 (e1 e) = e
      rw [← h5' ⟨e, he⟩, ← h6', h7]
      simp
    have ht := h6.comp (isGraphAut_new.2 hA)
    rw [hba] at ht
    obtain ⟨z, hz, h9⟩ := h4 _ _ _ _ _ _ ht ht (fun _ _ => rfl) (by simp)
    rw [or_self] at h9
    obtain ⟨w, hw, h10⟩ := h2.mul hx hz
    refine ⟨w, hw, stands_of_perm hsp (h2.good w hw) hA (fun e => ?_)⟩
    have h11 : autPerm (Graph.new raw).edges z e = (autPerm (Graph.new raw).edges y) ⟨em e.1, (isGraphAut_new.2 hA).ebij.mapsTo e.2⟩ := by
      apply Subtype.ext
      rw [h9, h6']
    rw [h10, Equiv.Perm.mul_apply, h11, h7]
    simp

/-- C40: all translations and all inversions are found. -/
theorem C40_translations_partial (raw : List (Edge T)) (tb : Outcome PosTable)
    (pos : Nat → Fin (LabelVector.dim T) → ℚ) (hp : Places tb (Graph.new raw) pos) (hs : LocallyStable raw pos)
    (hc : PeriodicConnected raw) (hne : raw ≠ []) :
    ∃ N l, (∀ fuel, N ≤ fuel → symmetries fuel tb (Graph.new raw) = .ok l) ∧
      ∀ vm em A, IsGraphAut raw pos vm em A → A = 1 ∨ A = -1 → ∃ x ∈ l, Stands raw x vm em A 0 := by
  obtain ⟨N, l, h1, -, -, -, B, -, -, h⟩ := C40_complete_partial raw tb pos hp hs hc hne
  refine ⟨N, l, h1, fun vm em A hA h' => h vm em A hA ?_⟩
  rcases h' with rfl | rfl <;> simp

/-! ## C41 -/

/-- C41: `vertex_orbits` -/
theorem C41_vertex_orbits (raw : List (Edge T)) (tb : Outcome PosTable)
    (pos : Nat → Fin (LabelVector.dim T) → ℚ) (hp : Places tb (Graph.new raw) pos) (hs : LocallyStable raw pos)
    (hc : PeriodicConnected raw) (hne : raw ≠ []) :
    ∃ N l cs, (∀ fuel, N ≤ fuel → symmetries fuel tb (Graph.new raw) = .ok l) ∧
      vertexOrbits (Graph.new raw) l = .ok cs ∧ (∀ c ∈ cs, c ≠ []) ∧ cs.flatten.Nodup ∧
      (∀ v, v ∈ cs.flatten ↔ IsVertex raw v) ∧
      ∀ c ∈ cs, ∀ x ∈ c, ∀ y, y ∈ c ↔ ∃ φ ∈ l, φ.vertexMap.lookup x = some y := by
  obtain ⟨N, l, h1, h2, -⟩ := symmetries_all raw tb pos hp hs hc hne
  obtain ⟨cs, h3, h4, h5, h6⟩ := vertexOrbits_ok h2
  refine ⟨N, l, cs, h1, h3, h4, ?_, ?_, h6⟩
  · rw [h5.nodup_iff]
    exact (Graph.vertices_sorted _).imp (fun h => ne_of_lt h)
  · intro v
    rw [h5.mem_iff, Graph.mem_vertices, isVertex_new]

/-- C41: `edge_orbits`, for edges without direction: `c` contains the one of the two directions of an edge that is
in the edge list of the graph. -/
theorem C41_edge_orbits (raw : List (Edge T)) (tb : Outcome PosTable)
    (pos : Nat → Fin (LabelVector.dim T) → ℚ) (hp : Places tb (Graph.new raw) pos) (hs : LocallyStable raw pos)
    (hc : PeriodicConnected raw) (hne : raw ≠ []) :
    ∃ N l cs, (∀ fuel, N ≤ fuel → symmetries fuel tb (Graph.new raw) = .ok l) ∧
      edgeOrbits (Graph.new raw) l = .ok cs ∧ (∀ c ∈ cs, c ≠ []) ∧ cs.flatten.Nodup ∧
      (∀ e, e ∈ cs.flatten ↔ e ∈ (Graph.new raw).edges) ∧
      ∀ c ∈ cs, ∀ x ∈ c, ∀ y, y ∈ c ↔ y ∈ (Graph.new raw).edges ∧
        ∃ φ ∈ l, ∃ f, φ.edgeMap.lookup x = some f ∧ (y = f ∨ y = ⟨f.tail, f.head, -f.shift⟩) := by
  obtain ⟨N, l, h1, h2, -⟩ := symmetries_all raw tb pos hp hs hc hne
  obtain ⟨cs, h3, h4, h5, h6⟩ := edgeOrbits_ok (wf_new raw) h2
  refine ⟨N, l, cs, h1, h3, h4, ?_, fun e => h5.mem_iff, ?_⟩
  · rw [h5.nodup_iff]
    exact (wf_new raw).sorted.imp (fun h => ne_of_lt h)
  · intro c hc x hx y
    have hxe : x ∈ (Graph.new raw).edges := h5.mem_iff.1 (List.mem_flatten.2 ⟨c, hc, hx⟩)
    rw [h6 c hc x hx y]
    constructor
    · rintro ⟨φ, hφ, f, hf, rfl⟩
      have hfd : IsDirected (Graph.new raw).edges f := by
        rw [(h2.good φ hφ).edge ⟨x, Or.inl hxe⟩] at hf
        rw [hf]; exact (autPerm _ φ ⟨x, Or.inl hxe⟩).2
      exact ⟨Graph.canon_mem (wf_new raw) hfd, φ, hφ, f, hf, canonical_or f⟩
    · rintro ⟨hy, φ, hφ, f, hf, h7⟩
      refine ⟨φ, hφ, f, hf, ?_⟩
      rw [← (wf_new raw).canon y hy]
      exact (canonical_eq_iff y f).2 h7

end

/-! ## Witnesses -/

theorem hcb_locallyStable : LocallyStable hcbEx hcbPos := by
  obtain ⟨b, h1, h2⟩ := C37_locally_stable hcbEx hcbTb hcbPos hcb_places
  rw [← h2]
  have h3 : isLocallyStableIn hcbTb (Graph.new hcbEx) = .ok true := by decide +kernel
  rw [h1] at h3
  exact Outcome.ok.inj h3

theorem hcb_connected : PeriodicConnected hcbEx := by
  obtain ⟨b, h1, h2⟩ := C32_is_connected hcbEx
  rw [← h2]
  have h3 : (Graph.new hcbEx).isConnected = .ok true := by decide +kernel
  rw [h1] at h3
  exact Outcome.ok.inj h3

theorem ok_of_bind_ok {α β : Type} {x : Outcome α} {f : α → Outcome β} {b : β} (h : (x >>= f) = .ok b) :
    ∃ l, x = .ok l := by
  cases x with
  | ok l => exact ⟨l, rfl⟩
  | panic => cases h
  | diverge => cases h

/-- the hypotheses of C39-C41 hold for the honeycomb, which has twelve symmetries (without lattice translations),
one orbit of vertices and one of edges -/
example := C39_symmetries_group hcbEx hcbTb hcbPos hcb_places hcb_locallyStable hcb_connected (by decide)

set_option maxRecDepth 100000 in
example : ∃ l, symmetries 13 hcbTb (Graph.new hcbEx) = .ok l ∧ l.length = 12 ∧
    vertexOrbits (Graph.new hcbEx) l = .ok [[1, 2]] ∧
    edgeOrbits (Graph.new hcbEx) l = .ok [[⟨1, 2, ⟨0, 0⟩⟩, ⟨1, 2, ⟨0, 1⟩⟩, ⟨1, 2, ⟨1, 0⟩⟩]] := by
  have h : ∃ l, symmetries 13 hcbTb (Graph.new hcbEx) = .ok l := by
    have : (symmetries 13 hcbTb (Graph.new hcbEx) >>= fun l => Outcome.ok l.length) = .ok 12 := by decide +kernel
    exact ok_of_bind_ok this
  obtain ⟨l, hl⟩ := h
  refine ⟨l, hl, ?_, ?_, ?_⟩
  · have : (symmetries 13 hcbTb (Graph.new hcbEx) >>= fun l => Outcome.ok l.length) = .ok 12 := by decide +kernel
    rw [hl] at this
    exact Outcome.ok.inj this
  · have : (symmetries 13 hcbTb (Graph.new hcbEx) >>= fun l => vertexOrbits (Graph.new hcbEx) l) = .ok [[1, 2]] := by
      decide +kernel
    rw [hl] at this
    exact this
  · have : (symmetries 13 hcbTb (Graph.new hcbEx) >>= fun l => edgeOrbits (Graph.new hcbEx) l) =
        .ok [[⟨1, 2, ⟨0, 0⟩⟩, ⟨1, 2, ⟨0, 1⟩⟩, ⟨1, 2, ⟨1, 0⟩⟩]] := by decide +kernel
    rw [hl] at this
    exact this

/-- the triangular lattice -/
def triEx : List (Edge V2) := [⟨1, 1, ⟨1, 0⟩⟩, ⟨1, 1, ⟨0, 1⟩⟩, ⟨1, 1, ⟨1, 1⟩⟩]
def triTb : Outcome PosTable := .ok [(1, [0, 0])]
def triPos : Nat → Fin 2 → ℚ := fun _ => ![0, 0]

example : placement 4 (Graph.new triEx) = triTb := by decide +kernel

theorem tri_places : Places triTb (Graph.new triEx) triPos := by
  have hv : (Graph.new triEx).vertices = [1] := by decide +kernel
  intro v h
  rw [hv] at h
  simp only [List.mem_cons, List.not_mem_nil, or_false] at h
  subst h
  decide +kernel

theorem tri_locallyStable : LocallyStable triEx triPos := by
  obtain ⟨b, h1, h2⟩ := C37_locally_stable triEx triTb triPos tri_places
  rw [← h2]
  have h3 : isLocallyStableIn triTb (Graph.new triEx) = .ok true := by decide +kernel
  rw [h1] at h3
  exact Outcome.ok.inj h3

theorem tri_connected : PeriodicConnected triEx := by
  obtain ⟨b, h1, h2⟩ := C32_is_connected triEx
  rw [← h2]
  have h3 : (Graph.new triEx).isConnected = .ok true := by decide +kernel
  rw [h1] at h3
  exact Outcome.ok.inj h3

/-- the rotation of order six -/
def sixMat : Matrix (Fin 2) (Fin 2) ℚ := !![1, -1; 1, 0]
def sixAff : AffineMap ℚ := ⟨⟨2, 2, [1, -1, 1, 0]⟩, ⟨⟨2, 1, [0, 0]⟩⟩⟩

theorem sixAff_isAff : IsAff sixAff sixMat (0 : Fin 2 → ℚ) := by
  unfold sixAff sixMat
  refine ⟨⟨rfl, rfl, rfl, by decide, ?_⟩, ⟨rfl, rfl, rfl, by decide, ?_⟩⟩ <;> intro i j <;> fin_cases i <;>
    fin_cases j <;> rfl

theorem symmetries_mono {T : Type} [LabelVector T] {tb : Outcome PosTable} {g : Graph T} {f f' : Nat}
    {l : List (Automorphism T)} (h : symmetries f tb g = .ok l) (hf : f ≤ f') : symmetries f' tb g = .ok l := by
  unfold symmetries at h ⊢
  obtain ⟨gens, h1⟩ := ok_of_bind_ok h
  rw [h1] at h ⊢
  obtain ⟨i, h2⟩ := ok_of_bind_ok (x := Automorphism.identity g) h
  rw [bind_ok rfl, h2] at h ⊢
  exact mgLoop_mono _ _ _ _ _ h hf

set_option maxRecDepth 100000 in
/-- C40 is false: the rotation of order six is an automorphism of the triangular lattice, but `symmetries` does not
return it (it returns four symmetries, the lattice has twelve). -/
theorem C40_refuted : PeriodicConnected triEx ∧ LocallyStable triEx triPos ∧ Places triTb (Graph.new triEx) triPos ∧
    (∃ vm em, IsGraphAut triEx triPos vm em sixMat) ∧
    ∃ l, (∀ fuel, 5 ≤ fuel → symmetries fuel triTb (Graph.new triEx) = .ok l) ∧ l.length = 4 ∧
      ∀ x ∈ l, ∀ vm em s, ¬ Stands triEx x vm em sixMat s := by
  refine ⟨tri_connected, tri_locallyStable, tri_places, ?_, ?_⟩
  · obtain ⟨r, h1, h2, -⟩ := C37_automorphism triEx triTb triPos tri_places tri_locallyStable
      (quotient_of_periodic tri_connected) sixAff sixMat 0 sixAff_isAff
      ((Matrix.isUnit_iff_isUnit_det _).2 (by simp [sixMat, Matrix.det_fin_two])) 1 1 ⟨_, List.mem_cons_self, Or.inl rfl⟩
    have h3 : (automorphism triTb (Graph.new triEx) 1 1 sixAff >>= fun r => Outcome.ok r.isSome) = .ok true := by
      decide +kernel
    rw [h1] at h3
    cases r with
    | none => cases Outcome.ok.inj h3
    | some φ =>
      obtain ⟨-, vm, em, -, h4, -⟩ := h2 φ rfl
      exact ⟨vm, em, h4⟩
  · have h1 : (symmetries 5 triTb (Graph.new triEx) >>= fun l => Outcome.ok (l.length,
        l.all (fun x => decide (x.transform.linear.get 0 0 ≠ .ok 1 ∨ x.transform.linear.get 0 1 ≠ .ok (-1))))) =
        .ok (4, true) := by decide +kernel
    obtain ⟨l, hl⟩ := ok_of_bind_ok h1
    rw [hl] at h1
    have h2 := Outcome.ok.inj h1
    rw [Prod.mk.injEq] at h2
    refine ⟨l, fun fuel hf => symmetries_mono hl hf, h2.1, ?_⟩
    intro x hx vm em s hst
    have h3 := List.all_eq_true.1 h2.2 x hx
    rw [decide_eq_true_eq] at h3
    have h4 := hst.aff.1.entry 0 0
    have h5 := hst.aff.1.entry 0 1
    rcases h3 with h3 | h3
    · exact h3 h4
    · exact h3 h5

/-- a rotation that is not a symmetry is refused -/
example : (automorphism triTb (Graph.new triEx) 1 1 ⟨⟨2, 2, [0, -1, 1, 0]⟩, ⟨⟨2, 1, [0, 0]⟩⟩⟩ >>=
    fun r => Outcome.ok r.isSome) = .ok false := by decide +kernel

/-- the hypotheses of C38 hold for the identity and the rotation of order six -/
example : ∃ φ, IsAutomorphism triEx triPos φ sixMat 0 := by
  obtain ⟨r, h1, h2, -⟩ := C37_automorphism triEx triTb triPos tri_places tri_locallyStable
    (quotient_of_periodic tri_connected) sixAff sixMat 0 sixAff_isAff
    ((Matrix.isUnit_iff_isUnit_det _).2 (by simp [sixMat, Matrix.det_fin_two])) 1 1 ⟨_, List.mem_cons_self, Or.inl rfl⟩
  have h3 : (automorphism triTb (Graph.new triEx) 1 1 sixAff >>= fun r => Outcome.ok r.isSome) = .ok true := by
    decide +kernel
  rw [h1] at h3
  cases r with
  | none => cases Outcome.ok.inj h3
  | some φ =>
    obtain ⟨-, vm, em, h4, h5, -⟩ := h2 φ rfl
    exact ⟨φ, vm, em, h4, h5⟩

/-- the square lattice -/
def sqEx : List (Edge V2) := [⟨1, 1, ⟨1, 0⟩⟩, ⟨1, 1, ⟨0, 1⟩⟩]
def sqTb : Outcome PosTable := .ok [(1, [0, 0])]
def sqPos : Nat → Fin 2 → ℚ := fun _ => ![0, 0]

example : placement 4 (Graph.new sqEx) = sqTb := by decide +kernel

theorem sq_places : Places sqTb (Graph.new sqEx) sqPos := by
  have hv : (Graph.new sqEx).vertices = [1] := by decide +kernel
  intro v h
  rw [hv] at h
  simp only [List.mem_cons, List.not_mem_nil, or_false] at h
  subst h
  decide +kernel

theorem sq_locallyStable : LocallyStable sqEx sqPos := by
  obtain ⟨b, h1, h2⟩ := C37_locally_stable sqEx sqTb sqPos sq_places
  rw [← h2]
  have h3 : isLocallyStableIn sqTb (Graph.new sqEx) = .ok true := by decide +kernel
  rw [h1] at h3
  exact Outcome.ok.inj h3

theorem sq_connected : PeriodicConnected sqEx := by
  obtain ⟨b, h1, h2⟩ := C32_is_connected sqEx
  rw [← h2]
  have h3 : (Graph.new sqEx).isConnected = .ok true := by decide +kernel
  rw [h1] at h3
  exact Outcome.ok.inj h3

theorem sq_aut (a b c d : ℚ) (hd : a * d - b * c ≠ 0)
    (h3 : (automorphism sqTb (Graph.new sqEx) 1 1 ⟨⟨2, 2, [a, b, c, d]⟩, ⟨⟨2, 1, [0, 0]⟩⟩⟩ >>=
      fun r => Outcome.ok r.isSome) = .ok true) :
    ∃ vm em, IsGraphAut sqEx sqPos vm em !![a, b; c, d] ∧ vm 1 = 1 := by
  obtain ⟨r, h1, h2, -⟩ := C37_automorphism sqEx sqTb sqPos sq_places sq_locallyStable
    (quotient_of_periodic sq_connected) ⟨⟨2, 2, [a, b, c, d]⟩, ⟨⟨2, 1, [0, 0]⟩⟩⟩ !![a, b; c, d] (0 : Fin 2 → ℚ)
    (by
      refine ⟨⟨rfl, rfl, rfl, by decide, ?_⟩, ⟨rfl, rfl, rfl, by decide, ?_⟩⟩ <;> intro i j <;> fin_cases i <;>
        fin_cases j <;> rfl)
    ((Matrix.isUnit_iff_isUnit_det _).2 (by simpa [Matrix.det_fin_two] using hd)) 1 1 ⟨_, List.mem_cons_self, Or.inl rfl⟩
  rw [h1] at h3
  cases r with
  | none => cases Outcome.ok.inj h3
  | some φ =>
    obtain ⟨-, vm, em, -, h4, h5⟩ := h2 φ rfl
    exact ⟨vm, em, h4, h5⟩

theorem sq_vec (x y : ℤ) : edgeVec sqPos (⟨1, 1, ⟨x, y⟩⟩ : Edge V2) = ![(x : ℚ), (y : ℚ)] := by
  funext k
  fin_cases k <;> simp [edgeVec, sqPos, rent, LabelVector.toVec]

theorem sq_directed {e : Edge V2} (h : IsDirected sqEx e) :
    edgeVec sqPos e = ![1, 0] ∨ edgeVec sqPos e = ![-1, 0] ∨ edgeVec sqPos e = ![0, 1] ∨ edgeVec sqPos e = ![0, -1] := by
  have h' : e = ⟨1, 1, ⟨1, 0⟩⟩ ∨ e = ⟨1, 1, ⟨0, 1⟩⟩ ∨ e = ⟨1, 1, ⟨-1, 0⟩⟩ ∨ e = ⟨1, 1, ⟨0, -1⟩⟩ := by
    obtain ⟨h, t, s⟩ := e
    rcases h with h | h <;> simp [sqEx] at h
    · rcases h with ⟨rfl, rfl, rfl⟩ | ⟨rfl, rfl, rfl⟩ <;> simp
    · obtain ⟨x, y⟩ := s
      rcases h with ⟨rfl, rfl, h⟩ | ⟨rfl, rfl, h⟩ <;> (injection h with h1 h2; simp_all; omega)
  rcases h' with rfl | rfl | rfl | rfl <;> rw [sq_vec] <;> simp

/-- the condition of `C40_transposed_partial` holds for the square lattice: all its automorphisms are found -/
example : ∃ N l, (∀ fuel, N ≤ fuel → symmetries fuel sqTb (Graph.new sqEx) = .ok l) ∧
    ∀ vm em A, IsGraphAut sqEx sqPos vm em A → ∃ x ∈ l, Stands sqEx x vm em A 0 := by
  obtain ⟨N, l, h1, list0, rest, h2, B, -, h3, h4⟩ := C40_transposed_partial sqEx sqTb sqPos sq_places
    sq_locallyStable sq_connected (by decide)
  refine ⟨N, l, h1, h4 ?_⟩
  have h5 : (characteristicEdgeLists sqTb (Graph.new sqEx) >>= fun l => Outcome.ok l.head?) =
      .ok (some [⟨1, 1, ⟨0, 1⟩⟩, ⟨1, 1, ⟨1, 0⟩⟩]) := by decide +kernel
  rw [h2] at h5
  have h6 : some list0 = some [⟨1, 1, ⟨0, 1⟩⟩, ⟨1, 1, ⟨1, 0⟩⟩] := Outcome.ok.inj h5
  injection h6 with h6
  subst h6
  have hB : B = !![0, 1; 1, 0] := by
    obtain ⟨e, e1, -, e3⟩ := h3 0
    obtain ⟨f, f1, -, f3⟩ := h3 1
    simp only [Option.some.injEq, Fin.val_zero, List.getElem?_cons_zero] at e1
    subst e1
    have f1 : some (⟨1, 1, ⟨1, 0⟩⟩ : Edge V2) = some f := f1
    injection f1 with f1
    subst f1
    ext i j
    fin_cases i
    · show B 0 j = _
      rw [e3]; fin_cases j <;> simp [edgeVec, sqPos, rent, LabelVector.toVec]
    · show B 1 j = _
      rw [f3]; fin_cases j <;> simp [edgeVec, sqPos, rent, LabelVector.toVec]
  subst hB
  intro vm em A hA
  have hd1 : IsDirected sqEx (⟨1, 1, ⟨1, 0⟩⟩ : Edge V2) := Or.inl (by simp [sqEx])
  have hd2 : IsDirected sqEx (⟨1, 1, ⟨0, 1⟩⟩ : Edge V2) := Or.inl (by simp [sqEx])
  have hm : ∀ (A : Matrix (Fin 2) (Fin 2) ℚ) (x y : ℚ),
      A.mulVec ![x, y] = ![A 0 0 * x + A 0 1 * y, A 1 0 * x + A 1 1 * y] := by
    intro A x y
    funext k
    fin_cases k <;> simp [Matrix.mulVec, dotProduct, Fin.sum_univ_two]
  have hc1 : edgeVec sqPos (em ⟨1, 1, ⟨1, 0⟩⟩) = ![A 0 0, A 1 0] := by
    rw [hA.vec _ hd1, sq_vec]; exact (hm A _ _).trans (by simp)
  have hc2 : edgeVec sqPos (em ⟨1, 1, ⟨0, 1⟩⟩) = ![A 0 1, A 1 1] := by
    rw [hA.vec _ hd2, sq_vec]; exact (hm A _ _).trans (by simp)
  have hdet : A 0 0 * A 1 1 - A 0 1 * A 1 0 ≠ 0 := by
    obtain ⟨M, m1, m2⟩ := C37_unimodular sqEx sqPos sq_connected (by decide) vm em A hA
    intro h0
    have : A.det = 0 := by rw [Matrix.det_fin_two]; exact h0
    rw [m1] at this
    have hd : (M.map (fun x : ℤ => (x : ℚ))).det = ((M.det : ℤ) : ℚ) := ((Int.castRingHom ℚ).map_det M).symm
    rw [hd] at this
    have : M.det = 0 := by exact_mod_cast this
    rw [this] at m2
    simp at m2
  have hv1 : vm 1 = 1 := by
    have : IsVertex sqEx (vm 1) := hA.vbij.mapsTo (show IsVertex sqEx 1 from ⟨_, List.mem_cons_self, Or.inl rfl⟩)
    obtain ⟨e, he, h⟩ := this
    simp [sqEx] at he
    rcases he with rfl | rfl <;> simpa using h
  suffices h : ∃ vm' em', IsGraphAut sqEx sqPos vm' em' !![A 1 1, A 0 1; A 1 0, A 0 0] ∧ vm' 1 = 1 by
    obtain ⟨vm', em', a1, a2⟩ := h
    refine ⟨vm', em', _, a1, ?_, ?_⟩
    · ext i j
      fin_cases i <;> fin_cases j <;> simp [Matrix.mul_apply, Fin.sum_univ_two, Matrix.transpose_apply]
    · intro e he
      simp at he
      subst he
      show vm' 1 = vm 1
      rw [a2, hv1]
  have k1 := sq_directed (hA.ebij.mapsTo hd1)
  have k2 := sq_directed (hA.ebij.mapsTo hd2)
  rw [hc1] at k1
  rw [hc2] at k2
  have inj2 : ∀ a b c d : ℚ, ![a, b] = ![c, d] → a = c ∧ b = d := by
    intro a b c d h
    exact ⟨congrFun h 0, congrFun h 1⟩
  rcases k1 with k1 | k1 | k1 | k1 <;> rcases k2 with k2 | k2 | k2 | k2 <;>
    obtain ⟨p1, p2⟩ := inj2 _ _ _ _ k1 <;> obtain ⟨p3, p4⟩ := inj2 _ _ _ _ k2 <;> rw [p1, p2, p3, p4] at hdet ⊢ <;>
    first
      | (exfalso; revert hdet; norm_num; done)
      | exact sq_aut _ _ _ _ (by norm_num) (by decide +kernel)

end Systre
