import Verif.Lemmas.Ladder
import Verif.Props.Symmetries

/-!
# C42, C64: translations (src/symmetries.rs)

The specification (`IsTranslation`, `LatticeIsFull`, `IsFinerForm`, `IsLadderTranslation`) is in
`Verif/Spec/Symmetries.lean`. The positions are those of the barycentric placement: the first vertex is at the
origin (C33).
-/

namespace Systre

section
variable {T : Type} [LabelVector T] [LawfulLabelVector T]
variable {raw : List (Edge T)} {pos : Nat → Fin (LabelVector.dim T) → ℚ}

theorem isTranslation_new_eq : IsTranslation (Graph.new raw).edges pos = IsTranslation raw pos := by
  funext γ
  apply propext
  constructor
  · rintro ⟨em, h⟩; exact ⟨em, isGraphAut_new.1 h⟩
  · rintro ⟨em, h⟩; exact ⟨em, isGraphAut_new.2 h⟩

theorem isLadder_new_eq : IsLadderTranslation (Graph.new raw).edges pos = IsLadderTranslation raw pos := by
  funext γ
  unfold IsLadderTranslation
  rw [isTranslation_new_eq, isVertex_new_eq]

theorem adj_new_eq : Adj (Graph.new raw).edges = Adj raw := by
  funext x y
  unfold Adj
  rw [isDirected_new_eq]

theorem isFinerForm_new {raw' : List (Edge T)} :
    IsFinerForm (Graph.new raw).edges pos raw' ↔ IsFinerForm raw pos raw' := by
  unfold IsFinerForm
  rw [isVertex_new_eq, isTranslation_new_eq, adj_new_eq]

theorem first_vertex (hne : raw ≠ []) : ∃ v0 rest, (Graph.new raw).vertices = v0 :: rest ∧ IsVertex raw v0 := by
  obtain ⟨e, he⟩ := List.exists_mem_of_ne_nil raw hne
  have hv : IsVertex raw e.head := ⟨e, he, Or.inl rfl⟩
  have hm := ((Graph.new raw).mem_vertices _).2 ((isVertex_new raw _).2 hv)
  cases h : (Graph.new raw).vertices with
  | nil => rw [h] at hm; simp at hm
  | cons v0 rest =>
    refine ⟨v0, rest, rfl, ?_⟩
    rw [← isVertex_new, ← Graph.mem_vertices, h]
    exact List.mem_cons_self

theorem latticeIsFull_iff (hc : PeriodicConnected raw) {v0 : Nat} (hv0 : IsVertex raw v0) (hz : pos v0 = 0) :
    LatticeIsFull raw pos ↔ ∀ γ, IsTranslation raw pos γ → ∃ t : T, pos (γ v0) = shv t := by
  constructor
  · intro h γ hγ
    obtain ⟨t, ht⟩ := sameModLattice_iff.1 (h γ hγ v0 hv0)
    exact ⟨t, by rw [← ht, hz, sub_zero]⟩
  · intro h γ hγ v hv
    obtain ⟨t, ht⟩ := h γ hγ
    obtain ⟨u, hu⟩ := hγ.vector hc hv hv0
    rw [sameModLattice_iff (T := T)]
    exact ⟨t + u, by rw [hu, ht, hz, sub_zero, shv_add]⟩

/-! ## C42 -/

/-- C42: `is_minimal` tells whether there are translations beyond the given lattice. -/
theorem C42_is_minimal (raw : List (Edge T)) (tb : Outcome PosTable) (pos : Nat → Fin (LabelVector.dim T) → ℚ)
    (hp : Places tb (Graph.new raw) pos) (hs : LocallyStable raw pos) (hc : PeriodicConnected raw) (hne : raw ≠ [])
    (hsm : (Graph.new raw).vertices.length ≤ 2147483647)
    (hz : ∀ v ∈ (Graph.new raw).vertices.head?, pos v = 0) :
    ∃ b, isMinimal tb (Graph.new raw) = .ok b ∧ (b = true ↔ LatticeIsFull raw pos) := by
  obtain ⟨v0, rest, hv, hv0⟩ := first_vertex hne
  have hz0 : pos v0 = 0 := hz v0 (by rw [hv]; rfl)
  obtain ⟨b, h1, h2⟩ := isMinimal_ok (wf_new raw) hp (locallyStable_new.2 hs) (periodicConnected_new.2 hc) hsm hv
    ((isVertex_new _ _).2 hv0) hz0
  rw [isTranslation_new_eq] at h2
  exact ⟨b, h1, h2.trans (latticeIsFull_iff hc hv0 hz0).symm⟩

/-- C42: the classes that `translational_orbits` returns. They form a partition of the vertices, a translation
maps any vertex of a class to any other one, and there are representatives for the vectors of all the translations
in the class of the first vertex. Unless there are different vertices at the same place that are related by a
translation, the classes are the orbits of the group of all translations. -/
theorem C42_translational_orbits (raw : List (Edge T)) (tb : Outcome PosTable) (pos : Nat → Fin (LabelVector.dim T) → ℚ)
    (hp : Places tb (Graph.new raw) pos) (hs : LocallyStable raw pos) (hc : PeriodicConnected raw) (hne : raw ≠ [])
    (hsm : (Graph.new raw).vertices.length ≤ 2147483647)
    (hz : ∀ v ∈ (Graph.new raw).vertices.head?, pos v = 0) :
    ∃ v0 c cs, (Graph.new raw).vertices.head? = some v0 ∧
      translationalOrbits tb (Graph.new raw) = .ok ((v0 :: c) :: cs) ∧
      (∀ d ∈ (v0 :: c) :: cs, d ≠ []) ∧ ((v0 :: c) :: cs).flatten.Nodup ∧
      (∀ v, v ∈ ((v0 :: c) :: cs).flatten ↔ IsVertex raw v) ∧
      (∀ d ∈ (v0 :: c) :: cs, ∀ x ∈ d, ∀ y ∈ d, ∃ γ, IsTranslation raw pos γ ∧ γ x = y) ∧
      (∀ γ, IsTranslation raw pos γ → ∃ v ∈ v0 :: c, SameModLattice (pos (γ v0)) (pos v)) ∧
      ((¬ ∃ γ, IsLadderTranslation raw pos γ) →
        ∀ d ∈ (v0 :: c) :: cs, ∀ x ∈ d, ∀ y, y ∈ d ↔ ∃ γ, IsTranslation raw pos γ ∧ γ x = y) := by
  obtain ⟨v0, rest, hv, hv0⟩ := first_vertex hne
  have hz0 : pos v0 = 0 := hz v0 (by rw [hv]; rfl)
  obtain ⟨c, cs, h1, h2, h3, h4, h5, h6, -⟩ := translationalOrbits_ok (wf_new raw) hp (locallyStable_new.2 hs)
    (periodicConnected_new.2 hc) hsm hv ((isVertex_new _ _).2 hv0) hz0
  rw [isTranslation_new_eq] at h4 h5 h6
  refine ⟨v0, c, cs, by rw [hv]; rfl, h1, h2, h3.nodup_iff.2 (Graph.vertices_nodup _), ?_, h4, ?_, ?_⟩
  · intro v
    rw [h3.mem_iff, Graph.mem_vertices, isVertex_new]
  · intro γ hγ
    obtain ⟨v, hv', t, ht⟩ := h5 γ hγ
    refine ⟨v, hv', ?_⟩
    rw [sameModLattice_iff (T := T)]
    exact ⟨t, by rw [ht]; abel⟩
  · intro hlad
    apply h6
    intro γ hγ ht
    by_contra hne'
    exact hlad ⟨γ, (ladder_at hs hc hv0 hγ).2 ⟨hne', by rwa [hz0, sub_zero]⟩⟩

/-- C42, as far as it is true: `minimal_image` returns `None` exactly if there is no translation beyond the given
lattice; otherwise it returns the same infinite graph with respect to the lattice of all translations, or it
panics. Missing: it panics for many graphs (`C42_refuted`), because the inverse of the matrix of the basis is
used where the inverse of its transpose is needed; it returns another graph for some ladders
(`C42_ladder_refuted`). -/
theorem C42_minimal_image_partial (raw : List (Edge T)) (tb : Outcome PosTable)
    (pos : Nat → Fin (LabelVector.dim T) → ℚ)
    (hp : Places tb (Graph.new raw) pos) (hs : LocallyStable raw pos) (hc : PeriodicConnected raw) (hne : raw ≠ [])
    (hsm : (Graph.new raw).vertices.length ≤ 2147483647)
    (hz : ∀ v ∈ (Graph.new raw).vertices.head?, pos v = 0) (hlad : ¬ ∃ γ, IsLadderTranslation raw pos γ) :
    (LatticeIsFull raw pos ∧ minimalImage tb (Graph.new raw) = .ok none) ∨
    (¬ LatticeIsFull raw pos ∧
      ((∃ h, minimalImage tb (Graph.new raw) = .ok (some h) ∧ IsFinerForm raw pos h.edges) ∨
        minimalImage tb (Graph.new raw) = .panic)) := by
  obtain ⟨v0, rest, hv, hv0⟩ := first_vertex hne
  have hz0 : pos v0 = 0 := hz v0 (by rw [hv]; rfl)
  rw [latticeIsFull_iff hc hv0 hz0]
  rcases minimalImage_ok (wf_new raw) hp (locallyStable_new.2 hs) (periodicConnected_new.2 hc) hsm hv
    ((isVertex_new _ _).2 hv0) hz0 (by rwa [isLadder_new_eq]) with ⟨h1, h2⟩ | ⟨⟨γ, k1, k2⟩, h2⟩
  · rw [isTranslation_new_eq] at h2
    exact Or.inl ⟨h2, h1⟩
  · rw [isTranslation_new_eq] at k1
    refine Or.inr ⟨fun h => k2 (h γ k1), ?_⟩
    rcases h2 with ⟨h, e1, -, e2⟩ | h
    · exact Or.inl ⟨h, e1, isFinerForm_new.1 e2⟩
    · exact Or.inr h

/-- C42: exactly when `minimal_image` panics, for a graph with further translations that is not a ladder. Let `B`
be the matrix whose rows are the basis of the lattice of all translations that the code computes from the class of
the first vertex. If some entry of `B⁻¹ Bᵀ` is not an integer, it panics. Otherwise it returns the graph with
respect to the lattice of all translations, unless a component of the shift of one of its edges is not an `i32`. -/
theorem C42_panics (raw : List (Edge T)) (tb : Outcome PosTable) (pos : Nat → Fin (LabelVector.dim T) → ℚ)
    (hp : Places tb (Graph.new raw) pos) (hs : LocallyStable raw pos) (hc : PeriodicConnected raw) (hne : raw ≠ [])
    (hsm : (Graph.new raw).vertices.length ≤ 2147483647)
    (hz : ∀ v ∈ (Graph.new raw).vertices.head?, pos v = 0) (hlad : ¬ ∃ γ, IsLadderTranslation raw pos γ)
    (hfull : ¬ LatticeIsFull raw pos) :
    ∃ (o : List Nat) (os : List (List Nat)) (bs : List (List ℚ)),
      translationalOrbits tb (Graph.new raw) = .ok (o :: os) ∧ extendedTranslationBasis tb o = .ok bs ∧
      bs.length = LabelVector.dim T ∧ (∀ v ∈ bs, v.length = LabelVector.dim T) ∧
      ∃ B : Matrix (Fin (LabelVector.dim T)) (Fin (LabelVector.dim T)) ℚ,
        (∀ i, B i = rowVec (LabelVector.dim T) (bs.getD i.1 [])) ∧ IsUnit B ∧
        ((¬ ∀ i j, ∃ z : ℤ, (B⁻¹ * B.transpose) i j = z) → minimalImage tb (Graph.new raw) = .panic) ∧
        ((∀ i j, ∃ z : ℤ, (B⁻¹ * B.transpose) i j = z) →
          (∃ h, minimalImage tb (Graph.new raw) = .ok (some h) ∧ IsFinerForm raw pos h.edges) ∨
          (minimalImage tb (Graph.new raw) = .panic ∧ ∃ e v w, IsDirected raw e ∧
            (∃ γ, IsTranslation raw pos γ ∧ γ v = e.head) ∧ (∃ γ, IsTranslation raw pos γ ∧ γ w = e.tail) ∧
            ∃ k, (B⁻¹.mulVec (edgeVec pos e + pos v - pos w) k < -2147483648 ∨
              2147483647 < B⁻¹.mulVec (edgeVec pos e + pos v - pos w) k))) := by
  obtain ⟨v0, rest, hv, hv0⟩ := first_vertex hne
  have hz0 : pos v0 = 0 := hz v0 (by rw [hv]; rfl)
  rw [latticeIsFull_iff hc hv0 hz0] at hfull
  push Not at hfull
  obtain ⟨γ, g1, g2⟩ := hfull
  obtain ⟨o, os, bs, h1, h2, h3, h4, B, h5, h6, h7, h8⟩ := minimalImage_panics (wf_new raw) hp
    (locallyStable_new.2 hs) (periodicConnected_new.2 hc) hsm hv ((isVertex_new _ _).2 hv0) hz0
    (by rwa [isLadder_new_eq]) ⟨γ, by rwa [isTranslation_new_eq], by push Not; exact g2⟩
  refine ⟨o, os, bs, h1, h2, h3, h4, B, h5, h6, h7, fun hi => ?_⟩
  rcases h8 hi with ⟨h, e1, e2⟩ | ⟨h, e, v, w, k1, k2, k3, k4⟩
  · exact Or.inl ⟨h, e1, isFinerForm_new.1 e2⟩
  · rw [isTranslation_new_eq] at k2 k3
    exact Or.inr ⟨h, e, v, w, (isDirected_new _ _).1 k1, k2, k3, k4⟩

/-! ## C64 -/

/-- C64: `is_ladder` tells whether a translation relates different vertices at the same place. -/
theorem C64_is_ladder (raw : List (Edge T)) (tb : Outcome PosTable) (pos : Nat → Fin (LabelVector.dim T) → ℚ)
    (hp : Places tb (Graph.new raw) pos) (hs : LocallyStable raw pos) (hc : PeriodicConnected raw) (hne : raw ≠ [])
    (hz : ∀ v ∈ (Graph.new raw).vertices.head?, pos v = 0) :
    ∃ b, isLadder tb (Graph.new raw) = .ok b ∧ (b = true ↔ ∃ γ, IsLadderTranslation raw pos γ) := by
  obtain ⟨v0, rest, hv, hv0⟩ := first_vertex hne
  have hz0 : pos v0 = 0 := hz v0 (by rw [hv]; rfl)
  have := isLadder_ok (wf_new raw) hp (locallyStable_new.2 hs) (periodicConnected_new.2 hc) hv
    ((isVertex_new _ _).2 hv0) hz0
  rwa [isLadder_new_eq] at this

/-- C64: `ladder_symmetries` returns each of the translations that relate different vertices at the same place
once. -/
theorem C64_ladder_symmetries (raw : List (Edge T)) (tb : Outcome PosTable) (pos : Nat → Fin (LabelVector.dim T) → ℚ)
    (hp : Places tb (Graph.new raw) pos) (hs : LocallyStable raw pos) (hc : PeriodicConnected raw) (hne : raw ≠ [])
    (hz : ∀ v ∈ (Graph.new raw).vertices.head?, pos v = 0) :
    ∃ l, ladderSymmetries tb (Graph.new raw) = .ok l ∧
      (∀ φ ∈ l, ∃ vm em, Stands raw φ vm em 1 0 ∧ IsGraphAut raw pos vm em 1 ∧ IsLadderTranslation raw pos vm) ∧
      (∀ γ, IsLadderTranslation raw pos γ → ∃ φ ∈ l, ∀ v, IsVertex raw v → φ.vertexMap.lookup v = some (γ v)) ∧
      l.Pairwise (fun φ ψ => ∃ v, IsVertex raw v ∧ φ.vertexMap.lookup v ≠ ψ.vertexMap.lookup v) := by
  obtain ⟨v0, rest, hv, hv0⟩ := first_vertex hne
  have hz0 : pos v0 = 0 := hz v0 (by rw [hv]; rfl)
  obtain ⟨l, h1, h2, h3, h4⟩ := ladderSymmetries_ok (wf_new raw) hp (locallyStable_new.2 hs)
    (periodicConnected_new.2 hc) hv ((isVertex_new _ _).2 hv0) hz0
  rw [isLadder_new_eq] at h2 h3
  rw [isVertex_new_eq] at h3 h4
  refine ⟨l, h1, ?_, h3, h4⟩
  intro φ hφ
  obtain ⟨vm, em, k1, k2, k3⟩ := h2 φ hφ
  exact ⟨vm, em, stands_new.1 k1, isGraphAut_new.1 k2, k3⟩

end

/-! ## Witnesses -/

/-- the square lattice, described with twice the smallest cell -/
def sql2Ex : List (Edge V2) := [⟨1, 2, ⟨0, 0⟩⟩, ⟨2, 1, ⟨1, 0⟩⟩, ⟨1, 1, ⟨0, 1⟩⟩, ⟨2, 2, ⟨0, 1⟩⟩]
def sql2Tb : Outcome PosTable := .ok [(1, [0, 0]), (2, [1/2, 0])]
def sql2Pos : Nat → Fin 2 → ℚ := fun v => if v = 2 then ![1/2, 0] else ![0, 0]

/-- the square lattice with a centred cell -/
def centEx : List (Edge V2) := [⟨1, 2, ⟨0, 0⟩⟩, ⟨1, 2, ⟨-1, 0⟩⟩, ⟨1, 2, ⟨0, -1⟩⟩, ⟨1, 2, ⟨-1, -1⟩⟩]
def centTb : Outcome PosTable := .ok [(1, [0, 0]), (2, [1/2, 1/2])]
def centPos : Nat → Fin 2 → ℚ := fun v => if v = 2 then ![1/2, 1/2] else ![0, 0]

/-- a ladder: two rows of points with rungs, times a line, where the translation by the first lattice vector
exchanges the rows -/
def twistEx : List (Edge V2) := [⟨1, 2, ⟨0, 0⟩⟩, ⟨2, 3, ⟨1, 0⟩⟩, ⟨3, 4, ⟨0, 0⟩⟩, ⟨4, 1, ⟨1, 0⟩⟩, ⟨1, 3, ⟨0, 0⟩⟩,
  ⟨2, 4, ⟨0, 0⟩⟩, ⟨1, 1, ⟨0, 1⟩⟩, ⟨2, 2, ⟨0, 1⟩⟩, ⟨3, 3, ⟨0, 1⟩⟩, ⟨4, 4, ⟨0, 1⟩⟩]
def twistTb : Outcome PosTable := .ok [(1, [0, 0]), (2, [1/2, 0]), (3, [0, 0]), (4, [1/2, 0])]
def twistPos : Nat → Fin 2 → ℚ := fun v => if v = 2 ∨ v = 4 then ![1/2, 0] else ![0, 0]

example : placement 10 (Graph.new sql2Ex) = sql2Tb := by decide +kernel

theorem sql2_places : Places sql2Tb (Graph.new sql2Ex) sql2Pos := by
  have hv : (Graph.new sql2Ex).vertices = [1, 2] := by decide +kernel
  intro v h
  rw [hv] at h
  simp only [List.mem_cons, List.not_mem_nil, or_false] at h
  rcases h with rfl | rfl <;> decide +kernel

theorem sql2_locallyStable : LocallyStable sql2Ex sql2Pos := by
  obtain ⟨b, h1, h2⟩ := C37_locally_stable sql2Ex sql2Tb sql2Pos sql2_places
  rw [← h2]
  have h3 : isLocallyStableIn sql2Tb (Graph.new sql2Ex) = .ok true := by decide +kernel
  rw [h1] at h3
  exact Outcome.ok.inj h3

theorem sql2_connected : PeriodicConnected sql2Ex := by
  obtain ⟨b, h1, h2⟩ := C32_is_connected sql2Ex
  rw [← h2]
  have h3 : (Graph.new sql2Ex).isConnected = .ok true := by decide +kernel
  rw [h1] at h3
  exact Outcome.ok.inj h3

theorem sql2_origin : ∀ v ∈ (Graph.new sql2Ex).vertices.head?, sql2Pos v = 0 := by
  have hv : (Graph.new sql2Ex).vertices.head? = some 1 := by decide +kernel
  intro v h
  rw [hv] at h
  cases h
  decide +kernel

theorem sql2_small : (Graph.new sql2Ex).vertices.length ≤ 2147483647 := by
  have hv : (Graph.new sql2Ex).vertices.length = 2 := by decide +kernel
  omega

theorem sql2_noLadder : ¬ ∃ γ, IsLadderTranslation sql2Ex sql2Pos γ := by
  obtain ⟨b, h1, h2⟩ := C64_is_ladder sql2Ex sql2Tb sql2Pos sql2_places sql2_locallyStable sql2_connected (by decide)
    sql2_origin
  rw [← h2]
  have h3 : isLadder sql2Tb (Graph.new sql2Ex) = .ok false := by decide +kernel
  rw [h1] at h3
  rw [Outcome.ok.inj h3]
  decide

theorem sql2_notFull : ¬ LatticeIsFull sql2Ex sql2Pos := by
  obtain ⟨b, h1, h2⟩ := C42_is_minimal sql2Ex sql2Tb sql2Pos sql2_places sql2_locallyStable sql2_connected (by decide)
    sql2_small sql2_origin
  rw [← h2]
  have h3 : isMinimal sql2Tb (Graph.new sql2Ex) = .ok false := by decide +kernel
  rw [h1] at h3
  rw [Outcome.ok.inj h3]
  decide

example : placement 10 (Graph.new centEx) = centTb := by decide +kernel

theorem cent_places : Places centTb (Graph.new centEx) centPos := by
  have hv : (Graph.new centEx).vertices = [1, 2] := by decide +kernel
  intro v h
  rw [hv] at h
  simp only [List.mem_cons, List.not_mem_nil, or_false] at h
  rcases h with rfl | rfl <;> decide +kernel

theorem cent_locallyStable : LocallyStable centEx centPos := by
  obtain ⟨b, h1, h2⟩ := C37_locally_stable centEx centTb centPos cent_places
  rw [← h2]
  have h3 : isLocallyStableIn centTb (Graph.new centEx) = .ok true := by decide +kernel
  rw [h1] at h3
  exact Outcome.ok.inj h3

theorem cent_connected : PeriodicConnected centEx := by
  obtain ⟨b, h1, h2⟩ := C32_is_connected centEx
  rw [← h2]
  have h3 : (Graph.new centEx).isConnected = .ok true := by decide +kernel
  rw [h1] at h3
  exact Outcome.ok.inj h3

theorem cent_origin : ∀ v ∈ (Graph.new centEx).vertices.head?, centPos v = 0 := by
  have hv : (Graph.new centEx).vertices.head? = some 1 := by decide +kernel
  intro v h
  rw [hv] at h
  cases h
  decide +kernel

theorem cent_small : (Graph.new centEx).vertices.length ≤ 2147483647 := by
  have hv : (Graph.new centEx).vertices.length = 2 := by decide +kernel
  omega

theorem cent_noLadder : ¬ ∃ γ, IsLadderTranslation centEx centPos γ := by
  obtain ⟨b, h1, h2⟩ := C64_is_ladder centEx centTb centPos cent_places cent_locallyStable cent_connected (by decide)
    cent_origin
  rw [← h2]
  have h3 : isLadder centTb (Graph.new centEx) = .ok false := by decide +kernel
  rw [h1] at h3
  rw [Outcome.ok.inj h3]
  decide

theorem cent_notFull : ¬ LatticeIsFull centEx centPos := by
  obtain ⟨b, h1, h2⟩ := C42_is_minimal centEx centTb centPos cent_places cent_locallyStable cent_connected (by decide)
    cent_small cent_origin
  rw [← h2]
  have h3 : isMinimal centTb (Graph.new centEx) = .ok false := by decide +kernel
  rw [h1] at h3
  rw [Outcome.ok.inj h3]
  decide

example : placement 10 (Graph.new twistEx) = twistTb := by decide +kernel

theorem twist_places : Places twistTb (Graph.new twistEx) twistPos := by
  have hv : (Graph.new twistEx).vertices = [1, 2, 3, 4] := by decide +kernel
  intro v h
  rw [hv] at h
  simp only [List.mem_cons, List.not_mem_nil, or_false] at h
  rcases h with rfl | rfl | rfl | rfl <;> decide +kernel

theorem twist_locallyStable : LocallyStable twistEx twistPos := by
  obtain ⟨b, h1, h2⟩ := C37_locally_stable twistEx twistTb twistPos twist_places
  rw [← h2]
  have h3 : isLocallyStableIn twistTb (Graph.new twistEx) = .ok true := by decide +kernel
  rw [h1] at h3
  exact Outcome.ok.inj h3

theorem twist_connected : PeriodicConnected twistEx := by
  obtain ⟨b, h1, h2⟩ := C32_is_connected twistEx
  rw [← h2]
  have h3 : (Graph.new twistEx).isConnected = .ok true := by decide +kernel
  rw [h1] at h3
  exact Outcome.ok.inj h3

theorem twist_origin : ∀ v ∈ (Graph.new twistEx).vertices.head?, twistPos v = 0 := by
  have hv : (Graph.new twistEx).vertices.head? = some 1 := by decide +kernel
  intro v h
  rw [hv] at h
  cases h
  decide +kernel

theorem twist_small : (Graph.new twistEx).vertices.length ≤ 2147483647 := by
  have hv : (Graph.new twistEx).vertices.length = 4 := by decide +kernel
  omega

/-- the hypotheses of `C42_minimal_image_partial` hold for the doubled cell, and it returns the square lattice -/
example : ∃ h, minimalImage sql2Tb (Graph.new sql2Ex) = .ok (some h) ∧
    h.edges = [⟨1, 1, ⟨0, 1⟩⟩, ⟨1, 1, ⟨1, 0⟩⟩] ∧ IsFinerForm sql2Ex sql2Pos h.edges := by
  have h0 : (minimalImage sql2Tb (Graph.new sql2Ex) >>= fun g => Outcome.ok (g.map Graph.edges)) =
      .ok (some [⟨1, 1, ⟨0, 1⟩⟩, ⟨1, 1, ⟨1, 0⟩⟩]) := by decide +kernel
  rcases C42_minimal_image_partial sql2Ex sql2Tb sql2Pos sql2_places sql2_locallyStable sql2_connected (by decide)
    sql2_small sql2_origin sql2_noLadder with ⟨h, -⟩ | ⟨-, ⟨h, h1, h2⟩ | h⟩
  · exact absurd h sql2_notFull
  · refine ⟨h, h1, ?_, h2⟩
    rw [h1] at h0
    exact Option.some.inj (Outcome.ok.inj h0)
  · rw [h] at h0
    cases h0

example := C42_translational_orbits sql2Ex sql2Tb sql2Pos sql2_places sql2_locallyStable sql2_connected (by decide)
  sql2_small sql2_origin
example : translationalOrbits sql2Tb (Graph.new sql2Ex) = .ok [[1, 2]] := by decide +kernel
example : isMinimal hcbTb (Graph.new hcbEx) = .ok true := by decide +kernel
example : translationalOrbits hcbTb (Graph.new hcbEx) = .ok [[1], [2]] := by decide +kernel

/-- the hypotheses of `C42_panics` hold for the centred cell: its basis gives a matrix `B⁻¹ Bᵀ` that is not integral -/
example := C42_panics centEx centTb centPos cent_places cent_locallyStable cent_connected (by decide)
  cent_small cent_origin cent_noLadder cent_notFull
example : extendedTranslationBasis centTb [1, 2] = .ok [[-1/2, -1/2], [0, 1]] := by decide +kernel
example : (!![-2, -1; 0, 1] : Matrix (Fin 2) (Fin 2) ℚ) * !![-1/2, -1/2; 0, 1] = 1 ∧
    (!![-2, -1; 0, 1] : Matrix (Fin 2) (Fin 2) ℚ) * (!![-1/2, -1/2; 0, 1] : Matrix (Fin 2) (Fin 2) ℚ).transpose =
      !![3/2, -1; -1/2, 1] := by decide +kernel

/-- and for the doubled cell, where that matrix is integral -/
example := C42_panics sql2Ex sql2Tb sql2Pos sql2_places sql2_locallyStable sql2_connected (by decide)
  sql2_small sql2_origin sql2_noLadder sql2_notFull
example : extendedTranslationBasis sql2Tb [1, 2] = .ok [[-1/2, 0], [0, 1]] := by decide +kernel

/-- C42 is false: for the square lattice with a centred cell, `minimal_image` panics. -/
theorem C42_refuted : PeriodicConnected centEx ∧ LocallyStable centEx centPos ∧
    Places (placement 10 (Graph.new centEx)) (Graph.new centEx) centPos ∧ ¬ LatticeIsFull centEx centPos ∧
    minimalImage (placement 10 (Graph.new centEx)) (Graph.new centEx) = .panic := by
  have hpl : placement 10 (Graph.new centEx) = centTb := by decide +kernel
  rw [hpl]
  exact ⟨cent_connected, cent_locallyStable, cent_places, cent_notFull, by decide +kernel⟩

/-- C42 is false for ladders even if no panic occurs: `minimal_image` returns a graph with a loop of shift zero
at its only vertex, the infinite graph that was given has no such loop. -/
theorem C42_ladder_refuted : PeriodicConnected twistEx ∧ LocallyStable twistEx twistPos ∧
    Places (placement 10 (Graph.new twistEx)) (Graph.new twistEx) twistPos ∧
    ∃ h, minimalImage (placement 10 (Graph.new twistEx)) (Graph.new twistEx) = .ok (some h) ∧
      ¬ ∃ Φ : Nat × V2 → Nat × V2, Set.BijOn Φ {x | IsVertex twistEx x.1} {y | IsVertex h.edges y.1} ∧
        ∀ x y, IsVertex twistEx x.1 → IsVertex twistEx y.1 → (Adj h.edges (Φ x) (Φ y) ↔ Adj twistEx x y) := by
  have hpl : placement 10 (Graph.new twistEx) = twistTb := by decide +kernel
  rw [hpl]
  refine ⟨twist_connected, twist_locallyStable, twist_places, ?_⟩
  have h0 : (minimalImage twistTb (Graph.new twistEx) >>= fun g => Outcome.ok (g.map Graph.edges)) =
      .ok (some [⟨1, 1, ⟨0, 0⟩⟩, ⟨1, 1, ⟨0, 1⟩⟩, ⟨1, 1, ⟨1, 0⟩⟩]) := by decide +kernel
  obtain ⟨r, hr⟩ := ok_of_bind_ok h0
  rw [hr] at h0
  have h0 := Outcome.ok.inj h0
  cases r with
  | none => cases h0
  | some h =>
    have h0 : h.edges = [⟨1, 1, ⟨0, 0⟩⟩, ⟨1, 1, ⟨0, 1⟩⟩, ⟨1, 1, ⟨1, 0⟩⟩] := Option.some.inj h0
    refine ⟨h, hr, ?_⟩
    rintro ⟨Φ, h1, h2⟩
    obtain ⟨x, hx, hx'⟩ := h1.surjOn (show ((1, 0) : Nat × V2) ∈ {y : Nat × V2 | IsVertex h.edges y.1} from
      ⟨⟨1, 1, ⟨0, 0⟩⟩, by rw [h0]; exact List.mem_cons_self, Or.inl rfl⟩)
    have h3 : Adj h.edges (Φ x) (Φ x) := by
      rw [hx']
      exact ⟨⟨1, 1, ⟨0, 0⟩⟩, Or.inl (by rw [h0]; exact List.mem_cons_self), rfl, rfl, rfl⟩
    obtain ⟨e, he, e1, e2, e3⟩ := (h2 x x hx hx).1 h3
    have e4 : e.shift = 0 := add_eq_left.1 e3
    have e5 : (⟨e.tail, e.head, -e.shift⟩ : Edge V2) = e := by
      rw [e4, e2, ← e1]
      obtain ⟨a, b, c⟩ := e
      simp only at e1 e2 e4
      subst e1 e4
      simp [e2]
    exact twist_locallyStable.2 e he e5

/-- the hypotheses of C64 hold for that ladder; there is one ladder symmetry -/
example := C64_ladder_symmetries twistEx twistTb twistPos twist_places twist_locallyStable twist_connected (by decide)
  twist_origin
example : isLadder twistTb (Graph.new twistEx) = .ok true := by decide +kernel
example : (ladderSymmetries twistTb (Graph.new twistEx) >>= fun l => Outcome.ok (l.map (fun φ => φ.vertexMap.lookup 1))) =
    .ok [some 3] := by decide +kernel

end Systre
