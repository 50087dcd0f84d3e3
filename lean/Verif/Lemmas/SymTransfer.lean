import Verif.Lemmas.SymGroup2

/-!
# Symmetries: from `(Graph.new raw).edges` to `raw`, and the map of the infinite graph
-/

namespace Systre

open Submodule

variable {T : Type} [LabelVector T] [LawfulLabelVector T]
variable {raw : List (Edge T)} {pos : Nat → Fin (LabelVector.dim T) → ℚ}
  {A B : Matrix (Fin (LabelVector.dim T)) (Fin (LabelVector.dim T)) ℚ}
variable {vm vm' : Nat → Nat} {em em' : Edge T → Edge T}

theorem isDirected_new_eq (raw : List (Edge T)) : IsDirected (Graph.new raw).edges = IsDirected raw :=
  funext fun e => propext (isDirected_new raw e)
theorem isVertex_new_eq (raw : List (Edge T)) : IsVertex (Graph.new raw).edges = IsVertex raw :=
  funext fun e => propext (isVertex_new raw e)

theorem isGraphAut_congr {r r' : List (Edge T)} (hd : IsDirected r = IsDirected r') (hv : IsVertex r = IsVertex r')
    (h : IsGraphAut r pos vm em A) : IsGraphAut r' pos vm em A := by
  obtain ⟨h1, h2, h3, h4, h5, h6⟩ := h
  rw [hv] at h1
  rw [hd] at h2
  simp only [hd] at h3 h4 h5 h6
  exact ⟨h1, h2, h3, h4, h5, h6⟩

theorem isGraphAut_new : IsGraphAut (Graph.new raw).edges pos vm em A ↔ IsGraphAut raw pos vm em A :=
  ⟨isGraphAut_congr (isDirected_new_eq _) (isVertex_new_eq _),
   isGraphAut_congr (isDirected_new_eq _).symm (isVertex_new_eq _).symm⟩

theorem stands_new {a : Automorphism T} {s : Fin (LabelVector.dim T) → ℚ} :
    Stands (Graph.new raw).edges a vm em A s ↔ Stands raw a vm em A s := by
  constructor <;> rintro ⟨h1, h2, h3, h4, h5⟩
  · rw [isVertex_new_eq] at h1; rw [isDirected_new_eq] at h2; exact ⟨h1, h2, h3, h4, h5⟩
  · rw [← isVertex_new_eq] at h1; rw [← isDirected_new_eq] at h2; exact ⟨h1, h2, h3, h4, h5⟩

theorem locallyStable_new : LocallyStable (Graph.new raw).edges pos ↔ LocallyStable raw pos := by
  unfold LocallyStable
  rw [isDirected_new_eq]

theorem periodicConnected_new : PeriodicConnected (Graph.new raw).edges ↔ PeriodicConnected raw := by
  have : Adj (Graph.new raw).edges = Adj raw := funext fun a => funext fun b => propext (adj_new raw a b)
  unfold PeriodicConnected Joined
  rw [isVertex_new_eq, this]

theorem quotientConnected_new : QuotientConnected (Graph.new raw).edges ↔ QuotientConnected raw := by
  unfold QuotientConnected QJoined QAdj
  rw [isVertex_new_eq, isDirected_new_eq]

/-- the map of the infinite graph -/
theorem IsGraphAut.infinite (h : IsGraphAut raw pos vm em A) (hc : PeriodicConnected raw) {v0 : Nat}
    (hv0 : IsVertex raw v0) : ∃ (c : Fin (LabelVector.dim T) → ℚ) (Φ : Nat × T → Nat × T),
      Set.BijOn Φ {x | IsVertex raw x.1} {x | IsVertex raw x.1} ∧
      (∀ x, IsVertex raw x.1 → (Φ x).1 = vm x.1 ∧ place pos (Φ x) = A.mulVec (place pos x) + c) ∧
      ∀ x y, IsVertex raw x.1 → IsVertex raw y.1 → (Adj raw (Φ x) (Φ y) ↔ Adj raw x y) := by
  classical
  have hsp := span_edgeVecs (pos := pos) hc hv0
  have hA := h.isUnit hsp
  have hinj : Function.Injective A.mulVec := Matrix.mulVec_injective_of_isUnit hA
  have hex : ∀ x : Nat × T, IsVertex raw x.1 → ∃ t, place pos (vm x.1, t) =
      A.mulVec (place pos x) + (place pos (vm v0, (0 : T)) - A.mulVec (place pos (v0, (0 : T)))) := by
    intro x hx
    obtain ⟨t, -, ht⟩ := h.lift (hc v0 x.1 hv0 hx 0 x.2) 0
    refine ⟨t, ?_⟩
    rw [Matrix.mulVec_sub] at ht
    rw [sub_eq_iff_eq_add] at ht
    rw [ht]
    abel
  set c := place pos (vm v0, (0 : T)) - A.mulVec (place pos (v0, (0 : T))) with hcdef
  choose! f hf using hex
  have hplace : ∀ x, IsVertex raw x.1 → place pos (vm x.1, f x) = A.mulVec (place pos x) + c := hf
  refine ⟨c, fun x => (vm x.1, f x), ⟨?_, ?_, ?_⟩, fun x hx => ⟨rfl, hplace x hx⟩, ?_⟩
  · intro x hx; exact h.vbij.mapsTo hx
  · intro x hx y hy hxy
    simp only [Prod.mk.injEq] at hxy
    have h1 := h.vbij.injOn hx hy hxy.1
    have h2 := hplace x hx
    rw [hxy.1, hxy.2, hplace y hy] at h2
    have h3 := hinj (add_right_cancel h2)
    unfold place at h3
    rw [h1] at h3
    exact (Prod.ext h1 (shv_inj (add_left_cancel h3)).symm)
  · intro y hy
    obtain ⟨v, hv, hvy⟩ := h.vbij.surjOn hy
    obtain ⟨n, hn, hone⟩ := h.pow_one hsp
    -- the inverse of `A` is a power of `A`
    have hpow : ∀ (m : Nat) (t : T), ∃ t' : T, shv t' = (A ^ m).mulVec (shv t) := by
      intro m
      induction m with
      | zero => intro t; exact ⟨t, by simp⟩
      | succ m ih =>
        intro t
        obtain ⟨t1, h1⟩ := ih t
        obtain ⟨t2, h2⟩ := h.integral hc hv0 t1
        exact ⟨t2, by rw [h2, h1, Matrix.mulVec_mulVec, ← pow_succ']⟩
    obtain ⟨t, ht⟩ := hpow (n - 1) (y.2 - f (v, 0))
    have hAt : A.mulVec (shv t) = shv (y.2 - f (v, 0)) := by
      rw [ht, Matrix.mulVec_mulVec, ← pow_succ', Nat.sub_add_cancel hn, hone, Matrix.one_mulVec]
    refine ⟨(v, t), hv, ?_⟩
    refine Prod.ext hvy ?_
    have h1 := hplace (v, t) hv
    have h2 := hplace (v, 0) hv
    unfold place at h1 h2
    simp only [shv_zero, add_zero] at h2
    simp only at h1
    rw [Matrix.mulVec_add, hAt, shv_sub] at h1
    apply shv_inj
    have : shv (f (v, t)) = A.mulVec (pos v) + c + (shv y.2 - shv (f (v, 0))) - pos (vm v) := by
      rw [eq_sub_iff_add_eq, add_comm, h1]; abel
    show shv (f (v, t)) = shv y.2
    rw [this, ← h2]
    abel
  · intro x y hx hy
    have hpx := hplace x hx
    have hpy := hplace y hy
    have hdiff : place pos (vm y.1, f y) - place pos (vm x.1, f x) = A.mulVec (place pos y - place pos x) := by
      rw [hpx, hpy, Matrix.mulVec_sub]; abel
    constructor
    · intro had
      obtain ⟨e', he', h1, h2, h3, h4⟩ := adj_place (pos := pos) had
      obtain ⟨e, he, rfl⟩ := h.ebij.surjOn he'
      have e1 : e.head = x.1 := by
        apply h.vbij.injOn ((isVertex_iff _ _).2 ⟨e, he, rfl⟩) hx
        rw [← h.head e he]; exact h1
      have e2 : e.tail = y.1 := by
        apply h.vbij.injOn ((isVertex_iff _ _).2 ⟨e.neg, isDirected_neg.2 he, rfl⟩) hy
        show vm e.tail = vm y.1
        rw [← h.tail e he]; exact h2
      refine ⟨e, he, e1, e2, ?_⟩
      rw [hdiff, h.vec e he] at h4
      have h5 := hinj h4
      rw [edgeVec_eq, e1, e2] at h5
      unfold place at h5
      apply shv_inj
      rw [shv_add]
      have : shv x.2 + shv e.shift = (pos y.1 + shv e.shift - pos x.1) + pos x.1 + shv x.2 - pos y.1 := by abel
      rw [this, ← h5]
      abel
    · intro had
      obtain ⟨e, he, h1, h2, h3, h4⟩ := adj_place (pos := pos) had
      refine ⟨em e, h.ebij.mapsTo he, ?_, ?_, ?_⟩
      · rw [h.head e he, h1]
      · rw [h.tail e he, h2]
      · have h5 := h.vec e he
        rw [← h4, ← hdiff, edgeVec_eq, h.head e he, h.tail e he, h1, h2] at h5
        unfold place at h5
        simp only at h5
        apply shv_inj
        rw [shv_add]
        have : shv (f x) + shv (em e).shift = (pos (vm y.1) + shv (em e).shift - pos (vm x.1)) + pos (vm x.1) +
          shv (f x) - pos (vm y.1) := by abel
        show shv (f x) + shv (em e).shift = shv (f y)
        rw [this, h5]
        abel

theorem genEq_of_trans {α : Type} {U : List (α × α)} (hsymm : ∀ x y, (x, y) ∈ U → (y, x) ∈ U)
    (htrans : ∀ x y z, (x, y) ∈ U → (y, z) ∈ U → (x, z) ∈ U) (x y : α) : GenEq U x y ↔ x = y ∨ (x, y) ∈ U := by
  constructor
  · intro h
    induction h with
    | rel x y h => exact Or.inr h
    | refl x => exact Or.inl rfl
    | symm x y _ ih =>
      rcases ih with rfl | ih
      · exact Or.inl rfl
      · exact Or.inr (hsymm _ _ ih)
    | trans x y z _ _ ih1 ih2 =>
      rcases ih1 with rfl | ih1
      · exact ih2
      · rcases ih2 with rfl | ih2
        · exact Or.inr ih1
        · exact Or.inr (htrans _ _ _ ih1 ih2)
  · rintro (rfl | h)
    · exact Relation.EqvGen.refl _
    · exact Relation.EqvGen.rel _ _ h

variable {g : Graph T}

/-- A list of automorphisms that stands for a group. -/
structure GroupList (g : Graph T) (pos : Nat → Fin (LabelVector.dim T) → ℚ) (l : List (Automorphism T)) : Prop where
  good : ∀ x ∈ l, GoodAut g.edges pos x
  grp : ∃ H : Subgroup (Equiv.Perm {e : Edge T // IsDirected g.edges e}), ∀ y, y ∈ H ↔ y ∈ l.map (autPerm g.edges)

theorem GroupList.one {l : List (Automorphism T)} (h : GroupList g pos l) : ∃ x ∈ l, autPerm g.edges x = 1 := by
  obtain ⟨H, hH⟩ := h.grp
  have := (hH 1).1 H.one_mem
  simpa using this

theorem GroupList.mul {l : List (Automorphism T)} (h : GroupList g pos l) {x y : Automorphism T} (hx : x ∈ l)
    (hy : y ∈ l) : ∃ z ∈ l, autPerm g.edges z = autPerm g.edges x * autPerm g.edges y := by
  obtain ⟨H, hH⟩ := h.grp
  have := (hH _).1 (H.mul_mem ((hH _).2 (List.mem_map_of_mem hx)) ((hH _).2 (List.mem_map_of_mem hy)))
  simpa using this

theorem GroupList.inv {l : List (Automorphism T)} (h : GroupList g pos l) {x : Automorphism T} (hx : x ∈ l) :
    ∃ z ∈ l, autPerm g.edges z = (autPerm g.edges x)⁻¹ := by
  obtain ⟨H, hH⟩ := h.grp
  have := (hH _).1 (H.inv_mem ((hH _).2 (List.mem_map_of_mem hx)))
  simpa using this

theorem GoodAut.vertex {a : Automorphism T} (ha : GoodAut raw pos a) (e : {e : Edge T // IsDirected raw e}) (w : Nat) :
    a.vertexMap.lookup e.1.head = some w ↔ w = (autPerm raw a e).1.head := by
  obtain ⟨A, vm, em, h1, h2⟩ := ha
  rw [h1.vkeys, autPerm_apply h1 h2, h2.head _ e.2]
  exact ⟨fun h => h.2, fun h => ⟨(isVertex_iff _ _).2 ⟨e.1, e.2, rfl⟩, h⟩⟩

theorem GoodAut.edge {a : Automorphism T} (ha : GoodAut raw pos a) (e : {e : Edge T // IsDirected raw e}) (f : Edge T) :
    a.edgeMap.lookup e.1 = some f ↔ f = (autPerm raw a e).1 := by
  rw [autPerm_lookup ha e]
  simp [eq_comm]

theorem GoodAut.neg {a : Automorphism T} (ha : GoodAut raw pos a) (e : {e : Edge T // IsDirected raw e}) :
    (autPerm raw a ⟨e.1.neg, isDirected_neg.2 e.2⟩).1 = (autPerm raw a e).1.neg := by
  obtain ⟨A, vm, em, h1, h2⟩ := ha
  rw [autPerm_apply h1 h2, autPerm_apply h1 h2]
  exact h2.rev _ e.2

theorem vertexOrbits_ok {l : List (Automorphism T)} (h : GroupList g pos l) :
    ∃ cs, vertexOrbits g l = .ok cs ∧ (∀ c ∈ cs, c ≠ []) ∧ cs.flatten.Perm g.vertices ∧
      ∀ c ∈ cs, ∀ x ∈ c, ∀ y, y ∈ c ↔ ∃ φ ∈ l, φ.vertexMap.lookup x = some y := by
  have hin : ∀ φ ∈ l, ∃ ps : List (Nat × Nat), (omap (fun v => do
      let w ← unwrap (φ.vertexMap.lookup v)
      .ok (v, w)) g.vertices : Outcome (List (Nat × Nat))) = .ok ps ∧
      ∀ x y, (x, y) ∈ ps ↔ IsVertex g.edges x ∧ φ.vertexMap.lookup x = some y := by
    intro φ hφ
    obtain ⟨A, vm, em, h1, h2⟩ := h.good φ hφ
    refine ⟨g.vertices.map (fun v => (v, vm v)), ?_, ?_⟩
    · apply omap_ok
      intro v hv
      rw [h1.vt.get ((g.mem_vertices v).1 hv)]
      rfl
    · intro x y
      simp only [List.mem_map, Prod.mk.injEq, g.mem_vertices]
      rw [h1.vkeys]
      constructor
      · rintro ⟨a, ha, rfl, rfl⟩; exact ⟨ha, ha, rfl⟩
      · rintro ⟨ha, -, rfl⟩; exact ⟨x, ha, rfl, rfl⟩
  choose! F hF1 hF2 using hin
  have hall := omap_ok hF1
  have hU : ∀ x y, (x, y) ∈ (l.map F).flatten ↔ IsVertex g.edges x ∧ ∃ φ ∈ l, φ.vertexMap.lookup x = some y := by
    intro x y
    rw [List.mem_flatten]
    constructor
    · rintro ⟨ps, hps, hxy⟩
      obtain ⟨φ, hφ, rfl⟩ := List.mem_map.1 hps
      have := (hF2 φ hφ x y).1 hxy
      exact ⟨this.1, φ, hφ, this.2⟩
    · rintro ⟨hx, φ, hφ, hl⟩
      exact ⟨_, List.mem_map_of_mem hφ, (hF2 φ hφ x y).2 ⟨hx, hl⟩⟩
  obtain ⟨p, h1, h2⟩ := PRel.uniteAll (l.map F).flatten (PRel.new (α := Nat))
  rw [List.nil_append] at h2
  obtain ⟨p', cs, h3, -, h4, h5, h6, -⟩ := h2.classes g.vertices
  refine ⟨cs, ?_, h4, h5, ?_⟩
  · unfold vertexOrbits
    rw [bind_ok hall, bind_ok h1, bind_ok h3]
  · intro c hc x hx y
    have hxv : IsVertex g.edges x := (g.mem_vertices x).1 (h5.mem_iff.1 (List.mem_flatten.2 ⟨c, hc, hx⟩))
    rw [h6 c hc x hx y, genEq_of_trans]
    · rw [hU]
      constructor
      · rintro ⟨-, rfl | h⟩
        · obtain ⟨φ, hφ, h1⟩ := h.one
          obtain ⟨e, he, rfl⟩ := (isVertex_iff _ _).1 hxv
          refine ⟨φ, hφ, ((h.good φ hφ).vertex ⟨e, he⟩ _).2 ?_⟩
          rw [h1]; rfl
        · exact h.2
      · rintro ⟨φ, hφ, hl⟩
        refine ⟨?_, Or.inr ⟨hxv, φ, hφ, hl⟩⟩
        obtain ⟨A, vm, em, h1, h2⟩ := h.good φ hφ
        rw [g.mem_vertices]
        obtain ⟨h7, rfl⟩ := (h1.vkeys _ _).1 hl
        exact h2.vbij.mapsTo h7
    · intro x y hxy
      obtain ⟨hx, φ, hφ, hl⟩ := (hU _ _).1 hxy
      obtain ⟨e, he, rfl⟩ := (isVertex_iff _ _).1 hx
      rw [(h.good φ hφ).vertex ⟨e, he⟩] at hl
      subst hl
      obtain ⟨ψ, hψ, h1⟩ := h.inv hφ
      refine (hU _ _).2 ⟨(isVertex_iff _ _).2 ⟨_, (autPerm g.edges φ ⟨e, he⟩).2, rfl⟩, ψ, hψ, ?_⟩
      rw [(h.good ψ hψ).vertex, h1]; simp
    · intro x y z hxy hyz
      obtain ⟨hx, φ, hφ, hl⟩ := (hU _ _).1 hxy
      obtain ⟨-, ψ, hψ, hl'⟩ := (hU _ _).1 hyz
      obtain ⟨e, he, rfl⟩ := (isVertex_iff _ _).1 hx
      rw [(h.good φ hφ).vertex ⟨e, he⟩] at hl
      subst hl
      rw [(h.good ψ hψ).vertex] at hl'
      subst hl'
      obtain ⟨χ, hχ, h1⟩ := h.mul hψ hφ
      refine (hU _ _).2 ⟨hx, χ, hχ, ?_⟩
      rw [(h.good χ hχ).vertex ⟨e, he⟩, h1, Equiv.Perm.mul_apply]

theorem edgeOrbits_ok (hg : g.WF) {l : List (Automorphism T)} (h : GroupList g pos l) :
    ∃ cs, edgeOrbits g l = .ok cs ∧ (∀ c ∈ cs, c ≠ []) ∧ cs.flatten.Perm g.edges ∧
      ∀ c ∈ cs, ∀ x ∈ c, ∀ y, y ∈ c ↔ ∃ φ ∈ l, ∃ f, φ.edgeMap.lookup x = some f ∧ y = f.canonical := by
  have hdir : ∀ e ∈ g.edges, IsDirected g.edges e := fun e he => Or.inl he
  have hin : ∀ φ ∈ l, ∃ ps : List (Edge T × Edge T), (omap (fun e => do
      let f ← unwrap (φ.edgeMap.lookup e)
      .ok (e, f.canonical)) g.edges : Outcome (List (Edge T × Edge T))) = .ok ps ∧
      ∀ x y, (x, y) ∈ ps ↔ x ∈ g.edges ∧ ∃ f, φ.edgeMap.lookup x = some f ∧ y = f.canonical := by
    intro φ hφ
    obtain ⟨A, vm, em, h1, h2⟩ := h.good φ hφ
    refine ⟨g.edges.map (fun e => (e, (em e).canonical)), ?_, ?_⟩
    · apply omap_ok
      intro e he
      rw [h1.et.get (hdir e he)]
      rfl
    · intro x y
      simp only [List.mem_map, Prod.mk.injEq]
      constructor
      · rintro ⟨a, ha, rfl, rfl⟩; exact ⟨ha, _, h1.et.get (hdir _ ha), rfl⟩
      · rintro ⟨ha, f, hf, rfl⟩
        rw [h1.et.get (hdir _ ha)] at hf
        cases hf
        exact ⟨x, ha, rfl, rfl⟩
  choose! F hF1 hF2 using hin
  have hall := omap_ok hF1
  have hU : ∀ x y, (x, y) ∈ (l.map F).flatten ↔
      x ∈ g.edges ∧ ∃ φ ∈ l, ∃ f, φ.edgeMap.lookup x = some f ∧ y = f.canonical := by
    intro x y
    rw [List.mem_flatten]
    constructor
    · rintro ⟨ps, hps, hxy⟩
      obtain ⟨φ, hφ, rfl⟩ := List.mem_map.1 hps
      have := (hF2 φ hφ x y).1 hxy
      exact ⟨this.1, φ, hφ, this.2⟩
    · rintro ⟨hx, φ, hφ, hl⟩
      exact ⟨_, List.mem_map_of_mem hφ, (hF2 φ hφ x y).2 ⟨hx, hl⟩⟩
  obtain ⟨p, h1, h2⟩ := PRel.uniteAll (l.map F).flatten (PRel.new (α := Edge T))
  rw [List.nil_append] at h2
  obtain ⟨p', cs, h3, -, h4, h5, h6, -⟩ := h2.classes g.edges
  have canon_cases : ∀ f : Edge T, f.canonical = f ∨ f.canonical = f.neg := by
    intro f; unfold Edge.canonical; split <;> simp
  refine ⟨cs, ?_, h4, h5, ?_⟩
  · unfold edgeOrbits
    rw [bind_ok hall, bind_ok h1, bind_ok h3]
  · intro c hc x hx y
    have hxv : x ∈ g.edges := (h5.mem_iff.1 (List.mem_flatten.2 ⟨c, hc, hx⟩))
    rw [h6 c hc x hx y, genEq_of_trans]
    · rw [hU]
      constructor
      · rintro ⟨-, rfl | h⟩
        · obtain ⟨φ, hφ, h1⟩ := h.one
          refine ⟨φ, hφ, x, ?_, (hg.canon x hxv).symm⟩
          rw [(h.good φ hφ).edge ⟨x, hdir x hxv⟩, h1]; rfl
        · exact h.2
      · rintro ⟨φ, hφ, hl⟩
        refine ⟨?_, Or.inr ⟨hxv, φ, hφ, hl⟩⟩
        obtain ⟨f, hf, rfl⟩ := hl
        rw [(h.good φ hφ).edge ⟨x, hdir x hxv⟩] at hf
        subst hf
        exact Graph.canon_mem hg (autPerm g.edges φ ⟨x, hdir x hxv⟩).2
    · intro x y hxy
      obtain ⟨hx, φ, hφ, f, hf, rfl⟩ := (hU _ _).1 hxy
      rw [(h.good φ hφ).edge ⟨x, hdir x hx⟩] at hf
      subst hf
      obtain ⟨ψ, hψ, h1⟩ := h.inv hφ
      have hfd := (autPerm g.edges φ ⟨x, hdir x hx⟩).2
      refine (hU _ _).2 ⟨Graph.canon_mem hg hfd, ψ, hψ, ?_⟩
      have hback : (autPerm g.edges ψ (autPerm g.edges φ ⟨x, hdir x hx⟩)).1 = x := by
        rw [h1]; simp
      rcases canon_cases (autPerm g.edges φ ⟨x, hdir x hx⟩).1 with hcc | hcc
      · rw [hcc]
        exact ⟨x, ((h.good ψ hψ).edge _ _).2 hback.symm, (hg.canon x hx).symm⟩
      · rw [hcc]
        refine ⟨x.neg, ((h.good ψ hψ).edge ⟨_, isDirected_neg.2 hfd⟩ _).2 ?_, ?_⟩
        · rw [(h.good ψ hψ).neg, hback]
        · rw [canonical_neg, hg.canon x hx]
    · intro x y z hxy hyz
      obtain ⟨hx, φ, hφ, f, hf, rfl⟩ := (hU _ _).1 hxy
      obtain ⟨-, ψ, hψ, f', hf', rfl⟩ := (hU _ _).1 hyz
      rw [(h.good φ hφ).edge ⟨x, hdir x hx⟩] at hf
      subst hf
      have hfd := (autPerm g.edges φ ⟨x, hdir x hx⟩).2
      obtain ⟨χ, hχ, h1⟩ := h.mul hψ hφ
      refine (hU _ _).2 ⟨hx, χ, hχ, (autPerm g.edges ψ (autPerm g.edges φ ⟨x, hdir x hx⟩)).1, ?_, ?_⟩
      · rw [(h.good χ hχ).edge ⟨x, hdir x hx⟩, h1, Equiv.Perm.mul_apply]
      · rcases canon_cases (autPerm g.edges φ ⟨x, hdir x hx⟩).1 with hcc | hcc
        · rw [hcc, (h.good ψ hψ).edge] at hf'
          rw [hf']
        · rw [hcc, (h.good ψ hψ).edge ⟨_, isDirected_neg.2 hfd⟩, (h.good ψ hψ).neg] at hf'
          rw [hf', canonical_neg]

end Systre
