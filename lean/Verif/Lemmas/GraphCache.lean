import Verif.Model.GraphCache
import Verif.Lemmas.GraphBasic

namespace Systre
set_option linter.unusedSectionVars false

namespace Prog
variable {Op : Type} {Res : Op → Type} {α β S : Type}

theorem bind_eq (x : Prog Op Res α) (f : α → Prog Op Res β) : (x >>= f) = x.bind f := rfl

theorem runPure_bind (p : (op : Op) → Outcome (Res op)) (x : Prog Op Res α) (f : α → Prog Op Res β) :
    (x >>= f).runPure p = x.runPure p >>= fun a => (f a).runPure p := by
  rw [bind_eq]
  induction x with
  | ret r => cases r <;> rfl
  | call op k ih =>
    simp only [Prog.bind, runPure]
    cases p op with
    | ok r => exact ih r
    | panic => rfl
    | diverge => rfl

theorem runPure_call (p : (op : Op) → Outcome (Res op)) (op : Op) (k : Res op → Prog Op Res α) :
    (call op k).runPure p = p op >>= fun r => (k r).runPure p := by
  simp only [runPure]
  cases p op <;> rfl

theorem runPure_pmap (p : (op : Op) → Outcome (Res op)) (f : α → Prog Op Res β) (l : List α) :
    (pmap f l).runPure p = omap (fun a => (f a).runPure p) l := by
  induction l with
  | nil => rfl
  | cons a l ih =>
    rw [pmap, runPure_bind, omap]
    cases (f a).runPure p with
    | ok b =>
      rw [Outcome.ok_bind, runPure_bind, ih]
      cases omap (fun a => (f a).runPure p) l <;> rfl
    | panic => rfl
    | diverge => rfl

theorem run_eq {h : (op : Op) → S → Outcome (Res op) × S} {p : (op : Op) → Outcome (Res op)} {I : S → Prop}
    (hI : ∀ op s, I s → (h op s).1 = p op ∧ I (h op s).2) (x : Prog Op Res α) :
    ∀ s, I s → (x.run h s).1 = x.runPure p ∧ I (x.run h s).2 := by
  induction x with
  | ret r => intro s hs; exact ⟨rfl, hs⟩
  | call op k ih =>
    intro s hs
    obtain ⟨h1, h2⟩ := hI op s hs
    simp only [run, runPure]
    rw [← h1]
    rcases hh : h op s with ⟨r, s'⟩
    rw [hh] at h2
    cases r with
    | ok r => exact ih r s' h2
    | panic => exact ⟨rfl, h2⟩
    | diverge => exact ⟨rfl, h2⟩

end Prog

section
variable {T : Type} [LabelVector T] {A : Type} (g : Graph T)

theorem placementProg_pure (steps : Nat) : (placementProg T steps).runPure (pure0 g) = placement steps g := by
  unfold placementProg
  rw [Prog.runPure_call]
  simp only [pure0, Outcome.ok_bind]
  unfold placement laplaceSystem
  by_cases hn : g.vertices.length = 0
  · simp only [hn, if_true]
    rfl
  · simp only [if_neg hn]
    rw [Prog.runPure_bind, Prog.runPure_pmap]
    have : (fun i => Prog.runPure (pure0 g) (if i = 0 then (.ret (.ok ((List.replicate g.vertices.length (0 : Int)).set 0 1,
        List.replicate (LabelVector.dim T) (0 : Int))) : Prog0 T _)
        else (do
          let v ← .ret (vecGet g.vertices i)
          .call (.incidences v) fun (es : List (Edge T)) =>
            .ret (laplaceRow g.vertices i es (List.replicate g.vertices.length 0)
              (List.replicate (LabelVector.dim T) 0)) : Prog0 T _))) =
        (fun i => if i = 0 then .ok ((List.replicate g.vertices.length (0 : Int)).set 0 1,
          List.replicate (LabelVector.dim T) 0)
        else do
          let v ← vecGet g.vertices i
          let es ← g.incidences v
          laplaceRow g.vertices i es (List.replicate g.vertices.length 0) (List.replicate (LabelVector.dim T) 0)) := by
      funext i
      by_cases hi : i = 0
      · simp only [if_pos hi]; rfl
      · simp only [if_neg hi]
        rw [Prog.runPure_bind]
        show (vecGet g.vertices i >>= _) = _
        congr 1
        funext v
        rw [Prog.runPure_call]
        rfl
    rw [this]
    simp only [bind_assoc, Outcome.ok_bind]
    congr 1
    funext rows
    rw [Prog.runPure_bind]
    show (Modular.solveWith _ _ _ _ _ >>= _) = _
    congr 1
    funext r
    rw [Prog.runPure_bind]
    show (unwrap r >>= _) = _
    congr 1
    funext p
    rw [Prog.runPure_bind]
    rfl

theorem edgeVectorProg_pure (steps : Nat) (e : Edge T) :
    (edgeVectorProg e).runPure (pure1 g steps) = edgeVectorIn (placement steps g) e := by
  unfold edgeVectorProg edgeVectorIn
  rw [Prog.runPure_call]
  congr 1
  funext p
  rw [Prog.runPure_call]
  rfl

theorem uniqueDeltasProg_pure (steps : Nat) : ∀ (es : List (Edge T)) (seen : List (List Rat))
    (toEdge : List (List Rat × Edge T)), (uniqueDeltasProg es seen toEdge).runPure (pure1 g steps) =
      uniqueDeltasLoop (placement steps g) es seen toEdge := by
  intro es
  induction es with
  | nil => intro _ _; rfl
  | cons e es ih =>
    intro seen toEdge
    rw [uniqueDeltasProg, uniqueDeltasLoop, Prog.runPure_bind, edgeVectorProg_pure]
    congr 1
    funext delta
    by_cases h : delta ∈ seen
    · simp only [if_pos h]; exact ih _ _
    · simp only [if_neg h]; exact ih _ _

theorem edgesByUniqueDeltasProg_pure (steps : Nat) :
    (edgesByUniqueDeltasProg T).runPure (pure1 g steps) = edgesByUniqueDeltas (placement steps g) g := by
  unfold edgesByUniqueDeltasProg edgesByUniqueDeltas
  rw [Prog.runPure_call]
  simp only [pure1, pure0, Outcome.ok_bind]
  rw [Prog.runPure_pmap]
  congr 1
  funext v
  rw [Prog.runPure_call]
  unfold uniqueDeltas
  simp only [pure1, pure0, bind_assoc]
  congr 1
  funext es
  rw [Prog.runPure_bind, uniqueDeltasProg_pure]
  rfl

/-- What is in the caches is what the functions would compute. -/
structure CacheInv (steps : Nat) (sym : Prog2 T (List A)) (s : Caches T A) : Prop where
  vertices : s.vertices = none ∨ s.vertices = some g.vertices
  incidences : s.incidences = [] ∨ s.incidences = g.incidenceMap
  positions : s.positions = [] ∨ placement steps g = .ok s.positions
  edgeLookup : s.edgeLookup = [] ∨ edgesByUniqueDeltas (placement steps g) g = .ok s.edgeLookup
  symmetries : s.symmetries = [] ∨ sym.runPure (pure2 g steps) = .ok s.symmetries

variable (steps : Nat) (sym : Prog2 T (List A))

theorem handle0_ok (op : Op0) (s : Caches T A) (h : CacheInv g steps sym s) :
    (handle0 g op s).1 = pure0 g op ∧ CacheInv g steps sym (handle0 g op s).2 := by
  cases op with
  | vertices =>
    simp only [handle0, pure0]
    rcases h.vertices with hv | hv
    · rw [hv]; exact ⟨rfl, Or.inr rfl, h.incidences, h.positions, h.edgeLookup, h.symmetries⟩
    · rw [hv]; exact ⟨rfl, h⟩
  | incidences v =>
    simp only [handle0, pure0, Graph.incidences]
    have aux : (match g.incidenceMap.lookup v with
        | some es => ((.ok es, { s with incidences := g.incidenceMap }) : Outcome (List (Edge T)) × Caches T A)
        | none => (.panic, s)).1 = unwrap (g.incidenceMap.lookup v) ∧
        CacheInv g steps sym (match g.incidenceMap.lookup v with
        | some es => ((.ok es, { s with incidences := g.incidenceMap }) : Outcome (List (Edge T)) × Caches T A)
        | none => (.panic, s)).2 := by
      cases g.incidenceMap.lookup v with
      | none => exact ⟨rfl, h⟩
      | some es => exact ⟨rfl, h.vertices, Or.inr rfl, h.positions, h.edgeLookup, h.symmetries⟩
    rcases h.incidences with hv | hv
    · rw [hv]
      exact aux
    · rw [hv]
      cases hl : g.incidenceMap.lookup v with
      | none => exact ⟨rfl, h⟩
      | some es => exact ⟨rfl, h⟩

theorem handle1_ok (op : Op1) (s : Caches T A) (h : CacheInv g steps sym s) :
    (handle1 g steps op s).1 = pure1 g steps op ∧ CacheInv g steps sym (handle1 g steps op s).2 := by
  cases op with
  | base op => exact handle0_ok g steps sym op s h
  | position v =>
    simp only [handle1, pure1]
    cases hl : s.positions.lookup v with
    | some p =>
      refine ⟨?_, h⟩
      rcases h.positions with hv | hv
      · rw [hv] at hl; simp at hl
      · unfold positionIn; rw [hv, Outcome.ok_bind, hl]; rfl
    | none =>
      obtain ⟨h1, h2⟩ := Prog.run_eq (handle0_ok g steps sym) (placementProg T steps) s h
      rw [placementProg_pure] at h1
      simp only
      rcases hr : (placementProg T steps).run (handle0 g) s with ⟨r, s'⟩
      rw [hr] at h1 h2
      simp only at h1 h2
      unfold positionIn
      rw [← h1]
      cases r with
      | ok tb =>
        simp only [Outcome.ok_bind]
        cases tb.lookup v with
        | none => exact ⟨rfl, h2⟩
        | some p => exact ⟨rfl, h2.vertices, h2.incidences, Or.inr h1.symm, h2.edgeLookup, h2.symmetries⟩
      | panic => exact ⟨rfl, h2⟩
      | diverge => exact ⟨rfl, h2⟩

theorem handle2_ok (op : Op2) (s : Caches T A) (h : CacheInv g steps sym s) :
    (handle2 g steps op s).1 = pure2 g steps op ∧ CacheInv g steps sym (handle2 g steps op s).2 := by
  cases op with
  | base op => exact handle1_ok g steps sym op s h
  | edgeByUniqueDelta v delta =>
    simp only [handle2, pure2]
    by_cases hl : (s.edgeLookup.lookup v).isNone
    · rw [if_pos hl]
      obtain ⟨h1, h2⟩ := Prog.run_eq (handle1_ok g steps sym) (edgesByUniqueDeltasProg T) s h
      rw [edgesByUniqueDeltasProg_pure] at h1
      rcases hr : (edgesByUniqueDeltasProg T).run (handle1 g steps) s with ⟨r, s'⟩
      rw [hr] at h1 h2
      simp only at h1 h2
      unfold edgeByUniqueDeltaIn
      rw [← h1]
      cases r with
      | ok data => exact ⟨rfl, h2.vertices, h2.incidences, h2.positions, Or.inr h1.symm, h2.symmetries⟩
      | panic => exact ⟨rfl, h2⟩
      | diverge => exact ⟨rfl, h2⟩
    · rw [if_neg hl]
      refine ⟨?_, h⟩
      rcases h.edgeLookup with hv | hv
      · rw [hv] at hl; simp at hl
      · unfold edgeByUniqueDeltaIn; rw [hv]; rfl

theorem handle3_ok (op : Op3) (s : Caches T A) (h : CacheInv g steps sym s) :
    (handle3 g steps sym op s).1 = pure3 g steps sym op ∧ CacheInv g steps sym (handle3 g steps sym op s).2 := by
  cases op with
  | base op => exact handle2_ok g steps sym op s h
  | symmetries =>
    simp only [handle3, pure3]
    cases hl : s.symmetries with
    | cons a as =>
      refine ⟨?_, h⟩
      rcases h.symmetries with hv | hv
      · rw [hv] at hl; simp at hl
      · rw [hl] at hv; exact hv.symm
    | nil =>
      obtain ⟨h1, h2⟩ := Prog.run_eq (handle2_ok g steps sym) sym s h
      simp only
      rcases hr : sym.run (handle2 g steps) s with ⟨r, s'⟩
      rw [hr] at h1 h2
      simp only at h1 h2
      rw [← h1]
      cases r with
      | ok syms => exact ⟨rfl, h2.vertices, h2.incidences, h2.positions, h2.edgeLookup, Or.inr h1.symm⟩
      | panic => exact ⟨rfl, h2⟩
      | diverge => exact ⟨rfl, h2⟩

theorem cacheInv_new : CacheInv g steps sym (Caches.new T A) :=
  ⟨Or.inl rfl, Or.inl rfl, Or.inl rfl, Or.inl rfl, Or.inl rfl⟩

theorem cacheInv_after (history : List Op3) : CacheInv g steps sym (afterCalls g steps sym history) := by
  unfold afterCalls
  have : ∀ (hist : List Op3) s, CacheInv g steps sym s →
      CacheInv g steps sym (hist.foldl (fun s op => (handle3 g steps sym op s).2) s) := by
    intro hist
    induction hist with
    | nil => intro s h; exact h
    | cons op hist ih => intro s h; exact ih _ (handle3_ok g steps sym op s h).2
  exact this history _ (cacheInv_new g steps sym)

end
end Systre
