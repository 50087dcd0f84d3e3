import Verif.Model.Report
import Verif.Spec.Report
import Verif.Lemmas.Display
import Verif.Lemmas.Stability
import Verif.Lemmas.ShiftNorm

/-!
# Lemmas about the report program
-/

namespace Systre
namespace Report

/-- the label is shown as its coordinates -/
class ShowsCoordinates (T : Type) [LabelVector T] [Shown T] : Prop where
  text : ∀ t : T, Shown.text t = (tuple toString (LabelVector.toVec t)).toList

theorem natText (n : Nat) : (toString n).toList = Nat.toDigits 10 n := by simp [toString]

theorem intText' (z : Int) : (toString z).toList = intText z := by
  cases z <;> simp [toString, Int.repr, intText]

theorem str (s : String) : toString s = s := rfl

theorem boolText' (b : Bool) : (toString b).toList = boolText b := by cases b <;> decide

theorem fractionText' (q : Rat) : (fractionText q).toList = rationalText q := by
  unfold fractionText rationalText
  split
  · rw [← intText']
  · simp only [str, String.toList_append, intText', natText, List.append_assoc]; rfl

theorem joinComma_eq (l : List (List Char)) : joinComma l = [',', ' '].intercalate l := by
  induction l with
  | nil => rfl
  | cons a l ih =>
    cases l with
    | nil => simp [joinComma, List.intercalate]
    | cons b l => 
      rw [joinComma, ih]
      · simp [List.intercalate]
      · simp

theorem pointText (p : List Rat) : ['('] ++ pointToString p ++ [')'] = (tuple fractionText p).toList := by
  unfold pointToString tuple
  rw [joinComma_eq]
  simp only [String.toList_append, String.toList_intercalate, List.map_map]
  have : p.map rationalText = p.map (String.toList ∘ fractionText) := by
    apply List.map_congr_left; intro q _; exact (fractionText' q).symm
  rw [this]; rfl

instance : ShowsCoordinates V2 := ⟨fun t => by
  simp only [tuple, String.toList_append, String.toList_intercalate, LabelVector.toVec, List.map_cons, List.map_nil, intText']
  simp [Shown.text, V2.text, List.intercalate]⟩

instance : ShowsCoordinates V3 := ⟨fun t => by
  simp only [tuple, String.toList_append, String.toList_intercalate, LabelVector.toVec, List.map_cons, List.map_nil, intText']
  simp [Shown.text, V3.text, List.intercalate]⟩

theorem print_bind {α β : Type} (o : List Char) (a : α) (f : α → Print β) :
    ((⟨o, .ok a⟩ : Print α) >>= f) = ⟨o ++ (f a).out, (f a).result⟩ := rfl

theorem print_bind_panic {α β : Type} (o : List Char) (f : α → Print β) :
    ((⟨o, .panic⟩ : Print α) >>= f) = ⟨o, .panic⟩ := rfl

theorem forEach_ok {α : Type} {f : α → Print Unit} {t : α → List Char} :
    ∀ {l : List α}, (∀ x ∈ l, f x = ⟨t x, .ok ()⟩) → forEach l f = ⟨l.flatMap t, .ok ()⟩
  | [], _ => rfl
  | x :: l, h => by
    rw [forEach, h x (by simp)]
    show (⟨t x ++ (forEach l f).out, (forEach l f).result⟩ : Print Unit) = _
    rw [forEach_ok (fun y hy => h y (by simp [hy]))]
    rfl

theorem printed_append (a b : List String) : printed (a ++ b) = printed a ++ printed b := by
  simp [printed]

theorem printed_map {α : Type} (l : List α) (f : α → String) :
    printed (l.map f) = l.flatMap (fun x => (f x).toList ++ ['\n']) := by
  simp [printed, List.flatMap_map]

section
variable {T : Type} [LabelVector T] [Shown T] [ShowsCoordinates T]

theorem edgeText_eq (e : Edge T) : e.text = (edgeLine e).toList := by
  unfold Edge.text edgeLine
  rw [ShowsCoordinates.text]
  simp only [str, String.toList_append, natText, List.append_assoc]; rfl

theorem graphText_eq (g : Graph T) : g.text = printed (g.edges.map edgeLine) := by
  rw [printed_map]
  unfold Graph.text
  simp only [edgeText_eq]

/-- the facts of the first half, as computed -/
def codeFacts (g n : Graph T) (seq : Nat → Nat → Nat) (c : Bool) : Facts T :=
  ⟨g.edges, n.edges, g.vertices.map (fun v => (v, (List.range 20).map (seq v))), c⟩

/-- the first half of the program -/
def firstPart (g : Graph T) : Print Bool := do
  sayln "Graph:".toList
  sayln g.text
  sayln "With normalized shifts:".toList
  let n ← call g.shiftNormalized
  sayln n.text
  sayln "Coordination sequences:".toList
  forEach g.vertices (fun v => do
    say (Nat.toDigits 10 v ++ [':', ' '])
    forEach (List.range 20) (fun k => do
      let c ← call (g.coordinationItem v k)
      say (' ' :: Nat.toDigits 10 c))
    sayln [])
  sayln []
  let c ← call g.isConnected
  sayln ("Connected: ".toList ++ boolText c)
  sayln []
  call g.isConnected

/-- the second half -/
def secondPart (tb : Outcome PosTable) (g : Graph T) : Print Unit := do
  forEach g.vertices (fun v => do
    let p ← call (positionIn tb v)
    sayln ("pos(".toList ++ Nat.toDigits 10 v ++ ") = (".toList ++ pointToString p ++ [')']))
  sayln []
  let b ← call (isStableIn tb g)
  sayln ("Stable: ".toList ++ boolText b)
  let b ← call (isLocallyStableIn tb g)
  sayln ("Locally stable: ".toList ++ boolText b)
  let b ← call (hasSecondOrderCollisionsIn tb g)
  sayln ("Second order collisions: ".toList ++ boolText b)
  sayln []
  forEach g.vertices (fun v => do
    let es ← call (g.incidences v)
    forEach es (fun ngb => do
      let delta ← call (edgeVectorIn tb ngb)
      let r ← call (edgeByUniqueDeltaIn tb g v delta)
      match r with
      | some e => sayln (Nat.toDigits 10 v ++ " => (".toList ++ pointToString delta ++ ") => ".toList ++ e.text)
      | none => sayln (Nat.toDigits 10 v ++ " => (".toList ++ pointToString delta ++ ") => None".toList)))

theorem andThen_assoc {α β γ : Type} (x : Print α) (f : α → Print β) (k : β → Print γ) :
    ((x >>= f) >>= k) = (x >>= fun a => f a >>= k) := by
  obtain ⟨o, r⟩ := x
  cases r with
  | ok a =>
    rw [print_bind, print_bind]
    rcases f a with ⟨o', b | _ | _⟩
    · show (⟨(o ++ o') ++ _, _⟩ : Print γ) = ⟨o ++ (o' ++ _), _⟩; rw [List.append_assoc]; rfl
    · rfl
    · rfl
  | panic => rfl
  | diverge => rfl

theorem testGraph_eq (tb : Outcome PosTable) (g : Graph T) :
    testGraph tb g = (firstPart g >>= fun c => (if c then secondPart tb g else pure ()) >>= fun _ => do
      sayln []
      sayln "==========".toList
      sayln []) := by
  unfold testGraph firstPart
  simp only [andThen_assoc]
  congr 1; funext _
  congr 1; funext _
  congr 1; funext _
  congr 1; funext _
  congr 1; funext _
  congr 1; funext _
  congr 1; funext _
  congr 1; funext _
  congr 1; funext _
  congr 1; funext _
  congr 1; funext _
  congr 1; funext c
  cases c with
  | false => rfl
  | true => simp only [if_true, secondPart, andThen_assoc] <;> rfl

theorem firstPart_ok {g n : Graph T} {seq : Nat → Nat → Nat} {c : Bool} (hn : g.shiftNormalized = .ok n)
    (hs : ∀ v ∈ g.vertices, ∀ k, g.coordinationItem v k = .ok (seq v k)) (hc : g.isConnected = .ok c) :
    firstPart g = ⟨printed (firstLines (codeFacts g n seq c)), .ok c⟩ := by
  have h1 : forEach g.vertices (fun v => do
      say (Nat.toDigits 10 v ++ [':', ' '])
      forEach (List.range 20) (fun k => do
        let c ← call (g.coordinationItem v k)
        say (' ' :: Nat.toDigits 10 c))
      sayln []) = ⟨printed (g.vertices.map (fun v => s!"{v}: " ++
        String.join (((List.range 20).map (seq v)).map (fun n => s!" {n}")))), .ok ()⟩ := by
    rw [printed_map]
    apply forEach_ok
    intro v hv
    have h2 : forEach (List.range 20) (fun k => do
        let c ← call (g.coordinationItem v k)
        say (' ' :: Nat.toDigits 10 c)) = ⟨(List.range 20).flatMap (fun k => ' ' :: Nat.toDigits 10 (seq v k)), .ok ()⟩ := by
      apply forEach_ok
      intro k _
      rw [hs v hv k]; rfl
    rw [h2]
    simp only [say, sayln, print_bind]
    congr 1
    simp only [String.toList_append, natText, str, List.append_assoc, List.nil_append, String.toList_join, List.flatMap_map]
    rfl
  unfold firstPart
  rw [h1, hn, hc]
  simp only [sayln, call, print_bind, graphText_eq]
  congr 1
  simp only [firstLines, printed_append, codeFacts, List.map_map, List.append_assoc]
  simp only [printed, List.flatMap_cons, List.flatMap_nil, boolText', str, String.toList_append, List.append_assoc,
    List.append_nil, List.nil_append, String.toList_empty]
  rfl

/-- all directed edges, vertex by vertex -/
def allInc (g : Graph T) : List (Edge T) := g.vertices.flatMap g.inc

/-- the facts of the second half, as computed -/
def codePlacement (g : Graph T) (pos : Nat → Fin (LabelVector.dim T) → ℚ) (s l c : Bool)
    (uniq : Edge T → Option (Edge T)) : PlacementFacts T :=
  ⟨g.vertices.map (fun v => (v, List.ofFn (pos v))), s, l, c,
    (allInc g).map (fun e => (e.head, List.ofFn (edgeVec pos e), uniq e))⟩

theorem secondPart_ok [LawfulLabelVector T] {g : Graph T} {tb : Outcome PosTable}
    {pos : Nat → Fin (LabelVector.dim T) → ℚ} (hp : Places tb g pos)
    {s l c : Bool} {uniq : Edge T → Option (Edge T)} (hs : isStableIn tb g = .ok s)
    (hl : isLocallyStableIn tb g = .ok l) (hc : hasSecondOrderCollisionsIn tb g = .ok c)
    (hu : ∀ e, IsDirected g.edges e →
      edgeByUniqueDeltaIn tb g e.head (List.ofFn (edgeVec pos e)) = .ok (uniq e)) :
    secondPart tb g = ⟨printed (secondLines (codePlacement g pos s l c uniq)), .ok ()⟩ := by
  have h1 : forEach g.vertices (fun v => do
      let p ← call (positionIn tb v)
      sayln ("pos(".toList ++ Nat.toDigits 10 v ++ ") = (".toList ++ pointToString p ++ [')'])) =
      ⟨printed (g.vertices.map (fun v => s!"pos({v}) = " ++ tuple fractionText (List.ofFn (pos v)))), .ok ()⟩ := by
    rw [printed_map]
    apply forEach_ok
    intro v hv
    rw [hp v hv]
    simp only [call, sayln, print_bind]
    congr 1
    simp only [str, String.toList_append, natText, List.append_assoc, ← pointText]
    rfl
  have h2 : forEach g.vertices (fun v => do
      let es ← call (g.incidences v)
      forEach es (fun ngb => do
        let delta ← call (edgeVectorIn tb ngb)
        let r ← call (edgeByUniqueDeltaIn tb g v delta)
        match r with
        | some e => sayln (Nat.toDigits 10 v ++ " => (".toList ++ pointToString delta ++ ") => ".toList ++ e.text)
        | none => sayln (Nat.toDigits 10 v ++ " => (".toList ++ pointToString delta ++ ") => None".toList))) =
      ⟨g.vertices.flatMap (fun v => (g.inc v).flatMap (fun e =>
        (s!"{e.head} => " ++ tuple fractionText (List.ofFn (edgeVec pos e)) ++ " => " ++
          match uniq e with
          | some e => edgeLine e
          | none => "None").toList ++ ['\n'])), .ok ()⟩ := by
    apply forEach_ok
    intro v hv
    rw [g.incidences_ok hv]
    simp only [call, print_bind, List.nil_append]
    rw [forEach_ok (t := fun e => (s!"{e.head} => " ++ tuple fractionText (List.ofFn (edgeVec pos e)) ++ " => " ++
          match uniq e with
          | some e => edgeLine e
          | none => "None").toList ++ ['\n'])]
    intro e he
    obtain ⟨hd, rfl⟩ := (g.mem_inc _ _).1 he
    rw [edgeVector_ok hp hd]
    simp only [print_bind, hu e hd, List.nil_append]
    cases uniq e with
    | none =>
      simp only [sayln, str, String.toList_append, natText, List.append_assoc, ← pointText]
      rfl
    | some f =>
      simp only [sayln, str, String.toList_append, natText, List.append_assoc, ← pointText, edgeText_eq]
      rfl
  have h3 : printed (secondLines (codePlacement g pos s l c uniq)) =
      printed (g.vertices.map (fun v => s!"pos({v}) = " ++ tuple fractionText (List.ofFn (pos v)))) ++
      (printed ["", s!"Stable: {s}", s!"Locally stable: {l}", s!"Second order collisions: {c}", ""] ++
      printed ((allInc g).map (fun e => s!"{e.head} => " ++ tuple fractionText (List.ofFn (edgeVec pos e)) ++ " => " ++
          match uniq e with
          | some e => edgeLine e
          | none => "None"))) := by
    unfold secondLines codePlacement
    rw [printed_append, printed_append, List.map_map, List.map_map, List.append_assoc]
    rfl
  rw [printed_map (allInc g), allInc, List.flatMap_assoc] at h3
  unfold secondPart
  rw [h1, h2, hs, hl, hc, h3]
  clear h1 h2 h3
  simp only [call, sayln, print_bind]
  congr 1
  congr 1
  simp only [printed, List.flatMap_cons, List.flatMap_nil, boolText', str, String.toList_append, List.append_assoc,
    List.append_nil, List.nil_append, String.toList_empty]

theorem filter_allInc [LawfulLabelVector T] (g : Graph T) (v : Nat) (hv : v ∈ g.vertices) :
    (allInc g).filter (fun e => e.head = v) = g.inc v := by
  unfold allInc
  have h : ∀ l : List Nat, l.Nodup → (l.flatMap g.inc).filter (fun e => e.head = v) = if v ∈ l then g.inc v else [] := by
    intro l hl
    induction l with
    | nil => simp
    | cons a l ih =>
      rw [List.flatMap_cons, List.filter_append, ih (List.nodup_cons.1 hl).2]
      by_cases ha : a = v
      · subst ha
        rw [if_neg (List.nodup_cons.1 hl).1, List.append_nil, if_pos (by simp), List.filter_eq_self]
        intro e he
        simpa using ((g.mem_inc _ _).1 he).2
      · have h0 : (g.inc a).filter (fun e => e.head = v) = [] := by
          rw [List.filter_eq_nil_iff]
          intro e he
          have := ((g.mem_inc _ _).1 he).2
          simp [this, ha]
        rw [h0, List.nil_append]
        simp [Ne.symm ha]
  rw [h _ g.vertices_nodup, if_pos hv]

theorem filter_allInc_none [LawfulLabelVector T] (g : Graph T) (v : Nat) (hv : v ∉ g.vertices) :
    (allInc g).filter (fun e => e.head = v) = [] := by
  rw [List.filter_eq_nil_iff]
  intro e he h
  obtain ⟨w, hw, he⟩ := List.mem_flatMap.1 he
  have := ((g.mem_inc _ _).1 he).2
  simp only [decide_eq_true_eq] at h
  exact hv (h ▸ this ▸ hw)

theorem mem_allInc [LawfulLabelVector T] (g : Graph T) (e : Edge T) : e ∈ allInc g ↔ IsDirected g.edges e := by
  unfold allInc
  simp only [List.mem_flatMap, Graph.mem_inc]
  exact ⟨fun ⟨v, _, h, _⟩ => h, fun h => ⟨e.head, g.head_mem h, h, rfl⟩⟩

theorem allInc_heads [LawfulLabelVector T] (g : Graph T) : ((allInc g).map Edge.head).Pairwise (· ≤ ·) := by
  unfold allInc
  have h : ∀ l : List Nat, l.Pairwise (· < ·) → ((l.flatMap g.inc).map Edge.head).Pairwise (· ≤ ·) := by
    intro l hl
    induction l with
    | nil => simp
    | cons a l ih =>
      rw [List.flatMap_cons, List.map_append, List.pairwise_append]
      have h1 := List.pairwise_cons.1 hl
      refine ⟨?_, ih h1.2, ?_⟩
      · rw [List.pairwise_map]
        apply List.Pairwise.imp_of_mem (R := fun _ _ => True)
        · intro e f he hf _
          rw [((g.mem_inc _ _).1 he).2, ((g.mem_inc _ _).1 hf).2]
        · exact List.pairwise_of_forall (fun _ _ => trivial)
      · intro x hx y hy
        obtain ⟨e, he, rfl⟩ := List.mem_map.1 hx
        obtain ⟨f, hf, rfl⟩ := List.mem_map.1 hy
        obtain ⟨w, hw, hf⟩ := List.mem_flatMap.1 hf
        rw [((g.mem_inc _ _).1 he).2, ((g.mem_inc _ _).1 hf).2]
        exact (h1.1 w hw).le
  exact h _ g.vertices_sorted

theorem count_allInc [LawfulLabelVector T] {g : Graph T} (hg : g.WF) {e : Edge T} (he : e ∈ allInc g) :
    (allInc g).count e = if e = ⟨e.tail, e.head, -e.shift⟩ then 2 else 1 := by
  have hd := (mem_allInc g e).1 he
  have h1 : (allInc g).count e = (g.inc e.head).count e := by
    rw [← filter_allInc g e.head (g.head_mem hd), List.count_filter (by simp)]
  rw [h1]
  unfold Graph.inc
  rw [List.count_filter (by simp)]
  have h2 : ∀ l : List (Edge T), (l.flatMap (fun e => [e, e.neg])).count e = l.count e + l.count e.neg := by
    intro l
    induction l with
    | nil => simp
    | cons a l ih =>
      rw [List.flatMap_cons, List.count_append, ih, List.count_cons, List.count_cons, List.count_cons, List.count_cons]
      have : (a.neg == e) = (a == e.neg) := by
        rw [Bool.eq_iff_iff, beq_iff_eq, beq_iff_eq]
        exact ⟨fun h => by rw [← h, Edge.neg_neg], fun h => by rw [h, Edge.neg_neg]⟩
      rw [this]
      simp only [List.count_nil]
      omega
  rw [h2]
  have hnd : g.edges.Nodup := hg.sorted.imp (fun h => h.ne)
  by_cases hn : e = e.neg
  · have hm : e ∈ g.edges := by
      rcases (isDirected_iff _ _).1 hd with h | h
      · exact h
      · rwa [← hn] at h
    have h3 := List.count_eq_one_of_mem hnd hm
    rw [← hn, h3]
    exact (if_pos hn).symm
  · rw [show (if e = ⟨e.tail, e.head, -e.shift⟩ then 2 else 1) = 1 from if_neg hn]
    rcases (isDirected_iff _ _).1 hd with h | h
    · rw [List.count_eq_one_of_mem hnd h, List.count_eq_zero_of_not_mem]
      intro h'
      have a1 := hg.canon _ h
      have a2 := hg.canon _ h'
      rw [canonical_neg, a1] at a2
      exact hn a2
    · rw [List.count_eq_one_of_mem hnd h, List.count_eq_zero_of_not_mem]
      intro h'
      have a1 := hg.canon _ h
      have a2 := hg.canon _ h'
      rw [canonical_neg, a2] at a1
      exact hn a1

end
end Report
end Systre
