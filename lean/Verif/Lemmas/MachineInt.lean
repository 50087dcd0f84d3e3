import Verif.Model.MachineInt
import Verif.Lemmas.Geometry

/-!
# Machine integers: debug arithmetic panics or agrees with any other
-/

namespace Systre.Machine

/-- `x` panics or is `y` -/
def Le {α : Type} (x y : Outcome α) : Prop := x = .panic ∨ x = y

theorem Le.refl {α : Type} (x : Outcome α) : Le x x := Or.inr rfl
theorem Le.panic {α : Type} (x : Outcome α) : Le .panic x := Or.inl rfl
theorem Le.of_eq {α : Type} {x y : Outcome α} (h : x = y) : Le x y := Or.inr h

theorem Le.trans {α : Type} {x y z : Outcome α} (h : Le x y) (h' : Le y z) : Le x z := by
  rcases h with rfl | rfl
  · exact .panic _
  · exact h'

theorem Le.bind {α β : Type} {x y : Outcome α} {f g : α → Outcome β} (h : Le x y) (h' : ∀ a, Le (f a) (g a)) :
    Le (x >>= f) (y >>= g) := by
  rcases h with rfl | rfl
  · exact .panic _
  · cases x with
    | ok a => exact h' a
    | panic => exact .refl _
    | diverge => exact .refl _

theorem Le.omap {α β : Type} {f g : α → Outcome β} (h : ∀ a, Le (f a) (g a)) (l : List α) :
    Le (omap f l) (omap g l) := by
  induction l with
  | nil => exact .refl _
  | cons a l ih =>
    unfold Systre.omap
    rcases h a with h1 | h1
    · rw [h1]; exact .panic _
    · rw [h1]
      cases g a with
      | ok b =>
        rcases ih with h2 | h2
        · rw [h2]; exact .panic _
        · rw [h2]; exact .refl _
      | panic => exact .refl _
      | diverge => exact .refl _

theorem Le.ok {α : Type} {x y : Outcome α} {a : α} (h : Le x y) (hx : x = .ok a) : y = .ok a := by
  rcases h with h | h
  · rw [h] at hx; cases hx
  · rw [← h, hx]

theorem Le.grid {β : Type} {f g : Nat → Nat → Outcome β} (h : ∀ i j, Le (f i j) (g i j)) (m n : Nat) :
    Le (grid m n f) (grid m n g) := by
  unfold Systre.grid
  have h1 : Le (Systre.omap (fun i => Systre.omap (fun j => f i j) (List.range n)) (List.range m))
    (Systre.omap (fun i => Systre.omap (fun j => g i j) (List.range n)) (List.range m)) :=
    Le.omap (fun i => Le.omap (fun j => h i j) _) _
  rcases h1 with h1 | h1
  · rw [h1]; exact .panic _
  · rw [h1]; exact .refl _

/-- the arithmetic `k` panics or agrees with `k'` -/
structure Below (k k' : IntKind) : Prop where
  res : ∀ x, Le (k.res x) (k'.res x)
  quot : ∀ a b, Le (k.quot a b) (k'.quot a b)
  rem : ∀ a b, Le (k.rem a b) (k'.rem a b)

theorem bmod_fits {w : Nat} (hw : 0 < w) {x : Int} (h : Fits w x) : x.bmod (2 ^ w) = x := by
  unfold Fits at h
  obtain ⟨n, rfl⟩ : ∃ n, w = n + 1 := ⟨w - 1, by omega⟩
  have h2 : ((2 ^ (n + 1) : Nat) : Int) = 2 * 2 ^ n := by push_cast; ring
  simp only [Nat.add_sub_cancel] at h
  apply Int.bmod_eq_of_le
  · rw [h2]; omega
  · rw [h2]; omega

theorem debug_below_ideal (w : Nat) : Below (.debug w) .ideal := by
  refine ⟨fun x => ?_, fun a b => ?_, fun a b => ?_⟩
  · simp only [IntKind.res]; split <;> [exact .refl _; exact .panic _]
  · simp only [IntKind.quot, IntKind.quotFits, if_true]
    by_cases h : b = 0
    · simp [h, Le]
    · by_cases hf : Fits w (a.tdiv b) <;> simp [h, hf, Le]
  · simp only [IntKind.rem, IntKind.quotFits, if_true]
    by_cases h : b = 0
    · simp [h, Le]
    · by_cases hf : Fits w (a.tdiv b) <;> simp [h, hf, Le]

theorem debug_below_release {w : Nat} (hw : 0 < w) : Below (.debug w) (.release w) := by
  refine ⟨fun x => ?_, fun a b => .refl _, fun a b => .refl _⟩
  simp only [IntKind.res]
  split
  · rename_i h; rw [bmod_fits hw h]; exact .refl _
  · exact .panic _

section
variable {k k' : IntKind} (h : Below k k')
include h

theorem le_subMul (a q b : Int) : Le (subMul k a q b) (subMul k' a q b) :=
  (h.res _).bind fun _ => h.res _
theorem le_mulAddMul (a b c d : Int) : Le (mulAddMul k a b c d) (mulAddMul k' a b c d) :=
  (h.res _).bind fun _ => (h.res _).bind fun _ => h.res _
theorem le_mulSubMul (a b c d : Int) : Le (mulSubMul k a b c d) (mulSubMul k' a b c d) :=
  (h.res _).bind fun _ => (h.res _).bind fun _ => h.res _
theorem le_mul3 (a b c : Int) : Le (mul3 k a b c) (mul3 k' a b c) :=
  (h.res _).bind fun _ => h.res _

theorem le_gcdxLoop (n : Nat) : ∀ a a' r r' s s', Le (gcdxLoop k n a a' r r' s s') (gcdxLoop k' n a a' r r' s s') := by
  induction n with
  | zero => intros; exact .refl _
  | succ n ih =>
    intro a a' r r' s s'
    unfold gcdxLoop
    split
    · exact (h.quot _ _).bind fun _ => (le_subMul h _ _ _).bind fun _ => (le_subMul h _ _ _).bind fun _ =>
        (le_subMul h _ _ _).bind fun _ => ih _ _ _ _ _ _
    · exact .refl _

theorem le_gcdx (a b : Int) : Le (gcdx k a b) (gcdx k' a b) := le_gcdxLoop h _ _ _ _ _ _ _

theorem le_clearColumn (col : Nat) (v b : List Int) : Le (clearColumn k col v b) (clearColumn k' col v b) := by
  unfold clearColumn
  refine (le_gcdx h _ _).bind fun ⟨_, r, s, t, u⟩ => (le_mulSubMul h _ _ _ _).bind fun det => ?_
  refine (Le.omap (fun i => ?_) _).bind fun _ => .refl _
  split
  · exact .refl _
  · exact (le_mulAddMul h _ _ _ _).bind fun _ => (h.res _).bind fun _ => (le_mulAddMul h _ _ _ _).bind fun _ => .refl _

theorem le_normalizeColumn (col : Nat) (v : List Int) : Le (normalizeColumn k col v) (normalizeColumn k' col v) := by
  unfold normalizeColumn
  split
  · refine Le.omap (fun i => ?_) _
    split
    · exact .refl _
    · exact h.res _
  · exact .refl _

theorem le_reduceColumn (col : Nat) (v b : List Int) : Le (reduceColumn k col v b) (reduceColumn k' col v b) := by
  unfold reduceColumn
  refine (h.quot _ _).bind fun q => (h.res _).bind fun f => ?_
  split
  · refine Le.omap (fun i => ?_) _
    split
    · exact .refl _
    · exact le_subMul h _ _ _
  · exact .refl _

theorem le_extendBasis (bs : List (List Int)) : ∀ v, Le (extendBasis k v bs) (extendBasis k' v bs) := by
  induction bs with
  | nil => intro v; exact .refl _
  | cons b bs ih =>
    intro v
    unfold extendBasis
    split
    · exact .refl _
    · split
      · exact .refl _
      · split
        · exact .refl _
        · split
          · dsimp only
            split
            · exact Le.bind (Le.omap (fun _ => h.res _) _) fun _ => .refl _
            · exact .refl _
          · split
            · exact (le_clearColumn h _ _ _).bind fun ⟨_, _⟩ => (ih _).bind fun _ => .refl _
            · exact (ih _).bind fun _ => .refl _

theorem le_extendAll (vs : List (List Int)) : ∀ bs, Le (extendAll k vs bs) (extendAll k' vs bs) := by
  induction vs with
  | nil => intro bs; exact .refl _
  | cons v vs ih => intro bs; exact (le_extendBasis h _ _).bind fun _ => ih _

theorem le_rowBasis (m : Mat Int) : Le (rowBasis k m) (rowBasis k' m) :=
  (Le.refl _).bind fun _ => le_extendAll h _ _

theorem le_rank (m : Mat Int) : Le (rank k m) (rank k' m) := (le_rowBasis h _).bind fun _ => .refl _

theorem le_prodLoop (l : List Int) : ∀ d, Le (prodLoop k l d) (prodLoop k' l d) := by
  induction l with
  | nil => intro d; exact .refl _
  | cons x l ih => intro d; exact (h.res _).bind fun _ => ih _

theorem le_sumLoop (l : List Int) : ∀ d, Le (sumLoop k l d) (sumLoop k' l d) := by
  induction l with
  | nil => intro d; exact .refl _
  | cons x l ih => intro d; exact (h.res _).bind fun _ => ih _

theorem le_determinant (m : Mat Int) : Le (determinant k m) (determinant k' m) := by
  unfold determinant
  split
  · exact .refl _
  · split
    · exact .refl _
    · exact .refl _
    · exact (Le.refl _).bind fun _ => (Le.refl _).bind fun _ => (Le.refl _).bind fun _ => (Le.refl _).bind fun _ =>
        le_mulSubMul h _ _ _ _
    · iterate 9 refine (Le.refl _).bind fun _ => ?_
      exact (le_mul3 h _ _ _).bind fun _ => (le_mul3 h _ _ _).bind fun _ => (h.res _).bind fun _ =>
        (le_mul3 h _ _ _).bind fun _ => (h.res _).bind fun _ =>
        (le_mul3 h _ _ _).bind fun _ => (h.res _).bind fun _ =>
        (le_mul3 h _ _ _).bind fun _ => (h.res _).bind fun _ =>
        (le_mul3 h _ _ _).bind fun _ => h.res _
    · refine (le_rowBasis h _).bind fun _ => ?_
      split
      · exact .refl _
      · exact (Le.refl _).bind fun _ => le_prodLoop h _ _

theorem le_reduceRows (rest : List (List Int)) : ∀ dn col, Le (reduceRows k dn rest col) (reduceRows k' dn rest col) := by
  induction rest with
  | nil => intro dn col; exact .refl _
  | cons b rest ih =>
    intro dn col
    exact (Le.refl _).bind fun _ => (le_normalizeColumn h _ _).bind fun _ =>
      (Le.omap (fun _ => le_reduceColumn h _ _ _) _).bind fun _ => ih _ _

theorem le_reducedBasis (m : Mat Int) : Le (reducedBasis k m) (reducedBasis k' m) :=
  (le_rowBasis h _).bind fun _ => (le_reduceRows h _ _ _).bind fun _ => .refl _

theorem le_solveSum (a : List Int) (x : List (List Int)) (col : Nat) (is : List Nat) :
    ∀ t, Le (solveSum k a x col is t) (solveSum k' a x col is t) := by
  induction is with
  | nil => intro t; exact .refl _
  | cons i is ih => intro t; exact (le_subMul h _ _ _).bind fun _ => ih _

theorem le_solveEntry (a : List Int) (x : List (List Int)) (b : List Int) (col : Nat) :
    Le (solveEntry k a x b col) (solveEntry k' a x b col) := by
  refine (le_solveSum h _ _ _ _ _).bind fun t => (h.rem _ _).bind fun r => ?_
  split
  · exact (h.quot _ _).bind fun _ => .refl _
  · exact .refl _

theorem le_solveCols (a : List Int) (x : List (List Int)) (b : List Int) (cols : List Nat) :
    Le (solveCols k a x b cols) (solveCols k' a x b cols) := by
  induction cols with
  | nil => exact .refl _
  | cons c cs ih =>
    refine (le_solveEntry h _ _ _ _).bind fun r => ?_
    cases r with
    | none => exact .refl _
    | some y => exact ih.bind fun r => by cases r <;> exact .refl _

theorem le_solveLoop (b r : Mat Int) (is : List Nat) : ∀ x, Le (solveLoop k b r is x) (solveLoop k' b r is x) := by
  induction is with
  | nil => intro x; exact .refl _
  | cons i is ih =>
    intro x
    refine (Le.refl _).bind fun _ => (Le.refl _).bind fun _ => (le_solveCols h _ _ _ _).bind fun r => ?_
    cases r with
    | none => exact .refl _
    | some y => exact ih _

theorem le_matMul (a b : Mat Int) : Le (matMul k a b) (matMul k' a b) := by
  refine (Le.refl _).bind fun _ => (Le.grid (fun i j => ?_) _ _).bind fun _ => .refl _
  exact (Le.omap (fun l => (Le.refl _).bind fun _ => (Le.refl _).bind fun _ => h.res _) _).bind fun _ => le_sumLoop h _ _

theorem le_solveFull (l r : Mat Int) : Le (solveFull k l r) (solveFull k' l r) := by
  refine (Le.refl _).bind fun _ => (Le.refl _).bind fun _ => (Le.refl _).bind fun _ =>
    (le_reducedBasis h _).bind fun _ => (Le.refl _).bind fun _ => (Le.refl _).bind fun _ => (Le.refl _).bind fun _ =>
    (Le.refl _).bind fun _ => (le_solveLoop h _ _ _ _).bind fun r => ?_
  cases r with
  | none => exact .refl _
  | some y => exact (Le.refl _).bind fun _ => (le_matMul h _ _).bind fun _ => .refl _

theorem le_solve (a b : Mat Int) : Le (solve k a b) (solve k' a b) := by
  refine (Le.refl _).bind fun _ => (Le.refl _).bind fun _ => (le_reducedBasis h _).bind fun t => ?_
  split
  · exact .refl _
  · refine (Le.refl _).bind fun _ => (Le.refl _).bind fun _ => (le_rank h _).bind fun _ => ?_
    split
    · exact .refl _
    · exact le_solveFull h _ _

theorem le_nullSpace (a : Mat Int) : Le (nullSpace k a) (nullSpace k' a) := by
  refine (Le.refl _).bind fun _ => (Le.refl _).bind fun _ => (Le.refl _).bind fun _ => (le_reducedBasis h _).bind fun t =>
    (Le.refl _).bind fun _ => (Le.refl _).bind fun _ => (le_rank h _).bind fun _ => .refl _

theorem le_inverse (a : Mat Int) : Le (inverse k a) (inverse k' a) :=
  (Le.refl _).bind fun _ => (Le.refl _).bind fun _ => le_solve h _ _

theorem le_rational (vs : List (List Rat)) : Le (rationalLatticeBasis k vs) (rationalLatticeBasis k' vs) :=
  (Le.refl _).bind fun _ => (Le.refl _).bind fun _ => (le_extendAll h _ _).bind fun _ => (Le.refl _).bind fun _ =>
    (le_extendAll h _ _).bind fun _ => .refl _

end

/-! ## Ideal arithmetic is the model without bounds -/

theorem ideal_gcdxLoop (n : Nat) : ∀ a a' r r' s s',
    gcdxLoop .ideal n a a' r r' s s' = Systre.gcdxLoop n a a' r r' s s' := by
  induction n with
  | zero => intros; rfl
  | succ n ih =>
    intro a a' r r' s s'
    unfold gcdxLoop Systre.gcdxLoop
    by_cases h : a' = 0
    · rw [if_neg (by simpa using h), if_neg (by simpa using h)]
    · rw [if_pos h, if_pos h, show IntKind.ideal.quot a a' = .ok (a.tdiv a') by simp [IntKind.quot, IntKind.quotFits, h]]
      exact ih _ _ _ _ _ _

theorem ideal_gcdx (a b : Int) : gcdx .ideal a b = Systre.gcdx a b := ideal_gcdxLoop _ _ _ _ _ _ _

theorem ideal_clearColumn (col : Nat) (v b : List Int) : clearColumn .ideal col v b = intClearColumn col v b := by
  unfold clearColumn intClearColumn
  rw [ideal_gcdx]
  cases Systre.gcdx (rent b col) (rent v col) with
  | panic => rfl
  | diverge => rfl
  | ok p =>
    obtain ⟨g, r, s, t, u⟩ := p
    simp only [Outcome.ok_bind, mulSubMul, IntKind.res, clearEntry, mulAddMul]
    rw [omap_ok (g := fun i => if i < col then (rent v i, rent b i)
      else (rent b i * t + rent v i * u, (r * u - s * t) * (rent b i * r + rent v i * s)))
      (by intro i _; split <;> rfl)]
    simp only [Outcome.ok_bind, rowFn, List.map_map]
    congr 2 <;>
    · apply List.map_congr_left
      intro i _
      simp only [Function.comp]
      split <;> rfl

theorem ideal_normalizeColumn (col : Nat) (v : List Int) :
    normalizeColumn .ideal col v = intNormalizeColumn col v := by
  unfold normalizeColumn intNormalizeColumn
  split
  · rw [omap_ok (g := fun i => if i < col then rent v i else - rent v i) (by intro i _; split <;> rfl)]; rfl
  · rfl

theorem ideal_reduceColumn (col : Nat) (v b : List Int) : reduceColumn .ideal col v b = intReduceColumn col v b := by
  unfold reduceColumn intReduceColumn
  by_cases h : rent b col = 0
  · simp [IntKind.quot, h]
  · rw [if_neg h, show IntKind.ideal.quot (rent v col) (rent b col) = .ok ((rent v col).tdiv (rent b col)) by
      simp [IntKind.quot, IntKind.quotFits, h]]
    simp only [Outcome.ok_bind, IntKind.res, subMul]
    generalize (rent v col).tdiv (rent b col) - (if rent v col < 0 then 1 else 0) = f
    by_cases hf : f = 0
    · rw [if_neg (by simpa using hf), if_neg (by simpa using hf)]
    · rw [if_pos hf, if_pos hf, omap_ok (g := fun i => if i < col then rent v i else rent v i - rent b i * f)
        (by intro i _; split <;> rfl)]
      rfl

theorem ideal_extendBasis (bs : List (List Int)) : ∀ v, extendBasis .ideal v bs = Systre.extendBasis v bs := by
  induction bs with
  | nil => intro v; rfl
  | cons b bs ih =>
    intro v
    unfold extendBasis Systre.extendBasis
    simp only [ideal_clearColumn, ih]
    have : omap (fun x => IntKind.ideal.res (-x)) v = .ok (v.map (fun x => -x)) := omap_ok (fun _ _ => rfl)
    rw [this]
    by_cases hl : b.length = v.length
    · have hl' : ¬ (b.length ≠ v.length) := by simpa using hl
      rw [if_neg hl', if_neg hl']
      cases pivotColumn v with
      | none => rfl
      | some col =>
        cases pivotColumn b with
        | none => rfl
        | some colB =>
          dsimp only
          by_cases hc : col < colB
          · rw [if_pos hc, if_pos hc]
            by_cases hp : (b :: bs).length % 2 > 0
            · rw [if_pos hp, if_pos hp]; rfl
            · rw [if_neg hp, if_neg hp]; rfl
          · rw [if_neg hc, if_neg hc]; rfl
    · rw [if_pos hl, if_pos hl]

theorem ideal_extendAll (vs : List (List Int)) : ∀ bs, extendAll .ideal vs bs = Systre.extendAll vs bs := by
  induction vs with
  | nil => intro bs; rfl
  | cons v vs ih => intro bs; simp only [extendAll, Systre.extendAll, ideal_extendBasis, ih]

theorem ideal_rowBasis (m : Mat Int) : rowBasis .ideal m = Systre.rowBasis m := by
  simp only [rowBasis, Systre.rowBasis, ideal_extendAll]

theorem ideal_rank (m : Mat Int) : rank .ideal m = Systre.rank m := by
  simp only [rank, Systre.rank, ideal_rowBasis]

theorem ideal_prodLoop (l : List Int) : ∀ d, prodLoop .ideal l d = .ok (l.foldl (· * ·) d) := by
  induction l with
  | nil => intro d; rfl
  | cons x l ih => intro d; simp only [prodLoop, IntKind.res, Outcome.ok_bind, ih, List.foldl_cons]

theorem ideal_sumLoop (l : List Int) : ∀ d, sumLoop .ideal l d = .ok (l.foldl (· + ·) d) := by
  induction l with
  | nil => intro d; rfl
  | cons x l ih => intro d; simp only [sumLoop, IntKind.res, Outcome.ok_bind, ih, List.foldl_cons]

theorem ideal_determinant (m : Mat Int) : determinant .ideal m = Systre.determinant m := by
  unfold determinant Systre.determinant
  simp only [ideal_rowBasis, ideal_prodLoop]
  rfl

theorem ideal_reduceRows (rest : List (List Int)) : ∀ dn col,
    reduceRows .ideal dn rest col = Systre.reduceRows dn rest col := by
  induction rest with
  | nil => intro dn col; rfl
  | cons b rest ih =>
    intro dn col
    simp only [reduceRows, Systre.reduceRows, ih, ideal_normalizeColumn, ideal_reduceColumn]
    rfl

theorem ideal_reducedBasis (m : Mat Int) : reducedBasis .ideal m = Systre.reducedBasis m := by
  simp only [reducedBasis, Systre.reducedBasis, ideal_rowBasis, ideal_reduceRows]

theorem ideal_solveSum (a : List Int) (x : List (List Int)) (col : Nat) (is : List Nat) : ∀ t,
    solveSum .ideal a x col is t = .ok (is.foldl (fun t i => t - rent a i * rent (x.getD i []) col) t) := by
  induction is with
  | nil => intro t; rfl
  | cons i is ih => intro t; simp only [solveSum, subMul, IntKind.res, Outcome.ok_bind, ih, List.foldl_cons]

theorem ideal_solveEntry (a : List Int) (x : List (List Int)) (b : List Int) (col : Nat) :
    solveEntry .ideal a x b col = intSolveEntry a x b col := by
  unfold solveEntry intSolveEntry
  rw [ideal_solveSum]
  simp only [Outcome.ok_bind, IntKind.rem, IntKind.quot, IntKind.quotFits, if_true]
  split <;> rfl

theorem ideal_solveCols (a : List Int) (x : List (List Int)) (b : List Int) (cols : List Nat) :
    solveCols .ideal a x b cols = intSolveCols a x b cols := by
  induction cols with
  | nil => rfl
  | cons c cs ih =>
    simp only [solveCols, intSolveCols, ideal_solveEntry, ih]
    refine bind_congr fun r => ?_
    cases r with
    | none => rfl
    | some y => exact bind_congr fun r => by cases r <;> rfl

theorem ideal_solveLoop (b r : Mat Int) (is : List Nat) : ∀ x,
    solveLoop .ideal b r is x = Systre.solveLoop b r is x := by
  induction is with
  | nil => intro x; rfl
  | cons i is ih =>
    intro x
    simp only [solveLoop, Systre.solveLoop, ideal_solveCols, ih]
    refine bind_congr fun _ => bind_congr fun ri => ?_
    refine bind_congr (x := intSolveCols _ x ri (List.range ri.length)) fun r => ?_
    cases r <;> rfl

theorem ideal_matMul (a b : Mat Int) : matMul .ideal a b = a.mul b := by
  simp only [matMul, Mat.mul, ideal_sumLoop]
  rfl

theorem ideal_solveFull (l r : Mat Int) : solveFull .ideal l r = Systre.solveFull l r := by
  simp only [solveFull, Systre.solveFull, ideal_reducedBasis, ideal_solveLoop, ideal_matMul]
  iterate 8 refine bind_congr fun _ => ?_
  refine bind_congr fun r => ?_
  cases r <;> rfl

theorem ideal_solve (a b : Mat Int) : solve .ideal a b = Systre.solve a b := by
  simp only [solve, Systre.solve, ideal_reducedBasis, ideal_rank, ideal_solveFull]

theorem ideal_nullSpace (a : Mat Int) : nullSpace .ideal a = Systre.nullSpace a := by
  simp only [nullSpace, Systre.nullSpace, ideal_reducedBasis, ideal_rank]

theorem ideal_inverse (a : Mat Int) : inverse .ideal a = Systre.inverse a := by
  simp only [inverse, Systre.inverse, ideal_solve]

theorem ideal_rational (vs : List (List Rat)) : rationalLatticeBasis .ideal vs = Lattices.rationalLatticeBasis vs := by
  simp only [rationalLatticeBasis, Lattices.rationalLatticeBasis, ideal_extendAll]

end Systre.Machine
