import Verif.Spec.Geometry
import Verif.Lemmas.LinAlgRep
import Verif.Lemmas.Determinant
import Verif.Lemmas.Sylvester

/-! Helper lemmas about vectors, points and affine maps. -/

namespace Systre
open Mat Matrix

section
variable {T : Type} {n : Nat}

theorem rassert_true {b : Bool} (h : b = true) : rassert b = .ok () := by simp [rassert, h]

theorem bind_ok {α β : Type u} {x : Outcome α} {a : α} {f : α → Outcome β} (h : x = .ok a) :
    (x >>= f) = f a := by rw [h]; rfl

/-- the column with entries `x` -/
def colM (x : Fin n → T) : Matrix (Fin n) (Fin 1) T := Matrix.of (fun i (_ : Fin 1) => x i)

theorem isVec_iff {v : Vec T} {x : Fin n → T} : IsVec v x ↔ Rep v.coords (colM x) := Iff.rfl
theorem isPt_iff {v : Pt T} {x : Fin n → T} : IsPt v x ↔ Rep v.coords (colM x) := Iff.rfl

theorem col_ofFn [Zero T] (l : List T) (x : Fin n → T) (h : l = List.ofFn x) :
    ∃ m, Mat.col l = .ok m ∧ Rep m (colM x) := by
  subst h
  have hl : (List.ofFn x).length = n := List.length_ofFn
  unfold Mat.col Mat.new
  rcases Nat.eq_zero_or_pos n with h0 | h0
  · subst h0
    exact ⟨_, rfl, rfl, rfl, by simp, by simp, fun i => i.elim0⟩
  · rw [if_neg (by rw [hl]; omega), if_neg (by decide)]
    simp only [Nat.div_one, Nat.mul_one, if_true]
    refine ⟨_, rfl, hl, rfl, by simp, by simp, ?_⟩
    intro i j
    have hj : j.1 = 0 := by omega
    simp [Mat.get, hj, vecGet, colM]

theorem rep_col_data [Zero T] {m : Mat T} {x : Fin n → T} (h : Rep m (colM x)) : m.data = List.ofFn x := by
  obtain ⟨m', h1, h2⟩ := col_ofFn (List.ofFn x) x rfl
  have := rep_unique h h2
  subst this
  have := new_eq_ok h1
  exact this.2.2

theorem vec_new [Zero T] {l : List T} {x : Fin n → T} (h : l = List.ofFn x) :
    ∃ v, Vec.new l = .ok v ∧ IsVec v x := by
  obtain ⟨m, h1, h2⟩ := col_ofFn l x h
  exact ⟨⟨m⟩, by unfold Vec.new; rw [h1]; rfl, h2⟩

theorem pt_new [Zero T] {l : List T} {x : Fin n → T} (h : l = List.ofFn x) :
    ∃ v, Pt.new l = .ok v ∧ IsPt v x := by
  obtain ⟨m, h1, h2⟩ := col_ofFn l x h
  exact ⟨⟨m⟩, by unfold Pt.new; rw [h1]; rfl, h2⟩

theorem IsVec.dim_eq {v : Vec T} {x : Fin n → T} (h : IsVec v x) : v.dim = n := h.rows
theorem IsPt.dim_eq {v : Pt T} {x : Fin n → T} (h : IsPt v x) : v.dim = n := h.rows

theorem IsVec.unique [Zero T] {v w : Vec T} {x : Fin n → T} (h : IsVec v x) (h' : IsVec w x) : v = w := by
  cases v; cases w; congr 1; exact rep_unique h h'
theorem IsPt.unique [Zero T] {v w : Pt T} {x : Fin n → T} (h : IsPt v x) (h' : IsPt w x) : v = w := by
  cases v; cases w; congr 1; exact rep_unique h h'
theorem IsVec.inj {v : Vec T} {x y : Fin n → T} (h : IsVec v x) (h' : IsVec v y) : x = y := by
  ext i
  have h1 := h.entry i 0
  have h2 := h'.entry i 0
  rw [h1] at h2; exact Outcome.ok.inj h2
theorem IsPt.inj {v : Pt T} {x y : Fin n → T} (h : IsPt v x) (h' : IsPt v y) : x = y := by
  ext i
  have h1 := h.entry i 0
  have h2 := h'.entry i 0
  rw [h1] at h2; exact Outcome.ok.inj h2

theorem IsVec.get {v : Vec T} {x : Fin n → T} (h : IsVec v x) (i : Fin n) : v.get i = .ok (x i) := h.entry i 0

theorem IsAff.unique [Zero T] {a b : AffineMap T} {A : Matrix (Fin n) (Fin n) T} {s : Fin n → T}
    (h : IsAff a A s) (h' : IsAff b A s) : a = b := by
  cases a; cases b
  simp only [AffineMap.mk.injEq]
  exact ⟨rep_unique h.1 h'.1, h.2.unique h'.2⟩

theorem Rep.inj {m : Mat T} {r c : Nat} {M N : Matrix (Fin r) (Fin c) T} (h : Rep m M) (h' : Rep m N) : M = N := by
  ext i j
  have h1 := h.entry i j
  rw [h'.entry i j] at h1
  exact (Outcome.ok.inj h1).symm

theorem IsAff.inj {a : AffineMap T} {A B : Matrix (Fin n) (Fin n) T} {s t : Fin n → T}
    (h : IsAff a A s) (h' : IsAff a B t) : A = B ∧ s = t := ⟨h.1.inj h'.1, h.2.inj h'.2⟩

theorem aff_new {m : Mat T} {v : Vec T} {A : Matrix (Fin n) (Fin n) T} {s : Fin n → T} (hm : Rep m A)
    (hv : IsVec v s) : AffineMap.new m v = .ok ⟨m, v⟩ ∧ IsAff ⟨m, v⟩ A s := by
  refine ⟨?_, hm, hv⟩
  unfold AffineMap.new
  rw [bind_ok (rassert_true (by simp [hm.rows, hv.dim_eq])),
    bind_ok (rassert_true (by simp [hm.cols, hv.dim_eq]))]

theorem aff_new_ok_iff [Zero T] {m : Mat T} {v : Vec T} {a : AffineMap T} (hm : m.WF)
    (hv : v.coords.WF) (hc : v.coords.ncols = 1) (h : AffineMap.new m v = .ok a) :
    ∃ (A : Matrix (Fin v.dim) (Fin v.dim) T) (s : Fin v.dim → T), IsAff a A s := by
  unfold AffineMap.new at h
  simp only [rassert] at h
  split at h
  · split at h
    · rename_i h1 h2
      simp at h h1 h2
      subst h
      refine ⟨toM m _ _, fun i => v.coords.ent i.1 0, rep_toM' hm h1 h2, ?_⟩
      have := rep_toM' hv (r := v.dim) (c := 1) rfl hc
      refine rep_of_ent hv rfl hc ?_
      intro i j
      have : j.1 = 0 := by omega
      simp [this]
    · simp at h
  · simp at h

end

section
variable {T : Type} {n : Nat} [CommRing T]

theorem vec_zero (n : Nat) : ∃ v : Vec T, Vec.zero n = .ok v ∧ IsVec v (0 : Fin n → T) :=
  vec_new (by
    rw [show (0 : Fin n → T) = fun _ => 0 from rfl, List.ofFn_const])

theorem vec_neg {v : Vec T} {x : Fin n → T} (h : IsVec v x) : ∃ w, v.neg = .ok w ∧ IsVec w (-x) := by
  obtain ⟨m, h1, h2⟩ := rep_neg h
  exact ⟨⟨m⟩, by unfold Vec.neg; rw [h1]; rfl, h2⟩

theorem vec_add {v w : Vec T} {x y : Fin n → T} (h : IsVec v x) (h' : IsVec w y) :
    ∃ u, v.add w = .ok u ∧ IsVec u (x + y) := by
  obtain ⟨m, h1, h2⟩ := rep_add h h'
  refine ⟨⟨m⟩, ?_, h2⟩
  unfold Vec.add
  rw [bind_ok (rassert_true (by simp [h.dim_eq, h'.dim_eq])), h1]; rfl

theorem vec_sub {v w : Vec T} {x y : Fin n → T} (h : IsVec v x) (h' : IsVec w y) :
    ∃ u, v.sub w = .ok u ∧ IsVec u (x - y) := by
  obtain ⟨m, h1, h2⟩ := rep_sub h h'
  refine ⟨⟨m⟩, ?_, h2⟩
  unfold Vec.sub
  rw [bind_ok (rassert_true (by simp [h.dim_eq, h'.dim_eq])), h1]; rfl

theorem vec_smul {v : Vec T} {x : Fin n → T} (c : T) (h : IsVec v x) : IsVec (v.smul c) (c • x) :=
  rep_smul c h

theorem pt_add {p : Pt T} {w : Vec T} {x y : Fin n → T} (h : IsPt p x) (h' : IsVec w y) :
    ∃ u, p.add w = .ok u ∧ IsPt u (x + y) := by
  obtain ⟨m, h1, h2⟩ := rep_add h h'
  refine ⟨⟨m⟩, ?_, h2⟩
  unfold Pt.add
  rw [bind_ok (rassert_true (by simp [h.dim_eq, h'.dim_eq])), h1]; rfl

theorem pt_subVec {p : Pt T} {w : Vec T} {x y : Fin n → T} (h : IsPt p x) (h' : IsVec w y) :
    ∃ u, p.subVec w = .ok u ∧ IsPt u (x - y) := by
  obtain ⟨m, h1, h2⟩ := rep_sub h h'
  refine ⟨⟨m⟩, ?_, h2⟩
  unfold Pt.subVec
  rw [bind_ok (rassert_true (by simp [h.dim_eq, h'.dim_eq])), h1]; rfl

theorem pt_sub {p q : Pt T} {x y : Fin n → T} (h : IsPt p x) (h' : IsPt q y) :
    ∃ u, p.sub q = .ok u ∧ IsVec u (x - y) := by
  obtain ⟨m, h1, h2⟩ := rep_sub h h'
  have h3 : Rep m (colM (x - y)) := h2
  obtain ⟨v, h4, h5⟩ := vec_new (rep_col_data h3)
  exact ⟨v, by unfold Pt.sub; rw [h1]; exact h4, h5⟩

theorem mul_col {m : Mat T} {v : Mat T} {A : Matrix (Fin n) (Fin n) T} {x : Fin n → T} (hm : Rep m A)
    (hv : Rep v (colM x)) : ∃ w, m.mul v = .ok w ∧ Rep w (colM (A.mulVec x)) := by
  obtain ⟨w, h1, h2⟩ := rep_mul hm hv
  refine ⟨w, h1, ?_⟩
  have : A * colM x = colM (A.mulVec x) := by
    ext i j; simp [Matrix.mul_apply, colM, Matrix.mulVec, dotProduct]
  rwa [this] at h2

theorem add_col {v w : Mat T} {x y : Fin n → T} (h : Rep v (colM x)) (h' : Rep w (colM y)) :
    ∃ u, v.add w = .ok u ∧ Rep u (colM (x + y)) := rep_add h h'

theorem aff_applyVec {a : AffineMap T} {v : Vec T} {A : Matrix (Fin n) (Fin n) T} {s x : Fin n → T}
    (ha : IsAff a A s) (hv : IsVec v x) : ∃ w, a.applyVec v = .ok w ∧ IsVec w (A.mulVec x) := by
  obtain ⟨w, h1, h2⟩ := mul_col ha.1 hv
  exact ⟨⟨w⟩, by unfold AffineMap.applyVec; rw [h1]; rfl, h2⟩

theorem aff_applyPt {a : AffineMap T} {p : Pt T} {A : Matrix (Fin n) (Fin n) T} {s x : Fin n → T}
    (ha : IsAff a A s) (hp : IsPt p x) : ∃ w, a.applyPt p = .ok w ∧ IsPt w (A.mulVec x + s) := by
  obtain ⟨w, h1, h2⟩ := mul_col ha.1 hp
  obtain ⟨u, h3, h4⟩ := add_col h2 ha.2
  exact ⟨⟨u⟩, by unfold AffineMap.applyPt; rw [bind_ok h1, bind_ok h3], h4⟩

theorem aff_mul {a b : AffineMap T} {A B : Matrix (Fin n) (Fin n) T} {s t : Fin n → T}
    (ha : IsAff a A s) (hb : IsAff b B t) : ∃ c, a.mul b = .ok c ∧ IsAff c (A * B) (A.mulVec t + s) := by
  obtain ⟨l, h1, h2⟩ := rep_mul ha.1 hb.1
  obtain ⟨w, h3, h4⟩ := mul_col ha.1 hb.2
  obtain ⟨u, h5, h6⟩ := add_col h4 ha.2
  obtain ⟨h7, h8⟩ := aff_new (v := ⟨u⟩) h2 h6
  refine ⟨_, ?_, h8⟩
  unfold AffineMap.mul
  rw [bind_ok (rassert_true (by simp [AffineMap.dim, ha.2.dim_eq, hb.2.dim_eq])), bind_ok h1, bind_ok h3,
    bind_ok h5, h7]

theorem aff_identity (n : Nat) : ∃ a : AffineMap T, AffineMap.identity n = .ok a ∧
    IsAff a (1 : Matrix (Fin n) (Fin n) T) 0 := by
  obtain ⟨m, h1, h2⟩ := rep_identity (T := T) n
  obtain ⟨v, h3, h4⟩ := vec_zero (T := T) n
  obtain ⟨h5, h6⟩ := aff_new h2 h4
  exact ⟨_, by unfold AffineMap.identity; rw [bind_ok h1, bind_ok h3, h5], h6⟩

theorem aff_ofMat {m : Mat T} {A : Matrix (Fin n) (Fin n) T} (hm : Rep m A) :
    ∃ a : AffineMap T, AffineMap.ofMat m = .ok a ∧ IsAff a A 0 := by
  obtain ⟨v, h3, h4⟩ := vec_zero (T := T) n
  obtain ⟨h5, h6⟩ := aff_new hm h4
  exact ⟨_, by unfold AffineMap.ofMat; rw [hm.rows, bind_ok h3, h5], h6⟩

end

section
variable {n : Nat}

theorem aff_inverse_gen {T : Type} [CommRing T] [IsDomain T] [Scalar T] [DecidableEq T] [LawfulScalar T]
    {a : AffineMap T} {A : Matrix (Fin n) (Fin n) T} {s : Fin n → T} (ha : IsAff a A s) :
    (∃ b B, a.inverse = .ok (some b) ∧ IsAff b B (-(B.mulVec s)) ∧ A * B = 1 ∧ B * A = 1) ∨
    (a.inverse = .ok none ∧ ¬ IsUnit A.det) := by
  rcases gen_inverse ha.1 with ⟨b, B, h1, h2, h3, h4⟩ | ⟨h1, h2⟩
  · left
    obtain ⟨w, h5, h6⟩ := mul_col h2 ha.2
    obtain ⟨v, h7, h8⟩ := vec_new (rep_col_data h6)
    obtain ⟨v', h9, h10⟩ := vec_neg h8
    obtain ⟨h11, h12⟩ := aff_new h2 h10
    refine ⟨_, B, ?_, h12, h3, h4⟩
    unfold AffineMap.inverse
    rw [bind_ok h1]
    simp only
    rw [bind_ok h5, bind_ok h7, bind_ok h9, bind_ok h11]
  · right
    refine ⟨?_, h2⟩
    unfold AffineMap.inverse
    rw [bind_ok h1]

theorem aff_inverse {a : AffineMap ℚ} {A : Matrix (Fin n) (Fin n) ℚ} {s : Fin n → ℚ} (ha : IsAff a A s) :
    (∃ b B, a.inverse = .ok (some b) ∧ IsAff b B (-(B.mulVec s)) ∧ A * B = 1 ∧ B * A = 1) ∨
    (a.inverse = .ok none ∧ A.det = 0) := by
  rcases aff_inverse_gen ha with h | ⟨h1, h2⟩
  · exact Or.inl h
  · exact Or.inr ⟨h1, by simpa using h2⟩

/-- the coordinates of `mod_z` -/
theorem vec_modZ {v : Vec ℚ} {x : Fin n → ℚ} (h : IsVec v x) :
    ∃ w, v.modZ = .ok w ∧ IsVec w (fun i => rem1 (x i)) := by
  unfold Vec.modZ
  rw [rep_col_data h]
  exact vec_new (by rw [List.map_ofFn]; rfl)

theorem aff_modZ {a : AffineMap ℚ} {A : Matrix (Fin n) (Fin n) ℚ} {s : Fin n → ℚ} (h : IsAff a A s) :
    ∃ b, a.modZ = .ok b ∧ IsAff b A (fun i => rem1 (s i)) := by
  obtain ⟨w, h1, h2⟩ := vec_modZ h.2
  obtain ⟨h3, h4⟩ := aff_new h.1 h2
  exact ⟨_, by unfold AffineMap.modZ; rw [bind_ok h1, h3], h4⟩

end

end Systre
