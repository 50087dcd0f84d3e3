import Verif.Lemmas.GeomExtra
import Verif.Props.Matrices
import Mathlib.LinearAlgebra.Matrix.Notation

/-! # C43-C47: vectors, points, affine maps, coordinate maps, scalar products
(src/arithmetic/geometry.rs) -/

namespace Systre
open Mat Matrix

/-! ## C43 -/

section
variable {T : Type} [CommRing T] {n : Nat}

/-- **C43** (a) Every affine map built by `AffineMap::new` from a matrix and a vector built by the API is
`x ↦ A x + s` for some `A`, `s` of its dimension: the theorems below apply to it. -/
theorem C43_built {m : Mat T} (hm : Built m) (l : List T) {v : Vec T} (hv : Vec.new l = .ok v)
    {a : AffineMap T} (ha : AffineMap.new m v = .ok a) :
    ∃ (A : Matrix (Fin l.length) (Fin l.length) T) (s : Fin l.length → T), IsAff a A s := by
  obtain ⟨v', h1, h2⟩ := vec_new (l := l) (x := fun i : Fin l.length => l[i]) (by simp)
  rw [h1] at hv; cases hv
  have hd := h2.dim_eq
  have := aff_new_ok_iff (built_wf hm) (Rep.wf h2) h2.cols ha
  rwa [hd] at this

/-- **C43** (b) What the operations compute. -/
theorem C43_values {a b : AffineMap T} {A B : Matrix (Fin n) (Fin n) T} {s t : Fin n → T}
    (ha : IsAff a A s) (hb : IsAff b B t) {p q : Pt T} {v : Vec T} {x y z : Fin n → T} (hp : IsPt p x)
    (hq : IsPt q y) (hv : IsVec v z) :
    (∃ r, a.applyPt p = .ok r ∧ IsPt r (A.mulVec x + s)) ∧
    (∃ r, a.applyVec v = .ok r ∧ IsVec r (A.mulVec z)) ∧
    (∃ r, a.mul b = .ok r ∧ IsAff r (A * B) (A.mulVec t + s)) ∧
    (∃ r, p.add v = .ok r ∧ IsPt r (x + z)) ∧
    (∃ r, p.subVec v = .ok r ∧ IsPt r (x - z)) ∧
    (∃ r, p.sub q = .ok r ∧ IsVec r (x - y)) :=
  ⟨aff_applyPt ha hp, aff_applyVec ha hv, aff_mul ha hb, pt_add hp hv, pt_subVec hp hv, pt_sub hp hq⟩

/-- **C43** (c) The laws, as equations between the outcomes of programs (all of which return, by (b)):
`(a*b)*p == a*(b*p)`, `(a*b)*v == a*(b*v)`, `a*(p+v) == a*p + a*v`, `a*p - a*q == a*(p-q)`,
`(a*b)*c == a*(b*c)`, `id*a == a == a*id`, `id*p == p`, `id*v == v`. -/
theorem C43_laws {a b c : AffineMap T} {A B C : Matrix (Fin n) (Fin n) T} {s t u : Fin n → T}
    (ha : IsAff a A s) (hb : IsAff b B t) (hc : IsAff c C u) {p q : Pt T} {v : Vec T}
    {x y z : Fin n → T} (hp : IsPt p x) (hq : IsPt q y) (hv : IsVec v z) :
    (a.mul b >>= fun ab => ab.applyPt p) = (b.applyPt p >>= fun bp => a.applyPt bp) ∧
    (a.mul b >>= fun ab => ab.applyVec v) = (b.applyVec v >>= fun bv => a.applyVec bv) ∧
    (p.add v >>= fun pv => a.applyPt pv) =
      (a.applyPt p >>= fun ap => a.applyVec v >>= fun av => ap.add av) ∧
    (p.sub q >>= fun d => a.applyVec d) =
      (a.applyPt p >>= fun ap => a.applyPt q >>= fun aq => ap.sub aq) ∧
    (a.mul b >>= fun ab => ab.mul c) = (b.mul c >>= fun bc => a.mul bc) ∧
    (AffineMap.identity n >>= fun i => AffineMap.mul i a) = .ok a ∧
    (AffineMap.identity n >>= fun i => a.mul i) = .ok a ∧
    (AffineMap.identity n >>= fun i => AffineMap.applyPt i p) = .ok p ∧
    (AffineMap.identity n >>= fun i => AffineMap.applyVec i v) = .ok v := by
  obtain ⟨ab, hab, rab⟩ := aff_mul ha hb
  obtain ⟨bc, hbc, rbc⟩ := aff_mul hb hc
  obtain ⟨bp, hbp, rbp⟩ := aff_applyPt hb hp
  obtain ⟨bv, hbv, rbv⟩ := aff_applyVec hb hv
  obtain ⟨ap, hap, rap⟩ := aff_applyPt ha hp
  obtain ⟨aq, haq, raq⟩ := aff_applyPt ha hq
  obtain ⟨av, hav, rav⟩ := aff_applyVec ha hv
  obtain ⟨pv, hpv, rpv⟩ := pt_add hp hv
  obtain ⟨d, hd, rd⟩ := pt_sub hp hq
  obtain ⟨i, hi, ri⟩ := aff_identity (T := T) n
  rw [bind_ok hab, bind_ok hab, bind_ok hab, bind_ok hbp, bind_ok hbv, bind_ok hpv, bind_ok hap, bind_ok hap,
    bind_ok hav, bind_ok haq, bind_ok hd, bind_ok hbc, bind_ok hi, bind_ok hi, bind_ok hi, bind_ok hi]
  refine ⟨?_, ?_, ?_, ?_, ?_, ?_, ?_, ?_, ?_⟩
  · obtain ⟨r, h1, h2⟩ := aff_applyPt rab hp
    obtain ⟨r', h1', h2'⟩ := aff_applyPt ha rbp
    rw [h1, h1']
    rw [← Matrix.mulVec_mulVec, ← add_assoc, ← Matrix.mulVec_add] at h2
    rw [h2.unique h2']
  · obtain ⟨r, h1, h2⟩ := aff_applyVec rab hv
    obtain ⟨r', h1', h2'⟩ := aff_applyVec ha rbv
    rw [h1, h1']
    rw [← Matrix.mulVec_mulVec] at h2
    rw [h2.unique h2']
  · obtain ⟨r, h1, h2⟩ := aff_applyPt ha rpv
    obtain ⟨r', h1', h2'⟩ := pt_add rap rav
    rw [h1, h1']
    rw [Matrix.mulVec_add, add_right_comm] at h2
    rw [h2.unique h2']
  · obtain ⟨r, h1, h2⟩ := aff_applyVec ha rd
    obtain ⟨r', h1', h2'⟩ := pt_sub rap raq
    rw [h1, h1']
    rw [add_sub_add_right_eq_sub, ← Matrix.mulVec_sub] at h2'
    rw [h2.unique h2']
  · obtain ⟨r, h1, h2⟩ := aff_mul rab hc
    obtain ⟨r', h1', h2'⟩ := aff_mul ha rbc
    rw [h1, h1']
    rw [Matrix.mul_assoc, ← Matrix.mulVec_mulVec, ← add_assoc, ← Matrix.mulVec_add] at h2
    rw [h2.unique h2']
  · obtain ⟨r, h1, h2⟩ := aff_mul ri ha
    rw [Matrix.one_mul, Matrix.one_mulVec, add_zero] at h2
    rw [h1, h2.unique ha]
  · obtain ⟨r, h1, h2⟩ := aff_mul ha ri
    rw [Matrix.mul_one, Matrix.mulVec_zero, zero_add] at h2
    rw [h1, h2.unique ha]
  · obtain ⟨r, h1, h2⟩ := aff_applyPt ri hp
    rw [Matrix.one_mulVec, add_zero] at h2
    rw [h1, h2.unique hp]
  · obtain ⟨r, h1, h2⟩ := aff_applyVec ri hv
    rw [Matrix.one_mulVec] at h2
    rw [h1, h2.unique hv]

/-- **C43** (d) Vectors and points: constructors, reading and writing coordinates, and the vector space
operations compute what their names say; operands of different dimensions panic. -/
theorem C43_vectors {v w : Vec T} {x y : Fin n → T} (hv : IsVec v x) (hw : IsVec w y) (k : T) :
    (∃ r : Vec T, Vec.new (List.ofFn x) = .ok r ∧ IsVec r x) ∧
    (∃ r : Pt T, Pt.new (List.ofFn x) = .ok r ∧ IsPt r x) ∧
    (∃ r : Vec T, Vec.zero n = .ok r ∧ IsVec r (0 : Fin n → T)) ∧
    (∃ r : Pt T, Pt.origin n = .ok r ∧ IsPt r (0 : Fin n → T)) ∧
    (∀ i : Fin n, ∃ r : Vec T, Vec.unit n i = .ok r ∧ IsVec r (Pi.single i 1)) ∧
    v.dim = n ∧ (∀ i : Fin n, v.get i = .ok (x i)) ∧ (∀ i, n ≤ i → v.get i = .panic) ∧
    (∀ (i : Fin n) (a : T), ∃ r, v.set i a = .ok r ∧ IsVec r (Function.update x i a)) ∧
    (∃ r, v.neg = .ok r ∧ IsVec r (-x)) ∧
    (∃ r, v.add w = .ok r ∧ IsVec r (x + y)) ∧
    (∃ r, v.sub w = .ok r ∧ IsVec r (x - y)) ∧
    IsVec (v.smul k) (k • x) := by
  refine ⟨vec_new rfl, pt_new rfl, vec_zero n, pt_new (List.ofFn_const n 0).symm, vec_unit_ring, hv.dim_eq, hv.get, ?_, ?_,
    vec_neg hv, vec_add hv hw, vec_sub hv hw, vec_smul k hv⟩
  · intro i hi
    exact get_panic hv.wf (by rw [hv.rows]; omega)
  · intro i a; exact vec_set hv i a

/-- **C43** (e) operands of different dimensions: the sum, the difference and the composition panic. -/
theorem C43_dimension {v w : Vec T} {p : Pt T} {a b : AffineMap T} :
    (v.dim ≠ w.dim → v.add w = .panic ∧ v.sub w = .panic) ∧
    (p.dim ≠ v.dim → p.add v = .panic ∧ p.subVec v = .panic) ∧
    (a.dim ≠ b.dim → a.mul b = .panic) := by
  refine ⟨fun h => ⟨?_, ?_⟩, fun h => ⟨?_, ?_⟩, fun h => ?_⟩
  · simp [Vec.add, rassert, h]
  · simp [Vec.sub, rassert, h]
  · simp [Pt.add, rassert, h]
  · simp [Pt.subVec, rassert, h]
  · simp [AffineMap.mul, rassert, h]

/-- **C43** (f) `is_identity` recognises exactly the identity map. -/
theorem C43_is_identity [DecidableEq T] {a : AffineMap T} {A : Matrix (Fin n) (Fin n) T} {s : Fin n → T}
    (ha : IsAff a A s) : ∃ b, a.isIdentity = .ok b ∧ (b = true ↔ A = 1 ∧ s = 0) := by
  obtain ⟨b, h1, h2⟩ := rep_isIdentity ha.1
  have hd : a.shift.coords.data = List.ofFn s := rep_col_data ha.2
  refine ⟨_, by unfold AffineMap.isIdentity; rw [bind_ok h1], ?_⟩
  rw [Bool.and_eq_true, h2, hd]
  refine and_congr ?_ ?_
  · constructor
    · rintro ⟨-, h⟩
      ext i j; rw [h, Matrix.one_apply]; simp [Fin.ext_iff]
    · rintro rfl
      refine ⟨rfl, fun i j => ?_⟩
      rw [Matrix.one_apply]; simp [Fin.ext_iff]
  · rw [List.all_eq_true]
    constructor
    · intro h; ext i
      have := h (s i) (List.mem_ofFn.2 ⟨i, rfl⟩)
      simpa using this
    · rintro rfl y hy
      obtain ⟨i, rfl⟩ := List.mem_ofFn.1 hy
      simp

/-- **C43** (g) a vector divided by a rational number; zero panics (except on the empty vector). -/
theorem C43_divide {v : Vec Rat} {x : Fin n → Rat} (hv : IsVec v x) (k : Rat) :
    (k ≠ 0 → ∃ r, v.divScalar quoRat k = .ok r ∧ IsVec r (fun i => x i / k)) ∧
    (k = 0 → 0 < n → v.divScalar quoRat k = .panic) := by
  obtain ⟨h1, h2⟩ := C17_div_exact.1 v.coords _ k hv
  constructor
  · intro hk
    obtain ⟨m, h3, h4⟩ := h1 hk
    exact ⟨⟨m⟩, by unfold Vec.divScalar; rw [bind_ok h3], h4⟩
  · intro hk hn
    unfold Vec.divScalar
    rw [h2 hk hn]; rfl

end

/-- a screw-like map of the plane; the hypotheses of C43-C45 hold for it -/
theorem C43_example : IsAff (⟨⟨2, 2, [0, -1, 1, 0]⟩, ⟨⟨2, 1, [1/2, 0]⟩⟩⟩ : AffineMap Rat)
    !![0, -1; 1, 0] ![1/2, 0] := by
  refine ⟨⟨rfl, rfl, rfl, by simp, ?_⟩, rfl, rfl, rfl, by simp, ?_⟩
  · decide +kernel
  · decide +kernel

/-! ## C44 -/

variable {n : Nat}

section
variable {T : Type} [CommRing T] [IsDomain T] [Scalar T] [DecidableEq T] [LawfulScalar T]

theorem inverse_gen {a : AffineMap T} {A : Matrix (Fin n) (Fin n) T} {s : Fin n → T} (ha : IsAff a A s) :
    (IsUnit A.det ∧ ∃ b, a.inverse = .ok (some b) ∧ a.mul b = AffineMap.identity n ∧
      b.mul a = AffineMap.identity n) ∨
    (¬ IsUnit A.det ∧ a.inverse = .ok none) := by
  rcases aff_inverse_gen ha with ⟨b, B, h1, h2, h3, h4⟩ | ⟨h1, h2⟩
  · left
    refine ⟨?_, b, h1, ?_, ?_⟩
    · have := congrArg Matrix.det h3
      rw [Matrix.det_mul, Matrix.det_one] at this
      exact IsUnit.of_mul_eq_one _ this
    · obtain ⟨r, h5, h6⟩ := aff_mul ha h2
      obtain ⟨i, hi, ri⟩ := aff_identity (T := T) n
      rw [h3, Matrix.mulVec_neg, Matrix.mulVec_mulVec, h3, Matrix.one_mulVec, neg_add_cancel] at h6
      rw [h5, hi, h6.unique ri]
    · obtain ⟨r, h5, h6⟩ := aff_mul h2 ha
      obtain ⟨i, hi, ri⟩ := aff_identity (T := T) n
      rw [h4, add_neg_cancel] at h6
      rw [h5, hi, h6.unique ri]
  · exact Or.inr ⟨h2, h1⟩

end

/-- **C44** `inverse` returns a two-sided inverse exactly when the linear part is invertible, and `None`
otherwise. -/
theorem C44_inverse {a : AffineMap Rat} {A : Matrix (Fin n) (Fin n) Rat} {s : Fin n → Rat}
    (ha : IsAff a A s) :
    (A.det ≠ 0 ∧ ∃ b, a.inverse = .ok (some b) ∧ a.mul b = AffineMap.identity n ∧
      b.mul a = AffineMap.identity n) ∨
    (A.det = 0 ∧ a.inverse = .ok none) := by
  rcases inverse_gen ha with ⟨h1, h2⟩ | ⟨h1, h2⟩
  · exact Or.inl ⟨h1.ne_zero, h2⟩
  · exact Or.inr ⟨by simpa using h1, h2⟩

/-- **C44** for integer maps: the inverse has integer entries exactly when the determinant is 1 or -1. -/
theorem C44_inverse_int {a : AffineMap Int} {A : Matrix (Fin n) (Fin n) Int} {s : Fin n → Int}
    (ha : IsAff a A s) :
    ((A.det = 1 ∨ A.det = -1) ∧ ∃ b, a.inverse = .ok (some b) ∧ a.mul b = AffineMap.identity n ∧
      b.mul a = AffineMap.identity n) ∨
    (A.det ≠ 1 ∧ A.det ≠ -1 ∧ a.inverse = .ok none) := by
  rcases inverse_gen ha with ⟨h1, h2⟩ | ⟨h1, h2⟩
  · exact Or.inl ⟨Int.isUnit_iff.1 h1, h2⟩
  · rw [Int.isUnit_iff] at h1
    push Not at h1
    exact Or.inr ⟨h1.1, h1.2, h2⟩

example : AffineMap.inverse (⟨⟨2, 2, [0, -1, 1, 0]⟩, ⟨⟨2, 1, [1/2, 0]⟩⟩⟩ : AffineMap Rat) =
    .ok (some ⟨⟨2, 2, [0, 1, -1, 0]⟩, ⟨⟨2, 1, [0, 1/2]⟩⟩⟩) := by decide +kernel
example : AffineMap.inverse (⟨⟨2, 2, [1, 2, 2, 4]⟩, ⟨⟨2, 1, [1, 0]⟩⟩⟩ : AffineMap Rat) = .ok none := by
  decide +kernel

example : AffineMap.inverse (⟨⟨2, 2, [2, 1, 1, 1]⟩, ⟨⟨2, 1, [1, 0]⟩⟩⟩ : AffineMap Int) =
    .ok (some ⟨⟨2, 2, [1, -1, -1, 2]⟩, ⟨⟨2, 1, [-1, 1]⟩⟩⟩) := by decide +kernel
example : AffineMap.inverse (⟨⟨2, 2, [2, 0, 0, 1]⟩, ⟨⟨2, 1, [1, 0]⟩⟩⟩ : AffineMap Int) = .ok none := by
  decide +kernel

/-! ## C45 -/

section
variable {T : Type} [CommRing T] [IsDomain T] [Scalar T] [DecidableEq T] [LawfulScalar T]

/-- **C45** (a) `c.inverse() * (c * x) == x` for points, vectors and affine maps, for every coordinate map
that a program can build, over the rational numbers and over the integers. -/
theorem C45_round_trip {c : CoordMap T} (hc : BuiltCoordMap n c) {p : Pt T} {v : Vec T}
    {a : AffineMap T} {x y s : Fin n → T} {A : Matrix (Fin n) (Fin n) T} (hp : IsPt p x)
    (hv : IsVec v y) (ha : IsAff a A s) :
    (c.applyPt p >>= fun q => c.inverse.applyPt q) = .ok p ∧
    (c.applyVec v >>= fun w => c.inverse.applyVec w) = .ok v ∧
    (c.applyAff a >>= fun b => c.inverse.applyAff b) = .ok a := by
  obtain ⟨F, B, f, b, h⟩ := built_coord hc
  obtain ⟨hF, hB, e1, e2, e3, e4⟩ := h
  refine ⟨?_, ?_, ?_⟩
  · obtain ⟨r, h1, h2⟩ := aff_applyPt hF hp
    obtain ⟨r', h1', h2'⟩ := aff_applyPt hB h2
    rw [e4] at h2'
    unfold CoordMap.applyPt
    rw [bind_ok h1]
    exact h1'.trans (by rw [h2'.unique hp])
  · obtain ⟨r, h1, h2⟩ := aff_applyVec hF hv
    obtain ⟨r', h1', h2'⟩ := aff_applyVec hB h2
    rw [Matrix.mulVec_mulVec, e2, Matrix.one_mulVec] at h2'
    unfold CoordMap.applyVec
    rw [bind_ok h1]
    exact h1'.trans (by rw [h2'.unique hv])
  · obtain ⟨r1, h1, g1⟩ := aff_mul hF ha
    obtain ⟨r2, h2, g2⟩ := aff_mul g1 hB
    obtain ⟨r3, h3, g3⟩ := aff_mul hB g2
    obtain ⟨r4, h4, g4⟩ := aff_mul g3 hF
    have hl : B * (F * A * B) * F = A := by
      rw [Matrix.mul_assoc F, ← Matrix.mul_assoc B, e2, Matrix.one_mul, Matrix.mul_assoc, e2, Matrix.mul_one]
    have hb : b + B.mulVec f = 0 := by have := e4 0; simpa [add_comm] using this
    have hs : (B * (F * A * B)).mulVec f + (B.mulVec ((F * A).mulVec b + (F.mulVec s + f)) + b) = s := by
      rw [Matrix.mul_assoc F, ← Matrix.mul_assoc B, e2, Matrix.one_mul, ← Matrix.mulVec_mulVec]
      simp only [Matrix.mulVec_add, Matrix.mulVec_mulVec]
      rw [← Matrix.mul_assoc, e2, Matrix.one_mul, Matrix.one_mulVec]
      have : A.mulVec (B.mulVec f) + A.mulVec b = 0 := by
        rw [← Matrix.mulVec_add, add_comm, hb, Matrix.mulVec_zero]
      rw [← Matrix.mulVec_mulVec]
      calc _ = (A.mulVec (B.mulVec f) + A.mulVec b) + s + (b + B.mulVec f) := by abel
        _ = s := by rw [this, hb]; simp
    rw [hl, hs] at g4
    unfold CoordMap.applyAff
    rw [bind_ok h1, bind_ok h2]
    show (c.backward.mul r2 >>= fun x => x.mul c.forward) = _
    rw [bind_ok h3, h4, g4.unique ha]

/-- **C45** (c) `(d*c)*x == d*(c*x)` for points, vectors and affine maps, over the rational numbers and over the integers. -/
theorem C45_composition {c d : CoordMap T} (hc : BuiltCoordMap n c) (hd : BuiltCoordMap n d) {p : Pt T}
    {v : Vec T} {a : AffineMap T} {x y s : Fin n → T} {A : Matrix (Fin n) (Fin n) T}
    (hp : IsPt p x) (hv : IsVec v y) (ha : IsAff a A s) :
    (d.mul c >>= fun e => e.applyPt p) = (c.applyPt p >>= fun q => d.applyPt q) ∧
    (d.mul c >>= fun e => e.applyVec v) = (c.applyVec v >>= fun w => d.applyVec w) ∧
    (d.mul c >>= fun e => e.applyAff a) = (c.applyAff a >>= fun b => d.applyAff b) := by
  obtain ⟨F, B, f, b, hF, hB, -⟩ := built_coord hc
  obtain ⟨F', B', f', b', hF', hB', -⟩ := built_coord hd
  obtain ⟨e, h1, g1⟩ := aff_mul hF' hF
  obtain ⟨i, h2, g2⟩ := aff_mul hB hB'
  have he : d.mul c = .ok ⟨e, i⟩ := by unfold CoordMap.mul; rw [bind_ok h1, bind_ok h2]
  rw [bind_ok he, bind_ok he, bind_ok he]
  refine ⟨?_, ?_, ?_⟩
  · have := (C43_laws hF' hF hF hp hp hv).1
    rw [bind_ok h1] at this; exact this
  · have := (C43_laws hF' hF hF hp hp hv).2.1
    rw [bind_ok h1] at this; exact this
  · obtain ⟨r1, k1, m1⟩ := aff_mul g1 ha
    obtain ⟨r2, k2, m2⟩ := aff_mul m1 g2
    obtain ⟨r3, k3, m3⟩ := aff_mul hF ha
    obtain ⟨r4, k4, m4⟩ := aff_mul m3 hB
    obtain ⟨r5, k5, m5⟩ := aff_mul hF' m4
    obtain ⟨r6, k6, m6⟩ := aff_mul m5 hB'
    have h1 : CoordMap.applyAff ⟨e, i⟩ a = .ok r2 := by
      unfold CoordMap.applyAff; simp only; rw [bind_ok k1, k2]
    have h2 : CoordMap.applyAff c a = .ok r4 := by
      unfold CoordMap.applyAff; rw [bind_ok k3, k4]
    have h3 : CoordMap.applyAff d r4 = .ok r6 := by
      unfold CoordMap.applyAff; rw [bind_ok k5, k6]
    rw [h1, bind_ok h2, h3]
    congr 1
    refine m2.unique ?_
    have e1 : F' * (F * A * B) * B' = F' * F * A * (B * B') := by simp only [Matrix.mul_assoc]
    have e2 : (F' * (F * A * B)).mulVec b' + (F'.mulVec ((F * A).mulVec b + (F.mulVec s + f)) + f') =
        (F' * F * A).mulVec (B.mulVec b' + b) + ((F' * F).mulVec s + (F'.mulVec f + f')) := by
      simp only [Matrix.mulVec_add, Matrix.mulVec_mulVec, Matrix.mul_assoc]
      abel
    rwa [e1, e2] at m6

end

/-- **C45** (b) the constructors return coordinate maps unless the linear part is singular: `from_basis` and
`to_basis` return exactly for linearly independent vectors, and `inverse` and composition always do. -/
theorem C45_returns :
    (∀ {a : AffineMap Rat} {A : Matrix (Fin n) (Fin n) Rat} {s : Fin n → Rat}, IsAff a A s →
      ((A.det ≠ 0 → ∃ c, CoordMap.new a = .ok c) ∧ (A.det = 0 → CoordMap.new a = .panic))) ∧
    (∀ (bs : List (Vec Rat)) (hl : bs.length = n) (x : Fin n → Fin n → Rat),
      (∀ k : Fin n, IsVec (bs[k.1]'(by omega)) (x k)) →
      ((LinearIndependent Rat x → (∃ c, CoordMap.fromBasis bs = .ok c) ∧ ∃ c, CoordMap.toBasis bs = .ok c) ∧
       (¬ LinearIndependent Rat x → CoordMap.fromBasis bs = .panic ∧ CoordMap.toBasis bs = .panic))) ∧
    (∀ c d : CoordMap Rat, BuiltCoordMap n c → BuiltCoordMap n d → ∃ e, CoordMap.mul c d = .ok e) ∧
    (∃ c : CoordMap Rat, CoordMap.identity n = .ok c) := by
  refine ⟨?_, ?_, ?_, ?_⟩
  · intro a A s ha
    obtain ⟨h1, h2⟩ := coord_new ha
    exact ⟨fun h => let ⟨c, _, _, h, _⟩ := h1 h; ⟨c, h⟩, h2⟩
  · intro bs hl x hx
    obtain ⟨h1, h2⟩ := fromBasis_ok hl x hx
    refine ⟨fun h => ?_, fun h => ⟨h2 h, ?_⟩⟩
    · obtain ⟨c, B, t, h3, h4⟩ := h1 h
      exact ⟨⟨c, h3⟩, c.inverse, by unfold CoordMap.toBasis; rw [bind_ok h3]⟩
    · unfold CoordMap.toBasis; rw [h2 h]; rfl
  · intro c d hc hd
    obtain ⟨_, _, _, _, h⟩ := built_coord hc
    obtain ⟨_, _, _, _, h'⟩ := built_coord hd
    obtain ⟨e, he, -⟩ := coord_mul h h'
    exact ⟨e, he⟩
  · obtain ⟨a, h1, h2⟩ := aff_identity (T := Rat) n
    obtain ⟨c, _, _, h3, -⟩ := (coord_new h2).1 (by simp)
    exact ⟨c, by unfold CoordMap.identity; rw [bind_ok h1, h3]⟩

/-- **C45** (b) for integers: the constructors return coordinate maps exactly when the determinant is 1 or -1. -/
theorem C45_returns_int :
    (∀ {a : AffineMap Int} {A : Matrix (Fin n) (Fin n) Int} {s : Fin n → Int}, IsAff a A s →
      ((A.det = 1 ∨ A.det = -1 → ∃ c, CoordMap.new a = .ok c) ∧
       (¬ (A.det = 1 ∨ A.det = -1) → CoordMap.new a = .panic))) ∧
    (∀ (bs : List (Vec Int)) (hl : bs.length = n) (x : Fin n → Fin n → Int),
      (∀ k : Fin n, IsVec (bs[k.1]'(by omega)) (x k)) →
      ((Matrix.det x = 1 ∨ Matrix.det x = -1 →
          (∃ c, CoordMap.fromBasis bs = .ok c) ∧ ∃ c, CoordMap.toBasis bs = .ok c) ∧
       (¬ (Matrix.det x = 1 ∨ Matrix.det x = -1) →
          CoordMap.fromBasis bs = .panic ∧ CoordMap.toBasis bs = .panic))) ∧
    (∀ c d : CoordMap Int, BuiltCoordMap n c → BuiltCoordMap n d → ∃ e, CoordMap.mul c d = .ok e) ∧
    (∃ c : CoordMap Int, CoordMap.identity n = .ok c) := by
  refine ⟨?_, ?_, ?_, ?_⟩
  · intro a A s ha
    obtain ⟨h1, h2⟩ := coord_new_gen ha
    rw [Int.isUnit_iff] at h1 h2
    exact ⟨fun h => let ⟨c, _, _, h, _⟩ := h1 h; ⟨c, h⟩, h2⟩
  · intro bs hl x hx
    obtain ⟨h1, h2⟩ := fromBasis_gen hl x hx
    rw [show (Matrix.of fun i k => x k i).det = Matrix.det x from Matrix.det_transpose (Matrix.of x),
      Int.isUnit_iff] at h1 h2
    refine ⟨fun h => ?_, fun h => ⟨h2 h, ?_⟩⟩
    · obtain ⟨c, B, t, h3, h4⟩ := h1 h
      exact ⟨⟨c, h3⟩, c.inverse, by unfold CoordMap.toBasis; rw [bind_ok h3]⟩
    · unfold CoordMap.toBasis; rw [h2 h]; rfl
  · intro c d hc hd
    obtain ⟨_, _, _, _, h⟩ := built_coord hc
    obtain ⟨_, _, _, _, h'⟩ := built_coord hd
    obtain ⟨e, he, -⟩ := coord_mul h h'
    exact ⟨e, he⟩
  · obtain ⟨a, h1, h2⟩ := aff_identity (T := Int) n
    obtain ⟨c, _, _, h3, -⟩ := (coord_new_gen h2).1 (by simp)
    exact ⟨c, by unfold CoordMap.identity; rw [bind_ok h1, h3]⟩

-- a change of basis of the square lattice, and one that leads out of it
example : (do
    let b0 ← Vec.new [2, 1]
    let b1 ← Vec.new [1, (1 : Int)]
    let c ← CoordMap.toBasis [b0, b1]
    c.applyVec (← Vec.new [3, 2])) = Vec.new [1, 1] := by decide +kernel
example : (do
    let b0 ← Vec.new [2, 1]
    let b1 ← Vec.new [0, (1 : Int)]
    CoordMap.toBasis [b0, b1]) = .panic := by decide +kernel

section
variable {T : Type} [CommRing T] [IsDomain T] [Scalar T] [DecidableEq T] [LawfulScalar T] [LT T] [DecidableLT T]

theorem scalar_product_gen (H : ∀ {m : Mat T} {M : Matrix (Fin n) (Fin n) T}, Rep m M →
      (M.IsSymm ∧ (∀ x : Fin n → T, x ≠ 0 → 0 < x ⬝ᵥ M.mulVec x) → ScalarProduct.ofMat m = .ok ⟨m⟩) ∧
      (¬ (M.IsSymm ∧ (∀ x : Fin n → T, x ≠ 0 → 0 < x ⬝ᵥ M.mulVec x)) → ScalarProduct.ofMat m = .panic))
    {c : CoordMap T} (hc : BuiltCoordMap n c) {m : Mat T}
    {G : Matrix (Fin n) (Fin n) T} (hm : Rep m G) {dot : ScalarProduct T}
    (hdot : ScalarProduct.ofMat m = .ok dot) {u v : Vec T} {x y : Fin n → T} (hu : IsVec u x)
    (hv : IsVec v y) :
    (∃ r, c.applyDot dot = .ok r) ∧
    (c.applyDot dot >>= fun d => c.applyVec u >>= fun u' => c.applyVec v >>= fun v' => d.apply u' v') =
      dot.apply u v := by
  obtain ⟨F, B, f, b, hF, hB, e1, e2, -⟩ := built_coord hc
  have hG : G.IsSymm ∧ (∀ x : Fin n → T, x ≠ 0 → 0 < x ⬝ᵥ G.mulVec x) := by
    by_contra hn
    rw [(H hm).2 hn] at hdot; cases hdot
  rw [(H hm).1 hG] at hdot; cases hdot
  obtain ⟨t, h1, g1⟩ := rep_transpose_sq hB.1
  obtain ⟨r, h2, g2⟩ := rep_mul g1 hm
  obtain ⟨r', h3, g3⟩ := rep_mul g2 hB.1
  have hpd : (B.transpose * G * B).IsSymm ∧ (∀ x : Fin n → T, x ≠ 0 → 0 < x ⬝ᵥ (B.transpose * G * B).mulVec x) := by
    constructor
    · rw [Matrix.IsSymm, Matrix.transpose_mul, Matrix.transpose_mul, Matrix.transpose_transpose, hG.1.eq,
        Matrix.mul_assoc]
    · intro z hz
      have hBz : B.mulVec z ≠ 0 := by
        intro h0
        have := congrArg F.mulVec h0
        rw [Matrix.mulVec_mulVec, e1, Matrix.one_mulVec, Matrix.mulVec_zero] at this
        exact hz this
      have := hG.2 _ hBz
      rw [← Matrix.mulVec_mulVec, ← Matrix.mulVec_mulVec, Matrix.dotProduct_mulVec z,
        ← Matrix.mulVec_transpose, Matrix.transpose_transpose]
      exact this
  have hd : c.applyDot ⟨m⟩ = .ok ⟨r'⟩ := by
    unfold CoordMap.applyDot
    rw [bind_ok h1]
    simp only
    rw [bind_ok h2, bind_ok h3, (H g3).1 hpd]
  refine ⟨⟨_, hd⟩, ?_⟩
  obtain ⟨u', h4, g4⟩ := aff_applyVec hF hu
  obtain ⟨v', h5, g5⟩ := aff_applyVec hF hv
  unfold CoordMap.applyVec
  rw [bind_ok hd, bind_ok h4, bind_ok h5, apply_ok g3 g4 g5, apply_ok hm hu hv]
  congr 1
  rw [Matrix.dotProduct_mulVec, ← Matrix.mulVec_transpose, Matrix.transpose_mul, Matrix.transpose_mul,
    Matrix.transpose_transpose, hG.1.eq, Matrix.mulVec_mulVec]
  rw [Matrix.mul_assoc B.transpose, Matrix.mul_assoc G, e2, Matrix.mul_one]
  rw [← Matrix.mulVec_mulVec, Matrix.mulVec_transpose, ← Matrix.dotProduct_mulVec, Matrix.mulVec_mulVec, e2,
    Matrix.one_mulVec, Matrix.dotProduct_mulVec, ← Matrix.mulVec_transpose, hG.1.eq]

end

/-- **C45** (d) Scalar products are invariant: `(c*dot).apply(c*u, c*v) == dot.apply(u, v)`, and `c*dot`
returns (it is again positive definite). -/
theorem C45_scalar_product {c : CoordMap Rat} (hc : BuiltCoordMap n c) {m : Mat Rat}
    {G : Matrix (Fin n) (Fin n) Rat} (hm : Rep m G) {dot : ScalarProduct Rat}
    (hdot : ScalarProduct.ofMat m = .ok dot) {u v : Vec Rat} {x y : Fin n → Rat} (hu : IsVec u x)
    (hv : IsVec v y) :
    (∃ r, c.applyDot dot = .ok r) ∧
    (c.applyDot dot >>= fun d => c.applyVec u >>= fun u' => c.applyVec v >>= fun v' => d.apply u' v') =
      dot.apply u v := by
  exact scalar_product_gen ofMat_ok hc hm hdot hu hv

/-- **C45** (d) for integers: scalar products are invariant: `(c*dot).apply(c*u, c*v) == dot.apply(u, v)`, and `c*dot`
returns (it is again positive definite). -/
theorem C45_scalar_product_int {c : CoordMap Int} (hc : BuiltCoordMap n c) {m : Mat Int}
    {G : Matrix (Fin n) (Fin n) Int} (hm : Rep m G) {dot : ScalarProduct Int}
    (hdot : ScalarProduct.ofMat m = .ok dot) {u v : Vec Int} {x y : Fin n → Int} (hu : IsVec u x)
    (hv : IsVec v y) :
    (∃ r, c.applyDot dot = .ok r) ∧
    (c.applyDot dot >>= fun d => c.applyVec u >>= fun u' => c.applyVec v >>= fun v' => d.apply u' v') =
      dot.apply u v := by
  exact scalar_product_gen ofMat_int hc hm hdot hu hv

/-- **C45** (e) `to_basis(b) * b[k]` is the `k`-th unit vector. -/
theorem C45_to_basis (bs : List (Vec Rat)) (hl : bs.length = n) (x : Fin n → Fin n → Rat)
    (hx : ∀ k : Fin n, IsVec (bs[k.1]'(by omega)) (x k)) (hli : LinearIndependent Rat x) (k : Fin n) :
    (CoordMap.toBasis bs >>= fun c => c.applyVec (bs[k.1]'(by omega))) = Vec.unit n k.1 := by
  obtain ⟨c, B, t, h3, h4⟩ := (fromBasis_ok hl x hx).1 hli
  have : CoordMap.toBasis bs = .ok c.inverse := by unfold CoordMap.toBasis; rw [bind_ok h3]
  rw [bind_ok this]
  obtain ⟨v, h5, h6⟩ := vec_unit (T := Rat) k
  obtain ⟨w, h7, h8⟩ := aff_applyVec h4.2.1 (hx k)
  have e : B.mulVec (x k) = Pi.single k 1 := by
    have h9 : (Matrix.of fun i k => x k i).mulVec (Pi.single k 1) = x k := by
      ext i; simp
    rw [← h9, Matrix.mulVec_mulVec, h4.2.2.2.1, Matrix.one_mulVec]
  rw [e] at h8
  rw [h5, ← h8.unique h6]
  exact h7

example : (do
    let b0 ← Vec.new [1, 1]
    let b1 ← Vec.new [0, (2 : Rat)]
    let c ← CoordMap.toBasis [b0, b1]
    c.applyVec b1) = Vec.unit 2 1 := by decide +kernel

/-- **C45** (f) `determinant` is the determinant of the linear part, never zero; `is_identity` recognises the
identity. -/
theorem C45_determinant {c : CoordMap Rat} (hc : BuiltCoordMap n c) :
    ∃ (A : Matrix (Fin n) (Fin n) Rat) (s : Fin n → Rat), IsAff c.forward A s ∧
      c.determinant = .ok A.det ∧ A.det ≠ 0 ∧
      ∃ b, c.isIdentity = .ok b ∧ (b = true ↔ A = 1 ∧ s = 0) := by
  obtain ⟨F, B, f, b, h⟩ := built_coord hc
  obtain ⟨hF, hB, e1, e2, -⟩ := h
  refine ⟨F, f, hF, determinant_rep hF.1, ?_, C43_is_identity hF⟩
  intro h0
  have := congrArg Matrix.det e1
  rw [Matrix.det_mul, h0] at this
  simp at this

/-- **C45** (e), (f) for integers: `to_basis(b) * b[k]` is the `k`-th unit vector, and the determinant of a coordinate
map is 1 or -1. -/
theorem C45_basis_int :
    (∀ (bs : List (Vec Int)) (hl : bs.length = n) (x : Fin n → Fin n → Int),
      (∀ k : Fin n, IsVec (bs[k.1]'(by omega)) (x k)) → Matrix.det x = 1 ∨ Matrix.det x = -1 → ∀ k : Fin n,
      (CoordMap.toBasis bs >>= fun c => c.applyVec (bs[k.1]'(by omega))) = Vec.unit n k.1) ∧
    ∀ {c : CoordMap Int}, BuiltCoordMap n c →
      ∃ (A : Matrix (Fin n) (Fin n) Int) (s : Fin n → Int), IsAff c.forward A s ∧
        c.determinant = .ok A.det ∧ (A.det = 1 ∨ A.det = -1) ∧
        ∃ b, c.isIdentity = .ok b ∧ (b = true ↔ A = 1 ∧ s = 0) := by
  constructor
  · intro bs hl x hx hdet k
    obtain ⟨c, B, t, h3, h4⟩ := (fromBasis_gen hl x hx).1 (by
      rw [show (Matrix.of fun i k => x k i).det = Matrix.det x from Matrix.det_transpose (Matrix.of x),
        Int.isUnit_iff]
      exact hdet)
    have : CoordMap.toBasis bs = .ok c.inverse := by unfold CoordMap.toBasis; rw [bind_ok h3]
    rw [bind_ok this]
    obtain ⟨v, h5, h6⟩ := vec_unit (T := Int) k
    obtain ⟨w, h7, h8⟩ := aff_applyVec h4.2.1 (hx k)
    have e : B.mulVec (x k) = Pi.single k 1 := by
      have h9 : (Matrix.of fun i k => x k i).mulVec (Pi.single k 1) = x k := by
        ext i; simp
      rw [← h9, Matrix.mulVec_mulVec, h4.2.2.2.1, Matrix.one_mulVec]
    rw [e] at h8
    rw [h5, ← h8.unique h6]
    exact h7
  · intro c hc
    obtain ⟨F, B, f, b, h⟩ := built_coord hc
    obtain ⟨hF, hB, e1, e2, -⟩ := h
    refine ⟨F, f, hF, determinant_rep hF.1, ?_, C43_is_identity hF⟩
    have := congrArg Matrix.det e1
    rw [Matrix.det_mul, Matrix.det_one] at this
    exact Int.isUnit_iff.1 (IsUnit.of_mul_eq_one _ this)

/-! ## C46 -/

/-- **C46** (d) `ScalarProduct::default(n)` is the standard scalar product: it is what
`ScalarProduct::from` makes of the identity matrix, and `apply` is the sum of the products of coordinates. -/
theorem C46_default :
    ∃ (m : Mat Rat), Rep m (1 : Matrix (Fin n) (Fin n) Rat) ∧ ScalarProduct.default n = .ok ⟨m⟩ ∧
      ScalarProduct.ofMat m = .ok ⟨m⟩ ∧
      ∀ {u v : Vec Rat} {x y : Fin n → Rat}, IsVec u x → IsVec v y →
        ScalarProduct.apply ⟨m⟩ u v = .ok (∑ i, x i * y i) := by
  obtain ⟨m, h1, h2⟩ := rep_identity (T := Rat) n
  refine ⟨m, h2, by unfold ScalarProduct.default; rw [bind_ok h1], (ofMat_ok h2).1 ⟨Matrix.transpose_one, ?_⟩, ?_⟩
  · intro x hx
    rw [Matrix.one_mulVec]
    obtain ⟨i, hi⟩ := Function.ne_iff.1 hx
    exact Finset.sum_pos' (fun j _ => mul_self_nonneg _) ⟨i, Finset.mem_univ _, mul_self_pos.2 hi⟩
  · intro u v x y hu hv
    rw [apply_ok h2 hu hv, Matrix.one_mulVec]; rfl

example : (do
    let d ← ScalarProduct.default 2
    let u ← Vec.new [1, 2]
    let v ← Vec.new [3, (4 : Rat)]
    d.apply u v) = .ok 11 := by decide +kernel

/-- **C46** (a) `ScalarProduct::from(m)` succeeds exactly for the symmetric positive definite matrices, and
panics otherwise. -/
theorem C46_from {m : Mat Rat} (h : Built m) :
    ((∃ M : Matrix (Fin m.nrows) (Fin m.nrows) Rat, Rep m M ∧ M.IsSymm ∧ PosDefQ M) →
      ScalarProduct.ofMat m = .ok ⟨m⟩) ∧
    ((¬ ∃ M : Matrix (Fin m.nrows) (Fin m.nrows) Rat, Rep m M ∧ M.IsSymm ∧ PosDefQ M) →
      ScalarProduct.ofMat m = .panic) := by
  have hw := built_wf h
  constructor
  · rintro ⟨M, h1, h2⟩; exact (ofMat_ok h1).1 h2
  · intro hn
    by_cases hs : m.nrows = m.ncols
    · have hr := rep_toM' hw rfl hs.symm
      exact (ofMat_ok hr).2 (fun h2 => hn ⟨_, hr, h2⟩)
    · exact ofMat_nonsquare hw hs

/-- **C46** (b) `apply` of an accepted form: it is the bilinear form of the matrix, symmetric, linear in each
argument and positive on non-zero vectors. -/
theorem C46_apply {m : Mat Rat} {G : Matrix (Fin n) (Fin n) Rat} (hm : Rep m G) {dot : ScalarProduct Rat}
    (hdot : ScalarProduct.ofMat m = .ok dot) {u v w : Vec Rat} {x y z : Fin n → Rat} (hu : IsVec u x)
    (hv : IsVec v y) (hw : IsVec w z) (k : Rat) :
    dot.apply u v = .ok (∑ i, ∑ j, x i * G i j * y j) ∧
    dot.apply u v = dot.apply v u ∧
    (v.add w >>= fun s => dot.apply u s) =
      (dot.apply u v >>= fun a => dot.apply u w >>= fun b => .ok (a + b)) ∧
    dot.apply u (v.smul k) = (dot.apply u v >>= fun a => .ok (k * a)) ∧
    (x ≠ 0 → ∃ a, dot.apply u u = .ok a ∧ 0 < a) := by
  have hG : G.IsSymm ∧ PosDefQ G := by
    by_contra hn
    rw [(ofMat_ok hm).2 hn] at hdot; cases hdot
  rw [(ofMat_ok hm).1 hG] at hdot; cases hdot
  obtain ⟨s, h1, h2⟩ := vec_add hv hw
  refine ⟨?_, ?_, ?_, ?_, ?_⟩
  · rw [apply_ok hm hu hv]
    simp only [dotProduct, mulVec, Finset.mul_sum, mul_assoc]
  · rw [apply_ok hm hu hv, apply_ok hm hv hu, Matrix.dotProduct_mulVec y, ← Matrix.mulVec_transpose, hG.1.eq,
      dotProduct_comm x]
  · rw [bind_ok h1, apply_ok hm hu h2, bind_ok (apply_ok hm hu hv), bind_ok (apply_ok hm hu hw),
      Matrix.mulVec_add, dotProduct_add]
  · rw [apply_ok hm hu (vec_smul k hv), bind_ok (apply_ok hm hu hv), Matrix.mulVec_smul, dotProduct_smul,
      smul_eq_mul]
  · intro hx; exact ⟨_, apply_ok hm hu hu, hG.2 x hx⟩

/-- **C46** (a) for integer matrices: `ScalarProduct::from(m)` succeeds exactly for the symmetric positive definite matrices, and
panics otherwise. -/
theorem C46_from_int {m : Mat Int} (h : Built m) :
    ((∃ M : Matrix (Fin m.nrows) (Fin m.nrows) Int, Rep m M ∧ M.IsSymm ∧ PosDefZ M) →
      ScalarProduct.ofMat m = .ok ⟨m⟩) ∧
    ((¬ ∃ M : Matrix (Fin m.nrows) (Fin m.nrows) Int, Rep m M ∧ M.IsSymm ∧ PosDefZ M) →
      ScalarProduct.ofMat m = .panic) := by
  have hw := built_wf h
  constructor
  · rintro ⟨M, h1, h2⟩; exact (ofMat_int h1).1 h2
  · intro hn
    by_cases hs : m.nrows = m.ncols
    · have hr := rep_toM' hw rfl hs.symm
      exact (ofMat_int hr).2 (fun h2 => hn ⟨_, hr, h2⟩)
    · exact ofMat_nonsquare hw hs

/-- **C46** (b) for integer matrices: `apply` of an accepted form: it is the bilinear form of the matrix, symmetric, linear in each
argument and positive on non-zero vectors. -/
theorem C46_apply_int {m : Mat Int} {G : Matrix (Fin n) (Fin n) Int} (hm : Rep m G) {dot : ScalarProduct Int}
    (hdot : ScalarProduct.ofMat m = .ok dot) {u v w : Vec Int} {x y z : Fin n → Int} (hu : IsVec u x)
    (hv : IsVec v y) (hw : IsVec w z) (k : Int) :
    dot.apply u v = .ok (∑ i, ∑ j, x i * G i j * y j) ∧
    dot.apply u v = dot.apply v u ∧
    (v.add w >>= fun s => dot.apply u s) =
      (dot.apply u v >>= fun a => dot.apply u w >>= fun b => .ok (a + b)) ∧
    dot.apply u (v.smul k) = (dot.apply u v >>= fun a => .ok (k * a)) ∧
    (x ≠ 0 → ∃ a, dot.apply u u = .ok a ∧ 0 < a) := by
  have hG : G.IsSymm ∧ PosDefZ G := by
    by_contra hn
    rw [(ofMat_int hm).2 hn] at hdot; cases hdot
  rw [(ofMat_int hm).1 hG] at hdot; cases hdot
  obtain ⟨s, h1, h2⟩ := vec_add hv hw
  refine ⟨?_, ?_, ?_, ?_, ?_⟩
  · rw [apply_ok hm hu hv]
    simp only [dotProduct, mulVec, Finset.mul_sum, mul_assoc]
  · rw [apply_ok hm hu hv, apply_ok hm hv hu, Matrix.dotProduct_mulVec y, ← Matrix.mulVec_transpose, hG.1.eq,
      dotProduct_comm x]
  · rw [bind_ok h1, apply_ok hm hu h2, bind_ok (apply_ok hm hu hv), bind_ok (apply_ok hm hu hw),
      Matrix.mulVec_add, dotProduct_add]
  · rw [apply_ok hm hu (vec_smul k hv), bind_ok (apply_ok hm hu hv), Matrix.mulVec_smul, dotProduct_smul,
      smul_eq_mul]
  · intro hx; exact ⟨_, apply_ok hm hu hu, hG.2 x hx⟩

/-- **C46** (c) `apply` panics on vectors of another dimension. -/
theorem C46_dimension (dot : ScalarProduct Rat) (u v : Vec Rat)
    (h : u.dim ≠ dot.coeffs.nrows ∨ v.dim ≠ dot.coeffs.nrows) : dot.apply u v = .panic := by
  unfold ScalarProduct.apply
  by_cases h1 : u.dim = dot.coeffs.nrows
  · have h2 : v.dim ≠ dot.coeffs.nrows := h.resolve_left (fun h' => h' h1)
    simp [rassert, h1, h2]
  · simp [rassert, h1]

example : ScalarProduct.ofMat (⟨2, 2, [2, -1, -1, 2]⟩ : Mat Rat) = .ok ⟨⟨2, 2, [2, -1, -1, 2]⟩⟩ := by decide +kernel
example : ScalarProduct.ofMat (⟨2, 2, [1, 2, 2, 1]⟩ : Mat Rat) = .panic := by decide +kernel
example : ScalarProduct.ofMat (⟨2, 2, [-1, 0, 0, 1]⟩ : Mat Rat) = .panic := by decide +kernel

example : ScalarProduct.ofMat (⟨2, 2, [2, -1, -1, 2]⟩ : Mat Int) = .ok ⟨⟨2, 2, [2, -1, -1, 2]⟩⟩ := by decide +kernel
example : ScalarProduct.ofMat (⟨2, 2, [1, 1, 1, 1]⟩ : Mat Int) = .panic := by decide +kernel

/-! ## C47 -/

/-- **C47** `mod_z` changes the shift by an integer vector, leaves the linear part alone, is idempotent,
gives coordinates strictly between -1 and 1, and gives the same result for two maps whose shifts differ by an
integer vector without a change of sign. What is missing: the same result for all maps that differ by an
integer translation (see `C47_canonical_refuted`). -/
theorem C47_mod_z_partial {a b : AffineMap Rat} {A : Matrix (Fin n) (Fin n) Rat} {s t : Fin n → Rat}
    (ha : IsAff a A s) (hb : IsAff b A t) :
    (∃ r s', a.modZ = .ok r ∧ IsAff r A s' ∧ (∀ i, ∃ z : ℤ, s i - s' i = z) ∧ (∀ i, |s' i| < 1) ∧
      r.modZ = .ok r) ∧
    (a.modZ = b.modZ ↔ ∀ i, (∃ z : ℤ, s i - t i = z) ∧ ((∃ z : ℤ, s i = z) ∨ (0 < s i ↔ 0 < t i))) := by
  obtain ⟨r, h1, h2⟩ := aff_modZ ha
  obtain ⟨r', h3, h4⟩ := aff_modZ hb
  refine ⟨⟨r, _, h1, h2, ?_, fun i => rem1_abs _, ?_⟩, ?_⟩
  · intro i; exact ⟨(s i).num.tdiv (s i).den, by simp only [rem1_eq]; ring⟩
  · obtain ⟨r2, h5, h6⟩ := aff_modZ h2
    have : (fun i => rem1 (rem1 (s i))) = fun i => rem1 (s i) := by
      ext i; exact rem1_of_abs_lt (rem1_abs _)
    rw [this] at h6
    rw [h5, h6.unique h2]
  · rw [h1, h3]
    constructor
    · intro h i
      have h := Outcome.ok.inj h
      subst h
      rw [← rem1_eq_iff]
      exact congrFun (h2.inj h4).2 i
    · intro h
      have : (fun i => rem1 (s i)) = fun i => rem1 (t i) := by
        ext i; exact (rem1_eq_iff _ _).2 (h i)
      rw [this] at h2
      rw [h2.unique h4]

/-- **C47** for vectors -/
theorem C47_mod_z_vector {v : Vec Rat} {x : Fin n → Rat} (hv : IsVec v x) :
    ∃ w y, v.modZ = .ok w ∧ IsVec w y ∧ (∀ i : Fin n, ∃ z : ℤ, x i - y i = z) ∧ (∀ i, |y i| < 1) ∧
      w.modZ = .ok w := by
  obtain ⟨w, h1, h2⟩ := vec_modZ hv
  refine ⟨w, _, h1, h2, ?_, fun i => rem1_abs _, ?_⟩
  · intro i; exact ⟨(x i).num.tdiv (x i).den, by simp only [rem1_eq]; ring⟩
  · obtain ⟨r2, h5, h6⟩ := vec_modZ h2
    have : (fun i => rem1 (rem1 (x i))) = fun i => rem1 (x i) := by
      ext i; exact rem1_of_abs_lt (rem1_abs _)
    rw [this] at h6
    rw [h5, h6.unique h2]

/-- **C47** `mod_z` is not canonical: the translations by 1/2 and by -1/2 differ by an integer translation
but have different `mod_z` (the remainder keeps the sign). -/
theorem C47_canonical_refuted :
    ∃ (a b : AffineMap Rat) (A : Matrix (Fin 1) (Fin 1) Rat) (s t : Fin 1 → Rat), IsAff a A s ∧ IsAff b A t ∧
      (∀ i, ∃ z : ℤ, s i - t i = z) ∧ a.modZ ≠ b.modZ := by
  refine ⟨⟨⟨1, 1, [1]⟩, ⟨⟨1, 1, [1/2]⟩⟩⟩, ⟨⟨1, 1, [1]⟩, ⟨⟨1, 1, [-1/2]⟩⟩⟩, !![1], ![1/2], ![-1/2], ?_, ?_, ?_, ?_⟩
  · refine ⟨⟨rfl, rfl, rfl, by simp, ?_⟩, rfl, rfl, rfl, by simp, ?_⟩ <;> decide +kernel
  · refine ⟨⟨rfl, rfl, rfl, by simp, ?_⟩, rfl, rfl, rfl, by simp, ?_⟩ <;> decide +kernel
  · intro i; refine ⟨1, ?_⟩; fin_cases i; norm_num
  · decide +kernel

end Systre
