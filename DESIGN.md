# Formal model of odf/rust-systre in Lean 4

This file is the plan and the trusted base. `properties.jsonl` lists the properties, `MANIFEST.json`
maps each one to theorems, `seeded/LOG.jsonl` records the mutation experiments.

## 1. What the theorems are about

Everything is proved about an executable Lean model, in `lean/Verif/Model/`, written by reading
`/repo/src`. Rust is not run here, so the tie between the model and the code is the reading; every
definition cites file and lines and names its simplifications.

Layout

* `lean/Verif/Model/*`  - the model, one file per Rust file (or part of it), total computable functions;
* `lean/Verif/Spec/*`   - small specifications that do not mention the model (equivalence closure of a
  list of pairs, infinite periodic graph, walks and distances, lattice generated by a list, ...);
* `lean/Verif/Lemmas/*` - helper lemmas;
* `lean/Verif/Props/*`  - the property theorems, with examples showing that their hypotheses are met;
* `lean/Verif/Tests/*`  - validation of the model, no properties: the 81 `#[test]` functions of the repository, with their
  literals and expected values, run on the model in the kernel. Rust cannot be run here, so the expected values that the
  authors of the code wrote down are the only observations of it that there are; the model reproduces all of them
  (two of them, the symmetries of `dia` and `dia_c2`, only outside the kernel, which runs out of memory).

### Conventions of the model

* A Rust panic (assert, index out of range, `unwrap` on `None`, division by zero, `todo!`) is the value
  `Outcome.panic`; running out of fuel in a loop is `Outcome.diverge`. Termination theorems say that
  `diverge` does not happen (for all sufficiently large fuel).
* `i32`/`i64`/`u32`/`usize` are unbounded `Int`/`Nat` unless a property is about overflow (C24, C74, C75). Integer
  division and remainder are Rust's truncating ones (`Int.tdiv`, `Int.tmod`).
* `BigInt` is `Int`, `BigRational` is `Rat`. `f64` is modelled for the linear algebra (C76) and for the
  number of steps of the p-adic solver (C77).
* `&mut` arguments become extra results. `Vec` is `List`; `HashMap`/`BTreeMap` are association lists,
  `HashSet`/`BTreeSet` duplicate-free lists. Where Rust's iteration order over a `HashSet` is
  unspecified, the statement is about the set, not the order; C84 shows for arbitrary orders that nothing else
  depends on it.
* `PhantomData` coordinate system tags are dropped (they have no run-time content).
* Interior mutability (`UnsafeCell`) is a state that is threaded explicitly.

## 2. Plan per property

| id | modelled | proof |
|----|----------|-------|
| C01-C05 | `PartitionImpl` with index/elements/rank/parent vectors, both while loops with fuel | invariant (acyclic ranked forest, index inverse to elements) by induction over the history; refinement to the equivalence closure |
| C06 | `gcdx` with truncating division | loop invariant |
| C07 | `extend_basis`, `clear_column` for Int and Rat | generic invariant over a "lawful scalar" class, instances for Int and Rat |
| C08, C09 | `rank`, `determinant` (all branches) | C07 plus independence of echelon rows; alternating multilinear bookkeeping for the sign |
| C10, C11 | `reduced_basis`, `normalize_column`, `reduce_column` | uniqueness of RREF over Rat; for Int same lattice and bounds, the index as product of the pivots (`Props/RowLattice.lean`), and a refutation of canonicity |
| C12-C15 | `solve`, `solve_row`, `null_space`, `inverse` | row-equivalence of the two eliminations, forward substitution |
| C16-C18 | `Matrix` as (nrows, ncols, data) | entry-wise characterisation of each operation |
| C19-C21 | `modular_inverse`, `modular_row_echelon_form`, `modular_matrix_inverse` | extended Euclid invariant; Gauss-Jordan invariant over ZMod p; refutation for negative multiples of p and for the echelon shape |
| C22 | `rational_reconstruction` | continued fraction argument |
| C23 | `solve` with the number of steps as a parameter bounded below by the exact real formula | p-adic lifting invariant, Cramer, Hadamard, C22. f64 rounding of the step count is not modelled: the theorem holds for every step count at least the exact value |
| C24 | magnitudes of all intermediates | invariant over steps |
| C25-C28 | edges, graph construction, accessors with cache state | case analysis; uniqueness of sorted lists; refinement of cached to pure accessors |
| C29 | `CoordinationSequence` state and `next` | shell invariant over the infinite periodic graph |
| C30-C32 | BFS traversal, component measures | BFS invariant: potentials, seen set; lattice of cycle shifts; path lifting |
| C33, C34 | Laplacian assembly, call of the p-adic solver, edge vectors | C23, non-singularity of the reduced Laplacian of a connected graph; for 9999991 or more edges `C23_any_none`: the solver is right or gives up |
| C35, C36 | predicates over positions | case analysis and list induction |
| C37-C42 | automorphism search, group closure, symmetries, minimal image | BFS invariant, finite immersion argument, closure; refutations by evaluation in the kernel |
| C43-C47 | affine and coordinate maps, scalar products over ℚ and ℤ, mod_z | matrix algebra over a ring with the elimination laws of C06-C15; Sylvester's criterion; over ℤ by clearing denominators |
| C48-C52 | lattice reductions | monovariants on discrete norms; unimodular steps |
| C53-C57 | generate, shift space, gram space, primitive cell, operator details | closure, C07/C14; crystallographic restriction from cyclotomic polynomials |
| C58, C59 | parser combinators used from nom 7, printer | grammar induction; refutations |
| C60-C62 | line classification and block state machine, table parser | invariants over line lists; refutations |
| C63 | finite enums and lookups | finite case analysis, list filtering |
| C66 | `parse_cgd_line` with the combinators of `Model/Nom.lean` | grammar both ways: what is read has the stated form, every text of that form is read |
| C64 | `is_ladder`, `ladder_symmetries` | translations of the infinite graph |
| C65 | `crystal_system_and_basis_2d` | invariant quadratic form of a finite group, rotations commute, mirrors |
| C67 | `normalized_basis_2d`, `apply_operator` (with the operator texts of the source parsed by the model's parser) | successive minima of the reduced basis (C50), case analysis per system |
| C69 | `PrimitiveSetting::new` | C52 and C45, invariant of the loop over the operators |
| C70 | the functions of C29-C35 | simulation of the traversals of the two graphs; isomorphism of the infinite graphs; uniqueness of barycentric placements |
| C71 | the functions of C29, C41, C42 | isomorphisms of infinite graphs preserve distances |
| C72 | `Display` of labels, edges, graphs, matrices, affine maps, table entries and lookups | the text is cut at its separators, which no component contains; names with line breaks and operators of dimension > 3 are excluded |
| C73 | `Hash for Automorphism`, derived `PartialEq` | equal hash maps are permutations of each other, sorting forgets the order; an edge is determined by its end points and its vector |
| C74 | linear_algebra.rs once more with a kind of integers: unbounded, `w` bits with checks, `w` bits wrapping (`Model/MachineInt.lean`) | every operation is monotone (panics or equal), so whole functions are; the unbounded kind is the model of C06-C15; cofactors in gcdx are bounded by the arguments, each elimination step multiplies the bound of the entries by at most 2M |
| C75 | the functions of pgraphs.rs that add, subtract or negate labels, with the same kinds of integers (`Model/MachineGraph.lean`) | monotone as in C74; labels after k steps are at most k B, shifts found by the traversal at most (V-1) B |
| C76 | `impl Scalar for f64` over any arithmetic without laws (`Model/FloatLinear.lean`); double precision rounding on rationals for the counterexamples | the elimination sets pivots and cleared entries to 1 and 0 explicitly, so the shape of the result needs no arithmetic; the rounding of the double precision model is proved to be to the nearest 53 bit number, ties to even (`C76_f64`, `Lemmas/Round53.lean`) |
| C77 | `number_of_p_adic_steps_needed`, `column_norm`, `solve`, `barycentric_placement` over arbitrary floating point operations with relative error `u` (`Model/FloatSteps.lean`, `Model/FloatPlacement.lean`, `Spec/FloatSteps.lean`) | rounding error analysis of norms, logarithms, sorted sum and quotient; gap between `(φ b)²` and `p^s` for integers `b` and `s ≤ 3`; C22, C23 with an integral Hadamard bound |
| C78 | the lattice reductions with an arbitrary tolerance (`Model/Lattices.lean`) | the loop invariants of C48-C51 with the tolerance kept (`Lemmas/LatticeLoops.lean`, `Lemmas/DirichletFamily.lean`); the zeroing of small coordinates followed through the greedy choice; cycles of the loops for negative tolerances |
| C79 | the text of `src/data/sgtable.data`, line by line (`Model/SgTable.lean`, `Model/SgTable/T*.lean`, written by `tools/gen_sgtable.py`), read by the model of `parse_space_group_table` | the lines are those of a list of structured items (kernel computation); the parser is run symbolically over any such list (`Lemmas/SgParse.lean`); operators as integer rows in units of 1/24, with generators, permutations and words as certificates that the kernel checks (`Lemmas/SgCheck.lean`, `Lemmas/SgSetting.lean`), and a proof that such certificates make the operators and all integer translations a group (`Lemmas/SgGroup.lean`). No bound is involved: the claims are about the infinite groups. Crystal systems: the orders and determinants of the linear parts are computed in the kernel and compared with a specification in terms of `orderOf` (`Lemmas/SgSystem.lean`); different lookups: a number that only depends on the group in standard coordinates (`Lemmas/SgDistinct.lean`) |
| C80 | no new code; `IsPeriodicIso` in `Spec/Isomorphism.lean`: renaming of the vertices, automorphism of the lattice, change of the representatives | the incidences of corresponding vertices are permutations of each other, the cycle lattices are mapped to each other, barycentric placements are unique up to a translation (`Lemmas/PeriodicIso.lean`); C80_meaning: the definition says that the infinite graphs have an isomorphism that respects the translations; minimal images by composing the isomorphisms of C42; refutations by kernel evaluation |
| C81 | `src/main.rs` (`Model/Report.lean`): a run is the text printed so far and the outcome; what the report says, when that is true and its layout are in `Spec/Report.lean`, with Lean's own `toString` for numbers | C26, C27, C29, C30, C32, C35, C36 for the contents; text equalities by unfolding; C81_main: the nine graphs are evaluated in the kernel as far as connectedness, determinant (via C33) and bounds go, then C77_positions |
| C82 | `examples/read_spacegroup_tables.rs` (`Model/TablesProgram.lean`) on the shipped table (`Model/SgTable.lean`), `Display` of its entries (`Model/Display.lean`) | by C79 the entries are the maps of the certificates; a kernel check says that their numbers are small and that no change of coordinates has a shift of 1 or -1, then C58; the program's text is evaluated in the kernel |
| C83 | `reduced_lattice_basis` (`Model/Lattices.lean`) | Selling's formula and the parallelogram law: a shortest lattice vector outside a subspace is, up to sign, a partial sum of the obtuse superbase, hence a candidate of the greedy loop; the loop takes the first candidate in a total preorder that determines a vector up to sign; induction over the vectors |
| C84 | the functions that iterate over hash tables, with the order of every iteration as a parameter (`Model/HashOrder.lean`), and the report program with them (`Model/ReportOrder.lean`) | simulation: shells are equal as sets, maps have the same entries, the partition has the same relation; the order of `classes` depends on the relation only |
| C85 | `placement` as in C33; the sum of squares over ℝ for any positive definite form (`Spec/Energy.lean`) | the sum splits into that of the barycentric placement plus that of the difference (the mixed terms vanish vertex by vertex); equality forces a constant difference on a connected quotient graph; C33_any |
| C86 | `coordinationItem`, `componentMeasures`, `incidences` as in C27-C32 | C29 turns the terms into spheres of the infinite graph; an empty sphere ends the component; `r` of the coordinates determine an element of a sublattice of rank `r`, so a ball maps injectively to a box of dimension `r` (upper bound); the combinations of a basis of the lattice of closed walks lie in a ball (lower bound) |
| C87 | `parseBlocks`, `parseLines` as in C60 | simulation of two runs of the state machine line by line: the states agree up to line numbers, texts and, outside of a block, the carried key; C66 for the texts of blank lines and comments |
| C88 | `symmetries`, `vertexOrbits`, `edgeOrbits` as in C39 and C41 | orbit–stabilizer theorem for a list whose members stand, without repetition, for a subgroup (`Lemmas/OrbitCount.lean`); for the bound: an automorphism is determined by its linear part and one vertex; Lagrange's theorem for the automorphisms found (`C88_lagrange`) |
| C89 | `symmetries` as in C39, `matrixOrder`, `OperatorDetails.from`, `crystalSystemAndBasis2d` as in C57 and C65 | the map from the symmetries to linear parts is a homomorphism (edge vectors span the space) and injective without further translations; C37 (unimodular), C57 (orders), C65 (plane systems); the scalar product is the sum of `Aᵀ A` over the group. Since `symmetries` is incomplete (C40), this is about the symmetries that it finds |
| C90 | positions, `is_stable`, `is_minimal`, `automorphism`, `vertex_orbits` as in C33, C35, C37, C41 and C42; the isomorphisms of infinite graphs are arbitrary functions | the coordinates of the barycentric places are harmonic; bounded harmonic functions on a connected periodic graph are constant (`Lemmas/Harmonic.lean`: a maximum principle for the increments under a translation), hence harmonic functions with bounded steps have constant increments under translations and are affine functions of the place (`Lemmas/InfAffine.lean`); conjugates of lattice translations are translations, so the lattice is respected if it is full. `C90_lattice_needed` shows that this hypothesis is necessary |
| C91 | no new code; the functions of C27, C29, C35, C41 and C64 for the same graph (`Props/Hierarchy.lean`) | different places separate the ends of the edges at a vertex; automorphisms map the incidences of a vertex to those of its image; the sphere of radius 1 is listed by the incidences; translations that agree at a vertex agree, so classes have one size, and degrees are preserved by the isomorphism to the minimal image; kernel evaluation for the counterexample with loops |
| C92 | nothing new: the functions of C08–C15 and C17 | the theorems about the single functions, combined with rank–nullity and properties of determinants (`Props/MatrixAgreement.lean`) |
| C68 | `identitify_spacegroup_2d` up to its `todo!()` | composition of C56, C65, C67; refutations |

Nothing in the list is considered inexpressible. What cannot be expressed is recorded per property in
section 4 as it comes up (f64 rounding, hash iteration order, stack depth, memory).

## 3. Trusted base

* Lean 4.33.0's kernel and the axioms `propext`, `Classical.choice`, `Quot.sound`.
* Mathlib definitions used in statements (matrices, determinants, spans, ...).
* The reading of the Rust source, and of the documented behaviour of `num-bigint`, `num-rational`,
  `nom` 7.1.3 and the standard library, which are outside the repository.

## 4. Disagreements between code and expectation

Each is a theorem about the model with a concrete witness (`..._refuted`) or with the exact condition; the
part of the property that does hold is a `..._partial` theorem or a theorem with an explicit hypothesis.

| property | what the code does | theorem |
|----------|--------------------|---------|
| C11 | `reduced_basis` over the integers is not canonical: two bases of the same lattice give different results | `C11_canonical_refuted` |
| C17 | `Matrix::new` with empty data and a non-zero column count loses the shape | `C17_transpose_empty_fails` |
| C19, C20 | `modular_inverse` of a negative argument; `modular_matrix_inverse` of the empty matrix | `C19_negative_argument`, `C20_empty` |
| C20, C21 | `modular_row_echelon_form` takes negative multiples of p for pivots; `irow += 1` also without a pivot; for all integer matrices right or panic (`C20_any`, `C21_any`, `C23_any`) | `C20_refuted`, `C21_shape_refuted`, `C21_range_refuted` |
| C31, C32 | `i32` overflow in `extend_basis`: for one vertex with six loops and labels up to 15 a release build finds multiplicity 1 instead of 7, and calls the graph connected | `C31_overflow_refuted`, `C32_overflow_refuted` |
| C33 | `position()` panics if the number of spanning trees is divisible by 9999991 | `C33_refuted` |
| C40 | `symmetries` misses automorphisms | `C40_refuted` |
| C42 | `minimal_image` inverts the row basis and collapses ladders; `C42_panics` says exactly when it panics | `C42_refuted`, `C42_ladder_refuted` |
| C47, C53 | `mod_z` truncates, so one coset can appear several times | `C47_canonical_refuted`, `C53_cosets_refuted` |
| C52 | `rational_lattice_basis([])` panics; the `i32` entries overflow already for four vectors with denominator 18: wrong lattice in a release build | `C52_empty`, `C52_overflow_refuted` |
| C74 | overflow makes `rank` of a 2x2 `i32` matrix wrong in a release build; `gcdx` of the smallest number panics | `C74_release_rank`, `C74_gcdx_smallest` |
| C69 | `PrimitiveSetting::new` panics for every group given in a primitive cell, and can return an operator several times | `C69_primitive_refuted`, `C69_repeated_refuted` |
| C54 | `shift_space` of pure translations is `None` | `C54_translations_refuted` |
| C55 | `gram_matrix_configuration_space` solves `S G Sᵀ = G` instead of `Sᵀ G S = G` | `C55_convention_refuted` |
| C56 | `primitive_cell` uses `extend_basis` over the rationals: always the unit cell | `C56_centred_refuted` |
| C65 | `crystal_system_and_basis_2d` on linear parts with repetitions returns a singular basis, exactly if all orders are at most two and the first two mirrors are equal | `C65_repeated_refuted`, `C65_repeated` |
| C67 | in the hexagonal system `normalized_basis_2d` expects coordinates for two vectors at 120 degrees, but with mirrors `crystal_system_and_basis_2d` returns vectors at 60 degrees | `C67_hexagonal_refuted` |
| C68 | `identitify_spacegroup_2d` always panics in `todo!()`; before that it has transposed the bases it inverts, so the change of coordinates and the centring are wrong | `C68_never_returns_refuted`, `C68_coordinates_refuted`, `C68_centring_refuted` |
| C58 | the text of a shift of 1 or -1 is a bare sign, which is read back as 0 or rejected | `C58_shift_one_refuted` |
| C59 | a zero denominator panics; four coordinates panic in `AffineMap::from_string`; `z` in the second of two coordinates and unreadable tails are ignored silently | `C59_zero_denominator_refuted`, `C59_from_string`, `C59_ignored` |
| C60 | a line without keyword after `END` is a continuation of the keyword before `END`: keywords leak into the next block | `C60_leak_refuted` |
| C61 | a single ignored field after `END` or after the opening keyword gets no warning; lines without keyword after the last `END` vanish without a note | `C61_one_field_refuted`, `C61_dropped_refuted` |
| C62 | malformed tails of operators are accepted; short `alias`/`lookup` lines, zero denominators and singular transforms panic instead of giving `None` | `C62_malformed_refuted` |
| C76 | over `f64` any non-zero entry is taken as pivot: wrong solutions of well-conditioned systems, wrong rank of exactly stored matrices | `C76_accuracy_refuted`, `C76_rank_refuted` |
| C66 | a fraction with the denominator 0 panics; `4e` makes a line an error; names that begin with a number, `nan` or `inf`, empty strings in quotes, and characters whose code ends in the byte 0x20 or 0x09 cut a line short | `C66_refuted`, exact conditions in `C66_panic`, `C66_error`, `C66_read` |
| C80 | the results of `symmetries` and `edge_orbits` depend on the basis of the lattice in which the graph is written: 12 or 2 symmetries of the honeycomb, 1 or 3 orbits of edges; so do the panics of `minimal_image` | `C80_symmetries_refuted`, `C80_minimal_image_refuted` |
| C82 | operators of the shipped table with a shift of 1 are printed with a bare sign: `x+1/2,-y+,z+1/2` in the setting A1n1, which is read back as a map of the plane | `C82_operator_refuted` |
| C83 | the signs of the reduced vectors depend on the basis one starts with; in space so does the angle between the second and third vector if the first is perpendicular to one of them: (0,2,0),(0,1,2) or (0,-2,0),(0,1,2) | `C83_signs_refuted` |

## 5. Hypotheses and simplifications worth knowing

* C12, C13: the right-hand side has at least one column; C14: at least one row. These are the shapes a
  `Matrix` can represent without losing a dimension (see C17).
* C23: the number of lifting steps is a parameter with the exact lower bound as hypothesis, because it is
  computed in f64; C77 has the floating point computation. `FloatOps.Accurate u` (relative error of each
  operation) is an assumption about the machine; overflow, underflow and NaN of these operations are left out (they
  cannot occur for `i64` entries).
* C33, C34: the number of spanning trees is not divisible by the prime 9999991.
* C48-C52: `eps = 0` (other tolerances in C78), as `Coord::epsilon` is for `BigRational`; C52_rational_lattice has unbounded integers
  (for i32 see C52_checked_partial, C74_rational_lattice); loops have fuel and the theorems say which fuel suffices.
* C37-C42, C64: labels of input and output graphs have the same type; hash iteration order is an arbitrary list
  order, statements are about sets; the number of vertices is at most 2³¹ - 1 where casts occur.
* C53: `generate` is a loop with fuel; `C53_terminates` says that it terminates exactly if there are finitely
  many cosets. The hash set of seen operators is a list.
* C54, C55: the dimension is positive. All equations are collected first and then reduced; the code interleaves
  this with the same result.
* C57: `OperatorDetails` and `operator_axis` over `BigRational` only. The claims about `is_clockwise` are for
  operators of finite order above two, for which the notion makes sense.
* C65: `C65_crystal_system_2d` is for lists without repetition; `C65_repeated` is for all lists that are closed under
  products, and splits by `TwinMirrors` (all orders at most two and the first two mirrors of the list equal), which is
  exactly when the basis returned is singular. C67 and C68 use the same split (`C68_twins`).
* C67: the loop of `reduced_lattice_basis` has fuel, the result is the same for all large fuel. The hypothesis is that the
  lattice is mapped to itself by the symmetry of the system, in the coordinates given.
* C58, C59: texts are lists of characters (Unicode scalar values). The combinators of `nom` 7.1.3 are modelled in
  `Model/Nom.lean` from its documentation and source as remembered: `Error` is recoverable, `Failure` is not, `many0`
  and `separated_list*` stop at an error and refuse a parser that consumes nothing. `Ratio<i32>` is `Rat`, with the
  `i32` range checked where `checked_add` checks it.
* C60-C63: `str::to_lowercase` is an arbitrary function (idempotent for C60); the meaning of floating point texts
  (`f64` parsing) is an abstract structure; notes and warnings are data, not formatted strings. The input is the list of
  the items that `BufRead::lines` yields; a reader that repeats an I/O error for ever is not modelled. A `HashMap` is an
  association list without repeated keys, observed by look-up only.
* C66: `Floats` is an arbitrary interpretation of floating point texts; `Word` in `Spec/CgdLine.lean` says that a bare name
  does not begin with a number, and `Key` and `Word` that its characters are not taken for blanks after `as u8`.

## 6. What is not modelled

the `Display` of floating point numbers (any text in C72_program), floating point instances of the
generic functions in geometry.rs and lattices.rs, timing, memory and stack depth.
