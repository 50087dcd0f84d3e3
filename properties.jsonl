{"id": "C01", "title": "Union-find answers are exactly connectivity", "statement": "After any sequence of Partition::unite and Partition::find calls on a fresh Partition, p.find(a) == p.find(b) holds exactly when a and b are joined by a chain of previously united pairs (the equivalence closure of the unite calls).", "quantifier": "every finite history of unite/find calls over any element type, and every pair of elements (also ones never mentioned before)", "why_tests_cant": "the forest shape depends on the whole history (ranks, path compression); a unit test samples one history of six unites", "anchors": ["src/partitions.rs: Partition::find, Partition::unite, PartitionImpl::root_index"]}
{"id": "C02", "title": "find is observationally pure and returns a class member", "statement": "Partition::find takes &self but mutates through UnsafeCell; inserting extra find calls anywhere in a history changes no answer of any find or classes call: find returns the same representative as if no other find had been made, the representative is itself an element of the class of the argument, and an element never united is its own representative.", "quantifier": "every history, every element, every interleaving of additional find calls", "why_tests_cant": "path compression rewrites the forest on reads; only a for-all-histories argument excludes a read that changes an answer", "anchors": ["src/partitions.rs: Partition::find, PartitionImpl::root_index, UnsafeCell"]}
{"id": "C03", "title": "Union-find terminates and never indexes out of range", "statement": "Every find and unite call returns: the two while loops of root_index terminate and every vector access is in range, in every state reachable from Partition::new.", "quantifier": "every reachable state and every element", "why_tests_cant": "termination depends on acyclicity of the parent forest, an invariant over all histories", "anchors": ["src/partitions.rs: PartitionImpl::root_index, get_index, unite"]}
{"id": "C04", "title": "classes splits a list into its equivalence classes in first-occurrence order", "statement": "p.classes(elms) returns non-empty lists whose elements are the given ones, each occurrence exactly once; within a class the input order is kept; two input elements are in the same class iff p.find agrees on them; classes are ordered by first occurrence in elms.", "quantifier": "every reachable partition state and every input slice, with or without duplicates", "why_tests_cant": "requires the interplay of find with an accumulating map for every input list", "anchors": ["src/partitions.rs: Partition::classes"]}
{"id": "C05", "title": "Union-by-rank bounds the number of parent steps", "statement": "In every reachable state the number of parent hops root_index performs for any element is at most log2 of the number of elements ever mentioned.", "quantifier": "every reachable state and every element", "why_tests_cant": "worst-case bound over all histories", "anchors": ["src/partitions.rs: PartitionImpl::unite (rank)"]}
{"id": "C06", "title": "gcdx returns Bezout coefficients and a unimodular cofactor matrix", "statement": "gcdx(a,b) = (g,r,s,t,u) satisfies a*r+b*s = g, a*t+b*u = 0, r*u-s*t = 1 or -1, and g is plus or minus the greatest common divisor; the loop terminates for every pair of integers.", "quantifier": "all pairs of (unbounded) integers", "why_tests_cant": "universally quantified number-theoretic identity", "anchors": ["src/arithmetic/linear_algebra.rs: gcdx"]}
{"id": "C07", "title": "extend_basis keeps an echelon basis of exactly the span", "statement": "Starting from the empty list, after any sequence of extend_basis calls with vectors of one length, the stored rows are non-zero with strictly increasing pivot columns and their span (the Z-lattice for i32/i64, the Q-space for BigRational) is exactly the span of all vectors passed so far; in particular the rows are linearly independent.", "quantifier": "every finite sequence of vectors of any dimension, over integers and over rationals", "why_tests_cant": "an inductive invariant over call sequences of any length and dimension", "anchors": ["src/arithmetic/linear_algebra.rs: extend_basis, clear_column_primitive_int, Scalar::clear_column"]}
{"id": "C08", "title": "rank is the rank", "statement": "Matrix::rank() equals the rank of the matrix (dimension of the row space over Q for BigRational, rank of the row lattice for integer entries) and never panics on a well-formed matrix.", "quantifier": "all matrices of all shapes over Z and Q", "why_tests_cant": "for all sizes", "anchors": ["src/arithmetic/linear_algebra.rs: LinearAlgebra::rank"]}
{"id": "C09", "title": "determinant is the determinant", "statement": "Matrix::determinant() equals the Leibniz determinant for square matrices of every size (both the closed formulas for n<=3 and the elimination path for n>=4, including its sign bookkeeping), and panics exactly on non-square matrices.", "quantifier": "all square matrices of all sizes over Z and Q", "why_tests_cant": "the sign bookkeeping of row insertions must be right for every permutation pattern; tests only reach n<=4 identities", "anchors": ["src/arithmetic/linear_algebra.rs: LinearAlgebra::determinant, extend_basis"]}
{"id": "C10", "title": "reduced_basis is a canonical form of the row space over Q", "statement": "For BigRational matrices, reduced_basis() is in reduced row echelon form, has the same row space as the input, and two matrices with the same number of columns have the same row space iff their reduced bases are equal.", "quantifier": "all pairs of rational matrices with equally many columns", "why_tests_cant": "canonicity relates all pairs of inputs", "anchors": ["src/arithmetic/linear_algebra.rs: LinearAlgebra::reduced_basis, Scalar for BigRational"]}
{"id": "C11", "title": "reduced_basis is a basis of the row lattice over Z, in (nearly) Hermite form", "statement": "For integer matrices, reduced_basis() generates the same lattice as the rows of the input, has positive pivots, and the entries above a pivot p lie between 0 and p. A user would expect the strict bound (< p), i.e. the unique Hermite normal form, so that equal lattices give equal results. For a square matrix whose determinant is not zero, the result is upper triangular and the product of its diagonal is the absolute value of the determinant.", "quantifier": "all integer matrices", "why_tests_cant": "canonicity relates all pairs of inputs; the failing case needs an exact negative multiple of a pivot", "anchors": ["src/arithmetic/linear_algebra.rs: LinearAlgebra::reduced_basis, reduce_column_primitive_int, normalize_column_primitive_int"]}
{"id": "C12", "title": "solve over Q is sound and complete", "statement": "a.solve(&b) over BigRational returns Some(x) with a*x == b whenever any solution exists, and None exactly when the system is inconsistent; it never panics when the row counts agree.", "quantifier": "all rational a, b with equally many rows, any shapes (over- and under-determined, singular)", "why_tests_cant": "for all systems", "anchors": ["src/arithmetic/linear_algebra.rs: LinearAlgebra::solve, Scalar::solve_row"]}
{"id": "C13", "title": "solve over Z is sound and complete for integer solutions", "statement": "a.solve(&b) over i32/i64 (ideal integers) returns Some(x) with a*x == b whenever an integer solution exists and None exactly when there is no integer solution.", "quantifier": "all integer a, b with equally many rows", "why_tests_cant": "completeness over the integers needs unimodularity of every elimination", "anchors": ["src/arithmetic/linear_algebra.rs: LinearAlgebra::solve, solve_row_primitive_int"]}
{"id": "C14", "title": "null_space returns a basis of the kernel", "statement": "For a matrix with at least one row, a.null_space() returns a matrix n with a*n == 0 whose columns are linearly independent and generate every solution of a*x == 0 (integer solutions for integer matrices), and returns None exactly when the kernel is trivial.", "quantifier": "all non-empty matrices over Z and Q", "why_tests_cant": "for all matrices", "anchors": ["src/arithmetic/linear_algebra.rs: LinearAlgebra::null_space"]}
{"id": "C15", "title": "inverse is a two-sided inverse and None means not invertible", "statement": "a.inverse() is Some(b) with a*b == b*a == identity when a is invertible over its scalar ring (determinant non-zero over Q, +-1 over Z) and None otherwise; it panics exactly for non-square matrices.", "quantifier": "all square matrices over Z and Q", "why_tests_cant": "for all matrices", "anchors": ["src/arithmetic/linear_algebra.rs: LinearAlgebra::inverse"]}
{"id": "C16", "title": "Matrix construction, indexing and shape", "statement": "Every Matrix built through the public constructors and operations has nrows*ncols stored entries; m[(i,j)] returns the entry in row i and column j for i<nrows, j<ncols and panics for every other index; Matrix::new panics exactly when the data does not fill whole rows.", "quantifier": "all element types, all shapes, all indices, any composition of operations", "why_tests_cant": "for all shapes including degenerate ones", "anchors": ["src/arithmetic/matrices.rs: Matrix::new, Index, IndexMut, get_row, get_col, zero, identity, row, col"]}
{"id": "C17", "title": "Matrix ring laws", "statement": "For matching shapes product, sum, difference, negation, scalar product, identity and transpose satisfy the matrix laws: entries are the mathematical ones, multiplication is associative and distributive, identity is neutral, transpose is an anti-involution on non-empty matrices; mismatching shapes panic.", "quantifier": "all shapes and all entries in a commutative ring", "why_tests_cant": "for all shapes and values", "anchors": ["src/arithmetic/matrices.rs: Mul, Add, Sub, Neg, transpose, identity"]}
{"id": "C18", "title": "Stacking and slicing are inverse", "statement": "submatrix extracts exactly the blocks that hstack/vstack put together, for any non-empty list of compatible blocks; get_rows followed by vstack of rows restores the matrix; incompatible blocks panic.", "quantifier": "all lists of blocks and all shapes", "why_tests_cant": "for all shapes", "anchors": ["src/arithmetic/matrices.rs: hstack, vstack, submatrix, get_rows"]}
{"id": "C19", "title": "modular_inverse computes inverses modulo m", "statement": "For 0 <= a < m (m >= 2), modular_inverse(a, m) is Some(x) with 0 <= x < m and a*x congruent 1 mod m when gcd(a,m)=1, and None otherwise; the loop terminates.", "quantifier": "all moduli m >= 2 and all residues a", "why_tests_cant": "for all moduli and residues", "anchors": ["src/arithmetic/modular_solver.rs: modular_inverse"]}
{"id": "C20", "title": "modular_matrix_inverse decides invertibility modulo a prime", "statement": "For a square integer matrix and a prime p, modular_matrix_inverse returns Some(c) with a*c congruent to the identity mod p and all entries of c in [0,p) when det a is not divisible by p, and None otherwise. (A user expects this for all integer entries.)", "quantifier": "all sizes, all integer entries, all primes", "why_tests_cant": "for all matrices; the failing entries are exact negative multiples of p", "anchors": ["src/arithmetic/modular_solver.rs: modular_matrix_inverse, modular_row_echelon_form"]}
{"id": "C21", "title": "modular_row_echelon_form preserves the row space mod p", "statement": "modular_row_echelon_form(m, p) has the same shape, entries in [0,p), and the same row space mod p as m; when the leading square part is invertible that part becomes the identity. (By its name a user also expects row echelon form for singular input.)", "quantifier": "all matrices over residues mod a prime p", "why_tests_cant": "for all matrices", "anchors": ["src/arithmetic/modular_solver.rs: modular_row_echelon_form, swap_rows"]}
{"id": "C22", "title": "Rational reconstruction recovers every fraction within the bound", "statement": "If N/D is a fraction with |N|,|D| <= B, D != 0, D*s congruent N mod h, gcd(D,h)=1 and h >= (phi*B)^2 for the golden ratio phi, then rational_reconstruction(s,h) returns exactly N/D; the loop terminates and the denominator is never zero.", "quantifier": "all integers s (also negative), h, N, D within the bound", "why_tests_cant": "needs the theory of continued fractions for all inputs", "anchors": ["src/arithmetic/modular_solver.rs: rational_reconstruction"]}
{"id": "C23", "title": "The p-adic solver returns the exact solution", "statement": "modular_solver::solve(a, b) returns Some(x) with a*x == b exactly over the rationals whenever a is square and invertible mod 9999991, with the number of lifting steps at least the one the code computes from column norms (exact arithmetic for the logarithms), and returns None when the prime divides det a. If some entry is a negative multiple of the prime, the function may panic instead, but never returns anything else.", "quantifier": "all square integer systems with any number of right-hand sides", "why_tests_cant": "exactness depends on Hadamard's bound, p-adic lifting and reconstruction for all inputs", "anchors": ["src/arithmetic/modular_solver.rs: solve, number_of_p_adic_steps_needed, column_norm"]}
{"id": "C24", "title": "Residues of the p-adic solver never overflow i64", "statement": "During modular_solver::solve all intermediate i64 values (products modulo p, residual b, integer products) stay below a bound computable from the sizes of the input entries, so no overflow happens when n, max|a| and max|b| are small enough for n*9999991*max(max|b|, n*max|a|) to be below 2^63.", "quantifier": "all inputs within the stated magnitude and every lifting step", "why_tests_cant": "bounds over an unbounded number of steps", "anchors": ["src/arithmetic/modular_solver.rs: solve, modular_matrix_product, integer_matrix_product"]}
{"id": "C25", "title": "Edge::canonical picks one orientation per undirected edge", "statement": "canonical is idempotent, e.canonical() is e or -e, and e.canonical() == (-e).canonical(); two edges have the same canonical form iff they are equal or opposite.", "quantifier": "all edges with 2d and 3d integer shifts", "why_tests_cant": "for all vertices and shifts", "anchors": ["src/pgraphs.rs: Edge::canonical, Neg for Edge, LabelVector::is_negative"]}
{"id": "C26", "title": "Graph::new is a normal form of the undirected edge set", "statement": "The edge list of Graph::new(raw) (as seen through Display and directed_edges) is strictly sorted and duplicate free, contains exactly the canonical forms of raw, and two raw lists yield the same graph iff they describe the same set of undirected edges (order, repetition and orientation are irrelevant).", "quantifier": "all raw edge lists", "why_tests_cant": "for all lists", "anchors": ["src/pgraphs.rs: Graph::new"]}
{"id": "C27", "title": "vertices, incidences and directed_edges enumerate the quotient graph", "statement": "vertices() lists exactly the end points, ascending without repetition; incidences(v) lists exactly the directed edges leaving v, in both directions of each undirected edge, and panics exactly for a vertex not in the graph; every directed edge occurs with its inverse.", "quantifier": "all graphs and vertices", "why_tests_cant": "for all graphs", "anchors": ["src/pgraphs.rs: Graph::vertices, Graph::incidences, Graph::directed_edges"]}
{"id": "C28", "title": "Graph caches are transparent", "statement": "vertices(), incidences(v), position(v), edge_by_unique_delta and symmetries() return the same values whatever sequence of other accessor calls was made before on the same Graph (the UnsafeCell caches are never stale or partially filled).", "quantifier": "every history of accessor calls on a graph", "why_tests_cant": "history quantification", "anchors": ["src/pgraphs.rs: Graph (UnsafeCell fields)"]}
{"id": "C29", "title": "coordination_sequence counts spheres of the infinite periodic graph", "statement": "The k-th item (k>=1) produced by coordination_sequence(v) is the number of vertices of the infinite periodic graph at graph distance exactly k from the copy of v in the origin cell.", "quantifier": "all graphs, all vertices of them, all k", "why_tests_cant": "the iterator only remembers two shells; correctness for all k is an induction over an infinite graph", "anchors": ["src/pgraphs.rs: CoordinationSequence::next"]}
{"id": "C30", "title": "shift_normalized is a change of vertex representatives", "statement": "g.shift_normalized() describes the same periodic graph: there are integer shifts c(v) such that its edges are exactly the edges of g with shift replaced by c(head)+shift-c(tail); in each component a spanning tree gets shift zero.", "quantifier": "all graphs (connected or not)", "why_tests_cant": "for all graphs", "anchors": ["src/pgraphs.rs: Graph::shift_normalized, traverse_with_shift_adjustments"]}
{"id": "C31", "title": "graph_component_measures measures the component", "statement": "For a vertex v, graph_component_measures returns the number of vertices in v's component of the quotient graph, the rank of the lattice of cycle shifts of that component, and, when the rank is full, the index of that lattice in Z^d as multiplicity (None otherwise).", "quantifier": "all graphs and vertices", "why_tests_cant": "for all graphs", "anchors": ["src/pgraphs.rs: graph_component_measures"]}
{"id": "C32", "title": "is_connected decides connectivity of the infinite periodic graph", "statement": "g.is_connected() is true iff any two vertices (copies in any two cells) of the infinite periodic graph are joined by a path.", "quantifier": "all graphs", "why_tests_cant": "the infinite graph cannot be enumerated by a test", "anchors": ["src/pgraphs.rs: Graph::is_connected"]}
{"id": "C33", "title": "position is the barycentric placement", "statement": "For a graph with connected quotient whose reduced Laplacian determinant is not divisible by 9999991, position(v) puts the first vertex at the origin and every vertex at the average of its neighbours' positions (position of tail plus edge shift), and is the only such placement. (A user expects this for every connected graph.)", "quantifier": "all graphs with connected quotient graph", "why_tests_cant": "for all graphs; the failing case needs a multiple of 9999991 spanning trees", "anchors": ["src/pgraphs.rs: Graph::position, barycentric_placement"]}
{"id": "C34", "title": "edge vectors are antisymmetric and balanced", "statement": "edge_vector(-e) == -edge_vector(e), edge vectors of the edges leaving a vertex sum to zero, and position_normalized(v) differs from position(v) by an integer vector and has all coordinates in [0,1).", "quantifier": "all graphs with a barycentric placement, all edges and vertices", "why_tests_cant": "for all graphs", "anchors": ["src/pgraphs.rs: Graph::edge_vector, Graph::position_normalized"]}
{"id": "C35", "title": "Stability predicates mean what they say", "statement": "is_stable() is true iff no two distinct vertices have positions differing by an integer vector; is_locally_stable() is true iff at every vertex the edge vectors of the incident directed edges are pairwise distinct (occurrence-wise); has_second_order_collisions() is true iff two distinct vertices have positions equal modulo the lattice and equal multisets of edge vectors.", "quantifier": "all graphs with a placement", "why_tests_cant": "for all graphs", "anchors": ["src/pgraphs.rs: is_stable, is_locally_stable, has_second_order_collisions"]}
{"id": "C36", "title": "edge_by_unique_delta finds exactly the unambiguous edges", "statement": "edge_by_unique_delta(v, d) is Some(e) iff e is the only incidence of v with edge vector d, and None if there is none or more than one (or v is not a vertex).", "quantifier": "all graphs, vertices and vectors", "why_tests_cant": "for all graphs; three-fold repetition is a classic mistake", "anchors": ["src/pgraphs.rs: edges_by_unique_deltas, Graph::edge_by_unique_delta"]}
{"id": "C37", "title": "Every automorphism found is an automorphism", "statement": "On a connected locally stable graph, every Automorphism constructed by the library maps vertices to vertices and directed edges to directed edges bijectively, respects head, tail and reversal, and transforms every edge vector by its affine map's linear part.", "quantifier": "all connected locally stable graphs, all seeds and invertible transforms", "why_tests_cant": "the search only checks local conditions; global bijectivity is a theorem", "anchors": ["src/symmetries.rs: automorphism", "src/pgraphs.rs: Automorphism"]}
{"id": "C38", "title": "Composition of automorphisms composes the maps", "statement": "a*b maps every vertex v to a(b(v)), every edge e to a(b(e)), and its transform is the product of the transforms; identity is neutral; composition is associative.", "quantifier": "all automorphisms of a graph", "why_tests_cant": "for all", "anchors": ["src/pgraphs.rs: Mul for Automorphism, Automorphism::identity"]}
{"id": "C39", "title": "symmetries() is a group of automorphisms", "statement": "symmetries(graph) returns, without repetition, a finite set of automorphisms containing the identity and closed under composition and inverse.", "quantifier": "all connected locally stable graphs", "why_tests_cant": "for all graphs", "anchors": ["src/symmetries.rs: symmetries, multiplicative_group"]}
{"id": "C40", "title": "symmetries() is complete", "statement": "symmetries(graph) returns every affine automorphism of a connected locally stable graph.", "quantifier": "all connected locally stable graphs", "why_tests_cant": "completeness quantifies over all automorphisms of all graphs", "anchors": ["src/symmetries.rs: symmetries, matrix_from_edge_list"]}
{"id": "C41", "title": "vertex_orbits and edge_orbits are the orbits of symmetries()", "statement": "Two vertices (edges up to orientation) are in the same list of vertex_orbits() (edge_orbits()) iff some element of symmetries() maps one to the other; the lists partition the vertices (edges).", "quantifier": "all connected locally stable graphs", "why_tests_cant": "for all graphs", "anchors": ["src/pgraphs.rs: vertex_orbits, edge_orbits"]}
{"id": "C42", "title": "minimal_image returns the quotient by all translations", "statement": "For every connected locally stable graph, minimal_image(graph) is None iff no translation beyond the given lattice is an automorphism, and otherwise Some(h) where h is the same infinite graph written with respect to the finer translation lattice; it never panics.", "quantifier": "all connected locally stable graphs", "why_tests_cant": "for all graphs, in particular those with centred (non-diagonal) translation bases", "anchors": ["src/symmetries.rs: minimal_image, translational_orbits, is_minimal, extended_translation_basis"]}
{"id": "C43", "title": "AffineMap composition and application", "statement": "(a*b)*p == a*(b*p) for points, (a*b)*v == a*(b*v) for vectors, a*(p+v) == a*p + a*v, a*p - a*q == a*(p-q), composition is associative with identity neutral.", "quantifier": "all affine maps, points and vectors of one dimension over a commutative ring", "why_tests_cant": "for all dimensions and values", "anchors": ["src/arithmetic/geometry.rs: Mul for AffineMap"]}
{"id": "C44", "title": "AffineMap::inverse is a two-sided inverse", "statement": "a.inverse() is Some(b) with a*b == b*a == identity iff the linear part is invertible (over the integers: has determinant 1 or -1), and None otherwise.", "quantifier": "all affine maps over Q and over Z, all dimensions", "why_tests_cant": "for all", "anchors": ["src/arithmetic/geometry.rs: AffineMap::inverse"]}
{"id": "C45", "title": "CoordinateMap round trips", "statement": "For every CoordinateMap c built by new, from_basis, to_basis, identity, inverse or composition, c.inverse()*(c*x) == x for points, vectors and affine maps; (d*c)*x == d*(c*x); scalar products are invariant: (c*dot).apply(c*u, c*v) == dot.apply(u, v); to_basis(b)*b[k] is the k-th unit vector. The constructors panic exactly if the linear part is not invertible (over the integers: does not have determinant 1 or -1).", "quantifier": "all coordinate maps over Q and over Z, all dimensions", "why_tests_cant": "for all", "anchors": ["src/arithmetic/geometry.rs: CoordinateMap"]}
{"id": "C46", "title": "ScalarProduct::from accepts exactly the positive definite symmetric matrices", "statement": "ScalarProduct::from(m) succeeds iff m is square, symmetric and positive definite, and panics otherwise; apply is bilinear, symmetric and positive on non-zero vectors.", "quantifier": "all rational and all integer matrices of all sizes", "why_tests_cant": "Sylvester's criterion for all sizes", "anchors": ["src/arithmetic/geometry.rs: ScalarProduct::from, ScalarProduct::apply"]}
{"id": "C47", "title": "mod_z reduces modulo the lattice", "statement": "mod_z() of a vector or affine map changes the shift by an integer vector, is idempotent and has all coordinates strictly between -1 and 1; a user also expects it to be canonical: maps that differ by an integer translation have equal mod_z.", "quantifier": "all rational vectors and affine maps", "why_tests_cant": "for all rationals, in particular negative ones", "anchors": ["src/arithmetic/geometry.rs: ModZ"]}
{"id": "C48", "title": "lagrange reduction terminates with an obtuse superbase of the same lattice", "statement": "For two linearly independent rational vectors and any positive definite dot product, the 2d reduction used by dirichlet_vectors terminates and yields (u,v) generating the same lattice with u.v <= 0, u.(u+v) >= 0, v.(u+v) >= 0.", "quantifier": "all independent pairs of rational vectors, all rational positive definite forms, epsilon 0", "why_tests_cant": "termination and reducedness for all inputs", "anchors": ["src/spacegroups/lattices.rs: lagrange_reduced, dirichlet_vectors"]}
{"id": "C49", "title": "Selling reduction terminates with an obtuse superbase of the same lattice", "statement": "For three linearly independent rational vectors and any positive definite dot product, the 3d reduction used by dirichlet_vectors terminates and yields (u,v,w) generating the same lattice such that u,v,w and s=-(u+v+w) have pairwise non-positive dot products.", "quantifier": "all independent triples, all rational positive definite forms, epsilon 0", "why_tests_cant": "termination needs a monovariant over all runs", "anchors": ["src/spacegroups/lattices.rs: selling_reduced, dirichlet_vectors"]}
{"id": "C50", "title": "reduced_lattice_basis returns a basis of the same lattice with short vectors", "statement": "For independent input in dimension 1, 2 or 3, reduced_lattice_basis returns Some(a) where a generates the same lattice, lengths are non-decreasing, a[0] has non-positive dot product with the others, and the lengths are the successive minima: a[k] is a shortest vector among the lattice vectors that do not depend linearly on a[0], ..., a[k-1].", "quantifier": "all independent rational inputs in dimensions 1 to 3", "why_tests_cant": "for all inputs", "anchors": ["src/spacegroups/lattices.rs: reduced_lattice_basis"]}
{"id": "C51", "title": "shift_for_dirichlet_domain moves the point into the Dirichlet domain", "statement": "The loop terminates; the returned shift is an integer combination of the given vectors and q = p + shift satisfies -|v|^2 <= 2 q.v <= |v|^2 for every given vector v.", "quantifier": "all rational points and all finite lists of non-zero rational vectors, positive definite form, epsilon 0", "why_tests_cant": "termination for all inputs", "anchors": ["src/spacegroups/lattices.rs: shift_for_dirichlet_domain"]}
{"id": "C52", "title": "rational_lattice_basis generates Z^n plus the given vectors", "statement": "For a non-empty list of rational vectors of dimension n, rational_lattice_basis returns n vectors whose integer combinations are exactly the sums of integer vectors and integer combinations of the input.", "quantifier": "all non-empty lists of rational vectors (i32 range)", "why_tests_cant": "for all inputs", "anchors": ["src/spacegroups/lattices.rs: rational_lattice_basis"]}
{"id": "C53", "title": "generate returns the closure of the generators modulo translations", "statement": "If generate(gens) terminates, the result contains the identity and is closed under right multiplication by the generators modulo mod_z, contains only products of generators (up to integer translations), without repetition; a user also expects each coset modulo integer translations exactly once.", "quantifier": "all non-empty generator lists", "why_tests_cant": "for all generator sets", "anchors": ["src/spacegroups/basics.rs: generate"]}
{"id": "C54", "title": "shift_space is the space of shifts fixed by all operators", "statement": "shift_space(ops) returns a basis of the vectors fixed by every linear part, None iff only zero is fixed (a user expects this for every non-empty list of operators).", "quantifier": "all non-empty operator lists over Q", "why_tests_cant": "for all lists, in particular pure translation groups", "anchors": ["src/spacegroups/basics.rs: shift_space"]}
{"id": "C55", "title": "gram_matrix_configuration_space parametrises the invariant forms", "statement": "gram_matrix_configuration_space(ops) returns a basis of the symmetric matrices G (upper triangle coordinates) invariant under every operator; a user expects invariance in the sense of this crate's ScalarProduct, S^T G S == G for an operator with linear part S acting on column vectors.", "quantifier": "all non-empty operator lists over Q", "why_tests_cant": "for all lists", "anchors": ["src/spacegroups/basics.rs: gram_matrix_configuration_space"]}
{"id": "C56", "title": "primitive_cell generates the translation lattice", "statement": "primitive_cell(ops) used by 2d space group identification spans the lattice generated by Z^n and the shifts of the pure translations in ops.", "quantifier": "all operator lists over Q", "why_tests_cant": "for all lists with centring translations", "anchors": ["src/spacegroups/finder.rs: primitive_cell"]}
{"id": "C57", "title": "Operator classification", "statement": "matrix_order(m, max) is the least k in 1..=max with m^k = identity and 0 if there is none; operator_axis returns, up to sign, the unique fixed (or inverted) direction, with positive first non-zero coordinate, exactly when that space is one-dimensional.", "quantifier": "all square rational matrices (dimension 1 to 3)", "why_tests_cant": "for all matrices", "anchors": ["src/spacegroups/finder.rs: matrix_order, operator_axis, OperatorDetails"]}
{"id": "C58", "title": "Operator strings round trip", "statement": "AffineMap::from_string applied to the text that Display of TableEntry/Lookup writes for an operator of dimension 1 to 3 gives back the operator (numerators and denominators of at most nine digits).", "quantifier": "all affine maps of dimension 1..3 with coefficients in range", "why_tests_cant": "for all coefficient values; the failing value is a shift of exactly +-1", "anchors": ["src/spacegroups/parse_table.rs: write_op, write_op_row, AffineMap::from_string", "src/spacegroups/parse_operator.rs"]}
{"id": "C59", "title": "parse_operator is total", "statement": "parse_operator returns Ok or Err for every input string and never panics; when it returns Ok with n coordinates the matrix is n rows of min(n,3) entries and the shift has n entries.", "quantifier": "all input strings", "why_tests_cant": "for all strings; a zero denominator is one of infinitely many", "anchors": ["src/spacegroups/parse_operator.rs: parse_operator, unsigned_fraction, convert_operator"]}
{"id": "C60", "title": "CGD block structure", "statement": "parse_blocks groups entries in input order: every block returned starts at its type line and ends with its END line or the end of input; each entry that is not blank or comment is in exactly one block unless it comes after the last END; keys are lower case and data lines inherit the key of the closest preceding keyed line in the block; a missing final END is reported.", "quantifier": "all sequences of lines", "why_tests_cant": "a state machine over arbitrary line sequences", "anchors": ["src/io/parse_cgd_blocks.rs: parse_blocks, parse_lines"]}
{"id": "C61", "title": "CGD diagnostics are complete", "statement": "Text after END or after a block type is reported by a warning, and no entry carrying an error note is dropped from the result.", "quantifier": "all sequences of lines", "why_tests_cant": "for all line sequences", "anchors": ["src/io/parse_cgd_blocks.rs: parse_blocks"]}
{"id": "C62", "title": "Space group table parsing", "statement": "parse_space_group_table attaches every operator line to the closest preceding setting line, gives each setting as canonical name the closest preceding setting (including itself) with identity transform, records aliases and lookups in order, and returns None on the first malformed operator.", "quantifier": "all line sequences", "why_tests_cant": "for all tables", "anchors": ["src/spacegroups/parse_table.rs: parse_space_group_table, make_lookup_entry"]}
{"id": "C63", "title": "Names of crystal systems and centerings round trip", "statement": "CrystalSystem::from_string and Centering::from_string invert Display for every value; crystal system names are accepted in any letter case; lookup_settings returns exactly the lookups with the given system and centering, in table order.", "quantifier": "all enum values, all strings, all tables", "why_tests_cant": "for all strings and tables", "anchors": ["src/spacegroups/types.rs: Display", "src/spacegroups/parse_table.rs: from_string, lookup_settings"]}
{"id": "C64", "title": "Ladders are recognised", "statement": "For every connected locally stable graph, is_ladder tells whether some translation maps a vertex to a different vertex at the same place (modulo the lattice), and ladder_symmetries returns exactly these translations, each once, as automorphisms with identity transform.", "quantifier": "all connected locally stable graphs", "why_tests_cant": "for all graphs", "anchors": ["src/symmetries.rs: is_ladder, ladder_symmetries, raw_translational_orbits"]}
{"id": "C65", "title": "Crystal systems and bases in the plane", "statement": "For the linear parts of a finite group of plane operators, crystal_system_and_basis_2d returns hexagonal, square, rectangular or oblique according to the rotation orders and mirrors present, with a right-handed basis: along mirror axes where there are mirrors, related by a rotation of the group in the square and hexagonal systems.", "quantifier": "all finite groups of rational 2x2 matrices", "why_tests_cant": "for all groups in all bases", "anchors": ["src/spacegroups/finder.rs: crystal_system_and_basis_2d, OperatorDetails"]}
{"id": "C66", "title": "The grammar of CGD lines", "statement": "parse_cgd_line splits a line at blanks outside quotes, drops the comment, takes the first word for a keyword exactly if it begins with a letter, and classifies every other word as a fraction, an integer, a floating point number or a name; it never panics, every line made of such words is read completely, no line has two readings, and Err is returned only for a number followed by an incomplete exponent.", "quantifier": "all lines of text, every interpretation of floating point texts", "why_tests_cant": "for all strings", "anchors": ["src/io/parse_cgd_line.rs: parse_cgd_line, line, line_content, field, key, name, fraction, comment"]}
{"id": "C67", "title": "Normalised bases of plane lattices", "statement": "normalized_basis_2d turns a basis of a plane lattice, given in the coordinates that belong to the crystal system, into a conventional basis and a centring: the lattice is generated by the two result vectors if it is called primitive and by them and half of their sum if it is called centred; in the rectangular system they lie along the axes, in the square and hexagonal systems the second is the first turned; applied to the basis of crystal_system_and_basis_2d, the operators of the group map the result to itself as the system demands.", "quantifier": "all rational plane lattices that have the symmetry of the system, all finite groups", "why_tests_cant": "for all lattices, through a reduction loop", "anchors": ["src/spacegroups/finder.rs: normalized_basis_2d, apply_operator", "src/spacegroups/lattices.rs: reduced_lattice_basis"]}
{"id": "C68", "title": "Identification of plane groups", "statement": "identitify_spacegroup_2d returns for every finite plane group its crystal system, the centring of its lattice and the change of coordinates to a conventional basis.", "quantifier": "all groups of plane operators given by their operators modulo lattice translations", "why_tests_cant": "for all groups in all settings", "anchors": ["src/spacegroups/finder.rs: identitify_spacegroup_2d, primitive_cell, crystal_system_and_basis_2d, normalized_basis_2d"]}
{"id": "C69", "title": "Primitive settings", "statement": "PrimitiveSetting::new(ops) returns a basis of the lattice of all translations of the group, the change of coordinates to it, and the operators in the new coordinates modulo integer translations: each of them once, with integer matrices, and with the identity as the only pure translation.", "quantifier": "all lists of operators that form a group modulo integer translations", "why_tests_cant": "for all groups and settings, through an integer elimination and a deduplicating loop", "anchors": ["src/spacegroups/basics.rs: PrimitiveSetting::new", "src/spacegroups/lattices.rs: rational_lattice_basis"]}
{"id": "C70", "title": "Independence of the vertex representatives", "statement": "The labels of a periodic graph depend on which copy of each vertex is called the one in the origin cell. Two graphs differ only in this choice exactly if shift_normalized returns the same graph for both, and shift_normalized leaves its own results unchanged. Vertices, component measures, connectedness and coordination sequences are the same for such graphs; positions are shifted by the difference of the representatives; edge vectors of corresponding edges, is_stable, is_locally_stable and has_second_order_collisions agree.", "quantifier": "all graphs and all choices of representatives", "why_tests_cant": "for all graphs and all relabellings", "anchors": ["src/pgraphs.rs: shift_normalized, traverse_with_shift_adjustments, component_measures, coordination_sequence, position, edge_vector, is_stable, is_locally_stable, has_second_order_collisions"]}
{"id": "C71", "title": "Coordination sequences are invariants", "statement": "Vertices that a symmetry maps to each other, in particular the vertices of one orbit of vertex_orbits, have the same coordination sequence; the sequence of a vertex is that of its image in minimal_image.", "quantifier": "all connected locally stable graphs, all terms of the sequences", "why_tests_cant": "for all graphs and all terms", "anchors": ["src/pgraphs.rs: CoordinationSequence, Graph::coordination_sequence", "src/symmetries.rs: vertex_orbits, symmetries, minimal_image"]}
{"id": "C72", "title": "Displayed texts determine the values", "statement": "Two graphs print the same text exactly if they have the same undirected edges; likewise edges, label vectors, integer and rational numbers, matrices, affine maps and operators in coordinate form, table entries and lookups print the same text only if they are equal (matrices without rows show no number of columns, names are taken to have no line break, operators to have dimension 1 to 3). The demonstration program display_matrix prints each of its objects as it is and does not panic.", "quantifier": "all values of these types", "why_tests_cant": "for all pairs of values", "anchors": ["src/pgraphs.rs: Display for LabelVector2d, LabelVector3d, Edge, Graph", "src/arithmetic/matrices.rs: Display for Matrix", "src/arithmetic/geometry.rs: Display for Vector, Point, ScalarProduct, AffineMap, CoordinateMap", "src/spacegroups/parse_table.rs: Display for TableEntry, Lookup, write_op"]}
{"id": "C73", "title": "Hash and equality of automorphisms agree", "statement": "Equal automorphisms have equal hashes, whatever the iteration order of their hash maps, and equality is an equivalence relation, so hash sets of automorphisms hold each of them once; for automorphisms of one graph the hashed data (the transformation and the vertex map) determine the automorphism, although the edge map is left out.", "quantifier": "all pairs of automorphisms, all iteration orders", "why_tests_cant": "for all values and iteration orders", "anchors": ["src/pgraphs.rs: Automorphism (derived Eq, PartialEq), Hash for Automorphism"]}
{"id": "C74", "title": "Machine integers", "statement": "With integers of fixed width and overflow checks, gcdx, extend_basis, rank, determinant, reduced_basis, solve, null_space, inverse and rational_lattice_basis either panic or return exactly what they return for unbounded integers, and in the second case the same without overflow checks. gcdx does not overflow unless a number is the smallest of its type. Determinants up to size 3 with entries at most M are right if 6 M^3 fits, ranks of at most 3 rows if entries are at most 42 in absolute value (32 bits), rational_lattice_basis for a single vector in dimension 3 if all numerators over the common denominator are at most 127. Beyond such bounds results without overflow checks can be wrong.", "quantifier": "all inputs of the functions, all widths", "why_tests_cant": "for all inputs and widths; intermediate results grow far beyond the entries", "anchors": ["src/arithmetic/linear_algebra.rs: gcdx, extend_basis, rank, determinant, reduced_basis, solve, null_space, inverse", "src/spacegroups/lattices.rs: rational_lattice_basis"]}
{"id": "C75", "title": "Labels of fixed width", "statement": "Labels are vectors of i32. With overflow checks, coordination sequences, shift_normalized, component measures and is_connected are right or panic, and when they do not panic the results are the same without the checks. The k-th item of a coordination sequence is right, with or without checks, if k times the largest label coordinate fits; shift_normalized if (2 V - 1) times that coordinate fits, V being the number of vertices.", "quantifier": "all lists of edges, all numbers of terms, all widths of integers", "why_tests_cant": "for all graphs and widths", "anchors": ["src/pgraphs.rs: Neg, Add, Sub for LabelVector2d and LabelVector3d, Edge::canonical, Graph::new, incidences, coordination_sequence, shift_normalized, traverse_with_shift_adjustments, graph_component_measures, is_connected"]}
{"id": "C76", "title": "Floating point linear algebra", "statement": "Over f64, rank, determinant, reduced_basis, solve, inverse and null_space return for all matrices of suitable shape (they panic only on mismatching shapes), whatever rounding, overflow or NaN do to the numbers: rank is at most the number of rows and of columns, reduced_basis is exactly in reduced row echelon form with rank many rows, solve gives a matrix of the right shape or None, the latter exactly if the reduced basis of [A|B] has a pivot in a column of B. Without rounding the results are those for rational numbers. Expected, but false: the results are accurate for well-conditioned matrices.", "quantifier": "all matrices, all arithmetics with 1 != 0", "why_tests_cant": "for all matrices and all ways of rounding", "anchors": ["src/arithmetic/linear_algebra.rs: Scalar for f64, rank, determinant, reduced_basis, solve, null_space, inverse"]}
{"id": "C77", "title": "The number of p-adic steps computed in floating point", "statement": "solve determines its number of lifting steps in f64. If every floating point operation has a relative error of at most u, the computed real number has a relative error of at most 12 u (n+4)^2, the number of steps is never zero and off by at most one, and it is large enough unless the exact value lies just above an integer. The solution returned is the exact rational one for every number of steps without a near miss, in particular for all systems with up to 21 unknowns that need up to four steps (for example all with columns of squared norm up to 20), on any machine with an accuracy of one unit in the last place; positions of such graphs are exact. If an entry is a negative multiple of the prime it may panic; otherwise the result is this solution, or none exactly if the determinant is a multiple of the prime. Without right-hand side it panics.", "quantifier": "all systems, all ways of rounding", "why_tests_cant": "no test finds the inputs for which rounding matters, and the errors depend on the machine", "anchors": ["src/arithmetic/modular_solver.rs: number_of_p_adic_steps_needed, column_norm, solve", "src/pgraphs.rs: barycentric_placement"]}
{"id": "C78", "title": "The tolerance of the lattice reductions", "statement": "shift_for_dirichlet_domain, dirichlet_vectors and reduced_lattice_basis take a tolerance epsilon. For every epsilon >= 0 and every positive definite scalar product they end; dirichlet_vectors keeps the lattice, and the angles of the superbase and the Dirichlet conditions of the shifted point hold up to stated multiples of epsilon. reduced_lattice_basis returns linearly independent vectors that differ from lattice vectors only in coordinates below epsilon, set to zero; if the lattice has no nonzero coordinate below epsilon it returns a basis of the same lattice in order of length, without an acute angle to the first vector; otherwise the lattice may change and None is possible. With a negative epsilon the loops run forever for perpendicular vectors of one length and for points close to the boundary of the domain.", "quantifier": "all bases in dimensions 1 to 3, all points, all positive definite scalar products, all tolerances", "why_tests_cant": "for all inputs and tolerances; termination of the loops", "anchors": ["src/spacegroups/lattices.rs: shift_for_dirichlet_domain, reduced_lattice_basis, dirichlet_vectors"]}
{"id": "C79", "title": "The shipped space group table is consistent", "statement": "The shipped table src/data/sgtable.data is read by parse_space_group_table without error (549 settings, 52 aliases, 247 lookups, no name twice). For every setting the operators, taken modulo integer translations, are distinct and form a group with integer matrices, beginning with the identity. Every canonical name is a setting; the transform of a setting conjugates its group into the group of its canonical setting, and is the identity exactly for canonical settings. Every alias stands for a setting. Every lookup names a canonical setting, every canonical setting of dimension 2 or 3 has exactly one lookup, and the transform of a lookup takes the translations of the group onto the lattice that the letter of the centering stands for. The crystal system of a lookup is the one of its group (for plane groups also the one that crystal_system_and_basis_2d finds), and no two lookups stand for the same group in standard coordinates.", "quantifier": "all 549 settings with all products of their operators (up to 192), all aliases and lookups; every function that lower-cases ASCII texts", "why_tests_cant": "the table is data that no test looks at beyond a few entries; the group property needs all products and all changes of coordinates, checked exactly, and concerns the sets of maps including the infinitely many translations", "anchors": ["src/data/sgtable.data", "src/spacegroups/parse_table.rs: parse_space_group_table, Tables, TableEntry, Lookup", "examples/read_spacegroup_tables.rs"]}
{"id": "C80", "title": "Isomorphic periodic graphs give the same results", "statement": "A periodic graph can be written down in many ways: with other names of the vertices, other representatives of the vertices and another basis of the lattice. Two such descriptions have the same numbers of vertices and edges, the same component measures, connectedness and coordination sequences (at corresponding vertices); positions and edge vectors correspond by the change of basis; is_stable, is_locally_stable, has_second_order_collisions and is_minimal agree; the automorphisms of the placed graphs correspond; minimal_image finds smaller graphs for both or for none, and these are isomorphic again. Expected, but false: symmetries and edge_orbits have the same numbers of elements, and minimal_image panics for both or for none.", "quantifier": "all lists of edges, all bijective renamings, all automorphisms of the lattice, all choices of representatives", "why_tests_cant": "for all graphs and all ways to write them down", "anchors": ["src/pgraphs.rs: Graph::new, vertices, coordination_sequence, graph_component_measures, is_connected, position, edge_vector, is_stable, is_locally_stable, has_second_order_collisions", "src/symmetries.rs: symmetries, edge_orbits, is_minimal, minimal_image"]}
{"id": "C81", "title": "The report program prints true reports", "statement": "The report about a graph (test_graph in main.rs) first lists, for every graph, its edges in canonical form and order, the edges of the same periodic graph with normalized shifts, the numbers of vertices at distances 1 to 20 from each vertex, and whether the infinite graph is connected. If it is not, the report ends there; if it is and its vertices can be placed, the report goes on with the positions, stability, local stability, second order collisions and, for each vertex and each edge leaving it, the edge vector and the edge itself if no other edge leaving this vertex has the same vector, otherwise None, and the program does not panic. If the vertices of a connected graph cannot be placed (see C33) it panics after the first half. The program with its nine graphs runs to its end and prints nine true reports, on any machine with accurate floating point arithmetic.", "quantifier": "all graphs and placements; all floating point arithmetics with an accuracy of one unit in the last place", "why_tests_cant": "the output of the program is not looked at by any test; truth of its lines is about infinite graphs and all inputs", "anchors": ["src/main.rs: main, test_graph_examples, graph2d, graph3d, test_graph, point_to_string, vector_to_string", "examples/graph_properties.rs"]}
{"id": "C82", "title": "The printed form of the shipped space group table is right", "statement": "Every setting and every lookup of the shipped table can be printed, and no panic occurs. The text of a setting has a line with its name, one with the name of its group, one with the change of coordinates and one for each operator, in the order of the table; the text of a lookup has its name, crystal system, centering and change of coordinates. What is printed for a change of coordinates or an operator is read back (from_string) as the same map. Expected, but false: also for operators with a shift of 1, of which the table has many. Settings with different names have different texts. The demonstration program read_spacegroup_tables prints the three settings, the three aliases (the last one as not found) and the three lookups that it names, exactly as they are in the table, and does not panic.", "quantifier": "all settings and lookups of the shipped table, all their operators; every function that lower-cases ASCII texts", "why_tests_cant": "the output of the program is not looked at by any test, and printing is tested on no table entry", "anchors": ["src/spacegroups/parse_table.rs: Display for TableEntry, Display for Lookup, write_op, write_op_row, from_string", "src/data/sgtable.data", "examples/read_spacegroup_tables.rs"]}
{"id": "C83", "title": "The reduced basis depends only on the lattice, up to signs", "statement": "With tolerance 0, two bases of one lattice in dimension 1, 2 or 3 lead reduced_lattice_basis to the same vectors in the same order, up to the sign of each vector: the k-th vector is, among the shortest lattice vectors outside the span of the previous ones, the one that is last in lexicographic order when all are written with a positive first nonzero coordinate. In dimensions 1 and 2 the scalar products of the result depend on the lattice only; in dimension 3 the result is determined up to one common sign if its first vector is perpendicular to neither of the others. Expected, but false: the result itself, or in dimension 3 its scalar products, depend on the lattice only.", "quantifier": "all pairs of bases of one lattice in dimensions 1 to 3, all positive definite scalar products", "why_tests_cant": "there are infinitely many bases of a lattice and many ties between vectors of one length", "anchors": ["src/spacegroups/lattices.rs: reduced_lattice_basis, dirichlet_vectors, positive_direction"]}
{"id": "C84", "title": "Results do not depend on the iteration order of hash tables", "statement": "Rust iterates over hash maps and hash sets in an order that differs from run to run. Whatever these orders are, Graph::new builds the same graph with the same order of edges; coordination_sequence yields the same numbers; symmetries returns the same automorphisms, each as often, panics in the same cases and needs the same number of rounds (only the order of the list varies); vertex_orbits and edge_orbits return the same lists, in the same order; Partition::classes depends only on which elements are joined, not on the order of the unite calls.", "quantifier": "all graphs and edge lists, all vertices and positions in the sequence, all rearrangements at every single iteration over a hash table", "why_tests_cant": "A test run sees one random order per table; the claim is about all orders at all iterations.", "anchors": ["src/pgraphs.rs: Graph::new, CoordinationSequence::next, Mul for &Automorphism, vertex_orbits, edge_orbits", "src/symmetries.rs: symmetries, multiplicative_group", "src/partitions.rs: Partition::classes"]}
{"id": "C85", "title": "The placement minimises the sum of the squared edge lengths", "statement": "If position() does not panic, then for every scalar product and among all placements of the vertices (with any real coordinates, in the same lattice) the positions it returns have the smallest sum of squared edge lengths over the edges of the graph; the placements with the same sum are exactly the translates of the returned one.", "quantifier": "all graphs of dimensions 2 and 3, all positive definite scalar products, all placements with real coordinates", "why_tests_cant": "There are infinitely many other placements and scalar products; a test can compare with a few only.", "anchors": ["src/pgraphs.rs: position, barycentric_placement"]}
{"id": "C86", "title": "Growth of coordination sequences", "statement": "The first k numbers of a coordination sequence sum up, with one added, to the number of vertices at distance at most k; the first is the number of the neighbours. All numbers are positive exactly if the component of the vertex is infinite, exactly if its dimension in graph_component_measures is positive, and so always if is_connected; otherwise all numbers after the first zero are zero and the sum gives the number of vertices of the component. If at most D edges leave each vertex, the first number is at most D and each number is at most D - 1 times the one before. The sums of the first k numbers grow exactly like the r-th power of k, where r is the dimension of the component in graph_component_measures: they are at most the number of vertices times (2 k M + 1)^r, where M bounds the coordinates of the shifts, and for some L the first k L numbers always sum up to at least (k + 1)^r - 1.", "quantifier": "all graphs, all vertices, all positions in the (unbounded) sequence", "why_tests_cant": "the sequence is infinite; tests look at a few terms", "anchors": ["src/pgraphs.rs: coordination_sequence, CoordinationSequence::next, graph_component_measures, is_connected, incidences"]}
{"id": "C87", "title": "Edits of a CGD file leave other blocks alone", "statement": "Inserting a blank line or a comment anywhere in a file changes nothing in the result of parse_blocks but the numbers of the lines after it, which grow by one. Two files whose lines have the same fields one by one, up to the case of the keywords, give the same blocks up to the texts of the lines; in particular blanks at both ends of a line and a comment at its end do not matter for a line that is read without complaint. If a file ends with an END line, then appending a second file appends the blocks of the second file to its blocks, with shifted line numbers; only the key of a data line that comes before the start of its block, which is reported as an error, may differ, and it does not if every data line without keyword in the second file comes after a line with a keyword other than END. If one side panics, so does the other.", "quantifier": "all files, of any length and with any contents including unreadable lines; all positions; all ways to read numbers and to lower-case texts", "why_tests_cant": "there are infinitely many files and places to edit them; parse_blocks keeps state from line to line and from block to block", "anchors": ["src/io/parse_cgd_blocks.rs: parse_blocks, parse_lines", "src/io/parse_cgd_line.rs: parse_cgd_line"]}
{"id": "C88", "title": "The numbers of symmetries and the sizes of the orbits fit together", "statement": "For a connected, locally stable periodic graph, the number of members of an orbit of vertex_orbits times the number of those symmetries (as returned by symmetries) that fix a given vertex of this orbit is the number of all symmetries; the same holds for edge_orbits, with the symmetries that map an edge to itself or to its reversal. So the sizes of all orbits divide the number of symmetries. Symmetries that agree on d edges with linearly independent vectors, d the dimension, are equal, so there are at most (2 E)^d symmetries, where E is the number of edges. The number of symmetries found divides the number of automorphisms of the graph, so either all are found or at most half of them.", "quantifier": "all connected locally stable graphs of dimensions 2 and 3, all orbits and all of their members", "why_tests_cant": "counts for all graphs; a missing or doubled symmetry or a split orbit changes the counts only for some graphs", "anchors": ["src/symmetries.rs: symmetries, multiplicative_group", "src/pgraphs.rs: vertex_orbits, edge_orbits, Automorphism"]}
{"id": "C89", "title": "The symmetries found are a crystallographic group", "statement": "The linear parts of what symmetries returns form a finite group of integer matrices with determinant 1 or -1; matrix_order (with bound 6) gives the order of each, which is 1, 2, 3, 4 or 6, OperatorDetails::from accepts each and tells whether it keeps the orientation, and there is a positive definite scalar product for which all are isometries. If the graph is not a ladder and its lattice contains all its translations (is_minimal), different symmetries have different linear parts; for a plane graph crystal_system_and_basis_2d applied to the linear parts then returns the crystal system of these symmetries and a right-handed basis: hexagonal exactly if one has order three, square if one has order four, otherwise rectangular if one is a reflection and oblique if not; the first basis vector is fixed by a reflection if there is one.", "quantifier": "all connected locally stable graphs with a placement, in dimensions 2 and 3", "why_tests_cant": "the orders and determinants of matrices that come out of a search over all edge lists, for all graphs; the two halves of the library (graphs and space groups) are tested separately", "anchors": ["src/symmetries.rs: symmetries, automorphism", "src/pgraphs.rs: Automorphism", "src/spacegroups/finder.rs: matrix_order, OperatorDetails::from, crystal_system_and_basis_2d"]}
{"id": "C90", "title": "The program sees all isomorphisms and symmetries of the infinite graphs", "statement": "Take any bijection between the vertices of two connected infinite periodic graphs that preserves adjacency and non-adjacency; it need not respect lattice translations or places. It acts on the barycentric positions (as position() returns them) as an invertible affine map with rational coefficients. If is_stable returns true for one graph and is_minimal for both, it maps lattice translations to lattice translations, so the two lists of labelled edges differ only by the names of the vertices, the choice of representatives and the basis of the lattice (as in C80, so all results agree as stated there); without is_minimal this fails. If is_stable returns true for both graphs, given with any lattices, and minimal_image panics for neither, their infinite graphs are isomorphic exactly if the graphs returned by minimal_image (or the given ones, where it returns None) differ in this way only; what minimal_image returns is stable and minimal. Every symmetry of the infinite graph of a stable graph for which is_minimal returns true is found by automorphism(v, w, A), given its linear part A and the image w of any one vertex v; it is determined by the images of d + 1 vertices. The linear part of every symmetry is an integer matrix with determinant 1 or -1, and repeated 1, 2, 3, 4 or 6 times every symmetry becomes a lattice translation. Up to lattice translations there are at most (2 e)^d symmetries, for e undirected edges. For a stable graph, is_minimal returns true exactly if all symmetries of the infinite graph that move every vertex by a bounded number of steps are translations of the given lattice. Vertices in one class of vertex_orbits are related by a symmetry of the infinite graph.", "quantifier": "all connected periodic graphs of dimensions 2 and 3, all isomorphisms and symmetries of the infinite graphs", "why_tests_cant": "an infinite graph has infinitely many bijections to itself; that all symmetries are affine is a theorem about harmonic functions, which no finite set of examples shows", "anchors": ["src/pgraphs.rs: position, is_stable, incidences, Automorphism", "src/symmetries.rs: automorphism, is_minimal, minimal_image, symmetries", "src/pgraphs.rs: vertex_orbits"]}
{"id": "C91", "title": "The tests and counts for one graph agree with each other", "statement": "If is_stable returns true, has_second_order_collisions returns false; if moreover no vertex of the infinite graph is joined to itself, is_locally_stable returns true and, for a connected graph, is_ladder returns false and ladder_symmetries the empty list. A graph for which is_locally_stable returns true has no such loops. For a connected locally stable graph, if is_ladder returns true, so does has_second_order_collisions. Without such loops the first item of coordination_sequence(v) is the number of incidences(v), and these numbers add up to twice the number of edges; with loops all this fails. Vertices in one class of vertex_orbits have equally many incidences. Unless a connected locally stable graph is a ladder, all classes that the program forms of vertices related by translations (before it computes the minimal image) have the same size; if minimal_image returns a graph, the numbers of vertices and edges of the given graph are those of the returned one times this size, which is at least two.", "quantifier": "all periodic graphs with a placement, in dimensions 2 and 3", "why_tests_cant": "relations between the answers of different functions, each tested by itself, for all graphs", "anchors": ["src/pgraphs.rs: is_stable, is_locally_stable, has_second_order_collisions, coordination_sequence, incidences, vertex_orbits", "src/symmetries.rs: is_ladder, ladder_symmetries, translational_orbits, minimal_image"]}
{"id": "C92", "title": "The linear algebra functions agree with each other", "statement": "For matrices of rationals: a square matrix has a determinant other than zero exactly if its rank is its size, exactly if inverse() returns a matrix, exactly if null_space() returns None. The determinant of a product is the product of the determinants; the inverse of the inverse is the matrix itself and their determinants multiply to one; solve() with a matrix that has an inverse is the multiplication with the inverse, and solve(a, a * x) returns a y with a * y == a * x, namely x if the null space is empty. The rank is the number of rows of reduced_basis(), the same for the transpose, at most the rank of each factor for a product, and together with the number of columns of null_space() it is the number of columns. For matrices of integers inverse() returns a matrix exactly if the determinant is 1 or -1; a determinant other than zero, full rank and an empty null space also come together; and the same matrix over the rationals has the same determinant and rank, and the same inverse if there is one over the integers.", "quantifier": "all matrices with at least one row and column over the rational numbers or the integers", "why_tests_cant": "relations between the answers of several functions, for all matrices; tests compare single answers with literals", "anchors": ["src/arithmetic/linear_algebra.rs: rank, determinant, inverse, null_space, reduced_basis, solve", "src/arithmetic/matrices.rs: Mul, transpose"]}
