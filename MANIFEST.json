{
 "claims": [
  {
   "property": "C01",
   "status": "proved",
   "theorems": [
    "Systre.Partitions.C01_find_iff_joined"
   ],
   "note": ""
  },
  {
   "property": "C02",
   "status": "proved",
   "theorems": [
    "Systre.Partitions.C02_find_invisible",
    "Systre.Partitions.C02_classes_invisible",
    "Systre.Partitions.C02_rep_in_class",
    "Systre.Partitions.C02_never_united"
   ],
   "note": ""
  },
  {
   "property": "C03",
   "status": "proved",
   "theorems": [
    "Systre.Partitions.C03_total"
   ],
   "note": ""
  },
  {
   "property": "C04",
   "status": "proved",
   "theorems": [
    "Systre.Partitions.C04_classes"
   ],
   "note": ""
  },
  {
   "property": "C05",
   "status": "proved",
   "theorems": [
    "Systre.Partitions.C05_log_height"
   ],
   "note": ""
  },
  {
   "property": "C06",
   "status": "proved",
   "theorems": [
    "Systre.C06_gcdx"
   ],
   "note": "Integers unbounded; C74_gcdx relates this to i32/i64."
  },
  {
   "property": "C07",
   "status": "proved",
   "theorems": [
    "Systre.C07_extend_basis_int",
    "Systre.C07_extend_basis_rat",
    "Systre.C07_length_panics"
   ],
   "note": "Integers unbounded; C74 relates the integer versions to i32/i64."
  },
  {
   "property": "C08",
   "status": "proved",
   "theorems": [
    "Systre.C08_rank_rat",
    "Systre.C08_rank_int"
   ],
   "note": "Integers unbounded; C74 relates the integer versions to i32/i64."
  },
  {
   "property": "C09",
   "status": "proved",
   "theorems": [
    "Systre.C09_determinant_int",
    "Systre.C09_determinant_rat",
    "Systre.C09_panics_iff",
    "Systre.C09_panics_iff_rat"
   ],
   "note": "Integers unbounded; C74 relates the integer versions to i32/i64."
  },
  {
   "property": "C10",
   "status": "proved",
   "theorems": [
    "Systre.C10_rref",
    "Systre.C10_canonical"
   ],
   "note": "Integers unbounded; C74 relates the integer versions to i32/i64."
  },
  {
   "property": "C11",
   "status": "partial",
   "theorems": [
    "Systre.C11_reduced_int_partial",
    "Systre.C11_pivots_canonical",
    "Systre.C11_canonical_refuted",
    "Systre.C11_determinant"
   ],
   "note": "Missing: the result is not canonical for integers (C11_canonical_refuted); echelon form, same lattice and reduced entries are proved. Integers unbounded; see C74."
  },
  {
   "property": "C12",
   "status": "proved",
   "theorems": [
    "Systre.C12_solve_rat",
    "Systre.C12_panics"
   ],
   "note": "Integers unbounded; C74 relates the integer versions to i32/i64."
  },
  {
   "property": "C13",
   "status": "proved",
   "theorems": [
    "Systre.C13_solve_int",
    "Systre.C13_panics"
   ],
   "note": "Integers unbounded; C74 relates the integer versions to i32/i64."
  },
  {
   "property": "C14",
   "status": "proved",
   "theorems": [
    "Systre.C14_null_space_rat",
    "Systre.C14_null_space_int"
   ],
   "note": "Integers unbounded; C74 relates the integer versions to i32/i64."
  },
  {
   "property": "C15",
   "status": "proved",
   "theorems": [
    "Systre.C15_inverse_rat",
    "Systre.C15_inverse_int",
    "Systre.C15_panics_rat",
    "Systre.C15_panics_int"
   ],
   "note": "Integers unbounded; C74 relates the integer versions to i32/i64."
  },
  {
   "property": "C16",
   "status": "proved",
   "theorems": [
    "Systre.C16_new",
    "Systre.C16_index",
    "Systre.C16_set",
    "Systre.C16_constructors",
    "Systre.C16_rows_columns"
   ],
   "note": ""
  },
  {
   "property": "C17",
   "status": "proved",
   "theorems": [
    "Systre.C17_rep_unique",
    "Systre.C17_built_rep",
    "Systre.C17_mul",
    "Systre.C17_add",
    "Systre.C17_sub",
    "Systre.C17_neg",
    "Systre.C17_smul",
    "Systre.C17_scalar",
    "Systre.C17_div",
    "Systre.C17_identity",
    "Systre.C17_is_identity",
    "Systre.C17_transpose",
    "Systre.C17_mismatch",
    "Systre.C17_laws",
    "Systre.C17_transpose_laws",
    "Systre.C17_transpose_empty_fails",
    "Systre.C17_div_exact"
   ],
   "note": ""
  },
  {
   "property": "C18",
   "status": "proved",
   "theorems": [
    "Systre.C18_hstack",
    "Systre.C18_vstack",
    "Systre.C18_rows",
    "Systre.C18_mismatch"
   ],
   "note": ""
  },
  {
   "property": "C19",
   "status": "proved",
   "theorems": [
    "Systre.Modular.C19_modular_inverse",
    "Systre.Modular.C19_no_overflow",
    "Systre.Modular.C19_negative_argument"
   ],
   "note": ""
  },
  {
   "property": "C20",
   "status": "partial",
   "theorems": [
    "Systre.Modular.C20_matrix_inverse_partial",
    "Systre.Modular.C20_any",
    "Systre.Modular.C20_refuted",
    "Systre.Modular.C20_empty"
   ],
   "note": "False: the code can panic if an entry is a negative multiple of p (C20_refuted). For all integer matrices it panics or is right, and panics only in that case (C20_any)."
  },
  {
   "property": "C21",
   "status": "partial",
   "theorems": [
    "Systre.Modular.C21_row_space_partial",
    "Systre.Modular.C21_any",
    "Systre.Modular.C21_range_refuted",
    "Systre.Modular.C21_shape_refuted",
    "Systre.Modular.C21_negative_multiple_panics"
   ],
   "note": "False in general: negative multiples of p as pivots, or left as p instead of 0 (C21_range_refuted), and rows advance without a pivot (C21_shape_refuted). For all integer matrices it panics, only in that case, or row space and leading part are right (C21_any)."
  },
  {
   "property": "C22",
   "status": "proved",
   "theorems": [
    "Systre.Modular.C22_reconstruction",
    "Systre.Modular.C22_total"
   ],
   "note": ""
  },
  {
   "property": "C23",
   "status": "proved",
   "theorems": [
    "Systre.Modular.C23_exact_solution",
    "Systre.Modular.C23_any",
    "Systre.Modular.C23_any_none",
    "Systre.Modular.C23_none"
   ],
   "note": ""
  },
  {
   "property": "C24",
   "status": "proved",
   "theorems": [
    "Systre.Modular.C24_no_overflow",
    "Systre.Modular.C24_any",
    "Systre.Modular.C24_no_overflow_none"
   ],
   "note": "C24_any: within the bounds the checked run equals the run with unbounded integers for every matrix."
  },
  {
   "property": "C25",
   "status": "proved",
   "theorems": [
    "Systre.C25_canonical"
   ],
   "note": "Label coordinates unbounded; with i32 this holds unless a coordinate is the smallest number (C75_smallest, C75_coordination_sequence)."
  },
  {
   "property": "C26",
   "status": "proved",
   "theorems": [
    "Systre.C26_normal_form"
   ],
   "note": "Label coordinates unbounded; with i32 this holds unless a coordinate is the smallest number (C75_smallest, C75_coordination_sequence)."
  },
  {
   "property": "C27",
   "status": "proved",
   "theorems": [
    "Systre.C27_vertices",
    "Systre.C27_incidences",
    "Systre.C27_directed_edges"
   ],
   "note": "Label coordinates unbounded; with i32 this holds unless a coordinate is the smallest number (C75_smallest, C75_coordination_sequence)."
  },
  {
   "property": "C28",
   "status": "proved",
   "theorems": [
    "Systre.C28_cache_transparent",
    "Systre.C28_programs",
    "Systre.C28_pure_meaning"
   ],
   "note": ""
  },
  {
   "property": "C29",
   "status": "proved",
   "theorems": [
    "Systre.C29_coordination_sequence",
    "Systre.C29_no_vertex"
   ],
   "note": "Label coordinates unbounded; i32 in C75_coordination_sequence."
  },
  {
   "property": "C30",
   "status": "proved",
   "theorems": [
    "Systre.C30_shift_normalized"
   ],
   "note": "Label coordinates unbounded; i32 in C75_shift_normalized."
  },
  {
   "property": "C31",
   "status": "partial",
   "theorems": [
    "Systre.C31_checked_partial",
    "Systre.C31_overflow_refuted",
    "Systre.C31_component_measures",
    "Systre.C31_lattice_meaning"
   ],
   "note": "Proved for unbounded integers (C31_component_measures). With i32: right or panic with overflow checks (C31_checked_partial), wrong multiplicity possible without, already for labels up to 15 (C31_overflow_refuted)."
  },
  {
   "property": "C32",
   "status": "partial",
   "theorems": [
    "Systre.C32_checked_partial",
    "Systre.C32_overflow_refuted",
    "Systre.C32_is_connected"
   ],
   "note": "Proved for unbounded integers (C32_is_connected). With i32: right or panic with overflow checks (C32_checked_partial), wrong answer possible without (C32_overflow_refuted)."
  },
  {
   "property": "C33",
   "status": "partial",
   "theorems": [
    "Systre.C33_position_partial",
    "Systre.C33_any",
    "Systre.C33_connected_det",
    "Systre.C33_panics",
    "Systre.C33_refuted"
   ],
   "note": "position() panics if the number of spanning trees is divisible by 9999991 (C33_refuted); proved for all other graphs with fewer than 9999991 edges. C33_any has no bound on the number of edges: the placement is right or every call panics."
  },
  {
   "property": "C34",
   "status": "proved",
   "theorems": [
    "Systre.C34_edge_vector",
    "Systre.C34_balanced",
    "Systre.C34_position_normalized"
   ],
   "note": ""
  },
  {
   "property": "C35",
   "status": "proved",
   "theorems": [
    "Systre.C35_is_stable",
    "Systre.C35_is_locally_stable",
    "Systre.C35_second_order_collisions"
   ],
   "note": ""
  },
  {
   "property": "C36",
   "status": "proved",
   "theorems": [
    "Systre.C36_edge_by_unique_delta"
   ],
   "note": ""
  },
  {
   "property": "C37",
   "status": "proved",
   "theorems": [
    "Systre.C37_automorphism",
    "Systre.C37_locally_stable",
    "Systre.C37_unimodular",
    "Systre.C37_infinite_graph"
   ],
   "note": ""
  },
  {
   "property": "C38",
   "status": "proved",
   "theorems": [
    "Systre.C38_mul",
    "Systre.C38_eq",
    "Systre.C38_identity",
    "Systre.C38_assoc"
   ],
   "note": ""
  },
  {
   "property": "C39",
   "status": "proved",
   "theorems": [
    "Systre.C39_symmetries_group"
   ],
   "note": ""
  },
  {
   "property": "C40",
   "status": "partial",
   "theorems": [
    "Systre.C40_complete_partial",
    "Systre.C40_transposed_partial",
    "Systre.C40_translations_partial",
    "Systre.C40_refuted"
   ],
   "note": "False: symmetries() misses automorphisms (C40_refuted). Proved: every automorphism whose linear part A satisfies B At = A B for the basis B used is found, in particular all translations and inversions; and all are found if for every A the group has B At B^-1 with the same image of the first vertex (C40_transposed_partial). If any is missed, at most half are found (C88_lagrange)."
  },
  {
   "property": "C41",
   "status": "proved",
   "theorems": [
    "Systre.C41_vertex_orbits",
    "Systre.C41_edge_orbits"
   ],
   "note": ""
  },
  {
   "property": "C42",
   "status": "partial",
   "theorems": [
    "Systre.C42_is_minimal",
    "Systre.C42_translational_orbits",
    "Systre.C42_minimal_image_partial",
    "Systre.C42_panics",
    "Systre.C42_refuted",
    "Systre.C42_ladder_refuted"
   ],
   "note": "False: minimal_image uses the inverse of the matrix where the inverse of its transpose is needed and panics (C42_refuted), and collapses ladders (C42_ladder_refuted). Proved: is_minimal, translational_orbits, minimal_image is right or panics if there is no ladder, and exactly when it panics (C42_panics: B\u207b\u00b9B\u1d40 is not integral, or a shift is not an i32)."
  },
  {
   "property": "C43",
   "status": "proved",
   "theorems": [
    "Systre.C43_built",
    "Systre.C43_values",
    "Systre.C43_laws",
    "Systre.C43_vectors",
    "Systre.C43_dimension",
    "Systre.C43_is_identity",
    "Systre.C43_divide",
    "Systre.C43_example"
   ],
   "note": ""
  },
  {
   "property": "C44",
   "status": "proved",
   "theorems": [
    "Systre.C44_inverse",
    "Systre.C44_inverse_int"
   ],
   "note": ""
  },
  {
   "property": "C45",
   "status": "proved",
   "theorems": [
    "Systre.C45_round_trip",
    "Systre.C45_composition",
    "Systre.C45_returns",
    "Systre.C45_returns_int",
    "Systre.C45_scalar_product",
    "Systre.C45_scalar_product_int",
    "Systre.C45_to_basis",
    "Systre.C45_determinant",
    "Systre.C45_basis_int"
   ],
   "note": ""
  },
  {
   "property": "C46",
   "status": "proved",
   "theorems": [
    "Systre.C46_default",
    "Systre.C46_from",
    "Systre.C46_apply",
    "Systre.C46_from_int",
    "Systre.C46_apply_int",
    "Systre.C46_dimension"
   ],
   "note": ""
  },
  {
   "property": "C47",
   "status": "partial",
   "theorems": [
    "Systre.C47_mod_z_partial",
    "Systre.C47_mod_z_vector",
    "Systre.C47_canonical_refuted"
   ],
   "note": "mod_z is not canonical for negative numbers (C47_canonical_refuted); everything else is proved."
  },
  {
   "property": "C48",
   "status": "proved",
   "theorems": [
    "Systre.Lattices.C48_lagrange",
    "Systre.Lattices.C48_dirichlet"
   ],
   "note": ""
  },
  {
   "property": "C49",
   "status": "proved",
   "theorems": [
    "Systre.Lattices.C49_selling",
    "Systre.Lattices.C49_dirichlet"
   ],
   "note": ""
  },
  {
   "property": "C50",
   "status": "proved",
   "theorems": [
    "Systre.Lattices.C50_reduced_basis",
    "Systre.Lattices.C50_shortest"
   ],
   "note": ""
  },
  {
   "property": "C51",
   "status": "proved",
   "theorems": [
    "Systre.Lattices.C51_dirichlet_shift"
   ],
   "note": ""
  },
  {
   "property": "C52",
   "status": "partial",
   "theorems": [
    "Systre.Lattices.C52_rational_lattice",
    "Systre.Lattices.C52_empty",
    "Systre.C52_checked_partial",
    "Systre.C52_overflow_refuted"
   ],
   "note": "Proved for unbounded integers (C52_rational_lattice). With i32: panic or right result with overflow checks (C52_checked_partial), wrong lattice possible without (C52_overflow_refuted); safe range in C74_rational_lattice."
  },
  {
   "property": "C53",
   "status": "partial",
   "theorems": [
    "Systre.C53_generate_partial",
    "Systre.C53_terminates",
    "Systre.C53_group",
    "Systre.C53_symmorphic",
    "Systre.C53_copies",
    "Systre.C53_nonnegative",
    "Systre.C53_cosets_refuted"
   ],
   "note": "Cosets can appear several times because of mod_z (C53_cosets_refuted); copies differ exactly by shifts of opposite signs (C53_copies), so none for symmorphic groups or generators without negative entries."
  },
  {
   "property": "C54",
   "status": "partial",
   "theorems": [
    "Systre.C54_shift_space_partial",
    "Systre.C54_translations_refuted"
   ],
   "note": "shift_space of pure translations is None (C54_translations_refuted)."
  },
  {
   "property": "C55",
   "status": "partial",
   "theorems": [
    "Systre.C55_gram_space_partial",
    "Systre.C55_transpose_closed_partial",
    "Systre.C55_inverse",
    "Systre.C55_convention_refuted"
   ],
   "note": "The code solves S G St = G instead of St G S = G (C55_convention_refuted); these are the inverses of the invariant forms (C55_inverse)."
  },
  {
   "property": "C56",
   "status": "partial",
   "theorems": [
    "Systre.C56_primitive_cell_partial",
    "Systre.C56_centred_refuted"
   ],
   "note": "Centred cells are not found (C56_centred_refuted)."
  },
  {
   "property": "C57",
   "status": "proved",
   "theorems": [
    "Systre.C57_matrix_order",
    "Systre.C57_order_six",
    "Systre.C57_operator_axis",
    "Systre.C57_details",
    "Systre.C57_details_rejects",
    "Systre.C57_clockwise_2d",
    "Systre.C57_clockwise_3d",
    "Systre.C57_collinear",
    "Systre.C57_orthogonal"
   ],
   "note": ""
  },
  {
   "property": "C58",
   "status": "partial",
   "theorems": [
    "Systre.C58_round_trip_partial",
    "Systre.C58_shift_one_refuted"
   ],
   "note": "A shift of 1 or -1 is not read back (C58_shift_one_refuted)."
  },
  {
   "property": "C59",
   "status": "partial",
   "theorems": [
    "Systre.C59_sound",
    "Systre.C59_complete",
    "Systre.C59_no_panic_partial",
    "Systre.C59_zero_denominator_refuted",
    "Systre.C59_from_string",
    "Systre.C59_from_string_error",
    "Systre.C59_witness",
    "Systre.C59_ignored"
   ],
   "note": "A zero denominator panics (C59_zero_denominator_refuted); exact conditions proved."
  },
  {
   "property": "C60",
   "status": "partial",
   "theorems": [
    "Systre.C60_lines",
    "Systre.C60_blocks",
    "Systre.C60_order",
    "Systre.C60_shape",
    "Systre.C60_inherit_partial",
    "Systre.C60_leak_refuted"
   ],
   "note": "Keywords leak into the next block (C60_leak_refuted)."
  },
  {
   "property": "C61",
   "status": "partial",
   "theorems": [
    "Systre.C61_warnings_partial",
    "Systre.C61_kept_partial",
    "Systre.C61_lost",
    "Systre.C61_one_field_refuted",
    "Systre.C61_dropped_refuted"
   ],
   "note": "Some ignored fields get no warning and some errors are lost (C61_one_field_refuted, C61_dropped_refuted). Exact: warned iff two fields follow (C61_warnings_partial), kept iff a keyword follows or the line is in an opened block (C61_kept_partial, C61_lost)."
  },
  {
   "property": "C62",
   "status": "partial",
   "theorems": [
    "Systre.C62_words",
    "Systre.C62_white",
    "Systre.C62_accepts",
    "Systre.C62_setting",
    "Systre.C62_only",
    "Systre.C62_alias",
    "Systre.C62_lookup",
    "Systre.C62_malformed_partial",
    "Systre.C62_outcome",
    "Systre.C62_witness",
    "Systre.C62_malformed_refuted"
   ],
   "note": "Malformed input is accepted or panics (C62_malformed_refuted); C62_outcome says exactly what happens for every input."
  },
  {
   "property": "C63",
   "status": "proved",
   "theorems": [
    "Systre.C63_system",
    "Systre.C63_system_round_trip",
    "Systre.C63_system_names",
    "Systre.C63_centering",
    "Systre.C63_lookup"
   ],
   "note": ""
  },
  {
   "property": "C64",
   "status": "proved",
   "theorems": [
    "Systre.C64_is_ladder",
    "Systre.C64_ladder_symmetries"
   ],
   "note": ""
  },
  {
   "property": "C65",
   "status": "partial",
   "theorems": [
    "Systre.C65_crystal_system_2d",
    "Systre.C65_repeated",
    "Systre.C65_repeated_refuted"
   ],
   "note": "Full statement proved for duplicate-free lists. With repetitions it is false (C65_repeated_refuted); C65_repeated gives the exact condition: it fails exactly when the linear parts have order at most 2 and the first two mirrors in the list are equal."
  },
  {
   "property": "C66",
   "status": "partial",
   "theorems": [
    "Systre.C66_read",
    "Systre.C66_rest",
    "Systre.C66_error",
    "Systre.C66_panic",
    "Systre.C66_terminates",
    "Systre.C66_unique",
    "Systre.C66_witness",
    "Systre.C66_refuted"
   ],
   "note": "False for zero denominators and some tokens (C66_refuted); exact conditions proved."
  },
  {
   "property": "C67",
   "status": "partial",
   "theorems": [
    "Systre.C67_apply_operator",
    "Systre.C67_oblique",
    "Systre.C67_rectangular",
    "Systre.C67_square",
    "Systre.C67_hexagonal_partial",
    "Systre.C67_hexagonal",
    "Systre.C67_other",
    "Systre.C67_rotation_four",
    "Systre.C67_rotation_six",
    "Systre.C67_conventional_partial",
    "Systre.C67_conventional_hexagonal",
    "Systre.C67_hexagonal_refuted"
   ],
   "note": "False in the hexagonal system with mirrors (C67_hexagonal_refuted); C67_hexagonal and C67_conventional_hexagonal have the exact condition: the lattice is a multiple of the lattice of the basis from C65."
  },
  {
   "property": "C68",
   "status": "partial",
   "theorems": [
    "Systre.C68_prepared_partial",
    "Systre.C68_twins",
    "Systre.C68_never_returns_refuted",
    "Systre.C68_coordinates_refuted",
    "Systre.C68_centring_refuted"
   ],
   "note": "The function always panics in todo!() (C68_never_returns_refuted); what is computed before is characterised, for operator lists with and without repeated linear parts (C68_prepared_partial, C68_twins)."
  },
  {
   "property": "C69",
   "status": "partial",
   "theorems": [
    "Systre.C69_primitive_setting_partial",
    "Systre.C69_multiplicity",
    "Systre.C69_primitive_refuted",
    "Systre.C69_repeated_refuted"
   ],
   "note": "Panics for every group in a primitive cell (C69_primitive_refuted); repeated operators (C69_repeated_refuted)."
  },
  {
   "property": "C70",
   "status": "proved",
   "theorems": [
    "Systre.C70_normal_form",
    "Systre.C70_idempotent",
    "Systre.C70_results",
    "Systre.C70_positions"
   ],
   "note": ""
  },
  {
   "property": "C71",
   "status": "proved",
   "theorems": [
    "Systre.C71_automorphism",
    "Systre.C71_vertex_orbits",
    "Systre.C71_minimal_image"
   ],
   "note": ""
  },
  {
   "property": "C72",
   "status": "proved",
   "theorems": [
    "Systre.C72_graph2d",
    "Systre.C72_graph3d",
    "Systre.C72_edge",
    "Systre.C72_numbers",
    "Systre.C72_matrix",
    "Systre.C72_integer_matrix",
    "Systre.C72_affine_map",
    "Systre.C72_coordinate_map",
    "Systre.C72_operator",
    "Systre.C72_table_entry",
    "Systre.C72_lookup",
    "Systre.Report.C72_program"
   ],
   "note": ""
  },
  {
   "property": "C73",
   "status": "proved",
   "theorems": [
    "Systre.C73_consistent",
    "Systre.C73_determined"
   ],
   "note": ""
  },
  {
   "property": "C74",
   "status": "proved",
   "theorems": [
    "Systre.C74_gcdx",
    "Systre.C74_checked",
    "Systre.C74_extend_basis",
    "Systre.C74_rank",
    "Systre.C74_rank_i32",
    "Systre.C74_determinant",
    "Systre.C74_rational_lattice",
    "Systre.C74_gcdx_smallest",
    "Systre.C74_release_rank"
   ],
   "note": "Model with every arithmetic operation checked or wrapped; refinement to the unbounded model, and sufficient bounds."
  },
  {
   "property": "C75",
   "status": "proved",
   "theorems": [
    "Systre.C75_checked",
    "Systre.C75_coordination_sequence",
    "Systre.C75_shift_normalized",
    "Systre.C75_smallest"
   ],
   "note": ""
  },
  {
   "property": "C76",
   "status": "partial",
   "theorems": [
    "Systre.C76_rank",
    "Systre.C76_reduced_basis",
    "Systre.C76_determinant",
    "Systre.C76_solve",
    "Systre.C76_inverse_null_space",
    "Systre.C76_exact",
    "Systre.C76_accuracy_refuted",
    "Systre.C76_rank_refuted",
    "Systre.C76_f64"
   ],
   "note": "Shapes and totality for arithmetic without any law. Accuracy is false for lack of pivoting (C76_accuracy_refuted, C76_rank_refuted)."
  },
  {
   "property": "C77",
   "status": "proved",
   "theorems": [
    "Systre.C77_positions",
    "Systre.Modular.C77_error",
    "Systre.Modular.C77_off_by_one",
    "Systre.Modular.C77_enough_steps",
    "Systre.Modular.C77_solve_exact",
    "Systre.Modular.C77_solve_any",
    "Systre.Modular.C77_solve_exact_small",
    "Systre.Modular.C77_tetravalent",
    "Systre.Modular.C77_none",
    "Systre.Modular.C77_no_columns_panics"
   ],
   "note": "relative error model of floating point operations; exactness unless near miss, unconditional for up to 4 steps and 21 unknowns"
  },
  {
   "property": "C78",
   "status": "proved",
   "theorems": [
    "Systre.Lattices.C78_shift",
    "Systre.Lattices.C78_dirichlet_plane",
    "Systre.Lattices.C78_dirichlet_space",
    "Systre.Lattices.C78_reduced_basis",
    "Systre.Lattices.C78_zeroed",
    "Systre.Lattices.C78_lattice_changes",
    "Systre.Lattices.C78_none",
    "Systre.Lattices.C78_negative_plane",
    "Systre.Lattices.C78_negative_shift",
    "Systre.Lattices.C78_negative_space"
   ],
   "note": "Coordinates are rationals (BigRational); rounding of f64 coordinates is not modelled. Negative tolerances: divergence for families of inputs (plane, shift) and for the cubic lattice with -1/2 (space)."
  },
  {
   "property": "C79",
   "status": "partial",
   "theorems": [
    "Systre.C79_lookup_distinct",
    "Systre.C79_system_3d",
    "Systre.C79_system_2d",
    "Systre.C79_system_unique",
    "Systre.C79_program_2d",
    "Systre.C79_reads",
    "Systre.C79_groups",
    "Systre.C79_same_group",
    "Systre.C79_lookup",
    "Systre.C79_lookup_complete",
    "Systre.C79_alias_partial",
    "Systre.C79_alias_refuted",
    "Systre.C79_direction_refuted",
    "Systre.C79_example"
   ],
   "note": "Six aliases stand for names that are not in the table (C79_alias_refuted), and the transform of a setting leads from the setting to the group, against its type (C79_direction_refuted). Everything else in the statement is proved for the text of the file. tools/gen_sgtable.py writes the text and the certificates; it is not trusted, except that the text it copies is the file's."
  },
  {
   "property": "C80",
   "status": "partial",
   "theorems": [
    "Systre.C80_vertices",
    "Systre.C80_equivalence",
    "Systre.C80_infinite_graph",
    "Systre.C80_results",
    "Systre.C80_positions",
    "Systre.C80_automorphisms",
    "Systre.C80_is_minimal",
    "Systre.C80_meaning",
    "Systre.C80_minimal_image",
    "Systre.C80_symmetries_refuted",
    "Systre.C80_minimal_image_refuted"
   ],
   "note": "The number of symmetries found and the panics of minimal_image depend on the basis of the lattice (C80_symmetries_refuted: the honeycomb has 12 or 2 symmetries, 1 or 3 edge orbits; C80_minimal_image_refuted). Everything else in the statement is proved."
  },
  {
   "property": "C81",
   "status": "proved",
   "theorems": [
    "Systre.Report.C81_first_half",
    "Systre.Report.C81_report",
    "Systre.Report.C81_no_placement",
    "Systre.Report.C81_main"
   ],
   "note": "The placement is the result of barycentric_placement; C33 says when it exists. The caches are left out (C28)."
  },
  {
   "property": "C82",
   "status": "partial",
   "theorems": [
    "Systre.C82_setting_partial",
    "Systre.C82_lookup",
    "Systre.C82_distinct",
    "Systre.C82_operator_refuted",
    "Systre.C82_program"
   ],
   "note": "Operators with a shift of 1 or -1 are printed with a bare sign and not read back (C82_operator_refuted: setting A1n1); C82_setting_partial has the exact condition. Everything else in the statement is proved."
  },
  {
   "property": "C83",
   "status": "partial",
   "theorems": [
    "Systre.Lattices.C83_selected",
    "Systre.Lattices.C83_unique",
    "Systre.Lattices.C83_idempotent",
    "Systre.Lattices.C83_gram",
    "Systre.Lattices.C83_space",
    "Systre.Lattices.C83_signs_refuted"
   ],
   "note": "False as far as signs are concerned (C83_signs_refuted); uniqueness up to signs, the invariance of the scalar products in dimensions 1 and 2 and the exact selection are proved."
  },
  {
   "property": "C84",
   "status": "proved",
   "theorems": [
    "Systre.C84_graph",
    "Systre.C84_coordination_sequence",
    "Systre.C84_symmetries",
    "Systre.C84_orbits",
    "Systre.C84_classes",
    "Systre.C84_orbits_returned",
    "Systre.Report.C84_report",
    "Systre.Report.C84_main"
   ],
   "note": ""
  },
  {
   "property": "C85",
   "status": "proved",
   "theorems": [
    "Systre.C85_minimises"
   ],
   "note": ""
  },
  {
   "property": "C86",
   "status": "proved",
   "theorems": [
    "Systre.C86_balls",
    "Systre.C86_positive",
    "Systre.C86_degree",
    "Systre.C86_growth",
    "Systre.C86_connected"
   ],
   "note": ""
  },
  {
   "property": "C87",
   "status": "proved",
   "theorems": [
    "Systre.C87_blank",
    "Systre.C87_layout",
    "Systre.C87_comment",
    "Systre.C87_concat",
    "Systre.C87_concat_exact"
   ],
   "note": ""
  },
  {
   "property": "C88",
   "status": "proved",
   "theorems": [
    "Systre.C88_vertex_orbits",
    "Systre.C88_edge_orbits",
    "Systre.C88_determined",
    "Systre.C88_bound",
    "Systre.C88_lagrange"
   ],
   "note": ""
  },
  {
   "property": "C89",
   "status": "proved",
   "theorems": [
    "Systre.C89_group",
    "Systre.C89_order",
    "Systre.C89_isometries",
    "Systre.C89_crystal_system"
   ],
   "note": ""
  },
  {
   "property": "C90",
   "status": "proved",
   "theorems": [
    "Systre.C90_affine",
    "Systre.C90_isomorphic",
    "Systre.C90_isomorphic_program",
    "Systre.C90_symmetry",
    "Systre.C90_automorphism",
    "Systre.C90_crystallographic",
    "Systre.C90_finite",
    "Systre.C90_is_minimal",
    "Systre.C90_determined",
    "Systre.C90_vertex_orbits",
    "Systre.C90_finer_form",
    "Systre.C90_minimal_images",
    "Systre.C90_lattice_needed"
   ],
   "note": ""
  },
  {
   "property": "C91",
   "status": "proved",
   "theorems": [
    "Systre.C91_stable_locally_stable",
    "Systre.C91_locally_stable_no_loops",
    "Systre.C91_stable_collisions",
    "Systre.C91_stable_ladder",
    "Systre.C91_ladder_collisions",
    "Systre.C91_degree",
    "Systre.C91_degree_sum",
    "Systre.C91_orbit_degrees",
    "Systre.C91_class_sizes",
    "Systre.C91_minimal_image_counts",
    "Systre.C91_loops_needed"
   ],
   "note": ""
  },
  {
   "property": "C92",
   "status": "proved",
   "theorems": [
    "Systre.C92_regular_rat",
    "Systre.C92_regular_int",
    "Systre.C92_int_rat",
    "Systre.C92_determinant_mul_rat",
    "Systre.C92_determinant_mul_int",
    "Systre.C92_inverse_inverse",
    "Systre.C92_inverse_int",
    "Systre.C92_rank_nullity",
    "Systre.C92_rank_rows",
    "Systre.C92_rank_transpose",
    "Systre.C92_rank_mul",
    "Systre.C92_solve_mul",
    "Systre.C92_solve_inverse"
   ],
   "note": ""
  }
 ]
}