{
 "claims": [
  {
   "property": "C01",
   "status": "proved",
   "theorems": [
    "Verif.C01_apply_pbc"
   ],
   "note": ""
  },
  {
   "property": "C02",
   "status": "proved",
   "theorems": [
    "Verif.C02_apply_pbc_displacement"
   ],
   "note": ""
  },
  {
   "property": "C03",
   "status": "proved",
   "theorems": [
    "Verif.C03_displace_positions"
   ],
   "note": ""
  },
  {
   "property": "C04",
   "status": "proved",
   "theorems": [
    "Verif.C04_calc_displacement"
   ],
   "note": ""
  },
  {
   "property": "C05",
   "status": "proved",
   "theorems": [
    "Verif.C05_transform_validation",
    "Verif.C05_transform_value",
    "Verif.C05_transform_closed",
    "Verif.C05_transform_compose",
    "Verif.C05_transform_inverse"
   ],
   "note": ""
  },
  {
   "property": "C06",
   "status": "proved",
   "theorems": [
    "Verif.C06_rounded_closed",
    "Verif.C06_rounded_counterexample"
   ],
   "note": ""
  },
  {
   "property": "C07",
   "status": "proved",
   "theorems": [
    "Verif.C07_are_collinear_iff",
    "Verif.C07_are_collinear_invariant",
    "Verif.C07_zero_not_collinear"
   ],
   "note": ""
  },
  {
   "property": "C08",
   "status": "proved",
   "theorems": [
    "Verif.C08_is_orthogonal_to_all",
    "Verif.C08_all_orthogonal",
    "Verif.C08_zero"
   ],
   "note": ""
  },
  {
   "property": "C09",
   "status": "proved",
   "theorems": [
    "Verif.C09_is_collinear_with_all",
    "Verif.C09_is_non_collinear_with_all",
    "Verif.C09_neg_one"
   ],
   "note": ""
  },
  {
   "property": "C10",
   "status": "proved",
   "theorems": [
    "Verif.C10_collinear_with_at_most_one"
   ],
   "note": ""
  },
  {
   "property": "C11",
   "status": "proved",
   "theorems": [
    "Verif.C11_permutation_matrix",
    "Verif.C11_exact"
   ],
   "note": ""
  },
  {
   "property": "C12",
   "status": "proved",
   "theorems": [
    "Verif.C12_shift_independent",
    "Verif.C12_entry"
   ],
   "note": ""
  },
  {
   "property": "C13",
   "status": "proved",
   "theorems": [
    "Verif.C13_candidate",
    "Verif.C13_end_to_end"
   ],
   "note": ""
  },
  {
   "property": "C14",
   "status": "proved",
   "theorems": [
    "Verif.C14_equivalent_displacements_structure"
   ],
   "note": ""
  },
  {
   "property": "C15",
   "status": "proved",
   "theorems": [
    "Verif.C15_equivalent_displacements_provenance"
   ],
   "note": ""
  },
  {
   "property": "C16",
   "status": "proved",
   "theorems": [
    "Verif.C16_first_is_input"
   ],
   "note": ""
  },
  {
   "property": "C17",
   "status": "proved",
   "theorems": [
    "Verif.C17_equivalent_atom_dict",
    "Verif.C17_key_error"
   ],
   "note": ""
  },
  {
   "property": "C18",
   "status": "proved",
   "theorems": [
    "Verif.C18_frac_cart_frac",
    "Verif.C18_cart_frac_cart"
   ],
   "note": ""
  },
  {
   "property": "C19",
   "status": "proved",
   "theorems": [
    "Verif.C19_linear_iff",
    "Verif.C19_no_safe_direction",
    "Verif.C19_direction_partial",
    "Verif.C19_frac_direction_counterexample"
   ],
   "note": "Both directions of the qualified claim: linear exactly on the (-1/2,1/2] box (C19_linear_iff), and no direction is safe from wrapping at every length (C19_no_safe_direction). The unrestricted claim that only the direction matters is false: C19_frac_direction_counterexample."
  },
  {
   "property": "C20",
   "status": "proved",
   "theorems": [
    "Verif.C20_get_atom_indexes"
   ],
   "note": ""
  },
  {
   "property": "C21",
   "status": "proved",
   "theorems": [
    "Verif.C21_displaced_positions",
    "Verif.C21_magnitude_ignored"
   ],
   "note": ""
  },
  {
   "property": "C22",
   "status": "proved",
   "theorems": [
    "Verif.C22_ast_displaced_positions",
    "Verif.C22_index_error"
   ],
   "note": ""
  },
  {
   "property": "C23",
   "status": "proved",
   "theorems": [
    "Verif.C23_file_count",
    "Verif.C23_file_count_ast"
   ],
   "note": ""
  },
  {
   "property": "C24",
   "status": "proved",
   "theorems": [
    "Verif.C24_prefix",
    "Verif.C24_prefix_ast",
    "Verif.C24_never_overwrites",
    "Verif.C24_never_overwrites_ast",
    "Verif.C24_read_back"
   ],
   "note": ""
  },
  {
   "property": "C25",
   "status": "proved",
   "theorems": [
    "Verif.C25_consistent"
   ],
   "note": ""
  },
  {
   "property": "C26",
   "status": "proved",
   "theorems": [
    "Verif.C26_all_or_nothing"
   ],
   "note": ""
  },
  {
   "property": "C27",
   "status": "proved",
   "theorems": [
    "Verif.C27_masked_model",
    "Verif.C27_unmask"
   ],
   "note": ""
  },
  {
   "property": "C28",
   "status": "proved",
   "theorems": [
    "Verif.C28_expansion",
    "Verif.C28_complementary",
    "Verif.C28_fully_masked"
   ],
   "note": ""
  },
  {
   "property": "C29",
   "status": "proved",
   "theorems": [
    "Verif.C29_periodic"
   ],
   "note": ""
  },
  {
   "property": "C30",
   "status": "proved",
   "theorems": [
    "Verif.C30_batched"
   ],
   "note": ""
  },
  {
   "property": "C31",
   "status": "proved",
   "theorems": [
    "Verif.C31_dummy"
   ],
   "note": ""
  },
  {
   "property": "C32",
   "status": "proved",
   "theorems": [
    "Verif.C32_on_axis",
    "Verif.C32_reproduces_data",
    "Verif.C32_concrete"
   ],
   "note": ""
  },
  {
   "property": "C33",
   "status": "proved",
   "theorems": [
    "Verif.C33_valid_calls",
    "Verif.C33_knots"
   ],
   "note": ""
  },
  {
   "property": "C34",
   "status": "proved",
   "theorems": [
    "Verif.C34_invalid_requests",
    "Verif.C34_generated",
    "Verif.C34_too_few_points"
   ],
   "note": ""
  },
  {
   "property": "C35",
   "status": "proved",
   "theorems": [
    "Verif.C35_warnings",
    "Verif.C35_warnings_as_errors",
    "Verif.C35_warnings_before_failure"
   ],
   "note": ""
  },
  {
   "property": "C36",
   "status": "proved",
   "theorems": [
    "Verif.C36_same_direction",
    "Verif.C36_no_safe_displacement",
    "Verif.C36_scale_partial",
    "Verif.C36_scale_counterexample"
   ],
   "note": "Both halves of the qualified claim: same effect inside the box and, more generally, whenever the wrapped displacements are positive multiples (C36_same_direction); without the bound it is false for some multiple of every displacement (C36_no_safe_displacement, C36_scale_counterexample)."
  },
  {
   "property": "C37",
   "status": "proved",
   "theorems": [
    "Verif.C37_orthogonal",
    "Verif.C37_index"
   ],
   "note": ""
  },
  {
   "property": "C38",
   "status": "partial",
   "theorems": [
    "Verif.C38_cubic_counterexample",
    "Verif.C38_closed_partial",
    "Verif.C38_mutually_orthogonal_partial",
    "Verif.C38_counterexample"
   ],
   "note": "False of the code in general: C38_counterexample builds a hexagonal model whose basis vectors meet at 120 degrees. Proved for the images generated by one call in lattices whose rows are orthogonal and of equal length, and for the entire basis (C38_closed_partial) when in addition the stored basis is closed under the operations up to sign. C38_cubic_counterexample shows that the latter is needed: two calls in a cubic cell give basis vectors at cosine 3/5."
  },
  {
   "property": "C39",
   "status": "proved",
   "theorems": [
    "Verif.C39_multiplier"
   ],
   "note": ""
  },
  {
   "property": "C40",
   "status": "proved",
   "theorems": [
    "Verif.C40_rotated_iff",
    "Verif.C40_symmetric_iff",
    "Verif.C40_rotation_partial",
    "Verif.C40_counterexample"
   ],
   "note": "Both halves of the qualified claim: C40_rotation_partial for operations that commute with the lattice; C40_rotated_iff shows that this is necessary for every operation, C40_symmetric_iff says when the stored tensors stay symmetric, C40_counterexample builds such a model."
  },
  {
   "property": "C41",
   "status": "proved",
   "theorems": [
    "Verif.C41_disabled"
   ],
   "note": ""
  },
  {
   "property": "C42",
   "status": "proved",
   "theorems": [
    "Verif.C42_one_atom",
    "Verif.C42_concrete"
   ],
   "note": "For structures with separated atoms whose spglib operations are genuine symmetries; degrees of freedom added with add_art."
  },
  {
   "property": "C43",
   "status": "partial",
   "theorems": [
    "Verif.C43_membership",
    "Verif.C43_total",
    "Verif.C43_no_repetition_partial",
    "Verif.C43_repetition_counterexample",
    "Verif.C43_out_of_range",
    "Verif.C43_no_repetition_iff"
   ],
   "note": "Membership proved for every request; no repetition proved when no negative index is requested. Repetition is possible: C43_no_repetition_iff says exactly when, C43_repetition_counterexample shows it for a one-atom structure."
  },
  {
   "property": "C44",
   "status": "proved",
   "theorems": [
    "Verif.C44_shapes",
    "Verif.C44_amplitudes"
   ],
   "note": "For an invertible lattice (otherwise LinAlgError is raised first). Trailing array dimensions are excluded by typing. The code does not enforce exactly two amplitudes: symmetry may produce more."
  },
  {
   "property": "C45",
   "status": "proved",
   "theorems": [
    "Verif.C45_multiple_atoms",
    "Verif.C45_amplitude_count"
   ],
   "note": ""
  },
  {
   "property": "C46",
   "status": "proved",
   "theorems": [
    "Verif.C46_offset",
    "Verif.C46_tensor_sign",
    "Verif.C46_spectrum_sign",
    "Verif.C46_quadratic",
    "Verif.C46_affine",
    "Verif.C46_affine_spectrum",
    "Verif.C46_no_phonons"
   ],
   "note": ""
  },
  {
   "property": "C47",
   "status": "proved",
   "theorems": [
    "Verif.C47_trajectory",
    "Verif.C47_shift_invariant"
   ],
   "note": ""
  },
  {
   "property": "C48",
   "status": "proved",
   "theorems": [
    "Verif.C48_index",
    "Verif.C48_zero_step",
    "Verif.C48_slice"
   ],
   "note": ""
  },
  {
   "property": "C49",
   "status": "proved",
   "theorems": [
    "Verif.C49_nonneg",
    "Verif.C49_rotation",
    "Verif.C49_rotation_needs_symmetric"
   ],
   "note": ""
  },
  {
   "property": "C50",
   "status": "proved",
   "theorems": [
    "Verif.C50_scaling",
    "Verif.C50_zero_iff",
    "Verif.C50_zero_symmetric"
   ],
   "note": ""
  },
  {
   "property": "C51",
   "status": "proved",
   "theorems": [
    "Verif.C51_values",
    "Verif.C51_bose_monotone",
    "Verif.C51_signs"
   ],
   "note": ""
  },
  {
   "property": "C52",
   "status": "proved",
   "theorems": [
    "Verif.C52_phonon_measure",
    "Verif.C52_md_measure",
    "Verif.C52_orientation",
    "Verif.C52_invalid",
    "Verif.C52_disabled_ignored",
    "Verif.C52_unchanged"
   ],
   "note": ""
  },
  {
   "property": "C53",
   "status": "proved",
   "theorems": [
    "Verif.C53_grid",
    "Verif.C53_documented_length_wrong",
    "Verif.C53_short"
   ],
   "note": ""
  },
  {
   "property": "C54",
   "status": "proved",
   "theorems": [
    "Verif.C54_signal",
    "Verif.C54_md_nonneg"
   ],
   "note": ""
  },
  {
   "property": "C55",
   "status": "proved",
   "theorems": [
    "Verif.C55_offset",
    "Verif.C55_scaling",
    "Verif.C55_rotation"
   ],
   "note": ""
  },
  {
   "property": "C56",
   "status": "proved",
   "theorems": [
    "Verif.C56_value",
    "Verif.C56_auto_grid",
    "Verif.C56_linear",
    "Verif.C56_nonneg",
    "Verif.C56_permutation",
    "Verif.C56_append"
   ],
   "note": ""
  },
  {
   "property": "C57",
   "status": "proved",
   "theorems": [
    "Verif.C57_integral"
   ],
   "note": ""
  },
  {
   "property": "C58",
   "status": "proved",
   "theorems": [
    "Verif.C58_lengths_width",
    "Verif.C58_shape",
    "Verif.C58_no_peaks",
    "Verif.C58_success_iff"
   ],
   "note": ""
  },
  {
   "property": "C59",
   "status": "proved",
   "theorems": [
    "Verif.C59_parse_format",
    "Verif.C59_error",
    "Verif.C59_exact"
   ],
   "note": ""
  },
  {
   "property": "C60",
   "status": "proved",
   "theorems": [
    "Verif.C60_writable",
    "Verif.C60_roundtrip",
    "Verif.C60_rounded_unique"
   ],
   "note": ""
  },
  {
   "property": "C61",
   "status": "proved",
   "theorems": [
    "Verif.C61_poscar",
    "Verif.C61_xdatcar",
    "Verif.C61_plain"
   ],
   "note": ""
  },
  {
   "property": "C62",
   "status": "proved",
   "theorems": [
    "Verif.C62_grouping",
    "Verif.C62_decode",
    "Verif.C62_empty"
   ],
   "note": ""
  },
  {
   "property": "C63",
   "status": "proved",
   "theorems": [
    "Verif.C63_roundtrip",
    "Verif.C63_writable"
   ],
   "note": ""
  },
  {
   "property": "C64",
   "status": "proved",
   "theorems": [
    "Verif.C64_truncated"
   ],
   "note": ""
  },
  {
   "property": "C65",
   "status": "proved",
   "theorems": [
    "Verif.C65_behaviour",
    "Verif.C65_exact"
   ],
   "note": ""
  },
  {
   "property": "C66",
   "status": "proved",
   "theorems": [
    "Verif.C66_poscar",
    "Verif.C66_xdatcar",
    "Verif.C66_exists",
    "Verif.C66_exists_xdatcar",
    "Verif.C66_write_then_read",
    "Verif.C66_format"
   ],
   "note": ""
  },
  {
   "property": "C67",
   "status": "proved",
   "theorems": [
    "Verif.C67_symbols",
    "Verif.C67_errors"
   ],
   "note": ""
  },
  {
   "property": "C68",
   "status": "proved",
   "theorems": [
    "Verif.C68_timestep",
    "Verif.C68_trajectory"
   ],
   "note": ""
  },
  {
   "property": "C69",
   "status": "proved",
   "theorems": [
    "Verif.C69_lattice",
    "Verif.C69_phonons",
    "Verif.C69_complete"
   ],
   "note": ""
  },
  {
   "property": "C70",
   "status": "proved",
   "theorems": [
    "Verif.C70_positions",
    "Verif.C70_truncated",
    "Verif.C70_complete",
    "Verif.C70_two_columns",
    "Verif.C70_polarizability"
   ],
   "note": ""
  },
  {
   "property": "C71",
   "status": "proved",
   "theorems": [
    "Verif.C71_formula",
    "Verif.C71_sign_lost",
    "Verif.C71_modulus",
    "Verif.C71_read"
   ],
   "note": ""
  },
  {
   "property": "C72",
   "status": "proved",
   "theorems": [
    "Verif.C72_positions",
    "Verif.C72_no_positions",
    "Verif.C72_trajectory"
   ],
   "note": ""
  },
  {
   "property": "C73",
   "status": "proved",
   "theorems": [
    "Verif.C73_phonons",
    "Verif.C73_trajectory",
    "Verif.C73_positions_and_polarizability",
    "Verif.C73_structure_and_polarizability",
    "Verif.C73_positions",
    "Verif.C73_ref_structure",
    "Verif.C73_dataset",
    "Verif.C73_outcar_exact",
    "Verif.C73_misreported",
    "Verif.C73_poscar_reference",
    "Verif.C73_outcar_phonons",
    "Verif.C73_missing_file",
    "Verif.C73_write_structure",
    "Verif.C73_write_trajectory",
    "Verif.C73_outcar_reference",
    "Verif.C73_vasprun_reference"
   ],
   "note": ""
  },
  {
   "property": "C74",
   "status": "proved",
   "theorems": [
    "Verif.C74_components",
    "Verif.C74_vector_roundtrip",
    "Verif.C74_tensor_roundtrip",
    "Verif.C74_symmetric"
   ],
   "note": ""
  },
  {
   "property": "C75",
   "status": "proved",
   "theorems": [
    "Verif.C75_scaled",
    "Verif.C75_constant",
    "Verif.C75_modes"
   ],
   "note": ""
  },
  {
   "property": "C76",
   "status": "proved",
   "theorems": [
    "Verif.C76_own_scale",
    "Verif.C76_unscale",
    "Verif.C76_predictions"
   ],
   "note": ""
  },
  {
   "property": "C77",
   "status": "proved",
   "theorems": [
    "Verif.C77_failures",
    "Verif.C77_accepts",
    "Verif.C77_preconditions",
    "Verif.C77_errors",
    "Verif.C77_drift",
    "Verif.C77_sample",
    "Verif.C77_sample_iff",
    "Verif.C77_outcar_files",
    "Verif.C77_vasprun_files"
   ],
   "note": ""
  },
  {
   "property": "C78",
   "status": "proved",
   "theorems": [
    "Verif.C78_rotation",
    "Verif.C78_zero"
   ],
   "note": ""
  },
  {
   "property": "C79",
   "status": "proved",
   "theorems": [
    "Verif.C79_axial",
    "Verif.C79_reversed"
   ],
   "note": ""
  },
  {
   "property": "C80",
   "status": "proved",
   "theorems": [
    "Verif.C80_cache_transparent"
   ],
   "note": ""
  },
  {
   "property": "C81",
   "status": "proved",
   "theorems": [
    "Verif.C81_batches",
    "Verif.C81_other_sizes"
   ],
   "note": ""
  },
  {
   "property": "C82",
   "status": "proved",
   "theorems": [
    "Verif.C82_edges",
    "Verif.C82_sorted",
    "Verif.C82_symmetric",
    "Verif.C82_asymmetric"
   ],
   "note": ""
  },
  {
   "property": "C83",
   "status": "proved",
   "theorems": [
    "Verif.C83_batch_graph",
    "Verif.C83_radius_graph",
    "Verif.C83_triplets"
   ],
   "note": ""
  },
  {
   "property": "C84",
   "status": "partial",
   "theorems": [
    "Verif.C84_partial",
    "Verif.C84_nan_spreads",
    "Verif.C84_unknown_element",
    "Verif.C84_counterexample"
   ],
   "note": "Proved for batches without coinciding bonded atoms. C84_nan_spreads and C84_counterexample prove that the unrestricted claim is false: one degenerate sample makes all predictions of its batch NaN."
  },
  {
   "property": "C85",
   "status": "proved",
   "theorems": [
    "Verif.C85_samplewise"
   ],
   "note": "For configurations without coinciding bonded atoms (a degenerate one makes its sub-batch NaN, C84_nan_spreads)."
  },
  {
   "property": "C86",
   "status": "proved",
   "theorems": [
    "Verif.C86_translation"
   ],
   "note": ""
  },
  {
   "property": "C87",
   "status": "proved",
   "theorems": [
    "Verif.C87_atom_types",
    "Verif.C87_heavy"
   ],
   "note": ""
  },
  {
   "property": "C88",
   "status": "proved",
   "theorems": [
    "Verif.C88_epoch",
    "Verif.C88_refused"
   ],
   "note": ""
  },
  {
   "property": "C89",
   "status": "proved",
   "theorems": [
    "Verif.C89_accepts",
    "Verif.C89_rejects"
   ],
   "note": ""
  },
  {
   "property": "C90",
   "status": "proved",
   "theorems": [
    "Verif.C90_tables_inverse",
    "Verif.C90_atomic_numbers_range",
    "Verif.C90_weights",
    "Verif.C90_periodic_table",
    "Verif.C90_masses"
   ],
   "note": ""
  },
  {
   "property": "C91",
   "status": "proved",
   "theorems": [
    "Verif.Alias.C91_copies",
    "Verif.Alias.C91_md_leak",
    "Verif.Alias.C91_measure_leak",
    "Verif.Alias.C91_getitem_leak",
    "Verif.Alias.C91_constructors",
    "Verif.Alias.C91_mask_setter"
   ],
   "note": ""
  },
  {
   "property": "C92",
   "status": "proved",
   "theorems": [
    "Verif.C92_rank3",
    "Verif.C92_rank3_rejects",
    "Verif.C92_other_ranks"
   ],
   "note": ""
  },
  {
   "property": "C93",
   "status": "proved",
   "theorems": [
    "Verif.C93_cartesian"
   ],
   "note": ""
  },
  {
   "property": "C94",
   "status": "proved",
   "theorems": [
    "Verif.C94_terminates",
    "Verif.C94_silent_stop"
   ],
   "note": ""
  },
  {
   "property": "C95",
   "status": "proved",
   "theorems": [
    "Verif.C95_structures",
    "Verif.C95_trajectory",
    "Verif.C95_phonons",
    "Verif.C95_value_error"
   ],
   "note": ""
  },
  {
   "property": "C96",
   "status": "proved",
   "theorems": [
    "Verif.C96_phonons"
   ],
   "note": ""
  },
  {
   "property": "C97",
   "status": "proved",
   "theorems": [
    "Verif.C97_structures",
    "Verif.C97_trajectory",
    "Verif.C97_phonons",
    "Verif.C97_other_errors"
   ],
   "note": ""
  },
  {
   "property": "C98",
   "status": "proved",
   "theorems": [
    "Verif.C98_accepts",
    "Verif.C98_errors",
    "Verif.C98_ready"
   ],
   "note": ""
  },
  {
   "property": "C99",
   "status": "proved",
   "theorems": [
    "Verif.C99_validation_loss",
    "Verif.C99_variance_nan",
    "Verif.C99_variance",
    "Verif.C99_loss_counterexample"
   ],
   "note": ""
  },
  {
   "property": "C100",
   "status": "proved",
   "theorems": [
    "Verif.C100_same_as_files",
    "Verif.C100_count"
   ],
   "note": ""
  },
  {
   "property": "C101",
   "status": "partial",
   "theorems": [
    "Verif.C101_same_as_files_partial",
    "Verif.C101_surplus_polarizabilities",
    "Verif.C101_surplus_structures",
    "Verif.C101_counterexample"
   ],
   "note": "Equality with the file entry point is proved for equal numbers of structures and polarizabilities and non-dummy models. The refusal of unequal numbers is false of the code: C101_surplus_polarizabilities, C101_surplus_structures and C101_counterexample."
  },
  {
   "property": "C102",
   "status": "proved",
   "theorems": [
    "Verif.C102_accepts",
    "Verif.C102_contents",
    "Verif.C102_no_drift",
    "Verif.C102_refusals",
    "Verif.C102_type_error"
   ],
   "note": ""
  },
  {
   "property": "C103",
   "status": "proved",
   "theorems": [
    "Verif.C103_contents",
    "Verif.C103_accepts",
    "Verif.C103_refusals"
   ],
   "note": ""
  },
  {
   "property": "C104",
   "status": "partial",
   "theorems": [
    "Verif.C104_positions_partial",
    "Verif.C104_type_error",
    "Verif.C104_counterexample"
   ],
   "note": "Proved for trajectories stored as positions; false for those stored as displacements (C104_counterexample)."
  },
  {
   "property": "C105",
   "status": "partial",
   "theorems": [
    "Verif.C105_species_ignored",
    "Verif.C105_single_atom",
    "Verif.C105_wrong_size_partial",
    "Verif.C105_counterexample"
   ],
   "note": "Refusal is proved for other objects and for numbers of atoms other than 1 and N (N not 1); C105_species_ignored, C105_single_atom and C105_counterexample show that other mismatches are accepted."
  },
  {
   "property": "C106",
   "status": "proved",
   "theorems": [
    "Verif.C106_specification_tuples",
    "Verif.C106_key_error"
   ],
   "note": ""
  },
  {
   "property": "C107",
   "status": "partial",
   "theorems": [
    "Verif.C107_at_most_3N_partial",
    "Verif.C107_complete_refuses",
    "Verif.C107_counterexample"
   ],
   "note": "The refusal is proved for every complete model with pairwise orthogonal basis. The bound 3N is proved for cubic cells with a basis closed under the symmetry operations (and at most 33300 atoms, because orthogonality is only tested up to 1e-5); C107_counterexample shows that it is false in general."
  },
  {
   "property": "C108",
   "status": "proved",
   "theorems": [
    "Verif.C108_grid"
   ],
   "note": ""
  },
  {
   "property": "C109",
   "status": "proved",
   "theorems": [
    "Verif.C109_construction",
    "Verif.C109_complementary",
    "Verif.C109_fully_masked"
   ],
   "note": ""
  },
  {
   "property": "C110",
   "status": "proved",
   "theorems": [
    "Verif.C110_statistics",
    "Verif.C110_samples",
    "Verif.C110_rescaled",
    "Verif.C110_own_statistics"
   ],
   "note": ""
  },
  {
   "property": "C111",
   "status": "proved",
   "theorems": [
    "Verif.C111_text",
    "Verif.C111_determines",
    "Verif.C111_art",
    "Verif.C111_key_error"
   ],
   "note": ""
  },
  {
   "property": "C112",
   "status": "proved",
   "theorems": [
    "Verif.C112_read_back",
    "Verif.C112_zero_refused",
    "Verif.C112_end_to_end"
   ],
   "note": "Texts of files are covered by C60-C66; here a file is what its reader yields. The spline routine is any one that interpolates."
  },
  {
   "property": "C113",
   "status": "proved",
   "theorems": [
    "Verif.C113_lines",
    "Verif.C113_words",
    "Verif.C113_float",
    "Verif.C113_int"
   ],
   "note": "ASCII digits only: Python also accepts other Unicode digits in literals."
  },
  {
   "property": "C114",
   "status": "proved",
   "theorems": [
    "Verif.C114_poscar"
   ],
   "note": "Structures whose lattice contains inf or nan are not covered. Numbers are exact rationals; Python rounds literals to the nearest double."
  },
  {
   "property": "C115",
   "status": "proved",
   "theorems": [
    "Verif.C115_positions"
   ],
   "note": ""
  },
  {
   "property": "C116",
   "status": "proved",
   "theorems": [
    "Verif.C116_reads",
    "Verif.C116_only"
   ],
   "note": ""
  },
  {
   "property": "C117",
   "status": "proved",
   "theorems": [
    "Verif.C117_not_collinear",
    "Verif.C117_files",
    "Verif.C117_unusable"
   ],
   "note": ""
  },
  {
   "property": "C118",
   "status": "proved",
   "theorems": [
    "Verif.C118_tensor",
    "Verif.C118_quadratic",
    "Verif.C118_even",
    "Verif.C118_straight_line"
   ],
   "note": ""
  },
  {
   "property": "C119",
   "status": "proved",
   "theorems": [
    "Verif.C119_reference_value",
    "Verif.C119_add_dof",
    "Verif.C119_single_art",
    "Verif.C119_art_reference",
    "Verif.C119_not_reference",
    "Verif.C119_iff"
   ],
   "note": ""
  },
  {
   "property": "C120",
   "status": "proved",
   "theorems": [
    "Verif.C120_criterion",
    "Verif.C120_add_dof",
    "Verif.C120_equivariant",
    "Verif.C120_not_equivariant"
   ],
   "note": ""
  },
  {
   "property": "C121",
   "status": "proved",
   "theorems": [
    "Verif.C121_pointwise",
    "Verif.C121_errors",
    "Verif.C121_constant",
    "Verif.C121_time_reversal",
    "Verif.C121_images"
   ],
   "note": ""
  },
  {
   "property": "C122",
   "status": "proved",
   "theorems": [
    "Verif.C122_single_atom",
    "Verif.C122_end_to_end",
    "Verif.C122_refused"
   ],
   "note": ""
  },
  {
   "property": "C123",
   "status": "proved",
   "theorems": [
    "Verif.C123_zero_displacement"
   ],
   "note": ""
  },
  {
   "property": "C124",
   "status": "partial",
   "theorems": [
    "Verif.C124_orthogonal_iff",
    "Verif.C124_symmetric",
    "Verif.C124_images_partial",
    "Verif.C124_unmatched",
    "Verif.C124_screw_counterexample",
    "Verif.C124_hexagonal_counterexample"
   ],
   "note": "False of the code in general, because it applies the rotations to rows: C124_screw_counterexample (cubic cell with a 4_1 axis) and C124_hexagonal_counterexample. C124_orthogonal_iff says exactly which operations with orthogonal rotation matrix are applied correctly; C124_images_partial proves the claim when all operations are."
  },
  {
   "property": "C125",
   "status": "proved",
   "theorems": [
    "Verif.C125_linear",
    "Verif.C125_layer_norm",
    "Verif.C125_standardised",
    "Verif.C125_gate",
    "Verif.C125_softplus",
    "Verif.C125_batch_norm",
    "Verif.C125_filter",
    "Verif.C125_index"
   ],
   "note": ""
  },
  {
   "property": "C126",
   "status": "proved",
   "theorems": [
    "Verif.C126_formula",
    "Verif.C126_applies"
   ],
   "note": "Over the reals; dimenet's triplet lists are those the network holds (any valid lists)."
  },
  {
   "property": "C127",
   "status": "partial",
   "theorems": [
    "Verif.C127_numbering",
    "Verif.C127_constructor_partial",
    "Verif.C127_set_order_counterexample",
    "Verif.C127_types",
    "Verif.C127_table"
   ],
   "note": "C127_numbering (graph and triplets) needs no assumption about sets. For the constructor: same constants if the traversal order of a set depends on its elements only (C127_constructor_partial); without that, same predictions after moving the rows of the embedding table (C127_types, C127_table). The unrestricted claim is false: C127_set_order_counterexample (finding 67). torch_geometric's triplets enters by its contract (every path of two edges once)."
  },
  {
   "property": "C128",
   "status": "proved",
   "theorems": [
    "Verif.C128_features",
    "Verif.C128_predictions"
   ],
   "note": ""
  },
  {
   "property": "C129",
   "status": "partial",
   "theorems": [
    "Verif.C129_mirror",
    "Verif.C129_partial",
    "Verif.C129_counterexample"
   ],
   "note": "False of the code for general weights: C129_counterexample. C129_partial proves it for all orthogonal matrices when the weights of the six components coincide, C129_mirror for all weights and products of reflections in the coordinate planes."
  },
  {
   "property": "C130",
   "status": "proved",
   "theorems": [
    "Verif.C130_difference",
    "Verif.C130_accuracy",
    "Verif.C130_sharp"
   ],
   "note": ""
  },
  {
   "property": "C131",
   "status": "proved",
   "theorems": [
    "Verif.C131_iteration",
    "Verif.C131_membership"
   ],
   "note": ""
  },
  {
   "property": "C132",
   "status": "proved",
   "theorems": [
    "Verif.C132_layer",
    "Verif.C132_single",
    "Verif.C132_formula",
    "Verif.C132_no_edges",
    "Verif.C132_single_edge",
    "Verif.C132_not_single",
    "Verif.C132_batch_dependence",
    "Verif.C132_running",
    "Verif.C132_epoch"
   ],
   "note": ""
  },
  {
   "property": "C133",
   "status": "proved",
   "theorems": [
    "Verif.C133_accuracy",
    "Verif.C133_roundtrip"
   ],
   "note": ""
  },
  {
   "property": "C134",
   "status": "proved",
   "theorems": [
    "Verif.C134_structure_and_polarizability",
    "Verif.C134_reference",
    "Verif.C134_positions_and_polarizability",
    "Verif.C134_positions",
    "Verif.C134_lines"
   ],
   "note": ""
  },
  {
   "property": "C135",
   "status": "proved",
   "theorems": [
    "Verif.C135_structure_and_polarizability",
    "Verif.C135_reference",
    "Verif.C135_positions_and_polarizability"
   ],
   "note": ""
  },
  {
   "property": "C136",
   "status": "proved",
   "theorems": [
    "Verif.C136_trajectory",
    "Verif.C136_parts"
   ],
   "note": ""
  },
  {
   "property": "C137",
   "status": "proved",
   "theorems": [
    "Verif.C137_phonons",
    "Verif.C137_parts"
   ],
   "note": ""
  },
  {
   "property": "C138",
   "status": "proved",
   "theorems": [
    "Verif.C138_phonons"
   ],
   "note": ""
  },
  {
   "property": "C139",
   "status": "proved",
   "theorems": [
    "Verif.C139_structure",
    "Verif.C139_trajectory",
    "Verif.C139_stable"
   ],
   "note": ""
  },
  {
   "property": "C140",
   "status": "proved",
   "theorems": [
    "Verif.C140_parallel",
    "Verif.C140_perpendicular",
    "Verif.C140_phonon",
    "Verif.C140_md"
   ],
   "note": ""
  },
  {
   "property": "C141",
   "status": "proved",
   "theorems": [
    "Verif.C141_vibrations",
    "Verif.C141_peaks",
    "Verif.C141_sum_rule",
    "Verif.C141_background"
   ],
   "note": ""
  },
  {
   "property": "C142",
   "status": "partial",
   "theorems": [
    "Verif.C142_reference",
    "Verif.C142_predictions",
    "Verif.C142_geometry",
    "Verif.C142_add_dof_partial",
    "Verif.C142_files_partial",
    "Verif.C142_art_partial",
    "Verif.C142_art_files_partial",
    "Verif.C142_triclinic",
    "Verif.C142_phonons",
    "Verif.C142_trajectories",
    "Verif.C142_counterexample"
   ],
   "note": "Predictions, spectra and the geometric part are proved without restriction. Adding degrees of freedom is proved for symmetry operations whose (fractional) matrices commute with the rotation, which covers all rotations for crystals with at most an inversion centre (C142_triclinic); C142_counterexample shows that it is false in general. The spline routine is any one that turns with its ordinates."
  },
  {
   "property": "C143",
   "status": "partial",
   "theorems": [
    "Verif.C143_symmetry",
    "Verif.C143_reference",
    "Verif.C143_equivalent_displacements_partial",
    "Verif.C143_predictions",
    "Verif.C143_add_dof_partial",
    "Verif.C143_files_partial",
    "Verif.C143_art_partial",
    "Verif.C143_art_files_partial",
    "Verif.C143_workflow_partial",
    "Verif.C143_phonons",
    "Verif.C143_trajectories",
    "Verif.C143_columns",
    "Verif.C143_counterexample"
   ],
   "note": "Proved without restriction for predictions and spectra, and for building models when the translations of the operations change as the code applies them (rows), for structures with separated atoms whose operations are symmetries in that sense. C143_columns: spglib's operations change in this way exactly when R v and v R agree up to lattice translations, in particular for symmetric rotation matrices; C143_counterexample shows that otherwise the claim is false."
  },
  {
   "property": "C144",
   "status": "proved",
   "theorems": [
    "Verif.C144_order",
    "Verif.C144_reachable",
    "Verif.C144_counterexample"
   ],
   "note": "For calls that run through in both orders; C144_counterexample shows that this condition is needed. Dummy models must hold no interpolations, which C144_reachable proves for every model built by such calls."
  },
  {
   "property": "C145",
   "status": "partial",
   "theorems": [
    "Verif.C145_reference",
    "Verif.C145_predictions",
    "Verif.C145_equivalent_displacements",
    "Verif.C145_add_dof_partial",
    "Verif.C145_files_partial",
    "Verif.C145_art",
    "Verif.C145_workflow_partial",
    "Verif.C145_phonons",
    "Verif.C145_trajectories",
    "Verif.C145_counterexample",
    "Verif.C145_art_files_partial",
    "Verif.C145_art_files_single",
    "Verif.C145_tied_atoms"
   ],
   "note": "Proved without restriction for reference structures, equivalent displacements, predictions, spectra and atom-resolved models (add_art). For add_dof and add_dof_from_files proved when images taken for collinear have proportional largest components where atoms tie (always true if they are exactly collinear or one atom is displaced most); C145_counterexample shows that the claim is false otherwise. The symmetry library is assumed to return the same operations in the same order. add_art_from_files is proved without restriction for files that displace one atom, otherwise under the same condition for files whose atoms that move furthest do not tie below sqrt(3)*1e-6 (C145_tied_atoms)."
  },
  {
   "property": "C146",
   "status": "proved",
   "theorems": [
    "Verif.C146_tensor",
    "Verif.C146_character",
    "Verif.C146_axes",
    "Verif.C146_mutual_exclusion",
    "Verif.C146_acoustic",
    "Verif.C146_equal_intensities",
    "Verif.C146_silent",
    "Verif.C146_add_dof"
   ],
   "note": ""
  },
  {
   "property": "C147",
   "status": "partial",
   "theorems": [
    "Verif.C147_invariant_partial",
    "Verif.C147_invariant_iff",
    "Verif.C147_acoustic",
    "Verif.C147_counterexample"
   ],
   "note": "Proved for models whose degrees of freedom have zero net displacement, and exactly for these if interpolations are arbitrary (C147_invariant_iff), with the exact Raman tensor of a rigid translation otherwise (degree at most two). False in general: C147_counterexample."
  },
  {
   "property": "C148",
   "status": "partial",
   "theorems": [
    "Verif.C148_mixing",
    "Verif.C148_quadratic_partial",
    "Verif.C148_counterexample"
   ],
   "note": "Proved for every model whose Raman tensors are linear in the vibration, in particular interpolations of degree at most two. False otherwise: C148_counterexample (cubic response)."
  },
  {
   "property": "C149",
   "status": "proved",
   "theorems": [
    "Verif.C149_nonneg",
    "Verif.C149_convolve",
    "Verif.C149_accuracy",
    "Verif.C149_exact",
    "Verif.C149_convolve_exact",
    "Verif.C149_infinite"
   ],
   "note": ""
  },
  {
   "property": "C150",
   "status": "partial",
   "theorems": [
    "Verif.C150_lipschitz",
    "Verif.C150_continuous_partial",
    "Verif.C150_continuous_iff",
    "Verif.C150_counterexample"
   ],
   "note": "Proved at every configuration without coordinates half a cell away from the reference; C150_lipschitz has no such restriction but measures distances of displacements. C150_continuous_iff says exactly at which configurations predictions are continuous; C150_counterexample is a configuration at which they are not."
  },
  {
   "property": "C151",
   "status": "partial",
   "theorems": [
    "Verif.C151_add_dof",
    "Verif.C151_partial",
    "Verif.C151_counterexample",
    "Verif.C151_call",
    "Verif.C151_any_script_partial",
    "Verif.C151_any_accepted_iff",
    "Verif.C151_success",
    "Verif.C151_scripts_partial",
    "Verif.C151_accepted_iff"
   ],
   "note": "Proved with images pairwise equal, opposite or orthogonal, consistent data, rotations orthogonal in fractional coordinates and at most 10^8 atoms: an add_dof script is accepted for all orders or for none, with the same warnings and predictions; for scripts of all six entry points the operations are in addition required to form a group. False without clean images: C151_counterexample."
  },
  {
   "property": "C152",
   "status": "proved",
   "theorems": [
    "Verif.C152_string",
    "Verif.C152_scalar",
    "Verif.C152_injective",
    "Verif.C152_message",
    "Verif.C152_readable",
    "Verif.C152_tensor",
    "Verif.C152_list"
   ],
   "note": ""
  },
  {
   "property": "C153",
   "status": "proved",
   "theorems": [
    "Verif.C153_timestep",
    "Verif.C153_negative",
    "Verif.C153_zero",
    "Verif.C153_modes",
    "Verif.C153_convolved"
   ],
   "note": ""
  },
  {
   "property": "C154",
   "status": "partial",
   "theorems": [
    "Verif.C154_cells_partial",
    "Verif.C154_small",
    "Verif.C154_axes",
    "Verif.C154_raman",
    "Verif.C154_counterexample",
    "Verif.C154_axes_iff"
   ],
   "note": "Proved for displacements in the half box of both cells (C154_small, C154_axes, C154_raman as special cases). C154_axes_iff: only changes that rename and reverse axes are harmless for all displacements below half a cell. False beyond: C154_counterexample. Concerns predictions of given models; models built in different cells differ further (findings 2 and 46)."
  },
  {
   "property": "C155",
   "status": "proved",
   "theorems": [
    "Verif.C155_accuracy",
    "Verif.C155_raman",
    "Verif.C155_exact",
    "Verif.C155_counterexample",
    "Verif.C155_linear"
   ],
   "note": ""
  },
  {
   "property": "C156",
   "status": "proved",
   "theorems": [
    "Verif.C156_smooth",
    "Verif.C156_predictions",
    "Verif.C156_raman",
    "Verif.C156_counterexample"
   ],
   "note": ""
  },
  {
   "property": "C157",
   "status": "proved",
   "theorems": [
    "Verif.C157_prefix",
    "Verif.C157_crash",
    "Verif.C157_crash_generic",
    "Verif.C157_silent"
   ],
   "note": ""
  },
  {
   "property": "C158",
   "status": "proved",
   "theorems": [
    "Verif.C158_denotes",
    "Verif.C158_poscar",
    "Verif.C158_xdatcar",
    "Verif.C158_injective"
   ],
   "note": ""
  },
  {
   "property": "C159",
   "status": "proved",
   "theorems": [
    "Verif.C159_paths",
    "Verif.C159_exchanged",
    "Verif.C159_update",
    "Verif.C159_numbering"
   ],
   "note": ""
  },
  {
   "property": "C160",
   "status": "proved",
   "theorems": [
    "Verif.C160_prefix",
    "Verif.C160_crash",
    "Verif.C160_silent",
    "Verif.C160_trajectory"
   ],
   "note": ""
  },
  {
   "property": "C161",
   "status": "proved",
   "theorems": [
    "Verif.C161_new",
    "Verif.C161_rescaled",
    "Verif.C161_double",
    "Verif.C161_own_statistics",
    "Verif.C161_unchanged_iff",
    "Verif.C161_exact",
    "Verif.C161_changed",
    "Verif.C161_wider",
    "Verif.C161_values"
   ],
   "note": "For every idempotent rounding. The witness C161_changed uses a coarse artificial rounding, not IEEE arithmetic."
  },
  {
   "property": "C162",
   "status": "proved",
   "theorems": [
    "Verif.C162_displaced",
    "Verif.C162_ast"
   ],
   "note": ""
  },
  {
   "property": "C163",
   "status": "proved",
   "theorems": [
    "Verif.C163_displaced",
    "Verif.C163_ast",
    "Verif.C163_structure",
    "Verif.C163_trajectory",
    "Verif.C163_refused",
    "Verif.C163_refused_file"
   ],
   "note": ""
  },
  {
   "property": "C164",
   "status": "proved",
   "theorems": [
    "Verif.C164_one_row_per_atom",
    "Verif.C164_other_sizes",
    "Verif.C164_single_row_later",
    "Verif.C164_single_row_first",
    "Verif.C164_single_row_accepted"
   ],
   "note": ""
  },
  {
   "property": "C165",
   "status": "proved",
   "theorems": [
    "Verif.C165_one_row_per_atom",
    "Verif.C165_other_sizes",
    "Verif.C165_single_row",
    "Verif.C165_single_atom",
    "Verif.C165_three_components",
    "Verif.C165_one_component",
    "Verif.C165_other_components"
   ],
   "note": ""
  },
  {
   "property": "C166",
   "status": "proved",
   "theorems": [
    "Verif.C166_state",
    "Verif.C166_translation",
    "Verif.C166_drift",
    "Verif.C166_exception",
    "Verif.C166_unknown",
    "Verif.C166_acoustic",
    "Verif.C166_acoustic_exists",
    "Verif.C166_bounded",
    "Verif.C166_raman_bounded",
    "Verif.C166_numbering"
   ],
   "note": "PotGNN.asModel reports NaN predictions (coinciding bonded atoms) as an error of their own; the boundedness results need at least one message-passing round."
  },
  {
   "property": "C167",
   "status": "proved",
   "theorems": [
    "Verif.C167_files",
    "Verif.C167_not_collinear",
    "Verif.C167_art",
    "Verif.C167_single_atom",
    "Verif.C167_single_column",
    "Verif.C167_refused",
    "Verif.C167_unusable",
    "Verif.C167_nan"
   ],
   "note": ""
  },
  {
   "property": "C168",
   "status": "proved",
   "theorems": [
    "Verif.C168_call",
    "Verif.C168_script",
    "Verif.C168_equivariant",
    "Verif.C168_tensor",
    "Verif.C168_silent"
   ],
   "note": ""
  },
  {
   "property": "C169",
   "status": "proved",
   "theorems": [
    "Verif.C169_shape_ok",
    "Verif.C169_not_array",
    "Verif.C169_type_word",
    "Verif.C169_list_length",
    "Verif.C169_wrong_shape",
    "Verif.C169_success",
    "Verif.C169_phonons",
    "Verif.C169_phonon_spectrum",
    "Verif.C169_reference",
    "Verif.C169_dataset",
    "Verif.C169_md_spectrum",
    "Verif.C169_mask",
    "Verif.C169_interpolation",
    "Verif.C169_dummy",
    "Verif.C169_scale",
    "Verif.C169_scale_misnamed",
    "Verif.C169_scale_counterexample",
    "Verif.C169_trajectory",
    "Verif.C169_text_timestep",
    "Verif.C169_nan_timestep",
    "Verif.C169_positive",
    "Verif.C169_several",
    "Verif.C169_convolve",
    "Verif.C169_structure",
    "Verif.C169_trajectory_file",
    "Verif.C169_unhashable",
    "Verif.C169_outside",
    "Verif.C169_no_element",
    "Verif.C169_paths",
    "Verif.C169_paths_errors",
    "Verif.C169_text_timestep_all",
    "Verif.C169_text_unique"
   ],
   "note": ""
  },
  {
   "property": "C170",
   "status": "proved",
   "theorems": [
    "Verif.C170_call",
    "Verif.C170_scripts",
    "Verif.C170_dry_run",
    "Verif.C170_queries",
    "Verif.C170_files",
    "Verif.C170_incomplete"
   ],
   "note": "spline routine whose success depends only on order and abscissae"
  },
  {
   "property": "C171",
   "status": "proved",
   "theorems": [
    "Verif.C171_regular",
    "Verif.C171_never_wrong",
    "Verif.C171_blamed",
    "Verif.C171_trajectory",
    "Verif.C171_first_read",
    "Verif.C171_rows",
    "Verif.C171_search",
    "Verif.C171_xdatcar",
    "Verif.C171_poscar_cut",
    "Verif.C171_polarizability",
    "Verif.C171_step",
    "Verif.C171_other_searches",
    "Verif.C171_potcar",
    "Verif.C171_eigenvector"
   ],
   "note": ""
  },
  {
   "property": "C172",
   "status": "proved",
   "theorems": [
    "Verif.C172_convolve_floats",
    "Verif.C172_convolve_same",
    "Verif.C172_convolve_integers",
    "Verif.C172_displaced",
    "Verif.C172_floats",
    "Verif.C172_add_art"
   ],
   "note": ""
  },
  {
   "property": "C173",
   "status": "proved",
   "theorems": [
    "Verif.C173_weights",
    "Verif.C173_zero_one",
    "Verif.C173_affine",
    "Verif.C173_unmentioned",
    "Verif.C173_mentions",
    "Verif.C173_dummy"
   ],
   "note": ""
  },
  {
   "property": "C174",
   "status": "proved",
   "theorems": [
    "Verif.C174_height",
    "Verif.C174_falls",
    "Verif.C174_half_maximum",
    "Verif.C174_ratio",
    "Verif.C174_variance",
    "Verif.C174_sharp"
   ],
   "note": ""
  },
  {
   "property": "C175",
   "status": "proved",
   "theorems": [
    "Verif.C175_bounds",
    "Verif.C175_limits",
    "Verif.C175_detailed_balance",
    "Verif.C175_spectrum",
    "Verif.C175_laser"
   ],
   "note": ""
  },
  {
   "property": "C176",
   "status": "proved",
   "theorems": [
    "Verif.C176_signal",
    "Verif.C176_trajectory",
    "Verif.C176_bound"
   ],
   "note": ""
  },
  {
   "property": "C177",
   "status": "proved",
   "theorems": [
    "Verif.C177_finite",
    "Verif.C177_refused",
    "Verif.C177_value_error",
    "Verif.C177_dummy",
    "Verif.C177_duplicates",
    "Verif.C177_warnings",
    "Verif.C177_order",
    "Verif.C177_art_count",
    "Verif.C177_files"
   ],
   "note": ""
  },
  {
   "property": "C178",
   "status": "proved",
   "theorems": [
    "Verif.C178_trajectory",
    "Verif.C178_trajectory_finite",
    "Verif.C178_phonons",
    "Verif.C178_predictions",
    "Verif.C178_collision",
    "Verif.C178_vibration",
    "Verif.C178_finite_model",
    "Verif.C178_correlates"
   ],
   "note": ""
  },
  {
   "property": "C179",
   "status": "proved",
   "theorems": [
    "Verif.C179_stretched",
    "Verif.C179_art_refused",
    "Verif.C179_dof",
    "Verif.C179_accepted"
   ],
   "note": ""
  },
  {
   "property": "C180",
   "status": "proved",
   "theorems": [
    "Verif.C180_cut",
    "Verif.C180_lines",
    "Verif.C180_moved"
   ],
   "note": ""
  },
  {
   "property": "C181",
   "status": "proved",
   "theorems": [
    "Verif.C181_phonons",
    "Verif.C181_phonons_lines",
    "Verif.C181_polarizability",
    "Verif.C181_structure",
    "Verif.C181_positions",
    "Verif.C181_reference",
    "Verif.C181_wrong_tensor",
    "Verif.C181_wrong_phonon"
   ],
   "note": ""
  },
  {
   "property": "C182",
   "status": "proved",
   "theorems": [
    "Verif.C182_phonons",
    "Verif.C182_polarizability",
    "Verif.C182_structure",
    "Verif.C182_positions",
    "Verif.C182_reference",
    "Verif.C182_columns_needed"
   ],
   "note": ""
  },
  {
   "property": "C183",
   "status": "proved",
   "theorems": [
    "Verif.C183_poscar",
    "Verif.C183_poscar_lines",
    "Verif.C183_xdatcar",
    "Verif.C183_xdatcar_lines",
    "Verif.C183_positions",
    "Verif.C183_trajectory",
    "Verif.C183_message_needed"
   ],
   "note": ""
  },
  {
   "property": "C184",
   "status": "proved",
   "theorems": [
    "Verif.C184_structure",
    "Verif.C184_positions",
    "Verif.C184_blank",
    "Verif.C184_second_header",
    "Verif.C184_trajectory",
    "Verif.C184_lost",
    "Verif.C184_refused"
   ],
   "note": ""
  },
  {
   "property": "C185",
   "status": "proved",
   "theorems": [
    "Verif.C185_dof",
    "Verif.C185_art",
    "Verif.C185_one_atom_each",
    "Verif.C185_collinear",
    "Verif.C185_not_collinear",
    "Verif.C185_art_one_atom_each",
    "Verif.C185_sizes_differ",
    "Verif.C185_pymatgen",
    "Verif.C185_pymatgen_one_atom_each",
    "Verif.C185_art_pymatgen_one_atom_each"
   ],
   "note": ""
  }
 ]
}