{
 "claims": [
  {
   "property": "C01",
   "status": "proved",
   "theorems": [
    "Sidis.Props.c01_inter_contains",
    "Sidis.Props.c01_inter_valid",
    "Sidis.Props.c01_inter_disjoint"
   ],
   "note": "All Bounds over nan/-inf/finite/+inf ends."
  },
  {
   "property": "C02",
   "status": "proved",
   "theorems": [
    "Sidis.Props.c02_union_contains",
    "Sidis.Props.c02_union_least",
    "Sidis.Props.c02_union_invalid"
   ],
   "note": ""
  },
  {
   "property": "C03",
   "status": "proved",
   "theorems": [
    "Sidis.Props.c03_ordered_or_empty",
    "Sidis.Props.c03_invalid_absorbing",
    "Sidis.Props.c03_ctor"
   ],
   "note": ""
  },
  {
   "property": "C04",
   "status": "proved",
   "theorems": [
    "Sidis.Props.c04_shift",
    "Sidis.Props.c04_scale",
    "Sidis.Props.c04_scale_neg",
    "Sidis.Props.c04_lerp"
   ],
   "note": ""
  },
  {
   "property": "C05",
   "status": "proved",
   "theorems": [
    "Sidis.Props.c05_clamp_range",
    "Sidis.Props.c05_clamp_id",
    "Sidis.Props.c05_clamp_outside",
    "Sidis.Props.c05_clamp_mono"
   ],
   "note": ""
  },
  {
   "property": "C06",
   "status": "proved",
   "theorems": [
    "Sidis.Props.c06_prodDiv_exact",
    "Sidis.Props.c06_witness"
   ],
   "note": ""
  },
  {
   "property": "C07",
   "status": "proved",
   "theorems": [
    "Sidis.Props.c07_prodDiv_defined",
    "Sidis.Props.c07_zero_undefined",
    "Sidis.Props.c07_minus_one_undefined",
    "Sidis.Props.c07_overflow_int",
    "Sidis.Props.c07_wrong_unsigned"
   ],
   "note": "Defined on the progress-bar domain; witnesses show where it is undefined or wrong."
  },
  {
   "property": "C08",
   "status": "proved",
   "theorems": [
    "Sidis.Props.c08_percent",
    "Sidis.Props.c08_terminates"
   ],
   "note": ""
  },
  {
   "property": "C09",
   "status": "proved",
   "theorems": [
    "Sidis.Props.c09_norm",
    "Sidis.Props.c09_unit",
    "Sidis.Props.c09_unit_zero",
    "Sidis.Props.c09_par_perp",
    "Sidis.Props.c09_par_perp_zero",
    "Sidis.Props.c09_cross",
    "Sidis.Props.c09_angle",
    "Sidis.Props.c09_norm4",
    "Sidis.Props.c09_unit4",
    "Sidis.Props.c09_par_perp4",
    "Sidis.Props.c09_from_r",
    "Sidis.Props.c09_from_t"
   ],
   "note": ""
  },
  {
   "property": "C10",
   "status": "proved",
   "theorems": [
    "Sidis.Props.c10_rotate",
    "Sidis.Props.c10_rotate_angle",
    "Sidis.Props.c10_rotate_add",
    "Sidis.Props.c10_rotate_basis",
    "Sidis.Props.c10_project_scale",
    "Sidis.Props.c10_conj",
    "Sidis.Props.c10_boost",
    "Sidis.Props.c10_boost_add",
    "Sidis.Props.c10_rotate4"
   ],
   "note": ""
  },
  {
   "property": "C11",
   "status": "proved",
   "theorems": [
    "Sidis.Props.c11_transform_to",
    "Sidis.Props.c11_transform_to_none",
    "Sidis.Props.c11_transform_to_future",
    "Sidis.Props.c11_rotate_to"
   ],
   "note": ""
  },
  {
   "property": "C12",
   "status": "proved",
   "theorems": [
    "Sidis.Props.c12_rotate_to_refuted"
   ],
   "note": "The property fails in the code: for every antiparallel pair rotate_to is minus the identity."
  },
  {
   "property": "C13",
   "status": "proved",
   "theorems": [
    "Sidis.Props.c13_transform3",
    "Sidis.Props.c13_transform4"
   ],
   "note": ""
  },
  {
   "property": "C14",
   "status": "proved",
   "theorems": [
    "Sidis.Props.c14_sym_prod_refuted",
    "Sidis.Props.c14_sym_prod4_refuted",
    "Sidis.Props.c14_asym_prod"
   ],
   "note": "The property fails in the code: refuted for every non-parallel pair."
  },
  {
   "property": "C15",
   "status": "proved",
   "theorems": [
    "Sidis.Props.c15_particles",
    "Sidis.Props.c15_special",
    "Sidis.Props.c15_fields",
    "Sidis.Props.c15_tables"
   ],
   "note": ""
  },
  {
   "property": "C16",
   "status": "proved",
   "theorems": [
    "Sidis.Props.c16_inputs",
    "Sidis.Props.c16_conservation",
    "Sidis.Props.c16_on_shell",
    "Sidis.Props.c16_energies",
    "Sidis.Props.c16_invariants",
    "Sidis.Props.c16_phase_space",
    "Sidis.Props.c16_lambda",
    "Sidis.Props.c16_axes",
    "Sidis.Props.c16_C_1",
    "Sidis.Props.c16_vol"
   ],
   "note": ""
  },
  {
   "property": "C17",
   "status": "proved",
   "theorems": [
    "Sidis.Props.c17_photon",
    "Sidis.Props.c17_lambda",
    "Sidis.Props.c17_k_0_bar",
    "Sidis.Props.c17_infrared",
    "Sidis.Props.c17_vol",
    "Sidis.Props.c17_shift",
    "Sidis.Props.c17_shift_lambda",
    "Sidis.Props.c17_shift_hadron",
    "Sidis.Props.c17_shift_phi_h",
    "Sidis.Props.c17_shift_phi_q",
    "Sidis.Props.c17_project_shift"
   ],
   "note": ""
  },
  {
   "property": "C18",
   "status": "proved",
   "theorems": [
    "Sidis.Props.c18_zero_photon"
   ],
   "note": ""
  },
  {
   "property": "C19",
   "status": "proved",
   "theorems": [
    "Sidis.Props.c19_project",
    "Sidis.Props.c19_photon",
    "Sidis.Props.c19_point"
   ],
   "note": ""
  },
  {
   "property": "C20",
   "status": "proved",
   "theorems": [
    "Sidis.Props.c20_phi_q"
   ],
   "note": ""
  },
  {
   "property": "C21",
   "status": "proved",
   "theorems": [
    "Sidis.Props.c21_lepton",
    "Sidis.Props.c21_hadron",
    "Sidis.Props.c21_virt_photon",
    "Sidis.Props.c21_real_photon",
    "Sidis.Props.c21_shift",
    "Sidis.Props.c21_lab"
   ],
   "note": ""
  },
  {
   "property": "C22",
   "status": "proved",
   "theorems": [
    "Sidis.Props.c22_final",
    "Sidis.Props.c22_final_rad",
    "Sidis.Props.c22_initial"
   ],
   "note": ""
  },
  {
   "property": "C23",
   "status": "proved",
   "theorems": [
    "Sidis.Props.c23_cut",
    "Sidis.Props.c23_cut_rad",
    "Sidis.Props.c23_cuts",
    "Sidis.Props.c23_narrow",
    "Sidis.Props.c23_narrow_rad",
    "Sidis.Props.c23_quantities"
   ],
   "note": ""
  },
  {
   "property": "C24",
   "status": "proved",
   "theorems": [
    "Sidis.Props.c24_limits",
    "Sidis.Props.c24_limits_cut",
    "Sidis.Props.c24_massless_refuted",
    "Sidis.Props.c24_limits_rad",
    "Sidis.Props.c24_limits_rad_cut"
   ],
   "note": "Every accepted point is inside the limits. c24_massless_refuted: for a massless beam the corner x = 0 is lost (0/0)."
  },
  {
   "property": "C25",
   "status": "proved",
   "theorems": [
    "Sidis.Props.c25_take",
    "Sidis.Props.c25_take_rad",
    "Sidis.Props.c25_jacobian",
    "Sidis.Props.c25_jacobian_rad"
   ],
   "note": ""
  },
  {
   "property": "C26",
   "status": "proved",
   "theorems": [
    "Sidis.Props.c26_Q_sq_refuted",
    "Sidis.Props.c26_W_sq_refuted"
   ],
   "note": "The property fails in the code: a half-infinite Q^2 or W^2 cut rejects every point of the sampler."
  },
  {
   "property": "C27",
   "status": "proved",
   "theorems": [
    "Sidis.Props.c27_linear",
    "Sidis.Props.c27_inverse",
    "Sidis.Props.c27_inverse_all",
    "Sidis.Props.c27_log",
    "Sidis.Props.c27_decay",
    "Sidis.Props.c27_sigmoid",
    "Sidis.Props.c27_sigmoid2"
   ],
   "note": ""
  },
  {
   "property": "C28",
   "status": "proved",
   "theorems": [
    "Sidis.Props.c28_jacobian",
    "Sidis.Props.c28_apply_map",
    "Sidis.Props.c28_in_bound",
    "Sidis.Props.c28_invalid"
   ],
   "note": ""
  },
  {
   "property": "C29",
   "status": "proved",
   "theorems": [
    "Sidis.Props.c29_safe",
    "Sidis.Props.c29_outside",
    "Sidis.Props.c29_inside",
    "Sidis.Props.c29_cell",
    "Sidis.Props.c29_nodes",
    "Sidis.Props.c29_last_node_nan"
   ],
   "note": "Safety and NaN outside for exact arithmetic and for every rounding to nearest; node values in exact arithmetic. The last node of each dimension is outside the half-open range and gives NaN."
  },
  {
   "property": "C30",
   "status": "proved",
   "theorems": [
    "Sidis.Props.c30_affine",
    "Sidis.Props.c30_bounds"
   ],
   "note": ""
  },
  {
   "property": "C31",
   "status": "proved",
   "theorems": [
    "Sidis.Props.c31_quadratic",
    "Sidis.Props.c31_edge_refuted"
   ],
   "note": "Exactness in interior cells; c31_edge_refuted: at every non-node point of an edge cell a constant table is not reproduced."
  },
  {
   "property": "C32",
   "status": "proved",
   "theorems": [
    "Sidis.Props.c32_read_grids"
   ],
   "note": "All dimensions, permutations, sizes and data; spacing check in exact arithmetic."
  },
  {
   "property": "C33",
   "status": "proved",
   "theorems": [
    "Sidis.Props.c33_accepted",
    "Sidis.Props.c33_ub_only",
    "Sidis.Props.c33_ub_refuted",
    "Sidis.Props.c33_repeated_refuted"
   ],
   "note": "The property fails in the code: c33_ub_refuted (out-of-bounds read), c33_repeated_refuted (repeated grid accepted). c33_accepted and c33_ub_only say exactly what acceptance means and when the read can happen."
  },
  {
   "property": "C34",
   "status": "proved",
   "theorems": [
    "Sidis.Props.c34_filter_semantics",
    "Sidis.Props.c34_params_filter"
   ],
   "note": ""
  },
  {
   "property": "C35",
   "status": "proved",
   "theorems": [
    "Sidis.Props.c35_check_complete"
   ],
   "note": ""
  },
  {
   "property": "C36",
   "status": "proved",
   "theorems": [
    "Sidis.Props.c36_get",
    "Sidis.Props.c36_set",
    "Sidis.Props.c36_setFrom"
   ],
   "note": ""
  },
  {
   "property": "C37",
   "status": "proved",
   "theorems": [
    "Sidis.Props.c37_check_format",
    "Sidis.Props.c37_check_equivalent"
   ],
   "note": ""
  },
  {
   "property": "C38",
   "status": "proved",
   "theorems": [
    "Sidis.Props.c38_lines_have_one_meaning",
    "Sidis.Props.c38_every_text_is_a_file",
    "Sidis.Props.c38_read_succeeds_iff",
    "Sidis.Props.c38_read_effect",
    "Sidis.Props.c38_line_order",
    "Sidis.Props.c38_read_is_sets"
   ],
   "note": ""
  },
  {
   "property": "C39",
   "status": "proved",
   "theorems": [
    "Sidis.Props.c39_int",
    "Sidis.Props.c39_long",
    "Sidis.Props.c39_version",
    "Sidis.Props.c39_bool",
    "Sidis.Props.c39_string",
    "Sidis.Props.c39_string_empty_refuted",
    "Sidis.Props.c39_enum",
    "Sidis.Props.c39_double",
    "Sidis.Props.c39_vec3",
    "Sidis.Props.c39_bound",
    "Sidis.Props.c39_infinite_bound_refuted",
    "Sidis.Props.c39_double_loss_refuted",
    "Sidis.Props.c39_seed_single",
    "Sidis.Props.c39_two_seeds_refuted",
    "Sidis.Props.c39_seed_any_refuted",
    "Sidis.Props.c39_file_round_trip"
   ],
   "note": "Proved for every type on values that print without loss; the code loses infinite bounds, empty strings, several seeds and doubles with more than six digits (refuted theorems)."
  },
  {
   "property": "C40",
   "status": "proved",
   "theorems": [
    "Sidis.Props.c40_inputs_agree",
    "Sidis.Props.c40_nothing_lost",
    "Sidis.Props.c40_physics_kept",
    "Sidis.Props.c40_num_events",
    "Sidis.Props.c40_files",
    "Sidis.Props.c40_flags",
    "Sidis.Props.c40_version",
    "Sidis.Props.c40_switch",
    "Sidis.Props.c40_enabled",
    "Sidis.Props.c40_unshared_physics_refuted",
    "Sidis.Props.c40_type_lost_refuted",
    "Sidis.Props.c40_disabled_type_refuted"
   ],
   "note": "Everything in the statement for all sets of the standard format; refuted theorems show that sets sharing no event type are not compared, that an event type of the first set can be lost, and that an explicitly disabled type makes the merge fail."
  },
  {
   "property": "C41",
   "status": "proved",
   "theorems": [
    "Sidis.Props.c41_seeds",
    "Sidis.Props.c41_files",
    "Sidis.Props.c41_refuted"
   ],
   "note": "The property fails in the code: c41_files proves which seeds are kept for any number of files, c41_refuted exhibits the duplicate."
  },
  {
   "property": "C42",
   "status": "proved",
   "theorems": [
    "Sidis.Props.c42_can_provide"
   ],
   "note": ""
  },
  {
   "property": "C43",
   "status": "proved",
   "theorems": [
    "Sidis.Props.c43_order",
    "Sidis.Props.c43_assoc",
    "Sidis.Props.c43_comm",
    "Sidis.Props.c43_identity",
    "Sidis.Props.c43_conserved",
    "Sidis.Props.c43_files"
   ],
   "note": "For any statistics library with the assumed laws. Two empty integrators combine to the second one, so commutativity needs one of them to be non-empty."
  },
  {
   "property": "C44",
   "status": "proved",
   "theorems": [
    "Sidis.Props.c44_layout",
    "Sidis.Props.c44_round_trip",
    "Sidis.Props.c44_rejects"
   ],
   "note": "Exact arithmetic; counts below 2^53; the library is assumed to rebuild statistics from their moments."
  },
  {
   "property": "C45",
   "status": "proved",
   "theorems": [
    "Sidis.Props.c45_generate",
    "Sidis.Props.c45_invalid",
    "Sidis.Props.c45_defined",
    "Sidis.Props.c45_choice"
   ],
   "note": ""
  },
  {
   "property": "C46",
   "status": "proved",
   "theorems": [
    "Sidis.Props.c46_off",
    "Sidis.Props.c46_mean",
    "Sidis.Props.c46_accepted",
    "Sidis.Props.c46_zero_weight_refuted"
   ],
   "note": "c46_zero_weight_refuted: a draw of weight 0 is kept when the random number is exactly 0."
  },
  {
   "property": "C47",
   "status": "proved",
   "theorems": [
    "Sidis.Props.c47_nrad_ctor",
    "Sidis.Props.c47_rad_ctor",
    "Sidis.Props.c47_nrad_density",
    "Sidis.Props.c47_nrad_cuts",
    "Sidis.Props.c47_nrad_support",
    "Sidis.Props.c47_rad_density",
    "Sidis.Props.c47_rad_cuts",
    "Sidis.Props.c47_draw_weight",
    "Sidis.Props.c47_dist_params"
   ],
   "note": "The radiative theorem needs mc.rad.enable on and a positive soft threshold: without them the jacobian can be NaN where there is no room for a photon."
  },
  {
   "property": "C48",
   "status": "partial",
   "theorems": [
    "Sidis.Props.c48_lifecycle",
    "Sidis.Props.c48_no_ub_partial",
    "Sidis.Props.c48_draw_after_throw_refuted",
    "Sidis.Props.c48_move_after_throw_refuted",
    "Sidis.Props.c48_rebuild_after_throw_refuted",
    "Sidis.Props.c48_draw_after_unknown_refuted",
    "Sidis.Props.c48_unknown_kept_refuted",
    "Sidis.Props.c48_initialize",
    "Sidis.Props.c48_generate_partial",
    "Sidis.Props.c48_move_keeps",
    "Sidis.Props.c48_build_draws"
   ],
   "note": "False in general: after build_dist has thrown, drawing, moving or building again is undefined behaviour, and so is drawing after read_dist has met an unknown type (five _refuted theorems). Proved: every history without undefined behaviour constructs, uses and destroys each engine once in this order; disciplined histories (such generators are only destroyed) have no undefined behaviour; the initialize and generate commands are disciplined whatever happens. Missing: Dist::read looks at members of an object whose destructor it has called; the model follows the storage, with an oracle for whether the destructor's last store is still there."
  },
  {
   "property": "C49",
   "status": "proved",
   "theorems": [
    "Sidis.Props.c49_write",
    "Sidis.Props.c49_read",
    "Sidis.Props.c49_untouched",
    "Sidis.Props.c49_other_types",
    "Sidis.Props.c49_roundtrip",
    "Sidis.Props.c49_truncated",
    "Sidis.Props.c49_generators"
   ],
   "note": "The library (CellGenerator, its own serialisation) is a parameter; the round trip assumes that the library reads back what it writes, the truncation theorem that it notices truncation."
  },
  {
   "property": "C50",
   "status": "proved",
   "theorems": [
    "Sidis.Props.c50_chars",
    "Sidis.Props.c50_words",
    "Sidis.Props.c50_general",
    "Sidis.Props.c50_progress",
    "Sidis.Props.c50_progress_full",
    "Sidis.Props.c50_table_refused",
    "Sidis.Props.c50_table"
   ],
   "note": ""
  },
  {
   "property": "C51",
   "status": "proved",
   "theorems": [
    "Sidis.Props.c51_long_words",
    "Sidis.Props.c51_width_refuted",
    "Sidis.Props.c51_rest_refuted",
    "Sidis.Props.c51_padding_refuted"
   ],
   "note": "The property fails in the code: the theorems give the lines for every long word."
  },
  {
   "property": "C52",
   "status": "proved",
   "theorems": [
    "Sidis.Props.c52_filters",
    "Sidis.Props.c52_accepted",
    "Sidis.Props.c52_partition",
    "Sidis.Props.c52_order",
    "Sidis.Props.c52_empty"
   ],
   "note": ""
  },
  {
   "property": "C53",
   "status": "partial",
   "theorems": [
    "Sidis.Props.c53_select_refuted",
    "Sidis.Props.c53_extended_partial"
   ],
   "note": "The property fails in the code for every N. c53_extended_partial describes the filter with the extended grammar, which the code does not use."
  },
  {
   "property": "C54",
   "status": "proved",
   "theorems": [
    "Sidis.Props.c54_born",
    "Sidis.Props.c54_amm",
    "Sidis.Props.c54_born_linear",
    "Sidis.Props.c54_amm_linear",
    "Sidis.Props.c54_rad",
    "Sidis.Props.c54_rad_linear",
    "Sidis.Props.c54_rad_f_integrand",
    "Sidis.Props.c54_rad_f",
    "Sidis.Props.c54_rad_f_linear",
    "Sidis.Props.c54_nrad_ir_linear"
   ],
   "note": ""
  },
  {
   "property": "C55",
   "status": "proved",
   "theorems": [
    "Sidis.Props.c55_rescaled_born",
    "Sidis.Props.c55_no_cutoff"
   ],
   "note": ""
  },
  {
   "property": "C56",
   "status": "proved",
   "theorems": [
    "Sidis.Props.c56_cutoff_independent",
    "Sidis.Props.c56_no_cutoff",
    "Sidis.Props.c56_threshold"
   ],
   "note": ""
  },
  {
   "property": "C57",
   "status": "proved",
   "theorems": [
    "Sidis.Props.c57_leading",
    "Sidis.Props.c57_infrared_part",
    "Sidis.Props.c57_endpoint",
    "Sidis.Props.c57_subtraction"
   ],
   "note": ""
  },
  {
   "property": "C58",
   "status": "proved",
   "theorems": [
    "Sidis.Props.c58_infrared_part",
    "Sidis.Props.c58_quadratic",
    "Sidis.Props.c58_quadratic_zero",
    "Sidis.Props.c58_error",
    "Sidis.Props.c58_vector"
   ],
   "note": ""
  },
  {
   "property": "C59",
   "status": "proved",
   "theorems": [
    "Sidis.Props.c59_gaussian",
    "Sidis.Props.c59_numeric",
    "Sidis.Props.c59_sin_3phih_refuted",
    "Sidis.Props.c59_cut",
    "Sidis.Props.c59_ww",
    "Sidis.Props.c59_gaussian_ww",
    "Sidis.Props.c59_normalised",
    "Sidis.Props.c59_moment",
    "Sidis.Props.c59_ww_relations",
    "Sidis.Props.c59_ww_momentum",
    "Sidis.Props.c59_ww_base"
   ],
   "note": ""
  },
  {
   "property": "C60",
   "status": "partial",
   "theorems": [
    "Sidis.Props.c60_agree_partial",
    "Sidis.Props.c60_throws",
    "Sidis.Props.c60_sin_phis_refuted",
    "Sidis.Props.c60_sin_2phih_refuted"
   ],
   "note": ""
  },
  {
   "property": "C61",
   "status": "proved",
   "theorems": [
    "Sidis.Props.c61_table",
    "Sidis.Props.c61_number",
    "Sidis.Props.c61_continuous",
    "Sidis.Props.c61_increasing",
    "Sidis.Props.c61_one_loop",
    "Sidis.Props.c61_continuation",
    "Sidis.Props.c61_increasing_refuted",
    "Sidis.Props.c61_below",
    "Sidis.Props.c61_default_refuted",
    "Sidis.Props.c61_vacuum_increasing"
   ],
   "note": ""
  },
  {
   "property": "C62",
   "status": "proved",
   "theorems": [
    "Sidis.Props.c62_born",
    "Sidis.Props.c62_born_uu",
    "Sidis.Props.c62_rc",
    "Sidis.Props.c62_rc_uu",
    "Sidis.Props.c62_other",
    "Sidis.Props.c62_harmonics",
    "Sidis.Props.c62_sivers",
    "Sidis.Props.c62_collins",
    "Sidis.Props.c62_error",
    "Sidis.Props.c62_error_refuted"
   ],
   "note": ""
  },
  {
   "property": "C63",
   "status": "proved",
   "theorems": [
    "Sidis.Props.c63_total",
    "Sidis.Props.c63_selects",
    "Sidis.Props.c63_unique",
    "Sidis.Props.c63_errors",
    "Sidis.Props.c63_short_i",
    "Sidis.Props.c63_status"
   ],
   "note": "What the commands do is a parameter of the model of main."
  },
  {
   "property": "C64",
   "status": "proved",
   "theorems": [
    "Sidis.Props.c64_cross_form",
    "Sidis.Props.c64_cross_orthogonal_refuted"
   ],
   "note": "The property fails in the code; c64_cross_form proves which contraction vanishes."
  },
  {
   "property": "C65",
   "status": "proved",
   "theorems": [
    "Sidis.Props.c65_documented_v_refuted"
   ],
   "note": "The documentation is wrong by a factor of two at every physical point where the values do not vanish; c16_invariants gives the right formulas."
  },
  {
   "property": "C66",
   "status": "proved",
   "theorems": [
    "Sidis.Props.c66_valid",
    "Sidis.Props.c66_accepted",
    "Sidis.Props.c66_x_pos",
    "Sidis.Props.c66_finite",
    "Sidis.Props.c66_valid_rad",
    "Sidis.Props.c66_accepted_rad"
   ],
   "note": ""
  },
  {
   "property": "C67",
   "status": "proved",
   "theorems": [
    "Sidis.Props.c67_complete",
    "Sidis.Props.c67_complete_photon",
    "Sidis.Props.c67_complete_rad"
   ],
   "note": ""
  },
  {
   "property": "C68",
   "status": "proved",
   "theorems": [
    "Sidis.Props.c68_massless"
   ],
   "note": "The property fails in the code for every massless-beam configuration."
  },
  {
   "property": "C69",
   "status": "proved",
   "theorems": [
    "Sidis.Props.c69_total",
    "Sidis.Props.c69_disabled_refuted",
    "Sidis.Props.c69_written",
    "Sidis.Props.c69_single_refuted"
   ],
   "note": "The property fails in the code: NaN for every run with a single event type."
  },
  {
   "property": "C70",
   "status": "proved",
   "theorems": [
    "Sidis.Props.c70_total_iff",
    "Sidis.Props.c70_total_refuted"
   ],
   "note": "The property fails in the code: c70_total_iff gives the exact condition, c70_total_refuted a case."
  },
  {
   "property": "C71",
   "status": "proved",
   "theorems": [
    "Sidis.Props.c71_every_type"
   ],
   "note": ""
  },
  {
   "property": "C72",
   "status": "proved",
   "theorems": [
    "Sidis.Props.c72_textbook",
    "Sidis.Props.c72_massless"
   ],
   "note": ""
  },
  {
   "property": "C73",
   "status": "proved",
   "theorems": [
    "Sidis.Props.c73_sivers",
    "Sidis.Props.c73_boer_mulders",
    "Sidis.Props.c73_collins",
    "Sidis.Props.c73_pretzelosity",
    "Sidis.Props.c73_transversity"
   ],
   "note": ""
  },
  {
   "property": "C74",
   "status": "proved",
   "theorems": [
    "Sidis.Props.c74_value",
    "Sidis.Props.c74_roundtrip",
    "Sidis.Props.c74_text",
    "Sidis.Props.c74_exact"
   ],
   "note": ""
  },
  {
   "property": "C75",
   "status": "proved",
   "theorems": [
    "Sidis.Props.c75_crash_consistent"
   ],
   "note": "Generators, ROOT and the structure functions are parameters of the model; ROOT is assumed to make changes in program order."
  },
  {
   "property": "C76",
   "status": "proved",
   "theorems": [
    "Sidis.Props.c76_same_file"
   ],
   "note": ""
  },
  {
   "property": "C77",
   "status": "partial",
   "theorems": [
    "Sidis.Props.c77_initialize",
    "Sidis.Props.c77_generate",
    "Sidis.Props.c77_failed_leaves_file_refuted",
    "Sidis.Props.c77_early_failure_partial"
   ],
   "note": "The first half is c77_initialize and c77_generate.  That a failed command leaves nothing behind is refuted; c77_early_failure_partial is the part that holds."
  },
  {
   "property": "C78",
   "status": "proved",
   "theorems": [
    "Sidis.Props.c78_initialize_result",
    "Sidis.Props.c78_initialize_complete",
    "Sidis.Props.c78_initialize_accepted",
    "Sidis.Props.c78_generate_result",
    "Sidis.Props.c78_generate_complete"
   ],
   "note": "Making events and statistics enters through its outcome only."
  },
  {
   "property": "C79",
   "status": "proved",
   "theorems": [
    "Sidis.Props.c79_record"
   ],
   "note": ""
  },
  {
   "property": "C80",
   "status": "proved",
   "theorems": [
    "Sidis.Props.c80_born_tensor",
    "Sidis.Props.c80_born"
   ],
   "note": "A massless beam is excluded: its helicity four-vector does not exist."
  },
  {
   "property": "C81",
   "status": "proved",
   "theorems": [
    "Sidis.Props.c81_amm_tensor",
    "Sidis.Props.c81_form_factor",
    "Sidis.Props.c81_amm"
   ],
   "note": "The renormalised Dirac form factor is part of C55 and C56, not of this claim."
  },
  {
   "property": "C82",
   "status": "proved",
   "theorems": [
    "Sidis.Props.c82_rad_tensor",
    "Sidis.Props.c82_rad"
   ],
   "note": ""
  },
  {
   "property": "C83",
   "status": "proved",
   "theorems": [
    "Sidis.Props.c83_vac_term",
    "Sidis.Props.c83_vac",
    "Sidis.Props.c83_vac_nonneg"
   ],
   "note": "The hadronic vacuum polarisation is an input of the code."
  },
  {
   "property": "C84",
   "status": "proved",
   "theorems": [
    "Sidis.Props.c84_eikonal"
   ],
   "note": "The photon angle variables range over tau between its kinematic limits and phi_k over a full turn."
  },
  {
   "property": "C85",
   "status": "proved",
   "theorems": [
    "Sidis.Props.c85_hard",
    "Sidis.Props.c85_cutoff_independent"
   ],
   "note": "Below 2e-8 of the largest photon energy the code replaces the difference quotient in R by an extrapolation, so the identity starts there; cut-offs above the largest energy are included. The structure functions of the example vanish off the Born point, so that its infrared-finite part is the subtraction alone."
  },
  {
   "property": "C86",
   "status": "proved",
   "theorems": [
    "Sidis.Props.c86_soft",
    "Sidis.Props.c86_hard",
    "Sidis.Props.c86_default"
   ],
   "note": "The integrator is a parameter with a stated accuracy on finite integrable integrands over the unit cube; the structure functions are numbers, so that the branch replacing NaN by zero is reached only for photon variables that are not finite."
  },
  {
   "property": "C87",
   "status": "proved",
   "theorems": [
    "Sidis.Props.c87_cutoff"
   ],
   "note": "As C85 for the range of cut-offs and C86 for the integrator."
  },
  {
   "property": "C88",
   "status": "proved",
   "theorems": [
    "Sidis.Props.c88_inputs",
    "Sidis.Props.c88_result",
    "Sidis.Props.c88_clean",
    "Sidis.Props.c88_complete",
    "Sidis.Props.c88_count",
    "Sidis.Props.c88_duplicates_refuted",
    "Sidis.Props.c88_hard"
   ],
   "note": "Names in chains are taken to refer to the same files later; ROOT's interpretation of wildcards in names is not modelled. That no event appears twice is refuted (c88_duplicates_refuted). Undefined behaviour in reading statistics is reported as such (C44)."
  },
  {
   "property": "C89",
   "status": "proved",
   "theorems": [
    "Sidis.Props.c89_params",
    "Sidis.Props.c89_found",
    "Sidis.Props.c89_stats",
    "Sidis.Props.c89_result",
    "Sidis.Props.c89_codes"
   ],
   "note": "The text is compared for any way of printing values; that 16 digits do not identify every double is part of the printing. Undefined behaviour in reading statistics (counts that are not representable) is reported as such."
  },
  {
   "property": "C90",
   "status": "proved",
   "theorems": [
    "Sidis.Props.c90_error",
    "Sidis.Props.c90_relative",
    "Sidis.Props.c90_reduction",
    "Sidis.Props.c90_special",
    "Sidis.Props.c90_logs"
   ],
   "note": "Truncation error in exact arithmetic; rounding of the individual operations is not modelled; the constant \u03c0\u00b2/6 is exact."
  },
  {
   "property": "C91",
   "status": "proved",
   "theorems": [
    "Sidis.Props.c91_rest_frame",
    "Sidis.Props.c91_vertex_and_soft",
    "Sidis.Props.c91_beam_moves"
   ],
   "note": "The lepton must not be at rest with the undetected system (for the beam this is proved, c91_beam_moves; for the scattered lepton it is a point where the code divides zero by zero). Exact arithmetic apart from the truncation of dilog."
  },
  {
   "property": "C92",
   "status": "proved",
   "theorems": [
    "Sidis.Props.c92_tensor",
    "Sidis.Props.c92_born",
    "Sidis.Props.c92_unpolarised",
    "Sidis.Props.c92_rad_tensor",
    "Sidis.Props.c92_rad",
    "Sidis.Props.c92_rad_backward",
    "Sidis.Props.c92_textbook",
    "Sidis.Props.c92_backward_exists",
    "Sidis.Props.c92_transverse_negative",
    "Sidis.Props.c92_rad_refuted"
   ],
   "note": "Proved for born at every physical point, and for rad where the hadron goes forward with respect to the photon after the emission (0 <= shift_ph_l). Refuted for rad elsewhere: shift_C_1 carries the sign of shift_ph_l, so the radiative cross-section of every backward hadron is not positive (c92_rad_backward), and is strictly negative for transverse photons (c92_transverse_negative, c92_rad_refuted); c92_backward_exists gives such a point inside the physical region. c92_unpolarised spells out the condition without target polarisation as three inequalities, c92_textbook ties the matrix to the textbook formula of C80."
  },
  {
   "property": "C93",
   "status": "proved",
   "theorems": [
    "Sidis.Props.c93_take",
    "Sidis.Props.c93_take_rad",
    "Sidis.Props.c93_nrad_total",
    "Sidis.Props.c93_rad_total"
   ],
   "note": "c93_take and c93_take_rad are the equalities for arbitrary functions with values in [0, infinity]; integrals are iterated Lebesgue integrals, so no measurability is assumed. c93_nrad_total and c93_rad_total are the consequences for the densities the generator samples, in terms of the parameters. The radiative integral includes points at the edge of zero scattering angle, which take never returns: they have measure zero (steep_ae)."
  },
  {
   "property": "C94",
   "status": "proved",
   "theorems": [
    "Sidis.Props.c94_converges",
    "Sidis.Props.c94_ends"
   ],
   "note": "c94_converges is the strong law of large numbers carried through the adaptive choice of the generator: counts_grow shows that every generator is used without end. c94_ends is termination with probability one. The statistics library is assumed to compute means and root mean squares exactly (Spec.Averages; Lemmas.Bag is an instance)."
  },
  {
   "property": "C95",
   "status": "proved",
   "theorems": [
    "Sidis.Props.c95_unbiased_refuted"
   ],
   "note": "c95_unbiased_refuted: the expected number of draws is at most N/a (Wald's identity), 1/t lies above its tangent, and with positive probability strictly. By C94 the bias disappears as the number of events grows."
  },
  {
   "property": "C96",
   "status": "proved",
   "theorems": [
    "Sidis.Props.c96_events",
    "Sidis.Props.c96_example",
    "Sidis.Props.c96_example_refuted"
   ],
   "note": "c96_events is the relation, c96_example the closed form of what the example program shows, c96_example_refuted a run in which it is larger than the sum of the reported cross-sections. The statistics library is assumed to compute means exactly (Spec.Averages)."
  },
  {
   "property": "C97",
   "status": "proved",
   "theorems": [
    "Sidis.Props.c97_ends",
    "Sidis.Props.c97_around_zero",
    "Sidis.Props.c97_close",
    "Sidis.Props.c97_contained_refuted"
   ],
   "note": "c97_ends, c97_around_zero and c97_close are the positive results, c97_contained_refuted the counterexample (the random number 3*2^-55 is one that std::uniform_real_distribution with a 64-bit engine produces). Overflow and underflow are left out: the exponent is unbounded."
  },
  {
   "property": "C98",
   "status": "proved",
   "theorems": [
    "Sidis.Props.c98_nrad",
    "Sidis.Props.c98_rad"
   ],
   "note": "Puts C93 and C94 together. The distribution of points in the unit cube is external: assumed is that it is fair (Spec.Fair: the mean of weight times density times prime is the average of the density over the cube) and that draws are independent. The non-vacuity example has a positive total cross-section."
  },
  {
   "property": "C99",
   "status": "proved",
   "theorems": [
    "Sidis.Props.c99_error",
    "Sidis.Props.c99_acceptance",
    "Sidis.Props.c99_efficiency",
    "Sidis.Props.c99_target",
    "Sidis.Props.c99_spread",
    "Sidis.Props.c99_numbers"
   ],
   "note": "Error estimates of bubble::Stats are external and assumed (Spec.Errors: sample variance up to factors tending to one). Formatting of the numbers is not modelled."
  },
  {
   "property": "C100",
   "status": "proved",
   "theorems": [
    "Sidis.Props.c100_merged_refuted"
   ],
   "note": "Refutes the expectation that the uncertainty of a combination follows from those of the parts (c100_merged_refuted)."
  },
  {
   "property": "C101",
   "status": "proved",
   "theorems": [
    "Sidis.Props.c101_names",
    "Sidis.Props.c101_help_params",
    "Sidis.Props.c101_help_param",
    "Sidis.Props.c101_help_other"
   ],
   "note": "The texts of PARAMS_STD_FORMAT are part of the model (bytes). Uses the typesetting theorem of C50."
  },
  {
   "property": "C102",
   "status": "partial",
   "theorems": [
    "Sidis.Props.c102_default",
    "Sidis.Props.c102_default_given",
    "Sidis.Props.c102_seed_refuted",
    "Sidis.Props.c102_identifiers",
    "Sidis.Props.c102_switches",
    "Sidis.Props.c102_degrees_partial",
    "Sidis.Props.c102_degrees_refuted"
   ],
   "note": "Partial because two instances are refuted (c102_seed_refuted, c102_degrees_refuted). Doubles are the decimals written in the source, compared exactly. The units of the cuts are those of Spec.cutRows/photonRows, which C47 ties to the densities."
  },
  {
   "property": "C103",
   "status": "proved",
   "theorems": [
    "Sidis.Props.c103_take",
    "Sidis.Props.c103_limits",
    "Sidis.Props.c103_threshold",
    "Sidis.Props.c103_below_refuted",
    "Sidis.Props.c103_no_cuts",
    "Sidis.Props.c103_take_photon",
    "Sidis.Props.c103_take_rad",
    "Sidis.Props.c103_edge_refuted"
   ],
   "note": "Exact arithmetic. A massive lepton is assumed (for a massless one x = 0 is in the limits, see c24). The failures below S_min and on the edge are stated as refuted theorems."
  },
  {
   "property": "C104",
   "status": "proved",
   "theorems": [
    "Sidis.Props.c104_cross_section",
    "Sidis.Props.c104_arguments",
    "Sidis.Props.c104_abort_refuted",
    "Sidis.Props.c104_message_refuted",
    "Sidis.Props.c104_angle_refuted"
   ],
   "note": "The conversions of the standard library and the functions of the library that compute cross-sections are parameters; labels and number formatting are left out. What the message, the exit status and the angles get wrong is stated in refuted theorems."
  },
  {
   "property": "C105",
   "status": "proved",
   "theorems": [
    "Sidis.Props.c105_ends",
    "Sidis.Props.c105_point",
    "Sidis.Props.c105_rad_point",
    "Sidis.Props.c105_usage",
    "Sidis.Props.c105_below_refuted"
   ],
   "note": "For a photon the random numbers must be between 0 and 1 exclusively (a random number exactly 0 has no claim, see c103_edge_refuted)."
  },
  {
   "property": "C106",
   "status": "partial",
   "theorems": [
    "Sidis.Props.c106_cutoffs",
    "Sidis.Props.c106_value",
    "Sidis.Props.c106_error_partial",
    "Sidis.Props.c106_error_refuted"
   ],
   "note": "Exact arithmetic; drawing by ROOT is left out. The error is right only for a positive hard part, `c106_error_partial`; for a negative one `c106_error_refuted`."
  },
  {
   "property": "C107",
   "status": "proved",
   "theorems": [
    "Sidis.Props.c107_momenta",
    "Sidis.Props.c107_photon",
    "Sidis.Props.c107_born",
    "Sidis.Props.c107_amm",
    "Sidis.Props.c107_nrad_ir",
    "Sidis.Props.c107_rad",
    "Sidis.Props.c107_rad_f",
    "Sidis.Props.c107_unpolarised_target"
   ],
   "note": "In exact arithmetic (NaN and infinity only for nrad_ir, where the cutoff produces them). The target polarization is given in the target frame and turned by hadron_from_target, as the programs do."
  },
  {
   "property": "C108",
   "status": "proved",
   "theorems": [
    "Sidis.Props.c108_momenta",
    "Sidis.Props.c108_photon",
    "Sidis.Props.c108_born",
    "Sidis.Props.c108_amm",
    "Sidis.Props.c108_nrad_ir",
    "Sidis.Props.c108_rad",
    "Sidis.Props.c108_rad_f"
   ],
   "note": "In exact arithmetic, as C107."
  },
  {
   "property": "C109",
   "status": "proved",
   "theorems": [
    "Sidis.Props.c109_kinematics",
    "Sidis.Props.c109_kinematics_rad",
    "Sidis.Props.c109_born",
    "Sidis.Props.c109_amm",
    "Sidis.Props.c109_rad",
    "Sidis.Props.c109_rad_f",
    "Sidis.Props.c109_delta",
    "Sidis.Props.c109_rad_integ",
    "Sidis.Props.c109_nrad_integ",
    "Sidis.Props.c109_vac"
   ],
   "note": "In exact arithmetic (the cutoff may be infinite or NaN). nrad_ir is not included as a whole: delta_vac_lep uses the lepton masses of constant.hpp, which are in GeV."
  },
  {
   "property": "C110",
   "status": "partial",
   "theorems": [
    "Sidis.Props.c110_usage",
    "Sidis.Props.c110_points",
    "Sidis.Props.c110_rad_points",
    "Sidis.Props.c110_limits",
    "Sidis.Props.c110_shown_partial",
    "Sidis.Props.c110_all_refuted",
    "Sidis.Props.c110_below_refuted"
   ],
   "note": "Refuted in two ways: the axes end at the greatest value, which a ROOT axis excludes, so that in every plot at least one point is not drawn (c110_all_refuted); below the threshold a plot of NaN is drawn between inverted limits (c110_below_refuted)."
  },
  {
   "property": "C111",
   "status": "proved",
   "theorems": [
    "Sidis.Props.c111_mirror_rad_f_integ",
    "Sidis.Props.c111_mirror_nrad_integ",
    "Sidis.Props.c111_mirror_rad_integ",
    "Sidis.Props.c111_turn_rad_f_integ",
    "Sidis.Props.c111_turn_nrad_integ",
    "Sidis.Props.c111_turn_rad_integ"
   ],
   "note": "The Monte-Carlo integrators are not symmetric under the reflection, so that with them the mirror symmetry holds within the error only."
  },
  {
   "property": "C112",
   "status": "proved",
   "theorems": [
    "Sidis.Props.c112_precision",
    "Sidis.Props.c112_large"
   ],
   "note": "Overflow and underflow are not modelled; the precision of the functions of <cmath> is a hypothesis."
  },
  {
   "property": "C113",
   "status": "proved",
   "theorems": [
    "Sidis.Props.c113_born",
    "Sidis.Props.c113_sivers_collins"
   ],
   "note": "Without radiative corrections; the infrared-finite part of the radiative cross-section is a difference and has no sign of its own."
  },
  {
   "property": "C114",
   "status": "partial",
   "theorems": [
    "Sidis.Props.c114_partial",
    "Sidis.Props.c114_refuted"
   ],
   "note": "The event generator sets a negative density to zero (C47), so that it leaves out these regions without a message."
  },
  {
   "property": "C115",
   "status": "partial",
   "theorems": [
    "Sidis.Props.c115_target_partial",
    "Sidis.Props.c115_refuted",
    "Sidis.Props.c115_unchecked_refuted"
   ],
   "note": ""
  },
  {
   "property": "C116",
   "status": "partial",
   "theorems": [
    "Sidis.Props.c116_kind_partial",
    "Sidis.Props.c116_gaussian_partial",
    "Sidis.Props.c116_refuted"
   ],
   "note": ""
  },
  {
   "property": "C117",
   "status": "proved",
   "theorems": [
    "Sidis.Props.c117_released",
    "Sidis.Props.c117_points",
    "Sidis.Props.c117_cost",
    "Sidis.Props.c117_value",
    "Sidis.Props.c117_evaluated",
    "Sidis.Props.c117_bad_alloc",
    "Sidis.Props.c117_interval"
   ],
   "note": ""
  },
  {
   "property": "C118",
   "status": "partial",
   "theorems": [
    "Sidis.Props.c118_exception_partial",
    "Sidis.Props.c118_refuted",
    "Sidis.Props.c118_no_exception_partial"
   ],
   "note": ""
  },
  {
   "property": "C119",
   "status": "proved",
   "theorems": [
    "Sidis.Props.c119_curves",
    "Sidis.Props.c119_points",
    "Sidis.Props.c119_born",
    "Sidis.Props.c119_rc",
    "Sidis.Props.c119_quick_start"
   ],
   "note": ""
  },
  {
   "property": "C120",
   "status": "proved",
   "theorems": [
    "Sidis.Props.c120_search",
    "Sidis.Props.c120_file",
    "Sidis.Props.c120_lines",
    "Sidis.Props.c120_grid",
    "Sidis.Props.c120_blank",
    "Sidis.Props.c120_junk_refuted",
    "Sidis.Props.c120_tables",
    "Sidis.Props.c120_first_failure",
    "Sidis.Props.c120_charges",
    "Sidis.Props.c120_example"
   ],
   "note": "c120_junk_refuted refutes that surplus columns or text on a line are an error; the rest is proved."
  },
  {
   "property": "C121",
   "status": "proved",
   "theorems": [
    "Sidis.Props.c121_defined",
    "Sidis.Props.c121_outside",
    "Sidis.Props.c121_outside_dist",
    "Sidis.Props.c121_node",
    "Sidis.Props.c121_cross_section",
    "Sidis.Props.c121_density",
    "Sidis.Props.c121_shipped",
    "Sidis.Props.c121_number_refuted",
    "Sidis.Props.c121_formulas",
    "Sidis.Props.c121_on_grid",
    "Sidis.Props.c121_flavor_refuted"
   ],
   "note": "c121_number_refuted and c121_flavor_refuted refute that the cross-section is a number everywhere and that an unknown flavour is reported; the rest is proved. That the installed tables have the ranges of Shipped was read from the files."
  },
  {
   "property": "C122",
   "status": "proved",
   "theorems": [
    "Sidis.Props.c122_values",
    "Sidis.Props.c122_owner",
    "Sidis.Props.c122_no_leak",
    "Sidis.Props.c122_destroy",
    "Sidis.Props.c122_chain",
    "Sidis.Props.c122_moved_from_refuted",
    "Sidis.Props.c122_assign_frees_refuted"
   ],
   "note": "c122_moved_from_refuted and c122_assign_frees_refuted refute that moved-from objects can be used and that an assignment frees; the rest is proved for every program. Allocation failure is not modelled, except as the throw of the constructor of the tables."
  },
  {
   "property": "C123",
   "status": "proved",
   "theorems": [
    "Sidis.Props.c123_hard_zero",
    "Sidis.Props.c123_hard",
    "Sidis.Props.c123_soft",
    "Sidis.Props.c123_outside",
    "Sidis.Props.c123_missing",
    "Sidis.Props.c123_complete",
    "Sidis.Props.c123_narrow",
    "Sidis.Props.c123_cutoff_refuted"
   ],
   "note": "c123_cutoff_refuted refutes that the sum does not depend on the cut-off; the rest is proved. That NaN goes through the cross-sections is part of the model."
  },
  {
   "property": "C124",
   "status": "proved",
   "theorems": [
    "Sidis.Props.c124_born",
    "Sidis.Props.c124_amm",
    "Sidis.Props.c124_rad",
    "Sidis.Props.c124_rad_f",
    "Sidis.Props.c124_nrad_ir",
    "Sidis.Props.c124_mask_values",
    "Sidis.Props.c124_masks",
    "Sidis.Props.c124_named",
    "Sidis.Props.c124_rad_integ",
    "Sidis.Props.c124_nrad_integ",
    "Sidis.Props.c124_density",
    "Sidis.Props.c124_generator_refuted"
   ],
   "note": "c124_generator_refuted refutes that densities of the generator add up; c124_density says exactly when they do. The linearity is proved in full for real values of the structure functions; NaN values are in C119 and C123."
  },
  {
   "property": "C125",
   "status": "proved",
   "theorems": [
    "Sidis.Props.c125_mixture",
    "Sidis.Props.c125_mixture_rad",
    "Sidis.Props.c125_mixture_nrad_ir",
    "Sidis.Props.c125_density",
    "Sidis.Props.c125_range_refuted"
   ],
   "note": "c125_range_refuted refutes that polarisations out of range are rejected; the rest is proved. c125_density is for born (no radiative corrections): with them the sign of the cross-section is not settled (C92)."
  },
  {
   "property": "C126",
   "status": "proved",
   "theorems": [
    "Sidis.Props.c126_uu_integ",
    "Sidis.Props.c126_ut_integ",
    "Sidis.Props.c126_asym",
    "Sidis.Props.c126_named",
    "Sidis.Props.c126_coupling",
    "Sidis.Props.c126_unpolarised_beam",
    "Sidis.Props.c126_transverse"
   ],
   "note": "The integrators of the code (cubature with tolerances 0 and 0, and the GSL methods with a generator seeded afresh) have no absolute tolerances (integrate.hpp 31-123); that they satisfy UnitFree is not proved, the libraries are not modelled, and rounding is not."
  },
  {
   "property": "C127",
   "status": "proved",
   "theorems": [
    "Sidis.Props.c127_open",
    "Sidis.Props.c127_none",
    "Sidis.Props.c127_photon",
    "Sidis.Props.c127_variants",
    "Sidis.Props.c127_angle_refuted",
    "Sidis.Props.c127_wide_angle_refuted"
   ],
   "note": "c127_angle_refuted and c127_wide_angle_refuted refute the property for cuts on angles; for the other directly sampled variables it is proved. Half-infinite cuts on Q_sq are C26."
  },
  {
   "property": "C128",
   "status": "proved",
   "theorems": [
    "Sidis.Props.c128_born",
    "Sidis.Props.c128_same",
    "Sidis.Props.c128_infrared",
    "Sidis.Props.c128_cutoff",
    "Sidis.Props.c128_running",
    "Sidis.Props.c128_vacuum_once_refuted"
   ],
   "note": "c128_vacuum_once_refuted refutes that each lepton's vacuum polarisation is included once; the rest is proved."
  },
  {
   "property": "C129",
   "status": "partial",
   "theorems": [
    "Sidis.Props.c129_optional",
    "Sidis.Props.c129_delivers",
    "Sidis.Props.c129_accepts",
    "Sidis.Props.c129_accepts_one",
    "Sidis.Props.c129_uncut",
    "Sidis.Props.c129_untouched_partial",
    "Sidis.Props.c129_untouched_refuted"
   ],
   "note": "c129_untouched_refuted refutes that rejected points leave the outputs alone; c129_untouched_partial is the part that holds."
  },
  {
   "property": "C130",
   "status": "proved",
   "theorems": [
    "Sidis.Props.c130_nrad",
    "Sidis.Props.c130_zero",
    "Sidis.Props.c130_negative_refuted",
    "Sidis.Props.c130_rad",
    "Sidis.Props.c130_rad_nan_refuted"
   ],
   "note": "c130_negative_refuted and c130_rad_nan_refuted say what the functions return instead."
  }
 ]
}