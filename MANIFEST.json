{
 "claims": [
  {
   "property": "C01",
   "status": "proved",
   "theorems": [
    "GChop.C01_particleSet_accepts_iff"
   ],
   "note": ""
  },
  {
   "property": "C02",
   "status": "proved",
   "theorems": [
    "GChop.C02_derived_kinematics"
   ],
   "note": ""
  },
  {
   "property": "C03",
   "status": "proved",
   "theorems": [
    "GChop.C03_galaxy_accepts_iff",
    "GChop.C03_hasPotential_isSome"
   ],
   "note": ""
  },
  {
   "property": "C04",
   "status": "proved",
   "theorems": [
    "GChop.C04_mkgalaxy_of_kwargs",
    "GChop.C04_kwargs_of_mkgalaxy"
   ],
   "note": ""
  },
  {
   "property": "C05",
   "status": "proved",
   "theorems": [
    "GChop.C05_valid_galaxies",
    "GChop.C05_to_dataframe",
    "GChop.C05_to_dataframe_all"
   ],
   "note": ""
  },
  {
   "property": "C06",
   "status": "proved",
   "theorems": [
    "GChop.C06_to_dataframe_failures"
   ],
   "note": ""
  },
  {
   "property": "C07",
   "status": "proved",
   "theorems": [
    "GChop.C07_mktype",
    "GChop.C07_mktype_humanize"
   ],
   "note": ""
  },
  {
   "property": "C08",
   "status": "proved",
   "theorems": [
    "GChop.C08_center_puts_lowest_at_origin",
    "GChop.C08_centered_after_center"
   ],
   "note": ""
  },
  {
   "property": "C09",
   "status": "proved",
   "theorems": [
    "GChop.C09_center_rigid_translation",
    "GChop.C09_center_vector"
   ],
   "note": ""
  },
  {
   "property": "C10",
   "status": "proved",
   "theorems": [
    "GChop.C10_center_idempotent",
    "GChop.C10_center_translation_invariant"
   ],
   "note": ""
  },
  {
   "property": "C11",
   "status": "proved",
   "theorems": [
    "GChop.C11_is_centered_iff"
   ],
   "note": ""
  },
  {
   "property": "C12",
   "status": "proved",
   "theorems": [
    "GChop.C12_center_needs_potential",
    "GChop.C12_potential_once",
    "GChop.C12_potential_outcome",
    "GChop.C12_potential_twice"
   ],
   "note": ""
  },
  {
   "property": "C13",
   "status": "proved",
   "theorems": [
    "GChop.C13_star_align_puts_J_on_z"
   ],
   "note": ""
  },
  {
   "property": "C14",
   "status": "proved",
   "theorems": [
    "GChop.C14_star_align_is_one_rotation",
    "GChop.C14_rotation_preserves"
   ],
   "note": ""
  },
  {
   "property": "C15",
   "status": "partial",
   "theorems": [
    "GChop.C15_axis_gives_nan",
    "GChop.C15_never_idempotent",
    "GChop.C15_second_alignment_partial"
   ],
   "note": "The property is false of the code. C15_axis_gives_nan and C15_never_idempotent prove the negation (exact arithmetic, every galaxy); C15_second_alignment_partial is what remains true. Missing: idempotence of x, y, vx, vy."
  },
  {
   "property": "C16",
   "status": "proved",
   "theorems": [
    "GChop.C16_rejects_nonpositive",
    "GChop.C16_large_cut",
    "GChop.C16_depends_on_inside"
   ],
   "note": ""
  },
  {
   "property": "C17",
   "status": "proved",
   "theorems": [
    "GChop.C17_is_star_aligned_iff",
    "GChop.C17_zero_tolerance",
    "GChop.C17_no_star_inside"
   ],
   "note": ""
  },
  {
   "property": "C18",
   "status": "proved",
   "theorems": [
    "GChop.C18_potential_nbody"
   ],
   "note": ""
  },
  {
   "property": "C19",
   "status": "partial",
   "theorems": [
    "GChop.C19_numpy_reads_memory",
    "GChop.C19_numpy_not_a_function",
    "GChop.C19_backends_differ_on_coincident",
    "GChop.C19_backends_agree_partial"
   ],
   "note": "The property is false of the code. C19_numpy_reads_memory gives the numpy result for every memory content, C19_numpy_not_a_function and C19_backends_differ_on_coincident prove the negation; C19_backends_agree_partial is agreement when the memory is zero and no pair coincides unsoftened."
  },
  {
   "property": "C20",
   "status": "proved",
   "theorems": [
    "GChop.C20_schedule_independent",
    "GChop.C20_no_race",
    "GChop.C20_terminates",
    "GChop.C20_can_finish"
   ],
   "note": ""
  },
  {
   "property": "C21",
   "status": "proved",
   "theorems": [
    "GChop.C21_isometry",
    "GChop.C21_translation",
    "GChop.C21_orthogonal",
    "GChop.C21_mass_scale",
    "GChop.C21_permutation",
    "GChop.C21_not_positive"
   ],
   "note": ""
  },
  {
   "property": "C22",
   "status": "partial",
   "theorems": [
    "GChop.C22_unbound_first_raises",
    "GChop.C22_lengths",
    "GChop.C22_unbound_shortens",
    "GChop.C22_all_bound_partial",
    "GChop.C22_counterexample_raises",
    "GChop.C22_counterexample_lengths"
   ],
   "note": "The property is false of the code: C22_unbound_first_raises (IndexError for every galaxy with an unbound star before a bound one) and C22_unbound_shortens (shorter normalized_star_Jz otherwise) prove the negation. C22_all_bound_partial is what remains: one entry per star when all stars are bound."
  },
  {
   "property": "C23",
   "status": "proved",
   "theorems": [
    "GChop.C23_eps_range",
    "GChop.C23_star_outputs"
   ],
   "note": ""
  },
  {
   "property": "C24",
   "status": "proved",
   "theorems": [
    "GChop.C24_unbound_nan"
   ],
   "note": ""
  },
  {
   "property": "C25",
   "status": "proved",
   "theorems": [
    "GChop.C25_sign"
   ],
   "note": ""
  },
  {
   "property": "C26",
   "status": "proved",
   "theorems": [
    "GChop.C26_energy_range"
   ],
   "note": ""
  },
  {
   "property": "C27",
   "status": "proved",
   "theorems": [
    "GChop.C27_no_potential",
    "GChop.C27_no_bound_particle",
    "GChop.C27_outcome",
    "GChop.C27_bins_ok"
   ],
   "note": ""
  },
  {
   "property": "C28",
   "status": "proved",
   "theorems": [
    "GChop.C28_units",
    "GChop.C28_rotation"
   ],
   "note": ""
  },
  {
   "property": "C29",
   "status": "proved",
   "theorems": [
    "GChop.C29_profile"
   ],
   "note": ""
  },
  {
   "property": "C30",
   "status": "partial",
   "theorems": [
    "GChop.C30_contributing_bins",
    "GChop.C30_populated_bin_partial",
    "GChop.C30_lost_bin",
    "GChop.C30_counterexample",
    "GChop.C30_counterexample_quiet"
   ],
   "note": "The property is false of the code: C30_lost_bin (general), C30_counterexample (default bins) and C30_counterexample_quiet (no empty bin) prove the negation. C30_contributing_bins says exactly which bins contribute; C30_populated_bin_partial is the case in which all populated bins do."
  },
  {
   "property": "C31",
   "status": "proved",
   "theorems": [
    "GChop.C31_aligned",
    "GChop.C31_empty",
    "GChop.C31_unknown",
    "GChop.C31_jcirc_error",
    "GChop.C31_unbound_star",
    "GChop.C31_unbound_star_short"
   ],
   "note": ""
  },
  {
   "property": "C32",
   "status": "proved",
   "theorems": [
    "GChop.C32_decompose"
   ],
   "note": ""
  },
  {
   "property": "C33",
   "status": "proved",
   "theorems": [
    "GChop.C33_complete_labels",
    "GChop.C33_label_count",
    "GChop.C33_kth_label"
   ],
   "note": ""
  },
  {
   "property": "C34",
   "status": "proved",
   "theorems": [
    "GChop.C34_complete_probs",
    "GChop.C34_row_count"
   ],
   "note": ""
  },
  {
   "property": "C35",
   "status": "proved",
   "theorems": [
    "GChop.C35_split",
    "GChop.C35_decompose",
    "GChop.C35_decompose_error",
    "GChop.C35_monotone"
   ],
   "note": ""
  },
  {
   "property": "C36",
   "status": "partial",
   "theorems": [
    "GChop.C36_check_partial",
    "GChop.C36_nan_counterexample"
   ],
   "note": "The property is false of the code at NaN: C36_nan_counterexample (every galaxy size, every memory content) proves that a NaN cut is accepted and the labels are then the uninitialised memory. C36_check_partial is the rule for every other cut."
  },
  {
   "property": "C37",
   "status": "proved",
   "theorems": [
    "GChop.C37_labels",
    "GChop.C37_decompose",
    "GChop.C37_exact"
   ],
   "note": ""
  },
  {
   "property": "C38",
   "status": "proved",
   "theorems": [
    "GChop.C38_bin",
    "GChop.C38_total",
    "GChop.C38_seed_independent",
    "GChop.C38_corotating_le",
    "GChop.C38_mirror_edges"
   ],
   "note": ""
  },
  {
   "property": "C39",
   "status": "proved",
   "theorems": [
    "GChop.C39_sides"
   ],
   "note": ""
  },
  {
   "property": "C40",
   "status": "proved",
   "theorems": [
    "GChop.C40_failures",
    "GChop.C40_exact_zero_edge",
    "GChop.C40_exact_even"
   ],
   "note": ""
  },
  {
   "property": "C41",
   "status": "proved",
   "theorems": [
    "GChop.C41_labels",
    "GChop.C41_bin"
   ],
   "note": ""
  },
  {
   "property": "C42",
   "status": "partial",
   "theorems": [
    "GChop.C42_counterexample_double",
    "GChop.C42_failure",
    "GChop.C42_returns_partial",
    "GChop.C42_counterexample",
    "GChop.C42_counterexample_all"
   ],
   "note": "The property is false of the code: C42_counterexample_all proves that three stars with energies in [-1,0] and circularities in [-1,1] make split raise ValueError with the default parameters, for every generator. C42_counterexample_double is the same in binary64. C42_failure says exactly when split fails. C42_returns_partial is what remains: it returns when all normalized energies are below 0 and n_bin_E is positive. Missing: stars of normalized energy exactly 0."
  },
  {
   "property": "C43",
   "status": "proved",
   "theorems": [
    "GChop.C43_kmeans_keywords",
    "GChop.C43_gmm_keywords",
    "GChop.C43_kmeans",
    "GChop.C43_gmm",
    "GChop.C43_label_range"
   ],
   "note": ""
  },
  {
   "property": "C44",
   "status": "proved",
   "theorems": [
    "GChop.C44_choice",
    "GChop.C44_exact",
    "GChop.C44_failure",
    "GChop.C44_split"
   ],
   "note": ""
  },
  {
   "property": "C45",
   "status": "proved",
   "theorems": [
    "GChop.C45_structure",
    "GChop.C45_classify",
    "GChop.C45_conserved",
    "GChop.C45_label",
    "GChop.C45_split",
    "GChop.C45_decompose"
   ],
   "note": ""
  },
  {
   "property": "C46",
   "status": "proved",
   "theorems": [
    "GChop.C46_parallel",
    "GChop.C46_split"
   ],
   "note": ""
  },
  {
   "property": "C47",
   "status": "proved",
   "theorems": [
    "GChop.C47_components"
   ],
   "note": ""
  },
  {
   "property": "C48",
   "status": "proved",
   "theorems": [
    "GChop.C48_frame",
    "GChop.C48_default",
    "GChop.C48_unknown"
   ],
   "note": ""
  },
  {
   "property": "C49",
   "status": "proved",
   "theorems": [
    "GChop.C49_roundtrip",
    "GChop.C49_identity",
    "GChop.C49_nan_unreadable"
   ],
   "note": "Galaxies with a NaN among the stored values are excluded: C49_nan_unreadable proves that they cannot be read back."
  },
  {
   "property": "C50",
   "status": "proved",
   "theorems": [
    "GChop.C50_last_write_wins",
    "GChop.C50_others_survive",
    "GChop.C50_refuses",
    "GChop.C50_fresh"
   ],
   "note": ""
  },
  {
   "property": "C51",
   "status": "proved",
   "theorems": [
    "GChop.C51_metadata",
    "GChop.C51_none",
    "GChop.C51_unstorable"
   ],
   "note": ""
  },
  {
   "property": "C52",
   "status": "partial",
   "theorems": [
    "GChop.C52_crash_reads",
    "GChop.C52_others_survive",
    "GChop.C52_crash_reached",
    "GChop.C52_counterexample_mixture",
    "GChop.C52_counterexample_zeros",
    "GChop.C52_atomic_partial"
   ],
   "note": "The property is false of the code: C52_counterexample_mixture and C52_counterexample_zeros prove that a crash can leave a file that reads without error as a galaxy that is neither. C52_crash_reads and C52_crash_reached say exactly what can be read after a crash; C52_atomic_partial is what remains true of atomicity. Missing: atomicity between the first deletion and the last table write."
  },
  {
   "property": "C53",
   "status": "proved",
   "theorems": [
    "GChop.C53_by_name",
    "GChop.C53_bad_columns",
    "GChop.C53_bad_names",
    "GChop.C53_bad_potential",
    "GChop.C53_permutation"
   ],
   "note": ""
  },
  {
   "property": "C54",
   "status": "proved",
   "theorems": [
    "GChop.C54_hdf5",
    "GChop.C54_npy"
   ],
   "note": ""
  },
  {
   "property": "C55",
   "status": "proved",
   "theorems": [
    "GChop.C55_call",
    "GChop.C55_dispatch"
   ],
   "note": ""
  },
  {
   "property": "C56",
   "status": "proved",
   "theorems": [
    "GChop.C56_labels",
    "GChop.C56_wrong_length",
    "GChop.C56_no_rows",
    "GChop.C56_attribute",
    "GChop.C56_no_labels",
    "GChop.C56_frame_error"
   ],
   "note": "A length mismatch raises ValueError when the table has a row (C56_wrong_length); with no rows pandas gives rows of NaN (C56_no_rows)."
  },
  {
   "property": "C57",
   "status": "proved",
   "theorems": [
    "GChop.C57_outcomes",
    "GChop.C57_unbound",
    "GChop.C57_decomposition",
    "GChop.C57_clustering",
    "GChop.C57_counterexample",
    "GChop.C57_counterexample_raises"
   ],
   "note": "C57_decomposition gives the exact outcome in both cases (masks coincide or not); C57_clustering says that they coincide for the clustering decomposers; C57_counterexample and C57_counterexample_raises are galaxies where the masks differ. C57_unbound: any unbound star makes the plot raise."
  },
  {
   "property": "C58",
   "status": "proved",
   "theorems": [
    "GChop.C58_circ_dict",
    "GChop.C58_circ_func",
    "GChop.C58_dict",
    "GChop.C58_func",
    "GChop.C58_no_effect"
   ],
   "note": ""
  },
  {
   "property": "C59",
   "status": "proved",
   "theorems": [
    "GChop.C59_cbins"
   ],
   "note": ""
  },
  {
   "property": "C60",
   "status": "proved",
   "theorems": [
    "GChop.Header.C60_file",
    "GChop.Header.C60_trailing_spaces",
    "GChop.Header.C60_trailing_spaces_template",
    "GChop.Header.C60_blank_end_never",
    "GChop.Header.C60_blank_always",
    "GChop.Header.C60_exit_zero",
    "GChop.Header.C60_check",
    "GChop.Header.C60_outcomes",
    "GChop.Header.C60_counterexample_blank_end",
    "GChop.Header.C60_counterexample_blank",
    "GChop.Header.C60_counterexample_form_feed"
   ],
   "note": "The template must not end in a blank line (C60_blank_end_never: such a template is never found)."
  },
  {
   "property": "C61",
   "status": "proved",
   "theorems": [
    "GChop.C61_xy",
    "GChop.C61_pairplot",
    "GChop.C61_reaches",
    "GChop.C61_circ_xy",
    "GChop.C61_circ_pairplot",
    "GChop.C61_circ_reaches"
   ],
   "note": ""
  },
  {
   "property": "C62",
   "status": "proved",
   "theorems": [
    "GChop.C62_table",
    "GChop.C62_formulas"
   ],
   "note": "C62_table: any valid galaxy; C62_formulas: galaxies built from input arrays. Total energy of a particle: C02."
  },
  {
   "property": "C63",
   "status": "proved",
   "theorems": [
    "GChop.C63_center_then_align",
    "GChop.C63_align_keeps_centre",
    "GChop.C63_order_matters"
   ],
   "note": "Exact arithmetic. C63_order_matters is the negative half (kernel evaluation of one galaxy over the rationals)."
  },
  {
   "property": "C64",
   "status": "proved",
   "theorems": [
    "GChop.C64_units",
    "GChop.C64_rotation",
    "GChop.C64_package"
   ],
   "note": "Exact arithmetic (units need an exact square root). C64_package lists the six decomposers of the package."
  },
  {
   "property": "C65",
   "status": "proved",
   "theorems": [
    "GChop.C65_default_bins",
    "GChop.C65_profile",
    "GChop.C65_overshoot",
    "GChop.C65_counterexample"
   ],
   "note": "binary64 with rounding. C65_profile with C65_default_bins is the positive half; C65_overshoot and C65_counterexample prove that it fails for cbins = (0.03, 0.005)."
  },
  {
   "property": "C66",
   "status": "proved",
   "theorems": [
    "GChop.C66_edges",
    "GChop.C66_energy_edges",
    "GChop.C66_even",
    "GChop.C66_odd",
    "GChop.C66_jhistogram",
    "GChop.C66_jehistogram",
    "GChop.C66_decompose",
    "GChop.C66_counterexample"
   ],
   "note": "binary64 with rounding. C66_edges, C66_energy_edges, C66_even and C66_odd are about the edges, C66_jhistogram, C66_jehistogram and C66_decompose about the labels; C66_counterexample proves that the bound on the digits is needed."
  },
  {
   "property": "C67",
   "status": "proved",
   "theorems": [
    "GChop.C67_double",
    "GChop.C67_jehistogram",
    "GChop.C67_jhistogram",
    "GChop.C67_exact",
    "GChop.C67_counterexample"
   ],
   "note": "C67_jehistogram and C67_jhistogram for any ordered arithmetic with sorted edges, C67_exact for exact arithmetic, C67_double for binary64. C67_counterexample is a galaxy with two stars of energy zero that JEHistogram cannot decompose."
  },
  {
   "property": "C68",
   "status": "proved",
   "theorems": [
    "GChop.C68_determined",
    "GChop.C68_masses",
    "GChop.C68_unbound",
    "GChop.C68_types",
    "GChop.C68_unbound_stars",
    "GChop.C68_decompose_masses",
    "GChop.C68_decompose_stars",
    "GChop.C68_bound_matters"
   ],
   "note": "C68_determined is the general statement, the others are its consequences; C68_decompose_masses and C68_decompose_stars are about labels; C68_bound_matters shows that the bound particles do enter."
  },
  {
   "property": "C69",
   "status": "proved",
   "theorems": [
    "GChop.C69_time_reversal",
    "GChop.C69_mirror_x",
    "GChop.C69_mirror_y",
    "GChop.C69_mirror_z",
    "GChop.C69_exact",
    "GChop.C69_binary64"
   ],
   "note": "For any arithmetic whose negation, product and sum obey the IEEE sign laws (NumNeg, proved for Ext and for binary64). C69_exact and C69_binary64 are the instances."
  },
  {
   "property": "C70",
   "status": "proved",
   "theorems": [
    "GChop.C70_order",
    "GChop.C70_labels",
    "GChop.C70_exact",
    "GChop.C70_ties_matter"
   ],
   "note": "C70_order and C70_labels hold in any arithmetic; C70_exact restates the hypotheses on the raw particles over Ext; C70_ties_matter shows that the hypothesis on ties is needed."
  },
  {
   "property": "C71",
   "status": "proved",
   "theorems": [
    "GChop.C71_potential_center",
    "GChop.C71_star_align",
    "GChop.C71_circularity",
    "GChop.C71_decompose",
    "GChop.C71_on_axis_raises"
   ],
   "note": "C71_circularity and C71_decompose are about the whole chain; C71_potential_center and C71_star_align are its steps; C71_on_axis_raises shows that the hypothesis on the axis is needed."
  },
  {
   "property": "C72",
   "status": "proved",
   "theorems": [
    "GChop.C72_rejects",
    "GChop.C72_attributes",
    "GChop.C72_generator",
    "GChop.C72_accepts",
    "GChop.C72_defaults",
    "GChop.C72_repr"
   ],
   "note": "C72_rejects, C72_accepts, C72_attributes, C72_generator, C72_defaults; C72_repr for JThreshold. The hypothesis on the default cut in C72_accepts and C72_defaults is checked for exact and double precision in an example."
  },
  {
   "property": "C73",
   "status": "proved",
   "theorems": [
    "GChop.C73_isolation",
    "GChop.C73_reproducible",
    "GChop.C73_frozen",
    "GChop.C73_workers",
    "GChop.C73_second_call",
    "GChop.C73_shared_generator"
   ],
   "note": "C73_isolation is the general statement; C73_reproducible, C73_workers and C73_frozen follow the text; C73_second_call and C73_shared_generator show what does not hold."
  },
  {
   "property": "C74",
   "status": "proved",
   "theorems": [
    "GChop.C74_potential",
    "GChop.C74_center",
    "GChop.C74_star_align",
    "GChop.C74_circularity",
    "GChop.C74_decompose",
    "GChop.C74_relation_needed"
   ],
   "note": "C74_potential, C74_center, C74_star_align, C74_circularity, C74_decompose for the steps and the chain; C74_relation_needed is a galaxy where the result changes if only the velocities are rescaled."
  },
  {
   "property": "C75",
   "status": "proved",
   "theorems": [
    "GChop.C75_not_positive",
    "GChop.C75_numpy_positive"
   ],
   "note": "C75_not_positive, for every order in which np.sum may add; C75_numpy_positive shows why the condition on the uninitialised entries is needed. Compiled code may round each square of a distance or fuse it with the addition, in any order."
  },
  {
   "property": "C76",
   "status": "proved",
   "theorems": [
    "GChop.C76_mass_monotone",
    "GChop.C76_not_strict"
   ],
   "note": "C76_mass_monotone, for every monotone way of summing, which numpy's order is; C76_not_strict is a pair of galaxies with different masses and equal potentials. Compiled code may round each square of a distance or fuse it with the addition, in any order."
  },
  {
   "property": "C77",
   "status": "proved",
   "theorems": [
    "GChop.C77_accuracy",
    "GChop.C77_relative_error",
    "GChop.C77_moved_pair"
   ],
   "note": "C77_accuracy is the two-sided bound, C77_relative_error the form in the text, C77_moved_pair the failure. The numpy backend is C83."
  },
  {
   "property": "C78",
   "status": "proved",
   "theorems": [
    "GChop.C78_center_accuracy",
    "GChop.C78_translation",
    "GChop.C78_translation_merges"
   ],
   "note": "C78_center_accuracy and C78_translation; C78_translation_merges is the galaxy whose stars merge."
  },
  {
   "property": "C79",
   "status": "proved",
   "theorems": [
    "GChop.C79_selection",
    "GChop.C79_zero_cut",
    "GChop.C79_probabilities",
    "GChop.C79_split"
   ],
   "note": "C79_selection for the choice, C79_probabilities for the sums, C79_split for the whole split; C79_zero_cut is the failure with c_bic = 0."
  },
  {
   "property": "C80",
   "status": "proved",
   "theorems": [
    "GChop.C80_sign",
    "GChop.C80_wrong_sign"
   ],
   "note": "C80_sign; C80_wrong_sign is the failing galaxy. Underflow can still turn a small circularity into zero."
  },
  {
   "property": "C81",
   "status": "proved",
   "theorems": [
    "GChop.C81_rotation",
    "GChop.C81_orders",
    "GChop.C81_lengths",
    "GChop.C81_not_aligned",
    "GChop.C81_small_total",
    "GChop.C81_large_total"
   ],
   "note": "C81_rotation and C81_lengths; C81_small_total and C81_large_total are the failures outside the range."
  },
  {
   "property": "C82",
   "status": "proved",
   "theorems": [
    "GChop.C82_aligned"
   ],
   "note": "C82_aligned, for every order of additions; C81_not_aligned is the pair of stars for which it fails. C81_orders shows that the left fold of the model and the pairwise order of numpy are such orders."
  },
  {
   "property": "C83",
   "status": "proved",
   "theorems": [
    "GChop.C83_numpy",
    "GChop.C83_agree",
    "GChop.C83_diagonal"
   ],
   "note": "C83_numpy and C83_agree; C83_diagonal is the disagreement."
  },
  {
   "property": "C84",
   "status": "proved",
   "theorems": [
    "GChop.C84_columns",
    "GChop.C84_bound",
    "GChop.C84_unbound_kept",
    "GChop.C84_bound_lost"
   ],
   "note": "C84_columns and C84_bound; C84_unbound_kept and C84_bound_lost are the two wrong answers near zero."
  },
  {
   "property": "C85",
   "status": "proved",
   "theorems": [
    "GChop.C85_added",
    "GChop.C85_softening",
    "GChop.C85_numpy_added",
    "GChop.C85_first_of_type",
    "GChop.C85_numpy_softening"
   ],
   "note": "C85_added and C85_softening; C85_numpy_added, C85_numpy_softening and C85_first_of_type are the limits. Compiled code may round each square of a distance or fuse it with the addition, in any order."
  },
  {
   "property": "C86",
   "status": "proved",
   "theorems": [
    "GChop.C86_circularity"
   ],
   "note": "C86_circularity."
  },
  {
   "property": "C87",
   "status": "proved",
   "theorems": [
    "GChop.C87_galaxy_repr",
    "GChop.C87_galaxy_text",
    "GChop.C87_steps_repr",
    "GChop.C87_potential_repr",
    "GChop.C87_particle_set_repr",
    "GChop.C87_components_repr",
    "GChop.C87_decompose_repr"
   ],
   "note": "How Python prints a float and how numpy prints an array are parameters; the former writes no comma."
  },
  {
   "property": "C88",
   "status": "proved",
   "theorems": [
    "GChop.C88_circularity",
    "GChop.C88_decompose",
    "GChop.C88_other_factor",
    "GChop.C88_underflow"
   ],
   "note": "Rounding to nearest even commutes with multiplication by a power of two where there is no overflow or underflow; the range hypothesis keeps every intermediate result on a grid of normal numbers. C88_other_factor and C88_underflow show that neither the power of two nor the range can be dropped."
  },
  {
   "property": "C89",
   "status": "proved",
   "theorems": [
    "GChop.C89_star_align",
    "GChop.C89_center",
    "GChop.C89_range",
    "GChop.C89_orders",
    "GChop.C89_other_factor",
    "GChop.C89_underflow"
   ],
   "note": "C89_star_align takes any summation that adds two arrays of the same length in the same order (SameOrder); C89_orders shows that numpy's and the left to right one are such. C89_range says which numbers fit. C89_other_factor and C89_underflow show that neither the power of two nor the range can be dropped. Dot products may be rounded term by term or fused, if all are computed in the same way (SameDot)."
  },
  {
   "property": "C90",
   "status": "proved",
   "theorems": [
    "GChop.C90_potential",
    "GChop.C90_orders",
    "GChop.C90_other_factor",
    "GChop.C90_overflow",
    "GChop.C90_constant"
   ],
   "note": "The gravitational constant is a single precision number (C90_constant: any between 2^-20 and 1). C90_other_factor and C90_overflow show that neither the power of two nor the range can be dropped. The numpy backend is covered for fresh memory that holds zeros; with other contents its result is not determined by the galaxy (C19). Compiled code may fuse squares with additions, if it does so in the same way for all particles (SameDot); C90_orders shows that the usual ways are such."
  },
  {
   "property": "C91",
   "status": "proved",
   "theorems": [
    "GChop.C91_pipeline"
   ],
   "note": "Composition of C90, C89 and C88. The condition on the aligned galaxy is on the result of the first three steps: rotated coordinates that cancel to a tiny nonzero number may underflow later. The example beside the theorem checks all hypotheses on a galaxy of two stars. Dot products as in C89 and C90."
  },
  {
   "property": "C92",
   "status": "proved",
   "theorems": [
    "GChop.C92_mkgalaxy",
    "GChop.C92_rejected",
    "GChop.C92_center",
    "GChop.C92_star_align",
    "GChop.C92_potential",
    "GChop.C92_prepare",
    "GChop.C92_documented_units",
    "GChop.C92_same_particles",
    "GChop.C92_computed_unit",
    "GChop.C92_potential_energy_unit"
   ],
   "note": "uttr and astropy are described in the header of Verif/Quantity.lean: the converter keeps a quantity in the unit it has, arr_ converts to the default unit. C92_potential_energy_unit is the exception, with a concrete galaxy. The softening has no unit in the code and is a number here."
  },
  {
   "property": "C93",
   "status": "proved",
   "theorems": [
    "GChop.C93_labels",
    "GChop.C93_exact_rule",
    "GChop.C93_margin_needed"
   ],
   "note": "From C86 and C35. C93_margin_needed is the concrete galaxy that shows that the double precision labels are not the exact rule."
  },
  {
   "property": "C94",
   "status": "proved",
   "theorems": [
    "GChop.C94_lowest_star",
    "GChop.C94_after_center",
    "GChop.C94_no_label"
   ],
   "note": "The table of circular orbits starts at the most bound particle; 0/0 is NaN and the removal of eps outside [-1,1] does not see NaN. ratio_gap shows that two different doubles never have a quotient that rounds to one from inside, so no other particle takes the first place of the table."
  },
  {
   "property": "C95",
   "status": "proved",
   "theorems": [
    "GChop.C95_other_actions",
    "GChop.C95_error_action",
    "GChop.C95_warning_iff",
    "GChop.C95_complete",
    "GChop.C95_lowest_star"
   ],
   "note": "Verif/CircWarn.lean repeats the computation with a check after each element-wise operation. A warning is a NaN from operands without NaN or an infinity from finite operands (the flags invalid, divide and overflow); np.min, np.max, np.interp, np.arange and comparisons do not warn."
  },
  {
   "property": "C96",
   "status": "proved",
   "theorems": [
    "GChop.C96_mkgalaxy",
    "GChop.C96_center",
    "GChop.C96_star_align",
    "GChop.C96_potential",
    "GChop.C96_mkgalaxy_shares",
    "GChop.C96_center_shares",
    "GChop.C96_star_align_shares",
    "GChop.C96_potential_shares",
    "GChop.C96_distinct",
    "GChop.C96_write_elsewhere",
    "GChop.C96_center_write",
    "GChop.C96_star_align_write",
    "GChop.C96_potential_write",
    "GChop.C96_stale",
    "GChop.C96_session"
   ],
   "note": "Verif/Heap.lean runs the functions on a memory of arrays. That multiplying an array by a unit copies it, that a quantity is kept as it is, that asdict returns the stored quantities and that data frames hold copies are assumptions about astropy, uttrs, attrs and pandas, listed in DESIGN.md. Arrays overlap wholly or not at all."
  },
  {
   "property": "C97",
   "status": "proved",
   "theorems": [
    "GChop.C97_to_dataframe",
    "GChop.C97_plots",
    "GChop.C97_one_type",
    "GChop.C97_no_type",
    "GChop.C97_attributes",
    "GChop.C97_columns"
   ],
   "note": "Verif/BareString.lean has the two functions with arguments that may be strings; a Python string is a list of characters and `in` searches every place."
  },
  {
   "property": "C98",
   "status": "proved",
   "theorems": [
    "GChop.C98_bins",
    "GChop.C98_jthreshold",
    "GChop.C98_jhistogram",
    "GChop.C98_jehistogram",
    "GChop.C98_kmeans",
    "GChop.C98_gaussian_mixture",
    "GChop.C98_auto"
   ],
   "note": "n_jobs of AutoGaussianMixture only decides the schedule, which is arbitrary (C46). n_bin, digits and n_bin_E have to be integers here."
  },
  {
   "property": "C99",
   "status": "proved",
   "theorems": [
    "GChop.C99_total_energy",
    "GChop.C99_superposition",
    "GChop.C99_reciprocity",
    "GChop.C99_bounds"
   ],
   "note": "Exact arithmetic with G and the square root of an ordered field; the equations do not hold for rounded floats."
  },
  {
   "property": "C100",
   "status": "proved",
   "theorems": [
    "GChop.C100_jhistogram",
    "GChop.C100_spheroid_mass",
    "GChop.C100_jehistogram"
   ],
   "note": "Fairness of the generator is a hypothesis about numpy, shown satisfiable by a cyclic generator for every number of stars. Sorted edges are proved for exact arithmetic; the theorems cover floats wherever the edges are sorted."
  },
  {
   "property": "C101",
   "status": "proved",
   "theorems": [
    "GChop.C101_monotone",
    "GChop.C101_between",
    "GChop.C101_label"
   ],
   "note": "scikit-learn is an arbitrary function; the statements about labels are for exact arithmetic."
  },
  {
   "property": "C102",
   "status": "proved",
   "theorems": [
    "GChop.C102_jhistogram",
    "GChop.C102_jehistogram",
    "GChop.C102_double",
    "GChop.C102_double_energy",
    "GChop.C102_same",
    "GChop.C102_counterexample"
   ],
   "note": "m must divide 10**digits so that rounding to digits gives back the exact edges (the default, 100 bins and 2 digits, does)."
  },
  {
   "property": "C103",
   "status": "proved",
   "theorems": [
    "GChop.C103_jhistogram",
    "GChop.C103_jehistogram",
    "GChop.C103_margin_needed"
   ],
   "note": "The normalized energies that enter are the computed ones; C84 and C93 relate them to the exact energies."
  },
  {
   "property": "C104",
   "status": "proved",
   "theorems": [
    "GChop.C104_axis_nan",
    "GChop.C104_planar",
    "GChop.C104_planar_jcirc",
    "GChop.C104_twice",
    "GChop.C104_second_turns",
    "GChop.C104_second_nan",
    "GChop.C104_aligned_lost"
   ],
   "note": "C104_twice is for r_cut=None and needs Body.Ordinary particles and Tilted totals (components at most 2^200, one of x and y at least 2^-200 in size) before and after the first alignment; if x and y are both zero C104_axis_nan applies."
  },
  {
   "property": "C105",
   "status": "proved",
   "theorems": [
    "GChop.Header.C105_printed",
    "GChop.Header.C105_exit",
    "GChop.Header.C105_quiet",
    "GChop.Header.C105_verbose",
    "GChop.Header.C105_unreadable",
    "GChop.Header.C105_invalid",
    "GChop.Header.C105_order",
    "GChop.Header.C105_order_error",
    "GChop.Header.C105_hidden"
   ],
   "note": "Colours are not modelled: typer.echo drops them when the output is not a terminal. The text of an OSError is a parameter."
  },
  {
   "property": "C106",
   "status": "proved",
   "theorems": [
    "GChop.C106_more_stars",
    "GChop.C106_finer_double",
    "GChop.C106_energy_fewer",
    "GChop.C106_decompose",
    "GChop.C106_finer_exact",
    "GChop.C106_energy_finer_exact",
    "GChop.C106_not_multiple",
    "GChop.C106_energy_more",
    "GChop.C106_energy_edges"
   ],
   "note": "The generators are any that meet the contract of Rng.OK."
  },
  {
   "property": "C107",
   "status": "proved",
   "theorems": [
    "GChop.C107_classes",
    "GChop.C107_seeds",
    "GChop.C107_same_arguments",
    "GChop.C107_equal_same",
    "GChop.C107_threshold",
    "GChop.C107_hash",
    "GChop.C107_galaxies",
    "GChop.C107_itself",
    "GChop.C107_hash_raises",
    "GChop.C107_no_hash",
    "GChop.C107_components",
    "GChop.C107_types",
    "GChop.C107_nan"
   ],
   "note": "The methods __eq__ and __hash__ are generated by attrs; the model follows its documentation. Truth values of empty arrays and of arrays of different lengths depend on the version of numpy and are parameters. Integers are compared with floats after rounding."
  },
  {
   "property": "C108",
   "status": "proved",
   "theorems": [
    "GChop.C108_profile",
    "GChop.C108_circularity",
    "GChop.C108_labels",
    "GChop.C108_example"
   ],
   "note": "The input is the same in both computations: coordinates, velocities and potential given as doubles. Without a margin the labels may differ (C93, C103). C108_example is a galaxy that satisfies all hypotheses."
  },
  {
   "property": "C109",
   "status": "proved",
   "theorems": [
    "GChop.C109_succeeds",
    "GChop.C109_profile",
    "GChop.C109_circularity",
    "GChop.C109_labels"
   ],
   "note": "C108 is the case in which the real numbers are the coordinates themselves, and C108_example satisfies the hypotheses of both."
  },
  {
   "property": "C110",
   "status": "proved",
   "theorems": [
    "GChop.C110_fortran",
    "GChop.C110_numpy",
    "GChop.C110_example"
   ],
   "note": "The input must be single precision numbers: otherwise the potential backend rounds the coordinates first and the sum is that of the rounded data (C77). With other contents on the diagonal the numpy backend is wrong (C19). C110_example is a galaxy of seven particles that satisfies all hypotheses."
  },
  {
   "property": "C111",
   "status": "proved",
   "theorems": [
    "GChop.C111_eps",
    "GChop.C111_jhistogram",
    "GChop.C111_jehistogram",
    "GChop.C111_fortran",
    "GChop.C111_numpy",
    "GChop.C111_example"
   ],
   "note": "The default of 100 bins and 2 digits is m = 50. Corner stars lie on the outer edges in both arithmetics, so they need no margin. C111_example is a galaxy of seven particles that satisfies all hypotheses with the default bins of both models."
  },
  {
   "property": "C112",
   "status": "proved",
   "theorems": [
    "GChop.C112_example",
    "GChop.C112_center_align",
    "GChop.C112_kinematics"
   ],
   "note": "phi is the exact potential and eta a bound of the error of the given one; eta = 0 is the case of given potentials. C112_example is a galaxy around (1/2, -3, 2) that turns about (3, 4, 12); it satisfies all hypotheses, and the labels of the three models are computed. C117_example is the same with a cutoff radius. A galaxy that turns about the z axis exactly (where the rotation divides by zero, C15) is not covered."
  },
  {
   "property": "C113",
   "status": "proved",
   "theorems": [
    "GChop.C113_fortran",
    "GChop.C113_numpy",
    "GChop.C113_example"
   ],
   "note": "C113_example is a galaxy of five stars on a line through a heavy particle, away from the origin and turning about (3, 4, 12); it satisfies all hypotheses of C113_fortran, and the labels of the three models are computed."
  },
  {
   "property": "C114",
   "status": "proved",
   "theorems": [
    "GChop.C114_contributing_bins",
    "GChop.C114_few_particles",
    "GChop.C114_populated_bins",
    "GChop.C114_default_edges",
    "GChop.C114_counterexample"
   ],
   "note": "C30 has the same in exact arithmetic. C114_counterexample computes the profile and circularities of the three stars with and without the fourth particle."
  },
  {
   "property": "C115",
   "status": "proved",
   "theorems": [
    "GChop.C115_coordinates",
    "GChop.C115_threshold",
    "GChop.C115_jhistogram",
    "GChop.C115_bits_differ",
    "GChop.C115_example"
   ],
   "note": "C81, C82, C104, C112 and C113 are stated for the same class of dot products (Fused in Spec/Summation.lean). C115_example is the galaxy of C112 with both kinds of dot product: the coordinates differ, the labels agree."
  },
  {
   "property": "C116",
   "status": "proved",
   "theorems": [
    "GChop.C116_fortran",
    "GChop.C116_numpy",
    "GChop.C116_labels_fortran",
    "GChop.C116_labels_numpy",
    "GChop.C116_numpy_differs",
    "GChop.C116_compiler_differs"
   ],
   "note": "wideEnv in Single.lean is numpy 2. C77, C83, C110, C111 and C113 are stated for the same class of compiled sums of squares (Fused). nearPair_wide and exWhirl_wide are the galaxies of C83 and C113 with constants that single precision does not have."
  },
  {
   "property": "C117",
   "status": "proved",
   "theorems": [
    "GChop.C117_cut",
    "GChop.C117_is_aligned",
    "GChop.C117_edge",
    "GChop.C117_example"
   ],
   "note": "The cutoff is a parameter rc of C112_center_align, C112_kinematics, C113, C115 and C116; CutClear in AlignedLabels.lean is the margin after centring. C117_example is the galaxy of C112 with r_cut = 30, which leaves out one star of five."
  },
  {
   "property": "C118",
   "status": "proved",
   "theorems": [
    "GChop.C118_results",
    "GChop.C118_itself",
    "GChop.C118_plotter",
    "GChop.C118_plotters",
    "GChop.C118_no_hash",
    "GChop.C118_one_star",
    "GChop.C118_nan"
   ],
   "note": "C118_results, C118_itself, C118_plotter, C118_plotters, C118_no_hash; C118_one_star is the case of one star and C118_nan a galaxy where it happens."
  },
  {
   "property": "C119",
   "status": "proved",
   "theorems": [
    "GChop.C119_strings",
    "GChop.C119_ascii",
    "GChop.C119_count",
    "GChop.C119_ligature"
   ],
   "note": "C119_strings characterises the strings, C119_ascii is the case of ASCII, C119_count the number, C119_ligature three of the others. UpperTable (Verif/Upper.lean) is what is assumed of the Unicode table; the example beside the theorems is a table that satisfies it."
  },
  {
   "property": "C120",
   "status": "proved",
   "theorems": [
    "GChop.C120_accepted",
    "GChop.C120_length_refused",
    "GChop.C120_cut_refused",
    "GChop.C120_cut_any_unit"
   ],
   "note": "C120_accepted and C120_length_refused about softenings, C120_cut_refused and C120_cut_any_unit about the cutoff. The behaviour of float() and of comparisons on quantities is in the header of Verif/Softening.lean."
  },
  {
   "property": "C121",
   "status": "proved",
   "theorems": [
    "GChop.C121_turn",
    "GChop.C121_half_turn",
    "GChop.C121_jump"
   ],
   "note": "C121_turn is the general statement; C121_jump and C121_half_turn are the galaxies of one star. C104 is about x, y and z after a second alignment without the angle, C15 about exact arithmetic."
  }
 ]
}