{
 "claims": [
  {
   "property": "C01",
   "status": "proved",
   "theorems": [
    "OpenGV.Props.C01_samples_valid"
   ],
   "note": "For every history of calls on a fresh object and every random stream."
  },
  {
   "property": "C02",
   "status": "proved",
   "theorems": [
    "OpenGV.Props.C02_pool_permutation"
   ],
   "note": ""
  },
  {
   "property": "C03",
   "status": "proved",
   "theorems": [
    "OpenGV.Props.C03_every_sample_reachable",
    "OpenGV.Props.C03_residues_determine_sample"
   ],
   "note": "Reachability and injectivity in the residues; the generator itself is an arbitrary stream, no probability measure is modelled."
  },
  {
   "property": "C04",
   "status": "proved",
   "theorems": [
    "OpenGV.Props.C04_too_few",
    "OpenGV.Props.C04_draw_undefined_iff",
    "OpenGV.Props.C04_bounded_attempts"
   ],
   "note": "Undefined behaviour is a separate outcome (none)."
  },
  {
   "property": "C05",
   "status": "proved",
   "theorems": [
    "OpenGV.Props.C05_terminates_within_budget",
    "OpenGV.Props.C05_one_extra_iteration"
   ],
   "note": "The claim that max_iterations_ itself is not respected is C05_one_extra_iteration."
  },
  {
   "property": "C06",
   "status": "proved",
   "theorems": [
    "OpenGV.Props.C06_maximal_support"
   ],
   "note": ""
  },
  {
   "property": "C07",
   "status": "proved",
   "theorems": [
    "OpenGV.Props.C07_inliers_exact"
   ],
   "note": ""
  },
  {
   "property": "C08",
   "status": "proved",
   "theorems": [
    "OpenGV.Props.C08_return_value_fresh",
    "OpenGV.Props.C08_stale_model_on_reuse"
   ],
   "note": "The false part (reuse) is stated by C08_stale_model_on_reuse."
  },
  {
   "property": "C09",
   "status": "proved",
   "theorems": [
    "OpenGV.Props.C09_confidence",
    "OpenGV.Props.C09_true_probability_le",
    "OpenGV.Props.C09_confidence_not_achieved"
   ],
   "note": "C09_confidence_not_achieved is the concrete run showing that the confidence fails for sampling without repetition. Exact reals; log is Real.log."
  },
  {
   "property": "C10",
   "status": "proved",
   "theorems": [
    "OpenGV.Props.C10_median_exists_unique",
    "OpenGV.Props.C10_minimal_median"
   ],
   "note": ""
  },
  {
   "property": "C11",
   "status": "proved",
   "theorems": [
    "OpenGV.Props.C11_no_threshold",
    "OpenGV.Props.C11_terminates_within_budget",
    "OpenGV.Props.C11_inliers",
    "OpenGV.Props.C11_return_value"
   ],
   "note": ""
  },
  {
   "property": "C12",
   "status": "proved",
   "theorems": [
    "OpenGV.Props.C12_select_and_count",
    "OpenGV.Props.C12_monotone",
    "OpenGV.Props.C12_nonpositive_threshold"
   ],
   "note": ""
  },
  {
   "property": "C13",
   "status": "proved",
   "theorems": [
    "OpenGV.Props.C13_samples_valid",
    "OpenGV.Props.C13_terminates_within_budget",
    "OpenGV.Props.C13_best_model_and_inliers"
   ],
   "note": ""
  },
  {
   "property": "C14",
   "status": "proved",
   "theorems": [
    "OpenGV.Props.C14_to_serial_and_back",
    "OpenGV.Props.C14_from_serial_and_back",
    "OpenGV.Props.C14_number_correspondences"
   ],
   "note": ""
  },
  {
   "property": "C15",
   "status": "proved",
   "theorems": [
    "OpenGV.Props.C15_serial_access",
    "OpenGV.Props.C15_convert_lists"
   ],
   "note": ""
  },
  {
   "property": "C16",
   "status": "proved",
   "theorems": [
    "OpenGV.Props.C16_balanced",
    "OpenGV.Props.C16_out_of_bounds"
   ],
   "note": ""
  },
  {
   "property": "C17",
   "status": "proved",
   "theorems": [
    "OpenGV.Props.C17_actual_scores",
    "OpenGV.Props.C17_uniform_indices",
    "OpenGV.Props.C17_general_indices_wrong"
   ],
   "note": ""
  },
  {
   "property": "C18",
   "status": "proved",
   "theorems": [
    "OpenGV.Props.C18_cayley_rotation"
   ],
   "note": ""
  },
  {
   "property": "C19",
   "status": "proved",
   "theorems": [
    "OpenGV.Props.C19_rot2cayley_cayley2rot",
    "OpenGV.Props.C19_cayley2rot_rot2cayley",
    "OpenGV.Props.C19_undefined_iff_half_turn"
   ],
   "note": ""
  },
  {
   "property": "C20",
   "status": "proved",
   "theorems": [
    "OpenGV.Props.C20_quaternion_rotation"
   ],
   "note": ""
  },
  {
   "property": "C21",
   "status": "proved",
   "theorems": [
    "OpenGV.Props.C21_round_trip",
    "OpenGV.Props.C21_unit",
    "OpenGV.Props.C21_undefined_on_axis_rotations"
   ],
   "note": ""
  },
  {
   "property": "C22",
   "status": "proved",
   "theorems": [
    "OpenGV.Props.C22_arun_optimal"
   ],
   "note": ""
  },
  {
   "property": "C23",
   "status": "proved",
   "theorems": [
    "OpenGV.Props.C23_alignment_optimal"
   ],
   "note": ""
  },
  {
   "property": "C24",
   "status": "proved",
   "theorems": [
    "OpenGV.Props.C24_points_exact",
    "OpenGV.Props.C24_twopt_rotation_exact",
    "OpenGV.Props.C24_rotation_only_exact"
   ],
   "note": ""
  },
  {
   "property": "C25",
   "status": "proved",
   "theorems": [
    "OpenGV.Props.C25_singular_iff_parallel",
    "OpenGV.Props.C25_midpoint_of_closest",
    "OpenGV.Props.C25_exact_recovery"
   ],
   "note": ""
  },
  {
   "property": "C26",
   "status": "proved",
   "theorems": [
    "OpenGV.Props.C26_exact_recovery",
    "OpenGV.Props.C26_wrong_point_at_horizon"
   ],
   "note": ""
  },
  {
   "property": "C27",
   "status": "proved",
   "theorems": [
    "OpenGV.Props.C27_quartic_roots",
    "OpenGV.Props.C27_quartic_defined",
    "OpenGV.Props.C27_quartic_undefined"
   ],
   "note": ""
  },
  {
   "property": "C28",
   "status": "proved",
   "theorems": [
    "OpenGV.Props.C28_cubic_roots",
    "OpenGV.Props.C28_cubic_undefined_iff",
    "OpenGV.Props.C28_three_real_roots"
   ],
   "note": ""
  },
  {
   "property": "C29",
   "status": "proved",
   "theorems": [
    "OpenGV.Props.C29_bound",
    "OpenGV.Props.C29_linear",
    "OpenGV.Props.C29_undefined"
   ],
   "note": ""
  },
  {
   "property": "C30",
   "status": "proved",
   "theorems": [
    "OpenGV.Props.C30_root_count",
    "OpenGV.Props.C30_root_count_ends",
    "OpenGV.Props.C30_evaluators_agree"
   ],
   "note": ""
  },
  {
   "property": "C31",
   "status": "proved",
   "theorems": [
    "OpenGV.Props.C31_brackets",
    "OpenGV.Props.C31_findRoots_count",
    "OpenGV.Props.C31_root_on_bound_lost",
    "OpenGV.Props.C31_double_root_diverges",
    "OpenGV.Props.C31_correction"
   ],
   "note": ""
  },
  {
   "property": "C32",
   "status": "proved",
   "theorems": [
    "OpenGV.Props.C32_in_bounds",
    "OpenGV.Props.C32_negative_exit",
    "OpenGV.Props.C32_shape",
    "OpenGV.Props.C32_row_space",
    "OpenGV.Props.C32_relations",
    "OpenGV.Props.C32_defined_iff_regular",
    "OpenGV.Props.C32_threshold_loses_relation"
   ],
   "note": ""
  },
  {
   "property": "C33",
   "status": "proved",
   "theorems": [
    "OpenGV.Props.C33_any_input",
    "OpenGV.Props.C33_exact_recovery"
   ],
   "note": ""
  },
  {
   "property": "C34",
   "status": "proved",
   "theorems": [
    "OpenGV.Props.C34_rotations",
    "OpenGV.Props.C34_true_pose_among"
   ],
   "note": "Every SVD meeting the contract; the candidates are the four (t,R) combinations before the cheirality selection."
  },
  {
   "property": "C35",
   "status": "proved",
   "theorems": [
    "OpenGV.Props.C35_singular",
    "OpenGV.Props.C35_exact_recovery"
   ],
   "note": ""
  },
  {
   "property": "C36",
   "status": "proved",
   "theorems": [
    "OpenGV.Props.C36_constraints",
    "OpenGV.Props.C36_singular",
    "OpenGV.Props.C36_complete",
    "OpenGV.Props.C36_shortcut_loses_solutions"
   ],
   "note": "EigenSolver enters by its eigenvalue contract (IsEigenvalues). The lost-solution case is C36_shortcut_loses_solutions."
  },
  {
   "property": "C37",
   "status": "proved",
   "theorems": [
    "OpenGV.Props.C37_nister",
    "OpenGV.Props.C37_stewenius",
    "OpenGV.Props.C37_essential"
   ],
   "note": "Two tables of 200 coefficients each, transcribed by tools/gen_fivept.py; the coefficients are compared as symbolic polynomials by kernel computation. Also shown: the real solutions of the constraints are exactly [t]x R."
  },
  {
   "property": "C38",
   "status": "proved",
   "theorems": [
    "OpenGV.Props.C38_complete",
    "OpenGV.Props.C38_essential"
   ],
   "note": "Elimination over exact reals. The root finder returns approximations (C31, C52), so the last step is stated at the exact root; pollishCoefficients (Levenberg-Marquardt) enters as a function that leaves exact solutions alone."
  },
  {
   "property": "C39",
   "status": "proved",
   "theorems": [
    "OpenGV.Props.C39_weights",
    "OpenGV.Props.C39_gram",
    "OpenGV.Props.C39_true_pose",
    "OpenGV.Props.C39_smallest_ev",
    "OpenGV.Props.C39_objective",
    "OpenGV.Props.C39_jacobian",
    "OpenGV.Props.C39_jacobian_defined",
    "OpenGV.Props.C39_pose"
   ],
   "note": "The Levenberg-Marquardt descent enters as an arbitrary result; the pose theorem assumes it reached the true rotation. Eigen's EigenSolver enters by contract (IsEigenSystem, existence proved), std::sort as an order-sorting permutation. C39_smallest_ev and C39_jacobian give the exact domains of the closed forms."
  },
  {
   "property": "C40",
   "status": "proved",
   "theorems": [
    "OpenGV.Props.C40_form",
    "OpenGV.Props.C40_true_pose",
    "OpenGV.Props.C40_pose"
   ],
   "note": "EigenSolver by contract (IsEigenSystem). C40_pose assumes that the descent reached the true rotation and that the constraints fix the translation; the example meets all hypotheses."
  },
  {
   "property": "C41",
   "status": "proved",
   "theorems": [
    "OpenGV.Props.C41_p2p_exact",
    "OpenGV.Props.C41_p2p_tie",
    "OpenGV.Props.C41_p2p_tie_wrong"
   ],
   "note": "Corrected statement: C41_p2p_tie and C41_p2p_tie_wrong show the exception."
  },
  {
   "property": "C42",
   "status": "proved",
   "theorems": [
    "OpenGV.Props.C42_true_pose",
    "OpenGV.Props.C42_pose_consistent",
    "OpenGV.Props.C42_real_root",
    "OpenGV.Props.C42_blind_plane"
   ],
   "note": "Exact reals; none is a pose with NaN entries. C42_true_pose needs only that some finite pose is returned and the exact circle condition. C42_blind_plane is the NaN case."
  },
  {
   "property": "C43",
   "status": "proved",
   "theorems": [
    "OpenGV.Props.C43_true_pose",
    "OpenGV.Props.C43_real_root",
    "OpenGV.Props.C43_wrong_guard",
    "OpenGV.Props.C43_coplanar_passes"
   ],
   "note": "The SVD inside arun enters by contract. C43_wrong_guard and C43_coplanar_passes document the wrong constant in the coplanarity test."
  },
  {
   "property": "C44",
   "status": "proved",
   "theorems": [
    "OpenGV.Props.C44_energy_min",
    "OpenGV.Props.C44_singular_iff"
   ],
   "note": "Depths are one list entry per correspondence; the energy does not need a unit quaternion."
  },
  {
   "property": "C45",
   "status": "proved",
   "theorems": [
    "OpenGV.Props.C45_main",
    "OpenGV.Props.C45_main_sym",
    "OpenGV.Props.C45_nan"
   ],
   "note": "The eigenvectors are an arbitrary list; the false part (NaN candidate) is C45_nan."
  },
  {
   "property": "C46",
   "status": "proved",
   "theorems": [
    "OpenGV.Props.C46_coplanar",
    "OpenGV.Props.C46_barycentric",
    "OpenGV.Props.C46_kernel",
    "OpenGV.Props.C46_true_points",
    "OpenGV.Props.C46_distances",
    "OpenGV.Props.C46_derivative",
    "OpenGV.Props.C46_qr",
    "OpenGV.Props.C46_qr_complete",
    "OpenGV.Props.C46_qr_missed_row",
    "OpenGV.Props.C46_uninit",
    "OpenGV.Props.C46_alignment",
    "OpenGV.Props.C46_exact",
    "OpenGV.Props.C46_two",
    "OpenGV.Props.C46_products",
    "OpenGV.Props.C46_negated"
   ],
   "note": "The false part (qr_solve reports independent columns as singular) is C46_qr_missed_row. C46_exact is for data which determine the pose; the outcome .uninit is the use of an uninitialised array. C46_two and C46_products are about the approximations; C46_negated is a defect of the second one."
  },
  {
   "property": "C47",
   "status": "proved",
   "theorems": [
    "OpenGV.Props.C47_weights",
    "OpenGV.Props.C47_system",
    "OpenGV.Props.C47_true_points",
    "OpenGV.Props.C47_intercept",
    "OpenGV.Props.C47_selection",
    "OpenGV.Props.C47_exact"
   ],
   "note": "Eigen's decompositions are parameters with their contracts, the result of gpnp_optimize is arbitrary."
  },
  {
   "property": "C48",
   "status": "proved",
   "theorems": [
    "OpenGV.Props.C48_best_candidate",
    "OpenGV.Props.C48_exact_candidate_found"
   ],
   "note": ""
  },
  {
   "property": "C49",
   "status": "proved",
   "theorems": [
    "OpenGV.Props.C49_absolute",
    "OpenGV.Props.C49_relative",
    "OpenGV.Props.C49_relative_points"
   ],
   "note": ""
  },
  {
   "property": "C50",
   "status": "proved",
   "theorems": [
    "OpenGV.Props.C50_absolute",
    "OpenGV.Props.C50_two_view",
    "OpenGV.Props.C50_rotation_and_cloud",
    "OpenGV.Props.C50_scores_per_index"
   ],
   "note": ""
  },
  {
   "property": "C51",
   "status": "proved",
   "theorems": [
    "OpenGV.Props.C51_round_robin"
   ],
   "note": ""
  },
  {
   "property": "C52",
   "status": "proved",
   "theorems": [
    "OpenGV.Props.C52_findRoots2_sound",
    "OpenGV.Props.C52_findRoots2_diverges"
   ],
   "note": ""
  },
  {
   "property": "C53",
   "status": "proved",
   "theorems": [
    "OpenGV.Props.C53_explains_sample",
    "OpenGV.Props.C53_exact_recovery",
    "OpenGV.Props.C53_eightpt_pipeline"
   ],
   "note": "C53_eightpt_pipeline chains eightpt, the decomposition and the selection."
  },
  {
   "property": "C54",
   "status": "proved",
   "theorems": [
    "OpenGV.Props.C54_eigenvector",
    "OpenGV.Props.C54_read",
    "OpenGV.Props.C54_null_space",
    "OpenGV.Props.C54_recovers"
   ],
   "note": "Eigen's eigenvectors enter by contract (IsEigenvectors, existence proved). The example has five correspondences of a known pose with all hypotheses checked."
  },
  {
   "property": "C55",
   "status": "proved",
   "theorems": [
    "OpenGV.Props.C55_getEV",
    "OpenGV.Props.C55_cost"
   ],
   "note": "Exact reals; none is a NaN. composeGwithJacobians and getCostWithJacobian are not called by ge_main2 and are not modelled."
  },
  {
   "property": "C56",
   "status": "proved",
   "theorems": [
    "OpenGV.Props.C56_descent",
    "OpenGV.Props.C56_direction",
    "OpenGV.Props.C56_terminates",
    "OpenGV.Props.C56_exact_loop",
    "OpenGV.Props.C56_central"
   ],
   "note": "The rounding of the sampling point is an arbitrary function; C56_exact_loop shows that the hypothesis on it is needed. The starting rotation (arun on the bearing vectors) is arbitrary."
  },
  {
   "property": "C57",
   "status": "proved",
   "theorems": [
    "OpenGV.Props.C57_newton",
    "OpenGV.Props.C57_true_pose",
    "OpenGV.Props.C57_results",
    "OpenGV.Props.C57_two",
    "OpenGV.Props.C57_axis_nan"
   ],
   "note": "The eigenvectors are an arbitrary list. C57_axis_nan states the defect for rotations with a zero quaternion component."
  },
  {
   "property": "C58",
   "status": "proved",
   "theorems": [
    "OpenGV.Props.C58_factors1",
    "OpenGV.Props.C58_factors2",
    "OpenGV.Props.C58_factors3",
    "OpenGV.Props.C58_factors4",
    "OpenGV.Props.C58_factors5",
    "OpenGV.Props.C58_fifth_wrong",
    "OpenGV.Props.C58_ignores_points",
    "OpenGV.Props.C58_coincident"
   ],
   "note": "The negative part is C58_fifth_wrong, C58_ignores_points and C58_coincident. The examples are certified runs modulo the prime 65537."
  },
  {
   "property": "C59",
   "status": "proved",
   "theorems": [
    "OpenGV.Props.C59_central",
    "OpenGV.Props.C59_ignores_bearings",
    "OpenGV.Props.C59_factors"
   ],
   "note": "Describes a defect: with a central camera the result ignores the bearing vectors."
  },
  {
   "property": "C60",
   "status": "proved",
   "theorems": [
    "OpenGV.Props.C60_indices",
    "OpenGV.Props.C60_arrays_central",
    "OpenGV.Props.C60_arrays_noncentral",
    "OpenGV.Props.C60_arrays_multi",
    "OpenGV.Props.C60_lengths",
    "OpenGV.Props.C60_camera_of_correspondence",
    "OpenGV.Props.C60_camera_of_correspondence_relative"
   ],
   "note": "Arrays are lists of numbers; the serial view of the multi-camera adapter uses the tables of C14 and C15."
  },
  {
   "property": "C61",
   "status": "proved",
   "theorems": [
    "OpenGV.Props.C61_rotation",
    "OpenGV.Props.C61_half_turn",
    "OpenGV.Props.C61_never_worse",
    "OpenGV.Props.C61_exact_kept",
    "OpenGV.Props.C61_side_effect"
   ],
   "note": "Eigen's LevenbergMarquardt is an arbitrary function with the contract LmOk (needed only for C61_never_worse and C61_exact_kept). C61_half_turn and C61_side_effect describe defects."
  },
  {
   "property": "C62",
   "status": "proved",
   "theorems": [
    "OpenGV.Props.C62_linear_system",
    "OpenGV.Props.C62_elimination",
    "OpenGV.Props.C62_rotations",
    "OpenGV.Props.C62_exact",
    "OpenGV.Props.C62_central"
   ],
   "note": "Decompositions enter by contract; the example is seventeen explicit correspondences. C62_central describes a degenerate case the code does not detect."
  },
  {
   "property": "C63",
   "status": "proved",
   "theorems": [
    "OpenGV.Props.C63_eigenvector",
    "OpenGV.Props.C63_recovers",
    "OpenGV.Props.C63_source",
    "OpenGV.Props.C63_results"
   ],
   "note": "EigenSolver enters by contract; exact arithmetic, a division by zero in the elimination is a separate outcome. The elimination is transcribed statement by statement by tools/gen_groebner.py and tools/gen_kneip_init.py. The example is a pose with five points, its run certified modulo a prime."
  },
  {
   "property": "C64",
   "status": "proved",
   "theorems": [
    "OpenGV.Props.C64_template",
    "OpenGV.Props.C64_gradient",
    "OpenGV.Props.C64_sym",
    "OpenGV.Props.C64_true_pose",
    "OpenGV.Props.C64_gen",
    "OpenGV.Props.C64_four_defect",
    "OpenGV.Props.C64_gen_read"
   ],
   "note": "EigenSolver enters by contract; exact arithmetic; a singular block or zero pivot is a separate outcome. The tables are transcribed by tools/gen_upnp.py. C64_four_defect is a defect of the code for at most four correspondences. The examples are rational data; regularity of the 141x141, 149x149 and 395x395 matrices is certified modulo 11 in the kernel."
  },
  {
   "property": "C65",
   "status": "proved",
   "theorems": [
    "OpenGV.Props.C65_tables",
    "OpenGV.Props.C65_groups",
    "OpenGV.Props.C65_coefficients",
    "OpenGV.Props.C65_determinants",
    "OpenGV.Props.C65_equations",
    "OpenGV.Props.C65_action",
    "OpenGV.Props.C65_true_rotation",
    "OpenGV.Props.C65_rotations",
    "OpenGV.Props.C65_central"
   ],
   "note": "EigenSolver enters by contract; exact arithmetic; a singular B\u1d40 B or a singular leading block is a separate outcome. The number of correspondences is six, as the code asserts. Example with rational data; regularity certified modulo 251 in the kernel."
  },
  {
   "property": "C66",
   "status": "proved",
   "theorems": [
    "OpenGV.Props.C66_objective",
    "OpenGV.Props.C66_translation",
    "OpenGV.Props.C66_other_column",
    "OpenGV.Props.C66_choice",
    "OpenGV.Props.C66_true_pose",
    "OpenGV.Props.C66_order_defect"
   ],
   "note": "EigenSolver enters by contract; exact arithmetic. C66_order_defect is a defect of the code relative to the documented contract (the eigenvalues are not sorted); whether a given version of the library lists the zero eigenvalue first is outside the model."
  },
  {
   "property": "C67",
   "status": "proved",
   "theorems": [
    "OpenGV.Props.C67_eigenvector",
    "OpenGV.Props.C67_recovers",
    "OpenGV.Props.C67_source",
    "OpenGV.Props.C67_results",
    "OpenGV.Props.C67_number"
   ],
   "note": "EigenSolver enters by contract; exact arithmetic, a division by zero in the elimination is a separate outcome. The program is transcribed statement by statement by tools/gen_groebner.py and tools/gen_gp3p_init.py. C67_number is a defect of the code (the imaginary part is compared without absolute value). The example is a pose with three points, its run certified modulo a prime."
  },
  {
   "property": "C68",
   "status": "proved",
   "theorems": [
    "OpenGV.Props.C68_in_bounds",
    "OpenGV.Props.C68_kneip",
    "OpenGV.Props.C68_gao",
    "OpenGV.Props.C68_gp3p",
    "OpenGV.Props.C68_twopt",
    "OpenGV.Props.C68_twopt_prior",
    "OpenGV.Props.C68_epnp",
    "OpenGV.Props.C68_multi"
   ],
   "note": "Composes C41, C42, C43, C46, C48, C50 and C67 with the choice of the fourth point and the body frame; exact arithmetic, decompositions by contract. C68_twopt_prior is a defect of the code."
  },
  {
   "property": "C69",
   "status": "proved",
   "theorems": [
    "OpenGV.Props.C69_known_rotation",
    "OpenGV.Props.C69_known_rotation_inliers",
    "OpenGV.Props.C69_refined_rotation",
    "OpenGV.Props.C69_eigensolver",
    "OpenGV.Props.C69_eigensolver_refine",
    "OpenGV.Props.C69_multi_central"
   ],
   "note": "The state of the adapter is threaded through the RANSAC loop as an invariant. Composes C05, C06, C19, C33, C39, C50 and C61; exact arithmetic, minimiser and eigenvalue decomposition arbitrary. C69_refined_rotation and C69_multi_central are defects of the code."
  },
  {
   "property": "C70",
   "status": "proved",
   "theorems": [
    "OpenGV.Props.C70_reachable",
    "OpenGV.Props.C70_point_cloud",
    "OpenGV.Props.C70_point_cloud_exact",
    "OpenGV.Props.C70_rotation_exact",
    "OpenGV.Props.C70_rotation_two_inliers",
    "OpenGV.Props.C70_central_relative",
    "OpenGV.Props.C70_absolute",
    "OpenGV.Props.C70_ge_no_parallax"
   ],
   "note": "Composes C03, C05, C06, C07, C08, C22-C24, C40, C50, C53 and C55; exact arithmetic, decomposition and essential matrix solver arbitrary. C70_rotation_two_inliers and C70_ge_no_parallax are defects of the code."
  },
  {
   "property": "C71",
   "status": "proved",
   "theorems": [
    "OpenGV.Props.C71_breakdown",
    "OpenGV.Props.C71_half_not_enough",
    "OpenGV.Props.C71_reachable",
    "OpenGV.Props.C71_point_cloud_exact",
    "OpenGV.Props.C71_rotation_exact",
    "OpenGV.Props.C71_nan_sort"
   ],
   "note": "Counting with order statistics on top of C10 and C11; uniqueness of the transformation from C24. Exact arithmetic. C71_half_not_enough shows that the bound is sharp; C71_nan_sort is a defect of the code."
  },
  {
   "property": "C72",
   "status": "proved",
   "theorems": [
    "OpenGV.Props.C72_rotation",
    "OpenGV.Props.C72_rotation_overloads",
    "OpenGV.Props.C72_point",
    "OpenGV.Props.C72_noise",
    "OpenGV.Props.C72_relative",
    "OpenGV.Props.C72_perturbed",
    "OpenGV.Props.C72_indices",
    "OpenGV.Props.C72_2d3d",
    "OpenGV.Props.C72_2d3d_out_of_bounds",
    "OpenGV.Props.C72_2d2d",
    "OpenGV.Props.C72_2d2d_central",
    "OpenGV.Props.C72_3d3d",
    "OpenGV.Props.C72_outlier_camera",
    "OpenGV.Props.C72_ransac",
    "OpenGV.Props.C72_lmeds",
    "OpenGV.Props.C72_multi_2d3d",
    "OpenGV.Props.C72_multi_serial",
    "OpenGV.Props.C72_multi_2d2d",
    "OpenGV.Props.C72_multi_out_of_bounds"
   ],
   "note": "Outputs of rand() are parameters; exact arithmetic. C72_outlier_camera is a defect of the code; C72_point (points beyond the maximum depth) and C72_noise (NaN on a set of directions) state two more. The printing functions are not modelled."
  },
  {
   "property": "C73",
   "status": "proved",
   "theorems": [
    "OpenGV.Props.C73_find",
    "OpenGV.Props.C73_algorithm",
    "OpenGV.Props.C73_accepted",
    "OpenGV.Props.C73_defined",
    "OpenGV.Props.C73_data",
    "OpenGV.Props.C73_prior",
    "OpenGV.Props.C73_indices",
    "OpenGV.Props.C73_solutions",
    "OpenGV.Props.C73_unchecked_index",
    "OpenGV.Props.C73_unchecked_class"
   ],
   "note": "mexFunction up to the call of the algorithm, and the copying of solutions and inliers. Characters of the method are compared as Unicode characters, mxGetString is assumed to succeed. C73_unchecked_index and C73_unchecked_class are defects of the code. Not modelled: the address of the first inlier of an empty vector, the second output argument's class, the settings of the RANSAC runs."
  },
  {
   "property": "C74",
   "status": "proved",
   "theorems": [
    "OpenGV.Props.C74_rows",
    "OpenGV.Props.C74_flat",
    "OpenGV.Props.C74_memory",
    "OpenGV.Props.C74_adapter",
    "OpenGV.Props.C74_prior",
    "OpenGV.Props.C74_results",
    "OpenGV.Props.C74_triangulate",
    "OpenGV.Props.C74_triangulate_exact",
    "OpenGV.Props.C74_names",
    "OpenGV.Props.C74_twopt",
    "OpenGV.Props.C74_twopt_rotated",
    "OpenGV.Props.C74_p2p",
    "OpenGV.Props.C74_twopt_relative",
    "OpenGV.Props.C74_rotation_only"
   ],
   "note": "Array access, the two adapters, the conversions of results, triangulate2, p2p, twopt and the rotation-only solvers, the choice of the algorithm and the hypotheses of the absolute sample consensus. The behaviour of array.data and array.shape of pybind11 (bounds checks and strides) is part of the trusted base; c_style arrays are assumed contiguous. The last part (C74_twopt, C74_twopt_rotated) is a defect of the code. Not modelled: the wrappers for the other solvers, the settings of the sample consensus runs, lists of results."
  }
 ]
}