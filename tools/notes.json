{
 "C01": {
  "note": "For every history of calls on a fresh object and every random stream."
 },
 "C03": {
  "note": "Reachability and injectivity in the residues; the generator itself is an arbitrary stream, no probability measure is modelled."
 },
 "C04": {
  "note": "Undefined behaviour is a separate outcome (none)."
 },
 "C05": {
  "note": "The claim that max_iterations_ itself is not respected is C05_one_extra_iteration."
 },
 "C08": {
  "note": "The false part (reuse) is stated by C08_stale_model_on_reuse."
 },
 "C09": {
  "note": "C09_confidence_not_achieved is the concrete run showing that the confidence fails for sampling without repetition. Exact reals; log is Real.log."
 },
 "C34": {
  "note": "Every SVD meeting the contract; the candidates are the four (t,R) combinations before the cheirality selection."
 },
 "C36": {
  "note": "EigenSolver enters by its eigenvalue contract (IsEigenvalues). The lost-solution case is C36_shortcut_loses_solutions."
 },
 "C53": {
  "note": "C53_eightpt_pipeline chains eightpt, the decomposition and the selection."
 },
 "C37": {
  "note": "Two tables of 200 coefficients each, transcribed by tools/gen_fivept.py; the coefficients are compared as symbolic polynomials by kernel computation. Also shown: the real solutions of the constraints are exactly [t]x R."
 },
 "C38": {
  "note": "Elimination over exact reals. The root finder returns approximations (C31, C52), so the last step is stated at the exact root; pollishCoefficients (Levenberg-Marquardt) enters as a function that leaves exact solutions alone."
 },
 "C54": {
  "note": "Eigen's eigenvectors enter by contract (IsEigenvectors, existence proved). The example has five correspondences of a known pose with all hypotheses checked."
 },
 "C39": {
  "note": "The Levenberg-Marquardt descent enters as an arbitrary result; the pose theorem assumes it reached the true rotation. Eigen's EigenSolver enters by contract (IsEigenSystem, existence proved), std::sort as an order-sorting permutation. C39_smallest_ev and C39_jacobian give the exact domains of the closed forms."
 },
 "C40": {
  "note": "EigenSolver by contract (IsEigenSystem). C40_pose assumes that the descent reached the true rotation and that the constraints fix the translation; the example meets all hypotheses."
 },
 "C55": {
  "note": "Exact reals; none is a NaN. composeGwithJacobians and getCostWithJacobian are not called by ge_main2 and are not modelled."
 },
 "C56": {
  "note": "The rounding of the sampling point is an arbitrary function; C56_exact_loop shows that the hypothesis on it is needed. The starting rotation (arun on the bearing vectors) is arbitrary."
 },
 "C41": {
  "note": "Corrected statement: C41_p2p_tie and C41_p2p_tie_wrong show the exception."
 },
 "C42": {
  "note": "Exact reals; none is a pose with NaN entries. C42_true_pose needs only that some finite pose is returned and the exact circle condition. C42_blind_plane is the NaN case."
 },
 "C43": {
  "note": "The SVD inside arun enters by contract. C43_wrong_guard and C43_coplanar_passes document the wrong constant in the coplanarity test."
 },
 "C44": {
  "note": "Depths are one list entry per correspondence; the energy does not need a unit quaternion."
 },
 "C45": {
  "note": "The eigenvectors are an arbitrary list; the false part (NaN candidate) is C45_nan."
 },
 "C57": {
  "note": "The eigenvectors are an arbitrary list. C57_axis_nan states the defect for rotations with a zero quaternion component."
 },
 "C46": {
  "note": "The false part (qr_solve reports independent columns as singular) is C46_qr_missed_row. C46_exact is for data which determine the pose; the outcome .uninit is the use of an uninitialised array. C46_two and C46_products are about the approximations; C46_negated is a defect of the second one."
 },
 "C47": {
  "note": "Eigen's decompositions are parameters with their contracts, the result of gpnp_optimize is arbitrary."
 },
 "C58": {
  "note": "The negative part is C58_fifth_wrong, C58_ignores_points and C58_coincident. The examples are certified runs modulo the prime 65537."
 },
 "C59": {
  "note": "Describes a defect: with a central camera the result ignores the bearing vectors."
 },
 "C60": {
  "note": "Arrays are lists of numbers; the serial view of the multi-camera adapter uses the tables of C14 and C15."
 },
 "C61": {
  "note": "Eigen's LevenbergMarquardt is an arbitrary function with the contract LmOk (needed only for C61_never_worse and C61_exact_kept). C61_half_turn and C61_side_effect describe defects."
 },
 "C62": {
  "note": "Decompositions enter by contract; the example is seventeen explicit correspondences. C62_central describes a degenerate case the code does not detect."
 },
 "C63": {
  "note": "EigenSolver enters by contract; exact arithmetic, a division by zero in the elimination is a separate outcome. The elimination is transcribed statement by statement by tools/gen_groebner.py and tools/gen_kneip_init.py. The example is a pose with five points, its run certified modulo a prime."
 },
 "C64": {
  "note": "EigenSolver enters by contract; exact arithmetic; a singular block or zero pivot is a separate outcome. The tables are transcribed by tools/gen_upnp.py. C64_four_defect is a defect of the code for at most four correspondences. The examples are rational data; regularity of the 141x141, 149x149 and 395x395 matrices is certified modulo 11 in the kernel."
 },
 "C65": {
  "note": "EigenSolver enters by contract; exact arithmetic; a singular Bᵀ B or a singular leading block is a separate outcome. The number of correspondences is six, as the code asserts. Example with rational data; regularity certified modulo 251 in the kernel."
 },
 "C66": {
  "note": "EigenSolver enters by contract; exact arithmetic. C66_order_defect is a defect of the code relative to the documented contract (the eigenvalues are not sorted); whether a given version of the library lists the zero eigenvalue first is outside the model."
 },
 "C67": {
  "note": "EigenSolver enters by contract; exact arithmetic, a division by zero in the elimination is a separate outcome. The program is transcribed statement by statement by tools/gen_groebner.py and tools/gen_gp3p_init.py. C67_number is a defect of the code (the imaginary part is compared without absolute value). The example is a pose with three points, its run certified modulo a prime."
 },
 "C68": {
  "note": "Composes C41, C42, C43, C46, C48, C50 and C67 with the choice of the fourth point and the body frame; exact arithmetic, decompositions by contract. C68_twopt_prior is a defect of the code."
 },
 "C69": {
  "note": "The state of the adapter is threaded through the RANSAC loop as an invariant. Composes C05, C06, C19, C33, C39, C50 and C61; exact arithmetic, minimiser and eigenvalue decomposition arbitrary. C69_refined_rotation and C69_multi_central are defects of the code."
 },
 "C70": {
  "note": "Composes C03, C05, C06, C07, C08, C22-C24, C40, C50, C53 and C55; exact arithmetic, decomposition and essential matrix solver arbitrary. C70_rotation_two_inliers and C70_ge_no_parallax are defects of the code."
 },
 "C71": {
  "note": "Counting with order statistics on top of C10 and C11; uniqueness of the transformation from C24. Exact arithmetic. C71_half_not_enough shows that the bound is sharp; C71_nan_sort is a defect of the code."
 },
 "C72": {
  "note": "Outputs of rand() are parameters; exact arithmetic. C72_outlier_camera is a defect of the code; C72_point (points beyond the maximum depth) and C72_noise (NaN on a set of directions) state two more. The printing functions are not modelled."
 },
 "C73": {
  "note": "mexFunction up to the call of the algorithm, and the copying of solutions and inliers. Characters of the method are compared as Unicode characters, mxGetString is assumed to succeed. C73_unchecked_index and C73_unchecked_class are defects of the code. Not modelled: the address of the first inlier of an empty vector, the second output argument's class, the settings of the RANSAC runs."
 },
 "C74": {
  "note": "Array access, the two adapters, the conversions of results, triangulate2, p2p, twopt and the rotation-only solvers, the choice of the algorithm and the hypotheses of the absolute sample consensus. The behaviour of array.data and array.shape of pybind11 (bounds checks and strides) is part of the trusted base; c_style arrays are assumed contiguous. The last part (C74_twopt, C74_twopt_rotated) is a defect of the code. Not modelled: the wrappers for the other solvers, the settings of the sample consensus runs, lists of results."
 }
}