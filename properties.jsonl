{"id": "C01", "title": "Drawn samples are valid subsets of the index set", "statement": "Whenever a sample-consensus problem is asked for a sample, the vector it hands back is either empty or has exactly getSampleSize() entries, taken from pairwise different positions of the index set given by setIndices/setUniformIndices (so no correspondence is used twice when the index set has no repetitions), and it passed isSampleGood.", "quantifier": "every index set, every sample size, every output of the random generator, every acceptance predicate, every number and kind of earlier draws", "why_tests_cant": "The generator and the history of earlier in-place shuffles are unbounded; a test sees a few seeds.", "anchors": ["include/opengv/sac/implementation/SampleConsensusProblem.hpp: getSamples, drawIndexSample, setIndices, setUniformIndices"]}
{"id": "C02", "title": "Drawing never loses or duplicates indices", "statement": "No sequence of draws changes the set the samples come from: after any history the pool that is shuffled in place is a permutation of the index set last given.", "quantifier": "every index set, every sequence of draws and generator outputs", "why_tests_cant": "An invariant over unbounded histories.", "anchors": ["include/opengv/sac/implementation/SampleConsensusProblem.hpp: drawIndexSample"]}
{"id": "C03", "title": "Every sample can be drawn", "statement": "After any history, for every duplicate-free choice of getSampleSize() positions in any order there are generator outputs for which the next draw returns exactly that choice (no correspondence is systematically excluded), and distinct residues give distinct draws.", "quantifier": "every index set, history and target sample", "why_tests_cant": "Reachability of all n!/(n-s)! samples cannot be enumerated by sampling.", "anchors": ["include/opengv/sac/implementation/SampleConsensusProblem.hpp: drawIndexSample"]}
{"id": "C04", "title": "Too few indices is reported, never undefined behaviour", "statement": "If the index set holds fewer entries than the sample size, asking for a sample yields an empty sample and sets the caller's iteration counter to INT_MAX, and no modulo by zero or out-of-range access happens; with enough indices no draw performs an out-of-range access or modulo by zero either. Calling the raw draw with too few indices is undefined.", "quantifier": "every index set size (including 0), sample size and generator output", "why_tests_cant": "The unsafe cases are reached only by particular size combinations; absence of UB is a universal claim.", "anchors": ["include/opengv/sac/implementation/SampleConsensusProblem.hpp: getSamples, drawIndexSample"]}
{"id": "C05", "title": "RANSAC terminates within its budget", "statement": "RANSAC's computeModel always returns; it scores at most max_iterations_+1 hypotheses, rejects at most 10*max_iterations_ samples, and the reported iterations_ equals the number of hypotheses scored unless sampling failed. The bound max_iterations_ itself is not respected (one extra hypothesis may be scored).", "quantifier": "every problem, threshold, probability, max_iterations_ and random stream", "why_tests_cant": "Termination quantifies over all executions.", "anchors": ["include/opengv/sac/implementation/Ransac.hpp: computeModel"]}
{"id": "C06", "title": "RANSAC keeps a hypothesis with maximal support", "statement": "When computeModel of a fresh RANSAC object returns true, model_coefficients_ was computed from the sample model_, and no hypothesis scored during the run had more inliers than it; among those with equal support the earliest one is kept.", "quantifier": "every problem, data set, threshold and random stream", "why_tests_cant": "Optimality over all hypotheses of all runs.", "anchors": ["include/opengv/sac/implementation/Ransac.hpp: computeModel"]}
{"id": "C07", "title": "RANSAC's inlier set is exact", "statement": "When RANSAC's computeModel returns true, inliers_ lists exactly the indices whose distance to model_coefficients_ is strictly below threshold_, in index-set order, and on a fresh object its length is the support that won the race.", "quantifier": "every problem, threshold, run", "why_tests_cant": "Exactness for every distance vector and boundary value.", "anchors": ["include/opengv/sac/implementation/Ransac.hpp: computeModel", "include/opengv/sac/implementation/SampleConsensusProblem.hpp: selectWithinDistance"]}
{"id": "C08", "title": "RANSAC's return value tells whether a model was found", "statement": "On a fresh object computeModel returns true iff some sample of the run produced a model, and returns false with empty inliers_ otherwise. This is not so when the object is used again: a failing second run returns true with the model of the previous run.", "quantifier": "every problem and run; reuse histories", "why_tests_cant": "Failure on reuse depends on the history of calls.", "anchors": ["include/opengv/sac/implementation/Ransac.hpp: computeModel"]}
{"id": "C09", "title": "Adaptive stopping achieves the requested confidence", "statement": "If RANSAC stops before max_iterations_ because of its adaptive rule, then with w the inlier ratio of the returned model and s the sample size, (1-w^s)^iterations_ <= 1-probability_ whenever w^s is at least the machine epsilon. Because samples are drawn without repetition the true chance of an all-inlier sample is C(I,s)/C(n,s) <= w^s, so the requested confidence for the actual sampling is not guaranteed.", "quantifier": "every run, ratio, sample size and requested probability", "why_tests_cant": "A statement about reals and all runs; statistics over seeds cannot prove an inequality.", "anchors": ["include/opengv/sac/implementation/Ransac.hpp: computeModel"]}
{"id": "C10", "title": "LMedS keeps a hypothesis with minimal median error", "statement": "When LMedS' computeModel returns true on a fresh object, model_coefficients_ belongs to the sample model_ and the median of its squared (negative clipped to zero) distances is minimal among all hypotheses evaluated; the median used is the middle order statistic for odd counts and the mean of the two middle ones for even counts.", "quantifier": "every problem, distances, run", "why_tests_cant": "Optimality over all runs and all distance vectors.", "anchors": ["include/opengv/sac/implementation/Lmeds.hpp: computeModel"]}
{"id": "C11", "title": "LMedS inlier set and return value", "statement": "LMedS returns false when no threshold was set; when it returns true inliers_ are exactly the indices with distance <= threshold_ (non-strict, unlike RANSAC), in order; it scores at most max_iterations_ hypotheses and always terminates.", "quantifier": "every problem, threshold and run", "why_tests_cant": "Boundary and termination claims over all runs.", "anchors": ["include/opengv/sac/implementation/Lmeds.hpp: computeModel"]}
{"id": "C12", "title": "Counting and selecting inliers agree", "statement": "countWithinDistance equals the number of indices returned by selectWithinDistance, both are monotone in the threshold, a non-positive threshold selects nothing if distances are non-negative, and selected indices keep their order.", "quantifier": "every distance vector, index set and threshold", "why_tests_cant": "All real thresholds, including ties.", "anchors": ["include/opengv/sac/implementation/SampleConsensusProblem.hpp: selectWithinDistance, countWithinDistance"]}
{"id": "C13", "title": "Multi-camera RANSAC", "statement": "MultiRansac keeps, like RANSAC, a hypothesis with maximal total support, returns per-camera inlier lists that are exactly the indices with distance below the threshold, terminates within its budget, and each per-camera sample has the requested size and pairwise different positions.", "quantifier": "every number of cameras, index sets, sample-size vectors, problem and run", "why_tests_cant": "Arbitrary camera counts and histories.", "anchors": ["include/opengv/sac/implementation/MultiRansac.hpp: computeModel", "include/opengv/sac/implementation/MultiSampleConsensusProblem.hpp: getSamples, drawIndexSample"]}
{"id": "C14", "title": "Serialised multi-camera indices are a bijection", "statement": "For every multi-camera adapter, converting (camera, correspondence) to a serial index and back is the identity in both directions, the serial indices run through 0..N-1 in camera order, and N is the total number of correspondences.", "quantifier": "every number of cameras and every list of per-camera counts, including zero counts", "why_tests_cant": "Unbounded nesting of list lengths.", "anchors": ["src/absolute_pose/NoncentralAbsoluteMultiAdapter.cpp", "src/relative_pose/NoncentralRelativeMultiAdapter.cpp", "src/relative_pose/CentralRelativeMultiAdapter.cpp", "src/relative_pose/MANoncentralRelativeMulti.cpp"]}
{"id": "C15", "title": "Serialised accessors return the data of the right camera", "statement": "For every serial index produced from (camera, correspondence), the serial accessors for bearing vectors, points, camera offsets and rotations return the same value as the multi-index accessors, and converting a list of per-camera index lists gives their concatenation of converted entries in order.", "quantifier": "every adapter content and every list of index lists", "why_tests_cant": "Arbitrary data and shapes.", "anchors": ["include/opengv/relative_pose/RelativeMultiAdapterBase.hpp", "include/opengv/absolute_pose/AbsoluteMultiAdapterBase.hpp", "src/relative_pose/NoncentralRelativeMultiAdapter.cpp: convertMultiIndices"]}
{"id": "C16", "title": "Multi-camera sample sizes are balanced", "statement": "The per-camera sample sizes of the non-central multi-camera problems add up to the solver's minimal size and differ by at most one between cameras, for every value of the C library random number except RAND_MAX; for RAND_MAX (or zero cameras) the code writes out of bounds.", "quantifier": "every number of cameras and every random number", "why_tests_cant": "The failing random value has probability about 1/2^31.", "anchors": ["src/sac_problems/absolute_pose/MultiNoncentralAbsolutePoseSacProblem.cpp: getSampleSizes", "src/sac_problems/relative_pose/MultiNoncentralRelativePoseSacProblem.cpp: getSampleSizes"]}
{"id": "C17", "title": "Multi-camera relative scores use the right correspondences", "statement": "The distance reported for a selected correspondence of a multi-camera relative pose problem depends on that correspondence's bearing vectors only. This holds when each camera's index list is 0..n-1 and fails for general index lists: the triangulation uses the index but the reprojection compares with the bearing vectors at the list position.", "quantifier": "every index lists, every data", "why_tests_cant": "Tests always use the uniform index lists for which the defect is invisible.", "anchors": ["src/sac_problems/relative_pose/MultiNoncentralRelativePoseSacProblem.cpp: getSelectedDistancesToModel", "src/sac_problems/relative_pose/MultiCentralRelativePoseSacProblem.cpp: getSelectedDistancesToModel"]}
{"id": "C18", "title": "Cayley parameters always give a rotation", "statement": "cayley2rot returns an orthogonal matrix of determinant one for every parameter vector, and cayley2rot_reduced is that matrix times 1+|c|^2.", "quantifier": "every real 3-vector", "why_tests_cant": "Exact identity over all reals.", "anchors": ["src/math/cayley.cpp: cayley2rot, cayley2rot_reduced"]}
{"id": "C19", "title": "Cayley round trip", "statement": "rot2cayley(cayley2rot(c)) = c for every c; cayley2rot(rot2cayley(R)) = R for every rotation R whose angle is not 180 degrees, and exactly at 180 degrees the inverse inside rot2cayley does not exist.", "quantifier": "every parameter vector and rotation matrix", "why_tests_cant": "Exact identity over a continuum, with an exceptional set of measure zero.", "anchors": ["src/math/cayley.cpp: rot2cayley, cayley2rot"]}
{"id": "C20", "title": "Quaternion to rotation", "statement": "quaternion2rot returns a rotation for every unit quaternion, q and -q give the same rotation, and the product structure is respected (the matrix of a product of unit quaternions is the product of matrices).", "quantifier": "every unit quaternion", "why_tests_cant": "Exact identity over a continuum.", "anchors": ["src/math/quaternion.cpp: quaternion2rot"]}
{"id": "C21", "title": "Rotation to quaternion round trip", "statement": "For a rotation none of whose quaternion components vanish, rot2quaternion returns a unit quaternion whose rotation is the argument; when the skew part of the rotation has a zero entry (e.g. the identity) a 0/0 occurs and the result is not finite.", "quantifier": "every rotation matrix", "why_tests_cant": "The failing set has measure zero (random tests never hit it) but contains the identity.", "anchors": ["src/math/quaternion.cpp: rot2quaternion"]}
{"id": "C22", "title": "Arun's rotation is optimal", "statement": "For every 3x3 matrix H and every singular value decomposition of it, arun(H) is a rotation and maximises trace(R H) over all rotations, also when the decomposition yields a reflection.", "quantifier": "every H, every valid SVD, every competing rotation", "why_tests_cant": "Optimality over a continuum of competitors.", "anchors": ["src/math/arun.cpp: arun"]}
{"id": "C23", "title": "Point cloud alignment is globally optimal", "statement": "threept_arun/arun_complete return the rigid transformation minimising the sum of squared residuals |p1-(R p2+t)|^2 over all rigid transformations, for any number of points.", "quantifier": "every two point lists of equal length and every competing rigid transformation", "why_tests_cant": "Global optimality over a continuum.", "anchors": ["src/math/arun.cpp: arun_complete", "src/point_cloud/methods.cpp: threept_arun"]}
{"id": "C24", "title": "Noise-free alignment is recovered exactly", "statement": "If p1_i = R p2_i + t for all points and the p2_i are not collinear then threept_arun returns exactly (R,t); if bearing vectors satisfy f1_i = R f2_i, twopt_rotationOnly returns R for any two non-parallel f2 and rotationOnly returns R when the centred f2 span a plane.", "quantifier": "every rotation, translation, configuration, SVD choice", "why_tests_cant": "Exact recovery for all non-degenerate inputs and all SVD sign choices.", "anchors": ["src/math/arun.cpp", "src/point_cloud/methods.cpp", "src/relative_pose/methods.cpp: twopt_rotationOnly, rotationOnly"]}
{"id": "C25", "title": "Midpoint triangulation", "statement": "triangulate2 returns the midpoint of the two closest points of the viewing lines, recovers a noise-free point exactly, and its linear system is singular exactly when the rays are parallel.", "quantifier": "every pair of unit bearing vectors and relative pose", "why_tests_cant": "Exact geometric identity over a continuum.", "anchors": ["src/triangulation/methods.cpp: triangulate2"]}
{"id": "C26", "title": "Linear triangulation", "statement": "triangulate returns the noise-free point exactly for every SVD of its linear system, whenever the viewing rays are not parallel and neither bearing vector has a zero third component; without the second condition the system can lose rank and a wrong point is a possible result.", "quantifier": "every point, pose and SVD", "why_tests_cant": "Exact recovery over a continuum and over all SVD choices.", "anchors": ["src/triangulation/methods.cpp: triangulate"]}
{"id": "C27", "title": "Quartic solver", "statement": "When o4_roots' intermediate quantities are nonzero, the four complex numbers whose real parts it returns are exactly the roots with multiplicity of the given quartic; so each real root is in the returned list. For x^4-1 an intermediate division by zero occurs and the result is not finite.", "quantifier": "every quartic with non-zero leading coefficient", "why_tests_cant": "Algebraic identity for all coefficients; the degenerate set has measure zero.", "anchors": ["src/math/roots.cpp: o4_roots"]}
{"id": "C28", "title": "Cubic solver", "statement": "When the quantity dividing in o3_roots is nonzero, o3_roots lists every real root of the cubic, and in the three-real-root case all three returned values are roots. For x^3-1 a division by zero occurs.", "quantifier": "every cubic with non-zero leading coefficient", "why_tests_cant": "Algebraic identity for all coefficients.", "anchors": ["src/math/roots.cpp: o3_roots"]}
{"id": "C29", "title": "Lagrangian root bound", "statement": "computeLagrangianBound bounds the absolute value of all real and complex roots for polynomials of degree at least two; for degree one the bound is off by one and the root is missed; it is undefined exactly for constants and zero leading coefficients.", "quantifier": "every polynomial with non-zero leading coefficient", "why_tests_cant": "All coefficients.", "anchors": ["src/math/Sturm.cpp: computeLagrangianBound"]}
{"id": "C30", "title": "Sturm chain counts roots", "statement": "For every polynomial whose Sturm chain is regular, the difference of the numbers of sign changes that the code computes at two non-root points equals the number of distinct real roots between them, and evaluateChain and evaluateChain2 agree.", "quantifier": "every polynomial with regular chain, every interval", "why_tests_cant": "Sturm's theorem: all polynomials and intervals.", "anchors": ["src/math/Sturm.cpp: Sturm, computeNegatedRemainder, evaluateChain, evaluateChain2, Bracket"]}
{"id": "C31", "title": "Root bracketing", "statement": "Without double roots bracketRoots terminates, and the brackets it returns are disjoint, contain exactly one root each and together contain every root strictly inside the bound; findRoots returns one value per such root. Roots that lie exactly on the bound are lost (x^2-1), and with a double root on a midpoint the loop never ends in exact arithmetic (x^3-x^2).", "quantifier": "every polynomial with regular chain", "why_tests_cant": "Termination and completeness for all polynomials.", "anchors": ["src/math/Sturm.cpp: bracketRoots, findRoots"]}
{"id": "C32", "title": "Gauss-Jordan elimination", "statement": "gauss_jordan never accesses rows or columns out of range for a non-negative exit condition, and cannot return for a negative one; the pivots end up exactly one and the other entries of the reduced block at most the threshold; if the threshold 1e-10 suppressed no non-zero number then the row space, and so the set of solutions of the linear relations given by the rows, is unchanged; with exact zero tests the pivots are non-zero exactly when the leading block is regular. With the threshold relations can get lost (2x3 witness).", "quantifier": "every matrix shape and content, every exit row", "why_tests_cant": "Arbitrary matrices.", "anchors": ["src/math/gauss_jordan.cpp"]}
{"id": "C33", "title": "Translation from two correspondences with known rotation", "statement": "twopt returns, for noise-free correspondences with independent epipolar plane normals, a unit vector along the true translation, with the correct sign.", "quantifier": "every rotation, translation and point pair", "why_tests_cant": "Exact recovery over a continuum with sign choice.", "anchors": ["src/relative_pose/methods.cpp: twopt"]}
{"id": "C34", "title": "Essential matrix decomposition", "statement": "For every essential matrix E=[t]xR and every SVD of it, the rotation/translation candidates generated by the central relative pose problem are rotations, each candidate reproduces E up to scale, and the true pose (up to translation scale) is among the candidates.", "quantifier": "every essential matrix and SVD choice", "why_tests_cant": "All SVD sign choices and all poses.", "anchors": ["src/sac_problems/relative_pose/CentralRelativePoseSacProblem.cpp: computeModelCoefficients"]}
{"id": "C35", "title": "Eight-point algorithm", "statement": "eightpt returns an essential matrix candidate of rank at most two for any input, and for noise-free correspondences whose linear system has a one-dimensional null space it returns the true essential matrix up to scale.", "quantifier": "every correspondence list and SVD choice", "why_tests_cant": "All inputs.", "anchors": ["src/relative_pose/methods.cpp: eightpt"]}
{"id": "C36", "title": "Seven-point algorithm", "statement": "Every matrix returned by sevenpt for seven correspondences satisfies all seven epipolar constraints. Unless the shortcut for a first null-space matrix with |det| < 1e-8 is taken, every returned matrix is singular (when no non-real root has an imaginary part below the tolerance), and every singular matrix satisfying the constraints is returned up to scale, unless it is a multiple of the second null-space matrix. With the shortcut the true essential matrix can be lost.", "quantifier": "every correspondence list", "why_tests_cant": "All inputs, including the case split on real and complex roots.", "anchors": ["src/relative_pose/methods.cpp: sevenpt"]}
{"id": "C37", "title": "Five-point constraint matrices", "statement": "The 10x20 coefficient matrices composed by the Nister and Stewenius solvers represent exactly the determinant and trace constraints: for every four-dimensional null space basis and every x,y,z, the matrix times the monomial vector vanishes iff x E0+y E1+z E2+E3 satisfies det=0 and 2EE'E-tr(EE')E=0.", "quantifier": "every null-space basis and every combination", "why_tests_cant": "Two hundred polynomial coefficients; a test checks them only at samples.", "anchors": ["src/relative_pose/modules/fivept_nister/modules.cpp: composeA", "src/relative_pose/modules/fivept_stewenius/modules.cpp: composeA"]}
{"id": "C38", "title": "Nister's elimination loses no solution", "statement": "If the leading 10x10 block is invertible, every solution (x,y,z) of the constraints has z a root of the degree-ten polynomial handed to the root finder and (x,y) are the values recomputed from z whenever the denominator is non-zero.", "quantifier": "every coefficient matrix and solution", "why_tests_cant": "Completeness over all inputs.", "anchors": ["src/relative_pose/modules/main.cpp: fivept_nister_main", "src/relative_pose/modules/fivept_nister/modules.cpp"]}
{"id": "C39", "title": "Eigensolver objective", "statement": "The 3x3 matrix minimised by the eigensolver equals, up to the factor (1+|c|^2)^2, the sum over correspondences of n n' with n = f1 x R f2, so at the true rotation of noise-free data the true translation is in its null space; getSmallestEV returns its smallest eigenvalue whenever the matrix is not a multiple of the identity; the Jacobian returned is the derivative.", "quantifier": "every correspondence list and parameter vector", "why_tests_cant": "Identities and minimality over a continuum.", "anchors": ["src/relative_pose/modules/eigensolver/modules.cpp: composeM, getSmallestEV, getSmallestEVwithJacobian", "src/relative_pose/methods.cpp: eigensolver"]}
{"id": "C40", "title": "Generalised eigensolver objective", "statement": "The 4x4 matrix of the generalised eigensolver is the Gram matrix of the generalised epipolar constraints: for every correspondence set, rotation and translation the quadratic form equals the sum of squared generalised epipolar residuals, so it vanishes at the true pose of noise-free data.", "quantifier": "every correspondence set and pose", "why_tests_cant": "Identity over a continuum.", "anchors": ["src/relative_pose/modules/ge/modules.cpp: composeG", "src/relative_pose/methods.cpp: ge"]}
{"id": "C41", "title": "P2P with known rotation", "statement": "p2p returns exactly the true camera position for noise-free data whenever the two bearing vectors are not parallel and the difference of the two points does not have the form (d, +-d, 0); in that case the choice of the auxiliary axis divides by zero and the result is the zero vector.", "quantifier": "every pose and point pair", "why_tests_cant": "Exact recovery over a continuum incl. the case split on the dominant axis.", "anchors": ["src/absolute_pose/methods.cpp: p2p"]}
{"id": "C42", "title": "Kneip's P3P", "statement": "For noise-free input, if p3p_kneip returns a finite pose at all then the true pose is among the results, except when the projection of the third point on the plane of the other two points and the camera is on the circle through these. Every finite pose returned for any input is a rotation with the first two points on their viewing lines; a real root of the quartic explains the third point too, up to a half turn about the normal of the first two bearing vectors. If the third bearing vector has no component along the second axis of the intermediate frame, only NaN is returned.", "quantifier": "every pose and point triple", "why_tests_cant": "Exact algebra over a continuum, all branches.", "anchors": ["src/absolute_pose/modules/main.cpp: p3p_kneip_main"]}
{"id": "C43", "title": "Gao's P3P", "statement": "For noise-free input of non-collinear points, if p3p_gao returns a finite pose at all then the true pose is among the results; for any input every real root of the quartic gives depths and a pose that explain all three points exactly. The guard against coplanar bearing vectors compares with 1 instead of 4: it rejects some independent bearing vectors and lets coplanar ones pass.", "quantifier": "every pose and point triple", "why_tests_cant": "Exact algebra over a continuum.", "anchors": ["src/absolute_pose/modules/main.cpp: p3p_gao_main"]}
{"id": "C44", "title": "UPnP objective and translation", "statement": "For unit bearing vectors, the energy minimised by upnp equals, for every quaternion, the sum of squared distances of the transformed points to their viewing lines minimised over translation, and the translation computed attains this minimum; the matrix inverted for it is singular exactly if all bearing vectors are parallel.", "quantifier": "every correspondence list and rotation", "why_tests_cant": "Optimality over a continuum.", "anchors": ["src/absolute_pose/methods.cpp: upnp, fill3x10", "src/absolute_pose/modules/main.cpp: upnp_fill_s"]}
{"id": "C45", "title": "UPnP candidate ordering", "statement": "If no eigenvector has four zero entries, upnp_main and upnp_main_sym return unit quaternions sorted by increasing energy; upnp_main contains no two within the duplicate threshold and represents every eigenvector, upnp_main_sym returns the unit multiples of all eigenvectors. An eigenvector with four zero entries (a NaN candidate) can break the order.", "quantifier": "every set of eigenvectors", "why_tests_cant": "Invariant of repeated insertion for all inputs.", "anchors": ["src/absolute_pose/modules/main.cpp: upnp_main, upnp_main_sym"]}
{"id": "C46", "title": "EPnP: building blocks and exact data", "statement": "The control points are affinely independent exactly if the world points are not coplanar; barycentric coordinates then reproduce every point and sum to one; the kernel of MtM consists of the control points whose combinations are seen in the given directions, so it contains the true camera-frame control points; the 6x10 system expresses the control-point distances; the Gauss-Newton matrix is the derivative of its residual; qr_solve returns the unique least-squares solution if it returns one, and returns one if the columns are independent and the last row is zero. Its search for the largest entry leaves out the last row, so it reports some matrices with independent columns as singular, and gauss_newton then adds an uninitialised vector. For exact data which determine the pose, epnp returns that pose or uses that uninitialised vector. The second and third approximation find exact two-vector coefficients up to a common sign if the columns of their systems are independent. For negated products, which the code also considers, the second approximation gets the relative sign wrong.", "quantifier": "every data set and coefficient", "why_tests_cant": "Identities over a continuum.", "anchors": ["src/absolute_pose/modules/Epnp.cpp"]}
{"id": "C47", "title": "GPnP: linear system, selection and exact data", "statement": "The weights sum to one and reproduce the points. A vector of control points solves the linear system exactly if every point is on the line of its camera (only its third coordinate is fixed if the direction has third entry zero), so the true camera-frame control points solve it. Every solution is the intercept plus a combination of the right singular vectors below the threshold. gpnp_main returns the candidate of least error, or the first candidate if the error of that one is NaN. For exact data whose matrix has all singular values above the threshold, gpnp returns the true pose.", "quantifier": "every correspondence list, decomposition and Levenberg-Marquardt result", "why_tests_cant": "Identities over a continuum; NaN case needs exact zeros.", "anchors": ["src/absolute_pose/methods.cpp: gpnp", "src/absolute_pose/modules/main.cpp: gpnp_main, gpnp_evaluate"]}
{"id": "C48", "title": "Hypothesis disambiguation picks the best candidate", "statement": "The absolute pose problem returns, among the minimal solver's candidates, one whose score on the extra correspondence is minimal (the earliest such), returns false iff there is no candidate with a score below the initial bound, and returns a single candidate without scoring.", "quantifier": "every candidate list and score function", "why_tests_cant": "All lists and scores.", "anchors": ["src/sac_problems/absolute_pose/AbsolutePoseSacProblem.cpp: computeModelCoefficients"]}
{"id": "C49", "title": "Camera pose to body pose", "statement": "Transforming the camera pose into the body frame with the camera's offset and rotation maps every world point to the same bearing direction in the camera as before the transformation.", "quantifier": "every pose, camera extrinsics and world point", "why_tests_cant": "Identity over a continuum.", "anchors": ["src/sac_problems/absolute_pose/AbsolutePoseSacProblem.cpp: computeModelCoefficients", "src/sac_problems/relative_pose/NoncentralRelativePoseSacProblem.cpp: computeModelCoefficients"]}
{"id": "C50", "title": "Scores are bounded and zero exactly at perfect agreement", "statement": "Angular scores 1-f.r lie in [0,2] ([0,4] for two-view problems) for unit vectors and vanish iff the reprojection coincides with the measurement; one score per requested index is appended.", "quantifier": "every data set and pose", "why_tests_cant": "Bounds over a continuum.", "anchors": ["src/sac_problems/*: getSelectedDistancesToModel"]}
{"id": "C51", "title": "Six-point sample serialisation is a terminating rearrangement", "statement": "The round robin that turns a multi-camera sample into the serial index list for the six-point solver ends for every sample shape, stays in bounds for every random start below RAND_MAX, and lists every sampled correspondence exactly once.", "quantifier": "every number of cameras, every per-camera index lists, every random start", "why_tests_cant": "Arbitrary shapes; the loop has a nested unbounded while that spins when a camera has no more indices.", "anchors": ["src/sac_problems/relative_pose/MultiNoncentralRelativePoseSacProblem.cpp: computeModelCoefficients, SIXPT branch"]}
{"id": "C52", "title": "findRoots2: sound when it returns, but can loop forever", "statement": "Whenever findRoots2 returns, it has exactly one value per counted root, each in its own bracket with exactly one root, and the bracket is narrower than eps_x or the polynomial value is below eps_val; but the Newton loop has no iteration limit and cycles for x^5-5x^4+20x^2+16x-32.", "quantifier": "every polynomial with regular chain and simple roots, every tolerance", "why_tests_cant": "Non-termination happens for isolated polynomials that random tests do not hit.", "anchors": ["src/math/Sturm.cpp: findRoots2"]}
{"id": "C53", "title": "Central relative pose selection recovers the true pose", "statement": "For noise-free correspondences in front of both cameras with independent viewing directions, if the list of essential matrices contains a non-zero multiple of the true one, the central relative pose problem succeeds and the pose it returns explains every correspondence of the sample. With a single essential matrix k[t]xR it returns exactly the pose (|k| t, R). Chained with eightpt this gives the true pose up to the translation's scale.", "quantifier": "every pose, every list of correspondences and every SVD choice", "why_tests_cant": "All poses and all sign and order choices of the decomposition.", "anchors": ["src/sac_problems/relative_pose/CentralRelativePoseSacProblem.cpp: computeModelCoefficients", "src/relative_pose/methods.cpp: eightpt"]}
{"id": "C54", "title": "Stewenius' solver recovers the true essential matrix", "statement": "If the leading 10x10 block is invertible, every real or complex combination of the basis satisfying the constraints gives an eigenvector of the 10x10 action matrix (its ten monomials, with eigenvalue x), and from any multiple of that vector the solver reads off the combination scaled to sum of squares one. For correspondences with five independent rows the true essential matrix is a combination of the four basis matrices; if its last coordinate is non-zero and the eigenvectors of its eigenvalue form a line, a non-zero multiple of the true essential matrix is among the matrices handed to the pose selection, whatever eigenvectors are computed.", "quantifier": "every basis, every solution, every computed eigenvector set", "why_tests_cant": "Completeness over a continuum of inputs and all eigenvector choices.", "anchors": ["src/relative_pose/modules/main.cpp: fivept_stewenius_main", "src/relative_pose/methods.cpp: fivept_stewenius", "src/sac_problems/relative_pose/CentralRelativePoseSacProblem.cpp: computeModelCoefficients"]}
{"id": "C55", "title": "Closed-form eigenvalues of the generalised eigensolver", "statement": "getEV is undefined (a NaN) exactly when an eigenvalue of the 4x4 matrix composeG has multiplicity three or more; otherwise roots[3] and roots[2] are its smallest and second smallest eigenvalue, so getCost with step 1 is the minimum of the Rayleigh quotient.", "quantifier": "all summation terms and parameter vectors", "why_tests_cant": "Continuum of matrices; the branch of the trigonometric formula and the exact set where it breaks down are not visible in samples.", "anchors": ["src/relative_pose/modules/ge/modules.cpp: getEV, getCost"]}
{"id": "C56", "title": "Descent of the generalised eigensolver", "statement": "The descent in ge_main2 never ends at a larger cost than at the starting point of its trial, its direction is the gradient of the cost up to the step of the forward differences, and it ends after finitely many steps provided that small enough steps are rounded away; in exact arithmetic the backtracking loop does not end at a strict minimum. For a single camera (all camera positions zero) the cost is zero everywhere, the normalised Jacobian is 0/0 and the result is a NaN for every input.", "quantifier": "all summation terms, starting points, random disturbances and roundings of the step", "why_tests_cant": "Termination and monotonicity over all runs; the degenerate case is hidden by rounding noise in tests.", "anchors": ["src/relative_pose/modules/main.cpp: ge_main2", "src/relative_pose/modules/ge/modules.cpp: getQuickJacobian"]}
{"id": "C57", "title": "UPnP selection and Newton step", "statement": "upnp returns at least one result; every result without NaN has a rotation matrix and the best translation for it. The vector and matrix of the last step are the gradient and Hessian of the objective in the Cayley parameters. For noise-free data whose pose is determined to first order, if an eigenvector is a multiple of the true quaternion (no zero component), the true pose is returned; if a component is zero (e.g. identity rotation) the result for this candidate is NaN. With at most two correspondences the candidate of least energy is returned unrefined.", "quantifier": "every correspondence list and set of eigenvectors", "why_tests_cant": "Derivatives and optimality over a continuum; the NaN case needs exact zeros.", "anchors": ["src/absolute_pose/methods.cpp: upnp, f, Jac"]}
{"id": "C58", "title": "GPnP: elimination programs for the factors", "statement": "For each number k = 1..5 of null-space vectors: if a combination of the vectors puts the control points at their true distances, the generated elimination program followed by back substitution returns exactly the coefficients of the combination, whenever no pivot is zero; except that for k = 5 the fifth factor is wrong (the third factor is replaced by the second one), with the error stated. gpnp_main passes the first control point four times, so the factors it computes do not depend on the control points, and if the system it poses has a solution (coinciding control points) the back substitution divides by zero.", "quantifier": "every intercept, null space and set of control points", "why_tests_cant": "Straight-line programs of thousands of statements whose correctness is a polynomial identity over a continuum; the wrong factors are repaired by the nonlinear refinement in tests.", "anchors": ["src/absolute_pose/modules/gpnp1/code.cpp", "src/absolute_pose/modules/gpnp2/code.cpp", "src/absolute_pose/modules/gpnp3/code.cpp", "src/absolute_pose/modules/gpnp4/code.cpp", "src/absolute_pose/modules/gpnp5/code.cpp", "src/absolute_pose/modules/main.cpp: gpnp_main"]}
{"id": "C59", "title": "GPnP with a central camera", "statement": "If all camera offsets are zero, gpnp returns the mean of the control points as translation and the rotation of a zero matrix, for all bearing vectors: every candidate has the error NaN and the first one is kept.", "quantifier": "every correspondence list without offsets, every decomposition", "why_tests_cant": "The shipped tests use several cameras with offsets only; the failure depends on NaN comparison.", "anchors": ["src/absolute_pose/methods.cpp: gpnp", "src/absolute_pose/modules/main.cpp: gpnp_main, gpnp_evaluate"]}
{"id": "C60", "title": "Adapters return the stored correspondences", "statement": "The array adapters on arrays holding the vectors one after the other behave exactly as the adapters over vectors: for every accessor and index the stored vector (offsets interleaved in the non-central case, one array per pair in the multi-camera case), the identity as rotation, and a read out of range exactly when the entry does not exist. Algorithms given an index vector read exactly the listed correspondences in order. The number of correspondences is that of the bearing vectors (absolute) or of the second frame (relative, point clouds): if the other list is shorter, the algorithms read out of range; if it is longer, the surplus is ignored.", "quantifier": "all lists of vectors, index vectors and indices", "why_tests_cant": "Tests pass lists of equal length and a few indices; reads past the end of an array often go unnoticed.", "anchors": ["src/absolute_pose/MACentralAbsolute.cpp", "src/absolute_pose/MANoncentralAbsolute.cpp", "src/relative_pose/MACentralRelative.cpp", "src/relative_pose/MANoncentralRelative.cpp", "src/relative_pose/MANoncentralRelativeMulti.cpp", "src/point_cloud/MAPointCloud.cpp", "include/opengv/Indices.hpp"]}
{"id": "C61", "title": "Nonlinear refinement keeps good poses", "statement": "The three optimize_nonlinear functions return a proper rotation whatever the minimiser does. Started from a rotation they fail (NaN) exactly for half turns. With a minimiser that only accepts improvements, the sum of the squared residuals (the scores of the sample consensus problems) is at most that of the prior, an exact prior stays exact, and for point clouds not on a line it is returned unchanged. The relative version overwrites the adapter's prior: its residuals do not depend on the prior, but after the call the adapter holds the camera-to-camera pose of the last correspondence at the last evaluated point.", "quantifier": "all data, priors and minimisers meeting the contract", "why_tests_cant": "Quantifies over all minimisers and data; the half turn is a set of measure zero and the side effect is invisible unless the adapter is used again.", "anchors": ["src/absolute_pose/methods.cpp: optimize_nonlinear", "src/relative_pose/methods.cpp: optimize_nonlinear", "src/point_cloud/methods.cpp: optimize_nonlinear"]}
{"id": "C62", "title": "Seventeen point algorithm", "statement": "The linear system of seventeenpt is that of the bilinear form of the viewing lines, solved by a pose exactly when all pairs of viewing lines are coplanar; after elimination its kernel are the first parts of the solutions; of the two rotations derived from the essential matrix exactly one is the true one. If the data determine the essential matrix up to scale and the pose, and no singular value is cut off wrongly, the true pose with the right length of the translation is returned. If all camera offsets are zero, the translation returned is zero for every input and the rotation is chosen without regard to the data.", "quantifier": "all correspondence lists with at least nine entries, all decompositions meeting the contract", "why_tests_cant": "Exactness over a continuum of configurations; the shipped tests use one random camera rig and inspect the output by eye.", "anchors": ["src/relative_pose/methods.cpp: seventeenpt"]}
{"id": "C63", "title": "Kneip's five point algorithm", "statement": "If the generated elimination of fivept_kneip does not divide by zero, every real or complex rotation at which the ten determinants of three normal vectors vanish gives an eigenvector of the action matrix with eigenvalue R(0,0). For five points in front of both cameras the true rotation is therefore returned whenever the eigenvectors of that eigenvalue form a line, whatever eigenvectors are computed. Every returned matrix satisfies the thresholds of the code: determinant, lengths and products of the rows, cofactors, determinants of the normal vectors and the check of the directions.", "quantifier": "all features, poses, eigenvector computations meeting the contract, and complex solutions", "why_tests_cant": "The elimination has 3071 generated statements on a 66x197 matrix; a wrong column in one of them shows only as a missing or inaccurate solution for some inputs. Tests sample a few poses.", "anchors": ["src/relative_pose/methods.cpp: fivept_kneip", "src/relative_pose/modules/main.cpp: fivept_kneip_main", "src/relative_pose/modules/fivept_kneip/init.cpp", "src/relative_pose/modules/fivept_kneip/spolynomials.cpp", "src/relative_pose/modules/fivept_kneip/reductors.cpp", "src/relative_pose/modules/fivept_kneip/code.cpp"]}
{"id": "C64", "title": "Action matrices of UPnP", "statement": "The first four rows of M1 are the gradient of the energy. If the elimination of upnp4.cpp (more than four correspondences) finishes without dropping an entry, every stationary unit quaternion gives an eigenvector of the action matrix with eigenvalue q3^2, and for points exactly on their rays the true pose is among the results of upnp whenever that eigenspace is a line, for every result of the eigenvalue solver. For upnp2.cpp (at most four correspondences) the action matrix leaves out column 395 of the eliminated matrix; the exact error is stated, and for a noise-free set of four correspondences the monomials of the true quaternion are not an eigenvector. If an eigenvector does hold these monomials and no other gives a nearby rotation, the true pose is among the results. All indices of the two tables are inside the matrices.", "quantifier": "all correspondences, stationary quaternions, thresholds below one and eigenvalue solvers meeting the contract", "why_tests_cant": "The templates have 141 and 395 rows with about ten thousand generated assignments; one wrong index gives an inaccurate solution for some inputs only. With four correspondences the missing column changes the result only by the size of one coefficient.", "anchors": ["src/absolute_pose/modules/upnp4.cpp: setupAction_sym_gj", "src/absolute_pose/modules/upnp2.cpp: setupAction_gj", "src/absolute_pose/modules/main.cpp: upnp_main, upnp_main_sym"]}
{"id": "C65", "title": "Six point solver for non-central cameras", "statement": "The coefficients of fillRow1 are the three polynomials of the relation between two pairs of rays, fillRow2 expands the determinant of three such rows, and the 60 equations are all choices of three pairs in the six groups. For six noise-free correspondences with unit directions all equations vanish at the Cayley parameters of the true rotation; if both eliminations succeed, these give an eigenvector of the 64x64 action matrix, and the true rotation is among the results whenever its eigenspace is a line, for every result of the eigenvalue solver. Every finite result is a rotation, there are 64 entries. If all rays of each frame meet in one point (one camera), the equations vanish identically and there is no finite result. All table indices are inside the arrays.", "quantifier": "all correspondences, rotations without half turn, translations, depths, and eigenvalue solvers meeting the contract", "why_tests_cant": "The functions hold 6000 generated products and 6510 generated assignments; a single wrong sign or index changes the equations by one term, which is hidden by the other equations in the least squares step for many inputs.", "anchors": ["src/relative_pose/modules/sixpt/modules2.cpp: fillRow1, fillRow2, setupAction", "src/relative_pose/modules/main.cpp: sixpt_main", "src/relative_pose/methods.cpp: sixpt"]}
{"id": "C66", "title": "Six point hypotheses of the non-central problems", "statement": "For each rotation of the six point solver, the quadratic form of the 4x4 matrix G at a translation is the sum of the squared deviations from coplanarity. For noise-free data and the true rotation (null space of G a line), the translation that is read from column 0 of the eigenvectors is the true one exactly when the first listed eigenvalue is zero, in particular when the smallest comes first; otherwise its scalar product with the true translation is -1. Since the order of eigenvalues is not specified for EigenSolver and the code does not sort, for every noise-free sample there is a solver meeting its specification for which the true pose is not among the candidates (defect; ge sorts). If a candidate explains the three further correspondences, the problem returns a candidate that explains them.", "quantifier": "all samples, rotations, translations, and eigenvalue solvers meeting the contract", "why_tests_cant": "The order in which the library lists eigenvalues depends on the numbers; a test sees the order for its own samples only.", "anchors": ["src/sac_problems/relative_pose/NoncentralRelativePoseSacProblem.cpp: computeModelCoefficients", "src/sac_problems/relative_pose/MultiNoncentralRelativePoseSacProblem.cpp: computeModelCoefficients"]}
{"id": "C67", "title": "Three point solver for non-central cameras", "statement": "For all inputs for which the elimination of gp3p does not divide by zero, every real or complex solution (Cayley parameters and three depths) of the equations of the three points gives an eigenvector of the 8x8 action matrix, with the first Cayley parameter as eigenvalue; in particular the terms that the generated program leaves out cancel for all inputs. If three points are seen from a pose whose rotation is not a half-turn, and the eigenvectors for its parameter form a line, the pose is among the results for all eigenvectors the library may return. Every finite result has a proper rotation, not a half-turn, and matches the centroids. The test on the imaginary part of an eigenvalue has no absolute value, so at least four (at most eight) poses are returned for every input, also from eigenvalues far below the real axis (defect).", "quantifier": "all adapters, correspondences, poses, complex solutions, and eigenvalue solvers meeting the contract", "why_tests_cant": "A test checks a few random scenes; that the generated elimination of 85 columns drops only terms that vanish, and that no solution is lost, is a statement about all scenes.", "anchors": ["src/absolute_pose/methods.cpp: gp3p", "src/absolute_pose/modules/main.cpp: gp3p_main", "src/absolute_pose/modules/gp3p/init.cpp", "src/absolute_pose/modules/gp3p/code.cpp", "src/absolute_pose/modules/gp3p/reductors.cpp", "src/absolute_pose/modules/gp3p/spolynomials.cpp"]}
{"id": "C68", "title": "Hypotheses of the absolute pose problems", "statement": "For a sample of the size the problem asks for, with valid indices, no algorithm of AbsolutePoseSacProblem reads outside a vector. For correspondences without noise, seen from a body with a given pose: with KNEIP and GAO (one camera) and GP3P (any cameras), outside the exceptional positions of the solvers, the true pose of the body is among the candidates, and the model that is returned sees the fourth point exactly as measured; with TWOPT (the rotation of the camera stored in the adapter) and EPNP the model is the true pose of the body. MultiNoncentralAbsolutePoseSacProblem returns the same; as a central problem it moves the poses with the camera of correspondence 0. optimizeModelCoefficients stores the rotation of the body where TWOPT expects that of the camera, so if the camera is turned against the body no later sample gives the rotation that the refinement had found (defect).", "quantifier": "all adapters, samples, poses, camera extrinsics, and decompositions meeting the contracts", "why_tests_cant": "The tests use random scenes and mostly one camera in the body frame; that the frames compose correctly and the true pose is never lost is a statement about all extrinsics and samples.", "anchors": ["src/sac_problems/absolute_pose/AbsolutePoseSacProblem.cpp: computeModelCoefficients, optimizeModelCoefficients, getSampleSize", "src/sac_problems/absolute_pose/MultiNoncentralAbsolutePoseSacProblem.cpp: computeModelCoefficients"]}
{"id": "C69", "title": "Problems that keep a state in the adapter", "statement": "TranslationOnlySacProblem: during every RANSAC run the rotation stored in the adapter stays the one at the start, although scoring writes every hypothesis into the adapter; every hypothesis has this rotation and the two point translation of its sample. If the rotation is true and one scored sample has two noise-free correspondences in different epipolar planes, the result has at least as many inliers as there are noise-free correspondences. optimizeModelCoefficients however leaves the rotation of the last point the minimiser looked at, and all hypotheses of later runs have that one (defect). EigensolverSacProblem: scoring restores the prior, so every hypothesis of a run is the eigensolver for its sample started within 0.1 (Cayley parameters) of the same prior, with a proper rotation, and never NaN unless the prior is a half turn, in which case all hypotheses are NaN; the refinement starts exactly at the model and is finite unless all weights are zero. MultiCentralRelativePoseSacProblem: computeModelCoefficients reports success without writing a model, so no run of MultiRansac returns a model; as soon as a sample can be drawn the run reads outside a vector (defect).", "quantifier": "all correspondences, samples, random numbers, thresholds, iteration budgets, numbers of runs and minimisers", "why_tests_cant": "The state is hidden in the adapter and changes only in some orders of calls; a test sees a few seeds and one run per problem object.", "anchors": ["src/sac_problems/relative_pose/TranslationOnlySacProblem.cpp: computeModelCoefficients, getSelectedDistancesToModel, optimizeModelCoefficients", "src/sac_problems/relative_pose/EigensolverSacProblem.cpp: computeModelCoefficients, getSelectedDistancesToModel, optimizeModelCoefficients", "src/sac_problems/relative_pose/MultiCentralRelativePoseSacProblem.cpp: computeModelCoefficients, getSelectedDistancesToModel"]}
{"id": "C70", "title": "Whole runs on data with noise-free inliers, and ge without parallax", "statement": "RANSAC on a fresh problem object: every sample of the index set that gives a hypothesis can be the first one scored, for some generator outputs, and then the run returns true with at least as many inliers as this hypothesis has. PointCloudSacProblem: the returned model is the rigid transformation that aligns its sample best; the refinement aligns the inliers best and its mean squared distance is below the squared threshold. If a scored sample has three noise-free points not on a line, its hypothesis is the true transformation and the result has at least as many inliers as there are noise-free points; if all inliers are noise-free and three are not on a line, the refinement is exactly the true transformation. RotationOnlySacProblem: the same with two correspondences, and three different bearing vectors for the refinement; with exactly two inliers the refinement can lose the rotation (defect). CentralRelativePoseSacProblem: if the solver returns the true essential matrix for a noise-free scored sample, the hypothesis explains the sample and the result has at least as many inliers as the sample; if it returns only this one, the hypothesis is the pose and the result has at least as many inliers as there are noise-free correspondences. AbsolutePoseSacProblem: if the true pose is scored, the result has at least as many inliers as there are noise-free points. ge: if the bearing vectors of the two rigs differ by a rotation only, the search starts at this rotation, where the cost is NaN, and the result is NaN (defect).", "quantifier": "all correspondences, outliers, index sets, random numbers, thresholds, iteration budgets, singular value decompositions", "why_tests_cant": "A test checks a few seeds on simulated data; the guarantees hold for every generator output that ever scores a clean sample, and the defects need exactly two inliers or exactly no parallax.", "anchors": ["src/sac_problems/point_cloud/PointCloudSacProblem.cpp: computeModelCoefficients, getSelectedDistancesToModel, optimizeModelCoefficients", "src/sac_problems/relative_pose/RotationOnlySacProblem.cpp: computeModelCoefficients, getSelectedDistancesToModel, optimizeModelCoefficients", "src/sac_problems/relative_pose/CentralRelativePoseSacProblem.cpp: computeModelCoefficients, getSelectedDistancesToModel", "src/sac_problems/absolute_pose/AbsolutePoseSacProblem.cpp: getSelectedDistancesToModel", "src/relative_pose/methods.cpp: ge", "include/opengv/sac/implementation/Ransac.hpp: computeModel"]}
{"id": "C71", "title": "LMedS tolerates less than half outliers", "statement": "Lmeds on a fresh problem object: if a scored hypothesis has more than half of its distances at most e (e^2 below DBL_MAX), true is returned, at least half of the distances of the returned model are at most e and more than half are at most sqrt(2) e, so that with a threshold of at least e half of the correspondences are inliers. Exactly half is not enough: a run with such a hypothesis may return a model that fits nothing exactly. Every sample that gives a hypothesis can be the first one scored. PointCloudSacProblem: if at least ceil(n/2)+2 of n points are moved by the same rigid transformation, no three of them on a line, and one sample of such points is scored, the returned model is exactly this transformation, whatever the other points are, and the inliers contain these points. RotationOnlySacProblem: the same with ceil(n/2)+1 correspondences, no two of them parallel. NaN distances: std::sort is called on the squared distances with the built-in comparison, which is a strict weak order exactly if no distance is NaN or all others are equal after clipping; a camera at a world point gives a NaN distance, and the behaviour is undefined (defect).", "quantifier": "all problems, correspondences, outliers, index sets, random numbers, thresholds, iteration budgets, singular value decompositions", "why_tests_cant": "Robustness against arbitrary outliers is a statement about all data; a test has a few random outliers and a few seeds.", "anchors": ["include/opengv/sac/implementation/Lmeds.hpp: computeModel", "src/sac_problems/point_cloud/PointCloudSacProblem.cpp: computeModelCoefficients, getSelectedDistancesToModel", "src/sac_problems/relative_pose/RotationOnlySacProblem.cpp: computeModelCoefficients, getSelectedDistancesToModel", "src/sac_problems/absolute_pose/AbsolutePoseSacProblem.cpp: getSelectedDistancesToModel"]}
{"id": "C72", "title": "Simulated experiments are what the solvers expect", "statement": "The generators in test/ that feed every test and benchmark. Random rotations are the rotations with the drawn roll, pitch and yaw angles, and the orthonormalisation never divides by zero; random direction translations have the requested length. A random point is NaN only if all three outputs of rand() are half of RAND_MAX, its distance is between the minimum depth and min + sqrt(3)(max - min), and it can be beyond the maximum depth. addNoise gives a unit vector at an angle whose tangent is noise*sqrt(x^2+y^2)/(1.4142*800), except that it is NaN exactly if the third coordinate is zero and the first two have the same absolute value (defect). The extracted relative pose is proper and maps every point from frame 2 to frame 1. getPerturbedPose moves every coordinate by at most the amplitude and is NaN exactly for half turns. 2D-3D, 2D-2D and 3D-3D generators: point i belongs to camera i mod numberCams; without noise every correspondence from index floor(outlierFraction*n) on is exact for the true pose (score zero, rays meeting in front of both cameras, points mapped onto each other); the ones before have the measurement of another point. Without cameras or with too many outliers there is an access out of bounds. The Multi generators, with one list per camera, store point i of camera c as entry i of list c with the same guarantees, their outliers are measured by the right camera, and more outliers than points are written out of bounds; through the serial indices of the multi adapters their data are consistent with the true pose. The outliers of the (not Multi) 2D-2D generator are projected into the camera left over from the first loop instead of their own (defect). RANSAC on a simulated absolute pose experiment has at least n - floor(outlierFraction*n) inliers once the true pose is scored; LMedS on a simulated point cloud experiment returns exactly the true relative pose once a clean sample is scored.", "quantifier": "all poses, camera systems, numbers of points, outlier fractions, noise levels, outputs of rand(), points", "why_tests_cant": "The generators are the tests: nothing in the repository checks that the data are right, and the bad cases (NaN directions, wrong camera of an outlier) have probability near zero or look like ordinary outliers.", "anchors": ["test/random_generators.cpp: generateRandomPoint, addNoise, generateRandomTranslation, generateRandomDirectionTranslation, generateRandomRotation", "test/experiment_helpers.cpp: extractRelativePose, getPerturbedPose, getNindices, generateRandom2D3DCorrespondences, generateRandom2D2DCorrespondences, generateRandom3D3DCorrespondences, generateMulti2D3DCorrespondences, generateMulti2D2DCorrespondences"]}
{"id": "C73", "title": "Matlab interface hands the right data to the algorithms", "statement": "mexFunction of the Matlab interface. The search for the method never reads outside its tables, finds exactly the method of the given name and nothing for any other string; the branch taken calls the function or the sample consensus problem that the method is named after. With arrays of class double, an algorithm is called exactly if the two matrices have the numbers of rows of the family of the method and the same positive number of columns, the optional arguments have the documented shapes, one output is asked for (two only of sample consensus methods), and fivept_kneip is given indices. With indices that fit an int nothing undefined happens before the algorithm runs; in particular the adapter pointer used by the branch is initialised. The adapter has one correspondence per column and shows correspondence i as column i of both matrices, camera offsets below the bearing vectors. The prior is read column by column as [R t]. An index entry x with k-0.01 <= x < k+0.99 stands for the column Matlab calls k, and inliers go back as such numbers. Solutions are copied into the 3 x c x m output without writing outside it, entry (r,j) of solution s to entry (r,j,s). Defects: indices beyond the number of columns are accepted and read outside the matrices; the class of the matrices and the number of correspondences are not checked, so that single precision matrices and too few correspondences also lead to reads outside.", "quantifier": "all strings, numbers of outputs, lists of arguments, shapes, matrix entries, solutions", "why_tests_cant": "The interface has no tests; the table of lengths, the ranges of the families and the switch must agree for 38 methods and all shapes, and an out-of-range index or a single precision matrix reads stray memory without failing.", "anchors": ["matlab/opengv.cpp: methods, methodsLengths, findCase, mexFunction"]}
{"id": "C74", "title": "Python interface hands the right data to the algorithms", "statement": "The Python interface (pyopengv). In an array of n rows and c columns the accessors return the first three entries of row i, and raise an IndexError without three columns or beyond the rows; the only read outside the memory of an array is in an array of three or more dimensions of which one beyond the second is zero. Over n x 3 arrays its adapters show the same data as the central adapters of the library, except that the relative one counts the first array. A prior is read entry by entry, too small arrays raise an IndexError, larger ones are cut off silently. Matrices go back with the same entries, and a pose that was returned can be handed in again unchanged. triangulate2 returns an n x 3 array with the triangulated points as rows, exact points for exact data, an IndexError if the second array is shorter; for empty arrays it takes the address of an element that does not exist. p2p, twopt, twopt_rotationOnly and rotationOnly called from Python return the true pose, direction or rotation for exact data, and p2p raises an IndexError with fewer than two rows. The names of algorithms are matched exactly, and any other string silently means KNEIP or NISTER. Defect: with TWOPT, which needs a known rotation, ransac and lmeds make the adapter without one, so that every hypothesis has the identity as its rotation.", "quantifier": "all arrays of all shapes with a memory block of the size of the shape, all poses, all indices and all names", "why_tests_cant": "The Python tests call each function on one shape of generated data with n x 3 arrays, correct names and no prior mistakes; wrong shapes, empty arrays, misspelt names and TWOPT are never exercised.", "anchors": ["python/pyopengv.cpp:20-92", "python/pyopengv.cpp:114-193", "python/pyopengv.cpp:256-328", "python/pyopengv.cpp:336-421", "python/pyopengv.cpp:646-660", "python/types.hpp:15-35", "python/pyopengv.cpp:195-200", "python/pyopengv.cpp:424-443"]}
