# Formal model of OpenGV: design

## What this is

A Lean 4 model of the parts of OpenGV listed below, with proofs of the
properties in `properties.jsonl`. `MANIFEST.json` maps each property to the
theorems that carry it. The sources in `/repo` are only read.

## Layout

* `lean/Verif/Model/*.lean`: the model, function by function. Every definition
  cites file and lines in `/repo`, and says where it simplifies.
* `lean/Verif/Spec/*.lean`: small specifications that do not mention the model.
* `lean/Verif/Proof/*.lean`: helper lemmas.
* `lean/Verif/Props/*.lean`: the property theorems, each with an `example`
  showing that its hypotheses can be met by a concrete, non-trivial case.
* `seeded/LOG.jsonl`: record of seeded bugs and the theorems that caught them.
* `tools/manifest.py` regenerates `MANIFEST.json` from the theorem names;
  `tools/seed.py` applies a list of edits to a scratch copy of the model and
  records which property theorems fail.

## Trusted base

* Lean 4.33.0's kernel and Mathlib's definitions.
* Axioms: only `propext`, `Classical.choice`, `Quot.sound` (checked with
  `#print axioms`). No added axioms, no `sorry`, no `native_decide`/`bv_decide`.
* The faithfulness of the model to the C++ text, as argued by the comments.

## Modelling decisions (apply to all properties)

* `double` is modelled by `ℝ` (or `ℂ` for `std::complex<double>`): exact
  arithmetic. Rounding is NOT modelled. Non-finite results are: functions in
  which the code divides, takes square roots, logarithms or `acos` outside their
  domain return `none` ("not finite") in the model. So every theorem about a
  result is under the exact guard that the operations are defined.
* `int`/`size_t` are `ℤ`/`ℕ`; where overflow, modulo by zero or an out-of-range
  access can happen the model has an explicit outcome for it (`none`/`error`).
* Random generators are arbitrary streams of numbers: theorems hold for every
  stream, hence for every seed and generator.
* Eigen's decompositions are modelled by their contract: any `U, S, V` with
  `A = U S Vᵀ`, `U, V` orthogonal, `S` diagonal, non-negative, descending. The
  theorems hold for every decomposition that meets the contract (that one exists
  is proved in `Proof/SvdExists`). `EigenSolver` is modelled by its eigenvalues:
  `det(z - M) = ∏ (z - D i)` (`Spec/Eigen`, existence proved), and where the
  code reads eigenvectors by `IsEigenvectors` (column `c` is a non-zero
  eigenvector for the `c`-th eigenvalue) or `IsEigenSystem` (column `i` is a unit eigenvector for
  `D i`, real where `D i` is real); existence of both is proved. The algorithm
  inside Eigen (JacobiSVD, EigenSolver, LevenbergMarquardt) is not modelled: the
  result of a Levenberg-Marquardt run is an arbitrary vector. `std::sort` is a
  permutation after which the keys are in order.
* Abstract problem classes (`computeModelCoefficients`, distances) are arbitrary
  functions.

## Plan per property

| id | model | proof |
|----|-------|-------|
| C01-C04 | `Model/Sampling`: index pool, `drawIndexSample`, `getSamples` on an arbitrary random stream, with a distinct outcome for undefined behaviour | invariant "pool is a permutation of indices" by induction over the swap loop and over histories; reachability by choosing residues |
| C05-C09 | `Model/Ransac`: the loop as a step function on a state, run with a proved termination measure | loop invariants by induction on the run; real analysis for the stopping rule; counterexample runs for the false parts |
| C10-C11 | `Model/Lmeds` | same; order statistics via sorted lists |
| C12 | `Model/Sampling` | list induction |
| C13 | `Model/MultiRansac` | same invariants as RANSAC, per camera |
| C14-C15 | `Model/MultiAdapter`: offset tables built by the constructors | induction over the list of per-camera counts |
| C16 | `Model/MultiAdapter`: `getSampleSizes` with explicit out-of-bounds outcome | counting argument for the round robin |
| C17 | `Model/MultiAdapter`: scores | equality for uniform lists, concrete counterexample otherwise |
| C18-C19 | `Model/Cayley` | polynomial identities, adjugate/inverse algebra |
| C20-C21 | `Model/Cayley` (quaternions) | polynomial identities; case split on signs |
| C22-C24 | `Model/Arun` | SVD contract, `tr(R V S Uᵀ)` bound, reflection case via `tr Q ≤ 1` for `det Q = -1`; uniqueness for rank two |
| C25-C26 | `Model/Triangulation` | normal equations; null space of the linear system |
| C27-C28 | `Model/Roots` | Ferrari and Cardano identities in `ℂ`, principal powers |
| C29-C31 | `Model/Sturm` | triangle inequality for the bound; Sturm's theorem (local sign analysis + connectedness); queue invariant for bracketing |
| C32 | `Model/GaussJordan` | row-operation invariants |
| C33-C36, C53 | `Model/RelativePose` | cross product algebra, SVD contract |
| C37-C38, C54 | `Model/FivePoint`, `Model/NisterTable`, `Model/SteweniusTable` | coefficient tables (transcribed by `tools/gen_fivept.py`) compared as symbolic polynomials: a verified normal form, evaluated by the kernel; elimination; eigenvectors of the action matrix |
| C39-C40, C55-C56 | `Model/Eigensolver`, `Model/Ge` | Gram-matrix identity; trigonometric solution of the symmetric eigenproblems (3x3 cubic, 4x4 via the cubic resolvent); derivatives; loop invariants of the descent with NaN as a value |
| C41-C43 | `Model/P3p` | geometric algebra in the intermediate frames; polynomial identities for the quartics; alignment of congruent triangles |
| C44-C45, C57 | `Model/Upnp` | least squares in the translation; insertion invariant; second-order expansion in the Cayley parameters |
| C46 | `Model/Epnp` | linear algebra, SVD contract; Householder reflections for `qr_solve`; fixed point of the Gauss-Newton loop for exact data; a certified cube example |
| C47, C59 | `Model/Gpnp` | linear algebra, thin SVD contract (existence proved), minimum selection with NaN |
| C58 | `Model/Groebner`, `Model/GpnpInit`, `Model/Gpnp1Table` ... `Model/Gpnp5Table` | the elimination programs, transcribed by `tools/gen_groebner.py` as lists of statements; an invariant (every row is in the ideal, i.e. vanishes at the solution) and the support of every row are followed through the program by a verified checker run in the kernel; runs on integer data certified modulo a prime for the examples (`tools/groebner/*.py` generated the data) |
| C60 | `Model/Adapters` | induction over lists; layout specification `Spec/Layout` |
| C61 | `Model/Refine` | minimiser as a parameter with the contract `Spec/Lm`; Cayley round trip C19, scores C50 |
| C62 | `Model/Seventeenpt` | generalised inverse from the thin SVD contract, essential matrix decomposition |
| C63 | `Model/FiveKneip`, `Model/FiveKneipInit`, `Model/FiveKneipTable` | elimination program as for C58, with two further facts checked in the kernel: the first ten rows keep the form of the initial ones while the statements with a fixed leading coefficient use them, and the initial rows are the determinants (comparison of 1296 terms); eigenvector contract; example run modulo a prime |
| C64 | `Model/UpnpAction`, `Model/UpnpTables` | every row of a table is an equation times a monomial (checked in the kernel on packed monomial codes, `Proof/Template`); Gauss-Jordan invariant C32; stationary points by derivatives; examples by elimination modulo 11 of packed rows (`Proof/ModRank`) |
| C65 | `Model/Sixpt`, `Model/SixptTables` | tables transcribed by `tools/gen_sixpt.py`; vector algebra for the relation of two rays; `fillRow2` compared with the 6000 terms of a determinant (distinct terms, count); template as in C64; example modulo 251 with the first elimination by integer adjugates (`tools/sixpt/*.py` generated the data) |
| C66 | `Model/SixptSac` | Gram matrix of generalised normals; orthogonality of eigenvectors of a symmetric matrix; a symmetric matrix without nonzero eigenvalue is zero (Cayley-Hamilton); search loop as in C48, scores as in C50 |
| C67 | `Model/Gp3p`, `Model/Gp3pInit`, `Model/Gp3pTable` | elimination program as for C58; that the terms left out by the program cancel is proved for all inputs: coefficients of the first phase as polynomials, relations between the equations (Koszul and linear ones) as in a Groebner basis of quadrics, then from the generic inputs to all by a line through a certified example (`Proof/Gp3pZero`, `Proof/Gp3pLine`); eigenvector contract; conjugate eigenvalues counted; example run modulo a prime (`tools/gp3p` generated the data) |
| C68 | `Model/AbsSac` | composition of C41, C42, C43, C46, C67 with the frame change, the search loop (C48) and the scores (C50) |
| C69 | `Model/RelSac` | an invariant of the adapter through the RANSAC loop (`Proof/RelSac`), composed with C06, C19, C33, C39, C50, C61 |
| C70 | `Model/WholeSac` | composition of C03, C05-C08 with the exactness of the solvers (C22-C24, C53) and the scores (C50); `ge` with C40, C55 |
| C71 | `Model/Lmeds`, `Model/LmedsNan` | counting with order statistics, composed with C03, C10, C11, C22-C24, C50 |
| C72 | `Model/Experiment`, `Model/ExperimentMulti` | loop invariants of the generators of `test/` (cameras, outliers), vector algebra for noise and rotations; composed with C18, C19, C50, C70, C71. The printing functions are not modelled |
| C73 | `Model/Mex` | loop invariants for the search and the copying; the 38 entries of the tables by `decide` (the table is finite and fixed in the code), all shapes, strings and data by proof; composed with the array adapters of C60 |
| C74 | `Model/Python`, `Model/PythonSolvers` | index arithmetic of row-major arrays, loop invariants for the triangulation and the filling of the result; composed with C24, C25, C33, C41 and the adapters of C60. The bounds checks of pybind11's `data` and `shape` are assumed |
| C51 | `Model/MultiAdapter` | round-robin invariant for the six-point sampler |
| C52 | `Model/Sturm` | fixpoint of the bracketing loop |
| C48-C50 | `Model/SacProblems` | list induction, rigid-motion algebra, Cauchy-Schwarz |

Not modelled at all: rounding errors, the numerical algorithms inside Eigen
(decompositions and Levenberg-Marquardt, which enter by contract), the
wrappers of the Python interface for the other solvers, timing and memory allocation.
