# Formal model of duanebyer/sidis: design

Everything is in Lean 4 (4.33.0) with Mathlib; the Lake project is `/verif/lean`.

## Conventions

* `Verif/Model/*`  definitions modelling code; every definition cites the file and lines it models.
* `Verif/Spec/*`   small specifications written without looking at the model's helpers.
* `Verif/Lemmas/*` helper lemmas.
* `Verif/Props/*`  the property theorems, each followed by an `example` that a concrete non-trivial case meets its hypotheses.

### Numbers

The library computes in C++ `double`.  Two idealisations are used:

* **ℝ model** (vectors, transforms, kinematics, frames, maps, coefficients): exact real arithmetic.
  Rounding is not modelled.  Square roots of negative numbers and divisions by zero do not
  follow IEEE here, so every theorem in the ℝ model carries the hypotheses under which no such
  operation is evaluated (physical region).
* **Fl model** (bounds, clamp, cuts, validity tests, densities): `Fl = nan | ninf | fin r | pinf`
  with exact arithmetic on finite values and IEEE-754 rules for NaN, infinities, comparisons,
  division by zero and square roots of negative numbers.  Signed zero and rounding/overflow to
  infinity are not modelled (a zero denominator gives an infinity of the numerator's sign, as for +0).

Machine integers are modelled as ℤ with explicit width; signed overflow, division by zero and
out-of-range array access are explicit `UB` outcomes, unsigned arithmetic wraps.

### Trusted base

* Lean's kernel, and the axioms `propext`, `Classical.choice`, `Quot.sound` (checked with
  `#print axioms`; no other axiom is used).
* That the definitions in `Verif/Model` describe the C++ text they cite.  Nothing is extracted or run.
* Library behaviour assumed from the C++ standard: `std::set`, `std::map`, `std::regex` (POSIX basic),
  `iostream` formatted input, `fmin`/`fmax` NaN rules.

## Properties

| id | modelled in | how it is proved |
|----|-------------|------------------|
| C01 Bound intersection is set intersection | Fl, Bound | case analysis on ends (nan, -inf, finite, +inf) and order reasoning on ℝ |
| C02 Bound union is the hull | Fl, Bound | same; minimality by instantiating containment at the ends |
| C03 Invalid Bounds can never be resurrected | Fl, Bound | inductive relation of operation histories, invariant 'ordered or has a NaN end', absorbing invalid |
| C04 Shifting, scaling and interpolating a Bound move its points | Fl, Bound | case analysis; real inequalities |
| C05 clamp always lands inside the range | Fl, MathUtil | case analysis |
| C06 prod_div computes N*k/K exactly | ProdDiv (machine integers, overflow and ÷0 are an explicit UB outcome) | loop invariant N*k_p = quot*K+rem by induction on the iteration count |
| C07 prod_div has defined behaviour on the progress-bar domain, and not everywhere | ProdDiv | bounds on every intermediate; concrete UB witnesses |
| C08 Progress percentage is exact and bounded | Progress (loop of command_generate) | loop invariant, uses the prod_div theorem |
| C09 Vector norms, units and projections obey their definitions | Vector over ℝ | algebra, sqrt lemmas |
| C10 Rotations and boosts preserve the geometry | Transform over ℝ | ring identities modulo |axis|=1, cos²+sin²=1, cosh²-sinh²=1 |
| C11 transform_to carries one direction onto the other by a Lorentz transformation | Transform over ℝ | field_simp/ring with unit-norm hypotheses |
| C12 rotate_to is a rotation for every pair of directions (refuted) | Transform over ℝ | negation with a witness, plus the general statement for every antiparallel pair |
| C13 inv() is a two-sided inverse | Transform over ℝ | ring identities |
| C14 sym_prod is symmetric in its arguments (refuted) | Transform over ℝ | negation with witness; general statement of when it holds |
| C15 Particles accepts exactly the physical mass thresholds | Fl, Particle | case analysis |
| C16 Kinematics satisfies the defining four-momentum relations | Kinematics over ℝ | polynomial identities with square roots eliminated by sq_sqrt; hypotheses = physical region |
| C17 KinematicsRad describes a real photon and the shifted process | KinematicsRad over ℝ | same |
| C18 A zero-energy photon changes nothing | KinematicsRad over ℝ | substitution R=0 |
| C19 Adding and forgetting the photon is lossless | KinematicsRad, project as records | structure extensionality |
| C20 phi_q is the canonical representative of pi - phi | Kinematics angle wrap | fmod spec (integer quotient) and case split |
| C21 Frame transformations are Lorentz transformations and mutually inverse | Frame over ℝ | matrix identities from q_t²+q_l²=λ_Y/4M² |
| C22 Reconstructed final-state momenta conserve four-momentum and stay on shell | Final, FinalRad over ℝ | composition of the frame theorems with C16/C17 |
| C23 valid(cut, kin) means kinematically valid and inside every valid cut | Cut over Fl | definition unfolding against an independent specification table; monotonicity |
| C24 Kinematic limits never exclude a valid point | Cut over ℝ with domain conditions | nonlinear inequalities |
| C25 Sampling under cuts returns only points satisfying the cuts | take over Fl | case analysis on the program's result |
| C26 A half-infinite Q^2 cut keeps all of its phase space (refuted) | x_bound(cut) over Fl | inf/inf = NaN propagates; rejection of every point |
| C27 Variable maps are inverse to each other | Map over ℝ | log/exp/sinh/asinh lemmas; Sigmoid2 via (s1+w s2)² |
| C28 Reported jacobians are the true derivatives | Map over ℝ | HasDerivAt; monotonicity for the range statement |
| C29 Grid interpolation never reads outside the grid | Interp: views over flat arrays with explicit out-of-bounds outcome | induction over dimension; floor lemma |
| C30 Linear interpolation is exact on affine data and never overshoots | Interp | induction over dimension |
| C31 Cubic interpolation is exact on quadratics away from the edges and not at the edges | Interp | ring; witness for the edge cell |
| C32 read_grids lays data out independently of row order convention | ReadGrids | induction over axes |
| C33 Malformed grid input is rejected without undefined behaviour (refuted) | ReadGrids with explicit OOB outcome | witness runs |
| C34 Filters form a Boolean algebra of tag conditions | Filter | set algebra |
| C35 Unused parameters are always caught | Params state machine + ghost history | invariant by induction over operations |
| C36 Parameter lookup returns the last provided value, else the default, else throws | Params state machine | induction over operations; frame lemmas |
| C37 check_equivalent accepts exactly equal parameter sets of equal format | Params | unfolding against an independent relation |
| C38 Parameter files parse to what they say | ParamStream on character lists | refinement to a line-by-line specification |
| C39 Written parameter values read back unchanged | Codec: readers and writers on character lists | round-trip by induction on digits/lists; negation for seeds |
| C40 Merging parameter sets is sound | Merge | unfolding; partial where the code skips checks |
| C41 Merged sets remember all seeds (refuted) | Merge | witness + general statement of what the seed set becomes |
| C42 A generator file is accepted only if it can provide the requested events | Merge / foam check | iff with independent relation |
| C43 Combining integrators is a commutative monoid that preserves expectation values | Model/Integ: Integrator over Fl, statistics library as an interface with assumed laws (Spec/Integ) | field algebra; induction over merge trees |
| C44 Statistics survive the file round trip | Stats file | index arithmetic on lists |
| C45 Generation writes exactly the requested number of accepted events | Model/Generate: event loop over an arbitrary random source | loop invariant over the recorded draws |
| C46 Rejection re-weighting preserves the mean weight | Reweight | interval integral over the uniform variable |
| C47 Event density is never negative and is zero outside the cuts | Model/Density: generator.cpp 15-221, cross-sections as parameters | constructors inverted in the Except monad; C23-C25, C66, C67 of the cuts; finiteness of every jacobian |
| C48 Generator objects never leak or double-destroy their distribution | Model/Dist: generator.ipp, generator.cpp 223-351, engines with unique numbers and a ghost log, undefined behaviour is `none` | effect of every operation on the set of engines alive; invariant over histories; simulation of the client's view |
| C49 Saved generators read back or fail cleanly | Model/Dist: byte streams, library as a parameter | case analysis on the header; little-endian round trip |
| C50 Help tables never lose words | Model/Terminal on character lists; Spec: greedy typesetting of words | loop invariant over groups of words, decreasing length |
| C51 No table line exceeds its column (refuted) | Model/Terminal | for every long word; unsigned wrap |
| C52 Structure-function filters select what their names say | Model/SfMask; Spec/SfMask: table of names, polarisations, words | induction over the word list |
| C53 selectN filters pick one structure function (refuted) | Model/SfMask, matcher for the basic grammar | for every N; partial theorem for the extended grammar |
| C54 Polarised cross-section shortcuts agree with the full formula | Model/LepCoeff, HadCoeff, CrossSection over ℝ; Spec/CrossSection: contraction of nine leptonic and hadronic components | sixteen-way case split and ring |
| C55 Non-radiative cross-section is a rescaled Born plus anomalous-moment term | Model/CrossSection, cutoff in Fl | case split, non-finite values propagate |
| C56 Soft/hard split does not depend on the photon cutoff | Model/CrossSection soft factors in Fl | algebra of logarithms |
| C57 The radiative cross-section is Born times an infrared factor plus an infrared-finite part | Model/LepCoeff, HadCoeff, CrossSection | ring; zero-photon limit from C18 |
| C58 Finite-difference extrapolation is exact for quadratics | diffR in Model/HadCoeff | field_simp; error bound by Rolle three times |
| C59 Structure functions from TMDs are the published convolutions | Model/Tmd: all of tmd.cpp and the TMD part of structure_function.cpp, the cubature a parameter; Spec/Tmd: the formulas of Bacchetta et al. over ℝ² | Gaussian moments in the plane, polar coordinates, field_simp/ring for the weights |
| C60 Prokudin structure functions agree with its own TMDs | Model/Prokudin: all formulas of prokudin.cpp, the tables as parameters | unfolding of GaussianWwTmdSfSet (C59), field_simp for each flavour; explicit table for the refutations |
| C61 The running coupling is defined, continuous and increasing (default argument and first cell refuted) | Model/Phenom: start-up loop, cubic view of Model/Interp, one-loop continuation | induction over the table with two-sided bounds, monotone Hermite cells, logarithm bounds |
| C62 Asymmetries are the azimuthal moments of the cross-section | Model/Asymmetry: all of asymmetry.cpp, with integrator and photon map as parameters; Spec/Asymmetry: moments as interval integrals | integrals of trigonometric polynomials, linearity in the polarisation (C54), the textbook formula (C72) |
| C63 Command line dispatch is total and unambiguous | Model/Main: main.cpp 1157-1259, exception.hpp; argument vectors are lists of texts, an access behind the end of a string or of argv is `none` | equivalence with a relation listing the documented command lines; case analysis on lists of any length |
| C64 Triple product of 4-vectors (refuted) | Vector, Transform over ℝ | witness, and the contraction that does vanish by ring |
| C65 V_m and V_p are the documented products (refuted) | Kinematics over ℝ | from C16: the values are half the documented ones |
| C66 valid decides the physical phase space | Kinematics and Cut over Fl, compared with the ℝ kinematics | propagation of finiteness through the IEEE operations; iff with an explicit list of inequalities |
| C67 Sampling under cuts can reach every admissible point | take over Fl | each axis map is onto its range (C28), applied variable by variable |
| C68 Radiative sampling works for a massless beam (refuted) | takeRad over Fl | division by m² = 0 makes the map NaN for every input |
| C69 Total statistics are numbers whichever event types are enabled (refuted) | Model/Integ | NaN propagates through the sum of primes |
| C70 The total cross-section is the sum over event types (refuted) | Model/Integ | field algebra, exact condition |
| C71 Every enabled event type is generated | Model/Generate | loop invariant: number of used generators grows |
| C72 The Born cross-section is the published structure-function formula | Spec/Trento: the published expansion, written without any quantity of the code; Model/CrossSection | invariants expressed in the frame variables, then ring |
| C73 Prokudin distributions obey the positivity bounds | Model/Prokudin, Model/Tmd | weighted AM-GM for x^a (1-x)^b, exp bounds for the Gaussian factors |
| C74 Parameters survive a ROOT file | Model/Command: params.cpp 244-283, params_format.cpp 686-692, 738-746, 838-887; a directory is a list of named objects | case analysis on values, induction on the table |
| C75 An interrupted initialize cannot mislead generate | Model/Command: main.cpp 490-773; a file is what a prefix of the changes makes of an empty one | invariant of the prefix, C42, C49 |
| C76 generate accepts what initialize made | Model/Command | evaluation of both commands, C42, C47, C49, C74 |
| C77 Commands do not touch existing files | Model/Command, main.cpp 490-1053 | case analysis, refutation for failed commands |
| C78 Commands succeed completely or report an error | Model/Command, exception.hpp | case analysis, induction on the writes |
| C79 The event file tells how it was made | Model/Command | C74, C78 |
| C80 Born is tree-level QED | Model/LepCoeff, Model/CrossSection; Spec/Qed: Dirac matrices, spin sums, tensors | traces from the Clifford algebra, conservation of the current removes the projections, the nine components as identities of polynomials |
| C81 The anomalous moment is the one-loop Pauli term | as C80; Feynman parameter integral in Spec/Qed | as C80; substitution and fundamental theorem of calculus |
| C82 Radiative is tree-level QED with a photon | as C80; the vertex with emission from both lines | Ward identity, antisymmetrisation by Schouten identities, nine components over the fifteen invariants; one of them needs the Gram determinant relation between the two triple products |
| C83 Vacuum polarisation is the one-loop integral | Model/CrossSection deltaVacLep | fundamental theorem of calculus |
| C84 The eikonal factor over all directions | Model/Kinematics, Model/CrossSection; Spec/Photons | z_1, z_2 are linear in a unit vector; azimuth and polar integrals, Feynman parameter for the mixed term |
| C85 Independence of the cut-off between soft and hard photons | Model/CrossSection xsNradIr, xsRad, xsRadF; Spec/Photons: photons, soft, hard | the photons above a cut-off are a shell in R times a direction factor: the integral of 1/R over it is a logarithm times C84; then C55, C56, C57 |
| C86 Photon integrals | Model/PhotonInteg radFInteg, radInteg, nradInteg; Spec/Photons: Accurate | the samplers of C28 composed into a triangular change of variables of the cube; the range of R under the energy cut is the shell of soft or of hard photons |
| C87 Sum of the photon integrals | the same | C85 and C86 |
| C88 merge-soft | Model/MergeSoft: main.cpp 1055-1153; the output is what a prefix of the changes makes of nothing; Spec/MergeSoft: HasParams, HasStats, HasTree, Sees | case analysis of the run, induction over the inputs with C40, C43, C44 and C74; refutation by naming a file twice |
| C89 inspect | Model/MergeSoft: main.cpp 437-488 | C74, C44 and the fact that the printed text depends only on the values provided |
| C90 Dilogarithm | Model/Dilog dilogImpl; Spec/Dilog: Li2 as an integral | integral of the logarithmic series, Li2(1) from ζ(2), reflection, Landen's identity and inversion by equal derivatives; tail of the series below a geometric series, ranges of the argument covered by finitely many powers |
| C91 Infrared cancellation | Model/CrossSection deltaVertRadIr; Spec/Infrared: diracFormFactor, softEmission with a photon mass | vertex: square of Feynman parameters reduced to one integral and dominated convergence; soft: azimuth and polar integrals in closed form, Feynman parameter with the scale of 't Hooft and Veltman, dilogarithms by the derivative; the logarithms of the photon mass cancel |
| C92 Positivity (rad refuted for backward hadrons) | Model/CrossSection xsBorn, xsRad with all coefficients; Spec/Positive: matrix of photon polarisations | the hadronic tensor in an orthonormal basis of photon polarisations is C_1 times the matrix, the leptonic tensor is a sum of squares of amplitudes of Dirac spinors (C81, C82); the current is conserved, so the basis is complete |
| C93 Sampling integrates the phase space | Model/Cut takeCut, takeRadCut; Model/Map; Model/Density; Spec/Sampling: iterated means and integrals | one-dimensional change of variables for each map (C28), nested inside-out: at each level the limits contain every point with deeper valid values (C24), and all other sampled values have weight zero |
| C94 Convergence of reported cross-sections | Model/Generate, Model/Integ; Spec/Random: independent draws on a probability space | strong law of large numbers for the weights after rejection; invariant of the event loop: while one generator has few draws the others can only be chosen boundedly often |
| C95 Unbiased cross-section (refuted) | same; one generator with weights 0 or w | stopping time as a sum of indicators, Wald's identity, strict Jensen inequality |
| C96 Events add up to the cross-section | Model/Generate, Model/Integ, Model/ProcessEvents (example program) | rows are the kept draws (Faithful), grouped by generator; the example program refuted by a concrete run |
| C97 Interpolation in double precision | Model/BoundRnd: bound.hpp 47-51 with a rounding after every operation (as in Model/Interp) | monotonicity of rounding to nearest, relative error at most 2^-53; counterexample computed from the spacing of doubles |
| C98 Reported cross-sections are phase-space integrals | Model/Generate, Model/Density (drawWeight, eval), Model/Cut | the mean of the weights from the law of one draw and fairness of the point distribution, C93 for the integral, C94 for the limit |
| C99 Uncertainties, acceptance and efficiency shown | Model/StatsReport (Integrator error estimates, stream_write_integ) | strong law for recorded weights, their squares and the kept indicator; variance of a sum of independent draws; two exact runs with different primes for the refutation |
| C100 Uncertainty of combined runs | Model/StatsReport, Model/Integ | refuted: two exact runs with primes 1/2 and 1 |
| C103 Sampling without cuts | Model/Cut, Model/Map | each limit is shown to be non-empty at every value allowed by the previous ones (roots of the quadratics in x and z), then the sampled maps stay inside; the converse by the limits of C24 |
| C104-C106 Example programs | Model/Example | the checks of `main` in their order are shown equivalent to the phase space, for finite and non-finite numbers, by the limits of C103; sampling by C103; the rest is computation |
| C107, C108 Symmetries | Model/Kinematics, Frame, CrossSection | the cached quantities that change sign in the mirror are shown to be exactly the sines and volumes; every leptonic and hadronic coefficient is then even or odd; the derivative in rad_f uses kinematics that are mirrored too |
| C109 Units | Model/Kinematics, LepCoeff, HadCoeff, CrossSection | a table of dimensions (Spec/Units) for every member of the two kinematics; each formula is shown to be homogeneous, in the order in which the constructors compute the members; division by zero and negative roots included; the integrals over the photon by a change of variables (Props/UnitsPhoton); monotonicity of the vacuum polarisation for its dependence on the unit |
| C114 Sign of the supplied cross-section | Model/Prokudin, CrossSection | the cos(phi_h) function as a multiple of the unpolarised one; textbook formula (C72); bounds of the interference weights; a point where the sum is negative |
| C115 Target of the structure functions | Model/LibSet: alloc_sf with targets and class hierarchy; Spec/LibSet | agreement with Model/SfMask (`alloc_erase`), unfolding |
| C117 Numerical integration | Model/Integrate: all of integrate.hpp, library routines as decision trees; Spec/Integrate | stack discipline of the trace by composition; induction over the trees |
| C119 plot_ssa, quick_start | Model/PlotSsa on Model/Asymmetry | the largest transverse momentum as a concave function of z; C62 and C72 at the points |
| C120 Loading of the Prokudin tables | Model/LoadGrids on Model/ReadGrids and the text codec; Spec/LoadGrids: decimal numerals, lines, places | induction over digits, lines and places; C32 for the grids |
| C121 Prokudin structure functions and the ranges of their tables | Model/ProkudinTables: the sums over flavours and the unpolarised part of the cross-sections in floating point, on Model/LoadGrids, Model/Interp and Model/Density | C33 and C120 give grids on which C29 applies; NaN goes through the sums |
| C122 Lifetimes of sets of structure functions | Model/SfLifetime: objects, their `_impl` pointers and a heap; Spec/SfLifetime: the same programs on values, without a heap | simulation with the invariant that each allocated `Impl` has exactly one owner, induction on the program |
| C123 Photon integrals and the ranges of tables | Model/PhotonTables: Model/PhotonInteg with a region in which the structure functions are numbers; NaN counts as zero as in the code | reduction to C86 with the cross-section set to zero outside; C85 for what is missing; every photon moves (x, Q²), which gives the refutation |
| C124 Contributions of structure functions add up | Spec/SfSum: linearity, values of a set, partition by masks; Model/SfMask, CrossSection, PhotonInteg, Density | linearity block by block; induction over the masks; integrals of sums; Sivers effect for the refutation |
| C125 Mixtures of polarisation states | Spec/Polarisation: shares, mean polarisations; Model/CrossSection, Frame, Density | affine dependence on both polarisations (C54), linearity of the rotation, positivity (C92); parameters with polarisations of 2 are accepted |
| C126 What the asymmetries depend on | Spec/AsymScale: scaled structure functions, integrators without absolute tolerances, agreeing sets; Model/Asymmetry | homogeneity of every integrand in IEEE arithmetic (infinities and NaN included), cancellation in the ratio |
| C127 Cuts that cut nothing change nothing | Spec/OpenCuts: cuts that are not made or let every number pass; Model/Cut | intersection with the full range is the identity on the limits, which are invalid or ordered; angle cuts replace the full circle, so an infinite or wide one is sampled as it is |
| C128 The functions without phenomenological inputs | Model/Overloads: the relation that a call returns a number; Spec/Qed: vacuumPolarisation as a Feynman parameter integral | the coupling is a number in range (C61), so the inputs are unique and what is proved with given inputs (C57, C86, C87) carries over; the one-loop running bounds the coupling below by the electron's vacuum polarisation, times the correction of nrad_ir (C83) |
| C129 The output arguments of take | Model/TakeOut: pointers as optional contents; Spec in Props/TakeOut (Optional, Delivers) | by cases on the returns; a cut on the photon's momentum that excludes the sampled one rejects without changing what is sampled |
| C130 Cut-offs that are not positive | Model/PhotonInteg, Model/Bound; Spec/Photons | the bound from 0 to a negative number is invalid, and an invalid bound is no cut, so that the change of variables (C86) covers all photons; nrad_ir is not a number (C55); for a cut-off of zero the jacobian of R is the derivative of a constant |
| C118 Exceptions in integrations | Model/Integrate | induction over the trees |
| C116 Kind of structure functions for a library | Model/LibSet, Model/Tmd | class hierarchy; C59; integral over the complement of the disc is positive |
| C113 Bounded asymmetries | Model/Asymmetry, CrossSection | the cross-section is not negative (C92), so its average along a line of constant a phi_S + b phi_h is not; that average is the unpolarised part plus one amplitude (C62, C72) |
| C112 Precision of sqrt1p_1m | Model/SqrtRnd: expm1, log1p and the product as arbitrary functions | the condition number of exp(h) - 1 is at most 1 + max(0, h); the errors of log1p and of the product reach the result through it |
| C111 Integrated symmetries | Model/PhotonInteg, Cut, Map | the integrand at the reflected random point equals the integrand at the point: the map of the azimuth is odd, the limits of R and the cutoff are even; then C107, C108 |
| C110 plot_phase_space | Model/PlotPhaseSpace | the values by C103; the limits by induction over the points; the bins of ROOT by the floor function; the greatest value is in none |
| C101 The help shows everything | Model/Help, Model/Terminal | two-column tables by induction over rows, from C50; all words of all texts fit (kernel computation over the whole format) |
| C102 What the help says is true | Model/Help (texts of PARAMS_STD_FORMAT), Model/Format, Model/Codec | the quoted default is determined by the text; readers evaluated on it by the kernel for all parameters; negation for the seed and cut.phi_k |

### Rounding

The interpolation model takes the rounding of each operation as a parameter.  Safety (C29) is proved
for exact arithmetic and for every rounding to nearest with 53-bit significands and unbounded exponents
(`Spec.Nearest`; such roundings exist, `Interp.exists_nearest`).  Value statements are for exact
arithmetic.

## Coverage of the code

| code | model | not modelled |
|------|-------|--------------|
| include/sidis/bound.hpp, src/bound.cpp | Model/Bound, Model/BoundRnd (rounding of lerp) | – |
| math helpers of src/math.cpp | Model/Num, Model/Bound (clamp), Model/Dilog | log_log1m, sqrt1p_1m are modelled by the functions they compute; the rounding of sqrt1p_1m in Model/SqrtRnd |
| app/utility (prod_div, progress) | Model/ProdDiv, Model/Progress | ROOT file helpers |
| extra/vector.hpp, transform.hpp/.cpp | Model/Vector, Model/Transform | stream output |
| particle.hpp, constant.hpp thresholds | Model/Particle | numeric values of the masses beyond those used in examples |
| kinematics.hpp/.cpp | Model/Kinematics | – |
| frame.cpp | Model/Frame (with final states) | – |
| extra/map.hpp | Model/Map | – |
| cut.hpp/.cpp | Model/Cut, Model/TakeOut (output pointers) | – |
| extra/interpolate.hpp/.ipp | Model/Interp, Model/ReadGrids | overflow and underflow of `double`, `std::size_t` wrap |
| app/params.hpp/.cpp, params_format.cpp | Model/Params, ParamStream, Codec, Format; ROOT storage in Model/Command | ROOT's classes are lists of values |
| app/terminal.cpp | Model/Terminal | failures of the output stream; texts of 2^32 characters and more |
| sf_set/mask.hpp; main.cpp zip_and, alloc_sf | Model/SfMask, Model/LibSet (targets, class hierarchy), Model/SfLifetime (ownership, moves) | ROOT library loading is an interface; a loaded library without the class is a null pointer dereference (ub) |
| leptonic_coeff.hpp/.cpp | Model/LepCoeff | exact reals |
| hadronic_coeff.hpp/.cpp | Model/HadCoeff | exact reals; structure functions are arbitrary functions returning numbers |
| cross_section.hpp/.cpp 1-447; math.cpp dilog | Model/CrossSection, Model/PhotonInteg, Model/PhotonTables (NaN structure functions), Model/Dilog | the integrator behind the photon integrals is a parameter; the forwarding overloads are in Model/Overloads; values are exact reals, cutoff and soft factors may be infinite |
| example/plot_ssa.cpp, quick_start.cpp | Model/PlotSsa | ROOT's canvases and choice of z; the printing |
| extra/integrate.hpp, integ_params.hpp | Model/Integrate | cubature and GSL are arbitrary decision trees; addresses |
| phenom.hpp/.cpp | Model/Phenom | exact reals; the constructors of Phenom that only copy |
| asymmetry.hpp/.cpp | Model/Asymmetry | the integrators (cubature, GSL) are parameters; int overflow of coefficient sums |
| tmd.hpp/.cpp, structure_function.cpp (TMD sets) | Model/Tmd | the cubature is a parameter; widths are numbers or +INF |
| app/sidisgen/generator.cpp 15-221 | Model/Density | the four cross-section functions and the change to hadron polarisation are parameters with arbitrary values in Fl; doubles in parameters are the rationals of Model/Codec |
| app/sidisgen/main.cpp 490-1053, params.cpp 244-283, params_format.cpp 686-887 (ROOT) | Model/Command | the loop that makes events is Model/Integ and Model/Density, here only its outcome; messages and progress are not modelled; ROOT's classes are lists of values |
| app/sidisgen/main.cpp 437-488, 1055-1153 | Model/MergeSoft | the messages are not modelled (the numbers of stream_write_integ are in Model/StatsReport); TChain is a list of file names |
| example/process_events.cpp 78-100 | Model/ProcessEvents | histogram, missing objects |
| example/cross_section.cpp, example/random_phase_space.cpp, example/plot_cutoff.cpp 65-78, include/sidis/sf_set/test.hpp | Model/Example | text conversions and library functions as parameters; no labels, formatting or drawing |
| example/plot_phase_space.cpp | Model/PlotPhaseSpace | as above; a histogram of ROOT is a choice of bins, for limits in increasing order |
| app/sidisgen/main.cpp 1157-1259, exception.hpp | Model/Main | the commands are parameters |
| app/sidisgen/main.cpp 378-426; texts of params_format.cpp 45-349 | Model/Help | command_version |
| app/sidisgen/generator.ipp, generator.cpp 223-351 | Model/Dist | the library bubble is a parameter (state, moved-from state, bytes); `_density` left out; LP64, little endian; bubble bytes are written in one piece; the move constructor of CellGenerator does not throw |
| sf_set/prokudin.cpp | Model/Prokudin | interpolated tables are arbitrary functions; the search and the reading of the files are Model/LoadGrids and Model/ReadGrids, the evaluation of the loaded tables is Model/ProkudinTables, moves and destruction are Model/SfLifetime; an unknown hadron is the outcome `none`; the literal E is exact |
| app/utility.hpp Integrator, IntegratorAccum; main.cpp IntegratorArray, root_write_integs, root_read_integs, event loop of command_generate, statistics of command_merge_soft | Model/Integ, Model/Generate | printing (error estimates and rel_var are in Model/StatsReport); bubble::Stats is external: its laws are hypotheses (Spec.Counts, HasSum, RootMeanSquare), met by the examples in Lemmas/StatsExample |

## Findings (places where the code does not do what a user expects)

Each is a theorem ending in `_refuted` (or named in the note of the claim in MANIFEST.json).

* C07 `prod_div` overflows or divides by zero outside the progress-bar domain.
* C12 `rotate_to` of antiparallel vectors is minus the identity, not a rotation.
* C14 `sym_prod` is not symmetric.
* C24 for a massless beam the corner x = 0 of the phase space is lost.
* C26 half-infinite cuts on Q² or W² reject every point.
* C29 the last grid node of each dimension gives NaN (half-open range).
* C31 cubic interpolation does not reproduce constants in edge cells.
* C33 `read_grids` reads out of bounds on collinear tables and accepts repeated grids.
* C39 infinities, empty strings, several seeds and long decimals do not survive a parameter file.
* C40, C41 merging loses seeds, skips comparisons, and fails on disabled event types.
* C88 merge-soft accepts a file named twice, unless it is the first one, and its events appear twice in the output (consequence of C41).
* C64 the 4-vector cross product is not Minkowski-orthogonal to its arguments.
* C65 documented values of V_m and V_p are twice the computed ones.
* C130 xs::rad_f_integ with a negative or NaN k_0_bar, and xs::rad_integ with a NaN one, integrate over all photons: the bound they make is invalid, which means no cut (cross_section.cpp 398-399, 426-427; bound.cpp 14-18).
* C129 cut::take for nine coordinates with cuts writes its outputs when it returns false for the photon, with a jacobian that lacks the factor of the first six coordinates (cut.cpp 491-493); it writes nothing when it returns false for the first six (488-490).
* C128 xs::nrad_ir with the default Phenom counts the vacuum polarisation by electrons twice: once in the running coupling alpha_qed(Q_sq) (phenom.cpp 84), once in delta_vac_lep (cross_section.cpp 622). The asymmetries do the same.
* C127 cut::take samples an angle from its cut as it is: an infinite cut (minus to plus infinity) gives only NaN and infinite angles, all rejected, and a cut wider than the circle counts directions more than once (cut.cpp 434-435, 570).
* C125 sidisgen documents setup.beam_pol as in [-1,1] and setup.target_pol as in the unit sphere (params_format.cpp 208-217), and accepts any numbers.
* C124 with a filter that removes the unpolarised structure functions (or keeps only part of the polarised ones) the cross-section is negative in part of the phase space. The densities of sidisgen are zero there (generator.cpp 136-140, 194-198), so that the runs for the parts do not add up to the run for the whole.
* C123 photons that lead out of the tables of the structure functions are left out of rad_integ and nrad_integ without a sign (cross_section.cpp 409-415, 437-439). In nrad_integ their subtraction is left out as well, so that the total depends on the cut-off k_0_bar.
* C122 a moved-from Prokudin set dereferences a null pointer when it is evaluated; moving a moved-from MaskSfSet reads the target through a null pointer (mask.hpp 110, 129); TmdSfSet and its variants keep a reference, which does not follow the TMD set when that is moved.
* C121 with the installed tables the Prokudin cross-sections are NaN for Q² < 1 or Q² ≥ 89.11 GeV², and the generator turns this into a density of zero without a message: no such events are ever made. A flavour from 6 reads past the end of an array.
* C120 more columns than expected, or any text after the numbers of a line, are ignored in the data files of the Prokudin sets; a blank line at the end is an error.
* C118 an exception of a structure function during a Monte-Carlo integration (MC_PLAIN, MISER, VEGAS) leaves a callback of the C library GSL.
* C115 sidisgen uses structure functions of the proton for any target with `prokudin`, and those of a shared library whatever their target; `TargetMismatch` exists but is never thrown.
* C116 alloc_sf asks for TmdSet before the classes derived from it, so that GaussianTmdSet, WwTmdSet and GaussianWwTmdSet libraries never get their own structure function classes (main.cpp 276-310).
* C114 the Born cross-section with ProkudinSfSet is negative at large transverse momentum and low Q², whatever the tables; the generator sets such densities to zero without a message.
* C68 radiative sampling fails for every massless beam.
* C46 an event of zero density is kept when the uniform random number is exactly 0.
* C51 a long word that is not the first of its text is never broken; in the last column the padding wraps to about 2^32 spaces.
* C53 selectN filters are never accepted (regular expression in the basic grammar); with the extended grammar select18 would be out of bounds.
* C56 exactly at the production threshold (mx = Mth) the soft factor takes the logarithm of zero, so nrad_ir is not a number for any positive cutoff.
* C61 alpha_qed() with its default argument Q² = 0 is NaN, and so is every value below the electron mass squared; in the first table cell the cubic view uses 0 for the missing neighbour and overshoots by more than 5 %.
* C62 ut_asym returns a NaN error whenever the polarised integral is exactly zero (0/0 relative error), always so for a coefficient of the target azimuth other than ±1.
* C59 convolve() misses a factor 2 in its W3 weight (structure_function.cpp 107-110): F_UT_sin_3phih_m_phis of TmdSfSet and WwTmdSfSet is wrong; the Gaussian closed form is right.
* C63 the source gives the short option -i to both inspect and initialize; it always means inspect (main.cpp 1189, 1200).
* C78 the non-radiative density looks at cut.k_0_bar without marking it as used (generator.cpp 76): with radiative events disabled and strict on, a given cut.k_0_bar is always reported as unused.
* C76 version is only written if it was given (default 5.0), so that the version check is vacuous for files made by a later version from a file that does not give it; a parameter file that gives an identifier, in non-strict mode, can make its own generator file incompatible.
* C74 one interval that is not ordered (for instance nan) makes all the parameters in a ROOT file unreadable; a NUL character truncates a text.
* C77 initialize and generate create their file before they check the parameters (main.cpp 529, 783): after an error the file remains, and the corrected run fails with ERROR_FILE_NOT_CREATED.
* C48 a generator whose build_dist threw must only be destroyed: drawing from it, moving it or calling build_dist again is undefined behaviour (generator.cpp 313-329 destroys the old distribution first and clears only the flag). The commands of sidisgen never do this.
* C48 after read_dist met an unknown distribution type a generator that was built must only be destroyed (draw uses the destroyed engine). Moreover Dist::read calls `dist.~Dist<D>()` and then reads and writes members of the destroyed object (generator.ipp 163-196), formally undefined behaviour in every read that gets past the header; a compiler that removes the destructor's last store as dead makes the unknown-type path destroy the engine twice.
* C47 the radiative density needs a positive soft threshold and mc.rad.enable: otherwise the sampling of R has an empty range exactly at the threshold mx^2 = Mth^2, with a logarithmic map of offset 0, and a NaN jacobian is not excluded.
* C60 ProkudinSfSet: F_UT_sin_2phih_m_phis and F_UT_sin_phis do not follow from ProkudinTmdSet: the distributions hT, hTperp have the width HT_MEAN = 0.15 in the TMD set, whereas the structure functions use the pretzelosity width (and, in sin(phi_S), the transversity width in the coefficient).
* C72 at vanishing transverse hadron momentum, or with the hadron momentum orthogonal to the photon, the hadronic coefficients divide zero by zero although the published formula is finite there; the theorem excludes those points.
* C92 the radiative cross-section is negative where the hadron goes backward with respect to the photon left after the emission: shift_C_1 is proportional to the signed shift_ph_l (kinematics.cpp), although a probability needs its magnitude.
* C95 the reported cross-section is biased upwards for every number of events, because a run stops at an accepted event (the bias vanishes as the number of events grows, C94).
* C96 example/process_events.cpp multiplies the weights by the norm where it must divide: it shows norm^2 times the cross-section.
* C97 Bound::lerp can leave its bound by a unit in the last place, so that apply_map can return a value just outside the allowed interval.
* C100 the uncertainty shown for combined runs is too large when their primes differ: the weights of the runs are pooled without rescaling (utility.hpp 128-146).
* C103 `take` without cuts (cut.cpp 387-482, 501-554) never fails: below `S_min` it returns true with NaN variables; with nine coordinates it returns true with a NaN jacobian where y is at its lowest (no room for a photon). The loops `while (!take(...))` of the example programs rely on its result.
* C104 example/cross_section.cpp: points outside the phase space end the program by an uncaught exception (122-132, 156-160); the message for the structure functions (70-73) offers a set that does not exist and negates an unsigned constant.
* C105 example/random_phase_space.cpp: below the threshold it prints NaN (the loops 68-69 never repeat; if they did they would never end, as the random numbers are not drawn anew).
* C106 example/plot_cutoff.cpp 74: the relative error is multiplied by the signed ratio, so that the error bars are negative whenever the share shown is positive.
* C110 example/plot_phase_space.cpp 110-193: the axes of the histograms end at the greatest value, which ROOT counts in the overflow bin, so that at least one point is never drawn; below the threshold the values are NaN and the limits of the axes stay at their initial values, the lower one above the upper one.
* C102 mc.seed documents 'any' as a value and as its default, but a parameter file with it is refused; cut.phi_k is taken in degrees (generator.cpp 46) although its help text, unlike those of the other angles, mentions no unit.
* C69 with one event type disabled the total prime and norm are NaN, also in the event file.
* C70 the reported total cross-section is not the sum over event types unless mean weights or norms agree.
