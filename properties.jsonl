{"id": "C01", "title": "Bound intersection is set intersection", "statement": "For any two Bounds a and b (valid, invalid, half-infinite or with NaN ends) and any number x, (a & b).contains(x) is true exactly when a.contains(x) and b.contains(x) are both true; and when both are valid, (a & b).valid() holds exactly when the two intervals share a point.", "quantifier": "all pairs of Bounds over finite, infinite and NaN ends, all query points including NaN and infinities", "why_tests_cant": "uncountably many ends and query points; the NaN and infinity corner cases multiply and no sample settles an iff", "anchors": ["src/bound.cpp: Bound::operator&=", "include/sidis/bound.hpp: Bound::contains, Bound::valid"]}
{"id": "C02", "title": "Bound union is the hull", "statement": "For valid Bounds a and b, (a | b) is valid, contains every point of a and of b, and is contained in every Bound that contains both; if either operand is invalid the result is invalid and contains nothing.", "quantifier": "all pairs of Bounds, all candidate enclosing Bounds", "why_tests_cant": "minimality quantifies over every enclosing interval", "anchors": ["src/bound.cpp: Bound::operator|="]}
{"id": "C03", "title": "Invalid Bounds can never be resurrected", "statement": "Starting from any constructor call and applying any sequence of &, |, +, -, *, / with any arguments, the Bound is at every moment either ordered (min <= max) or invalid; an invalid Bound contains no number, and no further sequence of operations can make it valid again.", "quantifier": "all constructor arguments, all finite operation histories and all operands (finite, infinite, NaN)", "why_tests_cant": "the histories are unbounded; a test follows one history", "anchors": ["src/bound.cpp: all operators", "include/sidis/bound.hpp: Bound"]}
{"id": "C04", "title": "Shifting, scaling and interpolating a Bound move its points", "statement": "For finite s, x is in b exactly when x + s is in b + s; for finite s > 0, x is in b exactly when x*s is in b*s and exactly when x/s is in b/s; a negative scale factor (or a non-positive divisor) gives an invalid Bound; for a valid Bound with finite ends lerp maps [0,1] into the Bound, monotonically, with lerp(0)=min and lerp(1)=max.", "quantifier": "all Bounds, all shifts and scale factors, all points", "why_tests_cant": "real-valued quantification over four variables", "anchors": ["src/bound.cpp: operator+=, -=, *=, /=", "include/sidis/bound.hpp: lerp"]}
{"id": "C05", "title": "clamp always lands inside the range", "statement": "For min <= max and every x (including NaN and infinities) clamp(min, x, max) lies in [min, max], equals x whenever x already lies in the range, is idempotent and monotone in x; a NaN input gives min.", "quantifier": "all ordered pairs of finite or infinite limits, all inputs including NaN", "why_tests_cant": "NaN ordering makes three-way comparisons easy to get wrong at points no test visits", "anchors": ["include/sidis/extra/math.hpp: clamp"]}
{"id": "C06", "title": "prod_div computes N*k/K exactly", "statement": "Whenever prod_div(N, k, K, rem) runs to completion without signed overflow, its results satisfy N*k = quot*K + rem with |rem| < |K| and rem of the sign of N*k (the mathematical truncated quotient and remainder), although N*k itself may not be representable.", "quantifier": "all machine-integer arguments of every width, all iteration counts of the internal loop", "why_tests_cant": "the loop runs up to k times with data-dependent state; exactness is an inductive invariant over 2^192 inputs", "anchors": ["src/math.cpp: prod_div_impl"]}
{"id": "C07", "title": "prod_div has defined behaviour on the progress-bar domain, and not everywhere", "statement": "For 1 <= N, 0 <= k <= K with K*(2k+1) representable, prod_div never overflows, never divides by zero and returns floor(N*k/K); in contrast N = 0 divides by zero and N = -1 evaluates MIN/-1, so it does not have defined behaviour for all representable arguments.", "quantifier": "all N, k, K in the stated ranges for any integer width; the failing cases are exhibited", "why_tests_cant": "absence of overflow in every intermediate of every iteration cannot be sampled", "anchors": ["src/math.cpp: prod_div_impl", "app/sidisgen/main.cpp: command_generate progress bar"]}
{"id": "C08", "title": "Progress percentage is exact and bounded", "statement": "While generating num_events events, the percentage shown before event i is exactly floor(100*i/num_events), so it never decreases, is at most 99 before the last event and the update loop always terminates.", "quantifier": "all num_events >= 1 representable in 64 bits, all event indices", "why_tests_cant": "requires the loop invariant for every event index and every total", "anchors": ["app/sidisgen/main.cpp: command_generate", "src/math.cpp: prod_div_impl"]}
{"id": "C09", "title": "Vector norms, units and projections obey their definitions", "statement": "For every 3-vector, norm() is the Euclidean length, unit() has length 1 and the same direction (or is zero for the zero vector), and for non-zero v, par(v)+perp(v) is the vector itself with par parallel and perp orthogonal to v; for every 4-vector norm() squared is the absolute value of the Minkowski square, and for non-null v par/perp decompose in the Minkowski product.", "quantifier": "all vectors with real components", "why_tests_cant": "polynomial and square-root identities over continuous inputs", "anchors": ["src/vector.cpp", "include/sidis/vector.hpp"]}
{"id": "C10", "title": "Rotations and boosts preserve the geometry", "statement": "Transform3::rotate about any non-zero axis is orthogonal with determinant 1, fixes the axis and has trace 1+2cos(angle); rotate composes additively in the angle about one axis; Transform4::boost along any non-zero direction preserves the Minkowski product of all 4-vectors and composes additively in rapidity; transpose() is the inverse of each.", "quantifier": "all axes, angles, rapidities and all vectors transformed", "why_tests_cant": "continuous families of matrices", "anchors": ["src/transform.cpp: Transform3::rotate, Transform4::boost, transpose"]}
{"id": "C11", "title": "transform_to carries one direction onto the other by a Lorentz transformation", "statement": "For two 4-vectors whose squares have the same non-zero sign and the sum of whose unit vectors is not light-like (so they are not opposite; automatic for two future-pointing time-like vectors), transform_to(old,new) maps the unit of old onto the unit of new, preserves the Minkowski product and has determinant 1 (and is orthochronous between future-pointing vectors); for 3-vectors that are not antiparallel rotate_to(old,new) is a rotation mapping unit(old) to unit(new).", "quantifier": "all pairs of time-like or space-like vectors of the same kind", "why_tests_cant": "continuous inputs; the degenerate directions are measure zero", "anchors": ["src/transform.cpp: Transform4::transform_to, Transform3::rotate_to"]}
{"id": "C12", "title": "rotate_to is a rotation for every pair of directions (refuted)", "statement": "rotate_to(old,new) should be a proper rotation for every pair of non-zero directions; for antiparallel directions the code returns minus the identity, which has determinant -1.", "quantifier": "all pairs of non-zero 3-vectors", "why_tests_cant": "the failing inputs form a measure-zero set that random tests do not hit", "anchors": ["src/transform.cpp: Transform3::rotate_to"]}
{"id": "C13", "title": "inv() is a two-sided inverse", "statement": "For every Transform3 and Transform4 with non-zero det(), t.inv()*t and t*t.inv() are the identity, det is multiplicative, and det of the transpose is det.", "quantifier": "all 3x3 and 4x4 transforms with non-zero determinant", "why_tests_cant": "a wrong cofactor sign shows only for particular entries; the identity is polynomial in 16 variables", "anchors": ["src/transform.cpp: Transform3::inv/det, Transform4::inv/det", "include/sidis/transform.hpp: operator*"]}
{"id": "C14", "title": "sym_prod is symmetric in its arguments (refuted)", "statement": "sym_prod(v1,v2) should equal sym_prod(v2,v1) and v1 v2 + v2 v1; the code returns 2 v1 v2, so the property fails for any two non-parallel vectors.", "quantifier": "all pairs of vectors", "why_tests_cant": "no test calls it with distinct vectors", "anchors": ["include/sidis/transform.hpp: sym_prod"]}
{"id": "C15", "title": "Particles accepts exactly the physical mass thresholds", "statement": "Constructing Particles(target, beam, hadron, Mth) succeeds exactly when mass(target) <= Mth <= mass(target) + mass(hadron) and otherwise throws MassThresholdOutOfRange; in particular NaN is rejected.", "quantifier": "all particle combinations and all thresholds including NaN and infinities", "why_tests_cant": "threshold is continuous", "anchors": ["src/particle.cpp: Particles::Particles"]}
{"id": "C16", "title": "Kinematics satisfies the defining four-momentum relations", "statement": "For every physical phase-space point the quantities cached in Kinematics equal the invariants they document: with the four-momenta p, k1, q, k2, ph built from its components one has q = k1 - k2, q^2 = -Q_sq, k2^2 = m^2, ph^2 = mh^2, 2 p.q = S_x, 2 p.k2 = X, 2 k1.ph = V_1, 2 k2.ph = V_2, q.ph = V_m, t = (q-ph)^2, W_sq = (p+q)^2, mx_sq = (p+q-ph)^2, x = -q^2/(2 q.p), y = q.p/k1.p, z = ph.p/p.q.", "quantifier": "all phase-space points with physical momenta, all masses, all angles", "why_tests_cant": "continuous six-dimensional phase space; the cached values use rearranged formulas (sqrt1p_1m) whose equality is an algebraic fact", "anchors": ["src/kinematics.cpp: Kinematics::Kinematics", "include/sidis/kinematics.hpp"]}
{"id": "C17", "title": "KinematicsRad describes a real photon and the shifted process", "statement": "For every physical radiative point the photon four-momentum built from k_0,k_t,k_l,phi_k is light-like with 2 k.p = R, k.q/k.p = tau, 2 k.k1 = R z_1, 2 k.k2 = R z_2, and the shift_* quantities are the invariants of the process with virtual photon q - k: shift_Q_sq = -(q-k)^2, shift_t = (q-k-ph)^2, shift_W_sq = (p+q-k)^2, shift_mx_sq = (p+q-k-ph)^2, shift_V_m = (q-k).ph.", "quantifier": "all radiative phase-space points", "why_tests_cant": "nine-dimensional continuous phase space", "anchors": ["src/kinematics.cpp: KinematicsRad::KinematicsRad"]}
{"id": "C18", "title": "A zero-energy photon changes nothing", "statement": "At R = 0 every shifted quantity equals its unshifted counterpart, so project_shift() agrees with project() on every field (up to the azimuth convention).", "quantifier": "all phase-space points and all tau, phi_k with R = 0", "why_tests_cant": "continuous family; infrared cancellation relies on exact agreement", "anchors": ["src/kinematics.cpp: KinematicsRad::KinematicsRad, project, project_shift"]}
{"id": "C19", "title": "Adding and forgetting the photon is lossless", "statement": "KinematicsRad(kin, tau, phi_k, R).project() returns kin field by field, for every kin (whatever its contents) and every tau, phi_k, R.", "quantifier": "all field values, including inconsistent ones", "why_tests_cant": "about fifty hand-copied fields; one swapped copy is invisible to a test that does not look at that field", "anchors": ["src/kinematics.cpp: KinematicsRad::KinematicsRad, KinematicsRad::project"]}
{"id": "C20", "title": "phi_q is the canonical representative of pi - phi", "statement": "For every finite phi, phi_q lies in [-pi, pi], differs from pi - phi by an integer multiple of 2 pi, and cos_phi_q, sin_phi_q are its cosine and sine.", "quantifier": "all real phi", "why_tests_cant": "wrap-around logic over an unbounded range", "anchors": ["src/kinematics.cpp: Kinematics::Kinematics lines 23-35"]}
{"id": "C21", "title": "Frame transformations are Lorentz transformations and mutually inverse", "statement": "For every physical kinematics the transforms target_from_lepton, target_from_hadron, target_from_real_photon preserve the Minkowski product, their lepton/hadron/photon_from_target counterparts are their inverses, and the z axis of the lepton and hadron frames points along q.", "quantifier": "all physical kinematics", "why_tests_cant": "continuous family of matrices", "anchors": ["src/frame.cpp"]}
{"id": "C22", "title": "Reconstructed final-state momenta conserve four-momentum and stay on shell", "statement": "For every initial state, target polarisation and physical kinematics, Final gives q = k1 - k2, k2^2 = m^2, ph^2 = mh^2, and FinalRad in addition gives k^2 = 0, and the invariants 2 p.q = S_x, (p+q-ph)^2 = mx_sq hold in the lab frame.", "quantifier": "all initial states, polarisations and kinematics", "why_tests_cant": "needs correctness of the composed frame chain for all inputs", "anchors": ["src/kinematics.cpp: Final::Final, FinalRad::FinalRad", "src/frame.cpp"]}
{"id": "C23", "title": "valid(cut, kin) means kinematically valid and inside every valid cut", "statement": "valid(cut, kin) is true exactly when valid(kin) is true and, for each of the eighteen cuts that is itself a valid Bound, the corresponding quantity of kin lies in that Bound; invalid cuts are ignored; adding or narrowing a cut never turns an invalid point valid. Likewise for valid(cut_rad, kin) and its six cuts, and valid(cut,cut_rad,kin) is their conjunction.", "quantifier": "all cuts (valid or not), all kinematics including NaN-valued ones", "why_tests_cant": "eighteen independent cuts give 2^18 combinations over continuous values", "anchors": ["src/cut.cpp: valid(Cut, Kinematics), valid(CutRad, KinematicsRad), valid(Cut, CutRad, KinematicsRad)", "include/sidis/cut.hpp"]}
{"id": "C24", "title": "Kinematic limits never exclude a valid point", "statement": "Every point for which valid(kin) holds satisfies x in x_bound, y in y_bound, z in z_bound, ph_t_sq in ph_t_sq_bound (each evaluated at the preceding variables), as the documentation guarantees ('all points outside of these limits are guaranteed invalid').", "quantifier": "all valid phase-space points for all particle masses and S", "why_tests_cant": "a wrong boundary silently removes phase space; deciding it needs inequalities over a six-dimensional region", "anchors": ["src/cut.cpp: x_bound, y_bound, z_bound, ph_t_sq_bound"]}
{"id": "C25", "title": "Sampling under cuts returns only points satisfying the cuts", "statement": "When take(cut, ...) or take(cut, cut_rad, ...) returns true, the kinematics written out satisfy valid(cut, kin) (and valid(cut_rad, kin)), whatever unit-cube point was supplied; the jacobian is the product of the jacobians of the one-dimensional maps.", "quantifier": "all unit-hypercube points, cuts, particles and energies", "why_tests_cant": "the sampler is called with arbitrary random points", "anchors": ["src/cut.cpp: take overloads"]}
{"id": "C26", "title": "A half-infinite Q^2 cut keeps all of its phase space (refuted)", "statement": "A cut Q_sq in [a, +inf) should select the points with Q_sq >= a; instead x_bound(cut, ...) becomes invalid (inf/inf is NaN), so take(cut, ...) rejects every point.", "quantifier": "all particles, energies and lower limits a", "why_tests_cant": "tests use finite cuts; the failure needs IEEE special-value reasoning through two functions", "anchors": ["src/cut.cpp: x_bound(Cut, ...)"]}
{"id": "C27", "title": "Variable maps are inverse to each other", "statement": "For each of the maps Linear, Inverse, Log, Decay, Sigmoid, Sigmoid2 and every x in its domain, x(u(x)) = x, and u(x(u)) = u for every u in the image.", "quantifier": "all map parameters and all points in the domain", "why_tests_cant": "transcendental identities over continuous inputs; Sigmoid2's closed-form inverse is not checkable by sampling", "anchors": ["include/sidis/extra/map.hpp"]}
{"id": "C28", "title": "Reported jacobians are the true derivatives", "statement": "For each map, jac is the derivative of x with respect to u, and the jacobian returned by apply_map is the derivative of the returned x with respect to the unit coordinate; with a valid finite bound in the domain apply_map sends 0 and 1 to the ends of the bound and [0,1] into the bound.", "quantifier": "all maps, parameters, bounds and unit coordinates", "why_tests_cant": "derivatives are limits", "anchors": ["include/sidis/extra/map.hpp: jac, apply_map"]}
{"id": "C29", "title": "Grid interpolation never reads outside the grid", "statement": "For every grid and every query point, LinearView and CubicView either return NaN (query outside [lower, upper) or NaN) or read only cells with index in range; at grid nodes they return the stored value.", "quantifier": "all grid sizes, dimensions, bounds and query points", "why_tests_cant": "index arithmetic on continuous inputs in any dimension", "anchors": ["include/sidis/extra/interpolate.ipp: LinearView::operator(), CubicView::operator(), GridView"]}
{"id": "C30", "title": "Linear interpolation is exact on affine data and never overshoots", "statement": "LinearView reproduces any affine function sampled on the grid, and its value always lies between the smallest and largest stored values of the surrounding cell.", "quantifier": "all grids, all affine functions, all in-range query points", "why_tests_cant": "continuous inputs", "anchors": ["include/sidis/extra/interpolate.hpp: linear"]}
{"id": "C31", "title": "Cubic interpolation is exact on quadratics away from the edges and not at the edges", "statement": "In interior cells CubicView reproduces every polynomial of degree at most two; in the first and last cells it treats missing neighbours as zero, so even a constant table is not reproduced there.", "quantifier": "all grids and quadratics; the failing case is exhibited", "why_tests_cant": "continuous inputs", "anchors": ["include/sidis/extra/interpolate.ipp: CubicView"]}
{"id": "C32", "title": "read_grids lays data out independently of row order convention", "statement": "When the input rows enumerate a full rectangular grid in row-major order of any permutation of the axes, read_grids succeeds and the value stored at a multi-index is the value given for those coordinates.", "quantifier": "all dimensions, axis permutations, grid sizes and data", "why_tests_cant": "unbounded table sizes and all permutations", "anchors": ["include/sidis/extra/interpolate.ipp: read_grids"]}
{"id": "C33", "title": "Malformed grid input is rejected without undefined behaviour (refuted)", "statement": "read_grids should reject data that is not a full grid; instead a table whose points vary along only one of several axes makes it read past the end of the point list, and a table listing the grid twice is accepted with the later values winning.", "quantifier": "all input tables; failing tables exhibited", "why_tests_cant": "malformed inputs are unbounded", "anchors": ["include/sidis/extra/interpolate.ipp: read_grids"]}
{"id": "C34", "title": "Filters form a Boolean algebra of tag conditions", "statement": "For every tag set, (f | g) accepts exactly when f or g accepts, (f & g) accepts exactly when both accept, Filter(tag) accepts exactly the sets containing tag, REJECT accepts nothing and ACCEPT everything.", "quantifier": "all filters built by any nesting of | and &, all tag sets", "why_tests_cant": "unbounded expressions over unbounded tag sets", "anchors": ["app/sidisgen/params.cpp: Filter::operator|=, &=", "app/sidisgen/params.hpp: Filter::check"]}
{"id": "C35", "title": "Unused parameters are always caught", "statement": "For every history of set, get, get_soft, read and copy operations, check_complete() throws exactly when some parameter has a provided value that has not been fetched with get since it was provided; get_soft and default values never count as use.", "quantifier": "all operation histories and parameter tables", "why_tests_cant": "unbounded histories", "anchors": ["app/sidisgen/params.cpp: get, get_soft, set, set_from, check_complete"]}
{"id": "C36", "title": "Parameter lookup returns the last provided value, else the default, else throws", "statement": "After any history, get(name) returns the value most recently provided for name, or the default if none is provided, throws when neither exists or the name is unknown, and operations on one name never change what another name returns; set with a value of the wrong type throws and changes nothing.", "quantifier": "all histories and names", "why_tests_cant": "unbounded histories", "anchors": ["app/sidisgen/params.cpp: get, set, set_from"]}
{"id": "C37", "title": "check_equivalent accepts exactly equal parameter sets of equal format", "statement": "a.check_equivalent(b) returns normally exactly when every parameter of a exists in b with the same type, tags and default and both are unset or both are set to equivalent values.", "quantifier": "all pairs of parameter sets", "why_tests_cant": "arbitrary tables", "anchors": ["app/sidisgen/params.cpp: check_format, check_equivalent"]}
{"id": "C38", "title": "Parameter files parse to what they say", "statement": "Reading a parameter file sets exactly the parameters named in it to the parsed values, ignores comments, blank lines and surrounding white space, and throws on duplicate names, unknown names, unparsable values and trailing text; line order does not matter.", "quantifier": "all input texts", "why_tests_cant": "unbounded texts", "anchors": ["app/sidisgen/params.cpp: read_stream, trim, trim_comment"]}
{"id": "C39", "title": "Written parameter values read back unchanged", "statement": "For every value type and every representable value without loss in decimal printing, reading the text produced by write_stream gives back the same value.", "quantifier": "all values of types version, int, long, bool, string, enums, seed lists, bounds", "why_tests_cant": "unbounded values; seed lists of two or more fail because the separator is never printed", "anchors": ["app/sidisgen/params_format.cpp: read_stream_base / write_stream_base"]}
{"id": "C40", "title": "Merging parameter sets is sound", "statement": "When merge_params(a,b) succeeds, the two sets agree on version major and, for every event type enabled in both, on every cross-section, cut and distribution parameter and on the generator UID, and their seed sets are disjoint; the result's num_events is the sum, strict and write flags are the conjunction, event-type enables the disjunction, and every parameter set in an input is set in the result.", "quantifier": "all pairs of parameter sets of the standard format", "why_tests_cant": "arbitrary parameter contents", "anchors": ["app/sidisgen/params_format.cpp: merge_params"]}
{"id": "C41", "title": "Merged sets remember all seeds (refuted)", "statement": "After merging, the seed set should be the union so that a later merge detects reuse; the code overwrites the merged seeds with those of the second set, so merging files with seeds 1, 2 and then 2 again succeeds although events are duplicated.", "quantifier": "all sequences of merges; failing sequence exhibited", "why_tests_cant": "needs a history of three merges", "anchors": ["app/sidisgen/params_format.cpp: merge_params lines 606-615", "app/sidisgen/main.cpp: command_merge_soft"]}
{"id": "C42", "title": "A generator file is accepted only if it can provide the requested events", "statement": "check_can_provide_foam succeeds exactly when formats agree, the foam version has the same major and no larger minor version, every event type enabled for generation is enabled in the foam, all init-tagged xs/cut/dist parameters of those event types are equivalent, and any UID named by the request matches.", "quantifier": "all pairs of parameter sets", "why_tests_cant": "arbitrary parameter contents", "anchors": ["app/sidisgen/params_format.cpp: check_can_provide_foam, p_enabled_event_types"]}
{"id": "C43", "title": "Combining integrators is a commutative monoid that preserves expectation values", "statement": "Combining Integrators with + is associative and commutative with the empty integrator as identity, counts and norms add, and for any split of a sample over generators the combined integral estimate is the norm-weighted sum of weights: the total weight divided by norm is conserved.", "quantifier": "all integrators with positive primes and arbitrary counts, all groupings and orders of merging", "why_tests_cant": "all merge trees", "anchors": ["app/sidisgen/utility.hpp: Integrator::operator+="]}
{"id": "C44", "title": "Statistics survive the file round trip", "statement": "Reading back statistics written by root_write_integs gives, for each event type, the same prime, counts and weight moments as were written; files with missing or wrongly sized arrays are rejected.", "quantifier": "all integrator arrays with non-zero primes", "why_tests_cant": "index arithmetic over flattened arrays for all values", "anchors": ["app/sidisgen/main.cpp: root_write_integs, root_read_integs"]}
{"id": "C45", "title": "Generation writes exactly the requested number of accepted events", "statement": "For every random stream on which it terminates, command_generate fills exactly num_events events, each of non-zero weight and of an enabled type, and the integrators' accepted counts sum to num_events while total counts equal the number of draws.", "quantifier": "all random streams, densities, rejection scales", "why_tests_cant": "quantifies over random histories", "anchors": ["app/sidisgen/main.cpp: command_generate", "app/sidisgen/utility.hpp: IntegratorAccum"]}
{"id": "C46", "title": "Rejection re-weighting preserves the mean weight", "statement": "For every non-negative weight w and positive rejection scale, averaging the re-weighted value over a uniform random number gives back w; every accepted weight is at least the scale.", "quantifier": "all weights and scales", "why_tests_cant": "an expectation over a continuous random variable", "anchors": ["app/sidisgen/main.cpp: command_generate lines 940-956"]}
{"id": "C47", "title": "Event density is never negative and is zero outside the cuts", "statement": "The density used for sampling is a non-negative finite number at every unit point: 0 when the cut test fails or the cross-section is negative, NaN or infinite, and otherwise jacobian times cross-section. Wherever it is not zero, the point is in the phase space and satisfies every cut of the parameters (angles in degrees) and, for the radiative density, the photon energy is at least the soft threshold; conversely every point allowed by the cuts with a non-negative cross-section is reached. Construction fails exactly for an excluded set of parameters: radiative density construction rejects rc_method none and requires k_0_bar to extend above the soft threshold; with radiative corrections non-radiative construction rejects photon cuts and k_0_bar cuts that do not cover [0, soft threshold].", "quantifier": "all parameters, unit points and cross-section values including NaN and infinities", "why_tests_cant": "special float values and arbitrary parameter combinations", "anchors": ["app/sidisgen/generator.cpp: NradDensity, RadDensity"]}
{"id": "C48", "title": "Generator objects never leak or double-destroy their distribution", "statement": "For every history of construction, move, build (which may throw), read (which may fail anywhere) and destruction, the engine object inside the tagged union is constructed before use and destroyed exactly once.", "quantifier": "all operation histories including exceptional ones", "why_tests_cant": "crash points in the middle of placement-new sequences", "anchors": ["app/sidisgen/generator.cpp: Generator", "app/sidisgen/generator.ipp: Dist"]}
{"id": "C49", "title": "Saved generators read back or fail cleanly", "statement": "Reading the bytes produced by write for a bubble distribution of dimension D restores it, and leaves the rest of the stream; reading succeeds for nothing but a bubble distribution of the right dimension that the library can read; a stream of a different dimension or with a truncated header sets failbit and leaves the existing distribution as it was; one of another known type sets failbit and leaves a fresh distribution of that type; every proper initial segment of a saved distribution sets failbit; writing any other distribution kind, or to a stream without room, sets failbit.", "quantifier": "all streams and distributions", "why_tests_cant": "all truncation points and byte contents", "anchors": ["app/sidisgen/generator.ipp: Dist::write, Dist::read"]}
{"id": "C50", "title": "Help tables never lose words", "statement": "split_lines ends for every text and width, keeps every character other than spaces in order, and is the greedy typesetting of the words (after the first word is cut at the width, if longer); when every word fits the width no line exceeds the width. write_progress_bar writes exactly the terminal width, filled in proportion, and nothing when the terminal has 7 columns or less. write_table refuses exactly the tables without columns or with an incomplete last row, and pads all lines to one length when the words fit.", "quantifier": "all texts and widths", "why_tests_cant": "unbounded texts", "anchors": ["app/sidisgen/terminal.cpp: split_lines, write_progress_bar, write_table"]}
{"id": "C51", "title": "No table line exceeds its column (refuted)", "statement": "Every line produced by split_lines should be at most width characters; a word longer than the width that is not the first of the text is placed unbroken on its own line, the rest of a first word that was cut is not cut again, and write_table's padding then wraps around to about 2^32 spaces.", "quantifier": "all texts and widths; failing text exhibited", "why_tests_cant": "needs a long word in second position", "anchors": ["app/sidisgen/terminal.cpp: split_lines, write_table"]}
{"id": "C52", "title": "Structure-function filters select what their names say", "statement": "The filter words compose by intersection in any order; leading and subleading are complementary; uu, ul, ut, lu, ll, lt partition all eighteen structure functions and the compound words are their unions; the resulting set returns the base value for selected functions and 0 for the others.", "quantifier": "all sequences of filter words and all base structure function sets", "why_tests_cant": "unbounded word sequences", "anchors": ["include/sidis/sf_set/mask.hpp", "app/sidisgen/main.cpp: alloc_sf"]}
{"id": "C53", "title": "selectN filters pick one structure function (refuted)", "statement": "selectN should restrict to structure function N and reject N >= 18; the regular expression select([0-9]+) is compiled in the POSIX basic grammar, so every selectN is reported as an unrecognized filter; read in the extended grammar, the bound test would accept N = 18 and write past the end of the mask array.", "quantifier": "all N, all other filter words and base sets", "why_tests_cant": "no N works; the bound error is at a single index", "anchors": ["app/sidisgen/main.cpp: alloc_sf lines 349-359"]}
{"id": "C54", "title": "Polarised cross-section shortcuts agree with the full formula", "statement": "For every beam and target polarisation, born, amm, nrad_ir, rad and rad_f return uu + eta.up + lambda (lu + eta.lp) computed from the same coefficients, whichever components vanish; the result is affine in the beam polarisation and in the target polarisation vector.", "quantifier": "all polarisations, kinematics and structure functions", "why_tests_cant": "sixteen code paths selected by exact zero tests over continuous inputs", "anchors": ["src/cross_section.cpp: macros lines 33-309"]}
{"id": "C55", "title": "Non-radiative cross-section is a rescaled Born plus anomalous-moment term", "statement": "nrad_ir equals (1 + alpha/pi (delta_VR + delta_vac)) times born plus amm for all polarisations whenever the vertex and soft-photon factor is a number; for a cutoff that is zero, negative or NaN it is never a number.", "quantifier": "all kinematics and polarisations", "why_tests_cant": "continuous inputs", "anchors": ["src/cross_section.cpp: Nrad, nrad_ir"]}
{"id": "C56", "title": "Soft/hard split does not depend on the photon cutoff", "statement": "delta_vert_rad_ir(k0) + delta_rad_ir_hard(k0) is the same for every cutoff k0 > 0, and delta_vert_rad_ir is minus infinity and delta_rad_ir_hard plus infinity for k0 <= 0 or NaN.", "quantifier": "all kinematics, all cutoffs", "why_tests_cant": "continuous cutoff", "anchors": ["src/cross_section.cpp: delta_vert_rad_ir, delta_rad_ir_hard"]}
{"id": "C57", "title": "The radiative cross-section is Born times an infrared factor plus an infrared-finite part", "statement": "The leading leptonic coefficients of the radiative cross-section are 4 F_IR times the Born coefficients; rad_f is rad with the hadronic tensor in the 1/R term replaced by a difference quotient that vanishes with no photon, so rad - rad_f = -(alpha F_IR)/(2 pi^2 R sqrt(lambda_Y)) times born at the same kinematics and polarisations, and the radiative hadronic tensor at zero photon energy is the one without photon.", "quantifier": "all kinematics, polarisations", "why_tests_cant": "polynomial identities in many variables", "anchors": ["src/leptonic_coeff.cpp", "src/cross_section.cpp: rad, rad_f"]}
{"id": "C58", "title": "Finite-difference extrapolation is exact for quadratics", "statement": "The extrapolation used near R = 0 equals (f(R) - f(0))/R for every quadratic f, gives f'(0) at R = 0, and for functions with bounded third derivative differs from the direct difference by at most B d^2 / 3 for every R below the step d.", "quantifier": "all quadratics, step sizes and R", "why_tests_cant": "continuous inputs", "anchors": ["src/hadronic_coeff.cpp: diff_R"]}
{"id": "C59", "title": "Structure functions from TMDs are the published convolutions", "statement": "GaussianTmdSfSet returns, for all eighteen structure functions, the published leading and sub-leading twist formulas with the transverse-momentum convolution integral over the whole plane of the Gaussian distributions the same set exposes through TmdSet; distributions of infinite width do not contribute. TmdSfSet with an exact cubature returns the same formulas with the quark momentum limited to 10 GeV, for every TmdSet (the effect of that cut on the unpolarised function is bounded by a Gaussian of the cut). The WW variants return what the full formulas give for the same set; WW distributions satisfy the WW-type relations and the Gaussian first moments are the integrals of the momentum-dependent ones. Refuted: the sin(3 phi_h - phi_S) function of TmdSfSet and WwTmdSfSet misses a factor 2 in one term of its weight and so differs from the published one and from GaussianTmdSfSet.", "quantifier": "all sets of distributions, widths, flavours, hadrons, x, z, Q^2 and transverse momenta", "why_tests_cant": "two-dimensional integrals over all parameters and all functions", "anchors": ["src/structure_function.cpp: convolve, convolve_gaussian, TmdSfSet, GaussianTmdSfSet, WwTmdSfSet, GaussianWwTmdSfSet", "src/tmd.cpp: GaussianTmdSet, WwTmdSet, GaussianWwTmdSet"]}
{"id": "C60", "title": "Prokudin structure functions agree with its own TMDs", "statement": "For each of the eighteen structure functions the explicit formula of ProkudinSfSet equals the Gaussian/WW formula (GaussianWwTmdSfSet) of ProkudinTmdSet, for every collinear input table and charged pions; for any other hadron the functions that need a fragmentation function throw. Refuted for two functions: for sin(2 phi_h - phi_S) ProkudinSfSet uses the width of pretzelosity where ProkudinTmdSet uses another one for hT and hTperp, and for sin(phi_S) it also weights with the width of transversity.", "quantifier": "all collinear distributions, x, z, Q^2, ph_t", "why_tests_cant": "two independent hand-written formula sets over functions", "anchors": ["src/sf_set/prokudin.cpp", "src/tmd.cpp", "src/structure_function.cpp"]}
{"id": "C61", "title": "The running coupling is defined, continuous and increasing (default argument and first cell refuted)", "statement": "alpha_qed is a number, at least the low-energy coupling, for every Q^2 from the electron mass squared to the largest double; it is continuous there, including where the table hands over to the one-loop formula at Q^2 = 100, increases strictly beyond the first table cell, and its inverse falls with the one-loop slope 1/(3 pi) to two parts in a thousand; below the table it is NaN. The hadronic vacuum polarisation is positive and increases strictly with Q^2. Refuted: alpha_qed() with its default argument is NaN; in the first cell the coupling overshoots by more than five per cent.", "quantifier": "all Q^2 including NaN and infinities; the table is the one the start-up loop computes", "why_tests_cant": "a statement about every real argument and about a loop of about two thousand steps", "anchors": ["src/phenom.cpp: alpha_qed"]}
{"id": "C62", "title": "Asymmetries are the azimuthal moments of the cross-section", "statement": "ut_integ is the integral over hadron and target azimuth of sin(a phi_S + b phi_h + c pi/2) times the transversely polarised part of the cross-section (Born, or non-radiative plus finite radiative part with radiative corrections), the target azimuth being integrated exactly; it is zero, as is that moment, unless a is +-1. With an exact integrator ut_asym is, for all integers a, b, c, the amplitude of that harmonic in the published formula over the unpolarised part, so sivers and collins return (F_UT,T + eps F_UT,L)/(F_UU,T + eps F_UU,L) and eps F_UT^sin(phi_h+phi_S)/(F_UU,T + eps F_UU,L). The error is propagated through the partial derivatives when both integrals are non-zero. Refuted: the error is NaN whenever the polarised integral is exactly zero, in particular for every other a.", "quantifier": "all structure functions, kinematic points, integers a, b, offsets, integrators and photon maps", "why_tests_cant": "continuous integrals for all coefficient choices and structure functions", "anchors": ["src/asymmetry.cpp: uu_integ, ut_integ_h, ut_integ, ut_asym, sivers, collins"]}
{"id": "C63", "title": "Command line dispatch is total and unambiguous", "statement": "Every argument vector leads to exactly one command or an argument error; help/version/inspect/initialize/generate/merge are selected by their names with or without leading dashes; the documented short option -i can never reach initialize.", "quantifier": "all argument vectors", "why_tests_cant": "unbounded argument lists", "anchors": ["app/sidisgen/main.cpp: main"]}
{"id": "C64", "title": "The triple product of 4-vectors is orthogonal to its factors (refuted)", "statement": "cross(a,b,c) of three 4-vectors should be orthogonal in the Minkowski product to a, b and c, as the 3-dimensional cross product is to its factors; the code returns the components of a form (index down) as if they were those of a vector, so the product vanishes only when the sum of products of components without the metric signs is taken.", "quantifier": "all triples of 4-vectors; a failing triple is exhibited", "why_tests_cant": "A test with purely spatial vectors passes; the claim is about every triple of vectors and fails only when time components are involved.", "anchors": ["include/sidis/vector.hpp: cross", "include/sidis/transform.hpp: cross"]}
{"id": "C65", "title": "V_m and V_p are the documented products (refuted)", "statement": "The header documents Kinematics::V_m as 2 q.ph and V_p as 2 (k1 + k2).ph, in line with V_1 = 2 k1.ph and V_2 = 2 k2.ph. The computed values are half of that: V_m = q.ph and V_p = (k1 + k2).ph, so every physical point at which they do not vanish contradicts the documentation.", "quantifier": "all physical phase-space points", "why_tests_cant": "the factor must be checked as an identity over the whole phase space, against momenta which the struct does not store", "anchors": ["include/sidis/kinematics.hpp: Kinematics::V_m, Kinematics::V_p (142-145)", "src/kinematics.cpp: Kinematics::Kinematics"]}
{"id": "C66", "title": "valid decides the physical phase space", "statement": "For finite inputs, valid(kin) returns true exactly when the point obeys the physical limits (positive Q^2 region with x in range, y within the limits that make the lepton angle real, z above threshold, hadron energy at least its transverse mass, non-negative ph_t_sq, missing mass at least the threshold). At every accepted point x is positive and every reported quantity the checks rely on is a finite number.", "quantifier": "all beam energies, targets, particle sets and phase-space points", "why_tests_cant": "continuum of points, including all boundaries", "anchors": ["src/cut.cpp: valid, x_bound, y_bound, z_bound, ph_t_sq_bound"]}
{"id": "C67", "title": "Sampling under cuts can reach every admissible point", "statement": "For every phase-space point that is valid and satisfies all cuts, some point of the unit hypercube is mapped onto it by take (for cuts with finite ranges).", "quantifier": "all cuts, kinematics and admissible points", "why_tests_cant": "a missing corner of phase space shows up only as a bias and only for particular cuts", "anchors": ["src/cut.cpp: take", "include/sidis/extra/map.hpp"]}
{"id": "C68", "title": "Radiative sampling works for a massless beam (refuted)", "statement": "With a massless lepton the radiative take should still sample the photon variables; the code divides by the lepton mass squared in the tau map, so the map is NaN and every radiative sample is rejected.", "quantifier": "all kinematics with m = 0 and all points of the hypercube", "why_tests_cant": "failure for every input of a configuration, indistinguishable from tight cuts", "anchors": ["src/cut.cpp: take"]}
{"id": "C69", "title": "Total statistics are numbers whichever event types are enabled (refuted)", "statement": "The totals over the event types, shown to the user and stored as entry 0 of the statistics in the event file, should have the sum of the primes as prime whatever types are enabled; when a type is disabled, its empty statistics turn the prime and the norm of the total into NaN.", "quantifier": "all integrator arrays; every run with a single event type", "why_tests_cant": "holds for every content of the other type's statistics", "anchors": ["app/sidisgen/main.cpp: IntegratorArray::total, root_write_integs, command_generate"]}
{"id": "C70", "title": "The total cross-section is the sum over event types (refuted)", "statement": "The cross-section reported for the total should be the sum of the cross-sections of the event types; it is so exactly when the types have equal mean weights or equal norms.", "quantifier": "all pairs of non-empty statistics with positive primes", "why_tests_cant": "an equivalence over all weights, counts and primes", "anchors": ["app/sidisgen/main.cpp: IntegratorArray::total", "app/sidisgen/utility.hpp: Integrator::integ"]}
{"id": "C71", "title": "Every enabled event type is generated", "statement": "With finite weights and rejection scales and positive primes, a run that asks for at least as many events as there are enabled types writes at least one event of every enabled type.", "quantifier": "all random streams, weights, primes, scales and numbers of events", "why_tests_cant": "quantifies over random histories", "anchors": ["app/sidisgen/main.cpp: command_generate lines 906-928"]}
{"id": "C72", "title": "The Born cross-section is the published structure-function formula", "statement": "For every physical point with nonzero transverse hadron momentum and hadron momentum not orthogonal to the photon, the born cross-section equals the published expansion in the eighteen structure functions, with the published dependence on the hadron angle, the spin angle, beam and target polarisation, and with virtual-photon flux weights that include the lepton mass; for a massless beam the weights are exactly those of the published formula in terms of the flux ratio epsilon.", "quantifier": "all particles, beam energies, kinematic points, polarisations, couplings and structure functions", "why_tests_cant": "an identity between two expressions of many real variables and eighteen arbitrary functions; unit tests compare a few points to a few digits", "anchors": ["src/cross_section.cpp", "src/leptonic_coeff.cpp", "src/hadronic_coeff.cpp"]}
{"id": "C73", "title": "Prokudin distributions obey the positivity bounds", "statement": "At every transverse momentum the Sivers, Boer-Mulders and Collins functions of ProkudinTmdSet, multiplied by k/M (p/(z m_h) for Collins), are bounded by the unpolarised distribution (fragmentation function) of the same set; pretzelosity times k^2/(2 M^2) is bounded by half of f1 - g1 with the Gaussian of f1; transversity is bounded by the tabulated Soffer bound.", "quantifier": "all tables with non-negative values, all flavours, 0 <= x, z <= 1, all scales and transverse momenta", "why_tests_cant": "inequality between transcendental functions over a continuum", "anchors": ["src/sf_set/prokudin.cpp: ProkudinTmdSet::xf1Tperp, xh1perp, H1perp, xh1Tperp, xh1"]}
{"id": "C74", "title": "Parameters survive a ROOT file", "statement": "Parameters written to a ROOT file and read back have the same values, unless a text contains a NUL character (it is cut off there), a list of seeds is not in order (it is sorted) or the ends of an interval are not in order, in which case none of the parameters can be read; parameters read from a text file without NUL characters have none of these.", "quantifier": "all sets of parameters and all parameter files", "why_tests_cant": "ranges over all values of thirteen types, including doubles that are not numbers", "anchors": ["app/sidisgen/params.cpp: Params::read_root, write_root", "app/sidisgen/params_format.cpp: convert_from_root, convert_to_root"]}
{"id": "C75", "title": "An interrupted initialize cannot mislead generate", "statement": "If initialize is interrupted or fails at any moment and generate then loads the file it left behind, every generator that is loaded is the one that was built, carries the identifier that was drawn for it, and was built from parameters that agree with those of generate on everything that determines the events.", "quantifier": "all parameter files, all crash points, all failures of writes, all parameter files of generate", "why_tests_cant": "quantifies over crash points", "anchors": ["app/sidisgen/main.cpp: command_initialize, command_generate", "app/sidisgen/params_format.cpp: check_can_provide_foam"]}
{"id": "C76", "title": "generate accepts what initialize made from the same file", "statement": "After a successful initialize, generate with the same parameter file loads a generator for every enabled type of events, each of which draws from the distribution that was built, provided that the file gives no identifiers and at most one seed.", "quantifier": "all parameter files, seeds, identifiers and distributions of a library whose serialisation round-trips", "why_tests_cant": "quantifies over all parameter files and distributions", "anchors": ["app/sidisgen/main.cpp: command_initialize, command_generate"]}
{"id": "C77", "title": "Commands do not touch existing files", "statement": "Whether they end normally, fail or are interrupted, initialize and generate leave every existing file as it is and create no file but the one named by file.gen or file.event.  A failed command should leave no file behind; it does if the failure is noticed after the file has been created, and the command then fails again when it is repeated with corrected parameters.", "quantifier": "all parameter files, file systems and crash points", "why_tests_cant": "quantifies over crash points and file systems", "anchors": ["app/sidisgen/main.cpp: command_initialize, command_generate"]}
{"id": "C78", "title": "Commands succeed completely or report an error", "statement": "initialize and generate return success or report an error with a documented code; after success every change of the file was accepted, the generator file has the distribution, the parameters and an identifier for every enabled type of events, and the event file has all the parameters, the events and the statistics.", "quantifier": "all parameter files, refused writes, failures while building and reading", "why_tests_cant": "quantifies over all combinations of failures", "anchors": ["app/sidisgen/main.cpp: command_initialize, command_generate", "app/sidisgen/exception.hpp"]}
{"id": "C79", "title": "The event file tells how it was made", "statement": "The parameters in the event file of a successful generate include the seed that was used (the one given, or the one that was drawn), the identifiers of the generators that were used, and are otherwise those of the parameter file.", "quantifier": "all parameter files, seeds and generator files", "why_tests_cant": "quantifies over all parameter files and generator files", "anchors": ["app/sidisgen/main.cpp: command_generate"]}
{"id": "C80", "title": "The Born cross-section is tree-level quantum electrodynamics", "statement": "At every physical point, the leptonic coefficients of the Born process contracted with any hadronic coefficients are the contraction of the tree-level leptonic tensor Tr[(k2+m) gamma (k1+m)(1+lambda gamma5 s) gamma], s the helicity four-vector of the beam, with the hadronic tensor built from q, p and ph by those coefficients; hence the Born cross-section is an explicit kinematic factor times this contraction, for all structure functions and polarisations.", "quantifier": "all massive beams, physical points, hadronic coefficients, structure functions and polarisations", "why_tests_cant": "an identity of polynomials and traces over all kinematic points; the code has only the expanded result", "anchors": ["src/leptonic_coeff.cpp: LepBornBaseUU, LepBornBaseUP, LepBornBaseLU, LepBornBaseLP", "src/cross_section.cpp: xs::born"]}
{"id": "C81", "title": "The anomalous magnetic moment term is the one-loop Pauli form factor", "statement": "With a vertex gamma + F2 i sigma q / 2m the contraction of the leptonic with the hadronic tensor has the coefficients of the anomalous magnetic moment as its term linear in F2; for the F2 given by the Feynman parameter integral of the one-loop vertex the linear term of the cross-section is the one of xs::amm.", "quantifier": "all massive beams, physical points, hadronic coefficients, structure functions and polarisations", "why_tests_cant": "an identity of traces and integrals over all kinematic points", "anchors": ["src/leptonic_coeff.cpp: LepAmmBaseUU, LepAmmBaseUP, LepAmmBaseLU, LepAmmBaseLP", "src/cross_section.cpp: xs::amm, Amm::Amm"]}
{"id": "C82", "title": "The radiative cross-section is tree-level quantum electrodynamics with a photon", "statement": "At every physical point with a photon of positive energy, the leptonic coefficients of the radiative process (all powers of R together) contracted with any hadronic coefficients are, up to -R/4, the contraction of the leptonic tensor with emission of a photon from the incoming or scattered lepton, summed over its polarisations, with the hadronic tensor of the remaining virtual photon q - k; hence the radiative cross-section is an explicit kinematic factor times this contraction, for all structure functions and polarisations.", "quantifier": "all massive beams, physical points, photons, hadronic coefficients, structure functions and polarisations", "why_tests_cant": "the code has several hundred terms of expanded polynomials in fifteen invariants; only an identity over all points excludes a wrong coefficient or sign", "anchors": ["src/leptonic_coeff.cpp: LepRadBaseUU, LepRadBaseUP, LepRadBaseLU, LepRadBaseLP", "src/cross_section.cpp: xs::rad, Rad::Rad"]}
{"id": "C83", "title": "The vacuum polarisation correction is the one-loop integral", "statement": "The leptonic vacuum polarisation correction is twice the sum over electron, muon and tau of the renormalised one-loop vacuum polarisation, given by its Feynman parameter integral; it never decreases the cross-section.", "quantifier": "all positive Q^2", "why_tests_cant": "an identity of functions on a continuum", "anchors": ["src/cross_section.cpp: xs::delta_vac_lep"]}
{"id": "C84", "title": "Soft photons factor with the eikonal factor of a charged current", "statement": "The coefficient with which soft photons multiply the Born cross-section, integrated over every direction of the photon, is -4 pi sqrt(lambda_Y) ((Q^2 + 2 m^2)/2 * I - 1), I the Feynman parameter integral of 1/(m^2 + Q^2 x (1-x)) over the unit interval: the classical value for the radiation of a charge scattered through Q^2, independent of the hadron side.", "quantifier": "all massive beams and all points inside the physical region", "why_tests_cant": "a double integral over the photon directions at every kinematic point", "anchors": ["include/sidis/kinematics.hpp: KinematicsRad::F_IR", "src/kinematics.cpp: KinematicsRad::KinematicsRad", "src/cross_section.cpp: xs::delta_rad_ir_hard"]}
{"id": "C85", "title": "Soft and hard radiation add up to a total that does not depend on the cut-off", "statement": "xs::nrad_ir at a cut-off, plus xs::rad_f integrated over all photons up to the cut-off, plus xs::rad integrated over all photons above it, is the same for every cut-off. In particular delta_rad_ir_hard is what the infrared part of xs::rad contributes above the cut-off: its double integral over directions and logarithm over energies, exactly, with no term dropped.", "quantifier": "all massive beams, all points inside the physical region, all structure functions with an integrable infrared-finite part, all polarisations, all cut-offs from 2e-8 of the largest photon energy on", "why_tests_cant": "an identity between triple integrals over the photon phase space for every cut-off", "anchors": ["src/cross_section.cpp: xs::nrad_ir, xs::rad_f, xs::rad, xs::delta_vert_rad_ir, xs::delta_rad_ir_hard", "src/hadronic_coeff.cpp: HadRadFBaseUU"]}
{"id": "C86", "title": "The integrated cross-sections are the integrals they are documented to be", "statement": "xs::rad_f_integ is the integral of xs::rad_f over exactly the photons of energy up to the cut-off, xs::rad_integ the integral of xs::rad over exactly the photons above it, and xs::nrad_integ is xs::nrad_ir plus the former, each to within the accuracy of the numerical integrator: the change from the unit cube to the photon variables, its Jacobian and the cut are exact, no point of the cube is lost and the integrand is never NaN or infinite. With the default cut-off (infinity) rad_f_integ takes every photon and rad_integ none.", "quantifier": "all massive beams, all points inside the physical region, all structure functions for which the integral exists, all polarisations, all positive cut-offs including infinity, every integrator over the unit cube and every accuracy", "why_tests_cant": "equality of two triple integrals for every integrand and kinematic point", "anchors": ["src/cross_section.cpp: xs::rad_f_integ, xs::rad_integ, xs::nrad_integ", "src/cut.cpp: cut::take", "include/sidis/extra/integrate.hpp: math::integrate"]}
{"id": "C87", "title": "nrad_integ plus rad_integ does not depend on the cut-off", "statement": "The sum of xs::nrad_integ and xs::rad_integ at the same cut-off is the same number for every cut-off, to within the sum of the accuracies of the two numerical integrations; with the default cut-off nrad_integ alone is that number.", "quantifier": "all massive beams, all points inside the physical region, all structure functions with an integrable infrared-finite part, all polarisations, all cut-offs from 2e-8 of the largest photon energy up to infinity, every pair of integrators", "why_tests_cant": "it compares integrals over different regions for every cut-off and integrand", "anchors": ["src/cross_section.cpp: xs::nrad_integ, xs::rad_integ, xs::nrad_ir"]}
{"id": "C88", "title": "merge-soft produces one complete event file or nothing", "statement": "merge-soft never changes a file that existed, at any moment of its run. It succeeds or fails with a documented code; when it fails other than by a failed write to the new file, no file is left behind. When it succeeds the output holds the merged parameters, the merged statistics and all events of all inputs in the order given, and the recorded number of events is the number of events one sees. (Refuted: that merged files never contain an event twice.) merge-hard fails and touches nothing.", "quantifier": "all sets of files with any contents, all lists of inputs of any length, all output names, all points at which the command is interrupted, all patterns of failing writes", "why_tests_cant": "it ranges over every crash point, every failing write and every set of input files", "anchors": ["app/sidisgen/main.cpp: command_merge_soft, command_merge_hard, root_read_integs, root_write_integs", "app/sidisgen/params_format.cpp: merge_params"]}
{"id": "C89", "title": "inspect shows what is stored", "statement": "inspect shows the parameters of a file written by the program exactly as they would have been printed before they were stored, whether or not the file has statistics; it shows statistics for exactly the event types with events and the total exactly if there is more than one; statistics written by the program are never reported as missing; a missing file and unreadable parameters have their own error codes.", "quantifier": "all files and their contents, all parameter sets that survive a ROOT file, all ways of printing values, all arrays of statistics", "why_tests_cant": "it must hold for every parameter set and every file content", "anchors": ["app/sidisgen/main.cpp: command_inspect, root_read_integs", "app/sidisgen/params.cpp: Params::read_root, Params::write_stream"]}
{"id": "C90", "title": "dilog is the dilogarithm to the precision of its type", "statement": "For every finite argument dilog returns the real part of Euler's dilogarithm -int_0^x log|1-t|/t dt up to 5/8 of half a unit in the last place of 1 (apart from rounding), for float, double and long double; for arguments in (-1/2, 1/2] the error is below that precision relative to the value, so the number of terms of the series, which the source says was found by experiment, is enough. Infinite arguments give the limit, NaN gives NaN.", "quantifier": "all real arguments, the three floating point types", "why_tests_cant": "it is a bound on the truncation error and a set of functional equations for all real arguments", "anchors": ["src/math.cpp: dilog_impl, log_log1m", "include/sidis/extra/math.hpp: math::dilog"]}
{"id": "C91", "title": "The vertex correction and soft emission are the one-loop form factor and the eikonal integral, with the infrared divergence cancelled", "statement": "With a photon of mass mu, twice the one-loop Dirac form factor of the lepton (an integral over Feynman parameters) plus the probability of emitting a soft photon (the integral of the square of the classical current over photon momenta below the cut-off, in the rest frame of the undetected system) has a finite limit as mu vanishes, and alpha/pi times delta_vert_rad_ir is that limit up to the error of the dilogarithm, for every accepted point and every cut-off, where the cut-off is the smaller of the argument and the largest photon energy.", "quantifier": "all accepted phase-space points with a massive lepton, a non-zero scattering angle and room for a photon, all cut-offs, all Lorentz transformations to the rest frame", "why_tests_cant": "it is a limit of integrals, and an identity between them and a closed form with five dilogarithms, for all kinematics", "anchors": ["src/cross_section.cpp: xs::delta_vert_rad_ir, delta_vert_rad_0", "src/math.cpp: dilog"]}
{"id": "C92", "title": "Cross-sections are not negative for structure functions of positive probabilities", "statement": "If the structure functions give no negative probability for any photon helicity state and any target spin (the 3x3 matrix of amplitudes squared of the textbook formula is positive for every target spin vector of length at most one), then xs::born and xs::rad are not negative for every beam polarisation in [-1, 1], every target polarisation of length at most one and every physical point.", "quantifier": "all physical points (with a massive lepton and non-zero hadron transverse momentum), all structure functions, all beam and target polarisations", "why_tests_cant": "it ranges over all structure functions and all polarisations; the boundary cases are a measure-zero set that random tests do not meet", "anchors": ["src/cross_section.cpp: xs::born, xs::rad", "src/hadronic_coeff.cpp: HadLP, HadRadLP", "src/leptonic_coeff.cpp: LepBornBaseUU, LepRadBaseUU", "src/kinematics.cpp: KinematicsRad::KinematicsRad (shift_C_1, shift_ph_l)"]}
{"id": "C93", "title": "Sampling with the jacobian as weight integrates over the phase space", "statement": "For every non-negative function f of the kinematics, the average of f times the jacobian over uniform random coordinates, taken at the points accepted by cut::take, equals the integral of f over all points that are valid and satisfy the cuts, each counted once; hence the mean of the generator's non-radiative (radiative) density is the total non-radiative (hard radiative) cross-section inside the cuts of the parameters.", "quantifier": "all functions, all particles with a massive beam, all S, all cuts (Q_sq bounded above, W_sq with a finite lower end, angles finite; for photons a positive lower end for the energy), all cross-section functions, all parameter files accepted by the constructors", "why_tests_cant": "it is an equality of integrals over six and nine dimensions for all functions and cuts; a Monte Carlo test has a statistical error and tries a few functions", "anchors": ["src/cut.cpp: take (all overloads)", "include/sidis/extra/map.hpp", "app/sidisgen/generator.cpp: NradDensity::eval, RadDensity::eval"]}
{"id": "C94", "title": "Reported cross-sections converge to the true ones", "statement": "When the draws from each generator are independent, with non-negative weights of any law with finite variance, then with probability one the run ends, whatever number of events is asked for (if every event type has a positive cross-section), and as the number of events grows, the cross-section reported for each event type tends to its true value, the mean weight divided by the inverse prime. This holds with and without rejection sampling, and although the program decides from the weights drawn so far which type of event comes next.", "quantifier": "all laws of the weights, all lists of generators, rejection scales and primes, almost all random histories, all numbers of events", "why_tests_cant": "convergence in the limit, for almost all infinite random histories and all laws", "anchors": ["app/sidisgen/main.cpp: command_generate", "app/sidisgen/utility.hpp: IntegratorAccum, Integrator::integ"]}
{"id": "C95", "title": "The reported cross-section is an unbiased estimate (refuted)", "statement": "The cross-section reported after a run of num_events events should equal the true one on average over random histories. It does not: a run always stops at an accepted event, so that for a generator that accepts a fraction of its draws with equal weights the average of the reported cross-section is larger than the true one, for every number of events.", "quantifier": "all numbers of events, acceptance probabilities strictly between 0 and 1, weights, primes; the average is over all random histories", "why_tests_cant": "the average over an infinite probability space; the bias is of relative size 1/num_events and disappears in the statistical error of a test", "anchors": ["app/sidisgen/main.cpp: command_generate", "app/sidisgen/utility.hpp: Integrator::integ"]}
{"id": "C96", "title": "The events of a file add up to the reported cross-sections", "statement": "In a file written by generate, the cross-section reported for an event type is the sum of the weights of the events of that type divided by the entry of stats/norm for the type, so that weight/norm is the contribution of an event to the cross-section. The example program process_events multiplies by the norm instead, and so shows the sum over event types of the cross-section times the square of the norm (refuted).", "quantifier": "all sources of random events, lists of distinct event types, primes, rejection scales and numbers of events for which the run ends with finite weights", "why_tests_cant": "a relation between the rows and the statistics of every possible file; the example program is not run by any test", "anchors": ["example/process_events.cpp", "app/sidisgen/main.cpp: command_generate, write_integs", "app/sidisgen/utility.hpp: Integrator::norm, Integrator::integ"]}
{"id": "C97", "title": "Interpolating in a bound stays in the bound, in double precision", "statement": "Bound::lerp(t) for t in [0, 1] gives both ends exactly, never leaves a bound that contains zero, and differs from the exact value by at most 2^-51 times the larger end, with every operation rounded to nearest in double precision. That it always stays inside the bound is refuted: there are a bound with two different ends and a random number for which the result is below the lower end, whatever the rule for ties.", "quantifier": "all roundings to nearest, all pairs of doubles (unbounded exponent), all t in [0, 1]", "why_tests_cant": "2^53 values in every binade; the violations occur for rare combinations of ends and random numbers", "anchors": ["include/sidis/bound.hpp: Bound::lerp", "include/sidis/extra/map.hpp: apply_map"]}
{"id": "C98", "title": "The reported cross-sections are the integrals over the phase space under the cuts", "statement": "As the number of generated events grows, the cross-section that a run reports for non-radiative events tends, with probability one, to the integral of the differential cross-section (the finite non-negative values of it) over the part of the phase space inside the kinematic region and the cuts of the parameter file; the one for radiative events tends to the integral over the phase space with a photon, under the photon cuts and above the soft threshold.", "quantifier": "all parameter files accepted by the densities (with bounded angles and, where given, finite cuts on Q^2 and W^2), all cross-section functions, all laws of the weights with finite variance, almost all histories of random numbers", "why_tests_cant": "a limit over runs and an integral over a six- or nine-dimensional region", "anchors": ["app/sidisgen/generator.cpp: NradDensity, RadDensity, Generator::draw", "app/sidisgen/main.cpp: command_generate", "src/cut.cpp: take"]}
{"id": "C99", "title": "The uncertainties, acceptance and efficiency shown after a run are those of the generator", "statement": "As the number of generated events grows, with probability one: the uncertainty shown for a cross-section, times the root of the number of draws, tends to the standard deviation of a recorded weight divided by the inverse prime, which is exactly the root mean square deviation of the cross-section estimate from the true cross-section times that root; the acceptance shown tends to the probability that a draw is kept; the relative variance and efficiency shown tend to those of the kept weights; and the rejection settings computed from a target efficiency correspond to that efficiency.", "quantifier": "all numbers of generators, inverse primes and rejection scales, all laws of the weights with finite second moment, almost all histories of random numbers", "why_tests_cant": "a limit over runs, with probability one, for every law of the weights", "anchors": ["app/sidisgen/utility.hpp: Integrator::integ, Integrator::rel_var, Integrator::acc", "app/sidisgen/main.cpp: stream_write_integ, command_generate"]}
{"id": "C100", "title": "The uncertainty shown for combined runs is not that of the combined cross-section", "statement": "Combining the statistics of two runs combines the weights as they are, although they are normalised to different primes: there are runs of two generators for the same density, each with the same cross-section and no uncertainty, whose combination shows this cross-section with a positive uncertainty.", "quantifier": "all statistics libraries with the sample mean and the sample variance", "why_tests_cant": "tests combine runs of the same generator, for which the uncertainty is right", "anchors": ["app/sidisgen/utility.hpp: Integrator::operator+=, Integrator::integ", "app/sidisgen/main.cpp: command_merge_soft"]}
{"id": "C101", "title": "The help shows the whole documentation of every parameter", "statement": "`sidisgen help params` lists all parameters once, in alphabetical order, each with the whole text on its values; `sidisgen help <name>` shows summary, name, values and information of the parameter in full; words are never broken, a line is only broken where the next word does not fit the column, and all lines fit. Any other topic shows the general help.", "quantifier": "all parameters, all topics", "why_tests_cant": "holds for every topic a user can type, and for every text of the standard format through the general typesetting theorem", "anchors": ["app/sidisgen/main.cpp: command_help, command_help_params, command_help_param", "app/sidisgen/params_format.cpp: PARAMS_STD_FORMAT", "app/sidisgen/terminal.cpp: write_table"]}
{"id": "C102", "title": "What the help says about parameters is true (seed and one cut refuted)", "statement": "A documented default is the default; every parameter with a default other than the version and the cuts documents it; documented identifiers are accepted and cover all values that can be given; switches take on and off; a cut is documented as being in degrees exactly when it is taken in degrees. False in two places: mc.seed documents the value 'any' (as its default), which is refused, and cut.phi_k is taken in degrees but documented without a unit.", "quantifier": "all parameters of the standard format, all values that can be given for them", "why_tests_cant": "relates the texts to all values the readers accept", "anchors": ["app/sidisgen/params_format.cpp: PARAMS_STD_FORMAT, TypeSeedGen::read_stream_base", "app/sidisgen/generator.cpp: cut_from_params, cut_rad_from_params"]}
{"id": "C103", "title": "Sampling without cuts draws from the phase space (refuted below the threshold and on the edge)", "statement": "`take(ps, S, point, ...)` returns true at every point of the unit cube, with a point of the phase space that `valid` accepts, and writes as jacobian the product of the derivatives of the six maps, which is positive inside the cube; the nine-dimensional version does the same in the open cube. The kinematic limits taken one after another contain exactly the phase space, and there is phase space exactly when S is at least `S_min`. False below S_min (documented as returning whether it was successful): it returns true with a point that is not a number. False for the nine-dimensional version on the edge of the cube where y is lowest: it returns true with a jacobian that is not a number. The version with cuts, without any active cut, draws the same points with the same jacobians.", "quantifier": "all massive beams, targets and hadrons, all beam energies, all points of the unit cube", "why_tests_cant": "a claim for every point of a six- or nine-dimensional cube and every beam energy", "anchors": ["src/cut.cpp: take, x_bound, y_bound, z_bound, ph_t_sq_bound, S_min, tau_bound, R_bound, valid", "include/sidis/cut.hpp: take"]}
{"id": "C104", "title": "The cross_section program prints the cross-sections exactly at points of the phase space (refuted for its messages)", "statement": "The program `cross_section` accepts exactly the arguments its usage describes: a number for the structure functions (0, or -1 to -18 for a single one equal to one), a beam energy, letters for the polarizations, six variables, and a cutoff or the three variables of a photon. If the point is in the phase space of the process it prints the cross-sections at that point, with the polarizations asked for, the total being the sum of the non-radiative and the radiative part; outside it prints none. False: outside the phase space it ends by an exception nobody catches instead of an error with the usage. False: the message for a wrong number of structure functions offers 1, which is refused, and a range that starts at 18446744073709551598. False: an angle that is not a number is let through without a photon.", "quantifier": "all argument lists, all conversions of text to numbers, all structure functions and cross-section functions", "why_tests_cant": "a claim for all argument lists; the phase space has a boundary in five to eight dimensions", "anchors": ["example/cross_section.cpp: main", "include/sidis/sf_set/test.hpp: TestSfSet", "src/cut.cpp: S_min, x_bound, y_bound, z_bound, ph_t_sq_bound, tau_bound, R_bound"]}
{"id": "C105", "title": "The random_phase_space program prints a point of the phase space (refuted below the threshold)", "statement": "The program `random_phase_space` always ends. At a beam energy at which the process is possible it prints a point of the phase space, whatever the random numbers; with a photon, if asked for, when there is energy to spare. Anything but a number and one of six words gives the usage. False below the threshold: it prints a point with x not a number and ends normally.", "quantifier": "all beam energies, all outcomes of the random number generator", "why_tests_cant": "the outcome depends on nine random numbers and on loops whose end must be shown for all of them", "anchors": ["example/random_phase_space.cpp: main", "src/cut.cpp: take"]}
{"id": "C106", "title": "The plot_cutoff program shows the share of the hard part with its error (refuted for a negative share)", "statement": "The points of the figure of `plot_cutoff` are at a hundred cutoffs from 1 down to 1/1000 GeV, evenly in the logarithm. The value is minus the share of the hard part in the cross-section, in percent. The error is the linear propagation of the two errors of integration. False for a negative hard part (the figure shows its negative): the error handed over is negative.", "quantifier": "all values and errors of the two integrals, all indices", "why_tests_cant": "a claim for all results of the integrations", "anchors": ["example/plot_cutoff.cpp: main"]}
{"id": "C107", "title": "The cross-sections are the same in a mirror", "statement": "Electromagnetic scattering does not distinguish left from right. If all azimuthal angles of a point (phi_h, phi and the photon's phi_k) are negated, every momentum becomes its mirror image; if also the helicity of the beam is reversed and the target polarization is reflected as a spin, the Born, the anomalous magnetic moment, the non-radiative, the radiative and the finite radiative cross-sections do not change, for whatever structure functions. In particular without target polarization the cross-section at -phi_h is that at phi_h with the beam helicity reversed.", "quantifier": "all particles, beam energies, points (inside or outside the phase space), polarizations, structure functions, cutoffs", "why_tests_cant": "an identity of functions of up to fourteen real variables that involves every coefficient of the library", "anchors": ["include/sidis/cross_section.hpp: born, amm, nrad_ir, rad, rad_f", "src/leptonic_coeff.cpp: LepRadBaseUP, LepRadBaseLU", "src/hadronic_coeff.cpp: make_had_rad_base_up, make_had_rad_base_lp", "src/frame.cpp: hadron_from_target, hadron_from_shift", "src/kinematics.cpp: Kinematics, KinematicsRad"]}
{"id": "C108", "title": "The cross-sections do not change when everything is turned about the beam", "statement": "If the azimuth phi of the scattered lepton is changed by any angle, the momenta of lepton, virtual photon, hadron and radiated photon are all turned about the beam by that angle; if the target polarization is turned with them, none of the five cross-sections changes.", "quantifier": "all angles, particles, beam energies, points, polarizations, structure functions, cutoffs", "why_tests_cant": "an identity for all real angles and points", "anchors": ["include/sidis/cross_section.hpp: born, amm, nrad_ir, rad, rad_f", "src/frame.cpp: target_from_lepton, target_from_hadron, hadron_from_target, target_from_real_photon", "src/kinematics.cpp: Kinematics, KinematicsRad"]}
{"id": "C109", "title": "The results do not depend on the unit of energy", "statement": "If all masses and momenta (the masses of the particles, S, ph_t^2, R, and the arguments and values of the structure functions, which are inverse areas) are expressed in a unit c times smaller, every member of the kinematics is the same quantity in the new unit, whether the point is physical or not; the Born and anomalous magnetic moment cross-sections scale as an area per squared momentum (c^-4), the radiative and the finite radiative one as c^-6 (they are per unit of R), and the vertex and hard-photon corrections are pure numbers, for all polarizations, structure functions and cutoffs. The integrals over the photon, rad_integ, rad_f_integ and nrad_integ, scale as c^-4 to the accuracy of the integrators, the last one apart from the vacuum polarisation: delta_vac_lep contains the masses of the leptons as numbers of GeV and is a different number in every unit but GeV.", "quantifier": "all c > 0, particles (any masses), beam energies, points, polarizations, structure functions, cutoffs", "why_tests_cant": "an identity of functions of many real variables that involves every formula of the library", "anchors": ["src/kinematics.cpp: Kinematics, KinematicsRad", "src/leptonic_coeff.cpp: LepBornBase*, LepAmmBase*, LepRadBase*", "src/hadronic_coeff.cpp: make_had_base_*, make_had_rad_base_*, diff_R", "src/cross_section.cpp: born, amm, rad, rad_f, nrad_integ, rad_f_integ, rad_integ, delta_vert_rad_ir, delta_rad_ir_hard, delta_vac_lep", "src/frame.cpp: hadron_from_shift"]}
{"id": "C110", "title": "plot_phase_space shows the points of the phase space", "statement": "plot_phase_space answers with its usage exactly when the arguments are not a number, one of the six words for the kind of phase space, and one to three known quantities (those of the photon only if asked for). Otherwise, at a possible energy, each axis shows the quantity it is named after, at the same at least 100000 points of the phase space, the axes reach from the least to the greatest value, and every point is shown in the hundredth of the range it belongs to.", "quantifier": "all arguments, beam energies, random numbers", "why_tests_cant": "depends on random numbers that are not reproducible, and on all energies", "anchors": ["example/plot_phase_space.cpp: main", "src/cut.cpp: take"]}
{"id": "C111", "title": "The cross-sections integrated over the photon are the same in a mirror and after a turn about the beam", "statement": "nrad_integ, rad_f_integ and rad_integ give the same value and error when everything (point, target polarization) is turned about the beam, with every integrator; and the same in a mirror (angles and helicity negated, polarization reflected as a spin), with every integrator that does not distinguish an integrand from its reflection along the axis of the azimuth of the photon, such as the exact integral.", "quantifier": "all particles, energies, points (physical or not), polarizations, structure functions, cutoffs (infinite and NaN included), integrators", "why_tests_cant": "an identity of integrals over functions of many real variables", "anchors": ["src/cross_section.cpp: nrad_integ, rad_f_integ, rad_integ", "src/cut.cpp: take, R_bound, valid", "include/sidis/extra/map.hpp: Sigmoid, apply_map"]}
{"id": "C112", "title": "sqrt1p_1m keeps the precision of the type for every small argument", "statement": "When expm1, log1p and the multiplication each have a relative error of at most u, sqrt1p_1m(x) differs from sqrt(1 + x) - 1 by a relative error of at most 8 u for -1 < x <= 3, however close to zero x is, and of at most (6 + 2.5 log(1 + x)) u for larger x.", "quantifier": "all precisions u up to 1/100, all roundings within it, all arguments above -1 for which |log(1 + x)| u is at most 1/2", "why_tests_cant": "a bound over every argument and every rounding; tests compare at a few arguments on one library", "anchors": ["src/math.cpp: sqrt1p_1m", "include/sidis/extra/math.hpp: sqrt1p_1m", "src/cross_section.cpp: delta_vert_rad_0, delta_moller"]}
{"id": "C113", "title": "Transverse asymmetries are between -1 and 1", "statement": "With structure functions that belong to positive probabilities, ut_asym without radiative corrections, for every choice of the coefficients of the two azimuths and of the offset, and so sivers and collins, returns a number between -1 and 1, at every physical point where the unpolarised cross-section does not vanish; the bounds are reached.", "quantifier": "all particles, energies, physical points, realisable structure functions, integer coefficients, couplings, exact integrators", "why_tests_cant": "a bound over all structure functions and all points, through an integral over the azimuths", "anchors": ["src/asymmetry.cpp: ut_asym, sivers, collins", "src/cross_section.cpp: born"]}
{"id": "C114", "title": "The cross-section of the supplied structure functions is not negative (refuted)", "statement": "Computed with ProkudinSfSet, the unpolarised Born cross-section is not negative. False: the cos(phi_h) function, -2 z <k^2> ph_t / (Q (z^2 <k^2> + <P^2>)) times the unpolarised one, is not bounded, and F_UU,L is zero; at a point of the phase space (x 0.1, y 0.5, z 0.5, ph_t 1.2 GeV, phi_h pi/4) the cross-section is negative whatever the tables. True where 2 z ph_t is at most Q (z^2 <k^2> + <P^2>) / GeV^2 and the cos(2 phi_h) function is at most half of the unpolarised one.", "quantifier": "all tables of the distributions, couplings; all physical points with small transverse momentum", "why_tests_cant": "a sign over all tables and points; tests use the shipped tables at a few points", "anchors": ["src/sf_set/prokudin.cpp: F_UU_cos_phih, F_UUT, F_UU_cos_2phih", "src/cross_section.cpp: born", "app/sidisgen/generator.cpp: 136, 194"]}
{"id": "C115", "title": "Structure functions are for the target of the run (refuted)", "statement": "The structure functions that the event generator uses are for the target of the parameter file, or the run is refused. False: with the set 'prokudin' they are for a proton whatever the target, and with a set from a shared library for the target of the library; the target of the parameter file is never compared with them. True for the set 'test'; and filters never change the target of a set.", "quantifier": "all targets, descriptions of structure functions, shared libraries", "why_tests_cant": "an absence of a check over all libraries and descriptions", "anchors": ["app/sidisgen/main.cpp: alloc_sf", "include/sidis/structure_function.hpp: SfSet::target", "src/sf_set/prokudin.cpp: ProkudinSfSet::ProkudinSfSet", "include/sidis/extra/exception.hpp: TargetMismatch"]}
{"id": "C116", "title": "A library gets the structure functions meant for its kind of distributions (refuted for Gaussian ones)", "statement": "For a shared library with structure functions, general, Gaussian, Wandzura-Wilczek-type or Gaussian Wandzura-Wilczek-type distributions, the event generator uses the class of structure functions meant for that kind, and refuses other libraries. False for Gaussian distributions: because GaussianTmdSet derives from TmdSet and is asked for later, the general class with numerical integrals is always used, and the closed forms never; the unpolarised structure function is then strictly smaller than the closed form (by at most a Gaussian tail), and the sin(3 phi_h - phi_S) one has a wrong weight (C59). True for the other kinds.", "quantifier": "all libraries, distributions, widths, points", "why_tests_cant": "for all libraries a user may write; no test loads a library", "anchors": ["app/sidisgen/main.cpp: alloc_sf", "include/sidis/tmd.hpp: GaussianTmdSet, WwTmdSet, GaussianWwTmdSet", "include/sidis/structure_function.hpp: TmdSfSet, GaussianTmdSfSet"]}
{"id": "C117", "title": "Numerical integration uses its libraries correctly", "statement": "math::integrate gives back all memory it takes, once and in reverse order, also when memory runs out; reports std::bad_alloc exactly when the generator or the state of a Monte-Carlo method cannot be made; evaluates the integrand only where the library asks (in the box, at most num_evals times, plus num_burn for VEGAS, if the library keeps to this); returns the result of the chosen routine from a new generator and state, for VEGAS that of the second run only, continuing from the grid of the burn-in. The overload for an interval is the one for a box of dimension one.", "quantifier": "all libraries (arbitrary routines as decision trees), integrands that may throw, boxes, parameters", "why_tests_cant": "all library behaviours including failing allocations and throwing integrands", "anchors": ["include/sidis/extra/integrate.hpp: integrate", "include/sidis/integ_params.hpp: IntegParams"]}
{"id": "C118", "title": "Exceptions of structure functions reach the caller of an integration (refuted)", "statement": "When the integrand throws (as ProkudinSfSet does for an unsupported hadron), the exception reaches the caller of math::integrate. True for cubature. False for the Monte-Carlo methods: the exception leaves a callback called by the C library GSL, which is undefined behaviour. If the integrand never throws, no exception but std::bad_alloc occurs.", "quantifier": "all libraries, integrands, boxes, parameters", "why_tests_cant": "undefined behaviour, and all points at which a library may evaluate", "anchors": ["include/sidis/extra/integrate.hpp: integrate", "src/sf_set/prokudin.cpp: charge, HadronOutOfRange"]}
{"id": "C119", "title": "The programs plot_ssa and quick_start stay in the phase space", "statement": "plot_ssa draws the Sivers and Collins asymmetries with and without radiative corrections at three transverse momenta, each once. Every point it may evaluate (any z of the drawn range, any azimuths) is in the phase space, with room for a photon. With exact integration the curves without corrections are the textbook ratios of structure functions; in the corrected ones every cross-section is a number. The point of quick_start is in the phase space and the number printed is the textbook unpolarised cross-section.", "quantifier": "all z in [0.1, 0.8], azimuths, polarisations, structure functions, couplings, samplings of the photon", "why_tests_cant": "a continuum of z and angles; all structure functions", "anchors": ["example/plot_ssa.cpp: main", "example/quick_start.cpp: main", "src/asymmetry.cpp: sivers, collins", "src/cross_section.cpp: born"]}
{"id": "C120", "title": "The Prokudin sets load the tables they are given", "statement": "Each data file is searched at five places in a fixed order, and the first that opens is used; a file that opens nowhere is reported by name. A file whose lines list a full, evenly spaced grid in decimal notation, in row-major order of any permutation of the axes, gives grids with the numbers written in it at every multi-index. A line with less numbers than columns, also a blank line at the end, is reported by name. The constructor succeeds exactly when all seven files load, otherwise it fails like the first that does not; each table is that of its file, and the columns of gT are sorted by flavour. Refuted: that a line with anything after its numbers is an error; it is ignored.", "quantifier": "all file systems, directories, file contents, numbers of coordinates and columns, roundings", "why_tests_cant": "all file contents, all sets of missing files", "anchors": ["src/sf_set/prokudin.cpp: find_file, load_grids, ProkudinImpl", "include/sidis/extra/interpolate.ipp: read_grids"]}
{"id": "C121", "title": "The Prokudin structure functions are defined everywhere and NaN outside of their tables", "statement": "With any files that the constructor accepts, every structure function of a charged pion is defined at every point, also at NaN and infinite arguments, without reading outside of a table. Where z and Q² are outside of the fragmentation tables, all structure functions of the set are NaN; where x and Q² are outside of a table of distributions, those made from it are. Inside of the tables, in exact arithmetic, every structure function is that of the documented formulas (C60) with the loaded tables. At the inner points of a fragmentation table the value is exactly the one loaded. Where z and Q² are outside of the tables the Born, the infrared and the integrated non-radiative cross-section are NaN for all polarisations, and the generator gives such points the density zero; with the installed tables these are exactly Q² < 1, Q² ≥ 89.11, z < 0.010098 and z ≥ 0.989902. Refuted: that the cross-section is a number at every point of the phase space, and that a flavour that does not exist is reported.", "quantifier": "all data files, pions, structure functions, points (x, z, Q², ph_t²), polarisations, densities of the generator, roundings to nearest", "why_tests_cant": "all points inside, outside and at the edges of all tables", "anchors": ["src/sf_set/prokudin.cpp: ProkudinSfSet", "include/sidis/extra/interpolate.ipp: CubicView", "src/cross_section.cpp: born, nrad_ir, nrad_integ", "app/sidisgen/generator.cpp: NradDensity::eval"]}
{"id": "C122", "title": "Sets of structure functions can be moved and masked like values", "statement": "In every program that makes Prokudin sets, masks and structure functions on TMD sets, moves them into new objects, assigns them and destroys them in any order, each object keeps the functions it was given until they are moved away; a program that uses only objects that have their functions has no undefined behaviour and reads no freed table. No tables are leaked or freed twice: all that are allocated belong to exactly one object, every object (also one moved from) can be destroyed at any time, and when all objects are gone so are all tables, also if a constructor threw. Refuted: that moved-from sets, structure functions whose TMD set was moved, and moved-from masks can be used (undefined behaviour, with no exception), and that an assignment frees the tables it replaces.", "quantifier": "all programs (sequences of constructions, failed constructions, moves, assignments, destructions and evaluations), functions, masks", "why_tests_cant": "all interleavings of moves and destructions, undefined behaviour that need not show", "anchors": ["src/sf_set/prokudin.cpp: ProkudinSfSet, ProkudinTmdSet constructors, operator=, destructors", "include/sidis/sf_set/mask.hpp: MaskSfSet", "include/sidis/structure_function.hpp: TmdSfSet and its variants"]}
{"id": "C123", "title": "Radiative corrections with structure functions that are known in part of the phase space", "statement": "When the structure functions are NaN outside of some region (as those read from tables are), the integrals over the photon are still numbers: rad_integ is exactly what it would be with structure functions that vanish outside of the region, and nrad_integ is, to the accuracy of the integrator, the infrared part plus the integral over the soft photons for which all values are known (NaN if the point itself is outside). Against the true structure functions the sum of both lacks exactly rad_f of the unknown soft photons and rad of the unknown hard ones; nothing is missing when all photons stay inside. Refuted: that the sum does not depend on the cut-off k_0_bar; with narrow tables it changes by the Born cross-section times the logarithm of the ratio of the cut-offs.", "quantifier": "all regions, structure functions, points, polarisations, cut-offs, integrators of a given accuracy", "why_tests_cant": "all regions and all photons; the missing part is silent, no error estimate shows it", "anchors": ["src/cross_section.cpp: nrad_integ, rad_f_integ, rad_integ", "src/hadronic_coeff.cpp: HadRad, HadRadF"]}
{"id": "C124", "title": "Contributions of structure functions add up", "statement": "The cross-sections born, amm, nrad_ir, rad and rad_f are linear in the structure functions. So when the 18 structure functions are divided by masks (each kept by exactly one mask, as is the case for the documented filters leading/subleading, XU/XL/XT, UX/LX and so on), the cross-sections for the masked sets add up to the cross-section for the whole set; for nrad_integ and rad_integ the same holds to the accuracy of the integrator. Refuted: that the same holds for the event generator. Where the cross-section for one of the parts is negative the generator counts it as zero, so runs for the parts add up to more than the run for the whole.", "quantifier": "all structure functions, all partitions into masks, points, polarisations, cut-offs, integrators of a given accuracy", "why_tests_cant": "all structure functions and masks at once; the 18 terms are spread over four polarisation blocks in four families of coefficients", "anchors": ["include/sidis/sf_set/mask.hpp: MaskSfSet", "src/cross_section.cpp: born, amm, nrad_ir, nrad_integ, rad, rad_f, rad_integ", "src/hadronic_coeff.cpp", "app/sidisgen/generator.cpp: NradDensity, RadDensity"]}
{"id": "C125", "title": "Mixtures of polarisation states", "statement": "For a beam that is a mixture of helicities and a target that is a mixture of polarisations (given in the target frame, turned with frame::hadron_from_target as the programs do), the cross-sections born, amm, nrad_ir, rad and rad_f at the mean polarisations are the averages over the states; so are the event densities of sidisgen without radiative corrections, for structure functions of positive probabilities and polarisations in their documented ranges. Refuted: that sidisgen rejects polarisations out of the documented ranges.", "quantifier": "all finite mixtures of beam and target states, points, structure functions, couplings, photons", "why_tests_cant": "all mixtures at all points; an identity of functions", "anchors": ["src/cross_section.cpp: born, amm, nrad_ir, rad, rad_f", "src/frame.cpp: hadron_from_target", "app/sidisgen/generator.cpp: NradDensity", "app/sidisgen/params_format.cpp: setup.beam_pol, setup.target_pol"]}
{"id": "C126", "title": "What the asymmetries depend on", "statement": "The asymmetries ut_asym, sivers and collins and their errors, with and without radiative corrections, do not change when all structure functions are multiplied by a positive number, for every integration method without absolute tolerances (uu_integ and ut_integ are proportional to the structure functions); without radiative corrections they do not depend on the electromagnetic coupling. They never depend on the structure functions of polarised beams, and without radiative corrections not on those of longitudinally polarised targets.", "quantifier": "all points, structure functions, couplings, moments, photon maps, integrators without absolute tolerances, positive factors", "why_tests_cant": "all structure functions and integrators; infinities and NaN of the integrands included", "anchors": ["src/asymmetry.cpp: ut_integ_h, uu_integ, ut_integ, ut_asym, sivers, collins", "include/sidis/extra/integrate.hpp: integrate"]}
{"id": "C127", "title": "Cuts that cut nothing change nothing (refuted for angles)", "statement": "cut::take with cuts that are not made, or that let every number pass on x, y, z, ph_t_sq or tau, returns for every point of the unit cube the same kinematics and jacobian as without cuts, and accepts exactly the valid ones; the variants of take for nine coordinates agree. Refuted for angles: a cut on phi_h from minus to plus infinity excludes no point and makes take reject all, and one from -pi to 3 pi doubles the jacobian.", "quantifier": "all particles, energies, coordinates (NaN and infinities included), cuts of the kinds described", "why_tests_cant": "all coordinates and energies", "anchors": ["src/cut.cpp: take, x_bound, y_bound, z_bound, ph_t_sq_bound, tau_bound, R_bound, valid", "include/sidis/cut.hpp: Cut, CutRad"]}
{"id": "C128", "title": "The functions without phenomenological inputs (refuted: vacuum polarisation counted once)", "statement": "born, amm, nrad_ir, rad and rad_f without a Phenom return one value for each argument wherever the running coupling is a number, with the same inputs for a point and all photons radiated from it, so that the infrared part of rad minus rad_f is that of the born of the same family, and nrad_integ plus rad_integ without a Phenom does not depend on the cut-off, within the accuracy of the integrators. Refuted: that the vacuum polarisation by each lepton is counted once. The coupling they supply already contains the one by electrons, and nrad_ir multiplies by it again: it is at least the Born cross-section of the coupling at zero momentum with the electron loop counted twice.", "quantifier": "all kinematics with Q_sq from the electron mass squared (twice it for the refutation) to the top of the range of the coupling, all structure functions, polarisations and cut-offs", "why_tests_cant": "all kinematics; the coupling and the corrections are reals", "anchors": ["src/cross_section.cpp: born, amm, nrad_ir, rad, rad_f without Phenom, delta_vac_lep", "src/phenom.cpp: Phenom::Phenom, alpha_qed"]}
{"id": "C129", "title": "The output arguments of take (refuted for rejected points)", "statement": "In every variant of cut::take the two output pointers are optional: neither the returned value nor an output depends on which other output is asked for. When it returns true, the outputs hold the sampled kinematics and the jacobian of all coordinates, whatever they held before, and with cuts it returns true exactly if all are satisfied, without cuts always. Refuted: that a rejected point leaves the outputs alone. A point rejected for its photon overwrites both, and the jacobian then lacks the factor of the first six coordinates.", "quantifier": "all particles, energies, cuts, coordinates (NaN and infinities included), null and other pointers, earlier contents", "why_tests_cant": "all cuts and coordinates, all combinations of outputs", "anchors": ["src/cut.cpp: take (all variants)", "include/sidis/cut.hpp: take"]}
{"id": "C130", "title": "Cut-offs that are not positive (refuted for rad_f_integ and rad_integ)", "statement": "With a cut-off k_0_bar that is zero, negative or NaN, nrad_integ never returns a number. With a cut-off of zero rad_f_integ is zero, to the accuracy of the integrator. With one that is zero or negative rad_integ is the integral over all photons (if that exists). Refuted: that rad_f_integ is the integral over the photons below the cut-off when this is negative. There are none, but it then integrates over all photons; so do rad_f_integ and rad_integ for a NaN cut-off.", "quantifier": "all kinematics of the phase space, structure functions, polarisations, cut-offs that are not positive, integrators (within their accuracy)", "why_tests_cant": "all kinematics; the integrals are limits", "anchors": ["src/cross_section.cpp: nrad_integ, rad_f_integ, rad_integ", "src/bound.cpp: Bound::Bound", "include/sidis/cross_section.hpp: rad_f_integ"]}
