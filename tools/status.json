{
"C01": {
"note": "All Bounds over nan/-inf/finite/+inf ends."
},
"C07": {
"note": "Defined on the progress-bar domain; witnesses show where it is undefined or wrong."
},
"C12": {
"note": "The property fails in the code: for every antiparallel pair rotate_to is minus the identity."
},
"C14": {
"note": "The property fails in the code: refuted for every non-parallel pair."
},
"C39": {
"note": "Proved for every type on values that print without loss; the code loses infinite bounds, empty strings, several seeds and doubles with more than six digits (refuted theorems)."
},
"C40": {
"note": "Everything in the statement for all sets of the standard format; refuted theorems show that sets sharing no event type are not compared, that an event type of the first set can be lost, and that an explicitly disabled type makes the merge fail."
},
"C41": {
"note": "The property fails in the code: c41_files proves which seeds are kept for any number of files, c41_refuted exhibits the duplicate."
},
"C64": {
"note": "The property fails in the code; c64_cross_form proves which contraction vanishes."
},
"C65": {
"note": "The documentation is wrong by a factor of two at every physical point where the values do not vanish; c16_invariants gives the right formulas."
},
"C24": {
"note": "Every accepted point is inside the limits. c24_massless_refuted: for a massless beam the corner x = 0 is lost (0/0)."
},
"C26": {
"note": "The property fails in the code: a half-infinite Q^2 or W^2 cut rejects every point of the sampler."
},
"C68": {
"note": "The property fails in the code for every massless-beam configuration."
},
"C29": {
"note": "Safety and NaN outside for exact arithmetic and for every rounding to nearest; node values in exact arithmetic. The last node of each dimension is outside the half-open range and gives NaN."
},
"C31": {
"note": "Exactness in interior cells; c31_edge_refuted: at every non-node point of an edge cell a constant table is not reproduced."
},
"C32": {
"note": "All dimensions, permutations, sizes and data; spacing check in exact arithmetic."
},
"C33": {
"note": "The property fails in the code: c33_ub_refuted (out-of-bounds read), c33_repeated_refuted (repeated grid accepted). c33_accepted and c33_ub_only say exactly what acceptance means and when the read can happen."
},
"C43": {
"note": "For any statistics library with the assumed laws. Two empty integrators combine to the second one, so commutativity needs one of them to be non-empty."
},
"C44": {
"note": "Exact arithmetic; counts below 2^53; the library is assumed to rebuild statistics from their moments."
},
"C46": {
"note": "c46_zero_weight_refuted: a draw of weight 0 is kept when the random number is exactly 0."
},
"C69": {
"note": "The property fails in the code: NaN for every run with a single event type."
},
"C70": {
"note": "The property fails in the code: c70_total_iff gives the exact condition, c70_total_refuted a case."
},
"C51": {
"note": "The property fails in the code: the theorems give the lines for every long word."
},
"C53": {
"note": "The property fails in the code for every N. c53_extended_partial describes the filter with the extended grammar, which the code does not use."
},
"C47": {
"note": "The radiative theorem needs mc.rad.enable on and a positive soft threshold: without them the jacobian can be NaN where there is no room for a photon."
},
"C48": {
"note": "False in general: after build_dist has thrown, drawing, moving or building again is undefined behaviour, and so is drawing after read_dist has met an unknown type (five _refuted theorems). Proved: every history without undefined behaviour constructs, uses and destroys each engine once in this order; disciplined histories (such generators are only destroyed) have no undefined behaviour; the initialize and generate commands are disciplined whatever happens. Missing: Dist::read looks at members of an object whose destructor it has called; the model follows the storage, with an oracle for whether the destructor's last store is still there."
},
"C49": {
"note": "The library (CellGenerator, its own serialisation) is a parameter; the round trip assumes that the library reads back what it writes, the truncation theorem that it notices truncation."
},
"C63": {
"note": "What the commands do is a parameter of the model of main."
},
"C60": {
"note": ""
},
"C74": {
"note": ""
},
"C77": {
"note": "The first half is c77_initialize and c77_generate.  That a failed command leaves nothing behind is refuted; c77_early_failure_partial is the part that holds."
},
"C75": {
"note": "Generators, ROOT and the structure functions are parameters of the model; ROOT is assumed to make changes in program order."
},
"C78": {
"note": "Making events and statistics enters through its outcome only."
},
"C80": {
"note": "A massless beam is excluded: its helicity four-vector does not exist."
},
"C81": {
"note": "The renormalised Dirac form factor is part of C55 and C56, not of this claim."
},
"C82": {
"note": ""
},
"C83": {
"note": "The hadronic vacuum polarisation is an input of the code."
},
"C84": {
"note": "The photon angle variables range over tau between its kinematic limits and phi_k over a full turn."
},
"C85": {
"note": "Below 2e-8 of the largest photon energy the code replaces the difference quotient in R by an extrapolation, so the identity starts there; cut-offs above the largest energy are included. The structure functions of the example vanish off the Born point, so that its infrared-finite part is the subtraction alone."
},
"C86": {
"note": "The integrator is a parameter with a stated accuracy on finite integrable integrands over the unit cube; the structure functions are numbers, so that the branch replacing NaN by zero is reached only for photon variables that are not finite."
},
"C87": {
"note": "As C85 for the range of cut-offs and C86 for the integrator."
},
"C88": {
"note": "Names in chains are taken to refer to the same files later; ROOT's interpretation of wildcards in names is not modelled. That no event appears twice is refuted (c88_duplicates_refuted). Undefined behaviour in reading statistics is reported as such (C44)."
},
"C89": {
"note": "The text is compared for any way of printing values; that 16 digits do not identify every double is part of the printing. Undefined behaviour in reading statistics (counts that are not representable) is reported as such."
},
"C90": {
"note": "Truncation error in exact arithmetic; rounding of the individual operations is not modelled; the constant π²/6 is exact."
},
"C91": {
"note": "The lepton must not be at rest with the undetected system (for the beam this is proved, c91_beam_moves; for the scattered lepton it is a point where the code divides zero by zero). Exact arithmetic apart from the truncation of dilog."
},
"C92": {
"note": "Proved for born at every physical point, and for rad where the hadron goes forward with respect to the photon after the emission (0 <= shift_ph_l). Refuted for rad elsewhere: shift_C_1 carries the sign of shift_ph_l, so the radiative cross-section of every backward hadron is not positive (c92_rad_backward), and is strictly negative for transverse photons (c92_transverse_negative, c92_rad_refuted); c92_backward_exists gives such a point inside the physical region. c92_unpolarised spells out the condition without target polarisation as three inequalities, c92_textbook ties the matrix to the textbook formula of C80."
},
"C93": {
"note": "c93_take and c93_take_rad are the equalities for arbitrary functions with values in [0, infinity]; integrals are iterated Lebesgue integrals, so no measurability is assumed. c93_nrad_total and c93_rad_total are the consequences for the densities the generator samples, in terms of the parameters. The radiative integral includes points at the edge of zero scattering angle, which take never returns: they have measure zero (steep_ae)."
},
"C94": {
"note": "c94_converges is the strong law of large numbers carried through the adaptive choice of the generator: counts_grow shows that every generator is used without end. c94_ends is termination with probability one. The statistics library is assumed to compute means and root mean squares exactly (Spec.Averages; Lemmas.Bag is an instance)."
},
"C95": {
"note": "c95_unbiased_refuted: the expected number of draws is at most N/a (Wald's identity), 1/t lies above its tangent, and with positive probability strictly. By C94 the bias disappears as the number of events grows."
},
"C96": {
"note": "c96_events is the relation, c96_example the closed form of what the example program shows, c96_example_refuted a run in which it is larger than the sum of the reported cross-sections. The statistics library is assumed to compute means exactly (Spec.Averages)."
},
"C97": {
"note": "c97_ends, c97_around_zero and c97_close are the positive results, c97_contained_refuted the counterexample (the random number 3*2^-55 is one that std::uniform_real_distribution with a 64-bit engine produces). Overflow and underflow are left out: the exponent is unbounded."
},
"C98": {
"note": "Puts C93 and C94 together. The distribution of points in the unit cube is external: assumed is that it is fair (Spec.Fair: the mean of weight times density times prime is the average of the density over the cube) and that draws are independent. The non-vacuity example has a positive total cross-section."
},
"C99": {
"note": "Error estimates of bubble::Stats are external and assumed (Spec.Errors: sample variance up to factors tending to one). Formatting of the numbers is not modelled."
},
"C100": {
"note": "Refutes the expectation that the uncertainty of a combination follows from those of the parts (c100_merged_refuted)."
},
"C101": {
"note": "The texts of PARAMS_STD_FORMAT are part of the model (bytes). Uses the typesetting theorem of C50."
},
"C102": {
"note": "Partial because two instances are refuted (c102_seed_refuted, c102_degrees_refuted). Doubles are the decimals written in the source, compared exactly. The units of the cuts are those of Spec.cutRows/photonRows, which C47 ties to the densities."
},
"C103": {
"note": "Exact arithmetic. A massive lepton is assumed (for a massless one x = 0 is in the limits, see c24). The failures below S_min and on the edge are stated as refuted theorems."
},
"C104": {
"note": "The conversions of the standard library and the functions of the library that compute cross-sections are parameters; labels and number formatting are left out. What the message, the exit status and the angles get wrong is stated in refuted theorems."
},
"C105": {
"note": "For a photon the random numbers must be between 0 and 1 exclusively (a random number exactly 0 has no claim, see c103_edge_refuted)."
},
"C106": {
"note": "Exact arithmetic; drawing by ROOT is left out. The error is right only for a positive hard part, `c106_error_partial`; for a negative one `c106_error_refuted`."
},
"C107": {
"note": "In exact arithmetic (NaN and infinity only for nrad_ir, where the cutoff produces them). The target polarization is given in the target frame and turned by hadron_from_target, as the programs do."
},
"C108": {
"note": "In exact arithmetic, as C107."
},
"C109": {
"note": "In exact arithmetic (the cutoff may be infinite or NaN). nrad_ir is not included as a whole: delta_vac_lep uses the lepton masses of constant.hpp, which are in GeV."
},
"C110": {
"note": "Refuted in two ways: the axes end at the greatest value, which a ROOT axis excludes, so that in every plot at least one point is not drawn (c110_all_refuted); below the threshold a plot of NaN is drawn between inverted limits (c110_below_refuted)."
},
"C111": {
"note": "The Monte-Carlo integrators are not symmetric under the reflection, so that with them the mirror symmetry holds within the error only."
},
"C112": {
"note": "Overflow and underflow are not modelled; the precision of the functions of <cmath> is a hypothesis."
},
"C113": {
"note": "Without radiative corrections; the infrared-finite part of the radiative cross-section is a difference and has no sign of its own."
},
"C114": {
"note": "The event generator sets a negative density to zero (C47), so that it leaves out these regions without a message."
},
"C120": {
"note": "c120_junk_refuted refutes that surplus columns or text on a line are an error; the rest is proved."
},
"C121": {
"note": "c121_number_refuted and c121_flavor_refuted refute that the cross-section is a number everywhere and that an unknown flavour is reported; the rest is proved. That the installed tables have the ranges of Shipped was read from the files."
},
"C122": {
"note": "c122_moved_from_refuted and c122_assign_frees_refuted refute that moved-from objects can be used and that an assignment frees; the rest is proved for every program. Allocation failure is not modelled, except as the throw of the constructor of the tables."
},
"C123": {
"note": "c123_cutoff_refuted refutes that the sum does not depend on the cut-off; the rest is proved. That NaN goes through the cross-sections is part of the model."
},
"C124": {
"note": "c124_generator_refuted refutes that densities of the generator add up; c124_density says exactly when they do. The linearity is proved in full for real values of the structure functions; NaN values are in C119 and C123."
},
"C125": {
"note": "c125_range_refuted refutes that polarisations out of range are rejected; the rest is proved. c125_density is for born (no radiative corrections): with them the sign of the cross-section is not settled (C92)."
},
"C126": {
"note": "The integrators of the code (cubature with tolerances 0 and 0, and the GSL methods with a generator seeded afresh) have no absolute tolerances (integrate.hpp 31-123); that they satisfy UnitFree is not proved, the libraries are not modelled, and rounding is not."
},
"C127": {
"note": "c127_angle_refuted and c127_wide_angle_refuted refute the property for cuts on angles; for the other directly sampled variables it is proved. Half-infinite cuts on Q_sq are C26."
},
"C128": {
"note": "c128_vacuum_once_refuted refutes that each lepton's vacuum polarisation is included once; the rest is proved."
},
"C129": {
"note": "c129_untouched_refuted refutes that rejected points leave the outputs alone; c129_untouched_partial is the part that holds."
},
"C130": {
"note": "c130_negative_refuted and c130_rad_nan_refuted say what the functions return instead."
}
}