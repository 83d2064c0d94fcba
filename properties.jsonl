{"id": "C01", "title": "Integer powers are exact for every exponent", "statement": "The library's integer-power helper, used by every equation of state term, returns exactly x multiplied by itself n times for every non-negative n, 1 for n=0, and the reciprocal power for every negative n, whatever branch (small-case switch, reciprocal, square-and-multiply) is taken. The only exponent for which the C++ is not defined is the smallest representable int.", "quantifier": "every base x (non-zero when n<0) and every int exponent n", "why_tests_cant": "The square-and-multiply loop has unboundedly many bit patterns; tests sample a few exponents.", "anchors": ["include/teqp/types.hpp: powi, pow2, pow3", "include/teqp/math/pow_templates.hpp: POW2..POW12"]}
{"id": "C02", "title": "Reduced residual derivatives mean what the documentation says and unsupported orders are refused", "statement": "Asking a model for Lambda^r_{ij} at run time returns (1/T)^i * rho^j * d^{i+j} alphar / d(1/T)^i drho^j for every (i,j) with i,j>=0 and i+j<=3 through the generic run-time accessor, and every other pair (including negative orders) is refused with an invalid-argument error instead of returning a number.", "quantifier": "every model, state point, and pair of integers (i,j)", "why_tests_cant": "Infinite model/state/order space; tests check a few models and orders against finite differences.", "anchors": ["include/teqp/derivs.hpp: TDXDerivatives::get_Ar, get_Agenxy, get_Agen0n, get_Agenn0"]}
{"id": "C03", "title": "Batch derivative arrays agree with the scalar accessors", "statement": "The arrays of density-only derivatives (Ar0n) and temperature-only derivatives (Arn0) agree entry by entry with the individually requested Lambda^r_{0n}, Lambda^r_{n0}, for every array length, and entry 0 is alphar itself.", "quantifier": "every model, state, array length and index", "why_tests_cant": "Requires agreement of independent code paths on all models and states.", "anchors": ["include/teqp/derivs.hpp: get_Agen0n, get_Agenn0, get_Ar01, get_Ar02"]}
{"id": "C04", "title": "Composition-derivative requests either compute the requested derivative or fail", "statement": "The run-time tables for derivatives with respect to one, two or three mole fractions never return the derivative for a different order than requested: each request (iT, iD, iXi, iXj, iXk) either yields exactly that mixed derivative or raises an invalid-argument error; requests that repeat a component index are refused.", "quantifier": "every tuple of integer orders and component indices", "why_tests_cant": "The order space is infinite and the dispatch is hand-written if/else tables.", "anchors": ["include/teqp/derivs.hpp: get_ATrhoXi_runtime, get_ATrhoXiXj_runtime, get_ATrhoXiXjXk_runtime, get_AtaudeltaXi_runtime"]}
{"id": "C05", "title": "Virial coefficients are the density expansion coefficients of the compressibility factor", "statement": "For a model whose alphar is a power series in density, the returned B_n is the coefficient of rho^{n-1} in Z = 1 + rho d(alphar)/d(rho), for every supported n; other n are refused; the temperature derivatives returned are the true temperature derivatives of B_n.", "quantifier": "every model analytic in density, every temperature, composition and n", "why_tests_cant": "Needs all orders n and all models; factorial normalisation errors only show for particular n.", "anchors": ["include/teqp/derivs.hpp: VirialDerivatives::get_B2vir, get_Bnvir, get_Bnvir_runtime, get_dmBnvirdTm"]}
{"id": "C06", "title": "The cross second virial coefficient is independent of the composition used to extract it", "statement": "For any model whose second virial coefficient follows the exact quadratic composition law, the returned B12 equals the true cross coefficient for every mole fraction strictly between 0 and 1; calls with other than two components are refused.", "quantifier": "every quadratic B2(T,x) and every x in (0,1)", "why_tests_cant": "All compositions and all models.", "anchors": ["include/teqp/derivs.hpp: VirialDerivatives::get_B12vir, get_dmB12virdTm"]}
{"id": "C07", "title": "Pressure, Helmholtz density and chemical potentials obey the Euler relation", "statement": "For every residual model, the residual pressure equals -Psir + sum_i rho_i dPsir/drho_i, so pressure, Helmholtz energy density and chemical potential obtained through the API are mutually consistent at every state; and the Psir gradient itself is the derivative of alphar*R*T*rho in concentrations.", "quantifier": "every differentiable model, temperature, and vector of positive concentrations of any length", "why_tests_cant": "A law over all models, mixtures sizes and states.", "anchors": ["include/teqp/derivs.hpp: IsochoricDerivatives::get_pr, get_Psir, build_Psir_gradient_autodiff, get_chempotVLE_autodiff"]}
{"id": "C08", "title": "Fugacity coefficients are consistent with the residual Helmholtz energy", "statement": "sum_i x_i ln(phi_i) = alphar + (Z-1) - ln Z for every model and state with Z>0, and equality of ln(x_i phi_i p) between two states is equivalent to equality of the chemical potentials returned by the API.", "quantifier": "every differentiable model, composition and state with Z>0", "why_tests_cant": "Universal thermodynamic identity; tests only see a few states.", "anchors": ["include/teqp/derivs.hpp: get_ln_fugacity_coefficients, get_fugacity_coefficients, get_chempotVLE_autodiff"]}
{"id": "C09", "title": "Partial molar volumes add up to the molar volume", "statement": "sum_i x_i vhat_i = 1/rho at every state at which dp/drho is non-zero, where vhat_i are the partial molar volumes returned by the API.", "quantifier": "every twice-differentiable model, composition and state", "why_tests_cant": "Universal identity over models and states.", "anchors": ["include/teqp/derivs.hpp: get_partial_molar_volumes, get_dpdrhovec_constT"]}
{"id": "C10", "title": "Reported temperature, density and concentration derivatives are the derivatives of the reported quantities", "statement": "dp/dT at constant concentrations, d(chemical potential)/dT, d ln(phi)/dT, d ln(phi)/drho, d ln(phi)/dv and dp/drho_i returned by the API are the true derivatives of the pressure, chemical potential and fugacity coefficients the same API returns.", "quantifier": "every twice-differentiable model and every state", "why_tests_cant": "A relation between two API functions on all models/states.", "anchors": ["include/teqp/derivs.hpp: get_dpdT_constrhovec, get_dchempotdT_autodiff, get_d_ln_fugacity_coefficients_dT_constrhomolefracs, get_d_ln_fugacity_coefficients_drho_constTmolefracs, get_d_ln_fugacity_coefficients_dv_constTmolefracs, get_dpdrhovec_constT"]}
{"id": "C11", "title": "The property-pair iterator's Jacobian is the exact Jacobian of the properties it reports", "statement": "For each of the variables T, D, P, S, H, U the value and both partial derivatives (with respect to T and rho) used by the iterative inversion are the thermodynamic property and its true derivatives computed from the derivative matrix; any other variable letter is refused; hence the Newton step it takes solves the linearised equations exactly whenever the 2x2 system is regular.", "quantifier": "every model, every state with T, rho > 0 and every pair of variable letters", "why_tests_cant": "36 variable pairs times all models and states.", "anchors": ["include/teqp/cpp/deriv_adapter.hpp", "include/teqp/algorithms/iteration.hpp: NRIterator", "interface/CPP: build_iteration_Jv"]}
{"id": "C12", "title": "van der Waals models give exactly the van der Waals equation of state", "statement": "Both van der Waals models return residual Helmholtz energies whose pressure is RT/(v-b) - a/v^2 for every state below close packing, and the mixture model built from critical temperature and pressure reproduces them exactly: at (Tc, pc) both dp/drho and d2p/drho2 vanish at rho = 1/(3b).", "quantifier": "all parameters Tc, pc > 0, all T>0 and 0 <= rho < 1/b", "why_tests_cant": "Continuum of parameters and states.", "anchors": ["include/teqp/models/vdW.hpp: vdWEOS1, vdWEOS"]}
{"id": "C13", "title": "Cubic models give exactly the two-parameter cubic equation of state", "statement": "The residual Helmholtz energy of the generic cubic (Peng-Robinson, SRK, RK-PR, user-defined deltas) gives the pressure RT/(v-b) - a(T)/((v+Delta1 b)(v+Delta2 b)), and vanishes at zero density; for SRK constants the critical constraint is met exactly.", "quantifier": "all parameters, temperatures, compositions and densities below close packing", "why_tests_cant": "Continuum of parameters and states.", "anchors": ["include/teqp/models/cubics.hpp: GenericCubic::alphar, canonical_SRK, canonical_PR"]}
{"id": "C14", "title": "Cubic mixture models are invariant under relabelling and splitting of components and have the right pure limits", "statement": "Permuting the components (with their parameters and interaction matrix) leaves alphar unchanged; splitting one component into two identical ones leaves it unchanged; setting one mole fraction to 1 gives the pure-fluid value; the alpha function equals 1 at the critical temperature.", "quantifier": "all numbers of components, compositions, permutations", "why_tests_cant": "Quantifies over all mixture sizes and permutations.", "anchors": ["include/teqp/models/cubics.hpp: GenericCubic::get_a, get_b, BasicAlphaFunction, TwuAlphaFunction, MathiasCopemanAlphaFunction", "include/teqp/models/vdW.hpp: vdWEOS::a, b"]}
{"id": "C15", "title": "Models reject mis-sized inputs instead of computing with them", "statement": "Building a cubic with inconsistent lengths of Tc, pc, acentric or kmat, or evaluating a model with the wrong number of mole fractions, is refused with an invalid-argument error, never evaluated with missing or extra entries.", "quantifier": "all input lengths", "why_tests_cant": "All sizes of all arrays.", "anchors": ["include/teqp/models/cubics.hpp: GenericCubic ctor, check_kmat, alphar", "include/teqp/models/vdW.hpp: vdWEOS", "include/teqp/models/multifluid.hpp: MultiFluid::alphar", "include/teqp/models/pcsaft.hpp: check_kmat", "include/teqp/ideal_eosterms.hpp: IdealHelmholtz::alphaig"]}
{"id": "C16", "title": "The volume-translated quantum-corrected Peng-Robinson model reports the translated pressure", "statement": "A volume-translated cubic reports at molar volume v exactly the untranslated pressure at v + c, for every translation parameter c.", "quantifier": "all translation parameters, temperatures and densities", "why_tests_cant": "Holds trivially at c=0 and approximately for small c; needs all c.", "anchors": ["include/teqp/models/cubics.hpp: QuantumCorrectedPR::alphar"]}
{"id": "C17", "title": "Superancillary lookups evaluate the expansion that owns the query point", "statement": "For every reduced temperature within the fitted range the superancillary finds an expansion whose interval contains it, whatever the number of intervals, and every temperature outside is refused; the value is the Chebyshev series of that expansion evaluated at the scaled coordinate.", "quantifier": "all expansion tables with abutting intervals, any size, and all query points including breakpoints", "why_tests_cant": "Bisection over arbitrary table sizes and all reals.", "anchors": ["include/teqp/models/cubicsuperancillary.hpp: ChebyshevExpansion::y, SuperAncillary::get_index, y, midpoint_Knuth, supercubic"]}
{"id": "C18", "title": "Chebyshev series are evaluated exactly", "statement": "Evaluating a Chebyshev expansion by Clenshaw recurrence returns sum_k c_k T_k(x) for every coefficient vector and every x.", "quantifier": "all coefficient vectors of every length and all x", "why_tests_cant": "All degrees; boundary lengths (one coefficient) are easily missed.", "anchors": ["include/teqp/models/cubicsuperancillary.hpp: ChebyshevExpansion::y", "include/teqp/models/multifluid_eosterms.hpp: Chebyshev2DEOSTerm::Clenshaw1D, Clenshaw1DByRow"]}
{"id": "C19", "title": "Finite-difference formulas have their advertised order", "statement": "Each centred finite-difference formula of order p for the n-th derivative is exact on every polynomial of degree below n+p, at every expansion point and every non-zero step; unsupported combinations are refused.", "quantifier": "all polynomials of the given degree, all points and steps, all table entries", "why_tests_cant": "All polynomials and steps.", "anchors": ["include/teqp/math/finite_derivs.hpp: centered_diff, centered_diff_xy, gradient_forward"]}
{"id": "C20", "title": "Quadrature rules integrate polynomials exactly", "statement": "The closed-form Gauss-Legendre rules integrate every polynomial of degree at most 2N-1 exactly over every interval [a,b], the decimal-table rules (N = 7, 10, 15, 30) do so to within the precision of their printed digits, and unsupported N are refused with an exception.", "quantifier": "all polynomials of degree <= 2N-1 and all intervals, all shipped N", "why_tests_cant": "All polynomials and intervals.", "anchors": ["include/teqp/math/quadrature.hpp: quad"]}
{"id": "C21", "title": "Converting ideal-gas terms from the CoolProp format preserves the ideal-gas Helmholtz energy", "statement": "For every supported CoolProp alpha0 term, evaluating the converted teqp term at (T, rho) gives the same value as the original term at (tau=Tr/T, delta=rho/rhor), and an unsupported or malformed term is refused.", "quantifier": "all coefficients, all T, rho > 0", "why_tests_cant": "Continuum of coefficients and states; sign and exponent slips are state dependent.", "anchors": ["include/teqp/ideal_eosterms.hpp: CoolProp2teqp_alphaig_term_reformatter, IdealHelmholtz* terms"]}
{"id": "C22", "title": "Ideal-gas heat-capacity terms reproduce the heat capacity they encode", "statement": "The ideal-gas terms built from a heat capacity contribution c*T^t or a constant c reproduce exactly that contribution: -(1/T)^2 d2alpha/d(1/T)2 = cp0 contribution, and the enthalpy and entropy contributions vanish at T0.", "quantifier": "all coefficients, exponents and temperatures", "why_tests_cant": "All exponents including special values such as t=-1.", "anchors": ["include/teqp/ideal_eosterms.hpp: IdealHelmholtzCp0Constant, IdealHelmholtzCp0PowerT"]}
{"id": "C23", "title": "Absent components do not disturb the ideal-gas mixture", "statement": "A component with mole fraction exactly zero contributes nothing to the ideal-gas Helmholtz energy, adding such a component never changes the result, the order of components is irrelevant, and the contribution tends to zero as its fraction goes to zero.", "quantifier": "all mixtures, compositions on the boundary of the simplex", "why_tests_cant": "Boundary of composition space, any size.", "anchors": ["include/teqp/ideal_eosterms.hpp: IdealHelmholtz::alphaig"]}
{"id": "C24", "title": "Binary interaction parameters do not depend on the order in which the pair is named", "statement": "Looking up the parameters of the pair (A,B) and (B,A) gives reciprocal beta and equal gamma and F; hash identifiers take precedence over names, names over CAS numbers; a pair that is absent is refused unless an estimation scheme was explicitly requested.", "quantifier": "all parameter collections and all pairs of identifiers", "why_tests_cant": "All collections and orders.", "anchors": ["include/teqp/models/multifluid_reducing.hpp: get_BIPdep, get_binary_interaction_double, get_BIP_matrices"]}
{"id": "C25", "title": "Reducing functions are symmetric and have the right pure-fluid limits", "statement": "The reducing temperature and density of a mixture are unchanged by relabelling the components, equal the pure-fluid critical values when one mole fraction is 1, and are defined at every composition including those at which the mixing denominator vanishes.", "quantifier": "all numbers of components, positive beta and gamma, compositions on the simplex including its boundary", "why_tests_cant": "All sizes, compositions and parameters.", "anchors": ["include/teqp/models/multifluid_reducing.hpp: MultiFluidReducingFunction::Y, get_Tr, get_rhor, InvariantReducingFunction"]}
{"id": "C26", "title": "Legacy xi/zeta interaction parameters are converted to equivalent gamma parameters", "statement": "A pair given by xi and zeta parameters produces the reducing temperature and volume of the original mixing model, in particular identical fluids with xi = zeta = 0 behave as an ideal mixture (gamma = 1).", "quantifier": "all critical parameters and all xi, zeta", "why_tests_cant": "Continuum of parameters.", "anchors": ["include/teqp/models/multifluid_reducing.hpp: get_binary_interaction_double"]}
{"id": "C27", "title": "Residual Helmholtz terms are evaluated consistently at zero density", "statement": "For integer density exponents, the special branch of each residual term at delta = 0 agrees with the ordinary branch's limit, so alphar and its density derivatives extend continuously to zero density.", "quantifier": "all coefficients, all integer exponents, all tau>0", "why_tests_cant": "Requires every exponent and coefficient set.", "anchors": ["include/teqp/models/multifluid_eosterms.hpp: JustPowerEOSTerm, PowerEOSTerm, ExponentialEOSTerm, DoubleExponentialEOSTerm, GaussianEOSTerm, GERG2004EOSTerm, Lemmon2005EOSTerm, GaoBEOSTerm"]}
{"id": "C28", "title": "Loading polynomial and exponential terms from JSON preserves the term sum", "statement": "Splitting a combined list of power terms into pure-polynomial and exponential parts yields a term set whose sum is the sum of the terms listed in the file, whatever the order of the exponents l.", "quantifier": "all term lists of any length and all orderings of l", "why_tests_cant": "All orderings; data files in tests are sorted.", "anchors": ["include/teqp/models/multifluid.hpp: build_departure_function, get_EOS_terms"]}
{"id": "C29", "title": "Multi-fluid mixtures reduce to the pure fluid and are symmetric", "statement": "The multi-fluid alphar of a mixture with one mole fraction equal to 1 equals the pure fluid's alphar at its own reduced state, relabelling components leaves it unchanged, and a component at zero concentration contributes nothing to corresponding-states and departure sums.", "quantifier": "all component counts and compositions", "why_tests_cant": "All sizes and permutations.", "anchors": ["include/teqp/models/multifluid.hpp: MultiFluid::alphar, CorrespondingStatesContribution, DepartureContribution"]}
{"id": "C30", "title": "Identifier selection finds a usable identifier whenever one exists", "statement": "When building a mixture, the library picks an identifier type for which every pair of components is resolvable if there is any such type, always picks the first in its fixed order, and otherwise refuses.", "quantifier": "all component lists and parameter collections", "why_tests_cant": "All collections.", "anchors": ["include/teqp/models/multifluid.hpp: select_identifier, collect_identifiers"]}
{"id": "C31", "title": "Unknown component names are refused", "statement": "Requesting a mixture that contains a name which is neither a path, a JSON document nor a known alias raises an error for whichever position of the list the unknown name occupies.", "quantifier": "all lists of component names and all alias tables", "why_tests_cant": "Position- and history-dependent: the second look-up of the same name behaves differently.", "anchors": ["include/teqp/models/multifluid.hpp: make_pure_components_JSON, build_alias_map"]}
{"id": "C32", "title": "Mutated mixtures keep the pure-fluid limits", "statement": "A mixture whose interaction parameters are replaced through the mutation interface still has each pure component's own reducing temperature and density in the pure limit, for every supported interaction type.", "quantifier": "all supported parameter types and values", "why_tests_cant": "All parameter values and types.", "anchors": ["include/teqp/models/multifluid_mutant.hpp: build_multifluid_mutant", "include/teqp/models/multifluid_reducing.hpp: InvariantReducingFunction"]}
{"id": "C33", "title": "A zero of the pure-fluid saturation residual is exactly phase equilibrium", "statement": "The pure-fluid saturation solver's residual vanishes if and only if both phases have equal pressure and equal chemical potential, the Jacobian it uses is the exact derivative, and the densities returned after a converged exit are those at which the stopping test was evaluated.", "quantifier": "all models and all pairs of positive densities", "why_tests_cant": "All models and states.", "anchors": ["include/teqp/algorithms/VLE_pure.hpp: IsothermPureVLEResiduals, do_pure_VLE_T, pure_VLE_T"]}
{"id": "C34", "title": "The saturation-pressure slope satisfies the Clapeyron equation", "statement": "The returned dpsat/dT equals (s_V - s_L)/(v_V - v_L) (equivalently (h_V-h_L)/(T (v_V-v_L))) for any two coexisting densities.", "quantifier": "all models and all coexisting states", "why_tests_cant": "All models and states.", "anchors": ["include/teqp/algorithms/VLE_pure.hpp: dpsatdT_pure"]}
{"id": "C35", "title": "Tracing a saturation curve returns the saturation densities at the requested temperature", "statement": "Tracing from one temperature to another returns densities polished at the target temperature, with or without the derivative-based predictor, and never a trivial (equal density) solution.", "quantifier": "all models, temperatures and step counts", "why_tests_cant": "All step counts/option combinations.", "anchors": ["include/teqp/algorithms/VLE_pure.hpp: pure_trace_VLE"]}
{"id": "C36", "title": "The pure critical-point residual and Jacobian are exact", "statement": "The critical-point residual vanishes iff dp/drho and d2p/drho2 vanish; the 2x2 Jacobian holds their exact derivatives with respect to T and rho; invalid pure-component indices or vector lengths are refused; the near-critical density estimate is symmetric about the critical density.", "quantifier": "all models and states, all integer indices", "why_tests_cant": "All models.", "anchors": ["include/teqp/algorithms/critical_pure.hpp: get_pure_critical_conditions_Jacobian, solve_pure_critical, extrapolate_from_critical"]}
{"id": "C37", "title": "The mixture bubble/dew solver never revives an absent component and never leaves the physical domain", "statement": "In the fixed temperature/liquid-composition solver, a component whose specified mole fraction is zero keeps its initial concentration for every number of iterations, and accepted concentrations of present components stay non-negative after the step limiter is applied.", "quantifier": "all residual functions, initial guesses and iteration counts", "why_tests_cant": "Invariant over unbounded iteration histories.", "anchors": ["include/teqp/algorithms/VLE.hpp: mix_VLE_Tx"]}
{"id": "C38", "title": "The mixture saturation residuals characterise equilibrium and their Jacobian is exact", "statement": "The residual of the mixture solvers vanishes exactly when pressures and chemical potentials are equal and the composition (or pressure) specification is met; the Jacobian is the exact derivative.", "quantifier": "all models, binary mixtures, all states", "why_tests_cant": "All models.", "anchors": ["include/teqp/algorithms/VLE.hpp: mix_VLE_Tx, mixture_VLE_px, hybrj_functor__mix_VLE_Tp"]}
{"id": "C39", "title": "Solver return codes tell the truth", "statement": "A solver that reports convergence has met the documented step or residual tolerance in absolute value, and a solver that has met it does not report failure.", "quantifier": "all models, starting points and tolerances", "why_tests_cant": "Return codes depend on histories that tests rarely reach.", "anchors": ["include/teqp/algorithms/VLE.hpp: mix_VLE_Tx, mix_VLE_Tp, mixture_VLE_px", "include/teqp/algorithms/VLLE.hpp: mix_VLLE_T, mix_VLLE_p"]}
{"id": "C40", "title": "Phase-envelope derivative formulas follow the equilibrium surface", "statement": "The derivative vectors returned for saturation isotherms, isobars and isopleths (d rho/dp at constant T, d rho/dT at constant p, d rho/dT at constant x, dp/dT along an isopleth) satisfy the linearised equilibrium conditions, and mixtures with other than two components are refused.", "quantifier": "all models with symmetric Hessian and all coexisting states with regular systems", "why_tests_cant": "All models and states.", "anchors": ["include/teqp/algorithms/VLE.hpp: get_drhovecdp_Tsat, get_drhovecdT_psat, get_drhovecdT_xsat, get_dpsat_dTsat_isopleth"]}
{"id": "C41", "title": "Traced isotherms and isobars move along the equilibrium surface in either direction", "statement": "The state derivative handed to the ODE integrator is a multiple of the tangent of the phase envelope whichever direction of tracing is selected and whether or not the direction has been flipped to stay consistent with the previous step.", "quantifier": "all tangents, previous directions and integration directions", "why_tests_cant": "Direction flips occur only on special paths.", "anchors": ["include/teqp/algorithms/VLE.hpp: trace_VLE_isotherm_binary, trace_VLE_isobar_binary"]}
{"id": "C42", "title": "Critical-curve tracing moves along the critical curve", "statement": "The tangent used in tracing satisfies the linearised critical conditions, is normalised to unit length in density space, is never reversed relative to the previous step, and polishing is accepted only when the relative change is within tolerance.", "quantifier": "all models and critical states", "why_tests_cant": "All models/states.", "anchors": ["include/teqp/algorithms/critical_tracing.hpp: get_drhovec_dT_crit, trace_critical_arclength_binary, get_criticality_conditions, get_dp_dT_crit"]}
{"id": "C43", "title": "Reported three-phase starting points are genuine crossings of the traced branches", "statement": "Each reported self- or cross-intersection of a traced phase diagram is a point lying on both segments, strictly inside each; every proper transversal crossing is reported.", "quantifier": "all polylines of any length", "why_tests_cant": "All polylines.", "anchors": ["include/teqp/algorithms/VLLE.hpp: get_self_intersections, get_cross_intersections"]}
{"id": "C44", "title": "Interpolated three-phase guesses lie at the crossing", "statement": "The phase concentrations interpolated at a crossing reproduce the crossing's own coordinates.", "quantifier": "all segments and all crossing parameters in (0,1)", "why_tests_cant": "Weights are symmetric only at the midpoint.", "anchors": ["include/teqp/algorithms/VLLE.hpp: find_VLLE_T_binary, find_VLLE_p_binary, avg_values"]}
{"id": "C45", "title": "Three-phase tracing stops after the permitted number of retries", "statement": "If the step keeps failing, tracing gives up after the configured maximum number of step retries; the temperature step magnitude never exceeds the configured maximum in either direction.", "quantifier": "all failure histories", "why_tests_cant": "Unbounded histories.", "anchors": ["include/teqp/algorithms/VLLE.hpp: trace_VLLE_binary"]}
{"id": "C46", "title": "The general phase-equilibrium system is square and its Jacobian is the derivative of its residual", "statement": "For every number of phases and components the number of equations equals the number of unknowns, packing and unpacking unknowns are inverse, and the analytic Jacobian equals the derivative of the residual.", "quantifier": "all numbers of phases and components, all models", "why_tests_cant": "All phase/component counts.", "anchors": ["include/teqp/algorithms/phase_equil.hpp: GeneralizedPhaseEquilibrium, UnpackedVariables, CaloricPhaseDerivatives, specifications"]}
{"id": "C47", "title": "Iterative inversions report truthfully why they stopped", "statement": "The iterator takes at most the requested number of steps, refuses non-positive step counts, reports success only if a success condition held at some step taken, and a step-count condition fires when the number of steps taken reaches its limit.", "quantifier": "all models, stopping conditions and step counts", "why_tests_cant": "All histories of the stopping conditions.", "anchors": ["include/teqp/algorithms/iteration.hpp: NRIterator::take_steps, StoppingCondition subclasses"]}
{"id": "C48", "title": "Logarithmic density stepping never produces a non-positive density", "statement": "Starting from a positive density, any number of logarithmic-density Newton steps keeps the density positive, and the density increment applied corresponds exactly to the step in ln(rho).", "quantifier": "all step histories", "why_tests_cant": "Unbounded histories.", "anchors": ["include/teqp/algorithms/iteration.hpp: take_steps_logrho"]}
{"id": "C49", "title": "C interface handles behave like an abstract map of models", "statement": "Through the C interface, after any sequence of build, free and query calls, a query on a handle uses the model most recently built under that handle, queries on freed or never-issued handles fail with an error code and leave the output untouched, and a handle value is never issued twice.", "quantifier": "all histories of API calls", "why_tests_cant": "Unbounded histories.", "anchors": ["interface/C/teqpc.cpp: build_model, free_model, get_Ar*, library, next_index"]}
{"id": "C50", "title": "Error messages handed to the caller's buffer never overflow it", "statement": "For every buffer length that is the true size of the caller's buffer, every failing C call writes at most that many bytes including a terminating NUL and the output is a NUL-terminated string whenever at least two bytes are available.", "quantifier": "all message contents and all buffer lengths, including 0, 1 and negative", "why_tests_cant": "All lengths.", "anchors": ["interface/C/teqpc.cpp: exception_handler, write_error"]}
{"id": "C51", "title": "Every failure in the C interface surfaces as a non-zero code carrying the cause", "statement": "Any exception raised in a C interface call yields a non-zero return code, exceptions never cross the C boundary, output values are untouched on error, and the message in the buffer is the message of the exception.", "quantifier": "all exceptions and calls", "why_tests_cant": "All exceptions.", "anchors": ["interface/C/teqpc.cpp: exception_handler, get_Arxy wrappers", "include/teqp/exceptions.hpp"]}
{"id": "C52", "title": "Concurrent use of the C interface is safe", "statement": "Building, freeing and querying models concurrently from several threads gives each caller the result of some sequential order of the calls.", "quantifier": "all interleavings of all calls", "why_tests_cant": "Schedules cannot be enumerated by tests.", "anchors": ["interface/C/teqpc.cpp: library, next_index"]}
{"id": "C53", "title": "The model factory builds exactly the requested kind or fails", "statement": "A factory request succeeds only if the kind is registered; an unknown kind, a missing kind or missing model specification raises an error; kinds registered by a user can be added but never override an existing one; when validation is requested an invalid specification or a missing schema is an error.", "quantifier": "all JSON requests and all registration histories", "why_tests_cant": "All histories/requests.", "anchors": ["interface/CPP/teqp_impl_factory.cpp: make_model, build_model_ptr, add_model_pointer_factory_function"]}
{"id": "C54", "title": "Model containers never hand out the wrong model", "statement": "Identifiers issued by a container are distinct, retrieving an identifier returns the model stored under it, and unknown identifiers are refused.", "quantifier": "all histories", "why_tests_cant": "Unbounded histories.", "anchors": ["include/teqp/containers.hpp: ModelContainer"]}
{"id": "C55", "title": "JSON matrices are loaded faithfully or refused", "statement": "A matrix read from JSON is square, has exactly the entries listed, in row-major order, and any ragged, rectangular or non-numeric input is refused.", "quantifier": "all JSON arrays", "why_tests_cant": "All shapes.", "anchors": ["include/teqp/json_tools.hpp: build_square_matrix"]}
{"id": "C56", "title": "The Newton root finder's result satisfies its contract", "statement": "If the damped Newton root finder stops before its iteration limit, the residual at the point where it was last evaluated was below the tolerance; a non-finite residual always raises an error; it evaluates at most the fixed number of iterations.", "quantifier": "all functions, starting points and tolerances", "why_tests_cant": "All functions.", "anchors": ["include/teqp/algorithms/rootfinding.hpp: NewtonRaphson"]}
{"id": "C57", "title": "Association site fractions are always physical", "statement": "The non-bonded site fractions returned by the association solver lie in (0,1] for every number of iterations, the association contribution to the Helmholtz energy is never positive, a returned fixed point satisfies the law of mass action, and the closed-form branch for two-site pure fluids gives the unique positive solution.", "quantifier": "all component/site counts, densities, strengths and iteration counts", "why_tests_cant": "All iteration histories and parameters.", "anchors": ["include/teqp/models/association/association.hpp: successive_substitution, alphar"]}
{"id": "C58", "title": "Disabled association is disabled", "statement": "Sites that are not allowed to interact (by interaction_partners or by self_association_mask) do not contribute to association for any mixture, including pure fluids with two site types.", "quantifier": "all masks and partner tables", "why_tests_cant": "Special branch for pure two-site fluids.", "anchors": ["include/teqp/models/association/association.hpp: make_D, successive_substitution"]}
{"id": "C59", "title": "The explicit CPA site fractions solve the law of mass action", "statement": "For each association scheme (1A, 2B, 3B, 4C) the closed-form site fractions satisfy the mass-action equations of that scheme and lie in (0,1].", "quantifier": "all positive association strengths and densities", "why_tests_cant": "All parameters.", "anchors": ["include/teqp/models/CPA.hpp: XA_calc_pure, get_DeltaAB_pure"]}
{"id": "C60", "title": "The requested radial distribution function is the one used", "statement": "A CPA or association model configured with a radial distribution function uses it regardless of which other options are given.", "quantifier": "all option documents", "why_tests_cant": "Option combinations.", "anchors": ["include/teqp/models/CPA.hpp: CPAfactory", "include/teqp/models/association/association.hpp: Association::factory, from_json"]}
{"id": "C61", "title": "The specialised pure-fluid PC-SAFT agrees with the general mixture PC-SAFT", "statement": "The pure-fluid implementation returns the same residual Helmholtz energy as the mixture implementation for one component, the mixture implementation is invariant under splitting a component into identical copies and under relabelling, and the zero-density branch of the hard-sphere term is the limit of the ordinary branch.", "quantifier": "all parameters, temperatures, densities with packing fraction in (0,1), component counts", "why_tests_cant": "All parameters and states.", "anchors": ["include/teqp/models/saft/pcsaftpure.hpp: PCSAFTPureGrossSadowski2001", "include/teqp/models/pcsaft.hpp: PCSAFTMixture, get_alphar_hs, C1, C2, gij_HS"]}
{"id": "C62", "title": "Saturation ancillaries meet the critical point and refuse higher temperatures", "statement": "Each saturation ancillary equals its reducing value at its reducing temperature when all exponents are positive, refuses any temperature above it, and is positive for positive reducing values (exponential forms).", "quantifier": "all coefficient sets and temperatures", "why_tests_cant": "All coefficients.", "anchors": ["include/teqp/models/multifluid_ancillaries.hpp: VLEAncillary, MultiFluidVLEAncillaries"]}
{"id": "C63", "title": "Activity-coefficient models vanish for pure fluids and are extensive", "statement": "The excess Gibbs contribution of each activity model vanishes for a pure component and for identical components, and is symmetric under relabelling.", "quantifier": "all compositions, parameters and component counts", "why_tests_cant": "All sizes/compositions.", "anchors": ["include/teqp/models/activity/activity_models.hpp: WilsonResidualHelmholtzOverRT, BinaryInvariantResidualHelmholtzOverRT, NullResidualHelmholtzOverRT"]}
{"id": "C64", "title": "Evaluations on different threads do not interfere", "statement": "Evaluating one immutable model concurrently on several threads gives the same values as evaluating sequentially.", "quantifier": "all interleavings", "why_tests_cant": "Schedules cannot be enumerated.", "anchors": ["include/teqp/types.hpp: powIVi", "include/teqp/models/multifluid_eosterms.hpp: Clenshaw1DByRow"]}
{"id": "C65", "title": "Second virial coefficients of cubic mixtures follow the one-fluid combining rules", "statement": "For the van der Waals mixture, the generic cubic and RK-PR, the reported second virial coefficient of a mixture is the quadratic form sum x_i x_j B_ij with B_ij built from the arithmetic-mean covolume and the geometric-mean attraction times (1 - k_ij), and the reported cross coefficient of a binary is B_01.", "quantifier": "all component counts, parameters, temperatures and compositions", "why_tests_cant": "All compositions and interaction parameters; tests check single numbers.", "anchors": ["include/teqp/models/vdW.hpp: vdWEOS::a", "include/teqp/models/cubics.hpp: GenericCubic::get_a, RKPRCismondi2005::get_ab", "include/teqp/derivs.hpp: get_B2vir, get_B12vir"]}
{"id": "C66", "title": "Alpha functions have the documented slope at the critical temperature and decrease below it", "statement": "Each alpha function equals one at the critical temperature with slope -m/Tc (classical), -c0/Tc (Mathias-Copeman), (c2(c1-1) - c0 c1 c2)/Tc (Twu); the classical one decreases with temperature until it vanishes; m is positive for real acentric factors and the two branches of Peng-Robinson 1978 nearly meet.", "quantifier": "all coefficients, temperatures, acentric factors", "why_tests_cant": "A continuum of coefficients and temperatures.", "anchors": ["include/teqp/models/cubics.hpp: BasicAlphaFunction, TwuAlphaFunction, MathiasCopemanAlphaFunction, canonical_PR"]}
{"id": "C67", "title": "The effective hardness of an inverse-power fluid is its exponent", "statement": "For every residual model that depends on temperature and density only through rho^(n/3)/T, get_neff returns n at every state.", "quantifier": "all models of that form, all states", "why_tests_cant": "Quantifies over models.", "anchors": ["include/teqp/derivs.hpp: get_neff"]}
{"id": "C68", "title": "Term documents with unequal arrays or non-integer density exponents are refused", "statement": "For every residual-term type, constructing the model from a document whose coefficient arrays differ in length, or whose density exponent l is not an integer, throws; a document that is accepted yields a term whose alphar is the sum over the listed entries of the published formula of that type.", "quantifier": "all term types, all arrays, all positive tau and delta", "why_tests_cant": "unit tests use the distributed fluid files, whose arrays all have equal lengths and integer exponents", "anchors": ["include/teqp/models/multifluid.hpp:228-762"]}
{"id": "C69", "title": "Traced phase-envelope points are admissible and are what the solver returned", "statement": "A traced isotherm or isobar starts at the given state, has at most max_steps further points, and every further point comes from an accepted integration step at which no stop is requested (mole fractions within [0,1], pressure within the limit for isotherms); it is either that state or the result of the polishing solver at the same liquid composition with each liquid concentration within the relative tolerance. Tracing fails only with an invalid-argument error for wrong lengths, integration order or revision, or with an iteration failure when the options ask for it.", "quantifier": "all models, steppers, options and starting states", "why_tests_cant": "The set of points depends on unbounded histories of accepted, rejected and polished steps.", "anchors": ["include/teqp/algorithms/VLE.hpp: trace_VLE_isotherm_binary, trace_VLE_isobar_binary"]}
{"id": "C70", "title": "Eigen-analysis of the Helmholtz Hessian", "statement": "For a mixture with all components present eigen_problem returns an orthonormal eigenvector frame of the Hessian of the Helmholtz density with eigenvalues in increasing order, v0 belongs to the least second derivative over all unit directions, the derivatives of get_derivs are the directional derivatives of the total Helmholtz density along v0, and v0 never points against alignment_v0. With exactly one component absent v0 is the corresponding vector of the remaining components padded with zero and v1 is the axis of the absent component; with more than one absent it throws.", "quantifier": "all models, states and component counts", "why_tests_cant": "Sign conventions, the padded case and the least-direction claim are about all directions and states.", "anchors": ["include/teqp/algorithms/critical_tracing.hpp: eigen_problem, get_derivs, is_locally_stable, EigenVectorPath"]}
{"id": "C71", "title": "Endpoint polishing ends a trace at the pure fluid it runs into", "statement": "With pure_endpoint_polish, when the next step would take a concentration through zero, the trace is ended with the critical point of the pure fluid that remains; when the next step crosses nothing the trace is left as it is, and the points already found are never lost.", "quantifier": "all models, options and traces", "why_tests_cant": "Depends on the state in which the trace happened to stop.", "anchors": ["include/teqp/algorithms/critical_tracing.hpp: trace_critical_arclength_binary (lines 701-735)"]}
{"id": "C72", "title": "Three-phase solvers solve the three-phase conditions", "statement": "The residual of the three-phase solvers vanishes exactly when the three phases have equal pressure and equal chemical potentials (and, for the isobaric one, the vapor has the specified pressure); their Jacobians are the derivatives of the residuals; the temperature derivatives returned for the three-phase curve are the rates of change along every differentiable curve of three-phase states. The solvers are defined for two components only.", "quantifier": "all smooth binary models, temperatures and positive concentrations", "why_tests_cant": "Needs an exact equilibrium and derivative comparison for every fluid.", "anchors": ["include/teqp/algorithms/VLLE.hpp: mix_VLLE_T, mix_VLLE_p, get_drhovecdT_VLLE_binary"]}
{"id": "C73", "title": "Reported three-phase solutions come from crossings and are not trivial", "statement": "Every solution reported by the three-phase finder stems from a crossing of the given traces, is the result of the polisher for the guess made from it, and has two liquids that differ in density by more than the threshold; polisher failures at one crossing do not hide the others; no trace or more than two traces are refused.", "quantifier": "all traces, polishers and thresholds", "why_tests_cant": "Quantifies over all traces and over every way the polisher can fail.", "anchors": ["include/teqp/algorithms/VLLE.hpp: find_VLLE_gen_binary"]}
{"id": "C74", "title": "Path integration of property pairs follows the straight line between start and target", "statement": "In the path integration of the property-pair iterator the rates of temperature and density computed in each step move both requested properties at the constant rates of the straight line from their starting to their target values, for every pair of properties whose derivatives do not vanish.", "quantifier": "all models, states and pairs of variables", "why_tests_cant": "All Jacobians, including nearly singular ones; tests integrate a few fixed paths.", "anchors": ["include/teqp/algorithms/iteration.hpp: NRIterator::path_integration"]}
{"id": "C75", "title": "JSON references resolve to the document they name", "statement": "A JSON argument given to a multi-level loader resolves to the default file if nothing is given (and is refused without one), to itself if it is an object or a non-empty array, to the content of the file it names if it is a text naming an existing file, and otherwise to the text read as JSON; numbers and booleans are refused; a file is used only if it exists, opens and holds JSON; the equal-length check passes exactly if all named fields exist and have the same length.", "quantifier": "all JSON values, file systems and texts", "why_tests_cant": "All JSON values and file-system states.", "anchors": ["include/teqp/json_tools.hpp: load_a_JSON_file, multilevel_JSON_load, all_same_length"]}
{"id": "C76", "title": "Virial coefficients include association", "statement": "The second virial coefficient obtained for an associating fluid by differentiating the residual Helmholtz energy at zero density includes the association contribution that follows from the law of mass action.", "quantifier": "all component and site counts, strengths, compositions", "why_tests_cant": "Numerical virial coefficients look plausible without the missing part; every strength and composition is involved.", "anchors": ["include/teqp/models/association/association.hpp: successive_substitution, alphar", "include/teqp/derivs.hpp: VirialDerivatives::get_B2vir"]}
{"id": "C77", "title": "The CPA cubic part obeys the SRK or Peng-Robinson pressure equation", "statement": "The residual Helmholtz energy of the cubic part of CPA gives, by differentiation with respect to density, the SRK or Peng-Robinson pressure with the mixture parameters a(T,x) and b(x), and vectors of a wrong length are refused.", "quantifier": "all parameters, temperatures, densities below 1/b, compositions, component counts", "why_tests_cant": "All parameters and states.", "anchors": ["include/teqp/models/CPA.hpp: CPACubic"]}
{"id": "C78", "title": "A CPA document with a missing entry is rejected with an exception", "statement": "Building a CPA model from a JSON document in which a required entry is missing throws an exception that names the problem.", "quantifier": "all JSON documents", "why_tests_cant": "All documents.", "anchors": ["include/teqp/models/CPA.hpp: CPAfactory"]}
{"id": "C79", "title": "The third-order quadrupolar term uses the quadrupolar correlation", "statement": "The third-order quadrupolar Helmholtz energy of Gross and Vrabec is the published sum with the quadrupolar coefficients, so it has the published sign at every physical state.", "quantifier": "all molecules with positive diameters, energies and moments, all temperatures, densities and compositions", "why_tests_cant": "All mixtures and states; a test with stored values of the code itself cannot see a wrong coefficient table.", "anchors": ["include/teqp/models/saft/polar_terms/GrossVrabec.hpp: QuadrupolarContributionGross::get_alpha3QQ"]}
{"id": "C80", "title": "The polar contribution is finite wherever it has a finite limit", "statement": "The polar contribution of a PC-SAFT mixture is finite at zero density and at compositions where the polar component is absent, and duplicating components does not change it.", "quantifier": "all molecules, temperatures, densities including zero, compositions including pure limits", "why_tests_cant": "All states, including the limits.", "anchors": ["include/teqp/models/saft/polar_terms/GrossVrabec.hpp", "include/teqp/models/pcsaft.hpp: PCSAFTMixture::alphar"]}
{"id": "C81", "title": "The two multipolar implementations agree", "statement": "For molecules given in SI units, the contributions of Gubbins-Twu (reduced moments) and Gray-Gubbins (SI moments, no polarizability) have the same second- and third-order terms and the same result.", "quantifier": "all molecules, all correlation integrals, all states with non-zero second-order term", "why_tests_cant": "All parameters and states at once; a comparison at a few points does not exclude cancelling errors.", "anchors": ["include/teqp/models/saft/polar_terms.hpp: MultipolarContributionGubbinsTwu", "include/teqp/models/saft/polar_terms.hpp: MultipolarContributionGrayGubbins"]}
{"id": "C82", "title": "The hand-written dipole gradients are derivatives", "statement": "The gradients of the second- and third-order multipolar terms with respect to the effective dipole moments, and the polarization field computed from them, are the derivatives of those terms (per molecule of the component).", "quantifier": "all parameters, integrals, states, component counts", "why_tests_cant": "All component counts and states.", "anchors": ["include/teqp/models/saft/polar_terms.hpp: get_alpha2_muprime_gradient", "include/teqp/models/saft/polar_terms.hpp: get_alpha3_muprime_gradient", "include/teqp/models/saft/polar_terms.hpp: get_Eprime"]}
{"id": "C83", "title": "The multipolar term has its slope at zero density", "statement": "At zero density the multipolar term is finite and its derivative with respect to density, which enters the second virial coefficient, is the derivative of the term.", "quantifier": "all molecules, integrals continuous at zero density, temperatures, compositions", "why_tests_cant": "A statement about limits for all parameters.", "anchors": ["include/teqp/models/saft/polar_terms.hpp: MultipolarContributionGrayGubbins::eval", "include/teqp/models/saft/polar_terms.hpp: MultipolarContributionGubbinsTwu::eval"]}
{"id": "C84", "title": "An unknown option for the reduced density is rejected when the model is built", "statement": "A multipolar model built with an unknown name for the reduced-density approach is rejected at construction.", "quantifier": "all option strings", "why_tests_cant": "All strings.", "anchors": ["include/teqp/models/saft/polar_terms/types.hpp: multipolar_rhostar_approach", "include/teqp/models/saft/polar_terms.hpp: get_rhostar"]}
{"id": "C85", "title": "Polar terms obey corresponding states", "statement": "Scaling every size by one factor and every energy and the temperature by another, at the density that keeps the packing the same, leaves the Gross-Vrabec polar terms unchanged; for a pure fluid they are the published one-component expressions.", "quantifier": "all parameters, all positive factors, states and compositions", "why_tests_cant": "Holds over continuous families of parameters and factors.", "anchors": ["include/teqp/models/saft/polar_terms.hpp: DipolarContributionGrossVrabec", "include/teqp/models/saft/polar_terms.hpp: QuadrupolarContributionGross"]}
{"id": "C86", "title": "The square-well model has its fourth-order second virial coefficient", "statement": "At zero density the residual Helmholtz energy of the square-well model is zero and its slope is the hard-sphere value plus the well contribution expanded to fourth order in 1/T; it lies above the exact second virial coefficient.", "quantifier": "all well widths above 1 and all temperatures", "why_tests_cant": "A limit for all widths and temperatures.", "anchors": ["include/teqp/models/model_potentials/squarewell.hpp: EspindolaHeredia2009"]}
{"id": "C87", "title": "The square-well model is continuous in the width of the well", "statement": "The residual Helmholtz energy is a continuous function of the well width, also at width 2 where the formulas change.", "quantifier": "all temperatures and densities", "why_tests_cant": "A limit statement about a branch point.", "anchors": ["include/teqp/models/model_potentials/squarewell.hpp: EspindolaHeredia2009"]}
{"id": "C88", "title": "The Lee-Kesler-Ploecker model interpolates between two reference fluids and reduces to the pure fluids", "statement": "The model vanishes at zero density, has the density derivative given by the modified BWR compressibility factor, gives the parameters and value of a pure component at a unit composition and of identical components at every composition, and rejects arrays of the wrong size.", "quantifier": "all parameters, temperatures, densities, compositions", "why_tests_cant": "Derivative and limit statements over all parameters.", "anchors": ["include/teqp/models/LKP.hpp: LKPMix"]}
{"id": "C89", "title": "Huber-Ely extended corresponding states returns the reference fluid for the reference parameters", "statement": "With the fluid equal to the reference the model is the reference equation; scaling the critical constants scales temperature and density; incomplete coefficient arrays are rejected.", "quantifier": "all parameters and all reference equations", "why_tests_cant": "All reference models and parameter values.", "anchors": ["include/teqp/models/ECSHuberEly.hpp: ECSHuberEly1994"]}
{"id": "C90", "title": "The ammonia-water model has the pure fluids as limits", "statement": "The reducing functions are positive, and the mixture model equals the pure equation of ammonia and of water at the ends of the composition range.", "quantifier": "all temperatures, densities, compositions", "why_tests_cant": "Limits for all states.", "anchors": ["include/teqp/models/ammonia_water.hpp: AmmoniaWaterTillnerRoth"]}
{"id": "C91", "title": "The activity-coefficient departure keeps the pure fluids and the dilute limit", "statement": "The multi-fluid model with an activity-coefficient departure equals the pure equations at unit compositions, vanishes at zero density, takes the excess energy at the reference density, and rejects compositions of the wrong size.", "quantifier": "all pure equations, activity models, states and compositions", "why_tests_cant": "All models and limits.", "anchors": ["include/teqp/models/multifluid/multifluid_activity.hpp: MultifluidPlusActivity"]}
{"id": "C92", "title": "The extended-corresponding-states mutant keeps the pure fluids and rejects incomplete matrices", "statement": "The mutant model equals the pure equations at unit compositions, is Lorentz-Berthelot for unit parameters and rejects interaction matrices of the wrong size.", "quantifier": "all base models, parameters, states", "why_tests_cant": "All models and matrices.", "anchors": ["include/teqp/models/multifluid_ecs_mutant.hpp: build_multifluid_ecs_mutant"]}
{"id": "C93", "title": "Johnson's Lennard-Jones equation gives the MBWR pressure", "statement": "For every reduced temperature above zero and every reduced density, the residual Helmholtz energy of the Johnson, Zollweg and Gubbins model is zero at zero density and its density derivative times density is Z - 1, with Z from the modified Benedict-Webb-Rubin pressure with the 32 published coefficients and the exponential terms with gamma = 3. At temperatures that are not positive the result is not finite.", "quantifier": "for all T and rho", "why_tests_cant": "The tests compare a handful of tabulated states; an error in one of the recursively integrated terms G_i changes the pressure at high density only.", "anchors": ["include/teqp/models/mie/lennardjones/johnson.hpp"]}
{"id": "C94", "title": "The Kolafa-Nezbeda equation is consistent with its hard-sphere reference and virial coefficient", "statement": "For every temperature above zero: the density derivative of the hard-sphere part is the Kolafa-Carnahan-Starling compressibility factor; the derivative of the effective diameter and of the residual second virial coefficient with temperature are the ones written in the code; and the residual Helmholtz energy is zero at zero density with slope equal to the second virial coefficient of the equation.", "quantifier": "for all T above zero and all densities below close packing of the effective spheres", "why_tests_cant": "Hand-coded temperature derivatives are only checked numerically at a few points.", "anchors": ["include/teqp/models/mie/lennardjones.hpp"]}
{"id": "C95", "title": "Lennard-Jones chains and soft-SAFT reduce to their monomer", "statement": "A chain of one segment has the residual Helmholtz energy of the monomer wherever it is defined; a chain of m segments vanishes at zero density with the second virial coefficient m^2 B + (1-m) m g', where g' is the density slope of the contact value. In soft-SAFT, if all components with non-zero mole fraction have the same parameters, the mixture equals the chain of that component in reduced variables. Parameter arrays of different lengths are rejected.", "quantifier": "for all m, T, rho, compositions and parameter sets", "why_tests_cant": "Equality of a mixture of identical components with the pure fluid concerns all compositions; size mismatches need malformed inputs.", "anchors": ["include/teqp/models/saft/softsaft.hpp", "include/teqp/models/model_potentials/LJChain.hpp"]}
{"id": "C96", "title": "The two-centre Lennard-Jones fluid has its virial coefficient, its sphere limit and its names", "statement": "For both published equations, every elongation and every moment that is not negative, the two-centre Lennard-Jones model returns a finite residual Helmholtz energy at positive temperature wherever the packing stays below one, vanishing at zero density with the slope given by its published coefficients; models without moment equal the nonpolar model; unknown author names are refused; and as the elongation goes to zero the model goes over into that of spheres. The last holds only after a change of the unit of temperature by four, and for dipoles a third virial coefficient does not exist.", "quantifier": "every elongation, moment, temperature and density; every document", "why_tests_cant": "Tests compare single state points with published values.", "anchors": ["include/teqp/models/model_potentials/2center_ljf.hpp", "interface/CPP/model_factory_model_potentials.cpp"]}
{"id": "C97", "title": "The exp-6 equation is a polynomial in density over its full grid of terms", "statement": "For every steepness above eight and every positive temperature, the residual Helmholtz energy of the exp-6 model is a polynomial of fifth degree in the density without constant term; get_alpha returns the value given; the equation has a two-phase region at T*=1 and is mechanically stable at T*=16. A steepness of eight or less is refused.", "quantifier": "every steepness, temperature and density", "why_tests_cant": "Tests check a few values.", "anchors": ["include/teqp/models/model_potentials/exp6.hpp"]}
{"id": "C98", "title": "The Mie equations have the critical point and the potential they state", "statement": "For every repulsive exponent from eleven to thirteen, the first and second derivatives of the pressure of the Mie equation of Pohl and others vanish at its stated critical temperature and density to one part in ten thousand. The prefactor of the Mie potential gives a well of unit depth for every pair of exponents and the descriptor of the neural-network equation is minus the integral of the potential over its attractive range; the network's residual Helmholtz energy vanishes at zero density for any weights. Exponents for which no value exists are refused.", "quantifier": "every exponent, temperature and density; any weights", "why_tests_cant": "Tests compare single points.", "anchors": ["include/teqp/models/mie/mie.hpp"]}
{"id": "C99", "title": "Multi-fluid gas constants are those of the fluids", "statement": "The gas constant of a multi-fluid mixture is the mole-fraction average of those of the fluid documents, or the CODATA value when the flag Rmodel says so; a pure fluid keeps its own; the mixture value lies between the smallest and the largest; a document without gas constant, an unknown value of the flag and a composition with too many entries are refused.", "quantifier": "all compositions, gas constants and flags", "why_tests_cant": "Tests use matching sizes and valid flags.", "anchors": ["include/teqp/models/multifluid_gas_constant.hpp", "include/teqp/models/multifluid.hpp"]}
{"id": "C100", "title": "Wrapping a model keeps its properties", "statement": "A generic SAFT model with only a nonpolar part, and a multi-fluid model with an association part that contributes nothing, give the pressure of the wrapped model; with both parts the residual Helmholtz energies add; unknown kinds are refused.", "quantifier": "all documents and states", "why_tests_cant": "Tests look at the residual Helmholtz energy of one model only.", "anchors": ["include/teqp/models/saft/genericsaft.hpp", "include/teqp/models/multifluid_association.hpp"]}
{"id": "C101", "title": "Interaction data of a multi-fluid document are found the same way with and without a root folder", "statement": "A multi-fluid document with one component needs no interaction data and ignores them; with more components the entry BIP is required; data given in the document are used as they are; an empty entry loads the file below the root folder; every accepted way of naming the departure functions works with and without a root folder, and anything else is refused with the library's exception.", "quantifier": "all documents, file systems and parsers", "why_tests_cant": "Tests use a few valid documents.", "anchors": ["include/teqp/models/multifluid.hpp", "include/teqp/json_tools.hpp"]}
{"id": "C102", "title": "The GERG tables are complete and consistent", "statement": "Each version of GERG has critical data, a molar mass matching the formula, a pure-fluid equation, an ideal-gas equation for exactly its components, and reducing parameters for exactly the pairs of different components, with reciprocal beta and equal gamma when the pair is swapped; departure functions and weights do not depend on the order of the pair and exist together; arrays that are read together have equal lengths; the pairs without fitted parameters follow the linear combination rule to nine decimals; ideal-gas heat capacities are the same in both versions.", "quantifier": "both versions, all names, all pairs", "why_tests_cant": "Tests evaluate a few mixtures at a few points; a wrong number for another pair stays unnoticed.", "anchors": ["include/teqp/models/GERG/GERG.hpp"]}
{"id": "C103", "title": "The GERG ideal gas has zero enthalpy and entropy in the reference state", "statement": "For every component of every accepted list the ideal-gas enthalpy at 298.15 K is zero at every density and the entropy is zero at 101325 Pa, whatever the published integration constants are; a mixture has zero enthalpy and the ideal entropy of mixing there, including compositions with absent components, and obeys the ideal-gas law at every state; lists with a name the version does not have are refused.", "quantifier": "all lists of components, both versions, all states and compositions", "why_tests_cant": "Tests check one or two fluids at one point.", "anchors": ["include/teqp/models/GERG/GERG.hpp"]}
{"id": "C104", "title": "GERG models exist for exactly the lists of known different components and evaluate the published sum", "statement": "A list of different names of the version is accepted, directly and from JSON; a list with an unknown name, a component missing from the version or a repeated component is refused with an exception; an accepted model evaluates the multi-fluid sum: pure-fluid equations at reduced temperature and density given by the general reducing functions, plus the weighted departure functions of the pairs.", "quantifier": "all lists of names, all compositions, positive temperatures", "why_tests_cant": "Tests use a few lists.", "anchors": ["include/teqp/models/GERG/GERG.hpp", "interface/CPP/model_factory_GERG.cpp"]}
{"id": "C105", "title": "GERG mixtures have the right limits and symmetries", "statement": "A GERG mixture gives the equation of the component at pure composition, vanishes at zero density, does not depend on the order in which the components are listed, and a component with zero mole fraction can be left out.", "quantifier": "all accepted lists, permutations, compositions, states", "why_tests_cant": "Tests use specific mixtures in one order.", "anchors": ["include/teqp/models/GERG/GERG.hpp"]}
{"id": "C106", "title": "GERG models refuse a wrong number of mole fractions", "statement": "Evaluating a GERG model, residual or ideal-gas, with a number of mole fractions different from the number of components raises an exception.", "quantifier": "all models, all vectors", "why_tests_cant": "Tests use matching vectors.", "anchors": ["include/teqp/models/GERG/GERG.hpp"]}
{"id": "C107", "title": "GERG pure fluids have their critical points where the tables say", "statement": "For each component of both versions the tabulated critical temperature and density satisfy, to an accuracy stated per fluid, the two critical conditions of its equation, and the critical compressibility factor lies between 0.22 and 0.32.", "quantifier": "all components, both versions", "why_tests_cant": "Tests check a few values of pressure; the coefficients of each fluid enter.", "anchors": ["include/teqp/models/GERG/GERG.hpp"]}
{"id": "C108", "title": "SAFT-VR-Mie chain term uses exact density derivatives", "statement": "The hand-written derivatives in the SAFT-VR-Mie chain term (zeta_eff, Bhat, a1S, K_HS) are the exact derivatives of the functions they belong to, so that the first- and second-order contact values equal the published combinations with d(a1)/d(rho_s) and d(a2/(1+chi))/d(rho_s).", "quantifier": "every exponent, packing fraction below one, diameter and well depth", "why_tests_cant": "A wrong sign or factor in one derivative changes the pressure of chains by little and passes tests against stored values made with the same code.", "anchors": ["include/teqp/models/saftvrmie.hpp:472-600", "include/teqp/models/saftvrmie.hpp:642-770"]}
{"id": "C109", "title": "SAFT-VR-Mie at low density", "statement": "alphar of SAFT-VR-Mie vanishes at zero density; the contact value is one there; I and J are the integrals they stand for; the hard-sphere term is one smooth function across its zero-density branch and is Carnahan-Starling for one component; the first and second dispersion terms start with the mean field and the mean square of the Mie potential.", "quantifier": "all temperatures, compositions and exponents above three", "why_tests_cant": "The zero-density branch is only taken at exactly zero density; a jump between branches shows only in virial coefficients.", "anchors": ["include/teqp/models/saftvrmie.hpp:462-533", "include/teqp/models/saftvrmie.hpp:659-702"]}
{"id": "C110", "title": "SAFT-VR-Mie does not depend on how a mixture is written down", "statement": "With a symmetric interaction matrix, relabelling components, adding absent components, splitting a component into identical ones and the pure limit leave packing fraction and alphar unchanged, including success of the evaluation.", "quantifier": "all mixtures, compositions and states", "why_tests_cant": "Tests use one ordering of few mixtures; a wrong factor for unlike pairs cancels in pure fluids.", "anchors": ["include/teqp/models/saftvrmie.hpp:378-602"]}
{"id": "C111", "title": "Pair parameters of SAFT-VR-Mie", "statement": "Pair parameters are symmetric, reduce to the component's own values for k_ii = 0, keep the depth of the potential, and only read the interaction matrix on and above its diagonal (so that an asymmetric matrix makes the result depend on the order); exponents for which an integral divides by zero (3 or 4, or with double or sum 3 or 4) give no finite result, and a wrong number of mole fractions throws InvalidArgument.", "quantifier": "all parameters", "why_tests_cant": "Tests use symmetric or zero matrices and exponents such as 12-6.", "anchors": ["include/teqp/models/saftvrmie.hpp:106-197", "include/teqp/models/saftvrmie.hpp:395-402"]}
{"id": "C112", "title": "The temperature-dependent diameter of SAFT-VR-Mie", "statement": "Halley's iteration uses the exact residual and derivatives; the cutoff sought exists and is unique, the starting value is on its outer side, a root is a fixed point; once a cutoff is accepted the diameter lies between sigma/j and sigma so that the check d > sigma cannot fail; an exact cutoff changes the integral by at most EPS times the cutoff.", "quantifier": "all components with 3 < lambda_a < lambda_r, temperatures and machine precisions", "why_tests_cant": "The iteration is fixed to four steps and tested at a few temperatures; the bounds are inequalities for all of them.", "anchors": ["include/teqp/models/saftvrmie.hpp:288-376"]}
{"id": "C113", "title": "Building SAFT-VR-Mie models", "statement": "A model is built exactly when the interaction matrix (if given) has the size of the component list and the combining rule is known; names and nonpolar coefficients give the same model in the general and in the nonpolar class; old-style reduced moments survive the conversion to SI units; given polar moments contribute to the model.", "quantifier": "all JSON documents and coefficient lists", "why_tests_cant": "The polar branches are exercised with few complete documents.", "anchors": ["include/teqp/models/saftvrmie.hpp:775-834", "include/teqp/models/saftvrmie.hpp:981-1004", "include/teqp/models/saftvrmie.hpp:1114-1343"]}
{"id": "C114", "title": "COSMO-SAC segment activity coefficients exist, are unique and are found up to the tolerance", "statement": "For positive symmetric exchange factors and segment densities that are not negative and not all zero, the segment equation Gamma_m * sum_n exp(-dW_mn/RT) p_n Gamma_n = 1 has exactly one positive solution; get_Gamma either throws std::invalid_argument after its 501 passes or returns positive values that satisfy the equation within a relative error of (1+-tol)^2. The exchange energies are symmetric, unchanged under reversal of all charges, and have a hydrogen-bond term only for opposite charges of OH/OT segments.", "quantifier": "all temperatures, constants and profiles", "why_tests_cant": "The solution set of a system of 153 nonlinear equations and the guarantee of a stopping rule cannot be sampled.", "anchors": ["include/teqp/models/activity/COSMOSAC.hpp:127-147", "include/teqp/models/activity/COSMOSAC.hpp:149-179", "include/teqp/models/activity/COSMOSAC.hpp:203-297"]}
{"id": "C115", "title": "The window of the fast COSMO-SAC branch agrees with the slow branch only for segments inside of it", "statement": "The fast branch of get_Gamma has pass by pass the same values as the slow branch when no segment outside of the window has density, and stops no later. The window contains every entry of a non-hydrogen-bonding profile above the threshold but ignores the OH and OT profiles: densities of these outside of the window are dropped although the exact coefficients depend on them. With an entry above the threshold at the end of the grid, or with at most one such entry, the fast branch writes outside of its matrices.", "quantifier": "all profiles, areas and constants", "why_tests_cant": "Test fluids have profiles inside of the window; the out-of-bounds writes are silent without assertions.", "anchors": ["include/teqp/models/activity/COSMOSAC.hpp:88-101", "include/teqp/models/activity/COSMOSAC.hpp:164-179", "include/teqp/models/activity/COSMOSAC.hpp:254-289"]}
{"id": "C116", "title": "COSMO-SAC residual activity coefficients: pure limit, identical and split components, consistency", "statement": "A regular evaluation has a value or ends with std::invalid_argument. The residual part is zero for a pure component (also inside a mixture with zero fractions) and for mixtures of fluids with equal areas and profiles; renaming or splitting components does not change the coefficients; with exact segment coefficients and profiles whose sums are proportional to the areas, ln(gamma_k) is the derivative of the total excess energy with respect to the amount of k (Gibbs-Duhem).", "quantifier": "all models, temperatures and compositions", "why_tests_cant": "Consistency needs derivatives of an implicit solution, for all compositions.", "anchors": ["include/teqp/models/activity/COSMOSAC.hpp:104-120", "include/teqp/models/activity/COSMOSAC.hpp:303-336", "include/teqp/models/activity/COSMOSAC.hpp:397-400"]}
{"id": "C117", "title": "COSMO-SAC combinatorial part is the derivative of the Staverman-Guggenheim expression", "statement": "For fractions that sum to one, calc_lngamma_comb returns the derivatives of the Staverman-Guggenheim expression of the total amounts with respect to each amount, their mean is that expression, a pure component has the value zero; for positive areas, volumes and fractions there is a value, and a wrong number of fractions is refused.", "quantifier": "all areas, volumes and compositions", "why_tests_cant": "A derivative identity for any number of components.", "anchors": ["include/teqp/models/activity/COSMOSAC.hpp:347-362"]}
{"id": "C118", "title": "COSMO-SAC documents: constants, unused grid and sizes", "statement": "A document without constants gives the published constants and the fast branch; only A_ES, B_ES and fast_Gamma can be changed by a document; the charge densities of the profiles are read but never used; areas and volumes are those of the document and there are at least as many areas as profiles, otherwise the constructor reads past the end of an array.", "quantifier": "all documents", "why_tests_cant": "All documents cannot be enumerated; the unused grid is invisible when it is the standard one.", "anchors": ["include/teqp/models/activity/activity_models.hpp:146-194", "include/teqp/models/activity/COSMOSAC.hpp:17-62", "include/teqp/models/activity/COSMOSAC.hpp:80-101"]}
{"id": "C119", "title": "Peng-Robinson with excess-energy mixing rules: limits and the Huron-Vidal identity", "statement": "The covolume is the average of the powers 1/s (or the linear average), with s=1 and no interaction the two agree, and the value is that of the component in the pure limit for every s; the pressure is the Peng-Robinson pressure with the mixture parameters; a pure component inside a mixture has the Helmholtz energy of the plain Peng-Robinson equation if the excess model vanishes there; with the default constant the attractive part at close packing in excess of that of the components is exactly the excess energy of the activity-coefficient model.", "quantifier": "all parameters, temperatures, densities below close packing and compositions", "why_tests_cant": "Identities for all exponents, numbers of components and activity models.", "anchors": ["include/teqp/models/cubics.hpp: AdvancedPRaEres"]}
{"id": "C120", "title": "Documents for the model with excess-energy mixing rules", "statement": "A document gives a model only for exactly two components (the interaction matrix is always the two-by-two zero matrix), only with the Wilson model; the covolumes of the Wilson model use a fixed gas constant whatever the options say, which has no effect since the Wilson model does not depend on the scale of the covolumes; an unknown mixing rule is accepted and refused at evaluation; compositions of the wrong length are refused.", "quantifier": "all documents and compositions", "why_tests_cant": "The restriction to two components is invisible in the tests, which use binaries.", "anchors": ["include/teqp/models/cubics.hpp: make_AdvancedPRaEres, from_json, AdvancedPRaEres::alphar"]}
{"id": "C121", "title": "Saturated densities of cubic equations follow from the reduced tables", "statement": "A cubic equation depends only on RTb/a and b*rho; two densities are in equilibrium exactly if the reduced ones are, so superanc_rhoLV returns equilibrium densities whenever the tables do; for mixtures the number of a component has to be given and has to exist, and the densities are those of that component; an equation without tables returns -1/b for both densities instead of an error.", "quantifier": "all cubic equations, temperatures and components", "why_tests_cant": "An equivalence over all parameters and temperatures.", "anchors": ["include/teqp/models/cubics.hpp: superanc_rhoLV", "include/teqp/models/cubicsuperancillary.hpp: supercubic"]}
{"id": "C122", "title": "Generalised cubics from documents", "statement": "A document without alpha functions gives the plain Peng-Robinson or Soave-Redlich-Kwong model with the constant of CODATA 2017; any other type, alpha functions that are not an array and a wrong number of them are refused; too few acentric factors read past the end of an array.", "quantifier": "all documents", "why_tests_cant": "All documents cannot be enumerated.", "anchors": ["include/teqp/models/cubics.hpp: make_generalizedcubic, build_alpha_functions"]}
{"id": "C123", "title": "Documents built for a fit contain the parameters where the pointers say", "statement": "build_JSON refuses a parameter vector whose length is not the number of pointer groups; when the pointers name disjoint existing entries every named entry holds its parameter and every other entry is unchanged; a pointer to a missing entry raises the JSON library's exception; if two pointers name the same entry the later one wins silently.", "quantifier": "all documents, pointer groups and parameter vectors", "why_tests_cant": "All documents and pointers cannot be enumerated.", "anchors": ["include/teqp/algorithms/pure_param_optimization.hpp: PureParameterOptimizer::build_JSON, prepare_helper_models"]}
{"id": "C124", "title": "Accepted data points never meet a missing field", "statement": "add_one appends a point exactly when all its optional fields are set and otherwise raises InvalidArgument; hence evaluating the cost of any optimizer whose points were accepted raises no bad_optional_access, and with a saturation solver that raises nothing the cost functions return a number.", "quantifier": "all sequences of points and all models", "why_tests_cant": "An invariant over all sequences of calls.", "anchors": ["include/teqp/algorithms/pure_param_optimization.hpp: PureParameterOptimizer::add_one, check_fields, calculate_contribution"]}
{"id": "C125", "title": "Contributions of a fit vanish exactly for a model that reproduces the datum", "statement": "The PVT contribution is the weighted relative Newton step in density, non-negative, and zero exactly if the model's pressure is the measured one; the saturation contributions are non-negative and zero exactly if liquid density, pressure and speed of sound agree; a term with zero weight is dropped in the three-term point even if it is not finite, but not in the two-term point.", "quantifier": "all Helmholtz models, states, measured values and weights", "why_tests_cant": "An equivalence over all models and states.", "anchors": ["include/teqp/algorithms/pure_param_optimization.hpp: PVTNoniterativePoint, SatRhoLPoint, SatRhoLPPoint, SatRhoLPWPoint"]}
{"id": "C126", "title": "The speed of sound of the fit is the isentropic one", "statement": "M w^2 computed from Ao20, Ar01, Ar02, Ar11, Ar20 equals the derivative of the pressure with respect to the mass density along any curve of states of constant entropy, with the entropy and the pressure taken from the Helmholtz energy.", "quantifier": "all twice differentiable Helmholtz energies, states and isentropes", "why_tests_cant": "The identity holds for every model; tests compare numbers of a few fluids.", "anchors": ["include/teqp/algorithms/pure_param_optimization.hpp: SatRhoLPWPoint::calculate_contribution, SOSPoint::calculate_contribution"]}
{"id": "C127", "title": "The density used for a speed-of-sound datum has the measured pressure", "statement": "The iteration of the speed-of-sound point ends at a density whose pressure is the measured one to one part in 1e12. False of the code: the stopping test compares Newton's correction with the density instead of with zero, so it also stops where the correction equals the density, and after ten steps without any test; a model that reproduces the measurement exactly is charged a cost.", "quantifier": "all models, measured pressures and guesses", "why_tests_cant": "The wrong stop happens on a thin set of inputs.", "anchors": ["include/teqp/algorithms/pure_param_optimization.hpp: SOSPoint::calculate_contribution"]}
{"id": "C128", "title": "Sequential and threaded cost functions agree", "statement": "cost_function and cost_function_threaded return the same value whatever the order in which the threads run. True when all contributions are finite; with k contributions that are not finite the first returns 1e30 and the second the sum of the finite ones plus k times 1e30; an exception of a contribution reaches the caller of the first but ends the program in the second.", "quantifier": "all optimizers, parameters and thread schedules", "why_tests_cant": "All schedules cannot be tried.", "anchors": ["include/teqp/algorithms/pure_param_optimization.hpp: PureParameterOptimizer::cost_function, cost_function_threaded"]}
{"id": "C129", "title": "Fitted ancillaries return the data they were fitted to", "statement": "build_ancillaries turns the solution of its least-squares problem into curves that return, at the temperature of a stored point, the stored liquid density, vapour density and pressure whenever the solution meets the equations of that point; the verification step does not change the result; absent flags give verify = true, 1000 points and 0.01.", "quantifier": "all stored points and solutions of the least-squares problem", "why_tests_cant": "The statement is about the form of the fit, for all data.", "anchors": ["include/teqp/algorithms/ancillary_builder.hpp: build_ancillaries", "include/teqp/ancillary.hpp: VLEAncillary"]}
{"id": "C130", "title": "Ancillaries are fitted to saturated states between Tmin and the critical temperature", "statement": "Every stored point is a saturated state at a temperature in [Tmin, Tc]. False of the code: the densities are advanced by dT along the tangent before they are stored, so a stored density is off by at most M dT^2 and differs from the saturated one wherever the curve bends; saturation is solved down to Tmin - theta Tc, below the limit asked for; with few points a stored temperature is above the critical one and the call is refused, or fits roots of negative numbers.", "quantifier": "all saturation curves, limits and numbers of points", "why_tests_cant": "The error is small for the default 1000 points, so tolerances hide it.", "anchors": ["include/teqp/algorithms/ancillary_builder.hpp: build_ancillaries"]}
{"id": "C131", "title": "Access to the model behind the interface", "statement": "get_model_cref returns the held model exactly if its class is the one asked for and raises InvalidArgument otherwise and for a null pointer; an owned model does not depend on the original, a view follows it and must not outlive it; get_model_ref gives mutable access to owned models. The last is false of the code: own() deduces Owner<const T> while get_model_ref looks for Owner<T>, so mutable access is always refused and set_meta fails for every model in Python.", "quantifier": "all model classes, models and holders", "why_tests_cant": "Class deduction decides; no test calls set_meta.", "anchors": ["include/teqp/cpp/deriv_adapter.hpp: own, view, make_owned, make_cview, get_model_cref, get_model_ref", "interface/pybind11_wrapper.cpp: get_typed, get_mutable_typed, attach_multifluid_methods"]}
{"id": "C132", "title": "The index given to build_ancillaries in Python is checked", "statement": "An index 0 <= i < N selects that fluid, any other is refused with InvalidArgument, and without an index only a pure fluid is accepted. False for negative indices: the size is a signed number, -1 passes the test and has undefined behaviour, smaller indices ask for an array that cannot be allocated.", "quantifier": "all indices and numbers of fluids", "why_tests_cant": "Depends on the signedness of a type; tests use valid indices.", "anchors": ["interface/pybind11_wrapper.cpp: build_ancillaries"]}
{"id": "C133", "title": "Constants of SAFT-VR-Mie and its hard-sphere radial distribution function", "statement": "The functions f_k and the effective packing fraction are those of the publication for every argument; the radial distribution function of the hard-sphere reference is exact to first order in the density at every distance, and its value and slope at contact are those of Boublik's function for every packing fraction below one.", "quantifier": "all exponents, distances and packing fractions", "why_tests_cant": "A wrong digit of a table changes results by less than test tolerances.", "anchors": ["include/teqp/models/saftvrmie.hpp: phi, get_fkij, get_cij, gdHSii"]}
{"id": "C134", "title": "The Lennard-Jones fluid of Thol et al. is the published equation and has its critical point", "statement": "The model of kind LJ126_TholJPCRD2016 is built from its embedded document without error; its gas constant is one; for all positive temperatures and densities its residual Helmholtz energy is the published sum of 23 terms with reducing state T* = 1.32, rho* = 0.31, and it is zero at zero density. At T* = 1.32, rho* = 0.31 the pressure is the published 0.13006 and its first two density derivatives vanish to the accuracy of the coefficients.", "quantifier": "For all temperatures and densities (value); at the published critical point (pressure and derivatives).", "why_tests_cant": "A test compares single states with stored numbers of the same code; a wrong digit in one of 23 terms or a misplaced column changes them by amounts that look plausible. The critical conditions are a check against the physics that the table was fitted to, and the value statement covers every state.", "anchors": ["include/teqp/models/mie/lennardjones.hpp: build_LJ126_TholJPCRD2016", "include/teqp/models/multifluid.hpp: build_multifluid_JSONstr, get_EOS_terms, _build_multifluid_model", "include/teqp/json_builder.hpp: LJ126_TholJPCRD2016"]}
{"id": "C135", "title": "Polishing of critical points", "statement": "For a binary model the polishers of trace_critical_arclength_binary return states at which the two criticality conditions hold: critical_polish_fixedmolefrac keeps the mole fraction it is given, critical_polish_fixedT the temperature, critical_polish_fixedrho the chosen concentration; a state that already fulfils the conditions is returned unchanged by each of them; and a result that is not finite is refused with std::invalid_argument.", "quantifier": "all models, temperatures, concentrations, starting states and linear solvers that return solutions", "why_tests_cant": "The conditions are evaluated one step before the state returned, and whether a polisher keeps its constraint exactly depends on every Newton step; a test sees a handful of converged cases and never a temperature that is not finite.", "anchors": ["include/teqp/algorithms/critical_tracing.hpp:critical_polish_fixedmolefrac", "include/teqp/algorithms/critical_tracing.hpp:critical_polish_fixedrho", "include/teqp/algorithms/critical_tracing.hpp:critical_polish_fixedT", "include/teqp/algorithms/rootfinding.hpp:NewtonRaphson"]}
{"id": "C136", "title": "Mutants are what their documents say", "statement": "A model from build_multifluid_mutant keeps the pure fluids and gas constants of its base, takes for every pair i<k the weight Fij, the departure function and the parameters of the reducing function from the entry of that pair in the document (in both orders, zero for a component and itself), and reads nothing else; documents with all entries are accepted, a document that repeats the parameters of the base gives the residual Helmholtz energy of the base, and a document without an entry is refused.", "quantifier": "all base models with any number of components, all critical parameters, all documents, all temperatures, densities and compositions", "why_tests_cant": "The tests mutate two or three binary mixtures with complete documents; an entry in the other order, a missing pair, a single component or mixed types of reducing functions are never tried.", "anchors": ["include/teqp/models/multifluid_mutant.hpp: build_multifluid_mutant, MultiFluidAdapter::get_BIP"]}
{"id": "C137", "title": "Extended-precision density derivatives agree with automatic differentiation", "statement": "For N = 1, 2, 3 and every model that is smooth near the state, get_Ar0Nep(T, rho, z) equals get_Ar0N(T, rho, z) up to 1e-64 rho^(N+4) times the largest (N+4)-th density derivative within 4e-16 rho of the density; at zero density get_Ar0N is zero but get_Ar0Nep is 0/0.", "quantifier": "all models smooth in the density, all temperatures, all densities", "why_tests_cant": "The error bound is a statement about every smooth model; tests compare a few states to a tolerance of the double type and never use zero density.", "anchors": ["include/teqp/cpp/deriv_adapter.hpp:get_Ar01ep", "include/teqp/cpp/deriv_adapter.hpp:get_Ar02ep", "include/teqp/cpp/deriv_adapter.hpp:get_Ar03ep", "include/teqp/math/finite_derivs.hpp:centered_diff"]}
{"id": "C138", "title": "Departure functions and fluids are found by name, alias and path", "statement": "get_departure_json(name, path) returns the first entry of that name, otherwise the first entry with that alias, and throws std::invalid_argument for an unknown name when every entry has a name and aliases; what it returns always carries the name or has it as alias.  collect_component_json returns one document per component in order, from the file of that path or else from dev/fluids below the root, and throws std::invalid_argument if one component is in neither place.", "quantifier": "all collections, names, file systems and lists of components", "why_tests_cant": "Tests look up one departure function and a few fluids that exist; precedence of names over aliases, order and the error cases are not exercised.", "anchors": ["include/teqp/models/multifluid.hpp:get_departure_json", "include/teqp/models/multifluid.hpp:collect_component_json"]}
{"id": "C139", "title": "Association strengths by the Dufal rule", "statement": "For the Dufal rule the association strength of two sites on components i and j equals (exp(eps_HB,ij/(kB T)) - 1) K_HB,ij I(T*, rho*, lambda_r,ij) with the published combining rules, where I is the full polynomial of the seven built-in coefficient tables; it is computed for pure fluids and for mixtures, and a pure fluid gets its own parameters back.", "quantifier": "all parameter sets, numbers of components, sites, temperatures, densities and compositions", "why_tests_cant": "Mixtures need combined parameters kept in one-column arrays that are resized to N x N and then copied; whether a test notices depends on what happens to be in memory.", "anchors": ["include/teqp/models/association/association_types.hpp: DufalData, apply_mixing_rules", "include/teqp/models/association/association.hpp: get_Delta, get_I_Dufal", "src/data/Dufal_assoc.cpp: bcoeffs"]}
{"id": "C140", "title": "The association factory reads every parameter from its own key", "statement": "A model built by Association::factory holds the arrays of the documented keys, one site entry per kind of site of every molecule with its multiplicity, the partner table checked against the site names, and the options given; the Dufal rule takes its dispersion energies in J/mol or else in kelvins times the gas constant and is refused with neither; a missing or unknown Delta_rule is refused with std::invalid_argument, and site names that are not strings are refused by the JSON library.", "quantifier": "all JSON documents", "why_tests_cant": "All documents, including keys that are absent, of another type or misspelt.", "anchors": ["include/teqp/models/association/association.hpp: Association::factory, get_association_options, toEig"]}
{"id": "C141", "title": "The association part of CPA is built from the entries of the document", "statement": "A CPA model built from a document holds for each component, in the order of the document, the association energy, volume and covolume given under their documented names, the covolume of the cubic part, the sites of its scheme or its own list of sites; a table of interaction partners of the wrong type is refused.", "quantifier": "all JSON documents", "why_tests_cant": "All documents.", "anchors": ["include/teqp/models/CPA.hpp: CPAfactory", "include/teqp/models/association/association.hpp: get_interaction_partners"]}
{"id": "C142", "title": "The gas constant of a CPA document governs the association part", "statement": "The association part of a CPA model evaluates with the gas constant given in the document, so that describing a pure fluid by its scheme or by its sites gives the same result.", "quantifier": "all gas constants, parameters, temperatures and densities", "why_tests_cant": "All gas constants and states.", "anchors": ["include/teqp/models/CPA.hpp: CPAfactory, CPAAssociation", "include/teqp/models/association/association.hpp: Association::get_Delta"]}
{"id": "C143", "title": "Every row of a table of correlation coefficients is served", "statement": "For each of the six coefficient tables of the correlation integrals, constructing an integral with a key that the table lists gives exactly the row listed for it, every row is given by some key, and any other key is refused with std::out_of_range (numbers outside 222..999 with InvalidArgument in Gottschalk's K).", "quantifier": "all keys, all rows of the six tables", "why_tests_cant": "A test constructs a handful of n; a row under a repeated key is silently dropped by std::map and the missing n is only noticed by somebody who asks for it. (False for Gubbins and Twu's J: the rows at the places of 25 to 29 are labelled 15 to 19 a second time, so that n = 25..29 are refused and the five rows are never used.)", "anchors": ["include/teqp/models/saft/correlation_integrals.hpp: GubbinsTwu_J_coeffs, Luckas_J_coeffs, Gottschalk_K_coeffs, GubbinsTwuJIntegral, GottschalkKIntegral::int2key"]}
{"id": "C144", "title": "Every multipolar contribution can be built from every family of integrals", "statement": "The ten members J6, J8, J10, J11, J13, J15, K222_333, K233_344, K334_445 and K444_555 of the multipolar contributions can be constructed from the correlations of Luckas, of Gubbins and Twu and of Gottschalk; the coefficients of Gottschalk are read in the order in which the matrices are listed, each once and none beyond the end of the array.", "quantifier": "all three families; all coefficient matrices; all temperatures and densities", "why_tests_cant": "The constructions are spread over six template instances, of which tests use some; a wrong stride in a loop over 35 or 40 coefficients gives plausible numbers.", "anchors": ["include/teqp/models/saft/correlation_integrals.hpp: GottschalkJIntegral::get_J, GottschalkKIntegral::get_K", "include/teqp/models/saft/polar_terms.hpp: MultipolarContributionGubbinsTwu, MultipolarContributionGrayGubbins"]}
{"id": "C145", "title": "Luckas's J is continuous from zero density on", "statement": "At any positive reduced temperature LuckasJIntegral::get_J is a continuous function of the reduced density on [0, inf), although its formula takes the logarithm of zero at zero density and divides by zero at rhostar = sqrt(2); its value at zero density is the polynomial part times exp(1/Tstar).", "quantifier": "all coefficient rows, all Tstar > 0, all rhostar >= 0", "why_tests_cant": "Tests evaluate at a few densities away from the two exceptional points.", "anchors": ["include/teqp/models/saft/correlation_integrals.hpp: LuckasJIntegral::get_J, differentiable_abs"]}
{"id": "C146", "title": "The J integrals are log-convex in n", "statement": "Integrals of r^(2-n) against a radial distribution function satisfy J(n)^2 <= J(n-1) J(n+1); so should the correlation of Gubbins and Twu at liquid-like states.", "quantifier": "all n with neighbours in the table; 0.7 <= Tstar <= 7, 0 <= rhostar <= 1", "why_tests_cant": "A mistyped digit in one coefficient of one of 33 rows changes J by a few per cent to a third; tests compare n < 16 at one state. (False: the coefficient A of the rows of 17 (-0.994998) and of 30 (-1.683352) breaks the inequality at n = 16, 18 and 31; it holds for all other n.)", "anchors": ["include/teqp/models/saft/correlation_integrals.hpp: GubbinsTwu_J_coeffs, GubbinsTwuJIntegral::get_J"]}
{"id": "C147", "title": "The temperature dependence of K is that of the integral in every family", "statement": "The correlations of one and the same integral K(222, 333) agree within the margin of the tests (half of the value) at any reduced temperature, and fall with rising temperature at zero density.", "quantifier": "all Tstar > 0 (zero density), all rhostar at Tstar = 1", "why_tests_cant": "The tests compare the families at Tstar = 1.095 only, and Luckas's at 1.0. (False of Luckas's K: the code has exp((1-rhostar/sqrt(2))^4) where the temperature should divide the exponent; the two forms coincide at Tstar = 1 only, at Tstar = 4 and zero density the value is three times too large.)", "anchors": ["include/teqp/models/saft/correlation_integrals.hpp: LuckasKIntegral::get_K, GubbinsTwuKIntegral::get_K"]}
{"id": "C148", "title": "The contribution of Gubbins and Twu to a polar mixture is a negative number", "statement": "For any mixture with some of a polar component, at any positive temperature and density, the second-order term is negative, the third-order term not negative, the denominator of the Pade approximant at least one and the contribution a number between the second-order term and zero, provided the integrals have the signs that the cube roots of get_Kijk presuppose; the integrals that the code builds have these signs.", "quantifier": "all component numbers, compositions, diameters, energies, moments; all T > 0, rho > 0; integrals of Gubbins and Twu", "why_tests_cant": "Tests evaluate single states; the sign of a sum over all triples of components for all parameters cannot be sampled. (The signs hold for Gubbins and Twu's correlations; Luckas's K(222, 333) turns negative, e.g. at Tstar = 200 and rhostar = 1/2, where the cube root is not a number.)", "anchors": ["include/teqp/models/saft/polar_terms.hpp: MultipolarContributionGubbinsTwu::eval, get_Kijk, get_Kijk_334445", "include/teqp/models/saft/correlation_integrals.hpp: GubbinsTwuKIntegral, LuckasKIntegral"]}
{"id": "C149", "title": "The three families of integrals agree at a reduced temperature of one in the limit of zero density", "statement": "The J of Luckas and of Gottschalk for n = 6, 8, 10, 11, 13, 15 are within 0.05 of Gubbins and Twu's, and the K for (222,333), (233,344), (334,445), (444,555) within half of Luckas's value, at Tstar = 1 and rhostar = 0 (the margins of the tests, which use two other states).", "quantifier": "the ten integrals of the multipolar terms, three families", "why_tests_cant": "The tests compare at Tstar = 2, rhostar = 0.4 and Tstar = 1.095, rhostar = 0.88; zero density, where Luckas's formula takes the logarithm of zero, is not tested.", "anchors": ["include/teqp/models/saft/correlation_integrals.hpp: LuckasJIntegral, GubbinsTwuJIntegral, GottschalkJIntegral, LuckasKIntegral, GubbinsTwuKIntegral, GottschalkKIntegral"]}
{"id": "C150", "title": "Quantum-corrected Peng-Robinson and RK-PR models evaluate inside their arrays", "statement": "A document of kind QCPRAasen or RKPRCismondi2005 whose arrays and matrices do not fit the number of components is refused when the model is made; otherwise every composition of that size is evaluated with the parameters of the document and other sizes are refused.", "quantifier": "all documents, compositions, temperatures and densities", "why_tests_cant": "The tests build one document of each kind with matching arrays; reading past the end of an array usually returns some number.", "anchors": ["include/teqp/models/cubics.hpp: QuantumCorrectedPR, build_alphas, get_ab, get_c, RKPRCismondi2005, build_ac, build_bc"]}
{"id": "C151", "title": "Virial coefficients of the quantum-corrected Peng-Robinson model are the slopes at zero density", "statement": "get_Bnvir(2, T, z)[2] of a quantum-corrected Peng-Robinson model is the slope b - a/(RT) of alphar at zero density; the covolume has its critical value at the critical temperature and falls with rising temperature.", "quantifier": "all parameters, temperatures and compositions", "why_tests_cant": "The tests check only get_B12vir, which uses a complex step at a density that is not zero.", "anchors": ["include/teqp/models/cubics.hpp: QuantumCorrectedPR::alphar, get_bi", "include/teqp/derivs.hpp: VirialDerivatives::get_Bnvir"]}
{"id": "C152", "title": "Saturated densities of the quantum-corrected Peng-Robinson model up to its critical temperature", "statement": "superanc_rhoLV returns the saturated densities of the superancillary of Peng-Robinson at RTb/a for a pure fluid at every temperature up to the critical one, and for the chosen component of a mixture.", "quantifier": "all pure fluids with the Twu alpha function, all temperatures, the shipped tables", "why_tests_cant": "No test calls it for this model; the branch for mixtures is never reached and the range ends 0.005 percent below the critical temperature.", "anchors": ["include/teqp/models/cubics.hpp: QuantumCorrectedPR::superanc_rhoLV", "include/teqp/models/cubicsuperancillary.hpp: supercubic"]}
{"id": "C153", "title": "A polarizable multipolar term uses self-consistent dipole moments", "statement": "With polarizabilities the multipolar term of Gray and Gubbins is evaluated with effective dipole moments that satisfy mu' = mu + alpha*E'(mu'), where E' = -kT d(alpha_perturb)/d(mu'); with all polarizabilities zero it equals the term without polarizability, and for a polarizable fluid without permanent moments it is zero.", "quantifier": "all parameters, temperatures, densities and compositions", "why_tests_cant": "Tests check a few numbers of one fluid; whether ten substitutions suffice and what happens for non-polar polarizable fluids depends on the parameters.", "anchors": ["include/teqp/models/saft/polar_terms.hpp: MultipolarContributionGrayGubbins::get_Eprime, iterate_muprime_SS, eval"]}
{"id": "C154", "title": "Departure functions are what their documents say", "statement": "A departure document is dispatched by its type, unknown types are refused, and a Chebyshev2D document with degrees Ntau and Ndelta and (Ntau+1)(Ndelta+1) coefficients gives a polynomial of degree at most Ntau in tau and at most Ndelta in delta which, as a contribution to the residual Helmholtz energy, vanishes at zero density.", "quantifier": "all documents, temperatures and densities", "why_tests_cant": "The only test document has equal degrees and no test evaluates at zero density.", "anchors": ["include/teqp/models/multifluid.hpp: build_departure_function, build_Chebyshev2D", "include/teqp/models/multifluid_eosterms.hpp: Chebyshev2DEOSTerm"]}
{"id": "C155", "title": "A document that passes validation is answered", "statement": "When build_model_ptr is called with validation, the user gets a model or one of the exceptions with which teqp explains a wrong value; no exception of the JSON library escapes and no array is read beyond its end.", "quantifier": "For every document given as model of a kind that has a schema, and every table of factory functions that holds the built-in function of that kind.", "why_tests_cant": "The documents form an infinite set; tests use well-formed documents or documents that the schema refuses, not ones that the schema admits and the factory cannot read.", "anchors": ["dev/model_schemas.tar.xz:model_schemas.json", "interface/CPP/teqp_impl_factory.cpp:build_model_ptr", "include/teqp/json_tools.hpp:JSONValidator", "include/teqp/models/cubics.hpp:make_generalizedcubic", "include/teqp/models/pcsaft.hpp:PCSAFTfactory", "include/teqp/models/saftvrmie.hpp:SAFTVRMiefactory", "include/teqp/models/CPA.hpp:CPAfactory", "include/teqp/ideal_eosterms.hpp:PureIdealHelmholtz"]}
{"id": "C156", "title": "Validation refuses no document that the factory understands", "statement": "If the factory function of a kind turns a document into a model and the document has only keys that the function reads, then the call with validation succeeds too.", "quantifier": "For every kind with a schema and every document in which no key occurs twice.", "why_tests_cant": "Schemas and factory functions live in different files, one of them in an archive; a test would have to enumerate every form that a factory function accepts.", "anchors": ["dev/model_schemas.tar.xz:model_schemas.json", "interface/CPP/teqp_impl_factory.cpp:build_model_ptr", "interface/CPP/model_factory_model_potentials.cpp", "include/teqp/models/cubics.hpp:make_canonicalPR", "include/teqp/models/CPA.hpp:CPAfactory", "include/teqp/models/saftvrmie.hpp:SAFTVRMiefactory"]}
{"id": "C157", "title": "Converted ideal-gas documents pass validation", "statement": "The document that convert_CoolProp_idealgas makes from the ideal-gas part of a fluid file is admitted by the schema of IdealHelmholtz, and the call with validation builds the terms that it describes.", "quantifier": "For every list of terms in the CoolProp format that the conversion accepts and whose heat capacities are not strings, and all reducing parameters and gas constants.", "why_tests_cant": "The conversion has ten branches with arrays of any length; tests convert the fluids of the collection only and do not combine the result with validation.", "anchors": ["include/teqp/ideal_eosterms.hpp:convert_CoolProp_idealgas", "include/teqp/ideal_eosterms.hpp:CoolProp2teqp_alphaig_term_reformatter", "include/teqp/ideal_eosterms.hpp:PureIdealHelmholtz", "dev/model_schemas.tar.xz:model_schemas.json"]}
{"id": "C158", "title": "A multi-fluid document becomes the mixture it describes, or is refused", "statement": "If the documents of the fluids hold the fields that are read (identifiers, reducing state with a density other than zero, gas constant, terms), the entries of the collections have fields of the right types, and a scheme among the flags is a string, then the model is the mixture of exactly these data, with the first kind of identifier (CAS number, name, REFPROP name, hash) for which all pairs are found, or the exception is the one of those data; the pure limit is the fluid of the document with its gas constant; another order of the fluid documents gives the same Helmholtz energy; a single fluid needs no binary documents. Documents of any other form should be refused by an exception. This fails: a fluid without the fields EOS, STATES, reducing or alphar, or with an empty list of equations of state, and a departure function of the combined kinds without Npower, are read through constant look-ups of absent keys (undefined behaviour); a density of zero gives an infinite volume.", "quantifier": "all numbers of fluids, all documents, flags and collections, all special terms, all states", "why_tests_cant": "Tests build a few mixtures from the shipped files; they never feed documents with absent keys, and compare few orders.", "anchors": ["include/teqp/models/multifluid.hpp:_build_multifluid_model", "include/teqp/models/multifluid.hpp:get_EOS_terms", "include/teqp/models/multifluid.hpp:get_departure_function_matrix", "include/teqp/models/multifluid.hpp:build_departure_function", "include/teqp/models/multifluid.hpp:collect_identifiers", "include/teqp/models/multifluid.hpp:select_identifier", "include/teqp/models/multifluid_reducing.hpp:get_Tcvc", "include/teqp/models/multifluid_reducing.hpp:get_BIPdep"]}
{"id": "C159", "title": "The ways to ask for a multi-fluid mixture agree", "statement": "build_multifluid_model(components, root, BIP, flags, departure) and multifluidfactory of the document with these fields have the same outcome when a root is given; multifluidfactory of a document that holds fluids and collections has the same outcome as build_multifluid_JSONstr of their texts. Without a root, what build_multifluid_model builds from departure functions that are given is also built from the document; but an empty departure argument, which build_multifluid_model takes from the default file, is refused in the document.", "quantifier": "all file systems, parsers, component lists, paths and flags", "why_tests_cant": "The interfaces are tested separately with the shipped files, never against each other with an empty root.", "anchors": ["include/teqp/models/multifluid.hpp:build_multifluid_model", "include/teqp/models/multifluid.hpp:build_multifluid_JSONstr", "include/teqp/models/multifluid.hpp:multifluidfactory", "include/teqp/models/multifluid.hpp:make_pure_components_JSON", "include/teqp/json_tools.hpp:multilevel_JSON_load"]}
{"id": "C160", "title": "The association report holds what alphar uses", "statement": "get_assoc_calcs of an association model reports, for the right number of mole fractions, the sites, multiplicities, strengths and fractions that alphar uses: the Helmholtz energy computed from the report is the value of alphar, to_siteid inverts to_CompSite, and the reported fractions satisfy the law of mass action with the reported D and Delta; another number of mole fractions is refused as in alphar.", "quantifier": "all models built by the CR1 or Dufal rule and the older CPA class, all states and compositions", "why_tests_cant": "The report is only printed by notebooks; no test recomputes alphar from it or calls it with another number of mole fractions.", "anchors": ["include/teqp/models/association/association.hpp: Association::get_assoc_calcs, successive_substitution, alphar", "include/teqp/models/CPA.hpp: CPAAssociation::get_assoc_calcs, AssociationVariantWrapper::get_assoc_calcs"]}
{"id": "C161", "title": "The SAFT-VR-Mie report holds the numbers that alphar uses", "statement": "For the nonpolar SAFT-VR-Mie mixture, get_core_calcs(T, rho, z) succeeds exactly where alphar(T, rho, z) does, and alphar is the sum of the reported alphar_mono and alphar_chain; zeta[3] is the packing fraction handed to the polar terms; a number of mole fractions other than the number of components is refused with InvalidArgument. The fields belong together: mbar is the mean number of segments, xs sum to one, rhos is the number of segments per cubic Angstrom, zeta[l] is pi/6 rhos sum xs d^l, zeta_x and zeta_x_bar are the double sums over dmat and sigma_ij, dmat is the arithmetic mean of its diagonal and does not exceed sigma_ij, and at non-zero density alphar_mono is mbar (a_HS(zeta, rhos) + a1kB/T + a2kB2/T^2 + a3kB3/T^3). For a pure fluid zeta_x is zeta[3]. A density at which the calculation succeeds has a neighbourhood in which it does.", "quantifier": "all mixtures, T, rho and mole fraction arrays", "why_tests_cant": "tests compare single entries of the report with recorded numbers at a few states", "anchors": ["include/teqp/models/saftvrmie.hpp:SAFTVRMieChainContributionTerms::get_core_calcs", "include/teqp/models/saftvrmie.hpp:SAFTVRMieNonpolarMixture::get_core_calcs", "include/teqp/models/saftvrmie.hpp:SAFTVRMieMixture::get_core_calcs"]}
{"id": "C162", "title": "The numerical Jacobian of the phase-equilibrium system is a central difference, but leaves the buffers elsewhere", "statement": "GeneralizedPhaseEquilibrium.num_Jacobian(x, dx) returns the matrix of central difference quotients of the residuals, with step dx[i] or 1e-6 where dx[i] is zero; it succeeds when call does at x and at every shifted state; a vector x of another size is refused with InvalidArgument. Where the Jacobian of call is exact (C46), the numerical one tends to it as dx is scaled down, whatever the proportions; the row of the sum of phase fractions is exact for every dx. The analogues for the remaining behaviour are false: a dx that is too short is read beyond its end; for two phases of a pure fluid the two Jacobians disagree for every dx; and after the call the buffers res.r and res.J hold the system at x with the last unknown lowered by its step instead of the system at x.", "quantifier": "all models, states, step vectors and specifications", "why_tests_cant": "tests compare the two matrices at a few states with fixed steps and never look at the buffers afterwards", "anchors": ["include/teqp/algorithms/phase_equil.hpp:GeneralizedPhaseEquilibrium::num_Jacobian", "include/teqp/algorithms/phase_equil.hpp:GeneralizedPhaseEquilibrium::call"]}
{"id": "C163", "title": "Every coefficient table is the table of the source", "statement": "For each numeric table of the models (the GERG-2004 and GERG-2008 critical data, ideal-gas coefficients, pure-fluid and departure coefficients, reducing parameters and F_ij; the correlation integrals of Luckas and of Gubbins and Twu; the universal constants of PC-SAFT and SAFT-VR-Mie; the Gross-Vrabec, Johnson, Kolafa-Nezbeda, LJ-chain, exp-6, Mie, square-well, two-centre, ammonia-water, LKP, Dufal and Thol coefficients; the PC-SAFT and SAFT-VR-Mie fluid libraries) the number of entries, their exact sum and their position-weighted sum equal those of the numbers in the C++ text. A table in which one entry is altered, two different entries are exchanged or an entry is missing cannot have the same three numbers.", "quantifier": "all the entries of all the tables; all lists over an ordered field for the detection", "why_tests_cant": "a test evaluates a model at a few states and compares to a tolerance; a wrong digit in a small coefficient, or a row of the 4140 entries of one table that the test does not select, is not visible", "anchors": ["include/teqp/models/GERG/GERG.hpp:GERG2004::get_pure_info", "include/teqp/models/GERG/GERG.hpp:GERG2008::get_betasgammas", "include/teqp/models/saft/correlation_integrals.hpp:Gottschalk_K_coeffs", "include/teqp/models/saft/correlation_integrals.hpp:Luckas_J_coeffs", "src/data/PCSAFT.cpp:GrossSadowski2001::a", "src/data/Dufal_assoc.cpp:b_0", "include/teqp/models/model_potentials/2center_ljf.hpp:p_alpha", "include/teqp/models/model_potentials/exp6.hpp:Kataoka1992"]}
{"id": "C164", "title": "A JSON value is read exactly when it has the right kind", "statement": "Every conversion used by the factories succeeds exactly on the documents of its kind (number, truth value, text, array of numbers, array of arrays, array of texts, map of arrays of texts), gives back what was written there, and raises a JSON error on every other document; it never reads past anything. A required member (j.at(key)) is read exactly from objects with that member in the right form. An optional member (j.value(key, default)) takes the default only when the key is missing from an object: a member of another kind is not replaced by the default and a document that is no object is refused, whereas the idiom if (j.contains(key)) j.at(key).get_to(x) keeps the default for a document that is no object. An int loses its fraction towards zero and also accepts true and false, which a double does not.", "quantifier": "all documents, all keys, all defaults and all readers with an inverse", "why_tests_cant": "tests give well-formed documents and one or two malformed ones; which of the six kinds passes for which of the conversions, at which depth, is not enumerated by them", "anchors": ["include/teqp/models/association/association.hpp:from_json", "include/teqp/models/association/association.hpp:get_association_options", "include/teqp/algorithms/ancillary_builder.hpp:build_ancillaries", "include/teqp/models/activity/activity_models.hpp:ares_model_factory", "include/teqp/ideal_eosterms.hpp:PureIdealHelmholtz", "include/teqp/json_tools.hpp:build_square_matrix"]}
{"id": "C165", "title": "Every model is an ideal gas at low density, with a finite second virial coefficient", "statement": "For each model in turn: at zero density, with mole fractions of the right number and a positive temperature, alphar returns exactly 0, it returns a finite value for all small enough non-negative densities, and alphar/rho tends to a finite limit as rho goes to zero from above, which is the second virial coefficient get_B2vir returns; the limit is given in closed form in the parameters (b - a/RT for the cubics and van der Waals; the terms with the first power of density, with their exponential factors at zero density, over the reducing density for multi-fluid models; the pair coefficients of PC-SAFT; the monomer's coefficient plus the slope of the contact value for chains).", "quantifier": "every temperature in the stated range, every composition of the right length, every parameter set accepted by the model (with nonzero covolume, positive reducing functions, integer density exponents of at least one)", "why_tests_cant": "tests compare B2 with tabulated numbers at a few temperatures for a few fluids; that the limit exists from above for every parameter set, and that no branch at exactly zero density returns something else, is a statement about a limit", "anchors": ["include/teqp/derivs.hpp:VirialDerivatives", "include/teqp/models/cubics.hpp:GenericCubic", "include/teqp/models/vdW.hpp:vdWEOS", "include/teqp/models/pcsaft.hpp:PCSAFTMixture", "include/teqp/models/multifluid.hpp:MultiFluid", "include/teqp/models/multifluid_eosterms.hpp:EOSTermContainer", "include/teqp/models/LKP.hpp:LKPMix", "include/teqp/models/ammonia_water.hpp:AmmoniaWaterTillnerRoth"]}
{"id": "C166", "title": "Derivatives through the association solver are those of the exact fractions", "statement": "The first derivatives of the site fractions, and of the association contribution to the Helmholtz energy, that automatic differentiation obtains by running Association::successive_substitution with numbers carrying a derivative are the derivatives of the exact solution of the law of mass action, up to the tolerances of the solver, for every number of kinds of sites, every damping factor in [0,1) and all strengths that are not negative.", "quantifier": "all numbers of kinds of sites, strengths and their derivatives, damping factors, tolerances and iteration limits", "why_tests_cant": "The tests compare derivatives of whole models at a few dense states; the loop stops on the values alone, so the error of the derivative is not visible from its tolerance, and it is largest at low density, which is not tested.", "anchors": ["include/teqp/models/association/association.hpp:successive_substitution", "include/teqp/models/association/association.hpp:alphar"]}
{"id": "C167", "title": "The COSMO-SAC iteration converges to the segment activity coefficients within its 501 passes", "statement": "From its start of ones the damped iteration of get_Gamma approaches the only solution of the segment equation for all positive symmetric exchange factors and densities, in both branches; the relative distance falls by at least the factor 1 - c/6 with every two passes, where c is the smallest share of one present segment in the sums of the others, so that an explicit number of passes suffices. The fixed number of 501 passes does not always suffice: at 298.15 K with the published constants a fluid of segments with charges -0.02 and +0.02 in the ratio 49:51 ends with std::invalid_argument though its coefficients exist. Nor does the test bound the distance: with its tolerance the loop can stop at its first pass while the solution is any factor away.", "quantifier": "all temperatures, profiles, compositions and numbers of passes", "why_tests_cant": "Convergence of an iteration and its rate are statements about all passes; the failing fluids are not in any test database.", "anchors": ["include/teqp/models/activity/COSMOSAC.hpp:203-297", "include/teqp/models/activity/COSMOSAC.hpp:get_Gamma", "include/teqp/models/activity/COSMOSAC.hpp:COSMO3Constants"]}
{"id": "C168", "title": "With its default options the association solver returns the fractions of the law of mass action or fails", "statement": "Association::successive_substitution with the default damping, tolerances and limit of 100 substitutions either returns site fractions that satisfy the law of mass action within the tolerances or reports that it did not converge. This holds when enough substitutions are allowed. It is false for the default limit: for donors and acceptors in the ratio 49:51 and strengths rho*NA*Delta between 1e6 and 1e12 the limit is reached silently, the returned fraction of free acceptors is at most 12.3/sqrt(rho*NA*Delta), and the exact fraction is at least 0.039.", "quantifier": "all strengths between 1e6 and 1e12 of a donor-acceptor mixture; all strengths and sites for the positive part", "why_tests_cant": "Tests use weakly associating states where the loop ends by its tolerance; the returned numbers look physical in any case.", "anchors": ["include/teqp/models/association/association.hpp:successive_substitution", "include/teqp/models/association/association.hpp:AssociationOptions"]}
{"id": "C169", "title": "A cubic or PC-SAFT equation wrapped as a term of a multi-fluid document is that equation", "statement": "A pure multi-fluid model whose only residual term is a generic cubic (or pure PC-SAFT) term, with the reducing state and the gas constant of the term, has the pressure of the cubic equation written in the term (the residual Helmholtz energy of the cubic class, of the pure PC-SAFT class), and with Soave's constants its critical point is the given one.  The term repeats the reducing state and the gas constant and nothing compares them with those of the fluid: for other values the pressure is the one of the equation at scaled temperature and density times a ratio, so accepted documents exist for which the property is false.", "quantifier": "all documents, all alpha functions, all temperatures, densities below close packing, reducing states and gas constants", "why_tests_cant": "needs exact derivatives over a continuum of states and all parameter values; a test compares a few numbers for consistent documents", "anchors": ["include/teqp/models/multifluid_eosterms.hpp:GenericCubicTerm", "include/teqp/models/multifluid_eosterms.hpp:PCSAFTGrossSadowski2001Term", "include/teqp/models/saft/pcsaftpure.hpp:PCSAFTPureGrossSadowski2001"]}
{"id": "C170", "title": "Cubic mixtures with Soave's alpha function have the caloric signs of attracting molecules", "statement": "For a Peng-Robinson or Soave-Redlich-Kwong mixture (any Delta1, Delta2, OmegaA, OmegaB, binary parameters k_ij at most one) the residual isochoric heat capacity -R Ar20 is not negative, the residual internal energy R T Ar10 not positive and the residual entropy R (Ar10 - Ar00) negative; get_Ar10 and get_Ar20 have the closed forms of the mixing rule.", "quantifier": "all component numbers, compositions, critical constants, T > 0, rho with b rho < 1", "why_tests_cant": "Sampled states never cover the sign of a double sum for all parameters. (The claim needs m >= 0 and a temperature below T_c (1 + 1/m)^2 of every component: helium has m < 0 in the Peng-Robinson equation and a negative residual heat capacity in every state, and the entropy of a fluid with the constants of water becomes positive at 16 T_c; both are shown.)", "anchors": ["include/teqp/models/cubics.hpp:GenericCubic::get_a", "include/teqp/models/cubics.hpp:GenericCubic::alphar", "include/teqp/models/cubics.hpp:BasicAlphaFunction", "include/teqp/derivs.hpp:get_Agenxy"]}
{"id": "C171", "title": "The hard spheres of PC-SAFT obey the virial theorem", "statement": "The density derivative of the hard-sphere term (get_alphar_hs), times the mean number of segments, equals (2 pi/3) times the double sum over components of (x_i m_i)(x_j m_j) ((d_i+d_j)/2)^3 g_ij, with g_ij the contact value gij_HS that the chain term uses; at zero density this is the second virial coefficient of hard spheres. With physical parameters every contact value is at least one (more than one at positive density) and symmetric in its two diameters; the term is zero at zero density, strictly increasing up to packing fraction one and at least -log(1-eta), so it diverges there. With equal diameters it is the equation of Carnahan and Starling in the packing fraction for every composition and every chain length.", "quantifier": "for all numbers of components, segment numbers, diameters, compositions, temperatures and densities below packing fraction one, zero density included", "why_tests_cant": "The two formulas are in two functions with no common code, and the relation between them is an identity over all mixtures; a test compares a few values of their sum.", "anchors": ["include/teqp/models/pcsaft.hpp:get_alphar_hs", "include/teqp/models/pcsaft.hpp:gij_HS", "include/teqp/models/pcsaft.hpp:PCSAFTHardChainContribution"]}
{"id": "C172", "title": "Which isotherms of cubic models have one density for every pressure", "statement": "At fixed composition the pressure of a cubic model grows with the density at every density below close packing exactly when a(T,x) is below a fixed multiple of b R T: 27/8 for van der Waals, 1/(3 (2^(1/3)-1)^2) for Soave-Redlich-Kwong, and OmegaA/OmegaB of the source for Peng-Robinson up to one part in 10^18. Every positive pressure then belongs to exactly one density. For a pure fluid this is T > Tc when the slope m of the alpha function is at most one; for larger slopes it also needs T < Tc ((m+1)/(m-1))^2, because the alpha function is a square and grows again.", "quantifier": "all component numbers, compositions, critical constants, acentric factors, T > 0, all densities below 1/b", "why_tests_cant": "A test samples densities of an isotherm; that none has a negative slope and that a second root exists nowhere is a statement about all of them, and the return of instability lies far above the temperatures that are tried", "anchors": ["include/teqp/models/cubics.hpp:GenericCubic::alphar", "include/teqp/models/cubics.hpp:canonical_SRK", "include/teqp/models/cubics.hpp:canonical_PR", "include/teqp/models/vdW.hpp:vdWEOS::alphar"]}
{"id": "C173", "title": "Cubic fluids have exactly one saturation state below the critical temperature", "statement": "For a pure fluid of the van der Waals, canonical Soave-Redlich-Kwong or Peng-Robinson model at a temperature below its critical temperature (for Peng-Robinson below it by one part in 10^18, a consequence of its rounded constants) there is exactly one pair of a vapour density and a larger liquid density below close packing at which the residual of pure_VLE_T vanishes. The two phases coexist with positive pressure, the tangent to the Helmholtz energy per volume at either lies nowhere above it (global stability), and the Jacobian of the solver is regular there. From the critical temperature upwards (slope of the alpha function at most one) the residual has no such zero.", "quantifier": "for all critical constants, acentric factors in the stated range, gas constants and temperatures; for isotherms of cubic mixtures at fixed composition the structural part holds for all alpha functions and interaction parameters", "why_tests_cant": "Existence and uniqueness of a root over a continuum of temperatures and parameters cannot be observed by runs of an iterative solver, which at best finds one root from one guess.", "anchors": ["include/teqp/algorithms/VLE_pure.hpp:IsothermPureVLEResiduals", "include/teqp/models/cubics.hpp:GenericCubic::alphar", "include/teqp/models/cubics.hpp:canonical_SRK", "include/teqp/models/cubics.hpp:canonical_PR", "include/teqp/models/vdW.hpp:vdWEOS::alphar"]}
{"id": "C174", "title": "The vapour pressure of cubic fluids increases with temperature and its computed slope is the true one", "statement": "For a pure fluid of the van der Waals, canonical Soave-Redlich-Kwong or Peng-Robinson model (slope of the alpha function not negative) there are vapour and liquid densities as functions of temperature on the whole range from zero to the critical temperature (for Peng-Robinson less one part in 10^18) that are the only zeros of the residual of pure_VLE_T. They are differentiable in temperature. At each temperature dpsatdT_pure returns a positive number that is the derivative of the vapour pressure along this curve, and the density slopes used for extrapolating along the curve are the derivatives of the two densities. The vapour pressure is strictly increasing.", "quantifier": "for all critical constants, acentric factors in the stated range, gas constants and temperatures below the critical one", "why_tests_cant": "That a formula is the derivative of an implicitly defined curve at each of a continuum of temperatures, and that the curve is monotone, cannot be established from finitely many solved states.", "anchors": ["include/teqp/algorithms/VLE_pure.hpp:dpsatdT_pure", "include/teqp/algorithms/VLE_pure.hpp:pure_VLE_T", "include/teqp/models/cubics.hpp:GenericCubic::alphar", "include/teqp/models/cubics.hpp:canonical_SRK", "include/teqp/models/cubics.hpp:canonical_PR", "include/teqp/models/vdW.hpp:vdWEOS::alphar"]}
{"id": "C175", "title": "The pure-fluid solvers converge from good guesses", "statement": "For every fluid that is smooth at a saturation state where the Jacobian is regular there is a distance within which pure_VLE_T, started from any pair of densities, never fails, and for any number of passes returns densities whose error is at most the initial one halved with each pass, or a fixed multiple of the tolerance if that is larger. Below the critical temperature this holds for the saturation state of every pure Soave-Redlich-Kwong and Peng-Robinson fluid. Likewise solve_pure_critical, started near a regular critical point, reduces the error by any prescribed factor with each of its steps; for van der Waals and Soave-Redlich-Kwong fluids, also picked by alternative_pure_index, it converges to the critical temperature given to the constructor.", "quantifier": "for all fluids smooth at the solution, all guesses within the distance, all tolerances and numbers of passes", "why_tests_cant": "Convergence from a whole neighbourhood of guesses for all parameters of a model is not observable by single runs.", "anchors": ["include/teqp/algorithms/VLE_pure.hpp:do_pure_VLE_T", "include/teqp/algorithms/VLE_pure.hpp:pure_VLE_T", "include/teqp/algorithms/critical_pure.hpp:solve_pure_critical", "include/teqp/algorithms/critical_pure.hpp:get_pure_critical_conditions_Jacobian"]}
{"id": "C176", "title": "The property-pair iterator converges from good guesses", "statement": "Let (T, rho), with T and rho positive, be a state with the two prescribed properties (any two of T, D, P, S, H, U other than T and D together) where the reduced Helmholtz energy is C2 and the Jacobian of the two properties is regular, and let neither relative target be zero. Then take_steps and take_steps_logrho, started close enough to it with a MaxAbsErrorCondition of any positive threshold (alone or together with NanXDXErrorCondition and NegativeXErrorCondition, in any order), report success with the message of the residual condition after a number of steps that depends on the threshold alone, and leave the iterator at a state with positive density whose error is at most a constant times the threshold; the requested number of steps only has to be large enough. The Jacobian is regular at every mechanically and thermally stable state for the pairs TP, PS, PH, SH, DS and DU in either order.", "quantifier": "All models and property pairs with C2 reduced Helmholtz energy, all thresholds, guesses near the solution, both variants, all lists of these conditions", "why_tests_cant": "A test runs a handful of states; success from a neighbourhood of every regular state, for every threshold and with a bound on the steps, is a statement about infinitely many runs.", "anchors": ["include/teqp/algorithms/iteration.hpp:NRIterator::take_steps", "include/teqp/algorithms/iteration.hpp:NRIterator::take_steps_logrho", "include/teqp/algorithms/iteration.hpp:MaxAbsErrorCondition"]}
{"id": "C177", "title": "The mixture phase-equilibrium solvers converge from good guesses", "statement": "Let two phases with positive concentrations coexist (equal pressure, equal chemical potentials) where the model is C2, some concentration exceeds the smallest normal double, and let the linear solver be exact on regular systems. mix_VLE_Tx (vapor Hessian regular and the liquid pressure not stationary along the direction of fixed composition against the vapor) and mixture_VLE_px (any number of components, the corresponding determinant non-zero), started close enough to that pair, report xtol or functol satisfied for every choice of tolerances with atol > 0, 0 <= reltol <= 1/2 and non-negative axtol, relxtol, after a number of iterations that depends on the tolerances alone, and the returned concentrations (and temperature) are within a constant times atol + axtol + relxtol of the solution. mix_VLE_Tp (both Hessians regular, the compositions of the phases different) at least halves the distance to the solution with every iteration.", "quantifier": "All models with C2 reduced Helmholtz energy and constant R, all coexisting pairs with the stated regularity, all guesses in a neighbourhood, all tolerances, all larger iteration limits", "why_tests_cant": "Tests check a few mixtures from a few guesses with the default tolerances; convergence from a neighbourhood of every regular pair with an error bound for all tolerances is about infinitely many runs.", "anchors": ["include/teqp/algorithms/VLE.hpp:mix_VLE_Tx", "include/teqp/algorithms/VLE.hpp:mix_VLE_Tp", "include/teqp/algorithms/VLE.hpp:mixture_VLE_px"]}
{"id": "C178", "title": "Three-phase solvers from good guesses: every step halves the error, but the step test can end the run after one step", "statement": "For a binary model and three coexisting phases that are not collinear in the plane of the concentrations and none of which is at its limit of stability (for the pressure-specified solver: with the corresponding temperature determinant nonzero), mix_VLLE_T and mix_VLLE_p started close enough converge: the call returns phases whose error is at most a multiple of the tolerances.", "quantifier": "for all models twice continuously differentiable near the phases, all regular three-phase states, all guesses in a neighbourhood, all tolerances with atol > 0 and reltol <= 1/2, all maxiter >= 1", "why_tests_cant": "Tests start from a few guesses and compare with a reference value loosely; whether the stopping test leaves an error that does not shrink with the tolerances shows only for guesses that are too high in every concentration.", "anchors": ["include/teqp/algorithms/VLLE.hpp:mix_VLLE_T", "include/teqp/algorithms/VLLE.hpp:mix_VLLE_p"]}
{"id": "C179", "title": "Hard chains of PC-SAFT repel, and the second virial coefficient changes sign at a Boyle temperature", "statement": "In every PC-SAFT mixture with physical parameters (any number of components, m_i >= 1, sigma_i > 0) the hard-chain contribution to alphar is zero at zero density, strictly increases with density at every packing fraction below one with slope at least (9/pi) D1 D2/(1-eta)^2, and diverges at packing fraction one. get_B2vir of the model without polar terms has the closed form of hard chains plus the two leading dispersion terms; if the components attract it is negative at low temperature, positive at high temperature and zero at some Boyle temperature in between, for each of the three sets of universal constants.", "quantifier": "for all compositions, temperatures, densities up to packing fraction one, segment numbers, diameters, energies and binary parameters", "why_tests_cant": "Tests compare a few virial coefficients with reference values at a few temperatures; signs over all densities, and the limits of low and high temperature for every chain length, are out of their reach.", "anchors": ["include/teqp/models/saft/pcsaft.hpp:PCSAFTHardChainContribution::eval", "include/teqp/models/saft/pcsaft.hpp:gij_HS", "src/data/PCSAFT.cpp:LiangIECR2012", "include/teqp/derivs.hpp:get_B2vir"]}
{"id": "C180", "title": "The Boyle temperatures of the SRK and Peng-Robinson models", "statement": "For a pure component of a cubic model with the standard alpha function, get_B2vir is negative below one Boyle temperature, Tc((1+m)/(m+k))^2 with k^2 = OmegaB/OmegaA, vanishes there and is positive at every higher temperature.", "quantifier": "every component of every cubic built with the basic alpha function, all constants with Delta1 different from Delta2, critical temperatures and pressures, interaction parameters with zero diagonal and temperatures; slopes m above -1 and above -k", "why_tests_cant": "the tests compare virial coefficients with other programs at a few temperatures near ambient; the second sign change lies at thousands of kelvin", "anchors": ["include/teqp/models/cubics.hpp:GenericCubic", "include/teqp/models/cubics.hpp:canonical_SRK", "include/teqp/models/cubics.hpp:canonical_PR", "include/teqp/models/cubics.hpp:BasicAlphaFunction", "include/teqp/derivs.hpp:VirialDerivatives"]}
{"id": "C181", "title": "Along the saturation curve of cubic fluids the liquid expands, the vapour becomes denser and evaporation takes heat", "statement": "For a pure component of a van der Waals, SRK or Peng-Robinson model, the vapour density solved by pure_VLE_T is a strictly increasing and the liquid density a strictly decreasing function of temperature below the critical temperature; the slopes that pure_trace_VLE extrapolates with have these signs at every saturated state; and the enthalpy of the vapour exceeds that of the liquid, whatever ideal-gas part is added.", "quantifier": "every component of every such model with critical data positive, zero diagonal of kmat and a slope of the alpha function that is not negative; all temperatures below the critical one (for Peng-Robinson below Tc/(1+1e-18), because of the rounded constants)", "why_tests_cant": "the tests compare single saturated states; that no temperature has the wrong slope is a statement about the whole curve", "anchors": ["include/teqp/algorithms/VLE_pure.hpp:pure_VLE_T", "include/teqp/algorithms/VLE_pure.hpp:pure_trace_VLE", "include/teqp/algorithms/VLE_pure.hpp:dpsatdT_pure", "include/teqp/models/cubics.hpp:GenericCubic", "include/teqp/models/vdW.hpp:vdWEOS"]}
{"id": "C182", "title": "The saturation curve of van der Waals and SRK fluids ends at the critical point given to the constructor", "statement": "For a pure component of a van der Waals or SRK model built from critical temperature and pressure, as T rises to Tc the vapour and the liquid density solved by pure_VLE_T tend to one and the same density (8 pc/(3 R Tc) for van der Waals, 3 pc/(R Tc) for SRK), the vapour pressure tends to pc, and the heat of vaporisation tends to zero, whatever ideal-gas part is added.", "quantifier": "every component of every such model with critical data positive, zero diagonal of kmat and a slope of the alpha function that is not negative", "why_tests_cant": "a limit at a singular end point, where the Newton iteration of the solver loses its regular Jacobian, cannot be sampled", "anchors": ["include/teqp/algorithms/VLE_pure.hpp:pure_VLE_T", "include/teqp/algorithms/VLE_pure.hpp:pure_trace_VLE", "include/teqp/algorithms/critical_pure.hpp:solve_pure_critical", "include/teqp/models/cubics.hpp:canonical_SRK", "include/teqp/models/vdW.hpp:vdWEOS"]}
{"id": "C183", "title": "PC-SAFT with its polar terms, soft-SAFT and Lee-Kesler-Ploecker models do not depend on how a mixture is written down", "statement": "If the component list of such a model is reordered, or names a substance several times with the fraction divided among the entries, alphar returns the same value, or fails in the same way. Entries of mole fraction zero change neither the hard-chain and dispersion terms nor the polar terms of PC-SAFT.", "quantifier": "all models, all compositions, all maps from the entries of one list onto the substances of the other, all states", "why_tests_cant": "the number of components, the permutations and the ways to divide a fraction are unbounded", "anchors": ["include/teqp/models/pcsaft.hpp:PCSAFTMixture", "include/teqp/models/pcsaft.hpp:PCSAFTHardChainContribution", "include/teqp/models/saft/polar_terms/GrossVrabec.hpp:DipolarContributionGrossVrabec", "include/teqp/models/saft/polar_terms/GrossVrabec.hpp:QuadrupolarContributionGross", "include/teqp/models/saft/polar_terms/GrossVrabec.hpp:DipolarQuadrupolarContributionVrabecGross", "include/teqp/models/saft/softsaft.hpp:SoftSAFT", "include/teqp/models/LKP.hpp:LKPMix"]}
{"id": "C184", "title": "Association does not depend on how a mixture is written down", "statement": "An `Association` object (CR1 rule) built from a list of molecules in another order, or with a component listed several times with its mole fraction split over the entries, gives the same `alphar` and fails in the same way. This holds for two or more components when no listed-twice component is combined with a self-association mask. It is false in two cases: with a mask, the copies of a component associate with each other although self-association is switched off for it; and for one component with two kinds of sites the closed form is used when it is listed once and the iteration when it is listed twice, which stops at another number.", "quantifier": "all molecules, interaction partners, parameters, options, temperatures, densities and mole fractions; all surjective relabelings of the components", "why_tests_cant": "Needs every relabeling and every number of iterations; the two failures need a component that is listed twice, which no test does.", "anchors": ["include/teqp/models/association/association.hpp:Association::alphar", "include/teqp/models/association/association.hpp:Association::successive_substitution", "include/teqp/models/association/association.hpp:Association::make_D", "include/teqp/models/association/association.hpp:Association::make_mapper"]}
{"id": "C185", "title": "Multi-fluid mixtures do not depend on whether a component is listed once or several times", "statement": "When a component of a multi-fluid mixture is listed several times, with its mole fraction split over the entries and the copies forming an ideal pair (beta = gamma = 1, no departure function), the reducing temperature, the reducing density and `alphar` stay the same. This holds for all gamma and departure functions when every beta is 1, and without condition for the invariant reducing functions. It is false when a beta differs from 1: two components with betaT = 2 have another reducing temperature when the first one is listed twice.", "quantifier": "all numbers of components, maps between the two lists, temperatures, densities and compositions", "why_tests_cant": "Needs every number of components and every way to split; the failure is a property of the formula that no single reference value shows.", "anchors": ["include/teqp/models/multifluid_reducing.hpp:MultiFluidReducingFunction::Y", "include/teqp/models/multifluid_reducing.hpp:MultiFluidInvariantReducingFunction::Y", "include/teqp/models/multifluid.hpp:MultiFluid::alphar", "include/teqp/models/multifluid.hpp:DepartureContribution::alphar"]}
{"id": "C186", "title": "CPA, advanced cubic and Wilson values do not depend on how a mixture is written down; the ideal gas changes by the entropy of mixing of the copies", "statement": "Reordering the components of a CPA mixture, an advanced Peng-Robinson mixture or a Wilson activity model, or listing a component several times with its mole fraction split over the entries, leaves `alphar` (for Wilson: the residual activity term) unchanged, including whether it throws. For CPA the association is the general class, under the conditions of C184: no mask on a component that is listed twice, and more than one component or no closed-form solution. The ideal-gas Helmholtz energy does depend on the listing: it changes by the sum of x_k ln(x_k/x_total), which is strictly negative as soon as two entries of one component are both present.", "quantifier": "all numbers of components, surjective maps between the two lists, parameters, temperatures, densities and compositions (non-negative for the ideal gas)", "why_tests_cant": "Needs every number of components and every way of listing them; reference values exist only for a few mixtures, each written in one way.", "anchors": ["include/teqp/models/CPA.hpp:CPACubic::alphar", "include/teqp/models/CPA.hpp:CPAEOS::alphar", "include/teqp/models/cubics.hpp:AdvancedPRaEres::alphar", "include/teqp/models/activity/activity_models.hpp:WilsonResidualHelmholtzOverRT::operator()", "include/teqp/ideal_eosterms.hpp:IdealHelmholtz::alphaig"]}
{"id": "C187", "title": "COSMO-SAC values do not depend on how a mixture is written down or on components that are absent", "statement": "Building COSMO3 from the same fluids in another order, or with a fluid listed several times and its mole fraction split over the entries, gives the same window and the same value of operator(), in both branches; calc_lngamma_comb gives every entry the coefficient of its fluid, or fails in the same way. In the slow branch a fluid of fraction zero can be left out without a change of the value. In the fast branch this is false: the window is that of all fluids of the list, so that a fluid of fraction zero whose profile reaches the last charge density turns a valid evaluation into writes outside of the matrices.", "quantifier": "all numbers of fluids, maps between the two lists, areas, volumes, profiles, constants, temperatures and compositions", "why_tests_cant": "Needs every number of fluids and every order; a test with an absent fluid would only show the failure for profiles that reach the end of the grid.", "anchors": ["include/teqp/models/activity/COSMOSAC.hpp:COSMO3::get_nonzero_bounds", "include/teqp/models/activity/COSMOSAC.hpp:COSMO3::get_psigma_mix", "include/teqp/models/activity/COSMOSAC.hpp:COSMO3::get_Gamma", "include/teqp/models/activity/COSMOSAC.hpp:COSMO3::get_lngamma_resid", "include/teqp/models/activity/COSMOSAC.hpp:COSMO3::calc_lngamma_comb"]}
{"id": "C188", "title": "A component listed several times changes no measurable property, and coexisting phases hold the same shares of its entries", "statement": "For every model whose alphar and gas constant do not depend on how the mixture is written down (C14, C110, C183-C187), pressure, residual Helmholtz energy and entropy, Ar01, Ar10 and their temperature derivatives are the same for both lists. Every entry has the fugacity coefficient and partial molar volume of its component, with their derivatives in temperature, density, volume and composition. Its chemical potential is that of the component plus RT ln(share). Two phases of the longer list have equal pressure and chemical potentials exactly when the merged phases have and every entry has the same share of its component in both.", "quantifier": "all models, numbers of components, maps between the lists, temperatures and concentrations (positive for the chemical potentials; constant gas constant for the equilibrium)", "why_tests_cant": "Quantifies over all models and over all ways of listing; the derivative functions are tested only at single states of single lists.", "anchors": ["include/teqp/derivs.hpp:IsochoricDerivatives::get_fugacity_coefficients", "include/teqp/derivs.hpp:IsochoricDerivatives::get_chempotVLE_autodiff", "include/teqp/derivs.hpp:IsochoricDerivatives::get_pr", "include/teqp/derivs.hpp:IsochoricDerivatives::get_partial_molar_volumes", "include/teqp/derivs.hpp:IsochoricDerivatives::get_dpdT_constrhovec", "include/teqp/derivs.hpp:IsochoricDerivatives::get_d_ln_fugacity_coefficients_dmolefracs_constTrho"]}
{"id": "C189", "title": "Intrinsic stability and critical states do not depend on how often a component is listed", "statement": "Take a mixture with components entered several times under a model whose residual energy depends only on the merged amounts. The curvature of the Helmholtz energy density along a direction equals that of the merged mixture along the merged direction plus R*T*sum rho_k*(v_k/rho_k - w/g)^2, the curvature of changing the shares of the copies. So the state is intrinsically stable (strictly or not) exactly when the merged state is, and critical exactly when the merged state is. get_criticality_conditions returns (0, 0) for the mixture as entered exactly when it does for the merged mixture, if the latter has a single direction without curvature.", "quantifier": "for all such models that are three times differentiable along lines, all listings in which every component occurs, all positive densities, positive R*T, and every correct eigen-solver", "why_tests_cant": "The eigenvectors of the two Hessians live in spaces of different dimension and the values of the conditions away from zero differ; a test can only look at single states and never at the equivalence.", "anchors": ["include/teqp/algorithms/critical_tracing.hpp:get_criticality_conditions", "include/teqp/algorithms/critical_tracing.hpp:eigen_problem", "include/teqp/algorithms/critical_tracing.hpp:get_derivs", "include/teqp/derivs.hpp:build_Psir_Hessian_autodiff", "include/teqp/derivs.hpp:get_Psir_sigma_derivs"]}
{"id": "C190", "title": "A component with zero concentration does not matter for the others, up to the criticality conditions", "statement": "Take a model for which leaving out a component is the same as giving it zero mole fraction. Then at a state where its concentration is zero the pressure, the residual entropy, and the fugacity coefficients, chemical potentials and partial molar volumes of the other components are those of the mixture without it. With three or more components get_criticality_conditions returns the same second derivative as for the mixture without it and the same third derivative up to its sign, whatever the eigen-solver returns. With two components it returns p'/rho and, up to sign, (p'' - p'/rho)/rho of the isotherm of the remaining fluid, so it returns (0, 0) exactly at the critical point p' = p'' = 0 of that fluid.", "quantifier": "for all such models, all temperatures, all positions of the absent component and all non-zero concentrations of the others; for two components every correct eigen-solver and every positive density at which alphar is three times differentiable", "why_tests_cant": "The branch of eigen_problem for an absent component builds a smaller matrix and pads its eigenvectors; tests run it at the end points of a few traces only.", "anchors": ["include/teqp/algorithms/critical_tracing.hpp:eigen_problem", "include/teqp/algorithms/critical_tracing.hpp:get_derivs", "include/teqp/algorithms/critical_tracing.hpp:get_criticality_conditions", "include/teqp/derivs.hpp:get_fugacity_coefficients", "include/teqp/derivs.hpp:get_pr"]}
{"id": "C191", "title": "get_minimum_eigenvalue_Psi_Hessian and intrinsic stability", "statement": "For positive concentrations the result is the least second derivative of the Helmholtz energy density over all unit directions. It is positive exactly when the density is strictly convex at the state and non-negative exactly when it is convex. With a component listed several times its sign is that of the merged mixture; its value is not (an ideal gas is a counterexample). With one of three or more components absent the result is that of the mixture without it; with one of two absent it is p'/rho of the other fluid. With two or more absent components std::invalid_argument is thrown.", "quantifier": "for all models with the stated differentiability, all temperatures and concentrations, every correct eigen-solver (every solver at all for an absent component)", "why_tests_cant": "Tests compare single numbers and do not look at convexity, at listings or at zero concentrations.", "anchors": ["include/teqp/algorithms/critical_tracing.hpp:get_minimum_eigenvalue_Psi_Hessian", "include/teqp/algorithms/critical_tracing.hpp:eigen_problem", "interface/CPP/AbstractModel_implementation.cpp:get_minimum_eigenvalue_Psi_Hessian"]}
{"id": "C192", "title": "The separately evaluated parts of a multi-fluid mixture reproduce the mixture", "statement": "The Python method get_alpharij refuses exactly the component numbers outside 0..N-1 (negative ones included) with InvalidArgument. For two or more components alphar equals the sum of mole fraction times alphar_taudeltai plus, over pairs i<j, z_i z_j times get_BIP(i,j,'F') times get_alpharij(i,j), at the mixture's tau and delta. In a built mixture get_alpharij does not depend on the order of the pair and is zero on the diagonal. The overload of alphar taking molar densities agrees with alphar at the total density and mole fractions, whether or not the total is passed; a wrong number of densities is refused, a sum of zero gives no number, and passing a total other than the sum changes the answer. alphar_taudeltai past the last component is undefined behaviour.", "quantifier": "all numbers of components up to 2^63, all int indices, temperatures, non-zero densities and mole fractions", "why_tests_cant": "No test calls get_alpharij, and alphar_taudeltai is only called for one component in one state; finitely many calls could not cover all numbers, states and mixtures.", "anchors": ["include/teqp/models/multifluid.hpp:DepartureContribution::get_alpharij", "include/teqp/models/multifluid.hpp:MultiFluid::alphar", "include/teqp/models/multifluid.hpp:MultiFluid::alphar_taudeltai", "interface/pybind11_wrapper.cpp:attach_multifluid_methods"]}
