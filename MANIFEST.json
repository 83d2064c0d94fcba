{
 "claims": [
  {
   "property": "C01",
   "status": "proved",
   "theorems": [
    "Teqp.Props.powi_exact",
    "Teqp.Props.powi_nonneg_any_type",
    "Teqp.Props.powi_intMin_ub",
    "Teqp.Props.POW_exact"
   ],
   "note": ""
  },
  {
   "property": "C02",
   "status": "proved",
   "theorems": [
    "Teqp.Props.Agenxy_is_Lambda",
    "Teqp.Props.getAr_total"
   ],
   "note": ""
  },
  {
   "property": "C03",
   "status": "proved",
   "theorems": [
    "Teqp.Props.Agen0n_is_Lambda",
    "Teqp.Props.Agenn0_is_Lambda",
    "Teqp.Props.Agen_zero",
    "Teqp.Props.derivativeHolder_exact"
   ],
   "note": ""
  },
  {
   "property": "C04",
   "status": "proved",
   "theorems": [
    "Teqp.Props.ATrhoXi_total",
    "Teqp.Props.ATrhoXiXj_total",
    "Teqp.Props.ATrhoXiXjXk_total",
    "Teqp.Props.AtaudeltaXi_total",
    "Teqp.Props.AtaudeltaXiXj_total",
    "Teqp.Props.AtaudeltaXiXjXk_total",
    "Teqp.Props.ATrhoXi_bad_index"
   ],
   "note": "out-of-range component index is undefined behaviour in the code, shown by ATrhoXi_bad_index"
  },
  {
   "property": "C05",
   "status": "proved",
   "theorems": [
    "Teqp.Props.Bnvir_is_virial",
    "Teqp.Props.B2vir_is_virial",
    "Teqp.Props.Bnvir_runtime_total",
    "Teqp.Props.dmBnvirdTm_runtime_total"
   ],
   "note": "complex-step derivative at zero density taken as exact"
  },
  {
   "property": "C06",
   "status": "proved",
   "theorems": [
    "Teqp.Props.B12vir_exact",
    "Teqp.Props.B12vir_refuses",
    "Teqp.Props.B12vir_needs_normalised",
    "Teqp.Props.B12vir_pure"
   ],
   "note": "B12vir_needs_normalised records that a non-normalised composition gives a wrong value"
  },
  {
   "property": "C07",
   "status": "proved",
   "theorems": [
    "Teqp.Props.pr_euler",
    "Teqp.Props.ptot_euler",
    "Teqp.Props.pr_is_pressure",
    "Teqp.Props.pr_is_minus_dAdV",
    "Teqp.Props.gradPsir_is_dAdn",
    "Teqp.Props.isoAr01_eq",
    "Teqp.Props.isoAr10_eq",
    "Teqp.Props.splus_eq",
    "Teqp.Props.hessPsi_symm"
   ],
   "note": ""
  },
  {
   "property": "C08",
   "status": "proved",
   "theorems": [
    "Teqp.Props.sum_x_lnphi",
    "Teqp.Props.fugacity_chempot",
    "Teqp.Props.equal_fugacity_iff_equal_chempot"
   ],
   "note": ""
  },
  {
   "property": "C09",
   "status": "proved",
   "theorems": [
    "Teqp.Props.sum_x_partialMolarVolume",
    "Teqp.Props.partialMolarVolume_true"
   ],
   "note": ""
  },
  {
   "property": "C10",
   "status": "partial",
   "theorems": [
    "Teqp.Props.dpdT_true",
    "Teqp.Props.dPsirdT_true",
    "Teqp.Props.dchempotdT_true",
    "Teqp.Props.dlnphidT_true",
    "Teqp.Props.dlnphidrho_true",
    "Teqp.Props.dlnphidv_true",
    "Teqp.Props.dpdrhovec_true",
    "Teqp.Props.dlnphidx_true",
    "Teqp.Props.hessPsi_true",
    "Teqp.Props.dpdrhovec_wrong_for_varying_R",
    "Teqp.Props.lnphi_parts",
    "Teqp.Props.lnZ_Z_dZdrho_true"
   ],
   "note": "true for every model with a constant gas constant; dp/drho_i is false for composition-dependent R, proved by witness"
  },
  {
   "property": "C11",
   "status": "proved",
   "theorems": [
    "Teqp.Props.jvRow_exact",
    "Teqp.Props.buildIterationJv_pair",
    "Teqp.Props.buildIterationJv_three_ub"
   ],
   "note": ""
  },
  {
   "property": "C12",
   "status": "proved",
   "theorems": [
    "Teqp.Props.vdW1_pressure",
    "Teqp.Props.vdWMix_pressure",
    "Teqp.Props.vdWMix_critical"
   ],
   "note": ""
  },
  {
   "property": "C13",
   "status": "proved",
   "theorems": [
    "Teqp.Props.cubic_pressure_core",
    "Teqp.Props.cubic_pressure",
    "Teqp.Props.cubic_zero_density",
    "Teqp.Props.SRK_critical",
    "Teqp.Props.RKPR_pressure",
    "Teqp.Props.RKPR_critical",
    "Teqp.Props.PR_constants"
   ],
   "note": "Peng-Robinson decimals shown within 1e-18 of the exact constants; RK-PR excludes delta_1 = sqrt 2 - 1, where the code divides zero by zero"
  },
  {
   "property": "C14",
   "status": "proved",
   "theorems": [
    "Teqp.Props.cubic_lump",
    "Teqp.Props.cubic_perm",
    "Teqp.Props.cubic_split",
    "Teqp.Props.cubic_pure_limit",
    "Teqp.Props.cubic_pure_a",
    "Teqp.Props.alpha_one_at_Tc",
    "Teqp.Props.cubic_kmat_symmetrised"
   ],
   "note": ""
  },
  {
   "property": "C15",
   "status": "partial",
   "theorems": [
    "Teqp.Props.vdW_sizes",
    "Teqp.Props.checkKmat_spec",
    "Teqp.Props.cubic_alphar_size",
    "Teqp.Props.SRK_sizes_partial",
    "Teqp.Props.PR_sizes_partial",
    "Teqp.Props.SRK_short_pc_ub",
    "Teqp.Props.SRK_short_acentric_ub",
    "Teqp.Props.SRK_long_pc_accepted",
    "Teqp.Props.buildAlphas_sizes",
    "Teqp.Props.buildAlphas_short_coeffs_ub",
    "Teqp.Props.multifluid_wrong_size",
    "Teqp.Props.mutant_wrong_size"
   ],
   "note": "false for pcrit/acentric shorter than Tcrit (out-of-bounds read), for longer ones (silently cut), for mutants and the weighted gas constant: proved by witness"
  },
  {
   "property": "C16",
   "status": "partial",
   "theorems": [
    "Teqp.Props.QCPR_pressure",
    "Teqp.Props.QCPR_translation_wrong"
   ],
   "note": "the property is false of the code for every non-zero translation; the exact deviation is proved"
  },
  {
   "property": "C17",
   "status": "proved",
   "theorems": [
    "Teqp.Props.midpointKnuth_eq",
    "Teqp.Props.getIndex_owns",
    "Teqp.Props.superancY_spec",
    "Teqp.Props.superancY_value",
    "Teqp.Props.shipped_tables_ok",
    "Teqp.Props.shipped_tables_lookup",
    "Teqp.Props.supercubic_codes"
   ],
   "note": "Lookup proved for abutting tables of any size; the nine shipped tables' interval ends are transcribed and checked by kernel computation. Coefficient values are not modelled."
  },
  {
   "property": "C18",
   "status": "partial",
   "theorems": [
    "Teqp.Props.chebScaled_exact",
    "Teqp.Props.cheb_y_exact",
    "Teqp.Props.scaled_mem",
    "Teqp.Props.cheb_single_wrong",
    "Teqp.Props.clenshawVec_exact",
    "Teqp.Props.cheb2D_exact",
    "Teqp.Props.cheb2D_rectangular_ub"
   ],
   "note": "Exact for at least two coefficients / square matrices; proved false for one-term expansions and rectangular matrices (buffer resize)."
  },
  {
   "property": "C19",
   "status": "proved",
   "theorems": [
    "Teqp.Props.centeredDiff_exact",
    "Teqp.Props.centeredDiff_order_sharp",
    "Teqp.Props.centeredDiffXY_exact",
    "Teqp.Props.gradientForward_exact",
    "Teqp.Props.centeredDiff_error",
    "Teqp.Props.centeredDiff_zero_step"
   ],
   "note": ""
  },
  {
   "property": "C20",
   "status": "proved",
   "theorems": [
    "Teqp.Props.quad_exact",
    "Teqp.Props.quad_unsupported",
    "Teqp.Props.quad_decimal"
   ],
   "note": "Decimal tables transcribed digit by digit; moments checked by kernel computation."
  },
  {
   "property": "C21",
   "status": "partial",
   "theorems": [
    "Teqp.Props.convert_preserves_partial",
    "Teqp.Props.convert_document_partial",
    "Teqp.Props.convert_inverse_T_fails",
    "Teqp.Props.convert_refuses",
    "Teqp.Props.alyLee_value",
    "Teqp.Props.alyLee_referred"
   ],
   "note": "Conversion, parsing and evaluation composed equal the CoolProp value for every supported term type, all coefficients, including Aly-Lee with its cut-off (alyLee_value); false for CP0PolyT with exponent -1 (division by zero, proved). For Aly-Lee the exact relation to the heat-capacity integral referred to T0 is an offset a + b/T given in closed form (alyLee_referred)."
  },
  {
   "property": "C22",
   "status": "partial",
   "theorems": [
    "Teqp.Props.cp0Poly_heat_capacity_partial",
    "Teqp.Props.alyLee_heat_capacity",
    "Teqp.Props.planckEinstein_heat_capacity",
    "Teqp.Props.convert_inverse_T_fails",
    "Teqp.Props.alyLee_referred",
    "Teqp.Props.alyLee_enthalpy_left"
   ],
   "note": "Heat capacity, enthalpy and entropy at T0 for all polynomials of real exponents except -1, where the code divides by zero (proved). Aly-Lee reproduces its heat capacity, but its enthalpy at T0 does not vanish (alyLee_enthalpy_left)."
  },
  {
   "property": "C23",
   "status": "proved",
   "theorems": [
    "Teqp.Props.ideal_mixture_value",
    "Teqp.Props.ideal_absent_component",
    "Teqp.Props.ideal_permutation",
    "Teqp.Props.ideal_dilute_limit",
    "Teqp.Props.ideal_wrong_size"
   ],
   "note": "Over real arithmetic."
  },
  {
   "property": "C24",
   "status": "proved",
   "theorems": [
    "Teqp.Props.getBIPdep_order",
    "Teqp.Props.pair_order",
    "Teqp.Props.getBIPdep_precedence",
    "Teqp.Props.getBIPdep_forced",
    "Teqp.Props.bip_matrices",
    "Teqp.Props.estimate_lorentz_berthelot",
    "Teqp.Props.reported_bips",
    "Teqp.Props.getBIP_refused",
    "Teqp.Props.multifluid_get_BIP"
   ],
   "note": "look-up order, reversal, estimation flags, the matrices built from the pairs and get_BIP"
  },
  {
   "property": "C25",
   "status": "proved",
   "theorems": [
    "Teqp.Props.reducing_relabel",
    "Teqp.Props.reducing_pure",
    "Teqp.Props.reducing_pos",
    "Teqp.Props.reducing_continuous",
    "Teqp.Props.invariant_reducing",
    "Teqp.Props.invariant_pure"
   ],
   "note": "both reducing functions; includes compositions with absent components"
  },
  {
   "property": "C26",
   "status": "partial",
   "theorems": [
    "Teqp.Props.xiZeta_intended",
    "Teqp.Props.xiZeta_wrong",
    "Teqp.Props.xiZeta_identical",
    "Teqp.Props.xiZeta_partial"
   ],
   "note": "false of the code: gammaT is half and gammaV four times the equivalent value; proved as a refutation"
  },
  {
   "property": "C27",
   "status": "proved",
   "theorems": [
    "Teqp.Props.residual_value",
    "Teqp.Props.residual_derivatives_extend",
    "Teqp.Props.container_value",
    "Teqp.Props.noninteger_exponent_jump"
   ],
   "note": "all term types except the Chebyshev term; integer exponents; for the non-analytic term B > 0"
  },
  {
   "property": "C28",
   "status": "partial",
   "theorems": [
    "Teqp.Props.departure_power",
    "Teqp.Props.departure_power_accepts",
    "Teqp.Props.pure_power_partial",
    "Teqp.Props.pure_power_loses_exponential",
    "Teqp.Props.pure_power_negative_exponent",
    "Teqp.Props.combined_document",
    "Teqp.Props.eos_terms",
    "Teqp.Props.buildTerm_dispatch",
    "Teqp.Props.power_without_l",
    "Teqp.Props.eos_types"
   ],
   "note": "departure functions: proved for non-negative exponents in any order; pure fluids: false for l = 0,1,0 (exponential lost) and for negative exponents summing to zero, proved when the zeros come first or the first exponent is non-zero"
  },
  {
   "property": "C29",
   "status": "proved",
   "theorems": [
    "Teqp.Props.mixture_pure",
    "Teqp.Props.mixture_relabel",
    "Teqp.Props.mixture_absent",
    "Teqp.Props.mixture_built_iff",
    "Teqp.Props.departure_by_name",
    "Teqp.Props.unknown_departure_refused"
   ],
   "note": "relabelling assumes positive beta; products with a factor zero are zero (no 0*inf)"
  },
  {
   "property": "C30",
   "status": "proved",
   "theorems": [
    "Teqp.Props.select_identifier_first",
    "Teqp.Props.identifier_choice"
   ],
   "note": "the pair look-up itself is C24"
  },
  {
   "property": "C31",
   "status": "proved",
   "theorems": [
    "Teqp.Props.components_resolve",
    "Teqp.Props.unknown_name_refused",
    "Teqp.Props.alias_map_spec",
    "Teqp.Props.alias_map_iff",
    "Teqp.Props.no_root_error",
    "Teqp.Props.unknown_name_error_kind",
    "Teqp.Props.components_clean",
    "Teqp.Props.components_other_refused"
   ],
   "note": "file system and JSON parser are parameters; an error is always raised, but its kind depends on the position (unknown_name_error_kind)"
  },
  {
   "property": "C32",
   "status": "partial",
   "theorems": [
    "Teqp.Props.mutantGERG_pure",
    "Teqp.Props.mutantGERG_regular",
    "Teqp.Props.mutant_pure",
    "Teqp.Props.mutantInvariant_pure_fails"
   ],
   "note": "proved for the beta/gamma type; refuted for the invariant type, whose diagonals stay zero"
  },
  {
   "property": "C33",
   "status": "proved",
   "theorems": [
    "Teqp.Props.vle_residual_zero_iff",
    "Teqp.Props.vle_jacobian_exact",
    "Teqp.Props.vle_loop_spec",
    "Teqp.Props.pure_vle_spec",
    "Teqp.Props.vle_solution_fixed",
    "Teqp.Props.vle_converged_residual",
    "Teqp.Props.vle_system",
    "Teqp.Props.pure_vle_nonpositive"
   ],
   "note": "Ideal-gas part RT(ln rho + c(T)) with arbitrary c. The linear solve is a parameter; the small-residual statement uses that it solves."
  },
  {
   "property": "C34",
   "status": "proved",
   "theorems": [
    "Teqp.Props.dpsatdT_clapeyron",
    "Teqp.Props.dpsatdT_enthalpy",
    "Teqp.Props.dpsatdT_true_slope",
    "Teqp.Props.drhodT_true_slope",
    "Teqp.Props.dpsatdT_defined",
    "Teqp.Props.dpsatdT_equal"
   ],
   "note": "Also the true slope along any differentiable coexistence curve."
  },
  {
   "property": "C35",
   "status": "partial",
   "theorems": [
    "Teqp.Props.pure_trace_partial",
    "Teqp.Props.pure_trace_not_trivial",
    "Teqp.Props.trace_result",
    "Teqp.Props.linSpaced_spec",
    "Teqp.Props.trace_with_predictor_overshoots",
    "Teqp.Props.trace_no_steps",
    "Teqp.Props.trace_one_step_predictor",
    "Teqp.Props.trace_index_unchecked",
    "Teqp.Props.trace_nonfinite_start",
    "Teqp.Props.trace_vapour_unchecked"
   ],
   "note": "Proved without the predictor and with at least one step. With the predictor on the property is false of the code (the increment is added once more after the last polish): refuted on a concrete fluid. With Nstep = 0 the near-critical densities are returned."
  },
  {
   "property": "C36",
   "status": "proved",
   "theorems": [
    "Teqp.Props.crit_residual_is_derivs",
    "Teqp.Props.crit_residual_zero_iff",
    "Teqp.Props.crit_jacobian_exact",
    "Teqp.Props.crit_exact_step_count",
    "Teqp.Props.crit_solver_result",
    "Teqp.Props.crit_point_fixed",
    "Teqp.Props.crit_index_checked",
    "Teqp.Props.crit_index_without_length",
    "Teqp.Props.crit_molefracs",
    "Teqp.Props.extrapolation_spec"
   ],
   "note": "With maxsteps <= 0 no step is made and the index is not examined. An index without a length is refused with std::bad_optional_access."
  },
  {
   "property": "C37",
   "status": "partial",
   "theorems": [
    "Teqp.Props.tx_absent_component",
    "Teqp.Props.limiter_spec",
    "Teqp.Props.limiter_nonneg_partial",
    "Teqp.Props.tx_returns_negative_concentration",
    "Teqp.Props.tx_absent_component_disturbs_solution"
   ],
   "note": "An absent component keeps its concentrations for any number of iterations. Non-negativity fails: the limiter scales by half the smallest ratio over all components, which may be zero or negative, so a limited step can leave the domain (exact condition in limiter_nonneg_partial, complete run of the solver in tx_returns_negative_concentration). An absent component also disturbs the Newton step of the others."
  },
  {
   "property": "C38",
   "status": "proved",
   "theorems": [
    "Teqp.Props.tx_residual_zero_iff",
    "Teqp.Props.tp_residual_zero_iff",
    "Teqp.Props.px_residual_zero_iff",
    "Teqp.Props.tx_jacobian_exact",
    "Teqp.Props.tp_jacobian_exact",
    "Teqp.Props.px_jacobian_exact"
   ],
   "note": "Residual zero iff coexistence plus specification; Jacobian = derivative along every differentiable curve."
  },
  {
   "property": "C39",
   "status": "partial",
   "theorems": [
    "Teqp.Props.tx_return_code",
    "Teqp.Props.tx_lengths_refused",
    "Teqp.Props.px_return_code",
    "Teqp.Props.px_loop_run",
    "Teqp.Props.tx_false_convergence",
    "Teqp.Props.tp_never_reports",
    "Teqp.Props.tp_solution_reported_as_failure",
    "Teqp.Props.vlleT_code",
    "Teqp.Props.vlleP_code",
    "Teqp.Props.vlleT_xtol_false",
    "Teqp.Props.px_other_count",
    "Teqp.Props.dblMin_binary64"
   ],
   "note": "Return codes of the Tx, px and three-phase solvers are characterised by the last iterate. Negative results: the Tx solver reports convergence by step size away from any solution, the Tp solver reports failure at an exact solution, and the three-phase solvers compare the step without its absolute value, so that a large negative step is reported as convergence."
  },
  {
   "property": "C40",
   "status": "partial",
   "theorems": [
    "Teqp.Props.dp_tsat_is_slope",
    "Teqp.Props.dT_psat_is_slope",
    "Teqp.Props.dT_xsat_is_slope",
    "Teqp.Props.dp_tsat_linearised",
    "Teqp.Props.dp_tsat_dilute_is_slope",
    "Teqp.Props.dT_psat_dilute_is_slope",
    "Teqp.Props.envelope_refusals",
    "Teqp.Props.dp_tsat_accepts_more_components",
    "Teqp.Props.absent_from_one_phase",
    "Teqp.Props.negative_concentration",
    "Teqp.Props.xsat_needs_two_phases"
   ],
   "note": "All slope formulas, with the infinite-dilution branches, equal the velocity of every differentiable curve of coexisting states. Negative result: get_drhovecdp_Tsat does not refuse three or more components."
  },
  {
   "property": "C41",
   "status": "partial",
   "theorems": [
    "Teqp.Props.isotherm_rhs_tangent",
    "Teqp.Props.isotherm_rhs_follows_envelope",
    "Teqp.Props.isobar_rhs_tangent_partial",
    "Teqp.Props.isobar_rhs_follows_envelope_partial",
    "Teqp.Props.isobar_reverse_not_tangent",
    "Teqp.Props.isobar_flip_not_tangent",
    "Teqp.Props.isobar_rhs_leaves_envelope"
   ],
   "note": "Holds for isotherms in every case. For isobars it holds only in the forward direction without reversal; the reversed direction and the flip are proved to leave the tangent (dT/dt is not multiplied by c; only the first four of five entries are flipped)."
  },
  {
   "property": "C42",
   "status": "partial",
   "theorems": [
    "Teqp.Props.critConditions_sound",
    "Teqp.Props.critConditions_complete",
    "Teqp.Props.critConditions_dirderiv",
    "Teqp.Props.critTangent_first_equation_partial",
    "Teqp.Props.critTangent_leaves_curve",
    "Teqp.Props.critRhs_direction",
    "Teqp.Props.critXprime_direction",
    "Teqp.Props.critXprime_refuses_negative",
    "Teqp.Props.dpdTcrit_along",
    "Teqp.Props.traceCrit_points",
    "Teqp.Props.traceCrit_model_points",
    "Teqp.Props.traceCrit_refuses_order",
    "Teqp.Props.traceCrit_stalls",
    "Teqp.Props.critFinish_stops_late",
    "Teqp.Props.traceCritLoop_dt",
    "Teqp.Props.critXprime_speed"
   ],
   "note": "The criticality conditions are sound and complete, the direction is normalised and never reversed, every stored point was accepted within the tolerances and has mole fractions in [0,1]. The tangent satisfies the first linearised condition; the second is false of the code (critTangent_leaves_curve gives a fluid whose curve has velocity (-1,-1) while (-1/4,-1) is returned), because the derivative of the third-order condition is taken with the fourth derivative along the fixed eigenvector. Eigen-solver and linear solver are parameters with a contract."
  },
  {
   "property": "C43",
   "status": "partial",
   "theorems": [
    "Teqp.Props.selfIntersections_sound",
    "Teqp.Props.selfIntersections_complete",
    "Teqp.Props.crossIntersections_sound",
    "Teqp.Props.crossIntersections_complete",
    "Teqp.Props.findVLLE_empty_trace"
   ],
   "note": "Sound and complete for all polylines with a point, under the contract of the column-pivoting QR solve in exact arithmetic. An empty trace is undefined behaviour (unsigned size() - 1 wraps), so the statement fails there."
  },
  {
   "property": "C44",
   "status": "partial",
   "theorems": [
    "Teqp.Props.vlleGuess_mirrored",
    "Teqp.Props.vlleGuess_at_crossing_iff",
    "Teqp.Props.vlleGuess_off_crossing"
   ],
   "note": "False of the code: the interpolation weights are interchanged, the guess lies at the fraction 1 - s; it reproduces the crossing only at the midpoint or on a vertical segment. Proved as such, with a concrete witness."
  },
  {
   "property": "C45",
   "status": "partial",
   "theorems": [
    "Teqp.Props.traceVLLE_points",
    "Teqp.Props.traceVLLE_never_ends",
    "Teqp.Props.traceVLLE_negative_retries",
    "Teqp.Props.traceVLLE_retries_irrelevant",
    "Teqp.Props.traceVLLE_increments",
    "Teqp.Props.traceVLLE_downward_unlimited"
   ],
   "note": "False of the code as stated: rejected steps are never counted, a stepper that always rejects never ends the trace, and on downward traces the step is not limited. Proved: what holds of every recorded point, the step-count bound, the limit on upward increments."
  },
  {
   "property": "C46",
   "status": "partial",
   "theorems": [
    "Teqp.Props.peConstruct_ok",
    "Teqp.Props.peConstruct_terminates",
    "Teqp.Props.peUnpack_pack",
    "Teqp.Props.pePack_unpack",
    "Teqp.Props.peVector_unpack",
    "Teqp.Props.peCall_square",
    "Teqp.Props.peCall_refuses",
    "Teqp.Props.peCall_out_of_bounds",
    "Teqp.Props.peCall_returns",
    "Teqp.Props.peCall_needs_ideal",
    "Teqp.Props.peCall_zero",
    "Teqp.Props.peBalance_last",
    "Teqp.Props.peSpecRow_zero",
    "Teqp.Props.peS_meaning",
    "Teqp.Props.peU_meaning",
    "Teqp.Props.peH_meaning",
    "Teqp.Props.peCall_jacobian_partial",
    "Teqp.Props.peSpecRow_exact",
    "Teqp.Props.peBalRow_exact",
    "Teqp.Props.peSumRow_exact",
    "Teqp.Props.peFugRow_wrong",
    "Teqp.Props.pePresRow_wrong",
    "Teqp.Props.caloric_own_constant",
    "Teqp.Props.caloric_row_wrong",
    "Teqp.Props.pe_pressure_bulk_constant",
    "Teqp.Props.pe_pressure_row_meaning"
   ],
   "note": "Square system, layout round trip and meaning of the residuals proved for all numbers of phases and components. Jacobian proved exact for one phase and for two phases of two components; false otherwise: the loop over Jacobian blocks of the fugacity rows runs over components instead of phases (out of bounds when 2 <= phases < components), and rows for later phases fill the blocks of other phases. Mismatched phase sizes end the program through a bare throw. The s, u and h rows are also wrong for one phase when the ideal-gas model has another gas constant than the residual model (caloric_row_wrong). With a composition-dependent gas constant the ideal part of each pressure uses the gas constant of the bulk (pe_pressure_bulk_constant)."
  },
  {
   "property": "C47",
   "status": "partial",
   "theorems": [
    "Teqp.Props.takeSteps_run",
    "Teqp.Props.takeSteps_refuses",
    "Teqp.Props.takeSteps_success",
    "Teqp.Props.takeSteps_answers",
    "Teqp.Props.maxAbs_success",
    "Teqp.Props.minRelStep_success",
    "Teqp.Props.minRelStep_one_enough",
    "Teqp.Props.negativeX_fatal",
    "Teqp.Props.nanXDX_fatal",
    "Teqp.Props.stepCount_fatal",
    "Teqp.Props.stepCount_ignores_steps",
    "Teqp.Props.freeIndices_spec",
    "Teqp.Props.relScale_spec",
    "Teqp.Props.calcSystem_exact",
    "Teqp.Props.maxAbs_success_meaning",
    "Teqp.Props.calcMaxabsr_eq",
    "Teqp.Props.takeSteps_TD",
    "Teqp.Props.takeSteps_TD_log",
    "Teqp.Props.takeSteps_success_before_step",
    "Teqp.Props.takeSteps_success_negative",
    "Teqp.Props.relative_zero_target",
    "Teqp.Props.reset_run"
   ],
   "note": "Step bounds, refusal of non-positive counts and truthfulness of success proved for all conditions. False of the code: the step-count condition is shown the requested number of steps, so it fires in the first step or never; take_steps_logrho reports success for prescribed T and rho while missing the density; success refers to the state before the last step. Infinities are identified with NaN in vectors."
  },
  {
   "property": "C48",
   "status": "proved",
   "theorems": [
    "Teqp.Props.log_step",
    "Teqp.Props.takeSteps_log_pos",
    "Teqp.Props.calcSystem_exact"
   ],
   "note": "For every number of steps and all conditions; the linear solver is a parameter."
  },
  {
   "property": "C49",
   "status": "partial",
   "theorems": [
    "Teqp.Props.capi_handles_partial",
    "Teqp.Props.capi_build_then_query",
    "Teqp.Props.handles_reused",
    "Teqp.Props.cRun_ok"
   ],
   "note": "Proved for histories with fewer than 2^64 builds. Beyond that the claim is false: the counter wraps, the next build returns a handle that is in use, emplace keeps the old model (handles_reused)."
  },
  {
   "property": "C50",
   "status": "proved",
   "theorems": [
    "Teqp.Props.writeError_safe",
    "Teqp.Props.writeError_negative"
   ],
   "note": "For every true buffer size. A negative length is converted to a huge unsigned one and the message is written past the end (writeError_negative)."
  },
  {
   "property": "C51",
   "status": "partial",
   "theorems": [
    "Teqp.Props.cStep_returns",
    "Teqp.Props.excHandler_code",
    "Teqp.Props.excHandler_message_kept",
    "Teqp.Props.excHandler_message_lost",
    "Teqp.Props.excHandler_message_wrong",
    "Teqp.Props.foreign_escapes"
   ],
   "note": "Codes, untouched outputs and no escaping exception proved for exceptions derived from std::exception. The message claim is false: std::exception is caught by value and sliced, the buffer then reads std::exception; an exception of another type escapes."
  },
  {
   "property": "C52",
   "status": "partial",
   "theorems": [
    "Teqp.Props.conc_sequential_partial",
    "Teqp.Props.conc_queries_safe",
    "Teqp.Props.conc_build_race",
    "Teqp.Props.conc_free_race",
    "Teqp.Props.conc_guess_not_sequential"
   ],
   "note": "The table is not locked: concurrent builds or a free during a query are data races (undefined behaviour). For race-free executions in which callers use only handles they were given, results are those of a sequential order; with guessed handles they need not be."
  },
  {
   "property": "C53",
   "status": "partial",
   "theorems": [
    "Teqp.Props.buildModelPtr_ok",
    "Teqp.Props.buildModelPtr_refuses",
    "Teqp.Props.buildModelPtr_invalid",
    "Teqp.Props.buildModelPtr_no_schema",
    "Teqp.Props.addFactory_spec",
    "Teqp.Props.registerAll_spec",
    "Teqp.Props.builtinKinds_nodup"
   ],
   "note": "Proved except that a missing schema is not an error: validation is then skipped silently (buildModelPtr_no_schema)."
  },
  {
   "property": "C54",
   "status": "proved",
   "theorems": [
    "Teqp.Props.container_spec",
    "Teqp.Props.container_getRef"
   ],
   "note": "For up to 2^64-1 models; the container never drops models."
  },
  {
   "property": "C55",
   "status": "proved",
   "theorems": [
    "Teqp.Props.buildSquareMatrix_faithful",
    "Teqp.Props.buildSquareMatrix_refuses",
    "Teqp.Props.buildSquareMatrix_null"
   ],
   "note": "null stands for an absent matrix and gives the empty one."
  },
  {
   "property": "C56",
   "status": "proved",
   "theorems": [
    "Teqp.Props.newton_contract",
    "Teqp.Props.newton_nonfinite",
    "Teqp.Props.newton_nonfinite_start",
    "Teqp.Props.newton_affine",
    "Teqp.Props.newton_last_step_unchecked"
   ],
   "note": "Contract as stated. newton_last_step_unchecked: the returned point is one update beyond the last evaluated one and its own residual is never evaluated; the iteration limit is silent."
  },
  {
   "property": "C57",
   "status": "proved",
   "theorems": [
    "Teqp.Props.massAction_exists_unique",
    "Teqp.Props.ssLoop_physical",
    "Teqp.Props.ssLoop_lower",
    "Teqp.Props.ssLoop_massAction",
    "Teqp.Props.ssLoop_converges",
    "Teqp.Props.ssLoop_accuracy",
    "Teqp.Props.explicit_massAction",
    "Teqp.Props.assocSolve_explicit",
    "Teqp.Props.assocSum_nonpos",
    "Teqp.Props.assocSum_lower",
    "Teqp.Props.assocSolve_physical",
    "Teqp.Props.assoc_alphar_nonpos",
    "Teqp.Props.assoc_sizes_refused",
    "Teqp.Props.assoc_alpha_unchecked",
    "Teqp.Props.assoc_alpha_one",
    "Teqp.Props.assoc_limit_silent",
    "Teqp.Props.assoc_options_unchecked"
   ],
   "note": "For damping 0<=alpha<1 (documented range; the code accepts any value: assoc_alpha_unchecked, assoc_alpha_one). Uniqueness, convergence and an a-posteriori error bound are proved in addition. The limit of iterations is silent (assoc_limit_silent)."
  },
  {
   "property": "C58",
   "status": "partial",
   "theorems": [
    "Teqp.Props.getDIJ_spec",
    "Teqp.Props.makeD_spec",
    "Teqp.Props.makeD_mask_refused",
    "Teqp.Props.makeD_missing_partner",
    "Teqp.Props.disabled_site_free",
    "Teqp.Props.disabled_no_contribution_partial",
    "Teqp.Props.masked_pure_associates",
    "Teqp.Props.getPartners_default",
    "Teqp.Props.getPartners_custom"
   ],
   "note": "masked_pure_associates refutes the claim: the closed form for a pure fluid with two kinds of sites ignores the interaction table. disabled_no_contribution_partial proves the claim for all other cases."
  },
  {
   "property": "C59",
   "status": "proved",
   "theorems": [
    "Teqp.Props.cpa_massAction",
    "Teqp.Props.cpaRoot_simple",
    "Teqp.Props.cpaRoot_3B",
    "Teqp.Props.cpa_alphar",
    "Teqp.Props.cpa_zero_density",
    "Teqp.Props.cpa_descriptions_agree",
    "Teqp.Props.assocClass_table",
    "Teqp.Props.cpa_style"
   ],
   "note": "closed forms solve the mass-action equations of each scheme with fractions in (0,1]; the density must be positive (at zero density the closed form is 0/0, cpa_zero_density); the site description of the new branch gives the same term"
  },
  {
   "property": "C60",
   "status": "partial",
   "theorems": [
    "Teqp.Props.cpa_dist",
    "Teqp.Props.cpa_dist_partial",
    "Teqp.Props.cpa_dist_ignored",
    "Teqp.Props.assocFactory_dist",
    "Teqp.Props.assocFactory_no_options_ub",
    "Teqp.Props.cpaKmat_spec",
    "Teqp.Props.cpa_names",
    "Teqp.Props.cpa_dist_names",
    "Teqp.Props.assoc_options_read",
    "Teqp.Props.assoc_mask_typed"
   ],
   "note": "false of the code: an options block without radial_dist replaces the requested KG by the default CS (cpa_dist_ignored); exact description of the distribution used (cpa_dist); holds without options block or with one that repeats the request (cpa_dist_partial)"
  },
  {
   "property": "C61",
   "status": "proved",
   "theorems": [
    "Teqp.Props.pure_eq_mixture",
    "Teqp.Props.pure_tables",
    "Teqp.Props.pc_copies",
    "Teqp.Props.hs_branches",
    "Teqp.Props.pcHS_eq",
    "Teqp.Props.pcC2_deriv",
    "Teqp.Props.pcC1_bounds",
    "Teqp.Props.pc_regular",
    "Teqp.Props.pc_maxdensity",
    "Teqp.Props.pcMixture_alphar",
    "Teqp.Props.pcMake_fits",
    "Teqp.Props.pcFactory_fits",
    "Teqp.Props.pcFactory_kmat",
    "Teqp.Props.pcFactory_neither",
    "Teqp.Props.pcFactory_both_accepted",
    "Teqp.Props.pcLibrary_physical"
   ],
   "note": "also: finite from zero density up to close packing for physical parameters; a document with both names and coeffs is accepted although the message says not both (pcFactory_both_accepted)"
  },
  {
   "property": "C62",
   "status": "proved",
   "theorems": [
    "Teqp.Props.ancillary_value",
    "Teqp.Props.ancillary_refuses",
    "Teqp.Props.ancillary_at_reducing",
    "Teqp.Props.ancillary_continuous_at_reducing",
    "Teqp.Props.ancillary_positive",
    "Teqp.Props.ancillary_make_noexp",
    "Teqp.Props.ancillaries_pressure",
    "Teqp.Props.ancillary_no_lower_limit",
    "Teqp.Props.ancillary_zero_exponent"
   ],
   "note": "ancillary_no_lower_limit: Tmin is read but never enforced."
  },
  {
   "property": "C63",
   "status": "partial",
   "theorems": [
    "Teqp.Props.wilson_value",
    "Teqp.Props.wilson_uniform",
    "Teqp.Props.wilson_pure",
    "Teqp.Props.wilson_relabel",
    "Teqp.Props.wilson_eval_relabel",
    "Teqp.Props.wilson_nonneg",
    "Teqp.Props.wilson_pure_nonzero",
    "Teqp.Props.wilson_sizes",
    "Teqp.Props.binaryInvariant_spec",
    "Teqp.Props.binaryInvariant_sizes",
    "Teqp.Props.binaryInvariant_symmetric_iff",
    "Teqp.Props.aresFactory_ok",
    "Teqp.Props.aresFactory_refuses"
   ],
   "note": "Pure-fluid vanishing needs a zero diagonal in m and n, which is not checked (wilson_pure_nonzero); the binary invariant form is symmetric only if c0*c2=0 (binaryInvariant_symmetric_iff). COSMO-SAC is covered by C114-C118."
  },
  {
   "property": "C64",
   "status": "partial",
   "theorems": [
    "Teqp.Props.threads_private_independent",
    "Teqp.Props.threads_sequential_partial",
    "Teqp.Props.threads_interfere"
   ],
   "note": "False of the code: the static arrays of Clenshaw1DByRow are shared, and for every expansion with a nonzero value there is an interleaving with a wrong value. Proved: arrays of one's own make all interleavings equal to sequential evaluation, and evaluations that do not overlap are right. Steps are assignments to whole arrays; the memory model of C++ is not modelled."
  },
  {
   "property": "C65",
   "status": "proved",
   "theorems": [
    "Teqp.Props.cubic_B2",
    "Teqp.Props.vdWMix_B2",
    "Teqp.Props.RKPR_B2",
    "Teqp.Props.vdWMix_B12"
   ],
   "note": ""
  },
  {
   "property": "C66",
   "status": "proved",
   "theorems": [
    "Teqp.Props.alpha_slope_Tc",
    "Teqp.Props.mathiasCopeman_reduces",
    "Teqp.Props.alpha_strictAnti",
    "Teqp.Props.m_positive",
    "Teqp.Props.mPR_switch"
   ],
   "note": "The two PR78 branches do not meet exactly at the switch: the jump in m is about 0.0043."
  },
  {
   "property": "C67",
   "status": "proved",
   "theorems": [
    "Teqp.Props.neff_inverse_power",
    "Teqp.Props.neff_isomorph"
   ],
   "note": ""
  },
  {
   "property": "C68",
   "status": "partial",
   "theorems": [
    "Teqp.Props.gaussian_document",
    "Teqp.Props.lemmon_document",
    "Teqp.Props.exponential_document",
    "Teqp.Props.exponential_truncates",
    "Teqp.Props.doubleExponential_document",
    "Teqp.Props.gaoB_document",
    "Teqp.Props.nonAnalytic_document",
    "Teqp.Props.departure_power_unequal",
    "Teqp.Props.departure_power_accepts",
    "Teqp.Props.pure_power_accepts",
    "Teqp.Props.pure_power_unequal_lengths",
    "Teqp.Props.combined_ub"
   ],
   "note": "false for pure-fluid power terms (unequal lengths read out of bounds), for exponential and double-exponential terms (non-integer exponents truncated) and for Npower outside of the arrays; proved elsewhere"
  },
  {
   "property": "C69",
   "status": "proved",
   "theorems": [
    "Teqp.Props.isotherm_points",
    "Teqp.Props.isobar_points",
    "Teqp.Props.isotherm_throws",
    "Teqp.Props.isotherm_refuses_lengths",
    "Teqp.Props.isotherm_from_one_sided_state",
    "Teqp.Props.isobar_from_one_sided_state"
   ],
   "note": "The integrator step is a parameter. The return code of the polishing solver is not looked at by the code (example in the file)."
  },
  {
   "property": "C70",
   "status": "partial",
   "theorems": [
    "Teqp.Props.eigenProblem_frame",
    "Teqp.Props.eigenProblem_least",
    "Teqp.Props.getDerivs_along",
    "Teqp.Props.eigenProblem_refuses",
    "Teqp.Props.eigenProblem_dilute",
    "Teqp.Props.eigenProblem_absent_multi",
    "Teqp.Props.isLocallyStable_iff"
   ],
   "note": "Proved when all components are present, for binaries with one absent component, and for the error with two absent. eigenProblem_absent_multi: with three or more components and one absent, v1 is the zero vector, so the claim about v1 is false of the code there. The symmetric eigen-solver is a parameter with the contract EigContract."
  },
  {
   "property": "C71",
   "status": "partial",
   "theorems": [
    "Teqp.Props.traceCrit_endpoint",
    "Teqp.Props.endpointPolish_without_crossing",
    "Teqp.Props.endpointPolish_after_crossing",
    "Teqp.Props.endpointPolish_guess"
   ],
   "note": "Whatever is added is a pure critical point with the other concentration zero. False of the code: the trigger fires when some concentration keeps its sign (endpointPolish_without_crossing), the step takes the larger concentration to zero (endpointPolish_guess), and after a crossing with terminate_negative_density the exception loses the trace (endpointPolish_after_crossing)."
  },
  {
   "property": "C72",
   "status": "proved",
   "theorems": [
    "Teqp.Props.vlleResid_zero_iff",
    "Teqp.Props.vllePResid_zero_iff",
    "Teqp.Props.vllePJac_exact",
    "Teqp.Props.vlleJac_exact",
    "Teqp.Props.drhodTVLLE_is_slope",
    "Teqp.Props.mixVLLET_size"
   ],
   "note": "For fluids with a gas constant that does not depend on composition. Tangent under regularity of the 2x2 systems solved; other numbers of components are undefined behaviour."
  },
  {
   "property": "C73",
   "status": "proved",
   "theorems": [
    "Teqp.Props.findVLLE_cross",
    "Teqp.Props.findVLLE_self",
    "Teqp.Props.findVLLE_reports",
    "Teqp.Props.findVLLE_refuses"
   ],
   "note": "The polisher's return code is recorded but not consulted by the code; the polisher is a parameter."
  },
  {
   "property": "C74",
   "status": "proved",
   "theorems": [
    "Teqp.Props.pathRates_exact",
    "Teqp.Props.pathIntegrate_steps",
    "Teqp.Props.pathIntegrate_linear",
    "Teqp.Props.pathRates_singular",
    "Teqp.Props.pathIntegrate_total",
    "Teqp.Props.pathIntegrate_singular",
    "Teqp.Props.pathIntegrate_TD"
   ],
   "note": "For regular Jacobians without zero entries; with zero entries the code relies on IEEE infinities, which are not modelled."
  },
  {
   "property": "C75",
   "status": "proved",
   "theorems": [
    "Teqp.Props.jsonTreeLoad_spec",
    "Teqp.Props.loadJsonFile_ok",
    "Teqp.Props.jsonSameLength_spec"
   ],
   "note": "The file system and the JSON parser are parameters."
  },
  {
   "property": "C76",
   "status": "partial",
   "theorems": [
    "Teqp.Props.assoc_virial_exact",
    "Teqp.Props.assoc_virial_lost",
    "Teqp.Props.assoc_virial_half",
    "Teqp.Props.assoc_virial_wrong"
   ],
   "note": "The claim is false: the iterative branch loses the contribution entirely and the closed form gives one half of it (both proved for all inputs, with a concrete witness). Automatic differentiation is represented by dual numbers with comparison of values only."
  },
  {
   "property": "C77",
   "status": "proved",
   "theorems": [
    "Teqp.Props.cpaCubic_pressure",
    "Teqp.Props.cpa_size_refused",
    "Teqp.Props.cpaCubic_read",
    "Teqp.Props.cpa_amix_binary",
    "Teqp.Props.cpaCubic_finite"
   ],
   "note": ""
  },
  {
   "property": "C78",
   "status": "partial",
   "theorems": [
    "Teqp.Props.cpa_missing_pures",
    "Teqp.Props.cpa_missing_partial"
   ],
   "note": "false of the code: missing top-level entries are read with operator[] of a constant document, which is undefined behaviour (cpa_missing_pures); a model is only returned if they are present (cpa_missing_partial).  Schema validation in make_model may intercept before."
  },
  {
   "property": "C79",
   "status": "partial",
   "theorems": [
    "Teqp.Props.quad_third_order_wrong_sign",
    "Teqp.Props.quad_third_order_partial",
    "Teqp.Props.JDD3_neg",
    "Teqp.Props.JQQ3_pos",
    "Teqp.Props.alpha3QQ_eq"
   ],
   "note": "False of the code: get_alpha3QQ calls the dipolar correlation, so the third-order quadrupolar term has the opposite sign at every physical state (quad_third_order_wrong_sign). quad_third_order_partial: the sum agrees with the published one once the dipolar correlation is accepted in place of the quadrupolar one."
  },
  {
   "property": "C80",
   "status": "partial",
   "theorems": [
    "Teqp.Props.gv_not_finite",
    "Teqp.Props.dip_removable",
    "Teqp.Props.dip_bounds",
    "Teqp.Props.pc_polar_not_finite",
    "Teqp.Props.pc_polar_partial",
    "Teqp.Props.gv_copies",
    "Teqp.Props.multi_make",
    "Teqp.Props.diquad_make",
    "Teqp.Props.multi_sum"
   ],
   "note": "False of the code: 0/0 at zero density and where the polar component is absent (gv_not_finite, pc_polar_not_finite). Proved: the singularity is removable (dip_removable), the term is bounded and has the right sign away from it, splitting components does not change it (gv_copies), the choice of contributions at construction (multi_make)."
  },
  {
   "property": "C81",
   "status": "proved",
   "theorems": [
    "Teqp.Props.multipolar_agree",
    "Teqp.Props.multipolar_alpha2",
    "Teqp.Props.multipolar_alpha3A",
    "Teqp.Props.multipolar_alpha3B"
   ],
   "note": "Non-negative quadrupole moments are assumed: the reduced squared moment of Gubbins-Twu loses the sign of Q. Equality of results where the second-order term is not zero; at zero see C83."
  },
  {
   "property": "C82",
   "status": "partial",
   "theorems": [
    "Teqp.Props.gg_grad2_defect",
    "Teqp.Props.gg_grad3_defect",
    "Teqp.Props.gg_grad2_wrong",
    "Teqp.Props.gg_grad3_wrong",
    "Teqp.Props.gg_grad_partial",
    "Teqp.Props.gg_field_partial",
    "Teqp.Props.gg_field_split",
    "Teqp.Props.gg_axis_mean",
    "Teqp.Props.gg_induced",
    "Teqp.Props.gg_variational_partial"
   ],
   "note": "False for mixtures: the second-order gradient uses z1 of the wrong component, the third-order sums are not reset between components and omit C3b on one term; exact defects proved. The field is not divided by the mole fraction (gg_field_split). For one component with C3b = 1 everything is exact."
  },
  {
   "property": "C83",
   "status": "partial",
   "theorems": [
    "Teqp.Props.multipolar_zero_density",
    "Teqp.Props.gg_zero_slope_lost",
    "Teqp.Props.gg_jet_partial"
   ],
   "note": "False of the code: Gubbins-Twu and the polarizable branch are not finite at zero density, and the non-polarizable branch returns derivative zero there although the true slope is not zero. gg_jet_partial: the derivative is right wherever the second-order term is not zero."
  },
  {
   "property": "C84",
   "status": "partial",
   "theorems": [
    "Teqp.Props.rhostar_unknown"
   ],
   "note": "False of the code: the unknown name is mapped to the first enumerator and only evaluation throws."
  },
  {
   "property": "C85",
   "status": "proved",
   "theorems": [
    "Teqp.Props.gv_corresponding_states",
    "Teqp.Props.gv_pure"
   ],
   "note": "Corresponding states for all factors; the one-component closed form."
  },
  {
   "property": "C86",
   "status": "proved",
   "theorems": [
    "Teqp.Props.sw_hard_sphere",
    "Teqp.Props.sw_virial",
    "Teqp.Props.sw_virial_upper",
    "Teqp.Props.sw_third_virial"
   ],
   "note": "Carnahan-Starling part, zero value and slope at zero density, comparison with the exact second virial coefficient."
  },
  {
   "property": "C87",
   "status": "partial",
   "theorems": [
    "Teqp.Props.sw_polynomials",
    "Teqp.Props.sw_jumps",
    "Teqp.Props.sw_continuous_partial",
    "Teqp.Props.sw_alphar_jump",
    "Teqp.Props.sw_a31"
   ],
   "note": "False of the code: the polynomials for width above 2 contain integer quotients such as 17/2, so several coefficients and the residual energy jump at width 2; the remaining coefficients are continuous."
  },
  {
   "property": "C88",
   "status": "proved",
   "theorems": [
    "Teqp.Props.lkp_value",
    "Teqp.Props.lkp_compressibility",
    "Teqp.Props.lkp_pure_parameters",
    "Teqp.Props.lkp_pure",
    "Teqp.Props.lkp_identical",
    "Teqp.Props.lkp_diagonal_unchecked",
    "Teqp.Props.lkp_sizes",
    "Teqp.Props.lkp_critical",
    "Teqp.Props.lkp_factory"
   ],
   "note": "The pure limits need a unit diagonal of kmat, which the constructor does not check (lkp_diagonal_unchecked)."
  },
  {
   "property": "C89",
   "status": "partial",
   "theorems": [
    "Teqp.Props.huberEly_reference",
    "Teqp.Props.huberEly_corresponding",
    "Teqp.Props.huberEly_short",
    "Teqp.Props.huberEly_same_acentric",
    "Teqp.Props.huberEly_factory"
   ],
   "note": "The rejection of short coefficient arrays is false: they are read out of range."
  },
  {
   "property": "C90",
   "status": "partial",
   "theorems": [
    "Teqp.Props.aw_reducing_pos",
    "Teqp.Props.aw_value",
    "Teqp.Props.aw_ammonia",
    "Teqp.Props.aw_water",
    "Teqp.Props.aw_sizes",
    "Teqp.Props.aw_table",
    "Teqp.Props.aw_virial"
   ],
   "note": "At pure water the code raises to a negative power of zero times zero; the limit exists and is the water equation, but the value is not returned."
  },
  {
   "property": "C91",
   "status": "partial",
   "theorems": [
    "Teqp.Props.plus_reference",
    "Teqp.Props.plus_pure",
    "Teqp.Props.plus_dilute",
    "Teqp.Props.plus_check_late"
   ],
   "note": "The check of the sizes is made after elements have been read."
  },
  {
   "property": "C92",
   "status": "partial",
   "theorems": [
    "Teqp.Props.ecs_pure",
    "Teqp.Props.ecs_lorentz",
    "Teqp.Props.ecs_input",
    "Teqp.Props.ecs_surface",
    "Teqp.Props.ecs_sizes"
   ],
   "note": "Matrices smaller than needed are accepted and then read out of range."
  },
  {
   "property": "C93",
   "status": "proved",
   "theorems": [
    "Teqp.Props.johnson_pressure",
    "Teqp.Props.hasDerivAt_johnsonG",
    "Teqp.Props.johnsonG_zero",
    "Teqp.Props.lj_tables",
    "Teqp.Props.lj_virials"
   ],
   "note": "Against a separately written pressure with the 32 coefficients."
  },
  {
   "property": "C94",
   "status": "proved",
   "theorems": [
    "Teqp.Props.kn_hard_sphere",
    "Teqp.Props.kn_temperature",
    "Teqp.Props.kn_virial",
    "Teqp.Props.lj_tables_other",
    "Teqp.Props.lj_virials"
   ],
   "note": "Hard-sphere compressibility, temperature derivatives, second virial coefficient."
  },
  {
   "property": "C95",
   "status": "partial",
   "theorems": [
    "Teqp.Props.gLJ_zero",
    "Teqp.Props.chain_limits",
    "Teqp.Props.chain_monomer_nonFinite",
    "Teqp.Props.soft_den",
    "Teqp.Props.soft_alike",
    "Teqp.Props.soft_sizes",
    "Teqp.Props.lj_tables_other",
    "Teqp.Props.soft_make"
   ],
   "note": "The contact value can be negative at low temperature, and then even one segment has no value (chain_monomer_nonFinite); parameter arrays of unequal length are accepted and read past their end (soft_sizes)."
  },
  {
   "property": "C96",
   "status": "partial",
   "theorems": [
    "Teqp.Props.tc_names",
    "Teqp.Props.tc_factory",
    "Teqp.Props.tc_factory_missing",
    "Teqp.Props.tc_ok",
    "Teqp.Props.tc_virial",
    "Teqp.Props.tc_nonpolar",
    "Teqp.Props.tc_hard_sphere",
    "Teqp.Props.tc_tables",
    "Teqp.Props.pole_tables",
    "Teqp.Props.tc_reducing_jump",
    "Teqp.Props.tc_sphere_limit",
    "Teqp.Props.tc_sphere_virial",
    "Teqp.Props.tc_smooth",
    "Teqp.Props.tc_three_halves",
    "Teqp.Props.tc_no_third_virial"
   ],
   "note": "The reducing temperature at elongation zero is a quarter of its limit, so the limit holds after rescaling; the dipole terms have a power 3/2 of density, so no third virial coefficient."
  },
  {
   "property": "C97",
   "status": "partial",
   "theorems": [
    "Teqp.Props.kataoka_get",
    "Teqp.Props.kataoka_grid",
    "Teqp.Props.kataoka_poly",
    "Teqp.Props.kataoka_loop",
    "Teqp.Props.kataoka_virial",
    "Teqp.Props.kataoka_total",
    "Teqp.Props.kataoka_nonFinite"
   ],
   "note": "Everything but the refusal: a steepness of eight or less is accepted and gives values that are not finite."
  },
  {
   "property": "C98",
   "status": "partial",
   "theorems": [
    "Teqp.Props.pohl_ok",
    "Teqp.Props.pohl_lj",
    "Teqp.Props.pohl_monotone",
    "Teqp.Props.pohl_critical",
    "Teqp.Props.pohl_nonFinite",
    "Teqp.Props.mie_depth",
    "Teqp.Props.mieAlpha_integral",
    "Teqp.Props.mieAlpha_symm",
    "Teqp.Props.mieAlpha_lj",
    "Teqp.Props.feann_zero",
    "Teqp.Props.feann_bounded",
    "Teqp.Props.feann_nonFinite",
    "Teqp.Props.feann_one"
   ],
   "note": "Exponents without a value are accepted and give values that are not finite. The weights of the network are parameters."
  },
  {
   "property": "C99",
   "status": "partial",
   "theorems": [
    "Teqp.Props.codataR_val",
    "Teqp.Props.gasR_between",
    "Teqp.Props.gasR_pure",
    "Teqp.Props.gasR_too_long",
    "Teqp.Props.gasR_choice",
    "Teqp.Props.gasR_unknown",
    "Teqp.Props.fluidR_missing"
   ],
   "note": "An unknown value of the flag is ignored and a composition that is too long reads past the end."
  },
  {
   "property": "C100",
   "status": "partial",
   "theorems": [
    "Teqp.Props.nonpolar_names",
    "Teqp.Props.generic_alphar",
    "Teqp.Props.generic_refuses",
    "Teqp.Props.wrap_pressure",
    "Teqp.Props.generic_two_center",
    "Teqp.Props.multifluidAssoc_R"
   ],
   "note": "The residual Helmholtz energy is kept; the gas constant is replaced by that of CODATA, so the pressure is kept only where it was that."
  },
  {
   "property": "C101",
   "status": "partial",
   "theorems": [
    "Teqp.Props.collections_single",
    "Teqp.Props.collections_missing",
    "Teqp.Props.collections_default",
    "Teqp.Props.collections_given",
    "Teqp.Props.collections_prefix",
    "Teqp.Props.collections_departure_refused"
   ],
   "note": "The prefix PATH:: works without a root only; with a root the parser's exception appears. The REFPROP branch is not modelled."
  },
  {
   "property": "C102",
   "status": "proved",
   "theorems": [
    "Teqp.Props.gerg_name_injective",
    "Teqp.Props.gerg_ofName",
    "Teqp.Props.gerg_info",
    "Teqp.Props.gerg_pure_table",
    "Teqp.Props.gerg_betas",
    "Teqp.Props.gerg_betas_none",
    "Teqp.Props.gerg_departure",
    "Teqp.Props.gerg_aig_table",
    "Teqp.Props.gerg_ideal_versions",
    "Teqp.Props.gerg_linear_pairs",
    "Teqp.Props.gerg_info_versions",
    "Teqp.Props.gerg_betas_range",
    "Teqp.Props.gerg_departure_shape"
   ],
   "note": "Decided over the complete tables transcribed as rational numbers; masses compared with the atomic masses of the formula; the pairs following the linear rule are listed in the specification."
  },
  {
   "property": "C103",
   "status": "proved",
   "theorems": [
    "Teqp.Props.gerg_reference",
    "Teqp.Props.gerg_ideal_build",
    "Teqp.Props.gerg_ideal_refused",
    "Teqp.Props.gerg_constants_unused",
    "Teqp.Props.gerg_ideal_deriv",
    "Teqp.Props.gerg_ideal_mixture",
    "Teqp.Props.gerg_monatomic",
    "Teqp.Props.gerg_reference_pressure"
   ],
   "note": "Contract of the linear solver: solves regular 2x2 systems; Cramer's rule shown to meet it."
  },
  {
   "property": "C104",
   "status": "proved",
   "theorems": [
    "Teqp.Props.gerg_build_ok",
    "Teqp.Props.gerg_build_refused",
    "Teqp.Props.gerg_reducing",
    "Teqp.Props.gerg_value",
    "Teqp.Props.gerg_pure_value",
    "Teqp.Props.gerg_dep_value",
    "Teqp.Props.gerg_factory",
    "Teqp.Props.gerg_pure_domain",
    "Teqp.Props.gerg_single_names"
   ],
   "note": "Value against a separately stated multi-fluid sum."
  },
  {
   "property": "C105",
   "status": "proved",
   "theorems": [
    "Teqp.Props.gerg_pure_limit",
    "Teqp.Props.gerg_mixture_zero",
    "Teqp.Props.gerg_zero_density",
    "Teqp.Props.gerg_relabel",
    "Teqp.Props.gerg_absent"
   ],
   "note": "All compositions with non-negative fractions."
  },
  {
   "property": "C106",
   "status": "partial",
   "theorems": [
    "Teqp.Props.gerg_sizes",
    "Teqp.Props.gerg2004_too_many",
    "Teqp.Props.gerg_ideal_sizes"
   ],
   "note": "Holds for GERG-2008 and the ideal-gas models, and for GERG-2004 with too few fractions; with too many fractions GERG-2004 reads out of bounds (shown)."
  },
  {
   "property": "C107",
   "status": "proved",
   "theorems": [
    "Teqp.Props.gerg_critical"
   ],
   "note": "Accuracy per fluid in gergCritEps."
  },
  {
   "property": "C108",
   "status": "proved",
   "theorems": [
    "Teqp.Props.svr_g1",
    "Teqp.Props.svr_g2",
    "Teqp.Props.svrRhoD_deriv",
    "Teqp.Props.svrK_deriv",
    "Teqp.Props.svr_one_density"
   ],
   "note": "Derivatives with respect to packing fraction and to segment density at constant composition; automatic differentiation of the whole is trusted."
  },
  {
   "property": "C109",
   "status": "proved",
   "theorems": [
    "Teqp.Props.svr_zero_density",
    "Teqp.Props.svr_contact_zero",
    "Teqp.Props.svr_IJ",
    "Teqp.Props.svr_hs",
    "Teqp.Props.svr_hs_pure",
    "Teqp.Props.svr_a1_slope",
    "Teqp.Props.svr_a2_slope"
   ],
   "note": "Over the reals; diameters are given."
  },
  {
   "property": "C110",
   "status": "proved",
   "theorems": [
    "Teqp.Props.svr_copies",
    "Teqp.Props.svr_swap",
    "Teqp.Props.svr_pure_limit",
    "Teqp.Props.svr_pairSum",
    "Teqp.Props.svr_mono_expansion",
    "Teqp.Props.svr_packing"
   ],
   "note": "Through get_core_calcs, including the calculation of diameters and all refusals."
  },
  {
   "property": "C111",
   "status": "proved",
   "theorems": [
    "Teqp.Props.svr_pair_symm",
    "Teqp.Props.svr_kmat_lower",
    "Teqp.Props.svr_pair_diag",
    "Teqp.Props.svr_rules",
    "Teqp.Props.svr_depth",
    "Teqp.Props.svrLam_bounds",
    "Teqp.Props.svr_swap_asymmetric",
    "Teqp.Props.svr_exponent_excluded",
    "Teqp.Props.svr_size"
   ],
   "note": "The dependence of the order on an asymmetric matrix and the excluded exponents are findings stated as theorems."
  },
  {
   "property": "C112",
   "status": "proved",
   "theorems": [
    "Teqp.Props.svr_fgh",
    "Teqp.Props.svr_cutoff_exists",
    "Teqp.Props.svr_halley_fixed",
    "Teqp.Props.svr_diameter",
    "Teqp.Props.svr_dii_le",
    "Teqp.Props.svr_cutoff_error",
    "Teqp.Props.svr_cutoff_nonFinite",
    "Teqp.Props.svr_halley_between",
    "Teqp.Props.svr_halley_wrong_way",
    "Teqp.Props.svr_cutoff_found",
    "Teqp.Props.svr_cutoff_reached",
    "Teqp.Props.svr_diameter_found",
    "Teqp.Props.svr_diameter_cutoff"
   ],
   "note": "The error of the ten-point quadrature is not part of the claim. Starts outside of the minimum of the potential (very low temperatures) move away from the cutoff, stated as a theorem."
  },
  {
   "property": "C113",
   "status": "partial",
   "theorems": [
    "Teqp.Props.svrChain_cases",
    "Teqp.Props.svrChain_empty_ub",
    "Teqp.Props.svrRule_cases",
    "Teqp.Props.svr_sigma_units",
    "Teqp.Props.svrBuildPolar_drops",
    "Teqp.Props.svrBuildPolar_empty",
    "Teqp.Props.svrFactory_names",
    "Teqp.Props.svrFactory_nonpolar",
    "Teqp.Props.svrFactory_names_only",
    "Teqp.Props.svrFactory_neither",
    "Teqp.Props.svrPolarOf_unknown",
    "Teqp.Props.svr_legacy_roundtrip",
    "Teqp.Props.svr_missing_number",
    "Teqp.Props.svrMoments_number",
    "Teqp.Props.svrFactory_fits",
    "Teqp.Props.svr_segment_potential",
    "Teqp.Props.svr_polar_density",
    "Teqp.Props.svrLibrary_published",
    "Teqp.Props.svrLibrary_unknown",
    "Teqp.Props.svrSigma_units",
    "Teqp.Props.svr_entry",
    "Teqp.Props.svrPolarFactor_coulomb",
    "Teqp.Props.svr_moment_units",
    "Teqp.Props.svr_reduced_moments",
    "Teqp.Props.svr_polar_moments",
    "Teqp.Props.svrFactory_default_polar"
   ],
   "note": "The last clause is false: the constructor from coefficients drops the polar term when both moments are given (inverted flags), and a moment without its number of segments has no effect with the default model; an empty matrix is read out of bounds. Constructors of the Gubbins-Twu and Gray-Gubbins terms are taken to succeed."
  },
  {
   "property": "C114",
   "status": "proved",
   "theorems": [
    "Teqp.Props.cosmo_kernel",
    "Teqp.Props.cosmo_bond",
    "Teqp.Props.cosmo_charge_reversal",
    "Teqp.Props.seg_unique",
    "Teqp.Props.seg_exists_unique",
    "Teqp.Props.segLoop_cases",
    "Teqp.Props.segLoop_result",
    "Teqp.Props.cosmo_gamma_cases",
    "Teqp.Props.cosmo_boltzmann"
   ],
   "note": "Segment system of COSMO-SAC over the reals: existence and uniqueness (variational and comparison arguments), stopping rule of both loops."
  },
  {
   "property": "C115",
   "status": "proved",
   "theorems": [
    "Teqp.Props.seg_fast_slow",
    "Teqp.Props.seg_fast_stops",
    "Teqp.Props.seg_fast_blind",
    "Teqp.Props.seg_exact_sees",
    "Teqp.Props.cosmo_window_covers",
    "Teqp.Props.cosmo_bounds_ignore_bonding",
    "Teqp.Props.cosmo_fast_overflow",
    "Teqp.Props.cosmo_fast_drops"
   ],
   "note": "Window of the fast branch; the dropped OH/OT densities and the out-of-bounds writes are findings about the code."
  },
  {
   "property": "C116",
   "status": "proved",
   "theorems": [
    "Teqp.Props.cosmo_ends",
    "Teqp.Props.cosmo_resid_value",
    "Teqp.Props.cosmo_pure",
    "Teqp.Props.cosmo_identical",
    "Teqp.Props.cosmo_lump",
    "Teqp.Props.seg_gibbs_duhem",
    "Teqp.Props.cosmo_consistent",
    "Teqp.Props.cosmoDemo_resid"
   ],
   "note": "Consistency is stated for exact segment coefficients; the code has them up to the tolerance of C114."
  },
  {
   "property": "C117",
   "status": "proved",
   "theorems": [
    "Teqp.Props.cosmo_comb_consistent",
    "Teqp.Props.cosmo_comb_pure",
    "Teqp.Props.cosmo_comb_ends"
   ],
   "note": "Independent specification Spec.staverman."
  },
  {
   "property": "C118",
   "status": "proved",
   "theorems": [
    "Teqp.Props.cosmo_default_consts",
    "Teqp.Props.cosmo_consts_read",
    "Teqp.Props.cosmo_sigma_unused",
    "Teqp.Props.cosmo_factory_ok",
    "Teqp.Props.cosmo_too_few_areas",
    "Teqp.Props.cosmo_consts_values",
    "Teqp.Props.cosmo_fluid_profiles",
    "Teqp.Props.cosmo_consts_typed"
   ],
   "note": "Documents as JTree."
  },
  {
   "property": "C119",
   "status": "proved",
   "theorems": [
    "Teqp.Props.adv_b",
    "Teqp.Props.adv_b_linear",
    "Teqp.Props.adv_b_pure",
    "Teqp.Props.adv_value",
    "Teqp.Props.adv_pressure",
    "Teqp.Props.adv_pure",
    "Teqp.Props.adv_constant",
    "Teqp.Props.adv_huron_vidal"
   ],
   "note": "Alpha functions are those of the cubic model; the activity model is a parameter except in the examples."
  },
  {
   "property": "C120",
   "status": "proved",
   "theorems": [
    "Teqp.Props.adv_two_components",
    "Teqp.Props.adv_ares",
    "Teqp.Props.wilson_scale",
    "Teqp.Props.adv_refuses",
    "Teqp.Props.adv_options"
   ],
   "note": "Whole documents."
  },
  {
   "property": "C121",
   "status": "proved",
   "theorems": [
    "Teqp.Props.cubic_reduced",
    "Teqp.Props.cubic_scales",
    "Teqp.Props.cubic_coexist",
    "Teqp.Props.superanc_exact",
    "Teqp.Props.superanc_refuses",
    "Teqp.Props.superanc_sentinel",
    "Teqp.Props.cubic_pure_params",
    "Teqp.Props.adv_superanc"
   ],
   "note": "Accuracy of the tables is a hypothesis of superanc_exact; lookup is C17."
  },
  {
   "property": "C122",
   "status": "proved",
   "theorems": [
    "Teqp.Props.gen_plain",
    "Teqp.Props.gen_refuses",
    "Teqp.Props.alpha_document",
    "Teqp.Props.alpha_documents",
    "Teqp.Props.adv_make",
    "Teqp.Props.adv_packed",
    "Teqp.Props.cubicRT_value"
   ],
   "note": "Metadata is not modelled."
  },
  {
   "property": "C123",
   "status": "proved",
   "theorems": [
    "Teqp.Props.fit_document",
    "Teqp.Props.fit_document_overlap",
    "Teqp.Props.setPtr_result",
    "Teqp.Props.setPtr_get",
    "Teqp.Props.setPtr_other"
   ],
   "note": "documents as trees, pointers as lists of tokens"
  },
  {
   "property": "C124",
   "status": "proved",
   "theorems": [
    "Teqp.Props.fit_add",
    "Teqp.Props.fit_accepted_points",
    "Teqp.Props.fit_cost_total"
   ],
   "note": "saturation solver is a parameter"
  },
  {
   "property": "C125",
   "status": "proved",
   "theorems": [
    "Teqp.Props.fit_pvt",
    "Teqp.Props.fit_saturation",
    "Teqp.Props.fit_zero_weight"
   ],
   "note": "saturation solver is a parameter"
  },
  {
   "property": "C126",
   "status": "proved",
   "theorems": [
    "Teqp.Props.sound_speed_isentropic"
   ],
   "note": "for any curve of states of constant entropy"
  },
  {
   "property": "C127",
   "status": "partial",
   "theorems": [
    "Teqp.Props.sos_density_partial",
    "Teqp.Props.sos_density_wrong",
    "Teqp.Props.sos_exact_model_charged"
   ],
   "note": "false of the code; witness proved"
  },
  {
   "property": "C128",
   "status": "partial",
   "theorems": [
    "Teqp.Props.fit_threaded_same",
    "Teqp.Props.fit_threaded_differs_partial",
    "Teqp.Props.fit_threaded_witness",
    "Teqp.Props.fit_exception"
   ],
   "note": "false of the code for contributions that are not finite or raise; any order of the threads"
  },
  {
   "property": "C129",
   "status": "proved",
   "theorems": [
    "Teqp.Props.anc_fit_roundtrip",
    "Teqp.Props.anc_verify_irrelevant",
    "Teqp.Props.anc_flags",
    "Teqp.Props.anc_flags_typed",
    "Teqp.Props.anc_exponents"
   ],
   "note": "least-squares and saturation solvers are parameters"
  },
  {
   "property": "C130",
   "status": "partial",
   "theorems": [
    "Teqp.Props.anc_points_error",
    "Teqp.Props.anc_points_not_saturated",
    "Teqp.Props.anc_temperatures",
    "Teqp.Props.anc_too_few_points",
    "Teqp.Props.anc_slopes_finite_iff"
   ],
   "note": "false of the code; bounds and failures proved"
  },
  {
   "property": "C131",
   "status": "partial",
   "theorems": [
    "Teqp.Props.holder_cref",
    "Teqp.Props.holder_ref_never",
    "Teqp.Props.holder_ref_partial",
    "Teqp.Props.holder_set_meta_fails"
   ],
   "note": "mutable access is refused for every model the library makes"
  },
  {
   "property": "C132",
   "status": "partial",
   "theorems": [
    "Teqp.Props.holder_ancillary_index_partial",
    "Teqp.Props.holder_ancillary_negative"
   ],
   "note": "false for negative indices"
  },
  {
   "property": "C133",
   "status": "proved",
   "theorems": [
    "Teqp.Props.svr_f_published",
    "Teqp.Props.svr_zeff_published",
    "Teqp.Props.svr_rdf_low_density",
    "Teqp.Props.svr_rdf_contact",
    "Teqp.Props.svr_a3_published",
    "Teqp.Props.svr_a3_negative",
    "Teqp.Props.svr_gammaC_published",
    "Teqp.Props.svr_gammaC_mono",
    "Teqp.Props.svr_g_expansion"
   ],
   "note": "published tables copied into Spec/Lafitte"
  },
  {
   "property": "C134",
   "status": "proved",
   "theorems": [
    "Teqp.Props.ljt_value",
    "Teqp.Props.ljt_critical",
    "Teqp.Props.ljt_power_built",
    "Teqp.Props.ljt_gauss_built"
   ],
   "note": "Document as arrays through the builders of C28, C29, C30, C68; enclosures of the exponentials verified in rational arithmetic."
  },
  {
   "property": "C135",
   "status": "partial",
   "theorems": [
    "Teqp.Props.polish_fixedz",
    "Teqp.Props.polish_fixedrho",
    "Teqp.Props.polish_fixedT",
    "Teqp.Props.polish_at_critical",
    "Teqp.Props.polishAcceptsF_finite",
    "Teqp.Props.polish_nonfinite"
   ],
   "note": "False of the code in one respect, proved in polish_nonfinite: critical_polish_fixedrho and critical_polish_fixedT do not test every number they return, and the tracer's comparisons let a temperature that is not a number pass. The conditions are those at the last state evaluated, one Newton step before the one returned, and only if fewer than thirty passes were used."
  },
  {
   "property": "C136",
   "status": "partial",
   "theorems": [
    "Teqp.Props.mutant_document",
    "Teqp.Props.mutant_complete",
    "Teqp.Props.mutant_missing_pair",
    "Teqp.Props.mutant_one_component",
    "Teqp.Props.mutant_upper",
    "Teqp.Props.mutant_identity",
    "Teqp.Props.mutant_weight",
    "Teqp.Props.mutant_invariant_read"
   ],
   "note": "Proved for all documents: contents of a successful mutant, acceptance of complete documents, independence from entries in the other order, identity. Refusal of missing entries is false: the entry of a pair is read with operator[] on a constant document, so that a missing pair is undefined behaviour (mutant_missing_pair), while one component needs the entry of a pair that does not exist (mutant_one_component). build_departure_function is a parameter here; its dispatch is covered with the departure documents."
  },
  {
   "property": "C137",
   "status": "partial",
   "theorems": [
    "Teqp.Props.Ar0Nep_partial",
    "Teqp.Props.Ar0Nep_zero",
    "Teqp.Props.Ar0Nep_virial"
   ],
   "note": "Holds at every density other than zero; Ar0Nep_zero proves that it is false at zero density (the step is zero).  100-digit arithmetic is taken as exact."
  },
  {
   "property": "C138",
   "status": "proved",
   "theorems": [
    "Teqp.Props.departure_lookup",
    "Teqp.Props.departure_lookup_sound",
    "Teqp.Props.departure_without_aliases",
    "Teqp.Props.collect_components"
   ],
   "note": "file system and parser are parameters"
  },
  {
   "property": "C139",
   "status": "partial",
   "theorems": [
    "Teqp.Props.dufal_delta_partial",
    "Teqp.Props.dufal_self",
    "Teqp.Props.dufal_symmetric",
    "Teqp.Props.dufal_tables",
    "Teqp.Props.dufalI_full",
    "Teqp.Props.dufal_mixing_before_copy",
    "Teqp.Props.dufal_mixture_out_of_bounds",
    "Teqp.Props.dufal_mixture_assertion",
    "Teqp.Props.coeff_copy",
    "Teqp.Props.ammoniaWater_built",
    "Teqp.Props.dufal_pure_nonpos"
   ],
   "note": "Proved for pure fluids. False of the code for mixtures: the combined parameters are members of type Eigen::ArrayXd, one column, resized to N x N; with Eigen's assertions the program stops when the model is built, without them the copy into the model keeps only N of the N*N numbers and every site on a component other than the first is read out of bounds. Witness: the ammonia and water document of the project's documentation. The behaviour of Eigen's storage is part of the trusted base."
  },
  {
   "property": "C140",
   "status": "proved",
   "theorems": [
    "Teqp.Props.cr1_factory_reads",
    "Teqp.Props.dufal_factory_reads",
    "Teqp.Props.assoc_rule_refused",
    "Teqp.Props.assoc_sites_typed",
    "Teqp.Props.dufal_eps_missing",
    "Teqp.Props.toEig_empty",
    "Teqp.Props.getPartners_default",
    "Teqp.Props.getPartners_custom",
    "Teqp.Props.assoc_options_read"
   ],
   "note": "An empty array is addressed at its first element (undefined behaviour); C60 has the radial distribution function."
  },
  {
   "property": "C141",
   "status": "proved",
   "theorems": [
    "Teqp.Props.cpaAssoc_read",
    "Teqp.Props.getPartners_typed",
    "Teqp.Props.cpa_amix_default"
   ],
   "note": "The association part of the factory, inverted read by read."
  },
  {
   "property": "C142",
   "status": "partial",
   "theorems": [
    "Teqp.Props.cpa_gas_constant_partial",
    "Teqp.Props.cpa_gas_ignored",
    "Teqp.Props.cpa_gas_constant_matters",
    "Teqp.Props.cpaDelta_inj",
    "Teqp.Props.siteTerm_inj"
   ],
   "note": "False of the code: the description by sites evaluates with the built-in gas constant whatever the document says; the two descriptions differ whenever the gas constants do (cpa_gas_constant_matters)."
  },
  {
   "property": "C143",
   "status": "partial",
   "theorems": [
    "Teqp.Props.corr_served",
    "Teqp.Props.corrJ_domain",
    "Teqp.Props.gtJ_domain_partial",
    "Teqp.Props.gtJ_rows_lost",
    "Teqp.Props.corr_rows",
    "Teqp.Props.gottK_digits",
    "Teqp.Props.gottK_refused"
   ],
   "note": "Proved for five of the six tables; for Gubbins and Twu's J proved for the n it serves, and shown false for 25 to 29 (duplicate keys)."
  },
  {
   "property": "C144",
   "status": "proved",
   "theorems": [
    "Teqp.Props.mp_built",
    "Teqp.Props.gt_members",
    "Teqp.Props.gottJ_layout",
    "Teqp.Props.gottK_layout"
   ],
   "note": "The families as constructors returning functions."
  },
  {
   "property": "C145",
   "status": "proved",
   "theorems": [
    "Teqp.Props.luckasJ_continuous",
    "Teqp.Props.luckasBoltz_continuous",
    "Teqp.Props.luckasBoltz_eq"
   ],
   "note": "Values only; the derivatives at zero density are not modelled."
  },
  {
   "property": "C146",
   "status": "partial",
   "theorems": [
    "Teqp.Props.corrJ_logconvex",
    "Teqp.Props.gtJ_logconvex_iff",
    "Teqp.Props.gtJ_logconvex_partial",
    "Teqp.Props.gtJ_rows_wrong",
    "Teqp.Props.gtJval_get"
   ],
   "note": "Log-convexity proved for integrals against any non-negative function; for the correlation proved for every n not involving the rows of 17 and 30, refuted for 16, 18 and 31."
  },
  {
   "property": "C147",
   "status": "partial",
   "theorems": [
    "Teqp.Props.luckasK_partial",
    "Teqp.Props.luckasK_affine",
    "Teqp.Props.luckasK_rises",
    "Teqp.Props.luckasK_disagrees"
   ],
   "note": "False of Luckas's K; equality with the Boltzmann form proved at reduced temperature one."
  },
  {
   "property": "C148",
   "status": "partial",
   "theorems": [
    "Teqp.Props.gt_alpha2_neg",
    "Teqp.Props.gt_alpha3_nonneg",
    "Teqp.Props.gt_contribution_sign",
    "Teqp.Props.gt_signs",
    "Teqp.Props.gt_own_integrals",
    "Teqp.Props.getKijkNeg_nonpos",
    "Teqp.Props.luckasK_negative",
    "Teqp.Props.gott_wrong_signs"
   ],
   "note": "Proved for integrals of the right signs and so for Gubbins and Twu's own; false of Luckas's K and of Gottschalk's J and K, with states where the signs are wrong."
  },
  {
   "property": "C149",
   "status": "proved",
   "theorems": [
    "Teqp.Props.agreeJ6",
    "Teqp.Props.agreeJ8",
    "Teqp.Props.agreeJ10",
    "Teqp.Props.agreeJ11",
    "Teqp.Props.agreeJ13",
    "Teqp.Props.agreeJ15",
    "Teqp.Props.agreeK222",
    "Teqp.Props.agreeK233",
    "Teqp.Props.agreeK334",
    "Teqp.Props.agreeK444"
   ],
   "note": "Exact evaluation of the tables at zero density with rational bounds of e."
  },
  {
   "property": "C150",
   "status": "partial",
   "theorems": [
    "Teqp.Props.qcpr_document_partial",
    "Teqp.Props.qcpr_long_alphas_ub",
    "Teqp.Props.qcpr_alphas_refused",
    "Teqp.Props.qcpr_evaluates_iff",
    "Teqp.Props.qcpr_accepts_bad",
    "Teqp.Props.rkpr_document_partial",
    "Teqp.Props.rkpr_short_ub",
    "Teqp.Props.rkpr_evaluates_iff",
    "Teqp.Props.rkpr_accepts_bad"
   ],
   "note": "False of the code: short arrays and empty matrices are accepted and read past their end (witnesses); proved for fitting documents, with an exact condition for evaluation."
  },
  {
   "property": "C151",
   "status": "partial",
   "theorems": [
    "Teqp.Props.cubic_bnvir",
    "Teqp.Props.qcpr_slope",
    "Teqp.Props.qcpr_dual_slope",
    "Teqp.Props.qcpr_bnvir_nan",
    "Teqp.Props.qcpr_covolume"
   ],
   "note": "False of the code: get_Bnvir divides by the zero density and gives not-a-number for every parameter set; the slope exists and the dual numbers give it at positive density."
  },
  {
   "property": "C152",
   "status": "partial",
   "theorems": [
    "Teqp.Props.qcpr_superanc_pure",
    "Teqp.Props.qcpr_superanc_mixture",
    "Teqp.Props.qcpr_superanc_critical"
   ],
   "note": "False of the code: mixtures are always refused and the critical temperature is out of range, because of the rounded constant 0.0778."
  },
  {
   "property": "C153",
   "status": "partial",
   "theorems": [
    "Teqp.Props.polarizable_zero",
    "Teqp.Props.polarizable_nonpolar",
    "Teqp.Props.PureDipole.field",
    "Teqp.Props.PureDipole.step_gt",
    "Teqp.Props.PureDipole.fixed_iff",
    "Teqp.Props.polarizable_partial",
    "Teqp.Props.polarizable_catastrophe"
   ],
   "note": "Zero polarizability reduces to the non-polarizable term (proved). False of the code: polarizable fluids without permanent moments give a non-number, and beyond the density where no self-consistent moment exists a value is returned all the same. For pure dipolar fluids the field is positive, and under a contraction hypothesis the moment after ten steps is within q^10 of the unique self-consistent one. Mixtures: the gradients themselves are wrong (C82)."
  },
  {
   "property": "C154",
   "status": "partial",
   "theorems": [
    "Teqp.Props.departure_dispatch",
    "Teqp.Props.cheb_refused",
    "Teqp.Props.cheb_document_partial",
    "Teqp.Props.cheb_rectangular",
    "Teqp.Props.cheb_negative",
    "Teqp.Props.cheb_zero_density",
    "Teqp.Props.departure_cheb_value"
   ],
   "note": "Dispatch and refusals proved for all documents; Chebyshev documents of equal degrees proved. False of the code: unequal degrees are accepted and read outside of arrays, negative degrees pass the check, and the expansion need not vanish at zero density (witnesses proved)."
  },
  {
   "property": "C155",
   "status": "partial",
   "theorems": [
    "Teqp.Props.validated_flat_answered",
    "Teqp.Props.validated_cubic_partial",
    "Teqp.Props.validated_saft_partial",
    "Teqp.Props.validated_ecs_answered",
    "Teqp.Props.validated_ideal_partial",
    "Teqp.Props.validated_CPA_partial",
    "Teqp.Props.validated_CPA_mixture",
    "Teqp.Props.validated_short_fails",
    "Teqp.Props.validated_null_fails",
    "Teqp.Props.validated_cp0_fails"
   ],
   "note": "False of the code: short arrays pass the schemas of PR and cubic and are read out of bounds; null passes for PC-SAFT and SAFT-VR-Mie, arrays pass for heat capacities of the ideal gas, and every admitted CPA mixture fails with an exception of the JSON library. Holds outright for the flat kinds and the Huber-Ely model."
  },
  {
   "property": "C156",
   "status": "partial",
   "theorems": [
    "Teqp.Props.vdW1_schema_exact",
    "Teqp.Props.one_schema_exact",
    "Teqp.Props.vdW_schema_exact",
    "Teqp.Props.twoCenter_schema_exact",
    "Teqp.Props.PR_schema_complete",
    "Teqp.Props.schema_kinds",
    "Teqp.Props.validated_without_schema",
    "Teqp.Props.validated_misspelt",
    "Teqp.Props.validated_cubic_refuses",
    "Teqp.Props.validated_svr_refuses",
    "Teqp.Props.validated_ideal_refuses",
    "Teqp.Props.validated_CPA_refuses",
    "Teqp.Props.schema_tables_iff"
   ],
   "note": "Exact for vdW1, vdW, square well, exp-6, Mie and two-center fluids, complete for PR. False for cubic, CPA mixtures, SAFT-VR-Mie with reduced moments and ideal-gas terms without a gas constant, by witnesses."
  },
  {
   "property": "C157",
   "status": "proved",
   "theorems": [
    "Teqp.Props.converted_document_accepted",
    "Teqp.Props.converted_term_valid",
    "Teqp.Props.idealTermTree_flat",
    "Teqp.Props.converted_string_refused"
   ],
   "note": "Heat capacities that are strings are excluded; the exclusion is shown to be needed."
  },
  {
   "property": "C158",
   "status": "partial",
   "theorems": [
    "Teqp.Props.mixture_of_documents",
    "Teqp.Props.documents_outcome_partial",
    "Teqp.Props.documents_pure",
    "Teqp.Props.documents_relabel",
    "Teqp.Props.documents_single",
    "Teqp.Props.departure_flat",
    "Teqp.Props.fluid_without_eos",
    "Teqp.Props.fluid_zero_density",
    "Teqp.Props.departure_without_npower",
    "Teqp.Props.fluid_without_terms",
    "Teqp.Props.collection_refused",
    "Teqp.Props.departure_cheb",
    "Teqp.Props.departure_cheb_value",
    "Teqp.Props.cheb_bool_degrees"
   ],
   "note": "False of the code for absent keys (undefined behaviour) and a zero reducing density (fluid_without_eos, fluid_zero_density, departure_without_npower, fluid_without_terms). For documents with the fields that are read, the model equals the data-level mixture outcome by outcome. Stated for any readers of the generic cubic and PC-SAFT terms; the actual ones (termReaders) are modelled and instantiated in C169, and so is the Chebyshev departure function (departure_cheb); metadata are left out."
  },
  {
   "property": "C159",
   "status": "partial",
   "theorems": [
    "Teqp.Props.factory_eq_model",
    "Teqp.Props.factory_of_model_partial",
    "Teqp.Props.factory_eq_texts",
    "Teqp.Props.empty_departure_differs"
   ],
   "note": "False of the code without a root and with an empty departure argument (empty_departure_differs). REFPROP mixture files are a parameter."
  },
  {
   "property": "C160",
   "status": "partial",
   "theorems": [
    "Teqp.Props.assoc_report_alphar",
    "Teqp.Props.dufal_report_alphar",
    "Teqp.Props.assoc_report_checks_partial",
    "Teqp.Props.assoc_report_exact",
    "Teqp.Props.report_masked_inconsistent",
    "Teqp.Props.report_size_unchecked",
    "Teqp.Props.dufal_report_size_unchecked",
    "Teqp.Props.report_maps",
    "Teqp.Props.cpa_report_alphar",
    "Teqp.Props.cpa_report_ok",
    "Teqp.Props.cpa_report_mixture",
    "Teqp.Props.cpa_variant_report"
   ],
   "note": "False in three places, proved with witnesses: the size of the composition is not checked (undefined behaviour where alphar throws), a masked pure fluid with two kinds of sites reports D = 0 next to bonded sites, and the older CPA class reports fractions for mixtures where alphar reads out of bounds. The rest is proved."
  },
  {
   "property": "C161",
   "status": "proved",
   "theorems": [
    "Teqp.Props.svr_report_alphar",
    "Teqp.Props.svr_report_packing",
    "Teqp.Props.svr_report_size",
    "Teqp.Props.svr_report_fields",
    "Teqp.Props.svr_report_mono",
    "Teqp.Props.svr_report_pure",
    "Teqp.Props.svr_report_near"
   ],
   "note": "The chain contribution of the report is the one of C108-C110; the writing of the JSON keys itself is not modelled."
  },
  {
   "property": "C162",
   "status": "partial",
   "theorems": [
    "Teqp.Props.peNumJac_entries",
    "Teqp.Props.peNumJac_returns",
    "Teqp.Props.peNumJac_refuses",
    "Teqp.Props.peStep_cases",
    "Teqp.Props.peNumJac_sum",
    "Teqp.Props.peNumJac_buffer",
    "Teqp.Props.peNumJac_disagrees",
    "Teqp.Props.peNumJac_steps_unchecked",
    "Teqp.Props.peNumJac_limit",
    "Teqp.Props.peNumJac_limit_call"
   ],
   "note": "The limit is proved for every number of phases and components, to the true Jacobian; it is the Jacobian of call where that is exact (C46) and not for a pure fluid in two phases (peNumJac_disagrees). Partial because the buffers are stale afterwards and the size of the steps is not checked."
  },
  {
   "property": "C163",
   "status": "proved",
   "theorems": [
    "Teqp.Props.fingerprint_entry",
    "Teqp.Props.fingerprint_exchange",
    "Teqp.Props.fingerprint_count",
    "Teqp.Props.gerg_info_fingerprints",
    "Teqp.Props.gerg_pure_fingerprints",
    "Teqp.Props.gerg_binary_fingerprints",
    "Teqp.Props.corr_fingerprints",
    "Teqp.Props.corr_triple_fingerprints",
    "Teqp.Props.saft_fingerprints",
    "Teqp.Props.polar_fingerprints",
    "Teqp.Props.lj_fingerprints",
    "Teqp.Props.potential_fingerprints",
    "Teqp.Props.twocenter_fingerprints",
    "Teqp.Props.mixture_fingerprints",
    "Teqp.Props.kernel_fingerprints",
    "Teqp.Props.pcsaft_library_values",
    "Teqp.Props.svr_library_values"
   ],
   "note": "The values come from a script that reads the C++ text; that the script reads the right lines is trusted."
  },
  {
   "property": "C164",
   "status": "proved",
   "theorems": [
    "Teqp.Props.json_scalars",
    "Teqp.Props.json_arrays",
    "Teqp.Props.json_map",
    "Teqp.Props.json_int",
    "Teqp.Props.json_required",
    "Teqp.Props.json_required_flat",
    "Teqp.Props.json_optional",
    "Teqp.Props.json_get_to",
    "Teqp.Props.json_sites",
    "Teqp.Props.ideal_type_read",
    "Teqp.Props.alias_needs_text",
    "Teqp.Props.array_past_end",
    "Teqp.Props.mapOutcome_decoder",
    "Teqp.Props.array_decoder",
    "Teqp.Props.decoder_total"
   ],
   "note": "The conversion rules of the JSON library are trusted."
  },
  {
   "property": "C165",
   "status": "partial",
   "theorems": [
    "Teqp.Props.hasVirial_iff",
    "Teqp.Props.hasVirial_unique",
    "Teqp.Props.hasVirial_B2vir",
    "Teqp.Props.vdW1_virial",
    "Teqp.Props.vdW_virial",
    "Teqp.Props.generic_cubic_virial",
    "Teqp.Props.qcpr_virial",
    "Teqp.Props.rkpr_virial",
    "Teqp.Props.adv_virial",
    "Teqp.Props.square_well_virial",
    "Teqp.Props.johnson_virial",
    "Teqp.Props.kolafa_virial",
    "Teqp.Props.twocenter_virial",
    "Teqp.Props.kataoka_low",
    "Teqp.Props.feann_low",
    "Teqp.Props.chain_virial",
    "Teqp.Props.soft_virial",
    "Teqp.Props.lkp_virial",
    "Teqp.Props.huber_virial",
    "Teqp.Props.pcsaft_virial",
    "Teqp.Props.multifluid_virial",
    "Teqp.Props.multifluid_pure_virial",
    "Teqp.Props.activity_virial",
    "Teqp.Props.aw_low",
    "Teqp.Props.pohl_low",
    "Teqp.Props.zeroth_power_no_gas",
    "Teqp.Props.cheb_zero_density",
    "Teqp.Props.multipolar_zero_density",
    "Teqp.Props.gerg_virial",
    "Teqp.Props.svr_virial",
    "Teqp.Props.cpa_cubic_virial",
    "Teqp.Props.cpa_scheme_no_gas",
    "Teqp.Props.cpa_scheme_limit",
    "Teqp.Props.assoc_iterated_virial",
    "Teqp.Props.cpa_iterated_virial",
    "Teqp.Props.grossSadowski_slope",
    "Teqp.Props.cheb_mixture_not_gas",
    "Teqp.Props.ecs_virial"
   ],
   "note": "False of the code in five places, each with a proved witness: a multi-fluid term with the zeroth power of density (accepted by the builders), the Chebyshev departure function, the multipolar terms with polarizability or of Gubbins and Twu, which divide by zero at zero density, CPA components described by their scheme, which have no value at zero density although the limit from above exists and is given, and CPA components described by their sites, whose iterated fractions keep their initial value at low density so that the association part of the coefficient is lost. Proved in closed form for the other models including GERG and SAFT-VR-Mie, and for the extended-corresponding-states mutant, whose density-dependent reducing quantities are met at zero density only (there a GaoB denominator must not vanish and the alpha function of a cubic term must have a derivative)."
  },
  {
   "property": "C166",
   "status": "partial",
   "theorems": [
    "Teqp.Props.dual_iteration_converges",
    "Teqp.Props.assoc_derivative_limit",
    "Teqp.Props.assoc_derivative_tolerance",
    "Teqp.Props.assoc_derivative_stopped",
    "Teqp.Props.explicit_derivative"
   ],
   "note": "Proved: the fractions are differentiable, the derivatives carried by the substitutions converge to theirs, with zero tolerances the returned derivatives approach the exact ones as the iteration limit grows, and for small enough tolerances they are as close as wanted unless a substitute is exact; the closed form has exact derivatives for positive strengths. False as stated: for every tolerance there is a density where the loop stops at once with derivative zero while the exact one is below -1/2 (assoc_derivative_stopped)."
  },
  {
   "property": "C167",
   "status": "partial",
   "theorems": [
    "Teqp.Props.window_solution",
    "Teqp.Props.between_step",
    "Teqp.Props.between_improve",
    "Teqp.Props.seg_rate",
    "Teqp.Props.seg_done_near",
    "Teqp.Props.seg_enough_passes",
    "Teqp.Props.seg_converges",
    "Teqp.Props.two_runs_out",
    "Teqp.Props.cosmo_runs_out",
    "Teqp.Props.seg_far"
   ],
   "note": "Convergence and its rate are proved for all data; the claim that the 501 passes of the code suffice is false, with a fluid at 298.15 K proved to end in the exception, and the tolerance is proved not to bound the distance from the solution."
  },
  {
   "property": "C168",
   "status": "partial",
   "theorems": [
    "Teqp.Props.ssLoop_massAction",
    "Teqp.Props.ssLoop_enough",
    "Teqp.Props.assoc_limit_silent",
    "Teqp.Props.da_exact",
    "Teqp.Props.assoc_default_limit"
   ],
   "note": "Positive part: with enough substitutions the law of mass action holds up to the tolerance. False for the default limit of 100: assoc_default_limit gives a donor-acceptor mixture for all strengths in a range where the returned fraction is at most a third of the exact one and nothing is reported."
  },
  {
   "property": "C169",
   "status": "partial",
   "theorems": [
    "Teqp.Props.cubicTerm_reads",
    "Teqp.Props.cubicTerm_alpha_count",
    "Teqp.Props.cubicTerm_needs_reducing",
    "Teqp.Props.pcTerm_reads",
    "Teqp.Props.embed_pressure",
    "Teqp.Props.cubicFluid_alphar",
    "Teqp.Props.cubicFluid_pressure",
    "Teqp.Props.cubicFluid_exact",
    "Teqp.Props.cubicFluid_gasConstant",
    "Teqp.Props.cubicFluid_unchecked",
    "Teqp.Props.cubicFluid_same",
    "Teqp.Props.cubicFluid_critical",
    "Teqp.Props.pcFluid_same",
    "Teqp.Props.pcFluid_mixture",
    "Teqp.Props.pcFluid_pressure",
    "Teqp.Props.cubicDocument",
    "Teqp.Props.cubicComponent",
    "Teqp.Props.pcPure_is",
    "Teqp.Props.pcDocument",
    "Teqp.Props.pcComponent"
   ],
   "note": "Proved for consistent documents; false without consistency (three accepted documents proved to give another pressure), because reducing state and gas constant of the term are not compared with those of the fluid. The general scaling law is proved. This holds from the JSON documents of a single fluid (cubicDocument, pcDocument) and for the pure limits of any mixture built from documents (cubicComponent, pcComponent); PC-SAFT is stated against the published equation in the packing fraction (grossSadowski)."
  },
  {
   "property": "C170",
   "status": "partial",
   "theorems": [
    "Teqp.Props.soave_Ar10",
    "Teqp.Props.soave_Ar20",
    "Teqp.Props.soave_cv",
    "Teqp.Props.soave_energy",
    "Teqp.Props.soave_entropy",
    "Teqp.Props.soavePure_cv",
    "Teqp.Props.helium_cv",
    "Teqp.Props.water_entropy"
   ],
   "note": "Proved below the zeros of the alpha functions and for m >= 0 (heat capacity of pure fluids at every temperature); false for m < 0 (helium_cv, every state) and above the zeros (water_entropy)."
  },
  {
   "property": "C171",
   "status": "proved",
   "theorems": [
    "Teqp.Props.pc_virial_theorem",
    "Teqp.Props.pc_contact_ge_one",
    "Teqp.Props.pc_hs_increasing",
    "Teqp.Props.pc_hs_equal_diameters"
   ],
   "note": "Real arithmetic; the derivative is the mathematical one."
  },
  {
   "property": "C172",
   "status": "proved",
   "theorems": [
    "Teqp.Props.cubic_slope_pos",
    "Teqp.Props.stable_oneDensity",
    "Teqp.Props.srk_stable_iff",
    "Teqp.Props.srk_pure_stable",
    "Teqp.Props.srk_pure_stable_large",
    "Teqp.Props.srk_pure_density",
    "Teqp.Props.decane_unstable",
    "Teqp.Props.pr_stable",
    "Teqp.Props.pr_unstable",
    "Teqp.Props.pr_pure_stable",
    "Teqp.Props.pr_pure_unstable",
    "Teqp.Props.vdw_stable_iff",
    "Teqp.Props.vdw_pure_stable"
   ],
   "note": "Real arithmetic; the derivative is the mathematical one. The critical value of Peng-Robinson is bracketed to one part in 10^18 because its constants are rounded in the source."
  },
  {
   "property": "C173",
   "status": "proved",
   "theorems": [
    "Teqp.Props.srk_pure_saturation",
    "Teqp.Props.srk_pure_supercritical",
    "Teqp.Props.srk_pure_state",
    "Teqp.Props.pr_pure_saturation",
    "Teqp.Props.pr_pure_supercritical",
    "Teqp.Props.vdw_pure_saturation",
    "Teqp.Props.loop_saturation",
    "Teqp.Props.loop_state",
    "Teqp.Props.loop_none",
    "Teqp.Props.cubic_loop",
    "Teqp.Props.vdw_loop",
    "Teqp.Props.srk_unstable_iff"
   ],
   "note": "Existence by a common tangent of the Helmholtz energy per volume (intermediate value theorem for the difference of the minima left and right of an unstable density), uniqueness from the single unstable interval of a cubic isotherm, whose quotient has a slope with the sign of an increasing polynomial. loop_state gives coexistence, positive pressure, global stability and the regular Jacobian for any isotherm of this shape."
  },
  {
   "property": "C174",
   "status": "proved",
   "theorems": [
    "Teqp.Props.sat_differentiable",
    "Teqp.Props.sat_curve",
    "Teqp.Props.vdw_sat_curve",
    "Teqp.Props.srk_sat_curve",
    "Teqp.Props.pr_sat_curve"
   ],
   "note": "The curve comes from the existence and uniqueness theorem C173; its differentiability from the implicit function theorem applied to the equilibrium conditions. The derivatives the code obtains by automatic differentiation are the mathematical ones (trusted base)."
  },
  {
   "property": "C175",
   "status": "proved",
   "theorems": [
    "Teqp.Props.pure_vle_converges",
    "Teqp.Props.loop_vle_converges",
    "Teqp.Props.srk_vle_converges",
    "Teqp.Props.pr_vle_converges",
    "Teqp.Props.pure_critical_converges",
    "Teqp.Props.cubic_crit_regular",
    "Teqp.Props.vdw_critical_converges",
    "Teqp.Props.srk_critical_converges"
   ],
   "note": "The linear solve is a parameter that solves regular systems exactly; arithmetic is exact (trusted base). The distance is an existence statement, not a number."
  },
  {
   "property": "C176",
   "status": "proved",
   "theorems": [
    "Teqp.Props.iterator_converges",
    "Teqp.Props.stable_pair_regular",
    "Teqp.Props.stable_iterator_converges"
   ],
   "note": "Real arithmetic; the Householder solver is a parameter that solves regular systems exactly."
  },
  {
   "property": "C177",
   "status": "proved",
   "theorems": [
    "Teqp.Props.mix_Tx_converges",
    "Teqp.Props.mix_Tp_converges",
    "Teqp.Props.mix_px_converges",
    "Teqp.Props.tx_regular",
    "Teqp.Props.tp_regular",
    "Teqp.Props.px_regular",
    "Teqp.Props.txLoop_converges",
    "Teqp.Props.tpLoop_converges",
    "Teqp.Props.pxLoop_converges"
   ],
   "note": "Exact arithmetic and an exact linear solve; the success flag of mix_VLE_Tp is never set (C39), so its statement is about the returned numbers."
  },
  {
   "property": "C178",
   "status": "partial",
   "theorems": [
    "Teqp.Props.vlleT_converges_partial",
    "Teqp.Props.vlleP_converges_partial",
    "Teqp.Props.vlleT_single_step",
    "Teqp.Props.vlleT_no_bound",
    "Teqp.Props.vlleP_single_step"
   ],
   "note": "False of the code as stated: the step test compares the signed step, so from guesses too high in every concentration mix_VLLE_T stops after one step whatever the tolerances (vlleT_single_step), and no multiple of the tolerances bounds the error (vlleT_no_bound, sample fluid with three phases). Proved: the call always returns, halves the error at least once, bounds the error by a multiple of atol if the residual test ended the run, halves it maxiter times if the iterations ran out, and does not run out of iterations when maxiter is large enough. The linear solve is a parameter, exact on nonsingular systems."
  },
  {
   "property": "C179",
   "status": "partial",
   "theorems": [
    "Teqp.Props.pc_hc_repels",
    "Teqp.Props.pc_B2",
    "Teqp.Props.pc_B2_signs",
    "Teqp.Props.pc_boyle_partial",
    "Teqp.Props.pc_liang_long_chains"
   ],
   "note": "The hard-chain part and the closed form are proved in full. The Boyle temperature is proved for the constants of Gross and Sadowski (2001) and Liang et al. (2014), and for those of Liang et al. (2012) up to 27 segments; for the latter and 28 or more segments the second virial coefficient is positive at low temperature (pc_liang_long_chains), so the statement is false there. The derivative is the mathematical one."
  },
  {
   "property": "C180",
   "status": "partial",
   "theorems": [
    "Teqp.Props.soave_boyle",
    "Teqp.Props.soave_one_boyle_partial",
    "Teqp.Props.srk_boyle",
    "Teqp.Props.pr_boyle",
    "Teqp.Props.twu_one_boyle"
   ],
   "note": "The sign of the second virial coefficient in closed form (soave_boyle). There is exactly one Boyle temperature precisely when the slope of the alpha function is at most the root of OmegaB/OmegaA (soave_one_boyle_partial). For most fluids it is larger, and then the property is false: srk_boyle and pr_boyle prove that the coefficient is negative at all high enough temperatures for acentric factors from -0.018 (SRK) and 0.026 (Peng-Robinson) up to 2. With Twu's alpha function there is exactly one (twu_one_boyle)."
  },
  {
   "property": "C181",
   "status": "proved",
   "theorems": [
    "Teqp.Props.sat_shrinks",
    "Teqp.Props.vdw_sat_shrinks",
    "Teqp.Props.srk_sat_shrinks",
    "Teqp.Props.pr_sat_shrinks"
   ],
   "note": "The curve is that of C174, whose points are the only zeros of the saturation residual. The derivatives the code obtains by automatic differentiation are the mathematical ones (trusted base)."
  },
  {
   "property": "C182",
   "status": "proved",
   "theorems": [
    "Teqp.Props.satMap_zero",
    "Teqp.Props.Attract.press_\u03c1",
    "Teqp.Props.sat_meets",
    "Teqp.Props.vdw_sat_meets",
    "Teqp.Props.srk_sat_meets"
   ],
   "note": "Peng-Robinson is left out of the statement because its rounded constants put the end of the curve near, not at, the critical temperature of the constructor."
  },
  {
   "property": "C183",
   "status": "proved",
   "theorems": [
    "Teqp.Props.pc_gathered",
    "Teqp.Props.polar_gathered",
    "Teqp.Props.pc_rewrite",
    "Teqp.Props.lkp_rewrite",
    "Teqp.Props.soft_rewrite"
   ],
   "note": "Absent polar components can switch a polar term on that is not a number (C80), so absence is stated for the terms, not for the whole model."
  },
  {
   "property": "C184",
   "status": "partial",
   "theorems": [
    "Teqp.Props.assoc_rewrite_partial",
    "Teqp.Props.ssLoop_along",
    "Teqp.Props.assoc_rewrite_mask_false",
    "Teqp.Props.assoc_rewrite_pure_false"
   ],
   "note": "False of the code with a self-association mask and a component listed twice (assoc_rewrite_mask_false) and for one component with two kinds of sites, where listing it twice replaces the closed form by the iteration (assoc_rewrite_pure_false); proved for all other cases."
  },
  {
   "property": "C185",
   "status": "partial",
   "theorems": [
    "Teqp.Props.multifluid_splitting_partial",
    "Teqp.Props.invariant_splitting",
    "Teqp.Props.splitting_false"
   ],
   "note": "False of the code when a beta differs from 1 (splitting_false); proved for beta = 1 with any gamma and departure function, and for the invariant reducing functions without condition."
  },
  {
   "property": "C186",
   "status": "proved",
   "theorems": [
    "Teqp.Props.cpa_cubic_rewrite",
    "Teqp.Props.cpa_rewrite",
    "Teqp.Props.wilson_rewrite",
    "Teqp.Props.advPR_rewrite",
    "Teqp.Props.ideal_rewrite",
    "Teqp.Props.ideal_rewrite_lower"
   ],
   "note": "CPA with the general association class, under the conditions of C184 (its counterexamples show they are needed); the older CPA association class is not covered."
  },
  {
   "property": "C187",
   "status": "partial",
   "theorems": [
    "Teqp.Props.cosmo_make_rewrite",
    "Teqp.Props.cosmo_rewrite",
    "Teqp.Props.cosmo_comb_rewrite",
    "Teqp.Props.cosmo_absent_partial",
    "Teqp.Props.cosmo_absent_false"
   ],
   "note": "Order and repetition proved for both branches. Absent fluids: proved for the slow branch, false of the fast one (cosmo_absent_false)."
  },
  {
   "property": "C188",
   "status": "proved",
   "theorems": [
    "Teqp.Props.listing_mixture",
    "Teqp.Props.listing_entries",
    "Teqp.Props.listing_chempot",
    "Teqp.Props.listing_coexist",
    "Teqp.Props.cubicListed_same",
    "Teqp.Props.pc_listed",
    "Teqp.Props.lkp_listed",
    "Teqp.Props.cpa_listed",
    "Teqp.Props.advPR_listed"
   ],
   "note": "Needs no differentiability of the model: one entry only shifts the merged concentration. Instances: cubics, PC-SAFT with polar terms, Lee-Kesler-Ploecker, CPA and the advanced cubic model."
  },
  {
   "property": "C189",
   "status": "proved",
   "theorems": [
    "Teqp.Props.listing_curvature",
    "Teqp.Props.listing_stable",
    "Teqp.Props.listing_critical",
    "Teqp.Props.listing_conditions"
   ],
   "note": "SameEOS is discharged for the model families by C14, C110 and C183 to C187; the eigen-solver is a parameter with its contract (EigContract)."
  },
  {
   "property": "C190",
   "status": "proved",
   "theorems": [
    "Teqp.Props.absent_properties",
    "Teqp.Props.absent_conditions",
    "Teqp.Props.absent_pure",
    "Teqp.Props.absent_pure_critical"
   ],
   "note": "SameEOS along succAbove says that leaving out is the same as zero mole fraction; it holds for cubics for every map (cubicListed_same). Two or more absent components are refused (C70)."
  },
  {
   "property": "C191",
   "status": "proved",
   "theorems": [
    "Teqp.Props.minEigenvalue_least",
    "Teqp.Props.minEigenvalue_sign",
    "Teqp.Props.minEigenvalue_listed",
    "Teqp.Props.minEigenvalue_absent",
    "Teqp.Props.minEigenvalue_pure",
    "Teqp.Props.minEigenvalue_refuses",
    "Teqp.Props.minEigenvalue_value_false"
   ],
   "note": "The eigen-solver is a parameter with its contract (EigContract)."
  },
  {
   "property": "C192",
   "status": "proved",
   "theorems": [
    "Teqp.Props.pyAlpharij_refuses",
    "Teqp.Props.multifluid_assembled",
    "Teqp.Props.alphari_past_end",
    "Teqp.Props.alpharij_symm",
    "Teqp.Props.alpharRho_eq",
    "Teqp.Props.alpharRho_bad",
    "Teqp.Props.alpharRho_total_false"
   ],
   "note": "Indices as C++ int; the negative-number check in the code can never fire, the range check does its work."
  }
 ]
}