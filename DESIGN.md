# Formal model of teqp in Lean 4: design

## 1. Architecture

* `lean/Verif/Model/*.lean` - the model: one Lean definition per C++ function (or per
  coherent fragment of a long function). Every definition cites file and lines in `/repo`
  and says where it simplifies.
* `lean/Verif/Spec/*.lean` - the small, independent vocabulary in which properties are stated
  (pressure, chemical potential, abstract handle map, mass-action law, ...).
* `lean/Verif/Lemmas/*.lean` - helper lemmas.
* `lean/Verif/Props/*.lean` - only property theorems, each with an `example` showing that a
  concrete non-trivial case meets the hypotheses.

Conventions

* Floating point is replaced by the real numbers. Loops that accumulate sums are `Finset`
  sums (or list folds when order/branching matters). The order of summation is irrelevant over
  the reals; round-off is not modelled.
* C++ exceptions: `Outcome.throws e` (constructors for the exception classes of
  `exceptions.hpp` plus `std::invalid_argument`, `std::out_of_range`, ...).
* Undefined behaviour: a distinct constructor (`Outcome.ub`), never assumed away.
* Division by zero: Lean's `x / 0 = 0` differs from IEEE. Every theorem about a formula with a
  division either carries the hypothesis that the denominator is non-zero or the model tests
  it and returns a distinct "not finite" outcome.
* Automatic differentiation (autodiff, multicomplex, complex step) is external code that is
  not in `/repo`. The model replaces a derivative request by the mathematical derivative
  (`deriv`, `iteratedDeriv`, partial derivatives). That the back ends compute this derivative is
  part of the trusted base - except for the algebra of dual numbers, which is modelled for a
  generic expression language where noted.
* Linear solvers (`colPivHouseholderQr().solve`, 2x2 solves) are a parameter `solve` with the
  contract `A * solve A b = b` for regular `A`; where the proof can do without the contract it does.

## 2. Properties, models and proof methods

| Id | Model | Method | Expected status |
|----|-------|--------|-----------------|
| C01 | `powi` with its switch, reciprocal branch and square-and-multiply loop as recursion on the loop counter | loop invariant `y * xpwr^n` by strong induction | proved |
| C02 | `get_Ar` dispatch over `Int x Int` returning `Except`; `Agenxy` with iterated partial derivatives | case analysis over all integers; definition of the partial derivatives independent (Spec) | proved (AD backend trusted) |
| C03 | `get_Agen0n`, `get_Agenn0` | unfolding + partial-derivative lemmas | proved |
| C04 | run-time tables as decision functions over `Int` | exhaustive case analysis for all integers | proved |
| C05 | `get_Bnvir<N>`; models as power series in rho | `iteratedDeriv` of power series | proved for power series models |
| C06 | `get_B12vir` | field algebra | proved |
| C07 | `get_pr`, `get_Psir`, gradient of Psir at concentration vectors | chain rule with `HasFDerivAt`/directional derivatives | proved |
| C08 | `get_ln_fugacity_coefficients` | from C07 | proved |
| C09 | `get_partial_molar_volumes` | second-order Euler identity | proved |
| C10 | derivative accessors | calculus | proved for each accessor modelled |
| C11 | `build_iteration_Jv` | calculus on a two-variable Helmholtz function; dispatch for all characters | proved |
| C12 | `vdWEOS1`, `vdWEOS` | calculus, algebra | proved |
| C13 | `GenericCubic::alphar` etc. | calculus | proved |
| C14 | mixing rules over `Fin n` | `Finset` sums, `Equiv.sum_comp` | proved |
| C15 | constructor checks as decision functions | case analysis | proved |
| C16 | `QuantumCorrectedPR::alphar` | refutation with a concrete witness + exact statement of the defect | partial (false of the code) |
| C17 | `SuperAncillary` bisection with midpoint on naturals | invariant + termination | proved |
| C18 | Clenshaw loops | induction on the coefficient list, `Polynomial.Chebyshev` | proved for >=2 coefficients; one-coefficient refuted |
| C19 | coefficient tables of `centered_diff` | linear algebra on monomials | proved |
| C20 | Gauss-Legendre N=3,4,5 | moments, affine change of variable, Mathlib integrals | proved |
| C21 | ideal-gas terms and converter | algebra of log/exp/rpow; Aly-Lee against the integral of its heat capacity by two zero derivatives in 1/T | proved except exponent -1 (false, proved) |
| C22 | Cp0 terms | calculus; t=-1 excluded point shown to be undefined; Aly-Lee leaves enthalpy at T0 (proved) | partial |
| C23 | `alphaig` | `Finset`/list sums, limits | proved |
| C24 | `get_BIPdep`, `get_binary_interaction_double` over abstract records | list search, case analysis | proved |
| C25 | `Y` | `Finset` sums, `Equiv` | proved |
| C26 | xi/zeta branch | refutation | partial (false of the code) |
| C27 | EOS terms | exp/log algebra, limits | proved |
| C28 | `build_power` in both variants | list splitting | proved for departure, refuted for pure fluids |
| C29 | `MultiFluid::alphar` | `Finset` sums | proved |
| C30 | `select_identifier` | list search | proved |
| C31 | `make_pure_components_JSON` with the map state | state machine, file system as parameter | proved (error kind varies) |
| C32 | `build_multifluid_mutant` | pure limits per type | proved/refuted per type |
| C33 | VLE_pure residual, Jacobian, loop | calculus, loop invariant | proved |
| C34 | `dpsatdT_pure` | algebra from coexistence equations | proved |
| C35 | `pure_trace_VLE` loop with parameters for the polish | loop unfolding | partial |
| C36 | critical residuals | calculus | proved |
| C37 | `mix_VLE_Tx` loop | loop invariant by induction; limiter refuted | proved/partial |
| C38 | mixture residuals | linear algebra/calculus | proved |
| C39 | return-code logic | invariants; refutations for VLLE / Tp | partial |
| C40 | linear systems; states where the numbers are not finite are the outcome `nonFinite` | linear algebra; `Props/EnvelopeFinite` for components absent from one phase | proved |
| C41 | `xprime` functions | algebra; refutation for isobars | partial |
| C42 | critical tangents, tracing loop (`Model/CritTrace.lean`) | eigenvector calculus; loop invariant over accepted steps | partial: second linearised condition false of the code |
| C43 | intersection search (`Model/VLLE.lean`) | algebra, list membership; contract of the pivoted QR solve | partial: empty trace is undefined behaviour |
| C44 | `avg_values`, guess of the finder | refuted: guess lies at the mirrored fraction; right only at the midpoint | partial |
| C45 | tracing loop with the stepper as a parameter | invariant over passes; refuted: retries never counted, downward step not limited | partial |
| C46 | pack/unpack, square count, every residual and Jacobian row as written, out-of-bounds writes | layout arithmetic; residual zero iff coexistence, balances and specifications; Jacobian exact for one phase and for two phases of two components; refuted elsewhere (out of bounds with fewer phases than components, wrong blocks otherwise; caloric rows with two different gas constants; bulk gas constant in the pressures) | partial |
| C47 | iterator loop, all stopping conditions (with NaN semantics of `std::min`), `reset`, `calc_maxabsr`; derivative matrices and linear solver as parameters | induction over passes; meaning of each condition; refuted: step count is compared with the number requested, success is about the state before the last step, logarithmic version misses prescribed densities | partial |
| C48 | logarithmic step | induction over passes; derivative in ln rho by the chain rule | proved |
| C49 | C interface state machine (64-bit counter) | invariant over call histories against a trace-based specification | partial: fewer than 2^64 builds; reuse after wrap-around exhibited |
| C50 | error-buffer writer | case analysis with explicit byte buffer | proved for non-negative length; negative refuted (UB) |
| C51 | exception handler | case analysis; slicing refuted | partial |
| C52 | interleaving semantics of unsynchronised map accesses | data race exhibited | partial |
| C53 | factory registry | state machine | partial: a missing schema is skipped |
| C54 | container | state machine | proved |
| C55 | `build_square_matrix` | decision logic | proved |
| C56 | `NewtonRaphson` loop | induction | proved |
| C57 | successive substitution, closed form | induction, algebra | proved |
| C58 | D matrix + explicit branch | refutation + partial | partial |
| C59 | CPA closed forms | algebra with sqrt | proved |
| C60 | option handling | refutation | partial |
| C61 | PC-SAFT | algebra | proved |
| C62 | ancillaries | algebra | proved |
| C63 | activity models | `Finset` sums; refutations for diagonal and symmetry | partial |
| C65 | cubic mixture second virial coefficient | derivative at zero density | proved |
| C66 | slopes of the alpha functions | calculus | proved |
| C67 | neff of the inverse-power fluid | calculus | proved |
| C68 | builders of `multifluid.hpp` | list/JSON case analysis | proved per type, refuted for pure power and exponential types |
| C69 | tracing loops `traceIsotherm`, `traceIsobar` with the stepper as a parameter | chain of stored points by induction over passes; a step from a state without finite derivative is `nonFinite` | proved |
| C70 | `eigen_problem`, `get_derivs` | spectral contract, Rayleigh quotient | partial: `v1` is zero for three or more components with one absent |
| C71 | endpoint polish | case analysis | partial: three negations |
| C72 | residuals, Jacobians and tangent of the three-phase solvers | calculus along curves, linear algebra; sample fluid with four wells | proved |
| C73 | `find_VLLE_gen_binary` | list membership | proved |
| C74 | rates of `path_integration` | linear algebra | proved |
| C75 | JSON loading helpers | decision logic with file system and parser as parameters | proved |
| C76 | association at zero density in dual numbers | exact derivative by slope limit; refutation | partial |
| C77 | CPA cubic part | calculus | proved |
| C78 | `CPAfactory` with missing entries | decision logic | partial: refuted |
| C79 | Gross-Vrabec quadrupolar third order | algebra, sign of the correlation | partial: refuted (the dipolar table is used), exact value proved |
| C80 | polar contribution at limits | calculus | partial: not finite at zero density or without the polar component; removable singularity and bounds proved |
| C81 | Gubbins-Twu and Gray-Gubbins | refinement, all integrals | proved where the second-order term is not zero, quadrupoles of one sign |
| C82 | gradients with respect to effective dipoles | calculus on finite sums | partial: exact defect, refuted for mixtures, proved for one component |
| C83 | multipolar term at zero density | calculus, dual numbers | partial: refuted |
| C84 | reduced-density option | decision logic | partial: refuted (throws on evaluation) |
| C85 | corresponding states of the polar terms | scaling of all sizes and energies; closed one-component form | proved |
| C86 | square-well second virial coefficient | derivative at zero density; series below the exponential | proved |
| C87 | square well continuous in the width | one-sided limits of each coefficient at width 2 | partial: refuted (integer quotients 17/2, 17/6, 17/24); what is continuous is proved |
| C88 | Lee-Kesler-Ploecker | derivative of the integrated BWR form; pure and identical components; decision logic of the checks | proved |
| C89 | Huber-Ely | reference recovered; scaling; short arrays | partial: short coefficient arrays are undefined behaviour |
| C90 | ammonia-water | positivity of the reducing functions; limits at both ends | partial: pure water is refused although the limit exists |
| C91 | activity departure | reference density, pure, dilute limits | partial: the size check comes after the first out-of-range access |
| C92 | extended-corresponding-states mutant | pure limits, unit parameters, JSON input | partial: small matrices are accepted and read out of range |
| C93 | Johnson MBWR | integrate the exponential family by its recursion, differentiate term by term; compare with the published pressure table | proved |
| C94 | Kolafa-Nezbeda | derivative of hard-sphere part, hand-coded temperature derivatives, slope at zero density | proved |
| C95 | LJ chains, soft-SAFT | log of contact value times (1-m); mixing rules collapse when present components are alike; sizes unchecked (witness) | partial |
| C96 | 2CLJ model | real calculus (derivative at zero density, limits), published tables as lists | partial: unit of temperature jumps at zero elongation, no third virial coefficient for dipoles |
| C97 | exp-6 of Kataoka | list of rows as a polynomial, numeric loop check | partial: steepness of eight or less is accepted and not finite |
| C98 | Mie equations | three derivatives on the critical isotherm with enclosures of exponentials; weighted means for the well; network weights as parameters | partial: exponents without value are accepted |
| C99 | gas constants | list induction, JSON decision logic | partial: unknown flag ignored, too long composition is undefined behaviour |
| C100 | generic SAFT, multi-fluid with association | parts as records with constructors as parameters | partial: the gas constant is replaced by that of CODATA |
| C101 | `multifluidfactory` collections | decision logic with file system and parser as parameters | partial: `PATH::` prefix only without a root; other exception type |
| C102 | GERG tables as rational numbers (`Model/GERGTables.lean`) | decision over the tables in the kernel; roots bounded by monotone polynomials for the linear rule | proved |
| C103 | `GERG200XAlphaig`: integration constants, pure gas, mixture | calculus of log sinh/cosh, 2x2 system with the solver contract | proved |
| C104 | lookups, constructors, residual models, JSON (`Model/GERG.lean`) | loop lemmas; refinement to the general reducing functions | proved |
| C105 | same | through the theorems on the reducing functions | proved |
| C106 | size checks | case analysis; refuted: GERG-2004 reads past its arrays with too many fractions | partial |
| C107 | pure equations on the critical isotherm | symbolic differentiation of `x^d exp(-x^l)` sums, exact rational evaluation with bounds on exp(-1) | proved |
| C108 | SAFT-VR-Mie derivatives | `HasDerivAt` of each hand-coded function, chain rule in density, compared with published formulas | proved |
| C109 | SAFT-VR-Mie low density | values at zero packing fraction; slopes as improper integrals of the Mie potential | proved |
| C110 | SAFT-VR-Mie mixtures | one theorem about mixtures of copies along a map of components, through the whole evaluation | proved |
| C111 | SAFT-VR-Mie pair parameters | algebra of the combining rules; findings on asymmetric matrices and excluded exponents | proved |
| C112 | SAFT-VR-Mie diameter | monotony of the repulsion, intermediate value theorem, bounds of the quadrature rule; derivative of the Halley map and a cubic contraction of the relative residual | proved (findings: wrong direction from a start outside of the minimum) |
| C113 | SAFT-VR-Mie construction | decision logic of constructors and factories over JSON | partial: polar terms dropped, empty matrix read out of bounds |
| C114 | COSMO-SAC segments | positive solutions of G(K p G)=1: existence by minimising, uniqueness by comparison; loop cases | proved |
| C115 | COSMO-SAC window | fast and slow iterates agree inside; bounds only see `nhb`; overflow at the end of the grid | proved (findings) |
| C116 | COSMO-SAC mixtures | pure, identical, lumping; Gibbs-Duhem for exact coefficients | proved |
| C117 | COSMO-SAC combinatorial | derivative of Spec.staverman | proved |
| C118 | COSMO-SAC documents | factory cases | proved |
| C119 | excess-energy mixing rules | algebra on the mixture parameters, cubic pressure lemma, log identity for the constant | proved |
| C120 | documents of that model | factory cases; scale invariance of Wilson | proved |
| C121 | saturated densities of cubics | scaling of pressure and chemical potential, tables as parameters | proved |
| C122 | generalised cubics from documents | factory cases | proved |
| C123 | documents of a fit | induction over pointers and trees | proved |
| C124 | accepted data points | invariant over calls of add | proved |
| C125 | contributions vanish exactly for a fitting model | algebra | proved |
| C126 | isentropic speed of sound | chain rule along isentropes | proved |
| C127 | density of a speed-of-sound datum | loop induction, counterexample | partial: false of code |
| C128 | sequential and threaded cost | any permutation of tasks | partial: false of code for failing points |
| C129 | fitted ancillaries return their data | document round trip | proved |
| C130 | ancillaries fitted to saturated states | mean value theorem | partial: false of code |
| C131 | access to the held model | holder kinds and a store | partial: mutable access never works |
| C132 | index of build_ancillaries | integer arithmetic | partial: negative indices |
| C133 | SAFT-VR-Mie constants and reference RDF | published tables, Taylor expansion at zero density | proved |
| C134 | Lennard-Jones (Thol) document | document through `getEOSTerms` and `buildMixture`; columns compared with the published rows by `decide +kernel`; derivatives of sums of `a x^d exp(q)` closed under differentiation; exponentials enclosed in rational arithmetic | proved |
| C135 | polishing of critical points | `Model/CritPolish` over `Model/Newton`; the row of a linear residual in the Jacobian is exact | partial: not every number is tested for finiteness (witness) |
| C136 | mutants from documents | Documents as trees; the double loops as `symLoop`; soundness and completeness of `mutantBuild` with respect to entries of pairs; identity by comparing sums over `i < k` | partial (missing pair is undefined behaviour) |
| C137 | derivatives in extended precision | Taylor's theorem with Lagrange remainder on both sides, moments of the stencils | partial: false at zero density, negation proved |
| C138 | lookup of departure functions and fluids | induction over the two passes and over the list of components | proved |
| C139 | Dufal rule: tables, combining rules, memory of one-column Eigen arrays | tables by kernel evaluation, memory layout by modular arithmetic, algebra of roots | partial: false for mixtures, negation proved |
| C140 | `Association::factory` over JSON trees | inversion of the chain of reads | proved |
| C141 | `build_assoc_pure` of `CPAfactory` over JSON trees | inversion of the chain of reads | proved |
| C142 | gas constants of the two descriptions of association in CPA | strict monotonicity of the site term and of the strength | partial: false of the code, negation proved |
| C143 | `Model/CorrTables`, `Model/CorrInt`: the six tables as lists of rational rows in source order, `mapAt` = `std::map::at` keeping the first of equal keys | lookup lemma for lists without repeated keys; key lists by `decide`; the five lost rows compared with all served ones | partial: false of Gubbins and Twu's J, negation proved |
| C144 | `mpBuild` of the three families, `gottJSum`, `gottKSum` | construction by evaluation; sums over flattened matrices | proved |
| C145 | `LuckasJ.get`, `luckasBoltz` (the two divisions by zero as IEEE has them) | rewrite as a quotient without singularity; limit at zero | proved |
| C146 | `Spec/CorrInt` (the integral), `GTJ.get` | discriminant of an integral of a square; second differences of the coefficients, sign of quadratics on [0, 1] at both ends of the temperature range | partial: false of two rows, negation proved |
| C147 | `LuckasK.get` against `luckasKBoltz` and `GTK.get` | closed forms at zero density, bounds of e and log 2 | partial: false of Luckas's K, negation proved |
| C148 | `gtEval` (existing) with `MPSigns`, `gtIntegrals` | signs of all sums; Pade denominator at least one | partial: proved for Gubbins and Twu's integrals; false of Luckas's and of Gottschalk's (witness states) |
| C149 | the constructors and `get_J`, `get_K` of the three families | closed forms at zero density, rational bounds of powers of e | proved |
| C150 | `qcprFactory`, `rkprFactory`, `QCPRrt.alphar`, `RKPRrt.alphar` (`Model/QCRK`) | reading of the document; exact condition for staying inside the arrays; witnesses | partial: false of the code |
| C151 | dual numbers over floating-point values with infinities, `bnvir2` | dual arithmetic is the derivative where finite; at zero density it is not a number | partial: false of the code |
| C152 | `QCPRrt.superanc` | evaluation for a pure fluid; refusal at the critical temperature with the shipped interval ends | partial: false of the code |
| C153 | polarizable branch of the Gray-Gubbins term (`ggEprime`, `ggIterate`, `ggEval`) | sign of the field by algebra, fixed points, contraction and intermediate value | partial: false for non-polar polarizable fluids and beyond the self-consistency limit; convergence under a contraction hypothesis |
| C154 | `build_departure_function` with the Chebyshev type (Model/ChebDep) | dispatch on strings, degrees of Chebyshev polynomials after an affine map | partial: proved for equal degrees, false otherwise and at zero density |
| C155 | `Model/Schema`: each schema of the archive as the set of documents it admits; factories of `Model/Factory`, `AdvPR`, `CPA`, `PCSAFT`, `SVRFactory`, `TwoCenter`, `LKP`, `Ideal` | every admitted document makes the factory return a value or a teqp error; composed with `buildModelPtr` | partial: false for short arrays (PR, cubic), nulls (PC-SAFT, SAFT-VR-Mie), arrays for heat capacities (ideal gas) and every CPA mixture; each with witness |
| C156 | as C155 | exactness of the schemas (`↔`) for vdW1, vdW, square well, exp-6, Mie, two-center; completeness for PR | partial: false for cubic (PR78, gas constant), CPA mixtures, SAFT-VR-Mie (reduced moments), ideal gas (term without gas constant); witnesses |
| C157 | `convertIdealDocument`, `idealFactory`, schema of `IdealHelmholtz` | every branch of the conversion yields an admitted term; flat documents are read alike by both models of the constructor | proved |
| C158 | `Model/MixDoc`: `buildMixDoc`, the whole of `_build_multifluid_model` on JSON trees with constant look-ups of absent keys as `ub` | relations `FluidIs`, `EntryIs`, `DepIs`, `FlagsAre` between documents and data; refinement of the data-level model (C24, C29, C30) outcome by outcome; pure limit, order of documents and single fluids as corollaries; witnesses of undefined behaviour | partial: false of the code for absent keys and zero density |
| C159 | `multifluidFactory`, `buildMultifluidModel`, `buildMultifluidStr` over a `World` of files and a parser | equality of outcomes by unfolding the loaders; witness for the empty departure argument | partial: false of the code without a root |
| C160 | Model/AssocReport: the JSON documents of both association classes as records, built from the same strengths and fractions as `alphar` | Props/AssocReport: the energy from the fields equals `alphar`; the law of mass action from the fields (loop with enough iterations, closed form exactly); maps inverse by the absence of duplicates | partial: no size check, masked two-site fluid, older class for mixtures |
| C161 | `Model/SVRReport`: the report as a record with the gate of `SVR.core` | unfold report and core together for the sum; fields read back from an inversion lemma and compared with sums written out; openness of the domain from continuity of `svrK` and `svrZeff` | proved |
| C162 | `Model/PENumJac`: the loop over the unknowns with the buffers as state | inversion of the loop by induction; limit from the derivative along a shifted state (C46) and the symmetric difference quotient; sum row by counting the shifted fractions; witnesses for the disagreement and the stale buffers | partial: steps unchecked, buffers stale |
| C163 | the tables of `Model/GERGTables`, `Model/CorrTables`, `Model/PCSAFT`, `Model/SAFTVRMie`, `Model/Polar`, `Model/LennardJones`, `Model/Potentials`, `Model/SquareWell`, `Model/TwoCenter`, `Model/MultiFluidExt`, `Model/LKP`, `Model/Dufal`, `Model/LJThol` | `Spec/Fingerprint`: count, sum and weighted sum of a list; that they detect an altered entry, an exchange and a missing entry is proved for all lists. The values on the right of `Props/Tables` and `Props/RealTables` were written by a script that reads the numbers from the C++ text with regular expressions and knows nothing of the Lean tables. Trusted: that script | proved |
| C164 | the readers of `Model/Json`, `Model/Factory`, `Model/JsonInt`, `Model/Assoc`, `Model/AncBuild`, `Model/Cosmo` | `Spec/Decode`: a reader is the inverse of a writer and raises a JSON error on every document the writer does not produce. Proved for scalars, arrays, nested arrays, maps; then for required members, optional members (`value`) and the `contains`/`get_to` idiom, for every reader. Trusted: the conversion rules of nlohmann/json, which is not in /repo | proved |
| C165 | all models' `alphar` as already modelled; spec `Spec/LowDensity` (`HasVirial`: zero at zero density, finite for small densities, one-sided derivative) | `Props/LowDensity` (equivalence with the limit of alphar/rho, uniqueness, agreement with `B2vir`; vdW, generic cubic, quantum-corrected PR, RKPR, advanced-mixing PR, square well, Johnson, Kolafa–Nezbeda, two-centre, Kataoka, neural network, chains, soft-SAFT, LKP, Huber–Ely), `Props/LowDensitySAFT` (PC-SAFT), `Props/LowDensityMF` (multi-fluid, activity, ammonia–water, Mie), `Props/LowDensityECS` (extended-corresponding-states mutant: terms along a curve), `Props/LowDensityGERG`, `Props/LowDensitySVR` (SAFT-VR-Mie), `Props/LowDensityCPA` | partial: false for a zeroth power of density (`zeroth_power_no_gas`), for Chebyshev departures (`cheb_zero_density`, `cheb_mixture_not_gas`), multipolar terms (`multipolar_zero_density`), CPA by scheme (`cpa_scheme_no_gas`) and CPA by sites when iterated (`assoc_iterated_virial`) |
| C166 | `ssLoop` and `explicitX0` over dual numbers (Model/Assoc) | implicit differentiation of the law of mass action (adjugate, compactness for continuity); weighted contraction of the errors of the derivatives; refuted for every tolerance by a low density | partial |
| C167 | Model/Cosmo (`segLoop`, `segStep`, `Cosmo.gamma`, `Cosmo.resid`) | Bounds on the ratio to the solution: one pass replaces both bounds by their mean, and one of them first improves by the share of a present segment; two segments that hardly see themselves grow by at most 1.03 % per pass and cannot meet the test before; first pass of nearly equal densities | partial: the fixed number of passes can be too few (witness with the published constants at 298.15 K) |
| C168 | Model/Assoc (`assocSolve`, `ssLoop`, `AssocOptions`) | Ratio and product of the two fractions as invariants of the first 100 substitutions; the test cannot be met under them; exact fraction at least the excess of acceptors | partial: false for the default limit (witness for all strengths in a range) |
| C169 | `Model/EmbedTerm`: constructors and values of the generic cubic and PC-SAFT terms of a multi-fluid document; fluid with one such term | chain rule for a scaled density (no differentiability needed), then C13 for the cubic; critical point by scaling; equality with the cubic class and the pure PC-SAFT class; three concrete accepted documents with wrong pressure; composition with C158: from the JSON document of a fluid, alone or in a mixture, to its pressure (cubic) or Helmholtz energy (PC-SAFT, `Lemmas/PCPure` against the published form in the packing fraction) | partial (false for inconsistent documents, shown) |
| C170 | `Cubic.alphar`, `get_a`, `AlphaFn.basic`, `Agenxy` (existing) | near any temperature below the zeros, `a/T` is a quadratic in the root of `1/T`; two derivatives of it; signs termwise | partial: false for m < 0 and above the zeros of the alpha functions, with witnesses |
| C171 | `pcHS`, `pcG`, `pcD` of Model/PCSAFT | Both sides are rational functions of the moments of the diameters; the double sum factors into products of moments after writing each contact value in powers of the two diameters. Monotonicity from the sign of the derivative. | proved |
| C172 | `Cubic.alphar`, `canonicalSRK`, `VdWMix.alphar` as already modelled; spec `Spec/CubicStable` (`MechStable`, `OneDensity`) | `Props/CubicStable`: sign of the slope as a polynomial inequality in `b rho`; the quartics factor with a double root at the critical density (exactly for vdW and SRK, to 30 digits for PR); intermediate value theorem for the density; Soave alpha function in the square root of the reduced temperature | proved; stability ends again at high temperature for slopes above one (`decane_unstable`) |
| C173 | `vleResid`, `vleJac` of Model/PureVLE with the residual Helmholtz energies of Model/Cubic and Model/VdW; spec `Saturated`, `TangentStable` in Spec/Saturation | Lemmas/CommonTangent: a function on [0,B) falling vertically at 0, infinite at B and without supporting line at s has a common tangent around s; tangents are unique when the curvature has one negative interval. Lemmas/Saturation: isotherms of this shape (`Loop`), cubic pressures have it (`spin_single`). Props/Saturation: zero of the residual exists once below, not above the critical temperature | proved |
| C174 | `dpsatdTPure`, `satSlopes` of Model/PureVLE along the zeros of `vleResid` | Lemmas/SatCurve: implicit function theorem for equal pressure and chemical potential, regular because both phases are strictly stable. Props/SatCurve: the implicit branch is the unique saturation state of C173, so the curve is differentiable; the slope theorems of C34 apply without a hypothesis on the curve; the vapour has the larger entropy (`Attract`), so the Clapeyron slope is positive | proved |
| C175 | `vleLoop`, `pureVLE`, `critLoop`, `solvePureCritical` of Model/PureVLE | Lemmas/NewtonLocal: a Newton step near a zero with regular derivative reduces the error by any factor and is bounded by the residual. Props/NewtonLocal: the systems of both solvers have this form (C33, C36 give the exact Jacobians), induction over the passes; regularity from C173 for saturation and from the signs of the derivatives at the critical point of cubics | proved |
| C176 | Model/Iterate (existing) | Newton near a regular zero (Lemmas/NewtonLocal) in the unknowns (T, ρ) or (T, ln ρ); residual bounded by the error, so the residual condition fires after boundedly many halvings while the two failure conditions stay silent; determinants of the pairs at stable states from the partial derivatives of the state functions (Props/IterConverge) | proved |
| C177 | Model/MixVLE (existing) | Newton near a regular zero of a vector system with exact Jacobian (Lemmas/NewtonVec); kernels of the three Jacobians from the Hessian identities of the phase envelope; limiter inactive near positive states; stopping tests turned into error bounds (Props/MixConverge) | proved |
| C178 | Model/VLLE (existing) | Jacobian rows as rates of the chemical potentials and pressures; kernel trivial for non-collinear phases away from their limits of stability; Newton lemma of NewtonVec; generic run of `codeLoop`; single-step witness and a fluid with three phases for the negative result (Props/VlleConverge) | partial (no error bound when the signed step test ends the run; witness) |
| C179 | Model/PCSAFT, Model/Virial (existing) | contact value of equal spheres factors; derivative of the logarithms bounded by that of the hard-sphere term; derivative at zero density in closed form; signs from the powers of 1/T; intermediate value theorem (Props/HardChain) | partial (false for the 2012 constants and long chains; witness) |
| C180 | `Cubic.build` with `AlphaFn.basic`, `canonicalSRK`, `canonicalPR`, `B2vir` | the coefficient is a positive factor times `κ² s² - (1 + m - m s)²` with `s = √(T/Tc)`, a product of two linear functions of `s`; the sign in closed form; instances for the acentric factors of SRK and Peng-Robinson | partial: false for `m > κ` (SRK `ω ≥ -0.018`, Peng-Robinson `ω ≥ 0.026`): the alpha function grows again past its zero and the coefficient is negative at high temperature; decane at 6000 K |
| C181 | `satSlopes`, `dpsatdTPure`, `canonicalSRK`, `prModel`, `VdWMix.ofCritical` | on the curve of C174: by the mean value theorem the slope of the vapour pressure is the pressure coefficient `(∂p/∂T)_ρ` at a density between the phases; the coefficient grows with density, so the slope exceeds that of the vapour and stays below that of the liquid; `(∂p/∂ρ)_T > 0` at both phases (C173) | proved |
| C182 | `satMap`, `canonicalSRK`, `VdWMix.ofCritical` | the densities of C181 are monotone and bounded, so they have limits; the residual of the solver is continuous, so two different limits would be a saturated state at `Tc`, where there is none; an unstable density between the phases gives slope zero at the limit; only one density of that isotherm has slope zero (`Loop.single`) and C12 and C13 know it; `H = T S` between the phases gives the heat of vaporisation | proved |
| C183 | `pcEval`, `dipEval`, `quadEval`, `diquadEval`, `PCMixture.alpharPolar`, `LKPMix.alphar`, `SoftSAFT.alphar` | one spec for permutations, repeated and absent entries: `gathered f x`, the sum of the fractions over the entries of a substance; all mixing rules are sums of products of fractions, moved along `f` by `sum_fiberwise`; domains and switches agree when `f` is onto | proved |
| C184 | `Model/Assoc` (`mapSites`, `makeD`, `getDelta`, `ssLoop`, `assocSum`) | `Props/AssocRewrite`: a map between the sites lies over the map between the components; the fractions of the copies of a site gather, so every iterate is the same along the map; two counterexamples (masked fluid listed twice; closed form against iteration, irrational against rational) | partial: false with masks on components listed twice and for one component with the closed form |
| C185 | `Model/Reducing` (`redY`, `invY`), `Model/MultiFluid` | `Props/Splitting`: with beta = 1 the reducing functions and the departure sum are quadratic forms in the mole fractions, which gather along the map of the components; the short cut for pure fluids agrees for fractions that add up to one; a counterexample with beta = 2 | partial: false for beta other than 1 |
| C186 | `Model/CPA`, `Model/AdvPR`, `Model/Activity`, `Model/Ideal` | `Props/CPARewrite`: the mixing rules are sums over components that gather along the map of the components, lifted through the outcome type; association by C184; for the ideal gas the difference is computed and bounded by x_k at most the gathered fraction | proved (CPA with the general association class) |
| C187 | `Model/Cosmo` | `Props/CosmoRewrite`: the bounds of the window are a minimum and a maximum over the fluids, hence depend on the set only; the mixed profile gathers along the map of the fluids; a model without interaction in which everything can be computed serves as witness | partial: false for absent fluids in the fast branch |
| C188 | `Model/Isochoric` | `Props/ListedTwice`: changing one entry shifts the merged concentration of its component, so partial derivatives carry over without any differentiability; for the equilibrium the shares of a component sum to one in both phases, which forces a common factor to be one ; `seenAs` turns the rewriting theorems of C183, C184 and C186 into models of this kind | proved |
| C189 | critHess, psiTot, getDerivs, critConditions, PsirSigmaDeriv; SameEOS | the residual part along a line is that of the merged line; the ideal second derivative splits into the merged one and a weighted sum of squares of the change of shares; a flat direction keeps the shares, so second and third derivatives carry over | proved |
| C190 | eigenProblem with one absent component, padded, psi0Deriv, critConditions, ptot, fugacityCoefficient; SameEOS along `succAbove` | leaving out a component is a listing along an injection; the reduced Hessian is that of the smaller mixture, so both calls see the same eigen-solver result; for a pure fluid the derivatives of `Psir` are those of the pressure | proved |
| C191 | minEigenvalue (Model/MinEigen.lean) on eigenProblem | Rayleigh quotient for the least eigenvalue, then listing_stable (C189) for the sign, the reduced Hessian (C190) for absent components, an ideal gas as witness that the value depends on the listing | proved |
| C192 | Model/MultiFluidParts.lean (`getAlpharij`, `pyAlpharij`, `alpharTaudeltai`, `alpharTaudeltaV`, `alpharRho`) | index conversion by `omega`; assembly spec `AssembledFrom` over API calls; symmetry through `symLoop_spec`; round trip for molar densities; Python integers outside `int` (refused by the wrapper before the call) are outside the model | proved |
| C64 | static buffers, interleavings | data race exhibited on an executable interleaving model | partial |

## 3. Trusted base

* Lean 4.33.0 kernel. The property theorems depend at most on `propext`, `Classical.choice`,
  `Quot.sound` (checked with `#print axioms`). No own axioms, no `sorry`, no `native_decide`.
* The reading of the C++ by which each definition was written (cited per definition).
* External libraries by contract: autodiff/multicomplex/complex step return exact derivatives;
  Eigen linear solves; for C139 the storage of a one-column Eigen array (element `(i, j)` at
  `i + j * rows`, a copy holds `rows` numbers, `resize` asserts one column); nlohmann::json parsing; Boost ODE steppers (only the right-hand sides are
  modelled); the C++ standard library containers (for C143: a `std::map` initialised with a repeated
  key keeps the first pair, which the standard leaves open but the common libraries do).
  (C151 is the exception: there forward-mode arithmetic of `autodiff::Real` is modelled with infinities and
  not-a-number, by either form of the quotient rule, to treat the division by a zero density).
* For C155-C157: the schema validator by contract for the keywords that the archive uses (`type`, `properties`, `required`,
  `additionalProperties: false`, `items`, `minItems`/`maxItems`, `enum`, `const`, `anyOf`, `$ref`).
* Not modelled: floating-point rounding, overflow, NaN propagation (except where a model has an
  explicit "not finite" outcome), performance, the Python/MATLAB/Excel wrappers, plotting and
  benchmark code.
