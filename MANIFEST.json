{
 "claims": [
  {
   "property": "C01",
   "status": "proved",
   "theorems": [
    "Pot.C01_cart_to_polar",
    "Pot.C01_cart_to_polar_unique"
   ],
   "note": "existence, ranges, round trip and uniqueness away from the origin"
  },
  {
   "property": "C02",
   "status": "proved",
   "theorems": [
    "Pot.C02_get_polar",
    "Pot.C02_get_polar_unique"
   ],
   "note": "same point, window, and uniqueness in the window"
  },
  {
   "property": "C03",
   "status": "proved",
   "theorems": [
    "Pot.C03_arg_to_polar_same_point",
    "Pot.C03_arg_to_polar_point"
   ],
   "note": "both parametrisations, plus the intended points on segments 1 and 2"
  },
  {
   "property": "C04",
   "status": "proved",
   "theorems": [
    "Pot.C04_wrap_func"
   ],
   "note": "idempotence, normal range, fixed points"
  },
  {
   "property": "C05",
   "status": "proved",
   "theorems": [
    "Pot.C05_get_sid_of_sample",
    "Pot.C05_get_sid_spec"
   ],
   "note": "every sample point, any sample size; full classification of get_sid"
  },
  {
   "property": "C06",
   "status": "proved",
   "theorems": [
    "Pot.C06_coord_inverse",
    "Pot.C06_coord_nested"
   ],
   "note": "both inverses, nesting, spacing, edges"
  },
  {
   "property": "C07",
   "status": "proved",
   "theorems": [
    "Pot.C07_is_interior"
   ],
   "note": "equivalence with the closed domain"
  },
  {
   "property": "C08",
   "status": "proved",
   "theorems": [
    "Pot.C08_radius_point",
    "Pot.C08_assert"
   ],
   "note": "projection, distance, signed distance, assertion branches"
  },
  {
   "property": "C13",
   "status": "proved",
   "theorems": [
    "Pot.C13_apply_L",
    "Pot.C13_errors"
   ],
   "note": "both orders; shape and order error branches"
  },
  {
   "property": "C14",
   "status": "proved",
   "theorems": [
    "Pot.C14_inverse",
    "Pot.C14_unique"
   ],
   "note": "both inverses and uniqueness, under \"no eigenvalue is zero\""
  },
  {
   "property": "C15",
   "status": "proved",
   "theorems": [
    "Pot.C15_resonance",
    "Pot.C15_iff",
    "Pot.C15_eigenvals"
   ],
   "note": "zero eigenvalue iff the operator is not bijective; symmetry; negativity for k = 0"
  },
  {
   "property": "C16",
   "status": "proved",
   "theorems": [
    "Pot.C16_smooth",
    "Pot.C16_contDiff",
    "Pot.C16_poly"
   ],
   "note": "explicit constant 11/180, C^6 version, exact on degree at most 5"
  },
  {
   "property": "C17",
   "status": "proved",
   "theorems": [
    "Pot.C17_smooth",
    "Pot.C17_poly"
   ],
   "note": "explicit constant 1/6, exact on degree at most 3"
  },
  {
   "property": "C18",
   "status": "proved",
   "theorems": [
    "Pot.C18_alias",
    "Pot.C18_arc_dst"
   ],
   "note": "any length; shorter series are the case of zero coefficients"
  },
  {
   "property": "C42",
   "status": "proved",
   "theorems": [
    "Pot.C42_arc",
    "Pot.C42_outerSine",
    "Pot.C42_innerSine",
    "Pot.C42_sine7",
    "Pot.C42_cubic",
    "Pot.C42_shipped",
    "Pot.C42_cubic_max"
   ],
   "note": "all five shipped boundaries; cubic for a at least pi/6"
  },
  {
   "property": "C43",
   "status": "proved",
   "theorems": [
    "Pot.C43_angle_by_arclength"
   ],
   "note": "derivatives 1 to 4 of the angle by arc length"
  },
  {
   "property": "C44",
   "status": "proved",
   "theorems": [
    "Pot.C44_curvature",
    "Pot.C44_arc"
   ],
   "note": "curvature formula and its value -1/R on the arc"
  },
  {
   "property": "C45",
   "status": "proved",
   "theorems": [
    "Pot.C45_frame",
    "Pot.C45_tangent_normal"
   ],
   "note": "unit tangent and outward unit normal"
  },
  {
   "property": "C46",
   "status": "proved",
   "theorems": [
    "Pot.C46_reconstruct",
    "Pot.C46_none"
   ],
   "note": "reconstruction and the None branch, under the brentq contract"
  },
  {
   "property": "C47",
   "status": "proved",
   "theorems": [
    "Pot.C47_arc"
   ],
   "note": "exact coordinates on the arc for every window angle"
  },
  {
   "property": "C09",
   "status": "proved",
   "theorems": [
    "Pot.C09_partition"
   ],
   "note": "any interior predicate, size and order, any set iteration order"
  },
  {
   "property": "C10",
   "status": "proved",
   "theorems": [
    "Pot.C10_gamma"
   ],
   "note": "stencil neighbourhoods, duplicate-free intersection, locality of apply_L"
  },
  {
   "property": "C11",
   "status": "proved",
   "theorems": [
    "Pot.C11_gamma_in_M0",
    "Pot.C11_margin",
    "Pot.C11_no_index_error",
    "Pot.C11_without_margin",
    "Pot.C11_witness"
   ],
   "note": "margin, no IndexError, exact read and write positions; failure without the margin with a witness"
  },
  {
   "property": "C12",
   "status": "proved",
   "theorems": [
    "Pot.C12_gentle",
    "Pot.C12_shipped",
    "Pot.C12_all_gamma",
    "Pot.C12_outer",
    "Pot.C12_arc"
   ],
   "note": "exact distances for the wedge sides (any boundary) and for all segments of every arc and of the five shipped boundaries (N >= 16), where the assertion never fires"
  },
  {
   "property": "C35",
   "status": "proved",
   "theorems": [
    "Pot.C35_gentle",
    "Pot.C35_shipped",
    "Pot.C35_at_most_two"
   ],
   "note": "any regular boundary through the corners under an explicit mesh inequality; the five shipped boundaries for every N >= 16"
  },
  {
   "property": "C19",
   "status": "proved",
   "theorems": [
    "Pot.C19_discrete_equation"
   ],
   "note": "for every extension vector and source array"
  },
  {
   "property": "C20",
   "status": "proved",
   "theorems": [
    "Pot.C20_projection",
    "Pot.C20_trace_determines"
   ],
   "note": "linear projection; potential on Nplus determined by the trace"
  },
  {
   "property": "C21",
   "status": "proved",
   "theorems": [
    "Pot.C21_reproduce",
    "Pot.C21_unique"
   ],
   "note": "equivalence, reproduction and uniqueness"
  },
  {
   "property": "C24",
   "status": "proved",
   "theorems": [
    "Pot.C24_order_independent"
   ],
   "note": "any two iteration orders of the node sets"
  },
  {
   "property": "C36",
   "status": "proved",
   "theorems": [
    "Pot.C36_derivatives",
    "Pot.C36_too_high"
   ],
   "note": "orders 0 to 5 against Mathlib's Chebyshev polynomials, plus the error branch"
  },
  {
   "property": "C37",
   "status": "proved",
   "theorems": [
    "Pot.C37_length",
    "Pot.C37_increasing",
    "Pot.C37_inside",
    "Pot.C37_roots"
   ],
   "note": "length, strict order, range and exact root set"
  },
  {
   "property": "C38",
   "status": "proved",
   "theorems": [
    "Pot.C38_inverse",
    "Pot.C38_inside",
    "Pot.C38_sample_range",
    "Pot.C38_needs_eps"
   ],
   "note": "inverse maps, strict interior, sampling range; eps = 0 shown to fail"
  },
  {
   "property": "C39",
   "status": "proved",
   "theorems": [
    "Pot.C39_derivative",
    "Pot.C39_other_segment",
    "Pot.C39_index_error"
   ],
   "note": "derivatives on the physical segment, zero elsewhere, error branch"
  },
  {
   "property": "C40",
   "status": "proved",
   "theorems": [
    "Pot.C40_layout",
    "Pot.C40_length",
    "Pot.C40_partition",
    "Pot.C40_entries",
    "Pot.C40_c0_length"
   ],
   "note": "full layout, partition, lookup, length of c0"
  },
  {
   "property": "C41",
   "status": "proved",
   "theorems": [
    "Pot.C41_exact",
    "Pot.C41_calc_c0",
    "Pot.C41_empty_basis"
   ],
   "note": "any least-squares minimiser; existence of one shown"
  },
  {
   "property": "C22",
   "status": "proved",
   "theorems": [
    "Pot.C22_superposition"
   ],
   "note": "every coefficient vector; the grid hypotheses are discharged for every sufficiently fine circular-arc problem (ready_arc)"
  },
  {
   "property": "C23",
   "status": "proved",
   "theorems": [
    "Pot.C23_arc",
    "Pot.C23_residual",
    "Pot.C23_fixed_point",
    "Pot.C23_run"
   ],
   "note": "residual identity, fixed point, and the whole of run under the contracts of chebfit and lstsq"
  },
  {
   "property": "C33",
   "status": "proved",
   "theorems": [
    "Pot.C33_bad_coord",
    "Pot.C33_aligned",
    "Pot.C33_no_new_error"
   ],
   "note": "labels, nodes and success of the addition; no new error"
  },
  {
   "property": "C34",
   "status": "proved",
   "theorems": [
    "Pot.C34_add",
    "Pot.C34_entries",
    "Pot.C34_errors",
    "Pot.C34_comm",
    "Pot.C34_assoc",
    "Pot.C34_reduce",
    "Pot.C34_reduce_error",
    "Pot.C34_reduce_add",
    "Pot.C34_not_weighted"
   ],
   "note": "addition with all error branches, commutativity, associativity, reduce"
  },
  {
   "property": "C65",
   "status": "proved",
   "theorems": [
    "Pot.C65_eval_error"
   ],
   "note": "all three outcomes"
  },
  {
   "property": "C25",
   "status": "proved",
   "theorems": [
    "Pot.C25_reads",
    "Pot.C25_true_source",
    "Pot.C25_order_two_false"
   ],
   "note": "read set for order above 2 and its consequence for quadratic sources; the order 2 failure is proved with a witness"
  },
  {
   "property": "C26",
   "status": "proved",
   "theorems": [
    "Pot.C26_gives_up",
    "Pot.C26_value",
    "Pot.C26_foot",
    "Pot.C26_foot_ne_zero",
    "Pot.C26_point_of",
    "Pot.C26_arc_point",
    "Pot.C26_setup_f",
    "Pot.C26_quadratic"
   ],
   "note": "non-zero direction, exact write set, exactness on quadratics; the existence of foot points is discharged for every sufficiently fine circular-arc problem and for every shipped boundary (C79)"
  },
  {
   "property": "C27",
   "status": "proved",
   "theorems": [
    "Pot.C27_C28_sum",
    "Pot.C27_taylor",
    "Pot.C27_error",
    "Pot.C27_C28_outer"
   ],
   "note": "any curve with a moving frame, any solution; Taylor polynomial, remainder bound M|n|^5/120; the outer boundary with the code's own normal, curvature and arclength formulas"
  },
  {
   "property": "C28",
   "status": "proved",
   "theorems": [
    "Pot.C28_outer_node",
    "Pot.C28_taylor"
   ],
   "note": "any curve and source; at the nodes of the outer boundary through `do_extend_inhomo_0_standard` (nan exactly on the boundary)"
  },
  {
   "property": "C29",
   "status": "proved",
   "theorems": [
    "Pot.C29_chain_rule"
   ],
   "note": "all derivatives handed on by `extend_polar`"
  },
  {
   "property": "C30",
   "status": "proved",
   "theorems": [
    "Pot.C30_chain_rule"
   ],
   "note": "second arclength derivative of the source"
  },
  {
   "property": "C31",
   "status": "proved",
   "theorems": [
    "Pot.C31_line",
    "Pot.C31_lower",
    "Pot.C31_upper",
    "Pot.C31_upper_coords"
   ],
   "note": "both sides at every standard node, with the source term, including a foot point at the origin"
  },
  {
   "property": "C32",
   "status": "proved",
   "theorems": [
    "Pot.C32_shift",
    "Pot.C32_zero",
    "Pot.C32_accuracy",
    "Pot.C32_exact",
    "Pot.C32_outer",
    "Pot.C32_lower",
    "Pot.C32_upper",
    "Pot.C32_standard"
   ],
   "note": "shift = derivatives of the Taylor polynomial, accuracy bound, exactness, agreement with the standard extension; all six corner procedures"
  },
  {
   "property": "C48",
   "status": "proved",
   "theorems": [
    "Pot.C48_grid",
    "Pot.C48_index",
    "Pot.C48_system",
    "Pot.C48_solve",
    "Pot.C48_converse",
    "Pot.C48_errors"
   ],
   "note": "square system, numbering, solution satisfies the node equations; N = 0 and a circle of radius zero raise ZeroDivisionError"
  },
  {
   "property": "C49",
   "status": "proved",
   "theorems": [
    "Pot.C49_scheme",
    "Pot.C49_consistency"
   ],
   "note": "coefficients and right-hand side; residual at most 3 M K^6 (1+k^2) (hr^4 + hth^4)"
  },
  {
   "property": "C50",
   "status": "proved",
   "theorems": [
    "Pot.C50_rate",
    "Pot.C50_array",
    "Pot.C50_polar",
    "Pot.C50_multivalue",
    "Pot.C50_multivalue_error",
    "Pot.C50_value"
   ],
   "note": "all three versions, for grids of 4q, 2q and q cells; value, ValueError, nan and KeyError cases"
  },
  {
   "property": "C53",
   "status": "proved",
   "theorems": [
    "Pot.C53_C63_runz"
   ],
   "note": "any list of grids; the coefficients used on every grid and the number of calls"
  },
  {
   "property": "C62",
   "status": "proved",
   "theorems": [
    "Pot.C62_single",
    "Pot.C62_terminates",
    "Pot.C62_list",
    "Pot.C62_empty",
    "Pot.C62_fuel"
   ],
   "note": "closed form, termination exactly for N0 >= 1 or N0 > c, fuel independence"
  },
  {
   "property": "C63",
   "status": "proved",
   "theorems": [
    "Pot.C63_report",
    "Pot.C63_abort",
    "Pot.C63_typeError",
    "Pot.C63_nested",
    "Pot.C63_runz_abort",
    "Pot.C63_runz_turns",
    "Pot.C63_runz_unsolved"
   ],
   "note": "run.py and runz.py; exception behaviour; grids N, N/2, N/4"
  },
  {
   "property": "C51",
   "status": "proved",
   "theorems": [
    "Pot.C51_q",
    "Pot.C51_f1",
    "Pot.C51_eval_f1",
    "Pot.C51_z1",
    "Pot.C51_z1_sides"
   ],
   "note": "every g and v given as functions of (r, theta); derivatives of v as explicit hypotheses"
  },
  {
   "property": "C52",
   "status": "proved",
   "theorems": [
    "Pot.C52_taper",
    "Pot.C52_strict"
   ],
   "note": "six continuous derivatives on the whole line, monotone, 0 and 1 outside the ring, strictly between inside"
  },
  {
   "property": "C54",
   "status": "proved",
   "theorems": [
    "Pot.C54_rhs",
    "Pot.C54_assert",
    "Pot.C54_modes",
    "Pot.C54_exact"
   ],
   "note": "right-hand side, assertion, modes of the integrated system, exactness through uniqueness of the mode equation; odeint as an oracle that returns a solution"
  },
  {
   "property": "C60",
   "status": "proved",
   "theorems": [
    "Pot.C60_values",
    "Pot.C60_inverse",
    "Pot.C60_errors"
   ],
   "note": "any Bessel factor; inverse both ways, nan for a vanishing factor, AssertionError"
  },
  {
   "property": "C61",
   "status": "proved",
   "theorems": [
    "Pot.C61_exact",
    "Pot.C61_nan",
    "Pot.C61_arc",
    "Pot.C61_least",
    "Pot.C61_nodes"
   ],
   "note": "any least-squares minimiser, rescaled columns included; nan for a vanishing scale factor; rank condition proved for the arc with the shipped nodes"
  },
  {
   "property": "C67",
   "status": "proved",
   "theorems": [
    "Pot.C67_residual",
    "Pot.C67_source",
    "Pot.C67_series"
   ],
   "note": "closed form of the residual and bound of the regularised source inside the inner circle"
  },
  {
   "property": "C55",
   "status": "proved",
   "theorems": [
    "Pot.C55_layout",
    "Pot.C55_interp",
    "Pot.C55_rmin"
   ],
   "note": "layout, order, kept radii, rmin; interp2d as an oracle that takes the given values at the given nodes"
  },
  {
   "property": "C68",
   "status": "proved",
   "theorems": [
    "Pot.C68_zbvp",
    "Pot.C68_arc",
    "Pot.C68_branches"
   ],
   "note": "values on all four sides and the difference equation inside, for any spsolve that solves the system; acheat and exception branches"
  },
  {
   "property": "C69",
   "status": "proved",
   "theorems": [
    "Pot.C69_coefs",
    "Pot.C69_verror",
    "Pot.C69_empty"
   ],
   "note": "any sine content of the error; ValueError without inner circles"
  },
  {
   "property": "C70",
   "status": "proved",
   "theorems": [
    "Pot.C70_pde",
    "Pot.C70_data",
    "Pot.C70_branches"
   ],
   "note": "data on all three segments, branches, and the equation, for any Bessel factors that satisfy Bessel's equation"
  },
  {
   "property": "C72",
   "status": "proved",
   "theorems": [
    "Pot.C72_ode"
   ],
   "note": "chain do_algebra, calc_z1_fourier; odeint as an oracle that returns a solution"
  },
  {
   "property": "C56",
   "status": "proved",
   "theorems": [
    "Pot.C56_sine",
    "Pot.C56_e",
    "Pot.C56_ycos",
    "Pot.C56_bc",
    "Pot.C56_normal",
    "Pot.C56_outward"
   ],
   "note": "sine, e and ycos: one function whose value, gradient and second derivatives are the expected solution, get_grad and the Helmholtz equation with the source; eval_bc on all three segments, TypeError otherwise; eval_d_u_outwards along the outward normal"
  },
  {
   "property": "C57",
   "status": "proved",
   "theorems": [
    "Pot.C57_polar",
    "Pot.C57_cart",
    "Pot.C57_origin",
    "Pot.C57_source",
    "Pot.C57_source_polar"
   ],
   "note": "every source that is a twice differentiable function of the point near it, away from the origin; nan at the origin"
  },
  {
   "property": "C58",
   "status": "partial",
   "theorems": [
    "Pot.C58_origin",
    "Pot.C58_affine_partial",
    "Pot.C58_false"
   ],
   "note": "the statement is false of the code: C58_false gives the witness x^2, C58_origin the exact value (Taylor value plus h^2 f_xx); C58_affine_partial is the statement for f_xx = 0 at (-h, 0). Missing: nothing more is true of this code"
  },
  {
   "property": "C59",
   "status": "proved",
   "theorems": [
    "Pot.C59_dict",
    "Pot.C59_loop",
    "Pot.C59_terminates",
    "Pot.C59_window",
    "Pot.C59_shipped",
    "Pot.C59_endless",
    "Pot.C59_powers"
   ],
   "note": "result of the loop, terminates exactly in the windows [16*2^i, 17*2^i) for the shipped tables, endless below 16 and for 24"
  },
  {
   "property": "C64",
   "status": "proved",
   "theorems": [
    "Pot.C64_history"
   ],
   "note": "every call sequence on a fresh object: AttributeError before the first evaluation of the expected solution, the gradient after it"
  },
  {
   "property": "C66",
   "status": "proved",
   "theorems": [
    "Pot.C66_resolution",
    "Pot.C66_hat",
    "Pot.C66_guard",
    "Pot.C66_hat_th",
    "Pot.C66_corners",
    "Pot.C66_linesine"
   ],
   "note": "every argument; effect of the 1e-15 guard bounded by exp(-1e15/2)"
  },
  {
   "property": "C73",
   "status": "proved",
   "theorems": [
    "Pot.C73_cart",
    "Pot.C73_polar",
    "Pot.C73_recursion",
    "Pot.C73_source",
    "Pot.C73_m1"
   ],
   "note": "dispatch both ways for the expected solution and the source; without an override no fuel suffices; get_m1 by cases"
  },
  {
   "property": "C71",
   "status": "proved",
   "theorems": [
    "Pot.C71_v_sides",
    "Pot.C71_iz",
    "Pot.C71_line",
    "Pot.C71_quad",
    "Pot.C71_pde",
    "Pot.C71_quad_series"
   ],
   "note": "all three problems, any Bessel factors; the equation under Bessel's equation (met by the Bessel function, C76)"
  },
  {
   "property": "C74",
   "status": "proved",
   "theorems": [
    "Pot.C74_known",
    "Pot.C74_errors",
    "Pot.C74_shipped"
   ],
   "note": "any Bessel factors that do not vanish at kR; nan and IndexError branches"
  },
  {
   "property": "C75",
   "status": "proved",
   "theorems": [
    "Pot.C75_fit",
    "Pot.C75_cheat",
    "Pot.C75_arc",
    "Pot.C75_iz",
    "Pot.C75_iz_expected"
   ],
   "note": "any least-squares minimiser; arc without rank hypothesis; interpolation of v assumed exact at the nodes"
  },
  {
   "property": "C76",
   "status": "proved",
   "theorems": [
    "Pot.C76_bessel",
    "Pot.C76_zero",
    "Pot.C76_truncation",
    "Pot.C76_ih",
    "Pot.C76_quad",
    "Pot.C76_shipped",
    "Pot.C76_ih_constants"
   ],
   "note": "Bessel function as an infinite series; explicit truncation bound"
  },
  {
   "property": "C77",
   "status": "proved",
   "theorems": [
    "Pot.C77_curve",
    "Pot.C77_names",
    "Pot.C77_shipped",
    "Pot.C77_no_resonance"
   ],
   "note": "any curve that is flat enough at the scale h*sqrt(2) (explicit inequalities), instantiated for the five shipped boundaries and every N >= 16"
  },
  {
   "property": "C78",
   "status": "proved",
   "theorems": [
    "Pot.C78_no_resonance",
    "Pot.C78_rational",
    "Pot.C78_shipped"
   ],
   "note": "transcendence of pi proved from Mathlib's analytic part of Lindemann-Weierstrass; removes the no-resonance hypothesis of C14, C23, C77 for shipped constants"
  },
  {
   "property": "C79",
   "status": "proved",
   "theorems": [
    "Pot.C79_off_grid",
    "Pot.C79_core",
    "Pot.C79_arc",
    "Pot.C79_shipped",
    "Pot.C79_sympy",
    "Pot.C79_nan"
   ],
   "note": "circular arcs of any radius and the shipped boundaries; only the cubic boundary keeps the hypothesis that no node lies on the curve (C79_nan shows it is needed)"
  },
  {
   "property": "C80",
   "status": "proved",
   "theorems": [
    "Pot.C80_stable",
    "Pot.C80_uniform",
    "Pot.C80_shipped_uniform",
    "Pot.C80_error",
    "Pot.C80_rate",
    "Pot.C80_plane_wave"
   ],
   "note": "Parseval for the sine transform; uniform lower bound for the shipped square and wavenumbers; the error of the extension vector enters as a hypothesis (delta)"
  },
  {
   "property": "C81",
   "status": "proved",
   "theorems": [
    "Pot.C81_node",
    "Pot.C81_entries",
    "Pot.C81_extension",
    "Pot.C81_shipped"
   ],
   "note": "the error of the data (eps) enters as a hypothesis; homogeneous problems, exact solution in the whole plane; order lost against the expected h^4 because the potential is bounded by its worst case (8/h^2) and the norm by its maximum"
  },
  {
   "property": "C82",
   "status": "proved",
   "theorems": [
    "Pot.C82_entries",
    "Pot.C82_extension",
    "Pot.C82_source",
    "Pot.C82_shipped",
    "Pot.C82_sympy",
    "Pot.C82_ycos"
   ],
   "note": "the error of the data (eps) and of the source at the origin (eta) enter as hypotheses; eta is bounded for SymPy problems and zero for smooth-ycos; no node on the curve is a hypothesis for the cubic boundary only"
  },
  {
   "property": "C83",
   "status": "proved",
   "theorems": [
    "Pot.C83_fit",
    "Pot.C83_coefficients",
    "Pot.C83_c0_test",
    "Pot.C83_c1_test",
    "Pot.C83_run_printing",
    "Pot.C83_printed",
    "Pot.C83_etype_filter"
   ],
   "note": "chebfit is an oracle (minimiser of the residual at the 1024 roots); the bound compares with the Taylor polynomial at the middle of the segment, which is not the best polynomial; plots left out"
  },
  {
   "property": "C84",
   "status": "proved",
   "theorems": [
    "Pot.C84_defect",
    "Pot.C84_data",
    "Pot.C84_homogeneous",
    "Pot.C84_inhomogeneous",
    "Pot.C84_smooth_data"
   ],
   "note": "bounds the residual, not the error: that a small residual means a small error needs the stability of the overdetermined system, which is not proved; the file gamma_info.dat is left out"
  },
  {
   "property": "C85",
   "status": "proved",
   "theorems": [
    "Pot.C85_exact",
    "Pot.C85_printed",
    "Pot.C85_zero_side",
    "Pot.C85_sound",
    "Pot.C85_incomplete",
    "Pot.C85_even",
    "Pot.C85_small",
    "Pot.C85_solver"
   ],
   "note": "the script is sound but not complete: it lists only odd modes (finding); evaluation of the command-line expression is left out"
  },
  {
   "property": "C86",
   "status": "proved",
   "theorems": [
    "Pot.C86_success",
    "Pot.C86_verdict",
    "Pot.C86_shipped"
   ],
   "note": "exact arithmetic: with floats the script allows 1e-14"
  },
  {
   "property": "C87",
   "status": "proved",
   "theorems": [
    "Pot.C87_all",
    "Pot.C87_homogeneous",
    "Pot.C87_inhomogeneous",
    "Pot.C87_setypes",
    "Pot.C87_selection"
   ],
   "note": "the constant is not computed; the construction of the solver is psInit; n_circle and n_radius are between 4 and 1024 (the script uses 115 and 30)"
  },
  {
   "property": "C88",
   "status": "proved",
   "theorems": [
    "Pot.C88_source",
    "Pot.C88_ycos",
    "Pot.C88_loop",
    "Pot.C88_rate",
    "Pot.C88_loop_error",
    "Pot.C88_loop_zero"
   ],
   "note": "the constant is not computed; the logarithm of a quotient with zero is no number (nanValue) and does not stop the loop"
  },
  {
   "property": "C89",
   "status": "proved",
   "theorems": [
    "Pot.C89_rate",
    "Pot.C89_smooth",
    "Pot.C89_z",
    "Pot.C89_endless",
    "Pot.C89_empty",
    "Pot.C89_unknown",
    "Pot.C89_modes"
   ],
   "note": "smooth-ycos on the cubic boundary: under the hypothesis that no node lies on the curve (C79); as checked out, problems/__init__.py imports three files that do not exist, so the table holds the classes that do exist; argparse and number formatting are not modelled"
  },
  {
   "property": "C90",
   "status": "proved",
   "theorems": [
    "Pot.C90_vrate",
    "Pot.C90_z",
    "Pot.C90_smooth",
    "Pot.C90_endless",
    "Pot.C90_empty",
    "Pot.C90_unknown"
   ],
   "note": "cubic boundary: under the hypothesis that no node lies on the curve (C79); that spsolve solves the system is a hypothesis of the sentence about v only; jv must not vanish at the orders used as divisors (m*nu for 7 < m <= m1, or m <= 7 with --acheat on the ihz problems); argparse and number formatting are not modelled"
  },
  {
   "property": "C91",
   "status": "proved",
   "theorems": [
    "Pot.C91_cheat",
    "Pot.C91_ode",
    "Pot.C91_problems"
   ],
   "note": "that odeint returns the value of a solution is a hypothesis; real arithmetic is exact"
  },
  {
   "property": "C92",
   "status": "proved",
   "theorems": [
    "Pot.C92_mix",
    "Pot.C92_superposition",
    "Pot.C92_real",
    "Pot.C92_zero",
    "Pot.C92_shipped",
    "Pot.C92_sympy"
   ],
   "note": "real arithmetic is exact; that lstsq returns the solution of smallest norm (as NumPy documents) is a hypothesis, and an example shows that it is needed"
  },
  {
   "property": "C93",
   "status": "proved",
   "theorems": [
    "Pot.C93_line",
    "Pot.C93_accepted",
    "Pot.C93_no_default",
    "Pot.C93_rejected",
    "Pot.C93_swallow",
    "Pot.C93_help",
    "Pot.C93_values",
    "Pot.C93_run",
    "Pot.C93_runz"
   ],
   "note": "argparse (CPython 3.11) is modelled for the declarations of the two programs: option strings, abbreviations, joined values, bundled flags, --, nargs none and ?; int and the regular expression for negative numbers are parameters; fromfile prefixes, subparsers and the text of messages are not modelled"
  },
  {
   "property": "C94",
   "status": "proved",
   "theorems": [
    "Pot.C94_optimize",
    "Pot.C94_c0",
    "Pot.C94_z",
    "Pot.C94_endless"
   ],
   "note": "the command line of the two scripts is not modelled; after an exception in a worker the lines already printed by the workers are left out"
  },
  {
   "property": "C95",
   "status": "proved",
   "theorems": [
    "Pot.C95_exact",
    "Pot.C95_determined",
    "Pot.C95_attained",
    "Pot.C95_source"
   ],
   "note": "that the system has only one solution is not proved (C95_determined takes it as a hypothesis)"
  },
  {
   "property": "C96",
   "status": "proved",
   "theorems": [
    "Pot.C96_exact_arithmetic",
    "Pot.C96_nested",
    "Pot.C96_coordinates",
    "Pot.C96_off_diagonal",
    "Pot.C96_diagonal",
    "Pot.C96_sides",
    "Pot.C96_polar",
    "Pot.C96_interior",
    "Pot.C96_difference",
    "Pot.C96_grids",
    "Pot.C96_arc",
    "Pot.C96_assumptions",
    "Pot.C96_diagonal_lost"
   ],
   "note": ""
  },
  {
   "property": "C97",
   "status": "proved",
   "theorems": [
    "Pot.C97_exact_arithmetic",
    "Pot.C97_tie",
    "Pot.C97_placed",
    "Pot.C97_far",
    "Pot.C97_outcome",
    "Pot.C97_assertion",
    "Pot.C97_fails",
    "Pot.C97_tan_one",
    "Pot.C97_shipped",
    "Pot.C97_reachable",
    "Pot.C97_assumptions"
   ],
   "note": ""
  },
  {
   "property": "C98",
   "status": "proved",
   "theorems": [
    "Pot.C98_near",
    "Pot.C98_close",
    "Pot.C98_second_order",
    "Pot.C98_failure",
    "Pot.C98_members",
    "Pot.C98_arc_coords"
   ],
   "note": ""
  },
  {
   "property": "C99",
   "status": "proved",
   "theorems": [
    "Pot.C99_is_equal",
    "Pot.C99_not_symmetric",
    "Pot.C99_getitem",
    "Pot.C99_add",
    "Pot.C99_reduce0",
    "Pot.C99_reduced",
    "Pot.C99_reduce_mv1",
    "Pot.C99_weighted"
   ],
   "note": "test_reduce_mv1 is stale: the weighted average it expects is commented out in reduce."
  },
  {
   "property": "C100",
   "status": "proved",
   "theorems": [
    "Pot.C100_far",
    "Pot.C100_test",
    "Pot.C100_sets",
    "Pot.C100_grids",
    "Pot.C100_arc_coords",
    "Pot.C100_off_arc",
    "Pot.C100_ties"
   ],
   "note": ""
  },
  {
   "property": "C101",
   "status": "proved",
   "theorems": [
    "Pot.Imports.C101_closed",
    "Pot.Imports.C101_outcome",
    "Pot.Imports.C101_stops",
    "Pot.Imports.C101_fine",
    "Pot.Imports.C101_k_test",
    "Pot.Imports.C101_seaborn",
    "Pot.Imports.C101_repaired",
    "Pot.Imports.C101_circular"
   ],
   "note": "The file system is a table read off the source; the three missing files of C101_repaired are taken to contain only the definitions asked for."
  },
  {
   "property": "C102",
   "status": "proved",
   "theorems": [
    "Pot.C102_tan",
    "Pot.C102_tie",
    "Pot.C102_powers_of_two",
    "Pot.C102_off_arc",
    "Pot.C102_arc",
    "Pot.C102_fails",
    "Pot.C102_assumptions"
   ],
   "note": "That no node is within 2^-22 of the outer curve is a hypothesis for the boundaries other than the arc and for the arc beyond N = 2048."
  },
  {
   "property": "C103",
   "status": "proved",
   "theorems": [
    "Pot.C103_search",
    "Pot.C103_not_real",
    "Pot.C103_series",
    "Pot.C103_data",
    "Pot.C103_report",
    "Pot.C103_widths",
    "Pot.C103_runs"
   ],
   "note": "The classes of the two problems are not in the repository: a problem is what the programs use of it. The text of the HTML and the output path are not modelled."
  },
  {
   "property": "C104",
   "status": "proved",
   "theorems": [
    "Pot.C104_names",
    "Pot.C104_runs",
    "Pot.C104_median",
    "Pot.C104_reports",
    "Pot.C104_missing",
    "Pot.C104_report2"
   ],
   "note": "Python's str of a float is a parameter assumed to distinguish the values of k used. Of a file what the reports read is modelled."
  },
  {
   "property": "C105",
   "status": "proved",
   "theorems": [
    "Pot.C105_study",
    "Pot.C105_plot",
    "Pot.C105_arc",
    "Pot.C105_unknown",
    "Pot.C105_expan",
    "Pot.C105_expansion_fails",
    "Pot.C105_expansion"
   ],
   "note": "The problem classes named in expansion_error.py are not in the repository; the failure is stated for coefficients cut off as SingularKnown does."
  },
  {
   "property": "C106",
   "status": "proved",
   "theorems": [
    "Pot.C106_figure",
    "Pot.C106_endless",
    "Pot.C106_outline",
    "Pot.C106_second",
    "Pot.C106_curves"
   ],
   "note": "A figure is the list of the data given to plt.plot; colours, labels of axes and files are not modelled. That the assertion of the grid construction holds for the four domains of plot_domain2.py is not proved."
  },
  {
   "property": "C107",
   "status": "proved",
   "theorems": [
    "Pot.C107_source",
    "Pot.C107_solution",
    "Pot.C107_consistency",
    "Pot.C107_tip",
    "Pot.C107_test",
    "Pot.C107_interp",
    "Pot.C107_apply"
   ],
   "note": "The Bessel function of C107_consistency and C107_tip is the series of C76; C107_solution holds for every function that satisfies Bessel's equation."
  },
  {
   "property": "C108",
   "status": "proved",
   "theorems": [
    "Pot.C108_command",
    "Pot.C108_files",
    "Pot.C108_batch",
    "Pot.C108_runs"
   ],
   "note": "The shell is described in Spec/Shell.lean: words, backslash escapes and one redirection. That runz.py is found in the working directory is assumed. os.mkdir fails only because of a missing parent or an existing path. In which order the pool runs is not modelled. The exit codes of the runs are ignored by the program."
  },
  {
   "property": "C109",
   "status": "proved",
   "theorems": [
    "Pot.C109_chebyshev",
    "Pot.C109_cartesian",
    "Pot.C109_sympy",
    "Pot.C109_polar",
    "Pot.C109_shipped"
   ],
   "note": "diff of SymPy is deriv; the text of the printed expressions is not modelled. Importing rhs_derivs.py prints nothing."
  },
  {
   "property": "C110",
   "status": "proved",
   "theorems": [
    "Pot.C110_positive",
    "Pot.C110_nonzero",
    "Pot.C110_close",
    "Pot.C110_runz",
    "Pot.C110_batch",
    "Pot.C110_convert",
    "Pot.C110_known"
   ],
   "note": "The kernel evaluates integers: 374 evaluations of a recurrence of 45 steps. Removes the assumption about zeros from C60, C74, C90, C93 and C108 for the shipped numbers."
  },
  {
   "property": "C111",
   "status": "proved",
   "theorems": [
    "Pot.C111_extended",
    "Pot.C111_names",
    "Pot.C111_color",
    "Pot.C111_marks",
    "Pot.C111_print"
   ],
   "note": "The lists of attributes assigned and read are transcribed from the class bodies."
  },
  {
   "property": "C112",
   "status": "proved",
   "theorems": [
    "Pot.C112_modes",
    "Pot.C112_solvable",
    "Pot.C112_generic",
    "Pot.C112_shipped",
    "Pot.C112_runz"
   ],
   "note": "On 128 cells and more unique solvability is not proved for the shipped wave numbers (only that finitely many wave numbers are bad); there C68 and C90 keep the hypothesis that the solver returned a solution."
  },
  {
   "property": "C113",
   "status": "proved",
   "theorems": [
    "Pot.C113_error",
    "Pot.C113_stable",
    "Pot.C113_shipped",
    "Pot.C113_printed"
   ],
   "note": "Exact arithmetic; the linear solver is assumed to return the solution of every system that has exactly one, jv of orders 2/7 and 6/7 to be the Bessel function. No explicit constants for 128 cells and more."
  },
  {
   "property": "C114",
   "status": "proved",
   "theorems": [
    "Pot.Classes.C114_order",
    "Pot.Classes.C114_typeError",
    "Pot.Classes.C114_override",
    "Pot.Classes.C114_repo",
    "Pot.Classes.C114_solver_names",
    "Pot.Classes.C114_solver_order",
    "Pot.Classes.C114_solver_init",
    "Pot.Classes.C114_problem_init",
    "Pot.Classes.C114_calls",
    "Pot.Classes.C114_evaluations",
    "Pot.Classes.C114_ycos_order"
   ],
   "note": "Attributes of instances, metaclasses and descriptors are not modelled; the classes and names are transcribed from the class statements."
  },
  {
   "property": "C115",
   "status": "proved",
   "theorems": [
    "Pot.Attrs.C115_tables",
    "Pot.Attrs.C115_programs",
    "Pot.Attrs.C115_runz",
    "Pot.Attrs.C115_extension_test",
    "Pot.Attrs.C115_runs",
    "Pot.Attrs.C115_get_grad",
    "Pot.Attrs.C115_do_algebra",
    "Pot.Attrs.C115_runz_smooth",
    "Pot.Attrs.C115_order",
    "Pot.Attrs.C115_order_run",
    "Pot.Attrs.C115_no_shadow"
   ],
   "note": "One object for each role; nested functions and bound methods handed on run where they are written; tests other than hasattr, homogeneous and JJ may come out either way; attributes of modules are in C101 and those of NumPy, SymPy and SciPy objects are not modelled; the modules missing from the checkout (C101) are taken to exist."
  },
  {
   "property": "C116",
   "status": "proved",
   "theorems": [
    "Pot.Names.C116_tables",
    "Pot.Names.C116_functions",
    "Pot.Names.C116_modules",
    "Pot.Names.C116_imported",
    "Pot.Names.C116_conditional",
    "Pot.Names.C116_others",
    "Pot.Names.C116_optimize_basis"
   ],
   "note": "A test comes out either way unless it compares the one parameter named in the model; names behind and, or and conditional expressions count as read; a nested function runs where its name is read, a lambda where it is written; where the name of a function or class of the same module is read, it may be called. Imports succeed (C101); from sympy import * binds the SymPy names the module uses. That callers keep to the ranges is C118."
  },
  {
   "property": "C117",
   "status": "proved",
   "theorems": [
    "Pot.Calls.C117_bind",
    "Pot.Calls.C117_bind_values",
    "Pot.Calls.C117_tables",
    "Pot.Calls.C117_calls",
    "Pot.Calls.C117_misfits",
    "Pot.Calls.C117_kwargs",
    "Pot.Calls.C117_chain",
    "Pot.Calls.C117_reached",
    "Pot.Calls.C117_deriv_names",
    "Pot.Calls.C117_derivs"
   ],
   "note": "Which functions a call may reach is read off the source: names by scope and imports, methods by the class of the receiver's role with its whole family, so a call may have more targets than any execution has. Starred tuples count as two arguments. Calls of classes and constructors are C114; calls of library functions, of lambdas and of functions held in attributes or arguments are left out."
  },
  {
   "property": "C118",
   "status": "proved",
   "theorems": [
    "Pot.Ranges.C118_ranges",
    "Pot.Ranges.C118_complete",
    "Pot.Ranges.C118_solvers",
    "Pot.Ranges.C118_unbound",
    "Pot.Ranges.C118_asserts"
   ],
   "note": "Values of loop variables are those of the tuple or range; a guard counts only where the model says so (radius_sid == 2, equality with b_desc['sid'], JJ is not None). JJ and basis_index are given together. The sources of attributes and results (options['scheme_order'], args.o, b_desc['sid'], p['sid'], results of get_sid, _extend_f_get_sid, get_etype) are listed by hand; those of parameters are checked against the table of calls of C117."
  },
  {
   "property": "C119",
   "status": "proved",
   "theorems": [
    "Pot.FuncVals.C119_fits",
    "Pot.FuncVals.C119_only",
    "Pot.FuncVals.C119_live",
    "Pot.FuncVals.C119_none",
    "Pot.FuncVals.C119_complete",
    "Pot.FuncVals.C119_lambdas",
    "Pot.FuncVals.C119_used",
    "Pot.FuncVals.C119_phi",
    "Pot.FuncVals.C119_lambdified"
   ],
   "note": "A slot holds any function that is put there anywhere, so the model allows more than one execution does. brentq, odeint and Pool.map call their argument with one, two and one arguments; lambdify gives a function of as many parameters as symbols. The sources of attributes and local variables are listed by hand; those of parameters are checked against the table of C117, and the list of lambdas is complete. scripts/abcoef/k_test.py (its calc_a_coef is not in the checkout) and scripts/polarfd/test.py:67 (misfit of C117) are left out."
  },
  {
   "property": "C120",
   "status": "proved",
   "theorems": [
    "Pot.Attrs.C120_rest",
    "Pot.Attrs.C120_run",
    "Pot.Attrs.C120_M",
    "Pot.Attrs.C120_restz",
    "Pot.Attrs.C120_runz",
    "Pot.Attrs.C120_same",
    "Pot.Attrs.C120_left",
    "Pot.Attrs.C120_leftz",
    "Pot.Attrs.C120_plot_domain2"
   ],
   "note": "Same reduction of the functions to attribute accesses as C115. Changes in place to what an attribute holds are lookups in the model; there are none on problems, and on the boundary only in its constructor. The Pool of optimize_basis.py gives each worker a copy; the model has the workers share the problem. plot_domain2.py is left out: it does assign problem.a (C120_plot_domain2)."
  },
  {
   "property": "C121",
   "status": "proved",
   "theorems": [
    "Pot.Attrs.C121_grids",
    "Pot.Attrs.C121_setUp",
    "Pot.Attrs.C121_run",
    "Pot.Attrs.C121_runz",
    "Pot.Attrs.C121_same"
   ],
   "note": "Attributes only: local variables of the programs (the errors and solutions of earlier grids, the Fourier coefficients runz.py hands on, the options dictionary) are passed on by design. Same reduction of the functions as C115 and C120; hasattr tests are events of their own."
  }
 ]
}