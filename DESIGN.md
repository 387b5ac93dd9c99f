# Design: a Lean 4 model of srmagura/potential

## What is modelled

The code is a numerical solver (method of difference potentials, Helmholtz equation, reentrant corner).
We model it function by function in `lean/Verif/Model/*.lean`:

* floats are exact: Python `float`/`numpy` reals are `ℝ`, complex arrays are `ℂ`-valued functions on `Fin n`.
  Rounding, overflow, NaN and infinities are **not** modelled, except for the functions that decide which nodes are
  interior and the construction of the grids: `Model/Rounded.lean` (C96) and `Model/RoundedGrid.lean` (C97) repeat them with a
  rounding after every operation. C97 shows that the difference matters, C98 and C100 that it
  matters only for ties, and C102 what the ties do on grids whose size is a power of two. Where the code could divide by
  zero, we prove it cannot, or say so.
* Python exceptions are values (`Except PyErr`). Python list/array indexing has Python's negative wrap-around.
* Python `set`s are `Finset`s; whenever the code iterates over a set (or turns it into a list) the model
  takes an *arbitrary* duplicate-free enumeration as a parameter, so theorems quantify over hash orders.
* Unbounded `while` loops are fuelled functions; termination is a theorem about the fuel.
* SymPy differentiation/lambdification is modelled by the derivative itself (`deriv`) or by functions with a
  `HasDerivAt` hypothesis; the formulas the code builds on top of the derivatives are modelled literally.
* `numpy.linalg.lstsq`, `chebfit`, `brentq`, `odeint`, `spsolve`, `interp2d`, Bessel functions are parameters
  (oracles) with the contract stated in the theorem that uses it (e.g. "returns a minimiser of the residual",
  "returns a root inside the bracket").
* `scipy.fftpack.dst(type=1)` is the explicit sum `2 Σ x[n] sin(π (k+1)(n+1)/(n_len+1))` (its documented definition).

Not modelled: plotting (which values are drawn is modelled in C104, C105, C106), the text of reports, and the remaining files under `scripts/` (modelled: `scripts/resonance.py`,
C85; `scripts/extend_basis_test.py`, C86; `scripts/extension_test.py`, C87; `scripts/test_extend_f.py`, C88; `scripts/optimize_basis.py`, `scripts/c0_basis.py`, C94; the programs of
`scripts/abcoef/` except `k_test.py` and `run_test.py`, which do not run in this checkout, C103-C105; `scripts/plot_domain.py`, `scripts/plot_domain2.py`, C106; `scripts/polarfd/sym.py`, `scripts/polarfd/test.py`, `scripts/zmethod/interp_test.py`, `scripts/apply_helmholtz.py`, C107; `scripts/multirun.py`, C108; `scripts/codegen/`, C109; the drawing functions nobody calls, C111), argparse beyond what the declarations of `io_util.add_arguments` use (C93), the format of
printed numbers (which values are printed is modelled: C62, C63, C83, C89), the dead code in string literals
(`ps/grid.py` lines 7-177). At the level of names every function and module is modelled (C116), at the level of attributes the
solver, the problems and nine programs (C115; what they leave assigned on the problem and the boundary, C120; that no grid uses what earlier ones left, C121), at the level of argument lists every call of a function of the repository (C117; of a function held in a variable, C119; of a class,
C114).

## Layout

* `Verif/Model/…`  the model (definitions only, every definition cites file and lines)
* `Verif/Spec/…`   small independent specifications used in theorem statements
* `Verif/Proofs/…` helper lemmas
* `Verif/Props/…`  one theorem (or a few) per property `Cxx_…`, with `example`s showing the hypotheses are met (for the extension,
  run and source theorems in `Props/Instances.lean`)

## Plan per property

<!-- plan:begin -->
| id | property | what is modelled and how it is proved |
|---|---|---|
| C01 | Cartesian to polar conversion is exact and canonical | `cart_to_polar` over ℝ with `hypot = sqrt(x²+y²)`, `atan2 y x = Complex.arg (x+iy)`; range from `Complex.arg_mem_Ioc`, round trip from `Complex.norm_mul_cos_arg`. |
| C02 | Solver polar angles live in one window around the domain | `get_polar` on top of C01; case split on the `th < a/2` branch. |
| C03 | Both segment parametrisations name the same physical boundary point | both functions branch by branch, trig identities for π and π+a. |
| C04 | wrap_func is a one-shot normalisation | branch by branch, linear arithmetic. |
| C05 | Segment id from polar angle agrees with the geometry | `get_boundary_sample_by_sid` produces points; `cart_to_polar` of r(cos t, sin t) computed for t in (0,2π]. |
| C06 | Grid coordinates are invertible and nested | field arithmetic. |
| C07 | Interior test equals the closed reentrant-corner domain | existence direction from C01/C02, uniqueness of polar angle in a 2π window for the other one; spec = plane region `Sector`. |
| C08 | Foot point and signed distance for segment 2 | tan/cos algebra plus the separate a = π/2 branch. |
| C09 | Interior and exterior node sets partition the grid | Finset model of `construct_grids` for an arbitrary interior predicate. |
| C10 | Discrete boundary separates inside from outside | Finset model; stencil read-sets stated independently (`reads`), every neighbourhood. |
| C11 | Discrete boundary indexing is in range | Python index semantics `pyIdx` (negative wrap, IndexError) in `Except`; bound from grid margin; negative witness for the missing margin. |
| C12 | Every discrete-boundary node is attached to a segment | loop over an arbitrary enumeration in `Except`; Arc: closed-set/crossing argument along the segment between an interior and an exterior node. |
| C13 | Fourier operator equals the finite-difference operator | DST-I as explicit sum; discrete sine orthogonality; trig addition identities per order. |
| C14 | The auxiliary problem solver inverts the operator | from C13's diagonalisation: 2-D DST is an involution up to 4N². |
| C15 | Resonance is exactly a vanishing eigenvalue | eigenvector = product of sines; k=0 from cos<1. C78 shows that the shipped wavenumbers are no resonances. |
| C16 | Fourth-order compact scheme is fourth-order consistent | polynomial exactness by ring identities on monomials; smooth case by 1-D Taylor remainder along axis and diagonal lines. |
| C17 | Second-order scheme is second-order consistent | as C16. |
| C18 | Arc sine transform recovers sine-series coefficients | 1-D discrete orthogonality from C13. `C18_alias`: the harmonic N+1 is not seen, harmonics above it are taken for lower ones. |
| C19 | Returned solution satisfies the discrete equation at every interior node | whole `run` pipeline in `Except`, least squares / chebfit as oracles; algebra of the projection. |
| C20 | Boundary projection is idempotent | linear algebra on grid functions, Green-operator argument (support of the cut function). |
| C21 | Difference potential reproduces discrete solutions | same argument, both directions. |
| C22 | Extension of boundary data is the superposition of basis extensions | full model of `mv_extend_boundary` (9 extension cases); linearity of every step, lists aligned. |
| C23 | Variational residual is the projection defect of the final extension | C22 + linearity of potential/trace + additivity of reduce. `C23_arc` discharges every grid hypothesis for homogeneous circular-arc problems on fine enough grids; C77 and C78 do so for all shipped boundaries and wavenumbers. |
| C24 | Set iteration order does not influence the solution | permutation argument on the fold. |
| C25 | Right-hand side uses only genuine source values | read-set of `apply_B`; concrete counterexample for order 2. |
| C26 | Source extension is well defined and second-order exact | geometry of `_extend_f_get_sid`; Taylor exactness on quadratics. `C26_gives_up`: a node without boundary coordinates. |
| C27 | Equation-based extension is the Taylor polynomial of the true solution | a jet of partial derivatives on an open set (`JetOn`), a curve with a moving frame (`Frame`): differentiate the equation twice along the frame, compare with the code's formulas. `exists_arclength` (Picard-Lindelöf) supplies the arclength parameter of the outer boundary, `C27_C28_outer` uses the code's own normal, curvature and arclength derivatives. Remainder by repeated integration (`taylorN`). |
| C28 | Inhomogeneous extension is the Taylor polynomial of the particular solution | as C27 with source; `C28_outer_node` goes through `do_extend_inhomo_0_standard`. |
| C29 | Arclength conversion of boundary derivatives is the chain rule | iterated chain rule with `HasDerivAt`. |
| C30 | Arclength conversion of the source's second derivative is the chain rule | chain rule with `HasFDerivAt`/`HasDerivAt`. |
| C31 | Straight-segment extension is the chain of normal derivatives of the plane solution | C27 with curvature 0 (`C31_line`); `C31_lower`, `C31_upper` go through the solver's procedures for the data and for the source. |
| C32 | Corner (left/right) Taylor extension is consistent | the shifted table is the table of derivatives of the Taylor polynomial of the data (`C32_shift`); `xiTab_eq` identifies the code's derivatives with those of the Chebyshev expansion. |
| C33 | Homogeneous and inhomogeneous extensions always align | both Multivalue builders share the visiting loop; induction over the lists. `C33_bad_coord`: the exceptions for a missing or `None` cache entry. |
| C34 | Multivalue addition and reduction semantics | direct model with errors as values. |
| C35 | At most two extension values per node | planar geometry: point near both radii is near the origin. |
| C36 | Chebyshev derivative formulas are correct | `HasDerivAt` of each generated formula, link with `Polynomial.Chebyshev.T`. |
| C37 | Chebyshev nodes are the ascending roots | cosine strict monotonicity, `T_real_cos`. |
| C38 | Segment parametrisation stays inside (-1,1) | field arithmetic. |
| C39 | Basis function derivatives | C36 + affine chain rule. |
| C40 | Basis layout bookkeeping | computable list model, induction. |
| C41 | Chebyshev fit is exact on the basis span | least squares oracle: minimiser of the residual; polynomial with too many roots is zero. |
| C42 | Shipped boundary curves are admissible | real inequalities per boundary. `C42_cubic_max`: `cubic_C` is the extremum for the angle π/6. |
| C43 | Angle-by-arclength derivatives | derivative of inverse function, iterated. |
| C44 | Curvature formula and sign | derivative of the unit normal of a polar curve. |
| C45 | Tangent and normal | algebra. |
| C46 | Boundary coordinates reconstruct the point | root of the distance derivative gives orthogonality to the tangent, hence multiple of normal. |
| C47 | Boundary coordinates on the arc | sin has a unique zero in the search interval. |
| C48 | Polar finite-difference system is square with one equation per node | the triplet lists as a list of equations in visiting order (`PfRep`), which is a permutation of the nodes; `C48_solve`: any solution of the linear system has the boundary values and satisfies the scheme. |
| C49 | Polar scheme is a fourth-order consistent discretisation | `C49_scheme`: the nine coefficients are the compact scheme written with difference quotients; `C49_consistency`: Taylor bounds with integral remainder and the derivatives of the equation, explicit constant. |
| C50 | Convergence comparison uses the same physical nodes | grid functions as samples of functions of the physical point; the difference lists are exactly the differences over shared points. |
| C51 | Regularised source vanishes on the wedge sides | two-variable calculus with explicit derivative hypotheses. |
| C52 | Tapering function is a smooth monotone cut-off | derivative 12012 x⁶(1-x)⁶; ContDiff across joins. |
| C53 | ODE solution is computed once per convergence run | state machine over the grid list. |
| C54 | ODE right-hand side is the Fourier mode of the Helmholtz operator | derivative computation. |
| C55 | Interpolation data layout | list model. |
| C56 | Shipped smooth problems are consistent | derivative computation. |
| C57 | Polar-to-Cartesian gradient and Hessian | chain rule from `HasFDerivAt` (first and second order). |
| C58 | Source value at the origin | model of the branch; negation witness and the exact affine case. |
| C59 | Basis-size lookup | fuelled loop; termination characterised by existence of a halving in the table. |
| C60 | a/b coefficient conversion is invertible | list model, Bessel factor as an arbitrary function. |
| C61 | Singularity coefficients are exact on the model space | least-squares oracle, injectivity. `C61_arc`: with the shipped 2048 nodes the rank condition holds on the circular arc for up to 2048 functions and not for 2049. |
| C62 | Grid list of a convergence run | fuelled loop, closed form. |
| C63 | Reported convergence compares consecutive grids | state machine over the list of results. Rates may be no finite number (`inf`, `nan`); the comparison of three solutions is assumed to return only for the solutions that are compared. |
| C64 | smooth-e gradient depends on call history | object state machine. |
| C65 | Reported error is the exact maximum | list maximum. |
| C66 | Hat and parabola boundary data | real analysis. |
| C67 | Subtracting the singular function leaves a source of known order at the tip | telescoping of the Bessel series; rpow derivatives. |
| C68 | Polar boundary value problem of the z method | `do_z_BVP` on top of the polar solver of C48; four sides and the scheme from C48_grid. |
| C69 | Reported v error is the largest low sine coefficient | row slices, discrete sine orthogonality, list maximum. |
| C70 | The remaining problem plus the removed functions is the original problem | fold of the boundary data branch by branch; Bessel's equation as a hypothesis on each factor. |
| C72 | The ODE method computes the expected z1 coefficients | C51 + C54 + C18 chained. |
| C73 | Default evaluation of problems | mutual recursion with fuel; `none` for every fuel when neither is overridden. |
| C71 | Data of the singular problems fit together | formulas at the corners and sides; C67 residual twice for the quadratic problem. |
| C74 | SingularKnown has the expected solution it claims | sine transform exact on finite series (C18), `b_to_a` (C60), Bessel's equation as a hypothesis. |
| C75 | Coefficients of the singular functions | C61 for the fit; on the arc the rank follows from sine orthogonality; C70 for the data. |
| C76 | The Bessel function meets its contract | entire power series with coefficients bounded by B/l!, differentiated term by term. |
| C77 | Homogeneous problems run to the end on every shipped boundary | `Gentle`: bounds of r, r', r'' in the window make the derivative of the distance strictly monotone on the search interval with a sign change, so `brentq` succeeds and finds the nearest point; crossing argument for star-shaped domains by compactness and connectedness; the five curves by explicit bounds at δ = 0.556 (N ≥ 16). Hypotheses left: no resonance, contracts of `brentq`, `lstsq`, `chebfit`. |
| C78 | No resonance for the shipped square and wavenumbers | transcendence of π (`Proofs/PiTranscendental.lean`: Galois-invariant products over subset sums of conjugates, integrality, Mathlib's `exp_polynomial_approx`); cosines of rational multiples of π are algebraic; a zero eigenvalue would make π² algebraic. Exact arithmetic: says nothing about eigenvalues that are small in floating point. |
| C79 | Inhomogeneous problems run to the end | every procedure of `ps/inhomo.py` succeeds when the node is off the outer curve (`extendInhomoF_defined`); a node beyond a shipped curve next to an interior node is within h√2 of the curve (`tame_near`), so `extend_f` finds a foot point (`C26_point_of`); a node (πu, πv) with rational u, v on R + A sin(w(θ−π/4)) would make π algebraic (`sine_off_grid`). Open for the cubic boundary (needs algebraic independence of π and arctangents), kept as a hypothesis there. |
| C80 | Stability of the auxiliary solver and error of the returned solution | the sine matrix is orthogonal up to a factor, so root-sum-square norms are preserved (`energy_synth`) and the solver divides by eigenvalues (`energy_solve`); the error on N⁺ is the potential of the extension error plus the auxiliary solution with the defect on M⁺ (`C80_error`); with `C16_smooth` this is a rate (`C80_rate`). Eigenvalues converge to k² − (πp/AD)² − (πq/AD)² for fixed (p, q) and lie below k² − (8/3)(p²+q²)/AD² otherwise (`C80_uniform`). The crude factor 8/h² costs two orders in the extension error: no sharper trace estimate is proved. |
| C81 | Error of the extension vector and of the computed solution (homogeneous problems) | `C81_entries` for every entry of the multivalue: each extension formula depends on its table with a bounded gain once derivatives are weighted by powers of the distance (`ExtendBound.lean`); on the exact Cauchy data it gives the degree-4 Taylor polynomial along the normal (C27, C28), so the remainder is the fifth derivative (`outer_error`, `line_error`); a corner extension first shifts the table by at most πδ/R, another fifth-order remainder (`corner_weighted`); distances come from C12 and the foot point theorem of C77 (`outer_coords`); averages keep the bound (`mean_near`); with C80 this bounds the solution (`C81_shipped`). How close the data of a run is to the exact data is not proved: it depends on the conditioning of the least-squares problem. |
| C82 | Error of the extension vector and of the computed solution (inhomogeneous problems) | C81's bound with the exact source term left in place (`ext_node`) plus a bound for what the code adds for the source (`inhomo_node`): each formula is linear in the source's value and derivatives with a bounded gain (`InhomoBound.lean`), at a corner the Taylor polynomial of the source has a third-order remainder, and the sign the code takes from `r < eval_r` near a corner is the sign of the offset (`Tame.side`); the points `extend_f` expands about are within √2 h of the node (`extendFPoint_near`), so the source array has a third-order error (`C82_source`); `C82_entries` for every entry of the multivalue; with C80 this bounds the solution (`C82_shipped`). `C82_sympy` bounds the source of a SymPy problem at the origin (C58), `C82_ycos` is the shipped problem smooth-ycos. |
| C83 | Error of the Chebyshev fit of the boundary data | Discrete orthogonality at the roots of T_1024 (Mathlib's Chebyshev-Gauss sums) bounds each coefficient by twice the mean modulus of the values (`cheb_coef_le`); a minimiser of the residual is therefore, coefficient by coefficient, within 4τ of any series within τ of the data (`fit_coef_near`); Mathlib's bound for the derivatives of T_J on [-1,1] and the Taylor polynomial of the data give `C83_fit`, `C83_coefficients`. Model of `ps/debug.py` in `Model/Debug.lean`: `C83_c0_test`, `C83_c1_test`, `C83_printed`, `C83_run_printing`, `C83_etype_filter`. |
| C84 | Residual of the least-squares system | `C84_defect`: C80's mean-square bound over Nplus restricted to the discrete boundary (at most N² nodes, not empty: `gamma_card`, `gamma_ne_nil`) plus the extension bounds of C81 and C82 for arbitrary coefficients (`approx_homogeneous`, `approx_source`) bound the defect at any data near the exact one; the run's coefficients minimise the defect (C23). `C84_data`: the fits of C83 to the exact Cauchy data are such data. `residual_le`: the entries of `Q_residual` are the nodewise defects. `C84_homogeneous`, `C84_inhomogeneous`, `C84_smooth_data`. |
| C85 | Resonances printed by scripts/resonance.py | Spec `SquareResonance` (PDE and boundary condition only). `C85_exact`: sine modes are solutions; conversely Green's identity twice makes every sine coefficient of a solution vanish unless k² is a mode, and the sines are complete on the square (`sine_complete`, `square_unique`). `C85_printed`, `C85_zero_side`: what the script computes. `C85_sound`, `C85_incomplete`, `C85_even`. `C85_small`, `C85_solver`: eigenvalue of the scheme at such a mode is nonzero and at most k^(p+2) h^p. |
| C86 | extend_basis_test.py ends with SUCCESS | `C86_success` from the superposition theorem C22 applied to unit vectors; `C86_shipped` on the shipped boundaries; `C86_verdict`: induction over the loop. |
| C87 | Number printed by extension_test.py | `C81_entries`, `C82_entries` (the bound of C81, C82 for every entry of the multivalue, before it is reduced) with the coefficients of C84_data; the loop over the entries is `extTestErrors_ok`; `C87_homogeneous`, `C87_inhomogeneous`, `C87_all`, `C87_setypes`, `C87_selection` (which entries the option -s selects). |
| C88 | Number printed by test_extend_f.py and the loop over grids | `C82_source` (error of the extended source) and `extendFTest_ok` (the loop is a maximum over the allowed nodes); `C88_source`, `C88_ycos` (exact at the origin by C56); `C88_loop`, `C88_loop_error`, `C88_loop_zero` by induction over the grids. |
| C89 | The program run.py from its command line to its last line | `runMain` puts together the models of `get_N_list` (C62), `get_n_basis` (C59), `print_options`, the construction (C12, C77, C79), `run` with its printed test (C83) and the loop (C63). `grid_pass`/`smooth_pass`: one grid, from C77 or C79 with C78 (no resonance), C65 (error) and C83. `C89_rate`: the comparison via C50 with the arrays extended to functions on the plane; the interior nodes of nested grids coincide. `C89_smooth`, `C89_z` (with C73), `C89_endless` (C59), `C89_empty`, `C89_unknown`, `C89_modes`. |
| C90 | The program runz.py from its command line to its last line | `runzMain` puts together the models of `get_N_list` (C62), `get_n_basis` (C59), `print_options` (C89), the ODE method (C54), the polar solver (C49, C53), the interpolation (C55), the mode coefficients (C61, C69), the pizza solver on the remainder (C77 to C79, C83, C89) and the loop (C53, C63). `z_pass`: one grid. `C90_vrate`: the comparison of arrays v via C50. `zmOde_ok`: the ODE method returns seven coefficients. `C90_z`, `C90_smooth`, `C90_endless`, `C90_empty`, `C90_unknown`. |
| C91 | The functions and coefficients the z-method starts from | `C91_problems` from C71, C52 and the series of C67 with the shipped constants; `C91_cheat` from the formula of the sine transform; `C91_ode` from C54 with the functions of C51. |
| C92 | Superposition: the whole solver is real-linear in the problem data | Spec `Mix`, `SrcMix`, `IsMinLstsq`. The smallest-norm solution is determined by linear conditions (`lstsq_mix`: normal equations and orthogonality to the kernel), real matrices respect conjugation. A relation between three computations (`Rel3`) is carried through every function of the solver: inhomogeneous extension, `setup_f`, difference potential, trace, Chebyshev coefficients, variational problem, homogeneous extension (`C92_mix`). `spSource_mix`: combining formulas combines the sources. `C92_sympy` with C79. |
| C93 | Both programs from the command line on | Model `parseArgs` (classification of the strings, then the loop over options and positionals, as in Lib/argparse.py). Spec `Piece` with `Valid`, `NoSwallow`, `lastNum`. `classify_pieces` and `loop_pieces` give `C93_line`; an invariant of the loop (`parseLoop_ok`) gives `C93_accepted` and `C93_no_default`; `loop_reached` and `bad_fails` give `C93_rejected`, `C93_swallow`; with C89 and C90, `C93_run` and `C93_runz`. |
| C94 | The scripts that look for good sizes of the basis | `worker` is `mainBuild` and `mainSolve` with constant sizes; `smooth_pass` (C89) for each pair; `best_fold` for the search; `fit_residual` carries the residual of chebfit to the points of the segment; `C83_c0_test` for the printed numbers. |
| C95 | The method is exact for quadratic radial solutions | `entries_sharp` (C81, C82 without the discretisation constants) with all fifth derivatives of `u`, third derivatives of `f` and high derivatives of the data zero; `C84_data` with M = 0; `C80_rate` with zero source and truncation error; `C23_residual` turns the zero defect into a zero residual. |
| C96 | Which nodes are interior, in double-precision arithmetic | `Spec/Double.lean` defines the doubles and rounding to nearest; `Proofs/Rounding.lean` derives monotonicity and the relative error; `Model/Rounded.lean` is the code with a rounding after every operation; coordinates, then the sign of y - x decides the angle comparisons (the gap between nodes beats the error), then the radius on tame curves (mean value theorem). |
| C97 | The assertion of the grid construction and rounding: a tie along the side theta = a | `Model/RoundedGrid.lean` is `ps_construct_grids` with a rounding after every operation; `Proofs/RoundedPlace.lean` the loop; `Proofs/RoundedEval.lean` and `RoundedTie.lean` evaluate the doubles for one node of each grid exactly (`rnd_eq`: an integer multiple of the spacing closer than half of it is the rounded value), for both possible values of the tangent; the other segments are far by a crude estimate. Success for the remaining grid sizes in rounded arithmetic is not proved. |
| C98 | Rounding decides only ties: the second-order grid construction never fails in double precision | `Proofs/RoundedDist.lean`: the computed distance formula and the computed foot of the perpendicular are accurate; `Props/SecondOrder.lean`: for each segment and each of its cases the computed distance is at most the exact one to any point of the segment plus 2^-24; the computed interior test errs only within 2^-29 of the outer curve (C96), so a node with a neighbour on the other side is near a segment (the crossing lemma of C12). The converse is C100; the success of the fourth-order construction for other N than those of C97 is not proved. |
| C99 | The repository's own unit tests: three pass, test_reduce_mv1 fails | `Model/UnitTests.lean` is the test file over the model of `ps/multivalue.py`; `Props/UnitTests.lean` proves the characterisation of `is_equal` by induction over the two lists and the keys, `test_add` from C34_add, the others by evaluation. |
| C100 | In double precision the discrete boundary is that of exact arithmetic, except at near ties, which occur on every grid | `Proofs/RoundedDistLower.lean`: the computed distance formula from below; `Props/NearTies.lean`: for each segment and case a point of the segment within the computed distance plus 2^-30; with C98_near this decides the test away from ties; the sets by congruence in the interior test (C96, `constructGrids_congr`); the hypotheses hold for the arc (`C100_arc_coords`, `C100_off_arc`); `C100_ties` exhibits the tie node (j+2, j) with j = (N+1)/2. For the sine boundaries the two hypotheses on the computed boundary coordinates (result of brentq in double precision) are assumed. |
| C101 | Which programs get past their imports | `Model/Imports.lean`: tables of the top-level imports and definitions of all 27 modules and of the imports of all 29 programs; an interpreter of imports with `sys.modules`, names bound so far and fuel. `Spec/Imports.lean`: the relation Needs. `C101_closed` by an invariant (what is newly loaded has what it names loaded); the outcomes are computed by the kernel for one installation and one fuel and carried to all others by monotonicity (`le_run`: a result that is not for lack of fuel or of a package stays). |
| C102 | Grids whose size is a power of two pass the assertion of the grid construction, up to 32768, and fail from 65536 on | `Proofs/TieGeom.lean`: a node with a neighbour on the other side is within `h√2 - 2⁻²³` of the boundary unless it is one of the ties `(t+2, t)` along the side `θ = a` (`near_or_tie`, by following the segment to the neighbour and the crossing point on it). On a grid of `2^k` cells the coordinates, the foot of the perpendicular and the threshold are those of one grid of integers scaled by a power of two (`RoundedPow2`), rounding to even is computed with natural numbers (`RoundedNat`), and the kernel computes the 8500 ties that occur (`TieTable`, `decide +kernel`); the same computation finds the tie `t = 10429` on the wrong side. The arc: `5.29/h²` keeps 0.14 away from the integers for the eight grids. |
| C103 | generate_data.py records the first number of basis functions with the smallest error, and its report finds every entry | Dictionaries are association lists. The loop invariant of the search is `FirstMin` of the part seen so far (`search_rest`), the first iteration always improves on `⊤`; the dictionaries are then explicit and every look-up of the report is computed. |
| C104 | The files of generate_data2.py have different names, and the reports need its runs for three values of k | `Wrote` describes a set of files written and composes along loops (`foldlM_wrote`); names are compared through their beginnings, none of which is a prefix of another (decided for the 144 pairs). `C104_median`: half of the sorted list on either side. |
| C105 | The study of boundaries approaching the arc keeps one number of basis functions and all its points are within the plot; the expansion study stops with IndexError | Induction over the iterations; the limits by comparing `0.5·0.95^99` with `10⁻³` and `0.5 = 16^(-1/4)` with `10^(-1/4)`; `b_expan` by induction on the number of terms. |
| C106 | The figures of the domain show the outline and exactly the node sets they name; one curve of the second program misses the corner | The lines by computing `linspace` and the filter by segment; the marks from C09, C12 and the sets of the grids (`DomainSets`), distinctness from injectivity of the coordinates. The distance to the outline from the chord length and the Lipschitz constant of the radius. Construction of the solvers of the second program: C12_all_gamma, C11_margin, C78. |
| C107 | The test program of the polar scheme has a right exact solution and source, but stops at its first grid; so does the interpolation test | Source and solution from C67_residual and bessel_helmholtz; consistency from C49_consistency with a jet that is a product of a radial and an angular function, both smooth (the series part by differentiating termwise), bounds by compactness; tip from C76_truncation. The programs by computing; interp_test.py with five arguments from C55_interp. |
| C108 | The batch program starts one run for every pair, into files whose directory exists | The tokens of the line word by word (shLex_plain); the directories by induction over the loop; the runs from C93_values and C90_z, the grids by computing the list. |
| C109 | The code generators print the right derivatives, and the shipped formulas are what they print | Chebyshev: the closed forms of C36 step by step. Sources: the jet of the source is a combination of the jet of u; polar derivatives by the chain rule of C57 (polar_first, polar_second); agreement of derivatives from agreement near the point. Shipped problems from C56. |
| C110 | No Bessel function the programs divide by is zero | The series divided by its first term satisfies T_l = 1 - q/((l+1)(nu+l+1)) T_(l+1), and T_n is in [0, 1] once the terms decrease; T_0 is affine in T_n, so it is enough that the recurrence started with 0 and with 1 gives numbers of the same sign (integers, decide +kernel). For large orders already T_1 in [0, 1] suffices. |
| C111 | The drawing and printing functions that no program calls: four cannot finish, one is correct | Membership in the transcribed lists by decide +kernel; the loop of color_plot by induction on the iteration order; the lines by computing linspace; print_c1 from the layout C40. |
| C112 | When the linear system of the polar finite-difference solver has exactly one solution | Separation of variables with the sine matrix of C35; injective equals surjective in finite dimension; the coefficient of k^2 is a strictly diagonally dominant operator, so bad wave numbers are eigenvalues; for the shipped grids Gaussian elimination of each mode with enclosures in fixed point (96 bits) computed by the kernel, cosines by halving the angle, pi to 20 digits. |
| C113 | How far the solution of the polar finite-difference solver is from the solution of the differential equation | Sine transform of the error; for each mode elimination from both circles with enclosures in fixed point (96 bits) computed by the kernel, which bounds the inverse and not only shows the pivots nonzero; the table of 1200 mode bounds is checked, sums and maxima of it give the constants; C49 for the truncation error; the singular functions are products, so their partial derivatives are products of derivatives. |
| C114 | Attributes and constructors of the classes are found where they are expected | The merge of C3 as a function on lists: soundness by induction on the number of steps, completeness because the head that comes first in a common order is in no tail; an invariant over the sequence of class statements. The repository by computation in the kernel; the constructors for all arguments by rules for one step. |
| C115 | The programs never end in AttributeError | A big-step semantics of a small command language with AttributeError as an outcome; a forward analysis of the attributes certainly present, following calls and checking recursive functions against an assumption; soundness by strong induction on the depth of calls and induction on executions, for all tables of functions. The repository is then checked in the kernel, sets of attributes being bits of a number. Executions are found by a simulation proved to yield executions. |
| C116 | Names are bound before they are read | A big-step semantics of statements with UnboundLocalError and NameError as outcomes; a definite-assignment check, proved sound by induction on executions (names are never unbound again); the tables are checked in the kernel with sets of names as bits of a number. Executions that do read an unbound name come from a search proved to yield executions, and a lemma that values no test mentions behave alike gives every value outside the range. |
| C117 | Arguments fit parameters, and keys read from kwargs are there | The matching as a function on lists, a closed form for it by induction on the keywords, and the equivalence with the specification. Chains of calls as an inductive relation; for every function a lower and an upper bound of the keys of its kwargs, checked in the kernel at every call, gives the theorem by induction on chains. Digits contain no underscore and determine the number, so names of derivatives are distinct. |
| C118 | Segment numbers, orders and basis indices stay in their ranges | A graph of the places that give a value; the values taken as an inductive relation. An upper bound is checked to be closed under all steps, a lower bound comes from iterating the steps ten times, and the two agree. The list of places is compared with the table of calls in the kernel. With C116 this excludes the executions that read an unbound name. |
| C119 | Functions that are stored or passed get as many arguments as they take | The functions that reach a variable as an inductive relation over the listed assignments; iterating the steps five times gives a set that is checked to be closed, so it is all of them. The signatures are those of C117, and the call is C117's binding of arguments to parameters; the arity check is done in the kernel. |
| C120 | Solving on one grid leaves the problem and the boundary as they were for the next | The executions of C115 with a list of the events (lookup, assignment, new object), shown to be the same executions. A check over all functions a command can reach, in the kernel, and its soundness; the values then follow by induction over the events. Executions found by simulation assign all that is left open. |
| C121 | A grid of a convergence test uses nothing that earlier grids left behind | Two states that agree on what hasattr asks for have the same executions, unless one of them misses an attribute, which the check of C115, started from the attributes of the set-up alone, excludes; an execution from the attributes of the set-up alone finds everything it looks up, hence the claim. Induction over the grids. |
<!-- plan:end -->

## Trusted base

* Lean 4.33.0 kernel; Mathlib at the installed version. No axioms besides `propext`, `Classical.choice`,
  `Quot.sound`. No `sorry`, `native_decide`, `bv_decide`.
* The reading of the Python source into the model (each definition cites the lines it models).
* The oracles' contracts listed above.

## Axioms of each theorem

What `#print axioms` says of every theorem of `MANIFEST.json`, written by `tools/axioms.py`.

<!-- axioms:begin -->
* none (6 theorems): C62_single, C73_m1, C74_shipped, C114_repo, C114_evaluations, C121_grids
* `Classical.choice` (1 theorems): C120_same
* `propext` (11 theorems): C62_empty, C59_dict, C111_names, C115_tables, C115_do_algebra, C115_no_shadow, C116_tables, C119_used, C120_rest, C120_restz, C121_setUp
* `Quot.sound`, `propext` (41 theorems): C40_layout, C40_length, C40_partition, C62_fuel, C101_closed, C101_outcome, C101_stops, C101_fine, C101_k_test, C101_seaborn, C101_repaired, C101_circular, C114_solver_names, C114_solver_order, C115_runs, C115_runz_smooth, C115_order, C116_functions, C116_modules, C116_imported, C116_conditional, C116_others, C116_optimize_basis, C117_tables, C117_misfits, C117_chain, C117_reached, C118_ranges, C118_complete, C118_solvers, C118_unbound, C118_asserts, C119_live, C119_none, C119_complete, C119_lambdas, C119_phi, C119_lambdified, C120_run, C120_M, C120_runz
* `Classical.choice`, `Quot.sound`, `propext` (482 theorems): C01_cart_to_polar, C01_cart_to_polar_unique, C02_get_polar, C02_get_polar_unique, C03_arg_to_polar_same_point, C03_arg_to_polar_point, C04_wrap_func, C05_get_sid_of_sample, C05_get_sid_spec, C06_coord_inverse, C06_coord_nested, C07_is_interior, C08_radius_point, C08_assert, C13_apply_L, C13_errors, C14_inverse, C14_unique, C15_resonance, C15_iff, C15_eigenvals, C16_smooth, C16_contDiff, C16_poly, C17_smooth, C17_poly, C18_alias, C18_arc_dst, C42_arc, C42_outerSine, C42_innerSine, C42_sine7, C42_cubic, C42_shipped, C42_cubic_max, C43_angle_by_arclength, C44_curvature, C44_arc, C45_frame, C45_tangent_normal, C46_reconstruct, C46_none, C47_arc, C09_partition, C10_gamma, C11_gamma_in_M0, C11_margin, C11_no_index_error, C11_without_margin, C11_witness, C12_gentle, C12_shipped, C12_all_gamma, C12_outer, C12_arc, C35_gentle, C35_shipped, C35_at_most_two, C19_discrete_equation, C20_projection, C20_trace_determines, C21_reproduce, C21_unique, C24_order_independent, C36_derivatives, C36_too_high, C37_length, C37_increasing, C37_inside, C37_roots, C38_inverse, C38_inside, C38_sample_range, C38_needs_eps, C39_derivative, C39_other_segment, C39_index_error, C40_entries, C40_c0_length, C41_exact, C41_calc_c0, C41_empty_basis, C22_superposition, C23_arc, C23_residual, C23_fixed_point, C23_run, C33_bad_coord, C33_aligned, C33_no_new_error, C34_add, C34_entries, C34_errors, C34_comm, C34_assoc, C34_reduce, C34_reduce_error, C34_reduce_add, C34_not_weighted, C65_eval_error, C25_reads, C25_true_source, C25_order_two_false, C26_gives_up, C26_value, C26_foot, C26_foot_ne_zero, C26_point_of, C26_arc_point, C26_setup_f, C26_quadratic, C27_C28_sum, C27_taylor, C27_error, C27_C28_outer, C28_outer_node, C28_taylor, C29_chain_rule, C30_chain_rule, C31_line, C31_lower, C31_upper, C31_upper_coords, C32_shift, C32_zero, C32_accuracy, C32_exact, C32_outer, C32_lower, C32_upper, C32_standard, C48_grid, C48_index, C48_system, C48_solve, C48_converse, C48_errors, C49_scheme, C49_consistency, C50_rate, C50_array, C50_polar, C50_multivalue, C50_multivalue_error, C50_value, C53_C63_runz, C62_terminates, C62_list, C63_report, C63_abort, C63_typeError, C63_nested, C63_runz_abort, C63_runz_turns, C63_runz_unsolved, C51_q, C51_f1, C51_eval_f1, C51_z1, C51_z1_sides, C52_taper, C52_strict, C54_rhs, C54_assert, C54_modes, C54_exact, C60_values, C60_inverse, C60_errors, C61_exact, C61_nan, C61_arc, C61_least, C61_nodes, C67_residual, C67_source, C67_series, C55_layout, C55_interp, C55_rmin, C68_zbvp, C68_arc, C68_branches, C69_coefs, C69_verror, C69_empty, C70_pde, C70_data, C70_branches, C72_ode, C56_sine, C56_e, C56_ycos, C56_bc, C56_normal, C56_outward, C57_polar, C57_cart, C57_origin, C57_source, C57_source_polar, C58_origin, C58_affine_partial, C58_false, C59_loop, C59_terminates, C59_window, C59_shipped, C59_endless, C59_powers, C64_history, C66_resolution, C66_hat, C66_guard, C66_hat_th, C66_corners, C66_linesine, C73_cart, C73_polar, C73_recursion, C73_source, C71_v_sides, C71_iz, C71_line, C71_quad, C71_pde, C71_quad_series, C74_known, C74_errors, C75_fit, C75_cheat, C75_arc, C75_iz, C75_iz_expected, C76_bessel, C76_zero, C76_truncation, C76_ih, C76_quad, C76_shipped, C76_ih_constants, C77_curve, C77_names, C77_shipped, C77_no_resonance, C78_no_resonance, C78_rational, C78_shipped, C79_off_grid, C79_core, C79_arc, C79_shipped, C79_sympy, C79_nan, C80_stable, C80_uniform, C80_shipped_uniform, C80_error, C80_rate, C80_plane_wave, C81_node, C81_entries, C81_extension, C81_shipped, C82_entries, C82_extension, C82_source, C82_shipped, C82_sympy, C82_ycos, C83_fit, C83_coefficients, C83_c0_test, C83_c1_test, C83_run_printing, C83_printed, C83_etype_filter, C84_defect, C84_data, C84_homogeneous, C84_inhomogeneous, C84_smooth_data, C85_exact, C85_printed, C85_zero_side, C85_sound, C85_incomplete, C85_even, C85_small, C85_solver, C86_success, C86_verdict, C86_shipped, C87_all, C87_homogeneous, C87_inhomogeneous, C87_setypes, C87_selection, C88_source, C88_ycos, C88_loop, C88_rate, C88_loop_error, C88_loop_zero, C89_rate, C89_smooth, C89_z, C89_endless, C89_empty, C89_unknown, C89_modes, C90_vrate, C90_z, C90_smooth, C90_endless, C90_empty, C90_unknown, C91_cheat, C91_ode, C91_problems, C92_mix, C92_superposition, C92_real, C92_zero, C92_shipped, C92_sympy, C93_line, C93_accepted, C93_no_default, C93_rejected, C93_swallow, C93_help, C93_values, C93_run, C93_runz, C94_optimize, C94_c0, C94_z, C94_endless, C95_exact, C95_determined, C95_attained, C95_source, C96_exact_arithmetic, C96_nested, C96_coordinates, C96_off_diagonal, C96_diagonal, C96_sides, C96_polar, C96_interior, C96_difference, C96_grids, C96_arc, C96_assumptions, C96_diagonal_lost, C97_exact_arithmetic, C97_tie, C97_placed, C97_far, C97_outcome, C97_assertion, C97_fails, C97_tan_one, C97_shipped, C97_reachable, C97_assumptions, C98_near, C98_close, C98_second_order, C98_failure, C98_members, C98_arc_coords, C99_is_equal, C99_not_symmetric, C99_getitem, C99_add, C99_reduce0, C99_reduced, C99_reduce_mv1, C99_weighted, C100_far, C100_test, C100_sets, C100_grids, C100_arc_coords, C100_off_arc, C100_ties, C102_tan, C102_tie, C102_powers_of_two, C102_off_arc, C102_arc, C102_fails, C102_assumptions, C103_search, C103_not_real, C103_series, C103_data, C103_report, C103_widths, C103_runs, C104_names, C104_runs, C104_median, C104_reports, C104_missing, C104_report2, C105_study, C105_plot, C105_arc, C105_unknown, C105_expan, C105_expansion_fails, C105_expansion, C106_figure, C106_endless, C106_outline, C106_second, C106_curves, C107_source, C107_solution, C107_consistency, C107_tip, C107_test, C107_interp, C107_apply, C108_command, C108_files, C108_batch, C108_runs, C109_chebyshev, C109_cartesian, C109_sympy, C109_polar, C109_shipped, C110_positive, C110_nonzero, C110_close, C110_runz, C110_batch, C110_convert, C110_known, C111_extended, C111_color, C111_marks, C111_print, C112_modes, C112_solvable, C112_generic, C112_shipped, C112_runz, C113_error, C113_stable, C113_shipped, C113_printed, C114_order, C114_typeError, C114_override, C114_solver_init, C114_problem_init, C114_calls, C114_ycos_order, C115_programs, C115_runz, C115_extension_test, C115_get_grad, C115_order_run, C117_bind, C117_bind_values, C117_calls, C117_kwargs, C117_deriv_names, C117_derivs, C119_fits, C119_only, C120_left, C120_leftz, C120_plot_domain2, C121_run, C121_runz, C121_same
<!-- axioms:end -->

## Disagreements between code and its documentation found so far

* `ps/multivalue.py` `reduce` documents a weighted average by `elen` and `test_reduce_mv1` expects 0.6; the code
  computes the plain average 0.625 (C34).
* `ps/ps.py` `calc_ap_sol_f` applies the fourth-order averaging `apply_B` also for scheme order 2, where `f` is not
  extended outside (C25).
* `problems/sympy_problem.py` `eval_f_polar` at the origin over-counts the second-order term (C58).
* `problems/problem.py` `get_n_basis` loops forever for grid sizes such as 8 or 24 (C59); `get_N_list` loops
  forever for `-N 0 -c …` (C62).
* `solver.py` `calc_rel_convergence` docstring has the roles of `u0` and `u2` reversed with respect to the callers (C50/C63).
* `problems/__init__.py` imports `sing_h_trace`, `sing_h_shift`, `sing_ih`, which do not exist in this checkout: no program
  that needs `problems` starts (C101). The theorems about whole programs (C86–C90, C93, C94) are about the code after the
  imports, as it would run with the missing files in place.
* `problems/sing_ihz.py` and `ps/zmethod.py` import each other; a program that imports `ps.zmethod` first fails (C101).
* `scripts/abcoef/k_test.py` appends the wrong directory to `sys.path` and imports modules that no longer exist (C101).
* `problems/boundary.py` `cubic_C` is the extremum for `a = pi/6`, while `a = pi/4` (C42).
* `ps/inhomo.py` `do_extend_inhomo_0_standard` and `_extend_inhomo_0_lr` divide by the norm of the vector from the foot
  point to the node, which is zero (nan) when a node lies exactly on the outer boundary; the radius versions test for it.
* `ps/inhomo.py` `_extend_inhomo_0_lr` decides the sign of the normal derivative by `r2 < eval_r(th2)`, the standard
  version by the sign of `n`.
* `problems/sing_ihz.py` `IHZ_Bessel_Line` and `IHZ_Bessel_Quadratic` define neither `eval_expected` nor `eval_expected_polar`:
  calling either recurses without end (C73).
* `problems/smooth.py` `Smooth_E.get_grad` reads `kx`, `ky`, which only `eval_expected` sets: on a fresh object it raises
  AttributeError (C64).
* `scripts/resonance.py` lists only the modes with both numbers odd: every resonance with an even mode number is missing (C85;
  the script itself warns that it may be wrong).
* `scripts/polarfd/test.py` calls `PolarFD()` without its five required arguments and `scripts/zmethod/interp_test.py` with
  four: TypeError; `scripts/abcoef/run_test.py` calls `eval_expected_`, which no class defines; `scripts/abcoef/k_test.py` imports modules that do not exist in this checkout.
* `run.py` accepts the problems made for `runz.py` (`iz-bessel`, `ihz-bessel-line`, `ihz-bessel-quadratic`), which define no `eval_f`:
  the construction of the first solver ends with RecursionError (C89, C73).
* `runz.py` computes `do_rel_conv` from `-r` but never uses it: the relative rates are always printed from the third grid on (C63).
* `runz.py` accepts the three smooth problems, which have no attribute `g`: it prints the first grid heading and ends with
  AttributeError (C90).  With `--z1cheat` unset the ODE is solved on the first grid only (C53, C90).
