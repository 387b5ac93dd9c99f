C01 | proved | existence, ranges, round trip and uniqueness away from the origin
C02 | proved | same point, window, and uniqueness in the window
C03 | proved | both parametrisations, plus the intended points on segments 1 and 2
C04 | proved | idempotence, normal range, fixed points
C05 | proved | every sample point, any sample size; full classification of get_sid
C06 | proved | both inverses, nesting, spacing, edges
C07 | proved | equivalence with the closed domain
C08 | proved | projection, distance, signed distance, assertion branches
C13 | proved | both orders; shape and order error branches
C14 | proved | both inverses and uniqueness, under "no eigenvalue is zero"
C15 | proved | zero eigenvalue iff the operator is not bijective; symmetry; negativity for k = 0
C16 | proved | explicit constant 11/180, C^6 version, exact on degree at most 5
C17 | proved | explicit constant 1/6, exact on degree at most 3
C18 | proved | any length; shorter series are the case of zero coefficients
C42 | proved | all five shipped boundaries; cubic for a at least pi/6
C43 | proved | derivatives 1 to 4 of the angle by arc length
C44 | proved | curvature formula and its value -1/R on the arc
C45 | proved | unit tangent and outward unit normal
C46 | proved | reconstruction and the None branch, under the brentq contract
C47 | proved | exact coordinates on the arc for every window angle
C09 | proved | any interior predicate, size and order, any set iteration order
C10 | proved | stencil neighbourhoods, duplicate-free intersection, locality of apply_L
C11 | proved | margin, no IndexError, exact read and write positions; failure without the margin with a witness
C12 | proved | exact distances for the wedge sides (any boundary) and for all segments of every arc and of the five shipped boundaries (N >= 16), where the assertion never fires
C35 | proved | any regular boundary through the corners under an explicit mesh inequality; the five shipped boundaries for every N >= 16
C19 | proved | for every extension vector and source array
C20 | proved | linear projection; potential on Nplus determined by the trace
C21 | proved | equivalence, reproduction and uniqueness
C24 | proved | any two iteration orders of the node sets
C36 | proved | orders 0 to 5 against Mathlib's Chebyshev polynomials, plus the error branch
C37 | proved | length, strict order, range and exact root set
C38 | proved | inverse maps, strict interior, sampling range; eps = 0 shown to fail
C39 | proved | derivatives on the physical segment, zero elsewhere, error branch
C40 | proved | full layout, partition, lookup, length of c0
C41 | proved | any least-squares minimiser; existence of one shown
C22 | proved | every coefficient vector; the grid hypotheses are discharged for every sufficiently fine circular-arc problem (ready_arc)
C23 | proved | residual identity, fixed point, and the whole of run under the contracts of chebfit and lstsq
C33 | proved | labels, nodes and success of the addition; no new error
C34 | proved | addition with all error branches, commutativity, associativity, reduce
C65 | proved | all three outcomes
C25 | proved | read set for order above 2 and its consequence for quadratic sources; the order 2 failure is proved with a witness
C26 | proved | non-zero direction, exact write set, exactness on quadratics; the existence of foot points is discharged for every sufficiently fine circular-arc problem and for every shipped boundary (C79)
C27 | proved | any curve with a moving frame, any solution; Taylor polynomial, remainder bound M|n|^5/120; the outer boundary with the code's own normal, curvature and arclength formulas
C28 | proved | any curve and source; at the nodes of the outer boundary through `do_extend_inhomo_0_standard` (nan exactly on the boundary)
C29 | proved | all derivatives handed on by `extend_polar`
C30 | proved | second arclength derivative of the source
C31 | proved | both sides at every standard node, with the source term, including a foot point at the origin
C32 | proved | shift = derivatives of the Taylor polynomial, accuracy bound, exactness, agreement with the standard extension; all six corner procedures
C48 | proved | square system, numbering, solution satisfies the node equations; N = 0 and a circle of radius zero raise ZeroDivisionError
C49 | proved | coefficients and right-hand side; residual at most 3 M K^6 (1+k^2) (hr^4 + hth^4)
C50 | proved | all three versions, for grids of 4q, 2q and q cells; value, ValueError, nan and KeyError cases
C53 | proved | any list of grids; the coefficients used on every grid and the number of calls
C62 | proved | closed form, termination exactly for N0 >= 1 or N0 > c, fuel independence
C63 | proved | run.py and runz.py; exception behaviour; grids N, N/2, N/4
C51 | proved | every g and v given as functions of (r, theta); derivatives of v as explicit hypotheses
C52 | proved | six continuous derivatives on the whole line, monotone, 0 and 1 outside the ring, strictly between inside
C54 | proved | right-hand side, assertion, modes of the integrated system, exactness through uniqueness of the mode equation; odeint as an oracle that returns a solution
C60 | proved | any Bessel factor; inverse both ways, nan for a vanishing factor, AssertionError
C61 | proved | any least-squares minimiser, rescaled columns included; nan for a vanishing scale factor; rank condition proved for the arc with the shipped nodes
C67 | proved | closed form of the residual and bound of the regularised source inside the inner circle
C55 | proved | layout, order, kept radii, rmin; interp2d as an oracle that takes the given values at the given nodes
C68 | proved | values on all four sides and the difference equation inside, for any spsolve that solves the system; acheat and exception branches
C69 | proved | any sine content of the error; ValueError without inner circles
C70 | proved | data on all three segments, branches, and the equation, for any Bessel factors that satisfy Bessel's equation
C72 | proved | chain do_algebra, calc_z1_fourier; odeint as an oracle that returns a solution
C56 | proved | sine, e and ycos: one function whose value, gradient and second derivatives are the expected solution, get_grad and the Helmholtz equation with the source; eval_bc on all three segments, TypeError otherwise; eval_d_u_outwards along the outward normal
C57 | proved | every source that is a twice differentiable function of the point near it, away from the origin; nan at the origin
C58 | partial | the statement is false of the code: C58_false gives the witness x^2, C58_origin the exact value (Taylor value plus h^2 f_xx); C58_affine_partial is the statement for f_xx = 0 at (-h, 0). Missing: nothing more is true of this code
C59 | proved | result of the loop, terminates exactly in the windows [16*2^i, 17*2^i) for the shipped tables, endless below 16 and for 24
C64 | proved | every call sequence on a fresh object: AttributeError before the first evaluation of the expected solution, the gradient after it
C66 | proved | every argument; effect of the 1e-15 guard bounded by exp(-1e15/2)
C73 | proved | dispatch both ways for the expected solution and the source; without an override no fuel suffices; get_m1 by cases
C71 | proved | all three problems, any Bessel factors; the equation under Bessel's equation (met by the Bessel function, C76)
C74 | proved | any Bessel factors that do not vanish at kR; nan and IndexError branches
C75 | proved | any least-squares minimiser; arc without rank hypothesis; interpolation of v assumed exact at the nodes
C76 | proved | Bessel function as an infinite series; explicit truncation bound
C77 | proved | any curve that is flat enough at the scale h*sqrt(2) (explicit inequalities), instantiated for the five shipped boundaries and every N >= 16
C78 | proved | transcendence of pi proved from Mathlib's analytic part of Lindemann-Weierstrass; removes the no-resonance hypothesis of C14, C23, C77 for shipped constants
C79 | proved | circular arcs of any radius and the shipped boundaries; only the cubic boundary keeps the hypothesis that no node lies on the curve (C79_nan shows it is needed)
C80 | proved | Parseval for the sine transform; uniform lower bound for the shipped square and wavenumbers; the error of the extension vector enters as a hypothesis (delta)
C81 | proved | the error of the data (eps) enters as a hypothesis; homogeneous problems, exact solution in the whole plane; order lost against the expected h^4 because the potential is bounded by its worst case (8/h^2) and the norm by its maximum
C82 | proved | the error of the data (eps) and of the source at the origin (eta) enter as hypotheses; eta is bounded for SymPy problems and zero for smooth-ycos; no node on the curve is a hypothesis for the cubic boundary only
C83 | proved | chebfit is an oracle (minimiser of the residual at the 1024 roots); the bound compares with the Taylor polynomial at the middle of the segment, which is not the best polynomial; plots left out
C84 | proved | bounds the residual, not the error: that a small residual means a small error needs the stability of the overdetermined system, which is not proved; the file gamma_info.dat is left out
C85 | proved | the script is sound but not complete: it lists only odd modes (finding); evaluation of the command-line expression is left out
C86 | proved | exact arithmetic: with floats the script allows 1e-14
C87 | proved | the constant is not computed; the construction of the solver is psInit; n_circle and n_radius are between 4 and 1024 (the script uses 115 and 30)
C88 | proved | the constant is not computed; the logarithm of a quotient with zero is no number (nanValue) and does not stop the loop
C89 | proved | smooth-ycos on the cubic boundary: under the hypothesis that no node lies on the curve (C79); as checked out, problems/__init__.py imports three files that do not exist, so the table holds the classes that do exist; argparse and number formatting are not modelled
C90 | proved | cubic boundary: under the hypothesis that no node lies on the curve (C79); that spsolve solves the system is a hypothesis of the sentence about v only; jv must not vanish at the orders used as divisors (m*nu for 7 < m <= m1, or m <= 7 with --acheat on the ihz problems); argparse and number formatting are not modelled
C91 | proved | that odeint returns the value of a solution is a hypothesis; real arithmetic is exact
C92 | proved | real arithmetic is exact; that lstsq returns the solution of smallest norm (as NumPy documents) is a hypothesis, and an example shows that it is needed
C93 | proved | argparse (CPython 3.11) is modelled for the declarations of the two programs: option strings, abbreviations, joined values, bundled flags, --, nargs none and ?; int and the regular expression for negative numbers are parameters; fromfile prefixes, subparsers and the text of messages are not modelled
C94 | proved | the command line of the two scripts is not modelled; after an exception in a worker the lines already printed by the workers are left out
C95 | proved | that the system has only one solution is not proved (C95_determined takes it as a hypothesis)
C96 | proved | 
C97 | proved | 
C98 | proved | 
C99 | proved | test_reduce_mv1 is stale: the weighted average it expects is commented out in reduce.
C100 | proved | 
C101 | proved | The file system is a table read off the source; the three missing files of C101_repaired are taken to contain only the definitions asked for.
C102 | proved | That no node is within 2^-22 of the outer curve is a hypothesis for the boundaries other than the arc and for the arc beyond N = 2048.
C103 | proved | The classes of the two problems are not in the repository: a problem is what the programs use of it. The text of the HTML and the output path are not modelled.
C104 | proved | Python's str of a float is a parameter assumed to distinguish the values of k used. Of a file what the reports read is modelled.
C105 | proved | The problem classes named in expansion_error.py are not in the repository; the failure is stated for coefficients cut off as SingularKnown does.
C106 | proved | A figure is the list of the data given to plt.plot; colours, labels of axes and files are not modelled. That the assertion of the grid construction holds for the four domains of plot_domain2.py is not proved.
C107 | proved | The Bessel function of C107_consistency and C107_tip is the series of C76; C107_solution holds for every function that satisfies Bessel's equation.
C108 | proved | The shell is described in Spec/Shell.lean: words, backslash escapes and one redirection. That runz.py is found in the working directory is assumed. os.mkdir fails only because of a missing parent or an existing path. In which order the pool runs is not modelled. The exit codes of the runs are ignored by the program.
C109 | proved | diff of SymPy is deriv; the text of the printed expressions is not modelled. Importing rhs_derivs.py prints nothing.
C110 | proved | The kernel evaluates integers: 374 evaluations of a recurrence of 45 steps. Removes the assumption about zeros from C60, C74, C90, C93 and C108 for the shipped numbers.
C111 | proved | The lists of attributes assigned and read are transcribed from the class bodies.
C112 | proved | On 128 cells and more unique solvability is not proved for the shipped wave numbers (only that finitely many wave numbers are bad); there C68 and C90 keep the hypothesis that the solver returned a solution.
C113 | proved | Exact arithmetic; the linear solver is assumed to return the solution of every system that has exactly one, jv of orders 2/7 and 6/7 to be the Bessel function. No explicit constants for 128 cells and more.
C114 | proved | Attributes of instances, metaclasses and descriptors are not modelled; the classes and names are transcribed from the class statements.
C115 | proved | One object for each role; nested functions and bound methods handed on run where they are written; tests other than hasattr, homogeneous and JJ may come out either way; attributes of modules are in C101 and those of NumPy, SymPy and SciPy objects are not modelled; the modules missing from the checkout (C101) are taken to exist.
C116 | proved | A test comes out either way unless it compares the one parameter named in the model; names behind and, or and conditional expressions count as read; a nested function runs where its name is read, a lambda where it is written; where the name of a function or class of the same module is read, it may be called. Imports succeed (C101); from sympy import * binds the SymPy names the module uses. That callers keep to the ranges is C118.
C117 | proved | Which functions a call may reach is read off the source: names by scope and imports, methods by the class of the receiver's role with its whole family, so a call may have more targets than any execution has. Starred tuples count as two arguments. Calls of classes and constructors are C114; calls of library functions, of lambdas and of functions held in attributes or arguments are left out.
C118 | proved | Values of loop variables are those of the tuple or range; a guard counts only where the model says so (radius_sid == 2, equality with b_desc['sid'], JJ is not None). JJ and basis_index are given together. The sources of attributes and results (options['scheme_order'], args.o, b_desc['sid'], p['sid'], results of get_sid, _extend_f_get_sid, get_etype) are listed by hand; those of parameters are checked against the table of calls of C117.
C119 | proved | A slot holds any function that is put there anywhere, so the model allows more than one execution does. brentq, odeint and Pool.map call their argument with one, two and one arguments; lambdify gives a function of as many parameters as symbols. The sources of attributes and local variables are listed by hand; those of parameters are checked against the table of C117, and the list of lambdas is complete. scripts/abcoef/k_test.py (its calc_a_coef is not in the checkout) and scripts/polarfd/test.py:67 (misfit of C117) are left out.
C120 | proved | Same reduction of the functions to attribute accesses as C115. Changes in place to what an attribute holds are lookups in the model; there are none on problems, and on the boundary only in its constructor. The Pool of optimize_basis.py gives each worker a copy; the model has the workers share the problem. plot_domain2.py is left out: it does assign problem.a (C120_plot_domain2).
C121 | proved | Attributes only: local variables of the programs (the errors and solutions of earlier grids, the Fourier coefficients runz.py hands on, the options dictionary) are passed on by design. Same reduction of the functions as C115 and C120; hasattr tests are events of their own.
