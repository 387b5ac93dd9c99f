{"id": "C01", "title": "Cartesian to polar conversion is exact and canonical", "statement": "cart_to_polar(x,y) returns (r,th) with r >= 0, 0 < th <= 2*pi, r*cos(th)=x and r*sin(th)=y; for (x,y) != (0,0) it is the only such pair.", "quantifier": "every real x and y", "why_tests_cant": "tests sample a few points; the branch cut and all quadrants/axes form a continuum", "anchors": ["domain_util.py:cart_to_polar"]}
{"id": "C02", "title": "Solver polar angles live in one window around the domain", "statement": "PizzaSolver.get_polar(i,j) names the same physical point as get_coord(i,j), and its angle lies in [a/2, 2*pi + a/2), for every grid node.", "quantifier": "every grid size N, node (i,j), wedge angle 0<a<=pi and auxiliary side length", "why_tests_cant": "window/branch bugs show up only at particular nodes of particular grids", "anchors": ["ps/ps.py:PizzaSolver.get_polar", "solver.py:Solver.get_polar"]}
{"id": "C03", "title": "Both segment parametrisations name the same physical boundary point", "statement": "arg_to_polar and arg_to_polar_abs give polar coordinates of one and the same Cartesian point for every segment id and every argument (also negative, i.e. past the corner); arg_to_polar_abs never returns a negative radius on segments 1 and 2.", "quantifier": "every segment id in {0,1,2}, every real argument, every a and boundary", "why_tests_cant": "continuum of arguments including both signs", "anchors": ["domain_util.py:arg_to_polar", "domain_util.py:arg_to_polar_abs"]}
{"id": "C04", "title": "wrap_func is a one-shot normalisation", "statement": "wrap_func maps a boundary argument to a non-negative argument (segments 1,2) or to an argument >= a/2 (segment 0, for arguments >= a/2 - 2*pi), applying it twice equals applying it once, and it leaves already-normal arguments alone.", "quantifier": "every real argument and segment id", "why_tests_cant": "needs all reals on both sides of both thresholds", "anchors": ["domain_util.py:wrap_func"]}
{"id": "C05", "title": "Segment id from polar angle agrees with the geometry", "statement": "For every point sampled from the three boundary segments by get_boundary_sample, get_sid(cart_to_polar(point)) returns the segment the point was sampled from; angles strictly inside the removed wedge (below a - 1e-12) get no segment id at all.", "quantifier": "every sample size, every boundary curve, every wedge angle in range", "why_tests_cant": "sample density and boundary are unbounded parameters", "anchors": ["domain_util.py:get_sid", "ps/debug.py:get_boundary_sample_by_sid"]}
{"id": "C06", "title": "Grid coordinates are invertible and nested", "statement": "get_coord_inv inverts get_coord in both directions; node (i,j) on the N-grid is the same point as node (2i,2j) on the 2N-grid; nodes 0 and N lie on the edges of the auxiliary square and node spacing is AD_len/N.", "quantifier": "every N>=1, all nodes and all real coordinates", "why_tests_cant": "all grid sizes and nodes", "anchors": ["solver.py:Solver.get_coord", "solver.py:Solver.get_coord_inv"]}
{"id": "C07", "title": "Interior test equals the closed reentrant-corner domain", "statement": "is_interior(i,j) is true exactly when the node's point can be written rho*(cos t, sin t) with a <= t <= 2*pi and 0 <= rho <= boundary radius at t (both sides and the outer curve included).", "quantifier": "every grid, node, wedge angle and boundary with positive radius", "why_tests_cant": "continuum of geometries; edge-inclusion errors only appear on nodes that hit the boundary exactly", "anchors": ["ps/ps.py:PizzaSolver.is_interior"]}
{"id": "C08", "title": "Foot point and signed distance for segment 2", "statement": "get_radius_point(2,x,y) is the orthogonal projection of (x,y) on the line through the origin at angle a, dist_to_radius is the Euclidean distance to that line, and signed_dist_to_radius equals x*sin(a) - y*cos(a): positive exactly on the wedge (outside) side, so (x,y) = foot + n*(sin a, -cos a).", "quantifier": "every point and every wedge angle 0<a<pi, including a = pi/2", "why_tests_cant": "continuum; the tan(a) branch and the a=pi/2 branch differ", "anchors": ["ps/ps.py:get_radius_point", "ps/ps.py:dist_to_radius", "ps/ps.py:signed_dist_to_radius"]}
{"id": "C09", "title": "Interior and exterior node sets partition the grid", "statement": "After construct_grids, M0 is exactly the set of interior auxiliary nodes, global_Mplus and global_Mminus are disjoint and together equal M0, and a node is in global_Mplus exactly when is_interior says so.", "quantifier": "every N, every interior predicate", "why_tests_cant": "all predicates and sizes", "anchors": ["solver.py:Solver.construct_grids"]}
{"id": "C10", "title": "Discrete boundary separates inside from outside", "statement": "Nplus/Nminus are exactly the nodes reached by the scheme stencil from Mplus/Mminus; every node read when the operator is applied at a Mplus (Mminus) node is in Nplus (Nminus); union_gamma is exactly Nplus & Nminus without duplicates.", "quantifier": "every N, interior predicate and scheme order", "why_tests_cant": "all predicates and sizes", "anchors": ["ps/grid.py:ps_construct_grids"]}
{"id": "C11", "title": "Discrete boundary indexing is in range", "statement": "If every interior node has indices in 2..N-2 (which holds whenever the domain radius stays below AD_len/2 - h), then every node of union_gamma is a node of M0, so get_potential and get_trace never raise IndexError and never wrap to a negative index. Without that margin a gamma node with index 0 silently writes to the opposite edge of the array and one with index N raises IndexError.", "quantifier": "every N, domain and extension array", "why_tests_cant": "negative-index wraparound is silent; needs all domains", "anchors": ["ps/ps.py:get_potential", "ps/ps.py:get_trace", "ps/grid.py:ps_construct_grids"]}
{"id": "C12", "title": "Every discrete-boundary node is attached to a segment", "statement": "ps_construct_grids puts a node in all_gamma[sid] exactly when its distance to that segment is at most h*sqrt(2), every all_gamma list is contained in union_gamma without duplicates, and construction either raises AssertionError or every union_gamma node is in at least one list. For the circular arc boundary the assertion can never fire.", "quantifier": "every N, wedge angle, boundary, set iteration order", "why_tests_cant": "all grids and hash orders", "anchors": ["ps/grid.py:ps_construct_grids"]}
{"id": "C13", "title": "Fourier operator equals the finite-difference operator", "statement": "APSolver.apply_L(v) equals linop.apply_L of v padded with a zero frame, entry by entry, for scheme orders 2 and 4 (exact arithmetic).", "quantifier": "every N>=2, every complex grid function, every k and AD_len>0, both orders", "why_tests_cant": "infinitely many grid functions and sizes", "anchors": ["fourier.py:APSolver", "linop.py:apply_L"]}
{"id": "C14", "title": "The auxiliary problem solver inverts the operator", "statement": "If no eigenvalue is zero then solve(apply_L(v)) = v and apply_L(solve(g)) = g, and solve(g) is the only zero-boundary grid function whose finite-difference image is g.", "quantifier": "every N>=2, g, k, AD_len, order", "why_tests_cant": "all right-hand sides and sizes", "anchors": ["fourier.py:APSolver.solve", "fourier.py:APSolver.apply_L"]}
{"id": "C15", "title": "Resonance is exactly a vanishing eigenvalue", "statement": "If some eigenvalue computed by calc_eigenvals is zero then there is a non-zero grid function with zero boundary values that apply_L sends to zero (so the auxiliary problem has no unique solution and solve divides by zero); eigenvalues are symmetric in their two indices; for k=0 every eigenvalue is negative, so solve is always valid.", "quantifier": "every N, k, AD_len, order", "why_tests_cant": "spectral statement over all sizes", "anchors": ["fourier.py:APSolver.calc_eigenvals"]}
{"id": "C16", "title": "Fourth-order compact scheme is fourth-order consistent", "statement": "linop.apply_L (order 4) applied to grid samples of u equals apply_B applied to samples of u_xx+u_yy+k^2 u exactly whenever u is a polynomial of total degree at most 5, and for every six-times differentiable u the difference is bounded by a constant times h^4.", "quantifier": "every polynomial/smooth u, every h, k, node", "why_tests_cant": "order of accuracy is a limit statement over all h", "anchors": ["linop.py:apply_L", "linop.py:apply_B"]}
{"id": "C17", "title": "Second-order scheme is second-order consistent", "statement": "linop.apply_L with order 2 applied to samples of u equals u_xx+u_yy+k^2 u at the node exactly whenever u is a polynomial of degree at most 3, with an O(h^2) error for smooth u.", "quantifier": "every polynomial/smooth u, h, k, node", "why_tests_cant": "order of accuracy is a limit statement", "anchors": ["linop.py:apply_L"]}
{"id": "C18", "title": "Arc sine transform recovers sine-series coefficients", "statement": "For func(th) = sum_{m<=n} b_m sin(m nu (th-a)) with n <= N, arc_dst(a, func, N) returns b_1..b_n followed by zeros.", "quantifier": "every N, n<=N, coefficient list, wedge angle with nu = pi/(2pi-a)", "why_tests_cant": "all coefficient vectors and sizes", "anchors": ["fourier.py:arc_dst"]}
{"id": "C19", "title": "Returned solution satisfies the discrete equation at every interior node", "statement": "The array u_act returned by PizzaSolver.run satisfies, at every node of global_Mplus, linop.apply_L(u_act) = apply_B(f), whatever the boundary data, basis coefficients, extension values and least-squares result were, as long as no eigenvalue is zero.", "quantifier": "every problem, grid, boundary data, basis size and lstsq outcome", "why_tests_cant": "must hold for arbitrary intermediate data", "anchors": ["ps/ps.py:PizzaSolver.run", "ps/ps.py:get_potential", "ps/ps.py:calc_ap_sol_f"]}
{"id": "C20", "title": "Boundary projection is idempotent", "statement": "The operator ext -> get_trace(get_potential(ext)) is linear and applying it twice equals applying it once; two grid functions with the same trace on union_gamma have the same potential on Nplus.", "quantifier": "every extension vector, grid, interior predicate", "why_tests_cant": "all vectors and domains", "anchors": ["ps/ps.py:get_potential", "ps/ps.py:get_trace"]}
{"id": "C21", "title": "Difference potential reproduces discrete solutions", "statement": "A vector on union_gamma is the trace of some grid function on Nplus that satisfies the homogeneous scheme at every Mplus node if and only if get_trace(get_potential(ext)) = ext; and then get_potential(ext) restricted to Nplus is that grid function (it is unique).", "quantifier": "every grid function, domain, grid", "why_tests_cant": "all grid functions/domains", "anchors": ["ps/ps.py:get_potential", "ps/ps.py:get_Q"]}
{"id": "C22", "title": "Extension of boundary data is the superposition of basis extensions", "statement": "For all coefficient vectors c0, c1: extend_boundary(homogeneous_only) = sum_JJ c0[JJ]*extend_basis(JJ,0) + sum_JJ c1[JJ]*extend_basis(JJ,1), at every discrete-boundary node.", "quantifier": "every coefficient vector, basis size, grid, boundary", "why_tests_cant": "scripts/extend_basis_test.py checks unit vectors on one grid only", "anchors": ["ps/extend.py:mv_extend_boundary", "ps/basis.py:extend_basis"]}
{"id": "C23", "title": "Variational residual is the projection defect of the final extension", "statement": "For the matrices of get_var and any c1, Q1*c1 - rhs equals get_trace(get_potential(ext)+ap_sol_f) - ext where ext = extend_boundary() built from c0 and that c1; hence a zero residual means the final extension is a fixed point of the inhomogeneous projection and run's u_act has exactly ext as its trace.", "quantifier": "every c1, problem, grid", "why_tests_cant": "all coefficient vectors", "anchors": ["ps/ps.py:get_var", "ps/ps.py:get_Q", "ps/ps.py:run"]}
{"id": "C24", "title": "Set iteration order does not influence the solution", "statement": "get_potential is unchanged when union_gamma is enumerated in another order and the extension vector is permuted accordingly; zeroing over global_Mminus does not depend on iteration order; get_trace is permuted accordingly.", "quantifier": "every enumeration of the node sets", "why_tests_cant": "hash-order schedules cannot be enumerated by tests", "anchors": ["ps/ps.py:get_potential", "ps/grid.py:ps_construct_grids"]}
{"id": "C25", "title": "Right-hand side uses only genuine source values", "statement": "For scheme order 4 the value apply_B(f) at a Mplus node reads f only at nodes of Kplus, i.e. interior nodes and nodes filled by extend_f. For scheme order 2 the code still applies apply_B but extends nothing, so the right-hand side at interior nodes next to the boundary mixes in zero fill (property false there).", "quantifier": "every f, grid, domain", "why_tests_cant": "needs all grids; order 2 silently wrong", "anchors": ["ps/ps.py:calc_ap_sol_f", "linop.py:apply_B", "solver.py:construct_grids", "solver.py:setup_f"]}
{"id": "C26", "title": "Source extension is well defined and second-order exact", "statement": "extend_f never divides by zero (the direction from the boundary foot point to the node is never the zero vector), writes exactly the nodes of Kplus - global_Mplus unless it aborts, and reproduces f exactly whenever f is a polynomial of degree at most 2.", "quantifier": "every grid, boundary through the corners, quadratic f", "why_tests_cant": "continuum of geometries", "anchors": ["ps/inhomo.py:extend_f", "ps/inhomo.py:_extend_f_get_sid"]}
{"id": "C27", "title": "Equation-based extension is the Taylor polynomial of the true solution", "statement": "If u solves the Helmholtz equation near a boundary curve with curvature curv, then extend_arbitrary fed with the Cauchy data of u returns exactly the degree-4 Taylor polynomial of u in the normal distance n; the error is O(|n|^5).", "quantifier": "every solution, every smooth curve, every n", "why_tests_cant": "all solutions/curves", "anchors": ["extend.py:extend_arbitrary"]}
{"id": "C28", "title": "Inhomogeneous extension is the Taylor polynomial of the particular solution", "statement": "If u solves the inhomogeneous Helmholtz equation with source f and zero Cauchy data on the curve, inhomo_extend_arbitrary returns exactly the degree-4 Taylor polynomial of u in n.", "quantifier": "every source and smooth curve", "why_tests_cant": "all sources/curves", "anchors": ["extend.py:inhomo_extend_arbitrary"]}
{"id": "C29", "title": "Arclength conversion of boundary derivatives is the chain rule", "statement": "extend_polar passes to extend_arbitrary the exact first, second and fourth arclength derivatives of the data and the first two of the curvature, for every reparametrisation th(s).", "quantifier": "every data function, reparametrisation and point", "why_tests_cant": "all functions", "anchors": ["extend.py:extend_polar"]}
{"id": "C30", "title": "Arclength conversion of the source's second derivative is the chain rule", "statement": "inhomo_extend_polar's d2_f_s is the second derivative of f(r(th(s)),th(s)) in s for every f, boundary curve and parametrisation.", "quantifier": "every f and curve", "why_tests_cant": "all functions", "anchors": ["extend.py:inhomo_extend_polar"]}
{"id": "C31", "title": "Straight-segment extension is the chain of normal derivatives of the plane solution", "statement": "On segments 1 and 2, for every u solving u_xx+u_yy+k^2u=0 in the plane, the standard extension fed with the trace and the outward normal derivative of u returns the degree-4 Taylor polynomial of u along the normal, with (n, argument) being the Cartesian foot-point coordinates of the node.", "quantifier": "every solution and node", "why_tests_cant": "all solutions", "anchors": ["ps/extend.py:extend_radius", "ps/extend.py:do_extend_1_standard", "ps/extend.py:do_extend_2_standard"]}
{"id": "C32", "title": "Corner (left/right) Taylor extension is consistent", "statement": "do_extend_taylor evaluates exactly the degree-4 Taylor polynomial (and its derivatives) of the boundary data at the displaced argument; it reproduces polynomial data of degree at most 4 exactly, and coincides with the standard extension when the displacement is zero.", "quantifier": "every data polynomial, displacement", "why_tests_cant": "continuum", "anchors": ["ps/extend.py:do_extend_taylor"]}
{"id": "C33", "title": "Homogeneous and inhomogeneous extensions always align", "statement": "mv_extend_boundary's final addition never hits the setype assertion or a missing entry: both operands list, at every node, the same (segment, etype) pairs in the same order.", "quantifier": "every grid, hash order, problem", "why_tests_cant": "all grids and orders", "anchors": ["ps/extend.py:mv_extend_boundary", "ps/inhomo.py:mv_extend_inhomo_f", "ps/multivalue.py:__add__"]}
{"id": "C34", "title": "Multivalue addition and reduction semantics", "statement": "Adding two aligned Multivalues adds values pointwise, keeps node set and setypes, is commutative and associative on values; misaligned setypes raise AssertionError, a shorter second operand raises IndexError, an unknown node raises KeyError; reduce returns the value (one entry) or the plain average (two entries) and raises AssertionError for zero or more than two entries; reduce is additive. (The docstring and test_reduce_mv1 claim a weighted average by elen: false of the code.)", "quantifier": "every Multivalue", "why_tests_cant": "arbitrary node lists and entries", "anchors": ["ps/multivalue.py:Multivalue"]}
{"id": "C35", "title": "At most two extension values per node", "statement": "If h*sqrt(2)*(1+1/sin(a/2)) is smaller than the minimal boundary radius, no node belongs to all three all_gamma lists, so reduce never fails on a constructed grid.", "quantifier": "every grid, boundary, wedge angle satisfying the inequality", "why_tests_cant": "continuum of geometries", "anchors": ["ps/multivalue.py:reduce", "ps/grid.py:ps_construct_grids"]}
{"id": "C36", "title": "Chebyshev derivative formulas are correct", "statement": "eval_dn_T_t(n,J,t) equals the n-th derivative of the Chebyshev polynomial T_J at t for n=0..5, every degree J and every t in (-1,1).", "quantifier": "every degree J and every t", "why_tests_cant": "long generated formulas; continuum of t, all J", "anchors": ["chebyshev.py:eval_dn_T_t"]}
{"id": "C37", "title": "Chebyshev nodes are the ascending roots", "statement": "get_chebyshev_roots(J) has length J, is strictly increasing, lies in (-1,1), and consists exactly of the roots of T_J.", "quantifier": "every J>=1", "why_tests_cant": "all J", "anchors": ["chebyshev.py:get_chebyshev_roots"]}
{"id": "C38", "title": "Segment parametrisation stays inside (-1,1)", "statement": "eval_g and eval_g_inv are mutually inverse, and every argument on the physical segment (th in [a,2pi] or r in [0,R]) is mapped strictly inside (-1,1), so no basis derivative divides by zero there.", "quantifier": "every argument, eps>0, a, R", "why_tests_cant": "continuum", "anchors": ["ps/basis.py:eval_g", "ps/basis.py:eval_g_inv", "ps/basis.py:get_span_center"]}
{"id": "C39", "title": "Basis function derivatives", "statement": "eval_dn_B_arg(n,JJ,arg,sid) is the n-th derivative with respect to arg of eval_dn_B_arg(0,JJ,.,sid), n<=5, on the physical segment, and is identically 0 on the other segments.", "quantifier": "every basis index, order, argument", "why_tests_cant": "continuum", "anchors": ["ps/basis.py:eval_dn_B_arg"]}
{"id": "C40", "title": "Basis layout bookkeeping", "statement": "After setup_basis(n_circle,n_radius): B_desc has n_circle+2*n_radius entries, JJ_list of the three segments are consecutive ranges that partition 0..len(B_desc)-1, and entry JJ of B_desc holds the segment and the degree given by its position in that range; calc_c0 returns one coefficient per entry in the same order.", "quantifier": "every n_circle, n_radius", "why_tests_cant": "all sizes", "anchors": ["ps/basis.py:setup_basis", "ps/basis.py:calc_c0"]}
{"id": "C41", "title": "Chebyshev fit is exact on the basis span", "statement": "If the Dirichlet data on a segment is a combination of that segment's basis functions (n_basis <= 1024) then the coefficients returned by get_chebyshev_coef are exactly that combination (for any least-squares minimiser).", "quantifier": "every data in the span, every n_basis <= 1024", "why_tests_cant": "all coefficient vectors", "anchors": ["ps/basis.py:get_chebyshev_coef"]}
{"id": "C42", "title": "Shipped boundary curves are admissible", "statement": "Each shipped boundary has positive radius on [a,2pi], passes through both wedge corners (radius R at a and 2pi), and stays within R+bet, so the domain is enclosed by the polar grid's outer arc used by ZMethod and fits in the auxiliary square.", "quantifier": "every angle, each shipped boundary", "why_tests_cant": "continuum of angles", "anchors": ["problems/boundary.py:Arc", "problems/boundary.py:OuterSine", "problems/boundary.py:InnerSine", "problems/boundary.py:Sine7", "problems/boundary.py:Cubic", "ps/zmethod.py:run"]}
{"id": "C43", "title": "Angle-by-arclength derivatives", "statement": "eval_d_th_s .. eval_d4_th_s are the first four derivatives of the polar angle as a function of arclength, for every smooth positive radius function.", "quantifier": "every boundary, angle", "why_tests_cant": "all curves", "anchors": ["problems/boundary.py:do_algebra"]}
{"id": "C44", "title": "Curvature formula and sign", "statement": "eval_curv is the signed curvature of the polar curve with the sign convention used by the extension (negative where the outer boundary is convex; -1/R for the arc), i.e. the derivative of the outward unit normal along arclength is -curv times the tangent.", "quantifier": "every smooth positive radius function, angle", "why_tests_cant": "all curves", "anchors": ["problems/boundary.py:do_algebra"]}
{"id": "C45", "title": "Tangent and normal", "statement": "eval_tangent and eval_normal are orthonormal and eval_normal points away from the origin side of the boundary, for every boundary with positive radius.", "quantifier": "every boundary, angle", "why_tests_cant": "all curves", "anchors": ["problems/boundary.py:eval_tangent", "problems/boundary.py:eval_normal"]}
{"id": "C46", "title": "Boundary coordinates reconstruct the point", "statement": "Whenever get_boundary_coord(r1,th1) returns (n,th0), the point (r1,th1) equals boundary(th0) + n * outward normal(th0) and |n| is the distance to boundary(th0); it returns None exactly when the root finder reports no sign change.", "quantifier": "every point, boundary and root-finder returning a root", "why_tests_cant": "continuum", "anchors": ["problems/boundary.py:get_boundary_coord"]}
{"id": "C47", "title": "Boundary coordinates on the arc", "statement": "For the arc boundary and every point with th1 in the solver's window and r1>0, get_boundary_coord succeeds and returns (r1-R, th1).", "quantifier": "every point", "why_tests_cant": "continuum", "anchors": ["problems/boundary.py:get_boundary_coord"]}
{"id": "C48", "title": "Polar finite-difference system is square with one equation per node", "statement": "PolarFD.solve builds exactly (N+1)^2 rows and (N+1)^2 columns; get_index is a bijection from 0..N x 0..N to 0..(N+1)^2-1; every boundary node gets exactly one Dirichlet row and every inner node exactly one scheme row; all column indices are in range.", "quantifier": "every N>=1", "why_tests_cant": "all N", "anchors": ["ps/polarfd.py:PolarFD.solve"]}
{"id": "C49", "title": "Polar scheme is a fourth-order consistent discretisation", "statement": "The nine coefficients and the right-hand side produced by set_fd4 are exactly those of the compact scheme obtained from the polar Helmholtz operator; for smooth u the local residual is O(hr^4 + hth^4).", "quantifier": "every node, step, k, u", "why_tests_cant": "limit statement, all u", "anchors": ["ps/polarfd.py:set_fd4"]}
{"id": "C50", "title": "Convergence comparison uses the same physical nodes", "statement": "calc_rel_convergence (Solver, PolarFD and Multivalue versions) only subtracts values that belong to the same physical point on the three nested grids, all indices are in range, and every common node of the coarser grids that is interior is used.", "quantifier": "every N divisible accordingly, every grid function", "why_tests_cant": "all N", "anchors": ["solver.py:_array_calc_rel_convergence", "ps/polarfd.py:calc_rel_convergence"]}
{"id": "C51", "title": "Regularised source vanishes on the wedge sides", "statement": "The function f1 = f0 - H(q) built by ZMethod.do_algebra is zero at th=a and th=2*pi for every r>0 and every g; q itself and q_r vanish there.", "quantifier": "every g, r, k, a", "why_tests_cant": "symbolic identity over all g", "anchors": ["ps/zmethod.py:do_algebra"]}
{"id": "C52", "title": "Tapering function is a smooth monotone cut-off", "statement": "get_tapering_func(R) is 1 for r<=R0, 0 for r>=R, between 0 and 1 and non-increasing in r, and six times continuously differentiable.", "quantifier": "every r and R>R0", "why_tests_cant": "continuum", "anchors": ["problems/sing_ihz.py:get_tapering_func"]}
{"id": "C53", "title": "ODE solution is computed once per convergence run", "statement": "In runz, without z1cheat, the ODE solver is called exactly once (on the first grid) and the same coefficients are used on every later grid, for any list of grids; with z1cheat it is never called.", "quantifier": "every list of grid sizes", "why_tests_cant": "history property", "anchors": ["runz.py", "ps/zmethod.py:calc_z1_fourier"]}
{"id": "C54", "title": "ODE right-hand side is the Fourier mode of the Helmholtz operator", "statement": "If the 2M components follow eval_deriv then each function Y_m(r) sin(m nu (th-a)) satisfies the polar Helmholtz equation with source f_m(r) sin(m nu (th-a)), and vanishes on both wedge sides; the returned slice is the M mode values in order.", "quantifier": "every M, mode, source, radius>0", "why_tests_cant": "all modes/functions", "anchors": ["ps/ode.py:calc_z1_fourier"]}
{"id": "C55", "title": "Interpolation data layout", "statement": "create_v_interp hands over, for every kept radius index and angle index, the value v[m,l] at flat position (kept index)*(N+1)+l, and the kept radii are exactly those >= rmin in increasing order.", "quantifier": "every N, rmin", "why_tests_cant": "all N", "anchors": ["ps/zmethod.py:create_v_interp"]}
{"id": "C56", "title": "Shipped smooth problems are consistent", "statement": "For smooth-sine, smooth-e and smooth-ycos: the expected solution satisfies u_xx+u_yy+k^2 u = f with the f the solver uses (0 for the homogeneous ones), get_grad is the gradient of the expected solution, and eval_bc is its trace on the boundary.", "quantifier": "every k, point", "why_tests_cant": "continuum", "anchors": ["problems/smooth.py"]}
{"id": "C57", "title": "Polar-to-Cartesian gradient and Hessian", "statement": "eval_grad_f_polar and eval_hessian_f_polar return the Cartesian gradient and Hessian of f from its polar derivatives at every point with r>0.", "quantifier": "every twice differentiable f, point", "why_tests_cant": "all functions", "anchors": ["problems/sympy_problem.py"]}
{"id": "C58", "title": "Source value at the origin", "statement": "eval_f at the origin is the second-order Taylor value from (-h,0). (False of the code: the gradient was already advanced to the origin, so quadratic terms are over-counted by h^2*f_xx; exact for affine f.)", "quantifier": "every source", "why_tests_cant": "hidden by h = AD_len/10000; only exposed by an exact statement", "anchors": ["problems/sympy_problem.py:eval_f_polar"]}
{"id": "C59", "title": "Basis-size lookup", "statement": "get_n_basis(N) returns the entry of the first of N, N//2, N//4, ... that is in the table; it terminates exactly when one of them is (for the shipped tables: N in [16*2^i, 17*2^i) or a later key's window), otherwise loops forever, e.g. for every N<16 and N=24.", "quantifier": "every N and table", "why_tests_cant": "termination over all N", "anchors": ["problems/problem.py:get_n_basis"]}
{"id": "C60", "title": "a/b coefficient conversion is invertible", "statement": "b_to_a(a_to_b(c)) = c and a_to_b(b_to_a(c)) = c for every coefficient list as long as no Bessel factor is zero; lengths are preserved.", "quantifier": "every list, k, R, nu", "why_tests_cant": "all lists", "anchors": ["abcoef.py:a_to_b", "abcoef.py:b_to_a"]}
{"id": "C61", "title": "Singularity coefficients are exact on the model space", "statement": "If the boundary data on the outer curve is sum_{m<=m1} c_m J_{m nu}(k r) sin(m nu (th-a)) and the sampled system has full column rank, calc_a_coef returns exactly c_1..c_M for any least-squares minimiser, regardless of the rescaling of the higher columns.", "quantifier": "every coefficients, boundary, M<=m1", "why_tests_cant": "all coefficients", "anchors": ["abcoef.py:calc_a_coef"]}
{"id": "C62", "title": "Grid list of a convergence run", "statement": "get_N_list(N0,c) is [N0] without -c; otherwise, for N0>=1, it is exactly N0, 2*N0, 4*N0, ... up to c (empty if N0>c); for N0<=0<=c it never terminates.", "quantifier": "every N0 and c", "why_tests_cant": "termination/all inputs", "anchors": ["run.py:get_N_list", "runz.py:get_N_list"]}
{"id": "C63", "title": "Reported convergence compares consecutive grids", "statement": "In run.py, the rate printed for the i-th grid is log2(error_{i-1}/error_i); the relative rate is printed exactly from the third grid on and is computed from the solutions on grids N, N/2 and N/4 in that order.", "quantifier": "every list of grid results", "why_tests_cant": "history property", "anchors": ["run.py", "runz.py"]}
{"id": "C64", "title": "smooth-e gradient depends on call history", "statement": "Smooth_E.get_grad raises AttributeError unless eval_expected has been called before on the same object; after any such call it is the gradient of the expected solution.", "quantifier": "every call history", "why_tests_cant": "history property", "anchors": ["problems/smooth.py:Smooth_E"]}
{"id": "C65", "title": "Reported error is the exact maximum", "statement": "eval_error returns None when the expected solution is unknown and otherwise the maximum over all Mplus nodes of |expected - u_act| (attained, and an upper bound); it raises ValueError when there is no interior node.", "quantifier": "every grid, u_act", "why_tests_cant": "all grids", "anchors": ["solver.py:eval_error"]}
{"id": "C66", "title": "Hat and parabola boundary data", "statement": "eval_hat_x is even, lies in [0, 1/e], is zero exactly for |x| >= 1 up to the 1e-15 guard and never divides by zero; eval_hat_th maps [a,2pi] onto [-1,1] and vanishes at both corners; eval_parabola and eval_linesine vanish at both wedge corners.", "quantifier": "every argument", "why_tests_cant": "continuum", "anchors": ["problems/functions.py"]}
{"id": "C67", "title": "Subtracting the singular function leaves a source of known order at the tip", "statement": "For the truncated Bessel series v_asympt with n+1 terms, (Laplacian + k^2) of the series times sin(mu (th - a)) is exactly one monomial of order r^(2n + mu); so the regularised source f = -(Lap + k^2) v_asympt inside the circle where the tapering function is 1 is that monomial, with an explicit bound.", "quantifier": "every k > 0, nu >= 0, K, number of terms, r > 0 and angle", "why_tests_cant": "continuum and all truncation orders", "anchors": ["problems/sing_ihz.py:get_v_asympt0", "problems/sing_ihz.py:IH_Bessel", "ps/zmethod.py:do_algebra"]}
{"id": "C68", "title": "Polar boundary value problem of the z method", "statement": "do_z_BVP returns an (N+1)x(N+1) array that takes v_series on the inner circle, the Fourier sum plus g+q on the arc, phi1 on the side 2pi and phi2 on the side a, and satisfies the fourth-order polar scheme with zero right-hand side at every inner node; when z1 holds the sine coefficients of v-(g+q) the arc values are v. With acheat the array is zero; N=0 and a too short coefficient list raise.", "quantifier": "every data, k, a, nu, R0<arc_R, M, N>=2 and every solver that solves the linear system", "why_tests_cant": "all data and grids", "anchors": ["ps/zmethod.py:do_z_BVP"]}
{"id": "C69", "title": "Reported v error is the largest low sine coefficient", "statement": "get_v_error returns the maximum over inner circles m and frequencies j<=M of |b_j(m)|, where b_j(m) are the sine coefficients of v_expected - v on circle m; a grid with N<=1 raises ValueError.", "quantifier": "every array, N, M", "why_tests_cant": "all arrays", "anchors": ["ps/zmethod.py:get_v_error"]}
{"id": "C70", "title": "The remaining problem plus the removed functions is the original problem", "statement": "u_BVP.eval_bc plus v_asympt plus the singular sum equals phi0 on the curve, phi1 and phi2 on the two sides; and if u solves Lap u + k^2 u = f with f=-(Lap+k^2) v_asympt then u + v_asympt + sum a_m J_{m nu} sin solves the homogeneous Helmholtz equation. Past the tip the data are zero; other segment numbers raise TypeError; too few coefficients raise IndexError.", "quantifier": "every curve, data, coefficients, point r != 0", "why_tests_cant": "continuum", "anchors": ["ps/zmethod.py:do_u_BVP"]}
{"id": "C72", "title": "The ODE method computes the expected z1 coefficients", "statement": "With the functions do_algebra prepares from g and v (v solving the Helmholtz equation), the ODE method's coefficients at R are exactly the discrete sine coefficients of v-(g+q) on the circle of radius R that get_expected_z1_fourier computes, for every integrator that returns a solution at R.", "quantifier": "every g, v with finite sine content, k, a, R0<R, M", "why_tests_cant": "all functions", "anchors": ["ps/zmethod.py:do_algebra", "ps/zmethod.py:calc_z1_fourier", "ps/zmethod.py:get_expected_z1_fourier", "ps/ode.py"]}
{"id": "C73", "title": "Default evaluation of problems", "statement": "A problem that defines one of eval_expected / eval_expected_polar gets the other as its composition with the coordinate change, likewise eval_f / eval_f_polar; a problem that defines neither recurses without end. get_m1 returns the attribute m1 if there is one, else the entry of m1_dict under the boundary's name, else 7. A homogeneous problem's source is 0.", "quantifier": "every problem, point and recursion depth", "why_tests_cant": "all points; non-termination", "anchors": ["problems/problem.py:eval_expected", "problems/problem.py:eval_expected_polar", "problems/problem.py:eval_f", "problems/problem.py:get_m1"]}
{"id": "C71", "title": "Data of the singular problems fit together", "statement": "For IZ_Bessel, IHZ_Bessel_Line and IHZ_Bessel_Quadratic: phi0 agrees with the side data at both corners of the curve; g takes the side data on both sides (for both settings of alt_phi1_ext); eval_v takes them too (K even for the first two; with K odd it has the wrong sign on th=2pi); eval_v solves the Helmholtz equation; the side data are 0 for r<=0. The residuals of v_series and of v_asympt inside the inner circle of the quadratic problem are the last terms of the truncated series.", "quantifier": "every k, a, curve, radius, angle", "why_tests_cant": "continuum; all parameters", "anchors": ["problems/sing_ihz.py:IH_Bessel", "problems/sing_ihz.py:IZ_Bessel", "problems/sing_ihz.py:IHZ_Bessel_Line", "problems/sing_ihz.py:IHZ_Bessel_Quadratic"]}
{"id": "C74", "title": "SingularKnown has the expected solution it claims", "statement": "If to_dst is a sine series of at most m_max terms and no Bessel factor vanishes at kR, eval_expected_polar is eval_expected__no_w plus a solution of the Helmholtz equation that equals to_dst on the arc and 0 on both sides. A vanishing factor gives nan, too few nodes an IndexError.", "quantifier": "every datum, k, R, a, point", "why_tests_cant": "all data and points", "anchors": ["problems/singular.py:SingularKnown"]}
{"id": "C75", "title": "Coefficients of the singular functions", "statement": "calc_a_coef of the z method: without acheat the first M coefficients of phi0 - v on the curve are found exactly when it lies in the span of the m1 model functions, and the remaining boundary data is then v - v_asympt plus the functions after the first M; with acheat they are the sine coefficients divided by the Bessel factors; on the arc both agree without any rank hypothesis; for iz-bessel they are 0 and the expected solution of the remaining problem meets its data on all three segments and its equation.", "quantifier": "every least-squares minimiser, data, curve", "why_tests_cant": "all data; any solver", "anchors": ["ps/zmethod.py:calc_a_coef", "ps/zmethod.py:get_expected_a_coef", "ps/zmethod.py:do_u_BVP", "abcoef.py:calc_a_coef"]}
{"id": "C76", "title": "The Bessel function meets its contract; the truncated series are close to it", "statement": "The Bessel function defined by its series satisfies Bessel's equation for x>0 and vanishes at 0 for positive order; n terms of the series differ from it by at most the first omitted term times exp(x^2/4); with the shipped constants v_series differs from eval_v on and inside the inner circle by at most 1e-22 (IH_Bessel) and 1e-17 (IHZ_Bessel_Quadratic).", "quantifier": "every order >= 0, argument, number of terms", "why_tests_cant": "below double precision; all arguments", "anchors": ["problems/sing_ihz.py:get_v_asympt0", "problems/sing_ihz.py:IH_Bessel", "problems/sing_ihz.py:IHZ_Bessel_Quadratic"]}
{"id": "C77", "title": "Homogeneous problems run to the end on every shipped boundary", "statement": "For each of the five shipped outer boundaries with the shipped radius, angle and square, and every grid size N >= 16: the assertion in ps_construct_grids never fires, a discrete-boundary node is in the list of a segment exactly when its distance to the segment is at most h*sqrt(2), every node of all_gamma[0] gets boundary coordinates, no node is near three segments, and a homogeneous problem without resonance runs to the end with a solution of the discrete equation at every interior node and Neumann coefficients that minimise the projection defect. Other boundary names raise KeyError.", "quantifier": "every shipped boundary, N >= 16, hash order, scheme order, basis size, boundary data, wavenumber without resonance, root finder and least-squares solver within contract", "why_tests_cant": "all grid sizes and hash orders; the foot point search must succeed for every node within h*sqrt(2) of a curve", "anchors": ["problems/boundary.py:boundaries", "problems/boundary.py:get_boundary_coord", "ps/grid.py:ps_construct_grids", "ps/ps.py:run", "run.py:44"]}
{"id": "C78", "title": "No resonance for the shipped square and wavenumbers", "statement": "If the side of the auxiliary square is a nonzero algebraic multiple of pi (AD_len = 2*pi) and the wavenumber is algebraic (the shipped 6.75 and 10.75, or any rational), then no eigenvalue computed by calc_eigenvals is zero, for both scheme orders and every grid size: _fourier never divides by zero and the discrete problem is uniquely solvable.", "quantifier": "every grid size, both orders, every algebraic wavenumber", "why_tests_cant": "all grid sizes; a near-zero eigenvalue is not a zero eigenvalue (rests on the transcendence of pi)", "anchors": ["fourier.py:calc_eigenvals", "fourier.py:_fourier", "problems/problem.py:AD_len", "problems/smooth.py:k", "problems/sing_ihz.py:k"]}
{"id": "C79", "title": "Inhomogeneous problems run to the end", "statement": "For every source given by a SymPy expression (or any source whose gradient and Hessian methods return numbers away from the origin), every shipped boundary and every grid N >= 16 none of whose nodes lies on the outer curve, the grids are built, extend_f and extend_inhomo_f compute a number at every node (they neither raise, abort, nor divide by zero), the run completes, the solution satisfies the discrete equation whose right-hand side is the source at interior nodes and its second-order Taylor polynomial about a foot point at the others, and the Neumann coefficients minimise the projection defect. For the arc and the three sine boundaries no node of any grid lies on the curve. A node on the curve makes the inhomogeneous extension nan.", "quantifier": "every hash order, scheme order, basis size, boundary data, source, rational wavenumber and grid size N >= 16; the arc and sine boundaries unconditionally, the cubic one when no node lies on it", "why_tests_cant": "all grids and sources; that no node lies exactly on the curve is a statement about the transcendence of pi", "anchors": ["ps/inhomo.py:_extend_f_get_sid", "ps/inhomo.py:extend_f", "ps/inhomo.py:mv_extend_inhomo_f", "ps/inhomo.py:_extend_inhomo_0_lr", "ps/inhomo.py:_extend_inhomo_12_r", "ps/ps.py:run", "problems/sympy_problem.py"]}
{"id": "C80", "title": "Stability of the auxiliary solver and error of the returned solution", "statement": "If every eigenvalue computed by calc_eigenvals has absolute value at least m > 0, then apSolve amplifies the root-sum-square of its right-hand side by at most 1/m, and for every grid function u the array returned by run differs from u over Nplus, in root-sum-square, by at most (1 + (8/h^2 + k^2)/m) times the error of the extension vector on the discrete boundary plus 1/m times the defect of u in the discrete equation on Mplus. For the fourth-order scheme and u with sixth derivatives bounded by M this gives, at every node of Nplus, N*((1 + (8/h^2+k^2)/m)*delta + (11/180*M*h^4 + T)/m), where delta and T bound the errors of the extension vector and of the source array. One m works for all grid sizes unless k^2 is a Dirichlet eigenvalue of the square or some grid is resonant; it exists for the shipped square and wavenumbers.", "quantifier": "every grid size, both scheme orders, every boundary for which the grids are built with a margin, every extension vector, source array and reference function", "why_tests_cant": "one constant for all grid sizes and all data; a bound on an error that a convergence test samples at a few grids", "anchors": ["ps/ps.py:run", "fourier.py:calc_eigenvals", "fourier.py:_fourier", "solver.py:calc_ap_sol_f", "solver.py:get_potential", "problems/smooth.py:Smooth_E"]}
{"id": "C81", "title": "Error of the extension vector and of the computed solution (homogeneous problems)", "statement": "Let u be a C^6 solution of the Helmholtz equation in the plane, and let the boundary be a shipped curve. There is a constant C, depending on u, k and the curve only, such that on every grid N >= 16: if the Cauchy data expanded with the coefficients c0, c1 of the run is, with four tangential derivatives, within eps of the Cauchy data of u on the three segments, then the extension vector (standard extensions, corner extensions by Taylor shift, and the averages at nodes attached to two segments) is within C*(eps + N^-5) of u on the discrete boundary, and the array u_act returned by run is within C*(eps*N^3 + N^-2) of u at every node of Nplus.", "quantifier": "every hash order, root finder, basis size, eps, boundary data, shipped boundary and wavenumber, every grid N >= 16, every C^6 exact solution", "why_tests_cant": "one constant for all grid sizes; the convergence test samples a few grids with one exact solution each", "anchors": ["ps/extend.py:extend_arbitrary", "ps/extend.py:extend_polar", "ps/extend.py:do_extend_0_standard", "ps/extend.py:do_extend_1_left", "ps/extend.py:do_extend_2_right", "ps/extend.py:mv_extend_boundary", "ps/multivalue.py:reduce", "ps/ps.py:run"]}
{"id": "C82", "title": "Error of the extension vector and of the computed solution (inhomogeneous problems)", "statement": "Let u be C^6 and phi C^3 in the plane with Lap u + k^2 u = phi, and let the boundary be a shipped curve. There is a constant C, depending on u, phi, k and the curve only, such that on every grid N >= 16 without a node on the curve (automatic for the circular and the sine boundaries): if the problem's source methods are those of phi, except that its value at the origin may be off by eta, and the Cauchy data of the run is within eps of that of u (with four tangential derivatives), then the inhomogeneous extension is defined at every node, the sum of the homogeneous and the inhomogeneous extension is within C*(eps + N^-5 + eta*N^-2) of u on the discrete boundary, the source array (values on Mplus, Taylor polynomials on the rest of Kplus) is within O(N^-3) + eta of phi, and the array u_act returned by run is within C*(eps*N^3 + N^-2 + eta*N) of u at every node of Nplus. A SymPy problem has eta = O((AD_len/10000)^2); smooth-ycos has eta = 0.", "quantifier": "every hash order, root finder, basis size, eps, boundary data, shipped boundary and wavenumber, every grid N >= 16, every exact solution and source of the stated smoothness", "why_tests_cant": "one constant for all grid sizes; the convergence test samples a few grids with one exact solution each", "anchors": ["ps/inhomo.py:_calc_inhomo_radius", "ps/inhomo.py:do_extend_inhomo_0_standard", "ps/inhomo.py:_extend_inhomo_0_lr", "ps/inhomo.py:_extend_inhomo_12_r", "ps/inhomo.py:extend_inhomo_f", "ps/inhomo.py:extend_f", "ps/ps.py:run", "problems/sympy_problem.py:eval_f_polar", "problems/smooth.py:Smooth_YCos"]}
{"id": "C83", "title": "Error of the Chebyshev fit of the boundary data", "statement": "Let the data of a segment have n derivatives, n the number of basis functions of the segment (1 <= n <= 1024), the n-th at most M on the segment enlarged by eps at both ends, whose half length is w. Then the coefficients that get_chebyshev_coef returns belong to a series which, with all its derivatives of order m <= n, is within (1 + 4 n^(2m+1)) M w^(n-m)/(n-m)! of the data on the whole enlarged segment. calc_c0 and calc_c1_exact return the three such coefficient vectors one after the other. c0_test, which run calls, never fails and prints the largest deviation of the real parts over its sample of the boundary (at most the bound above with m = 0); run with that call returns exactly what it returns without it. c1_test prints the same for the Neumann data; etype_filter keeps the nodes of the wanted types.", "quantifier": "every least-squares routine meeting chebfit's contract, every number of basis functions up to the number of sample points, every data of the stated smoothness, every eps > 0, every wedge angle 0 < a <= 2 pi - 0.00002 and radius R >= 0.00001", "why_tests_cant": "the error estimate holds for every smooth function and every basis size; c0_test samples 500 points of one function", "anchors": ["ps/basis.py:get_chebyshev_coef", "ps/basis.py:calc_c0", "ps/debug.py:calc_c1_exact", "ps/debug.py:c0_test", "ps/debug.py:c1_test", "ps/debug.py:etype_filter", "ps/ps.py:run"]}
{"id": "C84", "title": "Residual of the least-squares system", "statement": "On a shipped boundary, with fourth order, a shipped wave number and an exact solution u with six continuous derivatives, there is a constant C, the same for every grid with at least 16 cells per side, such that: the root of the sum of squares of the residual left by the run's own coefficients is at most C (eps N^3 + N^-2), where eps is the distance (with four derivatives) from the exact Cauchy data of any data with the run's c0 and some c1. With the exact Dirichlet data as boundary condition and between 4 and 1024 basis functions per segment, eps is at most (1 + 4 n^9) M w^n/(n-4)!, M a bound of the n-th derivatives of the Cauchy data and w the half width of the segment. Q_residual (the residual of the coefficients fitted to the exact Cauchy data) never fails, its vector has the length of union_gamma and obeys the same bound, and the number it prints is the largest entry. For an inhomogeneous problem eta N is added, eta the error of the source at the origin. The boundary data the program computes for the smooth problems is the Cauchy data of the expected solution.", "quantifier": "every shipped boundary, every grid with N >= 16 (for inhomogeneous problems: without a node on the curve), every set iteration order, every root finder, least-squares solver and Chebyshev fit meeting their contracts, every solution of the stated smoothness", "why_tests_cant": "the bound is for all grids at once and for every exact solution; a test computes the residual of one run", "anchors": ["ps/ps.py:solve_var", "ps/ps.py:get_var", "ps/ps.py:run", "ps/debug.py:Q_residual", "ps/debug.py:calc_c1_exact", "problems/smooth.py:eval_bc", "problems/smooth.py:eval_d_u_outwards"]}
{"id": "C85", "title": "Resonances printed by scripts/resonance.py", "statement": "The wave number k is resonant for the square of side s > 0 (the Helmholtz equation has a twice continuously differentiable solution, zero on the four sides and not zero inside) exactly if k^2 = (a pi/s)^2 + (b pi/s)^2 for some a, b >= 1. For every side other than 0 the script prints 15 values in increasing order, the roots of these numbers for odd a <= b <= 9; every printed value is a resonance if s > 0; no resonance with an even a or b, nor any with (a^2 + b^2) mod 8 other than 2, is printed although each is one. Side 0 raises ZeroDivisionError. For the default side 2 pi no printed value makes the discrete auxiliary problem singular on any grid, but on every grid with at least 29 cells per side some right-hand side is amplified by at least 1/(k^(p+2) h^p), p the order of the scheme.", "quantifier": "every side s, every wave number, every pair of modes, every grid, both orders", "why_tests_cant": "that a wave number is not resonant is a statement about every solution on the square; completeness fails on infinitely many modes", "anchors": ["scripts/resonance.py:14-38"]}
{"id": "C86", "title": "extend_basis_test.py ends with SUCCESS", "statement": "For every solver whose discrete boundary is not empty and ready for extension, in exact arithmetic every one of the 2 n_basis numbers printed by scripts/extend_basis_test.py is 0 and the script ends with SUCCESS: extending the JJ-th basis function gives the same vector as extending the boundary data whose only nonzero coefficient is the JJ-th. This is so on every shipped boundary, for every wave number, order, number of basis functions and grid with at least 16 cells per side. Conversely, whatever the solver, SUCCESS is printed exactly if every number is computed without exception and is at most 1e-14, and after FAILURE the last number printed is the first larger one.", "quantifier": "every solver, source, boundary, wave number, order, basis size and grid", "why_tests_cant": "the script checks one problem on one grid; equality of the two code paths for all of them is linearity of the extension", "anchors": ["scripts/extend_basis_test.py:43-65", "ps/extend.py:265-382"]}
{"id": "C87", "title": "Number printed by extension_test.py", "statement": "On every shipped boundary, for a problem whose exact solution u is smooth and whose boundary data the script gets exactly, run_test of scripts/extension_test.py returns the largest of |u - value| over all entries of the extension whose (segment, type) is requested by the option -s (over all entries without it), and this number is at most C (eps + N^-5) for homogeneous problems and C (eps + N^-5 + eta N^-2) for inhomogeneous ones if no node lies on the curve, where eps bounds the error of the Chebyshev fit of the Cauchy data and eta the error of the source value at the origin, with one C for all grids. If no entry is of a requested kind the run ends with ValueError; without the option there always is one. The nine choices of -s parse to the nine (segment, type) pairs, each once.", "quantifier": "every grid with N >= 16, every set iteration order, every root finder and Chebyshev fit meeting their contracts, every choice of -s", "why_tests_cant": "the script samples a few grids; the rate holds for every grid and the ValueError case depends on which nodes exist", "anchors": ["scripts/extension_test.py:26-98", "scripts/extension_test.py:112-119"]}
{"id": "C88", "title": "Number printed by test_extend_f.py and the loop over grids", "statement": "On every shipped boundary, for a three times continuously differentiable source the problem evaluates exactly, run_test of scripts/test_extend_f.py returns the largest error of the extended source over the nodes of Kplus whose segment is allowed, and it is at most C N^-3 with one C for all grids; for the script's problem smooth-ycos and the default option this is the maximum over all of Kplus. If no node has an allowed segment it ends with ValueError. The loop of this script and of extension_test.py visits exactly the grids N 2^i <= c in order, prints their errors and from the second on the base-two logarithm of the quotient of consecutive errors, stops at the first exception, and never ends for N = 0.", "quantifier": "every grid with N >= 16, every set iteration order, every root finder meeting its contract, every list of allowed segments, every start and end of the loop", "why_tests_cant": "the script visits five grids; the cubic rate is a statement about all of them", "anchors": ["scripts/test_extend_f.py:42-61", "scripts/test_extend_f.py:92-108", "scripts/extension_test.py:140-156"]}
{"id": "C89", "title": "The program run.py from its command line to its last line", "statement": "For the three smooth problems, every shipped boundary, both scheme orders and every initial size N for which a basis size is found (16*2^i <= N < 17*2^i), with or without -c, -r and --acheat, run.py ends without an exception. It prints the options, the basis sizes of the grids N, 2N, 4N, ... up to c, and for each grid the error, the rate and, with -r, the comparison of three solutions. The printed error is the largest deviation from the expected solution over the interior nodes, the solution satisfies the discrete equation of the chosen order at the interior nodes, its Neumann coefficients minimise the defect, and each comparison is the base-two logarithm of the quotient of the largest differences at the common interior nodes of the grids with q, 2q and 4q cells (no number exactly if one of them is zero). For the three problems made for runz.py it ends with RecursionError after the basis sizes. For every other N not above c it never ends. If c < N only the options are printed.", "quantifier": "every problem of the table whose class exists, every boundary, every N, c, order 2 or 4, every set iteration order, every root finder, Chebyshev fit and least-squares solver meeting its contract", "why_tests_cant": "a run shows one command line; the claim is about all of them, including those that never end", "anchors": ["run.py:14-102", "io_util.py:42-76", "ps/ps.py:18-59", "ps/ps.py:217-257", "solver.py:24-50", "solver.py:110-130", "problems/__init__.py:17-33"]}
{"id": "C90", "title": "The program runz.py from its command line to its last line", "statement": "For the three problems made for runz.py (iz-bessel, ihz-bessel-line, ihz-bessel-quadratic), every shipped boundary, both scheme orders and every initial size N for which a basis size is found (16*2^i <= N < 17*2^i), with or without -c, --acheat and --z1cheat, runz.py ends without an exception. It prints the options and basis sizes and, for each grid N, 2N, 4N, ... up to c, the error of v, the comparison of the last three arrays v, the rate of v, and the same for u, whose error is printed for iz-bessel only. The printed error of v is the largest difference of the first seven sine coefficients of v and of the expected v over the arcs of the polar grid. v solves the discrete problem on the annular sector with the data from the ODE coefficients, or is zero with --acheat. The coefficients of the singular modes minimise the residual on the outer curve. u solves the discrete problem of the pizza solver whose data are the given boundary data minus the asymptotic part and the modes. Each comparison is the base-two logarithm of the quotient of the largest differences at the common inner nodes (no number exactly if one is zero). A smooth problem ends with AttributeError after the first grid heading, every other N not above c never ends, and c < N prints the options only.", "quantifier": "every problem of the table whose class exists, every boundary, every N, c, order 2 or 4, acheat, z1cheat, every set iteration order, every Bessel function not vanishing at the required orders, every ODE, sparse, least-squares solver, interpolation, fit and root finder meeting its contract", "why_tests_cant": "one run shows one command line; the claim covers all of them, the runs that never end and the runs that stop with an exception", "anchors": ["runz.py:14-139", "ps/zmethod.py:32-62", "ps/zmethod.py:157-191", "ps/zmethod.py:193-405", "ps/polarfd.py:239-260", "io_util.py:42-76", "problems/sing_ihz.py:1-245"]}
{"id": "C91", "title": "The functions and coefficients the z-method starts from", "statement": "For each of the three problems of runz.py and every function in place of the Bessel functions: v and g take the side data on both rays, the data on the curve fit the side data at both corners, the side data are zero for radii that are not positive, and for iz-bessel the expected solution is v and takes the data on the curve; v is the stated combination of Bessel functions of order 2/7 and 6/7 and solves the Helmholtz equation if they solve Bessel's equation; v_series has ten terms of the series and v_asympt two, multiplied by one up to radius 1/10 and by zero from radius 2.3 on. With --z1cheat the seven coefficients are the sine coefficients (2048 points) of v - (g + q) on the circle of radius R + bet. Otherwise, if odeint returns the value of a solution, they are the values at R + bet of functions whose modes solve the Helmholtz equation with source -(Delta + k^2)(g + q) and start at radius 1/10 with the modes (1024 points) of v_series - (g + q) and its radial derivative.", "quantifier": "every problem of the table, every boundary, every function jv, every record of problem functions, every odeint meeting the contract", "why_tests_cant": "the functions are real-valued formulas; tests see finitely many points and one Bessel routine", "anchors": ["problems/sing_ihz.py:62-245", "ps/zmethod.py:64-191", "ps/ode.py:1-69"]}
{"id": "C92", "title": "Superposition: the whole solver is real-linear in the problem data", "statement": "Fix the grid, boundary, scheme, wavenumber and basis sizes. If boundary data and source of a third problem are a real-linear combination (factors on the two problems and on their complex conjugates) of those of two problems for which the constructor and run succeed, then they succeed for the third, and particular solution, Chebyshev coefficients, solved coefficients, extension and numerical solution are the same combination. Hence superposition with complex factors, a real numerical solution for real data, and the zero solution for zero data. For sources given by twice differentiable formulas, rational wavenumbers, the circular and sine-shaped boundaries and every grid with N at least 16 the runs always succeed.", "quantifier": "all combinations, sources, boundary data, grids, boundaries of the program, basis sizes, set orders; every chebfit returning a least-squares fit and every lstsq returning the least-squares solution of smallest norm", "why_tests_cant": "the statement compares runs on all triples of problem data; tests compare finitely many up to rounding", "anchors": ["ps/ps.py:47-257", "ps/extend.py:55-434", "ps/inhomo.py:1-456", "ps/basis.py:1-135", "solver.py:20-152"]}
{"id": "C93", "title": "Both programs from the command line on", "statement": "A command line made of valid pieces in any order (two words naming a problem and a boundary; -N, -c, -o with an integer apart, joined or after =; -c alone; -r; abbreviated flags) is accepted unless -c alone stands directly before a word, and gives the documented values, the last number of each option counting. Conversely every accepted command line has order 2 or 4 and names that stand on it in this order, unless -- occurs; so the default arc of the boundary is never used. An unknown option, a flag with a value, -N or -o without value, a value that is no number (also the word after -c) and an order other than 2 or 4 are never accepted, whatever stands before (without --) and after. For every list of strings run.py and runz.py print the help, a usage error, end with a TypeError (only with --), or run main on accepted arguments, where it is stated exactly for which arguments they never end, print all lines, or end with a RecursionError or AttributeError.", "quantifier": "all lists of strings on the command line, all int parsers and negative-number patterns with the stated text properties, all set orders, every chebfit, lstsq, brentq, odeint, spsolve, interp2d, jv as in C89 and C90", "why_tests_cant": "infinitely many command lines; in particular that no accepted line uses the default, and that a line never ends, cannot be tested", "anchors": ["io_util.py:8-39", "run.py:14-102", "runz.py:17-139"]}
{"id": "C94", "title": "The scripts that look for good sizes of the basis", "statement": "For a smooth problem and every N = 16*2^i..17*2^i-1, optimize_basis.py ends without an exception: after the options it prints one line for each of the 165 pairs of sizes (n_circle 30,35,..,95; n_radius 17,21,.. below n_circle), in whatever order the four processes print, where the error is the largest deviation from the expected solution in a run with these sizes that satisfies the discrete equation; then the pair with the least error, the first one tried among equals. c0_basis.py ends too and prints for n_circle = 10,15,..,95 and n_radius = 3/4 n_circle rounded down the largest deviation of the real part of the least-squares fit from the data at 300 angles and at 300 angles and 200 radii. For the z-method problems both end with a RecursionError after the options; for every other N neither ends.", "quantifier": "all N, all problems of the table, all set orders, all print orders of the processes, every chebfit, lstsq, brentq with the stated contracts", "why_tests_cant": "all grid sizes and schedules, and that a run never ends, cannot be tested", "anchors": ["scripts/optimize_basis.py:30-80", "scripts/c0_basis.py:25-58", "io_util.py:42-69", "ps/ps.py:42-49"]}
{"id": "C95", "title": "The method is exact for quadratic radial solutions", "statement": "Scheme order 4, any grid of at least 16 by 16 and any wave number without resonance, at least four basis functions per segment: for u = a + b (x^2+y^2) on the arc, and for constant u on every shipped boundary, with the source f = Delta u + k^2 u, the coefficients fitted to the Cauchy data of u extend to exactly u at every node of the discrete boundary, the solver returns exactly u at every node of Nplus, and these coefficients solve the linear system of the program without residual. Hence every run solves its system exactly and its result has the extension as its trace; if the system has one solution, or the least-squares solver picks this one, the printed error is 0.", "quantifier": "all a, b, k, n, eps, basis sizes 4..1024, set orders, chebfit, lstsq, brentq with the stated contracts", "why_tests_cant": "equality in exact arithmetic for all coefficients, wave numbers and grids; in floating point the error is only small", "anchors": ["ps/ps.py:164-257", "ps/extend.py:12-434", "ps/inhomo.py:1-456", "solver.py:40-152", "fourier.py:1-96"]}
{"id": "C96", "title": "Which nodes are interior, in double-precision arithmetic", "statement": "With every + - * / rounded to nearest (IEEE 754 binary64, ties in any way) and hypot, atan2 with a relative error of at most 2^-50: nested grids have identical node coordinates for any arithmetic whatsoever; for every grid size N up to 2^40 a coordinate is off by at most 2^-48 and has the right sign (zero exactly on the axes); the comparisons th >= a and th <= 2 pi of is_interior have the right outcome for every node, provided atan2(x, x) >= np.pi/4 for positive x (an error of one unit in the last place there would remove all nodes of the side th = a from the domain); the radius is off by at most 2^-46 and the angle by at most 2^-44; on every shipped boundary the interior set differs from that of exact arithmetic only in nodes within eta + 2^-44 of the outer curve, eta being the accuracy of eval_r; for the arc and N = 16, 32, ..., 1024 the sets are identical.", "quantifier": "all rounding functions to nearest, all library functions of the stated accuracy, all N up to 2^40, all nodes, all shipped boundaries", "why_tests_cant": "a test runs on one machine with one math library and a few grids; ties and near ties at the straight sides depend on the last bit", "anchors": ["solver.py:28-72", "domain_util.py:4-13", "ps/ps.py:74-77", "ps/ps.py:110-115", "problems/problem.py:12-13", "problems/problem.py:47-47"]}
{"id": "C97", "title": "The assertion of the grid construction and rounding: a tie along the side theta = a", "statement": "In exact arithmetic the nodes (j+2, j) along the side th = a belong to the discrete boundary of the fourth-order scheme, are at distance exactly h*sqrt(2) from that side and farther from the other two segments, so the test dist <= h*np.sqrt(2) places them only because it holds with equality. With rounding to nearest after every operation (ties in any way), x**2 and tan accurate to one unit in the last place, sin, cos, hypot and atan2 to a few: the construction succeeds if and only if every node of the discrete boundary passes the computed test for some segment, and otherwise ends with an AssertionError; it ends with an AssertionError for order 4 and N = 67, 134 and 257 on every shipped boundary, where exact arithmetic succeeds; with a library that returns tan(np.pi/4) = 1 also for N = 256, 512 and 1024. For all these N get_n_basis ends, so a run reaches the construction. With exact operations the rounded construction is the exact one.", "quantifier": "all rounding functions to nearest, all libraries of the stated accuracy, all iteration orders of the sets, all shipped boundaries (and all computed curves that stay 1.6 or more from the tip)", "why_tests_cant": "whether the assertion fires depends on the last bit of np.tan and on the grid size; the grids of the test-suite are powers of two, for which the usual library rounds the right way", "anchors": ["ps/grid.py:179-264", "ps/ps.py:74-115", "ps/extend.py:28-71", "solver.py:28-72", "domain_util.py:4-13"]}
{"id": "C98", "title": "Rounding decides only ties: the second-order grid construction never fails in double precision", "statement": "With rounding to nearest after every operation and library functions of the stated accuracy, with the radius function evaluated to 2^-30 and the boundary coordinates of the nodes near the outer curve computed to 2^-30: on every shipped boundary and every grid with 16 <= N <= 2^20, a node within h*sqrt(2) - 2^-23 of a segment passes the computed test for that segment and is put into its all_gamma; every node of the discrete boundary is within h*sqrt(2) + 2^-29 of a segment, and within h + 2^-29 for the second-order scheme; so the second-order construction succeeds, and if the construction of any order fails, it is because of a node whose distance from the whole boundary is h*sqrt(2) up to 2^-23.", "quantifier": "all rounding functions to nearest, all libraries of the stated accuracy, all iteration orders of the sets, all shipped boundaries, all N from 16 to 2^20, all computed curves and boundary coordinates of the stated accuracy", "why_tests_cant": "a test runs some grids on one machine; here no grid size, machine or boundary can make the second-order construction fail", "anchors": ["ps/grid.py:179-264", "ps/ps.py:74-115", "ps/extend.py:28-71", "solver.py:28-72"]}
{"id": "C99", "title": "The repository's own unit tests: three pass, test_reduce_mv1 fails", "statement": "Run on the code of Multivalue, test_getitem, test_add and test_reduce0 pass and test_reduce_mv1 raises AssertionError: it expects the average weighted by the extension lengths (0.6), as the docstring of reduce promises, where reduce returns the plain average (0.625). The comparison is_equal of the tests returns True exactly if both have the same list of nodes and at each node every item of the first agrees in setype and, up to 1e-13, in value with the item at the same position of the second; it is not symmetric, since further items of the second are ignored.", "quantifier": "all pairs of multivalues for is_equal; the fixed data of the tests otherwise", "why_tests_cant": "the statement is about the tests themselves: which of them can pass, and what their comparison decides for all arguments", "anchors": ["test/ps/test_multivalue.py:9-130", "ps/multivalue.py:41-102"]}
{"id": "C100", "title": "In double precision the discrete boundary is that of exact arithmetic, except at near ties, which occur on every grid", "statement": "With rounding to nearest after every operation, library functions of the stated accuracy and boundary coordinates computed accurately and soundly: for every node of the auxiliary grid and every segment, the computed test dist <= h*sqrt(2) has the outcome of the exact one unless the distance is h*sqrt(2) up to 2^-23. If no node is within 2^-29 of the outer curve, then M0, M+, M-, K+, N+, N- and union_gamma are the same as in exact arithmetic, and so is the membership in all_gamma of each segment except at near ties. Ties cannot be excluded: on every grid with N >= 16 some node of union_gamma near the tip is at distance exactly h*sqrt(2) from the side theta = a.", "quantifier": "all rounding functions to nearest, all libraries of the stated accuracy, all iteration orders, all shipped boundaries, all orders, all N from 16 to 2^20 (ties: all N >= 16), all nodes and segments", "why_tests_cant": "a test compares outputs of one machine with itself; it has no access to the exact grid, and it samples finitely many N", "anchors": ["ps/grid.py:179-264", "ps/ps.py:74-115", "ps/extend.py:28-71", "solver.py:28-72"]}
{"id": "C101", "title": "Which programs get past their imports", "statement": "When the imports of a program succeed, every module it needs, directly or through the files it imports, is a file of the repository or an installed package (all file systems, programs and installations). In this checkout fifteen of the 29 programs, run.py and runz.py among them, never succeed: with the required packages installed they stop with ModuleNotFoundError for problems.sing_h_trace, which problems/__init__.py:10 imports and which is not in the repository. Twelve programs succeed. k_test.py appends the wrong directory to the search path and does not find io_util; generate_report4.py needs seaborn, which requirements.txt does not list. With the three missing files in place fourteen of the fifteen succeed in spite of the circular imports; scripts/zmethod/interp_test.py still stops: ps.zmethod is asked for ZMethod while it is being imported.", "quantifier": "all sets of installed packages, all bounds on the depth of nested imports from 12 on, all programs of the repository; C101_closed: all file systems and statement lists", "why_tests_cant": "the only test imports ps.multivalue, which none of the failures touch; and a test runs on one machine with one set of installed packages", "anchors": ["problems/__init__.py:7-14", "problems/sing_ihz.py:1-14", "ps/zmethod.py:1-23", "ps/ps.py:1-20", "abcoef.py:1-9", "io_util.py:1-4", "run.py:1-12", "runz.py:1-12", "scripts/abcoef/k_test.py:1-14", "scripts/zmethod/interp_test.py:1-10"]}
{"id": "C102", "title": "Grids whose size is a power of two pass the assertion of the grid construction, up to 32768, and fail from 65536 on", "statement": "With rounding to nearest and ties to even after every operation, squares rounded like products and np.tan(np.pi/4) rounded correctly (to 1 - 2^-53), the construction of the grids does not raise AssertionError for N = 16, 32, ..., 32768, whatever the order of the scheme and for every shipped boundary, provided no node is within 2^-22 of the outer curve. For the arc this proviso is proved for N = 16, ..., 2048. For N = 65536, 131072 and 262144 the fourth-order construction does raise AssertionError, whatever the boundary, because of the node (N/2 + 10431, N/2 + 10429).", "quantifier": "all iteration orders of the sets, all libraries of the stated accuracy, all orders of the scheme, all shipped boundaries, all powers of two from 16 to 32768, all computed curves and boundary coordinates of the stated accuracy", "why_tests_cant": "the sizes the program is run with are powers of two and pass; that the same code fails for N = 67 or N = 1024 on a library with another last bit of tan, and for every N from 65536 to 262144, is invisible to any run that finishes", "anchors": ["ps/grid.py:179-264", "ps/ps.py:74-115", "ps/extend.py:28-71", "solver.py:28-72", "problems/problem.py:13-47"]}
{"id": "C103", "title": "generate_data.py records the first number of basis functions with the smallest error, and its report finds every entry", "statement": "If for both problems, the five boundaries and the 121 numbers of basis functions 8, 10, ..., 248 the computation gives seven real coefficients (which holds if the Bessel factors do not vanish, the least-squares routine returns one real coefficient per column and the data are real), then generate_data.py succeeds; for each problem and boundary it records the first m1 whose largest coefficient error is smallest, with its coefficients, the differences and that error; series_error is the largest difference at the 1024 angles. The report on these data raises no KeyError, prints for trace-line-sine exactly these numbers for the five boundaries, and each table has as many columns as its heading. If the coefficients found with m1 = 8 are not all real, the program stops with AssertionError.", "quantifier": "all problems, all Bessel functions, all least-squares routines, all seven-coefficient results", "why_tests_cant": "the programs have no tests; whether every key the report asks for exists depends on the first iteration of a search always improving on infinity, for every possible numerical result", "anchors": ["scripts/abcoef/generate_data.py:16-82", "scripts/abcoef/generate_report.py:5-93", "abcoef.py:8-36"]}
{"id": "C104", "title": "The files of generate_data2.py have different names, and the reports need its runs for three values of k", "statement": "Different problems, boundaries or values of k have different file names. Any number of runs of generate_data2.py whose computations succeed leaves exactly the twelve files of each run, each with 54 rows of seven errors and of singular values, and no other file changed. After runs with k = 3.25, 6.75 and 10.75 (among any others, in any order) reports 3 and 4 succeed: 36 curves, and for each of the 54 numbers of basis functions the smallest error of the 36 cases, a median of them and the largest, in this order. After a single run in an empty directory both reports stop with FileNotFoundError, whatever k, and report 2 succeeds exactly if k = 6.75.", "quantifier": "all problems, all libraries, all directories, all sequences of runs", "why_tests_cant": "the reports depend on files left by earlier runs of another program with other values of a class attribute; no test runs either, and a single run always leaves the reports without a file", "anchors": ["scripts/abcoef/generate_data2.py:18-74", "scripts/abcoef/generate_report2.py:6-44", "scripts/abcoef/generate_report3.py:6-22", "scripts/abcoef/generate_report4.py:11-32", "abcoef.py:8-36"]}
{"id": "C105", "title": "The study of boundaries approaching the arc keeps one number of basis functions and all its points are within the plot; the expansion study stops with IndexError", "statement": "If the computations succeed, bet_generate.py records 100 results for bet = 0.5*0.95^i, all computed with the number of basis functions get_m1 gives for the first boundary; bet_plot.py draws 100 points whose abscissae decrease in equal steps of log10(0.95) and all lie within its limits -0.25 and -3; on the arc all results are equal; an unknown boundary is a KeyError. b_expan of expansion_error.py is the partial sum of the sine series and raises IndexError exactly if there are fewer coefficients than terms; with the 500 terms of the program and the at most 300 coefficients that SingularKnown keeps it always does, and with 500 coefficients the program prints the largest error at the 512 angles.", "quantifier": "all problems, boundaries, libraries, coefficient lists", "why_tests_cant": "none of the scripts is tested; that the last of the 100 points still lies within the limits is a statement about a power with exponent 99, and the IndexError comes from two constants in different files", "anchors": ["scripts/abcoef/bet_generate.py:18-76", "scripts/abcoef/bet_plot.py:8-43", "scripts/abcoef/expansion_error.py:14-54", "problems/singular.py:27-39", "problems/problem.py:89-98", "problems/boundary.py:12-33"]}
{"id": "C106", "title": "The figures of the domain show the outline and exactly the node sets they name; one curve of the second program misses the corner", "statement": "plot_domain.py, for every shipped boundary and every size N for which get_n_basis returns, ends without an exception and draws, depending on the method: the outline and the grid points inside and outside of the domain; the inside points with their four neighbours; the inside (outside) points and these with their eight neighbours; for each side the points that neighbour an inside and an outside point and lie within h*sqrt(2) of the side, each point on at least one side; or only the arc, the square and the outline. Every point is drawn once. For every other N no figure is drawn; an unknown boundary is a KeyError. The outline consists of 500 points on the boundary; every boundary point is within 0.025 of one of them; all lie within the square and the limits of the plot. plot_domain2.py stops with AssertionError or draws two figures, each with the arc, the two sides and two curves; the second curve of each is made for the angle pi/4 and not for that of the figure: the cubic one starts between 0.038 and 0.0381 inside of the end of the side, the sine curve is below the arc where the curve made for the right angle is above it.", "quantifier": "all hash orders, all N, all boundaries, all methods, all root finders", "why_tests_cant": "the scripts have no tests and their result is a picture; that the drawn sets are the geometric ones holds for infinitely many grids, and a gap of 0.038 is not visible in it", "anchors": ["scripts/plot_domain.py:15-225", "scripts/plot_domain2.py:17-150", "ps/debug.py:10-88", "problems/boundary.py:12-33"]}
{"id": "C107", "title": "The test program of the polar scheme has a right exact solution and source, but stops at its first grid; so does the interpolation test", "statement": "The function f of scripts/polarfd/sym.py is the single term -9 (3r/2)^4 (3r/2)^(3/11) / (2 Gamma(36/11)) sin(3/11 (th - pi/6)). The function eval_u of scripts/polarfd/test.py satisfies the Helmholtz equation with this source wherever its Bessel function satisfies Bessel's equation, vanishes on the side at pi/6, and is of the order r^(6+3/11) at the tip. On every ring R0 <= r <= R1 there is one C so that on every grid eval_u satisfies the equations of the fourth order scheme with the derivatives of sym.py up to C/N^4 at every inner node. The program itself prints the heading for 16 and stops with a TypeError, because PolarFD() takes five arguments. scripts/zmethod/interp_test.py prints nothing and stops with a TypeError; so it does with five arguments for every R0 below 2.3, because create_v_interp returns nothing; it finishes for no choice of arguments. scripts/apply_helmholtz.py prints 1/r + k^2 r and the unit vector (x,y)/|(x,y)|.", "quantifier": "all radii and angles, all rings, all grids and inner nodes, all interpolation routines, all arguments", "why_tests_cant": "the test programs stop before they measure anything; that the scheme is consistent with this solution at every node of every grid is a statement about infinitely many grids", "anchors": ["scripts/polarfd/sym.py:1-36", "scripts/polarfd/test.py:1-95", "scripts/zmethod/interp_test.py:1-64", "scripts/apply_helmholtz.py:1-21", "ps/polarfd.py:7-35", "ps/polarfd.py:198-237", "ps/zmethod.py:296-342"]}
{"id": "C108", "title": "The batch program starts one run for every pair, into files whose directory exists", "statement": "For all names of characters without special meaning to the shell, the line that the worker of scripts/multirun.py gives to the shell runs runz.py with the problem, the boundary, -c and 1024, and sends its output to the file of the boundary in the very directory that os.mkdir was called with for the problem (the escaped and the plain spelling of the path agree). If the program gets to the runs, there is one line for every pair of a problem and a boundary, and the directory of every output file exists, unless another file stands at its place. With the shipped lists: if the directory of the problem exists nothing is printed and five runs start; if only its parent exists, it is made and named once and five runs start; if neither exists, nothing is printed and nothing runs. The five boundaries are those of the table, each once, and the five files differ. Each run is accepted by the parser with N = 16, order 4 and no flags, solves on the grids 16, 32, ..., 1024 and prints its report to the end, if the Bessel functions used as divisors do not vanish and, for cubic, no node lies on the curve; for arc without further assumptions.", "quantifier": "all names, all lists of names, all file systems, all hash orders and library routines", "why_tests_cant": "a test would run five convergence studies on one computer with one home directory; the two spellings of the path agree only through the rules of the shell", "anchors": ["scripts/multirun.py:10-39", "runz.py:17-28"]}
{"id": "C109", "title": "The code generators print the right derivatives, and the shipped formulas are what they print", "statement": "scripts/codegen/chebyshev_derivs.py prints the derivatives of cos(J acos t) of the orders 1 to 5, and for every degree the functions of chebyshev.py equal them inside of (-1, 1). For every u with four derivatives on an open set, find_derivs of scripts/codegen/rhs_derivs.py prints the source f for which u solves the Helmholtz equation, and the gradient and Hessian of f; find_derivs_polar on the same function in polar coordinates prints the same source and the same five polar derivatives away from the origin. As the comment of the program says, SympyProblem provides the same: with the printed polar source its source, polar derivatives, gradient and Hessian agree with the printed ones away from the origin. On the exact solutions of the shipped smooth problems the printed sources are those of problems/smooth.py: the expression (k^2-1) r sin(th) cos(r cos(th)) for y cos x, and zero for the other two.", "quantifier": "all degrees, all arguments, all functions with four derivatives, all wave numbers", "why_tests_cant": "the generators have no tests; that two ways of computing a Hessian agree for every function is not a statement about finitely many inputs", "anchors": ["scripts/codegen/chebyshev_derivs.py:1-14", "scripts/codegen/rhs_derivs.py:1-64", "chebyshev.py:13-37", "problems/smooth.py:94-99", "problems/sympy_problem.py:51-155"]}
{"id": "C110", "title": "No Bessel function the programs divide by is zero", "statement": "With the shipped radius 2.3 and angle pi/4 (nu = 4/7) and the wave numbers 6.75 and 10.75, the Bessel function of order m nu does not vanish at k R, for any m. Hence, for every routine jv with a relative error below one at these points: runz.py runs to its last line for every accepted command line with N in a window and a problem that is not smooth (for cubic if no node lies on the curve), and so do the runs of multirun.py; b_to_a of abcoef.py divides by zero for no list of coefficients and is inverse to a_to_b; SingularKnown with the exact function takes every sine series of at most 300 terms as datum on the arc, vanishes on the sides and solves the Helmholtz equation.", "quantifier": "all orders m, all accepted command lines, all lists of coefficients, all sine series, all routines jv of relative error below one", "why_tests_cant": "a test evaluates floating point approximations of finitely many Bessel functions, and a small value is not a proof that the function is not zero", "anchors": ["abcoef.py:38-56", "ps/ps.py:139-163", "problems/singular.py:29-53", "problems/sing_ihz.py:92-121", "runz.py:49-131"]}
{"id": "C111", "title": "The drawing and printing functions that no program calls: four cannot finish, one is correct", "statement": "Every attribute that a method of PizzaSolver reads from self is one of the solver's, except plot_Gamma, read by color_plot. color_plot never returns: with a solution it draws nothing and stops with NameError (matrices is not imported); without, it stops with NumPy's error or draws the expected values at the inner nodes and stops with AttributeError. plot_Mplus of plot_domain.py draws the outline and its two continuations (100 points of the continued curve each, over a quarter of the angle, meeting the ends of the sides) and stops with AttributeError; plot_Mplus and plot_gamma of plot_domain2.py draw nothing and stop with TypeError. print_c1 prints for each segment its number, the size of its basis and coefficients that together are the real parts of all coefficients in order, each within half a hundredth and with two decimals.", "quantifier": "all solvers, all hash orders, all sets of nodes, all exact solutions, all conversions to float, all basis sizes and coefficient lists", "why_tests_cant": "no test and no program calls these functions", "anchors": ["ps/debug.py:20-41", "ps/debug.py:181-195", "ps/debug.py:271-301", "scripts/plot_domain.py:32-81", "scripts/plot_domain2.py:30-94"]}
{"id": "C112", "title": "When the linear system of the polar finite-difference solver has exactly one solution", "statement": "The system built by ps/polarfd.py has exactly one solution for all boundary values and sources if and only if the homogeneous compact scheme with zero boundary values has only the zero solution, and that holds if and only if for none of the N-1 angular modes the three-term recurrence along the radius has a nonzero solution vanishing at both ends. On every grid that keeps away from the vertex this fails for finitely many wave numbers at most. For the shipped wedge, the inner radius 1/10, the five outer radii and the two wave numbers of the singular problems it holds on the grids of 1, 2, 4, 8, 16, 32 and 64 cells; so a linear solver that returns the solution of every system with exactly one solution makes the array v of runz.py satisfy the boundary conditions and the scheme there.", "quantifier": "all grids, wave numbers, boundary values and sources; for the last part all data, five outer radii, two wave numbers, seven grids, all boundary names", "why_tests_cant": "a test sees one right-hand side, one grid and one solver; singularity for a wave number near a used one would show as a large error only", "anchors": ["ps/polarfd.py:44-237", "ps/zmethod.py:64-128", "ps/zmethod.py:212-241"]}
{"id": "C113", "title": "How far the solution of the polar finite-difference solver is from the solution of the differential equation", "statement": "If the compact polar scheme is stable with constants kappa (for the right-hand side) and kappa' (for the values on the two circles), then the array that ps/polarfd.py computes differs at every inner node from a smooth solution of the Helmholtz equation with the same source and ray data by at most kappa times the fourth-order truncation bound of C49 plus kappa' times the error of the data on the circles. For the shipped wedge, inner radius, five outer radii, two wave numbers and the grids of 1, 2, 4, ..., 64 cells the scheme and each of its first seven angular modes are stable with the explicit constants of two tables. Hence the error of v that runz.py prints on 8 to 64 cells for its three problems is at most a tabulated constant times the truncation error plus a tabulated constant times the error of the first seven sine coefficients of the data used on the two circles.", "quantifier": "all grids, sources, solutions and data for the first part; all data, five outer radii, two wave numbers, seven grids for the second; all runs of runz.py on 8 to 64 cells for the third", "why_tests_cant": "an observed error for one solution does not bound the error for another one, and the observed order on a few grids says nothing about the constant", "anchors": ["ps/polarfd.py:44-237", "ps/zmethod.py:64-128", "ps/zmethod.py:152-241"]}
{"id": "C114", "title": "Attributes and constructors of the classes are found where they are expected", "statement": "For every sequence of class statements with distinct names: each class that gets defined has an order of resolution that begins with the class, has every ancestor exactly once, keeps the order of its bases and the orders of all its ancestors; a class statement with defined bases fails exactly if no such order exists; and the definition found for an attribute is never hidden by a more derived class that also defines it. For the 35 classes of the repository: the orders themselves; of the eight classes of a PizzaSolver no two define the same name except __init__ and get_polar, so that the order of its six bases does not matter for any other name and get_polar is the one of PizzaSolver with super() the one of Solver; a PizzaSolver is constructed from exactly one argument and then the constructors of PizzaSolver, Solver and PsBasis run, the last only through super().__init__() in Solver; for all keyword arguments which constructors of the problems run; of all calls of classes exactly the two calls of PolarFD in scripts/ are a TypeError; which of the mutually recursive default evaluations each problem overrides; exchanging the bases of Smooth_YCos would leave its source undefined.", "quantifier": "all tables of classes, all attribute names, all permutations of the bases of PizzaSolver, all arguments of the constructors", "why_tests_cant": "a run shows the lookups it makes, for one order of the bases; it does not show that no name is defined twice, or that another order of bases would have changed nothing", "anchors": ["ps/ps.py:24-28", "ps/ps.py:110-117", "solver.py:13-25", "ps/basis.py:17-24", "problems/sympy_problem.py:21-46", "problems/smooth.py:87-99", "problems/problem.py:6-56", "problems/singular.py:13-40", "problems/sing_ihz.py:63-245", "ps/zmethod.py:202-207", "ps/zmethod.py:363-394"]}
{"id": "C115", "title": "The programs never end in AttributeError", "statement": "Every function of the solver, the problems, the boundaries, the z-method and nine programs is reduced to the attributes it reads and assigns, the methods it calls and the control flow between them. For run.py, c0_basis.py, optimize_basis.py, extend_basis_test.py, test_extend_f.py, plot_domain.py and plot_domain2.py with any of the three smooth problems, for runz.py with any of the three problems of the z-method, and for extension_test.py with smooth-sine and smooth-ycos, each with any of the five boundaries: whatever branches are taken, however often loops run and however deep calls are nested, no execution ends in AttributeError. Such executions exist and leave the unknowns and the solution behind. Missing attributes are found: Smooth_E.get_grad before eval_expected ends in AttributeError for kx in every execution and after it in none; with a smooth problem the z-method ends in AttributeError for problem.g in every execution of do_algebra, and runz.py gets there; solve_var or extend_boundary before calc_c0 end in AttributeError for c0, extend_boundary after calc_c0 but before solve_var for c1. No assignment hides a method that touches attributes, and none changes homogeneous. The classes, names and orders are those of C114.", "quantifier": "all executions: all branches, all numbers of rounds of loops, all depths of calls, all attributes present at the start; all problems and boundaries named", "why_tests_cant": "a run takes one path; an attribute that is assigned on another path only, or by a call that some other order of calls omits, is found only when that path is taken", "anchors": ["run.py:1-102", "runz.py:1-139", "solver.py:13-152", "ps/ps.py:24-257", "ps/basis.py:9-135", "ps/grid.py:4-264", "ps/extend.py:24-434", "ps/inhomo.py:8-456", "ps/debug.py:12-301", "ps/zmethod.py:23-424", "ps/polarfd.py:7-260", "ps/multivalue.py:3-149", "fourier.py:6-88", "problems/problem.py:6-101", "problems/smooth.py:10-105", "problems/sing_ihz.py:63-245", "problems/sympy_problem.py:8-155", "problems/boundary.py:8-199", "io_util.py:42-76", "scripts/extension_test.py:45-98"]}
{"id": "C116", "title": "Names are bound before they are read", "statement": "All 257 functions and methods (nested functions and lambdas included) and the module-level code of all 59 files are reduced to the names each statement reads and binds and the control flow. 246 functions read no unbound local variable and no unbound module-level name in any execution, whatever their arguments, whichever way tests go and however often loops run. The other eleven do so exactly when a parameter is outside its range: order other than 2 and 4 in calc_eigenvals; sid outside 0, 1, 2 in eval_d_u_outwards, get_span_center and do_extend_taylor; radius_sid other than 1 and 2 in _extend_inhomo_12_r, _extend_inhomo_0_lr and _extend_inhomo_radius; basis_index other than 0 and 1 in _ext_calc_xi_derivs; a sid or etype out of range in extend_f; a letter other than m and k in plot_allMK; and color_plot with any u, because ps/debug.py:283 reads matrices, which is not imported. No module reads an unbound name while it is executed, except that optimize_basis.py:80 can read min_t when no error is below infinity. Once a module has been executed its functions find the module-level names they need, except in seven programs that are not made to be imported (extension_test.py and others).", "quantifier": "all executions: all outcomes of tests, all numbers of rounds of loops, all sequences of calls, all values of the parameters, all sets of further names bound", "why_tests_cant": "an unbound name shows only on the path that leaves it out; the repository's test reaches none of these functions, and nothing calls color_plot", "anchors": ["fourier.py:19-47", "problems/smooth.py:33-52", "ps/basis.py:53-66", "ps/debug.py:197-301", "ps/extend.py:88-146", "ps/extend.py:173-237", "ps/inhomo.py:27-93", "ps/inhomo.py:95-173", "ps/inhomo.py:208-312", "ps/inhomo.py:377-391", "scripts/plot_domain.py:83-112", "scripts/optimize_basis.py:72-80", "scripts/extension_test.py:45-98", "scripts/abcoef/generate_data2.py:21-64", "ps/zmethod.py:28-424", "ps/ode.py:14-67"]}
{"id": "C117", "title": "Arguments fit parameters, and keys read from kwargs are there", "statement": "The interpreter's matching of arguments with parameters succeeds exactly if the arguments fit (not too many positional ones, no keyword repeated, every keyword names a parameter still free or is taken by **kwargs, every parameter without default gets one), and then gives each parameter what the call says; for all signatures and arguments. Of the 486 calls in the repository that reach one of its 281 functions and methods, 483 fit in every chain of calls, whatever the values; three never do: plot_domain2.py:58 and :77 call plot_Gamma without sid, and polarfd/test.py:67 passes twelve arguments to PolarFD.solve, which takes nine. In every chain of calls, of any length, the six functions that read keys from their kwargs (extend_polar, extend_arbitrary, inhomo_extend_polar, inhomo_extend_arbitrary, extend_radius, _ext_calc_xi_derivs) find all of them there, although kwargs are passed on, taken apart and added to on the way. get_deriv_name gives different names for different orders and indices, and the dictionaries of derivatives have every key that do_extend_0 and extend_radius read, with the value computed for it.", "quantifier": "all signatures and arguments; all chains of calls; all values of arguments; all orders and indices of derivatives", "why_tests_cant": "a wrong argument list or a missing key shows only when that call is made, and several of these calls are made only for particular geometries, command lines or scripts", "anchors": ["extend.py:10-58", "extend.py:60-109", "extend.py:111-143", "extend.py:145-159", "ps/extend.py:15-21", "ps/extend.py:73-86", "ps/extend.py:88-152", "ps/extend.py:173-237", "ps/extend.py:239-261", "ps/extend.py:303-366", "ps/extend.py:368-434", "ps/inhomo.py:159-166", "ps/inhomo.py:189-205", "scripts/plot_domain2.py:58-77", "scripts/polarfd/test.py:66-68", "ps/polarfd.py:198-200"]}
{"id": "C118", "title": "Segment numbers, orders and basis indices stay in their ranges", "statement": "For every parameter on which the eleven functions of C116 depend, for the functions with assert sid == 2, for get_M and get_etype, and for every parameter, attribute or result these are copied from, the set of values they take in the programs of the repository is determined exactly: 2 and 4 for the order of the scheme, 0, 1, 2 for segments, 1, 2 for radius_sid, 2 for get_radius_point, dist_to_radius and signed_dist_to_radius, 0 and 1 for basis_index where it is looked at. So none of the eleven functions reads an unbound name: nine are called only with values in their range, extend_f gets a segment from _extend_f_get_sid and a member of EType from get_etype each time, and color_plot is never called. The assertions sid == 2 hold, get_M and get_etype do not return None. get_sid may return None, but eval_dn_B_arg lets only the segment number of a basis function through to get_span_center. The places considered are all the calls of these functions in the repository.", "quantifier": "all sequences of steps by which a value gets to a parameter; all executions of the eleven functions with such values", "why_tests_cant": "the values come through up to nine functions and from several programs, and the failure shows only for a value outside the range", "anchors": ["fourier.py:13-47", "io_util.py:31-34", "domain_util.py:64-76", "ps/basis.py:37-48", "ps/basis.py:53-86", "ps/basis.py:91-135", "ps/debug.py:20-83", "ps/debug.py:87-106", "ps/debug.py:132-147", "ps/extend.py:28-71", "ps/extend.py:88-142", "ps/extend.py:154-237", "ps/extend.py:278-434", "ps/inhomo.py:10-93", "ps/inhomo.py:95-130", "ps/inhomo.py:320-324", "ps/inhomo.py:377-409", "ps/ps.py:18-22", "ps/ps.py:35-55", "ps/ps.py:79-106", "ps/ps.py:164-198", "scripts/plot_domain.py:205-213", "scripts/extend_basis_test.py:43-56"]}
{"id": "C119", "title": "Functions that are stored or passed get as many arguments as they take", "statement": "At each of the 110 calls of a parameter, local variable or attribute that holds a function (callbacks of the root finder and the ODE solver, boundary data given to the polar solver, functions made by lambdify and my_lambdify, lambdas, bound methods of the problems, the interpolation function), the call goes through whichever function has been put there along any chain of assignments and argument passing, and whatever the arguments are: all arguments go to parameters, in their order. No other number of arguments would do, except for the two interp2d objects. Every such variable has a function put into it. There is one exception, scripts/zmethod/interp_test.py:52, which calls None. What the z-method takes for the boundary data of a segment is the method for that segment (on the polar solver's arc a function of its own), and what it makes from expressions is always the function of my_lambdify. The functions that reach a parameter are those of all calls of its function in the repository, and no lambda of the repository is left out.", "quantifier": "all chains of assignments and argument passing by which a function gets to a variable; all calls of these variables; all values of the arguments", "why_tests_cant": "a test reaches a callback with one program, one problem class and one set of options; the functions come from several classes and programs, through up to four variables", "anchors": ["abcoef.py:11-24", "chebyshev.py:30-37", "fourier.py:91-96", "problems/boundary.py:40-110", "problems/boundary.py:126-151", "problems/sing_ihz.py:140-154", "problems/sing_ihz.py:159-190", "problems/sing_ihz.py:225-245", "problems/singular.py:30-37", "problems/sympy_problem.py:29-73", "ps/basis.py:91-128", "ps/debug.py:97-101", "ps/inhomo.py:194-203", "ps/inhomo.py:284-312", "ps/extend.py:244-250", "ps/ode.py:21-65", "ps/polarfd.py:55-101", "ps/polarfd.py:173-176", "ps/polarfd.py:198-213", "ps/ps.py:55-57", "ps/ps.py:148-153", "ps/zmethod.py:101-131", "ps/zmethod.py:166-226", "ps/zmethod.py:255-293", "ps/zmethod.py:336-342", "ps/zmethod.py:350-392", "scripts/multirun.py:39-39", "scripts/optimize_basis.py:70-70", "scripts/zmethod/interp_test.py:46-52", "scripts/polarfd/test.py:18-19"]}
{"id": "C120", "title": "Solving on one grid leaves the problem and the boundary as they were for the next", "statement": "Once run.py or one of five scripts has made its smooth problem and its boundary, whatever it does then, with however many grids, branches and nested calls, and also if it ends in an error: every attribute of the boundary keeps its value, and so does every attribute of the problem except M (and kx, ky for Smooth_E), which really are assigned. M is never looked up on the problem. In runz.py the boundary and the problem of the program keep every attribute.", "quantifier": "all executions of the six programs and runz.py after their set-up, for all smooth problems (runz.py: all problems of the z-method), all five boundaries, all numbers of grids, all branches, all values of the attributes", "why_tests_cant": "a test sees the state after one run of one problem on a few grids; a stray assignment deep in a solver, on a branch not taken, would make the order of convergence of later grids depend on earlier ones without any error", "anchors": ["run.py:62-102", "runz.py:69-139", "ps/ps.py:22-60", "ps/zmethod.py:28-60", "ps/zmethod.py:364-420", "problems/smooth.py:66-84", "problems/problem.py:10-60", "problems/boundary.py:12-110", "scripts/c0_basis.py:1-40", "scripts/optimize_basis.py:52-61", "scripts/extend_basis_test.py:1-60", "scripts/extension_test.py:45-98", "scripts/test_extend_f.py:42-61"]}
{"id": "C121", "title": "A grid of a convergence test uses nothing that earlier grids left behind", "statement": "Every execution of run.py, and of runz.py, is a set-up in which no solver (ZMethod) is made, followed by one part per grid that begins with making it. In every part, each attribute that is looked up is one of a class, or one that the set-up assigned to the problem or the boundary and that no grid assigns, or one assigned earlier in the same part to the object as it then is. From any two states that differ only in what grids leave behind, the same events are possible on the next grid.", "quantifier": "all executions of run.py with all smooth problems, of runz.py with all problems of the z-method, all boundaries, all numbers of grids, all branches, all depths of calls", "why_tests_cant": "a stale attribute gives plausible numbers on the second grid; only all paths through all functions of a run show that there is none", "anchors": ["run.py:43-102", "runz.py:49-137", "solver.py:21-26", "ps/ps.py:27-59", "ps/ps.py:217-257", "ps/zmethod.py:28-60", "ps/zmethod.py:364-424", "problems/problem.py:58-101"]}
