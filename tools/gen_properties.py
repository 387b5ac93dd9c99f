"""Writes ../properties.jsonl (one JSON object per line)."""
import json, os
P = []
def p(id, title, statement, quantifier, why, *anchors):
    P.append(dict(id=id, title=title, statement=statement, quantifier=quantifier,
                  why_tests_cant=why, anchors=list(anchors)))

p("C01","Cartesian to polar conversion is exact and canonical",
  "cart_to_polar(x,y) returns (r,th) with r >= 0, 0 < th <= 2*pi, r*cos(th)=x and r*sin(th)=y; for (x,y) != (0,0) it is the only such pair.",
  "every real x and y","tests sample a few points; the branch cut and all quadrants/axes form a continuum",
  "domain_util.py:cart_to_polar")
p("C02","Solver polar angles live in one window around the domain",
  "PizzaSolver.get_polar(i,j) names the same physical point as get_coord(i,j), and its angle lies in [a/2, 2*pi + a/2), for every grid node.",
  "every grid size N, node (i,j), wedge angle 0<a<=pi and auxiliary side length","window/branch bugs show up only at particular nodes of particular grids",
  "ps/ps.py:PizzaSolver.get_polar","solver.py:Solver.get_polar")
p("C03","Both segment parametrisations name the same physical boundary point",
  "arg_to_polar and arg_to_polar_abs give polar coordinates of one and the same Cartesian point for every segment id and every argument (also negative, i.e. past the corner); arg_to_polar_abs never returns a negative radius on segments 1 and 2.",
  "every segment id in {0,1,2}, every real argument, every a and boundary","continuum of arguments including both signs",
  "domain_util.py:arg_to_polar","domain_util.py:arg_to_polar_abs")
p("C04","wrap_func is a one-shot normalisation",
  "wrap_func maps a boundary argument to a non-negative argument (segments 1,2) or to an argument >= a/2 (segment 0, for arguments >= a/2 - 2*pi), applying it twice equals applying it once, and it leaves already-normal arguments alone.",
  "every real argument and segment id","needs all reals on both sides of both thresholds",
  "domain_util.py:wrap_func")
p("C05","Segment id from polar angle agrees with the geometry",
  "For every point sampled from the three boundary segments by get_boundary_sample, get_sid(cart_to_polar(point)) returns the segment the point was sampled from; angles strictly inside the removed wedge (below a - 1e-12) get no segment id at all.",
  "every sample size, every boundary curve, every wedge angle in range","sample density and boundary are unbounded parameters",
  "domain_util.py:get_sid","ps/debug.py:get_boundary_sample_by_sid")
p("C06","Grid coordinates are invertible and nested",
  "get_coord_inv inverts get_coord in both directions; node (i,j) on the N-grid is the same point as node (2i,2j) on the 2N-grid; nodes 0 and N lie on the edges of the auxiliary square and node spacing is AD_len/N.",
  "every N>=1, all nodes and all real coordinates","all grid sizes and nodes",
  "solver.py:Solver.get_coord","solver.py:Solver.get_coord_inv")
p("C07","Interior test equals the closed reentrant-corner domain",
  "is_interior(i,j) is true exactly when the node's point can be written rho*(cos t, sin t) with a <= t <= 2*pi and 0 <= rho <= boundary radius at t (both sides and the outer curve included).",
  "every grid, node, wedge angle and boundary with positive radius","continuum of geometries; edge-inclusion errors only appear on nodes that hit the boundary exactly",
  "ps/ps.py:PizzaSolver.is_interior")
p("C08","Foot point and signed distance for segment 2",
  "get_radius_point(2,x,y) is the orthogonal projection of (x,y) on the line through the origin at angle a, dist_to_radius is the Euclidean distance to that line, and signed_dist_to_radius equals x*sin(a) - y*cos(a): positive exactly on the wedge (outside) side, so (x,y) = foot + n*(sin a, -cos a).",
  "every point and every wedge angle 0<a<pi, including a = pi/2","continuum; the tan(a) branch and the a=pi/2 branch differ",
  "ps/ps.py:get_radius_point","ps/ps.py:dist_to_radius","ps/ps.py:signed_dist_to_radius")
p("C09","Interior and exterior node sets partition the grid",
  "After construct_grids, M0 is exactly the set of interior auxiliary nodes, global_Mplus and global_Mminus are disjoint and together equal M0, and a node is in global_Mplus exactly when is_interior says so.",
  "every N, every interior predicate","all predicates and sizes","solver.py:Solver.construct_grids")
p("C10","Discrete boundary separates inside from outside",
  "Nplus/Nminus are exactly the nodes reached by the scheme stencil from Mplus/Mminus; every node read when the operator is applied at a Mplus (Mminus) node is in Nplus (Nminus); union_gamma is exactly Nplus & Nminus without duplicates.",
  "every N, interior predicate and scheme order","all predicates and sizes","ps/grid.py:ps_construct_grids")
p("C11","Discrete boundary indexing is in range",
  "If every interior node has indices in 2..N-2 (which holds whenever the domain radius stays below AD_len/2 - h), then every node of union_gamma is a node of M0, so get_potential and get_trace never raise IndexError and never wrap to a negative index. Without that margin a gamma node with index 0 silently writes to the opposite edge of the array and one with index N raises IndexError.",
  "every N, domain and extension array","negative-index wraparound is silent; needs all domains",
  "ps/ps.py:get_potential","ps/ps.py:get_trace","ps/grid.py:ps_construct_grids")
p("C12","Every discrete-boundary node is attached to a segment",
  "ps_construct_grids puts a node in all_gamma[sid] exactly when its distance to that segment is at most h*sqrt(2), every all_gamma list is contained in union_gamma without duplicates, and construction either raises AssertionError or every union_gamma node is in at least one list. For the circular arc boundary the assertion can never fire.",
  "every N, wedge angle, boundary, set iteration order","all grids and hash orders","ps/grid.py:ps_construct_grids")
p("C13","Fourier operator equals the finite-difference operator",
  "APSolver.apply_L(v) equals linop.apply_L of v padded with a zero frame, entry by entry, for scheme orders 2 and 4 (exact arithmetic).",
  "every N>=2, every complex grid function, every k and AD_len>0, both orders","infinitely many grid functions and sizes",
  "fourier.py:APSolver","linop.py:apply_L")
p("C14","The auxiliary problem solver inverts the operator",
  "If no eigenvalue is zero then solve(apply_L(v)) = v and apply_L(solve(g)) = g, and solve(g) is the only zero-boundary grid function whose finite-difference image is g.",
  "every N>=2, g, k, AD_len, order","all right-hand sides and sizes","fourier.py:APSolver.solve","fourier.py:APSolver.apply_L")
p("C15","Resonance is exactly a vanishing eigenvalue",
  "If some eigenvalue computed by calc_eigenvals is zero then there is a non-zero grid function with zero boundary values that apply_L sends to zero (so the auxiliary problem has no unique solution and solve divides by zero); eigenvalues are symmetric in their two indices; for k=0 every eigenvalue is negative, so solve is always valid.",
  "every N, k, AD_len, order","spectral statement over all sizes","fourier.py:APSolver.calc_eigenvals")
p("C16","Fourth-order compact scheme is fourth-order consistent",
  "linop.apply_L (order 4) applied to grid samples of u equals apply_B applied to samples of u_xx+u_yy+k^2 u exactly whenever u is a polynomial of total degree at most 5, and for every six-times differentiable u the difference is bounded by a constant times h^4.",
  "every polynomial/smooth u, every h, k, node","order of accuracy is a limit statement over all h","linop.py:apply_L","linop.py:apply_B")
p("C17","Second-order scheme is second-order consistent",
  "linop.apply_L with order 2 applied to samples of u equals u_xx+u_yy+k^2 u at the node exactly whenever u is a polynomial of degree at most 3, with an O(h^2) error for smooth u.",
  "every polynomial/smooth u, h, k, node","order of accuracy is a limit statement","linop.py:apply_L")
p("C18","Arc sine transform recovers sine-series coefficients",
  "For func(th) = sum_{m<=n} b_m sin(m nu (th-a)) with n <= N, arc_dst(a, func, N) returns b_1..b_n followed by zeros.",
  "every N, n<=N, coefficient list, wedge angle with nu = pi/(2pi-a)","all coefficient vectors and sizes","fourier.py:arc_dst")
p("C19","Returned solution satisfies the discrete equation at every interior node",
  "The array u_act returned by PizzaSolver.run satisfies, at every node of global_Mplus, linop.apply_L(u_act) = apply_B(f), whatever the boundary data, basis coefficients, extension values and least-squares result were, as long as no eigenvalue is zero.",
  "every problem, grid, boundary data, basis size and lstsq outcome","must hold for arbitrary intermediate data","ps/ps.py:PizzaSolver.run","ps/ps.py:get_potential","ps/ps.py:calc_ap_sol_f")
p("C20","Boundary projection is idempotent",
  "The operator ext -> get_trace(get_potential(ext)) is linear and applying it twice equals applying it once; two grid functions with the same trace on union_gamma have the same potential on Nplus.",
  "every extension vector, grid, interior predicate","all vectors and domains","ps/ps.py:get_potential","ps/ps.py:get_trace")
p("C21","Difference potential reproduces discrete solutions",
  "A vector on union_gamma is the trace of some grid function on Nplus that satisfies the homogeneous scheme at every Mplus node if and only if get_trace(get_potential(ext)) = ext; and then get_potential(ext) restricted to Nplus is that grid function (it is unique).",
  "every grid function, domain, grid","all grid functions/domains","ps/ps.py:get_potential","ps/ps.py:get_Q")
p("C22","Extension of boundary data is the superposition of basis extensions",
  "For all coefficient vectors c0, c1: extend_boundary(homogeneous_only) = sum_JJ c0[JJ]*extend_basis(JJ,0) + sum_JJ c1[JJ]*extend_basis(JJ,1), at every discrete-boundary node.",
  "every coefficient vector, basis size, grid, boundary","scripts/extend_basis_test.py checks unit vectors on one grid only","ps/extend.py:mv_extend_boundary","ps/basis.py:extend_basis")
p("C23","Variational residual is the projection defect of the final extension",
  "For the matrices of get_var and any c1, Q1*c1 - rhs equals get_trace(get_potential(ext)+ap_sol_f) - ext where ext = extend_boundary() built from c0 and that c1; hence a zero residual means the final extension is a fixed point of the inhomogeneous projection and run's u_act has exactly ext as its trace.",
  "every c1, problem, grid","all coefficient vectors","ps/ps.py:get_var","ps/ps.py:get_Q","ps/ps.py:run")
p("C24","Set iteration order does not influence the solution",
  "get_potential is unchanged when union_gamma is enumerated in another order and the extension vector is permuted accordingly; zeroing over global_Mminus does not depend on iteration order; get_trace is permuted accordingly.",
  "every enumeration of the node sets","hash-order schedules cannot be enumerated by tests","ps/ps.py:get_potential","ps/grid.py:ps_construct_grids")
p("C25","Right-hand side uses only genuine source values",
  "For scheme order 4 the value apply_B(f) at a Mplus node reads f only at nodes of Kplus, i.e. interior nodes and nodes filled by extend_f. For scheme order 2 the code still applies apply_B but extends nothing, so the right-hand side at interior nodes next to the boundary mixes in zero fill (property false there).",
  "every f, grid, domain","needs all grids; order 2 silently wrong","ps/ps.py:calc_ap_sol_f","linop.py:apply_B","solver.py:construct_grids","solver.py:setup_f")
p("C26","Source extension is well defined and second-order exact",
  "extend_f never divides by zero (the direction from the boundary foot point to the node is never the zero vector), writes exactly the nodes of Kplus - global_Mplus unless it aborts, and reproduces f exactly whenever f is a polynomial of degree at most 2.",
  "every grid, boundary through the corners, quadratic f","continuum of geometries","ps/inhomo.py:extend_f","ps/inhomo.py:_extend_f_get_sid")
p("C27","Equation-based extension is the Taylor polynomial of the true solution",
  "If u solves the Helmholtz equation near a boundary curve with curvature curv, then extend_arbitrary fed with the Cauchy data of u returns exactly the degree-4 Taylor polynomial of u in the normal distance n; the error is O(|n|^5).",
  "every solution, every smooth curve, every n","all solutions/curves","extend.py:extend_arbitrary")
p("C28","Inhomogeneous extension is the Taylor polynomial of the particular solution",
  "If u solves the inhomogeneous Helmholtz equation with source f and zero Cauchy data on the curve, inhomo_extend_arbitrary returns exactly the degree-4 Taylor polynomial of u in n.",
  "every source and smooth curve","all sources/curves","extend.py:inhomo_extend_arbitrary")
p("C29","Arclength conversion of boundary derivatives is the chain rule",
  "extend_polar passes to extend_arbitrary the exact first, second and fourth arclength derivatives of the data and the first two of the curvature, for every reparametrisation th(s).",
  "every data function, reparametrisation and point","all functions","extend.py:extend_polar")
p("C30","Arclength conversion of the source's second derivative is the chain rule",
  "inhomo_extend_polar's d2_f_s is the second derivative of f(r(th(s)),th(s)) in s for every f, boundary curve and parametrisation.",
  "every f and curve","all functions","extend.py:inhomo_extend_polar")
p("C31","Straight-segment extension is the chain of normal derivatives of the plane solution",
  "On segments 1 and 2, for every u solving u_xx+u_yy+k^2u=0 in the plane, the standard extension fed with the trace and the outward normal derivative of u returns the degree-4 Taylor polynomial of u along the normal, with (n, argument) being the Cartesian foot-point coordinates of the node.",
  "every solution and node","all solutions","ps/extend.py:extend_radius","ps/extend.py:do_extend_1_standard","ps/extend.py:do_extend_2_standard")
p("C32","Corner (left/right) Taylor extension is consistent",
  "do_extend_taylor evaluates exactly the degree-4 Taylor polynomial (and its derivatives) of the boundary data at the displaced argument; it reproduces polynomial data of degree at most 4 exactly, and coincides with the standard extension when the displacement is zero.",
  "every data polynomial, displacement","continuum","ps/extend.py:do_extend_taylor")
p("C33","Homogeneous and inhomogeneous extensions always align",
  "mv_extend_boundary's final addition never hits the setype assertion or a missing entry: both operands list, at every node, the same (segment, etype) pairs in the same order.",
  "every grid, hash order, problem","all grids and orders","ps/extend.py:mv_extend_boundary","ps/inhomo.py:mv_extend_inhomo_f","ps/multivalue.py:__add__")
p("C34","Multivalue addition and reduction semantics",
  "Adding two aligned Multivalues adds values pointwise, keeps node set and setypes, is commutative and associative on values; misaligned setypes raise AssertionError, a shorter second operand raises IndexError, an unknown node raises KeyError; reduce returns the value (one entry) or the plain average (two entries) and raises AssertionError for zero or more than two entries; reduce is additive. (The docstring and test_reduce_mv1 claim a weighted average by elen: false of the code.)",
  "every Multivalue","arbitrary node lists and entries","ps/multivalue.py:Multivalue")
p("C35","At most two extension values per node",
  "If h*sqrt(2)*(1+1/sin(a/2)) is smaller than the minimal boundary radius, no node belongs to all three all_gamma lists, so reduce never fails on a constructed grid.",
  "every grid, boundary, wedge angle satisfying the inequality","continuum of geometries","ps/multivalue.py:reduce","ps/grid.py:ps_construct_grids")
p("C36","Chebyshev derivative formulas are correct",
  "eval_dn_T_t(n,J,t) equals the n-th derivative of the Chebyshev polynomial T_J at t for n=0..5, every degree J and every t in (-1,1).",
  "every degree J and every t","long generated formulas; continuum of t, all J","chebyshev.py:eval_dn_T_t")
p("C37","Chebyshev nodes are the ascending roots",
  "get_chebyshev_roots(J) has length J, is strictly increasing, lies in (-1,1), and consists exactly of the roots of T_J.",
  "every J>=1","all J","chebyshev.py:get_chebyshev_roots")
p("C38","Segment parametrisation stays inside (-1,1)",
  "eval_g and eval_g_inv are mutually inverse, and every argument on the physical segment (th in [a,2pi] or r in [0,R]) is mapped strictly inside (-1,1), so no basis derivative divides by zero there.",
  "every argument, eps>0, a, R","continuum","ps/basis.py:eval_g","ps/basis.py:eval_g_inv","ps/basis.py:get_span_center")
p("C39","Basis function derivatives",
  "eval_dn_B_arg(n,JJ,arg,sid) is the n-th derivative with respect to arg of eval_dn_B_arg(0,JJ,.,sid), n<=5, on the physical segment, and is identically 0 on the other segments.",
  "every basis index, order, argument","continuum","ps/basis.py:eval_dn_B_arg")
p("C40","Basis layout bookkeeping",
  "After setup_basis(n_circle,n_radius): B_desc has n_circle+2*n_radius entries, JJ_list of the three segments are consecutive ranges that partition 0..len(B_desc)-1, and entry JJ of B_desc holds the segment and the degree given by its position in that range; calc_c0 returns one coefficient per entry in the same order.",
  "every n_circle, n_radius","all sizes","ps/basis.py:setup_basis","ps/basis.py:calc_c0")
p("C41","Chebyshev fit is exact on the basis span",
  "If the Dirichlet data on a segment is a combination of that segment's basis functions (n_basis <= 1024) then the coefficients returned by get_chebyshev_coef are exactly that combination (for any least-squares minimiser).",
  "every data in the span, every n_basis <= 1024","all coefficient vectors","ps/basis.py:get_chebyshev_coef")
p("C42","Shipped boundary curves are admissible",
  "Each shipped boundary has positive radius on [a,2pi], passes through both wedge corners (radius R at a and 2pi), and stays within R+bet, so the domain is enclosed by the polar grid's outer arc used by ZMethod and fits in the auxiliary square.",
  "every angle, each shipped boundary","continuum of angles","problems/boundary.py:Arc","problems/boundary.py:OuterSine","problems/boundary.py:InnerSine","problems/boundary.py:Sine7","problems/boundary.py:Cubic","ps/zmethod.py:run")
p("C43","Angle-by-arclength derivatives",
  "eval_d_th_s .. eval_d4_th_s are the first four derivatives of the polar angle as a function of arclength, for every smooth positive radius function.",
  "every boundary, angle","all curves","problems/boundary.py:do_algebra")
p("C44","Curvature formula and sign",
  "eval_curv is the signed curvature of the polar curve with the sign convention used by the extension (negative where the outer boundary is convex; -1/R for the arc), i.e. the derivative of the outward unit normal along arclength is -curv times the tangent.",
  "every smooth positive radius function, angle","all curves","problems/boundary.py:do_algebra")
p("C45","Tangent and normal",
  "eval_tangent and eval_normal are orthonormal and eval_normal points away from the origin side of the boundary, for every boundary with positive radius.",
  "every boundary, angle","all curves","problems/boundary.py:eval_tangent","problems/boundary.py:eval_normal")
p("C46","Boundary coordinates reconstruct the point",
  "Whenever get_boundary_coord(r1,th1) returns (n,th0), the point (r1,th1) equals boundary(th0) + n * outward normal(th0) and |n| is the distance to boundary(th0); it returns None exactly when the root finder reports no sign change.",
  "every point, boundary and root-finder returning a root","continuum","problems/boundary.py:get_boundary_coord")
p("C47","Boundary coordinates on the arc",
  "For the arc boundary and every point with th1 in the solver's window and r1>0, get_boundary_coord succeeds and returns (r1-R, th1).",
  "every point","continuum","problems/boundary.py:get_boundary_coord")
p("C48","Polar finite-difference system is square with one equation per node",
  "PolarFD.solve builds exactly (N+1)^2 rows and (N+1)^2 columns; get_index is a bijection from 0..N x 0..N to 0..(N+1)^2-1; every boundary node gets exactly one Dirichlet row and every inner node exactly one scheme row; all column indices are in range.",
  "every N>=1","all N","ps/polarfd.py:PolarFD.solve")
p("C49","Polar scheme is a fourth-order consistent discretisation",
  "The nine coefficients and the right-hand side produced by set_fd4 are exactly those of the compact scheme obtained from the polar Helmholtz operator; for smooth u the local residual is O(hr^4 + hth^4).",
  "every node, step, k, u","limit statement, all u","ps/polarfd.py:set_fd4")
p("C50","Convergence comparison uses the same physical nodes",
  "calc_rel_convergence (Solver, PolarFD and Multivalue versions) only subtracts values that belong to the same physical point on the three nested grids, all indices are in range, and every common node of the coarser grids that is interior is used.",
  "every N divisible accordingly, every grid function","all N","solver.py:_array_calc_rel_convergence","ps/polarfd.py:calc_rel_convergence")
p("C51","Regularised source vanishes on the wedge sides",
  "The function f1 = f0 - H(q) built by ZMethod.do_algebra is zero at th=a and th=2*pi for every r>0 and every g; q itself and q_r vanish there.",
  "every g, r, k, a","symbolic identity over all g","ps/zmethod.py:do_algebra")
p("C52","Tapering function is a smooth monotone cut-off",
  "get_tapering_func(R) is 1 for r<=R0, 0 for r>=R, between 0 and 1 and non-increasing in r, and six times continuously differentiable.",
  "every r and R>R0","continuum","problems/sing_ihz.py:get_tapering_func")
p("C53","ODE solution is computed once per convergence run",
  "In runz, without z1cheat, the ODE solver is called exactly once (on the first grid) and the same coefficients are used on every later grid, for any list of grids; with z1cheat it is never called.",
  "every list of grid sizes","history property","runz.py","ps/zmethod.py:calc_z1_fourier")
p("C54","ODE right-hand side is the Fourier mode of the Helmholtz operator",
  "If the 2M components follow eval_deriv then each function Y_m(r) sin(m nu (th-a)) satisfies the polar Helmholtz equation with source f_m(r) sin(m nu (th-a)), and vanishes on both wedge sides; the returned slice is the M mode values in order.",
  "every M, mode, source, radius>0","all modes/functions","ps/ode.py:calc_z1_fourier")
p("C55","Interpolation data layout",
  "create_v_interp hands over, for every kept radius index and angle index, the value v[m,l] at flat position (kept index)*(N+1)+l, and the kept radii are exactly those >= rmin in increasing order.",
  "every N, rmin","all N","ps/zmethod.py:create_v_interp")
p("C56","Shipped smooth problems are consistent",
  "For smooth-sine, smooth-e and smooth-ycos: the expected solution satisfies u_xx+u_yy+k^2 u = f with the f the solver uses (0 for the homogeneous ones), get_grad is the gradient of the expected solution, and eval_bc is its trace on the boundary.",
  "every k, point","continuum","problems/smooth.py")
p("C57","Polar-to-Cartesian gradient and Hessian",
  "eval_grad_f_polar and eval_hessian_f_polar return the Cartesian gradient and Hessian of f from its polar derivatives at every point with r>0.",
  "every twice differentiable f, point","all functions","problems/sympy_problem.py")
p("C58","Source value at the origin",
  "eval_f at the origin is the second-order Taylor value from (-h,0). (False of the code: the gradient was already advanced to the origin, so quadratic terms are over-counted by h^2*f_xx; exact for affine f.)",
  "every source","hidden by h = AD_len/10000; only exposed by an exact statement","problems/sympy_problem.py:eval_f_polar")
p("C59","Basis-size lookup",
  "get_n_basis(N) returns the entry of the first of N, N//2, N//4, ... that is in the table; it terminates exactly when one of them is (for the shipped tables: N in [16*2^i, 17*2^i) or a later key's window), otherwise loops forever, e.g. for every N<16 and N=24.",
  "every N and table","termination over all N","problems/problem.py:get_n_basis")
p("C60","a/b coefficient conversion is invertible",
  "b_to_a(a_to_b(c)) = c and a_to_b(b_to_a(c)) = c for every coefficient list as long as no Bessel factor is zero; lengths are preserved.",
  "every list, k, R, nu","all lists","abcoef.py:a_to_b","abcoef.py:b_to_a")
p("C61","Singularity coefficients are exact on the model space",
  "If the boundary data on the outer curve is sum_{m<=m1} c_m J_{m nu}(k r) sin(m nu (th-a)) and the sampled system has full column rank, calc_a_coef returns exactly c_1..c_M for any least-squares minimiser, regardless of the rescaling of the higher columns.",
  "every coefficients, boundary, M<=m1","all coefficients","abcoef.py:calc_a_coef")
p("C62","Grid list of a convergence run",
  "get_N_list(N0,c) is [N0] without -c; otherwise, for N0>=1, it is exactly N0, 2*N0, 4*N0, ... up to c (empty if N0>c); for N0<=0<=c it never terminates.",
  "every N0 and c","termination/all inputs","run.py:get_N_list","runz.py:get_N_list")
p("C63","Reported convergence compares consecutive grids",
  "In run.py, the rate printed for the i-th grid is log2(error_{i-1}/error_i); the relative rate is printed exactly from the third grid on and is computed from the solutions on grids N, N/2 and N/4 in that order.",
  "every list of grid results","history property","run.py","runz.py")
p("C64","smooth-e gradient depends on call history",
  "Smooth_E.get_grad raises AttributeError unless eval_expected has been called before on the same object; after any such call it is the gradient of the expected solution.",
  "every call history","history property","problems/smooth.py:Smooth_E")
p("C65","Reported error is the exact maximum",
  "eval_error returns None when the expected solution is unknown and otherwise the maximum over all Mplus nodes of |expected - u_act| (attained, and an upper bound); it raises ValueError when there is no interior node.",
  "every grid, u_act","all grids","solver.py:eval_error")
p("C66","Hat and parabola boundary data",
  "eval_hat_x is even, lies in [0, 1/e], is zero exactly for |x| >= 1 up to the 1e-15 guard and never divides by zero; eval_hat_th maps [a,2pi] onto [-1,1] and vanishes at both corners; eval_parabola and eval_linesine vanish at both wedge corners.",
  "every argument","continuum","problems/functions.py")
with open(os.path.join(os.path.dirname(__file__), "..", "properties.jsonl"), "w") as fh:
    for q in P: fh.write(json.dumps(q) + "\n")
print(len(P))
