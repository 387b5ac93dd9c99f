C01 | `cart_to_polar` over ℝ with `hypot = sqrt(x²+y²)`, `atan2 y x = Complex.arg (x+iy)`; range from `Complex.arg_mem_Ioc`, round trip from `Complex.norm_mul_cos_arg`.
C02 | `get_polar` on top of C01; case split on the `th < a/2` branch.
C03 | both functions branch by branch, trig identities for π and π+a.
C04 | branch by branch, linear arithmetic.
C05 | `get_boundary_sample_by_sid` produces points; `cart_to_polar` of r(cos t, sin t) computed for t in (0,2π].
C06 | field arithmetic.
C07 | existence direction from C01/C02, uniqueness of polar angle in a 2π window for the other one; spec = plane region `Sector`.
C08 | tan/cos algebra plus the separate a = π/2 branch.
C09 | Finset model of `construct_grids` for an arbitrary interior predicate.
C10 | Finset model; stencil read-sets stated independently (`reads`), every neighbourhood.
C11 | Python index semantics `pyIdx` (negative wrap, IndexError) in `Except`; bound from grid margin; negative witness for the missing margin.
C12 | loop over an arbitrary enumeration in `Except`; Arc: closed-set/crossing argument along the segment between an interior and an exterior node.
C13 | DST-I as explicit sum; discrete sine orthogonality; trig addition identities per order.
C14 | from C13's diagonalisation: 2-D DST is an involution up to 4N².
C15 | eigenvector = product of sines; k=0 from cos<1.
C16 | polynomial exactness by ring identities on monomials; smooth case by 1-D Taylor remainder along axis and diagonal lines.
C17 | as C16.
C18 | 1-D discrete orthogonality from C13.
C19 | whole `run` pipeline in `Except`, least squares / chebfit as oracles; algebra of the projection.
C20 | linear algebra on grid functions, Green-operator argument (support of the cut function).
C21 | same argument, both directions.
C22 | full model of `mv_extend_boundary` (9 extension cases); linearity of every step, lists aligned.
C23 | C22 + linearity of potential/trace + additivity of reduce.
C24 | permutation argument on the fold.
C25 | read-set of `apply_B`; concrete counterexample for order 2.
C26 | geometry of `_extend_f_get_sid`; Taylor exactness on quadratics.
C27 | jets: family V i j of mixed partials; differentiate the curvilinear PDE twice in n; then derive the curvilinear PDE from the Cartesian one by the chain rule.
C28 | as C27 with source.
C29 | iterated chain rule with `HasDerivAt`.
C30 | chain rule with `HasFDerivAt`/`HasDerivAt`.
C31 | C27 with curvature 0 and Cartesian coordinates.
C32 | polynomial Taylor identity, binomial sums.
C33 | both Multivalue builders share the visiting loop; induction over the lists.
C34 | direct model with errors as values.
C35 | planar geometry: point near both radii is near the origin.
C36 | `HasDerivAt` of each generated formula, link with `Polynomial.Chebyshev.T`.
C37 | cosine strict monotonicity, `T_real_cos`.
C38 | field arithmetic.
C39 | C36 + affine chain rule.
C40 | computable list model, induction.
C41 | least squares oracle: minimiser of the residual; polynomial with too many roots is zero.
C42 | real inequalities per boundary.
C43 | derivative of inverse function, iterated.
C44 | derivative of the unit normal of a polar curve.
C45 | algebra.
C46 | root of the distance derivative gives orthogonality to the tangent, hence multiple of normal.
C47 | sin has a unique zero in the search interval.
C48 | computable list model of the triplet builder; counting and index bijection.
C49 | exact algebraic normal form of the scheme and residual bound.
C50 | index arithmetic + C06.
C51 | two-variable calculus with explicit derivative hypotheses.
C52 | derivative 12012 x⁶(1-x)⁶; ContDiff across joins.
C53 | state machine over the grid list.
C54 | derivative computation.
C55 | list model.
C56 | derivative computation.
C57 | chain rule from `HasFDerivAt` (first and second order).
C58 | model of the branch; negation witness and the exact affine case.
C59 | fuelled loop; termination characterised by existence of a halving in the table.
C60 | list model, Bessel factor as an arbitrary function.
C61 | least-squares oracle, injectivity.
C62 | fuelled loop, closed form.
C63 | state machine over the list of results.
C64 | object state machine.
C65 | list maximum.
C66 | real analysis.
