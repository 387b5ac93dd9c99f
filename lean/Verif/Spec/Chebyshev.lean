import Mathlib.RingTheory.Polynomial.Chebyshev
import Mathlib.Analysis.SpecialFunctions.Trigonometric.Basic

/-!
# Specification vocabulary: Chebyshev polynomials and the basis functions of the three segments
-/

namespace Spec
open Real Polynomial

/-- the `J`-th basis function of a boundary segment: the Chebyshev polynomial `T_J` after the affine map that
sends the segment, enlarged by `eps` at both ends, onto `[-1, 1]` (the wedge side with id 1 is reversed) -/
noncomputable def basisFn (eps a R : ℝ) (sid : Fin 3) (J : ℕ) (arg : ℝ) : ℝ :=
  match sid with
  | 0 => (Chebyshev.T ℝ J).eval ((arg - (π + a / 2)) / (π - a / 2 + eps))
  | 1 => (Chebyshev.T ℝ J).eval ((R / 2 - arg) / (R / 2 + eps))
  | 2 => (Chebyshev.T ℝ J).eval ((arg - R / 2) / (R / 2 + eps))

/-- the physical part of a segment: the angles of the outer boundary, the distances along a wedge side -/
def physical (a R : ℝ) (sid : Fin 3) : Set ℝ := if sid = 0 then Set.Icc a (2 * π) else Set.Icc 0 R

/-- the physical part of a segment, enlarged by `eps` at both ends -/
def enlarged (eps a R : ℝ) (sid : Fin 3) : Set ℝ :=
  if sid = 0 then Set.Icc (a - eps) (2 * π + eps) else Set.Icc (-eps) (R + eps)

/-- half the length of the enlarged segment -/
noncomputable def halfWidth (eps a R : ℝ) (sid : Fin 3) : ℝ := if sid = 0 then π - a / 2 + eps else R / 2 + eps

/-- the series with coefficients `c` in the basis functions of a segment -/
noncomputable def segSeries (eps a R : ℝ) (sid : Fin 3) (c : List ℂ) (x : ℝ) : ℂ :=
  (c.zipIdx.map fun p => p.1 * (basisFn eps a R sid p.2 x : ℂ)).sum

/-- value at `t` of the Chebyshev series with coefficients `c` -/
noncomputable def chebSeries (c : List ℂ) (t : ℝ) : ℂ :=
  (c.zipIdx.map fun p => p.1 * (((Chebyshev.T ℝ (p.2 : ℕ)).eval t : ℝ) : ℂ)).sum

/-- sum of squared residuals of a Chebyshev series against data -/
noncomputable def residual (x : List ℝ) (y : List ℂ) (c : List ℂ) : ℝ :=
  ((x.zip y).map fun p => ‖chebSeries c p.1 - p.2‖ ^ 2).sum

/-- what `chebfit` is trusted to do: return as many coefficients as asked for, minimising the residual -/
def IsChebfit (fit : List ℝ → List ℂ → ℕ → List ℂ) : Prop :=
  ∀ x y m, x.length = y.length → 1 ≤ m →
    (fit x y m).length = m ∧ ∀ c : List ℂ, c.length = m → residual x y (fit x y m) ≤ residual x y c

end Spec
