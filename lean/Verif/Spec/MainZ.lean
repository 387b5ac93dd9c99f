import Verif.Spec.Nested
import Verif.Spec.Polar
import Mathlib.Analysis.Calculus.Deriv.Basic
import Mathlib.Analysis.Complex.Norm
import Mathlib.Analysis.SpecialFunctions.Trigonometric.Basic

/-!
# Specification: what the numbers printed by `runz.py` mean

`V m l` are values at the nodes of the polar grid with `N` cells in each direction.
-/

namespace Spec

/-- the coefficient of `sin ((j + 1) π l / N)` in the values `e l`, `0 < l < N` -/
noncomputable def circleCoef (N : ℕ) (e : ℕ → ℂ) (j : ℕ) : ℂ :=
  2 / N * ∑ l ∈ Finset.Ico 1 N, e l * ((Real.sin (Real.pi * (j + 1) * l / N) : ℝ) : ℂ)

/-- the moduli of the first `M` coefficients of the error `v - V` on the inner circles -/
def circleErrs (a R0 R1 : ℝ) (N M : ℕ) (v : ℝ → ℝ → ℝ) (V : ℕ → ℕ → ℂ) : Set ℝ :=
  {x | ∃ m j, 0 < m ∧ m < N ∧ j < M ∧
    x = ‖circleCoef N (fun l => (v (polarPt a R0 R1 N m l).1 (polarPt a R0 R1 N m l).2 : ℂ) - V m l) j‖}

/-- the differences between an array on the grid with `2N` cells and one on the grid with `N` cells at the inner nodes of the latter -/
def polarDiff (N : ℕ) (fine coarse : ℕ → ℕ → ℂ) : Set ℝ :=
  {x | ∃ m l, 0 < m ∧ m < N ∧ 0 < l ∧ l < N ∧ x = ‖fine (2 * m) (2 * l) - coarse m l‖}

/-- the data left on the three segments when the functions `A` and `S` are subtracted from the solution, `S` being zero on the two
rays; the argument is the angle on the outer curve, the radius on the rays; no data for negative radii -/
noncomputable def restData (phi0 phi1 phi2 : ℝ → ℝ) (A : ℝ → ℝ → ℝ) (S : ℝ → ℝ → ℂ) (rb : ℝ → ℝ) (a x : ℝ) : Fin 3 → ℂ :=
  ![(phi0 x : ℂ) - A (rb x) x - S (rb x) x, if 0 ≤ x then (phi1 x : ℂ) - A x (2 * Real.pi) else 0,
    if 0 ≤ x then (phi2 x : ℂ) - A x a else 0]

/-- the squared distance, over the `n` sample angles `th i`, between the data `φ` and the sum of the first `m1` singular functions
`J_((j+1) ν)(k r) sin((j+1) ν (θ - a))` on the curve `rb` with the coefficients `d` -/
noncomputable def modeResidual (J : ℝ → ℝ → ℝ) (n : ℕ) (th : ℕ → ℝ) (rb : ℝ → ℝ) (φ : ℝ → ℂ) (k a nu : ℝ) (m1 : ℕ) (d : ℕ → ℂ) : ℝ :=
  ∑ i ∈ Finset.range n, ‖(∑ j ∈ Finset.range m1, d j *
    ((J ((j + 1 : ℕ) * nu) (k * rb (th i)) * Real.sin ((j + 1 : ℕ) * nu * (th i - a)) : ℝ) : ℂ)) - φ (th i)‖ ^ 2

/-- the singular functions with the first `M` of the coefficients `d` -/
noncomputable def modeSum (J : ℝ → ℝ → ℝ) (k a nu : ℝ) (M : ℕ) (d : ℕ → ℂ) (r th : ℝ) : ℂ :=
  ∑ j ∈ Finset.range M, d j * ((J ((j + 1 : ℕ) * nu) (k * r) * Real.sin ((j + 1 : ℕ) * nu * (th - a)) : ℝ) : ℂ)

/-- `Δu + k² u` in polar coordinates -/
noncomputable def polarHelm (k : ℝ) (u : ℝ → ℝ → ℝ) (r th : ℝ) : ℝ :=
  deriv (deriv fun r => u r th) r + deriv (fun r => u r th) r / r + deriv (deriv (u r)) th / r ^ 2 + k ^ 2 * u r th

/-- `V` has the given values on the four sides of the polar grid with `N` cells and satisfies the compact scheme without source at
its inner nodes; the two rays own the corners -/
def PolarSolution (k a R0 R1 : ℝ) (N : ℕ) (inner outer phi1 phi2 : ℝ → ℝ) (V : ℤ → ℤ → ℂ) : Prop :=
  (∀ m : ℕ, m ≤ N → V m 0 = (phi2 (polarPt a R0 R1 N m 0).1 : ℂ) ∧ V m N = (phi1 (polarPt a R0 R1 N m N).1 : ℂ)) ∧
  (∀ l : ℕ, 0 < l → l < N → V 0 l = (inner (polarPt a R0 R1 N 0 l).2 : ℂ) ∧ V N l = (outer (polarPt a R0 R1 N N l).2 : ℂ)) ∧
  ∀ m l : ℕ, 0 < m → m < N → 0 < l → l < N →
    polarL4 ((R1 - R0) / N) ((2 * Real.pi - a) / N) k (fun m => R0 + m * ((R1 - R0) / N)) V m l = 0

end Spec
