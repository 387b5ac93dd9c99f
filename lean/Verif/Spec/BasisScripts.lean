import Verif.Spec.Chebyshev

/-! # What the scripts that look for good sizes of the basis are expected to try and to print -/

namespace Spec
open Real

/-- the pairs of sizes tried by optimize_basis.py: a multiple of five from 30 to 95 on the outer boundary, and 17, 21, 25, … below it
on each ray -/
def Candidate (c r : ℕ) : Prop := 30 ≤ c ∧ c < 100 ∧ c % 5 = 0 ∧ 17 ≤ r ∧ r < c ∧ r % 4 = 1

/-- the order in which they are tried -/
def Before (c r c' r' : ℕ) : Prop := c < c' ∨ c = c' ∧ r < r'

/-- the points of a segment at which the data is sampled for the fit: the roots of the Chebyshev polynomial of degree 1024, carried
to the segment enlarged by `eps` -/
noncomputable def fitPoint (eps a R : ℝ) (sid : Fin 3) (l : ℕ) : ℝ :=
  (if sid = 0 then π + a / 2 else R / 2) + halfWidth eps a R sid * cos (π * (2 * l + 1) / 2048)

/-- the sum of the squared deviations of a series from the data at these points -/
noncomputable def sqDev (eps a R : ℝ) (sid : Fin 3) (data : ℝ → ℂ) (c : List ℂ) : ℝ :=
  ∑ l ∈ Finset.range 1024, ‖segSeries eps a R sid c (fitPoint eps a R sid l) - data (fitPoint eps a R sid l)‖ ^ 2

/-- the points of a segment at which `c0_test` compares: 300 angles on the outer boundary, 100 radii on each ray -/
def TestPoint (a R : ℝ) (sid : Fin 3) (x : ℝ) : Prop :=
  if sid = 0 then ∃ j < 300, x = a + 1 / 10 ^ 5 + (j : ℕ) * ((2 * π - a - 2 / 10 ^ 5) / 299)
  else ∃ j < 100, x = 1 / 10 ^ 5 + (j : ℕ) * ((R - 1 / 10 ^ 5) / 99)

/-- the numbers printed for a basis of `p` functions on the outer boundary and `q` on each ray: for some least-squares coefficients, the
largest deviation of the real part of the series from that of the data on the outer boundary, and on the whole boundary -/
def FitReport (eps a R : ℝ) (data : ℝ → Fin 3 → ℂ) (p q : ℕ) (outer all : ℝ) : Prop :=
  ∃ c : Fin 3 → List ℂ,
    (∀ sid, (c sid).length = (if sid = 0 then p else q) ∧ ∀ d : List ℂ, d.length = (c sid).length →
      sqDev eps a R sid (fun x => data x sid) (c sid) ≤ sqDev eps a R sid (fun x => data x sid) d) ∧
    IsGreatest {e | ∃ x, TestPoint a R 0 x ∧ e = |(data x 0 - segSeries eps a R 0 (c 0) x).re|} outer ∧
    IsGreatest {e | ∃ sid x, TestPoint a R sid x ∧ e = |(data x sid - segSeries eps a R sid (c sid) x).re|} all

end Spec
