import Mathlib.Analysis.SpecialFunctions.Complex.Arg

/-!
# Specification: double-precision arithmetic

The finite IEEE 754 binary64 numbers, rounding to nearest (ties in any way) and the accuracy expected of `math.hypot` and
`math.atan2`.  Infinities, NaN and the sign of zero are left out; nothing is said about results beyond `2^1000`.
-/

namespace Spec

/-- the finite binary64 numbers: 53-bit significand, exponents from the smallest subnormal to the largest finite number -/
def IsDouble (x : ℝ) : Prop := ∃ m e : ℤ, |m| < 2 ^ 53 ∧ -1074 ≤ e ∧ e ≤ 971 ∧ x = m * (2 : ℝ) ^ e

/-- `rnd x` is a double at least as close to `x` as any other -/
def RoundsToNearest (rnd : ℝ → ℝ) : Prop :=
  ∀ x, |x| ≤ 2 ^ 1000 → IsDouble (rnd x) ∧ ∀ y, IsDouble y → |rnd x - x| ≤ |y - x|

/-- ties go to the even significand (stated for normal numbers, and not at the lower end of a binade) -/
def TiesToEven (rnd : ℝ → ℝ) : Prop :=
  ∀ m e : ℤ, 2 ^ 52 ≤ m → m < 2 ^ 53 → -1074 ≤ e → e ≤ 900 → Even m →
    rnd ((m + 1 / 2) * (2 : ℝ) ^ e) = m * (2 : ℝ) ^ e ∧ (2 ^ 52 < m → rnd ((m - 1 / 2) * (2 : ℝ) ^ e) = m * (2 : ℝ) ^ e)

/-- zero or of a size for which squares and quotients neither overflow nor underflow -/
def Moderate (x : ℝ) : Prop := x = 0 ∨ 1 / 2 ^ 400 ≤ |x| ∧ |x| ≤ 2 ^ 400

/-- `hyp` and `at2` return doubles, the length and the argument (in `(-π, π]`, `0` at the origin) with relative error at most `2⁻⁵⁰`,
about four units in the last place -/
structure Libm (hyp at2 : ℝ → ℝ → ℝ) : Prop where
  double : ∀ x y, IsDouble x → IsDouble y → Moderate x → Moderate y → IsDouble (hyp x y) ∧ IsDouble (at2 y x)
  hypot : ∀ x y, IsDouble x → IsDouble y → Moderate x → Moderate y →
    |hyp x y - √(x ^ 2 + y ^ 2)| ≤ 1 / 2 ^ 50 * √(x ^ 2 + y ^ 2)
  atan2 : ∀ x y, IsDouble x → IsDouble y → Moderate x → Moderate y →
    |at2 y x - Complex.arg ⟨x, y⟩| ≤ 1 / 2 ^ 50 * |Complex.arg ⟨x, y⟩|

/-- `x**2` with a relative error of at most one unit in the last place -/
def SquareAccurate (sq : ℝ → ℝ) : Prop := ∀ x, IsDouble x → Moderate x → |sq x - x ^ 2| ≤ 1 / 2 ^ 52 * x ^ 2

/-- `x**2` also of tiny numbers: up to an absolute error of `2⁻¹⁰⁰` -/
def SquareSafe (sq : ℝ → ℝ) : Prop := ∀ x, IsDouble x → |x| ≤ 2 ^ 100 → |sq x - x ^ 2| ≤ 1 / 2 ^ 52 * x ^ 2 + 1 / 2 ^ 100

/-- `x**2` rounded like a product -/
def SquareRounded (rnd sq : ℝ → ℝ) : Prop := ∀ x, IsDouble x → Moderate x → sq x = rnd (x ^ 2)

/-- `sin` and `cos` to an absolute error of `2⁻⁵⁰` on `[0, 1]` -/
def TrigAccurate (sn cs : ℝ → ℝ) : Prop :=
  ∀ x, IsDouble x → 0 ≤ x → x ≤ 1 → |sn x - Real.sin x| ≤ 1 / 2 ^ 50 ∧ |cs x - Real.cos x| ≤ 1 / 2 ^ 50

/-- `tan` returns doubles, on `[1/2, π/4]` with an error of at most one unit in the last place (`2⁻⁵³` for results below `1`) -/
def TanAccurate (tn : ℝ → ℝ) : Prop :=
  ∀ x, IsDouble x → 1 / 2 ≤ x → x ≤ Real.pi / 4 → IsDouble (tn x) ∧ |tn x - Real.tan x| ≤ 1 / 2 ^ 53

end Spec
