import Verif.Model.ABCoef
import Verif.Model.Linop
import Verif.Model.Problem
import Verif.Model.ZAlgebra

/-!
# Model of `problems/sing_ihz.py` and `problems/singular.py`

`jv mu x` is the Bessel function (SciPy's `jv`, SymPy's `besselj`).  `v_asympt` and `v_series` of `IH_Bessel` and the tapering
function are in `Model/ZAlgebra.lean`, the tables in `Model/Problem.lean`.
-/

namespace Pot
open Real Classical

/-- problems/sing_ihz.py:96 `k` of `IH_Bessel` -/
noncomputable def ihK : ℝ := 27 / 4

/-- problems/sing_ihz.py:98 `K` -/
def ihKK : ℕ := 0

/-- problems/sing_ihz.py:117-121 `g` of `IH_Bessel`; `alt` is `alt_phi1_ext` (False in the repository) -/
noncomputable def ihG (jv : ℝ → ℝ → ℝ) (alt : Bool) (K : ℕ) (k a nu R : ℝ) : ℝ → ℝ → ℝ := fun r th =>
  let phi1 := jv ((K + 1 / 2) * nu) (k * r)
  let phi1 := if alt then phi1 + (if r < R then 0 else (r - R) ^ 5) else phi1
  (th - a) / (2 * π - a) * phi1

/-- problems/sing_ihz.py:123-132 `eval_v` of `IH_Bessel` -/
noncomputable def ihV (jv : ℝ → ℝ → ℝ) (K : ℕ) (k a nu : ℝ) : ℝ → ℝ → ℝ := fun r th =>
  jv ((K + 1 / 2) * nu) (k * r) * sin ((K + 1 / 2) * nu * (th - a))

/-- problems/sing_ihz.py:140-142 `IZ_Bessel.eval_phi0` -/
noncomputable def izPhi0 (jv : ℝ → ℝ → ℝ) (K : ℕ) (k a nu : ℝ) (evalR : ℝ → ℝ) (th : ℝ) : ℝ := ihV jv K k a nu (evalR th) th

/-- problems/sing_ihz.py:144-148 `IZ_Bessel.eval_phi1` -/
noncomputable def izPhi1 (jv : ℝ → ℝ → ℝ) (K : ℕ) (k a nu r : ℝ) : ℝ := if r > 0 then ihV jv K k a nu r (2 * π) else 0

/-- problems/sing_ihz.py:150-151, 178-179 `eval_phi2` of `IZ_Bessel` and `IHZ_Bessel_Line` -/
def izPhi2 (_r : ℝ) : ℝ := 0

/-- problems/sing_ihz.py:153-154 `IZ_Bessel.eval_expected_polar` -/
noncomputable def izExpected (jv : ℝ → ℝ → ℝ) (K : ℕ) (k a nu r th : ℝ) : ℝ := ihV jv K k a nu r th

/-- problems/sing_ihz.py:159-165 `IHZ_Bessel_Line.eval_phi0` -/
noncomputable def linePhi0 (jv : ℝ → ℝ → ℝ) (K : ℕ) (k a nu : ℝ) (evalR : ℝ → ℝ) (th : ℝ) : ℝ :=
  let r := evalR th
  jv ((K + 1 / 2) * nu) (k * r) * (th - a) / (2 * π - a)

/-- problems/sing_ihz.py:167-176 `IHZ_Bessel_Line.eval_phi1` -/
noncomputable def linePhi1 (jv : ℝ → ℝ → ℝ) (alt : Bool) (K : ℕ) (k nu R r : ℝ) : ℝ :=
  let bc := jv ((K + 1 / 2) * nu) (k * r)
  if r > R ∧ alt = true then bc + (r - R) ^ 5
  else if r > 0 then bc
  else 0

/-- problems/sing_ihz.py:184 `k` of `IHZ_Bessel_Quadratic` -/
noncomputable def quadK : ℝ := 43 / 4

/-- problems/sing_ihz.py:197-200 `v_asympt` of `IHZ_Bessel_Quadratic` -/
noncomputable def quadVAsympt (k a nu R0 R : ℝ) : ℝ → ℝ → ℝ := fun r th =>
  (vAsympt0 0 k nu 2 r * sin (nu / 2 * (th - a)) + vAsympt0 1 k nu 2 r * sin (3 * nu / 2 * (th - 2 * π))) * taper R0 R r

/-- problems/sing_ihz.py:202-205 `v_series` of `IHZ_Bessel_Quadratic` -/
noncomputable def quadVSeries (k a nu : ℝ) : ℝ → ℝ → ℝ := fun r th =>
  vAsympt0 0 k nu 10 r * sin (nu / 2 * (th - a)) + vAsympt0 1 k nu 10 r * sin (3 * nu / 2 * (th - 2 * π))

/-- problems/sing_ihz.py:207-210 `g` of `IHZ_Bessel_Quadratic` -/
noncomputable def quadG (jv : ℝ → ℝ → ℝ) (k a nu : ℝ) : ℝ → ℝ → ℝ := fun r th =>
  (th - a) / (2 * π - a) * jv (nu / 2) (k * r) + (th - 2 * π) / (a - 2 * π) * jv (3 * nu / 2) (k * r)

/-- problems/sing_ihz.py:212-223 `eval_v` of `IHZ_Bessel_Quadratic` -/
noncomputable def quadV (jv : ℝ → ℝ → ℝ) (k a nu : ℝ) : ℝ → ℝ → ℝ := fun r th =>
  jv (nu / 2) (k * r) * sin (nu / 2 * (th - a)) + jv (3 * nu / 2) (k * r) * sin (3 * nu / 2 * (th - 2 * π))

/-- problems/sing_ihz.py:225-233 `eval_phi0` of `IHZ_Bessel_Quadratic` -/
noncomputable def quadPhi0 (jv : ℝ → ℝ → ℝ) (k a nu : ℝ) (evalR : ℝ → ℝ) (th : ℝ) : ℝ :=
  let r := evalR th
  let p : ℝ → ℝ := fun th => (th - a) * (th - (2 * π - a)) / (a * (2 * π - a))
  jv (3 * nu / 2) (k * r) + (jv (nu / 2) (k * r) - jv (3 * nu / 2) (k * r)) * p th

/-- problems/sing_ihz.py:235-239 `eval_phi1` of `IHZ_Bessel_Quadratic` -/
noncomputable def quadPhi1 (jv : ℝ → ℝ → ℝ) (k nu r : ℝ) : ℝ := if r > 0 then jv (nu / 2) (k * r) else 0

/-- problems/sing_ihz.py:241-245 `eval_phi2` of `IHZ_Bessel_Quadratic` -/
noncomputable def quadPhi2 (jv : ℝ → ℝ → ℝ) (k nu r : ℝ) : ℝ := if r > 0 then jv (3 * nu / 2) (k * r) else 0

/-! ## `problems/singular.py` -/

/-- problems/singular.py:27 `m_max` -/
def skMMax : ℕ := 300

/-- fourier.py:91 the default of the parameter `N` of `arc_dst` -/
def arcDstN : ℕ := 2048

/-- problems/singular.py:37-39 `fft_b_coef`, `fft_a_coef` (`arc_dst` with `n = 2048` nodes) -/
noncomputable def skACoef (jv : ℝ → ℝ → ℝ) (n mMax : ℕ) (toDst : ℝ → ℝ) (k R a nu : ℝ) : Py (List ℂ) :=
  bToA jv ((List.ofFn (arcDst a (fun th => (toDst th : ℂ)) n)).take mMax) k R nu

/-- problems/singular.py:42-53 `eval_expected_polar`; `noW` is `eval_expected__no_w` -/
noncomputable def skExpectedPolar (jv : ℝ → ℝ → ℝ) (aCoef : List ℂ) (mMax : ℕ) (noW : ℝ → ℝ → ℝ) (k a nu r th : ℝ) : Py ℂ :=
  (List.range' 1 mMax).foldlM (init := (noW r th : ℂ)) fun u (m : ℕ) => do
    let ac ← listGet aCoef (m - 1)
    return u + ac * ((jv (m * nu) (k * r) : ℝ) : ℂ) * ((sin (m * nu * (th - a)) : ℝ) : ℂ)

end Pot
