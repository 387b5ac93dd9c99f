import Verif.Model.Run

/-!
# Model of `abcoef.py`

`scipy.special.jv` is a parameter `jv : ℝ → ℝ → ℝ` (order, argument), `np.linalg.lstsq` a parameter as in `Model/Run.lean`.
The warning about the rank and the singular values are not modelled.
-/

namespace Pot
open Real Classical

/-- abcoef.py:8 `n_nodes` -/
def abNodes : ℕ := 2048

/-- abcoef.py:9 `th_data`: `np.linspace(a, 2*np.pi, n_nodes + 2)[1:-1]`, entry `i` -/
noncomputable def abTh (n : ℕ) (a : ℝ) (i : ℕ) : ℝ := (linspace a (2 * π) (n + 2)).getD (i + 1) 0

/-- abcoef.py:20-30, the columns of `W`; those after the first `M` are divided by a Bessel factor (nan if it is zero) -/
noncomputable def abColumns (jv : ℝ → ℝ → ℝ) (n : ℕ) (evalR : ℝ → ℝ) (k R a nu : ℝ) (M m1 : ℕ) : Py (List (List ℂ)) :=
  (List.range' 1 m1).mapM fun m : ℕ => do
    let col : List ℂ := (List.range n).map fun i =>
      let th := abTh n a i
      let r := evalR th
      ((jv (m * nu) (k * r) * sin (m * nu * (th - a)) : ℝ) : ℂ)
    if M + 1 ≤ m then
      if jv (m * nu) (k * R) = 0 then throw .nanValue
      else pure (col.map fun x => x / ((jv (m * nu) (k * R) : ℝ) : ℂ))
    else pure col

/-- abcoef.py:11-36 `calc_a_coef`, the first component of the result -/
noncomputable def abCalcACoef (jv : ℝ → ℝ → ℝ) (lstsq : Lstsq) (n : ℕ) (evalR : ℝ → ℝ) (evalBc0 : ℝ → ℂ) (k R a nu : ℝ)
    (M m1 : ℕ) : Py (List ℂ) := do
  let phi0Data := (List.range n).map fun i => evalBc0 (abTh n a i)
  let W ← abColumns jv n evalR k R a nu M m1
  return (lstsq W phi0Data).take M

/-- abcoef.py:44-56 `_convert_ab`; `1/factor` is infinite when the factor is zero -/
noncomputable def convertAb (jv : ℝ → ℝ → ℝ) (coef : List ℂ) (coefType : String) (k R nu : ℝ) : Py (List ℂ) :=
  if ¬ (coefType = "a" ∨ coefType = "b") then throw .assertionError
  else (List.range' 1 coef.length).mapM fun m : ℕ => do
    let factor : ℝ := jv (m * nu) (k * R)
    let factor ← (if coefType = "b" then
          if factor = 0 then throw .nanValue else pure (1 / factor)
      else pure factor : Py ℝ)
    let c ← listGet coef (m - 1)
    return c * (factor : ℂ)

/-- abcoef.py:38-39 `a_to_b` -/
noncomputable def aToB (jv : ℝ → ℝ → ℝ) (aCoef : List ℂ) (k R nu : ℝ) : Py (List ℂ) := convertAb jv aCoef "a" k R nu

/-- abcoef.py:41-42 `b_to_a` -/
noncomputable def bToA (jv : ℝ → ℝ → ℝ) (bCoef : List ℂ) (k R nu : ℝ) : Py (List ℂ) := convertAb jv bCoef "b" k R nu

end Pot
