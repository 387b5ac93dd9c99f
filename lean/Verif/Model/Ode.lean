import Verif.Model.Linop
import Verif.Model.Multivalue

/-!
# Model of `ps/ode.py`

The functions handed in are real; `arc_dst` of a real function is the real part of the model `arcDst`.  The prints and the
estimate of the discretisation error (ps/ode.py:24-32) are not modelled.  `odeint` is a parameter: given the right-hand side,
the initial vector and the two radii it returns the state at the second radius.
-/

namespace Pot
open Real

/-- fourier.py:91-96 `arc_dst` of a real function -/
noncomputable def arcDstR (a : ℝ) (func : ℝ → ℝ) (N : ℕ) : List ℝ :=
  List.ofFn fun i : Fin N => (arcDst a (fun th => (func th : ℂ)) N i).re

/-- ps/ode.py:10 `fourier_N` -/
def odeFourierN : ℕ := 1024

/-- ps/ode.py:37-54 `eval_deriv`; `assert r != 0`.  The loop runs over `i = 0, 2, …`, here `i = 2 j`, `m = j + 1`. -/
noncomputable def odeDeriv (fourierN : ℕ) (evalF1 : ℝ → ℝ → ℝ) (a nu k : ℝ) (M : ℕ) (Y : List ℝ) (r : ℝ) : Py (List ℝ) :=
  open Classical in
  if r = 0 then throw .assertionError
  else do
    let fFourier := (arcDstR a (fun th => evalF1 r th) fourierN).take M
    let pairs ← (List.range M).mapM fun j => do
      let m : ℕ := j + 1
      let z1 ← listGet Y (2 * j)
      let z2 ← listGet Y (2 * j + 1)
      let fm ← listGet fFourier (m - 1)
      pure [z2, -z2 / r - (k ^ 2 - (m * nu / r) ^ 2) * z1 + fm]
    return pairs.flatten

/-- `odeint(func, y0, [R0, R])[1]` -/
abbrev Odeint := (List ℝ → ℝ → Py (List ℝ)) → List ℝ → ℝ → ℝ → Py (List ℝ)

/-- ps/ode.py:56-63, the initial vector `ic` -/
noncomputable def odeIc (fourierN : ℕ) (initialFunc dInitialFunc : ℝ → ℝ → ℝ) (a R0 : ℝ) (M : ℕ) : Py (List ℝ) := do
  let i0 := (arcDstR a (fun th => initialFunc R0 th) fourierN).take M
  let d0 := (arcDstR a (fun th => dInitialFunc R0 th) fourierN).take M
  let pairs ← (List.range M).mapM fun j => do
    let x ← listGet i0 j
    let y ← listGet d0 j
    pure [x, y]
  return pairs.flatten

/-- `sol[1, 0::2]`, every second entry -/
def evens : List ℝ → List ℝ
  | [] => []
  | [x] => [x]
  | x :: _ :: l => x :: evens l

/-- ps/ode.py:21-69 `calc_z1_fourier` -/
noncomputable def odeCalc (odeint : Odeint) (fourierN : ℕ) (initialFunc dInitialFunc evalF1 : ℝ → ℝ → ℝ) (a nu k R0 R : ℝ)
    (M : ℕ) : Py (List ℝ) := do
  let ic ← odeIc fourierN initialFunc dInitialFunc a R0 M
  let sol ← odeint (odeDeriv fourierN evalF1 a nu k M) ic R0 R
  return evens sol

end Pot
