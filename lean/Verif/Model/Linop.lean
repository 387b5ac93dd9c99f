import Mathlib.Analysis.SpecialFunctions.Trigonometric.Basic
import Verif.Model.SolverCoord

/-!
# Model of `linop.py` and `fourier.py`

A numpy array of shape `(m, m)` is a function `Fin m → Fin m → ℂ`.  With `N = n + 1` the interior arrays
of the code have shape `(N-1, N-1) = (n, n)` and the full arrays shape `(N+1, N+1) = (n+2, n+2)`.
-/

namespace Pot
open Real

/-- a complex numpy array of shape `(m, m)` -/
abbrev Arr (m : ℕ) := Fin m → Fin m → ℂ

/-- array index `m+1` for the loop variable `m` whose output index is `i = m-1` -/
abbrev ip {n : ℕ} (i : Fin n) : Fin (n + 2) := i.succ.succ
/-- array index `m` -/
abbrev i0 {n : ℕ} (i : Fin n) : Fin (n + 2) := i.castSucc.succ
/-- array index `m-1` -/
abbrev im {n : ℕ} (i : Fin n) : Fin (n + 2) := i.castSucc.castSucc

/-- linop.py:4-32 `apply_L` on an array of shape `(N+1, N+1)`, `N = n + 1`.  The entry `[m-1, n-1]` of the
Python output is `applyL … a b` with `a = m-1`, `b = n-1`.  (For a 1x1 input `h = AD/0` Python raises; here
the input always has at least shape (2,2).) -/
noncomputable def applyL {n : ℕ} (v : Arr (n + 2)) (order : ℕ) (AD k : ℝ) : Arr n := fun a b =>
  let N : ℝ := n + 1
  let h := AD / N
  let h2 : ℂ := ((h ^ 2 : ℝ) : ℂ)
  let k2 : ℂ := ((k ^ 2 : ℝ) : ℂ)
  let base := 1 / h2 * (v (ip a) (i0 b) + v (im a) (i0 b) + v (i0 a) (ip b) +
      v (i0 a) (im b) - 4 * v (i0 a) (i0 b)) + k2 * v (i0 a) (i0 b)
  if order = 4 then
    base + (1 / (6 * h2) * (
      v (ip a) (ip b) - 2 * v (ip a) (i0 b) + v (ip a) (im b) -
      2 * (v (i0 a) (ip b) - 2 * v (i0 a) (i0 b) + v (i0 a) (im b)) +
      v (im a) (ip b) - 2 * v (im a) (i0 b) + v (im a) (im b)) +
      k2 / 12 * (v (ip a) (i0 b) - 2 * v (i0 a) (i0 b) + v (im a) (i0 b) +
      v (i0 a) (ip b) - 2 * v (i0 a) (i0 b) + v (i0 a) (im b)))
  else base

/-- linop.py:34-51 `apply_B`. -/
noncomputable def applyB {n : ℕ} (f : Arr (n + 2)) : Arr n := fun a b =>
  f (i0 a) (i0 b) + 1 / 12 * (
    f (ip a) (i0 b) - 2 * f (i0 a) (i0 b) + f (im a) (i0 b) +
    f (i0 a) (ip b) - 2 * f (i0 a) (i0 b) + f (i0 a) (im b))

/-- `scipy.fftpack.dst(x, type=1)` (library): `y[k] = 2 Σ_n x[n] sin(π (k+1)(n+1)/(len+1))`. -/
noncomputable def dst1 {n : ℕ} (x : Fin n → ℂ) : Fin n → ℂ := fun k =>
  2 * ∑ m : Fin n, x m * ((sin (π * ((k : ℝ) + 1) * ((m : ℝ) + 1) / ((n : ℝ) + 1)) : ℝ) : ℂ)

/-- fourier.py:36-44, the formula assigned to `eigenval` for loop variables `j`, `l`.  For any other order
the name `eigenval` is unbound. -/
noncomputable def eigenvalPy (N : ℕ) (order : ℕ) (AD k : ℝ) (j l : ℕ) : Py ℝ :=
  let h := AD / N
  let h2 := h ^ 2
  let k2 := k ^ 2
  if order = 2 then
    pure (k2 + (2 * cos (π * j / N) + 2 * cos (π * l / N) - 4) / h2)
  else if order = 4 then
    pure ((h2 * k2 * (cos (π * j / N) + cos (π * l / N) + 4) +
      4 * cos (π * j / N) * cos (π * l / N) + 8 * cos (π * j / N) + 8 * cos (π * l / N) - 20) / (6 * h2))
  else throw .unboundLocalError

/-- write one entry of a real array indexed by naturals -/
def setNat (e : ℕ → ℕ → ℝ) (p q : ℕ) (x : ℝ) : ℕ → ℕ → ℝ :=
  fun p' q' => if p' = p ∧ q' = q then x else e p' q'

/-- the loop of fourier.py:34-35: all `(j, l)` with `1 ≤ j < N`, `1 ≤ l ≤ j`, in order -/
def eigLoop (N : ℕ) : List (ℕ × ℕ) :=
  (List.range' 1 (N - 1)).flatMap fun j => (List.range' 1 j).map fun l => (j, l)

/-- fourier.py:19-47 `calc_eigenvals`: both triangles are filled from the lower one.  The array is a function
on naturals that is zero outside the written entries. -/
noncomputable def calcEigenvals (N order : ℕ) (AD k : ℝ) : Py (ℕ → ℕ → ℝ) :=
  (eigLoop N).foldlM (init := fun _ _ => 0) fun e jl => do
    let ev ← eigenvalPy N order AD k jl.1 jl.2
    let e := setNat e (jl.1 - 1) (jl.2 - 1) ev
    return setNat e (jl.2 - 1) (jl.1 - 1) ev

/-- the row-then-column sine transform of fourier.py:59-64 and 75-79 -/
noncomputable def dst2 {n : ℕ} (x : Arr n) : Arr n :=
  let rows : Arr n := fun i => dst1 (x i)
  fun i j => dst1 (fun i' => rows i' j) i

/-- fourier.py:49-82 `_fourier`.  `m` is `Bf.shape[0]`.  The `eigenvals` attribute is a cache of
`calc_eigenvals` whose inputs never change, so it is recomputed here.  Division by a zero eigenvalue
(numpy: inf/nan) is Lean's `x / 0 = 0`; theorems about `solve` assume nonzero eigenvalues. -/
noncomputable def fourierPy (N order : ℕ) (AD k : ℝ) {m : ℕ} (Bf : Arr m) (solve : Bool) :
    Py (Arr m) := do
  if N ≠ m + 1 then throw .assertionError
  let h := AD / N
  let eig ← calcEigenvals N order AD k
  let scoef : Arr m := fun i j => dst2 Bf i j * ((h ^ 2 / 2 : ℝ) : ℂ)
  let coefSol : Arr m :=
    if solve then fun i j => scoef i j / ((eig i j : ℝ) : ℂ)
    else fun i j => scoef i j * ((eig i j : ℝ) : ℂ)
  return fun i j => dst2 coefSol i j / ((2 * AD ^ 2 : ℝ) : ℂ)

/-- fourier.py:84-85 `APSolver.solve`. -/
noncomputable def apSolve (N order : ℕ) (AD k : ℝ) {m : ℕ} (Bf : Arr m) : Py (Arr m) :=
  fourierPy N order AD k Bf true

/-- fourier.py:87-88 `APSolver.apply_L`. -/
noncomputable def apApplyL (N order : ℕ) (AD k : ℝ) {m : ℕ} (v : Arr m) : Py (Arr m) :=
  fourierPy N order AD k v false

/-- fourier.py:91-96 `arc_dst`.  `np.linspace(a, 2π, N+2)[1:-1]` has length `N` and its entry `i` is entry
`i+1` of the linspace (`getD` is only evaluated in range). -/
noncomputable def arcDst (a : ℝ) (func : ℝ → ℂ) (N : ℕ) : Fin N → ℂ :=
  let thData : Fin N → ℝ := fun i => (linspace a (2 * π) (N + 2)).getD (i + 1) 0
  fun k => dst1 (fun i => func (thData i)) k / ((N : ℂ) + 1)

end Pot
