import Verif.Model.PolarFD
import Verif.Model.ZMethod
import Mathlib.Analysis.SpecialFunctions.Gamma.Basic
import Mathlib.Analysis.SpecialFunctions.Pow.Real

/-!
# Model of `scripts/polarfd/sym.py`, `scripts/polarfd/test.py`, `scripts/zmethod/interp_test.py` and `scripts/apply_helmholtz.py`

SymPy's `diff` is `deriv`; `lambdify` gives the function of the formula; the floating-point number `3/11` is the real number.

Both test programs create a `PolarFD` object with too few arguments.  A call of a class with the wrong number of arguments is a
TypeError; so is calling `None`.  What follows in the loops is a parameter, as no execution gets there; a program is the list of the
sizes `N` whose heading was printed and the result.
-/

namespace Pot
open Real

/-! ## scripts/polarfd/sym.py -/

/-- scripts/polarfd/sym.py:8 `a` and scripts/polarfd/test.py:14 -/
noncomputable def symA : ℝ := π / 6

/-- scripts/polarfd/sym.py:9 `nu` and scripts/polarfd/test.py:15 -/
noncomputable def symNu : ℝ := π / (2 * π - symA)

/-- scripts/polarfd/sym.py:4-5 `do_lapacian` -/
noncomputable def symLap (k : ℝ) (u : ℝ → ℝ → ℝ) (r th : ℝ) : ℝ :=
  deriv (deriv fun ρ => u ρ th) r + deriv (fun ρ => u ρ th) r / r + deriv (deriv (u r)) th / r ^ 2 + k ^ 2 * u r th

/-- scripts/polarfd/sym.py:12-19 `v_asympt0`, at the values of the symbols `k` and `r` -/
noncomputable def symV0 (k r : ℝ) : ℝ :=
  let kr2 := k * r / 2
  (List.range 3).foldl (init := 0) (fun acc (l : ℕ) =>
    let x : ℝ := 3 / 11 + l + 1
    acc + (-1) ^ l / ((l.factorial : ℝ) * Gamma x) * kr2 ^ (2 * l)) * kr2 ^ (3 / 11 : ℝ)

/-- scripts/polarfd/sym.py:21 `v_asympt` -/
noncomputable def symV (k r th : ℝ) : ℝ := symV0 k r * sin (symNu / 2 * (th - symA))

/-- scripts/polarfd/sym.py:7 `_k` -/
def symK : ℝ := 3

/-- scripts/polarfd/sym.py:31 `eval_v_asympt` -/
noncomputable def symEvalV (r th : ℝ) : ℝ := symV symK r th

/-- scripts/polarfd/sym.py:23-24, 33 `eval_f` -/
noncomputable def symEvalF (r th : ℝ) : ℝ := -symLap symK (symV symK) r th

/-- scripts/polarfd/sym.py:34 `eval_d_f_r` -/
noncomputable def symEvalDFr (r th : ℝ) : ℝ := deriv (fun ρ => symEvalF ρ th) r

/-- scripts/polarfd/sym.py:35 `eval_d2_f_r` -/
noncomputable def symEvalD2Fr (r th : ℝ) : ℝ := deriv (deriv fun ρ => symEvalF ρ th) r

/-- scripts/polarfd/sym.py:36 `eval_d2_f_th` -/
noncomputable def symEvalD2Fth (r th : ℝ) : ℝ := deriv (deriv (symEvalF r)) th

/-! ## Calls of the class -/

/-- an argument of a call -/
inductive PfArg where
  | int (n : ℕ)
  | float (x : ℝ)

/-- the call `PolarFD(...)`, ps/polarfd.py:9: five arguments besides `self`.  (A float as the first one is not modelled further.) -/
noncomputable def pfCall : List PfArg → Py PolarFD
  | [.int N, .float a, .float nu, .float R0, .float R1] => pfInit N a nu R0 R1
  | _ => throw .typeError

/-! ## scripts/polarfd/test.py -/

/-- scripts/polarfd/test.py:17-18 `eval_u` -/
noncomputable def testU (jv : ℝ → ℝ → ℝ) (r th : ℝ) : ℝ := jv (symNu / 2) (symK * r) * sin (symNu / 2 * (th - symA)) - symEvalV r th

/-- a loop over sizes that prints a heading for each -/
def headedLoop (body : ℕ → Py Unit) : List ℕ → List ℕ × Py Unit
  | [] => ([], pure ())
  | N :: rest =>
    match body N with
    | .error e => ([N], .error e)
    | .ok _ => let (h, r) := headedLoop body rest; (N :: h, r)

/-- scripts/polarfd/test.py:20-31: `get_N_list(16, 128)` -/
def testNs : List ℕ := [16, 32, 64, 128]

/-- scripts/polarfd/test.py:63-91; `rest` is what follows the creation of the object (lines 66-91) -/
noncomputable def polarfdTest (rest : PolarFD → ℕ → Py Unit) : List ℕ × Py Unit :=
  headedLoop (fun N => do
    let p ← pfCall []
    rest p N) testNs

/-! ## scripts/zmethod/interp_test.py -/

/-- a value of Python that is called: a function, or `None` -/
abbrev Callable := Option (ℝ → ℝ → ℂ)

/-- the call of it -/
def callIt (f : Callable) (r th : ℝ) : Py ℂ :=
  match f with
  | none => throw .typeError
  | some f => pure (f r th)

/-- scripts/zmethod/interp_test.py:17-18 `eval_v` -/
noncomputable def interpTestV (r th : ℝ) : ℝ := exp r * sin th

/-- scripts/zmethod/interp_test.py:36-41: the array `v` -/
noncomputable def interpTestArr (p : PolarFD) (N : ℕ) : List (List ℂ) :=
  (List.range (N + 1)).map fun m : ℕ => (List.range (N + 1)).map fun l : ℕ => ((interpTestV (p.getR m) (p.getTh l) : ℝ) : ℂ)

/-- ps/zmethod.py:296-342 `create_v_interp` as a call: it sets an attribute and has no `return` -/
noncomputable def createVInterpCall (interp2d : Interp2d) (p : PolarFD) (v : List (List ℂ)) (boundaryR bet : ℝ) (N : ℕ) : Py Callable := do
  let _ ← createVInterp interp2d p v boundaryR bet N
  return none

/-- scripts/zmethod/interp_test.py:28-64; `args` are the arguments of `PolarFD(...)` (line 33), `rest` what follows the first
evaluation (line 50).  `np.linspace` has at least one value: the first one is `R*.75`, or `a` for the angle.  The headings are printed
after the evaluations (line 53): the program prints those of the sizes that were finished. -/
noncomputable def interpTest (interp2d : Interp2d) (args : ℕ → List PfArg) (rest : ℂ → ℕ → Py Unit) : List ℕ × Py Unit :=
  let out := headedLoop (fun N => do
    let p ← pfCall (args N)
    let vInterp ← createVInterpCall interp2d p (interpTestArr p N) 2.3 0 N
    let x ← callIt vInterp (2.3 * 0.75) symA
    rest x N) [16, 32, 64, 128]
  match out.2 with
  | .error e => (out.1.dropLast, .error e)
  | .ok _ => out

/-- scripts/zmethod/interp_test.py:33 -/
noncomputable def interpTestArgs (N : ℕ) : List PfArg := [.int N, .float symA, .float symNu, .float 2.3]

/-! ## scripts/apply_helmholtz.py -/

/-- scripts/apply_helmholtz.py:6-8, 10, 16: the output for the input `r`, as a function of `k`, `r` and `th` -/
noncomputable def applyHelmholtzOut (k r th : ℝ) : ℝ :=
  let u : ℝ → ℝ → ℝ := fun r _ => r
  let dUr : ℝ → ℝ → ℝ := fun r th => deriv (fun ρ => u ρ th) r
  deriv (fun ρ => dUr ρ th) r + dUr r th / r + deriv (deriv (u r)) th / r ^ 2 + k ^ 2 * u r th

/-- scripts/apply_helmholtz.py:20-21: the gradient -/
noncomputable def applyHelmholtzGrad (x y : ℝ) : ℝ × ℝ :=
  let u : ℝ → ℝ → ℝ := fun x y => √(x ^ 2 + y ^ 2)
  (deriv (fun s => u s y) x, deriv (fun s => u x s) y)

end Pot
