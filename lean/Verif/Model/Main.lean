import Verif.Model.Convergence
import Verif.Model.Debug
import Verif.Model.SolverInit
import Verif.Model.Smooth
import Verif.Model.Singular
import Verif.Model.Boundaries
import Verif.Model.PolarFD
import Verif.Model.Chebyshev

/-!
# Model of the program `run.py` as a whole

The command line is a record here; how `argparse` makes it from the strings is `Model/Argparse.lean`, the programs from the command
line on are `Model/Command.lean`.  `problems/__init__.py` imports classes from files that do not exist; the table of problems below holds the classes
that do exist.  `eval_bc` never raises an exception for the segments 0, 1, 2 (C84), so its value is taken with `pyGet`.
The lines printed by `c0_test` are left out (C83).  The date in the heading is left out.
-/

namespace Pot
open Real

/-- what `run.py` uses of a problem class -/
structure RunProblem where
  /-- `k` -/
  k : ℝ
  /-- `eval_f` and its derivatives; `none` for a class with `homogeneous = False` that defines neither `eval_f` nor
  `eval_f_polar` (problems/problem.py:32-44, C73) -/
  src : Option Source
  /-- `eval_expected`, if `expected_known` -/
  expected : Option (ℝ → ℝ → ℂ)
  /-- `eval_bc` as a function of `boundary.eval_r`, if the class has this method -/
  bc : Option ((ℝ → ℝ) → ℝ → ℕ → Py ℂ)
  /-- `n_basis_dict` -/
  nBasis : ℤ → Option (ℕ × ℕ)
  /-- `m1_dict` -/
  m1Dict : Option (String → Option ℕ)

/-- the source of a class with `homogeneous = True` (problems/problem.py:32-44); it has no derivatives -/
def zeroSource : Source where
  homogeneous := true
  f := fun _ _ => 0
  grad := fun _ _ => .error .attributeError
  hess := fun _ _ => .error .attributeError
  fPolar := fun _ _ => 0
  gradPolar := fun _ _ => .error .attributeError
  hessPolar := fun _ _ => .error .attributeError
  dFth := fun _ _ => 0
  d2Fth := fun _ _ => 0
  dFr := fun _ _ => 0
  d2Fr := fun _ _ => 0
  d2Frth := fun _ _ => 0

/-- problems/smooth.py:55-64 `Smooth_Sine` -/
noncomputable def smoothSine : RunProblem where
  k := smoothK
  src := some zeroSource
  expected := some (sineExpected smoothK)
  bc := some fun r => smoothEvalBc (sineExpected smoothK) r probA
  nBasis := smoothNBasis
  m1Dict := none

/-- problems/smooth.py:67-84 `Smooth_E` -/
noncomputable def smoothE : RunProblem where
  k := smoothK
  src := some zeroSource
  expected := some fun x y => (eExpected smoothK x y).1
  bc := some fun r => smoothEvalBc (fun x y => (eExpected smoothK x y).1) r probA
  nBasis := smoothNBasis
  m1Dict := none

/-- problems/smooth.py:87-106 `Smooth_YCos` -/
noncomputable def smoothYCos : RunProblem where
  k := smoothK
  src := some (spSource probAD (ycosF smoothK))
  expected := some ycosExpected
  bc := some fun r => smoothEvalBc ycosExpected r probA
  nBasis := smoothNBasis
  m1Dict := none

/-- problems/sing_ihz.py:62-279, the three classes made for `runz.py`, seen from `run.py`: `homogeneous` is False, there is no
`eval_f`, no `eval_bc`, and `expected_known` is False -/
noncomputable def zProblem (k : ℝ) : RunProblem where
  k := k
  src := none
  expected := none
  bc := none
  nBasis := singNBasis
  m1Dict := some singM1

/-- problems/__init__.py:17-33 `problem_dict`, the entries whose classes exist -/
noncomputable def problemTable : List (String × RunProblem) :=
  [("smooth-sine", smoothSine), ("smooth-e", smoothE), ("smooth-ycos", smoothYCos), ("iz-bessel", zProblem ihK),
   ("ihz-bessel-line", zProblem ihK), ("ihz-bessel-quadratic", zProblem quadK)]

/-- run.py:28-40, the command line: `problem`, `boundary`, `-N`, `-c`, `-o`, `-r`, `--acheat` -/
structure RunArgs where
  problem : String
  boundary : String
  N : ℤ := 16
  c : Option ℤ := none
  order : ℕ := 4
  r : Bool := false
  acheat : Bool := false

/-- printed lines -/
inductive MainEv where
  | heading (problem boundary : String)
  | order (o : ℕ)
  | k (x : ℝ)
  | radius (x : ℝ)
  | angle (x : ℝ)
  | bet (x : ℝ)
  | side (x : ℝ)
  | acheat
  | m1 (m : ℕ)
  | basis (N : ℤ) (size : ℕ × ℕ)
  | run (e : Ev)

/-- io_util.py:42-76 `print_options` as called by run.py; `sizes` is the list of the values of `get_n_basis` -/
noncomputable def printOptions (args : RunArgs) (pr : RunProblem) (sizes : List (ℤ × (ℕ × ℕ))) : List MainEv :=
  [.heading args.problem args.boundary, .order args.order, .k pr.k, .radius probR, .angle probA, .bet (bet0 args.boundary),
    .side probAD]
  ++ (if args.acheat then [.acheat] else [.m1 (getM1 none pr.m1Dict args.boundary)])
  ++ sizes.map fun p => .basis p.1 p.2

/-- ps/ps.py:18-22 `get_M` (`None` for any other order).  Only abcoef.py, which `run` does not call, would read it. -/
def getM (order : ℕ) : Option ℕ := if order = 2 then some 3 else if order = 4 then some 7 else none

/-- a constructed `PizzaSolver` with its `ap_sol_f` -/
structure MainSolver where
  n : ℕ
  s : PSolver
  ap : Arr n

/-- ps/ps.py:27-59 `PizzaSolver(options)`.  In solver.py:84-86 the call of `eval_f` for the first interior node does not return if
the class defines no source: a RecursionError (C73).  The sizes of the basis have been found before by `print_options`. -/
noncomputable def mainBuild (iter : Iter) (b : Brentq) (pr : RunProblem) (r : ℝ → ℝ) (order : ℕ) (size : ℤ → ℕ × ℕ) :
    ℤ → Py MainSolver
  | .ofNat (n + 1) => do
    let s ← psInit iter (mkEnv b (n + 1) probAD probA probR r) order pr.k (1 / 1000) (size (n + 1)).1 (size (n + 1)).2
      (pr.src.getD { zeroSource with homogeneous := false })
    if pr.src.isNone ∧ iter 6 s.G.Mplus ≠ [] then throw .recursionError
    let ap ← initApSolF n iter s
    return ⟨n, s, ap⟩
  | _ => throw .zeroDivisionError   -- not reached: `get_n_basis` does not return for `N < 16` (C59)

/-- an array with its size -/
abbrev AnyArr := (n : ℕ) × Arr n

/-- ps/ps.py:217-257 `run` -/
noncomputable def mainSolve (iter : Iter) (fit : Chebfit) (lstsq : Lstsq) (pr : RunProblem) (r : ℝ → ℝ) (m : MainSolver) :
    Py (Option (SolveResult AnyArr)) :=
  match pr.bc with
  | none => throw .attributeError
  | some bc => do
    let res ← psRunPrinting iter m.s m.ap fit (chebRoots 1024) (fun x sid => pyGet (bc r x sid)) lstsq pr.expected
    return some ⟨res.1.error, ⟨m.n, res.1.uAct⟩⟩

/-- solver.py:110-130 `calc_rel_convergence`; `u_act` is a NumPy array -/
noncomputable def mainRel (iter : Iter) (m : MainSolver) (u0 u1 u2 : AnyArr) : Py ℝ :=
  arrRelConvergence iter m.s.G.Mplus u0.2 u1.2 u2.2

/-- run.py:42-102.  `none`: the program does not end within the fuel, the number of passes of each of the `while` loops of
`get_N_list` and `get_n_basis`. -/
noncomputable def runMain (iter : Iter) (b : Brentq) (fit : Chebfit) (lstsq : Lstsq) (fuel : ℕ) (args : RunArgs) :
    Option (List MainEv × Py Unit) :=
  match problemTable.lookup args.problem with
  | none => some ([], .error .keyError)
  | some pr =>
    match chooseBoundary args.boundary with
    | .error e => some ([], .error e)
    | .ok r => do
      let Ns ← getNList fuel args.N args.c
      let sizes ← Ns.mapM fun N => (getNBasis (some pr.nBasis) defaultNBasis fuel N).map fun v => (N, v)
      let size : ℤ → ℕ × ℕ := fun N => (getNBasis (some pr.nBasis) defaultNBasis fuel N).getD (0, 0)
      let out := runLoop ⟨mainBuild iter b pr r args.order size, mainSolve iter fit lstsq pr r, mainRel iter⟩
        (args.r || pr.expected.isNone) {} Ns
      return (printOptions args pr sizes ++ out.1.map .run, out.2.map fun _ => ())

end Pot
