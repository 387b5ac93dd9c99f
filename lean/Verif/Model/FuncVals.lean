import Verif.Model.Calls

/-!
# Functions that are stored or passed, and where they are called

The places of the repository that hold a function: parameters, local variables, attributes and results that are called, or from which such a
function is copied (`Slot`); for each the places that put a function there (`src`); and all calls of them with the number of arguments (`uses`; they have no
keyword arguments).

A function is one of Model/Calls.lean (a method is bound, so `self` does not count), a lambda, a result of `lambdify` (with as many parameters
as symbols are given), an object of `interp2d` (called with `x, y`, optionally `dx, dy, assume_sorted`), or `None` where a variable has no
function in it.  A function in an attribute of an instance does not get `self`.

Simplifications.  A slot holds any of the functions that are put there anywhere; a parameter of a method gets the functions of all calls.
Library functions that call their argument are recorded as a call at the same place: `brentq` with one argument, `odeint` with two, `Pool.map` with
one.  Left out: library functions in variables (`diff = sympy.diff`), classes in variables and tables (Model/Classes.lean), functions given to argparse
(`type=int`), scripts/abcoef/k_test.py (its `calc_a_coef` is that of a module `star.shared` that does not exist), and scripts/polarfd/test.py:67, whose
arguments do not fit (`Calls.misfits`).
-/

namespace Pot
namespace FuncVals

open Calls

/-- a function as a value -/
inductive Fun where
  /-- a function or bound method, by its number in `Calls.fns` -/
  | fn (i : ℕ)
  /-- a lambda with `n` parameters -/
  | lam (place : String) (n : ℕ)
  /-- a result of `lambdify` with `n` symbols -/
  | lambdified (place : String) (n : ℕ)
  /-- an object of `interp2d` -/
  | interp2d (place : String)
  /-- `None` -/
  | none
  deriving DecidableEq

/-- the signature; the names of the parameters of a lambda do not matter, as there are no keyword arguments -/
def sigOf : Fun → Option Sig
  | .fn i => (fns[i]?).map fun f => f.sig
  | .lam _ n | .lambdified _ n => some ⟨List.range n, n, false, false⟩
  | .interp2d _ => some ⟨List.range 5, 2, false, false⟩
  | .none => Option.none

/-- why a call ends in `TypeError` -/
inductive CallErr where
  /-- the object is not callable -/
  | notCallable
  /-- the arguments do not fit -/
  | args (e : ArgErr)
  deriving DecidableEq

variable {V : Type}

/-- a call with positional arguments -/
def call (f : Fun) (args : List V) : Except CallErr (Frame V) :=
  match sigOf f with
  | Option.none => .error .notCallable
  | some s => match bind s args [] with
    | .ok F => .ok F
    | .error e => .error (.args e)

/-- a place that holds a function -/
inductive Slot where
  /-- the function given to `brentq` (problems/boundary.py:151) -/
  | brentqF
  /-- the function given to `odeint` (ps/ode.py:65) -/
  | odeintF
  /-- the function given to `Pool.map` (scripts/multirun.py:39) -/
  | poolMultirun
  /-- the function given to `Pool.map` (scripts/optimize_basis.py:70) -/
  | poolOptimize
  /-- an element of `derivs` (chebyshev.py:30-32) -/
  | chebDerivs
  /-- parameter `func` of `arc_dst` (fourier.py:91) -/
  | arcDstFunc
  /-- parameter `func` of the lambda of ps/ode.py:22 -/
  | odeFunc
  /-- local `arc_dst` of `calc_z1_fourier` (ps/ode.py:22) -/
  | odeArcDst
  /-- parameter `initial_func` of `calc_z1_fourier` (ps/ode.py:21) -/
  | odeInitial
  /-- parameter `d_initial_func` of `calc_z1_fourier` (ps/ode.py:21) -/
  | odeDInitial
  /-- parameter `eval_f1` of `calc_z1_fourier` (ps/ode.py:21) -/
  | odeF1
  /-- local `lam` of `my_lambdify` (ps/zmethod.py:104) -/
  | lam
  /-- the results of `my_lambdify` (ps/zmethod.py:101-114) -/
  | myLambdify
  /-- local `v_series_lambda` of `do_algebra` (ps/zmethod.py:116) -/
  | vSeriesLambda
  /-- `self.eval_v_asympt` of `ZMethod` (ps/zmethod.py:123) -/
  | zVAsympt
  /-- `self.eval_initial_func` of `ZMethod` (ps/zmethod.py:125) -/
  | zInitial
  /-- `self.eval_d_initial_func` of `ZMethod` (ps/zmethod.py:126) -/
  | zDInitial
  /-- `self.eval_v_series` of `ZMethod` (ps/zmethod.py:127) -/
  | zVSeries
  /-- `self.eval_gq` of `ZMethod` (ps/zmethod.py:130) -/
  | zGq
  /-- `self.eval_f1` of `ZMethod` (ps/zmethod.py:131) -/
  | zF1
  /-- `self.to_dst` of `SingularKnown` (problems/singular.py:32-35; nothing passes `to_dst`) -/
  | toDst
  /-- the methods `eval_phi0` of the problems, as values (problems/sing_ihz.py) -/
  | phi0
  /-- the methods `eval_phi1` of the problems, as values (problems/sing_ihz.py) -/
  | phi1
  /-- the methods `eval_phi2` of the problems, as values (problems/sing_ihz.py) -/
  | phi2
  /-- the methods `eval_expected_polar` of the problems, as values -/
  | expectedPolar
  /-- local `zero` of `do_z_BVP` (ps/zmethod.py:219) -/
  | zero
  /-- parameter `eval_phi_initial` of `PolarFD.solve` (ps/polarfd.py:198) -/
  | solvePhiInitial
  /-- parameter `eval_phi0` of `PolarFD.solve` (ps/polarfd.py:198) -/
  | solvePhi0
  /-- parameter `eval_phi1` of `PolarFD.solve` (ps/polarfd.py:198) -/
  | solvePhi1
  /-- parameter `eval_phi2` of `PolarFD.solve` (ps/polarfd.py:198) -/
  | solvePhi2
  /-- parameter `eval_f` of `PolarFD.solve` (ps/polarfd.py:198) -/
  | solveF
  /-- parameter `eval_d_f_r` of `PolarFD.solve` (ps/polarfd.py:198) -/
  | solveDFr
  /-- parameter `eval_d2_f_r` of `PolarFD.solve` (ps/polarfd.py:198) -/
  | solveD2Fr
  /-- parameter `eval_d2_f_th` of `PolarFD.solve` (ps/polarfd.py:198) -/
  | solveD2Fth
  /-- `self.eval_phi_initial` of `PolarFD` (ps/polarfd.py:205) -/
  | pfPhiInitial
  /-- `self.eval_phi0` of `PolarFD` (ps/polarfd.py:206) -/
  | pfPhi0
  /-- `self.eval_phi1` of `PolarFD` (ps/polarfd.py:207) -/
  | pfPhi1
  /-- `self.eval_phi2` of `PolarFD` (ps/polarfd.py:208) -/
  | pfPhi2
  /-- `self.eval_f` of `PolarFD` (ps/polarfd.py:210) -/
  | pfF
  /-- `self.eval_d_f_r` of `PolarFD` (ps/polarfd.py:211) -/
  | pfDFr
  /-- `self.eval_d2_f_r` of `PolarFD` (ps/polarfd.py:212) -/
  | pfD2Fr
  /-- `self.eval_d2_f_th` of `PolarFD` (ps/polarfd.py:213) -/
  | pfD2Fth
  /-- parameter `eval_bc0` of `calc_a_coef` (abcoef.py:11) -/
  | aCoefBc0
  /-- parameter `func` of `get_chebyshev_coef` (ps/basis.py:91) -/
  | chebFunc
  /-- local `bc` of `calc_c0` (ps/basis.py:121) -/
  | bc
  /-- local `eval_phi0` of `ZMethod.calc_a_coef` (ps/zmethod.py:255) -/
  | aPhi0
  /-- `self.v_interp` of `ZMethod` (ps/zmethod.py:342) -/
  | vInterp
  /-- local `real_interp` of `create_v_interp` (ps/zmethod.py:336) -/
  | realInterp
  /-- local `imag_interp` of `create_v_interp` (ps/zmethod.py:337) -/
  | imagInterp
  /-- local `eval_v_asympt` of `do_u_BVP` (ps/zmethod.py:350) -/
  | uVAsympt
  /-- local `eval_phi0` of `do_u_BVP` (ps/zmethod.py:353) -/
  | uPhi0
  /-- local `eval_phi1` of `do_u_BVP` (ps/zmethod.py:354) -/
  | uPhi1
  /-- local `eval_phi2` of `do_u_BVP` (ps/zmethod.py:355) -/
  | uPhi2
  /-- local `eval_expected_polar` of `do_u_BVP` (ps/zmethod.py:356) -/
  | uExpected
  /-- local `p` of `IHZ_Bessel_Quadratic.eval_phi0` (problems/sing_ihz.py:231) -/
  | quadP
  /-- `self.eval_r` of `Boundary` (problems/boundary.py:46) -/
  | bR
  /-- `self.eval_d_r_th` of `Boundary` (problems/boundary.py:59) -/
  | bDRTh
  /-- `self.eval_d2_r_th` of `Boundary` (problems/boundary.py:60) -/
  | bD2RTh
  /-- `self.eval_d_x_th` of `Boundary` (problems/boundary.py:62) -/
  | bDXTh
  /-- `self.eval_d_y_th` of `Boundary` (problems/boundary.py:63) -/
  | bDYTh
  /-- `self.eval_d_th_s` of `Boundary` (problems/boundary.py:89) -/
  | bDThS
  /-- `self.eval_d2_th_s` of `Boundary` (problems/boundary.py:90) -/
  | bD2ThS
  /-- `self.eval_d3_th_s` of `Boundary` (problems/boundary.py:91) -/
  | bD3ThS
  /-- `self.eval_d4_th_s` of `Boundary` (problems/boundary.py:92) -/
  | bD4ThS
  /-- `self.eval_curv` of `Boundary` (problems/boundary.py:105) -/
  | bCurv
  /-- `self.eval_d_curv_th` of `Boundary` (problems/boundary.py:106) -/
  | bDCurvTh
  /-- `self.eval_d2_curv_th` of `Boundary` (problems/boundary.py:107) -/
  | bD2CurvTh
  /-- `self.f_polar_lambda` of `SympyProblem` (problems/sympy_problem.py:38) -/
  | sPolarLambda
  /-- `self.eval_d_f_r` of `SympyProblem` (problems/sympy_problem.py:61) -/
  | sDFR
  /-- `self.eval_d2_f_r` of `SympyProblem` (problems/sympy_problem.py:64) -/
  | sD2FR
  /-- `self.eval_d_f_th` of `SympyProblem` (problems/sympy_problem.py:67) -/
  | sDFTh
  /-- `self.eval_d2_f_th` of `SympyProblem` (problems/sympy_problem.py:70) -/
  | sD2FTh
  /-- `self.eval_d2_f_r_th` of `SympyProblem` (problems/sympy_problem.py:73) -/
  | sD2FRTh
  /-- `self.apply_L` of `PizzaSolver` (ps/ps.py:56) -/
  | applyL
  /-- `self.solve_ap` of `PizzaSolver` (ps/ps.py:57) -/
  | solveAp
  /-- `eval_v_asympt` of scripts/polarfd/sym.py:32 -/
  | symVAsympt
  /-- `v_interp` of scripts/zmethod/interp_test.py:46, the result of `create_v_interp`, which has no `return` -/
  | testInterp
  deriving DecidableEq


/-- a place that puts a function into a slot -/
inductive Src where
  /-- this function -/
  | val (place : String) (f : Fun)
  /-- the function of another slot -/
  | flow (place : String) (s : Slot)

/-- the place in the source -/
def Src.place : Src → String
  | .val p _ | .flow p _ => p

/-- all places that put a function into a slot -/
def src : Slot → List Src
  | .brentqF => [.val "problems/boundary.py:151" (.fn 40)]
  | .odeintF => [.val "ps/ode.py:65" (.fn 157)]
  | .poolMultirun => [.val "scripts/multirun.py:39" (.fn 240)]
  | .poolOptimize => [.val "scripts/optimize_basis.py:70" (.fn 242)]
  | .chebDerivs => [.val "chebyshev.py:31" (.fn 4), .val "chebyshev.py:31" (.fn 5), .val "chebyshev.py:31" (.fn 6), .val "chebyshev.py:31" (.fn 7),
      .val "chebyshev.py:31" (.fn 8), .val "chebyshev.py:31" (.fn 9)]
  | .arcDstFunc => [.flow "problems/singular.py:37" .toDst, .flow "ps/ode.py:22" .odeFunc, .val "ps/ode.py:31" (.lam "ps/ode.py:31" 1),
      .val "ps/zmethod.py:191" (.fn 196), .val "ps/zmethod.py:288" (.fn 204), .val "ps/zmethod.py:293" (.fn 203)]
  | .odeFunc => [.val "ps/ode.py:30" (.lam "ps/ode.py:30" 1), .val "ps/ode.py:43" (.lam "ps/ode.py:43" 1),
      .val "ps/ode.py:56" (.lam "ps/ode.py:56" 1), .val "ps/ode.py:57" (.lam "ps/ode.py:57" 1)]
  | .odeArcDst => [.val "ps/ode.py:22" (.lam "ps/ode.py:22" 1)]
  | .odeInitial => [.flow "ps/zmethod.py:166" .zInitial]
  | .odeDInitial => [.flow "ps/zmethod.py:166" .zDInitial]
  | .odeF1 => [.flow "ps/zmethod.py:166" .zF1]
  | .lam => [.val "ps/zmethod.py:104" (.lambdified "ps/zmethod.py:104" 2)]
  | .myLambdify => [.val "ps/zmethod.py:114" (.fn 193)]
  | .vSeriesLambda => [.flow "ps/zmethod.py:116" .myLambdify]
  | .zVAsympt => [.flow "ps/zmethod.py:123" .myLambdify]
  | .zInitial => [.flow "ps/zmethod.py:125" .myLambdify]
  | .zDInitial => [.flow "ps/zmethod.py:126" .myLambdify]
  | .zVSeries => [.flow "ps/zmethod.py:127" .myLambdify]
  | .zGq => [.flow "ps/zmethod.py:130" .myLambdify]
  | .zF1 => [.flow "ps/zmethod.py:131" .myLambdify]
  | .toDst => [.val "problems/singular.py:35" (.lam "problems/singular.py:35" 1)]
  | .phi0 => [.val "problems/sing_ihz.py:140" (.fn 59), .val "problems/sing_ihz.py:159" (.fn 63), .val "problems/sing_ihz.py:225" (.fn 68)]
  | .phi1 => [.val "problems/sing_ihz.py:144" (.fn 60), .val "problems/sing_ihz.py:167" (.fn 64), .val "problems/sing_ihz.py:235" (.fn 69)]
  | .phi2 => [.val "problems/sing_ihz.py:150" (.fn 61), .val "problems/sing_ihz.py:178" (.fn 65), .val "problems/sing_ihz.py:241" (.fn 70)]
  | .expectedPolar => [.val "problems/problem.py:26" (.fn 47), .val "problems/sing_ihz.py:153" (.fn 62), .val "problems/singular.py:42" (.fn 72)]
  | .zero => [.val "ps/zmethod.py:219" (.lam "ps/zmethod.py:219" 2)]
  | .solvePhiInitial => [.val "ps/zmethod.py:221" (.lam "ps/zmethod.py:222" 1)]
  | .solvePhi0 => [.val "ps/zmethod.py:221" (.fn 199)]
  | .solvePhi1 => [.flow "ps/zmethod.py:221" .phi1]
  | .solvePhi2 => [.flow "ps/zmethod.py:221" .phi2]
  | .solveF => [.flow "ps/zmethod.py:221" .zero]
  | .solveDFr => [.flow "ps/zmethod.py:221" .zero]
  | .solveD2Fr => [.flow "ps/zmethod.py:221" .zero]
  | .solveD2Fth => [.flow "ps/zmethod.py:221" .zero]
  | .pfPhiInitial => [.flow "ps/polarfd.py:205" .solvePhiInitial]
  | .pfPhi0 => [.flow "ps/polarfd.py:206" .solvePhi0]
  | .pfPhi1 => [.flow "ps/polarfd.py:207" .solvePhi1]
  | .pfPhi2 => [.flow "ps/polarfd.py:208" .solvePhi2]
  | .pfF => [.flow "ps/polarfd.py:210" .solveF]
  | .pfDFr => [.flow "ps/polarfd.py:211" .solveDFr]
  | .pfD2Fr => [.flow "ps/polarfd.py:212" .solveD2Fr]
  | .pfD2Fth => [.flow "ps/polarfd.py:213" .solveD2Fth]
  | .aCoefBc0 => [.val "ps/zmethod.py:261" (.fn 201), .val "scripts/abcoef/bet_generate.py:61" (.fn 214),
      .val "scripts/abcoef/generate_data.py:62" (.fn 218), .val "scripts/abcoef/generate_data2.py:51" (.fn 221),
      .val "scripts/abcoef/run_test.py:47" (.fn 227), .val "scripts/abcoef/run_test.py:77" (.fn 227)]
  | .chebFunc => [.flow "ps/basis.py:122" .bc, .val "ps/basis.py:128" (.fn 100), .val "ps/debug.py:101" (.fn 105)]
  | .bc => [.val "ps/basis.py:121" (.lam "ps/basis.py:121" 1)]
  | .aPhi0 => [.flow "ps/zmethod.py:255" .phi0]
  | .vInterp => [.val "ps/zmethod.py:342" (.fn 206)]
  | .realInterp => [.val "ps/zmethod.py:336" (.interp2d "ps/zmethod.py:336")]
  | .imagInterp => [.val "ps/zmethod.py:337" (.interp2d "ps/zmethod.py:337")]
  | .uVAsympt => [.flow "ps/zmethod.py:350" .zVAsympt]
  | .uPhi0 => [.flow "ps/zmethod.py:353" .phi0]
  | .uPhi1 => [.flow "ps/zmethod.py:354" .phi1]
  | .uPhi2 => [.flow "ps/zmethod.py:355" .phi2]
  | .uExpected => [.flow "ps/zmethod.py:356" .expectedPolar]
  | .quadP => [.val "problems/sing_ihz.py:231" (.lam "problems/sing_ihz.py:231" 1)]
  | .bR => [.val "problems/boundary.py:46" (.lambdified "problems/boundary.py:46" 1)]
  | .bDRTh => [.val "problems/boundary.py:59" (.lambdified "problems/boundary.py:59" 1)]
  | .bD2RTh => [.val "problems/boundary.py:60" (.lambdified "problems/boundary.py:60" 1)]
  | .bDXTh => [.val "problems/boundary.py:62" (.lambdified "problems/boundary.py:62" 1)]
  | .bDYTh => [.val "problems/boundary.py:63" (.lambdified "problems/boundary.py:63" 1)]
  | .bDThS => [.val "problems/boundary.py:89" (.lambdified "problems/boundary.py:89" 1)]
  | .bD2ThS => [.val "problems/boundary.py:90" (.lambdified "problems/boundary.py:90" 1)]
  | .bD3ThS => [.val "problems/boundary.py:91" (.lambdified "problems/boundary.py:91" 1)]
  | .bD4ThS => [.val "problems/boundary.py:92" (.lambdified "problems/boundary.py:92" 1)]
  | .bCurv => [.val "problems/boundary.py:105" (.lambdified "problems/boundary.py:105" 1)]
  | .bDCurvTh => [.val "problems/boundary.py:106" (.lambdified "problems/boundary.py:106" 1)]
  | .bD2CurvTh => [.val "problems/boundary.py:107" (.lambdified "problems/boundary.py:107" 1)]
  | .sPolarLambda => [.val "problems/sympy_problem.py:38" (.lambdified "problems/sympy_problem.py:38" 2)]
  | .sDFR => [.val "problems/sympy_problem.py:61" (.lambdified "problems/sympy_problem.py:61" 2)]
  | .sD2FR => [.val "problems/sympy_problem.py:64" (.lambdified "problems/sympy_problem.py:64" 2)]
  | .sDFTh => [.val "problems/sympy_problem.py:67" (.lambdified "problems/sympy_problem.py:67" 2)]
  | .sD2FTh => [.val "problems/sympy_problem.py:70" (.lambdified "problems/sympy_problem.py:70" 2)]
  | .sD2FRTh => [.val "problems/sympy_problem.py:73" (.lambdified "problems/sympy_problem.py:73" 2)]
  | .applyL => [.val "ps/ps.py:56" (.lam "ps/ps.py:56" 1)]
  | .solveAp => [.val "ps/ps.py:57" (.lam "ps/ps.py:57" 1)]
  | .symVAsympt => [.val "scripts/polarfd/sym.py:32" (.lambdified "scripts/polarfd/sym.py:32" 2)]
  | .testInterp => [.val "scripts/zmethod/interp_test.py:46" .none]

/-- a call of a slot: where it is, the slot, and the number of arguments -/
structure Use where
  place : String
  slot : Slot
  n : ℕ

/-- all calls of a slot -/
def uses : List Use := [
  ⟨"problems/boundary.py:151", .brentqF, 1⟩, ⟨"ps/ode.py:65", .odeintF, 2⟩, ⟨"scripts/multirun.py:39", .poolMultirun, 1⟩,
  ⟨"scripts/optimize_basis.py:70", .poolOptimize, 1⟩, ⟨"chebyshev.py:37", .chebDerivs, 2⟩, ⟨"fourier.py:95", .arcDstFunc, 1⟩,
  ⟨"ps/ode.py:30", .odeArcDst, 1⟩, ⟨"ps/ode.py:43", .odeArcDst, 1⟩, ⟨"ps/ode.py:56", .odeArcDst, 1⟩, ⟨"ps/ode.py:57", .odeArcDst, 1⟩,
  ⟨"ps/ode.py:56", .odeInitial, 2⟩, ⟨"ps/ode.py:57", .odeDInitial, 2⟩, ⟨"ps/ode.py:30", .odeF1, 2⟩, ⟨"ps/ode.py:31", .odeF1, 2⟩,
  ⟨"ps/ode.py:43", .odeF1, 2⟩, ⟨"ps/zmethod.py:112", .lam, 2⟩, ⟨"ps/zmethod.py:118", .vSeriesLambda, 2⟩,
  ⟨"ps/zmethod.py:222", .zVSeries, 2⟩, ⟨"ps/zmethod.py:188", .zGq, 2⟩, ⟨"ps/zmethod.py:214", .zGq, 2⟩,
  ⟨"ps/polarfd.py:59", .pfPhiInitial, 1⟩, ⟨"ps/polarfd.py:101", .pfPhi0, 1⟩, ⟨"ps/polarfd.py:87", .pfPhi1, 1⟩,
  ⟨"ps/polarfd.py:79", .pfPhi2, 1⟩, ⟨"ps/polarfd.py:173", .pfF, 2⟩, ⟨"ps/polarfd.py:174", .pfDFr, 2⟩, ⟨"ps/polarfd.py:175", .pfD2Fr, 2⟩,
  ⟨"ps/polarfd.py:176", .pfD2Fth, 2⟩, ⟨"abcoef.py:24", .aCoefBc0, 1⟩, ⟨"ps/basis.py:107", .chebFunc, 1⟩,
  ⟨"ps/zmethod.py:259", .aPhi0, 1⟩, ⟨"ps/zmethod.py:259", .vInterp, 2⟩, ⟨"ps/zmethod.py:286", .vInterp, 2⟩,
  ⟨"ps/zmethod.py:340", .realInterp, 2⟩, ⟨"ps/zmethod.py:340", .imagInterp, 2⟩, ⟨"ps/zmethod.py:376", .uVAsympt, 2⟩,
  ⟨"ps/zmethod.py:384", .uVAsympt, 2⟩, ⟨"ps/zmethod.py:387", .uVAsympt, 2⟩, ⟨"ps/zmethod.py:392", .uVAsympt, 2⟩,
  ⟨"ps/zmethod.py:376", .uPhi0, 1⟩, ⟨"ps/zmethod.py:384", .uPhi1, 1⟩, ⟨"ps/zmethod.py:387", .uPhi2, 1⟩,
  ⟨"ps/zmethod.py:392", .uExpected, 2⟩, ⟨"problems/sing_ihz.py:233", .quadP, 1⟩, ⟨"abcoef.py:22", .bR, 1⟩, ⟨"domain_util.py:41", .bR, 1⟩,
  ⟨"domain_util.py:58", .bR, 1⟩, ⟨"problems/boundary.py:129", .bR, 1⟩, ⟨"problems/boundary.py:159", .bR, 1⟩,
  ⟨"problems/sing_ihz.py:141", .bR, 1⟩, ⟨"problems/sing_ihz.py:164", .bR, 1⟩, ⟨"problems/sing_ihz.py:230", .bR, 1⟩,
  ⟨"ps/debug.py:52", .bR, 1⟩, ⟨"ps/inhomo.py:19", .bR, 1⟩, ⟨"ps/inhomo.py:65", .bR, 1⟩, ⟨"ps/inhomo.py:172", .bR, 1⟩,
  ⟨"ps/inhomo.py:224", .bR, 1⟩, ⟨"ps/inhomo.py:274", .bR, 1⟩, ⟨"ps/ps.py:76", .bR, 1⟩, ⟨"ps/zmethod.py:258", .bR, 1⟩,
  ⟨"scripts/abcoef/bet_generate.py:42", .bR, 1⟩, ⟨"scripts/abcoef/generate_data.py:31", .bR, 1⟩,
  ⟨"scripts/abcoef/generate_data2.py:30", .bR, 1⟩, ⟨"scripts/abcoef/run_test.py:37", .bR, 1⟩, ⟨"problems/boundary.py:130", .bDRTh, 1⟩,
  ⟨"ps/inhomo.py:201", .bDRTh, 1⟩, ⟨"ps/inhomo.py:310", .bDRTh, 1⟩, ⟨"ps/inhomo.py:202", .bD2RTh, 1⟩, ⟨"ps/inhomo.py:311", .bD2RTh, 1⟩,
  ⟨"problems/boundary.py:110", .bDXTh, 1⟩, ⟨"problems/boundary.py:110", .bDYTh, 1⟩, ⟨"ps/extend.py:247", .bDThS, 1⟩,
  ⟨"ps/inhomo.py:199", .bDThS, 1⟩, ⟨"ps/inhomo.py:308", .bDThS, 1⟩, ⟨"ps/extend.py:248", .bD2ThS, 1⟩, ⟨"ps/inhomo.py:200", .bD2ThS, 1⟩,
  ⟨"ps/inhomo.py:309", .bD2ThS, 1⟩, ⟨"ps/extend.py:249", .bD3ThS, 1⟩, ⟨"ps/extend.py:250", .bD4ThS, 1⟩, ⟨"ps/extend.py:244", .bCurv, 1⟩,
  ⟨"ps/inhomo.py:203", .bCurv, 1⟩, ⟨"ps/inhomo.py:312", .bCurv, 1⟩, ⟨"ps/extend.py:245", .bDCurvTh, 1⟩,
  ⟨"ps/extend.py:246", .bD2CurvTh, 1⟩, ⟨"problems/sympy_problem.py:94", .sPolarLambda, 2⟩, ⟨"problems/sympy_problem.py:104", .sDFR, 2⟩,
  ⟨"problems/sympy_problem.py:121", .sDFR, 2⟩, ⟨"ps/inhomo.py:196", .sDFR, 2⟩, ⟨"ps/inhomo.py:296", .sDFR, 2⟩,
  ⟨"problems/sympy_problem.py:124", .sD2FR, 2⟩, ⟨"ps/inhomo.py:197", .sD2FR, 2⟩, ⟨"ps/inhomo.py:292", .sD2FR, 2⟩,
  ⟨"ps/inhomo.py:306", .sD2FR, 2⟩, ⟨"problems/sympy_problem.py:105", .sDFTh, 2⟩, ⟨"problems/sympy_problem.py:122", .sDFTh, 2⟩,
  ⟨"ps/inhomo.py:194", .sDFTh, 2⟩, ⟨"ps/inhomo.py:288", .sDFTh, 2⟩, ⟨"problems/sympy_problem.py:126", .sD2FTh, 2⟩,
  ⟨"ps/inhomo.py:195", .sD2FTh, 2⟩, ⟨"ps/inhomo.py:285", .sD2FTh, 2⟩, ⟨"ps/inhomo.py:304", .sD2FTh, 2⟩,
  ⟨"problems/sympy_problem.py:125", .sD2FRTh, 2⟩, ⟨"ps/inhomo.py:198", .sD2FRTh, 2⟩, ⟨"ps/inhomo.py:284", .sD2FRTh, 2⟩,
  ⟨"ps/inhomo.py:293", .sD2FRTh, 2⟩, ⟨"ps/inhomo.py:307", .sD2FRTh, 2⟩, ⟨"ps/ps.py:148", .applyL, 1⟩, ⟨"ps/ps.py:72", .solveAp, 1⟩,
  ⟨"ps/ps.py:153", .solveAp, 1⟩, ⟨"scripts/polarfd/test.py:19", .symVAsympt, 2⟩, ⟨"scripts/zmethod/interp_test.py:52", .testInterp, 2⟩]

/-- the function of Model/Calls.lean that the slot is a parameter of, the name of the parameter, and its position -/
def paramOf : Slot → Option (ℕ × ℕ × ℕ)
  | .arcDstFunc => some (29, Key.func, 1)
  | .odeInitial => some (156, Key.initial_func, 0)
  | .odeDInitial => some (156, Key.d_initial_func, 1)
  | .odeF1 => some (156, Key.eval_f1, 2)
  | .solvePhiInitial => some (170, Key.eval_phi_initial, 1)
  | .solvePhi0 => some (170, Key.eval_phi0, 2)
  | .solvePhi1 => some (170, Key.eval_phi1, 3)
  | .solvePhi2 => some (170, Key.eval_phi2, 4)
  | .solveF => some (170, Key.eval_f, 5)
  | .solveDFr => some (170, Key.eval_d_f_r, 6)
  | .solveD2Fr => some (170, Key.eval_d2_f_r, 7)
  | .solveD2Fth => some (170, Key.eval_d2_f_th, 8)
  | .aCoefBc0 => some (0, Key.eval_bc0, 2)
  | .chebFunc => some (98, Key.func, 1)
  | _ => none

/-- all lambdas of the repository and the numbers of their parameters -/
def lambdas : List (String × ℕ) := [("problems/sing_ihz.py:231", 1), ("problems/singular.py:35", 1), ("ps/basis.py:121", 1), ("ps/ode.py:22", 1),
  ("ps/ode.py:30", 1), ("ps/ode.py:31", 1), ("ps/ode.py:43", 1), ("ps/ode.py:56", 1), ("ps/ode.py:57", 1), ("ps/ps.py:56", 1),
  ("ps/ps.py:57", 1), ("ps/zmethod.py:219", 2), ("ps/zmethod.py:222", 1)]

/-- `Holds s f`: some sequence of steps puts `f` into the slot -/
inductive Holds : Slot → Fun → Prop where
  | val {s : Slot} {p : String} {f : Fun} : Src.val p f ∈ src s → Holds s f
  | flow {s t : Slot} {p : String} {f : Fun} : Src.flow p t ∈ src s → Holds t f → Holds s f

end FuncVals
end Pot
