import Verif.Model.Main
import Verif.Model.ZMethod

/-!
# Model of the program `runz.py` as a whole

As in `Model/Main.lean`; the functions of the three problems made for the z-method are real.  What `ZMethod.run` prints itself
(`v_series_error`, `ODE error`, `b interp error`, `a_coef`) is left out; computing these numbers raises no exception.
-/

namespace Pot
open Real

/-- what `runz.py` uses of a problem class of problems/sing_ihz.py -/
structure ZProblem where
  /-- `k` -/
  k : ℝ
  /-- the expressions `g`, `v_asympt`, `v_series` -/
  g : ℝ → ℝ → ℝ
  vAsympt : ℝ → ℝ → ℝ
  vSeries : ℝ → ℝ → ℝ
  /-- `eval_v` -/
  evalV : ℝ → ℝ → ℝ
  /-- `eval_phi0` as a function of `boundary.eval_r`, `eval_phi1`, `eval_phi2` -/
  phi0 : (ℝ → ℝ) → ℝ → ℝ
  phi1 : ℝ → ℝ
  phi2 : ℝ → ℝ
  /-- `name == 'iz-bessel'` -/
  isIz : Bool
  /-- `eval_expected_polar` of the class (used if `isIz`) -/
  expectedPolar : ℝ → ℝ → ℝ

/-- problems/sing_ihz.py:135-154 `IZ_Bessel` -/
noncomputable def izBessel (jv : ℝ → ℝ → ℝ) : ZProblem where
  k := ihK
  g := ihG jv false ihKK ihK probA probNu probR
  vAsympt := ihVAsympt ihKK ihK probA probNu zR0 probR
  vSeries := ihVSeries ihKK ihK probA probNu
  evalV := ihV jv ihKK ihK probA probNu
  phi0 := izPhi0 jv ihKK ihK probA probNu
  phi1 := izPhi1 jv ihKK ihK probA probNu
  phi2 := izPhi2
  isIz := true
  expectedPolar := izExpected jv ihKK ihK probA probNu

/-- problems/sing_ihz.py:157-179 `IHZ_Bessel_Line`; the method `eval_expected_polar` it inherits does not return (C73) and is not
called -/
noncomputable def ihzLine (jv : ℝ → ℝ → ℝ) : ZProblem where
  k := ihK
  g := ihG jv false ihKK ihK probA probNu probR
  vAsympt := ihVAsympt ihKK ihK probA probNu zR0 probR
  vSeries := ihVSeries ihKK ihK probA probNu
  evalV := ihV jv ihKK ihK probA probNu
  phi0 := linePhi0 jv ihKK ihK probA probNu
  phi1 := linePhi1 jv false ihKK ihK probNu probR
  phi2 := izPhi2
  isIz := false
  expectedPolar := fun _ _ => 0

/-- problems/sing_ihz.py:182-245 `IHZ_Bessel_Quadratic`; `eval_expected_polar` as before -/
noncomputable def ihzQuadratic (jv : ℝ → ℝ → ℝ) : ZProblem where
  k := quadK
  g := quadG jv quadK probA probNu
  vAsympt := quadVAsympt quadK probA probNu zR0 probR
  vSeries := quadVSeries quadK probA probNu
  evalV := quadV jv quadK probA probNu
  phi0 := quadPhi0 jv quadK probA probNu
  phi1 := quadPhi1 jv quadK probNu
  phi2 := quadPhi2 jv quadK probNu
  isIz := false
  expectedPolar := fun _ _ => 0

/-- problems/__init__.py:17-33 `problem_dict`, the classes with the attribute `g` -/
noncomputable def zTable (jv : ℝ → ℝ → ℝ) : List (String × ZProblem) :=
  [("iz-bessel", izBessel jv), ("ihz-bessel-line", ihzLine jv), ("ihz-bessel-quadratic", ihzQuadratic jv)]

/-- runz.py:31-46, the command line; `-r` is read, its value is not used -/
structure RunzArgs extends RunArgs where
  z1cheat : Bool := false

/-- printed lines -/
inductive MainZEv where
  | opt (e : MainEv)
  | run (e : ZEv)

/-- the functions of the libraries -/
structure ZLib where
  jv : ℝ → ℝ → ℝ
  odeint : Odeint
  spsolve : Spsolve
  interp2d : Interp2d
  fit : Chebfit
  lstsq : Lstsq
  brentq : Brentq

/-- ps/zmethod.py:44 `arc_R`, for an object of the boundary table -/
noncomputable def zArcR (bname : String) : ℝ := probR + bet0 bname

/-- ps/zmethod.py:139 `eval_gq` -/
noncomputable def zGq (zp : ZProblem) : ℝ → ℝ → ℝ := myLambdify fun r th => zp.g r th + zQ zp.k probA zp.g r th

/-- ps/zmethod.py:131 `eval_v_asympt` -/
noncomputable def zVAs (zp : ZProblem) : ℝ → ℝ → ℝ := myLambdify zp.vAsympt

/-- ps/zmethod.py:344-404 the problem `u_BVP` that `do_u_BVP` hands to `PizzaSolver` -/
noncomputable def uProblem (jv : ℝ → ℝ → ℝ) (zp : ZProblem) (aCoef : List ℂ) : RunProblem where
  k := zp.k
  src := some (spSource probAD fun r th => (zF zp.k zp.vAsympt r th : ℂ))
  expected := if zp.isIz then
      some fun x y => ((evalExpected none (some (uEvalExpectedPolar zp.expectedPolar (zVAs zp))) probA 2 x y).getD 0 : ℝ)
    else none
  bc := some fun r => uEvalBc jv r (zp.phi0 r) zp.phi1 zp.phi2 (zVAs zp) aCoef zp.k probA probNu zM
  nBasis := singNBasis
  m1Dict := none

/-- ps/zmethod.py:157-191, the expected coefficients -/
noncomputable def zmExpected (zp : ZProblem) (bname : String) : List ℝ :=
  zExpectedZ1 arcDstN zp.evalV (zGq zp) probA (zArcR bname) zM

/-- ps/zmethod.py:166-171, the ODE method -/
noncomputable def zmOde (lib : ZLib) (zp : ZProblem) (bname : String) : Py (List ℝ) :=
  odeCalc lib.odeint odeFourierN (myLambdify (zInitial zp.k probA zp.g zp.vSeries)) (myLambdify (zDInitial zp.k probA zp.g zp.vSeries))
    (myLambdify (zF1 zp.k probA zp.g)) probA probNu zp.k zR0 (zArcR bname) zM

/-- a solution `u` with the solver `pert_solver` that computed it -/
abbrev ZU := AnyArr × MainSolver

/-- ps/zmethod.py:46-62, the part of `ZMethod.run` after `calc_z1_fourier`, for `N` cells -/
noncomputable def zmSolve (iter : Iter) (lib : ZLib) (zp : ZProblem) (bname : String) (r : ℝ → ℝ) (order : ℕ) (acheat : Bool)
    (size : ℤ → ℕ × ℕ) (N : ℤ) (z1 : List ℝ) : Py (ZResult ZU (List (List ℂ))) := do
  let (p, v) ← doZBvp lib.spsolve acheat z1 (zGq zp) (myLambdify zp.vSeries) zp.phi1 zp.phi2 zp.k probA probNu zR0 (zArcR bname) zM N.toNat
  let F ← createVInterp lib.interp2d p v probR (bet0 bname) N.toNat
  let aCoef ← zCalcACoef lib.jv lib.lstsq abNodes arcDstN acheat zp.isIz (zp.phi0 r) zp.evalV F r zp.k probR probA probNu zM
    (getM1 none (some singM1) bname)
  let m ← mainBuild iter lib.brentq (uProblem lib.jv zp aCoef) r order size N
  let res ← mainSolve iter lib.fit lib.lstsq (uProblem lib.jv zp aCoef) r m
  match res with
  | none => throw .attributeError   -- `None.u_act`; `run` never returns `None` (C89)
  | some res => do
    let e ← getVError p zp.evalV v zM N.toNat
    return { v := v, vError := some e, u := (res.u, m), uError := res.error }

/-- ps/polarfd.py:239-260 `polarfd.calc_rel_convergence` on arrays -/
noncomputable def zRelV (N : ℤ) (v0 v1 v2 : List (List ℂ)) : Py ℝ :=
  pfRelConvergence N.toNat (v0.length - 1) (v1.length - 1) (v2.length - 1) (fun m l => (v0.getD m []).getD l 0)
    (fun m l => (v1.getD m []).getD l 0) fun m l => (v2.getD m []).getD l 0

/-- runz.py:128 `pert_solver.calc_rel_convergence`; `pert_solver` belongs to `u0` -/
noncomputable def zRelU (iter : Iter) (_N : ℤ) (u0 u1 u2 : ZU) : Py ℝ := mainRel iter u0.2 u0.1 u1.1 u2.1

/-- runz.py:48-139.  `none`: the program does not end within the fuel (as in `runMain`).  A smooth problem has no attribute `g`:
an AttributeError in ps/zmethod.py:65, before anything is computed. -/
noncomputable def runzMain (iter : Iter) (lib : ZLib) (fuel : ℕ) (args : RunzArgs) : Option (List MainZEv × Py Unit) :=
  match problemTable.lookup args.problem with
  | none => some ([], .error .keyError)
  | some pr =>
    match chooseBoundary args.boundary with
    | .error e => some ([], .error e)
    | .ok r => do
      let Ns ← getNList fuel args.N args.c
      let sizes ← Ns.mapM fun N => (getNBasis (some pr.nBasis) defaultNBasis fuel N).map fun v => (N, v)
      let size : ℤ → ℕ × ℕ := fun N => (getNBasis (some pr.nBasis) defaultNBasis fuel N).getD (0, 0)
      let out : List ZEv × Py (ZState ZU (List (List ℂ)) (List ℝ)) :=
        match (zTable lib.jv).lookup args.problem with
        | none => zLoop (.error .attributeError) (fun _ => .error .attributeError) args.z1cheat
            (fun _ _ => .error .attributeError) zRelV (zRelU iter) {} Ns
        | some zp => zLoop (.ok (zmExpected zp args.boundary)) (fun _ => zmOde lib zp args.boundary) args.z1cheat
            (zmSolve iter lib zp args.boundary r args.order args.acheat size) zRelV (zRelU iter) {} Ns
      return ((printOptions args.toRunArgs pr sizes).map .opt ++ out.1.map .run, out.2.map fun _ => ())

end Pot
