import Verif.Model.Trend
import Mathlib.Analysis.SpecialFunctions.Log.Base

/-!
# Model of `scripts/abcoef/bet_generate.py`, `bet_plot.py` and `expansion_error.py`

The command line, the progress messages and the drawing are left out; what is drawn is a list of points.
-/

namespace Pot
open Real Classical

/-- problems/boundary.py:171-206 with an explicit `bet`: the function `eval_r` of `boundary_cls(R, bet)` -/
noncomputable def betBoundary (name : String) (R bet a : ℝ) : Py (ℝ → ℝ) :=
  match name with
  | "arc" => .ok (arcR R)
  | "outer-sine" => .ok (outerSineR R bet a)
  | "inner-sine" => .ok (innerSineR R bet a)
  | "sine7" => .ok (sine7R R bet a)
  | "cubic" => .ok (cubicR R bet a)
  | _ => .error .keyError

/-- `result_dict` of bet_generate.py -/
structure BetResult where
  bet : ℝ
  aError : List ℝ
  singularVals : List ℝ

/-- the variables of `test_many`: the global `m1`, `bet` and `output['results']` -/
structure BetState where
  m1 : Option ℕ
  bet : ℝ
  results : List BetResult

/-- scripts/abcoef/bet_generate.py:51-67, the body of the loop; `m1Attr` and `m1Dict` are the attributes that `get_m1` looks at -/
noncomputable def betStep (jv : ℝ → ℝ → ℝ) (lstsq : Lstsq) (sv : List (List ℂ) → List ℝ) (p : StudyProblem) (m1Attr : Option ℕ)
    (m1Dict : Option (String → Option ℕ)) (name : String) (st : BetState) : Py BetState := do
  let r ← betBoundary name p.R st.bet probA
  let m1 := st.m1.getD (getM1 m1Attr m1Dict name)
  let (aCoef, singularVals) ← abCalcFull jv lstsq sv p r m1
  let diff ← arrSub aCoef (p.fftA.take 7)
  return ⟨some m1, st.bet * 0.95, st.results ++ [⟨st.bet, arrAbs diff, singularVals⟩]⟩

/-- scripts/abcoef/bet_generate.py:45-68 `test_many` -/
noncomputable def betStudy (jv : ℝ → ℝ → ℝ) (lstsq : Lstsq) (sv : List (List ℂ) → List ℝ) (p : StudyProblem) (m1Attr : Option ℕ)
    (m1Dict : Option (String → Option ℕ)) (name : String) : Py BetState :=
  (List.range 100).foldlM (init := ⟨none, 0.5, []⟩) fun st _ => betStep jv lstsq sv p m1Attr m1Dict name st

/-- `np.log10` of a nonnegative number: `-inf` at zero -/
noncomputable def log10 (x : ℝ) : WithBot ℝ := if x = 0 then ⊥ else ((logb 10 x : ℝ) : WithBot ℝ)

/-- scripts/abcoef/bet_plot.py:17-34 with `m = 1`: the points of the two curves -/
noncomputable def betPlot (results : List BetResult) : Py (List (WithBot ℝ × WithBot ℝ × WithBot ℝ)) :=
  results.mapM fun d => do
    let e ← listGet d.aError 0
    let s ← lastOf d.singularVals
    return (log10 d.bet, log10 e, log10 s)

/-- scripts/abcoef/bet_plot.py:43 `plt.xlim(-0.25, -3)`: whether an abscissa is shown -/
def betShown (x : WithBot ℝ) : Prop := ((-3 : ℝ) : WithBot ℝ) ≤ x ∧ x ≤ ((-0.25 : ℝ) : WithBot ℝ)

/-! ## `expansion_error.py` -/

/-- scripts/abcoef/expansion_error.py:28-35 `b_expan`; the program has `mMax = 500` (line 16) -/
noncomputable def bExpan (bCoef : List ℂ) (mMax : ℕ) (nu a th : ℝ) : Py ℂ :=
  (List.range' 1 mMax).foldlM (init := 0) fun expan (m : ℕ) => do
    let b ← listGet bCoef (m - 1)
    return expan + b * ((sin (m * nu * (th - a)) : ℝ) : ℂ)

/-- scripts/abcoef/expansion_error.py:48-54, one problem: the number printed -/
noncomputable def expansionError (bCoef : List ℂ) (evalPhi0 : ℝ → ℂ) (nu a : ℝ) : Py ℝ := do
  let errs ← (linspace a (2 * π) 512).mapM fun th => do return evalPhi0 th - (← bExpan bCoef 500 nu a th)
  arrMax (arrAbs errs)

end Pot
