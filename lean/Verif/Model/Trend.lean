import Verif.Model.Study

/-!
# Model of `generate_data2.py` and of the reports that read its files

The files are a function from names to contents; of the contents what the reports read is kept (`m1_data`, `error`, `singular_vals`).
The directory is the one the programs are started in (`generate_data2.py` writes beside itself).  The number `k` enters the file names
through Python's `str`, a parameter `str`.
-/

namespace Pot
open Real Classical

/-- abcoef.py:11-36 `calc_a_coef` with both components; `sv` gives the singular values -/
noncomputable def abCalcFull (jv : ℝ → ℝ → ℝ) (lstsq : Lstsq) (sv : List (List ℂ) → List ℝ) (p : StudyProblem) (evalR : ℝ → ℝ)
    (m1 : ℕ) : Py (List ℂ × List ℝ) := do
  let phi0Data := (List.range abNodes).map fun i => p.evalPolar (evalR (abTh abNodes p.a i)) (abTh abNodes p.a i)
  let W ← abColumns jv abNodes evalR p.k p.R p.a p.nu studyM m1
  return ((lstsq W phi0Data).take studyM, sv W)

/-- the contents of a file -/
structure Trend where
  m1Data : List ℕ
  error : List (List ℝ)
  singularVals : List (List ℝ)

/-- the files in the directory -/
abbrev Files := String → Option Trend

/-- scripts/abcoef/generate_data2.py:67 `_problems` -/
def trendProblems : List String := ["trace-hat", "trace-line-sine", "trace-parabola"]
/-- scripts/abcoef/generate_data2.py:68 `_boundaries` -/
def trendBoundaries : List String := ["outer-sine", "sine7", "inner-sine", "cubic"]
/-- scripts/abcoef/generate_data2.py:69 `m1_list`: `range(10, 276, 5)` -/
def trendM1 : List ℕ := (List.range 54).map fun i => 10 + 5 * i

/-- scripts/abcoef/generate_data2.py:63, generate_report2.py:28, generate_report3.py:11, generate_report4.py:21: the name of a file -/
def trendName (problem boundary k : String) : String :=
  "m1trend_" ++ problem ++ "_" ++ boundary ++ "_" ++ k ++ ".dat"

/-- scripts/abcoef/generate_data2.py:50-57, the loop over `m1` -/
noncomputable def trendLoop (calcA : ℕ → Py (List ℂ × List ℝ)) (fft : List ℂ) : Py Trend :=
  trendM1.foldlM (init := ⟨[], [], []⟩) fun t m1 => do
    let (aCoef, singularVals) ← calcA m1
    let error ← arrSub aCoef fft
    return ⟨t.m1Data ++ [m1], t.error ++ [arrAbs error], t.singularVals ++ [singularVals]⟩

/-- scripts/abcoef/generate_data2.py:35 `problems.boundary.boundaries[boundary_name](problem.R)` -/
noncomputable def trendBoundary (p : StudyProblem) (b : String) : Py (ℝ → ℝ) :=
  match (boundaryTable p.R probA).lookup b with
  | some r => .ok r
  | none => .error .keyError

/-- scripts/abcoef/generate_data2.py:21-65 `go` -/
noncomputable def trendGo (jv : ℝ → ℝ → ℝ) (lstsq : Lstsq) (sv : List (List ℂ) → List ℝ) (str : ℝ → String)
    (get : String → StudyProblem) (files : Files) (problem boundary : String) : Py Files := do
  let p := get problem
  let r ← trendBoundary p boundary
  let t ← trendLoop (abCalcFull jv lstsq sv p r) (p.fftA.take studyM)
  return Function.update files (trendName problem boundary (str p.k)) (some t)

/-- scripts/abcoef/generate_data2.py:72-74 -/
noncomputable def generateData2 (jv : ℝ → ℝ → ℝ) (lstsq : Lstsq) (sv : List (List ℂ) → List ℝ) (str : ℝ → String)
    (get : String → StudyProblem) (files : Files) : Py Files :=
  trendProblems.foldlM (init := files) fun files problem =>
    trendBoundaries.foldlM (init := files) fun files boundary => trendGo jv lstsq sv str get files problem boundary

/-! ## The reports -/

/-- how a report stops -/
inductive RepErr
  | fileNotFound (name : String)
  | py (e : PyErr)

/-- `json.load(open(name))` -/
def readTrend (files : Files) (name : String) : Except RepErr Trend :=
  match files name with
  | some t => .ok t
  | none => .error (.fileNotFound name)

/-- an exception of the Python code -/
def liftPy {α : Type} : Py α → Except RepErr α
  | .ok x => .ok x
  | .error e => .error (.py e)

/-- `l[-1]` -/
def lastOf (l : List ℝ) : Py ℝ :=
  match l.getLast? with
  | some x => .ok x
  | none => .error .indexError

/-- scripts/abcoef/generate_report2.py:30-36, generate_report3.py:13-19: the curve drawn, the values of `m1` and of the errors -/
noncomputable def trendCurve (t : Trend) : Py (List ℕ × List ℝ) := do
  let rows ← (List.range t.error.length).mapM fun i => do
    let e ← arrMax (← listGet t.error i)
    let _ ← lastOf (← listGet t.singularVals i)
    return e
  return (t.m1Data, rows)

/-- scripts/abcoef/generate_report2.py:9-21 `data`, the problems and boundaries -/
def report2Cases : List (String × String) := [("trace-line-sine", "inner-sine"), ("trace-line-sine", "cubic")]

/-- scripts/abcoef/generate_report2.py:24-44: the curves drawn; line 6 sets `k = 6.75` -/
noncomputable def report2 (str : ℝ → String) (files : Files) : Except RepErr (List (List ℕ × List ℝ)) :=
  report2Cases.mapM fun c => do
    let t ← readTrend files (trendName c.1 c.2 (str 6.75))
    liftPy (trendCurve t)

/-- scripts/abcoef/generate_report3.py:8, generate_report4.py:13 `_k` -/
noncomputable def reportK : List ℝ := [3.25, 6.75, 10.75]

/-- scripts/abcoef/generate_report3.py:10, generate_report4.py:20: `it.product(_problems, _boundaries, _k)` -/
noncomputable def reportCases : List (String × String × ℝ) :=
  trendProblems.flatMap fun p => trendBoundaries.flatMap fun b => reportK.map fun k => (p, b, k)

/-- scripts/abcoef/generate_report3.py:10-22: the curves drawn -/
noncomputable def report3 (str : ℝ → String) (files : Files) : Except RepErr (List (List ℕ × List ℝ)) :=
  reportCases.mapM fun c => do
    let t ← readTrend files (trendName c.1 c.2.1 (str c.2.2))
    liftPy (trendCurve t)

/-- scripts/abcoef/generate_report4.py:25-26: a row of `allerror`, which has 54 entries, zero at first -/
noncomputable def errorRow (t : Trend) : Py (List ℝ) :=
  (List.range t.error.length).foldlM (init := List.replicate 54 0) fun row i => do
    let e ← arrMax (← listGet t.error i)
    if i < row.length then return row.set i e else throw .indexError

/-- scripts/abcoef/generate_report4.py:17-28: `allerror` -/
noncomputable def allError (str : ℝ → String) (files : Files) : Except RepErr (List (List ℝ)) :=
  reportCases.mapM fun c => do
    let t ← readTrend files (trendName c.1 c.2.1 (str c.2.2))
    liftPy (errorRow t)

/-- `np.median` of a list: the middle one of the sorted entries, or the mean of the two in the middle -/
noncomputable def median (l : List ℝ) : ℝ :=
  let s := l.insertionSort (· ≤ ·)
  if l.length % 2 = 1 then s.getD (l.length / 2) 0 else (s.getD (l.length / 2 - 1) 0 + s.getD (l.length / 2) 0) / 2

/-- `min` along an axis; ValueError for an empty array -/
noncomputable def arrMin : List ℝ → Py ℝ
  | [] => .error .valueError
  | x :: l => .ok (l.foldl min x)

/-- scripts/abcoef/generate_report4.py:30-32: `_min`, `_median`, `_max` for each column -/
noncomputable def report4 (str : ℝ → String) (files : Files) : Except RepErr (List (ℝ × ℝ × ℝ)) := do
  let all ← allError str files
  (List.range 54).mapM fun j => do
    let col := all.map fun row => row.getD j 0
    let lo ← liftPy (arrMin col)
    let hi ← liftPy (arrMax col)
    return (lo, median col, hi)

end Pot
