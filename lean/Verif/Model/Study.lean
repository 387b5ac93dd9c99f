import Verif.Model.ABCoef
import Verif.Model.Boundaries
import Verif.Model.Problem
import Verif.Model.Singular

/-!
# Model of the programs under `scripts/abcoef/`

A study of the coefficients that `abcoef.calc_a_coef` computes.  The programs that compute write JSON files, the others read them.
A problem is what the programs use of it (the classes of `problems/sing_h_trace.py` are not in the repository).  Progress messages,
plots and the text of the HTML around the numbers are left out.  As everywhere, a nan stops the model.
-/

namespace Pot
open Real Classical

/-! ## Dictionaries -/

/-- a Python dict with string keys, in insertion order -/
abbrev Dict (β : Type) := List (String × β)

/-- `d[k]` -/
def Dict.get {β : Type} (d : Dict β) (k : String) : Py β :=
  match d.lookup k with
  | some v => .ok v
  | none => .error .keyError

/-- `d[k] = v` -/
def Dict.set {β : Type} : Dict β → String → β → Dict β
  | [], k, v => [(k, v)]
  | (k', v') :: d, k, v => if k' = k then (k, v) :: d else (k', v') :: Dict.set d k v

/-- `d.pop(k)` -/
def Dict.pop {β : Type} (d : Dict β) (k : String) : Py (β × Dict β) :=
  match d.lookup k with
  | some v => .ok (v, d.filter fun p => p.1 ≠ k)
  | none => .error .keyError

/-- the values in `boundary_results` -/
inductive BVal
  | num (x : ℝ)
  | arr (l : List ℝ)

/-- the values in `problem_results` -/
inductive PVals
  | num (x : ℝ)
  | obj (d : Dict BVal)

/-! ## Arrays -/

/-- `a - b` of two arrays; NumPy would stretch an array of length one, which the programs do not have -/
noncomputable def arrSub (a b : List ℂ) : Py (List ℂ) :=
  if a.length = b.length then .ok (List.zipWith (· - ·) a b) else .error .valueError

/-- `np.max`: ValueError for an empty array -/
noncomputable def arrMax : List ℝ → Py ℝ
  | [] => .error .valueError
  | x :: l => .ok (l.foldl max x)

/-- `np.abs` -/
noncomputable def arrAbs (a : List ℂ) : List ℝ := a.map fun z => ‖z‖

/-- scripts/abcoef/generate_data.py:26-28, generate_data2.py:25-27 `to_basic_list` -/
noncomputable def toBasicList (a : List ℂ) : Py (List ℝ) :=
  if ∀ z ∈ a, z.im = 0 then .ok (a.map Complex.re) else .error .assertionError

/-! ## `generate_data.py` -/

/-- what the programs use of a problem: `evalBc th` is `eval_bc(th, 0)` -/
structure StudyProblem where
  k : ℝ
  R : ℝ
  a : ℝ
  nu : ℝ
  fftA : List ℂ
  evalBc : ℝ → ℂ
  evalPhi0 : ℝ → ℂ
  evalPolar : ℝ → ℝ → ℂ

/-- scripts/abcoef/generate_data.py:16 `M` -/
def studyM : ℕ := 7

/-- scripts/abcoef/generate_data.py:20 `problem_list` -/
def studyProblems : List String := ["trace-line-sine", "trace-parabola"]

/-- scripts/abcoef/generate_data.py:23 `m1_list`: `range(8, 250, 2)` -/
def studyM1 : List ℕ := (List.range 121).map fun i => 8 + 2 * i

/-- scripts/abcoef/generate_data.py:30-32 and 62-63: `calc_a_coef(problem, boundary, eval_phi0, M, m1)`, the coefficients -/
noncomputable def studyCalc (jv : ℝ → ℝ → ℝ) (lstsq : Lstsq) (p : StudyProblem) (evalR : ℝ → ℝ) (m1 : ℕ) : Py (List ℂ) :=
  abCalcACoef jv lstsq abNodes evalR (fun th => p.evalPolar (evalR th) th) p.k p.R p.a p.nu studyM m1

/-- scripts/abcoef/generate_data.py:50-57 `max_series_error` -/
noncomputable def seriesError (p : StudyProblem) : ℝ :=
  (linspace p.a (2 * π) 1024).foldl (init := 0) fun mx th =>
    let e := ‖p.evalBc th - p.evalPhi0 th‖
    if e > mx then e else mx

/-- scripts/abcoef/generate_data.py:61-72, the body of the loop over `m1`; the state is `min_error7` and `boundary_results` -/
noncomputable def searchStep (calcA : ℕ → Py (List ℂ)) (fft : List ℂ) (st : WithTop ℝ × Dict BVal) (m1 : ℕ) :
    Py (WithTop ℝ × Dict BVal) := do
  let aCoef ← calcA m1
  let diff ← arrSub aCoef fft
  let error7 ← arrMax (arrAbs diff)
  if (error7 : WithTop ℝ) < st.1 then
    let d := st.2.set "m1" (.num m1)
    let d := d.set "a_coef" (.arr (← toBasicList aCoef))
    let d := d.set "fft_a_coef" (.arr (← toBasicList fft))
    let d := d.set "error" (.arr (← toBasicList diff))
    return (error7, d.set "error7" (.num error7))
  else return st

/-- scripts/abcoef/generate_data.py:44-72, the body of the loop over the boundaries: `boundary_results` -/
noncomputable def studyBoundary (calcA : ℕ → Py (List ℂ)) (fft : List ℂ) (bet : ℝ) : Py (Dict BVal) := do
  let st ← studyM1.foldlM (searchStep calcA fft) (⊤, [("bet", BVal.num bet)])
  return st.2

/-- scripts/abcoef/generate_data.py:37-72, the loop over the boundaries; the dictionary of the results of a boundary is entered before
it is filled, which makes no difference unless there is an exception -/
noncomputable def studyProblem (jv : ℝ → ℝ → ℝ) (lstsq : Lstsq) (p : StudyProblem) : Py (Dict PVals) :=
  (boundaryTable p.R probA).foldlM (init := [("k", PVals.num p.k)]) fun d b => do
    let bd ← studyBoundary (studyCalc jv lstsq p b.2) (p.fftA.take studyM) (bet0 b.1)
    let d := d.set b.1 (.obj bd)
    return if b.1 = "arc" then d.set "series_error" (.num (seriesError p)) else d

/-- scripts/abcoef/generate_data.py:18 and 35-72, the dictionary written to `acoef.dat` -/
noncomputable def generateData (jv : ℝ → ℝ → ℝ) (lstsq : Lstsq) (get : String → StudyProblem) : Py (Dict (Dict PVals)) :=
  studyProblems.foldlM (init := []) fun out name => do
    return out.set name (← studyProblem jv lstsq (get name))

/-! ## `generate_report.py` -/

/-- scripts/abcoef/generate_report.py:9 `problem_list` -/
def reportProblems : List String := ["trace-line-sine"]
/-- scripts/abcoef/generate_report.py:10 `boundary_list` -/
def reportBoundaries : List String := ["arc", "outer-sine", "inner-sine", "cubic", "sine7"]

/-- the parts of the report that carry data: the heading of a problem with `k` and the error of the series, the heading of a boundary
with `beta` and the best `m1`, a table with a number of columns and a row of numbers -/
inductive RItem
  | problem (name : String) (k series : ℝ)
  | boundary (name : String) (bet m1 : ℝ)
  | table (columns : ℕ) (label : String) (row : List ℝ)

/-- the number with key `k`; formatting a list with `{:.5}` is a TypeError -/
def Dict.num (d : Dict BVal) (k : String) : Py ℝ := do
  match ← d.get k with
  | .num x => return x
  | .arr _ => throw .typeError

/-- the list with key `k`; iterating over a number is a TypeError -/
def Dict.arr (d : Dict BVal) (k : String) : Py (List ℝ) := do
  match ← d.get k with
  | .num _ => throw .typeError
  | .arr l => return l

def PVals.toNum : PVals → Py ℝ
  | .num x => return x
  | .obj _ => throw .typeError

def PVals.toObj : PVals → Py (Dict BVal)
  | .num _ => throw .typeError
  | .obj d => return d

/-- scripts/abcoef/generate_report.py:84-93 and 12-29, one boundary -/
noncomputable def reportBoundary (pd : Dict PVals) (b : String) : Py (List RItem) := do
  let data ← (← pd.get b).toObj
  let bet ← data.num "bet"
  let m1 ← data.num "m1"
  let row ← data.arr "error"
  let e7 ← data.num "error7"
  return [.boundary b bet m1, .table (studyM + 1) "error" (row ++ [e7])]

/-- scripts/abcoef/generate_report.py:73-93, one problem; the file's data are changed by `pop` -/
noncomputable def reportProblem (data : Dict (Dict PVals)) (name : String) : Py (Dict (Dict PVals) × List RItem) := do
  let pd ← data.get name
  let (k, pd) ← pd.pop "k"
  let k ← k.toNum
  let s ← (← pd.get "series_error").toNum
  let fft ← (← (← pd.get "arc").toObj).arr "fft_a_coef"
  let items ← reportBoundaries.mapM (reportBoundary pd)
  return (data.set name pd, .problem name k s :: .table studyM "expected" fft :: items.flatten)

/-- scripts/abcoef/generate_report.py:73-93, all problems -/
noncomputable def generateReport (data : Dict (Dict PVals)) : Py (List RItem) := do
  let st ← reportProblems.foldlM (init := (data, [])) fun st name => do
    let (data, items) ← reportProblem st.1 name
    return (data, st.2 ++ items)
  return st.2

end Pot
