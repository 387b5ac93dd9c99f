import Verif.Model.Main

/-!
# Model of scripts/optimize_basis.py and scripts/c0_basis.py

The two scripts that look for good sizes of the basis.  Both take a problem and `-N` (the parsing of the command line is left out),
always use the boundary `OuterSine`, and construct `PizzaSolver` with the options `n_circle` and `n_radius`.  The lines printed by
`c0_test` inside `run` are left out (C83), and so is the date in the heading.
-/

namespace Pot
open Real

/-- printed lines -/
inductive BasisEv where
  /-- `[procedure problem boundary date]` -/
  | heading (procedure problem boundary : String)
  /-- a line of `print_options` after the heading -/
  | option (e : MainEv)
  /-- `my_print` -/
  | row (nCircle nRadius : ℕ) (error : Option ℝ)
  /-- scripts/c0_basis.py:56 -/
  | circle (nCircle : ℕ)
  /-- the two lines of `c0_test` -/
  | fit (outer all : ℝ)
  | blank

/-- `range(start, stop, step)` for `step > 0` -/
def pyRange (start stop step : ℕ) : List ℕ := (List.range ((stop - start + (step - 1)) / step)).map fun i => start + step * i

/-- scripts/optimize_basis.py:63-67 `all_options` -/
def allOptions : List (ℕ × ℕ) := (pyRange 30 100 5).flatMap fun c => (pyRange 17 c 4).map fun r => (c, r)

/-- io_util.py:42-69 `print_options` as called by scripts/optimize_basis.py:47 and scripts/c0_basis.py:42: there is a `procedure_name`
(the same in both scripts), no `acheat` and no `N_list` -/
noncomputable def basisHead (problem : String) (pr : RunProblem) : List BasisEv :=
  [.heading "optimize_basis" problem "outer-sine", .option (.order 4), .option (.k pr.k), .option (.radius probR),
    .option (.angle probA), .option (.bet (bet0 "outer-sine")), .option (.side probAD),
    .option (.m1 (getM1 none pr.m1Dict "outer-sine"))]

/-- scripts/optimize_basis.py:33, scripts/c0_basis.py:28: `eval_r` of `OuterSine(problem.R)` -/
noncomputable def basisCurve : ℝ → ℝ := outerSineR probR (bet0 "outer-sine") probA

/-- scripts/optimize_basis.py:52-61 `worker`.  In the constructor (ps/ps.py:42-49) the basis of the table is set up first and then
replaced by the one with the sizes `t`; `setup_basis` starts from empty lists. -/
noncomputable def basisWorker (iter : Iter) (b : Brentq) (fit : Chebfit) (lstsq : Lstsq) (pr : RunProblem) (N : ℤ) (t : ℕ × ℕ) :
    Py (ℕ × ℕ × Option ℝ) := do
  let m ← mainBuild iter b pr basisCurve 4 (fun _ => t) N
  let res ← mainSolve iter fit lstsq pr basisCurve m
  match res with
  | none => throw .attributeError   -- not reached: `run` returns a result
  | some res => return (t.1, t.2, res.error)

/-- one pass of scripts/optimize_basis.py:74-77.  The first component is `min_error` (`none` is infinity), the second `min_t` (`none`
as long as it is not assigned).  `None < x` is a TypeError. -/
noncomputable def bestStep (st : Option ℝ × Option (ℕ × ℕ × Option ℝ)) (t : ℕ × ℕ × Option ℝ) :
    Py (Option ℝ × Option (ℕ × ℕ × Option ℝ)) :=
  match t.2.2, st.1 with
  | none, _ => throw .typeError
  | some e, none => pure (some e, some t)
  | some e, some m => if e < m then pure (some e, some t) else pure st

/-- scripts/optimize_basis.py:72-77 and the use of `min_t` in line 80 (a NameError if it is not assigned) -/
noncomputable def bestRow (results : List (ℕ × ℕ × Option ℝ)) : Py (ℕ × ℕ × Option ℝ) := do
  let st ← results.foldlM bestStep (none, none)
  match st.2 with
  | none => throw .unboundLocalError
  | some t => return t

/-- `my_print(t)` -/
def rowLine (t : ℕ × ℕ × Option ℝ) : BasisEv := .row t.1 t.2.1 t.2.2

/-- scripts/optimize_basis.py:30-80.  `Pool.map` returns the results in the order of `all_options`; the lines of the four processes
come in some order `sched`.  After an exception in a worker the lines already printed by the workers are left out (and which of
several exceptions is raised is not modelled: it is the first).  `none`: `get_n_basis`, called in every constructor, does not end
within the fuel. -/
noncomputable def optimizeBasis (iter : Iter) (b : Brentq) (fit : Chebfit) (lstsq : Lstsq) (fuel : ℕ)
    (sched : List (ℕ × ℕ × Option ℝ) → List (ℕ × ℕ × Option ℝ)) (problem : String) (N : ℤ) : Option (List BasisEv × Py Unit) :=
  match problemTable.lookup problem with
  | none => some ([], .error .keyError)
  | some pr =>
    match getNBasis (some pr.nBasis) defaultNBasis fuel N with
    | none => none
    | some _ =>
      match allOptions.mapM (basisWorker iter b fit lstsq pr N) with
      | .error e => some (basisHead problem pr, .error e)
      | .ok results =>
        let lines := basisHead problem pr ++ (sched results).map rowLine
        match bestRow results with
        | .error e => some (lines ++ [.blank], .error e)
        | .ok t => some (lines ++ [.blank, rowLine t], .ok ())

/-- scripts/c0_basis.py:50-58, one pass and those after it -/
noncomputable def c0Loop (iter : Iter) (b : Brentq) (fit : Chebfit) (pr : RunProblem) (N : ℤ) : List ℕ → List BasisEv × Py Unit
  | [] => ([], .ok ())
  | c :: cs =>
    match mainBuild iter b pr basisCurve 4 (fun _ => (c, c * 3 / 4)) N with
    | .error e => ([], .error e)
    | .ok m =>
      match pr.bc with
      | none => ([], .error .attributeError)
      | some bc =>
        let data := fun (x : ℝ) (sid : Fin 3) => pyGet (bc basisCurve x sid)
        match calcC0 m.s.eps m.s.e.a m.s.e.R fit (chebRoots 1024) m.s.bas data with
        | .error e => ([], .error e)
        | .ok c0 =>
          match c0Test m.s.eps m.s.e.a m.s.e.R m.s.e.evalR m.s.bas c0 data with
          | .error e => ([.circle c], .error e)
          | .ok p =>
            let rest := c0Loop iter b fit pr N cs
            (.circle c :: .fit p.1 p.2 :: .blank :: rest.1, rest.2)

/-- scripts/c0_basis.py:25-58 -/
noncomputable def c0Basis (iter : Iter) (b : Brentq) (fit : Chebfit) (fuel : ℕ) (problem : String) (N : ℤ) :
    Option (List BasisEv × Py Unit) :=
  match problemTable.lookup problem with
  | none => some ([], .error .keyError)
  | some pr =>
    match getNBasis (some pr.nBasis) defaultNBasis fuel N with
    | none => none
    | some _ =>
      let out := c0Loop iter b fit pr N (pyRange 10 100 5)
      some (basisHead problem pr ++ out.1, out.2)

end Pot
