import Verif.Model.Inhomo

/-!
# Model of the assembly in `ps/ps.py`: `__init__`, `get_Q`, `get_var`, `solve_var`, `run`; `eval_error`

A matrix is the list of its columns.  NumPy's broadcasting of vectors of different lengths is not modelled:
subtracting or adding vectors of different lengths is a ValueError.  `c0_test` (ps/ps.py:239) only prints and is
left out here; the run with it in place is `psRunPrinting` (`Model/Debug.lean`, equal by `C83_run_printing`).  `np.linalg.lstsq` is a parameter.
-/

namespace Pot
open Real

/-- the parts of `__init__` that the extension code needs (ps/ps.py:27-53): basis, grids, cache.  The basis sizes
are the values returned by `problem.get_n_basis` (or the options `n_circle`, `n_radius`). -/
noncomputable def psInit (iter : Iter) (e : Env) (order : ℕ) (k eps : ℝ) (nCircle nRadius : ℕ) (src : Source) :
    Py PSolver := do
  let bas := setupBasis nCircle nRadius
  let G ← psConstructGrids iter e order
  return { e := e, order := order, k := k, eps := eps, bas := bas, G := G, cache := buildCache e (G.allGamma 0),
           src := src }

/-- ps/ps.py:59, 61-72 `calc_ap_sol_f` including `setup_f` -/
noncomputable def initApSolF (n : ℕ) (iter : Iter) (s : PSolver) : Py (Arr n) := do
  let f ← setupF (m := n + 2) iter s
  calcApSolF iter s.e s.order s.k s.G f

/-- difference of two one-dimensional arrays -/
noncomputable def vecSub (u v : List ℂ) : Py (List ℂ) :=
  if u.length = v.length then pure (List.zipWith (· - ·) u v) else throw .valueError

/-- sum of two one-dimensional arrays -/
noncomputable def vecAdd (u v : List ℂ) : Py (List ℂ) :=
  if u.length = v.length then pure (List.zipWith (· + ·) u v) else throw .valueError

/-- ps/ps.py:168-173, one column of `get_Q` -/
noncomputable def qColumn (n : ℕ) (iter : Iter) (s : PSolver) (index : Fin 2) (JJ : ℕ) : Py (List ℂ) := do
  let ext ← extendBasis s JJ index
  let potential ← getPotential (n := n) iter s.e s.order s.k s.G ext
  let projection ← getTrace s.G.unionGamma potential
  vecSub projection ext

/-- ps/ps.py:164-175 `get_Q`; `np.column_stack` of an empty list is a ValueError -/
noncomputable def getQ (n : ℕ) (iter : Iter) (s : PSolver) (index : Fin 2) : Py (List (List ℂ)) := do
  let columns ← (List.range s.bas.bDesc.length).mapM (qColumn n iter s index)
  if columns = [] then throw .valueError else return columns

/-- `Q.dot(c)` for a matrix with `m` rows; a wrong number of coefficients is a ValueError -/
noncomputable def matVec (m : ℕ) (cols : List (List ℂ)) (c : List ℂ) : Py (List ℂ) :=
  if cols.length = c.length then
    pure ((List.range m).map fun l : ℕ => ((cols.zip c).map fun p => p.1.getD l 0 * p.2).sum)
  else throw .valueError

/-- ps/ps.py:177-208 `get_var` -/
noncomputable def getVar {n : ℕ} (iter : Iter) (s : PSolver) (apSolF : Arr n) (c0 : List ℂ) :
    Py (List (List ℂ) × List ℂ) := do
  let Q0 ← getQ n iter s 0
  let Q1 ← getQ n iter s 1
  let extF ← extendInhomoF s
  let projF ← getPotential (n := n) iter s.e s.order s.k s.G extF
  let term ← getTrace s.G.unionGamma fun a b => projF a b + apSolF a b
  let q ← matVec s.G.unionGamma.length Q0 c0
  let r ← vecAdd (q.map fun z => -z) extF
  let rhs ← vecSub r term
  return (Q1, rhs)

/-- `np.linalg.lstsq(A, b)[0]` -/
abbrev Lstsq := List (List ℂ) → List ℂ → List ℂ

/-- ps/ps.py:210-215 `solve_var` -/
noncomputable def solveVar {n : ℕ} (lstsq : Lstsq) (iter : Iter) (s : PSolver) (apSolF : Arr n) (c0 : List ℂ) :
    Py (List ℂ) := do
  let v ← getVar iter s apSolF c0
  return lstsq v.1 v.2

/-- solver.py:92-108 `eval_error`, loop 8 over `global_Mplus`; `expected` is `none` when `expected_known` is
false -/
noncomputable def evalError {n : ℕ} (iter : Iter) (e : Env) (G : PsGrids) (expected : Option (ℝ → ℝ → ℂ))
    (u : Arr n) : Py (Option ℝ) :=
  match expected with
  | none => pure none
  | some ex => do
    let errs ← (iter 8 G.Mplus).mapM fun nd => do
      let v ← arrGet u (nd.1 - 1) (nd.2 - 1)
      return ‖ex (e.coord nd).1 (e.coord nd).2 - v‖
    let m ← pyMax errs
    return some m

/-- the attributes of the returned `Result`, and the coefficients and extension computed on the way -/
structure RunResult (n : ℕ) where
  error : Option ℝ
  uAct : Arr n
  c0 : List ℂ
  c1 : List ℂ
  ext : List ℂ

/-- ps/ps.py:217-257 `run` -/
noncomputable def psRun {n : ℕ} (iter : Iter) (s : PSolver) (apSolF : Arr n) (fit : Chebfit) (roots : List ℝ)
    (bc : ℝ → Fin 3 → ℂ) (lstsq : Lstsq) (expected : Option (ℝ → ℝ → ℂ)) : Py (RunResult n) := do
  let c0 ← calcC0 s.eps s.e.a s.e.R fit roots s.bas bc
  let c1 ← solveVar lstsq iter s apSolF c0
  let ext ← extendBoundary s (.full c0 c1)
  let u ← regularPart iter s.e s.order s.k s.G ext apSolF
  let err ← evalError iter s.e s.G expected u
  return { error := err, uAct := u, c0 := c0, c1 := c1, ext := ext }

end Pot
