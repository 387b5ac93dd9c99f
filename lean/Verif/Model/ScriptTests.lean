import Verif.Model.Debug
import Verif.Model.Convergence

/-!
# Model of `scripts/extend_basis_test.py`, `scripts/extension_test.py`, `scripts/test_extend_f.py`

The parsing of the command line and what is printed besides the numbers are left out; the solver the scripts build
(`ps.ps.PizzaSolver(options)`) is an argument.
-/

namespace Pot
open Real

/-- scripts/extend_basis_test.py:46-58, the body of the inner loop up to the number that is printed.  Arrays of different
length do not broadcast (the case of length one does not occur); `np.max` of an empty array is a ValueError. -/
noncomputable def extendBasisError (s : PSolver) (index : Fin 2) (JJ : ℕ) : Py ℝ := do
  let ext1 ← extendBasis s JJ index
  let z : List ℂ := List.replicate s.bas.bDesc.length 0
  let c0 := if index = 0 then z.set JJ 1 else z
  let c1 := if index = 1 then z.set JJ 1 else z
  let ext2 ← extendBoundary s (.full c0 c1) true
  if ext1.length ≠ ext2.length then throw .valueError
  pyMax (List.zipWith (fun x y => ‖x - y‖) ext1 ext2)

/-- scripts/extend_basis_test.py:58-63, the loop: the errors printed, and whether it ends with SUCCESS (`true`) or FAILURE -/
noncomputable def extendBasisLoop (s : PSolver) : List (Fin 2 × ℕ) → Py (List ℝ × Bool)
  | [] => pure ([], true)
  | p :: rest => do
    let e ← extendBasisError s p.1 p.2
    if e > 1e-14 then return ([e], false)
    else
      let r ← extendBasisLoop s rest
      return (e :: r.1, r.2)

/-- scripts/extend_basis_test.py:43-65 -/
noncomputable def extendBasisTest (s : PSolver) : Py (List ℝ × Bool) :=
  extendBasisLoop s (([0, 1] : List (Fin 2)).flatMap fun index => (List.range s.bas.bDesc.length).map fun JJ => (index, JJ))

/-- scripts/extension_test.py:31-35 `etype_dict` -/
def etypeDict (c : Char) : Py EType :=
  if c = 'l' then pure .left else if c = 's' then pure .standard else if c = 'r' then pure .right else throw .keyError

/-- scripts/extension_test.py:39-41, one item of `args.s`; `int` of one character (ASCII digits only) -/
def parseSetype (se : List Char) : Py (ℕ × EType) := do
  let c ← listGet se 0
  let s ← if c.isDigit then pure (c.toNat - '0'.toNat) else throw .valueError
  let c' ← listGet se 1
  let e ← etypeDict c'
  return (s, e)

/-- scripts/extension_test.py:26-43 `set_setypes`; `None` when the option is not given -/
def setSetypes : Option (List (List Char)) → Py (Option (List (ℕ × EType)))
  | none => pure none
  | some l => do
    let l ← l.mapM parseSetype
    return some l

/-- scripts/extension_test.py:112-114 `setype_choices` -/
def setypeChoices : List (List Char) := ['0', '1', '2'].flatMap fun s => ['l', 's', 'r'].map fun e => [s, e]

/-- scripts/extension_test.py:72: is the entry checked? -/
def checked (setypes : Option (List (ℕ × EType))) (x : Entry) : Bool :=
  match setypes with
  | none => true
  | some l => decide ((x.setype.1.val, x.setype.2) ∈ l)

/-- scripts/extension_test.py:62-81, the list `error`; `ex` is `problem.eval_expected_polar` -/
noncomputable def extTestErrors (s : PSolver) (m : Multivalue) (ex : ℝ → ℝ → ℂ) (setypes : Option (List (ℕ × EType))) :
    Py (List ℝ) :=
  (List.range s.G.unionGamma.length).foldlM (init := []) fun error l => do
    let nd ← listGet s.G.unionGamma l
    let p := s.e.polar nd
    let data ← mvGet m nd
    return error ++ (data.filter (checked setypes)).map fun x => ‖ex p.1 p.2 - x.value‖

/-- scripts/extension_test.py:45-98 `run_test`, without the construction of the solver -/
noncomputable def extensionTest (s : PSolver) (fit : Chebfit) (roots : List ℝ) (bc du : ℝ → Fin 3 → ℂ) (ex : ℝ → ℝ → ℂ)
    (setypes : Option (List (ℕ × EType))) : Py ℝ := do
  let c0 ← calcC0 s.eps s.e.a s.e.R fit roots s.bas bc
  let c1 ← calcC1Exact s.eps s.e.a s.e.R fit roots s.bas du
  let _ ← c0Test s.eps s.e.a s.e.R s.e.evalR s.bas c0 bc
  let m ← mvExtendBoundary s (.full c0 c1) false
  let _ ← mvReduce m
  let error ← extTestErrors s m ex setypes
  pyMax (error.map fun x => |x|)

/-- scripts/test_extend_f.py:42-61 `run_test`, without the construction of the solver (which sets `f`); the loop over `Kplus` is
iteration 10.  `solver.f[node]` is indexed by the node itself. -/
noncomputable def extendFTest {n : ℕ} (iter : Iter) (s : PSolver) (f : Arr (n + 2)) (allowed : List (Fin 3)) : Py ℝ := do
  let error ← (iter 10 s.G.Kplus).foldlM (init := []) fun error nd => do
    let sid ← extendFSid s nd
    if sid ∈ allowed then
      let p := s.e.polar nd
      let v ← arrGet f nd.1 nd.2
      return error ++ [‖s.src.fPolar p.1 p.2 - v‖]
    else return error
  pyMax (error.map fun x => |x|)

/-- scripts/extension_test.py:149-151 and scripts/test_extend_f.py:102-104: the rate printed from the second grid on; NumPy's division
by zero or logarithm of zero gives no number but does not stop the loop -/
noncomputable def testRate (prev : Option ℝ) (error : ℝ) : Option (Py ℝ) :=
  prev.map fun p => if error = 0 ∨ p = 0 then throw .nanValue else pure (logb 2 (p / error))

/-- scripts/extension_test.py:140-156 and scripts/test_extend_f.py:92-108, the loop over the grids: `run N` is `run_test(N)`; a row is the
grid, the error and the rate.  The first grid size is not negative. -/
noncomputable def testLoop (run : ℕ → Py ℝ) (c : ℕ) : ℕ → ℕ → Option ℝ → Option (Py (List (ℕ × ℝ × Option (Py ℝ))))
  | 0, _, _ => none
  | fuel + 1, N, prev =>
    if N ≤ c then
      match run N with
      | .error e => some (.error e)
      | .ok error =>
        match testLoop run c fuel (N * 2) (some error) with
        | none => none
        | some (.error e) => some (.error e)
        | some (.ok rows) => some (.ok ((N, error, testRate prev error) :: rows))
    else some (.ok [])

end Pot
