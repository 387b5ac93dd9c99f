import Verif.Model.Grid
import Mathlib.Analysis.Complex.Norm
import Mathlib.Analysis.SpecialFunctions.Log.Base

/-!
# Model of `ps/multivalue.py`

The dictionary `_data` always has exactly the elements of `nodes` as keys (they are inserted by `__init__`,
lines 25-26, and no other code inserts or deletes keys), so it is a total function that may only be read at
elements of `nodes`; reading elsewhere is a KeyError.
-/

namespace Pot

/-- one list item: the dictionary with keys `elen`, `value`, `setype` (ps/multivalue.py:11-13) -/
structure Entry where
  elen : ℝ
  value : ℂ
  setype : Fin 3 × EType

/-- ps/multivalue.py:3 `Multivalue` -/
structure Multivalue where
  nodes : List Node
  data : Node → List Entry

/-- `l[i]` for a nonnegative index into a Python list -/
def listGet {α : Type} (l : List α) (i : ℕ) : Py α :=
  match l[i]? with
  | some x => pure x
  | none => throw .indexError

/-- ps/multivalue.py:21-26 `__init__` -/
def mvInit (nodes : List Node) : Multivalue := ⟨nodes, fun _ => []⟩

/-- ps/multivalue.py:28-29 `__getitem__` -/
def mvGet (m : Multivalue) (nd : Node) : Py (List Entry) :=
  if nd ∈ m.nodes then pure (m.data nd) else throw .keyError

/-- `mv[node].append(entry)`, on the list stored in the dictionary -/
def mvAppend (m : Multivalue) (nd : Node) (x : Entry) : Py Multivalue := do
  let l ← mvGet m nd
  return ⟨m.nodes, Function.update m.data nd (l ++ [x])⟩

/-- ps/multivalue.py:46-60, the inner loop of `__add__` at one node -/
def mvAddNode (m1 m2 : Multivalue) (res : Multivalue) (nd : Node) : Py Multivalue := do
  let l1 ← mvGet m1 nd
  (List.range l1.length).foldlM (init := res) fun res i => do
    let d1 ← listGet l1 i
    let l2 ← mvGet m2 nd
    let d2 ← listGet l2 i
    if d1.setype = d2.setype then
      mvAppend res nd ⟨d1.elen, d1.value + d2.value, d1.setype⟩
    else throw .assertionError

/-- ps/multivalue.py:31-62 `__add__`; iterating over `_data` visits every key once, in the order of first
insertion -/
def mvAdd (m1 m2 : Multivalue) : Py Multivalue :=
  m1.nodes.eraseDups.foldlM (init := mvInit m1.nodes) (mvAddNode m1 m2)

/-- ps/multivalue.py:79-100, the value at one node -/
noncomputable def reduceList (l : List Entry) : Py ℂ :=
  match l with
  | [x] => pure x.value
  | [x, y] => pure ((x.value + y.value) / 2)
  | _ => throw .assertionError

/-- ps/multivalue.py:64-102 `reduce` -/
noncomputable def mvReduce (m : Multivalue) : Py (List ℂ) :=
  m.nodes.mapM fun nd => reduceList (m.data nd)

/-- ps/multivalue.py:124-128 and 138-142: the first item of the list with the given setype -/
def findSetype (l : List Entry) (st : Fin 3 × EType) : Option Entry := l.find? fun d => d.setype = st

/-- ps/multivalue.py:120-131 and 134-145: for every item of `coarse` the distance to the first item of `fine` with
the same setype, if there is one.  `u1[i1, j1]` is looked up inside the loop, so not at all when `coarse` is
empty. -/
noncomputable def setypeDiffs (fine : Py (List Entry)) (coarse : List Entry) : Py (List ℝ) :=
  coarse.foldlM (init := []) fun acc d => do
    let l ← fine
    match findSetype l d.setype with
    | some d' => return acc ++ [‖d'.value - d.value‖]
    | none => return acc

/-- ps/multivalue.py:115-145, the lists `(diff12, diff01)` -/
noncomputable def mvDiffs (u0 u1 u2 : Multivalue) : Py (List ℝ × List ℝ) :=
  u0.nodes.foldlM (init := ([], [])) fun acc nd => do
    let nd1 : Node := (nd.1 / 2, nd.2 / 2)
    let nd2 : Node := (nd.1 / 4, nd.2 / 4)
    let d12 ← if nd.1 % 4 = 0 ∧ nd.2 % 4 = 0 then do
        let l2 ← mvGet u2 nd2
        setypeDiffs (mvGet u1 nd1) l2
      else pure []
    let d01 ← if nd.1 % 2 = 0 ∧ nd.2 % 2 = 0 then do
        let l1 ← mvGet u1 nd1
        setypeDiffs (mvGet u0 nd) l1
      else pure []
    return (acc.1 ++ d12, acc.2 ++ d01)

/-- Python's `max` of a list -/
noncomputable def pyMax (l : List ℝ) : Py ℝ :=
  match l with
  | [] => throw .valueError
  | x :: t => pure (t.foldl max x)

open Classical in
/-- ps/multivalue.py:104-149 `calc_rel_convergence` (`self` is `u0`).  The quotient or the logarithm is infinite or
nan when one of the maxima is zero. -/
noncomputable def mvRelConvergence (u0 u1 u2 : Multivalue) : Py ℝ := do
  let d ← mvDiffs u0 u1 u2
  let m12 ← pyMax d.1
  let m01 ← pyMax d.2
  if m12 = 0 ∨ m01 = 0 then throw .nanValue else return Real.logb 2 (m12 / m01)

end Pot
