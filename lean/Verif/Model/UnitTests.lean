import Verif.Model.Multivalue

/-!
# Model of `test/ps/test_multivalue.py`

The unit tests of the repository, run on the model of `ps/multivalue.py`.  A test is a `Py Unit`: `ok ()` if it passes, an
`AssertionError` (or the exception that escapes) if it does not.  The tests use the integers `0` and `1` as `setype`; here they are the
two values `testSetype 0`, `testSetype 1` (only compared for equality).  The expected entries of `test_add` have no key `elen`, which
`is_equal` does not read; here it is `0`.
-/

namespace Pot

/-- the setypes `0` and `1` of the tests -/
def testSetype (n : Fin 3) : Fin 3 × EType := (n, .standard)

/-- test/ps/test_multivalue.py:14 -/
noncomputable def testTol : ℝ := 1 / 10 ^ 13

open Classical in
/-- test/ps/test_multivalue.py:20-26, the items of the two lists at one node -/
noncomputable def isEqualList : List Entry → List Entry → Py Bool
  | [], _ => pure true
  | _ :: _, [] => throw .indexError
  | d1 :: l1, d2 :: l2 => if d1.setype ≠ d2.setype ∨ ‖d1.value - d2.value‖ > testTol then pure false else isEqualList l1 l2

/-- test/ps/test_multivalue.py:19-28, the loop over the keys.  `mv2[node]` is looked up inside the inner loop, so not at all when the
list of `mv1` is empty. -/
noncomputable def isEqualNodes (m1 m2 : Multivalue) : List Node → Py Bool
  | [] => pure true
  | nd :: rest => do
    let l1 ← mvGet m1 nd
    let l2 ← if l1 = [] then pure [] else mvGet m2 nd
    let b ← isEqualList l1 l2
    if b then isEqualNodes m1 m2 rest else pure false

/-- test/ps/test_multivalue.py:9-28 `is_equal` -/
noncomputable def isEqual (m1 m2 : Multivalue) : Py Bool :=
  if m1.nodes ≠ m2.nodes then pure false else isEqualNodes m1 m2 m1.nodes.eraseDups

/-- `self.assertTrue(b)` -/
def assertTrue (b : Bool) : Py Unit := if b then pure () else throw .assertionError

/-- `with self.assertRaises(KeyError)` -/
def assertKeyError {α : Type} (x : Py α) : Py Unit :=
  match x with
  | .error .keyError => pure ()
  | .error e => throw e
  | .ok _ => throw .assertionError

open Classical in
/-- `np.allclose(a, b)` for two arrays of the same length: `|a - b| <= atol + rtol*|b|` everywhere, with the default tolerances -/
noncomputable def allclose (a b : List ℂ) : Bool :=
  decide (List.Forall₂ (fun x y => ‖x - y‖ ≤ 1 / 10 ^ 8 + 1 / 10 ^ 5 * ‖y‖) a b)

/-- test/ps/test_multivalue.py:34 -/
def testNodes : List Node := [(0, 0), (0, 1)]

/-- test/ps/test_multivalue.py:32-54 `setUp` -/
noncomputable def testMv1 : Py Multivalue := do
  let m := mvInit testNodes
  let m ← mvAppend m (0, 0) ⟨1, 1 / 2, testSetype 0⟩
  let m ← mvAppend m (0, 0) ⟨3 / 2, 3 / 4, testSetype 1⟩
  mvAppend m (0, 1) ⟨1, 2, testSetype 0⟩

/-- test/ps/test_multivalue.py:65-83, `mv2` of `test_add` -/
noncomputable def testMv2 : Py Multivalue := do
  let m := mvInit testNodes
  let m ← mvAppend m (0, 0) ⟨1, 7 / 2, testSetype 0⟩
  let m ← mvAppend m (0, 0) ⟨1, 4, testSetype 1⟩
  mvAppend m (0, 1) ⟨1, -3, testSetype 0⟩

/-- test/ps/test_multivalue.py:85-99, `expected` of `test_add` -/
noncomputable def testSum : Py Multivalue := do
  let m := mvInit testNodes
  let m ← mvAppend m (0, 0) ⟨0, 4, testSetype 0⟩
  let m ← mvAppend m (0, 0) ⟨0, 19 / 4, testSetype 1⟩
  mvAppend m (0, 1) ⟨0, -1, testSetype 0⟩

/-- test/ps/test_multivalue.py:56-61 `test_getitem` -/
noncomputable def testGetitem : Py Unit := do
  let m ← testMv1
  let l ← mvGet m (0, 0)
  let d ← listGet l 0
  assertTrue (d.setype = testSetype 0)
  assertKeyError (mvGet m (2, 2))

/-- test/ps/test_multivalue.py:63-104 `test_add` -/
noncomputable def testAdd : Py Unit := do
  let m1 ← testMv1
  let m2 ← testMv2
  let e ← testSum
  assertTrue (← isEqual e (← mvAdd m1 m2))
  assertTrue (← isEqual e (← mvAdd m2 m1))

/-- test/ps/test_multivalue.py:106-109 `test_reduce_mv1` -/
noncomputable def testReduceMv1 : Py Unit := do
  let m ← testMv1
  assertTrue (allclose [3 / 5, 2] (← mvReduce m))

open Classical in
/-- test/ps/test_multivalue.py:111-130 `test_reduce0` -/
noncomputable def testReduce0 : Py Unit := do
  let m := mvInit [(0, 0)]
  let m ← mvAppend m (0, 0) ⟨0, 2, testSetype 0⟩
  let m ← mvAppend m (0, 0) ⟨0, 19 / 4, testSetype 1⟩
  let v ← mvReduce m
  let x ← listGet v 0
  assertTrue (decide (x = (2 + 19 / 4) / 2))

end Pot
