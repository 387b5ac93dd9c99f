import Verif.Model.DomainUtil

/-!
# Model of the coordinate methods of `Solver` and `PizzaSolver`
-/

namespace Pot
open Real

/-- solver.py:28-34 `Solver.get_coord`. `AD` is `AD_len`; `i / self.N` is true division. -/
noncomputable def getCoord (AD : ℝ) (N : ℕ) (i j : ℝ) : ℝ × ℝ :=
  (AD * (i / N - 1 / 2), AD * (j / N - 1 / 2))

/-- solver.py:36-42 `Solver.get_coord_inv`. -/
noncomputable def getCoordInv (AD : ℝ) (N : ℕ) (x y : ℝ) : ℝ × ℝ :=
  (N * (x / AD + 1 / 2), N * (y / AD + 1 / 2))

/-- solver.py:44-49 `Solver.get_polar`. -/
noncomputable def baseGetPolar (AD : ℝ) (N : ℕ) (i j : ℝ) : ℝ × ℝ :=
  let p := getCoord AD N i j
  cartToPolar p.1 p.2

/-- ps/ps.py:110-115 `PizzaSolver.get_polar`. -/
noncomputable def getPolar (AD : ℝ) (N : ℕ) (a : ℝ) (i j : ℝ) : ℝ × ℝ :=
  let p := baseGetPolar AD N i j
  if p.2 < a / 2 then (p.1, p.2 + 2 * π) else p

/-- ps/ps.py:74-77 `PizzaSolver.is_interior`. -/
def isInterior (AD : ℝ) (N : ℕ) (a : ℝ) (evalR : ℝ → ℝ) (i j : ℝ) : Prop :=
  let p := getPolar AD N a i j
  let rb := evalR p.2
  p.1 ≤ rb ∧ p.2 ≥ a ∧ p.2 ≤ 2 * π

/-- ps/ps.py:79-94 `get_radius_point` (for `sid == 2`; the assertion is in `getRadiusPointPy`;
the warning print is not modelled). `np.tan` is `Real.tan`. -/
noncomputable def getRadiusPoint (a x y : ℝ) : ℝ × ℝ :=
  open Classical in
  if a = π / 2 then (0, y)
  else
    let m := tan a
    let x1 := (x / m + y) / (m + 1 / m)
    let y1 := m * x1
    (x1, y1)

/-- ps/ps.py:96-99 `dist_to_radius`. -/
noncomputable def distToRadius (a x y : ℝ) : ℝ :=
  let p := getRadiusPoint a x y
  √((p.1 - x) ^ 2 + (p.2 - y) ^ 2)

/-- ps/ps.py:101-108 `signed_dist_to_radius`. -/
noncomputable def signedDistToRadius (a x y : ℝ) : ℝ :=
  let unsigned := distToRadius a x y
  let p := getRadiusPoint a x y
  if x < p.1 then -unsigned else unsigned

/-- ps/ps.py:79-80 `get_radius_point` with its `assert sid == 2`. -/
noncomputable def getRadiusPointPy (a : ℝ) (sid : ℕ) (x y : ℝ) : Py (ℝ × ℝ) :=
  if sid = 2 then pure (getRadiusPoint a x y) else throw .assertionError

/-- ps/ps.py:96-99 `dist_to_radius` with its `assert sid == 2`. -/
noncomputable def distToRadiusPy (a : ℝ) (sid : ℕ) (x y : ℝ) : Py ℝ := do
  if sid ≠ 2 then throw .assertionError
  let p ← getRadiusPointPy a sid x y
  return √((p.1 - x) ^ 2 + (p.2 - y) ^ 2)

/-- ps/ps.py:101-108 `signed_dist_to_radius`, calls as in the code. -/
noncomputable def signedDistToRadiusPy (a : ℝ) (sid : ℕ) (x y : ℝ) : Py ℝ := do
  let unsigned ← distToRadiusPy a sid x y
  let p ← getRadiusPointPy a sid x y
  return if x < p.1 then -unsigned else unsigned

/-- `np.linspace(lo, hi, n)` (library): `n` equispaced samples, endpoints included. -/
noncomputable def linspace (lo hi : ℝ) (n : ℕ) : List ℝ :=
  (List.range n).map fun i : ℕ => lo + i * ((hi - lo) / ((n : ℝ) - 1))

/-- one entry of the list built by `get_boundary_sample_by_sid` (ps/debug.py:54-82) -/
structure SamplePoint where
  arg : ℝ
  x : ℝ
  y : ℝ
  s : ℝ
  sid : ℕ

/-- ps/debug.py:42-84 `get_boundary_sample_by_sid` (returns the empty list for other `sid`). -/
noncomputable def getBoundarySampleBySid (a R : ℝ) (evalR : ℝ → ℝ) (sid : ℕ) (argData : List ℝ) :
    List SamplePoint :=
  if sid = 0 then
    argData.map fun th =>
      let r := evalR th
      ⟨th, r * cos th, r * sin th, R * (th - a), sid⟩
  else if sid = 1 then
    argData.map fun r => ⟨r, r, 0, R * (2 * π - a + 1) - r, sid⟩
  else if sid = 2 then
    argData.map fun r => ⟨r, r * cos a, r * sin a, R * (2 * π - a + 1) + r, sid⟩
  else []

/-- ps/debug.py:20-32 `get_boundary_sample(n)` with `extended=False`; `N_SEGMENT` is 3. -/
noncomputable def getBoundarySample (a R : ℝ) (evalR : ℝ → ℝ) (n : ℕ) : List SamplePoint :=
  let ep : ℝ := 1 / 10 ^ 5
  let thData := linspace (a + ep) (2 * π - ep) (3 * n)
  let rData := linspace ep R n
  getBoundarySampleBySid a R evalR 0 thData ++
    getBoundarySampleBySid a R evalR 1 rData.reverse ++
    getBoundarySampleBySid a R evalR 2 rData

end Pot
