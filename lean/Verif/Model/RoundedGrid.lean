import Verif.Model.Rounded
import Verif.Model.Grid

/-!
# The grid construction with rounded arithmetic

`get_radius_point`, `dist_to_radius`, `get_etype` and `ps_construct_grids` once more, with every `+ - * /` and `np.sqrt` followed by a
rounding (IEEE 754 prescribes that `sqrt` is rounded correctly).  `np.tan`, `np.sin`, `np.cos` and `**2` are the library's.  The values
of `boundary.eval_r` and `boundary.get_boundary_coord` are those the machine computes, whatever they are.
-/

namespace Pot
open Real

/-- the arithmetic and the library functions the program runs on; `sq x` is `x**2` -/
structure FlLib extends Fl where
  tan : ℝ → ℝ
  sin : ℝ → ℝ
  cos : ℝ → ℝ
  sq : ℝ → ℝ

/-- the attributes the grid code reads, as in `Env` -/
structure EnvF where
  F : FlLib
  N : ℕ
  AD : ℝ
  a : ℝ
  R : ℝ
  evalR : ℝ → ℝ
  bcoord : ℝ → ℝ → Option (ℝ × ℝ)

/-- `self.get_coord(i, j)` -/
noncomputable def EnvF.coord (e : EnvF) (nd : Node) : ℝ × ℝ := getCoordF e.F.toFl e.AD e.N nd.1 nd.2
/-- `self.get_polar(i, j)` -/
noncomputable def EnvF.polar (e : EnvF) (nd : Node) : ℝ × ℝ := getPolarF e.F.toFl e.AD e.a e.N nd.1 nd.2
/-- `self.is_interior(i, j)` -/
def EnvF.interior (e : EnvF) (nd : Node) : Prop := isInteriorF e.F.toFl e.AD e.a e.evalR e.N nd.1 nd.2

/-- ps/ps.py:79-94 `get_radius_point` (for `sid == 2`) -/
noncomputable def getRadiusPointF (F : FlLib) (a x y : ℝ) : ℝ × ℝ :=
  open Classical in
  if a = F.rnd (F.pi / 2) then (0, y)
  else
    let m := F.tan a
    let x1 := F.rnd (F.rnd (F.rnd (x / m) + y) / F.rnd (m + F.rnd (1 / m)))
    let y1 := F.rnd (m * x1)
    (x1, y1)

/-- `np.sqrt((x0-x)**2 + (y0-y)**2)` (ps/grid.py:201-202 `dformula`) -/
noncomputable def dformulaF (F : FlLib) (x0 y0 x y : ℝ) : ℝ :=
  F.rnd √(F.rnd (F.sq (F.rnd (x0 - x)) + F.sq (F.rnd (y0 - y))))

/-- ps/ps.py:96-99 `dist_to_radius` (for `sid == 2`) -/
noncomputable def distToRadiusF (F : FlLib) (a x y : ℝ) : ℝ :=
  let p := getRadiusPointF F a x y
  dformulaF F p.1 p.2 x y

/-- ps/extend.py:28-71 `get_etype` for `sid` 0, 1, 2, with an empty cache (the only case during grid construction) -/
noncomputable def getEtypeF (e : EnvF) (sid : Fin 3) (nd : Node) : EType :=
  let x := (e.coord nd).1
  let y := (e.coord nd).2
  if sid = 0 then
    match e.bcoord (e.polar nd).1 (e.polar nd).2 with
    | none => .right
    | some c => if c.2 > e.F.twoPi then .right else if c.2 < e.a then .left else .standard
  else if sid = 1 then
    if x < 0 then .left else if x > e.R then .right else .standard
  else
    let p := getRadiusPointF e.F e.a x y
    if p.2 < 0 then .left else if p.2 > e.F.rnd (e.R * e.F.sin e.a) then .right else .standard

/-- ps/grid.py:200-244 `get_dist` -/
noncomputable def getDistF (e : EnvF) (nd : Node) (sid : Fin 3) (et : EType) : Py ℝ :=
  let x := (e.coord nd).1
  let y := (e.coord nd).2
  let xa := e.F.rnd (e.R * e.F.cos e.a)
  let ya := e.F.rnd (e.R * e.F.sin e.a)
  match sid, et with
  | 0, .standard =>
    match e.bcoord (e.polar nd).1 (e.polar nd).2 with
    | none => throw .typeError
    | some c => pure |c.1|
  | 0, .left => pure (dformulaF e.F xa ya x y)
  | 0, .right => pure (dformulaF e.F e.R 0 x y)
  | 1, .standard => pure |y|
  | 1, .left => pure (dformulaF e.F 0 0 x y)
  | 1, .right => pure (dformulaF e.F e.R 0 x y)
  | 2, .standard => pure (distToRadiusF e.F e.a x y)
  | 2, .left => pure (dformulaF e.F 0 0 x y)
  | 2, .right => pure (dformulaF e.F xa ya x y)

/-- ps/grid.py:257-258, the threshold `h*np.sqrt(2)` -/
noncomputable def EnvF.threshold (e : EnvF) : ℝ :=
  let h := e.F.rnd (e.AD / e.N)
  e.F.rnd (h * e.F.rnd √2)

/-- ps/grid.py:251-260, one pass of the inner loop -/
noncomputable def placeStepF (e : EnvF) (nd : Node) (st : AllGamma × Bool) (sid : Fin 3) : Py (AllGamma × Bool) := do
  let dist ← getDistF e nd sid (getEtypeF e sid nd)
  if dist ≤ e.threshold then
    return (Function.update st.1 sid (st.1 sid ++ [nd]), true)
  else return st

/-- ps/grid.py:249-264, the body of the outer loop with `assert placed` -/
noncomputable def placeNodeF (e : EnvF) (g : AllGamma) (nd : Node) : Py AllGamma := do
  let st ← [0, 1, 2].foldlM (placeStepF e nd) (g, false)
  if st.2 then return st.1 else throw .assertionError

/-- ps/grid.py:179-264 `ps_construct_grids` -/
noncomputable def psConstructGridsF (iter : Iter) (e : EnvF) (order : ℕ) : Py PsGrids := do
  let g := constructGrids iter e.N order e.interior
  let ns := nSets iter order g
  let unionGamma := iter 3 (ns.1 ∩ ns.2)
  let all ← unionGamma.foldlM (placeNodeF e) (fun _ => [])
  return { g with Nplus := ns.1, Nminus := ns.2, unionGamma := unionGamma, allGamma := all }

end Pot
