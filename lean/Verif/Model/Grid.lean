import Verif.Model.SolverCoord
import Mathlib.Data.Int.Interval
import Mathlib.Data.Finset.Prod

/-!
# Model of the grid construction (`solver.py` construct_grids, `ps/grid.py`, `get_etype`)

A Python `set` of nodes is a `Finset (ℤ × ℤ)`.  Iterating over a set visits its elements in an unspecified
order: `iter t s` is the order used by the loop tagged `t` (different loops may see different orders);
`IsIter` is all that is assumed about it.
-/

namespace Pot
open Real

/-- a grid node -/
abbrev Node := ℤ × ℤ

/-- CPython's set iteration: some duplicate-free enumeration of the elements, for every loop `t`. -/
abbrev Iter := ℕ → Finset Node → List Node

/-- the assumption on set iteration -/
def IsIter (iter : Iter) : Prop := ∀ t s, (iter t s).Nodup ∧ ∀ x, x ∈ iter t s ↔ x ∈ s

/-- the solver attributes the grid code reads: `self.N`, `self.AD_len`, `self.a`, `self.R`,
`self.boundary.eval_r`, `self.boundary.get_boundary_coord` (`None` is `none`) -/
structure Env where
  N : ℕ
  AD : ℝ
  a : ℝ
  R : ℝ
  evalR : ℝ → ℝ
  bcoord : ℝ → ℝ → Option (ℝ × ℝ)

/-- `self.get_coord(i, j)` -/
noncomputable def Env.coord (e : Env) (nd : Node) : ℝ × ℝ := getCoord e.AD e.N nd.1 nd.2
/-- `self.get_polar(i, j)` (ps/ps.py:110-115) -/
noncomputable def Env.polar (e : Env) (nd : Node) : ℝ × ℝ := getPolar e.AD e.N e.a nd.1 nd.2
/-- `self.is_interior(i, j)` (ps/ps.py:74-77) -/
def Env.interior (e : Env) (nd : Node) : Prop := isInterior e.AD e.N e.a e.evalR nd.1 nd.2

/-- `set(it.product(range(lo, hi), repeat=2))` -/
noncomputable def square (lo hi : ℤ) : Finset Node := Finset.Ico lo hi ×ˢ Finset.Ico lo hi

/-- the attributes set by `construct_grids` -/
structure Grids where
  N0 : Finset Node
  M0 : Finset Node
  Mplus : Finset Node
  Mminus : Finset Node
  Kplus : Finset Node

/-- solver.py:65-70, the five-point neighbourhood used for `Kplus` (only the node itself for order 2) -/
def kStencil (order : ℕ) (nd : Node) : Finset Node :=
  let i := nd.1
  let j := nd.2
  let Nm : Finset Node := {(i, j)}
  if order > 2 then Nm ∪ {(i - 1, j), (i + 1, j), (i, j - 1), (i, j + 1)} else Nm

open Classical in
/-- solver.py:51-72 `construct_grids`, for an arbitrary predicate `inter` in place of `self.is_interior`.
Loops 0 and 1. -/
noncomputable def constructGrids (iter : Iter) (N order : ℕ) (inter : Node → Prop) : Grids :=
  let N0 := square 0 (N + 1)
  let M0 := square 1 N
  let Mplus := (iter 0 M0).foldl (init := ∅) fun s nd => if inter nd then insert nd s else s
  let Mminus := M0 \ Mplus
  let Kplus := (iter 1 Mplus).foldl (init := ∅) fun s nd => s ∪ kStencil order nd
  ⟨N0, M0, Mplus, Mminus, Kplus⟩

/-- ps/grid.py:186-190, the five- or nine-point neighbourhood -/
def nStencil (order : ℕ) (nd : Node) : Finset Node :=
  let i := nd.1
  let j := nd.2
  let Nm : Finset Node := {(i, j), (i - 1, j), (i + 1, j), (i, j - 1), (i, j + 1)}
  if order > 2 then Nm ∪ {(i - 1, j - 1), (i + 1, j - 1), (i - 1, j + 1), (i + 1, j + 1)} else Nm

/-- ps/grid.py:182-195, loop 2: the pair `(Nplus, Nminus)` -/
def nSets (iter : Iter) (order : ℕ) (g : Grids) : Finset Node × Finset Node :=
  (iter 2 g.M0).foldl (init := (∅, ∅)) fun s nd =>
    let Nm := nStencil order nd
    if nd ∈ g.Mplus then (s.1 ∪ Nm, s.2)
    else if nd ∈ g.Mminus then (s.1, s.2 ∪ Nm)
    else s

/-- ps/extend.py:13 `EType` -/
inductive EType | left | standard | right
  deriving DecidableEq, Repr

/-- a dictionary keyed by nodes: `boundary_coord_cache`, whose values may be `None` -/
abbrev Cache := Node → Option (Option (ℝ × ℝ))

/-- ps/extend.py:28-71 `get_etype` for `sid` 0, 1, 2 (all callers pass one of these).  Unpacking a cached
`None` raises TypeError. -/
noncomputable def getEtype (e : Env) (cache : Cache) (sid : Fin 3) (nd : Node) : Py EType :=
  let x := (e.coord nd).1
  let y := (e.coord nd).2
  let classify : ℝ → EType := fun th =>
    if th > 2 * π then .right else if th < e.a then .left else .standard
  if sid = 0 then
    match cache nd with
    | some (some c) => pure (classify c.2)
    | some none => throw .typeError
    | none =>
      match e.bcoord (e.polar nd).1 (e.polar nd).2 with
      | none => pure .right
      | some c => pure (classify c.2)
  else if sid = 1 then
    pure (if x < 0 then .left else if x > e.R then .right else .standard)
  else do
    let p ← getRadiusPointPy e.a 2 x y
    return if p.2 < 0 then .left else if p.2 > e.R * sin e.a then .right else .standard

/-- ps/grid.py:201-202 `dformula` -/
noncomputable def dformula (x0 y0 x y : ℝ) : ℝ := √((x0 - x) ^ 2 + (y0 - y) ^ 2)

/-- ps/grid.py:200-244 `get_dist`. -/
noncomputable def getDist (e : Env) (nd : Node) (sid : Fin 3) (et : EType) : Py ℝ :=
  let x := (e.coord nd).1
  let y := (e.coord nd).2
  match sid, et with
  | 0, .standard =>
    match e.bcoord (e.polar nd).1 (e.polar nd).2 with
    | none => throw .typeError
    | some c => pure |c.1|
  | 0, .left => pure (dformula (e.R * cos e.a) (e.R * sin e.a) x y)
  | 0, .right => pure (dformula e.R 0 x y)
  | 1, .standard => pure |y|
  | 1, .left => pure (dformula 0 0 x y)
  | 1, .right => pure (dformula e.R 0 x y)
  | 2, .standard => distToRadiusPy e.a 2 x y
  | 2, .left => pure (dformula 0 0 x y)
  | 2, .right => pure (dformula (e.R * cos e.a) (e.R * sin e.a) x y)

/-- the dictionary `all_gamma` -/
abbrev AllGamma := Fin 3 → List Node

/-- ps/grid.py:251-259, one pass of the inner loop: classify, measure, append -/
noncomputable def placeStep (e : Env) (cache : Cache) (nd : Node) (st : AllGamma × Bool) (sid : Fin 3) :
    Py (AllGamma × Bool) := do
  let et ← getEtype e cache sid nd
  let dist ← getDist e nd sid et
  let h := e.AD / e.N
  if dist ≤ h * √2 then
    return (Function.update st.1 sid (st.1 sid ++ [nd]), true)
  else return st

/-- ps/grid.py:248-264, the body of the outer loop with `assert placed` -/
noncomputable def placeNode (e : Env) (cache : Cache) (g : AllGamma) (nd : Node) : Py AllGamma := do
  let st ← [0, 1, 2].foldlM (placeStep e cache nd) (g, false)
  if st.2 then return st.1 else throw .assertionError

/-- all attributes set by `ps_construct_grids` -/
structure PsGrids extends Grids where
  Nplus : Finset Node
  Nminus : Finset Node
  unionGamma : List Node
  allGamma : AllGamma

/-- ps/grid.py:179-264 `ps_construct_grids`.  `list(set)` is iteration order 3.  The cache is empty at this
point (ps/ps.py:51-52). -/
noncomputable def psConstructGrids (iter : Iter) (e : Env) (order : ℕ) : Py PsGrids := do
  let g := constructGrids iter e.N order e.interior
  let ns := nSets iter order g
  let unionGamma := iter 3 (ns.1 ∩ ns.2)
  let all ← unionGamma.foldlM (placeNode e fun _ => none) (fun _ => [])
  return { g with Nplus := ns.1, Nminus := ns.2, unionGamma := unionGamma, allGamma := all }

/-- ps/ps.py:117-131 `get_boundary_coord`, `build_boundary_coord_cache` -/
noncomputable def buildCache (e : Env) (gamma0 : List Node) : Cache := fun nd =>
  if nd ∈ gamma0 then some (e.bcoord (e.polar nd).1 (e.polar nd).2) else none

end Pot
