import Verif.Model.SolverCoord

/-!
# The coordinate functions with rounded arithmetic

The functions of `Model/DomainUtil.lean` and `Model/SolverCoord.lean` that decide which nodes are interior, once more, with every
`+ - * /` on floats followed by a rounding.  `rnd` is the rounding of an exact result, `hypot` and `atan2` are the library's.  Python
divides two integers with one rounding; the literals `2` and `1/2` are exact.
-/

namespace Pot

/-- the arithmetic the program runs on -/
structure Fl where
  rnd : ℝ → ℝ
  hypot : ℝ → ℝ → ℝ
  atan2 : ℝ → ℝ → ℝ

/-- `np.pi` -/
noncomputable def Fl.pi (F : Fl) : ℝ := F.rnd Real.pi
/-- `2*np.pi` (domain_util.py:11, ps/ps.py:77 and 113) -/
noncomputable def Fl.twoPi (F : Fl) : ℝ := F.rnd (2 * F.pi)
/-- problems/problem.py:13 `AD_len = 2*np.pi` -/
noncomputable def Fl.AD (F : Fl) : ℝ := F.rnd (2 * F.pi)
/-- problems/problem.py:47 `_a = np.pi / 4` -/
noncomputable def Fl.a (F : Fl) : ℝ := F.rnd (F.pi / 4)

/-- one component of `get_coord` (solver.py:32-33) -/
noncomputable def coordF (F : Fl) (AD : ℝ) (N : ℕ) (i : ℤ) : ℝ := F.rnd (AD * F.rnd (F.rnd (i / N) - 1 / 2))

/-- solver.py:28-34 `Solver.get_coord` -/
noncomputable def getCoordF (F : Fl) (AD : ℝ) (N : ℕ) (i j : ℤ) : ℝ × ℝ := (coordF F AD N i, coordF F AD N j)

/-- domain_util.py:4-13 `cart_to_polar` -/
noncomputable def cartToPolarF (F : Fl) (x y : ℝ) : ℝ × ℝ :=
  let r := F.hypot x y
  let th := F.atan2 y x
  if th ≤ 0 then (r, F.rnd (th + F.twoPi)) else (r, th)

/-- ps/ps.py:110-115 `PizzaSolver.get_polar` (and solver.py:44-49) -/
noncomputable def getPolarF (F : Fl) (AD a : ℝ) (N : ℕ) (i j : ℤ) : ℝ × ℝ :=
  let c := getCoordF F AD N i j
  let p := cartToPolarF F c.1 c.2
  if p.2 < F.rnd (a / 2) then (p.1, F.rnd (p.2 + F.twoPi)) else p

/-- ps/ps.py:77, the two comparisons of `is_interior` with the angle -/
def inWedgeF (F : Fl) (AD a : ℝ) (N : ℕ) (i j : ℤ) : Prop :=
  (getPolarF F AD a N i j).2 ≥ a ∧ (getPolarF F AD a N i j).2 ≤ F.twoPi

/-- ps/ps.py:74-77 `PizzaSolver.is_interior`; `evalR` is the function `boundary.eval_r` as the machine evaluates it -/
def isInteriorF (F : Fl) (AD a : ℝ) (evalR : ℝ → ℝ) (N : ℕ) (i j : ℤ) : Prop :=
  let p := getPolarF F AD a N i j
  let rb := evalR p.2
  p.1 ≤ rb ∧ p.2 ≥ a ∧ p.2 ≤ F.twoPi

end Pot
