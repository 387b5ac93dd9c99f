import Verif.Model.Grid
import Verif.Model.Linop

/-!
# Model of the difference-potential part of `ps/ps.py`

`G` is the grid built by `ps_construct_grids`; `e` carries `self.N`, `self.AD_len`, `self.a`, ….  A vector over
`union_gamma` (a one-dimensional numpy array) is a `List ℂ`.  The interior arrays have shape `(N-1, N-1)`;
`n` is `N - 1`.
-/

namespace Pot

/-- `w[i, j]` with Python's index rule on both axes -/
def arrGet {m : ℕ} (w : Arr m) (i j : ℤ) : Py ℂ := do
  let p ← pyIdx m i
  let q ← pyIdx m j
  return w p q

/-- `w[i, j] = x` with Python's index rule on both axes -/
def arrSet {m : ℕ} (w : Arr m) (i j : ℤ) (x : ℂ) : Py (Arr m) := do
  let p ← pyIdx m i
  let q ← pyIdx m j
  return fun p' q' => if p' = p ∧ q' = q then x else w p' q'

/-- `v[l]` for a nonnegative index into a one-dimensional array -/
def vecGet (v : List ℂ) (l : ℕ) : Py ℂ :=
  match v[l]? with
  | some x => .ok x
  | none => .error .indexError

/-- ps/ps.py:142-146, the loop writing the extension into a zero array -/
def writeGamma {n : ℕ} (gamma : List Node) (ext : List ℂ) : Py (Arr n) :=
  gamma.zipIdx.foldlM (init := fun _ _ => 0) fun w p => do
    let x ← vecGet ext p.2
    arrSet w (p.1.1 - 1) (p.1.2 - 1) x

/-- ps/ps.py:69-70 and 150-151, `for i,j in self.global_Mminus: A[i-1, j-1] = 0` -/
def zeroMinus {n : ℕ} (minus : List Node) (A : Arr n) : Py (Arr n) :=
  minus.foldlM (fun A nd => arrSet A (nd.1 - 1) (nd.2 - 1) 0) A

/-- ps/ps.py:134-153 `get_potential` (`self.apply_L`, `self.solve_ap` are set at ps/ps.py:55-57).  The loop over
`global_Mminus` is iteration 4. -/
noncomputable def getPotential {n : ℕ} (iter : Iter) (e : Env) (order : ℕ) (k : ℝ) (G : PsGrids)
    (ext : List ℂ) : Py (Arr n) := do
  let w ← writeGamma (n := n) G.unionGamma ext
  let Lw ← apApplyL e.N order e.AD k w
  let Lw ← zeroMinus (iter 4 G.Mminus) Lw
  let s ← apSolve e.N order e.AD k Lw
  return fun a b => w a b - s a b

/-- ps/ps.py:155-162 `get_trace` -/
def getTrace {n : ℕ} (gamma : List Node) (w : Arr n) : Py (List ℂ) :=
  gamma.mapM fun nd => arrGet w (nd.1 - 1) (nd.2 - 1)

/-- ps/ps.py:61-72 `calc_ap_sol_f` for the array `f` left by `setup_f`.  The loop over `global_Mminus` is
iteration 5. -/
noncomputable def calcApSolF {n : ℕ} (iter : Iter) (e : Env) (order : ℕ) (k : ℝ) (G : PsGrids)
    (f : Arr (n + 2)) : Py (Arr n) := do
  let Bf := applyB f
  let Bf ← zeroMinus (iter 5 G.Mminus) Bf
  apSolve e.N order e.AD k Bf

/-- ps/ps.py:247 `regular_part = self.get_potential(ext) + self.ap_sol_f` -/
noncomputable def regularPart {n : ℕ} (iter : Iter) (e : Env) (order : ℕ) (k : ℝ) (G : PsGrids)
    (ext : List ℂ) (apSolF : Arr n) : Py (Arr n) := do
  let p ← getPotential iter e order k G ext
  return fun a b => p a b + apSolF a b

end Pot
