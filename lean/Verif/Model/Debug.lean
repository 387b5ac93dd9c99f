import Verif.Model.Run
import Verif.Model.SolverCoord

/-!
# Model of `ps/debug.py`: the checks of the boundary data, `etype_filter`, `Q_residual`

What a function prints or saves is its return value here; plots (everything after `if not plot: return`) are left out.
`run` calls `c0_test(plot=False)` (ps/ps.py:239).
-/

namespace Pot
open Real

/-- ps/debug.py:88-101 `calc_c1_exact`; `du arg sid` is `self.problem.eval_d_u_outwards` -/
noncomputable def calcC1Exact (eps a R : ℝ) (fit : Chebfit) (roots : List ℝ) (bas : Basis)
    (du : ℝ → Fin 3 → ℂ) : Py (List ℂ) :=
  [0, 1, 2].foldlM (init := []) fun c (sid : Fin 3) => do
    let d ← chebCoef eps a R fit roots bas sid fun arg => du arg sid
    return c ++ d

/-- ps/debug.py:103-109 `etype_filter` -/
noncomputable def etypeFilter (e : Env) (cache : Cache) (sid : Fin 3) (nodes : List Node) (etypes : List EType) :
    Py (List Node) :=
  nodes.foldlM (init := []) fun result nd => do
    let et ← getEtype e cache sid nd
    return if et ∈ etypes then result ++ [nd] else result

/-- ps/debug.py:143-146, 228-231: the real part of the Chebyshev expansion at one point -/
noncomputable def expansionRe (eps a R : ℝ) (B : List BDesc) (c : List ℂ) (arg : ℝ) (sid : Fin 3) : Py ℝ :=
  (List.range B.length).foldlM (init := 0) fun acc JJ => do
    let z ← vecGet c JJ
    let b ← evalDnB eps a R B 0 JJ arg sid
    return acc + (z * (b : ℂ)).re

/-- the segment id as the code finds it again from the coordinates of a sample point (ps/debug.py:133-141, 220-226),
and the argument on that segment.  `get_sid` returns `None` inside the wedge; `eval_bc` then fails to unpack `None`. -/
noncomputable def sampleSid (a : ℝ) (p : SamplePoint) : Py (Fin 3 × ℝ) :=
  match getSid a (cartToPolar p.x p.y).2 with
  | none => throw .typeError
  | some 0 => pure (0, (cartToPolar p.x p.y).2)
  | some 1 => pure (1, (cartToPolar p.x p.y).1)
  | some _ => pure (2, (cartToPolar p.x p.y).1)

/-- ps/debug.py:129-150, the body of the loop of `c0_test` for one point: segment, exact and expanded data -/
noncomputable def c0Point (eps a R : ℝ) (bas : Basis) (c0 : List ℂ) (bc : ℝ → Fin 3 → ℂ) (p : SamplePoint) :
    Py (Fin 3 × ℝ × ℝ) := do
  let q ← sampleSid a p
  let exact := (bc p.arg q.1).re
  let expansion ← expansionRe eps a R bas.bDesc c0 q.2 q.1
  return (q.1, exact, expansion)

/-- ps/debug.py:111-167 `c0_test(plot=False)`: the two numbers it prints, the error on the outer boundary and the
error on the whole boundary.  `np.max` of an empty array is a ValueError. -/
noncomputable def c0Test (eps a R : ℝ) (evalR : ℝ → ℝ) (bas : Basis) (c0 : List ℂ) (bc : ℝ → Fin 3 → ℂ) : Py (ℝ × ℝ) := do
  let pts ← (getBoundarySample a R evalR 100).mapM (c0Point eps a R bas c0 bc)
  let outer ← pyMax ((pts.filter fun t => t.1 = 0).map fun t => |t.2.1 - t.2.2|)
  let all ← pyMax (pts.map fun t => |t.2.1 - t.2.2|)
  return (outer, all)

/-- ps/debug.py:213-231, the body of the loop of `c1_test` for one point: exact Neumann data at the sample's own segment
(the ids in a sample are 0, 1, 2), and the expansion at the segment found from its coordinates.  If `get_sid` returns
`None`, every basis function contributes zero. -/
noncomputable def c1Point (eps a R : ℝ) (bas : Basis) (c1 : List ℂ) (du : ℝ → Fin 3 → ℂ) (p : SamplePoint) : Py (ℝ × ℝ) := do
  let exact := (du p.arg (Fin.ofNat 3 p.sid)).re
  let expansion ← match getSid a (cartToPolar p.x p.y).2 with
    | none => do
      let _ ← (List.range bas.bDesc.length).mapM (vecGet c1)
      pure 0
    | some _ => do
      let q ← sampleSid a p
      expansionRe eps a R bas.bDesc c1 q.2 q.1
  return (exact, expansion)

/-- ps/debug.py:197-237 `c1_test` for a problem with `eval_d_u_outwards`: the error it prints -/
noncomputable def c1Test (eps a R : ℝ) (evalR : ℝ → ℝ) (bas : Basis) (c1 : List ℂ) (du : ℝ → Fin 3 → ℂ) : Py ℝ := do
  let pts ← (getBoundarySample a R evalR 100).mapM (c1Point eps a R bas c1 du)
  pyMax (pts.map fun t => |t.1 - t.2|)

/-- ps/debug.py:252-268 `Q_residual`: the vector it saves and the maximum it prints.  The file `gamma_info.dat` is left out. -/
noncomputable def qResidual {n : ℕ} (iter : Iter) (s : PSolver) (apSolF : Arr n) (fit : Chebfit) (roots : List ℝ)
    (bc du : ℝ → Fin 3 → ℂ) : Py (List ℝ × ℝ) := do
  let c0 ← calcC0 s.eps s.e.a s.e.R fit roots s.bas bc
  let c1 ← calcC1Exact s.eps s.e.a s.e.R fit roots s.bas du
  let v ← getVar iter s apSolF c0
  let q ← matVec s.G.unionGamma.length v.1 c1
  let d ← vecSub q v.2
  let residual := d.map fun z => ‖z‖
  let m ← pyMax residual
  return (residual, m)

/-- ps/ps.py:217-257 `run` with the call of `c0_test` in place (ps/ps.py:239) -/
noncomputable def psRunPrinting {n : ℕ} (iter : Iter) (s : PSolver) (apSolF : Arr n) (fit : Chebfit) (roots : List ℝ)
    (bc : ℝ → Fin 3 → ℂ) (lstsq : Lstsq) (expected : Option (ℝ → ℝ → ℂ)) : Py (RunResult n × (ℝ × ℝ)) := do
  let c0 ← calcC0 s.eps s.e.a s.e.R fit roots s.bas bc
  let printed ← c0Test s.eps s.e.a s.e.R s.e.evalR s.bas c0 bc
  let c1 ← solveVar lstsq iter s apSolF c0
  let ext ← extendBoundary s (.full c0 c1)
  let u ← regularPart iter s.e s.order s.k s.G ext apSolF
  let err ← evalError iter s.e s.G expected u
  return ({ error := err, uAct := u, c0 := c0, c1 := c1, ext := ext }, printed)

end Pot
