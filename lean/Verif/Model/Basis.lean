import Verif.Model.Chebyshev
import Mathlib.Data.Complex.Basic

/-!
# Model of `ps/basis.py`

`self.eps`, `self.a`, `self.R` are the parameters `eps`, `a`, `R`; segment ids are `Fin 3`
(`N_SEGMENT = 3`, ps/basis.py:14).  `np.polynomial.chebyshev.chebfit` is a parameter `fit`.
-/

namespace Pot
open Real

/-- ps/basis.py:15 `eps = 1e-3`, as the exact decimal -/
noncomputable def psEps : ℝ := 1 / 1000

/-- one entry of `B_desc` (ps/basis.py:44-47) -/
structure BDesc where
  J : ℕ
  sid : Fin 3
  deriving DecidableEq, Repr

/-- one entry of `segment_desc` (ps/basis.py:38-42) -/
structure SegDesc where
  nBasis : ℕ
  JJlist : List ℕ
  deriving DecidableEq, Repr

/-- the attributes set by `setup_basis` -/
structure Basis where
  segDesc : List SegDesc
  bDesc : List BDesc
  deriving DecidableEq, Repr

/-- ps/basis.py:34 `n_basis_by_sid` -/
def nBasisBySid (nCircle nRadius : ℕ) : Fin 3 → ℕ
  | 0 => nCircle
  | 1 => nRadius
  | 2 => nRadius

/-- ps/basis.py:26-51 `setup_basis`.  The state of the loops is `(segment_desc, B_desc, JJ)`; the appends into
`s_desc['JJ_list']` happen on the dictionary already stored in `segment_desc`, so it is stored at the end. -/
def setupBasis (nCircle nRadius : ℕ) : Basis :=
  let r := [0, 1, 2].foldl (init := (([], [], 0) : List SegDesc × List BDesc × ℕ)) fun st (sid : Fin 3) =>
    let nb := nBasisBySid nCircle nRadius sid
    let inner := (List.range nb).foldl (init := ((st.2.1, [], st.2.2) : List BDesc × List ℕ × ℕ))
      fun s J => (s.1 ++ [⟨J, sid⟩], s.2.1 ++ [s.2.2], s.2.2 + 1)
    (st.1 ++ [⟨nb, inner.2.1⟩], inner.1, inner.2.2)
  ⟨r.1, r.2.1⟩

/-- ps/basis.py:53-66 `get_span_center` -/
noncomputable def spanCenter (eps a R : ℝ) (sid : Fin 3) : ℝ × ℝ :=
  let sc := if sid = 0 then (π - 1 / 2 * a + eps, π + 1 / 2 * a) else (R / 2 + eps, R / 2)
  if sid = 1 then (-sc.1, sc.2) else sc

/-- ps/basis.py:68-70 `eval_g` -/
noncomputable def evalG (eps a R : ℝ) (sid : Fin 3) (t : ℝ) : ℝ :=
  (spanCenter eps a R sid).1 * t + (spanCenter eps a R sid).2

/-- ps/basis.py:72-74 `eval_g_inv` -/
noncomputable def evalGInv (eps a R : ℝ) (sid : Fin 3) (arg : ℝ) : ℝ :=
  (arg - (spanCenter eps a R sid).2) / (spanCenter eps a R sid).1

/-- ps/basis.py:76-78 `eval_d_g_inv_arg` -/
noncomputable def evalDGInv (eps a R : ℝ) (sid : Fin 3) : ℝ := 1 / (spanCenter eps a R sid).1

/-- ps/basis.py:80-89 `eval_dn_B_arg` -/
noncomputable def evalDnB (eps a R : ℝ) (B : List BDesc) (n JJ : ℕ) (arg : ℝ) (sid : Fin 3) : Py ℝ :=
  match B[JJ]? with
  | none => throw .indexError
  | some b =>
    if b.sid = sid then do
      let t := evalGInv eps a R sid arg
      let d ← evalDnT n b.J t
      return evalDGInv eps a R sid ^ n * d
    else pure 0

/-- the least-squares routine `chebfit(x, y, deg)`; the third argument is `deg + 1` -/
abbrev Chebfit := List ℝ → List ℂ → ℕ → List ℂ

/-- ps/basis.py:91-111 `get_chebyshev_coef`; `roots` is `self.chebyshev_roots` (ps/basis.py:24).  `chebfit` raises
ValueError for a negative degree. -/
noncomputable def chebCoef (eps a R : ℝ) (fit : Chebfit) (roots : List ℝ) (bas : Basis) (sid : Fin 3)
    (func : ℝ → ℂ) : Py (List ℂ) :=
  let data := roots.map fun t => func (evalG eps a R sid t)
  match bas.segDesc[sid.val]? with
  | none => throw .indexError
  | some s => if s.nBasis = 0 then throw .valueError else pure (fit roots data s.nBasis)

/-- ps/basis.py:114-128 `calc_c0`; `bc arg sid` is `self.problem.eval_bc` -/
noncomputable def calcC0 (eps a R : ℝ) (fit : Chebfit) (roots : List ℝ) (bas : Basis)
    (bc : ℝ → Fin 3 → ℂ) : Py (List ℂ) := do
  let c ← chebCoef eps a R fit roots bas 0 fun th => bc th 0
  [1, 2].foldlM (init := c) fun c (sid : Fin 3) => do
    let d ← chebCoef eps a R fit roots bas sid fun arg => bc arg sid
    return c ++ d

end Pot
