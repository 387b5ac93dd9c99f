import Verif.Model.Multivalue
import Verif.Model.Basis
import Verif.Model.Boundary
import Verif.Model.Potential
import Mathlib.Data.Nat.Factorial.Basic

/-!
# Model of the extension operators (`extend.py`, `ps/extend.py`)

Boundary data is complex, geometry is real.  A keyword-argument dictionary is a structure; the dictionary of
derivatives `derivs` is a partial function on pairs `(order, index)` (the human readable names built by
`get_deriv_name`, ps/extend.py:15-21, are an injective renaming of these pairs); a missing key is a KeyError.
-/

namespace Pot
open Real

/-! ## `extend.py` -/

/-- extend.py:105-107, 169-171: the Taylor sum of a list of derivatives -/
noncomputable def taylorSum (ds : List ℂ) (n : ℝ) : ℂ :=
  ds.zipIdx.foldl (init := 0) fun v p => v + p.1 / (p.2.factorial : ℂ) * (n : ℂ) ^ p.2

/-- keyword arguments of `extend_arbitrary` (extend.py:66-77) -/
structure ArcArgs where
  n : ℝ
  curv : ℝ
  dCurvS : ℝ
  d2CurvS : ℝ
  xi0 : ℂ
  xi1 : ℂ
  dXi0 : ℂ
  dXi1 : ℂ
  d2Xi0 : ℂ
  d2Xi1 : ℂ
  d4Xi0 : ℂ

/-- extend.py:81-103, the list `derivs` of `extend_arbitrary` -/
noncomputable def arcDerivs (k : ℝ) (x : ArcArgs) : List ℂ :=
  let k : ℂ := k
  let curv : ℂ := x.curv
  let dCurv : ℂ := x.dCurvS
  let d2Curv : ℂ := x.d2CurvS
  let d2 := -k ^ 2 * x.xi0 + curv * x.xi1 - x.d2Xi0
  let d3 := (curv ^ 2 - k ^ 2) * x.xi1 + curv * d2 - dCurv * x.dXi0 - 2 * curv * x.d2Xi0 - x.d2Xi1
  let d4vn2s2 := d2Curv * x.xi1 - k ^ 2 * x.d2Xi0 - x.d4Xi0 + 2 * dCurv * x.dXi1 + curv * x.d2Xi1
  let d4 := 2 * curv ^ 3 * x.xi1 + (2 * curv ^ 2 - k ^ 2) * d2 + curv * d3 - 6 * curv * dCurv * x.dXi0 -
    6 * curv ^ 2 * x.d2Xi0 - 2 * dCurv * x.dXi1 - 4 * curv * x.d2Xi1 - d4vn2s2
  [x.xi0, x.xi1, d2, d3, d4]

/-- extend.py:60-109 `extend_arbitrary` -/
noncomputable def extendArbitrary (k : ℝ) (x : ArcArgs) : ℂ := taylorSum (arcDerivs k x) x.n

/-- keyword arguments of `extend_polar` (extend.py:15-29, 46-48) -/
structure PolarArgs where
  n : ℝ
  curv : ℝ
  dCurvTh : ℝ
  d2CurvTh : ℝ
  dThs : ℝ
  d2Ths : ℝ
  d3Ths : ℝ
  d4Ths : ℝ
  xi0 : ℂ
  xi1 : ℂ
  dXi0 : ℂ
  dXi1 : ℂ
  d2Xi0 : ℂ
  d2Xi1 : ℂ
  d3Xi0 : ℂ
  d4Xi0 : ℂ

/-- extend.py:31-57, the arguments `extend_polar` passes on -/
noncomputable def polarToArc (x : PolarArgs) : ArcArgs :=
  let convertD (d : ℂ) : ℂ := d * x.dThs
  let convertD2 (d d2 : ℂ) : ℂ := d2 * (x.dThs : ℂ) ^ 2 + d * x.d2Ths
  let convertD4 (d d2 d3 d4 : ℂ) : ℂ :=
    (x.dThs : ℂ) ^ 4 * d4 + 6 * (x.dThs : ℂ) ^ 2 * x.d2Ths * d3 + 4 * x.dThs * d2 * x.d3Ths +
      3 * (x.d2Ths : ℂ) ^ 2 * d2 + x.d4Ths * d
  { n := x.n
    xi0 := x.xi0
    xi1 := x.xi1
    dXi0 := convertD x.dXi0
    dXi1 := convertD x.dXi1
    d2Xi0 := convertD2 x.dXi0 x.d2Xi0
    d2Xi1 := convertD2 x.dXi1 x.d2Xi1
    d4Xi0 := convertD4 x.dXi0 x.d2Xi0 x.d3Xi0 x.d4Xi0
    curv := x.curv
    dCurvS := x.dCurvTh * x.dThs
    d2CurvS := x.d2CurvTh * x.dThs ^ 2 + x.dCurvTh * x.d2Ths }

/-- extend.py:10-57 `extend_polar` -/
noncomputable def extendPolar (k : ℝ) (x : PolarArgs) : ℂ := extendArbitrary k (polarToArc x)

/-- keyword arguments of `inhomo_extend_arbitrary` (extend.py:149-156) -/
structure InhomoArgs where
  n : ℝ
  f : ℂ
  dFn : ℂ
  d2Fn : ℂ
  d2Fs : ℂ
  curv : ℝ

/-- extend.py:158-167, the list `derivs` -/
noncomputable def inhomoDerivs (k : ℝ) (x : InhomoArgs) : List ℂ :=
  let k : ℂ := k
  let curv : ℂ := x.curv
  let d2 := x.f
  let d3 := x.dFn + curv * d2
  let d4 := x.d2Fn + (2 * curv ^ 2 - k ^ 2) * d2 + curv * d3 - x.d2Fs
  [0, 0, d2, d3, d4]

/-- extend.py:145-173 `inhomo_extend_arbitrary` -/
noncomputable def inhomoExtendArbitrary (k : ℝ) (x : InhomoArgs) : ℂ := taylorSum (inhomoDerivs k x) x.n

/-- keyword arguments of `inhomo_extend_polar` that it consumes (extend.py:116-127) -/
structure InhomoPolarArgs where
  dFth : ℂ
  d2Fth : ℂ
  dFr : ℂ
  d2Fr : ℂ
  d2Frth : ℂ
  dThs : ℝ
  d2Ths : ℝ
  dRth : ℝ
  d2Rth : ℝ

/-- extend.py:129-140 `d2_f_s` -/
noncomputable def inhomoD2Fs (x : InhomoPolarArgs) : ℂ :=
  let dRs : ℂ := x.dRth * x.dThs
  let d2Rs : ℂ := x.d2Rth * (x.dThs : ℂ) ^ 2 + x.dRth * x.d2Ths
  let d2Fths := x.d2Fth * x.dThs + x.d2Frth * dRs
  let d2Frs := x.d2Frth * x.dThs + x.d2Fr * dRs
  d2Fths * x.dThs + x.dFth * x.d2Ths + d2Frs * dRs + x.dFr * d2Rs

/-- extend.py:111-143 `inhomo_extend_polar`; the remaining keyword arguments are passed on -/
noncomputable def inhomoExtendPolar (k : ℝ) (x : InhomoPolarArgs) (n : ℝ) (f dFn d2Fn : ℂ) (curv : ℝ) : ℂ :=
  inhomoExtendArbitrary k { n := n, f := f, dFn := dFn, d2Fn := d2Fn, d2Fs := inhomoD2Fs x, curv := curv }

/-! ## `ps/extend.py` -/

/-- the source-related methods of `self.problem` that the solver calls.  The gradient and Hessian may be nan. -/
structure Source where
  homogeneous : Bool
  f : ℝ → ℝ → ℂ
  grad : ℝ → ℝ → Py (ℂ × ℂ)
  hess : ℝ → ℝ → Py ((ℂ × ℂ) × (ℂ × ℂ))
  fPolar : ℝ → ℝ → ℂ
  gradPolar : ℝ → ℝ → Py (ℂ × ℂ)
  hessPolar : ℝ → ℝ → Py ((ℂ × ℂ) × (ℂ × ℂ))
  dFth : ℝ → ℝ → ℂ
  d2Fth : ℝ → ℝ → ℂ
  dFr : ℝ → ℝ → ℂ
  d2Fr : ℝ → ℝ → ℂ
  d2Frth : ℝ → ℝ → ℂ

/-- the attributes of a constructed `PizzaSolver` that the extension code reads; the boundary is given by its
radius function `e.evalR` -/
structure PSolver where
  e : Env
  order : ℕ
  k : ℝ
  eps : ℝ
  bas : Basis
  G : PsGrids
  cache : Cache
  src : Source

/-- ps/extend.py:26 `taylor_n_terms` -/
def taylorNTerms : ℕ := 5

/-- the dictionary of derivatives -/
abbrev XiDict := ℕ × Fin 2 → Option ℂ

/-- reading `derivs[key]` -/
def xiGet (d : XiDict) (order : ℕ) (index : Fin 2) : Py ℂ :=
  match d (order, index) with
  | some x => pure x
  | none => throw .keyError

/-- which data is extended: one basis function (`JJ`, `basis_index`), or the full boundary data with the
coefficients `self.c0`, `self.c1` (ps/extend.py:106-124) -/
inductive XiSrc
  | basis (JJ : ℕ) (index : Fin 2)
  | full (c0 c1 : List ℂ)

/-- ps/extend.py:110, 123 `JJ_list` -/
def XiSrc.jjList (s : XiSrc) (B : List BDesc) : List ℕ :=
  match s with
  | .basis JJ _ => [JJ]
  | .full _ _ => List.range B.length

/-- ps/extend.py:112-124 `c[index][JJ]`; `self.c1` is taken to exist (`run` sets it before extending the full data) -/
def XiSrc.coef (s : XiSrc) (index : Fin 2) (JJ : ℕ) : Py ℂ :=
  match s with
  | .basis JJ0 bi => if JJ = JJ0 then pure (if index = bi then 1 else 0) else throw .keyError
  | .full c0 c1 => vecGet (if index = 0 then c0 else c1) JJ

/-- ps/extend.py:140-143, one derivative -/
noncomputable def xiDeriv (s : PSolver) (src : XiSrc) (arg : ℝ) (sid : Fin 3) (order : ℕ) (index : Fin 2) : Py ℂ :=
  (src.jjList s.bas.bDesc).foldlM (init := 0) fun deriv JJ => do
    let b ← evalDnB s.eps s.e.a s.e.R s.bas.bDesc order JJ arg sid
    let c ← src.coef index JJ
    return deriv + c * b

/-- ps/extend.py:88-171 `_ext_calc_xi_derivs`, `ext_calc_xi_derivs` -/
noncomputable def extCalcXi (s : PSolver) (src : XiSrc) (types : List (ℕ × Fin 2)) (arg : ℝ) (sid : Fin 3) :
    Py XiDict :=
  types.foldlM (init := fun _ => none) fun d t => do
    let v ← xiDeriv s src arg sid t.1 t.2
    return Function.update d t (some v)

/-- `n, th = self.boundary_coord_cache[(i, j)]`; unpacking `None` is a TypeError -/
def cacheGet (s : PSolver) (nd : Node) : Py (ℝ × ℝ) :=
  match s.cache nd with
  | none => throw .keyError
  | some none => throw .typeError
  | some (some c) => pure c

/-- ps/extend.py:73-86 `extend_radius` -/
noncomputable def extendRadius (s : PSolver) (n : ℝ) (d : XiDict) : Py ℂ := do
  let xi0 ← xiGet d 0 0
  let xi1 ← xiGet d 0 1
  let dXi0 ← xiGet d 1 0
  let dXi1 ← xiGet d 1 1
  let d2Xi0 ← xiGet d 2 0
  let d2Xi1 ← xiGet d 2 1
  let d4Xi0 ← xiGet d 4 0
  return extendArbitrary s.k
    { n := n, curv := 0, dCurvS := 0, d2CurvS := 0, xi0 := xi0, xi1 := xi1, dXi0 := dXi0, dXi1 := dXi1,
      d2Xi0 := d2Xi0, d2Xi1 := d2Xi1, d4Xi0 := d4Xi0 }

/-- ps/extend.py:239-261 `do_extend_0` -/
noncomputable def doExtend0 (s : PSolver) (nd : Node) (d : XiDict) : Py ℂ := do
  let c ← cacheGet s nd
  let r := s.e.evalR
  let xi0 ← xiGet d 0 0
  let xi1 ← xiGet d 0 1
  let dXi0 ← xiGet d 1 0
  let dXi1 ← xiGet d 1 1
  let d2Xi0 ← xiGet d 2 0
  let d2Xi1 ← xiGet d 2 1
  let d3Xi0 ← xiGet d 3 0
  let d4Xi0 ← xiGet d 4 0
  return extendPolar s.k
    { n := c.1, curv := curvTh r c.2, dCurvTh := dCurvTh r c.2, d2CurvTh := d2CurvTh r c.2,
      dThs := dThs r c.2, d2Ths := d2Ths r c.2, d3Ths := d3Ths r c.2, d4Ths := d4Ths r c.2,
      xi0 := xi0, xi1 := xi1, dXi0 := dXi0, dXi1 := dXi1, d2Xi0 := d2Xi0, d2Xi1 := d2Xi1,
      d3Xi0 := d3Xi0, d4Xi0 := d4Xi0 }

/-- ps/extend.py:193 `it.product(range(self.taylor_n_terms), (0, 1))` -/
def taylorTypes : List (ℕ × Fin 2) := (List.range taylorNTerms).flatMap fun m => [(m, 0), (m, 1)]

/-- ps/extend.py:205-213, the Taylor sum for the `m`-th derivative -/
noncomputable def taylorShift1 (d0 : XiDict) (delta : ℝ) (m : ℕ) (index : Fin 2) : Py ℂ :=
  (List.range' m (taylorNTerms - m)).foldlM (init := 0) fun acc l => do
    let fac : ℝ := delta ^ (l - m) / ((l - m).factorial : ℝ)
    let x ← xiGet d0 l index
    return acc + x * fac

/-- ps/extend.py:197-213, all shifted derivatives -/
noncomputable def taylorShift (d0 : XiDict) (delta : ℝ) : Py XiDict :=
  [0, 1].foldlM (init := fun _ => none) fun d (index : Fin 2) =>
    (List.range taylorNTerms).foldlM (init := d) fun d m => do
      let v ← taylorShift1 d0 delta m index
      return Function.update d (m, index) (some v)

/-- ps/extend.py:173-237 `do_extend_taylor`; returns `(elen, value)` -/
noncomputable def doExtendTaylor (s : PSolver) (src : XiSrc) (nd : Node) (arg : ℝ) (sid : Fin 3) (delta n : ℝ) :
    Py (ℝ × ℂ) := do
  let d0 ← extCalcXi s src taylorTypes arg sid
  let d ← taylorShift d0 delta
  if sid = 0 then
    let v ← doExtend0 s nd d
    let c ← cacheGet s nd
    return (|delta| * s.e.R + |c.1|, v)
  else
    let v ← extendRadius s n d
    return (|delta| + |n|, v)

/-- ps/extend.py:278-289 `do_extend_0_standard` -/
noncomputable def doExtend0Standard (s : PSolver) (src : XiSrc) (nd : Node) : Py (ℝ × ℂ) := do
  let c ← cacheGet s nd
  let d ← extCalcXi s src [(0, 0), (0, 1), (1, 0), (1, 1), (2, 0), (2, 1), (3, 0), (4, 0)] c.2 0
  let v ← doExtend0 s nd d
  return (|c.1|, v)

/-- ps/extend.py:291-295 `do_extend_0_left`.  The default `n=None` is never used for segment 0; any number
does. -/
noncomputable def doExtend0Left (s : PSolver) (src : XiSrc) (nd : Node) : Py (ℝ × ℂ) := do
  let c ← cacheGet s nd
  doExtendTaylor s src nd s.e.a 0 (c.2 - s.e.a) 0

/-- ps/extend.py:297-301 `do_extend_0_right` -/
noncomputable def doExtend0Right (s : PSolver) (src : XiSrc) (nd : Node) : Py (ℝ × ℂ) := do
  let c ← cacheGet s nd
  doExtendTaylor s src nd (2 * π) 0 (c.2 - 2 * π) 0

/-- ps/extend.py:306-308, 332-334 the derivatives used on a wedge side -/
def radiusTypes : List (ℕ × Fin 2) := [(0, 0), (0, 1), (1, 0), (1, 1), (2, 0), (2, 1), (4, 0)]

/-- ps/extend.py:303-313 `do_extend_1_standard` -/
noncomputable def doExtend1Standard (s : PSolver) (src : XiSrc) (nd : Node) : Py (ℝ × ℂ) := do
  let x := (s.e.coord nd).1
  let y := (s.e.coord nd).2
  let d ← extCalcXi s src radiusTypes x 1
  let v ← extendRadius s y d
  return (|y|, v)

/-- ps/extend.py:315-318 `do_extend_1_left` -/
noncomputable def doExtend1Left (s : PSolver) (src : XiSrc) (nd : Node) : Py (ℝ × ℂ) :=
  let x := (s.e.coord nd).1
  let y := (s.e.coord nd).2
  doExtendTaylor s src nd 0 1 x y

/-- ps/extend.py:320-324 `do_extend_1_right` -/
noncomputable def doExtend1Right (s : PSolver) (src : XiSrc) (nd : Node) : Py (ℝ × ℂ) :=
  let x := (s.e.coord nd).1
  let y := (s.e.coord nd).2
  doExtendTaylor s src nd s.e.R 1 (x - s.e.R) y

/-- ps/extend.py:326-340 `do_extend_2_standard` -/
noncomputable def doExtend2Standard (s : PSolver) (src : XiSrc) (nd : Node) : Py (ℝ × ℂ) := do
  let x := (s.e.coord nd).1
  let y := (s.e.coord nd).2
  let p ← getRadiusPointPy s.e.a 2 x y
  let paramR := (cartToPolar p.1 p.2).1
  let d ← extCalcXi s src radiusTypes paramR 2
  let n ← signedDistToRadiusPy s.e.a 2 x y
  let v ← extendRadius s n d
  return (|n|, v)

/-- ps/extend.py:342-350 `do_extend_2_left` -/
noncomputable def doExtend2Left (s : PSolver) (src : XiSrc) (nd : Node) : Py (ℝ × ℂ) := do
  let x := (s.e.coord nd).1
  let y := (s.e.coord nd).2
  let p ← getRadiusPointPy s.e.a 2 x y
  let n ← signedDistToRadiusPy s.e.a 2 x y
  doExtendTaylor s src nd 0 2 (-√(p.1 ^ 2 + p.2 ^ 2)) n

/-- ps/extend.py:352-366 `do_extend_2_right` -/
noncomputable def doExtend2Right (s : PSolver) (src : XiSrc) (nd : Node) : Py (ℝ × ℂ) := do
  let x := (s.e.coord nd).1
  let y := (s.e.coord nd).2
  let x0 := s.e.R * cos s.e.a
  let y0 := s.e.R * sin s.e.a
  let p ← getRadiusPointPy s.e.a 2 x y
  let n ← signedDistToRadiusPy s.e.a 2 x y
  doExtendTaylor s src nd s.e.R 2 (√((p.1 - x0) ^ 2 + (p.2 - y0) ^ 2)) n

/-- ps/extend.py:388-412, the choice of the extension procedure -/
noncomputable def doExtend (s : PSolver) (src : XiSrc) (sid : Fin 3) (et : EType) (nd : Node) : Py (ℝ × ℂ) :=
  match sid, et with
  | 0, .standard => doExtend0Standard s src nd
  | 0, .left => doExtend0Left s src nd
  | 0, .right => doExtend0Right s src nd
  | 1, .standard => doExtend1Standard s src nd
  | 1, .left => doExtend1Left s src nd
  | 1, .right => doExtend1Right s src nd
  | 2, .standard => doExtend2Standard s src nd
  | 2, .left => doExtend2Left s src nd
  | 2, .right => doExtend2Right s src nd

/-- the body of the loops ps/extend.py:385-415 and ps/inhomo.py:420-451: classify, extend, append -/
noncomputable def mvVisit (s : PSolver) (ext : Fin 3 → EType → Node → Py (ℝ × ℂ)) (sid : Fin 3) (mv : Multivalue)
    (nd : Node) : Py Multivalue := do
  let et ← getEtype s.e s.cache sid nd
  let r ← ext sid et nd
  mvAppend mv nd ⟨r.1, r.2, (sid, et)⟩

/-- the loops themselves, ps/extend.py:377-415 and ps/inhomo.py:414-451: segments 0, 1, 2, and the nodes of each `all_gamma[sid]` in order -/
noncomputable def mvLoop (s : PSolver) (ext : Fin 3 → EType → Node → Py (ℝ × ℂ)) : Py Multivalue :=
  [0, 1, 2].foldlM (init := mvInit s.G.unionGamma) fun mv (sid : Fin 3) =>
    (s.G.allGamma sid).foldlM (init := mv) (mvVisit s ext sid)

/-- ps/extend.py:377-415, the homogeneous part of `mv_extend_boundary` -/
noncomputable def mvExtendHomo (s : PSolver) (src : XiSrc) : Py Multivalue := mvLoop s (doExtend s src)

end Pot
