import Verif.Model.Extend

/-!
# Model of `ps/inhomo.py` and the assembly functions of `ps/extend.py`

`np.array` pairs are pairs; `v.dot(w)` is the bilinear product.  Dividing a vector by a zero norm gives nan
(`PyErr.nanValue`).
-/

namespace Pot
open Real

/-- `grad.dot(vec)` -/
def dot2 (g : ℂ × ℂ) (v : ℝ × ℝ) : ℂ := g.1 * v.1 + g.2 * v.2

/-- `hessian.dot(vec)` -/
def hdot (h : (ℂ × ℂ) × (ℂ × ℂ)) (v : ℝ × ℝ) : ℂ × ℂ := (dot2 h.1 v, dot2 h.2 v)

/-- `np.linalg.norm` of a pair -/
noncomputable def norm2 (v : ℝ × ℝ) : ℝ := √(v.1 ^ 2 + v.2 ^ 2)

open Classical in
/-- `vec /= np.linalg.norm(vec)` -/
noncomputable def normalize (v : ℝ × ℝ) : Py (ℝ × ℝ) :=
  if norm2 v = 0 then throw .nanValue else pure (v.1 / norm2 v, v.2 / norm2 v)

open Classical in
/-- `if np.linalg.norm(vec) != 0: vec /= np.linalg.norm(vec)` -/
noncomputable def normalizeIf (v : ℝ × ℝ) : ℝ × ℝ :=
  if norm2 v ≠ 0 then (v.1 / norm2 v, v.2 / norm2 v) else v

/-- `np.sign` -/
noncomputable def npSign (x : ℝ) : ℝ := if x < 0 then -1 else if x > 0 then 1 else 0

/-- ps/inhomo.py:10-25 `_extend_f_get_sid` -/
noncomputable def extendFSid (s : PSolver) (nd : Node) : Py (Fin 3) := do
  let p := s.e.polar nd
  let std0 ← if nd ∈ s.G.allGamma 0 then do
      let et ← getEtype s.e s.cache 0 nd
      pure (decide (et = .standard))
    else pure false
  if std0 then return 0
  else if p.1 < s.e.evalR p.2 then
    if p.2 ≥ 2 * π then return 1 else return 2
  else return 0

/-- ps/inhomo.py:77-91, the second-order Taylor value of `f` at `(x, y)` from `(x0, y0)` -/
noncomputable def extendFValue (src : Source) (x y x0 y0 : ℝ) : Py ℂ := do
  let vec := (x - x0, y - y0)
  let delta := norm2 vec
  let vec ← normalize vec
  let grad ← src.grad x0 y0
  let d1 := dot2 grad vec
  let hess ← src.hess x0 y0
  let d2 := dot2 (hdot hess vec) vec
  return src.f x0 y0 + d1 / (Nat.factorial 1 : ℂ) * (delta : ℂ) ^ 1 + d2 / (Nat.factorial 2 : ℂ) * (delta : ℂ) ^ 2

/-- ps/inhomo.py:51-74, the point the Taylor series starts from; `none` when the loop aborts because the node
is not in the boundary coordinate cache -/
noncomputable def extendFPoint (s : PSolver) (nd : Node) : Py (Option (ℝ × ℝ)) := do
  let x := (s.e.coord nd).1
  let y := (s.e.coord nd).2
  let sid ← extendFSid s nd
  let et ← getEtype s.e s.cache sid nd
  if sid = 1 then return some (x, 0)
  else if sid = 2 then
    let p ← getRadiusPointPy s.e.a 2 x y
    return some p
  else
    match s.cache nd with
    | none => return none
    | some none => throw .typeError
    | some (some c) =>
      let r0 := s.e.evalR c.2
      match et with
      | .standard => return some (r0 * cos c.2, r0 * sin c.2)
      | .left => return some (s.e.R * cos s.e.a, s.e.R * sin s.e.a)
      | .right => return some (s.e.R, 0)

/-- ps/inhomo.py:43-93, the loop of `extend_f`: stops (keeping what was written so far) at the first node that
is missing from the cache.  Indices of `f` are nodes themselves (`self.f[i,j]`). -/
noncomputable def extendFLoop {m : ℕ} (s : PSolver) : List Node → Arr m → Py (Arr m)
  | [], f => pure f
  | nd :: rest, f => do
    let p ← extendFPoint s nd
    match p with
    | none => return f
    | some p =>
      let v ← extendFValue s.src (s.e.coord nd).1 (s.e.coord nd).2 p.1 p.2
      let f ← arrSet f nd.1 nd.2 v
      extendFLoop s rest f

/-- ps/inhomo.py:27-93 `extend_f` (`cheat` is `False`, line 39); the loop over `Kplus - global_Mplus` is
iteration 7 -/
noncomputable def extendF {m : ℕ} (iter : Iter) (s : PSolver) (f : Arr m) : Py (Arr m) :=
  if s.src.homogeneous then pure f
  else extendFLoop s (iter 7 (s.G.Kplus \ s.G.Mplus)) f

/-- solver.py:74-90 `setup_f`, loop 6 over `global_Mplus`; `PizzaSolver` always has `extend_f` -/
noncomputable def setupF {m : ℕ} (iter : Iter) (s : PSolver) : Py (Arr m) := do
  let f ← (iter 6 s.G.Mplus).foldlM (init := fun _ _ => 0) fun f nd =>
    arrSet f nd.1 nd.2 (s.src.f (s.e.coord nd).1 (s.e.coord nd).2)
  extendF iter s f

/-- ps/inhomo.py:137-139 and 256-258, `Σ f_derivs[l] * delta**l / l!` -/
noncomputable def fTaylor (ds : List ℂ) (delta : ℝ) : ℂ :=
  ds.zipIdx.foldl (init := 0) fun f p => f + p.1 * (delta : ℂ) ^ p.2 / (p.2.factorial : ℂ)

/-- ps/inhomo.py:95-168 `_extend_inhomo_12_r` (`radius_sid` is 1 or 2) -/
noncomputable def extendInhomo12r (s : PSolver) (nd : Node) (radiusSid : Fin 3) : Py (ℝ × ℂ) := do
  let R := s.e.R
  let a := s.e.a
  let x2 := (s.e.coord nd).1
  let y2 := (s.e.coord nd).2
  let q ← if radiusSid = 1 then pure (((R, 0), (x2, 0), y2) : (ℝ × ℝ) × (ℝ × ℝ) × ℝ)
    else do
      let n ← signedDistToRadiusPy a 2 x2 y2
      let p ← getRadiusPointPy a 2 x2 y2
      pure ((R * cos a, R * sin a), p, n)
  let x0 := q.1.1
  let y0 := q.1.2
  let x1 := q.2.1.1
  let y1 := q.2.1.2
  let n := q.2.2
  let delta := norm2 (x1 - x0, y1 - y0)
  let tangent ← normalize (x1 - x0, y1 - y0)
  let f0 := s.src.f x0 y0
  let grad0 ← s.src.grad x0 y0
  let hess ← s.src.hess x0 y0
  let f := fTaylor [f0, dot2 grad0 tangent, dot2 (hdot hess tangent) tangent] delta
  let ht := hdot hess tangent
  let grad : ℂ × ℂ := (grad0.1 + ht.1 * delta, grad0.2 + ht.2 * delta)
  let normal := normalizeIf (x2 - x1, y2 - y1)
  let dFn := dot2 grad normal
  let dFn := if n < 0 then dFn * (-1) else dFn
  let d2Fn := dot2 (hdot hess normal) normal
  let d2Fs := dot2 (hdot hess tangent) tangent
  let v := inhomoExtendArbitrary s.k { n := n, f := f, dFn := dFn, d2Fn := d2Fn, d2Fs := d2Fs, curv := 0 }
  return (delta + |n|, v)

/-- ps/inhomo.py:170-206 `do_extend_inhomo_0_standard` -/
noncomputable def doInhomo0Standard (s : PSolver) (nd : Node) : Py (ℝ × ℂ) := do
  let c ← cacheGet s nd
  let n := c.1
  let th := c.2
  let r := s.e.evalR
  let r0 := r th
  let x0 := r0 * cos th
  let y0 := r0 * sin th
  let x1 := (s.e.coord nd).1
  let y1 := (s.e.coord nd).2
  let vec ← normalize (x1 - x0, y1 - y0)
  let grad ← s.src.gradPolar r0 th
  let dFn := dot2 grad vec * npSign n
  let hess ← s.src.hessPolar r0 th
  let d2Fn := dot2 (hdot hess vec) vec
  let v := inhomoExtendPolar s.k
    { dFth := s.src.dFth r0 th, d2Fth := s.src.d2Fth r0 th, dFr := s.src.dFr r0 th, d2Fr := s.src.d2Fr r0 th,
      d2Frth := s.src.d2Frth r0 th, dThs := dThs r th, d2Ths := d2Ths r th, dRth := dRth r th,
      d2Rth := d2Rth r th } n (s.src.fPolar r0 th) dFn d2Fn (curvTh r th)
  return (|n|, v)

/-- ps/inhomo.py:208-318 `_extend_inhomo_0_lr` (`radius_sid` is 1 or 2) -/
noncomputable def extendInhomo0lr (s : PSolver) (nd : Node) (radiusSid : Fin 3) : Py (ℝ × ℂ) := do
  let R := s.e.R
  let a := s.e.a
  let r := s.e.evalR
  let c ← cacheGet s nd
  let n := c.1
  let th1 := c.2
  let r1 := r th1
  let th0 := if radiusSid = 1 then 2 * π else a
  let x0 := R * cos th0
  let y0 := R * sin th0
  let x1 := r1 * cos th1
  let y1 := r1 * sin th1
  let delta := norm2 (x1 - x0, y1 - y0)
  let vec ← normalize (x1 - x0, y1 - y0)
  let f0 := s.src.fPolar R th0
  let grad0 ← s.src.gradPolar R th0
  let hess ← s.src.hessPolar R th0
  let f := fTaylor [f0, dot2 grad0 vec, dot2 (hdot hess vec) vec] delta
  let hv := hdot hess vec
  let grad : ℂ × ℂ := (grad0.1 + delta * hv.1, grad0.2 + delta * hv.2)
  let x2 := (s.e.coord nd).1
  let y2 := (s.e.coord nd).2
  let p2 := s.e.polar nd
  let normal ← normalize (x2 - x1, y2 - y1)
  let dFn := dot2 grad normal
  let dFn := if p2.1 < r p2.2 then dFn * (-1) else dFn
  let d2Fn := dot2 (hdot hess normal) normal
  let polarVec := (r1 - R, th1 - th0)
  let dFth := s.src.dFth R th0 + dot2 (s.src.d2Frth R th0, s.src.d2Fth R th0) polarVec
  let dFr := s.src.dFr R th0 + dot2 (s.src.d2Fr R th0, s.src.d2Frth R th0) polarVec
  let v := inhomoExtendPolar s.k
    { dFth := dFth, d2Fth := s.src.d2Fth R th0, dFr := dFr, d2Fr := s.src.d2Fr R th0,
      d2Frth := s.src.d2Frth R th0, dThs := dThs r th1, d2Ths := d2Ths r th1, dRth := dRth r th1,
      d2Rth := d2Rth r th1 } n f dFn d2Fn (curvTh r th1)
  return (|delta| + |n|, v)

open Classical in
/-- ps/inhomo.py:326-375 `_calc_inhomo_radius` -/
noncomputable def calcInhomoRadius (s : PSolver) (x0 y0 x1 y1 : ℝ) (tan : ℝ × ℝ) (n : ℝ) : Py (ℝ × ℂ) := do
  let f := s.src.f x0 y0
  let gh ← if x0 = 0 ∧ y0 = 0 then do
      let h := s.e.AD / (10 * s.e.N)
      let hess ← s.src.hess (-h) 0
      let grad ← s.src.grad (-h) 0
      let hx := hdot hess (1, 0)
      pure (((grad.1 + h * hx.1, grad.2 + h * hx.2), hess) : (ℂ × ℂ) × ((ℂ × ℂ) × (ℂ × ℂ)))
    else do
      let grad ← s.src.grad x0 y0
      let hess ← s.src.hess x0 y0
      pure (grad, hess)
  let vec := normalizeIf (x1 - x0, y1 - y0)
  let dFn := dot2 gh.1 vec * npSign n
  let d2Fn := dot2 (hdot gh.2 vec) vec
  let d2Fs := dot2 (hdot gh.2 tan) tan
  let r := (cartToPolar x0 y0).1
  let elen := if x0 < 0 ∨ r > s.e.R then |n| + r else |n|
  let v := inhomoExtendArbitrary s.k { n := n, f := f, dFn := dFn, d2Fn := d2Fn, d2Fs := d2Fs, curv := 0 }
  return (elen, v)

/-- ps/inhomo.py:377-391 `_extend_inhomo_radius` (`radius_sid` is 1 or 2) -/
noncomputable def extendInhomoRadius (s : PSolver) (nd : Node) (radiusSid : Fin 3) : Py (ℝ × ℂ) := do
  let x1 := (s.e.coord nd).1
  let y1 := (s.e.coord nd).2
  if radiusSid = 1 then calcInhomoRadius s x1 0 x1 y1 (-1, 0) y1
  else
    let p ← getRadiusPointPy s.e.a 2 x1 y1
    let n ← signedDistToRadiusPy s.e.a 2 x1 y1
    calcInhomoRadius s p.1 p.2 x1 y1 (cos s.e.a, sin s.e.a) n

/-- ps/inhomo.py:320-324, 393-409 and 423-448: the choice of the procedure -/
noncomputable def doInhomo (s : PSolver) (sid : Fin 3) (et : EType) (nd : Node) : Py (ℝ × ℂ) :=
  if s.src.homogeneous then pure (0, 0)
  else
    match sid, et with
    | 0, .standard => doInhomo0Standard s nd
    | 0, .left => extendInhomo0lr s nd 2
    | 0, .right => extendInhomo0lr s nd 1
    | 1, .standard => extendInhomoRadius s nd 1
    | 1, .left => extendInhomoRadius s nd 1
    | 1, .right => extendInhomo12r s nd 1
    | 2, .standard => extendInhomoRadius s nd 2
    | 2, .left => extendInhomoRadius s nd 2
    | 2, .right => extendInhomo12r s nd 2

/-- ps/inhomo.py:411-453 `mv_extend_inhomo_f` -/
noncomputable def mvExtendInhomo (s : PSolver) : Py Multivalue := mvLoop s (doInhomo s)

/-- ps/inhomo.py:455-456 `extend_inhomo_f` -/
noncomputable def extendInhomoF (s : PSolver) : Py (List ℂ) := do
  let m ← mvExtendInhomo s
  mvReduce m

/-- ps/extend.py:368-426 `mv_extend_boundary` -/
noncomputable def mvExtendBoundary (s : PSolver) (src : XiSrc) (homogeneousOnly : Bool) : Py Multivalue := do
  let m ← mvExtendHomo s src
  let isBasis := match src with
    | .basis _ _ => true
    | .full _ _ => false
  if isBasis || s.src.homogeneous || homogeneousOnly then return m
  else
    let f ← mvExtendInhomo s
    mvAdd m f

/-- ps/extend.py:428-434 `extend_boundary` -/
noncomputable def extendBoundary (s : PSolver) (src : XiSrc) (homogeneousOnly : Bool := false) : Py (List ℂ) := do
  let m ← mvExtendBoundary s src homogeneousOnly
  mvReduce m

/-- ps/basis.py:131-135 `extend_basis` -/
noncomputable def extendBasis (s : PSolver) (JJ : ℕ) (index : Fin 2) : Py (List ℂ) :=
  extendBoundary s (.basis JJ index)

end Pot
