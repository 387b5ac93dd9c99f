import Verif.Model.ABCoef
import Verif.Model.DomainUtil
import Verif.Model.Ode
import Verif.Model.PolarFD
import Verif.Model.ZAlgebra

/-!
# Model of the numerical part of `ps/zmethod.py`

`scipy.interpolate.interp2d`, `jv`, `lstsq` and `spsolve` are parameters.  The problem's functions are real; two-dimensional
NumPy arrays are lists of rows.  Prints are not modelled.  `my_lambdify` (`Model/ZAlgebra.lean`) has already been applied to
the functions `evalGq`, `evalVAsympt`, `evalVSeries` below.
-/

namespace Pot
open Real

/-- ps/zmethod.py:25 `M` -/
def zM : ℕ := 7

/-- ps/zmethod.py:26 `R0` -/
noncomputable def zR0 : ℝ := 1 / 10

/-- reading entry `[m, l]` of a two-dimensional array at nonnegative indices -/
def rowsGet (v : List (List ℂ)) (m l : ℕ) : Py ℂ := do
  let row ← listGet v m
  listGet row l

/-- ps/zmethod.py:177-191 `get_expected_z1_fourier` (`arc_dst` with `n = 2048` nodes) -/
noncomputable def zExpectedZ1 (n : ℕ) (evalV evalGq : ℝ → ℝ → ℝ) (a arcR : ℝ) (M : ℕ) : List ℝ :=
  (arcDstR a (fun th => evalV arcR th - evalGq arcR th) n).take M

/-- ps/zmethod.py:209-214 `eval_phi0` of `do_z_BVP` -/
noncomputable def zPhi0 (z1 : List ℝ) (evalGq : ℝ → ℝ → ℝ) (a nu arcR : ℝ) (M : ℕ) (th : ℝ) : Py ℝ := do
  let fourierSeries ← (List.range' 1 M).foldlM (init := (0 : ℝ)) fun acc (m : ℕ) => do
    let c ← listGet z1 (m - 1)
    return acc + c * sin (m * nu * (th - a))
  return fourierSeries + evalGq arcR th

/-- ps/zmethod.py:219-229, the functions handed to `polarfd.solve` -/
noncomputable def zData (z1 : List ℝ) (evalGq evalVSeries : ℝ → ℝ → ℝ) (phi1 phi2 : ℝ → ℝ) (k a nu R0 arcR : ℝ) (M : ℕ) : PfData where
  k := k
  phiInit := fun th => (evalVSeries R0 th : ℂ)
  phi0 := fun th => match zPhi0 z1 evalGq a nu arcR M th with
    | .ok x => (x : ℂ)
    | .error _ => 0
  phi1 := fun r => (phi1 r : ℂ)
  phi2 := fun r => (phi2 r : ℂ)
  f := fun _ _ => 0
  dFr := fun _ _ => 0
  d2Fr := fun _ _ => 0
  d2Fth := fun _ _ => 0

/-- ps/zmethod.py:216-231, the polar grid and the vector `z`.  `eval_phi0` can only raise an IndexError, for the same `m` at
every angle; it is called when the grid has a node inside the arc, before the difference equations are set up. -/
noncomputable def zSolve (spsolve : Spsolve) (acheat : Bool) (z1 : List ℝ) (evalGq evalVSeries : ℝ → ℝ → ℝ) (phi1 phi2 : ℝ → ℝ)
    (k a nu R0 arcR : ℝ) (M N : ℕ) : Py (PolarFD × List ℂ) := do
  let p ← pfInit N a nu R0 arcR
  if acheat then return (p, List.replicate ((N + 1) ^ 2) 0)
  else if 2 ≤ N ∧ z1.length < M then throw .indexError
  else do
    let z ← pfSolve spsolve p (zData z1 evalGq evalVSeries phi1 phi2 k a nu R0 arcR M)
    return (p, z)

/-- ps/zmethod.py:193-241 `do_z_BVP`: `self.polarfd` and `self.v` -/
noncomputable def doZBvp (spsolve : Spsolve) (acheat : Bool) (z1 : List ℝ) (evalGq evalVSeries : ℝ → ℝ → ℝ) (phi1 phi2 : ℝ → ℝ)
    (k a nu R0 arcR : ℝ) (M N : ℕ) : Py (PolarFD × List (List ℂ)) := do
  let (p, z) ← zSolve spsolve acheat z1 evalGq evalVSeries phi1 phi2 k a nu R0 arcR M N
  let v ← (List.range (N + 1)).mapM fun m : ℕ => (List.range (N + 1)).mapM fun l : ℕ => pfArray p z m l
  return (p, v)

/-- ps/zmethod.py:307-311 `rmin` -/
noncomputable def zRmin (N : ℕ) (boundaryR bet : ℝ) : ℝ := if N ≥ 128 then (boundaryR - bet) * (2 / 3) else 0

/-- the four lists of ps/zmethod.py:302-305 -/
structure InterpData where
  rData : List ℝ
  thData : List ℝ
  vReal : List ℝ
  vImag : List ℝ

/-- ps/zmethod.py:302-333, the lists handed to `interp2d` -/
noncomputable def zInterpData (p : PolarFD) (v : List (List ℂ)) (rmin : ℝ) (N : ℕ) : Py InterpData := do
  let rData := (List.range (N + 1)).foldl (init := []) fun acc (m : ℕ) =>
    let r := p.getR m
    if r < rmin then acc else acc ++ [r]
  let thData := (List.range (N + 1)).foldl (init := []) fun acc (l : ℕ) => acc ++ [p.getTh l]
  let (re, im) ← (List.range (N + 1)).foldlM (init := (([], []) : List ℝ × List ℝ)) fun acc (m : ℕ) =>
    let r := p.getR m
    if r < rmin then pure acc
    else (List.range (N + 1)).foldlM (init := acc) fun acc (l : ℕ) => do
      let x ← rowsGet v m l
      return (acc.1 ++ [x.re], acc.2 ++ [x.im])
  return { rData := rData, thData := thData, vReal := re, vImag := im }

/-- `interp2d(x, y, z, kind='quintic')` -/
abbrev Interp2d := List ℝ → List ℝ → List ℝ → Py (ℝ → ℝ → ℝ)

/-- ps/zmethod.py:296-342 `create_v_interp`: `self.v_interp` -/
noncomputable def createVInterp (interp2d : Interp2d) (p : PolarFD) (v : List (List ℂ)) (boundaryR bet : ℝ) (N : ℕ) :
    Py (ℝ → ℝ → ℂ) := do
  let d ← zInterpData p v (zRmin N boundaryR bet) N
  let realInterp ← interp2d d.rData d.thData d.vReal
  let imagInterp ← interp2d d.rData d.thData d.vImag
  return fun r th => ⟨realInterp r th, imagInterp r th⟩

/-- ps/zmethod.py:275-294 `get_expected_a_coef` (`arc_dst` with `n = 2048` nodes) -/
noncomputable def zExpectedACoef (jv : ℝ → ℝ → ℝ) (n : ℕ) (isIzBessel : Bool) (phi0 : ℝ → ℝ) (evalV : ℝ → ℝ → ℝ)
    (k R a nu : ℝ) (M : ℕ) : Py (List ℂ) :=
  if isIzBessel then pure (List.replicate M 0)
  else
    let bCoef : List ℂ := (List.ofFn (arcDst a (fun th => ((phi0 th - evalV R th : ℝ) : ℂ)) n)).take M
    bToA jv bCoef k R nu

/-- ps/zmethod.py:243-273 `calc_a_coef`: `self.a_coef`; without `acheat` the expected coefficients are only printed (nan in
them has no effect) -/
noncomputable def zCalcACoef (jv : ℝ → ℝ → ℝ) (lstsq : Lstsq) (n nDst : ℕ) (acheat isIzBessel : Bool) (phi0 : ℝ → ℝ)
    (evalV : ℝ → ℝ → ℝ) (vInterp : ℝ → ℝ → ℂ) (evalR : ℝ → ℝ) (k R a nu : ℝ) (M m1 : ℕ) : Py (List ℂ) :=
  if acheat then zExpectedACoef jv nDst isIzBessel phi0 evalV k R a nu M
  else abCalcACoef jv lstsq n evalR (fun th => (phi0 th : ℂ) - vInterp (evalR th) th) k R a nu M m1

/-- ps/zmethod.py:372-389 `u_BVP.eval_bc`; unpacking the `None` of a segment number other than 0, 1, 2 is a TypeError -/
noncomputable def uEvalBc (jv : ℝ → ℝ → ℝ) (evalR : ℝ → ℝ) (phi0 phi1 phi2 : ℝ → ℝ) (evalVAsympt : ℝ → ℝ → ℝ) (aCoef : List ℂ)
    (k a nu : ℝ) (M : ℕ) (arg : ℝ) (sid : ℕ) : Py ℂ :=
  match argToPolar evalR a arg sid with
  | none => throw .typeError
  | some (r, th) =>
    if sid = 0 then
      (List.range' 1 M).foldlM (init := ((phi0 th - evalVAsympt r th : ℝ) : ℂ)) fun bc (m : ℕ) => do
        let c ← listGet aCoef (m - 1)
        return bc - c * ((jv (m * nu) (k * r) : ℝ) : ℂ) * ((sin (m * nu * (th - a)) : ℝ) : ℂ)
    else if sid = 1 ∧ r ≥ 0 then pure ((phi1 r - evalVAsympt r (2 * π) : ℝ) : ℂ)
    else if sid = 2 ∧ r ≥ 0 then pure ((phi2 r - evalVAsympt r a : ℝ) : ℂ)
    else pure 0

/-- ps/zmethod.py:391-392 `u_BVP.eval_expected_polar` -/
def uEvalExpectedPolar (evalExpectedPolar evalVAsympt : ℝ → ℝ → ℝ) (r th : ℝ) : ℝ := evalExpectedPolar r th - evalVAsympt r th

/-- ps/zmethod.py:408-424 `get_v_error`; `np.max` of an empty array and `max` of an empty list are ValueErrors.  A row shorter
than `N` cannot be subtracted from an array of `N - 1` entries (ValueError). -/
noncomputable def getVError (p : PolarFD) (evalV : ℝ → ℝ → ℝ) (v : List (List ℂ)) (M N : ℕ) : Py ℝ := do
  let errors ← (List.range' 1 (N - 1)).mapM fun m : ℕ => do
    let r := p.getR m
    let row ← listGet v m
    let part := (row.drop 1).take (N - 1)
    if part.length ≠ N - 1 then throw .valueError
    else do
      let toDst : Fin (N - 1) → ℂ := fun i => (evalV r (p.getTh ((i : ℕ) + 1 : ℕ)) : ℂ) - part.getD i 0
      let fourier := ((List.ofFn (dst1 toDst)).take M).map fun x => x / (N : ℂ)
      pyMax (fourier.map fun x => ‖x‖)
  pyMax errors

end Pot
