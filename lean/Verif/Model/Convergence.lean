import Verif.Model.Py
import Mathlib.Analysis.SpecialFunctions.Log.Base

/-!
# Model of the convergence loops of `run.py` and `runz.py`

The solver, the comparison of three solutions and the ODE method are parameters.  What the loops print is a list of
events; a number that is infinite or nan when printed is `none`.  An exception ends the program after the events printed
so far.  The whole of `run.py` with the solver and `io_util.print_options` in place is in `Model/Main.lean`.
-/

namespace Pot

/-- run.py:18-23 and runz.py:21-26, the `while` loop of `get_N_list`; `none`: not finished within the fuel -/
def nListLoop : ℕ → ℤ → ℤ → List ℤ → Option (List ℤ)
  | 0, _, _, _ => none
  | fuel + 1, N, c, acc => if N ≤ c then nListLoop fuel (N * 2) c (acc ++ [N]) else some acc

/-- run.py:14-25 and runz.py:17-28 `get_N_list` -/
def getNList (fuel : ℕ) (N0 : ℤ) (c : Option ℤ) : Option (List ℤ) :=
  match c with
  | none => some [N0]
  | some c => nListLoop fuel N0 c []

/-- what `solver.run()` returns: ps/ps.py:253-257 -/
structure SolveResult (U : Type) where
  error : Option ℝ
  u : U

/-- printed lines -/
inductive Ev where
  | grid (N : ℤ)
  | error (x : ℝ)
  | conv (x : Option ℝ)
  | rel (x : Option ℝ)

open Classical in
/-- `np.log2(p / e)` of two NumPy floats -/
noncomputable def logQuot (p e : ℝ) : Option ℝ := if p = 0 ∨ e = 0 then none else some (Real.logb 2 (p / e))

/-- a number on its way to `print`: NumPy's division by zero is no exception, the line then shows `inf` or `nan` -/
def nanOpt : Py ℝ → Py (Option ℝ)
  | .ok x => .ok (some x)
  | .error .nanValue => .ok none
  | .error e => .error e

/-- the variables of the loop in run.py:67-71 -/
structure RunState (U : Type) where
  u0 : Option U := none
  u1 : Option U := none
  u2 : Option U := none
  prev : Option ℝ := none

/-- run.py:90-93, the line `Convergence`; dividing by `None` is a TypeError -/
noncomputable def convLine (prev err : Option ℝ) : Py (List Ev) :=
  match prev with
  | none => pure []
  | some p =>
    match err with
    | none => throw .typeError
    | some e => pure [.conv (logQuot p e)]

/-- run.py:95-97, the line `Rel convergence` (`u0` and `u1` are set when `u2` is) -/
def relLine {U : Type} (rel : U → U → U → Py ℝ) (doRel : Bool) (u0 u1 u2 : Option U) : Py (List Ev) :=
  match doRel, u0, u1, u2 with
  | true, some x0, some x1, some x2 => do
    let ρ ← nanOpt (rel x0 x1 x2)
    return [.rel ρ]
  | _, _, _, _ => pure []

/-- run.py:83-84, the line `Error` -/
def errLine (err : Option ℝ) : List Ev :=
  match err with
  | some e => [.error e]
  | none => []

/-- the solver as seen by the loop: `build N` is `PizzaSolver(options)`, `solve` is `run`, `rel` is
`calc_rel_convergence`; `S` is the type of solver objects -/
structure Prog (S U : Type) where
  build : ℤ → Py S
  solve : S → Py (Option (SolveResult U))
  rel : S → U → U → U → Py ℝ

/-- run.py:74-102, one pass of the loop: the events, and the new state or the exception -/
noncomputable def runStep {S U : Type} (P : Prog S U) (doRel : Bool) (s : RunState U) (N : ℤ) : List Ev × Py (RunState U) :=
  match P.build N with
  | .error e => ([], .error e)
  | .ok solver =>
    match P.solve solver with
    | .error e => ([.grid N], .error e)
    | .ok none => ([.grid N], .ok s)
    | .ok (some r) =>
      let u2 := s.u1
      let u1 := s.u0
      let u0 := some r.u
      match convLine s.prev r.error with
      | .error e => (.grid N :: errLine r.error, .error e)
      | .ok c =>
        match relLine (P.rel solver) doRel u0 u1 u2 with
        | .error e => (.grid N :: errLine r.error ++ c, .error e)
        | .ok l => (.grid N :: errLine r.error ++ c ++ l, .ok { u2 := u2, u1 := u1, u0 := u0, prev := r.error })

/-- run.py:73-102, the loop -/
noncomputable def runLoop {S U : Type} (P : Prog S U) (doRel : Bool) : RunState U → List ℤ → List Ev × Py (RunState U)
  | s, [] => ([], .ok s)
  | s, N :: Ns =>
    match runStep P doRel s N with
    | (ev, .error e) => (ev, .error e)
    | (ev, .ok s') => (ev ++ (runLoop P doRel s' Ns).1, (runLoop P doRel s' Ns).2)

/-! ## runz.py -/

/-- the entries of the dictionary returned by ps/zmethod.py:50-60 `run` that the loop uses -/
structure ZResult (U V : Type) where
  v : V
  vError : Option ℝ
  u : U
  uError : Option ℝ

inductive ZEv where
  | grid (N : ℤ)
  | vError (x : ℝ)
  | vRel (x : Option ℝ)
  | vConv (x : Option ℝ)
  | uError (x : ℝ)
  | uRel (x : Option ℝ)
  | uConv (x : Option ℝ)

/-- runz.py:74-86, the variables of the loop, and the number of calls of the ODE method so far -/
structure ZState (U V Z : Type) where
  u0 : Option U := none
  u1 : Option U := none
  u2 : Option U := none
  v0 : Option V := none
  v1 : Option V := none
  v2 : Option V := none
  z1 : Option Z := none
  prevU : Option ℝ := none
  prevV : Option ℝ := none
  odeCalls : ℕ := 0

/-- ps/zmethod.py:157-174 `calc_z1_fourier`: the new value of `self.z1_fourier` and the number of ODE calls, the
`i`-th of which returns `ode i`; `expected` is computed first in every case -/
def calcZ1Fourier {Z : Type} (expected : Py Z) (ode : ℕ → Py Z) (z1cheat : Bool) (z1 : Option Z) (calls : ℕ) : Py (Z × ℕ) := do
  let exp ← expected
  match z1cheat, z1 with
  | true, _ => return (exp, calls)
  | false, some z => return (z, calls)
  | false, none => do
    let z ← ode calls
    return (z, calls + 1)

/-- lines of the form `if prev is not None: print(np.log2(prev / err))` (runz.py:113-115, 130-132) -/
noncomputable def zConvLine (mk : Option ℝ → ZEv) (prev err : Option ℝ) : Py (List ZEv) :=
  match prev with
  | none => pure []
  | some p =>
    match err with
    | none => throw .typeError
    | some e => pure [mk (logQuot p e)]

/-- lines of the form `if x2 is not None: print(calc_rel_convergence(x0, x1, x2))` (runz.py:109-111, 126-128) -/
def zRelLine {U : Type} (mk : Option ℝ → ZEv) (rel : U → U → U → Py ℝ) (u0 u1 u2 : Option U) : Py (List ZEv) :=
  match u0, u1, u2 with
  | some x0, some x1, some x2 => do
    let ρ ← nanOpt (rel x0 x1 x2)
    return [mk ρ]
  | _, _, _ => pure []

/-- lines of the form `if err is not None: print(err)` -/
def zErrLine (mk : ℝ → ZEv) (err : Option ℝ) : List ZEv :=
  match err with
  | some e => [mk e]
  | none => []

/-- runz.py:88-139, one pass of the loop: the events, and the new state or the exception.  `solve N z` is the part of
`ZMethod.run` after `calc_z1_fourier`, which works with the coefficients `z`; what `run` itself prints is left out. -/
noncomputable def zStep {U V Z : Type} (expected : Py Z) (ode : ℕ → Py Z) (z1cheat : Bool) (solve : ℤ → Z → Py (ZResult U V))
    (relV : ℤ → V → V → V → Py ℝ) (relU : ℤ → U → U → U → Py ℝ) (s : ZState U V Z) (N : ℤ) :
    List ZEv × Py (ZState U V Z) :=
  match calcZ1Fourier expected ode z1cheat s.z1 s.odeCalls with
  | .error e => ([.grid N], .error e)
  | .ok (z, calls) =>
    match solve N z with
    | .error e => ([.grid N], .error e)
    | .ok r =>
      let v2 := s.v1
      let v1 := s.v0
      let v0 := some r.v
      let l1 := .grid N :: zErrLine .vError r.vError
      match zRelLine .vRel (relV N) v0 v1 v2 with
      | .error e => (l1, .error e)
      | .ok l2 =>
        match zConvLine .vConv s.prevV r.vError with
        | .error e => (l1 ++ l2, .error e)
        | .ok l3 =>
          let u2 := s.u1
          let u1 := s.u0
          let u0 := some r.u
          let l4 := zErrLine .uError r.uError
          match zRelLine .uRel (relU N) u0 u1 u2 with
          | .error e => (l1 ++ l2 ++ l3 ++ l4, .error e)
          | .ok l5 =>
            match zConvLine .uConv s.prevU r.uError with
            | .error e => (l1 ++ l2 ++ l3 ++ l4 ++ l5, .error e)
            | .ok l6 => (l1 ++ l2 ++ l3 ++ l4 ++ l5 ++ l6,
                .ok { u0 := u0, u1 := u1, u2 := u2, v0 := v0, v1 := v1, v2 := v2, z1 := some z, prevU := r.uError,
                      prevV := r.vError, odeCalls := calls })

/-- runz.py:88-139, the loop -/
noncomputable def zLoop {U V Z : Type} (expected : Py Z) (ode : ℕ → Py Z) (z1cheat : Bool) (solve : ℤ → Z → Py (ZResult U V))
    (relV : ℤ → V → V → V → Py ℝ) (relU : ℤ → U → U → U → Py ℝ) :
    ZState U V Z → List ℤ → List ZEv × Py (ZState U V Z)
  | s, [] => ([], .ok s)
  | s, N :: Ns =>
    match zStep expected ode z1cheat solve relV relU s N with
    | (ev, .error e) => (ev, .error e)
    | (ev, .ok s') => (ev ++ (zLoop expected ode z1cheat solve relV relU s' Ns).1,
        (zLoop expected ode z1cheat solve relV relU s' Ns).2)

end Pot
