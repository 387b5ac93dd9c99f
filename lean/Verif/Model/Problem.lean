import Verif.Model.Boundary
import Verif.Model.DomainUtil
import Mathlib.Analysis.SpecialFunctions.Exp

/-!
# Model of `problems/problem.py` and `problems/functions.py`
-/

namespace Pot
open Real Classical

/-! ## `problems/problem.py` -/

/-- problems/problem.py:12 `R` -/
noncomputable def probR : ℝ := 23 / 10

/-- problems/problem.py:13 `AD_len` -/
noncomputable def probAD : ℝ := 2 * π

/-- problems/problem.py:47 `_a` -/
noncomputable def probA : ℝ := π / 4

/-- problems/problem.py:48 `_nu` -/
noncomputable def probNu : ℝ := π / (2 * π - probA)

mutual
/-- problems/problem.py:18-24 `eval_expected`, overridden by `cart` if the class defines it.  `none` when the fuel, the depth of
the call stack, does not suffice: a RecursionError. -/
noncomputable def evalExpected {α : Type} (cart polar : Option (ℝ → ℝ → α)) (a : ℝ) : ℕ → ℝ → ℝ → Option α
  | 0, _, _ => none
  | fuel + 1, x, y => match cart with
    | some u => some (u x y)
    | none =>
      let p := cartToPolar x y
      let th := if p.2 < a / 2 then p.2 + 2 * π else p.2
      evalExpectedPolar cart polar a fuel p.1 th

/-- problems/problem.py:26-30 `eval_expected_polar`, overridden by `polar` if the class defines it -/
noncomputable def evalExpectedPolar {α : Type} (cart polar : Option (ℝ → ℝ → α)) (a : ℝ) : ℕ → ℝ → ℝ → Option α
  | 0, _, _ => none
  | fuel + 1, r, th => match polar with
    | some u => some (u r th)
    | none => evalExpected cart polar a fuel (r * cos th) (r * sin th)
end

mutual
/-- problems/problem.py:32-36 `eval_f`, overridden by `cart` if the class defines it -/
noncomputable def evalF (homogeneous : Bool) (cart polar : Option (ℝ → ℝ → ℂ)) : ℕ → ℝ → ℝ → Option ℂ
  | 0, _, _ => none
  | fuel + 1, x, y => match cart with
    | some f => some (f x y)
    | none => if homogeneous then some 0
      else evalFPolar homogeneous cart polar fuel (cartToPolar x y).1 (cartToPolar x y).2

/-- problems/problem.py:38-44 `eval_f_polar`, overridden by `polar` if the class defines it -/
noncomputable def evalFPolar (homogeneous : Bool) (cart polar : Option (ℝ → ℝ → ℂ)) : ℕ → ℝ → ℝ → Option ℂ
  | 0, _, _ => none
  | fuel + 1, r, th => match polar with
    | some f => some (f r th)
    | none => if homogeneous then some 0
      else evalF homogeneous cart polar fuel (r * cos th) (r * sin th)
end

/-- problems/problem.py:64-70, the loop of `get_n_basis`; `none` when the fuel does not suffice.  `dict` is the table; an integer
is never equal to the key `None` of the default table. -/
def nBasisLoop {β : Type} (dict : ℤ → Option β) : ℕ → ℤ → Option β
  | 0, _ => none
  | fuel + 1, N => match dict N with
    | some v => some v
    | none => nBasisLoop dict fuel (N / 2)

/-- problems/problem.py:58-70 `get_n_basis` with the attribute `n_basis_dict` or else the table of `get_n_basis_dict` -/
def getNBasis {β : Type} (attr : Option (ℤ → Option β)) (default : ℤ → Option β) (fuel : ℕ) (N : ℤ) : Option β :=
  match attr with
  | some d => nBasisLoop d fuel N
  | none => nBasisLoop default fuel N

/-- a Python dict display with integer keys as a lookup; a later entry with the same key wins -/
def dictOf {β : Type} (l : List (ℤ × β)) : ℤ → Option β := fun n => (l.reverse.find? fun p => p.1 = n).map Prod.snd

/-- problems/problem.py:80-87 (without the entry for `None`, which no integer equals) -/
def defaultNBasis : ℤ → Option (ℕ × ℕ) :=
  dictOf [(16, (21, 9)), (32, (28, 9)), (64, (34, 17)), (128, (40, 24)), (256, (45, 29))]

/-- problems/smooth.py:16-24 -/
def smoothNBasis : ℤ → Option (ℕ × ℕ) :=
  dictOf [(16, (20, 6)), (32, (33, 8)), (64, (42, 12)), (128, (65, 18)), (256, (80, 30)), (512, (80, 45)), (1024, (80, 45))]

/-- problems/sing_ihz.py:19-27 -/
def singNBasis : ℤ → Option (ℕ × ℕ) :=
  dictOf [(16, (25, 5)), (32, (30, 20)), (64, (40, 30)), (128, (55, 40)), (256, (70, 60)), (512, (90, 60)), (1024, (110, 60))]

/-- problems/problem.py:89-98 `get_m1`: `m1` and `m1_dict` are the attributes if they exist; `bname` is the name of the boundary -/
def getM1 (m1 : Option ℕ) (m1Dict : Option (String → Option ℕ)) (bname : String) : ℕ :=
  match m1 with
  | some m => m
  | none => match m1Dict with
    | none => 7
    | some d => match d bname with
      | some m => m
      | none => 7

/-- problems/sing_ihz.py:69-75 `m1_dict` -/
def singM1 : String → Option ℕ := fun s =>
  if s = "arc" then some 7 else if s = "outer-sine" then some 200 else if s = "inner-sine" then some 200
  else if s = "cubic" then some 200 else if s = "sine7" then some 200 else none

/-! ## `problems/functions.py` -/

/-- problems/functions.py:6-15 `eval_hat_x` -/
noncomputable def evalHatX (x : ℝ) : Py ℝ :=
  if |(|x| - 1)| < 1 / 10 ^ 15 ∨ |x| > 1 then pure 0
  else if 1 - x ^ 2 = 0 then throw .zeroDivisionError
  else pure (exp (-1 / (1 - x ^ 2)))

/-- problems/functions.py:17-24 `eval_hat_th` (`a = PizzaProblem.a`, so `2π - a` is not zero) -/
noncomputable def evalHatTh (a th : ℝ) : Py ℝ := evalHatX ((2 * th - (2 * π + a)) / (2 * π - a))

/-- problems/functions.py:26-27 `eval_parabola` -/
noncomputable def evalParabola (th a : ℝ) : ℝ := -(th - a) * (th - 2 * π)

/-- problems/functions.py:29-30 `eval_linesine` -/
noncomputable def evalLinesine (jv : ℝ → ℝ → ℝ) (th k R a nu : ℝ) : ℝ :=
  jv (nu / 2) (k * R) * ((th - a) / (2 * π - a) - sin (nu / 2 * (th - a)))

end Pot
