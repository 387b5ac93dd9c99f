import Verif.Model.Chebyshev
import Verif.Model.SympyProblem

/-!
# Model of `scripts/codegen/chebyshev_derivs.py` and `scripts/codegen/rhs_derivs.py`

A SymPy expression in two symbols is the function of its values, `diff` is `deriv` (`Model/SympyProblem.lean`; `spDFr` is the derivative with
respect to the first symbol, `spDFth` with respect to the second).  A printed definition is its signature and the function of the printed
expression; the text of the expression is not modelled.  Importing `rhs_derivs.py` defines functions and prints nothing.
-/

namespace Pot
open Real

/-- scripts/codegen/chebyshev_derivs.py:10-14: the orders and the printed derivatives -/
noncomputable def chebyshevDerivs (J : ℝ) : List (ℕ × (ℝ → ℝ)) :=
  (List.range' 1 5).map fun n => (n, deriv^[n] fun t => cos (J * arccos t))

/-- the value of a printed definition: a number, a vector or a matrix -/
inductive GenVal where
  | num (z : ℂ)
  | vec (g : ℂ × ℂ)
  | mat (h : (ℂ × ℂ) × (ℂ × ℂ))

/-- scripts/codegen/rhs_derivs.py:14-19 `print_code`: the signature and the returned value -/
structure Gen where
  signature : String
  value : ℝ → ℝ → GenVal

/-- scripts/codegen/rhs_derivs.py:44-51 `find_f_polar_derivs` -/
noncomputable def findFPolarDerivs (f : ℝ → ℝ → ℂ) : List Gen :=
  [⟨"eval_d_f_r(self, r, th)", fun r th => .num (spDFr f r th)⟩,
   ⟨"eval_d2_f_r(self, r, th)", fun r th => .num (spDFr (spDFr f) r th)⟩,
   ⟨"eval_d_f_th(self, r, th)", fun r th => .num (spDFth f r th)⟩,
   ⟨"eval_d2_f_th(self, r, th)", fun r th => .num (spDFth (spDFth f) r th)⟩,
   ⟨"eval_d2_f_r_th(self, r, th)", fun r th => .num (spDFth (spDFr f) r th)⟩]

/-- scripts/codegen/rhs_derivs.py:54-64 `find_f_total_derivs` -/
noncomputable def findFTotalDerivs (f : ℝ → ℝ → ℂ) : List Gen :=
  [⟨"eval_grad_f(self, x, y)", fun x y => .vec (spDFr f x y, spDFth f x y)⟩,
   ⟨"eval_hessian_f(self, x, y)", fun x y =>
      .mat ((spDFr (spDFr f) x y, spDFth (spDFr f) x y), (spDFr (spDFth f) x y, spDFth (spDFth f) x y))⟩]

/-- scripts/codegen/rhs_derivs.py:25, the source of `find_derivs` -/
noncomputable def genF (k : ℝ) (u : ℝ → ℝ → ℂ) (x y : ℝ) : ℂ := spDFr (spDFr u) x y + spDFth (spDFth u) x y + (k : ℂ) ^ 2 * u x y

/-- scripts/codegen/rhs_derivs.py:28, the substitution -/
noncomputable def genFPolar (k : ℝ) (u : ℝ → ℝ → ℂ) (r th : ℝ) : ℂ := genF k u (r * cos th) (r * sin th)

/-- scripts/codegen/rhs_derivs.py:22-31 `find_derivs` -/
noncomputable def findDerivs (k : ℝ) (u : ℝ → ℝ → ℂ) : List Gen :=
  ⟨"eval_expected(self, x, y)", fun x y => .num (u x y)⟩ :: ⟨"eval_f(self, x, y)", fun x y => .num (genF k u x y)⟩ ::
    (findFPolarDerivs (genFPolar k u) ++ findFTotalDerivs (genF k u))

/-- scripts/codegen/rhs_derivs.py:37, the source of `find_derivs_polar` -/
noncomputable def genPolarF (k : ℝ) (u : ℝ → ℝ → ℂ) (r th : ℝ) : ℂ :=
  spDFr (spDFr u) r th + 1 / (r : ℂ) * spDFr u r th + 1 / (r : ℂ) ^ 2 * spDFth (spDFth u) r th + (k : ℂ) ^ 2 * u r th

/-- scripts/codegen/rhs_derivs.py:34-41 `find_derivs_polar` -/
noncomputable def findDerivsPolar (k : ℝ) (u : ℝ → ℝ → ℂ) : List Gen :=
  ⟨"eval_expected_polar(self, r, th)", fun r th => .num (u r th)⟩ :: ⟨"eval_f_polar(self, r, th)", fun r th => .num (genPolarF k u r th)⟩ ::
    findFPolarDerivs (genPolarF k u)

end Pot
