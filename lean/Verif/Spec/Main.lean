import Verif.Spec.Nested
import Verif.Spec.Plane
import Verif.Spec.Grid
import Mathlib.Analysis.Complex.Exponential
import Mathlib.Analysis.SpecialFunctions.Trigonometric.Basic

/-!
# Specification: what the numbers printed by a convergence run mean

The grid with `N` cells per side on the square with side `AD`; `a` and `rb` are the angle and the radius function of the domain.
-/

namespace Spec

/-- the nodes inside the domain -/
def Interior (AD a : ℝ) (rb : ℝ → ℝ) (N : ℕ) : Set (ℤ × ℤ) :=
  {nd | 1 ≤ nd.1 ∧ nd.1 < N ∧ 1 ≤ nd.2 ∧ nd.2 < N ∧ cartPt AD N nd.1 nd.2 ∈ Domain a rb}

/-- the differences between the function `ex` and the array `u` at the interior nodes -/
def errSet (AD a : ℝ) (rb : ℝ → ℝ) {n : ℕ} (ex : ℝ → ℝ → ℂ) (u : Fin n → Fin n → ℂ) : Set ℝ :=
  {x | ∃ nd ∈ Interior AD a rb (n + 1), x = ‖ex (cartPt AD (n + 1) nd.1 nd.2).1 (cartPt AD (n + 1) nd.1 nd.2).2 - node u nd.1 nd.2‖}

/-- the differences between a solution on the grid with `2N` cells and one on the grid with `N` cells, at the interior nodes of
the latter -/
def nestedDiff (AD a : ℝ) (rb : ℝ → ℝ) (N : ℕ) {m n : ℕ} (fine : Fin m → Fin m → ℂ) (coarse : Fin n → Fin n → ℂ) : Set ℝ :=
  {x | ∃ nd ∈ Interior AD a rb N, x = ‖node fine (2 * nd.1) (2 * nd.2) - node coarse nd.1 nd.2‖}

/-- the printed rate: a number, or `inf`/`nan` exactly when one of the maxima is zero -/
def IsPrintedRate (D12 D01 : Set ℝ) : Option ℝ → Prop
  | some x => IsRate D12 D01 x
  | none => ∃ M12 M01, IsGreatest D12 M12 ∧ IsGreatest D01 M01 ∧ (M12 = 0 ∨ M01 = 0)

/-- the three smooth problems with wavenumber 27/4: the name, the expected solution and the right-hand side -/
inductive SmoothCase : String → (ℝ → ℝ → ℂ) → (ℝ → ℝ → ℂ) → Prop
  | sine : SmoothCase "smooth-sine" (fun x _ => (Real.sin (27 / 4 * x) : ℝ)) fun _ _ => 0
  | e : SmoothCase "smooth-e" (fun x y => Complex.exp (Complex.I * ((27 / 5 * x + 81 / 20 * y : ℝ) : ℂ))) fun _ _ => 0
  | ycos : SmoothCase "smooth-ycos" (fun x y => (y * Real.cos x : ℝ))
      fun x y => (((27 / 4) ^ 2 - 1) * (y * Real.cos x) : ℝ)

/-- the values of a function on the outer curve, on the positive `x`-axis and on the ray with angle `a`, by arc angle or radius -/
noncomputable def traces (ex : ℝ → ℝ → ℂ) (a : ℝ) (rb : ℝ → ℝ) (x : ℝ) : Fin 3 → ℂ :=
  ![ex (rb x * Real.cos x) (rb x * Real.sin x), ex x 0, ex (x * Real.cos a) (x * Real.sin a)]

end Spec
