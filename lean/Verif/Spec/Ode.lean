import Verif.Model.Py
import Mathlib.Analysis.Calculus.Deriv.Basic

/-!
# Specification: solutions of a system of ordinary differential equations
-/

namespace Spec
open Pot

/-- the curve `Y` in `n` dimensions starts at `ic` and follows `Y' = rhs(Y, r)` on `[R0, R]`, without exceptions -/
def SolvesOde (rhs : List ℝ → ℝ → Py (List ℝ)) (n : ℕ) (ic : List ℝ) (R0 R : ℝ) (Y : ℝ → List ℝ) : Prop :=
  Y R0 = ic ∧ ∀ r ∈ Set.Icc R0 R, (Y r).length = n ∧ ∃ D, rhs (Y r) r = .ok D ∧
    ∀ i < n, HasDerivWithinAt (fun ρ => (Y ρ).getD i 0) (D.getD i 0) (Set.Icc R0 R) r

end Spec
