import Mathlib.Analysis.Complex.Norm
import Mathlib.Analysis.SpecialFunctions.Log.Base
import Mathlib.Analysis.SpecialFunctions.Trigonometric.Basic

/-!
# Specification: comparing grid functions on nested grids

Grid functions are compared as functions of the physical point.
-/

namespace Spec

/-- node `(i, j)` of the uniform grid with `N` cells per side in the square of side `AD` centred at the origin -/
noncomputable def cartPt (AD : ℝ) (N : ℕ) (i j : ℤ) : ℝ × ℝ := (AD * (i / N - 1 / 2), AD * (j / N - 1 / 2))

/-- `P` is a node of the grid with `N` cells per side -/
def IsCartNode (AD : ℝ) (N : ℕ) (P : ℝ × ℝ) : Prop := ∃ i j : ℤ, P = cartPt AD N i j

/-- node `(m, l)` of the polar grid with `N` cells in each direction on `R0 ≤ r ≤ R1`, `a ≤ θ ≤ 2π` -/
noncomputable def polarPt (a R0 R1 : ℝ) (N : ℕ) (m l : ℕ) : ℝ × ℝ :=
  (R0 + m * ((R1 - R0) / N), a + l * ((2 * Real.pi - a) / N))

/-- the inner nodes of the polar grid -/
def polarInner (a R0 R1 : ℝ) (N : ℕ) : Set (ℝ × ℝ) := {P | ∃ m l, 0 < m ∧ m < N ∧ 0 < l ∧ l < N ∧ P = polarPt a R0 R1 N m l}

/-- the differences of `g` and `h` on `S` -/
def diffSet {α : Type} (S : Set α) (g h : α → ℂ) : Set ℝ := {x | ∃ P ∈ S, x = ‖g P - h P‖}

/-- `ρ` is the binary logarithm of the quotient of the maximum of `D12` by the maximum of `D01` -/
def IsRate (D12 D01 : Set ℝ) (ρ : ℝ) : Prop :=
  ∃ M12 M01, IsGreatest D12 M12 ∧ IsGreatest D01 M01 ∧ M12 ≠ 0 ∧ M01 ≠ 0 ∧ ρ = Real.logb 2 (M12 / M01)

end Spec
