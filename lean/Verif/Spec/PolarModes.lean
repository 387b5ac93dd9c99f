import Verif.Spec.Polar
import Mathlib.Analysis.SpecialFunctions.Trigonometric.Basic

/-!
# Specification: the angular modes of the compact polar scheme

On a grid function `w m * sin (π j l / N)` the second difference quotient along the angle is multiplication by `- modeS`; what is left of
the scheme is a three-term recurrence along the radius.
-/

namespace Spec
open Real

/-- the radial part of the Laplacian, `w'' + w' / r`, by central differences -/
noncomputable def rad1 (h : ℝ) (ρ : ℤ → ℝ) (w : ℤ → ℂ) (m : ℤ) : ℂ :=
  (w (m + 1) - 2 * w m + w (m - 1)) / (h : ℂ) ^ 2 + (w (m + 1) - w (m - 1)) / (2 * h) / ρ m

/-- the compact scheme with `- s` for the second derivative along the angle -/
noncomputable def modeL (h t k : ℝ) (ρ : ℤ → ℝ) (s : ℝ) (w : ℤ → ℂ) (m : ℤ) : ℂ :=
  let W : ℤ → ℂ := fun m => ((k : ℂ) ^ 2 - s / (ρ m : ℂ) ^ 2) * w m
  rad1 h ρ w m + W m
    + (h : ℂ) ^ 2 / 12 * (rad1 h ρ W m + W m / (ρ m : ℂ) ^ 2 + 2 / (ρ m : ℂ) ^ 3 * ((w (m + 1) - w (m - 1)) / (2 * h)))
    - (t : ℂ) ^ 2 / 12 * s * (rad1 h ρ w m + (k : ℂ) ^ 2 * w m)

/-- minus the second difference quotient of `sin (π j l / N)`, divided by it -/
noncomputable def modeS (t : ℝ) (N j : ℕ) : ℝ := (2 - 2 * cos (π * j / N)) / t ^ 2

/-- the recurrence of the mode `j` with zero at both ends has only the zero solution -/
def ModeRegular (h t k : ℝ) (ρ : ℤ → ℝ) (N j : ℕ) : Prop :=
  ∀ w : ℤ → ℂ, w 0 = 0 → w N = 0 → (∀ m : ℕ, 0 < m → m < N → modeL h t k ρ (modeS t N j) w m = 0) → ∀ m : ℕ, m ≤ N → w m = 0

/-- the homogeneous scheme with zero boundary values has only the zero solution -/
def SchemeRegular (h t k : ℝ) (ρ : ℤ → ℝ) (N : ℕ) : Prop :=
  ∀ V : ℤ → ℤ → ℂ, (∀ m l : ℕ, m ≤ N → l ≤ N → m = 0 ∨ m = N ∨ l = 0 ∨ l = N → V m l = 0) →
    (∀ m l : ℕ, 0 < m → m < N → 0 < l → l < N → polarL4 h t k ρ V m l = 0) → ∀ m l : ℕ, m ≤ N → l ≤ N → V m l = 0

end Spec
