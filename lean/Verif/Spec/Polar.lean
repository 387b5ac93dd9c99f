import Mathlib.Analysis.Complex.Basic

/-!
# Specification: the compact fourth-order scheme for the Helmholtz equation in polar coordinates

Grid functions are `V : ℤ → ℤ → ℂ`, first index along the radius (step `h`), second along the angle (step `t`); `ρ m`
is the radius of the circle `m`.
-/

namespace Spec

/-- second difference quotient along the angle -/
noncomputable def dthth (t : ℝ) (V : ℤ → ℤ → ℂ) (m l : ℤ) : ℂ := (V m (l + 1) - 2 * V m l + V m (l - 1)) / (t : ℂ) ^ 2
/-- second difference quotient along the radius -/
noncomputable def drr (h : ℝ) (V : ℤ → ℤ → ℂ) (m l : ℤ) : ℂ := (V (m + 1) l - 2 * V m l + V (m - 1) l) / (h : ℂ) ^ 2
/-- central difference quotient along the radius -/
noncomputable def dr (h : ℝ) (V : ℤ → ℤ → ℂ) (m l : ℤ) : ℂ := (V (m + 1) l - V (m - 1) l) / (2 * h)

/-- radial part of the Laplacian, `u_rr + u_r / r` -/
noncomputable def lapR (h : ℝ) (ρ : ℤ → ℝ) (V : ℤ → ℤ → ℂ) (m l : ℤ) : ℂ := drr h V m l + dr h V m l / ρ m

/-- angular part of the Helmholtz operator, `u_θθ / r² + k² u` -/
noncomputable def angPart (t k : ℝ) (ρ : ℤ → ℝ) (V : ℤ → ℤ → ℂ) (m l : ℤ) : ℂ :=
  dthth t V m l / (ρ m : ℂ) ^ 2 + (k : ℂ) ^ 2 * V m l

/-- the compact scheme: radial and angular difference operators plus the corrections
`h²/12 (W_rr + W_r/r + W/r²) + h²/(6 r³) u_r` (with `W = u_θθ/r² + k² u`) and `t²/12 (u_rr + u_r/r + k² u)_θθ` that cancel
the leading truncation errors -/
noncomputable def polarL4 (h t k : ℝ) (ρ : ℤ → ℝ) (V : ℤ → ℤ → ℂ) (m l : ℤ) : ℂ :=
  lapR h ρ V m l + angPart t k ρ V m l
    + (h : ℂ) ^ 2 / 12 * (lapR h ρ (angPart t k ρ V) m l + angPart t k ρ V m l / (ρ m : ℂ) ^ 2
        + 2 / (ρ m : ℂ) ^ 3 * dr h V m l)
    + (t : ℂ) ^ 2 / 12 * dthth t (fun m l => lapR h ρ V m l + (k : ℂ) ^ 2 * V m l) m l

/-- the Dirichlet value prescribed at the boundary node `(m, l)` of the `(N+1) x (N+1)` polar grid; the two wedge sides
own the four corners -/
noncomputable def polarBc (N : ℕ) (r th : ℕ → ℝ) (phiInit phi0 phi1 phi2 : ℝ → ℂ) (m l : ℕ) : ℂ :=
  if l = 0 then phi2 (r m) else if l = N then phi1 (r m) else if m = 0 then phiInit (th l) else phi0 (th l)

/-- `u = U 0 0` solves the Helmholtz equation in polar coordinates, `u_rr + u_r / r + u_θθ / r² + k² u = f`, on the set
`Ω` of pairs `(r, θ)` -/
def PolarHelmholtz (Ω : Set (ℝ × ℝ)) (k : ℝ) (U : ℕ → ℕ → ℝ × ℝ → ℂ) (f : ℝ × ℝ → ℂ) : Prop :=
  ∀ p ∈ Ω, U 2 0 p + U 1 0 p / p.1 + U 0 2 p / (p.1 : ℂ) ^ 2 + (k : ℂ) ^ 2 * U 0 0 p = f p

end Spec
