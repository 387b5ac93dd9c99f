import Mathlib.Analysis.Calculus.IteratedDeriv.Defs
import Mathlib.Analysis.Calculus.FDeriv.Prod
import Mathlib.Analysis.Complex.Basic
import Mathlib.Data.Nat.Factorial.Basic

/-!
# Specification: curves with a moving frame, local solutions of the Helmholtz equation, Taylor polynomials
-/

namespace Spec

/-- `g (i+1)` is the derivative of `g i` on `I`, for `i < n` -/
def DerivFam {E : Type} [NormedAddCommGroup E] [NormedSpace ℝ E] (n : ℕ) (I : Set ℝ) (g : ℕ → ℝ → E) : Prop :=
  ∀ i < n, ∀ s ∈ I, HasDerivAt (g i) (g (i + 1) s) s

/-- the linear map `(u, v) ↦ u a + v b` -/
noncomputable def grad2 (a b : ℂ) : ℝ × ℝ →L[ℝ] ℂ :=
  (ContinuousLinearMap.fst ℝ ℝ ℝ).smulRight a + (ContinuousLinearMap.snd ℝ ℝ ℝ).smulRight b

/-- `U i j` is the partial derivative `∂₁^i ∂₂^j` of `U 0 0` on the open set `Ω`, for all `i + j ≤ n`; every member
with `i + j < n` is (totally) differentiable -/
structure JetOn (Ω : Set (ℝ × ℝ)) (n : ℕ) (U : ℕ → ℕ → ℝ × ℝ → ℂ) : Prop where
  isOpen : IsOpen Ω
  diff : ∀ i j, i + j < n → ∀ p ∈ Ω, HasFDerivAt (U i j) (grad2 (U (i + 1) j p) (U i (j + 1) p)) p

/-- `U 0 0` solves `u_xx + u_yy + k² u = f` on `Ω` -/
def Helmholtz (Ω : Set (ℝ × ℝ)) (k : ℝ) (U : ℕ → ℕ → ℝ × ℝ → ℂ) (f : ℝ × ℝ → ℂ) : Prop :=
  ∀ p ∈ Ω, U 2 0 p + U 0 2 p + (k : ℂ) ^ 2 * U 0 0 p = f p

/-- a curve `(x, y)` parametrised by arclength over the open set `I`, with unit tangent `(t1, t2)`, a unit normal
`(n1, n2)`, and curvature `κ` with respect to this normal (`T' = κ N`, `N' = -κ T`) -/
structure Frame (I : Set ℝ) (x y t1 t2 n1 n2 κ : ℝ → ℝ) : Prop where
  isOpen : IsOpen I
  dx : ∀ s ∈ I, HasDerivAt x (t1 s) s
  dy : ∀ s ∈ I, HasDerivAt y (t2 s) s
  dt1 : ∀ s ∈ I, HasDerivAt t1 (κ s * n1 s) s
  dt2 : ∀ s ∈ I, HasDerivAt t2 (κ s * n2 s) s
  dn1 : ∀ s ∈ I, HasDerivAt n1 (-κ s * t1 s) s
  dn2 : ∀ s ∈ I, HasDerivAt n2 (-κ s * t2 s) s
  unitT : ∀ s ∈ I, t1 s ^ 2 + t2 s ^ 2 = 1
  unitN : ∀ s ∈ I, n1 s ^ 2 + n2 s ^ 2 = 1
  orth : ∀ s ∈ I, t1 s * n1 s + t2 s * n2 s = 0

/-- the Taylor polynomial of degree `m` at `0` -/
noncomputable def taylorPoly (m : ℕ) (g : ℝ → ℂ) (n : ℝ) : ℂ :=
  ∑ j ∈ Finset.range (m + 1), iteratedDeriv j g 0 / (j.factorial : ℂ) * (n : ℂ) ^ j

/-- `p` moved by `t` in the direction `(a, b)` -/
def move (p : ℝ × ℝ) (a b t : ℝ) : ℝ × ℝ := (p.1 + t * a, p.2 + t * b)

/-- first and second derivative of a jet in the direction `(a, b)` -/
noncomputable def dir1 (U : ℕ → ℕ → ℝ × ℝ → ℂ) (a b : ℝ) (p : ℝ × ℝ) : ℂ := a * U 1 0 p + b * U 0 1 p
noncomputable def dir2 (U : ℕ → ℕ → ℝ × ℝ → ℂ) (a b : ℝ) (p : ℝ × ℝ) : ℂ :=
  (a : ℂ) ^ 2 * U 2 0 p + 2 * a * b * U 1 1 p + (b : ℂ) ^ 2 * U 0 2 p

end Spec
