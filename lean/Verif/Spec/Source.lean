import Mathlib.Data.Complex.Basic

/-! # Specification: the second-order Taylor polynomial of a function of two variables -/

namespace Spec

/-- `f(p) + ∇f(p)·(x - p) + ½ (x - p)ᵀ H(p) (x - p)` -/
noncomputable def taylor2 (f : ℂ) (g : ℂ × ℂ) (H : (ℂ × ℂ) × (ℂ × ℂ)) (p x : ℝ × ℝ) : ℂ :=
  f + g.1 * (x.1 - p.1) + g.2 * (x.2 - p.2) +
    (H.1.1 * (x.1 - p.1) ^ 2 + (H.1.2 + H.2.1) * (x.1 - p.1) * (x.2 - p.2) + H.2.2 * (x.2 - p.2) ^ 2) / 2

end Spec
