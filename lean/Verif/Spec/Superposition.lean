import Verif.Spec.Lstsq

/-! # Real-linear combinations of two complex numbers; the least-squares solution of smallest norm -/

namespace Spec
open ComplexConjugate

/-- the coefficients of a real-linear map of two complex variables.  Every such map is of this form. -/
structure Mix where
  /-- factor of the first variable -/
  a : ℂ
  /-- factor of its conjugate -/
  a' : ℂ
  /-- factor of the second variable -/
  b : ℂ
  /-- factor of its conjugate -/
  b' : ℂ

/-- `a x + a' x̄ + b y + b' ȳ` -/
noncomputable def Mix.app (m : Mix) (x y : ℂ) : ℂ := m.a * x + m.a' * conj x + m.b * y + m.b' * conj y

/-- the same on pairs -/
noncomputable def Mix.app2 (m : Mix) (x y : ℂ × ℂ) : ℂ × ℂ := (m.app x.1 y.1, m.app x.2 y.2)

/-- the same on two-by-two matrices -/
noncomputable def Mix.app4 (m : Mix) (x y : (ℂ × ℂ) × (ℂ × ℂ)) : (ℂ × ℂ) × (ℂ × ℂ) := (m.app2 x.1 y.1, m.app2 x.2 y.2)

/-- the documented behaviour of `np.linalg.lstsq`: among all minimisers of the residual the returned one has the smallest
norm -/
def IsMinLstsq (lstsq : List (List ℂ) → List ℂ → List ℂ) : Prop :=
  IsLstsq lstsq ∧ ∀ A b, (∀ col ∈ A, col.length = b.length) → ∀ c : List ℂ, c.length = A.length →
    sysResidual b.length A b c ≤ sysResidual b.length A b (lstsq A b) →
      ∑ j ∈ Finset.range A.length, ‖(lstsq A b).getD j 0‖ ^ 2 ≤ ∑ j ∈ Finset.range A.length, ‖c.getD j 0‖ ^ 2

end Spec
