import Mathlib.Analysis.Complex.Basic

/-! # What `np.linalg.lstsq` is trusted to do -/

namespace Spec

/-- squared residual of the system with columns `A`, `m` rows, and right-hand side `b` -/
noncomputable def sysResidual (m : ℕ) (A : List (List ℂ)) (b c : List ℂ) : ℝ :=
  ∑ l ∈ Finset.range m, ‖(∑ j ∈ Finset.range A.length, (A.getD j []).getD l 0 * c.getD j 0) - b.getD l 0‖ ^ 2

/-- `lstsq(A, b)[0]` has one coefficient per column and minimises the residual -/
def IsLstsq (lstsq : List (List ℂ) → List ℂ → List ℂ) : Prop :=
  ∀ A b, (∀ col ∈ A, col.length = b.length) →
    (lstsq A b).length = A.length ∧
      ∀ c : List ℂ, c.length = A.length → sysResidual b.length A b (lstsq A b) ≤ sysResidual b.length A b c

end Spec
