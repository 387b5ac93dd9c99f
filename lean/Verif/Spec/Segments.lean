import Verif.Spec.Plane

/-!
# Specification: the three boundary segments and distances to them
-/

namespace Spec
open Real

/-- The three pieces of the boundary of the domain: the outer curve (0), the lower wedge side on the positive
`x` axis (1), the upper wedge side at angle `a` (2). -/
def Segment (a R : ℝ) (rb : ℝ → ℝ) (sid : Fin 3) : Set (ℝ × ℝ) :=
  match sid with
  | 0 => {p | ∃ t, a ≤ t ∧ t ≤ 2 * π ∧ p = polarPoint (rb t) t}
  | 1 => {p | ∃ t, 0 ≤ t ∧ t ≤ R ∧ p = (t, 0)}
  | 2 => {p | ∃ t, 0 ≤ t ∧ t ≤ R ∧ p = polarPoint t a}

/-- `d` is the distance from `p` to the set `S` (attained) -/
def IsDistTo (p : ℝ × ℝ) (S : Set (ℝ × ℝ)) (d : ℝ) : Prop :=
  (∃ q ∈ S, d = dist2 p q) ∧ ∀ q ∈ S, d ≤ dist2 p q

/-- `q` is reached from `p` by the stencil of the given order: the five-point star for order 2, the
nine-point square for higher order -/
def Reach (order : ℕ) (p q : ℤ × ℤ) : Prop :=
  |q.1 - p.1| ≤ 1 ∧ |q.2 - p.2| ≤ 1 ∧ (order ≤ 2 → q.1 = p.1 ∨ q.2 = p.2)

end Spec
