import Verif.Spec.Main
import Verif.Spec.Segments

/-!
# Specification: what a figure of the domain shows

The grid with `N` cells per side on the square with side `AD`; `a`, `R` and `rb` are the angle, the length of the sides and the radius
function of the domain.
-/

namespace Spec
open Real

/-- the list shows the points of the set, each once -/
def Shows (pts : List (ℝ × ℝ)) (S : Set (ℝ × ℝ)) : Prop := pts.Nodup ∧ ∀ p, p ∈ pts ↔ p ∈ S

/-- the points of the plane that belong to a set of nodes -/
def nodePts (AD : ℝ) (N : ℕ) (S : Set (ℤ × ℤ)) : Set (ℝ × ℝ) := {p | ∃ nd ∈ S, p = cartPt AD N nd.1 nd.2}

/-- the inner nodes of the square outside of the domain -/
def Exterior (AD a : ℝ) (rb : ℝ → ℝ) (N : ℕ) : Set (ℤ × ℤ) :=
  {nd | 1 ≤ nd.1 ∧ nd.1 < N ∧ 1 ≤ nd.2 ∧ nd.2 < N ∧ cartPt AD N nd.1 nd.2 ∉ Domain a rb}

/-- the nodes of the set and the nodes one step right, left, above or below one of them -/
def besideOrIn (S : Set (ℤ × ℤ)) : Set (ℤ × ℤ) := {q | q ∈ S ∨ ∃ p ∈ S, |q.1 - p.1| + |q.2 - p.2| = 1}

/-- the nodes of the set and their eight neighbours -/
def aroundOrIn (S : Set (ℤ × ℤ)) : Set (ℤ × ℤ) := {q | ∃ p ∈ S, |q.1 - p.1| ≤ 1 ∧ |q.2 - p.2| ≤ 1}

/-- the angles at which the outer curve is sampled: 300, from just after `a` to just before a full turn -/
noncomputable def sampleAngle (a : ℝ) (i : ℕ) : ℝ := a + 1 / 10 ^ 5 + i * ((2 * π - 1 / 10 ^ 5 - (a + 1 / 10 ^ 5)) / 299)

/-- the distances from the corner at which a side is sampled: 100, from almost 0 to `R` -/
noncomputable def sampleRadius (R : ℝ) (i : ℕ) : ℝ := 1 / 10 ^ 5 + i * ((R - 1 / 10 ^ 5) / 99)

/-- the sampled outer curve -/
noncomputable def curveLine (a : ℝ) (rb : ℝ → ℝ) : List (ℝ × ℝ) :=
  (List.range 300).map fun i => polarPoint (rb (sampleAngle a i)) (sampleAngle a i)

/-- the sampled side on the axis, towards the corner -/
noncomputable def axisLine (R : ℝ) : List (ℝ × ℝ) := (List.range 100).map fun i => (sampleRadius R (99 - i), 0)

/-- the sampled side at the angle `a`, away from the corner -/
noncomputable def rayLine (a R : ℝ) : List (ℝ × ℝ) := (List.range 100).map fun i => polarPoint (sampleRadius R i) a

/-- the outline of the domain: the outer curve, in to the corner, and out again -/
noncomputable def outline (a R : ℝ) (rb : ℝ → ℝ) : List (ℝ × ℝ) := curveLine a rb ++ axisLine R ++ rayLine a R

/-- the circular arc from the one side to the other: 512 points -/
noncomputable def arcLine (a R : ℝ) : List (ℝ × ℝ) :=
  (List.range 512).map fun i : ℕ => polarPoint R (a + i * ((2 * π - a) / 511))

/-- the square with side `AD`, from its upper left corner and back -/
noncomputable def squareLine (AD : ℝ) : List (ℝ × ℝ) :=
  [(-(AD / 2), AD / 2), (AD / 2, AD / 2), (AD / 2, -(AD / 2)), (-(AD / 2), -(AD / 2)), (-(AD / 2), AD / 2)]

end Spec
