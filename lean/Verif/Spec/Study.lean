import Mathlib.Data.Real.Basic

/-! # Specification: minima and maxima of lists -/

namespace Spec

/-- `m` is the first entry of `l` at which `err` is smallest -/
def FirstMin {α : Type} (err : α → ℝ) (l : List α) (m : α) : Prop :=
  ∃ pre post, l = pre ++ m :: post ∧ (∀ x ∈ pre, err m < err x) ∧ ∀ x ∈ post, err m ≤ err x

/-- `s` is the largest entry of `l` -/
def IsLargest (l : List ℝ) (s : ℝ) : Prop := s ∈ l ∧ ∀ x ∈ l, x ≤ s

/-- at least half of the entries of `l` are at most `c` and at least half are at least `c` -/
def IsMedian (l : List ℝ) (c : ℝ) : Prop :=
  l.length ≤ 2 * (l.filter fun x => x ≤ c).length ∧ l.length ≤ 2 * (l.filter fun x => c ≤ x).length

end Spec
