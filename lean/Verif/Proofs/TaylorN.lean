import Verif.Spec.Frame
import Verif.Proofs.Taylor
import Verif.Proofs.Frame

/-! # Taylor's theorem with remainder of any order -/

namespace Pot
open Spec Finset

theorem poly_deriv (c : ℕ → ℂ) (N : ℕ) (t : ℝ) :
    HasDerivAt (fun t : ℝ => ∑ j ∈ range (N + 1), c j / (j.factorial : ℂ) * (t : ℂ) ^ j)
      (∑ j ∈ range N, c (j + 1) / (j.factorial : ℂ) * (t : ℂ) ^ j) t := by
  have e : (fun t : ℝ => ∑ j ∈ range (N + 1), c j / (j.factorial : ℂ) * (t : ℂ) ^ j) =
      fun t : ℝ => (∑ j ∈ range N, c (j + 1) / ((j + 1).factorial : ℂ) * (t : ℂ) ^ (j + 1)) + c 0 := by
    funext t
    rw [sum_range_succ']
    simp
  rw [e]
  refine (HasDerivAt.fun_sum fun j _ => hasDerivAt_cpow' (c (j + 1) / ((j + 1).factorial : ℂ)) j t).add_const _ |>.congr_deriv ?_
  refine sum_congr rfl fun j _ => ?_
  have h1 : ((j : ℂ) + 1) ≠ 0 := by exact_mod_cast Nat.succ_ne_zero j
  have h2 : (j.factorial : ℂ) ≠ 0 := by exact_mod_cast Nat.factorial_ne_zero j
  rw [Nat.factorial_succ]
  push_cast
  field_simp

theorem taylorN_right (N : ℕ) : ∀ {g : ℕ → ℝ → ℂ} {h M : ℝ},
    (∀ i < N, ∀ t ∈ Set.Icc 0 h, HasDerivAt (g i) (g (i + 1) t) t) → (∀ t ∈ Set.Icc 0 h, ‖g N t‖ ≤ M) →
    ∀ t ∈ Set.Icc 0 h, ‖g 0 t - ∑ j ∈ range N, g j 0 / (j.factorial : ℂ) * (t : ℂ) ^ j‖ ≤
      M / (N.factorial : ℝ) * t ^ N := by
  induction N with
  | zero => intro g h M _ hM t ht; simpa using hM t ht
  | succ N ih =>
    intro g h M hg hM
    have s := ih (g := fun i => g (i + 1)) (h := h) (M := M) (fun i hi t ht => hg (i + 1) (by omega) t ht) hM
    have key := int_bound (f := fun t : ℝ => g 0 t - ∑ j ∈ range (N + 1), g j 0 / (j.factorial : ℂ) * (t : ℂ) ^ j)
      (f' := fun t => g 1 t - ∑ j ∈ range N, g (j + 1) 0 / (j.factorial : ℂ) * (t : ℂ) ^ j) (h := h)
      (C := M / (N.factorial : ℝ)) (m := N)
      (fun t ht => (hg 0 (by omega) t ht).fun_sub (poly_deriv (fun j => g j 0) N t))
      (by rw [sum_range_succ']; simp) s
    intro t ht
    refine (key t ht).trans (le_of_eq ?_)
    rw [Nat.factorial_succ]
    push_cast
    have h1 : ((N : ℝ) + 1) ≠ 0 := by positivity
    have h2 : (N.factorial : ℝ) ≠ 0 := by positivity
    field_simp

/-- Taylor's theorem in either direction: `N` derivatives on the segment from `0` to `n`, the `N`-th bounded by `M` -/
theorem taylorN (N : ℕ) {g : ℕ → ℝ → ℂ} {n M : ℝ}
    (hg : ∀ i < N, ∀ t, |t| ≤ |n| → 0 ≤ t * n → HasDerivAt (g i) (g (i + 1) t) t)
    (hM : ∀ t, |t| ≤ |n| → 0 ≤ t * n → ‖g N t‖ ≤ M) :
    ‖g 0 n - ∑ j ∈ range N, g j 0 / (j.factorial : ℂ) * (n : ℂ) ^ j‖ ≤ M / (N.factorial : ℝ) * |n| ^ N := by
  rcases le_total 0 n with h0 | h0
  · rw [abs_of_nonneg h0] at *
    exact taylorN_right N
      (fun i hi t ht => hg i hi t (by rw [abs_of_nonneg ht.1]; exact ht.2) (mul_nonneg ht.1 h0))
      (fun t ht => hM t (by rw [abs_of_nonneg ht.1]; exact ht.2) (mul_nonneg ht.1 h0)) n ⟨h0, le_rfl⟩
  · rw [abs_of_nonpos h0] at *
    have h1 : ∀ t ∈ Set.Icc 0 (-n), |(-t)| ≤ -n ∧ 0 ≤ -t * n := fun t ht =>
      ⟨by rw [abs_neg, abs_of_nonneg ht.1]; exact ht.2, by nlinarith [ht.1]⟩
    have := taylorN_right N (g := fun i t => (-1) ^ i * g i (-t)) (h := -n) (M := M)
      (fun i hi t ht => by
        refine ((hasDerivAt_reflect (hg i hi (-t) (h1 t ht).1 (h1 t ht).2)).const_mul ((-1 : ℂ) ^ i)).congr_deriv ?_
        ring)
      (fun t ht => by
        rw [norm_mul]; simpa using hM (-t) (h1 t ht).1 (h1 t ht).2) (-n) ⟨by linarith, le_rfl⟩
    refine le_trans (le_of_eq ?_) this
    congr 1
    simp only [neg_neg, neg_zero, pow_zero, one_mul]
    congr 1
    refine sum_congr rfl fun j _ => ?_
    push_cast
    rw [neg_pow (n : ℂ) j]
    have : ((-1 : ℂ) ^ j) * (-1) ^ j = 1 := by rw [← mul_pow]; simp
    linear_combination (-(g j 0 / (j.factorial : ℂ) * (n : ℂ) ^ j)) * this

end Pot
