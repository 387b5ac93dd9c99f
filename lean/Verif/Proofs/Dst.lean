import Verif.Model.Linop
import Verif.Spec.Grid
import Mathlib.Tactic.Linarith
import Mathlib.Tactic.Ring
import Mathlib.Tactic.FieldSimp
import Mathlib.Tactic.LinearCombination
import Mathlib.Tactic.Push
import Mathlib.Algebra.BigOperators.Fin
import Mathlib.Algebra.BigOperators.Intervals

/-! # Discrete sine orthogonality and the eigenvalue array -/

namespace Pot
open Real Finset

/-- telescoped Dirichlet kernel -/
theorem two_sin_mul_sum_cos (x : ℝ) (N : ℕ) :
    2 * sin (x / 2) * ∑ m ∈ range N, cos (m * x) = sin ((N - 1 / 2) * x) + sin (x / 2) := by
  induction N with
  | zero =>
    have : ((0:ℕ) - 1 / 2 : ℝ) * x = -(x / 2) := by push_cast; ring
    rw [this, sin_neg]; simp
  | succ N ih =>
    rw [sum_range_succ, mul_add, ih]
    have h1 : ((N : ℝ) - 1 / 2) * x = N * x - x / 2 := by ring
    have h2 : (((N + 1 : ℕ) : ℝ) - 1 / 2) * x = N * x + x / 2 := by push_cast; ring
    rw [h1, h2, sin_sub, sin_add]; ring

theorem sum_cos_eq {N : ℕ} (hN : 0 < N) (q : ℤ) (hq : sin (π * q / N / 2) ≠ 0) :
    2 * ∑ m ∈ range N, cos (m * (π * q / N)) = 1 - cos (q * π) := by
  have h := two_sin_mul_sum_cos (π * q / N) N
  have hN' : (N : ℝ) ≠ 0 := by positivity
  have e : ((N : ℝ) - 1 / 2) * (π * q / N) = q * π - π * q / N / 2 := by field_simp
  rw [e, sin_sub, sin_int_mul_pi] at h
  apply mul_left_cancel₀ hq
  linear_combination h

/-- sine matrix entry -/
noncomputable def S (n : ℕ) (p i : ℕ) : ℝ := sin (π * ((p : ℝ) + 1) * ((i : ℝ) + 1) / ((n : ℝ) + 1))

theorem sin_half_ne {N : ℕ} (hN : 0 < N) (q : ℤ) (h1 : q ≠ 0) (h2 : -(2 * N : ℤ) < q) (h3 : q < 2 * N) :
    sin (π * q / N / 2) ≠ 0 := by
  have hN' : (0:ℝ) < N := by positivity
  have hpi := pi_pos
  have e : π * q / N / 2 = π * (q / (2 * N)) := by field_simp
  rw [e]
  intro h
  have hlt : |(q : ℝ) / (2 * N)| < 1 := by
    rw [abs_lt]; constructor
    · rw [lt_div_iff₀ (by positivity)]
      have : (-(2 * N : ℤ) : ℝ) < q := by exact_mod_cast h2
      push_cast at this; linarith
    · rw [div_lt_one (by positivity)]; exact_mod_cast h3
  have hne : (q : ℝ) / (2 * N) ≠ 0 := by
    apply div_ne_zero _ (by positivity)
    exact_mod_cast h1
  rw [abs_lt] at hlt
  rcases lt_or_gt_of_ne hne with hs | hs
  · have : sin (π * (q / (2 * N))) < 0 :=
      sin_neg_of_neg_of_neg_pi_lt (by nlinarith) (by nlinarith)
    linarith
  · have : 0 < sin (π * (q / (2 * N))) := sin_pos_of_pos_of_lt_pi (by nlinarith) (by nlinarith)
    linarith

/-- discrete orthogonality of sines -/
theorem S_orth (n p q : ℕ) (hp : p < n) (hq : q < n) :
    ∑ i ∈ range n, S n p i * S n q i = if p = q then ((n : ℝ) + 1) / 2 else 0 := by
  have hN : 0 < n + 1 := by omega
  -- rewrite as a sum over range (n+1) including m = 0
  have key : ∑ i ∈ range n, S n p i * S n q i =
      (∑ m ∈ range (n + 1), cos (m * (π * ((p:ℤ) - (q:ℤ) : ℤ) / (n + 1 : ℕ))) -
        ∑ m ∈ range (n + 1), cos (m * (π * ((p:ℤ) + (q:ℤ) + 2 : ℤ) / (n + 1 : ℕ)))) / 2 := by
    rw [eq_div_iff (two_ne_zero), sum_mul, ← sum_sub_distrib, sum_range_succ']
    · simp only [Nat.cast_zero, zero_mul, sub_self, add_zero]
      apply sum_congr rfl
      intro i _
      unfold S
      push_cast
      have e1 : ((i:ℝ) + 1) * (π * ((p:ℝ) - q) / (n + 1)) =
        π * (p + 1) * (i + 1) / (n + 1) - π * (q + 1) * (i + 1) / (n + 1) := by ring
      have e2 : ((i:ℝ) + 1) * (π * ((p:ℝ) + q + 2) / (n + 1)) =
        π * (p + 1) * (i + 1) / (n + 1) + π * (q + 1) * (i + 1) / (n + 1) := by ring
      rw [e1, e2, cos_sub, cos_add]; ring
  rw [key]
  have h2 := sum_cos_eq hN ((p:ℤ) + (q:ℤ) + 2)
    (sin_half_ne hN _ (by omega) (by push_cast; omega) (by push_cast; omega))
  by_cases h : p = q
  · subst h
    rw [if_pos rfl]
    have e : cos ((((p:ℤ) + (p:ℤ) + 2 : ℤ) : ℝ) * π) = 1 := by
      have : (((p:ℤ) + (p:ℤ) + 2 : ℤ) : ℝ) * π = ((p + 1 : ℕ) : ℝ) * (2 * π) := by push_cast; ring
      rw [this]; exact cos_nat_mul_two_pi _
    rw [e] at h2
    simp only [sub_self, Int.cast_zero, mul_zero, zero_div, cos_zero, sum_const, card_range,
      nsmul_eq_mul, mul_one]
    push_cast at h2 ⊢
    linarith
  · rw [if_neg h]
    have h1 := sum_cos_eq hN ((p:ℤ) - (q:ℤ))
      (sin_half_ne hN _ (by omega) (by push_cast; omega) (by push_cast; omega))
    have e : cos ((((p:ℤ) + (q:ℤ) + 2 : ℤ) : ℝ) * π) = cos ((((p:ℤ) - (q:ℤ) : ℤ) : ℝ) * π) := by
      have : (((p:ℤ) + (q:ℤ) + 2 : ℤ) : ℝ) * π
        = (((p:ℤ) - (q:ℤ) : ℤ) : ℝ) * π + ((q + 1 : ℕ) : ℝ) * (2 * π) := by push_cast; ring
      rw [this]; exact cos_add_nat_mul_two_pi _ _
    rw [e] at h2
    linarith

end Pot
