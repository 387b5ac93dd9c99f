import Verif.Model.Chebyshev
import Mathlib.Analysis.SpecialFunctions.Trigonometric.InverseDeriv
import Mathlib.Analysis.SpecialFunctions.Trigonometric.Chebyshev.RootsExtrema
import Mathlib.Analysis.Calculus.Deriv.Polynomial
import Mathlib.Analysis.SpecialFunctions.Sqrt
import Mathlib.Tactic.FieldSimp
import Mathlib.Tactic.LinearCombination

/-!
# The closed forms of `chebyshev.py` in terms of `s = √(1-t²)`
-/

namespace Pot
open Real

theorem one_sub_sq_pos {t : ℝ} (h : t ∈ Set.Ioo (-1 : ℝ) 1) : 0 < -t ^ 2 + 1 := by
  nlinarith [h.1, h.2]

theorem rpow_half_odd {x : ℝ} (hx : 0 ≤ x) (m : ℕ) {p : ℝ} (hp : p = m / 2) : x ^ p = √x ^ m := by
  rw [hp, sqrt_eq_rpow, ← rpow_natCast, ← rpow_mul hx]
  congr 1; ring

section
variable {J : ℕ} {t : ℝ}

theorem hasDerivAt_cosJ (h : t ∈ Set.Ioo (-1 : ℝ) 1) :
    HasDerivAt (fun t => cos (J * arccos t)) (J * sin (J * arccos t) / √(-t ^ 2 + 1)) t := by
  have h1 := (hasDerivAt_arccos (ne_of_gt h.1) (ne_of_lt h.2)).const_mul (J : ℝ)
  refine HasDerivAt.congr_deriv h1.cos ?_
  rw [show (1 - t ^ 2) = -t ^ 2 + 1 by ring]
  ring

theorem hasDerivAt_sinJ (h : t ∈ Set.Ioo (-1 : ℝ) 1) :
    HasDerivAt (fun t => sin (J * arccos t)) (-(J * cos (J * arccos t) / √(-t ^ 2 + 1))) t := by
  have h1 := (hasDerivAt_arccos (ne_of_gt h.1) (ne_of_lt h.2)).const_mul (J : ℝ)
  refine HasDerivAt.congr_deriv h1.sin ?_
  rw [show (1 - t ^ 2) = -t ^ 2 + 1 by ring]
  ring

theorem hasDerivAt_s (h : t ∈ Set.Ioo (-1 : ℝ) 1) :
    HasDerivAt (fun t : ℝ => √(-t ^ 2 + 1)) (-(t / √(-t ^ 2 + 1))) t := by
  have h1 : HasDerivAt (fun t : ℝ => -t ^ 2 + 1) (-(2 * t)) t := by
    refine HasDerivAt.congr_deriv (((hasDerivAt_id t).fun_pow 2).fun_neg.add_const 1) ?_
    simp
  refine HasDerivAt.congr_deriv (h1.sqrt (one_sub_sq_pos h).ne') ?_
  have := sqrt_pos.2 (one_sub_sq_pos h)
  field_simp

/-- the derivative of `A cos + B sin / s`-type expressions: everything is a rational function of `t`, `s`,
`cos`, `sin` -/
theorem hasDerivAt_comb (h : t ∈ Set.Ioo (-1 : ℝ) 1) (a : ℕ) (p p' : ℝ → ℝ)
    (hp : ∀ t, HasDerivAt p (p' t) t) (g g' : ℝ → ℝ) (hg : HasDerivAt g (g' t) t) :
    HasDerivAt (fun t => p t * g t / √(-t ^ 2 + 1) ^ a)
      (p' t * g t / √(-t ^ 2 + 1) ^ a + p t * g' t / √(-t ^ 2 + 1) ^ a
        + a * t * p t * g t / √(-t ^ 2 + 1) ^ (a + 2)) t := by
  have hs := sqrt_pos.2 (one_sub_sq_pos h)
  refine HasDerivAt.congr_deriv (((hp t).fun_mul hg).fun_div ((hasDerivAt_s h).fun_pow a)
    (pow_pos hs a).ne') ?_
  rcases a with _ | a
  · simp
  · simp only [Nat.add_sub_cancel]
    field_simp
    ring

end

/-- value of the `n`-th formula in terms of `C = cos(Jθ)`, `S = sin(Jθ)`, `s = √(1-t²)` -/
noncomputable def chebF (n J : ℕ) (t : ℝ) : ℝ :=
  let C := cos (J * arccos t)
  let S := sin (J * arccos t)
  let s := √(-t ^ 2 + 1)
  match n with
  | 0 => C
  | 1 => J * S / s
  | 2 => -(J : ℝ) ^ 2 * C / s ^ 2 + J * t * S / s ^ 3
  | 3 => (J - (J : ℝ) ^ 3) * S / s ^ 3 + (-3 * (J : ℝ) ^ 2 * t) * C / s ^ 4 + 3 * J * t ^ 2 * S / s ^ 5
  | 4 => ((J : ℝ) ^ 4 - 4 * (J : ℝ) ^ 2) * C / s ^ 4 + (9 * J * t - 6 * (J : ℝ) ^ 3 * t) * S / s ^ 5
        + (-15 * (J : ℝ) ^ 2 * t ^ 2) * C / s ^ 6 + 15 * J * t ^ 3 * S / s ^ 7
  | 5 => ((J : ℝ) ^ 5 - 10 * (J : ℝ) ^ 3 + 9 * J) * S / s ^ 5
        + (10 * (J : ℝ) ^ 4 * t - 55 * (J : ℝ) ^ 2 * t) * C / s ^ 6
        + (90 * J * t ^ 2 - 45 * (J : ℝ) ^ 3 * t ^ 2) * S / s ^ 7
        + (-105 * (J : ℝ) ^ 2 * t ^ 3) * C / s ^ 8 + 105 * J * t ^ 4 * S / s ^ 9
  | _ => 0

theorem hasDerivAt_lin (c : ℝ) (t : ℝ) : HasDerivAt (fun t : ℝ => c * t) c t := by
  simpa using (hasDerivAt_id t).const_mul c

theorem hasDerivAt_monoC (c : ℝ) (m : ℕ) (t : ℝ) :
    HasDerivAt (fun t : ℝ => c * t ^ m) (c * (m * t ^ (m - 1))) t := by
  simpa using ((hasDerivAt_id t).fun_pow m).const_mul c

theorem chebF_zero (J : ℕ) {t : ℝ} (h : t ∈ Set.Ioo (-1 : ℝ) 1) :
    HasDerivAt (chebF 0 J) (chebF 1 J t) t := hasDerivAt_cosJ h

theorem chebF_one (J : ℕ) {t : ℝ} (h : t ∈ Set.Ioo (-1 : ℝ) 1) :
    HasDerivAt (chebF 1 J) (chebF 2 J t) t := by
  have hs := sqrt_pos.2 (one_sub_sq_pos h)
  have := hasDerivAt_comb h 1 (fun _ => (J : ℝ)) (fun _ => 0) (fun t => hasDerivAt_const t _) _
    (fun t => -(J * cos (J * arccos t) / √(-t ^ 2 + 1))) (hasDerivAt_sinJ (J := J) h)
  simp only [pow_one] at this
  refine HasDerivAt.congr_deriv this ?_
  simp only [chebF]
  field_simp
  push_cast
  ring

theorem chebF_two (J : ℕ) {t : ℝ} (h : t ∈ Set.Ioo (-1 : ℝ) 1) :
    HasDerivAt (chebF 2 J) (chebF 3 J t) t := by
  have hs := sqrt_pos.2 (one_sub_sq_pos h)
  have h2 := sq_sqrt (one_sub_sq_pos h).le
  have hC := hasDerivAt_cosJ (J := J) h
  have hS := hasDerivAt_sinJ (J := J) h
  have e1 := hasDerivAt_comb h 2 (fun _ => -(J : ℝ) ^ 2) (fun _ => 0) (fun t => hasDerivAt_const t _) _
    (fun t => J * sin (J * arccos t) / √(-t ^ 2 + 1)) hC
  have e2 := hasDerivAt_comb h 3 (fun t => (J : ℝ) * t) (fun _ => J) (hasDerivAt_lin _) _
    (fun t => -(J * cos (J * arccos t) / √(-t ^ 2 + 1))) hS
  refine HasDerivAt.congr_deriv (e1.fun_add e2) ?_
  simp only [chebF]
  field_simp
  push_cast
  ring

theorem chebF_three (J : ℕ) {t : ℝ} (h : t ∈ Set.Ioo (-1 : ℝ) 1) :
    HasDerivAt (chebF 3 J) (chebF 4 J t) t := by
  have hs := sqrt_pos.2 (one_sub_sq_pos h)
  have hC := hasDerivAt_cosJ (J := J) h
  have hS := hasDerivAt_sinJ (J := J) h
  have e1 := hasDerivAt_comb h 3 (fun _ => (J : ℝ) - (J : ℝ) ^ 3) (fun _ => 0)
    (fun t => hasDerivAt_const t _) _ (fun t => -(J * cos (J * arccos t) / √(-t ^ 2 + 1))) hS
  have e2 := hasDerivAt_comb h 4 (fun t => -3 * (J : ℝ) ^ 2 * t) _ (hasDerivAt_lin _) _
    (fun t => J * sin (J * arccos t) / √(-t ^ 2 + 1)) hC
  have e3 := hasDerivAt_comb h 5 (fun t => 3 * (J : ℝ) * t ^ 2) _ (hasDerivAt_monoC _ 2) _
    (fun t => -(J * cos (J * arccos t) / √(-t ^ 2 + 1))) hS
  refine HasDerivAt.congr_deriv ((e1.fun_add e2).fun_add e3) ?_
  simp only [chebF]
  field_simp
  push_cast
  ring

theorem chebF_four (J : ℕ) {t : ℝ} (h : t ∈ Set.Ioo (-1 : ℝ) 1) :
    HasDerivAt (chebF 4 J) (chebF 5 J t) t := by
  have hs := sqrt_pos.2 (one_sub_sq_pos h)
  have hC := hasDerivAt_cosJ (J := J) h
  have hS := hasDerivAt_sinJ (J := J) h
  have e1 := hasDerivAt_comb h 4 (fun _ => (J : ℝ) ^ 4 - 4 * (J : ℝ) ^ 2) (fun _ => 0)
    (fun t => hasDerivAt_const t _) _ (fun t => J * sin (J * arccos t) / √(-t ^ 2 + 1)) hC
  have e2 := hasDerivAt_comb h 5 (fun t => 9 * (J : ℝ) * t - 6 * (J : ℝ) ^ 3 * t) _
    (fun t => (hasDerivAt_lin _ t).fun_sub (hasDerivAt_lin _ t)) _
    (fun t => -(J * cos (J * arccos t) / √(-t ^ 2 + 1))) hS
  have e3 := hasDerivAt_comb h 6 (fun t => -15 * (J : ℝ) ^ 2 * t ^ 2) _ (hasDerivAt_monoC _ 2) _
    (fun t => J * sin (J * arccos t) / √(-t ^ 2 + 1)) hC
  have e4 := hasDerivAt_comb h 7 (fun t => 15 * (J : ℝ) * t ^ 3) _ (hasDerivAt_monoC _ 3) _
    (fun t => -(J * cos (J * arccos t) / √(-t ^ 2 + 1))) hS
  refine HasDerivAt.congr_deriv (((e1.fun_add e2).fun_add e3).fun_add e4) ?_
  simp only [chebF]
  field_simp
  push_cast
  ring

/-- the code's formulas are these expressions -/
theorem evalDnT_eq (J : ℕ) {t : ℝ} (h : t ∈ Set.Ioo (-1 : ℝ) 1) (n : ℕ) (hn : n ≤ 5) :
    evalDnT n J t = .ok (chebF n J t) := by
  have hx := one_sub_sq_pos h
  have hs := sqrt_pos.2 hx
  have h2 := sq_sqrt hx.le
  have e : t ^ 2 - 1 = -√(-t ^ 2 + 1) ^ 2 := by rw [h2]; ring
  have r3 := rpow_half_odd hx.le 3 (p := 3 / 2) (by norm_num)
  have r5 := rpow_half_odd hx.le 5 (p := 5 / 2) (by norm_num)
  have r7 := rpow_half_odd hx.le 7 (p := 7 / 2) (by norm_num)
  have r9 := rpow_half_odd hx.le 9 (p := 9 / 2) (by norm_num)
  interval_cases n
  · rfl
  · rfl
  · simp only [evalDnT, evalD2T, chebF, pure_eq_ok, r3, e]
    generalize √(-t ^ 2 + 1) = s at *
    congr 1; field_simp
  · simp only [evalDnT, evalD3T, chebF, pure_eq_ok, r3, r5, e]
    generalize √(-t ^ 2 + 1) = s at *
    congr 1; field_simp; ring
  · simp only [evalDnT, evalD4T, chebF, pure_eq_ok, r3, r5, r7, e]
    generalize √(-t ^ 2 + 1) = s at *
    congr 1; field_simp; ring
  · simp only [evalDnT, evalD5T, chebF, pure_eq_ok, r5, r7, r9, e]
    generalize √(-t ^ 2 + 1) = s at *
    congr 1; field_simp; ring

theorem chebF_succ (J : ℕ) {t : ℝ} (h : t ∈ Set.Ioo (-1 : ℝ) 1) (n : ℕ) (hn : n < 5) :
    HasDerivAt (chebF n J) (chebF (n + 1) J t) t := by
  interval_cases n
  · exact chebF_zero J h
  · exact chebF_one J h
  · exact chebF_two J h
  · exact chebF_three J h
  · exact chebF_four J h

open Polynomial in
/-- the closed forms are the derivatives of the Chebyshev polynomial -/
theorem chebF_eq (J : ℕ) (n : ℕ) (hn : n ≤ 5) :
    ∀ t ∈ Set.Ioo (-1 : ℝ) 1, chebF n J t = (derivative^[n] (Chebyshev.T ℝ J)).eval t := by
  induction n with
  | zero =>
    intro t h
    show cos (J * arccos t) = (Chebyshev.T ℝ J).eval t
    conv_rhs => rw [← cos_arccos h.1.le h.2.le]
    rw [Chebyshev.T_real_cos]
    norm_cast
  | succ n ih =>
    intro t h
    have h1 := chebF_succ J h n (by omega)
    have h2 := (derivative^[n] (Chebyshev.T ℝ J)).hasDerivAt t
    have h3 : HasDerivAt (chebF n J) ((derivative^[n] (Chebyshev.T ℝ J)).derivative.eval t) t := by
      refine h2.congr_of_eventuallyEq ?_
      filter_upwards [isOpen_Ioo.mem_nhds h] with x hx using ih (by omega) x hx
    rw [Function.iterate_succ_apply']
    exact h1.unique h3

end Pot
