import Verif.Model.SolverCoord
import Verif.Spec.Plane
import Mathlib.Tactic.Linarith
import Mathlib.Tactic.Ring
import Mathlib.Tactic.FieldSimp
import Mathlib.Tactic.LinearCombination

namespace Pot
open Real Spec

theorem hypot_eq_norm (x y : ℝ) : hypot x y = ‖(⟨x, y⟩ : ℂ)‖ := by
  rw [hypot, Complex.norm_def, Complex.normSq_mk]; congr 1; ring

theorem hypot_nonneg (x y : ℝ) : 0 ≤ hypot x y := Real.sqrt_nonneg _

theorem hypot_mul_cos (x y : ℝ) : hypot x y * cos (atan2 y x) = x := by
  rw [hypot_eq_norm, atan2]; exact Complex.norm_mul_cos_arg _

theorem hypot_mul_sin (x y : ℝ) : hypot x y * sin (atan2 y x) = y := by
  rw [hypot_eq_norm, atan2]; exact Complex.norm_mul_sin_arg _

theorem cartToPolar_fst (x y : ℝ) : (cartToPolar x y).1 = hypot x y := by
  unfold cartToPolar; simp only; split <;> rfl

theorem cartToPolar_range (x y : ℝ) : 0 < (cartToPolar x y).2 ∧ (cartToPolar x y).2 ≤ 2 * π := by
  have h : atan2 y x ∈ Set.Ioc (-π) π := Complex.arg_mem_Ioc ⟨x, y⟩
  have := h.1; have := h.2; have := pi_pos
  unfold cartToPolar; simp only
  by_cases h0 : atan2 y x ≤ 0
  · rw [if_pos h0]; constructor <;> dsimp only <;> linarith
  · rw [if_neg h0]; constructor <;> dsimp only <;> linarith

theorem cartToPolar_point (x y : ℝ) :
    polarPoint (cartToPolar x y).1 (cartToPolar x y).2 = (x, y) := by
  unfold cartToPolar polarPoint; simp only; split_ifs
  · simp only [cos_add_two_pi, sin_add_two_pi, hypot_mul_cos, hypot_mul_sin]
  · simp only [hypot_mul_cos, hypot_mul_sin]

theorem hypot_polar {r : ℝ} (hr : 0 ≤ r) (t : ℝ) : hypot (r * cos t) (r * sin t) = r := by
  unfold hypot
  rw [show (r * cos t) ^ 2 + (r * sin t) ^ 2 = r ^ 2 by
    linear_combination r ^ 2 * (sin_sq_add_cos_sq t)]
  exact Real.sqrt_sq hr

theorem atan2_polar {r : ℝ} (hr : 0 < r) {t : ℝ} (h1 : -π < t) (h2 : t ≤ π) :
    atan2 (r * sin t) (r * cos t) = t := by
  unfold atan2
  have := Complex.arg_mul_cos_add_sin_mul_I hr ⟨h1, h2⟩
  convert this using 2
  apply Complex.ext <;>
    simp [Complex.cos_ofReal_re, Complex.sin_ofReal_re, Complex.cos_ofReal_im, Complex.sin_ofReal_im]

theorem cartToPolar_polar {r : ℝ} (hr : 0 < r) {t : ℝ} (h1 : 0 < t) (h2 : t ≤ 2 * π) :
    cartToPolar (r * cos t) (r * sin t) = (r, t) := by
  unfold cartToPolar
  simp only [hypot_polar hr.le]
  rcases le_or_gt t π with h | h
  · rw [atan2_polar hr (by linarith [pi_pos]) h, if_neg (by linarith)]
  · have e : atan2 (r * sin t) (r * cos t) = t - 2 * π := by
      have := atan2_polar hr (t := t - 2 * π) (by linarith) (by linarith)
      rwa [cos_sub_two_pi, sin_sub_two_pi] at this
    rw [e, if_pos (by linarith)]; simp

theorem cartToPolar_zero : cartToPolar 0 0 = (0, 2 * π) := by
  have h : atan2 0 0 = 0 := by
    unfold atan2
    have : (⟨0, 0⟩ : ℂ) = 0 := rfl
    rw [this]; simp
  unfold cartToPolar
  simp [h, hypot]

theorem getPolar_eq (AD : ℝ) (N : ℕ) (a i j : ℝ) :
    getPolar AD N a i j =
      (let p := cartToPolar (getCoord AD N i j).1 (getCoord AD N i j).2
       if p.2 < a / 2 then (p.1, p.2 + 2 * π) else p) := rfl

theorem getPolar_of_cart {AD : ℝ} {N : ℕ} {a i j x y r t : ℝ} (hc : getCoord AD N i j = (x, y))
    (h : cartToPolar x y = (r, t)) :
    getPolar AD N a i j = if t < a / 2 then (r, t + 2 * π) else (r, t) := by
  rw [getPolar_eq]
  simp only [hc, h]

end Pot
