import Verif.Proofs.CurveGeom
import Verif.Model.Boundaries
import Mathlib.Analysis.SpecialFunctions.Trigonometric.Bounds

/-! # The five shipped boundaries are flat enough for the grids the program uses -/

namespace Pot
open Real Spec

/-- the scale `h√2` of the shipped square (`AD_len = 2π`) for `N ≥ 16` -/
theorem shipped_scale (N : ℕ) (hN : 16 ≤ N) : 2 * π / N * √2 ≤ 0.556 := by
  have hN' : (16:ℝ) ≤ N := by exact_mod_cast hN
  have h2 : √2 < 1.4143 := by rw [Real.sqrt_lt' (by norm_num)]; norm_num
  have hpi := pi_lt_d4
  have h3 : 2 * π / N ≤ 2 * 3.1416 / 16 := div_le_div₀ (by norm_num) (by linarith) (by norm_num) hN'
  have h4 : 2 * π / N * √2 ≤ 2 * 3.1416 / 16 * 1.4143 := mul_le_mul h3 h2.le (Real.sqrt_nonneg _) (by norm_num)
  refine h4.trans ?_
  norm_num

/-- what is required of a shipped curve: values and bounds in the solver's window -/
structure Tame (r : ℝ → ℝ) : Prop where
  smooth : ContDiff ℝ 2 r
  at_a : r (π / 4) = 2.3
  at_two_pi : r (2 * π) = 2.3
  lo : ∀ t, π / 4 / 2 ≤ t → t ≤ 2 * π + π / 4 / 2 → 1.8 ≤ r t
  hi : ∀ t, π / 4 / 2 ≤ t → t ≤ 2 * π + π / 4 / 2 → r t ≤ 2.8
  d1 : ∀ t, π / 4 / 2 ≤ t → t ≤ 2 * π + π / 4 / 2 → |deriv r t| ≤ 0.29
  d2 : ∀ t, π / 4 / 2 ≤ t → t ≤ 2 * π + π / 4 / 2 → |deriv (deriv r) t| ≤ 0.4
  regular : ∀ t, 0 < r t ^ 2 + deriv r t ^ 2
  max : ∀ t, π / 4 ≤ t → t ≤ 2 * π → r t ≤ 2.45

theorem Tame.gentle {r : ℝ → ℝ} (h : Tame r) : Gentle (π / 4) 2.3 0.556 1.8 2.8 0.29 0.4 0.33 0.27 r := by
  have hpi := pi_gt_d4
  have hpi2 := pi_lt_d4
  have s33 := sin_gt_sub_cube (x := 0.33) (by norm_num)
  have s27 := sin_gt_sub_cube (x := 0.27) (by norm_num)
  have hcos : ∀ ψ, 0 ≤ ψ → ψ ≤ π / 7 → (9:ℝ) / 10 ≤ cos ψ := fun ψ h1 h2 =>
    cos_pi_div_seven.trans (cos_le_cos_of_nonneg_of_le_pi h1 (by linarith) h2)
  refine ⟨h.smooth, h.at_a, h.at_two_pi, h.lo, h.hi, h.d1, h.d2, by linarith, by linarith, by norm_num, by norm_num, by norm_num,
    by linarith, by linarith, by norm_num at s33 ⊢; linarith, by norm_num, by linarith, by norm_num, by norm_num at s27 ⊢; linarith,
    ?_, ?_, ?_⟩
  · intro u v c h1 h2 h3 h4 h5 h6
    norm_num at h3 h4
    have j1 : 1.8 * 0.9 ≤ u * c := mul_le_mul h1 (by norm_num at h5 ⊢; exact h5) (by norm_num) (by linarith)
    have j2 : 1 - c ^ 2 ≤ 0.19 := by nlinarith
    have j3 : 0 ≤ 1 - c ^ 2 := by nlinarith
    have j4 : v * (1 - c ^ 2) ≤ 839 / 250 * 0.19 := mul_le_mul h4 j2 j3 (by norm_num)
    have k1 : 0.98 ≤ u * c - v * (1 - c ^ 2) := by norm_num at j1 j4 ⊢; linarith
    have k2 : 1.21 ≤ v * (u * c - v * (1 - c ^ 2)) := by nlinarith
    rcases abs_cases (u - v * c) with ⟨e, -⟩ | ⟨e, -⟩ <;> rw [e] <;> nlinarith
  · intro u v ψ h1 h2 h3 h4 h5 h6
    rw [min_eq_left (by linarith)] at h5
    norm_num at h3 h4
    have hc := hcos ψ (by linarith) h6
    have hc1 := cos_le_one ψ
    have hs : 0.38 ≤ sin ψ := by
      have e1 : sin (π / 4 / 2) ≤ sin ψ := sin_le_sin_of_le_of_le_pi_div_two (by linarith) (by linarith) h5
      have e3 : (0.38:ℝ) < sin (π / 4 / 2) := by
        rw [show π / 4 / 2 = π / 8 by ring, Real.sin_pi_div_eight]
        have h2 : √2 < 1.4143 := by
          rw [Real.sqrt_lt' (by norm_num)]; norm_num
        rw [lt_div_iff₀ (by norm_num)]
        apply Real.lt_sqrt_of_sq_lt
        linarith
      linarith
    have k1 : 2.2 ≤ v * u := by nlinarith
    have k2 : 0.83 ≤ v * u * sin ψ := by nlinarith
    rcases abs_cases (u - v * cos ψ) with ⟨e, -⟩ | ⟨e, -⟩ <;> rw [e] <;> nlinarith
  · intro u v ψ h1 h2 h3 h4 h5 h6
    norm_num at h3 h4
    have h5' : 0.122 ≤ ψ := by norm_num at h5; linarith
    have hc := hcos ψ (by linarith) h6
    have hc1 := cos_le_one ψ
    have hs : 0.121 ≤ sin ψ := by
      have e1 : sin 0.122 ≤ sin ψ := sin_le_sin_of_le_of_le_pi_div_two (by linarith) (by linarith) h5'
      have e2 := sin_gt_sub_cube (x := 0.122) (by norm_num)
      norm_num at e1 e2 ⊢
      linarith
    have k1 : v * u * 0.121 ≤ v * u * sin ψ := mul_le_mul_of_nonneg_left hs (by nlinarith)
    refine le_trans ?_ k1
    have g1 : (0:ℝ) ≤ (u - 1.8) * (v - 1.648) := mul_nonneg (by linarith) (by norm_num at h3 ⊢; linarith)
    have g2 : v * 0.9 ≤ v * cos ψ := mul_le_mul_of_nonneg_left (by norm_num at hc ⊢; exact hc) (by linarith)
    have g3 : v * cos ψ ≤ v := mul_le_of_le_one_right (by linarith) hc1
    rcases abs_cases (u - v * cos ψ) with ⟨e, -⟩ | ⟨e, -⟩ <;> rw [e] <;> nlinarith

/-- a sinusoidal perturbation of the circle of radius 2.3 -/
theorem tame_sine {A w : ℝ} (hA : |A| ≤ 0.5) (h1 : |A * w| ≤ 0.29) (h2 : |A * w ^ 2| ≤ 0.4)
    (hend : sin (w * (2 * π - π / 4)) = 0)
    (hmax : ∀ t, π / 4 ≤ t → t ≤ 2 * π → 2.3 + A * sin (w * (t - π / 4)) ≤ 2.45) :
    Tame fun t => 2.3 + A * sin (w * (t - π / 4)) := by
  have d0 : ∀ t, HasDerivAt (fun t => 2.3 + A * sin (w * (t - π / 4))) (A * w * cos (w * (t - π / 4))) t := by
    intro t
    have := ((((hasDerivAt_id' t).sub_const (π / 4)).const_mul w).sin.const_mul A).const_add 2.3
    refine this.congr_deriv ?_
    ring
  have e1 : deriv (fun t => 2.3 + A * sin (w * (t - π / 4))) = fun t => A * w * cos (w * (t - π / 4)) :=
    funext fun t => (d0 t).deriv
  have d1 : ∀ t, HasDerivAt (fun t => A * w * cos (w * (t - π / 4))) (-(A * w ^ 2 * sin (w * (t - π / 4)))) t := by
    intro t
    have := (((hasDerivAt_id' t).sub_const (π / 4)).const_mul w).cos.const_mul (A * w)
    refine this.congr_deriv ?_
    ring
  have hb : ∀ t, |A * sin (w * (t - π / 4))| ≤ 0.5 := fun t => by
    rw [abs_mul]
    exact (mul_le_of_le_one_right (abs_nonneg _) (abs_sin_le_one _)).trans hA
  have hlo : ∀ t, (1.8:ℝ) ≤ 2.3 + A * sin (w * (t - π / 4)) := fun t => by
    have := (abs_le.1 (hb t)).1
    norm_num at this ⊢
    linarith
  refine ⟨by fun_prop, by simp, by simp [hend], fun t _ _ => hlo t, fun t _ _ => ?_, fun t _ _ => ?_, fun t _ _ => ?_,
    fun t => regular_of_pos (r := fun t => 2.3 + A * sin (w * (t - π / 4))) ?_, hmax⟩
  · have := (abs_le.1 (hb t)).2
    norm_num at this ⊢
    linarith
  · rw [e1]
    simp only
    rw [abs_mul]
    exact (mul_le_of_le_one_right (abs_nonneg _) (abs_cos_le_one _)).trans h1
  · rw [e1, (d1 t).deriv, abs_neg, abs_mul]
    exact (mul_le_of_le_one_right (abs_nonneg _) (abs_sin_le_one _)).trans h2
  · have := hlo t
    norm_num at this ⊢
    linarith

theorem bNu_shipped : bNu (π / 4) = 4 / 7 := by
  have := pi_ne_zero
  unfold bNu
  rw [show 2 * π - π / 4 = 7 / 4 * π by ring]
  field_simp

theorem tame_arc : Tame (arcR 2.3) := by
  have := tame_sine (A := 0) (w := 0) (by norm_num) (by norm_num) (by norm_num) (by simp) (fun _ _ _ => by norm_num)
  have e : (fun t => 2.3 + 0 * sin (0 * (t - π / 4))) = arcR 2.3 := by funext t; simp [arcR]
  rw [← e]
  exact this

theorem tame_outerSine : Tame (outerSineR 2.3 0.15 (π / 4)) := by
  unfold outerSineR
  rw [bNu_shipped]
  refine tame_sine (by norm_num [abs_of_pos]) (by norm_num [abs_of_pos]) (by norm_num [abs_of_pos]) ?_ fun t _ _ => ?_
  · rw [show 4 / 7 * (2 * π - π / 4) = π by ring]; exact sin_pi
  · have := sin_le_one (4 / 7 * (t - π / 4))
    norm_num at this ⊢
    linarith

theorem tame_innerSine : Tame (innerSineR 2.3 0.5 (π / 4)) := by
  have e : innerSineR 2.3 0.5 (π / 4) = fun t => 2.3 + (-0.5) * sin (4 / 7 * (t - π / 4)) := by
    unfold innerSineR
    rw [bNu_shipped]
    funext t
    ring
  rw [e]
  refine tame_sine (by norm_num [abs_of_pos]) (by norm_num [abs_of_neg]) (by norm_num [abs_of_neg]) ?_ fun t h1 h2 => ?_
  · rw [show 4 / 7 * (2 * π - π / 4) = π by ring]; exact sin_pi
  · have := sin_nonneg_of_nonneg_of_le_pi (x := 4 / 7 * (t - π / 4)) (by linarith) (by linarith)
    norm_num at this ⊢
    linarith

theorem tame_sine7 : Tame (sine7R 2.3 0.025 (π / 4)) := by
  unfold sine7R
  rw [bNu_shipped]
  refine tame_sine (by norm_num [abs_of_pos]) (by norm_num [abs_of_pos]) (by norm_num [abs_of_pos]) ?_ fun t _ _ => ?_
  · rw [show 7 * (4 / 7) * (2 * π - π / 4) = (7 : ℕ) * π by push_cast; ring]; exact sin_nat_mul_pi 7
  · have := sin_le_one (7 * (4 / 7) * (t - π / 4))
    norm_num at this ⊢
    linarith

theorem tame_cubic : Tame (cubicR 2.3 0.075 (π / 4)) := by
  have hpi := pi_gt_d4
  have hpi2 := pi_lt_d4
  have hC := cubicC_pos
  obtain ⟨K, hK⟩ : ∃ K, K = 0.075 / cubicC * π ^ 3 := ⟨_, rfl⟩
  have hK0 : 0 ≤ K := by rw [hK]; positivity
  have hK1 : K ≤ 0.3 := by
    rw [hK, div_mul_eq_mul_div, div_le_iff₀ hC]
    unfold cubicC
    have h91 : (9.53:ℝ) < √91 := by
      rw [Real.lt_sqrt (by norm_num)]; norm_num
    have : (0:ℝ) < π ^ 3 := by positivity
    nlinarith
  have e0 : cubicR 2.3 0.075 (π / 4) = fun t => 2.3 + K * ((t / π - 1 / 4) * (t / π - 1) * (t / π - 2)) := by
    unfold cubicR
    rw [hK]
    funext t
    have := pi_ne_zero
    field_simp
  have d0 : ∀ t, HasDerivAt (fun t => 2.3 + K * ((t / π - 1 / 4) * (t / π - 1) * (t / π - 2)))
      (K / π * (3 * (t / π) ^ 2 - 13 / 2 * (t / π) + 11 / 4)) t := by
    intro t
    have hx := (hasDerivAt_id' t).div_const π
    refine ((((hx.sub_const (1 / 4)).fun_mul (hx.sub_const 1)).fun_mul (hx.sub_const 2)).const_mul K).const_add 2.3
      |>.congr_deriv ?_
    ring
  have e1 : deriv (fun t => 2.3 + K * ((t / π - 1 / 4) * (t / π - 1) * (t / π - 2))) =
      fun t => K / π * (3 * (t / π) ^ 2 - 13 / 2 * (t / π) + 11 / 4) := funext fun t => (d0 t).deriv
  have d1 : ∀ t, HasDerivAt (fun t => K / π * (3 * (t / π) ^ 2 - 13 / 2 * (t / π) + 11 / 4))
      (K / π / π * (6 * (t / π) - 13 / 2)) t := by
    intro t
    have hx := (hasDerivAt_id' t).div_const π
    refine ((((hx.fun_pow 2).const_mul 3).fun_sub (hx.const_mul (13 / 2))).add_const (11 / 4)).const_mul (K / π)
      |>.congr_deriv ?_
    push_cast
    ring
  have hKπ : K / π ≤ 0.1 := by
    rw [div_le_iff₀ pi_pos]; linarith
  have hKπ0 : 0 ≤ K / π := by positivity
  have hKππ : K / π / π ≤ 0.04 := by
    rw [div_le_iff₀ pi_pos]; linarith
  have hKππ0 : 0 ≤ K / π / π := by positivity
  have hq : ∀ x : ℝ, 1 / 8 ≤ x → x ≤ 17 / 8 → |(x - 1 / 4) * (x - 1) * (x - 2)| ≤ 1 / 2 := by
    intro x h1 h2
    rw [abs_le]
    constructor
    · nlinarith [mul_nonneg (sub_nonneg.2 h1) (sub_nonneg.2 h2), mul_nonneg (sub_nonneg.2 h1) (sq_nonneg (x - 1.59))]
    · nlinarith [mul_nonneg (sub_nonneg.2 h1) (sub_nonneg.2 h2), mul_nonneg (sub_nonneg.2 h2) (sq_nonneg (x - 0.57))]
  have hval : ∀ x : ℝ, 1 / 8 ≤ x → x ≤ 17 / 8 → |K * ((x - 1 / 4) * (x - 1) * (x - 2))| ≤ 0.15 := by
    intro x h1 h2
    rw [abs_mul, abs_of_nonneg hK0]
    refine (mul_le_mul hK1 (hq x h1 h2) (abs_nonneg _) (by norm_num)).trans (by norm_num)
  have hx1 : ∀ t, π / 4 / 2 ≤ t → 1 / 8 ≤ t / π := fun t h => by rw [le_div_iff₀ pi_pos]; linarith
  have hx2 : ∀ t, t ≤ 2 * π + π / 4 / 2 → t / π ≤ 17 / 8 := fun t h => by rw [div_le_iff₀ pi_pos]; linarith
  rw [e0]
  refine ⟨by fun_prop, ?_, ?_, fun t h1 h2 => ?_, fun t h1 h2 => ?_, fun t h1 h2 => ?_, fun t h1 h2 => ?_, fun t => ?_,
    fun t h1 h2 => ?_⟩
  · have : π / 4 / π - 1 / 4 = 0 := by have := pi_ne_zero; field_simp; ring
    simp only [this]; simp
  · have : 2 * π / π - 2 = 0 := by have := pi_ne_zero; field_simp; ring
    simp only [this]; simp
  · have := (abs_le.1 (hval _ (hx1 t h1) (hx2 t h2))).1
    norm_num at this ⊢
    linarith
  · have := (abs_le.1 (hval _ (hx1 t h1) (hx2 t h2))).2
    norm_num at this ⊢
    linarith
  · rw [e1]
    simp only
    rw [abs_mul, abs_of_nonneg hKπ0]
    have : |3 * (t / π) ^ 2 - 13 / 2 * (t / π) + 11 / 4| ≤ 2.5 := by
      have g1 := hx1 t h1
      have g2 := hx2 t h2
      rw [abs_le]
      constructor <;> nlinarith [mul_nonneg (sub_nonneg.2 g1) (sub_nonneg.2 g2), sq_nonneg (t / π - 13 / 12)]
    refine (mul_le_mul hKπ this (abs_nonneg _) (by norm_num)).trans (by norm_num)
  · rw [e1, (d1 t).deriv, abs_mul, abs_of_nonneg hKππ0]
    have : |6 * (t / π) - 13 / 2| ≤ 6.25 := by
      have g1 := hx1 t h1
      have g2 := hx2 t h2
      rw [abs_le]
      constructor <;> norm_num <;> linarith
    refine (mul_le_mul hKππ this (abs_nonneg _) (by norm_num)).trans (by norm_num)
  · by_cases hd : deriv (fun t => 2.3 + K * ((t / π - 1 / 4) * (t / π - 1) * (t / π - 2))) t = 0
    · rw [hd]
      rw [e1] at hd
      simp only at hd
      have hKp : 0 < K / π := by rw [hK]; positivity
      have hz : 3 * (t / π) ^ 2 - 13 / 2 * (t / π) + 11 / 4 = 0 := by
        rcases mul_eq_zero.1 hd with h | h
        · exact absurd h hKp.ne'
        · exact h
      have := (abs_le.1 (hval (t / π) (by nlinarith) (by nlinarith))).1
      have : (0:ℝ) < 2.3 + K * ((t / π - 1 / 4) * (t / π - 1) * (t / π - 2)) := by
        norm_num at this ⊢
        linarith
      positivity
    · have := sq_nonneg (2.3 + K * ((t / π - 1 / 4) * (t / π - 1) * (t / π - 2)))
      have h2 := pow_pos (abs_pos.2 hd) 2
      rw [sq_abs] at h2
      linarith
  · have := (abs_le.1 (hval _ (hx1 t (by linarith)) (hx2 t (by linarith)))).2
    norm_num at this ⊢
    linarith

/-- every boundary of the table, with the shipped radius and angle -/
theorem tame_table {p : String × (ℝ → ℝ)} (h : p ∈ boundaryTable probR probA) : Tame p.2 := by
  unfold boundaryTable probR probA at h
  rw [show (23 / 10 : ℝ) = 2.3 by norm_num] at h
  simp only [bet0, List.mem_cons, List.not_mem_nil, or_false] at h
  rcases h with rfl | rfl | rfl | rfl | rfl
  · exact tame_arc
  · exact tame_outerSine
  · exact tame_innerSine
  · exact tame_sine7
  · exact tame_cubic

end Pot
