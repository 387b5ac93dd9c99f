import Verif.Proofs.RoundedWedge
import Verif.Model.RoundedGrid

/-! # Evaluating rounded expressions -/

namespace Pot
open Real Spec

/-- a double of size at least `2^(52-k)` is a multiple of `2^-k` -/
theorem double_multiple {y : ℝ} (hy : IsDouble y) (k : ℤ) (h : (2 : ℝ) ^ (52 - k) ≤ |y|) : ∃ n : ℤ, y = n * (2 : ℝ) ^ (-k) := by
  obtain ⟨m, e, hm, -, -, rfl⟩ := hy
  have hm' : |(m : ℝ)| < 2 ^ (53 : ℤ) := by
    rw [← Int.cast_abs]; exact_mod_cast hm
  have he : -k ≤ e := by
    by_contra hc
    have h1 : |(m : ℝ) * 2 ^ e| < 2 ^ (52 - k) := by
      rw [abs_mul, abs_of_pos (by positivity : (0 : ℝ) < 2 ^ e)]
      calc |(m : ℝ)| * 2 ^ e < 2 ^ (53 : ℤ) * 2 ^ e := mul_lt_mul_of_pos_right hm' (by positivity)
        _ = 2 ^ (53 + e) := (zpow_add₀ two_ne_zero _ _).symm
        _ ≤ 2 ^ (52 - k) := zpow_le_zpow_right₀ (by norm_num) (by omega)
    exact absurd h (not_le.2 h1)
  obtain ⟨t, ht⟩ : ∃ t : ℕ, e = t + -k := ⟨(e + k).toNat, by omega⟩
  exact ⟨m * 2 ^ t, by rw [ht, zpow_add₀ two_ne_zero, zpow_natCast]; push_cast; ring⟩

section
variable {rnd : ℝ → ℝ} (h : RoundsToNearest rnd)
include h

theorem rnd_eq_aux {x v : ℝ} (M : ℤ) (k : ℕ) (hv : v = M / 2 ^ k) (hM : 2 ^ 52 ≤ M) (hM2 : M < 2 ^ 53) (hk : k ≤ 100)
    (hx : |x - v| < 1 / 2 ^ (k + 1)) (hy : ∀ y, |y - x| ≤ |v - x| → (2 : ℝ) ^ (52 - (k : ℤ)) ≤ |y|) : rnd x = v := by
  have hMr : (2 : ℝ) ^ 52 ≤ M := by exact_mod_cast hM
  have hM2r : (M : ℝ) < 2 ^ 53 := by exact_mod_cast hM2
  have hkp : (0 : ℝ) < 2 ^ k := by positivity
  have hk1 : (1 : ℝ) ≤ 2 ^ k := one_le_pow₀ (by norm_num)
  have e1 : (2 : ℝ) ^ (-(k : ℤ)) = 1 / 2 ^ k := by rw [zpow_neg, zpow_natCast, one_div]
  have e2 : (1 : ℝ) / 2 ^ (k + 1) = 1 / 2 ^ k / 2 := by rw [pow_succ]; field_simp
  have hdv : IsDouble v := ⟨M, -k, by rw [abs_of_pos (by omega)]; exact hM2, by omega, by omega, by rw [hv, e1]; ring⟩
  have hvb : |v| ≤ 2 ^ 53 := by
    rw [hv, abs_of_pos (by positivity), div_le_iff₀ hkp]; nlinarith
  have hxb : |x| ≤ 2 ^ 1000 := by
    have h1 : |x| ≤ |x - v| + |v| := by have := abs_add_le (x - v) v; rwa [sub_add_cancel] at this
    have h2 : (1 : ℝ) / 2 ^ (k + 1) ≤ 1 := by rw [div_le_one (by positivity)]; exact one_le_pow₀ (by norm_num)
    exact le_big (c := 2 ^ 54) (by norm_num at *; linarith) (by norm_num)
  obtain ⟨d1, d2⟩ := h x hxb
  have d3 := d2 v hdv
  obtain ⟨n, hn⟩ := double_multiple d1 k (hy _ d3)
  rw [e1] at hn
  have hlt : |rnd x - v| < 1 / 2 ^ k := by
    have : |rnd x - v| ≤ |rnd x - x| + |x - v| := abs_sub_le _ _ _
    rw [abs_sub_comm v x] at d3
    rw [e2] at hx
    linarith
  have hnM : rnd x - v = ((n - M : ℤ) : ℝ) * (1 / 2 ^ k) := by rw [hn, hv]; push_cast; ring
  rw [hnM, abs_mul, abs_of_pos (by positivity : (0 : ℝ) < 1 / 2 ^ k)] at hlt
  have hone : |((n - M : ℤ) : ℝ)| < 1 := by
    by_contra hc
    have := mul_le_mul_of_nonneg_right (not_lt.1 hc) (by positivity : (0 : ℝ) ≤ 1 / 2 ^ k)
    linarith
  have : n - M = 0 := by rw [← Int.abs_lt_one_iff]; exact_mod_cast hone
  rw [this] at hnM
  push_cast at hnM
  linarith

/-- the value of a rounding: a double, not a power of two, less than half a unit away -/
theorem rnd_eq {x v : ℝ} (M : ℤ) (k : ℕ) (hv : v = M / 2 ^ k) (hM : 2 ^ 52 < M) (hM2 : M < 2 ^ 53) (hk : k ≤ 100)
    (hx : |x - v| < 1 / 2 ^ (k + 1)) : rnd x = v := by
  refine rnd_eq_aux h M k hv hM.le hM2 hk hx fun y hy => ?_
  have hMr : (2 : ℝ) ^ 52 + 1 ≤ M := by exact_mod_cast hM
  have e2 : (1 : ℝ) / 2 ^ (k + 1) = 1 / 2 ^ k / 2 := by rw [pow_succ]; field_simp
  have e3 : (2 : ℝ) ^ (52 - (k : ℤ)) = 2 ^ 52 * (1 / 2 ^ k) := by
    rw [zpow_sub₀ two_ne_zero, zpow_natCast]; norm_num
    rw [div_eq_mul_inv]
  have hkp : (0 : ℝ) < 1 / 2 ^ k := by positivity
  rw [e2] at hx
  rw [abs_sub_comm v x] at hy
  have h1 := (abs_lt.1 hx).2
  have h1' := (abs_lt.1 hx).1
  have h2 := (abs_le.1 hy).1
  have h3 : |x - v| < 1 / 2 ^ k / 2 := hx
  rw [e3]
  refine le_trans ?_ (le_abs_self y)
  have : v = M * (1 / 2 ^ k) := by rw [hv]; ring
  have : (2 ^ 52 + 1) * (1 / 2 ^ k) ≤ v := by rw [this]; exact mul_le_mul_of_nonneg_right hMr hkp.le
  linarith

/-- the same when the exact value is not below the double, which may then be a power of two -/
theorem rnd_eq_up {x v : ℝ} (M : ℤ) (k : ℕ) (hv : v = M / 2 ^ k) (hM : 2 ^ 52 ≤ M) (hM2 : M < 2 ^ 53) (hk : k ≤ 100)
    (hx0 : v ≤ x) (hx : x - v < 1 / 2 ^ (k + 1)) : rnd x = v := by
  refine rnd_eq_aux h M k hv hM hM2 hk (by rw [abs_of_nonneg (by linarith)]; exact hx) fun y hy => ?_
  have hMr : (2 : ℝ) ^ 52 ≤ M := by exact_mod_cast hM
  have e3 : (2 : ℝ) ^ (52 - (k : ℤ)) = 2 ^ 52 * (1 / 2 ^ k) := by
    rw [zpow_sub₀ two_ne_zero, zpow_natCast]; norm_num
    rw [div_eq_mul_inv]
  have hkp : (0 : ℝ) < 1 / 2 ^ k := by positivity
  rw [abs_sub_comm v x, abs_of_nonneg (by linarith : 0 ≤ x - v)] at hy
  have h2 := (abs_le.1 hy).1
  rw [e3]
  refine le_trans ?_ (le_abs_self y)
  have : v = M * (1 / 2 ^ k) := by rw [hv]; ring
  have : 2 ^ 52 * (1 / 2 ^ k) ≤ v := by rw [this]; exact mul_le_mul_of_nonneg_right hMr hkp.le
  linarith

end

section
variable {F : Fl} (h : RoundsToNearest F.rnd)
include h

theorem pi_value : F.pi = 7074237752028440 / 2 ^ 51 := by
  have h1 := pi_gt_d20
  have h2 := pi_lt_d20
  refine rnd_eq h 7074237752028440 51 (by norm_num) (by norm_num) (by norm_num) (by norm_num) ?_
  rw [abs_lt]; norm_num at *; constructor <;> linarith

theorem twoPi_value : F.twoPi = 7074237752028440 / 2 ^ 50 := by
  unfold Fl.twoPi
  rw [pi_value h]
  refine rnd_eq h 7074237752028440 50 (by norm_num) (by norm_num) (by norm_num) (by norm_num) ?_
  rw [abs_lt]; norm_num

theorem AD_value : F.AD = 7074237752028440 / 2 ^ 50 := twoPi_value h

theorem a_value : F.a = 7074237752028440 / 2 ^ 53 := by
  unfold Fl.a
  rw [pi_value h]
  refine rnd_eq h 7074237752028440 53 (by norm_num) (by norm_num) (by norm_num) (by norm_num) ?_
  rw [abs_lt]; norm_num

theorem a_ne_half_pi : F.a ≠ F.rnd (F.pi / 2) := by
  rw [a_value h, pi_value h, rnd_eq h (x := 7074237752028440 / 2 ^ 51 / 2) (v := 7074237752028440 / 2 ^ 52) 7074237752028440 52
    (by norm_num) (by norm_num) (by norm_num) (by norm_num) (by rw [abs_lt]; norm_num)]
  norm_num

theorem sqrt_two_value : F.rnd √2 = 6369051672525773 / 2 ^ 52 := by
  refine rnd_eq h 6369051672525773 52 (by norm_num) (by norm_num) (by norm_num) (by norm_num) ?_
  have h1 : (6369051672525773 / 2 ^ 52 - 1 / 2 ^ 53 : ℝ) < √2 := by
    rw [lt_sqrt (by norm_num)]; norm_num
  have h2 : √2 < (6369051672525773 / 2 ^ 52 + 1 / 2 ^ 53 : ℝ) := by
    rw [sqrt_lt' (by norm_num)]; norm_num
  rw [abs_lt]; constructor <;> linarith

theorem tan_a_bounds : 1 - 1 / 2 ^ 53 < tan F.a ∧ tan F.a < 1 := by
  have h1 := pi_gt_d20
  have h2 := pi_lt_d20
  obtain ⟨δ, hδ⟩ : ∃ δ, δ = π / 4 - F.a := ⟨_, rfl⟩
  have d1 : 0 < δ := by rw [hδ, a_value h]; norm_num at *; linarith
  have d2 : δ < 1 / 2 ^ 54 * 0.6 := by rw [hδ, a_value h]; norm_num at *; linarith
  have ha : F.a = π / 4 - δ := by rw [hδ]; ring
  have s1 : 0 < sin δ := sin_pos_of_pos_of_lt_pi d1 (by norm_num at *; linarith)
  have s2 : sin δ < δ := sin_lt d1
  have c1 : 1 - δ ^ 2 / 2 ≤ cos δ := one_sub_sq_div_two_le_cos
  have c2 : 0.9 ≤ cos δ := by norm_num at *; nlinarith
  have hs2 : 0 < √2 := by positivity
  have e : tan F.a = (cos δ - sin δ) / (cos δ + sin δ) := by
    rw [tan_eq_sin_div_cos, ha, sin_sub, cos_sub, sin_pi_div_four, cos_pi_div_four]
    rw [← mul_sub, ← mul_add, mul_div_mul_left _ _ (by positivity)]
  rw [e]
  constructor
  · rw [lt_div_iff₀ (by linarith)]
    norm_num at *; nlinarith
  · rw [div_lt_one (by linarith)]; linarith

/-- within one unit in the last place, `np.tan(np.pi/4)` is one of two doubles -/
theorem tan_a_cases {tn : ℝ → ℝ} (ht : TanAccurate tn) : tn F.a = 1 - 1 / 2 ^ 53 ∨ tn F.a = 1 := by
  have hp := pi_gt_d20
  have hb : |F.pi / 4| ≤ 2 ^ 1000 := le_big (c := 1) (by rw [pi_value h, abs_of_pos (by norm_num)]; norm_num) (by norm_num)
  obtain ⟨t1, t2⟩ := ht F.a (Rnd.double h hb) (by rw [a_value h]; norm_num) (by rw [a_value h]; norm_num at *; linarith)
  obtain ⟨b1, b2⟩ := tan_a_bounds h
  have t3 := abs_le.1 t2
  set m := tn F.a
  have m1 : 1 - 1 / 2 ^ 52 < m := by norm_num at *; linarith
  have m2 : m < 1 + 1 / 2 ^ 53 := by linarith
  by_cases hm : 1 ≤ m
  · right
    obtain ⟨n, hn⟩ := double_multiple t1 52 (by rw [abs_of_pos (by linarith)]; norm_num; exact hm)
    have e : (2 : ℝ) ^ (-52 : ℤ) = 1 / 2 ^ 52 := by norm_num
    rw [e] at hn
    rw [hn] at m2 hm ⊢
    have n1 : (2 ^ 52 : ℝ) ≤ n := by norm_num at *; linarith
    have n2 : (n : ℝ) < 2 ^ 52 + 1 := by norm_num at *; linarith
    have n3 : (2 ^ 52 : ℤ) ≤ n := by exact_mod_cast n1
    have n4 : n < (2 ^ 52 : ℤ) + 1 := by exact_mod_cast n2
    have : n = 2 ^ 52 := by omega
    rw [this]; norm_num
  · left
    rw [not_le] at hm
    obtain ⟨n, hn⟩ := double_multiple t1 53 (by rw [abs_of_pos (by norm_num at *; linarith)]; norm_num at *; linarith)
    have e : (2 : ℝ) ^ (-53 : ℤ) = 1 / 2 ^ 53 := by norm_num
    rw [e] at hn
    rw [hn] at m1 hm ⊢
    have n1 : (2 ^ 53 - 2 : ℝ) < n := by norm_num at *; linarith
    have n2 : (n : ℝ) < 2 ^ 53 := by norm_num at *; linarith
    have n3 : (2 ^ 53 - 2 : ℤ) < n := by exact_mod_cast n1
    have n4 : n < (2 ^ 53 : ℤ) := by exact_mod_cast n2
    have : n = 2 ^ 53 - 1 := by omega
    rw [this]; norm_num

end
end Pot
