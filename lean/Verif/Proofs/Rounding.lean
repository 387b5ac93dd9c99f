import Verif.Spec.Double
import Verif.Model.Rounded
import Mathlib.Analysis.Real.Pi.Bounds
import Mathlib.Data.Int.Log
import Mathlib.Algebra.Order.Round

/-! # Rounding to nearest: existence, monotonicity, relative error -/

namespace Pot
open Real Spec

theorem isDouble_zero : IsDouble 0 := ⟨0, 0, by norm_num, by norm_num, by norm_num, by norm_num⟩
theorem isDouble_half : IsDouble (1 / 2) := ⟨1, -1, by norm_num, by norm_num, by norm_num, by norm_num⟩

theorem finite_doubles : {x : ℝ | IsDouble x}.Finite := by
  refine (((Set.finite_Icc (-(2 ^ 53) : ℤ) (2 ^ 53)).prod (Set.finite_Icc (-1074 : ℤ) 971)).image
    fun p => (p.1 : ℝ) * (2 : ℝ) ^ p.2).subset ?_
  rintro x ⟨m, e, hm, h1, h2, rfl⟩
  exact ⟨(m, e), ⟨⟨(abs_lt.1 hm).1.le, (abs_lt.1 hm).2.le⟩, h1, h2⟩, rfl⟩

theorem exists_roundsToNearest : ∃ rnd, RoundsToNearest rnd := by
  have : ∀ x : ℝ, ∃ z, IsDouble z ∧ ∀ y, IsDouble y → |z - x| ≤ |y - x| := fun x => by
    obtain ⟨z, hz, hmin⟩ := Set.exists_min_image {x : ℝ | IsDouble x} (fun y => |y - x|) finite_doubles ⟨0, isDouble_zero⟩
    exact ⟨z, hz, hmin⟩
  choose f hf using this
  exact ⟨f, fun x _ => hf x⟩

namespace Rnd
variable {rnd : ℝ → ℝ} (h : RoundsToNearest rnd)
include h

theorem double {x : ℝ} (hx : |x| ≤ 2 ^ 1000) : IsDouble (rnd x) := (h x hx).1

theorem fixed {x : ℝ} (hx : |x| ≤ 2 ^ 1000) (hd : IsDouble x) : rnd x = x := by
  have := (h x hx).2 x hd
  rw [sub_self, abs_zero] at this
  exact sub_eq_zero.1 (abs_nonpos_iff.1 this)

theorem zero : rnd 0 = 0 := fixed h (by norm_num) isDouble_zero
theorem half : rnd (1 / 2) = 1 / 2 := by
  refine fixed h ?_ isDouble_half
  rw [abs_of_pos (by norm_num)]
  exact le_trans (by norm_num : (1:ℝ)/2 ≤ 1) (one_le_pow₀ (by norm_num))

theorem mono {x y : ℝ} (hx : |x| ≤ 2 ^ 1000) (hy : |y| ≤ 2 ^ 1000) (hxy : x ≤ y) : rnd x ≤ rnd y := by
  rcases hxy.eq_or_lt with rfl | hlt
  · rfl
  by_contra hc
  rw [not_le] at hc
  have h1 := (h x hx).2 _ (h y hy).1
  have h2 := (h y hy).2 _ (h x hx).1
  have h3 := sq_le_sq.2 h1
  have h4 := sq_le_sq.2 h2
  nlinarith

/-- relative error of rounding to nearest -/
theorem rel {x : ℝ} (hx : x = 0 ∨ 1 / 2 ^ 1000 ≤ |x| ∧ |x| ≤ 2 ^ 1000) : |rnd x - x| ≤ 1 / 2 ^ 53 * |x| := by
  rcases hx with rfl | ⟨hlo, hhi⟩
  · rw [zero h]; simp
  have hpos : 0 < |x| := lt_of_lt_of_le (by positivity) hlo
  set e := Int.log 2 |x| with he
  have e1 : (2 : ℝ) ^ e ≤ |x| := by exact_mod_cast Int.zpow_log_le_self (b := 2) (by norm_num) hpos
  have e2 : |x| < (2 : ℝ) ^ (e + 1) := by exact_mod_cast Int.lt_zpow_succ_log_self (b := 2) (by norm_num) |x|
  have b1 : -1001 < e := by
    have : (2 : ℝ) ^ (-1000 : ℤ) < 2 ^ (e + 1) := by
      refine lt_of_le_of_lt ?_ e2
      rw [zpow_neg]; rw [one_div] at hlo; exact_mod_cast hlo
    have := (zpow_lt_zpow_iff_right₀ (by norm_num : (1:ℝ) < 2)).1 this
    omega
  have b2 : e ≤ 1000 := by
    have : (2 : ℝ) ^ e ≤ 2 ^ (1000 : ℤ) := e1.trans (by exact_mod_cast hhi)
    exact (zpow_le_zpow_iff_right₀ (by norm_num : (1:ℝ) < 2)).1 this
  set s : ℝ := (2 : ℝ) ^ (e - 52) with hs
  have hs0 : 0 < s := by positivity
  have hse : (2 : ℝ) ^ e = 2 ^ 52 * s := by
    rw [hs, ← zpow_natCast, ← zpow_add₀ (by norm_num)]; congr 1; norm_num
  have hse1 : (2 : ℝ) ^ (e + 1) = 2 ^ 53 * s := by
    rw [hs, ← zpow_natCast, ← zpow_add₀ (by norm_num)]; congr 1; norm_num; ring
  set k : ℤ := round (x / s) with hk
  have hks : |(k : ℝ) * s - x| ≤ s / 2 := by
    have h1 := abs_sub_round (x / s)
    have h2 : (k : ℝ) * s - x = -((x / s - k) * s) := by field_simp; ring
    rw [h2, abs_neg, abs_mul, abs_of_pos hs0]
    nlinarith
  have hdouble : IsDouble (k * s) := by
    have hle : |(k : ℝ)| < 2 ^ 53 + 1 := by
      have h1 : |(k : ℝ) * s| ≤ |x| + s / 2 := by
        calc |(k : ℝ) * s| = |((k : ℝ) * s - x) + x| := by ring_nf
          _ ≤ |(k : ℝ) * s - x| + |x| := abs_add_le _ _
          _ ≤ |x| + s / 2 := by linarith
      rw [abs_mul, abs_of_pos hs0] at h1
      have h2 : |(k : ℝ)| * s < (2 ^ 53 + 1) * s := by nlinarith
      exact lt_of_mul_lt_mul_right h2 hs0.le
    have hle' : |k| < 2 ^ 53 + 1 := by exact_mod_cast hle
    rcases (Int.lt_add_one_iff.1 hle').lt_or_eq with hlt | heq
    · exact ⟨k, e - 52, hlt, by omega, by omega, rfl⟩
    · have hs2 : (2 : ℝ) ^ (e - 51) = 2 * s := by
        rw [hs, show e - 51 = (e - 52) + 1 by ring, zpow_add_one₀ (by norm_num)]; ring
      rcases abs_eq (by norm_num : (0:ℤ) ≤ 2 ^ 53) |>.1 heq with hk2 | hk2
      · exact ⟨2 ^ 52, e - 51, by norm_num, by omega, by omega, by rw [hs2, hk2]; push_cast; ring⟩
      · exact ⟨-2 ^ 52, e - 51, by norm_num, by omega, by omega, by rw [hs2, hk2]; push_cast; ring⟩
  have := (h x hhi).2 _ hdouble
  rw [hse] at e1
  nlinarith

end Rnd
end Pot
