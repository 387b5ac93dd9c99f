import Verif.Proofs.Rounding

/-! # The coordinates of a node in rounded arithmetic -/

namespace Pot
open Real Spec

theorem le_big {x c : ℝ} (h : |x| ≤ c) (hc : c ≤ 2 ^ 100) : |x| ≤ 2 ^ 1000 :=
  h.trans (hc.trans (pow_le_pow_right₀ (by norm_num) (by norm_num)))

theorem small_le {x c : ℝ} (h : c ≤ |x|) (hc : 1 / 2 ^ 100 ≤ c) : 1 / 2 ^ 1000 ≤ |x| :=
  (one_div_le_one_div_of_le (by positivity) (pow_le_pow_right₀ (by norm_num) (by norm_num))).trans (hc.trans h)

theorem small_le' {x c : ℝ} (h : c ≤ |x|) (hc : 1 / 2 ^ 100 ≤ c) : 1 / 2 ^ 400 ≤ |x| :=
  (one_div_le_one_div_of_le (by positivity) (pow_le_pow_right₀ (by norm_num) (by norm_num))).trans (hc.trans h)

theorem le_big' {x c : ℝ} (h : |x| ≤ c) (hc : c ≤ 2 ^ 100) : |x| ≤ 2 ^ 400 :=
  h.trans (hc.trans (pow_le_pow_right₀ (by norm_num) (by norm_num)))

theorem Rnd.rel' {rnd : ℝ → ℝ} (h : RoundsToNearest rnd) {x lo hi : ℝ} (h1 : lo ≤ |x|) (h2 : |x| ≤ hi) (hlo : 1 / 2 ^ 100 ≤ lo)
    (hhi : hi ≤ 2 ^ 100) : |rnd x - x| ≤ 1 / 2 ^ 53 * hi :=
  (Rnd.rel h (.inr ⟨small_le h1 hlo, le_big h2 hhi⟩)).trans (mul_le_mul_of_nonneg_left h2 (by positivity))

variable {F : Fl} (h : RoundsToNearest F.rnd)
include h

theorem pi_err : |F.pi - π| ≤ 1 / 2 ^ 53 * 3.15 :=
  Rnd.rel' h (lo := 3) (by rw [abs_of_pos pi_pos]; linarith [pi_gt_three]) (by rw [abs_of_pos pi_pos]; linarith [pi_lt_d2])
    (by norm_num) (by norm_num)

theorem pi_bounds : 3.1 ≤ F.pi ∧ F.pi ≤ 3.15 := by
  have := abs_le.1 (pi_err h)
  have h1 := pi_gt_d2
  have h2 := pi_lt_d6
  norm_num at *
  constructor <;> linarith

theorem twoPi_err : |F.twoPi - 2 * π| ≤ 1 / 2 ^ 49 := by
  obtain ⟨b1, b2⟩ := pi_bounds h
  have h1 : |F.twoPi - 2 * F.pi| ≤ 1 / 2 ^ 53 * 6.3 :=
    Rnd.rel' h (lo := 1) (by rw [abs_of_pos (by linarith)]; linarith) (by rw [abs_of_pos (by linarith)]; linarith)
      (by norm_num) (by norm_num)
  have h2 := pi_err h
  rw [abs_le] at *
  norm_num at *
  constructor <;> linarith

theorem a_err : |F.a - π / 4| ≤ 1 / 2 ^ 52 := by
  obtain ⟨b1, b2⟩ := pi_bounds h
  have h1 : |F.a - F.pi / 4| ≤ 1 / 2 ^ 53 * 0.79 :=
    Rnd.rel' h (lo := 1 / 2) (by rw [abs_of_pos (by linarith)]; linarith) (by rw [abs_of_pos (by linarith)]; linarith)
      (by norm_num) (by norm_num)
  have h2 := pi_err h
  rw [abs_le] at *
  norm_num at *
  constructor <;> linarith

theorem twoPi_double : IsDouble F.twoPi := by
  obtain ⟨b1, b2⟩ := pi_bounds h
  exact Rnd.double h (le_big (c := 7) (by rw [abs_of_pos (by linarith)]; linarith) (by norm_num))

/-- the coordinate of a node: zero exactly where it should be, otherwise with an absolute error of at most `2⁻⁴⁸` -/
theorem coordF_spec {N : ℕ} (hN : 0 < N) (hN2 : N ≤ 2 ^ 40) {i : ℤ} (h0 : 0 ≤ i) (h1 : i ≤ N) :
    (2 * i = N → coordF F F.AD N i = 0) ∧ |coordF F F.AD N i - 2 * π * (i / N - 1 / 2)| ≤ 1 / 2 ^ 48 ∧
      IsDouble (coordF F F.AD N i) := by
  have hNr : (0 : ℝ) < N := by exact_mod_cast hN
  have hN2r : (N : ℝ) ≤ 2 ^ 40 := by exact_mod_cast hN2
  have h0r : (0 : ℝ) ≤ i := by exact_mod_cast h0
  have h1r : (i : ℝ) ≤ N := by exact_mod_cast h1
  have hAD : |F.AD - 2 * π| ≤ 1 / 2 ^ 49 := twoPi_err h
  have hp1 := pi_gt_d2
  have hp2 := pi_lt_d6
  have hd0 : (0 : ℝ) ≤ i / N := by positivity
  have hd1 : (i : ℝ) / N ≤ 1 := by rw [div_le_one hNr]; exact h1r
  by_cases hz : 2 * i = N
  · have hzr : (i : ℝ) / N = 1 / 2 := by
      have : 2 * (i : ℝ) = N := by exact_mod_cast hz
      rw [← this]; field_simp
      rw [div_self]; intro h'; rw [h'] at this; simp at this; linarith
    have e0 : coordF F F.AD N i = 0 := by
      unfold coordF
      rw [hzr, Rnd.half h, sub_self, Rnd.zero h, mul_zero, Rnd.zero h]
    refine ⟨fun _ => e0, ?_, by rw [e0]; exact isDouble_zero⟩
    rw [e0, hzr]; norm_num
  · refine ⟨fun h' => absurd h' hz, ?_⟩
    -- the exact difference is at least `1 / (2 N)`
    have hgap : 1 / 2 ^ 41 ≤ |(i : ℝ) / N - 1 / 2| := by
      have hne : 2 * i - N ≠ 0 := sub_ne_zero.2 hz
      have hone : (1 : ℝ) ≤ |((2 * i - N : ℤ) : ℝ)| := by exact_mod_cast Int.one_le_abs hne
      have he : (i : ℝ) / N - 1 / 2 = ((2 * i - N : ℤ) : ℝ) / (2 * N) := by push_cast; field_simp
      rw [he, abs_div, abs_of_pos (by positivity : (0:ℝ) < 2 * N), le_div_iff₀ (by positivity)]
      have : 1 / 2 ^ 41 * (2 * (N : ℝ)) ≤ 1 := by linarith
      linarith
    have hq : |F.rnd (i / N) - i / N| ≤ 1 / 2 ^ 53 := by
      rcases h0.eq_or_lt with h0' | h0'
      · rw [← h0']; simp [Rnd.zero h]
      · have : (1 : ℝ) ≤ i := by exact_mod_cast h0'
        have hlo : 1 / 2 ^ 40 ≤ |(i : ℝ) / N| := by
          rw [abs_of_nonneg hd0, div_le_div_iff₀ (by positivity) hNr]; nlinarith
        have := Rnd.rel' h (hi := 1) hlo (by rw [abs_of_nonneg hd0]; exact hd1) (by norm_num) (by norm_num)
        linarith
    set q := F.rnd (i / N) with hqd
    have hqq := abs_le.1 hq
    have hq1 : |q - 1 / 2| ≤ 0.51 := by
      rw [abs_le]; norm_num at hqq ⊢; constructor <;> linarith
    have hq2 : 1 / 2 ^ 42 ≤ |q - 1 / 2| := by
      have : |(i : ℝ) / N - 1 / 2| ≤ |q - i / N| + |q - 1 / 2| := by
        have := abs_sub_le ((i : ℝ) / N) q (1 / 2)
        rw [abs_sub_comm ((i : ℝ) / N) q] at this; exact this
      norm_num at *; linarith
    have hd := Rnd.rel' h hq2 hq1 (by norm_num) (by norm_num)
    set d := F.rnd (q - 1 / 2) with hdd
    have hdd1 := abs_le.1 hd
    have hd3 : |d| ≤ 0.52 := by
      rw [abs_le] at *; norm_num at *; constructor <;> linarith
    have hd4 : 1 / 2 ^ 43 ≤ |d| := by
      have : |q - 1 / 2| ≤ |d - (q - 1 / 2)| + |d| := by
        have := abs_sub_le (q - 1 / 2) d 0
        rw [abs_sub_comm (q - 1 / 2) d, sub_zero, sub_zero] at this; exact this
      norm_num at *; linarith
    have hADb := abs_le.1 hAD
    have hA1 : F.AD ≤ 6.3 := by norm_num at *; linarith
    have hA2 : 6.2 ≤ F.AD := by norm_num at *; linarith
    have hprod1 : |F.AD * d| ≤ 6.3 * 0.52 := by
      rw [abs_mul, abs_of_pos (by linarith : (0:ℝ) < F.AD)]
      exact mul_le_mul hA1 hd3 (abs_nonneg _) (by norm_num)
    have hprod2 : 1 / 2 ^ 43 ≤ |F.AD * d| := by
      rw [abs_mul, abs_of_pos (by linarith : (0:ℝ) < F.AD)]
      have := abs_nonneg d
      nlinarith
    have hx := Rnd.rel' h hprod2 hprod1 (by norm_num) (by norm_num)
    refine ⟨?_, Rnd.double h (le_big hprod1 (by norm_num))⟩
    show |F.rnd (F.AD * d) - _| ≤ _
    have hsplit : F.rnd (F.AD * d) - 2 * π * (i / N - 1 / 2) = (F.rnd (F.AD * d) - F.AD * d) + (F.AD - 2 * π) * d
        + 2 * π * ((d - (q - 1 / 2)) + (q - i / N)) := by ring
    have t1 : |(F.AD - 2 * π) * d| ≤ 1 / 2 ^ 49 * 0.52 := by
      rw [abs_mul]; exact mul_le_mul hAD hd3 (abs_nonneg _) (by positivity)
    have t2 : |2 * π * ((d - (q - 1 / 2)) + (q - i / N))| ≤ 6.3 * (1 / 2 ^ 53 * 0.51 + 1 / 2 ^ 53) := by
      rw [abs_mul, abs_of_pos (by positivity : (0:ℝ) < 2 * π)]
      exact mul_le_mul (by linarith) ((abs_add_le _ _).trans (add_le_add hd hq)) (abs_nonneg _) (by norm_num)
    rw [hsplit]
    refine (abs_add_le _ _).trans ((add_le_add ((abs_add_le _ _).trans (add_le_add hx t1)) t2).trans ?_)
    norm_num

end Pot
