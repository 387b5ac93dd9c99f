import Verif.Props.Corner

/-! # How much the extension formulas amplify an error in the data -/

namespace Pot
open Spec Finset Real

/-- the product of a bounded factor and a bounded term -/
theorem norm_mul_le_mul {c x : ℂ} {C e : ℝ} (hc : ‖c‖ ≤ C) (hx : ‖x‖ ≤ e) : ‖c * x‖ ≤ C * e := by
  rw [norm_mul]
  exact mul_le_mul hc hx (norm_nonneg _) ((norm_nonneg _).trans hc)

theorem norm_sub_le' {x y : ℂ} {a b : ℝ} (hx : ‖x‖ ≤ a) (hy : ‖y‖ ≤ b) : ‖x - y‖ ≤ a + b :=
  (norm_sub_le _ _).trans (add_le_add hx hy)

theorem norm_add_le' {x y : ℂ} {a b : ℝ} (hx : ‖x‖ ≤ a) (hy : ‖y‖ ≤ b) : ‖x + y‖ ≤ a + b :=
  (norm_add_le _ _).trans (add_le_add hx hy)

/-- a monomial in the coefficients is bounded by a power of their common bound -/
theorem coef_bound {n : ℝ} (hn : |n| ≤ 1) {c : ℂ} {C : ℝ} (hc : ‖c‖ ≤ C) (j : ℕ) : ‖c * (n : ℂ) ^ j‖ ≤ C := by
  rw [norm_mul, norm_pow, Complex.norm_real, Real.norm_eq_abs]
  calc ‖c‖ * |n| ^ j ≤ C * 1 := by
        refine mul_le_mul hc (pow_le_one₀ (abs_nonneg _) hn) (by positivity) ((norm_nonneg _).trans hc)
    _ = C := mul_one C

/-- `extend_arbitrary` on data whose `m`-th derivatives are at most `e / |n|^m` -/
theorem extendArbitrary_bound {k K e : ℝ} {x : ArcArgs} (hK : 1 ≤ K) (hn : |x.n| ≤ 1) (hk : |k| ≤ K) (hc : |x.curv| ≤ K)
    (hc1 : |x.dCurvS| ≤ K) (hc2 : |x.d2CurvS| ≤ K) (h00 : ‖x.xi0‖ ≤ e) (h01 : ‖x.xi1‖ ≤ e) (h10 : |x.n| * ‖x.dXi0‖ ≤ e)
    (h11 : |x.n| * ‖x.dXi1‖ ≤ e) (h20 : |x.n| ^ 2 * ‖x.d2Xi0‖ ≤ e) (h21 : |x.n| ^ 2 * ‖x.d2Xi1‖ ≤ e)
    (h40 : |x.n| ^ 4 * ‖x.d4Xi0‖ ≤ e) : ‖extendArbitrary k x‖ ≤ 7 * K ^ 4 * e := by
  obtain ⟨n, κ, κ1, κ2, xi0, xi1, dXi0, dXi1, d2Xi0, d2Xi1, d4Xi0⟩ := x
  simp only at *
  have he : 0 ≤ e := (norm_nonneg _).trans h00
  have nk : ‖(k : ℂ)‖ ≤ K := by rwa [Complex.norm_real]
  have nc : ‖(κ : ℂ)‖ ≤ K := by rwa [Complex.norm_real]
  have nc1 : ‖(κ1 : ℂ)‖ ≤ K := by rwa [Complex.norm_real]
  have nc2 : ‖(κ2 : ℂ)‖ ≤ K := by rwa [Complex.norm_real]
  have sc : ∀ (j : ℕ) (z : ℂ), |n| ^ j * ‖z‖ ≤ e → ‖(n : ℂ) ^ j * z‖ ≤ e := by
    intro j z hz
    rwa [norm_mul, norm_pow, Complex.norm_real]
  have y1 := sc 1 dXi0 (by rwa [pow_one])
  have z1 := sc 1 dXi1 (by rwa [pow_one])
  have y2 := sc 2 d2Xi0 h20
  have z2 := sc 2 d2Xi1 h21
  have y4 := sc 4 d4Xi0 h40
  have K2 : K ≤ K ^ 2 := by nlinarith
  have K3 : K ^ 2 ≤ K ^ 3 := by nlinarith [sq_nonneg K]
  have K4 : K ^ 3 ≤ K ^ 4 := by nlinarith [pow_pos (by linarith : 0 < K) 3]
  have k2 : ‖(k : ℂ) ^ 2‖ ≤ K ^ 2 := by rw [norm_pow]; exact pow_le_pow_left₀ (norm_nonneg _) nk 2
  have c2 : ‖(κ : ℂ) ^ 2‖ ≤ K ^ 2 := by rw [norm_pow]; exact pow_le_pow_left₀ (norm_nonneg _) nc 2
  have c3 : ‖(κ : ℂ) ^ 3‖ ≤ K ^ 3 := by rw [norm_pow]; exact pow_le_pow_left₀ (norm_nonneg _) nc 3
  have cc1 : ‖(κ : ℂ) * κ1‖ ≤ K ^ 2 := by rw [pow_two]; exact norm_mul_le_mul nc nc1
  set d2 : ℂ := -(k : ℂ) ^ 2 * xi0 + κ * xi1 - d2Xi0 with hd2
  have D2 : ‖(n : ℂ) ^ 2 * d2‖ ≤ 3 * K ^ 2 * e := by
    have e1 : (n : ℂ) ^ 2 * d2 = -((k : ℂ) ^ 2 * (n : ℂ) ^ 2 * xi0) + κ * (n : ℂ) ^ 2 * xi1 - (n : ℂ) ^ 2 * d2Xi0 := by
      rw [hd2]; ring
    rw [e1]
    have := norm_sub_le' (norm_add_le' (a := K ^ 2 * e) (x := -((k : ℂ) ^ 2 * (n : ℂ) ^ 2 * xi0))
      (by rw [norm_neg]; exact norm_mul_le_mul (coef_bound hn k2 2) h00)
      (norm_mul_le_mul (coef_bound hn nc 2) h01)) y2
    have b1 := mul_le_mul_of_nonneg_right K2 he
    have b3 := mul_le_mul_of_nonneg_right hK he
    linarith
  set d3 : ℂ := ((κ : ℂ) ^ 2 - (k : ℂ) ^ 2) * xi1 + κ * d2 - κ1 * dXi0 - 2 * κ * d2Xi0 - d2Xi1 with hd3
  have t2 : ∀ {c : ℂ} {C : ℝ} (a : ℝ), 0 ≤ a → ‖c‖ ≤ C → ‖(a : ℂ) * c‖ ≤ a * C := by
    intro c C a ha hc
    refine norm_mul_le_mul (by rw [Complex.norm_real, Real.norm_eq_abs, abs_of_nonneg ha]) hc
  have D3 : ‖(n : ℂ) ^ 3 * d3‖ ≤ 9 * K ^ 3 * e := by
    have e1 : (n : ℂ) ^ 3 * d3 = ((κ : ℂ) ^ 2 - (k : ℂ) ^ 2) * (n : ℂ) ^ 3 * xi1 + κ * (n : ℂ) ^ 1 * ((n : ℂ) ^ 2 * d2) -
        κ1 * (n : ℂ) ^ 2 * ((n : ℂ) ^ 1 * dXi0) - (2 : ℝ) * κ * (n : ℂ) ^ 1 * ((n : ℂ) ^ 2 * d2Xi0) -
        1 * (n : ℂ) ^ 1 * ((n : ℂ) ^ 2 * d2Xi1) := by
      rw [hd3]; push_cast; ring
    rw [e1]
    have := norm_sub_le' (norm_sub_le' (norm_sub_le' (norm_add_le'
      (norm_mul_le_mul (coef_bound hn (norm_sub_le' c2 k2) 3) h01)
      (norm_mul_le_mul (coef_bound hn nc 1) D2))
      (norm_mul_le_mul (coef_bound hn nc1 2) y1))
      (norm_mul_le_mul (coef_bound hn (t2 2 (by norm_num) nc) 1) y2))
      (norm_mul_le_mul (coef_bound (c := 1) hn (le_of_eq norm_one) 1) z2)
    refine this.trans ?_
    have b1 := mul_le_mul_of_nonneg_right K2 he
    have b2 := mul_le_mul_of_nonneg_right K3 he
    have b3 := mul_le_mul_of_nonneg_right hK he
    linarith
  set d4 : ℂ := 2 * (κ : ℂ) ^ 3 * xi1 + (2 * (κ : ℂ) ^ 2 - (k : ℂ) ^ 2) * d2 + κ * d3 - 6 * κ * κ1 * dXi0 -
    6 * (κ : ℂ) ^ 2 * d2Xi0 - 2 * κ1 * dXi1 - 4 * κ * d2Xi1 -
    (κ2 * xi1 - (k : ℂ) ^ 2 * d2Xi0 - d4Xi0 + 2 * κ1 * dXi1 + κ * d2Xi1) with hd4
  have D4 : ‖(n : ℂ) ^ 4 * d4‖ ≤ 44 * K ^ 4 * e := by
    have e1 : (n : ℂ) ^ 4 * d4 = (2 : ℝ) * (κ : ℂ) ^ 3 * (n : ℂ) ^ 4 * xi1 +
        ((2 : ℝ) * (κ : ℂ) ^ 2 - (k : ℂ) ^ 2) * (n : ℂ) ^ 2 * ((n : ℂ) ^ 2 * d2) + κ * (n : ℂ) ^ 1 * ((n : ℂ) ^ 3 * d3) -
        (6 : ℝ) * ((κ : ℂ) * κ1) * (n : ℂ) ^ 3 * ((n : ℂ) ^ 1 * dXi0) -
        (6 : ℝ) * (κ : ℂ) ^ 2 * (n : ℂ) ^ 2 * ((n : ℂ) ^ 2 * d2Xi0) -
        (4 : ℝ) * κ1 * (n : ℂ) ^ 3 * ((n : ℂ) ^ 1 * dXi1) - (5 : ℝ) * κ * (n : ℂ) ^ 2 * ((n : ℂ) ^ 2 * d2Xi1) -
        κ2 * (n : ℂ) ^ 4 * xi1 + (k : ℂ) ^ 2 * (n : ℂ) ^ 2 * ((n : ℂ) ^ 2 * d2Xi0) + (n : ℂ) ^ 4 * d4Xi0 := by
      rw [hd4]; push_cast; ring
    rw [e1]
    have := norm_add_le' (norm_add_le' (norm_sub_le' (norm_sub_le' (norm_sub_le' (norm_sub_le' (norm_sub_le' (norm_add_le'
      (norm_add_le'
      (norm_mul_le_mul (coef_bound hn (t2 2 (by norm_num) c3) 4) h01)
      (norm_mul_le_mul (coef_bound hn (norm_sub_le' (t2 2 (by norm_num) c2) k2) 2) D2))
      (norm_mul_le_mul (coef_bound hn nc 1) D3))
      (norm_mul_le_mul (coef_bound hn (t2 6 (by norm_num) cc1) 3) y1))
      (norm_mul_le_mul (coef_bound hn (t2 6 (by norm_num) c2) 2) y2))
      (norm_mul_le_mul (coef_bound hn (t2 4 (by norm_num) nc1) 3) z1))
      (norm_mul_le_mul (coef_bound hn (t2 5 (by norm_num) nc) 2) z2))
      (norm_mul_le_mul (coef_bound hn nc2 4) h01))
      (norm_mul_le_mul (coef_bound hn k2 2) y2)) y4
    refine this.trans ?_
    have q1 : (2 * K ^ 2 + K ^ 2) * (3 * K ^ 2 * e) = 9 * (K ^ 4 * e) := by ring
    have q2 : K * (9 * K ^ 3 * e) = 9 * (K ^ 4 * e) := by ring
    rw [q1, q2]
    have b1 := mul_le_mul_of_nonneg_right K2 he
    have b2 := mul_le_mul_of_nonneg_right K3 he
    have b3 := mul_le_mul_of_nonneg_right hK he
    have b4 := mul_le_mul_of_nonneg_right K4 he
    linarith
  have e1 : extendArbitrary k ⟨n, κ, κ1, κ2, xi0, xi1, dXi0, dXi1, d2Xi0, d2Xi1, d4Xi0⟩ =
      xi0 + 1 * (n : ℂ) ^ 1 * xi1 + ((1 / 2 : ℝ) : ℂ) * ((n : ℂ) ^ 2 * d2) + ((1 / 6 : ℝ) : ℂ) * ((n : ℂ) ^ 3 * d3) +
        ((1 / 24 : ℝ) : ℂ) * ((n : ℂ) ^ 4 * d4) := by
    simp only [extendArbitrary, arcDerivs, taylorSum5, hd4, hd3, hd2]
    push_cast
    ring
  rw [e1]
  have := norm_add_le' (norm_add_le' (norm_add_le' (norm_add_le' h00
    (norm_mul_le_mul (coef_bound (c := 1) hn (le_of_eq norm_one) 1) h01))
    (t2 (1 / 2) (by norm_num) D2)) (t2 (1 / 6) (by norm_num) D3)) (t2 (1 / 24) (by norm_num) D4)
  refine this.trans ?_
  have b1 := mul_le_mul_of_nonneg_right K2 he
  have b2 := mul_le_mul_of_nonneg_right K3 he
  have b3 := mul_le_mul_of_nonneg_right hK he
  have b4 := mul_le_mul_of_nonneg_right K4 he
  linarith

/-- an error in the tabulated data that is `e / |n|^m` in the `m`-th derivative -/
def Weighted (n e : ℝ) (x : Tab) : Prop := ∀ m ≤ 4, ∀ i, |n| ^ m * ‖x (m, i)‖ ≤ e

/-- on a straight side -/
theorem extendRadius_bound {k K e n : ℝ} {x : Tab} (hK : 1 ≤ K) (hn : |n| ≤ 1) (hk : |k| ≤ K) (hx : Weighted n e x) :
    ‖extendArbitrary k (radiusArgs n x)‖ ≤ 7 * K ^ 4 * e := by
  have h0 : |(0:ℝ)| ≤ K := by rw [abs_zero]; linarith
  refine extendArbitrary_bound hK hn hk h0 h0 h0 ?_ ?_ ?_ ?_ (hx 2 (by norm_num) 0) (hx 2 (by norm_num) 1)
    (hx 4 (by norm_num) 0)
  · show ‖x (0, 0)‖ ≤ e
    simpa using hx 0 (by norm_num) 0
  · show ‖x (0, 1)‖ ≤ e
    simpa using hx 0 (by norm_num) 1
  · show |n| * ‖x (1, 0)‖ ≤ e
    simpa using hx 1 (by norm_num) 0
  · show |n| * ‖x (1, 1)‖ ≤ e
    simpa using hx 1 (by norm_num) 1

/-- a bound for everything the polar extension reads off the curve -/
structure CurveBound (r : ℝ → ℝ) (K th : ℝ) : Prop where
  c : |curvTh r th| ≤ K
  c1 : |dCurvTh r th| ≤ K
  c2 : |d2CurvTh r th| ≤ K
  s1 : |dThs r th| ≤ K
  s2 : |d2Ths r th| ≤ K
  s3 : |d3Ths r th| ≤ K
  s4 : |d4Ths r th| ≤ K

/-- on the outer boundary -/
theorem extendPolar_bound {k K e n th : ℝ} {r : ℝ → ℝ} {x : Tab} (hK : 1 ≤ K) (hn : |n| ≤ 1) (hk : |k| ≤ K)
    (hr : CurveBound r K th) (hx : Weighted n e x) :
    ‖extendPolar k (outerArgs r n th x)‖ ≤ 7 * (2 * K ^ 3) ^ 4 * (15 * K ^ 4 * e) := by
  have he : 0 ≤ e := le_trans (by positivity) (hx 0 (by norm_num) 0)
  have hK0 : 0 < K := by linarith
  have K2 : K ≤ K ^ 2 := by nlinarith
  have K3 : K ^ 2 ≤ K ^ 3 := by nlinarith [sq_nonneg K]
  have K4 : K ^ 3 ≤ K ^ 4 := by nlinarith [pow_pos (by linarith : 0 < K) 3]
  have b1 := mul_le_mul_of_nonneg_right K2 he
  have b2 := mul_le_mul_of_nonneg_right K3 he
  have b3 := mul_le_mul_of_nonneg_right hK he
  have b4 := mul_le_mul_of_nonneg_right K4 he
  have hn0 := abs_nonneg n
  have a1 := abs_nonneg (dThs r th)
  have cast : ∀ c : ℝ, |c| ≤ K → ‖(c : ℂ)‖ ≤ K := fun c hc => by rwa [Complex.norm_real]
  have s1 := cast _ hr.s1
  have s2 := cast _ hr.s2
  have s3 := cast _ hr.s3
  have s4 := cast _ hr.s4
  have s12 : ‖(dThs r th : ℂ) ^ 2‖ ≤ K ^ 2 := by rw [norm_pow]; exact pow_le_pow_left₀ (norm_nonneg _) s1 2
  have s14 : ‖(dThs r th : ℂ) ^ 4‖ ≤ K ^ 4 := by rw [norm_pow]; exact pow_le_pow_left₀ (norm_nonneg _) s1 4
  have s22 : ‖(d2Ths r th : ℂ) ^ 2‖ ≤ K ^ 2 := by rw [norm_pow]; exact pow_le_pow_left₀ (norm_nonneg _) s2 2
  have s122 : ‖(dThs r th : ℂ) ^ 2 * d2Ths r th‖ ≤ K ^ 3 := by
    rw [pow_succ K 2]; exact norm_mul_le_mul s12 s2
  have s13 : ‖(dThs r th : ℂ) * d3Ths r th‖ ≤ K ^ 2 := by rw [pow_two]; exact norm_mul_le_mul s1 s3
  have nn : ∀ j : ℕ, ‖(n : ℂ) ^ j‖ = |n| ^ j := fun j => by rw [norm_pow, Complex.norm_real, Real.norm_eq_abs]
  have hw : ∀ m ≤ 4, ∀ i, ‖(n : ℂ) ^ m * x (m, i)‖ ≤ e := fun m hm i => by rw [norm_mul, nn]; exact hx m hm i
  have t2 : ∀ {c : ℂ} {C : ℝ} (a : ℝ), 0 ≤ a → ‖c‖ ≤ C → ‖(a : ℂ) * c‖ ≤ a * C := by
    intro c C a ha hc
    refine norm_mul_le_mul (by rw [Complex.norm_real, Real.norm_eq_abs, abs_of_nonneg ha]) hc
  have d2 : ∀ i, |n| ^ 2 * ‖x (2, i) * (dThs r th : ℂ) ^ 2 + x (1, i) * d2Ths r th‖ ≤ 15 * K ^ 4 * e := by
    intro i
    have e1 : (n : ℂ) ^ 2 * (x (2, i) * (dThs r th : ℂ) ^ 2 + x (1, i) * d2Ths r th) =
        (dThs r th : ℂ) ^ 2 * ((n : ℂ) ^ 2 * x (2, i)) + d2Ths r th * (n : ℂ) ^ 1 * ((n : ℂ) ^ 1 * x (1, i)) := by ring
    rw [← nn, ← norm_mul, e1]
    refine (norm_add_le' (norm_mul_le_mul s12 (hw 2 (by norm_num) i))
      (norm_mul_le_mul (coef_bound hn s2 1) (hw 1 (by norm_num) i))).trans ?_
    nlinarith
  have d1 : ∀ i, |n| * ‖x (1, i) * (dThs r th : ℂ)‖ ≤ 15 * K ^ 4 * e := by
    intro i
    rw [norm_mul, ← mul_assoc]
    have := mul_le_mul (by simpa using hx 1 (by norm_num) i : |n| * ‖x (1, i)‖ ≤ e) s1 (norm_nonneg _) he
    nlinarith
  refine extendArbitrary_bound (x := polarToArc (outerArgs r n th x)) (by nlinarith) hn (by nlinarith) ?_ ?_ ?_ ?_ ?_ (d1 0) (d1 1) (d2 0) (d2 1) ?_
  · exact hr.c.trans (by nlinarith)
  · show |dCurvTh r th * dThs r th| ≤ _
    rw [abs_mul]
    have := mul_le_mul hr.c1 hr.s1 (abs_nonneg _) hK0.le
    nlinarith
  · show |d2CurvTh r th * dThs r th ^ 2 + dCurvTh r th * d2Ths r th| ≤ _
    refine (abs_add_le _ _).trans ?_
    rw [abs_mul, abs_mul, abs_pow]
    have h1 := mul_le_mul hr.c2 (pow_le_pow_left₀ (abs_nonneg _) hr.s1 2) (by positivity) hK0.le
    have h2 := mul_le_mul hr.c1 hr.s2 (abs_nonneg _) hK0.le
    nlinarith
  · show ‖x (0, 0)‖ ≤ _
    have := hx 0 (by norm_num) 0
    simp only [pow_zero, one_mul] at this
    nlinarith
  · show ‖x (0, 1)‖ ≤ _
    have := hx 0 (by norm_num) 1
    simp only [pow_zero, one_mul] at this
    nlinarith
  · show |n| ^ 4 * ‖(dThs r th : ℂ) ^ 4 * x (4, 0) + 6 * (dThs r th : ℂ) ^ 2 * d2Ths r th * x (3, 0) +
      4 * dThs r th * x (2, 0) * d3Ths r th + 3 * (d2Ths r th : ℂ) ^ 2 * x (2, 0) + d4Ths r th * x (1, 0)‖ ≤ _
    have e1 : (n : ℂ) ^ 4 * ((dThs r th : ℂ) ^ 4 * x (4, 0) + 6 * (dThs r th : ℂ) ^ 2 * d2Ths r th * x (3, 0) +
        4 * dThs r th * x (2, 0) * d3Ths r th + 3 * (d2Ths r th : ℂ) ^ 2 * x (2, 0) + d4Ths r th * x (1, 0)) =
        (dThs r th : ℂ) ^ 4 * ((n : ℂ) ^ 4 * x (4, 0)) +
        (6 : ℝ) * ((dThs r th : ℂ) ^ 2 * d2Ths r th) * (n : ℂ) ^ 1 * ((n : ℂ) ^ 3 * x (3, 0)) +
        (4 : ℝ) * ((dThs r th : ℂ) * d3Ths r th) * (n : ℂ) ^ 2 * ((n : ℂ) ^ 2 * x (2, 0)) +
        (3 : ℝ) * (d2Ths r th : ℂ) ^ 2 * (n : ℂ) ^ 2 * ((n : ℂ) ^ 2 * x (2, 0)) +
        d4Ths r th * (n : ℂ) ^ 3 * ((n : ℂ) ^ 1 * x (1, 0)) := by push_cast; ring
    rw [← nn, ← norm_mul, e1]
    refine (norm_add_le' (norm_add_le' (norm_add_le' (norm_add_le'
      (norm_mul_le_mul s14 (hw 4 (by norm_num) 0))
      (norm_mul_le_mul (coef_bound hn (t2 6 (by norm_num) s122) 1) (hw 3 (by norm_num) 0)))
      (norm_mul_le_mul (coef_bound hn (t2 4 (by norm_num) s13) 2) (hw 2 (by norm_num) 0)))
      (norm_mul_le_mul (coef_bound hn (t2 3 (by norm_num) s22) 2) (hw 2 (by norm_num) 0)))
      (norm_mul_le_mul (coef_bound hn s4 3) (hw 1 (by norm_num) 0))).trans ?_
    nlinarith

/-- the Taylor shift of an error -/
theorem shiftTab_bound {x : Tab} {δ ε : ℝ} (hδ : |δ| ≤ 1) (hx : ∀ m ≤ 4, ∀ i, ‖x (m, i)‖ ≤ ε) {m : ℕ} (hm : m ≤ 4)
    (i : Fin 2) : ‖shiftTab x δ (m, i)‖ ≤ 5 * ε := by
  have he : 0 ≤ ε := (norm_nonneg _).trans (hx 0 (by norm_num) 0)
  unfold shiftTab taylorNTerms
  refine (norm_sum_le _ _).trans ?_
  calc ∑ j ∈ range (5 - m), ‖x (m + j, i) * ((δ ^ j / (j.factorial : ℝ) : ℝ) : ℂ)‖ ≤ ∑ _j ∈ range (5 - m), ε := by
        refine sum_le_sum fun j hj => ?_
        have hj := mem_range.1 hj
        rw [norm_mul, Complex.norm_real, Real.norm_eq_abs, abs_div, abs_pow, Nat.abs_cast]
        have h1 : |δ| ^ j / (j.factorial : ℝ) ≤ 1 := by
          rw [div_le_one (by positivity)]
          exact (pow_le_one₀ (abs_nonneg _) hδ).trans (by exact_mod_cast Nat.one_le_iff_ne_zero.2 (Nat.factorial_ne_zero j))
        calc _ ≤ ε * 1 := mul_le_mul (hx _ (by omega) i) h1 (by positivity) he
          _ = ε := mul_one ε
    _ = (5 - m : ℕ) * ε := by rw [sum_const, card_range, nsmul_eq_mul]
    _ ≤ 5 * ε := by
        refine mul_le_mul_of_nonneg_right ?_ he
        exact_mod_cast (by omega : 5 - m ≤ 5)

/-- the error of the data of a corner node, before the extension formula: the table `x` at the end of the segment is within `ε` of
the derivatives of `X`, the displacement and the distance are at most `d` -/
theorem corner_weighted {x : Tab} {X : Fin 2 → ℕ → ℝ → ℂ} {arg0 arg n d ε M : ℝ} (hd : d ≤ 1) (hn : |n| ≤ d)
    (hδ : |arg - arg0| ≤ d) (hx : ∀ m ≤ 4, ∀ i, ‖x (m, i) - X i m arg0‖ ≤ ε) (hX : ∀ i, DerivFam 5 Set.univ (X i))
    (hM : ∀ i t, |t - arg0| ≤ d → ‖X i 5 t‖ ≤ M) :
    Weighted n (5 * ε + M * d ^ 5) (shiftTab x (arg - arg0) - fun t : ℕ × Fin 2 => X t.2 t.1 arg) := by
  have hd0 : 0 ≤ d := (abs_nonneg _).trans hn
  have he : 0 ≤ ε := (norm_nonneg _).trans (hx 0 (by norm_num) 0)
  have hM0 : 0 ≤ M := (norm_nonneg _).trans (hM 0 arg0 (by simpa using hd0))
  intro m hm i
  have h1 := shiftTab_bound (x := x - fun t : ℕ × Fin 2 => X t.2 t.1 arg0) (δ := arg - arg0) (ε := ε) (hδ.trans hd)
    (fun m hm i => hx m hm i) hm i
  have h2 := C32_accuracy (x := fun t : ℕ × Fin 2 => X t.2 t.1 arg0) (X := X i) (arg := arg0) (δ := arg - arg0) (M := M) (i := i)
    (fun _ _ => rfl) (fun l hl t _ _ => hX i l hl _ (Set.mem_univ _)) (fun t ht _ => hM i _ (by
      rw [add_sub_cancel_left]; exact ht.trans hδ)) hm
  rw [show arg0 + (arg - arg0) = arg by ring] at h2
  have e1 : (shiftTab x (arg - arg0) - fun t : ℕ × Fin 2 => X t.2 t.1 arg) (m, i) =
      shiftTab (x - fun t : ℕ × Fin 2 => X t.2 t.1 arg0) (arg - arg0) (m, i) -
        (X i m arg - shiftTab (fun t : ℕ × Fin 2 => X t.2 t.1 arg0) (arg - arg0) (m, i)) := by
    have := (shiftTab_lin (arg - arg0)).map_sub x (fun t : ℕ × Fin 2 => X t.2 t.1 arg0)
    rw [this]
    simp only [Pi.sub_apply]
    ring
  rw [e1]
  have hf : M / ((5 - m).factorial : ℝ) * |arg - arg0| ^ (5 - m) ≤ M * d ^ (5 - m) := by
    refine mul_le_mul (div_le_self hM0 ?_) (pow_le_pow_left₀ (abs_nonneg _) hδ _) (by positivity) hM0
    exact_mod_cast Nat.one_le_iff_ne_zero.2 (Nat.factorial_ne_zero _)
  have hp : |n| ^ m ≤ d ^ m := pow_le_pow_left₀ (abs_nonneg _) hn m
  have hp1 : d ^ m ≤ 1 := pow_le_one₀ hd0 hd
  calc _ ≤ |n| ^ m * (5 * ε + M * d ^ (5 - m)) := by
        refine mul_le_mul_of_nonneg_left (norm_sub_le' h1 (h2.trans hf)) (by positivity)
    _ ≤ d ^ m * (5 * ε + M * d ^ (5 - m)) := mul_le_mul_of_nonneg_right hp (by positivity)
    _ = d ^ m * (5 * ε) + M * d ^ 5 := by
        rw [mul_add, show d ^ m * (M * d ^ (5 - m)) = M * (d ^ m * d ^ (5 - m)) by ring, ← pow_add, show m + (5 - m) = 5 by omega]
    _ ≤ 5 * ε + M * d ^ 5 := by nlinarith

/-- the same at a standard node -/
theorem standard_weighted {x y : Tab} {n ε : ℝ} (hn : |n| ≤ 1) (hx : ∀ m ≤ 4, ∀ i, ‖x (m, i) - y (m, i)‖ ≤ ε) :
    Weighted n ε (x - y) := by
  have he : 0 ≤ ε := (norm_nonneg _).trans (hx 0 (by norm_num) 0)
  intro m hm i
  calc |n| ^ m * ‖(x - y) (m, i)‖ ≤ 1 * ε := mul_le_mul (pow_le_one₀ (abs_nonneg _) hn) (hx m hm i) (norm_nonneg _) (by norm_num)
    _ = ε := one_mul ε

theorem Weighted.mono {n e e' : ℝ} {x : Tab} (h : Weighted n e x) (he : e ≤ e') : Weighted n e' x :=
  fun m hm i => (h m hm i).trans he

end Pot
