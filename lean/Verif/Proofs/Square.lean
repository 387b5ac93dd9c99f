import Verif.Spec.Square
import Mathlib.Topology.ContinuousMap.Weierstrass
import Mathlib.Analysis.SpecialFunctions.Integrals.Basic
import Mathlib.Analysis.SpecialFunctions.Trigonometric.Inverse
import Mathlib.Analysis.Calculus.ContDiff.Operations
import Mathlib.MeasureTheory.Integral.DominatedConvergence
import Mathlib.MeasureTheory.Integral.Prod

/-! # The resonant wavenumbers of a square

Separation of variables with proof: the sines are complete on an interval (Weierstrass), and Green's identity turns the
equation into one for the double sine coefficients. -/

namespace Pot
open Real MeasureTheory intervalIntegral

/-- orthogonality to all sines passes to sines times powers of the cosine -/
theorem sine_cos_pow {g : ℝ → ℝ} (hg : Continuous g) {s c : ℝ}
    (h : ∀ a : ℕ, ∫ x in (0:ℝ)..s, g x * sin (a * (c * x)) = 0) (n : ℕ) :
    ∀ a : ℕ, ∫ x in (0:ℝ)..s, g x * sin (a * (c * x)) * cos (c * x) ^ n = 0 := by
  induction n with
  | zero => intro a; simpa using h a
  | succ n ih =>
    intro a
    rcases Nat.eq_zero_or_pos a with rfl | ha
    · simp
    · have e : (fun x => g x * sin (a * (c * x)) * cos (c * x) ^ (n + 1)) =
          fun x => (1 / 2) * (g x * sin ((a + 1 : ℕ) * (c * x)) * cos (c * x) ^ n) +
            (1 / 2) * (g x * sin ((a - 1 : ℕ) * (c * x)) * cos (c * x) ^ n) := by
        funext x
        have h1 : sin ((a + 1 : ℕ) * (c * x)) = sin (a * (c * x)) * cos (c * x) + cos (a * (c * x)) * sin (c * x) := by
          rw [← sin_add]; congr 1; push_cast; ring
        have h2 : sin ((a - 1 : ℕ) * (c * x)) = sin (a * (c * x)) * cos (c * x) - cos (a * (c * x)) * sin (c * x) := by
          rw [← sin_sub]; congr 1; rw [Nat.cast_sub ha]; push_cast; ring
        rw [h1, h2, pow_succ]; ring
      rw [e, integral_add (Continuous.intervalIntegrable (by fun_prop) _ _) (Continuous.intervalIntegrable (by fun_prop) _ _),
        intervalIntegral.integral_const_mul, intervalIntegral.integral_const_mul, ih, ih]
      simp

theorem sine_poly {g : ℝ → ℝ} (hg : Continuous g) {s c : ℝ}
    (h : ∀ a : ℕ, ∫ x in (0:ℝ)..s, g x * sin (a * (c * x)) = 0) (p : Polynomial ℝ) :
    ∫ x in (0:ℝ)..s, g x * sin (c * x) * p.eval (cos (c * x)) = 0 := by
  have e : (fun x => g x * sin (c * x) * p.eval (cos (c * x))) =
      fun x => ∑ i ∈ Finset.range (p.natDegree + 1), p.coeff i * (g x * sin ((1 : ℕ) * (c * x)) * cos (c * x) ^ i) := by
    funext x
    rw [Polynomial.eval_eq_sum_range, Finset.mul_sum]
    refine Finset.sum_congr rfl fun i _ => ?_
    rw [Nat.cast_one, one_mul]; ring
  rw [e, intervalIntegral.integral_finsetSum fun i _ => Continuous.intervalIntegrable (by fun_prop) _ _]
  refine Finset.sum_eq_zero fun i _ => ?_
  rw [intervalIntegral.integral_const_mul, sine_cos_pow hg h, mul_zero]

/-- the sines are complete: a continuous function orthogonal to all of them vanishes inside the interval -/
theorem sine_complete {g : ℝ → ℝ} (hg : Continuous g) {s : ℝ} (hs : 0 < s)
    (h : ∀ a : ℕ, ∫ x in (0:ℝ)..s, g x * sin (a * (π / s * x)) = 0) {x : ℝ} (hx : x ∈ Set.Ioo 0 s) : g x = 0 := by
  have hc : 0 < π / s := div_pos pi_pos hs
  have hrange : ∀ y ∈ Set.Icc 0 s, 0 ≤ π / s * y ∧ π / s * y ≤ π := by
    intro y hy
    refine ⟨mul_nonneg hc.le hy.1, ?_⟩
    calc π / s * y ≤ π / s * s := mul_le_mul_of_nonneg_left hy.2 hc.le
      _ = π := div_mul_cancel₀ _ hs.ne'
  have hint : IntervalIntegrable (fun y => |g y|) volume 0 s := hg.abs.intervalIntegrable _ _
  have hM : 0 ≤ ∫ y in (0:ℝ)..s, |g y| := integral_nonneg hs.le fun y _ => abs_nonneg _
  -- the integral of g² sin is smaller than every positive number
  have small : ∀ ε : ℝ, 0 < ε → ∫ y in (0:ℝ)..s, g y ^ 2 * sin (π / s * y) ≤ ε * ∫ y in (0:ℝ)..s, |g y| := by
    intro ε hε
    obtain ⟨p, hp⟩ := exists_polynomial_near_of_continuousOn (-1) 1 (fun t => g (arccos t / (π / s)))
      ((hg.comp (continuous_arccos.div_const _)).continuousOn) ε hε
    have hp' : ∀ y ∈ Set.Icc 0 s, |p.eval (cos (π / s * y)) - g y| < ε := by
      intro y hy
      have := hp (cos (π / s * y)) ⟨neg_one_le_cos _, cos_le_one _⟩
      rwa [arccos_cos (hrange y hy).1 (hrange y hy).2, mul_div_cancel_left₀ _ hc.ne'] at this
    have e : ∫ y in (0:ℝ)..s, g y ^ 2 * sin (π / s * y) =
        ∫ y in (0:ℝ)..s, g y * sin (π / s * y) * (g y - p.eval (cos (π / s * y))) := by
      have h0 := sine_poly hg h p
      have hp2 : Continuous fun y => p.eval (cos (π / s * y)) := p.continuous.comp (by fun_prop)
      have : (fun y => g y * sin (π / s * y) * (g y - p.eval (cos (π / s * y)))) =
          fun y => g y ^ 2 * sin (π / s * y) - g y * sin (π / s * y) * p.eval (cos (π / s * y)) := by
        funext y; ring
      rw [this, intervalIntegral.integral_sub (Continuous.intervalIntegrable (by fun_prop) _ _)
        (Continuous.intervalIntegrable (by fun_prop) _ _), h0, sub_zero]
    rw [e, ← intervalIntegral.integral_const_mul]
    have hp2 : Continuous fun y => p.eval (cos (π / s * y)) := p.continuous.comp (by fun_prop)
    refine integral_mono_on hs.le (Continuous.intervalIntegrable (by fun_prop) _ _) (hint.const_mul _) fun y hy => ?_
    have h1 := (hp' y hy).le
    rw [abs_sub_comm] at h1
    calc g y * sin (π / s * y) * (g y - p.eval (cos (π / s * y)))
        ≤ |g y * sin (π / s * y) * (g y - p.eval (cos (π / s * y)))| := le_abs_self _
      _ = |g y| * |sin (π / s * y)| * |g y - p.eval (cos (π / s * y))| := by rw [abs_mul, abs_mul]
      _ ≤ |g y| * 1 * ε := by
        have := abs_sin_le_one (π / s * y)
        gcongr
      _ = ε * |g y| := by ring
  have hle : ∫ y in (0:ℝ)..s, g y ^ 2 * sin (π / s * y) ≤ 0 := by
    by_contra hpos
    push Not at hpos
    set I := ∫ y in (0:ℝ)..s, g y ^ 2 * sin (π / s * y)
    set M := ∫ y in (0:ℝ)..s, |g y|
    have h1 := small (I / (2 * (M + 1))) (by positivity)
    have h2 : I / (2 * (M + 1)) * M ≤ I / 2 := by
      rw [div_mul_eq_mul_div, div_le_div_iff₀ (by positivity) (by norm_num)]
      nlinarith
    linarith
  by_contra hne
  have hpos : ∫ _y in (0:ℝ)..s, (0:ℝ) < ∫ y in (0:ℝ)..s, g y ^ 2 * sin (π / s * y) := by
    refine integral_lt_integral_of_continuousOn_of_le_of_exists_lt hs continuousOn_const
      (Continuous.continuousOn (by fun_prop)) (fun y hy => ?_) ⟨x, Set.Ioo_subset_Icc_self hx, ?_⟩
    · have := hrange y (Set.Ioc_subset_Icc_self hy)
      exact mul_nonneg (sq_nonneg _) (sin_nonneg_of_nonneg_of_le_pi this.1 this.2)
    · refine mul_pos (by positivity) (sin_pos_of_pos_of_lt_pi (mul_pos hc hx.1) ?_)
      calc π / s * x < π / s * s := mul_lt_mul_of_pos_left hx.2 hc
        _ = π := div_mul_cancel₀ _ hs.ne'
  rw [intervalIntegral.integral_zero] at hpos
  linarith

/-- Green's identity in one variable -/
theorem sine_green {f f1 f2 : ℝ → ℝ} (hf : ∀ x, HasDerivAt f (f1 x) x) (hf1 : ∀ x, HasDerivAt f1 (f2 x) x)
    (hf2 : Continuous f2) {s : ℝ} (hs : 0 < s) (h0 : f 0 = 0) (h1 : f s = 0) (a : ℕ) :
    ∫ x in (0:ℝ)..s, f2 x * sin (a * (π / s * x)) = -(a * π / s) ^ 2 * ∫ x in (0:ℝ)..s, f x * sin (a * (π / s * x)) := by
  have hfc : Continuous f := continuous_iff_continuousAt.2 fun x => (hf x).continuousAt
  have hd : ∀ x ∈ Set.uIcc 0 s, HasDerivAt (fun x => f1 x * sin (a * (π / s * x)) - f x * (a * π / s * cos (a * (π / s * x))))
      (f2 x * sin (a * (π / s * x)) + (a * π / s) ^ 2 * (f x * sin (a * (π / s * x)))) x := by
    intro x _
    have hl : HasDerivAt (fun x : ℝ => (a:ℝ) * (π / s * x)) (a * π / s) x := by
      have := ((hasDerivAt_id x).const_mul (π / s)).const_mul (a:ℝ)
      refine this.congr_deriv ?_
      ring
    have := ((hf1 x).mul hl.sin).sub ((hf x).mul (hl.cos.const_mul (a * π / s)))
    refine this.congr_deriv ?_
    ring
  have key := integral_eq_sub_of_hasDerivAt hd (Continuous.intervalIntegrable (by fun_prop) _ _)
  have e1 : (a:ℝ) * (π / s * s) = a * π := by rw [div_mul_cancel₀ _ hs.ne']
  simp only [e1, h0, h1, sin_nat_mul_pi, mul_zero, zero_mul, sin_zero, sub_zero] at key
  rw [integral_add (Continuous.intervalIntegrable (by fun_prop) _ _) (Continuous.intervalIntegrable (by fun_prop) _ _),
    intervalIntegral.integral_const_mul] at key
  linarith

/-- partial derivatives of a function of two real variables -/
theorem partials_of_contDiff {F : ℝ × ℝ → ℝ} (hF : ContDiff ℝ 2 F) :
    ∃ F1 F11 F2 F22 : ℝ × ℝ → ℝ, Continuous F11 ∧ Continuous F22 ∧
      (∀ x y, HasDerivAt (fun ξ => F (ξ, y)) (F1 (x, y)) x) ∧ (∀ x y, HasDerivAt (fun ξ => F1 (ξ, y)) (F11 (x, y)) x) ∧
      (∀ x y, HasDerivAt (fun η => F (x, η)) (F2 (x, y)) y) ∧ (∀ x y, HasDerivAt (fun η => F2 (x, η)) (F22 (x, y)) y) := by
  have hx : ∀ x y : ℝ, HasDerivAt (fun ξ : ℝ => (ξ, y)) ((1:ℝ), (0:ℝ)) x := fun x y =>
    (hasDerivAt_id x).prodMk (hasDerivAt_const x y)
  have hy : ∀ x y : ℝ, HasDerivAt (fun η : ℝ => (x, η)) ((0:ℝ), (1:ℝ)) y := fun x y =>
    (hasDerivAt_const y x).prodMk (hasDerivAt_id y)
  have step : ∀ (G : ℝ × ℝ → ℝ) (v : ℝ × ℝ) (n : ℕ), ContDiff ℝ (n + 1) G → ContDiff ℝ n fun p => fderiv ℝ G p v :=
    fun G v n hG => (hG.fderiv_right (m := n) le_rfl).clm_apply contDiff_const
  have h2 : ContDiff ℝ ((1:ℕ) + 1) F := by
    refine hF.of_le ?_
    norm_num
  have d1 := step F (1, 0) 1 h2
  have d2 := step F (0, 1) 1 h2
  have e1 := step _ (1, 0) 0 (by simpa using d1)
  have e2 := step _ (0, 1) 0 (by simpa using d2)
  have diff1 : Differentiable ℝ F := hF.differentiable (by norm_num)
  have dd1 := d1.differentiable (by norm_num)
  have dd2 := d2.differentiable (by norm_num)
  exact ⟨fun p => fderiv ℝ F p (1, 0), fun p => fderiv ℝ (fun p => fderiv ℝ F p (1, 0)) p (1, 0),
    fun p => fderiv ℝ F p (0, 1), fun p => fderiv ℝ (fun p => fderiv ℝ F p (0, 1)) p (0, 1), e1.continuous, e2.continuous,
    fun x y => (diff1 (x, y)).hasFDerivAt.comp_hasDerivAt x (hx x y),
    fun x y => HasFDerivAt.comp_hasDerivAt (l := fun p => fderiv ℝ F p (1, 0)) x (dd1 (x, y)).hasFDerivAt (hx x y),
    fun x y => (diff1 (x, y)).hasFDerivAt.comp_hasDerivAt y (hy x y),
    fun x y => HasFDerivAt.comp_hasDerivAt (l := fun p => fderiv ℝ F p (0, 1)) y (dd2 (x, y)).hasFDerivAt (hy x y)⟩

theorem swap_square {F : ℝ × ℝ → ℝ} (hF : Continuous F) (s : ℝ) :
    ∫ x in (0:ℝ)..s, ∫ y in (0:ℝ)..s, F (x, y) = ∫ y in (0:ℝ)..s, ∫ x in (0:ℝ)..s, F (x, y) := by
  refine MeasureTheory.intervalIntegral_intervalIntegral_swap (F := fun x y => F (x, y)) ?_
  have : IntegrableOn F (Set.uIcc 0 s ×ˢ Set.uIcc 0 s) :=
    hF.continuousOn.integrableOn_compact (isCompact_uIcc.prod isCompact_uIcc)
  exact this.mono_set (Set.prod_mono Set.uIoc_subset_uIcc Set.uIoc_subset_uIcc)

/-- the double sine coefficients of a solution vanish unless the wavenumber belongs to the mode -/
theorem coef_zero {F F1 F11 F2 F22 : ℝ × ℝ → ℝ} (hF : Continuous F) (hF11 : Continuous F11) (hF22 : Continuous F22)
    (h1 : ∀ x y, HasDerivAt (fun ξ => F (ξ, y)) (F1 (x, y)) x) (h11 : ∀ x y, HasDerivAt (fun ξ => F1 (ξ, y)) (F11 (x, y)) x)
    (h2 : ∀ x y, HasDerivAt (fun η => F (x, η)) (F2 (x, y)) y) (h22 : ∀ x y, HasDerivAt (fun η => F2 (x, η)) (F22 (x, y)) y)
    {s k : ℝ} (hs : 0 < s)
    (hbc : ∀ t ∈ Set.Icc 0 s, F (0, t) = 0 ∧ F (s, t) = 0 ∧ F (t, 0) = 0 ∧ F (t, s) = 0)
    (heq : ∀ x ∈ Set.Icc 0 s, ∀ y ∈ Set.Icc 0 s, F11 (x, y) + F22 (x, y) + k ^ 2 * F (x, y) = 0) (a b : ℕ)
    (hk : k ^ 2 ≠ (a * π / s) ^ 2 + (b * π / s) ^ 2) :
    ∫ x in (0:ℝ)..s, (∫ y in (0:ℝ)..s, F (x, y) * sin (b * (π / s * y))) * sin (a * (π / s * x)) = 0 := by
  set φ : ℝ × ℝ → ℝ := fun p => sin (a * (π / s * p.1)) * sin (b * (π / s * p.2)) with hφ
  have hφc : Continuous φ := by fun_prop
  set I := ∫ x in (0:ℝ)..s, ∫ y in (0:ℝ)..s, F (x, y) * φ (x, y) with hI
  have A : ∫ x in (0:ℝ)..s, ∫ y in (0:ℝ)..s, F11 (x, y) * φ (x, y) = -(a * π / s) ^ 2 * I := by
    rw [swap_square (F := fun p => F11 p * φ p) (by fun_prop), hI, swap_square (F := fun p => F p * φ p) (by fun_prop),
      ← intervalIntegral.integral_const_mul]
    refine intervalIntegral.integral_congr fun y hy => ?_
    rw [Set.uIcc_of_le hs.le] at hy
    have g := sine_green (f := fun x => F (x, y)) (f1 := fun x => F1 (x, y)) (f2 := fun x => F11 (x, y)) (fun x => h1 x y)
      (fun x => h11 x y) (by fun_prop) hs (hbc y hy).1 (hbc y hy).2.1 a
    have e1 : ∀ G : ℝ × ℝ → ℝ, ∫ x in (0:ℝ)..s, G (x, y) * φ (x, y) =
        (∫ x in (0:ℝ)..s, G (x, y) * sin (a * (π / s * x))) * sin (b * (π / s * y)) := by
      intro G
      rw [← intervalIntegral.integral_mul_const]
      refine intervalIntegral.integral_congr fun x _ => ?_
      simp only [hφ]; ring
    simp only [e1, g]; ring
  have B : ∫ x in (0:ℝ)..s, ∫ y in (0:ℝ)..s, F22 (x, y) * φ (x, y) = -(b * π / s) ^ 2 * I := by
    rw [hI, ← intervalIntegral.integral_const_mul]
    refine intervalIntegral.integral_congr fun x hx => ?_
    rw [Set.uIcc_of_le hs.le] at hx
    have g := sine_green (f := fun y => F (x, y)) (f1 := fun y => F2 (x, y)) (f2 := fun y => F22 (x, y)) (fun y => h2 x y)
      (fun y => h22 x y) (by fun_prop) hs (hbc x hx).2.2.1 (hbc x hx).2.2.2 b
    have e1 : ∀ G : ℝ × ℝ → ℝ, ∫ y in (0:ℝ)..s, G (x, y) * φ (x, y) =
        (∫ y in (0:ℝ)..s, G (x, y) * sin (b * (π / s * y))) * sin (a * (π / s * x)) := by
      intro G
      rw [← intervalIntegral.integral_mul_const]
      refine intervalIntegral.integral_congr fun x _ => ?_
      simp only [hφ]; ring
    simp only [e1, g]; ring
  have C : ∫ x in (0:ℝ)..s, ∫ y in (0:ℝ)..s, (F11 (x, y) * φ (x, y) + F22 (x, y) * φ (x, y) + k ^ 2 * (F (x, y) * φ (x, y))) = 0 := by
    refine (intervalIntegral.integral_congr (g := fun _ => (0:ℝ)) fun x hx => ?_).trans intervalIntegral.integral_zero
    rw [Set.uIcc_of_le hs.le] at hx
    refine (intervalIntegral.integral_congr (g := fun _ => (0:ℝ)) fun y hy => ?_).trans intervalIntegral.integral_zero
    rw [Set.uIcc_of_le hs.le] at hy
    have := heq x hx y hy
    show F11 (x, y) * φ (x, y) + F22 (x, y) * φ (x, y) + k ^ 2 * (F (x, y) * φ (x, y)) = 0
    linear_combination φ (x, y) * this
  have ii : ∀ G : ℝ × ℝ → ℝ, Continuous G → ∀ x, IntervalIntegrable (fun y => G (x, y)) volume 0 s := fun G hG x =>
    Continuous.intervalIntegrable (by fun_prop) _ _
  have io : ∀ G : ℝ × ℝ → ℝ, Continuous G → IntervalIntegrable (fun x => ∫ y in (0:ℝ)..s, G (x, y)) volume 0 s := fun G hG =>
    (continuous_parametric_intervalIntegral_of_continuous' (f := fun x y => G (x, y))
      (show Continuous fun p : ℝ × ℝ => G (p.1, p.2) from hG) 0 s).intervalIntegrable _ _
  have D : ∫ x in (0:ℝ)..s, ∫ y in (0:ℝ)..s, (F11 (x, y) * φ (x, y) + F22 (x, y) * φ (x, y) + k ^ 2 * (F (x, y) * φ (x, y))) =
      -(a * π / s) ^ 2 * I + -(b * π / s) ^ 2 * I + k ^ 2 * I := by
    rw [← A, ← B, hI, ← intervalIntegral.integral_const_mul, ← intervalIntegral.integral_add (io (fun p => F11 p * φ p) (by fun_prop))
      (io (fun p => F22 p * φ p) (by fun_prop)), ← intervalIntegral.integral_add
      ((io (fun p => F11 p * φ p) (by fun_prop)).add (io (fun p => F22 p * φ p) (by fun_prop)))
      ((io (fun p => F p * φ p) (by fun_prop)).const_mul _)]
    refine intervalIntegral.integral_congr fun x _ => ?_
    show (∫ y in (0:ℝ)..s, (F11 (x, y) * φ (x, y) + F22 (x, y) * φ (x, y) + k ^ 2 * (F (x, y) * φ (x, y)))) =
      (∫ y in (0:ℝ)..s, F11 (x, y) * φ (x, y)) + (∫ y in (0:ℝ)..s, F22 (x, y) * φ (x, y)) + k ^ 2 * ∫ y in (0:ℝ)..s, F (x, y) * φ (x, y)
    rw [intervalIntegral.integral_add ((ii (fun p => F11 p * φ p) (by fun_prop) x).add (ii (fun p => F22 p * φ p) (by fun_prop) x))
      ((ii (fun p => F p * φ p) (by fun_prop) x).const_mul _),
      intervalIntegral.integral_add (ii (fun p => F11 p * φ p) (by fun_prop) x) (ii (fun p => F22 p * φ p) (by fun_prop) x),
      intervalIntegral.integral_const_mul]
  have hI0 : I = 0 := by
    rw [C] at D
    have : (k ^ 2 - ((a * π / s) ^ 2 + (b * π / s) ^ 2)) * I = 0 := by linarith
    rcases mul_eq_zero.1 this with h | h
    · exact absurd (sub_eq_zero.1 h) hk
    · exact h
  refine Eq.trans (hI ▸ intervalIntegral.integral_congr fun x _ => ?_) hI0
  show (∫ y in (0:ℝ)..s, F (x, y) * sin (b * (π / s * y))) * sin (a * (π / s * x)) = ∫ y in (0:ℝ)..s, F (x, y) * φ (x, y)
  rw [← intervalIntegral.integral_mul_const]
  refine intervalIntegral.integral_congr fun y _ => ?_
  simp only [hφ]; ring

/-- a solution on the square `[0, s]²` with zero boundary values is zero, unless the wavenumber belongs to a mode -/
theorem square_unique {F F1 F11 F2 F22 : ℝ × ℝ → ℝ} (hF : Continuous F) (hF11 : Continuous F11) (hF22 : Continuous F22)
    (h1 : ∀ x y, HasDerivAt (fun ξ => F (ξ, y)) (F1 (x, y)) x) (h11 : ∀ x y, HasDerivAt (fun ξ => F1 (ξ, y)) (F11 (x, y)) x)
    (h2 : ∀ x y, HasDerivAt (fun η => F (x, η)) (F2 (x, y)) y) (h22 : ∀ x y, HasDerivAt (fun η => F2 (x, η)) (F22 (x, y)) y)
    {s k : ℝ} (hs : 0 < s)
    (hbc : ∀ t ∈ Set.Icc 0 s, F (0, t) = 0 ∧ F (s, t) = 0 ∧ F (t, 0) = 0 ∧ F (t, s) = 0)
    (heq : ∀ x ∈ Set.Icc 0 s, ∀ y ∈ Set.Icc 0 s, F11 (x, y) + F22 (x, y) + k ^ 2 * F (x, y) = 0)
    (hk : ∀ a b : ℕ, 1 ≤ a → 1 ≤ b → k ^ 2 ≠ (a * π / s) ^ 2 + (b * π / s) ^ 2) {x y : ℝ} (hx : x ∈ Set.Ioo 0 s)
    (hy : y ∈ Set.Ioo 0 s) : F (x, y) = 0 := by
  refine sine_complete (g := fun y => F (x, y)) (by fun_prop) hs (fun b => ?_) hy
  refine sine_complete (g := fun x => ∫ y in (0:ℝ)..s, F (x, y) * sin (b * (π / s * y)))
    (continuous_parametric_intervalIntegral_of_continuous' (f := fun x y => F (x, y) * sin (b * (π / s * y)))
      (show Continuous fun p : ℝ × ℝ => F (p.1, p.2) * sin (b * (π / s * p.2)) by fun_prop) 0 s) hs (fun a => ?_) hx
  rcases Nat.eq_zero_or_pos a with rfl | ha
  · simp
  rcases Nat.eq_zero_or_pos b with rfl | hb
  · simp
  exact coef_zero hF hF11 hF22 h1 h11 h2 h22 hs hbc heq a b (hk a b ha hb)

end Pot
