import Verif.Props.Basis
import Verif.Proofs.TaylorN
import Mathlib.Analysis.SpecialFunctions.Trigonometric.Chebyshev.ChebyshevGauss
import Mathlib.Analysis.SpecialFunctions.Trigonometric.Chebyshev.RootsExtrema
import Mathlib.Algebra.Order.Chebyshev

/-! # Least-squares fits by Chebyshev series at Chebyshev roots -/

namespace Pot
open Real Polynomial Finset

/-- a sum over the sample points is a sum over the roots of `T_J` in Mathlib's order -/
theorem chebRoots_sum {M : Type} [AddCommMonoid M] (J : ℕ) (f : ℝ → M) :
    ((chebRoots J).map f).sum = ∑ i ∈ range J, f (cos ((2 * i + 1) / (2 * J) * π)) := by
  have e1 : ((chebRoots J).map f).sum = ∑ i ∈ range J, f (cos (π / 2 * (2 * ((J - i : ℕ) : ℝ) - 1) / J)) := by
    rw [chebRoots, List.map_map]
    rfl
  rw [e1, ← sum_range_reflect]
  refine sum_congr rfl fun i hi => ?_
  have hi' := mem_range.1 hi
  have hJ : (J : ℝ) ≠ 0 := by exact_mod_cast (by omega : J ≠ 0)
  have h : ((J - (J - 1 - i) : ℕ) : ℝ) = (i : ℝ) + 1 := by exact_mod_cast (by omega)
  rw [h]
  congr 2
  field_simp
  ring

/-- discrete orthogonality at the roots of `T_J` -/
theorem cheb_orth {J k l : ℕ} (hk : k < J) (hl : l < J) :
    ((chebRoots J).map fun t => (Chebyshev.T ℝ k).eval t * (Chebyshev.T ℝ l).eval t).sum =
      if k = l then (if k = 0 then (J : ℝ) else J / 2) else 0 := by
  have hJ : (J : ℝ) ≠ 0 := by exact_mod_cast (by omega : J ≠ 0)
  have hz : ∀ m : ℤ, ¬ (2 * J : ℤ) ∣ m → ((chebRoots J).map fun t => (Chebyshev.T ℝ m).eval t).sum = 0 := by
    intro m hm
    have h := Chebyshev.sumZeroes_T_of_not_dvd hm
    rw [Chebyshev.sumZeroes] at h
    rw [chebRoots_sum]
    rcases mul_eq_zero.1 h with h | h
    · exact absurd h (div_ne_zero pi_ne_zero hJ)
    · exact h
  have h0 : ((chebRoots J).map fun t => (Chebyshev.T ℝ (0 : ℤ)).eval t).sum = J := by
    rw [chebRoots_sum]; simp
  have hm : ((chebRoots J).map fun t => (Chebyshev.T ℝ k).eval t * (Chebyshev.T ℝ l).eval t).sum =
      1 / 2 * (((chebRoots J).map fun t => (Chebyshev.T ℝ (k + l : ℤ)).eval t).sum +
        ((chebRoots J).map fun t => (Chebyshev.T ℝ (k - l : ℤ)).eval t).sum) := by
    rw [← List.sum_map_add, ← List.sum_map_mul_left]
    congr 1
    refine List.map_congr_left fun t _ => ?_
    have := congrArg (eval t) (Chebyshev.T_mul_T ℝ k l)
    simp only [eval_mul, eval_add, eval_ofNat] at this
    linarith
  rw [hm]
  by_cases hkl : k = l
  · subst hkl
    rw [if_pos rfl, sub_self, h0]
    by_cases hk0 : k = 0
    · subst hk0
      rw [if_pos rfl]
      simp only [Nat.cast_zero, add_zero]
      rw [h0]; ring
    · rw [if_neg hk0, hz]
      · ring
      · intro hd
        have := Int.le_of_dvd (by omega) hd
        omega
  · rw [if_neg hkl, hz, hz]
    · ring
    · intro hd
      obtain ⟨c, hc⟩ := hd
      rcases lt_trichotomy c 0 with h | h | h
      · have : (2 * J : ℤ) * c ≤ (2 * J : ℤ) * (-1) := mul_le_mul_of_nonneg_left (by omega) (by omega)
        omega
      · subst h; omega
      · have : (2 * J : ℤ) * 1 ≤ (2 * J : ℤ) * c := mul_le_mul_of_nonneg_left (by omega) (by omega)
        omega
    · intro hd
      have := Int.le_of_dvd (by omega) hd
      omega

theorem chebSeries_sum (c : List ℂ) (t : ℝ) :
    Spec.chebSeries c t = ∑ i ∈ range c.length, c.getD i 0 * (((Chebyshev.T ℝ i).eval t : ℝ) : ℂ) := by
  rw [Spec.chebSeries, zipIdx_sum (0 : ℂ)]

/-- a coefficient is at most twice the mean modulus of the values at the roots -/
theorem cheb_coef_le {J m : ℕ} (hm : m ≤ J) (e : ℕ → ℂ) {k : ℕ} (hk : k < m) :
    ‖e k‖ * J ≤ 2 * ((chebRoots J).map fun t => ‖∑ i ∈ range m, e i * (((Chebyshev.T ℝ i).eval t : ℝ) : ℂ)‖).sum := by
  have hJ : (0 : ℝ) < J := by exact_mod_cast (by omega : 0 < J)
  set S : ℝ → ℂ := fun t => ∑ i ∈ range m, e i * (((Chebyshev.T ℝ i).eval t : ℝ) : ℂ) with hS
  have h1 : ((chebRoots J).map fun t => S t * (((Chebyshev.T ℝ k).eval t : ℝ) : ℂ)).sum =
      e k * ((if k = 0 then (J : ℝ) else J / 2 : ℝ) : ℂ) := by
    have : ∀ i ∈ range m, (e i * ((((chebRoots J).map fun t => (Chebyshev.T ℝ i).eval t * (Chebyshev.T ℝ k).eval t).sum : ℝ) : ℂ)) =
        if i = k then e k * ((if k = 0 then (J : ℝ) else J / 2 : ℝ) : ℂ) else 0 := by
      intro i hi
      rw [cheb_orth (by have := mem_range.1 hi; omega) (by omega : k < J)]
      by_cases h : i = k
      · subst h; simp
      · simp [h]
    have h2 := sum_congr rfl this
    rw [sum_ite_eq' (range m) k, if_pos (mem_range.2 hk)] at h2
    rw [← h2, chebRoots_sum]
    simp only [chebRoots_sum, hS, Complex.ofReal_sum, mul_sum, sum_mul]
    rw [sum_comm]
    refine sum_congr rfl fun i _ => sum_congr rfl fun j _ => ?_
    push_cast
    ring
  have h2 : ‖((chebRoots J).map fun t => S t * (((Chebyshev.T ℝ k).eval t : ℝ) : ℂ)).sum‖ ≤
      ((chebRoots J).map fun t => ‖S t‖).sum := by
    rw [chebRoots_sum, chebRoots_sum]
    refine norm_sum_le_of_le _ fun i _ => ?_
    rw [norm_mul, Complex.norm_real, Real.norm_eq_abs]
    refine mul_le_of_le_one_right (norm_nonneg _) (Chebyshev.abs_eval_T_real_le_one _ (abs_cos_le_one _))
  rw [h1, norm_mul, Complex.norm_real, Real.norm_eq_abs] at h2
  have h3 : (J : ℝ) / 2 ≤ |if k = 0 then (J : ℝ) else J / 2| := by
    split
    · rw [abs_of_pos hJ]; linarith
    · rw [abs_of_pos (by linarith)]
  have h4 := mul_le_mul_of_nonneg_left h3 (norm_nonneg (e k))
  linarith

theorem residual_eq (x : List ℝ) (f : ℝ → ℂ) (c : List ℂ) :
    Spec.residual x (x.map f) c = (x.map fun t => ‖Spec.chebSeries c t - f t‖ ^ 2).sum := by
  rw [Spec.residual]
  induction x with
  | nil => rfl
  | cons a l ih => simpa using ih

/-- the coefficients of the fit are close to those of any series close to the data -/
theorem fit_coef_near {J m : ℕ} (hm : m ≤ J) {f : ℝ → ℂ} {c d : List ℂ} (hc : c.length = m) (hd : d.length = m)
    (hmin : Spec.residual (chebRoots J) ((chebRoots J).map f) c ≤ Spec.residual (chebRoots J) ((chebRoots J).map f) d)
    {τ : ℝ} (hτ : 0 ≤ τ) (hdf : ∀ t ∈ chebRoots J, ‖Spec.chebSeries d t - f t‖ ≤ τ) {k : ℕ} (hk : k < m) :
    ‖c.getD k 0 - d.getD k 0‖ ≤ 4 * τ := by
  have hJ : (0 : ℝ) < J := by exact_mod_cast (by omega : 0 < J)
  have h1 := cheb_coef_le hm (fun i => c.getD i 0 - d.getD i 0) hk
  set x : ℕ → ℝ := fun i => cos ((2 * i + 1) / (2 * J) * π) with hx
  have hmem : ∀ i ∈ range J, x i ∈ chebRoots J := by
    intro i hi
    have hi' := mem_range.1 hi
    rw [chebRoots, List.mem_map]
    refine ⟨J - 1 - i, List.mem_range.2 (by omega), ?_⟩
    have h : ((J - (J - 1 - i) : ℕ) : ℝ) = (i : ℝ) + 1 := by exact_mod_cast (by omega)
    simp only [h, hx]
    congr 1
    field_simp
    ring
  have h2 : Spec.residual (chebRoots J) ((chebRoots J).map f) d ≤ J * τ ^ 2 := by
    rw [residual_eq, chebRoots_sum]
    refine (sum_le_card_nsmul _ _ (τ ^ 2) fun i hi => ?_).trans (by simp)
    exact pow_le_pow_left₀ (norm_nonneg _) (hdf _ (hmem i hi)) 2
  have h3 : (∑ i ∈ range J, ‖Spec.chebSeries c (x i) - f (x i)‖) ≤ J * τ := by
    have h4 : ∑ i ∈ range J, ‖Spec.chebSeries c (x i) - f (x i)‖ ^ 2 ≤ J * τ ^ 2 := by
      have := hmin.trans h2
      rwa [residual_eq, chebRoots_sum] at this
    have h5 := sq_sum_le_card_mul_sum_sq (s := range J) (f := fun i => ‖Spec.chebSeries c (x i) - f (x i)‖)
    rw [card_range] at h5
    refine abs_le_of_sq_le_sq' ?_ (by positivity) |>.2
    calc _ ≤ _ := h5
      _ ≤ J * (J * τ ^ 2) := mul_le_mul_of_nonneg_left h4 hJ.le
      _ = _ := by ring
  have h6 : (∑ i ∈ range J, ‖Spec.chebSeries d (x i) - f (x i)‖) ≤ J * τ := by
    refine (sum_le_card_nsmul _ _ τ fun i hi => hdf _ (hmem i hi)).trans (by simp)
  have h7 : ((chebRoots J).map fun t => ‖∑ i ∈ range m, (c.getD i 0 - d.getD i 0) * (((Chebyshev.T ℝ i).eval t : ℝ) : ℂ)‖).sum ≤
      2 * (J * τ) := by
    rw [chebRoots_sum]
    calc _ ≤ ∑ i ∈ range J, (‖Spec.chebSeries c (x i) - f (x i)‖ + ‖Spec.chebSeries d (x i) - f (x i)‖) := by
          refine sum_le_sum fun i _ => ?_
          have : ∑ l ∈ range m, (c.getD l 0 - d.getD l 0) * (((Chebyshev.T ℝ l).eval (x i) : ℝ) : ℂ) =
              (Spec.chebSeries c (x i) - f (x i)) - (Spec.chebSeries d (x i) - f (x i)) := by
            rw [chebSeries_sum, chebSeries_sum, hc, hd, sub_sub_sub_cancel_right, ← sum_sub_distrib]
            exact sum_congr rfl fun _ _ => by ring
          rw [this]
          exact norm_sub_le _ _
      _ ≤ _ := by rw [sum_add_distrib]; linarith
  have h8 : ‖c.getD k 0 - d.getD k 0‖ * J ≤ 4 * τ * J := by
    calc _ ≤ _ := h1
      _ ≤ 2 * (2 * (J * τ)) := by linarith
      _ = _ := by ring
  exact le_of_mul_le_mul_right h8 hJ

/-- every polynomial of degree below `m` is a Chebyshev series with `m` terms -/
theorem exists_cheb_coef {m : ℕ} {P : ℂ[X]} (hP : P.degree < m) :
    ∃ d : List ℂ, d.length = m ∧ ∀ t : ℝ, Spec.chebSeries d t = P.eval (t : ℂ) := by
  have hmem : P ∈ degreeLT ℂ m := by rwa [mem_degreeLT]
  rw [← Sequence.span_degreeLT (Chebyshev.chebyshevTsequence ℂ) (by simp),
    show Set.Iio m = Finset.range m by simp,
    Submodule.mem_span_image_finset_iff_exists_fun'] at hmem
  obtain ⟨c, rfl⟩ := hmem
  refine ⟨(List.range m).map c, by simp, fun t => ?_⟩
  rw [chebSeries_eq]
  simp only [List.length_map, List.length_range]
  congr 1
  refine sum_congr rfl fun i hi => ?_
  have hi' := mem_range.1 hi
  rw [smul_eq_C_mul]
  congr 2
  simp [List.getD, hi']

/-- derivatives of Chebyshev polynomials on `[-1, 1]` -/
theorem T_deriv_le (J m : ℕ) {t : ℝ} (ht : |t| ≤ 1) : |(derivative^[m] (Chebyshev.T ℝ J)).eval t| ≤ (J : ℝ) ^ (2 * m) := by
  refine (Chebyshev.abs_iterate_derivative_T_real_le J m ht).trans ?_
  induction m with
  | zero => simp
  | succ m ih =>
    have h := Chebyshev.iterate_derivative_T_eval_one_recurrence (R := ℝ) J m
    have h0 : 0 ≤ (derivative^[m] (Chebyshev.T ℝ (J : ℤ))).eval 1 :=
      (abs_nonneg _).trans (Chebyshev.abs_iterate_derivative_T_real_le J m ht)
    have h0' : 0 ≤ (derivative^[m + 1] (Chebyshev.T ℝ (J : ℤ))).eval 1 :=
      (abs_nonneg _).trans (Chebyshev.abs_iterate_derivative_T_real_le J (m + 1) ht)
    have h1 : (derivative^[m + 1] (Chebyshev.T ℝ (J : ℤ))).eval 1 ≤
        (2 * m + 1) * (derivative^[m + 1] (Chebyshev.T ℝ (J : ℤ))).eval 1 :=
      le_mul_of_one_le_left h0' (by linarith [Nat.cast_nonneg (α := ℝ) m])
    rw [h] at h1
    refine h1.trans ?_
    simp only [Int.cast_natCast]
    calc ((J : ℝ) ^ 2 - (m : ℝ) ^ 2) * (derivative^[m] (Chebyshev.T ℝ (J : ℤ))).eval 1
        ≤ (J : ℝ) ^ 2 * (derivative^[m] (Chebyshev.T ℝ (J : ℤ))).eval 1 :=
          mul_le_mul_of_nonneg_right (by linarith [sq_nonneg (m : ℝ)]) h0
      _ ≤ (J : ℝ) ^ 2 * (J : ℝ) ^ (2 * m) := mul_le_mul_of_nonneg_left ih (sq_nonneg _)
      _ = _ := by rw [← pow_add]; congr 1; ring

end Pot
