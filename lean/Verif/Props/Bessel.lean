import Verif.Spec.Bessel
import Verif.Props.Singular
import Mathlib.Analysis.Calculus.SmoothSeries
import Mathlib.Analysis.SpecialFunctions.Exponential
import Mathlib.Analysis.SpecialFunctions.Exp
import Mathlib.Analysis.SpecialFunctions.Gamma.BohrMollerup
import Mathlib.Analysis.Complex.ExponentialBounds

/-!
# C76: the Bessel function meets the contract of the theorems, and the truncated series are close to it
-/

namespace Pot
open Spec Filter Topology Real

/-! ## power series with coefficients bounded by `B / l!` -/

theorem facSeries_summable {c : ℕ → ℝ} {B : ℝ} (hc : ∀ l, |c l| ≤ B / l.factorial) (z : ℝ) : Summable fun l => c l * z ^ l := by
  refine Summable.of_norm_bounded ((Real.summable_pow_div_factorial |z|).mul_left B) fun l => ?_
  rw [norm_mul, norm_pow, norm_eq_abs, norm_eq_abs]
  calc |c l| * |z| ^ l ≤ B / l.factorial * |z| ^ l := by gcongr; exact hc l
    _ = _ := by ring

theorem facSeries_shift {c : ℕ → ℝ} {B : ℝ} (hc : ∀ l, |c l| ≤ B / l.factorial) (l : ℕ) :
    |((l : ℝ) + 1) * c (l + 1)| ≤ B / l.factorial := by
  have h := hc (l + 1)
  have hl : (0 : ℝ) < l.factorial := by positivity
  rw [abs_mul, abs_of_pos (by positivity : (0 : ℝ) < (l : ℝ) + 1)]
  calc ((l : ℝ) + 1) * |c (l + 1)| ≤ ((l : ℝ) + 1) * (B / (l + 1).factorial) := by gcongr
    _ = B / l.factorial := by
      rw [Nat.factorial_succ]; push_cast; field_simp

theorem facSeries_deriv {c : ℕ → ℝ} {B : ℝ} (hc : ∀ l, |c l| ≤ B / l.factorial) (z : ℝ) :
    HasDerivAt (fun z => ∑' l, c l * z ^ l) (∑' l : ℕ, ((l : ℝ) + 1) * c (l + 1) * z ^ l) z := by
  set ρ := |z| + 1 with hρ
  have hρ0 : 0 ≤ ρ := by positivity
  set u : ℕ → ℝ := fun l => |c l| * (l * ρ ^ (l - 1)) with hu
  have hus : Summable u := by
    rw [← summable_nat_add_iff 1]
    have h := facSeries_summable (c := fun l => |((l : ℝ) + 1) * c (l + 1)|) (B := B)
      (fun l => by rw [abs_abs]; exact facSeries_shift hc l) ρ
    refine h.congr fun l => ?_
    simp only [hu, Nat.add_sub_cancel]
    rw [abs_mul, abs_of_pos (by positivity : (0 : ℝ) < (l : ℝ) + 1)]
    push_cast
    ring
  have hz : z ∈ Metric.ball (0 : ℝ) ρ := by simp [hρ]
  have h := hasDerivAt_tsum_of_isPreconnected (g := fun l y => c l * y ^ l) (g' := fun l y => c l * (l * y ^ (l - 1))) hus
    Metric.isOpen_ball (convex_ball (0 : ℝ) ρ).isPreconnected (fun n y _ => (hasDerivAt_pow n y).const_mul (c n))
    (fun n y hy => by
      have hy' : |y| ≤ ρ := by simpa using (Metric.mem_ball.1 hy).le
      rw [norm_mul, norm_mul, norm_pow, norm_eq_abs, norm_eq_abs, norm_eq_abs, abs_of_nonneg (Nat.cast_nonneg n : (0 : ℝ) ≤ (n : ℝ))]
      simp only [hu]
      gcongr) hz (facSeries_summable hc z) hz
  refine h.congr_deriv ?_
  have hs : Summable fun l : ℕ => c l * (l * z ^ (l - 1)) := by
    refine Summable.of_norm_bounded hus fun n => ?_
    rw [norm_mul, norm_mul, norm_pow, norm_eq_abs, norm_eq_abs, norm_eq_abs, abs_of_nonneg (Nat.cast_nonneg n : (0 : ℝ) ≤ (n : ℝ))]
    simp only [hu]
    have : |z| ≤ ρ := by rw [hρ]; linarith
    gcongr
  rw [hs.tsum_eq_zero_add]
  simp only [Nat.cast_zero, zero_mul, mul_zero, zero_add, Nat.add_sub_cancel]
  refine tsum_congr fun l => ?_
  push_cast
  ring

/-! ## the entire part of the Bessel function -/

/-- `(-1)^l / (l! Γ(mu + l + 1))` -/
noncomputable def bc (mu : ℝ) (l : ℕ) : ℝ := (-1) ^ l / ((l.factorial : ℝ) * Gamma (mu + l + 1))

theorem Gamma_shift {mu : ℝ} (hmu : 0 ≤ mu) (n : ℕ) : ∀ l : ℕ, Gamma (mu + n + 1) ≤ Gamma (mu + (n + l : ℕ) + 1) := by
  intro l
  induction l with
  | zero => simp
  | succ l ih =>
    have hp : 0 < mu + ((n + l : ℕ) : ℝ) + 1 := by positivity
    rw [show mu + ((n + (l + 1) : ℕ) : ℝ) + 1 = (mu + ((n + l : ℕ) : ℝ) + 1) + 1 by push_cast; ring, Gamma_add_one hp.ne']
    have h1 : 1 ≤ mu + ((n + l : ℕ) : ℝ) + 1 := by have : (0 : ℝ) ≤ ((n + l : ℕ) : ℝ) := Nat.cast_nonneg _; linarith
    have h2 := Gamma_pos_of_pos hp
    nlinarith

theorem bc_abs {mu : ℝ} (hmu : 0 ≤ mu) (l : ℕ) : |bc mu l| = 1 / ((l.factorial : ℝ) * Gamma (mu + l + 1)) := by
  have hG := Gamma_pos_of_pos (by positivity : 0 < mu + (l : ℝ) + 1)
  unfold bc
  rw [abs_div, abs_pow, abs_neg, abs_one, one_pow, abs_of_pos (by positivity)]

theorem bc_bound {mu : ℝ} (hmu : 0 ≤ mu) (l : ℕ) : |bc mu l| ≤ 1 / Gamma (mu + 1) / l.factorial := by
  have hG0 := Gamma_pos_of_pos (by positivity : 0 < mu + 1)
  have h := Gamma_shift hmu 0 l
  simp only [Nat.cast_zero, add_zero, zero_add] at h
  rw [bc_abs hmu, div_div, mul_comm (Gamma (mu + 1))]
  have hl : (0 : ℝ) < l.factorial := by positivity
  gcongr

theorem bc_succ {mu : ℝ} (hmu : 0 ≤ mu) (l : ℕ) : ((l : ℝ) + 1) * (mu + l + 1) * bc mu (l + 1) = -bc mu l := by
  have h1 : mu + (l : ℝ) + 1 ≠ 0 := by positivity
  have hG : Gamma (mu + l + 1) ≠ 0 := (Gamma_pos_of_pos (by positivity)).ne'
  have e : Gamma (mu + (l + 1 : ℕ) + 1) = (mu + l + 1) * Gamma (mu + l + 1) := by
    rw [show mu + ((l + 1 : ℕ) : ℝ) + 1 = (mu + l + 1) + 1 by push_cast; ring, Gamma_add_one h1]
  have hl : (l.factorial : ℝ) ≠ 0 := by positivity
  unfold bc
  rw [e, Nat.factorial_succ]
  push_cast
  field_simp
  ring

/-- `Σ c_l z^l` and its two derivatives -/
noncomputable def bE (mu z : ℝ) : ℝ := ∑' l, bc mu l * z ^ l
noncomputable def bE1 (mu z : ℝ) : ℝ := ∑' l : ℕ, ((l : ℝ) + 1) * bc mu (l + 1) * z ^ l
noncomputable def bE2 (mu z : ℝ) : ℝ := ∑' l : ℕ, ((l : ℝ) + 1) * ((((l + 1 : ℕ) : ℝ) + 1) * bc mu (l + 1 + 1)) * z ^ l

theorem bE_ode {mu : ℝ} (hmu : 0 ≤ mu) (z : ℝ) : z * bE2 mu z + (mu + 1) * bE1 mu z + bE mu z = 0 := by
  have s0 := facSeries_summable (bc_bound hmu) z
  have s1 := facSeries_summable (facSeries_shift (bc_bound hmu)) z
  have s2 := facSeries_summable (facSeries_shift (c := fun l => ((l : ℝ) + 1) * bc mu (l + 1)) (facSeries_shift (bc_bound hmu))) z
  -- z E'' as a series in z^l
  have e2 : z * bE2 mu z = ∑' l : ℕ, (l : ℝ) * (((l : ℝ) + 1) * bc mu (l + 1)) * z ^ l := by
    have hs : Summable fun l : ℕ => (l : ℝ) * (((l : ℝ) + 1) * bc mu (l + 1)) * z ^ l := by
      rw [← summable_nat_add_iff 1]
      refine (s2.mul_left z).congr fun l => ?_
      push_cast
      ring
    rw [hs.tsum_eq_zero_add, bE2, ← tsum_mul_left]
    simp only [Nat.cast_zero, zero_mul, zero_add]
    refine tsum_congr fun l => ?_
    push_cast
    ring
  have hs : Summable fun l : ℕ => (l : ℝ) * (((l : ℝ) + 1) * bc mu (l + 1)) * z ^ l := by
    rw [← summable_nat_add_iff 1]
    refine (s2.mul_left z).congr fun l => ?_
    push_cast
    ring
  rw [e2, bE1, bE, ← tsum_mul_left, ← hs.tsum_add (s1.mul_left _), ← (hs.add (s1.mul_left _)).tsum_add s0]
  refine (tsum_congr fun l => ?_).trans tsum_zero
  linear_combination z ^ l * bc_succ hmu l

theorem besselJ_eq (mu x : ℝ) : besselJ mu x = bE mu ((x / 2) ^ 2) * (x / 2) ^ mu := by
  unfold besselJ bE bc
  rw [← tsum_mul_right]
  refine tsum_congr fun l => ?_
  rw [pow_mul]

/-- **C76** the Bessel function satisfies Bessel's equation at every positive argument: the contract `BesselAt` under which the
theorems about `jv` are proved is met by the function itself. -/
theorem C76_bessel {mu : ℝ} (hmu : 0 ≤ mu) {x : ℝ} (hx : 0 < x) : BesselAt mu (besselJ mu) x := by
  have d0 := facSeries_deriv (bc_bound hmu)
  have d1 := facSeries_deriv (c := fun l => ((l : ℝ) + 1) * bc mu (l + 1)) (facSeries_shift (bc_bound hmu))
  have hq : ∀ y : ℝ, HasDerivAt (fun y : ℝ => (y / 2) ^ 2) (y / 2) y := fun y =>
    (((hasDerivAt_id' y).div_const 2).pow 2).congr_deriv (by ring)
  have hE : TwiceAt (fun y => bE mu ((y / 2) ^ 2)) x (bE1 mu ((x / 2) ^ 2) * (x / 2))
      (bE2 mu ((x / 2) ^ 2) * (x / 2) * (x / 2) + bE1 mu ((x / 2) ^ 2) * (1 / 2)) := by
    refine ⟨fun y => bE1 mu ((y / 2) ^ 2) * (y / 2), .of_forall fun y => ?_, rfl, ?_⟩
    · exact (d0 ((y / 2) ^ 2)).comp y (hq y)
    · exact ((d1 ((x / 2) ^ 2)).comp x (hq x)).mul ((hasDerivAt_id' x).div_const 2)
  have hp : TwiceAt (fun y : ℝ => (y / 2) ^ mu) x (1 / 2 * (mu * (x / 2) ^ mu / (x / 2)))
      ((1 / 2) ^ 2 * (mu * (mu - 1) * (x / 2) ^ mu / (x / 2) ^ 2)) := by
    have := TwiceAt_scale (1 / 2) (twiceAt_rpow mu (r := 1 / 2 * x) (by positivity))
    rw [show 1 / 2 * x = x / 2 by ring] at this
    exact this.congr (fun y => by rw [show 1 / 2 * y = y / 2 by ring]) rfl rfl
  refine ⟨_, _, (hE.mul hp).congr (fun y => besselJ_eq mu y) rfl rfl, ?_⟩
  rw [besselJ_eq]
  have h := bE_ode hmu ((x / 2) ^ 2)
  set P := (x / 2) ^ mu
  set E2 := bE2 mu ((x / 2) ^ 2)
  set E1 := bE1 mu ((x / 2) ^ 2)
  set E := bE mu ((x / 2) ^ 2)
  field_simp
  field_simp at h
  linear_combination x ^ 2 * P * h

/-- **C76** it vanishes at 0 for positive orders. -/
theorem C76_zero {mu : ℝ} (hmu : 0 < mu) : besselJ mu 0 = 0 := by
  rw [besselJ_eq, zero_div, zero_rpow hmu.ne', mul_zero]

/-- **C76** the truncation error of the series after `n` terms is at most its first omitted term times `exp(x²/4)`. -/
theorem C76_truncation {mu : ℝ} (hmu : 0 ≤ mu) {x : ℝ} (hx : 0 ≤ x) (n : ℕ) :
    |besselJ mu x - ∑ l ∈ Finset.range n, besselTerm mu l (x / 2)|
      ≤ (x / 2) ^ (2 * n) * (x / 2) ^ mu / ((n.factorial : ℝ) * Gamma (mu + n + 1)) * exp ((x / 2) ^ 2) := by
  have hy : 0 ≤ x / 2 := by positivity
  set y := x / 2 with hyd
  have hP : 0 ≤ y ^ mu := rpow_nonneg hy mu
  have hs : Summable fun l => besselTerm mu l y := by
    refine ((facSeries_summable (bc_bound hmu) (y ^ 2)).mul_right (y ^ mu)).congr fun l => ?_
    unfold besselTerm bc
    rw [pow_mul]
  have hJ : besselJ mu x = ∑' l, besselTerm mu l y := rfl
  have hGn := Gamma_pos_of_pos (by positivity : 0 < mu + (n : ℝ) + 1)
  rw [hJ, ← hs.sum_add_tsum_nat_add n, add_sub_cancel_left, ← norm_eq_abs]
  refine tsum_of_norm_bounded (g := fun l : ℕ => y ^ (2 * n) * y ^ mu / ((n.factorial : ℝ) * Gamma (mu + n + 1)) * ((y ^ 2) ^ l / l.factorial)) ?_ ?_
  · rw [Real.exp_eq_exp_ℝ]
    exact (NormedSpace.expSeries_div_hasSum_exp (y ^ 2)).mul_left _
  · intro l
    have hb := bc_abs hmu (l + n)
    have hG := Gamma_shift hmu n l
    have hf : ((n.factorial * l.factorial : ℕ) : ℝ) ≤ ((n + l).factorial : ℕ) := by
      exact_mod_cast Nat.le_of_dvd (Nat.factorial_pos _) (Nat.factorial_mul_factorial_dvd_factorial_add n l)
    have e : besselTerm mu (l + n) y = bc mu (l + n) * (y ^ (2 * (l + n)) * y ^ mu) := by
      unfold besselTerm bc; ring
    rw [e, norm_mul, norm_eq_abs, norm_eq_abs, hb, abs_of_nonneg (by positivity), add_comm l n]
    have hfl : (0 : ℝ) < l.factorial := by positivity
    have hfn : (0 : ℝ) < n.factorial := by positivity
    calc 1 / (((n + l).factorial : ℝ) * Gamma (mu + ((n + l : ℕ) : ℝ) + 1)) * (y ^ (2 * (n + l)) * y ^ mu)
        ≤ 1 / (((n.factorial : ℝ) * l.factorial) * Gamma (mu + n + 1)) * (y ^ (2 * (n + l)) * y ^ mu) := by
          push_cast at hf
          gcongr
      _ = _ := by
        rw [show 2 * (n + l) = 2 * n + 2 * l by ring, pow_add, pow_mul y 2 l]
        field_simp

/-- **C76** `v_series` of `IH_Bessel` is `eval_v` up to the truncation error of ten terms, at every point. -/
theorem C76_ih {k nu : ℝ} (hk : 0 ≤ k) (hnu : 0 ≤ nu) (K : ℕ) (a : ℝ) {r : ℝ} (hr : 0 ≤ r) (th : ℝ) :
    |ihV besselJ K k a nu r th - ihVSeries K k a nu r th|
      ≤ (k * r / 2) ^ 20 * (k * r / 2) ^ ((K + 1 / 2) * nu) / (3628800 * Gamma ((K + 1 / 2) * nu + 11)) * exp ((k * r / 2) ^ 2) := by
  have hmu : 0 ≤ ((K : ℝ) + 1 / 2) * nu := by positivity
  have h := C76_truncation hmu (mul_nonneg hk hr) 10
  rw [← vAsympt0_eq, show ((K : ℝ) + 1 / 2) * nu + ((10 : ℕ) : ℝ) + 1 = (K + 1 / 2) * nu + 11 by push_cast; ring,
    show ((Nat.factorial 10 : ℕ) : ℝ) = 3628800 by norm_num [Nat.factorial]] at h
  refine le_trans ?_ h
  unfold ihV ihVSeries
  rw [← sub_mul, abs_mul]
  exact mul_le_of_le_one_right (abs_nonneg _) (abs_sin_le_one _)

/-- **C76** the same for `IHZ_Bessel_Quadratic`. -/
theorem C76_quad {k nu : ℝ} (hk : 0 ≤ k) (hnu : 0 ≤ nu) (a : ℝ) {r : ℝ} (hr : 0 ≤ r) (th : ℝ) :
    |quadV besselJ k a nu r th - quadVSeries k a nu r th|
      ≤ ((k * r / 2) ^ 20 * (k * r / 2) ^ (nu / 2) / (3628800 * Gamma (nu / 2 + 11))
        + (k * r / 2) ^ 20 * (k * r / 2) ^ (3 * nu / 2) / (3628800 * Gamma (3 * nu / 2 + 11))) * exp ((k * r / 2) ^ 2) := by
  have e0 : (((0 : ℕ) : ℝ) + 1 / 2) * nu = nu / 2 := by push_cast; ring
  have e1 : (((1 : ℕ) : ℝ) + 1 / 2) * nu = 3 * nu / 2 := by push_cast; ring
  have h0 := C76_truncation (mu := nu / 2) (by positivity) (mul_nonneg hk hr) 10
  have h1 := C76_truncation (mu := 3 * nu / 2) (by positivity) (mul_nonneg hk hr) 10
  have v0 := vAsympt0_eq 0 k nu 10 r
  have v1 := vAsympt0_eq 1 k nu 10 r
  rw [e0] at v0
  rw [e1] at v1
  rw [← v0, show nu / 2 + ((10 : ℕ) : ℝ) + 1 = nu / 2 + 11 by push_cast; ring,
    show ((Nat.factorial 10 : ℕ) : ℝ) = 3628800 by norm_num [Nat.factorial]] at h0
  rw [← v1, show 3 * nu / 2 + ((10 : ℕ) : ℝ) + 1 = 3 * nu / 2 + 11 by push_cast; ring,
    show ((Nat.factorial 10 : ℕ) : ℝ) = 3628800 by norm_num [Nat.factorial]] at h1
  have e : quadV besselJ k a nu r th - quadVSeries k a nu r th
      = (besselJ (nu / 2) (k * r) - vAsympt0 0 k nu 10 r) * sin (nu / 2 * (th - a))
        + (besselJ (3 * nu / 2) (k * r) - vAsympt0 1 k nu 10 r) * sin (3 * nu / 2 * (th - 2 * π)) := by
    unfold quadV quadVSeries; ring
  rw [e, add_mul]
  refine (abs_add_le _ _).trans (add_le_add (le_trans ?_ h0) (le_trans ?_ h1)) <;> rw [abs_mul] <;>
    exact mul_le_of_le_one_right (abs_nonneg _) (abs_sin_le_one _)

/-- the tail of ten terms for an argument at most `y < 1` -/
theorem tail_ten {mu x y E : ℝ} (hmu : 0 ≤ mu) (hx : 0 ≤ x) (hxy : x ≤ y) (hy : y ≤ 1) (hE : exp (y ^ 2) ≤ E) :
    x ^ 20 * x ^ mu / (3628800 * Gamma (mu + 11)) * exp (x ^ 2) ≤ y ^ 20 / (3628800 * 3628800) * E := by
  have hG : 3628800 ≤ Gamma (mu + 11) := by
    have h11 : Gamma 11 = 3628800 := by
      rw [show (11 : ℝ) = ((10 : ℕ) : ℝ) + 1 by norm_num, Real.Gamma_nat_eq_factorial]
      norm_num [Nat.factorial]
    rw [← h11]
    exact Real.Gamma_strictMonoOn_Ici.monotoneOn (by norm_num) (by simp only [Set.mem_Ici]; linarith) (by linarith)
  have h1 : x ^ mu ≤ 1 := rpow_le_one hx (hxy.trans hy) hmu
  have h2 : exp (x ^ 2) ≤ E := (exp_le_exp.2 (by gcongr)).trans hE
  have h3 : x ^ 20 * x ^ mu ≤ y ^ 20 := by
    calc x ^ 20 * x ^ mu ≤ x ^ 20 * 1 := by gcongr
      _ ≤ y ^ 20 := by rw [mul_one]; gcongr
  have h4 : 0 ≤ x ^ mu := rpow_nonneg hx mu
  have : (0 : ℝ) ≤ y := hx.trans hxy
  gcongr

/-- **C76** with the shipped constants the ten terms that start the ODE method and the polar problem at the inner circle differ
from `eval_v` by less than `1e-22` for `IH_Bessel` and `1e-17` for `IHZ_Bessel_Quadratic`, far below double precision. -/
theorem C76_shipped {a nu : ℝ} (hnu : 0 ≤ nu) {r : ℝ} (hr : 0 ≤ r) (hr0 : r ≤ zR0) (th : ℝ) :
    |ihV besselJ ihKK ihK a nu r th - ihVSeries ihKK ihK a nu r th| ≤ 1 / 10 ^ 22 ∧
    |quadV besselJ quadK a nu r th - quadVSeries quadK a nu r th| ≤ 1 / 10 ^ 17 := by
  unfold zR0 at hr0
  have he : exp 1 ≤ 3 := exp_one_lt_three.le
  have hE : ∀ y : ℝ, y ^ 2 ≤ 1 → exp (y ^ 2) ≤ 3 := fun y hy => (exp_le_exp.2 hy).trans he
  constructor
  · refine (C76_ih (by norm_num [ihK]) hnu ihKK a hr th).trans ?_
    refine (tail_ten (y := 27 / 80) (by positivity) (by unfold ihK; positivity) ?_ (by norm_num) (hE _ (by norm_num))).trans (by norm_num)
    unfold ihK
    linarith
  · refine (C76_quad (by norm_num [quadK]) hnu a hr th).trans ?_
    rw [add_mul]
    have hb : quadK * r / 2 ≤ 43 / 80 := by unfold quadK; linarith
    have h0 : 0 ≤ quadK * r / 2 := by unfold quadK; positivity
    have t1 := tail_ten (mu := nu / 2) (by positivity) h0 hb (by norm_num) (hE _ (by norm_num))
    have t3 := tail_ten (mu := 3 * nu / 2) (by positivity) h0 hb (by norm_num) (hE _ (by norm_num))
    refine (add_le_add t1 t3).trans (by norm_num)

/-- C76: the contract is met by a function that is not zero -/
theorem besselJ_half : BesselAt (1 / 2) (besselJ (1 / 2)) 1 ∧ besselJ (1 / 2) 1 ≠ 0 := by
  refine ⟨C76_bessel (by norm_num) one_pos, fun h => ?_⟩
  have hG : 0 < Gamma (1 / 2 + 1) := Gamma_pos_of_pos (by norm_num)
  have ht := C76_truncation (mu := 1 / 2) (by norm_num) (x := 1) zero_le_one 1
  have hp : (0 : ℝ) < (1 / 2) ^ (1 / 2 : ℝ) := by positivity
  have e2 : Gamma (1 / 2 + ((1 : ℕ) : ℝ) + 1) = (1 / 2 + 1) * Gamma (1 / 2 + 1) := by
    rw [Nat.cast_one, Gamma_add_one (by norm_num)]
  have hE : exp ((1 / 2 : ℝ) ^ 2) ≤ 3 := (exp_le_exp.2 (by norm_num)).trans exp_one_lt_three.le
  rw [h, Finset.sum_range_one, e2, zero_sub, abs_neg] at ht
  simp only [besselTerm, pow_zero, Nat.factorial_zero, Nat.factorial_one, Nat.cast_one, Nat.cast_zero, mul_zero, add_zero, one_mul, mul_one] at ht
  rw [abs_of_pos (by positivity)] at ht
  have h2 : 1 / Gamma (1 / 2 + 1) * (1 / 2) ^ (1 / 2 : ℝ) * (1 : ℝ)
      ≤ 1 / Gamma (1 / 2 + 1) * (1 / 2) ^ (1 / 2 : ℝ) * ((1 / 2) ^ 2 / (3 / 2) * 3) := by
    calc _ ≤ (1 / 2) ^ 2 * (1 / 2) ^ (1 / 2 : ℝ) / ((1 / 2 + 1) * Gamma (1 / 2 + 1)) * exp ((1 / 2 : ℝ) ^ 2) := by
          simpa using ht
      _ ≤ (1 / 2) ^ 2 * (1 / 2) ^ (1 / 2 : ℝ) / ((1 / 2 + 1) * Gamma (1 / 2 + 1)) * 3 := by gcongr
      _ = _ := by field_simp; ring
  have h3 : 0 < 1 / Gamma (1 / 2 + 1) * (1 / 2) ^ (1 / 2 : ℝ) := by positivity
  nlinarith

/-- C74: the slit domain `a = 0` with the datum `3 sin(th / 2)`, one term, two nodes and the Bessel function itself -/
example : ∃ ac, skACoef besselJ 2 1 (fun th => 3 * sin (th / 2)) 1 1 0 (1 / 2) = .ok ac ∧
    skExpectedPolar besselJ ac 1 (fun _ _ => 0) 1 0 (1 / 2) 1 π = .ok 3 := by
  have hpi := pi_pos
  have hJ : ∀ m : ℕ, 1 ≤ m → m ≤ 1 → besselJ (m * (1 / 2)) (1 * 1) ≠ 0 := fun m h1 h2 => by
    obtain rfl : m = 1 := by omega
    rw [Nat.cast_one, one_mul, one_mul]
    exact besselJ_half.2
  obtain ⟨ac, h1, W, h2, h3, -⟩ := C74_known besselJ (n := 2) (mMax := 1) (by norm_num) (k := 1) (R := 1) (a := 0) (nu := 1 / 2)
    (by linarith) (by field_simp; ring) hJ (fun th => 3 * sin (th / 2)) (fun _ => 3)
    (fun th => by rw [Finset.sum_range_one]; push_cast; ring_nf) (fun _ _ => 0)
  refine ⟨ac, h1, ?_⟩
  rw [h2, h3, sin_pi_div_two]
  norm_num

/-- C71: the shipped wedge `a = π / 4`: the data of the three problems at the corners of the circle of radius 2.3 -/
example : izPhi0 besselJ ihKK ihK probA probNu (fun _ => probR) probA = 0 ∧
    linePhi0 besselJ ihKK ihK probA probNu (fun _ => probR) (2 * π) = linePhi1 besselJ false ihKK ihK probNu probR probR ∧
    quadPhi0 besselJ quadK probA probNu (fun _ => probR) probA = quadPhi2 besselJ quadK probNu probR := by
  have hpi := pi_pos
  have hA : probA ≠ 2 * π := by unfold probA; intro h; linarith
  have hA0 : probA ≠ 0 := by unfold probA; positivity
  have hR : 0 < probR := by unfold probR; norm_num
  exact ⟨(C71_iz besselJ ihKK ihK probA probNu fun _ => probR).2.2.2.2.1,
    (C71_line besselJ false ihKK ihK hA probNu hR fun _ => probR).2.2.1 hR le_rfl,
    (C71_quad besselJ quadK hA hA0 rfl fun _ => probR).2.2.2.1 hR⟩

/-- C71: with `K = 1` the function `eval_v` would have the wrong sign on the side `th = 2π` -/
example : ihV (fun _ x => x) 1 1 0 (1 / 2) 1 (2 * π) = -1 ∧ ihG (fun _ x => x) false 1 1 0 (1 / 2) 1 1 (2 * π) = 1 := by
  have hpi := pi_pos
  have h := (C71_v_sides (fun _ x => x) (a := 0) (nu := 1 / 2) (by linarith) (by field_simp; ring) 1 1 1 1).2.2 odd_one
  have hg : ihG (fun _ x => x) false 1 1 0 (1 / 2) 1 1 (2 * π) = 1 := by
    simp only [ihG]
    simp
  exact ⟨by rw [h, hg], hg⟩

end Pot
