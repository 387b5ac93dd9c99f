import Verif.Model.ZAlgebra
import Mathlib.Analysis.Calculus.ContDiff.Basic
import Mathlib.Analysis.Calculus.ContDiff.Operations
import Mathlib.Analysis.Calculus.IteratedDeriv.Defs
import Mathlib.Analysis.Calculus.Deriv.MeanValue
import Mathlib.Analysis.Calculus.Deriv.Add
import Mathlib.Analysis.Calculus.Deriv.Pow
import Mathlib.Analysis.Calculus.Deriv.Mul
import Mathlib.Tactic.FieldSimp
import Mathlib.Tactic.Linarith
import Mathlib.Tactic.NormNum

/-!
# C52: the tapering function
-/

namespace Pot
open Filter Topology Set

/-- gluing two functions with the same value and derivative at the joint -/
theorem hasDerivAt_glue {f g f' g' : ℝ → ℝ} (c : ℝ) (h0 : f c = g c) (h1 : f' c = g' c)
    (hf : ∀ x ≤ c, HasDerivAt f (f' x) x) (hg : ∀ x, c ≤ x → HasDerivAt g (g' x) x) (x : ℝ) :
    HasDerivAt (fun x => if x < c then f x else g x) (if x < c then f' x else g' x) x := by
  rcases lt_trichotomy x c with h | h | h
  · rw [if_pos h]
    refine (hf x h.le).congr_of_eventuallyEq ?_
    filter_upwards [Iio_mem_nhds h] with y hy
    exact if_pos hy
  · subst h
    rw [if_neg (lt_irrefl _)]
    have l : HasDerivWithinAt (fun y => if y < x then f y else g y) (g' x) (Iic x) x := by
      rw [← h1]
      refine (hf x le_rfl).hasDerivWithinAt.congr (fun y hy => ?_) (by simp [h0])
      rcases lt_or_eq_of_le (show y ≤ x from hy) with h | h
      · exact if_pos h
      · subst h; simp [h0]
    have r : HasDerivWithinAt (fun y => if y < x then f y else g y) (g' x) (Ici x) x :=
      (hg x le_rfl).hasDerivWithinAt.congr (fun y hy => if_neg (not_lt.2 hy)) (by simp)
    have := l.union r
    rwa [Iic_union_Ici, hasDerivWithinAt_univ] at this
  · rw [if_neg (not_lt.2 h.le)]
    refine (hg x h.le).congr_of_eventuallyEq ?_
    filter_upwards [Ioi_mem_nhds h] with y hy
    exact if_neg (not_lt.2 (le_of_lt hy))

/-- powers of the positive part -/
theorem posPart_pow_deriv (n : ℕ) (x : ℝ) : HasDerivAt (fun x : ℝ => max x 0 ^ (n + 2)) ((n + 2 : ℕ) * max x 0 ^ (n + 1)) x := by
  have := hasDerivAt_glue (f := fun _ => 0) (g := fun x : ℝ => x ^ (n + 2)) (f' := fun _ => 0)
    (g' := fun x => (n + 2 : ℕ) * x ^ (n + 1)) 0 (by simp) (by simp) (fun x _ => hasDerivAt_const _ _)
    (fun x _ => by simpa using hasDerivAt_pow (n + 2) x) x
  have e : ∀ m : ℕ, ∀ y : ℝ, max y 0 ^ (m + 1) = if y < 0 then 0 else y ^ (m + 1) := by
    intro m y
    by_cases h : y < 0
    · rw [max_eq_right h.le, if_pos h]; simp
    · rw [max_eq_left (not_lt.1 h), if_neg h]
  have e1 : (fun x : ℝ => max x 0 ^ (n + 2)) = fun x => if x < 0 then 0 else x ^ (n + 2) := funext (e (n + 1))
  rw [e1, e n]
  refine this.congr_deriv ?_
  by_cases h : x < 0 <;> simp [h]

theorem posPart_pow_contDiff : ∀ n : ℕ, ContDiff ℝ n (fun x : ℝ => max x 0 ^ (n + 1))
  | 0 => by
    simp only [zero_add, pow_one]
    exact contDiff_zero.2 (by fun_prop)
  | n + 1 => by
    have h : ∀ x, HasDerivAt (fun x : ℝ => max x 0 ^ (n + 1 + 1)) ((n + 2 : ℕ) * max x 0 ^ (n + 1)) x :=
      fun x => posPart_pow_deriv n x
    rw [show ((n + 1 : ℕ) : WithTop ℕ∞) = (n : WithTop ℕ∞) + 1 by norm_cast, contDiff_succ_iff_deriv]
    refine ⟨fun x => (h x).differentiableAt, by simp, ?_⟩
    rw [show deriv (fun x : ℝ => max x 0 ^ (n + 1 + 1)) = fun x => ((n + 2 : ℕ) : ℝ) * max x 0 ^ (n + 1) from
      funext fun x => (h x).deriv]
    exact contDiff_const.mul (posPart_pow_contDiff n)

theorem taperPoly_deriv (x : ℝ) : HasDerivAt taperPoly (12012 * x ^ 6 * (1 - x) ^ 6) x := by
  unfold taperPoly
  refine HasDerivAt.congr_deriv ((hasDerivAt_pow 7 x).fun_mul (((((((hasDerivAt_pow 6 x).const_mul 924).fun_sub
    ((hasDerivAt_pow 5 x).const_mul 6006)).fun_add ((hasDerivAt_pow 4 x).const_mul 16380)).fun_sub
    ((hasDerivAt_pow 3 x).const_mul 24024)).fun_add ((hasDerivAt_pow 2 x).const_mul 20020)).fun_sub
    ((hasDerivAt_id' x).const_mul 9009)|>.add_const 1716)) ?_
  norm_num
  ring

theorem taperPoly_one : taperPoly 1 = 1 := by norm_num [taperPoly]
theorem taperPoly_zero : taperPoly 0 = 0 := by norm_num [taperPoly]

/-- the derivative of the piecewise polynomial -/
theorem taperP_deriv (x : ℝ) : HasDerivAt taperP (12012 * max x 0 ^ 6 * max (1 - x) 0 ^ 6) x := by
  have h1 := hasDerivAt_glue (f := taperPoly) (g := fun _ => 1) (f' := fun x => 12012 * x ^ 6 * (1 - x) ^ 6) (g' := fun _ => 0) 1
    (by simp [taperPoly_one]) (by norm_num) (fun x _ => taperPoly_deriv x) (fun x _ => hasDerivAt_const _ _)
  have h2 := hasDerivAt_glue (f := fun _ => 0) (f' := fun _ => 0) 0 (by simp [taperPoly_zero]) (by norm_num)
    (fun x _ => hasDerivAt_const _ _) (fun x _ => h1 x) x
  have e : taperP = fun x => if x < 0 then 0 else if x < 1 then taperPoly x else 1 := by
    funext y
    unfold taperP
    by_cases h0 : y < 0
    · rw [if_pos h0, if_pos h0]
    · rw [if_neg h0, if_neg h0]
      rcases lt_trichotomy y 1 with h | h | h
      · rw [if_pos h.le, if_pos h]
      · subst h; simp [taperPoly_one]
      · rw [if_neg (not_le.2 h), if_neg (not_lt.2 h.le)]
  rw [e]
  refine h2.congr_deriv ?_
  by_cases h0 : x < 0
  · rw [if_pos h0, max_eq_right h0.le]; norm_num
  · rw [if_neg h0, max_eq_left (not_lt.1 h0)]
    by_cases h : x < 1
    · rw [if_pos h, max_eq_left (by linarith)]
    · rw [if_neg h, max_eq_right (by linarith)]; norm_num

theorem taperP_contDiff : ContDiff ℝ 6 taperP := by
  rw [show (6 : WithTop ℕ∞) = 5 + 1 by norm_num, contDiff_succ_iff_deriv]
  refine ⟨fun x => (taperP_deriv x).differentiableAt, by simp, ?_⟩
  rw [show deriv taperP = fun x => 12012 * max x 0 ^ 6 * max (1 - x) 0 ^ 6 from funext fun x => (taperP_deriv x).deriv]
  have h := posPart_pow_contDiff 5
  exact (contDiff_const.mul h).mul (h.comp (contDiff_const.sub contDiff_id))

theorem taperP_mono : Monotone taperP :=
  monotone_of_deriv_nonneg (fun x => (taperP_deriv x).differentiableAt) fun x => by
    rw [(taperP_deriv x).deriv]; positivity

theorem taperP_of_nonpos {x : ℝ} (h : x ≤ 0) : taperP x = 0 := by
  unfold taperP
  rcases lt_or_eq_of_le h with h | h
  · rw [if_pos h]
  · subst h; simp [taperPoly_zero]

theorem taperP_of_ge_one {x : ℝ} (h : 1 ≤ x) : taperP x = 1 := by
  unfold taperP
  rw [if_neg (by linarith)]
  rcases lt_or_eq_of_le h with h | h
  · rw [if_neg (by linarith)]
  · subst h; simp [taperPoly_one]

/-- **C52** the tapering function is 1 up to `R0`, 0 from `R` on, between 0 and 1, non-increasing, and six times
continuously differentiable. -/
theorem C52_taper {R0 R : ℝ} (h : R0 < R) :
    (∀ r ≤ R0, taper R0 R r = 1) ∧ (∀ r, R ≤ r → taper R0 R r = 0) ∧ (∀ r, 0 ≤ taper R0 R r ∧ taper R0 R r ≤ 1) ∧
    Antitone (taper R0 R) ∧ ContDiff ℝ 6 (taper R0 R) := by
  have hd : 0 < R - R0 := by linarith
  refine ⟨?_, ?_, ?_, ?_, ?_⟩
  · intro r hr
    refine taperP_of_ge_one ?_
    have : (r - R0) / (R - R0) ≤ 0 := div_nonpos_of_nonpos_of_nonneg (by linarith) hd.le
    linarith
  · intro r hr
    refine taperP_of_nonpos ?_
    have : 1 ≤ (r - R0) / (R - R0) := (one_le_div hd).2 (by linarith)
    linarith
  · intro r
    unfold taper
    set x := 1 - (r - R0) / (R - R0)
    constructor
    · rcases le_total x 0 with hx | hx
      · rw [taperP_of_nonpos hx]
      · rw [← taperP_of_nonpos le_rfl]; exact taperP_mono hx
    · rcases le_total 1 x with hx | hx
      · rw [taperP_of_ge_one hx]
      · rw [← taperP_of_ge_one le_rfl]; exact taperP_mono hx
  · intro r s hrs
    refine taperP_mono ?_
    have : (r - R0) / (R - R0) ≤ (s - R0) / (R - R0) := div_le_div_of_nonneg_right (by linarith) hd.le
    linarith
  · unfold taper
    exact taperP_contDiff.comp (contDiff_const.sub ((contDiff_id.sub contDiff_const).div_const _))

/-- **C52** strictly between `R0` and `R` the function is strictly between 0 and 1. -/
theorem C52_strict {R0 R r : ℝ} (h0 : R0 < r) (h1 : r < R) : 0 < taper R0 R r ∧ taper R0 R r < 1 := by
  have hd : 0 < R - R0 := by linarith
  have hx0 : 0 < 1 - (r - R0) / (R - R0) := by
    have : (r - R0) / (R - R0) < 1 := (div_lt_one hd).2 (by linarith)
    linarith
  have hx1 : 1 - (r - R0) / (R - R0) < 1 := by
    have : 0 < (r - R0) / (R - R0) := div_pos (by linarith) hd
    linarith
  have hs : StrictMonoOn taperP (Icc 0 1) := by
    refine strictMonoOn_of_deriv_pos (convex_Icc 0 1) (fun x _ => (taperP_deriv x).continuousAt.continuousWithinAt) ?_
    intro x hx
    rw [interior_Icc] at hx
    rw [(taperP_deriv x).deriv, max_eq_left hx.1.le, max_eq_left (by linarith [hx.2])]
    have : 0 < 1 - x := by linarith [hx.2]
    have := hx.1
    positivity
  constructor
  · rw [← taperP_of_nonpos le_rfl]
    exact hs ⟨le_rfl, zero_le_one⟩ ⟨hx0.le, hx1.le⟩ hx0
  · rw [← taperP_of_ge_one le_rfl]
    exact hs ⟨hx0.le, hx1.le⟩ ⟨zero_le_one, le_rfl⟩ hx1

/-- C52: the shipped radii -/
example : taper (1 / 10) (23 / 10) (12 / 10) = 1 / 2 := by
  unfold taper taperP taperPoly
  norm_num

end Pot
