import Verif.Spec.Frame
import Verif.Spec.Polar
import Verif.Proofs.TaylorN

/-! # Truncation error of the compact polar scheme -/

namespace Pot
open Spec

section odd
variable {g : ℕ → ℝ → ℂ} {h M : ℝ}

/-- central first difference with three derivatives -/
theorem central3 (h0 : 0 ≤ h) (hg : ∀ i < 3, ∀ t, |t| ≤ h → HasDerivAt (g i) (g (i + 1) t) t)
    (hM : ∀ t, |t| ≤ h → ‖g 3 t‖ ≤ M) :
    ‖g 0 h - g 0 (-h) - 2 * g 1 0 * h‖ ≤ M / 3 * h ^ 3 := by
  have a := taylorN 3 (g := g) (n := h) (M := M) (fun i hi t ht _ => hg i hi t (by rwa [abs_of_nonneg h0] at ht))
    (fun t ht _ => hM t (by rwa [abs_of_nonneg h0] at ht))
  have b := taylorN 3 (g := g) (n := -h) (M := M)
    (fun i hi t ht _ => hg i hi t (by rwa [abs_neg, abs_of_nonneg h0] at ht))
    (fun t ht _ => hM t (by rwa [abs_neg, abs_of_nonneg h0] at ht))
  rw [abs_neg] at b
  rw [abs_of_nonneg h0] at a b
  have n3 : ((3 : ℕ).factorial : ℝ) = 6 := by norm_num [Nat.factorial]
  rw [n3] at a b
  have n0 : ((0 : ℕ).factorial : ℂ) = 1 := by norm_num [Nat.factorial]
  have n1 : ((1 : ℕ).factorial : ℂ) = 1 := by norm_num [Nat.factorial]
  have n2 : ((2 : ℕ).factorial : ℂ) = 2 := by norm_num [Nat.factorial]
  simp only [Finset.sum_range_succ, Finset.sum_range_zero, n0, n1, n2, Complex.ofReal_neg] at a b
  have e : g 0 h - g 0 (-h) - 2 * g 1 0 * h =
      (g 0 h - (0 + g 0 0 / 1 * (h : ℂ) ^ 0 + g 1 0 / 1 * (h : ℂ) ^ 1 + g 2 0 / 2 * (h : ℂ) ^ 2)) -
      (g 0 (-h) - (0 + g 0 0 / 1 * (-(h : ℂ)) ^ 0 + g 1 0 / 1 * (-(h : ℂ)) ^ 1 + g 2 0 / 2 * (-(h : ℂ)) ^ 2)) := by
    ring
  rw [e]
  refine (norm_sub_le _ _).trans ?_
  refine (add_le_add a b).trans (le_of_eq ?_)
  ring

/-- central first difference with five derivatives -/
theorem central5 (h0 : 0 ≤ h) (hg : ∀ i < 5, ∀ t, |t| ≤ h → HasDerivAt (g i) (g (i + 1) t) t)
    (hM : ∀ t, |t| ≤ h → ‖g 5 t‖ ≤ M) :
    ‖g 0 h - g 0 (-h) - 2 * g 1 0 * h - g 3 0 / 3 * (h : ℂ) ^ 3‖ ≤ M / 60 * h ^ 5 := by
  have a := taylorN 5 (g := g) (n := h) (M := M) (fun i hi t ht _ => hg i hi t (by rwa [abs_of_nonneg h0] at ht))
    (fun t ht _ => hM t (by rwa [abs_of_nonneg h0] at ht))
  have b := taylorN 5 (g := g) (n := -h) (M := M)
    (fun i hi t ht _ => hg i hi t (by rwa [abs_neg, abs_of_nonneg h0] at ht))
    (fun t ht _ => hM t (by rwa [abs_neg, abs_of_nonneg h0] at ht))
  rw [abs_neg] at b
  rw [abs_of_nonneg h0] at a b
  have n5 : ((5 : ℕ).factorial : ℝ) = 120 := by norm_num [Nat.factorial]
  rw [n5] at a b
  have n0 : ((0 : ℕ).factorial : ℂ) = 1 := by norm_num [Nat.factorial]
  have n1 : ((1 : ℕ).factorial : ℂ) = 1 := by norm_num [Nat.factorial]
  have n2 : ((2 : ℕ).factorial : ℂ) = 2 := by norm_num [Nat.factorial]
  have n3 : ((3 : ℕ).factorial : ℂ) = 6 := by norm_num [Nat.factorial]
  have n4 : ((4 : ℕ).factorial : ℂ) = 24 := by norm_num [Nat.factorial]
  simp only [Finset.sum_range_succ, Finset.sum_range_zero, n0, n1, n2, n3, n4, Complex.ofReal_neg] at a b
  have e : g 0 h - g 0 (-h) - 2 * g 1 0 * h - g 3 0 / 3 * (h : ℂ) ^ 3 =
      (g 0 h - (0 + g 0 0 / 1 * (h : ℂ) ^ 0 + g 1 0 / 1 * (h : ℂ) ^ 1 + g 2 0 / 2 * (h : ℂ) ^ 2
        + g 3 0 / 6 * (h : ℂ) ^ 3 + g 4 0 / 24 * (h : ℂ) ^ 4)) -
      (g 0 (-h) - (0 + g 0 0 / 1 * (-(h : ℂ)) ^ 0 + g 1 0 / 1 * (-(h : ℂ)) ^ 1 + g 2 0 / 2 * (-(h : ℂ)) ^ 2
        + g 3 0 / 6 * (-(h : ℂ)) ^ 3 + g 4 0 / 24 * (-(h : ℂ)) ^ 4)) := by
    ring
  rw [e]
  refine (norm_sub_le _ _).trans ?_
  refine (add_le_add a b).trans (le_of_eq ?_)
  ring

end odd

/-! ## Difference quotients of functions of two variables at the point `(r, θ)` -/

section
variable (F : ℝ × ℝ → ℂ) (h t r θ : ℝ)

/-- second difference quotient in the radius -/
noncomputable def Qrr : ℂ := (F (r + h, θ) + F (r - h, θ) - 2 * F (r, θ)) / (h : ℂ) ^ 2
/-- central difference quotient in the radius -/
noncomputable def Qr : ℂ := (F (r + h, θ) - F (r - h, θ)) / (2 * h)
/-- second difference quotient in the angle -/
noncomputable def Qtt : ℂ := (F (r, θ + t) + F (r, θ - t) - 2 * F (r, θ)) / (t : ℂ) ^ 2

end

theorem norm_div_pow_le {x : ℂ} {h B : ℝ} (hh : 0 < h) {n : ℕ} (hx : ‖x‖ ≤ B * h ^ n) : ‖x / (h : ℂ) ^ n‖ ≤ B := by
  rw [norm_div, norm_pow, Complex.norm_real, Real.norm_eq_abs, abs_of_pos hh, div_le_iff₀ (by positivity)]
  exact hx

/-- a family of radial derivatives near `r` -/
theorem Qrr_two {F : ℕ → ℝ × ℝ → ℂ} {h r θ M : ℝ} (h0 : 0 < h)
    (hF : ∀ i < 4, ∀ s, |s| ≤ h → HasDerivAt (fun s => F i (r + s, θ)) (F (i + 1) (r + s, θ)) s)
    (hM : ∀ s, |s| ≤ h → ‖F 4 (r + s, θ)‖ ≤ M) : ‖Qrr (F 0) h r θ - F 2 (r, θ)‖ ≤ M / 12 * h ^ 2 := by
  have := central4 (g := fun i s => F i (r + s, θ)) h0.le hF hM
  have hc : (h : ℂ) ≠ 0 := by exact_mod_cast h0.ne'
  have e : Qrr (F 0) h r θ - F 2 (r, θ) =
      (F 0 (r + h, θ) + F 0 (r + -h, θ) - 2 * F 0 (r + 0, θ) - F 2 (r + 0, θ) * (h : ℂ) ^ 2) / (h : ℂ) ^ 2 := by
    unfold Qrr
    rw [add_zero, ← sub_eq_add_neg]
    field_simp
  rw [e]
  refine norm_div_pow_le h0 (this.trans (le_of_eq ?_))
  ring

theorem Qrr_four {F : ℕ → ℝ × ℝ → ℂ} {h r θ M : ℝ} (h0 : 0 < h)
    (hF : ∀ i < 6, ∀ s, |s| ≤ h → HasDerivAt (fun s => F i (r + s, θ)) (F (i + 1) (r + s, θ)) s)
    (hM : ∀ s, |s| ≤ h → ‖F 6 (r + s, θ)‖ ≤ M) :
    ‖Qrr (F 0) h r θ - F 2 (r, θ) - (h : ℂ) ^ 2 / 12 * F 4 (r, θ)‖ ≤ M / 360 * h ^ 4 := by
  have := central6 (g := fun i s => F i (r + s, θ)) h0.le hF hM
  have hc : (h : ℂ) ≠ 0 := by exact_mod_cast h0.ne'
  have e : Qrr (F 0) h r θ - F 2 (r, θ) - (h : ℂ) ^ 2 / 12 * F 4 (r, θ) =
      (F 0 (r + h, θ) + F 0 (r + -h, θ) - 2 * F 0 (r + 0, θ) - F 2 (r + 0, θ) * (h : ℂ) ^ 2
        - F 4 (r + 0, θ) / 12 * (h : ℂ) ^ 4) / (h : ℂ) ^ 2 := by
    unfold Qrr
    rw [add_zero, ← sub_eq_add_neg]
    field_simp
  rw [e]
  refine norm_div_pow_le h0 (this.trans (le_of_eq ?_))
  ring

theorem Qr_two {F : ℕ → ℝ × ℝ → ℂ} {h r θ M : ℝ} (h0 : 0 < h)
    (hF : ∀ i < 3, ∀ s, |s| ≤ h → HasDerivAt (fun s => F i (r + s, θ)) (F (i + 1) (r + s, θ)) s)
    (hM : ∀ s, |s| ≤ h → ‖F 3 (r + s, θ)‖ ≤ M) : ‖Qr (F 0) h r θ - F 1 (r, θ)‖ ≤ M / 6 * h ^ 2 := by
  have := central3 (g := fun i s => F i (r + s, θ)) h0.le hF hM
  have hc : (h : ℂ) ≠ 0 := by exact_mod_cast h0.ne'
  have e : Qr (F 0) h r θ - F 1 (r, θ) =
      ((F 0 (r + h, θ) - F 0 (r + -h, θ) - 2 * F 1 (r + 0, θ) * h) / 2) / (h : ℂ) ^ 1 := by
    unfold Qr
    rw [add_zero, ← sub_eq_add_neg]
    field_simp
  rw [e]
  refine norm_div_pow_le h0 ?_
  rw [norm_div, show ‖(2 : ℂ)‖ = 2 by simp]
  linarith

theorem Qr_four {F : ℕ → ℝ × ℝ → ℂ} {h r θ M : ℝ} (h0 : 0 < h)
    (hF : ∀ i < 5, ∀ s, |s| ≤ h → HasDerivAt (fun s => F i (r + s, θ)) (F (i + 1) (r + s, θ)) s)
    (hM : ∀ s, |s| ≤ h → ‖F 5 (r + s, θ)‖ ≤ M) :
    ‖Qr (F 0) h r θ - F 1 (r, θ) - (h : ℂ) ^ 2 / 6 * F 3 (r, θ)‖ ≤ M / 120 * h ^ 4 := by
  have := central5 (g := fun i s => F i (r + s, θ)) h0.le hF hM
  have hc : (h : ℂ) ≠ 0 := by exact_mod_cast h0.ne'
  have e : Qr (F 0) h r θ - F 1 (r, θ) - (h : ℂ) ^ 2 / 6 * F 3 (r, θ) =
      ((F 0 (r + h, θ) - F 0 (r + -h, θ) - 2 * F 1 (r + 0, θ) * h - F 3 (r + 0, θ) / 3 * (h : ℂ) ^ 3) / 2)
        / (h : ℂ) ^ 1 := by
    unfold Qr
    rw [add_zero, ← sub_eq_add_neg]
    field_simp
    ring
  rw [e]
  refine norm_div_pow_le h0 ?_
  rw [norm_div, show ‖(2 : ℂ)‖ = 2 by simp]
  linarith

theorem Qtt_two {F : ℕ → ℝ × ℝ → ℂ} {t r θ M : ℝ} (h0 : 0 < t)
    (hF : ∀ i < 4, ∀ s, |s| ≤ t → HasDerivAt (fun s => F i (r, θ + s)) (F (i + 1) (r, θ + s)) s)
    (hM : ∀ s, |s| ≤ t → ‖F 4 (r, θ + s)‖ ≤ M) : ‖Qtt (F 0) t r θ - F 2 (r, θ)‖ ≤ M / 12 * t ^ 2 := by
  have := central4 (g := fun i s => F i (r, θ + s)) h0.le hF hM
  have hc : (t : ℂ) ≠ 0 := by exact_mod_cast h0.ne'
  have e : Qtt (F 0) t r θ - F 2 (r, θ) =
      (F 0 (r, θ + t) + F 0 (r, θ + -t) - 2 * F 0 (r, θ + 0) - F 2 (r, θ + 0) * (t : ℂ) ^ 2) / (t : ℂ) ^ 2 := by
    unfold Qtt
    rw [add_zero, ← sub_eq_add_neg]
    field_simp
  rw [e]
  refine norm_div_pow_le h0 (this.trans (le_of_eq ?_))
  ring

theorem Qtt_four {F : ℕ → ℝ × ℝ → ℂ} {t r θ M : ℝ} (h0 : 0 < t)
    (hF : ∀ i < 6, ∀ s, |s| ≤ t → HasDerivAt (fun s => F i (r, θ + s)) (F (i + 1) (r, θ + s)) s)
    (hM : ∀ s, |s| ≤ t → ‖F 6 (r, θ + s)‖ ≤ M) :
    ‖Qtt (F 0) t r θ - F 2 (r, θ) - (t : ℂ) ^ 2 / 12 * F 4 (r, θ)‖ ≤ M / 360 * t ^ 4 := by
  have := central6 (g := fun i s => F i (r, θ + s)) h0.le hF hM
  have hc : (t : ℂ) ≠ 0 := by exact_mod_cast h0.ne'
  have e : Qtt (F 0) t r θ - F 2 (r, θ) - (t : ℂ) ^ 2 / 12 * F 4 (r, θ) =
      (F 0 (r, θ + t) + F 0 (r, θ + -t) - 2 * F 0 (r, θ + 0) - F 2 (r, θ + 0) * (t : ℂ) ^ 2
        - F 4 (r, θ + 0) / 12 * (t : ℂ) ^ 4) / (t : ℂ) ^ 2 := by
    unfold Qtt
    rw [add_zero, ← sub_eq_add_neg]
    field_simp
  rw [e]
  refine norm_div_pow_le h0 (this.trans (le_of_eq ?_))
  ring

theorem Qtt_zero {F : ℕ → ℝ × ℝ → ℂ} {t r θ M : ℝ} (h0 : 0 < t)
    (hF : ∀ i < 2, ∀ s, |s| ≤ t → HasDerivAt (fun s => F i (r, θ + s)) (F (i + 1) (r, θ + s)) s)
    (hM : ∀ s, |s| ≤ t → ‖F 2 (r, θ + s)‖ ≤ M) : ‖Qtt (F 0) t r θ‖ ≤ M := by
  have := central2 (g := fun i s => F i (r, θ + s)) h0.le hF hM
  unfold Qtt
  refine norm_div_pow_le h0 ?_
  simpa [sub_eq_add_neg] using this

/-- line derivatives of a jet -/
theorem JetOn.radial {Ω : Set (ℝ × ℝ)} {n : ℕ} {U : ℕ → ℕ → ℝ × ℝ → ℂ} (hU : JetOn Ω n U) {i j : ℕ} (hij : i + j < n)
    {r θ s : ℝ} (hp : (r + s, θ) ∈ Ω) :
    HasDerivAt (fun s => U i j (r + s, θ)) (U (i + 1) j (r + s, θ)) s := by
  have := JetOn.along hU hij ((hasDerivAt_id' s).const_add r) (hasDerivAt_const s θ) hp
  exact this.congr_deriv (by push_cast; ring)

theorem JetOn.angular {Ω : Set (ℝ × ℝ)} {n : ℕ} {U : ℕ → ℕ → ℝ × ℝ → ℂ} (hU : JetOn Ω n U) {i j : ℕ} (hij : i + j < n)
    {r θ s : ℝ} (hp : (r, θ + s) ∈ Ω) :
    HasDerivAt (fun s => U i j (r, θ + s)) (U i (j + 1) (r, θ + s)) s := by
  have := JetOn.along hU hij (hasDerivAt_const s r) ((hasDerivAt_id' s).const_add θ) hp
  exact this.congr_deriv (by push_cast; ring)

theorem nadd {x y : ℂ} {A B : ℝ} (hx : ‖x‖ ≤ A) (hy : ‖y‖ ≤ B) : ‖x + y‖ ≤ A + B :=
  (norm_add_le _ _).trans (add_le_add hx hy)
theorem nsub {x y : ℂ} {A B : ℝ} (hx : ‖x‖ ≤ A) (hy : ‖y‖ ≤ B) : ‖x - y‖ ≤ A + B :=
  (norm_sub_le _ _).trans (add_le_add hx hy)
theorem nmulc {c x : ℂ} {C B : ℝ} (hc : ‖c‖ ≤ C) (hx : ‖x‖ ≤ B) : ‖c * x‖ ≤ C * B := by
  rw [norm_mul]
  exact mul_le_mul hc hx (norm_nonneg _) ((norm_nonneg _).trans hc)
theorem nvpow {x v : ℂ} {B K : ℝ} (hK : 1 ≤ K) (hx : ‖x‖ ≤ B) (hv : ‖v‖ ≤ K) (m n : ℕ) (h : n ≤ m) :
    ‖x * v ^ n‖ ≤ B * K ^ m := by
  rw [norm_mul, norm_pow]
  have h1 : ‖v‖ ^ n ≤ K ^ m := (pow_le_pow_left₀ (norm_nonneg _) hv n).trans (pow_le_pow_right₀ hK h)
  exact mul_le_mul hx h1 (by positivity) ((norm_nonneg _).trans hx)

/-- the values `u_θθ / ρ²` with the angular derivative replaced by its difference quotient, and their first four radial
derivatives, from the radial derivatives `S i` of the difference quotient -/
noncomputable def quotFam (S : ℕ → ℝ × ℝ → ℂ) (i : ℕ) (p : ℝ × ℝ) : ℂ :=
  let v : ℂ := (p.1 : ℂ)⁻¹
  match i with
  | 0 => S 0 p * v ^ 2
  | 1 => S 1 p * v ^ 2 - 2 * (S 0 p * v ^ 3)
  | 2 => S 2 p * v ^ 2 - 4 * (S 1 p * v ^ 3) + 6 * (S 0 p * v ^ 4)
  | 3 => S 3 p * v ^ 2 - 6 * (S 2 p * v ^ 3) + 18 * (S 1 p * v ^ 4) - 24 * (S 0 p * v ^ 5)
  | 4 => S 4 p * v ^ 2 - 8 * (S 3 p * v ^ 3) + 36 * (S 2 p * v ^ 4) - 96 * (S 1 p * v ^ 5) + 120 * (S 0 p * v ^ 6)
  | _ => 0

theorem quotFam_deriv {S : ℕ → ℝ × ℝ → ℂ} {r θ s : ℝ} (hr : r + s ≠ 0)
    (hS : ∀ i < 4, HasDerivAt (fun s => S i (r + s, θ)) (S (i + 1) (r + s, θ)) s) (i : ℕ) (hi : i < 4) :
    HasDerivAt (fun s => quotFam S i (r + s, θ)) (quotFam S (i + 1) (r + s, θ)) s := by
  have hv : HasDerivAt (fun s : ℝ => (((r + s : ℝ) : ℂ))⁻¹) (-(((r + s : ℝ) : ℂ))⁻¹ ^ 2) s := by
    have hc : ((r + s : ℝ) : ℂ) ≠ 0 := by exact_mod_cast hr
    refine (((hasDerivAt_id' s).const_add r).ofReal_comp.fun_inv hc).congr_deriv ?_
    push_cast
    field_simp
  have d0 := hS 0 (by omega)
  have d1 := hS 1 (by omega)
  have d2 := hS 2 (by omega)
  have d3 := hS 3 (by omega)
  interval_cases i
  · refine HasDerivAt.congr_deriv (d0.fun_mul (hv.fun_pow 2)) ?_
    simp only [quotFam]; push_cast; ring
  · refine HasDerivAt.congr_deriv ((d1.fun_mul (hv.fun_pow 2)).fun_sub ((d0.fun_mul (hv.fun_pow 3)).const_mul 2)) ?_
    simp only [quotFam]; push_cast; ring
  · refine HasDerivAt.congr_deriv (((d2.fun_mul (hv.fun_pow 2)).fun_sub ((d1.fun_mul (hv.fun_pow 3)).const_mul 4)).fun_add
      ((d0.fun_mul (hv.fun_pow 4)).const_mul 6)) ?_
    simp only [quotFam]; push_cast; ring
  · refine HasDerivAt.congr_deriv ((((d3.fun_mul (hv.fun_pow 2)).fun_sub ((d2.fun_mul (hv.fun_pow 3)).const_mul 6)).fun_add
      ((d1.fun_mul (hv.fun_pow 4)).const_mul 18)).fun_sub ((d0.fun_mul (hv.fun_pow 5)).const_mul 24)) ?_
    simp only [quotFam]; push_cast; ring

theorem quotFam_bound {S : ℕ → ℝ × ℝ → ℂ} {p : ℝ × ℝ} {M K : ℝ} (hK : 1 ≤ K) (hv : ‖((p.1 : ℂ))⁻¹‖ ≤ K)
    (hS : ∀ i ≤ 4, ‖S i p‖ ≤ M) : ‖quotFam S 3 p‖ ≤ 49 * (M * K ^ 5) ∧ ‖quotFam S 4 p‖ ≤ 261 * (M * K ^ 6) := by
  have b : ∀ i ≤ 4, ∀ n ≤ 6, ‖S i p * ((p.1 : ℂ))⁻¹ ^ n‖ ≤ M * K ^ 6 := fun i hi n hn =>
    nvpow hK (hS i hi) hv 6 n hn
  have c : ∀ i ≤ 4, ∀ n ≤ 5, ‖S i p * ((p.1 : ℂ))⁻¹ ^ n‖ ≤ M * K ^ 5 := fun i hi n hn =>
    nvpow hK (hS i hi) hv 5 n hn
  constructor
  · simp only [quotFam]
    refine (nsub (nadd (nsub (c 3 (by omega) 2 (by omega)) (nmulc (C := 6) (by simp) (c 2 (by omega) 3 (by omega))))
      (nmulc (C := 18) (by simp) (c 1 (by omega) 4 (by omega))))
      (nmulc (C := 24) (by simp) (c 0 (by omega) 5 (by omega)))).trans (le_of_eq (by ring))
  · simp only [quotFam]
    refine (nadd (nsub (nadd (nsub (b 4 (by omega) 2 (by omega)) (nmulc (C := 8) (by simp) (b 3 (by omega) 3 (by omega))))
      (nmulc (C := 36) (by simp) (b 2 (by omega) 4 (by omega))))
      (nmulc (C := 96) (by simp) (b 1 (by omega) 5 (by omega))))
      (nmulc (C := 120) (by simp) (b 0 (by omega) 6 (by omega)))).trans (le_of_eq (by ring))

/-- the polar Helmholtz operator and the derivatives of the source it gives, from the partial derivatives of `u` -/
noncomputable def pSrc (U : ℕ → ℕ → ℝ × ℝ → ℂ) (k : ℝ) (p : ℝ × ℝ) : ℂ :=
  U 2 0 p + U 1 0 p / p.1 + U 0 2 p / (p.1 : ℂ) ^ 2 + (k : ℂ) ^ 2 * U 0 0 p
noncomputable def pSrcR (U : ℕ → ℕ → ℝ × ℝ → ℂ) (k : ℝ) (p : ℝ × ℝ) : ℂ :=
  U 3 0 p + U 2 0 p / p.1 - U 1 0 p / (p.1 : ℂ) ^ 2 + U 1 2 p / (p.1 : ℂ) ^ 2 - 2 * U 0 2 p / (p.1 : ℂ) ^ 3
    + (k : ℂ) ^ 2 * U 1 0 p
noncomputable def pSrcRR (U : ℕ → ℕ → ℝ × ℝ → ℂ) (k : ℝ) (p : ℝ × ℝ) : ℂ :=
  U 4 0 p + U 3 0 p / p.1 - 2 * U 2 0 p / (p.1 : ℂ) ^ 2 + 2 * U 1 0 p / (p.1 : ℂ) ^ 3 + U 2 2 p / (p.1 : ℂ) ^ 2
    - 4 * U 1 2 p / (p.1 : ℂ) ^ 3 + 6 * U 0 2 p / (p.1 : ℂ) ^ 4 + (k : ℂ) ^ 2 * U 2 0 p
noncomputable def pSrcTT (U : ℕ → ℕ → ℝ × ℝ → ℂ) (k : ℝ) (p : ℝ × ℝ) : ℂ :=
  U 2 2 p + U 1 2 p / p.1 + U 0 4 p / (p.1 : ℂ) ^ 2 + (k : ℂ) ^ 2 * U 0 2 p

theorem polar_key {r : ℝ} (hrc : (r : ℂ) ≠ 0) (h t k : ℝ) (ua ub s0 s1 s2 ga gb sa sb u00 u10 u20 u30 u40 u02 u12 u22 u04 v : ℂ) (hvdef : v = (r : ℂ)⁻¹) :
    (ua + ub / r) + (s0 / (r : ℂ) ^ 2 + (k : ℂ) ^ 2 * u00)
      + (h : ℂ) ^ 2 / 12 * (ga + (k : ℂ) ^ 2 * ua + (gb + (k : ℂ) ^ 2 * ub) / r
          + (s0 / (r : ℂ) ^ 2 + (k : ℂ) ^ 2 * u00) / (r : ℂ) ^ 2 + 2 / (r : ℂ) ^ 3 * ub)
      + (t : ℂ) ^ 2 / 12 * (sa + sb * v + (k : ℂ) ^ 2 * s0)
      - (u20 + u10 / r + u02 / (r : ℂ) ^ 2 + (k : ℂ) ^ 2 * u00
          + (h : ℂ) ^ 2 / 12 * (u40 + u30 / r - 2 * u20 / (r : ℂ) ^ 2 + 2 * u10 / (r : ℂ) ^ 3 + u22 / (r : ℂ) ^ 2
              - 4 * u12 / (r : ℂ) ^ 3 + 6 * u02 / (r : ℂ) ^ 4 + (k : ℂ) ^ 2 * u20
            + (u30 + u20 / r - u10 / (r : ℂ) ^ 2 + u12 / (r : ℂ) ^ 2 - 2 * u02 / (r : ℂ) ^ 3 + (k : ℂ) ^ 2 * u10) / r
            + (u20 + u10 / r + u02 / (r : ℂ) ^ 2 + (k : ℂ) ^ 2 * u00) / (r : ℂ) ^ 2)
          + (t : ℂ) ^ 2 / 12 * (u22 + u12 / r + u04 / (r : ℂ) ^ 2 + (k : ℂ) ^ 2 * u02))
      = (ua - u20 - (h : ℂ) ^ 2 / 12 * u40) * v ^ 0 + (ub - u10 - (h : ℂ) ^ 2 / 6 * u30) * v ^ 1
        + (s0 - u02 - (t : ℂ) ^ 2 / 12 * u04) * v ^ 2
        + ((h : ℂ) ^ 2 / 12) * ((s2 - u22) * v ^ 2) - ((h : ℂ) ^ 2 / 12) * (3 * ((s1 - u12) * v ^ 3))
        + ((h : ℂ) ^ 2 / 12) * (5 * ((s0 - u02) * v ^ 4))
        + ((h : ℂ) ^ 2 / 12) * ((ga - (s2 * v ^ 2 - 4 * (s1 * v ^ 3) + 6 * (s0 * v ^ 4))) * v ^ 0)
        + ((h : ℂ) ^ 2 / 12) * ((gb - (s1 * v ^ 2 - 2 * (s0 * v ^ 3))) * v ^ 1)
        + ((h : ℂ) ^ 2 / 12) * ((k : ℂ) ^ 2 * ((ua - u20) * v ^ 0))
        + ((h : ℂ) ^ 2 / 12) * ((k : ℂ) ^ 2 * ((ub - u10) * v ^ 1))
        + ((h : ℂ) ^ 2 / 12) * (2 * ((ub - u10) * v ^ 3))
        + ((t : ℂ) ^ 2 / 12) * ((s2 - u22) * v ^ 0) + ((t : ℂ) ^ 2 / 12) * ((sa - s2) * v ^ 0)
        + ((t : ℂ) ^ 2 / 12) * ((s1 - u12) * v ^ 1) + ((t : ℂ) ^ 2 / 12) * ((sb - s1) * v ^ 1)
        + ((t : ℂ) ^ 2 / 12) * ((k : ℂ) ^ 2 * ((s0 - u02) * v ^ 0)) := by
  rw [hvdef]
  field_simp
  ring

theorem polar_sum {h t k M K : ℝ} {ua ub s0 s1 s2 ga gb sa sb u00 u10 u20 u30 u40 u02 u12 u22 u04 v : ℂ} (hK : 1 ≤ K) (hM0 : 0 ≤ M) (hv : ‖v‖ ≤ K)
    (E1 : ‖ua - u20 - (h : ℂ) ^ 2 / 12 * u40‖ ≤ M / 360 * h ^ 4)
    (E2 : ‖ub - u10 - (h : ℂ) ^ 2 / 6 * u30‖ ≤ M / 120 * h ^ 4)
    (E3 : ‖s0 - u02 - (t : ℂ) ^ 2 / 12 * u04‖ ≤ M / 360 * t ^ 4)
    (e1 : ‖ga - (s2 * v ^ 2 - 4 * (s1 * v ^ 3) + 6 * (s0 * v ^ 4))‖ ≤ 261 * (M * K ^ 6) / 12 * h ^ 2)
    (e2 : ‖gb - (s1 * v ^ 2 - 2 * (s0 * v ^ 3))‖ ≤ 49 * (M * K ^ 5) / 6 * h ^ 2)
    (e3 : ‖s0 - u02‖ ≤ M / 12 * t ^ 2) (e4 : ‖s1 - u12‖ ≤ M / 12 * t ^ 2) (e5 : ‖s2 - u22‖ ≤ M / 12 * t ^ 2)
    (e6 : ‖ua - u20‖ ≤ M / 12 * h ^ 2) (e7 : ‖ub - u10‖ ≤ M / 6 * h ^ 2) (e8 : ‖sa - s2‖ ≤ M / 12 * h ^ 2)
    (e9 : ‖sb - s1‖ ≤ M / 6 * h ^ 2) :
    ‖(ua - u20 - (h : ℂ) ^ 2 / 12 * u40) * v ^ 0 + (ub - u10 - (h : ℂ) ^ 2 / 6 * u30) * v ^ 1
        + (s0 - u02 - (t : ℂ) ^ 2 / 12 * u04) * v ^ 2
        + ((h : ℂ) ^ 2 / 12) * ((s2 - u22) * v ^ 2) - ((h : ℂ) ^ 2 / 12) * (3 * ((s1 - u12) * v ^ 3))
        + ((h : ℂ) ^ 2 / 12) * (5 * ((s0 - u02) * v ^ 4))
        + ((h : ℂ) ^ 2 / 12) * ((ga - (s2 * v ^ 2 - 4 * (s1 * v ^ 3) + 6 * (s0 * v ^ 4))) * v ^ 0)
        + ((h : ℂ) ^ 2 / 12) * ((gb - (s1 * v ^ 2 - 2 * (s0 * v ^ 3))) * v ^ 1)
        + ((h : ℂ) ^ 2 / 12) * ((k : ℂ) ^ 2 * ((ua - u20) * v ^ 0))
        + ((h : ℂ) ^ 2 / 12) * ((k : ℂ) ^ 2 * ((ub - u10) * v ^ 1))
        + ((h : ℂ) ^ 2 / 12) * (2 * ((ub - u10) * v ^ 3))
        + ((t : ℂ) ^ 2 / 12) * ((s2 - u22) * v ^ 0) + ((t : ℂ) ^ 2 / 12) * ((sa - s2) * v ^ 0)
        + ((t : ℂ) ^ 2 / 12) * ((s1 - u12) * v ^ 1) + ((t : ℂ) ^ 2 / 12) * ((sb - s1) * v ^ 1)
        + ((t : ℂ) ^ 2 / 12) * ((k : ℂ) ^ 2 * ((s0 - u02) * v ^ 0))‖
      ≤ 3 * (M * K ^ 6 * (1 + k ^ 2)) * (h ^ 4 + t ^ 4) := by
  have ch : ‖(h : ℂ) ^ 2 / 12‖ ≤ h ^ 2 / 12 := by
    rw [norm_div, norm_pow, Complex.norm_real, Real.norm_eq_abs, sq_abs]
    norm_num
  have ct : ‖(t : ℂ) ^ 2 / 12‖ ≤ t ^ 2 / 12 := by
    rw [norm_div, norm_pow, Complex.norm_real, Real.norm_eq_abs, sq_abs]
    norm_num
  have ck : ‖(k : ℂ) ^ 2‖ ≤ k ^ 2 := by
    rw [norm_pow, Complex.norm_real, Real.norm_eq_abs, sq_abs]
  have c2 : ‖(2 : ℂ)‖ ≤ 2 := by simp
  have c3 : ‖(3 : ℂ)‖ ≤ 3 := by simp
  have c5 : ‖(5 : ℂ)‖ ≤ 5 := by simp
  have T := nadd (nadd (nadd (nadd (nadd (nadd (nadd (nadd (nadd (nadd (nadd (nsub (nadd (nadd (nadd
    (nvpow hK E1 hv 6 0 (by omega))
    (nvpow hK E2 hv 6 1 (by omega)))
    (nvpow hK E3 hv 6 2 (by omega)))
    (nmulc ch (nvpow hK e5 hv 6 2 (by omega))))
    (nmulc ch (nmulc c3 (nvpow hK e4 hv 6 3 (by omega)))))
    (nmulc ch (nmulc c5 (nvpow hK e3 hv 6 4 (by omega)))))
    (nmulc ch (nvpow hK e1 hv 0 0 (by omega))))
    (nmulc ch (nvpow hK e2 hv 1 1 (by omega))))
    (nmulc ch (nmulc ck (nvpow hK e6 hv 6 0 (by omega)))))
    (nmulc ch (nmulc ck (nvpow hK e7 hv 6 1 (by omega)))))
    (nmulc ch (nmulc c2 (nvpow hK e7 hv 6 3 (by omega)))))
    (nmulc ct (nvpow hK e5 hv 6 0 (by omega))))
    (nmulc ct (nvpow hK e8 hv 6 0 (by omega))))
    (nmulc ct (nvpow hK e4 hv 6 1 (by omega))))
    (nmulc ct (nvpow hK e9 hv 6 1 (by omega))))
    (nmulc ct (nmulc ck (nvpow hK e3 hv 6 0 (by omega))))
  refine T.trans ?_
  have hQ : 0 ≤ M * K ^ 6 := by positivity
  have key2 : ∀ Q k2 A B : ℝ, 0 ≤ Q → 0 ≤ k2 → 0 ≤ A → 0 ≤ B →
      Q * ((1 / 360 + 1 / 120) * A ^ 2 + B ^ 2 / 360 + A * B * (9 / 144) + A ^ 2 * (261 / 144 + 49 / 72 + 1 / 36)
        + k2 * A ^ 2 / 48 + B ^ 2 / 72 + A * B / 48 + k2 * B ^ 2 / 144) ≤ 3 * (Q * (1 + k2)) * (A ^ 2 + B ^ 2) := by
    intro Q k2 A B hQ hk hA hB
    have hAB : A * B ≤ (A ^ 2 + B ^ 2) / 2 := by nlinarith [sq_nonneg (A - B)]
    have : (1 / 360 + 1 / 120) * A ^ 2 + B ^ 2 / 360 + A * B * (9 / 144) + A ^ 2 * (261 / 144 + 49 / 72 + 1 / 36)
        + k2 * A ^ 2 / 48 + B ^ 2 / 72 + A * B / 48 + k2 * B ^ 2 / 144 ≤ 3 * (1 + k2) * (A ^ 2 + B ^ 2) := by
      have h1 : 0 ≤ k2 * A ^ 2 := by positivity
      have h2 : 0 ≤ k2 * B ^ 2 := by positivity
      nlinarith [sq_nonneg A, sq_nonneg B]
    calc _ ≤ Q * (3 * (1 + k2) * (A ^ 2 + B ^ 2)) := mul_le_mul_of_nonneg_left this hQ
      _ = _ := by ring
  have := key2 (M * K ^ 6) (k ^ 2) (h ^ 2) (t ^ 2) hQ (sq_nonneg k) (sq_nonneg h) (sq_nonneg t)
  refine le_trans (le_of_eq ?_) (this.trans (le_of_eq ?_)) <;> ring

set_option maxHeartbeats 600000 in
/-- truncation error of the compact polar scheme with explicit constant -/
theorem polar_residual {Ω : Set (ℝ × ℝ)} {U : ℕ → ℕ → ℝ × ℝ → ℂ} (hU : JetOn Ω 6 U) {h t r θ M K : ℝ} (k : ℝ)
    (hh : 0 < h) (ht : 0 < t) (hbox : ∀ s w, |s| ≤ h → |w| ≤ t → (r + s, θ + w) ∈ Ω)
    (hM : ∀ i j, i + j ≤ 6 → ∀ s w, |s| ≤ h → |w| ≤ t → ‖U i j (r + s, θ + w)‖ ≤ M)
    (hr : ∀ s, |s| ≤ h → 0 < r + s ∧ (r + s)⁻¹ ≤ K) (hK : 1 ≤ K) :
    ‖(Qrr (U 0 0) h r θ + Qr (U 0 0) h r θ / r) + (Qtt (U 0 0) t r θ / (r : ℂ) ^ 2 + (k : ℂ) ^ 2 * U 0 0 (r, θ))
      + (h : ℂ) ^ 2 / 12 * (Qrr (fun p => Qtt (U 0 0) t p.1 p.2 / (p.1 : ℂ) ^ 2 + (k : ℂ) ^ 2 * U 0 0 p) h r θ
          + Qr (fun p => Qtt (U 0 0) t p.1 p.2 / (p.1 : ℂ) ^ 2 + (k : ℂ) ^ 2 * U 0 0 p) h r θ / r
          + (Qtt (U 0 0) t r θ / (r : ℂ) ^ 2 + (k : ℂ) ^ 2 * U 0 0 (r, θ)) / (r : ℂ) ^ 2
          + 2 / (r : ℂ) ^ 3 * Qr (U 0 0) h r θ)
      + (t : ℂ) ^ 2 / 12 * Qtt (fun p => Qrr (U 0 0) h p.1 p.2 + Qr (U 0 0) h p.1 p.2 / p.1 + (k : ℂ) ^ 2 * U 0 0 p) t r θ
      - (pSrc U k (r, θ) + (h : ℂ) ^ 2 / 12 * (pSrcRR U k (r, θ) + pSrcR U k (r, θ) / r + pSrc U k (r, θ) / (r : ℂ) ^ 2)
          + (t : ℂ) ^ 2 / 12 * pSrcTT U k (r, θ))‖
      ≤ 3 * (M * K ^ 6 * (1 + k ^ 2)) * (h ^ 4 + t ^ 4) := by
  have z1 : |(0 : ℝ)| ≤ h := by simpa using hh.le
  have z2 : |(0 : ℝ)| ≤ t := by simpa using ht.le
  have bx : ∀ s, |s| ≤ h → (r + s, θ) ∈ Ω := fun s hs => by simpa using hbox s 0 hs z2
  have mx : ∀ i j, i + j ≤ 6 → ∀ s, |s| ≤ h → ‖U i j (r + s, θ)‖ ≤ M := fun i j hij s hs => by
    simpa using hM i j hij s 0 hs z2
  have by' : ∀ w, |w| ≤ t → (r, θ + w) ∈ Ω := fun w hw => by simpa using hbox 0 w z1 hw
  have my : ∀ i j, i + j ≤ 6 → ∀ w, |w| ≤ t → ‖U i j (r, θ + w)‖ ≤ M := fun i j hij w hw => by
    simpa using hM i j hij 0 w z1 hw
  have hM0 : 0 ≤ M := (norm_nonneg _).trans (mx 0 0 (by omega) 0 z1)
  -- the radial family of angular difference quotients
  set S : ℕ → ℝ × ℝ → ℂ := fun i p => Qtt (U i 0) t p.1 p.2 with hS
  have Sd : ∀ i < 4, ∀ s, |s| ≤ h → HasDerivAt (fun s => S i (r + s, θ)) (S (i + 1) (r + s, θ)) s := by
    intro i hi s hs
    have a1 := JetOn.radial hU (i := i) (j := 0) (by omega) (hbox s t hs (by rw [abs_of_pos ht]))
    have a2 := JetOn.radial hU (i := i) (j := 0) (by omega) (hbox s (-t) hs (by rw [abs_neg, abs_of_pos ht]))
    have a3 := JetOn.radial hU (i := i) (j := 0) (by omega) (bx s hs)
    rw [← sub_eq_add_neg] at a2
    exact ((a1.fun_add a2).fun_sub (a3.const_mul 2)).div_const _
  have Sb : ∀ i ≤ 4, ∀ s, |s| ≤ h → ‖S i (r + s, θ)‖ ≤ M := by
    intro i hi s hs
    exact Qtt_zero (F := fun j => U i j) ht
      (fun j hj w hw => JetOn.angular hU (by omega) (hbox s w hs hw)) (fun w hw => hM i 2 (by omega) s w hs hw)
  have vb : ∀ s, |s| ≤ h → ‖(((r + s : ℝ) : ℂ))⁻¹‖ ≤ K := by
    intro s hs
    rw [norm_inv, Complex.norm_real, Real.norm_eq_abs, abs_of_pos (hr s hs).1]
    exact (hr s hs).2
  have Gd : ∀ i < 4, ∀ s, |s| ≤ h →
      HasDerivAt (fun s => quotFam S i (r + s, θ)) (quotFam S (i + 1) (r + s, θ)) s := fun i hi s hs =>
    quotFam_deriv (hr s hs).1.ne' (fun i hi => Sd i hi s hs) i hi
  -- the elementary errors
  have E1 := Qrr_four (F := fun i => U i 0) hh (fun i hi s hs => JetOn.radial hU (by omega) (bx s hs))
    (fun s hs => mx 6 0 (by omega) s hs)
  have E2 := Qr_four (F := fun i => U i 0) hh (fun i hi s hs => JetOn.radial hU (by omega) (bx s hs))
    (fun s hs => mx 5 0 (by omega) s hs)
  have E3 := Qtt_four (F := fun i => U 0 i) ht (fun i hi s hs => JetOn.angular hU (by omega) (by' s hs))
    (fun s hs => my 0 6 (by omega) s hs)
  have e1 := Qrr_two (F := quotFam S) hh Gd (fun s hs => (quotFam_bound hK (vb s hs) fun i hi => Sb i hi s hs).2)
  have e2 := Qr_two (F := quotFam S) hh (fun i hi => Gd i (by omega))
    (fun s hs => (quotFam_bound hK (vb s hs) fun i hi => Sb i hi s hs).1)
  have e3 := Qtt_two (F := fun j => U 0 j) ht (fun i hi s hs => JetOn.angular hU (by omega) (by' s hs))
    (fun s hs => my 0 4 (by omega) s hs)
  have e4 := Qtt_two (F := fun j => U 1 j) ht (fun i hi s hs => JetOn.angular hU (by omega) (by' s hs))
    (fun s hs => my 1 4 (by omega) s hs)
  have e5 := Qtt_two (F := fun j => U 2 j) ht (fun i hi s hs => JetOn.angular hU (by omega) (by' s hs))
    (fun s hs => my 2 4 (by omega) s hs)
  have e6 := Qrr_two (F := fun i => U i 0) hh (fun i hi s hs => JetOn.radial hU (by omega) (bx s hs))
    (fun s hs => mx 4 0 (by omega) s hs)
  have e7 := Qr_two (F := fun i => U i 0) hh (fun i hi s hs => JetOn.radial hU (by omega) (bx s hs))
    (fun s hs => mx 3 0 (by omega) s hs)
  have e8 := Qrr_two (F := S) hh Sd (fun s hs => Sb 4 le_rfl s hs)
  have e9 := Qr_two (F := S) hh (fun i hi => Sd i (by omega)) (fun s hs => Sb 3 (by omega) s hs)
  have hrc : (r : ℂ) ≠ 0 := by
    have := (hr 0 z1).1
    rw [add_zero] at this
    exact_mod_cast this.ne'
  have hv : ‖((r : ℂ))⁻¹‖ ≤ K := by simpa using vb 0 z1
  set v : ℂ := (r : ℂ)⁻¹ with hvdef
  have hQA : ∀ x : ℝ, (fun p : ℝ × ℝ => Qtt (U 0 0) t p.1 p.2 / (p.1 : ℂ) ^ 2 + (k : ℂ) ^ 2 * U 0 0 p) (x, θ)
      = quotFam S 0 (x, θ) + (k : ℂ) ^ 2 * U 0 0 (x, θ) := by
    intro x
    simp only [quotFam, hS]
    rw [div_eq_mul_inv, inv_pow]
  have hA1 : Qrr (fun p => Qtt (U 0 0) t p.1 p.2 / (p.1 : ℂ) ^ 2 + (k : ℂ) ^ 2 * U 0 0 p) h r θ
      = Qrr (quotFam S 0) h r θ + (k : ℂ) ^ 2 * Qrr (U 0 0) h r θ := by
    unfold Qrr
    rw [hQA, hQA, hQA]
    ring
  have hA2 : Qr (fun p => Qtt (U 0 0) t p.1 p.2 / (p.1 : ℂ) ^ 2 + (k : ℂ) ^ 2 * U 0 0 p) h r θ
      = Qr (quotFam S 0) h r θ + (k : ℂ) ^ 2 * Qr (U 0 0) h r θ := by
    unfold Qr
    rw [hQA, hQA]
    ring
  have hA3 : Qtt (fun p => Qrr (U 0 0) h p.1 p.2 + Qr (U 0 0) h p.1 p.2 / p.1 + (k : ℂ) ^ 2 * U 0 0 p) t r θ
      = Qrr (S 0) h r θ + Qr (S 0) h r θ * v + (k : ℂ) ^ 2 * S 0 (r, θ) := by
    simp only [hS, Qtt, Qrr, Qr, hvdef]
    ring
  rw [hA1, hA2, hA3]
  have q1 : quotFam S 1 (r, θ) = S 1 (r, θ) * v ^ 2 - 2 * (S 0 (r, θ) * v ^ 3) := rfl
  have q2 : quotFam S 2 (r, θ) = S 2 (r, θ) * v ^ 2 - 4 * (S 1 (r, θ) * v ^ 3) + 6 * (S 0 (r, θ) * v ^ 4) := rfl
  rw [q2] at e1
  rw [q1] at e2
  refine le_trans (le_of_eq (congrArg norm ?_))
    (polar_sum (ua := Qrr (U 0 0) h r θ) (ub := Qr (U 0 0) h r θ) (s0 := S 0 (r, θ)) (s1 := S 1 (r, θ))
      (s2 := S 2 (r, θ)) (ga := Qrr (quotFam S 0) h r θ) (gb := Qr (quotFam S 0) h r θ) (sa := Qrr (S 0) h r θ)
      (sb := Qr (S 0) h r θ) (u10 := U 1 0 (r, θ)) (u20 := U 2 0 (r, θ)) (u30 := U 3 0 (r, θ)) (u40 := U 4 0 (r, θ))
      (u02 := U 0 2 (r, θ)) (u12 := U 1 2 (r, θ)) (u22 := U 2 2 (r, θ)) (u04 := U 0 4 (r, θ)) (u00 := U 0 0 (r, θ))
      (k := k) hK hM0 hv E1 E2 E3 e1 e2 e3 e4 e5 e6 e7 e8 e9)
  rw [← polar_key hrc h t k _ _ _ _ _ _ _ _ _ (U 0 0 (r, θ)) _ _ _ _ _ _ _ _ v hvdef]
  rfl

theorem JetOn.dr {Ω : Set (ℝ × ℝ)} {n : ℕ} {W : ℕ → ℕ → ℝ × ℝ → ℂ} (hW : JetOn Ω n W) {i j : ℕ} (hij : i + j < n)
    {r θ : ℝ} (hp : (r, θ) ∈ Ω) : HasDerivAt (fun s => W i j (s, θ)) (W (i + 1) j (r, θ)) r := by
  have := JetOn.along hW hij (hasDerivAt_id' r) (hasDerivAt_const r θ) hp
  exact this.congr_deriv (by push_cast; ring)

theorem JetOn.dt {Ω : Set (ℝ × ℝ)} {n : ℕ} {W : ℕ → ℕ → ℝ × ℝ → ℂ} (hW : JetOn Ω n W) {i j : ℕ} (hij : i + j < n)
    {r θ : ℝ} (hp : (r, θ) ∈ Ω) : HasDerivAt (fun s => W i j (r, s)) (W i (j + 1) (r, θ)) θ := by
  have := JetOn.along hW hij (hasDerivAt_const θ r) (hasDerivAt_id' θ) hp
  exact this.congr_deriv (by push_cast; ring)

theorem dcast (x : ℝ) : HasDerivAt (fun s : ℝ => (s : ℂ)) 1 x := by simpa using (hasDerivAt_id' x).ofReal_comp

section
variable {Ω : Set (ℝ × ℝ)} {U F : ℕ → ℕ → ℝ × ℝ → ℂ} {k r θ : ℝ}

theorem pSrc_dr (hU : JetOn Ω 6 U) (hp : (r, θ) ∈ Ω) (h0 : r ≠ 0) :
    HasDerivAt (fun s => pSrc U k (s, θ)) (pSrcR U k (r, θ)) r := by
  have hc : (r : ℂ) ≠ 0 := by exact_mod_cast h0
  have hc2 : (r : ℂ) ^ 2 ≠ 0 := pow_ne_zero _ hc
  have d1 := JetOn.dr hU (i := 2) (j := 0) (by omega) hp
  have d2 := (JetOn.dr hU (i := 1) (j := 0) (by omega) hp).fun_div (dcast r) hc
  have d3 := (JetOn.dr hU (i := 0) (j := 2) (by omega) hp).fun_div ((dcast r).fun_pow 2) hc2
  have d4 := (JetOn.dr hU (i := 0) (j := 0) (by omega) hp).const_mul ((k : ℂ) ^ 2)
  refine (((d1.fun_add d2).fun_add d3).fun_add d4).congr_deriv ?_
  simp only [pSrcR]
  field_simp
  push_cast
  ring

theorem pSrcR_dr (hU : JetOn Ω 6 U) (hp : (r, θ) ∈ Ω) (h0 : r ≠ 0) :
    HasDerivAt (fun s => pSrcR U k (s, θ)) (pSrcRR U k (r, θ)) r := by
  have hc : (r : ℂ) ≠ 0 := by exact_mod_cast h0
  have hc2 : (r : ℂ) ^ 2 ≠ 0 := pow_ne_zero _ hc
  have hc3 : (r : ℂ) ^ 3 ≠ 0 := pow_ne_zero _ hc
  have d1 := JetOn.dr hU (i := 3) (j := 0) (by omega) hp
  have d2 := (JetOn.dr hU (i := 2) (j := 0) (by omega) hp).fun_div (dcast r) hc
  have d3 := (JetOn.dr hU (i := 1) (j := 0) (by omega) hp).fun_div ((dcast r).fun_pow 2) hc2
  have d4 := (JetOn.dr hU (i := 1) (j := 2) (by omega) hp).fun_div ((dcast r).fun_pow 2) hc2
  have d5 := ((JetOn.dr hU (i := 0) (j := 2) (by omega) hp).const_mul 2).fun_div ((dcast r).fun_pow 3) hc3
  have d6 := (JetOn.dr hU (i := 1) (j := 0) (by omega) hp).const_mul ((k : ℂ) ^ 2)
  refine (((((d1.fun_add d2).fun_sub d3).fun_add d4).fun_sub d5).fun_add d6).congr_deriv ?_
  simp only [pSrcRR]
  generalize U 4 0 (r, θ) = a1
  generalize U 3 0 (r, θ) = a2
  generalize U 2 0 (r, θ) = a3
  generalize U 1 0 (r, θ) = a4
  generalize U 1 2 (r, θ) = a5
  generalize U 0 2 (r, θ) = a6
  generalize U 2 2 (r, θ) = a7
  norm_num
  field_simp
  ring

noncomputable def pSrcT (U : ℕ → ℕ → ℝ × ℝ → ℂ) (k : ℝ) (p : ℝ × ℝ) : ℂ :=
  U 2 1 p + U 1 1 p / p.1 + U 0 3 p / (p.1 : ℂ) ^ 2 + (k : ℂ) ^ 2 * U 0 1 p

theorem pSrc_dt (hU : JetOn Ω 6 U) (hp : (r, θ) ∈ Ω) : HasDerivAt (fun s => pSrc U k (r, s)) (pSrcT U k (r, θ)) θ := by
  have d1 := JetOn.dt hU (i := 2) (j := 0) (by omega) hp
  have d2 := (JetOn.dt hU (i := 1) (j := 0) (by omega) hp).div_const (r : ℂ)
  have d3 := (JetOn.dt hU (i := 0) (j := 2) (by omega) hp).div_const ((r : ℂ) ^ 2)
  have d4 := (JetOn.dt hU (i := 0) (j := 0) (by omega) hp).const_mul ((k : ℂ) ^ 2)
  exact ((d1.fun_add d2).fun_add d3).fun_add d4

theorem pSrcT_dt (hU : JetOn Ω 6 U) (hp : (r, θ) ∈ Ω) : HasDerivAt (fun s => pSrcT U k (r, s)) (pSrcTT U k (r, θ)) θ := by
  have d1 := JetOn.dt hU (i := 2) (j := 1) (by omega) hp
  have d2 := (JetOn.dt hU (i := 1) (j := 1) (by omega) hp).div_const (r : ℂ)
  have d3 := (JetOn.dt hU (i := 0) (j := 3) (by omega) hp).div_const ((r : ℂ) ^ 2)
  have d4 := (JetOn.dt hU (i := 0) (j := 1) (by omega) hp).const_mul ((k : ℂ) ^ 2)
  exact ((d1.fun_add d2).fun_add d3).fun_add d4

/-- the derivatives of the source follow from the equation -/
theorem pSrc_eq (hU : JetOn Ω 6 U) (hF : JetOn Ω 2 F) (he : PolarHelmholtz Ω k U (F 0 0)) (h0 : ∀ p ∈ Ω, p.1 ≠ 0) :
    ∀ r θ, (r, θ) ∈ Ω → F 0 0 (r, θ) = pSrc U k (r, θ) ∧ F 1 0 (r, θ) = pSrcR U k (r, θ) ∧
      F 2 0 (r, θ) = pSrcRR U k (r, θ) ∧ F 0 2 (r, θ) = pSrcTT U k (r, θ) := by
  have hopen1 : ∀ θ : ℝ, IsOpen {s : ℝ | (s, θ) ∈ Ω} := fun θ => hU.isOpen.preimage (by fun_prop)
  have hopen2 : ∀ r : ℝ, IsOpen {s : ℝ | (r, s) ∈ Ω} := fun r => hU.isOpen.preimage (by fun_prop)
  have e0 : ∀ r θ, (r, θ) ∈ Ω → F 0 0 (r, θ) = pSrc U k (r, θ) := fun r θ hp => (he _ hp).symm
  have e1 : ∀ r θ, (r, θ) ∈ Ω → F 1 0 (r, θ) = pSrcR U k (r, θ) := fun r θ hp =>
    deriv_unique_on (hopen1 θ) hp (fun s hs => e0 s θ hs) (JetOn.dr hF (by omega) hp) (pSrc_dr hU hp (h0 _ hp))
  have e2 : ∀ r θ, (r, θ) ∈ Ω → F 2 0 (r, θ) = pSrcRR U k (r, θ) := fun r θ hp =>
    deriv_unique_on (hopen1 θ) hp (fun s hs => e1 s θ hs) (JetOn.dr hF (by omega) hp) (pSrcR_dr hU hp (h0 _ hp))
  have e3 : ∀ r θ, (r, θ) ∈ Ω → F 0 1 (r, θ) = pSrcT U k (r, θ) := fun r θ hp =>
    deriv_unique_on (hopen2 r) hp (fun s hs => e0 r s hs) (JetOn.dt hF (by omega) hp) (pSrc_dt hU hp)
  have e4 : ∀ r θ, (r, θ) ∈ Ω → F 0 2 (r, θ) = pSrcTT U k (r, θ) := fun r θ hp =>
    deriv_unique_on (hopen2 r) hp (fun s hs => e3 r s hs) (JetOn.dt hF (by omega) hp) (pSrcT_dt hU hp)
  exact fun r θ hp => ⟨e0 r θ hp, e1 r θ hp, e2 r θ hp, e4 r θ hp⟩

end

end Pot
