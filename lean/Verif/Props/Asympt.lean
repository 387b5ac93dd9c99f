import Verif.Proofs.TwiceAt
import Verif.Props.Taper
import Mathlib.Analysis.SpecialFunctions.Pow.Deriv

/-!
# C67: the subtracted singular function leaves a regular source near the tip
-/

namespace Pot
open Spec Filter Topology Real

/-- the term of index `l` of the series of the Bessel function of order `mu`, at `x = k r / 2` -/
noncomputable def besselTerm (mu : ℝ) (l : ℕ) (x : ℝ) : ℝ :=
  (-1) ^ l / ((l.factorial : ℝ) * Gamma (mu + l + 1)) * x ^ (2 * l) * x ^ mu

theorem vAsympt0_eq (K : ℕ) (k nu : ℝ) (n : ℕ) (r : ℝ) :
    vAsympt0 K k nu n r = ∑ l ∈ Finset.range n, besselTerm ((K + 1 / 2) * nu) l (k * r / 2) := by
  have h : ∀ n, (List.range n).foldl (fun acc (l : ℕ) =>
      acc + (-1) ^ l / ((l.factorial : ℝ) * Gamma ((K + 1 / 2) * nu + l + 1)) * (k * r / 2) ^ (2 * l)) 0
      = ∑ l ∈ Finset.range n, (-1) ^ l / ((l.factorial : ℝ) * Gamma ((K + 1 / 2) * nu + l + 1)) * (k * r / 2) ^ (2 * l) := by
    intro n
    induction n with
    | zero => simp
    | succ n ih => rw [List.range_succ, List.foldl_append, ih, Finset.sum_range_succ]; rfl
  rw [vAsympt0, h, Finset.sum_mul]
  rfl

theorem twiceAt_rpow (p : ℝ) {r : ℝ} (hr : 0 < r) :
    TwiceAt (fun y => y ^ p) r (p * r ^ p / r) (p * (p - 1) * r ^ p / r ^ 2) := by
  refine ⟨fun y => p * y ^ (p - 1), ?_, ?_, ?_⟩
  · filter_upwards [Ioi_mem_nhds hr] with y hy
    exact hasDerivAt_rpow_const (.inl (ne_of_gt hy))
  · change p * r ^ (p - 1) = _
    rw [rpow_sub_one hr.ne']; ring
  · refine ((hasDerivAt_rpow_const (p := p - 1) (.inl hr.ne')).const_mul p).congr_deriv ?_
    rw [rpow_sub_one hr.ne', rpow_sub_one hr.ne']
    field_simp

/-- the terms as multiples of powers of `r` -/
theorem besselTerm_pow (mu : ℝ) (l : ℕ) {k r : ℝ} (hk : 0 < k) (hr : 0 < r) :
    besselTerm mu l (k * r / 2)
      = (-1) ^ l / ((l.factorial : ℝ) * Gamma (mu + l + 1)) * (k / 2) ^ (2 * l + mu) * r ^ (2 * l + mu) := by
  have hx : 0 < k * r / 2 := by positivity
  have e : (k * r / 2) ^ (2 * l) * (k * r / 2) ^ mu = (k / 2) ^ (2 * (l : ℝ) + mu) * r ^ (2 * (l : ℝ) + mu) := by
    rw [← mul_rpow (by positivity) hr.le, show k / 2 * r = k * r / 2 by ring, rpow_add hx]
    congr 1
    rw [← rpow_natCast]
    push_cast
    rfl
  unfold besselTerm
  rw [mul_assoc, e]
  ring

theorem besselTerm_twice (mu : ℝ) (l : ℕ) {k r : ℝ} (hk : 0 < k) (hr : 0 < r) :
    TwiceAt (fun y => besselTerm mu l (k * y / 2)) r ((2 * l + mu) * besselTerm mu l (k * r / 2) / r)
      ((2 * l + mu) * (2 * l + mu - 1) * besselTerm mu l (k * r / 2) / r ^ 2) := by
  have h := ((twiceAt_rpow (2 * l + mu) hr).const_mul
    ((-1) ^ l / ((l.factorial : ℝ) * Gamma (mu + l + 1)) * (k / 2) ^ (2 * l + mu))).congr_of_eventuallyEq
    (ψ := fun y => besselTerm mu l (k * y / 2))
    (by filter_upwards [Ioi_mem_nhds hr] with y hy using besselTerm_pow mu l hk hy)
  rw [besselTerm_pow mu l hk hr]
  refine h.congr (fun _ => rfl) ?_ ?_ <;> ring

/-- the recurrence between consecutive terms -/
theorem besselTerm_succ {mu : ℝ} (hmu : 0 ≤ mu) (l : ℕ) (x : ℝ) :
    ((l + 1 : ℕ) : ℝ) * (mu + (l + 1 : ℕ)) * besselTerm mu (l + 1) x = -x ^ 2 * besselTerm mu l x := by
  have h1 : mu + (l : ℝ) + 1 ≠ 0 := by positivity
  have hG : Gamma (mu + l + 1) ≠ 0 := (Gamma_pos_of_pos (by positivity)).ne'
  have e : Gamma (mu + (l + 1 : ℕ) + 1) = (mu + l + 1) * Gamma (mu + l + 1) := by
    rw [show mu + ((l + 1 : ℕ) : ℝ) + 1 = (mu + l + 1) + 1 by push_cast; ring, Gamma_add_one h1]
  have hl : (l.factorial : ℝ) ≠ 0 := by positivity
  have hl1 : (l : ℝ) + 1 ≠ 0 := by positivity
  unfold besselTerm
  rw [e, Nat.factorial_succ]
  push_cast
  field_simp
  ring

/-- **C67** the truncated Bessel series times its sine satisfies the Helmholtz equation up to `k²` times its last term: a
residual of the order of `r ^ (2 n + mu)` near the tip. -/
theorem C67_residual {k : ℝ} (hk : 0 < k) {nu : ℝ} (hnu : 0 ≤ nu) (K n : ℕ) (a : ℝ) {r : ℝ} (hr : 0 < r) (th : ℝ) :
    HelmholtzAt k (fun r th => vAsympt0 K k nu (n + 1) r * sin ((K + 1 / 2) * nu * (th - a)))
      (k ^ 2 * ((-1) ^ n / ((n.factorial : ℝ) * Gamma ((K + 1 / 2) * nu + n + 1)) * (k * r / 2) ^ (2 * n)
        * (k * r / 2) ^ ((K + 1 / 2) * nu)) * sin ((K + 1 / 2) * nu * (th - a))) r th := by
  have hmu : 0 ≤ ((K : ℝ) + 1 / 2) * nu := by positivity
  set mu := ((K : ℝ) + 1 / 2) * nu with hmud
  have hstep : ∀ l : ℕ, HelmholtzAt k (fun r th => besselTerm mu l (k * r / 2) * sin (mu * (th - a)))
      ((4 * l * (l + mu) / r ^ 2 + k ^ 2) * besselTerm mu l (k * r / 2) * sin (mu * (th - a))) r th := by
    intro l
    have := HelmholtzAt.mode k mu a (besselTerm_twice mu l hk hr) th
    convert this using 1
    field_simp
    ring
  have e0 : (fun r th => vAsympt0 K k nu (n + 1) r * sin (mu * (th - a)))
      = fun r th => ∑ l ∈ Finset.range (n + 1), besselTerm mu l (k * r / 2) * sin (mu * (th - a)) := by
    funext r th
    rw [vAsympt0_eq, Finset.sum_mul]
  rw [e0]
  have h := HelmholtzAt.sum (Finset.range (n + 1)) (fun l _ => hstep l)
  convert h using 1
  rw [← Finset.sum_mul]
  congr 1
  change k ^ 2 * besselTerm mu n (k * r / 2) = _
  induction n with
  | zero => simp
  | succ n ih =>
    rw [Finset.sum_range_succ, ← ih (by funext r th; rw [vAsympt0_eq, Finset.sum_mul]) (HelmholtzAt.sum _ fun l _ => hstep l)]
    have := besselTerm_succ hmu n (k * r / 2)
    have e : 4 * ((n + 1 : ℕ) : ℝ) * ((n + 1 : ℕ) + mu) / r ^ 2 * besselTerm mu (n + 1) (k * r / 2)
        = -k ^ 2 * besselTerm mu n (k * r / 2) := by
      have h2 : 4 * ((n + 1 : ℕ) : ℝ) * ((n + 1 : ℕ) + mu) / r ^ 2 * besselTerm mu (n + 1) (k * r / 2)
          = 4 / r ^ 2 * (((n + 1 : ℕ) : ℝ) * (mu + (n + 1 : ℕ)) * besselTerm mu (n + 1) (k * r / 2)) := by ring
      rw [h2, this]
      field_simp
      ring
    rw [add_mul _ (k ^ 2), e]
    ring

/-- **C67** the source `f` of the shipped problems: inside the circle of radius `R0` it is minus the residual of the two-term
series, of size `|f| ≤ k² (k r / 2) ^ (2 + mu) / Gamma (mu + 2)`. -/
theorem C67_source {k : ℝ} (hk : 0 < k) {nu : ℝ} (hnu : 0 ≤ nu) (K : ℕ) (a : ℝ) {R0 R r : ℝ} (hR : R0 < R) (hr : 0 < r)
    (hr0 : r < R0) (th : ℝ) :
    zF k (ihVAsympt K k a nu R0 R) r th = k ^ 2 * ((k * r / 2) ^ 2 * (k * r / 2) ^ ((K + 1 / 2) * nu)
        / Gamma ((K + 1 / 2) * nu + 2)) * sin ((K + 1 / 2) * nu * (th - a)) ∧
    |zF k (ihVAsympt K k a nu R0 R) r th| ≤ k ^ 2 * ((k * r / 2) ^ ((K + 1 / 2) * nu + 2) / Gamma ((K + 1 / 2) * nu + 2)) := by
  have ht := (C52_taper hR).1
  have hH := HelmholtzAt.congr_cross (v := ihVAsympt K k a nu R0 R) (C67_residual hk hnu K 1 a hr th)
    (by filter_upwards [Iio_mem_nhds hr0] with y hy; simp only [ihVAsympt, ht y (le_of_lt hy), mul_one])
    (by filter_upwards with y; simp only [ihVAsympt, ht r hr0.le, mul_one])
  have hmu : 0 ≤ ((K : ℝ) + 1 / 2) * nu := by positivity
  have hx : 0 < k * r / 2 := by positivity
  have hG : 0 < Gamma (((K : ℝ) + 1 / 2) * nu + 2) := Gamma_pos_of_pos (by positivity)
  have e1 : zF k (ihVAsympt K k a nu R0 R) r th = k ^ 2 * ((k * r / 2) ^ 2 * (k * r / 2) ^ (((K : ℝ) + 1 / 2) * nu)
        / Gamma ((K + 1 / 2) * nu + 2)) * sin ((K + 1 / 2) * nu * (th - a)) := by
    simp only [zF, HelmholtzAt.helmOp_eq hH]
    have : ((K : ℝ) + 1 / 2) * nu + ((1 : ℕ) : ℝ) + 1 = (K + 1 / 2) * nu + 2 := by push_cast; ring
    rw [this]
    simp
    ring
  refine ⟨e1, ?_⟩
  have e2 : (k * r / 2) ^ 2 * (k * r / 2) ^ (((K : ℝ) + 1 / 2) * nu) = (k * r / 2) ^ (((K : ℝ) + 1 / 2) * nu + 2) := by
    rw [rpow_add hx, mul_comm]
    norm_num
  rw [e1, e2, abs_mul, abs_of_nonneg (by positivity : 0 ≤ k ^ 2 * ((k * r / 2) ^ (((K : ℝ) + 1 / 2) * nu + 2) / Gamma ((K + 1 / 2) * nu + 2)))]
  exact mul_le_of_le_one_right (by positivity) (abs_sin_le_one _)

/-- C67: the shipped wave number and wedge, at `r = 1/20` -/
example : |zF (27 / 4) (ihVAsympt 0 (27 / 4) (π / 4) (4 / 7) (1 / 10) (23 / 10)) (1 / 20) 3|
    ≤ (27 / 4) ^ 2 * (((27 / 4) * (1 / 20) / 2) ^ (((0 : ℕ) + 1 / 2 : ℝ) * (4 / 7) + 2) / Gamma (((0 : ℕ) + 1 / 2) * (4 / 7) + 2)) :=
  (C67_source (by norm_num) (by norm_num) 0 (π / 4) (by norm_num) (by norm_num) (by norm_num) 3).2

end Pot
