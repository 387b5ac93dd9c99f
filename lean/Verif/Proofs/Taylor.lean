import Verif.Spec.Jet
import Mathlib.Analysis.Calculus.MeanValue
import Mathlib.Analysis.Calculus.Deriv.Pow
import Mathlib.Analysis.Calculus.Deriv.Mul
import Mathlib.Analysis.Calculus.Deriv.Comp
import Mathlib.Analysis.Calculus.Deriv.Add
import Mathlib.Analysis.Calculus.Deriv.Shift
import Mathlib.Tactic.Linarith
import Mathlib.Tactic.Ring
import Mathlib.Tactic.FieldSimp
import Mathlib.Tactic.Positivity
import Mathlib.Tactic.NormNum

/-! # Taylor remainders by repeated integration of a derivative bound -/

namespace Pot
open Set

/-- integrate a bound on the derivative once -/
theorem int_bound {f f' : ℝ → ℂ} {h C : ℝ} {m : ℕ}
    (hf : ∀ t ∈ Icc 0 h, HasDerivAt f (f' t) t) (h0 : f 0 = 0)
    (hb : ∀ t ∈ Icc 0 h, ‖f' t‖ ≤ C * t ^ m) :
    ∀ t ∈ Icc 0 h, ‖f t‖ ≤ C / (m + 1) * t ^ (m + 1) := by
  have hm : ((m : ℝ) + 1) ≠ 0 := by positivity
  intro t ht
  refine image_norm_le_of_norm_deriv_right_le_deriv_boundary (f' := f')
    (B := fun t => C / (m + 1) * t ^ (m + 1)) (B' := fun t => C * t ^ m) ?_ ?_ ?_ ?_ ?_ ht
  · exact fun t ht => (hf t ht).continuousAt.continuousWithinAt
  · exact fun t ht => (hf t ⟨ht.1, ht.2.le⟩).hasDerivWithinAt
  · rw [h0]; simp
  · intro t
    refine ((hasDerivAt_pow (m + 1) t).const_mul (C / (m + 1))).congr_deriv ?_
    push_cast; field_simp
  · exact fun t ht => hb t ⟨ht.1, ht.2.le⟩

/-- derivative of the reflected function -/
theorem hasDerivAt_reflect {g : ℝ → ℂ} {g' : ℂ} {t : ℝ} (hg : HasDerivAt g g' (-t)) :
    HasDerivAt (fun s => g (-s)) (-g') t := by
  exact (HasDerivAt.scomp t hg (hasDerivAt_neg t)).congr_deriv (by simp)

theorem hasDerivAt_cpow' (c : ℂ) (m : ℕ) (t : ℝ) :
    HasDerivAt (fun s : ℝ => c * (s : ℂ) ^ (m + 1)) (c * ((m + 1 : ℕ) * (t : ℂ) ^ m)) t := by
  have h : HasDerivAt (fun s : ℝ => (s : ℂ)) 1 t := Complex.ofRealCLM.hasDerivAt
  exact ((h.fun_pow (m + 1)).const_mul c).congr_deriv (by simp)

section
variable {g : ℕ → ℝ → ℂ} {h M : ℝ}

/-- even second difference with two derivatives: `|g(h)+g(-h)-2g(0)| ≤ M h²` -/
theorem central2 (h0 : 0 ≤ h) (hg : ∀ i < 2, ∀ t, |t| ≤ h → HasDerivAt (g i) (g (i + 1) t) t)
    (hM : ∀ t, |t| ≤ h → ‖g 2 t‖ ≤ M) :
    ‖g 0 h + g 0 (-h) - 2 * g 0 0‖ ≤ M * h ^ 2 := by
  have ab : ∀ t ∈ Icc 0 h, |t| ≤ h := fun t ht => by rw [abs_of_nonneg ht.1]; exact ht.2
  have ab' : ∀ t ∈ Icc 0 h, |(-t)| ≤ h := fun t ht => by rw [abs_neg]; exact ab t ht
  have s1 : ∀ t ∈ Icc 0 h, ‖g 1 t - g 1 (-t)‖ ≤ 2 * M / ((0:ℕ) + 1) * t ^ (0 + 1) := by
    apply int_bound (f' := fun t => g 2 t + g 2 (-t))
    · intro t ht
      refine HasDerivAt.congr_deriv ((hg 1 (by norm_num) t (ab t ht)).fun_sub (hasDerivAt_reflect (hg 1 (by norm_num) (-t) (ab' t ht)))) ?_
      ring
    · simp
    · intro t ht
      rw [pow_zero, mul_one]
      calc _ ≤ ‖g 2 t‖ + ‖g 2 (-t)‖ := norm_add_le _ _
        _ ≤ _ := by linarith [hM t (ab t ht), hM (-t) (ab' t ht)]
  have s0 : ∀ t ∈ Icc 0 h, ‖g 0 t + g 0 (-t) - 2 * g 0 0‖ ≤ 2 * M / ((0:ℕ) + 1) / ((0 + 1 : ℕ) + 1) * t ^ (0 + 1 + 1) := by
    apply int_bound (f' := fun t => g 1 t - g 1 (-t))
    · intro t ht
      refine HasDerivAt.congr_deriv (((hg 0 (by norm_num) t (ab t ht)).fun_add (hasDerivAt_reflect (hg 0 (by norm_num) (-t) (ab' t ht)))).sub_const
        (2 * g 0 0)) ?_
      ring
    · simp; ring
    · exact s1
  have := s0 h ⟨h0, le_rfl⟩
  refine this.trans (le_of_eq ?_)
  norm_num

/-- even second difference with four derivatives -/
theorem central4 (h0 : 0 ≤ h) (hg : ∀ i < 4, ∀ t, |t| ≤ h → HasDerivAt (g i) (g (i + 1) t) t)
    (hM : ∀ t, |t| ≤ h → ‖g 4 t‖ ≤ M) :
    ‖g 0 h + g 0 (-h) - 2 * g 0 0 - g 2 0 * (h : ℂ) ^ 2‖ ≤ M / 12 * h ^ 4 := by
  have ab : ∀ t ∈ Icc 0 h, |t| ≤ h := fun t ht => by rw [abs_of_nonneg ht.1]; exact ht.2
  have ab' : ∀ t ∈ Icc 0 h, |(-t)| ≤ h := fun t ht => by rw [abs_neg]; exact ab t ht
  have s2 : ∀ t ∈ Icc 0 h, ‖g 2 t + g 2 (-t) - 2 * g 2 0‖ ≤ M * t ^ 2 := by
    intro t ht
    exact central2 (g := fun i => g (i + 2)) ht.1
      (fun i hi s hs => hg (i + 2) (by omega) s (hs.trans ht.2)) (fun s hs => hM s (hs.trans ht.2))
  have s1 : ∀ t ∈ Icc 0 h, ‖g 1 t - g 1 (-t) - 2 * g 2 0 * (t : ℂ) ^ 1‖ ≤ M / ((2:ℕ) + 1) * t ^ (2 + 1) := by
    apply int_bound (f' := fun t => g 2 t + g 2 (-t) - 2 * g 2 0)
    · intro t ht
      refine HasDerivAt.congr_deriv (((hg 1 (by norm_num) t (ab t ht)).fun_sub (hasDerivAt_reflect (hg 1 (by norm_num) (-t) (ab' t ht)))).fun_sub
        (hasDerivAt_cpow' (2 * g 2 0) 0 t)) ?_
      push_cast; ring
    · simp
    · exact s2
  have s0 : ∀ t ∈ Icc 0 h, ‖g 0 t + g 0 (-t) - 2 * g 0 0 - g 2 0 * (t : ℂ) ^ 2‖ ≤
      M / ((2:ℕ) + 1) / ((2 + 1 : ℕ) + 1) * t ^ (2 + 1 + 1) := by
    apply int_bound (f' := fun t => g 1 t - g 1 (-t) - 2 * g 2 0 * (t : ℂ) ^ 1)
    · intro t ht
      refine HasDerivAt.congr_deriv ((((hg 0 (by norm_num) t (ab t ht)).fun_add (hasDerivAt_reflect (hg 0 (by norm_num) (-t) (ab' t ht)))).sub_const
        (2 * g 0 0)).fun_sub (hasDerivAt_cpow' (g 2 0) 1 t)) ?_
      push_cast; ring
    · simp; ring
    · exact s1
  refine (s0 h ⟨h0, le_rfl⟩).trans (le_of_eq ?_)
  push_cast; ring

/-- even second difference with six derivatives -/
theorem central6 (h0 : 0 ≤ h) (hg : ∀ i < 6, ∀ t, |t| ≤ h → HasDerivAt (g i) (g (i + 1) t) t)
    (hM : ∀ t, |t| ≤ h → ‖g 6 t‖ ≤ M) :
    ‖g 0 h + g 0 (-h) - 2 * g 0 0 - g 2 0 * (h : ℂ) ^ 2 - g 4 0 / 12 * (h : ℂ) ^ 4‖ ≤ M / 360 * h ^ 6 := by
  have ab : ∀ t ∈ Icc 0 h, |t| ≤ h := fun t ht => by rw [abs_of_nonneg ht.1]; exact ht.2
  have ab' : ∀ t ∈ Icc 0 h, |(-t)| ≤ h := fun t ht => by rw [abs_neg]; exact ab t ht
  have s2 : ∀ t ∈ Icc 0 h, ‖g 2 t + g 2 (-t) - 2 * g 2 0 - g 4 0 * (t : ℂ) ^ 2‖ ≤ M / 12 * t ^ 4 := by
    intro t ht
    exact central4 (g := fun i => g (i + 2)) ht.1
      (fun i hi s hs => hg (i + 2) (by omega) s (hs.trans ht.2)) (fun s hs => hM s (hs.trans ht.2))
  have s1 : ∀ t ∈ Icc 0 h, ‖g 1 t - g 1 (-t) - 2 * g 2 0 * (t : ℂ) ^ 1 - g 4 0 / 3 * (t : ℂ) ^ 3‖ ≤
      M / 12 / ((4:ℕ) + 1) * t ^ (4 + 1) := by
    apply int_bound (f' := fun t => g 2 t + g 2 (-t) - 2 * g 2 0 - g 4 0 * (t : ℂ) ^ 2)
    · intro t ht
      refine HasDerivAt.congr_deriv ((((hg 1 (by norm_num) t (ab t ht)).fun_sub (hasDerivAt_reflect (hg 1 (by norm_num) (-t) (ab' t ht)))).fun_sub
        (hasDerivAt_cpow' (2 * g 2 0) 0 t)).fun_sub (hasDerivAt_cpow' (g 4 0 / 3) 2 t)) ?_
      push_cast; ring
    · simp
    · exact s2
  have s0 : ∀ t ∈ Icc 0 h, ‖g 0 t + g 0 (-t) - 2 * g 0 0 - g 2 0 * (t : ℂ) ^ 2 - g 4 0 / 12 * (t : ℂ) ^ 4‖ ≤
      M / 12 / ((4:ℕ) + 1) / ((4 + 1 : ℕ) + 1) * t ^ (4 + 1 + 1) := by
    apply int_bound (f' := fun t => g 1 t - g 1 (-t) - 2 * g 2 0 * (t : ℂ) ^ 1 - g 4 0 / 3 * (t : ℂ) ^ 3)
    · intro t ht
      refine HasDerivAt.congr_deriv (((((hg 0 (by norm_num) t (ab t ht)).fun_add (hasDerivAt_reflect (hg 0 (by norm_num) (-t) (ab' t ht)))).sub_const
        (2 * g 0 0)).fun_sub (hasDerivAt_cpow' (g 2 0) 1 t)).fun_sub (hasDerivAt_cpow' (g 4 0 / 12) 3 t)) ?_
      push_cast; ring
    · simp; ring
    · exact s1
  refine (s0 h ⟨h0, le_rfl⟩).trans (le_of_eq ?_)
  push_cast; ring

end

end Pot
