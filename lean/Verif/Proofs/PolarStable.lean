import Verif.Spec.PolarStability
import Verif.Proofs.PolarCoef

/-!
# Bounds for the solutions of the recurrence of a mode

Elimination from both ends: `Q w m + C w (m + 1)` is bounded by the right-hand side from the inner circle on, `P w m + d w (m - 1)` from the
outer circle on, and the two together bound `w m`.
-/

namespace Pot
open Real Finset Spec

/-! ## From the modes to the scheme -/

section
variable {h t k : ℝ} {ρ : ℤ → ℝ}

/-- a vector is bounded by its sine coefficients -/
theorem sine_bound {n : ℕ} (x : ℕ → ℂ) (c : ℕ → ℝ)
    (hx : ∀ j < n, ‖∑ i ∈ range n, x i * (sin (π * (j + 1 : ℕ) * (i + 1 : ℕ) / (n + 1 : ℕ)) : ℝ)‖ ≤ c j) :
    ∀ i < n, ‖x i‖ ≤ 2 / ((n : ℝ) + 1) * ∑ j ∈ range n, c j := by
  intro i hi
  have h2 : Matrix.mulVec (Sm n) (Matrix.mulVec (Sm n) (fun i : Fin n => x i)) = ((((n : ℝ) + 1) / 2 : ℝ) : ℂ) • fun i : Fin n => x i := by
    rw [Matrix.mulVec_mulVec, Sm_mul_Sm, Matrix.smul_mulVec, Matrix.one_mulVec]
  have h3 := congrFun h2 ⟨i, hi⟩
  simp only [Pi.smul_apply, smul_eq_mul] at h3
  have n0 : (0 : ℝ) < ((n : ℝ) + 1) / 2 := by positivity
  have h4 : ‖x i‖ * (((n : ℝ) + 1) / 2) ≤ ∑ j ∈ range n, c j := by
    have e : ‖((((n : ℝ) + 1) / 2 : ℝ) : ℂ) * x i‖ = ‖x i‖ * (((n : ℝ) + 1) / 2) := by
      rw [norm_mul, Complex.norm_real, Real.norm_of_nonneg n0.le, mul_comm]
    rw [← e, ← h3, Matrix.mulVec, dotProduct, Finset.sum_range]
    refine norm_sum_le_of_le _ fun j _ => ?_
    rw [norm_mul]
    have hs : ‖Sm n ⟨i, hi⟩ j‖ ≤ 1 := by
      simp only [Sm, Matrix.of_apply, S]
      rw [Complex.norm_real, Real.norm_eq_abs]
      exact abs_sin_le_one _
    have hj := hx j j.2
    have hm : ‖Matrix.mulVec (Sm n) (fun i : Fin n => x i) j‖ ≤ c j := by
      refine le_of_eq_of_le ?_ hj
      rw [Finset.sum_range]
      simp only [Matrix.mulVec, dotProduct, Sm, Matrix.of_apply, S]
      congr 1
      refine sum_congr rfl fun i _ => ?_
      push_cast
      ring_nf
    calc _ ≤ 1 * c j := mul_le_mul hs hm (norm_nonneg _) zero_le_one
      _ = c j := one_mul _
  rw [div_mul_eq_mul_div, le_div_iff₀ (by positivity)]
  linarith

/-- the sine coefficients of values of at most `T` -/
theorem sine_coef_bound {n : ℕ} (x : ℕ → ℂ) {T : ℝ} (hT : 0 ≤ T) (hx : ∀ i < n, ‖x i‖ ≤ T) (c : ℕ → ℝ) :
    ‖∑ i ∈ range n, x i * ((sin (c i) : ℝ) : ℂ)‖ ≤ n * T := by
  refine (norm_sum_le_of_le _ (n := fun _ => T) fun i hi => ?_).trans ?_
  · rw [mem_range] at hi
    rw [norm_mul, Complex.norm_real, Real.norm_eq_abs]
    calc _ ≤ T * 1 := mul_le_mul (hx i hi) (abs_sin_le_one _) (abs_nonneg _) hT
      _ = T := mul_one _
  · simp

/-- the scheme is stable if its modes are -/
theorem schemeStable_of_modes (ht : t ≠ 0) {N : ℕ} {κ κ' : ℕ → ℝ}
    (hκ : ∀ j, 0 < j → j < N → 0 ≤ κ j ∧ 0 ≤ κ' j ∧ ModeStable h t k ρ N j (κ j) (κ' j)) :
    SchemeStable h t k ρ N (2 * ∑ j ∈ range (N - 1), κ (j + 1)) (2 * ∑ j ∈ range (N - 1), κ' (j + 1)) := by
  intro V T β hT hβ hb hc hin m l m0 m1 l0 l1
  have hs0 : 0 ≤ ∑ j ∈ range (N - 1), κ (j + 1) := sum_nonneg fun j hj => (hκ (j + 1) (by omega) (by rw [mem_range] at hj; omega)).1
  have hs1 : 0 ≤ ∑ j ∈ range (N - 1), κ' (j + 1) := sum_nonneg fun j hj => (hκ (j + 1) (by omega) (by rw [mem_range] at hj; omega)).2.1
  obtain ⟨n, rfl⟩ : ∃ n, N = n + 1 := ⟨N - 1, by omega⟩
  rw [Nat.add_sub_cancel] at *
  have := sine_bound (n := n) (fun i => V m (i + 1 : ℕ)) (fun j => κ (j + 1) * (n * T) + κ' (j + 1) * (n * β)) (fun j hj => by
    have hreg := (hκ (j + 1) (by omega) (by omega)).2.2
      (fun m => ∑ i ∈ range (n + 1 - 1), V m (i + 1 : ℕ) * (sin (π * (j + 1 : ℕ) * (i + 1 : ℕ) / (n + 1 : ℕ)) : ℝ)) (n * T) (n * β)
      (by positivity) (by positivity) (sine_coef_bound (n := n) _ hβ (fun i hi => (hc (i + 1) (by omega) (by omega)).1) _)
      (sine_coef_bound (n := n) _ hβ (fun i hi => (hc (i + 1) (by omega) (by omega)).2) _)
      (fun m h0 h1 => by
        rw [modeL_sum ht (j + 1) V h0 h1 hb]
        exact sine_coef_bound (n := n) (fun i => polarL4 h t k ρ V m (i + 1 : ℕ)) hT (fun i hi => hin m (i + 1) h0 h1 (by omega) (by omega)) _)
      m m0 m1
    simpa using hreg) (l - 1) (by omega)
  have e : V m ((l - 1 + 1 : ℕ) : ℤ) = V m l := by rw [Nat.sub_add_cancel (by omega)]
  simp only [e] at this
  refine this.trans ?_
  rw [sum_add_distrib, ← sum_mul, ← sum_mul]
  have hq : (n : ℝ) / (n + 1) ≤ 1 := by rw [div_le_one (by positivity)]; linarith
  calc 2 / ((n : ℝ) + 1) * ((∑ j ∈ range n, κ (j + 1)) * (n * T) + (∑ j ∈ range n, κ' (j + 1)) * (n * β))
      = (2 * (∑ j ∈ range n, κ (j + 1)) * T + 2 * (∑ j ∈ range n, κ' (j + 1)) * β) * ((n : ℝ) / (n + 1)) := by ring
    _ ≤ (2 * (∑ j ∈ range n, κ (j + 1)) * T + 2 * (∑ j ∈ range n, κ' (j + 1)) * β) * 1 := mul_le_mul_of_nonneg_left hq (by positivity)
    _ = _ := mul_one _

/-- larger constants -/
theorem schemeStable_mono {N : ℕ} {κ κ' μ μ' : ℝ} (hS : SchemeStable h t k ρ N κ κ') (h1 : κ ≤ μ) (h2 : κ' ≤ μ') : SchemeStable h t k ρ N μ μ' := by
  intro V T β hT hβ hb hc hin m l m0 m1 l0 l1
  have := hS V T β hT hβ hb hc hin m l m0 m1 l0 l1
  have := mul_le_mul_of_nonneg_right h1 hT
  have := mul_le_mul_of_nonneg_right h2 hβ
  linarith

/-- a stable scheme is regular -/
theorem schemeStable_regular {N : ℕ} {κ κ' : ℝ} (hS : SchemeStable h t k ρ N κ κ') : SchemeRegular h t k ρ N := by
  intro V hb hin m l hm hl
  by_cases hbd : m = 0 ∨ m = N ∨ l = 0 ∨ l = N
  · exact hb m l hm hl hbd
  push Not at hbd
  have := hS V 0 0 le_rfl le_rfl (fun m hm => ⟨hb m 0 hm (by omega) (by simp), hb m N hm le_rfl (by simp)⟩)
    (fun l _ h2 => ⟨by rw [show V 0 l = 0 from hb 0 l (by omega) h2.le (by simp), norm_zero],
      by rw [hb N l le_rfl h2.le (by simp), norm_zero]⟩)
    (fun m l h1 h2 h3 h4 => by rw [hin m l h1 h2 h3 h4, norm_zero]) m l (by omega) (by omega) (by omega) (by omega)
  rw [mul_zero, mul_zero, add_zero] at this
  exact norm_le_zero_iff.1 this

/-- the recurrence times `24 h²` -/
theorem pv_scale (hh : h ≠ 0) (ht : t ≠ 0) {N j : ℕ} (hρ : ∀ m : ℕ, m ≤ N → ρ m ≠ 0) {w : ℤ → ℂ} {T : ℝ}
    (hw : ∀ m : ℕ, 0 < m → m < N → ‖modeL h t k ρ (modeS t N j) w m‖ ≤ T) : ∀ m : ℕ, 0 < m → m < N →
      ‖(pvUp (h ^ 2 * k ^ 2) (2 - 2 * cos (π * j / N)) (modeS t N j) (fun m => h / ρ m) m : ℂ) * w (m + 1 : ℕ)
        + pvDg (h ^ 2 * k ^ 2) (2 - 2 * cos (π * j / N)) (modeS t N j) (fun m => h / ρ m) m * w m
        + pvDn (h ^ 2 * k ^ 2) (2 - 2 * cos (π * j / N)) (modeS t N j) (fun m => h / ρ m) m * w (m - 1 : ℕ)‖ ≤ 24 * h ^ 2 * T := by
  intro m m0 m1
  have e := hw m m0 m1
  have hh2 : (0 : ℝ) < 24 * h ^ 2 := by positivity
  refine le_of_eq_of_le ?_ (mul_le_mul_of_nonneg_left e hh2.le)
  have hn : (24 * h ^ 2 : ℝ) = ‖(24 * (h : ℂ) ^ 2)‖ := by
    rw [show (24 * (h : ℂ) ^ 2) = ((24 * h ^ 2 : ℝ) : ℂ) by push_cast; rfl, Complex.norm_real, Real.norm_of_nonneg hh2.le]
  rw [hn, ← norm_mul]
  congr 1
  rw [modeL_three]
  have a0 : (ρ m : ℂ) ≠ 0 := by exact_mod_cast hρ m m1.le
  have a1 : (ρ (m + 1) : ℂ) ≠ 0 := by exact_mod_cast hρ (m + 1) m1
  have a2 : (ρ ((m : ℤ) - 1) : ℂ) ≠ 0 := by
    have := hρ (m - 1) (by omega)
    rw [Nat.cast_sub m0] at this
    exact_mod_cast this
  have hh' : (h : ℂ) ≠ 0 := by exact_mod_cast hh
  have ht' : (t : ℂ) ≠ 0 := by exact_mod_cast ht
  have c2 : ((m - 1 : ℕ) : ℤ) = (m : ℤ) - 1 := by rw [Nat.cast_sub m0]; rfl
  have c1 : ((m + 1 : ℕ) : ℤ) = (m : ℤ) + 1 := rfl
  have hσ : 2 - 2 * cos (π * j / N) = t ^ 2 * modeS t N j := by
    unfold modeS
    field_simp
  rw [hσ]
  generalize modeS t N j = s at *
  simp only [pvUp, pvDg, pvDn, pvE, c1, c2]
  push_cast
  generalize w m = A
  generalize w (m + 1) = B
  generalize w (m - 1) = C
  field_simp
  ring

end

end Pot
