import Verif.Spec.PolarModes
import Verif.Proofs.Fourier
import Mathlib.Algebra.BigOperators.Field

/-! # The compact polar scheme separates into angular modes -/

namespace Pot
open Real Finset Spec

section
variable {h t k : ℝ} {ρ : ℤ → ℝ}

/-- the scheme as a combination of six values -/
theorem polarL4_six (V : ℤ → ℤ → ℂ) (m l : ℤ) : ∃ T : ℤ → ℂ, T = (fun m => dthth t V m l) ∧
    let u : ℂ := 1 / (h : ℂ) ^ 2 + 1 / (2 * h) / ρ m
    let v : ℂ := 1 / (h : ℂ) ^ 2 - 1 / (2 * h) / ρ m
    polarL4 h t k ρ V m l =
      (u + (h : ℂ) ^ 2 / 12 * (u * k ^ 2 + 2 / (ρ m : ℂ) ^ 3 / (2 * h))) * V (m + 1) l
      + (-2 / (h : ℂ) ^ 2 + k ^ 2 + (h : ℂ) ^ 2 / 12 * (-2 / (h : ℂ) ^ 2 * k ^ 2 + k ^ 2 / (ρ m : ℂ) ^ 2)) * V m l
      + (v + (h : ℂ) ^ 2 / 12 * (v * k ^ 2 - 2 / (ρ m : ℂ) ^ 3 / (2 * h))) * V (m - 1) l
      + ((h : ℂ) ^ 2 / 12 * u / (ρ (m + 1) : ℂ) ^ 2 + (t : ℂ) ^ 2 / 12 * u) * T (m + 1)
      + (1 / (ρ m : ℂ) ^ 2 + (h : ℂ) ^ 2 / 12 * (-2 / (h : ℂ) ^ 2 / (ρ m : ℂ) ^ 2 + 1 / (ρ m : ℂ) ^ 2 / (ρ m : ℂ) ^ 2)
          + (t : ℂ) ^ 2 / 12 * (-2 / (h : ℂ) ^ 2 + k ^ 2)) * T m
      + ((h : ℂ) ^ 2 / 12 * v / (ρ (m - 1) : ℂ) ^ 2 + (t : ℂ) ^ 2 / 12 * v) * T (m - 1) := by
  refine ⟨_, rfl, ?_⟩
  simp only [polarL4, lapR, angPart, drr, dr, dthth]
  ring

/-- the recurrence of a mode -/
theorem modeL_three (s : ℝ) (w : ℤ → ℂ) (m : ℤ) :
    let u : ℂ := 1 / (h : ℂ) ^ 2 + 1 / (2 * h) / ρ m
    let v : ℂ := 1 / (h : ℂ) ^ 2 - 1 / (2 * h) / ρ m
    modeL h t k ρ s w m =
      (u + (h : ℂ) ^ 2 / 12 * (u * k ^ 2 + 2 / (ρ m : ℂ) ^ 3 / (2 * h))) * w (m + 1)
      + (-2 / (h : ℂ) ^ 2 + k ^ 2 + (h : ℂ) ^ 2 / 12 * (-2 / (h : ℂ) ^ 2 * k ^ 2 + k ^ 2 / (ρ m : ℂ) ^ 2)) * w m
      + (v + (h : ℂ) ^ 2 / 12 * (v * k ^ 2 - 2 / (ρ m : ℂ) ^ 3 / (2 * h))) * w (m - 1)
      + ((h : ℂ) ^ 2 / 12 * u / (ρ (m + 1) : ℂ) ^ 2 + (t : ℂ) ^ 2 / 12 * u) * (-s * w (m + 1))
      + (1 / (ρ m : ℂ) ^ 2 + (h : ℂ) ^ 2 / 12 * (-2 / (h : ℂ) ^ 2 / (ρ m : ℂ) ^ 2 + 1 / (ρ m : ℂ) ^ 2 / (ρ m : ℂ) ^ 2)
          + (t : ℂ) ^ 2 / 12 * (-2 / (h : ℂ) ^ 2 + k ^ 2)) * (-s * w m)
      + ((h : ℂ) ^ 2 / 12 * v / (ρ (m - 1) : ℂ) ^ 2 + (t : ℂ) ^ 2 / 12 * v) * (-s * w (m - 1)) := by
  simp only [modeL, rad1]
  ring

/-- the sine of a mode -/
theorem sin_mode (ht : t ≠ 0) (N j : ℕ) (l : ℤ) : (sin (π * j * (l + 1 : ℤ) / N) - 2 * sin (π * j * l / N) + sin (π * j * (l - 1 : ℤ) / N)) / t ^ 2 =
    -modeS t N j * sin (π * j * l / N) := by
  have e1 : π * j * (l + 1 : ℤ) / N = π * j * l / N + π * j / N := by push_cast; ring
  have e2 : π * j * (l - 1 : ℤ) / N = π * j * l / N - π * j / N := by push_cast; ring
  rw [e1, e2, sin_add, sin_sub, modeS]
  field_simp
  ring

/-- the scheme on a mode -/
theorem polarL4_mode (ht : t ≠ 0) (N j : ℕ) (w : ℤ → ℂ) (m l : ℤ) :
    polarL4 h t k ρ (fun m l => w m * (sin (π * j * l / N) : ℝ)) m l = modeL h t k ρ (modeS t N j) w m * (sin (π * j * l / N) : ℝ) := by
  obtain ⟨T, hT, he⟩ := polarL4_six (h := h) (t := t) (k := k) (ρ := ρ) (fun m l => w m * (sin (π * j * l / N) : ℝ)) m l
  have hT' : ∀ m', T m' = -modeS t N j * w m' * (sin (π * j * l / N) : ℝ) := by
    intro m'
    have := congrArg (fun x : ℝ => (x : ℂ)) (sin_mode ht N j l)
    push_cast at this
    rw [hT]
    simp only [dthth]
    push_cast
    linear_combination w m' * this
  rw [he, modeL_three, hT', hT', hT']
  ring

/-- summation by parts along the angle -/
theorem dthth_sum (ht : t ≠ 0) {N : ℕ} (hN : 1 ≤ N) (j : ℕ) (V : ℤ → ℤ → ℂ) (m : ℤ) (h0 : V m 0 = 0) (h1 : V m N = 0) :
    ∑ i ∈ range (N - 1), dthth t V m (i + 1 : ℕ) * (sin (π * j * (i + 1 : ℕ) / N) : ℝ) =
      -modeS t N j * ∑ i ∈ range (N - 1), V m (i + 1 : ℕ) * (sin (π * j * (i + 1 : ℕ) / N) : ℝ) := by
  set e : ℕ → ℂ := fun l => (sin (π * j * l / N) : ℝ) with he
  have e0 : e 0 = 0 := by simp [he]
  have eN : e N = 0 := by
    have hN' : (N : ℝ) ≠ 0 := by positivity
    have : π * j * N / N = j * π := by field_simp
    simp only [he, this, sin_nat_mul_pi, Complex.ofReal_zero]
  have hmode : ∀ l : ℕ, e (l + 2) - 2 * e (l + 1) + e l = -modeS t N j * t ^ 2 * e (l + 1) := by
    intro l
    have := congrArg (fun x : ℝ => (x : ℂ)) (sin_mode ht N j (l + 1 : ℕ))
    push_cast at this
    have ht' : (t : ℂ) ≠ 0 := by exact_mod_cast ht
    simp only [he]
    push_cast
    rw [div_eq_iff (pow_ne_zero 2 ht')] at this
    rw [show (l : ℂ) + 2 = l + 1 + 1 by ring]
    have hl : ((l : ℂ) + 1 - 1) = l := by ring
    rw [hl] at this
    linear_combination this
  obtain ⟨n, rfl⟩ : ∃ n, N = n + 1 := ⟨N - 1, by omega⟩
  simp only [Nat.add_sub_cancel]
  have ht' : (t : ℂ) ≠ 0 := by exact_mod_cast ht
  have key : ∀ n : ℕ, ∑ i ∈ range n, ((V m (i + 2 : ℕ) - 2 * V m (i + 1 : ℕ) + V m i) * e (i + 1)
      - V m (i + 1 : ℕ) * (e (i + 2) - 2 * e (i + 1) + e i)) =
      V m (n + 1 : ℕ) * e n - V m n * e (n + 1) - (V m 1 * e 0 - V m 0 * e 1) := by
    intro n
    induction n with
    | zero => simp
    | succ n ih =>
      rw [sum_range_succ, ih]
      push_cast
      ring_nf
  have hk := key n
  rw [e0, h0, h1, eN] at hk
  have hz : V m (n + 1 : ℕ) * e n - V m n * 0 - (V m 1 * 0 - 0 * e 1) = 0 := by
    have : V m ((n + 1 : ℕ) : ℤ) = 0 := h1
    rw [this]; ring
  rw [h1] at hz
  rw [hz, sum_sub_distrib, sub_eq_zero] at hk
  have l1 : ∑ i ∈ range n, dthth t V m (i + 1 : ℕ) * e (i + 1) = (∑ i ∈ range n, (V m (i + 2 : ℕ) - 2 * V m (i + 1 : ℕ) + V m i) * e (i + 1)) / t ^ 2 := by
    rw [sum_div]
    refine sum_congr rfl fun i _ => ?_
    simp only [dthth]
    push_cast
    rw [show ((i : ℤ) + 1 + 1) = i + 2 by ring, show ((i : ℤ) + 1 - 1) = i by ring]
    ring
  rw [l1, hk, mul_sum, sum_div]
  refine sum_congr rfl fun i _ => ?_
  rw [hmode]
  change _ = -(modeS t (n + 1) j : ℂ) * (V m (i + 1 : ℕ) * e (i + 1))
  field_simp

/-- the coefficient of a mode satisfies the recurrence of the mode -/
theorem modeL_sum (ht : t ≠ 0) {N : ℕ} (j : ℕ) (V : ℤ → ℤ → ℂ) {m : ℕ} (h0 : 0 < m) (hm : m < N)
    (hb : ∀ m : ℕ, m ≤ N → V m 0 = 0 ∧ V m N = 0) :
    modeL h t k ρ (modeS t N j) (fun m => ∑ i ∈ range (N - 1), V m (i + 1 : ℕ) * (sin (π * j * (i + 1 : ℕ) / N) : ℝ)) m =
      ∑ i ∈ range (N - 1), polarL4 h t k ρ V m (i + 1 : ℕ) * (sin (π * j * (i + 1 : ℕ) / N) : ℝ) := by
  have hN : 1 ≤ N := by omega
  have p1 := dthth_sum ht hN j V (m + 1) (by exact_mod_cast (hb (m + 1) (by omega)).1) (by exact_mod_cast (hb (m + 1) (by omega)).2)
  have p2 := dthth_sum ht hN j V m (hb m (by omega)).1 (hb m (by omega)).2
  have p3 := dthth_sum ht hN j V (m - 1) (by have := (hb (m - 1) (by omega)).1; rwa [Nat.cast_sub h0] at this)
    (by have := (hb (m - 1) (by omega)).2; rwa [Nat.cast_sub h0] at this)
  rw [modeL_three]
  simp only [← p1, ← p2, ← p3, mul_sum, ← sum_add_distrib]
  rw [← sub_eq_zero, ← sum_sub_distrib]
  refine sum_eq_zero fun i _ => ?_
  obtain ⟨T, hT, he⟩ := polarL4_six (h := h) (t := t) (k := k) (ρ := ρ) V m (i + 1 : ℕ)
  rw [he, hT]
  ring

/-- a vector all of whose sine coefficients vanish is zero -/
theorem sine_zero {n : ℕ} (x : ℕ → ℂ) (hx : ∀ j < n, ∑ i ∈ range n, x i * (sin (π * (j + 1 : ℕ) * (i + 1 : ℕ) / (n + 1 : ℕ)) : ℝ) = 0) :
    ∀ i < n, x i = 0 := by
  have h1 : Matrix.mulVec (Sm n) (fun i => x i) = 0 := by
    funext j
    have := hx j j.2
    rw [Finset.sum_range] at this
    simp only [Matrix.mulVec, dotProduct, Sm, Matrix.of_apply, S, Pi.zero_apply]
    rw [← this]
    refine sum_congr rfl fun i _ => ?_
    push_cast
    ring_nf
  have h2 := congrArg (Matrix.mulVec (Sm n)) h1
  rw [Matrix.mulVec_mulVec, Sm_mul_Sm, Matrix.mulVec_zero, Matrix.smul_mulVec, Matrix.one_mulVec] at h2
  intro i hi
  have h3 := congrFun h2 ⟨i, hi⟩
  simp only [Pi.smul_apply, smul_eq_mul, Pi.zero_apply] at h3
  rcases mul_eq_zero.1 h3 with h | h
  · exfalso
    have : (((n : ℝ) + 1) / 2 : ℝ) ≠ 0 := by positivity
    exact this (by exact_mod_cast h)
  · exact h

/-- the scheme is regular if and only if all its modes are -/
theorem schemeRegular_iff (ht : t ≠ 0) (N : ℕ) :
    SchemeRegular h t k ρ N ↔ ∀ j, 0 < j → j < N → ModeRegular h t k ρ N j := by
  constructor
  · intro hS j hj hjN w w0 wN hw m hm
    have hN : (N : ℝ) ≠ 0 := by have : 0 < N := by omega
                                positivity
    have hV := hS (fun m l => w m * (sin (π * j * l / N) : ℝ)) (by
      intro m l _ _ hml
      rcases hml with e | e | e | e
      · simp [e, w0]
      · simp [e, wN]
      · simp [e]
      · rw [e]
        have : π * j * (N : ℤ) / N = j * π := by push_cast; field_simp
        simp only [this, sin_nat_mul_pi, Complex.ofReal_zero, mul_zero])
      (fun m l h0 h1 _ _ => by rw [polarL4_mode ht, hw m h0 h1, zero_mul]) m 1 hm (by omega)
    rcases mul_eq_zero.1 hV with h | h
    · exact h
    · exfalso
      have h' : sin (π * j * ((1 : ℕ) : ℤ) / N) = 0 := by exact_mod_cast h
      have p : 0 < π * j * ((1 : ℕ) : ℤ) / N := by
        have : 0 < N := by omega
        have := pi_pos
        positivity
      have q : π * j * ((1 : ℕ) : ℤ) / N < π := by
        rw [div_lt_iff₀ (by have : 0 < N := by omega
                            positivity)]
        have : (j : ℝ) < N := by exact_mod_cast hjN
        push_cast
        nlinarith [pi_pos]
      exact (sin_pos_of_pos_of_lt_pi p q).ne' h'
  · intro hM V hb hin m l hm hl
    by_cases hbd : m = 0 ∨ m = N ∨ l = 0 ∨ l = N
    · exact hb m l hm hl hbd
    push Not at hbd
    obtain ⟨n, rfl⟩ : ∃ n, N = n + 1 := ⟨N - 1, by omega⟩
    have := sine_zero (n := n) (fun i => V m (i + 1 : ℕ)) (fun j hj => by
      have hreg := hM (j + 1) (by omega) (by omega)
        (fun m => ∑ i ∈ range (n + 1 - 1), V m (i + 1 : ℕ) * (sin (π * (j + 1 : ℕ) * (i + 1 : ℕ) / (n + 1 : ℕ)) : ℝ))
        (sum_eq_zero fun i hi => by
          rw [mem_range] at hi
          rw [show V 0 (i + 1 : ℕ) = 0 from hb 0 (i + 1) (by omega) (by omega) (Or.inl rfl), zero_mul])
        (sum_eq_zero fun i hi => by
          rw [mem_range] at hi
          rw [hb (n + 1) (i + 1) (by omega) (by omega) (Or.inr (Or.inl rfl)), zero_mul])
        (fun m h0 h1 => by
          rw [modeL_sum ht (j + 1) V h0 h1 fun m hm => ⟨hb m 0 hm (by omega) (by simp), hb m (n + 1) hm le_rfl (by simp)⟩]
          refine sum_eq_zero fun i hi => ?_
          rw [mem_range] at hi
          rw [hin m (i + 1) h0 h1 (by omega) (by omega), zero_mul])
        m hm
      simpa using hreg) (l - 1) (by omega)
    simpa [Nat.sub_add_cancel (show 1 ≤ l by omega)] using this

end

end Pot
