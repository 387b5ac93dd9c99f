import Verif.Proofs.Taylor
import Verif.Proofs.LinopSpec

/-! # Truncation error of the two schemes -/

namespace Pot
open Spec

/-- samples of `F` on the grid of the solver -/
noncomputable def smp (AD : ℝ) (N : ℕ) (F : ℝ → ℝ → ℂ) (p q : ℤ) : ℂ :=
  F (getCoord AD N p q).1 (getCoord AD N p q).2

/-- second difference in the first variable of a function of two real variables -/
noncomputable def D1 (F : ℝ → ℝ → ℂ) (h x y : ℝ) : ℂ := F (x + h) y + F (x - h) y - 2 * F x y
/-- second difference in the second variable -/
noncomputable def D2 (F : ℝ → ℝ → ℂ) (h x y : ℝ) : ℂ := F x (y + h) + F x (y - h) - 2 * F x y

theorem getCoord_succ (AD : ℝ) (N : ℕ) (i j : ℤ) :
    (getCoord AD N ((i + 1 : ℤ) : ℝ) j).1 = (getCoord AD N i j).1 + AD / N ∧
    (getCoord AD N ((i - 1 : ℤ) : ℝ) j).1 = (getCoord AD N i j).1 - AD / N ∧
    (getCoord AD N i ((j + 1 : ℤ) : ℝ)).2 = (getCoord AD N i j).2 + AD / N ∧
    (getCoord AD N i ((j - 1 : ℤ) : ℝ)).2 = (getCoord AD N i j).2 - AD / N := by
  simp only [getCoord]; push_cast
  refine ⟨?_, ?_, ?_, ?_⟩ <;> ring

theorem getCoord_fst (AD : ℝ) (N : ℕ) (i j j' : ℝ) : (getCoord AD N i j).1 = (getCoord AD N i j').1 := rfl
theorem getCoord_snd (AD : ℝ) (N : ℕ) (i i' j : ℝ) : (getCoord AD N i j).2 = (getCoord AD N i' j).2 := rfl

theorem dxx_smp (AD : ℝ) (N : ℕ) (F : ℝ → ℝ → ℂ) (i j : ℤ) :
    dxx (smp AD N F) i j = D1 F (AD / N) (getCoord AD N i j).1 (getCoord AD N i j).2 := by
  obtain ⟨h1, h2, -, -⟩ := getCoord_succ AD N i j
  unfold dxx smp D1
  rw [h1, h2, getCoord_snd AD N ((i + 1 : ℤ) : ℝ) i j, getCoord_snd AD N ((i - 1 : ℤ) : ℝ) i j]; ring

theorem dyy_smp (AD : ℝ) (N : ℕ) (F : ℝ → ℝ → ℂ) (i j : ℤ) :
    dyy (smp AD N F) i j = D2 F (AD / N) (getCoord AD N i j).1 (getCoord AD N i j).2 := by
  obtain ⟨-, -, h1, h2⟩ := getCoord_succ AD N i j
  unfold dyy smp D2
  rw [h1, h2, getCoord_fst AD N i ((j + 1 : ℤ) : ℝ) j, getCoord_fst AD N i ((j - 1 : ℤ) : ℝ) j]; ring

theorem dyy_smp_fun (AD : ℝ) (N : ℕ) (F : ℝ → ℝ → ℂ) :
    dyy (smp AD N F) = smp AD N (D2 F (AD / N)) := by
  funext i j; rw [dyy_smp]; rfl

variable {U : ℕ → ℕ → ℝ → ℝ → ℂ} {n : ℕ} {h x y M : ℝ}

/-- shifting a derivative to a line -/
theorem Jet.line1 (hU : Jet n U) (i j : ℕ) (hij : i + j < n) (x y t : ℝ) :
    HasDerivAt (fun s => U i j (x + s) y) (U (i + 1) j (x + t) y) t := by
  have := (hU.d1 i j hij (x + t) y)
  exact this.comp_const_add x t

theorem Jet.line2 (hU : Jet n U) (i j : ℕ) (hij : i + j < n) (x y t : ℝ) :
    HasDerivAt (fun s => U i j x (y + s)) (U i (j + 1) x (y + t)) t := by
  have := (hU.d2 i j hij x (y + t))
  exact this.comp_const_add y t

/-- bound of all derivatives of total order `m` on the square of half-width `h` around `(x, y)` -/
def BoxBound (U : ℕ → ℕ → ℝ → ℝ → ℂ) (m : ℕ) (x y h M : ℝ) : Prop :=
  ∀ i j, i + j = m → ∀ s t, |s| ≤ h → |t| ≤ h → ‖U i j (x + s) (y + t)‖ ≤ M

theorem D1_six (hU : Jet 6 U) (h0 : 0 ≤ h) (hM : BoxBound U 6 x y h M) :
    ‖D1 (U 0 0) h x y - U 2 0 x y * (h : ℂ) ^ 2 - U 4 0 x y / 12 * (h : ℂ) ^ 4‖ ≤ M / 360 * h ^ 6 := by
  have := central6 (g := fun i t => U i 0 (x + t) y) h0
    (fun i hi t _ => Jet.line1 hU i 0 (by omega) x y t)
    (fun t ht => by simpa using hM 6 0 rfl t 0 ht (by simpa using h0))
  simpa [D1, sub_eq_add_neg] using this

theorem D2_six (hU : Jet 6 U) (h0 : 0 ≤ h) (hM : BoxBound U 6 x y h M) :
    ‖D2 (U 0 0) h x y - U 0 2 x y * (h : ℂ) ^ 2 - U 0 4 x y / 12 * (h : ℂ) ^ 4‖ ≤ M / 360 * h ^ 6 := by
  have := central6 (g := fun i t => U 0 i x (y + t)) h0
    (fun i hi t _ => Jet.line2 hU 0 i (by omega) x y t)
    (fun t ht => by simpa using hM 0 6 rfl 0 t (by simpa using h0) ht)
  simpa [D2, sub_eq_add_neg] using this

theorem D1_four {m i j : ℕ} (hU : Jet m U) (hij : i + j + 4 = m) (h0 : 0 ≤ h) (hM : BoxBound U m x y h M) :
    ‖D1 (U i j) h x y - U (i + 2) j x y * (h : ℂ) ^ 2‖ ≤ M / 12 * h ^ 4 := by
  have := central4 (g := fun l t => U (i + l) j (x + t) y) h0
    (fun l hl t _ => Jet.line1 hU (i + l) j (by omega) x y t)
    (fun t ht => by simpa using hM (i + 4) j (by omega) t 0 ht (by simpa using h0))
  simpa [D1, sub_eq_add_neg] using this

theorem D2_four {m i j : ℕ} (hU : Jet m U) (hij : i + j + 4 = m) (h0 : 0 ≤ h) (hM : BoxBound U m x y h M) :
    ‖D2 (U i j) h x y - U i (j + 2) x y * (h : ℂ) ^ 2‖ ≤ M / 12 * h ^ 4 := by
  have := central4 (g := fun l t => U i (j + l) x (y + t)) h0
    (fun l hl t _ => Jet.line2 hU i (j + l) (by omega) x y t)
    (fun t ht => by simpa using hM i (j + 4) (by omega) 0 t (by simpa using h0) ht)
  simpa [D2, sub_eq_add_neg] using this

/-- the cross difference -/
theorem D12 (hU : Jet 6 U) (h0 : 0 ≤ h) (hM : BoxBound U 6 x y h M) :
    ‖D1 (D2 (U 0 0) h) h x y - U 2 2 x y * (h : ℂ) ^ 4‖ ≤ M / 6 * h ^ 6 := by
  have hfirst : ‖D1 (D2 (U 0 0) h) h x y - D2 (U 2 0) h x y * (h : ℂ) ^ 2‖ ≤ (M * h ^ 2) / 12 * h ^ 4 := by
    have := central4 (g := fun i t => D2 (U i 0) h (x + t) y) (h := h) (M := M * h ^ 2) h0 ?_ ?_
    · simpa [D1, sub_eq_add_neg] using this
    · intro i hi t _
      have e := fun y => Jet.line1 hU i 0 (by omega : i + 0 < 6) x y t
      exact (((e (y + h)).fun_add (e (y - h))).fun_sub ((e y).const_mul 2)).congr_deriv rfl
    · intro t ht
      have := central2 (g := fun j s => U 4 j (x + t) (y + s)) (h := h) (M := M) h0
        (fun j hj s _ => Jet.line2 hU 4 j (by omega) (x + t) y s)
        (fun s hs => hM 4 2 rfl t s ht hs)
      simpa [D2, sub_eq_add_neg] using this
  have hsecond := D2_four (i := 2) (j := 0) hU rfl h0 hM
  have e : D1 (D2 (U 0 0) h) h x y - U 2 2 x y * (h : ℂ) ^ 4 =
      (D1 (D2 (U 0 0) h) h x y - D2 (U 2 0) h x y * (h : ℂ) ^ 2) +
      (D2 (U 2 0) h x y - U 2 2 x y * (h : ℂ) ^ 2) * (h : ℂ) ^ 2 := by ring
  rw [e]
  calc _ ≤ _ := norm_add_le _ _
    _ ≤ (M * h ^ 2) / 12 * h ^ 4 + (M / 12 * h ^ 4) * h ^ 2 := by
        apply add_le_add hfirst
        rw [norm_mul, norm_pow, Complex.norm_real, Real.norm_eq_abs, abs_of_nonneg h0]
        exact mul_le_mul_of_nonneg_right hsecond (by positivity)
    _ = _ := by ring

/-- truncation error of the compact fourth-order Laplacian, times `h²` -/
theorem fourth_order_core (hU : Jet 6 U) (h0 : 0 ≤ h) (hM : BoxBound U 6 x y h M) :
    ‖D1 (U 0 0) h x y + D2 (U 0 0) h x y + D1 (D2 (U 0 0) h) h x y / 6 -
      (h : ℂ) ^ 2 * ((U 2 0 x y + U 0 2 x y) +
        (D1 (U 2 0) h x y + D1 (U 0 2) h x y + D2 (U 2 0) h x y + D2 (U 0 2) h x y) / 12)‖
      ≤ 11 / 180 * M * h ^ 6 := by
  have a1 := D1_six hU h0 hM
  have a2 := D2_six hU h0 hM
  have a3 := D12 hU h0 hM
  have b1 := D1_four (i := 2) (j := 0) hU rfl h0 hM
  have b2 := D1_four (i := 0) (j := 2) hU rfl h0 hM
  have b3 := D2_four (i := 2) (j := 0) hU rfl h0 hM
  have b4 := D2_four (i := 0) (j := 2) hU rfl h0 hM
  simp only [Nat.zero_add, Nat.reduceAdd] at b1 b2 b3 b4
  set r1 := D1 (U 0 0) h x y - U 2 0 x y * (h : ℂ) ^ 2 - U 4 0 x y / 12 * (h : ℂ) ^ 4
  set r2 := D2 (U 0 0) h x y - U 0 2 x y * (h : ℂ) ^ 2 - U 0 4 x y / 12 * (h : ℂ) ^ 4
  set r3 := D1 (D2 (U 0 0) h) h x y - U 2 2 x y * (h : ℂ) ^ 4
  set s1 := D1 (U 2 0) h x y - U 4 0 x y * (h : ℂ) ^ 2
  set s2 := D1 (U 0 2) h x y - U 2 2 x y * (h : ℂ) ^ 2
  set s3 := D2 (U 2 0) h x y - U 2 2 x y * (h : ℂ) ^ 2
  set s4 := D2 (U 0 2) h x y - U 0 4 x y * (h : ℂ) ^ 2
  have e : D1 (U 0 0) h x y + D2 (U 0 0) h x y + D1 (D2 (U 0 0) h) h x y / 6 -
      (h : ℂ) ^ 2 * ((U 2 0 x y + U 0 2 x y) +
        (D1 (U 2 0) h x y + D1 (U 0 2) h x y + D2 (U 2 0) h x y + D2 (U 0 2) h x y) / 12)
      = r1 + r2 + r3 / 6 - (h : ℂ) ^ 2 / 12 * (s1 + s2 + s3 + s4) := by
    simp only [r1, r2, r3, s1, s2, s3, s4]; ring
  rw [e]
  have n6 : ‖r3 / 6‖ ≤ M / 36 * h ^ 6 := by
    rw [norm_div]; norm_num
    linarith
  have n12 : ‖(h : ℂ) ^ 2 / 12 * (s1 + s2 + s3 + s4)‖ ≤ h ^ 2 / 12 * (4 * (M / 12 * h ^ 4)) := by
    rw [norm_mul, norm_div, norm_pow, Complex.norm_real, Real.norm_eq_abs, abs_of_nonneg h0]
    norm_num
    apply mul_le_mul_of_nonneg_left _ (by positivity)
    calc _ ≤ ‖s1 + s2 + s3‖ + ‖s4‖ := norm_add_le _ _
      _ ≤ ‖s1 + s2‖ + ‖s3‖ + ‖s4‖ := by linarith [norm_add_le (s1 + s2) s3]
      _ ≤ ‖s1‖ + ‖s2‖ + ‖s3‖ + ‖s4‖ := by linarith [norm_add_le s1 s2]
      _ ≤ _ := by linarith
  calc _ ≤ ‖r1 + r2 + r3 / 6‖ + ‖(h : ℂ) ^ 2 / 12 * (s1 + s2 + s3 + s4)‖ := norm_sub_le _ _
    _ ≤ ‖r1‖ + ‖r2‖ + ‖r3 / 6‖ + ‖(h : ℂ) ^ 2 / 12 * (s1 + s2 + s3 + s4)‖ := by
        linarith [norm_add_le (r1 + r2) (r3 / 6), norm_add_le r1 r2]
    _ ≤ M / 360 * h ^ 6 + M / 360 * h ^ 6 + M / 36 * h ^ 6 + h ^ 2 / 12 * (4 * (M / 12 * h ^ 4)) := by
        linarith
    _ = _ := by ring

end Pot
