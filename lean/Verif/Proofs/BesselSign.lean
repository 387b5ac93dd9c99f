import Verif.Props.Bessel
import Mathlib.Analysis.SpecificLimits.Normed

/-!
# The sign of a Bessel function at a rational point, by integers

`J_ν(x) = (x/2)^ν / Γ(ν+1) · T_0` with `T_l = 1 - q / ((l+1)(ν+l+1)) · T_{l+1}`, `q = (x/2)²`, and `0 ≤ T_n ≤ 1` as soon as
`q ≤ (n+1)(ν+n+1)`.  So `T_0` lies between the values of the recurrence started with 0 and with 1.
-/

namespace Pot
open Spec Filter Topology Real Finset

/-- the quotient of the terms `l` and `l + 1` -/
noncomputable def bRatio (nu q : ℝ) (l : ℕ) : ℝ := q / (((l : ℝ) + 1) * (nu + l + 1))

/-- the terms from `l` on, without sign, divided by the term `l` -/
noncomputable def bTerm (nu q : ℝ) (l : ℕ) : ℕ → ℝ
  | 0 => 1
  | j + 1 => bTerm nu q l j * bRatio nu q (l + j)

/-- the series from the term `l` on, divided by this term -/
noncomputable def bTail (nu q : ℝ) (l : ℕ) : ℝ := ∑' j, (-1) ^ j * bTerm nu q l j

theorem bRatio_nonneg {nu q : ℝ} (hnu : 0 ≤ nu) (hq : 0 ≤ q) (l : ℕ) : 0 ≤ bRatio nu q l := by unfold bRatio; positivity

theorem bTerm_nonneg {nu q : ℝ} (hnu : 0 ≤ nu) (hq : 0 ≤ q) (l : ℕ) : ∀ j, 0 ≤ bTerm nu q l j
  | 0 => zero_le_one
  | j + 1 => mul_nonneg (bTerm_nonneg hnu hq l j) (bRatio_nonneg hnu hq _)

theorem bTerm_succ' (nu q : ℝ) (l : ℕ) : ∀ j, bTerm nu q l (j + 1) = bRatio nu q l * bTerm nu q (l + 1) j
  | 0 => by simp [bTerm]
  | j + 1 => by
    rw [bTerm, bTerm_succ' nu q l j, bTerm, show l + (j + 1) = l + 1 + j by ring]
    ring

/-- the terms of the series of the Bessel function -/
theorem bTerm_bc {nu : ℝ} (hnu : 0 ≤ nu) (q : ℝ) (l : ℕ) : ∀ j, bc nu (l + j) * q ^ j = bc nu l * ((-1) ^ j * bTerm nu q l j)
  | 0 => by simp [bTerm]
  | j + 1 => by
    have h := bTerm_bc hnu q l j
    have hs := bc_succ hnu (l + j)
    have h0 : (((l + j : ℕ) : ℝ) + 1) * (nu + ((l + j : ℕ) : ℝ) + 1) ≠ 0 := by positivity
    have e : bc nu (l + j + 1) = -bc nu (l + j) / ((((l + j : ℕ) : ℝ) + 1) * (nu + ((l + j : ℕ) : ℝ) + 1)) := by
      rw [eq_div_iff h0]
      linear_combination hs
    rw [← add_assoc, e, bTerm, bRatio, pow_succ, pow_succ]
    have : -bc nu (l + j) / ((((l + j : ℕ) : ℝ) + 1) * (nu + ((l + j : ℕ) : ℝ) + 1)) * (q ^ j * q) =
        -(bc nu (l + j) * q ^ j) * (q / ((((l + j : ℕ) : ℝ) + 1) * (nu + ((l + j : ℕ) : ℝ) + 1))) := by ring
    rw [this, h]
    ring

theorem bTail_summable {nu : ℝ} (hnu : 0 ≤ nu) (q : ℝ) (l : ℕ) : Summable fun j => (-1) ^ j * bTerm nu q l j := by
  have h0 : bc nu l ≠ 0 := by
    rw [← abs_ne_zero, bc_abs hnu]
    have := Gamma_pos_of_pos (by positivity : 0 < nu + (l : ℝ) + 1)
    positivity
  have hb : ∀ j, |bc nu (l + j)| ≤ 1 / Gamma (nu + 1) / j.factorial := by
    intro j
    refine (bc_bound hnu (l + j)).trans ?_
    have hG0 := Gamma_pos_of_pos (by positivity : 0 < nu + 1)
    have : (j.factorial : ℝ) ≤ ((l + j).factorial : ℝ) := by exact_mod_cast Nat.factorial_le (by omega)
    gcongr
  have h := (facSeries_summable hb q).mul_left (bc nu l)⁻¹
  refine h.congr fun j => ?_
  rw [bTerm_bc hnu, inv_mul_cancel_left₀ h0]

/-- the recurrence -/
theorem bTail_rec {nu : ℝ} (hnu : 0 ≤ nu) (q : ℝ) (l : ℕ) : bTail nu q l = 1 - bRatio nu q l * bTail nu q (l + 1) := by
  unfold bTail
  rw [(bTail_summable hnu q l).tsum_eq_zero_add, ← tsum_mul_left]
  have : ∀ j, (-1) ^ (j + 1) * bTerm nu q l (j + 1) = -(bRatio nu q l * ((-1) ^ j * bTerm nu q (l + 1) j)) := by
    intro j
    rw [bTerm_succ', pow_succ]
    ring
  simp only [this, tsum_neg]
  simp [bTerm]
  ring

/-- decreasing terms -/
theorem bTail_mem {nu q : ℝ} (hnu : 0 ≤ nu) (hq : 0 ≤ q) {n : ℕ} (h : q ≤ ((n : ℝ) + 1) * (nu + n + 1)) : 0 ≤ bTail nu q n ∧ bTail nu q n ≤ 1 := by
  have hr : ∀ j, bRatio nu q (n + j) ≤ 1 := by
    intro j
    unfold bRatio
    rw [div_le_one (by positivity)]
    refine h.trans ?_
    push_cast
    have : (0 : ℝ) ≤ j := Nat.cast_nonneg j
    gcongr <;> linarith
  have ha : Antitone (bTerm nu q n) := antitone_nat_of_succ_le fun j =>
    mul_le_of_le_one_right (bTerm_nonneg hnu hq n j) (hr j)
  have ht := (bTail_summable hnu q n).hasSum.tendsto_sum_nat
  unfold bTail
  refine ⟨by simpa using ha.alternating_series_le_tendsto ht 0, by simpa [bTerm] using ha.tendsto_le_alternating_series ht 0⟩

/-- the Bessel function -/
theorem besselJ_bTail {nu : ℝ} (hnu : 0 ≤ nu) (x : ℝ) : besselJ nu x = (x / 2) ^ nu / Gamma (nu + 1) * bTail nu ((x / 2) ^ 2) 0 := by
  rw [besselJ_eq, bE, bTail, ← tsum_mul_left, ← tsum_mul_right]
  refine tsum_congr fun j => ?_
  have h := bTerm_bc hnu ((x / 2) ^ 2) 0 j
  rw [zero_add] at h
  rw [h]
  simp only [bc, pow_zero, Nat.factorial_zero, Nat.cast_one, one_mul, Nat.cast_zero, add_zero]
  ring

/-- the recurrence from `n` down to 0 -/
noncomputable def bDown (nu q : ℝ) : ℕ → ℝ → ℝ
  | 0, t => t
  | n + 1, t => bDown nu q n (1 - bRatio nu q n * t)

theorem bDown_tail {nu : ℝ} (hnu : 0 ≤ nu) (q : ℝ) : ∀ n, bDown nu q n (bTail nu q n) = bTail nu q 0
  | 0 => rfl
  | n + 1 => by rw [bDown, ← bTail_rec hnu q n, bDown_tail hnu q n]

theorem bDown_affine (nu q : ℝ) : ∀ n t, bDown nu q n t = (1 - t) * bDown nu q n 0 + t * bDown nu q n 1
  | 0, t => by simp [bDown]
  | n + 1, t => by
    simp only [bDown]
    rw [bDown_affine nu q n (1 - bRatio nu q n * t), bDown_affine nu q n (1 - bRatio nu q n * 0), bDown_affine nu q n (1 - bRatio nu q n * 1)]
    ring

/-- the same with integers: `ν = p / d`, `q = a / b`, started with `N / D`; the numerator of the result, whose denominator is positive -/
def bInt (a b p d : ℕ) : ℕ → ℤ → ℕ → ℤ
  | 0, N, _ => N
  | n + 1, N, D => bInt a b p d n ((D * (b * (n + 1) * (p + d * (n + 1))) : ℕ) - (a * d : ℕ) * N) (D * (b * (n + 1) * (p + d * (n + 1))))

theorem bInt_sign {a b p d : ℕ} (hb : 0 < b) (hd : 0 < d) : ∀ (n : ℕ) (N : ℤ) (D : ℕ), 0 < D →
    ∃ c : ℝ, 0 < c ∧ bDown ((p : ℝ) / d) ((a : ℝ) / b) n ((N : ℝ) / D) = c * (bInt a b p d n N D : ℝ)
  | 0, N, D, hD => ⟨1 / D, by positivity, by rw [bDown, bInt]; ring⟩
  | n + 1, N, D, hD => by
    have hD' : 0 < D * (b * (n + 1) * (p + d * (n + 1))) := by positivity
    obtain ⟨c, hc, h⟩ := bInt_sign hb hd n ((D * (b * (n + 1) * (p + d * (n + 1))) : ℕ) - (a * d : ℕ) * N) _ hD'
    refine ⟨c, hc, ?_⟩
    rw [bDown, bInt, ← h]
    congr 1
    unfold bRatio
    push_cast
    have : (0:ℝ) < b := by exact_mod_cast hb
    have : (0:ℝ) < d := by exact_mod_cast hd
    have : (0:ℝ) < D := by exact_mod_cast hD
    field_simp
    ring

/-- both ends have the same sign, and the terms decrease from `n` on -/
def bCheck (a b p d n : ℕ) : Bool :=
  a * d ≤ b * ((n + 1) * (p + d * (n + 1))) && (0 < bInt a b p d n 0 1 && 0 < bInt a b p d n 1 1 || bInt a b p d n 0 1 < 0 && bInt a b p d n 1 1 < 0)

theorem bCheck_ne {a b p d n : ℕ} (hb : 0 < b) (hd : 0 < d) (h : bCheck a b p d n = true) : bTail ((p : ℝ) / d) ((a : ℝ) / b) 0 ≠ 0 := by
  unfold bCheck at h
  simp only [Bool.and_eq_true, Bool.or_eq_true, decide_eq_true_eq] at h
  obtain ⟨h1, h2⟩ := h
  have hbR : (0:ℝ) < b := by exact_mod_cast hb
  have hdR : (0:ℝ) < d := by exact_mod_cast hd
  have hnu : (0:ℝ) ≤ (p : ℝ) / d := by positivity
  have hle : (a : ℝ) / b ≤ ((n : ℝ) + 1) * ((p : ℝ) / d + n + 1) := by
    rw [div_le_iff₀ hbR]
    have : ((a * d : ℕ) : ℝ) ≤ ((b * ((n + 1) * (p + d * (n + 1))) : ℕ) : ℝ) := by exact_mod_cast h1
    push_cast at this
    have e : ((n : ℝ) + 1) * ((p : ℝ) / d + n + 1) * b = b * (((n : ℝ) + 1) * (p + d * (n + 1))) / d := by field_simp; ring
    rw [e, le_div_iff₀ hdR]
    exact this
  obtain ⟨t0, t1⟩ := bTail_mem hnu (by positivity) hle
  rw [← bDown_tail hnu _ n, bDown_affine]
  obtain ⟨c0, hc0, e0⟩ := bInt_sign (a := a) (p := p) hb hd n 0 1 one_pos
  obtain ⟨c1, hc1, e1⟩ := bInt_sign (a := a) (p := p) hb hd n 1 1 one_pos
  simp only [Int.cast_zero, Int.cast_one, Nat.cast_one, div_one] at e0 e1
  rw [e0, e1]
  set t := bTail ((p : ℝ) / d) ((a : ℝ) / b) n
  rcases h2 with ⟨g0, g1⟩ | ⟨g0, g1⟩
  · have g0 : (0:ℝ) < c0 * (bInt a b p d n 0 1 : ℝ) := mul_pos hc0 (by exact_mod_cast g0)
    have g1 : (0:ℝ) < c1 * (bInt a b p d n 1 1 : ℝ) := mul_pos hc1 (by exact_mod_cast g1)
    apply ne_of_gt
    rcases eq_or_lt_of_le t0 with ht | ht
    · rw [← ht]; simpa using g0
    · have := mul_pos ht g1
      have := mul_nonneg (by linarith : 0 ≤ 1 - t) g0.le
      linarith
  · have g0 : c0 * (bInt a b p d n 0 1 : ℝ) < 0 := mul_neg_of_pos_of_neg hc0 (by exact_mod_cast g0)
    have g1 : c1 * (bInt a b p d n 1 1 : ℝ) < 0 := mul_neg_of_pos_of_neg hc1 (by exact_mod_cast g1)
    apply ne_of_lt
    rcases eq_or_lt_of_le t0 with ht | ht
    · rw [← ht]; simpa using g0
    · have := mul_neg_of_pos_of_neg ht g1
      have := mul_nonpos_of_nonneg_of_nonpos (by linarith : 0 ≤ 1 - t) g0.le
      linarith

/-- the check, or a large order -/
theorem besselJ_ne {a b p d n : ℕ} (hb : 0 < b) (hd : 0 < d) (h : bCheck a b p d n = true) {x : ℝ} (hx : 0 < x) (hq : (x / 2) ^ 2 = (a : ℝ) / b) :
    besselJ ((p : ℝ) / d) x ≠ 0 := by
  have hnu : (0:ℝ) ≤ (p : ℝ) / d := by positivity
  rw [besselJ_bTail hnu, hq]
  exact mul_ne_zero (div_ne_zero (rpow_pos_of_pos (by positivity) _).ne' (Gamma_pos_of_pos (by positivity)).ne') (bCheck_ne hb hd h)

/-- `J_ν(x) > 0` for `(x/2)² < ν + 1` -/
theorem besselJ_pos {nu x : ℝ} (hnu : 0 ≤ nu) (hx : 0 < x) (h : (x / 2) ^ 2 < nu + 1) : 0 < besselJ nu x := by
  rw [besselJ_bTail hnu]
  have hG := Gamma_pos_of_pos (by positivity : 0 < nu + 1)
  have hT : 0 < bTail nu ((x / 2) ^ 2) 0 := by
    rw [bTail_rec hnu]
    obtain ⟨t0, t1⟩ := bTail_mem hnu (q := (x / 2) ^ 2) (n := 1) (by positivity) (by push_cast; nlinarith)
    have hr : bRatio nu ((x / 2) ^ 2) 0 < 1 := by
      unfold bRatio
      rw [div_lt_one (by push_cast; positivity)]
      simpa using h
    have hr0 := bRatio_nonneg hnu (by positivity : 0 ≤ (x / 2) ^ 2) 0
    rw [zero_add]
    nlinarith
  have : 0 < (x / 2) ^ nu := rpow_pos_of_pos (by positivity) _
  positivity

end Pot
