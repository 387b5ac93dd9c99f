import Verif.Proofs.RoundedDist

/-! # Lower bounds for the distances computed in rounded arithmetic -/

namespace Pot
open Real Spec

section
variable {F : FlLib} (h : RoundsToNearest F.rnd)
include h

/-- the computed distance formula is at least the distance of the two points up to `2⁻⁴⁵` -/
theorem dformulaF_ge (hs : SquareSafe F.sq) {x0 y0 x y : ℝ} (hx : |x0 - x| ≤ 9) (hy : |y0 - y| ≤ 9) :
    dist2 (x, y) (x0, y0) ≤ dformulaF F x0 y0 x y + 1 / 2 ^ 45 := by
  have r1 := Rnd.abs_err h hx (by norm_num)
  have r2 := Rnd.abs_err h hy (by norm_num)
  have d1 : IsDouble (F.rnd (x0 - x)) := Rnd.double h (le_big hx (by norm_num))
  have d2 : IsDouble (F.rnd (y0 - y)) := Rnd.double h (le_big hy (by norm_num))
  have e1 : |F.rnd (x0 - x) - (x0 - x)| ≤ 1 / 2 ^ 49 := r1.trans (by norm_num)
  have e2 : |F.rnd (y0 - y) - (y0 - y)| ≤ 1 / 2 ^ 49 := r2.trans (by norm_num)
  unfold dformulaF
  obtain ⟨u, hu⟩ : ∃ u, u = F.rnd (x0 - x) := ⟨_, rfl⟩
  obtain ⟨v, hv⟩ : ∃ v, v = F.rnd (y0 - y) := ⟨_, rfl⟩
  rw [← hu] at d1 e1 ⊢
  rw [← hv] at d2 e2 ⊢
  have u9 : |u| ≤ 9.1 := by
    have := abs_sub_abs_le_abs_sub u (x0 - x)
    have : (1 : ℝ) / 2 ^ 49 ≤ 0.1 := by norm_num
    linarith
  have v9 : |v| ≤ 9.1 := by
    have := abs_sub_abs_le_abs_sub v (y0 - y)
    have : (1 : ℝ) / 2 ^ 49 ≤ 0.1 := by norm_num
    linarith
  have s1 := abs_le.1 (hs u d1 (u9.trans (by norm_num)))
  have s2 := abs_le.1 (hs v d2 (v9.trans (by norm_num)))
  have u2 : u ^ 2 ≤ 82.81 := by rw [← sq_abs]; nlinarith [abs_nonneg u]
  have v2 : v ^ 2 ≤ 82.81 := by rw [← sq_abs]; nlinarith [abs_nonneg v]
  have u0 := sq_nonneg u
  have v0 := sq_nonneg v
  -- the distance of the rounded differences
  have hD : dist2 (x, y) (x0, y0) ≤ √(u ^ 2 + v ^ 2) + 2 * (1 / 2 ^ 49) := by
    have e : √(u ^ 2 + v ^ 2) = dist2 (0, 0) (u, v) := by unfold dist2; simp
    have e' : dist2 (x, y) (x0, y0) = dist2 (0, 0) (x0 - x, y0 - y) := by
      unfold dist2; dsimp only; congr 1; ring
    rw [e, e']
    have t := dist2_triangle (0, 0) (x0 - x, y0 - y) (u, v)
    have t2 : dist2 (u, v) (x0 - x, y0 - y) ≤ 2 * (1 / 2 ^ 49) := by
      refine sqrt_le_iff.2 ⟨by positivity, ?_⟩
      dsimp only
      have a1 := sq_le_sq' (abs_le.1 e1).1 (abs_le.1 e1).2
      have a2 := sq_le_sq' (abs_le.1 e2).1 (abs_le.1 e2).2
      have : (0 : ℝ) ≤ (1 / 2 ^ 49) ^ 2 := by positivity
      nlinarith
    linarith
  obtain ⟨D, hDd⟩ : ∃ D, D = √(u ^ 2 + v ^ 2) := ⟨_, rfl⟩
  have hD0 : 0 ≤ D := by rw [hDd]; positivity
  have hD2 : D ^ 2 = u ^ 2 + v ^ 2 := by rw [hDd]; exact sq_sqrt (by positivity)
  rw [← hDd] at hD
  have hD13 : D ≤ 13 := by nlinarith
  have hS1 : D ^ 2 * (1 - 1 / 2 ^ 52) - 1 / 2 ^ 99 ≤ F.sq u + F.sq v := by
    norm_num at s1 s2 ⊢; linarith
  have hS : |F.sq u + F.sq v| ≤ D ^ 2 * (1 + 1 / 2 ^ 52) + 1 / 2 ^ 99 := by
    rw [abs_le]
    norm_num at s1 s2 ⊢
    constructor <;> linarith
  have hr := abs_le.1 (Rnd.abs_err h (hi := D ^ 2 * (1 + 1 / 2 ^ 52) + 1 / 2 ^ 99) hS (by norm_num; nlinarith))
  have hx2 : (0 : ℝ) ≤ D ^ 2 := sq_nonneg D
  have hT1 : D ^ 2 * (1 - 1 / 2 ^ 51) - 1 / 2 ^ 98 ≤ F.rnd (F.sq u + F.sq v) := by
    have := hr.1
    norm_num at hS1 this ⊢; linarith
  have hT200 : F.rnd (F.sq u + F.sq v) ≤ 196 := by
    have h1 := hr.2
    have h2 := (abs_le.1 hS).2
    have h3 : D ^ 2 ≤ 169 := by nlinarith
    norm_num at h1 h2 h3 ⊢; linarith
  have hT : D * (1 - 1 / 2 ^ 51) - 1 / 2 ^ 48 ≤ √(F.rnd (F.sq u + F.sq v)) := by
    rcases le_total (D * (1 - 1 / 2 ^ 51) - 1 / 2 ^ 48) 0 with c | c
    · exact c.trans (sqrt_nonneg _)
    · refine le_sqrt_of_sq_le (le_trans ?_ hT1)
      norm_num at c ⊢
      nlinarith
  have hT2 : √(F.rnd (F.sq u + F.sq v)) ≤ 14 := sqrt_le_iff.2 ⟨by norm_num, hT200.trans (by norm_num)⟩
  have hf := (abs_le.1 (Rnd.abs_err h (x := √(F.rnd (F.sq u + F.sq v))) (hi := 14) (by rw [abs_of_nonneg (sqrt_nonneg _)]; exact hT2)
    (by norm_num))).1
  norm_num at hf hT hD ⊢
  linarith

end

theorem sqrt_sq_add_le (a b : ℝ) : √(a ^ 2 + b ^ 2) ≤ |a| + |b| := by
  refine sqrt_le_iff.2 ⟨by positivity, ?_⟩
  nlinarith [sq_abs a, sq_abs b, abs_nonneg a, abs_nonneg b]

end Pot
