import Verif.Proofs.RoundedTie
import Verif.Props.Rounding
import Verif.Props.ExtendError

/-! # Upper bounds for the distances computed in rounded arithmetic -/

namespace Pot
open Real Spec

theorem Rnd.abs_err {rnd : ℝ → ℝ} (h : RoundsToNearest rnd) {x hi : ℝ} (h2 : |x| ≤ hi) (hhi : hi ≤ 2 ^ 100) :
    |rnd x - x| ≤ 1 / 2 ^ 53 * hi + 1 / 2 ^ 100 := by
  have hp : 0 ≤ hi := (abs_nonneg x).trans h2
  rcases le_total (1 / 2 ^ 100) |x| with c | c
  · exact (Rnd.rel' h c h2 le_rfl hhi).trans (le_add_of_nonneg_right (by positivity))
  · have := (h x (le_big h2 hhi)).2 0 ⟨0, 0, by norm_num, by norm_num, by norm_num, by norm_num⟩
    rw [zero_sub, abs_neg] at this
    exact (this.trans c).trans (le_add_of_nonneg_left (by positivity))

theorem dist2_near {p q p' q' : ℝ × ℝ} {ε : ℝ} (h1 : |p.1 - p'.1| ≤ ε) (h2 : |p.2 - p'.2| ≤ ε) (h3 : |q.1 - q'.1| ≤ ε)
    (h4 : |q.2 - q'.2| ≤ ε) : dist2 p q ≤ dist2 p' q' + 4 * ε := by
  have key : ∀ {u v : ℝ × ℝ}, |u.1 - v.1| ≤ ε → |u.2 - v.2| ≤ ε → dist2 u v ≤ 2 * ε := fun {u v} a b => by
    have hε : 0 ≤ ε := (abs_nonneg _).trans a
    refine sqrt_le_iff.2 ⟨by positivity, ?_⟩
    have a' := sq_le_sq' (abs_le.1 a).1 (abs_le.1 a).2
    have b' := sq_le_sq' (abs_le.1 b).1 (abs_le.1 b).2
    nlinarith
  have e1 := key h1 h2
  have e2 := key h3 h4
  have t1 := dist2_triangle p q p'
  have t2 := dist2_triangle p' q q'
  rw [dist2_comm q' q] at t2
  linarith

/-- moving the foot along the line by `ε` -/
theorem ray_le {s t c d ε : ℝ} (hε : 0 ≤ ε) (h : |s - c| ≤ |s - t| + ε) :
    √((s - c) ^ 2 + d ^ 2) ≤ √((s - t) ^ 2 + d ^ 2) + ε := by
  have hA : |s - t| ≤ √((s - t) ^ 2 + d ^ 2) := abs_le_sqrt (by nlinarith [sq_nonneg d])
  have hA2 : √((s - t) ^ 2 + d ^ 2) ^ 2 = (s - t) ^ 2 + d ^ 2 := sq_sqrt (by positivity)
  refine sqrt_le_iff.2 ⟨by positivity, ?_⟩
  have h1 : (s - c) ^ 2 ≤ (|s - t| + ε) ^ 2 := by rw [← sq_abs (s - c)]; exact pow_le_pow_left₀ (abs_nonneg _) h 2
  have h2 : |s - t| ^ 2 = (s - t) ^ 2 := sq_abs _
  nlinarith

section
variable {F : FlLib} (h : RoundsToNearest F.rnd)
include h

theorem dformulaF_le (hs : SquareSafe F.sq) {x0 y0 x y : ℝ} (hx : |x0 - x| ≤ 9) (hy : |y0 - y| ≤ 9) :
    dformulaF F x0 y0 x y ≤ dist2 (x, y) (x0, y0) + 1 / 2 ^ 45 := by
  have r1 := Rnd.abs_err h hx (by norm_num)
  have r2 := Rnd.abs_err h hy (by norm_num)
  have d1 : IsDouble (F.rnd (x0 - x)) := Rnd.double h (le_big hx (by norm_num))
  have d2 : IsDouble (F.rnd (y0 - y)) := Rnd.double h (le_big hy (by norm_num))
  have e1 : |F.rnd (x0 - x) - (x0 - x)| ≤ 1 / 2 ^ 49 := r1.trans (by norm_num)
  have e2 : |F.rnd (y0 - y) - (y0 - y)| ≤ 1 / 2 ^ 49 := r2.trans (by norm_num)
  unfold dformulaF
  obtain ⟨u, hu⟩ : ∃ u, u = F.rnd (x0 - x) := ⟨_, rfl⟩
  obtain ⟨v, hv⟩ : ∃ v, v = F.rnd (y0 - y) := ⟨_, rfl⟩
  rw [← hu] at d1 e1 ⊢
  rw [← hv] at d2 e2 ⊢
  have u9 : |u| ≤ 9.1 := by
    have := abs_sub_abs_le_abs_sub u (x0 - x)
    have : (1 : ℝ) / 2 ^ 49 ≤ 0.1 := by norm_num
    linarith
  have v9 : |v| ≤ 9.1 := by
    have := abs_sub_abs_le_abs_sub v (y0 - y)
    have : (1 : ℝ) / 2 ^ 49 ≤ 0.1 := by norm_num
    linarith
  have s1 := abs_le.1 (hs u d1 (u9.trans (by norm_num)))
  have s2 := abs_le.1 (hs v d2 (v9.trans (by norm_num)))
  have u2 : u ^ 2 ≤ 82.81 := by rw [← sq_abs]; nlinarith [abs_nonneg u]
  have v2 : v ^ 2 ≤ 82.81 := by rw [← sq_abs]; nlinarith [abs_nonneg v]
  have u0 := sq_nonneg u
  have v0 := sq_nonneg v
  -- the distance of the rounded differences
  have hD : √(u ^ 2 + v ^ 2) ≤ dist2 (x, y) (x0, y0) + 2 * (1 / 2 ^ 49) := by
    have e : √(u ^ 2 + v ^ 2) = dist2 (0, 0) (u, v) := by unfold dist2; simp
    have e' : dist2 (x, y) (x0, y0) = dist2 (0, 0) (x0 - x, y0 - y) := by
      unfold dist2; dsimp only; congr 1; ring
    rw [e, e']
    have t := dist2_triangle (0, 0) (u, v) (x0 - x, y0 - y)
    have t2 : dist2 (x0 - x, y0 - y) (u, v) ≤ 2 * (1 / 2 ^ 49) := by
      refine sqrt_le_iff.2 ⟨by positivity, ?_⟩
      dsimp only
      have a1 := sq_le_sq' (abs_le.1 e1).1 (abs_le.1 e1).2
      have a2 := sq_le_sq' (abs_le.1 e2).1 (abs_le.1 e2).2
      have : (0 : ℝ) ≤ (1 / 2 ^ 49) ^ 2 := by positivity
      nlinarith
    linarith
  obtain ⟨D, hDd⟩ : ∃ D, D = √(u ^ 2 + v ^ 2) := ⟨_, rfl⟩
  have hD0 : 0 ≤ D := by rw [hDd]; positivity
  have hD2 : D ^ 2 = u ^ 2 + v ^ 2 := by rw [hDd]; exact sq_sqrt (by positivity)
  rw [← hDd] at hD
  have hD13 : D ≤ 13 := by nlinarith
  have hS : |F.sq u + F.sq v| ≤ D ^ 2 * (1 + 1 / 2 ^ 52) + 1 / 2 ^ 99 := by
    rw [abs_le]
    norm_num at s1 s2 ⊢
    constructor <;> linarith
  have hS' : |F.sq u + F.sq v| ≤ 200 := hS.trans (by norm_num; nlinarith)
  have hr := (abs_le.1 (Rnd.abs_err h (hi := D ^ 2 * (1 + 1 / 2 ^ 52) + 1 / 2 ^ 99) hS (by norm_num; nlinarith))).2
  have hT : √(F.rnd (F.sq u + F.sq v)) ≤ D * (1 + 1 / 2 ^ 51) + 1 / 2 ^ 48 := by
    refine sqrt_le_iff.2 ⟨by positivity, ?_⟩
    have := (abs_le.1 hS).2
    have hx2 : (0 : ℝ) ≤ D ^ 2 := sq_nonneg D
    norm_num at hr this ⊢
    nlinarith
  have hT2 : √(F.rnd (F.sq u + F.sq v)) ≤ 14 := hT.trans (by norm_num; linarith)
  have hf := (abs_le.1 (Rnd.abs_err h (x := √(F.rnd (F.sq u + F.sq v))) (hi := 14) (by rw [abs_of_nonneg (sqrt_nonneg _)]; exact hT2)
    (by norm_num))).2
  norm_num at hf hT hD ⊢
  linarith

/-- the foot of the perpendicular on the line `y = x`, to `2⁻⁴⁶` -/
theorem foot_F (ht : TanAccurate F.tan) {x y : ℝ} (hx : |x| ≤ 3.2) (hy : |y| ≤ 3.2) :
    |(getRadiusPointF F F.a x y).1 - (x + y) / 2| ≤ 1 / 2 ^ 46 ∧ |(getRadiusPointF F F.a x y).2 - (x + y) / 2| ≤ 1 / 2 ^ 46 := by
  have hm : 1 - 1 / 2 ^ 53 ≤ F.tan F.a ∧ F.tan F.a ≤ 1 := by
    rcases tan_a_cases h ht with q | q <;> rw [q] <;> norm_num
  unfold getRadiusPointF
  rw [if_neg (a_ne_half_pi h)]
  dsimp only
  obtain ⟨m, hmd⟩ : ∃ m, m = F.tan F.a := ⟨_, rfl⟩
  rw [← hmd] at hm ⊢
  have m0 : 0 < m := lt_of_lt_of_le (by norm_num) hm.1
  have i1 : 1 ≤ 1 / m := by rw [le_div_iff₀ m0]; linarith [hm.2]
  have i2 : 1 / m ≤ 1 + 1 / 2 ^ 52 := by
    rw [div_le_iff₀ m0]
    have := hm.1
    norm_num at this ⊢; linarith
  have x' := abs_le.1 hx
  have y' := abs_le.1 hy
  -- x / m
  have q0 : |x / m - x| ≤ 1 / 2 ^ 50 := by
    rw [show x / m - x = x * (1 / m - 1) by field_simp, abs_mul, abs_of_nonneg (by linarith : 0 ≤ 1 / m - 1)]
    calc |x| * (1 / m - 1) ≤ 3.2 * (1 / 2 ^ 52) := mul_le_mul hx (by linarith) (by linarith) (by norm_num)
      _ ≤ _ := by norm_num
  have q0' := abs_le.1 q0
  have q1 := abs_le.1 (Rnd.abs_err h (x := x / m) (hi := 3.3) (by rw [abs_le]; norm_num at q0' x' ⊢; constructor <;> linarith) (by norm_num))
  obtain ⟨q, hq⟩ : ∃ q, q = F.rnd (x / m) := ⟨_, rfl⟩
  rw [← hq] at q1 ⊢
  have q2 : |q - x| ≤ 1 / 2 ^ 49 := by rw [abs_le]; norm_num at q0' q1 ⊢; constructor <;> linarith
  have q2' := abs_le.1 q2
  have s1 := abs_le.1 (Rnd.abs_err h (x := q + y) (hi := 6.5) (by rw [abs_le]; norm_num at q2' x' y' ⊢; constructor <;> linarith) (by norm_num))
  obtain ⟨s, hs⟩ : ∃ s, s = F.rnd (q + y) := ⟨_, rfl⟩
  rw [← hs] at s1 ⊢
  have s2 : |s - (x + y)| ≤ 1 / 2 ^ 48 := by rw [abs_le]; norm_num at q2' s1 ⊢; constructor <;> linarith
  have s2' := abs_le.1 s2
  -- the denominator
  have w1 := abs_le.1 (Rnd.abs_err h (x := 1 / m) (hi := 1.1) (by rw [abs_of_pos (by linarith)]; norm_num at i2 ⊢; linarith) (by norm_num))
  obtain ⟨w, hw⟩ : ∃ w, w = F.rnd (1 / m) := ⟨_, rfl⟩
  rw [← hw] at w1 ⊢
  have w2 := abs_le.1 (Rnd.abs_err h (x := m + w) (hi := 2.2) (by rw [abs_le]; norm_num at i1 i2 w1 hm ⊢; constructor <;> linarith) (by norm_num))
  obtain ⟨d, hd⟩ : ∃ d, d = F.rnd (m + w) := ⟨_, rfl⟩
  rw [← hd] at w2 ⊢
  have d2 : |d - 2| ≤ 1 / 2 ^ 50 := by rw [abs_le]; norm_num at i1 i2 w1 w2 hm ⊢; constructor <;> linarith
  have d2' := abs_le.1 d2
  have d1 : (1.9 : ℝ) ≤ d := by norm_num at d2' ⊢; linarith
  have v0 : |s / d - (x + y) / 2| ≤ 1 / 2 ^ 48 := by
    rw [show s / d - (x + y) / 2 = ((s - (x + y)) - (x + y) / 2 * (d - 2)) / d by field_simp; ring, abs_div,
      abs_of_pos (by linarith : 0 < d), div_le_iff₀ (by linarith)]
    have t1 := abs_sub (s - (x + y)) ((x + y) / 2 * (d - 2))
    have t2 : |(x + y) / 2 * (d - 2)| ≤ 3.2 * (1 / 2 ^ 50) := by
      rw [abs_mul]
      exact mul_le_mul (by rw [abs_le]; constructor <;> linarith) d2 (abs_nonneg _) (by norm_num)
    norm_num at t1 t2 s2 ⊢
    linarith
  have v0' := abs_le.1 v0
  have v1 := abs_le.1 (Rnd.abs_err h (x := s / d) (hi := 3.3) (by rw [abs_le]; norm_num at v0' x' y' ⊢; constructor <;> linarith) (by norm_num))
  obtain ⟨x1, hx1⟩ : ∃ x1, x1 = F.rnd (s / d) := ⟨_, rfl⟩
  rw [← hx1] at v1 ⊢
  have g1 : |x1 - (x + y) / 2| ≤ 1 / 2 ^ 47 := by rw [abs_le]; norm_num at v0' v1 ⊢; constructor <;> linarith
  have g1' := abs_le.1 g1
  have hx13 : |x1| ≤ 3.3 := by rw [abs_le]; norm_num at g1' x' y' ⊢; constructor <;> linarith
  have z0 : |m * x1 - x1| ≤ 1 / 2 ^ 51 := by
    rw [show m * x1 - x1 = -((1 - m) * x1) by ring, abs_neg, abs_mul, abs_of_nonneg (by linarith [hm.2] : 0 ≤ 1 - m)]
    calc (1 - m) * |x1| ≤ (1 / 2 ^ 53) * 3.3 := mul_le_mul (by linarith [hm.1]) hx13 (abs_nonneg _) (by norm_num)
      _ ≤ _ := by norm_num
  have z0' := abs_le.1 z0
  have hx13' := abs_le.1 hx13
  have z1 := abs_le.1 (Rnd.abs_err h (x := m * x1) (hi := 3.4) (by rw [abs_le]; norm_num at z0' hx13' ⊢; constructor <;> linarith) (by norm_num))
  refine ⟨g1.trans (by norm_num), ?_⟩
  rw [abs_le]
  norm_num at z0' z1 g1' ⊢
  constructor <;> linarith

end
end Pot
