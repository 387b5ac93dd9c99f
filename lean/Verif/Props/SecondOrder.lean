import Verif.Props.Ties
import Verif.Proofs.RoundedDist

/-! # Property C98: away from ties the grid construction in rounded arithmetic does what it does in exact arithmetic; with the
second-order scheme it never fails -/

namespace Pot
open Real Spec

section sides
variable {F : FlLib} (g : GoodLib97 F) (hsafe : SquareSafe F.sq) {N : ℕ} (hN : 0 < N) (hN2 : N ≤ 2 ^ 40) {evalR : ℝ → ℝ}
  {bcoord : ℝ → ℝ → Option (ℝ × ℝ)} {nd : Node} (hi : 0 ≤ nd.1 ∧ nd.1 ≤ N) (hj : 0 ≤ nd.2 ∧ nd.2 ≤ N) {r : ℝ → ℝ}
include g

omit g in
theorem R_err (h : RoundsToNearest F.rnd) : |F.rnd probR - probR| ≤ 1 / 2 ^ 51 := by
  have := Rnd.abs_err h (x := probR) (hi := 2.4) (by unfold probR; rw [abs_of_pos (by norm_num)]; norm_num) (by norm_num)
  exact this.trans (by norm_num)

theorem corner_err : |F.rnd (F.rnd probR * F.cos F.a) - probR * (√2 / 2)| ≤ 1 / 2 ^ 47 ∧
    |F.rnd (F.rnd probR * F.sin F.a) - probR * (√2 / 2)| ≤ 1 / 2 ^ 47 := by
  have h := g.rnd
  have hR := R_err h
  have hR' := abs_le.1 hR
  have hb : |F.pi / 4| ≤ 2 ^ 1000 := le_big (c := 1) (by rw [pi_value h, abs_of_pos (by norm_num)]; norm_num) (by norm_num)
  obtain ⟨a1, a2⟩ := a_bounds h
  obtain ⟨t1, t2⟩ := g.trig F.a (Rnd.double h hb) (by linarith) (by linarith)
  have ae := a_err h
  have r2 : 1.414 < √2 := by rw [lt_sqrt (by norm_num)]; norm_num
  have r2' : √2 < 1.415 := by rw [sqrt_lt' (by norm_num)]; norm_num
  have s1 : |Real.sin F.a - √2 / 2| ≤ 1 / 2 ^ 52 := by
    rw [← sin_pi_div_four]; exact (abs_sin_sub_sin_le _ _).trans ae
  have c1 : |Real.cos F.a - √2 / 2| ≤ 1 / 2 ^ 52 := by
    rw [← cos_pi_div_four]; exact (abs_cos_sub_cos_le _ _).trans ae
  have key : ∀ s : ℝ, |s - √2 / 2| ≤ 1 / 2 ^ 49 → |F.rnd (F.rnd probR * s) - probR * (√2 / 2)| ≤ 1 / 2 ^ 47 := by
    intro s hs
    have hs' := abs_le.1 hs
    have e49 : (1 : ℝ) / 2 ^ 49 ≤ 0.001 := by norm_num
    have s0 : 0.7 ≤ s ∧ s ≤ 0.71 := ⟨by linarith, by linarith⟩
    have p1 : |F.rnd probR * s - probR * (√2 / 2)| ≤ 1 / 2 ^ 51 * 0.71 + 2.3 * (1 / 2 ^ 49) := by
      rw [show F.rnd probR * s - probR * (√2 / 2) = (F.rnd probR - probR) * s + probR * (s - √2 / 2) by ring]
      refine (abs_add_le _ _).trans (add_le_add ?_ ?_)
      · rw [abs_mul]
        exact mul_le_mul hR (by rw [abs_of_pos (by linarith)]; exact s0.2) (abs_nonneg _) (by positivity)
      · rw [abs_mul]
        exact mul_le_mul (by unfold probR; rw [abs_of_pos (by norm_num)]; norm_num) hs (abs_nonneg _) (by norm_num)
    have p1' := abs_le.1 p1
    have hR2 : F.rnd probR ≤ 2.31 ∧ 2.29 ≤ F.rnd probR := by
      unfold probR at hR' ⊢; norm_num at hR' ⊢; constructor <;> linarith
    have p2 : |F.rnd probR * s| ≤ 1.7 := by rw [abs_of_pos (by nlinarith)]; nlinarith
    have p3 := abs_le.1 (Rnd.abs_err h p2 (by norm_num))
    rw [abs_le]
    norm_num at p1' p3 ⊢
    constructor <;> linarith
  constructor
  · refine key _ ?_
    rw [abs_le] at t2 c1 ⊢
    norm_num at t2 c1 ⊢; constructor <;> linarith
  · refine key _ ?_
    rw [abs_le] at t1 s1 ⊢
    norm_num at t1 s1 ⊢; constructor <;> linarith

omit g in
theorem on_diagonal (X Y τ : ℝ) :
    dist2 (X, Y) (polarPoint τ probA) = √(((X + Y) * (√2 / 2) - τ) ^ 2 + ((X - Y) * (√2 / 2)) ^ 2) := by
  have rr : √2 * √2 = 2 := mul_self_sqrt (by norm_num)
  unfold dist2 polarPoint probA
  rw [cos_pi_div_four, sin_pi_div_four]
  dsimp only
  congr 1
  linear_combination (τ ^ 2 / 2 - (X ^ 2 + Y ^ 2) / 2) * rr

include hsafe

omit g in
theorem side2_left (h : RoundsToNearest F.rnd) {x y X Y t : ℝ} (t0 : 0 ≤ t) (ex : |x - X| ≤ 1 / 2 ^ 48) (ey : |y - Y| ≤ 1 / 2 ^ 48)
    (bx : |x| ≤ 3.2) (by' : |y| ≤ 3.2) (hs : (X + Y) / 2 ≤ 1 / 2 ^ 45) :
    dformulaF F 0 0 x y ≤ dist2 (X, Y) (polarPoint t probA) + 1 / 2 ^ 42 := by
  have d := dformulaF_le h hsafe (x0 := 0) (y0 := 0) (x := x) (y := y) (by rw [zero_sub, abs_neg]; linarith)
    (by rw [zero_sub, abs_neg]; linarith)
  have n := dist2_near (p := (x, y)) (q := (0, 0)) (p' := (X, Y)) (q' := (0, 0)) ex ey (by simp) (by simp)
  have e0 : ((0, 0) : ℝ × ℝ) = polarPoint 0 probA := by unfold polarPoint; simp
  have r2' : √2 < 1.415 := by rw [sqrt_lt' (by norm_num)]; norm_num
  have r0 : 0 < √2 := by positivity
  have hs : (X + Y) * (√2 / 2) ≤ 1 / 2 ^ 44 := by norm_num at hs ⊢; nlinarith
  have ry := ray_le (s := (X + Y) * (√2 / 2)) (t := t) (c := 0) (d := (X - Y) * (√2 / 2)) (ε := 1 / 2 ^ 44) (by positivity) (by
    rw [sub_zero]
    rcases le_total 0 ((X + Y) * (√2 / 2)) with q | q
    · rw [abs_of_nonneg q]; have := abs_nonneg ((X + Y) * (√2 / 2) - t); linarith
    · rw [abs_of_nonpos q, abs_of_nonpos (by linarith)]; norm_num; linarith)
  have e1 : dist2 (X, Y) (0, 0) = √(((X + Y) * (√2 / 2) - 0) ^ 2 + ((X - Y) * (√2 / 2)) ^ 2) := by rw [e0, on_diagonal]
  rw [e1] at n
  rw [on_diagonal]
  norm_num at d n ry ⊢; linarith

theorem side2_right {x y X Y t : ℝ} (t1 : t ≤ probR) (ex : |x - X| ≤ 1 / 2 ^ 48) (ey : |y - Y| ≤ 1 / 2 ^ 48)
    (bx : |x| ≤ 3.2) (by' : |y| ≤ 3.2) (hs : probR * (√2 / 2) - 1 / 2 ^ 45 ≤ (X + Y) / 2) :
    dformulaF F (F.rnd (F.rnd probR * F.cos F.a)) (F.rnd (F.rnd probR * F.sin F.a)) x y
      ≤ dist2 (X, Y) (polarPoint t probA) + 1 / 2 ^ 42 := by
  have h := g.rnd
  obtain ⟨k1, k2⟩ := corner_err g
  obtain ⟨y1, y2, x1, x2, -, -⟩ := corner_F g
  have bx' := abs_le.1 bx
  have by'' := abs_le.1 by'
  have d := dformulaF_le h hsafe (x0 := F.rnd (F.rnd probR * F.cos F.a)) (y0 := F.rnd (F.rnd probR * F.sin F.a)) (x := x) (y := y)
    (by rw [abs_le]; constructor <;> linarith) (by rw [abs_le]; constructor <;> linarith)
  have e0 : (probR * (√2 / 2), probR * (√2 / 2)) = polarPoint probR probA := by
    unfold polarPoint probA; rw [cos_pi_div_four, sin_pi_div_four]
  have n := dist2_near (p := (x, y)) (q := (F.rnd (F.rnd probR * F.cos F.a), F.rnd (F.rnd probR * F.sin F.a))) (p' := (X, Y))
    (q' := (probR * (√2 / 2), probR * (√2 / 2))) (ε := 1 / 2 ^ 47) (ex.trans (by norm_num)) (ey.trans (by norm_num)) k1 k2
  have rr : √2 * √2 = 2 := mul_self_sqrt (by norm_num)
  have r2' : √2 < 1.415 := by rw [sqrt_lt' (by norm_num)]; norm_num
  have r0 : 0 < √2 := by positivity
  have hs : probR - 1 / 2 ^ 43 ≤ (X + Y) * (√2 / 2) := by
    have e : probR = probR * (√2 / 2) * √2 := by rw [mul_assoc, div_mul_eq_mul_div, rr]; ring
    norm_num at hs ⊢
    nlinarith
  have ry := ray_le (s := (X + Y) * (√2 / 2)) (t := t) (c := probR) (d := (X - Y) * (√2 / 2)) (ε := 1 / 2 ^ 43) (by positivity) (by
    rcases le_total probR ((X + Y) * (√2 / 2)) with q | q
    · rw [abs_of_nonneg (by linarith), abs_of_nonneg (by linarith)]; norm_num; linarith
    · rw [abs_of_nonpos (by linarith)]; have := abs_nonneg ((X + Y) * (√2 / 2) - t); linarith)
  rw [e0, on_diagonal] at n
  rw [on_diagonal]
  norm_num at d n ry ⊢; linarith

theorem side2_standard {x y X Y t : ℝ} (ex : |x - X| ≤ 1 / 2 ^ 48) (ey : |y - Y| ≤ 1 / 2 ^ 48)
    (bx : |x| ≤ 3.2) (by' : |y| ≤ 3.2) : distToRadiusF F F.a x y ≤ dist2 (X, Y) (polarPoint t probA) + 1 / 2 ^ 42 := by
  have h := g.rnd
  have bx' := abs_le.1 bx
  have by'' := abs_le.1 by'
  have ex' := abs_le.1 ex
  have ey' := abs_le.1 ey
  obtain ⟨f1, f2⟩ := foot_F h g.tan bx by'
  have f1' := abs_le.1 f1
  have f2' := abs_le.1 f2
  have hsum : |(x + y) / 2 - (X + Y) / 2| ≤ 1 / 2 ^ 48 := by
    rw [abs_le]; constructor <;> linarith
  have hsum' := abs_le.1 hsum
  have d := dformulaF_le h hsafe (x0 := (getRadiusPointF F F.a x y).1) (y0 := (getRadiusPointF F F.a x y).2) (x := x) (y := y)
    (by rw [abs_le]; norm_num at f1' ⊢; constructor <;> linarith) (by rw [abs_le]; norm_num at f2' ⊢; constructor <;> linarith)
  have n := dist2_near (p := (x, y)) (q := ((getRadiusPointF F F.a x y).1, (getRadiusPointF F F.a x y).2)) (p' := (X, Y))
    (q' := ((X + Y) / 2, (X + Y) / 2)) (ε := 1 / 2 ^ 45) (ex.trans (by norm_num)) (ey.trans (by norm_num))
    (by rw [abs_le]; norm_num at f1' hsum' ⊢; constructor <;> linarith) (by rw [abs_le]; norm_num at f2' hsum' ⊢; constructor <;> linarith)
  have e0 : dist2 (X, Y) ((X + Y) / 2, (X + Y) / 2) ≤ dist2 (X, Y) (polarPoint t probA) := by
    rw [on_diagonal]
    refine sqrt_le_sqrt ?_
    dsimp only
    have rr : √2 * √2 = 2 := mul_self_sqrt (by norm_num)
    have : ((X - Y) * (√2 / 2)) ^ 2 = (X - Y) ^ 2 / 2 := by linear_combination (X - Y) ^ 2 / 4 * rr
    nlinarith [sq_nonneg ((X + Y) * (√2 / 2) - t)]
  unfold distToRadiusF
  dsimp only
  norm_num at d n ⊢; linarith

/-- what the machine computes for the boundary coordinates of a node close to the outer curve: up to `2⁻³⁰` what is computed in exact
arithmetic -/
def BcoordAccurate (F : FlLib) (b : Brentq) (r : ℝ → ℝ) (N : ℕ) (bcoord : ℝ → ℝ → Option (ℝ × ℝ)) : Prop :=
  ∀ nd : Node, (0 ≤ nd.1 ∧ nd.1 ≤ N) → (0 ≤ nd.2 ∧ nd.2 ≤ N) →
    (∃ z ∈ Segment probA probR r 0, dist2 (getCoord probAD N nd.1 nd.2) z ≤ probAD / N * √2) →
    ∀ n θ, getBoundaryCoord b probA r (getPolar probAD N probA nd.1 nd.2).1 (getPolar probAD N probA nd.1 nd.2).2 = some (n, θ) →
      ∃ c, bcoord (getPolarF F.toFl F.AD F.a N nd.1 nd.2).1 (getPolarF F.toFl F.AD F.a N nd.1 nd.2).2 = some c ∧
        |c.1 - n| ≤ 1 / 2 ^ 30 ∧ |c.2 - θ| ≤ 1 / 2 ^ 30

omit g hsafe in
theorem Tame.lip (tame : Tame r) {s u : ℝ} (s1 : probA ≤ s) (s2 : s ≤ 2 * π) (u1 : probA ≤ u) (u2 : u ≤ 2 * π) :
    dist2 (polarPoint (r s) s) (polarPoint (r u) u) ≤ 12.4 * |s - u| := by
  unfold probA at s1 u1
  have hpi := pi_pos
  have hdr : |r s - r u| ≤ 0.29 * |s - u| := by
    have := Convex.norm_image_sub_le_of_norm_deriv_le (f := r) (s := Set.Icc (π / 4) (2 * π)) (C := 0.29) (x := u) (y := s)
      (fun x _ => (tame.smooth.differentiable (by norm_num)).differentiableAt)
      (fun x hx => tame.d1 x (by linarith [hx.1]) (by linarith [hx.2])) (convex_Icc _ _) ⟨u1, u2⟩ ⟨s1, s2⟩
    exact this
  have hu : |r u| ≤ 2.8 := by
    rw [abs_le]
    have := tame.lo u (by linarith) (by linarith)
    have := tame.hi u (by linarith) (by linarith)
    constructor <;> linarith
  have key : ∀ c d : ℝ, |c| ≤ 1 → |c - d| ≤ |s - u| → |r s * c - r u * d| ≤ 3.1 * |s - u| := fun c d h1 h2 => by
    rw [show r s * c - r u * d = (r s - r u) * c + r u * (c - d) by ring]
    refine (abs_add_le _ _).trans ?_
    rw [abs_mul, abs_mul]
    have := abs_nonneg (s - u)
    have e1 : |r s - r u| * |c| ≤ 0.29 * |s - u| * 1 := mul_le_mul hdr h1 (abs_nonneg _) (by positivity)
    have e2 : |r u| * |c - d| ≤ 2.8 * |s - u| := mul_le_mul hu h2 (abs_nonneg _) (by norm_num)
    linarith
  have := dist2_near (p := polarPoint (r s) s) (q := polarPoint (r u) u) (p' := polarPoint (r u) u) (q' := polarPoint (r u) u)
    (key _ _ (abs_cos_le_one s) (abs_cos_sub_cos_le s u)) (key _ _ (abs_sin_le_one s) (abs_sin_sub_sin_le s u))
    (by rw [sub_self, abs_zero]; positivity) (by rw [sub_self, abs_zero]; positivity)
  have e0 : dist2 (polarPoint (r u) u) (polarPoint (r u) u) = 0 := by unfold dist2; simp
  linarith

omit g in
theorem corner_dist {x y X Y cx cy CX CY : ℝ} (h : RoundsToNearest F.rnd) (ex : |x - X| ≤ 1 / 2 ^ 48) (ey : |y - Y| ≤ 1 / 2 ^ 48)
    (bx : |x| ≤ 3.2) (by' : |y| ≤ 3.2) (e1 : |cx - CX| ≤ 1 / 2 ^ 47) (e2 : |cy - CY| ≤ 1 / 2 ^ 47) (b1 : |cx| ≤ 2.5) (b2 : |cy| ≤ 2.5) :
    dformulaF F cx cy x y ≤ dist2 (X, Y) (CX, CY) + 1 / 2 ^ 43 := by
  have bx' := abs_le.1 bx
  have by'' := abs_le.1 by'
  have b1' := abs_le.1 b1
  have b2' := abs_le.1 b2
  have d := dformulaF_le h hsafe (x0 := cx) (y0 := cy) (x := x) (y := y) (by rw [abs_le]; constructor <;> linarith)
    (by rw [abs_le]; constructor <;> linarith)
  have n := dist2_near (p := (x, y)) (q := (cx, cy)) (p' := (X, Y)) (q' := (CX, CY)) (ε := 1 / 2 ^ 47) (ex.trans (by norm_num))
    (ey.trans (by norm_num)) e1 e2
  norm_num at d n ⊢; linarith

theorem side0_cases (tame : Tame r) {x y X Y t n θ : ℝ} {c : ℝ × ℝ} (ex : |x - X| ≤ 1 / 2 ^ 48) (ey : |y - Y| ≤ 1 / 2 ^ 48)
    (bx : |x| ≤ 3.2) (by' : |y| ≤ 3.2) (ht1 : probA ≤ t) (ht2 : t ≤ 2 * π)
    (h2 : ∀ s, t ≤ s → s ≤ θ → dist2 (X, Y) (polarPoint (r s) s) ≤ dist2 (X, Y) (polarPoint (r t) t))
    (h3 : ∀ s, s ≤ t → θ ≤ s → dist2 (X, Y) (polarPoint (r s) s) ≤ dist2 (X, Y) (polarPoint (r t) t))
    (h4 : |n| = dist2 (X, Y) (polarPoint (r θ) θ)) (c2 : |c.1 - n| ≤ 1 / 2 ^ 30) (c3 : |c.2 - θ| ≤ 1 / 2 ^ 30) :
    (if c.2 > F.twoPi then dformulaF F (F.rnd probR) 0 x y
      else if c.2 < F.a then dformulaF F (F.rnd (F.rnd probR * F.cos F.a)) (F.rnd (F.rnd probR * F.sin F.a)) x y
      else |c.1|) ≤ dist2 (X, Y) (polarPoint (r t) t) + 1 / 2 ^ 24 := by
  have h := g.rnd
  have hpi := pi_pos
  have e1 := abs_le.1 (twoPi_err h)
  have e2 := abs_le.1 (a_err h)
  have c3' := abs_le.1 c3
  have hR := R_err h
  have hR' := abs_le.1 hR
  have hR2 : |F.rnd probR| ≤ 2.5 := by
    unfold probR at hR' ⊢
    rw [abs_le]; norm_num at hR' ⊢; constructor <;> linarith
  have ha : probA < 2 * π := by unfold probA; linarith
  split_ifs with q1 q2
  · have d := corner_dist hsafe h (cx := F.rnd probR) (cy := 0) (CX := probR) (CY := 0) ex ey bx by' (hR.trans (by norm_num))
      (by simp) hR2 (by norm_num)
    have e0 : ((probR, 0) : ℝ × ℝ) = polarPoint (r (2 * π)) (2 * π) := by
      rw [tame.at_two_pi]; unfold polarPoint probR; simp; norm_num
    have hθ : 2 * π - 1 / 2 ^ 29 ≤ θ := by norm_num at e1 c3' ⊢; linarith
    have l := tame.lip (s := max t (min θ (2 * π))) (u := 2 * π) (ht1.trans (le_max_left _ _)) (max_le ht2 (min_le_right _ _)) ha.le le_rfl
    have m : dist2 (X, Y) (polarPoint (r (max t (min θ (2 * π)))) (max t (min θ (2 * π)))) ≤ dist2 (X, Y) (polarPoint (r t) t) := by
      rcases le_total t (min θ (2 * π)) with w | w
      · rw [max_eq_right w]; exact h2 _ w (min_le_left _ _)
      · rw [max_eq_left w]
    have tr := dist2_triangle (X, Y) (polarPoint (r (2 * π)) (2 * π)) (polarPoint (r (max t (min θ (2 * π)))) (max t (min θ (2 * π))))
    have ab : |max t (min θ (2 * π)) - 2 * π| ≤ 1 / 2 ^ 29 := by
      rw [abs_le]
      have k1 : 2 * π - 1 / 2 ^ 29 ≤ max t (min θ (2 * π)) := le_max_of_le_right (le_min hθ (by norm_num))
      have k2 : max t (min θ (2 * π)) ≤ 2 * π := max_le ht2 (min_le_right _ _)
      have e29 : (0 : ℝ) ≤ 1 / 2 ^ 29 := by positivity
      constructor <;> linarith
    rw [e0] at d
    norm_num at d l tr ab ⊢; linarith
  · obtain ⟨k1, k2⟩ := corner_err g
    obtain ⟨y1, y2, x1, x2, -, -⟩ := corner_F g
    have d := corner_dist hsafe h ex ey bx by' k1 k2 (by rw [abs_le]; constructor <;> linarith) (by rw [abs_le]; constructor <;> linarith)
    have e0 : ((probR * (√2 / 2), probR * (√2 / 2)) : ℝ × ℝ) = polarPoint (r probA) probA := by
      unfold probA; rw [tame.at_a]; unfold polarPoint probR; rw [cos_pi_div_four, sin_pi_div_four]; norm_num
    have hθ : θ ≤ probA + 1 / 2 ^ 29 := by unfold probA; norm_num at e2 c3' ⊢; linarith
    have l := tame.lip (s := min t (max θ probA)) (u := probA) (le_min ht1 (le_max_right _ _)) ((min_le_left _ _).trans ht2) le_rfl ha.le
    have m : dist2 (X, Y) (polarPoint (r (min t (max θ probA))) (min t (max θ probA))) ≤ dist2 (X, Y) (polarPoint (r t) t) := by
      rcases le_total t (max θ probA) with w | w
      · rw [min_eq_left w]
      · rw [min_eq_right w]; exact h3 _ w (le_max_left _ _)
    have tr := dist2_triangle (X, Y) (polarPoint (r probA) probA) (polarPoint (r (min t (max θ probA))) (min t (max θ probA)))
    have ab : |min t (max θ probA) - probA| ≤ 1 / 2 ^ 29 := by
      rw [abs_le]
      have k1 : min t (max θ probA) ≤ probA + 1 / 2 ^ 29 := min_le_of_right_le (max_le hθ (by norm_num))
      have k2 : probA ≤ min t (max θ probA) := le_min ht1 (le_max_right _ _)
      have e29 : (0 : ℝ) ≤ 1 / 2 ^ 29 := by positivity
      constructor <;> linarith
    rw [e0] at d
    norm_num at d l tr ab ⊢; linarith
  · have m : |n| ≤ dist2 (X, Y) (polarPoint (r t) t) := by
      rw [h4]
      rcases le_total t θ with w | w
      · exact h2 _ w le_rfl
      · exact h3 _ w le_rfl
    have := abs_sub_abs_le_abs_sub c.1 n
    norm_num at c2 ⊢; linarith

include hN hN2 hi hj

/-- the computed distance to the side `θ = 2π` -/
theorem near_side1 {z : ℝ × ℝ} (hz : z ∈ Segment probA probR r 1) :
    segDistF (shippedF F N evalR bcoord) nd 1 ≤ dist2 (getCoord probAD N nd.1 nd.2) z + 1 / 2 ^ 42 := by
  have h := g.rnd
  have cx := coord_close h hN hN2 hi.1 hi.2
  have cy := coord_close h hN hN2 hj.1 hj.2
  obtain ⟨t, t0, t1, rfl⟩ := hz
  show (if coordF F.toFl F.AD N nd.1 < 0 then dformulaF F 0 0 (coordF F.toFl F.AD N nd.1) (coordF F.toFl F.AD N nd.2)
      else if coordF F.toFl F.AD N nd.1 > F.rnd probR then
        dformulaF F (F.rnd probR) 0 (coordF F.toFl F.AD N nd.1) (coordF F.toFl F.AD N nd.2) else |coordF F.toFl F.AD N nd.2|)
    ≤ dist2 (probAD * ((nd.1 : ℝ) / N - 1 / 2), probAD * ((nd.2 : ℝ) / N - 1 / 2)) (t, 0) + 1 / 2 ^ 42
  have bx := cx.bx
  have by' := cy.bx
  have ex := cx.err
  have ey := cy.err
  obtain ⟨x, hx⟩ : ∃ x, x = coordF F.toFl F.AD N nd.1 := ⟨_, rfl⟩
  obtain ⟨y, hy⟩ : ∃ y, y = coordF F.toFl F.AD N nd.2 := ⟨_, rfl⟩
  obtain ⟨X, hX⟩ : ∃ X, X = probAD * ((nd.1 : ℝ) / N - 1 / 2) := ⟨_, rfl⟩
  obtain ⟨Y, hY⟩ : ∃ Y, Y = probAD * ((nd.2 : ℝ) / N - 1 / 2) := ⟨_, rfl⟩
  rw [← hx, ← hX] at ex
  rw [← hy, ← hY] at ey
  rw [← hx] at bx ⊢
  rw [← hy] at by' ⊢
  rw [← hX, ← hY]
  have hR := R_err h
  have bx' := abs_le.1 bx
  have by'' := abs_le.1 by'
  have ex' := abs_le.1 ex
  have hR' := abs_le.1 hR
  have hd : dist2 (X, Y) (t, 0) = √((X - t) ^ 2 + Y ^ 2) := by unfold dist2; simp
  unfold probR at *
  split_ifs with c1 c2
  · have d := dformulaF_le h hsafe (x0 := 0) (y0 := 0) (x := x) (y := y) (by rw [zero_sub, abs_neg]; linarith)
      (by rw [zero_sub, abs_neg]; linarith)
    have n := dist2_near (p := (x, y)) (q := (0, 0)) (p' := (X, Y)) (q' := (0, 0)) ex ey (by simp) (by simp)
    have e0 : dist2 (X, Y) (0, 0) = √((X - 0) ^ 2 + Y ^ 2) := by unfold dist2; simp
    have ry := ray_le (s := X) (t := t) (c := 0) (d := Y) (ε := 1 / 2 ^ 48) (by positivity) (by
      rw [sub_zero]
      rcases le_total 0 X with q | q
      · rw [abs_of_nonneg q]; have := abs_nonneg (X - t); linarith
      · rw [abs_of_nonpos q, abs_of_nonpos (by linarith)]; norm_num; linarith)
    rw [hd]; rw [e0] at n
    norm_num at d n ry ⊢; linarith
  · have d := dformulaF_le h hsafe (x0 := F.rnd (23 / 10)) (y0 := 0) (x := x) (y := y)
      (by rw [abs_le]; norm_num at hR' ⊢; constructor <;> linarith) (by rw [zero_sub, abs_neg]; linarith)
    have n := dist2_near (p := (x, y)) (q := (F.rnd (23 / 10), 0)) (p' := (X, Y)) (q' := (23 / 10, 0)) (ε := 1 / 2 ^ 48) ex ey
      (hR.trans (by norm_num)) (by simp)
    have e0 : dist2 (X, Y) (23 / 10, 0) = √((X - 23 / 10) ^ 2 + Y ^ 2) := by unfold dist2; simp
    have ry := ray_le (s := X) (t := t) (c := 23 / 10) (d := Y) (ε := 1 / 2 ^ 46) (by positivity) (by
      have hX1 : 23 / 10 - 1 / 2 ^ 47 ≤ X := by norm_num at ex' hR' ⊢; linarith
      rcases le_total (23 / 10) X with q | q
      · rw [abs_of_nonneg (by linarith), abs_of_nonneg (by linarith)]; norm_num; linarith
      · rw [abs_of_nonpos (by linarith)]; have := abs_nonneg (X - t); norm_num at hX1 ⊢; linarith)
    rw [hd]; rw [e0] at n
    norm_num at d n ry ⊢; linarith
  · have l : |Y| ≤ √((X - t) ^ 2 + Y ^ 2) := abs_le_sqrt (by nlinarith [sq_nonneg (X - t)])
    have := abs_sub_abs_le_abs_sub y Y
    rw [hd]
    norm_num at ey ⊢; linarith

/-- the computed distance to the side `θ = a` -/
theorem near_side2 {z : ℝ × ℝ} (hz : z ∈ Segment probA probR r 2) :
    segDistF (shippedF F N evalR bcoord) nd 2 ≤ dist2 (getCoord probAD N nd.1 nd.2) z + 1 / 2 ^ 42 := by
  have h := g.rnd
  have cx := coord_close h hN hN2 hi.1 hi.2
  have cy := coord_close h hN hN2 hj.1 hj.2
  obtain ⟨t, t0, t1, rfl⟩ := hz
  show (if (getRadiusPointF F F.a (coordF F.toFl F.AD N nd.1) (coordF F.toFl F.AD N nd.2)).2 < 0 then
        dformulaF F 0 0 (coordF F.toFl F.AD N nd.1) (coordF F.toFl F.AD N nd.2)
      else if (getRadiusPointF F F.a (coordF F.toFl F.AD N nd.1) (coordF F.toFl F.AD N nd.2)).2 > F.rnd (F.rnd probR * F.sin F.a) then
        dformulaF F (F.rnd (F.rnd probR * F.cos F.a)) (F.rnd (F.rnd probR * F.sin F.a))
          (coordF F.toFl F.AD N nd.1) (coordF F.toFl F.AD N nd.2)
      else distToRadiusF F F.a (coordF F.toFl F.AD N nd.1) (coordF F.toFl F.AD N nd.2))
    ≤ dist2 (probAD * ((nd.1 : ℝ) / N - 1 / 2), probAD * ((nd.2 : ℝ) / N - 1 / 2)) (polarPoint t probA) + 1 / 2 ^ 42
  have bx := cx.bx
  have by' := cy.bx
  have ex := cx.err
  have ey := cy.err
  obtain ⟨x, hx⟩ : ∃ x, x = coordF F.toFl F.AD N nd.1 := ⟨_, rfl⟩
  obtain ⟨y, hy⟩ : ∃ y, y = coordF F.toFl F.AD N nd.2 := ⟨_, rfl⟩
  obtain ⟨X, hX⟩ : ∃ X, X = probAD * ((nd.1 : ℝ) / N - 1 / 2) := ⟨_, rfl⟩
  obtain ⟨Y, hY⟩ : ∃ Y, Y = probAD * ((nd.2 : ℝ) / N - 1 / 2) := ⟨_, rfl⟩
  rw [← hx, ← hX] at ex
  rw [← hy, ← hY] at ey
  rw [← hx] at bx ⊢
  rw [← hy] at by' ⊢
  rw [← hX, ← hY]
  obtain ⟨f1, f2⟩ := foot_F h g.tan bx by'
  obtain ⟨k1, k2⟩ := corner_err g
  have ex' := abs_le.1 ex
  have ey' := abs_le.1 ey
  have f2' := abs_le.1 f2
  have k2' := abs_le.1 k2
  split_ifs with c1 c2
  · exact side2_left hsafe h t0 ex ey bx by' (by norm_num at ex' ey' f2' ⊢; linarith)
  · exact side2_right g hsafe t1 ex ey bx by' (by norm_num at ex' ey' f2' k2' ⊢; linarith)
  · exact side2_standard g hsafe ex ey bx by'

theorem near_side0 {b : Brentq} (hb : BrentqSpec b) (hN16 : 16 ≤ N) (tame : Tame r) (hbc : BcoordAccurate F b r N bcoord)
    {z : ℝ × ℝ} (hz : z ∈ Segment probA probR r 0) (hd : dist2 (getCoord probAD N nd.1 nd.2) z ≤ probAD / N * √2) :
    segDistF (shippedF F N evalR bcoord) nd 0 ≤ dist2 (getCoord probAD N nd.1 nd.2) z + 1 / 2 ^ 24 := by
  have h := g.rnd
  have hpi := pi_pos
  have cx := coord_close h hN hN2 hi.1 hi.2
  have cy := coord_close h hN hN2 hj.1 hj.2
  obtain ⟨p1, p2, p3, p4⟩ := C02_get_polar probAD N probA (by unfold probA; positivity) (by unfold probA; linarith) nd.1 nd.2
  have hex := hbc nd hi hj ⟨z, hz, hd⟩
  obtain ⟨t, ht1, ht2, rfl⟩ := hz
  rw [← p1] at hd ⊢
  obtain ⟨n, θ, h1, h2, h3, h4⟩ := (tame.gentleAt hN16).foot hb p2 ht1 ht2 p3 p4.le hd
  obtain ⟨c, c1, c2, c3⟩ := hex n θ h1
  have hP : polarPoint (getPolar probAD N probA nd.1 nd.2).1 (getPolar probAD N probA nd.1 nd.2).2
      = (probAD * ((nd.1 : ℝ) / N - 1 / 2), probAD * ((nd.2 : ℝ) / N - 1 / 2)) := p1
  have hseg : segDistF (shippedF F N evalR bcoord) nd 0 =
      if c.2 > F.twoPi then dformulaF F (F.rnd probR) 0 (coordF F.toFl F.AD N nd.1) (coordF F.toFl F.AD N nd.2)
      else if c.2 < F.a then dformulaF F (F.rnd (F.rnd probR * F.cos F.a)) (F.rnd (F.rnd probR * F.sin F.a))
        (coordF F.toFl F.AD N nd.1) (coordF F.toFl F.AD N nd.2)
      else |c.1| := by
    show (match bcoord (getPolarF F.toFl F.AD F.a N nd.1 nd.2).1 (getPolarF F.toFl F.AD F.a N nd.1 nd.2).2 with
      | none => _
      | some c => _) = _
    rw [c1]; rfl
  rw [hseg]
  clear hseg hex c1 h1
  have bx := cx.bx
  have by' := cy.bx
  have ex := cx.err
  have ey := cy.err
  rw [hP] at h2 h3 h4 ⊢
  obtain ⟨x, hx⟩ : ∃ x, x = coordF F.toFl F.AD N nd.1 := ⟨_, rfl⟩
  obtain ⟨y, hy⟩ : ∃ y, y = coordF F.toFl F.AD N nd.2 := ⟨_, rfl⟩
  obtain ⟨X, hX⟩ : ∃ X, X = probAD * ((nd.1 : ℝ) / N - 1 / 2) := ⟨_, rfl⟩
  obtain ⟨Y, hY⟩ : ∃ Y, Y = probAD * ((nd.2 : ℝ) / N - 1 / 2) := ⟨_, rfl⟩
  rw [← hx, ← hX] at ex
  rw [← hy, ← hY] at ey
  rw [← hx] at bx
  rw [← hy] at by'
  rw [← hX, ← hY] at h2 h3 h4 ⊢
  rw [← hx, ← hy]
  exact side0_cases g hsafe tame ex ey bx by' ht1 ht2 h2 h3 h4 c2 c3

end sides

section grids
variable {F : FlLib} (g : GoodLib97 F) (hsafe : SquareSafe F.sq) {iter : Iter} (hit : IsIter iter) {N : ℕ} (hN : 16 ≤ N)
  (hN2 : N ≤ 2 ^ 20) {b : Brentq} (hb : BrentqSpec b) {name : String} {r : ℝ → ℝ} (h : chooseBoundary name = .ok r) {evalR : ℝ → ℝ}
  (hev : ∀ t, 0.78 ≤ t → t ≤ 6.3 → |evalR t - r t| ≤ 1 / 2 ^ 30) {bcoord : ℝ → ℝ → Option (ℝ × ℝ)}
  (hbc : BcoordAccurate F b r N bcoord)

include hN in
theorem threshold_err (h : RoundsToNearest F.rnd) : |(shippedF F N evalR bcoord).threshold - probAD / N * √2| ≤ 1 / 2 ^ 45 := by
  have hNr : (16 : ℝ) ≤ N := by exact_mod_cast hN
  show |F.rnd (F.rnd (F.twoPi / N) * F.rnd √2) - probAD / N * √2| ≤ 1 / 2 ^ 45
  obtain ⟨t1, t2⟩ := twoPi_bounds h
  have te := abs_le.1 (twoPi_err h)
  have p1 : |F.twoPi / N| ≤ 0.4 := by
    rw [abs_of_nonneg (by positivity), div_le_iff₀ (by linarith)]; linarith
  have p2 := abs_le.1 (Rnd.abs_err h p1 (by norm_num))
  have p3 : |F.twoPi / N - probAD / N| ≤ 1 / 2 ^ 49 := by
    rw [← sub_div, abs_div, abs_of_pos (show (0 : ℝ) < N by linarith), div_le_iff₀ (by linarith)]
    have := twoPi_err h
    unfold probAD
    nlinarith [show (0 : ℝ) ≤ 1 / 2 ^ 49 by positivity]
  have p3' := abs_le.1 p3
  have r1 : 1.4 < √2 := by rw [lt_sqrt (by norm_num)]; norm_num
  have r2 : √2 < 1.5 := by rw [sqrt_lt' (by norm_num)]; norm_num
  have p4 := abs_le.1 (Rnd.abs_err h (x := √2) (hi := 1.5) (by rw [abs_of_pos (by linarith)]; exact r2.le) (by norm_num))
  obtain ⟨H, hH⟩ : ∃ H, H = F.rnd (F.twoPi / N) := ⟨_, rfl⟩
  obtain ⟨K, hK⟩ : ∃ K, K = F.rnd √2 := ⟨_, rfl⟩
  obtain ⟨H', hH'⟩ : ∃ H', H' = probAD / N := ⟨_, rfl⟩
  have hp := abs_le.1 p1
  rw [← hH, ← hK, ← hH']
  rw [← hH] at p2
  rw [← hK] at p4
  rw [← hH'] at p3'
  have q1 : |H - H'| ≤ 1 / 2 ^ 48 := by rw [abs_le]; norm_num at p2 p3' ⊢; constructor <;> linarith
  have q2 : |K - √2| ≤ 1 / 2 ^ 51 := by rw [abs_le]; norm_num at p4 ⊢; constructor <;> linarith
  have q3 : |H'| ≤ 0.5 := by rw [abs_le]; norm_num at hp p3' ⊢; constructor <;> linarith
  have q4 : |K| ≤ 1.6 := by rw [abs_le]; norm_num at p4 ⊢; constructor <;> linarith
  have q5 : |H * K - H' * √2| ≤ 1 / 2 ^ 48 * 1.6 + 0.5 * (1 / 2 ^ 51) := by
    rw [show H * K - H' * √2 = (H - H') * K + H' * (K - √2) by ring]
    refine (abs_add_le _ _).trans (add_le_add ?_ ?_)
    · rw [abs_mul]; exact mul_le_mul q1 q4 (abs_nonneg _) (by positivity)
    · rw [abs_mul]; exact mul_le_mul q3 q2 (abs_nonneg _) (by norm_num)
  have q6 : |H * K| ≤ 1 := by
    have : |H| ≤ 0.6 := by rw [abs_le]; norm_num at hp p2 ⊢; constructor <;> linarith
    rw [abs_mul]
    calc |H| * |K| ≤ 0.6 * 1.6 := mul_le_mul this q4 (abs_nonneg _) (by norm_num)
      _ ≤ 1 := by norm_num
  have q7 := abs_le.1 (Rnd.abs_err h q6 (by norm_num))
  have q5' := abs_le.1 q5
  rw [abs_le]
  norm_num at q5' q7 ⊢
  constructor <;> linarith

include g hsafe hN hN2 hb h hbc in
/-- A node that is within `h√2 - 2⁻²³` of a segment passes the test for that segment as computed. -/
theorem C98_near {nd : Node} (hi : 0 ≤ nd.1 ∧ nd.1 ≤ N) (hj : 0 ≤ nd.2 ∧ nd.2 ≤ N) {sid : Fin 3} {z : ℝ × ℝ}
    (hz : z ∈ Segment probA probR r sid) (hd : dist2 (getCoord probAD N nd.1 nd.2) z ≤ probAD / N * √2 - 1 / 2 ^ 23) :
    ∃ d, getDistF (shippedF F N evalR bcoord) nd sid (getEtypeF (shippedF F N evalR bcoord) sid nd) = .ok d ∧
      d ≤ (shippedF F N evalR bcoord).threshold := by
  refine ⟨_, place_distF _ _ _, ?_⟩
  have ht := abs_le.1 (threshold_err hN (evalR := evalR) (bcoord := bcoord) g.rnd)
  have hN0 : 0 < N := by omega
  have hN40 : N ≤ 2 ^ 40 := hN2.trans (by norm_num)
  have hs : segDistF (shippedF F N evalR bcoord) nd sid ≤ dist2 (getCoord probAD N nd.1 nd.2) z + 1 / 2 ^ 24 := by
    fin_cases sid
    · exact near_side0 g hsafe hN0 hN40 hi hj hb hN (chooseBoundary_tame h) hbc hz
        (hd.trans (by norm_num))
    · have := near_side1 g hsafe hN0 hN40 hi hj (evalR := evalR) (bcoord := bcoord) hz
      exact this.trans (by norm_num)
    · have := near_side2 g hsafe hN0 hN40 hi hj (evalR := evalR) (bcoord := bcoord) hz
      exact this.trans (by norm_num)
  norm_num at hs ht hd ⊢
  linarith

include g hN hN2 h hev in
/-- the interior test decides correctly unless the node is within `2⁻²⁹` of the outer curve -/
theorem interior_cases {nd : Node} (hi : 0 ≤ nd.1 ∧ nd.1 ≤ N) (hj : 0 ≤ nd.2 ∧ nd.2 ≤ N) :
    ((shippedF F N evalR bcoord).interior nd ↔ getCoord probAD N nd.1 nd.2 ∈ Domain probA r) ∨
    ∃ z ∈ Segment probA probR r 0, dist2 (getCoord probAD N nd.1 nd.2) z ≤ 1 / 2 ^ 29 := by
  have tame := chooseBoundary_tame h
  have hpi := pi_pos
  have hN0 : 0 < N := by omega
  have hN40 : N ≤ 2 ^ 40 := hN2.trans (by norm_num)
  obtain ⟨p1, p2, p3, p4⟩ := C02_get_polar probAD N probA (by unfold probA; positivity) (by unfold probA; linarith) nd.1 nd.2
  by_cases hband : inWedge N nd.1 nd.2 →
      1 / 2 ^ 30 + 1 / 2 ^ 44 < |(getPolar probAD N probA nd.1 nd.2).1 - r (getPolar probAD N probA nd.1 nd.2).2|
  · left
    have := C96_interior g.rnd g.libm hN0 hN40 hi hj g.diag h (η := 1 / 2 ^ 30) (by norm_num) hev hband
    exact this.trans (C07_is_interior probAD N probA (by unfold probA; positivity) (by unfold probA; linarith) r
      (by rw [tame.at_two_pi]; norm_num) nd.1 nd.2)
  · right
    push Not at hband
    obtain ⟨w, hw⟩ := hband
    refine ⟨_, ⟨_, w.1, w.2, rfl⟩, ?_⟩
    rw [← p1]
    have e : dist2 (polarPoint (getPolar probAD N probA nd.1 nd.2).1 (getPolar probAD N probA nd.1 nd.2).2)
        (polarPoint (r (getPolar probAD N probA nd.1 nd.2).2) (getPolar probAD N probA nd.1 nd.2).2)
        = |(getPolar probAD N probA nd.1 nd.2).1 - r (getPolar probAD N probA nd.1 nd.2).2| := by
      rw [← sqrt_sq_eq_abs]
      unfold dist2 polarPoint
      dsimp only
      congr 1
      linear_combination ((getPolar probAD N probA nd.1 nd.2).1 - r (getPolar probAD N probA nd.1 nd.2).2) ^ 2 *
        sin_sq_add_cos_sq (getPolar probAD N probA nd.1 nd.2).2
    rw [e]
    norm_num at hw ⊢
    linarith

theorem reach_axis {p q : Node} (hp : Reach 2 p q) : dist2 (getCoord probAD N p.1 p.2) (getCoord probAD N q.1 q.2) ≤ probAD / N := by
  obtain ⟨h1, h2, h3⟩ := hp
  have hh : 0 ≤ probAD / N := by unfold probAD; have := pi_pos; positivity
  have g : ∀ i j : ℤ, |j - i| ≤ 1 → ((i : ℝ) - j) ^ 2 ≤ 1 := fun i j hij => by
    have : |((j - i : ℤ) : ℝ)| ≤ 1 := by exact_mod_cast hij
    push_cast at this
    rw [abs_sub_comm] at this
    exact (sq_le_one_iff_abs_le_one _).2 this
  have g1 := g _ _ h1
  have g2 := g _ _ h2
  have hsum : ((p.1 : ℝ) - q.1) ^ 2 + ((p.2 : ℝ) - q.2) ^ 2 ≤ 1 := by
    rcases h3 le_rfl with e | e
    · rw [e, sub_self]; linarith
    · rw [e, sub_self]; linarith
  refine sqrt_le_iff.2 ⟨hh, ?_⟩
  unfold getCoord
  dsimp only
  rw [show (probAD * ((p.1 : ℝ) / N - 1 / 2) - probAD * ((q.1 : ℝ) / N - 1 / 2)) ^ 2
      + (probAD * ((p.2 : ℝ) / N - 1 / 2) - probAD * ((q.2 : ℝ) / N - 1 / 2)) ^ 2
      = (probAD / N) ^ 2 * (((p.1 : ℝ) - q.1) ^ 2 + ((p.2 : ℝ) - q.2) ^ 2) by ring]
  nlinarith [sq_nonneg (probAD / N)]

theorem reach_range {order : ℕ} {p q : Node} (hp : p ∈ square 1 N) (hr : Reach order p q) :
    (0 ≤ q.1 ∧ q.1 ≤ N) ∧ (0 ≤ q.2 ∧ q.2 ≤ N) := by
  unfold square at hp
  rw [Finset.mem_product, Finset.mem_Ico, Finset.mem_Ico] at hp
  obtain ⟨h1, h2, -⟩ := hr
  rw [abs_le] at h1 h2
  omega

include g hit hN hN2 h hev in
/-- Every node that the rounded construction wants to place lies in the grid and close to some segment: within one mesh width for the
second-order scheme, within `√2` mesh widths otherwise, up to `2⁻²⁹`. -/
theorem C98_close (order : ℕ) {nd : Node}
    (hnd : nd ∈ iter 3 ((nSets iter order (constructGrids iter N order (shippedF F N evalR bcoord).interior)).1 ∩
      (nSets iter order (constructGrids iter N order (shippedF F N evalR bcoord).interior)).2)) :
    ((0 ≤ nd.1 ∧ nd.1 ≤ N) ∧ (0 ≤ nd.2 ∧ nd.2 ≤ N)) ∧
    ∃ sid, ∃ z ∈ Segment probA probR r sid, dist2 (getCoord probAD N nd.1 nd.2) z ≤ probAD / N * √2 + 1 / 2 ^ 29 ∧
      (order = 2 → dist2 (getCoord probAD N nd.1 nd.2) z ≤ probAD / N + 1 / 2 ^ 29) := by
  have tame := chooseBoundary_tame h
  have hpi := pi_pos
  have hs := mem_nSets hit N order (shippedF F N evalR bcoord).interior nd
  rw [(hit _ _).2, Finset.mem_inter] at hnd
  obtain ⟨p, hp, hpr⟩ := hs.1.1 hnd.1
  obtain ⟨q, hq, hqr⟩ := hs.2.1 hnd.2
  have hp := (mem_Mplus hit _ _ _ _).1 hp
  have hq := (mem_Mminus hit _ _ _ _).1 hq
  have hrange := reach_range hp.1 hpr
  refine ⟨hrange, ?_⟩
  have e29 : (0 : ℝ) ≤ 1 / 2 ^ 29 := by positivity
  -- a neighbour on the other side
  have key : ∀ m : Node, (0 ≤ m.1 ∧ m.1 ≤ N) → (0 ≤ m.2 ∧ m.2 ≤ N) → Reach order m nd →
      ((shippedF F N evalR bcoord).interior m ↔ ¬ (shippedF F N evalR bcoord).interior nd) →
      ∃ sid, ∃ z ∈ Segment probA probR r sid, dist2 (getCoord probAD N nd.1 nd.2) z
        ≤ dist2 (getCoord probAD N m.1 m.2) (getCoord probAD N nd.1 nd.2) + 1 / 2 ^ 29 := by
    intro m hm1 hm2 hr hne
    have d0 : 0 ≤ dist2 (getCoord probAD N m.1 m.2) (getCoord probAD N nd.1 nd.2) := sqrt_nonneg _
    rcases interior_cases g hN hN2 h hev (bcoord := bcoord) hrange.1 hrange.2 with c1 | ⟨z, hz, hz'⟩
    · rcases interior_cases g hN hN2 h hev (bcoord := bcoord) hm1 hm2 with c2 | ⟨z, hz, hz'⟩
      · rw [c1, c2] at hne
        have ha : 0 < probA := by unfold probA; positivity
        have haπ : probA < π := by unfold probA; linarith
        have hra : r probA = probR := by unfold probA probR; rw [tame.at_a]; norm_num
        have hr2 : r (2 * π) = probR := by unfold probR; rw [tame.at_two_pi]; norm_num
        have hR : 0 ≤ probR := by unfold probR; norm_num
        by_cases hin : getCoord probAD N nd.1 nd.2 ∈ Domain probA r
        · obtain ⟨z, sid, hz, hz1, -⟩ := curve_crossing ha haπ hR tame.smooth.continuous hra hr2 hin (fun w => hne.1 w hin)
          rw [dist2_comm _ (getCoord probAD N m.1 m.2)] at hz1
          exact ⟨sid, z, hz, by linarith⟩
        · obtain ⟨z, sid, hz, -, hz1⟩ := curve_crossing ha haπ hR tame.smooth.continuous hra hr2 (hne.2 hin) hin
          exact ⟨sid, z, hz, by linarith⟩
      · refine ⟨0, z, hz, ?_⟩
        have := dist2_triangle (getCoord probAD N nd.1 nd.2) z (getCoord probAD N m.1 m.2)
        rw [dist2_comm (getCoord probAD N nd.1 nd.2) (getCoord probAD N m.1 m.2)] at this
        linarith
    · exact ⟨0, z, hz, by linarith⟩
  have fin : ∀ m : Node, m ∈ square 1 N → Reach order m nd →
      ((shippedF F N evalR bcoord).interior m ↔ ¬ (shippedF F N evalR bcoord).interior nd) →
      ∃ sid, ∃ z ∈ Segment probA probR r sid, dist2 (getCoord probAD N nd.1 nd.2) z ≤ probAD / N * √2 + 1 / 2 ^ 29 ∧
        (order = 2 → dist2 (getCoord probAD N nd.1 nd.2) z ≤ probAD / N + 1 / 2 ^ 29) := by
    intro m hm hr hne
    obtain ⟨-, m1, m2⟩ := mem_M0 hm
    obtain ⟨sid, z, hz, hz'⟩ := key m m1 m2 hr hne
    refine ⟨sid, z, hz, ?_, fun ho => ?_⟩
    · have := reach_dist (N := N) (AD := probAD) (by unfold probAD; positivity) hr
      linarith
    · subst ho
      have := reach_axis (N := N) hr
      linarith
  by_cases hin : (shippedF F N evalR bcoord).interior nd
  · exact fin q hq.1 hqr ⟨fun w => absurd w hq.2, fun w => absurd hin w⟩
  · exact fin p hp.1 hpr ⟨fun _ => hin, fun _ => hp.2⟩

include g hsafe hit hN hN2 hb h hev hbc

/-- With the second-order scheme the construction of the grids does not fail in double-precision arithmetic, on any grid with
`16 ≤ N ≤ 2^20` and for every shipped boundary. -/
theorem C98_second_order : ∃ G, psConstructGridsF iter (shippedF F N evalR bcoord) 2 = .ok G := by
  refine ((C97_outcome iter (shippedF F N evalR bcoord) 2).1).2 fun nd hnd => ?_
  obtain ⟨hr, sid, z, hz, -, hz2⟩ := C98_close g hit hN hN2 h hev 2 hnd
  refine ⟨sid, C98_near g hsafe hN hN2 hb h hbc hr.1 hr.2 hz ((hz2 rfl).trans ?_)⟩
  have hNr : (N : ℝ) ≤ 2 ^ 20 := by exact_mod_cast hN2
  have hN0 : (0 : ℝ) < N := by have : (16 : ℝ) ≤ N := by exact_mod_cast hN
                               linarith
  have r1 : 1.4 < √2 := by rw [lt_sqrt (by norm_num)]; norm_num
  have hh : 6 / 2 ^ 20 ≤ probAD / N := by
    unfold probAD
    rw [div_le_div_iff₀ (by norm_num) hN0]
    nlinarith [pi_gt_three]
  norm_num at hh ⊢
  nlinarith

/-- Whatever the order of the scheme: if the construction fails, it is for a node whose distance from the boundary is the threshold
`h√2` up to `2⁻²³`, that is for a (near) tie. -/
theorem C98_failure (order : ℕ) (hf : ∀ G, psConstructGridsF iter (shippedF F N evalR bcoord) order ≠ .ok G) :
    psConstructGridsF iter (shippedF F N evalR bcoord) order = .error .assertionError ∧ order ≠ 2 ∧
    ∃ nd : Node, (∀ sid, ∀ z ∈ Segment probA probR r sid, probAD / N * √2 - 1 / 2 ^ 23 < dist2 (getCoord probAD N nd.1 nd.2) z) ∧
      ∃ sid, ∃ z ∈ Segment probA probR r sid, dist2 (getCoord probAD N nd.1 nd.2) z ≤ probAD / N * √2 + 1 / 2 ^ 29 := by
  obtain ⟨o1, o2⟩ := C97_outcome iter (shippedF F N evalR bcoord) order
  refine ⟨o2 hf, fun ho => ?_, ?_⟩
  · subst ho
    obtain ⟨G, hG⟩ := C98_second_order g hsafe hit hN hN2 hb h hev hbc
    exact hf G hG
  · by_contra hc
    refine absurd (o1.2 fun nd hnd => ?_) (not_exists.2 hf)
    obtain ⟨hr, sid, z, hz, hz1, -⟩ := C98_close g hit hN hN2 h hev order hnd
    by_contra hfar
    refine hc ⟨nd, fun sid' z' hz' => ?_, sid, z, hz, hz1⟩
    by_contra hle
    exact hfar ⟨sid', C98_near g hsafe hN hN2 hb h hbc hr.1 hr.2 hz' (not_lt.1 hle)⟩

/-- The sets `all_gamma`: a node of `union_gamma` within `h√2 - 2⁻²³` of a segment is in the set of that segment. -/
theorem C98_members {order : ℕ} {G : PsGrids} (hG : psConstructGridsF iter (shippedF F N evalR bcoord) order = .ok G) {nd : Node}
    (hnd : nd ∈ G.unionGamma) {sid : Fin 3} {z : ℝ × ℝ} (hz : z ∈ Segment probA probR r sid)
    (hd : dist2 (getCoord probAD N nd.1 nd.2) z ≤ probAD / N * √2 - 1 / 2 ^ 23) : nd ∈ G.allGamma sid := by
  classical
  have e := psConstructGridsF_eq iter (shippedF F N evalR bcoord) order
  dsimp only at e
  rw [e] at hG
  split_ifs at hG with hall
  cases hG
  dsimp only at hnd ⊢
  obtain ⟨hr, -⟩ := C98_close g hit hN hN2 h hev order hnd
  refine List.mem_filter.2 ⟨hnd, decide_eq_true ?_⟩
  obtain ⟨d, h1, h2⟩ := C98_near g hsafe hN hN2 hb h hbc (evalR := evalR) hr.1 hr.2 hz hd
  rw [place_distF] at h1
  cases h1
  exact h2

end grids

/-- for the arc the formula `(ρ - R, θ)` meets the assumption on the boundary coordinates -/
theorem C98_arc_coords {F : FlLib} (g : GoodLib97 F) {b : Brentq} (hb : BrentqSpec b) {N : ℕ} (hN : 16 ≤ N) (hN2 : N ≤ 2 ^ 20)
    {r : ℝ → ℝ} (h : chooseBoundary "arc" = .ok r) : BcoordAccurate F b r N fun ρ θ => some (F.rnd (ρ - F.rnd probR), θ) := by
  intro nd hi hj hz n θ hc
  have tame := chooseBoundary_tame h
  have hr : r = arcR probR := by cases h; rfl
  have hpi := pi_gt_d2
  have hpi2 := pi_lt_d2
  obtain ⟨p1, p2, p3, p4⟩ := C02_get_polar probAD N probA (by unfold probA; positivity) (by unfold probA; linarith) nd.1 nd.2
  obtain ⟨z, ⟨t, ht1, ht2, rfl⟩, hd⟩ := hz
  rw [← p1] at hd
  obtain ⟨-, k1, k2, k3, -⟩ := (tame.gentleAt hN).radius p2 ht1 ht2 p3 p4.le hd
  have hδ : probAD / N * √2 ≤ _ := shipped_scale N hN
  obtain ⟨w1, w2⟩ := polar_wide g.rnd g.libm (by omega) (hN2.trans (by norm_num)) hi hj
  have k3' := abs_le.1 k3
  rw [hr, C47_arc hb (by unfold probR; norm_num) (by norm_num at k1 hδ ⊢; linarith) p3 p4.le] at hc
  simp only [Option.some.injEq, Prod.mk.injEq] at hc
  obtain ⟨rfl, rfl⟩ := hc
  have q1 : 1 ≤ (getPolar probAD N probA nd.1 nd.2).1 := by norm_num at k1 hδ ⊢; linarith
  have q2 := w2 ⟨by unfold probA at ht1; norm_num at k3' ⊢; linarith, by norm_num at k3' hpi2 ⊢; linarith⟩ q1
  refine ⟨_, rfl, ?_, ?_⟩
  · dsimp only
    have hR := abs_le.1 (R_err g.rnd)
    have w1' := abs_le.1 w1
    obtain ⟨ρ, hρ⟩ : ∃ ρ, ρ = (getPolarF F.toFl F.AD F.a N nd.1 nd.2).1 := ⟨_, rfl⟩
    obtain ⟨ρ', hρ'⟩ : ∃ ρ, ρ = (getPolar probAD N probA nd.1 nd.2).1 := ⟨_, rfl⟩
    rw [← hρ, ← hρ'] at w1' ⊢
    rw [← hρ'] at q1 k2
    have := abs_le.1 (Rnd.abs_err g.rnd (x := ρ - F.rnd probR) (hi := 6) (by
      rw [abs_le]; unfold probR at hR ⊢; norm_num at hR w1' k2 hδ ⊢; constructor <;> linarith) (by norm_num))
    rw [abs_le]
    norm_num at this hR w1' ⊢
    constructor <;> linarith
  · exact q2.trans (by norm_num)

/-- a machine, a curve and grid sizes for which all hypotheses hold: with `N = 67` the fourth-order construction fails and the
second-order one does not -/
example : ∃ F : FlLib, GoodLib97 F ∧ SquareSafe F.sq ∧ ∃ iter : Iter, ∃ bcoord : ℝ → ℝ → Option (ℝ × ℝ),
    (∃ G, psConstructGridsF iter (shippedF F 67 (arcR probR) bcoord) 2 = .ok G) ∧
    (∃ G, psConstructGridsF iter (shippedF F 1024 (arcR probR) bcoord) 2 = .ok G) ∧
    psConstructGridsF iter (shippedF F 67 (arcR probR) bcoord) 4 = .error .assertionError := by
  obtain ⟨F, g, -, hs⟩ := C97_assumptions 1 (.inr rfl)
  obtain ⟨b, hb⟩ := exists_brentq
  have h : chooseBoundary "arc" = .ok (arcR probR) := rfl
  refine ⟨F, g, hs, fun _ s => s.toList, fun ρ θ => some (F.rnd (ρ - F.rnd probR), θ), ?_, ?_, ?_⟩
  · exact C98_second_order g hs isIter_toList (by norm_num) (by norm_num) hb h (fun t _ _ => by simp)
      (C98_arc_coords g hb (by norm_num) (by norm_num) h)
  · exact C98_second_order g hs isIter_toList (by norm_num) (by norm_num) hb h (fun t _ _ => by simp)
      (C98_arc_coords g hb (by norm_num) (by norm_num) h)
  · refine C97_fails g isIter_toList (.inl rfl) (fun t _ _ => by unfold arcR probR; norm_num) fun ρ θ c h0 h1 _ _ hc => ?_
    simp only [Option.some.injEq] at hc
    subst hc
    have hR := abs_le.1 (R_err g.rnd)
    have := abs_le.1 (Rnd.abs_err g.rnd (x := ρ - F.rnd probR) (hi := 3) (by
      rw [abs_le]; unfold probR at hR ⊢; norm_num at hR h1 ⊢; constructor <;> linarith) (by norm_num))
    dsimp only
    rw [abs_of_neg (by unfold probR at hR this ⊢; norm_num at hR this h1 ⊢; linarith)]
    unfold probR at hR this ⊢; norm_num at hR this h1 ⊢; linarith

end Pot
