import Verif.Props.SecondOrder
import Verif.Proofs.RoundedDistLower

/-! # Property C100: in double precision the discrete boundary is that of exact arithmetic, except where a distance is a (near) tie -/

namespace Pot
open Real Spec

section sides
variable {F : FlLib} (g : GoodLib97 F) (hsafe : SquareSafe F.sq) {N : ℕ} (hN : 0 < N) (hN2 : N ≤ 2 ^ 40) {evalR : ℝ → ℝ}
  {bcoord : ℝ → ℝ → Option (ℝ × ℝ)} {nd : Node} (hi : 0 ≤ nd.1 ∧ nd.1 ≤ N) (hj : 0 ≤ nd.2 ∧ nd.2 ≤ N) {r : ℝ → ℝ}

/-- What the machine computes for the boundary coordinates of a node is not too small: a node whose computed coordinates are `(n, θ)` with
`θ` in the range of the outer boundary is within `|n| + 2⁻³⁰` of the outer boundary. -/
def BcoordSound (F : FlLib) (r : ℝ → ℝ) (N : ℕ) (bcoord : ℝ → ℝ → Option (ℝ × ℝ)) : Prop :=
  ∀ nd : Node, (0 ≤ nd.1 ∧ nd.1 ≤ N) → (0 ≤ nd.2 ∧ nd.2 ≤ N) → ∀ c,
    bcoord (getPolarF F.toFl F.AD F.a N nd.1 nd.2).1 (getPolarF F.toFl F.AD F.a N nd.1 nd.2).2 = some c →
    F.a ≤ c.2 → c.2 ≤ F.twoPi → |c.1| ≤ 0.6 →
      ∃ z ∈ Segment probA probR r 0, dist2 (getCoord probAD N nd.1 nd.2) z ≤ |c.1| + 1 / 2 ^ 30

include hsafe in
theorem corner_dist_ge {x y X Y cx cy CX CY : ℝ} (h : RoundsToNearest F.rnd) (ex : |x - X| ≤ 1 / 2 ^ 48) (ey : |y - Y| ≤ 1 / 2 ^ 48)
    (bx : |x| ≤ 3.2) (by' : |y| ≤ 3.2) (e1 : |cx - CX| ≤ 1 / 2 ^ 45) (e2 : |cy - CY| ≤ 1 / 2 ^ 45) (b1 : |cx| ≤ 4) (b2 : |cy| ≤ 4) :
    dist2 (X, Y) (CX, CY) ≤ dformulaF F cx cy x y + 1 / 2 ^ 42 := by
  have bx' := abs_le.1 bx
  have by'' := abs_le.1 by'
  have b1' := abs_le.1 b1
  have b2' := abs_le.1 b2
  have d := dformulaF_ge h hsafe (x0 := cx) (y0 := cy) (x := x) (y := y) (by rw [abs_le]; constructor <;> linarith)
    (by rw [abs_le]; constructor <;> linarith)
  have n := dist2_near (p := (X, Y)) (q := (CX, CY)) (p' := (x, y)) (q' := (cx, cy)) (ε := 1 / 2 ^ 45)
    (by rw [abs_sub_comm]; exact ex.trans (by norm_num)) (by rw [abs_sub_comm]; exact ey.trans (by norm_num))
    (by rw [abs_sub_comm]; exact e1) (by rw [abs_sub_comm]; exact e2)
  norm_num at d n ⊢; linarith

include g

theorem R_F_le : |F.rnd probR| ≤ 4 := by
  have hR' := abs_le.1 (R_err g.rnd)
  unfold probR at hR' ⊢
  rw [abs_le]; norm_num at hR' ⊢; constructor <;> linarith

include hsafe

/-- the computed distance to the tip of the domain -/
theorem tip_ge {x y X Y : ℝ} (ex : |x - X| ≤ 1 / 2 ^ 48) (ey : |y - Y| ≤ 1 / 2 ^ 48) (bx : |x| ≤ 3.2) (by' : |y| ≤ 3.2) :
    dist2 (X, Y) (0, 0) ≤ dformulaF F 0 0 x y + 1 / 2 ^ 42 :=
  corner_dist_ge hsafe g.rnd ex ey bx by' (by simp) (by simp) (by norm_num) (by norm_num)

/-- the computed distance to the end point `(R, 0)` -/
theorem end_ge {x y X Y : ℝ} (ex : |x - X| ≤ 1 / 2 ^ 48) (ey : |y - Y| ≤ 1 / 2 ^ 48) (bx : |x| ≤ 3.2) (by' : |y| ≤ 3.2) :
    dist2 (X, Y) (probR, 0) ≤ dformulaF F (F.rnd probR) 0 x y + 1 / 2 ^ 42 :=
  corner_dist_ge hsafe g.rnd ex ey bx by' ((R_err g.rnd).trans (by norm_num)) (by simp) (R_F_le g) (by norm_num)

/-- the computed distance to the other end point -/
theorem end_a_ge {x y X Y : ℝ} (ex : |x - X| ≤ 1 / 2 ^ 48) (ey : |y - Y| ≤ 1 / 2 ^ 48) (bx : |x| ≤ 3.2) (by' : |y| ≤ 3.2) :
    dist2 (X, Y) (polarPoint probR probA) ≤
      dformulaF F (F.rnd (F.rnd probR * F.cos F.a)) (F.rnd (F.rnd probR * F.sin F.a)) x y + 1 / 2 ^ 42 := by
  obtain ⟨k1, k2⟩ := corner_err g
  obtain ⟨y1, y2, x1, x2, -, -⟩ := corner_F g
  have e0 : (probR * (√2 / 2), probR * (√2 / 2)) = polarPoint probR probA := by
    unfold polarPoint probA; rw [cos_pi_div_four, sin_pi_div_four]
  rw [← e0]
  exact corner_dist_ge hsafe g.rnd ex ey bx by' (k1.trans (by norm_num)) (k2.trans (by norm_num))
    (by rw [abs_le]; constructor <;> linarith) (by rw [abs_le]; constructor <;> linarith)

/-- the computed distance to the line `θ = a`, for a foot within the segment -/
theorem side2_ge {x y X Y : ℝ} (ex : |x - X| ≤ 1 / 2 ^ 48) (ey : |y - Y| ≤ 1 / 2 ^ 48) (bx : |x| ≤ 3.2) (by' : |y| ≤ 3.2)
    (c1 : 0 ≤ (getRadiusPointF F F.a x y).2) (c2 : (getRadiusPointF F F.a x y).2 ≤ F.rnd (F.rnd probR * F.sin F.a)) :
    ∃ t, 0 ≤ t ∧ t ≤ probR ∧ dist2 (X, Y) (polarPoint t probA) ≤ distToRadiusF F F.a x y + 1 / 2 ^ 41 := by
  have h := g.rnd
  obtain ⟨f1, f2⟩ := foot_F h g.tan bx by'
  obtain ⟨k1, k2⟩ := corner_err g
  have bx' := abs_le.1 bx
  have by'' := abs_le.1 by'
  have ex' := abs_le.1 ex
  have ey' := abs_le.1 ey
  have f1' := abs_le.1 f1
  have f2' := abs_le.1 f2
  have k2' := abs_le.1 k2
  have d := corner_dist_ge hsafe h (cx := (getRadiusPointF F F.a x y).1) (cy := (getRadiusPointF F F.a x y).2) (CX := (X + Y) / 2)
    (CY := (X + Y) / 2) ex ey bx by'
    (by rw [abs_le]; norm_num at f1' ex' ey' ⊢; constructor <;> linarith) (by rw [abs_le]; norm_num at f2' ex' ey' ⊢; constructor <;> linarith)
    (by rw [abs_le]; norm_num at f1' ⊢; constructor <;> linarith) (by rw [abs_le]; norm_num at f2' ⊢; constructor <;> linarith)
  have s1 : -(1 / 2 ^ 45) ≤ (X + Y) / 2 := by norm_num at f2' ex' ey' ⊢; linarith
  have s2 : (X + Y) / 2 ≤ probR * (√2 / 2) + 1 / 2 ^ 45 := by norm_num at f2' ex' ey' k2' ⊢; linarith
  have rr : √2 * √2 = 2 := mul_self_sqrt (by norm_num)
  have r0 : 0 < √2 := by positivity
  have r2' : √2 < 1.415 := by rw [sqrt_lt' (by norm_num)]; norm_num
  have hR : (0 : ℝ) ≤ probR := by unfold probR; norm_num
  obtain ⟨s, hs⟩ : ∃ s, s = (X + Y) * (√2 / 2) := ⟨_, rfl⟩
  have e : (X + Y) / 2 = s * (√2 / 2) := by rw [hs]; linear_combination (X + Y) / 4 * rr.symm
  rw [e] at s1 s2
  have t1 : -(1 / 2 ^ 44) ≤ s := by
    norm_num at s1 ⊢; nlinarith
  have t2 : s ≤ probR + 1 / 2 ^ 44 := by
    norm_num at s2 ⊢; nlinarith
  refine ⟨max 0 (min s probR), le_max_left _ _, max_le hR (min_le_right _ _), ?_⟩
  have ab : |s - max 0 (min s probR)| ≤ 1 / 2 ^ 44 := by
    have e44 : (0 : ℝ) ≤ 1 / 2 ^ 44 := by positivity
    rcases le_total s probR with q | q
    · rw [min_eq_left q]
      rcases le_total 0 s with w | w
      · rw [max_eq_right w, sub_self, abs_zero]; exact e44
      · rw [max_eq_left w, sub_zero, abs_of_nonpos w]; linarith
    · rw [min_eq_right q, max_eq_right hR, abs_of_nonneg (by linarith)]; linarith
  have dd : dist2 (X, Y) ((X + Y) / 2, (X + Y) / 2) = |(X - Y) * (√2 / 2)| := by
    rw [← sqrt_sq_eq_abs]
    unfold dist2
    dsimp only
    congr 1
    linear_combination (X - Y) ^ 2 / 4 * rr.symm
  rw [on_diagonal, ← hs]
  have := sqrt_sq_add_le (s - max 0 (min s probR)) ((X - Y) * (√2 / 2))
  rw [dd] at d
  unfold distToRadiusF
  dsimp only
  have e41 : (1 : ℝ) / 2 ^ 44 + 1 / 2 ^ 42 ≤ 1 / 2 ^ 41 := by norm_num
  linarith

include hN hN2 hi hj

theorem far_side1 : ∃ z ∈ Segment probA probR r 1,
    dist2 (getCoord probAD N nd.1 nd.2) z ≤ segDistF (shippedF F N evalR bcoord) nd 1 + 1 / 2 ^ 41 := by
  have h := g.rnd
  have cx := coord_close h hN hN2 hi.1 hi.2
  have cy := coord_close h hN hN2 hj.1 hj.2
  show ∃ z ∈ Segment probA probR r 1, dist2 (probAD * ((nd.1 : ℝ) / N - 1 / 2), probAD * ((nd.2 : ℝ) / N - 1 / 2)) z ≤
    (if coordF F.toFl F.AD N nd.1 < 0 then dformulaF F 0 0 (coordF F.toFl F.AD N nd.1) (coordF F.toFl F.AD N nd.2)
      else if coordF F.toFl F.AD N nd.1 > F.rnd probR then
        dformulaF F (F.rnd probR) 0 (coordF F.toFl F.AD N nd.1) (coordF F.toFl F.AD N nd.2) else |coordF F.toFl F.AD N nd.2|) + 1 / 2 ^ 41
  have bx := cx.bx
  have by' := cy.bx
  have ex := cx.err
  have ey := cy.err
  obtain ⟨x, hx⟩ : ∃ x, x = coordF F.toFl F.AD N nd.1 := ⟨_, rfl⟩
  obtain ⟨y, hy⟩ : ∃ y, y = coordF F.toFl F.AD N nd.2 := ⟨_, rfl⟩
  obtain ⟨X, hX⟩ : ∃ X, X = probAD * ((nd.1 : ℝ) / N - 1 / 2) := ⟨_, rfl⟩
  obtain ⟨Y, hY⟩ : ∃ Y, Y = probAD * ((nd.2 : ℝ) / N - 1 / 2) := ⟨_, rfl⟩
  rw [← hx, ← hX] at ex
  rw [← hy, ← hY] at ey
  rw [← hx] at bx ⊢
  rw [← hy] at by' ⊢
  rw [← hX, ← hY]
  have hR : (0 : ℝ) ≤ probR := by unfold probR; norm_num
  have e41 : (1 : ℝ) / 2 ^ 42 ≤ 1 / 2 ^ 41 := by norm_num
  split_ifs with c1 c2
  · exact ⟨(0, 0), ⟨0, le_rfl, hR, rfl⟩, (tip_ge g hsafe ex ey bx by').trans (by linarith)⟩
  · exact ⟨(probR, 0), ⟨probR, hR, le_rfl, rfl⟩, (end_ge g hsafe ex ey bx by').trans (by linarith)⟩
  · refine ⟨(max 0 (min X probR), 0), ⟨_, le_max_left _ _, max_le hR (min_le_right _ _), rfl⟩, ?_⟩
    have ex' := abs_le.1 ex
    have hR' := abs_le.1 (R_err h)
    have t1 : -(1 / 2 ^ 46) ≤ X := by norm_num at ex' c1 ⊢; linarith
    have t2 : X ≤ probR + 1 / 2 ^ 46 := by norm_num at ex' c2 hR' ⊢; linarith
    have ab : |X - max 0 (min X probR)| ≤ 1 / 2 ^ 46 := by
      have e44 : (0 : ℝ) ≤ 1 / 2 ^ 46 := by positivity
      rcases le_total X probR with q | q
      · rw [min_eq_left q]
        rcases le_total 0 X with w | w
        · rw [max_eq_right w, sub_self, abs_zero]; exact e44
        · rw [max_eq_left w, sub_zero, abs_of_nonpos w]; linarith
      · rw [min_eq_right q, max_eq_right hR, abs_of_nonneg (by linarith)]; linarith
    have d := sqrt_sq_add_le (X - max 0 (min X probR)) Y
    have := abs_sub_abs_le_abs_sub Y y
    rw [abs_sub_comm] at this
    have e : dist2 (X, Y) (max 0 (min X probR), 0) = √((X - max 0 (min X probR)) ^ 2 + Y ^ 2) := by unfold dist2; simp
    rw [e]
    have e0 : (1 : ℝ) / 2 ^ 46 + 1 / 2 ^ 48 ≤ 1 / 2 ^ 41 := by norm_num
    linarith

theorem far_side2 : ∃ z ∈ Segment probA probR r 2,
    dist2 (getCoord probAD N nd.1 nd.2) z ≤ segDistF (shippedF F N evalR bcoord) nd 2 + 1 / 2 ^ 41 := by
  have h := g.rnd
  have cx := coord_close h hN hN2 hi.1 hi.2
  have cy := coord_close h hN hN2 hj.1 hj.2
  show ∃ z ∈ Segment probA probR r 2, dist2 (probAD * ((nd.1 : ℝ) / N - 1 / 2), probAD * ((nd.2 : ℝ) / N - 1 / 2)) z ≤
    (if (getRadiusPointF F F.a (coordF F.toFl F.AD N nd.1) (coordF F.toFl F.AD N nd.2)).2 < 0 then
        dformulaF F 0 0 (coordF F.toFl F.AD N nd.1) (coordF F.toFl F.AD N nd.2)
      else if (getRadiusPointF F F.a (coordF F.toFl F.AD N nd.1) (coordF F.toFl F.AD N nd.2)).2 > F.rnd (F.rnd probR * F.sin F.a) then
        dformulaF F (F.rnd (F.rnd probR * F.cos F.a)) (F.rnd (F.rnd probR * F.sin F.a))
          (coordF F.toFl F.AD N nd.1) (coordF F.toFl F.AD N nd.2)
      else distToRadiusF F F.a (coordF F.toFl F.AD N nd.1) (coordF F.toFl F.AD N nd.2)) + 1 / 2 ^ 41
  have bx := cx.bx
  have by' := cy.bx
  have ex := cx.err
  have ey := cy.err
  have hR : (0 : ℝ) ≤ probR := by unfold probR; norm_num
  have e41 : (1 : ℝ) / 2 ^ 42 ≤ 1 / 2 ^ 41 := by norm_num
  split_ifs with c1 c2
  · refine ⟨(0, 0), ⟨0, le_rfl, hR, by unfold polarPoint; simp⟩, (tip_ge g hsafe ex ey bx by').trans (by linarith)⟩
  · exact ⟨_, ⟨probR, hR, le_rfl, rfl⟩, (end_a_ge g hsafe ex ey bx by').trans (by linarith)⟩
  · obtain ⟨t, h1, h2, h3⟩ := side2_ge g hsafe ex ey bx by' (not_lt.1 c1) (not_lt.1 c2)
    exact ⟨_, ⟨t, h1, h2, rfl⟩, h3⟩

theorem far_side0 (tame : Tame r) (hbs : BcoordSound F r N bcoord) (hs : segDistF (shippedF F N evalR bcoord) nd 0 ≤ 0.6) :
    ∃ z ∈ Segment probA probR r 0,
      dist2 (getCoord probAD N nd.1 nd.2) z ≤ segDistF (shippedF F N evalR bcoord) nd 0 + 1 / 2 ^ 30 := by
  have h := g.rnd
  have hpi := pi_pos
  have cx := coord_close h hN hN2 hi.1 hi.2
  have cy := coord_close h hN hN2 hj.1 hj.2
  have e0 : ((probR, 0) : ℝ × ℝ) = polarPoint (r (2 * π)) (2 * π) := by
    rw [tame.at_two_pi]; unfold polarPoint probR; simp; norm_num
  have e1 : polarPoint probR probA = polarPoint (r probA) probA := by
    unfold probA; rw [tame.at_a]; unfold probR; norm_num
  have ha : probA ≤ 2 * π := by unfold probA; linarith
  have e41 : (1 : ℝ) / 2 ^ 42 ≤ 1 / 2 ^ 30 := by norm_num
  have q1 : ∃ z ∈ Segment probA probR r 0, dist2 (getCoord probAD N nd.1 nd.2) z ≤
      dformulaF F (F.rnd probR) 0 (coordF F.toFl F.AD N nd.1) (coordF F.toFl F.AD N nd.2) + 1 / 2 ^ 30 := by
    have := end_ge g hsafe cx.err cy.err cx.bx cy.bx
    rw [e0] at this
    exact ⟨_, ⟨2 * π, ha, le_rfl, rfl⟩, this.trans (by linarith)⟩
  have hseg : segDistF (shippedF F N evalR bcoord) nd 0 =
      match bcoord (getPolarF F.toFl F.AD F.a N nd.1 nd.2).1 (getPolarF F.toFl F.AD F.a N nd.1 nd.2).2 with
      | none => dformulaF F (F.rnd probR) 0 (coordF F.toFl F.AD N nd.1) (coordF F.toFl F.AD N nd.2)
      | some c => if c.2 > F.twoPi then dformulaF F (F.rnd probR) 0 (coordF F.toFl F.AD N nd.1) (coordF F.toFl F.AD N nd.2)
        else if c.2 < F.a then dformulaF F (F.rnd (F.rnd probR * F.cos F.a)) (F.rnd (F.rnd probR * F.sin F.a))
          (coordF F.toFl F.AD N nd.1) (coordF F.toFl F.AD N nd.2)
        else |c.1| := rfl
  rw [hseg] at hs ⊢
  rcases hc : bcoord (getPolarF F.toFl F.AD F.a N nd.1 nd.2).1 (getPolarF F.toFl F.AD F.a N nd.1 nd.2).2 with _ | c
  · exact q1
  · rw [hc] at hs
    dsimp only at hs ⊢
    split_ifs at hs ⊢ with c1 c2
    · exact q1
    · have := end_a_ge g hsafe cx.err cy.err cx.bx cy.bx
      rw [e1] at this
      exact ⟨_, ⟨probA, le_rfl, ha, rfl⟩, this.trans (by linarith)⟩
    · exact hbs nd hi hj c hc (not_lt.1 c2) (not_lt.1 c1) hs

end sides

section grids
variable {F : FlLib} (g : GoodLib97 F) (hsafe : SquareSafe F.sq) {iter : Iter} (hit : IsIter iter) {N : ℕ} (hN : 16 ≤ N)
  (hN2 : N ≤ 2 ^ 20) {b : Brentq} (hb : BrentqSpec b) {name : String} {r : ℝ → ℝ} (h : chooseBoundary name = .ok r) {evalR : ℝ → ℝ}
  (hev : ∀ t, 0.78 ≤ t → t ≤ 6.3 → |evalR t - r t| ≤ 1 / 2 ^ 30) {bcoord : ℝ → ℝ → Option (ℝ × ℝ)}
  (hbc : BcoordAccurate F b r N bcoord) (hbs : BcoordSound F r N bcoord)

include g hsafe hN hN2 h hbs in
/-- A node that passes the test for a segment as computed is within `h√2 + 2⁻²⁹` of that segment. -/
theorem C100_far {nd : Node} (hi : 0 ≤ nd.1 ∧ nd.1 ≤ N) (hj : 0 ≤ nd.2 ∧ nd.2 ≤ N) {sid : Fin 3}
    {d : ℝ} (hd : getDistF (shippedF F N evalR bcoord) nd sid (getEtypeF (shippedF F N evalR bcoord) sid nd) = .ok d)
    (hle : d ≤ (shippedF F N evalR bcoord).threshold) :
    ∃ z ∈ Segment probA probR r sid, dist2 (getCoord probAD N nd.1 nd.2) z ≤ probAD / N * √2 + 1 / 2 ^ 29 := by
  rw [place_distF] at hd
  cases hd
  have ht := (abs_le.1 (threshold_err hN (evalR := evalR) (bcoord := bcoord) g.rnd)).2
  have hN0 : 0 < N := by omega
  have hN40 : N ≤ 2 ^ 40 := hN2.trans (by norm_num)
  have hs : ∃ z ∈ Segment probA probR r sid,
      dist2 (getCoord probAD N nd.1 nd.2) z ≤ segDistF (shippedF F N evalR bcoord) nd sid + 1 / 2 ^ 30 := by
    have e30 : (1 : ℝ) / 2 ^ 41 ≤ 1 / 2 ^ 30 := by norm_num
    fin_cases sid
    · refine far_side0 g hsafe hN0 hN40 hi hj (chooseBoundary_tame h) hbs ?_
      have hδ : probAD / N * √2 ≤ _ := shipped_scale N hN
      refine hle.trans ?_
      norm_num at ht hδ ⊢; linarith
    · obtain ⟨z, hz, hz'⟩ := far_side1 g hsafe hN0 hN40 hi hj (r := r) (evalR := evalR) (bcoord := bcoord)
      exact ⟨z, hz, hz'.trans (add_le_add le_rfl e30)⟩
    · obtain ⟨z, hz, hz'⟩ := far_side2 g hsafe hN0 hN40 hi hj (r := r) (evalR := evalR) (bcoord := bcoord)
      exact ⟨z, hz, hz'.trans (add_le_add le_rfl e30)⟩
  obtain ⟨z, hz, hz'⟩ := hs
  refine ⟨z, hz, hz'.trans ?_⟩
  norm_num at ht ⊢; linarith

include g hsafe hN hN2 hb h hbc hbs in
/-- The computed test for a segment has the outcome "the distance is at most `h√2`" for every node whose distance from the segment is
not `h√2` up to `2⁻²³`. -/
theorem C100_test {nd : Node} (hi : 0 ≤ nd.1 ∧ nd.1 ≤ N) (hj : 0 ≤ nd.2 ∧ nd.2 ≤ N) {sid : Fin 3} {δ : ℝ}
    (hδ : IsDistTo (getCoord probAD N nd.1 nd.2) (Segment probA probR r sid) δ) (htie : 1 / 2 ^ 23 < |δ - probAD / N * √2|) :
    ∃ d, getDistF (shippedF F N evalR bcoord) nd sid (getEtypeF (shippedF F N evalR bcoord) sid nd) = .ok d ∧
      (d ≤ (shippedF F N evalR bcoord).threshold ↔ δ ≤ probAD / N * √2) := by
  refine ⟨_, place_distF _ _ _, fun hle => ?_, fun hle => ?_⟩
  · obtain ⟨z, hz, hz'⟩ := C100_far g hsafe hN hN2 h hbs hi hj (place_distF _ _ _) hle
    have := hδ.2 z hz
    by_contra hc
    rw [abs_of_pos (by linarith)] at htie
    norm_num at htie hz'; linarith
  · obtain ⟨⟨z, hz, rfl⟩, -⟩ := hδ
    rw [abs_of_nonpos (by linarith)] at htie
    obtain ⟨d, h1, h2⟩ := C98_near g hsafe hN hN2 hb h hbc (evalR := evalR) hi hj hz (by linarith)
    rw [place_distF] at h1
    cases h1
    exact h2

/-- no node of the grid lies within `2⁻²⁹` of the outer boundary -/
def ClearOfCurve (r : ℝ → ℝ) (N : ℕ) : Prop :=
  ∀ nd ∈ square 1 N, ∀ z ∈ Segment probA probR r 0, 1 / 2 ^ 29 < dist2 (getCoord probAD N nd.1 nd.2) z

include g hit hN hN2 h hev in
/-- If no node is within `2⁻²⁹` of the outer boundary, the rounded construction finds the same sets `M0`, `M+`, `M-`, `K+` as exact
arithmetic. -/
theorem C100_sets (hoff : ClearOfCurve r N) (order : ℕ) :
    constructGrids iter N order (shippedF F N evalR bcoord).interior =
      constructGrids iter N order (mkEnv b N probAD probA probR r).interior := by
  refine constructGrids_congr iter hit N order fun nd hnd => ?_
  obtain ⟨-, h1, h2⟩ := mem_M0 hnd
  have hpi := pi_pos
  rcases interior_cases g hN hN2 h hev (bcoord := bcoord) h1 h2 with c | ⟨z, hz, hz'⟩
  · exact c.trans (C07_is_interior probAD N probA (by unfold probA; positivity) (by unfold probA; linarith) r
      (by rw [(chooseBoundary_tame h).at_two_pi]; norm_num) nd.1 nd.2).symm
  · exact absurd hz' (not_le.2 (hoff nd hnd z hz))

include g hsafe hit hN hN2 hb h hev hbc hbs

/-- The grids of the rounded construction and those of exact arithmetic: all sets of nodes are equal, and a node of the discrete
boundary is in the same lists `all_gamma` except for segments from which its distance is `h√2` up to `2⁻²³`. -/
theorem C100_grids (hoff : ClearOfCurve r N) {order : ℕ} {G : PsGrids}
    (hG : psConstructGridsF iter (shippedF F N evalR bcoord) order = .ok G) :
    ∃ G', psConstructGrids iter (mkEnv b N probAD probA probR r) order = .ok G' ∧ G.toGrids = G'.toGrids ∧ G.Nplus = G'.Nplus ∧
      G.Nminus = G'.Nminus ∧ G.unionGamma = G'.unionGamma ∧
      ∀ nd sid δ, IsDistTo (getCoord probAD N nd.1 nd.2) (Segment probA probR r sid) δ → 1 / 2 ^ 23 < |δ - probAD / N * √2| →
        (nd ∈ G.allGamma sid ↔ nd ∈ G'.allGamma sid) := by
  classical
  obtain ⟨G', hG', hm⟩ := C12_shipped hit hb hN order h
  have hs := C100_sets g hit hN hN2 (b := b) h hev (bcoord := bcoord) hoff order
  have e := psConstructGridsF_eq iter (shippedF F N evalR bcoord) order
  have e' := psConstructGrids_eq iter (mkEnv b N probAD probA probR r) order
  dsimp only at e e'
  rw [e] at hG
  split_ifs at hG with hall
  cases hG
  refine ⟨G', hG', ?_⟩
  rw [e'] at hG'
  split_ifs at hG' with hall'
  have hG'' := (Except.ok.inj hG').symm
  have hug : (iter 3 ((nSets iter order (constructGrids iter N order (shippedF F N evalR bcoord).interior)).1 ∩
      (nSets iter order (constructGrids iter N order (shippedF F N evalR bcoord).interior)).2)) = G'.unionGamma := by
    rw [hG'', hs]; rfl
  refine ⟨?_, ?_, ?_, hug, ?_⟩
  · rw [hG'']; exact hs
  · rw [hG'']; exact congrArg (fun x => (nSets iter order x).1) hs
  · rw [hG'']; exact congrArg (fun x => (nSets iter order x).2) hs
  · intro nd sid δ hδ htie
    have key : ∀ nd ∈ G'.unionGamma, IsDistTo (getCoord probAD N nd.1 nd.2) (Segment probA probR r sid) δ →
        1 / 2 ^ 23 < |δ - probAD / N * √2| → (NearF (shippedF F N evalR bcoord) nd sid ↔ nd ∈ G'.allGamma sid) := by
      intro nd hnd hδ htie
      obtain ⟨d, hd, hd'⟩ := hm sid nd hnd
      have hdd : d = δ := by
        obtain ⟨⟨q1, m1, rfl⟩, u1⟩ := hd
        obtain ⟨⟨q2, m2, rfl⟩, u2⟩ := hδ
        exact le_antisymm (u1 _ m2) (u2 _ m1)
      rw [hd', hdd]
      rw [← hug] at hnd
      obtain ⟨hr, -⟩ := C98_close g hit hN hN2 h hev order hnd
      obtain ⟨d', h1, h2⟩ := C100_test g hsafe hN hN2 hb h hbc hbs (evalR := evalR) hr.1 hr.2 hδ htie
      rw [place_distF] at h1
      cases h1
      exact h2
    constructor
    · intro hm'
      obtain ⟨k1, k2⟩ := List.mem_filter.1 hm'
      exact (key nd (hug ▸ k1) hδ htie).1 (of_decide_eq_true k2)
    · intro hm'
      have k1 : nd ∈ G'.unionGamma := by
        rw [hG''] at hm' ⊢
        exact (List.mem_filter.1 hm').1
      refine List.mem_filter.2 ⟨hug.symm ▸ k1, decide_eq_true ((key nd k1 hδ htie).2 hm')⟩

end grids

/-- for the arc the formula `(ρ - R, θ)` is sound -/
theorem C100_arc_coords {F : FlLib} (g : GoodLib97 F) {N : ℕ} (hN : 0 < N) (hN2 : N ≤ 2 ^ 40)
    {r : ℝ → ℝ} (h : chooseBoundary "arc" = .ok r) : BcoordSound F r N fun ρ θ => some (F.rnd (ρ - F.rnd probR), θ) := by
  intro nd hi hj c hc c1 c2 c3
  simp only [Option.some.injEq] at hc
  subst hc
  dsimp only at c1 c2 c3 ⊢
  have hr : r = arcR probR := by cases h; rfl
  have hpi := pi_pos
  obtain ⟨p1, p2, p3, p4⟩ := C02_get_polar probAD N probA (by unfold probA; positivity) (by unfold probA; linarith) nd.1 nd.2
  obtain ⟨w1, w2⟩ := polar_wide g.rnd g.libm hN hN2 hi hj
  have w := (C96_sides g.rnd g.libm hN hN2 hi hj g.diag).2.1 ⟨c1, c2⟩
  refine ⟨_, ⟨_, w.1, w.2, rfl⟩, ?_⟩
  rw [← p1, hr]
  have e : dist2 (polarPoint (getPolar probAD N probA nd.1 nd.2).1 (getPolar probAD N probA nd.1 nd.2).2)
      (polarPoint (arcR probR (getPolar probAD N probA nd.1 nd.2).2) (getPolar probAD N probA nd.1 nd.2).2)
      = |(getPolar probAD N probA nd.1 nd.2).1 - probR| := by
    rw [← sqrt_sq_eq_abs]
    unfold dist2 polarPoint arcR
    dsimp only
    congr 1
    linear_combination ((getPolar probAD N probA nd.1 nd.2).1 - probR) ^ 2 *
      sin_sq_add_cos_sq (getPolar probAD N probA nd.1 nd.2).2
  rw [e]
  have hR := abs_le.1 (R_err g.rnd)
  have w1' := abs_le.1 w1
  obtain ⟨ρ, hρ⟩ : ∃ ρ, ρ = (getPolarF F.toFl F.AD F.a N nd.1 nd.2).1 := ⟨_, rfl⟩
  obtain ⟨ρ', hρ'⟩ : ∃ ρ, ρ = (getPolar probAD N probA nd.1 nd.2).1 := ⟨_, rfl⟩
  rw [← hρ, ← hρ'] at w1'
  rw [← hρ] at c3 ⊢
  rw [← hρ'] at p2 ⊢
  have hρ6 : ρ' ≤ 6 := by
    have cx := coord_close g.rnd hN hN2 hi.1 hi.2
    have cy := coord_close g.rnd hN hN2 hj.1 hj.2
    have bx := abs_le.1 cx.bx
    have by' := abs_le.1 cy.bx
    have ex := abs_le.1 cx.err
    have ey := abs_le.1 cy.err
    have hx : |probAD * ((nd.1 : ℝ) / N - 1 / 2)| ≤ 3.3 := by rw [abs_le]; norm_num at bx ex ⊢; constructor <;> linarith
    have hy : |probAD * ((nd.2 : ℝ) / N - 1 / 2)| ≤ 3.3 := by rw [abs_le]; norm_num at by' ey ⊢; constructor <;> linarith
    have f1 : ρ' * cos (getPolar probAD N probA nd.1 nd.2).2 = probAD * ((nd.1 : ℝ) / N - 1 / 2) := by
      rw [hρ']; exact congrArg Prod.fst p1
    have f2 : ρ' * sin (getPolar probAD N probA nd.1 nd.2).2 = probAD * ((nd.2 : ℝ) / N - 1 / 2) := by
      rw [hρ']; exact congrArg Prod.snd p1
    rw [← f1] at hx
    rw [← f2] at hy
    have q1 := sq_le_sq' (abs_le.1 hx).1 (abs_le.1 hx).2
    have q2 := sq_le_sq' (abs_le.1 hy).1 (abs_le.1 hy).2
    have q3 := sin_sq_add_cos_sq (getPolar probAD N probA nd.1 nd.2).2
    have q4 : ρ' ^ 2 = (ρ' * cos (getPolar probAD N probA nd.1 nd.2).2) ^ 2 + (ρ' * sin (getPolar probAD N probA nd.1 nd.2).2) ^ 2 := by
      linear_combination -ρ' ^ 2 * q3
    nlinarith
  have k := abs_le.1 (Rnd.abs_err g.rnd (x := ρ - F.rnd probR) (hi := 7) (by
    rw [abs_le]; unfold probR at hR ⊢; norm_num at hR w1' ⊢; constructor <;> linarith) (by norm_num))
  have t := abs_sub_abs_le_abs_sub (ρ' - probR) (F.rnd (ρ - F.rnd probR))
  have t2 : |ρ' - probR - F.rnd (ρ - F.rnd probR)| ≤ 1 / 2 ^ 30 := by
    rw [abs_le]; norm_num at k hR w1' ⊢; constructor <;> linarith
  linarith

/-- on the grid with `N = 16` no node is close to the arc: the squared radius of a node is `(π/8)²` times an integer, and `2.3²` is
between `34` and `35` times `(π/8)²` -/
theorem C100_off_arc : ClearOfCurve (arcR probR) 16 := by
  intro nd _ z hz
  obtain ⟨t, -, -, rfl⟩ := hz
  obtain ⟨i, j⟩ := nd
  have hpi := pi_gt_d2
  have hpi2 := pi_lt_d2
  have e1 : getCoord probAD 16 i j = (π / 8 * ((i - 8 : ℤ) : ℝ), π / 8 * ((j - 8 : ℤ) : ℝ)) := by
    show (probAD * ((i : ℝ) / (16 : ℕ) - 1 / 2), probAD * ((j : ℝ) / (16 : ℕ) - 1 / 2)) = _
    unfold probAD; push_cast; rw [Prod.mk.injEq]; constructor <;> ring
  rw [e1]
  obtain ⟨k, hk⟩ : ∃ k : ℤ, k = (i - 8) ^ 2 + (j - 8) ^ 2 := ⟨_, rfl⟩
  have t1 := dist2_triangle (π / 8 * ((i - 8 : ℤ) : ℝ), π / 8 * ((j - 8 : ℤ) : ℝ)) (0, 0) (polarPoint (arcR probR t) t)
  have t2 := dist2_triangle (polarPoint (arcR probR t) t) (0, 0) (π / 8 * ((i - 8 : ℤ) : ℝ), π / 8 * ((j - 8 : ℤ) : ℝ))
  rw [dist2_comm (polarPoint (arcR probR t) t) (π / 8 * ((i - 8 : ℤ) : ℝ), π / 8 * ((j - 8 : ℤ) : ℝ))] at t2
  have e2 : dist2 (polarPoint (arcR probR t) t) (0, 0) = 2.3 := by
    have : dist2 (polarPoint (arcR probR t) t) (0, 0) = √(2.3 ^ 2) := by
      unfold dist2 polarPoint arcR probR
      dsimp only
      congr 1
      linear_combination (2.3 ^ 2 : ℝ) * sin_sq_add_cos_sq t
    rw [this, sqrt_sq (by norm_num)]
  have e3 : dist2 (π / 8 * ((i - 8 : ℤ) : ℝ), π / 8 * ((j - 8 : ℤ) : ℝ)) (0, 0) = √((π / 8) ^ 2 * (k : ℝ)) := by
    unfold dist2; rw [hk]; dsimp only; congr 1; push_cast; ring
  rw [e2, e3] at t1 t2
  rcases le_or_gt k 34 with c | c
  · have c' : (k : ℝ) ≤ 34 := by exact_mod_cast c
    have : √((π / 8) ^ 2 * (k : ℝ)) ≤ 2.299 := by
      refine sqrt_le_iff.2 ⟨by norm_num, ?_⟩
      have : (π / 8) ^ 2 * (k : ℝ) ≤ (3.15 / 8) ^ 2 * 34 := by
        rcases le_total 0 (k : ℝ) with q | q
        · exact mul_le_mul (pow_le_pow_left₀ (by positivity) (by linarith) 2) c' q (by positivity)
        · exact (mul_nonpos_of_nonneg_of_nonpos (by positivity) q).trans (by positivity)
      norm_num at this ⊢; linarith
    norm_num at t1 t2 this ⊢; linarith
  · have c' : (35 : ℝ) ≤ (k : ℝ) := by exact_mod_cast c
    have : 2.31 ≤ √((π / 8) ^ 2 * (k : ℝ)) := by
      refine le_sqrt_of_sq_le ?_
      have : (3.14 / 8) ^ 2 * 35 ≤ (π / 8) ^ 2 * (k : ℝ) :=
        mul_le_mul (pow_le_pow_left₀ (by positivity) (by linarith) 2) c' (by positivity) (by positivity)
      norm_num at this ⊢; linarith
    norm_num at t1 t2 this ⊢; linarith

/-- a machine, a grid and a boundary for which all hypotheses hold, with the scheme of order two -/
example : ∃ F : FlLib, GoodLib97 F ∧ SquareSafe F.sq ∧ ∃ b : Brentq, BrentqSpec b ∧ ∃ iter : Iter, IsIter iter ∧
    ∃ bcoord : ℝ → ℝ → Option (ℝ × ℝ), BcoordAccurate F b (arcR probR) 16 bcoord ∧ BcoordSound F (arcR probR) 16 bcoord ∧
      ClearOfCurve (arcR probR) 16 ∧ ∃ G G', psConstructGridsF iter (shippedF F 16 (arcR probR) bcoord) 2 = .ok G ∧
        psConstructGrids iter (mkEnv b 16 probAD probA probR (arcR probR)) 2 = .ok G' ∧ G.unionGamma = G'.unionGamma := by
  obtain ⟨F, g, -, hs⟩ := C97_assumptions 1 (.inr rfl)
  obtain ⟨b, hb⟩ := exists_brentq
  have h : chooseBoundary "arc" = .ok (arcR probR) := rfl
  have k1 := C98_arc_coords g hb (N := 16) (by norm_num) (by norm_num) h
  have k2 := C100_arc_coords g (N := 16) (by norm_num) (by norm_num) h
  have hev : ∀ t, 0.78 ≤ t → t ≤ 6.3 → |arcR probR t - arcR probR t| ≤ 1 / 2 ^ 30 := fun t _ _ => by simp
  obtain ⟨G, hG⟩ := C98_second_order g hs isIter_toList (N := 16) (by norm_num) (by norm_num) hb h hev k1
  obtain ⟨G', hG', -, -, -, hu, -⟩ := C100_grids g hs isIter_toList (by norm_num) (by norm_num) hb h hev k1 k2 C100_off_arc hG
  exact ⟨F, g, hs, b, hb, _, isIter_toList, _, k1, k2, C100_off_arc, G, G', hG, hG', hu⟩

/-- a node for which the test is not a tie: the corner of the grid, at distance more than `3` from the side `θ = 2π` -/
example : ∃ δ, IsDistTo (getCoord probAD 16 0 0) (Segment probA probR (arcR probR) 1) δ ∧ 1 / 2 ^ 23 < |δ - probAD / 16 * √2| := by
  have h := seg1_dist probA probR (arcR probR) (by unfold probR; norm_num) (getCoord probAD 16 0 0).1 (getCoord probAD 16 0 0).2
  refine ⟨_, h, ?_⟩
  have hpi := pi_gt_d2
  have hpi2 := pi_lt_d2
  have r2 : √2 < 1.5 := by rw [sqrt_lt' (by norm_num)]; norm_num
  have r0 : 0 < √2 := by positivity
  have e : getCoord probAD 16 0 0 = (-π, -π) := by
    show (probAD * ((0 : ℝ) / (16 : ℕ) - 1 / 2), probAD * ((0 : ℝ) / (16 : ℕ) - 1 / 2)) = _
    unfold probAD; rw [Prod.mk.injEq]; constructor <;> ring
  rw [e]
  dsimp only
  rw [if_pos (by linarith)]
  have d : π ≤ dist2 (-π, -π) (0, 0) := by
    unfold dist2
    refine le_sqrt_of_sq_le ?_
    dsimp only
    nlinarith [sq_nonneg π]
  have d2 : probAD / 16 * √2 ≤ 1 := by unfold probAD; norm_num at hpi2 r2 ⊢; nlinarith
  rw [abs_of_pos (by norm_num at hpi ⊢; linarith)]
  norm_num at hpi ⊢; linarith

/-- Ties cannot be excluded: on every grid with `N ≥ 16`, for every order and every shipped boundary, a node of the discrete boundary
near the tip is at distance exactly `h√2` from the side `θ = a`. -/
theorem C100_ties {iter : Iter} (hit : IsIter iter) {b : Brentq} {N : ℕ} (hN : 16 ≤ N) {order : ℕ}
    {name : String} {r : ℝ → ℝ} (h : chooseBoundary name = .ok r) {G : PsGrids}
    (hG : psConstructGrids iter (mkEnv b N probAD probA probR r) order = .ok G) :
    ∃ nd ∈ G.unionGamma, IsDistTo (getCoord probAD N nd.1 nd.2) (Segment probA probR r 2) (probAD / N * √2) := by
  have tame := chooseBoundary_tame h
  have hN0 : 0 < N := by omega
  have hNr : (16 : ℝ) ≤ N := by exact_mod_cast hN
  have hpi := pi_pos
  have hpi2 := pi_lt_d2
  obtain ⟨g0, g1, g2, -, g4⟩ := psGrids_sets hit hG
  obtain ⟨j, hj⟩ : ∃ j : ℤ, j = ((N : ℤ) + 1) / 2 := ⟨_, rfl⟩
  obtain ⟨c, hc⟩ : ∃ c : ℝ, c = 2 * j - N := ⟨_, rfl⟩
  have c01 : 0 ≤ c ∧ c ≤ 1 := by
    have h1 : (N : ℤ) ≤ 2 * j ∧ 2 * j ≤ N + 1 := by omega
    have h2 : (N : ℝ) ≤ 2 * j := by exact_mod_cast h1.1
    have h3 : (2 : ℝ) * j ≤ N + 1 := by exact_mod_cast h1.2
    rw [hc]; constructor <;> linarith
  have hs : 0 < π / N ∧ π / N ≤ 0.2 := by
    refine ⟨by positivity, ?_⟩
    rw [div_le_iff₀ (by linarith)]; norm_num at hpi2 ⊢; linarith
  have crd : ∀ k : ℤ, getCoord probAD N ((j + 2 : ℤ) : ℝ) ((j + k : ℤ) : ℝ) = (π / N * (c + 4), π / N * (c + 2 * k)) := by
    intro k
    show (probAD * (((j + 2 : ℤ) : ℝ) / N - 1 / 2), probAD * (((j + k : ℤ) : ℝ) / N - 1 / 2)) = _
    rw [node_pos hN0, node_pos hN0, hc]; push_cast; ring_nf
  obtain ⟨s, hsd⟩ : ∃ s, s = π / N := ⟨_, rfl⟩
  rw [← hsd] at hs crd
  have rng : ∀ k : ℤ, -1 ≤ k → k ≤ 1 → (j + 2, j + k) ∈ square 1 N := by
    intro k h1 h2
    unfold square
    rw [Finset.mem_product, Finset.mem_Ico, Finset.mem_Ico]
    dsimp only
    omega
  have int_iff : ∀ k : ℤ, -1 ≤ k → k ≤ 1 → ((mkEnv b N probAD probA probR r).interior (j + 2, j + k) ↔
      ¬ (0 < c + 2 * k ∧ c + 2 * k < c + 4)) := by
    intro k h1 h2
    obtain ⟨-, hi, hj⟩ := mem_M0 (rng k h1 h2)
    have w := inWedge_iff hN0 hi hj
    dsimp only at w
    rw [crd k] at w
    dsimp only at w
    rw [mul_pos_iff_of_pos_left hs.1, mul_lt_mul_iff_right₀ hs.1] at w
    rw [← w]
    show isInterior probAD N probA r ((j + 2 : ℤ) : ℝ) ((j + k : ℤ) : ℝ) ↔ _
    refine ⟨fun q => q.2, fun q => ⟨?_, q⟩⟩
    obtain ⟨p1, p2, -, -⟩ := C02_get_polar probAD N probA (by unfold probA; positivity) (by unfold probA; linarith)
      ((j + 2 : ℤ) : ℝ) ((j + k : ℤ) : ℝ)
    rw [crd k] at p1
    have a1 : π / 4 ≤ (getPolar probAD N probA ((j + 2 : ℤ) : ℝ) ((j + k : ℤ) : ℝ)).2 := q.1
    have a2 : (getPolar probAD N probA ((j + 2 : ℤ) : ℝ) ((j + k : ℤ) : ℝ)).2 ≤ 2 * π := q.2
    have lo := tame.lo (getPolar probAD N probA ((j + 2 : ℤ) : ℝ) ((j + k : ℤ) : ℝ)).2 (by linarith) (by linarith)
    refine le_trans ?_ lo
    have f1 := congrArg Prod.fst p1
    have f2 := congrArg Prod.snd p1
    unfold polarPoint at f1 f2
    dsimp only at f1 f2
    have kr : (-1 : ℝ) ≤ k ∧ (k : ℝ) ≤ 1 := ⟨by exact_mod_cast h1, by exact_mod_cast h2⟩
    have q1 : s * (c + 4) ≤ 1 := by nlinarith
    have q1' : 0 ≤ s * (c + 4) := by nlinarith
    have q2 : |s * (c + 2 * k)| ≤ 0.6 := by
      rw [abs_mul, abs_of_pos hs.1]
      calc s * |c + 2 * k| ≤ 0.2 * 3 := mul_le_mul hs.2 (by rw [abs_le]; constructor <;> linarith) (abs_nonneg _) (by norm_num)
        _ = 0.6 := by norm_num
    have q3 := sq_le_sq' (abs_le.1 q2).1 (abs_le.1 q2).2
    have q4 := sin_sq_add_cos_sq (getPolar probAD N probA ((j + 2 : ℤ) : ℝ) ((j + k : ℤ) : ℝ)).2
    have q5 : (getPolar probAD N probA ((j + 2 : ℤ) : ℝ) ((j + k : ℤ) : ℝ)).1 ^ 2 = (s * (c + 4)) ^ 2 + (s * (c + 2 * k)) ^ 2 := by
      rw [← f1, ← f2]
      linear_combination -(getPolar probAD N probA ((j + 2 : ℤ) : ℝ) ((j + k : ℤ) : ℝ)).1 ^ 2 * q4
    nlinarith
  have reach : ∀ k : ℤ, -1 ≤ k → k ≤ 1 → Reach order (j + 2, j + k) (j + 2, j) := by
    intro k h1 h2
    refine ⟨by simp, ?_, fun _ => .inl rfl⟩
    rw [abs_le]
    dsimp only
    omega
  have hm1 : (j + 2, j + -1) ∈ G.Mplus := by
    rw [show G.Mplus = G.toGrids.Mplus from rfl, g0, mem_Mplus hit]
    refine ⟨rng _ le_rfl (by norm_num), (int_iff (-1) le_rfl (by norm_num)).2 fun q => ?_⟩
    have := q.1
    push_cast at this
    linarith
  have hm2 : (j + 2, j + 1) ∈ G.Mminus := by
    rw [show G.Mminus = G.toGrids.Mminus from rfl, g0, mem_Mminus hit]
    refine ⟨rng _ (by norm_num) le_rfl, fun q => (int_iff 1 (by norm_num) le_rfl).1 q ?_⟩
    push_cast
    constructor <;> linarith
  refine ⟨(j + 2, j), (g4 _).2 ⟨(g1 _).2 ⟨_, hm1, reach _ le_rfl (by norm_num)⟩, (g2 _).2 ⟨_, hm2, reach _ (by norm_num) le_rfl⟩⟩, ?_⟩
  have e := crd 0
  rw [add_zero] at e
  dsimp only
  rw [e]
  have d := seg2_dist (a := probA) (R := probR) r (by unfold probR; norm_num) (s * (c + 4)) (s * (c + 2 * (0 : ℤ)))
  unfold probA at d ⊢
  rw [cos_pi_div_four, sin_pi_div_four] at d
  have r0 : 0 < √2 := by positivity
  have r2 : √2 < 1.5 := by rw [sqrt_lt' (by norm_num)]; norm_num
  have w1 : s * (c + 4) ≤ 1 := by nlinarith
  have w0 : 0 ≤ s * (c + 4) := by nlinarith
  have w2 : s * c ≤ 0.2 := by nlinarith
  have w3 : 0 ≤ s * c := mul_nonneg hs.1.le c01.1
  push_cast at d ⊢
  rw [mul_zero, add_zero] at d ⊢
  rw [if_neg (not_lt.2 (by positivity)), if_neg (not_lt.2 (by unfold probR; nlinarith))] at d
  have ee : |s * (c + 4) * (√2 / 2) - s * c * (√2 / 2)| = probAD / N * √2 := by
    rw [show s * (c + 4) * (√2 / 2) - s * c * (√2 / 2) = s * 2 * √2 by ring, abs_of_nonneg (mul_nonneg (by linarith [hs.1]) r0.le), hsd]
    unfold probAD; ring
  rw [ee] at d
  exact d

example : ∃ b : Brentq, ∃ G, psConstructGrids (fun _ s => s.toList) (mkEnv b 16 probAD probA probR (arcR probR)) 4 = .ok G ∧
    ∃ nd ∈ G.unionGamma, IsDistTo (getCoord probAD 16 nd.1 nd.2) (Segment probA probR (arcR probR) 2) (probAD / (16 : ℕ) * √2) := by
  obtain ⟨b, hb⟩ := exists_brentq
  have h : chooseBoundary "arc" = .ok (arcR probR) := rfl
  obtain ⟨G, hG, -⟩ := C12_shipped isIter_toList hb (N := 16) le_rfl 4 h
  exact ⟨b, G, hG, C100_ties isIter_toList le_rfl h hG⟩

end Pot
