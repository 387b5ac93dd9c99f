import Verif.Props.Coord
import Verif.Spec.Segments
import Mathlib.Analysis.Calculus.Deriv.Basic
import Mathlib.Topology.Order.IntermediateValue
import Mathlib.Tactic.FunProp
import Mathlib.Tactic.Positivity

/-! # Geometry of the circular-arc domain -/

namespace Pot
open Real Spec

/-- Cartesian description of the domain bounded by the arc -/
theorem arc_domain {a R : ℝ} (ha : 0 < a) (haπ : a < π) (hR : 0 ≤ R) (x y : ℝ) :
    (x, y) ∈ Domain a (fun _ => R) ↔ x ^ 2 + y ^ 2 ≤ R ^ 2 ∧ (y ≤ 0 ∨ x * sin a - y * cos a ≤ 0) := by
  constructor
  · rintro ⟨ρ, t, h1, h2, h3, h4, h5⟩
    simp only [polarPoint, Prod.mk.injEq] at h5
    obtain ⟨rfl, rfl⟩ := h5
    constructor
    · have : (ρ * cos t) ^ 2 + (ρ * sin t) ^ 2 = ρ ^ 2 := by
        linear_combination ρ ^ 2 * sin_sq_add_cos_sq t
      rw [this]; exact pow_le_pow_left₀ h3 h4 2
    · rcases le_or_gt t (π + a) with h | h
      · right
        have hs : 0 ≤ sin (t - a) := sin_nonneg_of_nonneg_of_le_pi (by linarith) (by linarith)
        have : ρ * cos t * sin a - ρ * sin t * cos a = -(ρ * sin (t - a)) := by rw [sin_sub]; ring
        rw [this]; have := mul_nonneg h3 hs; linarith
      · left
        have hs : sin t ≤ 0 := by
          have : sin t = sin (t - 2 * π) := (sin_sub_two_pi t).symm
          rw [this]; exact sin_nonpos_of_nonpos_of_neg_pi_le (by linarith) (by linarith)
        nlinarith
  · rintro ⟨h1, h2⟩
    obtain ⟨g1, g2, g3, g4, g5⟩ := C01_cart_to_polar x y
    set ρ := (cartToPolar x y).1
    set t := (cartToPolar x y).2
    have hρ : ρ ≤ R := by
      have : ρ ^ 2 = x ^ 2 + y ^ 2 := by rw [← g4, ← g5]; linear_combination (-ρ ^ 2) * sin_sq_add_cos_sq t
      exact abs_le_of_sq_le_sq' (by rw [this]; exact h1) hR |>.2
    by_cases hat : a ≤ t
    · exact ⟨ρ, t, hat, g3, g1, hρ, by simp [polarPoint, g4, g5]⟩
    · rcases g1.lt_or_eq with hp | hp
      · exfalso
        have s1 : 0 < sin t := sin_pos_of_pos_of_lt_pi g2 (by linarith)
        have s2 : 0 < sin (a - t) := sin_pos_of_pos_of_lt_pi (by linarith) (by linarith)
        rcases h2 with h | h
        · rw [← g5] at h; have := mul_pos hp s1; linarith
        · have e : x * sin a - y * cos a = ρ * sin (a - t) := by rw [← g4, ← g5, sin_sub]; ring
          rw [e] at h; have := mul_pos hp s2; linarith
      · refine ⟨0, a, le_rfl, by linarith [pi_pos], le_rfl, hR, ?_⟩
        simp [polarPoint, ← g4, ← g5, ← hp]

/-- a point of the closed disk on one of the two wedge half-planes' edges, or on the circle -/
theorem arc_edge {a R : ℝ} (ha : 0 < a) (haπ : a < π) (hR : 0 ≤ R) (x y : ℝ)
    (h : max (x ^ 2 + y ^ 2 - R ^ 2) (min y (x * sin a - y * cos a)) = 0) :
    ∃ sid, (x, y) ∈ Segment a R (fun _ => R) sid := by
  have hs := sin_pos_of_pos_of_lt_pi ha haπ
  rcases max_cases (x ^ 2 + y ^ 2 - R ^ 2) (min y (x * sin a - y * cos a)) with ⟨e, h'⟩ | ⟨e, h'⟩
  · rw [e] at h
    have hmin : min y (x * sin a - y * cos a) ≤ 0 := by linarith
    have hd : (x, y) ∈ Domain a (fun _ => R) := by
      rw [arc_domain ha haπ hR]; exact ⟨by linarith, min_le_iff.1 hmin⟩
    obtain ⟨ρ, t, h1, h2, h3, h4, h5⟩ := hd
    have hxy := h5
    simp only [polarPoint, Prod.mk.injEq] at h5
    have : ρ ^ 2 = R ^ 2 := by
      have : ρ ^ 2 = x ^ 2 + y ^ 2 := by rw [h5.1, h5.2]; linear_combination (-ρ ^ 2) * sin_sq_add_cos_sq t
      linarith
    have hρ : ρ = R := by
      rcases sq_eq_sq_iff_eq_or_eq_neg.1 this with h | h
      · exact h
      · linarith
    exact ⟨0, t, h1, h2, by rw [hxy, hρ]⟩
  · rw [e] at h
    have hR2 : x ^ 2 + y ^ 2 ≤ R ^ 2 := by linarith
    rcases min_cases y (x * sin a - y * cos a) with ⟨e2, h2⟩ | ⟨e2, h2⟩
    · rw [e2] at h
      subst h
      have hx : 0 ≤ x := by
        by_contra hc; push Not at hc
        have : x * sin a < 0 := mul_neg_of_neg_of_pos hc hs
        linarith
      refine ⟨1, x, hx, ?_, rfl⟩
      exact (abs_le_of_sq_le_sq' (by linarith) hR).2
    · rw [e2] at h
      have hw : x * sin a = y * cos a := by linarith
      have hc := sin_sq_add_cos_sq a
      have hts : (x * cos a + y * sin a) * sin a = y := by linear_combination cos a * hw + y * hc
      have htc : (x * cos a + y * sin a) * cos a = x := by linear_combination (-sin a) * hw + x * hc
      have ht2 : (x * cos a + y * sin a) ^ 2 ≤ R ^ 2 := by
        have : (x * cos a + y * sin a) ^ 2 = x ^ 2 + y ^ 2 := by
          linear_combination (-(x * sin a - y * cos a)) * hw + (x ^ 2 + y ^ 2) * hc
        linarith
      refine ⟨2, x * cos a + y * sin a, ?_, (abs_le_of_sq_le_sq' ht2 hR).2, ?_⟩
      · by_contra hc'; push Not at hc'
        have := mul_neg_of_neg_of_pos hc' hs
        linarith
      · simp [polarPoint, hts, htc]

/-- a straight path from inside to outside crosses one of the three segments -/
theorem arc_crossing {a R : ℝ} (ha : 0 < a) (haπ : a < π) (hR : 0 ≤ R) {P Q : ℝ × ℝ}
    (hP : P ∈ Domain a (fun _ => R)) (hQ : Q ∉ Domain a (fun _ => R)) :
    ∃ b sid, b ∈ Segment a R (fun _ => R) sid ∧ dist2 P b ≤ dist2 P Q ∧ dist2 Q b ≤ dist2 P Q := by
  let X : ℝ → ℝ := fun s => P.1 + s * (Q.1 - P.1)
  let Y : ℝ → ℝ := fun s => P.2 + s * (Q.2 - P.2)
  let φ : ℝ → ℝ := fun s => max (X s ^ 2 + Y s ^ 2 - R ^ 2) (min (Y s) (X s * sin a - Y s * cos a))
  have hφ : Continuous φ := by
    simp only [φ, X, Y]; fun_prop
  have h0 : φ 0 ≤ 0 := by
    have := (arc_domain ha haπ hR P.1 P.2).1 hP
    simp only [φ, X, Y, zero_mul, add_zero]
    exact max_le (by linarith [this.1]) (min_le_iff.2 this.2)
  have h1 : 0 ≤ φ 1 := by
    have := mt (arc_domain ha haπ hR Q.1 Q.2).2 hQ
    have e1 : X 1 = Q.1 := by simp [X]
    have e2 : Y 1 = Q.2 := by simp [Y]
    simp only [φ, e1, e2]
    by_contra hc
    push Not at hc
    rw [max_lt_iff] at hc
    exact this ⟨by linarith [hc.1], by
      rcases min_lt_iff.1 hc.2 with h | h
      · exact Or.inl h.le
      · exact Or.inr h.le⟩
  obtain ⟨s, hs, hs0⟩ := intermediate_value_Icc (zero_le_one) hφ.continuousOn ⟨h0, h1⟩
  obtain ⟨sid, hseg⟩ := arc_edge ha haπ hR (X s) (Y s) hs0
  refine ⟨(X s, Y s), sid, hseg, ?_, ?_⟩
  · unfold dist2
    apply Real.sqrt_le_sqrt
    have e : (P.1 - X s) ^ 2 + (P.2 - Y s) ^ 2 = s ^ 2 * ((P.1 - Q.1) ^ 2 + (P.2 - Q.2) ^ 2) := by
      simp only [X, Y]; ring
    rw [e]
    have : s ^ 2 ≤ 1 := by nlinarith [hs.1, hs.2]
    nlinarith [sq_nonneg (P.1 - Q.1), sq_nonneg (P.2 - Q.2)]
  · unfold dist2
    apply Real.sqrt_le_sqrt
    have e : (Q.1 - X s) ^ 2 + (Q.2 - Y s) ^ 2 = (1 - s) ^ 2 * ((P.1 - Q.1) ^ 2 + (P.2 - Q.2) ^ 2) := by
      simp only [X, Y]; ring
    rw [e]
    have : (1 - s) ^ 2 ≤ 1 := by nlinarith [hs.1, hs.2]
    nlinarith [sq_nonneg (P.1 - Q.1), sq_nonneg (P.2 - Q.2)]

/-- squared distance from a polar point to a point of the circle -/
theorem dist_sq_polar (r t R s : ℝ) :
    ((r * cos t) - (R * cos s)) ^ 2 + ((r * sin t) - (R * sin s)) ^ 2 = r ^ 2 + R ^ 2 - 2 * r * R * cos (t - s) := by
  rw [cos_sub]
  linear_combination r ^ 2 * sin_sq_add_cos_sq t + R ^ 2 * sin_sq_add_cos_sq s

theorem cos_le_of_mem {d u : ℝ} (hd : 0 ≤ d) (h1 : d ≤ u) (h2 : u ≤ 2 * π - d) : cos u ≤ cos d := by
  rcases le_or_gt u π with h | h
  · exact cos_le_cos_of_nonneg_of_le_pi hd h h1
  · have : cos u = cos (2 * π - u) := (cos_two_pi_sub u).symm
    rw [this]; exact cos_le_cos_of_nonneg_of_le_pi hd (by linarith) (by linarith)

/-- distance from the point with polar coordinates `(r, t)` in the solver's window to the arc -/
theorem arc_dist {a R r t : ℝ} (haπ : a < π) (hR : 0 < R) (hr : 0 ≤ r) (h1 : a / 2 ≤ t)
    (h2 : t ≤ 2 * π + a / 2) :
    IsDistTo (polarPoint r t) (Segment a R (fun _ => R) 0)
      (if t > 2 * π then dist2 (polarPoint r t) (R, 0)
       else if t < a then dist2 (polarPoint r t) (polarPoint R a) else |r - R|) := by
  have hpi := pi_pos
  have hrR : 0 ≤ 2 * r * R := by positivity
  have key : ∀ s s', cos (t - s') ≤ cos (t - s) →
      dist2 (polarPoint r t) (polarPoint R s) ≤ dist2 (polarPoint r t) (polarPoint R s') := by
    intro s s' h
    unfold dist2 polarPoint
    apply Real.sqrt_le_sqrt
    simp only
    rw [dist_sq_polar, dist_sq_polar]
    have := mul_le_mul_of_nonneg_left h hrR
    linarith
  split_ifs with c1 c2
  · have e : ((R, 0) : ℝ × ℝ) = polarPoint R (2 * π) := by simp [polarPoint]
    rw [e]
    refine ⟨⟨_, ⟨2 * π, by linarith, le_rfl, rfl⟩, rfl⟩, ?_⟩
    rintro q ⟨s, hs1, hs2, rfl⟩
    apply key
    exact cos_le_of_mem (by linarith) (by linarith) (by linarith)
  · refine ⟨⟨_, ⟨a, le_rfl, by linarith, rfl⟩, rfl⟩, ?_⟩
    rintro q ⟨s, hs1, hs2, rfl⟩
    apply key
    rw [← cos_neg (t - s), ← cos_neg (t - a)]
    exact cos_le_of_mem (by linarith) (by linarith) (by linarith)
  · push Not at c1 c2
    refine ⟨⟨polarPoint R t, ⟨t, c2, c1, rfl⟩, ?_⟩, ?_⟩
    · unfold dist2 polarPoint
      simp only
      rw [dist_sq_polar, sub_self, cos_zero, show r ^ 2 + R ^ 2 - 2 * r * R * 1 = (r - R) ^ 2 by ring,
        Real.sqrt_sq_eq_abs]
    · rintro q ⟨s, hs1, hs2, rfl⟩
      unfold dist2 polarPoint
      simp only
      rw [dist_sq_polar, ← Real.sqrt_sq_eq_abs]
      apply Real.sqrt_le_sqrt
      have := mul_le_mul_of_nonneg_left (cos_le_one (t - s)) hrR
      nlinarith

/-- distance to the lower wedge side -/
theorem seg1_dist (a R : ℝ) (rb : ℝ → ℝ) (hR : 0 ≤ R) (x y : ℝ) :
    IsDistTo (x, y) (Segment a R rb 1)
      (if x < 0 then dist2 (x, y) (0, 0) else if x > R then dist2 (x, y) (R, 0) else |y|) := by
  split_ifs with c1 c2
  · refine ⟨⟨_, ⟨0, le_rfl, hR, rfl⟩, rfl⟩, ?_⟩
    rintro q ⟨t, h1, h2, rfl⟩
    apply Real.sqrt_le_sqrt; simp only; nlinarith
  · refine ⟨⟨_, ⟨R, hR, le_rfl, rfl⟩, rfl⟩, ?_⟩
    rintro q ⟨t, h1, h2, rfl⟩
    apply Real.sqrt_le_sqrt; simp only; nlinarith
  · push Not at c1 c2
    refine ⟨⟨_, ⟨x, c1, c2, rfl⟩, ?_⟩, ?_⟩
    · unfold dist2; simp [Real.sqrt_sq_eq_abs]
    · rintro q ⟨t, h1, h2, rfl⟩
      rw [← Real.sqrt_sq_eq_abs]
      apply Real.sqrt_le_sqrt; simp only; nlinarith [sq_nonneg (x - t)]

theorem dist_sq_ray (x y t a : ℝ) :
    (x - t * cos a) ^ 2 + (y - t * sin a) ^ 2 =
      ((x * cos a + y * sin a) - t) ^ 2 + (x * sin a - y * cos a) ^ 2 := by
  linear_combination (t ^ 2 - x ^ 2 - y ^ 2) * sin_sq_add_cos_sq a

/-- distance to the upper wedge side -/
theorem seg2_dist {a R : ℝ} (rb : ℝ → ℝ) (hR : 0 ≤ R) (x y : ℝ) :
    IsDistTo (x, y) (Segment a R rb 2)
      (if x * cos a + y * sin a < 0 then dist2 (x, y) (0, 0)
       else if x * cos a + y * sin a > R then dist2 (x, y) (polarPoint R a)
       else |x * sin a - y * cos a|) := by
  have hz : ((0, 0) : ℝ × ℝ) = polarPoint 0 a := by simp [polarPoint]
  split_ifs with c1 c2
  · rw [hz]
    refine ⟨⟨_, ⟨0, le_rfl, hR, rfl⟩, rfl⟩, ?_⟩
    rintro q ⟨t, h1, h2, rfl⟩
    unfold dist2 polarPoint
    apply Real.sqrt_le_sqrt; simp only
    rw [dist_sq_ray, dist_sq_ray]; nlinarith
  · refine ⟨⟨_, ⟨R, hR, le_rfl, rfl⟩, rfl⟩, ?_⟩
    rintro q ⟨t, h1, h2, rfl⟩
    unfold dist2 polarPoint
    apply Real.sqrt_le_sqrt; simp only
    rw [dist_sq_ray, dist_sq_ray]; nlinarith
  · push Not at c1 c2
    refine ⟨⟨_, ⟨x * cos a + y * sin a, c1, c2, rfl⟩, ?_⟩, ?_⟩
    · unfold dist2 polarPoint
      simp only
      rw [dist_sq_ray, sub_self, show (0:ℝ) ^ 2 = 0 by norm_num, zero_add, Real.sqrt_sq_eq_abs]
    · rintro q ⟨t, h1, h2, rfl⟩
      unfold dist2 polarPoint
      simp only
      rw [dist_sq_ray, ← Real.sqrt_sq_eq_abs]
      apply Real.sqrt_le_sqrt
      nlinarith [sq_nonneg (x * cos a + y * sin a - t)]

end Pot
