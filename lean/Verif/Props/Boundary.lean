import Verif.Model.Boundary
import Verif.Spec.Plane
import Mathlib.Analysis.SpecialFunctions.Trigonometric.Deriv
import Mathlib.Analysis.SpecialFunctions.Sqrt
import Mathlib.Analysis.Calculus.ContDiff.Basic
import Mathlib.Analysis.Calculus.Deriv.Inv
import Mathlib.Analysis.Real.Pi.Bounds
import Mathlib.Tactic.Linarith
import Mathlib.Tactic.Ring
import Mathlib.Tactic.FieldSimp
import Mathlib.Tactic.LinearCombination
import Mathlib.Tactic.Positivity

/-! # Properties C42–C47: the outer boundary curve and its coordinates -/

namespace Pot
open Real Spec

variable {r : ℝ → ℝ} {th : ℝ}

theorem dXth_eq (hr : DifferentiableAt ℝ r th) : dXth r th = deriv r th * cos th - r th * sin th := by
  unfold dXth
  rw [deriv_fun_mul hr (differentiable_cos th), Real.deriv_cos]; ring

theorem dYth_eq (hr : DifferentiableAt ℝ r th) : dYth r th = deriv r th * sin th + r th * cos th := by
  unfold dYth
  rw [deriv_fun_mul hr (differentiable_sin th), Real.deriv_sin]

theorem speed_sq (hr : DifferentiableAt ℝ r th) :
    dXth r th ^ 2 + dYth r th ^ 2 = r th ^ 2 + deriv r th ^ 2 := by
  rw [dXth_eq hr, dYth_eq hr]
  linear_combination (deriv r th ^ 2 + r th ^ 2) * sin_sq_add_cos_sq th

theorem speed_pos (hp : 0 < r th ^ 2 + deriv r th ^ 2) : 0 < √(r th ^ 2 + deriv r th ^ 2) :=
  Real.sqrt_pos.2 hp

/-- a curve of positive radius is regular -/
theorem regular_of_pos (hp : 0 < r th) : 0 < r th ^ 2 + deriv r th ^ 2 := by positivity

/-- **C45** tangent and normal at a regular point are orthonormal, and the tangent points in the direction of increasing
angle -/
theorem C45_frame (hr : DifferentiableAt ℝ r th) (hp : 0 < r th ^ 2 + deriv r th ^ 2) :
    let t := evalTangent r th
    let n := evalNormal r th
    t.1 ^ 2 + t.2 ^ 2 = 1 ∧ n.1 ^ 2 + n.2 ^ 2 = 1 ∧ t.1 * n.1 + t.2 * n.2 = 0 ∧
    ∃ σ, 0 < σ ∧ HasDerivAt (fun t => r t * cos t) (σ * t.1) th ∧
      HasDerivAt (fun t => r t * sin t) (σ * t.2) th := by
  have hs := speed_pos (r := r) hp
  have hsq : √(r th ^ 2 + deriv r th ^ 2) ^ 2 = r th ^ 2 + deriv r th ^ 2 := Real.sq_sqrt (by positivity)
  simp only [evalNormal, evalTangent]
  rw [speed_sq hr]
  set σ := √(r th ^ 2 + deriv r th ^ 2)
  have e : dXth r th ^ 2 + dYth r th ^ 2 = σ ^ 2 := by rw [speed_sq hr, hsq]
  have h1 : (dXth r th / σ) ^ 2 + (dYth r th / σ) ^ 2 = 1 := by
    field_simp; linarith
  refine ⟨h1, by linear_combination h1, by ring, σ, hs, ?_, ?_⟩
  · refine HasDerivAt.congr_deriv (hr.hasDerivAt.mul (hasDerivAt_cos th)) ?_
    rw [dXth_eq hr]; field_simp; ring
  · refine HasDerivAt.congr_deriv (hr.hasDerivAt.mul (hasDerivAt_sin th)) ?_
    rw [dYth_eq hr]; field_simp

/-- **C45** tangent and normal are orthonormal, the tangent points in the direction of increasing angle,
the normal is the tangent turned clockwise and has a positive component along the radius vector. -/
theorem C45_tangent_normal (hr : DifferentiableAt ℝ r th) (hp : 0 < r th) :
    let t := evalTangent r th
    let n := evalNormal r th
    t.1 ^ 2 + t.2 ^ 2 = 1 ∧ n.1 ^ 2 + n.2 ^ 2 = 1 ∧ t.1 * n.1 + t.2 * n.2 = 0 ∧
    0 < n.1 * cos th + n.2 * sin th ∧
    ∃ σ, 0 < σ ∧ HasDerivAt (fun t => r t * cos t) (σ * t.1) th ∧
      HasDerivAt (fun t => r t * sin t) (σ * t.2) th := by
  have hq := regular_of_pos (r := r) hp
  obtain ⟨h1, h2, h3, h4⟩ := C45_frame hr hq
  refine ⟨h1, h2, h3, ?_, h4⟩
  have hs := speed_pos (r := r) hq
  simp only [evalNormal, evalTangent]
  rw [speed_sq hr]
  set σ := √(r th ^ 2 + deriv r th ^ 2)
  have : dYth r th / σ * cos th + -(dXth r th / σ) * sin th = r th / σ := by
    rw [dXth_eq hr, dYth_eq hr]; field_simp
    linear_combination r th * sin_sq_add_cos_sq th
  rw [this]; positivity

/-- **C44** the code's curvature: the outward unit normal turns by `-curv` times the tangent per unit of
arclength (`ds/dth = √(r² + r'²)`). -/
theorem C44_curvature (hr1 : ∀ t, DifferentiableAt ℝ r t) (hr2 : DifferentiableAt ℝ (deriv r) th)
    (hp : ∀ t, 0 < r t ^ 2 + deriv r t ^ 2) :
    HasDerivAt (fun t => (evalNormal r t).1)
      (-curvTh r th * √(r th ^ 2 + deriv r th ^ 2) * (evalTangent r th).1) th ∧
    HasDerivAt (fun t => (evalNormal r t).2)
      (-curvTh r th * √(r th ^ 2 + deriv r th ^ 2) * (evalTangent r th).2) th := by
  have hfun1 : (fun t => (evalNormal r t).1) =
      fun t => (deriv r t * sin t + r t * cos t) / √(r t ^ 2 + deriv r t ^ 2) := by
    funext t; simp only [evalNormal, evalTangent]; rw [speed_sq (hr1 t), dYth_eq (hr1 t)]
  have hfun2 : (fun t => (evalNormal r t).2) =
      fun t => -((deriv r t * cos t - r t * sin t) / √(r t ^ 2 + deriv r t ^ 2)) := by
    funext t; simp only [evalNormal, evalTangent]; rw [speed_sq (hr1 t), dXth_eq (hr1 t)]
  have hs := speed_pos (r := r) (hp th)
  have hq0 := hp th
  have hsq : √(r th ^ 2 + deriv r th ^ 2) ^ 2 = r th ^ 2 + deriv r th ^ 2 := Real.sq_sqrt hq0.le
  have hpow : (r th ^ 2 + deriv r th ^ 2) ^ ((3 : ℝ) / 2) = √(r th ^ 2 + deriv r th ^ 2) ^ 3 := by
    rw [show ((3 : ℝ) / 2) = (1 / 2) * (3 : ℕ) by norm_num, Real.rpow_mul hq0.le, Real.rpow_natCast,
      ← Real.sqrt_eq_rpow]
  have d0 := (hr1 th).hasDerivAt
  have d1 := hr2.hasDerivAt
  have dq : HasDerivAt (fun t => r t ^ 2 + deriv r t ^ 2)
      (2 * r th * deriv r th + 2 * deriv r th * deriv (deriv r) th) th :=
    HasDerivAt.congr_deriv ((d0.fun_pow 2).fun_add (d1.fun_pow 2)) (by simp)
  have dσ := dq.sqrt hq0.ne'
  have dnum1 : HasDerivAt (fun t => deriv r t * sin t + r t * cos t)
      (deriv (deriv r) th * sin th + deriv r th * cos th + (deriv r th * cos th + r th * -sin th)) th :=
    (d1.fun_mul (hasDerivAt_sin th)).fun_add (d0.fun_mul (hasDerivAt_cos th))
  have dnum2 : HasDerivAt (fun t => deriv r t * cos t - r t * sin t)
      (deriv (deriv r) th * cos th + deriv r th * -sin th - (deriv r th * sin th + r th * cos th)) th :=
    (d1.fun_mul (hasDerivAt_cos th)).fun_sub (d0.fun_mul (hasDerivAt_sin th))
  have e1 : (evalTangent r th).1 = (deriv r th * cos th - r th * sin th) / √(r th ^ 2 + deriv r th ^ 2) := by
    simp only [evalTangent]; rw [speed_sq (hr1 th), dXth_eq (hr1 th)]
  have e2 : (evalTangent r th).2 = (deriv r th * sin th + r th * cos th) / √(r th ^ 2 + deriv r th ^ 2) := by
    simp only [evalTangent]; rw [speed_sq (hr1 th), dYth_eq (hr1 th)]
  rw [hfun1, hfun2, e1, e2]
  unfold curvTh d2Rth dRth
  rw [hpow]
  have D1 := dnum1.fun_div dσ hs.ne'
  have D2 := (dnum2.fun_div dσ hs.ne').fun_neg
  set σ := √(r th ^ 2 + deriv r th ^ 2)
  generalize deriv (deriv r) th = r2 at *
  generalize deriv r th = r1 at *
  generalize r th = r0 at *
  constructor
  · refine HasDerivAt.congr_deriv D1 ?_
    field_simp
    have : σ ^ 4 = (r0 ^ 2 + r1 ^ 2) ^ 2 := by rw [← hsq]; ring
    rw [hsq]; ring
  · refine HasDerivAt.congr_deriv D2 ?_
    field_simp
    rw [hsq]; ring

/-- the arc has curvature `-1/R` -/
theorem C44_arc {R : ℝ} (hR : 0 < R) (th : ℝ) : curvTh (arcR R) th = -1 / R := by
  have hd : deriv (arcR R) = fun _ => 0 := by funext t; unfold arcR; simp
  unfold curvTh d2Rth dRth
  rw [hd]
  have hpow : (R ^ 2 : ℝ) ^ ((3 : ℝ) / 2) = R ^ 3 := by
    rw [← Real.rpow_natCast R 2, ← Real.rpow_mul hR.le, ← Real.rpow_natCast R 3]; norm_num
  simp [arcR, hpow]
  field_simp

/-- the derivative of half the squared distance to the boundary point -/
theorem evalDistDeriv_eq (hr : DifferentiableAt ℝ r th) (x1 y1 : ℝ) :
    evalDistDeriv r x1 y1 th =
      -((x1 - r th * cos th) * dXth r th + (y1 - r th * sin th) * dYth r th) := by
  rw [dXth_eq hr, dYth_eq hr]; unfold evalDistDeriv dRth; ring

theorem evalDistDeriv_continuous (hr : ContDiff ℝ 1 r) (x1 y1 : ℝ) :
    Continuous (evalDistDeriv r x1 y1) := by
  have h0 : Continuous r := hr.continuous
  have h1 : Continuous (deriv r) := hr.continuous_deriv le_rfl
  unfold evalDistDeriv dRth
  fun_prop

theorem searchLo_le (a th1 : ℝ) (h1 : a / 2 ≤ th1) : searchLo a th1 ≤ th1 ∧ th1 - π / 7 ≤ searchLo a th1 ∧
    a / 2 ≤ searchLo a th1 := by
  have := pi_pos
  unfold searchLo; simp only; split_ifs with h <;> refine ⟨?_, ?_, ?_⟩ <;> linarith

theorem searchHi_ge (a th1 : ℝ) (h1 : th1 ≤ 2 * π + a / 2) : th1 ≤ searchHi a th1 ∧
    searchHi a th1 ≤ th1 + π / 7 ∧ searchHi a th1 ≤ 2 * π + a / 2 := by
  have := pi_pos
  unfold searchHi; simp only; split_ifs with h <;> refine ⟨?_, ?_, ?_⟩ <;> linarith

/-- **C46** boundary coordinates reconstruct the point. -/
theorem C46_reconstruct {b : Brentq} (hb : BrentqSpec b) (hr : ContDiff ℝ 1 r) (hp : ∀ t, 0 < r t ^ 2 + deriv r t ^ 2)
    {a r1 th1 : ℝ} (h1 : a / 2 ≤ th1) (h2 : th1 ≤ 2 * π + a / 2) {n th0 : ℝ}
    (h : getBoundaryCoord b a r r1 th1 = some (n, th0)) :
    polarPoint r1 th1 = ((polarPoint (r th0) th0).1 + n * (evalNormal r th0).1,
      (polarPoint (r th0) th0).2 + n * (evalNormal r th0).2) ∧
    |n| = dist2 (polarPoint r1 th1) (polarPoint (r th0) th0) ∧
    a / 2 ≤ th0 ∧ th0 ≤ 2 * π + a / 2 ∧ |th0 - th1| ≤ π / 7 := by
  obtain ⟨l1, l2, l3⟩ := searchLo_le a th1 h1
  obtain ⟨u1, u2, u3⟩ := searchHi_ge a th1 h2
  unfold getBoundaryCoord at h
  simp only at h
  set x1 := r1 * cos th1 with hx1
  set y1 := r1 * sin th1 with hy1
  rcases hq : b (evalDistDeriv r x1 y1) (searchLo a th1) (searchHi a th1) with _ | t
  · rw [hq] at h; simp at h
  rw [hq] at h
  simp only [Option.some.injEq, Prod.mk.injEq] at h
  obtain ⟨hn, rfl⟩ := h
  obtain ⟨b1, b2, b3⟩ := hb.root _ _ _ _ (l1.trans u1) (evalDistDeriv_continuous hr x1 y1).continuousOn hq
  have hd : DifferentiableAt ℝ r t := (hr.differentiable (by simp)) t
  obtain ⟨-, hN, -, σ, hσ, hT1, hT2⟩ := C45_frame hd (hp t)
  rw [evalDistDeriv_eq hd] at b3
  have ht1 : dXth r t = σ * (evalTangent r t).1 := hT1.deriv
  have ht2 : dYth r t = σ * (evalTangent r t).2 := hT2.deriv
  have hn1 : (evalNormal r t).1 = (evalTangent r t).2 := rfl
  have hn2 : (evalNormal r t).2 = -(evalTangent r t).1 := rfl
  rw [hn1, hn2] at hN hn ⊢
  set T1 := (evalTangent r t).1
  set T2 := (evalTangent r t).2
  set u := x1 - r t * cos t with hu
  set v := y1 - r t * sin t with hv
  have horth : u * T1 + v * T2 = 0 := by
    rw [ht1, ht2] at b3
    have : σ * (u * T1 + v * T2) = 0 := by linarith
    rcases mul_eq_zero.1 this with h | h
    · exact absurd h hσ.ne'
    · exact h
  -- u = d T2, v = -d T1 with d = T2 u - T1 v
  set d := T2 * u + -T1 * v with hdd
  have hud : u = d * T2 := by rw [hdd]; linear_combination (-u) * hN + T1 * horth
  have hvd : v = d * -T1 := by rw [hdd]; linear_combination (-v) * hN + T2 * horth
  have hnorm : √(u ^ 2 + v ^ 2) = |d| := by
    have : u ^ 2 + v ^ 2 = d ^ 2 := by
      have e : u ^ 2 + v ^ 2 = d ^ 2 * (T2 ^ 2 + (-T1) ^ 2) := by
        rw [show u ^ 2 = (d * T2) ^ 2 by rw [← hud], show v ^ 2 = (d * -T1) ^ 2 by rw [← hvd]]; ring
      rw [e, hN, mul_one]
    rw [this, Real.sqrt_sq_eq_abs]
  have hnd : n = d := by
    rw [hnorm] at hn
    rw [← hn]
    split_ifs with hlt
    · rw [abs_of_neg hlt, neg_neg]
    · rw [abs_of_nonneg (not_lt.1 hlt)]
  refine ⟨?_, ?_, by linarith, by linarith, abs_le.2 ⟨by linarith, by linarith⟩⟩
  · simp only [polarPoint, Prod.mk.injEq]
    rw [hnd, ← hud, ← hvd, hu, hv]
    constructor <;> ring
  · unfold dist2 polarPoint
    rw [hnd, ← hnorm]

theorem max_eq_searchLo (a th1 : ℝ) : max (a / 2) (th1 - π / 7) = searchLo a th1 := by
  simp only [searchLo]; split
  · rw [max_eq_left]; linarith
  · rw [max_eq_right]; linarith

theorem min_eq_searchHi (a th1 : ℝ) : min (2 * π + a / 2) (th1 + π / 7) = searchHi a th1 := by
  simp only [searchHi]; split
  · rw [min_eq_left]; linarith
  · rw [min_eq_right]; linarith

/-- **C46** it returns `None` exactly when the distance derivative has the same strict sign at both ends of
the search interval. -/
theorem C46_none {b : Brentq} (hb : BrentqSpec b) (r : ℝ → ℝ)
    {a r1 th1 : ℝ} (h1 : a / 2 ≤ th1) (h2 : th1 ≤ 2 * π + a / 2) :
    getBoundaryCoord b a r r1 th1 = none ↔
      0 < evalDistDeriv r (r1 * cos th1) (r1 * sin th1) (max (a / 2) (th1 - π / 7)) *
        evalDistDeriv r (r1 * cos th1) (r1 * sin th1) (min (2 * π + a / 2) (th1 + π / 7)) := by
  rw [max_eq_searchLo, min_eq_searchHi]
  obtain ⟨l1, l2, l3⟩ := searchLo_le a th1 h1
  obtain ⟨u1, u2, u3⟩ := searchHi_ge a th1 h2
  rw [← hb.fails _ _ _ (l1.trans u1)]
  unfold getBoundaryCoord
  simp only
  rcases hq : b (evalDistDeriv r (r1 * cos th1) (r1 * sin th1)) (searchLo a th1) (searchHi a th1) with _ | t <;>
    simp

theorem arc_distDeriv (R r1 th1 t : ℝ) :
    evalDistDeriv (arcR R) (r1 * cos th1) (r1 * sin th1) t = R * r1 * sin (t - th1) := by
  have hd : deriv (arcR R) t = 0 := by unfold arcR; simp
  unfold evalDistDeriv dRth
  rw [hd, sin_sub]; unfold arcR; ring

theorem arc_normal {R : ℝ} (hR : 0 < R) (t : ℝ) : evalNormal (arcR R) t = (cos t, sin t) := by
  have hd : deriv (arcR R) t = 0 := by unfold arcR; simp
  have hdiff : DifferentiableAt ℝ (arcR R) t := by unfold arcR; simp
  unfold evalNormal evalTangent
  simp only
  rw [speed_sq hdiff, dXth_eq hdiff, dYth_eq hdiff, hd]
  have : √(arcR R t ^ 2 + 0 ^ 2) = R := by
    unfold arcR; rw [show R ^ 2 + 0 ^ 2 = R ^ 2 by ring]; exact Real.sqrt_sq hR.le
  rw [this]; unfold arcR
  simp only [Prod.mk.injEq]
  constructor <;> field_simp <;> ring

/-- **C47** boundary coordinates for the arc. -/
theorem C47_arc {b : Brentq} (hb : BrentqSpec b) {R a r1 th1 : ℝ} (hR : 0 < R) (hr1 : 0 < r1)
    (h1 : a / 2 ≤ th1) (h2 : th1 ≤ 2 * π + a / 2) :
    getBoundaryCoord b a (arcR R) r1 th1 = some (r1 - R, th1) := by
  have hpi := pi_pos
  obtain ⟨l1, l2, l3⟩ := searchLo_le a th1 h1
  obtain ⟨u1, u2, u3⟩ := searchHi_ge a th1 h2
  have hcont : ContDiff ℝ 1 (arcR R) := contDiff_const
  rcases hq : getBoundaryCoord b a (arcR R) r1 th1 with _ | ⟨n, th0⟩
  · exfalso
    rw [C46_none hb _ h1 h2, max_eq_searchLo, min_eq_searchHi, arc_distDeriv, arc_distDeriv] at hq
    have s1 : sin (searchLo a th1 - th1) ≤ 0 :=
      sin_nonpos_of_nonpos_of_neg_pi_le (by linarith) (by linarith)
    have s2 : 0 ≤ sin (searchHi a th1 - th1) := sin_nonneg_of_nonneg_of_le_pi (by linarith) (by linarith)
    have hRr : 0 < R * r1 := by positivity
    nlinarith [mul_nonneg (mul_nonneg hRr.le hRr.le) (mul_nonneg (neg_nonneg.2 s1) s2)]
  · obtain ⟨hpt, -, -, -, hw⟩ := C46_reconstruct hb hcont (fun _ => regular_of_pos (r := arcR R) hR) h1 h2 hq
    have hroot : sin (th0 - th1) = 0 := by
      unfold getBoundaryCoord at hq
      simp only at hq
      rcases hq' : b (evalDistDeriv (arcR R) (r1 * cos th1) (r1 * sin th1)) (searchLo a th1) (searchHi a th1)
        with _ | t
      · rw [hq'] at hq; simp at hq
      · rw [hq'] at hq
        simp only [Option.some.injEq, Prod.mk.injEq] at hq
        obtain ⟨-, -, h3⟩ := hb.root _ _ _ _ (l1.trans u1)
          (evalDistDeriv_continuous hcont _ _).continuousOn hq'
        rw [arc_distDeriv, hq.2] at h3
        rcases mul_eq_zero.1 h3 with h | h
        · exact absurd h (by positivity)
        · exact h
    have hw' := abs_le.1 hw
    have ht : th0 = th1 := by
      have := (sin_eq_zero_iff_of_lt_of_lt (by linarith : -π < th0 - th1) (by linarith)).1 hroot
      linarith
    subst ht
    rw [arc_normal hR] at hpt
    simp only [polarPoint, Prod.mk.injEq, arcR] at hpt
    have hn : n = r1 - R := by
      have := sin_sq_add_cos_sq th0
      linear_combination (-cos th0) * hpt.1 + (-sin th0) * hpt.2 + (r1 - R - n) * this
    rw [hn]

/-- a root finder meeting the contract exists (choose a root), so C46/C47 are not vacuous -/
theorem exists_brentq : ∃ b : Brentq, BrentqSpec b := by
  classical
  refine ⟨fun f lo hi => if 0 < f lo * f hi then none else
    if h : ∃ t, lo ≤ t ∧ t ≤ hi ∧ f t = 0 then some h.choose else some lo, ?_, ?_⟩
  · intro f lo hi _
    by_cases h : 0 < f lo * f hi
    · simp [h]
    · simp only [h, if_false, iff_false]; split <;> simp
  · intro f lo hi t hle hc h
    by_cases h0 : 0 < f lo * f hi
    · simp [h0] at h
    · have hex : ∃ t, lo ≤ t ∧ t ≤ hi ∧ f t = 0 := by
        rcases le_total (f lo) 0 with hl | hl
        · rcases le_total 0 (f hi) with hh | hh
          · obtain ⟨t, ht, e⟩ := intermediate_value_Icc hle hc ⟨hl, hh⟩
            exact ⟨t, ht.1, ht.2, e⟩
          · have : f lo * f hi = 0 := le_antisymm (not_lt.1 h0) (by nlinarith)
            rcases mul_eq_zero.1 this with e | e
            · exact ⟨lo, le_rfl, hle, e⟩
            · exact ⟨hi, hle, le_rfl, e⟩
        · rcases le_total (f hi) 0 with hh | hh
          · obtain ⟨t, ht, e⟩ := intermediate_value_Icc' hle hc ⟨hh, hl⟩
            exact ⟨t, ht.1, ht.2, e⟩
          · have : f lo * f hi = 0 := le_antisymm (not_lt.1 h0) (by nlinarith)
            rcases mul_eq_zero.1 this with e | e
            · exact ⟨lo, le_rfl, hle, e⟩
            · exact ⟨hi, hle, le_rfl, e⟩
      simp only [h0, if_false, hex, dif_pos, Option.some.injEq] at h
      rw [← h]; exact hex.choose_spec

/-- speed of the boundary curve and its derivatives -/
theorem dSth_hasDerivAt (hr : ContDiff ℝ 4 r) (hp : ∀ t, 0 < r t ^ 2 + deriv r t ^ 2) :
    (∀ t, HasDerivAt (dSth r) (d2Sth r t) t) ∧ (∀ t, HasDerivAt (d2Sth r) (d3Sth r t) t) ∧
    (∀ t, HasDerivAt (d3Sth r) (d4Sth r t) t) := by
  have h1 : ContDiff ℝ 3 (deriv r) := (contDiff_succ_iff_deriv.1 (show ContDiff ℝ (3 + 1) r from hr)).2.2
  have h3 : ContDiff ℝ 3 (dSth r) := by
    unfold dSth dRth
    refine ContDiff.sqrt (((hr.of_le (by norm_num)).pow 2).add (h1.pow 2)) fun t => (hp t).ne'
  have h2' : ContDiff ℝ 2 (d2Sth r) := (contDiff_succ_iff_deriv.1 (show ContDiff ℝ (2 + 1) (dSth r) from h3)).2.2
  have h1' : ContDiff ℝ 1 (d3Sth r) := (contDiff_succ_iff_deriv.1 (show ContDiff ℝ (1 + 1) (d2Sth r) from h2')).2.2
  exact ⟨fun t => ((h3.differentiable (by norm_num)) t).hasDerivAt,
    fun t => ((h2'.differentiable (by norm_num)) t).hasDerivAt,
    fun t => ((h1'.differentiable (by norm_num)) t).hasDerivAt⟩

/-- **C43** the code's four derivatives of the polar angle with respect to arclength: `S` is an arclength
function of the curve (`dS/dth = √(r² + r'²)`) and `θ` its inverse. -/
theorem C43_angle_by_arclength (hr : ContDiff ℝ 4 r) (hp : ∀ t, 0 < r t ^ 2 + deriv r t ^ 2) {θ S : ℝ → ℝ}
    (hS : ∀ t, HasDerivAt S (√(r t ^ 2 + deriv r t ^ 2)) t) (hθ : Continuous θ) (hinv : ∀ s, S (θ s) = s)
    (s : ℝ) :
    HasDerivAt θ (dThs r (θ s)) s ∧
    HasDerivAt (deriv θ) (d2Ths r (θ s)) s ∧
    HasDerivAt (deriv (deriv θ)) (d3Ths r (θ s)) s ∧
    HasDerivAt (deriv (deriv (deriv θ))) (d4Ths r (θ s)) s := by
  obtain ⟨g1, g2, g3⟩ := dSth_hasDerivAt hr hp
  have hpos : ∀ t, 0 < dSth r t := fun t => speed_pos (hp t)
  have dθ : ∀ s, HasDerivAt θ (dThs r (θ s)) s := by
    intro s
    have := HasDerivAt.of_local_left_inverse (f := S) (g := θ) (a := s) hθ.continuousAt (hS (θ s))
      (speed_pos (hp (θ s))).ne' (Filter.Eventually.of_forall hinv)
    exact this.congr_deriv (by unfold dThs dSth dRth; rw [one_div])
  have c0 : ∀ s, HasDerivAt (fun s => dSth r (θ s)) (d2Sth r (θ s) * dThs r (θ s)) s :=
    fun s => (g1 (θ s)).comp s (dθ s)
  have c1 : ∀ s, HasDerivAt (fun s => d2Sth r (θ s)) (d3Sth r (θ s) * dThs r (θ s)) s :=
    fun s => (g2 (θ s)).comp s (dθ s)
  have c2 : ∀ s, HasDerivAt (fun s => d3Sth r (θ s)) (d4Sth r (θ s) * dThs r (θ s)) s :=
    fun s => (g3 (θ s)).comp s (dθ s)
  have p1 : ∀ s, HasDerivAt (fun s => dThs r (θ s)) (d2Ths r (θ s)) s := by
    intro s
    have := (c0 s).fun_inv (hpos (θ s)).ne'
    have e : (fun s => dThs r (θ s)) = fun s => (dSth r (θ s))⁻¹ := by
      funext s; unfold dThs; rw [one_div]
    rw [e]
    refine this.congr_deriv ?_
    unfold d2Ths dThs
    have := (hpos (θ s)).ne'
    field_simp
  have p2 : ∀ s, HasDerivAt (fun s => d2Ths r (θ s)) (d3Ths r (θ s)) s := by
    intro s
    refine HasDerivAt.congr_deriv ((c1 s).fun_neg.fun_mul ((p1 s).fun_pow 3)) ?_
    unfold d3Ths; push_cast; ring
  have p3 : ∀ s, HasDerivAt (fun s => d3Ths r (θ s)) (d4Ths r (θ s)) s := by
    intro s
    refine HasDerivAt.congr_deriv (((c2 s).fun_neg.fun_mul ((p1 s).fun_pow 4)).fun_sub
      (((((c1 s).const_mul 3)).fun_mul (p2 s)).fun_mul ((p1 s).fun_pow 2))) ?_
    unfold d4Ths; push_cast; ring
  have e1 : deriv θ = fun s => dThs r (θ s) := funext fun s => (dθ s).deriv
  have e2 : deriv (deriv θ) = fun s => d2Ths r (θ s) := by rw [e1]; exact funext fun s => (p1 s).deriv
  have e3 : deriv (deriv (deriv θ)) = fun s => d3Ths r (θ s) := by rw [e2]; exact funext fun s => (p2 s).deriv
  rw [e3, e2, e1]
  exact ⟨dθ s, p1 s, p2 s, p3 s⟩

/-- the hypotheses of C43 hold for the arc of radius 2: `S(θ) = 2θ` -/
example : (∀ t, HasDerivAt (fun t : ℝ => 2 * t) (√(arcR 2 t ^ 2 + deriv (arcR 2) t ^ 2)) t) ∧
    Continuous (fun s : ℝ => s / 2) ∧ (∀ s : ℝ, 2 * (s / 2) = s) := by
  refine ⟨fun t => ?_, by fun_prop, fun s => by ring⟩
  have hd : deriv (arcR 2) t = 0 := by unfold arcR; simp
  rw [hd]; unfold arcR
  have : √((2:ℝ) ^ 2 + 0 ^ 2) = 2 := by
    rw [show (2:ℝ) ^ 2 + 0 ^ 2 = 2 ^ 2 by ring]; exact Real.sqrt_sq (by norm_num)
  rw [this]
  simpa using (hasDerivAt_id t).const_mul 2

/-! ### C42: the shipped curves -/

theorem bNu_range {a th : ℝ} (ha2 : a < 2 * π) (h1 : a ≤ th) (h2 : th ≤ 2 * π) :
    0 ≤ bNu a * (th - a) ∧ bNu a * (th - a) ≤ π := by
  have hd : 0 < 2 * π - a := by linarith
  have hpi := pi_pos
  unfold bNu
  constructor
  · apply mul_nonneg (by positivity); linarith
  · rw [div_mul_eq_mul_div, div_le_iff₀ hd]
    apply mul_le_mul_of_nonneg_left _ hpi.le; linarith

theorem bNu_ends {a : ℝ} (ha2 : a < 2 * π) : bNu a * (a - a) = 0 ∧ bNu a * (2 * π - a) = π := by
  have hd : 2 * π - a ≠ 0 := by intro h; linarith
  unfold bNu
  constructor
  · ring
  · exact div_mul_cancel₀ π hd

/-- what the rest of the program needs of a boundary: through both wedge corners, positive, inside the circle
of radius `R + bet` -/
def Admissible (R bet a : ℝ) (r : ℝ → ℝ) : Prop :=
  r a = R ∧ r (2 * π) = R ∧ (∀ t, a ≤ t → t ≤ 2 * π → 0 < r t ∧ r t ≤ R + bet)

theorem C42_arc {R bet a : ℝ} (hR : 0 < R) (hb : 0 ≤ bet) : Admissible R bet a (arcR R) :=
  ⟨rfl, rfl, fun _ _ _ => ⟨hR, by unfold arcR; linarith⟩⟩

theorem C42_outerSine {R bet a : ℝ} (hR : 0 < R) (hb : 0 ≤ bet) (ha2 : a < 2 * π) :
    Admissible R bet a (outerSineR R bet a) := by
  obtain ⟨e1, e2⟩ := bNu_ends ha2
  refine ⟨by simp [outerSineR], by simp [outerSineR, e2], fun t h1 h2 => ?_⟩
  obtain ⟨l, u⟩ := bNu_range ha2 h1 h2
  have s0 := sin_nonneg_of_nonneg_of_le_pi l u
  have s1 := sin_le_one (bNu a * (t - a))
  unfold outerSineR
  constructor <;> nlinarith

theorem C42_innerSine {R bet a : ℝ} (hbR : bet < R) (hb : 0 ≤ bet) (ha2 : a < 2 * π) :
    Admissible R bet a (innerSineR R bet a) := by
  obtain ⟨e1, e2⟩ := bNu_ends ha2
  refine ⟨by simp [innerSineR], by simp [innerSineR, e2], fun t h1 h2 => ?_⟩
  obtain ⟨l, u⟩ := bNu_range ha2 h1 h2
  have s0 := sin_nonneg_of_nonneg_of_le_pi l u
  have s1 := sin_le_one (bNu a * (t - a))
  unfold innerSineR
  constructor <;> nlinarith

theorem C42_sine7 {R bet a : ℝ} (hbR : bet < R) (hb : 0 ≤ bet) (ha2 : a < 2 * π) :
    Admissible R bet a (sine7R R bet a) := by
  obtain ⟨e1, e2⟩ := bNu_ends ha2
  have e7 : sin (7 * bNu a * (2 * π - a)) = 0 := by
    rw [mul_assoc, e2]; exact_mod_cast sin_nat_mul_pi 7
  refine ⟨by simp [sine7R], by simp [sine7R, e7], fun t h1 h2 => ?_⟩
  have s0 := neg_one_le_sin (7 * bNu a * (t - a))
  have s1 := sin_le_one (7 * bNu a * (t - a))
  unfold sine7R
  constructor <;> nlinarith

theorem cubicC_pos : 0 < cubicC := by
  have : (9:ℝ) < √91 := by rw [show (9:ℝ) = √(9 ^ 2) by rw [Real.sqrt_sq (by norm_num)]]; exact Real.sqrt_lt_sqrt (by norm_num) (by norm_num)
  unfold cubicC
  have := pi_pos
  have : 0 < 91 * √91 - 136 := by linarith
  positivity

/-- the constant `cubic_C` is the exact maximum of the cubic's positive lobe for the wedge angle `π/6`,
and an upper bound for every wedge angle in `[π/6, π]` -/
theorem cubic_lobe {a t : ℝ} (ha : π / 6 ≤ a) (h1 : a ≤ t) :
    (t - a) * (t - π) * (t - 2 * π) ≤ cubicC ∨ 2 * π < t := by
  rcases lt_or_ge (2 * π) t with h | h2
  · exact Or.inr h
  left
  have hpi := pi_pos
  rcases le_or_gt π t with h | h
  · -- nonpositive part
    have : (t - a) * (t - π) * (t - 2 * π) ≤ 0 := by
      apply mul_nonpos_of_nonneg_of_nonpos
      · apply mul_nonneg <;> linarith
      · linarith
    linarith [cubicC_pos]
  · set s := √91 with hs
    have hs2 : s ^ 2 = 91 := Real.sq_sqrt (by norm_num)
    have hs9 : 9 < s := by
      rw [hs, show (9:ℝ) = √(9 ^ 2) by rw [Real.sqrt_sq (by norm_num)]]
      exact Real.sqrt_lt_sqrt (by norm_num) (by norm_num)
    obtain ⟨v, hv⟩ : ∃ v, t = π * (1 - v) := ⟨1 - t / π, by field_simp; ring⟩
    have hv0 : 0 < v := by
      by_contra hc
      have : t ≥ π := by rw [hv]; nlinarith
      linarith
    have step : (t - a) * (t - π) * (t - 2 * π) ≤ (t - π / 6) * (t - π) * (t - 2 * π) := by
      have : 0 < (t - π) * (t - 2 * π) := by nlinarith
      nlinarith
    refine step.trans ?_
    have e : (t - π / 6) * (t - π) * (t - 2 * π) = π ^ 3 * (v * (1 + v) * (5 / 6 - v)) := by rw [hv]; ring
    have key : (91 * s - 136) / 2916 - v * (1 + v) * (5 / 6 - v)
        = (v - (s - 1) / 18) ^ 2 * (v + (1 / 6 + 2 * ((s - 1) / 18))) := by
      linear_combination (-(s / 2916) + v / 108 + 1 / 1944) * hs2
    have : 0 ≤ (v - (s - 1) / 18) ^ 2 * (v + (1 / 6 + 2 * ((s - 1) / 18))) := by
      apply mul_nonneg (sq_nonneg _); linarith
    rw [e]; unfold cubicC
    rw [← hs]
    have h3 : 0 < π ^ 3 := by positivity
    nlinarith

theorem C42_cubic {R bet a : ℝ} (hbR : 2 * bet < R) (hb : 0 ≤ bet) (ha : π / 6 ≤ a) :
    Admissible R bet a (cubicR R bet a) := by
  have hpi := pi_pos
  have hC := cubicC_pos
  refine ⟨by simp [cubicR], by simp [cubicR], fun t h1 h2 => ?_⟩
  have hup : (t - a) * (t - π) * (t - 2 * π) ≤ cubicC := by
    rcases cubic_lobe ha h1 with h | h
    · exact h
    · linarith
  have hC4 : π ^ 3 / 4 ≤ cubicC := by
    have hs95 : (9.53:ℝ) < √91 := by
      rw [show (9.53:ℝ) = √(9.53 ^ 2) by rw [Real.sqrt_sq (by norm_num)]]
      exact Real.sqrt_lt_sqrt (by norm_num) (by norm_num)
    unfold cubicC
    have : 0 < π ^ 3 := by positivity
    nlinarith
  have hlo : -(2 * cubicC) ≤ (t - a) * (t - π) * (t - 2 * π) := by
    rcases le_or_gt t π with h | h
    · have : 0 ≤ (t - a) * (t - π) * (t - 2 * π) := by
        have h' : 0 ≤ (t - π) * (t - 2 * π) := by nlinarith
        nlinarith
      linarith
    · have hq : (t - π) * (2 * π - t) ≤ π ^ 2 / 4 := by nlinarith [sq_nonneg (t - π - (2 * π - t))]
      have hq0 : 0 ≤ (t - π) * (2 * π - t) := by apply mul_nonneg <;> linarith
      have : (t - a) * ((t - π) * (2 * π - t)) ≤ (2 * π) * (π ^ 2 / 4) := by
        apply mul_le_mul _ hq hq0 (by positivity)
        linarith
      nlinarith
  have e : cubicR R bet a t = R + bet * ((t - a) * (t - π) * (t - 2 * π) / cubicC) := by
    unfold cubicR; field_simp
  have hu : (t - a) * (t - π) * (t - 2 * π) / cubicC ≤ 1 := by rw [div_le_one hC]; exact hup
  have hl : -2 ≤ (t - a) * (t - π) * (t - 2 * π) / cubicC := by
    rw [le_div_iff₀ hC]; linarith
  rw [e]
  constructor <;> nlinarith

/-- **C42** all five shipped boundaries with their shipped parameters (`R = 2.3`, `a = π/4`, the `bet0` of
each class) are admissible, and `R + bet` is below half the side `2π` of the auxiliary square by more than one
mesh width for every `N ≥ 20`. -/
theorem C42_shipped :
    Admissible 2.3 0 (π / 4) (arcR 2.3) ∧
    Admissible 2.3 0.15 (π / 4) (outerSineR 2.3 0.15 (π / 4)) ∧
    Admissible 2.3 0.5 (π / 4) (innerSineR 2.3 0.5 (π / 4)) ∧
    Admissible 2.3 0.025 (π / 4) (sine7R 2.3 0.025 (π / 4)) ∧
    Admissible 2.3 0.075 (π / 4) (cubicR 2.3 0.075 (π / 4)) ∧
    (∀ bet ∈ ({0, 0.15, 0.5, 0.025, 0.075} : Set ℝ), ∀ N : ℕ, 20 ≤ N →
      2.3 + bet < 2 * π / 2 - 2 * π / N) := by
  have hpi := pi_gt_d2
  have hpi2 := pi_lt_d2
  refine ⟨C42_arc (by norm_num) le_rfl, C42_outerSine (by norm_num) (by norm_num) (by linarith),
    C42_innerSine (by norm_num) (by norm_num) (by linarith),
    C42_sine7 (by norm_num) (by norm_num) (by linarith),
    C42_cubic (by norm_num) (by norm_num) (by linarith), ?_⟩
  intro bet hbet N hN
  have hN' : (20:ℝ) ≤ N := by exact_mod_cast hN
  have hb : bet ≤ 0.5 := by
    simp only [Set.mem_insert_iff, Set.mem_singleton_iff] at hbet
    rcases hbet with h | h | h | h | h <;> rw [h] <;> norm_num
  have : 2 * π / N ≤ 2 * 3.15 / 20 := by
    apply div_le_div₀ <;> linarith
  norm_num at this ⊢
  linarith

end Pot
