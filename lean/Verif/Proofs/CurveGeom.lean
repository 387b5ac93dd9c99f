import Verif.Proofs.Place
import Mathlib.Topology.Order.Compact
import Mathlib.Topology.Connected.Basic
import Mathlib.Analysis.Calculus.MeanValue
import Mathlib.Analysis.Calculus.Deriv.MeanValue
import Mathlib.Topology.Algebra.Order.LiminfLimsup

/-! # Geometry of the domain below an arbitrary outer curve -/

namespace Pot
open Real Spec

/-- every point of the plane has polar coordinates in the solver's window -/
theorem polar_window {a : ℝ} (ha : 0 < a) (ha4 : a ≤ 4 * π) (p : ℝ × ℝ) :
    ∃ ρ t, 0 ≤ ρ ∧ a / 2 ≤ t ∧ t ≤ 2 * π + a / 2 ∧ p = polarPoint ρ t := by
  obtain ⟨g1, g2, g3, g4, g5⟩ := C01_cart_to_polar p.1 p.2
  by_cases h : (cartToPolar p.1 p.2).2 < a / 2
  · refine ⟨_, (cartToPolar p.1 p.2).2 + 2 * π, g1, by linarith [pi_pos], by linarith, ?_⟩
    unfold polarPoint
    rw [cos_add_two_pi, sin_add_two_pi, g4, g5]
  · refine ⟨_, _, g1, not_lt.1 h, by linarith, ?_⟩
    unfold polarPoint
    rw [g4, g5]

theorem polarPoint_norm {ρ : ℝ} (hρ : 0 ≤ ρ) (t : ℝ) : √((polarPoint ρ t).1 ^ 2 + (polarPoint ρ t).2 ^ 2) = ρ := by
  unfold polarPoint
  simp only
  rw [show (ρ * cos t) ^ 2 + (ρ * sin t) ^ 2 = ρ ^ 2 by linear_combination ρ ^ 2 * sin_sq_add_cos_sq t]
  exact Real.sqrt_sq hρ

/-- two angles of the same direction, less than a full turn apart, are equal -/
theorem angle_unique {ρ ρ' t t' : ℝ} (hρ : 0 < ρ) (hρ' : 0 ≤ ρ') (h : polarPoint ρ t = polarPoint ρ' t')
    (h1 : t - t' < 2 * π) (h2 : t' - t < 2 * π) : ρ = ρ' ∧ t = t' := by
  have e : ρ = ρ' := by rw [← polarPoint_norm hρ.le t, h, polarPoint_norm hρ' t']
  subst e
  refine ⟨rfl, ?_⟩
  unfold polarPoint at h
  simp only [Prod.mk.injEq] at h
  have c := mul_left_cancel₀ hρ.ne' h.1
  have s := mul_left_cancel₀ hρ.ne' h.2
  have hc : cos (t - t') = 1 := by
    rw [cos_sub, c, s]; linear_combination sin_sq_add_cos_sq t'
  have := (cos_eq_one_iff_of_lt_of_lt (by linarith) h1).1 hc
  linarith

/-- a straight path from inside to outside crosses one of the three segments -/
theorem curve_crossing_on {a R : ℝ} {r : ℝ → ℝ} (ha : 0 < a) (haπ : a < π) (hR : 0 ≤ R) (hr : Continuous r) (hra : r a = R)
    (hr2 : r (2 * π) = R) {P Q : ℝ × ℝ} (hP : P ∈ Domain a r) (hQ : Q ∉ Domain a r) :
    ∃ s ∈ Set.Icc (0 : ℝ) 1, ∃ sid, (P.1 + s * (Q.1 - P.1), P.2 + s * (Q.2 - P.2)) ∈ Segment a R r sid := by
  have hpi := pi_pos
  let Z : ℝ → ℝ × ℝ := fun s => (P.1 + s * (Q.1 - P.1), P.2 + s * (Q.2 - P.2))
  have hZ : Continuous Z := by simp only [Z]; fun_prop
  have hpolar : Continuous fun p : ℝ × ℝ => polarPoint p.1 p.2 := by unfold polarPoint; fun_prop
  -- a bound for the path
  obtain ⟨M, hM⟩ := (isCompact_Icc (a := (0:ℝ)) (b := 1)).exists_bound_of_continuousOn
    (f := fun s => √((Z s).1 ^ 2 + (Z s).2 ^ 2)) (by fun_prop)
  have hM' : ∀ s ∈ Set.Icc (0:ℝ) 1, √((Z s).1 ^ 2 + (Z s).2 ^ 2) ≤ M := fun s hs => (le_abs_self _).trans (hM s hs)
  -- the domain is compact
  let K : Set (ℝ × ℝ) := (Set.Icc 0 M ×ˢ Set.Icc a (2 * π)) ∩ {p | p.1 ≤ r p.2}
  let K' : Set (ℝ × ℝ) := (Set.Icc 0 M ×ˢ Set.Icc (a / 2) (2 * π + a / 2)) ∩ {p | p.2 ≤ a ∨ 2 * π ≤ p.2 ∨ r p.2 ≤ p.1}
  have hK : IsCompact K := (isCompact_Icc.prod isCompact_Icc).inter_right
    (isClosed_le continuous_fst (hr.comp continuous_snd))
  have hK' : IsCompact K' := by
    refine (isCompact_Icc.prod isCompact_Icc).inter_right ?_
    have : {p : ℝ × ℝ | p.2 ≤ a ∨ 2 * π ≤ p.2 ∨ r p.2 ≤ p.1} =
        {p | p.2 ≤ a} ∪ ({p | 2 * π ≤ p.2} ∪ {p | r p.2 ≤ p.1}) := rfl
    rw [this]
    exact (isClosed_le continuous_snd continuous_const).union ((isClosed_le continuous_const continuous_snd).union
      (isClosed_le (hr.comp continuous_snd) continuous_fst))
  set A : Set ℝ := Z ⁻¹' ((fun p : ℝ × ℝ => polarPoint p.1 p.2) '' K) with hA
  set B : Set ℝ := Z ⁻¹' ((fun p : ℝ × ℝ => polarPoint p.1 p.2) '' K') with hB
  have cA : IsClosed A := (hK.image hpolar).isClosed.preimage hZ
  have cB : IsClosed B := (hK'.image hpolar).isClosed.preimage hZ
  have memA : ∀ s ∈ Set.Icc (0:ℝ) 1, Z s ∈ Domain a r → s ∈ A := by
    rintro s hs ⟨ρ, t, h1, h2, h3, h4, h5⟩
    refine ⟨(ρ, t), ⟨⟨⟨h3, ?_⟩, h1, h2⟩, h4⟩, h5.symm⟩
    have := hM' s hs
    rw [h5, polarPoint_norm h3] at this
    exact this
  have memB : ∀ s ∈ Set.Icc (0:ℝ) 1, Z s ∉ Domain a r → s ∈ B := by
    intro s hs hn
    obtain ⟨ρ, t, h1, h2, h3, h4⟩ := polar_window ha (by linarith) (Z s)
    refine ⟨(ρ, t), ⟨⟨⟨h1, ?_⟩, h2, h3⟩, ?_⟩, h4.symm⟩
    · have := hM' s hs
      rw [h4, polarPoint_norm h1] at this
      exact this
    · show t ≤ a ∨ 2 * π ≤ t ∨ r t ≤ ρ
      by_contra hc
      push Not at hc
      exact hn ⟨ρ, t, hc.1.le, hc.2.1.le, h1, hc.2.2.le, h4⟩
  obtain ⟨s, hs, hsA, hsB⟩ := (isPreconnected_closed_iff.1 (isPreconnected_Icc (a := (0:ℝ)) (b := 1))) A B cA cB
    (fun s hs => by
      by_cases h : Z s ∈ Domain a r
      · exact Or.inl (memA s hs h)
      · exact Or.inr (memB s hs h))
    ⟨0, by simp, memA 0 (by simp) (by simpa [Z] using hP)⟩ ⟨1, by simp, memB 1 (by simp) (by simpa [Z] using hQ)⟩
  obtain ⟨⟨ρ, t⟩, ⟨⟨⟨k1, -⟩, k3, k4⟩, k5⟩, k6⟩ := hsA
  obtain ⟨⟨ρ', t'⟩, ⟨⟨⟨l1, -⟩, l3, l4⟩, l5⟩, l6⟩ := hsB
  simp only at k1 k3 k4 k5 k6 l1 l3 l4 l5 l6
  change ρ ≤ r t at k5
  change t' ≤ a ∨ 2 * π ≤ t' ∨ r t' ≤ ρ' at l5
  refine ⟨s, hs, ?_⟩
  change ∃ sid, Z s ∈ Segment a R r sid
  rcases k1.lt_or_eq with hpos | hz
  · obtain ⟨rfl, rfl⟩ := angle_unique hpos l1 (k6.trans l6.symm) (by linarith) (by linarith)
    rcases l5 with h | h | h
    · have : t = a := le_antisymm h k3
      subst this
      exact ⟨2, ρ, k1, hra ▸ k5, k6.symm⟩
    · have : t = 2 * π := le_antisymm k4 h
      subst this
      exact ⟨1, ρ, k1, hr2 ▸ k5, by rw [← k6]; simp [polarPoint]⟩
    · exact ⟨0, t, k3, k4, by rw [← k6, le_antisymm k5 h]⟩
  · exact ⟨1, 0, le_rfl, hR, by rw [← k6, ← hz]; simp [polarPoint]⟩

theorem curve_crossing {a R : ℝ} {r : ℝ → ℝ} (ha : 0 < a) (haπ : a < π) (hR : 0 ≤ R) (hr : Continuous r) (hra : r a = R)
    (hr2 : r (2 * π) = R) {P Q : ℝ × ℝ} (hP : P ∈ Domain a r) (hQ : Q ∉ Domain a r) :
    ∃ b sid, b ∈ Segment a R r sid ∧ dist2 P b ≤ dist2 P Q ∧ dist2 Q b ≤ dist2 P Q := by
  obtain ⟨s, hs, sid, hseg⟩ := curve_crossing_on ha haπ hR hr hra hr2 hP hQ
  let Z : ℝ → ℝ × ℝ := fun s => (P.1 + s * (Q.1 - P.1), P.2 + s * (Q.2 - P.2))
  refine ⟨Z s, sid, hseg, ?_, ?_⟩
  · unfold dist2
    apply Real.sqrt_le_sqrt
    have e : (P.1 - (Z s).1) ^ 2 + (P.2 - (Z s).2) ^ 2 = s ^ 2 * ((P.1 - Q.1) ^ 2 + (P.2 - Q.2) ^ 2) := by
      simp only [Z]; ring
    rw [e]
    have : s ^ 2 ≤ 1 := by nlinarith [hs.1, hs.2]
    nlinarith [sq_nonneg (P.1 - Q.1), sq_nonneg (P.2 - Q.2)]
  · unfold dist2
    apply Real.sqrt_le_sqrt
    have e : (Q.1 - (Z s).1) ^ 2 + (Q.2 - (Z s).2) ^ 2 = (1 - s) ^ 2 * ((P.1 - Q.1) ^ 2 + (P.2 - Q.2) ^ 2) := by
      simp only [Z]; ring
    rw [e]
    have : (1 - s) ^ 2 ≤ 1 := by nlinarith [hs.1, hs.2]
    nlinarith [sq_nonneg (P.1 - Q.1), sq_nonneg (P.2 - Q.2)]

/-! ## Nodes close to the outer curve -/

/-- what a short distance to the point `(u, t)` says about polar coordinates -/
theorem near_polar {r1 th1 u t δ : ℝ} (hr1 : 0 ≤ r1) (hu : 0 ≤ u)
    (h : dist2 (polarPoint r1 th1) (polarPoint u t) ≤ δ) (hδ : δ < u) :
    u - δ ≤ r1 ∧ r1 ≤ u + δ ∧ u * |sin (th1 - t)| ≤ δ ∧ 0 < cos (th1 - t) := by
  have hδ0 : 0 ≤ δ := (Real.sqrt_nonneg _).trans h
  have hsq : r1 ^ 2 + u ^ 2 - 2 * r1 * u * cos (th1 - t) ≤ δ ^ 2 := by
    have : dist2 (polarPoint r1 th1) (polarPoint u t) ^ 2 ≤ δ ^ 2 := pow_le_pow_left₀ (Real.sqrt_nonneg _) h 2
    unfold dist2 polarPoint at this
    simp only at this
    rw [Real.sq_sqrt (by positivity), dist_sq_polar] at this
    exact this
  have h1 : (r1 - u) ^ 2 ≤ δ ^ 2 := by
    nlinarith [mul_nonneg (mul_nonneg hr1 hu) (sub_nonneg.2 (cos_le_one (th1 - t)))]
  have h2 := abs_le.1 (abs_le_of_sq_le_sq h1 hδ0)
  have h3 : (u * |sin (th1 - t)|) ^ 2 ≤ δ ^ 2 := by
    rw [mul_pow, sq_abs]
    have := sin_sq_add_cos_sq (th1 - t)
    nlinarith [sq_nonneg (r1 - u * cos (th1 - t))]
  refine ⟨by linarith [h2.1], by linarith [h2.2], abs_le_of_sq_le_sq' h3 hδ0 |>.2, ?_⟩
  by_contra hc
  have hc' := mul_nonneg (mul_nonneg hr1 hu) (neg_nonneg.2 (not_lt.1 hc))
  nlinarith [sq_nonneg r1]

/-- … and about the angle -/
theorem near_angle {u s δ α : ℝ} (hu : 0 < u) (h1 : u * |sin s| ≤ δ) (h2 : 0 < cos s) (hα : 0 ≤ α) (hα2 : α < π / 2)
    (hδ : δ ≤ u * sin α) (hs : |s| < 2 * π - α) : |s| ≤ α := by
  have hpi := pi_pos
  have h3 : |sin s| ≤ sin α := le_of_mul_le_mul_left (h1.trans hδ) hu
  have e1 : |sin s| = |sin (|s|)| := by
    rcases abs_cases s with ⟨e, -⟩ | ⟨e, -⟩
    · rw [e]
    · rw [e, sin_neg, abs_neg]
  have e2 : cos s = cos (|s|) := (cos_abs s).symm
  rw [e1] at h3
  rw [e2] at h2
  generalize |s| = d at *
  by_contra hc
  push Not at hc
  rcases lt_or_ge d (π / 2) with g | g
  · have := strictMonoOn_sin ⟨by linarith, by linarith⟩ ⟨by linarith, by linarith⟩ hc
    linarith [le_abs_self (sin d)]
  · rcases le_or_gt d (3 * π / 2) with g2 | g2
    · exact absurd h2 (not_lt.2 (cos_nonpos_of_pi_div_two_le_of_le g (by linarith)))
    · have h4 := strictMonoOn_sin (a := α) (b := 2 * π - d) ⟨by linarith, by linarith⟩ ⟨by linarith, by linarith⟩
        (by linarith)
      rw [sin_two_pi_sub] at h4
      linarith [neg_abs_le (sin d)]

theorem distDeriv_polar (r : ℝ → ℝ) (r1 th1 s : ℝ) : evalDistDeriv r (r1 * cos th1) (r1 * sin th1) s =
    r s * deriv r s + r1 * (r s * sin (s - th1) - deriv r s * cos (s - th1)) := by
  unfold evalDistDeriv dRth
  rw [sin_sub, cos_sub]
  linear_combination (r s * deriv r s) * sin_sq_add_cos_sq s

theorem distDeriv_hasDerivAt {r : ℝ → ℝ} (hr : ContDiff ℝ 2 r) (r1 th1 s : ℝ) :
    HasDerivAt (evalDistDeriv r (r1 * cos th1) (r1 * sin th1))
      (deriv r s ^ 2 + r s * deriv (deriv r) s + r1 * (2 * deriv r s * sin (s - th1) +
        (r s - deriv (deriv r) s) * cos (s - th1))) s := by
  have hfun : evalDistDeriv r (r1 * cos th1) (r1 * sin th1) = fun s =>
      r s * deriv r s + r1 * (r s * sin (s - th1) - deriv r s * cos (s - th1)) := funext fun s => distDeriv_polar r r1 th1 s
  rw [hfun]
  have d0 : HasDerivAt r (deriv r s) s := ((hr.differentiable (by norm_num)) s).hasDerivAt
  have hd : ContDiff ℝ 1 (deriv r) := (contDiff_succ_iff_deriv.1 (show ContDiff ℝ (1 + 1) r from hr)).2.2
  have d1 : HasDerivAt (deriv r) (deriv (deriv r) s) s := ((hd.differentiable (by norm_num)) s).hasDerivAt
  have ds : HasDerivAt (fun s => sin (s - th1)) (cos (s - th1)) s := by
    simpa using HasDerivAt.sin ((hasDerivAt_id' s).sub_const th1)
  have dc : HasDerivAt (fun s => cos (s - th1)) (-sin (s - th1)) s := by
    simpa using HasDerivAt.cos ((hasDerivAt_id' s).sub_const th1)
  refine HasDerivAt.congr_deriv ((d0.fun_mul d1).fun_add (((d0.fun_mul ds).fun_sub (d1.fun_mul dc)).const_mul r1)) ?_
  ring

/-- half the squared distance to the curve has `eval_dist_deriv` as its derivative -/
theorem distSq_hasDerivAt {r : ℝ → ℝ} {s : ℝ} (hr : DifferentiableAt ℝ r s) (x1 y1 : ℝ) :
    HasDerivAt (fun s => (x1 - r s * cos s) ^ 2 + (y1 - r s * sin s) ^ 2) (2 * evalDistDeriv r x1 y1 s) s := by
  have d0 := hr.hasDerivAt
  have dx := ((d0.fun_mul (hasDerivAt_cos s)).const_sub x1).fun_pow 2
  have dy := ((d0.fun_mul (hasDerivAt_sin s)).const_sub y1).fun_pow 2
  refine (dx.fun_add dy).congr_deriv ?_
  unfold evalDistDeriv dRth
  simp only [Nat.cast_ofNat, Nat.add_one_sub_one, pow_one]
  ring

/-- a curve flat enough, at the scale `δ`, for the foot point search: bounds of the radius and of its derivatives in the solver's
window, and the numerical conditions on them -/
structure Gentle (a R δ ρ M m1 m2 α β : ℝ) (r : ℝ → ℝ) : Prop where
  smooth : ContDiff ℝ 2 r
  at_a : r a = R
  at_two_pi : r (2 * π) = R
  lo : ∀ t, a / 2 ≤ t → t ≤ 2 * π + a / 2 → ρ ≤ r t
  hi : ∀ t, a / 2 ≤ t → t ≤ 2 * π + a / 2 → r t ≤ M
  d1 : ∀ t, a / 2 ≤ t → t ≤ 2 * π + a / 2 → |deriv r t| ≤ m1
  d2 : ∀ t, a / 2 ≤ t → t ≤ 2 * π + a / 2 → |deriv (deriv r) t| ≤ m2
  apos : 0 < a
  aπ : a < π
  δpos : 0 ≤ δ
  δρ : δ < ρ
  αpos : 0 ≤ α
  αa : α < a / 2
  α7 : α ≤ π / 7
  δα : δ ≤ ρ * sin α
  βpos : 0 ≤ β
  βa : β < a / 2
  corner : 0 < R - m1 * α
  δβ : δ ≤ (R - m1 * α) * sin β
  mono : ∀ u v c, ρ ≤ u → u ≤ M → ρ - δ ≤ v → v ≤ M + δ → 9 / 10 ≤ c → c ≤ 1 →
    m2 * |u - v * c| < v * (u * c - v * (1 - c ^ 2))
  side : ∀ u v ψ, ρ ≤ u → u ≤ M → ρ - δ ≤ v → v ≤ M + δ → min (a / 2) (π / 7) ≤ ψ → ψ ≤ π / 7 →
    m1 * |u - v * cos ψ| ≤ v * u * sin ψ
  side' : ∀ u v ψ, ρ ≤ u → u ≤ M → R - m1 * α - δ ≤ v → v ≤ M + δ → a / 2 - β ≤ ψ → ψ ≤ π / 7 →
    m1 * |u - v * cos ψ| ≤ v * u * sin ψ

theorem cos_pi_div_seven : (9:ℝ) / 10 ≤ cos (π / 7) := by
  have h1 := one_sub_sq_div_two_le_cos (x := π / 14)
  have h2 := pi_lt_d2
  have h3 := pi_pos
  have e : cos (π / 7) = 2 * cos (π / 14) ^ 2 - 1 := by rw [← cos_two_mul]; congr 1; ring
  have h4 : (0.97468:ℝ) ≤ cos (π / 14) := by nlinarith
  rw [e]
  nlinarith

section
variable {a R δ ρ M m1 m2 α β : ℝ} {r : ℝ → ℝ}

theorem Gentle.m1_nonneg (g : Gentle a R δ ρ M m1 m2 α β r) : 0 ≤ m1 :=
  (abs_nonneg _).trans (g.d1 a (by linarith [g.apos]) (by linarith [g.aπ, g.apos]))

/-- near a corner the radius is close to `R` -/
theorem Gentle.near_corner (g : Gentle a R δ ρ M m1 m2 α β r) {t c : ℝ} (hc : r c = R) (hc1 : a ≤ c) (hc2 : c ≤ 2 * π)
    (h1 : a ≤ t) (h2 : t ≤ 2 * π) (h : |t - c| ≤ α) : R - m1 * α ≤ r t := by
  have ha := g.apos
  have key := (convex_Icc (a / 2) (2 * π + a / 2)).norm_image_sub_le_of_norm_deriv_le (𝕜 := ℝ) (f := r) (C := m1) (x := c) (y := t)
    (fun x _ => (g.smooth.differentiable (by norm_num)) x) (fun x hx => g.d1 x hx.1 hx.2) ⟨by linarith, by linarith⟩
    ⟨by linarith, by linarith⟩
  rw [hc, Real.norm_eq_abs, Real.norm_eq_abs] at key
  have := neg_abs_le (r t - R)
  have h3 := mul_le_mul_of_nonneg_left h g.m1_nonneg
  linarith

theorem Gentle.radius (g : Gentle a R δ ρ M m1 m2 α β r) {r1 th1 t : ℝ} (hr1 : 0 ≤ r1) (ht1 : a ≤ t) (ht2 : t ≤ 2 * π)
    (hw1 : a / 2 ≤ th1) (hw2 : th1 ≤ 2 * π + a / 2) (h : dist2 (polarPoint r1 th1) (polarPoint (r t) t) ≤ δ) :
    r t - δ ≤ r1 ∧ ρ - δ ≤ r1 ∧ r1 ≤ M + δ ∧ |th1 - t| ≤ α ∧ r t * |sin (th1 - t)| ≤ δ := by
  have ha := g.apos
  have hpi := pi_pos
  have hlo := g.lo t (by linarith) (by linarith)
  have hhi := g.hi t (by linarith) (by linarith)
  have hδρ := g.δρ
  have hδ0 := g.δpos
  obtain ⟨k1, k2, k3, k4⟩ := near_polar hr1 (by linarith) h (by linarith)
  have hα2 : α < π / 2 := by linarith [g.α7]
  have hsα : 0 ≤ sin α := sin_nonneg_of_nonneg_of_le_pi g.αpos (by linarith)
  have hαa := g.αa
  refine ⟨k1, by linarith, by linarith, near_angle (by linarith) k3 k4 g.αpos hα2
    (g.δα.trans (mul_le_mul_of_nonneg_right hlo hsα)) (abs_lt.2 ⟨by linarith, by linarith⟩), k3⟩

/-- the foot point search of a point close to the outer curve: the search interval contains the close point, the derivative of
the distance increases strictly there and changes sign -/
theorem Gentle.search (g : Gentle a R δ ρ M m1 m2 α β r) {r1 th1 t : ℝ} (hr1 : 0 ≤ r1) (ht1 : a ≤ t) (ht2 : t ≤ 2 * π)
    (hw1 : a / 2 ≤ th1) (hw2 : th1 ≤ 2 * π + a / 2) (h : dist2 (polarPoint r1 th1) (polarPoint (r t) t) ≤ δ) :
    0 < r1 ∧ searchLo a th1 ≤ t ∧ t ≤ searchHi a th1 ∧
    StrictMonoOn (evalDistDeriv r (r1 * cos th1) (r1 * sin th1)) (Set.Icc (searchLo a th1) (searchHi a th1)) ∧
    evalDistDeriv r (r1 * cos th1) (r1 * sin th1) (searchLo a th1) ≤ 0 ∧
    0 ≤ evalDistDeriv r (r1 * cos th1) (r1 * sin th1) (searchHi a th1) := by
  have ha := g.apos
  have haπ := g.aπ
  have hpi := pi_pos
  have hδρ := g.δρ
  have hδ0 := g.δpos
  have hα7 := g.α7
  have hα0 := g.αpos
  have hαa := g.αa
  obtain ⟨k1, k2, k3, k4, k5⟩ := g.radius hr1 ht1 ht2 hw1 hw2 h
  have k4' := abs_le.1 k4
  obtain ⟨l1, l2, l3⟩ := searchLo_le a th1 hw1
  obtain ⟨u1, u2, u3⟩ := searchHi_ge a th1 hw2
  have hr1' : 0 < r1 := by linarith
  refine ⟨hr1', ?_, ?_, ?_, ?_, ?_⟩
  · rw [← max_eq_searchLo]; exact max_le (by linarith) (by linarith)
  · rw [← min_eq_searchHi]; exact le_min (by linarith) (by linarith)
  · refine strictMonoOn_of_deriv_pos (convex_Icc _ _)
      (evalDistDeriv_continuous (g.smooth.of_le (by norm_num)) _ _).continuousOn fun s hs => ?_
    rw [interior_Icc] at hs
    rw [(distDeriv_hasDerivAt g.smooth r1 th1 s).deriv]
    have w1 : a / 2 ≤ s := by linarith [hs.1]
    have w2 : s ≤ 2 * π + a / 2 := by linarith [hs.2]
    have hc : 9 / 10 ≤ cos (s - th1) := by
      refine cos_pi_div_seven.trans ?_
      rw [← cos_abs (s - th1)]
      exact cos_le_cos_of_nonneg_of_le_pi (abs_nonneg _) (by linarith)
        (abs_le.2 ⟨by linarith [hs.1], by linarith [hs.2]⟩)
    have hm := g.mono (r s) r1 (cos (s - th1)) (g.lo s w1 w2) (g.hi s w1 w2) k2 k3 hc (cos_le_one _)
    have hd := g.d2 s w1 w2
    have hprod : -(m2 * |r s - r1 * cos (s - th1)|) ≤ deriv (deriv r) s * (r s - r1 * cos (s - th1)) := by
      have e := neg_abs_le (deriv (deriv r) s * (r s - r1 * cos (s - th1)))
      rw [abs_mul] at e
      have := mul_le_mul_of_nonneg_right hd (abs_nonneg (r s - r1 * cos (s - th1)))
      linarith
    have hsq := sin_sq_add_cos_sq (s - th1)
    have e : deriv r s ^ 2 + r s * deriv (deriv r) s + r1 * (2 * deriv r s * sin (s - th1) +
        (r s - deriv (deriv r) s) * cos (s - th1)) = (deriv r s + r1 * sin (s - th1)) ^ 2 +
        r1 * (r s * cos (s - th1) - r1 * (1 - cos (s - th1) ^ 2)) +
        deriv (deriv r) s * (r s - r1 * cos (s - th1)) := by
      linear_combination -r1 ^ 2 * hsq
    rw [e]
    linarith [sq_nonneg (deriv r s + r1 * sin (s - th1))]
  · -- lower end
    rw [distDeriv_polar]
    set s := searchLo a th1 with hs
    have w2 : s ≤ 2 * π + a / 2 := by linarith
    have hψ : m1 * |r s - r1 * cos (th1 - s)| ≤ r1 * r s * sin (th1 - s) := by
      by_cases hcl : th1 - π / 7 < a / 2
      · have hs' : s = a / 2 := by rw [hs]; unfold searchLo; simp only; rw [if_pos hcl]
        by_cases hta : a ≤ th1
        · refine g.side _ _ _ (g.lo s l3 w2) (g.hi s l3 w2) k2 k3 ?_ (by linarith)
          exact (min_le_left _ _).trans (by linarith)
        · push Not at hta
          have hR := g.near_corner g.at_a le_rfl (by linarith) ht1 ht2 (abs_le.2 ⟨by linarith, by linarith⟩)
          have hcor := g.corner
          refine g.side' _ _ _ (g.lo s l3 w2) (g.hi s l3 w2) (by linarith) k3 ?_ (by linarith)
          have hβ : a - th1 ≤ β := by
            by_contra hc
            push Not at hc
            have s1 := strictMonoOn_sin (a := β) (b := a - th1) ⟨by linarith [g.βpos], by linarith [g.βa]⟩
              ⟨by linarith, by linarith⟩ hc
            have s2 : sin (a - th1) ≤ sin (t - th1) := monotoneOn_sin ⟨by linarith, by linarith⟩
              ⟨by linarith, by linarith⟩ (by linarith)
            have s3 : sin (t - th1) ≤ |sin (th1 - t)| := by
              rw [← neg_sub th1 t, sin_neg]; exact neg_le_abs _
            have s4 := (mul_le_mul_of_nonneg_left (s2.trans s3) hcor.le).trans
              (mul_le_mul_of_nonneg_right hR (abs_nonneg _))
            have s5 := mul_lt_mul_of_pos_left s1 hcor
            linarith [g.δβ]
          linarith
      · have hs' : s = th1 - π / 7 := by rw [hs]; unfold searchLo; simp only; rw [if_neg hcl]
        refine g.side _ _ _ (g.lo s l3 w2) (g.hi s l3 w2) k2 k3 ?_ (by linarith)
        exact (min_le_right _ _).trans (by linarith)
    have hd := g.d1 s l3 w2
    have hprod : deriv r s * (r s - r1 * cos (th1 - s)) ≤ m1 * |r s - r1 * cos (th1 - s)| := by
      refine (le_abs_self _).trans ?_
      rw [abs_mul]
      exact mul_le_mul_of_nonneg_right hd (abs_nonneg _)
    rw [← neg_sub th1 s, sin_neg, cos_neg]
    linarith
  · -- upper end
    rw [distDeriv_polar]
    set s := searchHi a th1 with hs
    have w1 : a / 2 ≤ s := by linarith
    have hψ : m1 * |r s - r1 * cos (s - th1)| ≤ r1 * r s * sin (s - th1) := by
      by_cases hcl : th1 + π / 7 > 2 * π + a / 2
      · have hs' : s = 2 * π + a / 2 := by rw [hs]; unfold searchHi; simp only; rw [if_pos hcl]
        by_cases hta : th1 ≤ 2 * π
        · refine g.side _ _ _ (g.lo s w1 u3) (g.hi s w1 u3) k2 k3 ?_ (by linarith)
          exact (min_le_left _ _).trans (by linarith)
        · push Not at hta
          have hR := g.near_corner g.at_two_pi (by linarith) le_rfl ht1 ht2 (abs_le.2 ⟨by linarith, by linarith⟩)
          have hcor := g.corner
          refine g.side' _ _ _ (g.lo s w1 u3) (g.hi s w1 u3) (by linarith) k3 ?_ (by linarith)
          have hβ : th1 - 2 * π ≤ β := by
            by_contra hc
            push Not at hc
            have s1 := strictMonoOn_sin (a := β) (b := th1 - 2 * π) ⟨by linarith [g.βpos], by linarith [g.βa]⟩
              ⟨by linarith, by linarith⟩ hc
            have s2 : sin (th1 - 2 * π) ≤ sin (th1 - t) := monotoneOn_sin ⟨by linarith, by linarith⟩
              ⟨by linarith, by linarith⟩ (by linarith)
            have s4 := (mul_le_mul_of_nonneg_left (s2.trans (le_abs_self _)) hcor.le).trans
              (mul_le_mul_of_nonneg_right hR (abs_nonneg _))
            have s5 := mul_lt_mul_of_pos_left s1 hcor
            linarith [g.δβ]
          linarith
      · have hs' : s = th1 + π / 7 := by rw [hs]; unfold searchHi; simp only; rw [if_neg hcl]
        refine g.side _ _ _ (g.lo s w1 u3) (g.hi s w1 u3) k2 k3 ?_ (by linarith)
        exact (min_le_right _ _).trans (by linarith)
    have hd := g.d1 s w1 u3
    have hprod : -(m1 * |r s - r1 * cos (s - th1)|) ≤ deriv r s * (r s - r1 * cos (s - th1)) := by
      have e := neg_abs_le (deriv r s * (r s - r1 * cos (s - th1)))
      rw [abs_mul] at e
      have := mul_le_mul_of_nonneg_right hd (abs_nonneg (r s - r1 * cos (s - th1)))
      linarith
    linarith

/-- the foot point of a point close to the outer curve: `get_boundary_coord` succeeds, and the distance to the curve decreases
towards the foot point from both sides -/
theorem Gentle.foot (g : Gentle a R δ ρ M m1 m2 α β r) {b : Brentq} (hb : BrentqSpec b) {r1 th1 t : ℝ} (hr1 : 0 ≤ r1)
    (ht1 : a ≤ t) (ht2 : t ≤ 2 * π) (hw1 : a / 2 ≤ th1) (hw2 : th1 ≤ 2 * π + a / 2)
    (h : dist2 (polarPoint r1 th1) (polarPoint (r t) t) ≤ δ) :
    ∃ n th0, getBoundaryCoord b a r r1 th1 = some (n, th0) ∧
      (∀ s, t ≤ s → s ≤ th0 → dist2 (polarPoint r1 th1) (polarPoint (r s) s) ≤ dist2 (polarPoint r1 th1) (polarPoint (r t) t)) ∧
      (∀ s, s ≤ t → th0 ≤ s → dist2 (polarPoint r1 th1) (polarPoint (r s) s) ≤ dist2 (polarPoint r1 th1) (polarPoint (r t) t)) ∧
      |n| = dist2 (polarPoint r1 th1) (polarPoint (r th0) th0) := by
  obtain ⟨hpos, hlo, hhi, hmono, h1, h2⟩ := g.search hr1 ht1 ht2 hw1 hw2 h
  have hr' : ContDiff ℝ 1 r := g.smooth.of_le (by norm_num)
  obtain ⟨l1, l2, l3⟩ := searchLo_le a th1 hw1
  obtain ⟨u1, u2, u3⟩ := searchHi_ge a th1 hw2
  set f := evalDistDeriv r (r1 * cos th1) (r1 * sin th1) with hf
  have hcoord : ∃ th0, b f (searchLo a th1) (searchHi a th1) = some th0 := by
    rcases hq : b f (searchLo a th1) (searchHi a th1) with _ | t0
    · exact absurd ((hb.fails _ _ _ (l1.trans u1)).1 hq) (not_lt.2 (mul_nonpos_of_nonpos_of_nonneg h1 h2))
    · exact ⟨t0, rfl⟩
  obtain ⟨th0, hth0⟩ := hcoord
  obtain ⟨b1, b2, b3⟩ := hb.root _ _ _ _ (l1.trans u1) (evalDistDeriv_continuous hr' _ _).continuousOn hth0
  have hdiff : Differentiable ℝ r := hr'.differentiable (by norm_num)
  have hD : ∀ s, HasDerivAt (fun s => (r1 * cos th1 - r s * cos s) ^ 2 + (r1 * sin th1 - r s * sin s) ^ 2) (2 * f s) s :=
    fun s => distSq_hasDerivAt (hdiff s) _ _
  have hDc : Continuous fun s => (r1 * cos th1 - r s * cos s) ^ 2 + (r1 * sin th1 - r s * sin s) ^ 2 :=
    continuous_iff_continuousAt.2 fun s => (hD s).continuousAt
  have hdec : AntitoneOn (fun s => (r1 * cos th1 - r s * cos s) ^ 2 + (r1 * sin th1 - r s * sin s) ^ 2)
      (Set.Icc (searchLo a th1) th0) := by
    refine antitoneOn_of_deriv_nonpos (convex_Icc _ _) hDc.continuousOn (fun s _ => (hD s).differentiableAt.differentiableWithinAt)
      fun s hs => ?_
    rw [interior_Icc] at hs
    rw [(hD s).deriv]
    have := hmono ⟨hs.1.le, by linarith [hs.2]⟩ ⟨b1, b2⟩ hs.2
    linarith
  have hinc : MonotoneOn (fun s => (r1 * cos th1 - r s * cos s) ^ 2 + (r1 * sin th1 - r s * sin s) ^ 2)
      (Set.Icc th0 (searchHi a th1)) := by
    refine monotoneOn_of_deriv_nonneg (convex_Icc _ _) hDc.continuousOn (fun s _ => (hD s).differentiableAt.differentiableWithinAt)
      fun s hs => ?_
    rw [interior_Icc] at hs
    rw [(hD s).deriv]
    have := hmono ⟨b1, b2⟩ ⟨by linarith [hs.1], hs.2.le⟩ hs.1
    linarith
  have hres : ∃ n, getBoundaryCoord b a r r1 th1 = some (n, th0) ∧
      |n| = dist2 (polarPoint r1 th1) (polarPoint (r th0) th0) := by
    unfold getBoundaryCoord
    simp only
    rw [← hf, hth0]
    refine ⟨_, rfl, ?_⟩
    unfold dist2 polarPoint
    simp only
    split_ifs
    · rw [abs_neg, abs_of_nonneg (Real.sqrt_nonneg _)]
    · rw [abs_of_nonneg (Real.sqrt_nonneg _)]
  obtain ⟨n, hn, hn'⟩ := hres
  exact ⟨n, th0, hn, fun s h1 h2 => Real.sqrt_le_sqrt (hdec ⟨hlo, h1.trans h2⟩ ⟨hlo.trans h1, h2⟩ h1),
    fun s h1 h2 => Real.sqrt_le_sqrt (hinc ⟨h2, h1.trans hhi⟩ ⟨h2.trans h1, hhi⟩ h1), hn'⟩

end

end Pot
