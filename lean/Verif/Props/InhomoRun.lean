import Verif.Props.Resonance
import Verif.Props.Nodes

/-! # Property C79: inhomogeneous problems run to the end -/

namespace Pot
open Spec Finset Real

/-- the source methods return numbers away from the origin -/
structure SrcDefined (src : Source) : Prop where
  grad : ∀ x y, (x, y) ≠ ((0, 0) : ℝ × ℝ) → ∃ g, src.grad x y = .ok g
  hess : ∀ x y, (x, y) ≠ ((0, 0) : ℝ × ℝ) → ∃ g, src.hess x y = .ok g
  gradPolar : ∀ r th, r ≠ 0 → ∃ g, src.gradPolar r th = .ok g
  hessPolar : ∀ r th, r ≠ 0 → ∃ g, src.hessPolar r th = .ok g

theorem norm2_eq_zero {v : ℝ × ℝ} : norm2 v = 0 ↔ v = (0, 0) := by
  unfold norm2
  rw [Real.sqrt_eq_zero (by positivity)]
  constructor
  · intro h
    have h1 : v.1 = 0 := by nlinarith [sq_nonneg v.1, sq_nonneg v.2]
    have h2 : v.2 = 0 := by nlinarith [sq_nonneg v.1, sq_nonneg v.2]
    exact Prod.ext h1 h2
  · rintro rfl; simp

theorem normalize_ok {v : ℝ × ℝ} (h : v ≠ (0, 0)) : ∃ w, normalize v = .ok w := by
  unfold normalize
  rw [if_neg (mt norm2_eq_zero.1 h), pure_eq_ok]
  exact ⟨_, rfl⟩

theorem calcInhomoRadius_defined {s : PSolver} (h : SrcDefined s.src) (hAD : s.e.AD ≠ 0) (hN : s.e.N ≠ 0) (x0 y0 x1 y1 : ℝ)
    (t : ℝ × ℝ) (n : ℝ) : ∃ v, calcInhomoRadius s x0 y0 x1 y1 t n = .ok v := by
  unfold calcInhomoRadius
  by_cases h0 : x0 = 0 ∧ y0 = 0
  · have hne : ((-(s.e.AD / (10 * s.e.N)), 0) : ℝ × ℝ) ≠ (0, 0) := by
      intro hc
      have := (Prod.ext_iff.1 hc).1
      simp only [neg_eq_zero, div_eq_zero_iff, mul_eq_zero, Nat.cast_eq_zero] at this
      rcases this with h | h | h
      · exact hAD h
      · norm_num at h
      · exact hN h
    obtain ⟨g, hg⟩ := h.grad _ _ hne
    obtain ⟨H, hH⟩ := h.hess _ _ hne
    rw [if_pos h0]
    dsimp only
    rw [hH, ok_bind, hg, ok_bind, pure_eq_ok, ok_bind, pure_eq_ok]
    exact ⟨_, rfl⟩
  · have hne : ((x0, y0) : ℝ × ℝ) ≠ (0, 0) := fun hc => h0 (Prod.ext_iff.1 hc)
    obtain ⟨g, hg⟩ := h.grad _ _ hne
    obtain ⟨H, hH⟩ := h.hess _ _ hne
    rw [if_neg h0, hg, ok_bind, hH, ok_bind, pure_eq_ok, ok_bind]
    exact ⟨_, rfl⟩

theorem extendInhomoRadius_defined {s : PSolver} (h : SrcDefined s.src) (hAD : s.e.AD ≠ 0) (hN : s.e.N ≠ 0) (nd : Node)
    (rs : Fin 3) : ∃ v, extendInhomoRadius s nd rs = .ok v := by
  unfold extendInhomoRadius
  dsimp only
  split_ifs
  · exact calcInhomoRadius_defined h hAD hN _ _ _ _ _ _
  · rw [grp_ok, ok_bind, sdr_ok, ok_bind]
    exact calcInhomoRadius_defined h hAD hN _ _ _ _ _ _

/-- beyond the corner of a side -/
theorem extendInhomo12r_defined {s : PSolver} (h : SrcDefined s.src) (hR : 0 < s.e.R) {nd : Node} {rs : Fin 3}
    (h1 : rs = 1 → s.e.R < (s.e.coord nd).1)
    (h2 : rs ≠ 1 → s.e.R * sin s.e.a < (getRadiusPoint s.e.a (s.e.coord nd).1 (s.e.coord nd).2).2) :
    ∃ v, extendInhomo12r s nd rs = .ok v := by
  unfold extendInhomo12r
  dsimp only
  by_cases hrs : rs = 1
  · rw [if_pos hrs, pure_eq_ok, ok_bind]
    dsimp only
    have hlt := h1 hrs
    obtain ⟨w, hw⟩ := normalize_ok (v := ((s.e.coord nd).1 - s.e.R, (0:ℝ) - 0)) (by
      intro hc
      have := (Prod.ext_iff.1 hc).1
      simp only at this
      linarith)
    have hne : ((s.e.R, 0) : ℝ × ℝ) ≠ (0, 0) := fun hc => hR.ne' (Prod.ext_iff.1 hc).1
    obtain ⟨g, hg⟩ := h.grad _ _ hne
    obtain ⟨H, hH⟩ := h.hess _ _ hne
    rw [hw, ok_bind, hg, ok_bind, hH, ok_bind, pure_eq_ok]
    exact ⟨_, rfl⟩
  · rw [if_neg hrs, sdr_ok, ok_bind, grp_ok, ok_bind, pure_eq_ok, ok_bind]
    dsimp only
    have hlt := h2 hrs
    obtain ⟨w, hw⟩ := normalize_ok (v := ((getRadiusPoint s.e.a (s.e.coord nd).1 (s.e.coord nd).2).1 - s.e.R * cos s.e.a,
        (getRadiusPoint s.e.a (s.e.coord nd).1 (s.e.coord nd).2).2 - s.e.R * sin s.e.a)) (by
      intro hc
      have := (Prod.ext_iff.1 hc).2
      simp only at this
      linarith)
    have hne : ((s.e.R * cos s.e.a, s.e.R * sin s.e.a) : ℝ × ℝ) ≠ (0, 0) := by
      intro hc
      have e1 := (Prod.ext_iff.1 hc).1
      have e2 := (Prod.ext_iff.1 hc).2
      simp only at e1 e2
      have := sin_sq_add_cos_sq s.e.a
      have : s.e.R ^ 2 = 0 := by linear_combination s.e.R * cos s.e.a * e1 + s.e.R * sin s.e.a * e2 - s.e.R ^ 2 * this
      exact hR.ne' (pow_eq_zero_iff (by norm_num) |>.1 this)
    obtain ⟨g, hg⟩ := h.grad _ _ hne
    obtain ⟨H, hH⟩ := h.hess _ _ hne
    rw [hw, ok_bind, hg, ok_bind, hH, ok_bind, pure_eq_ok]
    exact ⟨_, rfl⟩

theorem doInhomo0Standard_defined {s : PSolver} (h : SrcDefined s.src) {nd : Node} {n th : ℝ}
    (hc : s.cache nd = some (some (n, th))) (hr : s.e.evalR th ≠ 0)
    (hoff : s.e.coord nd ≠ polarPoint (s.e.evalR th) th) : ∃ v, doInhomo0Standard s nd = .ok v := by
  unfold doInhomo0Standard
  rw [cacheGet_ok hc, ok_bind]
  dsimp only
  obtain ⟨w, hw⟩ := normalize_ok (v := ((s.e.coord nd).1 - s.e.evalR th * cos th, (s.e.coord nd).2 - s.e.evalR th * sin th)) (by
    intro hc
    exact hoff (Prod.ext (sub_eq_zero.1 (Prod.ext_iff.1 hc).1) (sub_eq_zero.1 (Prod.ext_iff.1 hc).2)))
  obtain ⟨g, hg⟩ := h.gradPolar _ th hr
  obtain ⟨H, hH⟩ := h.hessPolar _ th hr
  rw [hw, ok_bind, hg, ok_bind, hH, ok_bind, pure_eq_ok]
  exact ⟨_, rfl⟩

/-- the foot point lies off the corner -/
theorem polar_ne_corner {R r1 th1 th0 : ℝ} (hr1 : 0 < r1) (hne : th1 ≠ th0) (hlt : |th1 - th0| < π) :
    polarPoint r1 th1 ≠ polarPoint R th0 := by
  intro hc
  have e1 := (Prod.ext_iff.1 hc).1
  have e2 := (Prod.ext_iff.1 hc).2
  simp only [polarPoint] at e1 e2
  have hs : r1 * sin (th1 - th0) = 0 := by
    rw [sin_sub]; linear_combination cos th0 * e2 - sin th0 * e1
  have hs' := (mul_eq_zero.1 hs).resolve_left hr1.ne'
  have hl := abs_lt.1 hlt
  exact hne (sub_eq_zero.1 ((sin_eq_zero_iff_of_lt_of_lt hl.1 hl.2).1 hs'))

theorem extendInhomo0lr_defined {s : PSolver} (h : SrcDefined s.src) (hR : 0 < s.e.R) {nd : Node} {rs : Fin 3} {n th : ℝ}
    (hc : s.cache nd = some (some (n, th))) (hr : 0 < s.e.evalR th)
    (hth : th ≠ if rs = 1 then 2 * π else s.e.a) (hlt : |th - if rs = 1 then 2 * π else s.e.a| < π)
    (hoff : s.e.coord nd ≠ polarPoint (s.e.evalR th) th) : ∃ v, extendInhomo0lr s nd rs = .ok v := by
  unfold extendInhomo0lr
  rw [cacheGet_ok hc, ok_bind]
  dsimp only
  set th0 := if rs = 1 then 2 * π else s.e.a
  obtain ⟨w, hw⟩ := normalize_ok (v := (s.e.evalR th * cos th - s.e.R * cos th0, s.e.evalR th * sin th - s.e.R * sin th0)) (by
    intro hc
    exact polar_ne_corner (R := s.e.R) hr hth hlt
      (Prod.ext (sub_eq_zero.1 (Prod.ext_iff.1 hc).1) (sub_eq_zero.1 (Prod.ext_iff.1 hc).2)))
  obtain ⟨w', hw'⟩ := normalize_ok (v := ((s.e.coord nd).1 - s.e.evalR th * cos th, (s.e.coord nd).2 - s.e.evalR th * sin th)) (by
    intro hc
    exact hoff (Prod.ext (sub_eq_zero.1 (Prod.ext_iff.1 hc).1) (sub_eq_zero.1 (Prod.ext_iff.1 hc).2)))
  obtain ⟨g, hg⟩ := h.gradPolar s.e.R th0 hR.ne'
  obtain ⟨H, hH⟩ := h.hessPolar s.e.R th0 hR.ne'
  rw [hw, ok_bind, hg, ok_bind, hH, ok_bind, hw', ok_bind, pure_eq_ok]
  exact ⟨_, rfl⟩

/-- the inhomogeneous extension is computed at every node as long as no node of the outer list lies on the curve (continued
beyond the corners) -/
theorem extendInhomoF_defined {s : PSolver} (hready : Ready s) (h : SrcDefined s.src) (hh : s.src.homogeneous = false)
    (hAD : s.e.AD ≠ 0) (hN : s.e.N ≠ 0) (hR : 0 < s.e.R) (haπ : s.e.a < π)
    (hcoord : ∀ nd ∈ s.G.allGamma 0, ∀ c, s.cache nd = some (some c) → s.e.a / 2 ≤ c.2 ∧ c.2 ≤ 2 * π + s.e.a / 2 ∧
      0 < s.e.evalR c.2 ∧ s.e.coord nd ≠ polarPoint (s.e.evalR c.2) c.2) :
    ∃ W : Node → ℂ, extendInhomoF s = .ok (s.G.unionGamma.map W) := by
  classical
  have hpi := pi_pos
  have key : ∀ (sid : Fin 3) (nd : Node), ∃ t v, nd ∈ s.G.allGamma sid → getEtype s.e s.cache sid nd = .ok t ∧
      doInhomo s sid t nd = .ok v := by
    intro sid nd
    by_cases hmem : nd ∈ s.G.allGamma sid
    swap
    · exact ⟨.standard, (0, 0), fun h' => absurd h' hmem⟩
    obtain ⟨t, ht⟩ := getEtype_ok (hready.hasCoord hmem)
    suffices hs : ∃ v, doInhomo s sid t nd = .ok v by
      obtain ⟨v, hv⟩ := hs
      exact ⟨t, v, fun _ => ⟨ht, hv⟩⟩
    have ht' := ht
    unfold getEtype at ht
    unfold doInhomo
    rw [if_neg (by simp [hh])]
    fin_cases sid
    · obtain ⟨c, hc⟩ := hready.coord nd hmem
      obtain ⟨c1, c2, c3, c4⟩ := hcoord nd hmem c hc
      simp only [Fin.zero_eta, if_true, hc, pure_eq_ok] at ht
      have ht := Except.ok.inj ht
      cases t with
      | standard => exact doInhomo0Standard_defined h hc c3.ne' c4
      | left =>
        have hlt : c.2 < s.e.a := by
          split_ifs at ht with k1 k2
          exact k2
        refine extendInhomo0lr_defined (rs := 2) h hR hc c3 ?_ ?_ c4
        · rw [if_neg (by decide)]; exact hlt.ne
        · rw [if_neg (by decide), abs_lt]; constructor <;> linarith
      | right =>
        have hlt : 2 * π < c.2 := by
          split_ifs at ht with k1 k2
          exact k1
        refine extendInhomo0lr_defined (rs := 1) h hR hc c3 ?_ ?_ c4
        · rw [if_pos rfl]; exact hlt.ne'
        · rw [if_pos rfl, abs_lt]; constructor <;> linarith
    · rw [if_neg (by decide), if_pos (by decide), pure_eq_ok] at ht
      have ht := Except.ok.inj ht
      cases t with
      | standard => exact extendInhomoRadius_defined h hAD hN nd 1
      | left => exact extendInhomoRadius_defined h hAD hN nd 1
      | right =>
        refine extendInhomo12r_defined h hR (fun _ => ?_) (fun h => absurd rfl h)
        split_ifs at ht with k1 k2
        exact k2
    · rw [if_neg (by decide), if_neg (by decide), grp_ok, ok_bind, pure_eq_ok] at ht
      have ht := Except.ok.inj ht
      cases t with
      | standard => exact extendInhomoRadius_defined h hAD hN nd 2
      | left => exact extendInhomoRadius_defined h hAD hN nd 2
      | right =>
        refine extendInhomo12r_defined h hR (fun h => absurd h (by decide)) (fun _ => ?_)
        split_ifs at ht with k1 k2
        exact k2
  choose et res hk using key
  obtain ⟨e1, e2⟩ := mvLoop_reduce hready (ext := doInhomo s) (et := et) (res := res)
    (fun sid nd hnd => ⟨hready.sub sid nd hnd, hk sid nd hnd⟩)
  refine ⟨fun nd => mean (items s.G et res nd), ?_⟩
  unfold extendInhomoF mvExtendInhomo
  rw [e1, ok_bind, e2]

/-! ## Nodes beyond a shipped curve are attached to it -/

theorem Tame.lipschitz {r : ℝ → ℝ} (h : Tame r) {x y : ℝ} (hx1 : π / 4 / 2 ≤ x) (hx2 : x ≤ 2 * π + π / 4 / 2)
    (hy1 : π / 4 / 2 ≤ y) (hy2 : y ≤ 2 * π + π / 4 / 2) : |r y - r x| ≤ 0.29 * |y - x| := by
  have key := (convex_Icc (π / 4 / 2) (2 * π + π / 4 / 2)).norm_image_sub_le_of_norm_deriv_le (𝕜 := ℝ) (f := r) (C := 0.29)
    (x := x) (y := y) (fun x _ => (h.smooth.differentiable (by norm_num)) x) (fun x hx => h.d1 x hx.1 hx.2) ⟨hx1, hx2⟩ ⟨hy1, hy2⟩
  rwa [Real.norm_eq_abs, Real.norm_eq_abs] at key

theorem tame_near_aux1 {ρ q η : ℝ} (hη0 : 0 ≤ η) (k : ρ - q ≤ η) (g0 : 0 ≤ ρ - 2.3) (g : ρ - 2.3 ≤ ρ - q + 0.26 * η) :
    (ρ - 2.3) ^ 2 ≤ (ρ - q) ^ 2 + 0.6 * η ^ 2 := by
  have b1 : (ρ - 2.3) ^ 2 ≤ (ρ - q + 0.26 * η) ^ 2 := pow_le_pow_left₀ g0 g 2
  generalize ρ - q = e at *
  nlinarith [mul_nonneg hη0 (sub_nonneg.2 k), sq_nonneg η]

theorem tame_near_aux2 {ρ q η C C' : ℝ} (a1 : 2 * ρ * 2.3 * (1 - C) ≤ 1.3 * (2 * ρ * q * (1 - C')))
    (a2 : (ρ - 2.3) ^ 2 ≤ (ρ - q) ^ 2 + 0.6 * η ^ 2) (h : ρ ^ 2 + q ^ 2 - 2 * ρ * q * C' ≤ η ^ 2) :
    ρ ^ 2 + 2.3 ^ 2 - 2 * ρ * 2.3 * C ≤ η ^ 2 * 2 := by
  have h1 := sq_nonneg (ρ - q)
  have h2 := sq_nonneg η
  norm_num at a1 a2 ⊢
  linarith

/-- a point beyond a shipped curve is within `√2` times its (small) distance to the domain of the curve -/
theorem tame_near {r : ℝ → ℝ} (h : Tame r) {ρ t q t' η : ℝ} (hη : η ≤ 0.393) (hρ : r t ≤ ρ) (w1 : π / 4 / 2 ≤ t)
    (w2 : t ≤ 2 * π + π / 4 / 2) (q0 : 0 ≤ q) (hq : q ≤ r t') (t1 : π / 4 ≤ t') (t2 : t' ≤ 2 * π)
    (hd : dist2 (polarPoint ρ t) (polarPoint q t') ≤ η) :
    ∃ x ∈ Segment (π / 4) 2.3 r 0, dist2 (polarPoint ρ t) x ≤ η * √2 := by
  have hpi := pi_gt_d4
  have hpi2 := pi_lt_d4
  have hη0 : 0 ≤ η := (Real.sqrt_nonneg _).trans hd
  have hs2 : (1.4:ℝ) < √2 := by rw [Real.lt_sqrt (by norm_num)]; norm_num
  have hlo := h.lo t w1 w2
  have hρ0 : 1.8 ≤ ρ := hlo.trans hρ
  have hd' : dist2 (polarPoint q t') (polarPoint ρ t) ≤ η := by rw [dist2_comm]; exact hd
  obtain ⟨k1, k2, k3, k4⟩ := near_polar q0 (by linarith) hd' (by linarith)
  have s33 := sin_gt_sub_cube (x := 0.33) (by norm_num)
  have hang : |t' - t| ≤ 0.33 := by
    refine near_angle (u := ρ) (by linarith) k3 k4 (by norm_num) (by linarith) ?_ (abs_lt.2 ⟨by linarith, by linarith⟩)
    have : (0.32:ℝ) ≤ sin 0.33 := by norm_num at s33 ⊢; linarith
    nlinarith
  have hsmall : |t' - t| ≤ 0.89 * η := by
    have h1 := mul_le_sin (x := |t' - t|) (abs_nonneg _) (by linarith)
    have h2 : |sin (t' - t)| = sin (|t' - t|) := by
      rcases abs_cases (t' - t) with ⟨e, e'⟩ | ⟨e, e'⟩
      · rw [e, abs_of_nonneg (sin_nonneg_of_nonneg_of_le_pi e' (by rw [e] at hang; linarith))]
      · rw [e, sin_neg, abs_of_nonpos]
        have := sin_nonneg_of_nonneg_of_le_pi (x := -(t' - t)) (by linarith) (by rw [e] at hang; linarith)
        rw [sin_neg] at this; linarith
    rw [h2] at k3
    have h3 : 2 / 3.1416 * |t' - t| ≤ 2 / π * |t' - t| :=
      mul_le_mul_of_nonneg_right (div_le_div_of_nonneg_left (by norm_num) (by linarith) hpi2.le) (abs_nonneg _)
    have h4 : 1.8 * sin (|t' - t|) ≤ ρ * sin (|t' - t|) := mul_le_mul_of_nonneg_right hρ0
      (le_trans (by positivity) h1)
    have h5 := abs_nonneg (t' - t)
    norm_num at h3 ⊢
    linarith
  have hq1 : 0 ≤ ρ - η := by linarith
  -- squared distances
  have hsq : ρ ^ 2 + q ^ 2 - 2 * ρ * q * cos (t - t') ≤ η ^ 2 := by
    have : dist2 (polarPoint ρ t) (polarPoint q t') ^ 2 ≤ η ^ 2 := pow_le_pow_left₀ (Real.sqrt_nonneg _) hd 2
    unfold dist2 polarPoint at this
    simp only at this
    rwa [Real.sq_sqrt (by positivity), dist_sq_polar] at this
  -- a point `c` of the curve at the corner, between the two angles
  have corner : ∀ c, π / 4 ≤ c → c ≤ 2 * π → r c = 2.3 → |t' - c| ≤ |t' - t| → |c - t| ≤ |t' - t| → cos (t - t') ≤ cos (t - c) →
      dist2 (polarPoint ρ t) (polarPoint (r c) c) ≤ η * √2 := by
    intro c c1 c2 hc hd1 hd2 hcos
    have l1 := h.lipschitz (x := c) (y := t') (by linarith) (by linarith) (by linarith) (by linarith)
    have l2 := h.lipschitz (x := t) (y := c) w1 w2 (by linarith) (by linarith)
    rw [hc] at l1 l2
    have m1 : r t' ≤ 2.3 + 0.26 * η := by have := le_abs_self (r t' - 2.3); linarith
    have m2 : 2.3 - 0.26 * η ≤ r t := by have := le_abs_self (2.3 - r t); linarith
    have hq2 : 1.8 ≤ q := by linarith
    have a1 : 2 * ρ * 2.3 * (1 - cos (t - c)) ≤ 1.3 * (2 * ρ * q * (1 - cos (t - t'))) := by
      have b1 : 0 ≤ 1 - cos (t - c) := by linarith [cos_le_one (t - c)]
      have b2 : 2.3 * (1 - cos (t - c)) ≤ 1.3 * q * (1 - cos (t - t')) :=
        mul_le_mul (by linarith) (by linarith) b1 (by linarith)
      have := mul_le_mul_of_nonneg_left b2 (by linarith : 0 ≤ 2 * ρ)
      linarith
    have a2 : (ρ - 2.3) ^ 2 ≤ (ρ - q) ^ 2 + 0.6 * η ^ 2 := by
      rcases le_total 2.3 ρ with g | g
      · exact tame_near_aux1 hη0 (by linarith) (by linarith) (by linarith)
      · have b1 : (2.3 - ρ) ^ 2 ≤ (0.26 * η) ^ 2 := pow_le_pow_left₀ (by linarith) (by linarith) 2
        have b2 := sq_nonneg (ρ - q)
        have b3 := sq_nonneg η
        rw [mul_pow] at b1
        norm_num at b1 ⊢
        linarith
    unfold dist2
    rw [show η * √2 = √(η ^ 2 * 2) by rw [Real.sqrt_mul (by positivity), Real.sqrt_sq hη0]]
    apply Real.sqrt_le_sqrt
    simp only [polarPoint]
    rw [dist_sq_polar, hc]
    exact tame_near_aux2 a1 a2 hsq
  rcases lt_or_ge t (π / 4) with g1 | g1
  · refine ⟨_, ⟨π / 4, le_rfl, by linarith, rfl⟩, corner (π / 4) le_rfl (by linarith) h.at_a ?_ ?_ ?_⟩
    · rw [abs_of_nonneg (by linarith), abs_of_nonneg (by linarith)]; linarith
    · rw [abs_of_nonneg (by linarith), abs_of_nonneg (by linarith)]; linarith
    · rw [← cos_neg (t - t'), ← cos_neg (t - π / 4)]
      exact cos_le_cos_of_nonneg_of_le_pi (by linarith) (by linarith [le_abs_self (t' - t)]) (by linarith)
  rcases lt_or_ge (2 * π) t with g2 | g2
  · refine ⟨_, ⟨2 * π, by linarith, le_rfl, rfl⟩, corner (2 * π) (by linarith) le_rfl h.at_two_pi ?_ ?_ ?_⟩
    · rw [abs_of_nonpos (by linarith), abs_of_nonpos (by linarith)]; linarith
    · rw [abs_of_nonpos (by linarith), abs_of_nonpos (by linarith)]; linarith
    · exact cos_le_cos_of_nonneg_of_le_pi (by linarith) (by linarith [neg_abs_le (t' - t)]) (by linarith)
  · refine ⟨_, ⟨t, g1, g2, rfl⟩, ?_⟩
    have l1 := h.lipschitz (x := t) (y := t') w1 w2 (by linarith) (by linarith)
    have := le_abs_self (r t' - r t)
    have e : dist2 (polarPoint ρ t) (polarPoint (r t) t) = ρ - r t := by
      unfold dist2
      simp only [polarPoint]
      rw [dist_sq_polar, sub_self, cos_zero, show ρ ^ 2 + r t ^ 2 - 2 * ρ * r t * 1 = (ρ - r t) ^ 2 by ring,
        Real.sqrt_sq (by linarith)]
    rw [e]
    have := mul_le_mul_of_nonneg_left hs2.le hη0
    linarith

/-! ## No grid node lies on a curve given by sines -/

theorem algebraic_ofReal {x : ℝ} : IsAlgebraic ℚ (x : ℂ) ↔ IsAlgebraic ℚ x :=
  isAlgebraic_algebraMap_iff (R := ℚ) (S := ℝ) (A := ℂ) (algebraMap ℝ ℂ).injective

theorem algebraic_I : IsAlgebraic ℚ Complex.I := by
  have h : IsAlgebraic ℚ (Complex.I ^ 2) := by
    rw [Complex.I_sq]
    exact isAlgebraic_one.neg
  exact h.of_pow (by norm_num)

theorem algebraic_exp {t : ℝ} : IsAlgebraic ℚ (Complex.exp (t * Complex.I)) ↔ IsAlgebraic ℚ (cos t) ∧ IsAlgebraic ℚ (sin t) := by
  constructor
  · intro h
    have h' : IsAlgebraic ℚ (Complex.exp (-t * Complex.I)) := by
      have e : Complex.exp (-t * Complex.I) = (Complex.exp (t * Complex.I))⁻¹ := by
        rw [← Complex.exp_neg]; congr 1; ring
      rw [e]; exact h.inv
    have h2 : IsAlgebraic ℚ (2 : ℂ) := by
      have := isAlgebraic_algebraMap (R := ℚ) (A := ℂ) 2
      simpa using this
    constructor
    · rw [← algebraic_ofReal, Complex.ofReal_cos, Complex.cos, div_eq_mul_inv]
      exact (h.add h').mul h2.inv
    · rw [← algebraic_ofReal, Complex.ofReal_sin, Complex.sin, div_eq_mul_inv]
      exact ((h'.sub h).mul algebraic_I).mul h2.inv
  · rintro ⟨h1, h2⟩
    rw [Complex.exp_mul_I, ← Complex.ofReal_cos, ← Complex.ofReal_sin]
    exact (algebraic_ofReal.2 h1).add ((algebraic_ofReal.2 h2).mul algebraic_I)

/-- rational multiples of an angle with algebraic sine and cosine have algebraic sine and cosine -/
theorem algebraic_rat_mul {t : ℝ} (h1 : IsAlgebraic ℚ (cos t)) (h2 : IsAlgebraic ℚ (sin t)) (q : ℚ) :
    IsAlgebraic ℚ (cos (q * t)) ∧ IsAlgebraic ℚ (sin (q * t)) := by
  rw [← algebraic_exp]
  have hz := algebraic_exp.2 ⟨h1, h2⟩
  have hpow : IsAlgebraic ℚ (Complex.exp (((q * t : ℝ) : ℂ) * Complex.I) ^ q.den) := by
    have e : Complex.exp (((q * t : ℝ) : ℂ) * Complex.I) ^ q.den = Complex.exp (t * Complex.I) ^ q.num := by
      rw [← Complex.exp_nat_mul, ← Complex.exp_int_mul]
      congr 1
      have : ((q.den : ℂ)) * ((q : ℝ) : ℂ) = q.num := by
        have h3 : (q.den : ℚ) * q = q.num := Rat.den_mul_eq_num q
        have h4 := congrArg (fun x : ℚ => (x : ℂ)) h3
        push_cast at h4
        simpa using h4
      push_cast
      push_cast at this
      linear_combination t * Complex.I * this
    rw [e]
    rcases q.num with m | m
    · simpa using hz.pow m
    · rw [zpow_negSucc]
      exact (hz.pow (m + 1)).inv
  exact hpow.of_pow q.den_pos

/-- a curve `R + A sin(w(θ - π/4))` with rational `R`, `A`, `w` and a square whose side is a rational multiple of π: a grid point
other than the origin never lies on the curve -/
theorem sine_off_grid (R A w c : ℚ) (N : ℕ) (i j : ℤ) {t : ℝ} (hr : 0 < (R : ℝ) + A * sin (w * (t - π / 4))) :
    getCoord (c * π) N i j ≠ polarPoint (R + A * sin (w * (t - π / 4))) t := by
  intro h
  set r := (R : ℝ) + A * sin (w * (t - π / 4)) with hrdef
  set u : ℚ := c * (i / N - 1 / 2) with hu
  set v : ℚ := c * (j / N - 1 / 2) with hv
  have e1 : r * cos t = π * u := by
    have := (Prod.ext_iff.1 h).1
    simp only [getCoord, polarPoint] at this
    rw [← this, hu]; push_cast; ring
  have e2 : r * sin t = π * v := by
    have := (Prod.ext_iff.1 h).2
    simp only [getCoord, polarPoint] at this
    rw [← this, hv]; push_cast; ring
  have hsq : r ^ 2 = π ^ 2 * ((u : ℝ) ^ 2 + (v : ℝ) ^ 2) := by
    have := sin_sq_add_cos_sq t
    linear_combination (r * cos t + π * u) * e1 + (r * sin t + π * v) * e2 - r ^ 2 * this
  have hpos : 0 < (u : ℝ) ^ 2 + (v : ℝ) ^ 2 := by
    have : 0 < π ^ 2 * ((u : ℝ) ^ 2 + (v : ℝ) ^ 2) := by rw [← hsq]; positivity
    exact pos_of_mul_pos_right this (by positivity)
  set m := √((u : ℝ) ^ 2 + (v : ℝ) ^ 2) with hm
  have hm0 : 0 < m := Real.sqrt_pos.2 hpos
  have hrm : r = π * m := by
    have : r ^ 2 = (π * m) ^ 2 := by rw [hsq, mul_pow, hm, Real.sq_sqrt hpos.le]
    exact (pow_left_inj₀ hr.le (by have := pi_pos; positivity) (by norm_num)).1 this
  have am : IsAlgebraic ℚ m := by
    have : IsAlgebraic ℚ (m ^ 2) := by
      rw [hm, Real.sq_sqrt hpos.le]
      exact ((algebraic_ratCast u).pow 2).add ((algebraic_ratCast v).pow 2)
    exact this.of_pow (by norm_num)
  have hπ0 := pi_ne_zero
  have c1 : cos t = u * m⁻¹ := by
    rw [hrm] at e1; field_simp
    exact mul_left_cancel₀ hπ0 (by linear_combination e1)
  have c2 : sin t = v * m⁻¹ := by
    rw [hrm] at e2; field_simp
    exact mul_left_cancel₀ hπ0 (by linear_combination e2)
  have a1 : IsAlgebraic ℚ (cos t) := by rw [c1]; exact (algebraic_ratCast u).mul am.inv
  have a2 : IsAlgebraic ℚ (sin t) := by rw [c2]; exact (algebraic_ratCast v).mul am.inv
  have a4 : IsAlgebraic ℚ (√2 / 2 : ℝ) := by
    have h2 : IsAlgebraic ℚ (√2 : ℝ) := by
      have : IsAlgebraic ℚ ((√2 : ℝ) ^ 2) := by
        rw [Real.sq_sqrt (by norm_num)]
        simpa using algebraic_ratCast 2
      exact this.of_pow (by norm_num)
    have := h2.mul (algebraic_ratCast (1 / 2))
    push_cast at this
    rwa [mul_one_div] at this
  have b1 : IsAlgebraic ℚ (cos (t - π / 4)) := by
    rw [cos_sub, cos_pi_div_four, sin_pi_div_four]
    exact (a1.mul a4).add (a2.mul a4)
  have b2 : IsAlgebraic ℚ (sin (t - π / 4)) := by
    rw [sin_sub, cos_pi_div_four, sin_pi_div_four]
    exact (a2.mul a4).sub (a1.mul a4)
  have ar : IsAlgebraic ℚ r := (algebraic_ratCast R).add ((algebraic_ratCast A).mul (algebraic_rat_mul b1 b2 w).2)
  apply transcendental_pi
  have : π = r * m⁻¹ := by rw [hrm]; field_simp
  rw [this]
  exact ar.mul am.inv

/-- **C79** no node of any grid lies on the circular or one of the three sine-shaped boundaries (continued beyond the corners). -/
theorem C79_off_grid {name : String} (hname : name ≠ "cubic") {r : ℝ → ℝ} (h : chooseBoundary name = .ok r) (N : ℕ) (i j : ℤ)
    {t : ℝ} (h1 : probA / 2 ≤ t) (h2 : t ≤ 2 * π + probA / 2) : getCoord probAD N i j ≠ polarPoint (r t) t := by
  have hpos : 0 < r t := by
    have := (chooseBoundary_tame h).lo t h1 h2
    norm_num at this; linarith
  have hn : name ∈ ["arc", "outer-sine", "inner-sine", "sine7", "cubic"] := by
    by_contra hc
    rw [(C77_names name).2 hc] at h
    cases h
  have key : ∃ A w : ℚ, r t = ((23 / 10 : ℚ) : ℝ) + A * sin (w * (t - π / 4)) := by
    simp only [List.mem_cons, List.not_mem_nil, or_false] at hn
    rcases hn with rfl | rfl | rfl | rfl | rfl
    · cases h
      exact ⟨0, 0, by simp [arcR, probR]⟩
    · cases h
      refine ⟨15 / 100, 4 / 7, ?_⟩
      unfold outerSineR probA probR bet0
      rw [bNu_shipped]
      norm_num
    · cases h
      refine ⟨-(1 / 2), 4 / 7, ?_⟩
      unfold innerSineR probA probR bet0
      rw [bNu_shipped]
      norm_num
      ring
    · cases h
      refine ⟨25 / 1000, 4, ?_⟩
      unfold sine7R probA probR bet0
      rw [bNu_shipped]
      norm_num
    · exact absurd rfl hname
  obtain ⟨A, w, hr⟩ := key
  have hAD : probAD = ((2 : ℚ) : ℝ) * π := by unfold probAD; norm_num
  rw [hAD, hr]
  exact sine_off_grid (23 / 10) A w 2 N i j (by rw [← hr]; exact hpos)

/-! ## The whole program -/

/-- what a finished inhomogeneous run guarantees: the discrete equation at every interior node, with a right-hand side made from
the source at interior nodes and its second-order Taylor polynomial about a foot point at the other nodes, and coefficients that
minimise the projection defect -/
def InhomoOutcome (iter : Iter) (b : Brentq) (n order : ℕ) (AD a R : ℝ) (r : ℝ → ℝ) (k eps : ℝ) (p q : ℕ) (src : Source)
    (fit : Chebfit) (roots : List ℝ) (bc : ℝ → Fin 3 → ℂ) (lstsq : Lstsq) (ex : Option (ℝ → ℝ → ℂ)) : Prop :=
  ∃ s : PSolver, psInit iter (mkEnv b (n + 1) AD a R r) order k eps p q src = .ok s ∧
    ∃ f : Arr (n + 2), setupF iter s = .ok f ∧
    (∀ nd ∈ s.G.Mplus, fullNode f nd.1 nd.2 = src.f (getCoord AD (n + 1) nd.1 nd.2).1 (getCoord AD (n + 1) nd.1 nd.2).2) ∧
    (∀ nd ∈ s.G.Kplus \ s.G.Mplus, ∃ x g H, x ≠ (0, 0) ∧ src.grad x.1 x.2 = .ok g ∧ src.hess x.1 x.2 = .ok H ∧
      fullNode f nd.1 nd.2 = taylor2 (src.f x.1 x.2) g H x (getCoord AD (n + 1) nd.1 nd.2)) ∧
    ∃ ap, ∃ res : RunResult n, initApSolF n iter s = .ok ap ∧ psRun iter s ap fit roots bc lstsq ex = .ok res ∧
      (∀ c d : Fin n, ((c : ℤ) + 1, (d : ℤ) + 1) ∈ s.G.Mplus →
        applyL (pad res.uAct) order AD k c d = applyB f c d) ∧
      ∃ d, defect n iter s ap res.c0 res.c1 = .ok d ∧ ∀ c1 : List ℂ, c1.length = p + 2 * q →
        ∃ d', defect n iter s ap res.c0 c1 = .ok d' ∧ d ≤ d'

theorem C79_core {iter : Iter} {b : Brentq} (hb : BrentqSpec b) {n order : ℕ} {AD a R k eps : ℝ} {r : ℝ → ℝ} (hAD : 0 < AD)
    (ha : 0 < a) (haπ : a < π) (hr1 : ContDiff ℝ 1 r) (hreg : ∀ t, 0 < r t ^ 2 + deriv r t ^ 2)
    (hpos : ∀ t, a / 2 ≤ t → t ≤ 2 * π + a / 2 → 0 < r t) (hra : r a = R) {G : PsGrids}
    (S : Setup iter (mkEnv b (n + 1) AD a R r) n order k G) {src : Source} (hsrc : SrcDefined src)
    (hh : src.homogeneous = false) {p q : ℕ} (hp : 1 ≤ p) (hq : 1 ≤ q) {s : PSolver}
    (hs : s = ⟨mkEnv b (n + 1) AD a R r, order, k, eps, setupBasis p q, G, buildCache (mkEnv b (n + 1) AD a R r) (G.allGamma 0),
      src⟩) (hready : Ready s)
    (hpt : ∀ nd ∈ G.Kplus \ G.Mplus, ∃ x, extendFPoint s nd = .ok (some x) ∧ x ≠ s.e.coord nd ∧ x ≠ (0, 0))
    (hoff : ∀ nd ∈ G.allGamma 0, ∀ t, a / 2 ≤ t → t ≤ 2 * π + a / 2 → getCoord AD (n + 1) nd.1 nd.2 ≠ polarPoint (r t) t)
    (hM : G.Mplus ≠ ∅) {fit : Chebfit} (hfit : IsChebfit fit) {lstsq : Lstsq} (hlsq : IsLstsq lstsq) (roots : List ℝ)
    (bc : ℝ → Fin 3 → ℂ) (ex : Option (ℝ → ℝ → ℂ)) :
    InhomoOutcome iter b n order AD a R r k eps p q src fit roots bc lstsq ex := by
  classical
  have hpi := pi_pos
  have hR : 0 < R := by rw [← hra]; exact hpos a (by linarith) (by linarith)
  subst hs
  set s : PSolver := ⟨mkEnv b (n + 1) AD a R r, order, k, eps, setupBasis p q, G,
    buildCache (mkEnv b (n + 1) AD a R r) (G.allGamma 0), src⟩ with hs
  refine ⟨s, psInit_ok S.built, ?_⟩
  choose! P hP using hpt
  have hg : ∀ nd : Node, ∃ g H, nd ∈ G.Kplus \ G.Mplus → src.grad (P nd).1 (P nd).2 = .ok g ∧ src.hess (P nd).1 (P nd).2 = .ok H := by
    intro nd
    by_cases hnd : nd ∈ G.Kplus \ G.Mplus
    · obtain ⟨g, hg⟩ := hsrc.grad (P nd).1 (P nd).2 (hP nd hnd).2.2
      obtain ⟨H, hH⟩ := hsrc.hess (P nd).1 (P nd).2 (hP nd hnd).2.2
      exact ⟨g, H, fun _ => ⟨hg, hH⟩⟩
    · exact ⟨(0, 0), ((0, 0), (0, 0)), fun h => absurd h hnd⟩
  choose g H hgH using hg
  obtain ⟨f, hf, f1, f2, -⟩ := C26_setup_f (s := s) S.hit rfl S.built hh P g H (fun q hq => ⟨(hP q hq).1, (hP q hq).2.1⟩)
    (fun q hq => (hgH q hq).1) (fun q hq => (hgH q hq).2)
  refine ⟨f, hf, f1, fun nd hnd => ⟨P nd, g nd, H nd, (hP nd hnd).2.2, (hgH nd hnd).1, (hgH nd hnd).2, f2 nd hnd⟩, ?_⟩
  obtain ⟨W, hW⟩ := extendInhomoF_defined (s := s) hready hsrc hh hAD.ne' (Nat.succ_ne_zero n) hR haπ (by
    intro nd hnd c hc
    have hc' : (mkEnv b (n + 1) AD a R r).bcoord ((mkEnv b (n + 1) AD a R r).polar nd).1 ((mkEnv b (n + 1) AD a R r).polar nd).2 =
        some c := by
      have : s.cache nd = some ((mkEnv b (n + 1) AD a R r).bcoord ((mkEnv b (n + 1) AD a R r).polar nd).1
        ((mkEnv b (n + 1) AD a R r).polar nd).2) := if_pos hnd
      rw [hc] at this
      exact (Option.some.inj this).symm
    obtain ⟨-, -, p3, p4⟩ := env_polar (mkEnv b (n + 1) AD a R r) ha (by show a ≤ 4 * π; linarith) nd
    obtain ⟨-, -, k1, k2, -⟩ := C46_reconstruct (n := c.1) (th0 := c.2) hb hr1 hreg p3 p4.le hc'
    exact ⟨k1, k2, hpos _ k1 k2, hoff nd hnd c.2 k1 k2⟩)
  obtain ⟨ap, res, h1, h2, -, -, h5, -, h7⟩ := C23_run (s := s) S hready hp hq rfl hW hf hfit hlsq roots bc hM ex
  exact ⟨ap, res, h1, h2, h5, h7⟩

/-- the node in the middle of the grid is in `Mplus` -/
theorem mplus_ne_empty {iter : Iter} {b : Brentq} {n order : ℕ} {AD a R k : ℝ} {r : ℝ → ℝ} {G : PsGrids} (hAD : 0 < AD)
    (hn : 1 ≤ n) (ha : 0 < a) (haπ : a < π) (hr2 : 0 ≤ r (2 * π)) (hr : AD / (n + 1 : ℕ) * √2 ≤ r (5 * π / 4))
    (S : Setup iter (mkEnv b (n + 1) AD a R r) n order k G) : G.Mplus ≠ ∅ := by
  have hpi := pi_pos
  obtain ⟨i, j, h1, h2, h3, h4, h5⟩ := middle_interior (a := a) (r := r) hAD (by linarith) hn hr
  apply Finset.nonempty_iff_ne_empty.1
  refine ⟨(i, j), ?_⟩
  rw [(psGrids_sets S.hit S.built).1]
  refine (mem_Mplus S.hit _ _ _ _).2 ⟨(mem_square _ _ _).2 ?_, ?_⟩
  · show (1 ≤ i ∧ i < ((n + 1 : ℕ) : ℤ)) ∧ 1 ≤ j ∧ j < ((n + 1 : ℕ) : ℤ)
    push_cast
    omega
  · exact (C07_is_interior AD (n + 1) a ha (by linarith) r hr2 i j).2 h5

/-- **C79** inhomogeneous problems on circular arcs: on every grid that is fine enough and has no node on the circle, the program
runs to the end with the outcome above. -/
theorem C79_arc {iter : Iter} (hit : IsIter iter) {b : Brentq} (hb : BrentqSpec b) {n order : ℕ}
    (ho : order = 2 ∨ order = 4) {AD a R k eps : ℝ} (hAD : 0 < AD) (ha : 0 < a) (haπ : a < π) (hR : 0 < R) (hn : 1 ≤ n)
    (hfine : AD / (n + 1 : ℕ) * √2 * (1 + 1 / sin (a / 2)) < R) (hmar : R < AD / 2 - AD / (n + 1 : ℕ))
    (hz : NoZeroEig n order AD k) {src : Source} (hsrc : SrcDefined src) (hh : src.homogeneous = false)
    (hoff : ∀ i j : ℤ, (getCoord AD (n + 1) i j).1 ^ 2 + (getCoord AD (n + 1) i j).2 ^ 2 ≠ R ^ 2)
    {p q : ℕ} (hp : 1 ≤ p) (hq : 1 ≤ q)
    {fit : Chebfit} (hfit : IsChebfit fit) {lstsq : Lstsq} (hlsq : IsLstsq lstsq) (roots : List ℝ)
    (bc : ℝ → Fin 3 → ℂ) (ex : Option (ℝ → ℝ → ℂ)) :
    InhomoOutcome iter b n order AD a R (arcR R) k eps p q src fit roots bc lstsq ex := by
  have hpi := pi_pos
  obtain ⟨G, hG, S⟩ := setup_arc hit hb ho hAD ha haπ hR hmar hz
  have hinit := psInit_ok (k := k) (eps := eps) (nc := p) (nr := q) (src := src) hG
  have hready := ready_arc hit hb hAD ha haπ hR hfine hinit
  have hsn : 0 < sin (a / 2) := sin_pos_of_pos_of_lt_pi (by linarith) (by linarith)
  refine C79_core hb hAD ha haπ contDiff_const (fun t => by positivity) (fun _ _ _ => hR) rfl S hsrc hh hp hq rfl
    hready (fun nd hnd => C26_arc_point hit hb hAD ha haπ hR hfine hinit S.margin hnd) (fun nd hnd t _ _ hc => ?_)
    (mplus_ne_empty hAD hn ha haπ hR.le ?_ S) hfit hlsq roots bc ex
  · refine hoff nd.1 nd.2 ?_
    rw [hc]
    simp only [polarPoint]
    linear_combination R ^ 2 * sin_sq_add_cos_sq t
  · show AD / (n + 1 : ℕ) * √2 ≤ R
    refine le_trans ?_ hfine.le
    refine le_mul_of_one_le_right (by positivity) ?_
    have : 0 < 1 / sin (a / 2) := by positivity
    linarith

/-- **C79** inhomogeneous problems with a shipped outer boundary on every grid `N ≥ 16` without a node on the outer curve. -/
theorem C79_shipped {iter : Iter} (hit : IsIter iter) {b : Brentq} (hb : BrentqSpec b) {n order : ℕ} (hN : 16 ≤ n + 1)
    (ho : order = 2 ∨ order = 4) {name : String} {r : ℝ → ℝ} (h : chooseBoundary name = .ok r) {k eps : ℝ}
    (hz : NoZeroEig n order probAD k) {src : Source} (hsrc : SrcDefined src) (hh : src.homogeneous = false)
    (hoff : ∀ (i j : ℤ) (t : ℝ), probA / 2 ≤ t → t ≤ 2 * π + probA / 2 → getCoord probAD (n + 1) i j ≠ polarPoint (r t) t)
    {p q : ℕ} (hp : 1 ≤ p) (hq : 1 ≤ q)
    {fit : Chebfit} (hfit : IsChebfit fit) {lstsq : Lstsq} (hlsq : IsLstsq lstsq) (roots : List ℝ)
    (bc : ℝ → Fin 3 → ℂ) (ex : Option (ℝ → ℝ → ℂ)) :
    InhomoOutcome iter b n order probAD probA probR r k eps p q src fit roots bc lstsq ex := by
  have hpi := pi_pos
  have T := chooseBoundary_tame h
  have g := T.gentleAt hN
  have hAD : 0 < probAD := by unfold probAD; positivity
  have ha := g.apos
  have haπ := g.aπ
  obtain ⟨s1, s2, s3⟩ := shipped_sides hN
  obtain ⟨G, hG, hd⟩ := C12_gentle hit hb (n + 1) order hAD g T.regular
  have S : Setup iter (mkEnv b (n + 1) probAD probA probR r) n order k G := by
    refine ⟨hit, rfl, ho, hAD.ne', hz, hG, fun p hp => ?_⟩
    rw [(psGrids_sets hit hG).1] at hp
    exact C11_margin _ (Nat.succ_pos n) hAD (Rmax := 2.45) T.max ha (by show probA ≤ 4 * π; linarith) (shipped_margin hN) p
      ((mem_Mplus hit _ _ _ _).1 hp).2
  have hinit := psInit_ok (k := k) (eps := eps) (nc := p) (nr := q) (src := src) hG
  have hready := ready_gentle hit hb hAD g T.regular s1 s2 s3 hinit
  have hpos : ∀ t, probA / 2 ≤ t → t ≤ 2 * π + probA / 2 → 0 < r t := fun t h1 h2 => by
    have := T.lo t h1 h2
    norm_num at this; linarith
  refine C79_core hb hAD ha haπ (T.smooth.of_le (by norm_num)) T.regular hpos g.at_a S hsrc hh hp hq rfl
    hready (fun nd hnd => C26_point_of hit hAD ha haπ (fun t h1 h2 => hpos t (by linarith) (by linarith)) g.at_a g.at_two_pi
      hready rfl hG S.margin (fun nd hgam x hx hsq hge => ?_) hnd) (fun nd _ t h1 h2 => hoff nd.1 nd.2 t h1 h2)
    (mplus_ne_empty hAD (by omega) ha haπ (by rw [g.at_two_pi]; exact g.Rpos.le)
      (g.δρ.le.trans (g.lo _ (by linarith) (by linarith))) S) hfit hlsq roots bc ex
  obtain ⟨p1, p2, p3, p4⟩ := env_polar (mkEnv b (n + 1) probAD probA probR r) ha (by show probA ≤ 4 * π; linarith) nd
  obtain ⟨q, t', d1, d2, d3, d4, rfl⟩ := hx
  obtain ⟨d, hd1, hd2⟩ := hd 0 nd hgam
  refine hd2.2 ?_
  have hη : probAD / (n + 1 : ℕ) ≤ 0.393 := by
    have h1 : (16:ℝ) ≤ ((n + 1 : ℕ) : ℝ) := by exact_mod_cast hN
    have h2 := pi_lt_d4
    rw [div_le_iff₀ (by linarith)]
    unfold probAD
    norm_num at h1 h2 ⊢
    linarith
  have hc : getCoord probAD (n + 1) nd.1 nd.2 = polarPoint ((mkEnv b (n + 1) probAD probA probR r).polar nd).1
    ((mkEnv b (n + 1) probAD probA probR r).polar nd).2 := p1.symm
  rw [hc] at hsq
  obtain ⟨x, hx, hle⟩ := tame_near T hη hge p3 p4.le d3 d4 d1 d2 hsq.le
  have hx' : x ∈ Segment probA probR r 0 := hx
  rw [← hc] at hle
  exact (hd1.2 x hx').trans hle

/-- the source methods of an inhomogeneous SymPy problem are defined away from the origin -/
theorem spSource_defined (AD : ℝ) (f : ℝ → ℝ → ℂ) : SrcDefined (spSource AD f) := by
  have h1 : ∀ r th, r ≠ 0 → ∃ g, spGradPolar f r th = .ok g := by
    intro r th h
    unfold spGradPolar
    rw [if_neg h]
    exact ⟨_, rfl⟩
  have h2 : ∀ r th, r ≠ 0 → ∃ g, spHessPolar f r th = .ok g := by
    intro r th h
    unfold spHessPolar
    rw [if_neg h]
    exact ⟨_, rfl⟩
  have h3 : ∀ x y : ℝ, (x, y) ≠ ((0, 0) : ℝ × ℝ) → (cartToPolar x y).1 ≠ 0 := by
    intro x y h h0
    apply h
    have := norm2_eq_zero (v := (x, y))
    unfold norm2 at this
    refine this.1 ?_
    have h0' : hypot x y = 0 := by
      unfold cartToPolar at h0
      simp only at h0
      split_ifs at h0 <;> exact h0
    exact h0'
  exact ⟨fun x y h => h1 _ _ (h3 x y h), fun x y h => h2 _ _ (h3 x y h), h1, h2⟩

/-- **C79** every inhomogeneous problem given by a SymPy source, any rational wavenumber, the circular or a sine-shaped boundary,
every grid `N ≥ 16`: nothing is left to assume, the program runs to the end with the outcome above. -/
theorem C79_sympy {iter : Iter} (hit : IsIter iter) {b : Brentq} (hb : BrentqSpec b) {n order : ℕ} (hN : 16 ≤ n + 1)
    (ho : order = 2 ∨ order = 4) {name : String} (hname : name ∈ ["arc", "outer-sine", "inner-sine", "sine7"]) {r : ℝ → ℝ}
    (h : chooseBoundary name = .ok r) (k : ℚ) {eps : ℝ} (F : ℝ → ℝ → ℂ) {p q : ℕ} (hp : 1 ≤ p) (hq : 1 ≤ q)
    {fit : Chebfit} (hfit : IsChebfit fit) {lstsq : Lstsq} (hlsq : IsLstsq lstsq) (roots : List ℝ)
    (bc : ℝ → Fin 3 → ℂ) (ex : Option (ℝ → ℝ → ℂ)) :
    InhomoOutcome iter b n order probAD probA probR r k eps p q (spSource probAD F) fit roots bc lstsq ex :=
  C79_shipped hit hb hN ho h (C78_rational n ho k) (spSource_defined _ _) rfl
    (fun i j t h1 h2 => C79_off_grid (by rintro rfl; simp at hname) h (n + 1) i j h1 h2) hp hq hfit hlsq roots bc ex

/-- the hypothesis "no node on the curve" cannot be dropped: if a node attached to the outer curve lies on it, the inhomogeneous
extension divides zero by zero -/
theorem C79_nan {s : PSolver} (hh : s.src.homogeneous = false) {nd : Node} (hnd : nd ∈ s.G.allGamma 0) {n th : ℝ}
    (hc : s.cache nd = some (some (n, th))) (h1 : s.e.a ≤ th) (h2 : th ≤ 2 * π)
    (hon : s.e.coord nd = polarPoint (s.e.evalR th) th) : ∀ ext, extendInhomoF s ≠ .ok ext := by
  intro ext h
  unfold extendInhomoF at h
  rcases hi : mvExtendInhomo s with er | mi
  · rw [hi, error_bind] at h; cases h
  obtain ⟨et, res, hs, -⟩ := mvLoop_inv hi
  obtain ⟨-, k1, k2⟩ := hs 0 nd hnd
  unfold getEtype at k1
  simp only [if_true, hc, pure_eq_ok, if_neg (not_lt.2 h1), if_neg (not_lt.2 h2), gt_iff_lt] at k1
  rw [← Except.ok.inj k1] at k2
  unfold doInhomo at k2
  rw [if_neg (by simp [hh])] at k2
  change doInhomo0Standard s nd = _ at k2
  rw [doInhomo0Standard_nan s hc hon] at k2
  cases k2

/-- such nodes exist when the side of the square is rational: the node `(-2, 0)` of an 8 × 8 square with the circle of radius 2 -/
example : getCoord 8 8 2 4 = polarPoint (arcR 2 π) π := by
  unfold getCoord polarPoint arcR
  norm_num

/-- non-vacuity: a source that is not constant on the boundary called "sine7"; the oracles exist -/
example : ∃ r, chooseBoundary "sine7" = .ok r ∧ (spSource probAD fun ρ t => (ρ * cos t : ℝ)).homogeneous = false ∧
    (∃ fit : Chebfit, IsChebfit fit) ∧ (∃ lstsq : Lstsq, IsLstsq lstsq) := ⟨_, rfl, rfl, exists_chebfit, exists_isLstsq⟩

end Pot
