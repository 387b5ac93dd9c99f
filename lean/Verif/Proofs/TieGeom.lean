import Verif.Props.NearTies

/-! # Which nodes of the discrete boundary are not clearly closer than `h√2` to the boundary -/

namespace Pot
open Real Spec

section
variable {N c : ℕ} (hc : N = 2 * c) (hN : 16 ≤ N) (hN2 : N ≤ 2 ^ 15) {r : ℝ → ℝ} (tame : Tame r)

theorem node_xy (hc : N = 2 * c) (hN : 0 < N) (i j : ℝ) : getCoord probAD N i j = (probAD / N * (i - c), probAD / N * (j - c)) := by
  have hNr : (0 : ℝ) < N := by exact_mod_cast hN
  have hcr : (N : ℝ) = 2 * c := by exact_mod_cast hc
  unfold getCoord
  rw [Prod.mk.injEq]
  have : (c : ℝ) ≠ 0 := by intro h; rw [h] at hcr; linarith
  constructor <;> rw [hcr] <;> field_simp

include hN hN2 in
theorem mesh_bounds : 1 / 2 ^ 13 ≤ probAD / N ∧ probAD / N ≤ 0.393 ∧ (0 : ℝ) < N := by
  have hNr : (16 : ℝ) ≤ N := by exact_mod_cast hN
  have hNr2 : (N : ℝ) ≤ 32768 := by exact_mod_cast hN2
  have p1 := pi_gt_d4
  have p2 := pi_lt_d4
  unfold probAD
  refine ⟨?_, ?_, by linarith⟩
  · rw [div_le_div_iff₀ (by norm_num) (by linarith)]; norm_num at p1 ⊢; linarith
  · rw [div_le_iff₀ (by linarith)]; norm_num at p2 ⊢; linarith

include tame in
theorem mem_domain_of_norm (hN0 : 0 < N) {i j : ℤ} (hi : 0 ≤ i ∧ i ≤ N) (hj : 0 ≤ j ∧ j ≤ N)
    (hw : ¬ (0 < (getCoord probAD N i j).2 ∧ (getCoord probAD N i j).2 < (getCoord probAD N i j).1))
    (hn : (getCoord probAD N i j).1 ^ 2 + (getCoord probAD N i j).2 ^ 2 ≤ 1.8 ^ 2) : getCoord probAD N i j ∈ Domain probA r := by
  have hpi := pi_pos
  obtain ⟨w1, w2⟩ := (inWedge_iff hN0 hi hj).2 hw
  obtain ⟨p1, p2, p3, p4⟩ := C02_get_polar probAD N probA (by unfold probA; positivity) (by unfold probA; linarith) i j
  refine ⟨_, _, w1, w2, p2, ?_, p1.symm⟩
  have e := polarPoint_norm p2 (getPolar probAD N probA i j).2
  rw [p1] at e
  unfold probA at w1
  have l := tame.lo (getPolar probAD N (π / 4) i j).2 (by unfold probA at w2; linarith) (by unfold probA at w2; linarith)
  unfold probA at e ⊢
  rw [← e]
  exact (sqrt_le_iff.2 ⟨by norm_num, hn⟩).trans l

/-- the point of the grid next to the side `θ = a`, above it, and beyond the outer curve -/
theorem beyond_curve (tame : Tame r) {h u ρ θ : ℝ} (h0 : 0 < h) (h1 : h ≤ 0.393) (hρ : 0 ≤ ρ) (a1 : probA ≤ θ) (a2 : θ ≤ 2 * π)
    (hu : 0 ≤ u) (huR : √2 * h * u ≤ 2.3) (e : polarPoint ρ θ = (h * (u - 1), h * (u + 1))) (hout : r θ < ρ) :
    ρ - r θ ≤ 0.9 * h := by
  have hpi := pi_pos
  have rr : √2 * √2 = 2 := mul_self_sqrt (by norm_num)
  have r2 : √2 < 1.4143 := by rw [sqrt_lt' (by norm_num)]; norm_num
  have r1 : 1.414 < √2 := by rw [lt_sqrt (by norm_num)]; norm_num
  unfold probA at a1
  have hr := tame.lo θ (by linarith) (by linarith)
  have hρ1 : 1.8 < ρ := by linarith
  unfold polarPoint at e
  rw [Prod.mk.injEq] at e
  obtain ⟨e1, e2⟩ := e
  -- the components along and across the side
  have cs : ρ * cos (θ - π / 4) = √2 * h * u := by
    rw [cos_sub, cos_pi_div_four, sin_pi_div_four]
    linear_combination √2 / 2 * e1 + √2 / 2 * e2
  have sn : ρ * sin (θ - π / 4) = √2 * h := by
    rw [sin_sub, cos_pi_div_four, sin_pi_div_four]
    linear_combination √2 / 2 * e2 - √2 / 2 * e1
  have hρ2 : ρ ^ 2 = (√2 * h * u) ^ 2 + (√2 * h) ^ 2 := by
    rw [← cs, ← sn]; linear_combination -ρ ^ 2 * sin_sq_add_cos_sq (θ - π / 4)
  obtain ⟨v, hv⟩ : ∃ v, v = √2 * h * u := ⟨_, rfl⟩
  have hv0 : 0 ≤ v := by rw [hv]; positivity
  rw [← hv] at cs hρ2 huR
  have hh2 : (√2 * h) ^ 2 = 2 * h ^ 2 := by linear_combination h ^ 2 * rr
  -- the difference of the radii
  have d1 : ρ - v ≤ 0.44 * h := by
    have : (ρ - v) * (ρ + v) = 2 * h ^ 2 := by rw [← hh2]; linear_combination hρ2
    by_contra hcn
    rw [not_le] at hcn
    have : 0.44 * h * 1.8 < (ρ - v) * (ρ + v) := by nlinarith
    nlinarith
  -- the angle
  have sp : 0 < sin (θ - π / 4) := by
    by_contra hcn
    rw [not_lt] at hcn
    have : 0 < √2 * h := by positivity
    nlinarith
  have cp : 0 ≤ cos (θ - π / 4) := by
    by_contra hcn
    rw [not_le] at hcn
    nlinarith
  have hlt : θ - π / 4 ≤ π / 2 := by
    by_contra hcn
    rw [not_le] at hcn
    rcases lt_or_ge (θ - π / 4) (π + π / 2) with q | q
    · have := cos_neg_of_pi_div_two_lt_of_lt hcn q
      linarith
    · have := sin_nonpos_of_nonpos_of_neg_pi_le (x := θ - π / 4 - 2 * π) (by linarith) (by linarith)
      rw [sin_sub_two_pi] at this
      linarith
  have jd := mul_le_sin (x := θ - π / 4) (by linarith) hlt
  have d2 : θ - π / 4 ≤ 1.24 * h := by
    have s1 : sin (θ - π / 4) ≤ √2 * h / 1.8 := by
      rw [le_div_iff₀ (by norm_num)]; nlinarith
    have : θ - π / 4 = π / 2 * (2 / π * (θ - π / 4)) := by field_simp
    rw [this]
    have p2 := pi_lt_d4
    calc π / 2 * (2 / π * (θ - π / 4)) ≤ π / 2 * (√2 * h / 1.8) := mul_le_mul_of_nonneg_left (jd.trans s1) (by positivity)
      _ ≤ 3.1416 / 2 * (1.4143 * h / 1.8) := by
        refine mul_le_mul (by linarith) ?_ (by positivity) (by norm_num)
        exact div_le_div_of_nonneg_right (mul_le_mul_of_nonneg_right r2.le h0.le) (by norm_num)
      _ ≤ 1.24 * h := by norm_num; nlinarith
  have hdr : |r θ - r (π / 4)| ≤ 0.29 * |θ - π / 4| := by
    have := Convex.norm_image_sub_le_of_norm_deriv_le (f := r) (s := Set.Icc (π / 4) (2 * π)) (C := 0.29) (x := π / 4) (y := θ)
      (fun x _ => (tame.smooth.differentiable (by norm_num)).differentiableAt)
      (fun x hx => tame.d1 x (by linarith [hx.1]) (by linarith [hx.2])) (convex_Icc _ _) ⟨le_rfl, by linarith⟩ ⟨a1, a2⟩
    exact this
  rw [tame.at_a, abs_of_nonneg (by linarith : 0 ≤ θ - π / 4)] at hdr
  have := (abs_le.1 hdr).1
  norm_num at *
  linarith

/-- close to the side `θ = 2π` -/
theorem tie_side1 {h : ℝ} (h0 : 1 / 2 ^ 13 ≤ h) {u d1 d2 : ℤ} (hu : 0 ≤ u) (huR : h * u ≤ probR - 1 / 2 ^ 22) (e1 : d1 = 1 ∨ d1 = -1)
    (e2 : d2 = 1 ∨ d2 = -1) : (∃ z ∈ Segment probA probR r 1, dist2 (h * (u + d1), h * d2) z ≤ h * √2 - 1 / 2 ^ 23) ∨ u = 0 ∧ d1 = -1 := by
  have hp : 0 < h := lt_of_lt_of_le (by norm_num) h0
  have r1 : 1.414 < √2 := by rw [lt_sqrt (by norm_num)]; norm_num
  have rr : √2 * √2 = 2 := mul_self_sqrt (by norm_num)
  have hlt : h ≤ h * √2 - 1 / 2 ^ 23 := by norm_num at h0 ⊢; nlinarith
  have r2 : √2 < 1.4143 := by rw [sqrt_lt' (by norm_num)]; norm_num
  have hu' : (0 : ℝ) ≤ u := by exact_mod_cast hu
  have hd2 : ((d2 : ℝ)) ^ 2 = 1 := by rcases e2 with rfl | rfl <;> norm_num
  have vert : ∀ x : ℝ, dist2 (x, h * d2) (x, 0) = h := fun x => by
    unfold dist2
    dsimp only
    rw [sub_self, sub_zero, mul_pow, hd2, show (0 : ℝ) ^ 2 + h ^ 2 * 1 = h ^ 2 by ring, sqrt_sq hp.le]
  rcases e1 with rfl | rfl
  · left
    push_cast
    rcases le_total (h * ((u : ℝ) + 1)) probR with q | q
    · exact ⟨(h * ((u : ℝ) + 1), 0), ⟨_, by positivity, q, rfl⟩, by rw [vert]; exact hlt⟩
    · refine ⟨(probR, 0), ⟨_, by unfold probR; norm_num, le_rfl, rfl⟩, ?_⟩
      refine sqrt_le_iff.2 ⟨by linarith, ?_⟩
      dsimp only
      rw [sub_zero, mul_pow, hd2]
      have a1 : h * ((u : ℝ) + 1) - probR ≤ h - 1 / 2 ^ 22 := by linarith
      have a2 : (h * ((u : ℝ) + 1) - probR) ^ 2 ≤ (h - 1 / 2 ^ 22) ^ 2 := pow_le_pow_left₀ (by linarith) a1 2
      have e : (h * √2 - 1 / 2 ^ 23) ^ 2 = 2 * h ^ 2 - 2 * (1 / 2 ^ 23) * h * √2 + (1 / 2 ^ 23) ^ 2 := by
        linear_combination h ^ 2 * rr
      rw [e]
      norm_num at a2 h0 ⊢
      nlinarith
  · by_cases hu0 : u = 0
    · exact .inr ⟨hu0, rfl⟩
    · left
      have hu1 : (1 : ℝ) ≤ u := by exact_mod_cast (by omega : 1 ≤ u)
      refine ⟨(h * ((u : ℝ) + (-1 : ℤ)), 0), ⟨_, ?_, ?_, rfl⟩, by rw [vert]; exact hlt⟩
      · push_cast; exact mul_nonneg hp.le (by linarith)
      · push_cast; norm_num at huR; nlinarith

/-- a point on the side `θ = a` -/
theorem diag_polar (τ : ℝ) : polarPoint (√2 * τ) probA = (τ, τ) := by
  have rr : √2 * √2 = 2 := mul_self_sqrt (by norm_num)
  unfold polarPoint probA
  rw [cos_pi_div_four, sin_pi_div_four, Prod.mk.injEq]
  constructor <;> linear_combination τ / 2 * rr

theorem diag_mem {τ : ℝ} (h0 : 0 ≤ τ) (h1 : √2 * τ ≤ probR) : (τ, τ) ∈ Segment probA probR r 2 :=
  ⟨√2 * τ, by positivity, h1, (diag_polar τ).symm⟩

theorem diag_dist {s τ : ℝ} (h : τ ≤ s) : dist2 (s, s) (τ, τ) = √2 * (s - τ) := by
  unfold dist2
  dsimp only
  rw [show (s - τ) ^ 2 + (s - τ) ^ 2 = 2 * (s - τ) ^ 2 by ring, sqrt_mul (by norm_num), sqrt_sq (by linarith)]

/-- along the side `θ = a` -/
theorem tie_along {h σ : ℝ} (h0 : 1 / 2 ^ 13 ≤ h) {u d : ℤ} (hσ : 0 ≤ σ) (hσ1 : σ < 1 / 2) (e1 : d = 1 ∨ d = -1)
    (z0 : 0 ≤ h * (u + σ * d)) (z1 : √2 * (h * (u + σ * d)) ≤ probR) (hcl : √2 * (h * u) ≤ probR → √2 * (h * u) ≤ probR - 1 / 2 ^ 22) :
    (∃ z ∈ Segment probA probR r 2, dist2 (h * (u + d), h * (u + d)) z ≤ h * √2 - 1 / 2 ^ 23) ∨ u = 0 ∧ d = -1 := by
  have hp : 0 < h := lt_of_lt_of_le (by norm_num) h0
  have r1 : 1.414 < √2 := by rw [lt_sqrt (by norm_num)]; norm_num
  have rr : √2 * √2 = 2 := mul_self_sqrt (by norm_num)
  have hpos : 0 ≤ h * √2 - 1 / 2 ^ 23 := by norm_num at h0 ⊢; nlinarith
  have z0' : 0 ≤ (u : ℝ) + σ * d := nonneg_of_mul_nonneg_right z0 hp
  have zero : ∀ x : ℝ, dist2 (x, x) (x, x) = 0 := fun x => by unfold dist2; simp
  rcases e1 with rfl | rfl
  · left
    have hu : 0 ≤ u := by
      push_cast at z0'
      have : (-1 : ℝ) < u := by linarith
      have : (-1 : ℤ) < u := by exact_mod_cast this
      omega
    have hu' : (0 : ℝ) ≤ u := by exact_mod_cast hu
    push_cast at z1 ⊢
    have hle : √2 * (h * (u : ℝ)) ≤ probR := by
      refine le_trans ?_ z1
      refine mul_le_mul_of_nonneg_left (mul_le_mul_of_nonneg_left (by linarith) hp.le) (by positivity)
    have hcl' := hcl hle
    rcases le_total (√2 * (h * ((u : ℝ) + 1))) probR with q | q
    · exact ⟨_, diag_mem (by positivity) q, by rw [zero]; exact hpos⟩
    · have e0 : √2 * (probR * (√2 / 2)) = probR := by linear_combination probR / 2 * rr
      have hs : probR * (√2 / 2) ≤ h * ((u : ℝ) + 1) := by nlinarith
      refine ⟨(probR * (√2 / 2), probR * (√2 / 2)), diag_mem (by unfold probR; positivity) e0.le, ?_⟩
      rw [diag_dist hs, mul_sub, e0]
      norm_num at hcl' ⊢
      linarith
  · by_cases hu0 : u = 0
    · exact .inr ⟨hu0, rfl⟩
    · left
      push_cast at z0' z1 ⊢
      have hu : 1 ≤ u := by
        have : (0 : ℝ) ≤ u := by linarith
        have : (0 : ℤ) ≤ u := by exact_mod_cast this
        omega
      have hu' : (1 : ℝ) ≤ u := by exact_mod_cast hu
      refine ⟨_, diag_mem (τ := h * ((u : ℝ) + -1)) (mul_nonneg hp.le (by linarith)) (le_trans ?_ z1), by rw [zero]; exact hpos⟩
      refine mul_le_mul_of_nonneg_left (mul_le_mul_of_nonneg_left (by linarith) hp.le) (by positivity)

/-- across the side `θ = a` -/
theorem tie_across (tame : Tame r) {h : ℝ} (h0 : 1 / 2 ^ 13 ≤ h) (h1 : h ≤ 0.393) {u d1 d2 : ℤ} (e1 : d1 = 1 ∨ d1 = -1) (e2 : d2 = 1 ∨ d2 = -1)
    (hdd : ¬ d1 = d2) (hu : 0 ≤ u) (hle : √2 * (h * (u : ℝ)) ≤ probR)
    (cl : √2 * (h * (u : ℝ)) ≤ probR → √2 * (h * (u : ℝ)) ≤ probR - 1 / 2 ^ 22)
    (hne : (h * (u : ℝ), h * (u : ℝ)) ∈ Domain probA r ↔ (h * ((u : ℝ) + d1), h * ((u : ℝ) + d2)) ∉ Domain probA r)
    (domn : ¬ (0 < h * ((u : ℝ) + d2) ∧ h * ((u : ℝ) + d2) < h * (u + d1)) → (h * ((u : ℝ) + d1)) ^ 2 + (h * ((u : ℝ) + d2)) ^ 2 ≤ 1.8 ^ 2 →
      (h * ((u : ℝ) + d1), h * ((u : ℝ) + d2)) ∈ Domain probA r)
    {ρ θ : ℝ} (p1 : polarPoint ρ θ = (h * ((u : ℝ) + d1), h * ((u : ℝ) + d2))) (p2 : 0 ≤ ρ)
    (wedge : θ ≥ probA ∧ θ ≤ 2 * π ↔ ¬ (0 < h * ((u : ℝ) + d2) ∧ h * ((u : ℝ) + d2) < h * (u + d1))) :
    (∃ sid, ∃ z ∈ Segment probA probR r sid, dist2 (h * ((u : ℝ) + d1), h * ((u : ℝ) + d2)) z ≤ h * √2 - 1 / 2 ^ 23) ∨
    ∃ t : ℕ, 2 ≤ t ∧ u = t + 1 ∧ u = t + 1 ∧ d1 = 1 ∧ d2 = -1 ∧ √2 * (h * (t + 1)) ≤ probR - 1 / 2 ^ 22 := by
  have hpi := pi_pos
  have hp : 0 < h := lt_of_lt_of_le (by norm_num) h0
  have r1 : 1.414 < √2 := by rw [lt_sqrt (by norm_num)]; norm_num
  have r2 : √2 < 1.4143 := by rw [sqrt_lt' (by norm_num)]; norm_num
  have rr : √2 * √2 = 2 := mul_self_sqrt (by norm_num)
  have hra : r probA = probR := by unfold probA probR; rw [tame.at_a]; norm_num
  have hr2 : r (2 * π) = probR := by unfold probR; rw [tame.at_two_pi]; norm_num
  have ha : 0 < probA := by unfold probA; positivity
  have haπ : probA < π := by unfold probA; linarith
  have hR : 0 ≤ probR := by unfold probR; norm_num
  have hlt : h ≤ h * √2 - 1 / 2 ^ 23 := by norm_num at h0 ⊢; nlinarith
  have hu' : (0 : ℝ) ≤ u := by exact_mod_cast hu
  have cl' := cl hle
  have hin : (h * (u : ℝ), h * (u : ℝ)) ∈ Domain probA r :=
    ⟨√2 * (h * u), probA, le_rfl, by linarith, by positivity, by rw [hra]; exact hle, (diag_polar _).symm⟩
  have hout := hne.1 hin
  rcases e1 with rfl | rfl <;> rcases e2 with rfl | rfl <;> first | exact absurd rfl hdd | skip
  · -- below the side
    rcases (by omega : u = 0 ∨ u = 1 ∨ u = 2 ∨ 3 ≤ u) with rfl | rfl | rfl | hu3
    · exact absurd (domn (by push_cast; intro w; nlinarith [w.1]) (by push_cast; norm_num; nlinarith)) hout
    · refine .inl ⟨1, (h * ((1 : ℤ) + (1 : ℤ)), 0), ⟨_, by positivity, by unfold probR; push_cast; linarith, rfl⟩, ?_⟩
      unfold dist2
      push_cast
      norm_num
      norm_num at h0; nlinarith
    · refine .inl ⟨1, (h * ((2 : ℤ) + (1 : ℤ)), 0), ⟨_, by positivity, by unfold probR; push_cast; linarith, rfl⟩, ?_⟩
      have : dist2 (h * (((2 : ℤ) : ℝ) + ((1 : ℤ) : ℝ)), h * (((2 : ℤ) : ℝ) + ((-1 : ℤ) : ℝ))) (h * ((2 : ℤ) + (1 : ℤ)), 0) = h := by
        unfold dist2
        dsimp only
        push_cast
        rw [sub_self, show (0 : ℝ) ^ 2 + (h * (2 + -1) - 0) ^ 2 = h ^ 2 by ring, sqrt_sq hp.le]
      rw [this]; exact hlt
    · obtain ⟨t, ht⟩ : ∃ t : ℕ, u = t + 1 := ⟨(u - 1).toNat, by omega⟩
      refine .inr ⟨t, by omega, ht, ht, rfl, rfl, ?_⟩
      rw [ht] at cl'
      push_cast at cl'
      exact cl'
  · -- above the side
    left
    obtain ⟨w1, w2⟩ := wedge.2 (by push_cast; intro w; nlinarith [w.2])
    have hgt : r θ < ρ := by
      by_contra hcn
      rw [not_lt] at hcn
      exact hout ⟨ρ, θ, w1, w2, p2, hcn, p1.symm⟩
    have hb := beyond_curve tame hp h1 p2 w1 w2 hu' (by unfold probR at hle; norm_num at hle ⊢; linarith)
      (by rw [p1]; push_cast; rw [sub_eq_add_neg]) hgt
    refine ⟨0, _, ⟨θ, w1, w2, rfl⟩, ?_⟩
    rw [← p1]
    have e : dist2 (polarPoint ρ θ) (polarPoint (r θ) θ) = ρ - r θ := by
      rw [← sqrt_sq (by linarith : 0 ≤ ρ - r θ)]
      unfold dist2 polarPoint
      dsimp only
      congr 1
      linear_combination (ρ - r θ) ^ 2 * sin_sq_add_cos_sq θ
    rw [e]
    refine hb.trans (le_trans ?_ hlt)
    linarith

theorem tie_on1 (tame : Tame r) {h : ℝ} (h0 : 1 / 2 ^ 13 ≤ h) (h1 : h ≤ 0.393) {u v d1 d2 : ℤ} (e1 : d1 = 1 ∨ d1 = -1) (e2 : d2 = 1 ∨ d2 = -1)
    {σ : ℝ} (s0 : 0 ≤ σ) (hσ2 : σ < 1 / 2)
    (hseg : (h * ((u : ℝ) + σ * d1), h * ((v : ℝ) + σ * d2)) ∈ Segment probA probR r 1)
    (hclear : ∀ z ∈ Segment probA probR r 0, 1 / 2 ^ 22 < dist2 (h * u, h * v) z)
    (hne : (h * (u : ℝ), h * (v : ℝ)) ∈ Domain probA r ↔ (h * ((u : ℝ) + d1), h * ((v : ℝ) + d2)) ∉ Domain probA r)
    (domm : ¬ (0 < h * (v : ℝ) ∧ h * (v : ℝ) < h * u) → (h * (u : ℝ)) ^ 2 + (h * (v : ℝ)) ^ 2 ≤ 1.8 ^ 2 →
      (h * (u : ℝ), h * (v : ℝ)) ∈ Domain probA r)
    (domn : ¬ (0 < h * ((v : ℝ) + d2) ∧ h * ((v : ℝ) + d2) < h * (u + d1)) → (h * ((u : ℝ) + d1)) ^ 2 + (h * ((v : ℝ) + d2)) ^ 2 ≤ 1.8 ^ 2 →
      (h * ((u : ℝ) + d1), h * ((v : ℝ) + d2)) ∈ Domain probA r) :
    (∃ sid, ∃ z ∈ Segment probA probR r sid, dist2 (h * ((u : ℝ) + d1), h * ((v : ℝ) + d2)) z ≤ h * √2 - 1 / 2 ^ 23) ∨
    ∃ t : ℕ, 2 ≤ t ∧ u = t + 1 ∧ v = t + 1 ∧ d1 = 1 ∧ d2 = -1 ∧ √2 * (h * (t + 1)) ≤ probR - 1 / 2 ^ 22 := by
  have hpi := pi_pos
  have hp : 0 < h := lt_of_lt_of_le (by norm_num) h0
  have r1 : 1.414 < √2 := by rw [lt_sqrt (by norm_num)]; norm_num
  have r2 : √2 < 1.4143 := by rw [sqrt_lt' (by norm_num)]; norm_num
  have rr : √2 * √2 = 2 := mul_self_sqrt (by norm_num)
  have hra : r probA = probR := by unfold probA probR; rw [tame.at_a]; norm_num
  have hr2 : r (2 * π) = probR := by unfold probR; rw [tame.at_two_pi]; norm_num
  have ha : 0 < probA := by unfold probA; positivity
  have haπ : probA < π := by unfold probA; linarith
  have hR : 0 ≤ probR := by unfold probR; norm_num
  have hlt : h ≤ h * √2 - 1 / 2 ^ 23 := by norm_num at h0 ⊢; nlinarith
  have f2 : (d2 : ℝ) ^ 2 = 1 := by rcases e2 with rfl | rfl <;> norm_num
  have corner0 : ((probR, 0) : ℝ × ℝ) ∈ Segment probA probR r 0 := ⟨2 * π, by linarith, le_rfl, by rw [hr2]; unfold polarPoint; simp⟩
  obtain ⟨τ, τ0, τ1, hz⟩ := hseg
  rw [Prod.mk.injEq] at hz
  obtain ⟨z1, z2⟩ := hz
  have zv : (v : ℝ) + σ * d2 = 0 := by
    rcases mul_eq_zero.1 z2 with q | q
    · linarith
    · exact q
  have hv : v = 0 := by
    have : |(v : ℝ)| < 1 := by
      rw [show (v : ℝ) = -(σ * d2) by linarith, abs_neg, abs_lt]
      rcases e2 with rfl | rfl <;> push_cast <;> constructor <;> linarith
    have : |v| < 1 := by exact_mod_cast this
    exact Int.abs_lt_one_iff.1 this
  subst hv
  have hs : σ = 0 := by
    rcases e2 with rfl | rfl <;> push_cast at zv <;> linarith
  subst hs
  rw [zero_mul, add_zero] at z1
  have hu : 0 ≤ u := by
    have : 0 ≤ (u : ℝ) := nonneg_of_mul_nonneg_right (by rw [z1]; exact τ0) hp
    exact_mod_cast this
  have q := hclear _ corner0
  have hdist : dist2 (h * (u : ℝ), h * ((0 : ℤ) : ℝ)) (probR, 0) = probR - h * u := by
    unfold dist2
    dsimp only
    push_cast
    rw [show (h * (u : ℝ) - probR) ^ 2 + (h * 0 - 0) ^ 2 = (probR - h * u) ^ 2 by ring, sqrt_sq (by linarith)]
  rw [hdist] at q
  rcases tie_side1 (r := r) h0 hu (by linarith) e1 e2 with ⟨z, hz, hz'⟩ | ⟨rfl, rfl⟩
  · refine .inl ⟨1, z, hz, ?_⟩
    push_cast
    rw [zero_add]
    exact hz'
  · exfalso
    refine hne.1 (domm ?_ ?_) (domn ?_ ?_)
    · push_cast; intro w; linarith [w.2, w.1]
    · push_cast; norm_num
    · push_cast
      intro w
      have : h * (0 + -1) < 0 := by nlinarith
      linarith [w.1, w.2]
    · push_cast
      rw [zero_add, zero_add, mul_pow, mul_pow, f2]
      norm_num; nlinarith

theorem tie_on2 (tame : Tame r) {h : ℝ} (h0 : 1 / 2 ^ 13 ≤ h) (h1 : h ≤ 0.393) {u v d1 d2 : ℤ} (e1 : d1 = 1 ∨ d1 = -1) (e2 : d2 = 1 ∨ d2 = -1)
    {σ : ℝ} (s0 : 0 ≤ σ) (hσ2 : σ < 1 / 2)
    (hseg : (h * ((u : ℝ) + σ * d1), h * ((v : ℝ) + σ * d2)) ∈ Segment probA probR r 2)
    (hclear : ∀ z ∈ Segment probA probR r 0, 1 / 2 ^ 22 < dist2 (h * u, h * v) z)
    (hne : (h * (u : ℝ), h * (v : ℝ)) ∈ Domain probA r ↔ (h * ((u : ℝ) + d1), h * ((v : ℝ) + d2)) ∉ Domain probA r)
    (domm : ¬ (0 < h * (v : ℝ) ∧ h * (v : ℝ) < h * u) → (h * (u : ℝ)) ^ 2 + (h * (v : ℝ)) ^ 2 ≤ 1.8 ^ 2 →
      (h * (u : ℝ), h * (v : ℝ)) ∈ Domain probA r)
    (domn : ¬ (0 < h * ((v : ℝ) + d2) ∧ h * ((v : ℝ) + d2) < h * (u + d1)) → (h * ((u : ℝ) + d1)) ^ 2 + (h * ((v : ℝ) + d2)) ^ 2 ≤ 1.8 ^ 2 →
      (h * ((u : ℝ) + d1), h * ((v : ℝ) + d2)) ∈ Domain probA r)
    {ρ θ : ℝ} (p1 : polarPoint ρ θ = (h * ((u : ℝ) + d1), h * ((v : ℝ) + d2))) (p2 : 0 ≤ ρ)
    (wedge : θ ≥ probA ∧ θ ≤ 2 * π ↔ ¬ (0 < h * ((v : ℝ) + d2) ∧ h * ((v : ℝ) + d2) < h * (u + d1))) :
    (∃ sid, ∃ z ∈ Segment probA probR r sid, dist2 (h * ((u : ℝ) + d1), h * ((v : ℝ) + d2)) z ≤ h * √2 - 1 / 2 ^ 23) ∨
    ∃ t : ℕ, 2 ≤ t ∧ u = t + 1 ∧ v = t + 1 ∧ d1 = 1 ∧ d2 = -1 ∧ √2 * (h * (t + 1)) ≤ probR - 1 / 2 ^ 22 := by
  have hpi := pi_pos
  have hp : 0 < h := lt_of_lt_of_le (by norm_num) h0
  have r1 : 1.414 < √2 := by rw [lt_sqrt (by norm_num)]; norm_num
  have r2 : √2 < 1.4143 := by rw [sqrt_lt' (by norm_num)]; norm_num
  have rr : √2 * √2 = 2 := mul_self_sqrt (by norm_num)
  have hra : r probA = probR := by unfold probA probR; rw [tame.at_a]; norm_num
  have hr2 : r (2 * π) = probR := by unfold probR; rw [tame.at_two_pi]; norm_num
  have ha : 0 < probA := by unfold probA; positivity
  have haπ : probA < π := by unfold probA; linarith
  have hR : 0 ≤ probR := by unfold probR; norm_num
  have hlt : h ≤ h * √2 - 1 / 2 ^ 23 := by norm_num at h0 ⊢; nlinarith
  have corner2 : ((probR * (√2 / 2), probR * (√2 / 2)) : ℝ × ℝ) ∈ Segment probA probR r 0 := by
    refine ⟨probA, le_rfl, by linarith, ?_⟩
    rw [hra, ← diag_polar]
    congr 1
    linear_combination probR / 2 * rr
  -- the side `θ = a` from above and below
  have clear2 : u = v → √2 * (h * (u : ℝ)) ≤ probR → √2 * (h * (u : ℝ)) ≤ probR - 1 / 2 ^ 22 := by
    rintro rfl hle
    have e0 : √2 * (probR * (√2 / 2)) = probR := by linear_combination probR / 2 * rr
    have q := hclear _ corner2
    rw [dist2_comm, diag_dist (by nlinarith), mul_sub, e0] at q
    linarith
  obtain ⟨τ, τ0, τ1, hz⟩ := hseg
  obtain ⟨τ', hτ⟩ : ∃ τ', τ = √2 * τ' := ⟨τ / √2, by field_simp⟩
  rw [hτ, diag_polar, Prod.mk.injEq] at hz
  obtain ⟨z1, z2⟩ := hz
  have z3 : (u : ℝ) + σ * d1 = v + σ * d2 := mul_left_cancel₀ hp.ne' (z1.trans z2.symm)
  have huv : u = v := by
    have : |((u - v : ℤ) : ℝ)| < 1 := by
      rw [show ((u - v : ℤ) : ℝ) = σ * d2 - σ * d1 by push_cast; linarith, abs_lt]
      rcases e1 with rfl | rfl <;> rcases e2 with rfl | rfl <;> push_cast <;> constructor <;> linarith
    have : |u - v| < 1 := by exact_mod_cast this
    have := Int.abs_lt_one_iff.1 this
    omega
  have cl := clear2 huv
  subst huv
  by_cases hdd : d1 = d2
  · subst hdd
    rcases tie_along (r := r) h0 s0 hσ2 e1 (by rw [z1]; rw [hτ] at τ0; exact nonneg_of_mul_nonneg_right τ0 (by positivity))
      (by rw [z1, ← hτ]; exact τ1) cl with ⟨z, hz, hz'⟩ | ⟨rfl, rfl⟩
    · exact .inl ⟨2, z, hz, hz'⟩
    · exfalso
      refine hne.1 (domm ?_ ?_) (domn ?_ ?_)
      · intro w; linarith [w.2]
      · push_cast; norm_num
      · intro w; linarith [w.2]
      · push_cast; norm_num; nlinarith
  · have hs : σ = 0 := by
      rcases e1 with rfl | rfl <;> rcases e2 with rfl | rfl <;> push_cast at z3 <;> first | exact absurd rfl hdd | linarith
    subst hs
    rw [zero_mul, add_zero] at z1
    have hu : 0 ≤ u := by
      have : 0 ≤ (u : ℝ) := by
        refine nonneg_of_mul_nonneg_right ?_ hp
        rw [z1]; rw [hτ] at τ0; exact nonneg_of_mul_nonneg_right τ0 (by positivity)
      exact_mod_cast this
    have hu' : (0 : ℝ) ≤ u := by exact_mod_cast hu
    have hle : √2 * (h * (u : ℝ)) ≤ probR := by rw [z1, ← hτ]; exact τ1
    exact tie_across tame h0 h1 e1 e2 hdd hu hle cl hne domn p1 p2 wedge

/-- the cases, seen from the centre: `m = (u, v)` and its neighbour `(u + d1, v + d2)` -/
theorem tie_cases (tame : Tame r) {h : ℝ} (h0 : 1 / 2 ^ 13 ≤ h) (h1 : h ≤ 0.393) {u v d1 d2 : ℤ} (hd1 : |d1| ≤ 1) (hd2 : |d2| ≤ 1)
    (hclear : ∀ z ∈ Segment probA probR r 0, 1 / 2 ^ 22 < dist2 (h * u, h * v) z)
    (hne : (h * (u : ℝ), h * (v : ℝ)) ∈ Domain probA r ↔ (h * ((u : ℝ) + d1), h * ((v : ℝ) + d2)) ∉ Domain probA r)
    (domm : ¬ (0 < h * (v : ℝ) ∧ h * (v : ℝ) < h * u) → (h * (u : ℝ)) ^ 2 + (h * (v : ℝ)) ^ 2 ≤ 1.8 ^ 2 →
      (h * (u : ℝ), h * (v : ℝ)) ∈ Domain probA r)
    (domn : ¬ (0 < h * ((v : ℝ) + d2) ∧ h * ((v : ℝ) + d2) < h * (u + d1)) → (h * ((u : ℝ) + d1)) ^ 2 + (h * ((v : ℝ) + d2)) ^ 2 ≤ 1.8 ^ 2 →
      (h * ((u : ℝ) + d1), h * ((v : ℝ) + d2)) ∈ Domain probA r)
    {ρ θ : ℝ} (p1 : polarPoint ρ θ = (h * ((u : ℝ) + d1), h * ((v : ℝ) + d2))) (p2 : 0 ≤ ρ)
    (wedge : θ ≥ probA ∧ θ ≤ 2 * π ↔ ¬ (0 < h * ((v : ℝ) + d2) ∧ h * ((v : ℝ) + d2) < h * (u + d1))) :
    (∃ sid, ∃ z ∈ Segment probA probR r sid, dist2 (h * ((u : ℝ) + d1), h * ((v : ℝ) + d2)) z ≤ h * √2 - 1 / 2 ^ 23) ∨
    ∃ t : ℕ, 2 ≤ t ∧ u = t + 1 ∧ v = t + 1 ∧ d1 = 1 ∧ d2 = -1 ∧ √2 * (h * (t + 1)) ≤ probR - 1 / 2 ^ 22 := by
  have hpi := pi_pos
  have hp : 0 < h := lt_of_lt_of_le (by norm_num) h0
  have r1 : 1.414 < √2 := by rw [lt_sqrt (by norm_num)]; norm_num
  have r2 : √2 < 1.4143 := by rw [sqrt_lt' (by norm_num)]; norm_num
  have rr : √2 * √2 = 2 := mul_self_sqrt (by norm_num)
  have hra : r probA = probR := by unfold probA probR; rw [tame.at_a]; norm_num
  have hr2 : r (2 * π) = probR := by unfold probR; rw [tame.at_two_pi]; norm_num
  have ha : 0 < probA := by unfold probA; positivity
  have haπ : probA < π := by unfold probA; linarith
  have hR : 0 ≤ probR := by unfold probR; norm_num
  have hlt : h ≤ h * √2 - 1 / 2 ^ 23 := by norm_num at h0 ⊢; nlinarith
  -- the crossing
  obtain ⟨σ, s0, s1, sid, hseg⟩ : ∃ σ : ℝ, 0 ≤ σ ∧ σ ≤ 1 ∧ ∃ sid, (h * ((u : ℝ) + σ * d1), h * ((v : ℝ) + σ * d2)) ∈ Segment probA probR r sid := by
    by_cases hin : (h * (u : ℝ), h * (v : ℝ)) ∈ Domain probA r
    · obtain ⟨s, hs, sid, hz⟩ := curve_crossing_on ha haπ hR tame.smooth.continuous hra hr2 hin (hne.1 hin)
      refine ⟨s, hs.1, hs.2, sid, ?_⟩
      dsimp only at hz
      convert hz using 2 <;> ring
    · have hin2 : (h * ((u : ℝ) + d1), h * ((v : ℝ) + d2)) ∈ Domain probA r := by
        by_contra q; exact hin (hne.2 q)
      obtain ⟨s, hs, sid, hz⟩ := curve_crossing_on ha haπ hR tame.smooth.continuous hra hr2 hin2 hin
      refine ⟨1 - s, by linarith [hs.2], by linarith [hs.1], sid, ?_⟩
      dsimp only at hz
      convert hz using 2 <;> ring
  obtain ⟨L, hL⟩ : ∃ L : ℝ, L = √((d1 : ℝ) ^ 2 + (d2 : ℝ) ^ 2) := ⟨_, rfl⟩
  have hL0 : 0 ≤ L := by rw [hL]; positivity
  have dn : dist2 (h * ((u : ℝ) + d1), h * ((v : ℝ) + d2)) (h * ((u : ℝ) + σ * d1), h * ((v : ℝ) + σ * d2)) = h * (1 - σ) * L := by
    unfold dist2
    dsimp only
    rw [show (h * ((u : ℝ) + d1) - h * (u + σ * d1)) ^ 2 + (h * ((v : ℝ) + d2) - h * (v + σ * d2)) ^ 2
      = (h * (1 - σ)) ^ 2 * ((d1 : ℝ) ^ 2 + (d2 : ℝ) ^ 2) by ring, sqrt_mul (by positivity), sqrt_sq (by nlinarith), hL]
  have dm : dist2 (h * (u : ℝ), h * (v : ℝ)) (h * ((u : ℝ) + σ * d1), h * ((v : ℝ) + σ * d2)) = h * σ * L := by
    unfold dist2
    dsimp only
    rw [show (h * (u : ℝ) - h * (u + σ * d1)) ^ 2 + (h * (v : ℝ) - h * (v + σ * d2)) ^ 2
      = (h * σ) ^ 2 * ((d1 : ℝ) ^ 2 + (d2 : ℝ) ^ 2) by ring, sqrt_mul (by positivity), sqrt_sq (by positivity), hL]
  by_cases hnear : h * (1 - σ) * L ≤ h * √2 - 1 / 2 ^ 23
  · exact .inl ⟨sid, _, hseg, by rw [dn]; exact hnear⟩
  rw [not_le] at hnear
  have hs1 : h * (1 - σ) ≤ h := by nlinarith
  -- the neighbour is diagonal
  have diag : (d1 = 1 ∨ d1 = -1) ∧ (d2 = 1 ∨ d2 = -1) := by
    rw [abs_le] at hd1 hd2
    by_contra hcn
    have hsq : (d1 : ℝ) ^ 2 + (d2 : ℝ) ^ 2 ≤ 1 := by
      have a1 : d1 = -1 ∨ d1 = 0 ∨ d1 = 1 := by omega
      have a2 : d2 = -1 ∨ d2 = 0 ∨ d2 = 1 := by omega
      rcases a1 with rfl | rfl | rfl <;> rcases a2 with rfl | rfl | rfl <;> first | exact absurd (by decide) hcn | norm_num
    have hL1 : L ≤ 1 := by rw [hL]; exact sqrt_le_one.2 hsq
    have : h * (1 - σ) * L ≤ h * 1 := mul_le_mul hs1 hL1 hL0 hp.le
    linarith
  obtain ⟨e1, e2⟩ := diag
  have f1 : (d1 : ℝ) ^ 2 = 1 := by rcases e1 with rfl | rfl <;> norm_num
  have f2 : (d2 : ℝ) ^ 2 = 1 := by rcases e2 with rfl | rfl <;> norm_num
  have hL2 : L = √2 := by rw [hL, f1, f2]; norm_num
  rw [hL2] at hnear dm
  have hσ : h * σ * √2 < 1 / 2 ^ 23 := by linarith
  have hσ2 : σ < 1 / 2 := by norm_num at hσ h0; nlinarith
  fin_cases sid
  · exfalso
    have q := hclear _ hseg
    rw [dm] at q
    norm_num at q hσ; linarith
  · exact tie_on1 tame h0 h1 e1 e2 s0 hσ2 hseg hclear hne domm domn
  · exact tie_on2 tame h0 h1 e1 e2 s0 hσ2 hseg hclear hne domm domn p1 p2 wedge

include hc hN hN2 tame

/-- A node of the discrete boundary: next to it, at most diagonally, there is a node on the other side of the boundary.  Unless that
neighbour is close to the outer curve, the node is clearly closer than `h√2` to some segment, or it is `(t+2, t)` seen from the centre
for a `t ≥ 2`: the diagonal neighbour `(t+1, t+1)` lies on the side `θ = a`, at distance exactly `h√2`. -/
theorem near_or_tie {m nd : Node} (hm1 : 0 ≤ m.1 ∧ m.1 ≤ N) (hm2 : 0 ≤ m.2 ∧ m.2 ≤ N) (hn1 : 0 ≤ nd.1 ∧ nd.1 ≤ N) (hn2 : 0 ≤ nd.2 ∧ nd.2 ≤ N)
    (hd1 : |nd.1 - m.1| ≤ 1) (hd2 : |nd.2 - m.2| ≤ 1)
    (hclear : ∀ z ∈ Segment probA probR r 0, 1 / 2 ^ 22 < dist2 (getCoord probAD N m.1 m.2) z)
    (hne : getCoord probAD N m.1 m.2 ∈ Domain probA r ↔ getCoord probAD N nd.1 nd.2 ∉ Domain probA r) :
    (∃ sid, ∃ z ∈ Segment probA probR r sid, dist2 (getCoord probAD N nd.1 nd.2) z ≤ probAD / N * √2 - 1 / 2 ^ 23) ∨
    ∃ t : ℕ, 2 ≤ t ∧ nd = (((c + (t + 2) : ℕ) : ℤ), ((c + t : ℕ) : ℤ)) ∧ √2 * (probAD / N * (t + 1)) ≤ probR - 1 / 2 ^ 22 := by
  obtain ⟨h0, h1, hN0r⟩ := mesh_bounds hN hN2
  have hN0 : 0 < N := by omega
  have hpi := pi_pos
  obtain ⟨m1, m2⟩ := m
  obtain ⟨n1, n2⟩ := nd
  dsimp only at *
  obtain ⟨u, rfl⟩ : ∃ u : ℤ, m1 = c + u := ⟨m1 - c, by ring⟩
  obtain ⟨v, rfl⟩ : ∃ v : ℤ, m2 = c + v := ⟨m2 - c, by ring⟩
  obtain ⟨d1, rfl⟩ : ∃ d : ℤ, n1 = c + u + d := ⟨n1 - (c + u), by ring⟩
  obtain ⟨d2, rfl⟩ : ∃ d : ℤ, n2 = c + v + d := ⟨n2 - (c + v), by ring⟩
  rw [add_sub_cancel_left] at hd1 hd2
  have em : getCoord probAD N ((c + u : ℤ) : ℝ) ((c + v : ℤ) : ℝ) = (probAD / N * u, probAD / N * v) := by
    rw [node_xy hc hN0]; push_cast; rw [add_sub_cancel_left, add_sub_cancel_left]
  have en : getCoord probAD N ((c + u + d1 : ℤ) : ℝ) ((c + v + d2 : ℤ) : ℝ) = (probAD / N * (u + d1), probAD / N * (v + d2)) := by
    rw [node_xy hc hN0]; push_cast; rw [Prod.mk.injEq]; constructor <;> ring
  have dom : ∀ {i j : ℤ}, (0 ≤ i ∧ i ≤ N) → (0 ≤ j ∧ j ≤ N) → _ := fun hi hj => mem_domain_of_norm tame hN0 (i := _) (j := _) hi hj
  have domm := dom hm1 hm2
  have domn := dom hn1 hn2
  clear dom
  obtain ⟨p1, p2, p3, p4⟩ := C02_get_polar probAD N probA (by unfold probA; positivity) (by unfold probA; linarith)
    ((c + u + d1 : ℤ) : ℝ) ((c + v + d2 : ℤ) : ℝ)
  have wedge := inWedge_iff hN0 hn1 hn2
  unfold inWedge at wedge
  rw [em] at hne hclear domm
  rw [en] at hne domn p1 wedge ⊢
  obtain ⟨h, hh⟩ : ∃ h, h = probAD / N := ⟨_, rfl⟩
  obtain ⟨ρ, hρ⟩ : ∃ ρ, ρ = (getPolar probAD N probA ((c + u + d1 : ℤ) : ℝ) ((c + v + d2 : ℤ) : ℝ)).1 := ⟨_, rfl⟩
  obtain ⟨θ, hθ⟩ : ∃ θ, θ = (getPolar probAD N probA ((c + u + d1 : ℤ) : ℝ) ((c + v + d2 : ℤ) : ℝ)).2 := ⟨_, rfl⟩
  rw [← hρ] at p1 p2
  rw [← hθ] at p1 p3 p4 wedge
  rw [← hh] at hne hclear domm domn p1 wedge h0 h1 ⊢
  have goal := tie_cases tame h0 h1 hd1 hd2 hclear hne domm domn p1 p2 wedge
  rcases goal with q | ⟨t, t2, rfl, rfl, rfl, rfl, q⟩
  · exact .inl q
  · refine .inr ⟨t, t2, ?_, q⟩
    push_cast
    rw [Prod.mk.injEq]; constructor <;> ring

end
end Pot
