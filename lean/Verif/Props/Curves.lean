import Verif.Props.Arc
import Verif.Proofs.ShippedCurves

/-! # Property C77: the whole program on curved outer boundaries -/

namespace Pot
open Spec Finset Real

section general
variable {a R δ ρ M m1 m2 α β : ℝ} {r : ℝ → ℝ}

theorem Gentle.Rpos (g : Gentle a R δ ρ M m1 m2 α β r) : 0 < R := by
  have h := g.lo a (by linarith [g.apos]) (by linarith [g.apos, g.aπ])
  rw [g.at_a] at h
  linarith [g.δρ, g.δpos]

/-- a curve that is flat enough at a scale is so at every finer scale -/
theorem Gentle.finer (g : Gentle a R δ ρ M m1 m2 α β r) {δ' : ℝ} (h0 : 0 ≤ δ') (h : δ' ≤ δ) :
    Gentle a R δ' ρ M m1 m2 α β r where
  smooth := g.smooth
  at_a := g.at_a
  at_two_pi := g.at_two_pi
  lo := g.lo
  hi := g.hi
  d1 := g.d1
  d2 := g.d2
  apos := g.apos
  aπ := g.aπ
  δpos := h0
  δρ := h.trans_lt g.δρ
  αpos := g.αpos
  αa := g.αa
  α7 := g.α7
  δα := h.trans g.δα
  βpos := g.βpos
  βa := g.βa
  corner := g.corner
  δβ := h.trans g.δβ
  mono := fun u v c h1 h2 h3 h4 => g.mono u v c h1 h2 (by linarith) (by linarith)
  side := fun u v ψ h1 h2 h3 h4 => g.side u v ψ h1 h2 (by linarith) (by linarith)
  side' := fun u v ψ h1 h2 h3 h4 => g.side' u v ψ h1 h2 (by linarith) (by linarith)

/-- the distance computed for the outer curve does not exceed the distance to any point of the curve within `δ` -/
theorem Gentle.segDist_le {b : Brentq} (hb : BrentqSpec b) {N : ℕ} {AD : ℝ} (g : Gentle a R δ ρ M m1 m2 α β r)
    (nd : Node) {q : ℝ × ℝ} (hq : q ∈ Segment a R r 0) (h : dist2 (getCoord AD N nd.1 nd.2) q ≤ δ) :
    segDist (mkEnv b N AD a R r) nd 0 ≤ dist2 (getCoord AD N nd.1 nd.2) q := by
  have ha := g.apos
  have haπ := g.aπ
  have hpi := pi_pos
  set e := mkEnv b N AD a R r with he
  obtain ⟨p1, p2, p3, p4⟩ := env_polar e ha (by show a ≤ 4 * π; linarith) nd
  obtain ⟨t, ht1, ht2, rfl⟩ := hq
  have hP : getCoord AD N nd.1 nd.2 = polarPoint (e.polar nd).1 (e.polar nd).2 := p1.symm
  rw [hP] at h ⊢
  obtain ⟨n, th0, h1, h2, h3, h4⟩ := g.foot hb p2 ht1 ht2 p3 p4.le h
  have hc : e.coord nd = polarPoint (e.polar nd).1 (e.polar nd).2 := p1.symm
  have hbc : e.bcoord (e.polar nd).1 (e.polar nd).2 = some (n, th0) := h1
  unfold segDist
  simp only [hbc, dformula_eq]
  split_ifs with c1 c2
  · have e1 : ((e.R, 0) : ℝ × ℝ) = polarPoint (r (2 * π)) (2 * π) := by
      rw [g.at_two_pi]; simp [polarPoint, he, mkEnv]
    have := h2 (2 * π) ht2 c1.le
    rw [e1]
    change dist2 (e.coord nd) _ ≤ _
    rw [hc]
    exact this
  · have e1 : ((e.R * cos e.a, e.R * sin e.a) : ℝ × ℝ) = polarPoint (r a) a := by
      rw [g.at_a]; simp [polarPoint, he, mkEnv]
    have := h3 a ht1 c2.le
    rw [e1]
    change dist2 (e.coord nd) _ ≤ _
    rw [hc]
    exact this
  · rw [h4]
    rcases le_total t th0 with h5 | h5
    · exact h2 th0 h5 le_rfl
    · exact h3 th0 h5 le_rfl

/-- the distance to the outer curve is attained -/
theorem exists_dist_curve (hr : Continuous r) (ha2 : a ≤ 2 * π) (p : ℝ × ℝ) : ∃ d, IsDistTo p (Segment a R r 0) d := by
  obtain ⟨t, ht, hmin⟩ := (isCompact_Icc (a := a) (b := 2 * π)).exists_isMinOn (Set.nonempty_Icc.2 ha2)
    (f := fun t => dist2 p (polarPoint (r t) t)) (by unfold dist2 polarPoint; fun_prop)
  refine ⟨_, ⟨_, ⟨t, ht.1, ht.2, rfl⟩, rfl⟩, ?_⟩
  rintro q ⟨s, h1, h2, rfl⟩
  exact hmin ⟨h1, h2⟩

/-- **C12** for every curve flat enough at the scale `h√2`: the assertion never fires, and membership in every list is
exactly "distance at most `h√2`". -/
theorem C12_gentle {iter : Iter} (hit : IsIter iter) {b : Brentq} (hb : BrentqSpec b) (N order : ℕ) {AD : ℝ} (hAD : 0 < AD)
    (g : Gentle a R (AD / N * √2) ρ M m1 m2 α β r) (hp : ∀ t, 0 < r t ^ 2 + deriv r t ^ 2) :
    ∃ G, psConstructGrids iter (mkEnv b N AD a R r) order = .ok G ∧
      ∀ sid, ∀ nd ∈ G.unionGamma, ∃ d, IsDistTo (getCoord AD N nd.1 nd.2) (Segment a R r sid) d ∧
        (nd ∈ G.allGamma sid ↔ d ≤ AD / N * √2) := by
  classical
  set e := mkEnv b N AD a R r with he
  have hpi := pi_pos
  have ha := g.apos
  have haπ := g.aπ
  have hR := g.Rpos
  have hr1 : ContDiff ℝ 1 r := g.smooth.of_le (by norm_num)
  have hdist : ∀ nd sid, ∃ d, IsDistTo (e.coord nd) (Segment a R r sid) d ∧ (Near e nd sid ↔ d ≤ AD / N * √2) := by
    intro nd sid
    fin_cases sid
    · obtain ⟨d, hd⟩ := exists_dist_curve (R := R) (a := a) hr1.continuous (by linarith) (e.coord nd)
      refine ⟨d, hd, fun h => ?_, fun h => ?_⟩
      · obtain ⟨q, hq, hq'⟩ := segDist_zero_point (N := N) (AD := AD) hb hr1 hp ha (by linarith) g.at_a g.at_two_pi nd
        exact (hd.2 q hq).trans (hq'.symm.le.trans h)
      · obtain ⟨⟨q, hq, hq'⟩, -⟩ := hd
        rw [hq'] at h
        exact (g.segDist_le hb nd hq h).trans h
    · exact ⟨_, segDist_one e r hR.le nd, Iff.rfl⟩
    · exact ⟨_, segDist_two e r hR.le ha haπ nd, Iff.rfl⟩
  have hs := mem_nSets hit e.N order e.interior
  have hint : ∀ nd : Node, e.interior nd ↔ e.coord nd ∈ Domain a r := fun nd =>
    C07_is_interior AD N a ha (by linarith) r (by rw [g.at_two_pi]; exact hR.le) nd.1 nd.2
  have hall : ∀ nd ∈ iter 3 ((nSets iter order (constructGrids iter e.N order e.interior)).1 ∩
      (nSets iter order (constructGrids iter e.N order e.interior)).2), ∃ sid, Near e nd sid := by
    intro nd hnd
    rw [(hit _ _).2, Finset.mem_inter] at hnd
    obtain ⟨p, hp, hpr⟩ := (hs nd).1.1 hnd.1
    obtain ⟨q, hq, hqr⟩ := (hs nd).2.1 hnd.2
    have hpi' := (hint p).1 ((mem_Mplus hit _ _ _ _).1 hp).2
    have hqi := mt (hint q).2 ((mem_Mminus hit _ _ _ _).1 hq).2
    by_cases hin : e.coord nd ∈ Domain a r
    · obtain ⟨z, sid, hz, hz1, hz2⟩ := curve_crossing ha haπ hR.le hr1.continuous g.at_a g.at_two_pi hin hqi
      obtain ⟨d, hd, hd'⟩ := hdist nd sid
      refine ⟨sid, hd'.2 ((hd.2 z hz).trans (hz1.trans ?_))⟩
      rw [dist2_comm]
      exact reach_dist hAD.le hqr
    · obtain ⟨z, sid, hz, hz1, hz2⟩ := curve_crossing ha haπ hR.le hr1.continuous g.at_a g.at_two_pi hpi' hin
      obtain ⟨d, hd, hd'⟩ := hdist nd sid
      exact ⟨sid, hd'.2 ((hd.2 z hz).trans (hz2.trans (reach_dist hAD.le hpr)))⟩
  have heq := psConstructGrids_eq iter e order
  simp only at heq
  rw [if_pos hall] at heq
  refine ⟨_, heq, ?_⟩
  intro sid nd hnd
  obtain ⟨d, hd, hd'⟩ := hdist nd sid
  refine ⟨d, hd, ?_⟩
  simp only [List.mem_filter, decide_eq_true_eq]
  exact ⟨fun h => hd'.1 h.2, fun h => ⟨hnd, hd'.2 h⟩⟩

/-- a point outside the wedge is far from one of its sides -/
theorem far_from_a_side {r1 th1 : ℝ} (hr1 : 0 ≤ r1) (ha : 0 < a) (ha3 : a ≤ 2 * π / 3) (h1 : a ≤ th1) (h2 : th1 ≤ 2 * π)
    {t1 t2 δ : ℝ} (ht1 : 0 ≤ t1) (ht2 : 0 ≤ t2) (hd1 : dist2 (polarPoint r1 th1) (polarPoint t1 0) ≤ δ)
    (hd2 : dist2 (polarPoint r1 th1) (polarPoint t2 a) ≤ δ) : r1 * sin a ≤ δ := by
  have hpi := pi_pos
  have hδ : 0 ≤ δ := (Real.sqrt_nonneg _).trans hd1
  have key : ∀ t c, 0 ≤ t → dist2 (polarPoint r1 th1) (polarPoint t c) ≤ δ → cos (th1 - c) ≤ cos a → r1 * sin a ≤ δ := by
    intro t c ht hd hc
    have : dist2 (polarPoint r1 th1) (polarPoint t c) ^ 2 ≤ δ ^ 2 := pow_le_pow_left₀ (Real.sqrt_nonneg _) hd 2
    unfold dist2 polarPoint at this
    simp only at this
    rw [Real.sq_sqrt (by positivity), dist_sq_polar] at this
    have h3 := mul_le_mul_of_nonneg_left hc (mul_nonneg hr1 ht)
    have h4 := sin_sq_add_cos_sq a
    refine abs_le_of_sq_le_sq' ?_ hδ |>.2
    nlinarith [sq_nonneg (t - r1 * cos a)]
  rcases le_or_gt th1 (2 * π - a) with h3 | h3
  · refine key t1 0 ht1 hd1 ?_
    rw [sub_zero]
    rcases le_or_gt th1 π with h4 | h4
    · exact cos_le_cos_of_nonneg_of_le_pi ha.le h4 h1
    · rw [← cos_two_pi_sub]
      exact cos_le_cos_of_nonneg_of_le_pi ha.le (by linarith) (by linarith)
  · refine key t2 a ht2 hd2 ?_
    rcases le_or_gt (th1 - a) π with h4 | h4
    · exact cos_le_cos_of_nonneg_of_le_pi ha.le h4 (by linarith)
    · rw [← cos_two_pi_sub]
      exact cos_le_cos_of_nonneg_of_le_pi ha.le (by linarith) (by linarith)

/-- **C35** for curves: no node is near all three segments. -/
theorem C35_gentle {iter : Iter} (hit : IsIter iter) {b : Brentq} (hb : BrentqSpec b) {N order : ℕ} {AD : ℝ}
    (g : Gentle a R (AD / N * √2) ρ M m1 m2 α β r) (hp : ∀ t, 0 < r t ^ 2 + deriv r t ^ 2) (ha3 : a ≤ 2 * π / 3)
    (h1 : AD / N * √2 < (ρ - AD / N * √2) * sin a) (h2 : AD / N * √2 * (1 + 1 / sin (a / 2)) < R - m1 * α) {G : PsGrids}
    (h : psConstructGrids iter (mkEnv b N AD a R r) order = .ok G) (nd : Node) : ∃ sid, nd ∉ G.allGamma sid := by
  by_contra hc
  push Not at hc
  have hpi := pi_pos
  have ha := g.apos
  have haπ := g.aπ
  have hr1 : ContDiff ℝ 1 r := g.smooth.of_le (by norm_num)
  have hsn : 0 < sin (a / 2) := sin_pos_of_pos_of_lt_pi (by linarith) (by linarith)
  have hsa : 0 < sin a := sin_pos_of_pos_of_lt_pi (by linarith) (by linarith)
  obtain ⟨hsub, -, hd⟩ := (C12_all_gamma hit (e := mkEnv b N AD a R r) g.Rpos.le ha haπ order).2 G h
  have hmem := (hsub 0).2 nd (hc 0)
  obtain ⟨d1, ⟨⟨q1, ⟨t1, ht1, -, rfl⟩, e1⟩, -⟩, hd1⟩ := hd 1 (by decide) nd hmem
  obtain ⟨d2, ⟨⟨q2, ⟨t2, ht2, -, rfl⟩, e2⟩, -⟩, hd2⟩ := hd 2 (by decide) nd hmem
  have k1 := hd1.1 (hc 1)
  have k2 := hd2.1 (hc 2)
  rw [e1] at k1; rw [e2] at k2
  obtain ⟨q, ⟨t, hta, ht2π, rfl⟩, hq⟩ := C12_outer hb hr1 hp ha (by linarith) g.at_a g.at_two_pi h nd (hc 0)
  obtain ⟨p1, p2, p3, p4⟩ := env_polar (mkEnv b N AD a R r) ha (by show a ≤ 4 * π; linarith) nd
  set r1 := ((mkEnv b N AD a R r).polar nd).1
  set th1 := ((mkEnv b N AD a R r).polar nd).2
  set δ := AD / N * √2
  have hP : getCoord AD N nd.1 nd.2 = polarPoint r1 th1 := p1.symm
  have hP' : (mkEnv b N AD a R r).coord nd = polarPoint r1 th1 := p1.symm
  rw [hP] at hq
  rw [hP'] at k1 k2
  obtain ⟨l1, l2, l3, l4, l5⟩ := g.radius p2 hta ht2π p3 p4.le hq
  have k1' : dist2 (polarPoint r1 th1) (polarPoint t1 0) ≤ δ := by
    have : polarPoint t1 0 = (t1, 0) := by simp [polarPoint]
    rw [this]; exact k1
  by_cases hw : a ≤ th1 ∧ th1 ≤ 2 * π
  · have := far_from_a_side p2 ha ha3 hw.1 hw.2 ht1 ht2 k1' k2
    have h3 := mul_le_mul_of_nonneg_right l2 hsa.le
    linarith
  · have hκ : R - m1 * α ≤ r t := by
      have l4' := abs_le.1 l4
      by_cases h4 : a ≤ th1
      · have h5 : 2 * π < th1 := lt_of_not_ge fun h6 => hw ⟨h4, h6⟩
        exact g.near_corner g.at_two_pi (by linarith) le_rfl hta ht2π (abs_le.2 ⟨by linarith, by linarith⟩)
      · push Not at h4
        exact g.near_corner g.at_a le_rfl (by linarith) hta ht2π (abs_le.2 ⟨by linarith, by linarith⟩)
    have kρ := near_two_rays ha haπ (r1 * cos th1) (r1 * sin th1) t1 t2 δ ht1 ht2 k1 k2
    have hn : √((r1 * cos th1) ^ 2 + (r1 * sin th1) ^ 2) = r1 := by
      rw [show (r1 * cos th1) ^ 2 + (r1 * sin th1) ^ 2 = r1 ^ 2 by linear_combination r1 ^ 2 * sin_sq_add_cos_sq th1]
      exact Real.sqrt_sq p2
    rw [hn] at kρ
    have hρ : r1 ≤ δ / sin (a / 2) := (le_div_iff₀ hsn).2 kρ
    have e3 : δ * (1 + 1 / sin (a / 2)) = δ + δ / sin (a / 2) := by ring
    linarith

/-- the extension code is ready on the grid of every such problem -/
theorem ready_gentle {iter : Iter} (hit : IsIter iter) {b : Brentq} (hb : BrentqSpec b) {N order : ℕ} {AD : ℝ} (hAD : 0 < AD)
    (g : Gentle a R (AD / N * √2) ρ M m1 m2 α β r) (hp : ∀ t, 0 < r t ^ 2 + deriv r t ^ 2) (ha3 : a ≤ 2 * π / 3)
    (h1 : AD / N * √2 < (ρ - AD / N * √2) * sin a) (h2 : AD / N * √2 * (1 + 1 / sin (a / 2)) < R - m1 * α)
    {k eps : ℝ} {nc nr : ℕ} {src : Source} {s : PSolver}
    (h : psInit iter (mkEnv b N AD a R r) order k eps nc nr src = .ok s) : Ready s := by
  have hpi := pi_pos
  have ha := g.apos
  have haπ := g.aπ
  have hr1 : ContDiff ℝ 1 r := g.smooth.of_le (by norm_num)
  unfold psInit at h
  simp only [] at h
  obtain ⟨G, hG, hd⟩ := C12_gentle hit hb N order hAD g hp
  rw [hG, ok_bind, pure_eq_ok] at h
  cases h
  obtain ⟨hsub, hcov, -⟩ := (C12_all_gamma hit (e := mkEnv b N AD a R r) g.Rpos.le ha haπ order).2 G hG
  refine ⟨fun sid => (hsub sid).2, ?_, ?_⟩
  · intro nd hnd
    obtain ⟨q, ⟨t, ht1, ht2, rfl⟩, hq⟩ := C12_outer hb hr1 hp ha (by linarith) g.at_a g.at_two_pi hG nd hnd
    obtain ⟨p1, p2, p3, p4⟩ := env_polar (mkEnv b N AD a R r) ha (by show a ≤ 4 * π; linarith) nd
    have hP : getCoord AD N nd.1 nd.2 = polarPoint ((mkEnv b N AD a R r).polar nd).1 ((mkEnv b N AD a R r).polar nd).2 :=
      p1.symm
    rw [hP] at hq
    obtain ⟨n, th0, hb', -⟩ := g.foot hb p2 ht1 ht2 p3 p4.le hq
    exact ⟨_, (if_pos hnd).trans (congrArg some hb')⟩
  · intro nd hnd
    obtain ⟨sid, hs⟩ := hcov nd hnd
    obtain ⟨sid', hs'⟩ := C35_gentle hit hb g hp ha3 h1 h2 hG nd
    have hc1 : ∀ i, (G.allGamma i).count nd ≤ 1 := fun i => List.nodup_iff_count_le_one.1 (hsub i).1 nd
    have hc0 : (G.allGamma sid').count nd = 0 := List.count_eq_zero.2 hs'
    have hc2 : 1 ≤ (G.allGamma sid).count nd := List.count_pos_iff.2 hs
    have a0 := hc1 0
    have a1 := hc1 1
    have a2 := hc1 2
    constructor
    · show 1 ≤ (G.allGamma 0).count nd + (G.allGamma 1).count nd + (G.allGamma 2).count nd
      fin_cases sid <;> simp only [Fin.zero_eta, Fin.mk_one, Fin.reduceFinMk] at hc2 <;> omega
    · show (G.allGamma 0).count nd + (G.allGamma 1).count nd + (G.allGamma 2).count nd ≤ 2
      fin_cases sid' <;> simp at hc0 <;> omega

/-- the node in the middle of the grid is interior -/
theorem middle_interior {AD : ℝ} (hAD : 0 < AD) (ha : a ≤ 5 * π / 4) {n : ℕ} (hn : 1 ≤ n)
    (hr : AD / (n + 1 : ℕ) * √2 ≤ r (5 * π / 4)) :
    ∃ i j : ℤ, 1 ≤ i ∧ i ≤ n ∧ 1 ≤ j ∧ j ≤ n ∧ getCoord AD (n + 1) i j ∈ Domain a r := by
  have hpi := pi_pos
  have hs2 : (0:ℝ) < √2 := by positivity
  have hss : √2 * √2 = 2 := Real.mul_self_sqrt (by norm_num)
  have hN : (0:ℝ) < ((n + 1 : ℕ) : ℝ) := by positivity
  have c1 : cos (5 * π / 4) = -(√2 / 2) := by
    rw [show 5 * π / 4 = π / 4 + π by ring, cos_add_pi, cos_pi_div_four]
  have c2 : sin (5 * π / 4) = -(√2 / 2) := by
    rw [show 5 * π / 4 = π / 4 + π by ring, sin_add_pi, sin_pi_div_four]
  set m : ℕ := (n + 1) / 2 with hm
  have hm2 : (2 * m : ℕ) ≤ n + 1 ∧ n + 1 ≤ 2 * m + 1 := by omega
  have hlo : (2 * m : ℝ) ≤ ((n + 1 : ℕ) : ℝ) := by exact_mod_cast hm2.1
  have hhi : ((n + 1 : ℕ) : ℝ) ≤ 2 * m + 1 := by exact_mod_cast hm2.2
  refine ⟨m, m, by omega, by omega, by omega, by omega, ?_⟩
  refine ⟨AD / (n + 1 : ℕ) * √2 * (((n + 1 : ℕ) : ℝ) / 2 - m), 5 * π / 4, ha, by linarith, ?_, ?_, ?_⟩
  · have : (0:ℝ) ≤ ((n + 1 : ℕ) : ℝ) / 2 - m := by linarith
    positivity
  · refine le_trans ?_ hr
    refine mul_le_of_le_one_right (by positivity) (by linarith)
  · have key : AD * ((m : ℝ) / (n + 1 : ℕ) - 1 / 2) =
        AD / (n + 1 : ℕ) * √2 * (((n + 1 : ℕ) : ℝ) / 2 - m) * -(√2 / 2) := by
      field_simp
      linear_combination (((n + 1 : ℕ) : ℝ) - 2 * m) * hss
    unfold getCoord polarPoint
    rw [c1, c2]
    simp only [Int.cast_natCast]
    rw [← key]

/-- **C77** homogeneous problems on any curved outer boundary that is flat enough at the scale `h√2`: for every hash order,
basis size, boundary data and wavenumber without resonance the program runs to the end, its solution satisfies the discrete
equation at every interior node, and its Neumann coefficients minimise the projection defect. -/
theorem C77_curve {iter : Iter} (hit : IsIter iter) {b : Brentq} (hb : BrentqSpec b) {n order : ℕ}
    (ho : order = 2 ∨ order = 4) {AD k eps : ℝ} (hAD : 0 < AD) (hn : 1 ≤ n)
    (g : Gentle a R (AD / (n + 1 : ℕ) * √2) ρ M m1 m2 α β r) (hreg : ∀ t, 0 < r t ^ 2 + deriv r t ^ 2) (ha3 : a ≤ 2 * π / 3)
    (h1 : AD / (n + 1 : ℕ) * √2 < (ρ - AD / (n + 1 : ℕ) * √2) * sin a)
    (h2 : AD / (n + 1 : ℕ) * √2 * (1 + 1 / sin (a / 2)) < R - m1 * α) {Rmax : ℝ}
    (hmax : ∀ t, a ≤ t → t ≤ 2 * π → r t ≤ Rmax) (hmar : Rmax < AD / 2 - AD / (n + 1 : ℕ))
    (hz : NoZeroEig n order AD k) {src : Source} (hh : src.homogeneous = true) {p q : ℕ} (hp : 1 ≤ p) (hq : 1 ≤ q)
    {fit : Chebfit} (hfit : IsChebfit fit) {lstsq : Lstsq} (hlsq : IsLstsq lstsq) (roots : List ℝ)
    (bc : ℝ → Fin 3 → ℂ) (ex : Option (ℝ → ℝ → ℂ)) :
    ∃ s : PSolver, psInit iter (mkEnv b (n + 1) AD a R r) order k eps p q src = .ok s ∧
    ∃ f : Arr (n + 2), setupF iter s = .ok f ∧
    ∃ ap, ∃ res : RunResult n, initApSolF n iter s = .ok ap ∧ psRun iter s ap fit roots bc lstsq ex = .ok res ∧
      (∀ c d : Fin n, ((c : ℤ) + 1, (d : ℤ) + 1) ∈ s.G.Mplus →
        applyL (pad res.uAct) order AD k c d = applyB f c d) ∧
      ∃ d, defect n iter s ap res.c0 res.c1 = .ok d ∧ ∀ c1 : List ℂ, c1.length = p + 2 * q →
        ∃ d', defect n iter s ap res.c0 c1 = .ok d' ∧ d ≤ d' := by
  have hpi := pi_pos
  have ha := g.apos
  have haπ := g.aπ
  obtain ⟨G, hG, -⟩ := C12_gentle hit hb (n + 1) order hAD g hreg
  have S : Setup iter (mkEnv b (n + 1) AD a R r) n order k G := by
    refine ⟨hit, rfl, ho, hAD.ne', hz, hG, fun p hp => ?_⟩
    rw [(psGrids_sets hit hG).1] at hp
    exact C11_margin _ (Nat.succ_pos n) hAD (Rmax := Rmax) hmax ha (by show a ≤ 4 * π; linarith) hmar p
      ((mem_Mplus hit _ _ _ _).1 hp).2
  have hinit := psInit_ok (k := k) (eps := eps) (nc := p) (nr := q) (src := src) hG
  refine ⟨_, hinit, ?_⟩
  have hready := ready_gentle hit hb hAD g hreg ha3 h1 h2 hinit
  set s : PSolver := ⟨mkEnv b (n + 1) AD a R r, order, k, eps, setupBasis p q, G,
    buildCache (mkEnv b (n + 1) AD a R r) (G.allGamma 0), src⟩ with hs
  have hf : ∃ f : Arr (n + 2), setupF iter s = .ok f := by
    obtain ⟨w1, e1, -⟩ := setLoop (n := n) (fun nd => s.src.f (s.e.coord nd).1 (s.e.coord nd).2) (iter 6 s.G.Mplus)
      (fun q hq => by
        obtain ⟨a1, a2, a3, a4⟩ := mplus_inR hit S.hN hG q (((hit 6 _).2 q).1 hq)
        omega) (fun _ _ => 0)
    refine ⟨w1, ?_⟩
    unfold setupF extendF
    rw [e1, ok_bind, if_pos (show s.src.homogeneous = true from hh), pure_eq_ok]
  obtain ⟨f, hf⟩ := hf
  have hM : s.G.Mplus ≠ ∅ := by
    obtain ⟨i, j, h1, h2, h3, h4, h5⟩ := middle_interior (a := a) (r := r) hAD (by linarith) hn
      (g.δρ.le.trans (g.lo _ (by linarith) (by linarith)))
    apply Finset.nonempty_iff_ne_empty.1
    refine ⟨(i, j), ?_⟩
    show (i, j) ∈ G.Mplus
    rw [(psGrids_sets hit hG).1]
    refine (mem_Mplus hit _ _ _ _).2 ⟨(mem_square _ _ _).2 ?_, ?_⟩
    · show (1 ≤ i ∧ i < ((n + 1 : ℕ) : ℤ)) ∧ 1 ≤ j ∧ j < ((n + 1 : ℕ) : ℤ)
      push_cast
      omega
    · exact (C07_is_interior AD (n + 1) a ha (by linarith) r (by rw [g.at_two_pi]; exact g.Rpos.le) i j).2 h5
  obtain ⟨ap, res, h1, h2, -, -, h5, -, h7⟩ := C23_run (s := s) S hready hp hq rfl
    (extendInhomoF_homogeneous hready hh) hf hfit hlsq roots bc hM ex
  exact ⟨f, hf, ap, res, h1, h2, h5, h7⟩

end general

/-! ## The shipped boundaries -/

/-- the names of the table, and the error for any other name -/
theorem C77_names (name : String) :
    (name ∈ ["arc", "outer-sine", "inner-sine", "sine7", "cubic"] → ∃ r, chooseBoundary name = .ok r) ∧
    (name ∉ ["arc", "outer-sine", "inner-sine", "sine7", "cubic"] → chooseBoundary name = .error .keyError) := by
  unfold chooseBoundary boundaryTable
  constructor
  · intro h
    simp only [List.mem_cons, List.not_mem_nil, or_false] at h
    rcases h with rfl | rfl | rfl | rfl | rfl <;> exact ⟨_, rfl⟩
  · intro h
    simp only [List.mem_cons, List.not_mem_nil, or_false, not_or] at h
    obtain ⟨h1, h2, h3, h4, h5⟩ := h
    simp [List.lookup, beq_eq_false_iff_ne.2 h1, beq_eq_false_iff_ne.2 h2, beq_eq_false_iff_ne.2 h3,
      beq_eq_false_iff_ne.2 h4, beq_eq_false_iff_ne.2 h5]

theorem chooseBoundary_tame {name : String} {r : ℝ → ℝ} (h : chooseBoundary name = .ok r) : Tame r := by
  unfold chooseBoundary at h
  split at h
  · next r' hr' =>
    cases h
    obtain ⟨l1, l2, hl, -⟩ := List.lookup_eq_some_iff.1 hr'
    exact tame_table (p := (name, r)) (by rw [hl]; simp)
  · cases h

theorem Tame.gentleAt {r : ℝ → ℝ} (h : Tame r) {N : ℕ} (hN : 16 ≤ N) :
    Gentle probA probR (probAD / N * √2) 1.8 2.8 0.29 0.4 0.33 0.27 r := by
  have := h.gentle.finer (δ' := 2 * π / N * √2) (by have := pi_pos; positivity) (shipped_scale N hN)
  unfold probA probR probAD
  rw [show (23 / 10 : ℝ) = 2.3 by norm_num]
  exact this

theorem shipped_sides {N : ℕ} (hN : 16 ≤ N) : probA ≤ 2 * π / 3 ∧
    probAD / N * √2 < (1.8 - probAD / N * √2) * sin probA ∧
    probAD / N * √2 * (1 + 1 / sin (probA / 2)) < probR - 0.29 * 0.33 := by
  have hpi := pi_pos
  have hs := shipped_scale N hN
  have h0 : 0 ≤ 2 * π / N * √2 := by positivity
  unfold probA probR probAD
  refine ⟨by linarith, ?_, ?_⟩
  · rw [sin_pi_div_four]
    have h2 : (1.4:ℝ) < √2 := by rw [Real.lt_sqrt (by norm_num)]; norm_num
    nlinarith
  · have h38 : (0.38:ℝ) < sin (π / 4 / 2) := by
      rw [show π / 4 / 2 = π / 8 by ring, Real.sin_pi_div_eight]
      have h2 : √2 < 1.4143 := by
        rw [Real.sqrt_lt' (by norm_num)]; norm_num
      rw [lt_div_iff₀ (by norm_num)]
      apply Real.lt_sqrt_of_sq_lt
      linarith
    have h1 : 1 / sin (π / 4 / 2) < 1 / 0.38 := one_div_lt_one_div_of_lt (by norm_num) h38
    calc 2 * π / N * √2 * (1 + 1 / sin (π / 4 / 2)) ≤ 0.556 * (1 + 1 / 0.38) :=
          mul_le_mul hs (by linarith) (by have := one_div_pos.2 (lt_trans (by norm_num) h38); linarith) (by norm_num)
      _ < 23 / 10 - 0.29 * 0.33 := by norm_num

/-- **C12** every shipped boundary, `N ≥ 16`: the assertion of `ps_construct_grids` never fires, and a discrete-boundary node is
in the list of a segment exactly when its distance to the segment is at most `h√2`. -/
theorem C12_shipped {iter : Iter} (hit : IsIter iter) {b : Brentq} (hb : BrentqSpec b) {N : ℕ} (hN : 16 ≤ N) (order : ℕ)
    {name : String} {r : ℝ → ℝ} (h : chooseBoundary name = .ok r) :
    ∃ G, psConstructGrids iter (mkEnv b N probAD probA probR r) order = .ok G ∧
      ∀ sid, ∀ nd ∈ G.unionGamma, ∃ d, IsDistTo (getCoord probAD N nd.1 nd.2) (Segment probA probR r sid) d ∧
        (nd ∈ G.allGamma sid ↔ d ≤ probAD / N * √2) :=
  C12_gentle hit hb N order (by unfold probAD; positivity) ((chooseBoundary_tame h).gentleAt hN) (chooseBoundary_tame h).regular

/-- **C35** every shipped boundary, `N ≥ 16`: no node is near all three segments. -/
theorem C35_shipped {iter : Iter} (hit : IsIter iter) {b : Brentq} (hb : BrentqSpec b) {N : ℕ} (hN : 16 ≤ N) {order : ℕ}
    {name : String} {r : ℝ → ℝ} (h : chooseBoundary name = .ok r) {G : PsGrids}
    (hG : psConstructGrids iter (mkEnv b N probAD probA probR r) order = .ok G) (nd : Node) : ∃ sid, nd ∉ G.allGamma sid :=
  C35_gentle hit hb ((chooseBoundary_tame h).gentleAt hN) (chooseBoundary_tame h).regular (shipped_sides hN).1
    (shipped_sides hN).2.1 (shipped_sides hN).2.2 hG nd

/-- the margin of the auxiliary square -/
theorem shipped_margin {N : ℕ} (hN : 16 ≤ N) : (2.45:ℝ) < probAD / 2 - probAD / N := by
  have hN' : (16:ℝ) ≤ N := by exact_mod_cast hN
  have hpi := pi_gt_d2
  unfold probAD
  have : 2 * π / N ≤ 2 * π / 16 := by gcongr
  norm_num at hpi ⊢
  linarith

/-- **C77** every homogeneous problem with every shipped outer boundary, on every grid `N ≥ 16`: for every hash order, scheme
order, basis size, boundary data and wavenumber without resonance, the program runs to the end, its solution satisfies the
discrete equation at every interior node, and its Neumann coefficients minimise the projection defect. -/
theorem C77_shipped {iter : Iter} (hit : IsIter iter) {b : Brentq} (hb : BrentqSpec b) {n order : ℕ} (hN : 16 ≤ n + 1)
    (ho : order = 2 ∨ order = 4) {name : String} {r : ℝ → ℝ} (h : chooseBoundary name = .ok r) {k eps : ℝ}
    (hz : NoZeroEig n order probAD k) {src : Source} (hh : src.homogeneous = true) {p q : ℕ} (hp : 1 ≤ p) (hq : 1 ≤ q)
    {fit : Chebfit} (hfit : IsChebfit fit) {lstsq : Lstsq} (hlsq : IsLstsq lstsq) (roots : List ℝ)
    (bc : ℝ → Fin 3 → ℂ) (ex : Option (ℝ → ℝ → ℂ)) :
    ∃ s : PSolver, psInit iter (mkEnv b (n + 1) probAD probA probR r) order k eps p q src = .ok s ∧
    ∃ f : Arr (n + 2), setupF iter s = .ok f ∧
    ∃ ap, ∃ res : RunResult n, initApSolF n iter s = .ok ap ∧ psRun iter s ap fit roots bc lstsq ex = .ok res ∧
      (∀ c d : Fin n, ((c : ℤ) + 1, (d : ℤ) + 1) ∈ s.G.Mplus →
        applyL (pad res.uAct) order probAD k c d = applyB f c d) ∧
      ∃ d, defect n iter s ap res.c0 res.c1 = .ok d ∧ ∀ c1 : List ℂ, c1.length = p + 2 * q →
        ∃ d', defect n iter s ap res.c0 c1 = .ok d' ∧ d ≤ d' :=
  C77_curve hit hb ho (by unfold probAD; positivity) (by omega) ((chooseBoundary_tame h).gentleAt hN)
    (chooseBoundary_tame h).regular (shipped_sides hN).1 (shipped_sides hN).2.1 (shipped_sides hN).2.2
    (Rmax := 2.45) (chooseBoundary_tame h).max (shipped_margin hN) hz hh hp hq hfit hlsq roots bc ex

/-- nothing in C77 is empty: all five names are accepted, the oracles exist, and `k = 0` has no resonance on any grid -/
example : (∃ r, chooseBoundary "cubic" = .ok r) ∧ (∃ r, chooseBoundary "inner-sine" = .ok r) ∧
    (∀ n, NoZeroEig n 4 probAD 0) ∧ (∃ fit : Chebfit, IsChebfit fit) ∧ ∃ lstsq : Lstsq, IsLstsq lstsq := by
  have hpi := pi_pos
  refine ⟨⟨_, rfl⟩, ⟨_, rfl⟩, fun n => ?_, exists_chebfit, exists_isLstsq⟩
  intro ev hev p q
  obtain ⟨ev', hev', -, hneg⟩ := C15_eigenvals (n := n) (order := 4) (Or.inr rfl) probAD 0
  have : ev = ev' := Except.ok.inj (hev.symm.trans hev')
  rw [this]
  exact (hneg rfl (by unfold probAD; positivity) p q).ne

/-- the boundaries of the table are different curves -/
example : (∀ r, chooseBoundary "cubic" = .ok r → r π = 2.3) ∧ (∀ r, chooseBoundary "outer-sine" = .ok r → r (9 * π / 8) = 2.45) := by
  have hpi := pi_ne_zero
  constructor
  · intro r h
    cases h
    norm_num [cubicR, probR]
  · intro r h
    cases h
    unfold outerSineR probA
    rw [bNu_shipped, show 4 / 7 * (9 * π / 8 - π / 4) = π / 2 by ring, sin_pi_div_two]
    norm_num [probR, bet0]

end Pot
