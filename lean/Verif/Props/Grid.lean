import Verif.Proofs.Place

/-! # Grid properties C09-C12, C35 -/

namespace Pot
open Real Spec

/-- **C09** `M0` is the set of interior auxiliary nodes, split by `is_interior` into `Mplus` and `Mminus`;
`Kplus` is `Mplus` together with, for order above 2, its edge neighbours. -/
theorem C09_partition {iter : Iter} (hit : IsIter iter) (N order : ℕ) (inter : Node → Prop) :
    let g := constructGrids iter N order inter
    (∀ i j : ℤ, (i, j) ∈ g.N0 ↔ 0 ≤ i ∧ i ≤ N ∧ 0 ≤ j ∧ j ≤ N) ∧
    (∀ i j : ℤ, (i, j) ∈ g.M0 ↔ 1 ≤ i ∧ i ≤ N - 1 ∧ 1 ≤ j ∧ j ≤ N - 1) ∧
    Disjoint g.Mplus g.Mminus ∧ g.Mplus ∪ g.Mminus = g.M0 ∧
    (∀ nd, nd ∈ g.Mplus ↔ nd ∈ g.M0 ∧ inter nd) ∧
    (∀ nd, nd ∈ g.Kplus ↔ nd ∈ g.Mplus ∨
      (2 < order ∧ ∃ p ∈ g.Mplus, |nd.1 - p.1| + |nd.2 - p.2| = 1)) := by
  intro g
  have hM0 : g.M0 = square 1 N := rfl
  have hN0 : g.N0 = square 0 (N + 1) := rfl
  have hp := mem_Mplus hit N order inter
  have hm := mem_Mminus hit N order inter
  refine ⟨?_, ?_, ?_, ?_, ?_, ?_⟩
  · intro i j; rw [hN0, mem_square]; constructor <;> intro h <;> simp only at h ⊢ <;> omega
  · intro i j; rw [hM0, mem_square]; constructor <;> intro h <;> simp only at h ⊢ <;> omega
  · rw [Finset.disjoint_left]; intro x h1 h2; exact ((hm x).1 h2).2 ((hp x).1 h1).2
  · ext x; rw [Finset.mem_union, hM0]
    constructor
    · rintro (h | h)
      · exact ((hp x).1 h).1
      · exact ((hm x).1 h).1
    · intro h
      by_cases hx : inter x
      · exact Or.inl ((hp x).2 ⟨h, hx⟩)
      · exact Or.inr ((hm x).2 ⟨h, hx⟩)
  · intro x; rw [hM0]; exact hp x
  · intro x
    rw [show g.Kplus = (constructGrids iter N order inter).Kplus from rfl, mem_Kplus hit]
    simp only [mem_kStencil]
    constructor
    · rintro ⟨p, hp', rfl | ⟨h1, h2⟩⟩
      · exact Or.inl hp'
      · exact Or.inr ⟨h1, p, hp', h2⟩
    · rintro (h | ⟨h1, p, hp', h2⟩)
      · exact ⟨x, h, Or.inl rfl⟩
      · exact ⟨p, hp', Or.inr ⟨h1, h2⟩⟩

/-- set iteration orders exist, so the hypothesis is satisfiable -/
theorem isIter_toList : IsIter (fun _ s => s.toList) :=
  fun _ s => ⟨s.nodup_toList, fun _ => Finset.mem_toList⟩

/-- the sets `Nplus`, `Nminus` and the list `union_gamma` -/
theorem psGrids_sets {iter : Iter} (hit : IsIter iter) {e : Env} {order : ℕ} {G : PsGrids}
    (h : psConstructGrids iter e order = .ok G) :
    G.toGrids = constructGrids iter e.N order e.interior ∧
    (∀ q, q ∈ G.Nplus ↔ ∃ p ∈ G.Mplus, Reach order p q) ∧
    (∀ q, q ∈ G.Nminus ↔ ∃ p ∈ G.Mminus, Reach order p q) ∧
    G.unionGamma.Nodup ∧ (∀ q, q ∈ G.unionGamma ↔ q ∈ G.Nplus ∧ q ∈ G.Nminus) := by
  classical
  have hs := mem_nSets hit e.N order e.interior
  rw [psConstructGrids_eq] at h
  split at h
  · simp only [Except.ok.injEq] at h
    subst h
    refine ⟨rfl, fun q => (hs q).1, fun q => (hs q).2, (hit _ _).1, fun q => ?_⟩
    rw [(hit _ _).2, Finset.mem_inter]
  · simp at h

/-- **C10** `Nplus`, `Nminus` are the stencil neighbourhoods of `Mplus`, `Mminus`; `union_gamma` enumerates
their intersection; the discrete operator at a node of `Mplus` (`Mminus`) depends only on values in `Nplus`
(`Nminus`). -/
theorem C10_gamma {iter : Iter} (hit : IsIter iter) {e : Env} {order : ℕ} {G : PsGrids}
    (h : psConstructGrids iter e order = .ok G) :
    (∀ q, q ∈ G.Nplus ↔ ∃ p ∈ G.Mplus, Reach order p q) ∧
    (∀ q, q ∈ G.Nminus ↔ ∃ p ∈ G.Mminus, Reach order p q) ∧
    G.unionGamma.Nodup ∧ (∀ q, q ∈ G.unionGamma ↔ q ∈ G.Nplus ∧ q ∈ G.Nminus) ∧
    (∀ (n : ℕ) (AD k : ℝ) (v v' : Arr (n + 2)) (a b : Fin n), ((a : ℤ) + 1, (b : ℤ) + 1) ∈ G.Mplus →
      (∀ q ∈ G.Nplus, fullNode v q.1 q.2 = fullNode v' q.1 q.2) →
      applyL v order AD k a b = applyL v' order AD k a b) ∧
    (∀ (n : ℕ) (AD k : ℝ) (v v' : Arr (n + 2)) (a b : Fin n), ((a : ℤ) + 1, (b : ℤ) + 1) ∈ G.Mminus →
      (∀ q ∈ G.Nminus, fullNode v q.1 q.2 = fullNode v' q.1 q.2) →
      applyL v order AD k a b = applyL v' order AD k a b) := by
  obtain ⟨-, h1, h2, h3, h4⟩ := psGrids_sets hit h
  refine ⟨h1, h2, h3, h4, ?_, ?_⟩
  · intro n AD k v v' a b hab H
    rw [applyL_eq_spec, applyL_eq_spec]
    exact Lh_congr_reach fun q hq => H q ((h1 q).2 ⟨_, hab, hq⟩)
  · intro n AD k v v' a b hab H
    rw [applyL_eq_spec, applyL_eq_spec]
    exact Lh_congr_reach fun q hq => H q ((h2 q).2 ⟨_, hab, hq⟩)

/-- **C11** (sets) with a margin of two around the interior nodes, the discrete boundary and `Nplus` stay inside
`M0`. -/
theorem C11_gamma_in_M0 {iter : Iter} (hit : IsIter iter) {e : Env} {order : ℕ} {G : PsGrids}
    (h : psConstructGrids iter e order = .ok G)
    (hm : ∀ p ∈ G.Mplus, 2 ≤ p.1 ∧ p.1 ≤ e.N - 2 ∧ 2 ≤ p.2 ∧ p.2 ≤ e.N - 2) :
    (∀ q ∈ G.Nplus, q ∈ G.M0) ∧ ∀ q ∈ G.unionGamma, q ∈ G.M0 := by
  obtain ⟨hg, h1, h2, h3, h4⟩ := psGrids_sets hit h
  have key : ∀ q ∈ G.Nplus, q ∈ G.M0 := by
    intro q hq
    obtain ⟨p, hp, hr1, hr2, -⟩ := (h1 q).1 hq
    have hp' := hm p hp
    rw [abs_le] at hr1 hr2
    have : G.M0 = square 1 e.N := by
      have : G.toGrids.M0 = (constructGrids iter e.N order e.interior).M0 := by rw [hg]
      exact this
    rw [this, mem_square]
    omega
  exact ⟨key, fun q hq => key q ((h4 q).1 hq).1⟩

/-- **C11** (margin) a domain of radius below `AD_len/2 - h` leaves that margin. -/
theorem C11_margin (e : Env) (hN : 0 < e.N) (hAD : 0 < e.AD) {Rmax : ℝ}
    (hR : ∀ t, e.a ≤ t → t ≤ 2 * π → e.evalR t ≤ Rmax) (ha : 0 < e.a) (ha4 : e.a ≤ 4 * π)
    (hmar : Rmax < e.AD / 2 - e.AD / e.N) (p : Node) (hp : e.interior p) :
    2 ≤ p.1 ∧ p.1 ≤ e.N - 2 ∧ 2 ≤ p.2 ∧ p.2 ≤ e.N - 2 := by
  obtain ⟨h1, h2, h3⟩ := hp
  obtain ⟨e1, e2, e3, e4⟩ := C02_get_polar e.AD e.N e.a ha ha4 p.1 p.2
  set ρ := (getPolar e.AD e.N e.a p.1 p.2).1
  set t := (getPolar e.AD e.N e.a p.1 p.2).2
  have hρ : ρ < e.AD / 2 - e.AD / e.N := (h1.trans (hR t h2 h3)).trans_lt hmar
  have hN' : (0:ℝ) < e.N := by exact_mod_cast hN
  simp only [polarPoint, getCoord, Prod.mk.injEq] at e1
  have key : ∀ (i : ℤ) (c : ℝ), |c| ≤ 1 → ρ * c = e.AD * (i / e.N - 1 / 2) → 2 ≤ i ∧ i ≤ e.N - 2 := by
    intro i c hc hi
    have hb : |ρ * c| ≤ ρ := by
      rw [abs_mul, abs_of_nonneg e2]; exact mul_le_of_le_one_right e2 hc
    rw [hi, abs_le] at hb
    have l1 : -(e.AD / 2 - e.AD / e.N) < e.AD * (i / e.N - 1 / 2) := by linarith [hb.1]
    have l2 : e.AD * (i / e.N - 1 / 2) < e.AD / 2 - e.AD / e.N := by linarith [hb.2]
    have m1 : (1:ℝ) < i := by
      have : e.AD / e.N * 1 < e.AD / e.N * i := by
        have e5 : e.AD * ((i:ℝ) / e.N - 1 / 2) = e.AD / e.N * i - e.AD / 2 := by ring
        linarith
      exact lt_of_mul_lt_mul_left this (by positivity)
    have m2 : (i:ℝ) < e.N - 1 := by
      have : e.AD / e.N * i < e.AD / e.N * (e.N - 1) := by
        have e5 : e.AD * ((i:ℝ) / e.N - 1 / 2) = e.AD / e.N * i - e.AD / 2 := by ring
        have e6 : e.AD / e.N * ((e.N:ℝ) - 1) = e.AD - e.AD / e.N := by field_simp
        linarith
      exact lt_of_mul_lt_mul_left this (by positivity)
    have m1' : 1 < i := by exact_mod_cast m1
    have m2' : i < e.N - 1 := by exact_mod_cast m2
    omega
  have k1 := key p.1 (cos t) (abs_cos_le_one t) e1.1
  have k2 := key p.2 (sin t) (abs_sin_le_one t) e1.2
  exact ⟨k1.1, k1.2, k2.1, k2.2⟩

/-- **C12** for any boundary object: the lists are duplicate-free sublists of `union_gamma` that together cover
it, membership in the lists of the two wedge sides is exactly "distance at most `h√2`", and the only exception
is the AssertionError. -/
theorem C12_all_gamma {iter : Iter} (hit : IsIter iter) {e : Env} (hR : 0 ≤ e.R) (ha : 0 < e.a)
    (haπ : e.a < π) (order : ℕ) :
    (∀ err, psConstructGrids iter e order = .error err → err = .assertionError) ∧
    ∀ G, psConstructGrids iter e order = .ok G →
      (∀ sid, (G.allGamma sid).Nodup ∧ ∀ nd ∈ G.allGamma sid, nd ∈ G.unionGamma) ∧
      (∀ nd ∈ G.unionGamma, ∃ sid, nd ∈ G.allGamma sid) ∧
      ∀ sid, sid ≠ 0 → ∀ nd ∈ G.unionGamma, ∃ d, IsDistTo (e.coord nd) (Segment e.a e.R e.evalR sid) d ∧
        (nd ∈ G.allGamma sid ↔ d ≤ e.AD / e.N * √2) := by
  classical
  rw [psConstructGrids_eq]
  constructor
  · intro err h
    split at h
    · simp at h
    · simp only [Except.error.injEq] at h; exact h.symm
  · intro G h
    split at h
    · rename_i hall
      simp only [Except.ok.injEq] at h
      subst h
      refine ⟨fun sid => ⟨(hit _ _).1.filter _, fun nd h => List.mem_of_mem_filter h⟩, ?_, ?_⟩
      · intro nd hnd
        obtain ⟨sid, hs⟩ := hall nd hnd
        exact ⟨sid, List.mem_filter.2 ⟨hnd, by simpa using hs⟩⟩
      · intro sid hs nd hnd
        refine ⟨segDist e nd sid, ?_, ?_⟩
        · fin_cases sid
          · exact absurd rfl hs
          · exact segDist_one e e.evalR hR nd
          · exact segDist_two e e.evalR hR ha haπ nd
        · simp only [List.mem_filter, decide_eq_true_eq]
          exact ⟨fun h => h.2, fun h => ⟨hnd, h⟩⟩
    · simp at h

/-- **C12** the list of the outer curve, any shipped curve: its nodes lie within `h√2` of the curve. -/
theorem C12_outer {iter : Iter} {b : Brentq} (hb : BrentqSpec b) {N order : ℕ}
    {AD a R : ℝ} {r : ℝ → ℝ} (hr : ContDiff ℝ 1 r) (hp : ∀ t, 0 < r t ^ 2 + deriv r t ^ 2) (ha : 0 < a) (ha2 : a ≤ 2 * π)
    (hra : r a = R) (hr2 : r (2 * π) = R) {G : PsGrids}
    (h : psConstructGrids iter (mkEnv b N AD a R r) order = .ok G) (nd : Node) (hnd : nd ∈ G.allGamma 0) :
    ∃ q ∈ Segment a R r 0, dist2 (getCoord AD N nd.1 nd.2) q ≤ AD / N * √2 := by
  classical
  rw [psConstructGrids_eq] at h
  split at h
  · simp only [Except.ok.injEq] at h
    subst h
    simp only [List.mem_filter, decide_eq_true_eq] at hnd
    obtain ⟨q, hq, hd⟩ := segDist_zero_point (N := N) (AD := AD) hb hr hp ha ha2 hra hr2 nd
    exact ⟨q, hq, hd.symm.le.trans hnd.2⟩
  · simp at h

/-- **C12** for the circular arc the assertion never fires, and membership in every list is exactly
"distance at most `h√2`". -/
theorem C12_arc {iter : Iter} (hit : IsIter iter) {b : Brentq} (hb : BrentqSpec b) (N order : ℕ)
    {AD a R : ℝ} (hAD : 0 < AD) (ha : 0 < a) (haπ : a < π) (hR : 0 < R) :
    ∃ G, psConstructGrids iter (mkEnv b N AD a R (arcR R)) order = .ok G ∧
      ∀ sid, ∀ nd ∈ G.unionGamma, ∃ d, IsDistTo (getCoord AD N nd.1 nd.2) (Segment a R (arcR R) sid) d ∧
        (nd ∈ G.allGamma sid ↔ d ≤ AD / N * √2) := by
  classical
  set e := mkEnv b N AD a R (arcR R) with he
  have hpi := pi_pos
  have hdist : ∀ nd sid, IsDistTo (e.coord nd) (Segment a R (arcR R) sid) (segDist e nd sid) := by
    intro nd sid
    fin_cases sid
    · exact segDist_zero_arc hb ha haπ hR nd
    · exact segDist_one e (arcR R) hR.le nd
    · exact segDist_two e (arcR R) hR.le ha haπ nd
  have hs := mem_nSets hit e.N order e.interior
  have hint : ∀ nd : Node, e.interior nd ↔ e.coord nd ∈ Domain a (arcR R) := fun nd =>
    C07_is_interior AD N a ha (by linarith) (arcR R) hR.le nd.1 nd.2
  have hall : ∀ nd ∈ iter 3 ((nSets iter order (constructGrids iter e.N order e.interior)).1 ∩
      (nSets iter order (constructGrids iter e.N order e.interior)).2), ∃ sid, Near e nd sid := by
    intro nd hnd
    rw [(hit _ _).2, Finset.mem_inter] at hnd
    obtain ⟨p, hp, hpr⟩ := (hs nd).1.1 hnd.1
    obtain ⟨q, hq, hqr⟩ := (hs nd).2.1 hnd.2
    have hpi' := (hint p).1 ((mem_Mplus hit _ _ _ _).1 hp).2
    have hqi := mt (hint q).2 ((mem_Mminus hit _ _ _ _).1 hq).2
    by_cases hin : e.coord nd ∈ Domain a (arcR R)
    · obtain ⟨z, sid, hz, hz1, hz2⟩ := arc_crossing ha haπ hR.le hin hqi
      refine ⟨sid, ((hdist nd sid).2 z hz).trans (hz1.trans ?_)⟩
      rw [dist2_comm]
      exact reach_dist hAD.le hqr
    · obtain ⟨z, sid, hz, hz1, hz2⟩ := arc_crossing ha haπ hR.le hpi' hin
      refine ⟨sid, ((hdist nd sid).2 z hz).trans (hz2.trans ?_)⟩
      exact reach_dist hAD.le hpr
  have heq := psConstructGrids_eq iter e order
  simp only at heq
  rw [if_pos hall] at heq
  refine ⟨_, heq, ?_⟩
  intro sid nd hnd
  refine ⟨segDist e nd sid, hdist nd sid, ?_⟩
  simp only [List.mem_filter, decide_eq_true_eq]
  exact ⟨fun h => h.2, fun h => ⟨hnd, h⟩⟩

/-- **C35** on a fine enough grid no node is near all three segments. -/
theorem C35_at_most_two {iter : Iter} (hit : IsIter iter) {b : Brentq} (hb : BrentqSpec b) {N order : ℕ}
    {AD a R rmin : ℝ} {r : ℝ → ℝ} (hr : ContDiff ℝ 1 r) (hp : ∀ t, 0 < r t ^ 2 + deriv r t ^ 2) (ha : 0 < a) (haπ : a < π)
    (hRpos : 0 < R) (hra : r a = R) (hr2 : r (2 * π) = R) (hmin : ∀ t, a ≤ t → t ≤ 2 * π → rmin ≤ r t)
    (hh : AD / N * √2 * (1 + 1 / sin (a / 2)) < rmin) {G : PsGrids}
    (h : psConstructGrids iter (mkEnv b N AD a R r) order = .ok G) (nd : Node) :
    ∃ sid, nd ∉ G.allGamma sid := by
  by_contra hc
  push Not at hc
  have hpi := pi_pos
  have hsn : 0 < sin (a / 2) := sin_pos_of_pos_of_lt_pi (by linarith) (by linarith)
  obtain ⟨hsub, -, hd⟩ := (C12_all_gamma hit (e := mkEnv b N AD a R r) hRpos.le ha haπ order).2 G h
  have hmem := (hsub 0).2 nd (hc 0)
  obtain ⟨d1, ⟨⟨q1, ⟨t1, ht1, -, rfl⟩, e1⟩, -⟩, hd1⟩ := hd 1 (by decide) nd hmem
  obtain ⟨d2, ⟨⟨q2, ⟨t2, ht2, -, rfl⟩, e2⟩, -⟩, hd2⟩ := hd 2 (by decide) nd hmem
  have k1 := hd1.1 (hc 1)
  have k2 := hd2.1 (hc 2)
  rw [e1] at k1; rw [e2] at k2
  obtain ⟨q, ⟨t, hta, ht2π, rfl⟩, hq⟩ := C12_outer hb hr hp ha (by linarith) hra hr2 h nd (hc 0)
  set δ := AD / N * √2
  set P := getCoord AD N nd.1 nd.2 with hP
  have kρ := near_two_rays ha haπ P.1 P.2 t1 t2 δ ht1 ht2 k1 k2
  have hρ : √(P.1 ^ 2 + P.2 ^ 2) ≤ δ / sin (a / 2) := (le_div_iff₀ hsn).2 kρ
  -- triangle inequality from the origin
  have tri : r t ≤ √(P.1 ^ 2 + P.2 ^ 2) + dist2 P (polarPoint (r t) t) := by
    have hc : P.1 * cos t + P.2 * sin t ≤ √(P.1 ^ 2 + P.2 ^ 2) := by
      apply Real.le_sqrt_of_sq_le
      nlinarith [sq_nonneg (P.1 * sin t - P.2 * cos t), sin_sq_add_cos_sq t]
    have hd : r t - (P.1 * cos t + P.2 * sin t) ≤ dist2 P (polarPoint (r t) t) := by
      apply Real.le_sqrt_of_sq_le
      simp only [polarPoint]
      rw [dist_sq_ray]
      nlinarith [sq_nonneg (P.1 * sin t - P.2 * cos t)]
    linarith
  have := hmin t hta ht2π
  have e3 : δ * (1 + 1 / sin (a / 2)) = δ + δ / sin (a / 2) := by ring
  linarith

/-- the inequality of C35 holds for the shipped arc (`R = 2.3`, `a = π/4`, `AD = 2π`) and every `N ≥ 16` -/
theorem shipped_fine (N : ℕ) (hN : 16 ≤ N) : 2 * π / N * √2 * (1 + 1 / sin (π / 4 / 2)) < 2.3 := by
  have hN' : (16:ℝ) ≤ N := by exact_mod_cast hN
  have hs : (0.38:ℝ) < sin (π / 4 / 2) := by
    rw [show π / 4 / 2 = π / 8 by ring, Real.sin_pi_div_eight]
    have h2 : √2 < 1.4143 := by
      rw [Real.sqrt_lt' (by norm_num)]; norm_num
    rw [lt_div_iff₀ (by norm_num)]
    apply Real.lt_sqrt_of_sq_lt
    linarith
  have h2 : √2 < 1.4143 := by
    rw [Real.sqrt_lt' (by norm_num)]; norm_num
  have h20 : (0:ℝ) ≤ √2 := Real.sqrt_nonneg _
  have hpi := pi_lt_d2
  have hpos := pi_pos
  have h1 : 1 / sin (π / 4 / 2) < 1 / 0.38 := one_div_lt_one_div_of_lt (by norm_num) hs
  have h3 : 2 * π / N ≤ 2 * 3.15 / 16 := by
    apply div_le_div₀ (by norm_num) (by linarith) (by norm_num) hN'
  have h4 : 2 * π / N * √2 ≤ 2 * 3.15 / 16 * 1.4143 :=
    mul_le_mul h3 h2.le h20 (by norm_num)
  calc 2 * π / N * √2 * (1 + 1 / sin (π / 4 / 2))
      ≤ (2 * 3.15 / 16 * 1.4143) * (1 + 1 / 0.38) := by
        apply mul_le_mul h4 (by linarith) (by positivity) (by norm_num)
    _ < 2.3 := by norm_num

/-- the margin of C11 for the shipped arc and every `N ≥ 16` -/
example (N : ℕ) (hN : 16 ≤ N) : (2.3:ℝ) < 2 * π / 2 - 2 * π / N := by
  have hN' : (16:ℝ) ≤ N := by exact_mod_cast hN
  have hpi := pi_gt_d2
  have : 2 * π / N ≤ 2 * π / 16 := by gcongr
  linarith

/-- the constructed grid is not degenerate: for the quarter-plane wedge on a 16 by 16 grid the origin and the
node next to it on the diagonal are discrete-boundary nodes, attached to the wedge sides -/
example {b : Brentq} (hb : BrentqSpec b) :
    ∃ G, psConstructGrids (fun _ s => s.toList) (mkEnv b 16 (2 * π) (π / 2) 2.3 (arcR 2.3)) 4 = .ok G ∧
      ((8, 8) : Node) ∈ G.unionGamma ∧ ((9, 9) : Node) ∈ G.unionGamma ∧ ((8, 8) : Node) ∈ G.Mplus ∧
      ((9, 9) : Node) ∈ G.Mminus := by
  have hpi := pi_pos
  obtain ⟨G, hG, -⟩ := C12_arc isIter_toList hb 16 4 (AD := 2 * π) (a := π / 2) (R := 2.3) (by positivity)
    (by positivity) (by linarith) (by norm_num)
  refine ⟨G, hG, ?_⟩
  obtain ⟨hg, h1, h2, h3, h4⟩ := psGrids_sets isIter_toList hG
  have hint : ∀ nd : Node, (mkEnv b 16 (2 * π) (π / 2) 2.3 (arcR 2.3)).interior nd ↔
      getCoord (2 * π) 16 nd.1 nd.2 ∈ Domain (π / 2) (arcR 2.3) := fun nd =>
    C07_is_interior (2 * π) 16 (π / 2) (by positivity) (by linarith) (arcR 2.3) (by norm_num [arcR]) nd.1 nd.2
  have hdom : ∀ x y : ℝ, (x, y) ∈ Domain (π / 2) (arcR 2.3) ↔ _ :=
    arc_domain (a := π / 2) (R := 2.3) (by positivity) (by linarith) (by norm_num)
  have c8 : getCoord (2 * π) 16 (8 : ℤ) (8 : ℤ) = (0, 0) := by
    unfold getCoord; norm_num
  have c9 : getCoord (2 * π) 16 (9 : ℤ) (9 : ℤ) = (π / 8, π / 8) := by
    unfold getCoord; simp only [Prod.mk.injEq]; constructor <;> push_cast <;> ring
  have m8 : ((8, 8) : Node) ∈ G.Mplus := by
    rw [hg]
    refine (mem_Mplus isIter_toList _ _ _ _).2 ⟨(mem_square _ _ _).2 (by norm_num [mkEnv]), (hint _).2 ?_⟩
    rw [c8, hdom]; norm_num
  have m9 : ((9, 9) : Node) ∈ G.Mminus := by
    rw [hg]
    refine (mem_Mminus isIter_toList _ _ _ _).2 ⟨(mem_square _ _ _).2 (by norm_num [mkEnv]), mt (hint _).1 ?_⟩
    rw [c9, hdom]
    rintro ⟨-, h | h⟩
    · linarith
    · rw [sin_pi_div_two, cos_pi_div_two] at h; linarith
  refine ⟨?_, ?_, m8, m9⟩
  · exact (h4 _).2 ⟨(h1 _).2 ⟨_, m8, by norm_num [Reach]⟩, (h2 _).2 ⟨_, m9, by norm_num [Reach]⟩⟩
  · exact (h4 _).2 ⟨(h1 _).2 ⟨_, m8, by norm_num [Reach]⟩, (h2 _).2 ⟨_, m9, by norm_num [Reach]⟩⟩

end Pot
