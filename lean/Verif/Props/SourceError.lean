import Verif.Props.InhomoError
import Verif.Props.Smooth

open Real Finset Spec

namespace Pot

variable {a R ρ M m1 m2 α β : ℝ} {r : ℝ → ℝ}

/-- common constants for the solution, the source and the curve -/
theorem exists_srcBounds {u φ : ℝ × ℝ → ℂ} (hu : ContDiff ℝ 6 u) (hφ : ContDiff ℝ 3 φ) (k a R : ℝ) {r : ℝ → ℝ} (hr : ContDiff ℝ 6 r)
    (hp : ∀ t, 0 < r t ^ 2 + deriv r t ^ 2) : ∃ K L X L', Bounds u k a R r K L X ∧ SrcBounds φ a r K L' := by
  have c1 : Continuous (dRth r) := hr.continuous_deriv (by norm_num)
  have c2 : Continuous (d2Rth r) := by
    have : ContDiff ℝ 5 (deriv r) := by
      have h : ContDiff ℝ (5 + 1) r := by norm_num; exact hr
      exact ((contDiff_succ_iff_deriv (n := 5)).1 h).2.2
    exact this.continuous_deriv (by norm_num)
  obtain ⟨K1, h1⟩ := isCompact_Icc.exists_bound_of_continuousOn (s := Set.Icc (a / 2) (2 * π + a / 2)) (f := dRth r) c1.continuousOn
  obtain ⟨K2, h2⟩ := isCompact_Icc.exists_bound_of_continuousOn (s := Set.Icc (a / 2) (2 * π + a / 2)) (f := d2Rth r) c2.continuousOn
  obtain ⟨K, L, X, hK, B⟩ := exists_bounds_ge (max K1 K2) hu k a R hr hp
  obtain ⟨L1, p1, hL1⟩ := exists_pd_bound (m := 3) (u := φ) (by exact_mod_cast hφ) (K + 2)
  obtain ⟨L2, p2, hL2⟩ := exists_pd_bound (m := 3) (u := inPolar φ) (inPolar_contDiff (by exact_mod_cast hφ)) (K + 2 * π + 2)
  exact ⟨K, L, X, L1 + L2, B, fun i j hij q q1 q2 => (hL1 i j hij q q1 q2).trans (by linarith),
    fun i j hij q q1 q2 => (hL2 i j hij q q1 q2).trans (by linarith),
    fun th hth => (h1 th hth).trans ((le_max_left _ _).trans hK), fun th hth => (h2 th hth).trans ((le_max_right _ _).trans hK)⟩

/-- every value `mv_extend_boundary` records for an inhomogeneous problem, with the estimates of the two parts as they are -/
theorem entries_sharp {iter : Iter} (hit : IsIter iter) {b : Brentq} (hb : BrentqSpec b) {N order : ℕ} (hN : 0 < N) {AD : ℝ} (hAD : 0 < AD)
    (g : Gentle a R (AD / N * √2) ρ M m1 m2 α β r) (hr : ContDiff ℝ 6 r) (hp : ∀ t, 0 < r t ^ 2 + deriv r t ^ 2)
    {k eps : ℝ} (heps : 0 < eps) {nc nr : ℕ} {source : Source} {s : PSolver}
    (hs : psInit iter (mkEnv b N AD a R r) order k eps nc nr source = .ok s) (hready : Ready s)
    {u φ : ℝ × ℝ → ℂ} (hu : ContDiff ℝ 6 u) (hφ : ContDiff ℝ 3 φ) (hpde : HelmholtzSource k u φ) {η : ℝ} (hsrc : SrcOf source φ η)
    {K L X L' : ℝ} (B : Bounds u k a R r K L X) (B' : SrcBounds φ a r K L')
    {c0 c1 : List ℂ} (hv : (XiSrc.full c0 c1).Valid s.bas.bDesc) {ε : ℝ} (hex : NearExact s (.full c0 c1) u ε) {d : ℝ} (hd : d ≤ 1)
    (hδ : AD / N * √2 ≤ d) (hδR : π * (AD / N * √2) / R ≤ d)
    (hpos : ∀ t ∈ Set.Icc (a / 2) (2 * π + a / 2), 0 < r t)
    (hoff : ∀ nd ∈ s.G.unionGamma, ∀ t ∈ Set.Icc (a / 2) (2 * π + a / 2), getCoord AD N nd.1 nd.2 ≠ polarPoint (r t) t)
    (hside : ∀ nd ∈ s.G.unionGamma, ∀ n th, th ∈ Set.Icc (a / 2) (2 * π + a / 2) → n ≠ 0 → |n| ≤ AD / N * √2 →
      (th < a ∧ dist2 (getCoord AD N nd.1 nd.2) (polarPoint R a) ≤ AD / N * √2 ∨
        2 * π < th ∧ dist2 (getCoord AD N nd.1 nd.2) (polarPoint R (2 * π)) ≤ AD / N * √2) →
      getCoord AD N nd.1 nd.2 = move (polarPoint (r th) th) (evalNormal r th).1 (evalNormal r th).2 n →
      ((s.e.polar nd).1 < r (s.e.polar nd).2 ↔ n < 0)) :
    ∃ extF m, extendInhomoF s = .ok extF ∧ mvExtendBoundary s (.full c0 c1) false = .ok m ∧
      EntriesNear s m u (extS K L X ε d + srcS K L' d η) := by
  classical
  have key : ∀ (sid : Fin 3) (nd : Node), ∃ (et : EType) (v w : ℝ × ℂ), nd ∈ s.G.allGamma sid →
      getEtype s.e s.cache sid nd = .ok et ∧ doExtend s (.full c0 c1) sid et nd = .ok v ∧ doInhomo s sid et nd = .ok w ∧
      ‖v.2 + w.2 - u (getCoord AD N nd.1 nd.2)‖ ≤ extS K L X ε d + srcS K L' d η := by
    intro sid nd
    by_cases h : nd ∈ s.G.allGamma sid
    · obtain ⟨et, het⟩ := getEtype_ok (hready.hasCoord h)
      obtain ⟨v, h1, h2⟩ := ext_node hit hb hAD g hr hp heps hs hu (hφ.of_le (by norm_num)) hpde B hv hex hd hδ hδR h het
      have hU := hready.sub sid nd h
      obtain ⟨w, h3, h4⟩ := inhomo_node hit hb hN hAD g hr hp hs hφ hsrc B.one B.k B.side B.curve B' hd hδ hδR hpos (hoff nd hU)
        (hside nd hU) h het
      refine ⟨et, v, w, fun _ => ⟨het, h1, h3, ?_⟩⟩
      have e : v.2 + w.2 - u (getCoord AD N nd.1 nd.2) =
          (v.2 + sourceTerm s φ sid nd - u (getCoord AD N nd.1 nd.2)) + (w.2 - sourceTerm s φ sid nd) := by ring
      rw [e]
      exact (norm_add_le _ _).trans (add_le_add h2 h4)
    · exact ⟨.standard, (0, 0), (0, 0), fun h' => absurd h' h⟩
  choose et res res' key using key
  obtain ⟨h1, h2⟩ := mvLoop_reduce hready (ext := doExtend s (.full c0 c1)) (et := et) (res := res)
    (fun sid nd hnd => ⟨hready.sub sid nd hnd, (key sid nd hnd).1, (key sid nd hnd).2.1⟩)
  obtain ⟨h1', h2'⟩ := mvLoop_reduce hready (ext := doInhomo s) (et := et) (res := res')
    (fun sid nd hnd => ⟨hready.sub sid nd hnd, (key sid nd hnd).1, (key sid nd hnd).2.2.1⟩)
  have he : s.e = mkEnv b N AD a R r := by
    obtain ⟨G, hG, -⟩ := C12_gentle hit hb N order hAD g hp
    rw [psInit_ok hG] at hs
    cases hs
    rfl
  have hF : extendInhomoF s = .ok (s.G.unionGamma.map fun nd => mean (items s.G et res' nd)) := by
    unfold extendInhomoF mvExtendInhomo
    rw [h1', ok_bind]
    exact h2'
  by_cases hh : s.src.homogeneous = true
  · refine ⟨_, ⟨s.G.unionGamma, items s.G et res⟩, hF, ?_, items_near hready fun sid nd hnd => ⟨(key sid nd hnd).1, ?_⟩⟩
    · unfold mvExtendBoundary mvExtendHomo
      rw [h1, ok_bind]
      simp only [hh, Bool.or_true, Bool.true_or, if_true, pure_eq_ok]
    · have h0 := (key sid nd hnd).2.2.1
      unfold doInhomo at h0
      rw [if_pos hh, pure_eq_ok] at h0
      have := (key sid nd hnd).2.2.2
      rw [← Except.ok.inj h0, add_zero] at this
      rw [he]
      exact this
  · obtain ⟨r', hr1, hr2, hr3⟩ := items_add s.G et res res'
    refine ⟨_, r', hF, ?_, (items_near hready (res := fun sid nd => ((res sid nd).1, (res sid nd).2 + (res' sid nd).2))
      fun sid nd hnd => ⟨(key sid nd hnd).1, ?_⟩).congr hr2 hr3⟩
    · unfold mvExtendBoundary mvExtendHomo mvExtendInhomo
      rw [h1, ok_bind, h1', ok_bind]
      simp only [hh, Bool.or_false, Bool.false_eq_true, if_false]
      exact hr1
    · rw [he]
      exact (key sid nd hnd).2.2.2

/-- **C82** every value `mv_extend_boundary` records for an inhomogeneous problem is within a constant times `ε + d⁵ + η d²` of the
exact solution. -/
theorem C82_entries {iter : Iter} (hit : IsIter iter) {b : Brentq} (hb : BrentqSpec b) {N order : ℕ} (hN : 0 < N) {AD : ℝ} (hAD : 0 < AD)
    (g : Gentle a R (AD / N * √2) ρ M m1 m2 α β r) (hr : ContDiff ℝ 6 r) (hp : ∀ t, 0 < r t ^ 2 + deriv r t ^ 2)
    {k eps : ℝ} (heps : 0 < eps) {nc nr : ℕ} {source : Source} {s : PSolver}
    (hs : psInit iter (mkEnv b N AD a R r) order k eps nc nr source = .ok s) (hready : Ready s)
    {u φ : ℝ × ℝ → ℂ} (hu : ContDiff ℝ 6 u) (hφ : ContDiff ℝ 3 φ) (hpde : HelmholtzSource k u φ) {η : ℝ} (hsrc : SrcOf source φ η)
    {K L X L' : ℝ} (B : Bounds u k a R r K L X) (B' : SrcBounds φ a r K L')
    {c0 c1 : List ℂ} (hv : (XiSrc.full c0 c1).Valid s.bas.bDesc) {ε : ℝ} (hex : NearExact s (.full c0 c1) u ε) {d : ℝ} (hd : d ≤ 1)
    (hδ : AD / N * √2 ≤ d) (hδR : π * (AD / N * √2) / R ≤ d)
    (hpos : ∀ t ∈ Set.Icc (a / 2) (2 * π + a / 2), 0 < r t)
    (hoff : ∀ nd ∈ s.G.unionGamma, ∀ t ∈ Set.Icc (a / 2) (2 * π + a / 2), getCoord AD N nd.1 nd.2 ≠ polarPoint (r t) t)
    (hside : ∀ nd ∈ s.G.unionGamma, ∀ n th, th ∈ Set.Icc (a / 2) (2 * π + a / 2) → n ≠ 0 → |n| ≤ AD / N * √2 →
      (th < a ∧ dist2 (getCoord AD N nd.1 nd.2) (polarPoint R a) ≤ AD / N * √2 ∨
        2 * π < th ∧ dist2 (getCoord AD N nd.1 nd.2) (polarPoint R (2 * π)) ≤ AD / N * √2) →
      getCoord AD N nd.1 nd.2 = move (polarPoint (r th) th) (evalNormal r th).1 (evalNormal r th).2 n →
      ((s.e.polar nd).1 < r (s.e.polar nd).2 ↔ n < 0)) :
    ∃ extF m, extendInhomoF s = .ok extF ∧ mvExtendBoundary s (.full c0 c1) false = .ok m ∧
      EntriesNear s m u (extC K L X * (ε + d ^ 5) + srcC K L' * (d ^ 5 + η * d ^ 2)) := by
  obtain ⟨extF, m, h1, h2, h3⟩ := entries_sharp hit hb hN hAD g hr hp heps hs hready hu hφ hpde hsrc B B' hv hex hd hδ hδR hpos hoff hside
  have hpi := pi_pos
  have hR := g.Rpos
  have hd0 : 0 ≤ d := le_trans (by positivity) hδ
  have hε := hex.nonneg (by
    obtain ⟨G, hG, -⟩ := C12_gentle hit hb N order hAD g hp
    rw [psInit_ok hG] at hs
    cases hs
    exact hR.le)
  refine ⟨extF, m, h1, h2, h3.mono (add_le_add (extS_le B.one ?_ ?_ hε hd0)
    (srcC_outer (B'.cart.nonneg (by linarith [B.one])) hd0 hsrc.nonneg))⟩
  · exact (norm_nonneg _).trans (B.data 0 0 0 ⟨by norm_num, by linarith⟩)
  · exact (norm_nonneg _).trans (B.fifth 5 0 rfl (0, 0) (by simp; linarith [B.one]) (by simp; linarith [B.one]))

/-- **C82** the extension vector of an inhomogeneous problem is within a constant times `ε + d⁵ + η d²` of the exact solution on the
discrete boundary. -/
theorem C82_extension {iter : Iter} (hit : IsIter iter) {b : Brentq} (hb : BrentqSpec b) {N order : ℕ} (hN : 0 < N) {AD : ℝ} (hAD : 0 < AD)
    (g : Gentle a R (AD / N * √2) ρ M m1 m2 α β r) (hr : ContDiff ℝ 6 r) (hp : ∀ t, 0 < r t ^ 2 + deriv r t ^ 2)
    {k eps : ℝ} (heps : 0 < eps) {nc nr : ℕ} {source : Source} {s : PSolver}
    (hs : psInit iter (mkEnv b N AD a R r) order k eps nc nr source = .ok s) (hready : Ready s)
    {u φ : ℝ × ℝ → ℂ} (hu : ContDiff ℝ 6 u) (hφ : ContDiff ℝ 3 φ) (hpde : HelmholtzSource k u φ) {η : ℝ} (hsrc : SrcOf source φ η)
    {K L X L' : ℝ} (B : Bounds u k a R r K L X) (B' : SrcBounds φ a r K L')
    {c0 c1 : List ℂ} (hv : (XiSrc.full c0 c1).Valid s.bas.bDesc) {ε : ℝ} (hex : NearExact s (.full c0 c1) u ε) {d : ℝ} (hd : d ≤ 1)
    (hδ : AD / N * √2 ≤ d) (hδR : π * (AD / N * √2) / R ≤ d)
    (hpos : ∀ t ∈ Set.Icc (a / 2) (2 * π + a / 2), 0 < r t)
    (hoff : ∀ nd ∈ s.G.unionGamma, ∀ t ∈ Set.Icc (a / 2) (2 * π + a / 2), getCoord AD N nd.1 nd.2 ≠ polarPoint (r t) t)
    (hside : ∀ nd ∈ s.G.unionGamma, ∀ n th, th ∈ Set.Icc (a / 2) (2 * π + a / 2) → n ≠ 0 → |n| ≤ AD / N * √2 →
      (th < a ∧ dist2 (getCoord AD N nd.1 nd.2) (polarPoint R a) ≤ AD / N * √2 ∨
        2 * π < th ∧ dist2 (getCoord AD N nd.1 nd.2) (polarPoint R (2 * π)) ≤ AD / N * √2) →
      getCoord AD N nd.1 nd.2 = move (polarPoint (r th) th) (evalNormal r th).1 (evalNormal r th).2 n →
      ((s.e.polar nd).1 < r (s.e.polar nd).2 ↔ n < 0)) :
    ∃ extF ext, extendInhomoF s = .ok extF ∧ extendBoundary s (.full c0 c1) = .ok ext ∧ ext.length = s.G.unionGamma.length ∧
      ∀ (l : ℕ) (hl : l < s.G.unionGamma.length) (hl' : l < ext.length),
        ‖ext[l] - u (getCoord AD N s.G.unionGamma[l].1 s.G.unionGamma[l].2)‖ ≤
          extC K L X * (ε + d ^ 5) + srcC K L' * (d ^ 5 + η * d ^ 2) := by
  have he : s.e = mkEnv b N AD a R r := by
    obtain ⟨G, hG, -⟩ := C12_gentle hit hb N order hAD g hp
    have hs' := hs
    rw [psInit_ok hG] at hs'
    cases hs'
    rfl
  obtain ⟨extF, m, hF, hm, hE⟩ := C82_entries hit hb hN hAD g hr hp heps hs hready hu hφ hpde hsrc B B' hv hex hd hδ hδR hpos hoff hside
  obtain ⟨ext, h1, h2, h3⟩ := hE.reduce
  refine ⟨extF, ext, hF, ?_, h2, fun l hl hl' => ?_⟩
  · unfold extendBoundary
    rw [hm, ok_bind, h1]
  · have := h3 l hl hl'
    rw [he] at this
    exact this

/-- near the corners of a shipped boundary the sign of the offset tells on which side of the curve the node is -/
theorem tame_side {r : ℝ → ℝ} (T : Tame r) {δ : ℝ} (hδ : δ ≤ 0.556) {n th r1 th1 : ℝ} (hth : th ∈ Set.Icc (probA / 2) (2 * π + probA / 2))
    (hth1 : th1 ∈ Set.Icc (probA / 2) (2 * π + probA / 2)) (hr1 : 0 ≤ r1) (hn0 : n ≠ 0) (hn : |n| ≤ δ)
    (hc : th < probA ∧ dist2 (polarPoint r1 th1) (polarPoint probR probA) ≤ δ ∨
      2 * π < th ∧ dist2 (polarPoint r1 th1) (polarPoint probR (2 * π)) ≤ δ)
    (h : polarPoint r1 th1 = move (polarPoint (r th) th) (evalNormal r th).1 (evalNormal r th).2 n) : r1 < r th1 ↔ n < 0 := by
  have hpi := pi_pos
  have h3 := pi_gt_three
  obtain ⟨w1, w2⟩ := hth
  obtain ⟨v1, v2⟩ := hth1
  have hs : (0.556 : ℝ) ≤ 2.3 * sin 0.25 := by
    have := sin_gt_sub_cube (x := 0.25) (by norm_num)
    norm_num at this ⊢
    linarith
  unfold probA at w1 w2 v1 v2 hc
  unfold probR at hc
  refine T.side w1 w2 v1 v2 hr1 (hn.trans hδ) hn0 ?_ h
  rcases hc with ⟨c1, c2⟩ | ⟨c1, c2⟩
  · obtain ⟨-, -, e3, e4⟩ := near_polar hr1 (by norm_num) (c2.trans hδ) (by norm_num)
    have := near_angle (α := 0.25) (by norm_num) e3 e4 (by norm_num) (by linarith) (by norm_num at hs ⊢; linarith)
      (by rw [abs_lt]; constructor <;> norm_num <;> linarith)
    obtain ⟨k1, k2⟩ := abs_le.1 this
    norm_num at k1 k2
    rw [abs_le]
    constructor <;> linarith
  · obtain ⟨-, -, e3, e4⟩ := near_polar hr1 (by norm_num) (c2.trans hδ) (by norm_num)
    have := near_angle (α := 0.25) (by norm_num) e3 e4 (by norm_num) (by linarith) (by norm_num at hs ⊢; linarith)
      (by rw [abs_lt]; constructor <;> norm_num <;> linarith)
    obtain ⟨k1, k2⟩ := abs_le.1 this
    norm_num at k1 k2
    rw [abs_le]
    constructor <;> linarith

theorem coord_abs {x y : ℝ × ℝ} {d : ℝ} (h : dist2 x y ≤ d) : |x.1| ≤ |y.1| + d ∧ |x.2| ≤ |y.2| + d := by
  have hd0 : 0 ≤ d := (Real.sqrt_nonneg _).trans h
  have hsq : (x.1 - y.1) ^ 2 + (x.2 - y.2) ^ 2 ≤ d ^ 2 := (Real.sqrt_le_iff.1 h).2
  have h1 : |x.1 - y.1| ≤ d := abs_le_of_sq_le_sq (by nlinarith [sq_nonneg (x.2 - y.2)]) hd0
  have h2 : |x.2 - y.2| ≤ d := abs_le_of_sq_le_sq (by nlinarith [sq_nonneg (x.1 - y.1)]) hd0
  have e1 := abs_sub_abs_le_abs_sub x.1 y.1
  have e2 := abs_sub_abs_le_abs_sub x.2 y.2
  constructor <;> linarith

theorem polar_abs {q t : ℝ} (hq : 0 ≤ q) : |(polarPoint q t).1| ≤ q ∧ |(polarPoint q t).2| ≤ q := by
  unfold polarPoint
  simp only [abs_mul, abs_of_nonneg hq]
  exact ⟨mul_le_of_le_one_right hq (abs_cos_le_one t), mul_le_of_le_one_right hq (abs_sin_le_one t)⟩

/-- **C82** on a shipped boundary the source array is within `2 L' δ³ + η` of the source on `Kplus`. -/
theorem C82_source {iter : Iter} (hit : IsIter iter) {b : Brentq} (hb : BrentqSpec b) {n order : ℕ} (hN : 16 ≤ n + 1) {r : ℝ → ℝ}
    (T : Tame r) {k eps : ℝ} {nc nr : ℕ} {source : Source} {G : PsGrids}
    (S : Setup iter (mkEnv b (n + 1) probAD probA probR r) n order k G) {s : PSolver}
    (hs : psInit iter (mkEnv b (n + 1) probAD probA probR r) order k eps nc nr source = .ok s) {φ : ℝ × ℝ → ℂ}
    (hφ : ContDiff ℝ 3 φ) {η : ℝ} (hsrc : SrcOf source φ η) {K L' : ℝ} (hrad : ∀ th ∈ Set.Icc (probA / 2) (2 * π + probA / 2), |r th| ≤ K)
    (B' : SrcBounds φ probA r K L') :
    ∃ f : Arr (n + 2), setupF iter s = .ok f ∧ ∀ q ∈ G.Kplus, ‖fullNode f q.1 q.2 - φ (getCoord probAD (n + 1) q.1 q.2)‖ ≤
      2 * L' * (probAD / (n + 1 : ℕ) * √2) ^ 3 + η := by
  classical
  have hpi := pi_pos
  have g := T.gentleAt hN
  have hAD : 0 < probAD := by unfold probAD; positivity
  have ha := g.apos
  have haπ := g.aπ
  have hready := ready_gentle hit hb hAD g T.regular (shipped_sides hN).1 (shipped_sides hN).2.1 (shipped_sides hN).2.2 hs
  have hnear := @extendFPoint_near _ _ _ _ _ _ _ _ _ iter hit b hb (n + 1) order probAD hAD g T.regular k eps nc nr source s hs
  have hη := hsrc.nonneg
  have hs' := hs
  rw [psInit_ok S.built] at hs'
  cases hs'
  set s : PSolver := ⟨mkEnv b (n + 1) probAD probA probR r, order, k, eps, setupBasis nc nr, G,
    buildCache (mkEnv b (n + 1) probAD probA probR r) (G.allGamma 0), source⟩ with hsdef
  have hpos : ∀ t, probA / 2 ≤ t → t ≤ 2 * π + probA / 2 → 0 < r t := fun t h1 h2 => by
    have := T.lo t h1 h2
    norm_num at this; linarith
  obtain ⟨G', hG', hdist⟩ := C12_gentle hit hb (n + 1) order hAD g T.regular
  rw [show G' = G from Except.ok.inj (hG'.symm.trans S.built)] at hdist
  have hsc : probAD / (n + 1 : ℕ) * √2 ≤ 0.556 := shipped_scale (n + 1) hN
  have hδ0 : 0 ≤ probAD / (n + 1 : ℕ) * √2 := by positivity
  have hpt : ∀ nd ∈ G.Kplus \ G.Mplus, ∃ x, extendFPoint s nd = .ok (some x) ∧ x ≠ s.e.coord nd ∧ x ≠ (0, 0) := by
    intro nd hnd
    refine C26_point_of hit hAD ha haπ (fun t h1 h2 => hpos t (by linarith) (by linarith)) g.at_a g.at_two_pi
      hready rfl S.built S.margin (fun nd hgam x hx hsq hge => ?_) hnd
    obtain ⟨p1, p2, p3, p4⟩ := env_polar (mkEnv b (n + 1) probAD probA probR r) ha (by show probA ≤ 4 * π; linarith) nd
    obtain ⟨q, t', d1, d2, d3, d4, rfl⟩ := hx
    obtain ⟨d, hd1, hd2⟩ := hdist 0 nd hgam
    refine hd2.2 ?_
    have hη : probAD / (n + 1 : ℕ) ≤ 0.393 := by
      have h1 : (16:ℝ) ≤ ((n + 1 : ℕ) : ℝ) := by exact_mod_cast hN
      have h2 := pi_lt_d4
      rw [div_le_iff₀ (by linarith)]
      unfold probAD
      norm_num at h1 h2 ⊢
      linarith
    have hc : getCoord probAD (n + 1) nd.1 nd.2 = polarPoint ((mkEnv b (n + 1) probAD probA probR r).polar nd).1
      ((mkEnv b (n + 1) probAD probA probR r).polar nd).2 := p1.symm
    rw [hc] at hsq
    obtain ⟨x, hx, hle⟩ := tame_near T hη hge p3 p4.le d3 d4 d1 d2 hsq.le
    have hx' : x ∈ Segment probA probR r 0 := hx
    rw [← hc] at hle
    exact (hd1.2 x hx').trans hle
  choose! P hP using hpt
  obtain ⟨f, hf, f1, f2, -⟩ := C26_setup_f (s := s) S.hit rfl S.built hsrc.inhomo P
    (fun nd => (pdFam φ 1 0 (P nd), pdFam φ 0 1 (P nd)))
    (fun nd => ((pdFam φ 2 0 (P nd), pdFam φ 1 1 (P nd)), (pdFam φ 1 1 (P nd), pdFam φ 0 2 (P nd))))
    (fun q hq => ⟨(hP q hq).1, (hP q hq).2.1⟩) (fun q hq => (hsrc.cart _ (hP q hq).2.2).grad) (fun q hq => (hsrc.cart _ (hP q hq).2.2).hess)
  refine ⟨f, hf, fun q hq => ?_⟩
  have hL : 0 ≤ L' := B'.cart.nonneg (by
    have := (abs_nonneg _).trans (hrad probA ⟨by linarith, by linarith⟩)
    linarith)
  by_cases hm : q ∈ G.Mplus
  · rw [f1 q hm]
    have h0 : 0 ≤ 2 * L' * (probAD / (n + 1 : ℕ) * √2) ^ 3 := by positivity
    by_cases hc : getCoord probAD (n + 1) q.1 q.2 = (0, 0)
    · have : s.e.coord q = (0, 0) := hc
      rw [hc, this]
      exact hsrc.origin.trans (by linarith)
    · have := (hsrc.cart _ hc).f
      have e : s.src.f (s.e.coord q).1 (s.e.coord q).2 = φ (getCoord probAD (n + 1) q.1 q.2) := this
      rw [e, sub_self, norm_zero]
      linarith
  · have hqd : q ∈ G.Kplus \ G.Mplus := Finset.mem_sdiff.2 ⟨hq, hm⟩
    rw [f2 q hqd]
    have hd := hnear S.margin hqd (hP q hqd).1
    obtain ⟨-, -, x, ⟨σ, t', k1, k2, k3, k4, rfl⟩, hx⟩ := kplus_outside hit hAD ha haπ (by rw [g.at_two_pi]; exact g.Rpos.le) S.built S.margin hqd
    have hle : probAD / (n + 1 : ℕ) ≤ probAD / (n + 1 : ℕ) * √2 := le_mul_of_one_le_right (by positivity) (Real.one_le_sqrt.2 (by norm_num))
    obtain ⟨a1, a2⟩ := coord_abs (hx.le.trans hle)
    obtain ⟨b1, b2⟩ := coord_abs ((dist2_comm (P q) _).trans_le hd)
    obtain ⟨e1, e2⟩ := polar_abs (q := σ) (t := t') k3
    have e3 := (le_abs_self _).trans (hrad t' ⟨by linarith, by linarith⟩)
    have hval : s.src.f (P q).1 (P q).2 = pdFam φ 0 0 (P q) := (hsrc.cart _ (hP q hqd).2.2).f
    rw [hval]
    have h3 : (0.556 : ℝ) ≤ 2 / 3 := by norm_num
    have := taylor2_near hφ B'.cart (p := P q) (x := s.e.coord q) hd (by linarith) (by linarith)
    exact this.trans (by linarith)

/-- **C82** an inhomogeneous problem on a shipped boundary, on every grid with at least 16 cells per side and no node on the curve: if
the data the program has computed is within `ε` of the exact Cauchy data (with four derivatives) and the source's value at the
origin is off by at most `η`, the extension vector is within `C (ε + N⁻⁵ + η N⁻²)` of the exact solution, and the solution within
`C (ε N³ + N⁻² + η N)` of the exact solution at every node of the region. -/
theorem C82_shipped {name : String} {r : ℝ → ℝ} (hname : chooseBoundary name = .ok r) {k : ℝ}
    (hk : k = smoothK ∨ k = ihK ∨ k = quadK ∨ k = 1) {u φ : ℝ × ℝ → ℂ} (hu : ContDiff ℝ 6 u) (hφ : ContDiff ℝ 3 φ)
    (hpde : HelmholtzSource k u φ) :
    ∃ C, 0 ≤ C ∧ ∀ {iter : Iter}, IsIter iter → ∀ {b : Brentq}, BrentqSpec b → ∀ {n : ℕ}, 16 ≤ n + 1 →
      (∀ (i j : ℤ) (t : ℝ), probA / 2 ≤ t → t ≤ 2 * π + probA / 2 → getCoord probAD (n + 1) i j ≠ polarPoint (r t) t) →
      ∀ {eps : ℝ}, 0 < eps → ∀ {source : Source} {η : ℝ}, SrcOf source φ η → ∀ {p q : ℕ}, 1 ≤ p → 1 ≤ q →
      ∀ {s : PSolver}, psInit iter (mkEnv b (n + 1) probAD probA probR r) 4 k eps p q source = .ok s →
      ∀ {ap : Arr n}, initApSolF n iter s = .ok ap → ∀ {fit : Chebfit} {lstsq : Lstsq}, IsChebfit fit → IsLstsq lstsq →
      ∀ {roots : List ℝ} {bc : ℝ → Fin 3 → ℂ} {ex : Option (ℝ → ℝ → ℂ)} {res : RunResult n},
      psRun iter s ap fit roots bc lstsq ex = .ok res → ∀ {ε : ℝ}, NearExact s (.full res.c0 res.c1) u ε →
      (∀ (l : ℕ) (hl : l < s.G.unionGamma.length), ∃ hl' : l < res.ext.length,
        ‖res.ext[l] - u (getCoord probAD (n + 1) s.G.unionGamma[l].1 s.G.unionGamma[l].2)‖ ≤
          C * (ε + 1 / ((n : ℝ) + 1) ^ 5 + η / ((n : ℝ) + 1) ^ 2)) ∧
      ∀ nd ∈ s.G.Nplus, ‖node res.uAct nd.1 nd.2 - u (getCoord probAD (n + 1) nd.1 nd.2)‖ ≤
        C * (ε * ((n : ℝ) + 1) ^ 3 + 1 / ((n : ℝ) + 1) ^ 2 + η * ((n : ℝ) + 1)) := by
  have hpi := pi_pos
  have T := chooseBoundary_tame hname
  have hAD : 0 < probAD := by unfold probAD; positivity
  have hr6 : ContDiff ℝ 6 r := by exact_mod_cast chooseBoundary_smooth hname 6
  obtain ⟨K, L, X, L', B, B'⟩ := exists_srcBounds hu hφ k probA probR hr6 T.regular
  obtain ⟨m, hm, hlow⟩ := C80_shipped_uniform (order := 4) (Or.inr rfl) hk
  obtain ⟨M6, hM0, hM6⟩ := exists_pd_bound6 hu (probAD / 2)
  have hX : 0 ≤ X := (norm_nonneg _).trans (B.data 0 0 0 ⟨by norm_num, by unfold probR; linarith⟩)
  have hL : 0 ≤ L := (norm_nonneg _).trans (B.fifth 5 0 rfl (0, 0) (by simp; linarith [B.one]) (by simp; linarith [B.one]))
  have hL' : 0 ≤ L' := B'.cart.nonneg (by linarith [B.one])
  have hE : 0 ≤ extC K L X := by
    have := B.one
    unfold extC
    positivity
  have hE' : 0 ≤ srcC K L' := by
    have := B.one
    unfold srcC
    positivity
  set c := 1.4 * (probAD * √2) with hc
  have hc0 : 0 ≤ c := by positivity
  set A := 1 + (8 / probAD ^ 2 + k ^ 2) / m with hA
  have hA0 : 0 ≤ A := by positivity
  set D := extC K L X * (1 + c ^ 5) + srcC K L' * (c ^ 5 + c ^ 2) with hD
  have hD0 : 0 ≤ D := by positivity
  set F := 11 / 180 * M6 * probAD ^ 4 / m with hF
  have hF0 : 0 ≤ F := by positivity
  set H := (2 * L' * (probAD * √2) ^ 3 + 1) / m with hH
  have hH0 : 0 ≤ H := by positivity
  refine ⟨D + A * D + F + H, by positivity, ?_⟩
  intro iter hit b hb n hN hoff eps heps source η hsrc p q hp hq s hs ap hap fit lstsq hfit hlsq roots bc ex res hrun ε hex
  have hη := hsrc.nonneg
  have hν : (16:ℝ) ≤ (n : ℝ) + 1 := by exact_mod_cast hN
  set ν := (n : ℝ) + 1 with hνdef
  have hν0 : 0 < ν := by linarith
  have hcast : ((n + 1 : ℕ) : ℝ) = ν := by push_cast; rfl
  have g := T.gentleAt hN
  have hready := ready_gentle hit hb hAD g T.regular (shipped_sides hN).1 (shipped_sides hN).2.1 (shipped_sides hN).2.2 hs
  have hz : NoZeroEig n 4 probAD k := by
    obtain ⟨h1, h2, h3, h4⟩ := C78_shipped n (order := 4) (Or.inr rfl)
    rcases hk with rfl | rfl | rfl | rfl <;> assumption
  obtain ⟨G, S⟩ := setup_shipped hit hb hN (Or.inr rfl) hname hz
  obtain ⟨f, hf, hfz⟩ := C82_source hit hb hN T S hs hφ hsrc B.radius B'
  have hs' := hs
  rw [psInit_ok S.built] at hs'
  cases hs'
  set s : PSolver := ⟨mkEnv b (n + 1) probAD probA probR r, 4, k, eps, setupBasis p q, G,
    buildCache (mkEnv b (n + 1) probAD probA probR r) (G.allGamma 0), source⟩ with hsdef
  have hsc : probAD / (n + 1 : ℕ) * √2 ≤ 0.556 := shipped_scale (n + 1) hN
  have hδ0 : 0 ≤ probAD / (n + 1 : ℕ) * √2 := by positivity
  have hpos : ∀ t ∈ Set.Icc (probA / 2) (2 * π + probA / 2), 0 < r t := fun t ht => by
    have := T.lo t ht.1 ht.2
    norm_num at this; linarith
  have hside : ∀ nd ∈ s.G.unionGamma, ∀ x th, th ∈ Set.Icc (probA / 2) (2 * π + probA / 2) → x ≠ 0 → |x| ≤ probAD / (n + 1 : ℕ) * √2 →
      (th < probA ∧ dist2 (getCoord probAD (n + 1) nd.1 nd.2) (polarPoint probR probA) ≤ probAD / (n + 1 : ℕ) * √2 ∨
        2 * π < th ∧ dist2 (getCoord probAD (n + 1) nd.1 nd.2) (polarPoint probR (2 * π)) ≤ probAD / (n + 1 : ℕ) * √2) →
      getCoord probAD (n + 1) nd.1 nd.2 = move (polarPoint (r th) th) (evalNormal r th).1 (evalNormal r th).2 x →
      ((s.e.polar nd).1 < r (s.e.polar nd).2 ↔ x < 0) := by
    intro nd _ x th hth hx0 hx hcor hmv
    obtain ⟨p1, p2, p3, p4⟩ := env_polar (mkEnv b (n + 1) probAD probA probR r) g.apos (by show probA ≤ 4 * π; linarith [g.aπ]) nd
    have hcd : getCoord probAD (n + 1) nd.1 nd.2 = polarPoint ((mkEnv b (n + 1) probAD probA probR r).polar nd).1
      ((mkEnv b (n + 1) probAD probA probR r).polar nd).2 := p1.symm
    rw [hcd] at hcor hmv
    exact tame_side T hsc hth ⟨p3, p4.le⟩ p2 hx0 hx hcor hmv
  have hε := hex.nonneg g.Rpos.le
  set d := 1.4 * (probAD / (n + 1 : ℕ) * √2) with hd
  have hdc : d = c / ν := by rw [hd, hc, hcast]; ring
  have hd1 : d ≤ 1 := by rw [hd]; linarith
  have hd2 : probAD / (n + 1 : ℕ) * √2 ≤ d := by rw [hd]; linarith
  have hd3 : π * (probAD / (n + 1 : ℕ) * √2) / probR ≤ d := by
    have hpi' := pi_lt_d4
    unfold probR
    rw [hd, div_le_iff₀ (by norm_num)]
    have := mul_le_mul_of_nonneg_right hpi'.le hδ0
    linarith
  have hall : ∀ {c0 c1 : List ℂ}, (XiSrc.full c0 c1).Valid s.bas.bDesc → ∀ {ε : ℝ}, NearExact s (.full c0 c1) u ε → _ :=
    fun {c0 c1} hv {ε} hex => C82_extension hit hb (Nat.succ_pos n) hAD g hr6 T.regular heps hs hready hu hφ hpde hsrc B B'
      (c0 := c0) (c1 := c1) hv hex hd1 hd2 hd3 hpos (fun nd _ t ht => hoff nd.1 nd.2 t ht.1 ht.2) hside
  have hF' : ∃ extF, extendInhomoF s = .ok extF := by
    set z : List ℂ := List.replicate s.bas.bDesc.length 0
    obtain ⟨ε0, h0⟩ := exists_nearExact s (.full z z) hu (by exact hr6) (by exact T.regular)
    obtain ⟨extF, -, h, -⟩ := hall (c0 := z) (c1 := z) ⟨by simp [z], by simp [z]⟩ h0
    exact ⟨extF, h⟩
  obtain ⟨extF, hF'⟩ := hF'
  obtain ⟨l0, l1, hext, hreg⟩ := run_parts (s := s) S hready hp hq rfl hF' hfit hlsq hrun
  obtain ⟨-, ext, -, he1, he2, he3⟩ := hall (c0 := res.c0) (c1 := res.c1) ⟨l0.ge, l1.ge⟩ hex
  obtain rfl : ext = res.ext := Except.ok.inj (he1.symm.trans hext)
  have hd5 : d ^ 5 = c ^ 5 * (1 / ν ^ 5) := by rw [hdc, div_pow]; ring
  have hd2' : η * d ^ 2 = c ^ 2 * (η / ν ^ 2) := by rw [hdc, div_pow]; ring
  have hi5 : 0 ≤ 1 / ν ^ 5 := by positivity
  have hi2 : 0 ≤ η / ν ^ 2 := by positivity
  set E := ε + 1 / ν ^ 5 + η / ν ^ 2 with hEdef
  have hsum : 0 ≤ E := by positivity
  have hbound : extC K L X * (ε + d ^ 5) + srcC K L' * (d ^ 5 + η * d ^ 2) ≤ D * E := by
    rw [hD, add_mul, mul_assoc, mul_assoc]
    have c5 := pow_nonneg hc0 5
    have c2 := pow_nonneg hc0 2
    refine add_le_add (mul_le_mul_of_nonneg_left ?_ hE) (mul_le_mul_of_nonneg_left ?_ hE')
    · rw [hd5, hEdef]
      have a1 := mul_nonneg c5 hε
      have a2 := mul_nonneg c5 hi2
      linarith
    · rw [hd5, hd2', hEdef]
      have a1 := mul_nonneg c5 hε
      have a2 := mul_nonneg c5 hi2
      have a3 := mul_nonneg c2 hε
      have a4 := mul_nonneg c2 hi5
      linarith
  constructor
  · intro l hl
    refine ⟨by rw [he2]; exact hl, (he3 l hl (by rw [he2]; exact hl)).trans (hbound.trans ?_)⟩
    refine mul_le_mul_of_nonneg_right ?_ hsum
    have := mul_nonneg hA0 hD0
    linarith
  · have hJ := jet_of_contDiff (n := 6) (g := u) (by exact_mod_cast hu)
    obtain ⟨s0, w, h1, h2, -, h3⟩ := C80_rate S hAD hm (hlow n) hJ (M := M6) (T := 2 * L' * (probAD / (n + 1 : ℕ) * √2) ^ 3 + η)
      (by positivity) (δ := D * E) (by positivity) hM6 f (fun q hq => by
        have := helmholtz_pdFam_source (hu.of_le (by norm_num)) hpde ((mkEnv b (n + 1) probAD probA probR r).coord q)
        refine le_trans (le_of_eq ?_) (hfz q hq)
        exact congrArg (fun z => ‖fullNode f q.1 q.2 - z‖) this)
      res.ext he2 (fun l => (he3 l l.2 (by rw [he2]; exact l.2)).trans hbound)
    have hap' : ap = s0 := by
      unfold initApSolF at hap
      rw [hf, ok_bind] at hap
      exact Except.ok.inj (hap.symm.trans h1)
    subst hap'
    obtain rfl : w = res.uAct := Except.ok.inj (h2.symm.trans hreg)
    intro nd hnd
    refine (h3 nd hnd).trans ?_
    show ((n + 1 : ℕ) : ℝ) * ((1 + (8 / (probAD / ((n + 1 : ℕ) : ℝ)) ^ 2 + k ^ 2) / m) * (D * E) +
      (11 / 180 * M6 * (probAD / ((n + 1 : ℕ) : ℝ)) ^ 4 + (2 * L' * (probAD / ((n + 1 : ℕ) : ℝ) * √2) ^ 3 + η)) / m) ≤ _
    rw [hcast]
    have hν1 : 1 ≤ ν ^ 2 := one_le_pow₀ (by linarith)
    have e1 : 1 + (8 / (probAD / ν) ^ 2 + k ^ 2) / m ≤ A * ν ^ 2 := by
      have a1 : 8 / (probAD / ν) ^ 2 = 8 / probAD ^ 2 * ν ^ 2 := by field_simp
      have a2 : k ^ 2 ≤ k ^ 2 * ν ^ 2 := le_mul_of_one_le_right (sq_nonneg k) hν1
      rw [a1, hA]
      have a3 : (8 / probAD ^ 2 * ν ^ 2 + k ^ 2) / m ≤ (8 / probAD ^ 2 * ν ^ 2 + k ^ 2 * ν ^ 2) / m := by gcongr
      calc _ ≤ ν ^ 2 + (8 / probAD ^ 2 * ν ^ 2 + k ^ 2 * ν ^ 2) / m := by linarith
        _ = _ := by ring
    set Y := ε * ν ^ 3 + 1 / ν ^ 2 + η * ν with hY
    have y1 : 0 ≤ ε * ν ^ 3 := by positivity
    have y2 : 0 ≤ 1 / ν ^ 2 := by positivity
    have y3 : 0 ≤ η * ν := by positivity
    have e2 : ν * ((11 / 180 * M6 * (probAD / ν) ^ 4 + (2 * L' * (probAD / ν * √2) ^ 3 + η)) / m) =
        F * (1 / ν ^ 3) + (2 * L' * (probAD * √2) ^ 3 * (1 / ν ^ 2) + η * ν) / m := by
      rw [hF]
      field_simp
    have e3 : (2 * L' * (probAD * √2) ^ 3 * (1 / ν ^ 2) + η * ν) / m ≤ H * Y := by
      rw [hH, div_mul_eq_mul_div]
      refine div_le_div_of_nonneg_right ?_ hm.le
      have z0 : 0 ≤ 2 * L' * (probAD * √2) ^ 3 := by positivity
      have z1 := mul_nonneg z0 y1
      have z2 := mul_nonneg z0 y3
      rw [hY]
      linarith
    have e4 : 1 / ν ^ 3 ≤ 1 / ν ^ 2 := by
      apply one_div_le_one_div_of_le (by positivity)
      exact pow_le_pow_right₀ (by linarith) (by norm_num)
    have e5 : ν * (A * ν ^ 2 * (D * E)) = A * D * Y := by rw [hEdef, hY]; field_simp
    have e7 : F * (1 / ν ^ 3) ≤ F * Y := mul_le_mul_of_nonneg_left (by linarith) hF0
    have e8 : 0 ≤ D * Y := by positivity
    have e9 : ν * ((1 + (8 / (probAD / ν) ^ 2 + k ^ 2) / m) * (D * E)) ≤ ν * (A * ν ^ 2 * (D * E)) :=
      mul_le_mul_of_nonneg_left (mul_le_mul_of_nonneg_right e1 (by positivity)) hν0.le
    rw [mul_add, e2]
    rw [e5] at e9
    linarith

/-- **C82** the source methods of a SymPy problem whose `f_expr` is `φ` in polar coordinates belong to `φ`; at the origin they are off
by a term of second order in `AD/10000`. -/
theorem C82_sympy {φ : ℝ × ℝ → ℂ} (hφ : ContDiff ℝ 3 φ) {f : ℝ → ℝ → ℂ} (hf : ∀ r th, f r th = φ (polarPoint r th)) {AD : ℝ} (hA : 0 < AD)
    (hA' : AD ≤ 10000) {L : ℝ} (hL : Third (pdFam φ) 2 L) :
    SrcOf (spSource AD f) φ (2 * L * (AD / 10000) ^ 3 + (AD / 10000) ^ 2 * ‖pdFam φ 2 0 (-(AD / 10000), 0)‖) := by
  have hJ : JetOn Set.univ 2 (pdFam φ) := jetOn_of_contDiffOn isOpen_univ (n := 2) ((hφ.of_le (by norm_num)).contDiffOn)
  have hφ' : ContDiff ℝ 3 (inPolar φ) := by exact_mod_cast inPolar_contDiff (m := 3) (by exact_mod_cast hφ)
  have hP : JetOn Set.univ 2 (pdFam (inPolar φ)) := jetOn_of_contDiffOn isOpen_univ (n := 2) ((hφ'.of_le (by norm_num)).contDiffOn)
  have hh : 0 < AD / 10000 := by positivity
  have hh1 : AD / 10000 ≤ 1 := by rw [div_le_one (by norm_num)]; exact hA'
  refine ⟨rfl, fun p hp => C57_source hJ AD (x := p.1) (y := p.2) hp trivial (.of_forall fun q => hf q.1 q.2), ?_, fun ρ th hρ =>
    C57_source_polar hJ AD hρ.ne' trivial (.of_forall fun q => hf q.1 q.2) hP trivial fun q _ => (hf q.1 q.2).symm⟩
  obtain ⟨-, h2⟩ := C58_origin hJ hA trivial (.of_forall fun q => hf q.1 q.2) 0
  have e : (spSource AD f).f 0 0 = pyGet (spF AD f 0 0) := rfl
  rw [e, h2]
  simp only [pyGet]
  have key := taylor2_near hφ (K := 0) (L := L) (d := AD / 10000) (p := (-(AD / 10000), 0)) (x := (0, 0)) (by rw [zero_add]; exact hL)
    (by unfold dist2; simp [Real.sqrt_sq hh.le]) (by simp only [abs_neg, abs_of_pos hh]; linarith)
    (by simp only [abs_zero]; linarith)
  rw [add_sub_right_comm]
  refine (norm_add_le _ _).trans (add_le_add key (le_of_eq ?_))
  rw [norm_mul, norm_pow, Complex.norm_real, Real.norm_of_nonneg hh.le]

/-- the equation from a jet -/
theorem helmholtzSource_of_jet {k : ℝ} {U : ℕ → ℕ → ℝ × ℝ → ℂ} (hU : JetOn Set.univ 2 U) {φ : ℝ × ℝ → ℂ}
    (h : ∀ p, U 2 0 p + U 0 2 p + (k : ℂ) ^ 2 * U 0 0 p = φ p) : HelmholtzSource k (U 0 0) φ := by
  intro x y
  have d1 : ∀ i j x y, i + j < 2 → HasDerivAt (fun t : ℝ => U i j (t, y)) (U (i + 1) j (x, y)) x := fun i j x y hij => by
    have := JetOn.along hU (i := i) (j := j) (by omega) (hasDerivAt_id' x) (hasDerivAt_const x y) (Set.mem_univ _)
    simpa using this
  have d2 : ∀ i j x y, i + j < 2 → HasDerivAt (fun t : ℝ => U i j (x, t)) (U i (j + 1) (x, y)) y := fun i j x y hij => by
    have := JetOn.along hU (i := i) (j := j) (by omega) (hasDerivAt_const y x) (hasDerivAt_id' y) (Set.mem_univ _)
    simpa using this
  have e1 : (deriv fun t => U 0 0 (t, y)) = fun x => U 1 0 (x, y) := funext fun x => (d1 0 0 x y (by norm_num)).deriv
  have e2 : (deriv fun t => U 0 0 (x, t)) = fun y => U 0 1 (x, y) := funext fun y => (d2 0 0 x y (by norm_num)).deriv
  rw [e1, e2, (d1 1 0 x y (by norm_num)).deriv, (d2 0 1 x y (by norm_num)).deriv]
  exact h (x, y)

/-- **C82** `smooth-ycos` on the circular and the sine boundaries: the computed solution is within `C (ε N³ + N⁻²)` of `y cos x`. -/
theorem C82_ycos {name : String} (hcub : name ≠ "cubic") {r : ℝ → ℝ} (hname : chooseBoundary name = .ok r) {k : ℝ}
    (hk : k = smoothK ∨ k = ihK ∨ k = quadK ∨ k = 1) :
    ∃ C, 0 ≤ C ∧ ∀ {iter : Iter}, IsIter iter → ∀ {b : Brentq}, BrentqSpec b → ∀ {n : ℕ}, 16 ≤ n + 1 → ∀ {eps : ℝ}, 0 < eps →
      ∀ {p q : ℕ}, 1 ≤ p → 1 ≤ q → ∀ {s : PSolver},
      psInit iter (mkEnv b (n + 1) probAD probA probR r) 4 k eps p q (spSource probAD (ycosF k)) = .ok s →
      ∀ {ap : Arr n}, initApSolF n iter s = .ok ap → ∀ {fit : Chebfit} {lstsq : Lstsq}, IsChebfit fit → IsLstsq lstsq →
      ∀ {roots : List ℝ} {bc : ℝ → Fin 3 → ℂ} {ex : Option (ℝ → ℝ → ℂ)} {res : RunResult n},
      psRun iter s ap fit roots bc lstsq ex = .ok res →
      ∀ {ε : ℝ}, NearExact s (.full res.c0 res.c1) (fun q => ycosExpected q.1 q.2) ε →
      ∀ nd ∈ s.G.Nplus, ‖node res.uAct nd.1 nd.2 -
          ycosExpected (getCoord probAD (n + 1) nd.1 nd.2).1 (getCoord probAD (n + 1) nd.1 nd.2).2‖ ≤
        C * (ε * ((n : ℝ) + 1) ^ 3 + 1 / ((n : ℝ) + 1) ^ 2) := by
  have hpi := pi_pos
  have hA : 0 < probAD := by unfold probAD; positivity
  set u : ℝ × ℝ → ℂ := fun q => ycosExpected q.1 q.2 with hu
  set φ : ℝ × ℝ → ℂ := fun q => ((k ^ 2 - 1 : ℝ) : ℂ) * u q with hφ
  have cu : ContDiff ℝ 6 u := by
    have : ContDiff ℝ 6 fun q : ℝ × ℝ => q.2 * cos q.1 := by fun_prop
    exact Complex.ofRealCLM.contDiff.comp this
  have cφ : ContDiff ℝ 3 φ := contDiff_const.mul (cu.of_le (by norm_num))
  have hu0 : u = ycosJet 0 0 := by
    funext q
    simp [hu, ycosJet, ycosExpected, sin_add_pi_div_two]
  have hpde : HelmholtzSource k u φ := by
    rw [hu0]
    refine helmholtzSource_of_jet (ycosJet_jetOn 2) fun p => ?_
    rw [hφ]
    have e : sin (p.1 + π / 2 + 2 * (π / 2)) = -cos p.1 := by
      rw [show p.1 + π / 2 + 2 * (π / 2) = p.1 + π / 2 + π by ring, sin_add_pi, sin_add_pi_div_two]
    have e' : sin (p.1 + π / 2) = cos p.1 := sin_add_pi_div_two _
    simp only [hu0, ycosJet, if_true, OfNat.ofNat_ne_zero, if_false, one_pow, one_mul, Nat.cast_zero, zero_mul, add_zero,
      Nat.cast_ofNat, e, e', show (2:ℕ) ≠ 1 by norm_num]
    push_cast
    ring
  obtain ⟨C, hC, h⟩ := C82_shipped hname hk cu cφ hpde
  refine ⟨C, hC, ?_⟩
  intro iter hit b hb n hN eps heps p q hp hq s hs ap hap fit lstsq hfit hlsq roots bc ex res hrun ε hex nd hnd
  obtain ⟨L, -, hL⟩ := exists_pd_bound (m := 3) (u := φ) (by exact_mod_cast cφ) 2
  have hf : ∀ r th, ycosF k r th = φ (polarPoint r th) := fun r th => by
    simp only [ycosF, hφ, hu, ycosExpected, polarPoint]
    push_cast
    ring
  have hsrc := C82_sympy cφ hf hA (by unfold probAD; linarith [pi_lt_four]) hL
  have hsrc0 : SrcOf (spSource probAD (ycosF k)) φ 0 := by
    refine ⟨hsrc.inhomo, hsrc.cart, ?_, hsrc.polar⟩
    have e : (spSource probAD (ycosF k)).f 0 0 = pyGet (spF probAD (ycosF k) 0 0) := rfl
    rw [e, (C56_ycos k hA).2.1 0 0]
    simp [pyGet, hφ, hu, ycosExpected]
  have := (h hit hb hN (fun i j t h1 h2 => C79_off_grid hcub hname (n + 1) i j h1 h2) heps hsrc0 hp hq hs hap hfit hlsq hrun hex).2 nd hnd
  rw [zero_mul, add_zero] at this
  exact this

/-- nothing in C82 is empty: on the circular and the sine boundaries there is a constant such that, on every grid, the run for
`smooth-ycos` ends, its data fits with some `ε`, and the bound holds for that `ε` -/
example {name : String} (hcub : name ≠ "cubic") {r : ℝ → ℝ} (hname : chooseBoundary name = .ok r) : ∃ C : ℝ, ∀ {iter : Iter}, IsIter iter →
    ∀ {b : Brentq}, BrentqSpec b → ∀ {n : ℕ}, 16 ≤ n + 1 → ∀ {fit : Chebfit} {lstsq : Lstsq}, IsChebfit fit → IsLstsq lstsq →
    ∀ (roots : List ℝ) (bc : ℝ → Fin 3 → ℂ), ∃ (s : PSolver) (ap : Arr n) (res : RunResult n) (ε : ℝ),
      s.src = spSource probAD (ycosF smoothK) ∧ psRun iter s ap fit roots bc lstsq none = .ok res ∧
      NearExact s (.full res.c0 res.c1) (fun q => ycosExpected q.1 q.2) ε ∧
      ∀ nd ∈ s.G.Nplus, ‖node res.uAct nd.1 nd.2 - ycosExpected (s.e.coord nd).1 (s.e.coord nd).2‖ ≤
        C * (ε * ((n : ℝ) + 1) ^ 3 + 1 / ((n : ℝ) + 1) ^ 2) := by
  obtain ⟨C, -, h⟩ := C82_ycos hcub hname (k := smoothK) (Or.inl rfl)
  refine ⟨C, fun {iter} hit {b} hb {n} hN {fit lstsq} hfit hlsq roots bc => ?_⟩
  obtain ⟨s, hs, -, -, -, -, ap, res, hap, hrun, -⟩ := C79_shipped hit hb hN (Or.inr rfl) hname (k := smoothK) (eps := 1)
    (C78_shipped n (order := 4) (Or.inr rfl)).1 (spSource_defined probAD (ycosF smoothK)) rfl
    (fun i j t h1 h2 => C79_off_grid hcub hname (n + 1) i j h1 h2) (p := 3) (q := 2) (by norm_num) (by norm_num) hfit hlsq roots bc none
  have he : s.e = mkEnv b (n + 1) probAD probA probR r ∧ s.src = spSource probAD (ycosF smoothK) := by
    obtain ⟨G, S⟩ := setup_shipped hit hb hN (Or.inr rfl) hname (C78_shipped n (order := 4) (Or.inr rfl)).1
    rw [psInit_ok S.built] at hs
    cases hs
    exact ⟨rfl, rfl⟩
  have w1 : ContDiff ℝ 6 fun q : ℝ × ℝ => ycosExpected q.1 q.2 := by
    have : ContDiff ℝ 6 fun q : ℝ × ℝ => q.2 * cos q.1 := by fun_prop
    exact Complex.ofRealCLM.contDiff.comp this
  obtain ⟨ε, hε⟩ := exists_nearExact s (.full res.c0 res.c1) w1 (by rw [he.1]; exact_mod_cast chooseBoundary_smooth hname 6)
    (by rw [he.1]; exact (chooseBoundary_tame hname).regular)
  refine ⟨s, ap, res, ε, he.2, hrun, hε, ?_⟩
  rw [he.1]
  exact h hit hb hN one_pos (by norm_num) (by norm_num) hs hap hfit hlsq hrun hε

end Pot
