import Verif.Proofs.CauchyData
import Verif.Props.Error

/-! # Error of the extension and of the returned solution: C81 -/

namespace Pot
open Spec Finset Real

variable {a R δ ρ M m1 m2 α β : ℝ} {r : ℝ → ℝ}

/-- the data `src`, expanded in the solver's basis, is within `ε` of the Cauchy data of `u` on the three pieces of the boundary,
together with its first four derivatives along the boundary -/
def NearExact (s : PSolver) (src : XiSrc) (u : ℝ × ℝ → ℂ) (ε : ℝ) : Prop :=
  ∀ sid i, ∀ m ≤ 4, ∀ t ∈ physical s.e.a s.e.R sid,
    ‖iteratedDeriv m (trace s src sid i) t - iteratedDeriv m (cauchyData u s.e.a s.e.evalR sid i) t‖ ≤ ε

theorem NearExact.nonneg {s : PSolver} {src : XiSrc} {u : ℝ × ℝ → ℂ} {ε : ℝ} (h : NearExact s src u ε) (hR : 0 ≤ s.e.R) : 0 ≤ ε :=
  (norm_nonneg _).trans (h 1 0 0 (by norm_num) 0 (by unfold physical; rw [if_neg (by decide)]; exact ⟨le_rfl, hR⟩))

/-- the chord between two points of the plane is at least as long as the perpendicular -/
theorem chord_sin (u v s t : ℝ) : |u| * |sin (s - t)| ≤ dist2 (polarPoint u s) (polarPoint v t) := by
  unfold dist2
  apply Real.le_sqrt_of_sq_le
  rw [mul_pow, sq_abs, sq_abs]
  simp only [polarPoint, sin_sub]
  have h1 := sin_sq_add_cos_sq s
  have h2 := sin_sq_add_cos_sq t
  have e : (u * cos s - v * cos t) ^ 2 + (u * sin s - v * sin t) ^ 2 - u ^ 2 * (sin s * cos t - cos s * sin t) ^ 2 =
      (v - u * (cos s * cos t + sin s * sin t)) ^ 2 := by
    linear_combination (v ^ 2 - u ^ 2 * (sin s ^ 2 + cos s ^ 2)) * h2
  have := sq_nonneg (v - u * (cos s * cos t + sin s * sin t))
  linarith

theorem dist2_triangle (p q w : ℝ × ℝ) : dist2 p q ≤ dist2 p w + dist2 w q := by
  have e : ∀ p q : ℝ × ℝ, dist2 p q = ‖(⟨p.1 - q.1, p.2 - q.2⟩ : ℂ)‖ := by
    intro p q
    rw [Complex.norm_def, Complex.normSq_mk]
    unfold dist2
    congr 1
    ring
  rw [e, e, e]
  have : (⟨p.1 - q.1, p.2 - q.2⟩ : ℂ) = ⟨p.1 - w.1, p.2 - w.2⟩ + ⟨w.1 - q.1, w.2 - q.2⟩ := by
    apply Complex.ext <;> simp
  rw [this]
  exact norm_add_le _ _

/-- two near points of the curve have near angles -/
theorem chord_angle {u v s t δ : ℝ} (hu : 0 < u) (h : dist2 (polarPoint u s) (polarPoint v t) ≤ 2 * δ) (hst : |s - t| ≤ π / 2) :
    |s - t| ≤ π * δ / u := by
  have h1 := (chord_sin u v s t).trans h
  rw [abs_of_pos hu] at h1
  have h2 : 2 / π * |s - t| ≤ |sin (s - t)| := Real.mul_abs_le_abs_sin hst
  have hpi := pi_pos
  rw [le_div_iff₀ hu]
  have h3 : u * (2 / π * |s - t|) ≤ 2 * δ := (mul_le_mul_of_nonneg_left h2 hu.le).trans h1
  have e : u * (2 / π * |s - t|) = 2 / π * (|s - t| * u) := by ring
  rw [e, div_mul_eq_mul_div, div_le_iff₀ hpi] at h3
  linarith

/-- where a node attached to the outer curve is: its cached coordinates `(n, th)` are its normal coordinates, at distance at most
`δ`; and `th` overshoots an end of the curve by at most `πδ/R` -/
theorem outer_coords (g : Gentle a R (δ) ρ M m1 m2 α β r) (hreg : ∀ t, 0 < r t ^ 2 + deriv r t ^ 2) {b : Brentq} (hb : BrentqSpec b)
    {r1 th1 t : ℝ} (hr1 : 0 ≤ r1) (ht1 : a ≤ t) (ht2 : t ≤ 2 * π) (hw1 : a / 2 ≤ th1) (hw2 : th1 ≤ 2 * π + a / 2)
    (h : dist2 (polarPoint r1 th1) (polarPoint (r t) t) ≤ δ) :
    ∃ n th, getBoundaryCoord b a r r1 th1 = some (n, th) ∧
      polarPoint r1 th1 = move (polarPoint (r th) th) (evalNormal r th).1 (evalNormal r th).2 n ∧ |n| ≤ δ ∧
      a / 2 ≤ th ∧ th ≤ 2 * π + a / 2 ∧
      (th < a → |th - a| ≤ π * δ / R ∧ dist2 (polarPoint r1 th1) (polarPoint R a) ≤ δ) ∧
      (2 * π < th → |th - 2 * π| ≤ π * δ / R ∧ dist2 (polarPoint r1 th1) (polarPoint R (2 * π)) ≤ δ) := by
  have hpi := pi_pos
  have haπ := g.aπ
  have hR := g.Rpos
  obtain ⟨n, th, hb', hd1, hd2, hn⟩ := g.foot hb hr1 ht1 ht2 hw1 hw2 h
  obtain ⟨e1, -, e3, e4, -⟩ := C46_reconstruct hb (g.smooth.of_le (by norm_num)) hreg hw1 hw2 hb'
  have hnδ : |n| ≤ δ := by
    rw [hn]
    rcases le_total t th with ht | ht
    · exact (hd1 th ht le_rfl).trans h
    · exact (hd2 th ht le_rfl).trans h
  refine ⟨n, th, hb', e1, hnδ, e3, e4, fun hlt => ?_, fun hlt => ?_⟩
  · have h1 := (hd2 a ht1 hlt.le).trans h
    rw [g.at_a] at h1
    rw [hn] at hnδ
    have h2 : dist2 (polarPoint R a) (polarPoint (r th) th) ≤ 2 * δ := by
      have := dist2_triangle (polarPoint R a) (polarPoint (r th) th) (polarPoint r1 th1)
      rw [dist2_comm (polarPoint R a) (polarPoint r1 th1)] at this
      linarith
    rw [abs_sub_comm]
    exact ⟨chord_angle hR h2 (by rw [abs_of_pos (by linarith)]; linarith), h1⟩
  · have h1 := (hd1 (2 * π) ht2 hlt.le).trans h
    rw [g.at_two_pi] at h1
    rw [hn] at hnδ
    have h2 : dist2 (polarPoint R (2 * π)) (polarPoint (r th) th) ≤ 2 * δ := by
      have := dist2_triangle (polarPoint R (2 * π)) (polarPoint (r th) th) (polarPoint r1 th1)
      rw [dist2_comm (polarPoint R (2 * π)) (polarPoint r1 th1)] at this
      linarith
    rw [abs_sub_comm]
    exact ⟨chord_angle hR h2 (by rw [abs_of_neg (by linarith)]; linarith), h1⟩

/-- everything the estimate needs of a solution `u` on a curve `r`: bounds of the curve, of the fifth derivatives of the solution,
and of the fifth derivatives of its Cauchy data -/
structure Bounds (u : ℝ × ℝ → ℂ) (k a R : ℝ) (r : ℝ → ℝ) (K L X : ℝ) : Prop where
  one : 1 ≤ K
  k : |k| ≤ K
  curve : ∀ th ∈ Set.Icc (a / 2) (2 * π + a / 2), CurveBound r K th
  radius : ∀ th ∈ Set.Icc (a / 2) (2 * π + a / 2), |r th| ≤ K
  side : R ≤ K
  fifth : Fifth u (K + 2) L
  data : ∀ sid i, ∀ t ∈ Set.Icc (-1) (2 * π + R + 2), ‖iteratedDeriv 5 (cauchyData u a r sid i) t‖ ≤ X

theorem exists_bounds_ge (K0 : ℝ) {u : ℝ × ℝ → ℂ} (hu : ContDiff ℝ 6 u) (k a R : ℝ) {r : ℝ → ℝ} (hr : ContDiff ℝ 6 r)
    (hp : ∀ t, 0 < r t ^ 2 + deriv r t ^ 2) : ∃ K L X, K0 ≤ K ∧ Bounds u k a R r K L X := by
  obtain ⟨K1, h1⟩ := exists_curveBound (hr.of_le (by norm_num)) hp (a / 2) (2 * π + a / 2)
  obtain ⟨K2, h2⟩ := isCompact_Icc.exists_bound_of_continuousOn (s := Set.Icc (a / 2) (2 * π + a / 2)) (f := r)
    hr.continuous.continuousOn
  set K := 1 + |k| + |K1| + |K2| + |R| + |K0| with hK
  have a5 := abs_nonneg K0
  have a1 := abs_nonneg k
  have a2 := abs_nonneg K1
  have a3 := abs_nonneg K2
  have a4 := abs_nonneg R
  obtain ⟨L, -, hL⟩ := exists_pd_bound (m := 5) (u := u) (hu.of_le (by norm_num)) (K + 2)
  have hb : ∀ (sid : Fin 3) (i : Fin 2), ∃ X, ∀ t ∈ Set.Icc (-1) (2 * π + R + 2), ‖iteratedDeriv 5 (cauchyData u a r sid i) t‖ ≤ X := by
    intro sid i
    have hc : ContDiff ℝ (5 : ℕ) (cauchyData u a r sid i) := cauchyData_contDiff (by exact_mod_cast hu) a (by exact_mod_cast hr) hp sid i
    exact isCompact_Icc.exists_bound_of_continuousOn (hc.continuous_iteratedDeriv 5 le_rfl).continuousOn
  choose X hX using hb
  refine ⟨K, L, ∑ sid, ∑ i, |X sid i|, by have := le_abs_self K0; linarith, by linarith, by linarith,
    fun th hth => (h1 th hth).mono (by have := le_abs_self K1; linarith),
    fun th hth => (h2 th hth).trans (by have := le_abs_self K2; linarith), by have := le_abs_self R; linarith,
    hL, fun sid i t ht => ?_⟩
  refine ((hX sid i t ht).trans (le_abs_self _)).trans ?_
  refine (single_le_sum (f := fun i => |X sid i|) (fun _ _ => abs_nonneg _) (mem_univ i)).trans ?_
  exact single_le_sum (f := fun sid => ∑ i, |X sid i|) (fun _ _ => sum_nonneg fun _ _ => abs_nonneg _) (mem_univ sid)

theorem exists_bounds {u : ℝ × ℝ → ℂ} (hu : ContDiff ℝ 6 u) (k a R : ℝ) {r : ℝ → ℝ} (hr : ContDiff ℝ 6 r)
    (hp : ∀ t, 0 < r t ^ 2 + deriv r t ^ 2) : ∃ K L X, Bounds u k a R r K L X := by
  obtain ⟨K, L, X, -, h⟩ := exists_bounds_ge 0 hu k a R hr hp
  exact ⟨K, L, X, h⟩

/-- the constant of the estimate -/
noncomputable def extC (K L X : ℝ) : ℝ := 7 * (2 * K ^ 3) ^ 4 * (15 * K ^ 4) * (5 + X) + L

/-- the estimate itself: nothing is left of it for exact data and a solution whose fifth derivatives and those of whose data vanish -/
noncomputable def extS (K L X ε d : ℝ) : ℝ := 7 * (2 * K ^ 3) ^ 4 * (15 * K ^ 4 * (5 * ε + X * d ^ 5)) + L * d ^ 5

theorem extC_bound {K L X ε d e n : ℝ} (hK : 1 ≤ K) (hX : 0 ≤ X) (hL : 0 ≤ L) (hε : 0 ≤ ε) (hn : |n| ≤ d)
    (he : e ≤ 5 * ε + X * d ^ 5) : 7 * (2 * K ^ 3) ^ 4 * (15 * K ^ 4 * e) + L * |n| ^ 5 ≤ extC K L X * (ε + d ^ 5) := by
  have hd : 0 ≤ d := (abs_nonneg n).trans hn
  have hd5 : 0 ≤ d ^ 5 := by positivity
  have h1 : |n| ^ 5 ≤ d ^ 5 := pow_le_pow_left₀ (abs_nonneg _) hn 5
  have hQ : 0 ≤ 7 * (2 * K ^ 3) ^ 4 * (15 * K ^ 4) := by positivity
  have h2 : e ≤ (5 + X) * (ε + d ^ 5) := by
    have := mul_nonneg hX hε
    nlinarith
  have h3 : L * |n| ^ 5 ≤ L * (ε + d ^ 5) := mul_le_mul_of_nonneg_left (by linarith) hL
  unfold extC
  calc _ = 7 * (2 * K ^ 3) ^ 4 * (15 * K ^ 4) * e + L * |n| ^ 5 := by ring
    _ ≤ 7 * (2 * K ^ 3) ^ 4 * (15 * K ^ 4) * ((5 + X) * (ε + d ^ 5)) + L * (ε + d ^ 5) :=
        add_le_add (mul_le_mul_of_nonneg_left h2 hQ) h3
    _ = _ := by ring

theorem extS_le {K L X ε d : ℝ} (hK : 1 ≤ K) (hX : 0 ≤ X) (hL : 0 ≤ L) (hε : 0 ≤ ε) (hd : 0 ≤ d) :
    extS K L X ε d ≤ extC K L X * (ε + d ^ 5) := by
  have := extC_bound (n := d) hK hX hL hε (abs_of_nonneg hd).le (le_refl (5 * ε + X * d ^ 5))
  rwa [abs_of_nonneg hd] at this

theorem extS_outer {K L X ε d n : ℝ} (hL : 0 ≤ L) (hn : |n| ≤ d) :
    7 * (2 * K ^ 3) ^ 4 * (15 * K ^ 4 * (5 * ε + X * d ^ 5)) + L * |n| ^ 5 ≤ extS K L X ε d :=
  add_le_add le_rfl (mul_le_mul_of_nonneg_left (pow_le_pow_left₀ (abs_nonneg _) hn 5) hL)

/-- one extension from a straight side is bounded by the same constant -/
theorem extS_side {K L X ε d n : ℝ} (hK : 1 ≤ K) (hL : 0 ≤ L) (hn : |n| ≤ d) (he0 : 0 ≤ 5 * ε + X * d ^ 5) :
    7 * K ^ 4 * (5 * ε + X * d ^ 5) + L * |n| ^ 5 ≤ extS K L X ε d := by
  refine le_trans (add_le_add ?_ le_rfl) (extS_outer hL hn)
  set e := 5 * ε + X * d ^ 5
  have h1 : 1 ≤ (2 * K ^ 3) ^ 4 := by
    have : 1 ≤ K ^ 3 := one_le_pow₀ hK
    exact one_le_pow₀ (by linarith)
  have hK4 : 0 ≤ K ^ 4 * e := by positivity
  calc 7 * K ^ 4 * e = 7 * 1 * (1 * (K ^ 4 * e)) := by ring
    _ ≤ 7 * (2 * K ^ 3) ^ 4 * (15 * (K ^ 4 * e)) := by
        refine mul_le_mul (by linarith) (by linarith) (by linarith) (by positivity)
    _ = _ := by ring

theorem weighted_nonneg {n e : ℝ} {x : Tab} (h : Weighted n e x) : 0 ≤ e := le_trans (by positivity) (h 0 (by norm_num) 0)

/-- the data of a node, before the extension formula: `arg` is the node's argument, and `arg0` the argument where the solver reads
the data, `arg` itself or the nearest end of the segment -/
theorem node_weighted {s : PSolver} {src : XiSrc} {u : ℝ × ℝ → ℂ} (hu : ContDiff ℝ 6 u) (hr : ContDiff ℝ 6 s.e.evalR)
    (hp : ∀ t, 0 < s.e.evalR t ^ 2 + deriv s.e.evalR t ^ 2) {ε d K L X : ℝ} (he : 0 < s.eps) (ha0 : 0 < s.e.a)
    (ha : s.e.a < 2 * π) (hR : 0 < s.e.R) (B : Bounds u s.k s.e.a s.e.R s.e.evalR K L X) (h : NearExact s src u ε) (hd : d ≤ 1)
    {sid : Fin 3} {n arg : ℝ} (hn : |n| ≤ d) :
    (arg ∈ physical s.e.a s.e.R sid → Weighted n (5 * ε + X * d ^ 5) (xiTab s src arg sid - exactTab u s.e.a s.e.evalR sid arg)) ∧
    (∀ arg0 ∈ physical s.e.a s.e.R sid, |arg - arg0| ≤ d → Weighted n (5 * ε + X * d ^ 5)
      (shiftTab (xiTab s src arg0 sid) (arg - arg0) - exactTab u s.e.a s.e.evalR sid arg)) := by
  have hpi := pi_pos
  have hε := h.nonneg hR.le
  have hd0 : 0 ≤ d := (abs_nonneg _).trans hn
  have hX : 0 ≤ X := (norm_nonneg _).trans (B.data 0 0 0 ⟨by norm_num, by linarith⟩)
  have hx : ∀ arg ∈ physical s.e.a s.e.R sid, ∀ m ≤ 4, ∀ i,
      ‖xiTab s src arg sid (m, i) - iteratedDeriv m (cauchyData u s.e.a s.e.evalR sid i) arg‖ ≤ ε := by
    intro arg harg m hm i
    rw [xiTab_eq s src he ha hR harg (by omega)]
    exact h sid i m hm arg harg
  constructor
  · intro harg
    refine (standard_weighted (ε := ε) (hn.trans hd) fun m hm i => hx arg harg m hm i).mono ?_
    have : 0 ≤ X * d ^ 5 := by positivity
    linarith
  · intro arg0 harg0 hsh
    have hph : -1 ≤ arg0 - 1 ∧ arg0 + 1 ≤ 2 * π + s.e.R + 2 := by
      unfold physical at harg0
      split at harg0
      · exact ⟨by linarith [harg0.1], by linarith [harg0.2]⟩
      · exact ⟨by linarith [harg0.1], by linarith [harg0.2]⟩
    exact corner_weighted (X := fun i m => iteratedDeriv m (cauchyData u s.e.a s.e.evalR sid i)) hd hn hsh (hx arg0 harg0)
      (fun i => iterated_derivFam (n := 5) (cauchyData_contDiff (by exact_mod_cast hu) s.e.a (by exact_mod_cast hr) hp sid i))
      fun i t ht => B.data sid i t (by
        obtain ⟨t1, t2⟩ := abs_le.1 ht
        exact ⟨by linarith, by linarith⟩)

/-- the inhomogeneous extension of the exact source `φ` at a node, from its foot point on the segment -/
noncomputable def sourceTerm (s : PSolver) (φ : ℝ × ℝ → ℂ) (sid : Fin 3) (nd : Node) : ℂ :=
  match sid with
  | 0 => match s.cache nd with
    | some (some c) => outerSource s.k s.e.evalR φ c.1 c.2
    | _ => 0
  | 1 => lineSource s.k (pdFam φ) ((s.e.coord nd).1, 0) 1 0 0 1 (s.e.coord nd).2
  | 2 => lineSource s.k (pdFam φ) (along2 s nd * cos s.e.a, along2 s nd * sin s.e.a) (cos s.e.a) (sin s.e.a) (sin s.e.a) (-cos s.e.a)
      ((s.e.coord nd).1 * sin s.e.a - (s.e.coord nd).2 * cos s.e.a)

theorem sourceTerm_outer {s : PSolver} {φ : ℝ × ℝ → ℂ} {nd : Node} {n th : ℝ} (hc : s.cache nd = some (some (n, th))) :
    sourceTerm s φ 0 nd = outerSource s.k s.e.evalR φ n th := by
  unfold sourceTerm
  simp only [hc]

theorem sourceTerm_zero (s : PSolver) (sid : Fin 3) (nd : Node) : sourceTerm s (fun _ => 0) sid nd = 0 := by
  unfold sourceTerm
  split
  · split
    · exact outerSource_zero _ _ _ _
    · rfl
  · exact lineSource_zero _ _ _ _ _ _ _
  · exact lineSource_zero _ _ _ _ _ _ _

/-- every extension the code makes at a node of the discrete boundary, plus the extension of the exact source, differs from the
exact solution by at most a constant times `ε + d⁵`. -/
theorem ext_node {iter : Iter} (hit : IsIter iter) {b : Brentq} (hb : BrentqSpec b) {N order : ℕ} {AD : ℝ} (hAD : 0 < AD)
    (g : Gentle a R (AD / N * √2) ρ M m1 m2 α β r) (hr : ContDiff ℝ 6 r) (hp : ∀ t, 0 < r t ^ 2 + deriv r t ^ 2)
    {k eps : ℝ} (heps : 0 < eps) {nc nr : ℕ} {source : Source} {s : PSolver}
    (hs : psInit iter (mkEnv b N AD a R r) order k eps nc nr source = .ok s)
    {u φ : ℝ × ℝ → ℂ} (hu : ContDiff ℝ 6 u) (hφ : ContDiff ℝ 2 φ) (hpde : HelmholtzSource k u φ) {K L X : ℝ}
    (B : Bounds u k a R r K L X)
    {src : XiSrc} (hv : src.Valid s.bas.bDesc) {ε : ℝ} (hex : NearExact s src u ε) {d : ℝ} (hd : d ≤ 1) (hδ : AD / N * √2 ≤ d)
    (hδR : π * (AD / N * √2) / R ≤ d) {sid : Fin 3} {nd : Node} (hnd : nd ∈ s.G.allGamma sid) {et : EType}
    (het : getEtype s.e s.cache sid nd = .ok et) :
    ∃ v, doExtend s src sid et nd = .ok v ∧
      ‖v.2 + sourceTerm s φ sid nd - u (getCoord AD N nd.1 nd.2)‖ ≤ extS K L X ε d := by
  have hpi := pi_pos
  have ha := g.apos
  have haπ := g.aπ
  have hR := g.Rpos
  obtain ⟨G, hG, hdist⟩ := C12_gentle hit hb N order hAD g hp
  rw [psInit_ok hG] at hs
  cases hs
  obtain ⟨hsub, -, -⟩ := (C12_all_gamma hit (e := mkEnv b N AD a R r) g.Rpos.le ha haπ order).2 G hG
  set s : PSolver := ⟨mkEnv b N AD a R r, order, k, eps, setupBasis nc nr, G, buildCache (mkEnv b N AD a R r) (G.allGamma 0), source⟩
    with hsdef
  have hε := hex.nonneg hR.le
  have hX : 0 ≤ X := (norm_nonneg _).trans (B.data 0 0 0 ⟨by norm_num, by linarith⟩)
  have hL : 0 ≤ L := (norm_nonneg _).trans (B.fifth 5 0 rfl (0, 0) (by simp; linarith [B.one]) (by simp; linarith [B.one]))
  have hone := B.one
  have hRK := B.side
  have NW : ∀ {sid : Fin 3} {n arg : ℝ}, |n| ≤ d → _ := fun {sid n arg} hn =>
    node_weighted (s := s) hu hr hp heps ha (by show a < 2 * π; linarith) hR B hex hd (sid := sid) (n := n) (arg := arg) hn
  obtain ⟨d', ⟨⟨q, hq, hqd⟩, -⟩, hiff⟩ := hdist sid nd ((hsub sid).2 nd hnd)
  have hqδ : dist2 (getCoord AD N nd.1 nd.2) q ≤ AD / N * √2 := by rw [← hqd]; exact hiff.1 hnd
  fin_cases sid
  · obtain ⟨t, ht1, ht2, rfl⟩ := hq
    obtain ⟨p1, p2, p3, p4⟩ := env_polar (mkEnv b N AD a R r) ha (by show a ≤ 4 * π; linarith) nd
    have hP : getCoord AD N nd.1 nd.2 = polarPoint ((mkEnv b N AD a R r).polar nd).1 ((mkEnv b N AD a R r).polar nd).2 :=
      p1.symm
    rw [hP] at hqδ ⊢
    obtain ⟨n, th, hb', e1, hn, w1, w2, hleft, hright⟩ := outer_coords g hp hb p2 ht1 ht2 p3 p4.le hqδ
    have hc : s.cache nd = some (some (n, th)) := (if_pos hnd).trans (congrArg some hb')
    have hnd' : |n| ≤ d := hn.trans hδ
    have hterm : sourceTerm s φ ⟨0, by norm_num⟩ nd = outerSource k r φ n th := sourceTerm_outer hc
    rw [e1, hterm]
    have fin : ∀ x : Tab, Weighted n (5 * ε + X * d ^ 5) (x - exactTab u a r 0 th) →
        ‖extendPolar k (outerArgs r n th x) + outerSource k r φ n th - u (move (polarPoint (r th) th) (evalNormal r th).1 (evalNormal r th).2 n)‖ ≤
          extS K L X ε d := fun x hw =>
      (outer_error hu hφ hpde B.fifth B.one B.k (hr.of_le (by norm_num)) hp (B.curve th ⟨w1, w2⟩) (hnd'.trans hd)
        (by have := B.radius th ⟨w1, w2⟩; linarith [hnd'.trans hd]) hw).trans
        (extS_outer hL hnd')
    have het' : et = if th > 2 * π then .right else if th < a then .left else .standard := by
      unfold getEtype at het
      simp only [Fin.zero_eta, if_true, hc, pure_eq_ok] at het
      exact (Except.ok.inj het).symm
    rw [het']
    split_ifs with c1 c2
    · have := doExtend0Right_ok s hv hc
      refine ⟨_, this, fin _ ((NW (sid := 0) hnd').2 (2 * π) ?_ ((hright c1).1.trans hδR))⟩
      unfold physical; rw [if_pos rfl]; exact ⟨by show a ≤ 2 * π; linarith, le_rfl⟩
    · have := doExtend0Left_ok s hv hc
      refine ⟨_, this, fin _ ((NW (sid := 0) hnd').2 a ?_ ((hleft c2).1.trans hδR))⟩
      unfold physical; rw [if_pos rfl]; exact ⟨le_rfl, by show a ≤ 2 * π; linarith⟩
    · have := doExtend0Standard_ok s hv hc
      refine ⟨_, this, fin _ ((NW (sid := 0) hnd').1 ?_)⟩
      unfold physical; rw [if_pos rfl]; exact ⟨not_lt.1 c2, not_lt.1 c1⟩
  · obtain ⟨t, ht1, ht2, rfl⟩ := hq
    set x := (getCoord AD N nd.1 nd.2).1 with hx
    set y := (getCoord AD N nd.1 nd.2).2 with hy
    have hsq : (x - t) ^ 2 + y ^ 2 ≤ d ^ 2 := by
      have h1 := hqδ.trans hδ
      unfold dist2 at h1
      have h2 := Real.sqrt_le_iff.1 h1
      have h3 := h2.2
      simp only [sub_zero] at h3
      exact h3
    have hd0 : 0 ≤ d := le_trans (by positivity) hδ
    have hyd : |y| ≤ d := abs_le_of_sq_le_sq (by nlinarith [sq_nonneg (x - t)]) hd0
    have hxt : |x - t| ≤ d := abs_le_of_sq_le_sq (by nlinarith [sq_nonneg y]) hd0
    obtain ⟨q1, q2⟩ := abs_le.1 hxt
    have fin : ∀ z : Tab, Weighted y (5 * ε + X * d ^ 5) (z - exactTab u a r 1 x) →
        ‖extendArbitrary k (radiusArgs y z) + sourceTerm s φ 1 nd - u (getCoord AD N nd.1 nd.2)‖ ≤ extS K L X ε d := by
      intro z hw
      have := line_error (hu.of_le (by norm_num)) hφ hpde B.fifth B.one B.k (a := 1) (b := 0) (c := 0) (d := 1) (t := x) (n := y)
        (by norm_num) (by norm_num) (by norm_num) (x := z) (y := exactTab u a r 1 x)
        (fun m _ => by simp only [mul_one, mul_zero]; rfl) (fun m _ => by simp only [mul_one, mul_zero]; rfl) (hyd.trans hd)
        (by
          have : |x| ≤ K + 1 := abs_le.2 ⟨by linarith, by linarith⟩
          linarith) hw
      rw [show ((x * 1 + y * 0, x * 0 + y * 1) : ℝ × ℝ) = getCoord AD N nd.1 nd.2 by
        rw [hx, hy]; ext <;> simp] at this
      rw [mul_one, mul_zero] at this
      exact this.trans (extS_side B.one hL hyd (weighted_nonneg hw))
    have het' : et = if x < 0 then .left else if x > R then .right else .standard := by
      unfold getEtype at het
      simp only [Fin.mk_one, one_ne_zero, if_false, if_true, pure_eq_ok] at het
      exact (Except.ok.inj het).symm
    rw [het']
    split_ifs with c1 c2
    · have := doExtend1Left_ok (nd := nd) s hv
      refine ⟨_, this, fin _ ?_⟩
      have := (NW (sid := 1) (arg := x) hyd).2 0 (by unfold physical; rw [if_neg (by decide)]; exact ⟨le_rfl, hR.le⟩)
        (by rw [sub_zero]; exact abs_le.2 ⟨by linarith, by linarith⟩)
      rw [sub_zero] at this
      exact this
    · have := doExtend1Right_ok (nd := nd) s hv
      refine ⟨_, this, fin _ ((NW (sid := 1) (arg := x) hyd).2 R ?_ ?_)⟩
      · unfold physical; rw [if_neg (by decide)]; exact ⟨hR.le, le_rfl⟩
      · exact abs_le.2 ⟨by linarith, by linarith⟩
    · have := doExtend1Standard_ok (nd := nd) s hv
      refine ⟨_, this, fin _ ((NW (sid := 1) (arg := x) hyd).1 ?_)⟩
      unfold physical; rw [if_neg (by decide)]; exact ⟨not_lt.1 c1, not_lt.1 c2⟩
  · obtain ⟨t, ht1, ht2, rfl⟩ := hq
    have hsc := sin_sq_add_cos_sq a
    have hcoord := C31_upper_coords s (nd := nd)
    set x := along2 s nd with hx
    set y := (s.e.coord nd).1 * sin s.e.a - (s.e.coord nd).2 * cos s.e.a with hy
    have hsd : sdist2 s nd = y := (C08_radius_point s.e.a (s.e.coord nd).1 (s.e.coord nd).2 ha haπ).2.2.2.2.1
    have hcoord' : getCoord AD N nd.1 nd.2 = (x * cos a + y * sin a, x * sin a - y * cos a) := hcoord
    have hsq : (x - t) ^ 2 + y ^ 2 ≤ d ^ 2 := by
      have h1 := hqδ.trans hδ
      unfold dist2 at h1
      have h2 := Real.sqrt_le_iff.1 h1
      have h3 := h2.2
      rw [hcoord'] at h3
      simp only [polarPoint] at h3
      have e : (x * cos a + y * sin a - t * cos a) ^ 2 + (x * sin a - y * cos a - t * sin a) ^ 2 = (x - t) ^ 2 + y ^ 2 := by
        linear_combination ((x - t) ^ 2 + y ^ 2) * hsc
      linarith
    have hd0 : 0 ≤ d := le_trans (by positivity) hδ
    have hyd : |y| ≤ d := abs_le_of_sq_le_sq (by nlinarith [sq_nonneg (x - t)]) hd0
    have hxt : |x - t| ≤ d := abs_le_of_sq_le_sq (by nlinarith [sq_nonneg y]) hd0
    obtain ⟨q1, q2⟩ := abs_le.1 hxt
    have fin : ∀ z : Tab, Weighted y (5 * ε + X * d ^ 5) (z - exactTab u a r 2 x) →
        ‖extendArbitrary k (radiusArgs y z) + sourceTerm s φ 2 nd - u (getCoord AD N nd.1 nd.2)‖ ≤ extS K L X ε d := by
      intro z hw
      have := line_error (hu.of_le (by norm_num)) hφ hpde B.fifth B.one B.k (a := cos a) (b := sin a) (c := sin a) (d := -cos a)
        (t := x) (n := y) (by linarith) (by linarith) (by ring) (x := z) (y := exactTab u a r 2 x)
        (fun m _ => rfl) (fun m _ => rfl) (hyd.trans hd)
        (by
          have : |x| ≤ K + 1 := abs_le.2 ⟨by linarith, by linarith⟩
          linarith) hw
      rw [show ((x * cos a + y * sin a, x * sin a + y * -cos a) : ℝ × ℝ) = getCoord AD N nd.1 nd.2 by
        rw [hcoord']; ext <;> simp; ring] at this
      exact this.trans (extS_side B.one hL hyd (weighted_nonneg hw))
    have het2 := etype2 (nd := nd) s ha haπ
    have het' : et = if x < 0 then .left else if x > R then .right else .standard :=
      Except.ok.inj (het.symm.trans het2)
    rw [het']
    have hft : foot2 s nd = (x * cos a, x * sin a) := foot2_along s ha haπ
    split_ifs with c1 c2
    · have := doExtend2Left_ok (nd := nd) s hv
      rw [hft, hsd] at this
      have e : -√((x * cos a, x * sin a).1 ^ 2 + (x * cos a, x * sin a).2 ^ 2) = x - 0 := by
        simp only []
        rw [show (x * cos a) ^ 2 + (x * sin a) ^ 2 = x ^ 2 by linear_combination x ^ 2 * hsc, Real.sqrt_sq_eq_abs, abs_of_neg c1]
        ring
      rw [e] at this
      refine ⟨_, this, fin _ ((NW (sid := 2) (arg := x) hyd).2 0 ?_ ?_)⟩
      · unfold physical; rw [if_neg (by decide)]; exact ⟨le_rfl, hR.le⟩
      · rw [sub_zero]; exact abs_le.2 ⟨by linarith, by linarith⟩
    · have := doExtend2Right_ok (nd := nd) s hv
      rw [hsd] at this
      have e : over2 s nd = x - R := by
        unfold over2
        rw [hft]
        show √((x * cos a - R * cos a) ^ 2 + (x * sin a - R * sin a) ^ 2) = x - R
        rw [show (x * cos a - R * cos a) ^ 2 + (x * sin a - R * sin a) ^ 2 = (x - R) ^ 2 by
          linear_combination (x - R) ^ 2 * hsc, Real.sqrt_sq_eq_abs, abs_of_pos (by linarith)]
      rw [e] at this
      refine ⟨_, this, fin _ ((NW (sid := 2) (arg := x) hyd).2 R ?_ ?_)⟩
      · unfold physical; rw [if_neg (by decide)]; exact ⟨hR.le, le_rfl⟩
      · exact abs_le.2 ⟨by linarith, by linarith⟩
    · have := doExtend2Standard_ok (nd := nd) s hv
      have e : (cartToPolar (foot2 s nd).1 (foot2 s nd).2).1 = x := by
        rw [cartToPolar_radius, hft]
        simp only []
        rw [show (x * cos a) ^ 2 + (x * sin a) ^ 2 = x ^ 2 by linear_combination x ^ 2 * hsc, Real.sqrt_sq (not_lt.1 c1)]
      rw [e, hsd] at this
      refine ⟨_, this, fin _ ((NW (sid := 2) (arg := x) hyd).1 ?_)⟩
      unfold physical; rw [if_neg (by decide)]; exact ⟨not_lt.1 c1, not_lt.1 c2⟩

/-- **C81** every extension the code makes at a node of the discrete boundary differs from the exact solution by at most a
constant times `ε + d⁵`. -/
theorem C81_node {iter : Iter} (hit : IsIter iter) {b : Brentq} (hb : BrentqSpec b) {N order : ℕ} {AD : ℝ} (hAD : 0 < AD)
    (g : Gentle a R (AD / N * √2) ρ M m1 m2 α β r) (hr : ContDiff ℝ 6 r) (hp : ∀ t, 0 < r t ^ 2 + deriv r t ^ 2)
    {k eps : ℝ} (heps : 0 < eps) {nc nr : ℕ} {source : Source} {s : PSolver}
    (hs : psInit iter (mkEnv b N AD a R r) order k eps nc nr source = .ok s)
    {u : ℝ × ℝ → ℂ} (hu : ContDiff ℝ 6 u) (hpde : HelmholtzPlane k u) {K L X : ℝ} (B : Bounds u k a R r K L X)
    {src : XiSrc} (hv : src.Valid s.bas.bDesc) {ε : ℝ} (hex : NearExact s src u ε) {d : ℝ} (hd : d ≤ 1) (hδ : AD / N * √2 ≤ d)
    (hδR : π * (AD / N * √2) / R ≤ d) {sid : Fin 3} {nd : Node} (hnd : nd ∈ s.G.allGamma sid) {et : EType}
    (het : getEtype s.e s.cache sid nd = .ok et) :
    ∃ v, doExtend s src sid et nd = .ok v ∧
      ‖v.2 - u (getCoord AD N nd.1 nd.2)‖ ≤ extC K L X * (ε + d ^ 5) := by
  obtain ⟨v, h1, h2⟩ := ext_node hit hb hAD g hr hp heps hs hu (φ := fun _ => 0) contDiff_const (HelmholtzPlane.source hpde) B hv hex hd
    hδ hδR hnd het
  rw [sourceTerm_zero, add_zero] at h2
  have hpi := pi_pos
  have hR := g.Rpos
  have hε := hex.nonneg (by
    obtain ⟨G, hG, -⟩ := C12_gentle hit hb N order hAD g hp
    rw [psInit_ok hG] at hs
    cases hs
    exact hR.le)
  refine ⟨v, h1, h2.trans (extS_le B.one ?_ ?_ hε (le_trans (by positivity) hδ))⟩
  · exact (norm_nonneg _).trans (B.data 0 0 0 ⟨by norm_num, by linarith⟩)
  · exact (norm_nonneg _).trans (B.fifth 5 0 rfl (0, 0) (by simp; linarith [B.one]) (by simp; linarith [B.one]))

/-- the mean of finitely many values within `B` of `z` is within `B` of `z` -/
theorem mean_near {α : Type*} (L : List α) (f : α → ℂ) (z : ℂ) (B : ℝ) (hL : L ≠ []) (h : ∀ p ∈ L, ‖f p - z‖ ≤ B) :
    ‖(L.map f).sum / L.length - z‖ ≤ B := by
  have h1 : ∀ L : List α, (∀ p ∈ L, ‖f p - z‖ ≤ B) → ‖(L.map f).sum - L.length * z‖ ≤ L.length * B := by
    intro L
    induction L with
    | nil => intro _; simp
    | cons x L ih =>
      intro h
      rw [List.map_cons, List.sum_cons, List.length_cons]
      have e : f x + (L.map f).sum - ((L.length + 1 : ℕ) : ℂ) * z = (f x - z) + ((L.map f).sum - L.length * z) := by
        push_cast; ring
      rw [e]
      refine (norm_add_le _ _).trans ?_
      have a1 := h x (List.mem_cons_self ..)
      have a2 := ih fun p hp => h p (List.mem_cons_of_mem _ hp)
      push_cast
      linarith
  have hl : (0:ℝ) < L.length := by exact_mod_cast List.length_pos_iff.2 hL
  have hlc : (L.length : ℂ) ≠ 0 := by exact_mod_cast hl.ne'
  have e : (L.map f).sum / L.length - z = ((L.map f).sum - L.length * z) / L.length := by field_simp
  rw [e, norm_div, Complex.norm_natCast, div_le_iff₀ hl, mul_comm B]
  exact h1 L h

/-- an extension, entry by entry: every value recorded at a node of the discrete boundary is within `B` of `u` there, and a node has
an entry for exactly those segments whose boundary set it is in -/
structure EntriesNear (s : PSolver) (m : Multivalue) (u : ℝ × ℝ → ℂ) (B : ℝ) : Prop where
  nodes : m.nodes = s.G.unionGamma
  count : ∀ nd ∈ s.G.unionGamma, (m.data nd).length = 1 ∨ (m.data nd).length = 2
  near : ∀ nd ∈ s.G.unionGamma, ∀ x ∈ m.data nd, ‖x.value - u (s.e.coord nd)‖ ≤ B
  setype : ∀ nd ∈ s.G.unionGamma, ∀ st : Fin 3 × EType, (∃ x ∈ m.data nd, x.setype = st) ↔
    nd ∈ s.G.allGamma st.1 ∧ getEtype s.e s.cache st.1 nd = .ok st.2

theorem EntriesNear.mono {s : PSolver} {m : Multivalue} {u : ℝ × ℝ → ℂ} {B B' : ℝ} (h : EntriesNear s m u B) (hB : B ≤ B') :
    EntriesNear s m u B' := ⟨h.nodes, h.count, fun nd hnd x hx => (h.near nd hnd x hx).trans hB, h.setype⟩

/-- the reduced extension is then as near -/
theorem EntriesNear.reduce {s : PSolver} {m : Multivalue} {u : ℝ × ℝ → ℂ} {B : ℝ} (h : EntriesNear s m u B) :
    ∃ ext, mvReduce m = .ok ext ∧ ext.length = s.G.unionGamma.length ∧
      ∀ (l : ℕ) (hl : l < s.G.unionGamma.length) (hl' : l < ext.length), ‖ext[l] - u (s.e.coord s.G.unionGamma[l])‖ ≤ B := by
  refine ⟨s.G.unionGamma.map fun nd => mean (m.data nd), ?_, by simp, fun l hl hl' => ?_⟩
  · rw [C34_reduce, h.nodes]
    exact ⟨h.count, rfl⟩
  · rw [List.getElem_map]
    have hU := List.getElem_mem hl
    refine mean_near (m.data s.G.unionGamma[l]) Entry.value _ _ (fun h0 => ?_) (h.near _ hU)
    have := h.count _ hU
    rw [h0] at this
    simp at this

theorem mem_items {G : PsGrids} {et : Fin 3 → Node → EType} {res : Fin 3 → Node → ℝ × ℂ} {nd : Node} {x : Entry} :
    x ∈ items G et res nd ↔ ∃ sid, nd ∈ G.allGamma sid ∧ x = ⟨(res sid nd).1, (res sid nd).2, (sid, et sid nd)⟩ := by
  unfold items
  rw [List.mem_flatMap]
  constructor
  · rintro ⟨sid, -, h⟩
    obtain ⟨q, hq, rfl⟩ := List.mem_map.1 h
    obtain ⟨h1, h2⟩ := List.mem_filter.1 hq
    obtain rfl : q = nd := of_decide_eq_true h2
    exact ⟨sid, h1, rfl⟩
  · rintro ⟨sid, h1, rfl⟩
    refine ⟨sid, by fin_cases sid <;> simp, List.mem_map.2 ⟨nd, List.mem_filter.2 ⟨h1, by simp⟩, rfl⟩⟩

/-- the entries the loop records, near `u` if every extension is -/
theorem items_near {s : PSolver} (R : Ready s) {et : Fin 3 → Node → EType} {res : Fin 3 → Node → ℝ × ℂ} {u : ℝ × ℝ → ℂ} {B : ℝ}
    (h : ∀ sid, ∀ nd ∈ s.G.allGamma sid, getEtype s.e s.cache sid nd = .ok (et sid nd) ∧ ‖(res sid nd).2 - u (s.e.coord nd)‖ ≤ B) :
    EntriesNear s ⟨s.G.unionGamma, items s.G et res⟩ u B where
  nodes := rfl
  count nd hnd := by
    show (items s.G et res nd).length = 1 ∨ (items s.G et res nd).length = 2
    rw [items_length]
    have := R.count nd hnd
    omega
  near nd _ x hx := by
    obtain ⟨sid, h1, rfl⟩ := mem_items.1 hx
    exact (h sid nd h1).2
  setype nd _ st := by
    constructor
    · rintro ⟨x, hx, rfl⟩
      obtain ⟨sid, h1, rfl⟩ := mem_items.1 hx
      exact ⟨h1, (h sid nd h1).1⟩
    · rintro ⟨h1, h2⟩
      refine ⟨_, mem_items.2 ⟨st.1, h1, rfl⟩, ?_⟩
      have := Except.ok.inj ((h st.1 nd h1).1.symm.trans h2)
      exact Prod.ext rfl this

theorem EntriesNear.congr {s : PSolver} {m r : Multivalue} {u : ℝ × ℝ → ℂ} {B : ℝ} (h : EntriesNear s m u B) (hn : r.nodes = m.nodes)
    (hd : ∀ nd ∈ s.G.unionGamma, r.data nd = m.data nd) : EntriesNear s r u B where
  nodes := hn.trans h.nodes
  count nd hnd := by rw [hd nd hnd]; exact h.count nd hnd
  near nd hnd := by rw [hd nd hnd]; exact h.near nd hnd
  setype nd hnd := by rw [hd nd hnd]; exact h.setype nd hnd

theorem items_visits (G : PsGrids) (et : Fin 3 → Node → EType) (res : Fin 3 → Node → ℝ × ℂ) (nd : Node) :
    items G et res nd = (visits G nd).map fun p => ⟨(res p.1 p.2).1, (res p.1 p.2).2, (p.1, et p.1 p.2)⟩ := by
  simp [items, visits, Function.comp_def]

/-- the sum of two extensions, entry by entry -/
theorem items_add (G : PsGrids) (et : Fin 3 → Node → EType) (res res' : Fin 3 → Node → ℝ × ℂ) :
    ∃ r, mvAdd ⟨G.unionGamma, items G et res⟩ ⟨G.unionGamma, items G et res'⟩ = .ok r ∧ r.nodes = G.unionGamma ∧
      ∀ nd ∈ G.unionGamma, r.data nd = items G et (fun sid nd => ((res sid nd).1, (res sid nd).2 + (res' sid nd).2)) nd := by
  obtain ⟨r, h1, h2, h3⟩ := C34_add ⟨G.unionGamma, items G et res⟩ ⟨G.unionGamma, items G et res'⟩ (by
    intro nd hnd
    refine ⟨hnd, ?_⟩
    show Matches (items G et res nd) (items G et res' nd)
    rw [items_visits, items_visits]
    intro i hi
    exact ⟨by simpa using hi, by simp⟩)
  refine ⟨r, h1, h2, fun nd hnd => (h3 nd hnd).trans ?_⟩
  show sumEntries (items G et res nd) (items G et res' nd) = _
  rw [items_visits, items_visits, items_visits]
  unfold sumEntries
  rw [List.zipWith_map, List.zipWith_self]

/-- **C81** every value `mv_extend_boundary` records is within a constant times `ε + d⁵` of the exact solution. -/
theorem C81_entries {iter : Iter} (hit : IsIter iter) {b : Brentq} (hb : BrentqSpec b) {N order : ℕ} {AD : ℝ} (hAD : 0 < AD)
    (g : Gentle a R (AD / N * √2) ρ M m1 m2 α β r) (hr : ContDiff ℝ 6 r) (hp : ∀ t, 0 < r t ^ 2 + deriv r t ^ 2)
    {k eps : ℝ} (heps : 0 < eps) {nc nr : ℕ} {source : Source} (hh : source.homogeneous = true) {s : PSolver}
    (hs : psInit iter (mkEnv b N AD a R r) order k eps nc nr source = .ok s) (hready : Ready s)
    {u : ℝ × ℝ → ℂ} (hu : ContDiff ℝ 6 u) (hpde : HelmholtzPlane k u) {K L X : ℝ} (B : Bounds u k a R r K L X)
    {src : XiSrc} (hv : src.Valid s.bas.bDesc) {ε : ℝ} (hex : NearExact s src u ε) {d : ℝ} (hd : d ≤ 1) (hδ : AD / N * √2 ≤ d)
    (hδR : π * (AD / N * √2) / R ≤ d) :
    ∃ m, mvExtendBoundary s src false = .ok m ∧ EntriesNear s m u (extC K L X * (ε + d ^ 5)) := by
  classical
  have key : ∀ (sid : Fin 3) (nd : Node), ∃ (et : EType) (v : ℝ × ℂ), nd ∈ s.G.allGamma sid →
      getEtype s.e s.cache sid nd = .ok et ∧ doExtend s src sid et nd = .ok v ∧
      ‖v.2 - u (getCoord AD N nd.1 nd.2)‖ ≤ extC K L X * (ε + d ^ 5) := by
    intro sid nd
    by_cases h : nd ∈ s.G.allGamma sid
    · obtain ⟨et, het⟩ := getEtype_ok (hready.hasCoord h)
      obtain ⟨v, h1, h2⟩ := C81_node hit hb hAD g hr hp heps hs hu hpde B hv hex hd hδ hδR h het
      exact ⟨et, v, fun _ => ⟨het, h1, h2⟩⟩
    · exact ⟨.standard, (0, 0), fun h' => absurd h' h⟩
  choose et res key using key
  obtain ⟨h1, -⟩ := mvLoop_reduce hready (ext := doExtend s src) (et := et) (res := res)
    (fun sid nd hnd => ⟨hready.sub sid nd hnd, (key sid nd hnd).1, (key sid nd hnd).2.1⟩)
  have hsrc : s.src.homogeneous = true ∧ s.e = mkEnv b N AD a R r := by
    obtain ⟨G, hG, -⟩ := C12_gentle hit hb N order hAD g hp
    rw [psInit_ok hG] at hs
    cases hs
    exact ⟨hh, rfl⟩
  refine ⟨⟨s.G.unionGamma, items s.G et res⟩, ?_, items_near hready fun sid nd hnd => ⟨(key sid nd hnd).1, ?_⟩⟩
  · unfold mvExtendBoundary mvExtendHomo
    rw [h1, ok_bind]
    simp only [hsrc.1, Bool.or_true, Bool.true_or, if_true, pure_eq_ok]
  · rw [hsrc.2]
    exact (key sid nd hnd).2.2

/-- **C81** the extension vector is within a constant times `ε + d⁵` of the exact solution on the discrete boundary. -/
theorem C81_extension {iter : Iter} (hit : IsIter iter) {b : Brentq} (hb : BrentqSpec b) {N order : ℕ} {AD : ℝ} (hAD : 0 < AD)
    (g : Gentle a R (AD / N * √2) ρ M m1 m2 α β r) (hr : ContDiff ℝ 6 r) (hp : ∀ t, 0 < r t ^ 2 + deriv r t ^ 2)
    {k eps : ℝ} (heps : 0 < eps) {nc nr : ℕ} {source : Source} (hh : source.homogeneous = true) {s : PSolver}
    (hs : psInit iter (mkEnv b N AD a R r) order k eps nc nr source = .ok s) (hready : Ready s)
    {u : ℝ × ℝ → ℂ} (hu : ContDiff ℝ 6 u) (hpde : HelmholtzPlane k u) {K L X : ℝ} (B : Bounds u k a R r K L X)
    {src : XiSrc} (hv : src.Valid s.bas.bDesc) {ε : ℝ} (hex : NearExact s src u ε) {d : ℝ} (hd : d ≤ 1) (hδ : AD / N * √2 ≤ d)
    (hδR : π * (AD / N * √2) / R ≤ d) :
    ∃ ext, extendBoundary s src = .ok ext ∧ ext.length = s.G.unionGamma.length ∧
      ∀ (l : ℕ) (hl : l < s.G.unionGamma.length) (hl' : l < ext.length),
        ‖ext[l] - u (getCoord AD N s.G.unionGamma[l].1 s.G.unionGamma[l].2)‖ ≤ extC K L X * (ε + d ^ 5) := by
  have he : s.e = mkEnv b N AD a R r := by
    obtain ⟨G, hG, -⟩ := C12_gentle hit hb N order hAD g hp
    have hs' := hs
    rw [psInit_ok hG] at hs'
    cases hs'
    rfl
  obtain ⟨m, hm, hE⟩ := C81_entries hit hb hAD g hr hp heps hh hs hready hu hpde B hv hex hd hδ hδR
  obtain ⟨ext, h1, h2, h3⟩ := hE.reduce
  refine ⟨ext, ?_, h2, fun l hl hl' => ?_⟩
  · unfold extendBoundary
    rw [hm, ok_bind, h1]
  · have := h3 l hl hl'
    rw [he] at this
    exact this

/-- a source without right-hand side gives a source array that vanishes -/
theorem setupF_zero {iter : Iter} (hit : IsIter iter) {n order : ℕ} {e : Env} {k : ℝ} {G : PsGrids} (S : Setup iter e n order k G)
    {s : PSolver} (he : s.e = e) (hG : s.G = G) (hh : s.src.homogeneous = true) (hf : ∀ x y, s.src.f x y = 0) :
    ∃ f : Arr (n + 2), setupF iter s = .ok f ∧ ∀ p : Node, fullNode f p.1 p.2 = 0 := by
  subst he hG
  obtain ⟨w1, e1, h1⟩ := setLoop (n := n) (fun nd => s.src.f (s.e.coord nd).1 (s.e.coord nd).2) (iter 6 s.G.Mplus)
    (fun q hq => by
      obtain ⟨a1, a2, a3, a4⟩ := mplus_inR hit S.hN S.built q (((hit 6 _).2 q).1 hq)
      omega) (fun _ _ => 0)
  refine ⟨w1, ?_, fun p => ?_⟩
  · unfold setupF extendF
    rw [e1, ok_bind, if_pos hh, pure_eq_ok]
  · rw [h1]
    simp only [hf]
    split_ifs
    · rfl
    · unfold fullNode; split <;> rfl

/-- what a run that ends has computed on the way, and the number of its coefficients -/
theorem run_parts {iter : Iter} {s : PSolver} {n : ℕ} (S : Setup iter s.e n s.order s.k s.G) (R : Ready s)
    {p q : ℕ} (hp : 1 ≤ p) (hq : 1 ≤ q) (hbas : s.bas = setupBasis p q) {extF : List ℂ}
    (hF : extendInhomoF s = .ok extF) {fit : Chebfit} (hfit : IsChebfit fit) {lstsq : Lstsq} (hlsq : IsLstsq lstsq)
    {roots : List ℝ} {bc : ℝ → Fin 3 → ℂ} {ex : Option (ℝ → ℝ → ℂ)} {ap : Arr n} {res : RunResult n}
    (h : psRun iter s ap fit roots bc lstsq ex = .ok res) :
    res.c0.length = s.bas.bDesc.length ∧ res.c1.length = s.bas.bDesc.length ∧
      extendBoundary s (.full res.c0 res.c1) = .ok res.ext ∧ regularPart iter s.e s.order s.k s.G res.ext ap = .ok res.uAct := by
  have hlen : s.bas.bDesc.length = p + 2 * q := by rw [hbas, C40_length]
  have hB : s.bas.bDesc ≠ [] := by
    intro h
    rw [h] at hlen
    simp at hlen
    omega
  obtain ⟨c0, hc0, hl0⟩ := C40_c0_length (eps := s.eps) (a := s.e.a) (R := s.e.R) hfit p q hp hq roots bc
  rw [← hbas] at hc0 hl0
  obtain ⟨Q1, rhs, -, -, -, -, hv, -, -, -, -, -, hrl, -, -, ⟨hQl, hQc⟩, -⟩ :=
    C23_residual S R hB hF ap hl0 (c1 := List.replicate s.bas.bDesc.length 0) (by simp)
  obtain ⟨hc1l, -⟩ := hlsq Q1 rhs (fun col hcol => by rw [hQc col hcol, hrl])
  unfold psRun solveVar at h
  rw [hc0, ok_bind, hv, ok_bind, pure_eq_ok, ok_bind] at h
  cases he : extendBoundary s (.full c0 (lstsq Q1 rhs)) with
  | error e => rw [he] at h; cases h
  | ok ext =>
    rw [he, ok_bind] at h
    cases hw : regularPart iter s.e s.order s.k s.G ext ap with
    | error e => rw [hw] at h; cases h
    | ok w =>
      rw [hw, ok_bind] at h
      cases hx : evalError iter s.e s.G ex w with
      | error e => rw [hx] at h; cases h
      | ok er =>
        rw [hx, ok_bind, pure_eq_ok] at h
        cases h
        exact ⟨hl0, hc1l.trans hQl, he, hw⟩

theorem exists_pd_bound6 {u : ℝ × ℝ → ℂ} (hu : ContDiff ℝ 6 u) (w : ℝ) : ∃ M, 0 ≤ M ∧ ∀ i j, i + j = 6 → ∀ x y : ℝ, |x| ≤ w → |y| ≤ w →
    ‖pdFam u i j (x, y)‖ ≤ M := by
  obtain ⟨M, h0, h⟩ := exists_pd_bound (m := 6) (by exact_mod_cast hu) w
  exact ⟨M, h0, fun i j hij x y hx hy => h i j hij (x, y) hx hy⟩

/-- **C81** a homogeneous problem on a shipped boundary, on every grid with at least 16 cells per side: if the data the program has
computed is within `ε` of the exact Cauchy data (with four derivatives), then its extension vector is within `C (ε + N⁻⁵)` of the
exact solution, and its solution within `C (ε N³ + N⁻²)` of the exact solution at every node of the region. -/
theorem C81_shipped {name : String} {r : ℝ → ℝ} (hname : chooseBoundary name = .ok r) {k : ℝ}
    (hk : k = smoothK ∨ k = ihK ∨ k = quadK ∨ k = 1) {u : ℝ × ℝ → ℂ} (hu : ContDiff ℝ 6 u) (hpde : HelmholtzPlane k u) :
    ∃ C, 0 ≤ C ∧ ∀ {iter : Iter}, IsIter iter → ∀ {b : Brentq}, BrentqSpec b → ∀ {n : ℕ}, 16 ≤ n + 1 → ∀ {eps : ℝ}, 0 < eps →
      ∀ {source : Source}, source.homogeneous = true → (∀ x y, source.f x y = 0) → ∀ {p q : ℕ}, 1 ≤ p → 1 ≤ q →
      ∀ {s : PSolver}, psInit iter (mkEnv b (n + 1) probAD probA probR r) 4 k eps p q source = .ok s →
      ∀ {ap : Arr n}, initApSolF n iter s = .ok ap → ∀ {fit : Chebfit} {lstsq : Lstsq}, IsChebfit fit → IsLstsq lstsq →
      ∀ {roots : List ℝ} {bc : ℝ → Fin 3 → ℂ} {ex : Option (ℝ → ℝ → ℂ)} {res : RunResult n},
      psRun iter s ap fit roots bc lstsq ex = .ok res → ∀ {ε : ℝ}, NearExact s (.full res.c0 res.c1) u ε →
      (∀ (l : ℕ) (hl : l < s.G.unionGamma.length), ∃ hl' : l < res.ext.length,
        ‖res.ext[l] - u (getCoord probAD (n + 1) s.G.unionGamma[l].1 s.G.unionGamma[l].2)‖ ≤ C * (ε + 1 / ((n : ℝ) + 1) ^ 5)) ∧
      ∀ nd ∈ s.G.Nplus, ‖node res.uAct nd.1 nd.2 - u (getCoord probAD (n + 1) nd.1 nd.2)‖ ≤
        C * (ε * ((n : ℝ) + 1) ^ 3 + 1 / ((n : ℝ) + 1) ^ 2) := by
  have hpi := pi_pos
  have T := chooseBoundary_tame hname
  have hAD : 0 < probAD := by unfold probAD; positivity
  obtain ⟨K, L, X, B⟩ := exists_bounds hu k probA probR (r := r) (by exact_mod_cast chooseBoundary_smooth hname 6) T.regular
  obtain ⟨m, hm, hlow⟩ := C80_shipped_uniform (order := 4) (Or.inr rfl) hk
  obtain ⟨M6, hM0, hM6⟩ := exists_pd_bound6 hu (probAD / 2)
  have hX : 0 ≤ X := (norm_nonneg _).trans (B.data 0 0 0 ⟨by norm_num, by unfold probR; linarith⟩)
  have hL : 0 ≤ L := (norm_nonneg _).trans (B.fifth 5 0 rfl (0, 0) (by simp; linarith [B.one]) (by simp; linarith [B.one]))
  have hE : 0 ≤ extC K L X := by
    have := B.one
    unfold extC
    positivity
  set c := 1.4 * (probAD * √2) with hc
  have hc0 : 0 ≤ c := by positivity
  set A := 1 + (8 / probAD ^ 2 + k ^ 2) / m with hA
  have hA0 : 0 ≤ A := by positivity
  set D := extC K L X * (1 + c ^ 5) with hD
  have hD0 : 0 ≤ D := by positivity
  set F := 11 / 180 * M6 * probAD ^ 4 / m with hF
  have hF0 : 0 ≤ F := by positivity
  refine ⟨D + A * D + F, by positivity, ?_⟩
  intro iter hit b hb n hN eps heps source hh hf0 p q hp hq s hs ap hap fit lstsq hfit hlsq roots bc ex res hrun ε hex
  have hν : (16:ℝ) ≤ (n : ℝ) + 1 := by exact_mod_cast hN
  set ν := (n : ℝ) + 1 with hνdef
  have hν0 : 0 < ν := by linarith
  have hcast : ((n + 1 : ℕ) : ℝ) = ν := by push_cast; rfl
  have g := T.gentleAt hN
  have hready := ready_gentle hit hb hAD g T.regular (shipped_sides hN).1 (shipped_sides hN).2.1 (shipped_sides hN).2.2 hs
  have hz : NoZeroEig n 4 probAD k := by
    obtain ⟨h1, h2, h3, h4⟩ := C78_shipped n (order := 4) (Or.inr rfl)
    rcases hk with rfl | rfl | rfl | rfl <;> assumption
  obtain ⟨G, S⟩ := setup_shipped hit hb hN (Or.inr rfl) hname hz
  have hs' := hs
  rw [psInit_ok S.built] at hs'
  cases hs'
  set s : PSolver := ⟨mkEnv b (n + 1) probAD probA probR r, 4, k, eps, setupBasis p q, G,
    buildCache (mkEnv b (n + 1) probAD probA probR r) (G.allGamma 0), source⟩ with hsdef
  obtain ⟨l0, l1, hext, hreg⟩ := run_parts (s := s) S hready hp hq rfl (extendInhomoF_homogeneous hready hh) hfit hlsq hrun
  have hε := hex.nonneg g.Rpos.le
  have hsc : probAD / (n + 1 : ℕ) * √2 ≤ 0.556 := shipped_scale (n + 1) hN
  have hδ0 : 0 ≤ probAD / (n + 1 : ℕ) * √2 := by positivity
  set d := 1.4 * (probAD / (n + 1 : ℕ) * √2) with hd
  have hdc : d = c / ν := by rw [hd, hc, hcast]; ring
  obtain ⟨ext, he1, he2, he3⟩ := C81_extension hit hb hAD g (by exact_mod_cast chooseBoundary_smooth hname 6) T.regular heps hh hs hready
    hu hpde B (src := .full res.c0 res.c1) ⟨l0.ge, l1.ge⟩ hex (d := d) (by rw [hd]; linarith) (by rw [hd]; linarith)
    (by
      have hpi' := pi_lt_d4
      unfold probR
      rw [hd, div_le_iff₀ (by norm_num)]
      have := mul_le_mul_of_nonneg_right hpi'.le hδ0
      linarith)
  obtain rfl : ext = res.ext := Except.ok.inj (he1.symm.trans hext)
  have hd5 : d ^ 5 = c ^ 5 * (1 / ν ^ 5) := by rw [hdc, div_pow]; ring
  have hi5 : 0 ≤ 1 / ν ^ 5 := by positivity
  have hbound : extC K L X * (ε + d ^ 5) ≤ D * (ε + 1 / ν ^ 5) := by
    rw [hD, mul_assoc]
    refine mul_le_mul_of_nonneg_left ?_ hE
    rw [hd5]
    have := mul_nonneg (pow_nonneg hc0 5) hε
    linarith
  have hsum : 0 ≤ ε + 1 / ν ^ 5 := by positivity
  constructor
  · intro l hl
    refine ⟨by rw [he2]; exact hl, (he3 l hl (by rw [he2]; exact hl)).trans (hbound.trans ?_)⟩
    refine mul_le_mul_of_nonneg_right ?_ hsum
    have := mul_nonneg hA0 hD0
    linarith
  · obtain ⟨f, hf, hfz⟩ := setupF_zero hit S (s := s) rfl rfl hh hf0
    have hJ := jet_of_contDiff (n := 6) (g := u) (by exact_mod_cast hu)
    obtain ⟨s0, w, h1, h2, -, h3⟩ := C80_rate S hAD hm (hlow n) hJ (M := M6) (T := 0) le_rfl (δ := D * (ε + 1 / ν ^ 5)) (by positivity)
      hM6 f (fun q _ => by
        rw [hfz q, zero_sub, norm_neg]
        have := helmholtz_pdFam (hu.of_le (by norm_num)) hpde ((mkEnv b (n + 1) probAD probA probR r).coord q)
        exact (norm_eq_zero.2 this).le)
      res.ext he2 (fun l => (he3 l l.2 (by rw [he2]; exact l.2)).trans hbound)
    have hap' : ap = s0 := by
      unfold initApSolF at hap
      rw [hf, ok_bind] at hap
      exact Except.ok.inj (hap.symm.trans h1)
    subst hap'
    obtain rfl : w = res.uAct := Except.ok.inj (h2.symm.trans hreg)
    intro nd hnd
    refine (h3 nd hnd).trans ?_
    show ((n + 1 : ℕ) : ℝ) * ((1 + (8 / (probAD / ((n + 1 : ℕ) : ℝ)) ^ 2 + k ^ 2) / m) * (D * (ε + 1 / ν ^ 5)) +
      (11 / 180 * M6 * (probAD / ((n + 1 : ℕ) : ℝ)) ^ 4 + 0) / m) ≤ _
    rw [hcast]
    have hν1 : 1 ≤ ν ^ 2 := one_le_pow₀ (by linarith)
    have e1 : 1 + (8 / (probAD / ν) ^ 2 + k ^ 2) / m ≤ A * ν ^ 2 := by
      have a1 : 8 / (probAD / ν) ^ 2 = 8 / probAD ^ 2 * ν ^ 2 := by field_simp
      have a2 : k ^ 2 ≤ k ^ 2 * ν ^ 2 := le_mul_of_one_le_right (sq_nonneg k) hν1
      rw [a1, hA]
      have a3 : (8 / probAD ^ 2 * ν ^ 2 + k ^ 2) / m ≤ (8 / probAD ^ 2 * ν ^ 2 + k ^ 2 * ν ^ 2) / m := by gcongr
      calc _ ≤ ν ^ 2 + (8 / probAD ^ 2 * ν ^ 2 + k ^ 2 * ν ^ 2) / m := by linarith
        _ = _ := by ring
    have e2 : (11 / 180 * M6 * (probAD / ν) ^ 4 + 0) / m = F / ν ^ 4 := by rw [hF, div_pow]; ring
    rw [e2]
    have e3 : ν * (F / ν ^ 4) = F * (1 / ν ^ 3) := by field_simp
    have e4 : 1 / ν ^ 3 ≤ 1 / ν ^ 2 := by
      apply one_div_le_one_div_of_le (by positivity)
      exact pow_le_pow_right₀ (by linarith) (by norm_num)
    have e5 : ν * (A * ν ^ 2 * (D * (ε + 1 / ν ^ 5))) = A * D * (ε * ν ^ 3 + 1 / ν ^ 2) := by field_simp
    have e6 : 0 ≤ ε * ν ^ 3 := by positivity
    have e7 : F * (1 / ν ^ 3) ≤ F * (ε * ν ^ 3 + 1 / ν ^ 2) := mul_le_mul_of_nonneg_left (by linarith) hF0
    have e8 : 0 ≤ D * (ε * ν ^ 3 + 1 / ν ^ 2) := by positivity
    have e9 : ν * ((1 + (8 / (probAD / ν) ^ 2 + k ^ 2) / m) * (D * (ε + 1 / ν ^ 5))) ≤ ν * (A * ν ^ 2 * (D * (ε + 1 / ν ^ 5))) :=
      mul_le_mul_of_nonneg_left (mul_le_mul_of_nonneg_right e1 (by positivity)) hν0.le
    rw [mul_add, e3]
    rw [e5] at e9
    linarith

/-- some `ε` always fits: the data of a run on a shipped boundary is smooth -/
theorem exists_nearExact (s : PSolver) (src : XiSrc) {u : ℝ × ℝ → ℂ} (hu : ContDiff ℝ 6 u) (hr : ContDiff ℝ 6 s.e.evalR)
    (hp : ∀ t, 0 < s.e.evalR t ^ 2 + deriv s.e.evalR t ^ 2) : ∃ ε, NearExact s src u ε := by
  have key : ∀ (sid : Fin 3) (i : Fin 2) (m : Fin 5), ∃ ε, ∀ t ∈ physical s.e.a s.e.R sid,
      ‖iteratedDeriv m (trace s src sid i) t - iteratedDeriv m (cauchyData u s.e.a s.e.evalR sid i) t‖ ≤ ε := by
    intro sid i m
    have hm : (m : ℕ) ≤ 4 := by omega
    have hc : ContDiff ℝ (5 : ℕ) (cauchyData u s.e.a s.e.evalR sid i) :=
      cauchyData_contDiff (by exact_mod_cast hu) s.e.a (by exact_mod_cast hr) hp sid i
    have ht : Continuous (iteratedDeriv m (trace s src sid i)) := by
      rw [continuous_iff_continuousAt]
      intro t
      have h1 : iteratedDeriv m (trace s src sid i) = traceFam s src sid i m := by
        funext t
        exact traceFam_eq s src sid i m t
      rw [h1]
      exact (traceFam_deriv s src sid i (m + 1) m (by omega) t (Set.mem_univ t)).continuousAt
    have hcomp : IsCompact (physical s.e.a s.e.R sid) := by
      unfold physical
      split <;> exact isCompact_Icc
    exact hcomp.exists_bound_of_continuousOn
      (ht.sub (hc.continuous_iteratedDeriv m (by exact_mod_cast (by omega : (m : ℕ) ≤ 5)))).continuousOn
  choose E hE using key
  refine ⟨∑ sid, ∑ i, ∑ m, |E sid i m|, fun sid i m hm t ht => ?_⟩
  refine ((hE sid i ⟨m, by omega⟩ t ht).trans (le_abs_self _)).trans ?_
  refine (single_le_sum (f := fun m => |E sid i m|) (fun _ _ => abs_nonneg _) (mem_univ (⟨m, by omega⟩ : Fin 5))).trans ?_
  refine (single_le_sum (f := fun i => ∑ m, |E sid i m|) (fun _ _ => sum_nonneg fun _ _ => abs_nonneg _) (mem_univ i)).trans ?_
  exact single_le_sum (f := fun sid => ∑ i, ∑ m, |E sid i m|)
    (fun _ _ => sum_nonneg fun _ _ => sum_nonneg fun _ _ => abs_nonneg _) (mem_univ sid)

/-- the plane wave of `Smooth_E` is an admissible exact solution -/
theorem planeWave_helmholtz (k : ℝ) : ContDiff ℝ 6 (fun q : ℝ × ℝ => (eExpected k q.1 q.2).1) ∧
    HelmholtzPlane k fun q => (eExpected k q.1 q.2).1 := by
  constructor
  · unfold eExpected
    simp only []
    refine Complex.contDiff_exp.comp (contDiff_const.mul ?_)
    have : ContDiff ℝ 6 fun q : ℝ × ℝ => 4 / 5 * k * q.1 + 3 / 5 * k * q.2 := by fun_prop
    exact Complex.ofRealCLM.contDiff.comp this
  · intro x y
    have J := eJet_jet k 2
    have e0 : ∀ x y, eJet k 0 0 x y = (eExpected k x y).1 := fun x y => by unfold eJet; simp
    have h1 : ∀ y, (deriv fun t => (eExpected k t y).1) = fun x => eJet k 1 0 x y := fun y => funext fun x => by
      have := J.d1 0 0 (by norm_num) x y
      simp only [e0] at this
      exact this.deriv
    have h2 : ∀ x, (deriv fun t => (eExpected k x t).1) = fun y => eJet k 0 1 x y := fun x => funext fun y => by
      have := J.d2 0 0 (by norm_num) x y
      simp only [e0] at this
      exact this.deriv
    have := eJet_helm k x y
    unfold helm at this
    rw [e0] at this
    simp only [h1, h2]
    rw [(J.d1 1 0 (by norm_num) x y).deriv, (J.d2 0 1 (by norm_num) x y).deriv]
    exact this

/-- nothing in C81 is empty: on every shipped boundary there is a constant such that, on every grid, the run for the plane wave
ends, its data fits with some `ε`, and the bound holds for that `ε` -/
example {name : String} {r : ℝ → ℝ} (hname : chooseBoundary name = .ok r) : ∃ C : ℝ, ∀ {iter : Iter}, IsIter iter →
    ∀ {b : Brentq}, BrentqSpec b → ∀ {n : ℕ}, 16 ≤ n + 1 → ∀ {source : Source}, source.homogeneous = true →
    (∀ x y, source.f x y = 0) → ∀ {fit : Chebfit} {lstsq : Lstsq}, IsChebfit fit → IsLstsq lstsq →
    ∀ (roots : List ℝ) (bc : ℝ → Fin 3 → ℂ), ∃ (s : PSolver) (ap : Arr n) (res : RunResult n) (ε : ℝ),
      psRun iter s ap fit roots bc lstsq none = .ok res ∧ NearExact s (.full res.c0 res.c1) (fun q => (eExpected smoothK q.1 q.2).1) ε ∧
      ∀ nd ∈ s.G.Nplus, ‖node res.uAct nd.1 nd.2 - (eExpected smoothK (s.e.coord nd).1 (s.e.coord nd).2).1‖ ≤
        C * (ε * ((n : ℝ) + 1) ^ 3 + 1 / ((n : ℝ) + 1) ^ 2) := by
  obtain ⟨w1, w2⟩ := planeWave_helmholtz smoothK
  obtain ⟨C, -, h⟩ := C81_shipped hname (Or.inl rfl) w1 w2
  refine ⟨C, fun {iter} hit {b} hb {n} hN {source} hh hf0 {fit lstsq} hfit hlsq roots bc => ?_⟩
  obtain ⟨s, hs, f, hf, ap, res, hap, hrun, -⟩ := C77_shipped hit hb hN (Or.inr rfl) hname (k := smoothK) (eps := 1)
    (C78_shipped n (order := 4) (Or.inr rfl)).1 hh (p := 3) (q := 2) (by norm_num) (by norm_num) hfit hlsq roots bc none
  have he : s.e = mkEnv b (n + 1) probAD probA probR r := by
    obtain ⟨G, S⟩ := setup_shipped hit hb hN (Or.inr rfl) hname (C78_shipped n (order := 4) (Or.inr rfl)).1
    rw [psInit_ok S.built] at hs
    cases hs
    rfl
  obtain ⟨ε, hε⟩ := exists_nearExact s (.full res.c0 res.c1) w1 (by rw [he]; exact_mod_cast chooseBoundary_smooth hname 6)
    (by rw [he]; exact (chooseBoundary_tame hname).regular)
  refine ⟨s, ap, res, ε, hrun, hε, ?_⟩
  rw [he]
  exact (h hit hb hN one_pos hh hf0 (by norm_num) (by norm_num) hs hap hfit hlsq hrun hε).2

end Pot
