import Verif.Spec.Cauchy
import Verif.Proofs.ExtendBound
import Verif.Proofs.JetOnExist
import Verif.Props.Sides
import Verif.Props.Curves
import Mathlib.Analysis.Normed.Group.Bounded

/-! # Cauchy data of smooth solutions: derivatives, bounds, and the extension of nearly exact data -/

namespace Pot
open Spec Finset Real

/-- the shipped curves are smooth -/
theorem chooseBoundary_smooth {name : String} {r : ℝ → ℝ} (h : chooseBoundary name = .ok r) (m : ℕ) : ContDiff ℝ m r := by
  unfold chooseBoundary at h
  split at h
  · next r' hr' =>
    cases h
    obtain ⟨l1, l2, hl, -⟩ := List.lookup_eq_some_iff.1 hr'
    have hm : ((name, r) : String × (ℝ → ℝ)) ∈ boundaryTable probR probA := by rw [hl]; simp
    simp only [boundaryTable, List.mem_cons, Prod.mk.injEq, List.not_mem_nil, or_false] at hm
    rcases hm with ⟨-, rfl⟩ | ⟨-, rfl⟩ | ⟨-, rfl⟩ | ⟨-, rfl⟩ | ⟨-, rfl⟩
    · unfold arcR; fun_prop
    · unfold outerSineR; fun_prop
    · unfold innerSineR; fun_prop
    · unfold sine7R; fun_prop
    · unfold cubicR; fun_prop
  · cases h

theorem contDiff_deriv {n : ℕ} {f : ℝ → ℝ} (h : ContDiff ℝ (n + 1 : ℕ) f) : ContDiff ℝ n (deriv f) :=
  (contDiff_succ_iff_deriv.1 (show ContDiff ℝ ((n : WithTop ℕ∞) + 1) f by exact_mod_cast h)).2.2

/-- on a bounded interval everything the polar extension reads off a smooth curve is bounded -/
theorem exists_curveBound {r : ℝ → ℝ} (hr : ContDiff ℝ 5 r) (hp : ∀ t, 0 < r t ^ 2 + deriv r t ^ 2) (lo hi : ℝ) :
    ∃ K, ∀ th ∈ Set.Icc lo hi, CurveBound r K th := by
  have h1 : ContDiff ℝ (4 : ℕ) (deriv r) := contDiff_deriv (n := 4) (by exact_mod_cast hr)
  have h2 : ContDiff ℝ (3 : ℕ) (deriv (deriv r)) := contDiff_deriv (n := 3) h1
  have hr' : ContDiff ℝ (5 : ℕ) r := by exact_mod_cast hr
  have hs : ContDiff ℝ (4 : ℕ) (dSth r) := by
    unfold dSth dRth
    exact ContDiff.sqrt (((hr'.of_le (by norm_num)).pow 2).add (h1.pow 2)) fun t => (hp t).ne'
  have hs2 : ContDiff ℝ (3 : ℕ) (d2Sth r) := contDiff_deriv (n := 3) hs
  have hs3 : ContDiff ℝ (2 : ℕ) (d3Sth r) := contDiff_deriv (n := 2) hs2
  have hs4 : ContDiff ℝ (1 : ℕ) (d4Sth r) := contDiff_deriv (n := 1) hs3
  have hc : ContDiff ℝ (3 : ℕ) (curvTh r) := by
    unfold curvTh d2Rth dRth
    have a1 : ContDiff ℝ (3 : ℕ) r := hr'.of_le (by norm_num)
    have a2 : ContDiff ℝ (3 : ℕ) (deriv r) := h1.of_le (by norm_num)
    refine ContDiff.div ?_ (ContDiff.rpow_const_of_ne ((a1.pow 2).add (a2.pow 2)) fun t => (hp t).ne')
      fun t => (Real.rpow_pos_of_pos (hp t) _).ne'
    exact (((a1.pow 2).add (contDiff_const.mul (a2.pow 2))).sub (a1.mul h2)).neg
  have hc1 : ContDiff ℝ (2 : ℕ) (dCurvTh r) := contDiff_deriv (n := 2) hc
  have hc2 : ContDiff ℝ (1 : ℕ) (d2CurvTh r) := contDiff_deriv (n := 1) hc1
  have c0 := hs.continuous
  have t1 : Continuous (dThs r) := by
    unfold dThs
    exact continuous_const.div c0 fun t => (speed_pos (hp t)).ne'
  have t2 : Continuous (d2Ths r) := (hs2.continuous.neg).mul (t1.pow 3)
  have t3 : Continuous (d3Ths r) := by
    unfold d3Ths
    have := hs2.continuous
    have := hs3.continuous
    fun_prop
  have t4 : Continuous (d4Ths r) := by
    unfold d4Ths
    have := hs2.continuous
    have := hs3.continuous
    have := hs4.continuous
    fun_prop
  have bd : ∀ f : ℝ → ℝ, Continuous f → ∃ C, ∀ th ∈ Set.Icc lo hi, |f th| ≤ C := fun f hf =>
    isCompact_Icc.exists_bound_of_continuousOn (f := f) hf.continuousOn
  obtain ⟨C1, b1⟩ := bd _ hc.continuous
  obtain ⟨C2, b2⟩ := bd _ hc1.continuous
  obtain ⟨C3, b3⟩ := bd _ hc2.continuous
  obtain ⟨C4, b4⟩ := bd _ t1
  obtain ⟨C5, b5⟩ := bd _ t2
  obtain ⟨C6, b6⟩ := bd _ t3
  obtain ⟨C7, b7⟩ := bd _ t4
  refine ⟨|C1| + |C2| + |C3| + |C4| + |C5| + |C6| + |C7|, fun th hth => ?_⟩
  have q1 := (b1 th hth).trans (le_abs_self _)
  have q2 := (b2 th hth).trans (le_abs_self _)
  have q3 := (b3 th hth).trans (le_abs_self _)
  have q4 := (b4 th hth).trans (le_abs_self _)
  have q5 := (b5 th hth).trans (le_abs_self _)
  have q6 := (b6 th hth).trans (le_abs_self _)
  have q7 := (b7 th hth).trans (le_abs_self _)
  have n1 := abs_nonneg C1
  have n2 := abs_nonneg C2
  have n3 := abs_nonneg C3
  have n4 := abs_nonneg C4
  have n5 := abs_nonneg C5
  have n6 := abs_nonneg C6
  have n7 := abs_nonneg C7
  exact ⟨by linarith, by linarith, by linarith, by linarith, by linarith, by linarith, by linarith⟩

theorem CurveBound.mono {r : ℝ → ℝ} {K K' th : ℝ} (h : CurveBound r K th) (hK : K ≤ K') : CurveBound r K' th :=
  ⟨h.c.trans hK, h.c1.trans hK, h.c2.trans hK, h.s1.trans hK, h.s2.trans hK, h.s3.trans hK, h.s4.trans hK⟩

/-! ## The data -/

theorem curveNormal_eq (r : ℝ → ℝ) (t : ℝ) : curveNormal r t = evalNormal r t := rfl

/-- the directional derivative of a jet made of partial derivatives -/
theorem dir1_pdFam (u : ℝ × ℝ → ℂ) (c d : ℝ) (p : ℝ × ℝ) : dir1 (pdFam u) c d p = fderiv ℝ u p (c, d) := by
  have e : ((c, d) : ℝ × ℝ) = c • (1, 0) + d • (0, 1) := by simp
  rw [e, map_add, map_smul, map_smul]
  show (c : ℂ) * fderiv ℝ u p (1, 0) + d * fderiv ℝ u p (0, 1) = _
  rw [Complex.real_smul, Complex.real_smul]

theorem HelmholtzPlane.source {k : ℝ} {u : ℝ × ℝ → ℂ} (h : HelmholtzPlane k u) : HelmholtzSource k u fun _ => 0 := h

/-- the equation, for the jet of partial derivatives -/
theorem helmholtz_pdFam_source {k : ℝ} {u φ : ℝ × ℝ → ℂ} (hu : ContDiff ℝ 2 u) (h : HelmholtzSource k u φ) (p : ℝ × ℝ) :
    pdFam u 2 0 p + pdFam u 0 2 p + (k : ℂ) ^ 2 * pdFam u 0 0 p = pdFam φ 0 0 p := by
  have J := jet_of_contDiff (n := 2) (g := u) (by exact_mod_cast hu)
  have e1 : ∀ y, (deriv fun t => u (t, y)) = fun x => pdFam u 1 0 (x, y) := fun y =>
    funext fun x => (J.d1 0 0 (by norm_num) x y).deriv
  have e2 : ∀ x, (deriv fun t => u (x, t)) = fun y => pdFam u 0 1 (x, y) := fun x =>
    funext fun y => (J.d2 0 0 (by norm_num) x y).deriv
  have := h p.1 p.2
  rw [e1, e2, (J.d1 1 0 (by norm_num) p.1 p.2).deriv, (J.d2 0 1 (by norm_num) p.1 p.2).deriv] at this
  exact this

theorem helmholtz_pdFam {k : ℝ} {u : ℝ × ℝ → ℂ} (hu : ContDiff ℝ 2 u) (h : HelmholtzPlane k u) (p : ℝ × ℝ) :
    pdFam u 2 0 p + pdFam u 0 2 p + (k : ℂ) ^ 2 * pdFam u 0 0 p = 0 := helmholtz_pdFam_source hu (HelmholtzPlane.source h) p

/-- the partial derivatives of zero -/
theorem pdFam_zero (i j : ℕ) : pdFam (fun _ => 0) i j = fun _ => 0 := by
  have h1 : pd1 (fun _ => 0) = fun _ => 0 := by funext p; simp [pd1]
  have h2 : pd2 (fun _ => 0) = fun _ => 0 := by funext p; simp [pd2]
  unfold pdFam
  rw [Function.iterate_fixed h2, Function.iterate_fixed h1]

/-- iterated derivatives of a smooth function form a family -/
theorem iterated_derivFam {n : ℕ} {f : ℝ → ℂ} (h : ContDiff ℝ n f) : DerivFam n Set.univ fun m => iteratedDeriv m f := by
  intro i hi t _
  show HasDerivAt (iteratedDeriv i f) (iteratedDeriv (i + 1) f t) t
  rw [iteratedDeriv_succ]
  exact ((h.differentiable_iteratedDeriv i (by exact_mod_cast hi)) t).hasDerivAt

/-- the normal of a smooth regular curve is smooth -/
theorem evalNormal_contDiff {r : ℝ → ℝ} {n : ℕ} (hr : ContDiff ℝ (n + 1 : ℕ) r) (hp : ∀ t, 0 < r t ^ 2 + deriv r t ^ 2) :
    ContDiff ℝ n (evalNormal r) := by
  have hd : ∀ t, DifferentiableAt ℝ r t := fun t => hr.differentiable (by simp) t
  have ex : dXth r = fun t => deriv r t * cos t - r t * sin t := by
    funext t
    unfold dXth
    refine ((hd t).hasDerivAt.mul (hasDerivAt_cos t)).deriv.trans ?_
    ring
  have ey : dYth r = fun t => deriv r t * sin t + r t * cos t := by
    funext t
    unfold dYth
    exact ((hd t).hasDerivAt.mul (hasDerivAt_sin t)).deriv
  have h1 : ContDiff ℝ n (deriv r) := contDiff_deriv hr
  have h0 : ContDiff ℝ n r := hr.of_le (by exact_mod_cast Nat.le_succ n)
  have cx : ContDiff ℝ n (dXth r) := by rw [ex]; exact (h1.mul contDiff_cos).sub (h0.mul contDiff_sin)
  have cy : ContDiff ℝ n (dYth r) := by rw [ey]; exact (h1.mul contDiff_sin).add (h0.mul contDiff_cos)
  have hpos : ∀ t, dXth r t ^ 2 + dYth r t ^ 2 ≠ 0 := by
    intro t
    have := hp t
    have e : dXth r t ^ 2 + dYth r t ^ 2 = r t ^ 2 + deriv r t ^ 2 := by
      rw [ex, ey]
      linear_combination (r t ^ 2 + deriv r t ^ 2) * sin_sq_add_cos_sq t
    rw [e]
    exact this.ne'
  have cs : ContDiff ℝ n fun t => √(dXth r t ^ 2 + dYth r t ^ 2) := ContDiff.sqrt ((cx.pow 2).add (cy.pow 2)) hpos
  have hs : ∀ t, √(dXth r t ^ 2 + dYth r t ^ 2) ≠ 0 := fun t => by
    rw [Real.sqrt_ne_zero (by positivity)]
    exact hpos t
  exact (cy.div cs hs).prodMk (cx.div cs hs).neg

theorem polarCurve_contDiff {r : ℝ → ℝ} {n : ℕ} (hr : ContDiff ℝ n r) : ContDiff ℝ n fun t => polarPoint (r t) t :=
  (hr.mul contDiff_cos).prodMk (hr.mul contDiff_sin)

/-- Cauchy data of a smooth function is smooth -/
theorem cauchyData_contDiff {u : ℝ × ℝ → ℂ} {n : ℕ} (hu : ContDiff ℝ (n + 1 : ℕ) u) (a : ℝ) {r : ℝ → ℝ}
    (hr : ContDiff ℝ (n + 1 : ℕ) r) (hp : ∀ t, 0 < r t ^ 2 + deriv r t ^ 2) (sid : Fin 3) (i : Fin 2) :
    ContDiff ℝ n (cauchyData u a r sid i) := by
  have hle : (n : WithTop ℕ∞) ≤ (n + 1 : ℕ) := by exact_mod_cast Nat.le_succ n
  have hu0 := hu.of_le hle
  have hf : ContDiff ℝ n (fderiv ℝ u) := hu.fderiv_right (by exact_mod_cast le_rfl)
  have c0 := polarCurve_contDiff (hr.of_le hle)
  have c1 : ContDiff ℝ n fun t : ℝ => ((t, 0) : ℝ × ℝ) := contDiff_id.prodMk contDiff_const
  have c2 : ContDiff ℝ n fun t : ℝ => polarPoint t a := by unfold polarPoint; fun_prop
  fin_cases sid <;> fin_cases i
  · exact hu0.comp c0
  · exact (hf.comp c0).clm_apply (evalNormal_contDiff hr hp)
  · exact hu0.comp c1
  · exact (hf.comp c1).clm_apply contDiff_const
  · exact hu0.comp c2
  · exact (hf.comp c2).clm_apply contDiff_const

/-! ## Taylor remainder along a normal -/

theorem dirIter_bound {a b L : ℝ} (ha : |a| ≤ 1) (hb : |b| ≤ 1) {q : ℝ × ℝ} : ∀ {j : ℕ} {U : ℕ → ℕ → ℝ × ℝ → ℂ} {i i' : ℕ},
    (∀ l l', l + l' = i + i' + j → ‖U l l' q‖ ≤ L) → ‖((dirJet a b)^[j] U) i i' q‖ ≤ 2 ^ j * L
  | 0, U, i, i', h => by simpa using h i i' rfl
  | j + 1, U, i, i', h => by
    rw [Function.iterate_succ_apply]
    have := dirIter_bound ha hb (j := j) (U := dirJet a b U) (i := i) (i' := i') (L := 2 * L) (q := q) fun l l' hl => by
      have h1 := h (l + 1) l' (by omega)
      have h2 := h l (l' + 1) (by omega)
      have hL : 0 ≤ L := (norm_nonneg _).trans h1
      refine (norm_add_le' (norm_mul_le_mul (C := 1) (by rwa [Complex.norm_real]) h1)
        (norm_mul_le_mul (C := 1) (by rwa [Complex.norm_real]) h2)).trans ?_
      linarith
    calc _ ≤ _ := this
      _ = 2 ^ (j + 1) * L := by ring

/-- the partial derivatives of order five are at most `L` within distance `ρ` of the origin, in each coordinate -/
def Fifth (u : ℝ × ℝ → ℂ) (ρ L : ℝ) : Prop := ∀ i j, i + j = 5 → ∀ q : ℝ × ℝ, |q.1| ≤ ρ → |q.2| ≤ ρ → ‖pdFam u i j q‖ ≤ L

theorem exists_pd_bound {u : ℝ × ℝ → ℂ} {m : ℕ} (hu : ContDiff ℝ m u) (ρ : ℝ) :
    ∃ L, 0 ≤ L ∧ ∀ i j, i + j = m → ∀ q : ℝ × ℝ, |q.1| ≤ ρ → |q.2| ≤ ρ → ‖pdFam u i j q‖ ≤ L := by
  have hc : ∀ i j, i + j = m → Continuous (pdFam u i j) := by
    intro i j hij
    have h2 : ContDiff ℝ (0 + i : ℕ) (pd2^[j] u) := pd2_iter (by rw [zero_add, hij]; exact hu)
    exact (pd1_iter h2).continuous
  have hb : ∀ i : ℕ, ∃ C, ∀ q ∈ Set.Icc (-ρ) ρ ×ˢ Set.Icc (-ρ) ρ, i ≤ m → ‖pdFam u i (m - i) q‖ ≤ C := by
    intro i
    by_cases hi : i ≤ m
    · obtain ⟨C, hC⟩ := (isCompact_Icc.prod isCompact_Icc).exists_bound_of_continuousOn (s := Set.Icc (-ρ) ρ ×ˢ Set.Icc (-ρ) ρ)
        (f := pdFam u i (m - i)) (hc i (m - i) (by omega)).continuousOn
      exact ⟨C, fun q hq _ => hC q hq⟩
    · exact ⟨0, fun _ _ h => absurd h hi⟩
  choose C hC using hb
  refine ⟨∑ i ∈ range (m + 1), |C i|, sum_nonneg fun _ _ => abs_nonneg _, fun i j hij q h1 h2 => ?_⟩
  have hj : j = m - i := by omega
  subst hj
  have := hC i q ⟨abs_le.1 h1, abs_le.1 h2⟩ (by omega)
  exact (this.trans (le_abs_self _)).trans
    (single_le_sum (f := fun i => |C i|) (fun _ _ => abs_nonneg _) (mem_range.2 (by omega)))

/-- the Taylor polynomial of degree four along a unit vector -/
theorem remainder_bound {u : ℝ × ℝ → ℂ} (hu : ContDiff ℝ 5 u) {ρ L : ℝ} (hL : Fifth u ρ L) {p : ℝ × ℝ} {c d n : ℝ}
    (hN : c ^ 2 + d ^ 2 = 1) (h1 : |p.1| + |n| ≤ ρ) (h2 : |p.2| + |n| ≤ ρ) :
    ‖u (move p c d n) - taylorPoly 4 (fun t => u (move p c d t)) n‖ ≤ L * |n| ^ 5 := by
  have hc : |c| ≤ 1 := abs_le_one_iff_mul_self_le_one.2 (by nlinarith [sq_nonneg d])
  have hd : |d| ≤ 1 := abs_le_one_iff_mul_self_le_one.2 (by nlinarith [sq_nonneg c])
  have hJ : JetOn Set.univ 5 (pdFam u) := jetOn_of_contDiffOn isOpen_univ (n := 5) (by exact_mod_cast hu.contDiffOn)
  have key := line_remainder (U := pdFam u) hJ (p := p) (a := c) (b := d) (n := n) (M := 2 ^ 5 * L) (fun _ _ _ => Set.mem_univ _) (by
    intro t ht _
    have hfam := lineFam_deriv hJ p c d
    have e := DerivFam.iterated (move_open isOpen_univ p c d) hfam 5 le_rfl t (Set.mem_univ _)
    change iteratedDeriv 5 (fun t => pdFam u 0 0 (move p c d t)) t = _ at e
    rw [e]
    refine dirIter_bound hc hd fun l l' hl => hL l l' (by omega) _ ?_ ?_
    · show |p.1 + t * c| ≤ ρ
      refine (abs_add_le _ _).trans (le_trans ?_ h1)
      rw [abs_mul]
      have := mul_le_mul ht hc (abs_nonneg _) (abs_nonneg _)
      linarith
    · show |p.2 + t * d| ≤ ρ
      refine (abs_add_le _ _).trans (le_trans ?_ h2)
      rw [abs_mul]
      have := mul_le_mul ht hd (abs_nonneg _) (abs_nonneg _)
      linarith)
  have hL0 : 0 ≤ L := (norm_nonneg _).trans (hL 5 0 rfl p (by have := abs_nonneg n; linarith) (by have := abs_nonneg n; linarith))
  refine key.trans (mul_le_mul_of_nonneg_right ?_ (by positivity))
  norm_num
  linarith

/-! ## Extension of nearly exact data -/

/-- the table of exact derivatives -/
noncomputable def exactTab (u : ℝ × ℝ → ℂ) (a : ℝ) (r : ℝ → ℝ) (sid : Fin 3) (t : ℝ) : Tab :=
  fun m => iteratedDeriv m.1 (cauchyData u a r sid m.2) t

/-- the inhomogeneous extension of the exact source `F` from a point `p` of a line with tangent `(a, b)` and normal `(c, d)` -/
noncomputable def lineSource (k : ℝ) (F : ℕ → ℕ → ℝ × ℝ → ℂ) (p : ℝ × ℝ) (a b c d n : ℝ) : ℂ :=
  inhomoExtendArbitrary k { n := n, f := F 0 0 p, dFn := dir1 F c d p, d2Fn := dir2 F c d p, d2Fs := dir2 F a b p, curv := 0 }

/-- a function in polar coordinates -/
noncomputable def inPolar (φ : ℝ × ℝ → ℂ) (q : ℝ × ℝ) : ℂ := φ (polarPoint q.1 q.2)

theorem inPolar_contDiff {φ : ℝ × ℝ → ℂ} {m : ℕ} (h : ContDiff ℝ m φ) : ContDiff ℝ m (inPolar φ) := by
  have : ContDiff ℝ m fun q : ℝ × ℝ => polarPoint q.1 q.2 := by unfold polarPoint; fun_prop
  exact h.comp this

/-- the inhomogeneous extension of the exact source `φ` from the point `th` of the curve -/
noncomputable def outerSource (k : ℝ) (r : ℝ → ℝ) (φ : ℝ × ℝ → ℂ) (n th : ℝ) : ℂ :=
  inhomoExtendPolar k
    { dFth := pdFam (inPolar φ) 0 1 (r th, th), d2Fth := pdFam (inPolar φ) 0 2 (r th, th), dFr := pdFam (inPolar φ) 1 0 (r th, th),
      d2Fr := pdFam (inPolar φ) 2 0 (r th, th), d2Frth := pdFam (inPolar φ) 1 1 (r th, th), dThs := dThs r th, d2Ths := d2Ths r th,
      dRth := dRth r th, d2Rth := d2Rth r th } n (pdFam φ 0 0 (polarPoint (r th) th))
    (dir1 (pdFam φ) (evalNormal r th).1 (evalNormal r th).2 (polarPoint (r th) th))
    (dir2 (pdFam φ) (evalNormal r th).1 (evalNormal r th).2 (polarPoint (r th) th)) (curvTh r th)

theorem lineSource_zero (k : ℝ) (p : ℝ × ℝ) (a b c d n : ℝ) : lineSource k (pdFam fun _ => 0) p a b c d n = 0 := by
  unfold lineSource
  simp only [dir1, dir2, pdFam_zero, mul_zero, add_zero]
  exact inhomoExtendArbitrary_zero k n 0

theorem outerSource_zero (k : ℝ) (r : ℝ → ℝ) (n th : ℝ) : outerSource k r (fun _ => 0) n th = 0 := by
  have e : inPolar (fun _ => 0) = fun _ => 0 := rfl
  unfold outerSource inhomoExtendPolar inhomoD2Fs
  simp only [dir1, dir2, e, pdFam_zero, mul_zero, zero_mul, add_zero]
  exact inhomoExtendArbitrary_zero k n _

/-- a straight side -/
theorem line_error {u φ : ℝ × ℝ → ℂ} (hu : ContDiff ℝ 5 u) (hφ : ContDiff ℝ 2 φ) {k : ℝ} (hpde : HelmholtzSource k u φ)
    {ρ L K e : ℝ} (hL : Fifth u ρ L)
    (hK : 1 ≤ K) (hk : |k| ≤ K) {a b c d t n : ℝ} (hT : a ^ 2 + b ^ 2 = 1) (hN : c ^ 2 + d ^ 2 = 1) (ho : a * c + b * d = 0)
    {x y : Tab} (hy0 : ∀ m ≤ 4, y (m, 0) = iteratedDeriv m (fun t => u (t * a, t * b)) t)
    (hy1 : ∀ m ≤ 2, y (m, 1) = iteratedDeriv m (fun t => fderiv ℝ u (t * a, t * b) (c, d)) t) (hn : |n| ≤ 1)
    (hρ : |t| + |n| ≤ ρ) (hw : Weighted n e (x - y)) :
    ‖extendArbitrary k (radiusArgs n x) + lineSource k (pdFam φ) (t * a, t * b) a b c d n - u (t * a + n * c, t * b + n * d)‖ ≤
      7 * K ^ 4 * e + L * |n| ^ 5 := by
  have hJ : JetOn Set.univ 4 (pdFam u) :=
    jetOn_of_contDiffOn isOpen_univ (n := 4) ((hu.of_le (by norm_num)).contDiffOn)
  have hJF : JetOn Set.univ 2 (pdFam φ) := jetOn_of_contDiffOn isOpen_univ (n := 2) (by exact_mod_cast hφ.contDiffOn)
  have key := C31_line hJ hJF (k := k) (fun p _ => helmholtz_pdFam_source (hu.of_le (by norm_num)) hpde p)
    (p := (t * a, t * b)) (Set.mem_univ _) hT hN ho (x := y) (fun m hm => by
      rw [hy0 m hm, iteratedDeriv_shift]
      congr 1
      funext s
      show u _ = u _
      simp only [move]
      congr 1
      ext <;> ring) (fun m hm => by
      rw [hy1 m hm, iteratedDeriv_shift]
      congr 1
      funext s
      rw [dir1_pdFam]
      simp only [move]
      congr 2
      ext <;> ring) n
  change _ + lineSource k (pdFam φ) (t * a, t * b) a b c d n = _ at key
  have ha : |a| ≤ 1 := abs_le_one_iff_mul_self_le_one.2 (by nlinarith [sq_nonneg b])
  have hb : |b| ≤ 1 := abs_le_one_iff_mul_self_le_one.2 (by nlinarith [sq_nonneg a])
  have rem := remainder_bound hu hL (p := (t * a, t * b)) (n := n) hN
    (by rw [abs_mul]; have := mul_le_mul_of_nonneg_left ha (abs_nonneg t); linarith)
    (by rw [abs_mul]; have := mul_le_mul_of_nonneg_left hb (abs_nonneg t); linarith)
  have lin := (extendArbitrary_radius_lin k n).map_sub x y
  have b1 := extendRadius_bound hK hn hk hw
  have e : extendArbitrary k (radiusArgs n x) + lineSource k (pdFam φ) (t * a, t * b) a b c d n - u (t * a + n * c, t * b + n * d) =
      extendArbitrary k (radiusArgs n (x - y)) -
        (u (move (t * a, t * b) c d n) - taylorPoly 4 (fun s => u (move (t * a, t * b) c d s)) n) := by
    rw [lin, eq_sub_of_add_eq key]
    show _ - u (move (t * a, t * b) c d n) = _
    have : taylorPoly 4 (fun t_1 => pdFam u 0 0 (move (t * a, t * b) c d t_1)) n =
      taylorPoly 4 (fun s => u (move (t * a, t * b) c d s)) n := rfl
    rw [this]
    ring
  rw [e]
  exact norm_sub_le' b1 rem

/-- the outer curve -/
theorem outer_error {u φ : ℝ × ℝ → ℂ} (hu : ContDiff ℝ 6 u) (hφ : ContDiff ℝ 2 φ) {k : ℝ} (hpde : HelmholtzSource k u φ)
    {ρ L K e : ℝ} (hL : Fifth u ρ L)
    (hK : 1 ≤ K) (hk : |k| ≤ K) {a : ℝ} {r : ℝ → ℝ} (hr : ContDiff ℝ 5 r) (hp : ∀ t, 0 < r t ^ 2 + deriv r t ^ 2) {th n : ℝ}
    (hc : CurveBound r K th) {x : Tab} (hn : |n| ≤ 1) (hρ : |r th| + |n| ≤ ρ) (hw : Weighted n e (x - exactTab u a r 0 th)) :
    ‖extendPolar k (outerArgs r n th x) + outerSource k r φ n th -
        u (move (polarPoint (r th) th) (evalNormal r th).1 (evalNormal r th).2 n)‖ ≤
      7 * (2 * K ^ 3) ^ 4 * (15 * K ^ 4 * e) + L * |n| ^ 5 := by
  have hJ : JetOn Set.univ 4 (pdFam u) :=
    jetOn_of_contDiffOn isOpen_univ (n := 4) ((hu.of_le (by norm_num)).contDiffOn)
  have f0 : ContDiff ℝ (4 : ℕ) (cauchyData u a r 0 0) := cauchyData_contDiff (hu.of_le (by norm_num)) a (hr.of_le (by norm_num)) hp 0 0
  have f1 : ContDiff ℝ (4 : ℕ) (cauchyData u a r 0 1) := cauchyData_contDiff (hu.of_le (by norm_num)) a (hr.of_le (by norm_num)) hp 0 1
  have hJF : JetOn Set.univ 2 (pdFam φ) := jetOn_of_contDiffOn isOpen_univ (n := 2) (by exact_mod_cast hφ.contDiffOn)
  have hJP : JetOn Set.univ 2 (pdFam (inPolar φ)) :=
    jetOn_of_contDiffOn isOpen_univ (n := 2) (inPolar_contDiff (m := 2) (by exact_mod_cast hφ)).contDiffOn
  have key := C27_C28_outer (hr.of_le (by norm_num)) hp hJ hJF (k := k)
    (fun p _ => helmholtz_pdFam_source (hu.of_le (by norm_num)) hpde p) isOpen_univ (th := th) (Set.mem_univ _)
    (fun _ _ => Set.mem_univ _) (iterated_derivFam f0)
    (iterated_derivFam (n := 2) (f1.of_le (by norm_num))) (fun t _ => by rw [iteratedDeriv_zero]; rfl)
    (fun t _ => by rw [iteratedDeriv_zero, dir1_pdFam]; rfl) (P := pdFam (inPolar φ)) hJP (fun _ _ => Set.mem_univ _)
    (fun _ _ => rfl) n (x := exactTab u a r 0 th) (fun _ _ => rfl) (fun _ _ => rfl)
  simp only [] at key
  change _ + outerSource k r φ n th = _ at key
  have hN := (C45_frame (r := r) (th := th) (hr.differentiable (by norm_num) th) (hp th)).2.1
  have rem := remainder_bound (hu.of_le (by norm_num)) hL (p := polarPoint (r th) th) (n := n) hN (by
    show |r th * cos th| + |n| ≤ ρ
    rw [abs_mul]; have := mul_le_mul_of_nonneg_left (abs_cos_le_one th) (abs_nonneg (r th)); linarith) (by
    show |r th * sin th| + |n| ≤ ρ
    rw [abs_mul]; have := mul_le_mul_of_nonneg_left (abs_sin_le_one th) (abs_nonneg (r th)); linarith)
  have lin := (extendPolar_lin k r n th).map_sub x (exactTab u a r 0 th)
  have b1 := extendPolar_bound hK hn hk hc hw
  have e : extendPolar k (outerArgs r n th x) + outerSource k r φ n th -
      u (move (polarPoint (r th) th) (evalNormal r th).1 (evalNormal r th).2 n) =
      extendPolar k (outerArgs r n th (x - exactTab u a r 0 th)) -
        (u (move (polarPoint (r th) th) (evalNormal r th).1 (evalNormal r th).2 n) -
          taylorPoly 4 (fun s => u (move (polarPoint (r th) th) (evalNormal r th).1 (evalNormal r th).2 s)) n) := by
    rw [lin, eq_sub_of_add_eq key]
    have : taylorPoly 4 (fun t => pdFam u 0 0 (move (polarPoint (r th) th) (evalNormal r th).1 (evalNormal r th).2 t)) n =
      taylorPoly 4 (fun s => u (move (polarPoint (r th) th) (evalNormal r th).1 (evalNormal r th).2 s)) n := rfl
    rw [this]
    ring
  rw [e]
  exact norm_sub_le' b1 rem

end Pot
