import Verif.Proofs.TaylorN
import Verif.Proofs.ExtendLinear
import Verif.Props.Basis

/-! # Property C32: the corner (left/right) Taylor extension -/

namespace Pot
open Spec Finset Real

/-- the expansion of one trace (`index` 0: value, 1: normal derivative) on a segment: the combination of the basis
functions of that segment with the coefficients of the data -/
noncomputable def trace (s : PSolver) (src : XiSrc) (sid : Fin 3) (index : Fin 2) (t : ℝ) : ℂ :=
  ∑ JJ ∈ range s.bas.bDesc.length, src.val index JJ *
    (((s.bas.bDesc[JJ]?).elim 0 fun b => if b.sid = sid then basisFn s.eps s.e.a s.e.R sid b.J t else 0 : ℝ) : ℂ)

theorem basisFn_deriv (eps a R : ℝ) (sid : Fin 3) (J m : ℕ) (t : ℝ) :
    HasDerivAt (iteratedDeriv m (basisFn eps a R sid J)) (iteratedDeriv (m + 1) (basisFn eps a R sid J) t) t := by
  rw [iteratedDeriv_succ]
  refine DifferentiableAt.hasDerivAt ?_
  rw [basisFn_eq, iteratedDeriv_affine]
  have h1 : DifferentiableAt ℝ (fun x : ℝ => (x - (spanCenter eps a R sid).2) * evalDGInv eps a R sid) t := by fun_prop
  exact (((Polynomial.derivative^[m] (Polynomial.Chebyshev.T ℝ J)).differentiable.differentiableAt.comp t h1)).const_mul _

/-- the derivatives of the trace -/
noncomputable def traceFam (s : PSolver) (src : XiSrc) (sid : Fin 3) (index : Fin 2) (m : ℕ) (t : ℝ) : ℂ :=
  ∑ JJ ∈ range s.bas.bDesc.length, src.val index JJ *
    (((s.bas.bDesc[JJ]?).elim 0 fun b =>
      if b.sid = sid then iteratedDeriv m (basisFn s.eps s.e.a s.e.R sid b.J) t else 0 : ℝ) : ℂ)

theorem traceFam_deriv (s : PSolver) (src : XiSrc) (sid : Fin 3) (index : Fin 2) (n : ℕ) :
    DerivFam n Set.univ (traceFam s src sid index) := by
  intro m _ t _
  unfold traceFam
  refine HasDerivAt.fun_sum fun JJ _ => HasDerivAt.const_mul _ (HasDerivAt.ofReal_comp ?_)
  rcases s.bas.bDesc[JJ]? with _ | b
  · exact hasDerivAt_const t 0
  · simp only [Option.elim]
    by_cases h : b.sid = sid
    · simp only [if_pos h]; exact basisFn_deriv _ _ _ _ _ _ _
    · simp only [if_neg h]; exact hasDerivAt_const t 0

theorem traceFam_eq (s : PSolver) (src : XiSrc) (sid : Fin 3) (index : Fin 2) (m : ℕ) (t : ℝ) :
    iteratedDeriv m (trace s src sid index) t = traceFam s src sid index m t := by
  have e : trace s src sid index = traceFam s src sid index 0 := by
    funext t; simp [trace, traceFam]
  rw [e]
  exact DerivFam.iterated isOpen_univ (traceFam_deriv s src sid index m) m le_rfl t (Set.mem_univ t)

/-- on the physical part of a segment, the derivatives the code computes are the derivatives of the trace -/
theorem xiTab_eq (s : PSolver) (src : XiSrc) (he : 0 < s.eps) (ha : s.e.a < 2 * π) (hR : 0 < s.e.R) {sid : Fin 3}
    {arg : ℝ} (harg : arg ∈ physical s.e.a s.e.R sid) {m : ℕ} (hm : m ≤ 5) (index : Fin 2) :
    xiTab s src arg sid (m, index) = iteratedDeriv m (trace s src sid index) arg := by
  rw [traceFam_eq]
  unfold xiTab traceFam
  refine sum_congr rfl fun JJ hJ => ?_
  congr 2
  have hJ' : JJ < s.bas.bDesc.length := mem_range.1 hJ
  have hb := List.getElem?_eq_getElem hJ'
  rw [hb]
  simp only [Option.elim]
  unfold bval
  by_cases h : s.bas.bDesc[JJ].sid = sid
  · subst h
    rw [C39_derivative he ha hR s.bas.bDesc JJ _ hb m hm harg, if_pos rfl]
  · rw [C39_other_segment _ _ _ hb m arg sid h, if_neg h]

/-! ## The Taylor shift -/

/-- **C32** the shifted entries are the derivatives, at the displacement, of the degree-4 Taylor polynomial of the
data. -/
theorem C32_shift (x : Tab) (δ : ℝ) (m : ℕ) (hm : m ≤ 4) (i : Fin 2) :
    shiftTab x δ (m, i) =
      iteratedDeriv m (fun u : ℝ => ∑ l ∈ range 5, x (l, i) / (l.factorial : ℂ) * (u : ℂ) ^ l) δ := by
  have fam : DerivFam 4 Set.univ fun m (u : ℝ) =>
      ∑ l ∈ range (5 - m), x (m + l, i) / (l.factorial : ℂ) * (u : ℂ) ^ l := by
    intro j hj u _
    have := poly_deriv (fun l => x (j + l, i)) (4 - j) u
    beta_reduce
    rw [show 5 - j = 4 - j + 1 by omega, show 5 - (j + 1) = 4 - j by omega]
    refine this.congr_deriv (sum_congr rfl fun l _ => ?_)
    rw [show j + (l + 1) = j + 1 + l by omega]
  have := DerivFam.iterated isOpen_univ fam m hm δ (Set.mem_univ δ)
  simp only [Nat.sub_zero, zero_add] at this
  rw [this]
  unfold shiftTab
  simp only [taylorNTerms]
  refine sum_congr rfl fun l _ => ?_
  push_cast
  ring

/-- **C32** without displacement nothing changes. -/
theorem C32_zero (x : Tab) {t : ℕ × Fin 2} (ht : t.1 ≤ 4) : shiftTab x 0 t = x t := by
  obtain ⟨m, i⟩ := t
  simp only [shiftTab, taylorNTerms]
  rw [sum_eq_single 0]
  · simp
  · intro b _ hb; simp [hb]
  · intro h; simp at h ht; omega

/-- **C32** accuracy of the shift: for data `X` with derivatives along the displacement, the error in the `m`-th
derivative is at most `M |δ|^(5-m) / (5-m)!`, `M` bounding the fifth derivative. -/
theorem C32_accuracy {x : Tab} {X : ℕ → ℝ → ℂ} {arg δ M : ℝ} {i : Fin 2} (hx : ∀ l ≤ 4, x (l, i) = X l arg)
    (hX : ∀ l < 5, ∀ t, |t| ≤ |δ| → 0 ≤ t * δ → HasDerivAt (X l) (X (l + 1) (arg + t)) (arg + t))
    (hM : ∀ t, |t| ≤ |δ| → 0 ≤ t * δ → ‖X 5 (arg + t)‖ ≤ M) {m : ℕ} (hm : m ≤ 4) :
    ‖X m (arg + δ) - shiftTab x δ (m, i)‖ ≤ M / ((5 - m).factorial : ℝ) * |δ| ^ (5 - m) := by
  have h := taylorN (5 - m) (g := fun l t => X (m + l) (arg + t)) (n := δ) (M := M)
    (fun l hl t h1 h2 => by
      have := (hX (m + l) (by omega) t h1 h2).comp_const_add arg t
      exact this)
    (fun t h1 h2 => by rw [show m + (5 - m) = 5 by omega]; exact hM t h1 h2)
  refine le_trans (le_of_eq ?_) h
  congr 2
  unfold shiftTab
  simp only [taylorNTerms, add_zero]
  refine sum_congr rfl fun l hl => ?_
  rw [mem_range] at hl
  rw [hx _ (by omega)]
  push_cast
  ring

/-- **C32** data that is a polynomial of degree at most four along the segment (all fifth derivatives zero) is
reproduced exactly. -/
theorem C32_exact {x : Tab} {X : ℕ → ℝ → ℂ} {arg δ : ℝ} {i : Fin 2} (hx : ∀ l ≤ 4, x (l, i) = X l arg)
    (hX : DerivFam 5 Set.univ X) (h5 : ∀ t, X 5 t = 0) {m : ℕ} (hm : m ≤ 4) :
    shiftTab x δ (m, i) = X m (arg + δ) := by
  have := C32_accuracy (δ := δ) (M := 0) hx (fun l hl t _ _ => hX l hl _ (Set.mem_univ _))
    (fun t _ _ => by rw [h5]; simp) hm
  rw [zero_div, zero_mul] at this
  exact (sub_eq_zero.1 (norm_le_zero_iff.1 this)).symm

/-! ## The corner extensions of the solver -/

/-- the degree-4 Taylor polynomial, about `arg0`, of a trace -/
noncomputable def traceTaylor (s : PSolver) (src : XiSrc) (sid : Fin 3) (arg0 : ℝ) (index : Fin 2) (t : ℝ) : ℂ :=
  ∑ l ∈ range 5, iteratedDeriv l (trace s src sid index) arg0 / (l.factorial : ℂ) * ((t - arg0 : ℝ) : ℂ) ^ l

theorem shift_trace (s : PSolver) (src : XiSrc) (he : 0 < s.eps) (ha : s.e.a < 2 * π) (hR : 0 < s.e.R) {sid : Fin 3}
    {arg0 : ℝ} (h0 : arg0 ∈ physical s.e.a s.e.R sid) (arg : ℝ) {m : ℕ} (hm : m ≤ 4) (i : Fin 2) :
    shiftTab (xiTab s src arg0 sid) (arg - arg0) (m, i) = iteratedDeriv m (traceTaylor s src sid arg0 i) arg := by
  rw [C32_shift _ _ _ hm]
  have e : traceTaylor s src sid arg0 i = fun t => (fun u : ℝ => ∑ l ∈ range 5,
      xiTab s src arg0 sid (l, i) / (l.factorial : ℂ) * (u : ℂ) ^ l) (t - arg0) := by
    funext t
    unfold traceTaylor
    refine sum_congr rfl fun l hl => ?_
    rw [xiTab_eq s src he ha hR h0 (by rw [mem_range] at hl; omega)]
  rw [e]
  exact (congrFun (iteratedDeriv_comp_sub_const m (fun u : ℝ => ∑ l ∈ range 5,
    xiTab s src arg0 sid (l, i) / (l.factorial : ℂ) * (u : ℂ) ^ l) arg0) arg).symm

theorem radiusArgs_congr {x y : Tab} (h : ∀ m ≤ 4, ∀ i, x (m, i) = y (m, i)) (n : ℝ) :
    radiusArgs n x = radiusArgs n y := by
  unfold radiusArgs
  rw [h 0 (by norm_num), h 0 (by norm_num), h 1 (by norm_num), h 1 (by norm_num), h 2 (by norm_num),
    h 2 (by norm_num), h 4 (by norm_num)]

theorem outerArgs_congr {x y : Tab} (h : ∀ m ≤ 4, ∀ i, x (m, i) = y (m, i)) (r : ℝ → ℝ) (n th : ℝ) :
    outerArgs r n th x = outerArgs r n th y := by
  unfold outerArgs
  rw [h 0 (by norm_num), h 0 (by norm_num), h 1 (by norm_num), h 1 (by norm_num), h 2 (by norm_num),
    h 2 (by norm_num), h 3 (by norm_num), h 4 (by norm_num)]

/-- the table of derivatives of the Taylor polynomials of the two traces -/
noncomputable def taylorTab (s : PSolver) (src : XiSrc) (sid : Fin 3) (arg0 arg : ℝ) : Tab := fun t =>
  iteratedDeriv t.1 (traceTaylor s src sid arg0 t.2) arg

variable (s : PSolver) {src : XiSrc} {nd : Node}

/-- **C32** beyond an end of a segment the corner extension is the standard formula applied to the degree-4 Taylor
polynomials, about that end, of the two traces: outer boundary. -/
theorem C32_outer (hv : src.Valid s.bas.bDesc) (he : 0 < s.eps) (ha : s.e.a < 2 * π) (hR : 0 < s.e.R) {c : ℝ × ℝ}
    (hc : s.cache nd = some (some c)) :
    doExtend s src 0 .left nd = .ok (|c.2 - s.e.a| * s.e.R + |c.1|,
      extendPolar s.k (outerArgs s.e.evalR c.1 c.2 (taylorTab s src 0 s.e.a c.2))) ∧
    doExtend s src 0 .right nd = .ok (|c.2 - 2 * π| * s.e.R + |c.1|,
      extendPolar s.k (outerArgs s.e.evalR c.1 c.2 (taylorTab s src 0 (2 * π) c.2))) := by
  have p1 : s.e.a ∈ physical s.e.a s.e.R 0 := by
    unfold physical; rw [if_pos rfl]; exact ⟨le_rfl, ha.le⟩
  have p2 : 2 * π ∈ physical s.e.a s.e.R 0 := by
    unfold physical; rw [if_pos rfl]; exact ⟨ha.le, le_rfl⟩
  refine ⟨(doExtend0Left_ok s hv hc).trans ?_, (doExtend0Right_ok s hv hc).trans ?_⟩
  · rw [outerArgs_congr (y := taylorTab s src 0 s.e.a c.2) fun m hm i => shift_trace s src he ha hR p1 c.2 hm i]
  · rw [outerArgs_congr (y := taylorTab s src 0 (2 * π) c.2) fun m hm i => shift_trace s src he ha hR p2 c.2 hm i]

/-- **C32** lower wedge side. -/
theorem C32_lower (hv : src.Valid s.bas.bDesc) (he : 0 < s.eps) (ha : s.e.a < 2 * π) (hR : 0 < s.e.R) :
    doExtend s src 1 .left nd = .ok (|(s.e.coord nd).1| + |(s.e.coord nd).2|,
      extendArbitrary s.k (radiusArgs (s.e.coord nd).2 (taylorTab s src 1 0 (s.e.coord nd).1))) ∧
    doExtend s src 1 .right nd = .ok (|(s.e.coord nd).1 - s.e.R| + |(s.e.coord nd).2|,
      extendArbitrary s.k (radiusArgs (s.e.coord nd).2 (taylorTab s src 1 s.e.R (s.e.coord nd).1))) := by
  have p1 : (0 : ℝ) ∈ physical s.e.a s.e.R 1 := by
    unfold physical; rw [if_neg (by decide)]; exact ⟨le_rfl, hR.le⟩
  have p2 : s.e.R ∈ physical s.e.a s.e.R 1 := by
    unfold physical; rw [if_neg (by decide)]; exact ⟨hR.le, le_rfl⟩
  refine ⟨(doExtend1Left_ok s hv).trans ?_, (doExtend1Right_ok s hv).trans ?_⟩
  · have := fun m hm i => shift_trace s src he ha hR p1 (s.e.coord nd).1 (m := m) hm i
    rw [sub_zero] at this
    rw [radiusArgs_congr (y := taylorTab s src 1 0 (s.e.coord nd).1) this]
  · rw [radiusArgs_congr (y := taylorTab s src 1 s.e.R (s.e.coord nd).1)
      fun m hm i => shift_trace s src he ha hR p2 (s.e.coord nd).1 hm i]

/-- position of the foot point along the line of the upper wedge side -/
noncomputable def along2 (s : PSolver) (nd : Node) : ℝ :=
  (s.e.coord nd).1 * cos s.e.a + (s.e.coord nd).2 * sin s.e.a

theorem foot2_along (h0 : 0 < s.e.a) (hπ : s.e.a < π) :
    foot2 s nd = (along2 s nd * cos s.e.a, along2 s nd * sin s.e.a) := by
  unfold foot2; rw [getRadiusPoint_eq _ _ _ h0 hπ]; rfl

theorem etype2 (h0 : 0 < s.e.a) (hπ : s.e.a < π) :
    getEtype s.e s.cache 2 nd = .ok (if along2 s nd < 0 then .left else if along2 s nd > s.e.R then .right
      else .standard) := by
  have hs := sin_pos_of_pos_of_lt_pi h0 hπ
  have h1 : getEtype s.e s.cache 2 nd = (getRadiusPointPy s.e.a 2 (s.e.coord nd).1 (s.e.coord nd).2 >>= fun p =>
      (pure (if p.2 < 0 then .left else if p.2 > s.e.R * sin s.e.a then .right else .standard) : Py EType)) := rfl
  rw [h1, grp_ok, ok_bind, pure_eq_ok]
  change Except.ok (if (foot2 s nd).2 < 0 then EType.left else if (foot2 s nd).2 > s.e.R * sin s.e.a then .right
    else .standard) = _
  rw [foot2_along s h0 hπ]
  have e1 : along2 s nd * sin s.e.a < 0 ↔ along2 s nd < 0 := by
    constructor
    · intro h; by_contra hc; push Not at hc; nlinarith
    · intro h; nlinarith
  have e2 : along2 s nd * sin s.e.a > s.e.R * sin s.e.a ↔ along2 s nd > s.e.R := mul_lt_mul_iff_left₀ hs
  by_cases c1 : along2 s nd < 0
  · rw [if_pos (e1.2 c1), if_pos c1]
  · rw [if_neg (fun h => c1 (e1.1 h)), if_neg c1]
    by_cases c2 : along2 s nd > s.e.R
    · rw [if_pos (e2.2 c2), if_pos c2]
    · rw [if_neg (fun h => c2 (e2.1 h)), if_neg c2]

/-- **C32** upper wedge side: the argument is the signed position of the foot point along the side. -/
theorem C32_upper (hv : src.Valid s.bas.bDesc) (he : 0 < s.eps) (h0 : 0 < s.e.a) (hπ : s.e.a < π) (hR : 0 < s.e.R) :
    (getEtype s.e s.cache 2 nd = .ok .left → doExtend s src 2 .left nd = .ok (|along2 s nd| + |sdist2 s nd|,
      extendArbitrary s.k (radiusArgs (sdist2 s nd) (taylorTab s src 2 0 (along2 s nd))))) ∧
    (getEtype s.e s.cache 2 nd = .ok .right → doExtend s src 2 .right nd = .ok (|along2 s nd - s.e.R| + |sdist2 s nd|,
      extendArbitrary s.k (radiusArgs (sdist2 s nd) (taylorTab s src 2 s.e.R (along2 s nd))))) := by
  have ha : s.e.a < 2 * π := by linarith [pi_pos]
  have p1 : (0 : ℝ) ∈ physical s.e.a s.e.R 2 := by
    unfold physical; rw [if_neg (by decide)]; exact ⟨le_rfl, hR.le⟩
  have p2 : s.e.R ∈ physical s.e.a s.e.R 2 := by
    unfold physical; rw [if_neg (by decide)]; exact ⟨hR.le, le_rfl⟩
  have hsc := sin_sq_add_cos_sq s.e.a
  rw [etype2 s h0 hπ]
  constructor
  · intro h
    have hlt : along2 s nd < 0 := by
      by_contra hc
      rw [if_neg hc] at h
      split_ifs at h <;> simp at h
    refine (doExtend2Left_ok s hv).trans ?_
    have hd : -√((foot2 s nd).1 ^ 2 + (foot2 s nd).2 ^ 2) = along2 s nd := by
      rw [foot2_along s h0 hπ]
      rw [show (along2 s nd * cos s.e.a) ^ 2 + (along2 s nd * sin s.e.a) ^ 2 = along2 s nd ^ 2 by
        linear_combination along2 s nd ^ 2 * hsc, sqrt_sq_eq_abs, abs_of_neg hlt, neg_neg]
    have := fun m hm i => shift_trace s src he ha hR p1 (along2 s nd) (m := m) hm i
    rw [sub_zero] at this
    rw [hd, radiusArgs_congr (y := taylorTab s src 2 0 (along2 s nd)) this]
  · intro h
    have hlt : along2 s nd > s.e.R := by
      by_contra hc
      rw [if_neg hc] at h
      split_ifs at h <;> simp at h
    refine (doExtend2Right_ok s hv).trans ?_
    have hd : over2 s nd = along2 s nd - s.e.R := by
      unfold over2
      rw [foot2_along s h0 hπ]
      rw [show (along2 s nd * cos s.e.a - s.e.R * cos s.e.a) ^ 2 + (along2 s nd * sin s.e.a - s.e.R * sin s.e.a) ^ 2 =
        (along2 s nd - s.e.R) ^ 2 by
        linear_combination (along2 s nd - s.e.R) ^ 2 * hsc, sqrt_sq_eq_abs,
        abs_of_pos (by linarith)]
    rw [hd, radiusArgs_congr (y := taylorTab s src 2 s.e.R (along2 s nd))
      fun m hm i => shift_trace s src he ha hR p2 (along2 s nd) hm i]

theorem cartToPolar_radius (x y : ℝ) : (cartToPolar x y).1 = √(x ^ 2 + y ^ 2) := by
  unfold cartToPolar; simp only; split_ifs <;> rfl

/-- **C32** where a node's foot point is exactly an end of a segment, the corner extension and the standard extension
agree, in value and in length. -/
theorem C32_standard (hv : src.Valid s.bas.bDesc) :
    (∀ c, s.cache nd = some (some c) → c.2 = s.e.a → doExtend s src 0 .left nd = doExtend s src 0 .standard nd) ∧
    (∀ c, s.cache nd = some (some c) → c.2 = 2 * π → doExtend s src 0 .right nd = doExtend s src 0 .standard nd) ∧
    ((s.e.coord nd).1 = 0 → doExtend s src 1 .left nd = doExtend s src 1 .standard nd) ∧
    ((s.e.coord nd).1 = s.e.R → doExtend s src 1 .right nd = doExtend s src 1 .standard nd) ∧
    (foot2 s nd = (0, 0) → doExtend s src 2 .left nd = doExtend s src 2 .standard nd) ∧
    (0 ≤ s.e.R → foot2 s nd = (s.e.R * cos s.e.a, s.e.R * sin s.e.a) →
      doExtend s src 2 .right nd = doExtend s src 2 .standard nd) := by
  have hz : ∀ x : Tab, ∀ m ≤ 4, ∀ i, shiftTab x 0 (m, i) = x (m, i) := fun x m hm i => C32_zero x hm
  refine ⟨fun c hc h => ?_, fun c hc h => ?_, fun h => ?_, fun h => ?_, fun h => ?_, fun hR h => ?_⟩
  · refine (doExtend0Left_ok s hv hc).trans (Eq.trans ?_ (doExtend0Standard_ok s hv hc).symm)
    rw [h, sub_self, outerArgs_congr (hz _)]; simp
  · refine (doExtend0Right_ok s hv hc).trans (Eq.trans ?_ (doExtend0Standard_ok s hv hc).symm)
    rw [h, sub_self, outerArgs_congr (hz _)]; simp
  · refine (doExtend1Left_ok s hv).trans (Eq.trans ?_ (doExtend1Standard_ok s hv).symm)
    rw [h, radiusArgs_congr (hz _)]; simp
  · refine (doExtend1Right_ok s hv).trans (Eq.trans ?_ (doExtend1Standard_ok s hv).symm)
    rw [h, sub_self, radiusArgs_congr (hz _)]; simp
  · refine (doExtend2Left_ok s hv).trans (Eq.trans ?_ (doExtend2Standard_ok s hv).symm)
    rw [h]
    simp only [ne_eq, OfNat.ofNat_ne_zero, not_false_eq_true, zero_pow, add_zero, sqrt_zero, neg_zero, abs_zero,
      zero_add]
    rw [radiusArgs_congr (hz _)]
    rw [cartToPolar_radius]; simp
  · refine (doExtend2Right_ok s hv).trans (Eq.trans ?_ (doExtend2Standard_ok s hv).symm)
    have : over2 s nd = 0 := by unfold over2; rw [h]; simp
    rw [this, radiusArgs_congr (hz _), h]
    have e : (cartToPolar (s.e.R * cos s.e.a) (s.e.R * sin s.e.a)).1 = s.e.R := by
      rw [cartToPolar_radius, show (s.e.R * cos s.e.a) ^ 2 + (s.e.R * sin s.e.a) ^ 2 = s.e.R ^ 2 by
        linear_combination s.e.R ^ 2 * sin_sq_add_cos_sq s.e.a, sqrt_sq hR]
    rw [e]; simp

/-! ## Concrete cases -/

/-- C32: the quadratic `t²` about `1`, displaced by `3`: value `16`, derivative `8` -/
example : shiftTab (fun t => if t.1 = 0 then 1 else if t.1 = 1 then 2 else if t.1 = 2 then 2 else 0) 3 (0, 0) = 16 ∧
    shiftTab (fun t => if t.1 = 0 then 1 else if t.1 = 1 then 2 else if t.1 = 2 then 2 else 0) 3 (1, 0) = 8 := by
  have fam : DerivFam 5 Set.univ
      (fun m (t : ℝ) => if m = 0 then (t : ℂ) ^ 2 else if m = 1 then 2 * (t : ℂ) else if m = 2 then 2 else 0) := by
    intro i hi s _
    obtain rfl | rfl | h : i = 0 ∨ i = 1 ∨ 2 ≤ i := by omega
    · simpa using hasDerivAt_cpow' 1 1 s
    · simpa using hasDerivAt_cpow' 2 0 s
    · have h0 : i ≠ 0 := by omega
      have h1 : i ≠ 1 := by omega
      simpa [h0, h1] using hasDerivAt_const s (if i = 2 then (2 : ℂ) else 0)
  constructor
  · rw [C32_exact (arg := 1) (δ := 3) (i := 0) (m := 0) (fun l _ => by simp) fam (fun t => by simp) (by norm_num)]
    norm_num
  · rw [C32_exact (arg := 1) (δ := 3) (i := 0) (m := 1) (fun l _ => by simp) fam (fun t => by simp) (by norm_num)]
    norm_num

/-- a solver on the grid of spacing 1 around the origin: quarter-plane wedge removed from a disc of radius 2, one basis
function per segment, wave number 1; every node is cached with the normal coordinates `(1, π)`, which are those of
`(-3, 0)` -/
noncomputable def exSolver (src : Source) : PSolver where
  e := { N := 8, AD := 8, a := π / 2, R := 2, evalR := fun _ => 2, bcoord := fun _ _ => none }
  order := 4
  k := 1
  eps := 1
  bas := setupBasis 1 1
  G := { N0 := ∅, M0 := ∅, Mplus := ∅, Mminus := ∅, Kplus := ∅, Nplus := ∅, Nminus := ∅, unionGamma := [],
         allGamma := fun _ => [] }
  cache := fun _ => some (some (1, π))
  src := src

theorem exSolver_bDesc (src : Source) : (exSolver src).bas.bDesc = [⟨0, 0⟩, ⟨0, 1⟩, ⟨0, 2⟩] := by
  simp [exSolver, setupBasis, nBasisBySid]

theorem exSolver_coord (src : Source) (nd : Node) : (exSolver src).e.coord nd = ((nd.1 : ℝ) - 4, (nd.2 : ℝ) - 4) := by
  simp only [exSolver, Env.coord, getCoord]
  ext <;> push_cast <;> ring

/-- C32: the constant basis function on the lower side at the node `(-1, 1)` beyond the origin, and at `(3, 1)` beyond the
outer end -/
example (src : Source) := C32_lower (exSolver src) (src := .basis 1 0) (nd := (3, 5))
  (by show 1 < _; rw [exSolver_bDesc]; simp) (by norm_num [exSolver]) (by simp only [exSolver]; linarith [pi_pos])
  (by norm_num [exSolver])

/-- C32: the node `(-1, -3)` is beyond the origin end of the upper side, `(1, 3)` beyond its outer end -/
example (src : Source) : getEtype (exSolver src).e (exSolver src).cache 2 (3, 1) = .ok .left ∧
    getEtype (exSolver src).e (exSolver src).cache 2 (5, 7) = .ok .right := by
  have h0 : 0 < (exSolver src).e.a := by simp only [exSolver]; linarith [pi_pos]
  have h1 : (exSolver src).e.a < π := by simp only [exSolver]; linarith [pi_pos]
  rw [etype2 _ h0 h1, etype2 _ h0 h1]
  unfold along2
  rw [exSolver_coord, exSolver_coord]
  simp [exSolver]
  norm_num

end Pot
