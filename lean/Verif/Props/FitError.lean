import Verif.Proofs.ChebFit
import Verif.Props.Corner
import Verif.Props.Coord
import Verif.Props.Run
import Verif.Model.Debug
import Verif.Proofs.MapM

/-! # C83: error of the Chebyshev fit of the boundary data -/

namespace Pot
open Real Spec Finset
open Polynomial (derivative)

section
variable {eps a R : ℝ}

theorem spanCenter_abs (he : 0 < eps) (ha : a < 2 * π) (hR : 0 < R) (sid : Fin 3) :
    |(spanCenter eps a R sid).1| = halfWidth eps a R sid ∧ 0 < halfWidth eps a R sid := by
  have h1 : 0 < π - a / 2 + eps := by linarith
  have h2 : 0 < R / 2 + eps := by linarith
  have e : π - 1 / 2 * a + eps = π - a / 2 + eps := by ring
  fin_cases sid
  · simp only [spanCenter, halfWidth, Fin.zero_eta, Fin.isValue, if_true, zero_ne_one, if_false]
    rw [e]
    exact ⟨abs_of_pos h1, h1⟩
  · simp only [spanCenter, halfWidth, Fin.mk_one, Fin.isValue, if_true, one_ne_zero, if_false]
    rw [abs_neg]
    exact ⟨abs_of_pos h2, h2⟩
  · simp only [spanCenter, halfWidth, Fin.reduceFinMk, Fin.isValue, Fin.reduceEq, if_false]
    exact ⟨abs_of_pos h2, h2⟩

theorem mem_enlarged (sid : Fin 3) (x : ℝ) :
    x ∈ enlarged eps a R sid ↔ |x - (spanCenter eps a R sid).2| ≤ halfWidth eps a R sid := by
  rw [abs_le]
  fin_cases sid
  · simp only [spanCenter, halfWidth, enlarged, Fin.zero_eta, Fin.isValue, if_true, zero_ne_one, if_false, Set.mem_Icc]
    constructor <;> rintro ⟨h1, h2⟩ <;> constructor <;> linarith
  · simp only [spanCenter, halfWidth, enlarged, Fin.mk_one, Fin.isValue, if_true, one_ne_zero, if_false, Set.mem_Icc]
    constructor <;> rintro ⟨h1, h2⟩ <;> constructor <;> linarith
  · simp only [spanCenter, halfWidth, enlarged, Fin.reduceFinMk, Fin.isValue, Fin.reduceEq, if_false, Set.mem_Icc]
    constructor <;> rintro ⟨h1, h2⟩ <;> constructor <;> linarith

theorem physical_enlarged (he : 0 ≤ eps) (sid : Fin 3) {x : ℝ} (hx : x ∈ physical a R sid) : x ∈ enlarged eps a R sid := by
  unfold physical at hx
  unfold enlarged
  split at hx <;> rename_i h
  · rw [if_pos h]; exact ⟨by linarith [hx.1], by linarith [hx.2]⟩
  · rw [if_neg h]; exact ⟨by linarith [hx.1], by linarith [hx.2]⟩

theorem segSeries_cheb (sid : Fin 3) (c : List ℂ) (x : ℝ) :
    segSeries eps a R sid c x = chebSeries c ((x - (spanCenter eps a R sid).2) * evalDGInv eps a R sid) := by
  unfold segSeries chebSeries
  congr 2
  funext p
  rw [basisFn_eq]

/-- derivatives of a series -/
noncomputable def segFam (eps a R : ℝ) (sid : Fin 3) (c : List ℂ) (m : ℕ) (x : ℝ) : ℂ :=
  ∑ i ∈ range c.length, c.getD i 0 * ((iteratedDeriv m (basisFn eps a R sid i) x : ℝ) : ℂ)

theorem segFam_deriv (sid : Fin 3) (c : List ℂ) (n : ℕ) : DerivFam n Set.univ (segFam eps a R sid c) := by
  intro m _ x _
  exact HasDerivAt.fun_sum fun i _ => (HasDerivAt.ofReal_comp (basisFn_deriv eps a R sid i m x)).const_mul _

theorem segFam_eq (sid : Fin 3) (c : List ℂ) (m : ℕ) (x : ℝ) :
    iteratedDeriv m (segSeries eps a R sid c) x = segFam eps a R sid c m x := by
  have e : segSeries eps a R sid c = segFam eps a R sid c 0 := by
    funext x
    rw [segSeries, zipIdx_sum (0 : ℂ), segFam]
    simp
  rw [e]
  exact DerivFam.iterated isOpen_univ (segFam_deriv sid c m) m le_rfl x (Set.mem_univ x)

/-- derivatives of a basis function on the enlarged segment -/
theorem basisFn_deriv_le (he : 0 < eps) (ha : a < 2 * π) (hR : 0 < R) (sid : Fin 3) (J m : ℕ) {x : ℝ}
    (hx : x ∈ enlarged eps a R sid) :
    |iteratedDeriv m (basisFn eps a R sid J) x| ≤ (J : ℝ) ^ (2 * m) / halfWidth eps a R sid ^ m := by
  obtain ⟨h1, h2⟩ := spanCenter_abs he ha hR sid
  rw [mem_enlarged] at hx
  rw [basisFn_eq, iteratedDeriv_affine]
  have ed : |evalDGInv eps a R sid| = 1 / halfWidth eps a R sid := by
    rw [evalDGInv, abs_div, abs_one, h1]
  have ht : |(x - (spanCenter eps a R sid).2) * evalDGInv eps a R sid| ≤ 1 := by
    rw [abs_mul, ed, mul_one_div]
    exact div_le_one_of_le₀ hx h2.le
  simp only
  rw [abs_mul, abs_pow, ed, one_div, inv_pow, div_eq_inv_mul]
  exact mul_le_mul_of_nonneg_left (T_deriv_le J m ht) (by positivity)

/-- **C83** the error of the Chebyshev fit: if the data has `n` derivatives, `n` the number of basis functions of the segment, the
`n`-th at most `M` on the enlarged segment, then the fit and its derivatives are close to the data there. -/
theorem C83_fit (he : 0 < eps) (ha : a < 2 * π) (hR : 0 < R) {fit : Chebfit} (hfit : IsChebfit fit) (bas : Basis) (sid : Fin 3)
    (s : SegDesc) (hs : bas.segDesc[sid.val]? = some s) (J : ℕ) (h1 : 1 ≤ s.nBasis) (hJ : s.nBasis ≤ J) {func : ℝ → ℂ}
    (hf : ContDiff ℝ s.nBasis func) {M : ℝ} (hM : ∀ x ∈ enlarged eps a R sid, ‖iteratedDeriv s.nBasis func x‖ ≤ M) :
    ∃ c, chebCoef eps a R fit (chebRoots J) bas sid func = .ok c ∧ c.length = s.nBasis ∧
      ∀ m ≤ s.nBasis, ∀ x ∈ enlarged eps a R sid,
        ‖iteratedDeriv m (segSeries eps a R sid c) x - iteratedDeriv m func x‖ ≤
          (1 + 4 * (s.nBasis : ℝ) ^ (2 * m + 1)) * (M * halfWidth eps a R sid ^ (s.nBasis - m) / (s.nBasis - m).factorial) := by
  obtain ⟨n, L⟩ := s
  simp only at *
  obtain ⟨hw, hw0⟩ := spanCenter_abs he ha hR sid
  set w := halfWidth eps a R sid with hwdef
  set x0 := (spanCenter eps a R sid).2 with hx0
  set y := (chebRoots J).map fun t => func (evalG eps a R sid t) with hy
  obtain ⟨hl, hmin⟩ := hfit (chebRoots J) y n (by simp [y]) h1
  set c := fit (chebRoots J) y n with hc
  refine ⟨c, ?_, hl, ?_⟩
  · simp only [chebCoef, hs, pure_eq_ok, throw_eq_error]
    rw [if_neg (by omega)]
  have hx0m : x0 ∈ enlarged eps a R sid := by
    rw [mem_enlarged, ← hx0, sub_self, abs_zero]; exact hw0.le
  have hM0 : 0 ≤ M := (norm_nonneg _).trans (hM x0 hx0m)
  -- the Taylor polynomial of the data at the centre
  set q : ℕ → ℝ → ℂ := fun m z => ∑ j ∈ range (n - m), iteratedDeriv (m + j) func x0 / (j.factorial : ℂ) * (z : ℂ) ^ j with hq
  have hq1 : ∀ m < n, ∀ z, HasDerivAt (q m) (q (m + 1) z) z := by
    intro m hm z
    have := poly_deriv (fun j => iteratedDeriv (m + j) func x0) (n - (m + 1)) z
    rw [show n - (m + 1) + 1 = n - m by omega] at this
    convert! this using 1
    simp only [hq]
    refine sum_congr rfl fun j _ => ?_
    rw [show m + 1 + j = m + (j + 1) by ring]
  have hder : ∀ i < n, ∀ z, HasDerivAt (iteratedDeriv i func) (iteratedDeriv (i + 1) func z) z := by
    intro i hi z
    rw [iteratedDeriv_succ]
    exact ((hf.differentiable_iteratedDeriv i (by exact_mod_cast hi)) z).hasDerivAt
  have htaylor : ∀ m ≤ n, ∀ x ∈ enlarged eps a R sid,
      ‖iteratedDeriv m func x - q m (x - x0)‖ ≤ M * w ^ (n - m) / (n - m).factorial := by
    intro m hm x hx
    rw [mem_enlarged, ← hx0, ← hwdef] at hx
    have := taylorN (n - m) (g := fun i z => iteratedDeriv (m + i) func (x0 + z)) (n := x - x0) (M := M)
      (fun i hi z _ _ => by
        have h := (hder (m + i) (by omega) (x0 + z)).scomp_of_eq z ((hasDerivAt_id z).const_add x0) rfl
        simpa [Function.comp_def, add_assoc] using h)
      (fun z hz _ => by
        rw [show m + (n - m) = n by omega]
        apply hM
        rw [mem_enlarged, ← hx0, ← hwdef, add_sub_cancel_left]
        exact hz.trans hx)
    simp only [add_zero, add_sub_cancel] at this
    refine this.trans ?_
    rw [div_mul_eq_mul_div]
    have : |x - x0| ^ (n - m) ≤ w ^ (n - m) := pow_le_pow_left₀ (abs_nonneg _) hx _
    gcongr
  -- its Chebyshev coefficients
  obtain ⟨d, hd, hdP⟩ := exists_cheb_coef (m := n)
    (P := ∑ j ∈ range n, Polynomial.C (iteratedDeriv j func x0 / (j.factorial : ℂ) * (((spanCenter eps a R sid).1 : ℝ) : ℂ) ^ j) *
      Polynomial.X ^ j)
    (by
      refine lt_of_le_of_lt (Polynomial.degree_sum_le _ _) ?_
      refine (Finset.sup_lt_iff (WithBot.bot_lt_coe n)).2 fun i hi => ?_
      refine lt_of_le_of_lt (Polynomial.degree_C_mul_X_pow_le _ _) ?_
      exact WithBot.coe_lt_coe.2 (Finset.mem_range.1 hi))
  have hspan := span_ne he ha hR sid
  have hds : segSeries eps a R sid d = fun x => q 0 (x - x0) := by
    funext x
    rw [segSeries_cheb, hdP, Polynomial.eval_finsetSum]
    simp only [hq, Nat.sub_zero, zero_add]
    refine sum_congr rfl fun j _ => ?_
    rw [Polynomial.eval_mul, Polynomial.eval_C, Polynomial.eval_pow, Polynomial.eval_X, mul_assoc, ← mul_pow]
    congr 2
    rw [← Complex.ofReal_mul]
    congr 1
    rw [evalDGInv, ← hx0]
    field_simp
  have hdm : ∀ m ≤ n, ∀ x, iteratedDeriv m (segSeries eps a R sid d) x = q m (x - x0) := by
    intro m hm x
    rw [hds]
    have fam : DerivFam n Set.univ fun m x => q m (x - x0) := by
      intro i hi z _
      have := (hq1 i hi (z - x0)).scomp z ((hasDerivAt_id z).sub_const x0)
      simpa [Function.comp_def] using this
    exact DerivFam.iterated isOpen_univ fam m hm x (Set.mem_univ x)
  -- coefficients of the fit
  set τ := M * w ^ n / n.factorial with hτ
  have hτ0 : 0 ≤ τ := by positivity
  have hcd : ∀ k < n, ‖c.getD k 0 - d.getD k 0‖ ≤ 4 * τ := by
    intro k hk
    refine fit_coef_near hJ hl hd (f := fun t => func (evalG eps a R sid t)) (hmin d hd) hτ0 (fun t ht => ?_) hk
    have hti := C37_inside J t ht
    have e : chebSeries d t = q 0 (evalG eps a R sid t - x0) := by
      have := congrFun hds (evalG eps a R sid t)
      rw [segSeries_cheb] at this
      rw [← this]
      congr 1
      have h := (C38_inverse he ha hR sid).1 t
      simp only [evalGInv] at h
      simp only [evalDGInv, one_div, ← div_eq_mul_inv, h]
    rw [e, norm_sub_rev]
    have := htaylor 0 (Nat.zero_le _) (evalG eps a R sid t) (by
      rw [mem_enlarged, evalG, add_sub_cancel_right, abs_mul, hw]
      exact mul_le_of_le_one_right hw0.le (abs_le.2 ⟨hti.1.le, hti.2.le⟩))
    simpa using this
  intro m hm x hx
  have h2 : ‖segFam eps a R sid c m x - segFam eps a R sid d m x‖ ≤ 4 * (n : ℝ) ^ (2 * m + 1) * (M * w ^ (n - m) / (n - m).factorial) := by
    unfold segFam
    rw [hl, hd, ← sum_sub_distrib]
    have h3 : ∀ i ∈ range n, ‖c.getD i 0 * ((iteratedDeriv m (basisFn eps a R sid i) x : ℝ) : ℂ) -
        d.getD i 0 * ((iteratedDeriv m (basisFn eps a R sid i) x : ℝ) : ℂ)‖ ≤ 4 * τ * ((n : ℝ) ^ (2 * m) / w ^ m) := by
      intro i hi
      have hi' := mem_range.1 hi
      rw [← sub_mul, norm_mul, Complex.norm_real, Real.norm_eq_abs]
      refine mul_le_mul (hcd i hi') ((basisFn_deriv_le he ha hR sid i m hx).trans ?_) (abs_nonneg _) (by positivity)
      have : (i : ℝ) ≤ n := by exact_mod_cast hi'.le
      gcongr
    refine (norm_sum_le_of_le _ h3).trans ?_
    rw [sum_const, card_range, nsmul_eq_mul]
    have e : (n : ℝ) * (4 * τ * ((n : ℝ) ^ (2 * m) / w ^ m)) = 4 * (n : ℝ) ^ (2 * m + 1) * (M * w ^ (n - m) / n.factorial) := by
      have : w ^ n = w ^ (n - m) * w ^ m := by rw [← pow_add]; congr 1; omega
      rw [hτ, this, pow_succ]
      field_simp
    rw [e]
    have hfac : ((n - m).factorial : ℝ) ≤ n.factorial := by exact_mod_cast Nat.factorial_le (by omega)
    gcongr
  rw [segFam_eq]
  have h3 := htaylor m hm x hx
  rw [← hdm m hm x, segFam_eq] at h3
  calc _ = ‖(segFam eps a R sid c m x - segFam eps a R sid d m x) - (iteratedDeriv m func x - segFam eps a R sid d m x)‖ := by
        congr 1; ring
    _ ≤ _ := norm_sub_le _ _
    _ ≤ _ := by linarith

end
/-- a sum over all basis functions that only sees one segment -/
theorem segment_sum (p q : ℕ) (A : Fin 3 → List ℂ) (hA : ∀ sid, (A sid).length = nBasisBySid p q sid) (sid : Fin 3) (φ : ℕ → ℝ) :
    ∑ JJ ∈ range (setupBasis p q).bDesc.length, (A 0 ++ A 1 ++ A 2).getD JJ 0 *
      ((((setupBasis p q).bDesc[JJ]?).elim 0 fun b => if b.sid = sid then φ b.J else 0 : ℝ) : ℂ) =
      ∑ J ∈ range (A sid).length, (A sid).getD J 0 * (φ J : ℂ) := by
  have h0 : (A 0).length = p := hA 0
  have h1 : (A 1).length = q := hA 1
  have h2 : (A 2).length = q := hA 2
  rw [C40_length, two_mul, ← add_assoc, sum_range_add, sum_range_add, (C40_layout p q).2]
  have e0 : ∀ i ∈ range p, (A 0 ++ A 1 ++ A 2).getD i 0 * ((((((List.range p).map (fun J => (⟨J, 0⟩ : BDesc)) ++
      (List.range q).map (fun J => ⟨J, 1⟩) ++ (List.range q).map (fun J => ⟨J, 2⟩))[i]?).elim 0
        fun b => if b.sid = sid then φ b.J else 0) : ℝ) : ℂ) = (A 0).getD i 0 * ((if (0 : Fin 3) = sid then φ i else 0 : ℝ) : ℂ) := by
    intro i hi
    have hi' := mem_range.1 hi
    congr 1
    · rw [List.getD_eq_getElem?_getD, List.append_assoc, List.getElem?_append_left (by omega), List.getD_eq_getElem?_getD]
    · rw [List.append_assoc, List.getElem?_append_left (by simpa using hi')]
      simp [hi']
  have e1 : ∀ i ∈ range q, (A 0 ++ A 1 ++ A 2).getD (p + i) 0 * ((((((List.range p).map (fun J => (⟨J, 0⟩ : BDesc)) ++
      (List.range q).map (fun J => ⟨J, 1⟩) ++ (List.range q).map (fun J => ⟨J, 2⟩))[p + i]?).elim 0
        fun b => if b.sid = sid then φ b.J else 0) : ℝ) : ℂ) = (A 1).getD i 0 * ((if (1 : Fin 3) = sid then φ i else 0 : ℝ) : ℂ) := by
    intro i hi
    have hi' := mem_range.1 hi
    congr 1
    · rw [List.getD_eq_getElem?_getD, List.append_assoc, List.getElem?_append_right (by omega), h0, Nat.add_sub_cancel_left,
        List.getElem?_append_left (by omega), List.getD_eq_getElem?_getD]
    · rw [List.append_assoc, List.getElem?_append_right (by simp), List.length_map, List.length_range, Nat.add_sub_cancel_left,
        List.getElem?_append_left (by simpa using hi')]
      simp [hi']
  have e2 : ∀ i ∈ range q, (A 0 ++ A 1 ++ A 2).getD (p + q + i) 0 * ((((((List.range p).map (fun J => (⟨J, 0⟩ : BDesc)) ++
      (List.range q).map (fun J => ⟨J, 1⟩) ++ (List.range q).map (fun J => ⟨J, 2⟩))[p + q + i]?).elim 0
        fun b => if b.sid = sid then φ b.J else 0) : ℝ) : ℂ) = (A 2).getD i 0 * ((if (2 : Fin 3) = sid then φ i else 0 : ℝ) : ℂ) := by
    intro i hi
    have hi' := mem_range.1 hi
    congr 1
    · rw [List.getD_eq_getElem?_getD, List.getElem?_append_right (by simp [h0, h1]), List.length_append, h0, h1,
        Nat.add_sub_cancel_left, List.getD_eq_getElem?_getD]
    · rw [List.getElem?_append_right (by simp)]
      simp [hi']
  rw [sum_congr rfl e0, sum_congr rfl e1, sum_congr rfl e2]
  fin_cases sid <;> simp [h0, h1, h2]

/-- the data of a solver with separate coefficients for the three segments -/
theorem trace_full {s : PSolver} {p q : ℕ} (hbas : s.bas = setupBasis p q) {A B : Fin 3 → List ℂ}
    (hA : ∀ sid, (A sid).length = nBasisBySid p q sid) (hB : ∀ sid, (B sid).length = nBasisBySid p q sid) (sid : Fin 3) :
    trace s (.full (A 0 ++ A 1 ++ A 2) (B 0 ++ B 1 ++ B 2)) sid 0 = segSeries s.eps s.e.a s.e.R sid (A sid) ∧
    trace s (.full (A 0 ++ A 1 ++ A 2) (B 0 ++ B 1 ++ B 2)) sid 1 = segSeries s.eps s.e.a s.e.R sid (B sid) := by
  constructor
  · funext t
    rw [segSeries, zipIdx_sum (0 : ℂ), ← segment_sum p q A hA sid fun J => basisFn s.eps s.e.a s.e.R sid J t, trace, hbas]
    rfl
  · funext t
    rw [segSeries, zipIdx_sum (0 : ℂ), ← segment_sum p q B hB sid fun J => basisFn s.eps s.e.a s.e.R sid J t, trace, hbas]
    rfl

/-- the bound of C83 -/
noncomputable def fitBound (n m : ℕ) (M w : ℝ) : ℝ := (1 + 4 * (n : ℝ) ^ (2 * m + 1)) * (M * w ^ (n - m) / (n - m).factorial)

section
variable {eps a R : ℝ}

/-- one segment of `calc_c0` and of `calc_c1_exact` -/
theorem fit_segment (he : 0 < eps) (ha : a < 2 * π) (hR : 0 < R) {fit : Chebfit} (hfit : IsChebfit fit) {p q : ℕ}
    (hp : 1 ≤ p) (hq : 1 ≤ q) (hp' : p ≤ 1024) (hq' : q ≤ 1024) {func : ℝ → ℂ} (sid : Fin 3)
    (hf : ContDiff ℝ (nBasisBySid p q sid) func) {M : ℝ}
    (hM : ∀ x ∈ enlarged eps a R sid, ‖iteratedDeriv (nBasisBySid p q sid) func x‖ ≤ M) :
    ∃ c, chebCoef eps a R fit (chebRoots 1024) (setupBasis p q) sid func = .ok c ∧ c.length = nBasisBySid p q sid ∧
      ∀ m ≤ nBasisBySid p q sid, ∀ x ∈ enlarged eps a R sid,
        ‖iteratedDeriv m (segSeries eps a R sid c) x - iteratedDeriv m func x‖ ≤
          fitBound (nBasisBySid p q sid) m M (halfWidth eps a R sid) := by
  have hl : sid.val < (setupBasis p q).segDesc.length := by
    rw [(C40_layout p q).1]; exact sid.isLt
  obtain ⟨e1, e2, _⟩ := C40_entries p q sid _ (List.getElem?_eq_getElem hl)
  rw [← e2] at hf hM ⊢
  refine C83_fit he ha hR hfit _ sid _ (List.getElem?_eq_getElem hl) 1024 ?_ ?_ hf hM
  · rw [e2]; fin_cases sid <;> simpa [nBasisBySid]
  · rw [e2]; fin_cases sid <;> simpa [nBasisBySid]

/-- **C83** for `calc_c0` and `calc_c1_exact`: with the shipped 1024 sample points, the coefficients are those of three series, one
for each segment, each close to its data together with its derivatives, on the segment enlarged by `eps`. -/
theorem C83_coefficients (he : 0 < eps) (ha : a < 2 * π) (hR : 0 < R) {fit : Chebfit} (hfit : IsChebfit fit) {p q : ℕ}
    (hp : 1 ≤ p) (hq : 1 ≤ q) (hp' : p ≤ 1024) (hq' : q ≤ 1024) {data : ℝ → Fin 3 → ℂ}
    (hf : ∀ sid, ContDiff ℝ (nBasisBySid p q sid) fun x => data x sid) {M : Fin 3 → ℝ}
    (hM : ∀ sid, ∀ x ∈ enlarged eps a R sid, ‖iteratedDeriv (nBasisBySid p q sid) (fun x => data x sid) x‖ ≤ M sid) :
    ∃ c : Fin 3 → List ℂ, (∀ sid, (c sid).length = nBasisBySid p q sid) ∧
      calcC0 eps a R fit (chebRoots 1024) (setupBasis p q) data = .ok (c 0 ++ c 1 ++ c 2) ∧
      calcC1Exact eps a R fit (chebRoots 1024) (setupBasis p q) data = .ok (c 0 ++ c 1 ++ c 2) ∧
      ∀ sid, ∀ m ≤ nBasisBySid p q sid, ∀ x ∈ enlarged eps a R sid,
        ‖iteratedDeriv m (segSeries eps a R sid (c sid)) x - iteratedDeriv m (fun x => data x sid) x‖ ≤
          (1 + 4 * (nBasisBySid p q sid : ℝ) ^ (2 * m + 1)) *
            (M sid * halfWidth eps a R sid ^ (nBasisBySid p q sid - m) / (nBasisBySid p q sid - m).factorial) := by
  have key := fun sid => fit_segment he ha hR hfit hp hq hp' hq' sid (hf sid) (hM sid)
  choose c hc hl hb using key
  refine ⟨c, hl, ?_, ?_, hb⟩
  · simp only [calcC0, List.foldlM_cons, List.foldlM_nil, hc, ok_bind, pure_eq_ok]
  · simp only [calcC1Exact, List.foldlM_cons, List.foldlM_nil, hc, ok_bind, pure_eq_ok, List.nil_append]

end

/-- the expansion evaluated by the tests is the series of the segment -/
theorem expansionRe_ok {eps a R : ℝ} (he : 0 < eps) (ha : a < 2 * π) (hR : 0 < R) {p q : ℕ} {A : Fin 3 → List ℂ}
    (hA : ∀ sid, (A sid).length = nBasisBySid p q sid) (sid : Fin 3) {x : ℝ} (hx : x ∈ physical a R sid) :
    expansionRe eps a R (setupBasis p q).bDesc (A 0 ++ A 1 ++ A 2) x sid = .ok (segSeries eps a R sid (A sid) x).re := by
  have hlen : (A 0 ++ A 1 ++ A 2).length = (setupBasis p q).bDesc.length := by
    have h0 : (A 0).length = p := hA 0
    have h1 : (A 1).length = q := hA 1
    have h2 : (A 2).length = q := hA 2
    rw [C40_length]; simp only [List.length_append, h0, h1, h2]; omega
  set B := (setupBasis p q).bDesc with hB
  have key : ∀ (L : List ℕ) (z : ℝ), (∀ JJ ∈ L, JJ < B.length) →
      L.foldlM (init := z) (fun acc JJ => do
        let z ← vecGet (A 0 ++ A 1 ++ A 2) JJ
        let b ← evalDnB eps a R B 0 JJ x sid
        return acc + (z * (b : ℂ)).re) =
      .ok (z + (L.map fun JJ => ((A 0 ++ A 1 ++ A 2).getD JJ 0 *
        (((B[JJ]?).elim 0 fun b => if b.sid = sid then basisFn eps a R sid b.J x else 0 : ℝ) : ℂ)).re).sum) := by
    intro L
    induction L with
    | nil => intro z _; simp [pure_eq_ok]
    | cons JJ L ih =>
      intro z hL
      have hJ : JJ < B.length := hL JJ (by simp)
      have hb := List.getElem?_eq_getElem hJ
      have hJ' : JJ < (A 0 ++ A 1 ++ A 2).length := by rw [hlen]; exact hJ
      have e1 : vecGet (A 0 ++ A 1 ++ A 2) JJ = .ok ((A 0 ++ A 1 ++ A 2).getD JJ 0) := by
        rw [vecGet, List.getD_eq_getElem?_getD, List.getElem?_eq_getElem hJ']
        rfl
      have e2 : evalDnB eps a R B 0 JJ x sid =
          .ok ((B[JJ]?).elim 0 fun b => if b.sid = sid then basisFn eps a R sid b.J x else 0) := by
        rw [hb]
        simp only [Option.elim]
        by_cases h : B[JJ].sid = sid
        · subst h
          rw [C39_derivative he ha hR B JJ _ hb 0 (by norm_num) hx, if_pos rfl, iteratedDeriv_zero]
        · rw [C39_other_segment _ _ _ hb 0 x sid h, if_neg h]
      rw [List.foldlM_cons]
      simp only [e1, e2, ok_bind, pure_eq_ok]
      have ih' := ih (z + ((A 0 ++ A 1 ++ A 2).getD JJ 0 *
        (((B[JJ]?).elim 0 fun b => if b.sid = sid then basisFn eps a R sid b.J x else 0 : ℝ) : ℂ)).re)
        fun j hj => hL j (by simp [hj])
      simp only [pure_eq_ok] at ih'
      rw [ih', List.map_cons, List.sum_cons, add_assoc]
  unfold expansionRe
  rw [key _ 0 fun JJ hJ => List.mem_range.1 hJ, zero_add]
  congr 1
  rw [segSeries, zipIdx_sum (0 : ℂ)]
  simp only
  rw [← segment_sum p q A hA sid fun J => basisFn eps a R sid J x, Complex.re_sum]
  rfl

/-- a sample point is found on its own segment, with its own argument -/
theorem sampleSid_ok {a R : ℝ} {rb : ℝ → ℝ} {n : ℕ} (ha : 0 < a) (ha2 : a + 2 / 10 ^ 5 ≤ 2 * π) (hR : 1 / 10 ^ 5 ≤ R)
    (hrb : ∀ t, a ≤ t → t ≤ 2 * π → 0 < rb t) {p : SamplePoint} (hp : p ∈ getBoundarySample a R rb n) :
    sampleSid a p = .ok (Fin.ofNat 3 p.sid, p.arg) ∧ (∃ i, getSid a (cartToPolar p.x p.y).2 = some i) ∧
      p.arg ∈ physical a R (Fin.ofNat 3 p.sid) ∧ p.sid < 3 := by
  have hsid := C05_get_sid_of_sample a R rb n ha ha2 hR hrb p hp
  unfold sampleSid
  rw [hsid]
  have hpi := pi_pos
  have hep : (0:ℝ) < 1 / 10 ^ 5 := by norm_num
  simp only [getBoundarySample, List.mem_append] at hp
  rcases hp with (hp | hp) | hp
  · simp only [getBoundarySampleBySid, if_true, List.mem_map] at hp
    obtain ⟨t, ht, rfl⟩ := hp
    have hm := linspace_mem (by linarith) ht
    rw [cartToPolar_polar (hrb t (by linarith) (by linarith)) (by linarith) (by linarith)]
    refine ⟨rfl, ⟨_, rfl⟩, ?_, by simp⟩
    show t ∈ physical a R 0
    unfold physical
    rw [if_pos rfl]
    exact ⟨by linarith, by linarith⟩
  · simp only [getBoundarySampleBySid, one_ne_zero, if_false, if_true, List.mem_map, List.mem_reverse] at hp
    obtain ⟨r, hr, rfl⟩ := hp
    have hm := linspace_mem hR hr
    have e := cartToPolar_polar (r := r) (t := 2 * π) (by linarith) (by linarith) le_rfl
    simp only [cos_two_pi, sin_two_pi, mul_one, mul_zero] at e
    refine ⟨?_, ⟨_, rfl⟩, ?_, by simp⟩
    · simp only [e]; rfl
    · show r ∈ physical a R 1
      unfold physical
      rw [if_neg (by decide)]
      exact ⟨by linarith, hm.2⟩
  · simp only [getBoundarySampleBySid, if_true, OfNat.ofNat_ne_zero, OfNat.ofNat_ne_one, if_false, List.mem_map] at hp
    obtain ⟨r, hr, rfl⟩ := hp
    have hm := linspace_mem hR hr
    refine ⟨?_, ⟨_, rfl⟩, ?_, by simp⟩
    · simp only [cartToPolar_polar (show 0 < r by linarith) ha (by linarith)]
      rfl
    · show r ∈ physical a R 2
      unfold physical
      rw [if_neg (by decide)]
      exact ⟨by linarith, hm.2⟩

theorem sample_outer_mem (a R : ℝ) (rb : ℝ → ℝ) : ∃ p ∈ getBoundarySample a R rb 100, p.sid = 0 := by
  refine ⟨⟨a + 1 / 10 ^ 5, rb (a + 1 / 10 ^ 5) * cos (a + 1 / 10 ^ 5), rb (a + 1 / 10 ^ 5) * sin (a + 1 / 10 ^ 5),
    R * (a + 1 / 10 ^ 5 - a), 0⟩, ?_, rfl⟩
  simp only [getBoundarySample, List.mem_append]
  left; left
  simp only [getBoundarySampleBySid, if_true, List.mem_map]
  refine ⟨a + 1 / 10 ^ 5, ?_, rfl⟩
  simp only [linspace, List.mem_map, List.mem_range]
  exact ⟨0, by norm_num, by simp⟩

theorem pyMax_map {α : Type} (l : List α) (hl : l ≠ []) (f : α → ℝ) :
    ∃ m, pyMax (l.map f) = .ok m ∧ IsGreatest {d | ∃ x ∈ l, d = f x} m := by
  rcases l with _ | ⟨x, l⟩
  · exact absurd rfl hl
  · obtain ⟨m, h1, h2, h3⟩ := pyMax_ok (f x) (l.map f)
    rw [List.map_cons]
    refine ⟨m, h1, ?_, ?_⟩
    · rw [← List.map_cons, List.mem_map] at h2
      obtain ⟨y, hy, rfl⟩ := h2
      exact ⟨y, hy, rfl⟩
    · rintro d ⟨y, hy, rfl⟩
      refine h3 _ ?_
      rw [← List.map_cons]
      exact List.mem_map_of_mem hy

/-- **C83** what `c0_test` prints: it never fails on a proper boundary, and the two numbers are the largest difference of the real
parts of the boundary data and of its expansion over the sample points of the outer boundary and of the whole boundary. -/
theorem C83_c0_test {eps a R : ℝ} {rb : ℝ → ℝ} (he : 0 < eps) (ha : 0 < a) (ha2 : a + 2 / 10 ^ 5 ≤ 2 * π) (hR : 1 / 10 ^ 5 ≤ R)
    (hrb : ∀ t, a ≤ t → t ≤ 2 * π → 0 < rb t) {p q : ℕ} {A : Fin 3 → List ℂ}
    (hA : ∀ sid, (A sid).length = nBasisBySid p q sid) (bc : ℝ → Fin 3 → ℂ) :
    ∃ outer all, c0Test eps a R rb (setupBasis p q) (A 0 ++ A 1 ++ A 2) bc = .ok (outer, all) ∧
      IsGreatest {d | ∃ pt ∈ getBoundarySample a R rb 100, pt.sid = 0 ∧
        d = |(bc pt.arg 0 - segSeries eps a R 0 (A 0) pt.arg).re|} outer ∧
      IsGreatest {d | ∃ pt ∈ getBoundarySample a R rb 100, ∃ sid : Fin 3, pt.sid = sid ∧ pt.arg ∈ physical a R sid ∧
        d = |(bc pt.arg sid - segSeries eps a R sid (A sid) pt.arg).re|} all := by
  have hpt : ∀ pt ∈ getBoundarySample a R rb 100, c0Point eps a R (setupBasis p q) (A 0 ++ A 1 ++ A 2) bc pt =
      .ok (Fin.ofNat 3 pt.sid, (bc pt.arg (Fin.ofNat 3 pt.sid)).re,
        (segSeries eps a R (Fin.ofNat 3 pt.sid) (A (Fin.ofNat 3 pt.sid)) pt.arg).re) := by
    intro pt hm
    obtain ⟨h1, -, h2, -⟩ := sampleSid_ok ha ha2 hR hrb hm
    unfold c0Point
    rw [h1, ok_bind]
    simp only
    rw [expansionRe_ok he (by linarith) (by linarith) hA _ h2, ok_bind, pure_eq_ok]
  have hmap := mapM_ok hpt
  set F : SamplePoint → Fin 3 × ℝ × ℝ := fun pt => (Fin.ofNat 3 pt.sid, (bc pt.arg (Fin.ofNat 3 pt.sid)).re,
    (segSeries eps a R (Fin.ofNat 3 pt.sid) (A (Fin.ofNat 3 pt.sid)) pt.arg).re) with hF
  set S := getBoundarySample a R rb 100 with hS
  obtain ⟨p0, hp0, hp0s⟩ := sample_outer_mem a R rb
  rw [← hS] at hp0
  have hne : S.map F ≠ [] := by
    intro h
    have := List.mem_map_of_mem (f := F) hp0
    rw [h] at this
    simp at this
  have hmem0 : F p0 ∈ (S.map F).filter fun t => t.1 = 0 := by
    rw [List.mem_filter]
    exact ⟨List.mem_map_of_mem hp0, by simp [hF, hp0s]⟩
  obtain ⟨o, ho1, ho2⟩ := pyMax_map ((S.map F).filter fun t => t.1 = 0) (fun h => by rw [h] at hmem0; simp at hmem0)
    fun t => |t.2.1 - t.2.2|
  obtain ⟨m, hm1, hm2⟩ := pyMax_map (S.map F) hne fun t => |t.2.1 - t.2.2|
  have hofnat : ∀ pt ∈ S, ((Fin.ofNat 3 pt.sid : Fin 3) : ℕ) = pt.sid := by
    intro pt hm
    have := (sampleSid_ok ha ha2 hR hrb hm).2.2.2
    simp only [Fin.ofNat]
    exact Nat.mod_eq_of_lt this
  refine ⟨o, m, ?_, ?_, ?_⟩
  · unfold c0Test
    rw [hmap, ok_bind, ho1, ok_bind, hm1, ok_bind, pure_eq_ok]
  · refine (congrArg (fun X => IsGreatest X o) ?_).mp ho2
    ext d
    simp only [Set.mem_ofPred_eq, List.mem_filter, List.mem_map, decide_eq_true_eq]
    constructor
    · rintro ⟨x, ⟨⟨pt, hpt', rfl⟩, hx⟩, rfl⟩
      have h0 : Fin.ofNat 3 pt.sid = 0 := hx
      refine ⟨pt, hpt', ?_, ?_⟩
      · rw [← hofnat pt hpt', h0]; rfl
      · simp only [hF, h0, Complex.sub_re]
    · rintro ⟨pt, hpt', hz, rfl⟩
      refine ⟨F pt, ⟨⟨pt, hpt', rfl⟩, by simp [hF, hz]⟩, ?_⟩
      have h0 : Fin.ofNat 3 pt.sid = 0 := by rw [hz]; rfl
      simp only [hF, h0, Complex.sub_re]
  · refine (congrArg (fun X => IsGreatest X m) ?_).mp hm2
    ext d
    simp only [Set.mem_ofPred_eq, List.mem_map]
    constructor
    · rintro ⟨x, ⟨pt, hpt', rfl⟩, rfl⟩
      exact ⟨pt, hpt', Fin.ofNat 3 pt.sid, (hofnat pt hpt').symm, (sampleSid_ok ha ha2 hR hrb hpt').2.2.1,
        by simp only [hF, Complex.sub_re]⟩
    · rintro ⟨pt, hpt', sid, hsid, -, rfl⟩
      refine ⟨F pt, ⟨pt, hpt', rfl⟩, ?_⟩
      have h0 : Fin.ofNat 3 pt.sid = sid := by
        apply Fin.ext
        rw [hofnat pt hpt', hsid]
      simp only [hF, h0, Complex.sub_re]

/-- **C83** what `c1_test` prints for a problem with known Neumann data: the largest difference of the real parts of the Neumann
data and of its expansion over the sample points. -/
theorem C83_c1_test {eps a R : ℝ} {rb : ℝ → ℝ} (he : 0 < eps) (ha : 0 < a) (ha2 : a + 2 / 10 ^ 5 ≤ 2 * π) (hR : 1 / 10 ^ 5 ≤ R)
    (hrb : ∀ t, a ≤ t → t ≤ 2 * π → 0 < rb t) {p q : ℕ} {A : Fin 3 → List ℂ}
    (hA : ∀ sid, (A sid).length = nBasisBySid p q sid) (du : ℝ → Fin 3 → ℂ) :
    ∃ all, c1Test eps a R rb (setupBasis p q) (A 0 ++ A 1 ++ A 2) du = .ok all ∧
      IsGreatest {d | ∃ pt ∈ getBoundarySample a R rb 100, ∃ sid : Fin 3, pt.sid = sid ∧ pt.arg ∈ physical a R sid ∧
        d = |(du pt.arg sid - segSeries eps a R sid (A sid) pt.arg).re|} all := by
  have hpt : ∀ pt ∈ getBoundarySample a R rb 100, c1Point eps a R (setupBasis p q) (A 0 ++ A 1 ++ A 2) du pt =
      .ok ((du pt.arg (Fin.ofNat 3 pt.sid)).re,
        (segSeries eps a R (Fin.ofNat 3 pt.sid) (A (Fin.ofNat 3 pt.sid)) pt.arg).re) := by
    intro pt hm
    obtain ⟨h1, ⟨i, hi⟩, h2, -⟩ := sampleSid_ok ha ha2 hR hrb hm
    unfold c1Point
    simp only [hi, h1, ok_bind, expansionRe_ok he (by linarith : a < 2 * π) (by linarith : 0 < R) hA _ h2, pure_eq_ok]
  have hmap := mapM_ok hpt
  set F : SamplePoint → ℝ × ℝ := fun pt => ((du pt.arg (Fin.ofNat 3 pt.sid)).re,
    (segSeries eps a R (Fin.ofNat 3 pt.sid) (A (Fin.ofNat 3 pt.sid)) pt.arg).re) with hF
  set S := getBoundarySample a R rb 100 with hS
  obtain ⟨p0, hp0, hp0s⟩ := sample_outer_mem a R rb
  rw [← hS] at hp0
  have hne : S.map F ≠ [] := by
    intro h
    have := List.mem_map_of_mem (f := F) hp0
    rw [h] at this
    simp at this
  obtain ⟨m, hm1, hm2⟩ := pyMax_map (S.map F) hne fun t => |t.1 - t.2|
  have hofnat : ∀ pt ∈ S, ((Fin.ofNat 3 pt.sid : Fin 3) : ℕ) = pt.sid := by
    intro pt hm
    have := (sampleSid_ok ha ha2 hR hrb hm).2.2.2
    simp only [Fin.ofNat]
    exact Nat.mod_eq_of_lt this
  refine ⟨m, ?_, ?_⟩
  · unfold c1Test
    rw [hmap, ok_bind, hm1]
  · refine (congrArg (fun X => IsGreatest X m) ?_).mp hm2
    ext d
    simp only [Set.mem_ofPred_eq, List.mem_map]
    constructor
    · rintro ⟨x, ⟨pt, hpt', rfl⟩, rfl⟩
      exact ⟨pt, hpt', Fin.ofNat 3 pt.sid, (hofnat pt hpt').symm, (sampleSid_ok ha ha2 hR hrb hpt').2.2.1,
        by simp only [hF, Complex.sub_re]⟩
    · rintro ⟨pt, hpt', sid, hsid, -, rfl⟩
      refine ⟨F pt, ⟨pt, hpt', rfl⟩, ?_⟩
      have h0 : Fin.ofNat 3 pt.sid = sid := by
        apply Fin.ext
        rw [hofnat pt hpt', hsid]
      simp only [hF, h0, Complex.sub_re]

/-- a vector of coefficients is made of three pieces -/
theorem split_coef {p q : ℕ} {c : List ℂ} (hc : c.length = (setupBasis p q).bDesc.length) :
    ∃ A : Fin 3 → List ℂ, (∀ sid, (A sid).length = nBasisBySid p q sid) ∧ c = A 0 ++ A 1 ++ A 2 := by
  rw [C40_length] at hc
  refine ⟨![c.take p, (c.drop p).take q, (c.drop p).drop q], ?_, ?_⟩
  · intro sid
    fin_cases sid <;> simp [nBasisBySid, hc] <;> omega
  · simp

/-- **C83** the call of `c0_test` in `run` changes nothing: `run` with it returns the same result, or fails with the same exception. -/
theorem C83_run_printing {iter : Iter} {s : PSolver} {n : ℕ} (he : 0 < s.eps) (ha : 0 < s.e.a) (ha2 : s.e.a + 2 / 10 ^ 5 ≤ 2 * π)
    (hR : 1 / 10 ^ 5 ≤ s.e.R) (hrb : ∀ t, s.e.a ≤ t → t ≤ 2 * π → 0 < s.e.evalR t) {p q : ℕ} (hp : 1 ≤ p) (hq : 1 ≤ q)
    (hbas : s.bas = setupBasis p q) (ap : Arr n) {fit : Chebfit} (hfit : IsChebfit fit) (roots : List ℝ) (bc : ℝ → Fin 3 → ℂ)
    (lstsq : Lstsq) (ex : Option (ℝ → ℝ → ℂ)) :
    ∃ printed, psRunPrinting iter s ap fit roots bc lstsq ex =
      (psRun iter s ap fit roots bc lstsq ex).map fun res => (res, printed) := by
  obtain ⟨c0, hc0, hl0⟩ := C40_c0_length (eps := s.eps) (a := s.e.a) (R := s.e.R) hfit p q hp hq roots bc
  obtain ⟨A, hA, rfl⟩ := split_coef hl0
  obtain ⟨o, m, h, -, -⟩ := C83_c0_test he ha ha2 hR hrb hA bc
  refine ⟨(o, m), ?_⟩
  unfold psRunPrinting psRun
  rw [hbas, hc0, ok_bind, ok_bind, h, ok_bind]
  rcases solveVar lstsq iter s ap (A 0 ++ A 1 ++ A 2) with er | c1
  · rfl
  rw [ok_bind, ok_bind]
  rcases extendBoundary s (.full (A 0 ++ A 1 ++ A 2) c1) with er | ext
  · rfl
  rw [ok_bind, ok_bind]
  rcases regularPart iter s.e s.order s.k s.G ext ap with er | u
  · rfl
  rw [ok_bind, ok_bind]
  rcases evalError iter s.e s.G ex u with er | e
  · rfl
  rfl

/-- **C83** the error `c0_test` prints is at most the bound of the fit. -/
theorem C83_printed {eps a R : ℝ} {rb : ℝ → ℝ} (he : 0 < eps) (ha : 0 < a) (ha2 : a + 2 / 10 ^ 5 ≤ 2 * π) (hR : 1 / 10 ^ 5 ≤ R)
    (hrb : ∀ t, a ≤ t → t ≤ 2 * π → 0 < rb t) {fit : Chebfit} (hfit : IsChebfit fit) {p q : ℕ}
    (hp : 1 ≤ p) (hq : 1 ≤ q) (hp' : p ≤ 1024) (hq' : q ≤ 1024) {bc : ℝ → Fin 3 → ℂ}
    (hf : ∀ sid, ContDiff ℝ (nBasisBySid p q sid) fun x => bc x sid) {M : Fin 3 → ℝ}
    (hM : ∀ sid, ∀ x ∈ enlarged eps a R sid, ‖iteratedDeriv (nBasisBySid p q sid) (fun x => bc x sid) x‖ ≤ M sid) {B : ℝ}
    (hB : ∀ sid, (1 + 4 * (nBasisBySid p q sid : ℝ)) *
      (M sid * halfWidth eps a R sid ^ nBasisBySid p q sid / (nBasisBySid p q sid).factorial) ≤ B) :
    ∃ c0 outer all, calcC0 eps a R fit (chebRoots 1024) (setupBasis p q) bc = .ok c0 ∧
      c0Test eps a R rb (setupBasis p q) c0 bc = .ok (outer, all) ∧ 0 ≤ outer ∧ outer ≤ all ∧ all ≤ B := by
  obtain ⟨c, hl, hc, -, hb⟩ := C83_coefficients he (by linarith) (by linarith) hfit hp hq hp' hq' hf hM
  obtain ⟨o, m, h, ho, hm⟩ := C83_c0_test he ha ha2 hR hrb hl bc
  refine ⟨_, o, m, hc, h, ?_, ?_, ?_⟩
  · obtain ⟨pt, -, -, rfl⟩ := ho.1
    exact abs_nonneg _
  · obtain ⟨pt, h1, h2, rfl⟩ := ho.1
    have h3 := (sampleSid_ok ha ha2 hR hrb h1).2.2.1
    rw [h2] at h3
    exact hm.2 ⟨pt, h1, 0, h2, h3, rfl⟩
  · obtain ⟨pt, -, sid, -, h3, rfl⟩ := hm.1
    refine (Complex.abs_re_le_norm _).trans ?_
    rw [norm_sub_rev]
    have := hb sid 0 (Nat.zero_le _) pt.arg (physical_enlarged he.le sid h3)
    simp only [iteratedDeriv_zero, mul_zero, zero_add, pow_one, Nat.sub_zero] at this
    exact this.trans (hB sid)

/-- `etype_filter` on nodes whose boundary coordinates exist keeps those of the wanted types, in order -/
theorem C83_etype_filter (e : Env) (cache : Cache) (sid : Fin 3) (nodes : List Node) (etypes : List EType) (f : Node → EType)
    (hf : ∀ nd ∈ nodes, getEtype e cache sid nd = .ok (f nd)) :
    etypeFilter e cache sid nodes etypes = .ok (nodes.filter fun nd => f nd ∈ etypes) := by
  unfold etypeFilter
  have key : ∀ (L res : List Node), (∀ nd ∈ L, getEtype e cache sid nd = .ok (f nd)) →
      L.foldlM (init := res) (fun result nd => do
        let et ← getEtype e cache sid nd
        return if et ∈ etypes then result ++ [nd] else result) = .ok (res ++ L.filter fun nd => f nd ∈ etypes) := by
    intro L
    induction L with
    | nil => intro res _; simp [pure_eq_ok]
    | cons nd L ih =>
      intro res h
      rw [List.foldlM_cons, h nd (by simp), ok_bind, pure_eq_ok, ok_bind, ih _ fun x hx => h x (by simp [hx])]
      by_cases hn : f nd ∈ etypes
      · rw [if_pos hn, List.filter_cons_of_pos (by simpa using hn)]; simp
      · rw [if_neg hn, List.filter_cons_of_neg (by simpa using hn)]
  simpa using key nodes [] hf

/-- the hypotheses of `C83_printed` hold for a wave on the shipped arc with twelve basis functions on every segment, and bound the
printed error by 0.02 -/
example : ∃ fit : Chebfit, IsChebfit fit ∧ ∃ c0 outer all,
    calcC0 psEps (π / 4) 2.3 fit (chebRoots 1024) (setupBasis 12 12) (fun x _ => Complex.exp ((x : ℂ) * Complex.I)) = .ok c0 ∧
      c0Test psEps (π / 4) 2.3 (fun _ => 2.3) (setupBasis 12 12) c0 (fun x _ => Complex.exp ((x : ℂ) * Complex.I)) = .ok (outer, all) ∧
      0 ≤ outer ∧ outer ≤ all ∧ all ≤ 0.02 := by
  obtain ⟨fit, hfit⟩ := exists_chebfit
  have hpi := pi_gt_three
  have hd : ∀ m, iteratedDeriv m (fun x : ℝ => Complex.exp ((x : ℂ) * Complex.I)) =
      fun x : ℝ => Complex.I ^ m * Complex.exp ((x : ℂ) * Complex.I) := by
    intro m
    have fam : DerivFam m Set.univ fun m (x : ℝ) => Complex.I ^ m * Complex.exp ((x : ℂ) * Complex.I) := by
      intro i _ x _
      have h1 : HasDerivAt (fun x : ℝ => (x : ℂ) * Complex.I) Complex.I x := by
        simpa using (Complex.ofRealCLM.hasDerivAt (x := x)).mul_const Complex.I
      refine (h1.cexp.const_mul (Complex.I ^ i)).congr_deriv ?_
      simp only [pow_succ]; ring
    funext x
    have := DerivFam.iterated isOpen_univ fam m le_rfl x (Set.mem_univ x)
    simpa using this
  have hsm : ContDiff ℝ (12 : ℕ) fun x : ℝ => Complex.exp ((x : ℂ) * Complex.I) :=
    Complex.contDiff_exp.comp (Complex.ofRealCLM.contDiff.mul contDiff_const)
  have hnb : ∀ sid, nBasisBySid 12 12 sid = 12 := by intro sid; fin_cases sid <;> rfl
  refine ⟨fit, hfit, C83_printed (M := fun _ => 1)
    (by norm_num [psEps]) (by positivity) (by norm_num; linarith) (by norm_num) (fun _ _ _ => by norm_num) hfit (by norm_num)
    (by norm_num) (by norm_num) (by norm_num) (fun sid => by rw [hnb]; exact hsm) (fun sid x _ => ?_) (fun sid => ?_)⟩
  · rw [hd]
    simp [Complex.norm_exp_ofReal_mul_I]
  · have hw0 : 0 ≤ halfWidth psEps (π / 4) 2.3 sid :=
      (spanCenter_abs (by norm_num [psEps]) (by linarith) (by norm_num) sid).2.le
    have hw : halfWidth psEps (π / 4) 2.3 sid ≤ 2.75 := by
      have := pi_lt_d4
      unfold halfWidth psEps
      split
      · linarith
      · norm_num
    rw [hnb]
    have h12 : halfWidth psEps (π / 4) 2.3 sid ^ 12 ≤ 2.75 ^ 12 := pow_le_pow_left₀ hw0 hw 12
    have hf : ((12 : ℕ).factorial : ℝ) = 479001600 := by norm_num [Nat.factorial]
    rw [hf]
    calc (1 + 4 * ((12 : ℕ) : ℝ)) * (1 * halfWidth psEps (π / 4) 2.3 sid ^ 12 / 479001600)
        ≤ (1 + 4 * ((12 : ℕ) : ℝ)) * (1 * 2.75 ^ 12 / 479001600) := by gcongr
      _ ≤ 0.02 := by norm_num

end Pot
