import Verif.Model.Basis
import Verif.Proofs.Chebyshev
import Verif.Spec.Chebyshev
import Verif.Proofs.LeastSquares
import Mathlib.Analysis.Calculus.IteratedDeriv.Lemmas
import Mathlib.LinearAlgebra.Lagrange

/-!
# C36–C41: Chebyshev polynomials, basis functions, basis layout, Chebyshev fit
-/

namespace Pot
open Real Polynomial

/-! ## C36 -/

/-- C36: `eval_dn_T_t(n, J, t)` is the `n`-th derivative of the Chebyshev polynomial `T_J`. -/
theorem C36_derivatives (n J : ℕ) (hn : n ≤ 5) {t : ℝ} (h : t ∈ Set.Ioo (-1 : ℝ) 1) :
    evalDnT n J t = .ok ((derivative^[n] (Chebyshev.T ℝ J)).eval t) := by
  rw [evalDnT_eq J h n hn, chebF_eq J n hn t h]

/-- C36, error branch: the table ends at the fifth derivative. -/
theorem C36_too_high (n J : ℕ) (hn : 6 ≤ n) (t : ℝ) : evalDnT n J t = .error .indexError := by
  obtain ⟨m, rfl⟩ := Nat.exists_eq_add_of_le hn
  rw [Nat.add_comm]
  rfl

example : ((1 / 2 : ℝ) ∈ Set.Ioo (-1 : ℝ) 1) ∧ evalDnT 2 3 (1 / 2) = .ok 12 := by
  have h : (1 / 2 : ℝ) ∈ Set.Ioo (-1 : ℝ) 1 := by constructor <;> norm_num
  refine ⟨h, ?_⟩
  rw [C36_derivatives 2 3 (by norm_num) h]
  congr 1
  have : (Chebyshev.T ℝ ((3 : ℕ) : ℤ)) = 4 * X ^ 3 - 3 * X := by
    have e := Chebyshev.T_add_two ℝ 1
    simp only [Chebyshev.T_one] at e
    norm_num at e
    rw [show (((3 : ℕ) : ℤ)) = 3 by norm_num, e, Chebyshev.T_two]
    ring
  rw [this]
  simp [Function.iterate_succ, derivative_mul, derivative_pow]
  norm_num

/-! ## C37 -/

/-- the angle of the `i`-th root -/
theorem chebRoots_get (J i : ℕ) (hi : i < J) :
    0 < π / 2 * (2 * ((J - i : ℕ) : ℝ) - 1) / J ∧ π / 2 * (2 * ((J - i : ℕ) : ℝ) - 1) / J < π := by
  have hJ : (0 : ℝ) < J := by exact_mod_cast (by omega : 0 < J)
  have h1 : (1 : ℝ) ≤ ((J - i : ℕ) : ℝ) := by exact_mod_cast (by omega : 1 ≤ J - i)
  have h2 : ((J - i : ℕ) : ℝ) ≤ J := by exact_mod_cast (by omega : J - i ≤ J)
  have := pi_pos
  constructor
  · apply div_pos (mul_pos (by positivity) (by linarith)) hJ
  · rw [div_lt_iff₀ hJ]
    nlinarith

/-- C37: the list has `J` entries. -/
theorem C37_length (J : ℕ) : (chebRoots J).length = J := by simp [chebRoots]

/-- C37: the list is strictly increasing. -/
theorem C37_increasing (J : ℕ) : (chebRoots J).Pairwise (· < ·) := by
  rw [chebRoots, List.pairwise_map]
  refine List.pairwise_lt_range.imp_of_mem ?_
  intro i j hi hj hij
  rw [List.mem_range] at hi hj
  have hJ : (0 : ℝ) < J := by exact_mod_cast (by omega : 0 < J)
  refine cos_lt_cos_of_nonneg_of_le_pi (chebRoots_get J j hj).1.le (chebRoots_get J i hi).2.le ?_
  have h : ((J - j : ℕ) : ℝ) < ((J - i : ℕ) : ℝ) := by exact_mod_cast (by omega : J - j < J - i)
  have := pi_pos
  apply div_lt_div_of_pos_right _ hJ
  nlinarith

/-- C37: every entry lies strictly between -1 and 1. -/
theorem C37_inside (J : ℕ) : ∀ t ∈ chebRoots J, t ∈ Set.Ioo (-1 : ℝ) 1 := by
  intro t ht
  obtain ⟨i, hi, rfl⟩ := List.mem_map.1 ht
  rw [List.mem_range] at hi
  obtain ⟨h1, h2⟩ := chebRoots_get J i hi
  constructor
  · have := cos_lt_cos_of_nonneg_of_le_pi h1.le le_rfl h2
    rwa [cos_pi] at this
  · have := cos_lt_cos_of_nonneg_of_le_pi le_rfl h2.le h1
    rwa [cos_zero] at this

/-- C37: the entries are exactly the roots of `T_J`. -/
theorem C37_roots (J : ℕ) (x : ℝ) : x ∈ chebRoots J ↔ (Chebyshev.T ℝ J).eval x = 0 := by
  have hne : Chebyshev.T ℝ (J : ℤ) ≠ 0 := Chebyshev.T_ne_zero ℝ J
  rw [← IsRoot, ← mem_roots hne, Chebyshev.roots_T_real]
  simp only [chebRoots, List.mem_map, List.mem_range, Finset.mem_val, Finset.mem_image, Finset.mem_range]
  constructor
  · rintro ⟨i, hi, rfl⟩
    refine ⟨J - i - 1, by omega, ?_⟩
    congr 1
    have hJ : (0 : ℝ) < J := by exact_mod_cast (by omega : 0 < J)
    have h : ((J - i : ℕ) : ℝ) = ((J - i - 1 : ℕ) : ℝ) + 1 := by exact_mod_cast (by omega)
    rw [h]; field_simp; ring
  · rintro ⟨i, hi, rfl⟩
    refine ⟨J - 1 - i, by omega, ?_⟩
    congr 1
    have hJ : (0 : ℝ) < J := by exact_mod_cast (by omega : 0 < J)
    have h : ((J - (J - 1 - i) : ℕ) : ℝ) = (i : ℝ) + 1 := by exact_mod_cast (by omega)
    rw [h]; field_simp; ring

example : (0 : ℝ) ∈ chebRoots 3 := by
  rw [C37_roots]
  have e := Chebyshev.T_eval_zero ℝ 3
  first
  | simpa using e
  | (rw [show ((3 : ℕ) : ℤ) = 1 + 2 by norm_num, Chebyshev.T_add_two]; simp)

/-! ## C38 -/

section
variable {eps a R : ℝ}

theorem span_ne (he : 0 < eps) (ha : a < 2 * π) (hR : 0 < R) (sid : Fin 3) :
    (spanCenter eps a R sid).1 ≠ 0 := by
  fin_cases sid <;> simp [spanCenter] <;> intro h <;> linarith

/-- C38: `eval_g` and `eval_g_inv` are mutually inverse. -/
theorem C38_inverse (he : 0 < eps) (ha : a < 2 * π) (hR : 0 < R) (sid : Fin 3) :
    (∀ t, evalGInv eps a R sid (evalG eps a R sid t) = t) ∧
    ∀ x, evalG eps a R sid (evalGInv eps a R sid x) = x := by
  have h := span_ne he ha hR sid
  constructor
  · intro t; simp only [evalG, evalGInv]; field_simp; ring
  · intro x; simp only [evalG, evalGInv]; field_simp; ring

/-- C38: the physical segment is mapped strictly inside `(-1, 1)`. -/
theorem C38_inside (he : 0 < eps) (ha : a < 2 * π) (hR : 0 < R) (sid : Fin 3) {x : ℝ}
    (hx : x ∈ Spec.physical a R sid) : evalGInv eps a R sid x ∈ Set.Ioo (-1 : ℝ) 1 := by
  fin_cases sid
  · simp only [Spec.physical, Fin.zero_eta, if_pos, Set.mem_Icc] at hx
    simp only [evalGInv, spanCenter, Fin.zero_eta, if_pos, zero_ne_one, if_false, Fin.isValue]
    have h : 0 < π - 1 / 2 * a + eps := by linarith
    constructor
    · rw [lt_div_iff₀ h]; linarith [hx.1]
    · rw [div_lt_one h]; linarith [hx.2]
  · simp [Spec.physical] at hx
    simp [evalGInv, spanCenter]
    have h : 0 < R / 2 + eps := by linarith
    constructor
    · rw [← neg_div_neg_eq, lt_div_iff₀ (by linarith)]; linarith [hx.2]
    · rw [← neg_div_neg_eq, div_lt_one (by linarith)]; linarith [hx.1]
  · simp [Spec.physical] at hx
    simp [evalGInv, spanCenter]
    have h : 0 < R / 2 + eps := by linarith
    constructor
    · rw [lt_div_iff₀ h]; linarith [hx.1]
    · rw [div_lt_one h]; linarith [hx.2]

/-- C38: every point of `(-1, 1)` comes from an argument at most `eps` outside the physical segment, so the
boundary data is only sampled there. -/
theorem C38_sample_range (he : 0 < eps) (ha : a < 2 * π) (hR : 0 < R) (sid : Fin 3) {t : ℝ}
    (ht : t ∈ Set.Ioo (-1 : ℝ) 1) :
    ∃ x ∈ Spec.physical a R sid, |evalG eps a R sid t - x| < eps := by
  obtain ⟨h1, h2⟩ := ht
  fin_cases sid
  · refine ⟨(π - a / 2) * t + (π + a / 2), ?_, ?_⟩
    · simp only [Spec.physical, Fin.zero_eta, if_pos, Set.mem_Icc]
      constructor <;> nlinarith
    · simp only [evalG, spanCenter, Fin.zero_eta, if_pos, zero_ne_one, if_false, Fin.isValue]
      rw [abs_lt]; constructor <;> nlinarith
  · refine ⟨-(R / 2) * t + R / 2, ?_, ?_⟩
    · simp [Spec.physical]
      constructor <;> nlinarith
    · simp [evalG, spanCenter]
      rw [abs_lt]; constructor <;> nlinarith
  · refine ⟨R / 2 * t + R / 2, ?_, ?_⟩
    · simp [Spec.physical]
      constructor <;> nlinarith
    · simp [evalG, spanCenter]
      rw [abs_lt]; constructor <;> nlinarith

/-- C38 without the margin: with `eps = 0` the end points of a segment go to `±1`, where the derivative
formulas divide by zero. -/
theorem C38_needs_eps (hR : 0 < R) : evalGInv 0 a R 2 R = 1 := by
  simp [evalGInv, spanCenter]
  field_simp
  ring

example : (0 : ℝ) < psEps ∧ (π / 4 < 2 * π) ∧ (0 : ℝ) < 2.3 ∧ (2.3 : ℝ) ∈ Spec.physical (π / 4) 2.3 1 := by
  refine ⟨by norm_num [psEps], by linarith [pi_pos], by norm_num, ?_⟩
  simp [Spec.physical]; norm_num

/-! ## C39 -/

theorem iteratedDeriv_affine (P : ℝ[X]) (c d : ℝ) (n : ℕ) :
    iteratedDeriv n (fun x => P.eval ((x - c) * d)) =
      fun x => d ^ n * (derivative^[n] P).eval ((x - c) * d) := by
  induction n with
  | zero => simp
  | succ n ih =>
    rw [iteratedDeriv_succ, ih]
    funext x
    have h1 : HasDerivAt (fun x : ℝ => (x - c) * d) d x := by
      simpa using ((hasDerivAt_id x).sub_const c).mul_const d
    have h2 := ((derivative^[n] P).hasDerivAt ((x - c) * d)).comp x h1
    have h3 := (h2.const_mul (d ^ n)).deriv
    simp only [Function.comp_def] at h3
    rw [h3, Function.iterate_succ_apply']
    ring

theorem basisFn_eq (eps a R : ℝ) (sid : Fin 3) (J : ℕ) :
    Spec.basisFn eps a R sid J =
      fun x => (Chebyshev.T ℝ J).eval ((x - (spanCenter eps a R sid).2) * evalDGInv eps a R sid) := by
  funext x
  fin_cases sid
  · simp [Spec.basisFn, spanCenter, evalDGInv]
    congr 1; ring
  · simp [Spec.basisFn, spanCenter, evalDGInv]
    congr 1
    rw [← neg_add_rev, inv_neg]
    ring
  · simp [Spec.basisFn, spanCenter, evalDGInv]
    congr 1

/-- C39: `eval_dn_B_arg(n, JJ, arg, sid)` is the `n`-th derivative of the basis function on the physical
segment it belongs to. -/
theorem C39_derivative (he : 0 < eps) (ha : a < 2 * π) (hR : 0 < R) (B : List BDesc) (JJ : ℕ) (b : BDesc)
    (hb : B[JJ]? = some b) (n : ℕ) (hn : n ≤ 5) {x : ℝ} (hx : x ∈ Spec.physical a R b.sid) :
    evalDnB eps a R B n JJ x b.sid = .ok (iteratedDeriv n (Spec.basisFn eps a R b.sid b.J) x) := by
  have hi := C38_inside he ha hR b.sid hx
  simp only [evalDnB, hb, if_pos]
  rw [C36_derivatives n b.J hn hi, basisFn_eq, iteratedDeriv_affine]
  simp only [ok_bind, pure_eq_ok]
  congr 3
  simp [evalGInv, evalDGInv, div_eq_mul_inv]

/-- C39: a basis function of another segment contributes zero. -/
theorem C39_other_segment (B : List BDesc) (JJ : ℕ) (b : BDesc) (hb : B[JJ]? = some b) (n : ℕ) (x : ℝ)
    (sid : Fin 3) (hs : b.sid ≠ sid) : evalDnB eps a R B n JJ x sid = .ok 0 := by
  simp [evalDnB, hb, hs]

/-- C39, error branch -/
theorem C39_index_error (B : List BDesc) (JJ : ℕ) (hb : B.length ≤ JJ) (n : ℕ) (x : ℝ) (sid : Fin 3) :
    evalDnB eps a R B n JJ x sid = .error .indexError := by
  simp [evalDnB, List.getElem?_eq_none hb]

example : ([⟨4, 0⟩, ⟨2, 1⟩] : List BDesc)[1]? = some ⟨2, 1⟩ ∧ (1 : ℝ) ∈ Spec.physical (π / 4) 2.3 1 := by
  refine ⟨rfl, ?_⟩
  simp [Spec.physical]; norm_num

end

/-! ## C40 -/

theorem setup_inner (sid : Fin 3) (nb : ℕ) (B : List BDesc) (L : List ℕ) (JJ : ℕ) :
    (List.range nb).foldl (init := ((B, L, JJ) : List BDesc × List ℕ × ℕ))
      (fun s J => (s.1 ++ [⟨J, sid⟩], s.2.1 ++ [s.2.2], s.2.2 + 1)) =
    (B ++ (List.range nb).map (fun J => ⟨J, sid⟩), L ++ List.range' JJ nb, JJ + nb) := by
  induction nb with
  | zero => simp
  | succ n ih =>
    rw [List.range_succ, List.foldl_append, ih]
    simp [List.range'_concat, ← List.append_assoc, Nat.add_assoc]

/-- C40: the complete layout. -/
theorem C40_layout (p q : ℕ) :
    (setupBasis p q).segDesc = [⟨p, List.range p⟩, ⟨q, List.range' p q⟩, ⟨q, List.range' (p + q) q⟩] ∧
    (setupBasis p q).bDesc = (List.range p).map (fun J => ⟨J, 0⟩) ++ (List.range q).map (fun J => ⟨J, 1⟩) ++
      (List.range q).map (fun J => ⟨J, 2⟩) := by
  simp only [setupBasis, List.foldl_cons, List.foldl_nil, setup_inner, nBasisBySid]
  simp [List.range_eq_range', List.append_assoc]

/-- C40: `B_desc` has `n_circle + 2 n_radius` entries. -/
theorem C40_length (p q : ℕ) : (setupBasis p q).bDesc.length = p + 2 * q := by
  rw [(C40_layout p q).2]; simp; omega

/-- C40: the three `JJ_list`s, one after the other, are `0, 1, …, len(B_desc)-1`. -/
theorem C40_partition (p q : ℕ) :
    ((setupBasis p q).segDesc.map SegDesc.JJlist).flatten = List.range (setupBasis p q).bDesc.length := by
  rw [C40_length, (C40_layout p q).1]
  simp only [List.map_cons, List.map_nil, List.flatten_cons, List.flatten_nil, List.append_nil]
  rw [List.range_eq_range', List.range_eq_range']
  have h1 : List.range' p q ++ List.range' (p + q) q = List.range' p (q + q) := by
    simp
  have h2 : List.range' 0 p ++ List.range' p (q + q) = List.range' 0 (p + (q + q)) := by
    have := List.range'_append (s := 0) (m := p) (n := q + q) (step := 1)
    simpa using this
  rw [h1, h2, two_mul]

/-- C40: the `l`-th entry of a segment's `JJ_list` is the index of the basis function of degree `l` of that
segment. -/
theorem C40_entries (p q : ℕ) (sid : Fin 3) (s : SegDesc) (hs : (setupBasis p q).segDesc[sid.val]? = some s) :
    s.JJlist.length = s.nBasis ∧ s.nBasis = nBasisBySid p q sid ∧
    ∀ l < s.nBasis, ∃ JJ, s.JJlist[l]? = some JJ ∧ (setupBasis p q).bDesc[JJ]? = some ⟨l, sid⟩ := by
  rw [(C40_layout p q).1] at hs
  rw [(C40_layout p q).2]
  fin_cases sid <;> simp at hs <;> subst hs
  · refine ⟨by simp, rfl, fun l hl => ⟨l, ?_, ?_⟩⟩
    · simp only at hl
      simp [List.getElem?_range hl]
    · simp only at hl
      rw [List.append_assoc, List.getElem?_append_left (by simpa using hl)]
      simp [hl]
  · refine ⟨by simp, rfl, fun l hl => ⟨p + l, ?_, ?_⟩⟩
    · simp only at hl
      simp [hl]
    · simp only at hl
      rw [List.append_assoc, List.getElem?_append_right (by simp), List.getElem?_append_left (by simpa using hl)]
      simp [hl]
  · refine ⟨by simp, rfl, fun l hl => ⟨p + q + l, ?_, ?_⟩⟩
    · simp only at hl
      simp [hl]
    · simp only at hl
      rw [List.getElem?_append_right (by simp)]
      simp [hl]

example : setupBasis 2 1 = ⟨[⟨2, [0, 1]⟩, ⟨1, [2]⟩, ⟨1, [3]⟩], [⟨0, 0⟩, ⟨1, 0⟩, ⟨0, 1⟩, ⟨0, 2⟩]⟩ := by decide

/-! ## C41 -/

theorem zipIdx_sum {α M : Type} [AddCommMonoid M] (z : α) (f : α × ℕ → M) (c : List α) :
    (c.zipIdx.map f).sum = ∑ i ∈ Finset.range c.length, f (c.getD i z, i) := by
  induction c using List.reverseRecOn with
  | nil => simp
  | append_singleton l a ih =>
    rw [List.zipIdx_append, List.map_append, List.sum_append, ih, List.length_append]
    simp only [List.length_singleton, Finset.sum_range_succ]
    congr 1
    · refine Finset.sum_congr rfl fun i hi => ?_
      rw [Finset.mem_range] at hi
      simp [List.getD, List.getElem?_append_left hi]
    · simp [List.getD]

theorem chebSeries_eq (c : List ℂ) (t : ℝ) :
    Spec.chebSeries c t = (∑ i ∈ Finset.range c.length, C (c.getD i 0) * Chebyshev.T ℂ (i : ℤ)).eval (t : ℂ) := by
  rw [Spec.chebSeries, zipIdx_sum (0 : ℂ), eval_finsetSum]
  refine Finset.sum_congr rfl fun i _ => ?_
  rw [eval_mul, eval_C, Chebyshev.complex_ofReal_eval_T]

/-- two series of length `m` that agree at the roots of `T_J`, `m ≤ J`, have the same coefficients -/
theorem cheb_unique {J m : ℕ} (hm : m ≤ J) {c d : List ℂ} (hc : c.length = m) (hd : d.length = m)
    (h : ∀ t ∈ chebRoots J, Spec.chebSeries c t = Spec.chebSeries d t) : c = d := by
  set P : ℂ[X] := ∑ i ∈ Finset.range m, (c.getD i 0 - d.getD i 0) • Chebyshev.T ℂ (i : ℤ) with hP
  have hev : ∀ t ∈ chebRoots J, P.eval (t : ℂ) = 0 := by
    intro t ht
    have e := h t ht
    rw [chebSeries_eq, chebSeries_eq, hc, hd, ← sub_eq_zero, ← eval_sub, ← Finset.sum_sub_distrib] at e
    rw [← e, hP]
    congr 1
    refine Finset.sum_congr rfl fun i _ => ?_
    rw [smul_eq_C_mul, C_sub]; ring
  have hdeg : P.degree < m := by
    refine lt_of_le_of_lt (degree_sum_le _ _) ?_
    refine (Finset.sup_lt_iff (WithBot.bot_lt_coe m)).2 fun i hi => ?_
    refine lt_of_le_of_lt (degree_smul_le _ _) ?_
    rw [Chebyshev.degree_T]
    exact WithBot.coe_lt_coe.2 (Finset.mem_range.1 hi)
  have hP0 : P = 0 := by
    have hnd : (chebRoots J).Nodup := (C37_increasing J).imp ne_of_lt
    have hinj : Function.Injective (fun t : ℝ => (t : ℂ)) := Complex.ofReal_injective
    refine eq_zero_of_degree_lt_of_eval_finset_eq_zero ((chebRoots J).toFinset.map ⟨_, hinj⟩) ?_ ?_
    · rw [Finset.card_map, List.toFinset_card_of_nodup hnd, C37_length]
      exact lt_of_lt_of_le hdeg (by exact_mod_cast hm)
    · intro x hx
      simp only [Finset.mem_map, List.mem_toFinset, Function.Embedding.coeFn_mk] at hx
      obtain ⟨t, ht, rfl⟩ := hx
      exact hev t ht
  have hli := (Chebyshev.chebyshevTsequence ℂ).linearIndependent
  rw [linearIndependent_iff'] at hli
  have hz := hli (Finset.range m) (fun i => c.getD i 0 - d.getD i 0) (by rw [← hP0, hP]; rfl)
  refine List.ext_getElem (by rw [hc, hd]) fun i h1 h2 => ?_
  have := hz i (Finset.mem_range.2 (hc ▸ h1))
  rw [sub_eq_zero] at this
  simpa [List.getD, h1, h2] using this

theorem residual_nonneg (x : List ℝ) (y c : List ℂ) : 0 ≤ Spec.residual x y c := by
  refine List.sum_nonneg fun z hz => ?_
  obtain ⟨p, _, rfl⟩ := List.mem_map.1 hz
  positivity

theorem residual_zero {x : List ℝ} {g : ℝ → ℂ} {c : List ℂ} :
    Spec.residual x (x.map g) c = 0 ↔ ∀ t ∈ x, Spec.chebSeries c t = g t := by
  rw [Spec.residual]
  induction x with
  | nil => simp
  | cons a l ih =>
    rw [List.map_cons, List.zip_cons_cons, List.map_cons, List.sum_cons]
    have h := residual_nonneg l (l.map g) c
    rw [Spec.residual] at h
    rw [add_eq_zero_iff_of_nonneg (by positivity) h, ih]
    simp [sub_eq_zero]

/-- a least-squares routine meeting the contract exists, so C41 is not vacuous -/
theorem exists_chebfit : ∃ fit : Chebfit, Spec.IsChebfit fit := by
  have key : ∀ (x : List ℝ) (y : List ℂ) (m : ℕ), ∃ c : List ℂ, c.length = m ∧
      ∀ d : List ℂ, d.length = m → Spec.residual x y c ≤ Spec.residual x y d := by
    intro x y m
    obtain ⟨c, hc⟩ := exists_lsq (m := m) (n := (x.zip y).length)
      (fun i j => (((Chebyshev.T ℝ (j.val : ℤ)).eval (x.zip y)[i].1 : ℝ) : ℂ)) fun i => (x.zip y)[i].2
    have hres : ∀ d : List ℂ, (hd : d.length = m) → Spec.residual x y d =
        ∑ i : Fin (x.zip y).length, ‖(∑ j : Fin m, (((Chebyshev.T ℝ (j.val : ℤ)).eval (x.zip y)[i].1 : ℝ) : ℂ) * d.getD j 0)
          - (x.zip y)[i].2‖ ^ 2 := by
      intro d hd
      rw [Spec.residual, ← Fin.sum_univ_fun_getElem]
      refine Finset.sum_congr rfl fun i _ => ?_
      congr 2
      rw [Spec.chebSeries, zipIdx_sum (0 : ℂ), hd, Finset.sum_range]
      congr 1
      exact Finset.sum_congr rfl fun j _ => mul_comm _ _
    refine ⟨List.ofFn c, by simp, fun d hd => ?_⟩
    rw [hres _ (by simp), hres d hd]
    refine le_of_eq_of_le ?_ (hc fun j => d.getD j 0)
    refine Finset.sum_congr rfl fun i _ => ?_
    congr 3
    refine Finset.sum_congr rfl fun j _ => ?_
    simp [List.getD]
  choose f h1 h2 using key
  exact ⟨f, fun x y m _ _ => ⟨h1 x y m, h2 x y m⟩⟩

/-- C41: data in the span of the basis functions of a segment is recovered exactly, whatever minimiser the
least-squares routine returns. -/
theorem C41_exact {eps a R : ℝ} (he : 0 < eps) (ha : a < 2 * π) (hR : 0 < R) {fit : Chebfit}
    (hfit : Spec.IsChebfit fit) (bas : Basis) (sid : Fin 3) (s : SegDesc)
    (hs : bas.segDesc[sid.val]? = some s) (J : ℕ) (h1 : 1 ≤ s.nBasis) (hJ : s.nBasis ≤ J)
    (c : List ℂ) (hc : c.length = s.nBasis) (func : ℝ → ℂ)
    (hf : ∀ x, (∃ p ∈ Spec.physical a R sid, |x - p| < eps) →
      func x = (c.zipIdx.map fun p => p.1 * (Spec.basisFn eps a R sid p.2 x : ℂ)).sum) :
    chebCoef eps a R fit (chebRoots J) bas sid func = .ok c := by
  simp only [chebCoef, hs, pure_eq_ok, throw_eq_error]
  rw [if_neg (by omega)]
  congr 1
  set y := (chebRoots J).map fun t => func (evalG eps a R sid t)
  obtain ⟨hl, hmin⟩ := hfit (chebRoots J) y s.nBasis (by simp [y]) h1
  have hdata : ∀ t ∈ chebRoots J, Spec.chebSeries c t = func (evalG eps a R sid t) := by
    intro t ht
    rw [hf _ (C38_sample_range he ha hR sid (C37_inside J t ht)), Spec.chebSeries]
    congr 2
    funext p
    congr 2
    rw [basisFn_eq]
    have e := (C38_inverse he ha hR sid).1 t
    simp only [evalGInv] at e
    simp only [evalDGInv, one_div, ← div_eq_mul_inv, e]
  have hz : Spec.residual (chebRoots J) y (fit (chebRoots J) y s.nBasis) = 0 :=
    le_antisymm ((hmin c hc).trans_eq (residual_zero.2 hdata)) (residual_nonneg _ _ _)
  refine cheb_unique hJ hl hc fun t ht => ?_
  rw [residual_zero.1 hz t ht, hdata t ht]

/-- C41 and C40 for `calc_c0`: with boundary data in the span of the bases, `c0` is the concatenation of the
coefficients of the three segments, in the order of `B_desc`. -/
theorem C41_calc_c0 {eps a R : ℝ} (he : 0 < eps) (ha : a < 2 * π) (hR : 0 < R) {fit : Chebfit}
    (hfit : Spec.IsChebfit fit) (p q : ℕ) (hp : 1 ≤ p) (hq : 1 ≤ q) (hp' : p ≤ 1024) (hq' : q ≤ 1024)
    (c : Fin 3 → List ℂ) (hc : ∀ sid, (c sid).length = nBasisBySid p q sid) (bc : ℝ → Fin 3 → ℂ)
    (hbc : ∀ sid x, (∃ p ∈ Spec.physical a R sid, |x - p| < eps) →
      bc x sid = ((c sid).zipIdx.map fun p => p.1 * (Spec.basisFn eps a R sid p.2 x : ℂ)).sum) :
    calcC0 eps a R fit (chebRoots 1024) (setupBasis p q) bc = .ok (c 0 ++ c 1 ++ c 2) := by
  have key : ∀ sid, chebCoef eps a R fit (chebRoots 1024) (setupBasis p q) sid (fun x => bc x sid) =
      .ok (c sid) := by
    intro sid
    have hl : sid.val < (setupBasis p q).segDesc.length := by
      rw [(C40_layout p q).1]; exact sid.isLt
    obtain ⟨e1, e2, _⟩ := C40_entries p q sid _ (List.getElem?_eq_getElem hl)
    refine C41_exact he ha hR hfit _ sid _ (List.getElem?_eq_getElem hl) 1024 ?_ ?_ _ ?_ _ (hbc sid)
    · rw [e2]; fin_cases sid <;> simpa [nBasisBySid]
    · rw [e2]; fin_cases sid <;> simpa [nBasisBySid]
    · rw [e2]; exact hc sid
  simp only [calcC0, List.foldlM_cons, List.foldlM_nil, key, ok_bind, pure_eq_ok]

/-- C40: `calc_c0` returns one coefficient per entry of `B_desc`, for any boundary data. -/
theorem C40_c0_length {eps a R : ℝ} {fit : Chebfit} (hfit : Spec.IsChebfit fit) (p q : ℕ) (hp : 1 ≤ p)
    (hq : 1 ≤ q) (roots : List ℝ) (bc : ℝ → Fin 3 → ℂ) :
    ∃ c0, calcC0 eps a R fit roots (setupBasis p q) bc = .ok c0 ∧
      c0.length = (setupBasis p q).bDesc.length := by
  have key : ∀ sid (f : ℝ → ℂ), ∃ c, chebCoef eps a R fit roots (setupBasis p q) sid f = .ok c ∧
      c.length = nBasisBySid p q sid := by
    intro sid f
    have hl : sid.val < (setupBasis p q).segDesc.length := by
      rw [(C40_layout p q).1]; exact sid.isLt
    obtain ⟨e1, e2, _⟩ := C40_entries p q sid _ (List.getElem?_eq_getElem hl)
    have h1 : 1 ≤ nBasisBySid p q sid := by fin_cases sid <;> simpa [nBasisBySid]
    simp only [chebCoef, List.getElem?_eq_getElem hl, pure_eq_ok, throw_eq_error]
    rw [if_neg (by omega)]
    exact ⟨_, rfl, by rw [(hfit _ _ _ (by simp) (e2 ▸ h1)).1, e2]⟩
  obtain ⟨c, h0, l0⟩ := key 0 fun th => bc th 0
  obtain ⟨d, h1, l1⟩ := key 1 fun th => bc th 1
  obtain ⟨f, h2, l2⟩ := key 2 fun th => bc th 2
  refine ⟨c ++ d ++ f, ?_, ?_⟩
  · simp only [calcC0, List.foldlM_cons, List.foldlM_nil, h0, h1, h2, ok_bind, pure_eq_ok]
  · rw [C40_length]; simp [l0, l1, l2, nBasisBySid]; omega

/-- C41, error branch: an empty basis on a segment makes `chebfit` raise. -/
theorem C41_empty_basis {eps a R : ℝ} (fit : Chebfit) (roots : List ℝ) (q : ℕ) (bc : ℝ → Fin 3 → ℂ) :
    calcC0 eps a R fit roots (setupBasis 0 q) bc = .error .valueError := by
  simp [calcC0, chebCoef, (C40_layout 0 q).1]

/-- the hypotheses of `C41_calc_c0` are met by the shipped sizes (21, 9) for N = 16 with the data whose
coefficients are all `i` -/
example : ∃ (fit : Chebfit) (c : Fin 3 → List ℂ) (bc : ℝ → Fin 3 → ℂ), Spec.IsChebfit fit ∧
    (∀ sid, (c sid).length = nBasisBySid 21 9 sid) ∧
    calcC0 psEps (π / 4) 2.3 fit (chebRoots 1024) (setupBasis 21 9) bc = .ok (c 0 ++ c 1 ++ c 2) := by
  obtain ⟨fit, hf⟩ := exists_chebfit
  have hc : ∀ sid, ((fun sid => List.replicate (nBasisBySid 21 9 sid) Complex.I) sid).length =
      nBasisBySid 21 9 sid := by simp
  refine ⟨fit, fun sid => List.replicate (nBasisBySid 21 9 sid) Complex.I, fun x sid =>
    ((List.replicate (nBasisBySid 21 9 sid) Complex.I).zipIdx.map fun p =>
      p.1 * (Spec.basisFn psEps (π / 4) 2.3 sid p.2 x : ℂ)).sum, hf, hc, ?_⟩
  exact C41_calc_c0 (by norm_num [psEps]) (by linarith [pi_pos]) (by norm_num) hf 21 9 (by norm_num)
    (by norm_num) (by norm_num) (by norm_num) _ hc _ fun _ _ _ => rfl

end Pot
