import Verif.Proofs.Consistency
import Verif.Proofs.JetExist
import Mathlib.Analysis.SpecialFunctions.ExpDeriv

/-! # Properties C16, C17: consistency of the two schemes

`gridOf AD n F` is the full array of samples of `F` at the solver's nodes; `U i j` are the partial
derivatives of `u = U 0 0`; the source is `f = u_xx + u_yy + k² u`. -/

namespace Pot
open Spec

/-- the `(N+1, N+1)` array of the values of `F` at the nodes of the auxiliary grid, `N = n + 1` -/
noncomputable def gridOf (AD : ℝ) (n : ℕ) (F : ℝ → ℝ → ℂ) : Arr (n + 2) := fun p q =>
  F (getCoord AD (n + 1) p q).1 (getCoord AD (n + 1) p q).2

/-- the Helmholtz operator applied to `u`, from its second partial derivatives -/
noncomputable def helm (U : ℕ → ℕ → ℝ → ℝ → ℂ) (k : ℝ) (x y : ℝ) : ℂ :=
  U 2 0 x y + U 0 2 x y + (k : ℂ) ^ 2 * U 0 0 x y

theorem fullNode_gridOf (AD : ℝ) (n : ℕ) (F : ℝ → ℝ → ℂ) (i j : ℤ) (h0 : 0 ≤ i) (h1 : i ≤ n + 1)
    (h2 : 0 ≤ j) (h3 : j ≤ n + 1) : fullNode (gridOf AD n F) i j = smp AD (n + 1) F i j := by
  rw [fullNode_of (gridOf AD n F) ⟨i.toNat, by omega⟩ ⟨j.toNat, by omega⟩ (by simp; omega) (by simp; omega)]
  unfold gridOf smp
  have e1 : ((i.toNat : ℕ) : ℝ) = ((i : ℤ) : ℝ) := by
    have : ((i.toNat : ℕ) : ℤ) = i := by omega
    exact_mod_cast congrArg (Int.cast (R := ℝ)) this
  have e2 : ((j.toNat : ℕ) : ℝ) = ((j : ℤ) : ℝ) := by
    have : ((j.toNat : ℕ) : ℤ) = j := by omega
    exact_mod_cast congrArg (Int.cast (R := ℝ)) this
  simp only [e1, e2]

theorem applyL_gridOf (AD : ℝ) (n order : ℕ) (k : ℝ) (F : ℝ → ℝ → ℂ) (a b : Fin n) :
    applyL (gridOf AD n F) order AD k a b
      = Lh order (AD / (n + 1)) k (smp AD (n + 1) F) (a + 1) (b + 1) := by
  rw [applyL_eq_spec]
  exact Lh_congr fun p q h1 h2 h3 h4 => fullNode_gridOf AD n F p q (by omega) (by omega) (by omega) (by omega)

theorem applyB_gridOf (AD : ℝ) (n : ℕ) (F : ℝ → ℝ → ℂ) (a b : Fin n) :
    applyB (gridOf AD n F) a b = B4 (smp AD (n + 1) F) (a + 1) (b + 1) := by
  rw [applyB_eq_spec]
  have H := fun p q h1 h2 h3 h4 => fullNode_gridOf AD n F p q h1 h2 h3 h4
  unfold B4 dxx dyy
  rw [H, H, H, H, H] <;> omega

theorem mid_coord (AD : ℝ) (n : ℕ) (a b : Fin n) :
    getCoord AD (n + 1) (((a : ℤ) + 1 : ℤ) : ℝ) (((b : ℤ) + 1 : ℤ) : ℝ)
      = getCoord AD (n + 1) ((a : ℝ) + 1) ((b : ℝ) + 1) := by
  push_cast; rfl

/-- **C16** fourth-order consistency with explicit constant: on the nine-point box around the node all sixth
partial derivatives of `u` are bounded by `M`. -/
theorem C16_smooth {U : ℕ → ℕ → ℝ → ℝ → ℂ} (hU : Jet 6 U) {AD : ℝ} (hAD : 0 < AD) (k M : ℝ) {n : ℕ}
    (a b : Fin n)
    (hM : ∀ i j, i + j = 6 → ∀ s t, |s| ≤ AD / (n + 1) → |t| ≤ AD / (n + 1) →
      ‖U i j ((getCoord AD (n + 1) (a + 1) (b + 1)).1 + s) ((getCoord AD (n + 1) (a + 1) (b + 1)).2 + t)‖ ≤ M) :
    ‖applyL (gridOf AD n (U 0 0)) 4 AD k a b - applyB (gridOf AD n (helm U k)) a b‖
      ≤ 11 / 180 * M * (AD / (n + 1)) ^ 4 := by
  have hn : (0:ℝ) < (n : ℝ) + 1 := by positivity
  have hh : 0 < AD / ((n : ℝ) + 1) := by positivity
  have core := fourth_order_core (U := U) hU hh.le hM
  rw [applyL_gridOf, applyB_gridOf]
  unfold Lh; rw [if_pos rfl]
  unfold L4 B4
  rw [dyy_smp_fun, dxx_smp, dxx_smp, dxx_smp, dyy_smp]
  unfold smp
  rw [mid_coord]
  have hN : ((n + 1 : ℕ) : ℝ) = (n : ℝ) + 1 := by push_cast; rfl
  rw [hN]
  set h := AD / ((n : ℝ) + 1)
  set x := (getCoord AD (n + 1) ((a : ℝ) + 1) ((b : ℝ) + 1)).1
  set y := (getCoord AD (n + 1) ((a : ℝ) + 1) ((b : ℝ) + 1)).2
  have hC : (h : ℂ) ≠ 0 := by exact_mod_cast hh.ne'
  set T := D1 (U 0 0) h x y + D2 (U 0 0) h x y + D1 (D2 (U 0 0) h) h x y / 6 -
      (h : ℂ) ^ 2 * ((U 2 0 x y + U 0 2 x y) +
        (D1 (U 2 0) h x y + D1 (U 0 2) h x y + D2 (U 2 0) h x y + D2 (U 0 2) h x y) / 12)
  have e : (D1 (U 0 0) h x y + D2 (U 0 0) h x y + D1 (D2 (U 0 0) h) h x y / 6) / (h : ℂ) ^ 2 +
        (k : ℂ) ^ 2 * (U 0 0 x y + (D1 (U 0 0) h x y + D2 (U 0 0) h x y) / 12) -
      (helm U k x y + (D1 (helm U k) h x y + D2 (helm U k) h x y) / 12) = T / (h : ℂ) ^ 2 := by
    simp only [T]
    unfold helm
    unfold D1 D2
    field_simp
    ring
  rw [e, norm_div, norm_pow, Complex.norm_real, Real.norm_eq_abs, abs_of_pos hh,
    div_le_iff₀ (by positivity)]
  calc _ ≤ _ := core
    _ = _ := by ring

/-- **C16** the same for every `u` of class `C⁶`: the error is at most a constant times `h⁴`, with one constant
for all grids, nodes and `k`. -/
theorem C16_contDiff {u : ℝ × ℝ → ℂ} (hu : ContDiff ℝ 6 u) {AD : ℝ} (hAD : 0 < AD) :
    ∃ C : ℝ, ∀ (k : ℝ) (n : ℕ) (a b : Fin n),
      ‖applyL (gridOf AD n (fun x y => u (x, y))) 4 AD k a b -
        applyB (gridOf AD n (fun x y => pd1 (pd1 u) (x, y) + pd2 (pd2 u) (x, y) + (k : ℂ) ^ 2 * u (x, y))) a b‖
        ≤ C * (AD / (n + 1)) ^ 4 := by
  have hu' : ContDiff ℝ (6 : ℕ) u := by exact_mod_cast hu
  -- every sixth derivative is bounded on a compact box containing all stencils
  have hcont : ∀ i j, i + j = 6 → Continuous (pdFam u i j) := by
    intro i j hij
    have h1 : ContDiff ℝ (0 + i : ℕ) (pd2^[j] u) := pd2_iter (by convert hu' using 2; omega)
    exact (pd1_iter h1).continuous
  have hb : ∀ i j, i + j = 6 → ∃ B, ∀ p : ℝ × ℝ, |p.1| ≤ 2 * AD → |p.2| ≤ 2 * AD → ‖pdFam u i j p‖ ≤ B := by
    intro i j hij
    obtain ⟨B, hB⟩ := ((isCompact_Icc (a := -(2 * AD)) (b := 2 * AD)).prod
      (isCompact_Icc (a := -(2 * AD)) (b := 2 * AD))).exists_bound_of_continuousOn (hcont i j hij).continuousOn
    refine ⟨B, fun p h1 h2 => hB p ⟨?_, ?_⟩⟩
    · exact Set.mem_Icc.2 (abs_le.1 h1)
    · exact Set.mem_Icc.2 (abs_le.1 h2)
  choose! B hB using hb
  obtain ⟨M, hM⟩ : ∃ M, ∀ i j, i + j = 6 → B i j ≤ M := by
    refine ⟨∑ i ∈ Finset.range 7, |B i (6 - i)|, fun i j hij => ?_⟩
    have : j = 6 - i := by omega
    subst this
    exact (le_abs_self _).trans
      (Finset.single_le_sum (f := fun i => |B i (6 - i)|) (fun _ _ => abs_nonneg _) (by simp; omega))
  refine ⟨11 / 180 * M, fun k n a b => ?_⟩
  refine C16_smooth (jet_of_contDiff hu') hAD k M a b fun i j hij s t hs ht => ?_
  have hn : (1:ℝ) ≤ (n : ℝ) + 1 := by linarith [(Nat.cast_nonneg n : (0:ℝ) ≤ n)]
  have hh : AD / ((n : ℝ) + 1) ≤ AD := div_le_self hAD.le hn
  have hbox : ∀ c : Fin n, |AD * (((c : ℝ) + 1) / ((n + 1 : ℕ) : ℝ) - 1 / 2)| ≤ AD := by
    intro c
    rw [abs_mul, abs_of_pos hAD]
    have h0 : 0 ≤ ((c : ℝ) + 1) / ((n + 1 : ℕ) : ℝ) := by positivity
    have h1 : ((c : ℝ) + 1) / ((n + 1 : ℕ) : ℝ) ≤ 1 := by
      rw [div_le_one (by positivity)]
      exact_mod_cast (by omega : (c : ℕ) + 1 ≤ n + 1)
    have : |((c : ℝ) + 1) / ((n + 1 : ℕ) : ℝ) - 1 / 2| ≤ 1 := by
      rw [abs_le]; constructor <;> linarith
    nlinarith
  refine (hB i j hij _ ?_ ?_).trans (hM i j hij)
  · exact (abs_add_le _ _).trans (by have := hbox a; simp only [getCoord]; linarith)
  · exact (abs_add_le _ _).trans (by have := hbox b; simp only [getCoord]; linarith)

/-- **C16** polynomials of total degree at most 5 are reproduced exactly: `u = Σ c_ij x^i y^j`, the source is
its Laplacian plus `k² u`, written out. -/
theorem C16_poly {c : ℕ → ℕ → ℂ} (hc : ∀ i j, 5 < i + j → c i j = 0) {AD : ℝ} (hAD : 0 < AD) (k : ℝ) {n : ℕ}
    (a b : Fin n) :
    applyL (gridOf AD n (fun x y : ℝ => ∑ i ∈ Finset.range 6, ∑ j ∈ Finset.range 6,
        c i j * (x : ℂ) ^ i * (y : ℂ) ^ j)) 4 AD k a b
    = applyB (gridOf AD n (fun x y : ℝ => ∑ i ∈ Finset.range 6, ∑ j ∈ Finset.range 6,
        c i j * ((i : ℂ) * ((i : ℂ) - 1) * (x : ℂ) ^ (i - 2) * (y : ℂ) ^ j
          + (j : ℂ) * ((j : ℂ) - 1) * (x : ℂ) ^ i * (y : ℂ) ^ (j - 2)
          + (k : ℂ) ^ 2 * (x : ℂ) ^ i * (y : ℂ) ^ j))) a b := by
  have h := C16_smooth (polyFam_jet 5 c 6) hAD k 0 a b (fun i j hij s t _ _ => by
    rw [polyFam_zero hc (by omega)]; simp)
  have h0 : ∀ x : ℂ, ‖x‖ ≤ 11 / 180 * 0 * (AD / (n + 1)) ^ 4 → x = 0 := by
    intro x hx; rw [mul_zero, zero_mul] at hx; exact norm_le_zero_iff.1 hx
  have hd2 : ∀ i : ℕ, ((i.descFactorial 2 : ℕ) : ℂ) = (i : ℂ) * ((i : ℂ) - 1) := by
    intro i
    cases i with
    | zero => simp
    | succ i => simp [Nat.descFactorial]; ring
  have e1 : polyFam 5 c 0 0 = fun x y : ℝ => ∑ i ∈ Finset.range 6, ∑ j ∈ Finset.range 6,
      c i j * (x : ℂ) ^ i * (y : ℂ) ^ j := by
    funext x y; unfold polyFam; simp
  have e2 : helm (polyFam 5 c) k = fun x y : ℝ => ∑ i ∈ Finset.range 6, ∑ j ∈ Finset.range 6,
        c i j * ((i : ℂ) * ((i : ℂ) - 1) * (x : ℂ) ^ (i - 2) * (y : ℂ) ^ j
          + (j : ℂ) * ((j : ℂ) - 1) * (x : ℂ) ^ i * (y : ℂ) ^ (j - 2)
          + (k : ℂ) ^ 2 * (x : ℂ) ^ i * (y : ℂ) ^ j) := by
    funext x y
    unfold helm polyFam
    rw [Finset.mul_sum, ← Finset.sum_add_distrib, ← Finset.sum_add_distrib]
    refine Finset.sum_congr rfl fun i _ => ?_
    rw [Finset.mul_sum, ← Finset.sum_add_distrib, ← Finset.sum_add_distrib]
    refine Finset.sum_congr rfl fun j _ => ?_
    rw [hd2, hd2]
    simp
    ring
  rw [← e1, ← e2]
  exact sub_eq_zero.1 (h0 _ h)

/-- the fourth-order scheme is not exact in degree 6: `u = x⁶`, `k = 0`, `h = 1`, at the centre of a 2x2 grid
(residual 2 against averaged source 5), so the degree bound and the `h⁴` rate in C16 are sharp -/
example : applyL (gridOf 2 1 (fun x _ => (x : ℂ) ^ 6)) 4 2 0 0 0 = 2 ∧
    applyB (gridOf 2 1 (fun x _ => 30 * (x : ℂ) ^ 4)) 0 0 = 5 := by
  constructor
  · unfold applyL gridOf getCoord
    simp; norm_num
  · unfold applyB gridOf getCoord
    simp; norm_num

/-- **C17** second-order consistency with explicit constant. -/
theorem C17_smooth {U : ℕ → ℕ → ℝ → ℝ → ℂ} (hU : Jet 4 U) {AD : ℝ} (hAD : 0 < AD) (k M : ℝ) {n : ℕ}
    (a b : Fin n)
    (hM : ∀ i j, i + j = 4 → ∀ s t, |s| ≤ AD / (n + 1) → |t| ≤ AD / (n + 1) →
      ‖U i j ((getCoord AD (n + 1) (a + 1) (b + 1)).1 + s) ((getCoord AD (n + 1) (a + 1) (b + 1)).2 + t)‖ ≤ M) :
    ‖applyL (gridOf AD n (U 0 0)) 2 AD k a b - helm U k (getCoord AD (n + 1) (a + 1) (b + 1)).1
        (getCoord AD (n + 1) (a + 1) (b + 1)).2‖ ≤ M / 6 * (AD / (n + 1)) ^ 2 := by
  have hn : (0:ℝ) < (n : ℝ) + 1 := by positivity
  have hh : 0 < AD / ((n : ℝ) + 1) := by positivity
  rw [applyL_gridOf]
  unfold Lh; rw [if_neg (by norm_num)]
  unfold L2
  rw [dxx_smp, dyy_smp]
  unfold smp
  rw [mid_coord]
  have hN : ((n + 1 : ℕ) : ℝ) = (n : ℝ) + 1 := by push_cast; rfl
  rw [hN]
  have c1 := D1_four (i := 0) (j := 0) hU rfl hh.le hM
  have c2 := D2_four (i := 0) (j := 0) hU rfl hh.le hM
  simp only [Nat.zero_add] at c1 c2
  set h := AD / ((n : ℝ) + 1)
  set x := (getCoord AD (n + 1) ((a : ℝ) + 1) ((b : ℝ) + 1)).1
  set y := (getCoord AD (n + 1) ((a : ℝ) + 1) ((b : ℝ) + 1)).2
  have hC : (h : ℂ) ≠ 0 := by exact_mod_cast hh.ne'
  have e : (D1 (U 0 0) h x y + D2 (U 0 0) h x y) / (h : ℂ) ^ 2 + (k : ℂ) ^ 2 * U 0 0 x y - helm U k x y
      = ((D1 (U 0 0) h x y - U 2 0 x y * (h : ℂ) ^ 2) + (D2 (U 0 0) h x y - U 0 2 x y * (h : ℂ) ^ 2))
        / (h : ℂ) ^ 2 := by
    unfold helm; field_simp; ring
  rw [e, norm_div, norm_pow, Complex.norm_real, Real.norm_eq_abs, abs_of_pos hh,
    div_le_iff₀ (by positivity)]
  calc _ ≤ _ := norm_add_le _ _
    _ ≤ M / 12 * h ^ 4 + M / 12 * h ^ 4 := add_le_add c1 c2
    _ = _ := by ring

/-- **C17** polynomials of total degree at most 3 are reproduced exactly. -/
theorem C17_poly {c : ℕ → ℕ → ℂ} (hc : ∀ i j, 3 < i + j → c i j = 0) {AD : ℝ} (hAD : 0 < AD) (k : ℝ) {n : ℕ}
    (a b : Fin n) (x y : ℝ) (hx : x = AD * (((a : ℝ) + 1) / (n + 1) - 1 / 2))
    (hy : y = AD * (((b : ℝ) + 1) / (n + 1) - 1 / 2)) :
    applyL (gridOf AD n (fun x y : ℝ => ∑ i ∈ Finset.range 4, ∑ j ∈ Finset.range 4,
        c i j * (x : ℂ) ^ i * (y : ℂ) ^ j)) 2 AD k a b
    = ∑ i ∈ Finset.range 4, ∑ j ∈ Finset.range 4,
        c i j * ((i : ℂ) * ((i : ℂ) - 1) * (x : ℂ) ^ (i - 2) * (y : ℂ) ^ j
          + (j : ℂ) * ((j : ℂ) - 1) * (x : ℂ) ^ i * (y : ℂ) ^ (j - 2)
          + (k : ℂ) ^ 2 * (x : ℂ) ^ i * (y : ℂ) ^ j) := by
  have h := C17_smooth (polyFam_jet 3 c 4) hAD k 0 a b (fun i j hij s t _ _ => by
    rw [polyFam_zero hc (by omega)]; simp)
  have hxy : getCoord AD (n + 1) ((a : ℝ) + 1) ((b : ℝ) + 1) = (x, y) := by
    rw [hx, hy]; unfold getCoord; push_cast; rfl
  rw [hxy] at h
  have h0 : ∀ x : ℂ, ‖x‖ ≤ 0 / 6 * (AD / (n + 1)) ^ 2 → x = 0 := by
    intro x hx; rw [zero_div, zero_mul] at hx; exact norm_le_zero_iff.1 hx
  have hd2 : ∀ i : ℕ, ((i.descFactorial 2 : ℕ) : ℂ) = (i : ℂ) * ((i : ℂ) - 1) := by
    intro i
    cases i with
    | zero => simp
    | succ i => simp [Nat.descFactorial]; ring
  have e1 : polyFam 3 c 0 0 = fun x y : ℝ => ∑ i ∈ Finset.range 4, ∑ j ∈ Finset.range 4,
      c i j * (x : ℂ) ^ i * (y : ℂ) ^ j := by
    funext x y; unfold polyFam; simp
  have e2 : helm (polyFam 3 c) k x y = ∑ i ∈ Finset.range 4, ∑ j ∈ Finset.range 4,
        c i j * ((i : ℂ) * ((i : ℂ) - 1) * (x : ℂ) ^ (i - 2) * (y : ℂ) ^ j
          + (j : ℂ) * ((j : ℂ) - 1) * (x : ℂ) ^ i * (y : ℂ) ^ (j - 2)
          + (k : ℂ) ^ 2 * (x : ℂ) ^ i * (y : ℂ) ^ j) := by
    unfold helm polyFam
    rw [Finset.mul_sum, ← Finset.sum_add_distrib, ← Finset.sum_add_distrib]
    refine Finset.sum_congr rfl fun i _ => ?_
    rw [Finset.mul_sum, ← Finset.sum_add_distrib, ← Finset.sum_add_distrib]
    refine Finset.sum_congr rfl fun j _ => ?_
    rw [hd2, hd2]
    simp
    ring
  rw [← e1, ← e2]
  exact sub_eq_zero.1 (h0 _ h)

/-- the hypotheses of C16/C17 are met by every smooth function, e.g. a plane wave `e^{i k x}` -/
example (k : ℝ) : ContDiff ℝ 6 (fun p : ℝ × ℝ => Complex.exp (Complex.I * k * (p.1 : ℂ))) := by
  have h1 : ContDiff ℝ 6 (fun p : ℝ × ℝ => (p.1 : ℂ)) := Complex.ofRealCLM.contDiff.comp contDiff_fst
  exact (contDiff_const.mul h1).cexp

end Pot
