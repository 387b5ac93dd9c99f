import Verif.Props.Potential
import Mathlib.LinearAlgebra.Matrix.Trace
import Mathlib.LinearAlgebra.Matrix.ConjTranspose
import Mathlib.Analysis.InnerProductSpace.PiL2

/-! # The Euclidean norm of grid functions and the Fourier form of the auxiliary solver -/

namespace Pot
open Real Finset Matrix Spec

/-- sum of the squares of the entries -/
noncomputable def energy {n : ℕ} (v : Arr n) : ℝ := ∑ a, ∑ b, ‖v a b‖ ^ 2

theorem energy_nonneg {n : ℕ} (v : Arr n) : 0 ≤ energy v :=
  Finset.sum_nonneg fun _ _ => Finset.sum_nonneg fun _ _ => by positivity

theorem energy_trace {n : ℕ} (v : Matrix (Fin n) (Fin n) ℂ) : ((energy v : ℝ) : ℂ) = (vᴴ * v).trace := by
  unfold energy Matrix.trace
  simp only [Matrix.diag_apply, Matrix.mul_apply, Matrix.conjTranspose_apply]
  rw [Finset.sum_comm]
  push_cast
  refine Finset.sum_congr rfl fun b _ => Finset.sum_congr rfl fun a _ => ?_
  have := Complex.conj_mul' (v a b)
  exact this.symm

theorem Sm_conj (n : ℕ) : (Sm n)ᴴ = Sm n := by
  have : (Sm n)ᴴ = (Sm n)ᵀ := by
    ext i j
    simp [Sm, Matrix.conjTranspose_apply]
  rw [this, Sm_transpose]

/-- Parseval's identity for the double sine series -/
theorem energy_synth {n : ℕ} (c : Arr n) : energy (synth c) = (((n : ℝ) + 1) / 2) ^ 2 * energy c := by
  have h : ((energy (synth c) : ℝ) : ℂ) = (((((n : ℝ) + 1) / 2) ^ 2 * energy c : ℝ) : ℂ) := by
    unfold synth
    rw [energy_trace, Matrix.conjTranspose_mul, Matrix.conjTranspose_mul, Sm_conj]
    have e : Sm n * ((Matrix.of c)ᴴ * Sm n) * (Sm n * Matrix.of c * Sm n)
        = Sm n * ((Matrix.of c)ᴴ * (Sm n * Sm n) * Matrix.of c * Sm n) := by
      simp only [Matrix.mul_assoc]
    rw [e, Matrix.trace_mul_comm, Sm_mul_Sm]
    have e2 : (Matrix.of c)ᴴ * ((((n : ℝ) + 1) / 2 : ℝ) : ℂ) • (1 : Matrix (Fin n) (Fin n) ℂ) * Matrix.of c * Sm n * Sm n
        = ((((n : ℝ) + 1) / 2 : ℝ) : ℂ) • ((Matrix.of c)ᴴ * Matrix.of c * (Sm n * Sm n)) := by
      simp only [Matrix.mul_assoc, Matrix.smul_mul, Matrix.mul_smul, Matrix.one_mul]
    rw [show (Matrix.of c)ᴴ * (((((n : ℝ) + 1) / 2 : ℝ) : ℂ) • (1 : Matrix (Fin n) (Fin n) ℂ)) * Matrix.of c * Sm n * Sm n
      = _ from e2, Sm_mul_Sm, Matrix.mul_smul, Matrix.mul_one, Matrix.trace_smul, Matrix.trace_smul]
    have := energy_trace (Matrix.of c)
    rw [← this]
    push_cast
    simp only [smul_eq_mul]
    rw [show energy (Matrix.of c : Matrix (Fin n) (Fin n) ℂ) = energy c from rfl]
    ring
  exact_mod_cast h

/-- multiplying every sine coefficient by a factor of modulus at most `B` multiplies the energy by at most `B²` -/
theorem energy_multiplier {n : ℕ} (v : Arr n) (d : Fin n → Fin n → ℂ) {B : ℝ} (hB : ∀ p q, ‖d p q‖ ≤ B) :
    energy (synth fun p q => Fhat v p q * d p q) ≤ B ^ 2 * energy v := by
  have hs : energy v = (((n : ℝ) + 1) / 2) ^ 2 * energy (Fhat v) := by
    conv_lhs => rw [← synth_Fhat v]
    exact energy_synth _
  rw [energy_synth, hs]
  have : energy (fun p q => Fhat v p q * d p q) ≤ B ^ 2 * energy (Fhat v) := by
    unfold energy
    rw [Finset.mul_sum]
    refine Finset.sum_le_sum fun p _ => ?_
    rw [Finset.mul_sum]
    refine Finset.sum_le_sum fun q _ => ?_
    rw [norm_mul, mul_pow, mul_comm]
    have := pow_le_pow_left₀ (norm_nonneg _) (hB p q) 2
    gcongr
  calc _ ≤ (((n : ℝ) + 1) / 2) ^ 2 * (B ^ 2 * energy (Fhat v)) := by gcongr
    _ = _ := by ring

/-- the modulus of every computed eigenvalue is at most `8 / h² + k²` -/
theorem eigF_le {n order : ℕ} (ho : order = 2 ∨ order = 4) {AD k : ℝ} (hAD : AD ≠ 0) (p q : ℕ) :
    |eigF (n + 1) order AD k p q| ≤ 8 / (AD / (n + 1)) ^ 2 + k ^ 2 := by
  have hn : ((n : ℝ) + 1) ≠ 0 := by positivity
  have hh : 0 < (AD / ((n : ℝ) + 1)) ^ 2 := by positivity
  have c1 := abs_le.1 (abs_cos_le_one (π * (p : ℝ) / ((n + 1 : ℕ) : ℝ)))
  have c2 := abs_le.1 (abs_cos_le_one (π * (q : ℝ) / ((n + 1 : ℕ) : ℝ)))
  have hk := sq_nonneg k
  unfold eigF
  have hcast : AD / ((n + 1 : ℕ) : ℝ) = AD / ((n : ℝ) + 1) := by push_cast; rfl
  rw [hcast]
  generalize cos (π * (p : ℝ) / ((n + 1 : ℕ) : ℝ)) = x at *
  generalize cos (π * (q : ℝ) / ((n + 1 : ℕ) : ℝ)) = y at *
  generalize (AD / ((n : ℝ) + 1)) ^ 2 = H at *
  rcases ho with rfl | rfl
  · rw [if_pos rfl]
    have e1 : (2 * x + 2 * y - 4) / H ≤ 0 := div_nonpos_of_nonpos_of_nonneg (by linarith [c1.2, c2.2]) hh.le
    have e2 : -(8 / H) ≤ (2 * x + 2 * y - 4) / H := by
      rw [← neg_div]; exact div_le_div_of_nonneg_right (by linarith [c1.1, c2.1]) hh.le
    have e3 : 0 < 8 / H := by positivity
    rw [abs_le]; constructor <;> linarith
  · rw [if_neg (by norm_num)]
    have e0 : (H * k ^ 2 * (x + y + 4) + 4 * x * y + 8 * x + 8 * y - 20) / (6 * H)
        = k ^ 2 * ((x + y + 4) / 6) + (4 * x * y + 8 * x + 8 * y - 20) / 6 / H := by
      field_simp
      ring
    rw [e0]
    have g1 : 4 * x * y + 8 * x + 8 * y - 20 ≤ 0 := by nlinarith [c1.1, c1.2, c2.1, c2.2]
    have g2 : -48 ≤ 4 * x * y + 8 * x + 8 * y - 20 := by nlinarith [c1.1, c1.2, c2.1, c2.2]
    have e1 : (4 * x * y + 8 * x + 8 * y - 20) / 6 / H ≤ 0 := div_nonpos_of_nonpos_of_nonneg (by linarith) hh.le
    have e2 : -(8 / H) ≤ (4 * x * y + 8 * x + 8 * y - 20) / 6 / H := by
      rw [← neg_div]; exact div_le_div_of_nonneg_right (by linarith) hh.le
    have e3 : 0 < 8 / H := by positivity
    have e4 : 0 ≤ k ^ 2 * ((x + y + 4) / 6) := mul_nonneg hk (by linarith [c1.1, c2.1])
    have e5 : k ^ 2 * ((x + y + 4) / 6) ≤ k ^ 2 := mul_le_of_le_one_right hk (by linarith [c1.2, c2.2])
    rw [abs_le]; constructor <;> linarith

/-- the auxiliary solver is bounded by the reciprocal of the smallest eigenvalue -/
theorem energy_solve {n order : ℕ} (ho : order = 2 ∨ order = 4) {AD k m : ℝ} (hAD : AD ≠ 0) (hm : 0 < m)
    (hlow : ∀ p q : Fin n, m ≤ |eigF (n + 1) order AD k (p + 1) (q + 1)|) {g s : Arr n}
    (h : apSolve (n + 1) order AD k g = .ok s) : energy s ≤ m⁻¹ ^ 2 * energy g := by
  unfold apSolve at h
  rw [fourierPy_ok ho hAD g true] at h
  have h := Except.ok.inj h
  simp only [if_true] at h
  rw [← h]
  refine energy_multiplier g (fun p q => (((eigF (n + 1) order AD k (p + 1) (q + 1) : ℝ) : ℂ))⁻¹) (B := m⁻¹) fun p q => ?_
  rw [norm_inv, Complex.norm_real, Real.norm_eq_abs]
  exact inv_anti₀ hm (hlow p q)

/-- the operator is bounded by `8 / h² + k²` -/
theorem energy_apply {n order : ℕ} (ho : order = 2 ∨ order = 4) {AD k : ℝ} (hAD : AD ≠ 0) {v w : Arr n}
    (h : apApplyL (n + 1) order AD k v = .ok w) : energy w ≤ (8 / (AD / (n + 1)) ^ 2 + k ^ 2) ^ 2 * energy v := by
  unfold apApplyL at h
  rw [fourierPy_ok ho hAD v false] at h
  have h := Except.ok.inj h
  simp only [Bool.false_eq_true, if_false] at h
  rw [← h]
  refine energy_multiplier v _ fun p q => ?_
  rw [Complex.norm_real, Real.norm_eq_abs]
  exact eigF_le ho hAD _ _

/-- Euclidean norm of a grid function -/
noncomputable def l2 {n : ℕ} (v : Arr n) : ℝ := √(energy v)

theorem l2_eq_norm {n : ℕ} (v : Arr n) :
    l2 v = ‖(WithLp.toLp 2 (fun p : Fin n × Fin n => v p.1 p.2) : EuclideanSpace ℂ (Fin n × Fin n))‖ := by
  unfold l2 energy
  rw [EuclideanSpace.norm_eq, Fintype.sum_prod_type]

theorem l2_add {n : ℕ} (u v : Arr n) : l2 (fun a b => u a b + v a b) ≤ l2 u + l2 v := by
  rw [l2_eq_norm, l2_eq_norm, l2_eq_norm]
  have := norm_add_le (WithLp.toLp 2 (fun p : Fin n × Fin n => u p.1 p.2) : EuclideanSpace ℂ (Fin n × Fin n))
    (WithLp.toLp 2 (fun p : Fin n × Fin n => v p.1 p.2))
  rwa [← WithLp.toLp_add] at this

theorem l2_sub {n : ℕ} (u v : Arr n) : l2 (fun a b => u a b - v a b) ≤ l2 u + l2 v := by
  rw [l2_eq_norm, l2_eq_norm, l2_eq_norm]
  have := norm_sub_le (WithLp.toLp 2 (fun p : Fin n × Fin n => u p.1 p.2) : EuclideanSpace ℂ (Fin n × Fin n))
    (WithLp.toLp 2 (fun p : Fin n × Fin n => v p.1 p.2))
  rwa [← WithLp.toLp_sub] at this

theorem l2_mono {n : ℕ} {u v : Arr n} (h : ∀ a b, ‖u a b‖ ≤ ‖v a b‖) : l2 u ≤ l2 v := by
  refine Real.sqrt_le_sqrt (Finset.sum_le_sum fun a _ => Finset.sum_le_sum fun b _ => ?_)
  exact pow_le_pow_left₀ (norm_nonneg _) (h a b) 2

theorem l2_of_energy {n m : ℕ} {u : Arr n} {v : Arr m} {B : ℝ} (hB : 0 ≤ B) (h : energy u ≤ B ^ 2 * energy v) : l2 u ≤ B * l2 v := by
  unfold l2
  rw [show B * √(energy v) = √(B ^ 2 * energy v) by rw [Real.sqrt_mul (sq_nonneg _), Real.sqrt_sq hB]]
  exact Real.sqrt_le_sqrt h

/-- the nodes with indices from 1 to `n` -/
noncomputable def innerNodes (n : ℕ) : Finset Node := Finset.Icc 1 (n : ℤ) ×ˢ Finset.Icc 1 (n : ℤ)

theorem mem_innerNodes {n : ℕ} {q : Node} : q ∈ innerNodes n ↔ InR n q := by
  unfold innerNodes InR
  rw [Finset.mem_product, Finset.mem_Icc, Finset.mem_Icc]
  tauto

theorem energy_eq_sum {n : ℕ} (v : Arr n) : energy v = ∑ q ∈ innerNodes n, ‖node v q.1 q.2‖ ^ 2 := by
  unfold energy
  rw [← Finset.sum_product']
  refine Finset.sum_bij (fun (p : Fin n × Fin n) _ => (((p.1 : ℕ) : ℤ) + 1, ((p.2 : ℕ) : ℤ) + 1)) ?_ ?_ ?_ ?_
  · intro p _
    rw [mem_innerNodes]
    exact inR_at p.1 p.2
  · intro p _ p' _ h
    simp only [Prod.mk.injEq, add_left_inj, Nat.cast_inj] at h
    exact Prod.ext (Fin.ext h.1) (Fin.ext h.2)
  · intro q hq
    rw [mem_innerNodes] at hq
    obtain ⟨h1, h2, h3, h4⟩ := hq
    refine ⟨(⟨(q.1 - 1).toNat, by omega⟩, ⟨(q.2 - 1).toNat, by omega⟩), Finset.mem_univ _, ?_⟩
    ext <;> simp only <;> omega
  · intro p _
    simp only
    rw [node_at]

theorem sum_le_energy {n : ℕ} (v : Arr n) (s : Finset Node) (hs : ∀ q ∈ s, InR n q) :
    ∑ q ∈ s, ‖node v q.1 q.2‖ ^ 2 ≤ energy v := by
  rw [energy_eq_sum]
  exact Finset.sum_le_sum_of_subset_of_nonneg (fun q hq => mem_innerNodes.2 (hs q hq)) fun _ _ _ => by positivity

theorem energy_supp {n : ℕ} (v : Arr n) (s : Finset Node) (hs : ∀ q ∈ s, InR n q) (h0 : ∀ q, q ∉ s → node v q.1 q.2 = 0) :
    energy v = ∑ q ∈ s, ‖node v q.1 q.2‖ ^ 2 := by
  rw [energy_eq_sum]
  refine (Finset.sum_subset (fun q hq => mem_innerNodes.2 (hs q hq)) fun q _ hq => ?_).symm
  rw [h0 q hq]; simp

end Pot
