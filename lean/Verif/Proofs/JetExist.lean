import Verif.Spec.Jet
import Mathlib.Analysis.Calculus.FDeriv.Symmetric
import Mathlib.Analysis.Calculus.ContDiff.Comp
import Mathlib.Analysis.Calculus.Deriv.Prod
import Mathlib.Analysis.Complex.RealDeriv
import Mathlib.Analysis.Calculus.Deriv.Pow
import Mathlib.Analysis.Calculus.Deriv.Mul
import Mathlib.Analysis.Calculus.Deriv.Add
import Mathlib.Data.Nat.Factorial.Basic
import Mathlib.Tactic.Ring
import Mathlib.Tactic.Linarith

/-! # Smooth functions and polynomials have jets -/

namespace Pot
open Spec

/-- partial derivative in the first variable -/
noncomputable def pd1 (g : ℝ × ℝ → ℂ) : ℝ × ℝ → ℂ := fun p => fderiv ℝ g p (1, 0)
/-- partial derivative in the second variable -/
noncomputable def pd2 (g : ℝ × ℝ → ℂ) : ℝ × ℝ → ℂ := fun p => fderiv ℝ g p (0, 1)

theorem pd1_contDiff {g : ℝ × ℝ → ℂ} {n : ℕ} (hg : ContDiff ℝ (n + 1 : ℕ) g) : ContDiff ℝ n (pd1 g) := by
  have : ContDiff ℝ n (fderiv ℝ g) := hg.fderiv_right (by exact_mod_cast le_rfl)
  exact this.clm_apply contDiff_const

theorem pd2_contDiff {g : ℝ × ℝ → ℂ} {n : ℕ} (hg : ContDiff ℝ (n + 1 : ℕ) g) : ContDiff ℝ n (pd2 g) := by
  have : ContDiff ℝ n (fderiv ℝ g) := hg.fderiv_right (by exact_mod_cast le_rfl)
  exact this.clm_apply contDiff_const

theorem pd_comm {g : ℝ × ℝ → ℂ} (hg : ContDiff ℝ (2 : ℕ) g) : pd2 (pd1 g) = pd1 (pd2 g) := by
  funext p
  have hd : DifferentiableAt ℝ (fderiv ℝ g) p :=
    ((hg.fderiv_right (m := (1 : ℕ)) (by exact_mod_cast le_rfl)).differentiable (by simp)) p
  have hs : IsSymmSndFDerivAt ℝ g p :=
    (hg.contDiffAt (x := p)).isSymmSndFDerivAt (by simp)
  have e : ∀ v w : ℝ × ℝ, fderiv ℝ (fun q => fderiv ℝ g q v) p w = fderiv ℝ (fderiv ℝ g) p w v := by
    intro v w
    rw [fderiv_clm_apply hd (differentiableAt_const v)]
    simp
  unfold pd1 pd2
  rw [e, e]
  exact hs _ _

theorem hasDerivAt_pd1 {g : ℝ × ℝ → ℂ} (hg : Differentiable ℝ g) (x y : ℝ) :
    HasDerivAt (fun t => g (t, y)) (pd1 g (x, y)) x := by
  have h := (hg (x, y)).hasFDerivAt
  have h2 : HasDerivAt (fun t : ℝ => (t, y)) ((1 : ℝ), (0 : ℝ)) x :=
    (hasDerivAt_id x).prodMk (hasDerivAt_const x y)
  exact h.comp_hasDerivAt x h2

theorem hasDerivAt_pd2 {g : ℝ × ℝ → ℂ} (hg : Differentiable ℝ g) (x y : ℝ) :
    HasDerivAt (fun t => g (x, t)) (pd2 g (x, y)) y := by
  have h := (hg (x, y)).hasFDerivAt
  have h2 : HasDerivAt (fun t : ℝ => (x, t)) ((0 : ℝ), (1 : ℝ)) y :=
    (hasDerivAt_const y x).prodMk (hasDerivAt_id y)
  exact h.comp_hasDerivAt y h2

/-- the family of iterated partial derivatives -/
noncomputable def pdFam (g : ℝ × ℝ → ℂ) (i j : ℕ) : ℝ × ℝ → ℂ := pd1^[i] (pd2^[j] g)

theorem pd2_iter {n : ℕ} : ∀ {j : ℕ} {g : ℝ × ℝ → ℂ}, ContDiff ℝ (n + j : ℕ) g → ContDiff ℝ n (pd2^[j] g)
  | 0, _, hg => hg
  | j + 1, g, hg => by
    rw [Function.iterate_succ_apply]
    exact pd2_iter (j := j) (pd2_contDiff (by exact_mod_cast hg))

theorem pd1_iter {n : ℕ} : ∀ {j : ℕ} {g : ℝ × ℝ → ℂ}, ContDiff ℝ (n + j : ℕ) g → ContDiff ℝ n (pd1^[j] g)
  | 0, _, hg => hg
  | j + 1, g, hg => by
    rw [Function.iterate_succ_apply]
    exact pd1_iter (j := j) (pd1_contDiff (by exact_mod_cast hg))

theorem pd2_pd1_iter : ∀ {i : ℕ} {g : ℝ × ℝ → ℂ}, ContDiff ℝ (i + 1 : ℕ) g →
    pd2 (pd1^[i] g) = pd1^[i] (pd2 g)
  | 0, _, _ => rfl
  | i + 1, g, hg => by
    rw [Function.iterate_succ_apply, pd2_pd1_iter (i := i) (pd1_contDiff hg), pd_comm
      (hg.of_le (by exact_mod_cast (by omega : 2 ≤ i + 1 + 1))), Function.iterate_succ_apply]

/-- a function of class `C^n` has a jet of order `n` -/
theorem jet_of_contDiff {g : ℝ × ℝ → ℂ} {n : ℕ} (hg : ContDiff ℝ n g) :
    Jet n (fun i j x y => pdFam g i j (x, y)) := by
  have hd : ∀ i j, i + j < n → Differentiable ℝ (pdFam g i j) := by
    intro i j hij
    have h1 : ContDiff ℝ (1 + i : ℕ) (pd2^[j] g) :=
      pd2_iter (hg.of_le (by exact_mod_cast (by omega : 1 + i + j ≤ n)))
    exact (pd1_iter h1).differentiable (by simp)
  constructor
  · intro i j hij x y
    have := hasDerivAt_pd1 (hd i j hij) x y
    unfold pdFam at this ⊢
    rwa [Function.iterate_succ_apply']
  · intro i j hij x y
    have := hasDerivAt_pd2 (hd i j hij) x y
    unfold pdFam at this ⊢
    rw [pd2_pd1_iter (pd2_iter (hg.of_le (by exact_mod_cast (by omega : i + 1 + j ≤ n))))] at this
    rwa [Function.iterate_succ_apply']

/-- the polynomial `Σ c_ij x^i y^j` over `i, j ≤ d` and its formal partial derivatives -/
noncomputable def polyFam (d : ℕ) (c : ℕ → ℕ → ℂ) (p q : ℕ) (x y : ℝ) : ℂ :=
  ∑ i ∈ Finset.range (d + 1), ∑ j ∈ Finset.range (d + 1),
    c i j * ((i.descFactorial p : ℂ) * (x : ℂ) ^ (i - p)) * ((j.descFactorial q : ℂ) * (y : ℂ) ^ (j - q))

theorem hasDerivAt_mono (i p : ℕ) (x : ℝ) :
    HasDerivAt (fun t : ℝ => (i.descFactorial p : ℂ) * (t : ℂ) ^ (i - p))
      ((i.descFactorial (p + 1) : ℂ) * (x : ℂ) ^ (i - (p + 1))) x := by
  have h := ((hasDerivAt_id x).ofReal_comp.pow (i - p)).const_mul (i.descFactorial p : ℂ)
  refine HasDerivAt.congr_deriv h ?_
  rw [Nat.descFactorial_succ, Nat.sub_sub]
  push_cast
  simp
  ring

theorem polyFam_jet (d : ℕ) (c : ℕ → ℕ → ℂ) (n : ℕ) : Jet n (polyFam d c) := by
  constructor
  · intro p q _ x y
    unfold polyFam
    refine HasDerivAt.fun_sum fun i _ => HasDerivAt.fun_sum fun j _ => ?_
    exact ((hasDerivAt_mono i p x).const_mul (c i j)).mul_const _
  · intro p q _ x y
    unfold polyFam
    refine HasDerivAt.fun_sum fun i _ => HasDerivAt.fun_sum fun j _ => ?_
    exact (hasDerivAt_mono j q y).const_mul _

/-- all partial derivatives of order above the total degree vanish -/
theorem polyFam_zero {d : ℕ} {c : ℕ → ℕ → ℂ} (hc : ∀ i j, d < i + j → c i j = 0) {p q : ℕ}
    (hpq : d < p + q) (x y : ℝ) : polyFam d c p q x y = 0 := by
  unfold polyFam
  refine Finset.sum_eq_zero fun i _ => Finset.sum_eq_zero fun j _ => ?_
  by_cases h : d < i + j
  · rw [hc i j h]; ring
  · rcases (by omega : i < p ∨ j < q) with h' | h'
    · rw [Nat.descFactorial_of_lt h']; simp
    · rw [Nat.descFactorial_of_lt h']; simp

end Pot
