import Verif.Proofs.PolarFrame
import Mathlib.Analysis.SpecialFunctions.Trigonometric.Deriv
import Mathlib.Analysis.SpecialFunctions.ExpDeriv

/-! # Concrete jets and frames, used to show that the hypotheses of the extension theorems can be met -/

namespace Pot
open Spec Real

/-- the plane wave `exp(i k x)` with all its partial derivatives -/
noncomputable def planeJet (k : ℝ) (i j : ℕ) (p : ℝ × ℝ) : ℂ :=
  if j = 0 then (Complex.I * k) ^ i * Complex.exp (Complex.I * k * p.1) else 0

theorem planeJet_jetOn (k : ℝ) (n : ℕ) : JetOn Set.univ n (planeJet k) := by
  refine ⟨isOpen_univ, fun i j _ p _ => ?_⟩
  rcases Nat.eq_zero_or_pos j with rfl | hj
  · have h1 : HasFDerivAt (fun p : ℝ × ℝ => (p.1 : ℂ)) (Complex.ofRealCLM.comp (ContinuousLinearMap.fst ℝ ℝ ℝ)) p :=
      (Complex.ofRealCLM.comp (ContinuousLinearMap.fst ℝ ℝ ℝ)).hasFDerivAt
    have h2 := ((h1.const_mul (Complex.I * k)).cexp).const_mul ((Complex.I * (k : ℂ)) ^ i)
    have e : planeJet k i 0 = fun p : ℝ × ℝ => (Complex.I * (k : ℂ)) ^ i * Complex.exp (Complex.I * k * p.1) := by
      funext p; simp [planeJet]
    rw [e]
    refine h2.congr_fderiv ?_
    ext
    · simp [grad2, planeJet]; ring
    · simp [grad2, planeJet]
  · have e : planeJet k i j = fun _ => 0 := by funext p; simp [planeJet, hj.ne']
    rw [e]
    refine (hasFDerivAt_const (0 : ℂ) p).congr_fderiv ?_
    ext <;> simp [grad2, planeJet, hj.ne']

theorem planeJet_helmholtz (k : ℝ) : Helmholtz Set.univ k (planeJet k) fun _ => 0 := by
  intro p _
  simp only [planeJet, if_true, OfNat.ofNat_ne_zero, if_false, pow_zero, one_mul, add_zero]
  rw [mul_pow, Complex.I_sq]; ring

/-- the function `y²` -/
def sqJet (i j : ℕ) (p : ℝ × ℝ) : ℂ :=
  match i, j with
  | 0, 0 => (p.2 : ℂ) ^ 2
  | 0, 1 => 2 * p.2
  | 0, 2 => 2
  | _, _ => 0

/-- its source `2 + k² y²` -/
def sqSrc (k : ℝ) (i j : ℕ) (p : ℝ × ℝ) : ℂ := (k : ℂ) ^ 2 * sqJet i j p + if i = 0 ∧ j = 0 then 2 else 0

theorem sqJet_jetOn (n : ℕ) : JetOn Set.univ n sqJet := by
  refine ⟨isOpen_univ, fun i j _ p _ => ?_⟩
  have h1 : HasFDerivAt (fun p : ℝ × ℝ => (p.2 : ℂ)) (Complex.ofRealCLM.comp (ContinuousLinearMap.snd ℝ ℝ ℝ)) p :=
    (Complex.ofRealCLM.comp (ContinuousLinearMap.snd ℝ ℝ ℝ)).hasFDerivAt
  rcases i with _ | i
  · rcases j with _ | _ | _ | j
    · have e : sqJet 0 0 = fun p : ℝ × ℝ => (p.2 : ℂ) * (p.2 : ℂ) := by funext p; simp [sqJet, pow_two]
      rw [e]
      refine (h1.fun_mul h1).congr_fderiv ?_
      ext
      · simp [grad2, sqJet]
      · simp [grad2, sqJet]; ring
    · refine (h1.const_mul 2).congr_fderiv ?_
      ext <;> simp [grad2, sqJet]
    · refine (hasFDerivAt_const (2 : ℂ) p).congr_fderiv ?_
      ext <;> simp [grad2, sqJet]
    · refine (hasFDerivAt_const (0 : ℂ) p).congr_fderiv ?_
      ext <;> simp [grad2, sqJet]
  · refine (hasFDerivAt_const (0 : ℂ) p).congr_fderiv ?_
    ext <;> simp [grad2, sqJet]

theorem sqSrc_jetOn (k : ℝ) (n : ℕ) : JetOn Set.univ n (sqSrc k) := by
  refine ⟨isOpen_univ, fun i j h p hp => ?_⟩
  have h1 := ((sqJet_jetOn n).diff i j h p hp).const_mul ((k : ℂ) ^ 2)
  refine (h1.add_const (if i = 0 ∧ j = 0 then 2 else 0)).congr_fderiv ?_
  ext <;> simp [grad2, sqSrc]

theorem sq_helmholtz (k : ℝ) : Helmholtz Set.univ k sqJet (sqSrc k 0 0) := by
  intro p _
  simp [sqJet, sqSrc]; ring

/-- the sum of two jets -/
theorem JetOn.add {Ω : Set (ℝ × ℝ)} {n : ℕ} {U V : ℕ → ℕ → ℝ × ℝ → ℂ} (hU : JetOn Ω n U) (hV : JetOn Ω n V) :
    JetOn Ω n (fun i j p => U i j p + V i j p) := by
  refine ⟨hU.isOpen, fun i j h p hp => ((hU.diff i j h p hp).add (hV.diff i j h p hp)).congr_fderiv ?_⟩
  ext <;> simp [grad2]

/-- the constant 1 -/
def oneJet (i j : ℕ) (_ : ℝ × ℝ) : ℂ := if i = 0 ∧ j = 0 then 1 else 0

theorem oneJet_jetOn (Ω : Set (ℝ × ℝ)) (hΩ : IsOpen Ω) (n : ℕ) : JetOn Ω n oneJet := by
  refine ⟨hΩ, fun i j _ p _ => (hasFDerivAt_const _ p).congr_fderiv ?_⟩
  ext <;> simp [grad2, oneJet]

theorem one_helmholtz (Ω : Set (ℝ × ℝ)) : Helmholtz Ω 1 oneJet (oneJet 0 0) := by
  intro p _
  simp [oneJet]

/-- a smooth function with its iterated derivatives -/
theorem derivFam_iter {f : ℝ → ℂ} {n : ℕ} (hf : ContDiff ℝ n f) (I : Set ℝ) :
    DerivFam n I (fun m => iteratedDeriv m f) := by
  intro i hi s _
  have := (hf.differentiable_iteratedDeriv i (by exact_mod_cast hi) s).hasDerivAt
  rwa [← iteratedDeriv_succ] at this

/-- the circle of radius `ρ` with outward normal -/
theorem circle_frame {ρ : ℝ} (hρ : 0 < ρ) :
    Frame Set.univ (fun s => ρ * cos (s / ρ)) (fun s => ρ * sin (s / ρ)) (fun s => -sin (s / ρ)) (fun s => cos (s / ρ))
      (fun s => cos (s / ρ)) (fun s => sin (s / ρ)) (fun _ => -1 / ρ) := by
  have hd : ∀ s : ℝ, HasDerivAt (fun s : ℝ => s / ρ) (1 / ρ) s := fun s => (hasDerivAt_id s).div_const ρ
  have hc : ∀ s, HasDerivAt (fun s : ℝ => cos (s / ρ)) (-sin (s / ρ) * (1 / ρ)) s := fun s => (hd s).cos
  have hs : ∀ s, HasDerivAt (fun s : ℝ => sin (s / ρ)) (cos (s / ρ) * (1 / ρ)) s := fun s => (hd s).sin
  exact
  { isOpen := isOpen_univ
    dx := fun s _ => ((hc s).const_mul ρ).congr_deriv (by field_simp)
    dy := fun s _ => ((hs s).const_mul ρ).congr_deriv (by field_simp)
    dt1 := fun s _ => (hs s).fun_neg.congr_deriv (by ring)
    dt2 := fun s _ => (hc s).congr_deriv (by ring)
    dn1 := fun s _ => (hc s).congr_deriv (by ring)
    dn2 := fun s _ => (hs s).congr_deriv (by ring)
    unitT := fun s _ => by linear_combination sin_sq_add_cos_sq (s / ρ)
    unitN := fun s _ => by linear_combination sin_sq_add_cos_sq (s / ρ)
    orth := fun s _ => by ring }

end Pot
