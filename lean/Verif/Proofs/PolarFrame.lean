import Verif.Proofs.FrameDeriv
import Verif.Props.Boundary
import Mathlib.Analysis.ODE.ExistUnique
import Mathlib.Analysis.SpecialFunctions.Pow.Deriv

/-! # The outer boundary as a curve with a frame, and composite derivative families -/

namespace Pot
open Spec Real

variable {I J : Set ℝ}

/-- derivatives of a composite `φ ∘ θ` up to order four -/
noncomputable def compFam (φ : ℕ → ℝ → ℂ) (θ : ℕ → ℝ → ℝ) : ℕ → ℝ → ℂ
  | 0, s => φ 0 (θ 0 s)
  | 1, s => φ 1 (θ 0 s) * θ 1 s
  | 2, s => φ 2 (θ 0 s) * (θ 1 s : ℂ) ^ 2 + φ 1 (θ 0 s) * θ 2 s
  | 3, s => φ 3 (θ 0 s) * (θ 1 s : ℂ) ^ 3 + 3 * φ 2 (θ 0 s) * θ 1 s * θ 2 s + φ 1 (θ 0 s) * θ 3 s
  | 4, s => φ 4 (θ 0 s) * (θ 1 s : ℂ) ^ 4 + 6 * φ 3 (θ 0 s) * (θ 1 s : ℂ) ^ 2 * θ 2 s +
      3 * φ 2 (θ 0 s) * (θ 2 s : ℂ) ^ 2 + 4 * φ 2 (θ 0 s) * θ 1 s * θ 3 s + φ 1 (θ 0 s) * θ 4 s
  | _ + 5, _ => 0

theorem compFam_deriv {φ : ℕ → ℝ → ℂ} {θ : ℕ → ℝ → ℝ} {m : ℕ} (hm : m ≤ 4) (hφ : DerivFam m J φ)
    (hθ : DerivFam m I θ) (hmap : ∀ s ∈ I, θ 0 s ∈ J) : DerivFam m I (compFam φ θ) := by
  intro i hi s hs
  have c : ∀ i < m, HasDerivAt (fun s => φ i (θ 0 s)) (φ (i + 1) (θ 0 s) * θ 1 s) s := fun i hi => by
    have := (hφ i hi (θ 0 s) (hmap s hs)).scomp s (hθ 0 (by omega) s hs)
    refine this.congr_deriv ?_
    simp [mul_comm]
  have d : ∀ i < m, HasDerivAt (fun s => (θ i s : ℂ)) (θ (i + 1) s) s := fun i hi => (hθ i hi s hs).ofReal_comp
  obtain rfl | rfl | rfl | rfl : i = 0 ∨ i = 1 ∨ i = 2 ∨ i = 3 := by omega
  · exact c 0 hi
  · exact ((c 1 hi).fun_mul (d 1 hi)).congr_deriv (by simp only [compFam]; ring)
  · exact (((c 2 hi).fun_mul ((d 1 (by omega)).fun_pow 2)).fun_add ((c 1 (by omega)).fun_mul (d 2 hi))).congr_deriv
      (by simp only [compFam]; push_cast; ring)
  · refine ((((c 3 hi).fun_mul ((d 1 (by omega)).fun_pow 3)).fun_add
      ((((c 2 (by omega)).const_mul 3).fun_mul (d 1 (by omega))).fun_mul (d 2 (by omega)))).fun_add
        ((c 1 (by omega)).fun_mul (d 3 hi))).congr_deriv ?_
    simp only [compFam]; push_cast; ring

/-- first two derivatives of a real composite -/
noncomputable def compFamR (φ : ℕ → ℝ → ℝ) (θ : ℕ → ℝ → ℝ) : ℕ → ℝ → ℝ
  | 0, s => φ 0 (θ 0 s)
  | 1, s => φ 1 (θ 0 s) * θ 1 s
  | 2, s => φ 2 (θ 0 s) * θ 1 s ^ 2 + φ 1 (θ 0 s) * θ 2 s
  | _ + 3, _ => 0

theorem compFamR_deriv {φ : ℕ → ℝ → ℝ} {θ : ℕ → ℝ → ℝ} (hφ : DerivFam 2 J φ)
    (hθ : DerivFam 2 I θ) (hmap : ∀ s ∈ I, θ 0 s ∈ J) : DerivFam 2 I (compFamR φ θ) := by
  intro i hi s hs
  have c : ∀ i < 2, HasDerivAt (fun s => φ i (θ 0 s)) (φ (i + 1) (θ 0 s) * θ 1 s) s := fun i hi =>
    (hφ i hi (θ 0 s) (hmap s hs)).comp s (hθ 0 (by omega) s hs)
  obtain rfl | rfl : i = 0 ∨ i = 1 := by omega
  · exact c 0 hi
  · exact ((c 1 hi).fun_mul (hθ 1 hi s hs)).congr_deriv (by simp only [compFamR]; ring)

/-- the code's derivatives of the polar angle along a parametrisation -/
noncomputable def thFam (r : ℝ → ℝ) (θ : ℝ → ℝ) : ℕ → ℝ → ℝ
  | 0, s => θ s
  | 1, s => dThs r (θ s)
  | 2, s => d2Ths r (θ s)
  | 3, s => d3Ths r (θ s)
  | 4, s => d4Ths r (θ s)
  | _ + 5, _ => 0

theorem thFam_deriv {r θ : ℝ → ℝ} (hr : ContDiff ℝ 4 r) (hp : ∀ t, 0 < r t ^ 2 + deriv r t ^ 2)
    (hθ : ∀ s ∈ I, HasDerivAt θ (dThs r (θ s)) s) : DerivFam 4 I (thFam r θ) := by
  intro i hi s hs
  obtain ⟨g1, g2, g3⟩ := dSth_hasDerivAt hr hp
  have hpos : ∀ t, 0 < dSth r t := fun t => speed_pos (hp t)
  have dθ := hθ s hs
  have c0 : HasDerivAt (fun s => dSth r (θ s)) (d2Sth r (θ s) * dThs r (θ s)) s := (g1 (θ s)).comp s dθ
  have c1 : HasDerivAt (fun s => d2Sth r (θ s)) (d3Sth r (θ s) * dThs r (θ s)) s := (g2 (θ s)).comp s dθ
  have c2 : HasDerivAt (fun s => d3Sth r (θ s)) (d4Sth r (θ s) * dThs r (θ s)) s := (g3 (θ s)).comp s dθ
  have p1 : HasDerivAt (fun s => dThs r (θ s)) (d2Ths r (θ s)) s := by
    have := c0.fun_inv (hpos (θ s)).ne'
    have e : (fun s => dThs r (θ s)) = fun s => (dSth r (θ s))⁻¹ := by
      funext s; unfold dThs; rw [one_div]
    rw [e]
    refine this.congr_deriv ?_
    unfold d2Ths dThs
    have := (hpos (θ s)).ne'
    field_simp
  have p2 : HasDerivAt (fun s => d2Ths r (θ s)) (d3Ths r (θ s)) s := by
    refine HasDerivAt.congr_deriv (c1.fun_neg.fun_mul (p1.fun_pow 3)) ?_
    unfold d3Ths; push_cast; ring
  have p3 : HasDerivAt (fun s => d3Ths r (θ s)) (d4Ths r (θ s)) s := by
    refine HasDerivAt.congr_deriv ((c2.fun_neg.fun_mul (p1.fun_pow 4)).fun_sub
      (((c1.const_mul 3).fun_mul p2).fun_mul (p1.fun_pow 2))) ?_
    unfold d4Ths; push_cast; ring
  obtain rfl | rfl | rfl | rfl : i = 0 ∨ i = 1 ∨ i = 2 ∨ i = 3 := by omega
  · exact dθ
  · exact p1
  · exact p2
  · exact p3

theorem dSth_contDiff {r : ℝ → ℝ} (hr : ContDiff ℝ 4 r) (hp : ∀ t, 0 < r t ^ 2 + deriv r t ^ 2) : ContDiff ℝ 3 (dSth r) := by
  have h1 : ContDiff ℝ 3 (deriv r) := (contDiff_succ_iff_deriv.1 (show ContDiff ℝ (3 + 1) r from hr)).2.2
  unfold dSth dRth
  refine ContDiff.sqrt (((hr.of_le (by norm_num)).pow 2).add (h1.pow 2)) fun t => ?_
  exact (hp t).ne'

/-- an arclength parametrisation exists near every boundary point -/
theorem exists_arclength {r : ℝ → ℝ} (hr : ContDiff ℝ 4 r) (hp : ∀ t, 0 < r t ^ 2 + deriv r t ^ 2) (th : ℝ) {J : Set ℝ} (hJ : IsOpen J)
    (hth : th ∈ J) :
    ∃ (I : Set ℝ) (θ : ℝ → ℝ), IsOpen I ∧ (0 : ℝ) ∈ I ∧ θ 0 = th ∧ (∀ s ∈ I, HasDerivAt θ (dThs r (θ s)) s) ∧
      ∀ s ∈ I, θ s ∈ J := by
  have hv : ContDiff ℝ 1 (dThs r) := by
    unfold dThs
    refine ContDiff.div contDiff_const ((dSth_contDiff hr hp).of_le (by norm_num)) fun t => (speed_pos (hp t)).ne'
  obtain ⟨θ, h0, ε, hε, hd⟩ :=
    ContDiffAt.exists_forall_mem_closedBall_exists_eq_forall_mem_Ioo_hasDerivAt₀ (hv.contDiffAt (x := th)) 0
  have hc : ContinuousOn θ (Set.Ioo (0 - ε) (0 + ε)) := fun t ht => (hd t ht).continuousAt.continuousWithinAt
  refine ⟨Set.Ioo (0 - ε) (0 + ε) ∩ θ ⁻¹' J, θ, hc.isOpen_inter_preimage isOpen_Ioo hJ, ⟨⟨by linarith, by linarith⟩, ?_⟩,
    h0, fun s hs => hd s hs.1, fun s hs => hs.2⟩
  show θ 0 ∈ J
  rw [h0]; exact hth

/-- the curvature and its derivatives -/
noncomputable def curvFam (r : ℝ → ℝ) : ℕ → ℝ → ℝ
  | 0 => curvTh r
  | 1 => dCurvTh r
  | 2 => d2CurvTh r
  | _ + 3 => fun _ => 0

theorem curvFam_deriv {r : ℝ → ℝ} (hr : ContDiff ℝ 4 r) (hp : ∀ t, 0 < r t ^ 2 + deriv r t ^ 2) : DerivFam 2 Set.univ (curvFam r) := by
  have h1 : ContDiff ℝ 3 (deriv r) := (contDiff_succ_iff_deriv.1 (show ContDiff ℝ (3 + 1) r from hr)).2.2
  have h2 : ContDiff ℝ 2 (deriv (deriv r)) := (contDiff_succ_iff_deriv.1 (show ContDiff ℝ (2 + 1) _ from h1)).2.2
  have hr2 : ContDiff ℝ 2 r := hr.of_le (by norm_num)
  have h12 : ContDiff ℝ 2 (deriv r) := h1.of_le (by norm_num)
  have hq := hp
  have hc : ContDiff ℝ 2 (curvTh r) := by
    unfold curvTh d2Rth dRth
    refine ContDiff.div ?_ (ContDiff.rpow_const_of_ne ((hr2.pow 2).add (h12.pow 2)) fun t => (hq t).ne')
      fun t => (Real.rpow_pos_of_pos (hq t) _).ne'
    exact (((hr2.pow 2).add (contDiff_const.mul (h12.pow 2))).sub (hr2.mul h2)).neg
  have hc1 : ContDiff ℝ 1 (dCurvTh r) := (contDiff_succ_iff_deriv.1 (show ContDiff ℝ (1 + 1) _ from hc)).2.2
  intro i hi s _
  obtain rfl | rfl : i = 0 ∨ i = 1 := by omega
  · exact ((hc.differentiable (by norm_num)) s).hasDerivAt
  · exact ((hc1.differentiable (by norm_num)) s).hasDerivAt

/-- the outer boundary, parametrised by arclength, with the code's tangent, normal and curvature, is a framed curve -/
theorem polar_frame {r θ : ℝ → ℝ} (hr : ContDiff ℝ 4 r) (hp : ∀ t, 0 < r t ^ 2 + deriv r t ^ 2) (hI : IsOpen I)
    (hθ : ∀ s ∈ I, HasDerivAt θ (dThs r (θ s)) s) :
    Frame I (fun s => r (θ s) * cos (θ s)) (fun s => r (θ s) * sin (θ s)) (fun s => (evalTangent r (θ s)).1)
      (fun s => (evalTangent r (θ s)).2) (fun s => (evalNormal r (θ s)).1) (fun s => (evalNormal r (θ s)).2)
      (fun s => curvTh r (θ s)) := by
  have hd : ∀ t, DifferentiableAt ℝ r t := fun t => (hr.differentiable (by norm_num)) t
  have h1 : ContDiff ℝ 3 (deriv r) := (contDiff_succ_iff_deriv.1 (show ContDiff ℝ (3 + 1) r from hr)).2.2
  have hd2 : ∀ t, DifferentiableAt ℝ (deriv r) t := fun t => (h1.differentiable (by norm_num)) t
  have hσ : ∀ t, √(r t ^ 2 + deriv r t ^ 2) * dThs r t = 1 := fun t => by
    unfold dThs dSth dRth; field_simp [(speed_pos (hp t)).ne']
  have tx : ∀ t, dXth r t = √(r t ^ 2 + deriv r t ^ 2) * (evalTangent r t).1 := fun t => by
    simp only [evalTangent]; rw [speed_sq (hd t)]; field_simp [(speed_pos (hp t)).ne']
  have ty : ∀ t, dYth r t = √(r t ^ 2 + deriv r t ^ 2) * (evalTangent r t).2 := fun t => by
    simp only [evalTangent]; rw [speed_sq (hd t)]; field_simp [(speed_pos (hp t)).ne']
  have N1 : ∀ s ∈ I, HasDerivAt (fun s => (evalNormal r (θ s)).1) (-curvTh r (θ s) * (evalTangent r (θ s)).1) s :=
    fun s hs => by
      refine ((C44_curvature hd (hd2 (θ s)) hp).1.comp s (hθ s hs)).congr_deriv ?_
      linear_combination -curvTh r (θ s) * (evalTangent r (θ s)).1 * hσ (θ s)
  have N2 : ∀ s ∈ I, HasDerivAt (fun s => (evalNormal r (θ s)).2) (-curvTh r (θ s) * (evalTangent r (θ s)).2) s :=
    fun s hs => by
      refine ((C44_curvature hd (hd2 (θ s)) hp).2.comp s (hθ s hs)).congr_deriv ?_
      linear_combination -curvTh r (θ s) * (evalTangent r (θ s)).2 * hσ (θ s)
  refine ⟨hI, fun s hs => ?_, fun s hs => ?_, fun s hs => ?_, fun s hs => ?_, N1, N2, ?_, ?_, ?_⟩
  · have h : HasDerivAt (fun t => r t * cos t) (dXth r (θ s)) (θ s) :=
      ((hd (θ s)).mul (differentiable_cos _)).hasDerivAt
    refine (h.comp s (hθ s hs)).congr_deriv ?_
    rw [tx]; linear_combination (evalTangent r (θ s)).1 * hσ (θ s)
  · have h : HasDerivAt (fun t => r t * sin t) (dYth r (θ s)) (θ s) :=
      ((hd (θ s)).mul (differentiable_sin _)).hasDerivAt
    refine (h.comp s (hθ s hs)).congr_deriv ?_
    rw [ty]; linear_combination (evalTangent r (θ s)).2 * hσ (θ s)
  · have := (N2 s hs).fun_neg
    simp only [evalNormal, neg_neg] at this ⊢
    exact this.congr_deriv (by ring)
  · have := N1 s hs
    simp only [evalNormal] at this ⊢
    exact this.congr_deriv (by ring)
  · exact fun s _ => (C45_frame (hd (θ s)) (hp (θ s))).1
  · exact fun s _ => (C45_frame (hd (θ s)) (hp (θ s))).2.1
  · exact fun s _ => (C45_frame (hd (θ s)) (hp (θ s))).2.2.1

end Pot
