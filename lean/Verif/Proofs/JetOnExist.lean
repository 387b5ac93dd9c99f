import Verif.Proofs.JetExist
import Verif.Proofs.Frame

/-! # Smooth functions on open sets have jets -/

namespace Pot
open Spec Filter Topology

variable {Ω : Set (ℝ × ℝ)}

theorem pd1_contDiffOn (hΩ : IsOpen Ω) {g : ℝ × ℝ → ℂ} {n : ℕ} (hg : ContDiffOn ℝ (n + 1 : ℕ) g Ω) :
    ContDiffOn ℝ n (pd1 g) Ω := by
  have : ContDiffOn ℝ n (fderiv ℝ g) Ω := hg.fderiv_of_isOpen hΩ (by exact_mod_cast le_rfl)
  exact this.clm_apply contDiffOn_const

theorem pd2_contDiffOn (hΩ : IsOpen Ω) {g : ℝ × ℝ → ℂ} {n : ℕ} (hg : ContDiffOn ℝ (n + 1 : ℕ) g Ω) :
    ContDiffOn ℝ n (pd2 g) Ω := by
  have : ContDiffOn ℝ n (fderiv ℝ g) Ω := hg.fderiv_of_isOpen hΩ (by exact_mod_cast le_rfl)
  exact this.clm_apply contDiffOn_const

theorem pd_comm_on (hΩ : IsOpen Ω) {g : ℝ × ℝ → ℂ} (hg : ContDiffOn ℝ (2 : ℕ) g Ω) {p : ℝ × ℝ} (hp : p ∈ Ω) :
    pd2 (pd1 g) p = pd1 (pd2 g) p := by
  have hc : ContDiffAt ℝ (2 : ℕ) g p := hg.contDiffAt (hΩ.mem_nhds hp)
  have hd : DifferentiableAt ℝ (fderiv ℝ g) p :=
    ((hg.fderiv_of_isOpen hΩ (m := (1 : ℕ)) (by exact_mod_cast le_rfl)).contDiffAt
      (hΩ.mem_nhds hp)).differentiableAt (by simp)
  have hs : IsSymmSndFDerivAt ℝ g p := hc.isSymmSndFDerivAt (by simp)
  have e : ∀ v w : ℝ × ℝ, fderiv ℝ (fun q => fderiv ℝ g q v) p w = fderiv ℝ (fderiv ℝ g) p w v := by
    intro v w
    rw [fderiv_clm_apply hd (differentiableAt_const v)]
    simp
  unfold pd1 pd2
  rw [e, e]
  exact hs _ _

theorem pd2_iter_on (hΩ : IsOpen Ω) {n : ℕ} : ∀ {j : ℕ} {g : ℝ × ℝ → ℂ}, ContDiffOn ℝ (n + j : ℕ) g Ω →
    ContDiffOn ℝ n (pd2^[j] g) Ω
  | 0, _, hg => hg
  | j + 1, g, hg => by
    rw [Function.iterate_succ_apply]
    exact pd2_iter_on hΩ (j := j) (pd2_contDiffOn hΩ (by exact_mod_cast hg))

theorem pd1_iter_on (hΩ : IsOpen Ω) {n : ℕ} : ∀ {j : ℕ} {g : ℝ × ℝ → ℂ}, ContDiffOn ℝ (n + j : ℕ) g Ω →
    ContDiffOn ℝ n (pd1^[j] g) Ω
  | 0, _, hg => hg
  | j + 1, g, hg => by
    rw [Function.iterate_succ_apply]
    exact pd1_iter_on hΩ (j := j) (pd1_contDiffOn hΩ (by exact_mod_cast hg))

theorem pd1_congr (hΩ : IsOpen Ω) {g h : ℝ × ℝ → ℂ} (e : ∀ p ∈ Ω, g p = h p) : ∀ p ∈ Ω, pd1 g p = pd1 h p := by
  intro p hp
  have : g =ᶠ[𝓝 p] h := by filter_upwards [hΩ.mem_nhds hp] with q hq using e q hq
  unfold pd1
  rw [this.fderiv_eq]

theorem pd1_iter_congr (hΩ : IsOpen Ω) {g h : ℝ × ℝ → ℂ} (e : ∀ p ∈ Ω, g p = h p) (i : ℕ) :
    ∀ p ∈ Ω, pd1^[i] g p = pd1^[i] h p := by
  induction i with
  | zero => exact e
  | succ i ih =>
    simp only [Function.iterate_succ_apply']
    exact pd1_congr hΩ ih

theorem pd2_pd1_iter_on (hΩ : IsOpen Ω) : ∀ {i : ℕ} {g : ℝ × ℝ → ℂ}, ContDiffOn ℝ (i + 1 : ℕ) g Ω →
    ∀ p ∈ Ω, pd2 (pd1^[i] g) p = pd1^[i] (pd2 g) p
  | 0, _, _ => fun _ _ => rfl
  | i + 1, g, hg => fun p hp => by
    rw [Function.iterate_succ_apply, pd2_pd1_iter_on hΩ (i := i) (pd1_contDiffOn hΩ hg) p hp,
      Function.iterate_succ_apply]
    exact pd1_iter_congr hΩ (fun q hq => pd_comm_on hΩ
      (hg.of_le (by exact_mod_cast (by omega : 2 ≤ i + 1 + 1))) hq) i p hp

/-- a function of class `C^n` on an open set has a jet of order `n` there -/
theorem jetOn_of_contDiffOn (hΩ : IsOpen Ω) {g : ℝ × ℝ → ℂ} {n : ℕ} (hg : ContDiffOn ℝ n g Ω) :
    JetOn Ω n (pdFam g) := by
  refine ⟨hΩ, fun i j hij p hp => ?_⟩
  have h1 : ContDiffOn ℝ (1 + i : ℕ) (pd2^[j] g) Ω :=
    pd2_iter_on hΩ (hg.of_le (by exact_mod_cast (by omega : 1 + i + j ≤ n)))
  have hd : DifferentiableAt ℝ (pdFam g i j) p :=
    ((pd1_iter_on hΩ h1).contDiffAt (hΩ.mem_nhds hp)).differentiableAt (by simp)
  refine hd.hasFDerivAt.congr_fderiv ?_
  have e1 : pdFam g (i + 1) j p = fderiv ℝ (pdFam g i j) p (1, 0) := by
    unfold pdFam; rw [Function.iterate_succ_apply']; rfl
  have e2 : pdFam g i (j + 1) p = fderiv ℝ (pdFam g i j) p (0, 1) := by
    have := pd2_pd1_iter_on hΩ (i := i) (pd2_iter_on hΩ (n := i + 1) (j := j)
      (hg.of_le (by exact_mod_cast (by omega : i + 1 + j ≤ n)))) p hp
    unfold pdFam; rw [Function.iterate_succ_apply', ← this]; rfl
  rw [e1, e2]
  ext <;> simp [grad2]

end Pot
