import Mathlib.Analysis.InnerProductSpace.Projection.Basic
import Mathlib.Analysis.InnerProductSpace.PiL2
import Mathlib.Topology.Algebra.Module.FiniteDimension

/-!
# Least-squares minimisers exist
-/

namespace Pot

/-- every finite linear least-squares problem over ℂ has a minimiser -/
theorem exists_lsq {m n : ℕ} (A : Fin n → Fin m → ℂ) (y : Fin n → ℂ) :
    ∃ c : Fin m → ℂ, ∀ d : Fin m → ℂ,
      ∑ i, ‖(∑ j, A i j * c j) - y i‖ ^ 2 ≤ ∑ i, ‖(∑ j, A i j * d j) - y i‖ ^ 2 := by
  let L : (Fin m → ℂ) →ₗ[ℂ] EuclideanSpace ℂ (Fin n) :=
    (WithLp.linearEquiv 2 ℂ (Fin n → ℂ)).symm.toLinearMap ∘ₗ (Matrix.mulVecLin (Matrix.of A))
  have hL : ∀ d i, L d i = ∑ j, A i j * d j := by
    intro d i
    simp [L, Matrix.mulVec, dotProduct]
  let Y : EuclideanSpace ℂ (Fin n) := WithLp.toLp 2 y
  have hc : IsComplete (LinearMap.range L : Set (EuclideanSpace ℂ (Fin n))) :=
    (Submodule.complete_of_finiteDimensional _)
  obtain ⟨v, hv, hmin⟩ := Submodule.exists_norm_eq_iInf_of_complete_subspace (LinearMap.range L) hc Y
  obtain ⟨c, rfl⟩ := hv
  have hnorm : ∀ d, ∑ i, ‖(∑ j, A i j * d j) - y i‖ ^ 2 = ‖Y - L d‖ ^ 2 := by
    intro d
    rw [EuclideanSpace.norm_sq_eq]
    refine Finset.sum_congr rfl fun i _ => ?_
    rw [← norm_neg]
    congr 2
    simp [hL, Y]
  refine ⟨c, fun d => ?_⟩
  rw [hnorm, hnorm]
  have : ‖Y - L c‖ ≤ ‖Y - L d‖ := by
    rw [hmin]
    exact ciInf_le ⟨0, by rintro _ ⟨x, rfl⟩; exact norm_nonneg _⟩
      (⟨L d, ⟨d, rfl⟩⟩ : (LinearMap.range L : Set (EuclideanSpace ℂ (Fin n))))
  gcongr

end Pot
