import Verif.Spec.PolarModes
import Verif.Props.PolarFD
import Mathlib.LinearAlgebra.Eigenspace.Minpoly

/-! # The linear map of the compact polar scheme with boundary rows -/

namespace Pot
open Real Finset Spec

/-- a value for every node of the grid -/
abbrev GridVec (N : ℕ) := Fin (N + 1) × Fin (N + 1) → ℂ

/-- the grid function of a vector of nodal values -/
def gext {N : ℕ} (v : GridVec N) (m l : ℤ) : ℂ :=
  if h : m.toNat < N + 1 ∧ l.toNat < N + 1 then v (⟨m.toNat, h.1⟩, ⟨l.toNat, h.2⟩) else 0

theorem gext_nat {N : ℕ} (v : GridVec N) {m l : ℕ} (hm : m < N + 1) (hl : l < N + 1) : gext v m l = v (⟨m, hm⟩, ⟨l, hl⟩) := by
  unfold gext
  rw [dif_pos ⟨by simpa using hm, by simpa using hl⟩]
  simp

theorem gext_add {N : ℕ} (v w : GridVec N) : gext (v + w) = fun m l => gext v m l + gext w m l := by
  funext m l
  unfold gext
  split <;> simp

theorem gext_smul {N : ℕ} (c : ℂ) (v : GridVec N) : gext (c • v) = fun m l => c * gext v m l := by
  funext m l
  unfold gext
  split <;> simp

/-- nodes on the boundary -/
def onEdge (N : ℕ) (x : Fin (N + 1) × Fin (N + 1)) : Prop := (x.1 : ℕ) = 0 ∨ (x.1 : ℕ) = N ∨ (x.2 : ℕ) = 0 ∨ (x.2 : ℕ) = N

instance (N : ℕ) (x : Fin (N + 1) × Fin (N + 1)) : Decidable (onEdge N x) := by unfold onEdge; infer_instance

/-- what multiplies `k²` in the compact scheme -/
noncomputable def massB (h t : ℝ) (ρ : ℤ → ℝ) (V : ℤ → ℤ → ℂ) (m l : ℤ) : ℂ :=
  V m l + (h : ℂ) ^ 2 / 12 * (lapR h ρ V m l + V m l / (ρ m : ℂ) ^ 2) + (t : ℂ) ^ 2 / 12 * dthth t V m l

theorem polarL4_k (h t k : ℝ) (ρ : ℤ → ℝ) (V : ℤ → ℤ → ℂ) (m l : ℤ) :
    polarL4 h t k ρ V m l = polarL4 h t 0 ρ V m l + (k : ℂ) ^ 2 * massB h t ρ V m l := by
  simp only [polarL4, massB, lapR, angPart, drr, dr, dthth]
  push_cast
  ring

theorem polarL4_add (h t k : ℝ) (ρ : ℤ → ℝ) (V W : ℤ → ℤ → ℂ) (m l : ℤ) :
    polarL4 h t k ρ (fun m l => V m l + W m l) m l = polarL4 h t k ρ V m l + polarL4 h t k ρ W m l := by
  simp only [polarL4, lapR, angPart, drr, dr, dthth]
  ring

theorem polarL4_smul (h t k : ℝ) (ρ : ℤ → ℝ) (c : ℂ) (V : ℤ → ℤ → ℂ) (m l : ℤ) :
    polarL4 h t k ρ (fun m l => c * V m l) m l = c * polarL4 h t k ρ V m l := by
  simp only [polarL4, lapR, angPart, drr, dr, dthth]
  ring

theorem massB_add (h t : ℝ) (ρ : ℤ → ℝ) (V W : ℤ → ℤ → ℂ) (m l : ℤ) :
    massB h t ρ (fun m l => V m l + W m l) m l = massB h t ρ V m l + massB h t ρ W m l := by
  simp only [massB, lapR, drr, dr, dthth]
  ring

theorem massB_smul (h t : ℝ) (ρ : ℤ → ℝ) (c : ℂ) (V : ℤ → ℤ → ℂ) (m l : ℤ) :
    massB h t ρ (fun m l => c * V m l) m l = c * massB h t ρ V m l := by
  simp only [massB, lapR, drr, dr, dthth]
  ring

/-- the value of the scheme depends on the nine nodes only -/
theorem polarL4_congr (h t k : ℝ) (ρ : ℤ → ℝ) {V W : ℤ → ℤ → ℂ} {N m l : ℕ} (hVW : ∀ m l : ℕ, m ≤ N → l ≤ N → V m l = W m l)
    (m0 : 0 < m) (m1 : m < N) (l0 : 0 < l) (l1 : l < N) : polarL4 h t k ρ V m l = polarL4 h t k ρ W m l := by
  obtain ⟨m, rfl⟩ : ∃ i, m = i + 1 := ⟨m - 1, by omega⟩
  obtain ⟨l, rfl⟩ : ∃ i, l = i + 1 := ⟨l - 1, by omega⟩
  have key : ∀ i j : ℕ, i ≤ 2 → j ≤ 2 → V ((m : ℤ) + i) ((l : ℤ) + j) = W ((m : ℤ) + i) ((l : ℤ) + j) := by
    intro i j hi hj
    exact_mod_cast hVW (m + i) (l + j) (by omega) (by omega)
  have k00 := key 0 0 (by omega) (by omega)
  have k01 := key 0 1 (by omega) (by omega)
  have k02 := key 0 2 (by omega) (by omega)
  have k10 := key 1 0 (by omega) (by omega)
  have k11 := key 1 1 (by omega) (by omega)
  have k12 := key 1 2 (by omega) (by omega)
  have k20 := key 2 0 (by omega) (by omega)
  have k21 := key 2 1 (by omega) (by omega)
  have k22 := key 2 2 (by omega) (by omega)
  push_cast at k00 k01 k02 k10 k11 k12 k20 k21 k22
  have a1 : ((m : ℤ) + 1 + 1) = m + 2 := by ring
  have a2 : ((m : ℤ) + 1 - 1) = m + 0 := by ring
  have a3 : ((l : ℤ) + 1 + 1) = l + 2 := by ring
  have a4 : ((l : ℤ) + 1 - 1) = l + 0 := by ring
  simp only [polarL4, lapR, angPart, drr, dr, dthth]
  push_cast
  simp only [a1, a2, a3, a4, k00, k01, k02, k10, k11, k12, k20, k21, k22]

/-- the whole system -/
noncomputable def schemeMap (h t k : ℝ) (ρ : ℤ → ℝ) (N : ℕ) : GridVec N →ₗ[ℂ] GridVec N where
  toFun v x := if onEdge N x then v x else polarL4 h t k ρ (gext v) ((x.1 : ℕ) : ℤ) ((x.2 : ℕ) : ℤ)
  map_add' v w := by
    funext x
    by_cases he : onEdge N x
    · simp [he]
    · simp only [Pi.add_apply, if_neg he, gext_add, polarL4_add]
  map_smul' c v := by
    funext x
    by_cases he : onEdge N x
    · simp [he]
    · simp only [Pi.smul_apply, if_neg he, gext_smul, polarL4_smul, smul_eq_mul, RingHom.id_apply]

theorem schemeMap_injective {h t k : ℝ} {ρ : ℤ → ℝ} {N : ℕ} : SchemeRegular h t k ρ N ↔ Function.Injective (schemeMap h t k ρ N) := by
  rw [← LinearMap.ker_eq_bot, LinearMap.ker_eq_bot']
  constructor
  · intro hS v hv
    funext x
    have := hS (gext v) (fun m l hm hl hb => by
        have := congrFun hv (⟨m, by omega⟩, ⟨l, by omega⟩)
        rw [gext_nat v (by omega) (by omega)]
        simpa [schemeMap, onEdge, hb] using this)
      (fun m l m0 m1 l0 l1 => by
        have := congrFun hv (⟨m, by omega⟩, ⟨l, by omega⟩)
        simpa [schemeMap, onEdge, m0.ne', m1.ne, l0.ne', l1.ne] using this)
      x.1 x.2 (by have := x.1.2; omega) (by have := x.2.2; omega)
    rw [gext_nat v x.1.2 x.2.2] at this
    exact this
  · intro hi V hb hin m l hm hl
    have hg : ∀ m l : ℕ, m ≤ N → l ≤ N → gext (fun x : Fin (N + 1) × Fin (N + 1) => V ((x.1 : ℕ) : ℤ) ((x.2 : ℕ) : ℤ)) m l = V m l := by
      intro m l hm hl
      rw [gext_nat _ (by omega) (by omega)]
    have := hi (fun x => V ((x.1 : ℕ) : ℤ) ((x.2 : ℕ) : ℤ)) (by
      funext x
      have q1 := x.1.2
      have q2 := x.2.2
      change (if onEdge N x then _ else _) = _
      split
      · rename_i he
        exact hb x.1 x.2 (by omega) (by omega) he
      · rename_i he
        unfold onEdge at he
        rw [polarL4_congr h t k ρ hg (by omega) (by omega) (by omega) (by omega)]
        exact hin x.1 x.2 (by omega) (by omega) (by omega) (by omega))
    have := congrFun this (⟨m, by omega⟩, ⟨l, by omega⟩)
    simpa using this

/-- regular means that every right-hand side has a solution -/
theorem scheme_exists {h t k : ℝ} {ρ : ℤ → ℝ} {N : ℕ} (hS : SchemeRegular h t k ρ N) (b f : ℕ → ℕ → ℂ) :
    ∃ V : ℤ → ℤ → ℂ, (∀ m l : ℕ, m ≤ N → l ≤ N → m = 0 ∨ m = N ∨ l = 0 ∨ l = N → V m l = b m l) ∧
      ∀ m l : ℕ, 0 < m → m < N → 0 < l → l < N → polarL4 h t k ρ V m l = f m l := by
  obtain ⟨v, hv⟩ := (LinearMap.injective_iff_surjective.1 (schemeMap_injective.1 hS))
    (fun x => if onEdge N x then b x.1 x.2 else f x.1 x.2)
  refine ⟨gext v, fun m l hm hl hb => ?_, fun m l m0 m1 l0 l1 => ?_⟩
  · have := congrFun hv (⟨m, by omega⟩, ⟨l, by omega⟩)
    rw [gext_nat v (by omega) (by omega)]
    simpa [schemeMap, onEdge, hb] using this
  · have := congrFun hv (⟨m, by omega⟩, ⟨l, by omega⟩)
    simpa [schemeMap, onEdge, m0.ne', m1.ne, l0.ne', l1.ne] using this

/-- what multiplies `k²`, with the boundary values kept -/
noncomputable def massMap (h t : ℝ) (ρ : ℤ → ℝ) (N : ℕ) : GridVec N →ₗ[ℂ] GridVec N where
  toFun v x := if onEdge N x then v x else massB h t ρ (gext v) ((x.1 : ℕ) : ℤ) ((x.2 : ℕ) : ℤ)
  map_add' v w := by
    funext x
    by_cases he : onEdge N x
    · simp [he]
    · simp only [Pi.add_apply, if_neg he, gext_add, massB_add]
  map_smul' c v := by
    funext x
    by_cases he : onEdge N x
    · simp [he]
    · simp only [Pi.smul_apply, if_neg he, gext_smul, massB_smul, smul_eq_mul, RingHom.id_apply]

/-- the rest, with the boundary values dropped -/
noncomputable def restMap (h t : ℝ) (ρ : ℤ → ℝ) (N : ℕ) : GridVec N →ₗ[ℂ] GridVec N where
  toFun v x := if onEdge N x then 0 else polarL4 h t 0 ρ (gext v) ((x.1 : ℕ) : ℤ) ((x.2 : ℕ) : ℤ)
  map_add' v w := by
    funext x
    by_cases he : onEdge N x
    · simp [he]
    · simp only [Pi.add_apply, if_neg he, gext_add, polarL4_add]
  map_smul' c v := by
    funext x
    by_cases he : onEdge N x
    · simp [he]
    · simp only [Pi.smul_apply, if_neg he, gext_smul, polarL4_smul, smul_eq_mul, RingHom.id_apply]

theorem massB_dom {h t : ℝ} (hh : h ≠ 0) (ht : t ≠ 0) {ρ : ℤ → ℝ} {V : ℤ → ℤ → ℂ} {m l : ℤ} {M : ℝ} (hρ : 0 < ρ m) (hx : |h| ≤ 2 * ρ m)
    (hM : ‖V m l‖ = M) (h1 : ‖V (m + 1) l‖ ≤ M) (h2 : ‖V (m - 1) l‖ ≤ M) (h3 : ‖V m (l + 1)‖ ≤ M) (h4 : ‖V m (l - 1)‖ ≤ M)
    (h0 : massB h t ρ V m l = 0) : M = 0 := by
  have hh' : (h : ℂ) ≠ 0 := by exact_mod_cast hh
  have ht' : (t : ℂ) ≠ 0 := by exact_mod_cast ht
  have hρ' : (ρ m : ℂ) ≠ 0 := by exact_mod_cast hρ.ne'
  set x : ℝ := h / ρ m with hxd
  have hx1 : |x| ≤ 2 := by
    rw [hxd, abs_div, abs_of_pos hρ, div_le_iff₀ hρ]
    exact hx
  rw [abs_le] at hx1
  have e : ((2 / 3 + x ^ 2 / 12 : ℝ) : ℂ) * V m l =
      -(((1 + x / 2) / 12 : ℝ) * V (m + 1) l + ((1 - x / 2) / 12 : ℝ) * V (m - 1) l + (1 / 12 : ℝ) * V m (l + 1) + (1 / 12 : ℝ) * V m (l - 1)) := by
    rw [← sub_eq_zero, ← h0, hxd]
    simp only [massB, lapR, drr, dr, dthth]
    push_cast
    field_simp
    ring
  have M0 : 0 ≤ M := hM ▸ norm_nonneg _
  have n := congrArg norm e
  rw [norm_mul, Complex.norm_real, norm_neg, hM, Real.norm_of_nonneg (by positivity)] at n
  have n2 : (2 / 3 + x ^ 2 / 12) * M ≤ (1 + x / 2) / 12 * M + (1 - x / 2) / 12 * M + 1 / 12 * M + 1 / 12 * M := by
    rw [n]
    refine (norm_add_le _ _).trans (add_le_add ((norm_add_le _ _).trans (add_le_add ((norm_add_le _ _).trans (add_le_add ?_ ?_)) ?_)) ?_)
    · rw [norm_mul, Complex.norm_real, Real.norm_of_nonneg (by linarith)]
      exact mul_le_mul_of_nonneg_left h1 (by linarith)
    · rw [norm_mul, Complex.norm_real, Real.norm_of_nonneg (by linarith)]
      exact mul_le_mul_of_nonneg_left h2 (by linarith)
    · rw [norm_mul, Complex.norm_real, Real.norm_of_nonneg (by norm_num)]
      exact mul_le_mul_of_nonneg_left h3 (by norm_num)
    · rw [norm_mul, Complex.norm_real, Real.norm_of_nonneg (by norm_num)]
      exact mul_le_mul_of_nonneg_left h4 (by norm_num)
  have : 0 ≤ x ^ 2 / 12 * M := by positivity
  nlinarith

theorem massMap_injective {h t : ℝ} (hh : h ≠ 0) (ht : t ≠ 0) {ρ : ℤ → ℝ} {N : ℕ} (hρ : ∀ m : ℕ, 0 < m → m < N → 0 < ρ m ∧ |h| ≤ 2 * ρ m) :
    Function.Injective (massMap h t ρ N) := by
  rw [← LinearMap.ker_eq_bot, LinearMap.ker_eq_bot']
  intro v hv
  obtain ⟨x, -, hx⟩ := Finset.exists_max_image (Finset.univ : Finset (Fin (N + 1) × Fin (N + 1))) (fun x => ‖v x‖) Finset.univ_nonempty
  have hx0 : ‖v x‖ = 0 := by
    have hvx := congrFun hv x
    change (if onEdge N x then _ else _) = (0 : ℂ) at hvx
    by_cases he : onEdge N x
    · rw [if_pos he] at hvx
      rw [hvx, norm_zero]
    · rw [if_neg he] at hvx
      unfold onEdge at he
      obtain ⟨⟨m, hm⟩, ⟨l, hl⟩⟩ := x
      dsimp only at he hvx hx
      have nb : ∀ m' l' : ℕ, m' < N + 1 → l' < N + 1 → ‖gext v m' l'‖ ≤ ‖v (⟨m, hm⟩, ⟨l, hl⟩)‖ := by
        intro m' l' h1 h2
        rw [gext_nat v h1 h2]
        exact hx _ (Finset.mem_univ _)
      have hr := hρ m (by omega) (by omega)
      refine massB_dom hh ht hr.1 hr.2 (V := gext v) (l := l) (by rw [gext_nat v hm hl]) ?_ ?_ ?_ ?_ hvx
      · exact_mod_cast nb (m + 1) l (by omega) (by omega)
      · have := nb (m - 1) l (by omega) (by omega)
        rwa [Nat.cast_sub (by omega)] at this
      · exact_mod_cast nb m (l + 1) (by omega) (by omega)
      · have := nb m (l - 1) (by omega) (by omega)
        rwa [Nat.cast_sub (n := l) (by omega)] at this
  funext y
  exact norm_le_zero_iff.1 (hx0 ▸ hx y (Finset.mem_univ _))

/-- only finitely many wave numbers are bad -/
theorem bad_finite {h t : ℝ} (hh : h ≠ 0) (ht : t ≠ 0) {ρ : ℤ → ℝ} {N : ℕ} (hρ : ∀ m : ℕ, 0 < m → m < N → 0 < ρ m ∧ |h| ≤ 2 * ρ m) :
    {k : ℝ | ¬ SchemeRegular h t k ρ N}.Finite := by
  let B : GridVec N ≃ₗ[ℂ] GridVec N := LinearEquiv.ofInjectiveEndo _ (massMap_injective hh ht hρ)
  let f : Module.End ℂ (GridVec N) := B.symm.toLinearMap ∘ₗ restMap h t ρ N
  have hfin : {μ : ℂ | f.HasEigenvalue μ}.Finite := Module.End.finite_hasEigenvalue f
  have hpre : ((fun k : ℝ => -(k : ℂ) ^ 2) ⁻¹' {μ : ℂ | f.HasEigenvalue μ}).Finite := by
    refine hfin.preimage' fun c _ => ?_
    by_cases hc : ∃ k0 : ℝ, -(k0 : ℂ) ^ 2 = c
    · obtain ⟨k0, hk0⟩ := hc
      refine (Set.toFinite {k0, -k0}).subset fun k hk => ?_
      have hk' : -(k : ℂ) ^ 2 = c := hk
      have : k ^ 2 = k0 ^ 2 := by
        have : (k : ℂ) ^ 2 = (k0 : ℂ) ^ 2 := by linear_combination hk0 - hk'
        exact_mod_cast this
      rcases sq_eq_sq_iff_eq_or_eq_neg.1 this with h | h
      · exact Or.inl h
      · exact Or.inr h
    · convert Set.finite_empty (α := ℝ)
      ext k
      simp only [Set.mem_preimage, Set.mem_singleton_iff, Set.mem_empty_iff_false, iff_false]
      exact fun h => hc ⟨k, h⟩
  refine hpre.subset fun k hk => ?_
  have hk' : ¬ SchemeRegular h t k ρ N := hk
  unfold SchemeRegular at hk'
  push Not at hk'
  obtain ⟨V, hb, hin, m, l, hm, hl, hne⟩ := hk'
  let v : GridVec N := fun x => V ((x.1 : ℕ) : ℤ) ((x.2 : ℕ) : ℤ)
  have hg : ∀ m l : ℕ, m ≤ N → l ≤ N → gext v m l = V m l := by
    intro m l hm hl
    rw [gext_nat _ (by omega) (by omega)]
  refine Module.End.hasEigenvalue_of_hasEigenvector (x := v) ⟨Module.End.mem_eigenspace_iff.2 ?_, ?_⟩
  · change B.symm (restMap h t ρ N v) = _
    rw [LinearEquiv.symm_apply_eq, map_smul]
    funext x
    have q1 := x.1.2
    have q2 := x.2.2
    change (if onEdge N x then 0 else _) = -(k : ℂ) ^ 2 * (if onEdge N x then v x else _)
    split
    · rename_i he
      have : v x = 0 := hb x.1 x.2 (by omega) (by omega) he
      rw [this, mul_zero]
    · rename_i he
      unfold onEdge at he
      have e := hin x.1 x.2 (by omega) (by omega) (by omega) (by omega)
      rw [← polarL4_congr h t k ρ hg (by omega) (by omega) (by omega) (by omega), polarL4_k] at e
      linear_combination e
  · intro h0
    exact hne (congrFun h0 (⟨m, by omega⟩, ⟨l, by omega⟩))

end Pot
