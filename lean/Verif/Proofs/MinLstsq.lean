import Verif.Spec.Superposition
import Verif.Props.Basis
import Verif.Props.Run
import Verif.Proofs.LeastSquares
import Mathlib.Analysis.InnerProductSpace.Projection.Basic
import Mathlib.Analysis.InnerProductSpace.Projection.FiniteDimensional
import Mathlib.Analysis.InnerProductSpace.PiL2
import Mathlib.Topology.Algebra.Module.FiniteDimension
import Mathlib.Data.List.GetD

/-! # Least-squares solutions of systems with real coefficients are real-linear in the right-hand side -/

namespace Pot
open Spec Finset ComplexConjugate

theorem Mix.app_zero (m : Mix) : m.app 0 0 = 0 := by simp [Mix.app]

theorem Mix.app_add (m : Mix) (x x' y y' : ℂ) : m.app (x + x') (y + y') = m.app x y + m.app x' y' := by
  simp only [Mix.app, map_add]; ring

theorem Mix.app_sub (m : Mix) (x x' y y' : ℂ) : m.app (x - x') (y - y') = m.app x y - m.app x' y' := by
  simp only [Mix.app, map_sub]; ring

theorem Mix.app_neg (m : Mix) (x y : ℂ) : m.app (-x) (-y) = -m.app x y := by
  simp only [Mix.app, map_neg]; ring

theorem Mix.app_mul (m : Mix) {r : ℂ} (hr : conj r = r) (x y : ℂ) : m.app (r * x) (r * y) = r * m.app x y := by
  simp only [Mix.app, map_mul, hr]; ring

theorem Mix.app_mul' (m : Mix) {r : ℂ} (hr : conj r = r) (x y : ℂ) : m.app (x * r) (y * r) = m.app x y * r := by
  simp only [Mix.app, map_mul, hr]; ring

theorem Mix.app_sum (m : Mix) {ι : Type*} (s : Finset ι) (x y : ι → ℂ) :
    m.app (∑ i ∈ s, x i) (∑ i ∈ s, y i) = ∑ i ∈ s, m.app (x i) (y i) := by
  simp only [Mix.app, map_sum, mul_sum, ← sum_add_distrib]

theorem Mix.app_list_sum (m : Mix) {ι : Type*} (l : List ι) (x y : ι → ℂ) :
    m.app (l.map x).sum (l.map y).sum = (l.map fun i => m.app (x i) (y i)).sum := by
  induction l with
  | nil => simp [Mix.app_zero]
  | cons i l ih => simp only [List.map_cons, List.sum_cons, Mix.app_add, ih]

section abstract
variable {n p : ℕ}

/-- the vector `A c` -/
noncomputable def mv (A : Fin p → Fin n → ℂ) (c : Fin n → ℂ) (i : Fin p) : ℂ := ∑ j, A i j * c j

/-- the normal equations and orthogonality to the kernel -/
structure Normal (A : Fin p → Fin n → ℂ) (b : Fin p → ℂ) (c : Fin n → ℂ) : Prop where
  eqn : ∀ d, ∑ i, conj (mv A d i) * (mv A c i - b i) = 0
  ker : ∀ z, (∀ i, mv A z i = 0) → ∑ j, conj (z j) * c j = 0

theorem mv_sub (A : Fin p → Fin n → ℂ) (c d : Fin n → ℂ) (i : Fin p) : mv A (fun j => c j - d j) i = mv A c i - mv A d i := by
  simp only [mv, mul_sub, sum_sub_distrib]

theorem sum_conj_eq_zero {ι : Type*} [Fintype ι] {v : ι → ℂ} (h : ∑ i, conj (v i) * v i = 0) (i : ι) : v i = 0 := by
  have h1 : ∑ i, ‖v i‖ ^ 2 = 0 := by
    have : ((∑ i, ‖v i‖ ^ 2 : ℝ) : ℂ) = 0 := by
      rw [← h]; push_cast
      exact sum_congr rfl fun i _ => by rw [← Complex.conj_mul']
    exact_mod_cast this
  have := (sum_eq_zero_iff_of_nonneg fun i _ => sq_nonneg ‖v i‖).1 h1 i (mem_univ i)
  simpa using this

/-- two solutions of the normal equations have the same image -/
theorem normal_image {A : Fin p → Fin n → ℂ} {b : Fin p → ℂ} {c d : Fin n → ℂ}
    (hc : ∀ e, ∑ i, conj (mv A e i) * (mv A c i - b i) = 0) (hd : ∀ e, ∑ i, conj (mv A e i) * (mv A d i - b i) = 0) (i : Fin p) :
    mv A c i = mv A d i := by
  have h : ∑ i, conj (mv A (fun j => c j - d j) i) * (mv A (fun j => c j - d j) i) = 0 := by
    have e := congrArg₂ (· - ·) (hc fun j => c j - d j) (hd fun j => c j - d j)
    simp only [← sum_sub_distrib, sub_zero] at e
    rw [← e]
    refine sum_congr rfl fun i _ => ?_
    simp only [mv_sub]; ring
  have := sum_conj_eq_zero h i
  rw [mv_sub] at this
  exact sub_eq_zero.1 this

theorem Normal.unique {A : Fin p → Fin n → ℂ} {b : Fin p → ℂ} {c d : Fin n → ℂ} (hc : Normal A b c) (hd : Normal A b d) :
    c = d := by
  have hi := normal_image hc.eqn hd.eqn
  have hz : ∀ i, mv A (fun j => c j - d j) i = 0 := fun i => by rw [mv_sub, hi, sub_self]
  have h : ∑ j, conj (c j - d j) * (c j - d j) = 0 := by
    have e := congrArg₂ (· - ·) (hc.ker _ hz) (hd.ker _ hz)
    simp only [← sum_sub_distrib, sub_zero] at e
    rw [← e]
    exact sum_congr rfl fun j _ => by ring
  funext j
  exact sub_eq_zero.1 (sum_conj_eq_zero (v := fun j => c j - d j) h j)

/-- a minimiser along a line -/
theorem line_min {ι : Type*} [Fintype ι] {r w : ι → ℂ} (h : ∀ t : ℂ, ∑ i, ‖r i‖ ^ 2 ≤ ∑ i, ‖r i + t * w i‖ ^ 2) :
    ∑ i, conj (w i) * r i = 0 := by
  let K : Submodule ℂ (EuclideanSpace ℂ ι) := Submodule.span ℂ {WithLp.toLp 2 w}
  have key := (Submodule.norm_eq_iInf_iff_inner_eq_zero K (u := WithLp.toLp 2 r) (v := 0) K.zero_mem).1 ?_
  · have := key (WithLp.toLp 2 w) (Submodule.mem_span_singleton_self _)
    rw [sub_zero, PiLp.inner_apply] at this
    have h2 := congrArg conj this
    simp only [map_sum, map_zero] at h2
    rw [← h2]
    refine sum_congr rfl fun i _ => ?_
    simp [mul_comm]
  · rw [sub_zero]
    refine le_antisymm ?_ ?_
    · refine le_ciInf fun v => ?_
      obtain ⟨v, hv⟩ := v
      obtain ⟨t, rfl⟩ := Submodule.mem_span_singleton.1 hv
      have := h (-t)
      rw [EuclideanSpace.norm_eq, EuclideanSpace.norm_eq]
      refine Real.sqrt_le_sqrt ?_
      refine this.trans_eq (sum_congr rfl fun i _ => ?_)
      simp [sub_eq_add_neg]
    · have hb : BddBelow (Set.range fun v : K => ‖(WithLp.toLp 2 r : EuclideanSpace ℂ ι) - v‖) :=
        ⟨0, by rintro _ ⟨x, rfl⟩; exact norm_nonneg _⟩
      have := ciInf_le hb 0
      simpa using this

theorem mv_add_smul (A : Fin p → Fin n → ℂ) (c d : Fin n → ℂ) (t : ℂ) (i : Fin p) :
    mv A (fun j => c j + t * d j) i = mv A c i + t * mv A d i := by
  simp only [mv, mul_add, sum_add_distrib, mul_sum]
  congr 1
  exact sum_congr rfl fun j _ => by ring

/-- minimisers satisfy the normal equations -/
theorem normal_of_min {A : Fin p → Fin n → ℂ} {b : Fin p → ℂ} {c : Fin n → ℂ}
    (h : ∀ d, ∑ i, ‖mv A c i - b i‖ ^ 2 ≤ ∑ i, ‖mv A d i - b i‖ ^ 2) (d : Fin n → ℂ) :
    ∑ i, conj (mv A d i) * (mv A c i - b i) = 0 := by
  refine line_min fun t => (h fun j => c j + t * d j).trans_eq (sum_congr rfl fun i _ => ?_)
  rw [mv_add_smul]; congr 2; ring

/-- minimisers of smallest norm are orthogonal to the kernel -/
theorem normal_of_minnorm {A : Fin p → Fin n → ℂ} {b : Fin p → ℂ} {c : Fin n → ℂ}
    (h : ∀ d, ∑ i, ‖mv A c i - b i‖ ^ 2 ≤ ∑ i, ‖mv A d i - b i‖ ^ 2)
    (h' : ∀ d, ∑ i, ‖mv A d i - b i‖ ^ 2 ≤ ∑ i, ‖mv A c i - b i‖ ^ 2 → ∑ j, ‖c j‖ ^ 2 ≤ ∑ j, ‖d j‖ ^ 2) : Normal A b c := by
  refine ⟨normal_of_min h, fun z hz => line_min fun t => ?_⟩
  refine h' _ (le_of_eq (sum_congr rfl fun i _ => ?_))
  rw [mv_add_smul, hz, mul_zero, add_zero]

/-- the converse -/
theorem Normal.minimal {A : Fin p → Fin n → ℂ} {b : Fin p → ℂ} {c : Fin n → ℂ} (hc : Normal A b c) :
    (∀ d, ∑ i, ‖mv A c i - b i‖ ^ 2 ≤ ∑ i, ‖mv A d i - b i‖ ^ 2) ∧
    ∀ d, ∑ i, ‖mv A d i - b i‖ ^ 2 ≤ ∑ i, ‖mv A c i - b i‖ ^ 2 → ∑ j, ‖c j‖ ^ 2 ≤ ∑ j, ‖d j‖ ^ 2 := by
  have pyth : ∀ {ι : Type} [Fintype ι] (x y : ι → ℂ), ∑ i, conj (y i) * x i = 0 →
      ∑ i, ‖x i + y i‖ ^ 2 = ∑ i, ‖x i‖ ^ 2 + ∑ i, ‖y i‖ ^ 2 := by
    intro ι _ x y h
    have h2 := congrArg Complex.re h
    rw [Complex.re_sum, Complex.zero_re] at h2
    have : ∀ i, ‖x i + y i‖ ^ 2 = ‖x i‖ ^ 2 + ‖y i‖ ^ 2 + 2 * (conj (y i) * x i).re := by
      intro i
      rw [Complex.sq_norm, Complex.sq_norm, Complex.sq_norm, Complex.normSq_add]
      congr 2
      rw [mul_comm]
    simp only [this, sum_add_distrib, ← mul_sum, h2, mul_zero, add_zero]
  have hex : ∀ d, ∑ i, ‖mv A d i - b i‖ ^ 2 =
      ∑ i, ‖mv A c i - b i‖ ^ 2 + ∑ i, ‖mv A (fun j => d j - c j) i‖ ^ 2 := by
    intro d
    rw [← pyth _ _ (hc.eqn fun j => d j - c j)]
    refine sum_congr rfl fun i _ => ?_
    rw [mv_sub]; congr 2; ring
  have hmin : ∀ d, ∑ i, ‖mv A c i - b i‖ ^ 2 ≤ ∑ i, ‖mv A d i - b i‖ ^ 2 := by
    intro d
    rw [hex d]
    exact le_add_of_nonneg_right (sum_nonneg fun i _ => sq_nonneg _)
  refine ⟨hmin, fun d hd => ?_⟩
  have hz : ∑ i, ‖mv A (fun j => d j - c j) i‖ ^ 2 = 0 := by
    refine le_antisymm ?_ (sum_nonneg fun i _ => sq_nonneg _)
    have := hex d
    linarith
  have hz' : ∀ i, mv A (fun j => d j - c j) i = 0 := by
    intro i
    have := (sum_eq_zero_iff_of_nonneg fun i _ => sq_nonneg _).1 hz i (mem_univ i)
    simpa using this
  have := pyth _ _ (hc.ker _ hz')
  simp only [add_sub_cancel] at this
  rw [this]
  exact le_add_of_nonneg_right (sum_nonneg fun i _ => sq_nonneg _)

theorem mv_mix {A : Fin p → Fin n → ℂ} (hA : ∀ i j, conj (A i j) = A i j) (m : Mix) (c d : Fin n → ℂ) (i : Fin p) :
    mv A (fun j => m.app (c j) (d j)) i = m.app (mv A c i) (mv A d i) := by
  unfold mv
  rw [Mix.app_sum]
  exact sum_congr rfl fun j _ => (Mix.app_mul m (hA i j) _ _).symm

theorem mv_conj {A : Fin p → Fin n → ℂ} (hA : ∀ i j, conj (A i j) = A i j) (c : Fin n → ℂ) (i : Fin p) :
    mv A (fun j => conj (c j)) i = conj (mv A c i) := by
  unfold mv
  rw [map_sum]
  exact sum_congr rfl fun j _ => by rw [map_mul, hA]

theorem mix_orth {ι : Type*} [Fintype ι] (m : Mix) (w x y : ι → ℂ) (h1 : ∑ i, conj (w i) * x i = 0)
    (h2 : ∑ i, conj (w i) * y i = 0) (h1' : ∑ i, w i * x i = 0) (h2' : ∑ i, w i * y i = 0) :
    ∑ i, conj (w i) * m.app (x i) (y i) = 0 := by
  have c1 := congrArg conj h1'
  have c2 := congrArg conj h2'
  simp only [map_sum, map_mul, map_zero] at c1 c2
  have : ∀ i, conj (w i) * m.app (x i) (y i) = m.a * (conj (w i) * x i) + m.a' * (conj (w i) * conj (x i)) +
      m.b * (conj (w i) * y i) + m.b' * (conj (w i) * conj (y i)) := fun i => by unfold Mix.app; ring
  simp only [this, sum_add_distrib, ← mul_sum, h1, h2, c1, c2, mul_zero, add_zero]

/-- the normal equations for a combination of right-hand sides -/
theorem eqn_mix {A : Fin p → Fin n → ℂ} (hA : ∀ i j, conj (A i j) = A i j) (m : Mix) {b1 b2 : Fin p → ℂ} {c1 c2 : Fin n → ℂ}
    (h1 : ∀ d, ∑ i, conj (mv A d i) * (mv A c1 i - b1 i) = 0) (h2 : ∀ d, ∑ i, conj (mv A d i) * (mv A c2 i - b2 i) = 0)
    (d : Fin n → ℂ) : ∑ i, conj (mv A d i) * (mv A (fun j => m.app (c1 j) (c2 j)) i - m.app (b1 i) (b2 i)) = 0 := by
  have sw : ∀ {b : Fin p → ℂ} {c : Fin n → ℂ}, (∀ d, ∑ i, conj (mv A d i) * (mv A c i - b i) = 0) → ∑ i, mv A d i * (mv A c i - b i) = 0 := by
    intro b c h
    have := h fun j => conj (d j)
    simpa only [mv_conj hA, Complex.conj_conj] using this
  have := mix_orth m (fun i => mv A d i) (fun i => mv A c1 i - b1 i) (fun i => mv A c2 i - b2 i) (h1 d) (h2 d) (sw h1) (sw h2)
  rw [← this]
  refine sum_congr rfl fun i _ => ?_
  rw [mv_mix hA, Mix.app_sub]

/-- the solution for a combination of right-hand sides is the combination of the solutions -/
theorem Normal.mix {A : Fin p → Fin n → ℂ} (hA : ∀ i j, conj (A i j) = A i j) (m : Mix) {b1 b2 : Fin p → ℂ} {c1 c2 : Fin n → ℂ}
    (h1 : Normal A b1 c1) (h2 : Normal A b2 c2) :
    Normal A (fun i => m.app (b1 i) (b2 i)) fun j => m.app (c1 j) (c2 j) := by
  have sk : ∀ {b c}, Normal A b c → ∀ z, (∀ i, mv A z i = 0) → ∑ j, z j * c j = 0 := by
    intro b c h z hz
    have := h.ker (fun j => conj (z j)) fun i => by rw [mv_conj hA, hz, map_zero]
    simpa only [Complex.conj_conj] using this
  exact ⟨eqn_mix hA m h1.eqn h2.eqn, fun z hz => mix_orth m z c1 c2 (h1.ker z hz) (h2.ker z hz) (sk h1 z hz) (sk h2 z hz)⟩

/-- such a solution always exists -/
theorem exists_normal (A : Fin p → Fin n → ℂ) (b : Fin p → ℂ) : ∃ c, Normal A b c := by
  obtain ⟨c0, h0⟩ := exists_lsq A b
  let L : EuclideanSpace ℂ (Fin n) →ₗ[ℂ] (Fin p → ℂ) :=
    Matrix.mulVecLin (Matrix.of A) ∘ₗ (WithLp.linearEquiv 2 ℂ (Fin n → ℂ)).toLinearMap
  have hL : ∀ (d : Fin n → ℂ) i, L (WithLp.toLp 2 d) i = mv A d i := fun d i => rfl
  obtain ⟨v, hv, hmin⟩ := Submodule.exists_norm_eq_iInf_of_complete_subspace (LinearMap.ker L)
    (Submodule.complete_of_finiteDimensional _) (WithLp.toLp 2 c0)
  have ho := (Submodule.norm_eq_iInf_iff_inner_eq_zero (LinearMap.ker L) hv).1 hmin
  have hv0 : ∀ i, mv A (fun j => v j) i = 0 := fun i => congrFun (LinearMap.mem_ker.1 hv) i
  refine ⟨fun j => c0 j - v j, fun d => ?_, fun z hz => ?_⟩
  · rw [← normal_of_min (A := A) (b := b) (c := c0) h0 d]
    refine sum_congr rfl fun i _ => ?_
    rw [mv_sub, hv0, sub_zero]
  · have := congrArg conj (ho (WithLp.toLp 2 z) (LinearMap.mem_ker.2 (funext fun i => hz i)))
    rw [PiLp.inner_apply, map_sum, map_zero] at this
    rw [← this]
    refine sum_congr rfl fun i _ => ?_
    simp [mul_comm]

end abstract

/-! ## Lists -/

theorem residual_fin (A : List (List ℂ)) (b c : List ℂ) :
    sysResidual b.length A b c = ∑ i : Fin b.length,
      ‖mv (fun (i : Fin b.length) (j : Fin A.length) => (A.getD j []).getD i 0) (fun j => c.getD j 0) i - b.getD i 0‖ ^ 2 := by
  unfold sysResidual mv
  rw [← Fin.sum_univ_eq_sum_range (fun l => ‖(∑ j ∈ range A.length, (A.getD j []).getD l 0 * c.getD j 0) - b.getD l 0‖ ^ 2)]
  refine sum_congr rfl fun l _ => ?_
  rw [← Fin.sum_univ_eq_sum_range (fun j => (A.getD j []).getD l 0 * c.getD j 0)]

theorem getD_ofFn' {m : ℕ} (v : Fin m → ℂ) : (fun j : Fin m => (List.ofFn v).getD j 0) = v :=
  funext fun j => getD_ofFn v j j.2

/-- the list version of the normal equations -/
def NormalL (A : List (List ℂ)) (b c : List ℂ) : Prop :=
  Normal (fun (i : Fin b.length) (j : Fin A.length) => (A.getD j []).getD i 0) (fun i => b.getD i 0) fun j => c.getD j 0

theorem minLstsq_normal {lstsq : Lstsq} (h : IsMinLstsq lstsq) {A : List (List ℂ)} {b : List ℂ}
    (hA : ∀ col ∈ A, col.length = b.length) : NormalL A b (lstsq A b) := by
  refine normal_of_minnorm (fun d => ?_) fun d hd => ?_
  · have := (h.1 A b hA).2 (List.ofFn d) (by simp)
    rwa [residual_fin, residual_fin, getD_ofFn'] at this
  · have := h.2 A b hA (List.ofFn d) (by simp)
    rw [residual_fin, residual_fin, getD_ofFn', ← Fin.sum_univ_eq_sum_range (fun j => ‖(lstsq A b).getD j 0‖ ^ 2),
      ← Fin.sum_univ_eq_sum_range (fun j => ‖(List.ofFn d).getD j 0‖ ^ 2)] at this
    refine (this hd).trans_eq (sum_congr rfl fun j _ => ?_)
    rw [getD_ofFn d j j.2]

/-- functions with the documented behaviour of `lstsq` exist -/
theorem exists_minLstsq : ∃ lstsq : Lstsq, IsMinLstsq lstsq := by
  have key : ∀ (A : List (List ℂ)) (b : List ℂ), ∃ c : List ℂ, c.length = A.length ∧ NormalL A b c := by
    intro A b
    obtain ⟨c, hc⟩ := exists_normal (fun (i : Fin b.length) (j : Fin A.length) => (A.getD j []).getD i 0) fun i => b.getD i 0
    refine ⟨List.ofFn c, by simp, ?_⟩
    unfold NormalL
    rw [getD_ofFn']
    exact hc
  choose f hf using key
  refine ⟨f, fun A b _ => ⟨(hf A b).1, fun c _ => ?_⟩, fun A b _ c _ hle => ?_⟩
  · rw [residual_fin, residual_fin]
    exact (hf A b).2.minimal.1 _
  · rw [residual_fin, residual_fin] at hle
    have := (hf A b).2.minimal.2 _ hle
    rwa [← Fin.sum_univ_eq_sum_range (fun j => ‖(f A b).getD j 0‖ ^ 2),
      ← Fin.sum_univ_eq_sum_range (fun j => ‖c.getD j 0‖ ^ 2)]

theorem getD_zipWith (f : ℂ → ℂ → ℂ) (hf : f 0 0 = 0) (u v : List ℂ) (h : u.length = v.length) (l : ℕ) :
    (List.zipWith f u v).getD l 0 = f (u.getD l 0) (v.getD l 0) := by
  by_cases hl : l < u.length
  · simp [List.getD_eq_getElem?_getD, List.getElem?_zipWith, List.getElem?_eq_getElem hl, List.getElem?_eq_getElem (h ▸ hl)]
  · rw [List.getD_eq_default _ _ (by simp; omega), List.getD_eq_default _ _ (by omega), List.getD_eq_default _ _ (by omega), hf]

/-- `lstsq` of a system with real coefficients is real-linear in the right-hand side -/
theorem lstsq_mix {lstsq : Lstsq} (h : IsMinLstsq lstsq) {A : List (List ℂ)} {b1 b2 : List ℂ} (hb : b2.length = b1.length)
    (hA : ∀ col ∈ A, col.length = b1.length) (hr : ∀ col ∈ A, ∀ z ∈ col, conj z = z) (m : Mix) :
    lstsq A (List.zipWith m.app b1 b2) = List.zipWith m.app (lstsq A b1) (lstsq A b2) := by
  have hl : (List.zipWith m.app b1 b2).length = b1.length := by simp [hb]
  have l1 := (h.1 A b1 hA).1
  have l2 := (h.1 A b2 (hb ▸ hA)).1
  have l3 := (h.1 A (List.zipWith m.app b1 b2) (hl.symm ▸ hA)).1
  have hreal : ∀ (i : ℕ) (j : ℕ), conj ((A.getD j []).getD i 0) = (A.getD j []).getD i 0 := by
    intro i j
    by_cases hj : j < A.length
    · have hcol : A.getD j [] ∈ A := by
        rw [List.getD_eq_getElem _ _ hj]; exact List.getElem_mem hj
      by_cases hi : i < (A.getD j []).length
      · have := hr _ hcol ((A.getD j []).getD i 0) (by rw [List.getD_eq_getElem _ _ hi]; exact List.getElem_mem hi)
        exact this
      · rw [List.getD_eq_default _ _ (not_lt.1 hi), map_zero]
    · rw [List.getD_eq_default _ _ (not_lt.1 hj)]; simp
  have n1 := minLstsq_normal h hA
  have n2 := minLstsq_normal h (b := b2) (hb ▸ hA)
  have n3 := minLstsq_normal h (b := List.zipWith m.app b1 b2) (hl.symm ▸ hA)
  unfold NormalL at n1 n2 n3
  generalize hL : b1.length = L at *
  generalize hc1 : lstsq A b1 = c1 at *
  generalize hc2 : lstsq A b2 = c2 at *
  generalize hc3 : lstsq A (List.zipWith m.app b1 b2) = c3 at *
  have hz : ∀ l, (List.zipWith m.app b1 b2).getD l 0 = m.app (b1.getD l 0) (b2.getD l 0) :=
    getD_zipWith _ (Mix.app_zero m) _ _ (hL.trans hb.symm)
  simp only [hz] at n3
  have n3' : Normal (fun (i : Fin L) (j : Fin A.length) => (A.getD j []).getD i 0)
      (fun i => m.app (b1.getD i 0) (b2.getD i 0)) fun j => c3.getD j 0 := by
    revert n3; rw [hl]; exact id
  have n2' : Normal (fun (i : Fin L) (j : Fin A.length) => (A.getD j []).getD i 0)
      (fun i => b2.getD i 0) fun j => c2.getD j 0 := by
    revert n2; rw [hb]; exact id
  have := Normal.unique n3' (Normal.mix (fun i j => hreal i j) m n1 n2')
  refine List.ext_getElem (by simp [l1, l2, l3]) fun j h1 h2 => ?_
  have e := congrFun this ⟨j, l3 ▸ h1⟩
  have hj : j < A.length := l3 ▸ h1
  simp only [List.getD_eq_getElem _ _ h1, List.getD_eq_getElem c1 0 (l1.symm ▸ hj), List.getD_eq_getElem c2 0 (l2.symm ▸ hj)] at e
  simp only [List.getElem_zipWith]
  exact e

end Pot
