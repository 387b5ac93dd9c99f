import Verif.Proofs.Fourier

/-! # linop against the stencil specification, and the sine eigenfunctions -/

namespace Pot
open Real Finset Spec

theorem fullNode_of {n : ℕ} (v : Arr (n + 2)) (P Q : Fin (n + 2)) {i j : ℤ} (hi : i = (P : ℕ))
    (hj : j = (Q : ℕ)) : fullNode v i j = v P Q := by
  have h1 := P.2; have h2 := Q.2
  unfold fullNode
  rw [dif_pos (by omega)]
  congr 1
  · simp [hi]
  · simp [hj]

theorem node_of {n : ℕ} (v : Arr n) (P Q : Fin n) {i j : ℤ} (hi : i = (P : ℕ) + 1)
    (hj : j = (Q : ℕ) + 1) : node v i j = v P Q := by
  have h1 := P.2; have h2 := Q.2
  unfold node
  rw [dif_pos (by omega)]
  congr 1
  · simp [hi]
  · simp [hj]

theorem node_out {n : ℕ} (v : Arr n) {i j : ℤ} (h : ¬ (1 ≤ i ∧ i ≤ n ∧ 1 ≤ j ∧ j ≤ n)) :
    node v i j = 0 := by
  unfold node; rw [dif_neg h]

theorem fullNode_pad {n : ℕ} (v : Arr n) (i j : ℤ) : fullNode (pad v) i j = node v i j := by
  unfold fullNode
  split_ifs with h
  · unfold pad; congr 1 <;> simp <;> omega
  · rw [node_out]; omega

theorem applyL_eq_spec {n : ℕ} (v : Arr (n + 2)) (order : ℕ) (AD k : ℝ) (a b : Fin n) :
    applyL v order AD k a b = Lh order (AD / (n + 1)) k (fullNode v) (a + 1) (b + 1) := by
  have key : ∀ (P Q : Fin (n + 2)) (i j : ℤ), i = (P : ℕ) → j = (Q : ℕ) → fullNode v i j = v P Q :=
    fun P Q i j hi hj => fullNode_of v P Q hi hj
  have e00 := key (i0 a) (i0 b) (a + 1) (b + 1) (by simp) (by simp)
  have ep0 := key (ip a) (i0 b) (a + 1 + 1) (b + 1) (by simp) (by simp)
  have em0 := key (im a) (i0 b) (a + 1 - 1) (b + 1) (by simp) (by simp)
  have e0p := key (i0 a) (ip b) (a + 1) (b + 1 + 1) (by simp) (by simp)
  have e0m := key (i0 a) (im b) (a + 1) (b + 1 - 1) (by simp) (by simp)
  have epp := key (ip a) (ip b) (a + 1 + 1) (b + 1 + 1) (by simp) (by simp)
  have epm := key (ip a) (im b) (a + 1 + 1) (b + 1 - 1) (by simp) (by simp)
  have emp := key (im a) (ip b) (a + 1 - 1) (b + 1 + 1) (by simp) (by simp)
  have emm := key (im a) (im b) (a + 1 - 1) (b + 1 - 1) (by simp) (by simp)
  unfold applyL Lh L4 L2 dxx dyy
  simp only [e00, ep0, em0, e0p, e0m, epp, epm, emp, emm]
  split_ifs
  · push_cast; ring
  · push_cast; ring

theorem applyB_eq_spec {n : ℕ} (f : Arr (n + 2)) (a b : Fin n) :
    applyB f a b = B4 (fullNode f) (a + 1) (b + 1) := by
  have key : ∀ (P Q : Fin (n + 2)) (i j : ℤ), i = (P : ℕ) → j = (Q : ℕ) → fullNode f i j = f P Q :=
    fun P Q i j hi hj => fullNode_of f P Q hi hj
  have e00 := key (i0 a) (i0 b) (a + 1) (b + 1) (by simp) (by simp)
  have ep0 := key (ip a) (i0 b) (a + 1 + 1) (b + 1) (by simp) (by simp)
  have em0 := key (im a) (i0 b) (a + 1 - 1) (b + 1) (by simp) (by simp)
  have e0p := key (i0 a) (ip b) (a + 1) (b + 1 + 1) (by simp) (by simp)
  have e0m := key (i0 a) (im b) (a + 1) (b + 1 - 1) (by simp) (by simp)
  unfold applyB B4 dxx dyy
  simp only [e00, ep0, em0, e0p, e0m]
  ring

theorem Lh_congr {order : ℕ} {h k : ℝ} {u u' : ℤ → ℤ → ℂ} {i j : ℤ}
    (H : ∀ p q : ℤ, i - 1 ≤ p → p ≤ i + 1 → j - 1 ≤ q → q ≤ j + 1 → u p q = u' p q) :
    Lh order h k u i j = Lh order h k u' i j := by
  have H' : ∀ p q : ℤ, (p = i ∨ p = i + 1 ∨ p = i - 1) → (q = j ∨ q = j + 1 ∨ q = j - 1) →
      u p q = u' p q := fun p q hp hq => H p q (by omega) (by omega) (by omega) (by omega)
  unfold Lh L4 L2 dxx dyy
  rw [H' i j (by simp) (by simp), H' (i+1) j (by simp) (by simp), H' (i-1) j (by simp) (by simp),
    H' i (j+1) (by simp) (by simp), H' i (j-1) (by simp) (by simp),
    H' (i+1) (j+1) (by simp) (by simp), H' (i+1) (j-1) (by simp) (by simp),
    H' (i-1) (j+1) (by simp) (by simp), H' (i-1) (j-1) (by simp) (by simp)]

theorem Lh_add (order : ℕ) (h k : ℝ) (u v : ℤ → ℤ → ℂ) (i j : ℤ) :
    Lh order h k (fun p q => u p q + v p q) i j = Lh order h k u i j + Lh order h k v i j := by
  unfold Lh L4 L2 dxx dyy; split_ifs <;> ring

theorem Lh_smul (order : ℕ) (h k : ℝ) (c : ℂ) (u : ℤ → ℤ → ℂ) (i j : ℤ) :
    Lh order h k (fun p q => c * u p q) i j = c * Lh order h k u i j := by
  unfold Lh L4 L2 dxx dyy; split_ifs <;> ring

theorem Lh_zero (order : ℕ) (h k : ℝ) (i j : ℤ) : Lh order h k (fun _ _ => 0) i j = 0 := by
  unfold Lh L4 L2 dxx dyy; split_ifs <;> simp

theorem Lh_sum {ι : Type*} (s : Finset ι) (order : ℕ) (h k : ℝ) (u : ι → ℤ → ℤ → ℂ) (i j : ℤ) :
    Lh order h k (fun p q => ∑ x ∈ s, u x p q) i j = ∑ x ∈ s, Lh order h k (u x) i j := by
  classical
  induction s using Finset.induction_on with
  | empty => simp [Lh_zero]
  | insert a s ha ih =>
    simp only [Finset.sum_insert ha]
    rw [Lh_add, ih]

/-- the 1-D sine on all integers -/
noncomputable def sn (n p : ℕ) (i : ℤ) : ℝ := sin (π * ((p : ℝ) + 1) * i / ((n : ℝ) + 1))

theorem sn_step (n p : ℕ) (i : ℤ) :
    sn n p (i + 1) + sn n p (i - 1) = 2 * cos (π * ((p + 1 : ℕ) : ℝ) / ((n + 1 : ℕ) : ℝ)) * sn n p i := by
  unfold sn
  push_cast
  have e1 : π * ((p : ℝ) + 1) * ((i : ℝ) + 1) / ((n : ℝ) + 1)
      = π * ((p : ℝ) + 1) * i / ((n : ℝ) + 1) + π * ((p : ℝ) + 1) / ((n : ℝ) + 1) := by ring
  have e2 : π * ((p : ℝ) + 1) * ((i : ℝ) - 1) / ((n : ℝ) + 1)
      = π * ((p : ℝ) + 1) * i / ((n : ℝ) + 1) - π * ((p : ℝ) + 1) / ((n : ℝ) + 1) := by ring
  rw [e1, e2, sin_add, sin_sub]; ring

theorem sn_zero (n p : ℕ) : sn n p 0 = 0 := by simp [sn]

theorem sn_end (n p : ℕ) : sn n p ((n : ℤ) + 1) = 0 := by
  unfold sn; push_cast
  have hn : ((n : ℝ) + 1) ≠ 0 := by positivity
  have : π * ((p : ℝ) + 1) * ((n : ℝ) + 1) / ((n : ℝ) + 1) = ((p + 1 : ℕ) : ℝ) * π := by
    push_cast; field_simp
  rw [this]; exact sin_nat_mul_pi _

theorem sn_S (n p : ℕ) (a : ℕ) : sn n p ((a : ℤ) + 1) = S n p a := by
  unfold sn S; push_cast; rfl

/-- products of sines are eigenfunctions of both schemes -/
theorem Lh_sin {n order : ℕ} {AD k : ℝ} (ho : order = 2 ∨ order = 4) (hAD : AD ≠ 0) (p q : ℕ) (i j : ℤ) :
    Lh order (AD / (n + 1)) k (fun i j => ((sn n p i : ℝ) : ℂ) * ((sn n q j : ℝ) : ℂ)) i j =
      ((eigF (n + 1) order AD k (p + 1) (q + 1) : ℝ) : ℂ) * (((sn n p i : ℝ) : ℂ) * ((sn n q j : ℝ) : ℂ)) := by
  have hn : ((n : ℝ) + 1) ≠ 0 := by positivity
  have hh : (AD / ((n : ℝ) + 1)) ≠ 0 := div_ne_zero hAD hn
  have h1 := sn_step n p i
  have h2 := sn_step n q j
  have h1' : sn n p (i + 1) = 2 * cos (π * ((p + 1 : ℕ) : ℝ) / ((n + 1 : ℕ) : ℝ)) * sn n p i - sn n p (i - 1) := by
    linarith
  have h2' : sn n q (j + 1) = 2 * cos (π * ((q + 1 : ℕ) : ℝ) / ((n + 1 : ℕ) : ℝ)) * sn n q j - sn n q (j - 1) := by
    linarith
  have hcast : AD / ((n + 1 : ℕ) : ℝ) = AD / ((n : ℝ) + 1) := by push_cast; rfl
  rcases ho with rfl | rfl
  · simp only [Lh, L2, dxx, dyy, eigF, h1', h2', hcast]
    simp only [show (2:ℕ) ≠ 4 by norm_num, if_false, if_true]
    generalize AD / ((n : ℝ) + 1) = h at hh
    have hhC : (h : ℂ) ≠ 0 := by exact_mod_cast hh
    generalize cos (π * ((p + 1 : ℕ) : ℝ) / ((n + 1 : ℕ) : ℝ)) = c1
    generalize cos (π * ((q + 1 : ℕ) : ℝ) / ((n + 1 : ℕ) : ℝ)) = c2
    push_cast
    field_simp
    ring
  · simp only [Lh, L4, dxx, dyy, eigF, h1', h2', hcast]
    simp only [show (4:ℕ) ≠ 2 by norm_num, if_false, if_true]
    generalize AD / ((n : ℝ) + 1) = h at hh
    have hhC : (h : ℂ) ≠ 0 := by exact_mod_cast hh
    generalize cos (π * ((p + 1 : ℕ) : ℝ) / ((n + 1 : ℕ) : ℝ)) = c1
    generalize cos (π * ((q + 1 : ℕ) : ℝ) / ((n + 1 : ℕ) : ℝ)) = c2
    push_cast
    field_simp
    ring

theorem synth_apply {n : ℕ} (c : Arr n) (a b : Fin n) :
    synth c a b = ∑ x : Fin n × Fin n, c x.1 x.2 *
      (((sn n x.1 ((a : ℕ) + 1) : ℝ) : ℂ) * ((sn n x.2 ((b : ℕ) + 1) : ℝ) : ℂ)) := by
  rw [Fintype.sum_prod_type]
  simp only [sn_S]
  unfold synth
  simp only [Matrix.mul_apply, Matrix.of_apply, Finset.sum_mul]
  rw [Finset.sum_comm]
  apply Finset.sum_congr rfl; intro p _
  apply Finset.sum_congr rfl; intro q _
  simp only [Sm, Matrix.of_apply]
  rw [S_comm n a p]; ring

/-- the sine series on all integer nodes agrees with the zero-framed array on `[0, N]²` -/
theorem node_synth {n : ℕ} (c : Arr n) {i j : ℤ} (hi0 : 0 ≤ i) (hi1 : i ≤ n + 1) (hj0 : 0 ≤ j)
    (hj1 : j ≤ n + 1) :
    node (synth c) i j = ∑ x : Fin n × Fin n, c x.1 x.2 * (((sn n x.1 i : ℝ) : ℂ) * ((sn n x.2 j : ℝ) : ℂ)) := by
  by_cases h : 1 ≤ i ∧ i ≤ n ∧ 1 ≤ j ∧ j ≤ n
  · have hP : (i - 1).toNat < n := by omega
    have hQ : (j - 1).toNat < n := by omega
    have hi : i = ((⟨(i - 1).toNat, hP⟩ : Fin n) : ℕ) + 1 := by simp; omega
    have hj : j = ((⟨(j - 1).toNat, hQ⟩ : Fin n) : ℕ) + 1 := by simp; omega
    rw [node_of (synth c) ⟨(i - 1).toNat, hP⟩ ⟨(j - 1).toNat, hQ⟩ hi hj, synth_apply, ← hi, ← hj]
  · rw [node_out _ h]
    symm
    apply Finset.sum_eq_zero
    intro x _
    have : i = 0 ∨ i = n + 1 ∨ j = 0 ∨ j = n + 1 := by omega
    rcases this with rfl | rfl | rfl | rfl
    · rw [sn_zero]; simp
    · rw [sn_end]; simp
    · rw [sn_zero]; simp
    · rw [sn_end]; simp

/-- applying the scheme multiplies sine coefficients -/
theorem Lh_node {n order : ℕ} {AD k : ℝ} (ho : order = 2 ∨ order = 4) (hAD : AD ≠ 0) (c : Arr n)
    (a b : Fin n) :
    Lh order (AD / (n + 1)) k (node (synth c)) (a + 1) (b + 1) =
      synth (fun p q => c p q * ((eigF (n + 1) order AD k (p + 1) (q + 1) : ℝ) : ℂ)) a b := by
  have ha := a.2; have hb := b.2
  rw [Lh_congr (u' := fun i j => ∑ x : Fin n × Fin n, c x.1 x.2 *
    (((sn n x.1 i : ℝ) : ℂ) * ((sn n x.2 j : ℝ) : ℂ)))]
  · rw [Lh_sum, synth_apply]
    apply Finset.sum_congr rfl
    intro x _
    rw [Lh_smul, Lh_sin ho hAD]; ring
  · intro p q h1 h2 h3 h4
    exact node_synth c (by omega) (by omega) (by omega) (by omega)

end Pot
