import Verif.Proofs.LinopSpec
import Mathlib.Analysis.Real.Pi.Bounds
import Mathlib.Tactic.Positivity
import Mathlib.Tactic.Linarith

/-! # Properties C13, C14, C15, C18: the auxiliary problem solver -/

namespace Pot
open Real Finset Spec

/-- **C13** the Fourier form of the operator is the finite-difference operator on the zero-framed array. -/
theorem C13_apply_L {n order : ℕ} (ho : order = 2 ∨ order = 4) {AD : ℝ} (hAD : AD ≠ 0) (k : ℝ)
    (v : Arr n) :
    ∃ w, apApplyL (n + 1) order AD k v = .ok w ∧ w = applyL (pad v) order AD k ∧
      ∀ a b : Fin n, w a b = Lh order (AD / (n + 1)) k (node v) (a + 1) (b + 1) := by
  have hs : ∀ a b : Fin n, synth (fun p q => Fhat v p q *
      ((eigF (n + 1) order AD k (p + 1) (q + 1) : ℝ) : ℂ)) a b
      = Lh order (AD / (n + 1)) k (node v) (a + 1) (b + 1) := by
    intro a b
    rw [← Lh_node ho hAD, synth_Fhat]
  refine ⟨_, fourierPy_ok ho hAD v false, ?_, ?_⟩
  · funext a b
    simp only [Bool.false_eq_true, if_false]
    rw [hs, applyL_eq_spec]
    congr 1
    funext i j
    exact (fullNode_pad v i j).symm
  · intro a b; simp only [Bool.false_eq_true, if_false]; exact hs a b

/-- **C13** the error branches: wrong shape, unsupported order. -/
theorem C13_errors {m : ℕ} (N order : ℕ) (AD k : ℝ) (v : Arr m) (b : Bool) :
    (N ≠ m + 1 → fourierPy N order AD k v b = .error .assertionError) ∧
    (N = m + 1 → 1 ≤ m → order ≠ 2 → order ≠ 4 →
      fourierPy N order AD k v b = .error .unboundLocalError) := by
  constructor
  · intro h; simp [fourierPy, h]
  · rintro rfl hm h2 h4
    simp [fourierPy, calcEigenvals_err h2 h4 (by omega : 2 ≤ m + 1)]

/-- "no eigenvalue of `calc_eigenvals` is zero" -/
def NoZeroEig (n order : ℕ) (AD k : ℝ) : Prop :=
  ∀ e, calcEigenvals (n + 1) order AD k = .ok e → ∀ p q : Fin n, e p q ≠ 0

theorem noZeroEig_iff {n order : ℕ} (ho : order = 2 ∨ order = 4) (AD k : ℝ) :
    NoZeroEig n order AD k ↔ ∀ p q : Fin n, eigF (n + 1) order AD k (p + 1) (q + 1) ≠ 0 := by
  obtain ⟨e, he, hv⟩ := calcEigenvals_ok (N := n + 1) (AD := AD) (k := k) ho
  constructor
  · intro h p q; rw [← hv p q (by omega) (by omega)]; exact h e he p q
  · intro h e' he' p q
    rw [he] at he'; cases he'
    rw [hv p q (by omega) (by omega)]; exact h p q

/-- **C14** `solve` and `apply_L` are inverse to each other. -/
theorem C14_inverse {n order : ℕ} (ho : order = 2 ∨ order = 4) {AD : ℝ} (hAD : AD ≠ 0) (k : ℝ)
    (hz : NoZeroEig n order AD k) (v : Arr n) :
    (apApplyL (n + 1) order AD k v >>= fun w => apSolve (n + 1) order AD k w) = .ok v ∧
    (apSolve (n + 1) order AD k v >>= fun w => apApplyL (n + 1) order AD k w) = .ok v := by
  rw [noZeroEig_iff ho] at hz
  have hz' : ∀ p q : Fin n, ((eigF (n + 1) order AD k (p + 1) (q + 1) : ℝ) : ℂ) ≠ 0 := by
    intro p q; exact_mod_cast hz p q
  constructor
  · unfold apApplyL apSolve
    rw [fourierPy_ok ho hAD v false, ok_bind, fourierPy_ok ho hAD _ true, Fhat_synth]
    congr 1
    conv_rhs => rw [← synth_Fhat v]
    congr 1
    funext p q
    simp only [if_true, Bool.false_eq_true, if_false]
    field_simp [hz' p q]
  · unfold apApplyL apSolve
    rw [fourierPy_ok ho hAD v true, ok_bind, fourierPy_ok ho hAD _ false, Fhat_synth]
    congr 1
    conv_rhs => rw [← synth_Fhat v]
    congr 1
    funext p q
    simp only [if_true, Bool.false_eq_true, if_false]
    field_simp [hz' p q]

/-- **C14** `solve(g)` is the one and only zero-framed grid function whose finite-difference image is `g`. -/
theorem C14_unique {n order : ℕ} (ho : order = 2 ∨ order = 4) {AD : ℝ} (hAD : AD ≠ 0) (k : ℝ)
    (hz : NoZeroEig n order AD k) (g : Arr n) :
    ∃ u, apSolve (n + 1) order AD k g = .ok u ∧ applyL (pad u) order AD k = g ∧
      ∀ u', applyL (pad u') order AD k = g → u' = u := by
  obtain ⟨u, hu⟩ : ∃ u, apSolve (n + 1) order AD k g = .ok u := ⟨_, fourierPy_ok ho hAD g true⟩
  refine ⟨u, hu, ?_, ?_⟩
  · have h := (C14_inverse ho hAD k hz g).2
    rw [hu, ok_bind] at h
    obtain ⟨w, hw, hw2, _⟩ := C13_apply_L ho hAD k u
    rw [hw] at h
    rw [← hw2]; exact Except.ok.inj h
  · intro u' hu'
    have h := (C14_inverse ho hAD k hz u').1
    obtain ⟨w, hw, hw2, _⟩ := C13_apply_L ho hAD k u'
    rw [hw, ok_bind, hw2, hu', hu] at h
    exact (Except.ok.inj h).symm

/-- **C15** a zero eigenvalue gives a nonzero grid function that the operator kills. -/
theorem C15_resonance {n order : ℕ} (ho : order = 2 ∨ order = 4) {AD : ℝ} (hAD : AD ≠ 0) (k : ℝ)
    (hz : ¬ NoZeroEig n order AD k) :
    ∃ v : Arr n, v ≠ 0 ∧ applyL (pad v) order AD k = 0 := by
  rw [noZeroEig_iff ho] at hz
  push Not at hz
  obtain ⟨p, q, h⟩ := hz
  let c : Arr n := fun p' q' => if p' = p ∧ q' = q then 1 else 0
  refine ⟨synth c, ?_, ?_⟩
  · intro h0
    have h1 : Fhat (synth c) p q = 1 := by rw [Fhat_synth]; simp [c]
    rw [h0] at h1
    have h2 : Fhat (0 : Arr n) = 0 := by
      unfold Fhat
      rw [show Matrix.of (0 : Arr n) = 0 from rfl]; simp; rfl
    rw [h2] at h1; simp at h1
  · obtain ⟨w, _, hw2, hw3⟩ := C13_apply_L ho hAD k (synth c)
    rw [← hw2]
    funext a b
    rw [hw3, Lh_node ho hAD]
    have : (fun p' q' => c p' q' * ((eigF (n + 1) order AD k (p' + 1) (q' + 1) : ℝ) : ℂ)) = 0 := by
      funext p' q'
      simp only [c]
      split_ifs with h'
      · rw [h'.1, h'.2, h]; simp
      · simp
    rw [this]
    unfold synth
    rw [show Matrix.of (0 : Arr n) = 0 from rfl]; simp

/-- **C15** hence with a zero eigenvalue the auxiliary problem has no unique solution, and without one
it always has: the equivalence. -/
theorem C15_iff {n order : ℕ} (ho : order = 2 ∨ order = 4) {AD : ℝ} (hAD : AD ≠ 0) (k : ℝ) :
    NoZeroEig n order AD k ↔
      Function.Bijective (fun u : Arr n => applyL (pad u) order AD k) := by
  constructor
  · intro hz
    constructor
    · intro u u' h
      obtain ⟨w, _, _, hw⟩ := C14_unique ho hAD k hz (applyL (pad u) order AD k)
      rw [hw u rfl, hw u' h.symm]
    · intro g
      obtain ⟨u, _, hu, _⟩ := C14_unique ho hAD k hz g
      exact ⟨u, hu⟩
  · intro hb
    by_contra hz
    obtain ⟨v, hv, hv0⟩ := C15_resonance ho hAD k hz
    apply hv
    apply hb.1
    simp only
    rw [hv0]
    funext a b
    rw [applyL_eq_spec]
    have : fullNode (pad (0 : Arr n)) = fun _ _ => 0 := by
      funext i j; rw [fullNode_pad]; unfold node; split_ifs <;> rfl
    rw [this, Lh_zero]; rfl

/-- **C15** the computed eigenvalue array is symmetric, and negative for `k = 0`. -/
theorem C15_eigenvals {n order : ℕ} (ho : order = 2 ∨ order = 4) (AD k : ℝ) :
    ∃ e, calcEigenvals (n + 1) order AD k = .ok e ∧
      (∀ p q : Fin n, e p q = e q p) ∧
      (k = 0 → AD ≠ 0 → ∀ p q : Fin n, e p q < 0) := by
  obtain ⟨e, he, hv⟩ := calcEigenvals_ok (N := n + 1) (AD := AD) (k := k) ho
  refine ⟨e, he, ?_, ?_⟩
  · intro p q
    rw [hv p q (by omega) (by omega), hv q p (by omega) (by omega), eigF_symm]
  · rintro rfl hAD p q
    rw [hv p q (by omega) (by omega)]
    have hc : ∀ p : Fin n, cos (π * ((p + 1 : ℕ) : ℝ) / ((n + 1 : ℕ) : ℝ)) < 1 ∧
        -1 ≤ cos (π * ((p + 1 : ℕ) : ℝ) / ((n + 1 : ℕ) : ℝ)) := by
      intro p
      refine ⟨?_, neg_one_le_cos _⟩
      have hn : (0:ℝ) < ((n + 1 : ℕ) : ℝ) := by positivity
      have h0 : 0 < π * ((p + 1 : ℕ) : ℝ) / ((n + 1 : ℕ) : ℝ) := by
        have := pi_pos; positivity
      have h1 : π * ((p + 1 : ℕ) : ℝ) / ((n + 1 : ℕ) : ℝ) ≤ π := by
        rw [div_le_iff₀ hn]
        apply mul_le_mul_of_nonneg_left _ pi_pos.le
        exact_mod_cast (by omega : (p : ℕ) + 1 ≤ n + 1)
      have := strictAntiOn_cos (Set.mem_Icc.2 ⟨le_rfl, pi_pos.le⟩) (Set.mem_Icc.2 ⟨h0.le, h1⟩) h0
      rwa [cos_zero] at this
    obtain ⟨h1, h1'⟩ := hc p
    obtain ⟨h2, h2'⟩ := hc q
    have hh : 0 < (AD / ((n + 1 : ℕ) : ℝ)) ^ 2 := by
      have : ((n + 1 : ℕ) : ℝ) ≠ 0 := by positivity
      positivity
    unfold eigF
    generalize cos (π * ((p + 1 : ℕ) : ℝ) / ((n + 1 : ℕ) : ℝ)) = c1 at *
    generalize cos (π * ((q + 1 : ℕ) : ℝ) / ((n + 1 : ℕ) : ℝ)) = c2 at *
    split_ifs
    · rw [show (0:ℝ) ^ 2 = 0 by norm_num, zero_add]
      exact div_neg_of_neg_of_pos (by linarith) hh
    · apply div_neg_of_neg_of_pos _ (by positivity)
      nlinarith

/-- the hypotheses of C14 are satisfiable: `k = 0`, any grid, the shipped side length -/
example (n : ℕ) : NoZeroEig n 4 (2 * π) 0 := by
  obtain ⟨e, he, _, hneg⟩ := C15_eigenvals (n := n) (order := 4) (Or.inr rfl) (2 * π) 0
  intro e' he' p q
  rw [he] at he'; cases he'
  exact (hneg rfl (by have := pi_pos; positivity) p q).ne

/-- a resonance really occurs: order 2, one interior node, `k² = 4/h²` -/
example : ¬ NoZeroEig 1 2 2 2 := by
  rw [noZeroEig_iff (Or.inl rfl)]
  intro h
  apply h 0 0
  simp [eigF]; norm_num

theorem linspace_getD (lo hi : ℝ) (n i : ℕ) (h : i < n) :
    (linspace lo hi n).getD i 0 = lo + i * ((hi - lo) / ((n : ℝ) - 1)) := by
  unfold linspace
  rw [List.getD_eq_getElem?_getD]
  simp [h]

/-- **C18** `arc_dst` recovers the coefficients of a finite sine series exactly. -/
theorem C18_arc_dst (a nu : ℝ) (ha : a ≠ 2 * π) (hnu : nu = π / (2 * π - a)) (N : ℕ) (b : Fin N → ℂ)
    (k : Fin N) :
    arcDst a (fun th => ∑ m : Fin N, b m * ((sin (((m : ℝ) + 1) * nu * (th - a)) : ℝ) : ℂ)) N k = b k := by
  have hN : ((N : ℝ) + 1) ≠ 0 := by positivity
  have hNC : ((N : ℂ) + 1) ≠ 0 := by exact_mod_cast hN
  have ha' : 2 * π - a ≠ 0 := fun h => ha (by linarith)
  unfold arcDst
  simp only
  rw [div_eq_iff hNC]
  have hS : ∀ (m i : Fin N), sin (((m : ℝ) + 1) * nu *
      ((linspace a (2 * π) (N + 2)).getD (i + 1) 0 - a)) = S N m i := by
    intro m i
    rw [linspace_getD _ _ _ _ (by omega), hnu]
    unfold S
    congr 1
    push_cast
    have : (N : ℝ) + 2 - 1 = N + 1 := by ring
    rw [this, add_sub_cancel_left]
    generalize 2 * π - a = d at ha'
    field_simp
  simp only [dst1, hS]
  have hk : ∀ i : Fin N, sin (π * ((k : ℝ) + 1) * ((i : ℝ) + 1) / ((N : ℝ) + 1)) = S N k i := fun i => rfl
  simp only [hk, Finset.sum_mul]
  rw [Finset.sum_comm]
  have h : ∀ m : Fin N, ∑ i : Fin N, b m * ((S N m i : ℝ) : ℂ) * ((S N k i : ℝ) : ℂ)
      = if m = k then b m * (((N : ℂ) + 1) / 2) else 0 := by
    intro m
    have := S_orth N m k m.2 k.2
    rw [Finset.sum_range] at this
    simp only [mul_assoc, ← Finset.mul_sum]
    rw [← Complex.ofReal_one]
    have e : ∑ i : Fin N, ((S N m i : ℝ) : ℂ) * ((S N k i : ℝ) : ℂ)
        = ((∑ i : Fin N, S N m i * S N k i : ℝ) : ℂ) := by push_cast; rfl
    rw [e, this]
    by_cases hmk : m = k
    · subst hmk; simp
    · have : (m : ℕ) ≠ k := fun h => hmk (Fin.ext h)
      simp [hmk, this]
  simp only [h]
  rw [Finset.sum_ite_eq' Finset.univ k]
  simp
  ring

/-- the shipped wedge angle meets the hypothesis -/
example : (π / 4 : ℝ) ≠ 2 * π := by have := pi_pos; intro h; linarith

end Pot
