import Verif.Spec.Frame
import Verif.Proofs.Taylor
import Verif.Model.Extend
import Verif.Proofs.ExtendLinear
import Mathlib.Analysis.Complex.RealDeriv
import Mathlib.Analysis.Calculus.Deriv.Prod
import Mathlib.Tactic.LinearCombination

/-! # Derivatives in a moving frame -/

namespace Pot
open Spec Filter Topology

/-- a derivative family is determined by its first member -/
theorem DerivFam.iterated {E : Type} [NormedAddCommGroup E] [NormedSpace ℝ E] {n : ℕ} {I : Set ℝ} (hI : IsOpen I)
    {g : ℕ → ℝ → E} (h : DerivFam n I g) :
    ∀ j ≤ n, ∀ s ∈ I, iteratedDeriv j (g 0) s = g j s := by
  intro j
  induction j with
  | zero => intro _ s _; rw [iteratedDeriv_zero]
  | succ j ih =>
    intro hj s hs
    rw [iteratedDeriv_succ]
    have e : iteratedDeriv j (g 0) =ᶠ[𝓝 s] g j := by
      filter_upwards [hI.mem_nhds hs] with t ht using ih (by omega) t ht
    rw [e.deriv_eq]
    exact (h j (by omega) s hs).deriv

/-- two functions that agree on an open set have the same derivative there -/
theorem deriv_unique_on {I : Set ℝ} (hI : IsOpen I) {f g : ℝ → ℂ} {f' g' : ℂ} {s : ℝ} (hs : s ∈ I)
    (he : ∀ t ∈ I, f t = g t) (hf : HasDerivAt f f' s) (hg : HasDerivAt g g' s) : f' = g' := by
  have e : f =ᶠ[𝓝 s] g := by filter_upwards [hI.mem_nhds hs] with t ht using he t ht
  exact (hf.congr_of_eventuallyEq e.symm).unique hg

/-- derivative of a jet member along a curve -/
theorem JetOn.along {Ω : Set (ℝ × ℝ)} {n : ℕ} {U : ℕ → ℕ → ℝ × ℝ → ℂ} (hU : JetOn Ω n U) {i j : ℕ} (hij : i + j < n)
    {x y : ℝ → ℝ} {x' y' s : ℝ} (hx : HasDerivAt x x' s) (hy : HasDerivAt y y' s) (hp : (x s, y s) ∈ Ω) :
    HasDerivAt (fun s => U i j (x s, y s)) (x' * U (i + 1) j (x s, y s) + y' * U i (j + 1) (x s, y s)) s := by
  have := (hU.diff i j hij _ hp).comp_hasDerivAt s (hx.prodMk hy)
  refine this.congr_deriv ?_
  simp [grad2]

/-- the directional derivative of a whole jet -/
noncomputable def dirJet (a b : ℝ) (U : ℕ → ℕ → ℝ × ℝ → ℂ) : ℕ → ℕ → ℝ × ℝ → ℂ :=
  fun i j p => a * U (i + 1) j p + b * U i (j + 1) p

theorem JetOn.dirJet {Ω : Set (ℝ × ℝ)} {n : ℕ} {U : ℕ → ℕ → ℝ × ℝ → ℂ} (hU : JetOn Ω (n + 1) U) (a b : ℝ) :
    JetOn Ω n (dirJet a b U) := by
  refine ⟨hU.isOpen, fun i j hij p hp => ?_⟩
  have h1 := (hU.diff (i + 1) j (by omega) p hp).const_mul (a : ℂ)
  have h2 := (hU.diff i (j + 1) (by omega) p hp).const_mul (b : ℂ)
  refine (h1.add h2).congr_fderiv ?_
  ext <;> simp [grad2, Pot.dirJet]

/-- the derivatives of a jet along a straight line -/
noncomputable def lineFam (U : ℕ → ℕ → ℝ × ℝ → ℂ) (p : ℝ × ℝ) (a b : ℝ) (j : ℕ) (t : ℝ) : ℂ :=
  ((Pot.dirJet a b)^[j] U) 0 0 (move p a b t)

theorem JetOn.dirIter {Ω : Set (ℝ × ℝ)} {n : ℕ} (a b : ℝ) : ∀ {j : ℕ} {U : ℕ → ℕ → ℝ × ℝ → ℂ}, JetOn Ω (n + j) U →
    JetOn Ω n ((Pot.dirJet a b)^[j] U)
  | 0, _, h => h
  | j + 1, U, h => by
    rw [Function.iterate_succ_apply]
    exact JetOn.dirIter a b (j := j) (JetOn.dirJet (n := n + j) h a b)

theorem lineFam_deriv {Ω : Set (ℝ × ℝ)} {n : ℕ} {U : ℕ → ℕ → ℝ × ℝ → ℂ} (hU : JetOn Ω n U) (p : ℝ × ℝ) (a b : ℝ) :
    DerivFam n {t | move p a b t ∈ Ω} (lineFam U p a b) := by
  intro j hj t ht
  have hJ : JetOn Ω (n - j) ((Pot.dirJet a b)^[j] U) := JetOn.dirIter a b (j := j) (by rwa [Nat.sub_add_cancel hj.le])
  have h1 : HasDerivAt (fun t : ℝ => p.1 + t * a) a t := by
    simpa using ((hasDerivAt_id t).mul_const a).const_add p.1
  have h2 : HasDerivAt (fun t : ℝ => p.2 + t * b) b t := by
    simpa using ((hasDerivAt_id t).mul_const b).const_add p.2
  have := JetOn.along hJ (i := 0) (j := 0) (by omega) h1 h2 ht
  unfold lineFam
  rw [Function.iterate_succ_apply']
  exact this

theorem move_open {Ω : Set (ℝ × ℝ)} (hΩ : IsOpen Ω) (p : ℝ × ℝ) (a b : ℝ) : IsOpen {t | move p a b t ∈ Ω} := by
  refine hΩ.preimage (f := fun t => move p a b t) ?_
  unfold move
  fun_prop

@[simp] theorem move_zero (p : ℝ × ℝ) (a b : ℝ) : move p a b 0 = p := by simp [move]

/-- the Taylor polynomial along a line from a jet of order at least four -/
theorem taylorPoly_line {Ω : Set (ℝ × ℝ)} {U : ℕ → ℕ → ℝ × ℝ → ℂ} (hU : JetOn Ω 4 U) {p : ℝ × ℝ} (hp : p ∈ Ω)
    (a b n : ℝ) : taylorPoly 4 (fun t => U 0 0 (move p a b t)) n =
      taylorSum [U 0 0 p, lineFam U p a b 1 0, lineFam U p a b 2 0, lineFam U p a b 3 0, lineFam U p a b 4 0] n := by
  have hd := lineFam_deriv hU p a b
  have ho := move_open hU.isOpen p a b
  have h0 : (0 : ℝ) ∈ {t | move p a b t ∈ Ω} := by simpa using hp
  have key : ∀ j ≤ 4, iteratedDeriv j (fun t => U 0 0 (move p a b t)) 0 = lineFam U p a b j 0 :=
    fun j hj => DerivFam.iterated ho hd j hj 0 h0
  rw [taylorSum5]
  simp only [taylorPoly, Finset.sum_range_succ, Finset.sum_range_zero]
  rw [key 0 (by norm_num), key 1 (by norm_num), key 2 (by norm_num), key 3 (by norm_num), key 4 (by norm_num)]
  simp [Nat.factorial, lineFam]

/-- Taylor's theorem to the right, five derivatives -/
theorem taylor5_right {g : ℕ → ℝ → ℂ} {h M : ℝ} (h0 : 0 ≤ h)
    (hg : ∀ i < 5, ∀ t ∈ Set.Icc 0 h, HasDerivAt (g i) (g (i + 1) t) t) (hM : ∀ t ∈ Set.Icc 0 h, ‖g 5 t‖ ≤ M) :
    ‖g 0 h - (g 0 0 + g 1 0 * h + g 2 0 / 2 * h ^ 2 + g 3 0 / 6 * h ^ 3 + g 4 0 / 24 * h ^ 4)‖ ≤ M / 120 * h ^ 5 := by
  have p1 : ∀ (c : ℂ) (t : ℝ), HasDerivAt (fun s : ℝ => c * (s : ℂ)) c t := fun c t => by
    simpa using hasDerivAt_cpow' c 0 t
  have s4 : ∀ t ∈ Set.Icc 0 h, ‖g 4 t - g 4 0‖ ≤ M / ((0 : ℕ) + 1) * t ^ (0 + 1) := by
    apply int_bound (f' := g 5)
    · intro t ht
      exact (hg 4 (by norm_num) t ht).sub_const _
    · simp
    · intro t ht; simpa using hM t ht
  have s3 : ∀ t ∈ Set.Icc 0 h, ‖g 3 t - (g 3 0 + g 4 0 * t)‖ ≤ M / ((0 : ℕ) + 1) / ((0 + 1 : ℕ) + 1) * t ^ (0 + 1 + 1) := by
    apply int_bound (f' := fun t => g 4 t - g 4 0)
    · intro t ht
      exact (hg 3 (by norm_num) t ht).fun_sub ((p1 (g 4 0) t).const_add _)
    · simp
    · exact s4
  have s2 : ∀ t ∈ Set.Icc 0 h, ‖g 2 t - (g 2 0 + g 3 0 * t + g 4 0 / 2 * t ^ 2)‖ ≤
      M / ((0 : ℕ) + 1) / ((0 + 1 : ℕ) + 1) / ((0 + 1 + 1 : ℕ) + 1) * t ^ (0 + 1 + 1 + 1) := by
    apply int_bound (f' := fun t => g 3 t - (g 3 0 + g 4 0 * t))
    · intro t ht
      refine HasDerivAt.congr_deriv ((hg 2 (by norm_num) t ht).fun_sub
        (((p1 (g 3 0) t).const_add _).fun_add (hasDerivAt_cpow' (g 4 0 / 2) 1 t))) ?_
      push_cast; ring
    · simp
    · exact s3
  have s1 : ∀ t ∈ Set.Icc 0 h, ‖g 1 t - (g 1 0 + g 2 0 * t + g 3 0 / 2 * t ^ 2 + g 4 0 / 6 * t ^ 3)‖ ≤
      M / ((0 : ℕ) + 1) / ((0 + 1 : ℕ) + 1) / ((0 + 1 + 1 : ℕ) + 1) / ((0 + 1 + 1 + 1 : ℕ) + 1) *
        t ^ (0 + 1 + 1 + 1 + 1) := by
    apply int_bound (f' := fun t => g 2 t - (g 2 0 + g 3 0 * t + g 4 0 / 2 * t ^ 2))
    · intro t ht
      refine HasDerivAt.congr_deriv ((hg 1 (by norm_num) t ht).fun_sub
        ((((p1 (g 2 0) t).const_add _).fun_add (hasDerivAt_cpow' (g 3 0 / 2) 1 t)).fun_add
          (hasDerivAt_cpow' (g 4 0 / 6) 2 t))) ?_
      push_cast; ring
    · simp
    · exact s2
  have s0 : ∀ t ∈ Set.Icc 0 h,
      ‖g 0 t - (g 0 0 + g 1 0 * t + g 2 0 / 2 * t ^ 2 + g 3 0 / 6 * t ^ 3 + g 4 0 / 24 * t ^ 4)‖ ≤
      M / ((0 : ℕ) + 1) / ((0 + 1 : ℕ) + 1) / ((0 + 1 + 1 : ℕ) + 1) / ((0 + 1 + 1 + 1 : ℕ) + 1) /
        ((0 + 1 + 1 + 1 + 1 : ℕ) + 1) * t ^ (0 + 1 + 1 + 1 + 1 + 1) := by
    apply int_bound (f' := fun t => g 1 t - (g 1 0 + g 2 0 * t + g 3 0 / 2 * t ^ 2 + g 4 0 / 6 * t ^ 3))
    · intro t ht
      refine HasDerivAt.congr_deriv ((hg 0 (by norm_num) t ht).fun_sub
        (((((p1 (g 1 0) t).const_add _).fun_add (hasDerivAt_cpow' (g 2 0 / 2) 1 t)).fun_add
          (hasDerivAt_cpow' (g 3 0 / 6) 2 t)).fun_add (hasDerivAt_cpow' (g 4 0 / 24) 3 t))) ?_
      push_cast; ring
    · simp
    · exact s1
  refine (s0 h ⟨h0, le_rfl⟩).trans (le_of_eq ?_)
  push_cast; ring

/-- Taylor's theorem in either direction -/
theorem taylor5 {g : ℕ → ℝ → ℂ} {n M : ℝ}
    (hg : ∀ i < 5, ∀ t, |t| ≤ |n| → 0 ≤ t * n → HasDerivAt (g i) (g (i + 1) t) t)
    (hM : ∀ t, |t| ≤ |n| → 0 ≤ t * n → ‖g 5 t‖ ≤ M) :
    ‖g 0 n - (g 0 0 + g 1 0 * n + g 2 0 / 2 * n ^ 2 + g 3 0 / 6 * n ^ 3 + g 4 0 / 24 * n ^ 4)‖ ≤ M / 120 * |n| ^ 5 := by
  rcases le_total 0 n with h0 | h0
  · rw [abs_of_nonneg h0] at *
    exact taylor5_right h0
      (fun i hi t ht => hg i hi t (by rw [abs_of_nonneg ht.1]; exact ht.2) (mul_nonneg ht.1 h0))
      (fun t ht => hM t (by rw [abs_of_nonneg ht.1]; exact ht.2) (mul_nonneg ht.1 h0))
  · rw [abs_of_nonpos h0] at *
    have h1 : ∀ t ∈ Set.Icc 0 (-n), |(-t)| ≤ -n ∧ 0 ≤ -t * n := fun t ht =>
      ⟨by rw [abs_neg, abs_of_nonneg ht.1]; exact ht.2, by nlinarith [ht.1]⟩
    have := taylor5_right (g := fun i t => (-1) ^ i * g i (-t)) (h := -n) (M := M) (by linarith)
      (fun i hi t ht => by
        refine ((hasDerivAt_reflect (hg i hi (-t) (h1 t ht).1 (h1 t ht).2)).const_mul ((-1 : ℂ) ^ i)).congr_deriv ?_
        ring)
      (fun t ht => by
        rw [norm_mul]; simpa using hM (-t) (h1 t ht).1 (h1 t ht).2)
    refine le_trans (le_of_eq ?_) this
    congr 1
    push_cast
    simp only [neg_neg, neg_zero]
    ring

/-- the Taylor remainder along a line -/
theorem line_remainder {Ω : Set (ℝ × ℝ)} {U : ℕ → ℕ → ℝ × ℝ → ℂ} (hU : JetOn Ω 5 U) {p : ℝ × ℝ} {a b n M : ℝ}
    (hseg : ∀ t, |t| ≤ |n| → 0 ≤ t * n → move p a b t ∈ Ω)
    (hM : ∀ t, |t| ≤ |n| → 0 ≤ t * n → ‖iteratedDeriv 5 (fun t => U 0 0 (move p a b t)) t‖ ≤ M) :
    ‖U 0 0 (move p a b n) - taylorPoly 4 (fun t => U 0 0 (move p a b t)) n‖ ≤ M / 120 * |n| ^ 5 := by
  have hd := lineFam_deriv hU p a b
  have ho := move_open hU.isOpen p a b
  have h0 : p ∈ Ω := by simpa using hseg 0 (by simp) (by simp)
  have key := DerivFam.iterated ho hd
  have h4 : JetOn Ω 4 U := ⟨hU.isOpen, fun i j hij => hU.diff i j (by omega)⟩
  rw [taylorPoly_line h4 h0, taylorSum5]
  have := taylor5 (g := lineFam U p a b) (n := n) (M := M) (fun i hi t h1 h2 => hd i hi t (hseg t h1 h2))
    (fun t h1 h2 => by rw [← key 5 le_rfl t (hseg t h1 h2)]; exact hM t h1 h2)
  simpa [lineFam] using this

/-- differentiating the equation -/
theorem Helmholtz.dirJet {Ω : Set (ℝ × ℝ)} {k : ℝ} {U F : ℕ → ℕ → ℝ × ℝ → ℂ} {m n : ℕ} (hU : JetOn Ω (n + 3) U)
    (hF : JetOn Ω (m + 1) F) (h : Helmholtz Ω k U (F 0 0)) (a b : ℝ) :
    Helmholtz Ω k (dirJet a b U) (dirJet a b F 0 0) := by
  intro p hp
  have h1 := (((hU.diff 2 0 (by omega) p hp).add (hU.diff 0 2 (by omega) p hp)).add
    ((hU.diff 0 0 (by omega) p hp).const_mul ((k : ℂ) ^ 2)))
  have h2 := hF.diff 0 0 (by omega) p hp
  have e : (fun q => U 2 0 q + U 0 2 q + (k : ℂ) ^ 2 * U 0 0 q) =ᶠ[𝓝 p] F 0 0 := by
    filter_upwards [hU.isOpen.mem_nhds hp] with q hq using h q hq
  have h3 := HasFDerivAt.unique (h1.congr_of_eventuallyEq e.symm) h2
  have e1 := congrArg (fun L => L ((1 : ℝ), (0 : ℝ))) h3
  have e2 := congrArg (fun L => L ((0 : ℝ), (1 : ℝ))) h3
  simp [grad2] at e1 e2
  simp only [Pot.dirJet]
  linear_combination (a : ℂ) * e1 + (b : ℂ) * e2

end Pot
