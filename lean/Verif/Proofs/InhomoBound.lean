import Verif.Proofs.CauchyData
import Verif.Model.Inhomo

/-! # The inhomogeneous extension: continuity in its data, and Taylor expansions of a source -/

namespace Pot
open Spec Finset Real

/-! ## Continuity in the data -/

/-- the inhomogeneous extension as a polynomial in the distance -/
theorem inhomo_value (k : ℝ) (x : InhomoArgs) : inhomoExtendArbitrary k x =
    ((1 / 2 : ℝ) + (1 / 6 : ℝ) * x.curv * x.n + (1 / 24 : ℝ) * (3 * (x.curv : ℂ) ^ 2 - (k : ℂ) ^ 2) * (x.n : ℂ) ^ 2) *
      ((x.n : ℂ) ^ 2 * x.f) + ((1 / 6 : ℝ) + (1 / 24 : ℝ) * x.curv * x.n) * ((x.n : ℂ) ^ 3 * x.dFn) +
      (1 / 24 : ℝ) * ((x.n : ℂ) ^ 4 * x.d2Fn) - (1 / 24 : ℝ) * ((x.n : ℂ) ^ 4 * x.d2Fs) := by
  unfold inhomoExtendArbitrary
  simp only [inhomoDerivs]
  rw [taylorSum5]
  push_cast
  ring

/-- the arguments differ by little, weighted with the powers of the distance they are multiplied with -/
structure InhomoNear (x y : InhomoArgs) (e : ℝ) : Prop where
  n : x.n = y.n
  curv : x.curv = y.curv
  f : |x.n| ^ 2 * ‖x.f - y.f‖ ≤ e
  dFn : |x.n| ^ 3 * ‖x.dFn - y.dFn‖ ≤ e
  d2Fn : |x.n| ^ 4 * ‖x.d2Fn - y.d2Fn‖ ≤ e
  d2Fs : |x.n| ^ 4 * ‖x.d2Fs - y.d2Fs‖ ≤ e

theorem inhomo_near {k K e : ℝ} {x y : InhomoArgs} (hK : 1 ≤ K) (hk : |k| ≤ K) (hn : |x.n| ≤ 1) (hc : |x.curv| ≤ K)
    (h : InhomoNear x y e) : ‖inhomoExtendArbitrary k x - inhomoExtendArbitrary k y‖ ≤ 2 * K ^ 2 * e := by
  have he : 0 ≤ e := le_trans (by positivity) h.f
  have nn : ∀ j, ‖(x.n : ℂ) ^ j‖ = |x.n| ^ j := fun j => by rw [norm_pow, Complex.norm_real, Real.norm_eq_abs]
  have h1 : ‖(x.n : ℂ) ^ 2 * (x.f - y.f)‖ ≤ e := by rw [norm_mul, nn]; exact h.f
  have h2 : ‖(x.n : ℂ) ^ 3 * (x.dFn - y.dFn)‖ ≤ e := by rw [norm_mul, nn]; exact h.dFn
  have h3 : ‖(x.n : ℂ) ^ 4 * (x.d2Fn - y.d2Fn)‖ ≤ e := by rw [norm_mul, nn]; exact h.d2Fn
  have h4 : ‖(x.n : ℂ) ^ 4 * (x.d2Fs - y.d2Fs)‖ ≤ e := by rw [norm_mul, nn]; exact h.d2Fs
  have nc : ‖(x.curv : ℂ)‖ ≤ K := by rwa [Complex.norm_real, Real.norm_eq_abs]
  have nk : ‖(k : ℂ)‖ ≤ K := by rwa [Complex.norm_real, Real.norm_eq_abs]
  have nc2 : ‖(x.curv : ℂ) ^ 2‖ ≤ K ^ 2 := by rw [norm_pow]; exact pow_le_pow_left₀ (norm_nonneg _) nc 2
  have nk2 : ‖(k : ℂ) ^ 2‖ ≤ K ^ 2 := by rw [norm_pow]; exact pow_le_pow_left₀ (norm_nonneg _) nk 2
  have rc : ∀ a : ℝ, 0 ≤ a → ‖(a : ℂ)‖ ≤ a := fun a ha => by rw [Complex.norm_real, Real.norm_eq_abs, abs_of_nonneg ha]
  have K2 : K ≤ K ^ 2 := by nlinarith
  have e1 : inhomoExtendArbitrary k x - inhomoExtendArbitrary k y =
      ((1 / 2 : ℝ) + (1 / 6 : ℝ) * x.curv * (x.n : ℂ) ^ 1 + (1 / 24 : ℝ) * ((3 : ℝ) * (x.curv : ℂ) ^ 2 - (k : ℂ) ^ 2) * (x.n : ℂ) ^ 2) *
      ((x.n : ℂ) ^ 2 * (x.f - y.f)) + ((1 / 6 : ℝ) + (1 / 24 : ℝ) * x.curv * (x.n : ℂ) ^ 1) * ((x.n : ℂ) ^ 3 * (x.dFn - y.dFn)) +
      (1 / 24 : ℝ) * ((x.n : ℂ) ^ 4 * (x.d2Fn - y.d2Fn)) - (1 / 24 : ℝ) * ((x.n : ℂ) ^ 4 * (x.d2Fs - y.d2Fs)) := by
    rw [inhomo_value, inhomo_value, ← h.n, ← h.curv]
    push_cast
    ring
  rw [e1]
  refine (norm_sub_le' (norm_add_le' (norm_add_le'
    (norm_mul_le_mul (norm_add_le' (norm_add_le' (rc (1 / 2) (by norm_num))
      (coef_bound hn (norm_mul_le_mul (rc (1 / 6) (by norm_num)) nc) 1))
      (coef_bound hn (norm_mul_le_mul (rc (1 / 24) (by norm_num)) (norm_sub_le' (norm_mul_le_mul (rc 3 (by norm_num)) nc2) nk2)) 2)) h1)
    (norm_mul_le_mul (norm_add_le' (rc (1 / 6) (by norm_num)) (coef_bound hn (norm_mul_le_mul (rc (1 / 24) (by norm_num)) nc) 1)) h2))
    (norm_mul_le_mul (rc (1 / 24) (by norm_num)) h3)) (norm_mul_le_mul (rc (1 / 24) (by norm_num)) h4)).trans ?_
  have b1 := mul_le_mul_of_nonneg_right K2 he
  have b2 := mul_le_mul_of_nonneg_right hK he
  linarith

/-- the arclength derivative of the source on the outer curve -/
theorem inhomoD2Fs_near {K e : ℝ} {x y : InhomoPolarArgs} (hK : 1 ≤ K) (e1 : x.dThs = y.dThs) (e2 : x.d2Ths = y.d2Ths)
    (e3 : x.dRth = y.dRth) (e4 : x.d2Rth = y.d2Rth) (b1 : |x.dThs| ≤ K) (b2 : |x.d2Ths| ≤ K) (b3 : |x.dRth| ≤ K)
    (b4 : |x.d2Rth| ≤ K) (h1 : ‖x.dFth - y.dFth‖ ≤ e) (h2 : ‖x.d2Fth - y.d2Fth‖ ≤ e) (h3 : ‖x.dFr - y.dFr‖ ≤ e)
    (h4 : ‖x.d2Fr - y.d2Fr‖ ≤ e) (h5 : ‖x.d2Frth - y.d2Frth‖ ≤ e) : ‖inhomoD2Fs x - inhomoD2Fs y‖ ≤ 7 * K ^ 4 * e := by
  have he : 0 ≤ e := (norm_nonneg _).trans h1
  have hK0 : 0 < K := by linarith
  have c1 : ‖(x.dThs : ℂ)‖ ≤ K := by rwa [Complex.norm_real, Real.norm_eq_abs]
  have c2 : ‖(x.d2Ths : ℂ)‖ ≤ K := by rwa [Complex.norm_real, Real.norm_eq_abs]
  have c3 : ‖(x.dRth : ℂ)‖ ≤ K := by rwa [Complex.norm_real, Real.norm_eq_abs]
  have c4 : ‖(x.d2Rth : ℂ)‖ ≤ K := by rwa [Complex.norm_real, Real.norm_eq_abs]
  have e5 : inhomoD2Fs x - inhomoD2Fs y =
      (x.dThs : ℂ) * x.dThs * (x.d2Fth - y.d2Fth) + (x.dRth : ℂ) * (x.dThs * x.dThs) * (x.d2Frth - y.d2Frth) +
      (x.d2Ths : ℂ) * (x.dFth - y.dFth) + (x.dRth : ℂ) * (x.dThs * x.dThs) * (x.d2Frth - y.d2Frth) +
      (x.dRth : ℂ) * x.dRth * (x.dThs * x.dThs) * (x.d2Fr - y.d2Fr) + (x.d2Rth : ℂ) * (x.dThs * x.dThs) * (x.dFr - y.dFr) +
      (x.dRth : ℂ) * x.d2Ths * (x.dFr - y.dFr) := by
    unfold inhomoD2Fs
    simp only [← e1, ← e2, ← e3, ← e4]
    ring
  rw [e5]
  have c11 := norm_mul_le_mul c1 c1
  refine (norm_add_le' (norm_add_le' (norm_add_le' (norm_add_le' (norm_add_le' (norm_add_le'
    (norm_mul_le_mul c11 h2) (norm_mul_le_mul (norm_mul_le_mul c3 c11) h5)) (norm_mul_le_mul c2 h1))
    (norm_mul_le_mul (norm_mul_le_mul c3 c11) h5)) (norm_mul_le_mul (norm_mul_le_mul (norm_mul_le_mul c3 c3) c11) h4))
    (norm_mul_le_mul (norm_mul_le_mul c4 c11) h3)) (norm_mul_le_mul (norm_mul_le_mul c3 c2) h3)).trans ?_
  have K2 : K ≤ K ^ 4 := le_self_pow₀ hK (by norm_num)
  have K3 : K ^ 2 ≤ K ^ 4 := pow_le_pow_right₀ hK (by norm_num)
  have K4 : K ^ 3 ≤ K ^ 4 := pow_le_pow_right₀ hK (by norm_num)
  have d1 := mul_le_mul_of_nonneg_right K2 he
  have d2 := mul_le_mul_of_nonneg_right K3 he
  have d3 := mul_le_mul_of_nonneg_right K4 he
  have : K * K * e + K * (K * K) * e + K * e + K * (K * K) * e + K * K * (K * K) * e + K * (K * K) * e + K * K * e =
    2 * (K ^ 2 * e) + 3 * (K ^ 3 * e) + K * e + K ^ 4 * e := by ring
  rw [this]
  linarith

/-! ## Taylor expansions from one point to another -/

theorem unit_taylor1 {g : ℕ → ℝ → ℂ} {M : ℝ} (hg : ∀ i < 1, ∀ t ∈ Set.Icc (0:ℝ) 1, HasDerivAt (g i) (g (i + 1) t) t)
    (hM : ∀ t ∈ Set.Icc (0:ℝ) 1, ‖g 1 t‖ ≤ M) : ‖g 0 1 - g 0 0‖ ≤ M := by
  have := int_bound (f := fun t => g 0 t - g 0 0) (f' := g 1) (h := 1) (C := M) (m := 0)
    (fun t ht => (hg 0 (by norm_num) t ht).sub_const _) (by simp) (fun t ht => by simpa using hM t ht) 1 ⟨by norm_num, le_rfl⟩
  simpa using this

theorem unit_taylor2 {g : ℕ → ℝ → ℂ} {M : ℝ} (hg : ∀ i < 2, ∀ t ∈ Set.Icc (0:ℝ) 1, HasDerivAt (g i) (g (i + 1) t) t)
    (hM : ∀ t ∈ Set.Icc (0:ℝ) 1, ‖g 2 t‖ ≤ M) : ‖g 0 1 - (g 0 0 + g 1 0)‖ ≤ M / 2 := by
  have p1 : ∀ (c : ℂ) (t : ℝ), HasDerivAt (fun s : ℝ => c * (s : ℂ)) c t := fun c t => by
    simpa using hasDerivAt_cpow' c 0 t
  have s1 : ∀ t ∈ Set.Icc (0:ℝ) 1, ‖g 1 t - g 1 0‖ ≤ M / ((0 : ℕ) + 1) * t ^ (0 + 1) := by
    apply int_bound (f' := g 2)
    · intro t ht
      exact (hg 1 (by norm_num) t ht).sub_const _
    · simp
    · intro t ht; simpa using hM t ht
  have s0 : ∀ t ∈ Set.Icc (0:ℝ) 1, ‖g 0 t - (g 0 0 + g 1 0 * t)‖ ≤ M / ((0 : ℕ) + 1) / ((0 + 1 : ℕ) + 1) * t ^ (0 + 1 + 1) := by
    apply int_bound (f' := fun t => g 1 t - g 1 0)
    · intro t ht
      exact (hg 0 (by norm_num) t ht).fun_sub ((p1 (g 1 0) t).const_add _)
    · simp
    · exact s1
  have := s0 1 ⟨by norm_num, le_rfl⟩
  norm_num at this
  exact this

theorem unit_taylor3 {g : ℕ → ℝ → ℂ} {M : ℝ} (hg : ∀ i < 3, ∀ t ∈ Set.Icc (0:ℝ) 1, HasDerivAt (g i) (g (i + 1) t) t)
    (hM : ∀ t ∈ Set.Icc (0:ℝ) 1, ‖g 3 t‖ ≤ M) : ‖g 0 1 - (g 0 0 + g 1 0 + g 2 0 / 2)‖ ≤ M / 6 := by
  have p1 : ∀ (c : ℂ) (t : ℝ), HasDerivAt (fun s : ℝ => c * (s : ℂ)) c t := fun c t => by
    simpa using hasDerivAt_cpow' c 0 t
  have s2 : ∀ t ∈ Set.Icc (0:ℝ) 1, ‖g 2 t - g 2 0‖ ≤ M / ((0 : ℕ) + 1) * t ^ (0 + 1) := by
    apply int_bound (f' := g 3)
    · intro t ht
      exact (hg 2 (by norm_num) t ht).sub_const _
    · simp
    · intro t ht; simpa using hM t ht
  have s1 : ∀ t ∈ Set.Icc (0:ℝ) 1, ‖g 1 t - (g 1 0 + g 2 0 * t)‖ ≤ M / ((0 : ℕ) + 1) / ((0 + 1 : ℕ) + 1) * t ^ (0 + 1 + 1) := by
    apply int_bound (f' := fun t => g 2 t - g 2 0)
    · intro t ht
      exact (hg 1 (by norm_num) t ht).fun_sub ((p1 (g 2 0) t).const_add _)
    · simp
    · exact s2
  have s0 : ∀ t ∈ Set.Icc (0:ℝ) 1, ‖g 0 t - (g 0 0 + g 1 0 * t + g 2 0 / 2 * t ^ 2)‖ ≤
      M / ((0 : ℕ) + 1) / ((0 + 1 : ℕ) + 1) / ((0 + 1 + 1 : ℕ) + 1) * t ^ (0 + 1 + 1 + 1) := by
    apply int_bound (f' := fun t => g 1 t - (g 1 0 + g 2 0 * t))
    · intro t ht
      refine HasDerivAt.congr_deriv ((hg 0 (by norm_num) t ht).fun_sub
        (((p1 (g 1 0) t).const_add _).fun_add (hasDerivAt_cpow' (g 2 0 / 2) 1 t))) ?_
      push_cast; ring
    · simp
    · exact s1
  have := s0 1 ⟨by norm_num, le_rfl⟩
  norm_num at this
  convert this using 1
  ring

theorem dirIter_bound' {a b D L : ℝ} (ha : |a| ≤ D) (hb : |b| ≤ D) {q : ℝ × ℝ} : ∀ {j : ℕ} {U : ℕ → ℕ → ℝ × ℝ → ℂ} {i i' : ℕ},
    (∀ l l', l + l' = i + i' + j → ‖U l l' q‖ ≤ L) → ‖((dirJet a b)^[j] U) i i' q‖ ≤ (2 * D) ^ j * L
  | 0, U, i, i', h => by simpa using h i i' rfl
  | j + 1, U, i, i', h => by
    rw [Function.iterate_succ_apply]
    have := dirIter_bound' ha hb (j := j) (U := dirJet a b U) (i := i) (i' := i') (L := 2 * D * L) (q := q) fun l l' hl => by
      have h1 := h (l + 1) l' (by omega)
      have h2 := h l (l' + 1) (by omega)
      refine (norm_add_le' (norm_mul_le_mul (C := D) (by rwa [Complex.norm_real]) h1)
        (norm_mul_le_mul (C := D) (by rwa [Complex.norm_real]) h2)).trans ?_
      linarith
    calc _ ≤ _ := this
      _ = (2 * D) ^ (j + 1) * L := by ring

/-- the partial derivatives of order three are at most `L` on the box with corner `ρ` around the origin -/
def Third (U : ℕ → ℕ → ℝ × ℝ → ℂ) (ρ L : ℝ) : Prop := ∀ i j, i + j = 3 → ∀ q : ℝ × ℝ, |q.1| ≤ ρ → |q.2| ≤ ρ → ‖U i j q‖ ≤ L

/-- the jet of a derivative -/
def shiftJet (U : ℕ → ℕ → ℝ × ℝ → ℂ) (i j : ℕ) : ℕ → ℕ → ℝ × ℝ → ℂ := fun l l' => U (l + i) (l' + j)

theorem JetOn.shift {Ω : Set (ℝ × ℝ)} {U : ℕ → ℕ → ℝ × ℝ → ℂ} {m i j : ℕ} (h : JetOn Ω (m + i + j) U) : JetOn Ω m (shiftJet U i j) :=
  ⟨h.isOpen, fun l l' hl p hp => by
    have := h.diff (l + i) (l' + j) (by omega) p hp
    rw [show l + i + 1 = l + 1 + i by ring, show l' + j + 1 = l' + 1 + j by ring] at this
    exact this⟩

theorem box_move {p : ℝ × ℝ} {A B D ρ t : ℝ} (hA : |A| ≤ D) (hB : |B| ≤ D) (h1 : |p.1| + D ≤ ρ) (h2 : |p.2| + D ≤ ρ)
    (ht : t ∈ Set.Icc (0:ℝ) 1) : |(move p A B t).1| ≤ ρ ∧ |(move p A B t).2| ≤ ρ := by
  have hmul : ∀ x, |x| ≤ D → |t * x| ≤ D := fun x hx => by
    rw [abs_mul, abs_of_nonneg ht.1]
    have := mul_le_mul ht.2 hx (abs_nonneg _) (by norm_num)
    linarith
  constructor
  · show |p.1 + t * A| ≤ ρ
    exact (abs_add_le _ _).trans (by linarith [hmul A hA])
  · show |p.2 + t * B| ≤ ρ
    exact (abs_add_le _ _).trans (by linarith [hmul B hB])

section
variable {U : ℕ → ℕ → ℝ × ℝ → ℂ} {ρ L D A B : ℝ} {p : ℝ × ℝ}

theorem vec_taylor3 (hU : JetOn Set.univ 3 U) (hL : Third U ρ L) (hA : |A| ≤ D) (hB : |B| ≤ D) (h1 : |p.1| + D ≤ ρ)
    (h2 : |p.2| + D ≤ ρ) : ‖U 0 0 (p.1 + A, p.2 + B) - (U 0 0 p + dir1 U A B p + dir2 U A B p / 2)‖ ≤ 2 * L * D ^ 3 := by
  have hL0 : 0 ≤ L * D ^ 3 := by
    have hD : 0 ≤ D := (abs_nonneg _).trans hA
    have : 0 ≤ L := (norm_nonneg _).trans (hL 3 0 rfl p (by linarith) (by linarith))
    positivity
  have key := unit_taylor3 (g := lineFam U p A B) (M := (2 * D) ^ 3 * L) (fun i hi t _ => lineFam_deriv hU p A B i hi t (Set.mem_univ _))
    (fun t ht => dirIter_bound' hA hB fun l l' hl => by
      obtain ⟨b1, b2⟩ := box_move hA hB h1 h2 ht
      exact hL l l' (by omega) _ b1 b2)
  have e0 : lineFam U p A B 0 1 = U 0 0 (p.1 + A, p.2 + B) := by simp [lineFam, move]
  have e1 : lineFam U p A B 0 0 = U 0 0 p := by simp [lineFam]
  have e2 : lineFam U p A B 1 0 = dir1 U A B p := by simp [lineFam, dirJet, dir1]
  have e3 : lineFam U p A B 2 0 = dir2 U A B p := by
    simp only [lineFam, move_zero, Function.iterate_succ, Function.iterate_zero, Function.comp, id, dirJet, dir2]
    ring
  rw [e0, e1, e2, e3] at key
  refine key.trans ?_
  have : (2 * D) ^ 3 * L / 6 = 8 / 6 * (L * D ^ 3) := by ring
  rw [this]
  linarith

theorem vec_taylor2 (hU : JetOn Set.univ 3 U) (hL : Third U ρ L) (hA : |A| ≤ D) (hB : |B| ≤ D) (h1 : |p.1| + D ≤ ρ)
    (h2 : |p.2| + D ≤ ρ) {i j : ℕ} (hij : i + j = 1) :
    ‖U i j (p.1 + A, p.2 + B) - (U i j p + (A * U (i + 1) j p + B * U i (j + 1) p))‖ ≤ 2 * L * D ^ 2 := by
  have hS : JetOn Set.univ 2 (shiftJet U i j) := JetOn.shift (by rw [show 2 + i + j = 3 by omega]; exact hU)
  have key := unit_taylor2 (g := lineFam (shiftJet U i j) p A B) (M := (2 * D) ^ 2 * L)
    (fun l hl t _ => lineFam_deriv hS p A B l hl t (Set.mem_univ _))
    (fun t ht => dirIter_bound' hA hB fun l l' hl => by
      obtain ⟨b1, b2⟩ := box_move hA hB h1 h2 ht
      exact hL (l + i) (l' + j) (by omega) _ b1 b2)
  have e0 : lineFam (shiftJet U i j) p A B 0 1 = U i j (p.1 + A, p.2 + B) := by simp [lineFam, move, shiftJet]
  have e1 : lineFam (shiftJet U i j) p A B 0 0 = U i j p := by simp [lineFam, shiftJet]
  have e2 : lineFam (shiftJet U i j) p A B 1 0 = A * U (i + 1) j p + B * U i (j + 1) p := by
    simp [lineFam, dirJet, shiftJet, add_comm 1]
  rw [e0, e1, e2] at key
  refine key.trans (le_of_eq ?_)
  ring

theorem vec_taylor1 (hU : JetOn Set.univ 3 U) (hL : Third U ρ L) (hA : |A| ≤ D) (hB : |B| ≤ D) (h1 : |p.1| + D ≤ ρ)
    (h2 : |p.2| + D ≤ ρ) {i j : ℕ} (hij : i + j = 2) : ‖U i j (p.1 + A, p.2 + B) - U i j p‖ ≤ 2 * L * D := by
  have hS : JetOn Set.univ 1 (shiftJet U i j) := JetOn.shift (by rw [show 1 + i + j = 3 by omega]; exact hU)
  have key := unit_taylor1 (g := lineFam (shiftJet U i j) p A B) (M := (2 * D) ^ 1 * L)
    (fun l hl t _ => lineFam_deriv hS p A B l hl t (Set.mem_univ _))
    (fun t ht => dirIter_bound' hA hB fun l l' hl => by
      obtain ⟨b1, b2⟩ := box_move hA hB h1 h2 ht
      exact hL (l + i) (l' + j) (by omega) _ b1 b2)
  have e0 : lineFam (shiftJet U i j) p A B 0 1 = U i j (p.1 + A, p.2 + B) := by simp [lineFam, move, shiftJet]
  have e1 : lineFam (shiftJet U i j) p A B 0 0 = U i j p := by simp [lineFam, shiftJet]
  rw [e0, e1] at key
  refine key.trans (le_of_eq ?_)
  ring
end

/-! ## Value, gradient and Hessian of a source at a point -/

/-- value `f`, gradient `g` and Hessian `H` are within `E0`, `E1`, `E2` of those of `F` at `p` -/
structure DataNear (F : ℕ → ℕ → ℝ × ℝ → ℂ) (p : ℝ × ℝ) (f : ℂ) (g : ℂ × ℂ) (H : (ℂ × ℂ) × (ℂ × ℂ)) (E0 E1 E2 : ℝ) : Prop where
  f : ‖f - F 0 0 p‖ ≤ E0
  g1 : ‖g.1 - F 1 0 p‖ ≤ E1
  g2 : ‖g.2 - F 0 1 p‖ ≤ E1
  h11 : ‖H.1.1 - F 2 0 p‖ ≤ E2
  h12 : ‖H.1.2 - F 1 1 p‖ ≤ E2
  h21 : ‖H.2.1 - F 1 1 p‖ ≤ E2
  h22 : ‖H.2.2 - F 0 2 p‖ ≤ E2

theorem DataNear.exact {F : ℕ → ℕ → ℝ × ℝ → ℂ} {p : ℝ × ℝ} {E0 E1 E2 : ℝ} (h0 : 0 ≤ E0) (h1 : 0 ≤ E1) (h2 : 0 ≤ E2) :
    DataNear F p (F 0 0 p) (F 1 0 p, F 0 1 p) ((F 2 0 p, F 1 1 p), (F 1 1 p, F 0 2 p)) E0 E1 E2 := by
  constructor <;> simpa

/-- the data at one point extrapolated to another with the Taylor polynomial -/
theorem DataNear.taylor {F : ℕ → ℕ → ℝ × ℝ → ℂ} (hF : JetOn Set.univ 3 F) {ρ L D A B : ℝ} (hL : Third F ρ L) {p q : ℝ × ℝ}
    (hq : q = (p.1 + A, p.2 + B)) (hA : |A| ≤ D) (hB : |B| ≤ D) (h1 : |p.1| + D ≤ ρ) (h2 : |p.2| + D ≤ ρ) :
    DataNear F q (F 0 0 p + dir1 F A B p + dir2 F A B p / 2)
      (F 1 0 p + (A * F 2 0 p + B * F 1 1 p), F 0 1 p + (A * F 1 1 p + B * F 0 2 p))
      ((F 2 0 p, F 1 1 p), (F 1 1 p, F 0 2 p)) (2 * L * D ^ 3) (2 * L * D ^ 2) (2 * L * D) := by
  subst hq
  have sw : ∀ {x y : ℂ} {e : ℝ}, ‖x - y‖ ≤ e → ‖y - x‖ ≤ e := fun h => by rwa [norm_sub_rev]
  exact ⟨sw (vec_taylor3 hF hL hA hB h1 h2), sw (vec_taylor2 hF hL hA hB h1 h2 (i := 1) (j := 0) rfl),
    sw (vec_taylor2 hF hL hA hB h1 h2 (i := 0) (j := 1) rfl), sw (vec_taylor1 hF hL hA hB h1 h2 (i := 2) (j := 0) rfl),
    sw (vec_taylor1 hF hL hA hB h1 h2 (i := 1) (j := 1) rfl), sw (vec_taylor1 hF hL hA hB h1 h2 (i := 1) (j := 1) rfl),
    sw (vec_taylor1 hF hL hA hB h1 h2 (i := 0) (j := 2) rfl)⟩

theorem abs_le_one_of_unit {c d : ℝ} (h : c ^ 2 + d ^ 2 = 1) : |c| ≤ 1 ∧ |d| ≤ 1 :=
  ⟨abs_le_one_iff_mul_self_le_one.2 (by nlinarith [sq_nonneg d]), abs_le_one_iff_mul_self_le_one.2 (by nlinarith [sq_nonneg c])⟩

/-- directional derivatives of the data -/
theorem DataNear.dirs {F : ℕ → ℕ → ℝ × ℝ → ℂ} {p : ℝ × ℝ} {f : ℂ} {g : ℂ × ℂ} {H : (ℂ × ℂ) × (ℂ × ℂ)} {E0 E1 E2 : ℝ}
    (h : DataNear F p f g H E0 E1 E2) {c d : ℝ} (hN : c ^ 2 + d ^ 2 = 1) :
    ‖dot2 g (c, d) - dir1 F c d p‖ ≤ 2 * E1 ∧ ‖dot2 (hdot H (c, d)) (c, d) - dir2 F c d p‖ ≤ 4 * E2 := by
  obtain ⟨hc, hd⟩ := abs_le_one_of_unit hN
  have c1 : ‖(c : ℂ)‖ ≤ 1 := by rwa [Complex.norm_real, Real.norm_eq_abs]
  have d1 : ‖(d : ℂ)‖ ≤ 1 := by rwa [Complex.norm_real, Real.norm_eq_abs]
  constructor
  · have e : dot2 g (c, d) - dir1 F c d p = c * (g.1 - F 1 0 p) + d * (g.2 - F 0 1 p) := by
      simp only [dot2, dir1]; ring
    rw [e]
    refine (norm_add_le' (norm_mul_le_mul c1 h.g1) (norm_mul_le_mul d1 h.g2)).trans (le_of_eq ?_)
    ring
  · have e : dot2 (hdot H (c, d)) (c, d) - dir2 F c d p = c * c * (H.1.1 - F 2 0 p) + c * d * (H.1.2 - F 1 1 p) +
        d * c * (H.2.1 - F 1 1 p) + d * d * (H.2.2 - F 0 2 p) := by
      simp only [dot2, hdot, dir2]; ring
    rw [e]
    refine (norm_add_le' (norm_add_le' (norm_add_le' (norm_mul_le_mul (norm_mul_le_mul c1 c1) h.h11)
      (norm_mul_le_mul (norm_mul_le_mul c1 d1) h.h12)) (norm_mul_le_mul (norm_mul_le_mul d1 c1) h.h21))
      (norm_mul_le_mul (norm_mul_le_mul d1 d1) h.h22)).trans (le_of_eq ?_)
    ring

end Pot
