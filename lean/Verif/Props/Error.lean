import Verif.Proofs.Energy
import Verif.Props.Resonance
import Verif.Props.Consistency
import Mathlib.Analysis.SpecialFunctions.Trigonometric.Bounds

/-! # Property C80: stability of the auxiliary solver and error of the returned solution -/

namespace Pot
open Real Finset Spec Filter Topology

/-- all computed eigenvalues have modulus at least `m` -/
def EigLower (n order : ℕ) (AD k m : ℝ) : Prop :=
  ∀ ev, calcEigenvals (n + 1) order AD k = .ok ev → ∀ p q : Fin n, m ≤ |ev p q|

theorem eigLower_iff {n order : ℕ} (ho : order = 2 ∨ order = 4) (AD k m : ℝ) :
    EigLower n order AD k m ↔ ∀ p q : Fin n, m ≤ |eigF (n + 1) order AD k (p + 1) (q + 1)| := by
  obtain ⟨e, he, hv⟩ := calcEigenvals_ok (N := n + 1) (AD := AD) (k := k) ho
  constructor
  · intro h p q; rw [← hv p q (by omega) (by omega)]; exact h e he p q
  · intro h e' he' p q
    rw [he] at he'; cases he'
    rw [hv p q (by omega) (by omega)]; exact h p q

/-- **C80** `solve` is bounded: the Euclidean norm of the result is at most that of the right-hand side divided by the smallest
modulus of an eigenvalue. -/
theorem C80_stable {n order : ℕ} (ho : order = 2 ∨ order = 4) {AD k m : ℝ} (hAD : AD ≠ 0) (hm : 0 < m)
    (hlow : EigLower n order AD k m) (g : Arr n) :
    ∃ s, apSolve (n + 1) order AD k g = .ok s ∧
      √(∑ a, ∑ b, ‖s a b‖ ^ 2) ≤ m⁻¹ * √(∑ a, ∑ b, ‖g a b‖ ^ 2) := by
  refine ⟨_, fourierPy_ok ho hAD g true, ?_⟩
  exact l2_of_energy (by positivity) (energy_solve ho hAD hm ((eigLower_iff ho _ _ _).1 hlow) (fourierPy_ok ho hAD g true))

/-! ## A bound that does not depend on the grid -/

/-- a sequence with nonzero limit whose terms are nonzero from some index on keeps away from zero from that index on -/
theorem away_from_zero {a : ℕ → ℝ} {μ : ℝ} (h : Tendsto a atTop (𝓝 μ)) (hμ : μ ≠ 0) {n0 : ℕ} (h0 : ∀ n, n0 ≤ n → a n ≠ 0) :
    ∃ m, 0 < m ∧ ∀ n, n0 ≤ n → m ≤ |a n| := by
  have h1 : Tendsto (fun n => |a n|⁻¹) atTop (𝓝 |μ|⁻¹) := h.abs.inv₀ (by simpa using hμ)
  obtain ⟨B, hB⟩ := h1.bddAbove_range
  have hB' : ∀ n, |a n|⁻¹ ≤ B := fun n => hB ⟨n, rfl⟩
  have hBp : 0 < max B 1 := lt_of_lt_of_le one_pos (le_max_right _ _)
  refine ⟨(max B 1)⁻¹, by positivity, fun n hn => ?_⟩
  have hp : 0 < |a n| := abs_pos.2 (h0 n hn)
  rw [inv_le_comm₀ hBp hp]
  exact (hB' n).trans (le_max_left _ _)

theorem tendsto_inv_nat (c : ℝ) : Tendsto (fun n : ℕ => c / ((n + 1 : ℕ) : ℝ)) atTop (𝓝 0) :=
  (tendsto_const_div_atTop_nhds_zero_nat c).comp (tendsto_add_atTop_nat 1)

/-- `(1 - cos (π p / N)) / h²` tends to half the square of `π p / AD` -/
theorem tendsto_symbol {AD : ℝ} (hAD : 0 < AD) (p : ℕ) :
    Tendsto (fun n : ℕ => (1 - cos (π * p / ((n + 1 : ℕ) : ℝ))) / (AD / ((n + 1 : ℕ) : ℝ)) ^ 2) atTop
      (𝓝 ((π * p / AD) ^ 2 / 2)) := by
  rw [tendsto_iff_norm_sub_tendsto_zero]
  have hx := tendsto_inv_nat (π * p)
  have hsmall : ∀ᶠ n : ℕ in atTop, |π * p / ((n + 1 : ℕ) : ℝ)| ≤ 1 := by
    have := hx.eventually (Metric.ball_mem_nhds 0 one_pos)
    filter_upwards [this] with n hn
    rw [Real.dist_eq, sub_zero] at hn
    exact hn.le
  have hlim : Tendsto (fun n : ℕ => (5 / 96 * (π * p) ^ 2 / AD ^ 2) * (π * p / ((n + 1 : ℕ) : ℝ)) ^ 2) atTop (𝓝 0) := by
    have := (hx.pow 2).const_mul (5 / 96 * (π * p) ^ 2 / AD ^ 2)
    simpa using this
  refine squeeze_zero' (Eventually.of_forall fun n => norm_nonneg _) ?_ hlim
  filter_upwards [hsmall] with n hn
  have hN : (0:ℝ) < ((n + 1 : ℕ) : ℝ) := by positivity
  have hb := Real.cos_bound hn
  set x := π * p / ((n + 1 : ℕ) : ℝ) with hxdef
  have hh : 0 < (AD / ((n + 1 : ℕ) : ℝ)) ^ 2 := by positivity
  have e : (π * p / AD) ^ 2 / 2 = x ^ 2 / 2 / (AD / ((n + 1 : ℕ) : ℝ)) ^ 2 := by
    rw [hxdef]; field_simp
  rw [e, ← sub_div, Real.norm_eq_abs, abs_div, abs_of_pos hh, div_le_iff₀ hh]
  have e2 : |1 - cos x - x ^ 2 / 2| = |cos x - (1 - x ^ 2 / 2)| := by rw [← abs_neg]; ring_nf
  rw [e2]
  refine hb.trans (le_of_eq ?_)
  rw [show |x| ^ 4 = x ^ 4 by rw [← abs_pow, abs_of_nonneg (by positivity)]]
  rw [hxdef]
  field_simp

/-- the eigenvalue in terms of `1 - cos` -/
theorem eigF_eq {N order : ℕ} (ho : order = 2 ∨ order = 4) {AD : ℝ} (hAD : AD ≠ 0) (hN : N ≠ 0) (k : ℝ) (p q : ℕ) :
    eigF N order AD k p q =
      if order = 2 then k ^ 2 - 2 * ((1 - cos (π * p / N)) / (AD / N) ^ 2) - 2 * ((1 - cos (π * q / N)) / (AD / N) ^ 2)
      else k ^ 2 * (1 - ((1 - cos (π * p / N)) + (1 - cos (π * q / N))) / 6) - 2 * ((1 - cos (π * p / N)) / (AD / N) ^ 2)
        - 2 * ((1 - cos (π * q / N)) / (AD / N) ^ 2) + 2 / 3 * (1 - cos (π * p / N)) * ((1 - cos (π * q / N)) / (AD / N) ^ 2) := by
  have hN' : (N : ℝ) ≠ 0 := by exact_mod_cast hN
  have hh : (AD / N) ^ 2 ≠ 0 := by positivity
  unfold eigF
  generalize (AD / N) ^ 2 = H at *
  generalize cos (π * p / N) = x
  generalize cos (π * q / N) = y
  rcases ho with rfl | rfl
  · simp only [if_true]; field_simp; ring
  · simp only [show (4:ℕ) ≠ 2 by norm_num, if_false]; field_simp; ring

theorem tendsto_eigF {order : ℕ} (ho : order = 2 ∨ order = 4) {AD : ℝ} (hAD : 0 < AD) (k : ℝ) (p q : ℕ) :
    Tendsto (fun n : ℕ => eigF (n + 1) order AD k p q) atTop (𝓝 (k ^ 2 - (π * p / AD) ^ 2 - (π * q / AD) ^ 2)) := by
  have h1 := tendsto_symbol hAD p
  have h2 := tendsto_symbol hAD q
  have hc : ∀ p : ℕ, Tendsto (fun n : ℕ => 1 - cos (π * p / ((n + 1 : ℕ) : ℝ))) atTop (𝓝 0) := by
    intro p
    have := (continuous_cos.tendsto 0).comp (tendsto_inv_nat (π * p))
    rw [cos_zero] at this
    simpa using this.const_sub 1
  simp only [eigF_eq ho hAD.ne' (Nat.succ_ne_zero _)]
  rcases ho with rfl | rfl
  · simp only [if_true]
    have := ((h1.const_mul 2).const_sub (k ^ 2)).sub (h2.const_mul 2)
    convert this using 2
    ring
  · simp only [show (4:ℕ) ≠ 2 by norm_num, if_false]
    have := ((((((hc p).add (hc q)).div_const 6).const_sub 1).const_mul (k ^ 2)).sub (h1.const_mul 2) |>.sub (h2.const_mul 2)).add
      (((hc p).const_mul (2 / 3)).mul h2)
    convert this using 2
    ring

/-- large indices: the eigenvalue is below `k² - (8/3) (p² + q²) / AD²` -/
theorem eigF_upper {N order : ℕ} (ho : order = 2 ∨ order = 4) {AD : ℝ} (hAD : 0 < AD) (k : ℝ) {p q : ℕ} (hN : 0 < N)
    (hp : p ≤ N) (hq : q ≤ N) : eigF N order AD k p q ≤ k ^ 2 - 8 / 3 * ((p : ℝ) ^ 2 + (q : ℝ) ^ 2) / AD ^ 2 := by
  have hN' : (0:ℝ) < N := by exact_mod_cast hN
  have hb : ∀ p : ℕ, p ≤ N → 2 * (p : ℝ) ^ 2 / AD ^ 2 ≤ (1 - cos (π * p / N)) / (AD / N) ^ 2 := by
    intro p hp
    have hx : |π * p / N| ≤ π := by
      rw [abs_of_nonneg (by have := pi_pos; positivity), div_le_iff₀ hN']
      exact mul_le_mul_of_nonneg_left (by exact_mod_cast hp) pi_pos.le
    have h := Real.cos_le_one_sub_mul_cos_sq hx
    rw [le_div_iff₀ (by positivity)]
    have e : 2 * (p : ℝ) ^ 2 / AD ^ 2 * (AD / N) ^ 2 = 2 / π ^ 2 * (π * p / N) ^ 2 := by
      have := pi_ne_zero
      field_simp
    rw [e]; linarith
  have h1 := hb p hp
  have h2 := hb q hq
  have c1 := abs_le.1 (abs_cos_le_one (π * (p : ℝ) / N))
  have c2 := abs_le.1 (abs_cos_le_one (π * (q : ℝ) / N))
  have hk := sq_nonneg k
  have hH : 0 < (AD / N) ^ 2 := by positivity
  rw [eigF_eq ho hAD.ne' hN.ne']
  have e3 : 8 / 3 * ((p : ℝ) ^ 2 + (q : ℝ) ^ 2) / AD ^ 2 = 4 / 3 * (2 * (p : ℝ) ^ 2 / AD ^ 2) + 4 / 3 * (2 * (q : ℝ) ^ 2 / AD ^ 2) := by ring
  rw [e3]
  have hA : 0 ≤ 2 * (p : ℝ) ^ 2 / AD ^ 2 := by positivity
  have hB : 0 ≤ 2 * (q : ℝ) ^ 2 / AD ^ 2 := by positivity
  generalize 2 * (p : ℝ) ^ 2 / AD ^ 2 = A at *
  generalize 2 * (q : ℝ) ^ 2 / AD ^ 2 = B at *
  rcases ho with rfl | rfl
  · rw [if_pos rfl]; linarith
  · rw [if_neg (by norm_num)]
    have c3 : 0 ≤ 1 - cos (π * (p : ℝ) / N) ∧ 1 - cos (π * (p : ℝ) / N) ≤ 2 := ⟨by linarith [c1.2], by linarith [c1.1]⟩
    have c4 : 0 ≤ 1 - cos (π * (q : ℝ) / N) ∧ 1 - cos (π * (q : ℝ) / N) ≤ 2 := ⟨by linarith [c2.2], by linarith [c2.1]⟩
    generalize (AD / N) ^ 2 = H at *
    generalize 1 - cos (π * (p : ℝ) / N) = x at *
    generalize 1 - cos (π * (q : ℝ) / N) = y at *
    have g1 : k ^ 2 * (1 - (x + y) / 6) ≤ k ^ 2 := mul_le_of_le_one_right hk (by linarith)
    have g2 : x * (y / H) ≤ x / H + y / H := by
      rw [← mul_div_assoc, ← add_div]
      apply div_le_div_of_nonneg_right _ hH.le
      nlinarith
    nlinarith

/-- **C80** the eigenvalues keep away from zero by the same amount on every grid, unless `k²` is an eigenvalue of the negative
Laplacian on the square or one of the grids is resonant. -/
theorem C80_uniform {order : ℕ} (ho : order = 2 ∨ order = 4) {AD k : ℝ} (hAD : 0 < AD) (hz : ∀ n, NoZeroEig n order AD k)
    (hc : ∀ p q : ℕ, 1 ≤ p → 1 ≤ q → k ^ 2 ≠ (π * p / AD) ^ 2 + (π * q / AD) ^ 2) :
    ∃ m, 0 < m ∧ ∀ n, EigLower n order AD k m := by
  classical
  obtain ⟨P, hP⟩ : ∃ P : ℕ, k ^ 2 + 1 ≤ 8 / 3 * (P : ℝ) ^ 2 / AD ^ 2 := by
    obtain ⟨P, hP⟩ := exists_nat_ge ((k ^ 2 + 1) * AD ^ 2 + 1)
    refine ⟨P, ?_⟩
    rw [le_div_iff₀ (by positivity)]
    have h1 : (1:ℝ) ≤ P := by nlinarith [sq_nonneg AD, sq_nonneg k, mul_nonneg (sq_nonneg k) (sq_nonneg AD)]
    nlinarith
  have key : ∀ p q : ℕ, ∃ m : ℝ, 0 < m ∧ (1 ≤ p → 1 ≤ q → ∀ n, p ≤ n → q ≤ n → m ≤ |eigF (n + 1) order AD k p q|) := by
    intro p q
    by_cases hpq : 1 ≤ p ∧ 1 ≤ q
    · obtain ⟨m, hm, h⟩ := away_from_zero (tendsto_eigF ho hAD k p q)
        (by have := hc p q hpq.1 hpq.2; intro h0; apply this; linarith) (n0 := max p q) fun n hn => by
          have := (noZeroEig_iff ho AD k).1 (hz n) ⟨p - 1, by omega⟩ ⟨q - 1, by omega⟩
          rwa [show ((⟨p - 1, by omega⟩ : Fin n) : ℕ) + 1 = p by simp; omega,
            show ((⟨q - 1, by omega⟩ : Fin n) : ℕ) + 1 = q by simp; omega] at this
      exact ⟨m, hm, fun _ _ n h1 h2 => h n (max_le h1 h2)⟩
    · exact ⟨1, one_pos, fun h1 h2 => absurd ⟨h1, h2⟩ hpq⟩
  choose m hm0 hm using key
  -- the minimum over the finitely many small indices
  let I : Finset (ℕ × ℕ) := Finset.range (P + 1) ×ˢ Finset.range (P + 1)
  have hI : I.Nonempty := ⟨(0, 0), by simp [I]⟩
  refine ⟨min 1 (I.inf' hI fun x => m x.1 x.2), lt_min one_pos ((Finset.lt_inf'_iff hI).2 fun x _ => hm0 _ _), fun n => ?_⟩
  rw [eigLower_iff ho]
  intro p q
  by_cases hpq : (p : ℕ) + 1 ≤ P ∧ (q : ℕ) + 1 ≤ P
  · refine (min_le_right _ _).trans ((Finset.inf'_le _ (b := ((p : ℕ) + 1, (q : ℕ) + 1)) (by simp [I]; omega)).trans ?_)
    exact hm _ _ (by omega) (by omega) n (by omega) (by omega)
  · refine (min_le_left _ _).trans ?_
    have hu := eigF_upper ho hAD k (p := p + 1) (q := q + 1) (Nat.succ_pos n) (by omega) (by omega)
    have hle : (P : ℝ) ^ 2 ≤ (((p : ℕ) + 1 : ℕ) : ℝ) ^ 2 + (((q : ℕ) + 1 : ℕ) : ℝ) ^ 2 := by
      rcases not_and_or.1 hpq with h | h
      · have : (P : ℝ) ≤ (((p : ℕ) + 1 : ℕ) : ℝ) := by exact_mod_cast (by omega : P ≤ (p : ℕ) + 1)
        have := pow_le_pow_left₀ (Nat.cast_nonneg P) this 2
        nlinarith [sq_nonneg (((q : ℕ) + 1 : ℕ) : ℝ)]
      · have : (P : ℝ) ≤ (((q : ℕ) + 1 : ℕ) : ℝ) := by exact_mod_cast (by omega : P ≤ (q : ℕ) + 1)
        have := pow_le_pow_left₀ (Nat.cast_nonneg P) this 2
        nlinarith [sq_nonneg (((p : ℕ) + 1 : ℕ) : ℝ)]
    have h3 : 8 / 3 * (P : ℝ) ^ 2 / AD ^ 2 ≤ 8 / 3 * ((((p : ℕ) + 1 : ℕ) : ℝ) ^ 2 + (((q : ℕ) + 1 : ℕ) : ℝ) ^ 2) / AD ^ 2 := by
      gcongr
    rw [abs_of_nonpos (by linarith)]
    linarith

/-- **C80** the shipped square and wavenumbers -/
theorem C80_shipped_uniform {order : ℕ} (ho : order = 2 ∨ order = 4) {k : ℝ} (hk : k = smoothK ∨ k = ihK ∨ k = quadK ∨ k = 1) :
    ∃ m, 0 < m ∧ ∀ n, EigLower n order probAD k m := by
  have hAD : (0:ℝ) < probAD := by unfold probAD; have := pi_pos; positivity
  refine C80_uniform ho hAD (fun n => ?_) fun p q hp hq h => ?_
  · obtain ⟨h1, h2, h3, h4⟩ := C78_shipped n ho
    rcases hk with rfl | rfl | rfl | rfl <;> assumption
  · have e : (π * p / probAD) ^ 2 + (π * q / probAD) ^ 2 = ((p : ℝ) ^ 2 + (q : ℝ) ^ 2) / 4 := by
      unfold probAD
      have := pi_ne_zero
      field_simp
      ring
    rw [e] at h
    rcases hk with rfl | rfl | rfl | rfl
    · unfold smoothK at h
      have : 4 * ((p : ℝ) ^ 2 + (q : ℝ) ^ 2) = 729 := by linarith
      have : 4 * (p ^ 2 + q ^ 2) = 729 := by exact_mod_cast this
      omega
    · unfold ihK at h
      have : 4 * ((p : ℝ) ^ 2 + (q : ℝ) ^ 2) = 729 := by linarith
      have : 4 * (p ^ 2 + q ^ 2) = 729 := by exact_mod_cast this
      omega
    · unfold quadK at h
      have : 4 * ((p : ℝ) ^ 2 + (q : ℝ) ^ 2) = 1849 := by linarith
      have : 4 * (p ^ 2 + q ^ 2) = 1849 := by exact_mod_cast this
      omega
    · have : (p : ℝ) ^ 2 + (q : ℝ) ^ 2 = 4 := by linarith
      have h4 : p ^ 2 + q ^ 2 = 4 := by exact_mod_cast this
      have : p ≤ 1 := by nlinarith
      have : q ≤ 1 := by nlinarith
      have : p = 1 := by omega
      have : q = 1 := by omega
      subst p q
      norm_num at h4

/-! ## The error of the returned solution -/

variable {iter : Iter} {e : Env} {n order : ℕ} {k : ℝ} {G : PsGrids}

/-- for every density there is a potential, within `1 + (8/h² + k²) / m` of it in norm -/
theorem pot_bound (S : Setup iter e n order k G) {m : ℝ} (hm : 0 < m) (hlow : EigLower n order e.AD k m) (w : Arr n) :
    ∃ P : Arr n, IsPot order e.AD k G w P ∧ l2 P ≤ (1 + (8 / (e.AD / (n + 1)) ^ 2 + k ^ 2) / m) * l2 w := by
  have hc := S.core
  obtain ⟨Lw, hL, hL1, -⟩ := C13_apply_L S.ho S.hAD k w
  obtain ⟨Z, hZ, hZ1⟩ := zeroMinus_ok (iter 4 G.Mminus)
    (fun q hq => (hc.m0 q).1 (Or.inr (((S.hit 4 _).2 q).1 hq))) Lw
  obtain ⟨s, hs, hs1⟩ := solve_spec S.ho S.hAD S.hz Z
  refine ⟨fun a b => w a b - s a b, ⟨?_, ?_⟩, ?_⟩
  · intro q hq
    have hqr := (hc.m0 q).1 (Or.inl hq)
    rw [LN_sub, hs1 q hqr, hZ1, if_neg fun hh => hc.disj q hq (((S.hit 4 _).2 q).1 hh), hL1,
      node_applyL _ _ _ _ hqr, sub_self]
  · intro q hq
    have hqr := (hc.m0 q).1 (Or.inr hq)
    rw [LN_sub, hs1 q hqr, hZ1, if_pos (((S.hit 4 _).2 q).2 hq), sub_zero]
  · have hB : 0 ≤ 8 / (e.AD / ((n : ℝ) + 1)) ^ 2 + k ^ 2 := by positivity
    have b1 : l2 s ≤ m⁻¹ * l2 Z :=
      l2_of_energy (by positivity) (energy_solve S.ho S.hAD hm ((eigLower_iff S.ho _ _ _).1 hlow) hs)
    have b2 : l2 Z ≤ l2 Lw := by
      refine l2_mono fun a b => ?_
      have := hZ1 (((a : ℕ) : ℤ) + 1, ((b : ℕ) : ℤ) + 1)
      simp only [node_at] at this
      rw [this]
      split
      · simp
      · exact le_rfl
    have b3 : l2 Lw ≤ (8 / (e.AD / (n + 1)) ^ 2 + k ^ 2) * l2 w := l2_of_energy hB (energy_apply S.ho S.hAD hL)
    calc _ ≤ l2 w + l2 s := l2_sub w s
      _ ≤ l2 w + m⁻¹ * ((8 / (e.AD / (n + 1)) ^ 2 + k ^ 2) * l2 w) := by
        have : m⁻¹ * l2 Z ≤ m⁻¹ * ((8 / (e.AD / (n + 1)) ^ 2 + k ^ 2) * l2 w) := by
          have := b2.trans b3
          gcongr
        linarith
      _ = _ := by ring

/-- **C80** error of the returned solution: compared with any grid function `u`, the Euclidean norm over `Nplus` is at most
`1 + (8/h² + k²) / m` times that of the error of the extension vector on the discrete boundary plus `1 / m` times that of the
defect of `u` in the discrete equation, where `m` bounds the eigenvalues from below. -/
theorem C80_error (S : Setup iter e n order k G) {m : ℝ} (hm : 0 < m) (hlow : EigLower n order e.AD k m) (f : Arr (n + 2))
    (ext : List ℂ) (hl : ext.length = G.unionGamma.length) (u : ℤ → ℤ → ℂ) :
    ∃ s w : Arr n, calcApSolF iter e order k G f = .ok s ∧ regularPart iter e order k G ext s = .ok w ∧
      √(∑ q ∈ G.Nplus, ‖node w q.1 q.2 - u q.1 q.2‖ ^ 2) ≤
        (1 + (8 / (e.AD / e.N) ^ 2 + k ^ 2) / m) *
            √(∑ l : Fin G.unionGamma.length, ‖ext[l] - u (G.unionGamma[l]).1 (G.unionGamma[l]).2‖ ^ 2) +
          1 / m * √(∑ p ∈ G.Mplus, ‖B4 (fullNode f) p.1 p.2 - Lh order (e.AD / e.N) k u p.1 p.2‖ ^ 2) := by
  classical
  have hc := S.core
  have hN : (e.N : ℝ) = (n : ℝ) + 1 := by rw [S.hN]; push_cast; rfl
  obtain ⟨s, hs, hs1, hs2⟩ := calcApSolF_ok S.hit S.hN S.ho S.hAD S.hz hc f
  obtain ⟨w, P, hP, hpot, hw1, hw2⟩ := S.pot ext hl.ge
  refine ⟨s, _, hs, by unfold regularPart; rw [hP, ok_bind]; rfl, ?_⟩
  -- the reference function as an array
  let U : Arr n := ofNode u
  have hU : ∀ q, InR n q → node U q.1 q.2 = u q.1 q.2 := fun q hq => node_ofNode _ hq
  -- the defect, and the solution of the auxiliary problem with it
  let g : Arr n := ofNode fun i j => if (i, j) ∈ G.Mplus then B4 (fullNode f) i j - LN order e.AD k U (i, j) else 0
  have hg : ∀ q : Node, node g q.1 q.2 = if q ∈ G.Mplus then B4 (fullNode f) q.1 q.2 - LN order e.AD k U q else 0 := by
    intro q
    by_cases hq : InR n q
    · exact node_ofNode _ hq
    · rw [node_out' _ hq, if_neg fun hh => hq ((hc.m0 q).1 (Or.inl hh))]
  obtain ⟨t, ht, ht1⟩ := solve_spec S.ho S.hAD S.hz g
  have bt : l2 t ≤ m⁻¹ * l2 g :=
    l2_of_energy (by positivity) (energy_solve S.ho S.hAD hm ((eigLower_iff S.ho _ _ _).1 hlow) ht)
  -- the error of the extension as a density
  let d : Arr n := ofNode fun i j => if (i, j) ∈ G.unionGamma then node w i j - u i j else 0
  have hd : ∀ q : Node, node d q.1 q.2 = if q ∈ G.unionGamma then node w q.1 q.2 - u q.1 q.2 else 0 := by
    intro q
    by_cases hq : InR n q
    · exact node_ofNode _ hq
    · rw [node_out' _ hq, if_neg fun hh => hq (S.gamR q hh)]
  obtain ⟨D, hD, bD⟩ := pot_bound S hm hlow d
  -- `U` minus what solves its own equation is the potential of its trace
  let V : Arr n := fun a b => U a b - (s a b - t a b)
  have hV : IsPot order e.AD k G U V := by
    constructor
    · intro q hq
      have hqr := (hc.m0 q).1 (Or.inl hq)
      rw [LN_sub, LN_sub, hs1 q hq, ht1 q hqr, hg, if_pos hq]; ring
    · intro q hq
      have hqr := (hc.m0 q).1 (Or.inr hq)
      rw [LN_sub, LN_sub, hs2 q hq, ht1 q hqr, hg, if_neg fun hh => hc.disj q hh hq]; ring
  have heq := (hpot.sub hV).congr S.ho S.hAD S.hz hc hD (fun q hq => by
    rw [node_sub, hd, if_pos hq, hU q (S.gamR q hq)])
  -- the error on `Nplus` is `D + t`
  have herr : ∀ q ∈ G.Nplus, node (fun a b => P a b + s a b) q.1 q.2 - u q.1 q.2 = node (fun a b => D a b + t a b) q.1 q.2 := by
    intro q hq
    have := heq q hq
    rw [node_sub, node_sub, node_sub, hU q (hc.npIn q hq)] at this
    rw [node_add, node_add, ← this]; ring
  have e1 : √(∑ q ∈ G.Nplus, ‖node (fun a b => P a b + s a b) q.1 q.2 - u q.1 q.2‖ ^ 2) ≤ l2 (fun a b => D a b + t a b) := by
    refine Real.sqrt_le_sqrt ?_
    rw [Finset.sum_congr rfl fun q hq => by rw [herr q hq]]
    exact sum_le_energy _ _ hc.npIn
  have e2 : l2 d = √(∑ l : Fin G.unionGamma.length, ‖ext[l] - u (G.unionGamma[l]).1 (G.unionGamma[l]).2‖ ^ 2) := by
    unfold l2
    congr 1
    rw [energy_supp d G.unionGamma.toFinset (fun q hq => S.gamR q (List.mem_toFinset.1 hq))
      (fun q hq => by rw [hd, if_neg fun hh => hq (List.mem_toFinset.2 hh)]), List.sum_toFinset _ hc.nodup]
    rw [← List.sum_ofFn]
    congr 1
    apply List.ext_getElem
    · simp
    · intro l h1 h2
      have hl' : l < G.unionGamma.length := by simpa using h1
      rw [List.getElem_map, List.getElem_ofFn, hd, if_pos (List.getElem_mem hl'), hw1 l hl']
      rfl
  have e3 : l2 g = √(∑ p ∈ G.Mplus, ‖B4 (fullNode f) p.1 p.2 - Lh order (e.AD / e.N) k u p.1 p.2‖ ^ 2) := by
    unfold l2
    congr 1
    rw [energy_supp g G.Mplus (fun q hq => (hc.m0 q).1 (Or.inl hq)) (fun q hq => by rw [hg, if_neg hq])]
    refine Finset.sum_congr rfl fun p hp => ?_
    rw [hg, if_pos hp, hN]
    congr 3
    apply Lh_congr_reach
    intro q hq
    exact hU q (hc.npIn q ((hc.np q).2 ⟨p, hp, hq⟩))
  calc _ ≤ l2 (fun a b => D a b + t a b) := e1
    _ ≤ l2 D + l2 t := l2_add D t
    _ ≤ (1 + (8 / (e.AD / (n + 1)) ^ 2 + k ^ 2) / m) * l2 d + m⁻¹ * l2 g := by linarith
    _ = _ := by rw [e2, e3, hN, one_div]

theorem B4_bound {v : ℤ → ℤ → ℂ} {i j : ℤ} {T : ℝ}
    (h : ∀ p q : ℤ, |p - i| + |q - j| ≤ 1 → ‖v p q‖ ≤ T) : ‖B4 v i j‖ ≤ T := by
  have e : B4 v i j = (8 * v i j + v (i + 1) j + v (i - 1) j + v i (j + 1) + v i (j - 1)) / 12 := by
    unfold B4 dxx dyy; ring
  have h0 := h i j (by simp)
  have h1 := h (i + 1) j (by simp)
  have h2 := h (i - 1) j (by simp)
  have h3 := h i (j + 1) (by simp)
  have h4 := h i (j - 1) (by simp)
  rw [e, norm_div]
  have := norm_add₄_le (a := 8 * v i j + v (i + 1) j) (b := v (i - 1) j) (c := v i (j + 1)) (d := v i (j - 1))
  have h5 := norm_add_le (8 * v i j) (v (i + 1) j)
  have h6 : ‖8 * v i j‖ = 8 * ‖v i j‖ := by rw [norm_mul]; norm_num
  have h7 : ‖(12 : ℂ)‖ = 12 := by norm_num
  rw [h7, div_le_iff₀ (by norm_num)]
  linarith

theorem B4_sub (v w : ℤ → ℤ → ℂ) (i j : ℤ) : B4 v i j - B4 w i j = B4 (fun p q => v p q - w p q) i j := by
  unfold B4 dxx dyy; ring

theorem sqrt_sum_le {ι : Type*} (s : Finset ι) (f : ι → ℝ) {n : ℕ} {δ : ℝ} (hδ : 0 ≤ δ) (hc : s.card ≤ n ^ 2)
    (hf0 : ∀ i ∈ s, 0 ≤ f i) (hf : ∀ i ∈ s, f i ≤ δ) : √(∑ i ∈ s, f i ^ 2) ≤ n * δ := by
  refine Real.sqrt_le_iff.2 ⟨by positivity, ?_⟩
  calc _ ≤ s.card • δ ^ 2 := Finset.sum_le_card_nsmul _ _ _ fun i hi => pow_le_pow_left₀ (hf0 i hi) (hf i hi) 2
    _ ≤ (n : ℝ) ^ 2 * δ ^ 2 := by
      rw [nsmul_eq_mul]
      exact mul_le_mul_of_nonneg_right (by exact_mod_cast hc) (sq_nonneg δ)
    _ = _ := by ring

theorem card_inR {n : ℕ} (s : Finset Node) (h : ∀ q ∈ s, InR n q) : s.card ≤ n ^ 2 := by
  calc s.card ≤ (Finset.Icc (1:ℤ) n ×ˢ Finset.Icc (1:ℤ) n).card := Finset.card_le_card fun q hq => by
        obtain ⟨h1, h2, h3, h4⟩ := h q hq
        simp only [Finset.mem_product, Finset.mem_Icc]; omega
    _ = n ^ 2 := by
      rw [Finset.card_product, Int.card_Icc]; simp; ring

/-- **C80** rate: `u = U 0 0` has sixth derivatives at most `M` on the square, the source array is within `T` of
`Δu + k² u` on `Kplus`, the extension vector within `δ` of `u` on the discrete boundary.  Then the computed array is within
the given bound of `u`, both in the mean-square norm over `Nplus` and (divided by `h`) at every node of `Nplus`. -/
theorem C80_rate (S : Setup iter e n 4 k G) (hAD : 0 < e.AD) {m : ℝ} (hm : 0 < m) (hlow : EigLower n 4 e.AD k m)
    {U : ℕ → ℕ → ℝ → ℝ → ℂ} (hU : Jet 6 U) {M T δ : ℝ} (hT : 0 ≤ T) (hδ : 0 ≤ δ)
    (hM : ∀ i j, i + j = 6 → ∀ x y, |x| ≤ e.AD / 2 → |y| ≤ e.AD / 2 → ‖U i j x y‖ ≤ M)
    (f : Arr (n + 2)) (hf : ∀ q ∈ G.Kplus, ‖fullNode f q.1 q.2 - helm U k (e.coord q).1 (e.coord q).2‖ ≤ T)
    (ext : List ℂ) (hl : ext.length = G.unionGamma.length)
    (hext : ∀ l : Fin G.unionGamma.length, ‖ext[l] - U 0 0 (e.coord G.unionGamma[l]).1 (e.coord G.unionGamma[l]).2‖ ≤ δ) :
    ∃ s w : Arr n, calcApSolF iter e 4 k G f = .ok s ∧ regularPart iter e 4 k G ext s = .ok w ∧
      e.AD / e.N * √(∑ q ∈ G.Nplus, ‖node w q.1 q.2 - U 0 0 (e.coord q).1 (e.coord q).2‖ ^ 2) ≤
        e.AD * ((1 + (8 / (e.AD / e.N) ^ 2 + k ^ 2) / m) * δ + (11 / 180 * M * (e.AD / e.N) ^ 4 + T) / m) ∧
      ∀ q ∈ G.Nplus, ‖node w q.1 q.2 - U 0 0 (e.coord q).1 (e.coord q).2‖ ≤
        e.N * ((1 + (8 / (e.AD / e.N) ^ 2 + k ^ 2) / m) * δ + (11 / 180 * M * (e.AD / e.N) ^ 4 + T) / m) := by
  have hc := S.core
  have hNn : (e.N : ℝ) = (n : ℝ) + 1 := by rw [S.hN]; push_cast; rfl
  have hM0 : 0 ≤ M := (norm_nonneg _).trans (hM 6 0 rfl 0 0 (by simp; linarith) (by simp; linarith))
  obtain ⟨s, w, h1, h2, h3⟩ := C80_error S hm hlow f ext hl (smp e.AD e.N (U 0 0))
  have hdef : ∀ p ∈ G.Mplus, ‖B4 (fullNode f) p.1 p.2 - Lh 4 (e.AD / e.N) k (smp e.AD e.N (U 0 0)) p.1 p.2‖ ≤
      11 / 180 * M * (e.AD / e.N) ^ 4 + T := by
    intro p hp
    obtain ⟨r1, r2, r3, r4⟩ := (hc.m0 p).1 (Or.inl hp)
    let a : Fin n := ⟨(p.1 - 1).toNat, by omega⟩
    let b : Fin n := ⟨(p.2 - 1).toNat, by omega⟩
    have ea : ((a : ℕ) : ℤ) + 1 = p.1 := by simp only [a]; omega
    have eb : ((b : ℕ) : ℤ) + 1 = p.2 := by simp only [b]; omega
    have hsq : ∀ (c : Fin n) (t : ℝ), |t| ≤ e.AD / (n + 1) → |e.AD * (((c : ℝ) + 1) / ((n + 1 : ℕ) : ℝ) - 1 / 2) + t| ≤ e.AD / 2 := by
      intro c t ht
      have hn : (0:ℝ) < (n : ℝ) + 1 := by positivity
      have hcn : (c : ℝ) + 1 ≤ n := by exact_mod_cast c.2
      have hc0 : (0:ℝ) ≤ c := Nat.cast_nonneg _
      obtain ⟨t1, t2⟩ := abs_le.1 ht
      have e1 : e.AD * (((c : ℝ) + 1) / ((n + 1 : ℕ) : ℝ) - 1 / 2) = e.AD / (n + 1) * (c + 1) - e.AD / 2 := by
        push_cast; field_simp
      have e2 : e.AD / (n + 1) * (n + 1) = e.AD := by field_simp
      have hh : 0 < e.AD / ((n : ℝ) + 1) := by positivity
      rw [e1, abs_le]
      constructor <;> nlinarith
    have c16 := C16_smooth hU hAD k M a b fun i j hij s t hs ht => hM i j hij _ _ (hsq a s hs) (hsq b t ht)
    rw [applyL_gridOf, applyB_gridOf, ea, eb] at c16
    have hb : ‖B4 (fullNode f) p.1 p.2 - B4 (smp e.AD (n + 1) (helm U k)) p.1 p.2‖ ≤ T := by
      rw [B4_sub]
      refine B4_bound fun i j hij => ?_
      have hK : ((i, j) : Node) ∈ G.Kplus := by
        have g1 := (psGrids_sets S.hit S.built).1
        rw [g1, mem_Kplus S.hit]
        refine ⟨p, by rw [← g1]; exact hp, (mem_kStencil _ _ _).2 ?_⟩
        by_cases h0 : ((i, j) : Node) = p
        · exact Or.inl h0
        · refine Or.inr ⟨by norm_num, ?_⟩
          have : |i - p.1| + |j - p.2| ≠ 0 := fun h00 => h0 (by
            have := abs_nonneg (i - p.1)
            have := abs_nonneg (j - p.2)
            have a1 : i - p.1 = 0 := abs_eq_zero.1 (by omega)
            have a2 : j - p.2 = 0 := abs_eq_zero.1 (by omega)
            ext <;> simp <;> omega)
          have := abs_nonneg (i - p.1)
          have := abs_nonneg (j - p.2)
          simp only
          omega
      have := hf _ hK
      unfold Env.coord at this
      rw [S.hN] at this
      exact this
    rw [show (e.AD / (e.N : ℝ)) = e.AD / ((n : ℝ) + 1) by rw [hNn], S.hN]
    calc _ = ‖(B4 (fullNode f) p.1 p.2 - B4 (smp e.AD (n + 1) (helm U k)) p.1 p.2) -
          (Lh 4 (e.AD / ((n : ℝ) + 1)) k (smp e.AD (n + 1) (U 0 0)) p.1 p.2 - B4 (smp e.AD (n + 1) (helm U k)) p.1 p.2)‖ := by
            congr 1; ring
      _ ≤ T + 11 / 180 * M * (e.AD / ((n : ℝ) + 1)) ^ 4 := (norm_sub_le _ _).trans (add_le_add hb c16)
      _ = _ := by ring
  have b1 : √(∑ p ∈ G.Mplus, ‖B4 (fullNode f) p.1 p.2 - Lh 4 (e.AD / e.N) k (smp e.AD e.N (U 0 0)) p.1 p.2‖ ^ 2) ≤
      n * (11 / 180 * M * (e.AD / e.N) ^ 4 + T) :=
    sqrt_sum_le _ _ (by positivity) (card_inR _ fun q hq => (hc.m0 q).1 (Or.inl hq)) (fun _ _ => norm_nonneg _) hdef
  have b2 : √(∑ l : Fin G.unionGamma.length, ‖ext[l] - smp e.AD e.N (U 0 0) (G.unionGamma[l]).1 (G.unionGamma[l]).2‖ ^ 2) ≤
      n * δ := by
    refine sqrt_sum_le _ _ hδ ?_ (fun _ _ => norm_nonneg _) fun l _ => hext l
    have := card_inR G.unionGamma.toFinset (fun q hq => S.gamR q (List.mem_toFinset.1 hq))
    rw [List.toFinset_card_of_nodup hc.nodup] at this
    simpa using this
  set B := (1 + (8 / (e.AD / e.N) ^ 2 + k ^ 2) / m) * δ + (11 / 180 * M * (e.AD / e.N) ^ 4 + T) / m with hB
  have hB0 : 0 ≤ B := by positivity
  have h4 : √(∑ q ∈ G.Nplus, ‖node w q.1 q.2 - U 0 0 (e.coord q).1 (e.coord q).2‖ ^ 2) ≤ e.N * B := by
    refine (show _ ≤ _ from h3).trans ?_
    calc _ ≤ (1 + (8 / (e.AD / e.N) ^ 2 + k ^ 2) / m) * (n * δ) + 1 / m * (n * (11 / 180 * M * (e.AD / e.N) ^ 4 + T)) := by
          gcongr
      _ = n * B := by rw [hB]; ring
      _ ≤ _ := by rw [hNn]; nlinarith
  refine ⟨s, w, h1, h2, ?_, fun q hq => ?_⟩
  · have hN0 : (0:ℝ) < e.N := by rw [hNn]; positivity
    calc _ ≤ e.AD / e.N * (e.N * B) := by gcongr
      _ = _ := by field_simp
  · refine le_trans ?_ h4
    refine Real.le_sqrt_of_sq_le ?_
    exact Finset.single_le_sum (f := fun q : Node => ‖node w q.1 q.2 - U 0 0 (e.coord q).1 (e.coord q).2‖ ^ 2)
      (fun _ _ => by positivity) hq

/-! ## A shipped problem: the plane wave of `Smooth_E` -/

/-- the partial derivatives of the plane wave -/
noncomputable def eJet (k : ℝ) (i j : ℕ) (x y : ℝ) : ℂ :=
  (Complex.I * (4 / 5 * k : ℝ)) ^ i * (Complex.I * (3 / 5 * k : ℝ)) ^ j * (eExpected k x y).1

theorem eJet_jet (k : ℝ) (N : ℕ) : Jet N (eJet k) := by
  have hx : ∀ (c d : ℂ) (t : ℝ), HasDerivAt (fun t : ℝ => Complex.exp (Complex.I * (c * t + d)))
      (Complex.I * c * Complex.exp (Complex.I * (c * t + d))) t := by
    intro c d t
    have h := ((((hasDerivAt_id t).ofReal_comp.const_mul c).add_const d).const_mul Complex.I).cexp
    refine h.congr_deriv ?_
    simp; ring
  constructor
  · intro i j _ x y
    have h := (hx ((4 / 5 * k : ℝ) : ℂ) ((3 / 5 * k * y : ℝ) : ℂ) x).const_mul
      ((Complex.I * ((4 / 5 * k : ℝ) : ℂ)) ^ i * (Complex.I * ((3 / 5 * k : ℝ) : ℂ)) ^ j)
    have e1 : (fun t => eJet k i j t y) = fun t : ℝ => (Complex.I * ((4 / 5 * k : ℝ) : ℂ)) ^ i * (Complex.I * ((3 / 5 * k : ℝ) : ℂ)) ^ j *
        Complex.exp (Complex.I * (((4 / 5 * k : ℝ) : ℂ) * t + ((3 / 5 * k * y : ℝ) : ℂ))) := by
      funext t; unfold eJet eExpected; push_cast; rfl
    rw [e1]
    refine h.congr_deriv ?_
    unfold eJet eExpected; push_cast; ring
  · intro i j _ x y
    have h := (hx ((3 / 5 * k : ℝ) : ℂ) ((4 / 5 * k * x : ℝ) : ℂ) y).const_mul
      ((Complex.I * ((4 / 5 * k : ℝ) : ℂ)) ^ i * (Complex.I * ((3 / 5 * k : ℝ) : ℂ)) ^ j)
    have e1 : (fun t => eJet k i j x t) = fun t : ℝ => (Complex.I * ((4 / 5 * k : ℝ) : ℂ)) ^ i * (Complex.I * ((3 / 5 * k : ℝ) : ℂ)) ^ j *
        Complex.exp (Complex.I * (((3 / 5 * k : ℝ) : ℂ) * t + ((4 / 5 * k * x : ℝ) : ℂ))) := by
      funext t; unfold eJet eExpected; push_cast
      rw [add_comm]
    rw [e1]
    refine h.congr_deriv ?_
    unfold eJet eExpected; push_cast
    rw [add_comm (3 / 5 * (k : ℂ) * y)]
    ring

theorem eJet_norm (k : ℝ) (i j : ℕ) (x y : ℝ) : ‖eJet k i j x y‖ ≤ |k| ^ (i + j) := by
  unfold eJet eExpected
  simp only
  rw [mul_comm Complex.I ((4 / 5 * k * x + 3 / 5 * k * y : ℝ) : ℂ), norm_mul, Complex.norm_exp_ofReal_mul_I, mul_one, norm_mul,
    norm_pow, norm_pow, norm_mul, norm_mul, Complex.norm_I, one_mul, one_mul, Complex.norm_real, Complex.norm_real,
    Real.norm_eq_abs, Real.norm_eq_abs, pow_add, abs_mul, abs_mul]
  have h0 := abs_nonneg k
  have h1 : |(4 / 5 : ℝ)| * |k| ≤ |k| := by rw [abs_of_pos (by norm_num)]; linarith
  have h2 : |(3 / 5 : ℝ)| * |k| ≤ |k| := by rw [abs_of_pos (by norm_num)]; linarith
  gcongr

theorem eJet_helm (k x y : ℝ) : helm (eJet k) k x y = 0 := by
  unfold helm eJet
  push_cast
  simp only [mul_pow, Complex.I_sq]
  ring

/-- **C80** the plane wave: one constant `m` for all grids, and the error of the computed array is bounded by the error of the
extension vector and the truncation error -/
theorem C80_plane_wave : ∃ m : ℝ, 0 < m ∧ ∀ {iter : Iter} {e : Env} {n : ℕ} {G : PsGrids},
    Setup iter e n 4 smoothK G → e.AD = probAD → ∀ {δ : ℝ}, 0 ≤ δ → ∀ ext : List ℂ, ext.length = G.unionGamma.length →
    (∀ l : Fin G.unionGamma.length, ‖ext.getD l 0 - (eExpected smoothK (e.coord G.unionGamma[l]).1 (e.coord G.unionGamma[l]).2).1‖ ≤ δ) →
    ∃ s w : Arr n, calcApSolF iter e 4 smoothK G (fun _ _ => 0) = .ok s ∧ regularPart iter e 4 smoothK G ext s = .ok w ∧
      ∀ q ∈ G.Nplus, ‖node w q.1 q.2 - (eExpected smoothK (e.coord q).1 (e.coord q).2).1‖ ≤
        e.N * ((1 + (8 / (probAD / e.N) ^ 2 + smoothK ^ 2) / m) * δ + 11 / 180 * smoothK ^ 6 * (probAD / e.N) ^ 4 / m) := by
  obtain ⟨m, hm, hlow⟩ := C80_shipped_uniform (order := 4) (Or.inr rfl) (k := smoothK) (Or.inl rfl)
  refine ⟨m, hm, fun {iter e n G} S hAD {δ} hδ ext hl hext => ?_⟩
  have hk : |smoothK| = smoothK := abs_of_pos (by unfold smoothK; norm_num)
  have e0 : ∀ x y, eJet smoothK 0 0 x y = (eExpected smoothK x y).1 := fun x y => by unfold eJet; simp
  obtain ⟨s, w, h1, h2, -, h3⟩ := C80_rate S (by rw [hAD]; unfold probAD; have := pi_pos; positivity) hm (by rw [hAD]; exact hlow n)
    (eJet_jet smoothK 6) (M := smoothK ^ 6) (T := 0) le_rfl hδ
    (fun i j hij x y _ _ => by have := eJet_norm smoothK i j x y; rwa [hij, hk] at this) (fun _ _ => 0)
    (fun q _ => by rw [eJet_helm, sub_zero]; unfold fullNode; split <;> simp) ext hl
    (fun l => by have := hext l; rw [e0]; simpa [hl] using this)
  refine ⟨s, w, h1, h2, fun q hq => ?_⟩
  have := h3 q hq
  rw [e0, add_zero, hAD] at this
  exact this

/-- the shipped boundaries on every grid with at least 16 cells per side -/
theorem setup_shipped {iter : Iter} (hit : IsIter iter) {b : Brentq} (hb : BrentqSpec b) {n order : ℕ} (hN : 16 ≤ n + 1)
    (ho : order = 2 ∨ order = 4) {name : String} {r : ℝ → ℝ} (h : chooseBoundary name = .ok r) {k : ℝ}
    (hz : NoZeroEig n order probAD k) : ∃ G, Setup iter (mkEnv b (n + 1) probAD probA probR r) n order k G := by
  have hpi := pi_pos
  have T := chooseBoundary_tame h
  have g := T.gentleAt hN
  have hAD : 0 < probAD := by unfold probAD; positivity
  have ha := g.apos
  have haπ := g.aπ
  obtain ⟨G, hG, hd⟩ := C12_gentle hit hb (n + 1) order hAD g T.regular
  refine ⟨G, hit, rfl, ho, hAD.ne', hz, hG, fun p hp => ?_⟩
  rw [(psGrids_sets hit hG).1] at hp
  exact C11_margin _ (Nat.succ_pos n) hAD (Rmax := 2.45) T.max ha (by show probA ≤ 4 * π; linarith) (shipped_margin hN) p
    ((mem_Mplus hit _ _ _ _).1 hp).2

/-- the hypotheses are met: on every grid and every shipped boundary, with the exact values of the plane wave on the discrete
boundary, the computed array differs from the plane wave by at most a constant times `h³` -/
example : ∃ C : ℝ, ∀ {iter : Iter}, IsIter iter → ∀ {b : Brentq}, BrentqSpec b → ∀ {n : ℕ}, 16 ≤ n + 1 → ∀ {name : String}
    {r : ℝ → ℝ}, chooseBoundary name = .ok r → ∃ G, Setup iter (mkEnv b (n + 1) probAD probA probR r) n 4 smoothK G ∧
    ∃ s w : Arr n, calcApSolF iter (mkEnv b (n + 1) probAD probA probR r) 4 smoothK G (fun _ _ => 0) = .ok s ∧
      regularPart iter (mkEnv b (n + 1) probAD probA probR r) 4 smoothK G (G.unionGamma.map fun q =>
        (eExpected smoothK (getCoord probAD (n + 1) q.1 q.2).1 (getCoord probAD (n + 1) q.1 q.2).2).1) s = .ok w ∧
      ∀ q ∈ G.Nplus, ‖node w q.1 q.2 - (eExpected smoothK (getCoord probAD (n + 1) q.1 q.2).1 (getCoord probAD (n + 1) q.1 q.2).2).1‖ ≤
        C * (probAD / (n + 1 : ℕ)) ^ 3 := by
  obtain ⟨m, hm, H⟩ := C80_plane_wave
  refine ⟨probAD * (11 / 180 * smoothK ^ 6) / m, fun {iter} hit {b} hb {n} hN {name r} h => ?_⟩
  obtain ⟨G, S⟩ := setup_shipped hit hb hN (Or.inr rfl) h (C78_shipped n (Or.inr rfl)).1
  obtain ⟨s, w, h1, h2, h3⟩ := H S rfl (δ := 0) le_rfl (G.unionGamma.map fun q =>
        (eExpected smoothK (getCoord probAD (n + 1) q.1 q.2).1 (getCoord probAD (n + 1) q.1 q.2).2).1) (by simp)
    (fun l => by
      rw [List.getD_eq_getElem?_getD, List.getElem?_map, List.getElem?_eq_getElem l.2]
      simp only [Option.map_some, Option.getD_some]
      rw [norm_le_zero_iff, sub_eq_zero]
      rfl)
  refine ⟨G, S, s, w, h1, h2, fun q hq => (h3 q hq).trans (le_of_eq ?_)⟩
  have hn : ((n + 1 : ℕ) : ℝ) ≠ 0 := by positivity
  show ((n + 1 : ℕ) : ℝ) * (_ * 0 + 11 / 180 * smoothK ^ 6 * (probAD / (n + 1 : ℕ)) ^ 4 / m) = _
  field_simp
  ring

end Pot
