import Verif.Proofs.RoundedNat

/-! # The ties along the side `θ = a` on grids of a power of two -/

namespace Pot
open Real Spec

theorem tieStep_iff {n d c : ℕ} : tieStep n d c = true ↔ rnOk n d = true ∧ rnExp n d ≤ c := by
  unfold tieStep; simp

/-- what the table says about one tie -/
structure TieOk (t : ℕ) : Prop where
  s1 : rnOk (tA * (t + 2)) 1 = true ∧ rnExp (tA * (t + 2)) 1 ≤ 20
  s2 : rnOk (tA * t) 1 = true ∧ rnExp (tA * t) 1 ≤ 20
  s3 : rnOk (tX (t + 2) * 2 ^ 53) (2 ^ 53 - 1) = true ∧ rnExp (tX (t + 2) * 2 ^ 53) (2 ^ 53 - 1) ≤ 20
  s4 : rnOk (tQ t + tX t) 1 = true ∧ rnExp (tQ t + tX t) 1 ≤ 20
  even : tS t % 2 = 0
  s5 : rnOk ((2 ^ 53 - 1) * tX1 t) (2 ^ 53) = true ∧ rnExp ((2 ^ 53 - 1) * tX1 t) (2 ^ 53) ≤ 20
  u0 : tX1 t < tX (t + 2)
  w0 : tX t < tY1 t
  u1 : tU t < 2 ^ 53
  w1 : tW t < 2 ^ 53
  s6 : rnOk (tU t ^ 2) 1 = true ∧ rnExp (tU t ^ 2) 1 ≤ 60
  s7 : rnOk (tW t ^ 2) 1 = true ∧ rnExp (tW t ^ 2) 1 ≤ 60
  s8 : rnOk (rn (tU t ^ 2) 1 + rn (tW t ^ 2) 1) 1 = true ∧ rnExp (rn (tU t ^ 2) 1 + rn (tW t ^ 2) 1) 1 ≤ 60
  l6 : 40 ≤ rnExp (tU t ^ 2) 1
  l7 : 40 ≤ rnExp (tW t ^ 2) 1
  l8 : 40 ≤ rnExp (rn (tU t ^ 2) 1 + rn (tW t ^ 2) 1) 1

theorem tie_facts {t : ℕ} (h : tieSteps t = true) : TieOk t := by
  unfold tieSteps at h
  simp only [Bool.and_eq_true, decide_eq_true_eq, tieStep_iff, and_assoc] at h
  obtain ⟨a1, a1', a2, a2', a3, a3', a4, a4', ev, a5, a5', u0, w0, u1, w1, a6, a6', a7, a7', a8, a8', l6, l7, l8⟩ := h
  exact ⟨⟨a1, a1'⟩, ⟨a2, a2'⟩, ⟨a3, a3'⟩, ⟨a4, a4'⟩, ev, ⟨a5, a5'⟩, u0, w0, u1, w1, ⟨a6, a6'⟩, ⟨a7, a7'⟩, ⟨a8, a8'⟩, l6, l7, l8⟩

section
variable {F : Fl} (h : RoundsToNearest F.rnd)
include h

theorem rnd_fixed_nat {n : ℕ} (k : ℕ) (hn : n < 2 ^ 53) (hk : k ≤ 1000) : F.rnd (n / 2 ^ k) = n / 2 ^ k := by
  have hnr : (n : ℝ) < 2 ^ 53 := by exact_mod_cast hn
  refine Rnd.fixed h ?_ ⟨n, -k, by rw [abs_of_nonneg (by positivity)]; exact_mod_cast hn, by omega, by omega, ?_⟩
  · rw [abs_of_nonneg (by positivity)]
    have : (n : ℝ) / 2 ^ k ≤ n := div_le_self (by positivity) (one_le_pow₀ (by norm_num))
    refine (this.trans hnr.le).trans ?_
    exact pow_le_pow_right₀ (by norm_num) (by norm_num)
  · rw [zpow_neg, zpow_natCast, ← div_eq_mul_inv]; push_cast; rfl

/-- the coordinate of a node `u` steps from the centre of a grid of `2^k` cells -/
theorem coord_pow2 (he : TiesToEven F.rnd) {k u : ℕ} (hk : 1 ≤ k) (hk2 : k ≤ 40) (hu : u < 2 ^ 50) (ok : rnOk (tA * u) 1 = true)
    (hex : rnExp (tA * u) 1 ≤ 20) :
    coordF F F.AD (2 ^ k) ((2 ^ k / 2 : ℕ) + u : ℕ) = (tX u : ℝ) / 2 ^ (50 + k) := by
  obtain ⟨l, rfl⟩ : ∃ l, k = l + 1 := ⟨k - 1, by omega⟩
  have e0 : 2 ^ (l + 1) / 2 = 2 ^ l := by rw [pow_succ]; omega
  have hl : (2 : ℕ) ^ l ≤ 2 ^ 39 := Nat.pow_le_pow_right (by norm_num) (by omega)
  have e1 : F.rnd ((((2 ^ l + u : ℕ) : ℤ) : ℝ) / ((2 ^ (l + 1) : ℕ) : ℝ)) = ((2 ^ l + u : ℕ) : ℝ) / 2 ^ (l + 1) := by
    have := rnd_fixed_nat h (n := 2 ^ l + u) (l + 1) (by omega) (by omega)
    push_cast at this ⊢
    exact this
  have e2 : F.rnd (((2 ^ l + u : ℕ) : ℝ) / 2 ^ (l + 1) - 1 / 2) = (u : ℝ) / 2 ^ (l + 1) := by
    rw [← rnd_fixed_nat h (n := u) (l + 1) (by omega) (by omega)]
    congr 1
    push_cast
    rw [pow_succ]; field_simp; ring
  unfold coordF
  rw [e0, e1, e2, AD_value h]
  have := rn_spec h he (n := tA * u) (d := 1) (50 + (l + 1)) (by norm_num) ok (by omega) (by omega)
  unfold tX
  rw [← this]
  congr 1
  unfold tA
  push_cast
  rw [pow_add]
  field_simp
  ring

theorem threshold_pow2 (he : TiesToEven F.rnd) {k : ℕ} (hk2 : k ≤ 40) :
    F.rnd (F.rnd (F.AD / (2 ^ k : ℕ)) * F.rnd √2) = (tT : ℝ) / 2 ^ (50 + k) := by
  have e1 : F.rnd (F.AD / (2 ^ k : ℕ)) = (tA : ℝ) / 2 ^ (50 + k) := by
    rw [← rnd_fixed_nat h (n := tA) (50 + k) (by unfold tA; norm_num) (by omega), AD_value h]
    congr 1
    unfold tA
    push_cast
    rw [pow_add]; field_simp
  rw [e1, sqrt_two_value h]
  have ok : rnOk (tA * 6369051672525773) (2 ^ 52) = true := by decide +kernel
  have ex : rnExp (tA * 6369051672525773) (2 ^ 52) = 1 := by decide +kernel
  have va : rn (tA * 6369051672525773) (2 ^ 52) = tT := by decide +kernel
  have := rn_spec h he (50 + k) (by norm_num) ok (by omega) (by omega)
  rw [va] at this
  rw [← this]
  congr 1
  push_cast
  field_simp
  norm_num

end

theorem rn_double {n d : ℕ} (ok : rnOk n d = true) {z : ℤ} (h1 : -1074 ≤ rnExp n d + z) (h2 : rnExp n d + z ≤ 971) :
    IsDouble ((rn n d : ℝ) * (2 : ℝ) ^ z) := by
  unfold rnOk at ok
  simp only [Bool.and_eq_true, decide_eq_true_eq] at ok
  refine ⟨((if rnUp n d then rnQuot n d + 1 else rnQuot n d : ℕ) : ℤ), rnExp n d + z, ?_, h1, h2, ?_⟩
  · rw [abs_of_nonneg (by positivity)]
    have := ok.2
    split_ifs <;> exact_mod_cast (by omega)
  · unfold rn
    rw [zpow_add₀ two_ne_zero, zpow_natCast]
    push_cast
    ring

section
variable {F : FlLib} (h : RoundsToNearest F.rnd)
include h

/-- the foot of the perpendicular, as computed -/
theorem foot_pow2 (he : TiesToEven F.rnd) (hm : F.tan F.a = 1 - 1 / 2 ^ 53) {t k : ℕ} (ok : TieOk t) (hk2 : k ≤ 40) :
    getRadiusPointF F F.a ((tX (t + 2) : ℝ) / 2 ^ (50 + k)) ((tX t : ℝ) / 2 ^ (50 + k)) =
      ((tX1 t : ℝ) / 2 ^ (50 + k), (tY1 t : ℝ) / 2 ^ (50 + k)) := by
  obtain ⟨K, hK⟩ : ∃ K, K = 50 + k := ⟨_, rfl⟩
  rw [← hK]
  have e1 : F.rnd ((tX (t + 2) : ℝ) / 2 ^ K / (1 - 1 / 2 ^ 53)) = (tQ t : ℝ) / 2 ^ K := by
    have := rn_spec h he K (by norm_num) ok.s3.1 (by have := ok.s3.2; omega) (by omega)
    unfold tQ
    rw [← this]
    congr 1
    push_cast [show (1 : ℕ) ≤ 2 ^ 53 by norm_num]
    field_simp
    norm_num
    ring
  have e2 : F.rnd ((tQ t : ℝ) / 2 ^ K + (tX t : ℝ) / 2 ^ K) = (tS t : ℝ) / 2 ^ K := by
    have := rn_spec h he K (by norm_num) ok.s4.1 (by have := ok.s4.2; omega) (by omega)
    unfold tS
    rw [← this]
    congr 1
    push_cast
    ring
  have e3 : F.rnd (1 / (1 - 1 / 2 ^ 53)) = 4503599627370497 / 2 ^ 52 :=
    rnd_eq h 4503599627370497 52 (by norm_num) (by norm_num) (by norm_num) (by norm_num) (by rw [abs_lt]; norm_num)
  have e4 : F.rnd (1 - 1 / 2 ^ 53 + 4503599627370497 / 2 ^ 52) = 4503599627370496 / 2 ^ 51 :=
    rnd_eq_up h 4503599627370496 51 (by norm_num) (by norm_num) (by norm_num) (by norm_num) (by norm_num) (by norm_num)
  have hS2 : (tS t : ℝ) = 2 * (tX1 t : ℝ) := by
    have : tS t = 2 * tX1 t := by have := ok.even; unfold tX1; omega
    exact_mod_cast this
  have e5 : F.rnd ((tS t : ℝ) / 2 ^ K / (4503599627370496 / 2 ^ 51)) = (tX1 t : ℝ) / 2 ^ K := by
    have e : (tS t : ℝ) / 2 ^ K / (4503599627370496 / 2 ^ 51) = (tX1 t : ℝ) / 2 ^ K := by
      rw [hS2]; field_simp; norm_num; ring
    rw [e]
    have hd : (tX1 t : ℝ) / 2 ^ K = (tS t : ℝ) * (2 : ℝ) ^ (-(K + 1 : ℤ)) := by
      rw [hS2, zpow_neg, zpow_add₀ two_ne_zero, zpow_natCast]; norm_num; field_simp
    refine Rnd.fixed h ?_ ?_
    · rw [abs_of_nonneg (by positivity)]
      have hb : (tX1 t : ℝ) ≤ 2 ^ 80 := by
        have h4 := ok.s4
        unfold rnOk at h4
        simp only [Bool.and_eq_true, decide_eq_true_eq] at h4
        have l1 : tS t ≤ 2 ^ 53 * 2 ^ 20 := by
          unfold tS rn
          refine Nat.mul_le_mul ?_ (Nat.pow_le_pow_right (by norm_num) h4.2)
          have := h4.1.2
          split_ifs <;> omega
        have l2 : (tS t : ℝ) ≤ 2 ^ 53 * 2 ^ 20 := by exact_mod_cast l1
        rw [hS2] at l2
        exact le_trans (by linarith [(Nat.cast_nonneg (tX1 t) : (0 : ℝ) ≤ _)]) (show (2 : ℝ) ^ 53 * 2 ^ 20 ≤ 2 ^ 80 by norm_num)
      calc (tX1 t : ℝ) / 2 ^ K ≤ tX1 t := div_le_self (by positivity) (one_le_pow₀ (by norm_num))
        _ ≤ 2 ^ 80 := hb
        _ ≤ 2 ^ 1000 := pow_le_pow_right₀ (by norm_num) (by norm_num)
    · rw [hd]
      exact rn_double ok.s4.1 (by omega) (by have := ok.s4.2; omega)
  have e6 : F.rnd ((1 - 1 / 2 ^ 53) * ((tX1 t : ℝ) / 2 ^ K)) = (tY1 t : ℝ) / 2 ^ K := by
    have := rn_spec h he K (by norm_num) ok.s5.1 (by have := ok.s5.2; omega) (by omega)
    unfold tY1
    rw [← this]
    congr 1
    push_cast [show (1 : ℕ) ≤ 2 ^ 53 by norm_num]
    field_simp
    norm_num
    ring
  unfold getRadiusPointF
  rw [if_neg (a_ne_half_pi h), hm]
  dsimp only
  rw [e1, e2, e3, e4, e5, e6]

theorem sq_pow2 (he : TiesToEven F.rnd) (hsq : SquareRounded F.rnd F.sq) {n : ℕ} {K : ℕ} (hn : 0 < n) (hn2 : n < 2 ^ 53) (hK : 50 ≤ K)
    (hK2 : K ≤ 70) (s : ℝ) (hs : s = 1 ∨ s = -1) (ok : rnOk (n ^ 2) 1 = true) (l : 40 ≤ rnExp (n ^ 2) 1) (u : rnExp (n ^ 2) 1 ≤ 60) :
    F.sq (F.rnd (s * (n / 2 ^ K))) = (rn (n ^ 2) 1 : ℝ) / 2 ^ (2 * K) := by
  have hnr : (n : ℝ) < 2 ^ 53 := by exact_mod_cast hn2
  have hn1 : (1 : ℝ) ≤ n := by exact_mod_cast hn
  have hKp : (2 : ℝ) ^ K ≤ 2 ^ 70 := pow_le_pow_right₀ (by norm_num) hK2
  have hKp1 : (1 : ℝ) ≤ 2 ^ K := one_le_pow₀ (by norm_num)
  have habs : |s * ((n : ℝ) / 2 ^ K)| = n / 2 ^ K := by
    rw [abs_mul, abs_of_nonneg (by positivity : (0 : ℝ) ≤ (n : ℝ) / 2 ^ K)]
    rcases hs with rfl | rfl <;> norm_num
  have hle : (n : ℝ) / 2 ^ K ≤ 2 ^ 53 := (div_le_self (by positivity) hKp1).trans hnr.le
  have hd : IsDouble (s * (n / 2 ^ K)) := by
    rcases hs with rfl | rfl
    · exact ⟨n, -K, by rw [abs_of_nonneg (by positivity)]; exact_mod_cast hn2, by omega, by omega, by
        rw [zpow_neg, zpow_natCast, ← div_eq_mul_inv]; push_cast; ring⟩
    · exact ⟨-n, -K, by rw [abs_neg, abs_of_nonneg (by positivity)]; exact_mod_cast hn2, by omega, by omega, by
        rw [zpow_neg, zpow_natCast, ← div_eq_mul_inv]; push_cast; ring⟩
  rw [Rnd.fixed h (by rw [habs]; exact hle.trans (pow_le_pow_right₀ (by norm_num) (by norm_num))) hd, hsq _ hd]
  · have := rn_spec h he (2 * K) (by norm_num) ok (by omega) (by omega)
    rw [← this]
    congr 1
    rw [mul_pow, show s ^ 2 = 1 by rcases hs with rfl | rfl <;> norm_num]
    push_cast
    rw [pow_mul']
    ring
  · right
    rw [habs]
    refine ⟨?_, hle.trans (pow_le_pow_right₀ (by norm_num) (by norm_num))⟩
    rw [div_le_div_iff₀ (by positivity) (by positivity)]
    have q1 : (2 : ℝ) ^ 70 ≤ 2 ^ 400 := pow_le_pow_right₀ (by norm_num) (by norm_num)
    rw [one_mul]
    exact (hKp.trans q1).trans (le_mul_of_one_le_left (by positivity) hn1)

/-- the computed distance -/
theorem tie_dist (he : TiesToEven F.rnd) (hsq : SquareRounded F.rnd F.sq) (hm : F.tan F.a = 1 - 1 / 2 ^ 53) {t k : ℕ} (ok : TieOk t)
    (ht : t ≤ 20000) (hk : 1 ≤ k) (hk2 : k ≤ 20) :
    distToRadiusF F F.a (coordF F.toFl F.AD (2 ^ k) ((2 ^ k / 2 : ℕ) + (t + 2) : ℕ)) (coordF F.toFl F.AD (2 ^ k) ((2 ^ k / 2 : ℕ) + t : ℕ))
      = F.rnd √((tD t : ℝ) / 2 ^ (2 * (50 + k))) := by
  rw [coord_pow2 h he hk (by omega) (by omega) ok.s1.1 ok.s1.2, coord_pow2 h he hk (by omega) (by omega) ok.s2.1 ok.s2.2]
  unfold distToRadiusF
  rw [foot_pow2 h he hm ok (by omega)]
  obtain ⟨K, hK⟩ : ∃ K, K = 50 + k := ⟨_, rfl⟩
  rw [← hK]
  unfold dformulaF
  dsimp only
  have hU : (tX1 t : ℝ) / 2 ^ K - (tX (t + 2) : ℝ) / 2 ^ K = -1 * ((tU t : ℝ) / 2 ^ K) := by
    unfold tU
    rw [Nat.cast_sub ok.u0.le]; ring
  have hW : (tY1 t : ℝ) / 2 ^ K - (tX t : ℝ) / 2 ^ K = 1 * ((tW t : ℝ) / 2 ^ K) := by
    unfold tW
    rw [Nat.cast_sub ok.w0.le]; ring
  have u0 : 0 < tU t := by have := ok.u0; unfold tU; omega
  have w0 : 0 < tW t := by have := ok.w0; unfold tW; omega
  rw [hU, hW, sq_pow2 h he hsq u0 ok.u1 (by omega) (by omega) (-1) (Or.inr rfl) ok.s6.1 ok.l6 ok.s6.2,
    sq_pow2 h he hsq w0 ok.w1 (by omega) (by omega) 1 (Or.inl rfl) ok.s7.1 ok.l7 ok.s7.2]
  have e8 : F.rnd ((rn (tU t ^ 2) 1 : ℝ) / 2 ^ (2 * K) + (rn (tW t ^ 2) 1 : ℝ) / 2 ^ (2 * K)) = (tD t : ℝ) / 2 ^ (2 * K) := by
    have := rn_spec h he (2 * K) (by norm_num) ok.s8.1 (by have := ok.s8.2; omega) (by have := ok.l8; omega)
    unfold tD
    rw [← this]
    congr 1
    push_cast
    ring
  rw [e8]

/-- the ties pass the test: the computed distance is at most the computed threshold -/
theorem tie_passes (he : TiesToEven F.rnd) (hsq : SquareRounded F.rnd F.sq) (hm : F.tan F.a = 1 - 1 / 2 ^ 53) {t k : ℕ} (h1 : 2 ≤ t)
    (h2 : t ≤ 8501) (hk : 1 ≤ k) (hk2 : k ≤ 20) :
    distToRadiusF F F.a (coordF F.toFl F.AD (2 ^ k) ((2 ^ k / 2 : ℕ) + (t + 2) : ℕ)) (coordF F.toFl F.AD (2 ^ k) ((2 ^ k / 2 : ℕ) + t : ℕ))
      ≤ F.rnd (F.rnd (F.AD / (2 ^ k : ℕ)) * F.rnd √2) := by
  have htab := tie_ok h1 h2
  unfold tieOk at htab
  rw [Bool.and_eq_true, decide_eq_true_eq] at htab
  rw [tie_dist h he hsq hm (tie_facts htab.1) (by omega) hk hk2, threshold_pow2 h he (by omega)]
  obtain ⟨K, hK⟩ : ∃ K, K = 50 + k := ⟨_, rfl⟩
  rw [← hK]
  have hK0 : (0 : ℝ) < 2 ^ K := by positivity
  have hK1 : (1 : ℝ) ≤ 2 ^ K := one_le_pow₀ (by norm_num)
  have hD : (tD t : ℝ) < (tT + 1) ^ 2 := by exact_mod_cast htab.2
  have hlt : √((tD t : ℝ) / 2 ^ (2 * K)) < (tT + 1) / 2 ^ K := by
    rw [sqrt_lt' (by positivity), div_pow, ← pow_mul, mul_comm K 2]
    exact div_lt_div_of_pos_right hD (by positivity)
  have hTd : F.rnd ((tT : ℝ) / 2 ^ K) = (tT : ℝ) / 2 ^ K := by
    have := rnd_fixed_nat (F := F.toFl) h (n := 5002241486185188) (K - 1) (by norm_num) (by omega)
    obtain ⟨L, hL⟩ : ∃ L, K = L + 1 := ⟨K - 1, by omega⟩
    rw [hL] at this ⊢
    simp only [Nat.add_sub_cancel] at this
    have e : (tT : ℝ) / 2 ^ (L + 1) = ((5002241486185188 : ℕ) : ℝ) / 2 ^ L := by
      unfold tT; rw [pow_succ]; push_cast; field_simp; norm_num
    rw [e]; exact this
  have hTb : ((tT : ℝ) + 1) / 2 ^ K ≤ 2 ^ 1000 := by
    have : ((tT : ℝ) + 1) / 2 ^ K ≤ tT + 1 := div_le_self (by positivity) hK1
    refine this.trans (le_trans ?_ (pow_le_pow_right₀ (by norm_num) (show 60 ≤ 1000 by norm_num)))
    unfold tT; norm_num
  rcases le_total (√((tD t : ℝ) / 2 ^ (2 * K))) ((tT : ℝ) / 2 ^ K) with c | c
  · rw [← hTd]
    have b2 : |(tT : ℝ) / 2 ^ K| ≤ 2 ^ 1000 := by
      rw [abs_of_nonneg (by positivity)]
      exact le_trans (div_le_div_of_nonneg_right (by linarith) hK0.le) hTb
    refine Rnd.mono h ?_ b2 c
    rw [abs_of_nonneg (sqrt_nonneg _)]
    exact hlt.le.trans hTb
  · refine le_of_eq (rnd_eq_up h 5002241486185188 (K - 1) ?_ (by norm_num) (by norm_num) (by omega) c ?_)
    · obtain ⟨L, hL⟩ : ∃ L, K = L + 1 := ⟨K - 1, by omega⟩
      rw [hL, Nat.add_sub_cancel]
      unfold tT; rw [pow_succ]; push_cast; field_simp; norm_num
    · rw [show K - 1 + 1 = K by omega]
      rw [add_div] at hlt
      linarith

/-- the tie that fails the test -/
theorem tie_fails (he : TiesToEven F.rnd) (hsq : SquareRounded F.rnd F.sq) (hm : F.tan F.a = 1 - 1 / 2 ^ 53) {k : ℕ} (hk : 1 ≤ k)
    (hk2 : k ≤ 20) : F.rnd (F.rnd (F.AD / (2 ^ k : ℕ)) * F.rnd √2) <
      distToRadiusF F F.a (coordF F.toFl F.AD (2 ^ k) ((2 ^ k / 2 : ℕ) + (10429 + 2) : ℕ)) (coordF F.toFl F.AD (2 ^ k) ((2 ^ k / 2 : ℕ) + 10429 : ℕ)) := by
  rw [tie_dist h he hsq hm (tie_facts (by decide +kernel : tieSteps 10429 = true)) (by norm_num) hk hk2, threshold_pow2 h he (by omega)]
  obtain ⟨K, hK⟩ : ∃ K, K = 50 + k := ⟨_, rfl⟩
  rw [← hK]
  have htab : (tT + 2) ^ 2 ≤ tD 10429 ∧ tD 10429 ≤ (tT + 2000) ^ 2 := by decide +kernel
  have hD : ((tT : ℝ) + 2) ^ 2 ≤ tD 10429 := by exact_mod_cast htab.1
  have hD2 : (tD 10429 : ℝ) ≤ ((tT : ℝ) + 2000) ^ 2 := by exact_mod_cast htab.2
  have hK1 : (1 : ℝ) ≤ 2 ^ K := one_le_pow₀ (by norm_num)
  have e : F.rnd (((tT : ℝ) + 2) / 2 ^ K) = ((tT : ℝ) + 2) / 2 ^ K := by
    have := rnd_fixed_nat (F := F.toFl) h (n := 5002241486185189) (K - 1) (by norm_num) (by omega)
    obtain ⟨L, hL⟩ : ∃ L, K = L + 1 := ⟨K - 1, by omega⟩
    rw [hL] at this ⊢
    simp only [Nat.add_sub_cancel] at this
    have e : ((tT : ℝ) + 2) / 2 ^ (L + 1) = ((5002241486185189 : ℕ) : ℝ) / 2 ^ L := by
      unfold tT; rw [pow_succ]; push_cast; field_simp; norm_num
    rw [e]; exact this
  have hb : ((tT : ℝ) + 2000) / 2 ^ K ≤ 2 ^ 1000 := by
    have : ((tT : ℝ) + 2000) / 2 ^ K ≤ tT + 2000 := div_le_self (by positivity) hK1
    refine this.trans (le_trans ?_ (pow_le_pow_right₀ (by norm_num) (show 60 ≤ 1000 by norm_num)))
    unfold tT; norm_num
  have l1 : ((tT : ℝ) + 2) / 2 ^ K ≤ √((tD 10429 : ℝ) / 2 ^ (2 * K)) := by
    refine le_sqrt_of_sq_le ?_
    rw [div_pow, ← pow_mul, mul_comm K 2]
    exact div_le_div_of_nonneg_right hD (by positivity)
  have l2 : √((tD 10429 : ℝ) / 2 ^ (2 * K)) ≤ ((tT : ℝ) + 2000) / 2 ^ K := by
    refine sqrt_le_iff.2 ⟨by positivity, ?_⟩
    rw [div_pow, ← pow_mul, mul_comm K 2]
    exact div_le_div_of_nonneg_right hD2 (by positivity)
  refine lt_of_lt_of_le (b := F.rnd (((tT : ℝ) + 2) / 2 ^ K)) ?_ (Rnd.mono h ?_ ?_ l1)
  · rw [e]
    exact div_lt_div_of_pos_right (by linarith) (by positivity)
  · rw [abs_of_nonneg (by positivity)]; exact (l1.trans l2).trans hb
  · rw [abs_of_nonneg (sqrt_nonneg _)]; exact l2.trans hb

end
end Pot
