import Verif.Proofs.PolarCertA
import Verif.Proofs.PolarCertB

/-! # Bounds for the modes on the grids of at most 64 cells -/

namespace Pot
open Real Finset Spec

/-- every mode of every grid of at most 64 cells -/
theorem cert_all {n D K j : ℕ} (hn : n ≤ 6) (hD : D = 88 ∨ D = 94 ∨ D = 108 ∨ D = 89 ∨ D = 91) (hK : K = 27 ∨ K = 43) (j0 : 0 < j) (j1 : j < 2 ^ n) :
    certMode n D K j = true := by
  have key : certBlock n D K 0 (2 ^ n - 1) := by
    rcases Nat.lt_or_eq_of_le hn with h | rfl
    · rcases hD with rfl | rfl | rfl | rfl | rfl <;> rcases hK with rfl | rfl
      · exact cert_88_27_low n h
      · exact cert_88_43_low n h
      · exact cert_94_27_low n h
      · exact cert_94_43_low n h
      · exact cert_108_27_low n h
      · exact cert_108_43_low n h
      · exact cert_89_27_low n h
      · exact cert_89_43_low n h
      · exact cert_91_27_low n h
      · exact cert_91_43_low n h
    · rcases hD with rfl | rfl | rfl | rfl | rfl <;> rcases hK with rfl | rfl
      · exact certBlock_join cert_88_27_0 cert_88_27_16 cert_88_27_32 cert_88_27_48
      · exact certBlock_join cert_88_43_0 cert_88_43_16 cert_88_43_32 cert_88_43_48
      · exact certBlock_join cert_94_27_0 cert_94_27_16 cert_94_27_32 cert_94_27_48
      · exact certBlock_join cert_94_43_0 cert_94_43_16 cert_94_43_32 cert_94_43_48
      · exact certBlock_join cert_108_27_0 cert_108_27_16 cert_108_27_32 cert_108_27_48
      · exact certBlock_join cert_108_43_0 cert_108_43_16 cert_108_43_32 cert_108_43_48
      · exact certBlock_join cert_89_27_0 cert_89_27_16 cert_89_27_32 cert_89_27_48
      · exact certBlock_join cert_89_43_0 cert_89_43_16 cert_89_43_32 cert_89_43_48
      · exact certBlock_join cert_91_27_0 cert_91_27_16 cert_91_27_32 cert_91_27_48
      · exact certBlock_join cert_91_43_0 cert_91_43_16 cert_91_43_32 cert_91_43_48
  have := key (j - 1) (by omega)
  rwa [show 0 + (j - 1) + 1 = j by omega] at this

theorem fpPi_has : fpPi.Has π := by
  have h1 := pi_gt_d20
  have h2 := pi_lt_d20
  have e : fpPi = ⟨314159265358979323846 * fpS / 100000000000000000000, 0, 792281627⟩ := by unfold fpPi fpS; norm_num
  have hm : (314159265358979323846 * fpS / 100000000000000000000 : ℕ) = 248902613312231085230312514221 := by unfold fpS; norm_num
  rw [e, hm]
  unfold Fp.Has Fp.mid fpS
  push_cast
  rw [abs_le]
  constructor
  · norm_num at h1 ⊢
    linarith
  · norm_num at h2 ⊢
    linarith

/-- the mode `j` on the grid of `2 ^ n ≤ 64` cells, for the shipped radii and wave numbers -/
theorem mode_cert {n D K : ℕ} (hn : n ≤ 6) (hD : D = 88 ∨ D = 94 ∨ D = 108 ∨ D = 89 ∨ D = 91) (hK : K = 27 ∨ K = 43) {h t k : ℝ} {ρ : ℤ → ℝ}
    (hh : h = D / 40 / 2 ^ n) (ht : t = 7 * π / 4 / 2 ^ n) (hk : k = K / 4) (hρ : ∀ m : ℤ, ρ m = 1 / 10 + m * h) {j : ℕ} (j0 : 0 < j) (j1 : j < 2 ^ n) :
    ModeStable h t k ρ (2 ^ n) j (((modeBd D K).getD n []).getD (j - 1) 0 / 1000) (((modeBd' D K).getD n []).getD (j - 1) 0 / 1000) := by
  have D0 : (0 : ℝ) < D := by rcases hD with rfl | rfl | rfl | rfl | rfl <;> norm_num
  have h0 : 0 < h := by rw [hh]; positivity
  have t0 : 0 < t := by rw [ht]; have := pi_pos; positivity
  have r0 : ∀ m : ℕ, 0 < ρ m := fun m => by rw [hρ]; positivity
  have hX : (fun m : ℕ => h / ρ m) = fun m : ℕ => (D : ℝ) / ((4 * 2 ^ n : ℕ) + m * D) := by
    funext m
    have e : ((4 * 2 ^ n : ℕ) : ℝ) + m * D = 40 * 2 ^ n * ρ m := by
      rw [hρ, hh]
      push_cast
      field_simp
      ring
    rw [e, hh, div_div, div_div, mul_assoc]
  have hσ : ((Fp.nat 2).sub ((Fp.nat 2).mul (Fp.ofInt (cosTab.getD (j * 2 ^ (6 - n)) 0) (cosRad n j)))).Has (2 - 2 * cos (π * j / ((2 ^ n : ℕ) : ℝ))) := by
    have i2 := Fp.nat_has 2
    have c := cosTab_has hn j j1.le
    push_cast at i2 ⊢
    exact Fp.sub_has i2 (Fp.mul_has i2 c)
  have hκ : (Fp.rat ((D * K) ^ 2) ((160 * 2 ^ n) ^ 2)).Has (h ^ 2 * k ^ 2) := by
    have := Fp.rat_has ((D * K) ^ 2) ((160 * 2 ^ n) ^ 2)
    have e : h ^ 2 * k ^ 2 = (((D * K) ^ 2 : ℕ) : ℝ) / (((160 * 2 ^ n) ^ 2 : ℕ) : ℝ) := by
      rw [hh, hk]
      push_cast
      field_simp
      ring
    rw [e]
    exact this
  have hy : (((Fp.nat 2).sub ((Fp.nat 2).mul (Fp.ofInt (cosTab.getD (j * 2 ^ (6 - n)) 0) (cosRad n j)))).mul
      ((Fp.nat (16 * (2 ^ n) ^ 2)).div ((Fp.nat 49).mul (fpPi.mul fpPi)))).Has (modeS t (2 ^ n) j) := by
    have i49 := Fp.nat_has 49
    have i16 := Fp.nat_has (16 * (2 ^ n) ^ 2)
    have hden := Fp.mul_has i49 (Fp.mul_has fpPi_has fpPi_has)
    have ho : ((Fp.nat 49).mul (fpPi.mul fpPi)).ok = true := by decide +kernel
    have e : modeS t (2 ^ n) j = (2 - 2 * cos (π * j / ((2 ^ n : ℕ) : ℝ))) * (((16 * (2 ^ n) ^ 2 : ℕ) : ℝ) / (((49 : ℕ) : ℝ) * (π * π))) := by
      unfold modeS
      rw [ht]
      have := pi_pos
      push_cast
      field_simp
      ring
    rw [e]
    exact Fp.mul_has hσ (Fp.div_has i16 hden ho)
  have hS := fpS_pos
  intro w T β hT hβ w0 wN hw m m0 m1
  obtain ⟨B, B', ht, hB⟩ : ∃ B B' : ℕ, (Nat.ble (B * (24000 * D ^ 2)) (((modeBd D K).getD n []).getD (j - 1) 0 * (fpS * (40 * 2 ^ n) ^ 2)) &&
      Nat.ble (B' * 1000) (((modeBd' D K).getD n []).getD (j - 1) 0 * fpS)) = true ∧
      ‖w m‖ ≤ (B : ℝ) / fpS * (24 * h ^ 2 * T) + (B' : ℝ) / fpS * β := by
    obtain ⟨B, B', ht, hB⟩ := stMode_sound hκ hσ hy Nat.one_le_two_pow (cert_all hn hD hK j0 j1) (w := fun m => w m) (T := 24 * h ^ 2 * T)
      (by positivity) hβ w0 wN (by
        rw [← hX]
        exact pv_scale h0.ne' t0.ne' (fun m _ => (r0 m).ne') hw)
    exact ⟨B, B', ht, hB m m0 m1⟩
  rw [Bool.and_eq_true, Nat.ble_eq, Nat.ble_eq] at ht
  obtain ⟨t1, t2⟩ := ht
  generalize ((modeBd D K).getD n []).getD (j - 1) 0 = M at *
  generalize ((modeBd' D K).getD n []).getD (j - 1) 0 = M' at *
  have t1' : (B : ℝ) * (24000 * D ^ 2) ≤ M * (fpS * (40 * 2 ^ n) ^ 2) := by exact_mod_cast t1
  have t2' : (B' : ℝ) * 1000 ≤ M' * fpS := by exact_mod_cast t2
  refine hB.trans (add_le_add ?_ (mul_le_mul_of_nonneg_right ?_ hβ))
  · rw [← mul_assoc]
    refine mul_le_mul_of_nonneg_right ?_ hT
    rw [hh, div_mul_eq_mul_div, div_le_div_iff₀ hS (by norm_num)]
    have e : (B : ℝ) * (24 * (D / 40 / 2 ^ n) ^ 2) * 1000 = B * (24000 * D ^ 2) / (40 * 2 ^ n) ^ 2 := by
      field_simp
      ring
    rw [e, div_le_iff₀ (by positivity)]
    linarith
  · rw [div_le_div_iff₀ hS (by norm_num)]
    linarith

theorem shipped_sums : ∀ D ∈ [88, 94, 108, 89, 91], ∀ K ∈ [27, 43], ∀ n < 7,
    2 * ∑ j ∈ range (2 ^ n - 1), ((modeBd D K).getD n []).getD j 0 ≤ 1000 * ((shippedStab D K).getD n (0, 0)).1 ∧
    2 * ∑ j ∈ range (2 ^ n - 1), ((modeBd' D K).getD n []).getD j 0 ≤ 1000 * ((shippedStab D K).getD n (0, 0)).2 := by decide +kernel

theorem shipped_lows : ∀ D ∈ [88, 94, 108, 89, 91], ∀ K ∈ [27, 43], ∀ n < 7, ∀ j < 7,
    ((modeBd D K).getD n []).getD j 0 ≤ 100 * ((shippedLow D K).getD n (0, 0)).1 ∧
    ((modeBd' D K).getD n []).getD j 0 ≤ 100 * ((shippedLow D K).getD n (0, 0)).2 := by decide +kernel

/-- the scheme on the grids of `2 ^ n ≤ 64` cells, for the shipped radii and wave numbers -/
theorem scheme_cert {n D K : ℕ} (hn : n ≤ 6) (hD : D = 88 ∨ D = 94 ∨ D = 108 ∨ D = 89 ∨ D = 91) (hK : K = 27 ∨ K = 43) {h t k : ℝ} {ρ : ℤ → ℝ}
    (hh : h = D / 40 / 2 ^ n) (ht : t = 7 * π / 4 / 2 ^ n) (hk : k = K / 4) (hρ : ∀ m : ℤ, ρ m = 1 / 10 + m * h) :
    SchemeStable h t k ρ (2 ^ n) ((shippedStab D K).getD n (0, 0)).1 ((shippedStab D K).getD n (0, 0)).2 := by
  have t0 : t ≠ 0 := by rw [ht]; have := pi_pos; positivity
  obtain ⟨s1, s2⟩ := shipped_sums D (by simpa using hD) K (by simpa using hK) n (by omega)
  have hS := schemeStable_of_modes (h := h) (k := k) (ρ := ρ) t0 (N := 2 ^ n) (κ := fun j => ((modeBd D K).getD n []).getD (j - 1) 0 / 1000)
    (κ' := fun j => ((modeBd' D K).getD n []).getD (j - 1) 0 / 1000)
    fun j j0 j1 => ⟨by positivity, by positivity, mode_cert hn hD hK hh ht hk hρ j0 j1⟩
  refine schemeStable_mono hS ?_ ?_
  · have s1' : 2 * ∑ j ∈ range (2 ^ n - 1), ((((modeBd D K).getD n []).getD j 0 : ℕ) : ℝ) ≤ 1000 * (((shippedStab D K).getD n (0, 0)).1 : ℕ) := by exact_mod_cast s1
    simp only [Nat.add_sub_cancel]
    rw [← sum_div]
    linarith
  · have s2' : 2 * ∑ j ∈ range (2 ^ n - 1), ((((modeBd' D K).getD n []).getD j 0 : ℕ) : ℝ) ≤ 1000 * (((shippedStab D K).getD n (0, 0)).2 : ℕ) := by exact_mod_cast s2
    simp only [Nat.add_sub_cancel]
    rw [← sum_div]
    linarith

/-- the first seven modes on the grids of `2 ^ n ≤ 64` cells, for the shipped radii and wave numbers -/
theorem low_cert {n D K : ℕ} (hn : n ≤ 6) (hD : D = 88 ∨ D = 94 ∨ D = 108 ∨ D = 89 ∨ D = 91) (hK : K = 27 ∨ K = 43) {h t k : ℝ} {ρ : ℤ → ℝ}
    (hh : h = D / 40 / 2 ^ n) (ht : t = 7 * π / 4 / 2 ^ n) (hk : k = K / 4) (hρ : ∀ m : ℤ, ρ m = 1 / 10 + m * h) {j : ℕ} (j0 : 0 < j) (j1 : j < 2 ^ n)
    (j7 : j ≤ 7) :
    ModeStable h t k ρ (2 ^ n) j (((shippedLow D K).getD n (0, 0)).1 / 10) (((shippedLow D K).getD n (0, 0)).2 / 10) := by
  obtain ⟨s1, s2⟩ := shipped_lows D (by simpa using hD) K (by simpa using hK) n (by omega) (j - 1) (by omega)
  intro w T β hT hβ w0 wN hw m m0 m1
  refine (mode_cert hn hD hK hh ht hk hρ j0 j1 w T β hT hβ w0 wN hw m m0 m1).trans ?_
  have s1' : ((((modeBd D K).getD n []).getD (j - 1) 0 : ℕ) : ℝ) ≤ 100 * (((shippedLow D K).getD n (0, 0)).1 : ℕ) := by exact_mod_cast s1
  have s2' : ((((modeBd' D K).getD n []).getD (j - 1) 0 : ℕ) : ℝ) ≤ 100 * (((shippedLow D K).getD n (0, 0)).2 : ℕ) := by exact_mod_cast s2
  exact add_le_add (mul_le_mul_of_nonneg_right (by linarith) hT) (mul_le_mul_of_nonneg_right (by linarith) hβ)

end Pot
