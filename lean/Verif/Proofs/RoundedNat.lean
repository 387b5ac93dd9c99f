import Verif.Proofs.RoundedEval
import Verif.Proofs.TieTable

/-! # Rounding to nearest even, computed with natural numbers -/

namespace Pot
open Real Spec

theorem tie_even {rnd : ℝ → ℝ} (he : TiesToEven rnd) {M : ℤ} (k : ℕ) (hM : 2 ^ 52 ≤ M) (hM2 : M < 2 ^ 53) (hk : k ≤ 100)
    (hev : Even M) : rnd ((M + 1 / 2) / 2 ^ k) = M / 2 ^ k ∧ (2 ^ 52 < M → rnd ((M - 1 / 2) / 2 ^ k) = M / 2 ^ k) := by
  have := he M (-k) hM hM2 (by omega) (by omega) hev
  rw [zpow_neg, zpow_natCast, ← div_eq_mul_inv, ← div_eq_mul_inv, ← div_eq_mul_inv] at this
  exact this

theorem rn_real {rnd : ℝ → ℝ} (h : RoundsToNearest rnd) (he : TiesToEven rnd) {q r D : ℕ} (k : ℕ) (hD : 0 < D) (hr : r < D)
    (hq : 2 ^ 52 ≤ q) (hq2 : q + 1 < 2 ^ 53) (hk : k ≤ 100) :
    rnd ((q + r / D) / 2 ^ k) =
      ((if decide (D < 2 * r) || (decide (2 * r = D) && decide (q % 2 = 1)) then q + 1 else q : ℕ) : ℝ) / 2 ^ k := by
  have hDr : (0 : ℝ) < D := by exact_mod_cast hD
  have hkp : (0 : ℝ) < 2 ^ k := by positivity
  have hq' : (2 ^ 52 : ℤ) ≤ (q : ℤ) := by exact_mod_cast hq
  have hq2' : (q : ℤ) + 1 < 2 ^ 53 := by exact_mod_cast hq2
  have e2 : (1 : ℝ) / 2 ^ (k + 1) = 1 / 2 / 2 ^ k := by rw [pow_succ]; field_simp
  have hr0 : (0 : ℝ) ≤ (r : ℝ) / D := by positivity
  rcases lt_trichotomy (2 * r) D with c | c | c
  · rw [if_neg (by simp; omega)]
    have hc : (r : ℝ) / D < 1 / 2 := by
      rw [div_lt_div_iff₀ hDr (by norm_num)]
      have : (2 * r : ℝ) < D := by exact_mod_cast c
      linarith
    refine rnd_eq_up h (q : ℤ) k (by push_cast; rfl) hq' (by omega) hk ?_ ?_
    · exact div_le_div_of_nonneg_right (by linarith) hkp.le
    · rw [← sub_div, e2]
      exact div_lt_div_of_pos_right (by linarith) hkp
  · have hc : (r : ℝ) / D = 1 / 2 := by
      rw [div_eq_div_iff hDr.ne' (by norm_num)]
      have : (2 * r : ℝ) = D := by exact_mod_cast c
      linarith
    rw [hc]
    by_cases hodd : q % 2 = 1
    · rw [if_pos (by simp [c, hodd])]
      have hev : Even ((q : ℤ) + 1) := by
        rw [Int.even_iff]; omega
      have := (tie_even he k (M := (q : ℤ) + 1) (by omega) hq2' hk hev).2 (by omega)
      push_cast at this ⊢
      rw [← this]
      congr 2; ring
    · rw [if_neg (by simp [hodd]; omega)]
      have hev : Even (q : ℤ) := by
        rw [Int.even_iff]; omega
      have := (tie_even he k (M := (q : ℤ)) hq' (by omega) hk hev).1
      push_cast at this
      exact this
  · rw [if_pos (by simp [c])]
    have hc : 1 / 2 < (r : ℝ) / D := by
      rw [div_lt_div_iff₀ (by norm_num) hDr]
      have : (D : ℝ) < 2 * r := by exact_mod_cast c
      linarith
    have hc1 : (r : ℝ) / D < 1 := by
      rw [div_lt_one hDr]; exact_mod_cast hr
    refine rnd_eq h ((q : ℤ) + 1) k (by push_cast; rfl) (by omega) hq2' hk ?_
    rw [← sub_div, e2, abs_div, abs_of_pos hkp]
    refine div_lt_div_of_pos_right ?_ hkp
    push_cast
    rw [abs_lt]; constructor <;> linarith

/-- the computed rounding is that of the arithmetic, at every scale -/
theorem rn_spec {rnd : ℝ → ℝ} (h : RoundsToNearest rnd) (he : TiesToEven rnd) {n d : ℕ} (K : ℕ) (hd : 0 < d)
    (ok : rnOk n d = true) (hK : rnExp n d ≤ K) (hK2 : K ≤ rnExp n d + 100) : rnd (n / d / 2 ^ K) = rn n d / 2 ^ K := by
  unfold rnOk at ok
  simp only [Bool.and_eq_true, decide_eq_true_eq] at ok
  obtain ⟨o1, o2⟩ := ok
  obtain ⟨e, hee⟩ : ∃ e, e = rnExp n d := ⟨_, rfl⟩
  have hP : 0 < d * 2 ^ e := Nat.mul_pos hd (by positivity)
  have hq : 2 ^ 52 ≤ rnQuot n d := by
    unfold rnQuot
    rw [← hee, ← Nat.div_div_eq_div_mul, Nat.le_div_iff_mul_le (by positivity), ← pow_add, hee]
    unfold rnExp
    have hl : 52 ≤ Nat.log2 (n / d) := (Nat.le_log2 (by omega)).2 o1
    rw [Nat.add_sub_cancel' hl]
    exact Nat.log2_self_le (by omega)
  obtain ⟨k, hk⟩ : ∃ k, K = e + k := ⟨K - e, by omega⟩
  have key := rn_real h he (q := rnQuot n d) (r := n % (d * 2 ^ e)) k hP (Nat.mod_lt _ hP) hq o2 (by omega)
  have hn : (n : ℝ) = rnQuot n d * ((d * 2 ^ e : ℕ) : ℝ) + (n % (d * 2 ^ e) : ℕ) := by
    unfold rnQuot
    rw [← hee]
    have := Nat.div_add_mod n (d * 2 ^ e)
    have h2 : ((n / (d * 2 ^ e) * (d * 2 ^ e) + n % (d * 2 ^ e) : ℕ) : ℝ) = n := by
      congr 1
      rw [Nat.mul_comm]
      exact this
    rw [← h2]; push_cast; rfl
  have hdr : (0 : ℝ) < d := by exact_mod_cast hd
  have hx : (n : ℝ) / d / 2 ^ K = (rnQuot n d + (n % (d * 2 ^ e) : ℕ) / ((d * 2 ^ e : ℕ) : ℝ)) / 2 ^ k := by
    have e1 : (n : ℝ) / d / 2 ^ K = n / ((d * 2 ^ e : ℕ) : ℝ) / 2 ^ k := by
      rw [hk, pow_add]; push_cast; field_simp
    rw [e1]
    congr 1
    have hPr : (0 : ℝ) < ((d * 2 ^ e : ℕ) : ℝ) := by exact_mod_cast hP
    rw [div_eq_iff hPr.ne', add_mul, div_mul_cancel₀ _ hPr.ne']
    exact hn
  rw [hx, key]
  unfold rn
  rw [← hee, hk, pow_add]
  have hu : rnUp n d = (decide (d * 2 ^ e < 2 * (n % (d * 2 ^ e))) ||
      (decide (2 * (n % (d * 2 ^ e)) = d * 2 ^ e) && decide (rnQuot n d % 2 = 1))) := by
    unfold rnUp; rw [← hee]
  rw [hu]
  push_cast
  field_simp

/-- the middle between two neighbouring normal numbers is half a unit away from every double -/
theorem half_far {m e : ℤ} (hm : 2 ^ 52 ≤ m) {y : ℝ} (hy : IsDouble y) :
    1 / 2 * (2 : ℝ) ^ e ≤ |y - (m + 1 / 2) * (2 : ℝ) ^ e| := by
  have he : (0 : ℝ) < 2 ^ e := by positivity
  have hm' : (2 : ℝ) ^ 52 ≤ m := by exact_mod_cast hm
  rcases le_total ((2 : ℝ) ^ (52 - (-e))) |y| with c | c
  · obtain ⟨n, hn⟩ := double_multiple hy (-e) c
    rw [neg_neg] at hn
    rw [hn, ← sub_mul, abs_mul, abs_of_pos he]
    refine mul_le_mul_of_nonneg_right ?_ he.le
    rcases le_or_gt n m with d | d
    · have : (n : ℝ) ≤ m := by exact_mod_cast d
      rw [abs_of_neg (by linarith)]; linarith
    · have : (m : ℝ) + 1 ≤ n := by exact_mod_cast d
      rw [abs_of_pos (by linarith)]; linarith
  · rw [sub_neg_eq_add, zpow_add₀ two_ne_zero] at c
    norm_num at c
    have h1 := le_abs_self y
    have h2 : (2 : ℝ) ^ 52 * 2 ^ e ≤ m * 2 ^ e := mul_le_mul_of_nonneg_right hm' he.le
    norm_num at h2
    rw [abs_sub_comm]
    refine le_trans ?_ (le_abs_self _)
    rw [add_mul]
    linarith

/-- the exponent and the integer below a middle are determined -/
theorem half_unique {m e m' e' : ℤ} (hm : 2 ^ 52 ≤ m) (hm2 : m < 2 ^ 53) (hm' : 2 ^ 52 ≤ m') (hm2' : m' < 2 ^ 53)
    (h : ((m : ℝ) + 1 / 2) * (2 : ℝ) ^ e = (m' + 1 / 2) * (2 : ℝ) ^ e') : m = m' ∧ e = e' := by
  have key : ∀ {m e m' e' : ℤ}, 2 ^ 52 ≤ m → m' < 2 ^ 53 → ((m : ℝ) + 1 / 2) * (2 : ℝ) ^ e = (m' + 1 / 2) * (2 : ℝ) ^ e' → e ≤ e' := by
    intro m e m' e' hm hm2' h
    by_contra hc
    obtain ⟨t, ht⟩ : ∃ t : ℕ, e = e' + 1 + t := ⟨(e - e' - 1).toNat, by omega⟩
    rw [ht, zpow_add₀ two_ne_zero, zpow_add₀ two_ne_zero, zpow_natCast, zpow_one] at h
    have he : (0 : ℝ) < 2 ^ e' := by positivity
    have h2 : ((m : ℝ) + 1 / 2) * 2 * 2 ^ t = m' + 1 / 2 := by
      have := mul_right_cancel₀ he.ne' (show ((m : ℝ) + 1 / 2) * 2 * 2 ^ t * 2 ^ e' = (m' + 1 / 2) * 2 ^ e' by rw [← h]; ring)
      exact this
    have h3 : (1 : ℝ) ≤ 2 ^ t := one_le_pow₀ (by norm_num)
    have h4 : (2 : ℝ) ^ 52 ≤ m := by exact_mod_cast hm
    have h5 : (m' : ℝ) + 1 ≤ 2 ^ 53 := by exact_mod_cast hm2'
    norm_num at h4 h5
    nlinarith
  have he : e = e' := le_antisymm (key hm hm2' h) (key hm' hm2 h.symm)
  subst he
  have hp : (2 : ℝ) ^ e ≠ 0 := by positivity
  have := mul_right_cancel₀ hp h
  exact ⟨by exact_mod_cast (add_right_cancel this), rfl⟩

/-- there is a rounding to nearest with ties to even -/
theorem exists_tiesToEven : ∃ rnd, RoundsToNearest rnd ∧ TiesToEven rnd := by
  classical
  obtain ⟨f, hf⟩ := exists_roundsToNearest
  -- `m` is the integer below the middle, `v` the even one of `m`, `m + 1`
  let P : ℝ → ℤ × ℤ → Prop := fun x p => 2 ^ 52 ≤ p.1 ∧ p.1 < 2 ^ 53 ∧ p.1 + 1 < 2 ^ 53 + (if Even p.1 then 1 else 0) ∧ -1074 ≤ p.2 ∧
    p.2 ≤ 900 ∧ x = (p.1 + 1 / 2) * (2 : ℝ) ^ p.2
  let val : ℤ × ℤ → ℝ := fun p => (if Even p.1 then p.1 else p.1 + 1 : ℤ) * (2 : ℝ) ^ p.2
  have huniq : ∀ x p q, P x p → P x q → p = q := by
    rintro x p q ⟨p1, p2, -, -, -, p3⟩ ⟨q1, q2, -, -, -, q3⟩
    obtain ⟨a, b⟩ := half_unique p1 p2 q1 q2 (p3.symm.trans q3)
    exact Prod.ext a b
  let g : ℝ → ℝ := fun x => if hx : ∃ p, P x p then val hx.choose else f x
  have hg : ∀ x p, P x p → g x = val p := by
    intro x p hp
    have hx : ∃ p, P x p := ⟨p, hp⟩
    show (if hx : ∃ p, P x p then val hx.choose else f x) = _
    rw [dif_pos hx, huniq x _ _ hx.choose_spec hp]
  refine ⟨g, fun x hxb => ?_, fun m e hm hm2 he he2 hev => ⟨?_, fun hm3 => ?_⟩⟩
  · by_cases hx : ∃ p, P x p
    · obtain ⟨p, hp⟩ := hx
      rw [hg x p hp]
      obtain ⟨p1, p2, p3, p4, p5, p6⟩ := hp
      have hpe : (0 : ℝ) < 2 ^ p.2 := by positivity
      refine ⟨⟨_, p.2, ?_, p4, by omega, rfl⟩, fun y hy => ?_⟩
      · split_ifs at p3 ⊢ <;> rw [abs_of_pos (by omega)] <;> omega
      · have h1 := half_far (e := p.2) p1 hy
        rw [← p6] at h1
        refine le_trans (le_of_eq ?_) h1
        rw [p6]
        show |((if Even p.1 then p.1 else p.1 + 1 : ℤ) : ℝ) * (2 : ℝ) ^ p.2 - _| = _
        rw [← sub_mul, abs_mul, abs_of_pos hpe]
        congr 1
        split_ifs
        · rw [abs_of_neg (by linarith)]; ring
        · push_cast; rw [abs_of_pos (by linarith)]; ring
    · have : g x = f x := by
        show (if hx : ∃ p, P x p then val hx.choose else f x) = _
        rw [dif_neg hx]
      rw [this]
      exact hf x hxb
  · rw [hg _ (m, e) ⟨hm, hm2, by simp [hev]; omega, he, he2, rfl⟩]
    show ((if Even m then m else m + 1 : ℤ) : ℝ) * _ = _
    rw [if_pos hev]
  · have hod : ¬ Even (m - 1) := by
      rw [Int.even_iff] at hev ⊢; omega
    rw [hg _ (m - 1, e) ⟨by dsimp only; omega, by dsimp only; omega, by dsimp only; rw [if_neg hod]; omega, he, he2, ?_⟩]
    · show ((if Even (m - 1) then m - 1 else m - 1 + 1 : ℤ) : ℝ) * _ = _
      rw [if_neg hod, sub_add_cancel]
    · push_cast; ring

end Pot
