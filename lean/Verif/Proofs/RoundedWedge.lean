import Verif.Proofs.RoundedCoord

/-! # The two comparisons with the angle in rounded arithmetic -/

namespace Pot
open Real Spec

/-- the angle `get_polar` arrives at, from the angle returned by `atan2` -/
noncomputable def angleF (F : Fl) (a th : ℝ) : ℝ :=
  let th1 := if th ≤ 0 then F.rnd (th + F.twoPi) else th
  if th1 < F.rnd (a / 2) then F.rnd (th1 + F.twoPi) else th1

theorem getPolarF_snd (F : Fl) (AD a : ℝ) (N : ℕ) (i j : ℤ) :
    (getPolarF F AD a N i j).2 = angleF F a (F.atan2 (coordF F AD N j) (coordF F AD N i)) := by
  unfold getPolarF angleF cartToPolarF getCoordF
  dsimp only
  split_ifs <;> rfl

theorem getPolarF_fst (F : Fl) (AD a : ℝ) (N : ℕ) (i j : ℤ) :
    (getPolarF F AD a N i j).1 = F.hypot (coordF F AD N i) (coordF F AD N j) := by
  unfold getPolarF cartToPolarF getCoordF
  dsimp only
  split_ifs <;> rfl

/-- the comparisons with the angle, from the angle returned by `atan2` -/
def wedgeF (F : Fl) (th : ℝ) : Prop := angleF F F.a th ≥ F.a ∧ angleF F F.a th ≤ F.twoPi

variable {F : Fl} (h : RoundsToNearest F.rnd)
include h

theorem a_bounds : 0.78 ≤ F.a ∧ F.a ≤ 0.79 := by
  have h1 := abs_le.1 (a_err h)
  have := pi_gt_d2
  have := pi_lt_d6
  norm_num at *
  constructor <;> linarith

theorem twoPi_bounds : 6.2 ≤ F.twoPi ∧ F.twoPi ≤ 6.3 := by
  have h1 := abs_le.1 (twoPi_err h)
  have := pi_gt_d2
  have := pi_lt_d6
  norm_num at *
  constructor <;> linarith

theorem half_a_bounds : 0.3 ≤ F.rnd (F.a / 2) ∧ F.rnd (F.a / 2) ≤ 0.4 := by
  obtain ⟨b1, b2⟩ := a_bounds h
  have hp : 0 < F.a / 2 := by linarith
  have := Rnd.rel' h (x := F.a / 2) (lo := 0.3) (hi := 0.4) (by rw [abs_of_pos hp]; linarith) (by rw [abs_of_pos hp]; linarith)
    (by norm_num) (by norm_num)
  rw [abs_le] at this
  norm_num at *
  constructor <;> linarith

/-- a non-positive angle -/
theorem angleF_nonpos {th : ℝ} (h0 : th ≤ 0) (h1 : -3.15 ≤ th) :
    angleF F F.a th = F.rnd (th + F.twoPi) ∧ 3 ≤ F.rnd (th + F.twoPi) ∧ F.rnd (th + F.twoPi) ≤ F.twoPi := by
  obtain ⟨b1, b2⟩ := twoPi_bounds h
  obtain ⟨c1, c2⟩ := half_a_bounds h
  have hp : 0 < th + F.twoPi := by linarith
  have hr := Rnd.rel' h (x := th + F.twoPi) (lo := 3) (hi := 6.3) (by rw [abs_of_pos hp]; linarith)
    (by rw [abs_of_pos hp]; linarith) (by norm_num) (by norm_num)
  have hlo : 3 ≤ F.rnd (th + F.twoPi) := by rw [abs_le] at hr; norm_num at *; linarith
  have hhi : F.rnd (th + F.twoPi) ≤ F.twoPi := by
    have hb : |F.twoPi| ≤ 2 ^ 1000 := le_big (c := 6.3) (by rw [abs_of_pos (by linarith)]; exact b2) (by norm_num)
    have := Rnd.mono h (x := th + F.twoPi) (y := F.twoPi)
      (le_big (c := 6.3) (by rw [abs_of_pos hp]; linarith) (by norm_num)) hb (by linarith)
    rwa [Rnd.fixed h hb (twoPi_double h)] at this
  refine ⟨?_, hlo, hhi⟩
  unfold angleF
  rw [if_pos h0, if_neg (by linarith)]

theorem wedgeF_nonpos {th : ℝ} (h0 : th ≤ 0) (h1 : -3.15 ≤ th) : wedgeF F th := by
  obtain ⟨e, e1, e2⟩ := angleF_nonpos h h0 h1
  obtain ⟨c1, c2⟩ := a_bounds h
  unfold wedgeF
  rw [e]
  exact ⟨by linarith, e2⟩

/-- an angle that is not shifted -/
theorem angleF_pos {th : ℝ} (h0 : 0.4 ≤ th) : angleF F F.a th = th := by
  obtain ⟨c1, c2⟩ := half_a_bounds h
  have n0 : ¬ th ≤ 0 := by linarith
  have n1 : ¬ th < F.rnd (F.a / 2) := by linarith
  simp only [angleF, n0, n1, if_false]

theorem wedgeF_mid {th : ℝ} (h0 : 0.4 ≤ th) (h1 : th ≤ 3.2) : wedgeF F th ↔ F.a ≤ th := by
  obtain ⟨b1, b2⟩ := twoPi_bounds h
  unfold wedgeF
  rw [angleF_pos h h0]
  exact ⟨fun q => q.1, fun q => ⟨q, by linarith⟩⟩

theorem wedgeF_small {th : ℝ} (h0 : 1 / 2 ^ 45 ≤ th) (h1 : th ≤ 0.5) : ¬ wedgeF F th := by
  obtain ⟨b1, b2⟩ := twoPi_bounds h
  obtain ⟨a1, a2⟩ := a_bounds h
  have hpos : 0 < th := lt_of_lt_of_le (by positivity) h0
  rintro ⟨w1, w2⟩
  have n0 : ¬ th ≤ 0 := by linarith
  simp only [angleF, n0, if_false] at w1 w2
  by_cases hc : th < F.rnd (F.a / 2)
  · rw [if_pos hc] at w2
    have hp : 0 < th + F.twoPi := by linarith
    have hr := Rnd.rel' h (x := th + F.twoPi) (lo := 3) (hi := 7) (by rw [abs_of_pos hp]; linarith)
      (by rw [abs_of_pos hp]; linarith) (by norm_num) (by norm_num)
    rw [abs_le] at hr
    norm_num at *
    linarith
  · rw [if_neg hc] at w1
    linarith

end Pot

namespace Pot
open Real Spec

theorem norm_mk (x y : ℝ) : ‖(⟨x, y⟩ : ℂ)‖ = √(x ^ 2 + y ^ 2) := by
  rw [Complex.norm_def, Complex.normSq_mk]; ring_nf

theorem arg_sub_sin (x y : ℝ) (hne : 0 < √(x ^ 2 + y ^ 2)) :
    sin (Complex.arg ⟨x, y⟩ - π / 4) = (y - x) / (√2 * √(x ^ 2 + y ^ 2)) := by
  have hz : (⟨x, y⟩ : ℂ) ≠ 0 := by
    intro hc
    rw [← norm_mk, hc, norm_zero] at hne
    exact lt_irrefl _ hne
  rw [sin_sub, Complex.sin_arg, Complex.cos_arg hz, cos_pi_div_four, sin_pi_div_four, norm_mk]
  show y / _ * (√2 / 2) - x / _ * (√2 / 2) = _
  rw [eq_div_iff (by positivity)]
  field_simp
  rw [sq_sqrt (by norm_num : (0:ℝ) ≤ 2)]

/-- where the argument of a point lies relative to `π / 4` -/
theorem arg_gap {x y : ℝ} (hy : 0 < y) (hx : 0 < x) (bx : x ≤ 3.2) (by' : y ≤ 3.2) :
    (x ≤ y → π / 4 + (y - x) / 8 ≤ Complex.arg ⟨x, y⟩) ∧ (y ≤ x → Complex.arg ⟨x, y⟩ ≤ π / 4 - (x - y) / 8) ∧
      y / 8 ≤ Complex.arg ⟨x, y⟩ ∧ Complex.arg ⟨x, y⟩ < π / 2 := by
  have hρ : 0 < √(x ^ 2 + y ^ 2) := by positivity
  have h2 : √2 < 1.42 := by rw [sqrt_lt' (by norm_num)]; norm_num
  have hρ2 : √(x ^ 2 + y ^ 2) ≤ 4.6 := by rw [sqrt_le_left (by norm_num)]; nlinarith
  have hs := arg_sub_sin x y hρ
  have hden : √2 * √(x ^ 2 + y ^ 2) ≤ 8 := by
    have := mul_le_mul h2.le hρ2 hρ.le (by norm_num); linarith
  have hden0 : 0 < √2 * √(x ^ 2 + y ^ 2) := by positivity
  have harg1 : Complex.arg ⟨x, y⟩ < π / 2 := by
    have := Complex.abs_arg_lt_pi_div_two_iff (z := ⟨x, y⟩) |>.2 (.inl hx)
    exact (abs_lt.1 this).2
  have harg0 : 0 ≤ Complex.arg ⟨x, y⟩ := Complex.arg_nonneg_iff.2 hy.le
  have hpi := pi_pos
  set A := Complex.arg ⟨x, y⟩ with hA
  refine ⟨fun hxy => ?_, fun hxy => ?_, ?_, harg1⟩
  · have hnn : 0 ≤ A - π / 4 := by
      by_contra hc
      have := sin_neg_of_neg_of_neg_pi_lt (x := A - π / 4) (by linarith) (by linarith)
      rw [hs] at this
      exact absurd this (not_lt.2 (by apply div_nonneg <;> linarith))
    have h3 := sin_le hnn
    rw [hs] at h3
    have h4 : (y - x) / 8 ≤ (y - x) / (√2 * √(x ^ 2 + y ^ 2)) :=
      div_le_div_of_nonneg_left (by linarith) hden0 hden
    linarith
  · have hnn : 0 ≤ π / 4 - A := by
      by_contra hc
      have := sin_pos_of_pos_of_lt_pi (x := A - π / 4) (by linarith) (by linarith)
      rw [hs] at this
      exact absurd this (not_lt.2 (div_nonpos_of_nonpos_of_nonneg (by linarith) hden0.le))
    have h3 := sin_le hnn
    rw [show π / 4 - A = -(A - π / 4) by ring, sin_neg, hs] at h3
    have h4 : (x - y) / 8 ≤ (x - y) / (√2 * √(x ^ 2 + y ^ 2)) :=
      div_le_div_of_nonneg_left (by linarith) hden0 hden
    have h5 : -((y - x) / (√2 * √(x ^ 2 + y ^ 2))) = (x - y) / (√2 * √(x ^ 2 + y ^ 2)) := by ring
    linarith
  · have h3 := sin_le harg0
    rw [hA, Complex.sin_arg, norm_mk] at h3
    have h4 : y / 8 ≤ y / √(x ^ 2 + y ^ 2) := div_le_div_of_nonneg_left hy.le hρ (by linarith)
    exact h4.trans h3

/-- the decision in rounded arithmetic, from the computed coordinates -/
theorem wedgeF_iff {F : Fl} (h : RoundsToNearest F.rnd) (hl : Libm F.hypot F.atan2) {x y : ℝ} (dx : IsDouble x) (dy : IsDouble y)
    (mx : Moderate x) (my : Moderate y) (bx : |x| ≤ 3.2) (by' : |y| ≤ 3.2) (gy : 0 < y → 1 / 2 ^ 40 ≤ y)
    (gxy : 0 < y → 0 < x → x ≠ y → 1 / 2 ^ 40 ≤ |x - y|) :
    (¬ (0 < x ∧ x = y) → (wedgeF F (F.atan2 y x) ↔ ¬ (0 < y ∧ y < x))) ∧
      (0 < x → x = y → (wedgeF F (F.atan2 y x) ↔ F.a ≤ F.atan2 y x)) := by
  have hpi := pi_gt_d2
  have hpi2 := pi_lt_d6
  have hl2 := hl.atan2 x y dx dy mx my
  have haerr := abs_le.1 (a_err h)
  obtain ⟨a1, a2⟩ := a_bounds h
  set T := F.atan2 y x with hT
  set A := Complex.arg ⟨x, y⟩ with hA
  have hA1 : A ≤ π := Complex.arg_le_pi _
  have hA2 : -π < A := Complex.neg_pi_lt_arg _
  have hAabs : |A| ≤ 3.1416 := abs_le.2 ⟨by linarith, by linarith⟩
  have hl3 : |T - A| ≤ 1 / 2 ^ 50 * 3.1416 := hl2.trans (mul_le_mul_of_nonneg_left hAabs (by positivity))
  have hl4 := abs_le.1 hl3
  have hl5 := abs_le.1 hl2
  rw [abs_le] at bx by'
  constructor
  · intro hne
    rcases lt_trichotomy y 0 with hy | hy | hy
    · -- below the axis
      have hneg : A < 0 := Complex.arg_neg_iff.2 hy
      have : T ≤ 0 := by rw [abs_of_neg hneg] at hl5; nlinarith [hl5.2]
      have h3 : -3.15 ≤ T := by norm_num at *; linarith
      exact ⟨fun _ c => absurd c.1 (by linarith), fun _ => wedgeF_nonpos h this h3⟩
    · -- on the axis
      refine ⟨fun _ c => absurd c.1 (by linarith), fun _ => ?_⟩
      by_cases hx : 0 ≤ x
      · have h0 : A = 0 := Complex.arg_eq_zero_iff.2 ⟨hx, hy⟩
        rw [h0, sub_zero, abs_zero, mul_zero] at hl2
        have : T = 0 := abs_nonpos_iff.1 hl2
        exact wedgeF_nonpos h this.le (by rw [this]; norm_num)
      · have h0 : A = π := Complex.arg_eq_pi_iff.2 ⟨not_le.1 hx, hy⟩
        have t1 : 1 ≤ T := by norm_num at *; linarith
        have t2 : T ≤ 3.2 := by norm_num at *; linarith
        exact (wedgeF_mid h (by linarith) t2).2 (by linarith)
    · -- above
      have t2 : T ≤ 3.2 := by norm_num at *; linarith
      rcases le_or_gt x 0 with hx | hx
      · refine ⟨fun _ c => absurd c.2 (by linarith), fun _ => ?_⟩
        have hA3 : π / 2 ≤ A := by
          have h1 : ¬ |A| < π / 2 := by
            rw [hA, Complex.abs_arg_lt_pi_div_two_iff]
            rintro (h2 | h2)
            · exact absurd h2 (not_lt.2 hx)
            · have := congrArg Complex.im h2
              exact absurd this hy.ne'
          have h0 : 0 ≤ A := Complex.arg_nonneg_iff.2 hy.le
          rw [abs_of_nonneg h0] at h1
          exact not_lt.1 h1
        have t1 : 1 ≤ T := by norm_num at *; linarith
        exact (wedgeF_mid h (by linarith) t2).2 (by linarith)
      · have hxy : x ≠ y := fun hc => hne ⟨hx, hc⟩
        obtain ⟨g1, g2, g3, g4⟩ := arg_gap hy hx bx.2 by'.2
        have gap := gxy hy hx hxy
        have gyy := gy hy
        rcases lt_or_gt_of_ne hxy with hlt | hgt
        · refine ⟨fun _ c => absurd c.2 (by linarith), fun _ => ?_⟩
          rw [abs_of_neg (by linarith)] at gap
          have g1' := g1 hlt.le
          have t0 : F.a ≤ T := by norm_num at *; linarith
          exact (wedgeF_mid h (by linarith) t2).2 t0
        · refine ⟨fun w _ => ?_, fun c => absurd ⟨hy, hgt⟩ c⟩
          rw [abs_of_pos (by linarith)] at gap
          have g2' := g2 hgt.le
          have t0 : T < F.a := by norm_num at *; linarith
          rcases le_total T 0.4 with hs | hs
          · refine wedgeF_small h ?_ (by linarith) w
            have hA0 : 0 ≤ A := by have : 0 ≤ y / 8 := by positivity
                                   linarith
            rw [abs_of_nonneg hA0] at hl5
            norm_num at *
            linarith
          · exact absurd ((wedgeF_mid h hs t2).1 w) (by linarith)
  · intro hx hxy
    subst hxy
    obtain ⟨g1, g2, -, -⟩ := arg_gap hx hx bx.2 bx.2
    have g1' := g1 le_rfl
    have g2' := g2 le_rfl
    have t1 : 0.4 ≤ T := by norm_num at *; linarith
    have t2 : T ≤ 3.2 := by norm_num at *; linarith
    exact wedgeF_mid h t1 t2

end Pot
