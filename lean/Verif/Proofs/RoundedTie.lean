import Verif.Proofs.RoundedEval

/-!
# Nodes whose distance to the side `θ = a` is exactly `h√2`, in double-precision arithmetic

Every rounding in the computation is carried out: the numbers below are the doubles the machine obtains.
-/

namespace Pot
open Real Spec

/-- a computed hypotenuse exceeds `t` if the exact one does by a relative `2⁻⁵¹` -/
theorem root_above {F : FlLib} (h : RoundsToNearest F.rnd) (hs : SquareAccurate F.sq) {u w t : ℝ} (du : IsDouble u)
    (dw : IsDouble w) (u1 : 1 / 2 ^ 30 ≤ |u|) (u2 : |u| ≤ 10) (w1 : 1 / 2 ^ 30 ≤ |w|) (w2 : |w| ≤ 10)
    (t0 : 0 < t) (ht : t ^ 2 * (1 + 1 / 2 ^ 50) < u ^ 2 + w ^ 2) : t < F.rnd √(F.rnd (F.sq u + F.sq w)) := by
  have hu := abs_le.1 (hs _ du (.inr ⟨small_le' u1 (by norm_num), le_big' u2 (by norm_num)⟩))
  have hw := abs_le.1 (hs _ dw (.inr ⟨small_le' w1 (by norm_num), le_big' w2 (by norm_num)⟩))
  have u3 : 1 / 2 ^ 60 ≤ u ^ 2 := by
    rw [← sq_abs]; calc (1 : ℝ) / 2 ^ 60 = (1 / 2 ^ 30) ^ 2 := by norm_num
      _ ≤ _ := pow_le_pow_left₀ (by positivity) u1 2
  have w3 : 1 / 2 ^ 60 ≤ w ^ 2 := by
    rw [← sq_abs]; calc (1 : ℝ) / 2 ^ 60 = (1 / 2 ^ 30) ^ 2 := by norm_num
      _ ≤ _ := pow_le_pow_left₀ (by positivity) w1 2
  have u4 : u ^ 2 ≤ 100 := by
    rw [← sq_abs]; calc |u| ^ 2 ≤ 10 ^ 2 := pow_le_pow_left₀ (abs_nonneg _) u2 2
      _ = 100 := by norm_num
  have w4 : w ^ 2 ≤ 100 := by
    rw [← sq_abs]; calc |w| ^ 2 ≤ 10 ^ 2 := pow_le_pow_left₀ (abs_nonneg _) w2 2
      _ = 100 := by norm_num
  set A := u ^ 2 + w ^ 2 with hA
  set q := F.sq u + F.sq w with hq
  have q1 : A * (1 - 1 / 2 ^ 52) ≤ q := by rw [hA, hq]; linarith [hu.1, hw.1]
  have q2 : q ≤ A * (1 + 1 / 2 ^ 52) := by rw [hA, hq]; linarith [hu.2, hw.2]
  have A1 : 1 / 2 ^ 59 ≤ A := by rw [hA]; norm_num at *; linarith
  have A2 : A ≤ 200 := by rw [hA]; linarith
  have qp : 1 / 2 ^ 60 ≤ q := by norm_num at *; linarith
  have qu : q ≤ 201 := by norm_num at *; linarith
  have r1 := abs_le.1 (Rnd.rel h (x := q) (.inr ⟨small_le (c := 1 / 2 ^ 60) (by rw [abs_of_pos (by norm_num at *; linarith)]; exact qp) (by norm_num),
    le_big (c := 201) (by rw [abs_of_pos (by norm_num at *; linarith)]; exact qu) (by norm_num)⟩))
  rw [abs_of_pos (by norm_num at *; linarith : 0 < q)] at r1
  set p := F.rnd q with hp
  have p1 : A * (1 - 1 / 2 ^ 52) * (1 - 1 / 2 ^ 53) ≤ p := by
    have := mul_le_mul_of_nonneg_right q1 (by norm_num : (0 : ℝ) ≤ 1 - 1 / 2 ^ 53)
    linarith [r1.1]
  have p1' : 1 / 2 ^ 60 ≤ p := by norm_num at *; linarith
  have p2 : p ≤ 202 := by norm_num at *; linarith [r1.2]
  have s1 : 1 / 2 ^ 30 ≤ √p := le_sqrt_of_sq_le (by norm_num at *; linarith)
  have s2 : √p ≤ 15 := by rw [sqrt_le_left (by norm_num)]; linarith
  have sp : 0 < √p := lt_of_lt_of_le (by positivity) s1
  have r2 := abs_le.1 (Rnd.rel h (x := √p) (.inr ⟨small_le (c := 1 / 2 ^ 30) (by rw [abs_of_pos sp]; exact s1) (by norm_num),
    le_big (c := 15) (by rw [abs_of_pos sp]; exact s2) (by norm_num)⟩))
  rw [abs_of_pos sp] at r2
  have hlow : √p * (1 - 1 / 2 ^ 53) ≤ F.rnd √p := by linarith [r2.1]
  refine lt_of_lt_of_le ?_ hlow
  have hb : t * (1 + 1 / 2 ^ 53 + 1 / 2 ^ 105) < √p := by
    rw [lt_sqrt (by positivity)]
    have T0 : 0 < t ^ 2 := by positivity
    have e1 : t ^ 2 * (1 + 1 / 2 ^ 50) * ((1 - 1 / 2 ^ 52) * (1 - 1 / 2 ^ 53)) ≤ p := by
      refine le_trans ?_ p1
      rw [mul_assoc A]
      exact mul_le_mul_of_nonneg_right ht.le (by norm_num)
    refine lt_of_lt_of_le ?_ e1
    have : (t * (1 + 1 / 2 ^ 53 + 1 / 2 ^ 105)) ^ 2 = t ^ 2 * (1 + 1 / 2 ^ 53 + 1 / 2 ^ 105) ^ 2 := by ring
    rw [this, mul_assoc]
    exact mul_lt_mul_of_pos_left (by norm_num) T0
  have := mul_lt_mul_of_pos_right hb (by norm_num : (0 : ℝ) < 1 - 1 / 2 ^ 53)
  have e : t ≤ t * (1 + 1 / 2 ^ 53 + 1 / 2 ^ 105) * (1 - 1 / 2 ^ 53) := by
    rw [mul_assoc]; exact le_mul_of_one_le_right t0.le (by norm_num)
  linarith

theorem dist_above {F : FlLib} (h : RoundsToNearest F.rnd) (hs : SquareAccurate F.sq) {x0 y0 x y t : ℝ} (du : IsDouble (x0 - x))
    (dw : IsDouble (y0 - y)) (u1 : 1 / 2 ^ 30 ≤ |x0 - x|) (u2 : |x0 - x| ≤ 10) (w1 : 1 / 2 ^ 30 ≤ |y0 - y|) (w2 : |y0 - y| ≤ 10)
    (t0 : 0 < t) (ht : t ^ 2 * (1 + 1 / 2 ^ 50) < (x0 - x) ^ 2 + (y0 - y) ^ 2) : t < dformulaF F x0 y0 x y := by
  unfold dformulaF
  rw [Rnd.fixed h (le_big u2 (by norm_num)) du, Rnd.fixed h (le_big w2 (by norm_num)) dw]
  exact root_above h hs du dw u1 u2 w1 w2 t0 ht

/-- points that are far apart are far apart for the machine -/
theorem dist_far {F : FlLib} (h : RoundsToNearest F.rnd) (hs : SquareAccurate F.sq) {x0 y0 x y : ℝ} (u1 : 1 / 16 ≤ |x0 - x|)
    (u2 : |x0 - x| ≤ 9) (w1 : 1 / 16 ≤ |y0 - y|) (w2 : |y0 - y| ≤ 9) (hd : 0.4 ≤ |x0 - x| ∨ 0.4 ≤ |y0 - y|) :
    1 / 4 < dformulaF F x0 y0 x y := by
  have key : ∀ v : ℝ, 1 / 16 ≤ |v| → |v| ≤ 9 → IsDouble (F.rnd v) ∧ 1 / 2 ^ 30 ≤ |F.rnd v| ∧ |F.rnd v| ≤ 10 ∧ 0.99 * |v| ≤ |F.rnd v| := by
    intro v v1 v2
    have hr := Rnd.rel h (x := v) (.inr ⟨small_le v1 (by norm_num), le_big v2 (by norm_num)⟩)
    have e1 : |v| ≤ |F.rnd v - v| + |F.rnd v| := by
      have := abs_sub_le v (F.rnd v) 0
      rw [abs_sub_comm v (F.rnd v), sub_zero, sub_zero] at this; exact this
    have e2 : |F.rnd v| ≤ |F.rnd v - v| + |v| := by
      have := abs_add_le (F.rnd v - v) v
      rwa [sub_add_cancel] at this
    refine ⟨Rnd.double h (le_big v2 (by norm_num)), ?_, ?_, ?_⟩ <;> norm_num at * <;> linarith
  obtain ⟨a1, a2, a3, a4⟩ := key _ u1 u2
  obtain ⟨b1, b2, b3, b4⟩ := key _ w1 w2
  refine root_above h hs a1 b1 a2 a3 b2 b3 (by norm_num) ?_
  rw [← sq_abs (F.rnd (x0 - x)), ← sq_abs (F.rnd (y0 - y))]
  have p1 := sq_nonneg |F.rnd (x0 - x)|
  have p2 := sq_nonneg |F.rnd (y0 - y)|
  rcases hd with q | q
  · have : (0.39 : ℝ) ^ 2 ≤ |F.rnd (x0 - x)| ^ 2 := pow_le_pow_left₀ (by norm_num) (by linarith) 2
    norm_num at *; linarith
  · have : (0.39 : ℝ) ^ 2 ≤ |F.rnd (y0 - y)| ^ 2 := pow_le_pow_left₀ (by norm_num) (by linarith) 2
    norm_num at *; linarith

section
variable {F : Fl} (h : RoundsToNearest F.rnd)
include h

theorem coord_67_45 : coordF F F.AD 67 45 = 4856939352138930 / 2 ^ 52 := by
  have e1 : F.rnd (45 / 67) = 6049611439751413 / 2 ^ 53 :=
    rnd_eq h 6049611439751413 53 (by norm_num) (by norm_num) (by norm_num) (by norm_num) (by rw [abs_lt]; norm_num)
  have e2 : F.rnd (6049611439751413 / 2 ^ 53 - 1 / 2) = 6184047249523668 / 2 ^ 55 :=
    rnd_eq h 6184047249523668 55 (by norm_num) (by norm_num) (by norm_num) (by norm_num) (by rw [abs_lt]; norm_num)
  have e3 : F.rnd (7074237752028440 / 2 ^ 50 * (6184047249523668 / 2 ^ 55)) = 4856939352138930 / 2 ^ 52 :=
    rnd_eq h 4856939352138930 52 (by norm_num) (by norm_num) (by norm_num) (by norm_num) (by rw [abs_lt]; norm_num)
  unfold coordF
  rw [AD_value h]
  push_cast
  rw [e1, e2, e3]

theorem coord_67_43 : coordF F F.AD 67 43 = 8024508494838228 / 2 ^ 53 := by
  have e1 : F.rnd (43 / 67) = 5780739820206905 / 2 ^ 53 :=
    rnd_eq h 5780739820206905 53 (by norm_num) (by norm_num) (by norm_num) (by norm_num) (by rw [abs_lt]; norm_num)
  have e2 : F.rnd (5780739820206905 / 2 ^ 53 - 1 / 2) = 5108560771345636 / 2 ^ 55 :=
    rnd_eq h 5108560771345636 55 (by norm_num) (by norm_num) (by norm_num) (by norm_num) (by rw [abs_lt]; norm_num)
  have e3 : F.rnd (7074237752028440 / 2 ^ 50 * (5108560771345636 / 2 ^ 55)) = 8024508494838228 / 2 ^ 53 :=
    rnd_eq h 8024508494838228 53 (by norm_num) (by norm_num) (by norm_num) (by norm_num) (by rw [abs_lt]; norm_num)
  unfold coordF
  rw [AD_value h]
  push_cast
  rw [e1, e2, e3]

theorem coord_134_78 : coordF F F.AD 134 78 = 4645768075958976 / 2 ^ 53 := by
  have e1 : F.rnd (78 / 134) = 5242996581117891 / 2 ^ 53 :=
    rnd_eq h 5242996581117891 53 (by norm_num) (by norm_num) (by norm_num) (by norm_num) (by rw [abs_lt]; norm_num)
  have e2 : F.rnd (5242996581117891 / 2 ^ 53 - 1 / 2) = 5915175629979160 / 2 ^ 56 :=
    rnd_eq h 5915175629979160 56 (by norm_num) (by norm_num) (by norm_num) (by norm_num) (by rw [abs_lt]; norm_num)
  have e3 : F.rnd (7074237752028440 / 2 ^ 50 * (5915175629979160 / 2 ^ 56)) = 4645768075958976 / 2 ^ 53 :=
    rnd_eq h 4645768075958976 53 (by norm_num) (by norm_num) (by norm_num) (by norm_num) (by rw [abs_lt]; norm_num)
  unfold coordF
  rw [AD_value h]
  push_cast
  rw [e1, e2, e3]

theorem coord_134_76 : coordF F F.AD 134 76 = 7602165942478320 / 2 ^ 54 := by
  have e1 : F.rnd (76 / 134) = 5108560771345637 / 2 ^ 53 :=
    rnd_eq h 5108560771345637 53 (by norm_num) (by norm_num) (by norm_num) (by norm_num) (by rw [abs_lt]; norm_num)
  have e2 : F.rnd (5108560771345637 / 2 ^ 53 - 1 / 2) = 4839689151801128 / 2 ^ 56 :=
    rnd_eq h 4839689151801128 56 (by norm_num) (by norm_num) (by norm_num) (by norm_num) (by rw [abs_lt]; norm_num)
  have e3 : F.rnd (7074237752028440 / 2 ^ 50 * (4839689151801128 / 2 ^ 56)) = 7602165942478320 / 2 ^ 54 :=
    rnd_eq h 7602165942478320 54 (by norm_num) (by norm_num) (by norm_num) (by norm_num) (by rw [abs_lt]; norm_num)
  unfold coordF
  rw [AD_value h]
  push_cast
  rw [e1, e2, e3]

theorem coord_257_150 : coordF F F.AD 257 150 = 4734509312641604 / 2 ^ 53 := by
  have e1 : F.rnd (150 / 257) = 5257120187592019 / 2 ^ 53 :=
    rnd_eq h 5257120187592019 53 (by norm_num) (by norm_num) (by norm_num) (by norm_num) (by rw [abs_lt]; norm_num)
  have e2 : F.rnd (5257120187592019 / 2 ^ 53 - 1 / 2) = 6028164481772184 / 2 ^ 56 :=
    rnd_eq h 6028164481772184 56 (by norm_num) (by norm_num) (by norm_num) (by norm_num) (by rw [abs_lt]; norm_num)
  have e3 : F.rnd (7074237752028440 / 2 ^ 50 * (6028164481772184 / 2 ^ 56)) = 4734509312641604 / 2 ^ 53 :=
    rnd_eq h 4734509312641604 53 (by norm_num) (by norm_num) (by norm_num) (by norm_num) (by rw [abs_lt]; norm_num)
  unfold coordF
  rw [AD_value h]
  push_cast
  rw [e1, e2, e3]

theorem coord_257_148 : coordF F F.AD 257 148 = 8588179683396389 / 2 ^ 54 := by
  have e1 : F.rnd (148 / 257) = 5187025251757458 / 2 ^ 53 :=
    rnd_eq h 5187025251757458 53 (by norm_num) (by norm_num) (by norm_num) (by norm_num) (by rw [abs_lt]; norm_num)
  have e2 : F.rnd (5187025251757458 / 2 ^ 53 - 1 / 2) = 5467404995095696 / 2 ^ 56 :=
    rnd_eq h 5467404995095696 56 (by norm_num) (by norm_num) (by norm_num) (by norm_num) (by rw [abs_lt]; norm_num)
  have e3 : F.rnd (7074237752028440 / 2 ^ 50 * (5467404995095696 / 2 ^ 56)) = 8588179683396389 / 2 ^ 54 :=
    rnd_eq h 8588179683396389 54 (by norm_num) (by norm_num) (by norm_num) (by norm_num) (by rw [abs_lt]; norm_num)
  unfold coordF
  rw [AD_value h]
  push_cast
  rw [e1, e2, e3]

theorem coord_256_153 : coordF F F.AD 256 153 = 5526748243772219 / 2 ^ 53 := by
  have e1 : F.rnd (153 / 256) = 5383208929591296 / 2 ^ 53 :=
    rnd_eq h 5383208929591296 53 (by norm_num) (by norm_num) (by norm_num) (by norm_num) (by rw [abs_lt]; norm_num)
  have e2 : F.rnd (5383208929591296 / 2 ^ 53 - 1 / 2) = 7036874417766400 / 2 ^ 56 :=
    rnd_eq h 7036874417766400 56 (by norm_num) (by norm_num) (by norm_num) (by norm_num) (by rw [abs_lt]; norm_num)
  have e3 : F.rnd (7074237752028440 / 2 ^ 50 * (7036874417766400 / 2 ^ 56)) = 5526748243772219 / 2 ^ 53 :=
    rnd_eq h 5526748243772219 53 (by norm_num) (by norm_num) (by norm_num) (by norm_num) (by rw [abs_lt]; norm_num)
  unfold coordF
  rw [AD_value h]
  push_cast
  rw [e1, e2, e3]

theorem coord_256_151 : coordF F F.AD 256 151 = 5084608384270441 / 2 ^ 53 := by
  have e1 : F.rnd (151 / 256) = 5312840185413632 / 2 ^ 53 :=
    rnd_eq h 5312840185413632 53 (by norm_num) (by norm_num) (by norm_num) (by norm_num) (by rw [abs_lt]; norm_num)
  have e2 : F.rnd (5312840185413632 / 2 ^ 53 - 1 / 2) = 6473924464345088 / 2 ^ 56 :=
    rnd_eq h 6473924464345088 56 (by norm_num) (by norm_num) (by norm_num) (by norm_num) (by rw [abs_lt]; norm_num)
  have e3 : F.rnd (7074237752028440 / 2 ^ 50 * (6473924464345088 / 2 ^ 56)) = 5084608384270441 / 2 ^ 53 :=
    rnd_eq h 5084608384270441 53 (by norm_num) (by norm_num) (by norm_num) (by norm_num) (by rw [abs_lt]; norm_num)
  unfold coordF
  rw [AD_value h]
  push_cast
  rw [e1, e2, e3]

theorem coord_512_281 : coordF F F.AD 512 281 = 5526748243772219 / 2 ^ 54 := by
  have e1 : F.rnd (281 / 512) = 4943404278480896 / 2 ^ 53 :=
    rnd_eq h 4943404278480896 53 (by norm_num) (by norm_num) (by norm_num) (by norm_num) (by rw [abs_lt]; norm_num)
  have e2 : F.rnd (4943404278480896 / 2 ^ 53 - 1 / 2) = 7036874417766400 / 2 ^ 57 :=
    rnd_eq h 7036874417766400 57 (by norm_num) (by norm_num) (by norm_num) (by norm_num) (by rw [abs_lt]; norm_num)
  have e3 : F.rnd (7074237752028440 / 2 ^ 50 * (7036874417766400 / 2 ^ 57)) = 5526748243772219 / 2 ^ 54 :=
    rnd_eq h 5526748243772219 54 (by norm_num) (by norm_num) (by norm_num) (by norm_num) (by rw [abs_lt]; norm_num)
  unfold coordF
  rw [AD_value h]
  push_cast
  rw [e1, e2, e3]

theorem coord_512_279 : coordF F F.AD 512 279 = 5084608384270441 / 2 ^ 54 := by
  have e1 : F.rnd (279 / 512) = 4908219906392064 / 2 ^ 53 :=
    rnd_eq h 4908219906392064 53 (by norm_num) (by norm_num) (by norm_num) (by norm_num) (by rw [abs_lt]; norm_num)
  have e2 : F.rnd (4908219906392064 / 2 ^ 53 - 1 / 2) = 6473924464345088 / 2 ^ 57 :=
    rnd_eq h 6473924464345088 57 (by norm_num) (by norm_num) (by norm_num) (by norm_num) (by rw [abs_lt]; norm_num)
  have e3 : F.rnd (7074237752028440 / 2 ^ 50 * (6473924464345088 / 2 ^ 57)) = 5084608384270441 / 2 ^ 54 :=
    rnd_eq h 5084608384270441 54 (by norm_num) (by norm_num) (by norm_num) (by norm_num) (by rw [abs_lt]; norm_num)
  unfold coordF
  rw [AD_value h]
  push_cast
  rw [e1, e2, e3]

theorem coord_1024_537 : coordF F F.AD 1024 537 = 5526748243772219 / 2 ^ 55 := by
  have e1 : F.rnd (537 / 1024) = 4723501952925696 / 2 ^ 53 :=
    rnd_eq h 4723501952925696 53 (by norm_num) (by norm_num) (by norm_num) (by norm_num) (by rw [abs_lt]; norm_num)
  have e2 : F.rnd (4723501952925696 / 2 ^ 53 - 1 / 2) = 7036874417766400 / 2 ^ 58 :=
    rnd_eq h 7036874417766400 58 (by norm_num) (by norm_num) (by norm_num) (by norm_num) (by rw [abs_lt]; norm_num)
  have e3 : F.rnd (7074237752028440 / 2 ^ 50 * (7036874417766400 / 2 ^ 58)) = 5526748243772219 / 2 ^ 55 :=
    rnd_eq h 5526748243772219 55 (by norm_num) (by norm_num) (by norm_num) (by norm_num) (by rw [abs_lt]; norm_num)
  unfold coordF
  rw [AD_value h]
  push_cast
  rw [e1, e2, e3]

theorem coord_1024_535 : coordF F F.AD 1024 535 = 5084608384270441 / 2 ^ 55 := by
  have e1 : F.rnd (535 / 1024) = 4705909766881280 / 2 ^ 53 :=
    rnd_eq h 4705909766881280 53 (by norm_num) (by norm_num) (by norm_num) (by norm_num) (by rw [abs_lt]; norm_num)
  have e2 : F.rnd (4705909766881280 / 2 ^ 53 - 1 / 2) = 6473924464345088 / 2 ^ 58 :=
    rnd_eq h 6473924464345088 58 (by norm_num) (by norm_num) (by norm_num) (by norm_num) (by rw [abs_lt]; norm_num)
  have e3 : F.rnd (7074237752028440 / 2 ^ 50 * (6473924464345088 / 2 ^ 58)) = 5084608384270441 / 2 ^ 55 :=
    rnd_eq h 5084608384270441 55 (by norm_num) (by norm_num) (by norm_num) (by norm_num) (by rw [abs_lt]; norm_num)
  unfold coordF
  rw [AD_value h]
  push_cast
  rw [e1, e2, e3]

theorem threshold_67 : F.rnd (F.rnd (F.AD / 67) * F.rnd √2) = 4778260524117195 / 2 ^ 55 := by
  have e1 : F.rnd (7074237752028440 / 2 ^ 50 / 67) = 6757480837758510 / 2 ^ 56 :=
    rnd_eq h 6757480837758510 56 (by norm_num) (by norm_num) (by norm_num) (by norm_num) (by rw [abs_lt]; norm_num)
  have e2 : F.rnd (6757480837758510 / 2 ^ 56 * (6369051672525773 / 2 ^ 52)) = 4778260524117195 / 2 ^ 55 :=
    rnd_eq h 4778260524117195 55 (by norm_num) (by norm_num) (by norm_num) (by norm_num) (by rw [abs_lt]; norm_num)
  rw [AD_value h, sqrt_two_value h, e1, e2]

theorem threshold_134 : F.rnd (F.rnd (F.AD / 134) * F.rnd √2) = 4778260524117195 / 2 ^ 56 := by
  have e1 : F.rnd (7074237752028440 / 2 ^ 50 / 134) = 6757480837758510 / 2 ^ 57 :=
    rnd_eq h 6757480837758510 57 (by norm_num) (by norm_num) (by norm_num) (by norm_num) (by rw [abs_lt]; norm_num)
  have e2 : F.rnd (6757480837758510 / 2 ^ 57 * (6369051672525773 / 2 ^ 52)) = 4778260524117195 / 2 ^ 56 :=
    rnd_eq h 4778260524117195 56 (by norm_num) (by norm_num) (by norm_num) (by norm_num) (by rw [abs_lt]; norm_num)
  rw [AD_value h, sqrt_two_value h, e1, e2]

theorem threshold_257 : F.rnd (F.rnd (F.AD / 257) * F.rnd √2) = 4982777511530771 / 2 ^ 57 := by
  have e1 : F.rnd (7074237752028440 / 2 ^ 50 / 257) = 7046711535094477 / 2 ^ 58 :=
    rnd_eq h 7046711535094477 58 (by norm_num) (by norm_num) (by norm_num) (by norm_num) (by rw [abs_lt]; norm_num)
  have e2 : F.rnd (7046711535094477 / 2 ^ 58 * (6369051672525773 / 2 ^ 52)) = 4982777511530771 / 2 ^ 57 :=
    rnd_eq h 4982777511530771 57 (by norm_num) (by norm_num) (by norm_num) (by norm_num) (by rw [abs_lt]; norm_num)
  rw [AD_value h, sqrt_two_value h, e1, e2]

theorem threshold_256 : F.rnd (F.rnd (F.AD / 256) * F.rnd √2) = 5002241486185188 / 2 ^ 57 := by
  have e1 : F.rnd (7074237752028440 / 2 ^ 50 / 256) = 7074237752028440 / 2 ^ 58 :=
    rnd_eq h 7074237752028440 58 (by norm_num) (by norm_num) (by norm_num) (by norm_num) (by rw [abs_lt]; norm_num)
  have e2 : F.rnd (7074237752028440 / 2 ^ 58 * (6369051672525773 / 2 ^ 52)) = 5002241486185188 / 2 ^ 57 :=
    rnd_eq h 5002241486185188 57 (by norm_num) (by norm_num) (by norm_num) (by norm_num) (by rw [abs_lt]; norm_num)
  rw [AD_value h, sqrt_two_value h, e1, e2]

theorem threshold_512 : F.rnd (F.rnd (F.AD / 512) * F.rnd √2) = 5002241486185188 / 2 ^ 58 := by
  have e1 : F.rnd (7074237752028440 / 2 ^ 50 / 512) = 7074237752028440 / 2 ^ 59 :=
    rnd_eq h 7074237752028440 59 (by norm_num) (by norm_num) (by norm_num) (by norm_num) (by rw [abs_lt]; norm_num)
  have e2 : F.rnd (7074237752028440 / 2 ^ 59 * (6369051672525773 / 2 ^ 52)) = 5002241486185188 / 2 ^ 58 :=
    rnd_eq h 5002241486185188 58 (by norm_num) (by norm_num) (by norm_num) (by norm_num) (by rw [abs_lt]; norm_num)
  rw [AD_value h, sqrt_two_value h, e1, e2]

theorem threshold_1024 : F.rnd (F.rnd (F.AD / 1024) * F.rnd √2) = 5002241486185188 / 2 ^ 59 := by
  have e1 : F.rnd (7074237752028440 / 2 ^ 50 / 1024) = 7074237752028440 / 2 ^ 60 :=
    rnd_eq h 7074237752028440 60 (by norm_num) (by norm_num) (by norm_num) (by norm_num) (by rw [abs_lt]; norm_num)
  have e2 : F.rnd (7074237752028440 / 2 ^ 60 * (6369051672525773 / 2 ^ 52)) = 5002241486185188 / 2 ^ 59 :=
    rnd_eq h 5002241486185188 59 (by norm_num) (by norm_num) (by norm_num) (by norm_num) (by rw [abs_lt]; norm_num)
  rw [AD_value h, sqrt_two_value h, e1, e2]

end

section
variable {F : FlLib} (h : RoundsToNearest F.rnd)
include h

theorem tie_67_45_b (hs : SquareAccurate F.sq) (hm : F.tan F.a = 1 - 1 / 2 ^ 53) :
    F.rnd (F.rnd (F.AD / 67) * F.rnd √2) < distToRadiusF F F.a (coordF F.toFl F.AD 67 45) (coordF F.toFl F.AD 67 43) ∧
    0 ≤ (getRadiusPointF F F.a (coordF F.toFl F.AD 67 45) (coordF F.toFl F.AD 67 43)).2 ∧
    (getRadiusPointF F F.a (coordF F.toFl F.AD 67 45) (coordF F.toFl F.AD 67 43)).2 < 1.6 := by
  have e1 : F.rnd ((4856939352138930 / 2 ^ 52) / (1 - 1 / 2 ^ 53)) = 4856939352138931 / 2 ^ 52 :=
    rnd_eq h 4856939352138931 52 (by norm_num) (by norm_num) (by norm_num) (by norm_num) (by rw [abs_lt]; norm_num)
  have e2 : F.rnd (4856939352138931 / 2 ^ 52 + 8024508494838228 / 2 ^ 53) = 8869193599558045 / 2 ^ 52 :=
    rnd_eq h 8869193599558045 52 (by norm_num) (by norm_num) (by norm_num) (by norm_num) (by rw [abs_lt]; norm_num)
  have e3 : F.rnd (1 / (1 - 1 / 2 ^ 53)) = 4503599627370497 / 2 ^ 52 :=
    rnd_eq h 4503599627370497 52 (by norm_num) (by norm_num) (by norm_num) (by norm_num) (by rw [abs_lt]; norm_num)
  have e4 : F.rnd (1 - 1 / 2 ^ 53 + 4503599627370497 / 2 ^ 52) = 4503599627370496 / 2 ^ 51 :=
    rnd_eq_up h 4503599627370496 51 (by norm_num) (by norm_num) (by norm_num) (by norm_num) (by norm_num) (by norm_num)
  have e5 : F.rnd (8869193599558045 / 2 ^ 52 / (4503599627370496 / 2 ^ 51)) = 8869193599558045 / 2 ^ 53 :=
    rnd_eq h 8869193599558045 53 (by norm_num) (by norm_num) (by norm_num) (by norm_num) (by rw [abs_lt]; norm_num)
  have e6 : F.rnd ((1 - 1 / 2 ^ 53) * (8869193599558045 / 2 ^ 53)) = 8869193599558044 / 2 ^ 53 :=
    rnd_eq h 8869193599558044 53 (by norm_num) (by norm_num) (by norm_num) (by norm_num) (by rw [abs_lt]; norm_num)
  have ep : getRadiusPointF F F.a (coordF F.toFl F.AD 67 45) (coordF F.toFl F.AD 67 43) = (8869193599558045 / 2 ^ 53, 8869193599558044 / 2 ^ 53) := by
    unfold getRadiusPointF
    rw [if_neg (a_ne_half_pi h), hm, coord_67_45 h, coord_67_43 h]
    dsimp only
    rw [e1, e2, e3, e4, e5, e6]
  refine ⟨?_, by rw [ep]; norm_num, by rw [ep]; norm_num⟩
  unfold distToRadiusF
  rw [threshold_67 h, ep, coord_67_45 h, coord_67_43 h]
  exact dist_above h hs ⟨-6757480837758520, -56, by norm_num, by norm_num, by norm_num, by norm_num⟩ ⟨6757480837758528, -56, by norm_num, by norm_num, by norm_num, by norm_num⟩
    (by norm_num [abs_div, abs_of_pos, abs_of_neg, abs_of_nonneg]) (by norm_num [abs_of_pos, abs_of_neg]) (by norm_num [abs_of_pos, abs_of_neg]) (by norm_num [abs_of_pos, abs_of_neg]) (by norm_num) (by norm_num)

theorem tie_67_45_o (hs : SquareAccurate F.sq) (hm : F.tan F.a = 1) :
    F.rnd (F.rnd (F.AD / 67) * F.rnd √2) < distToRadiusF F F.a (coordF F.toFl F.AD 67 45) (coordF F.toFl F.AD 67 43) ∧
    0 ≤ (getRadiusPointF F F.a (coordF F.toFl F.AD 67 45) (coordF F.toFl F.AD 67 43)).2 ∧
    (getRadiusPointF F F.a (coordF F.toFl F.AD 67 45) (coordF F.toFl F.AD 67 43)).2 < 1.6 := by
  have e1 : F.rnd ((4856939352138930 / 2 ^ 52) / 1) = 4856939352138930 / 2 ^ 52 :=
    rnd_eq h 4856939352138930 52 (by norm_num) (by norm_num) (by norm_num) (by norm_num) (by rw [abs_lt]; norm_num)
  have e2 : F.rnd (4856939352138930 / 2 ^ 52 + 8024508494838228 / 2 ^ 53) = 8869193599558044 / 2 ^ 52 :=
    rnd_eq h 8869193599558044 52 (by norm_num) (by norm_num) (by norm_num) (by norm_num) (by rw [abs_lt]; norm_num)
  have e3 : F.rnd (1 / 1) = 4503599627370496 / 2 ^ 52 :=
    rnd_eq_up h 4503599627370496 52 (by norm_num) (by norm_num) (by norm_num) (by norm_num) (by norm_num) (by norm_num)
  have e4 : F.rnd (1 + 4503599627370496 / 2 ^ 52) = 4503599627370496 / 2 ^ 51 :=
    rnd_eq_up h 4503599627370496 51 (by norm_num) (by norm_num) (by norm_num) (by norm_num) (by norm_num) (by norm_num)
  have e5 : F.rnd (8869193599558044 / 2 ^ 52 / (4503599627370496 / 2 ^ 51)) = 8869193599558044 / 2 ^ 53 :=
    rnd_eq h 8869193599558044 53 (by norm_num) (by norm_num) (by norm_num) (by norm_num) (by rw [abs_lt]; norm_num)
  have e6 : F.rnd (1 * (8869193599558044 / 2 ^ 53)) = 8869193599558044 / 2 ^ 53 :=
    rnd_eq h 8869193599558044 53 (by norm_num) (by norm_num) (by norm_num) (by norm_num) (by rw [abs_lt]; norm_num)
  have ep : getRadiusPointF F F.a (coordF F.toFl F.AD 67 45) (coordF F.toFl F.AD 67 43) = (8869193599558044 / 2 ^ 53, 8869193599558044 / 2 ^ 53) := by
    unfold getRadiusPointF
    rw [if_neg (a_ne_half_pi h), hm, coord_67_45 h, coord_67_43 h]
    dsimp only
    rw [e1, e2, e3, e4, e5, e6]
  refine ⟨?_, by rw [ep]; norm_num, by rw [ep]; norm_num⟩
  unfold distToRadiusF
  rw [threshold_67 h, ep, coord_67_45 h, coord_67_43 h]
  exact dist_above h hs ⟨-6757480837758528, -56, by norm_num, by norm_num, by norm_num, by norm_num⟩ ⟨6757480837758528, -56, by norm_num, by norm_num, by norm_num, by norm_num⟩
    (by norm_num [abs_div, abs_of_pos, abs_of_neg, abs_of_nonneg]) (by norm_num [abs_of_pos, abs_of_neg]) (by norm_num [abs_of_pos, abs_of_neg]) (by norm_num [abs_of_pos, abs_of_neg]) (by norm_num) (by norm_num)

theorem tie_134_78_b (hs : SquareAccurate F.sq) (hm : F.tan F.a = 1 - 1 / 2 ^ 53) :
    F.rnd (F.rnd (F.AD / 134) * F.rnd √2) < distToRadiusF F F.a (coordF F.toFl F.AD 134 78) (coordF F.toFl F.AD 134 76) ∧
    0 ≤ (getRadiusPointF F F.a (coordF F.toFl F.AD 134 78) (coordF F.toFl F.AD 134 76)).2 ∧
    (getRadiusPointF F F.a (coordF F.toFl F.AD 134 78) (coordF F.toFl F.AD 134 76)).2 < 1.6 := by
  have e1 : F.rnd ((4645768075958976 / 2 ^ 53) / (1 - 1 / 2 ^ 53)) = 4645768075958977 / 2 ^ 53 :=
    rnd_eq h 4645768075958977 53 (by norm_num) (by norm_num) (by norm_num) (by norm_num) (by rw [abs_lt]; norm_num)
  have e2 : F.rnd (4645768075958977 / 2 ^ 53 + 7602165942478320 / 2 ^ 54) = 8446851047198137 / 2 ^ 53 :=
    rnd_eq h 8446851047198137 53 (by norm_num) (by norm_num) (by norm_num) (by norm_num) (by rw [abs_lt]; norm_num)
  have e3 : F.rnd (1 / (1 - 1 / 2 ^ 53)) = 4503599627370497 / 2 ^ 52 :=
    rnd_eq h 4503599627370497 52 (by norm_num) (by norm_num) (by norm_num) (by norm_num) (by rw [abs_lt]; norm_num)
  have e4 : F.rnd (1 - 1 / 2 ^ 53 + 4503599627370497 / 2 ^ 52) = 4503599627370496 / 2 ^ 51 :=
    rnd_eq_up h 4503599627370496 51 (by norm_num) (by norm_num) (by norm_num) (by norm_num) (by norm_num) (by norm_num)
  have e5 : F.rnd (8446851047198137 / 2 ^ 53 / (4503599627370496 / 2 ^ 51)) = 8446851047198137 / 2 ^ 54 :=
    rnd_eq h 8446851047198137 54 (by norm_num) (by norm_num) (by norm_num) (by norm_num) (by rw [abs_lt]; norm_num)
  have e6 : F.rnd ((1 - 1 / 2 ^ 53) * (8446851047198137 / 2 ^ 54)) = 8446851047198136 / 2 ^ 54 :=
    rnd_eq h 8446851047198136 54 (by norm_num) (by norm_num) (by norm_num) (by norm_num) (by rw [abs_lt]; norm_num)
  have ep : getRadiusPointF F F.a (coordF F.toFl F.AD 134 78) (coordF F.toFl F.AD 134 76) = (8446851047198137 / 2 ^ 54, 8446851047198136 / 2 ^ 54) := by
    unfold getRadiusPointF
    rw [if_neg (a_ne_half_pi h), hm, coord_134_78 h, coord_134_76 h]
    dsimp only
    rw [e1, e2, e3, e4, e5, e6]
  refine ⟨?_, by rw [ep]; norm_num, by rw [ep]; norm_num⟩
  unfold distToRadiusF
  rw [threshold_134 h, ep, coord_134_78 h, coord_134_76 h]
  exact dist_above h hs ⟨-6757480837758520, -57, by norm_num, by norm_num, by norm_num, by norm_num⟩ ⟨6757480837758528, -57, by norm_num, by norm_num, by norm_num, by norm_num⟩
    (by norm_num [abs_div, abs_of_pos, abs_of_neg, abs_of_nonneg]) (by norm_num [abs_of_pos, abs_of_neg]) (by norm_num [abs_of_pos, abs_of_neg]) (by norm_num [abs_of_pos, abs_of_neg]) (by norm_num) (by norm_num)

theorem tie_134_78_o (hs : SquareAccurate F.sq) (hm : F.tan F.a = 1) :
    F.rnd (F.rnd (F.AD / 134) * F.rnd √2) < distToRadiusF F F.a (coordF F.toFl F.AD 134 78) (coordF F.toFl F.AD 134 76) ∧
    0 ≤ (getRadiusPointF F F.a (coordF F.toFl F.AD 134 78) (coordF F.toFl F.AD 134 76)).2 ∧
    (getRadiusPointF F F.a (coordF F.toFl F.AD 134 78) (coordF F.toFl F.AD 134 76)).2 < 1.6 := by
  have e1 : F.rnd ((4645768075958976 / 2 ^ 53) / 1) = 4645768075958976 / 2 ^ 53 :=
    rnd_eq h 4645768075958976 53 (by norm_num) (by norm_num) (by norm_num) (by norm_num) (by rw [abs_lt]; norm_num)
  have e2 : F.rnd (4645768075958976 / 2 ^ 53 + 7602165942478320 / 2 ^ 54) = 8446851047198136 / 2 ^ 53 :=
    rnd_eq h 8446851047198136 53 (by norm_num) (by norm_num) (by norm_num) (by norm_num) (by rw [abs_lt]; norm_num)
  have e3 : F.rnd (1 / 1) = 4503599627370496 / 2 ^ 52 :=
    rnd_eq_up h 4503599627370496 52 (by norm_num) (by norm_num) (by norm_num) (by norm_num) (by norm_num) (by norm_num)
  have e4 : F.rnd (1 + 4503599627370496 / 2 ^ 52) = 4503599627370496 / 2 ^ 51 :=
    rnd_eq_up h 4503599627370496 51 (by norm_num) (by norm_num) (by norm_num) (by norm_num) (by norm_num) (by norm_num)
  have e5 : F.rnd (8446851047198136 / 2 ^ 53 / (4503599627370496 / 2 ^ 51)) = 8446851047198136 / 2 ^ 54 :=
    rnd_eq h 8446851047198136 54 (by norm_num) (by norm_num) (by norm_num) (by norm_num) (by rw [abs_lt]; norm_num)
  have e6 : F.rnd (1 * (8446851047198136 / 2 ^ 54)) = 8446851047198136 / 2 ^ 54 :=
    rnd_eq h 8446851047198136 54 (by norm_num) (by norm_num) (by norm_num) (by norm_num) (by rw [abs_lt]; norm_num)
  have ep : getRadiusPointF F F.a (coordF F.toFl F.AD 134 78) (coordF F.toFl F.AD 134 76) = (8446851047198136 / 2 ^ 54, 8446851047198136 / 2 ^ 54) := by
    unfold getRadiusPointF
    rw [if_neg (a_ne_half_pi h), hm, coord_134_78 h, coord_134_76 h]
    dsimp only
    rw [e1, e2, e3, e4, e5, e6]
  refine ⟨?_, by rw [ep]; norm_num, by rw [ep]; norm_num⟩
  unfold distToRadiusF
  rw [threshold_134 h, ep, coord_134_78 h, coord_134_76 h]
  exact dist_above h hs ⟨-6757480837758528, -57, by norm_num, by norm_num, by norm_num, by norm_num⟩ ⟨6757480837758528, -57, by norm_num, by norm_num, by norm_num, by norm_num⟩
    (by norm_num [abs_div, abs_of_pos, abs_of_neg, abs_of_nonneg]) (by norm_num [abs_of_pos, abs_of_neg]) (by norm_num [abs_of_pos, abs_of_neg]) (by norm_num [abs_of_pos, abs_of_neg]) (by norm_num) (by norm_num)

theorem tie_257_150_b (hs : SquareAccurate F.sq) (hm : F.tan F.a = 1 - 1 / 2 ^ 53) :
    F.rnd (F.rnd (F.AD / 257) * F.rnd √2) < distToRadiusF F F.a (coordF F.toFl F.AD 257 150) (coordF F.toFl F.AD 257 148) ∧
    0 ≤ (getRadiusPointF F F.a (coordF F.toFl F.AD 257 150) (coordF F.toFl F.AD 257 148)).2 ∧
    (getRadiusPointF F F.a (coordF F.toFl F.AD 257 150) (coordF F.toFl F.AD 257 148)).2 < 1.6 := by
  have e1 : F.rnd ((4734509312641604 / 2 ^ 53) / (1 - 1 / 2 ^ 53)) = 4734509312641605 / 2 ^ 53 :=
    rnd_eq h 4734509312641605 53 (by norm_num) (by norm_num) (by norm_num) (by norm_num) (by rw [abs_lt]; norm_num)
  have e2 : F.rnd (4734509312641605 / 2 ^ 53 + 8588179683396389 / 2 ^ 54) = 4514299577169900 / 2 ^ 52 :=
    rnd_eq h 4514299577169900 52 (by norm_num) (by norm_num) (by norm_num) (by norm_num) (by rw [abs_lt]; norm_num)
  have e3 : F.rnd (1 / (1 - 1 / 2 ^ 53)) = 4503599627370497 / 2 ^ 52 :=
    rnd_eq h 4503599627370497 52 (by norm_num) (by norm_num) (by norm_num) (by norm_num) (by rw [abs_lt]; norm_num)
  have e4 : F.rnd (1 - 1 / 2 ^ 53 + 4503599627370497 / 2 ^ 52) = 4503599627370496 / 2 ^ 51 :=
    rnd_eq_up h 4503599627370496 51 (by norm_num) (by norm_num) (by norm_num) (by norm_num) (by norm_num) (by norm_num)
  have e5 : F.rnd (4514299577169900 / 2 ^ 52 / (4503599627370496 / 2 ^ 51)) = 4514299577169900 / 2 ^ 53 :=
    rnd_eq h 4514299577169900 53 (by norm_num) (by norm_num) (by norm_num) (by norm_num) (by rw [abs_lt]; norm_num)
  have e6 : F.rnd ((1 - 1 / 2 ^ 53) * (4514299577169900 / 2 ^ 53)) = 4514299577169899 / 2 ^ 53 :=
    rnd_eq h 4514299577169899 53 (by norm_num) (by norm_num) (by norm_num) (by norm_num) (by rw [abs_lt]; norm_num)
  have ep : getRadiusPointF F F.a (coordF F.toFl F.AD 257 150) (coordF F.toFl F.AD 257 148) = (4514299577169900 / 2 ^ 53, 4514299577169899 / 2 ^ 53) := by
    unfold getRadiusPointF
    rw [if_neg (a_ne_half_pi h), hm, coord_257_150 h, coord_257_148 h]
    dsimp only
    rw [e1, e2, e3, e4, e5, e6]
  refine ⟨?_, by rw [ep]; norm_num, by rw [ep]; norm_num⟩
  unfold distToRadiusF
  rw [threshold_257 h, ep, coord_257_150 h, coord_257_148 h]
  exact dist_above h hs ⟨-7046711535094528, -58, by norm_num, by norm_num, by norm_num, by norm_num⟩ ⟨7046711535094544, -58, by norm_num, by norm_num, by norm_num, by norm_num⟩
    (by norm_num [abs_div, abs_of_pos, abs_of_neg, abs_of_nonneg]) (by norm_num [abs_of_pos, abs_of_neg]) (by norm_num [abs_of_pos, abs_of_neg]) (by norm_num [abs_of_pos, abs_of_neg]) (by norm_num) (by norm_num)

theorem tie_257_150_o (hs : SquareAccurate F.sq) (hm : F.tan F.a = 1) :
    F.rnd (F.rnd (F.AD / 257) * F.rnd √2) < distToRadiusF F F.a (coordF F.toFl F.AD 257 150) (coordF F.toFl F.AD 257 148) ∧
    0 ≤ (getRadiusPointF F F.a (coordF F.toFl F.AD 257 150) (coordF F.toFl F.AD 257 148)).2 ∧
    (getRadiusPointF F F.a (coordF F.toFl F.AD 257 150) (coordF F.toFl F.AD 257 148)).2 < 1.6 := by
  have e1 : F.rnd ((4734509312641604 / 2 ^ 53) / 1) = 4734509312641604 / 2 ^ 53 :=
    rnd_eq h 4734509312641604 53 (by norm_num) (by norm_num) (by norm_num) (by norm_num) (by rw [abs_lt]; norm_num)
  have e2 : F.rnd (4734509312641604 / 2 ^ 53 + 8588179683396389 / 2 ^ 54) = 4514299577169899 / 2 ^ 52 :=
    rnd_eq h 4514299577169899 52 (by norm_num) (by norm_num) (by norm_num) (by norm_num) (by rw [abs_lt]; norm_num)
  have e3 : F.rnd (1 / 1) = 4503599627370496 / 2 ^ 52 :=
    rnd_eq_up h 4503599627370496 52 (by norm_num) (by norm_num) (by norm_num) (by norm_num) (by norm_num) (by norm_num)
  have e4 : F.rnd (1 + 4503599627370496 / 2 ^ 52) = 4503599627370496 / 2 ^ 51 :=
    rnd_eq_up h 4503599627370496 51 (by norm_num) (by norm_num) (by norm_num) (by norm_num) (by norm_num) (by norm_num)
  have e5 : F.rnd (4514299577169899 / 2 ^ 52 / (4503599627370496 / 2 ^ 51)) = 4514299577169899 / 2 ^ 53 :=
    rnd_eq h 4514299577169899 53 (by norm_num) (by norm_num) (by norm_num) (by norm_num) (by rw [abs_lt]; norm_num)
  have e6 : F.rnd (1 * (4514299577169899 / 2 ^ 53)) = 4514299577169899 / 2 ^ 53 :=
    rnd_eq h 4514299577169899 53 (by norm_num) (by norm_num) (by norm_num) (by norm_num) (by rw [abs_lt]; norm_num)
  have ep : getRadiusPointF F F.a (coordF F.toFl F.AD 257 150) (coordF F.toFl F.AD 257 148) = (4514299577169899 / 2 ^ 53, 4514299577169899 / 2 ^ 53) := by
    unfold getRadiusPointF
    rw [if_neg (a_ne_half_pi h), hm, coord_257_150 h, coord_257_148 h]
    dsimp only
    rw [e1, e2, e3, e4, e5, e6]
  refine ⟨?_, by rw [ep]; norm_num, by rw [ep]; norm_num⟩
  unfold distToRadiusF
  rw [threshold_257 h, ep, coord_257_150 h, coord_257_148 h]
  exact dist_above h hs ⟨-7046711535094560, -58, by norm_num, by norm_num, by norm_num, by norm_num⟩ ⟨7046711535094544, -58, by norm_num, by norm_num, by norm_num, by norm_num⟩
    (by norm_num [abs_div, abs_of_pos, abs_of_neg, abs_of_nonneg]) (by norm_num [abs_of_pos, abs_of_neg]) (by norm_num [abs_of_pos, abs_of_neg]) (by norm_num [abs_of_pos, abs_of_neg]) (by norm_num) (by norm_num)

theorem tie_256_153_o (hs : SquareAccurate F.sq) (hm : F.tan F.a = 1) :
    F.rnd (F.rnd (F.AD / 256) * F.rnd √2) < distToRadiusF F F.a (coordF F.toFl F.AD 256 153) (coordF F.toFl F.AD 256 151) ∧
    0 ≤ (getRadiusPointF F F.a (coordF F.toFl F.AD 256 153) (coordF F.toFl F.AD 256 151)).2 ∧
    (getRadiusPointF F F.a (coordF F.toFl F.AD 256 153) (coordF F.toFl F.AD 256 151)).2 < 1.6 := by
  have e1 : F.rnd ((5526748243772219 / 2 ^ 53) / 1) = 5526748243772219 / 2 ^ 53 :=
    rnd_eq h 5526748243772219 53 (by norm_num) (by norm_num) (by norm_num) (by norm_num) (by rw [abs_lt]; norm_num)
  have e2 : F.rnd (5526748243772219 / 2 ^ 53 + 5084608384270441 / 2 ^ 53) = 5305678314021330 / 2 ^ 52 :=
    rnd_eq h 5305678314021330 52 (by norm_num) (by norm_num) (by norm_num) (by norm_num) (by rw [abs_lt]; norm_num)
  have e3 : F.rnd (1 / 1) = 4503599627370496 / 2 ^ 52 :=
    rnd_eq_up h 4503599627370496 52 (by norm_num) (by norm_num) (by norm_num) (by norm_num) (by norm_num) (by norm_num)
  have e4 : F.rnd (1 + 4503599627370496 / 2 ^ 52) = 4503599627370496 / 2 ^ 51 :=
    rnd_eq_up h 4503599627370496 51 (by norm_num) (by norm_num) (by norm_num) (by norm_num) (by norm_num) (by norm_num)
  have e5 : F.rnd (5305678314021330 / 2 ^ 52 / (4503599627370496 / 2 ^ 51)) = 5305678314021330 / 2 ^ 53 :=
    rnd_eq h 5305678314021330 53 (by norm_num) (by norm_num) (by norm_num) (by norm_num) (by rw [abs_lt]; norm_num)
  have e6 : F.rnd (1 * (5305678314021330 / 2 ^ 53)) = 5305678314021330 / 2 ^ 53 :=
    rnd_eq h 5305678314021330 53 (by norm_num) (by norm_num) (by norm_num) (by norm_num) (by rw [abs_lt]; norm_num)
  have ep : getRadiusPointF F F.a (coordF F.toFl F.AD 256 153) (coordF F.toFl F.AD 256 151) = (5305678314021330 / 2 ^ 53, 5305678314021330 / 2 ^ 53) := by
    unfold getRadiusPointF
    rw [if_neg (a_ne_half_pi h), hm, coord_256_153 h, coord_256_151 h]
    dsimp only
    rw [e1, e2, e3, e4, e5, e6]
  refine ⟨?_, by rw [ep]; norm_num, by rw [ep]; norm_num⟩
  unfold distToRadiusF
  rw [threshold_256 h, ep, coord_256_153 h, coord_256_151 h]
  exact dist_above h hs ⟨-7074237752028448, -58, by norm_num, by norm_num, by norm_num, by norm_num⟩ ⟨7074237752028448, -58, by norm_num, by norm_num, by norm_num, by norm_num⟩
    (by norm_num [abs_div, abs_of_pos, abs_of_neg, abs_of_nonneg]) (by norm_num [abs_of_pos, abs_of_neg]) (by norm_num [abs_of_pos, abs_of_neg]) (by norm_num [abs_of_pos, abs_of_neg]) (by norm_num) (by norm_num)

theorem tie_512_281_o (hs : SquareAccurate F.sq) (hm : F.tan F.a = 1) :
    F.rnd (F.rnd (F.AD / 512) * F.rnd √2) < distToRadiusF F F.a (coordF F.toFl F.AD 512 281) (coordF F.toFl F.AD 512 279) ∧
    0 ≤ (getRadiusPointF F F.a (coordF F.toFl F.AD 512 281) (coordF F.toFl F.AD 512 279)).2 ∧
    (getRadiusPointF F F.a (coordF F.toFl F.AD 512 281) (coordF F.toFl F.AD 512 279)).2 < 1.6 := by
  have e1 : F.rnd ((5526748243772219 / 2 ^ 54) / 1) = 5526748243772219 / 2 ^ 54 :=
    rnd_eq h 5526748243772219 54 (by norm_num) (by norm_num) (by norm_num) (by norm_num) (by rw [abs_lt]; norm_num)
  have e2 : F.rnd (5526748243772219 / 2 ^ 54 + 5084608384270441 / 2 ^ 54) = 5305678314021330 / 2 ^ 53 :=
    rnd_eq h 5305678314021330 53 (by norm_num) (by norm_num) (by norm_num) (by norm_num) (by rw [abs_lt]; norm_num)
  have e3 : F.rnd (1 / 1) = 4503599627370496 / 2 ^ 52 :=
    rnd_eq_up h 4503599627370496 52 (by norm_num) (by norm_num) (by norm_num) (by norm_num) (by norm_num) (by norm_num)
  have e4 : F.rnd (1 + 4503599627370496 / 2 ^ 52) = 4503599627370496 / 2 ^ 51 :=
    rnd_eq_up h 4503599627370496 51 (by norm_num) (by norm_num) (by norm_num) (by norm_num) (by norm_num) (by norm_num)
  have e5 : F.rnd (5305678314021330 / 2 ^ 53 / (4503599627370496 / 2 ^ 51)) = 5305678314021330 / 2 ^ 54 :=
    rnd_eq h 5305678314021330 54 (by norm_num) (by norm_num) (by norm_num) (by norm_num) (by rw [abs_lt]; norm_num)
  have e6 : F.rnd (1 * (5305678314021330 / 2 ^ 54)) = 5305678314021330 / 2 ^ 54 :=
    rnd_eq h 5305678314021330 54 (by norm_num) (by norm_num) (by norm_num) (by norm_num) (by rw [abs_lt]; norm_num)
  have ep : getRadiusPointF F F.a (coordF F.toFl F.AD 512 281) (coordF F.toFl F.AD 512 279) = (5305678314021330 / 2 ^ 54, 5305678314021330 / 2 ^ 54) := by
    unfold getRadiusPointF
    rw [if_neg (a_ne_half_pi h), hm, coord_512_281 h, coord_512_279 h]
    dsimp only
    rw [e1, e2, e3, e4, e5, e6]
  refine ⟨?_, by rw [ep]; norm_num, by rw [ep]; norm_num⟩
  unfold distToRadiusF
  rw [threshold_512 h, ep, coord_512_281 h, coord_512_279 h]
  exact dist_above h hs ⟨-7074237752028448, -59, by norm_num, by norm_num, by norm_num, by norm_num⟩ ⟨7074237752028448, -59, by norm_num, by norm_num, by norm_num, by norm_num⟩
    (by norm_num [abs_div, abs_of_pos, abs_of_neg, abs_of_nonneg]) (by norm_num [abs_of_pos, abs_of_neg]) (by norm_num [abs_of_pos, abs_of_neg]) (by norm_num [abs_of_pos, abs_of_neg]) (by norm_num) (by norm_num)

theorem tie_1024_537_o (hs : SquareAccurate F.sq) (hm : F.tan F.a = 1) :
    F.rnd (F.rnd (F.AD / 1024) * F.rnd √2) < distToRadiusF F F.a (coordF F.toFl F.AD 1024 537) (coordF F.toFl F.AD 1024 535) ∧
    0 ≤ (getRadiusPointF F F.a (coordF F.toFl F.AD 1024 537) (coordF F.toFl F.AD 1024 535)).2 ∧
    (getRadiusPointF F F.a (coordF F.toFl F.AD 1024 537) (coordF F.toFl F.AD 1024 535)).2 < 1.6 := by
  have e1 : F.rnd ((5526748243772219 / 2 ^ 55) / 1) = 5526748243772219 / 2 ^ 55 :=
    rnd_eq h 5526748243772219 55 (by norm_num) (by norm_num) (by norm_num) (by norm_num) (by rw [abs_lt]; norm_num)
  have e2 : F.rnd (5526748243772219 / 2 ^ 55 + 5084608384270441 / 2 ^ 55) = 5305678314021330 / 2 ^ 54 :=
    rnd_eq h 5305678314021330 54 (by norm_num) (by norm_num) (by norm_num) (by norm_num) (by rw [abs_lt]; norm_num)
  have e3 : F.rnd (1 / 1) = 4503599627370496 / 2 ^ 52 :=
    rnd_eq_up h 4503599627370496 52 (by norm_num) (by norm_num) (by norm_num) (by norm_num) (by norm_num) (by norm_num)
  have e4 : F.rnd (1 + 4503599627370496 / 2 ^ 52) = 4503599627370496 / 2 ^ 51 :=
    rnd_eq_up h 4503599627370496 51 (by norm_num) (by norm_num) (by norm_num) (by norm_num) (by norm_num) (by norm_num)
  have e5 : F.rnd (5305678314021330 / 2 ^ 54 / (4503599627370496 / 2 ^ 51)) = 5305678314021330 / 2 ^ 55 :=
    rnd_eq h 5305678314021330 55 (by norm_num) (by norm_num) (by norm_num) (by norm_num) (by rw [abs_lt]; norm_num)
  have e6 : F.rnd (1 * (5305678314021330 / 2 ^ 55)) = 5305678314021330 / 2 ^ 55 :=
    rnd_eq h 5305678314021330 55 (by norm_num) (by norm_num) (by norm_num) (by norm_num) (by rw [abs_lt]; norm_num)
  have ep : getRadiusPointF F F.a (coordF F.toFl F.AD 1024 537) (coordF F.toFl F.AD 1024 535) = (5305678314021330 / 2 ^ 55, 5305678314021330 / 2 ^ 55) := by
    unfold getRadiusPointF
    rw [if_neg (a_ne_half_pi h), hm, coord_1024_537 h, coord_1024_535 h]
    dsimp only
    rw [e1, e2, e3, e4, e5, e6]
  refine ⟨?_, by rw [ep]; norm_num, by rw [ep]; norm_num⟩
  unfold distToRadiusF
  rw [threshold_1024 h, ep, coord_1024_537 h, coord_1024_535 h]
  exact dist_above h hs ⟨-7074237752028448, -60, by norm_num, by norm_num, by norm_num, by norm_num⟩ ⟨7074237752028448, -60, by norm_num, by norm_num, by norm_num, by norm_num⟩
    (by norm_num [abs_div, abs_of_pos, abs_of_neg, abs_of_nonneg]) (by norm_num [abs_of_pos, abs_of_neg]) (by norm_num [abs_of_pos, abs_of_neg]) (by norm_num [abs_of_pos, abs_of_neg]) (by norm_num) (by norm_num)

end

end Pot
