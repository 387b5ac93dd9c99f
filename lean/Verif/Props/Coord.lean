import Verif.Proofs.Polar
import Mathlib.Tactic.IntervalCases
import Mathlib.Tactic.NormNum
import Mathlib.Analysis.Real.Pi.Bounds

/-! # Properties C01-C08: coordinates and domain geometry -/

namespace Pot
open Real Spec

/-- **C01** `cart_to_polar` returns the canonical polar coordinates. -/
theorem C01_cart_to_polar (x y : ℝ) :
    0 ≤ (cartToPolar x y).1 ∧ 0 < (cartToPolar x y).2 ∧ (cartToPolar x y).2 ≤ 2 * π ∧
    (cartToPolar x y).1 * cos (cartToPolar x y).2 = x ∧
    (cartToPolar x y).1 * sin (cartToPolar x y).2 = y := by
  have h := cartToPolar_point x y
  have r := cartToPolar_range x y
  simp only [polarPoint, Prod.mk.injEq] at h
  exact ⟨by rw [cartToPolar_fst]; exact hypot_nonneg _ _, r.1, r.2, h.1, h.2⟩

/-- **C01** (uniqueness) away from the origin no other pair qualifies. -/
theorem C01_cart_to_polar_unique (x y r t : ℝ) (hxy : (x, y) ≠ (0, 0))
    (hr : 0 ≤ r) (h1 : 0 < t) (h2 : t ≤ 2 * π) (hx : r * cos t = x) (hy : r * sin t = y) :
    cartToPolar x y = (r, t) := by
  have hr' : 0 < r := by
    rcases hr.lt_or_eq with h | h
    · exact h
    · exfalso; apply hxy; rw [← hx, ← hy, ← h]; simp
  rw [← hx, ← hy]; exact cartToPolar_polar hr' h1 h2

example : cartToPolar 0 (-3) = (3, 3 * π / 2) := by
  have h : (3 * π / 2 : ℝ) = π + π / 2 := by ring
  have := pi_pos
  refine C01_cart_to_polar_unique 0 (-3) 3 (3 * π / 2) (by simp) (by norm_num) (by linarith)
    (by linarith) ?_ ?_
  · rw [h, cos_add]; simp
  · rw [h, sin_add]; simp

/-- **C02** the solver's polar coordinates of a node name the node's point, with the angle in
`[a/2, 2π + a/2)`. -/
theorem C02_get_polar (AD : ℝ) (N : ℕ) (a : ℝ) (ha : 0 < a) (haπ : a ≤ 4 * π) (i j : ℝ) :
    polarPoint (getPolar AD N a i j).1 (getPolar AD N a i j).2 = getCoord AD N i j ∧
    0 ≤ (getPolar AD N a i j).1 ∧
    a / 2 ≤ (getPolar AD N a i j).2 ∧ (getPolar AD N a i j).2 < 2 * π + a / 2 := by
  rw [getPolar_eq]
  set p := getCoord AD N i j with hp
  have h := cartToPolar_point p.1 p.2
  have r := cartToPolar_range p.1 p.2
  have r0 : 0 ≤ (cartToPolar p.1 p.2).1 := by rw [cartToPolar_fst]; exact hypot_nonneg _ _
  simp only
  split
  · rename_i hlt
    refine ⟨?_, r0, ?_, ?_⟩
    · simp only [polarPoint, cos_add_two_pi, sin_add_two_pi] at h ⊢; exact h
    · simp only; linarith [r.1]
    · simp only; linarith
  · rename_i hge
    exact ⟨h, r0, by linarith, by linarith [r.2]⟩

/-- **C02** (uniqueness) away from the origin the window determines the angle. -/
theorem C02_get_polar_unique (AD : ℝ) (N : ℕ) (a : ℝ) (ha : 0 < a) (haπ : a ≤ 4 * π) (i j : ℝ)
    (r t : ℝ) (hr : 0 < r) (h1 : a / 2 ≤ t) (h2 : t < 2 * π + a / 2)
    (hp : polarPoint r t = getCoord AD N i j) : getPolar AD N a i j = (r, t) := by
  rcases le_or_gt t (2 * π) with h | h
  · rw [getPolar_of_cart hp.symm (cartToPolar_polar hr (by linarith) h), if_neg (by linarith)]
  · have e : cartToPolar (r * cos t) (r * sin t) = (r, t - 2 * π) := by
      have := cartToPolar_polar hr (t := t - 2 * π) (by linarith) (by linarith)
      rwa [cos_sub_two_pi, sin_sub_two_pi] at this
    rw [getPolar_of_cart hp.symm e, if_pos (by linarith)]; simp

/-- **C03** `arg_to_polar` and `arg_to_polar_abs` name the same plane point. -/
theorem C03_arg_to_polar_same_point (evalR : ℝ → ℝ) (a arg : ℝ) (sid : ℕ) (hs : sid < 3) :
    ∃ p q, argToPolar evalR a arg sid = some p ∧ argToPolarAbs evalR a arg sid = some q ∧
      polarPoint p.1 p.2 = polarPoint q.1 q.2 ∧ (sid ≠ 0 → 0 ≤ q.1 ∧ p.1 = arg) ∧
      (sid = 0 → p = (evalR arg, arg)) := by
  interval_cases sid
  · exact ⟨_, _, rfl, rfl, rfl, by simp, by simp⟩
  · refine ⟨(arg, 2 * π), if arg ≥ 0 then (arg, 2 * π) else (-arg, π), by simp [argToPolar], ?_, ?_, ?_,
      by simp⟩
    · simp [argToPolarAbs]; split <;> rfl
    · split <;> simp [polarPoint]
    · intro _; split <;> simp <;> linarith
  · refine ⟨(arg, a), if arg ≥ 0 then (arg, a) else (-arg, π + a), by simp [argToPolar], ?_, ?_, ?_,
      by simp⟩
    · simp [argToPolarAbs]; split <;> rfl
    · split
      · rfl
      · simp only [polarPoint, add_comm π a, cos_add_pi, sin_add_pi]; ext <;> simp
    · intro _; split <;> simp <;> linarith

/-- **C03** the points named are the intended ones: on segment 1 the point `(arg, 0)`, on
segment 2 the point at signed distance `arg` along direction `a`. -/
theorem C03_arg_to_polar_point (evalR : ℝ → ℝ) (a arg : ℝ) :
    (∃ q, argToPolarAbs evalR a arg 1 = some q ∧ polarPoint q.1 q.2 = (arg, 0)) ∧
    (∃ q, argToPolarAbs evalR a arg 2 = some q ∧ polarPoint q.1 q.2 = (arg * cos a, arg * sin a)) := by
  obtain ⟨p, q, hp, hq, h, _⟩ := C03_arg_to_polar_same_point evalR a arg 1 (by norm_num)
  obtain ⟨p', q', hp', hq', h', _⟩ := C03_arg_to_polar_same_point evalR a arg 2 (by norm_num)
  simp [argToPolar] at hp hp'
  refine ⟨⟨q, hq, ?_⟩, ⟨q', hq', ?_⟩⟩
  · rw [← h, ← hp]; simp [polarPoint]
  · rw [← h', ← hp']; rfl

/-- **C04** `wrap_func` normalises: the result is fixed by a second application, it is left alone when
already normal, and it is normal. -/
theorem C04_wrap_func (a arg : ℝ) (sid : ℕ) (hs : sid < 3) (h0 : sid = 0 → a / 2 - 2 * π ≤ arg) :
    let q := wrapFunc a arg sid
    wrapFunc a q.1 q.2 = q ∧
    (q.2 = 0 ↔ sid = 0) ∧ q.2 < 3 ∧
    (q.2 = 0 → a / 2 ≤ q.1) ∧ (q.2 ≠ 0 → q.1 = |arg|) ∧
    ((sid = 0 ∧ a / 2 ≤ arg ∨ sid ≠ 0 ∧ 0 ≤ arg) → q = (arg, sid)) := by
  have := pi_pos
  interval_cases sid
  · have h0 := h0 rfl
    by_cases h : arg < a / 2
    · have h2 : ¬ (arg + 2 * π < a / 2) := by linarith
      simp [wrapFunc, h, h2]; linarith
    · simp [wrapFunc, h]; linarith
  · by_cases h : arg < 0
    · simp [wrapFunc, h, abs_of_neg h, show ¬ (0 < arg) by linarith]
    · simp [wrapFunc, h, abs_of_nonneg (le_of_not_gt h)]
  · by_cases h : arg < 0
    · simp [wrapFunc, h, abs_of_neg h, show ¬ (0 < arg) by linarith]
    · simp [wrapFunc, h, abs_of_nonneg (le_of_not_gt h)]

example : wrapFunc 1 (-2) 1 = (2, 2) := by simp [wrapFunc]

theorem linspace_mem {lo hi : ℝ} (h : lo ≤ hi) {n : ℕ} {t : ℝ} (ht : t ∈ linspace lo hi n) :
    lo ≤ t ∧ t ≤ hi := by
  simp only [linspace, List.mem_map, List.mem_range] at ht
  obtain ⟨i, hi', rfl⟩ := ht
  have hn : (i : ℝ) + 1 ≤ n := by exact_mod_cast hi'
  have h0 : (0:ℝ) ≤ i := Nat.cast_nonneg i
  have hd : 0 ≤ hi - lo := by linarith
  rcases (show (0:ℝ) ≤ (n : ℝ) - 1 by linarith).lt_or_eq with hp | hp
  · have h1 : (i : ℝ) * ((hi - lo) / ((n : ℝ) - 1)) = (hi - lo) * (i / ((n : ℝ) - 1)) := by
      field_simp
    have h2 : (i : ℝ) / ((n : ℝ) - 1) ≤ 1 := by rw [div_le_one hp]; linarith
    have h3 : 0 ≤ (i : ℝ) / ((n : ℝ) - 1) := by positivity
    rw [h1]
    constructor
    · nlinarith
    · nlinarith
  · rw [← hp]; simp; exact h

/-- **C05** every boundary sample point is given back its own segment by `get_sid`. -/
theorem C05_get_sid_of_sample (a R : ℝ) (rb : ℝ → ℝ) (n : ℕ) (ha : 0 < a)
    (ha2 : a + 2 / 10 ^ 5 ≤ 2 * π) (hR : 1 / 10 ^ 5 ≤ R) (hrb : ∀ t, a ≤ t → t ≤ 2 * π → 0 < rb t) :
    ∀ p ∈ getBoundarySample a R rb n, getSid a (cartToPolar p.x p.y).2 = some p.sid := by
  intro p hp
  have hpi := pi_pos
  have hep : (0:ℝ) < 1 / 10 ^ 5 := by norm_num
  simp only [getBoundarySample, List.mem_append] at hp
  rcases hp with (hp | hp) | hp
  · simp only [getBoundarySampleBySid, if_true, List.mem_map] at hp
    obtain ⟨t, ht, rfl⟩ := hp
    have hm := linspace_mem (by linarith) ht
    rw [cartToPolar_polar (hrb t (by linarith) (by linarith)) (by linarith) (by linarith)]
    simp only [getSid]
    rw [if_neg (by linarith), if_pos (by linarith)]
  · simp [getBoundarySampleBySid] at hp
    obtain ⟨r, hr, rfl⟩ := hp
    have hm := linspace_mem (n := n) hR (t := r) (by simpa using hr)
    have := cartToPolar_polar (r := r) (t := 2 * π) (by linarith) (by linarith) le_rfl
    simp at this
    simp [this, getSid]
  · simp [getBoundarySampleBySid] at hp
    obtain ⟨r, hr, rfl⟩ := hp
    have hm := linspace_mem (n := n) hR (t := r) (by simpa using hr)
    rw [cartToPolar_polar (by linarith) ha (by linarith)]
    simp only [getSid]
    rw [if_neg (by linarith), if_neg (by linarith), if_pos (by simp)]

/-- **C05** the whole classification, in particular no id inside the removed wedge. -/
theorem C05_get_sid_spec (a th : ℝ) (ha2 : a < 2 * π) :
    (getSid a th = some 1 ↔ 2 * π ≤ th) ∧ (getSid a th = some 0 ↔ a < th ∧ th < 2 * π) ∧
    (getSid a th = some 2 ↔ a - 1 / 10 ^ 12 < th ∧ th ≤ a) ∧
    (getSid a th = none ↔ th ≤ a - 1 / 10 ^ 12) := by
  have h12 : (0:ℝ) < 1 / 10 ^ 12 := by positivity
  unfold getSid
  simp only
  by_cases h1 : th ≥ 2 * π
  · simp only [if_pos h1]; refine ⟨by simpa using h1, ?_, ?_, ?_⟩ <;> simp <;> intros <;> linarith
  · by_cases h2 : th > a
    · simp only [if_neg h1, if_pos h2]
      refine ⟨?_, ?_, ?_, ?_⟩ <;> simp
      · linarith
      · exact ⟨h2, by linarith⟩
      · intros; linarith
      · linarith
    · have e : |th - a| = a - th := by rw [abs_of_nonpos (by linarith)]; ring
      by_cases h3 : |th - a| < 1 / 10 ^ 12
      · simp only [if_neg h1, if_neg h2, if_pos h3]
        rw [e] at h3
        refine ⟨?_, ?_, ?_, ?_⟩
        · simp; linarith
        · simp; intros; linarith
        · simp only [true_iff]; constructor <;> linarith
        · simp only [reduceCtorEq, false_iff]; linarith
      · simp only [if_neg h1, if_neg h2, if_neg h3]
        rw [e] at h3
        refine ⟨?_, ?_, ?_, ?_⟩
        · simp; linarith
        · simp; intros; linarith
        · simp only [reduceCtorEq, false_iff]; rintro ⟨_, _⟩; linarith
        · simp only [true_iff]; linarith

/-- hypotheses of C05 hold for the shipped arc -/
example : (0:ℝ) < π / 4 ∧ π / 4 + 2 / 10 ^ 5 ≤ 2 * π ∧ (1:ℝ) / 10 ^ 5 ≤ 2.3 := by
  have := pi_gt_three
  refine ⟨by positivity, by norm_num; linarith, by norm_num⟩

/-- **C06** `get_coord_inv` inverts `get_coord`, both ways. -/
theorem C06_coord_inverse (AD : ℝ) (hAD : AD ≠ 0) (N : ℕ) (hN : N ≠ 0) :
    (∀ i j, (let p := getCoord AD N i j; getCoordInv AD N p.1 p.2) = (i, j)) ∧
    (∀ x y, (let p := getCoordInv AD N x y; getCoord AD N p.1 p.2) = (x, y)) := by
  have hN' : (N : ℝ) ≠ 0 := by exact_mod_cast hN
  constructor
  · intro i j; simp only [getCoord, getCoordInv, Prod.mk.injEq]
    constructor <;> field_simp <;> ring
  · intro i j; simp only [getCoord, getCoordInv, Prod.mk.injEq]
    constructor <;> field_simp <;> ring

/-- **C06** nested grids share points, the spacing is `AD/N`, and the extreme nodes lie on the edges. -/
theorem C06_coord_nested (AD : ℝ) (N : ℕ) (hN : N ≠ 0) (i j : ℝ) :
    getCoord AD (2 * N) (2 * i) (2 * j) = getCoord AD N i j ∧
    (getCoord AD N (i + 1) j).1 - (getCoord AD N i j).1 = AD / N ∧
    (getCoord AD N i (j + 1)).2 - (getCoord AD N i j).2 = AD / N ∧
    (getCoord AD N i (j + 1)).1 = (getCoord AD N i j).1 ∧
    (getCoord AD N (i + 1) j).2 = (getCoord AD N i j).2 ∧
    getCoord AD N 0 0 = (-(AD / 2), -(AD / 2)) ∧ getCoord AD N N N = (AD / 2, AD / 2) := by
  have hN' : (N : ℝ) ≠ 0 := by exact_mod_cast hN
  simp only [getCoord, Prod.mk.injEq]
  push_cast
  refine ⟨⟨?_, ?_⟩, ?_, ?_, trivial, trivial, ⟨?_, ?_⟩, ?_, ?_⟩ <;> field_simp <;> ring

/-- **C07** `is_interior` decides membership of the node's point in the closed domain. -/
theorem C07_is_interior (AD : ℝ) (N : ℕ) (a : ℝ) (ha : 0 < a) (ha2 : a ≤ 2 * π) (rb : ℝ → ℝ)
    (hrb : 0 ≤ rb (2 * π)) (i j : ℝ) :
    isInterior AD N a rb i j ↔ getCoord AD N i j ∈ Domain a rb := by
  have hpi := pi_pos
  obtain ⟨hpt, hr0, hlo, hhi⟩ := C02_get_polar AD N a ha (by linarith) i j
  constructor
  · rintro ⟨h1, h2, h3⟩
    exact ⟨_, _, h2, h3, hr0, h1, hpt.symm⟩
  · rintro ⟨ρ, t, h1, h2, h3, h4, h5⟩
    rcases h3.lt_or_eq with hpos | hz
    · have e := C02_get_polar_unique AD N a ha (by linarith) i j ρ t hpos (by linarith) (by linarith)
        h5.symm
      unfold isInterior; rw [e]; exact ⟨h4, h1, h2⟩
    · have e : getPolar AD N a i j = (0, 2 * π) := by
        rw [getPolar_of_cart (x := 0) (y := 0) (by rw [h5, ← hz]; simp [polarPoint])
          cartToPolar_zero, if_neg (by linarith)]
      unfold isInterior; rw [e]; exact ⟨hrb, ha2, le_refl _⟩

/-- the hypotheses of C07 hold for the shipped wedge angle and the arc of radius 2.3 -/
example : (0:ℝ) < π / 4 ∧ π / 4 ≤ 2 * π ∧ (0:ℝ) ≤ (fun _ : ℝ => (2.3:ℝ)) (2 * π) := by
  refine ⟨by positivity, by linarith [pi_pos], by norm_num⟩

/-- closed form of `get_radius_point`, both branches -/
theorem getRadiusPoint_eq (a x y : ℝ) (ha : 0 < a) (haπ : a < π) :
    getRadiusPoint a x y = polarPoint (x * cos a + y * sin a) a := by
  have hs : sin a ≠ 0 := (sin_pos_of_pos_of_lt_pi ha haπ).ne'
  unfold getRadiusPoint polarPoint
  split
  · rename_i h; subst h; simp
  · rename_i h
    have hc : cos a ≠ 0 := by
      intro hc
      rcases lt_or_gt_of_ne h with h' | h'
      · have := cos_pos_of_mem_Ioo ⟨by linarith, h'⟩; linarith
      · have := cos_neg_of_pi_div_two_lt_of_lt h' (by linarith); linarith
    have hsc := sin_sq_add_cos_sq a
    have hx : (x / tan a + y) / (tan a + 1 / tan a) = (x * cos a + y * sin a) * cos a := by
      rw [tan_eq_sin_div_cos]
      have : sin a ^ 2 + cos a ^ 2 ≠ 0 := by rw [hsc]; norm_num
      field_simp
      rw [hsc]; ring
    simp only [hx]
    rw [tan_eq_sin_div_cos]
    ext
    · rfl
    · field_simp

/-- **C08** foot point, distance and signed distance for the slanted segment. -/
theorem C08_radius_point (a x y : ℝ) (ha : 0 < a) (haπ : a < π) :
    let f := getRadiusPoint a x y
    f ∈ Line a ∧
    (x - f.1) * cos a + (y - f.2) * sin a = 0 ∧
    (∀ q ∈ Line a, distToRadius a x y ≤ dist2 q (x, y)) ∧
    distToRadius a x y = dist2 f (x, y) ∧
    signedDistToRadius a x y = x * sin a - y * cos a ∧
    (x, y) = (f.1 + signedDistToRadius a x y * sin a, f.2 - signedDistToRadius a x y * cos a) := by
  have hs := sin_pos_of_pos_of_lt_pi ha haπ
  have hsc := sin_sq_add_cos_sq a
  simp only
  have hd : distToRadius a x y = |x * sin a - y * cos a| := by
    unfold distToRadius; rw [getRadiusPoint_eq a x y ha haπ]; simp only [polarPoint]
    rw [← Real.sqrt_sq_eq_abs]; congr 1
    linear_combination (x^2 * cos a ^2 + 2 * x * y * cos a * sin a + y^2 * sin a^2 - x^2 - y^2) * hsc
  have hsd : signedDistToRadius a x y = x * sin a - y * cos a := by
    have hg : (getRadiusPoint a x y).1 = (x * cos a + y * sin a) * cos a := by
      rw [getRadiusPoint_eq a x y ha haπ]; rfl
    unfold signedDistToRadius; simp only
    rw [hd, hg]
    have e : x - (x * cos a + y * sin a) * cos a = sin a * (x * sin a - y * cos a) := by
      linear_combination (-x) * hsc
    split
    · rename_i h
      have : x * sin a - y * cos a < 0 := by
        by_contra hn
        have := mul_nonneg hs.le (not_lt.mp hn); linarith
      rw [abs_of_neg this]; ring
    · rename_i h
      have : 0 ≤ x * sin a - y * cos a := by
        by_contra hn
        have := mul_neg_of_pos_of_neg hs (not_le.mp hn); linarith
      rw [abs_of_nonneg this]
  refine ⟨⟨_, getRadiusPoint_eq a x y ha haπ⟩, ?_, ?_, rfl, hsd, ?_⟩
  · rw [getRadiusPoint_eq a x y ha haπ]; simp only [polarPoint]
    linear_combination (-(x * cos a + y * sin a)) * hsc
  · rintro q ⟨t, rfl⟩
    rw [hd, dist2, ← Real.sqrt_sq_eq_abs]
    apply Real.sqrt_le_sqrt
    simp only [polarPoint]
    have : (t * cos a - x) ^ 2 + (t * sin a - y) ^ 2 - (x * sin a - y * cos a) ^ 2
        = (t - (x * cos a + y * sin a)) ^ 2 := by
      linear_combination (t ^ 2 - x^2 - y^2) * hsc
    nlinarith [sq_nonneg (t - (x * cos a + y * sin a))]
  · rw [hsd, getRadiusPoint_eq a x y ha haπ]; simp only [polarPoint]
    ext
    · simp only; linear_combination (-x) * hsc
    · simp only; linear_combination (-y) * hsc

/-- **C08** the assertions `sid == 2` and the results under them -/
theorem C08_assert (a x y : ℝ) (sid : ℕ) :
    (sid ≠ 2 → getRadiusPointPy a sid x y = .error .assertionError ∧
      distToRadiusPy a sid x y = .error .assertionError ∧
      signedDistToRadiusPy a sid x y = .error .assertionError) ∧
    (sid = 2 → getRadiusPointPy a sid x y = .ok (getRadiusPoint a x y) ∧
      distToRadiusPy a sid x y = .ok (distToRadius a x y) ∧
      signedDistToRadiusPy a sid x y = .ok (signedDistToRadius a x y)) := by
  constructor
  · intro h
    refine ⟨?_, ?_, ?_⟩ <;> simp [getRadiusPointPy, distToRadiusPy, signedDistToRadiusPy, h]
  · rintro rfl
    refine ⟨?_, ?_, ?_⟩ <;> simp [getRadiusPointPy, distToRadiusPy, signedDistToRadiusPy] <;> rfl

example : (0:ℝ) < π / 4 ∧ π / 4 < π := ⟨by positivity, by linarith [pi_pos]⟩

end Pot
