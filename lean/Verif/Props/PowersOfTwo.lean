import Verif.Proofs.RoundedPow2
import Verif.Proofs.TieGeom

/-!
# C102: grids whose size is a power of two

On the grids with `N = 67`, `134` and `257` rounding makes the construction of the grids fail (C97).  The program is run with powers of
two.  There the mesh width, the threshold and all coordinates are those of one grid scaled by a power of two, so that whether the ties
are decided in favour of the construction is a question about finitely many integers: the answer is that every tie `(t + 2, t)` with
`2 ≤ t ≤ 8501` is, if the arithmetic breaks ties to even, squares are rounded and `np.tan(np.pi/4)` is rounded correctly.
-/

namespace Pot
open Real Spec

/-- the correctly rounded value of `np.tan(np.pi/4)` -/
theorem C102_tan {F : Fl} (h : RoundsToNearest F.rnd) : F.rnd (Real.tan F.a) = 1 - 1 / 2 ^ 53 := by
  have h1 := pi_gt_d20
  have h2 := pi_lt_d20
  obtain ⟨b1, -⟩ := tan_a_bounds h
  obtain ⟨δ, hδ⟩ : ∃ δ, δ = π / 4 - F.a := ⟨_, rfl⟩
  have d1 : 1 / 2 ^ 54 * 0.55 < δ := by rw [hδ, a_value h]; norm_num at *; linarith
  have d2 : δ < 1 / 2 ^ 54 * 0.6 := by rw [hδ, a_value h]; norm_num at *; linarith
  have ha : F.a = π / 4 - δ := by rw [hδ]; ring
  have d0 : 0 < δ := lt_trans (by positivity) d1
  have s2 : sin δ < δ := sin_lt d0
  have s1 : δ - δ ^ 3 / 6 < sin δ := sin_gt_sub_cube d0
  have c1 : cos δ ≤ 1 := cos_le_one δ
  have c2 : 0.9 ≤ cos δ := by have := one_sub_sq_div_two_le_cos (x := δ); norm_num at *; nlinarith
  have d3 : δ ^ 3 ≤ 0.001 * δ := by
    have : δ ^ 2 ≤ 0.001 := by norm_num at *; nlinarith
    nlinarith
  have s3 : 1 / 2 ^ 54 * 0.54 < sin δ := by norm_num at *; linarith
  have e : tan F.a = (cos δ - sin δ) / (cos δ + sin δ) := by
    rw [tan_eq_sin_div_cos, ha, sin_sub, cos_sub, sin_pi_div_four, cos_pi_div_four]
    rw [← mul_sub, ← mul_add, mul_div_mul_left _ _ (by positivity)]
  have b2 : tan F.a < 1 - 1 / 2 ^ 54 := by
    rw [e, div_lt_iff₀ (by linarith)]
    norm_num at *; nlinarith
  rw [show (1 : ℝ) - 1 / 2 ^ 53 = 9007199254740991 / 2 ^ 53 by norm_num]
  refine rnd_eq h 9007199254740991 53 (by norm_num) (by norm_num) (by norm_num) (by norm_num) ?_
  rw [abs_lt]
  constructor <;> norm_num at * <;> linarith

theorem tie_between {H x y f ya : ℝ} {t : ℕ} (m1 : 1 / 2 ^ 13 ≤ H) (ht : 2 ≤ t) (hR : √2 * (H * ((t : ℝ) + 1)) ≤ probR - 1 / 2 ^ 22)
    (ex : |x - H * ((t : ℝ) + 2)| ≤ 1 / 2 ^ 48) (ey : |y - H * (t : ℝ)| ≤ 1 / 2 ^ 48) (hf : |f - (x + y) / 2| ≤ 1 / 2 ^ 46)
    (hy : |ya - probR * (√2 / 2)| ≤ 1 / 2 ^ 47) : 0 ≤ f ∧ f ≤ ya := by
  have r1 : 1.414 < √2 := by rw [lt_sqrt (by norm_num)]; norm_num
  have rr : √2 * √2 = 2 := mul_self_sqrt (by norm_num)
  have htr : (2 : ℝ) ≤ t := by exact_mod_cast ht
  have hz : H * ((t : ℝ) + 1) ≤ probR * (√2 / 2) - 1 / 2 ^ 22 * (√2 / 2) := by
    have := mul_le_mul_of_nonneg_left hR (by positivity : (0 : ℝ) ≤ √2 / 2)
    rw [show √2 / 2 * (√2 * (H * ((t : ℝ) + 1))) = (√2 * √2) / 2 * (H * ((t : ℝ) + 1)) by ring, rr] at this
    linarith
  have hz0 : 1 / 2 ^ 13 * 3 ≤ H * ((t : ℝ) + 1) := mul_le_mul m1 (by linarith) (by norm_num) (le_trans (by norm_num) m1)
  rw [abs_le] at ex ey hf hy
  norm_num at ex ey hf hy hz hz0 r1
  constructor <;> linarith

section
variable {F : FlLib} (g : GoodLib97 F) (hsafe : SquareSafe F.sq) (he : TiesToEven F.rnd) (hsq : SquareRounded F.rnd F.sq)
  (hm : F.tan F.a = F.rnd (Real.tan F.a)) {iter : Iter} (hit : IsIter iter) {k : ℕ} (hk : 4 ≤ k) (hk2 : k ≤ 15)
  {b : Brentq} (hb : BrentqSpec b) {name : String} {r : ℝ → ℝ} (h : chooseBoundary name = .ok r)
  {evalR : ℝ → ℝ} (hev : ∀ t, 0.78 ≤ t → t ≤ 6.3 → |evalR t - r t| ≤ 1 / 2 ^ 30)
  {bcoord : ℝ → ℝ → Option (ℝ × ℝ)} (hbc : BcoordAccurate F b r (2 ^ k) bcoord)

include g he hsq hm hk hk2 in
/-- Every tie passes the test for the side `θ = a`, as computed. -/
theorem C102_tie {t : ℕ} (ht : 2 ≤ t) (hR : √2 * (probAD / (2 ^ k : ℕ) * (t + 1)) ≤ probR - 1 / 2 ^ 22) {nd : Node}
    (hnd : nd = (((2 ^ k / 2 + (t + 2) : ℕ) : ℤ), ((2 ^ k / 2 + t : ℕ) : ℤ))) (hn1 : nd.1 ≤ (2 ^ k : ℕ)) :
    ∃ d, getDistF (shippedF F (2 ^ k) evalR bcoord) nd 2 (getEtypeF (shippedF F (2 ^ k) evalR bcoord) 2 nd) = .ok d ∧
      d ≤ (shippedF F (2 ^ k) evalR bcoord).threshold := by
  have hN16 : 16 ≤ 2 ^ k := le_trans (by norm_num) (Nat.pow_le_pow_right (n := 2) (by norm_num) hk)
  have hN15 : 2 ^ k ≤ 2 ^ 15 := Nat.pow_le_pow_right (by norm_num) hk2
  have hc : 2 ^ k = 2 * (2 ^ k / 2) := by
    obtain ⟨l, rfl⟩ : ∃ l, k = l + 1 := ⟨k - 1, by omega⟩
    rw [pow_succ]; omega
  obtain ⟨m1, m2, m3⟩ := mesh_bounds hN16 hN15
  refine ⟨_, place_distF _ _ _, ?_⟩
  have r1 : 1.414 < √2 := by rw [lt_sqrt (by norm_num)]; norm_num
  have r2 : √2 < 1.415 := by rw [sqrt_lt' (by norm_num)]; norm_num
  have rr : √2 * √2 = 2 := mul_self_sqrt (by norm_num)
  have p1 := pi_gt_d4
  have hhl : 1.9174 / 10000 ≤ probAD / (2 ^ k : ℕ) := by
    have hNr2 : ((2 ^ k : ℕ) : ℝ) ≤ 32768 := by exact_mod_cast hN15
    unfold probAD
    rw [div_le_div_iff₀ (by norm_num) m3]; norm_num at p1 hNr2 ⊢; linarith
  have ht8 : t ≤ 8501 := by
    have : (t : ℝ) ≤ 8501 := by
      have q1 : 1.9174 / 10000 * ((t : ℝ) + 1) ≤ probAD / (2 ^ k : ℕ) * ((t : ℝ) + 1) := mul_le_mul_of_nonneg_right hhl (by positivity)
      have q2 : 1.414 * (1.9174 / 10000 * ((t : ℝ) + 1)) ≤ √2 * (probAD / (2 ^ k : ℕ) * ((t : ℝ) + 1)) :=
        mul_le_mul r1.le q1 (by positivity) (by positivity)
      unfold probR at hR
      by_contra hcon
      rw [not_le] at hcon
      have q3 := q2.trans hR
      have q4 : (1.414 : ℝ) * (1.9174 / 10000 * (8501 + 1)) < 1.414 * (1.9174 / 10000 * ((t : ℝ) + 1)) := by linarith
      have q5 := q4.trans_le q3
      norm_num at q5
    exact_mod_cast this
  have pass := tie_passes g.rnd he hsq (hm.trans (C102_tan g.rnd)) ht ht8 (by omega : 1 ≤ k) (by omega : k ≤ 20)
  obtain ⟨c, hcd⟩ : ∃ c, c = 2 ^ k / 2 := ⟨_, rfl⟩
  rw [← hcd] at hc hnd pass
  have hn : nd.1 = ((c + (t + 2) : ℕ) : ℤ) ∧ nd.2 = ((c + t : ℕ) : ℤ) := by rw [hnd]; exact ⟨rfl, rfl⟩
  have h := g.rnd
  have cx := coord_close h (N := 2 ^ k) (by omega) (hN15.trans (by norm_num)) (i := nd.1) (by omega) hn1
  have cy := coord_close h (N := 2 ^ k) (by omega) (hN15.trans (by norm_num)) (i := nd.2) (by omega) (by omega)
  have bx := cx.bx
  have by' := cy.bx
  have ex := cx.err
  have ey := cy.err
  have exy := node_xy hc (by omega) (nd.1 : ℝ) (nd.2 : ℝ)
  rw [hn.1, hn.2] at exy
  unfold getCoord at exy
  rw [Prod.mk.injEq] at exy
  obtain ⟨xx, yy⟩ := exy
  rw [hn.1] at ex bx
  rw [hn.2] at ey by'
  push_cast at xx yy
  show (if (getRadiusPointF F F.a (coordF F.toFl F.AD (2 ^ k) nd.1) (coordF F.toFl F.AD (2 ^ k) nd.2)).2 < 0 then
        dformulaF F 0 0 (coordF F.toFl F.AD (2 ^ k) nd.1) (coordF F.toFl F.AD (2 ^ k) nd.2)
      else if (getRadiusPointF F F.a (coordF F.toFl F.AD (2 ^ k) nd.1) (coordF F.toFl F.AD (2 ^ k) nd.2)).2 > F.rnd (F.rnd probR * F.sin F.a) then
        dformulaF F (F.rnd (F.rnd probR * F.cos F.a)) (F.rnd (F.rnd probR * F.sin F.a))
          (coordF F.toFl F.AD (2 ^ k) nd.1) (coordF F.toFl F.AD (2 ^ k) nd.2)
      else distToRadiusF F F.a (coordF F.toFl F.AD (2 ^ k) nd.1) (coordF F.toFl F.AD (2 ^ k) nd.2))
    ≤ F.rnd (F.rnd (F.AD / (2 ^ k : ℕ)) * F.rnd √2)
  rw [hn.1, hn.2]
  push_cast at ex ey bx by' pass ⊢
  rw [add_sub_cancel_left] at xx yy
  rw [xx] at ex
  rw [yy] at ey
  obtain ⟨f1, f2⟩ := foot_F h g.tan bx by'
  obtain ⟨-, k2⟩ := corner_err g
  push_cast at m1 hR
  obtain ⟨q1, q2⟩ := tie_between m1 ht hR ex ey f2 k2
  rw [if_neg (not_lt.2 q1), if_neg (not_lt.2 q2)]
  exact pass

include g hsafe he hsq hm hit hk hk2 hb h hev hbc in
/-- **On a grid whose size is a power of two the construction of the grids does not fail in double-precision arithmetic**, whatever the
order of the scheme and for every shipped boundary, if no node is within `2⁻²²` of the outer curve. -/
theorem C102_powers_of_two (hclear : ∀ nd ∈ square 1 (2 ^ k), ∀ z ∈ Segment probA probR r 0,
      1 / 2 ^ 22 < dist2 (getCoord probAD (2 ^ k : ℕ) nd.1 nd.2) z) (order : ℕ) :
    ∃ G, psConstructGridsF iter (shippedF F (2 ^ k) evalR bcoord) order = .ok G := by
  have hN16 : 16 ≤ 2 ^ k := le_trans (by norm_num) (Nat.pow_le_pow_right (n := 2) (by norm_num) hk)
  have hN15 : 2 ^ k ≤ 2 ^ 15 := Nat.pow_le_pow_right (by norm_num) hk2
  have hN20 : 2 ^ k ≤ 2 ^ 20 := hN15.trans (by norm_num)
  have hc : 2 ^ k = 2 * (2 ^ k / 2) := by
    obtain ⟨l, rfl⟩ : ∃ l, k = l + 1 := ⟨k - 1, by omega⟩
    rw [pow_succ]; omega
  have tame := chooseBoundary_tame h
  obtain ⟨m1, m2, m3⟩ := mesh_bounds hN16 hN15
  have r1 : 1.4 < √2 := by rw [lt_sqrt (by norm_num)]; norm_num
  have hthr : (1 : ℝ) / 2 ^ 29 ≤ probAD / (2 ^ k : ℕ) * √2 - 1 / 2 ^ 23 := by
    have : 1 / 2 ^ 13 * 1.4 ≤ probAD / (2 ^ k : ℕ) * √2 := mul_le_mul m1 r1.le (by norm_num) (le_trans (by norm_num) m1)
    norm_num at this ⊢; linarith
  refine ((C97_outcome iter (shippedF F (2 ^ k) evalR bcoord) order).1).2 fun nd hnd => ?_
  have hs := mem_nSets hit (2 ^ k) order (shippedF F (2 ^ k) evalR bcoord).interior nd
  rw [(hit _ _).2, Finset.mem_inter] at hnd
  obtain ⟨p, hp, hpr⟩ := hs.1.1 hnd.1
  obtain ⟨q, hq, hqr⟩ := hs.2.1 hnd.2
  have hp := (mem_Mplus hit _ _ _ _).1 hp
  have hq := (mem_Mminus hit _ _ _ _).1 hq
  have hrange := reach_range hp.1 hpr
  have fin : ∀ m : Node, m ∈ square 1 (2 ^ k) → Reach order m nd →
      ((shippedF F (2 ^ k) evalR bcoord).interior m ↔ ¬ (shippedF F (2 ^ k) evalR bcoord).interior nd) →
      ∃ sid d, getDistF (shippedF F (2 ^ k) evalR bcoord) nd sid (getEtypeF (shippedF F (2 ^ k) evalR bcoord) sid nd) = .ok d ∧
        d ≤ (shippedF F (2 ^ k) evalR bcoord).threshold := by
    intro m hm' hr hne
    obtain ⟨-, n1, n2⟩ := mem_M0 hm'
    rcases interior_cases g hN16 hN20 h hev (bcoord := bcoord) hrange.1 hrange.2 with c1 | ⟨z, hz, hz'⟩
    · rcases interior_cases g hN16 hN20 h hev (bcoord := bcoord) n1 n2 with c2 | ⟨z, hz, hz'⟩
      · rw [c1, c2] at hne
        rcases near_or_tie hc hN16 hN15 tame n1 n2 hrange.1 hrange.2 hr.1 hr.2.1 (hclear m hm') hne with
          ⟨sid, z, hz, hz'⟩ | ⟨t, t1, t2, t3⟩
        · exact ⟨sid, C98_near g hsafe hN16 hN20 hb h hbc hrange.1 hrange.2 hz hz'⟩
        · exact ⟨2, C102_tie g he hsq hm hk hk2 t1 t3 t2 hrange.1.2⟩
      · have := hclear m hm' z hz
        norm_num at this hz'
        linarith
    · exact ⟨0, C98_near g hsafe hN16 hN20 hb h hbc hrange.1 hrange.2 hz (hz'.trans hthr)⟩
  by_cases hin : (shippedF F (2 ^ k) evalR bcoord).interior nd
  · exact fin q hq.1 hqr ⟨fun w => absurd w hq.2, fun w => absurd hin w⟩
  · exact fin p hp.1 hpr ⟨fun _ => hin, fun _ => hp.2⟩

end

/-! ## The arc -/

theorem sqrt_gap {h : ℝ} {κ K : ℤ} (hh : 9.4 / 2 ^ 20 ≤ h ^ 2) (k1 : (K + 0.14) * h ^ 2 < 5.29) (k2 : 5.29 < (K + 0.86) * h ^ 2) :
    √(h ^ 2 * κ) < 2.3 - 1 / 2 ^ 22 ∨ 2.3 + 1 / 2 ^ 22 < √(h ^ 2 * κ) := by
  rcases le_or_gt κ K with c | c
  · left
    have c' : (κ : ℝ) ≤ K := by exact_mod_cast c
    rw [sqrt_lt' (by norm_num)]
    have : h ^ 2 * κ ≤ h ^ 2 * K := mul_le_mul_of_nonneg_left c' (sq_nonneg h)
    norm_num at hh k1 ⊢
    linarith
  · right
    have c' : (K : ℝ) + 1 ≤ κ := by exact_mod_cast c
    rw [lt_sqrt (by norm_num)]
    have : h ^ 2 * (K + 1) ≤ h ^ 2 * κ := mul_le_mul_of_nonneg_left c' (sq_nonneg h)
    norm_num at hh k2 ⊢
    linarith

/-- on the grids with `N = 16, …, 2048` no node is within `2⁻²²` of the circle of radius `R` -/
theorem C102_off_arc {k : ℕ} (hk : 4 ≤ k) (hk2 : k ≤ 11) (nd : Node) {z : ℝ × ℝ} (hz : z ∈ Segment probA probR (arcR probR) 0) :
    1 / 2 ^ 22 < dist2 (getCoord probAD (2 ^ k : ℕ) nd.1 nd.2) z := by
  obtain ⟨t, -, -, rfl⟩ := hz
  obtain ⟨i, j⟩ := nd
  have hp1 := pi_gt_d20
  have hp2 := pi_lt_d20
  have hlo : 9.8696044 < π ^ 2 := by nlinarith
  have hhi : π ^ 2 < 9.8696045 := by nlinarith
  obtain ⟨l, rfl⟩ : ∃ l, k = l + 1 := ⟨k - 1, by omega⟩
  have hc : 2 ^ (l + 1) = 2 * 2 ^ l := by rw [pow_succ]; ring
  obtain ⟨h, hh⟩ : ∃ h, h = π / 2 ^ l := ⟨_, rfl⟩
  have e0 : probAD / (2 ^ (l + 1) : ℕ) = h := by
    rw [hh]; unfold probAD; push_cast; rw [pow_succ]; field_simp
  have e1 : getCoord probAD (2 ^ (l + 1) : ℕ) i j = (h * ((i - 2 ^ l : ℤ) : ℝ), h * ((j - 2 ^ l : ℤ) : ℝ)) := by
    have := node_xy hc (by positivity) (i : ℝ) (j : ℝ)
    rw [e0] at this
    push_cast at this ⊢
    exact this
  show 1 / 2 ^ 22 < dist2 (getCoord probAD (2 ^ (l + 1) : ℕ) i j) (polarPoint (arcR probR t) t)
  rw [e1]
  obtain ⟨κ, hκ⟩ : ∃ κ : ℤ, κ = (i - 2 ^ l) ^ 2 + (j - 2 ^ l) ^ 2 := ⟨_, rfl⟩
  have key : ∃ K : ℤ, 9.4 / 2 ^ 20 ≤ h ^ 2 ∧ (K + 0.14) * h ^ 2 < 5.29 ∧ 5.29 < (K + 0.86) * h ^ 2 := by
    rw [hh, div_pow]
    have : l = 3 ∨ l = 4 ∨ l = 5 ∨ l = 6 ∨ l = 7 ∨ l = 8 ∨ l = 9 ∨ l = 10 := by omega
    rcases this with rfl | rfl | rfl | rfl | rfl | rfl | rfl | rfl
    · exact ⟨34, by norm_num; linarith, by norm_num; linarith, by norm_num; linarith⟩
    · exact ⟨137, by norm_num; linarith, by norm_num; linarith, by norm_num; linarith⟩
    · exact ⟨548, by norm_num; linarith, by norm_num; linarith, by norm_num; linarith⟩
    · exact ⟨2195, by norm_num; linarith, by norm_num; linarith, by norm_num; linarith⟩
    · exact ⟨8781, by norm_num; linarith, by norm_num; linarith, by norm_num; linarith⟩
    · exact ⟨35126, by norm_num; linarith, by norm_num; linarith, by norm_num; linarith⟩
    · exact ⟨140506, by norm_num; linarith, by norm_num; linarith, by norm_num; linarith⟩
    · exact ⟨562025, by norm_num; linarith, by norm_num; linarith, by norm_num; linarith⟩
  obtain ⟨K, k0, k1, k2⟩ := key
  obtain ⟨P, hP⟩ : ∃ P : ℝ × ℝ, P = (h * ((i - 2 ^ l : ℤ) : ℝ), h * ((j - 2 ^ l : ℤ) : ℝ)) := ⟨_, rfl⟩
  have e3 : dist2 P (0, 0) = √(h ^ 2 * κ) := by
    rw [hP, hκ]; unfold dist2; dsimp only; congr 1; push_cast; ring
  have e2 : dist2 (polarPoint (arcR probR t) t) (0, 0) = 2.3 := by
    have : dist2 (polarPoint (arcR probR t) t) (0, 0) = √(2.3 ^ 2) := by
      unfold dist2 polarPoint arcR probR
      dsimp only
      congr 1
      linear_combination (2.3 ^ 2 : ℝ) * sin_sq_add_cos_sq t
    rw [this, sqrt_sq (by norm_num)]
  rw [← hP]
  have t1 := dist2_triangle P (0, 0) (polarPoint (arcR probR t) t)
  have t2 := dist2_triangle (polarPoint (arcR probR t) t) (0, 0) P
  rw [dist2_comm (polarPoint (arcR probR t) t) P] at t2
  rw [e2, e3] at t1 t2
  rcases sqrt_gap (κ := κ) k0 k1 k2 with c | c <;> linarith

/-- For the circular arc the construction does not fail on the grids with `N = 16, 32, …, 2048`, whatever the order of the scheme. -/
theorem C102_arc {F : FlLib} (g : GoodLib97 F) (hsafe : SquareSafe F.sq) (he : TiesToEven F.rnd) (hsq : SquareRounded F.rnd F.sq)
    (hm : F.tan F.a = F.rnd (Real.tan F.a)) {iter : Iter} (hit : IsIter iter) {k : ℕ} (hk : 4 ≤ k) (hk2 : k ≤ 11) (order : ℕ) :
    ∃ G, psConstructGridsF iter (shippedF F (2 ^ k) (fun _ => F.rnd probR) fun ρ θ => some (F.rnd (ρ - F.rnd probR), θ)) order
      = .ok G := by
  obtain ⟨b, hb⟩ := exists_brentq
  have h : chooseBoundary "arc" = .ok (arcR probR) := rfl
  have hN16 : 16 ≤ 2 ^ k := le_trans (by norm_num) (Nat.pow_le_pow_right (n := 2) (by norm_num) hk)
  have hN20 : 2 ^ k ≤ 2 ^ 20 := Nat.pow_le_pow_right (by norm_num) (by omega)
  refine C102_powers_of_two g hsafe he hsq hm hit hk (by omega) hb h (fun t _ _ => ?_) (C98_arc_coords g hb hN16 hN20 h)
    (fun nd _ z hz => C102_off_arc hk hk2 nd hz) order
  have := R_err g.rnd
  unfold arcR
  exact this.trans (by norm_num)

/-! ## Finer grids -/

/-- **The grids with `N = 65536`, `131072` and `262144` are too fine:** the fourth-order construction ends with an AssertionError, because
of the node `(N/2 + 10431, N/2 + 10429)`. -/
theorem C102_fails {F : FlLib} (g : GoodLib97 F) (he : TiesToEven F.rnd) (hsq : SquareRounded F.rnd F.sq)
    (hm : F.tan F.a = F.rnd (Real.tan F.a)) {iter : Iter} (hit : IsIter iter) {k : ℕ} (hk : 16 ≤ k) (hk2 : k ≤ 18) {evalR : ℝ → ℝ}
    {bcoord : ℝ → ℝ → Option (ℝ × ℝ)} (hev : ∀ t, 0.78 ≤ t → t ≤ 6.3 → 1.6 ≤ evalR t)
    (hbc : ∀ ρ θ c, 0 ≤ ρ → ρ ≤ 1.6 → 0.3 ≤ θ → θ ≤ 6.7 → bcoord ρ θ = some c → 1 / 5 ≤ |c.1|) :
    psConstructGridsF iter (shippedF F (2 ^ k) evalR bcoord) 4 = .error .assertionError := by
  have h := g.rnd
  have hN1 : 2 ^ 16 ≤ 2 ^ k := Nat.pow_le_pow_right (by norm_num) hk
  have hN2 : 2 ^ k ≤ 2 ^ 18 := Nat.pow_le_pow_right (by norm_num) hk2
  have hc : 2 ^ k = 2 * (2 ^ k / 2) := by
    obtain ⟨l, rfl⟩ : ∃ l, k = l + 1 := ⟨k - 1, by omega⟩
    rw [pow_succ]; omega
  have fails := tie_fails h he hsq (hm.trans (C102_tan h)) (by omega : 1 ≤ k) (by omega : k ≤ 20)
  obtain ⟨N, hNd⟩ : ∃ N, N = 2 ^ k := ⟨_, rfl⟩
  rw [← hNd] at hN1 hN2 hc fails ⊢
  obtain ⟨c, hcd⟩ : ∃ c, c = N / 2 := ⟨_, rfl⟩
  rw [← hcd] at hc fails
  have p1 := pi_gt_d4
  have p2 := pi_lt_d4
  have hNr : (65536 : ℝ) ≤ N := by exact_mod_cast hN1
  have hNr2 : (N : ℝ) ≤ 262144 := by exact_mod_cast hN2
  have hN0 : (0 : ℝ) < N := by linarith
  have cx := (coord_close h (N := N) (by omega) (hN2.trans (by norm_num)) (i := (c + 10429 : ℤ) + 2) (by omega) (by omega)).err
  have cy := (coord_close h (N := N) (by omega) (hN2.trans (by norm_num)) (i := (c + 10429 : ℤ)) (by omega) (by omega)).err
  have bx := (coord_close h (N := N) (by omega) (hN2.trans (by norm_num)) (i := (c + 10429 : ℤ) + 2) (by omega) (by omega)).bx
  have by' := (coord_close h (N := N) (by omega) (hN2.trans (by norm_num)) (i := (c + 10429 : ℤ)) (by omega) (by omega)).bx
  have exy := node_xy hc (by omega) (((c + 10429 : ℤ) + 2 : ℤ) : ℝ) ((c + 10429 : ℤ) : ℝ)
  unfold getCoord at exy
  rw [Prod.mk.injEq] at exy
  rw [exy.1] at cx
  rw [exy.2] at cy
  rw [show (((c + 10429 : ℤ) + 2 : ℤ) : ℝ) - c = 10431 by push_cast; ring, abs_le] at cx
  rw [show ((c + 10429 : ℤ) : ℝ) - c = 10429 by push_cast; ring, abs_le] at cy
  have H1 : probAD / N ≤ 9.588 / 100000 := by
    unfold probAD; rw [div_le_iff₀ hN0]; norm_num at p2 ⊢; linarith
  have H2 : 2.396 / 100000 ≤ probAD / N := by
    unfold probAD; rw [le_div_iff₀ hN0]; norm_num at p1 ⊢; linarith
  have ht := abs_le.1 (threshold_err (N := N) (evalR := evalR) (bcoord := bcoord) (by omega) h)
  have ht' : F.rnd (F.rnd (F.AD / N) * F.rnd √2) < 1 / 5 := by
    have r2 : √2 < 1.5 := by rw [sqrt_lt' (by norm_num)]; norm_num
    have : probAD / N * √2 ≤ 9.588 / 100000 * 1.5 := mul_le_mul H1 r2.le (by positivity) (by norm_num)
    have q := ht.2
    change F.rnd (F.rnd (F.AD / N) * F.rnd √2) - probAD / N * √2 ≤ 1 / 2 ^ 45 at q
    norm_num at q this ⊢
    linarith
  have ht'' : F.rnd (F.rnd (F.AD / N) * F.rnd √2) < 1 / 8 := by
    have r2 : √2 < 1.5 := by rw [sqrt_lt' (by norm_num)]; norm_num
    have : probAD / N * √2 ≤ 9.588 / 100000 * 1.5 := mul_le_mul H1 r2.le (by positivity) (by norm_num)
    have q := ht.2
    change F.rnd (F.rnd (F.AD / N) * F.rnd √2) - probAD / N * √2 ≤ 1 / 2 ^ 45 at q
    norm_num at q this ⊢
    linarith
  obtain ⟨-, f2⟩ := foot_F h g.tan bx by'
  rw [abs_le] at f2
  have hy : 1 / 8 ≤ coordF F.toFl F.AD N (c + 10429 : ℤ) := by
    have q := cy.1
    norm_num at q H2 ⊢; linarith
  have hx : coordF F.toFl F.AD N ((c + 10429 : ℤ) + 2) ≤ 1.1 := by
    have q := cx.2
    norm_num at q H1 ⊢; linarith
  have hx0 : 1 / 8 ≤ coordF F.toFl F.AD N ((c + 10429 : ℤ) + 2) := by
    have q := cx.1
    norm_num at q H2 ⊢; linarith
  have hy0 : coordF F.toFl F.AD N (c + 10429 : ℤ) ≤ 1.1 := by
    have q := cy.2
    norm_num at q H1 ⊢; linarith
  refine C97_assertion g hit (j := (c + 10429 : ℤ)) (by omega) (hN2.trans (by norm_num)) (by omega) (by omega) hx hy ht' (ht''.trans_le hy)
    ?_ ?_ ?_ hev hbc
  · have q := f2.1
    norm_num at q hx0 hy ⊢; linarith
  · have q := f2.2
    norm_num at q hx hy0 ⊢; linarith
  · have e1 : ((c + (10429 + 2) : ℕ) : ℤ) = (c + 10429 : ℤ) + 2 := by push_cast; ring
    have e2 : ((c + 10429 : ℕ) : ℤ) = (c + 10429 : ℤ) := by push_cast; ring
    rw [e1, e2] at fails
    exact fails

/-! ## A library that meets all assumptions -/

theorem sq_rounded_safe {rnd : ℝ → ℝ} (h : RoundsToNearest rnd) : SquareSafe fun x => rnd (x ^ 2) := by
  intro x _ hx
  dsimp only
  have h2 : |x ^ 2| = x ^ 2 := abs_of_nonneg (sq_nonneg x)
  have hb : x ^ 2 ≤ 2 ^ 200 := by
    rw [← sq_abs]
    calc |x| ^ 2 ≤ (2 ^ 100) ^ 2 := pow_le_pow_left₀ (abs_nonneg _) hx 2
      _ = 2 ^ 200 := by norm_num
  have hb2 : x ^ 2 ≤ 2 ^ 1000 := hb.trans (pow_le_pow_right₀ (by norm_num) (by norm_num))
  rcases le_total (1 / 2 ^ 1000) (x ^ 2) with c | c
  · have := Rnd.rel h (x := x ^ 2) (.inr ⟨by rw [h2]; exact c, by rw [h2]; exact hb2⟩)
    rw [h2] at this
    have e : (1 : ℝ) / 2 ^ 53 * x ^ 2 ≤ 1 / 2 ^ 52 * x ^ 2 := mul_le_mul_of_nonneg_right (by norm_num) (sq_nonneg x)
    have e2 : (0 : ℝ) ≤ 1 / 2 ^ 100 := by positivity
    linarith
  · have := (h (x ^ 2) (by rw [h2]; exact hb2)).2 0 ⟨0, 0, by norm_num, by norm_num, by norm_num, by norm_num⟩
    rw [zero_sub, abs_neg, h2] at this
    have e : (1 : ℝ) / 2 ^ 1000 ≤ 1 / 2 ^ 100 := one_div_le_one_div_of_le (by positivity) (pow_le_pow_right₀ (by norm_num) (by norm_num))
    have e2 : 0 ≤ 1 / 2 ^ 52 * x ^ 2 := by positivity
    linarith

theorem sq_rounded_accurate {rnd : ℝ → ℝ} (h : RoundsToNearest rnd) : SquareAccurate fun x => rnd (x ^ 2) := by
  intro x _ hx
  dsimp only
  have h2 : |x ^ 2| = x ^ 2 := abs_of_nonneg (sq_nonneg x)
  have : |rnd (x ^ 2) - x ^ 2| ≤ 1 / 2 ^ 53 * |x ^ 2| := by
    refine Rnd.rel h ?_
    rcases hx with rfl | ⟨l, u⟩
    · left; norm_num
    · right
      rw [h2, ← sq_abs]
      constructor
      · calc (1 : ℝ) / 2 ^ 1000 ≤ 1 / 2 ^ 800 := one_div_le_one_div_of_le (by positivity) (pow_le_pow_right₀ (by norm_num) (by norm_num))
          _ = (1 / 2 ^ 400) ^ 2 := by rw [div_pow, one_pow, ← pow_mul]
          _ ≤ |x| ^ 2 := pow_le_pow_left₀ (by positivity) l 2
      · calc |x| ^ 2 ≤ (2 ^ 400) ^ 2 := pow_le_pow_left₀ (abs_nonneg _) u 2
          _ = 2 ^ 800 := by rw [← pow_mul]
          _ ≤ 2 ^ 1000 := pow_le_pow_right₀ (by norm_num) (by norm_num)
  rw [h2] at this
  exact this.trans (mul_le_mul_of_nonneg_right (by norm_num) (sq_nonneg x))

/-- there is a library that meets all assumptions -/
theorem C102_assumptions : ∃ F : FlLib, GoodLib97 F ∧ SquareSafe F.sq ∧ TiesToEven F.rnd ∧ SquareRounded F.rnd F.sq ∧
    F.tan F.a = F.rnd (Real.tan F.a) := by
  classical
  obtain ⟨rnd, h, he⟩ := exists_tiesToEven
  set F0 : Fl := ⟨rnd, 0, 0⟩
  have h0 : RoundsToNearest F0.rnd := h
  obtain ⟨b1, b2⟩ := pi_bounds h0
  have hd : IsDouble F0.a := Rnd.double h (le_big (c := 1) (by rw [abs_of_pos (by linarith)]; linarith) (by norm_num))
  refine ⟨⟨nearestFl rnd F0.a, fun x => rnd (Real.tan x), Real.sin, Real.cos, fun x => rnd (x ^ 2)⟩,
    ⟨h, nearestFl_libm h hd ((a_err h0).trans (by linarith [pi_gt_three])), fun x _ _ hx => ?_, sq_rounded_accurate h, fun x _ _ _ => ?_,
      fun x dx x1 x2 => ?_⟩, sq_rounded_safe h, he, fun x _ _ => rfl, rfl⟩
  · show F0.a ≤ _
    unfold nearestFl
    dsimp only
    rw [if_pos ⟨rfl, hx⟩]
  · dsimp only
    rw [sub_self, sub_self, abs_zero]; constructor <;> positivity
  · dsimp only
    have t0 : 0 ≤ Real.tan x := tan_nonneg_of_nonneg_of_le_pi_div_two (by linarith) (by linarith [pi_pos])
    have t1 : Real.tan x ≤ 1 := by
      rw [← tan_pi_div_four]
      exact strictMonoOn_tan.monotoneOn ⟨by linarith, by linarith⟩ ⟨by linarith, by linarith⟩ x2
    have t3 : 1 / 2 ≤ Real.tan x := x1.trans (le_tan (by linarith) (by linarith))
    refine ⟨Rnd.double h (le_big (c := 1) (by rw [abs_of_nonneg t0]; exact t1) (by norm_num)), ?_⟩
    have := Rnd.rel' h (x := Real.tan x) (lo := 1 / 2) (hi := 1) (by rw [abs_of_nonneg t0]; exact t3)
      (by rw [abs_of_nonneg t0]; exact t1) (by norm_num) (by norm_num)
    linarith

/-- on one and the same machine the fourth-order construction for the arc succeeds with `N = 1024` and fails with `N = 67` and
`N = 65536` -/
example : ∃ F : FlLib, ∃ iter : Iter, ∃ evalR : ℝ → ℝ, ∃ bcoord : ℝ → ℝ → Option (ℝ × ℝ),
    (∃ G, psConstructGridsF iter (shippedF F 1024 evalR bcoord) 4 = .ok G) ∧
    psConstructGridsF iter (shippedF F 67 evalR bcoord) 4 = .error .assertionError ∧
    psConstructGridsF iter (shippedF F 65536 evalR bcoord) 4 = .error .assertionError := by
  obtain ⟨F, g, hsafe, he, hsq, hm⟩ := C102_assumptions
  have hR := abs_le.1 (R_err g.rnd)
  have hev : ∀ t : ℝ, 0.78 ≤ t → t ≤ 6.3 → 1.6 ≤ F.rnd probR := fun t _ _ => by
    have q := hR.1
    unfold probR at q ⊢; norm_num at q ⊢; linarith
  have hbc : ∀ ρ θ (c : ℝ × ℝ), 0 ≤ ρ → ρ ≤ 1.6 → 0.3 ≤ θ → θ ≤ 6.7 → some (F.rnd (ρ - F.rnd probR), θ) = some c → 1 / 5 ≤ |c.1| := by
    intro ρ θ c h0 h1 _ _ hc
    simp only [Option.some.injEq] at hc
    subst hc
    have := abs_le.1 (Rnd.abs_err g.rnd (x := ρ - F.rnd probR) (hi := 3) (by
      rw [abs_le]; unfold probR at hR ⊢; norm_num at hR h1 ⊢; constructor <;> linarith) (by norm_num))
    dsimp only
    rw [abs_of_neg (by unfold probR at hR this ⊢; norm_num at hR h1 this ⊢; linarith)]
    unfold probR at hR this ⊢; norm_num at hR h1 this ⊢; linarith
  exact ⟨F, _, fun _ => F.rnd probR, fun ρ θ => some (F.rnd (ρ - F.rnd probR), θ),
    C102_arc g hsafe he hsq hm isIter_toList (k := 10) (by norm_num) (by norm_num) 4,
    C97_fails g isIter_toList (N := 67) (.inl rfl) hev hbc,
    C102_fails g he hsq hm isIter_toList (k := 16) (by norm_num) (by norm_num) hev hbc⟩

/-- with `N = 16` the node `(12, 10)` meets the hypotheses of `C102_tie` -/
example : (2 : ℕ) ≤ 2 ∧ √2 * (probAD / (2 ^ 4 : ℕ) * ((2 : ℕ) + 1)) ≤ probR - 1 / 2 ^ 22 ∧
    ((12, 10) : Node) = (((2 ^ 4 / 2 + (2 + 2) : ℕ) : ℤ), ((2 ^ 4 / 2 + 2 : ℕ) : ℤ)) := by
  refine ⟨le_rfl, ?_, rfl⟩
  have p2 := pi_lt_d4
  have r2 : √2 < 1.415 := by rw [sqrt_lt' (by norm_num)]; norm_num
  have h1 : probAD / (2 ^ 4 : ℕ) * ((2 : ℕ) + 1) ≤ 1.2 := by unfold probAD; push_cast; norm_num at p2 ⊢; linarith
  have h0 : 0 ≤ probAD / (2 ^ 4 : ℕ) * ((2 : ℕ) + 1) := by unfold probAD; positivity
  have := mul_le_mul r2.le h1 h0 (by norm_num)
  unfold probR
  norm_num at this ⊢
  linarith

end Pot
