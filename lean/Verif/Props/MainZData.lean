import Verif.Spec.MainZData
import Verif.Props.MainZ
import Verif.Props.Singular
import Verif.Props.Taper
import Verif.Props.ZChain

/-! # Property C91: the data `runz.py` computes with -/

namespace Pot
open Real Spec

theorem sineCoef_arc (a : ℝ) (f : ℝ → ℝ) {N j : ℕ} (hj : j < N) : sineCoef a f N j = arcCoef a f N j := by
  unfold sineCoef
  rw [List.getD_eq_getElem _ _ (by rw [arcDstR_length]; exact hj)]
  unfold arcDstR
  rw [List.getElem_ofFn, arcDst_circle]
  unfold circleCoef arcCoef
  have e : (2 / ((N + 1 : ℕ) : ℂ) * ∑ l ∈ Finset.Ico 1 (N + 1), ((f (a + l * ((2 * π - a) / (N + 1 : ℕ))) : ℝ) : ℂ) *
      ((sin (π * (((⟨j, hj⟩ : Fin N) : ℕ) + 1) * l / (N + 1 : ℕ)) : ℝ) : ℂ)) =
      ((2 / (N + 1) * ∑ l ∈ Finset.Ico 1 (N + 1), f (a + l * ((2 * π - a) / (N + 1))) * sin (π * (j + 1) * l / (N + 1)) : ℝ) : ℂ) := by
    push_cast
    rfl
  rw [e, Complex.ofReal_re]

/-- the function subtracted from `v` by `do_algebra`: `g` plus the correction `q` -/
noncomputable def liftG (zp : ZProblem) (r th : ℝ) : ℝ := zp.g r th + zQ zp.k probA zp.g r th

/-- **C91** with `--z1cheat` the seven coefficients are the sine coefficients, from 2048 points, of `v - (g + q)` on the circle of radius
`R + bet`. -/
theorem C91_cheat (zp : ZProblem) (bname : String) : (zmExpected zp bname).length = 7 ∧
    ∀ j < 7, (zmExpected zp bname).getD j 0 =
      arcCoef (π / 4) (fun th => zp.evalV (2.3 + bet0 bname) th - liftG zp (2.3 + bet0 bname) th) 2048 j := by
  have hb := bet0_nonneg bname
  have hR : zArcR bname = 2.3 + bet0 bname := by unfold zArcR probR; norm_num
  have hne : zArcR bname ≠ 0 := by rw [hR]; norm_num; linarith
  constructor
  · unfold zmExpected zExpectedZ1
    rw [List.length_take, arcDstR_length]
    rfl
  · intro j hj
    have h1 := sineCoef_arc probA (fun th => zp.evalV (zArcR bname) th - zGq zp (zArcR bname) th) (N := arcDstN) (j := j)
      (by unfold arcDstN; omega)
    have h2 : (zmExpected zp bname).getD j 0 = sineCoef probA (fun th => zp.evalV (zArcR bname) th - zGq zp (zArcR bname) th) arcDstN j := by
      unfold zmExpected zExpectedZ1 sineCoef
      rw [List.getD_eq_getElem?_getD, List.getElem?_take_of_lt (by show j < zM; exact hj), ← List.getD_eq_getElem?_getD]
    rw [h2, h1]
    unfold zGq myLambdify
    simp only [if_neg hne]
    rw [hR]
    rfl

/-- **C91** without `--z1cheat`: if `odeint` returns the value of a solution of the system it is given, the seven coefficients are the
values at `R + bet` of functions `Z j` such that `Z j (r) sin((j+1) ν (θ - a))` solves, between the radii `1/10` and `R + bet`, the
Helmholtz equation with the corresponding mode of `-(Δ + k²)(g + q)` as source, and whose values and slopes at `1/10` are the modes of
the partial series `v_series` minus `g + q` and of its radial derivative (1024 points each). -/
theorem C91_ode (lib : ZLib) (zp : ZProblem) (bname : String)
    (hode : ∀ ic, odeIc odeFourierN (myLambdify (zInitial zp.k probA zp.g zp.vSeries)) (myLambdify (zDInitial zp.k probA zp.g zp.vSeries))
        probA zR0 zM = .ok ic →
      ∃ Y, SolvesOde (odeDeriv odeFourierN (myLambdify (zF1 zp.k probA zp.g)) probA probNu zp.k zM) 14 ic zR0 (zArcR bname) Y ∧
        lib.odeint (odeDeriv odeFourierN (myLambdify (zF1 zp.k probA zp.g)) probA probNu zp.k zM) ic zR0 (zArcR bname) =
          .ok (Y (zArcR bname))) :
    ∃ z1, zmOde lib zp bname = .ok z1 ∧ z1.length = 7 ∧ ∃ Z : ℕ → ℝ → ℝ, ∀ j < 7,
      z1.getD j 0 = Z j (2.3 + bet0 bname) ∧
      Z j (1 / 10) = arcCoef (π / 4) (fun th => zp.vSeries (1 / 10) th - liftG zp (1 / 10) th) 1024 j ∧
      HasDerivWithinAt (Z j) (arcCoef (π / 4) (fun th => deriv (fun r => zp.vSeries r th - liftG zp r th) (1 / 10)) 1024 j)
        (Set.Icc (1 / 10) (2.3 + bet0 bname)) (1 / 10) ∧
      ∀ r ∈ Set.Ioo (1 / 10) (2.3 + bet0 bname), ∀ th, HelmholtzAt zp.k (fun r th => Z j r * sin (((j + 1 : ℕ) : ℝ) * (4 / 7) * (th - π / 4)))
        (arcCoef (π / 4) (fun th => -polarHelm zp.k zp.g r th - polarHelm zp.k (zQ zp.k (π / 4) zp.g) r th) 1024 j *
          sin (((j + 1 : ℕ) : ℝ) * (4 / 7) * (th - π / 4))) r th := by
  have hpi := pi_gt_three
  have hb := bet0_nonneg bname
  have hR : zArcR bname = 2.3 + bet0 bname := by unfold zArcR probR; norm_num
  have hR0 : zR0 = 1 / 10 := rfl
  have hA : probA = π / 4 := rfl
  obtain ⟨z1, h1, h2, Z, h3, -⟩ := C54_modes (N := odeFourierN) (M := zM) (by decide) lib.odeint
    (myLambdify (zInitial zp.k probA zp.g zp.vSeries)) (myLambdify (zDInitial zp.k probA zp.g zp.vSeries)) (myLambdify (zF1 zp.k probA zp.g))
    (a := probA) (nu := probNu) (k := zp.k) (R0 := zR0) (R := zArcR bname) (by rw [hR0]; norm_num) (by rw [hR0, hR]; norm_num; linarith)
    (by rw [hA]; intro h; linarith) rfl hode
  refine ⟨z1, h1, h2, Z, fun j hj => ?_⟩
  obtain ⟨a1, a2, a3, -, a5⟩ := h3 j hj
  have hjN : j < odeFourierN := by unfold odeFourierN; omega
  rw [sineCoef_arc _ _ hjN] at a2 a3
  rw [hR] at a1 a3 a5
  rw [hR0] at a2 a3 a5
  have hne : (1 / 10 : ℝ) ≠ 0 := by norm_num
  have e2 : myLambdify (zInitial zp.k probA zp.g zp.vSeries) (1 / 10) = fun th => zp.vSeries (1 / 10) th - liftG zp (1 / 10) th := by
    funext th
    unfold myLambdify
    rw [if_neg hne]
    rfl
  have e3 : myLambdify (zDInitial zp.k probA zp.g zp.vSeries) (1 / 10) =
      fun th => deriv (fun r => zp.vSeries r th - liftG zp r th) (1 / 10) := by
    funext th
    unfold myLambdify
    rw [if_neg hne]
    rfl
  rw [e2] at a2
  rw [e3] at a3
  refine ⟨a1, a2, a3, fun r hr th => ?_⟩
  have := a5 r hr th
  rw [sineCoef_arc _ _ hjN, probNu_eq] at this
  have hr0 : r ≠ 0 := by
    have := hr.1
    intro h
    rw [h] at this
    norm_num at this
  have e5 : myLambdify (zF1 zp.k probA zp.g) r = fun th => -polarHelm zp.k zp.g r th - polarHelm zp.k (zQ zp.k (π / 4) zp.g) r th := by
    funext th
    unfold myLambdify
    rw [if_neg hr0]
    rfl
  rw [e5] at this
  exact this

/-- the conditions on the functions of a problem of the z-method: `v` and `g` take the data on the two rays, the data fit at the
corners of the outer curve, and there are no data for radii that are not positive -/
structure ZConsistent (zp : ZProblem) : Prop where
  v1 : ∀ r, 0 < r → zp.evalV r (2 * π) = zp.phi1 r
  v2 : ∀ r, 0 < r → zp.evalV r (π / 4) = zp.phi2 r
  g1 : ∀ r, 0 < r → zp.g r (2 * π) = zp.phi1 r
  g2 : ∀ r, 0 < r → zp.g r (π / 4) = zp.phi2 r
  corner1 : ∀ rb : ℝ → ℝ, 0 < rb (2 * π) → zp.phi0 rb (2 * π) = zp.phi1 (rb (2 * π))
  corner2 : ∀ rb : ℝ → ℝ, 0 < rb (π / 4) → zp.phi0 rb (π / 4) = zp.phi2 (rb (π / 4))
  tip : ∀ r ≤ 0, zp.phi1 r = 0 ∧ zp.phi2 r = 0
  expected : zp.isIz = true → (∀ rb th, zp.phi0 rb th = zp.expectedPolar (rb th) th) ∧ ∀ r th, zp.expectedPolar r th = zp.evalV r th

theorem vAsympt0_partial (K : ℕ) (k nu : ℝ) (n : ℕ) (r : ℝ) : vAsympt0 K k nu n r = besselPartial ((K + 1 / 2) * nu) n (k * r) := by
  rw [vAsympt0_eq]
  rfl

/-- **C91** the three problems of the z-method, for every function in the place of the Bessel functions: the records are consistent;
`v` is the singular function (or the sum of two) given by the table, which solves the Helmholtz equation if the Bessel functions solve
their equation; `v_series` has ten terms of their series, and `v_asympt` has two, times one up to the radius `1/10` and times zero from the
radius `2.3` on. -/
theorem C91_problems (jv : ℝ → ℝ → ℝ) {name : String} {zp : ZProblem} (h : (zTable jv).lookup name = some zp) :
    ZConsistent zp ∧ (zp.isIz = true ↔ name = "iz-bessel") ∧
    (zp.k = if name = "ihz-bessel-quadratic" then 43 / 4 else 27 / 4) ∧
    (∀ r th, zp.evalV r th = jv (2 / 7) (zp.k * r) * sin (2 / 7 * (th - π / 4)) +
      if name = "ihz-bessel-quadratic" then jv (6 / 7) (zp.k * r) * sin (6 / 7 * (th - 2 * π)) else 0) ∧
    (∀ r th, zp.vSeries r th = besselPartial (2 / 7) 10 (zp.k * r) * sin (2 / 7 * (th - π / 4)) +
      if name = "ihz-bessel-quadratic" then besselPartial (6 / 7) 10 (zp.k * r) * sin (6 / 7 * (th - 2 * π)) else 0) ∧
    (∀ r th, r ≤ 1 / 10 → zp.vAsympt r th = besselPartial (2 / 7) 2 (zp.k * r) * sin (2 / 7 * (th - π / 4)) +
      if name = "ihz-bessel-quadratic" then besselPartial (6 / 7) 2 (zp.k * r) * sin (6 / 7 * (th - 2 * π)) else 0) ∧
    (∀ r th, 2.3 ≤ r → zp.vAsympt r th = 0) ∧
    (name = "ihz-bessel-line" → ∀ rb th, 0 < rb th → zp.phi0 rb th = (th - π / 4) / (7 * π / 4) * zp.phi1 (rb th)) ∧
    (name = "ihz-bessel-quadratic" → ∀ rb th, 0 < rb th → zp.phi0 rb th = zp.phi2 (rb th) +
      (zp.phi1 (rb th) - zp.phi2 (rb th)) * ((th - π / 4) * (th - 7 * π / 4) / (7 * π ^ 2 / 16))) ∧
    ∀ r th, r ≠ 0 → BesselAt (2 / 7) (jv (2 / 7)) (zp.k * r) → BesselAt (6 / 7) (jv (6 / 7)) (zp.k * r) → HelmholtzAt zp.k zp.evalV 0 r th := by
  have hpi := pi_gt_three
  have hA : probA = π / 4 := rfl
  have hne : probA ≠ 2 * π := by rw [hA]; intro h; linarith
  have hne0 : probA ≠ 0 := by rw [hA]; intro h; linarith
  have hnu : probNu = π / (2 * π - probA) := rfl
  have n0 : ((0 : ℕ) + 1 / 2 : ℝ) * probNu = 2 / 7 := by rw [probNu_eq]; norm_num
  have n1 : ((1 : ℕ) + 1 / 2 : ℝ) * probNu = 6 / 7 := by rw [probNu_eq]; norm_num
  have m0 : probNu / 2 = 2 / 7 := by rw [probNu_eq]; norm_num
  have m1 : 3 * probNu / 2 = 6 / 7 := by rw [probNu_eq]; norm_num
  have hR0 : zR0 = 1 / 10 := rfl
  have hR : probR = 2.3 := by unfold probR; norm_num
  obtain ⟨t1, t2, -⟩ := C52_taper (R0 := zR0) (R := probR) (by rw [hR0, hR]; norm_num)
  rw [hR0] at t1
  rw [hR] at t2
  have hRp : 0 < probR := by rw [hR]; norm_num
  have hmem := h
  simp only [zTable, List.lookup_cons, List.lookup_nil] at hmem
  split at hmem
  · rename_i he
    rw [beq_iff_eq] at he
    cases hmem
    subst he
    obtain ⟨c1, c2, c3, c4, c5, c6⟩ := C71_iz jv ihKK ihK probA probNu fun r => r
    refine ⟨⟨fun r hr => c2 r hr, fun r _ => c3 r, fun r hr => ?_, fun r _ => ?_, fun rb hrb => (C71_iz jv ihKK ihK probA probNu rb).2.2.2.1 hrb,
      fun rb _ => (C71_iz jv ihKK ihK probA probNu rb).2.2.2.2.1, fun r hr => ⟨c6 r hr, rfl⟩, fun _ => ⟨fun rb th => rfl, fun r th => rfl⟩⟩,
      by simp [izBessel], ?_, fun r th => ?_, fun r th => ?_, fun r th hr => ?_, fun r th hr => ?_,
      (fun h => absurd h (by decide)), (fun h => absurd h (by decide)), fun r th hr b1 _ => ?_⟩
    · exact ((C71_v_sides jv hne hnu ihKK ihK probR r).2.1 ⟨0, rfl⟩).symm.trans (c2 r hr)
    · exact ((C71_v_sides jv hne hnu ihKK ihK probR r).1).symm.trans (c3 r)
    · rw [if_neg (by decide)]; rfl
    · rw [if_neg (by decide), add_zero, ← n0]; rfl
    · rw [if_neg (by decide), add_zero, ← n0, ← vAsympt0_partial]; rfl
    · rw [if_neg (by decide), add_zero, ← n0, ← vAsympt0_partial]
      show ihVAsympt ihKK ihK probA probNu zR0 probR r th = _
      unfold ihVAsympt
      rw [hR0, t1 r hr, mul_one]; rfl
    · show ihVAsympt ihKK ihK probA probNu zR0 probR r th = _
      unfold ihVAsympt
      rw [hR, t2 r hr, mul_zero]
    · refine (C71_pde jv (k := ihK) hr probA probNu th).1 ihKK ?_
      rw [show ((ihKK : ℕ) + 1 / 2 : ℝ) * probNu = 2 / 7 from n0]
      exact b1
  · split at hmem
    · rename_i he
      rw [beq_iff_eq] at he
      cases hmem
      subst he
      obtain ⟨c1, c2, -, -, c5⟩ := C71_line jv false ihKK ihK hne probNu hRp fun r => r
      have hvs := C71_v_sides jv hne hnu ihKK ihK probR
      refine ⟨⟨fun r hr => ((hvs r).2.1 ⟨0, rfl⟩).trans (c1 r hr), fun r _ => (hvs r).1.trans (c2 r), fun r hr => c1 r hr, fun r _ => c2 r,
        fun rb hrb => ?_, fun rb _ => (C71_line jv false ihKK ihK hne probNu hRp rb).2.2.2.1, fun r hr => ⟨c5 r hr, rfl⟩, fun h => by cases h⟩,
        by simp [ihzLine], ?_, fun r th => ?_, fun r th => ?_, fun r th hr => ?_, fun r th hr => ?_, fun _ rb th hrb => ?_,
        (fun h => absurd h (by decide)), fun r th hr b1 _ => ?_⟩
      · show linePhi0 jv ihKK ihK probA probNu rb (2 * π) = linePhi1 jv false ihKK ihK probNu probR (rb (2 * π))
        simp only [linePhi0, linePhi1]
        rw [if_neg (fun h => by cases h.2), if_pos hrb, mul_div_assoc, div_self (fun h => hne (by linarith)), mul_one]
      · rw [if_neg (by decide)]; rfl
      · rw [if_neg (by decide), add_zero, ← n0]; rfl
      · rw [if_neg (by decide), add_zero, ← n0, ← vAsympt0_partial]; rfl
      · rw [if_neg (by decide), add_zero, ← n0, ← vAsympt0_partial]
        show ihVAsympt ihKK ihK probA probNu zR0 probR r th = _
        unfold ihVAsympt
        rw [hR0, t1 r hr, mul_one]; rfl
      · show ihVAsympt ihKK ihK probA probNu zR0 probR r th = _
        unfold ihVAsympt
        rw [hR, t2 r hr, mul_zero]
      · show linePhi0 jv ihKK ihK probA probNu rb th = _ * linePhi1 jv false ihKK ihK probNu probR (rb th)
        simp only [linePhi0, linePhi1]
        rw [if_neg (fun h => by cases h.2), if_pos hrb, hA, show 2 * π - π / 4 = 7 * π / 4 by ring]
        ring
      · refine (C71_pde jv (k := ihK) hr probA probNu th).1 ihKK ?_
        rw [show ((ihKK : ℕ) + 1 / 2 : ℝ) * probNu = 2 / 7 from n0]
        exact b1
    · split at hmem
      · rename_i he
        rw [beq_iff_eq] at he
        cases hmem
        subst he
        obtain ⟨c1, c2, -, -, c5⟩ := C71_quad jv quadK hne hne0 hnu fun r => r
        refine ⟨⟨fun r hr => (c2 r hr).1, fun r hr => (c2 r hr).2, fun r hr => (c1 r hr).1, fun r hr => (c1 r hr).2,
          fun rb hrb => (C71_quad jv quadK hne hne0 hnu rb).2.2.1 hrb, fun rb hrb => (C71_quad jv quadK hne hne0 hnu rb).2.2.2.1 hrb,
          fun r hr => c5 r hr, fun h => by cases h⟩,
          by simp [ihzQuadratic], ?_, fun r th => ?_, fun r th => ?_, fun r th hr => ?_, fun r th hr => ?_,
          (fun h => absurd h (by decide)), fun _ rb th hrb => ?_, fun r th hr b1 b2 => ?_⟩
        · rw [if_pos rfl]; rfl
        · rw [if_pos rfl, ← m0, ← m1]; rfl
        · rw [if_pos rfl, ← n0, ← n1, ← vAsympt0_partial, ← vAsympt0_partial, n0, n1, ← m0, ← m1]; rfl
        · rw [if_pos rfl, ← n0, ← n1, ← vAsympt0_partial, ← vAsympt0_partial, n0, n1, ← m0, ← m1]
          show quadVAsympt quadK probA probNu zR0 probR r th = _
          unfold quadVAsympt
          rw [hR0, t1 r hr, mul_one]; rfl
        · show quadVAsympt quadK probA probNu zR0 probR r th = _
          unfold quadVAsympt
          rw [hR, t2 r hr, mul_zero]
        · show quadPhi0 jv quadK probA probNu rb th = quadPhi2 jv quadK probNu (rb th) +
            (quadPhi1 jv quadK probNu (rb th) - quadPhi2 jv quadK probNu (rb th)) * _
          simp only [quadPhi0, quadPhi1, quadPhi2]
          rw [if_pos hrb, if_pos hrb, hA, show 2 * π - π / 4 = 7 * π / 4 by ring, show π / 4 * (7 * π / 4) = 7 * π ^ 2 / 16 by ring]
        · refine (C71_pde jv (k := quadK) hr probA probNu th).2 ?_ ?_
          · rw [m0]; exact b1
          · rw [m1]; exact b2
      · cases hmem

/-! ## Concrete cases -/

/-- the third problem with the powers `x ^ mu` in the place of the Bessel functions -/
example : ∃ zp, (zTable fun mu x => x ^ mu).lookup "ihz-bessel-quadratic" = some zp ∧ zp.phi1 1 = (43 / 4 : ℝ) ^ (2 / 7 : ℝ) ∧
    zp.phi0 (fun _ => 1) (2 * π) = (43 / 4 : ℝ) ^ (2 / 7 : ℝ) := by
  have h : (zTable fun mu x => x ^ mu).lookup "ihz-bessel-quadratic" = some (ihzQuadratic fun mu x => x ^ mu) := rfl
  obtain ⟨c, -, -, hv, -⟩ := C91_problems (fun mu x => x ^ mu) h
  have e1 : (ihzQuadratic fun mu x => x ^ mu).phi1 1 = (43 / 4 : ℝ) ^ (2 / 7 : ℝ) := by
    rw [← c.v1 1 one_pos, hv, if_pos rfl]
    rw [show (2 : ℝ) / 7 * (2 * π - π / 4) = π / 2 by ring, sin_pi_div_two, sub_self, mul_zero, sin_zero, mul_zero, add_zero, mul_one]
    congr 1
    show quadK * 1 = _
    unfold quadK
    norm_num
  refine ⟨_, h, e1, ?_⟩
  rw [c.corner1 (fun _ => 1) one_pos]
  exact e1

/-- the solution of the example below -/
noncomputable def powSol (r : ℝ) : List ℝ :=
  List.ofFn fun i : Fin 14 => if i = 0 then r ^ (4 / 7 : ℝ) else if i = 1 then 4 / 7 * r ^ (4 / 7 - 1 : ℝ) else 0

theorem powSol_getD (r : ℝ) {i : ℕ} (hi : i < 14) :
    (powSol r).getD i 0 = if i = 0 then r ^ (4 / 7 : ℝ) else if i = 1 then 4 / 7 * r ^ (4 / 7 - 1 : ℝ) else 0 := by
  unfold powSol
  rw [List.getD_eq_getElem _ _ (by simpa using hi), List.getElem_ofFn]
  simp [Fin.ext_iff]

theorem sum_first (c : ℝ) {N : ℕ} (hN : 1 ≤ N) (nu a th : ℝ) : c * sin (nu * (th - a)) =
    ∑ j ∈ Finset.range N, (if j = 0 then c else 0) * sin (((j + 1 : ℕ) : ℝ) * nu * (th - a)) := by
  rw [Finset.sum_eq_single 0 (fun j _ hj => by rw [if_neg hj, zero_mul]) (fun h => absurd (Finset.mem_range.2 hN) h)]
  simp

/-- `g = 0`, `k = 0`, `v_series = r ^ (4/7) sin (4/7 (θ - π/4))`, and an `odeint` that returns the solution: the hypotheses of
`C91_ode` hold, and the coefficients are not all zero. -/
example : ∃ (lib : ZLib) (zp : ZProblem) (z1 : List ℝ) (Z : ℕ → ℝ → ℝ), zmOde lib zp "arc" = .ok z1 ∧ z1.length = 7 ∧
    (∀ j < 7, z1.getD j 0 = Z j (2.3 + bet0 "arc")) ∧ Z 0 (1 / 10) = (1 / 10) ^ (4 / 7 : ℝ) := by
  have hpi := pi_gt_three
  have ha : probA ≠ 2 * π := by unfold probA; intro h; linarith
  let zp : ZProblem := ⟨0, fun _ _ => 0, fun _ _ => 0, fun r th => r ^ (4 / 7 : ℝ) * sin (4 / 7 * (th - π / 4)), fun _ _ => 0,
    fun _ _ => 0, fun _ => 0, fun _ => 0, false, fun _ _ => 0⟩
  let lib : ZLib := ⟨fun _ _ => 0, fun _ _ _ R => .ok (powSol R), fun _ b => b, lookupInterp, fun _ _ _ => [], fun _ _ => [], fun _ _ _ => none⟩
  have hF0 : ∀ r th, zF0 0 (fun _ _ => 0) r th = 0 := by intro r th; simp [zF0, helmOp]
  have hQ : zQ 0 probA (fun _ _ => 0) = fun _ _ => 0 := by
    funext r th
    simp [zQ, zQ1, zQ2, hF0]
  have hF1 : myLambdify (zF1 0 probA fun _ _ => 0) = fun _ _ => 0 := by
    funext r th
    unfold myLambdify zF1
    rw [hQ, hF0]
    simp [helmOp]
  have hI : ∀ r th, zInitial 0 probA (fun _ _ => 0) zp.vSeries r th = r ^ (4 / 7 : ℝ) * sin (4 / 7 * (th - π / 4)) := by
    intro r th
    unfold zInitial
    rw [hQ]
    simp [zp]
  have hD : ∀ r th, 0 < r → zDInitial 0 probA (fun _ _ => 0) zp.vSeries r th = (4 / 7 * r ^ (4 / 7 - 1 : ℝ)) * sin (4 / 7 * (th - π / 4)) := by
    intro r th hr
    unfold zDInitial
    rw [show (fun r => zInitial 0 probA (fun _ _ => 0) zp.vSeries r th) = fun r => r ^ (4 / 7 : ℝ) * sin (4 / 7 * (th - π / 4)) from
      funext fun r => hI r th]
    exact ((hasDerivAt_rpow_const (.inl hr.ne')).mul_const _).deriv
  have hR0 : (0 : ℝ) < zR0 := by unfold zR0; norm_num
  obtain ⟨z1, h1, h2, Z, h3⟩ := C91_ode lib zp "arc" (fun ic hic => by
    obtain ⟨ic', hic', hl, hv⟩ := odeIc_eq (N := odeFourierN) (M := zM) (by decide) (myLambdify (zInitial zp.k probA zp.g zp.vSeries))
      (myLambdify (zDInitial zp.k probA zp.g zp.vSeries)) probA zR0
    rw [hic'] at hic
    cases hic
    refine ⟨powSol, ⟨?_, fun r hr => ⟨by simp [powSol], ?_⟩⟩, rfl⟩
    · refine List.ext_getElem (by rw [hl]; simp [powSol, zM]) fun i hi _ => ?_
      have hi14 : i < 14 := by simpa [powSol] using hi
      rw [← List.getD_eq_getElem (d := 0), ← List.getD_eq_getElem (d := 0), powSol_getD _ hi14]
      have e1 : myLambdify (zInitial zp.k probA zp.g zp.vSeries) zR0 = fun th => zR0 ^ (4 / 7 : ℝ) * sin (4 / 7 * (th - π / 4)) := by
        funext th
        unfold myLambdify
        rw [if_neg hR0.ne']
        exact hI _ _
      have e2 : myLambdify (zDInitial zp.k probA zp.g zp.vSeries) zR0 =
          fun th => (4 / 7 * zR0 ^ (4 / 7 - 1 : ℝ)) * sin (4 / 7 * (th - π / 4)) := by
        funext th
        unfold myLambdify
        rw [if_neg hR0.ne']
        exact hD _ _ hR0
      obtain ⟨j, hj | hj⟩ : ∃ j, i = 2 * j ∨ i = 2 * j + 1 := ⟨i / 2, by omega⟩
      · have := (hv j (by show j < 7; omega)).1
        rw [e1, sineCoef_series ha rfl odeFourierN _ (fun th => by
          rw [probNu_eq.symm.trans (show probNu = π / (2 * π - probA) from rfl) |>.symm]
          exact sum_first _ (by decide) _ _ th) (by unfold odeFourierN; omega)] at this
        rw [hj, this]
        rcases Nat.eq_zero_or_pos j with h | h
        · subst h; simp
        · rw [if_neg (by omega), if_neg (by omega), if_neg (by omega)]
      · have := (hv j (by show j < 7; omega)).2
        rw [e2, sineCoef_series ha rfl odeFourierN _ (fun th => by
          rw [probNu_eq.symm.trans (show probNu = π / (2 * π - probA) from rfl) |>.symm]
          exact sum_first _ (by decide) _ _ th) (by unfold odeFourierN; omega)] at this
        rw [hj, this]
        rcases Nat.eq_zero_or_pos j with h | h
        · subst h; simp
        · rw [if_neg (by omega), if_neg (by omega), if_neg (by omega)]
    · have hr0 : 0 < r := lt_of_lt_of_le hR0 hr.1
      obtain ⟨D, hDo, -, hDv⟩ := C54_rhs (N := odeFourierN) (M := zM) (by decide) (myLambdify (zF1 zp.k probA zp.g)) probA probNu zp.k
        (Y := powSol r) (by simp [powSol, zM]) hr0.ne'
      refine ⟨D, hDo, fun i hi => ?_⟩
      have hs : ∀ j < 7, sineCoef probA (myLambdify (zF1 zp.k probA zp.g) r) odeFourierN j = 0 := by
        intro j hj
        rw [show myLambdify (zF1 zp.k probA zp.g) = fun _ _ => 0 from hF1,
          sineCoef_series ha rfl odeFourierN (fun _ => 0) (fun th => by simp) (by unfold odeFourierN; omega)]
      refine HasDerivAt.hasDerivWithinAt ?_
      have hfun : (fun ρ => (powSol ρ).getD i 0) = fun ρ => if i = 0 then ρ ^ (4 / 7 : ℝ) else if i = 1 then 4 / 7 * ρ ^ (4 / 7 - 1 : ℝ) else 0 :=
        funext fun ρ => powSol_getD ρ hi
      rw [hfun]
      obtain ⟨j, hj | hj⟩ : ∃ j, i = 2 * j ∨ i = 2 * j + 1 := ⟨i / 2, by omega⟩
      · have := (hDv j (by show j < 7; omega)).1
        rw [hj, this, powSol_getD _ (by omega)]
        rcases Nat.eq_zero_or_pos j with h | h
        · subst h
          simpa using hasDerivAt_rpow_const (x := r) (p := 4 / 7) (.inl hr0.ne')
        · rw [if_neg (by omega), if_neg (by omega)]
          simp only [if_neg (show ¬ 2 * j = 0 by omega), if_neg (show ¬ 2 * j = 1 by omega)]
          exact hasDerivAt_const _ _
      · have := (hDv j (by show j < 7; omega)).2
        rw [hj, this, powSol_getD _ (by omega), powSol_getD _ (by omega), hs j (by omega)]
        rcases Nat.eq_zero_or_pos j with h | h
        · subst h
          have hd := (hasDerivAt_rpow_const (x := r) (p := 4 / 7 - 1) (.inl hr0.ne')).const_mul (4 / 7)
          have e : -(4 / 7 * r ^ (4 / 7 - 1 : ℝ)) / r - ((0 : ℝ) ^ 2 - (((0 + 1 : ℕ) : ℝ) * (4 / 7) / r) ^ 2) * r ^ (4 / 7 : ℝ) + 0 =
              4 / 7 * ((4 / 7 - 1) * r ^ (4 / 7 - 1 - 1 : ℝ)) := by
            have e1 : r ^ (4 / 7 - 1 : ℝ) = r ^ (4 / 7 : ℝ) / r := rpow_sub_one hr0.ne' _
            have e2 : r ^ (4 / 7 - 1 - 1 : ℝ) = r ^ (4 / 7 : ℝ) / r / r := by rw [rpow_sub_one hr0.ne', e1]
            rw [e1, e2]
            generalize r ^ (4 / 7 : ℝ) = P
            push_cast
            ring
          rw [probNu_eq, show zp.k = 0 from rfl]
          simpa [← e] using hd
        · rw [if_neg (by omega), if_neg (by omega), if_neg (by omega), if_neg (by omega)]
          simp only [if_neg (show ¬ 2 * j + 1 = 0 by omega), if_neg (show ¬ 2 * j + 1 = 1 by omega)]
          simpa using hasDerivAt_const r (0 : ℝ))
  refine ⟨lib, zp, z1, Z, h1, h2, fun j hj => (h3 j hj).1, ?_⟩
  rw [(h3 0 (by norm_num)).2.1, ← sineCoef_arc _ _ (by norm_num)]
  refine sineCoef_series (nu := probNu) (a := probA) ha rfl 1024 (fun j => if j = 0 then (1 / 10) ^ (4 / 7 : ℝ) else 0) (fun th => ?_) (by norm_num)
  rw [← sum_first _ (by norm_num), probNu_eq]
  show _ - (0 + zQ 0 probA (fun _ _ => 0) (1 / 10) th) = _
  rw [hQ, add_zero, sub_zero]
  rfl

end Pot
