import Verif.Props.ZMethod
import Verif.Props.ABCoef
import Verif.Props.Asympt
import Verif.Props.Ode
import Verif.Props.ZAlgebra

/-!
# C70, C72: the stages of the z-method fit together
-/

namespace Pot
open Spec Real Filter Topology

/-! ## C72: from the problem's expressions to the coefficients of `z1` -/

/-- **C72** the ODE method fed with the functions `do_algebra` prepares computes the coefficients that `get_expected_z1_fourier`
computes from the exact solution.  Hypotheses: `v` solves the Helmholtz equation between the circles, the series agrees with it
near the inner circle, `g` and its residual on the sides are smooth enough, `odeint` solves the system, and
`z1 = v - (g + q)` is a sine series of at most `N` modes with twice differentiable coefficients. -/
theorem C72_ode {N n M : ℕ} (hM : M ≤ N) (hn : N ≤ n) (odeint : Odeint) {k a nu R0 R : ℝ} (h0 : 0 < R0) (hR : R0 < R) (ha : a ≠ 2 * π)
    (hnu : nu = π / (2 * π - a)) (g v vSeries : ℝ → ℝ → ℝ)
    (hv : ∀ r ∈ Set.Icc R0 R, ∀ th, HelmholtzAt k v 0 r th)
    (hg : ∀ r ∈ Set.Icc R0 R, ∀ th, ∃ G, HelmholtzAt k g G r th)
    (h1 : ∀ r ∈ Set.Icc R0 R, ∃ c1 c2, TwiceAt (fun ρ => zF0 k g ρ a) r c1 c2)
    (h2 : ∀ r ∈ Set.Icc R0 R, ∃ c1 c2, TwiceAt (fun ρ => zF0 k g ρ (2 * π)) r c1 c2)
    (hs : ∀ th, ∀ᶠ r in 𝓝 R0, vSeries r th = v r th)
    (hode : ∀ ic, odeIc N (myLambdify (zInitial k a g vSeries)) (myLambdify (zDInitial k a g vSeries)) a R0 M = .ok ic →
      ∃ Y, SolvesOde (odeDeriv N (myLambdify (zF1 k a g)) a nu k M) (2 * M) ic R0 R Y ∧
        odeint (odeDeriv N (myLambdify (zF1 k a g)) a nu k M) ic R0 R = .ok (Y R))
    (c c1 c2 : ℕ → ℝ → ℝ) (hc : ∀ j < N, ∀ r ∈ Set.Icc R0 R, TwiceAt (c j) r (c1 j r) (c2 j r))
    (hz : ∀ r th, v r th - (g r th + zQ k a g r th) = ∑ j ∈ Finset.range N, c j r * sin (((j + 1 : ℕ) : ℝ) * nu * (th - a))) :
    odeCalc odeint N (myLambdify (zInitial k a g vSeries)) (myLambdify (zDInitial k a g vSeries)) (myLambdify (zF1 k a g))
      a nu k R0 R M = .ok (zExpectedZ1 n v (myLambdify fun r th => g r th + zQ k a g r th) a R M) ∧
    ∀ j < M, (zExpectedZ1 n v (myLambdify fun r th => g r th + zQ k a g r th) a R M).getD j 0 = c j R := by
  have hR0m : R0 ∈ Set.Icc R0 R := ⟨le_rfl, hR.le⟩
  have hRne : R ≠ 0 := by linarith
  have hexp : ∀ j < n, sineCoef a (fun th => v R th - myLambdify (fun r th => g r th + zQ k a g r th) R th) n j
      = if j < N then c j R else 0 := by
    intro j hj
    refine sineCoef_series ha hnu n (fun j => if j < N then c j R else 0) (fun th => ?_) hj
    simp only [myLambdify, if_neg hRne]
    rw [hz R th, ← Finset.sum_subset (Finset.range_mono hn)]
    · refine Finset.sum_congr rfl fun j hj => ?_
      rw [if_pos (Finset.mem_range.1 hj)]
    · intro j _ hj
      rw [if_neg (by simpa using hj), zero_mul]
  have hlen : (zExpectedZ1 n v (myLambdify fun r th => g r th + zQ k a g r th) a R M).length = M := by
    unfold zExpectedZ1
    rw [List.length_take, arcDstR_length]
    omega
  have hval : ∀ j < M, (zExpectedZ1 n v (myLambdify fun r th => g r th + zQ k a g r th) a R M).getD j 0 = c j R := by
    intro j hj
    have := hexp j (by omega)
    rw [if_pos (by omega)] at this
    rw [← this]
    unfold zExpectedZ1 sineCoef
    rw [List.getD_eq_getElem?_getD, List.getD_eq_getElem?_getD, List.getElem?_take, if_pos hj]
  refine ⟨?_, hval⟩
  have hexact := C54_exact hM odeint (myLambdify (zInitial k a g vSeries)) (myLambdify (zDInitial k a g vSeries)) (myLambdify (zF1 k a g))
    (k := k) h0 hR ha hnu hode c c1 c2 hc (fun r th => v r th - (g r th + zQ k a g r th)) hz ?_ ?_ ?_
  · obtain ⟨L, hL, hLl, hLv⟩ := hexact
    rw [hL]
    congr 1
    refine List.ext_getElem (by rw [hLl, hlen]) fun j hj1 hj2 => ?_
    rw [hLl] at hj1
    have e1 := hLv j hj1
    have e2 := hval j hj1
    rw [List.getD_eq_getElem?_getD, List.getElem?_eq_getElem (by omega), Option.getD_some] at e1 e2
    rw [e1, e2]
  · intro r hr th
    have hr0 : r ≠ 0 := by have := hr.1; intro h; linarith
    obtain ⟨G, hG⟩ := hg r hr th
    obtain ⟨_, _, a1⟩ := h1 r hr
    obtain ⟨_, _, a2⟩ := h2 r hr
    simp only [myLambdify, if_neg hr0]
    exact C51_z1 k a ha g v (hv r hr th) hG a1 a2
  · intro th
    simp only [myLambdify, if_neg h0.ne', zInitial]
    rw [(hs th).self_of_nhds]
  · intro th
    simp only [myLambdify, if_neg h0.ne', zDInitial]
    obtain ⟨G, hG⟩ := hg R0 hR0m th
    obtain ⟨_, _, a1⟩ := h1 R0 hR0m
    obtain ⟨_, _, a2⟩ := h2 R0 hR0m
    obtain ⟨ur, urr, ut, utt, b1, -, -⟩ := C51_z1 k a ha g v (hv R0 hR0m th) hG a1 a2
    obtain ⟨d, d1, -, -⟩ := b1
    have e : (fun r => zInitial k a g vSeries r th) =ᶠ[𝓝 R0] fun r => v r th - (g r th + zQ k a g r th) := by
      filter_upwards [hs th] with r hr
      simp only [zInitial, hr]
    rw [e.deriv_eq, d1.self_of_nhds.deriv]
    exact d1.self_of_nhds

/-! ## C70: the remaining problem -/

/-- Bessel's equation of order `mu` for `J` at `x` -/
def BesselAt (mu : ℝ) (J : ℝ → ℝ) (x : ℝ) : Prop :=
  ∃ d1 d2, TwiceAt J x d1 d2 ∧ x ^ 2 * d2 + x * d1 + (x ^ 2 - mu ^ 2) * J x = 0

theorem TwiceAt_scale {φ : ℝ → ℝ} (s : ℝ) {x d1 d2 : ℝ} (h : TwiceAt φ (s * x) d1 d2) :
    TwiceAt (fun y => φ (s * y)) x (s * d1) (s ^ 2 * d2) := by
  have h' : TwiceAt φ (s * x + 0) d1 d2 := by rwa [add_zero]
  exact (TwiceAt.comp_affine s 0 h').congr (fun y => by simp) rfl rfl

/-- a solution of Bessel's equation times the sine of the angle solves the Helmholtz equation -/
theorem bessel_helmholtz {mu k a : ℝ} {J : ℝ → ℝ} {r : ℝ} (hr : r ≠ 0) (h : BesselAt mu J (k * r)) (th : ℝ) :
    HelmholtzAt k (fun r th => J (k * r) * sin (mu * (th - a))) 0 r th := by
  obtain ⟨d1, d2, h1, h2⟩ := h
  have := HelmholtzAt.mode k mu a (TwiceAt_scale k h1) th
  convert this using 1
  have e : k ^ 2 * d2 + k * d1 / r + (k ^ 2 - (mu / r) ^ 2) * J (k * r) = 0 := by
    field_simp
    linear_combination h2
  rw [e, zero_mul]

/-- **C70** the decomposition solves the original problem: let `u` solve the equation of the remaining problem at a point, with
source `f = -(Laplacian + k²) v_asympt`, and let the functions `jv mu` satisfy Bessel's equation.  Then
`u + v_asympt + Σ a_m J_{m nu}(k r) sin(m nu (th - a))` solves the homogeneous Helmholtz equation there (real coefficients). -/
theorem C70_pde {jv : ℝ → ℝ → ℝ} {k a nu r th : ℝ} (hr : r ≠ 0) {M : ℕ}
    (hJ : ∀ j < M, BesselAt (((j : ℝ) + 1) * nu) (jv (((j : ℝ) + 1) * nu)) (k * r)) {u vAs : ℝ → ℝ → ℝ} {F : ℝ}
    (hAs : HelmholtzAt k vAs F r th) (hu : HelmholtzAt k u (zF k vAs r th) r th) (c : ℕ → ℝ) :
    HelmholtzAt k (fun r th => u r th + vAs r th + ∑ j ∈ Finset.range M, c j * (jv (((j : ℝ) + 1) * nu) (k * r)
      * sin (((j : ℝ) + 1) * nu * (th - a)))) 0 r th := by
  have hF : zF k vAs r th = -F := by simp only [zF, HelmholtzAt.helmOp_eq hAs]
  rw [hF] at hu
  have hsum := HelmholtzAt.sum (k := k) (r := r) (th := th) (Finset.range M)
    (u := fun j r th => c j * (jv (((j : ℝ) + 1) * nu) (k * r) * sin (((j : ℝ) + 1) * nu * (th - a)))) (F := fun _ => 0) (fun j hj => by
      have := bessel_helmholtz (a := a) hr (hJ j (Finset.mem_range.1 hj)) th
      obtain ⟨x1, x2, y1, y2, p1, p2, p3⟩ := this
      refine ⟨_, _, _, _, p1.const_mul (c j), p2.const_mul (c j), ?_⟩
      linear_combination c j * p3)
  have := (hu.add hAs).add hsum
  simpa using this

/-! ## the constants, the nodes of the least-squares problem, the series with ten terms -/

/-- **C61** the nodes of the least-squares problem are the inner points of the division of `[a, 2π]` into `n + 1` equal parts. -/
theorem C61_nodes (n : ℕ) (a : ℝ) {i : ℕ} (hi : i < n) : abTh n a i = a + (i + 1) * ((2 * π - a) / (n + 1)) ∧
    (a < 2 * π → a < abTh n a i ∧ abTh n a i < 2 * π) := by
  have e : abTh n a i = a + (i + 1) * ((2 * π - a) / (n + 1)) := by
    unfold abTh
    rw [linspace_getD _ _ _ _ (by omega)]
    push_cast
    ring
  refine ⟨e, fun ha => ?_⟩
  have hn : (0 : ℝ) < n + 1 := by positivity
  have hh : 0 < (2 * π - a) / (n + 1) := div_pos (by linarith) hn
  have hin : (i : ℝ) + 1 < n + 1 := by exact_mod_cast Nat.succ_lt_succ hi
  rw [e]
  refine ⟨by nlinarith [(Nat.cast_nonneg i : (0 : ℝ) ≤ i)], ?_⟩
  have : ((n : ℝ) + 1) * ((2 * π - a) / (n + 1)) = 2 * π - a := mul_div_cancel₀ _ hn.ne'
  nlinarith

/-- **C67** the series `v_series` used near the inner circle satisfies the Helmholtz equation up to its tenth term. -/
theorem C67_series {k : ℝ} (hk : 0 < k) {nu : ℝ} (hnu : 0 ≤ nu) (K : ℕ) (a : ℝ) {r : ℝ} (hr : 0 < r) (th : ℝ) :
    HelmholtzAt k (ihVSeries K k a nu) (k ^ 2 * ((-1) ^ 9 / ((Nat.factorial 9 : ℝ) * Gamma ((K + 1 / 2) * nu + (9 : ℕ) + 1))
      * (k * r / 2) ^ (2 * 9) * (k * r / 2) ^ ((K + 1 / 2) * nu)) * sin ((K + 1 / 2) * nu * (th - a))) r th :=
  C67_residual hk hnu K 9 a hr th

/-! ## Concrete cases -/

/-- C68: the constant function 1 solves the problem with all data equal to 1 and `k = 0`, on a grid of 4 x 4 cells -/
example : ∃ (p : PolarFD) (v : List (List ℂ)) (V : ℤ → ℤ → ℂ),
    doZBvp (fun _ rhs => List.replicate rhs.length 1) false [] (fun _ _ => 1) (fun _ _ => 1) (fun _ => 1) (fun _ => 1) 0 (π / 4) (4 / 7)
      zR0 (23 / 10) 0 4 = .ok (p, v) ∧ rowsGet v 2 0 = .ok (V 2 0) ∧ V 2 0 = 1 := by
  have hpi := pi_pos
  have hsp : ∀ p s, pfInit 4 (π / 4) (4 / 7) zR0 (23 / 10) = .ok p →
      pfSystem p (zData [] (fun _ _ => 1) (fun _ _ => 1) (fun _ => 1) (fun _ => 1) 0 (π / 4) (4 / 7) zR0 (23 / 10) 0) = .ok s →
      PfSolves s (List.replicate s.rhs.length 1) := by
    intro p s hp hs
    have hpp : p = ⟨4, π / 4, 4 / 7, zR0, 23 / 10, (23 / 10 - zR0) / (4 : ℕ), (2 * π - π / 4) / (4 : ℕ)⟩ := by
      have : pfInit 4 (π / 4) (4 / 7) zR0 (23 / 10) = .ok _ := if_neg (by norm_num)
      rw [this] at hp
      injection hp with hp
      exact hp.symm
    obtain ⟨s', hs', hsol⟩ := C48_converse p (zData [] (fun _ _ => 1) (fun _ _ => 1) (fun _ => 1) (fun _ => 1) 0 (π / 4) (4 / 7) zR0 (23 / 10) 0)
      (by rw [hpp]; norm_num) (by rw [hpp]; norm_num [zR0]) (by rw [hpp]; exact ne_of_gt (div_pos (by linarith) (by norm_num)))
      (fun m _ => by rw [hpp]; unfold PolarFD.getR zR0; positivity) (fun _ _ => 1)
      (fun m l _ _ _ => by simp [polarBc, zData, zPhi0])
      (fun m l _ _ _ _ => by
        simp [polarL4, lapR, angPart, drr, dr, dthth, fd4Rhs, zData, show (1 - 2 + 1 : ℂ) = 0 by norm_num])
    rw [hs] at hs'
    cases hs'
    have e : gridVector p.N (fun _ _ => 1) = List.replicate s.rhs.length 1 := by
      rw [← hsol.1]
      simp [gridVector]
    rwa [e] at hsol
  obtain ⟨p, v, V, h1, -, -, -, -, h2, h3, -⟩ := C68_zbvp (spsolve := fun _ rhs => List.replicate rhs.length 1) (z1 := [])
    (gq := fun _ _ => 1) (vSeries := fun _ _ => 1) (phi1 := fun _ => 1) (phi2 := fun _ => 1) (k := 0) (a := π / 4) (nu := 4 / 7)
    (R0 := zR0) (arcR := 23 / 10) (M := 0) (N := 4) (by norm_num) (by linarith) (by norm_num [zR0]) (by norm_num [zR0]) (by simp) hsp
  refine ⟨p, v, V, h1, h2 2 0 (by norm_num) (by norm_num), ?_⟩
  simpa using (h3 2 (by norm_num)).1

/-- C72: `k = 0`, `g = 0`, `v = r^nu sin(nu (th - a))`, one mode, with an integrator that is exact for it -/
example : odeCalc (fun _ _ _ R => .ok [R ^ (4 / 7 : ℝ), 4 / 7 * R ^ (4 / 7 : ℝ) / R]) 1
    (myLambdify (zInitial 0 (π / 4) (fun _ _ => 0) fun r th => r ^ (4 / 7 : ℝ) * sin (4 / 7 * (th - π / 4))))
    (myLambdify (zDInitial 0 (π / 4) (fun _ _ => 0) fun r th => r ^ (4 / 7 : ℝ) * sin (4 / 7 * (th - π / 4))))
    (myLambdify (zF1 0 (π / 4) fun _ _ => 0)) (π / 4) (4 / 7) 0 1 2 1
    = .ok (zExpectedZ1 3 (fun r th => r ^ (4 / 7 : ℝ) * sin (4 / 7 * (th - π / 4)))
      (myLambdify fun r th => (fun _ _ => 0 : ℝ → ℝ → ℝ) r th + zQ 0 (π / 4) (fun _ _ => 0) r th) (π / 4) 2 1) := by
  have hpi := pi_pos
  have ha : (π / 4 : ℝ) ≠ 2 * π := by intro h; linarith
  have hnu : (4 / 7 : ℝ) = π / (2 * π - π / 4) := by field_simp; ring
  have hpos : ∀ r ∈ Set.Icc (1 : ℝ) 2, 0 < r := fun r hr => by linarith [hr.1]
  have hF0 : zF0 0 (fun _ _ => (0 : ℝ)) = fun _ _ => 0 := by funext r th; simp [zF0, helmOp]
  have hQ : ∀ r th, zQ 0 (π / 4) (fun _ _ => (0 : ℝ)) r th = 0 := by intro r th; simp [zQ, zQ1, zQ2, hF0]
  have hF1 : zF1 0 (π / 4) (fun _ _ => (0 : ℝ)) = fun _ _ => 0 := by
    have : zQ 0 (π / 4) (fun _ _ => (0 : ℝ)) = fun _ _ => 0 := by funext r th; exact hQ r th
    funext r th
    simp [zF1, hF0, this, helmOp]
  have hmode : ∀ r ∈ Set.Icc (1 : ℝ) 2, ∀ th, HelmholtzAt 0 (fun r th => r ^ (4 / 7 : ℝ) * sin (4 / 7 * (th - π / 4))) 0 r th := by
    intro r hr th
    have := HelmholtzAt.mode 0 (4 / 7) (π / 4) (twiceAt_rpow (4 / 7) (hpos r hr)) th
    convert this using 1
    have := (hpos r hr).ne'
    field_simp
    ring
  refine (C72_ode (N := 1) (n := 3) (M := 1) le_rfl (by norm_num) _ one_pos one_lt_two ha hnu (fun _ _ => 0)
    (fun r th => r ^ (4 / 7 : ℝ) * sin (4 / 7 * (th - π / 4))) (fun r th => r ^ (4 / 7 : ℝ) * sin (4 / 7 * (th - π / 4)))
    hmode (fun r _ th => ⟨0, HelmholtzAt.zero 0 r th⟩) (fun r _ => ⟨0, 0, by rw [hF0]; exact TwiceAt.const 0 r⟩)
    (fun r _ => ⟨0, 0, by rw [hF0]; exact TwiceAt.const 0 r⟩) (fun th => .of_forall fun r => rfl) ?_
    (fun _ r => r ^ (4 / 7 : ℝ)) _ _ (fun j _ r hr => twiceAt_rpow (4 / 7) (hpos r hr)) (fun r th => by simp [hQ])).1
  intro ic hic
  have hs : ∀ (b : ℝ) (th : ℝ), b * sin (4 / 7 * (th - π / 4))
      = ∑ j ∈ Finset.range 1, (fun _ => b) j * sin (((j + 1 : ℕ) : ℝ) * (4 / 7) * (th - π / 4)) := by
    intro b th; simp
  obtain ⟨ic', hic', hl, hv⟩ := odeIc_eq (N := 1) (M := 1) le_rfl
    (myLambdify (zInitial 0 (π / 4) (fun _ _ => 0) fun r th => r ^ (4 / 7 : ℝ) * sin (4 / 7 * (th - π / 4))))
    (myLambdify (zDInitial 0 (π / 4) (fun _ _ => 0) fun r th => r ^ (4 / 7 : ℝ) * sin (4 / 7 * (th - π / 4)))) (π / 4) 1
  rw [hic] at hic'
  cases hic'
  refine ⟨fun r => [r ^ (4 / 7 : ℝ), 4 / 7 * r ^ (4 / 7 : ℝ) / r], ⟨?_, ?_⟩, rfl⟩
  · obtain ⟨v1, v2⟩ := hv 0 one_pos
    rw [sineCoef_series ha hnu 1 (fun _ => 1) (fun th => by
      simp only [myLambdify, if_neg one_ne_zero, zInitial, hQ]; rw [← hs]; simp) one_pos] at v1
    rw [sineCoef_series ha hnu 1 (fun _ => 4 / 7) (fun th => by
      simp only [myLambdify, if_neg one_ne_zero, zDInitial, zInitial, hQ]
      rw [← hs]
      simp) one_pos] at v2
    rcases ic with _ | ⟨x, _ | ⟨y, _ | ⟨w, ic⟩⟩⟩
    · simp at hl
    · simp at hl
    · simp only [mul_zero, List.getD_cons_zero, zero_add, List.getD_cons_succ] at v1 v2
      rw [v1, v2]
      simp
    · simp at hl
  · intro r hr
    have hr0 := hpos r hr
    refine ⟨by simp, ?_⟩
    obtain ⟨D, hD, hDl, hDv⟩ := C54_rhs (N := 1) (M := 1) le_rfl (myLambdify (zF1 0 (π / 4) fun _ _ => 0)) (π / 4) (4 / 7) 0
      (Y := [r ^ (4 / 7 : ℝ), 4 / 7 * r ^ (4 / 7 : ℝ) / r]) (by simp) hr0.ne'
    refine ⟨D, hD, ?_⟩
    obtain ⟨w1, w2⟩ := hDv 0 one_pos
    rw [sineCoef_series ha hnu 1 (fun _ => 0) (fun th => by simp [myLambdify, hF1]) one_pos] at w2
    simp only [mul_zero, List.getD_cons_zero, zero_add, List.getD_cons_succ] at w1 w2
    obtain ⟨d, d1, d2, d3⟩ := twiceAt_rpow (4 / 7) hr0
    intro i hi
    interval_cases i
    · rw [w1]
      simp only [List.getD_cons_zero]
      rw [← d2]
      exact d1.self_of_nhds.hasDerivWithinAt
    · rw [w2]
      simp only [List.getD_cons_zero, List.getD_cons_succ]
      have hq := (((hasDerivAt_rpow_const (p := (4 / 7 : ℝ)) (.inl hr0.ne')).const_mul (4 / 7)).fun_div (hasDerivAt_id' r) hr0.ne')
      refine (hq.congr_deriv ?_).hasDerivWithinAt
      rw [rpow_sub_one hr0.ne']
      push_cast
      field_simp
      ring

/-- C69: two cells; the error on the only inner circle is `3 sin(π l / 2)`, that is 3 at the only inner node -/
example : ∃ e, getVError ⟨2, π / 4, 4 / 7, 1, 3, 1, 1⟩ (fun _ _ => 8) [[0, 0, 0], [0, 5, 0], [0, 0, 0]] zM 2 = .ok e ∧ 3 ≤ e := by
  obtain ⟨e, he, -, hmax⟩ := C69_verror (p := ⟨2, π / 4, 4 / 7, 1, 3, 1, 1⟩) (evalV := fun _ _ => 8)
    (v := [[0, 0, 0], [0, 5, 0], [0, 0, 0]]) (V := fun m l => if m = 1 ∧ l = 1 then 5 else 0) (M := zM) (N := 2) le_rfl
    (by norm_num [zM]) rfl (by simp)
    (fun m l hm hl => by interval_cases m <;> interval_cases l <;> rfl) (fun _ _ => 3) (fun m l h1 h2 h3 h4 => by
      have : m = 1 := by omega
      have : l = 1 := by omega
      subst_vars
      simp
      norm_num)
  refine ⟨e, he, ?_⟩
  simpa using hmax 1 0 (by norm_num) (by norm_num) (by norm_num [zM]) (by norm_num)

/-- C70: one singular function, `a_1 = 2`, on the unit circle -/
example : ∃ bc, uEvalBc (fun _ x => x) (fun _ => 1) (fun th => th) (fun r => r) (fun r => r) (fun r _ => r) [2] 3 (π / 4) (4 / 7) 1 π 0
    = .ok bc ∧ bc + ((1 : ℝ) : ℂ) + singSum (fun _ x => x) [2] 3 (π / 4) (4 / 7) 1 1 π = ((π : ℝ) : ℂ) := by
  have hpi := pi_pos
  exact (C70_data (fun _ x => x) (fun _ => 1) (fun th => th) (fun r => r) (fun r => r) (fun r _ => r) 3 (c := [2]) (M := 1) le_rfl
    (by intro h; linarith) (by field_simp; ring)).1 π

end Pot
