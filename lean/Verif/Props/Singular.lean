import Verif.Model.Singular
import Verif.Props.ABCoef
import Verif.Props.Asympt
import Verif.Props.Fourier
import Verif.Props.Taper
import Verif.Props.ZChain
import Verif.Props.ZMethod

/-! # C71, C74, C75: the singular problems and their coefficients -/

namespace Pot
open Real Spec

/-! ## C71: the data of the singular problems -/

theorem sin_half {a nu : ℝ} (ha : a ≠ 2 * π) (hnu : nu = π / (2 * π - a)) (K : ℕ) :
    sin (((K : ℝ) + 1 / 2) * nu * (2 * π - a)) = (-1) ^ K := by
  have ha' : 2 * π - a ≠ 0 := fun h => ha (by linarith)
  rw [mul_assoc, hnu, div_mul_cancel₀ _ ha', show ((K : ℝ) + 1 / 2) * π = K * π + π / 2 by ring, sin_add_pi_div_two, cos_nat_mul_pi]

/-- **C71** `eval_v` of `IH_Bessel` on the two sides; it is `g` there exactly when `K` is even (the shipped `K = 0`), for an odd `K`
it has the wrong sign on the side `th = 2π`. -/
theorem C71_v_sides (jv : ℝ → ℝ → ℝ) {a nu : ℝ} (ha : a ≠ 2 * π) (hnu : nu = π / (2 * π - a)) (K : ℕ) (k R r : ℝ) :
    ihV jv K k a nu r a = ihG jv false K k a nu R r a ∧
    (Even K → ihV jv K k a nu r (2 * π) = ihG jv false K k a nu R r (2 * π)) ∧
    (Odd K → ihV jv K k a nu r (2 * π) = -ihG jv false K k a nu R r (2 * π)) := by
  have ha' : 2 * π - a ≠ 0 := fun h => ha (by linarith)
  refine ⟨by simp [ihV, ihG], fun h => ?_, fun h => ?_⟩
  · simp only [ihV, ihG, sin_half ha hnu, h.neg_one_pow, div_self ha']
    simp
  · simp only [ihV, ihG, sin_half ha hnu, h.neg_one_pow, div_self ha']
    simp

/-- **C71** `IZ_Bessel`: the expected solution takes the boundary data on all three segments, for every `K`, curve and radius,
and the data agree at the two corners of the curve. -/
theorem C71_iz (jv : ℝ → ℝ → ℝ) (K : ℕ) (k a nu : ℝ) (evalR : ℝ → ℝ) :
    (∀ th, izExpected jv K k a nu (evalR th) th = izPhi0 jv K k a nu evalR th) ∧
    (∀ r, 0 < r → izExpected jv K k a nu r (2 * π) = izPhi1 jv K k a nu r) ∧
    (∀ r, izExpected jv K k a nu r a = izPhi2 r) ∧
    (0 < evalR (2 * π) → izPhi0 jv K k a nu evalR (2 * π) = izPhi1 jv K k a nu (evalR (2 * π))) ∧
    izPhi0 jv K k a nu evalR a = izPhi2 (evalR a) ∧
    ∀ r ≤ 0, izPhi1 jv K k a nu r = 0 := by
  refine ⟨fun th => rfl, fun r hr => ?_, fun r => ?_, fun h => ?_, ?_, fun r hr => ?_⟩
  · rw [izPhi1, if_pos hr]; rfl
  · simp [izExpected, ihV, izPhi2]
  · rw [izPhi1, if_pos h]; rfl
  · simp [izPhi0, ihV, izPhi2]
  · rw [izPhi1, if_neg (not_lt.2 hr)]

/-- **C71** `IHZ_Bessel_Line`: `g` takes the side data for both settings of `alt_phi1_ext`, and the data on the curve agree with the
side data at the two corners as long as the curve ends on the circle of radius `R` or inside it. -/
theorem C71_line (jv : ℝ → ℝ → ℝ) (alt : Bool) (K : ℕ) (k : ℝ) {a : ℝ} (ha : a ≠ 2 * π) (nu : ℝ) {R : ℝ} (hR : 0 < R) (evalR : ℝ → ℝ) :
    (∀ r, 0 < r → ihG jv alt K k a nu R r (2 * π) = linePhi1 jv alt K k nu R r) ∧
    (∀ r, ihG jv alt K k a nu R r a = izPhi2 r) ∧
    (0 < evalR (2 * π) → evalR (2 * π) ≤ R → linePhi0 jv K k a nu evalR (2 * π) = linePhi1 jv alt K k nu R (evalR (2 * π))) ∧
    linePhi0 jv K k a nu evalR a = izPhi2 (evalR a) ∧
    ∀ r ≤ 0, linePhi1 jv alt K k nu R r = 0 := by
  have ha' : 2 * π - a ≠ 0 := fun h => ha (by linarith)
  refine ⟨fun r hr => ?_, fun r => by simp [ihG, izPhi2], fun h1 h2 => ?_, by simp [linePhi0, izPhi2], fun r hr => ?_⟩
  · simp only [ihG, linePhi1, div_self ha', one_mul]
    cases alt
    · simp [hr]
    · rcases lt_trichotomy r R with h | h | h
      · simp [h, not_lt.2 h.le, hr]
      · simp [h, hR]
      · simp [h, not_lt.2 h.le]
  · simp only [linePhi0, linePhi1]
    rw [if_neg (fun h => absurd h.1 (not_lt.2 h2)), if_pos h1, mul_div_assoc, div_self ha', mul_one]
  · simp only [linePhi1]
    rw [if_neg (fun h => absurd h.1 (not_lt.2 (by linarith))), if_neg (not_lt.2 hr)]

/-- **C71** `IHZ_Bessel_Quadratic`: `g` and `eval_v` take the side data on both sides, and the data on the curve agree with the side
data at the two corners. -/
theorem C71_quad (jv : ℝ → ℝ → ℝ) (k : ℝ) {a nu : ℝ} (ha : a ≠ 2 * π) (ha0 : a ≠ 0) (hnu : nu = π / (2 * π - a)) (evalR : ℝ → ℝ) :
    (∀ r, 0 < r → quadG jv k a nu r (2 * π) = quadPhi1 jv k nu r ∧ quadG jv k a nu r a = quadPhi2 jv k nu r) ∧
    (∀ r, 0 < r → quadV jv k a nu r (2 * π) = quadPhi1 jv k nu r ∧ quadV jv k a nu r a = quadPhi2 jv k nu r) ∧
    (0 < evalR (2 * π) → quadPhi0 jv k a nu evalR (2 * π) = quadPhi1 jv k nu (evalR (2 * π))) ∧
    (0 < evalR a → quadPhi0 jv k a nu evalR a = quadPhi2 jv k nu (evalR a)) ∧
    ∀ r ≤ 0, quadPhi1 jv k nu r = 0 ∧ quadPhi2 jv k nu r = 0 := by
  have ha' : 2 * π - a ≠ 0 := fun h => ha (by linarith)
  have ha'' : a - 2 * π ≠ 0 := fun h => ha (by linarith)
  have s1 : sin (nu / 2 * (2 * π - a)) = 1 := by
    have := sin_half ha hnu 0
    rw [show nu / 2 * (2 * π - a) = (((0 : ℕ) : ℝ) + 1 / 2) * nu * (2 * π - a) by push_cast; ring, this, pow_zero]
  have s3 : sin (3 * nu / 2 * (a - 2 * π)) = 1 := by
    have := sin_half ha hnu 1
    rw [show 3 * nu / 2 * (a - 2 * π) = -((((1 : ℕ) : ℝ) + 1 / 2) * nu * (2 * π - a)) by push_cast; ring, sin_neg, this]
    norm_num
  refine ⟨fun r hr => ⟨?_, ?_⟩, fun r hr => ⟨?_, ?_⟩, fun h => ?_, fun h => ?_, fun r hr => ?_⟩
  · simp [quadG, quadPhi1, hr, div_self ha']
  · simp [quadG, quadPhi2, hr, div_self ha'']
  · simp [quadV, quadPhi1, hr, s1]
  · simp [quadV, quadPhi2, hr, s3]
  · simp only [quadPhi0, quadPhi1]
    rw [if_pos h, show (2 * π - a) * (2 * π - (2 * π - a)) / (a * (2 * π - a)) = 1 by
      rw [show (2 * π - a) * (2 * π - (2 * π - a)) = a * (2 * π - a) by ring]
      exact div_self (mul_ne_zero ha0 ha')]
    ring
  · simp [quadPhi0, quadPhi2, h]
  · simp [quadPhi1, quadPhi2, not_lt.2 hr]

/-- **C71** `eval_v` of both families solves the Helmholtz equation away from the tip. -/
theorem C71_pde (jv : ℝ → ℝ → ℝ) {k r : ℝ} (hr : r ≠ 0) (a nu th : ℝ) :
    (∀ K : ℕ, BesselAt ((K + 1 / 2) * nu) (jv ((K + 1 / 2) * nu)) (k * r) → HelmholtzAt k (ihV jv K k a nu) 0 r th) ∧
    (BesselAt (nu / 2) (jv (nu / 2)) (k * r) → BesselAt (3 * nu / 2) (jv (3 * nu / 2)) (k * r) →
      HelmholtzAt k (quadV jv k a nu) 0 r th) := by
  refine ⟨fun K h => bessel_helmholtz hr h th, fun h1 h3 => ?_⟩
  have := HelmholtzAt.add (bessel_helmholtz (a := a) hr h1 th) (bessel_helmholtz (a := 2 * π) hr h3 th)
  rwa [add_zero] at this

/-- **C71** `v_series` of `IHZ_Bessel_Quadratic` solves the Helmholtz equation up to the last term of each series, and inside the
circle where the taper is 1 the source of the regularised problem is the residual of the two-term series. -/
theorem C71_quad_series {k : ℝ} (hk : 0 < k) {nu : ℝ} (hnu : 0 ≤ nu) (a : ℝ) {r : ℝ} (hr : 0 < r) (th : ℝ) :
    HelmholtzAt k (quadVSeries k a nu)
      (-(k ^ 2 * ((k * r / 2) ^ 18 * (k * r / 2) ^ (nu / 2) / (362880 * Gamma (nu / 2 + 10)) * sin (nu / 2 * (th - a))
        + (k * r / 2) ^ 18 * (k * r / 2) ^ (3 * nu / 2) / (362880 * Gamma (3 * nu / 2 + 10)) * sin (3 * nu / 2 * (th - 2 * π))))) r th ∧
    ∀ {R0 R : ℝ}, R0 < R → r < R0 → zF k (quadVAsympt k a nu R0 R) r th
      = k ^ 2 * ((k * r / 2) ^ 2 * (k * r / 2) ^ (nu / 2) / Gamma (nu / 2 + 2) * sin (nu / 2 * (th - a))
        + (k * r / 2) ^ 2 * (k * r / 2) ^ (3 * nu / 2) / Gamma (3 * nu / 2 + 2) * sin (3 * nu / 2 * (th - 2 * π))) := by
  have e0 : (((0 : ℕ) : ℝ) + 1 / 2) * nu = nu / 2 := by push_cast; ring
  have e1 : (((1 : ℕ) : ℝ) + 1 / 2) * nu = 3 * nu / 2 := by push_cast; ring
  have H : ∀ n : ℕ, HelmholtzAt k (fun r th => vAsympt0 0 k nu (n + 1) r * sin (nu / 2 * (th - a))
      + vAsympt0 1 k nu (n + 1) r * sin (3 * nu / 2 * (th - 2 * π)))
      (k ^ 2 * ((-1) ^ n / ((n.factorial : ℝ) * Gamma (nu / 2 + n + 1)) * (k * r / 2) ^ (2 * n) * (k * r / 2) ^ (nu / 2))
        * sin (nu / 2 * (th - a))
      + k ^ 2 * ((-1) ^ n / ((n.factorial : ℝ) * Gamma (3 * nu / 2 + n + 1)) * (k * r / 2) ^ (2 * n) * (k * r / 2) ^ (3 * nu / 2))
        * sin (3 * nu / 2 * (th - 2 * π))) r th := by
    intro n
    have h0 := C67_residual hk hnu 0 n a hr th
    have h1 := C67_residual hk hnu 1 n (2 * π) hr th
    rw [e0] at h0
    rw [e1] at h1
    exact HelmholtzAt.add h0 h1
  constructor
  · have := H 9
    rw [show nu / 2 + ((9 : ℕ) : ℝ) + 1 = nu / 2 + 10 by push_cast; ring,
      show 3 * nu / 2 + ((9 : ℕ) : ℝ) + 1 = 3 * nu / 2 + 10 by push_cast; ring,
      show ((Nat.factorial 9 : ℕ) : ℝ) = 362880 by norm_num [Nat.factorial]] at this
    refine Eq.mp ?_ (show HelmholtzAt k (quadVSeries k a nu) _ r th from this)
    congr 1
    ring
  · intro R0 R hR hr0
    have ht := (C52_taper hR).1
    have hH := HelmholtzAt.congr_cross (v := quadVAsympt k a nu R0 R) (H 1)
      (by filter_upwards [Iio_mem_nhds hr0] with y hy; simp only [quadVAsympt, ht y (le_of_lt hy), mul_one])
      (by filter_upwards with y; simp only [quadVAsympt, ht r hr0.le, mul_one])
    simp only [zF, HelmholtzAt.helmOp_eq hH]
    norm_num [Nat.factorial]
    ring_nf

/-! ## sine coefficients of a finite series -/

theorem arcDst_series {a nu : ℝ} (ha : a ≠ 2 * π) (hnu : nu = π / (2 * π - a)) {L n : ℕ} (hL : L ≤ n) (b : ℕ → ℂ) {f : ℝ → ℂ}
    (hf : ∀ th, f th = ∑ j ∈ Finset.range L, b j * ((sin (((j : ℝ) + 1) * nu * (th - a)) : ℝ) : ℂ)) (i : Fin n) :
    arcDst a f n i = if (i : ℕ) < L then b i else 0 := by
  have h := C18_arc_dst a nu ha hnu n (fun i => if (i : ℕ) < L then b i else 0) i
  rw [← h]
  congr 1
  funext th
  rw [hf, Finset.sum_fin_eq_sum_range]
  symm
  rw [← Finset.sum_subset (Finset.range_mono hL)]
  · refine Finset.sum_congr rfl fun j hj => ?_
    have := Finset.mem_range.1 hj
    rw [dif_pos (by omega), if_pos this]
  · intro j hj hj'
    rw [Finset.mem_range] at hj hj'
    rw [dif_pos hj, if_neg hj', zero_mul]

/-! ## C74: `SingularKnown` -/

theorem skFold (jv : ℝ → ℝ → ℝ) (c : List ℂ) (k a nu r th : ℝ) (x : ℂ) : ∀ n, n ≤ c.length →
    (List.range' 1 n).foldlM (init := x) (fun u (m : ℕ) => (do
      let ac ← listGet c (m - 1)
      return u + ac * ((jv (m * nu) (k * r) : ℝ) : ℂ) * ((sin (m * nu * (th - a)) : ℝ) : ℂ) : Py ℂ))
    = .ok (x + singSum jv c k a nu n r th) := by
  intro n
  induction n with
  | zero => intro _; simp [singSum]
  | succ n ih =>
    intro hn
    rw [List.range'_concat, List.foldlM_append, ih (by omega), ok_bind, List.foldlM_cons,
      listGet_of_lt _ _ (by omega), ok_bind, pure_eq_ok, ok_bind, List.foldlM_nil, singSum, singSum, Finset.sum_range_succ, pure_eq_ok]
    congr 1
    rw [show c.getD n 0 = c[n]'(by omega) by rw [List.getD_eq_getElem?_getD, List.getElem?_eq_getElem (by omega)]; rfl]
    have e : 1 + 1 * n - 1 = n := by omega
    have e2 : ((1 + 1 * n : ℕ) : ℝ) = (n : ℝ) + 1 := by push_cast; ring
    simp only [e, e2]
    push_cast
    ring

/-- **C74** a datum that is a sine series of at most `m_max` terms: the coefficients exist, and the expected solution is a
function with real values that on the arc equals the datum plus `eval_expected__no_w`, on both sides equals `eval_expected__no_w`,
and differs from it by a solution of the Helmholtz equation wherever the Bessel functions satisfy Bessel's equation. -/
theorem C74_known (jv : ℝ → ℝ → ℝ) {n mMax : ℕ} (hn : mMax ≤ n) {k R a nu : ℝ} (ha : a ≠ 2 * π) (hnu : nu = π / (2 * π - a))
    (hJ : ∀ m : ℕ, 1 ≤ m → m ≤ mMax → jv (m * nu) (k * R) ≠ 0) (toDst : ℝ → ℝ) (b : ℕ → ℝ)
    (hb : ∀ th, toDst th = ∑ j ∈ Finset.range mMax, b j * sin (((j : ℝ) + 1) * nu * (th - a))) (noW : ℝ → ℝ → ℝ) :
    ∃ ac, skACoef jv n mMax toDst k R a nu = .ok ac ∧ ∃ W : ℝ → ℝ → ℝ,
      (∀ r th, skExpectedPolar jv ac mMax noW k a nu r th = .ok ((noW r th + W r th : ℝ) : ℂ)) ∧
      (∀ th, W R th = toDst th) ∧ (∀ r, W r a = 0 ∧ W r (2 * π) = 0) ∧
      ∀ r th, r ≠ 0 → (∀ m : ℕ, 1 ≤ m → m ≤ mMax → BesselAt (m * nu) (jv (m * nu)) (k * r)) → HelmholtzAt k W 0 r th := by
  have ha' : 2 * π - a ≠ 0 := fun h => ha (by linarith)
  set bl : List ℂ := (List.ofFn (arcDst a (fun th => (toDst th : ℂ)) n)).take mMax with hbl
  have hlen : bl.length = mMax := by simp [hbl, hn]
  have hbi : ∀ i < mMax, bl.getD i 0 = (b i : ℂ) := by
    intro i hi
    have := arcDst_series ha hnu hn (fun j => (b j : ℂ)) (f := fun th => (toDst th : ℂ))
      (fun th => by rw [hb]; push_cast; rfl) ⟨i, by omega⟩
    rw [List.getD_eq_getElem?_getD, List.getElem?_eq_getElem (by omega)]
    simp only [hbl, List.getElem_take, List.getElem_ofFn, Option.getD_some]
    rw [this]
    simp [hi]
  obtain ⟨ac, h1, h2, h3⟩ := (C60_values jv bl k R nu).2 (fun m p q => hJ m p (by omega))
  refine ⟨ac, h1, fun r th => ∑ j ∈ Finset.range mMax, b j / jv (((j + 1 : ℕ) : ℝ) * nu) (k * R) *
    (jv (((j : ℝ) + 1) * nu) (k * r) * sin (((j : ℝ) + 1) * nu * (th - a))), fun r th => ?_, fun th => ?_, fun r => ⟨?_, ?_⟩, ?_⟩
  · unfold skExpectedPolar
    rw [skFold jv ac k a nu r th _ mMax (by omega), singSum]
    push_cast
    congr 2
    refine Finset.sum_congr rfl fun j hj => ?_
    have hj' := Finset.mem_range.1 hj
    have hne : ((jv (((j + 1 : ℕ) : ℝ) * nu) (k * R) : ℝ) : ℂ) ≠ 0 := by exact_mod_cast hJ (j + 1) (by omega) (by omega)
    have := h3 j (by omega)
    rw [hbi j hj'] at this
    rw [← this]
    push_cast at hne ⊢
    field_simp
  · rw [hb]
    refine Finset.sum_congr rfl fun j hj => ?_
    have hj' := Finset.mem_range.1 hj
    have hne := hJ (j + 1) (by omega) (by omega)
    push_cast at hne ⊢
    field_simp
  · exact Finset.sum_eq_zero fun j _ => by simp
  · refine Finset.sum_eq_zero fun j _ => ?_
    have : ((j : ℝ) + 1) * nu * (2 * π - a) = ((j + 1 : ℕ) : ℝ) * π := by
      rw [hnu, mul_assoc, div_mul_cancel₀ _ ha']; push_cast; rfl
    rw [this, sin_nat_mul_pi, mul_zero, mul_zero]
  · intro r th hr hB
    have hsum := HelmholtzAt.sum (k := k) (r := r) (th := th) (Finset.range mMax)
      (u := fun j r th => b j / jv (((j + 1 : ℕ) : ℝ) * nu) (k * R) *
        (jv (((j : ℝ) + 1) * nu) (k * r) * sin (((j : ℝ) + 1) * nu * (th - a)))) (F := fun _ => 0) (fun j hj => by
        have hB' := hB (j + 1) (by omega) (by have := Finset.mem_range.1 hj; omega)
        rw [show (((j + 1 : ℕ) : ℝ)) = (j : ℝ) + 1 by push_cast; rfl] at hB'
        obtain ⟨x1, x2, y1, y2, p1, p2, p3⟩ := bessel_helmholtz (a := a) hr hB' th
        refine ⟨_, _, _, _, p1.const_mul _, p2.const_mul _, ?_⟩
        linear_combination (b j / jv (((j + 1 : ℕ) : ℝ) * nu) (k * R)) * p3)
    simpa using hsum

/-- **C74** the error branches: a vanishing Bessel factor makes the coefficients nan, and a transform with fewer nodes than
`m_max` makes the evaluation an IndexError.  Neither depends on the datum. -/
theorem C74_errors (jv : ℝ → ℝ → ℝ) (n mMax : ℕ) (toDst : ℝ → ℝ) (k R a nu : ℝ) :
    ((∃ m : ℕ, 1 ≤ m ∧ m ≤ mMax ∧ m ≤ n ∧ jv (m * nu) (k * R) = 0) → skACoef jv n mMax toDst k R a nu = .error .nanValue) ∧
    (n < mMax → ∀ ac, skACoef jv n mMax toDst k R a nu = .ok ac → ∀ noW r th,
      skExpectedPolar jv ac mMax noW k a nu r th = .error .indexError) := by
  constructor
  · rintro ⟨m, h1, h2, h3, h4⟩
    exact (C60_errors jv _ k R nu).1 ⟨m, h1, by simp [h2, h3], h4⟩
  · intro hlt ac hac noW r th
    have hlen : ac.length = n := by
      by_cases hJ : ∃ m : ℕ, 1 ≤ m ∧ m ≤ n ∧ jv (m * nu) (k * R) = 0
      · obtain ⟨m, p, q, s⟩ := hJ
        have := (C60_errors jv ((List.ofFn (arcDst a (fun th => (toDst th : ℂ)) n)).take mMax) k R nu).1
          ⟨m, p, by simp; omega, s⟩
        rw [skACoef, this] at hac
        cases hac
      · push Not at hJ
        obtain ⟨c, q1, q2, -⟩ := (C60_values jv ((List.ofFn (arcDst a (fun th => (toDst th : ℂ)) n)).take mMax) k R nu).2
          (fun m p q => hJ m p (by simp at q; omega))
        rw [skACoef, q1] at hac
        cases hac
        rw [q2]
        simp; omega
    unfold skExpectedPolar
    obtain ⟨d, rfl⟩ : ∃ d, mMax = n + (d + 1) := ⟨mMax - n - 1, by omega⟩
    rw [← List.range'_append_1, List.foldlM_append, skFold jv ac k a nu r th _ n (by omega), ok_bind, List.range'_succ,
      List.foldlM_cons, listGet_of_ge _ _ (by omega), error_bind, error_bind]

/-- **C74** with the shipped number of terms and nodes `C74_known` covers every sine series of at most 300 terms. -/
theorem C74_shipped : skMMax ≤ arcDstN ∧ skMMax = 300 := by decide

end Pot
