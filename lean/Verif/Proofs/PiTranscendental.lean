import Mathlib.NumberTheory.Transcendental.Lindemann.AnalyticalPart
import Mathlib.FieldTheory.Galois.Basic
import Mathlib.FieldTheory.IntermediateField.Adjoin.Algebra
import Mathlib.FieldTheory.SplittingField.IsSplittingField
import Mathlib.Algebra.Polynomial.Lifts
import Mathlib.RingTheory.Localization.Integral
import Mathlib.RingTheory.IntegralClosure.IntegrallyClosed
import Mathlib.RingTheory.Polynomial.RationalRoot
import Mathlib.Topology.Algebra.Order.Floor
import Mathlib.Analysis.Complex.Polynomial.Basic
import Mathlib.Analysis.SpecialFunctions.Trigonometric.Basic
import Mathlib.Data.Nat.Prime.Infinite
import Mathlib.Tactic.Linarith
import Mathlib.Tactic.Ring
import Mathlib.Tactic.FieldSimp
import Mathlib.Tactic.Positivity

/-! # The transcendence of π

Mathlib has the analytic part of the Lindemann–Weierstrass theorem; the algebraic part for `e^{iπ} = -1` is done here. -/

namespace Pot
open Polynomial Finset

/-- the contradiction at the heart of the proof: a nonzero natural number plus the exponentials of the roots of an integer
polynomial is not zero.  `R` indexes the roots, with multiplicity. -/
theorem lindemann_core {ι : Type} (T : Finset ι) (ρ : ι → ℂ) (q : ℤ[X]) (hq0 : q.eval 0 ≠ 0) (hroot : ∀ i ∈ T, ρ i ∈ q.aroots ℂ)
    (K : ℕ) (hK : 0 < K) (hint : ∀ g : ℤ[X], ∀ D : ℕ, g.natDegree ≤ D →
      ∃ z : ℤ, (q.leadingCoeff : ℂ) ^ D * ∑ i ∈ T, aeval (ρ i) g = z)
    (hsum : (K : ℂ) + ∑ i ∈ T, Complex.exp (ρ i) = 0) : False := by
  obtain ⟨c, hc⟩ := LindemannWeierstrass.exp_polynomial_approx q hq0
  set b := q.leadingCoeff with hb
  set m := q.natDegree with hm
  have hq : q ≠ 0 := by rintro rfl; simp at hq0
  have hb0 : b ≠ 0 := leadingCoeff_ne_zero.2 hq
  -- the bound tends to zero
  set C := |(b:ℝ)| ^ m * |c| with hC
  have hC0 : 0 ≤ C := by positivity
  have hlim := ((FloorSemiring.tendsto_pow_div_factorial_atTop C).const_mul (T.card * C)).eventually
    (gt_mem_nhds (show (T.card * C : ℝ) * 0 < 1 by simp))
  obtain ⟨n0, hn0⟩ := Filter.eventually_atTop.1 hlim
  obtain ⟨p, hp1, hp⟩ := Nat.exists_infinite_primes (max (n0 + 1) (max ((q.eval 0).natAbs + 1) (max (K + 1) (b.natAbs + 1))))
  simp only [max_le_iff] at hp1
  obtain ⟨g1, g2, g3, g4⟩ := hp1
  obtain ⟨n, hn, gp, hdeg, happ⟩ := hc p (by omega) hp
  have hsmall := hn0 (p - 1) (by omega)
  obtain ⟨z, hz⟩ := hint gp (p * m) (by omega)
  have hpi : Prime (p : ℤ) := Nat.prime_iff_prime_int.1 hp
  -- the integer
  have hnz : -(b ^ (p * m) * n * K) - p * z ≠ 0 := by
    intro h
    have hdvd : (p : ℤ) ∣ b ^ (p * m) * n * K := ⟨-z, by linarith⟩
    rcases hpi.dvd_or_dvd hdvd with h1 | h1
    · rcases hpi.dvd_or_dvd h1 with h2 | h2
      · have h3 := hpi.dvd_of_dvd_pow h2
        have := Int.natAbs_dvd_natAbs.2 h3
        simp only [Int.natAbs_natCast] at this
        have := Nat.le_of_dvd (Int.natAbs_pos.2 hb0) this
        omega
      · exact hn h2
    · have := Nat.le_of_dvd hK (Int.natCast_dvd_natCast.1 h1)
      omega
  have hge : (1:ℝ) ≤ |((-(b ^ (p * m) * n * K) - p * z : ℤ) : ℝ)| := by
    rw [← Int.cast_abs]
    exact_mod_cast Int.one_le_abs hnz
  have heq : (((-(b ^ (p * m) * n * K) - p * z : ℤ) : ℝ) : ℂ) =
      (b : ℂ) ^ (p * m) * ∑ i ∈ T, (n • Complex.exp (ρ i) - p • aeval (ρ i) gp) := by
    rw [sum_sub_distrib, ← smul_sum, ← smul_sum, eq_neg_of_add_eq_zero_right hsum]
    push_cast
    rw [← hz]
    simp only [zsmul_eq_mul, nsmul_eq_mul]
    ring
  have hle : |((-(b ^ (p * m) * n * K) - p * z : ℤ) : ℝ)| ≤ |(b:ℝ)| ^ (p * m) * (T.card * (|c| ^ p / (p - 1).factorial)) := by
    rw [← Real.norm_eq_abs, ← Complex.norm_real, heq, norm_mul, norm_pow, Complex.norm_intCast]
    refine mul_le_mul_of_nonneg_left ?_ (by positivity)
    refine (norm_sum_le _ _).trans ?_
    rw [← nsmul_eq_mul]
    refine sum_le_card_nsmul _ _ _ fun i hi => (happ (hroot i hi)).trans ?_
    exact div_le_div_of_nonneg_right ((le_abs_self _).trans (abs_pow c p).le) (by positivity)
  have hCp : |(b:ℝ)| ^ (p * m) * (T.card * (|c| ^ p / (p - 1).factorial)) = T.card * C * (C ^ (p - 1) / (p - 1).factorial) := by
    have e : C * C ^ (p - 1) = |(b:ℝ)| ^ (p * m) * |c| ^ p := by
      rw [← pow_succ', Nat.sub_add_cancel hp.one_le, hC, mul_pow, ← pow_mul, mul_comm m p]
    calc |(b:ℝ)| ^ (p * m) * (T.card * (|c| ^ p / (p - 1).factorial))
        = T.card * (|(b:ℝ)| ^ (p * m) * |c| ^ p) / (p - 1).factorial := by ring
      _ = _ := by rw [← e]; ring
  rw [hCp] at hle
  linarith

section galois
variable {L : Type} [Field L] [Algebra ℚ L] [FiniteDimensional ℚ L] [IsGalois ℚ L]

omit [FiniteDimensional ℚ L] [IsGalois ℚ L] in
/-- translation of a set of automorphisms -/
theorem sum_translate (α : L) (h : L ≃ₐ[ℚ] L) (S : Finset (L ≃ₐ[ℚ] L)) :
    h (∑ g ∈ S, g α) = ∑ g ∈ S.map (Equiv.mulLeft h).toEmbedding, g α := by
  rw [sum_map, map_sum]
  rfl

omit [FiniteDimensional ℚ L] [IsGalois ℚ L] in
/-- reindexing over the sets of automorphisms with a nonzero sum -/
theorem prod_translate {M : Type} [CommMonoid M] [DecidableEq L] [Fintype (L ≃ₐ[ℚ] L)] (α : L) (h : L ≃ₐ[ℚ] L) (F : L → M) :
    ∏ S ∈ univ.filter (fun S : Finset (L ≃ₐ[ℚ] L) => ∑ g ∈ S, g α ≠ 0), F (h (∑ g ∈ S, g α)) =
      ∏ S ∈ univ.filter (fun S : Finset (L ≃ₐ[ℚ] L) => ∑ g ∈ S, g α ≠ 0), F (∑ g ∈ S, g α) := by
  have hinv : ∀ S : Finset (L ≃ₐ[ℚ] L), ∀ k : L ≃ₐ[ℚ] L, ∑ g ∈ S, g α ≠ 0 →
      ∑ g ∈ S.map (Equiv.mulLeft k).toEmbedding, g α ≠ 0 := by
    intro S k hS
    rw [← sum_translate]
    exact fun h0 => hS ((map_eq_zero k).1 h0)
  refine prod_nbij' (fun S => S.map (Equiv.mulLeft h).toEmbedding) (fun S => S.map (Equiv.mulLeft h⁻¹).toEmbedding) ?_ ?_ ?_ ?_ ?_
  · intro S hS
    simp only [mem_filter, mem_univ, true_and] at hS ⊢
    exact hinv S h hS
  · intro S hS
    simp only [mem_filter, mem_univ, true_and] at hS ⊢
    exact hinv S h⁻¹ hS
  · intro S _
    ext g
    simp
  · intro S _
    ext g
    simp
  · intro S _
    rw [sum_translate]

theorem pi_core (φ : L →ₐ[ℚ] ℂ) (α : L) (hα : Complex.exp (φ α) = -1) : False := by
  classical
  let T : Finset (Finset (L ≃ₐ[ℚ] L)) := univ.filter (fun S : Finset (L ≃ₐ[ℚ] L) => ∑ g ∈ S, g α ≠ 0)
  let σ : Finset (L ≃ₐ[ℚ] L) → L := fun S => ∑ g ∈ S, g α
  -- the polynomial with these roots has rational coefficients
  let P : L[X] := ∏ S ∈ T, (X - C (σ S))
  have hP : P ∈ lifts (algebraMap ℚ L) := by
    rw [lifts_iff_coeff_lifts]
    intro i
    rw [IsGalois.mem_range_algebraMap_iff_fixed]
    intro h
    have hmap : P.map (h : L →+* L) = P := by
      simp only [P, Polynomial.map_prod, Polynomial.map_sub, Polynomial.map_X, Polynomial.map_C]
      exact prod_translate α h (fun x => X - C x)
    conv_rhs => rw [← hmap]
    rw [coeff_map]
    rfl
  obtain ⟨P0, hP0⟩ := (mem_lifts _).1 hP
  obtain ⟨b, hb, hbP⟩ := IsLocalization.integerNormalization_spec (nonZeroDivisors ℤ) P0
  set q := IsLocalization.integerNormalization (nonZeroDivisors ℤ) P0 with hq
  have hb0 : b ≠ 0 := nonZeroDivisors.ne_zero hb
  have hqL : q.map (algebraMap ℤ L) = C (b : L) * P := by
    rw [IsScalarTower.algebraMap_eq ℤ ℚ L, ← Polynomial.map_map, hbP, ← hP0]
    rw [zsmul_eq_mul, Polynomial.map_mul, Polynomial.map_intCast, map_intCast]
  have hqC : q.map (algebraMap ℤ ℂ) = C (b : ℂ) * ∏ S ∈ T, (X - C (φ (σ S))) := by
    have e : (algebraMap ℤ ℂ) = (φ : L →+* ℂ).comp (algebraMap ℤ L) := RingHom.ext_int _ _
    rw [e, ← Polynomial.map_map, hqL]
    simp only [P, Polynomial.map_mul, Polynomial.map_prod, Polynomial.map_sub, Polynomial.map_X, Polynomial.map_C, map_intCast, Polynomial.map_intCast]
    rfl
  have hPm : P.Monic := monic_prod_of_monic _ _ fun S _ => monic_X_sub_C _
  have : CharZero L := algebraRat.charZero L
  have hinjL : Function.Injective (algebraMap ℤ L) := (algebraMap ℤ L).injective_int
  have hbL : (b : L) ≠ 0 := by exact_mod_cast hb0
  have hlead : q.leadingCoeff = b := by
    have h1 : (q.map (algebraMap ℤ L)).leadingCoeff = algebraMap ℤ L q.leadingCoeff := leadingCoeff_map_of_injective hinjL q
    rw [hqL, leadingCoeff_mul, leadingCoeff_C, hPm.leadingCoeff, mul_one] at h1
    exact hinjL (by rw [← h1]; simp)
  have hq0 : q ≠ 0 := by
    intro h
    rw [h, leadingCoeff_zero] at hlead
    exact hb0 hlead.symm
  -- its roots
  have hrootL : ∀ S ∈ T, aeval (σ S) q = 0 := by
    intro S hS
    rw [← eval_map_algebraMap, hqL, eval_mul]
    refine mul_eq_zero_of_right _ ?_
    simp only [P, eval_prod]
    exact prod_eq_zero hS (by simp)
  have hroot : ∀ S ∈ T, φ (σ S) ∈ q.aroots ℂ := by
    intro S hS
    rw [mem_aroots]
    refine ⟨hq0, ?_⟩
    rw [← eval_map_algebraMap, hqC, eval_mul]
    refine mul_eq_zero_of_right _ ?_
    rw [eval_prod]
    exact prod_eq_zero hS (by simp)
  have heval : q.eval 0 ≠ 0 := by
    intro h
    have h1 : (q.map (algebraMap ℤ L)).eval 0 = 0 := by
      rw [← map_zero (algebraMap ℤ L), eval_map_apply, h]
    rw [hqL, eval_mul, eval_C] at h1
    rcases mul_eq_zero.1 h1 with h2 | h2
    · exact hbL h2
    · simp only [P, eval_prod] at h2
      obtain ⟨S, hS, h3⟩ := prod_eq_zero_iff.1 h2
      simp only [eval_sub, eval_X, eval_C, zero_sub, neg_eq_zero] at h3
      exact (mem_filter.1 hS).2 h3
  -- symmetric integer expressions of the roots
  have hint : ∀ g : ℤ[X], ∀ D : ℕ, g.natDegree ≤ D →
      ∃ z : ℤ, (q.leadingCoeff : ℂ) ^ D * ∑ S ∈ T, aeval (φ (σ S)) g = z := by
    intro g D hD
    have hi : IsIntegral ℤ ((b : L) ^ D * ∑ S ∈ T, aeval (σ S) g) := by
      rw [mul_sum]
      refine IsIntegral.sum _ fun S hS => ?_
      have hs : IsIntegral ℤ ((b : L) * σ S) := by
        have := isIntegral_leadingCoeff_smul q (σ S) (hrootL S hS)
        rwa [hlead, zsmul_eq_mul] at this
      rw [aeval_eq_sum_range' (n := D + 1) (by omega), mul_sum]
      refine IsIntegral.sum _ fun i hi => ?_
      have hiD : i ≤ D := by simpa [Nat.lt_succ_iff] using hi
      have e : (b : L) ^ D * g.coeff i • σ S ^ i = ((g.coeff i * b ^ (D - i) : ℤ) : L) * ((b : L) * σ S) ^ i := by
        rw [zsmul_eq_mul]
        push_cast
        have : (b : L) ^ D = (b : L) ^ (D - i) * (b : L) ^ i := by rw [← pow_add, Nat.sub_add_cancel hiD]
        rw [this]
        ring
      rw [e]
      exact (isIntegral_algebraMap (R := ℤ) (A := L) (x := g.coeff i * b ^ (D - i))).mul (hs.pow i)
    have hfix : ((b : L) ^ D * ∑ S ∈ T, aeval (σ S) g) ∈ Set.range (algebraMap ℚ L) := by
      rw [IsGalois.mem_range_algebraMap_iff_fixed]
      intro h
      rw [map_mul, map_pow, map_intCast, map_sum]
      congr 1
      have := prod_translate (M := Multiplicative L) α h (fun x => Multiplicative.ofAdd (aeval x g))
      rw [← ofAdd_sum, ← ofAdd_sum] at this
      have h2 := Multiplicative.ofAdd.injective this
      refine Eq.trans (sum_congr rfl fun S _ => ?_) h2
      exact (aeval_algHom_apply ((h : L →ₐ[ℚ] L).restrictScalars ℤ) (σ S) g).symm
    obtain ⟨y, hy⟩ := hfix
    have hiy : IsIntegral ℤ y := by
      rw [← hy] at hi
      exact (isIntegral_algebraMap_iff (algebraMap ℚ L).injective).1 hi
    obtain ⟨z, hz⟩ := IsIntegrallyClosed.isIntegral_iff.1 hiy
    refine ⟨z, ?_⟩
    rw [hlead]
    have h1 := congrArg φ hy
    rw [map_mul, map_pow, map_intCast, map_sum, ← hz] at h1
    have h2 : ∑ S ∈ T, φ (aeval (σ S) g) = ∑ S ∈ T, aeval (φ (σ S)) g :=
      sum_congr rfl fun S _ => (aeval_algHom_apply (φ.restrictScalars ℤ) (σ S) g).symm
    rw [h2] at h1
    rw [← h1]
    simp
  -- the exponentials
  have hprod : ∏ g : L ≃ₐ[ℚ] L, (1 + Complex.exp (φ (g α))) = 0 := by
    refine prod_eq_zero (mem_univ (1 : L ≃ₐ[ℚ] L)) ?_
    rw [AlgEquiv.one_apply, hα]
    ring
  rw [prod_one_add, powerset_univ] at hprod
  have hexp : ∀ S : Finset (L ≃ₐ[ℚ] L), ∏ g ∈ S, Complex.exp (φ (g α)) = Complex.exp (φ (σ S)) := by
    intro S
    rw [← Complex.exp_sum, ← map_sum]
  simp only [hexp] at hprod
  rw [← sum_filter_add_sum_filter_not univ (fun S => σ S ≠ 0)] at hprod
  set K := (univ.filter fun S : Finset (L ≃ₐ[ℚ] L) => ¬ σ S ≠ 0).card with hK
  have hKs : ∑ S ∈ univ.filter (fun S : Finset (L ≃ₐ[ℚ] L) => ¬ σ S ≠ 0), Complex.exp (φ (σ S)) = K := by
    rw [hK, card_eq_sum_ones, Nat.cast_sum]
    refine sum_congr rfl fun S hS => ?_
    have := not_not.1 (mem_filter.1 hS).2
    rw [this, map_zero, Complex.exp_zero, Nat.cast_one]
  rw [hKs, add_comm] at hprod
  have hKpos : 0 < K := by
    refine card_pos.2 ⟨∅, ?_⟩
    simp [σ]
  exact lindemann_core T (fun S => φ (σ S)) q heval hroot K hKpos hint hprod

end galois

/-- an algebraic number lies in a finite Galois extension -/
theorem exists_galois {F E : Type} [Field F] [CharZero F] [Field E] [Algebra F E] [IsAlgClosed E] {z : E} (hi : IsIntegral F z) :
    ∃ (L : Type) (_ : Field L) (_ : Algebra F L) (_ : FiniteDimensional F L) (_ : IsGalois F L) (φ : L →ₐ[F] E) (α : L),
      φ α = z := by
  have hsp : ((minpoly F z).map (algebraMap F E)).Splits := IsAlgClosed.splits _
  have hL := IntermediateField.adjoin_rootSet_isSplittingField hsp
  have h1 : FiniteDimensional F (IntermediateField.adjoin F ((minpoly F z).rootSet E)) :=
    IsSplittingField.finiteDimensional _ (minpoly F z)
  have h2 : IsGalois F (IntermediateField.adjoin F ((minpoly F z).rootSet E)) :=
    IsGalois.of_separable_splitting_field (p := minpoly F z) (minpoly.irreducible hi).separable
  have hmem : z ∈ IntermediateField.adjoin F ((minpoly F z).rootSet E) := by
    refine IntermediateField.subset_adjoin F _ ?_
    rw [mem_rootSet]
    exact ⟨minpoly.ne_zero hi, minpoly.aeval F z⟩
  exact ⟨_, _, _, h1, h2, (IntermediateField.adjoin F ((minpoly F z).rootSet E)).val, ⟨z, hmem⟩, rfl⟩

/-- π is not a root of any nonzero polynomial with rational coefficients -/
theorem transcendental_pi : Transcendental ℚ Real.pi := by
  intro halg
  have hz : IsAlgebraic ℚ ((Real.pi : ℂ) * Complex.I) := by
    refine IsAlgebraic.mul ?_ ?_
    · exact halg.algebraMap (A := ℂ)
    · refine ⟨X ^ 2 + 1, ?_, by simp⟩
      exact (monic_X_pow_add_C (R := ℚ) (1 : ℚ) (n := 2) (by norm_num)).ne_zero
  set z := (Real.pi : ℂ) * Complex.I with hzdef
  have hi : IsIntegral ℚ z := hz.isIntegral
  obtain ⟨L, iF, iA, iD, iG, φ, α, h⟩ := exists_galois hi
  exact pi_core φ α (by rw [h]; exact Complex.exp_pi_mul_I)

end Pot
