import Verif.Props.Singular

/-! # C75: the coefficients of the singular functions in the z method -/

namespace Pot
open Real Spec

/-- functions that agree at the nodes have the same transform -/
theorem arcDst_congr (a : ℝ) {f g : ℝ → ℂ} {n : ℕ} (h : ∀ i < n, f (abTh n a i) = g (abTh n a i)) (j : Fin n) :
    arcDst a f n j = arcDst a g n j := by
  unfold arcDst
  simp only
  have : (fun i : Fin n => f ((linspace a (2 * π) (n + 2)).getD ((i : ℕ) + 1) 0))
      = fun i : Fin n => g ((linspace a (2 * π) (n + 2)).getD ((i : ℕ) + 1) 0) := funext fun i => h i i.2
  rw [this]

/-- on the arc the model functions are linearly independent at the nodes as long as no Bessel factor vanishes -/
theorem arc_rank (jv : ℝ → ℝ → ℝ) {n m1 : ℕ} (hm : m1 ≤ n) {k R a nu : ℝ} (ha : a ≠ 2 * π) (hnu : nu = π / (2 * π - a))
    {evalR : ℝ → ℝ} (harc : ∀ th, evalR th = R) (hJ : ∀ m : ℕ, 1 ≤ m → m ≤ m1 → jv (m * nu) (k * R) ≠ 0)
    (d : ℕ → ℂ) (hd : ∀ i < n, ∑ j ∈ Finset.range m1, d j * ((jv ((j + 1 : ℕ) * nu) (k * evalR (abTh n a i))
      * sin ((j + 1 : ℕ) * nu * (abTh n a i - a)) : ℝ) : ℂ) = 0) : ∀ j < m1, d j = 0 := by
  intro j hj
  have h1 := arcDst_series ha hnu hm (fun j => d j * ((jv ((j + 1 : ℕ) * nu) (k * R) : ℝ) : ℂ)) (fun _ => rfl) ⟨j, by omega⟩
  have h2 := arcDst_series (L := 0) ha hnu (Nat.zero_le n) (fun _ => 0) (f := fun _ => 0) (fun _ => by simp) ⟨j, by omega⟩
  rw [if_neg (by omega)] at h2
  rw [if_pos (by simpa using hj), arcDst_congr a (g := fun _ => 0), h2] at h1
  · have hne : ((jv ((j + 1 : ℕ) * nu) (k * R) : ℝ) : ℂ) ≠ 0 := by exact_mod_cast hJ (j + 1) (by omega) (by omega)
    exact (mul_eq_zero.1 h1.symm).resolve_right hne
  · intro i hi
    rw [← hd i hi]
    refine Finset.sum_congr rfl fun j _ => ?_
    rw [harc]
    push_cast
    ring

/-- **C75** without `acheat`: if the data minus the interpolated `v` is a combination of the `m1` model functions at the nodes,
the first `M` coefficients are found exactly, and at the nodes the boundary data of the remaining problem is the interpolated `v`
minus `v_asympt` plus the model functions after the first `M`. -/
theorem C75_fit (jv : ℝ → ℝ → ℝ) {lstsq : Lstsq} (hls : IsLstsq lstsq) {n : ℕ} (nDst : ℕ) (isIz : Bool) {evalR : ℝ → ℝ} (phi0 phi1 phi2 : ℝ → ℝ)
    (evalV vAs : ℝ → ℝ → ℝ) (vInterp : ℝ → ℝ → ℂ) {k R a nu : ℝ} {M m1 : ℕ} (hM : M ≤ m1)
    (hJ : ∀ m : ℕ, M < m → m ≤ m1 → jv (m * nu) (k * R) ≠ 0)
    (hrank : ∀ d : ℕ → ℂ, (∀ i < n, ∑ j ∈ Finset.range m1, d j * ((jv ((j + 1 : ℕ) * nu) (k * evalR (abTh n a i))
      * sin ((j + 1 : ℕ) * nu * (abTh n a i - a)) : ℝ) : ℂ) = 0) → ∀ j < m1, d j = 0)
    (c : ℕ → ℂ) (hdata : ∀ i < n, (phi0 (abTh n a i) : ℂ) - vInterp (evalR (abTh n a i)) (abTh n a i)
      = ∑ j ∈ Finset.range m1, c j *
      ((jv ((j + 1 : ℕ) * nu) (k * evalR (abTh n a i)) * sin ((j + 1 : ℕ) * nu * (abTh n a i - a)) : ℝ) : ℂ)) :
    zCalcACoef jv lstsq n nDst false isIz phi0 evalV vInterp evalR k R a nu M m1 = .ok ((List.range M).map c) ∧
    ∀ i < n, uEvalBc jv evalR phi0 phi1 phi2 vAs ((List.range M).map c) k a nu M (abTh n a i) 0
      = .ok (vInterp (evalR (abTh n a i)) (abTh n a i) - vAs (evalR (abTh n a i)) (abTh n a i)
        + ∑ j ∈ Finset.Ico M m1, c j *
          ((jv ((j + 1 : ℕ) * nu) (k * evalR (abTh n a i)) * sin ((j + 1 : ℕ) * nu * (abTh n a i - a)) : ℝ) : ℂ)) := by
  constructor
  · unfold zCalcACoef
    rw [if_neg (by simp)]
    exact C61_exact jv hls hM hJ hrank c hdata
  · intro i hi
    have hf := uBc_fold jv ((List.range M).map c) k a nu (evalR (abTh n a i)) (abTh n a i)
      ((phi0 (abTh n a i) - vAs (evalR (abTh n a i)) (abTh n a i) : ℝ) : ℂ) M (by simp)
    unfold uEvalBc argToPolar
    simp only [if_true]
    rw [hf]
    congr 1
    have hs := hdata i hi
    rw [← Finset.sum_range_add_sum_Ico _ hM] at hs
    have e : ∑ j ∈ Finset.range M, ((List.range M).map c).getD j 0 * ((jv (((j : ℝ) + 1) * nu) (k * evalR (abTh n a i))
          * sin (((j : ℝ) + 1) * nu * (abTh n a i - a)) : ℝ) : ℂ)
        = ∑ j ∈ Finset.range M, c j * ((jv ((j + 1 : ℕ) * nu) (k * evalR (abTh n a i)) * sin ((j + 1 : ℕ) * nu * (abTh n a i - a)) : ℝ) : ℂ) := by
      refine Finset.sum_congr rfl fun j hj => ?_
      have := Finset.mem_range.1 hj
      rw [List.getD_eq_getElem?_getD, List.getElem?_map, List.getElem?_range this]
      push_cast
      rfl
    rw [e]
    push_cast at hs ⊢
    linear_combination hs

/-- **C75** with `acheat`: the coefficients are those whose series on the circle of radius `R` has the first `M` sine coefficients
of `phi0 - v`. -/
theorem C75_cheat (jv : ℝ → ℝ → ℝ) (lstsq : Lstsq) (n : ℕ) {nDst L : ℕ} (hL : L ≤ nDst) (phi0 : ℝ → ℝ)
    (evalV : ℝ → ℝ → ℝ) (vInterp : ℝ → ℝ → ℂ) (evalR : ℝ → ℝ) {k R a nu : ℝ} (ha : a ≠ 2 * π) (hnu : nu = π / (2 * π - a))
    {M : ℕ} (m1 : ℕ) (hM : M ≤ nDst) (hJ : ∀ m : ℕ, 1 ≤ m → m ≤ M → jv (m * nu) (k * R) ≠ 0) (b : ℕ → ℝ)
    (hb : ∀ th, phi0 th - evalV R th = ∑ j ∈ Finset.range L, b j * sin (((j : ℝ) + 1) * nu * (th - a))) :
    zCalcACoef jv lstsq n nDst true false phi0 evalV vInterp evalR k R a nu M m1
      = .ok ((List.range M).map fun j => (if j < L then (b j : ℂ) else 0) / ((jv ((j + 1 : ℕ) * nu) (k * R) : ℝ) : ℂ)) := by
  unfold zCalcACoef zExpectedACoef
  rw [if_pos rfl, if_neg (by simp)]
  simp only
  set bl : List ℂ := (List.ofFn (arcDst a (fun th => ((phi0 th - evalV R th : ℝ) : ℂ)) nDst)).take M with hbl
  have hlen : bl.length = M := by simp [hbl, hM]
  obtain ⟨ac, h1, h2, h3⟩ := (C60_values jv bl k R nu).2 (fun m p q => hJ m p (by omega))
  rw [h1]
  congr 1
  refine List.ext_getElem (by simp [h2, hlen]) fun i p q => ?_
  have hi : i < M := by omega
  have hne : ((jv ((i + 1 : ℕ) * nu) (k * R) : ℝ) : ℂ) ≠ 0 := by exact_mod_cast hJ (i + 1) (by omega) (by omega)
  have h4 := h3 i (by omega)
  have h5 : bl.getD i 0 = if i < L then (b i : ℂ) else 0 := by
    have := arcDst_series ha hnu hL (fun j => (b j : ℂ)) (f := fun th => ((phi0 th - evalV R th : ℝ) : ℂ))
      (fun th => by rw [hb]; push_cast; rfl) ⟨i, by omega⟩
    rw [List.getD_eq_getElem?_getD, List.getElem?_eq_getElem (by omega)]
    simp only [hbl, List.getElem_take, List.getElem_ofFn, Option.getD_some]
    rw [this]
  rw [h5, List.getD_eq_getElem?_getD, List.getElem?_eq_getElem p, Option.getD_some] at h4
  simp only [List.getElem_map, List.getElem_range]
  rw [eq_div_iff hne, h4]

/-- **C75** on the arc the two ways of computing the coefficients give the same answer, whatever least-squares solver is used:
the data minus `v` is a sine series of at most `m1` terms, no Bessel factor vanishes, and the interpolation is exact at the
nodes.  There is no hypothesis on the rank of the matrix. -/
theorem C75_arc (jv : ℝ → ℝ → ℝ) {lstsq : Lstsq} (hls : IsLstsq lstsq) {n nDst L m1 M : ℕ} (hL : L ≤ m1) (hM : M ≤ m1) (hn : m1 ≤ n)
    (hnD : m1 ≤ nDst) (phi0 : ℝ → ℝ) (evalV : ℝ → ℝ → ℝ) (vInterp : ℝ → ℝ → ℂ) {evalR : ℝ → ℝ} {k R a nu : ℝ} (ha : a ≠ 2 * π)
    (hnu : nu = π / (2 * π - a)) (harc : ∀ th, evalR th = R) (hJ : ∀ m : ℕ, 1 ≤ m → m ≤ m1 → jv (m * nu) (k * R) ≠ 0) (b : ℕ → ℝ)
    (hb : ∀ th, phi0 th - evalV R th = ∑ j ∈ Finset.range L, b j * sin (((j : ℝ) + 1) * nu * (th - a)))
    (hI : ∀ i < n, vInterp R (abTh n a i) = evalV R (abTh n a i)) :
    zCalcACoef jv lstsq n nDst false false phi0 evalV vInterp evalR k R a nu M m1
      = zCalcACoef jv lstsq n nDst true false phi0 evalV vInterp evalR k R a nu M m1 := by
  rw [C75_cheat jv lstsq n (hL.trans hnD) phi0 evalV vInterp evalR ha hnu m1 (hM.trans hnD) (fun m p q => hJ m p (q.trans hM)) b hb]
  refine (C75_fit jv hls nDst false phi0 phi0 phi0 evalV evalV vInterp hM (fun m p q => hJ m (by omega) q)
    (arc_rank jv hn ha hnu harc hJ) _ fun i hi => ?_).1
  rw [harc, hI i hi, ← Complex.ofReal_sub, hb]
  push_cast
  symm
  rw [← Finset.sum_subset (Finset.range_mono hL)]
  · refine Finset.sum_congr rfl fun j hj => ?_
    have hj' := Finset.mem_range.1 hj
    have hne : ((jv ((j + 1 : ℕ) * nu) (k * R) : ℝ) : ℂ) ≠ 0 := by exact_mod_cast hJ (j + 1) (by omega) (by omega)
    rw [if_pos hj']
    push_cast at hne
    field_simp
  · intro j _ hj
    rw [if_neg (by simpa using hj)]
    simp

/-- **C75** `iz-bessel`: with `acheat` the coefficients are zero by definition; without it they are zero whenever the
interpolation of `v` is exact at the nodes of the curve and the model functions are independent there. -/
theorem C75_iz (jv : ℝ → ℝ → ℝ) {lstsq : Lstsq} (hls : IsLstsq lstsq) (n nDst : ℕ) {evalR : ℝ → ℝ} (K : ℕ)
    (vInterp : ℝ → ℝ → ℂ) (k R a nu : ℝ) {M m1 : ℕ} (hM : M ≤ m1) :
    zCalcACoef jv lstsq n nDst true true (izPhi0 jv K k a nu evalR) (ihV jv K k a nu) vInterp evalR k R a nu M m1
      = .ok (List.replicate M 0) ∧
    ((∀ m : ℕ, M < m → m ≤ m1 → jv (m * nu) (k * R) ≠ 0) →
      (∀ d : ℕ → ℂ, (∀ i < n, ∑ j ∈ Finset.range m1, d j * ((jv ((j + 1 : ℕ) * nu) (k * evalR (abTh n a i))
        * sin ((j + 1 : ℕ) * nu * (abTh n a i - a)) : ℝ) : ℂ) = 0) → ∀ j < m1, d j = 0) →
      (∀ i < n, vInterp (evalR (abTh n a i)) (abTh n a i) = ihV jv K k a nu (evalR (abTh n a i)) (abTh n a i)) →
      zCalcACoef jv lstsq n nDst false true (izPhi0 jv K k a nu evalR) (ihV jv K k a nu) vInterp evalR k R a nu M m1
        = .ok (List.replicate M 0)) := by
  refine ⟨rfl, fun hJ hrank hI => ?_⟩
  rw [(C75_fit jv hls nDst true (izPhi0 jv K k a nu evalR) (fun _ => 0) (fun _ => 0) (ihV jv K k a nu) (ihV jv K k a nu) vInterp hM hJ
    hrank (fun _ => 0) fun i hi => ?_).1]
  · congr 1
    exact List.map_const' ..|>.trans (by simp)
  · rw [hI i hi]
    simp [izPhi0]

/-- **C75** `iz-bessel` with zero coefficients: the expected solution of the remaining problem takes its boundary data on all three
segments and satisfies its equation, wherever `v_asympt` is twice differentiable.  `J(0) = 0` for the positive order. -/
theorem C75_iz_expected (jv : ℝ → ℝ → ℝ) (evalR : ℝ → ℝ) (K : ℕ) (vAs : ℝ → ℝ → ℝ) {k a nu : ℝ} (ha : a ≠ 2 * π)
    (hnu : nu = π / (2 * π - a)) (hJ0 : jv ((K + 1 / 2) * nu) 0 = 0) (M : ℕ) :
    (∀ th, uEvalBc jv evalR (izPhi0 jv K k a nu evalR) (izPhi1 jv K k a nu) izPhi2 vAs (List.replicate M 0) k a nu M th 0
      = .ok ((uEvalExpectedPolar (izExpected jv K k a nu) vAs (evalR th) th : ℝ) : ℂ)) ∧
    (∀ r, 0 ≤ r → uEvalBc jv evalR (izPhi0 jv K k a nu evalR) (izPhi1 jv K k a nu) izPhi2 vAs (List.replicate M 0) k a nu M r 1
      = .ok ((uEvalExpectedPolar (izExpected jv K k a nu) vAs r (2 * π) : ℝ) : ℂ)) ∧
    (∀ r, 0 ≤ r → uEvalBc jv evalR (izPhi0 jv K k a nu evalR) (izPhi1 jv K k a nu) izPhi2 vAs (List.replicate M 0) k a nu M r 2
      = .ok ((uEvalExpectedPolar (izExpected jv K k a nu) vAs r a : ℝ) : ℂ)) ∧
    ∀ r th F, r ≠ 0 → BesselAt ((K + 1 / 2) * nu) (jv ((K + 1 / 2) * nu)) (k * r) → HelmholtzAt k vAs F r th →
      HelmholtzAt k (uEvalExpectedPolar (izExpected jv K k a nu) vAs) (zF k vAs r th) r th := by
  have hs : ∀ r th, singSum jv (List.replicate M 0) k a nu M r th = 0 := fun r th =>
    Finset.sum_eq_zero fun j hj => by
      rw [List.getD_eq_getElem?_getD, List.getElem?_replicate, if_pos (Finset.mem_range.1 hj)]; simp
  obtain ⟨c1, c2, c3, -⟩ := C71_iz jv K k a nu evalR
  refine ⟨fun th => ?_, fun r hr => ?_, fun r hr => ?_, fun r th F hr hB hA => ?_⟩
  · obtain ⟨bc, h1, h2⟩ := (C70_data jv evalR (izPhi0 jv K k a nu evalR) (izPhi1 jv K k a nu) izPhi2 vAs (c := List.replicate M 0) k
      (M := M) (by simp) ha hnu).1 th
    rw [h1]
    rw [hs, ← c1] at h2
    congr 1
    unfold uEvalExpectedPolar
    push_cast
    linear_combination h2
  · rw [uEvalBc_one, if_pos hr]
    rcases hr.eq_or_lt with rfl | h
    · simp only [uEvalExpectedPolar, izPhi1, izExpected, ihV, mul_zero, hJ0, zero_mul, lt_irrefl, if_false]
    · rw [← c2 r h]; rfl
  · rw [uEvalBc_two, if_pos hr, ← c3 r]; rfl
  · have h1 := (C71_pde jv hr a nu th).1 K hB
    have := HelmholtzAt.sub h1 hA
    rw [show zF k vAs r th = 0 - F by simp only [zF, HelmholtzAt.helmOp_eq hA, zero_sub]]
    exact this

/-- C75: the problem of C61's example on the arc of radius 1 around the tip of the slit domain `a = 0`; `v = r` -/
example {lstsq : Lstsq} (hls : IsLstsq lstsq) :
    zCalcACoef (fun m _ => m) lstsq 2 2 false false (fun th => 1 + (3 * sin (th / 2) + 5 * sin th)) (fun r _ => r)
      (fun r _ => (r : ℂ)) (fun _ => 1) 1 1 0 (1 / 2) 1 2 = .ok [6] := by
  have hpi := pi_pos
  have hJ : ∀ m : ℕ, 1 ≤ m → m ≤ 2 → (fun (m _ : ℝ) => m) (m * (1 / 2)) (1 * 1) ≠ 0 := fun m h _ => by
    have : (0 : ℝ) < m := by exact_mod_cast h
    positivity
  have hb : ∀ th : ℝ, (fun th => 1 + (3 * sin (th / 2) + 5 * sin th)) th - (fun r _ => r) (1 : ℝ) th
      = ∑ j ∈ Finset.range 2, (fun j => if j = 0 then (3 : ℝ) else 5) j * sin (((j : ℝ) + 1) * (1 / 2) * (th - 0)) := by
    intro th
    rw [Finset.sum_range_succ, Finset.sum_range_one]
    simp only [if_true]
    rw [if_neg one_ne_zero]
    push_cast
    ring_nf
  have hnu : (1 / 2 : ℝ) = π / (2 * π - 0) := by field_simp; ring
  rw [C75_arc (fun m _ => m) hls (L := 2) le_rfl (by norm_num) le_rfl le_rfl _ _ _ (by linarith) hnu (fun _ => rfl) hJ _ hb
      (fun _ _ => rfl),
    C75_cheat (fun m _ => m) lstsq 2 (L := 2) le_rfl _ _ _ _ (by linarith) hnu 2 (by norm_num) (fun m p q => hJ m p (by omega)) _ hb]
  norm_num

/-- C75: `C75_iz_expected` is about a problem with `v ≠ 0` -/
example : uEvalBc (fun _ x => x) (fun _ => 1) (izPhi0 (fun _ x => x) 0 1 0 (1 / 2) fun _ => 1) (izPhi1 (fun _ x => x) 0 1 0 (1 / 2)) izPhi2
    (fun _ _ => 0) [0, 0] 1 0 (1 / 2) 2 1 1 = .ok 1 := by
  have hpi := pi_pos
  have h := (C75_iz_expected (fun _ x => x) (fun _ => 1) 0 (fun _ _ => 0) (k := 1) (a := 0) (nu := 1 / 2) (by linarith)
    (by field_simp; ring) rfl 2).2.1 1 zero_le_one
  refine h.trans ?_
  simp only [uEvalExpectedPolar, izExpected, ihV]
  rw [show (((0 : ℕ) : ℝ) + 1 / 2) * (1 / 2) * (2 * π - 0) = π / 2 by push_cast; ring, sin_pi_div_two]
  norm_num

end Pot
