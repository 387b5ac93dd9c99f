import Verif.Model.ABCoef
import Verif.Spec.Lstsq
import Verif.Proofs.MapM
import Mathlib.Analysis.Complex.Trigonometric
import Verif.Props.Fourier
import Mathlib.Tactic.FieldSimp
import Mathlib.Tactic.IntervalCases
import Mathlib.Tactic.Linarith

/-!
# C60, C61: the singularity coefficients
-/

namespace Pot
open Spec Real Classical

/-- the list `c` with the entry of index `m - 1` multiplied by `φ m` -/
theorem range'_map_get {c : List ℂ} {φ : ℕ → ℂ} : (List.range' 1 c.length).map (fun m => c.getD (m - 1) 0 * φ m)
    = c.mapIdx fun i x => x * φ (i + 1) := by
  refine List.ext_getElem (by simp) fun i h1 h2 => ?_
  simp only [List.length_map, List.length_range'] at h1
  simp only [List.getElem_map, List.getElem_range', List.getElem_mapIdx, one_mul]
  rw [List.getD_eq_getElem?_getD, show 1 + i - 1 = i by omega, List.getElem?_eq_getElem h1, Nat.add_comm]
  rfl

theorem aToB_eq (jv : ℝ → ℝ → ℝ) (c : List ℂ) (k R nu : ℝ) :
    aToB jv c k R nu = .ok (c.mapIdx fun i x => x * ((jv ((i + 1 : ℕ) * nu) (k * R) : ℝ) : ℂ)) := by
  unfold aToB convertAb
  rw [if_neg (by simp), mapM_ok (g := fun m : ℕ => c.getD (m - 1) 0 * ((jv (m * nu) (k * R) : ℝ) : ℂ))]
  · rw [range'_map_get (φ := fun m => ((jv (m * nu) (k * R) : ℝ) : ℂ))]
  · intro m hm
    rw [List.mem_range'_1] at hm
    simp only
    rw [if_neg (by decide), pure_eq_ok, ok_bind, listGet_of_lt _ _ (by omega), ok_bind, List.getD_eq_getElem?_getD,
      List.getElem?_eq_getElem (by omega)]
    rfl

theorem bToA_eq (jv : ℝ → ℝ → ℝ) (c : List ℂ) (k R nu : ℝ) (h : ∀ m : ℕ, 1 ≤ m → m ≤ c.length → jv (m * nu) (k * R) ≠ 0) :
    bToA jv c k R nu = .ok (c.mapIdx fun i x => x * ((1 / jv ((i + 1 : ℕ) * nu) (k * R) : ℝ) : ℂ)) := by
  unfold bToA convertAb
  rw [if_neg (by simp), mapM_ok (g := fun m : ℕ => c.getD (m - 1) 0 * ((1 / jv (m * nu) (k * R) : ℝ) : ℂ))]
  · rw [range'_map_get (φ := fun m => ((1 / jv (m * nu) (k * R) : ℝ) : ℂ))]
  · intro m hm
    rw [List.mem_range'_1] at hm
    simp only
    rw [if_pos trivial, if_neg (h m (by omega) (by omega)), pure_eq_ok, ok_bind, listGet_of_lt _ _ (by omega), ok_bind,
      List.getD_eq_getElem?_getD, List.getElem?_eq_getElem (by omega)]
    rfl

/-- **C60** the coefficients `b` are the coefficients `a` times the Bessel factors; both conversions keep the length. -/
theorem C60_values (jv : ℝ → ℝ → ℝ) (c : List ℂ) (k R nu : ℝ) :
    (∃ b, aToB jv c k R nu = .ok b ∧ b.length = c.length ∧
      ∀ i < c.length, b.getD i 0 = c.getD i 0 * ((jv ((i + 1 : ℕ) * nu) (k * R) : ℝ) : ℂ)) ∧
    ((∀ m : ℕ, 1 ≤ m → m ≤ c.length → jv (m * nu) (k * R) ≠ 0) → ∃ a, bToA jv c k R nu = .ok a ∧ a.length = c.length ∧
      ∀ i < c.length, a.getD i 0 * ((jv ((i + 1 : ℕ) * nu) (k * R) : ℝ) : ℂ) = c.getD i 0) := by
  constructor
  · refine ⟨_, aToB_eq jv c k R nu, by simp, fun i hi => ?_⟩
    simp [List.getD_eq_getElem?_getD, hi]
  · intro h
    refine ⟨_, bToA_eq jv c k R nu h, by simp, fun i hi => ?_⟩
    have hne : ((jv ((i + 1 : ℕ) * nu) (k * R) : ℝ) : ℂ) ≠ 0 := by
      exact_mod_cast h (i + 1) (by omega) (by omega)
    simp only [List.getD_eq_getElem?_getD, List.getElem?_mapIdx, List.getElem?_eq_getElem hi, Option.map_some, Option.getD_some]
    push_cast at hne ⊢
    field_simp

/-- **C60** the two conversions are inverse to each other when no Bessel factor is zero. -/
theorem C60_inverse (jv : ℝ → ℝ → ℝ) (c : List ℂ) (k R nu : ℝ)
    (h : ∀ m : ℕ, 1 ≤ m → m ≤ c.length → jv (m * nu) (k * R) ≠ 0) :
    (aToB jv c k R nu >>= fun b => bToA jv b k R nu) = .ok c ∧ (bToA jv c k R nu >>= fun a => aToB jv a k R nu) = .ok c := by
  have hne : ∀ i < c.length, ((jv ((i + 1 : ℕ) * nu) (k * R) : ℝ) : ℂ) ≠ 0 := fun i hi => by
    exact_mod_cast h (i + 1) (by omega) (by omega)
  constructor
  · rw [aToB_eq, ok_bind, bToA_eq _ _ _ _ _ (by simpa using h)]
    congr 1
    refine List.ext_getElem (by simp) fun i h1 h2 => ?_
    have := hne i h2
    simp only [List.getElem_mapIdx]
    push_cast at this ⊢
    field_simp
  · rw [bToA_eq _ _ _ _ _ h, ok_bind, aToB_eq]
    congr 1
    refine List.ext_getElem (by simp) fun i h1 h2 => ?_
    have := hne i h2
    simp only [List.getElem_mapIdx]
    push_cast at this ⊢
    field_simp

/-- **C60** a vanishing Bessel factor makes `b_to_a` produce infinities or nan, and any other type is refused. -/
theorem C60_errors (jv : ℝ → ℝ → ℝ) (c : List ℂ) (k R nu : ℝ) :
    ((∃ m : ℕ, 1 ≤ m ∧ m ≤ c.length ∧ jv (m * nu) (k * R) = 0) → bToA jv c k R nu = .error .nanValue) ∧
    ∀ s, s ≠ "a" → s ≠ "b" → convertAb jv c s k R nu = .error .assertionError := by
  constructor
  · rintro ⟨m, h1, h2, h3⟩
    unfold bToA convertAb
    rw [if_neg (by simp)]
    have hbad : ∀ j : ℕ, jv (j * nu) (k * R) = 0 → (do
        let factor ← (if "b" = "b" then
            if jv (j * nu) (k * R) = 0 then throw PyErr.nanValue else pure (1 / jv (j * nu) (k * R))
          else pure (jv (j * nu) (k * R)) : Py ℝ)
        let c ← listGet c (j - 1)
        return c * (factor : ℂ)) = .error PyErr.nanValue := by
      intro j hj
      rw [if_pos rfl, if_pos hj]
      rfl
    refine mapM_error (fun j hj => ?_) ⟨m, by rw [List.mem_range'_1]; omega, hbad m h3⟩
    rw [List.mem_range'_1] at hj
    by_cases h0 : jv (j * nu) (k * R) = 0
    · exact Or.inl (hbad j h0)
    · refine Or.inr ⟨c[j - 1]'(by omega) * ((1 / jv (j * nu) (k * R) : ℝ) : ℂ), ?_⟩
      simp only
      rw [if_pos trivial, if_neg h0, pure_eq_ok, ok_bind, listGet_of_lt _ _ (by omega), ok_bind]
      rfl
  · intro s h1 h2
    unfold convertAb
    rw [if_pos (by simp [h1, h2])]
    rfl

/-- C60: a Bessel-like factor `m`, `c = [1, 2, 3]` -/
example : aToB (fun m _ => m) [1, 2, 3] 5 7 1 = .ok [1 * 1, 2 * 2, 3 * 3] ∧
    (aToB (fun m _ => m) [1, 2, 3] 5 7 1 >>= fun b => bToA (fun m _ => m) b 5 7 1) = .ok [1, 2, 3] := by
  constructor
  · rw [aToB_eq]; simp; norm_num
  · exact (C60_inverse _ _ _ _ _ fun m h1 _ => by simp; omega).1

/-! ## C61 -/

theorem abColumns_eq (jv : ℝ → ℝ → ℝ) (n : ℕ) (evalR : ℝ → ℝ) (k R a nu : ℝ) (M m1 : ℕ)
    (hJ : ∀ m : ℕ, M < m → m ≤ m1 → jv (m * nu) (k * R) ≠ 0) :
    abColumns jv n evalR k R a nu M m1 = .ok ((List.range' 1 m1).map fun m : ℕ => (List.range n).map fun i =>
      ((jv (m * nu) (k * evalR (abTh n a i)) * sin (m * nu * (abTh n a i - a)) : ℝ) : ℂ)
        / (if M < m then ((jv (m * nu) (k * R) : ℝ) : ℂ) else 1)) := by
  unfold abColumns
  refine mapM_ok fun m hm => ?_
  rw [List.mem_range'_1] at hm
  simp only
  by_cases h : M < m
  · rw [if_pos (by omega), if_neg (hJ m h (by omega)), if_pos h, List.map_map]
    rfl
  · rw [if_neg (by omega), if_neg h]
    simp

/-- **C61** if the data on the outer curve is a combination of the model functions and the sampled functions are linearly
independent, every least-squares minimiser gives exactly the first `M` coefficients. -/
theorem C61_exact (jv : ℝ → ℝ → ℝ) {lstsq : Lstsq} (hls : IsLstsq lstsq) {n : ℕ} {evalR : ℝ → ℝ} {evalBc0 : ℝ → ℂ}
    {k R a nu : ℝ} {M m1 : ℕ} (hM : M ≤ m1) (hJ : ∀ m : ℕ, M < m → m ≤ m1 → jv (m * nu) (k * R) ≠ 0)
    (hrank : ∀ d : ℕ → ℂ, (∀ i < n, ∑ j ∈ Finset.range m1, d j * ((jv ((j + 1 : ℕ) * nu) (k * evalR (abTh n a i))
      * sin ((j + 1 : ℕ) * nu * (abTh n a i - a)) : ℝ) : ℂ) = 0) → ∀ j < m1, d j = 0)
    (c : ℕ → ℂ) (hdata : ∀ i < n, evalBc0 (abTh n a i) = ∑ j ∈ Finset.range m1, c j *
      ((jv ((j + 1 : ℕ) * nu) (k * evalR (abTh n a i)) * sin ((j + 1 : ℕ) * nu * (abTh n a i - a)) : ℝ) : ℂ)) :
    abCalcACoef jv lstsq n evalR evalBc0 k R a nu M m1 = .ok ((List.range M).map c) := by
  unfold abCalcACoef
  simp only
  rw [abColumns_eq jv n evalR k R a nu M m1 hJ, ok_bind]
  set w : ℕ → ℕ → ℂ := fun j i => ((jv ((j + 1 : ℕ) * nu) (k * evalR (abTh n a i))
    * sin ((j + 1 : ℕ) * nu * (abTh n a i - a)) : ℝ) : ℂ) with hw
  set σ : ℕ → ℂ := fun j => if M < j + 1 then ((jv ((j + 1 : ℕ) * nu) (k * R) : ℝ) : ℂ) else 1 with hσ
  have hσ0 : ∀ j < m1, σ j ≠ 0 := by
    intro j hj
    simp only [hσ]
    by_cases h : M < j + 1
    · rw [if_pos h]; exact_mod_cast hJ (j + 1) h (by omega)
    · rw [if_neg h]; exact one_ne_zero
  set A := (List.range' 1 m1).map fun m : ℕ => (List.range n).map fun i =>
      ((jv (m * nu) (k * evalR (abTh n a i)) * sin (m * nu * (abTh n a i - a)) : ℝ) : ℂ)
        / (if M < m then ((jv (m * nu) (k * R) : ℝ) : ℂ) else 1) with hA
  set b := (List.range n).map fun i => evalBc0 (abTh n a i) with hb
  have hbl : b.length = n := by simp [hb]
  have hAl : A.length = m1 := by simp [hA]
  have hAe : ∀ j < m1, ∀ i < n, (A.getD j []).getD i 0 = w j i / σ j := by
    intro j hj i hi
    simp only [hA, List.getD_eq_getElem?_getD, List.getElem?_map, List.getElem?_range', List.getElem?_range hi, hj,
      Option.map_some, Option.getD_some, one_mul, Nat.add_comm 1 j, hw, hσ]
  have hbe : ∀ i < n, b.getD i 0 = ∑ j ∈ Finset.range m1, c j * w j i := by
    intro i hi
    simp only [hb, List.getD_eq_getElem?_getD, List.getElem?_map, List.getElem?_range hi, Option.map_some, Option.getD_some]
    exact hdata i hi
  have hres : ∀ x : List ℂ, sysResidual b.length A b x
      = ∑ i ∈ Finset.range n, ‖(∑ j ∈ Finset.range m1, (x.getD j 0 / σ j - c j) * w j i)‖ ^ 2 := by
    intro x
    unfold sysResidual
    rw [hbl, hAl]
    refine Finset.sum_congr rfl fun i hi => ?_
    rw [Finset.mem_range] at hi
    congr 2
    rw [hbe i hi, ← Finset.sum_sub_distrib]
    refine Finset.sum_congr rfl fun j hj => ?_
    rw [Finset.mem_range] at hj
    rw [hAe j hj i hi]
    ring
  obtain ⟨hlen, hmin⟩ := hls A b (by
    intro col hcol
    simp only [hA, List.mem_map] at hcol
    obtain ⟨m, -, rfl⟩ := hcol
    simp [hbl])
  have h0 := hmin ((List.range m1).map fun j => c j * σ j) (by simp [hAl])
  rw [hres ((List.range m1).map fun j => c j * σ j)] at h0
  have hz : ∑ i ∈ Finset.range n, ‖(∑ j ∈ Finset.range m1, (((List.range m1).map fun j => c j * σ j).getD j 0 / σ j - c j) * w j i)‖ ^ 2 = 0 := by
    refine Finset.sum_eq_zero fun i _ => ?_
    rw [Finset.sum_eq_zero]
    · simp
    · intro j hj
      rw [Finset.mem_range] at hj
      simp [List.getD_eq_getElem?_getD, hj, hσ0 j hj]
  rw [hz, hres] at h0
  have hterms : ∀ i < n, ∑ j ∈ Finset.range m1, ((lstsq A b).getD j 0 / σ j - c j) * w j i = 0 := by
    intro i hi
    have := (Finset.sum_eq_zero_iff_of_nonneg (fun i _ => sq_nonneg _)).1 (le_antisymm h0 (Finset.sum_nonneg fun i _ => sq_nonneg _)) i
      (Finset.mem_range.2 hi)
    simpa using this
  have hc := hrank (fun j => (lstsq A b).getD j 0 / σ j - c j) hterms
  simp only [pure_eq_ok]
  congr 1
  refine List.ext_getElem (by simp [hlen, hAl, hM]) fun j h1 h2 => ?_
  simp only [List.length_map, List.length_range] at h2
  have := hc j (by omega)
  simp only [hσ] at this
  rw [if_neg (by omega), div_one, sub_eq_zero, List.getD_eq_getElem?_getD, List.getElem?_eq_getElem (by rw [hlen, hAl]; omega)] at this
  simpa using this

/-- **C61** the scaling of a higher column by a vanishing Bessel factor produces nan. -/
theorem C61_nan (jv : ℝ → ℝ → ℝ) (lstsq : Lstsq) (n : ℕ) (evalR : ℝ → ℝ) (evalBc0 : ℝ → ℂ) (k R a nu : ℝ) {M m1 m : ℕ}
    (h1 : M < m) (h2 : m ≤ m1) (h3 : jv (m * nu) (k * R) = 0) :
    abCalcACoef jv lstsq n evalR evalBc0 k R a nu M m1 = .error .nanValue := by
  unfold abCalcACoef abColumns
  simp only
  rw [mapM_error (e := .nanValue) (fun j _ => ?_) ⟨m, by rw [List.mem_range'_1]; omega, ?_⟩]
  · rfl
  · rw [if_pos (by omega), if_pos h3]; rfl
  · by_cases h4 : M + 1 ≤ j
    · by_cases h5 : jv (j * nu) (k * R) = 0
      · rw [if_pos h4, if_pos h5]; exact Or.inl rfl
      · rw [if_pos h4, if_neg h5]; exact Or.inr ⟨_, rfl⟩
    · rw [if_neg h4]; exact Or.inr ⟨_, rfl⟩

/-- C61: two nodes `2π/3` and `4π/3`, two model functions (the second one rescaled), data `3 sin(θ/2) + 5 sin θ` -/
example {lstsq : Lstsq} (hls : IsLstsq lstsq) :
    abCalcACoef (fun m _ => m) lstsq 2 (fun _ => 1) (fun th => ((3 * sin (th / 2) + 5 * sin th : ℝ) : ℂ)) 1 1 0 (1 / 2) 1 2
      = .ok [6] := by
  have t0 : abTh 2 0 0 = 2 * (π / 3) := by
    unfold abTh; rw [linspace_getD _ _ _ _ (by norm_num)]; norm_num; ring
  have t1 : abTh 2 0 1 = 2 * (π - π / 3) := by
    unfold abTh; rw [linspace_getD _ _ _ _ (by norm_num)]; norm_num; ring
  have s0 : sin (2 * (π / 3)) = √3 / 2 := by rw [sin_two_mul, sin_pi_div_three, cos_pi_div_three]; ring
  have s1 : sin (2 * (π - π / 3)) = -(√3 / 2) := by
    rw [sin_two_mul, sin_pi_sub, cos_pi_sub, sin_pi_div_three, cos_pi_div_three]; ring
  have h3 : ((√3 : ℝ) : ℂ) ≠ 0 := by
    exact_mod_cast (Real.sqrt_pos.2 (by norm_num : (0 : ℝ) < 3)).ne'
  refine C61_exact _ hls (by norm_num) ?_ ?_ (fun j => if j = 0 then 6 else 5) ?_
  · intro m _ _
    have : (0 : ℝ) < m := by exact_mod_cast (by omega : 0 < m)
    positivity
  · intro d hd j hj
    have e0 := hd 0 (by norm_num)
    have e1 := hd 1 (by norm_num)
    rw [Finset.sum_range_succ, Finset.sum_range_one, t0] at e0
    rw [Finset.sum_range_succ, Finset.sum_range_one, t1] at e1
    have a0 : ((0 + 1 : ℕ) : ℝ) * (1 / 2) * (2 * (π / 3) - 0) = π / 3 := by push_cast; ring
    have a1 : ((1 + 1 : ℕ) : ℝ) * (1 / 2) * (2 * (π / 3) - 0) = 2 * (π / 3) := by push_cast; ring
    have b0 : ((0 + 1 : ℕ) : ℝ) * (1 / 2) * (2 * (π - π / 3) - 0) = π - π / 3 := by push_cast; ring
    have b1 : ((1 + 1 : ℕ) : ℝ) * (1 / 2) * (2 * (π - π / 3) - 0) = 2 * (π - π / 3) := by push_cast; ring
    rw [a0, a1, s0, sin_pi_div_three] at e0
    rw [b0, b1, s1, sin_pi_sub, sin_pi_div_three] at e1
    push_cast at e0 e1
    have d0 : ((√3 : ℝ) : ℂ) * d 0 = 0 := by linear_combination 2 * e0 + 2 * e1
    have d1 : ((√3 : ℝ) : ℂ) * d 1 = 0 := by linear_combination e0 - e1
    interval_cases j
    · exact (mul_eq_zero.1 d0).resolve_left h3
    · exact (mul_eq_zero.1 d1).resolve_left h3
  · intro i _
    rw [Finset.sum_range_succ, Finset.sum_range_one]
    simp only [if_true]
    rw [if_neg one_ne_zero]
    push_cast
    ring_nf

end Pot
