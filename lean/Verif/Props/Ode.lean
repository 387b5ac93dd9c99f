import Verif.Model.Ode
import Verif.Proofs.MapM
import Verif.Spec.Ode
import Verif.Proofs.TwiceAt
import Verif.Proofs.Multivalue
import Verif.Props.Fourier
import Mathlib.Analysis.ODE.ExistUnique
import Mathlib.Data.List.GetD

/-!
# C54: the ODE method for the Fourier modes
-/

namespace Pot
open Spec Real

theorem pairs_flatten (x y : ℕ → ℝ) : ∀ M : ℕ, (((List.range M).map fun j => [x j, y j]).flatten).length = 2 * M ∧
    ∀ j < M, (((List.range M).map fun j => [x j, y j]).flatten).getD (2 * j) 0 = x j ∧
      (((List.range M).map fun j => [x j, y j]).flatten).getD (2 * j + 1) 0 = y j
  | 0 => by simp
  | M + 1 => by
    obtain ⟨h1, h2⟩ := pairs_flatten x y M
    rw [List.range_succ, List.map_append, List.flatten_append]
    refine ⟨by rw [List.length_append, h1]; simp; omega, fun j hj => ?_⟩
    rcases Nat.lt_succ_iff_lt_or_eq.1 hj with h | h
    · rw [List.getD_append _ _ _ _ (by rw [h1]; omega), List.getD_append _ _ _ _ (by rw [h1]; omega)]
      exact h2 j h
    · subst h
      rw [List.getD_append_right _ _ _ _ (by rw [h1]), List.getD_append_right _ _ _ _ (by rw [h1]; omega), h1]
      simp

theorem evens_length : ∀ l : List ℝ, (evens l).length = (l.length + 1) / 2
  | [] => rfl
  | [_] => by simp [evens]
  | _ :: _ :: l => by rw [evens, List.length_cons, evens_length l]; simp only [List.length_cons]; omega

theorem evens_getD : ∀ (l : List ℝ) (j : ℕ), (evens l).getD j 0 = l.getD (2 * j) 0
  | [], j => by simp [evens]
  | [x], 0 => rfl
  | [x], j + 1 => by simp [evens, show 2 * (j + 1) = 2 * j + 1 + 1 by ring]
  | x :: y :: l, 0 => rfl
  | x :: y :: l, j + 1 => by
    rw [evens, List.getD_cons_succ, evens_getD l j, show 2 * (j + 1) = 2 * j + 1 + 1 by ring, List.getD_cons_succ,
      List.getD_cons_succ]

/-- the coefficient of the mode `j + 1` in the sine transform of a real function -/
noncomputable def sineCoef (a : ℝ) (func : ℝ → ℝ) (N j : ℕ) : ℝ := (arcDstR a func N).getD j 0

theorem arcDstR_length (a : ℝ) (func : ℝ → ℝ) (N : ℕ) : (arcDstR a func N).length = N := by simp [arcDstR]

theorem listGet_take (l : List ℝ) (M j : ℕ) (hj : j < M) (hl : M ≤ l.length) : listGet (l.take M) j = .ok (l.getD j 0) := by
  rw [listGet_of_lt _ _ (by rw [List.length_take]; omega)]
  rw [List.getElem_take, List.getD_eq_getElem?_getD, List.getElem?_eq_getElem (by omega)]
  rfl

theorem listGet_getD (l : List ℝ) (j : ℕ) (hj : j < l.length) : listGet l j = .ok (l.getD j 0) := by
  rw [listGet_of_lt _ _ hj, List.getD_eq_getElem?_getD, List.getElem?_eq_getElem hj]
  rfl

/-- **C54** the right-hand side: for every mode the pair (value, slope) is sent to (slope, second derivative from the modal
Helmholtz equation). -/
theorem C54_rhs {N M : ℕ} (hM : M ≤ N) (f1 : ℝ → ℝ → ℝ) (a nu k : ℝ) {Y : List ℝ} (hY : Y.length = 2 * M) {r : ℝ} (hr : r ≠ 0) :
    ∃ D, odeDeriv N f1 a nu k M Y r = .ok D ∧ D.length = 2 * M ∧ ∀ j < M,
      D.getD (2 * j) 0 = Y.getD (2 * j + 1) 0 ∧
      D.getD (2 * j + 1) 0 = -Y.getD (2 * j + 1) 0 / r - (k ^ 2 - (((j + 1 : ℕ) : ℝ) * nu / r) ^ 2) * Y.getD (2 * j) 0
        + sineCoef a (f1 r) N j := by
  obtain ⟨h1, h2⟩ := pairs_flatten (fun j => Y.getD (2 * j + 1) 0) (fun j => -Y.getD (2 * j + 1) 0 / r
    - (k ^ 2 - (((j + 1 : ℕ) : ℝ) * nu / r) ^ 2) * Y.getD (2 * j) 0 + sineCoef a (f1 r) N j) M
  refine ⟨_, ?_, h1, h2⟩
  unfold odeDeriv
  rw [if_neg hr]
  simp only
  rw [mapM_ok (g := fun j => [Y.getD (2 * j + 1) 0, -Y.getD (2 * j + 1) 0 / r
    - (k ^ 2 - (((j + 1 : ℕ) : ℝ) * nu / r) ^ 2) * Y.getD (2 * j) 0 + sineCoef a (f1 r) N j])]
  · rfl
  · intro j hj
    rw [List.mem_range] at hj
    rw [listGet_getD _ _ (by omega), ok_bind, listGet_getD _ _ (by omega), ok_bind, Nat.add_sub_cancel,
      listGet_take _ _ _ hj (by rw [arcDstR_length]; exact hM), ok_bind]
    rfl

/-- **C54** at the tip the assertion fails. -/
theorem C54_assert (N M : ℕ) (f1 : ℝ → ℝ → ℝ) (a nu k : ℝ) (Y : List ℝ) :
    odeDeriv N f1 a nu k M Y 0 = .error .assertionError := by
  unfold odeDeriv; rw [if_pos rfl]; rfl

theorem odeIc_eq {N M : ℕ} (hM : M ≤ N) (i d : ℝ → ℝ → ℝ) (a R0 : ℝ) :
    ∃ ic, odeIc N i d a R0 M = .ok ic ∧ ic.length = 2 * M ∧ ∀ j < M,
      ic.getD (2 * j) 0 = sineCoef a (i R0) N j ∧ ic.getD (2 * j + 1) 0 = sineCoef a (d R0) N j := by
  obtain ⟨h1, h2⟩ := pairs_flatten (fun j => sineCoef a (i R0) N j) (fun j => sineCoef a (d R0) N j) M
  refine ⟨_, ?_, h1, h2⟩
  unfold odeIc
  simp only
  rw [mapM_ok (g := fun j => [sineCoef a (i R0) N j, sineCoef a (d R0) N j])]
  · rfl
  · intro j hj
    rw [List.mem_range] at hj
    rw [listGet_take _ _ _ hj (by rw [arcDstR_length]; exact hM), ok_bind,
      listGet_take _ _ _ hj (by rw [arcDstR_length]; exact hM), ok_bind]
    rfl

/-- derivatives of the components along a solution of the system -/
theorem solvesOde_modes {N M : ℕ} (hM : M ≤ N) {f1 : ℝ → ℝ → ℝ} {a nu k R0 R : ℝ} (h0 : 0 < R0) {ic : List ℝ} {Y : ℝ → List ℝ}
    (h : SolvesOde (odeDeriv N f1 a nu k M) (2 * M) ic R0 R Y) {j : ℕ} (hj : j < M) {r : ℝ} (hr : r ∈ Set.Icc R0 R) :
    HasDerivWithinAt (fun ρ => (Y ρ).getD (2 * j) 0) ((Y r).getD (2 * j + 1) 0) (Set.Icc R0 R) r ∧
    HasDerivWithinAt (fun ρ => (Y ρ).getD (2 * j + 1) 0) (-(Y r).getD (2 * j + 1) 0 / r
      - (k ^ 2 - (((j + 1 : ℕ) : ℝ) * nu / r) ^ 2) * (Y r).getD (2 * j) 0 + sineCoef a (f1 r) N j) (Set.Icc R0 R) r := by
  obtain ⟨hlen, D, hD, hder⟩ := h.2 r hr
  obtain ⟨D', hD', -, hv⟩ := C54_rhs hM f1 a nu k hlen (show r ≠ 0 by have := hr.1; intro h; linarith)
  rw [hD] at hD'
  cases hD'
  rw [← (hv j hj).2]
  refine ⟨?_, hder _ (by omega)⟩
  rw [← (hv j hj).1]
  exact hder _ (by omega)

/-- **C54** the ODE method computes Fourier modes of a solution of the Helmholtz equation: if `odeint` returns the state at
`R` of a solution `Y` of the system it was given, then the result is the list of the values at `R` of `M` functions `Z j`, whose
values and slopes at `R0` are the sine coefficients of the initial functions, such that for every `r` between `R0` and `R`
the function `Z j r * sin((j+1) nu (th - a))` satisfies the Helmholtz equation with the corresponding mode of `f1` as
source and vanishes on both sides of the wedge; hence so does their sum. -/
theorem C54_modes {N M : ℕ} (hM : M ≤ N) (odeint : Odeint) (init dInit f1 : ℝ → ℝ → ℝ) {a nu k R0 R : ℝ} (h0 : 0 < R0)
    (hR : R0 < R) (ha : a ≠ 2 * π) (hnu : nu = π / (2 * π - a))
    (hode : ∀ ic, odeIc N init dInit a R0 M = .ok ic → ∃ Y, SolvesOde (odeDeriv N f1 a nu k M) (2 * M) ic R0 R Y ∧
      odeint (odeDeriv N f1 a nu k M) ic R0 R = .ok (Y R)) :
    ∃ L, odeCalc odeint N init dInit f1 a nu k R0 R M = .ok L ∧ L.length = M ∧ ∃ Z : ℕ → ℝ → ℝ,
      (∀ j < M, L.getD j 0 = Z j R ∧ Z j R0 = sineCoef a (init R0) N j ∧
        HasDerivWithinAt (Z j) (sineCoef a (dInit R0) N j) (Set.Icc R0 R) R0 ∧
        (∀ r, Z j r * sin (((j + 1 : ℕ) : ℝ) * nu * (a - a)) = 0 ∧ Z j r * sin (((j + 1 : ℕ) : ℝ) * nu * (2 * π - a)) = 0) ∧
        ∀ r ∈ Set.Ioo R0 R, ∀ th, HelmholtzAt k (fun r th => Z j r * sin (((j + 1 : ℕ) : ℝ) * nu * (th - a)))
          (sineCoef a (f1 r) N j * sin (((j + 1 : ℕ) : ℝ) * nu * (th - a))) r th) ∧
      ∀ r ∈ Set.Ioo R0 R, ∀ th,
        HelmholtzAt k (fun r th => ∑ j ∈ Finset.range M, Z j r * sin (((j + 1 : ℕ) : ℝ) * nu * (th - a)))
          (∑ j ∈ Finset.range M, sineCoef a (f1 r) N j * sin (((j + 1 : ℕ) : ℝ) * nu * (th - a))) r th := by
  obtain ⟨ic, hic, hicl, hicv⟩ := odeIc_eq hM init dInit a R0
  obtain ⟨Y, hY, hret⟩ := hode ic hic
  have hRm : R ∈ Set.Icc R0 R := ⟨hR.le, le_rfl⟩
  have hR0m : R0 ∈ Set.Icc R0 R := ⟨le_rfl, hR.le⟩
  have hL : 2 * π - a ≠ 0 := fun h => ha (by linarith)
  have hmode : ∀ j < M, ∀ r ∈ Set.Ioo R0 R, ∀ th, HelmholtzAt k
      (fun r th => (Y r).getD (2 * j) 0 * sin (((j + 1 : ℕ) : ℝ) * nu * (th - a)))
      (sineCoef a (f1 r) N j * sin (((j + 1 : ℕ) : ℝ) * nu * (th - a))) r th := by
    intro j hj r hr th
    have hn : Set.Icc R0 R ∈ nhds r := Icc_mem_nhds hr.1 hr.2
    have ht : TwiceAt (fun ρ => (Y ρ).getD (2 * j) 0) r _ _ := ⟨fun ρ => (Y ρ).getD (2 * j + 1) 0, by
      filter_upwards [Ioo_mem_nhds hr.1 hr.2] with y hy
      exact (solvesOde_modes hM h0 hY hj ⟨hy.1.le, hy.2.le⟩).1.hasDerivAt (Icc_mem_nhds hy.1 hy.2), rfl,
      (solvesOde_modes hM h0 hY hj ⟨hr.1.le, hr.2.le⟩).2.hasDerivAt hn⟩
    convert HelmholtzAt.mode k (((j + 1 : ℕ) : ℝ) * nu) a ht th using 1
    ring
  refine ⟨evens (Y R), ?_, ?_, fun j r => (Y r).getD (2 * j) 0, ?_, ?_⟩
  · unfold odeCalc
    rw [hic, ok_bind, hret, ok_bind]
    rfl
  · rw [evens_length, (hY.2 R hRm).1]; omega
  · intro j hj
    refine ⟨evens_getD _ _, ?_, ?_, ?_, hmode j hj⟩
    · change (Y R0).getD (2 * j) 0 = _
      rw [hY.1]; exact (hicv j hj).1
    · have := (solvesOde_modes hM h0 hY hj hR0m).1
      rw [hY.1, (hicv j hj).2] at this
      exact this
    · intro r
      refine ⟨by simp, ?_⟩
      rw [hnu, show ((j + 1 : ℕ) : ℝ) * (π / (2 * π - a)) * (2 * π - a) = ((j + 1 : ℕ) : ℝ) * π by
        rw [mul_assoc, div_mul_cancel₀ _ hL], sin_nat_mul_pi,
        mul_zero]
  · intro r hr th
    exact HelmholtzAt.sum _ fun j hj => hmode j (Finset.mem_range.1 hj) r hr th

/-- `arc_dst` of a finite sine series with real coefficients -/
theorem sineCoef_series {a nu : ℝ} (ha : a ≠ 2 * π) (hnu : nu = π / (2 * π - a)) (N : ℕ) (b : ℕ → ℝ) {f : ℝ → ℝ}
    (hf : ∀ th, f th = ∑ j ∈ Finset.range N, b j * sin (((j + 1 : ℕ) : ℝ) * nu * (th - a))) {j : ℕ} (hj : j < N) :
    sineCoef a f N j = b j := by
  have h := C18_arc_dst a nu ha hnu N (fun i => (b i : ℂ)) ⟨j, hj⟩
  have e : (fun th => (f th : ℂ)) = fun th => ∑ m : Fin N, (b m : ℂ) * ((sin (((m : ℝ) + 1) * nu * (th - a)) : ℝ) : ℂ) := by
    funext th
    rw [hf, Finset.sum_range]
    push_cast
    rfl
  unfold sineCoef arcDstR
  rw [List.getD_eq_getElem?_getD, List.getElem?_eq_getElem (by simp [hj])]
  simp only [List.getElem_ofFn, Option.getD_some]
  rw [e, h]
  simp

/-- uniqueness for one mode -/
theorem mode_unique {R0 R : ℝ} (h0 : 0 < R0) {q : ℝ → ℝ} {C : ℝ} (hC : ∀ r ∈ Set.Icc R0 R, |q r| ≤ C) (F : ℝ → ℝ)
    {x y x' y' : ℝ → ℝ}
    (hx : ∀ r ∈ Set.Icc R0 R, HasDerivWithinAt x (y r) (Set.Icc R0 R) r)
    (hy : ∀ r ∈ Set.Icc R0 R, HasDerivWithinAt y (-y r / r - q r * x r + F r) (Set.Icc R0 R) r)
    (hx' : ∀ r ∈ Set.Icc R0 R, HasDerivWithinAt x' (y' r) (Set.Icc R0 R) r)
    (hy' : ∀ r ∈ Set.Icc R0 R, HasDerivWithinAt y' (-y' r / r - q r * x' r + F r) (Set.Icc R0 R) r)
    (e1 : x R0 = x' R0) (e2 : y R0 = y' R0) : ∀ r ∈ Set.Icc R0 R, x r = x' r := by
  by_cases hRR : R < R0
  · intro r hr; exact absurd (hr.1.trans hr.2) (not_le.2 hRR)
  have hC0 : 0 ≤ C := (abs_nonneg _).trans (hC R0 ⟨le_rfl, not_lt.1 hRR⟩)
  let v : ℝ → ℝ × ℝ → ℝ × ℝ := fun t p => (p.2, -p.2 / t - q t * p.1 + F t)
  have hlip : ∀ t ∈ Set.Ico R0 R, LipschitzOnWith (Real.toNNReal (1 + 1 / R0 + C)) (v t) Set.univ := by
    intro t ht
    refine LipschitzOnWith.of_dist_le_mul fun p _ p' _ => ?_
    rw [Real.coe_toNNReal _ (by positivity)]
    have htp : 0 < t := lt_of_lt_of_le h0 ht.1
    have d1 : dist p.1 p'.1 ≤ dist p p' := le_max_left _ _
    have d2 : dist p.2 p'.2 ≤ dist p p' := le_max_right _ _
    have hd : 0 ≤ dist p p' := dist_nonneg
    refine max_le ?_ ?_
    · have : (1 : ℝ) ≤ 1 + 1 / R0 + C := by have : 0 < 1 / R0 := by positivity
                                            linarith
      calc dist p.2 p'.2 ≤ 1 * dist p p' := by linarith
        _ ≤ _ := by gcongr
    · rw [Real.dist_eq] at d1 d2 ⊢
      have e : (-p.2 / t - q t * p.1 + F t) - (-p'.2 / t - q t * p'.1 + F t) = -((p.2 - p'.2) / t) - q t * (p.1 - p'.1) := by ring
      calc |(v t p).2 - (v t p').2| = |-((p.2 - p'.2) / t) - q t * (p.1 - p'.1)| := by rw [← e]
        _ ≤ |-((p.2 - p'.2) / t)| + |q t * (p.1 - p'.1)| := abs_sub _ _
        _ = |p.2 - p'.2| / t + |q t| * |p.1 - p'.1| := by rw [abs_neg, abs_div, abs_mul, abs_of_pos htp]
        _ ≤ dist p p' / R0 + C * dist p p' := by
            gcongr
            · exact ht.1
            · exact hC t ⟨ht.1, ht.2.le⟩
        _ ≤ (1 + 1 / R0 + C) * dist p p' := by
            rw [add_mul, add_mul, one_mul, one_div_mul_eq_div]
            linarith
  have hw : ∀ t ∈ Set.Ico R0 R, Set.Icc R0 R ∈ nhdsWithin t (Set.Ici t) := by
    intro t ht
    exact Filter.mem_of_superset (Icc_mem_nhdsGE ht.2) (Set.Icc_subset_Icc_left ht.1)
  have key := ODE_solution_unique_of_mem_Icc_right (f := fun r => (x r, y r)) (g := fun r => (x' r, y' r)) (v := v)
    (s := fun _ => Set.univ) hlip
    (fun r hr => ((hx r hr).prodMk (hy r hr)).continuousWithinAt)
    (fun t ht => (((hx t ⟨ht.1, ht.2.le⟩).prodMk (hy t ⟨ht.1, ht.2.le⟩))).mono_of_mem_nhdsWithin (hw t ht))
    (fun _ _ => trivial)
    (fun r hr => ((hx' r hr).prodMk (hy' r hr)).continuousWithinAt)
    (fun t ht => (((hx' t ⟨ht.1, ht.2.le⟩).prodMk (hy' t ⟨ht.1, ht.2.le⟩))).mono_of_mem_nhdsWithin (hw t ht))
    (fun _ _ => trivial) (by simp [e1, e2])
  intro r hr
  exact congrArg Prod.fst (key hr)

/-- **C54** the ODE method is exact on finite sine series: let `z1` be a sine series of at most `N` modes with coefficients `c j r`
that solves the Helmholtz equation with source `f1` for all `r` from `R0` to `R`, and let the initial functions be the values and
radial derivatives of `z1` on the circle `R0`.  Then the result is the list of the first `M` coefficients of `z1` on the circle `R`. -/
theorem C54_exact {N M : ℕ} (hM : M ≤ N) (odeint : Odeint) (init dInit f1 : ℝ → ℝ → ℝ) {a nu k R0 R : ℝ} (h0 : 0 < R0)
    (hR : R0 < R) (ha : a ≠ 2 * π) (hnu : nu = π / (2 * π - a))
    (hode : ∀ ic, odeIc N init dInit a R0 M = .ok ic → ∃ Y, SolvesOde (odeDeriv N f1 a nu k M) (2 * M) ic R0 R Y ∧
      odeint (odeDeriv N f1 a nu k M) ic R0 R = .ok (Y R))
    (c c1 c2 : ℕ → ℝ → ℝ) (hc : ∀ j < N, ∀ r ∈ Set.Icc R0 R, TwiceAt (c j) r (c1 j r) (c2 j r))
    (z1 : ℝ → ℝ → ℝ) (hz : ∀ r th, z1 r th = ∑ j ∈ Finset.range N, c j r * sin (((j + 1 : ℕ) : ℝ) * nu * (th - a)))
    (hH : ∀ r ∈ Set.Icc R0 R, ∀ th, HelmholtzAt k z1 (f1 r th) r th)
    (hi : ∀ th, init R0 th = z1 R0 th) (hdi : ∀ th, HasDerivAt (fun r => z1 r th) (dInit R0 th) R0) :
    ∃ L, odeCalc odeint N init dInit f1 a nu k R0 R M = .ok L ∧ L.length = M ∧ ∀ j < M, L.getD j 0 = c j R := by
  obtain ⟨ic, hic, hicl, hicv⟩ := odeIc_eq hM init dInit a R0
  obtain ⟨Y, hY, hret⟩ := hode ic hic
  have hRm : R ∈ Set.Icc R0 R := ⟨hR.le, le_rfl⟩
  have hR0m : R0 ∈ Set.Icc R0 R := ⟨le_rfl, hR.le⟩
  have hz' : z1 = fun r th => ∑ j ∈ Finset.range N, c j r * sin (((j + 1 : ℕ) : ℝ) * nu * (th - a)) :=
    funext fun r => funext fun th => hz r th
  -- the sine coefficients of the source and of the initial functions
  have hf : ∀ r ∈ Set.Icc R0 R, ∀ j < N, sineCoef a (f1 r) N j
      = c2 j r + c1 j r / r + (k ^ 2 - (((j + 1 : ℕ) : ℝ) * nu / r) ^ 2) * c j r := by
    intro r hr j hj
    refine sineCoef_series ha hnu N (fun j => c2 j r + c1 j r / r + (k ^ 2 - (((j + 1 : ℕ) : ℝ) * nu / r) ^ 2) * c j r) ?_ hj
    intro th
    rw [← HelmholtzAt.helmOp_eq (hH r hr th), hz']
    exact HelmholtzAt.helmOp_eq (HelmholtzAt.sum _ fun j hj => HelmholtzAt.mode k (((j + 1 : ℕ) : ℝ) * nu) a
      (hc j (Finset.mem_range.1 hj) r hr) th)
  have hi' : ∀ j < N, sineCoef a (init R0) N j = c j R0 := fun j hj =>
    sineCoef_series ha hnu N (fun j => c j R0) (fun th => by rw [hi, hz]) hj
  have hd : ∀ j < N, ∀ r ∈ Set.Icc R0 R, HasDerivAt (c j) (c1 j r) r := by
    intro j hj r hr
    obtain ⟨d, a1, a2, -⟩ := hc j hj r hr
    rw [← a2]; exact a1.self_of_nhds
  have hdi' : ∀ j < N, sineCoef a (dInit R0) N j = c1 j R0 := by
    intro j hj
    refine sineCoef_series ha hnu N (fun j => c1 j R0) (fun th => ?_) hj
    refine (hdi th).unique ?_
    rw [hz']
    exact HasDerivAt.fun_sum fun j hj => (hd j (Finset.mem_range.1 hj) R0 hR0m).mul_const _
  have hd2 : ∀ j < N, ∀ r ∈ Set.Icc R0 R, HasDerivWithinAt (c1 j) (c2 j r) (Set.Icc R0 R) r := by
    intro j hj r hr
    obtain ⟨d, a1, a2, a3⟩ := hc j hj r hr
    have e : ∀ s ∈ Set.Icc R0 R, ∀ d : ℝ → ℝ, HasDerivAt (c j) (d s) s → c1 j s = d s := fun s hs d hds =>
      (hd j hj s hs).unique hds
    refine (a3.hasDerivWithinAt (s := Set.Icc R0 R)).congr_of_eventuallyEq ?_ (e r hr d a1.self_of_nhds)
    filter_upwards [nhdsWithin_le_nhds a1, self_mem_nhdsWithin] with s hs hs'
    exact e s hs' d hs
  refine ⟨evens (Y R), ?_, ?_, ?_⟩
  · unfold odeCalc
    rw [hic, ok_bind, hret, ok_bind]
    rfl
  · rw [evens_length, (hY.2 R hRm).1]; omega
  · intro j hj
    have hjN : j < N := by omega
    rw [evens_getD]
    refine mode_unique h0 (q := fun r => k ^ 2 - (((j + 1 : ℕ) : ℝ) * nu / r) ^ 2)
      (C := k ^ 2 + (((j + 1 : ℕ) : ℝ) * nu / R0) ^ 2) ?_ (fun r => sineCoef a (f1 r) N j)
      (x := fun r => (Y r).getD (2 * j) 0) (y := fun r => (Y r).getD (2 * j + 1) 0) (x' := c j) (y' := c1 j)
      (fun r hr => (solvesOde_modes hM h0 hY hj hr).1) (fun r hr => (solvesOde_modes hM h0 hY hj hr).2)
      (fun r hr => (hd j hjN r hr).hasDerivWithinAt) ?_ ?_ ?_ R hRm
    · intro r hr
      have hr0 : 0 < r := lt_of_lt_of_le h0 hr.1
      have : (((j + 1 : ℕ) : ℝ) * nu / r) ^ 2 ≤ (((j + 1 : ℕ) : ℝ) * nu / R0) ^ 2 := by
        rw [div_pow, div_pow]
        have := hr.1
        gcongr
      refine (abs_sub _ _).trans ?_
      rw [abs_of_nonneg (sq_nonneg k), abs_of_nonneg (sq_nonneg _)]
      linarith
    · intro r hr
      refine (hd2 j hjN r hr).congr_deriv ?_
      rw [hf r hr j hjN]
      ring
    · simp only [hY.1]
      rw [(hicv j hj).1, hi' j hjN]
    · simp only [hY.1]
      rw [(hicv j hj).2, hdi' j hjN]

/-- C54: one mode, `z1 = r² sin(nu (th - a))`, `k = 1`, from radius 1 to radius 2, with an integrator that is exact for it -/
example : ∃ L, odeCalc (fun _ _ _ R => .ok [R ^ 2, 2 * R]) 1 (fun r th => r ^ 2 * sin (4 / 7 * (th - π / 4)))
      (fun r th => 2 * r * sin (4 / 7 * (th - π / 4)))
      (fun r th => (2 + 2 * r / r + (1 ^ 2 - (4 / 7 / r) ^ 2) * r ^ 2) * sin (4 / 7 * (th - π / 4))) (π / 4) (4 / 7) 1 1 2 1
      = .ok L ∧ L.length = 1 ∧ ∀ j < 1, L.getD j 0 = (2 : ℝ) ^ 2 := by
  have hpi := pi_pos
  have ha : (π / 4 : ℝ) ≠ 2 * π := by intro h; linarith
  have hnu : (4 / 7 : ℝ) = π / (2 * π - π / 4) := by field_simp; ring
  have hs : ∀ (b : ℝ) (th : ℝ), b * sin (4 / 7 * (th - π / 4))
      = ∑ j ∈ Finset.range 1, (fun _ => b) j * sin (((j + 1 : ℕ) : ℝ) * (4 / 7) * (th - π / 4)) := by
    intro b th; simp
  have hsq : ∀ r : ℝ, TwiceAt (fun y : ℝ => y ^ 2) r (2 * r) 2 := TwiceAt.sq
  refine C54_exact (k := 1) le_rfl _ _ _ _ one_pos one_lt_two ha hnu ?_ (fun _ r => r ^ 2) (fun _ r => 2 * r) (fun _ _ => 2)
    (fun j _ r _ => hsq r) (fun r th => r ^ 2 * sin (4 / 7 * (th - π / 4))) (fun r th => hs _ th) ?_ (fun th => rfl) ?_
  · intro ic hic
    obtain ⟨ic', hic', hl, hv⟩ := odeIc_eq (N := 1) (M := 1) le_rfl (fun r th => r ^ 2 * sin (4 / 7 * (th - π / 4)))
      (fun r th => 2 * r * sin (4 / 7 * (th - π / 4))) (π / 4) 1
    rw [hic] at hic'
    cases hic'
    refine ⟨fun r => [r ^ 2, 2 * r], ⟨?_, ?_⟩, rfl⟩
    · obtain ⟨v1, v2⟩ := hv 0 one_pos
      rw [sineCoef_series ha hnu 1 _ (fun th => hs _ th) one_pos] at v1 v2
      rcases ic with _ | ⟨x, _ | ⟨y, _ | ⟨w, ic⟩⟩⟩
      · simp at hl
      · simp at hl
      · simp only [mul_zero, List.getD_cons_zero, zero_add, List.getD_cons_succ] at v1 v2
        rw [v1, v2]
      · simp at hl
    · intro r hr
      have hr0 : r ≠ 0 := by have := hr.1; intro h; linarith
      refine ⟨by simp, ?_⟩
      obtain ⟨D, hD, hDl, hDv⟩ := C54_rhs (N := 1) (M := 1) le_rfl
        (fun r th => (2 + 2 * r / r + (1 ^ 2 - (4 / 7 / r) ^ 2) * r ^ 2) * sin (4 / 7 * (th - π / 4))) (π / 4) (4 / 7) 1
        (Y := [r ^ 2, 2 * r]) (by simp) hr0
      refine ⟨D, hD, ?_⟩
      obtain ⟨w1, w2⟩ := hDv 0 one_pos
      rw [sineCoef_series ha hnu 1 _ (fun th => hs _ th) one_pos] at w2
      simp only [mul_zero, List.getD_cons_zero, zero_add, List.getD_cons_succ] at w1 w2
      intro i hi
      interval_cases i
      · rw [w1]
        simp only [List.getD_cons_zero]
        simpa using (hasDerivAt_pow 2 r).hasDerivWithinAt
      · rw [w2]
        simp only [List.getD_cons_zero, List.getD_cons_succ]
        refine (((hasDerivAt_id' r).const_mul 2).congr_deriv ?_).hasDerivWithinAt
        push_cast
        field_simp
        ring
  · intro r _ th
    exact HelmholtzAt.mode 1 (4 / 7) (π / 4) (hsq r) th
  · intro th
    have := (hasDerivAt_pow 2 (1 : ℝ)).mul_const (sin (4 / 7 * (th - π / 4)))
    simpa using this

end Pot
