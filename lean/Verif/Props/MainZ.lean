import Verif.Model.MainZ
import Verif.Spec.MainZ
import Verif.Props.Main
import Verif.Props.ABCoef
import Verif.Props.Interp
import Verif.Props.Ode
import Verif.Props.ZMethod

/-! # Property C90: the program `runz.py` from its command line to its last line -/

namespace Pot
open Real Spec

/-! ## The parts of `ZMethod.run` -/

/-- **C61** without any assumption on the data: the coefficients returned are the first `M` of coefficients that minimise the
distance between the data and the sums of the first `m1` singular functions. -/
theorem C61_least (jv : ℝ → ℝ → ℝ) {lstsq : Lstsq} (hls : IsLstsq lstsq) {n : ℕ} {evalR : ℝ → ℝ} (φ : ℝ → ℂ)
    {k R a nu : ℝ} {M m1 : ℕ} (hM : M ≤ m1) (hJ : ∀ m : ℕ, M < m → m ≤ m1 → jv (m * nu) (k * R) ≠ 0) :
    ∃ d : ℕ → ℂ, abCalcACoef jv lstsq n evalR φ k R a nu M m1 = .ok ((List.range M).map d) ∧
      ∀ d' : ℕ → ℂ, modeResidual jv n (abTh n a) evalR φ k a nu m1 d ≤ modeResidual jv n (abTh n a) evalR φ k a nu m1 d' := by
  unfold abCalcACoef
  simp only
  rw [abColumns_eq jv n evalR k R a nu M m1 hJ, ok_bind]
  set w : ℕ → ℕ → ℂ := fun j i => ((jv ((j + 1 : ℕ) * nu) (k * evalR (abTh n a i))
    * sin ((j + 1 : ℕ) * nu * (abTh n a i - a)) : ℝ) : ℂ) with hw
  set σ : ℕ → ℂ := fun j => if M < j + 1 then ((jv ((j + 1 : ℕ) * nu) (k * R) : ℝ) : ℂ) else 1 with hσ
  have hσ0 : ∀ j < m1, σ j ≠ 0 := by
    intro j hj
    simp only [hσ]
    by_cases h : M < j + 1
    · rw [if_pos h]; exact_mod_cast hJ (j + 1) h (by omega)
    · rw [if_neg h]; exact one_ne_zero
  set A := (List.range' 1 m1).map fun m : ℕ => (List.range n).map fun i =>
      ((jv (m * nu) (k * evalR (abTh n a i)) * sin (m * nu * (abTh n a i - a)) : ℝ) : ℂ)
        / (if M < m then ((jv (m * nu) (k * R) : ℝ) : ℂ) else 1) with hA
  set b := (List.range n).map fun i => φ (abTh n a i) with hb
  have hbl : b.length = n := by simp [hb]
  have hAl : A.length = m1 := by simp [hA]
  have hAe : ∀ j < m1, ∀ i < n, (A.getD j []).getD i 0 = w j i / σ j := by
    intro j hj i hi
    simp only [hA, List.getD_eq_getElem?_getD, List.getElem?_map, List.getElem?_range', List.getElem?_range hi, hj,
      Option.map_some, Option.getD_some, one_mul, Nat.add_comm 1 j, hw, hσ]
  have hbe : ∀ i < n, b.getD i 0 = φ (abTh n a i) := by
    intro i hi
    simp only [hb, List.getD_eq_getElem?_getD, List.getElem?_map, List.getElem?_range hi, Option.map_some, Option.getD_some]
  have hres : ∀ x : List ℂ, sysResidual b.length A b x
      = modeResidual jv n (abTh n a) evalR φ k a nu m1 fun j => x.getD j 0 / σ j := by
    intro x
    unfold sysResidual modeResidual
    rw [hbl, hAl]
    refine Finset.sum_congr rfl fun i hi => ?_
    rw [Finset.mem_range] at hi
    congr 2
    rw [hbe i hi]
    congr 1
    refine Finset.sum_congr rfl fun j hj => ?_
    rw [Finset.mem_range] at hj
    rw [hAe j hj i hi]
    ring
  obtain ⟨hlen, hmin⟩ := hls A b (by
    intro col hcol
    simp only [hA, List.mem_map] at hcol
    obtain ⟨m, -, rfl⟩ := hcol
    simp [hbl])
  refine ⟨fun j => (lstsq A b).getD j 0 / σ j, ?_, fun d' => ?_⟩
  · simp only [pure_eq_ok]
    congr 1
    refine List.ext_getElem (by simp [hlen, hAl, hM]) fun j h1 h2 => ?_
    simp only [List.length_map, List.length_range] at h2
    simp only [List.getElem_map, List.getElem_take, List.getElem_range, hσ]
    rw [if_neg (by omega), div_one, List.getD_eq_getElem?_getD, List.getElem?_eq_getElem (by rw [hlen, hAl]; omega)]
    rfl
  · have h0 := hmin ((List.range m1).map fun j => d' j * σ j) (by simp [hAl])
    rw [hres, hres] at h0
    refine h0.trans (le_of_eq ?_)
    unfold modeResidual
    refine Finset.sum_congr rfl fun i _ => ?_
    congr 3
    refine Finset.sum_congr rfl fun j hj => ?_
    rw [Finset.mem_range] at hj
    congr 1
    simp [List.getD_eq_getElem?_getD, hj, hσ0 j hj]

/-- **C69** without any assumption on the error: the number reported is the largest modulus of the first `M` sine coefficients of
the error over all inner circles. -/
theorem C69_coefs {p : PolarFD} {evalV : ℝ → ℝ → ℝ} {v : List (List ℂ)} {V : ℕ → ℕ → ℂ} {M N : ℕ} (hM : 1 ≤ M) (hN : M < N)
    {a R0 R1 : ℝ} (hr : ∀ m : ℕ, p.getR m = R0 + m * ((R1 - R0) / N)) (hth : ∀ l : ℕ, p.getTh l = a + l * ((2 * π - a) / N))
    (hlen : v.length = N + 1) (hrow : ∀ row ∈ v, row.length = N + 1)
    (hv : ∀ m l : ℕ, m ≤ N → l ≤ N → rowsGet v m l = .ok (V m l)) :
    ∃ e, getVError p evalV v M N = .ok e ∧ IsGreatest (circleErrs a R0 R1 N M evalV V) e := by
  have hNr : ((N - 1 : ℕ) : ℝ) + 1 = N := by
    have : ((N - 1 + 1 : ℕ) : ℝ) = (N : ℕ) := by congr 1; omega
    exact_mod_cast this
  set c : ℕ → ℕ → ℂ := fun m j =>
    circleCoef N (fun l => (evalV (polarPt a R0 R1 N m l).1 (polarPt a R0 R1 N m l).2 : ℂ) - V m l) j with hc
  have hfour : ∀ m : ℕ, 0 < m → m < N → ∃ e, ((do
      let r := p.getR m
      let row ← listGet v m
      let part := (row.drop 1).take (N - 1)
      if part.length ≠ N - 1 then throw .valueError
      else do
        let toDst : Fin (N - 1) → ℂ := fun i => (evalV r (p.getTh ((i : ℕ) + 1 : ℕ)) : ℂ) - part.getD i 0
        let fourier := ((List.ofFn (dst1 toDst)).take M).map fun x => x / (N : ℂ)
        pyMax (fourier.map fun x => ‖x‖) : Py ℝ)) = .ok e ∧
      (∃ j, j < M ∧ e = ‖c m j‖) ∧ ∀ j, j < M → ‖c m j‖ ≤ e := by
    intro m h1 h2
    have hm : m < v.length := by omega
    have hrl : v[m].length = N + 1 := hrow _ (List.getElem_mem _)
    simp only
    rw [listGet_of_lt _ _ hm, ok_bind, if_neg (by simp [hrl])]
    have hd : (fun i : Fin (N - 1) => (evalV (p.getR m) (p.getTh ((i : ℕ) + 1 : ℕ)) : ℂ) - ((v[m].drop 1).take (N - 1)).getD i 0)
        = fun i : Fin (N - 1) => (evalV (polarPt a R0 R1 N m (i + 1)).1 (polarPt a R0 R1 N m (i + 1)).2 : ℂ) - V m (i + 1) := by
      funext i
      have hi := i.2
      have hvv := hv m (i + 1) (by omega) (by omega)
      unfold rowsGet at hvv
      rw [listGet_of_lt _ _ hm, ok_bind, listGet_of_lt _ _ (by omega)] at hvv
      have hvv' : v[m][(i : ℕ) + 1]'(by omega) = V m (i + 1) := by injection hvv
      rw [List.getD_eq_getElem?_getD, List.getElem?_take, if_pos hi, List.getElem?_drop, Nat.add_comm 1,
        List.getElem?_eq_getElem (by omega), Option.getD_some, hvv', hr, hth]
      rfl
    rw [hd]
    set D : Fin (N - 1) → ℂ := fun i => (evalV (polarPt a R0 R1 N m (i + 1)).1 (polarPt a R0 R1 N m (i + 1)).2 : ℂ) - V m (i + 1) with hD
    set L := ((List.ofFn (dst1 D)).take M).map (fun x => x / (N : ℂ)) |>.map fun x => ‖x‖ with hL
    have hLe : L = (List.range M).map fun j => ‖c m j‖ := by
      refine List.ext_getElem (by simp [hL]; omega) fun j hj1 hj2 => ?_
      simp only [List.length_map, List.length_range] at hj2
      simp only [hL, List.getElem_map, List.getElem_take, List.getElem_ofFn, List.getElem_range]
      congr 1
      simp only [hc, circleCoef, dst1]
      rw [hNr, Fin.sum_univ_eq_sum_range (fun i => ((evalV (polarPt a R0 R1 N m (i + 1)).1 (polarPt a R0 R1 N m (i + 1)).2 : ℂ) - V m (i + 1))
        * ((sin (π * ((j : ℝ) + 1) * ((i : ℝ) + 1) / N) : ℝ) : ℂ)) (N - 1), Finset.sum_Ico_eq_sum_range]
      rw [mul_div_right_comm]
      congr 1
      refine Finset.sum_congr rfl fun i _ => ?_
      rw [Nat.add_comm 1 i]
      push_cast
      rfl
    have hmem : ∀ x, x ∈ L ↔ ∃ j, j < M ∧ ‖c m j‖ = x := by intro x; rw [hLe]; simp
    obtain ⟨x, t, hxt⟩ : ∃ x t, L = x :: t := by
      cases hcc : L with
      | nil => rw [hLe] at hcc; simp at hcc; omega
      | cons x t => exact ⟨x, t, rfl⟩
    obtain ⟨e, he, hem, hmax⟩ := pyMax_ok x t
    rw [← hxt] at he hem hmax
    refine ⟨e, he, ?_, fun j hj1 => hmax _ ((hmem _).2 ⟨j, hj1, rfl⟩)⟩
    obtain ⟨j, hj, hje⟩ := (hmem e).1 hem
    exact ⟨j, hj, hje.symm⟩
  choose! E hE1 hE2 hE3 using hfour
  have hmap : getVError p evalV v M N = pyMax ((List.range' 1 (N - 1)).map E) := by
    unfold getVError
    rw [mapM_ok (g := E), ok_bind]
    intro m hm
    rw [List.mem_range'_1] at hm
    exact hE1 m (by omega) (by omega)
  obtain ⟨x, t, hxt⟩ : ∃ x t, (List.range' 1 (N - 1)).map E = x :: t := by
    cases hcc : (List.range' 1 (N - 1)).map E with
    | nil => simp at hcc; omega
    | cons x t => exact ⟨x, t, rfl⟩
  obtain ⟨e, he, hem, hmax⟩ := pyMax_ok x t
  rw [← hxt] at he hem hmax
  refine ⟨e, hmap.trans he, ?_, ?_⟩
  · obtain ⟨m, hm, rfl⟩ := List.mem_map.1 hem
    rw [List.mem_range'_1] at hm
    obtain ⟨j, h3, h5⟩ := hE2 m (by omega) (by omega)
    exact ⟨m, j, by omega, by omega, h3, h5⟩
  · rintro x ⟨m, j, h1, h2, h3, rfl⟩
    exact (hE3 m h1 h2 j h3).trans (hmax _ (List.mem_map.2 ⟨m, by rw [List.mem_range'_1]; omega, rfl⟩))

/-- `do_z_BVP` with a linear solver of which only the length of the result is known -/
theorem zbvp_any {spsolve : Spsolve} (hsp : ∀ A b, (spsolve A b).length = b.length) (acheat : Bool) {z1 : List ℝ}
    (gq vSeries : ℝ → ℝ → ℝ) (phi1 phi2 : ℝ → ℝ) (k : ℝ) {a : ℝ} (nu : ℝ) {R0 arcR : ℝ} {M N : ℕ} (hN : 1 ≤ N) (ha : a < 2 * π)
    (h0 : 0 < R0) (hR : R0 < arcR) (hz : M ≤ z1.length) :
    ∃ (p : PolarFD) (v : List (List ℂ)) (V : ℕ → ℕ → ℂ),
      doZBvp spsolve acheat z1 gq vSeries phi1 phi2 k a nu R0 arcR M N = .ok (p, v) ∧
      p = ⟨N, a, nu, R0, arcR, (arcR - R0) / N, (2 * π - a) / N⟩ ∧
      v.length = N + 1 ∧ (∀ row ∈ v, row.length = N + 1) ∧
      (∀ m l : ℕ, m ≤ N → l ≤ N → rowsGet v m l = .ok (V m l)) ∧ (acheat = true → ∀ m l, V m l = 0) := by
  have hN' : (0 : ℝ) < N := by exact_mod_cast hN
  set p : PolarFD := { N := N, a := a, nu := nu, R0 := R0, R1 := arcR, hr := (arcR - R0) / N, hth := (2 * π - a) / N } with hp
  have hinit : pfInit N a nu R0 arcR = .ok p := if_neg (by omega)
  have hhr : 0 < (arcR - R0) / N := div_pos (by linarith) hN'
  have hhth : 0 < (2 * π - a) / N := div_pos (by linarith) hN'
  have hidx : ∀ m l : ℕ, m ≤ N → l ≤ N → (p.getIndex m l).toNat < (N + 1) ^ 2 := by
    intro m l hm hl
    have hi := (C48_index p).mapsTo (show ((m : ℤ), (l : ℤ)) ∈ _ from
      ⟨by omega, by change (m : ℤ) ≤ (N : ℤ); omega, by omega, by change (l : ℤ) ≤ (N : ℤ); omega⟩)
    have h2 := hi.2
    have h1 := hi.1
    change p.getIndex m l < ((N : ℤ) + 1) ^ 2 at h2
    zify
    rw [Int.toNat_of_nonneg h1]
    exact h2
  obtain ⟨z, hzs, hzl, hz0⟩ : ∃ z : List ℂ, zSolve spsolve acheat z1 gq vSeries phi1 phi2 k a nu R0 arcR M N = .ok (p, z) ∧
      z.length = (N + 1) ^ 2 ∧ (acheat = true → z = List.replicate ((N + 1) ^ 2) 0) := by
    cases acheat with
    | true =>
      refine ⟨_, ?_, List.length_replicate, fun _ => rfl⟩
      unfold zSolve
      rw [hinit, ok_bind, if_pos rfl]
      rfl
    | false =>
      obtain ⟨s, hs, hl, -⟩ := C48_system p (zData z1 gq vSeries phi1 phi2 k a nu R0 arcR M) hN hhr.ne' hhth.ne'
        (fun m _ => by
          have : 0 ≤ (m : ℝ) * ((arcR - R0) / N) := by positivity
          change R0 + (m : ℝ) * ((arcR - R0) / N) ≠ 0
          linarith)
      refine ⟨spsolve s.entries s.rhs, ?_, by rw [hsp, hl], fun h => by cases h⟩
      unfold zSolve pfSolve
      rw [hinit, ok_bind, if_neg (by simp), if_neg (by omega), hs, ok_bind]
      rfl
  refine ⟨p, (List.range (N + 1)).map fun m : ℕ => (List.range (N + 1)).map fun l : ℕ => z.getD (p.getIndex m l).toNat 0,
    fun m l => z.getD (p.getIndex m l).toNat 0, ?_, rfl, by simp, by simp, ?_, ?_⟩
  · unfold doZBvp
    rw [hzs, ok_bind]
    simp only
    rw [mapM_ok (g := fun m : ℕ => (List.range (N + 1)).map fun l : ℕ => z.getD (p.getIndex m l).toNat 0)]
    · rfl
    · intro m hm
      rw [List.mem_range] at hm
      refine mapM_ok fun l hl => ?_
      rw [List.mem_range] at hl
      have hlt : (p.getIndex m l).toNat < z.length := by rw [hzl]; exact hidx m l (by omega) (by omega)
      unfold pfArray
      simp only
      rw [listGet_of_lt _ _ hlt, List.getD_eq_getElem?_getD, List.getElem?_eq_getElem hlt]
      rfl
  · intro m l hm hl
    unfold rowsGet
    rw [listGet_of_lt _ _ (by simp; omega), ok_bind, listGet_of_lt _ _ (by simp; omega)]
    simp
  · intro ha m l
    change z.getD (p.getIndex m l).toNat 0 = 0
    rw [hz0 ha, List.getD_eq_getElem?_getD, List.getElem?_replicate]
    split <;> rfl

/-! ## One grid -/

theorem bet0_nonneg (name : String) : 0 ≤ bet0 name := by
  unfold bet0
  split <;> norm_num

/-- the entries of the table of basis sizes are positive -/
theorem sing_sizes {fuel : ℕ} {N : ℤ} {v : ℕ × ℕ} (h : getNBasis (some singNBasis) defaultNBasis fuel N = some v) :
    1 ≤ v.1 ∧ 1 ≤ v.2 := by
  obtain ⟨i, -, hi, -⟩ := (C59_loop singNBasis v fuel N).1 h
  unfold singNBasis dictOf at hi
  obtain ⟨p, hp, rfl⟩ := Option.map_eq_some_iff.1 hi
  have hmem := List.mem_of_find?_eq_some hp
  rw [List.mem_reverse] at hmem
  have : ∀ p ∈ ([(16, (25, 5)), (32, (30, 20)), (64, (40, 30)), (128, (55, 40)), (256, (70, 60)), (512, (90, 60)),
      (1024, (110, 60))] : List (ℤ × (ℕ × ℕ))), 1 ≤ p.2.1 ∧ 1 ≤ p.2.2 := by decide
  exact this p hmem

/-- the boundary data handed to the solver -/
theorem u_data (jv : ℝ → ℝ → ℝ) (r : ℝ → ℝ) (phi0 phi1 phi2 : ℝ → ℝ) (A : ℝ → ℝ → ℝ) (d : ℕ → ℂ) (k a nu : ℝ) (M : ℕ) :
    (fun (x : ℝ) (sid : Fin 3) => pyGet (uEvalBc jv r phi0 phi1 phi2 A ((List.range M).map d) k a nu M x sid)) =
      restData phi0 phi1 phi2 A (modeSum jv k a nu M d) r a := by
  funext x sid
  have hc : ∀ j ∈ Finset.range M, ((List.range M).map d).getD j 0 = d j := by
    intro j hj
    rw [Finset.mem_range] at hj
    simp [List.getD_eq_getElem?_getD, hj]
  fin_cases sid
  · show pyGet (uEvalBc jv r phi0 phi1 phi2 A ((List.range M).map d) k a nu M x 0) = _
    have h1 : uEvalBc jv r phi0 phi1 phi2 A ((List.range M).map d) k a nu M x 0 = .ok (((phi0 x - A (r x) x : ℝ) : ℂ) -
        ∑ j ∈ Finset.range M, ((List.range M).map d).getD j 0 *
          ((jv (((j : ℝ) + 1) * nu) (k * r x) * sin (((j : ℝ) + 1) * nu * (x - a)) : ℝ) : ℂ)) :=
      uBc_fold jv ((List.range M).map d) k a nu (r x) x _ M (by simp)
    rw [h1]
    show ((phi0 x - A (r x) x : ℝ) : ℂ) - _ = (phi0 x : ℂ) - A (r x) x - modeSum jv k a nu M d (r x) x
    rw [Complex.ofReal_sub]
    congr 1
    unfold modeSum
    refine Finset.sum_congr rfl fun j hj => ?_
    rw [hc j hj]
    push_cast
    rfl
  · show pyGet (uEvalBc jv r phi0 phi1 phi2 A ((List.range M).map d) k a nu M x 1) = if 0 ≤ x then _ else _
    rw [uEvalBc_one]
    by_cases h : 0 ≤ x
    · rw [if_pos h, if_pos h]; show ((phi1 x - A x (2 * π) : ℝ) : ℂ) = _; push_cast; rfl
    · rw [if_neg h, if_neg h]; rfl
  · show pyGet (uEvalBc jv r phi0 phi1 phi2 A ((List.range M).map d) k a nu M x 2) = if 0 ≤ x then _ else _
    rw [uEvalBc_two]
    by_cases h : 0 ≤ x
    · rw [if_pos h, if_pos h]; show ((phi2 x - A x a : ℝ) : ℂ) = _; push_cast; rfl
    · rw [if_neg h, if_neg h]; rfl

/-- what `calc_a_coef` guarantees for the coefficients `d` on the curve `r`, `F` being the interpolated `v` -/
def CoefOutcome (jv : ℝ → ℝ → ℝ) (zp : ZProblem) (r : ℝ → ℝ) (acheat : Bool) (m1 : ℕ) (F : ℝ → ℝ → ℂ) (d : ℕ → ℂ) : Prop :=
  if acheat then
    if zp.isIz then ∀ j < 7, d j = 0
    else ∀ j < 7, d j * jv ((j + 1 : ℕ) * probNu) (zp.k * probR) =
      circleCoef (2048 + 1) (fun l => ((zp.phi0 r (probA + l * ((2 * π - probA) / (2048 + 1 : ℕ))) -
        zp.evalV probR (probA + l * ((2 * π - probA) / (2048 + 1 : ℕ))) : ℝ) : ℂ)) j
  else ∀ d' : ℕ → ℂ,
    modeResidual jv 2048 (fun i => probA + (i + 1 : ℕ) * ((2 * π - probA) / (2048 + 1 : ℕ))) r (fun th => zp.phi0 r th - F (r th) th)
      zp.k probA probNu m1 d ≤
    modeResidual jv 2048 (fun i => probA + (i + 1 : ℕ) * ((2 * π - probA) / (2048 + 1 : ℕ))) r (fun th => zp.phi0 r th - F (r th) th)
      zp.k probA probNu m1 d'

/-- the coefficients of `arc_dst` -/
theorem arcDst_circle (a : ℝ) (f : ℝ → ℂ) (N : ℕ) (j : Fin N) :
    arcDst a f N j = circleCoef (N + 1) (fun l => f (a + l * ((2 * π - a) / (N + 1 : ℕ)))) j := by
  unfold arcDst circleCoef dst1
  simp only
  rw [Finset.sum_Ico_eq_sum_range, Nat.add_sub_cancel, ← Fin.sum_univ_eq_sum_range (fun i : ℕ => f (a + ((1 + i : ℕ) : ℝ) * ((2 * π - a) / (N + 1 : ℕ)))
    * ((sin (π * (((j : ℕ) : ℝ) + 1) * ((1 + i : ℕ) : ℝ) / (N + 1 : ℕ)) : ℝ) : ℂ)) N, mul_div_right_comm]
  push_cast
  congr 1
  refine Finset.sum_congr rfl fun i _ => ?_
  rw [linspace_getD _ _ _ _ (by omega)]
  push_cast
  have e1 : (N : ℝ) + 2 - 1 = N + 1 := by ring
  rw [e1, add_comm ((i : ℕ) : ℝ) 1, add_comm ((i : ℕ) : ℂ) 1]

/-- the sample angles of `calc_a_coef` -/
theorem abTh_eq (n : ℕ) (a : ℝ) {i : ℕ} (h : i < n) : abTh n a i = a + (i + 1 : ℕ) * ((2 * π - a) / (n + 1 : ℕ)) := by
  unfold abTh
  rw [linspace_getD _ _ _ _ (by omega)]
  push_cast
  rw [show (n : ℝ) + 2 - 1 = n + 1 by ring]

theorem modeResidual_congr {jv : ℝ → ℝ → ℝ} {n : ℕ} {t t' : ℕ → ℝ} (h : ∀ i < n, t i = t' i) (rb : ℝ → ℝ) (φ : ℝ → ℂ) (k a nu : ℝ)
    (m1 : ℕ) (d : ℕ → ℂ) : modeResidual jv n t rb φ k a nu m1 d = modeResidual jv n t' rb φ k a nu m1 d := by
  unfold modeResidual
  refine Finset.sum_congr rfl fun i hi => ?_
  rw [h i (Finset.mem_range.1 hi)]

/-- `b_to_a` of the coefficients of `arc_dst` -/
theorem bToA_circle (jv : ℝ → ℝ → ℝ) (a : ℝ) (f : ℝ → ℂ) {n M : ℕ} (hM : M ≤ n) (k R nu : ℝ)
    (hJ : ∀ m : ℕ, 1 ≤ m → m ≤ M → jv (m * nu) (k * R) ≠ 0) :
    ∃ d : ℕ → ℂ, bToA jv ((List.ofFn (arcDst a f n)).take M) k R nu = .ok ((List.range M).map d) ∧ ∀ j < M,
      d j * jv ((j + 1 : ℕ) * nu) (k * R) = circleCoef (n + 1) (fun l => f (a + l * ((2 * π - a) / (n + 1 : ℕ)))) j := by
  set c : List ℂ := (List.ofFn (arcDst a f n)).take M with hc
  have hcl : c.length = M := by simp [hc, hM]
  refine ⟨fun j => c.getD j 0 * ((1 / jv ((j + 1 : ℕ) * nu) (k * R) : ℝ) : ℂ), ?_, ?_⟩
  · rw [bToA_eq _ _ _ _ _ fun m a1 a2 => hJ m a1 (by omega)]
    congr 1
    refine List.ext_getElem (by simp [hcl]) fun j a1 a2 => ?_
    have hj : j < c.length := by simpa using a1
    simp [List.getD_eq_getElem?_getD, hj]
  · intro j hj
    have hj' : j < n := by omega
    have hneC : ((jv ((j + 1 : ℕ) * nu) (k * R) : ℝ) : ℂ) ≠ 0 := by exact_mod_cast hJ (j + 1) (by omega) (by omega)
    have hcj : c.getD j 0 = arcDst a f n ⟨j, hj'⟩ := by
      rw [hc, List.getD_eq_getElem?_getD, List.getElem?_take, if_pos hj, List.getElem?_ofFn, dif_pos hj', Option.getD_some]
    have e1 : ((1 / jv ((j + 1 : ℕ) * nu) (k * R) : ℝ) : ℂ) * ((jv ((j + 1 : ℕ) * nu) (k * R) : ℝ) : ℂ) = 1 := by
      rw [Complex.ofReal_div, Complex.ofReal_one, one_div, inv_mul_cancel₀ hneC]
    show c.getD j 0 * _ * _ = _
    rw [hcj, arcDst_circle, mul_assoc, e1, mul_one]

/-- `calc_a_coef` returns seven coefficients -/
theorem z_coef {lib : ZLib} (hlsq : IsLstsq lib.lstsq) (zp : ZProblem) (r : ℝ → ℝ) (acheat : Bool) {m1 : ℕ} (hm1 : 7 ≤ m1)
    (F : ℝ → ℝ → ℂ) (hJ : ∀ m : ℕ, (if acheat then zp.isIz = false ∧ 1 ≤ m ∧ m ≤ 7 else 7 < m ∧ m ≤ m1) →
      lib.jv (m * probNu) (zp.k * probR) ≠ 0) :
    ∃ d : ℕ → ℂ, zCalcACoef lib.jv lib.lstsq abNodes arcDstN acheat zp.isIz (zp.phi0 r) zp.evalV F r zp.k probR probA probNu zM m1 =
      .ok ((List.range zM).map d) ∧ CoefOutcome lib.jv zp r acheat m1 F d := by
  unfold zCalcACoef CoefOutcome
  cases acheat with
  | false =>
    obtain ⟨d, h1, h2⟩ := C61_least lib.jv hlsq (n := abNodes) (evalR := r) (fun th => (zp.phi0 r th : ℂ) - F (r th) th) (k := zp.k)
      (R := probR) (a := probA) (nu := probNu) (M := zM) (m1 := m1) hm1 (fun m h1 h2 => hJ m ⟨h1, h2⟩)
    refine ⟨d, ?_, ?_⟩
    · simp only [Bool.false_eq_true, if_false]
      exact h1
    · simp only [Bool.false_eq_true, if_false]
      intro d'
      have := h2 d'
      rw [modeResidual_congr (fun i hi => abTh_eq abNodes probA hi), modeResidual_congr (fun i hi => abTh_eq abNodes probA hi)] at this
      exact this
  | true =>
    simp only [if_true]
    unfold zExpectedACoef
    cases hiz : zp.isIz with
    | true =>
      refine ⟨fun _ => 0, ?_, ?_⟩
      · simp only [if_true]
        rfl
      · simp
    | false =>
      simp only [Bool.false_eq_true, if_false]
      obtain ⟨d, h1, h2⟩ := bToA_circle lib.jv probA (fun th => ((zp.phi0 r th - zp.evalV probR th : ℝ) : ℂ)) (n := arcDstN) (M := zM)
        (by decide) zp.k probR probNu (fun m a1 a2 => hJ m ⟨hiz, a1, a2⟩)
      exact ⟨d, h1, h2⟩

/-- the kept circles of `create_v_interp` suffice for the quintic interpolation on every grid -/
theorem z_rmin (n : ℕ) (bname : String) :
    zRmin (n + 1) probR (bet0 bname) ≤ zR0 + ((n + 1 - 5 : ℕ) : ℝ) * ((zArcR bname - zR0) / (n + 1 : ℕ)) := by
  have hb := bet0_nonneg bname
  have hn : (0 : ℝ) < (n + 1 : ℕ) := by positivity
  have hle : (1.5 : ℝ) ≤ (zArcR bname - zR0) := by unfold zArcR zR0 probR; norm_num; linarith
  unfold zRmin
  by_cases h : n + 1 ≥ 128
  · rw [if_pos h]
    have hc : ((n + 1 - 5 : ℕ) : ℝ) = ((n + 1 : ℕ) : ℝ) - 5 := by
      rw [Nat.cast_sub (by omega)]; norm_num
    have h128 : (128 : ℝ) ≤ (n + 1 : ℕ) := by exact_mod_cast h
    have hf : (9 / 10 : ℝ) ≤ (((n + 1 : ℕ) : ℝ) - 5) / (n + 1 : ℕ) := by
      rw [le_div_iff₀ hn]; linarith
    have e1 : (((n + 1 : ℕ) : ℝ) - 5) * ((zArcR bname - zR0) / (n + 1 : ℕ)) =
        (((n + 1 : ℕ) : ℝ) - 5) / (n + 1 : ℕ) * (zArcR bname - zR0) := by ring
    rw [hc, e1]
    have h2 : (9 / 10 : ℝ) * (zArcR bname - zR0) ≤ (((n + 1 : ℕ) : ℝ) - 5) / (n + 1 : ℕ) * (zArcR bname - zR0) :=
      mul_le_mul_of_nonneg_right hf (by linarith)
    unfold zArcR zR0 probR at h2 ⊢
    linarith
  · rw [if_neg h]
    have : 0 ≤ (zArcR bname - zR0) / (n + 1 : ℕ) := div_nonneg (by linarith) hn.le
    unfold zR0
    positivity

/-- the array `v`, the coefficients and the solution `u` that `ZMethod.run` has computed on the grid with `n + 1` cells when the
coefficients `z1` on the outer circle were used: `v` has one entry for each node of the polar grid; `ev` is the largest modulus of
the first seven sine coefficients of its error on the inner circles; with `acheat` it is zero, otherwise, if the linear solver has
solved its system, it satisfies the compact scheme and takes the values of `phi1` and `phi2` on the rays, of the series on the inner
circle and of the sine series plus `g + q` on the outer one.  `F` interpolates it.  The coefficients `d` of the singular functions
are those of C61 (or the expected ones).  `u` solves the discrete problem with source `-(Δ + k²) v_asympt` and the boundary data
that remains when `v_asympt` and the singular functions are subtracted. -/
def ZGridOutcome (iter : Iter) (lib : ZLib) (zp : ZProblem) (bname : String) (r : ℝ → ℝ) (order : ℕ) (acheat : Bool) (z1 : List ℝ)
    (size : ℕ × ℕ) {n : ℕ} (v : List (List ℂ)) (ev : ℝ) (u : Arr n) (eu : Option ℝ) : Prop :=
  ∃ (V : ℤ → ℤ → ℂ) (F : ℝ → ℝ → ℂ) (d : ℕ → ℂ) (ex : Option (ℝ → ℝ → ℂ)) (φ : ℝ → ℝ → ℂ),
    (v.length = n + 2 ∧ (∀ row ∈ v, row.length = n + 2) ∧ ∀ m l : ℕ, m ≤ n + 1 → l ≤ n + 1 → rowsGet v m l = .ok (V m l)) ∧
    IsGreatest (circleErrs (π / 4) (1 / 10) (zArcR bname) (n + 1) 7 zp.evalV fun m l => V m l) ev ∧
    (if acheat then ∀ m l : ℕ, m ≤ n + 1 → l ≤ n + 1 → V m l = 0
      else (∀ p s, pfInit (n + 1) (π / 4) (4 / 7) (1 / 10) (zArcR bname) = .ok p →
          pfSystem p (zData z1 (zGq zp) (myLambdify zp.vSeries) zp.phi1 zp.phi2 zp.k (π / 4) (4 / 7) (1 / 10) (zArcR bname) 7) = .ok s →
          PfSolves s (lib.spsolve s.entries s.rhs)) →
        PolarSolution zp.k (π / 4) (1 / 10) (zArcR bname) (n + 1) (zp.vSeries (1 / 10))
          (fun th => (∑ j ∈ Finset.range 7, z1.getD j 0 * sin (((j : ℝ) + 1) * (4 / 7) * (th - π / 4))) +
            (zp.g (zArcR bname) th + zQ zp.k (π / 4) zp.g (zArcR bname) th)) zp.phi1 zp.phi2 V) ∧
    (∀ m l : ℕ, m ≤ n + 1 → l ≤ n + 1 → (n + 1 < 128 ∨ (2.3 - bet0 bname) * (2 / 3) ≤ (polarPt (π / 4) (1 / 10) (zArcR bname) (n + 1) m l).1) →
      F (polarPt (π / 4) (1 / 10) (zArcR bname) (n + 1) m l).1 (polarPt (π / 4) (1 / 10) (zArcR bname) (n + 1) m l).2 = V m l) ∧
    CoefOutcome lib.jv zp r acheat (if bname = "arc" then 7 else 200) F d ∧
    (if zp.isIz then ∃ f : ℝ → ℝ → ℂ, ex = some f ∧ ∀ ρ th : ℝ, 0 < ρ → π / 8 ≤ th → th < 2 * π + π / 8 →
        f (ρ * cos th) (ρ * sin th) = ((zp.expectedPolar ρ th - zp.vAsympt ρ th : ℝ) : ℂ)
      else ex = none) ∧
    (∀ ρ th : ℝ, 0 < ρ → 0 < th → th ≤ 2 * π → φ (ρ * cos th) (ρ * sin th) = ((-polarHelm zp.k zp.vAsympt ρ th : ℝ) : ℂ)) ∧
    BvpOutcome iter lib.brentq lib.fit lib.lstsq order zp.k ex φ
      (restData (zp.phi0 r) zp.phi1 zp.phi2 (fun ρ th => if ρ = 0 then 0 else zp.vAsympt ρ th)
        (modeSum lib.jv zp.k (π / 4) (4 / 7) 7 d) r (π / 4)) r size eu u

theorem probNu_eq : probNu = 4 / 7 := by
  have := pi_ne_zero
  unfold probNu probA
  field_simp
  norm_num

theorem z_m1 {bname : String} {r : ℝ → ℝ} (h : chooseBoundary bname = .ok r) :
    getM1 none (some singM1) bname = if bname = "arc" then 7 else 200 := by
  rcases chooseBoundary_names h with h | h | h | h | h <;> rw [h] <;> rfl

/-- the expected solution handed to the solver at a point with given polar coordinates -/
theorem u_expected (u : ℝ → ℝ → ℝ) {ρ th : ℝ} (hρ : 0 < ρ) (h1 : π / 8 ≤ th) (h2 : th < 2 * π + π / 8) :
    evalExpected none (some u) probA 2 (ρ * cos th) (ρ * sin th) = some (u ρ th) := by
  have hpi := pi_pos
  simp only [evalExpected, evalExpectedPolar]
  rcases le_or_gt th (2 * π) with h | h
  · rw [cartToPolar_polar hρ (by linarith) h]
    simp only
    rw [if_neg (by unfold probA; linarith)]
  · have e := cartToPolar_polar hρ (t := th - 2 * π) (by linarith) (by linarith)
    rw [cos_sub_two_pi, sin_sub_two_pi] at e
    rw [e]
    simp only
    rw [if_pos (by unfold probA; linarith)]
    congr 2
    ring

/-- one pass of the loop of `runz.py` -/
theorem z_pass {iter : Iter} (hit : IsIter iter) {lib : ZLib} (hb : BrentqSpec lib.brentq) (hfit : IsChebfit lib.fit)
    (hlsq : IsLstsq lib.lstsq) (hint : IsInterp2d lib.interp2d) (hsp : ∀ A b, (lib.spsolve A b).length = b.length) {zp : ZProblem}
    {order : ℕ} (ho : order = 2 ∨ order = 4) {n : ℕ} (hN : 16 ≤ n + 1) {bname : String} {r : ℝ → ℝ}
    (hname : chooseBoundary bname = .ok r) (hz : NoZeroEig n order probAD zp.k) (hoff : bname = "cubic" → OffCurve r ((n : ℤ) + 1))
    {acheat : Bool} (hJ : ∀ m : ℕ, (if acheat then zp.isIz = false ∧ 1 ≤ m ∧ m ≤ 7
      else 7 < m ∧ m ≤ if bname = "arc" then 7 else 200) → lib.jv (m * (4 / 7)) (zp.k * 2.3) ≠ 0)
    {z1 : List ℝ} (hz1 : 7 ≤ z1.length) {size : ℤ → ℕ × ℕ} (hp : 1 ≤ (size (n + 1)).1) (hq : 1 ≤ (size (n + 1)).2) :
    ∃ (v : List (List ℂ)) (ev : ℝ) (m : MainSolver) (u : Arr n) (eu : Option ℝ),
      zmSolve iter lib zp bname r order acheat size ((n : ℤ) + 1) z1 =
        .ok { v := v, vError := some ev, u := (⟨n, u⟩, m), uError := eu } ∧
      (∀ nd, nd ∈ m.s.G.Mplus ↔ nd ∈ Interior probAD probA r (n + 1)) ∧
      (eu.isSome = zp.isIz) ∧
      ZGridOutcome iter lib zp bname r order acheat z1 (size (n + 1)) v ev u eu := by
  have hpi := pi_gt_three
  have hb0 := bet0_nonneg bname
  have hA : probA = π / 4 := rfl
  have hR0 : zR0 = 1 / 10 := rfl
  have hR : probR = 2.3 := by unfold probR; norm_num
  have hM : zM = 7 := rfl
  have hgt : zR0 < zArcR bname := by unfold zArcR; rw [hR, hR0]; norm_num; linarith
  have hne0 : zArcR bname ≠ 0 := by rw [hR0] at hgt; intro h; rw [h] at hgt; norm_num at hgt
  have htn : ((n : ℤ) + 1).toNat = n + 1 := by omega
  -- the array `v`
  obtain ⟨p, v, V0, hv0, hpe, hlen, hrow, hent0, hzero⟩ := zbvp_any hsp acheat (zGq zp) (myLambdify zp.vSeries) zp.phi1 zp.phi2 zp.k
    (a := probA) probNu (R0 := zR0) (arcR := zArcR bname) (M := zM) (N := n + 1) (by omega) (by rw [hA]; linarith) (by rw [hR0]; norm_num) hgt hz1
  obtain ⟨V, hent, hVzero, hVsol⟩ : ∃ V : ℤ → ℤ → ℂ, (∀ m l : ℕ, m ≤ n + 1 → l ≤ n + 1 → rowsGet v m l = .ok (V m l)) ∧
      (acheat = true → ∀ m l : ℕ, m ≤ n + 1 → l ≤ n + 1 → V m l = 0) ∧
      (acheat = false → (∀ p s, pfInit (n + 1) (π / 4) (4 / 7) (1 / 10) (zArcR bname) = .ok p →
          pfSystem p (zData z1 (zGq zp) (myLambdify zp.vSeries) zp.phi1 zp.phi2 zp.k (π / 4) (4 / 7) (1 / 10) (zArcR bname) 7) = .ok s →
          PfSolves s (lib.spsolve s.entries s.rhs)) →
        PolarSolution zp.k (π / 4) (1 / 10) (zArcR bname) (n + 1) (zp.vSeries (1 / 10))
          (fun th => (∑ j ∈ Finset.range 7, z1.getD j 0 * sin (((j : ℝ) + 1) * (4 / 7) * (th - π / 4))) +
            (zp.g (zArcR bname) th + zQ zp.k (π / 4) zp.g (zArcR bname) th)) zp.phi1 zp.phi2 V) := by
    by_cases hso : acheat = false ∧ ∀ p s, pfInit (n + 1) (π / 4) (4 / 7) (1 / 10) (zArcR bname) = .ok p →
          pfSystem p (zData z1 (zGq zp) (myLambdify zp.vSeries) zp.phi1 zp.phi2 zp.k (π / 4) (4 / 7) (1 / 10) (zArcR bname) 7) = .ok s →
          PfSolves s (lib.spsolve s.entries s.rhs)
    · obtain ⟨hac, hso⟩ := hso
      subst hac
      obtain ⟨p', v', V', h1, -, -, hr', hth', he', hb1, hb2, hb3⟩ := C68_zbvp (spsolve := lib.spsolve) (z1 := z1) (gq := zGq zp)
        (vSeries := myLambdify zp.vSeries) (phi1 := zp.phi1) (phi2 := zp.phi2) (k := zp.k) (a := probA) (nu := probNu) (R0 := zR0)
        (arcR := zArcR bname) (M := zM) (N := n + 1) (by omega) (by rw [hA]; linarith) (by rw [hR0]; norm_num) hgt hz1
        (by rw [probNu_eq]; exact hso)
      rw [hv0] at h1
      obtain ⟨rfl, rfl⟩ := Prod.mk.inj (Except.ok.inj h1)
      refine ⟨V', he', (fun h => by cases h), fun _ _ => ⟨fun m hm => ?_, fun l h1 h2 => ?_, fun m l h1 h2 h3 h4 => ?_⟩⟩
      · have := hb1 m hm
        rw [hr'] at this
        exact this
      · have := hb2 l h1 h2
        rw [hth', probNu_eq] at this
        refine ⟨this.1.trans ?_, this.2.trans ?_⟩
        · show ((myLambdify zp.vSeries zR0 _ : ℝ) : ℂ) = _
          unfold myLambdify
          rw [if_neg (by rw [hR0]; norm_num)]
          rfl
        · unfold zGq myLambdify
          rw [if_neg hne0]
          rfl
      · exact hb3 m l h1 h2 h3 h4
    · refine ⟨fun m l => V0 m.toNat l.toNat, fun m l h1 h2 => hent0 m l h1 h2, fun h m l _ _ => hzero h _ _, fun h h' => absurd ⟨h, h'⟩ hso⟩
  have hgr : ∀ m : ℕ, p.getR m = zR0 + m * ((zArcR bname - zR0) / (n + 1 : ℕ)) := by intro m; rw [hpe]; rfl
  have hgth : ∀ l : ℕ, p.getTh l = probA + l * ((2 * π - probA) / (n + 1 : ℕ)) := by intro l; rw [hpe]; rfl
  -- its error
  obtain ⟨ev, hev, hgreat⟩ := C69_coefs (p := p) (evalV := zp.evalV) (v := v) (V := fun m l => V m l) (M := zM) (N := n + 1) (by decide)
    (by rw [hM]; omega) hgr hgth hlen hrow hent
  -- the interpolation
  obtain ⟨F, hF, hFv⟩ := C55_interp hint p v (fun m l => V m l) probR (bet0 bname) (n + 1) (by omega)
    (by rw [hpe]; exact div_pos (by linarith) (by positivity)) (by rw [hpe]; exact div_pos (by rw [hA]; linarith) (by positivity)) hent
    (by rw [hgr]; exact z_rmin n bname)
  -- the coefficients
  obtain ⟨d, hd, hdo⟩ := z_coef hlsq zp r acheat (m1 := if bname = "arc" then 7 else 200) (by split <;> norm_num) F
    (fun m h => by rw [probNu_eq, hR]; exact hJ m h)
  -- the problem for `u`
  set src := spSource probAD fun r th => (zF zp.k zp.vAsympt r th : ℂ) with hsrc
  set ex : Option (ℝ → ℝ → ℂ) := if zp.isIz then
      some fun x y => ((evalExpected none (some (uEvalExpectedPolar zp.expectedPolar (zVAs zp))) probA 2 x y).getD 0 : ℝ)
    else none with hex
  set bc := restData (zp.phi0 r) zp.phi1 zp.phi2 (zVAs zp) (modeSum lib.jv zp.k probA probNu zM d) r probA with hbc
  have hoff' : ∀ (i j : ℤ) (t : ℝ), probA / 2 ≤ t → t ≤ 2 * π + probA / 2 →
      getCoord probAD (n + 1) i j ≠ polarPoint (r t) t := by
    intro i j t h1 h2
    by_cases hc : bname = "cubic"
    · have := hoff hc i j t h1 h2
      rwa [htn] at this
    · exact C79_off_grid hc hname (n + 1) i j h1 h2
  obtain ⟨s, hs, f, -, hf, -, ap, res, k1, k2, k3, k4⟩ := C79_shipped hit hb hN ho hname (eps := 1 / 1000) hz (spSource_defined probAD _)
    (src := src) rfl hoff' hp hq hfit hlsq (chebRoots 1024) bc ex
  obtain ⟨m, eu, u, g1, g2, g3, g4⟩ := bvp_pass hit hfit hN hname (φ := src.f)
    (bcF := fun r => uEvalBc lib.jv r (zp.phi0 r) zp.phi1 zp.phi2 (zVAs zp) ((List.range zM).map d) zp.k probA probNu zM)
    (bc := bc) (u_data lib.jv r (zp.phi0 r) zp.phi1 zp.phi2 (zVAs zp) d zp.k probA probNu zM) (nB := singNBasis) (m1 := none) (size := size) hp hq
    (fun _ _ => rfl) ⟨s, hs, f, hf, ap, res, k1, k2, k3, k4⟩
  refine ⟨v, ev, m, u, eu, ?_, g3, ?_, V, F, d, ex, src.f, ⟨hlen, hrow, hent⟩, hgreat, ?_, ?_, hdo, ?_, ?_, ?_⟩
  · unfold zmSolve
    rw [htn, hv0, ok_bind]
    simp only
    rw [hF, ok_bind, z_m1 hname, hd, ok_bind]
    have g1' : mainBuild iter lib.brentq (uProblem lib.jv zp ((List.range zM).map d)) r order size ((n : ℤ) + 1) = .ok m := g1
    have g2' : mainSolve iter lib.fit lib.lstsq (uProblem lib.jv zp ((List.range zM).map d)) r m = .ok (some ⟨eu, ⟨n, u⟩⟩) := g2
    rw [g1', ok_bind, g2', ok_bind]
    simp only
    rw [hev]
    rfl
  · have h1 := g4.1
    rcases hiz : zp.isIz with _ | _
    · rw [hex, hiz] at h1
      rcases eu with _ | eu
      · rfl
      · simp at h1
    · rw [hex, hiz] at h1
      rcases eu with _ | eu
      · simp at h1
      · rfl
  · rcases acheat with _ | _
    · simp only [Bool.false_eq_true, if_false]
      exact hVsol rfl
    · simp only [if_true]
      exact hVzero rfl
  · intro m l h1 h2 h3
    have := hFv m l h1 h2 (by
      rw [hgr]
      unfold zRmin
      rw [hR]
      by_cases h : n + 1 ≥ 128
      · rw [if_pos h]
        exact h3.resolve_left (by omega)
      · rw [if_neg h, hR0]
        have : 0 ≤ (zArcR bname - 1 / 10) / (n + 1 : ℕ) := div_nonneg (by rw [hR0] at hgt; linarith) (by positivity)
        positivity)
    rw [hgr, hgth] at this
    exact this
  · rcases hiz : zp.isIz with _ | _
    · simp only [Bool.false_eq_true, if_false]
      rw [hex, hiz]
      simp
    · simp only [if_true]
      rw [hex, hiz]
      refine ⟨_, if_pos rfl, fun ρ th h1 h2 h3 => ?_⟩
      rw [u_expected _ h1 h2 h3]
      unfold uEvalExpectedPolar zVAs myLambdify
      rw [Option.getD_some, if_neg h1.ne']
  · intro ρ th h1 h2 h3
    show pyGet (spF probAD _ _ _) = _
    unfold spF spFPolar
    rw [cartToPolar_polar h1 h2 h3]
    simp only
    rw [if_neg h1.ne']
    rfl
  · have hbc' : restData (zp.phi0 r) zp.phi1 zp.phi2 (fun ρ th => if ρ = 0 then 0 else zp.vAsympt ρ th)
        (modeSum lib.jv zp.k (π / 4) (4 / 7) 7 d) r (π / 4) = bc := by
      rw [hbc, probNu_eq]
      rfl
    rw [hbc']
    exact g4

/-! ## The comparison of three arrays `v` -/

/-- the quotient of the largest differences, if there are differences -/
theorem relRate_printed (d : List ℝ × List ℝ) {D12 D01 : Set ℝ} (h12 : ∀ x, x ∈ d.1 ↔ x ∈ D12) (h01 : ∀ x, x ∈ d.2 ↔ x ∈ D01)
    (n12 : D12.Nonempty) (n01 : D01.Nonempty) : ∃ ρ, nanOpt (relRate d) = .ok ρ ∧ IsPrintedRate D12 D01 ρ := by
  obtain ⟨c1, c2, c3⟩ := C50_rate d _ _ h12 h01
  by_cases hv : relRate d = .error .nanValue
  · exact ⟨none, by rw [hv]; rfl, c3.1 hv⟩
  · rcases hrr : relRate d with er | x
    · exfalso
      have hne : relRate d ≠ .error .valueError := fun h => (c2.1 h).elim n12.ne_empty n01.ne_empty
      have hempty : ∀ l er, pyMax l = .error er → er = .valueError := by
        intro l er h
        unfold pyMax at h
        split at h <;> cases h
        rfl
      unfold relRate at hrr hne hv
      rcases p1 : pyMax d.1 with er1 | m1
      · rw [p1, hempty _ _ p1] at hne
        exact hne rfl
      rcases p2 : pyMax d.2 with er2 | m2
      · rw [p1, p2, hempty _ _ p2] at hne
        exact hne rfl
      rw [p1, p2, ok_bind, ok_bind] at hrr hv
      by_cases hz : m1 = 0 ∨ m2 = 0
      · rw [if_pos hz] at hv; exact hv rfl
      · rw [if_neg hz] at hrr; cases hrr
    · exact ⟨some x, rfl, (c1 x).1 hrr⟩

/-- every array is the restriction of a function of the polar coordinates -/
theorem polar_samples (N : ℕ) (hN : 1 ≤ N) (u : ℕ → ℕ → ℂ) : ∃ g : ℝ × ℝ → ℂ, ∀ m l, u m l = g (polarPt 0 0 1 N m l) := by
  have hinj : Function.Injective fun p : ℕ × ℕ => polarPt 0 0 1 N p.1 p.2 := by
    rintro ⟨m, l⟩ ⟨m', l'⟩ h
    have hN0 : (N : ℝ) ≠ 0 := by exact_mod_cast (by omega : N ≠ 0)
    have h1 := congrArg Prod.fst h
    have h2 := congrArg Prod.snd h
    simp only [polarPt, zero_add, sub_zero] at h1 h2
    have e1 : (m : ℝ) = m' := mul_right_cancel₀ (div_ne_zero one_ne_zero hN0) h1
    have e2 : (l : ℝ) = l' := mul_right_cancel₀ (div_ne_zero (by positivity) hN0) h2
    exact Prod.ext (by exact_mod_cast e1) (by exact_mod_cast e2)
  exact ⟨Function.extend (fun p : ℕ × ℕ => polarPt 0 0 1 N p.1 p.2) (fun p => u p.1 p.2) 0, fun m l =>
    (hinj.extend_apply (fun p : ℕ × ℕ => u p.1 p.2) 0 (m, l)).symm⟩

/-- the entries of a two-dimensional array -/
noncomputable def rowEntry (v : List (List ℂ)) (m l : ℕ) : ℂ := (v.getD m []).getD l 0

/-- **C90** the comparison of three arrays `v` on the polar grids with `4q`, `2q`, `q` cells raises no exception and prints the
binary logarithm of the quotient of the largest differences at the common inner nodes, or `inf`/`nan` if one of them is zero. -/
theorem C90_vrate {q : ℕ} (hq : 2 ≤ q) {v0 v1 v2 : List (List ℂ)} (h0 : v0.length = 4 * q + 1) (h1 : v1.length = 2 * q + 1)
    (h2 : v2.length = q + 1) :
    ∃ ρ, nanOpt (zRelV (4 * q : ℤ) v0 v1 v2) = .ok ρ ∧
      IsPrintedRate (polarDiff q (rowEntry v1) (rowEntry v2)) (polarDiff (2 * q) (rowEntry v0) (rowEntry v1)) ρ := by
  obtain ⟨g0, e0⟩ := polar_samples (4 * q) (by omega) (rowEntry v0)
  obtain ⟨g1, e1⟩ := polar_samples (2 * q) (by omega) (rowEntry v1)
  obtain ⟨g2, e2⟩ := polar_samples q (by omega) (rowEntry v2)
  obtain ⟨d, hd, d1, d2⟩ := C50_polar 0 0 1 q (u0 := rowEntry v0) (u1 := rowEntry v1) (u2 := rowEntry v2) (fun m l _ _ => e0 m l)
    (fun m l _ _ => e1 m l) (fun m l _ _ => e2 m l)
  have key : ∀ {Q : ℕ} {ga gb : ℝ × ℝ → ℂ} {ua ub : ℕ → ℕ → ℂ}, (∀ m l, ua m l = ga (polarPt 0 0 1 (2 * Q) m l)) →
      (∀ m l, ub m l = gb (polarPt 0 0 1 Q m l)) → diffSet (polarInner 0 0 1 Q) ga gb = polarDiff Q ua ub := by
    intro Q ga gb ua ub ha hb
    ext x
    constructor
    · rintro ⟨P, ⟨m, l, a1, a2, a3, a4, rfl⟩, rfl⟩
      refine ⟨m, l, a1, a2, a3, a4, ?_⟩
      rw [ha, hb, polarPt_refine 0 0 1 (by norm_num : 0 < 2)]
    · rintro ⟨m, l, a1, a2, a3, a4, rfl⟩
      refine ⟨_, ⟨m, l, a1, a2, a3, a4, rfl⟩, ?_⟩
      rw [ha, hb, polarPt_refine 0 0 1 (by norm_num : 0 < 2)]
  have e0' : ∀ m l, rowEntry v0 m l = g0 (polarPt 0 0 1 (2 * (2 * q)) m l) := by
    intro m l
    rw [show 2 * (2 * q) = 4 * q by ring]
    exact e0 m l
  rw [key e1 e2] at d1
  rw [key e0' e1] at d2
  have hrel : zRelV (4 * q : ℤ) v0 v1 v2 = relRate d := by
    unfold zRelV pfRelConvergence
    rw [h0, h1, h2, show (4 * (q : ℤ)).toNat = 4 * q by omega]
    simp only [Nat.add_sub_cancel]
    have hd' : pfDiffs (4 * q) (4 * q) (2 * q) q (fun m l => (v0.getD m []).getD l 0) (fun m l => (v1.getD m []).getD l 0)
      (fun m l => (v2.getD m []).getD l 0) = .ok d := hd
    rw [hd', ok_bind]
  rw [hrel]
  exact relRate_printed d d1 d2 ⟨_, 1, 1, by omega, by omega, by omega, by omega, rfl⟩ ⟨_, 1, 1, by omega, by omega, by omega, by omega, rfl⟩

/-! ## The program -/

/-- what is assumed about the library functions: `brentq` finds a root in a bracket, `chebfit` fits, `lstsq` minimises, `interp2d`
interpolates, `spsolve` returns a vector of the right length, and `odeint` returns a vector of the right length if the right-hand
side is defined away from zero and keeps the length -/
structure GoodLib (lib : ZLib) : Prop where
  brentq : BrentqSpec lib.brentq
  fit : IsChebfit lib.fit
  lstsq : IsLstsq lib.lstsq
  interp : IsInterp2d lib.interp2d
  spsolve : ∀ A b, (lib.spsolve A b).length = b.length
  ode : ∀ f y R0 R, 0 < R0 → R0 < R → (∀ Y r, Y.length = y.length → r ≠ 0 → ∃ D, f Y r = .ok D ∧ D.length = y.length) →
    ∃ sol, lib.odeint f y R0 R = .ok sol ∧ sol.length = y.length

/-- the ODE method returns seven coefficients -/
theorem zmOde_ok {lib : ZLib} (hl : GoodLib lib) (zp : ZProblem) (bname : String) :
    ∃ z1, zmOde lib zp bname = .ok z1 ∧ z1.length = 7 := by
  have hb0 := bet0_nonneg bname
  obtain ⟨ic, hic, hicl, -⟩ := odeIc_eq (N := odeFourierN) (M := zM) (by decide) (myLambdify (zInitial zp.k probA zp.g zp.vSeries))
    (myLambdify (zDInitial zp.k probA zp.g zp.vSeries)) probA zR0
  obtain ⟨sol, hsol, hlen⟩ := hl.ode (odeDeriv odeFourierN (myLambdify (zF1 zp.k probA zp.g)) probA probNu zp.k zM) ic zR0 (zArcR bname)
    (by unfold zR0; norm_num) (by unfold zArcR zR0 probR; norm_num; linarith) (fun Y r hY hr => by
      rw [hicl] at hY ⊢
      obtain ⟨D, h1, h2, -⟩ := C54_rhs (N := odeFourierN) (M := zM) (by decide) (myLambdify (zF1 zp.k probA zp.g)) probA probNu zp.k hY hr
      exact ⟨D, h1, h2⟩)
  refine ⟨evens sol, ?_, ?_⟩
  · unfold zmOde odeCalc
    rw [hic, ok_bind, hsol]
    rfl
  · rw [evens_length, hlen, hicl]
    rfl

theorem zmSolve_congr {iter : Iter} {lib : ZLib} {zp : ZProblem} {bname : String} {r : ℝ → ℝ} {order : ℕ} {acheat : Bool}
    {size size' : ℤ → ℕ × ℕ} {N : ℤ} (h : size N = size' N) (z1 : List ℝ) :
    zmSolve iter lib zp bname r order acheat size N z1 = zmSolve iter lib zp bname r order acheat size' N z1 := by
  unfold zmSolve
  simp only [mainBuild_congr h]

/-- the grids before one of the list -/
theorem nested_map {α : Type} {fuel : ℕ} {N0 c : ℤ} {Ns : List ℤ} (h0 : 1 ≤ N0) (h : getNList fuel N0 (some c) = some Ns) (res : ℤ → α)
    {i : ℕ} (hi : i < Ns.length) {r1 r2 : α} {rest : List α} (hh : ((Ns.take i).map res).reverse = r1 :: r2 :: rest) :
    ∃ q, Ns.getD i 0 = 4 * q ∧ q ∈ Ns ∧ 2 * q ∈ Ns ∧ 4 * q ∈ Ns ∧ r1 = res (2 * q) ∧ r2 = res q := by
  have hlen : 2 ≤ i := by
    have := congrArg List.length hh
    simp only [List.length_reverse, List.length_map, List.length_take, List.length_cons] at this
    omega
  obtain ⟨j, rfl⟩ : ∃ j, i = j + 2 := ⟨i - 2, by omega⟩
  obtain ⟨q, hq4, rest', hq⟩ := C63_nested h0 h (fun N => (⟨none, N⟩ : SolveResult ℤ)) hi
  have hm := congrArg (List.map fun r : SolveResult ℤ => res r.u) hq
  simp only [List.filterMap_eq_map', List.map_reverse, List.map_map, List.map_cons] at hm
  have hm' : ((Ns.take (j + 2)).map res).reverse = res (2 * q) :: res q :: rest'.map fun r : SolveResult ℤ => res r.u := by
    rw [← hm]
    rfl
  rw [hm'] at hh
  obtain ⟨a1, a2⟩ := List.cons.inj hh
  obtain ⟨a2, -⟩ := List.cons.inj a2
  have hd := (C62_list h0 h).2.2
  have gmem : ∀ l, l < Ns.length → Ns.getD l 0 ∈ Ns := by
    intro l hl
    rw [List.getD_eq_getElem _ _ hl]
    exact List.getElem_mem hl
  have d1 := hd (j + 1) hi
  have d2 := hd j (by omega)
  rw [hq4] at d1
  refine ⟨q, hq4, ?_, ?_, ?_, a1.symm, a2.symm⟩
  · have := gmem j (by omega)
    rwa [show Ns.getD j 0 = q by omega] at this
  · have := gmem (j + 1) (by omega)
    rwa [show Ns.getD (j + 1) 0 = 2 * q by omega] at this
  · rw [← hq4]; exact gmem _ hi

/-- `runz.py` up to the loop -/
theorem runzMain_eq {iter : Iter} {lib : ZLib} {fuel : ℕ} {args : RunzArgs} {pr : RunProblem} {r : ℝ → ℝ}
    (hpr : problemTable.lookup args.problem = some pr) (hname : chooseBoundary args.boundary = .ok r) {Ns : List ℤ}
    (hNs : getNList fuel args.N args.c = some Ns)
    (hsz : ∀ N ∈ Ns, ∃ v, getNBasis (some pr.nBasis) defaultNBasis fuel N = some v) {size : ℤ → ℕ × ℕ}
    (hsize : size = fun N => (getNBasis (some pr.nBasis) defaultNBasis fuel N).getD (0, 0)) {out : List ZEv × Py (ZState ZU (List (List ℂ)) (List ℝ))}
    (hout : out = match (zTable lib.jv).lookup args.problem with
        | none => zLoop (.error .attributeError) (fun _ => .error .attributeError) args.z1cheat
            (fun _ _ => .error .attributeError) zRelV (zRelU iter) {} Ns
        | some zp => zLoop (.ok (zmExpected zp args.boundary)) (fun _ => zmOde lib zp args.boundary) args.z1cheat
            (zmSolve iter lib zp args.boundary r args.order args.acheat size) zRelV (zRelU iter) {} Ns) :
    runzMain iter lib fuel args =
      some ((optionLines args.toRunArgs pr.k (getM1 none pr.m1Dict args.boundary) Ns size).map .opt ++ out.1.map .run,
        out.2.map fun _ => ()) := by
  have hm : (Ns.mapM fun N => (getNBasis (some pr.nBasis) defaultNBasis fuel N).map fun v => (N, v)) =
      some (Ns.map fun N => (N, size N)) := by
    refine mapM_some fun N hN => ?_
    obtain ⟨v, hv⟩ := hsz N hN
    rw [hsize]
    simp only [hv, Option.map_some, Option.getD_some]
  unfold runzMain
  rw [hpr, hname]
  simp only
  rw [hNs]
  simp only [Option.bind_eq_bind, Option.bind_some]
  rw [hm]
  simp only [Option.bind_some]
  rw [← hsize, printOptions_eq, hout]
  rfl

/-- the number printed for three arrays `v` / three solutions `u` (`none`: `inf` or `nan`) -/
noncomputable def printedV (N : ℤ) (x y z : List (List ℂ)) : Option ℝ :=
  match nanOpt (zRelV N x y z) with
  | .ok ρ => ρ
  | .error _ => none

noncomputable def printedU (iter : Iter) (N : ℤ) (x y z : ZU) : Option ℝ :=
  match nanOpt (zRelU iter N x y z) with
  | .ok ρ => ρ
  | .error _ => none

/-- the records of the tables -/
theorem z_record {jv : ℝ → ℝ → ℝ} {name : String} {zp : ZProblem} (h : (zTable jv).lookup name = some zp) :
    problemTable.lookup name = some (zProblem zp.k) ∧ (zp.k = ihK ∨ zp.k = quadK) ∧ zp.isIz = (name == "iz-bessel") := by
  have hmem : ∀ l : List (String × ZProblem), l.lookup name = some zp → (name, zp) ∈ l := by
    intro l
    induction l with
    | nil => intro h; simp at h
    | cons p l ih =>
      obtain ⟨a, c⟩ := p
      intro h
      rw [List.lookup_cons] at h
      split at h
      · rename_i he
        rw [beq_iff_eq] at he
        cases h
        rw [he]; exact List.mem_cons_self
      · exact List.mem_cons_of_mem _ (ih h)
  have := hmem _ h
  simp only [zTable, List.mem_cons, Prod.mk.injEq, List.not_mem_nil, or_false] at this
  rcases this with ⟨rfl, rfl⟩ | ⟨rfl, rfl⟩ | ⟨rfl, rfl⟩
  exacts [⟨rfl, .inl rfl, rfl⟩, ⟨rfl, .inl rfl, rfl⟩, ⟨rfl, .inr rfl, rfl⟩]

/-- **C90** `runz.py` for the three problems of the z-method, every boundary (for the cubic one assuming no node of the grids lies on
the curve), both orders and every starting size of `Window`, with and without the two options for cheating: with library functions
as assumed it raises no exception and prints the options and, for each of the grids `N, 2N, …`, the lines of the report: the error of
`v`, the comparison of the last three arrays `v`, the rate of the last two errors, and the same for `u`, whose error is printed for
`iz-bessel` only.  The ODE is solved at most once.  What the printed errors and solutions are is `ZGridOutcome`; the comparisons are
the binary logarithms of the quotients of the largest differences at the common nodes. -/
theorem C90_z {iter : Iter} (hit : IsIter iter) {lib : ZLib} (hl : GoodLib lib) {args : RunzArgs} (ho : args.order = 2 ∨ args.order = 4)
    {r : ℝ → ℝ} (hname : chooseBoundary args.boundary = .ok r) {zp : ZProblem} (hzp : (zTable lib.jv).lookup args.problem = some zp)
    (hw : Window args.N) (hoff : args.boundary = "cubic" → ∀ i : ℕ, OffCurve r (args.N * 2 ^ i))
    (hJ : ∀ m : ℕ, (if args.acheat then zp.isIz = false ∧ 1 ≤ m ∧ m ≤ 7
      else 7 < m ∧ m ≤ if args.boundary = "arc" then 7 else 200) → lib.jv (m * (4 / 7)) (zp.k * 2.3) ≠ 0) :
    ∃ (Ns : List ℤ) (size : ℤ → ℕ × ℕ) (z1 : List ℝ) (res : ℤ → ZResult ZU (List (List ℂ))) (fuel0 : ℕ),
      (∀ fuel, fuel0 ≤ fuel → getNList fuel args.N args.c = some Ns ∧
        (∀ N ∈ Ns, getNBasis (some singNBasis) defaultNBasis fuel N = some (size N)) ∧
        runzMain iter lib fuel args = some ((optionLines args.toRunArgs zp.k (if args.boundary = "arc" then 7 else 200) Ns size).map .opt ++
          (zReport printedV (printedU iter) res Ns).map .run, .ok ())) ∧
      z1.length = 7 ∧ (if args.z1cheat then z1 = zmExpected zp args.boundary else zmOde lib zp args.boundary = .ok z1) ∧
      (∀ N ∈ Ns, ((res N).u.1.1 : ℤ) + 1 = N ∧ (res N).uError.isSome = (args.problem == "iz-bessel") ∧ ∃ ev, (res N).vError = some ev ∧
        ZGridOutcome iter lib zp args.boundary r args.order args.acheat z1 (size N) (res N).v ev (res N).u.1.2 (res N).uError) ∧
      ∀ q : ℕ, (q : ℤ) ∈ Ns → (2 * q : ℤ) ∈ Ns → (4 * q : ℤ) ∈ Ns →
        IsPrintedRate (polarDiff q (rowEntry (res (2 * q)).v) (rowEntry (res q).v))
          (polarDiff (2 * q) (rowEntry (res (4 * q)).v) (rowEntry (res (2 * q)).v))
          (printedV (4 * q) (res (4 * q)).v (res (2 * q)).v (res q).v) ∧
        IsPrintedRate (nestedDiff probAD probA r q (res (2 * q)).u.1.2 (res q).u.1.2)
          (nestedDiff probAD probA r (2 * q) (res (4 * q)).u.1.2 (res (2 * q)).u.1.2)
          (printedU iter (4 * q) (res (4 * q)).u (res (2 * q)).u (res q).u) := by
  have T := chooseBoundary_tame hname
  have h16 := hw.ge
  obtain ⟨hlook, hk, hiz⟩ := z_record hzp
  have hnz : ∀ n, NoZeroEig n args.order probAD zp.k := by
    intro n
    rcases hk with h | h <;> rw [h]
    · exact (C78_shipped n ho).2.1
    · exact (C78_shipped n ho).2.2.1
  -- the grids and the sizes
  obtain ⟨f1, Ns, hNs1⟩ := getNList_ends (N := args.N) (by omega) args.c
  have hwin := window_list hw hNs1
  obtain ⟨f2, hf2⟩ := sizes_end (d := singNBasis) Ns fun N hN => ((C59_shipped N).2.2).2 (hwin N hN)
  set fuel0 := max f1 f2 with hfuel0
  set size : ℤ → ℕ × ℕ := fun N => (getNBasis (some singNBasis) defaultNBasis fuel0 N).getD (0, 0) with hsize
  have hsz : ∀ N ∈ Ns, getNBasis (some singNBasis) defaultNBasis fuel0 N = some (size N) := by
    intro N hN
    obtain ⟨v, hv⟩ := hf2 fuel0 (by omega) N hN
    rw [hsize]
    simp only [hv, Option.getD_some]
  -- the coefficients
  obtain ⟨z1, hz1, hlen⟩ : ∃ z1 : List ℝ, (if args.z1cheat then z1 = zmExpected zp args.boundary else zmOde lib zp args.boundary = .ok z1) ∧
      z1.length = 7 := by
    rcases hc : args.z1cheat with _ | _
    · simpa using zmOde_ok hl zp args.boundary
    · refine ⟨zmExpected zp args.boundary, by rw [if_pos rfl], ?_⟩
      unfold zmExpected zExpectedZ1
      rw [List.length_take, arcDstR_length]
      rfl
  -- every grid
  have hgrid : ∀ N ∈ Ns, ∃ (x : ZResult ZU (List (List ℂ))),
      zmSolve iter lib zp args.boundary r args.order args.acheat size N z1 = .ok x ∧
      (∀ nd, nd ∈ x.u.2.s.G.Mplus ↔ nd ∈ Interior probAD probA r N.toNat) ∧ (x.u.1.1 : ℤ) + 1 = N ∧
      x.uError.isSome = zp.isIz ∧ ∃ ev, x.vError = some ev ∧
      ZGridOutcome iter lib zp args.boundary r args.order args.acheat z1 (size N) x.v ev x.u.1.2 x.uError := by
    intro N hN
    have hg := (hwin N hN).ge
    obtain ⟨n, rfl⟩ : ∃ n : ℕ, N = (n : ℤ) + 1 := ⟨(N - 1).toNat, by omega⟩
    have hoffN : args.boundary = "cubic" → OffCurve r ((n : ℤ) + 1) := by
      intro h2
      rcases hc : args.c with _ | c
      · rw [hc] at hNs1
        cases hNs1
        have := hoff h2 0
        rw [pow_zero, mul_one] at this
        rw [List.mem_singleton] at hN
        rw [hN]; exact this
      · rw [hc] at hNs1
        obtain ⟨-, i, hi⟩ := ((C62_list (by omega) hNs1).1 _).1 hN
        rw [hi]; exact hoff h2 i
    obtain ⟨hp, hq⟩ := sing_sizes (hsz _ hN)
    obtain ⟨v, ev, m, u, eu, k1, k2, k3, k4⟩ := z_pass hit hl.brentq hl.fit hl.lstsq hl.interp hl.spsolve ho (n := n) (by omega) hname
      (hnz n) hoffN hJ (z1 := z1) (by omega) (size := size) hp hq
    refine ⟨_, k1, ?_, rfl, k3, ev, rfl, k4⟩
    rw [show ((n : ℤ) + 1).toNat = n + 1 by omega]
    exact k2
  -- a solver object to fill the gaps
  have hne : ∃ m : MainSolver, True := by
    obtain ⟨m, -⟩ := smooth_pass hit hl.brentq hl.fit hl.lstsq (order := 2) (.inl rfl) (n := 15) (by norm_num) (bname := "arc") rfl
      (name := "smooth-sine") (ex := fun _ _ => 0) (φ := fun _ _ => 0) (src := zeroSource) (fun _ _ => rfl)
      (.inl ⟨rfl, by decide⟩) (fun _ _ _ => rfl) (fun h => absurd h (by decide)) (nB := smoothNBasis) (m1 := none)
      (size := fun _ => (1, 1)) le_rfl le_rfl
    exact ⟨m, trivial⟩
  obtain ⟨m0, -⟩ := hne
  have hall : ∀ N : ℤ, ∃ (x : ZResult ZU (List (List ℂ))), N ∈ Ns →
      zmSolve iter lib zp args.boundary r args.order args.acheat size N z1 = .ok x ∧
      (∀ nd, nd ∈ x.u.2.s.G.Mplus ↔ nd ∈ Interior probAD probA r N.toNat) ∧ (x.u.1.1 : ℤ) + 1 = N ∧
      x.uError.isSome = zp.isIz ∧ ∃ ev, x.vError = some ev ∧
      ZGridOutcome iter lib zp args.boundary r args.order args.acheat z1 (size N) x.v ev x.u.1.2 x.uError := by
    intro N
    by_cases hN : N ∈ Ns
    · obtain ⟨x, h⟩ := hgrid N hN
      exact ⟨x, fun _ => h⟩
    · exact ⟨{ v := [], vError := none, u := (⟨0, fun _ _ => 0⟩, m0), uError := none }, fun h => absurd h hN⟩
  choose res hres using hall
  -- the comparisons
  have hcomp : ∀ q : ℕ, (q : ℤ) ∈ Ns → (2 * q : ℤ) ∈ Ns → (4 * q : ℤ) ∈ Ns →
      (nanOpt (zRelV (4 * q) (res (4 * q)).v (res (2 * q)).v (res q).v) = .ok (printedV (4 * q) (res (4 * q)).v (res (2 * q)).v (res q).v) ∧
       nanOpt (zRelU iter (4 * q) (res (4 * q)).u (res (2 * q)).u (res q).u) =
        .ok (printedU iter (4 * q) (res (4 * q)).u (res (2 * q)).u (res q).u)) ∧
      IsPrintedRate (polarDiff q (rowEntry (res (2 * q)).v) (rowEntry (res q).v))
          (polarDiff (2 * q) (rowEntry (res (4 * q)).v) (rowEntry (res (2 * q)).v))
          (printedV (4 * q) (res (4 * q)).v (res (2 * q)).v (res q).v) ∧
      IsPrintedRate (nestedDiff probAD probA r q (res (2 * q)).u.1.2 (res q).u.1.2)
          (nestedDiff probAD probA r (2 * q) (res (4 * q)).u.1.2 (res (2 * q)).u.1.2)
          (printedU iter (4 * q) (res (4 * q)).u (res (2 * q)).u (res q).u) := by
    intro q g1 g2 g4
    have hq := (hwin _ g1).ge
    obtain ⟨-, k3, k4, -, _, -, l4⟩ := hres _ g4
    obtain ⟨-, -, k4', -, _, -, l2⟩ := hres _ g2
    obtain ⟨-, -, k4'', -, _, -, l1⟩ := hres _ g1
    obtain ⟨_, _, _, _, _, ⟨l4, -⟩, -⟩ := l4
    obtain ⟨_, _, _, _, _, ⟨l2, -⟩, -⟩ := l2
    obtain ⟨_, _, _, _, _, ⟨l1, -⟩, -⟩ := l1
    rw [show (4 * (q : ℤ)).toNat = 4 * q by omega] at k3
    obtain ⟨ρ, h1, h2⟩ := C89_rate hit T (q := q) (by omega) (n0 := (res (4 * q)).u.1.1) (n1 := (res (2 * q)).u.1.1)
      (n2 := (res q).u.1.1) (by omega) (by omega) (by omega) k3 (res (4 * q)).u.1.2 (res (2 * q)).u.1.2 (res q).u.1.2
    have h1' : nanOpt (zRelU iter (4 * q) (res (4 * q)).u (res (2 * q)).u (res q).u) = .ok ρ := h1
    obtain ⟨ρ', h3, h4⟩ := C90_vrate (q := q) (by omega) (v0 := (res (4 * q)).v) (v1 := (res (2 * q)).v) (v2 := (res q).v) (by omega)
      (by omega) (by omega)
    have e1 : printedU iter (4 * q) (res (4 * q)).u (res (2 * q)).u (res q).u = ρ := by
      unfold printedU
      rw [h1']
    have e2 : printedV (4 * q) (res (4 * q)).v (res (2 * q)).v (res q).v = ρ' := by
      unfold printedV
      rw [h3]
    rw [e1, e2]
    exact ⟨⟨h3, h1'⟩, h4, h2⟩
  have hhist : ∀ i < Ns.length, ∀ r1 r2 rest, ((Ns.take i).map res).reverse = r1 :: r2 :: rest →
      ∃ q : ℕ, Ns.getD i 0 = 4 * q ∧ (q : ℤ) ∈ Ns ∧ (2 * q : ℤ) ∈ Ns ∧ (4 * q : ℤ) ∈ Ns ∧ r1 = res (2 * q) ∧ r2 = res q := by
    intro i hi r1 r2 rest hh
    rcases hc : args.c with _ | c
    · rw [hc] at hNs1
      cases hNs1
      have := congrArg List.length hh
      simp only [List.length_reverse, List.length_map, List.length_take, List.length_cons, List.length_nil] at this
      omega
    · rw [hc] at hNs1
      obtain ⟨q, e1, g1, g2, g4, e2, e3⟩ := nested_map (by omega) hNs1 res hi hh
      have := (hwin _ g1).ge
      obtain ⟨p, rfl⟩ : ∃ p : ℕ, q = (p : ℤ) := ⟨q.toNat, by omega⟩
      exact ⟨p, e1, g1, g2, g4, e2, e3⟩
  refine ⟨Ns, size, z1, res, fuel0, fun fuel hf => ?_, hlen, hz1, fun N hN => ?_, fun q g1 g2 g4 => (hcomp q g1 g2 g4).2⟩
  · have hNs := getNList_mono (fuel' := fuel) (by omega) hNs1
    have hsz' : ∀ N ∈ Ns, getNBasis (some singNBasis) defaultNBasis fuel N = some (size N) := fun N hN =>
      nBasis_mono hf (hsz N hN)
    refine ⟨hNs, hsz', ?_⟩
    set size' : ℤ → ℕ × ℕ := fun N => (getNBasis (some (zProblem zp.k).nBasis) defaultNBasis fuel N).getD (0, 0) with hsize'
    have hss : ∀ N ∈ Ns, size' N = size N := by
      intro N hN
      show (getNBasis (some singNBasis) defaultNBasis fuel N).getD (0, 0) = size N
      rw [hsz' N hN, Option.getD_some]
    obtain ⟨s, hs, -⟩ := C53_C63_runz (expected := .ok (zmExpected zp args.boundary)) (ode := fun _ => zmOde lib zp args.boundary)
      (cheat := args.z1cheat) (solve := zmSolve iter lib zp args.boundary r args.order args.acheat size') (relV := zRelV)
      (relU := zRelU iter) (rateV := printedV) (rateU := printedU iter) (Ns := Ns) (res := res) (z := z1) rfl hz1
      (fun N hN => (zmSolve_congr (hss N hN) z1).trans (hres N hN).1)
      (fun i hi r1 r2 rest hh => by
        obtain ⟨q, e1, g1, g2, g4, rfl, rfl⟩ := hhist i hi r1 r2 rest hh
        rw [e1]
        exact (hcomp q g1 g2 g4).1.1)
      (fun i hi r1 r2 rest hh => by
        obtain ⟨q, e1, g1, g2, g4, rfl, rfl⟩ := hhist i hi r1 r2 rest hh
        rw [e1]
        exact (hcomp q g1 g2 g4).1.2)
      (.inl fun N hN => by
        obtain ⟨-, -, -, -, ev, h, -⟩ := hres N hN
        rw [h]; rfl)
      (by
        rcases hi : zp.isIz with _ | _
        · refine .inr fun N hN => ?_
          obtain ⟨-, -, -, h, -⟩ := hres N hN
          rw [hi] at h
          simpa using h
        · refine .inl fun N hN => ?_
          obtain ⟨-, -, -, h, -⟩ := hres N hN
          rw [hi] at h
          exact h)
    rw [runzMain_eq hlook hname hNs (fun N hN => ⟨_, hsz' N hN⟩) hsize' (out := (zReport printedV (printedU iter) res Ns, .ok s)) (by
      rw [hzp]
      exact hs.symm)]
    have hopt : optionLines args.toRunArgs (zProblem zp.k).k (getM1 none (zProblem zp.k).m1Dict args.boundary) Ns size' =
        optionLines args.toRunArgs zp.k (if args.boundary = "arc" then 7 else 200) Ns size := by
      rw [show (zProblem zp.k).m1Dict = some singM1 from rfl, z_m1 hname]
      unfold optionLines
      rw [List.map_congr_left fun N hN => by
        show MainEv.basis N (size' N) = MainEv.basis N (size N)
        rw [hss N hN]]
      rfl
    rw [hopt]
    rfl
  · obtain ⟨-, -, k1, k2, k3⟩ := hres N hN
    exact ⟨k1, by rw [k2, hiz], k3⟩

/-- **C90** `runz.py` for a problem without the attribute `g` (the three smooth problems): the options and the heading of the first
grid are printed, then an AttributeError is raised. -/
theorem C90_smooth (iter : Iter) (lib : ZLib) {args : RunzArgs} {r : ℝ → ℝ} (hname : chooseBoundary args.boundary = .ok r) {pr : RunProblem}
    (hpr : (args.problem, pr) ∈ problemTable) (hzp : (zTable lib.jv).lookup args.problem = none) (hw : Window args.N)
    (hc : ∀ c, args.c = some c → args.N ≤ c) :
    ∃ (Ns : List ℤ) (size : ℤ → ℕ × ℕ) (fuel0 : ℕ), ∀ fuel, fuel0 ≤ fuel → getNList fuel args.N args.c = some (args.N :: Ns) ∧
      (∀ N ∈ args.N :: Ns, getNBasis (some smoothNBasis) defaultNBasis fuel N = some (size N)) ∧
      runzMain iter lib fuel args =
        some ((optionLines args.toRunArgs (27 / 4) 7 (args.N :: Ns) size).map .opt ++ [.run (.grid args.N)], .error .attributeError) := by
  have h16 := hw.ge
  obtain ⟨hlook, hk, hd, hm1⟩ : problemTable.lookup args.problem = some pr ∧ pr.k = 27 / 4 ∧ pr.nBasis = smoothNBasis ∧ pr.m1Dict = none := by
    simp only [problemTable, List.mem_cons, Prod.mk.injEq, List.not_mem_nil, or_false] at hpr
    rcases hpr with ⟨h, rfl⟩ | ⟨h, rfl⟩ | ⟨h, rfl⟩ | ⟨h, rfl⟩ | ⟨h, rfl⟩ | ⟨h, rfl⟩ <;> rw [h] at hzp ⊢
    · exact ⟨rfl, rfl, rfl, rfl⟩
    · exact ⟨rfl, rfl, rfl, rfl⟩
    · exact ⟨rfl, rfl, rfl, rfl⟩
    all_goals cases hzp
  obtain ⟨f1, Ms, hNs1⟩ := getNList_ends (N := args.N) (by omega) args.c
  have hwin := window_list hw hNs1
  obtain ⟨Ns, rfl⟩ : ∃ Ns, Ms = args.N :: Ns := by
    rcases hc' : args.c with _ | c
    · rw [hc'] at hNs1; cases hNs1; exact ⟨[], rfl⟩
    · rw [hc'] at hNs1
      have hmem := ((C62_list (by omega) hNs1).1 args.N).2 ⟨hc c hc', 0, by simp⟩
      have hfirst := (C62_list (by omega) hNs1).2.1
      rcases Ms with _ | ⟨M, Ms⟩
      · simp at hmem
      · refine ⟨Ms, ?_⟩
        obtain ⟨-, i, hi⟩ := ((C62_list (by omega) hNs1).1 M).1 List.mem_cons_self
        have h1 : args.N * 1 ≤ args.N * 2 ^ i := by
          have : (1 : ℤ) ≤ 2 ^ i := by exact_mod_cast Nat.one_le_two_pow
          gcongr
        have h2 := (List.pairwise_cons.1 hfirst).1
        rcases List.mem_cons.1 hmem with h | h
        · rw [h]
        · have := h2 _ h
          omega
  obtain ⟨f2, hf2⟩ := sizes_end (d := smoothNBasis) (args.N :: Ns) fun N hN => ((C59_shipped N).2.1).2 (hwin N hN)
  set fuel0 := max f1 f2 with hfuel0
  refine ⟨Ns, fun N => (getNBasis (some smoothNBasis) defaultNBasis fuel0 N).getD (0, 0), fuel0, fun fuel hf => ?_⟩
  have hNs := getNList_mono (fuel' := fuel) (by omega) hNs1
  have hsz' : ∀ N ∈ args.N :: Ns, getNBasis (some smoothNBasis) defaultNBasis fuel N =
      some ((getNBasis (some smoothNBasis) defaultNBasis fuel0 N).getD (0, 0)) := by
    intro N hN
    obtain ⟨v, hv⟩ := hf2 fuel0 (by omega) N hN
    rw [hv, Option.getD_some]
    exact nBasis_mono hf hv
  refine ⟨hNs, hsz', ?_⟩
  rw [runzMain_eq hlook hname hNs (fun N hN => by rw [hd]; exact ⟨_, hsz' N hN⟩) rfl (out := ([.grid args.N], .error .attributeError)) (by
    rw [hzp]
    simp only [zLoop, zStep]
    rfl)]
  rw [hk, hm1, hd]
  have hopt : optionLines args.toRunArgs (27 / 4) (getM1 none none args.boundary) (args.N :: Ns)
      (fun N => (getNBasis (some smoothNBasis) defaultNBasis fuel N).getD (0, 0)) =
        optionLines args.toRunArgs (27 / 4) 7 (args.N :: Ns)
          (fun N => (getNBasis (some smoothNBasis) defaultNBasis fuel0 N).getD (0, 0)) := by
    unfold optionLines
    rw [List.map_congr_left fun N hN => by
      show MainEv.basis N ((getNBasis (some smoothNBasis) defaultNBasis fuel N).getD (0, 0)) =
        MainEv.basis N ((getNBasis (some smoothNBasis) defaultNBasis fuel0 N).getD (0, 0))
      rw [hsz' N hN, Option.getD_some]]
    rfl
  rw [hopt]
  rfl

/-- **C90** for every other starting size, unless the list of grids is empty, `runz.py` never ends. -/
theorem C90_endless (iter : Iter) (lib : ZLib) (fuel : ℕ) {args : RunzArgs} {pr : RunProblem}
    (hpr : (args.problem, pr) ∈ problemTable) {r : ℝ → ℝ} (hname : chooseBoundary args.boundary = .ok r) (hw : ¬ Window args.N)
    (hc : ∀ c, args.c = some c → args.N ≤ c) : runzMain iter lib fuel args = none := by
  obtain ⟨hlook, hd⟩ : problemTable.lookup args.problem = some pr ∧ (pr.nBasis = smoothNBasis ∨ pr.nBasis = singNBasis) := by
    simp only [problemTable, List.mem_cons, Prod.mk.injEq, List.not_mem_nil, or_false] at hpr
    rcases hpr with ⟨h, rfl⟩ | ⟨h, rfl⟩ | ⟨h, rfl⟩ | ⟨h, rfl⟩ | ⟨h, rfl⟩ | ⟨h, rfl⟩ <;> rw [h]
    exacts [⟨rfl, .inl rfl⟩, ⟨rfl, .inl rfl⟩, ⟨rfl, .inl rfl⟩, ⟨rfl, .inr rfl⟩, ⟨rfl, .inr rfl⟩, ⟨rfl, .inr rfl⟩]
  have hnone : getNBasis (some pr.nBasis) defaultNBasis fuel args.N = none := by
    by_contra hne
    obtain ⟨v, hv⟩ := Option.ne_none_iff_exists'.1 hne
    obtain ⟨-, h2, h3⟩ := C59_shipped args.N
    rcases hd with h | h <;> rw [h] at hv
    exacts [hw (h2.1 ⟨fuel, v, hv⟩), hw (h3.1 ⟨fuel, v, hv⟩)]
  unfold runzMain
  rw [hlook, hname]
  simp only
  rcases hNs : getNList fuel args.N args.c with _ | Ns
  · rfl
  · have hmem : args.N ∈ Ns := by
      rcases hc' : args.c with _ | c
      · rw [hc'] at hNs; cases hNs; simp
      · rw [hc'] at hNs
        rcases (C62_terminates args.N c).1 ⟨fuel, Ns, hNs⟩ with h1 | h1
        · exact ((C62_list h1 hNs).1 _).2 ⟨hc c hc', 0, by simp⟩
        · exact absurd (hc c hc') (by omega)
    have hm : (Ns.mapM fun N => (getNBasis (some pr.nBasis) defaultNBasis fuel N).map fun v => (N, v)) = none :=
      mapM_none (x := args.N) hmem (by rw [hnone]; rfl)
    simp only [Option.bind_eq_bind, Option.bind_some]
    rw [hm]
    rfl

/-- **C90** with a largest size below the starting size there are no grids: only the options are printed, for every problem. -/
theorem C90_empty (iter : Iter) (lib : ZLib) (fuel : ℕ) {args : RunzArgs} {pr : RunProblem}
    (hpr : problemTable.lookup args.problem = some pr) {r : ℝ → ℝ} (hname : chooseBoundary args.boundary = .ok r) {c : ℤ}
    (hc : args.c = some c) (hlt : c < args.N) (size : ℤ → ℕ × ℕ) : runzMain iter lib (fuel + 1) args =
      some ((optionLines args.toRunArgs pr.k (getM1 none pr.m1Dict args.boundary) [] size).map .opt, .ok ()) := by
  have hNs : getNList (fuel + 1) args.N args.c = some [] := by rw [hc]; exact C62_empty fuel hlt
  rw [runzMain_eq hpr hname hNs (fun N hN => by simp at hN) rfl (out := ([], .ok {})) (by
    rcases (zTable lib.jv).lookup args.problem with _ | zp <;> rfl)]
  simp only [List.map_nil, List.append_nil, optionLines]
  rfl

/-- **C90** a name that is not in the tables -/
theorem C90_unknown (iter : Iter) (lib : ZLib) (fuel : ℕ) (args : RunzArgs) :
    (problemTable.lookup args.problem = none → runzMain iter lib fuel args = some ([], .error .keyError)) ∧
    ∀ pr e, problemTable.lookup args.problem = some pr → chooseBoundary args.boundary = .error e →
      runzMain iter lib fuel args = some ([], .error e) := by
  refine ⟨fun h => ?_, fun pr e h1 h2 => ?_⟩
  · unfold runzMain; rw [h]
  · unfold runzMain; rw [h1, h2]

/-! ## Concrete cases -/

/-- library functions as assumed -/
theorem exists_goodLib (jv : ℝ → ℝ → ℝ) : ∃ lib : ZLib, GoodLib lib ∧ lib.jv = jv := by
  obtain ⟨b, hb⟩ := exists_brentq
  obtain ⟨fit, hfit⟩ := exists_chebfit
  obtain ⟨lstsq, hlsq⟩ := exists_isLstsq
  exact ⟨⟨jv, fun _ y _ _ => .ok y, fun _ b => b, lookupInterp, fit, lstsq, b⟩,
    ⟨hb, hfit, hlsq, lookupInterp_spec, fun _ _ => rfl, fun _ y _ _ _ _ _ => ⟨y, rfl, rfl⟩⟩, rfl⟩

/-- `runz.py iz-bessel outer-sine -N 16 -c 64`: three grids; errors, rates and comparisons of `v` and of `u` are printed. -/
example : ∃ (lib : ZLib) (fuel : ℕ) (e0 e1 e2 d0 d1 d2 : ℝ) (rv ru : Option ℝ),
    runzMain (fun _ s => s.toList) lib fuel { problem := "iz-bessel", boundary := "outer-sine", c := some 64 } = some (
      [.opt (.heading "iz-bessel" "outer-sine"), .opt (.order 4), .opt (.k (27 / 4)), .opt (.radius 2.3), .opt (.angle (π / 4)),
        .opt (.bet (bet0 "outer-sine")), .opt (.side (2 * π)), .opt (.m1 200), .opt (.basis 16 (25, 5)), .opt (.basis 32 (30, 20)),
        .opt (.basis 64 (40, 30)),
        .run (.grid 16), .run (.vError e0), .run (.uError d0),
        .run (.grid 32), .run (.vError e1), .run (.vConv (logQuot e0 e1)), .run (.uError d1), .run (.uConv (logQuot d0 d1)),
        .run (.grid 64), .run (.vError e2), .run (.vRel rv), .run (.vConv (logQuot e1 e2)), .run (.uError d2), .run (.uRel ru),
        .run (.uConv (logQuot d1 d2))], .ok ()) := by
  obtain ⟨lib, hl, hjv⟩ := exists_goodLib fun _ _ => 1
  obtain ⟨Ns, size, z1, res, fuel0, h, -, -, hres, -⟩ := C90_z isIter_toList hl
    (args := { problem := "iz-bessel", boundary := "outer-sine", c := some 64 }) (.inr rfl) rfl (zp := izBessel lib.jv) rfl
    ⟨0, by norm_num, by norm_num⟩ (fun h => absurd h (by decide)) (fun m _ => by rw [hjv]; exact one_ne_zero)
  obtain ⟨hNs, hsz, hrun⟩ := h (fuel0 + 4) (by omega)
  have hNs' : Ns = [16, 32, 64] := by
    have h4 : getNList 4 16 (some 64) = some [16, 32, 64] := by decide
    have := getNList_mono (fuel' := fuel0 + 4) (by omega) h4
    exact Option.some.inj (hNs.symm.trans this)
  subst hNs'
  have hs : ∀ N ∈ [(16 : ℤ), 32, 64], ∀ v, singNBasis N = some v → size N = v := by
    intro N hN v hv
    have h1 : nBasisLoop singNBasis (fuel0 + 4) N = some v := by
      rw [C59_loop]
      exact ⟨0, by omega, by simpa using hv, fun j hj => by omega⟩
    have h2 : nBasisLoop singNBasis (fuel0 + 4) N = some (size N) := hsz N hN
    exact Option.some.inj (h2.symm.trans h1)
  have s0 := hs 16 (by simp) (25, 5) (by decide)
  have s1 := hs 32 (by simp) (30, 20) (by decide)
  have s2 := hs 64 (by simp) (40, 30) (by decide)
  have herr : ∀ N ∈ [(16 : ℤ), 32, 64], ∃ e d, (res N).vError = some e ∧ (res N).uError = some d := by
    intro N hN
    obtain ⟨-, h1, e, h2, -⟩ := hres N hN
    obtain ⟨d, hd⟩ := Option.isSome_iff_exists.1 (h1.trans rfl)
    exact ⟨e, d, h2, hd⟩
  obtain ⟨e0, d0, a0, b0⟩ := herr 16 (by simp)
  obtain ⟨e1, d1, a1, b1⟩ := herr 32 (by simp)
  obtain ⟨e2, d2, a2, b2⟩ := herr 64 (by simp)
  refine ⟨lib, fuel0 + 4, e0, e1, e2, d0, d1, d2, printedV 64 (res 64).v (res 32).v (res 16).v,
    printedU (fun _ s => s.toList) 64 (res 64).u (res 32).u (res 16).u, ?_⟩
  rw [hrun]
  have hrep : zReport printedV (printedU fun _ s => s.toList) res [16, 32, 64] =
      [.grid 16, .vError e0, .uError d0, .grid 32, .vError e1, .vConv (logQuot e0 e1), .uError d1, .uConv (logQuot d0 d1),
        .grid 64, .vError e2, .vRel (printedV 64 (res 64).v (res 32).v (res 16).v), .vConv (logQuot e1 e2), .uError d2,
        .uRel (printedU (fun _ s => s.toList) 64 (res 64).u (res 32).u (res 16).u), .uConv (logQuot d1 d2)] := by
    have step : zReport printedV (printedU fun _ s => s.toList) res [16, 32, 64] =
        (ZEv.grid 16 :: zLines .vError .vRel .vConv (printedV 16) [] (vPart (res 16))
          ++ zLines .uError .uRel .uConv (printedU (fun _ s => s.toList) 16) [] (uPart (res 16))) ++
        ((ZEv.grid 32 :: zLines .vError .vRel .vConv (printedV 32) [vPart (res 16)] (vPart (res 32))
          ++ zLines .uError .uRel .uConv (printedU (fun _ s => s.toList) 32) [uPart (res 16)] (uPart (res 32))) ++
        ((ZEv.grid 64 :: zLines .vError .vRel .vConv (printedV 64) [vPart (res 32), vPart (res 16)] (vPart (res 64))
          ++ zLines .uError .uRel .uConv (printedU (fun _ s => s.toList) 64) [uPart (res 32), uPart (res 16)] (uPart (res 64))) ++ [])) := rfl
    rw [step]
    simp only [zLines, vPart, uPart, a0, a1, a2, b0, b1, b2]
    rfl
  rw [hrep]
  unfold optionLines
  simp only [List.map_cons, List.map_nil, s0, s1, s2]
  rfl

/-- `runz.py smooth-sine arc`: the options, the first heading, an AttributeError; `-N 24` does not end; `-N 64 -c 32` prints no grid -/
example (iter : Iter) (lib : ZLib) :
    (∃ fuel size, runzMain iter lib fuel { problem := "smooth-sine", boundary := "arc" } =
      some ((optionLines { problem := "smooth-sine", boundary := "arc" } (27 / 4) 7 [16] size).map .opt ++ [.run (.grid 16)],
        .error .attributeError)) ∧
    (∀ fuel, runzMain iter lib fuel { problem := "iz-bessel", boundary := "arc", N := 24 } = none) ∧
    ∃ out, runzMain iter lib 1 { problem := "smooth-sine", boundary := "arc", N := 64, c := some 32 } =
      some (out, .ok ()) ∧ out.length = 8 := by
  refine ⟨?_, fun fuel => C90_endless iter lib fuel (pr := zProblem ihK) (by simp [problemTable]) rfl ?_ (fun c h => by cases h), ?_⟩
  · obtain ⟨Ns, size, fuel0, h⟩ := C90_smooth iter lib (args := { problem := "smooth-sine", boundary := "arc" }) rfl (pr := smoothSine)
      (by simp [problemTable]) rfl ⟨0, by norm_num, by norm_num⟩ (fun c h => by cases h)
    obtain ⟨h1, -, h3⟩ := h fuel0 le_rfl
    cases h1
    exact ⟨fuel0, size, h3⟩
  · rintro ⟨i, h1, h2⟩
    simp only at h1 h2
    have hp : (1 : ℤ) ≤ 2 ^ i := by exact_mod_cast Nat.one_le_two_pow
    rcases Nat.lt_or_ge i 1 with h | h
    · obtain rfl : i = 0 := by omega
      norm_num at h2
    · have : (2 : ℤ) ^ 1 ≤ 2 ^ i := by gcongr; norm_num
      omega
  · exact ⟨_, C90_empty iter lib 0 (pr := smoothSine) rfl rfl rfl (by norm_num) (fun _ => (0, 0)), rfl⟩

/-- three arrays `v` of zeros: the printed comparison is no number -/
example : nanOpt (zRelV 8 (List.replicate 9 []) (List.replicate 5 []) (List.replicate 3 [])) = .ok none := by
  obtain ⟨ρ, h1, h2⟩ := C90_vrate (q := 2) le_rfl (v0 := List.replicate 9 []) (v1 := List.replicate 5 []) (v2 := List.replicate 3 []) rfl rfl rfl
  rcases ρ with _ | x
  · exact h1
  · exfalso
    obtain ⟨M12, M01, hM, -, hpos, -⟩ := h2
    obtain ⟨⟨m, l, -, -, -, -, e⟩, -⟩ := hM
    have hz : ∀ (k : ℕ) m l, rowEntry (List.replicate k []) m l = 0 := by
      intro k m l
      unfold rowEntry
      have : (List.replicate k ([] : List ℂ)).getD m [] = [] := by
        rcases lt_or_ge m k with h | h
        · rw [List.getD_eq_getElem _ _ (by simpa using h), List.getElem_replicate]
        · rw [List.getD_eq_default _ _ (by simpa using h)]
      rw [this]
      rfl
    rw [hz, hz, sub_zero, norm_zero] at e
    exact hpos e

end Pot
