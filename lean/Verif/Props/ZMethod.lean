import Verif.Model.ZMethod
import Verif.Proofs.MapM
import Verif.Proofs.TwiceAt
import Verif.Props.PolarFD
import Verif.Props.Run
import Verif.Props.Fourier

/-!
# C68, C69, C70: the polar problem for `v`, its reported error, and the boundary data of the remaining problem
-/

namespace Pot
open Spec Real

/-! ## C68 -/

theorem zPhi0_ok (z1 : List ℝ) (gq : ℝ → ℝ → ℝ) (a nu arcR : ℝ) (M : ℕ) (th : ℝ) (h : M ≤ z1.length) :
    zPhi0 z1 gq a nu arcR M th
      = .ok ((∑ j ∈ Finset.range M, z1.getD j 0 * sin (((j : ℝ) + 1) * nu * (th - a))) + gq arcR th) := by
  have key : ∀ n, n ≤ z1.length → (List.range' 1 n).foldlM (init := (0 : ℝ)) (fun acc (m : ℕ) => (do
      let c ← listGet z1 (m - 1)
      return acc + c * sin (m * nu * (th - a)) : Py ℝ))
      = .ok (∑ j ∈ Finset.range n, z1.getD j 0 * sin (((j : ℝ) + 1) * nu * (th - a))) := by
    intro n
    induction n with
    | zero => intro _; rfl
    | succ n ih =>
      intro hn
      rw [List.range'_concat, List.foldlM_append, ih (by omega), ok_bind, List.foldlM_cons,
        listGet_of_lt _ _ (by omega), ok_bind, pure_eq_ok, ok_bind, List.foldlM_nil, Finset.sum_range_succ, pure_eq_ok]
      congr 2
      rw [List.getD_eq_getElem?_getD, List.getElem?_eq_getElem (by omega)]
      simp only [one_mul, Option.getD_some]
      congr 2
      · omega
      · push_cast; ring
  unfold zPhi0
  rw [key M h, ok_bind]
  rfl

/-- **C68** `do_z_BVP` fills `v` with a grid function that takes the prescribed values on all four sides of the polar rectangle
and satisfies the compact scheme without source at every inner node. -/
theorem C68_zbvp {spsolve : Spsolve} {z1 : List ℝ} {gq vSeries : ℝ → ℝ → ℝ} {phi1 phi2 : ℝ → ℝ} {k a nu R0 arcR : ℝ} {M N : ℕ}
    (hN : 1 ≤ N) (ha : a < 2 * π) (h0 : 0 < R0) (hR : R0 < arcR) (hz : M ≤ z1.length)
    (hsp : ∀ p s, pfInit N a nu R0 arcR = .ok p → pfSystem p (zData z1 gq vSeries phi1 phi2 k a nu R0 arcR M) = .ok s →
      PfSolves s (spsolve s.entries s.rhs)) :
    ∃ (p : PolarFD) (v : List (List ℂ)) (V : ℤ → ℤ → ℂ),
      doZBvp spsolve false z1 gq vSeries phi1 phi2 k a nu R0 arcR M N = .ok (p, v) ∧
      v.length = N + 1 ∧ (∀ row ∈ v, row.length = N + 1) ∧
      (∀ m : ℕ, p.getR m = R0 + m * ((arcR - R0) / N)) ∧ (∀ l : ℕ, p.getTh l = a + l * ((2 * π - a) / N)) ∧
      (∀ m l : ℕ, m ≤ N → l ≤ N → rowsGet v m l = .ok (V m l)) ∧
      (∀ m : ℕ, m ≤ N → V m 0 = (phi2 (p.getR m) : ℂ) ∧ V m N = (phi1 (p.getR m) : ℂ)) ∧
      (∀ l : ℕ, 0 < l → l < N → V 0 l = (vSeries R0 (p.getTh l) : ℂ) ∧
        V N l = (((∑ j ∈ Finset.range M, z1.getD j 0 * sin (((j : ℝ) + 1) * nu * (p.getTh l - a))) + gq arcR (p.getTh l) : ℝ) : ℂ)) ∧
      (∀ m l : ℕ, 0 < m → m < N → 0 < l → l < N →
        polarL4 ((arcR - R0) / N) ((2 * π - a) / N) k (fun m => R0 + m * ((arcR - R0) / N)) V m l = 0) := by
  have hN' : (0 : ℝ) < N := by exact_mod_cast hN
  set p : PolarFD := { N := N, a := a, nu := nu, R0 := R0, R1 := arcR, hr := (arcR - R0) / N, hth := (2 * π - a) / N } with hp
  have hinit : pfInit N a nu R0 arcR = .ok p := if_neg (by omega)
  have hhr : 0 < (arcR - R0) / N := div_pos (by linarith) hN'
  have hhth : 0 < (2 * π - a) / N := div_pos (by linarith) hN'
  set d := zData z1 gq vSeries phi1 phi2 k a nu R0 arcR M with hd
  obtain ⟨z, hzs, V, hV, hbc, hin⟩ := C48_solve spsolve p d hN hhr.ne' hhth.ne'
    (fun m _ => by
      have : 0 ≤ (m : ℝ) * ((arcR - R0) / N) := by positivity
      change R0 + (m : ℝ) * ((arcR - R0) / N) ≠ 0
      linarith)
    (fun s hs => hsp p s hinit hs)
  refine ⟨p, (List.range (N + 1)).map fun m : ℕ => (List.range (N + 1)).map fun l : ℕ => V m l, V, ?_, by simp, by simp,
    fun m => rfl, fun l => rfl, ?_, ?_, ?_, ?_⟩
  · unfold doZBvp zSolve
    rw [hinit, ok_bind, if_neg (by simp), if_neg (by omega), hzs, ok_bind, pure_eq_ok, ok_bind]
    simp only
    rw [mapM_ok (g := fun m : ℕ => (List.range (N + 1)).map fun l : ℕ => V m l)]
    · rfl
    · intro m hm
      rw [List.mem_range] at hm
      refine mapM_ok fun l hl => ?_
      rw [List.mem_range] at hl
      exact hV m l (by change m ≤ N; omega) (by change l ≤ N; omega)
  · intro m l hm hl
    unfold rowsGet
    rw [listGet_of_lt _ _ (by simp; omega), ok_bind, listGet_of_lt _ _ (by simp; omega)]
    simp
  · intro m hm
    refine ⟨?_, ?_⟩
    · have := hbc m 0 hm (Nat.zero_le _) (by simp)
      rw [polarBc, if_pos rfl] at this
      exact this
    · have := hbc m N hm (le_refl N) (by simp [hp])
      rw [polarBc, if_neg (by omega), if_pos rfl] at this
      exact this
  · intro l h1 h2
    refine ⟨?_, ?_⟩
    · have := hbc 0 l (Nat.zero_le _) h2.le (by simp)
      rw [polarBc, if_neg (by omega), if_neg (by change ¬ l = N; omega), if_pos rfl] at this
      exact this
    · have := hbc N l (le_refl N) h2.le (by simp [hp])
      rw [polarBc, if_neg (by omega), if_neg (by change ¬ l = N; omega), if_neg (by omega)] at this
      have e : d.phi0 (a + l * ((2 * π - a) / N))
          = match zPhi0 z1 gq a nu arcR M (a + l * ((2 * π - a) / N)) with
            | .ok x => (x : ℂ)
            | .error _ => 0 := rfl
      rw [zPhi0_ok _ _ _ _ _ _ _ hz] at e
      exact this.trans e
  · intro m l h1 h2 h3 h4
    have := hin m l h1 h2 h3 h4
    have e : fd4Rhs p d m l = 0 := by simp [fd4Rhs, hd, zData]
    rw [e] at this
    exact this

/-- **C68** when the coefficients are the sine coefficients of a function `v - (g + q)` on the outer circle with no more than `M`
modes, the values prescribed there are those of `v`. -/
theorem C68_arc {z1 : List ℝ} {gq v : ℝ → ℝ → ℝ} {a nu arcR : ℝ} {M : ℕ} (hz : M ≤ z1.length)
    (hv : ∀ th, v arcR th - gq arcR th = ∑ j ∈ Finset.range M, z1.getD j 0 * sin (((j : ℝ) + 1) * nu * (th - a))) (th : ℝ) :
    zPhi0 z1 gq a nu arcR M th = .ok (v arcR th) := by
  rw [zPhi0_ok _ _ _ _ _ _ _ hz, ← hv th]
  simp

/-- **C68** the other branches: `acheat` gives the zero array, no cells or too few coefficients an exception. -/
theorem C68_branches (spsolve : Spsolve) (z1 : List ℝ) (gq vSeries : ℝ → ℝ → ℝ) (phi1 phi2 : ℝ → ℝ) (k a nu R0 arcR : ℝ) (M N : ℕ) :
    (1 ≤ N → ∃ p v, doZBvp spsolve true z1 gq vSeries phi1 phi2 k a nu R0 arcR M N = .ok (p, v) ∧
      ∀ m l : ℕ, m ≤ N → l ≤ N → rowsGet v m l = .ok 0) ∧
    (∀ ac, doZBvp spsolve ac z1 gq vSeries phi1 phi2 k a nu R0 arcR M 0 = .error .zeroDivisionError) ∧
    (2 ≤ N → z1.length < M → doZBvp spsolve false z1 gq vSeries phi1 phi2 k a nu R0 arcR M N = .error .indexError) := by
  refine ⟨fun hN => ?_, fun _ => rfl, fun h1 h2 => ?_⟩
  · set p : PolarFD := { N := N, a := a, nu := nu, R0 := R0, R1 := arcR, hr := (arcR - R0) / N, hth := (2 * π - a) / N } with hp
    have hinit : pfInit N a nu R0 arcR = .ok p := if_neg (by omega)
    refine ⟨p, (List.range (N + 1)).map fun m : ℕ => (List.range (N + 1)).map fun l : ℕ => 0, ?_, fun m l hm hl => ?_⟩
    · unfold doZBvp zSolve
      rw [hinit, ok_bind, if_pos rfl, pure_eq_ok, ok_bind]
      simp only
      rw [mapM_ok (g := fun m : ℕ => (List.range (N + 1)).map fun l : ℕ => 0)]
      · rfl
      · intro m hm
        rw [List.mem_range] at hm
        refine mapM_ok fun l hl => ?_
        rw [List.mem_range] at hl
        have hi := (C48_index p).mapsTo (show ((m : ℤ), (l : ℤ)) ∈ _ from
          ⟨by omega, by change (m : ℤ) ≤ (N : ℤ); omega, by omega, by change (l : ℤ) ≤ (N : ℤ); omega⟩)
        unfold pfArray
        simp only
        rw [listGet_of_lt _ _ (by
          rw [List.length_replicate]
          have h2 := hi.2
          have h1 := hi.1
          change p.getIndex m l < ((N : ℤ) + 1) ^ 2 at h2
          zify
          rw [Int.toNat_of_nonneg h1]
          exact h2)]
        simp
    · unfold rowsGet
      rw [listGet_of_lt _ _ (by simp; omega), ok_bind, listGet_of_lt _ _ (by simp; omega)]
      simp
  · unfold doZBvp zSolve
    have hinit := show pfInit N a nu R0 arcR = .ok _ from if_neg (by omega)
    rw [hinit, ok_bind, if_neg (by simp), if_pos ⟨h1, h2⟩]
    rfl

/-! ## C69 -/

/-- the sine transform of the code recovers the coefficients of a sine sum -/
theorem dst1_sines {N : ℕ} (hN : 1 ≤ N) (b : ℕ → ℂ) (k : Fin (N - 1)) :
    dst1 (fun i : Fin (N - 1) => ∑ j ∈ Finset.range (N - 1), b j * ((sin (π * ((j : ℝ) + 1) * ((i : ℕ) + 1 : ℝ) / N) : ℝ) : ℂ)) k
      = N * b k := by
  have hNr : ((N - 1 : ℕ) : ℝ) + 1 = N := by
    have : ((N - 1 + 1 : ℕ) : ℝ) = (N : ℕ) := by congr 1; omega
    exact_mod_cast this
  unfold dst1
  rw [hNr]
  have hS : ∀ p i : ℕ, sin (π * ((p : ℝ) + 1) * ((i : ℝ) + 1) / N) = S (N - 1) p i := by
    intro p i; unfold S; rw [hNr]
  simp only [hS]
  rw [Fin.sum_univ_eq_sum_range (fun i => (∑ j ∈ Finset.range (N - 1), b j * ((S (N - 1) j i : ℝ) : ℂ)) * ((S (N - 1) k i : ℝ) : ℂ)) (N - 1)]
  simp only [Finset.sum_mul]
  rw [Finset.sum_comm]
  have : ∀ j ∈ Finset.range (N - 1), ∑ i ∈ Finset.range (N - 1), b j * ((S (N - 1) j i : ℝ) : ℂ) * ((S (N - 1) k i : ℝ) : ℂ)
      = if j = k then b j * (((N : ℝ) / 2 : ℝ) : ℂ) else 0 := by
    intro j hj
    rw [Finset.mem_range] at hj
    have ho := S_orth (N - 1) j k hj k.2
    have : ∑ i ∈ Finset.range (N - 1), b j * ((S (N - 1) j i : ℝ) : ℂ) * ((S (N - 1) k i : ℝ) : ℂ)
        = b j * ((∑ i ∈ Finset.range (N - 1), S (N - 1) j i * S (N - 1) k i : ℝ) : ℂ) := by
      push_cast
      rw [Finset.mul_sum]
      exact Finset.sum_congr rfl fun i _ => by ring
    rw [this, ho, hNr]
    split <;> simp
  rw [Finset.sum_congr rfl this, Finset.sum_ite_eq' , if_pos (Finset.mem_range.2 k.2)]
  push_cast
  ring

/-- **C69** `get_v_error`: if on every inner circle the error is the sine sum with coefficients `b m`, the number reported is the
largest modulus of the first `M` coefficients over all inner circles. -/
theorem C69_verror {p : PolarFD} {evalV : ℝ → ℝ → ℝ} {v : List (List ℂ)} {V : ℕ → ℕ → ℂ} {M N : ℕ} (hN : 2 ≤ N) (hM : 1 ≤ M)
    (hlen : v.length = N + 1) (hrow : ∀ row ∈ v, row.length = N + 1)
    (hv : ∀ m l : ℕ, m ≤ N → l ≤ N → rowsGet v m l = .ok (V m l)) (b : ℕ → ℕ → ℂ)
    (hb : ∀ m l : ℕ, 0 < m → m < N → 0 < l → l < N → (evalV (p.getR m) (p.getTh l) : ℂ) - V m l
      = ∑ j ∈ Finset.range (N - 1), b m j * ((sin (π * ((j : ℝ) + 1) * l / N) : ℝ) : ℂ)) :
    ∃ e, getVError p evalV v M N = .ok e ∧
      (∃ m j : ℕ, 0 < m ∧ m < N ∧ j < M ∧ j < N - 1 ∧ e = ‖b m j‖) ∧
      ∀ m j : ℕ, 0 < m → m < N → j < M → j < N - 1 → ‖b m j‖ ≤ e := by
  have hNC : (N : ℂ) ≠ 0 := by exact_mod_cast (by omega : N ≠ 0)
  have hfour : ∀ m : ℕ, 0 < m → m < N → ∃ e, ((do
      let r := p.getR m
      let row ← listGet v m
      let part := (row.drop 1).take (N - 1)
      if part.length ≠ N - 1 then throw .valueError
      else do
        let toDst : Fin (N - 1) → ℂ := fun i => (evalV r (p.getTh ((i : ℕ) + 1 : ℕ)) : ℂ) - part.getD i 0
        let fourier := ((List.ofFn (dst1 toDst)).take M).map fun x => x / (N : ℂ)
        pyMax (fourier.map fun x => ‖x‖) : Py ℝ)) = .ok e ∧
      (∃ j, j < M ∧ j < N - 1 ∧ e = ‖b m j‖) ∧ ∀ j, j < M → j < N - 1 → ‖b m j‖ ≤ e := by
    intro m h1 h2
    have hm : m < v.length := by omega
    have hrl : v[m].length = N + 1 := hrow _ (List.getElem_mem _)
    simp only
    rw [listGet_of_lt _ _ hm, ok_bind, if_neg (by simp [hrl])]
    have hd : (fun i : Fin (N - 1) => (evalV (p.getR m) (p.getTh ((i : ℕ) + 1 : ℕ)) : ℂ) - ((v[m].drop 1).take (N - 1)).getD i 0)
        = fun i : Fin (N - 1) => ∑ j ∈ Finset.range (N - 1), b m j * ((sin (π * ((j : ℝ) + 1) * ((i : ℕ) + 1 : ℝ) / N) : ℝ) : ℂ) := by
      funext i
      have hi := i.2
      have hvv := hv m (i + 1) (by omega) (by omega)
      unfold rowsGet at hvv
      rw [listGet_of_lt _ _ hm, ok_bind, listGet_of_lt _ _ (by omega)] at hvv
      have hvv' : v[m][(i : ℕ) + 1]'(by omega) = V m (i + 1) := by injection hvv
      have := hb m (i + 1) h1 h2 (by omega) (by omega)
      rw [List.getD_eq_getElem?_getD, List.getElem?_take, if_pos hi, List.getElem?_drop, Nat.add_comm 1,
        List.getElem?_eq_getElem (by omega), Option.getD_some, hvv', this]
      push_cast
      rfl
    rw [hd]
    set L := ((List.ofFn (dst1 fun i : Fin (N - 1) => ∑ j ∈ Finset.range (N - 1), b m j *
      ((sin (π * ((j : ℝ) + 1) * ((i : ℕ) + 1 : ℝ) / N) : ℝ) : ℂ))).take M).map (fun x => x / (N : ℂ)) |>.map fun x => ‖x‖ with hL
    have hLe : L = (List.range (min M (N - 1))).map fun j => ‖b m j‖ := by
      refine List.ext_getElem (by simp [hL]) fun j hj1 hj2 => ?_
      simp only [List.length_map, List.length_range] at hj2
      simp only [hL, List.getElem_map, List.getElem_take, List.getElem_ofFn, List.getElem_range]
      rw [dst1_sines (by omega) (b m)]
      rw [mul_div_cancel_left₀ _ hNC]
    have hmem : ∀ x, x ∈ L ↔ ∃ j, j < min M (N - 1) ∧ ‖b m j‖ = x := by intro x; rw [hLe]; simp
    obtain ⟨x, t, hxt⟩ : ∃ x t, L = x :: t := by
      cases hc : L with
      | nil => rw [hLe] at hc; simp at hc; omega
      | cons x t => exact ⟨x, t, rfl⟩
    obtain ⟨e, he, hem, hmax⟩ := pyMax_ok x t
    rw [← hxt] at he hem hmax
    refine ⟨e, he, ?_, fun j hj1 hj2 => hmax _ ((hmem _).2 ⟨j, by omega, rfl⟩)⟩
    obtain ⟨j, hj, hje⟩ := (hmem e).1 hem
    exact ⟨j, by omega, by omega, hje.symm⟩
  choose! E hE1 hE2 hE3 using hfour
  have hmap : getVError p evalV v M N = pyMax ((List.range' 1 (N - 1)).map E) := by
    unfold getVError
    rw [mapM_ok (g := E), ok_bind]
    intro m hm
    rw [List.mem_range'_1] at hm
    exact hE1 m (by omega) (by omega)
  obtain ⟨x, t, hxt⟩ : ∃ x t, (List.range' 1 (N - 1)).map E = x :: t := by
    cases hc : (List.range' 1 (N - 1)).map E with
    | nil => simp at hc; omega
    | cons x t => exact ⟨x, t, rfl⟩
  obtain ⟨e, he, hem, hmax⟩ := pyMax_ok x t
  rw [← hxt] at he hem hmax
  refine ⟨e, hmap.trans he, ?_, fun m j h1 h2 h3 h4 => (hE3 m h1 h2 j h3 h4).trans (hmax _ ?_)⟩
  · obtain ⟨m, hm, rfl⟩ := List.mem_map.1 hem
    rw [List.mem_range'_1] at hm
    obtain ⟨j, h3, h4, h5⟩ := hE2 m (by omega) (by omega)
    exact ⟨m, j, by omega, by omega, h3, h4, h5⟩
  · exact List.mem_map.2 ⟨m, by rw [List.mem_range'_1]; omega, rfl⟩

/-- **C69** a grid without inner circles has no error: `max` of an empty list is a ValueError. -/
theorem C69_empty (p : PolarFD) (evalV : ℝ → ℝ → ℝ) (v : List (List ℂ)) (M : ℕ) {N : ℕ} (hN : N ≤ 1) :
    getVError p evalV v M N = .error .valueError := by
  unfold getVError
  rw [show N - 1 = 0 by omega]
  rfl

/-! ## C70 -/

theorem uBc_fold (jv : ℝ → ℝ → ℝ) (c : List ℂ) (k a nu r th : ℝ) (x : ℂ) : ∀ n, n ≤ c.length →
    (List.range' 1 n).foldlM (init := x) (fun bc (m : ℕ) => (do
      let c ← listGet c (m - 1)
      return bc - c * ((jv (m * nu) (k * r) : ℝ) : ℂ) * ((sin (m * nu * (th - a)) : ℝ) : ℂ) : Py ℂ))
    = .ok (x - ∑ j ∈ Finset.range n, c.getD j 0 * ((jv (((j : ℝ) + 1) * nu) (k * r) * sin (((j : ℝ) + 1) * nu * (th - a)) : ℝ) : ℂ)) := by
  intro n
  induction n with
  | zero => intro _; simp
  | succ n ih =>
    intro hn
    rw [List.range'_concat, List.foldlM_append, ih (by omega), ok_bind, List.foldlM_cons,
      listGet_of_lt _ _ (by omega), ok_bind, pure_eq_ok, ok_bind, List.foldlM_nil, Finset.sum_range_succ, pure_eq_ok]
    congr 1
    rw [show c.getD n 0 = c[n]'(by omega) by rw [List.getD_eq_getElem?_getD, List.getElem?_eq_getElem (by omega)]; rfl]
    have e : 1 + 1 * n - 1 = n := by omega
    have e2 : ((1 + 1 * n : ℕ) : ℝ) = (n : ℝ) + 1 := by push_cast; ring
    simp only [e, e2]
    push_cast
    ring

/-- the sum of singular functions that is removed from the solution -/
noncomputable def singSum (jv : ℝ → ℝ → ℝ) (c : List ℂ) (k a nu : ℝ) (M : ℕ) (r th : ℝ) : ℂ :=
  ∑ j ∈ Finset.range M, c.getD j 0 * ((jv (((j : ℝ) + 1) * nu) (k * r) * sin (((j : ℝ) + 1) * nu * (th - a)) : ℝ) : ℂ)

theorem uEvalBc_one (jv : ℝ → ℝ → ℝ) (evalR : ℝ → ℝ) (phi0 phi1 phi2 : ℝ → ℝ) (vAs : ℝ → ℝ → ℝ) (c : List ℂ) (k a nu : ℝ) (M : ℕ)
    (r : ℝ) : uEvalBc jv evalR phi0 phi1 phi2 vAs c k a nu M r 1
      = if r ≥ 0 then .ok ((phi1 r - vAs r (2 * π) : ℝ) : ℂ) else .ok 0 := by
  unfold uEvalBc argToPolar
  simp

theorem uEvalBc_two (jv : ℝ → ℝ → ℝ) (evalR : ℝ → ℝ) (phi0 phi1 phi2 : ℝ → ℝ) (vAs : ℝ → ℝ → ℝ) (c : List ℂ) (k a nu : ℝ) (M : ℕ)
    (r : ℝ) : uEvalBc jv evalR phi0 phi1 phi2 vAs c k a nu M r 2
      = if r ≥ 0 then .ok ((phi2 r - vAs r a : ℝ) : ℂ) else .ok 0 := by
  unfold uEvalBc argToPolar
  simp

/-- **C70** the boundary data of the remaining problem plus the subtracted functions are the data of the original problem on
all three segments. -/
theorem C70_data (jv : ℝ → ℝ → ℝ) (evalR : ℝ → ℝ) (phi0 phi1 phi2 : ℝ → ℝ) (vAs : ℝ → ℝ → ℝ) {c : List ℂ} (k : ℝ) {a nu : ℝ}
    {M : ℕ} (hc : M ≤ c.length) (ha : a ≠ 2 * π) (hnu : nu = π / (2 * π - a)) :
    (∀ th, ∃ bc, uEvalBc jv evalR phi0 phi1 phi2 vAs c k a nu M th 0 = .ok bc ∧
      bc + vAs (evalR th) th + singSum jv c k a nu M (evalR th) th = phi0 th) ∧
    (∀ r, 0 ≤ r → ∃ bc, uEvalBc jv evalR phi0 phi1 phi2 vAs c k a nu M r 1 = .ok bc ∧
      bc + vAs r (2 * π) + singSum jv c k a nu M r (2 * π) = phi1 r) ∧
    (∀ r, 0 ≤ r → ∃ bc, uEvalBc jv evalR phi0 phi1 phi2 vAs c k a nu M r 2 = .ok bc ∧
      bc + vAs r a + singSum jv c k a nu M r a = phi2 r) := by
  have ha' : 2 * π - a ≠ 0 := fun h => ha (by linarith)
  have h1 : ∀ r, singSum jv c k a nu M r (2 * π) = 0 := by
    intro r
    refine Finset.sum_eq_zero fun j _ => ?_
    have : ((j : ℝ) + 1) * nu * (2 * π - a) = ((j + 1 : ℕ) : ℝ) * π := by
      rw [hnu, mul_assoc, div_mul_cancel₀ _ ha']; push_cast; rfl
    rw [this, sin_nat_mul_pi]
    simp
  have h2 : ∀ r, singSum jv c k a nu M r a = 0 := by
    intro r
    refine Finset.sum_eq_zero fun j _ => ?_
    simp
  refine ⟨fun th => ?_, fun r hr => ?_, fun r hr => ?_⟩
  · refine ⟨_, (uBc_fold jv c k a nu (evalR th) th _ M hc), ?_⟩
    unfold singSum
    push_cast
    ring
  · refine ⟨((phi1 r - vAs r (2 * π) : ℝ) : ℂ), ?_, by rw [h1]; push_cast; ring⟩
    rw [uEvalBc_one, if_pos hr]
  · refine ⟨((phi2 r - vAs r a : ℝ) : ℂ), ?_, by rw [h2]; push_cast; ring⟩
    rw [uEvalBc_two, if_pos hr]

/-- **C70** past the tip both sides carry the value zero; a segment number above 2 is a TypeError; too few coefficients are an
IndexError. -/
theorem C70_branches (jv : ℝ → ℝ → ℝ) (evalR : ℝ → ℝ) (phi0 phi1 phi2 : ℝ → ℝ) (vAs : ℝ → ℝ → ℝ) (c : List ℂ) (k a nu : ℝ) (M : ℕ) :
    (∀ r < 0, uEvalBc jv evalR phi0 phi1 phi2 vAs c k a nu M r 1 = .ok 0 ∧ uEvalBc jv evalR phi0 phi1 phi2 vAs c k a nu M r 2 = .ok 0) ∧
    (∀ r sid, 2 < sid → uEvalBc jv evalR phi0 phi1 phi2 vAs c k a nu M r sid = .error .typeError) ∧
    (∀ th, c.length < M → uEvalBc jv evalR phi0 phi1 phi2 vAs c k a nu M th 0 = .error .indexError) := by
  refine ⟨fun r hr => ⟨?_, ?_⟩, fun r sid h => ?_, fun th h => ?_⟩
  · rw [uEvalBc_one, if_neg (by linarith)]
  · rw [uEvalBc_two, if_neg (by linarith)]
  · unfold uEvalBc argToPolar
    rw [if_neg (by omega), if_neg (by omega), if_neg (by omega)]
    rfl
  · change (List.range' 1 M).foldlM _ _ = _
    obtain ⟨n, hn⟩ : ∃ n, M = c.length + (n + 1) := ⟨M - c.length - 1, by omega⟩
    rw [hn, ← List.range'_append_1, List.foldlM_append, uBc_fold jv c k a nu (evalR th) th _ c.length le_rfl, ok_bind,
      List.range'_succ, List.foldlM_cons, listGet_of_ge _ _ (by omega)]
    rfl

end Pot
