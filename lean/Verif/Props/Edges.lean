import Verif.Props.Boundary
import Verif.Props.Bessel
import Verif.Props.Ode
import Verif.Props.ZCoef
import Verif.Props.Run
import Verif.Props.Grid

/-! # Branches and constants at the edges: C17, C18, C26, C33, C42, C61, C66, C76 -/

namespace Pot
open Spec Finset Real

/-- **C42** `cubic_C` is the maximum of the cubic for the wedge angle `π/6`: the boundary reaches `R + bet` there. -/
theorem C42_cubic_max (R bet : ℝ) : ∃ t, π / 6 ≤ t ∧ t ≤ π ∧ cubicR R bet (π / 6) t = R + bet ∧
    ∀ t', π / 6 ≤ t' → t' ≤ 2 * π → 0 ≤ bet → cubicR R bet (π / 6) t' ≤ R + bet := by
  have hpi := pi_pos
  have hC := cubicC_pos
  set s := √91 with hs
  have hs2 : s ^ 2 = 91 := Real.sq_sqrt (by norm_num)
  have hs9 : 9 < s := by
    rw [hs, show (9:ℝ) = √(9 ^ 2) by rw [Real.sqrt_sq (by norm_num)]]
    exact Real.sqrt_lt_sqrt (by norm_num) (by norm_num)
  have hs10 : s < 10 := by
    rw [hs, show (10:ℝ) = √(10 ^ 2) by rw [Real.sqrt_sq (by norm_num)]]
    exact Real.sqrt_lt_sqrt (by norm_num) (by norm_num)
  have h0 := mul_nonneg hpi.le (by linarith : 0 ≤ 10 - s)
  have h1 := mul_nonneg hpi.le (by linarith : 0 ≤ s - 9)
  refine ⟨π * (19 - s) / 18, by linarith, by linarith, ?_, ?_⟩
  · have e : (π * (19 - s) / 18 - π / 6) * (π * (19 - s) / 18 - π) * (π * (19 - s) / 18 - 2 * π) = cubicC := by
      unfold cubicC
      rw [← hs]
      linear_combination -(π ^ 3 * s / 5832) * hs2
    unfold cubicR
    rw [mul_assoc, mul_assoc, ← mul_assoc (_ - _), e, div_mul_cancel₀ _ hC.ne']
  · intro t' h1 h2 hb
    have h3 : (t' - π / 6) * (t' - π) * (t' - 2 * π) ≤ cubicC := by
      rcases cubic_lobe le_rfl h1 with h | h
      · exact h
      · linarith
    unfold cubicR
    rw [mul_assoc, mul_assoc, ← mul_assoc (_ - _), div_mul_eq_mul_div]
    have := div_le_of_le_mul₀ hC.le hb (mul_le_mul_of_nonneg_left h3 hb)
    linarith

/-- **C33** a node whose cached boundary coordinates are `None` makes the setype, every extension of segment 0 and every
inhomogeneous extension of segment 0 a TypeError, and a node that is not in the cache makes the extensions a KeyError. -/
theorem C33_bad_coord (s : PSolver) (src : XiSrc) (nd : Node) :
    (s.cache nd = some none →
      getEtype s.e s.cache 0 nd = .error .typeError ∧ doExtend0Standard s src nd = .error .typeError ∧
      doExtend0Left s src nd = .error .typeError ∧ doExtend0Right s src nd = .error .typeError ∧
      doInhomo0Standard s nd = .error .typeError ∧ ∀ sid, extendInhomo0lr s nd sid = .error .typeError) ∧
    (s.cache nd = none →
      doExtend0Standard s src nd = .error .keyError ∧ doExtend0Left s src nd = .error .keyError ∧
      doExtend0Right s src nd = .error .keyError ∧ doInhomo0Standard s nd = .error .keyError ∧
      ∀ sid, extendInhomo0lr s nd sid = .error .keyError) := by
  constructor
  · intro h
    have hc : cacheGet s nd = .error .typeError := by unfold cacheGet; rw [h]; rfl
    refine ⟨?_, ?_, ?_, ?_, ?_, fun sid => ?_⟩
    · unfold getEtype
      simp only [if_true, h]
      rfl
    all_goals first | unfold doExtend0Standard | unfold doExtend0Left | unfold doExtend0Right | unfold doInhomo0Standard | unfold extendInhomo0lr
    all_goals rw [hc]; rfl
  · intro h
    have hc : cacheGet s nd = .error .keyError := by unfold cacheGet; rw [h]; rfl
    refine ⟨?_, ?_, ?_, ?_, fun sid => ?_⟩
    all_goals first | unfold doExtend0Standard | unfold doExtend0Left | unfold doExtend0Right | unfold doInhomo0Standard | unfold extendInhomo0lr
    all_goals rw [hc]; rfl

/-- **C26** the loop of `extend_f` gives up, without an error, at the first node attached to the outer curve that is not in the cache:
nothing after it is written. -/
theorem C26_gives_up {m : ℕ} (s : PSolver) (A B : List Node) (nd : Node) (hsid : extendFSid s nd = .ok 0) (hc : s.cache nd = none)
    (f : Arr m) : extendFLoop s (A ++ nd :: B) f = extendFLoop s A f := by
  have hp : extendFPoint s nd = .ok none := by
    have : ∃ et, getEtype s.e s.cache 0 nd = .ok et := by
      unfold getEtype
      simp only [if_true, hc]
      split <;> exact ⟨_, rfl⟩
    obtain ⟨et, het⟩ := this
    unfold extendFPoint
    rw [hsid, ok_bind, het, ok_bind]
    simp only [hc, pure_eq_ok]
    rw [if_neg (by decide), if_neg (by decide)]
  induction A generalizing f with
  | nil =>
    simp only [List.nil_append, extendFLoop, hp, ok_bind, pure_eq_ok]
  | cons x A ih =>
    rw [List.cons_append]
    unfold extendFLoop
    rcases extendFPoint s x with er | pt
    · rfl
    rw [ok_bind, ok_bind]
    rcases pt with _ | pt
    · rfl
    simp only
    rcases extendFValue s.src (s.e.coord x).1 (s.e.coord x).2 pt.1 pt.2 with er | v
    · rfl
    rw [ok_bind, ok_bind]
    rcases arrSet f x.1 x.2 v with er | g
    · rfl
    rw [ok_bind, ok_bind]
    exact ih g

/-- **C18** aliasing: the harmonic `N + 1` is zero at all `N` nodes of `arc_dst`, and the harmonic `2 (N + 1) - m` is seen as minus the
harmonic `m`. -/
theorem C18_alias {a nu : ℝ} (ha : a ≠ 2 * π) (hnu : nu = π / (2 * π - a)) (N : ℕ) (k : Fin N) :
    arcDst a (fun th => ((sin (((N : ℝ) + 1) * nu * (th - a)) : ℝ) : ℂ)) N k = 0 ∧
    ∀ m : Fin N, arcDst a (fun th => ((sin ((2 * ((N : ℝ) + 1) - (m + 1)) * nu * (th - a)) : ℝ) : ℂ)) N k = if k = m then -1 else 0 := by
  have hN : ((N : ℝ) + 1) ≠ 0 := by positivity
  have ha' : 2 * π - a ≠ 0 := fun h => ha (by linarith)
  have hth : ∀ i : ℕ, i < N → nu * (abTh N a i - a) = π * (i + 1) / (N + 1) := by
    intro i hi
    unfold abTh
    rw [linspace_getD _ _ _ _ (by omega), hnu]
    push_cast
    have e : a + ((i : ℝ) + 1) * ((2 * π - a) / ((N : ℝ) + 2 - 1)) - a = (i + 1) / (N + 1) * (2 * π - a) := by
      rw [show (N : ℝ) + 2 - 1 = N + 1 by ring]; ring
    rw [e, mul_comm, mul_assoc, mul_div_cancel₀ _ ha']
    ring
  constructor
  · rw [arcDst_congr a (g := fun _ => 0) (n := N) (fun i hi => ?_) k]
    · have := C18_arc_dst a nu ha hnu N (fun _ => 0) k
      simpa using this
    · rw [mul_assoc, hth i hi, show ((N : ℝ) + 1) * (π * (i + 1) / (N + 1)) = ((i + 1 : ℕ) : ℝ) * π by push_cast; field_simp,
        sin_nat_mul_pi]
      simp
  · intro m
    rw [arcDst_congr a (g := fun th => ∑ l : Fin N, (if l = m then (-1 : ℂ) else 0) * ((sin (((l : ℝ) + 1) * nu * (th - a)) : ℝ) : ℂ))
      (n := N) (fun i hi => ?_) k]
    · exact C18_arc_dst a nu ha hnu N (fun l => if l = m then -1 else 0) k
    · rw [Finset.sum_eq_single m (fun l _ hl => by rw [if_neg hl, zero_mul]) (fun h => absurd (mem_univ m) h), if_pos rfl]
      rw [mul_assoc, mul_assoc ((m : ℝ) + 1), hth i hi]
      have e : (2 * ((N : ℝ) + 1) - (m + 1)) * (π * (i + 1) / (N + 1)) =
          ((i + 1 : ℕ) : ℝ) * (2 * π) - ((m : ℝ) + 1) * (π * (i + 1) / (N + 1)) := by
        push_cast; field_simp
      rw [e, Real.sin_nat_mul_two_pi_sub]
      push_cast
      ring

/-- **C66** with the shipped number of nodes the source of the ODE system is resolved up to the harmonic 1024 and no further: the
coefficients of `zM` harmonics exist, the harmonic 1024 is recovered, the harmonic 1025 is not seen at all. -/
theorem C66_resolution {a nu : ℝ} (ha : a ≠ 2 * π) (hnu : nu = π / (2 * π - a)) :
    zM ≤ odeFourierN ∧ sineCoef a (fun th => sin (1024 * nu * (th - a))) odeFourierN 1023 = 1 ∧
    ∀ j, sineCoef a (fun th => sin (1025 * nu * (th - a))) odeFourierN j = 0 := by
  refine ⟨by decide, ?_, fun j => ?_⟩
  · have h := C18_arc_dst a nu ha hnu odeFourierN (fun l => if l = ⟨1023, by decide⟩ then 1 else 0) ⟨1023, by decide⟩
    unfold sineCoef arcDstR
    rw [List.getD_eq_getElem?_getD, List.getElem?_ofFn, dif_pos (by decide : 1023 < odeFourierN)]
    simp only [Option.getD_some]
    have e : (fun th : ℝ => ((sin (1024 * nu * (th - a)) : ℝ) : ℂ)) = fun th => ∑ l : Fin odeFourierN,
        (if l = ⟨1023, by decide⟩ then (1:ℂ) else 0) * ((sin (((l : ℝ) + 1) * nu * (th - a)) : ℝ) : ℂ) := by
      funext th
      rw [Finset.sum_eq_single ⟨1023, by decide⟩ (fun l _ hl => by rw [if_neg hl, zero_mul]) (fun h => absurd (mem_univ _) h),
        if_pos rfl, one_mul]
      norm_num
    rw [e, h]
    simp
  · unfold sineCoef arcDstR
    rw [List.getD_eq_getElem?_getD, List.getElem?_ofFn]
    split
    · next hj =>
      have := (C18_alias ha hnu odeFourierN ⟨j, hj⟩).1
      simp only [Option.getD_some]
      have e : (fun th : ℝ => ((sin (1025 * nu * (th - a)) : ℝ) : ℂ)) = fun th : ℝ => ((sin (((odeFourierN : ℝ) + 1) * nu * (th - a)) : ℝ) : ℂ) := by
        funext th
        have : (odeFourierN : ℝ) + 1 = 1025 := by unfold odeFourierN; norm_num
        rw [this]
      rw [e, this]
      simp
    · rfl

/-- **C76** the problem `IH_Bessel` with the shipped constants: order `nu/2`, wave number 6.75. -/
theorem C76_ih_constants (jv : ℝ → ℝ → ℝ) (a nu r th : ℝ) :
    ihV jv ihKK ihK a nu r th = jv (nu / 2) (6.75 * r) * sin (nu / 2 * (th - a)) := by
  unfold ihV ihKK ihK
  rw [show ((0 : ℕ) + 1 / 2 : ℝ) * nu = nu / 2 by push_cast; ring, show (27 / 4 : ℝ) = 6.75 by norm_num]

/-- **C61** on the circular arc with the shipped number of nodes the rank condition holds for up to 2048 model functions: any
data that is a combination of them gives back its first `M` coefficients exactly.  The 2049th function vanishes at all nodes. -/
theorem C61_arc (jv : ℝ → ℝ → ℝ) {lstsq : Lstsq} (hls : IsLstsq lstsq) {evalBc0 : ℝ → ℂ} {k R a nu : ℝ} (ha : a ≠ 2 * π)
    (hnu : nu = π / (2 * π - a)) {M m1 : ℕ} (hM : M ≤ m1) :
    (m1 ≤ 2048 → (∀ m : ℕ, 1 ≤ m → m ≤ m1 → jv (m * nu) (k * R) ≠ 0) → ∀ c : ℕ → ℂ,
      (∀ th, evalBc0 th = ∑ j ∈ Finset.range m1, c j * ((jv ((j + 1 : ℕ) * nu) (k * R) * sin ((j + 1 : ℕ) * nu * (th - a)) : ℝ) : ℂ)) →
      abCalcACoef jv lstsq abNodes (arcR R) evalBc0 k R a nu M m1 = .ok ((List.range M).map c)) ∧
    ∀ i < abNodes, sin ((2049 : ℕ) * nu * (abTh abNodes a i - a)) = 0 := by
  have ha' : 2 * π - a ≠ 0 := fun h => ha (by linarith)
  refine ⟨fun hm hJ c hdata => ?_, fun i hi => ?_⟩
  · refine C61_exact jv hls hM (fun m h1 h2 => hJ m (by omega) h2) ?_ c fun i _ => hdata _
    intro d hd j hj
    have hj' : j < abNodes := by unfold abNodes; omega
    set b : Fin abNodes → ℂ := fun m => if (m : ℕ) < m1 then d m * ((jv (((m : ℕ) + 1 : ℕ) * nu) (k * R) : ℝ) : ℂ) else 0 with hb
    have h0 := C18_arc_dst a nu ha hnu abNodes b ⟨j, hj'⟩
    rw [arcDst_congr a (g := fun _ => 0) (n := abNodes) (fun i hi => ?_) ⟨j, hj'⟩] at h0
    · have h1 := C18_arc_dst a nu ha hnu abNodes (fun _ => 0) ⟨j, hj'⟩
      simp only [zero_mul, Finset.sum_const_zero] at h1
      rw [h1, hb] at h0
      simp only [hj, if_true] at h0
      rcases mul_eq_zero.1 h0.symm with h | h
      · exact h
      · exact absurd (by exact_mod_cast h) (hJ (j + 1) (by omega) (by omega))
    · rw [← hd i hi, Fin.sum_univ_eq_sum_range (fun m => (if m < m1 then d m * ((jv ((m + 1 : ℕ) * nu) (k * R) : ℝ) : ℂ) else 0)
        * ((sin (((m : ℝ) + 1) * nu * (abTh abNodes a i - a)) : ℝ) : ℂ)) abNodes]
      symm
      refine Finset.sum_subset_zero_on_sdiff (Finset.range_subset_range.2 (by unfold abNodes; omega)) (fun m hm' => ?_) fun m hm' => ?_
      · rw [Finset.mem_sdiff, Finset.mem_range, Finset.mem_range] at hm'
        rw [if_neg hm'.2, zero_mul]
      · rw [if_pos (Finset.mem_range.1 hm')]
        unfold arcR
        push_cast
        ring
  · unfold abTh
    rw [linspace_getD _ _ _ _ (by omega), hnu]
    have e : ((2049 : ℕ) : ℝ) * (π / (2 * π - a)) * (a + ((i + 1 : ℕ) : ℝ) * ((2 * π - a) / (((abNodes + 2 : ℕ) : ℝ) - 1)) - a) =
        ((i + 1 : ℕ) : ℝ) * π := by
      unfold abNodes
      rw [add_sub_cancel_left]
      generalize 2 * π - a = D at ha'
      push_cast
      field_simp
      ring
    rw [e, sin_nat_mul_pi]

/-- C33: such caches exist -/
example (s : PSolver) (src : XiSrc) (nd : Node) :
    doExtend0Standard { s with cache := fun _ => some none } src nd = .error .typeError ∧
    doInhomo0Standard { s with cache := fun _ => none } nd = .error .keyError :=
  ⟨((C33_bad_coord _ src nd).1 rfl).2.1, ((C33_bad_coord _ src nd).2 rfl).2.2.2.1⟩

/-- C18, C66: the shipped wedge -/
example : sineCoef (π / 4) (fun th => sin (1025 * (4 / 7) * (th - π / 4))) odeFourierN 0 = 0 ∧
    sineCoef (π / 4) (fun th => sin (1024 * (4 / 7) * (th - π / 4))) odeFourierN 1023 = 1 := by
  have h0 := pi_pos
  have h1 : π / 4 ≠ 2 * π := by linarith
  have h2 : (4 / 7 : ℝ) = π / (2 * π - π / 4) := by
    rw [show 2 * π - π / 4 = 7 / 4 * π by ring]; field_simp
  exact ⟨(C66_resolution h1 h2).2.2 0, (C66_resolution h1 h2).2.1⟩

/-- C61: data with two of three functions on the shipped wedge -/
example {lstsq : Lstsq} (hls : IsLstsq lstsq) : abCalcACoef (fun m _ => m) lstsq abNodes (arcR 2.3)
    (fun th => ((5 * (3 * (4 / 7) * sin (3 * (4 / 7) * (th - π / 4))) : ℝ) : ℂ)) 1 2.3 (π / 4) (4 / 7) 2 3 = .ok [0, 0] := by
  have h0 := pi_pos
  have h2 : (4 / 7 : ℝ) = π / (2 * π - π / 4) := by
    rw [show 2 * π - π / 4 = 7 / 4 * π by ring]; field_simp
  refine (C61_arc (fun m _ => m) hls (by linarith) h2 (M := 2) (m1 := 3) (by norm_num)).1 (by norm_num) (fun m h1 _ => ?_)
    (fun j => if j = 2 then 5 else 0) fun th => ?_
  · have : (0 : ℝ) < m := by exact_mod_cast h1
    positivity
  · simp only [Finset.sum_range_succ, Finset.sum_range_zero]
    norm_num

end Pot
