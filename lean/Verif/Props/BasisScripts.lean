import Verif.Model.BasisScripts
import Verif.Spec.BasisScripts
import Verif.Props.Main

/-! # Property C94: the scripts that look for good sizes of the basis -/

namespace Pot
open Real Spec

/-! ## The sizes tried -/

theorem mem_allOptions (t : ℕ × ℕ) : t ∈ allOptions ↔ Candidate t.1 t.2 := by
  obtain ⟨c, r⟩ := t
  simp only [allOptions, pyRange, List.mem_flatMap, List.mem_map, List.mem_range, Prod.mk.injEq, Candidate]
  constructor
  · rintro ⟨x, ⟨i, hi, rfl⟩, y, ⟨j, hj, rfl⟩, rfl, rfl⟩
    omega
  · rintro ⟨h1, h2, h3, h4, h5, h6⟩
    exact ⟨c, ⟨(c - 30) / 5, by omega, by omega⟩, r, ⟨(r - 17) / 4, by omega, by omega⟩, rfl, rfl⟩

theorem allOptions_sorted : allOptions.Pairwise fun s t => Before s.1 s.2 t.1 t.2 := by
  unfold allOptions Before
  rw [List.pairwise_flatMap]
  refine ⟨fun c _ => ?_, ?_⟩
  · rw [List.pairwise_map]
    unfold pyRange
    rw [List.pairwise_map]
    refine List.pairwise_lt_range.imp fun {i j} h => ?_
    show c < c ∨ c = c ∧ 17 + 4 * i < 17 + 4 * j
    omega
  · unfold pyRange
    rw [List.pairwise_map]
    refine List.pairwise_lt_range.imp fun {i j} h x hx y hy => ?_
    simp only [List.mem_map] at hx hy
    obtain ⟨_, -, rfl⟩ := hx
    obtain ⟨_, -, rfl⟩ := hy
    simp only
    omega

theorem before_irrefl (s : ℕ × ℕ) : ¬ Before s.1 s.2 s.1 s.2 := by
  unfold Before; omega

theorem before_asymm {s t : ℕ × ℕ} (h : Before s.1 s.2 t.1 t.2) : ¬ Before t.1 t.2 s.1 s.2 := by
  unfold Before at *; omega

theorem allOptions_nodup : allOptions.Nodup :=
  allOptions_sorted.imp fun {s t} h => by
    rintro rfl
    exact before_irrefl s h

/-! ## The smallest error -/

/-- the row of a pair of sizes -/
def resRow (err : ℕ → ℕ → ℝ) (t : ℕ × ℕ) : ℕ × ℕ × Option ℝ := (t.1, t.2, some (err t.1 t.2))

theorem best_fold (err : ℕ → ℕ → ℝ) (l : List (ℕ × ℕ)) :
    (l = [] ∧ (l.map (resRow err)).foldlM bestStep (none, none) = .ok (none, none)) ∨
    ∃ (l1 : List (ℕ × ℕ)) (t : ℕ × ℕ) (l2 : List (ℕ × ℕ)), l = l1 ++ t :: l2 ∧ (∀ u ∈ l1, err t.1 t.2 < err u.1 u.2) ∧ (∀ u ∈ l2, err t.1 t.2 ≤ err u.1 u.2) ∧
      (l.map (resRow err)).foldlM bestStep (none, none) = .ok (some (err t.1 t.2), some (resRow err t)) := by
  induction l using List.reverseRecOn with
  | nil => exact .inl ⟨rfl, rfl⟩
  | append_singleton l x ih =>
    right
    rw [List.map_append, List.foldlM_append]
    rcases ih with ⟨rfl, -⟩ | ⟨l1, t, l2, hl, h1, h2, h3⟩
    · exact ⟨[], x, [], rfl, by simp, by simp, rfl⟩
    · rw [h3, ok_bind, List.map_singleton, List.foldlM_cons]
      by_cases hx : err x.1 x.2 < err t.1 t.2
      · refine ⟨l, x, [], rfl, fun u hu => ?_, by simp, ?_⟩
        · rw [hl, List.mem_append, List.mem_cons] at hu
          rcases hu with hu | rfl | hu
          · exact hx.trans (h1 u hu)
          · exact hx
          · exact hx.trans_le (h2 u hu)
        · simp only [bestStep, resRow, if_pos hx]
          rfl
      · refine ⟨l1, t, l2 ++ [x], by rw [hl]; simp, h1, fun u hu => ?_, ?_⟩
        · rw [List.mem_append, List.mem_singleton] at hu
          rcases hu with hu | rfl
          · exact h2 u hu
          · exact not_lt.1 hx
        · simp only [bestStep, resRow, if_neg hx]
          rfl

/-- the row printed last -/
theorem bestRow_ok (err : ℕ → ℕ → ℝ) : ∃ c r, Candidate c r ∧ bestRow (allOptions.map (resRow err)) = .ok (c, r, some (err c r)) ∧
    (∀ c' r', Candidate c' r' → err c r ≤ err c' r') ∧ ∀ c' r', Candidate c' r' → Before c' r' c r → err c r < err c' r' := by
  rcases best_fold err allOptions with ⟨h, -⟩ | ⟨l1, t, l2, hl, h1, h2, h3⟩
  · have := (mem_allOptions (30, 17)).2 (by unfold Candidate; norm_num)
    rw [h] at this
    simp at this
  · have hm : t ∈ allOptions := by rw [hl]; simp
    refine ⟨t.1, t.2, (mem_allOptions t).1 hm, ?_, fun c r hc => ?_, fun c r hc hb => ?_⟩
    · unfold bestRow
      rw [h3]
      rfl
    · have := (mem_allOptions (c, r)).2 hc
      rw [hl, List.mem_append, List.mem_cons] at this
      rcases this with h | h | h
      · exact (h1 _ h).le
      · rw [← h]
      · exact h2 _ h
    · have := (mem_allOptions (c, r)).2 hc
      rw [hl, List.mem_append, List.mem_cons] at this
      rcases this with h | h | h
      · exact h1 _ h
      · rw [← h] at hb
        exact absurd hb (before_irrefl (c, r))
      · have hs := allOptions_sorted
        rw [hl, List.pairwise_append] at hs
        exact absurd hb (before_asymm (s := t) (t := (c, r)) (List.rel_of_pairwise_cons hs.2.1 h))

/-! ## The problems -/

theorem basisCurve_eq : chooseBoundary "outer-sine" = .ok basisCurve := rfl

/-- the lines printed first -/
noncomputable def headLines (problem : String) (k : ℝ) (m1 : ℕ) : List BasisEv :=
  [.heading "optimize_basis" problem "outer-sine", .option (.order 4), .option (.k k), .option (.radius 2.3), .option (.angle (π / 4)),
    .option (.bet 0.15), .option (.side (2 * π)), .option (.m1 m1)]

theorem basisHead_eq (problem : String) (pr : RunProblem) :
    basisHead problem pr = headLines problem pr.k (getM1 none pr.m1Dict "outer-sine") := by
  unfold basisHead headLines
  rw [show probR = 2.3 by unfold probR; norm_num]
  rfl

/-- the curve: `2.3 + 0.15 sin(ν (θ - π/4))` with `ν = π / (2π - π/4)` -/
theorem basisCurve_apply (t : ℝ) : basisCurve t = 2.3 + 0.15 * sin (4 / 7 * (t - π / 4)) := by
  unfold basisCurve outerSineR bNu
  have hpi := pi_pos
  rw [show probR = 2.3 by unfold probR; norm_num]
  show 2.3 + 0.15 * sin (π / (2 * π - π / 4) * (t - π / 4)) = _
  rw [show π / (2 * π - π / 4) = 4 / 7 by field_simp; norm_num]

theorem smooth_source_zero {name : String} {ex φ : ℝ → ℝ → ℂ} (h : SmoothCase name ex φ) (hne : name ≠ "smooth-ycos") (x y : ℝ) :
    φ x y = 0 := by
  cases h with
  | sine => rfl
  | e => rfl
  | ycos => exact absurd rfl hne

theorem basisSize {N : ℤ} (hw : Window N) : ∃ (fuel0 : ℕ) (v : ℕ × ℕ), ∀ fuel, fuel0 ≤ fuel →
    getNBasis (some smoothNBasis) defaultNBasis fuel N = some v := by
  obtain ⟨f, v, h⟩ := ((C59_shipped N).2.1).2 hw
  exact ⟨f, v, fun fuel hf => nBasis_mono hf h⟩

/-- **C94** optimize_basis.py for a smooth problem: for every size `N` for which the basis sizes of the table are found, every hash
order and every order in which the four processes print, the script ends without an exception.  It prints the options, then one
line for each of the 165 pairs of sizes, whose error is the one of a run with these sizes, then a blank line and the line of the
pair with the smallest error, the first of them if there are several. -/
theorem C94_optimize {iter : Iter} (hit : IsIter iter) {b : Brentq} (hb : BrentqSpec b) {fit : Chebfit} (hfit : IsChebfit fit)
    {lstsq : Lstsq} (hlsq : IsLstsq lstsq) {sched : List (ℕ × ℕ × Option ℝ) → List (ℕ × ℕ × Option ℝ)}
    (hsched : ∀ l, (sched l).Perm l) {problem : String} {ex φ : ℝ → ℝ → ℂ} (hpr : SmoothCase problem ex φ) {N : ℤ} (hw : Window N) :
    ∃ (err : ℕ → ℕ → ℝ) (lines : List BasisEv) (c r : ℕ) (fuel0 : ℕ),
      (∀ c r, Candidate c r → ∃ u : Arr (N.toNat - 1),
        GridOutcome iter b fit lstsq 4 (27 / 4) ex φ (fun t => 2.3 + 0.15 * sin (4 / 7 * (t - π / 4))) (c, r) (err c r) u) ∧
      lines.Nodup ∧ lines.length = 165 ∧ (∀ x, x ∈ lines ↔ ∃ c r, Candidate c r ∧ x = .row c r (some (err c r))) ∧
      Candidate c r ∧ (∀ c' r', Candidate c' r' → err c r ≤ err c' r') ∧
      (∀ c' r', Candidate c' r' → Before c' r' c r → err c r < err c' r') ∧
      ∀ fuel, fuel0 ≤ fuel → optimizeBasis iter b fit lstsq fuel sched problem N =
        some (headLines problem (27 / 4) 7 ++ lines ++ [.blank, .row c r (some (err c r))], .ok ()) := by
  have h16 := hw.ge
  obtain ⟨src, hlook, hφ, hsrc⟩ := smooth_record hpr
  obtain ⟨fuel0, v, hv⟩ := basisSize hw
  obtain ⟨n, rfl⟩ : ∃ n : ℕ, N = (n : ℤ) + 1 := ⟨(N - 1).toNat, by omega⟩
  set pr : RunProblem := ⟨smoothK, some src, some ex, some fun r => smoothEvalBc ex r probA, smoothNBasis, none⟩ with hprdef
  have hrun : ∀ t : ℕ × ℕ, ∃ e : ℝ, Candidate t.1 t.2 →
      basisWorker iter b fit lstsq pr ((n : ℤ) + 1) t = .ok (t.1, t.2, some e) ∧
        ∃ u : Arr n, GridOutcome iter b fit lstsq 4 smoothK ex φ basisCurve t e u := by
    intro t
    by_cases ht : Candidate t.1 t.2
    · have ht' := ht
      unfold Candidate at ht'
      obtain ⟨m, e, u, h1, h2, -, h3⟩ := smooth_pass hit hb hfit hlsq (order := 4) (.inr rfl) (n := n) (by omega) basisCurve_eq hφ
        hsrc (smooth_source_zero hpr) (fun _ h => absurd h (by decide)) (nB := smoothNBasis) (m1 := none) (size := fun _ => t)
        (by show 1 ≤ t.1; omega) (by show 1 ≤ t.2; omega)
      refine ⟨e, fun _ => ⟨?_, u, h3⟩⟩
      unfold basisWorker
      rw [h1, ok_bind, h2, ok_bind]
      rfl
    · exact ⟨0, fun h => absurd h ht⟩
  choose err herr using hrun
  have hmap : allOptions.mapM (basisWorker iter b fit lstsq pr ((n : ℤ) + 1)) = .ok (allOptions.map (resRow fun c r => err (c, r))) :=
    mapM_ok fun t ht => (herr t ((mem_allOptions t).1 ht)).1
  obtain ⟨c, r, hc, hbest, hle, hlt⟩ := bestRow_ok fun c r => err (c, r)
  have hcurve : basisCurve = fun t => 2.3 + 0.15 * sin (4 / 7 * (t - π / 4)) := funext basisCurve_apply
  have hk : smoothK = 27 / 4 := rfl
  have hperm := ((hsched (allOptions.map (resRow fun c r => err (c, r)))).map rowLine)
  refine ⟨fun c r => err (c, r), (sched (allOptions.map (resRow fun c r => err (c, r)))).map rowLine, c, r, fuel0, ?_, ?_, ?_, ?_, hc, hle,
    hlt, fun fuel hf => ?_⟩
  · intro c r h
    obtain ⟨-, u, hu⟩ := herr (c, r) h
    rw [hcurve] at hu
    rw [show ((n : ℤ) + 1).toNat - 1 = n by omega]
    exact ⟨u, hu⟩
  · rw [hperm.nodup_iff, List.map_map]
    refine allOptions_nodup.map_on fun s hs t ht h => ?_
    simp only [Function.comp, rowLine, resRow, BasisEv.row.injEq] at h
    exact Prod.ext h.1 h.2.1
  · rw [hperm.length_eq, List.length_map, List.length_map]
    decide +kernel
  · intro x
    rw [hperm.mem_iff, List.map_map, List.mem_map]
    constructor
    · rintro ⟨t, ht, rfl⟩
      exact ⟨t.1, t.2, (mem_allOptions t).1 ht, rfl⟩
    · rintro ⟨c, r, h, rfl⟩
      exact ⟨(c, r), (mem_allOptions (c, r)).2 h, rfl⟩
  · unfold optimizeBasis
    rw [hlook]
    simp only
    rw [hv fuel hf]
    simp only
    rw [hmap]
    simp only
    rw [hbest, basisHead_eq]
    rfl

/-! ## The fit -/

theorem segSeries_point (eps a R : ℝ) (he : 0 < eps) (ha : a < 2 * π) (hR : 0 < R) (sid : Fin 3) (c : List ℂ) (t : ℝ) :
    segSeries eps a R sid c (evalG eps a R sid t) = chebSeries c t := by
  rw [segSeries_cheb]
  congr 1
  obtain ⟨h1, h2⟩ := spanCenter_abs he ha hR sid
  have h0 : (spanCenter eps a R sid).1 ≠ 0 := by
    intro h
    rw [h, abs_zero] at h1
    linarith
  unfold evalG evalDGInv
  field_simp
  ring

/-- the points of the fit -/
theorem evalG_root (eps a R : ℝ) (sid : Fin 3) {i : ℕ} (hi : i < 1024) :
    evalG eps a R sid (cos (π / 2 * (2 * ((1024 - i : ℕ) : ℝ) - 1) / (1024 : ℕ))) =
      fitPoint eps a R sid (if sid = 1 then i else 1023 - i) := by
  have hc : ((1024 - i : ℕ) : ℝ) = 1024 - i := by rw [Nat.cast_sub (by omega)]; norm_num
  have hc' : ((1023 - i : ℕ) : ℝ) = 1023 - i := by rw [Nat.cast_sub (by omega)]; norm_num
  have hneg : cos (π / 2 * (2 * (1024 - i) - 1) / 1024) = - cos (π * (2 * i + 1) / 2048) := by
    rw [← cos_pi_sub]
    congr 1
    ring
  have hpos : cos (π / 2 * (2 * (1024 - i) - 1) / 1024) = cos (π * (2 * (1023 - i) + 1) / 2048) := by
    congr 1
    ring
  unfold evalG fitPoint
  rw [hc]
  fin_cases sid
  · simp only [Fin.zero_eta, Fin.isValue, if_true, show ¬ ((0 : Fin 3) = 1) by decide, if_false, hc', spanCenter, halfWidth]
    rw [← hpos]
    push_cast
    ring
  · simp only [Fin.mk_one, Fin.isValue, if_true, show ¬ ((1 : Fin 3) = 0) by decide, if_false, spanCenter, halfWidth]
    push_cast
    rw [hneg]
    ring
  · simp only [Fin.reduceFinMk, Fin.isValue, show ¬ ((2 : Fin 3) = 0) by decide, show ¬ ((2 : Fin 3) = 1) by decide, if_false, hc',
      spanCenter, halfWidth]
    rw [← hpos]
    push_cast
    ring


theorem chebRoots_zip_sum (data : ℝ → ℂ) (c : List ℂ) (g : ℝ → ℝ) :
    residual (chebRoots 1024) ((chebRoots 1024).map fun t => data (g t)) c =
      ∑ i ∈ Finset.range 1024, ‖chebSeries c (cos (π / 2 * (2 * ((1024 - i : ℕ) : ℝ) - 1) / (1024 : ℕ))) -
        data (g (cos (π / 2 * (2 * ((1024 - i : ℕ) : ℝ) - 1) / (1024 : ℕ))))‖ ^ 2 := by
  unfold Spec.residual chebRoots
  generalize 1024 = J
  rw [List.map_map, List.zip_map', List.map_map, Finset.sum_range, ← List.sum_ofFn, List.ofFn_eq_map, ← List.map_coe_finRange_eq_range,
    List.map_map]
  rfl

/-- the residual that `chebfit` minimises is the sum of the squared deviations at the points of the segment -/
theorem fit_residual {eps a R : ℝ} (he : 0 < eps) (ha : a < 2 * π) (hR : 0 < R) (sid : Fin 3) (data : ℝ → ℂ) (c : List ℂ) :
    residual (chebRoots 1024) ((chebRoots 1024).map fun t => data (evalG eps a R sid t)) c = sqDev eps a R sid data c := by
  rw [chebRoots_zip_sum]
  unfold sqDev
  have hterm : ∀ i ∈ Finset.range 1024, ‖chebSeries c (cos (π / 2 * (2 * ((1024 - i : ℕ) : ℝ) - 1) / (1024 : ℕ))) -
        data (evalG eps a R sid (cos (π / 2 * (2 * ((1024 - i : ℕ) : ℝ) - 1) / (1024 : ℕ))))‖ ^ 2 =
      (fun l => ‖segSeries eps a R sid c (fitPoint eps a R sid l) - data (fitPoint eps a R sid l)‖ ^ 2)
        (if sid = 1 then i else 1023 - i) := by
    intro i hi
    simp only
    rw [← segSeries_point eps a R he ha hR sid c, evalG_root eps a R sid (Finset.mem_range.1 hi)]
  rw [Finset.sum_congr rfl hterm]
  by_cases hs : sid = 1
  · simp only [if_pos hs]
  · simp only [if_neg hs]
    exact Finset.sum_range_reflect (fun l => ‖segSeries eps a R sid c (fitPoint eps a R sid l) - data (fitPoint eps a R sid l)‖ ^ 2) 1024

/-- the coefficients of `calc_c0` are least-squares coefficients on each segment -/
theorem calcC0_least {eps a R : ℝ} (he : 0 < eps) (ha : a < 2 * π) (hR : 0 < R) {fit : Chebfit} (hfit : IsChebfit fit) {p q : ℕ}
    (hp : 1 ≤ p) (hq : 1 ≤ q) (bc : ℝ → Fin 3 → ℂ) :
    ∃ A : Fin 3 → List ℂ, calcC0 eps a R fit (chebRoots 1024) (setupBasis p q) bc = .ok (A 0 ++ A 1 ++ A 2) ∧
      ∀ sid, (A sid).length = nBasisBySid p q sid ∧ ∀ d : List ℂ, d.length = (A sid).length →
        sqDev eps a R sid (fun x => bc x sid) (A sid) ≤ sqDev eps a R sid (fun x => bc x sid) d := by
  have key : ∀ sid, ∃ c, chebCoef eps a R fit (chebRoots 1024) (setupBasis p q) sid (fun x => bc x sid) = .ok c ∧
      c.length = nBasisBySid p q sid ∧ ∀ d : List ℂ, d.length = c.length →
        sqDev eps a R sid (fun x => bc x sid) c ≤ sqDev eps a R sid (fun x => bc x sid) d := by
    intro sid
    have hl : sid.val < (setupBasis p q).segDesc.length := by
      rw [(C40_layout p q).1]; exact sid.isLt
    obtain ⟨-, e2, -⟩ := C40_entries p q sid _ (List.getElem?_eq_getElem hl)
    have h1 : 1 ≤ nBasisBySid p q sid := by fin_cases sid <;> simpa [nBasisBySid]
    obtain ⟨h2, h3⟩ := hfit (chebRoots 1024) ((chebRoots 1024).map fun t => bc (evalG eps a R sid t) sid) (nBasisBySid p q sid)
      (by simp) h1
    refine ⟨_, ?_, h2, fun d hd => ?_⟩
    · simp only [chebCoef, List.getElem?_eq_getElem hl, pure_eq_ok, throw_eq_error]
      rw [if_neg (by omega), e2]
    · have := h3 d (hd.trans h2)
      rw [fit_residual he ha hR sid (fun x => bc x sid), fit_residual he ha hR sid (fun x => bc x sid)] at this
      exact this
  choose A h1 h2 h3 using key
  refine ⟨A, ?_, fun sid => ⟨h2 sid, h3 sid⟩⟩
  simp only [calcC0, List.foldlM_cons, List.foldlM_nil, h1, ok_bind, pure_eq_ok]

/-- the points of `c0_test` -/
theorem sample_iff (a R : ℝ) (rb : ℝ → ℝ) (sid : Fin 3) (x : ℝ) :
    (∃ pt ∈ getBoundarySample a R rb 100, pt.sid = sid ∧ pt.arg = x) ↔ TestPoint a R sid x := by
  have h2 : 1 / 10 ^ 5 + 1 / 10 ^ 5 = (2 / 10 ^ 5 : ℝ) := by norm_num
  have e0 : ∀ j : ℕ, a + 1 / 10 ^ 5 + (j : ℝ) * ((2 * π - 1 / 10 ^ 5 - (a + 1 / 10 ^ 5)) / (((3 * 100 : ℕ) : ℝ) - 1)) =
      a + 1 / 10 ^ 5 + (j : ℝ) * ((2 * π - a - 2 / 10 ^ 5) / 299) := by
    intro j; rw [← h2]; push_cast; ring
  have e1 : ∀ j : ℕ, 1 / 10 ^ 5 + (j : ℝ) * ((R - 1 / 10 ^ 5) / (((100 : ℕ) : ℝ) - 1)) = 1 / 10 ^ 5 + (j : ℝ) * ((R - 1 / 10 ^ 5) / 99) := by
    intro j; push_cast; ring
  unfold getBoundarySample getBoundarySampleBySid linspace TestPoint
  simp only [List.mem_append, List.mem_map, List.mem_reverse, List.mem_range, if_true, one_ne_zero, OfNat.ofNat_ne_zero, OfNat.ofNat_ne_one,
    if_false]
  constructor
  · rintro ⟨pt, (⟨y, ⟨j, hj, rfl⟩, rfl⟩ | ⟨y, ⟨j, hj, rfl⟩, rfl⟩) | ⟨y, ⟨j, hj, rfl⟩, rfl⟩, hs, rfl⟩
    · rw [if_pos (Fin.ext (by simpa using hs.symm))]
      exact ⟨j, by omega, e0 j⟩
    · rw [if_neg (by rintro rfl; simp at hs)]
      exact ⟨j, hj, e1 j⟩
    · rw [if_neg (by rintro rfl; simp at hs)]
      exact ⟨j, hj, e1 j⟩
  · intro h
    fin_cases sid
    · obtain ⟨j, hj, rfl⟩ := h
      exact ⟨_, .inl (.inl ⟨_, ⟨j, by omega, rfl⟩, rfl⟩), rfl, e0 j⟩
    · obtain ⟨j, hj, rfl⟩ := h
      exact ⟨_, .inl (.inr ⟨_, ⟨j, hj, rfl⟩, rfl⟩), rfl, e1 j⟩
    · obtain ⟨j, hj, rfl⟩ := h
      exact ⟨_, .inr ⟨_, ⟨j, hj, rfl⟩, rfl⟩, rfl, e1 j⟩

/-- what `calc_c0` and `c0_test` do together -/
theorem c0_report {eps a R : ℝ} {rb : ℝ → ℝ} (he : 0 < eps) (ha : 0 < a) (ha2 : a + 2 / 10 ^ 5 ≤ 2 * π) (hR : 1 / 10 ^ 5 ≤ R)
    (hrb : ∀ t, a ≤ t → t ≤ 2 * π → 0 < rb t) {fit : Chebfit} (hfit : IsChebfit fit) {p q : ℕ} (hp : 1 ≤ p) (hq : 1 ≤ q)
    (bc : ℝ → Fin 3 → ℂ) :
    ∃ c0 outer all, calcC0 eps a R fit (chebRoots 1024) (setupBasis p q) bc = .ok c0 ∧
      c0Test eps a R rb (setupBasis p q) c0 bc = .ok (outer, all) ∧ FitReport eps a R bc p q outer all := by
  obtain ⟨A, hA, hm⟩ := calcC0_least (a := a) (R := R) he (by norm_num at ha2 ⊢; linarith) (by norm_num at hR ⊢; linarith) hfit hp hq bc
  obtain ⟨o, m, h, ho, hall⟩ := C83_c0_test he ha ha2 hR hrb (fun sid => (hm sid).1) bc
  refine ⟨_, o, m, hA, h, A, fun sid => ⟨?_, (hm sid).2⟩, ?_, ?_⟩
  · rw [(hm sid).1]
    fin_cases sid <;> rfl
  · convert ho using 1
    ext e
    constructor
    · rintro ⟨x, hx, rfl⟩
      obtain ⟨pt, h1, h2, rfl⟩ := (sample_iff a R rb 0 x).2 hx
      exact ⟨pt, h1, h2, rfl⟩
    · rintro ⟨pt, h1, h2, rfl⟩
      exact ⟨pt.arg, (sample_iff a R rb 0 _).1 ⟨pt, h1, h2, rfl⟩, rfl⟩
  · convert hall using 1
    ext e
    constructor
    · rintro ⟨sid, x, hx, rfl⟩
      obtain ⟨pt, h1, h2, rfl⟩ := (sample_iff a R rb sid x).2 hx
      refine ⟨pt, h1, sid, h2, ?_, rfl⟩
      have := (sampleSid_ok ha ha2 hR hrb h1).2.2.1
      rw [h2] at this
      simpa using this
    · rintro ⟨pt, h1, sid, h2, -, rfl⟩
      exact ⟨sid, pt.arg, (sample_iff a R rb sid _).1 ⟨pt, h1, h2, rfl⟩, rfl⟩

/-- the parts of a constructed solver -/
theorem mainBuild_parts {iter : Iter} {b : Brentq} {pr : RunProblem} {r : ℝ → ℝ} {order n : ℕ} {size : ℤ → ℕ × ℕ} {m : MainSolver}
    (h : mainBuild iter b pr r order size ((n : ℤ) + 1) = .ok m) :
    m.s.eps = 1 / 1000 ∧ m.s.e = mkEnv b (n + 1) probAD probA probR r ∧
      m.s.bas = setupBasis (size (n + 1)).1 (size (n + 1)).2 := by
  have h' : mainBuild iter b pr r order size (Int.ofNat (n + 1)) = .ok m := h
  unfold mainBuild at h'
  simp only at h'
  rcases hG : psConstructGrids iter (mkEnv b (n + 1) probAD probA probR r) order with er | G
  · rw [psInit, hG] at h'
    cases h'
  · rw [psInit_ok hG, ok_bind] at h'
    split at h'
    · cases h'
    · rcases hap : initApSolF n iter ⟨mkEnv b (n + 1) probAD probA probR r, order, pr.k, 1 / 1000,
        setupBasis (size (n + 1)).1 (size (n + 1)).2, G, buildCache (mkEnv b (n + 1) probAD probA probR r) (G.allGamma 0),
        pr.src.getD { zeroSource with homogeneous := false }⟩ with er | ap
      · rw [hap] at h'
        cases h'
      · rw [hap] at h'
        cases h'
        exact ⟨rfl, rfl, rfl⟩

/-- **C94** c0_basis.py for a smooth problem: for every size `N` for which the basis sizes of the table are found and every hash order
the script ends without an exception.  It prints the options (under the name of the other script) and then, for 10, 15, …, 95
functions on the outer boundary and three quarters of them (rounded down) on each ray, the largest deviations of the fit. -/
theorem C94_c0 {iter : Iter} (hit : IsIter iter) {b : Brentq} (hb : BrentqSpec b) {fit : Chebfit} (hfit : IsChebfit fit)
    {problem : String} {ex φ : ℝ → ℝ → ℂ} (hpr : SmoothCase problem ex φ) {N : ℤ} (hw : Window N) :
    ∃ (outer all : ℕ → ℝ) (fuel0 : ℕ),
      (∀ j < 18, FitReport (1 / 1000) (π / 4) 2.3 (traces ex (π / 4) fun t => 2.3 + 0.15 * sin (4 / 7 * (t - π / 4)))
        (10 + 5 * j) ((10 + 5 * j) * 3 / 4) (outer j) (all j)) ∧
      ∀ fuel, fuel0 ≤ fuel → c0Basis iter b fit fuel problem N = some (headLines problem (27 / 4) 7 ++
        (List.range 18).flatMap fun j => [.circle (10 + 5 * j), .fit (outer j) (all j), .blank], .ok ()) := by
  have h16 := hw.ge
  have hpi := pi_gt_d2
  obtain ⟨lstsq, hlsq⟩ := exists_isLstsq
  obtain ⟨src, hlook, hφ, hsrc⟩ := smooth_record hpr
  obtain ⟨fuel0, v, hv⟩ := basisSize hw
  obtain ⟨n, rfl⟩ : ∃ n : ℕ, N = (n : ℤ) + 1 := ⟨(N - 1).toNat, by omega⟩
  have T := chooseBoundary_tame basisCurve_eq
  have hcurve : basisCurve = fun t => 2.3 + 0.15 * sin (4 / 7 * (t - π / 4)) := funext basisCurve_apply
  set pr : RunProblem := ⟨smoothK, some src, some ex, some fun r => smoothEvalBc ex r probA, smoothNBasis, none⟩ with hprdef
  have hpass : ∀ j : ℕ, ∃ (m : MainSolver) (c0 : List ℂ) (o al : ℝ),
      mainBuild iter b pr basisCurve 4 (fun _ => (10 + 5 * j, (10 + 5 * j) * 3 / 4)) ((n : ℤ) + 1) = .ok m ∧
      calcC0 m.s.eps m.s.e.a m.s.e.R fit (chebRoots 1024) m.s.bas (traces ex probA basisCurve) = .ok c0 ∧
      c0Test m.s.eps m.s.e.a m.s.e.R m.s.e.evalR m.s.bas c0 (traces ex probA basisCurve) = .ok (o, al) ∧
      FitReport (1 / 1000) probA probR (traces ex probA basisCurve) (10 + 5 * j) ((10 + 5 * j) * 3 / 4) o al := by
    intro j
    obtain ⟨m, -, -, h1, -⟩ := smooth_pass hit hb hfit hlsq (order := 4) (.inr rfl) (n := n) (by omega) basisCurve_eq hφ
      hsrc (smooth_source_zero hpr) (fun _ h => absurd h (by decide)) (nB := smoothNBasis) (m1 := none)
      (size := fun _ => (10 + 5 * j, (10 + 5 * j) * 3 / 4)) (by show 1 ≤ 10 + 5 * j; omega) (by show 1 ≤ (10 + 5 * j) * 3 / 4; omega)
    obtain ⟨p1, p2, p3⟩ := mainBuild_parts h1
    obtain ⟨c0, o, al, k1, k2, k3⟩ := c0_report (eps := 1 / 1000) (a := probA) (R := probR) (rb := basisCurve) (by norm_num)
      (by unfold probA; linarith) (by unfold probA; norm_num at hpi ⊢; linarith) (by unfold probR; norm_num)
      (by
        intro t h1 h2
        have h1' : π / 4 ≤ t := h1
        have := T.lo t (by linarith) (by linarith)
        norm_num at this
        linarith) hfit (p := 10 + 5 * j) (q := (10 + 5 * j) * 3 / 4) (by omega) (by omega) (traces ex probA basisCurve)
    refine ⟨m, c0, o, al, h1, ?_, ?_, k3⟩
    · rw [p1, p2, p3]; exact k1
    · rw [p1, p2, p3]; exact k2
  choose m c0 outer all h1 h2 h3 h4 using hpass
  have hloop : ∀ l : List ℕ, c0Loop iter b fit pr ((n : ℤ) + 1) (l.map fun j => 10 + 5 * j) =
      (l.flatMap fun j => [.circle (10 + 5 * j), .fit (outer j) (all j), .blank], .ok ()) := by
    intro l
    induction l with
    | nil => rfl
    | cons j l ih =>
      rw [List.map_cons, c0Loop, h1 j]
      simp only
      rw [show pr.bc = some fun r => smoothEvalBc ex r probA from rfl]
      simp only
      rw [show (fun (x : ℝ) (sid : Fin 3) => pyGet (smoothEvalBc ex basisCurve probA x sid)) = traces ex probA basisCurve from
        bc_traces ex basisCurve, h2 j]
      simp only
      rw [h3 j]
      simp only
      rw [ih]
      rfl
  refine ⟨outer, all, fuel0, fun j _ => ?_, fun fuel hf => ?_⟩
  · have := h4 j
    rw [hcurve, show probR = 2.3 by unfold probR; norm_num] at this
    exact this
  · unfold c0Basis
    rw [hlook]
    simp only
    rw [hv fuel hf]
    simp only
    rw [basisHead_eq]
    have := hloop (List.range 18)
    rw [show pyRange 10 100 5 = (List.range 18).map fun j => 10 + 5 * j from rfl, this]
    rfl

/-! ## The other problems, and the other sizes -/

/-- **C94** for the three problems of the z-method both scripts end with a RecursionError after the options, as soon as the size of the
grid is one for which the basis sizes are found: the source is not defined. -/
theorem C94_z {iter : Iter} (hit : IsIter iter) {b : Brentq} (hb : BrentqSpec b) (fit : Chebfit) (lstsq : Lstsq)
    (sched : List (ℕ × ℕ × Option ℝ) → List (ℕ × ℕ × Option ℝ)) {problem : String} {k : ℝ}
    (hpr : (problem = "iz-bessel" ∨ problem = "ihz-bessel-line") ∧ k = 27 / 4 ∨ problem = "ihz-bessel-quadratic" ∧ k = 43 / 4)
    {N : ℤ} (hw : Window N) : ∃ fuel0, ∀ fuel, fuel0 ≤ fuel →
      optimizeBasis iter b fit lstsq fuel sched problem N = some (headLines problem k 200, .error .recursionError) ∧
      c0Basis iter b fit fuel problem N = some (headLines problem k 200, .error .recursionError) := by
  have T := chooseBoundary_tame basisCurve_eq
  have h16 := hw.ge
  have hlook : problemTable.lookup problem = some (zProblem k) := by
    rcases hpr with ⟨h | h, rfl⟩ | ⟨h, rfl⟩ <;> rw [h] <;> rfl
  have hz : ∀ n, NoZeroEig n 4 probAD k := by
    intro n
    rcases hpr with ⟨-, rfl⟩ | ⟨-, rfl⟩
    · exact (C78_shipped n (.inr rfl)).2.1
    · exact (C78_shipped n (.inr rfl)).2.2.1
  obtain ⟨n, rfl⟩ : ∃ n : ℕ, N = (n : ℤ) + 1 := ⟨(N - 1).toNat, by omega⟩
  have hbuild : ∀ sz, mainBuild iter b (zProblem k) basisCurve 4 sz ((n : ℤ) + 1) = .error .recursionError := by
    intro sz
    obtain ⟨G, S⟩ := setup_shipped hit hb (n := n) (by omega) (.inr rfl) basisCurve_eq (hz n)
    have hne : iter 6 G.Mplus ≠ [] := by
      obtain ⟨nd, hnd⟩ := interior_nonempty T (N := n + 1) (by omega)
      have h1 := (shipped_interior hit T S.built nd).2 hnd
      exact List.ne_nil_of_mem (((hit 6 G.Mplus).2 nd).2 h1)
    show mainBuild iter b _ basisCurve 4 sz (Int.ofNat (n + 1)) = _
    unfold mainBuild
    simp only
    rw [psInit_ok S.built, ok_bind, if_pos ⟨rfl, hne⟩]
    rfl
  obtain ⟨f, v, hv⟩ := ((C59_shipped ((n : ℤ) + 1)).2.2).2 hw
  refine ⟨f, fun fuel hf => ?_⟩
  have hv' : getNBasis (some (zProblem k).nBasis) defaultNBasis fuel ((n : ℤ) + 1) = some v := nBasis_mono hf hv
  have hm : getM1 none (zProblem k).m1Dict "outer-sine" = 200 := rfl
  constructor
  · unfold optimizeBasis
    rw [hlook]
    simp only
    rw [hv']
    simp only
    rw [show allOptions = (30, 17) :: allOptions.tail from rfl, List.mapM_cons]
    have hworker : basisWorker iter b fit lstsq (zProblem k) ((n : ℤ) + 1) (30, 17) = .error .recursionError := by
      unfold basisWorker
      rw [hbuild]
      rfl
    rw [hworker, error_bind]
    simp only
    rw [basisHead_eq, hm]
    rfl
  · unfold c0Basis
    rw [hlook]
    simp only
    rw [hv']
    simp only
    rw [show pyRange 10 100 5 = 10 :: (pyRange 10 100 5).tail from rfl, c0Loop, hbuild]
    simp only
    rw [basisHead_eq, hm]
    simp
    rfl

/-- **C94** for every other size neither script ends. -/
theorem C94_endless (iter : Iter) (b : Brentq) (fit : Chebfit) (lstsq : Lstsq) (fuel : ℕ)
    (sched : List (ℕ × ℕ × Option ℝ) → List (ℕ × ℕ × Option ℝ)) {problem : String} {pr : RunProblem}
    (hpr : (problem, pr) ∈ problemTable) {N : ℤ} (hw : ¬ Window N) :
    optimizeBasis iter b fit lstsq fuel sched problem N = none ∧ c0Basis iter b fit fuel problem N = none := by
  obtain ⟨hlook, hd⟩ : problemTable.lookup problem = some pr ∧ (pr.nBasis = smoothNBasis ∨ pr.nBasis = singNBasis) := by
    simp only [problemTable, List.mem_cons, Prod.mk.injEq, List.not_mem_nil, or_false] at hpr
    rcases hpr with ⟨h, rfl⟩ | ⟨h, rfl⟩ | ⟨h, rfl⟩ | ⟨h, rfl⟩ | ⟨h, rfl⟩ | ⟨h, rfl⟩ <;> rw [h]
    exacts [⟨rfl, .inl rfl⟩, ⟨rfl, .inl rfl⟩, ⟨rfl, .inl rfl⟩, ⟨rfl, .inr rfl⟩, ⟨rfl, .inr rfl⟩, ⟨rfl, .inr rfl⟩]
  have hnone : getNBasis (some pr.nBasis) defaultNBasis fuel N = none := by
    by_contra hne
    obtain ⟨v, hv⟩ := Option.ne_none_iff_exists'.1 hne
    obtain ⟨-, h2, h3⟩ := C59_shipped N
    rcases hd with h | h <;> rw [h] at hv
    exacts [hw (h2.1 ⟨fuel, v, hv⟩), hw (h3.1 ⟨fuel, v, hv⟩)]
  unfold optimizeBasis c0Basis
  rw [hlook]
  simp only
  rw [hnone]
  exact ⟨rfl, rfl⟩

/-! ## Concrete cases -/

/-- `optimize_basis.py smooth-ycos -N 32`, the lines of the workers reversed: it ends, after 8 + 165 + 2 lines -/
example : ∃ (b : Brentq) (fit : Chebfit) (lstsq : Lstsq) (fuel : ℕ) (lines : List BasisEv),
    optimizeBasis (fun _ s => s.toList) b fit lstsq fuel List.reverse "smooth-ycos" 32 = some (lines, .ok ()) ∧ lines.length = 175 := by
  obtain ⟨b, hb⟩ := exists_brentq
  obtain ⟨fit, hfit⟩ := exists_chebfit
  obtain ⟨lstsq, hlsq⟩ := exists_isLstsq
  obtain ⟨err, lines, c, r, fuel0, -, -, h, -, -, -, -, hrun⟩ := C94_optimize isIter_toList hb hfit hlsq (sched := List.reverse)
    (fun l => l.reverse_perm) .ycos (N := 32) ⟨1, by norm_num, by norm_num⟩
  refine ⟨b, fit, lstsq, fuel0, _, hrun fuel0 le_rfl, ?_⟩
  simp [headLines, h]

/-- `c0_basis.py smooth-e -N 16` -/
example : ∃ (b : Brentq) (fit : Chebfit) (fuel : ℕ) (lines : List BasisEv),
    c0Basis (fun _ s => s.toList) b fit fuel "smooth-e" 16 = some (lines, .ok ()) ∧ lines.length = 62 := by
  obtain ⟨b, hb⟩ := exists_brentq
  obtain ⟨fit, hfit⟩ := exists_chebfit
  obtain ⟨outer, all, fuel0, -, hrun⟩ := C94_c0 isIter_toList hb hfit .e (N := 16) ⟨0, by norm_num, by norm_num⟩
  refine ⟨b, fit, fuel0, _, hrun fuel0 le_rfl, ?_⟩
  simp [headLines]

/-- the first of two pairs with the same error is kept -/
example : bestRow [(30, 17, some 2), (30, 21, some 1), (30, 25, some 1)] = .ok (30, 21, some 1) := by
  simp [bestRow, bestStep, List.foldlM_cons, pure_eq_ok, ok_bind]

/-- without any result `min_t` is not defined, and an error `None` cannot be compared -/
example : bestRow [] = .error .unboundLocalError ∧ bestRow [(30, 17, none)] = .error .typeError := ⟨rfl, rfl⟩

end Pot
