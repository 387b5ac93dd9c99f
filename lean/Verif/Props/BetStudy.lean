import Verif.Model.BetStudy
import Verif.Props.Trend
import Verif.Model.Singular

/-! # C105: the study of the boundaries as they approach the arc, and the error of the expansion -/

namespace Pot
open Real Classical

/-- the size of the perturbation in iteration `i` -/
noncomputable def betAt (i : ℕ) : ℝ := 0.5 * 0.95 ^ i

/-- the assumptions: for every `i < 100` the computation on the boundary with `bet = 0.5·0.95^i` succeeds with `m` basis functions and
gives seven coefficients `c i` and singular values `s i` -/
structure BetOk (jv : ℝ → ℝ → ℝ) (lstsq : Lstsq) (sv : List (List ℂ) → List ℝ) (p : StudyProblem) (name : String) (m : ℕ)
    (c : ℕ → List ℂ) (s : ℕ → List ℝ) : Prop where
  run : ∀ i < 100, ∃ r, betBoundary name p.R (betAt i) probA = .ok r ∧ abCalcFull jv lstsq sv p r m = .ok (c i, s i)
  seven : ∀ i < 100, (c i).length = 7
  fft : 7 ≤ p.fftA.length

/-- **C105.** The study has 100 results, for `bet = 0.5·0.95^i`; all are computed with the number of basis functions that `get_m1` gives
for this boundary. -/
theorem C105_study {jv : ℝ → ℝ → ℝ} {lstsq : Lstsq} {sv : List (List ℂ) → List ℝ} {p : StudyProblem} {m1Attr : Option ℕ}
    {m1Dict : Option (String → Option ℕ)} {name : String} {c : ℕ → List ℂ} {s : ℕ → List ℝ}
    (h : BetOk jv lstsq sv p name (getM1 m1Attr m1Dict name) c s) :
    betStudy jv lstsq sv p m1Attr m1Dict name = .ok ⟨some (getM1 m1Attr m1Dict name), betAt 100,
      (List.range 100).map fun i => ⟨betAt i, absDiffs (c i) (p.fftA.take 7), s i⟩⟩ := by
  have key : ∀ n ≤ 100, ((List.range n).foldlM (init := (⟨none, 0.5, []⟩ : BetState))
      fun st _ => betStep jv lstsq sv p m1Attr m1Dict name st) =
      .ok ⟨if n = 0 then none else some (getM1 m1Attr m1Dict name), betAt n,
        (List.range n).map fun i => ⟨betAt i, absDiffs (c i) (p.fftA.take 7), s i⟩⟩ := by
    intro n
    induction n with
    | zero => intro _; simp [betAt]
    | succ n ih =>
      intro hn
      rw [List.range_succ, List.foldlM_append, ih (by omega), ok_bind, List.foldlM_cons]
      obtain ⟨r, hr, hc⟩ := h.run n (by omega)
      have hf : (p.fftA.take 7).length = 7 := by
        rw [List.length_take]
        exact min_eq_left h.fft
      have hsub : arrSub (c n) (p.fftA.take 7) = .ok (List.zipWith (· - ·) (c n) (p.fftA.take 7)) :=
        if_pos (by rw [h.seven n (by omega), hf])
      have habs : arrAbs (List.zipWith (· - ·) (c n) (p.fftA.take 7)) = absDiffs (c n) (p.fftA.take 7) := by
        simp [arrAbs, absDiffs, List.map_zipWith]
      have hm : (if n = 0 then none else some (getM1 m1Attr m1Dict name) : Option ℕ).getD (getM1 m1Attr m1Dict name) =
          getM1 m1Attr m1Dict name := by
        by_cases h0 : n = 0
        · simp [h0]
        · simp [h0]
      have hstep : betStep jv lstsq sv p m1Attr m1Dict name ⟨if n = 0 then none else some (getM1 m1Attr m1Dict name), betAt n,
          (List.range n).map fun i => ⟨betAt i, absDiffs (c i) (p.fftA.take 7), s i⟩⟩ =
          .ok ⟨some (getM1 m1Attr m1Dict name), betAt (n + 1), ((List.range n).map fun i =>
            ⟨betAt i, absDiffs (c i) (p.fftA.take 7), s i⟩) ++ [⟨betAt n, absDiffs (c n) (p.fftA.take 7), s n⟩]⟩ := by
        unfold betStep
        simp only [hm, hr, ok_bind, hc, hsub, habs, pure_eq_ok]
        have : betAt n * 0.95 = betAt (n + 1) := by
          unfold betAt
          rw [pow_succ]
          ring
        rw [this]
      rw [hstep]
      simp
  have := key 100 le_rfl
  simpa [betStudy] using this

/-- the logarithm of the size of the perturbation -/
theorem logb_betAt (i : ℕ) : logb 10 (betAt i) = logb 10 0.5 + i * logb 10 0.95 := by
  unfold betAt
  rw [logb_mul (by norm_num) (by positivity), logb_pow]

theorem betAt_pos (i : ℕ) : 0 < betAt i := by unfold betAt; positivity

theorem betAt_anti {i j : ℕ} (h : i < j) : betAt j < betAt i := by
  unfold betAt
  have : (0.95 : ℝ) ^ j < 0.95 ^ i := pow_lt_pow_right_of_lt_one₀ (by norm_num) (by norm_num) h
  linarith

/-- **C105.** The plot has 100 points; their abscissae decrease in equal steps and all lie within the limits of the plot. -/
theorem C105_plot {jv : ℝ → ℝ → ℝ} {lstsq : Lstsq} {sv : List (List ℂ) → List ℝ} {p : StudyProblem} {m1Attr : Option ℕ}
    {m1Dict : Option (String → Option ℕ)} {name : String} {c : ℕ → List ℂ} {s : ℕ → List ℝ}
    (h : BetOk jv lstsq sv p name (getM1 m1Attr m1Dict name) c s) (hs : ∀ i < 100, s i ≠ []) :
    ∃ (st : BetState) (x : ℕ → ℝ) (y z : ℕ → WithBot ℝ), betStudy jv lstsq sv p m1Attr m1Dict name = .ok st ∧
      betPlot st.results = .ok ((List.range 100).map fun i => ((x i : WithBot ℝ), y i, z i)) ∧
      (∀ i, x (i + 1) - x i = logb 10 0.95) ∧ (∀ i j, i < j → x j < x i) ∧ (∀ i < 100, betShown (x i)) ∧
      ∀ i < 100, ∃ e rest, absDiffs (c i) (p.fftA.take 7) = e :: rest ∧ y i = log10 e := by
  refine ⟨_, fun i => logb 10 (betAt i), fun i => log10 ((absDiffs (c i) (p.fftA.take 7)).getD 0 0),
    fun i => log10 ((s i).getLastD 0), C105_study h, ?_, ?_, ?_, ?_, ?_⟩
  · unfold betPlot
    simp only
    rw [List.mapM_map]
    refine mapM_ok fun i hi => ?_
    rw [List.mem_range] at hi
    have hf : (p.fftA.take 7).length = 7 := by
      rw [List.length_take]
      exact min_eq_left h.fft
    have hlen : (absDiffs (c i) (p.fftA.take 7)).length = 7 := by simp [absDiffs, hf, h.seven i hi]
    have h1 : listGet (absDiffs (c i) (p.fftA.take 7)) 0 = .ok ((absDiffs (c i) (p.fftA.take 7)).getD 0 0) := by
      unfold listGet
      rw [List.getElem?_eq_getElem (by omega), List.getD_eq_getElem _ _ (by omega)]
      rfl
    have h2 : lastOf (s i) = .ok ((s i).getLastD 0) := by
      unfold lastOf
      rw [List.getLast?_eq_some_getLast (hs i hi)]
      simp only [List.getLastD_eq_getLast?, List.getLast?_eq_some_getLast (hs i hi), Option.getD_some]
    simp only [Function.comp, h1, ok_bind, h2, pure_eq_ok]
    rw [show log10 (betAt i) = ((logb 10 (betAt i) : ℝ) : WithBot ℝ) from if_neg (betAt_pos i).ne']
  · intro i
    simp only [logb_betAt]
    push_cast
    ring
  · intro i j hij
    exact logb_lt_logb (by norm_num) (betAt_pos j) (betAt_anti hij)
  · intro i hi
    constructor
    · refine WithBot.coe_le_coe.2 ?_
      rw [le_logb_iff_rpow_le (by norm_num) (betAt_pos i)]
      have h99 : betAt 99 ≤ betAt i := by
        rcases Nat.lt_or_ge i 99 with h | h
        · exact (betAt_anti h).le
        · rw [show i = 99 by omega]
      refine le_trans ?_ h99
      rw [show (-3 : ℝ) = ((-3 : ℤ) : ℝ) by norm_num, rpow_intCast]
      unfold betAt
      norm_num
    · refine WithBot.coe_le_coe.2 ?_
      rw [logb_le_iff_le_rpow (by norm_num) (betAt_pos i)]
      have h0 : betAt i ≤ betAt 0 := by
        rcases Nat.eq_zero_or_pos i with h | h
        · rw [h]
        · exact (betAt_anti h).le
      refine le_trans h0 ?_
      have h16 : (0.5 : ℝ) = (16 : ℝ) ^ (-0.25 : ℝ) := by
        rw [show (16 : ℝ) = 2 ^ (4 : ℝ) by norm_num, ← rpow_mul (by norm_num)]
        norm_num
      unfold betAt
      rw [pow_zero, mul_one, h16]
      exact rpow_le_rpow_of_nonpos (by norm_num) (by norm_num) (by norm_num)
  · intro i hi
    have hf : (p.fftA.take 7).length = 7 := by
      rw [List.length_take]
      exact min_eq_left h.fft
    have hlen : (absDiffs (c i) (p.fftA.take 7)).length = 7 := by simp [absDiffs, hf, h.seven i hi]
    cases hd : absDiffs (c i) (p.fftA.take 7) with
    | nil => rw [hd] at hlen; simp at hlen
    | cons e rest => exact ⟨e, rest, rfl, by simp [hd]⟩

/-- **C105.** On the arc all results are the same: the curves of the plot are horizontal lines. -/
theorem C105_arc {jv : ℝ → ℝ → ℝ} {lstsq : Lstsq} {sv : List (List ℂ) → List ℝ} {p : StudyProblem} {m1Attr : Option ℕ}
    {m1Dict : Option (String → Option ℕ)} {c : ℕ → List ℂ} {s : ℕ → List ℝ}
    (h : BetOk jv lstsq sv p "arc" (getM1 m1Attr m1Dict "arc") c s) :
    ∃ (st : BetState) (e s0 : List ℝ), betStudy jv lstsq sv p m1Attr m1Dict "arc" = .ok st ∧
      ∀ d ∈ st.results, d.aError = e ∧ d.singularVals = s0 := by
  have hc : ∀ i < 100, c i = c 0 ∧ s i = s 0 := by
    intro i hi
    obtain ⟨r, hr, h1⟩ := h.run i hi
    obtain ⟨r0, hr0, h2⟩ := h.run 0 (by norm_num)
    have e1 : r = arcR p.R := by
      have : (Except.ok (arcR p.R) : Py (ℝ → ℝ)) = .ok r := hr
      exact (Except.ok.inj this).symm
    have e2 : r0 = arcR p.R := by
      have : (Except.ok (arcR p.R) : Py (ℝ → ℝ)) = .ok r0 := hr0
      exact (Except.ok.inj this).symm
    rw [e1] at h1
    rw [e2, h1] at h2
    exact ⟨(Prod.mk.inj (Except.ok.inj h2)).1, (Prod.mk.inj (Except.ok.inj h2)).2⟩
  refine ⟨_, absDiffs (c 0) (p.fftA.take 7), s 0, C105_study h, ?_⟩
  intro d hd
  simp only [List.mem_map, List.mem_range] at hd
  obtain ⟨i, hi, rfl⟩ := hd
  rw [(hc i hi).1, (hc i hi).2]
  exact ⟨rfl, rfl⟩

/-- **C105.** An unknown boundary is a KeyError. -/
theorem C105_unknown {jv : ℝ → ℝ → ℝ} {lstsq : Lstsq} {sv : List (List ℂ) → List ℝ} {p : StudyProblem} {m1Attr : Option ℕ}
    {m1Dict : Option (String → Option ℕ)} {name : String}
    (h : name ∉ ["arc", "outer-sine", "inner-sine", "sine7", "cubic"]) :
    betStudy jv lstsq sv p m1Attr m1Dict name = .error .keyError := by
  have hb : ∀ bet, betBoundary name p.R bet probA = .error .keyError := by
    intro bet
    simp only [List.mem_cons, List.not_mem_nil, or_false, not_or] at h
    unfold betBoundary
    split <;> simp_all
  unfold betStudy
  rw [List.range_succ_eq_map, List.foldlM_cons]
  have : betStep jv lstsq sv p m1Attr m1Dict name ⟨none, 0.5, []⟩ = .error .keyError := by
    unfold betStep
    simp only [hb]
    rfl
  rw [this]
  rfl

/-! ## The expansion -/

/-- **C105.** `b_expan` is the partial sum of the sine series, and an IndexError exactly if there are fewer coefficients than terms. -/
theorem C105_expan (b : List ℂ) (n : ℕ) (nu a th : ℝ) :
    bExpan b n nu a th = if b.length < n then .error .indexError
      else .ok (∑ m ∈ Finset.range n, b.getD m 0 * ((sin ((m + 1 : ℕ) * nu * (th - a)) : ℝ) : ℂ)) := by
  have key : ∀ n, bExpan b n nu a th = if b.length < n then .error .indexError
      else .ok (∑ m ∈ Finset.range n, b.getD m 0 * ((sin ((m + 1 : ℕ) * nu * (th - a)) : ℝ) : ℂ)) := by
    intro n
    induction n with
    | zero => simp [bExpan]
    | succ n ih =>
      unfold bExpan at ih ⊢
      rw [List.range'_1_concat, List.foldlM_append, ih]
      by_cases h1 : b.length < n
      · rw [if_pos h1, if_pos (by omega)]
        rfl
      · rw [if_neg h1, ok_bind, List.foldlM_cons]
        have hidx : 1 + n - 1 = n := by omega
        by_cases h2 : b.length < n + 1
        · rw [if_pos h2, hidx]
          have : listGet b n = .error .indexError := by
            unfold listGet
            rw [List.getElem?_eq_none (by omega)]
            rfl
          rw [this]
          rfl
        · rw [if_neg h2, hidx]
          have : listGet b n = .ok (b.getD n 0) := by
            unfold listGet
            rw [List.getElem?_eq_getElem (by omega), List.getD_eq_getElem _ _ (by omega)]
            rfl
          rw [this, ok_bind, pure_eq_ok, ok_bind, List.foldlM_nil, pure_eq_ok, Finset.sum_range_succ, Nat.add_comm 1 n]
  exact key n

/-- **C105.** For a problem with the coefficients that `SingularKnown` keeps (300 at most) the program stops with an IndexError. -/
theorem C105_expansion_fails {n : ℕ} (coef : Fin n → ℂ) (evalPhi0 : ℝ → ℂ) (nu a : ℝ) :
    expansionError ((List.ofFn coef).take skMMax) evalPhi0 nu a = .error .indexError := by
  have hlen : ((List.ofFn coef).take skMMax).length < 500 := by
    rw [List.length_take, skMMax]
    omega
  unfold expansionError
  rw [mapM_error (e := .indexError)]
  · rfl
  · intro th _
    rw [C105_expan, if_pos hlen]
    exact Or.inl rfl
  · have hne : linspace a (2 * π) 512 ≠ [] := by
      intro h
      have := congrArg List.length h
      simp [linspace] at this
    obtain ⟨th, hth⟩ := List.exists_mem_of_ne_nil _ hne
    refine ⟨th, hth, ?_⟩
    rw [C105_expan, if_pos hlen]
    rfl

/-- **C105.** With 500 coefficients it prints the largest error at the 512 angles. -/
theorem C105_expansion {b : List ℂ} (hb : 500 ≤ b.length) (evalPhi0 : ℝ → ℂ) (nu a : ℝ) :
    ∃ e, expansionError b evalPhi0 nu a = .ok e ∧ Spec.IsLargest ((linspace a (2 * π) 512).map fun th =>
      ‖evalPhi0 th - ∑ m ∈ Finset.range 500, b.getD m 0 * ((sin ((m + 1 : ℕ) * nu * (th - a)) : ℝ) : ℂ)‖) e := by
  unfold expansionError
  rw [mapM_ok (g := fun th => evalPhi0 th - ∑ m ∈ Finset.range 500, b.getD m 0 * ((sin ((m + 1 : ℕ) * nu * (th - a)) : ℝ) : ℂ))]
  · rw [ok_bind]
    have hm : arrAbs ((linspace a (2 * π) 512).map fun th => evalPhi0 th - ∑ m ∈ Finset.range 500, b.getD m 0 *
        ((sin ((m + 1 : ℕ) * nu * (th - a)) : ℝ) : ℂ)) = (linspace a (2 * π) 512).map fun th =>
        ‖evalPhi0 th - ∑ m ∈ Finset.range 500, b.getD m 0 * ((sin ((m + 1 : ℕ) * nu * (th - a)) : ℝ) : ℂ)‖ := by
      unfold arrAbs
      rw [List.map_map]
      rfl
    rw [hm]
    refine arrMax_largest ?_
    intro h
    have := congrArg List.length h
    simp [linspace] at this
  · intro th _
    rw [C105_expan, if_neg (by omega)]
    rfl

/-- C105: the assumptions are met by the data of the example of C104 -/
example : BetOk (fun _ _ => 1) (fun A _ => List.replicate A.length ((A.length : ℂ) / 100)) (fun _ => [1]) (demoProblem 6.75) "outer-sine"
    (getM1 none (some singM1) "outer-sine") (fun _ => (List.replicate 200 ((200 : ℂ) / 100)).take 7) (fun _ => [1]) := by
  have hm : getM1 none (some singM1) "outer-sine" = 200 := by decide
  refine ⟨?_, ?_, ?_⟩
  · intro i _
    refine ⟨_, rfl, ?_⟩
    unfold abCalcFull
    simp only
    rw [abColumns_eq _ abNodes _ _ _ _ _ studyM _ fun j _ _ => one_ne_zero, ok_bind, hm]
    rw [List.length_map, List.length_range']
    simp only [studyM, pure_eq_ok]
    norm_num
  · intro i _
    rw [List.length_take, List.length_replicate]
    norm_num
  · show 7 ≤ (List.replicate 300 (1 : ℂ)).length
    rw [List.length_replicate]
    norm_num

end Pot
