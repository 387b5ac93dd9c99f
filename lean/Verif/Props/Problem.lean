import Verif.Model.Problem
import Verif.Model.SolverCoord
import Verif.Proofs.Polar
import Mathlib.Tactic.IntervalCases
import Mathlib.Tactic.Linarith

/-! # C59, C66, C73: the base classes of the problems, and the hat function -/

namespace Pot
open Real

/-! ## C59 -/

/-- **C59** the tables are Python dict displays: the last entry under a key counts. -/
theorem C59_dict {β : Type} (l : List (ℤ × β)) (n : ℤ) (v : β) :
    dictOf (l ++ [(n, v)]) n = some v ∧ (∀ m, m ≠ n → dictOf (l ++ [(n, v)]) m = dictOf l m) ∧ dictOf ([] : List (ℤ × β)) n = none := by
  refine ⟨by simp [dictOf], fun m hm => ?_, rfl⟩
  unfold dictOf
  rw [List.reverse_append, List.reverse_singleton, List.singleton_append, List.find?_cons_of_neg]
  simpa using Ne.symm hm

/-- **C59** `get_n_basis` returns the entry of the first of `N`, `N // 2`, `N // 4`, … that is in the table. -/
theorem C59_loop {β : Type} (dict : ℤ → Option β) (v : β) : ∀ (fuel : ℕ) (N : ℤ), nBasisLoop dict fuel N = some v ↔
    ∃ i < fuel, dict (N / 2 ^ i) = some v ∧ ∀ j < i, dict (N / 2 ^ j) = none := by
  intro fuel
  induction fuel with
  | zero => intro N; simp [nBasisLoop]
  | succ fuel ih =>
    intro N
    have hdiv : ∀ i : ℕ, N / 2 / 2 ^ i = N / 2 ^ (i + 1) := fun i => by
      rw [Int.ediv_ediv_of_nonneg (by norm_num), pow_succ, mul_comm]
    unfold nBasisLoop
    cases hN : dict N with
    | some w =>
      constructor
      · intro h
        refine ⟨0, by omega, ?_, by omega⟩
        simp only [pow_zero, Int.ediv_one, hN]
        exact h
      · rintro ⟨i, -, h1, h2⟩
        cases i with
        | zero => simpa [hN] using h1
        | succ i =>
          have := h2 0 (by omega)
          simp [hN] at this
    | none =>
      show nBasisLoop dict fuel (N / 2) = some v ↔ _
      rw [ih]
      constructor
      · rintro ⟨i, hi, h1, h2⟩
        refine ⟨i + 1, by omega, by rw [← hdiv]; exact h1, ?_⟩
        intro j hj
        cases j with
        | zero => simpa using hN
        | succ j => rw [← hdiv]; exact h2 j (by omega)
      · rintro ⟨i, hi, h1, h2⟩
        cases i with
        | zero => simp [hN] at h1
        | succ i =>
          refine ⟨i, by omega, by rw [hdiv]; exact h1, fun j hj => ?_⟩
          rw [hdiv]
          exact h2 (j + 1) (by omega)

/-- **C59** it terminates exactly when one of them is. -/
theorem C59_terminates {β : Type} (dict : ℤ → Option β) (N : ℤ) :
    (∃ fuel v, nBasisLoop dict fuel N = some v) ↔ ∃ i : ℕ, dict (N / 2 ^ i) ≠ none := by
  classical
  constructor
  · rintro ⟨fuel, v, h⟩
    obtain ⟨i, -, h1, -⟩ := (C59_loop dict v fuel N).1 h
    exact ⟨i, by rw [h1]; simp⟩
  · intro h
    have hm := Nat.find_spec h
    obtain ⟨v, hv⟩ := Option.ne_none_iff_exists'.1 hm
    refine ⟨Nat.find h + 1, v, (C59_loop dict v _ N).2 ⟨Nat.find h, by omega, hv, fun j hj => ?_⟩⟩
    by_contra hc
    exact Nat.find_min h hj hc

theorem dictOf_ne_none {β : Type} (l : List (ℤ × β)) (n : ℤ) : dictOf l n ≠ none ↔ n ∈ l.map Prod.fst := by
  unfold dictOf
  rw [Ne, Option.map_eq_none_iff, ← Ne, ← Option.isSome_iff_ne_none, List.find?_isSome]
  simp only [List.mem_reverse, decide_eq_true_eq, List.mem_map]

/-- tables whose keys are powers of two times 16, starting with 16 -/
theorem C59_window {β : Type} (dict : ℤ → Option β) (m : ℕ) (hm : 1 ≤ m)
    (hd : ∀ n, dict n ≠ none ↔ ∃ i < m, n = 16 * 2 ^ i) (N : ℤ) :
    (∃ fuel v, nBasisLoop dict fuel N = some v) ↔ ∃ i : ℕ, 16 * 2 ^ i ≤ N ∧ N < 17 * 2 ^ i := by
  rw [C59_terminates]
  have hp : ∀ i : ℕ, (0 : ℤ) < 2 ^ i := fun i => by positivity
  have hw : ∀ (i : ℕ) (c : ℤ), N / 2 ^ i = c ↔ c * 2 ^ i ≤ N ∧ N < (c + 1) * 2 ^ i := by
    intro i c
    constructor
    · rintro rfl
      exact ⟨Int.ediv_mul_le _ (hp i).ne', Int.lt_ediv_add_one_mul_self _ (hp i)⟩
    · rintro ⟨h1, h2⟩
      have a1 := (Int.le_ediv_iff_mul_le (hp i)).2 h1
      have a2 := (Int.ediv_lt_iff_lt_mul (hp i)).2 h2
      omega
  constructor
  · rintro ⟨i, h⟩
    obtain ⟨l, -, h⟩ := (hd _).1 h
    obtain ⟨h1, h2⟩ := (hw i _).1 h
    refine ⟨i + l, by rw [pow_add]; linarith, ?_⟩
    have := mul_le_mul_of_nonneg_right (show (16 * 2 ^ l + 1 : ℤ) ≤ 17 * 2 ^ l by have := hp l; omega) (hp i).le
    rw [pow_add]
    linarith
  · rintro ⟨i, h1, h2⟩
    exact ⟨i, (hd _).2 ⟨0, by omega, by rw [(hw i 16).2 ⟨h1, by norm_num; exact h2⟩]; norm_num⟩⟩

theorem defaultNBasis_keys (n : ℤ) : defaultNBasis n ≠ none ↔ ∃ i < 5, n = 16 * 2 ^ i := by
  rw [defaultNBasis, dictOf_ne_none]
  simp only [List.map_cons, List.map_nil, List.mem_cons, List.not_mem_nil, or_false]
  constructor
  · rintro (h | h | h | h | h)
    exacts [⟨0, by norm_num, h⟩, ⟨1, by norm_num, h⟩, ⟨2, by norm_num, h⟩, ⟨3, by norm_num, h⟩, ⟨4, by norm_num, h⟩]
  · rintro ⟨i, hi, h⟩
    interval_cases i <;> omega

theorem dictOf7_keys {β : Type} (v : Fin 7 → β) (n : ℤ) :
    dictOf [(16, v 0), (32, v 1), (64, v 2), (128, v 3), (256, v 4), (512, v 5), (1024, v 6)] n ≠ none ↔ ∃ i < 7, n = 16 * 2 ^ i := by
  rw [dictOf_ne_none]
  simp only [List.map_cons, List.map_nil, List.mem_cons, List.not_mem_nil, or_false]
  constructor
  · rintro (h | h | h | h | h | h | h)
    exacts [⟨0, by norm_num, h⟩, ⟨1, by norm_num, h⟩, ⟨2, by norm_num, h⟩, ⟨3, by norm_num, h⟩, ⟨4, by norm_num, h⟩,
      ⟨5, by norm_num, h⟩, ⟨6, by norm_num, h⟩]
  · rintro ⟨i, hi, h⟩
    interval_cases i <;> omega

/-- **C59** for the three tables of the repository the loop ends exactly for `N` in `[16 · 2^i, 17 · 2^i)` for some `i`. -/
theorem C59_shipped (N : ℤ) :
    ((∃ fuel v, getNBasis none defaultNBasis fuel N = some v) ↔ ∃ i : ℕ, 16 * 2 ^ i ≤ N ∧ N < 17 * 2 ^ i) ∧
    ((∃ fuel v, getNBasis (some smoothNBasis) defaultNBasis fuel N = some v) ↔ ∃ i : ℕ, 16 * 2 ^ i ≤ N ∧ N < 17 * 2 ^ i) ∧
    ((∃ fuel v, getNBasis (some singNBasis) defaultNBasis fuel N = some v) ↔ ∃ i : ℕ, 16 * 2 ^ i ≤ N ∧ N < 17 * 2 ^ i) :=
  ⟨C59_window _ 5 (by norm_num) defaultNBasis_keys N,
    C59_window _ 7 (by norm_num) (dictOf7_keys ![(20, 6), (33, 8), (42, 12), (65, 18), (80, 30), (80, 45), (80, 45)]) N,
    C59_window _ 7 (by norm_num) (dictOf7_keys ![(25, 5), (30, 20), (40, 30), (55, 40), (70, 60), (90, 60), (110, 60)]) N⟩

/-- **C59** it never ends for any `N < 16`, nor for `N = 24`. -/
theorem C59_endless (dict : ℤ → Option (ℕ × ℕ)) (h : dict = defaultNBasis ∨ dict = smoothNBasis ∨ dict = singNBasis) (N : ℤ)
    (hN : N < 16 ∨ N = 24) (fuel : ℕ) : nBasisLoop dict fuel N = none := by
  by_contra hc
  obtain ⟨v, hv⟩ := Option.ne_none_iff_exists'.1 hc
  have key : ∃ i : ℕ, 16 * 2 ^ i ≤ N ∧ N < 17 * 2 ^ i := by
    obtain ⟨h1, h2, h3⟩ := C59_shipped N
    rcases h with rfl | rfl | rfl
    exacts [h1.1 ⟨fuel, v, hv⟩, h2.1 ⟨fuel, v, hv⟩, h3.1 ⟨fuel, v, hv⟩]
  obtain ⟨i, k1, k2⟩ := key
  have hp : (1 : ℤ) ≤ 2 ^ i := by exact_mod_cast Nat.one_le_two_pow
  rcases hN with hN | rfl
  · omega
  · cases i with
    | zero => norm_num at k2
    | succ i =>
      have : (1 : ℤ) ≤ 2 ^ i := by exact_mod_cast Nat.one_le_two_pow
      rw [pow_succ] at k1
      omega

/-- **C59** on the grids of a convergence run from `N = 16` the size is the one of the largest table entry not above `N`. -/
theorem C59_powers {β : Type} (dict : ℤ → Option β) (m : ℕ) (hm : 1 ≤ m) (hd : ∀ n, dict n ≠ none ↔ ∃ i < m, n = 16 * 2 ^ i)
    (i : ℕ) : ∃ v, dict (16 * 2 ^ min i (m - 1)) = some v ∧ nBasisLoop dict (i + 1) (16 * 2 ^ i) = some v := by
  have hs : dict (16 * 2 ^ min i (m - 1)) ≠ none := (hd _).2 ⟨min i (m - 1), by omega, rfl⟩
  obtain ⟨v, hv⟩ := Option.ne_none_iff_exists'.1 hs
  have hdiv : ∀ j ≤ i, (16 * 2 ^ i : ℤ) / 2 ^ j = 16 * 2 ^ (i - j) := by
    intro j hj
    refine Int.ediv_eq_of_eq_mul_left (by positivity) ?_
    rw [mul_assoc, ← pow_add, Nat.sub_add_cancel hj]
  refine ⟨v, hv, (C59_loop dict v _ _).2 ⟨i - min i (m - 1), by omega, ?_, fun j hj => ?_⟩⟩
  · rw [hdiv _ (by omega), show i - (i - min i (m - 1)) = min i (m - 1) by omega]
    exact hv
  · rw [hdiv _ (by omega)]
    by_contra hc
    obtain ⟨l, hl, h⟩ := (hd _).1 hc
    have : (2 : ℤ) ^ (i - j) = 2 ^ l := by linarith
    have := Int.pow_right_injective (a := 2) (by norm_num) this
    omega

/-- C59: the default table for `N = 512` and for `N = 33` -/
example : nBasisLoop defaultNBasis 2 512 = some (45, 29) ∧ nBasisLoop defaultNBasis 2 33 = some (21, 9) ∧
    nBasisLoop smoothNBasis 1 64 = some (42, 12) := by decide

/-! ## C73: the mutually recursive defaults -/

/-- **C73** a problem that gives its solution in Cartesian coordinates only: the polar form evaluates it at the point. -/
theorem C73_cart {α : Type} (u : ℝ → ℝ → α) (a : ℝ) (fuel : ℕ) (r th x y : ℝ) :
    evalExpected (some u) none a (fuel + 1) x y = some (u x y) ∧
    evalExpectedPolar (some u) none a (fuel + 2) r th = some (u (r * cos th) (r * sin th)) := by
  simp [evalExpected, evalExpectedPolar]

/-- **C73** a problem that gives its solution in polar coordinates only: at a grid node it is evaluated at the polar coordinates
that the solver uses, in particular with an angle in `[a/2, a/2 + 2π)`. -/
theorem C73_polar {α : Type} (u : ℝ → ℝ → α) (a : ℝ) (fuel : ℕ) (AD : ℝ) (N : ℕ) (i j : ℝ) :
    evalExpected none (some u) a (fuel + 2) (getCoord AD N i j).1 (getCoord AD N i j).2
      = some (u (getPolar AD N a i j).1 (getPolar AD N a i j).2) ∧
    ∀ r th, evalExpectedPolar none (some u) a (fuel + 1) r th = some (u r th) := by
  refine ⟨?_, fun r th => by simp [evalExpectedPolar]⟩
  rw [getPolar_eq]
  simp only [evalExpected, evalExpectedPolar]
  split_ifs <;> rfl

/-- **C73** a problem that gives neither (as `IHZ_Bessel_Line`) calls itself without end, whatever the depth of the stack. -/
theorem C73_recursion {α : Type} (a : ℝ) (fuel : ℕ) : ∀ x y : ℝ,
    evalExpected (none : Option (ℝ → ℝ → α)) none a fuel x y = none ∧
    evalExpectedPolar (none : Option (ℝ → ℝ → α)) none a fuel x y = none := by
  induction fuel with
  | zero => intro x y; simp [evalExpected, evalExpectedPolar]
  | succ fuel ih =>
    intro x y
    simp only [evalExpected, evalExpectedPolar]
    exact ⟨(ih _ _).2, (ih _ _).1⟩

/-- **C73** the source: zero for a homogeneous problem, otherwise evaluated at the same point; without either form an endless
recursion. -/
theorem C73_source (fuel : ℕ) (x y : ℝ) :
    (evalF true none none (fuel + 1) x y = some 0 ∧ evalFPolar true none none (fuel + 1) x y = some 0) ∧
    (∀ f : ℝ → ℝ → ℂ, evalFPolar false (some f) none (fuel + 2) x y = some (f (x * cos y) (x * sin y))) ∧
    (∀ f : ℝ → ℝ → ℂ, evalF false none (some f) (fuel + 2) x y = some (f (cartToPolar x y).1 (cartToPolar x y).2)) ∧
    (evalF false none none fuel x y = none ∧ evalFPolar false none none fuel x y = none) := by
  refine ⟨by simp [evalF, evalFPolar], fun f => by simp [evalF, evalFPolar], fun f => by simp [evalF, evalFPolar], ?_⟩
  induction fuel generalizing x y with
  | zero => simp [evalF, evalFPolar]
  | succ fuel ih =>
    simp only [evalF, evalFPolar]
    exact ⟨(ih _ _).2, (ih _ _).1⟩

/-- **C73** `get_m1`: an attribute `m1` wins over the table, the table over the default 7. -/
theorem C73_m1 (m1 : Option ℕ) (d : Option (String → Option ℕ)) (b : String) :
    getM1 m1 d b = m1.getD ((d.bind fun t => t b).getD 7) := by
  cases m1 with
  | some m => rfl
  | none => cases d with
    | none => rfl
    | some t =>
      show (match t b with | some m => m | none => 7) = _
      simp only [Option.getD_none, Option.bind_some]
      cases t b <;> rfl

/-- C73: the five boundaries and the z-method table -/
example : (["arc", "outer-sine", "inner-sine", "cubic", "sine7", "other"].map fun b => getM1 none (some singM1) b)
    = [7, 200, 200, 200, 200, 7] := by decide

/-! ## C66 -/

/-- **C66** `eval_hat_x` never divides by zero, is even, and is the smooth bump function on `|x| ≤ 1 - 10⁻¹⁵` and zero outside. -/
theorem C66_hat (x : ℝ) : ∃ v, evalHatX x = .ok v ∧ evalHatX (-x) = .ok v ∧ 0 ≤ v ∧ v ≤ exp (-1) ∧
    (v = 0 ↔ 1 - 1 / 10 ^ 15 < |x|) ∧ (|x| ≤ 1 - 1 / 10 ^ 15 → v = exp (-1 / (1 - x ^ 2))) := by
  have hiff : (|(|x| - 1)| < 1 / 10 ^ 15 ∨ |x| > 1) ↔ 1 - 1 / 10 ^ 15 < |x| := by
    constructor
    · rintro (h | h)
      · have := (abs_lt.1 h).1; linarith
      · have : (0 : ℝ) < 1 / 10 ^ 15 := by positivity
        linarith
    · intro h
      rcases le_or_gt |x| 1 with h1 | h1
      · left
        rw [abs_of_nonpos (by linarith)]
        linarith
      · exact .inr h1
  by_cases hx : 1 - 1 / 10 ^ 15 < |x|
  · have h1 := hiff.2 hx
    refine ⟨0, ?_, ?_, le_rfl, (exp_pos _).le, ⟨fun _ => hx, fun _ => rfl⟩, fun h => absurd hx (by linarith)⟩
    · unfold evalHatX; rw [if_pos h1]; rfl
    · unfold evalHatX; rw [abs_neg, if_pos h1]; rfl
  · have h1 := fun h => hx (hiff.1 h)
    have hlt : |x| < 1 := by
      have : (0 : ℝ) < 1 / 10 ^ 15 := by positivity
      linarith
    have hsq : x ^ 2 < 1 := by rw [← sq_abs]; nlinarith [abs_nonneg x]
    have hne : 1 - x ^ 2 ≠ 0 := by linarith
    refine ⟨exp (-1 / (1 - x ^ 2)), ?_, ?_, (exp_pos _).le, ?_, ⟨fun h => absurd h (exp_pos _).ne', fun h => absurd h hx⟩,
      fun _ => rfl⟩
    · unfold evalHatX; rw [if_neg h1, if_neg hne]; rfl
    · unfold evalHatX; rw [abs_neg, neg_sq, if_neg h1, if_neg hne]; rfl
    · rw [exp_le_exp, neg_div, neg_le_neg_iff, le_div_iff₀ (by linarith)]
      nlinarith [sq_nonneg x]

/-- **C66** the guard changes the bump function by less than `exp(-5·10¹⁴)`. -/
theorem C66_guard {x v : ℝ} (h : evalHatX x = .ok v) (hx : |x| < 1) : |v - exp (-1 / (1 - x ^ 2))| ≤ exp (-(10 ^ 15 / 2)) := by
  obtain ⟨w, hw, -, -, -, hz, hb⟩ := C66_hat x
  rw [h] at hw
  cases hw
  have hsq : x ^ 2 < 1 := by rw [← sq_abs]; nlinarith [abs_nonneg x]
  rcases le_or_gt |x| (1 - 1 / 10 ^ 15) with h1 | h1
  · rw [hb h1, sub_self, abs_zero]
    exact (exp_pos _).le
  · rw [hz.2 h1, zero_sub, abs_neg, abs_of_pos (exp_pos _), exp_le_exp, neg_div, neg_le_neg_iff, le_div_iff₀ (by linarith)]
    have : 1 - x ^ 2 ≤ 2 / 10 ^ 15 := by
      rw [← sq_abs]
      nlinarith [abs_nonneg x]
    calc (10 ^ 15 / 2 : ℝ) * (1 - x ^ 2) ≤ 10 ^ 15 / 2 * (2 / 10 ^ 15) := mul_le_mul_of_nonneg_left this (by norm_num)
      _ = 1 := by norm_num

/-- **C66** the argument of `eval_hat_th` maps `[a, 2π]` onto `[-1, 1]`, and the hat vanishes at both corners. -/
theorem C66_hat_th {a : ℝ} (ha : a < 2 * π) : evalHatTh a a = .ok 0 ∧ evalHatTh a (2 * π) = .ok 0 ∧
    (fun th => (2 * th - (2 * π + a)) / (2 * π - a)) '' Set.Icc a (2 * π) = Set.Icc (-1) 1 ∧
    ∀ th, evalHatTh a th = evalHatX ((2 * th - (2 * π + a)) / (2 * π - a)) := by
  have h0 : 0 < 2 * π - a := by linarith
  have e1 : (2 * a - (2 * π + a)) / (2 * π - a) = -1 := by field_simp; ring
  have e2 : (2 * (2 * π) - (2 * π + a)) / (2 * π - a) = 1 := by field_simp; ring
  have hz : evalHatX 1 = .ok 0 := by unfold evalHatX; rw [if_pos (by norm_num)]; rfl
  have hz' : evalHatX (-1) = .ok 0 := by unfold evalHatX; rw [if_pos (by norm_num)]; rfl
  refine ⟨by unfold evalHatTh; rw [e1, hz'], by unfold evalHatTh; rw [e2, hz], ?_, fun _ => rfl⟩
  ext x
  simp only [Set.mem_image, Set.mem_Icc]
  constructor
  · rintro ⟨th, ⟨h1, h2⟩, rfl⟩
    rw [le_div_iff₀ h0, div_le_iff₀ h0]
    constructor <;> linarith
  · rintro ⟨h1, h2⟩
    refine ⟨((2 * π - a) * x + (2 * π + a)) / 2, ⟨?_, ?_⟩, by field_simp; ring⟩
    · nlinarith
    · nlinarith

/-- **C66** `eval_parabola` and `eval_linesine` vanish at both corners; the parabola is positive between them. -/
theorem C66_corners {a : ℝ} (ha : a < 2 * π) (jv : ℝ → ℝ → ℝ) (k R : ℝ) :
    (∀ th, evalParabola th a = 0 ↔ th = a ∨ th = 2 * π) ∧ (∀ th, a < th → th < 2 * π → 0 < evalParabola th a) ∧
    evalLinesine jv a k R a (bNu a) = 0 ∧ evalLinesine jv (2 * π) k R a (bNu a) = 0 := by
  have h0 : 2 * π - a ≠ 0 := by linarith
  refine ⟨fun th => ?_, fun th h1 h2 => ?_, ?_, ?_⟩
  · unfold evalParabola
    rw [neg_mul, neg_eq_zero, mul_eq_zero, sub_eq_zero, sub_eq_zero]
  · unfold evalParabola
    nlinarith
  · simp [evalLinesine]
  · unfold evalLinesine bNu
    rw [div_self h0, show π / (2 * π - a) / 2 * (2 * π - a) = π / 2 by rw [div_right_comm, div_mul_cancel₀ _ h0], sin_pi_div_two, sub_self, mul_zero]

/-- **C66** `eval_linesine` between the corners: the straight line from 0 to `J_(ν/2)(k·R)` less that number times the first sine, so
both terms have the same factor. -/
theorem C66_linesine (jv : ℝ → ℝ → ℝ) (th k R a : ℝ) :
    evalLinesine jv th k R a (bNu a) + jv (bNu a / 2) (k * R) * sin (bNu a / 2 * (th - a))
      = (th - a) / (2 * π - a) * jv (bNu a / 2) (k * R) := by
  unfold evalLinesine
  ring

/-- C66: the hat at 0 -/
example : evalHatX 0 = .ok (exp (-1)) := by
  unfold evalHatX
  rw [if_neg (by norm_num), if_neg (by norm_num)]
  norm_num

end Pot
