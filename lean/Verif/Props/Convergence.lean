import Verif.Spec.Report
import Mathlib.Tactic.Linarith
import Mathlib.Tactic.Ring
import Mathlib.Algebra.Order.Ring.Pow

/-! # Properties C53, C62, C63: the convergence loops -/

namespace Pot
open Spec

/-! ## C62: the list of grids -/

theorem nListLoop_eq (c : ℤ) : ∀ (fuel : ℕ) (N : ℤ) (acc L : List ℤ), nListLoop fuel N c acc = some L →
    ∃ m : ℕ, L = acc ++ (List.range m).map (fun i : ℕ => N * 2 ^ i) ∧ (∀ i < m, N * 2 ^ i ≤ c) ∧ c < N * 2 ^ m
  | 0, _, _, _, h => by simp [nListLoop] at h
  | fuel + 1, N, acc, L, h => by
    unfold nListLoop at h
    by_cases hN : N ≤ c
    · rw [if_pos hN] at h
      obtain ⟨m, h1, h2, h3⟩ := nListLoop_eq c fuel (N * 2) (acc ++ [N]) L h
      refine ⟨m + 1, ?_, ?_, ?_⟩
      · rw [h1, List.range_succ_eq_map, List.append_assoc]
        simp [Function.comp_def, pow_succ']
        intro i _
        ring
      · intro i hi
        rcases i with _ | i
        · simpa using hN
        · have := h2 i (by omega)
          rw [pow_succ']
          rwa [mul_assoc] at this
      · rw [pow_succ', ← mul_assoc]; exact h3
    · rw [if_neg hN] at h
      refine ⟨0, by simpa using (Option.some.inj h).symm, by simp, by simpa using hN⟩

theorem nListLoop_term {c : ℤ} : ∀ (m : ℕ) {N : ℤ} (acc : List ℤ), c < N * 2 ^ m → ∃ L, nListLoop (m + 1) N c acc = some L
  | 0, N, acc, h => by
    unfold nListLoop
    rw [if_neg (by simpa using h)]
    exact ⟨acc, rfl⟩
  | m + 1, N, acc, h => by
    unfold nListLoop
    by_cases hN : N ≤ c
    · rw [if_pos hN]
      refine nListLoop_term m (acc ++ [N]) ?_
      rw [pow_succ', ← mul_assoc] at h
      exact h
    · rw [if_neg hN]; exact ⟨acc, rfl⟩

/-- **C62** without `-c` the list is `[N0]`. -/
theorem C62_single (fuel : ℕ) (N0 : ℤ) : getNList fuel N0 none = some [N0] := rfl

/-- **C62** `get_N_list` terminates exactly when the start is positive or beyond `c`. -/
theorem C62_terminates (N0 c : ℤ) : (∃ fuel L, getNList fuel N0 (some c) = some L) ↔ 1 ≤ N0 ∨ c < N0 := by
  constructor
  · rintro ⟨fuel, L, h⟩
    obtain ⟨m, -, -, h3⟩ := nListLoop_eq c fuel N0 [] L h
    by_contra hn
    push Not at hn
    have : N0 * 2 ^ m ≤ N0 := by
      have h1 : (1 : ℤ) ≤ 2 ^ m := one_le_pow₀ (by norm_num)
      nlinarith [hn.1]
    omega
  · rintro (h | h)
    · have : c < N0 * 2 ^ c.toNat := by
        have h1 : (c.toNat : ℤ) < 2 ^ c.toNat := by exact_mod_cast Nat.lt_two_pow_self
        have h2 : c ≤ c.toNat := Int.self_le_toNat c
        nlinarith
      obtain ⟨L, hL⟩ := nListLoop_term c.toNat [] this
      exact ⟨c.toNat + 1, L, hL⟩
    · exact ⟨1, [], by simp [getNList, nListLoop, not_le.2 h]⟩

/-- **C62** for a positive start the list consists of exactly the numbers `N0 * 2 ^ i` up to `c`, in increasing order. -/
theorem C62_list {fuel : ℕ} {N0 c : ℤ} {L : List ℤ} (h0 : 1 ≤ N0) (h : getNList fuel N0 (some c) = some L) :
    (∀ N, N ∈ L ↔ N ≤ c ∧ ∃ i : ℕ, N = N0 * 2 ^ i) ∧ L.Pairwise (· < ·) ∧
      ∀ i, i + 1 < L.length → L.getD (i + 1) 0 = 2 * L.getD i 0 := by
  obtain ⟨m, rfl, h2, h3⟩ := nListLoop_eq c fuel N0 [] L h
  refine ⟨?_, ?_, ?_⟩
  · intro N
    simp only [List.nil_append, List.mem_map, List.mem_range]
    constructor
    · rintro ⟨i, hi, rfl⟩
      exact ⟨h2 i hi, i, rfl⟩
    · rintro ⟨hc, i, rfl⟩
      refine ⟨i, ?_, rfl⟩
      by_contra hi
      have : (2 : ℤ) ^ m ≤ 2 ^ i := pow_le_pow_right₀ (by norm_num) (by omega)
      nlinarith
  · rw [List.nil_append, List.pairwise_map]
    refine List.pairwise_lt_range.imp ?_
    intro i j hij
    have : (2 : ℤ) ^ i < 2 ^ j := pow_lt_pow_right₀ (by norm_num) hij
    nlinarith
  · intro i hi
    simp only [List.nil_append, List.length_map, List.length_range] at hi
    simp only [List.nil_append, List.getD_eq_getElem?_getD, List.getElem?_map, List.getElem?_range hi,
      List.getElem?_range (show i < m by omega), Option.map_some, Option.getD_some]
    rw [pow_succ]; ring

/-- **C62** a start beyond `c` gives the empty list. -/
theorem C62_empty (fuel : ℕ) {N0 c : ℤ} (h : c < N0) : getNList (fuel + 1) N0 (some c) = some [] := by
  simp [getNList, nListLoop, not_le.2 h]

/-- **C62** more fuel does not change the answer -/
theorem C62_fuel {c : ℤ} : ∀ {fuel fuel' : ℕ} {N : ℤ} {acc L : List ℤ}, fuel ≤ fuel' →
    nListLoop fuel N c acc = some L → nListLoop fuel' N c acc = some L
  | 0, _, _, _, _, _, h => by simp [nListLoop] at h
  | fuel + 1, 0, _, _, _, hf, _ => by omega
  | fuel + 1, fuel' + 1, N, acc, L, hf, h => by
    unfold nListLoop at h ⊢
    by_cases hN : N ≤ c
    · rw [if_pos hN] at h ⊢
      exact C62_fuel (by omega) h
    · rw [if_neg hN] at h ⊢; exact h

example : getNList 5 16 (some 128) = some [16, 32, 64, 128] := by decide
example : ¬ ∃ fuel L, getNList fuel 0 (some 128) = some L := by rw [C62_terminates]; omega

/-! ## C63: what `run.py` reports -/

/-- the state of the loop after the results `hist` (the most recent first) -/
def RunState.Is {U : Type} (s : RunState U) (hist : List (SolveResult U)) : Prop :=
  s.u0 = hist[0]?.map SolveResult.u ∧ s.u1 = hist[1]?.map SolveResult.u ∧ s.prev = hist[0]?.bind SolveResult.error

theorem runLoop_report {S U : Type} (P : Prog S U) (doRel : Bool) {sol : ℤ → S} {res : ℤ → Option (SolveResult U)}
    {rate : ℤ → U → U → U → Option ℝ} {Ns0 : List ℤ} (hb : ∀ N ∈ Ns0, P.build N = .ok (sol N))
    (hs : ∀ N ∈ Ns0, P.solve (sol N) = .ok (res N))
    (hk : (∀ N ∈ Ns0, ∀ r, res N = some r → r.error.isSome) ∨ (∀ N ∈ Ns0, ∀ r, res N = some r → r.error = none)) :
    ∀ (Ns : List ℤ) (hist : List (SolveResult U)) (s : RunState U), (∀ N ∈ Ns, N ∈ Ns0) → s.Is hist →
      (∀ r ∈ hist, ∃ N ∈ Ns0, res N = some r) →
      (doRel = true → ∀ i < Ns.length, ∀ r r1 r2 rest, res (Ns.getD i 0) = some r →
        ((Ns.take i).filterMap res).reverse ++ hist = r1 :: r2 :: rest →
        nanOpt (P.rel (sol (Ns.getD i 0)) r.u r1.u r2.u) = .ok (rate (Ns.getD i 0) r.u r1.u r2.u)) →
      (∃ s', (runLoop P doRel s Ns).2 = .ok s') ∧
      (runLoop P doRel s Ns).1 = (List.range Ns.length).flatMap fun i =>
        gridReport (rate (Ns.getD i 0)) doRel (((Ns.take i).filterMap res).reverse ++ hist) (Ns.getD i 0) (res (Ns.getD i 0))
  | [], hist, s, _, _, _, _ => ⟨⟨s, rfl⟩, rfl⟩
  | N :: Ns, hist, s, hsub, ⟨hu0, hu1, hp⟩, hh, hr => by
    have hpre : ∀ i, (((N :: Ns).take (i + 1)).filterMap res).reverse ++ hist =
        ((Ns.take i).filterMap res).reverse ++ ((res N).toList ++ hist) := by
      intro i
      rw [List.take_succ_cons]
      rcases hres : res N with _ | r
      · rw [List.filterMap_cons_none hres]; simp
      · rw [List.filterMap_cons_some hres]; simp
    have hN := hsub N (by simp)
    have hrec : ∀ (hist' : List (SolveResult U)) (s' : RunState U) (ev : List Ev), runStep P doRel s N = (ev, .ok s') →
        ev = gridReport (rate N) doRel hist N (res N) → hist' = (res N).toList ++ hist → s'.Is hist' →
        (∃ s', (runLoop P doRel s (N :: Ns)).2 = .ok s') ∧ (runLoop P doRel s (N :: Ns)).1 =
          (List.range (N :: Ns).length).flatMap fun i => gridReport (rate ((N :: Ns).getD i 0)) doRel
            ((((N :: Ns).take i).filterMap res).reverse ++ hist) ((N :: Ns).getD i 0) (res ((N :: Ns).getD i 0)) := by
      intro hist' s' ev hstep hev hh' hs'
      obtain ⟨⟨s'', e1⟩, e2⟩ := runLoop_report P doRel hb hs hk Ns hist' s' (fun M hM => hsub M (by simp [hM])) hs' (by
        intro r hr
        rw [hh', List.mem_append] at hr
        rcases hr with hr | hr
        · exact ⟨N, hN, by simpa using hr⟩
        · exact hh r hr) (by
        intro hd i hi r r1 r2 rest h1 h2
        refine hr hd (i + 1) (by simpa using hi) r r1 r2 rest h1 ?_
        rw [hpre, ← hh', h2])
      have e : runLoop P doRel s (N :: Ns) = (ev ++ (runLoop P doRel s' Ns).1, (runLoop P doRel s' Ns).2) := by
        rw [runLoop, hstep]
      rw [e]
      refine ⟨⟨s'', e1⟩, ?_⟩
      simp only
      rw [e2, List.length_cons, List.range_succ_eq_map, List.flatMap_cons, List.flatMap_map]
      simp only [List.getD_cons_zero, List.take_zero, List.filterMap_nil, List.reverse_nil, List.nil_append,
        List.getD_cons_succ, List.take_succ_cons]
      rw [hev]
      congr 1
      refine List.flatMap_congr fun i _ => ?_
      rw [hh', ← hpre i, List.take_succ_cons]
    have hstep0 : P.build N = .ok (sol N) := hb N hN
    have hsolve := hs N hN
    rcases hres : res N with _ | r
    · rw [hres] at hsolve
      refine hrec hist s [.grid N] ?_ ?_ ?_ ⟨hu0, hu1, hp⟩
      · simp only [runStep, hstep0, hsolve]
      · simp [hres, gridReport]
      · simp [hres]
    · rw [hres] at hsolve
      -- the line with the rate
      have hconv : convLine s.prev r.error = .ok ((rateLines (hist.head?.bind fun x => x.error) r.error).map Ev.conv) := by
        rw [hp]
        rcases hist with _ | ⟨r1, hist⟩
        · rfl
        · obtain ⟨N1, hN1, hr1⟩ := hh r1 (by simp)
          simp only [List.getElem?_cons_zero, Option.bind_some, List.head?_cons]
          rcases hk with hk | hk
          · obtain ⟨p, hpp⟩ := Option.isSome_iff_exists.1 (hk N1 hN1 r1 hr1)
            obtain ⟨e, hee⟩ := Option.isSome_iff_exists.1 (hk N hN r hres)
            rw [hpp, hee]; rfl
          · rw [hk N1 hN1 r1 hr1]; rfl
      have herr : errLine r.error = r.error.toList.map Ev.error := by rcases r.error with _ | e <;> rfl
      have hrel : relLine (P.rel (sol N)) doRel (some r.u) s.u0 s.u1 = .ok
          ((relLines (rate N) doRel hist r.u).map Ev.rel) := by
        rw [hu0, hu1]
        rcases doRel with _ | _
        · rfl
        · rcases hist with _ | ⟨r1, _ | ⟨r2, hist⟩⟩
          · rfl
          · rfl
          · have := hr rfl 0 (by simp) r r1 r2 hist hres rfl
            rw [List.getD_cons_zero] at this
            simp only [List.getElem?_cons_zero, List.getElem?_cons_succ, Option.map_some, relLine, this, ok_bind, pure_eq_ok,
              relLines, List.map_cons, List.map_nil]
      refine hrec (r :: hist) { u2 := s.u1, u1 := s.u0, u0 := some r.u, prev := r.error }
        (gridReport (rate N) doRel hist N (some r)) ?_ ?_ ?_ ?_
      · simp only [runStep, hstep0, hsolve, hconv, hrel, herr, gridReport]
        simp [List.append_assoc]
      · rw [hres]
      · simp [hres]
      · refine ⟨rfl, ?_, rfl⟩
        simp only [hu0, List.getElem?_cons_succ]

/-- **C63** if no grid raises an exception, the program prints for every grid: its size, the error if there is one, the
binary logarithm of the quotient of the errors on the previous grid and on this one, and from the third result on (if
asked for) the comparison of this solution with the two previous ones, in this order.  The errors are known for all
grids or for none.  Nothing is assumed of the comparison of other solutions than these. -/
theorem C63_report {S U : Type} (P : Prog S U) (doRel : Bool) (Ns : List ℤ) {sol : ℤ → S} {res : ℤ → Option (SolveResult U)}
    {rate : ℤ → U → U → U → Option ℝ} (hb : ∀ N ∈ Ns, P.build N = .ok (sol N)) (hs : ∀ N ∈ Ns, P.solve (sol N) = .ok (res N))
    (hr : doRel = true → ∀ i < Ns.length, ∀ r r1 r2 rest, res (Ns.getD i 0) = some r →
      ((Ns.take i).filterMap res).reverse = r1 :: r2 :: rest →
      nanOpt (P.rel (sol (Ns.getD i 0)) r.u r1.u r2.u) = .ok (rate (Ns.getD i 0) r.u r1.u r2.u))
    (hk : (∀ N ∈ Ns, ∀ r, res N = some r → r.error.isSome) ∨ (∀ N ∈ Ns, ∀ r, res N = some r → r.error = none)) :
    (∃ s', (runLoop P doRel {} Ns).2 = .ok s') ∧ (runLoop P doRel {} Ns).1 = report rate doRel res Ns := by
  obtain ⟨h1, h2⟩ := runLoop_report P doRel hb hs hk Ns [] {} (fun _ h => h) ⟨rfl, rfl, rfl⟩ (by simp)
    (by simpa only [List.append_nil] using hr)
  refine ⟨h1, ?_⟩
  rw [h2]
  simp [report]

/-- **C63** an exception ends the program: nothing is printed for later grids. -/
theorem C63_abort {S U : Type} (P : Prog S U) (doRel : Bool) {pre post : List ℤ} {N : ℤ} {s s' : RunState U} {e : PyErr}
    {ev : List Ev} (h1 : (runLoop P doRel s pre).2 = .ok s') (h2 : runStep P doRel s' N = (ev, .error e)) :
    runLoop P doRel s (pre ++ N :: post) = ((runLoop P doRel s pre).1 ++ ev, .error e) := by
  induction pre generalizing s with
  | nil =>
    simp only [runLoop, Except.ok.injEq] at h1
    subst h1
    simp only [List.nil_append, runLoop, h2]
  | cons M pre ih =>
    rw [List.cons_append, runLoop]
    rw [runLoop] at h1 ⊢
    rcases hM : runStep P doRel s M with ⟨ev', _ | t⟩
    · rw [hM] at h1; simp at h1
    · rw [hM] at h1
      simp only at h1 ⊢
      rw [ih h1]
      simp [List.append_assoc]

/-- **C63** a known error followed by an unknown one is a TypeError. -/
theorem C63_typeError {S U : Type} (P : Prog S U) (doRel : Bool) {N : ℤ} {s : RunState U} {sol : S} {u : U} {p : ℝ}
    (hb : P.build N = .ok sol) (hs : P.solve sol = .ok (some ⟨none, u⟩)) (hp : s.prev = some p) :
    runStep P doRel s N = ([.grid N], .error .typeError) := by
  simp only [runStep, hb, hs, hp, convLine, throw_eq_error, errLine]

/-- **C62, C63** on the grids of `get_N_list`, when every grid has a result, the three solutions that are compared
belong to the grid itself, to the grid with half as many and to the grid with a quarter as many cells. -/
theorem C63_nested {fuel : ℕ} {N0 c : ℤ} {Ns : List ℤ} (h0 : 1 ≤ N0) (h : getNList fuel N0 (some c) = some Ns) {U : Type}
    (res : ℤ → SolveResult U) {i : ℕ} (hi : i + 2 < Ns.length) :
    ∃ q, Ns.getD (i + 2) 0 = 4 * q ∧ ∃ rest,
      ((Ns.take (i + 2)).filterMap fun N => some (res N)).reverse = res (2 * q) :: res q :: rest := by
  obtain ⟨-, -, hd⟩ := C62_list h0 h
  refine ⟨Ns.getD i 0, by rw [hd (i + 1) hi, hd i (by omega)]; ring, ((Ns.take i).map res).reverse, ?_⟩
  have e1 : Ns.take (i + 2) = Ns.take i ++ [Ns.getD i 0, Ns.getD (i + 1) 0] := by
    have g1 : Ns[i]? = some (Ns.getD i 0) := by
      rw [List.getD_eq_getElem?_getD, List.getElem?_eq_getElem (by omega)]; rfl
    have g2 : Ns[i + 1]? = some (Ns.getD (i + 1) 0) := by
      rw [List.getD_eq_getElem?_getD, List.getElem?_eq_getElem (by omega)]; rfl
    rw [show i + 2 = i + 1 + 1 from rfl, List.take_add_one, List.take_add_one, g1, g2]
    simp only [Option.toList_some, List.append_assoc, List.cons_append, List.nil_append]
  rw [e1, hd i (by omega)]
  simp

/-- C63: three grids with errors 4, 1, 1/4 (rates 2 and 2) and a comparison on the third -/
example : (runLoop (S := ℤ) (U := ℤ) ⟨fun N => .ok N, fun N => .ok (some ⟨some (1024 / N ^ 2), N⟩), fun _ x y z => .ok (x + y + z)⟩
    true {} [16, 32, 64]).1 =
    [.grid 16, .error 4, .grid 32, .error 1, .conv (some 2), .grid 64, .error (1 / 4), .conv (some 2), .rel (some 112)] := by
  have hl : Real.logb 2 4 = 2 := by
    rw [show (4 : ℝ) = 2 ^ (2 : ℝ) by norm_num, Real.logb_rpow (by norm_num) (by norm_num)]
  rw [(C63_report _ true [16, 32, 64] (sol := fun N => N) (res := fun N => some ⟨some (1024 / (N : ℝ) ^ 2), N⟩)
    (rate := fun _ x y z => some ((x + y + z : ℤ) : ℝ)) (fun _ _ => rfl) (fun _ _ => rfl)
    (fun _ _ _ _ _ _ _ _ _ => by simp [nanOpt])
    (.inl (by rintro N _ r ⟨⟩; rfl))).2]
  simp only [report, List.length_cons, List.length_nil, List.range_succ, List.range_zero, List.nil_append, List.cons_append,
    List.flatMap_cons, List.flatMap_nil, List.getD_cons_zero, List.getD_cons_succ, List.take_zero, List.take_succ_cons,
    List.filterMap_nil, List.reverse_nil, gridReport, relLines, rateLines,
    List.head?_nil, Option.bind_none, Option.toList_some, List.map_cons, List.map_nil,
    List.append_nil]
  norm_num [hl]

/-! ## C53 and C63 for `runz.py` -/

/-- the state of the loop of runz.py after the results `hist` (the most recent first) -/
def ZState.Is {U V Z : Type} (s : ZState U V Z) (hist : List (ZResult U V)) : Prop :=
  s.u0 = hist[0]?.map ZResult.u ∧ s.u1 = hist[1]?.map ZResult.u ∧ s.prevU = hist[0]?.bind ZResult.uError ∧
  s.v0 = hist[0]?.map ZResult.v ∧ s.v1 = hist[1]?.map ZResult.v ∧ s.prevV = hist[0]?.bind ZResult.vError

theorem zRelLine_eq {U W : Type} (mk : Option ℝ → ZEv) {rel : U → U → U → Py ℝ} {rate : U → U → U → Option ℝ} (f : W → SolveResult U)
    (hist : List W) (u : U) (hr : ∀ r1 r2 rest, hist = r1 :: r2 :: rest → nanOpt (rel u (f r1).u (f r2).u) = .ok (rate u (f r1).u (f r2).u)) :
    zRelLine mk rel (some u) (hist[0]?.map fun r => (f r).u) (hist[1]?.map fun r => (f r).u)
      = .ok ((relLines rate true (hist.map f) u).map mk) := by
  rcases hist with _ | ⟨r1, _ | ⟨r2, hist⟩⟩
  · rfl
  · rfl
  · simp only [List.getElem?_cons_zero, List.getElem?_cons_succ, Option.map_some, zRelLine, hr r1 r2 hist rfl, ok_bind, pure_eq_ok,
      relLines, List.map_cons, List.map_nil]

theorem zConvLine_eq {U W : Type} (mk : Option ℝ → ZEv) (f : W → SolveResult U) (hist : List W) (e : Option ℝ)
    (hk : ((∀ r ∈ hist, (f r).error.isSome) ∧ e.isSome) ∨ ∀ r ∈ hist, (f r).error = none) :
    zConvLine mk (hist[0]?.bind fun r => (f r).error) e
      = .ok ((rateLines ((hist.map f).head?.bind fun x => x.error) e).map mk) := by
  rcases hist with _ | ⟨r1, hist⟩
  · rfl
  · simp only [List.getElem?_cons_zero, Option.bind_some, List.map_cons, List.head?_cons]
    rcases hk with ⟨hk, he⟩ | hk
    · obtain ⟨p, hpp⟩ := Option.isSome_iff_exists.1 (hk r1 (by simp))
      obtain ⟨e, rfl⟩ := Option.isSome_iff_exists.1 he
      rw [hpp]; rfl
    · rw [hk r1 (by simp)]; rfl

/-- the errors of one kind are known on all grids or on none -/
def KnownOrNot {α : Type} (Ns : List ℤ) (res : ℤ → α) (e : α → Option ℝ) : Prop :=
  (∀ N ∈ Ns, (e (res N)).isSome) ∨ ∀ N ∈ Ns, e (res N) = none

theorem zStep_eq {U V Z : Type} {expected : Py Z} {ode : ℕ → Py Z} {cheat : Bool} {solve : ℤ → Z → Py (ZResult U V)}
    {relV : ℤ → V → V → V → Py ℝ} {relU : ℤ → U → U → U → Py ℝ} {rateV : ℤ → V → V → V → Option ℝ}
    {rateU : ℤ → U → U → U → Option ℝ}
    {s : ZState U V Z} {N : ℤ} {Ns0 : List ℤ} {res : ℤ → ZResult U V} {hist : List (ZResult U V)} {z : Z} {calls : ℕ}
    (hz : calcZ1Fourier expected ode cheat s.z1 s.odeCalls = .ok (z, calls)) (hN : N ∈ Ns0)
    (hs : solve N z = .ok (res N))
    (hrV : ∀ r1 r2 rest, hist = r1 :: r2 :: rest → nanOpt (relV N (res N).v r1.v r2.v) = .ok (rateV N (res N).v r1.v r2.v))
    (hrU : ∀ r1 r2 rest, hist = r1 :: r2 :: rest → nanOpt (relU N (res N).u r1.u r2.u) = .ok (rateU N (res N).u r1.u r2.u))
    (hkV : KnownOrNot Ns0 res ZResult.vError) (hkU : KnownOrNot Ns0 res ZResult.uError)
    (hI : s.Is hist) (hh : ∀ r ∈ hist, ∃ M ∈ Ns0, r = res M) :
    zStep expected ode cheat solve relV relU s N =
      (ZEv.grid N :: zLines .vError .vRel .vConv (rateV N) (hist.map vPart) (vPart (res N))
        ++ zLines .uError .uRel .uConv (rateU N) (hist.map uPart) (uPart (res N)),
       .ok { u0 := some (res N).u, u1 := s.u0, u2 := s.u1, v0 := some (res N).v, v1 := s.v0, v2 := s.v1, z1 := some z,
             prevU := (res N).uError, prevV := (res N).vError, odeCalls := calls }) := by
  obtain ⟨h1, h2, h3, h4, h5, h6⟩ := hI
  have a1 : zRelLine .vRel (relV N) (some (res N).v) s.v0 s.v1
      = .ok ((relLines (rateV N) true (hist.map vPart) (res N).v).map .vRel) := by
    rw [h4, h5]; exact zRelLine_eq .vRel vPart hist (res N).v hrV
  have a2 : zRelLine .uRel (relU N) (some (res N).u) s.u0 s.u1
      = .ok ((relLines (rateU N) true (hist.map uPart) (res N).u).map .uRel) := by
    rw [h1, h2]; exact zRelLine_eq .uRel uPart hist (res N).u hrU
  have a3 : zConvLine .vConv s.prevV (res N).vError
      = .ok ((rateLines ((hist.map vPart).head?.bind fun x => x.error) (res N).vError).map .vConv) := by
    rw [h6]
    refine zConvLine_eq .vConv vPart hist (res N).vError ?_
    rcases hkV with hk | hk
    · exact .inl ⟨fun r hr => by obtain ⟨M, hM, rfl⟩ := hh r hr; exact hk M hM, hk N hN⟩
    · exact .inr fun r hr => by obtain ⟨M, hM, rfl⟩ := hh r hr; exact hk M hM
  have a4 : zConvLine .uConv s.prevU (res N).uError
      = .ok ((rateLines ((hist.map uPart).head?.bind fun x => x.error) (res N).uError).map .uConv) := by
    rw [h3]
    refine zConvLine_eq .uConv uPart hist (res N).uError ?_
    rcases hkU with hk | hk
    · exact .inl ⟨fun r hr => by obtain ⟨M, hM, rfl⟩ := hh r hr; exact hk M hM, hk N hN⟩
    · exact .inr fun r hr => by obtain ⟨M, hM, rfl⟩ := hh r hr; exact hk M hM
  have b : ∀ (mk : ℝ → ZEv) (e : Option ℝ), zErrLine mk e = e.toList.map mk := by rintro mk (_ | e) <;> rfl
  simp only [zStep, hz, hs, a1, a2, a3, a4, b, zLines, vPart, uPart]
  simp [List.append_assoc]

/-- **C53, C63** `runz.py` on any list of grids, if no grid raises an exception: every grid is solved with the same
coefficients `z`, which are the expected ones with `z1cheat` and otherwise those of the first call of the ODE method;
the ODE method is called once if there is a grid and `z1cheat` is off, and never otherwise.  For `v` and then for `u` the
program prints the error if it is known, from the third grid on the comparison of this solution with the two previous
ones, and from the second grid on the rate of the errors. -/
theorem C53_C63_runz {U V Z : Type} {expected : Py Z} {ode : ℕ → Py Z} {cheat : Bool} {solve : ℤ → Z → Py (ZResult U V)}
    {relV : ℤ → V → V → V → Py ℝ} {relU : ℤ → U → U → U → Py ℝ} {rateV : ℤ → V → V → V → Option ℝ}
    {rateU : ℤ → U → U → U → Option ℝ}
    {Ns : List ℤ} {res : ℤ → ZResult U V} {z ez : Z} (he : expected = .ok ez)
    (hz : if cheat then z = ez else ode 0 = .ok z) (hs : ∀ N ∈ Ns, solve N z = .ok (res N))
    (hrV : ∀ i < Ns.length, ∀ r1 r2 rest, ((Ns.take i).map res).reverse = r1 :: r2 :: rest →
      nanOpt (relV (Ns.getD i 0) (res (Ns.getD i 0)).v r1.v r2.v) = .ok (rateV (Ns.getD i 0) (res (Ns.getD i 0)).v r1.v r2.v))
    (hrU : ∀ i < Ns.length, ∀ r1 r2 rest, ((Ns.take i).map res).reverse = r1 :: r2 :: rest →
      nanOpt (relU (Ns.getD i 0) (res (Ns.getD i 0)).u r1.u r2.u) = .ok (rateU (Ns.getD i 0) (res (Ns.getD i 0)).u r1.u r2.u))
    (hkV : KnownOrNot Ns res ZResult.vError) (hkU : KnownOrNot Ns res ZResult.uError) :
    ∃ s, zLoop expected ode cheat solve relV relU {} Ns = (zReport rateV rateU res Ns, .ok s) ∧
      s.z1 = (if Ns = [] then none else some z) ∧ s.odeCalls = if cheat ∨ Ns = [] then 0 else 1 := by
  -- the loop from a state in which the coefficients are known
  have key : ∀ (Ms pre : List ℤ) (s : ZState U V Z), Ns = pre ++ Ms → s.Is (pre.map res).reverse →
      (if cheat then True else if pre = [] then s.z1 = none ∧ s.odeCalls = 0 else s.z1 = some z) →
      ∃ t, zLoop expected ode cheat solve relV relU s Ms =
        ((List.range Ms.length).flatMap fun i =>
          ZEv.grid (Ms.getD i 0) :: zLines .vError .vRel .vConv (rateV (Ms.getD i 0))
              ((((Ms.take i).map res).reverse ++ (pre.map res).reverse).map vPart) (vPart (res (Ms.getD i 0)))
            ++ zLines .uError .uRel .uConv (rateU (Ms.getD i 0))
              ((((Ms.take i).map res).reverse ++ (pre.map res).reverse).map uPart) (uPart (res (Ms.getD i 0))), .ok t) ∧
        t.z1 = (if Ms = [] then s.z1 else some z) ∧
        t.odeCalls = s.odeCalls + if cheat ∨ Ms = [] ∨ pre ≠ [] then 0 else 1 := by
    intro Ms
    induction Ms with
    | nil => intro pre s _ _ _; exact ⟨s, rfl, rfl, by simp⟩
    | cons N Ms ih =>
      intro pre s hsub hI hc
      have hN : N ∈ Ns := by rw [hsub]; simp
      have hlt : pre.length < Ns.length := by rw [hsub]; simp
      have hat : Ns.getD pre.length 0 = N := by rw [hsub]; simp
      have htk : Ns.take pre.length = pre := by rw [hsub]; simp
      have hV := hrV _ hlt
      have hU := hrU _ hlt
      rw [hat, htk] at hV hU
      have hcz : calcZ1Fourier expected ode cheat s.z1 s.odeCalls
          = .ok (z, s.odeCalls + if cheat ∨ pre ≠ [] then 0 else 1) := by
        rcases cheat with _ | _
        · simp only [Bool.false_eq_true, if_false, false_or] at hz hc ⊢
          by_cases h0 : pre = []
          · rw [if_pos h0] at hc
            simp [calcZ1Fourier, he, hc.1, hc.2, hz, h0]
          · rw [if_neg h0] at hc
            simp [calcZ1Fourier, he, hc, h0]
        · simp only [if_true] at hz
          simp [calcZ1Fourier, he, hz]
      have hst := zStep_eq hcz hN (hs N hN) hV hU hkV hkU hI (by
        intro r hr
        rw [List.mem_reverse, List.mem_map] at hr
        obtain ⟨M, hM, rfl⟩ := hr
        exact ⟨M, by rw [hsub]; simp [hM], rfl⟩)
      have hrev : ((pre ++ [N]).map res).reverse = res N :: (pre.map res).reverse := by simp
      obtain ⟨t, e1, e2, e3⟩ := ih (pre ++ [N])
        { u0 := some (res N).u, u1 := s.u0, u2 := s.u1, v0 := some (res N).v, v1 := s.v0, v2 := s.v1, z1 := some z,
          prevU := (res N).uError, prevV := (res N).vError, odeCalls := s.odeCalls + if cheat ∨ pre ≠ [] then 0 else 1 }
        (by rw [hsub]; simp) (by rw [hrev]; exact ⟨rfl, hI.1, rfl, rfl, hI.2.2.2.1, rfl⟩) (by rcases cheat with _ | _ <;> simp)
      rw [hrev] at e1
      refine ⟨t, ?_, ?_, ?_⟩
      · rw [zLoop, hst]
        simp only
        rw [e1]
        rw [List.length_cons, List.range_succ_eq_map, List.flatMap_cons, List.flatMap_map]
        simp [List.append_assoc]
      · rw [e2]
        by_cases h0 : Ms = [] <;> simp [h0]
      · rw [e3]
        simp
  obtain ⟨t, e1, e2, e3⟩ := key Ns [] {} rfl ⟨rfl, rfl, rfl, rfl, rfl, rfl⟩ (by rcases cheat <;> simp)
  refine ⟨t, ?_, e2, ?_⟩
  · rw [e1]
    simp [zReport]
  · rw [e3]; simp

/-- **C53, C63** an exception ends `runz.py`: nothing is printed for later grids. -/
theorem C63_runz_abort {U V Z : Type} {expected : Py Z} {ode : ℕ → Py Z} {cheat : Bool} {solve : ℤ → Z → Py (ZResult U V)}
    {relV : ℤ → V → V → V → Py ℝ} {relU : ℤ → U → U → U → Py ℝ} {pre post : List ℤ} {N : ℤ} {s s' : ZState U V Z} {e : PyErr}
    {ev : List ZEv} (h1 : (zLoop expected ode cheat solve relV relU s pre).2 = .ok s')
    (h2 : zStep expected ode cheat solve relV relU s' N = (ev, .error e)) :
    zLoop expected ode cheat solve relV relU s (pre ++ N :: post)
      = ((zLoop expected ode cheat solve relV relU s pre).1 ++ ev, .error e) := by
  induction pre generalizing s with
  | nil =>
    simp only [zLoop, Except.ok.injEq] at h1
    subst h1
    simp only [List.nil_append, zLoop, h2]
  | cons M pre ih =>
    rw [List.cons_append, zLoop]
    rw [zLoop] at h1 ⊢
    rcases hM : zStep expected ode cheat solve relV relU s M with ⟨ev', _ | t⟩
    · rw [hM] at h1; simp at h1
    · rw [hM] at h1
      simp only at h1 ⊢
      rw [ih h1]
      simp [List.append_assoc]

/-- one after the other until one raises: what has been printed by then stays printed -/
def inTurn {α ε : Type} : List (Except ε (List α)) → List α × Option ε
  | [] => ([], none)
  | .error e :: _ => ([], some e)
  | .ok l :: rest => (l ++ (inTurn rest).1, (inTurn rest).2)

/-- the exception, if any -/
def failure {ε β : Type} : Except ε β → Option ε
  | .error e => some e
  | .ok _ => none

/-- **C53, C63** one grid of `runz.py`, whether or not something fails: with the coefficients `z` and the result `r` of this
grid, the program prints in turn the two errors, comparisons and rates, `v` first, and stops at the first of them that raises; the
lines printed before the exception stay printed. -/
theorem C63_runz_turns {U V Z : Type} {expected : Py Z} {ode : ℕ → Py Z} {cheat : Bool} {solve : ℤ → Z → Py (ZResult U V)}
    {relV : ℤ → V → V → V → Py ℝ} {relU : ℤ → U → U → U → Py ℝ} {s : ZState U V Z} {N : ℤ} {z : Z} {calls : ℕ} {r : ZResult U V}
    (hz : calcZ1Fourier expected ode cheat s.z1 s.odeCalls = .ok (z, calls)) (hr : solve N z = .ok r) :
    ((zStep expected ode cheat solve relV relU s N).1, failure (zStep expected ode cheat solve relV relU s N).2) =
      inTurn [.ok [.grid N], .ok (r.vError.toList.map .vError), zRelLine .vRel (relV N) (some r.v) s.v0 s.v1,
        zConvLine .vConv s.prevV r.vError, .ok (r.uError.toList.map .uError), zRelLine .uRel (relU N) (some r.u) s.u0 s.u1,
        zConvLine .uConv s.prevU r.uError] := by
  have b : ∀ (mk : ℝ → ZEv) (e : Option ℝ), zErrLine mk e = e.toList.map mk := by rintro mk (_ | e) <;> rfl
  simp only [zStep, hz, hr, b]
  rcases zRelLine .vRel (relV N) (some r.v) s.v0 s.v1 with e | l2
  · simp [inTurn, failure]
  rcases zConvLine .vConv s.prevV r.vError with e | l3
  · simp [inTurn, failure]
  rcases zRelLine .uRel (relU N) (some r.u) s.u0 s.u1 with e | l5
  · simp [inTurn, failure]
  rcases zConvLine .uConv s.prevU r.uError with e | l6
  · simp [inTurn, failure]
  · simp [inTurn, failure]

/-- **C53, C63** if the coefficients or the solution of a grid cannot be had, only its `N` has been printed. -/
theorem C63_runz_unsolved {U V Z : Type} {expected : Py Z} {ode : ℕ → Py Z} {cheat : Bool} {solve : ℤ → Z → Py (ZResult U V)}
    {relV : ℤ → V → V → V → Py ℝ} {relU : ℤ → U → U → U → Py ℝ} {s : ZState U V Z} {N : ℤ} {e : PyErr}
    (h : calcZ1Fourier expected ode cheat s.z1 s.odeCalls = .error e ∨
      ∃ z calls, calcZ1Fourier expected ode cheat s.z1 s.odeCalls = .ok (z, calls) ∧ solve N z = .error e) :
    zStep expected ode cheat solve relV relU s N = ([.grid N], .error e) := by
  rcases h with h | ⟨z, calls, h, hs⟩
  · simp only [zStep, h]
  · simp only [zStep, h, hs]

/-- a second grid on which the error of `v` is unknown, after a grid on which it was known: `runz.py` has printed the grid -/
example : (zStep (U := ℤ) (V := ℤ) (Z := ℕ) (.ok 7) (fun i => .ok (i + 5)) true
    (fun N z => .ok ⟨N + z, none, N, none⟩) (fun _ _ _ _ => .ok 0) (fun _ _ _ _ => .ok 0) { prevV := some 1 } 16).1 = [.grid 16] := by
  have := congrArg Prod.fst (C63_runz_turns (U := ℤ) (V := ℤ) (Z := ℕ) (expected := .ok 7) (ode := fun i => .ok (i + 5)) (cheat := true)
    (solve := fun N z => .ok ⟨N + z, none, N, none⟩) (relV := fun _ _ _ _ => .ok 0) (relU := fun _ _ _ _ => .ok 0)
    (s := { prevV := some 1 }) (N := 16) rfl rfl)
  exact this.trans rfl

/-- C53: two grids; the first call of the ODE method returns 5, a second one would return 6 -/
example : ∃ s, zLoop (U := ℤ) (V := ℤ) (Z := ℕ) (.ok 7) (fun i => .ok (i + 5)) false
      (fun N z => .ok ⟨N + z, none, N, some 1⟩) (fun _ _ _ _ => .ok 0) (fun _ _ _ _ => .ok 0) {} [16, 32]
      = ([.grid 16, .uError 1, .grid 32, .uError 1, .uConv (some 0)], .ok s) ∧ s.odeCalls = 1 ∧ s.v0 = some 37 := by
  refine ⟨{ u0 := some 32, u1 := some 16, v0 := some 37, v1 := some 21, z1 := some 5, prevU := some 1, odeCalls := 1 }, ?_,
    rfl, rfl⟩
  simp [zLoop, zStep, calcZ1Fourier, zErrLine, zRelLine, zConvLine, logQuot]

/-- C53: with `z1cheat` the ODE method is not called, even if it would fail -/
example : ∃ s, zLoop (U := ℤ) (V := ℤ) (Z := ℕ) (.ok 7) (fun _ => .error .valueError) true
      (fun N z => .ok ⟨N + z, none, N, none⟩) (fun _ _ _ _ => .ok 0) (fun _ _ _ _ => .ok 0) {} [16, 32]
      = ([.grid 16, .grid 32], .ok s) ∧ s.odeCalls = 0 :=
  (C53_C63_runz (cheat := true) (z := 7) (ez := 7) (res := fun N => ⟨N + 7, none, N, none⟩) (rateV := fun _ _ _ _ => some 0)
    (rateU := fun _ _ _ _ => some 0) rfl (by simp) (fun _ _ => rfl) (fun _ _ _ _ _ _ => rfl) (fun _ _ _ _ _ _ => rfl)
    (.inr fun _ _ => rfl) (.inr fun _ _ => rfl)).imp fun s h => ⟨by
      rw [h.1]; simp [zReport, zLines, vPart, uPart, relLines, rateLines, List.range_succ], by simpa using h.2.2⟩

end Pot
