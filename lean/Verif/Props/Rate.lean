import Verif.Spec.Nested
import Verif.Model.PolarFD
import Verif.Props.Run

/-! # Property C50: relative convergence compares values at the same physical points -/

namespace Pot
open Spec Real

theorem foldlM_pair {α : Type} (l : List α) {step : List ℝ × List ℝ → α → Py (List ℝ × List ℝ)} {A B : α → List ℝ}
    (h : ∀ x ∈ l, ∀ acc, step acc x = .ok (acc.1 ++ A x, acc.2 ++ B x)) :
    ∀ acc, l.foldlM (init := acc) step = .ok (acc.1 ++ l.flatMap A, acc.2 ++ l.flatMap B) := by
  induction l with
  | nil => intro acc; simp [pure_eq_ok]
  | cons x l ih =>
    intro acc
    rw [List.foldlM_cons, h x (by simp), ok_bind, ih (fun y hy => h y (by simp [hy]))]
    simp [List.append_assoc]

/-- what the comparison returns: the rate, the error of `max` for an empty list, or no number -/
theorem C50_rate (d : List ℝ × List ℝ) (D12 D01 : Set ℝ) (h12 : ∀ x, x ∈ d.1 ↔ x ∈ D12) (h01 : ∀ x, x ∈ d.2 ↔ x ∈ D01) :
    (∀ ρ, relRate d = .ok ρ ↔ IsRate D12 D01 ρ) ∧
    (relRate d = .error .valueError ↔ D12 = ∅ ∨ D01 = ∅) ∧
    (relRate d = .error .nanValue ↔ ∃ M12 M01, IsGreatest D12 M12 ∧ IsGreatest D01 M01 ∧ (M12 = 0 ∨ M01 = 0)) := by
  obtain ⟨l1, l2⟩ := d
  simp only at h12 h01
  rcases l1 with _ | ⟨x, l1⟩
  · have e : relRate ([], l2) = .error .valueError := rfl
    have hD : D12 = ∅ := Set.eq_empty_iff_forall_notMem.2 fun x hx => by simpa using (h12 x).2 hx
    rw [e]
    subst hD
    refine ⟨fun ρ => ⟨fun h => (by cases h), ?_⟩, by simp, ⟨fun h => (by cases h), ?_⟩⟩
    · rintro ⟨M, -, h, -⟩; exact absurd h.1 (by simp)
    · rintro ⟨M, -, h, -⟩; exact absurd h.1 (by simp)
  obtain ⟨M12, e12, m12, u12⟩ := pyMax_ok x l1
  have g12 : IsGreatest D12 M12 := ⟨(h12 _).1 m12, fun y hy => u12 y ((h12 y).2 hy)⟩
  have ne12 : D12 ≠ ∅ := fun h => by rw [h] at g12; exact absurd g12.1 (by simp)
  rcases l2 with _ | ⟨y, l2⟩
  · have e : relRate (x :: l1, []) = .error .valueError := by unfold relRate; rw [e12, ok_bind]; rfl
    have hD : D01 = ∅ := Set.eq_empty_iff_forall_notMem.2 fun x hx => by simpa using (h01 x).2 hx
    rw [e]
    subst hD
    refine ⟨fun ρ => ⟨fun h => (by cases h), ?_⟩, by simp, ⟨fun h => (by cases h), ?_⟩⟩
    · rintro ⟨M, M', -, h, -⟩; exact absurd h.1 (by simp)
    · rintro ⟨M, M', -, h, -⟩; exact absurd h.1 (by simp)
  obtain ⟨M01, e01, m01, u01⟩ := pyMax_ok y l2
  have g01 : IsGreatest D01 M01 := ⟨(h01 _).1 m01, fun y hy => u01 y ((h01 y).2 hy)⟩
  have ne01 : D01 ≠ ∅ := fun h => by rw [h] at g01; exact absurd g01.1 (by simp)
  have e : relRate (x :: l1, y :: l2) = if M12 = 0 ∨ M01 = 0 then .error .nanValue else .ok (Real.logb 2 (M12 / M01)) := by
    unfold relRate
    simp only [e12, e01, ok_bind, throw_eq_error, pure_eq_ok]
  rw [e]
  by_cases hc : M12 = 0 ∨ M01 = 0
  · rw [if_pos hc]
    refine ⟨fun ρ => ⟨fun h => (by cases h), ?_⟩, ⟨fun h => (by cases h), fun h => (h.elim ne12 ne01).elim⟩,
      ⟨fun _ => ⟨M12, M01, g12, g01, hc⟩, fun _ => rfl⟩⟩
    rintro ⟨A, B, hA, hB, h1, h2, -⟩
    rw [hA.unique g12] at h1
    rw [hB.unique g01] at h2
    exact (hc.elim h1 h2).elim
  · rw [if_neg hc]
    refine ⟨fun ρ => ⟨fun h => ?_, ?_⟩, ⟨fun h => (by cases h), fun h => (h.elim ne12 ne01).elim⟩, ⟨fun h => (by cases h), ?_⟩⟩
    · push Not at hc
      exact ⟨M12, M01, g12, g01, hc.1, hc.2, (Except.ok.inj h).symm⟩
    · rintro ⟨A, B, hA, hB, -, -, rfl⟩
      rw [hA.unique g12, hB.unique g01]
    · rintro ⟨A, B, hA, hB, h⟩
      rw [hA.unique g12, hB.unique g01] at h
      exact (hc h).elim

theorem cartPt_refine (AD : ℝ) {c q : ℕ} (hc : 0 < c) (i j : ℤ) : cartPt AD (c * q) (c * i) (c * j) = cartPt AD q i j := by
  have : (c : ℝ) ≠ 0 := by exact_mod_cast hc.ne'
  simp only [cartPt]
  push_cast
  rw [mul_div_mul_left _ _ this, mul_div_mul_left _ _ this]

theorem cartPt_inj {AD : ℝ} (hAD : AD ≠ 0) {N : ℕ} (hN : 0 < N) {i j i' j' : ℤ} (h : cartPt AD N i j = cartPt AD N i' j') :
    i = i' ∧ j = j' := by
  have hN' : (N : ℝ) ≠ 0 := by exact_mod_cast hN.ne'
  simp only [cartPt, Prod.mk.injEq] at h
  obtain ⟨h1, h2⟩ := h
  have h1 := mul_left_cancel₀ hAD h1
  have h2 := mul_left_cancel₀ hAD h2
  rw [sub_left_inj, div_left_inj' hN'] at h1 h2
  exact ⟨by exact_mod_cast h1, by exact_mod_cast h2⟩

theorem isCartNode_iff {AD : ℝ} (hAD : AD ≠ 0) {c q : ℕ} (hc : 0 < c) (hq : 0 < q) (i j : ℤ) :
    IsCartNode AD q (cartPt AD (c * q) i j) ↔ (c : ℤ) ∣ i ∧ (c : ℤ) ∣ j := by
  constructor
  · rintro ⟨i', j', h⟩
    rw [← cartPt_refine AD (c := c) (q := q) hc i' j'] at h
    obtain ⟨h1, h2⟩ := cartPt_inj hAD (Nat.mul_pos hc hq) h
    exact ⟨⟨i', h1⟩, ⟨j', h2⟩⟩
  · rintro ⟨⟨i', rfl⟩, ⟨j', rfl⟩⟩
    exact ⟨i', j', cartPt_refine AD hc i' j'⟩

/-- the array `u` of the interior nodes of a grid with `n + 1` cells per side holds the values of `g` -/
def CartSamples (AD : ℝ) {n : ℕ} (u : Arr n) (g : ℝ × ℝ → ℂ) : Prop :=
  ∀ i j : Fin n, u i j = g (cartPt AD (n + 1) (i + 1) (j + 1))

theorem CartSamples.node {AD : ℝ} {n : ℕ} {u : Arr n} {g : ℝ × ℝ → ℂ} (h : CartSamples AD u g) {q : Node} (hq : InR n q) :
    Spec.node u q.1 q.2 = g (cartPt AD (n + 1) q.1 q.2) := by
  obtain ⟨h1, h2, h3, h4⟩ := hq
  unfold Spec.node
  rw [dif_pos ⟨h1, h2, h3, h4⟩, h]
  congr 2 <;> · simp only; omega

/-- the nodes of `Mplus` on a grid with `N` cells per side that are nodes of the grid with `c` cells per side -/
def sharedNodes (AD : ℝ) (N : ℕ) (Mplus : Finset Node) (c : ℕ) : Set (ℝ × ℝ) :=
  {P | ∃ nd ∈ Mplus, P = cartPt AD N nd.1 nd.2 ∧ IsCartNode AD c P}

/-- **C50** `_array_calc_rel_convergence` on grids with `4q`, `2q` and `q` cells per side: no index error, the compared
values belong to the same points, and all shared points of `Mplus` are compared. -/
theorem C50_array {iter : Iter} (hit : IsIter iter) {AD : ℝ} (hAD : AD ≠ 0) {q n0 n1 n2 : ℕ} (h0 : n0 + 1 = 4 * q)
    (h1 : n1 + 1 = 2 * q) (h2 : n2 + 1 = q) {Mplus : Finset Node} (hM : ∀ nd ∈ Mplus, InR n0 nd) {u0 : Arr n0} {u1 : Arr n1}
    {u2 : Arr n2} {g0 g1 g2 : ℝ × ℝ → ℂ} (s0 : CartSamples AD u0 g0) (s1 : CartSamples AD u1 g1) (s2 : CartSamples AD u2 g2) :
    ∃ d, arrDiffs iter Mplus u0 u1 u2 = .ok d ∧
      (∀ x, x ∈ d.1 ↔ x ∈ diffSet (sharedNodes AD (4 * q) Mplus q) g1 g2) ∧
      (∀ x, x ∈ d.2 ↔ x ∈ diffSet (sharedNodes AD (4 * q) Mplus (2 * q)) g0 g1) := by
  have hq : 0 < q := by omega
  have r1 : ∀ nd : Node, nd.1 % 4 = 0 ∧ nd.2 % 4 = 0 → cartPt AD q (nd.1 / 4) (nd.2 / 4) = cartPt AD (4 * q) nd.1 nd.2 := by
    rintro nd ⟨a, b⟩
    rw [← cartPt_refine AD (show 0 < 4 by norm_num)]
    congr 1 <;> push_cast <;> omega
  have r2 : ∀ nd : Node, nd.1 % 2 = 0 ∧ nd.2 % 2 = 0 →
      cartPt AD (2 * q) (nd.1 / 2) (nd.2 / 2) = cartPt AD (4 * q) nd.1 nd.2 := by
    rintro nd ⟨a, b⟩
    rw [← cartPt_refine AD (show 0 < 2 by norm_num), show 2 * (2 * q) = 4 * q by ring]
    congr 1 <;> push_cast <;> omega
  have n4 : ∀ nd : Node, IsCartNode AD q (cartPt AD (4 * q) nd.1 nd.2) ↔ nd.1 % 4 = 0 ∧ nd.2 % 4 = 0 := by
    intro nd
    rw [isCartNode_iff hAD (by norm_num) hq]
    push_cast
    omega
  have n2' : ∀ nd : Node, IsCartNode AD (2 * q) (cartPt AD (4 * q) nd.1 nd.2) ↔ nd.1 % 2 = 0 ∧ nd.2 % 2 = 0 := by
    intro nd
    rw [show 4 * q = 2 * (2 * q) by ring, isCartNode_iff hAD (by norm_num) (by omega)]
    push_cast
    omega
  set P : Node → ℝ × ℝ := fun nd => cartPt AD (4 * q) nd.1 nd.2 with hP
  refine ⟨_, foldlM_pair (iter 9 Mplus)
    (A := fun nd => if nd.1 % 4 = 0 ∧ nd.2 % 4 = 0 then [‖g1 (P nd) - g2 (P nd)‖] else [])
    (B := fun nd => if nd.1 % 2 = 0 ∧ nd.2 % 2 = 0 then [‖g0 (P nd) - g1 (P nd)‖] else []) ?_ ([], []), ?_, ?_⟩
  · intro nd hnd acc
    have hr := hM nd ((hit 9 Mplus).2 nd |>.1 hnd)
    obtain ⟨a1, a2, a3, a4⟩ := id hr
    have e0 : arrGet u0 (nd.1 - 1) (nd.2 - 1) = .ok (g0 (P nd)) := by
      rw [arrGet_ok u0 hr, s0.node hr, h0]
    have e1 : nd.1 % 2 = 0 ∧ nd.2 % 2 = 0 → arrGet u1 (nd.1 / 2 - 1) (nd.2 / 2 - 1) = .ok (g1 (P nd)) := by
      intro hd
      have hr1 : InR n1 (nd.1 / 2, nd.2 / 2) := ⟨by simp only; omega, by simp only; omega, by simp only; omega, by simp only; omega⟩
      have := arrGet_ok u1 hr1
      simp only at this
      rw [this, s1.node (q := (nd.1 / 2, nd.2 / 2)) hr1, h1, r2 nd hd]
    have e2 : nd.1 % 4 = 0 ∧ nd.2 % 4 = 0 → arrGet u2 (nd.1 / 4 - 1) (nd.2 / 4 - 1) = .ok (g2 (P nd)) := by
      intro hd
      have hr1 : InR n2 (nd.1 / 4, nd.2 / 4) := ⟨by simp only; omega, by simp only; omega, by simp only; omega, by simp only; omega⟩
      have := arrGet_ok u2 hr1
      simp only at this
      rw [this, s2.node (q := (nd.1 / 4, nd.2 / 4)) hr1, h2, r1 nd hd]
    by_cases c4 : nd.1 % 4 = 0 ∧ nd.2 % 4 = 0
    · have c2 : nd.1 % 2 = 0 ∧ nd.2 % 2 = 0 := by omega
      simp only [if_pos c4, if_pos c2, e0, e1 c2, e2 c4, ok_bind, pure_eq_ok]
    · by_cases c2 : nd.1 % 2 = 0 ∧ nd.2 % 2 = 0
      · simp only [if_neg c4, if_pos c2, e0, e1 c2, ok_bind, pure_eq_ok]
      · simp only [if_neg c4, if_neg c2, ok_bind, pure_eq_ok]
  · intro x
    simp only [List.nil_append, List.mem_flatMap, (hit 9 Mplus).2, diffSet, sharedNodes, Set.mem_ofPred_eq]
    constructor
    · rintro ⟨nd, hnd, hx⟩
      by_cases c4 : nd.1 % 4 = 0 ∧ nd.2 % 4 = 0
      · rw [if_pos c4] at hx
        exact ⟨P nd, ⟨nd, hnd, rfl, (n4 nd).2 c4⟩, by simpa using hx⟩
      · rw [if_neg c4] at hx; simp at hx
    · rintro ⟨Q, ⟨nd, hnd, rfl, hc⟩, rfl⟩
      refine ⟨nd, hnd, ?_⟩
      rw [if_pos ((n4 nd).1 hc)]
      simp [hP]
  · intro x
    simp only [List.nil_append, List.mem_flatMap, (hit 9 Mplus).2, diffSet, sharedNodes, Set.mem_ofPred_eq]
    constructor
    · rintro ⟨nd, hnd, hx⟩
      by_cases c4 : nd.1 % 2 = 0 ∧ nd.2 % 2 = 0
      · rw [if_pos c4] at hx
        exact ⟨P nd, ⟨nd, hnd, rfl, (n2' nd).2 c4⟩, by simpa using hx⟩
      · rw [if_neg c4] at hx; simp at hx
    · rintro ⟨Q, ⟨nd, hnd, rfl, hc⟩, rfl⟩
      refine ⟨nd, hnd, ?_⟩
      rw [if_pos ((n2' nd).1 hc)]
      simp [hP]

/-- the `(n+1) x (n+1)` array `u` on the polar grid holds the values of `g` -/
def PolarSamples (a R0 R1 : ℝ) (n : ℕ) (u : ℕ → ℕ → ℂ) (g : ℝ × ℝ → ℂ) : Prop :=
  ∀ m l, m ≤ n → l ≤ n → u m l = g (polarPt a R0 R1 n m l)

theorem polarPt_refine (a R0 R1 : ℝ) {c q : ℕ} (hc : 0 < c) (m l : ℕ) :
    polarPt a R0 R1 (c * q) (c * m) (c * l) = polarPt a R0 R1 q m l := by
  have : (c : ℝ) ≠ 0 := by exact_mod_cast hc.ne'
  simp only [polarPt]
  push_cast
  rcases Nat.eq_zero_or_pos q with rfl | hq
  · simp
  have : (q : ℝ) ≠ 0 := by exact_mod_cast hq.ne'
  congr 1 <;> field_simp

/-- **C50** `PolarFD.calc_rel_convergence` on grids with `4q`, `2q` and `q` cells in each direction: no index error, and
the compared points are exactly the inner nodes of the coarser grid. -/
theorem C50_polar (a R0 R1 : ℝ) (q : ℕ) {u0 u1 u2 : ℕ → ℕ → ℂ} {g0 g1 g2 : ℝ × ℝ → ℂ}
    (s0 : PolarSamples a R0 R1 (4 * q) u0 g0) (s1 : PolarSamples a R0 R1 (2 * q) u1 g1)
    (s2 : PolarSamples a R0 R1 q u2 g2) :
    ∃ d, pfDiffs (4 * q) (4 * q) (2 * q) q u0 u1 u2 = .ok d ∧
      (∀ x, x ∈ d.1 ↔ x ∈ diffSet (polarInner a R0 R1 q) g1 g2) ∧
      (∀ x, x ∈ d.2 ↔ x ∈ diffSet (polarInner a R0 R1 (2 * q)) g0 g1) := by
  set P : ℕ → ℕ → ℝ × ℝ := fun m l => polarPt a R0 R1 (4 * q) m l with hP
  have r1 : ∀ m l, m % 4 = 0 ∧ l % 4 = 0 → polarPt a R0 R1 q (m / 4) (l / 4) = P m l := by
    rintro m l ⟨h1, h2⟩
    rw [← polarPt_refine a R0 R1 (show 0 < 4 by norm_num), hP]
    simp only
    congr 1 <;> omega
  have r2 : ∀ m l, m % 2 = 0 ∧ l % 2 = 0 → polarPt a R0 R1 (2 * q) (m / 2) (l / 2) = P m l := by
    rintro m l ⟨h1, h2⟩
    rw [← polarPt_refine a R0 R1 (show 0 < 2 by norm_num), hP, show 2 * (2 * q) = 4 * q by ring]
    simp only
    congr 1 <;> omega
  set A : ℕ → ℕ → List ℝ := fun m l => if m % 4 = 0 ∧ l % 4 = 0 then [‖g1 (P m l) - g2 (P m l)‖] else [] with hA
  set B : ℕ → ℕ → List ℝ := fun m l => if m % 2 = 0 ∧ l % 2 = 0 then [‖g0 (P m l) - g1 (P m l)‖] else [] with hB
  have hrange : ∀ m, m ∈ List.range' 1 (4 * q - 1) ↔ 0 < m ∧ m < 4 * q := by
    intro m
    rw [List.mem_range'_1]
    omega
  refine ⟨_, foldlM_pair (List.range' 1 (4 * q - 1)) (A := fun m => (List.range' 1 (4 * q - 1)).flatMap (A m))
    (B := fun m => (List.range' 1 (4 * q - 1)).flatMap (B m)) ?_ ([], []), ?_, ?_⟩
  · intro m hm acc
    refine foldlM_pair (List.range' 1 (4 * q - 1)) ?_ acc
    intro l hl acc
    rw [hrange] at hm hl
    have e0 : gridGet (4 * q) u0 m l = .ok (g0 (P m l)) := by
      unfold gridGet
      rw [if_pos (by omega), s0 m l (by omega) (by omega)]
      rfl
    have e1 : m % 2 = 0 ∧ l % 2 = 0 → gridGet (2 * q) u1 (m / 2) (l / 2) = .ok (g1 (P m l)) := by
      intro hd
      unfold gridGet
      rw [if_pos (by omega), s1 _ _ (by omega) (by omega), r2 m l hd]
      rfl
    have e2 : m % 4 = 0 ∧ l % 4 = 0 → gridGet q u2 (m / 4) (l / 4) = .ok (g2 (P m l)) := by
      intro hd
      unfold gridGet
      rw [if_pos (by omega), s2 _ _ (by omega) (by omega), r1 m l hd]
      rfl
    by_cases c4 : m % 4 = 0 ∧ l % 4 = 0
    · have c2 : m % 2 = 0 ∧ l % 2 = 0 := by omega
      simp only [hA, hB, if_pos c4, if_pos c2, e0, e1 c2, e2 c4, ok_bind, pure_eq_ok]
    · by_cases c2 : m % 2 = 0 ∧ l % 2 = 0
      · simp only [hA, hB, if_neg c4, if_pos c2, e0, e1 c2, ok_bind, pure_eq_ok]
      · simp only [hA, hB, if_neg c4, if_neg c2, ok_bind, pure_eq_ok]
  · intro x
    simp only [List.nil_append, List.mem_flatMap, hrange, diffSet, polarInner, Set.mem_ofPred_eq]
    constructor
    · rintro ⟨m, hm, l, hl, hx⟩
      by_cases c4 : m % 4 = 0 ∧ l % 4 = 0
      · rw [hA] at hx
        simp only at hx
        rw [if_pos c4] at hx
        exact ⟨P m l, ⟨m / 4, l / 4, by omega, by omega, by omega, by omega, (r1 m l c4).symm⟩, by simpa using hx⟩
      · rw [hA] at hx
        simp only at hx
        rw [if_neg c4] at hx; simp at hx
    · rintro ⟨Q, ⟨m, l, h1, h2, h3, h4, rfl⟩, rfl⟩
      refine ⟨4 * m, by omega, 4 * l, by omega, ?_⟩
      rw [hA]
      simp only
      rw [if_pos (by omega), ← polarPt_refine a R0 R1 (show 0 < 4 by norm_num) m l]
      simp [hP]
  · intro x
    simp only [List.nil_append, List.mem_flatMap, hrange, diffSet, polarInner, Set.mem_ofPred_eq]
    constructor
    · rintro ⟨m, hm, l, hl, hx⟩
      by_cases c4 : m % 2 = 0 ∧ l % 2 = 0
      · rw [hB] at hx
        simp only at hx
        rw [if_pos c4] at hx
        exact ⟨P m l, ⟨m / 2, l / 2, by omega, by omega, by omega, by omega, (r2 m l c4).symm⟩, by simpa using hx⟩
      · rw [hB] at hx
        simp only at hx
        rw [if_neg c4] at hx; simp at hx
    · rintro ⟨Q, ⟨m, l, h1, h2, h3, h4, rfl⟩, rfl⟩
      refine ⟨2 * m, by omega, 2 * l, by omega, ?_⟩
      rw [hB]
      simp only
      rw [if_pos (by omega), ← polarPt_refine a R0 R1 (show 0 < 2 by norm_num) m l, show 2 * (2 * q) = 4 * q by ring]
      simp [hP]

/-- all labelled values of `u`, a multivalued function on the grid with `N` cells per side, are those of `g` -/
def MvSamples (AD : ℝ) (N : ℕ) (u : Multivalue) (g : (ℝ × ℝ) × Fin 3 × EType → ℂ) : Prop :=
  ∀ nd ∈ u.nodes, ∀ x ∈ u.data nd, x.value = g (cartPt AD N nd.1 nd.2, x.setype)

/-- the labelled points at which `u` has a value -/
def mvPoints (AD : ℝ) (N : ℕ) (u : Multivalue) : Set ((ℝ × ℝ) × Fin 3 × EType) :=
  {x | ∃ nd ∈ u.nodes, x.1 = cartPt AD N nd.1 nd.2 ∧ ∃ y ∈ u.data nd, y.setype = x.2}

theorem findSetype_some {l : List Entry} {st : Fin 3 × EType} {x : Entry} (h : findSetype l st = some x) :
    x ∈ l ∧ x.setype = st := by
  unfold findSetype at h
  exact ⟨List.mem_of_find?_eq_some h, by simpa using List.find?_some h⟩

theorem findSetype_none {l : List Entry} {st : Fin 3 × EType} (h : findSetype l st = none) : ∀ x ∈ l, x.setype ≠ st := by
  unfold findSetype at h
  simpa using h

theorem setypeDiffs_ok (fine coarse : List Entry) : setypeDiffs (.ok fine) coarse = .ok (coarse.flatMap fun d =>
    match findSetype fine d.setype with
    | some d' => [‖d'.value - d.value‖]
    | none => []) := by
  have key : ∀ acc : List ℝ, (coarse.foldlM (init := acc) fun acc d => do
      let l ← (Except.ok fine : Py (List Entry))
      match findSetype l d.setype with
      | some d' => return acc ++ [‖d'.value - d.value‖]
      | none => return acc) = .ok (acc ++ coarse.flatMap fun d =>
        match findSetype fine d.setype with
        | some d' => [‖d'.value - d.value‖]
        | none => []) := by
    induction coarse with
    | nil => intro acc; simp [pure_eq_ok]
    | cons x t ih =>
      intro acc
      rw [List.foldlM_cons, ok_bind]
      rcases hx : findSetype fine x.setype with _ | y
      · exact (ih acc).trans (by simp [hx])
      · exact (ih (acc ++ [‖y.value - x.value‖])).trans (by simp [hx])
  exact key []

/-- the differences at one node, for labelled values of `g` and `h` -/
theorem setypeDiffs_mem {fine coarse : List Entry} {g h : Fin 3 × EType → ℂ} (hf : ∀ x ∈ fine, x.value = g x.setype)
    (hc : ∀ x ∈ coarse, x.value = h x.setype) (v : ℝ) :
    v ∈ (coarse.flatMap fun d => match findSetype fine d.setype with
      | some d' => [‖d'.value - d.value‖]
      | none => []) ↔
    ∃ st, (∃ x ∈ fine, x.setype = st) ∧ (∃ x ∈ coarse, x.setype = st) ∧ v = ‖g st - h st‖ := by
  rw [List.mem_flatMap]
  constructor
  · rintro ⟨d, hd, hv⟩
    rcases hx : findSetype fine d.setype with _ | y
    · rw [hx] at hv; simp at hv
    · rw [hx] at hv
      simp only [List.mem_cons, List.not_mem_nil, or_false] at hv
      obtain ⟨h1, h2⟩ := findSetype_some hx
      exact ⟨d.setype, ⟨y, h1, h2⟩, ⟨d, hd, rfl⟩, by rw [hv, hf y h1, hc d hd, h2]⟩
  · rintro ⟨st, ⟨x, hx, rfl⟩, ⟨d, hd, hst⟩, rfl⟩
    refine ⟨d, hd, ?_⟩
    rcases hy : findSetype fine d.setype with _ | y
    · exact absurd hst.symm (findSetype_none hy x hx)
    · obtain ⟨h1, h2⟩ := findSetype_some hy
      simp only [List.mem_cons, List.not_mem_nil, or_false]
      rw [hf y h1, hc d hd, h2, hst]

/-- the lists collected at one node -/
theorem mvNode_ok {u : Multivalue} {nd : Node} (h : nd ∈ u.nodes) : mvGet u nd = .ok (u.data nd) := by
  unfold mvGet; rw [if_pos h]; rfl

theorem mvNode_err {u : Multivalue} {nd : Node} (h : nd ∉ u.nodes) : mvGet u nd = .error .keyError := by
  unfold mvGet; rw [if_neg h]; rfl

/-- **C50** `Multivalue.calc_rel_convergence` on grids with `4q`, `2q` and `q` cells per side: the compared values belong
to the same point and the same label, and all labelled points in the two functions at nodes of the finest one are compared.
The shared nodes have to be keys of the coarser functions. -/
theorem C50_multivalue {AD : ℝ} (hAD : AD ≠ 0) {q : ℕ} (hq : 0 < q) {u0 u1 u2 : Multivalue}
    {g0 g1 g2 : (ℝ × ℝ) × Fin 3 × EType → ℂ} (s0 : MvSamples AD (4 * q) u0 g0) (s1 : MvSamples AD (2 * q) u1 g1)
    (s2 : MvSamples AD q u2 g2)
    (k1 : ∀ nd ∈ u0.nodes, nd.1 % 2 = 0 ∧ nd.2 % 2 = 0 → (nd.1 / 2, nd.2 / 2) ∈ u1.nodes)
    (k2 : ∀ nd ∈ u0.nodes, nd.1 % 4 = 0 ∧ nd.2 % 4 = 0 → (nd.1 / 4, nd.2 / 4) ∈ u2.nodes) :
    ∃ d, mvDiffs u0 u1 u2 = .ok d ∧
      (∀ x, x ∈ d.1 ↔ x ∈ diffSet ({z | ∃ nd ∈ u0.nodes, z.1 = cartPt AD (4 * q) nd.1 nd.2} ∩ mvPoints AD (2 * q) u1 ∩
        mvPoints AD q u2) g1 g2) ∧
      (∀ x, x ∈ d.2 ↔ x ∈ diffSet (mvPoints AD (4 * q) u0 ∩ mvPoints AD (2 * q) u1) g0 g1) := by
  have r1 : ∀ nd nd' : Node, cartPt AD (4 * q) nd.1 nd.2 = cartPt AD q nd'.1 nd'.2 ↔ nd = (4 * nd'.1, 4 * nd'.2) := by
    intro nd nd'
    rw [← cartPt_refine AD (c := 4) (q := q) (by norm_num) nd'.1 nd'.2]
    constructor
    · intro h
      obtain ⟨a, b⟩ := cartPt_inj hAD (by omega) h
      exact Prod.ext (by simpa using a) (by simpa using b)
    · rintro rfl; norm_num
  have r2 : ∀ nd nd' : Node, cartPt AD (4 * q) nd.1 nd.2 = cartPt AD (2 * q) nd'.1 nd'.2 ↔ nd = (2 * nd'.1, 2 * nd'.2) := by
    intro nd nd'
    rw [← cartPt_refine AD (c := 2) (q := 2 * q) (by norm_num) nd'.1 nd'.2, show 2 * (2 * q) = 4 * q by ring]
    constructor
    · intro h
      obtain ⟨a, b⟩ := cartPt_inj hAD (by omega) h
      exact Prod.ext (by simpa using a) (by simpa using b)
    · rintro rfl; norm_num
  have q1 : ∀ nd : Node, nd.1 % 4 = 0 ∧ nd.2 % 4 = 0 → nd = (4 * (nd.1 / 4), 4 * (nd.2 / 4)) := by
    rintro nd ⟨a, b⟩; exact Prod.ext (by simp only; omega) (by simp only; omega)
  have q2 : ∀ nd : Node, nd.1 % 2 = 0 ∧ nd.2 % 2 = 0 → nd = (2 * (nd.1 / 2), 2 * (nd.2 / 2)) := by
    rintro nd ⟨a, b⟩; exact Prod.ext (by simp only; omega) (by simp only; omega)
  set D : List Entry → List Entry → List ℝ := fun fine coarse => coarse.flatMap fun d =>
    match findSetype fine d.setype with
    | some d' => [‖d'.value - d.value‖]
    | none => [] with hD
  refine ⟨_, foldlM_pair u0.nodes
    (A := fun nd => if nd.1 % 4 = 0 ∧ nd.2 % 4 = 0 then D (u1.data (nd.1 / 2, nd.2 / 2)) (u2.data (nd.1 / 4, nd.2 / 4)) else [])
    (B := fun nd => if nd.1 % 2 = 0 ∧ nd.2 % 2 = 0 then D (u0.data nd) (u1.data (nd.1 / 2, nd.2 / 2)) else []) ?_ ([], []),
    ?_, ?_⟩
  · intro nd hnd acc
    dsimp only
    by_cases c4 : nd.1 % 4 = 0 ∧ nd.2 % 4 = 0
    · have c2 : nd.1 % 2 = 0 ∧ nd.2 % 2 = 0 := by omega
      simp only [if_pos c4, if_pos c2, mvNode_ok hnd, mvNode_ok (k1 nd hnd c2), mvNode_ok (k2 nd hnd c4), ok_bind,
        setypeDiffs_ok, pure_eq_ok, hD]
    · by_cases c2 : nd.1 % 2 = 0 ∧ nd.2 % 2 = 0
      · simp only [if_neg c4, if_pos c2, mvNode_ok hnd, mvNode_ok (k1 nd hnd c2), ok_bind, setypeDiffs_ok, pure_eq_ok, hD]
      · simp only [if_neg c4, if_neg c2, ok_bind, pure_eq_ok]
  · intro v
    rw [List.nil_append, List.mem_flatMap]
    constructor
    · rintro ⟨nd, hnd, hv⟩
      by_cases c4 : nd.1 % 4 = 0 ∧ nd.2 % 4 = 0
      · have c2 : nd.1 % 2 = 0 ∧ nd.2 % 2 = 0 := by omega
        rw [if_pos c4] at hv
        have e1 := (r1 nd (nd.1 / 4, nd.2 / 4)).2 (q1 nd c4)
        have e2 := (r2 nd (nd.1 / 2, nd.2 / 2)).2 (q2 nd c2)
        obtain ⟨st, ⟨x, hx, hx'⟩, ⟨y, hy, hy'⟩, rfl⟩ := (setypeDiffs_mem
          (g := fun st => g1 (cartPt AD (4 * q) nd.1 nd.2, st)) (h := fun st => g2 (cartPt AD (4 * q) nd.1 nd.2, st))
          (fun x hx => by rw [e2]; exact s1 _ (k1 nd hnd c2) x hx)
          (fun x hx => by rw [e1]; exact s2 _ (k2 nd hnd c4) x hx) v).1 hv
        exact ⟨(cartPt AD (4 * q) nd.1 nd.2, st), ⟨⟨⟨nd, hnd, rfl⟩, ⟨_, k1 nd hnd c2, e2, x, hx, hx'⟩⟩,
          ⟨_, k2 nd hnd c4, e1, y, hy, hy'⟩⟩, rfl⟩
      · rw [if_neg c4] at hv; simp at hv
    · rintro ⟨⟨P, st⟩, ⟨⟨⟨nd, hnd, rfl⟩, ⟨nd1, hnd1, e2, x, hx, hx'⟩⟩, ⟨nd2, hnd2, e1, y, hy, hy'⟩⟩, rfl⟩
      simp only at e1 e2 hx' hy'
      have f1 := (r1 nd nd2).1 e1
      have f2 := (r2 nd nd1).1 e2
      have c4 : nd.1 % 4 = 0 ∧ nd.2 % 4 = 0 := by rw [f1]; constructor <;> simp
      have g2' : nd2 = (nd.1 / 4, nd.2 / 4) := by rw [f1]; simp
      have g1' : nd1 = (nd.1 / 2, nd.2 / 2) := by rw [f2]; simp
      refine ⟨nd, hnd, ?_⟩
      rw [if_pos c4, ← g1', ← g2']
      exact (setypeDiffs_mem
        (g := fun st => g1 (cartPt AD (4 * q) nd.1 nd.2, st)) (h := fun st => g2 (cartPt AD (4 * q) nd.1 nd.2, st))
        (fun x hx => by rw [e2]; exact s1 _ hnd1 x hx) (fun x hx => by rw [e1]; exact s2 _ hnd2 x hx) _).2
        ⟨st, ⟨x, hx, hx'⟩, ⟨y, hy, hy'⟩, rfl⟩
  · intro v
    dsimp only
    rw [List.nil_append, List.mem_flatMap]
    constructor
    · rintro ⟨nd, hnd, hv⟩
      by_cases c2 : nd.1 % 2 = 0 ∧ nd.2 % 2 = 0
      · rw [if_pos c2] at hv
        have e2 := (r2 nd (nd.1 / 2, nd.2 / 2)).2 (q2 nd c2)
        obtain ⟨st, ⟨x, hx, hx'⟩, ⟨y, hy, hy'⟩, rfl⟩ := (setypeDiffs_mem
          (g := fun st => g0 (cartPt AD (4 * q) nd.1 nd.2, st)) (h := fun st => g1 (cartPt AD (4 * q) nd.1 nd.2, st))
          (fun x hx => s0 _ hnd x hx) (fun x hx => by rw [e2]; exact s1 _ (k1 nd hnd c2) x hx) v).1 hv
        exact ⟨(cartPt AD (4 * q) nd.1 nd.2, st), ⟨⟨nd, hnd, rfl, x, hx, hx'⟩, ⟨_, k1 nd hnd c2, e2, y, hy, hy'⟩⟩, rfl⟩
      · rw [if_neg c2] at hv; simp at hv
    · rintro ⟨⟨P, st⟩, ⟨⟨nd, hnd, e0, x, hx, hx'⟩, ⟨nd1, hnd1, e2, y, hy, hy'⟩⟩, rfl⟩
      simp only at e0 e2 hx' hy'
      subst e0
      have f2 := (r2 nd nd1).1 e2
      have c2 : nd.1 % 2 = 0 ∧ nd.2 % 2 = 0 := by rw [f2]; constructor <;> simp
      have g1' : nd1 = (nd.1 / 2, nd.2 / 2) := by rw [f2]; simp
      refine ⟨nd, hnd, ?_⟩
      rw [if_pos c2, ← g1']
      exact (setypeDiffs_mem
        (g := fun st => g0 (cartPt AD (4 * q) nd.1 nd.2, st)) (h := fun st => g1 (cartPt AD (4 * q) nd.1 nd.2, st))
        (fun x hx => s0 _ hnd x hx) (fun x hx => by rw [e2]; exact s1 _ hnd1 x hx) _).2
        ⟨st, ⟨x, hx, hx'⟩, ⟨y, hy, hy'⟩, rfl⟩

/-- **C50** a shared node that is missing in a coarser function is a KeyError -/
theorem C50_multivalue_error (u0 u1 u2 : Multivalue) :
    mvDiffs u0 u1 u2 = .error .keyError ↔ ∃ nd ∈ u0.nodes,
      (nd.1 % 2 = 0 ∧ nd.2 % 2 = 0 ∧ (nd.1 / 2, nd.2 / 2) ∉ u1.nodes) ∨
      (nd.1 % 4 = 0 ∧ nd.2 % 4 = 0 ∧ (nd.1 / 4, nd.2 / 4) ∉ u2.nodes) := by
  constructor
  · intro h
    by_contra hn
    push Not at hn
    have : ∃ A B : Node → List ℝ, ∀ nd ∈ u0.nodes, ∀ acc : List ℝ × List ℝ, (do
        let nd1 : Node := (nd.1 / 2, nd.2 / 2)
        let nd2 : Node := (nd.1 / 4, nd.2 / 4)
        let d12 ← if nd.1 % 4 = 0 ∧ nd.2 % 4 = 0 then do
            let l2 ← mvGet u2 nd2
            setypeDiffs (mvGet u1 nd1) l2
          else pure []
        let d01 ← if nd.1 % 2 = 0 ∧ nd.2 % 2 = 0 then do
            let l1 ← mvGet u1 nd1
            setypeDiffs (mvGet u0 nd) l1
          else pure []
        return (acc.1 ++ d12, acc.2 ++ d01) : Py (List ℝ × List ℝ)) = .ok (acc.1 ++ A nd, acc.2 ++ B nd) := by
      refine ⟨fun nd => if nd.1 % 4 = 0 ∧ nd.2 % 4 = 0 then
            (u2.data (nd.1 / 4, nd.2 / 4)).flatMap fun d => match findSetype (u1.data (nd.1 / 2, nd.2 / 2)) d.setype with
              | some d' => [‖d'.value - d.value‖]
              | none => []
          else [],
        fun nd => if nd.1 % 2 = 0 ∧ nd.2 % 2 = 0 then
            (u1.data (nd.1 / 2, nd.2 / 2)).flatMap fun d => match findSetype (u0.data nd) d.setype with
              | some d' => [‖d'.value - d.value‖]
              | none => []
          else [], fun nd hnd acc => ?_⟩
      obtain ⟨k1, k2⟩ := hn nd hnd
      dsimp only
      by_cases c4 : nd.1 % 4 = 0 ∧ nd.2 % 4 = 0
      · have c2 : nd.1 % 2 = 0 ∧ nd.2 % 2 = 0 := by omega
        simp only [if_pos c4, if_pos c2, mvNode_ok hnd, mvNode_ok (k1 c2.1 c2.2), mvNode_ok (k2 c4.1 c4.2), ok_bind,
          setypeDiffs_ok, pure_eq_ok]
      · by_cases c2 : nd.1 % 2 = 0 ∧ nd.2 % 2 = 0
        · simp only [if_neg c4, if_pos c2, mvNode_ok hnd, mvNode_ok (k1 c2.1 c2.2), ok_bind, setypeDiffs_ok, pure_eq_ok]
        · simp only [if_neg c4, if_neg c2, ok_bind, pure_eq_ok]
    obtain ⟨A, B, hAB⟩ := this
    unfold mvDiffs at h
    rw [foldlM_pair u0.nodes hAB ([], [])] at h
    cases h
  · rintro ⟨nd, hnd, hbad⟩
    unfold mvDiffs
    generalize hL : u0.nodes = L at hnd
    have hsub : ∀ x ∈ L, x ∈ u0.nodes := by rw [hL]; exact fun x hx => hx
    clear hL
    generalize (([] : List ℝ), ([] : List ℝ)) = acc
    -- one step: a pair of lists or a KeyError, and a KeyError at the bad node
    have step : ∀ x ∈ u0.nodes, ∀ acc : List ℝ × List ℝ, ∃ r : Py (List ℝ × List ℝ), (do
        let nd1 : Node := (x.1 / 2, x.2 / 2)
        let nd2 : Node := (x.1 / 4, x.2 / 4)
        let d12 ← if x.1 % 4 = 0 ∧ x.2 % 4 = 0 then do
            let l2 ← mvGet u2 nd2
            setypeDiffs (mvGet u1 nd1) l2
          else pure []
        let d01 ← if x.1 % 2 = 0 ∧ x.2 % 2 = 0 then do
            let l1 ← mvGet u1 nd1
            setypeDiffs (mvGet u0 x) l1
          else pure []
        return (acc.1 ++ d12, acc.2 ++ d01) : Py (List ℝ × List ℝ)) = r ∧ (r = .error .keyError ∨ (∃ z, r = .ok z) ∧
          ¬ ((x.1 % 2 = 0 ∧ x.2 % 2 = 0 ∧ (x.1 / 2, x.2 / 2) ∉ u1.nodes) ∨
            (x.1 % 4 = 0 ∧ x.2 % 4 = 0 ∧ (x.1 / 4, x.2 / 4) ∉ u2.nodes))) := by
      intro x hx acc
      refine ⟨_, rfl, ?_⟩
      dsimp only
      have hempty : ∀ l : List Entry, setypeDiffs (.error .keyError) l = .ok [] ∨
          setypeDiffs (.error .keyError) l = .error .keyError := by
        intro l
        rcases l with _ | ⟨y, l⟩
        · exact .inl rfl
        · exact .inr rfl
      by_cases c2 : x.1 % 2 = 0 ∧ x.2 % 2 = 0
      · by_cases m1 : (x.1 / 2, x.2 / 2) ∈ u1.nodes
        · by_cases c4 : x.1 % 4 = 0 ∧ x.2 % 4 = 0
          · by_cases m2 : (x.1 / 4, x.2 / 4) ∈ u2.nodes
            · right
              simp only [if_pos c4, if_pos c2, mvNode_ok hx, mvNode_ok m1, mvNode_ok m2, ok_bind, setypeDiffs_ok, pure_eq_ok]
              exact ⟨⟨_, rfl⟩, by rintro (h | h); exacts [h.2.2 m1, h.2.2 m2]⟩
            · left
              simp only [if_pos c4, mvNode_err m2, error_bind]
          · right
            simp only [if_neg c4, if_pos c2, mvNode_ok hx, mvNode_ok m1, ok_bind, setypeDiffs_ok, pure_eq_ok]
            exact ⟨⟨_, rfl⟩, by rintro (h | h); exacts [h.2.2 m1, c4 ⟨h.1, h.2.1⟩]⟩
        · left
          by_cases c4 : x.1 % 4 = 0 ∧ x.2 % 4 = 0
          · by_cases m2 : (x.1 / 4, x.2 / 4) ∈ u2.nodes
            · simp only [if_pos c4, if_pos c2, mvNode_err m1, mvNode_ok m2, ok_bind, error_bind]
              rcases hempty (u2.data (x.1 / 4, x.2 / 4)) with e | e
              · rw [e]; rfl
              · rw [e]; rfl
            · simp only [if_pos c4, mvNode_err m2, error_bind]
          · simp only [if_neg c4, if_pos c2, mvNode_err m1, ok_bind, error_bind, pure_eq_ok]
      · have c4 : ¬ (x.1 % 4 = 0 ∧ x.2 % 4 = 0) := by omega
        right
        simp only [if_neg c4, if_neg c2, ok_bind, pure_eq_ok]
        exact ⟨⟨_, rfl⟩, by rintro (h | h); exacts [c2 ⟨h.1, h.2.1⟩, c4 ⟨h.1, h.2.1⟩]⟩
    induction L generalizing acc with
    | nil => simp at hnd
    | cons x L ih =>
      rw [List.foldlM_cons]
      obtain ⟨r, hr, hcase⟩ := step x (hsub x (by simp)) acc
      rw [hr]
      rcases hcase with rfl | ⟨⟨z, rfl⟩, hgood⟩
      · rfl
      · rw [ok_bind]
        rcases List.mem_cons.1 hnd with rfl | h
        · exact absurd hbad hgood
        · exact ih h (fun y hy => hsub y (by simp [hy])) z

/-- **C50** the value returned by the three versions of `calc_rel_convergence`: the binary logarithm of the quotient of
the largest differences over the shared points -/
theorem C50_value {iter : Iter} (hit : IsIter iter) {AD a R0 R1 : ℝ} (hAD : AD ≠ 0) {q n0 n1 n2 : ℕ} (h0 : n0 + 1 = 4 * q)
    (h1 : n1 + 1 = 2 * q) (h2 : n2 + 1 = q) (ρ : ℝ) :
    (∀ {Mplus : Finset Node} {u0 : Arr n0} {u1 : Arr n1} {u2 : Arr n2} {g0 g1 g2 : ℝ × ℝ → ℂ},
      (∀ nd ∈ Mplus, InR n0 nd) → CartSamples AD u0 g0 → CartSamples AD u1 g1 → CartSamples AD u2 g2 →
      (arrRelConvergence iter Mplus u0 u1 u2 = .ok ρ ↔ IsRate (diffSet (sharedNodes AD (4 * q) Mplus q) g1 g2)
        (diffSet (sharedNodes AD (4 * q) Mplus (2 * q)) g0 g1) ρ)) ∧
    (∀ {u0 u1 u2 : ℕ → ℕ → ℂ} {g0 g1 g2 : ℝ × ℝ → ℂ}, PolarSamples a R0 R1 (4 * q) u0 g0 →
      PolarSamples a R0 R1 (2 * q) u1 g1 → PolarSamples a R0 R1 q u2 g2 →
      (pfRelConvergence (4 * q) (4 * q) (2 * q) q u0 u1 u2 = .ok ρ ↔ IsRate (diffSet (polarInner a R0 R1 q) g1 g2)
        (diffSet (polarInner a R0 R1 (2 * q)) g0 g1) ρ)) ∧
    (∀ {u0 u1 u2 : Multivalue} {g0 g1 g2 : (ℝ × ℝ) × Fin 3 × EType → ℂ}, MvSamples AD (4 * q) u0 g0 →
      MvSamples AD (2 * q) u1 g1 → MvSamples AD q u2 g2 →
      (∀ nd ∈ u0.nodes, nd.1 % 2 = 0 ∧ nd.2 % 2 = 0 → (nd.1 / 2, nd.2 / 2) ∈ u1.nodes) →
      (∀ nd ∈ u0.nodes, nd.1 % 4 = 0 ∧ nd.2 % 4 = 0 → (nd.1 / 4, nd.2 / 4) ∈ u2.nodes) →
      (mvRelConvergence u0 u1 u2 = .ok ρ ↔ IsRate (diffSet ({z | ∃ nd ∈ u0.nodes, z.1 = cartPt AD (4 * q) nd.1 nd.2} ∩
        mvPoints AD (2 * q) u1 ∩ mvPoints AD q u2) g1 g2) (diffSet (mvPoints AD (4 * q) u0 ∩ mvPoints AD (2 * q) u1) g0 g1) ρ)) := by
  refine ⟨fun hM s0 s1 s2 => ?_, fun s0 s1 s2 => ?_, fun {u0 u1 u2} _ _ _ s0 s1 s2 k1 k2 => ?_⟩
  · obtain ⟨d, e, e1, e2⟩ := C50_array hit hAD h0 h1 h2 hM s0 s1 s2
    unfold arrRelConvergence
    rw [e, ok_bind]
    exact (C50_rate d _ _ e1 e2).1 ρ
  · obtain ⟨d, e, e1, e2⟩ := C50_polar a R0 R1 q s0 s1 s2
    unfold pfRelConvergence
    rw [e, ok_bind]
    exact (C50_rate d _ _ e1 e2).1 ρ
  · obtain ⟨d, e, e1, e2⟩ := C50_multivalue hAD (by omega) s0 s1 s2 k1 k2
    have : mvRelConvergence u0 u1 u2 = (mvDiffs u0 u1 u2 >>= relRate) := rfl
    rw [this, e, ok_bind]
    exact (C50_rate d _ _ e1 e2).1 ρ

/-! ## Concrete cases -/

/-- the array of the samples of `g` -/
noncomputable def cartArr (AD : ℝ) (n : ℕ) (g : ℝ × ℝ → ℂ) : Arr n := fun i j => g (cartPt AD (n + 1) (i + 1) (j + 1))

/-- C50: on the grids with 16, 8 and 4 cells, nodes (8, 8) and (4, 6) inside -/
example {iter : Iter} (hit : IsIter iter) (g0 g1 g2 : ℝ × ℝ → ℂ) :
    ∃ d, arrDiffs iter {(8, 8), (4, 6)} (cartArr 2 15 g0) (cartArr 2 7 g1) (cartArr 2 3 g2) = .ok d ∧
      ‖g1 (0, 0) - g2 (0, 0)‖ ∈ d.1 ∧ ‖g0 (-1 / 2, -1 / 4) - g1 (-1 / 2, -1 / 4)‖ ∈ d.2 := by
  have hM : ∀ nd ∈ ({(8, 8), (4, 6)} : Finset Node), InR 15 nd := by
    intro nd hnd
    simp only [Finset.mem_insert, Finset.mem_singleton] at hnd
    rcases hnd with rfl | rfl <;> exact ⟨by norm_num, by norm_num, by norm_num, by norm_num⟩
  obtain ⟨d, h, h1, h2⟩ := C50_array hit (AD := 2) (by norm_num) (q := 4) (n0 := 15) (n1 := 7) (n2 := 3) rfl rfl rfl hM
    (u0 := cartArr 2 15 g0) (u1 := cartArr 2 7 g1) (u2 := cartArr 2 3 g2) (fun _ _ => rfl) (fun _ _ => rfl) (fun _ _ => rfl)
  refine ⟨d, h, (h1 _).2 ⟨(0, 0), ⟨(8, 8), by simp, ?_, 2, 2, ?_⟩, rfl⟩,
    (h2 _).2 ⟨(-1 / 2, -1 / 4), ⟨(4, 6), by simp, ?_, 2, 3, ?_⟩, rfl⟩⟩ <;> simp only [cartPt, Prod.mk.injEq] <;> norm_num

/-- C50: on the polar grids with 8, 4 and 2 cells -/
example (g0 g1 g2 : ℝ × ℝ → ℂ) :
    ∃ d, pfDiffs 8 8 4 2 (fun m l => g0 (polarPt 0 1 3 8 m l)) (fun m l => g1 (polarPt 0 1 3 4 m l))
        (fun m l => g2 (polarPt 0 1 3 2 m l)) = .ok d ∧ ‖g1 (2, π) - g2 (2, π)‖ ∈ d.1 := by
  obtain ⟨d, h, h1, h2⟩ := C50_polar 0 1 3 2 (u0 := fun m l => g0 (polarPt 0 1 3 8 m l))
    (u1 := fun m l => g1 (polarPt 0 1 3 4 m l)) (u2 := fun m l => g2 (polarPt 0 1 3 2 m l)) (g0 := g0) (g1 := g1) (g2 := g2)
    (fun _ _ _ _ => rfl) (fun _ _ _ _ => rfl) (fun _ _ _ _ => rfl)
  refine ⟨d, h, (h1 _).2 ⟨(2, π), ⟨1, 1, by norm_num, by norm_num, by norm_num, by norm_num, ?_⟩, rfl⟩⟩
  simp only [polarPt, Prod.mk.injEq]
  norm_num

/-- a multivalued function with one labelled value at one node -/
noncomputable def mvOne (nd : Node) (c : ℂ) : Multivalue := ⟨[nd], fun x => if x = nd then [⟨1, c, (0, .standard)⟩] else []⟩

theorem mvOne_samples (AD : ℝ) (N : ℕ) (nd : Node) (c : ℂ) : MvSamples AD N (mvOne nd c) fun _ => c := by
  intro x hx y hy
  simp only [mvOne, List.mem_cons, List.not_mem_nil, or_false] at hx
  subst hx
  simp only [mvOne, if_true, List.mem_cons, List.not_mem_nil, or_false] at hy
  rw [hy]

/-- C50: the same point on the grids with 16, 8 and 4 cells, and a missing coarse node -/
example : ∃ d, mvDiffs (mvOne (8, 4) 5) (mvOne (4, 2) 3) (mvOne (2, 1) 1) = .ok d ∧ (∀ x, x ∈ d.1 → x = 2) ∧ (2 : ℝ) ∈ d.2 := by
  obtain ⟨d, h, h1, h2⟩ := C50_multivalue (AD := 1) (by norm_num) (q := 4) (by norm_num)
    (mvOne_samples 1 16 (8, 4) 5) (mvOne_samples 1 8 (4, 2) 3) (mvOne_samples 1 4 (2, 1) 1)
    (by intro nd hnd _; simp only [mvOne, List.mem_cons, List.not_mem_nil, or_false] at hnd ⊢; subst hnd; decide)
    (by intro nd hnd _; simp only [mvOne, List.mem_cons, List.not_mem_nil, or_false] at hnd ⊢; subst hnd; decide)
  refine ⟨d, h, fun x hx => ?_, (h2 _).2 ⟨(cartPt 1 16 8 4, (0, .standard)), ⟨⟨(8, 4), by simp [mvOne], rfl, ⟨1, 5, (0, .standard)⟩, ?_, rfl⟩,
    ⟨(4, 2), by simp [mvOne], ?_, ⟨1, 3, (0, .standard)⟩, ?_, rfl⟩⟩, by norm_num⟩⟩
  · obtain ⟨P, -, rfl⟩ := (h1 x).1 hx
    norm_num
  · simp [mvOne]
  · simp only [cartPt]; norm_num
  · simp [mvOne]

example : mvDiffs (mvOne (8, 4) 5) (mvOne (4, 2) 3) (mvOne (2, 2) 1) = .error .keyError :=
  (C50_multivalue_error _ _ _).2 ⟨(8, 4), by simp [mvOne], .inr ⟨by norm_num, by norm_num, by simp [mvOne]⟩⟩

end Pot
