import Verif.Model.UnitTests
import Verif.Props.Multivalue

/-! # Property C99: the unit tests of the repository -/

namespace Pot
open Spec

/-! ## What `is_equal` decides -/

theorem isEqualList_ok (l1 l2 : List Entry) :
    isEqualList l1 l2 = .ok true ↔ l1.length ≤ l2.length ∧
      ∀ p ∈ l1.zip l2, p.1.setype = p.2.setype ∧ ‖p.1.value - p.2.value‖ ≤ testTol := by
  induction l1 generalizing l2 with
  | nil => simp [isEqualList, pure_eq_ok]
  | cons d l ih =>
    cases l2 with
    | nil => simp [isEqualList, throw_eq_error]
    | cons d' l' =>
      rw [isEqualList]
      by_cases h : d.setype ≠ d'.setype ∨ ‖d.value - d'.value‖ > testTol
      · rw [if_pos h]
        simp only [pure_eq_ok, Except.ok.injEq, Bool.false_eq_true, false_iff]
        rintro ⟨-, h2⟩
        have := h2 (d, d') (by simp)
        rcases h with h | h
        · exact h this.1
        · exact absurd this.2 (not_le.2 h)
      · rw [if_neg h, ih]
        push Not at h
        simp only [List.length_cons, Nat.add_le_add_iff_right, List.zip_cons_cons, List.mem_cons, forall_eq_or_imp]
        tauto

/-- `is_equal` returns `True` exactly if the two have the same list of nodes and at each node the items of the second agree with those
of the first, as far as the first has any. -/
theorem C99_is_equal (m1 m2 : Multivalue) :
    isEqual m1 m2 = .ok true ↔ m1.nodes = m2.nodes ∧ ∀ nd ∈ m1.nodes,
      (m1.data nd).length ≤ (m2.data nd).length ∧
      ∀ p ∈ (m1.data nd).zip (m2.data nd), p.1.setype = p.2.setype ∧ ‖p.1.value - p.2.value‖ ≤ 1 / 10 ^ 13 := by
  unfold isEqual
  by_cases hn : m1.nodes = m2.nodes
  · rw [if_neg (not_not.2 hn)]
    have key : ∀ L : List Node, (∀ nd ∈ L, nd ∈ m1.nodes) → (isEqualNodes m1 m2 L = .ok true ↔ ∀ nd ∈ L,
        (m1.data nd).length ≤ (m2.data nd).length ∧
        ∀ p ∈ (m1.data nd).zip (m2.data nd), p.1.setype = p.2.setype ∧ ‖p.1.value - p.2.value‖ ≤ testTol) := by
      intro L hL
      induction L with
      | nil => simp [isEqualNodes, pure_eq_ok]
      | cons nd L ih =>
        have h1 := hL nd (by simp)
        have h2 : nd ∈ m2.nodes := hn ▸ h1
        have ih := ih fun x hx => hL x (by simp [hx])
        rw [isEqualNodes]
        simp only [← isEqualList_ok] at ih
        simp only [mvGet, if_pos h1, if_pos h2, pure_eq_ok, ok_bind, List.mem_cons, forall_eq_or_imp, ← isEqualList_ok]
        rw [← ih]
        by_cases he : m1.data nd = []
        · rw [if_pos he, he]
          simp [isEqualList, pure_eq_ok, ok_bind]
        · rw [if_neg he]
          rcases hb : isEqualList (m1.data nd) (m2.data nd) with e | b
          · simp [error_bind]
          · cases b <;> simp [ok_bind]
    rw [key _ fun nd h => List.mem_eraseDups.1 h]
    simp only [List.mem_eraseDups, hn, true_and]
    rfl
  · rw [if_pos hn]
    simp [hn, pure_eq_ok]

/-- `is_equal` is not symmetric: it does not notice items that only its second argument has. -/
theorem C99_not_symmetric (x : Entry) : ∃ m1 m2 : Multivalue, isEqual m1 m2 = .ok true ∧ isEqual m2 m1 = .error .indexError := by
  refine ⟨⟨[(0, 0)], fun _ => []⟩, ⟨[(0, 0)], fun _ => [x]⟩, ?_, ?_⟩
  · rw [C99_is_equal]; simp
  · simp [isEqual, isEqualNodes, isEqualList, mvGet, pure_eq_ok, throw_eq_error, ok_bind, error_bind, List.eraseDups_cons]

/-! ## The tests -/

theorem testMv1_eq : ∃ m, testMv1 = .ok m ∧ m.nodes = testNodes ∧
    m.data (0, 0) = [⟨1, 1 / 2, testSetype 0⟩, ⟨3 / 2, 3 / 4, testSetype 1⟩] ∧ m.data (0, 1) = [⟨1, 2, testSetype 0⟩] := by
  refine ⟨_, rfl, rfl, ?_, ?_⟩ <;> rfl

theorem testMv2_eq : ∃ m, testMv2 = .ok m ∧ m.nodes = testNodes ∧
    m.data (0, 0) = [⟨1, 7 / 2, testSetype 0⟩, ⟨1, 4, testSetype 1⟩] ∧ m.data (0, 1) = [⟨1, -3, testSetype 0⟩] := by
  refine ⟨_, rfl, rfl, ?_, ?_⟩ <;> rfl

theorem testSum_eq : ∃ m, testSum = .ok m ∧ m.nodes = testNodes ∧
    m.data (0, 0) = [⟨0, 4, testSetype 0⟩, ⟨0, 19 / 4, testSetype 1⟩] ∧ m.data (0, 1) = [⟨0, -1, testSetype 0⟩] := by
  refine ⟨_, rfl, rfl, ?_, ?_⟩ <;> rfl

/-- `test_getitem` passes. -/
theorem C99_getitem : testGetitem = .ok () := by
  obtain ⟨m, h, h1, h2, h3⟩ := testMv1_eq
  unfold testGetitem
  simp [h, mvGet, h1, h2, testNodes, ok_bind, pure_eq_ok, throw_eq_error, listGet, assertTrue, assertKeyError]

theorem aligned_of {m1 m2 : Multivalue} (h1 : m1.nodes = testNodes) (h2 : m2.nodes = testNodes) {x y z x' y' z' : Entry}
    (a1 : m1.data (0, 0) = [x, y]) (a2 : m1.data (0, 1) = [z]) (b1 : m2.data (0, 0) = [x', y']) (b2 : m2.data (0, 1) = [z'])
    (hx : x.setype = x'.setype) (hy : y.setype = y'.setype) (hz : z.setype = z'.setype) : Aligned m1 m2 := by
  intro nd hnd
  rw [h1] at hnd
  refine ⟨h2 ▸ hnd, ?_⟩
  simp only [testNodes, List.mem_cons, List.not_mem_nil, or_false] at hnd
  rcases hnd with rfl | rfl
  · rw [a1, b1]
    intro i hi
    simp only [List.length_cons, List.length_nil] at hi ⊢
    rcases (by omega : i = 0 ∨ i = 1) with rfl | rfl
    · exact ⟨by simp, hx⟩
    · exact ⟨by simp, hy⟩
  · rw [a2, b2]
    intro i hi
    simp only [List.length_cons, List.length_nil] at hi ⊢
    obtain rfl : i = 0 := by omega
    exact ⟨by simp, hz⟩

theorem sum_equal {e m1 m2 : Multivalue} (he : e.nodes = testNodes) (h1 : m1.nodes = testNodes) (h2 : m2.nodes = testNodes)
    {x y z x' y' z' u v w : Entry}
    (a1 : m1.data (0, 0) = [x, y]) (a2 : m1.data (0, 1) = [z]) (b1 : m2.data (0, 0) = [x', y']) (b2 : m2.data (0, 1) = [z'])
    (c1 : e.data (0, 0) = [u, v]) (c2 : e.data (0, 1) = [w])
    (hx : x.setype = x'.setype) (hy : y.setype = y'.setype) (hz : z.setype = z'.setype) (hu : u.setype = x.setype)
    (hv : v.setype = y.setype) (hw : w.setype = z.setype) (su : u.value = x.value + x'.value) (sv : v.value = y.value + y'.value)
    (sw : w.value = z.value + z'.value) : ∃ r, mvAdd m1 m2 = .ok r ∧ isEqual e r = .ok true := by
  obtain ⟨r, hr, rn, rd⟩ := C34_add m1 m2 (aligned_of h1 h2 a1 a2 b1 b2 hx hy hz)
  refine ⟨r, hr, ?_⟩
  rw [C99_is_equal]
  refine ⟨by rw [he, rn, h1], fun nd hnd => ?_⟩
  rw [rd nd (by rw [h1, ← he]; exact hnd)]
  rw [he] at hnd
  simp only [testNodes, List.mem_cons, List.not_mem_nil, or_false] at hnd
  rcases hnd with rfl | rfl
  · rw [a1, b1, c1]
    simp [sumEntries, hu, hv, su, sv]
  · rw [a2, b2, c2]
    simp [sumEntries, hw, sw]

/-- `test_add` passes. -/
theorem C99_add : testAdd = .ok () := by
  obtain ⟨m1, h1, n1, a1, a2⟩ := testMv1_eq
  obtain ⟨m2, h2, n2, b1, b2⟩ := testMv2_eq
  obtain ⟨e, h3, n3, c1, c2⟩ := testSum_eq
  obtain ⟨r, hr, er⟩ := sum_equal n3 n1 n2 a1 a2 b1 b2 c1 c2 rfl rfl rfl rfl rfl rfl (by norm_num) (by norm_num) (by norm_num)
  obtain ⟨r', hr', er'⟩ := sum_equal n3 n2 n1 b1 b2 a1 a2 c1 c2 rfl rfl rfl rfl rfl rfl (by norm_num) (by norm_num) (by norm_num)
  unfold testAdd
  simp [h1, h2, h3, hr, er, hr', er', ok_bind, assertTrue, pure_eq_ok]

/-- `test_reduce0` passes. -/
theorem C99_reduce0 : testReduce0 = .ok () := by
  have h : mvReduce ⟨[(0, 0)], Function.update (Function.update (fun _ => []) (0, 0) [⟨0, 2, testSetype 0⟩]) (0, 0)
      [⟨0, 2, testSetype 0⟩, ⟨0, 19 / 4, testSetype 1⟩]⟩ = .ok [(2 + 19 / 4) / 2] := by
    simp [mvReduce, reduceList, pure_eq_ok]
  unfold testReduce0
  simp only [mvInit, mvAppend, mvGet, List.mem_singleton, if_true, pure_eq_ok, ok_bind, Function.update_self, List.nil_append,
    List.cons_append]
  rw [h]
  simp [ok_bind, listGet, pure_eq_ok, assertTrue]

/-- the values that `reduce` returns for `mv1`: the plain average at the first node -/
theorem C99_reduced {m : Multivalue} (hm : testMv1 = .ok m) : mvReduce m = .ok [5 / 8, 2] := by
  obtain ⟨m', h, h1, h2, h3⟩ := testMv1_eq
  rw [h] at hm
  cases hm
  rw [mvReduce, h1, testNodes]
  simp only [List.mapM_cons, List.mapM_nil, h2, h3, reduceList, pure_eq_ok, ok_bind]
  norm_num

/-- **`test_reduce_mv1` fails**: it expects the average weighted by the extension lengths, `0.6`, where `reduce` returns `0.625`. -/
theorem C99_reduce_mv1 : testReduceMv1 = .error .assertionError := by
  obtain ⟨m, h, -⟩ := testMv1_eq
  unfold testReduceMv1
  rw [h, ok_bind, C99_reduced h, ok_bind]
  have : allclose [3 / 5, 2] [5 / 8, 2] = false := by
    unfold allclose
    rw [decide_eq_false_iff_not]
    intro hf
    cases hf with
    | cons h1 h2 =>
      rw [show (3 / 5 - 5 / 8 : ℂ) = ((-(1 / 40) : ℝ) : ℂ) by push_cast; norm_num,
        show (5 / 8 : ℂ) = ((5 / 8 : ℝ) : ℂ) by push_cast; norm_num, Complex.norm_real, Complex.norm_real, Real.norm_eq_abs,
        Real.norm_eq_abs, abs_of_neg (by norm_num), abs_of_pos (by norm_num)] at h1
      norm_num at h1
  rw [this]
  rfl

/-- The expectation of that test is what the docstring of `reduce` promises: the average weighted by the extension lengths. -/
theorem C99_weighted : ∃ m x y, testMv1 = .ok m ∧ m.data (0, 0) = [x, y] ∧
    ((y.elen : ℂ) * x.value + x.elen * y.value) / (x.elen + y.elen) = 3 / 5 := by
  obtain ⟨m, h, -, h2, -⟩ := testMv1_eq
  refine ⟨m, _, _, h, h2, ?_⟩
  push_cast
  norm_num

end Pot
