import Verif.Proofs.Multivalue
import Mathlib.Tactic.NormNum
import Mathlib.Tactic.Ring

/-! # Multivalued grid functions: C34 -/

namespace Pot
open Spec

/-- **C34** adding aligned multivalued functions adds the values item by item and keeps nodes and labels. -/
theorem C34_add (m1 m2 : Multivalue) (h : Aligned m1 m2) :
    ∃ r, mvAdd m1 m2 = .ok r ∧ r.nodes = m1.nodes ∧
      ∀ nd ∈ m1.nodes, r.data nd = sumEntries (m1.data nd) (m2.data nd) := by
  refine ⟨_, mvAdd_aux m1.nodes.eraseDups (mvInit m1.nodes) (nodup_eraseDups _)
    (fun nd hnd => List.mem_eraseDups.1 hnd) rfl (fun _ _ => rfl)
    (fun nd hnd => h nd (List.mem_eraseDups.1 hnd)), rfl, ?_⟩
  intro nd hnd
  simp [List.mem_eraseDups, hnd]

/-- the labels and the values of a sum of aligned lists -/
theorem C34_entries {l1 l2 : List Entry} (h : Matches l1 l2) :
    (sumEntries l1 l2).length = l1.length ∧
    (sumEntries l1 l2).map Entry.setype = l1.map Entry.setype ∧
    (sumEntries l1 l2).map Entry.elen = l1.map Entry.elen ∧
    (sumEntries l1 l2).map Entry.value = List.zipWith (· + ·) (l1.map Entry.value) (l2.map Entry.value) := by
  have hl : l1.length ≤ l2.length := by
    by_contra hc
    obtain ⟨h2, -⟩ := h l2.length (by omega)
    omega
  refine ⟨by simp [sumEntries, hl], ?_, ?_, ?_⟩
  · apply List.ext_getElem
    · simp [sumEntries, hl]
    · intro i h1 h2; simp [sumEntries]
  · apply List.ext_getElem
    · simp [sumEntries, hl]
    · intro i h1 h2; simp [sumEntries]
  · apply List.ext_getElem
    · simp [sumEntries, hl]
    · intro i h1 h2; simp [sumEntries]

/-- **C34** the addition succeeds exactly when no node objects, and otherwise raises what the first objecting
node (in insertion order) raises. -/
theorem C34_errors (m1 m2 : Multivalue) (er : PyErr) :
    mvAdd m1 m2 = .error er ↔
      ∃ pre nd post, m1.nodes.eraseDups = pre ++ nd :: post ∧
        (∀ q ∈ pre, ∀ er', ¬ NodeError m1 m2 q er') ∧ NodeError m1 m2 nd er := by
  have key : ∀ (L : List Node) (res : Multivalue), (∀ nd ∈ L, nd ∈ m1.nodes) → res.nodes = m1.nodes →
      (L.foldlM (init := res) (mvAddNode m1 m2) = .error er ↔
        ∃ pre nd post, L = pre ++ nd :: post ∧
          (∀ q ∈ pre, ∀ er', ¬ NodeError m1 m2 q er') ∧ NodeError m1 m2 nd er) := by
    have hgood : ∀ nd, ((m1.data nd = [] ∨ nd ∈ m2.nodes) ∧ (nd ∈ m2.nodes → Matches (m1.data nd) (m2.data nd))) →
        ∀ er', ¬ NodeError m1 m2 nd er' := by
      rintro nd ⟨ha, hb⟩ er' hne
      cases hne with
      | unknown h h2 => exact ha.elim h h2
      | short h2 h hp =>
        obtain ⟨h3, -⟩ := hb h2 _ h
        omega
      | label h2 i h h' hp hne =>
        obtain ⟨_, h3⟩ := hb h2 i h
        exact hne h3
    have huniq : ∀ nd er' er'', NodeError m1 m2 nd er' → NodeError m1 m2 nd er'' → er' = er'' := by
      intro nd er' er'' h h'
      cases h with
      | unknown h h2 =>
        cases h' with
        | unknown => rfl
        | short h3 => exact absurd h3 h2
        | label h3 => exact absurd h3 h2
      | short h2 h hp =>
        cases h' with
        | unknown _ h3 => exact absurd h2 h3
        | short => rfl
        | label _ i hi1 hi2 _ hne => exact absurd (hp i hi2 hi1) hne
      | label h2 i hi1 hi2 hp hne =>
        cases h' with
        | unknown _ h3 => exact absurd h2 h3
        | short _ _ hp' => exact absurd (hp' i hi2 hi1) hne
        | label => rfl
    intro L
    induction L with
    | nil =>
      intro res _ _
      simp [pure_eq_ok]
    | cons nd L ih =>
      intro res h1 hn
      have h1' := h1 nd (by simp)
      rw [List.foldlM_cons]
      rcases node_trichotomy (m2 := m2) h1' with hg | ⟨e2, hne, hs⟩
      · obtain ⟨r, hr, hrn⟩ := mvAdd_prefix (m2 := m2) [nd] res (by simpa using h1') hn (by simpa using hg)
        have hr' : mvAddNode m1 m2 res nd = .ok r := by
          rcases hq : mvAddNode m1 m2 res nd with e3 | r3
          · simp [hq] at hr
          · simp [hq, pure_eq_ok] at hr; rw [hr]
        rw [hr', ok_bind, ih r (fun q hq => h1 q (by simp [hq])) hrn]
        constructor
        · rintro ⟨pre, q, post, hL, hp, hq⟩
          refine ⟨nd :: pre, q, post, by simp [hL], ?_, hq⟩
          intro q' hq'
          rcases List.mem_cons.1 hq' with rfl | hq'
          · exact hgood _ hg
          · exact hp q' hq'
        · rintro ⟨pre, q, post, hL, hp, hq⟩
          rcases pre with _ | ⟨p, pre⟩
          · simp only [List.nil_append, List.cons.injEq] at hL
            exact absurd (hL.1 ▸ hq) (hgood _ hg er)
          · simp only [List.cons_append, List.cons.injEq] at hL
            exact ⟨pre, q, post, hL.2, fun q' hq' => hp q' (by simp [hq']), hq⟩
      · rw [hs res (by rw [hn]; exact h1'), error_bind]
        constructor
        · intro h
          cases h
          exact ⟨[], nd, L, rfl, by simp, hne⟩
        · rintro ⟨pre, q, post, hL, hp, hq⟩
          rcases pre with _ | ⟨p, pre⟩
          · simp only [List.nil_append, List.cons.injEq] at hL
            obtain ⟨rfl, -⟩ := hL
            rw [huniq _ _ _ hne hq]
          · simp only [List.cons_append, List.cons.injEq] at hL
            exact absurd (hL.1 ▸ hne) (hp p (by simp) e2)
  exact key _ _ (fun nd hnd => List.mem_eraseDups.1 hnd) rfl

/-- **C34** the addition is commutative on the values, when both operands align. -/
theorem C34_comm (m1 m2 : Multivalue) (hn : m1.nodes = m2.nodes) (h : Aligned m1 m2) (h' : Aligned m2 m1) :
    ∃ r r', mvAdd m1 m2 = .ok r ∧ mvAdd m2 m1 = .ok r' ∧ r.nodes = r'.nodes ∧
      ∀ nd ∈ m1.nodes, (r.data nd).map Entry.value = (r'.data nd).map Entry.value ∧
        (r.data nd).map Entry.setype = (r'.data nd).map Entry.setype := by
  obtain ⟨r, hr, hrn, hrd⟩ := C34_add m1 m2 h
  obtain ⟨r', hr', hrn', hrd'⟩ := C34_add m2 m1 h'
  refine ⟨r, r', hr, hr', by rw [hrn, hrn', hn], fun nd hnd => ?_⟩
  have ha := (h nd hnd).2
  have hb := (h' nd (hn ▸ hnd)).2
  rw [hrd nd hnd, hrd' nd (hn ▸ hnd), (C34_entries ha).2.2.2, (C34_entries hb).2.2.2, (C34_entries ha).2.1,
    (C34_entries hb).2.1]
  refine ⟨List.zipWith_comm_of_comm (fun x y => add_comm x y), ?_⟩
  have l1 : (m1.data nd).length ≤ (m2.data nd).length := by
    by_contra hc
    obtain ⟨h2, -⟩ := ha (m2.data nd).length (by omega)
    omega
  have l2 : (m2.data nd).length ≤ (m1.data nd).length := by
    by_contra hc
    obtain ⟨h2, -⟩ := hb (m1.data nd).length (by omega)
    omega
  apply List.ext_getElem
  · simp; omega
  · intro i h1 h2
    simp only [List.length_map] at h1
    obtain ⟨h3, h4⟩ := ha i h1
    simpa using h4

/-- **C34** the addition is associative on the values. -/
theorem C34_assoc (m1 m2 m3 : Multivalue) (h12 : Aligned m1 m2) (h23 : Aligned m2 m3) :
    ∃ r12 r23 ra rb, mvAdd m1 m2 = .ok r12 ∧ mvAdd m2 m3 = .ok r23 ∧ mvAdd r12 m3 = .ok ra ∧
      mvAdd m1 r23 = .ok rb ∧ ra.nodes = rb.nodes ∧ ∀ nd ∈ m1.nodes, ra.data nd = rb.data nd := by
  obtain ⟨r12, e12, n12, d12⟩ := C34_add m1 m2 h12
  obtain ⟨r23, e23, n23, d23⟩ := C34_add m2 m3 h23
  have hA : Aligned r12 m3 := by
    intro nd hnd
    rw [n12] at hnd
    obtain ⟨hm2, ha⟩ := h12 nd hnd
    obtain ⟨hm3, hb⟩ := h23 nd hm2
    refine ⟨hm3, fun i hi => ?_⟩
    have hi' : i < (m1.data nd).length := by
      rw [d12 nd hnd, (C34_entries ha).1] at hi; exact hi
    obtain ⟨h2, e2⟩ := ha i hi'
    obtain ⟨h3, e3⟩ := hb i h2
    exact ⟨h3, by simp only [d12 nd hnd, sumEntries, List.getElem_zipWith]; rw [e2, e3]⟩
  have hB : Aligned m1 r23 := by
    intro nd hnd
    obtain ⟨hm2, ha⟩ := h12 nd hnd
    obtain ⟨hm3, hb⟩ := h23 nd hm2
    refine ⟨by rw [n23]; exact hm2, fun i hi => ?_⟩
    obtain ⟨h2, e2⟩ := ha i hi
    refine ⟨by rw [d23 nd hm2, (C34_entries hb).1]; exact h2, ?_⟩
    simp only [d23 nd hm2, sumEntries, List.getElem_zipWith]
    exact e2
  obtain ⟨ra, ea, na, da⟩ := C34_add r12 m3 hA
  obtain ⟨rb, eb, nb, db⟩ := C34_add m1 r23 hB
  refine ⟨r12, r23, ra, rb, e12, e23, ea, eb, by rw [na, nb, n12], fun nd hnd => ?_⟩
  rw [da nd (by rw [n12]; exact hnd), db nd hnd, d12 nd hnd, d23 nd (h12 nd hnd).1]
  apply List.ext_getElem
  · simp [sumEntries, min_assoc]
  · intro i h1 h2
    simp [sumEntries, add_assoc]

theorem mapM_ok_iff {α β : Type} (f : α → Py β) (l : List α) (r : List β) :
    l.mapM f = .ok r ↔ List.Forall₂ (fun a b => f a = .ok b) l r := by
  induction l generalizing r with
  | nil => simp [pure_eq_ok, eq_comm]
  | cons x l ih =>
    rw [List.mapM_cons]
    rcases hx : f x with er | b
    · simp only [error_bind, reduceCtorEq, false_iff]
      intro h
      cases h with
      | cons h1 _ => rw [hx] at h1; cases h1
    · rw [ok_bind]
      rcases hl : l.mapM f with er | bs
      · simp only [error_bind, reduceCtorEq, false_iff]
        intro h
        cases h with
        | cons h1 h2 => rw [(ih _).2 h2] at hl; cases hl
      · rw [ok_bind, pure_eq_ok]
        constructor
        · intro h
          cases h
          exact .cons hx ((ih _).1 hl)
        · intro h
          cases h with
          | cons h1 h2 =>
            rw [hx] at h1
            cases h1
            rw [(ih _).2 h2] at hl
            cases hl
            rfl

/-- **C34** `reduce` succeeds exactly when every node has one or two values, and then returns their mean, in
node order. -/
theorem C34_reduce (m : Multivalue) (v : List ℂ) :
    mvReduce m = .ok v ↔
      (∀ nd ∈ m.nodes, (m.data nd).length = 1 ∨ (m.data nd).length = 2) ∧
        v = m.nodes.map fun nd => mean (m.data nd) := by
  have h1 : ∀ l z, reduceList l = .ok z ↔ (l.length = 1 ∨ l.length = 2) ∧ z = mean l := by
    intro l z
    rcases l with _ | ⟨x, _ | ⟨y, _ | ⟨w, l⟩⟩⟩
    · simp [reduceList, throw_eq_error]
    · simp [reduceList, pure_eq_ok, mean, eq_comm]
    · simp [reduceList, pure_eq_ok, mean, eq_comm]
    · simp [reduceList, throw_eq_error]
  unfold mvReduce
  rw [mapM_ok_iff]
  simp only [h1]
  generalize m.nodes = l
  induction l generalizing v with
  | nil => simp
  | cons x l ih =>
    rcases v with _ | ⟨b, v⟩
    · simp
    · rw [List.forall₂_cons]
      have h3 := ih v
      simp only [List.mem_cons, forall_eq_or_imp, List.map_cons, List.cons.injEq]
      constructor
      · rintro ⟨⟨h1, h2⟩, h4⟩
        exact ⟨⟨h1, (h3.1 h4).1⟩, h2, (h3.1 h4).2⟩
      · rintro ⟨⟨h1, h4⟩, h2, h5⟩
        exact ⟨⟨h1, h2⟩, h3.2 ⟨h4, h5⟩⟩

/-- **C34** `reduce` raises nothing but AssertionError, and does so exactly when some node has no value or more
than two. -/
theorem C34_reduce_error (m : Multivalue) :
    (∀ er, mvReduce m = .error er → er = .assertionError) ∧
    (mvReduce m = .error .assertionError ↔
      ∃ nd ∈ m.nodes, (m.data nd).length = 0 ∨ 2 < (m.data nd).length) := by
  have hall : ∀ er, mvReduce m = .error er → er = .assertionError := by
    intro er
    unfold mvReduce
    generalize m.nodes = l
    induction l generalizing er with
    | nil => simp [pure_eq_ok]
    | cons x l ih =>
      rw [List.mapM_cons]
      rcases hx : reduceList (m.data x) with e1 | b
      · intro h
        cases h
        rcases hd : m.data x with _ | ⟨p, _ | ⟨q, _ | ⟨w, t⟩⟩⟩ <;>
          simp [hd, reduceList, throw_eq_error, pure_eq_ok] at hx <;> exact hx.symm
      · rw [ok_bind]
        rcases hl : (l.mapM fun nd => reduceList (m.data nd)) with e2 | bs
        · intro h
          cases h
          exact ih _ hl
        · simp [pure_eq_ok]
  refine ⟨hall, ?_⟩
  constructor
  · intro h
    by_contra hc
    push Not at hc
    have := (C34_reduce m _).2 ⟨fun nd hnd => by have := hc nd hnd; omega, rfl⟩
    rw [h] at this
    cases this
  · rintro ⟨nd, hnd, h⟩
    rcases hr : mvReduce m with er | v
    · rw [hall er hr]
    · have := ((C34_reduce m v).1 hr).1 nd hnd
      omega

/-- **C34** `reduce` is additive on aligned functions with equally many values at each node. -/
theorem C34_reduce_add (m1 m2 r : Multivalue) (v1 v2 : List ℂ) (hn : m1.nodes = m2.nodes)
    (ha : Aligned m1 m2) (hl : ∀ nd ∈ m1.nodes, (m1.data nd).length = (m2.data nd).length)
    (hr : mvAdd m1 m2 = .ok r) (h1 : mvReduce m1 = .ok v1) (h2 : mvReduce m2 = .ok v2) :
    mvReduce r = .ok (List.zipWith (· + ·) v1 v2) := by
  obtain ⟨r', hr', hrn, hrd⟩ := C34_add m1 m2 ha
  obtain rfl : r = r' := Except.ok.inj (hr.symm.trans hr')
  obtain ⟨c1, rfl⟩ := (C34_reduce _ _).1 h1
  obtain ⟨-, rfl⟩ := (C34_reduce _ _).1 h2
  rw [C34_reduce, hrn, ← hn]
  refine ⟨fun nd hnd => ?_, ?_⟩
  · rw [hrd nd hnd, (C34_entries (ha nd hnd).2).1]
    exact c1 nd hnd
  · rw [List.zipWith_map_left, List.zipWith_map_right, List.zipWith_self]
    refine List.map_congr_left fun nd hnd => ?_
    rw [hrd nd hnd]
    have hl' := hl nd hnd
    rcases c1 nd hnd with h | h
    · obtain ⟨x, hx⟩ := List.length_eq_one_iff.1 h
      obtain ⟨y, hy⟩ := List.length_eq_one_iff.1 (hl' ▸ h)
      simp [hx, hy, sumEntries, mean]
    · obtain ⟨x, x', hx⟩ := List.length_eq_two.1 h
      obtain ⟨y, y', hy⟩ := List.length_eq_two.1 (hl' ▸ h)
      simp [hx, hy, sumEntries, mean]
      ring

/-- two functions on two nodes that align, with one and two values -/
noncomputable def exampleMv (c : ℂ) : Multivalue :=
  ⟨[(1, 1), (2, 1)], fun nd => if nd = (1, 1) then [⟨1, c, (0, .left)⟩]
    else if nd = (2, 1) then [⟨1, c, (0, .standard)⟩, ⟨3, c + 1, (2, .right)⟩] else []⟩

example (c d : ℂ) : Aligned (exampleMv c) (exampleMv d) ∧
    ∀ nd ∈ (exampleMv c).nodes, ((exampleMv c).data nd).length = 1 ∨ ((exampleMv c).data nd).length = 2 := by
  constructor
  · intro nd hnd
    simp only [exampleMv, List.mem_cons, List.not_mem_nil, or_false] at hnd ⊢
    refine ⟨hnd, ?_⟩
    rcases hnd with rfl | rfl
    · intro i hi
      simp only [if_true, List.length_cons, List.length_nil] at hi ⊢
      obtain rfl : i = 0 := by omega
      exact ⟨by simp, rfl⟩
    · intro i hi
      have h0 : ((2, 1) : Node) ≠ (1, 1) := by decide
      simp only [h0, if_false, if_true, List.length_cons, List.length_nil] at hi ⊢
      rcases (by omega : i = 0 ∨ i = 1) with rfl | rfl
      · exact ⟨by simp, rfl⟩
      · exact ⟨by simp, rfl⟩
  · intro nd hnd
    simp only [exampleMv, List.mem_cons, List.not_mem_nil, or_false] at hnd
    rcases hnd with rfl | rfl
    · left; simp [exampleMv]
    · right; simp [exampleMv]

/-- **C34** the average is not weighted by the extension lengths, contrary to the docstring. -/
theorem C34_not_weighted : ∃ (m : Multivalue) (x y : Entry) (v : List ℂ), m.nodes = [(2, 1)] ∧
    m.data (2, 1) = [x, y] ∧ x.elen + y.elen ≠ 0 ∧ mvReduce m = .ok v ∧
    v ≠ [((y.elen : ℂ) * x.value + x.elen * y.value) / (x.elen + y.elen)] := by
  refine ⟨⟨[(2, 1)], fun _ => [⟨1, 0, (0, .standard)⟩, ⟨3, 1, (2, .right)⟩]⟩, ⟨1, 0, (0, .standard)⟩,
    ⟨3, 1, (2, .right)⟩, [1 / 2], rfl, rfl, by norm_num, ?_, ?_⟩
  · rw [C34_reduce]
    refine ⟨by simp, by simp [mean]⟩
  · norm_num

end Pot
