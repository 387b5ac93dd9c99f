import Verif.Spec.Multivalue

/-! # Lemmas about multivalued grid functions -/

namespace Pot
open Spec

@[simp] theorem listGet_of_lt {α : Type} (l : List α) (i : ℕ) (h : i < l.length) : listGet l i = .ok l[i] := by
  simp [listGet, h, pure_eq_ok]

theorem listGet_of_ge {α : Type} (l : List α) (i : ℕ) (h : l.length ≤ i) : listGet l i = .error .indexError := by
  simp [listGet, h, throw_eq_error]

/-- adding two lists item by item -/
noncomputable def addLists : List Entry → List Entry → Py (List Entry)
  | [], _ => .ok []
  | _ :: _, [] => .error .indexError
  | x :: l1, y :: l2 =>
    if x.setype = y.setype then
      (addLists l1 l2).bind fun l => .ok (⟨x.elen, x.value + y.value, x.setype⟩ :: l)
    else .error .assertionError

/-- append a list at a node -/
def mvExtend (m : Multivalue) (nd : Node) (l : List Entry) : Multivalue :=
  ⟨m.nodes, Function.update m.data nd (m.data nd ++ l)⟩

theorem mvExtend_nil (m : Multivalue) (nd : Node) : mvExtend m nd [] = m := by
  simp [mvExtend]

theorem mvExtend_mvExtend (m : Multivalue) (nd : Node) (l l' : List Entry) :
    mvExtend (mvExtend m nd l) nd l' = mvExtend m nd (l ++ l') := by
  simp [mvExtend]

theorem mvAppend_eq {m : Multivalue} {nd : Node} (h : nd ∈ m.nodes) (x : Entry) :
    mvAppend m nd x = .ok (mvExtend m nd [x]) := by
  simp [mvAppend, mvGet, h, mvExtend, pure_eq_ok]

theorem mvAddNode_aux {m2 : Multivalue} {nd : Node} (h2 : nd ∈ m2.nodes) (l1 : List Entry) :
    ∀ (d s : ℕ) (res : Multivalue), nd ∈ res.nodes → s + d = l1.length →
      (List.range' s d).foldlM (init := res) (fun res i => do
        let d1 ← listGet l1 i
        let l2 ← mvGet m2 nd
        let d2 ← listGet l2 i
        if d1.setype = d2.setype then
          mvAppend res nd ⟨d1.elen, d1.value + d2.value, d1.setype⟩
        else throw .assertionError) =
      (addLists (l1.drop s) ((m2.data nd).drop s)).bind fun l => .ok (mvExtend res nd l) := by
  intro d
  induction d with
  | zero =>
    intro s res hr hs
    have : l1.drop s = [] := List.drop_eq_nil_of_le (by omega)
    rw [this]
    simp [addLists, mvExtend_nil, pure_eq_ok, Except.bind]
  | succ d ih =>
    intro s res hr hs
    have hs1 : s < l1.length := by omega
    rw [List.range'_succ, List.foldlM_cons, List.drop_eq_getElem_cons hs1, listGet_of_lt _ _ hs1, ok_bind]
    simp only [mvGet, h2, if_true, pure_eq_ok, ok_bind]
    by_cases hs2 : s < (m2.data nd).length
    · rw [listGet_of_lt _ _ hs2, ok_bind, List.drop_eq_getElem_cons hs2]
      by_cases he : l1[s].setype = (m2.data nd)[s].setype
      · rw [if_pos he, mvAppend_eq hr, ok_bind]
        have := ih (s + 1) (mvExtend res nd [⟨l1[s].elen, l1[s].value + (m2.data nd)[s].value, l1[s].setype⟩])
          (by simpa [mvExtend] using hr) (by omega)
        simp only [mvGet, h2, if_true, pure_eq_ok, ok_bind] at this
        rw [this]
        simp only [addLists, if_pos he]
        rcases addLists (l1.drop (s + 1)) ((m2.data nd).drop (s + 1)) with er | l
        · rfl
        · simp [Except.bind, mvExtend_mvExtend]
      · rw [if_neg he]
        simp only [addLists, if_neg he, throw_eq_error, error_bind]
        rfl
    · rw [listGet_of_ge _ _ (by omega), error_bind, List.drop_eq_nil_of_le (by omega : _ ≤ s)]
      simp only [addLists, error_bind]
      rfl

theorem mvAddNode_eq {m1 m2 : Multivalue} {nd : Node} (h1 : nd ∈ m1.nodes) {res : Multivalue}
    (hr : nd ∈ res.nodes) :
    mvAddNode m1 m2 res nd =
      if nd ∈ m2.nodes then (addLists (m1.data nd) (m2.data nd)).bind fun l => .ok (mvExtend res nd l)
      else if m1.data nd = [] then .ok res else .error .keyError := by
  unfold mvAddNode
  have hg : mvGet m1 nd = .ok (m1.data nd) := by simp [mvGet, h1, pure_eq_ok]
  rw [hg, ok_bind]
  by_cases h2 : nd ∈ m2.nodes
  · rw [if_pos h2]
    have := mvAddNode_aux h2 (m1.data nd) (m1.data nd).length 0 res hr (by omega)
    rw [List.range_eq_range']
    simpa using this
  · rw [if_neg h2]
    rcases hl : m1.data nd with _ | ⟨x, l⟩
    · simp [pure_eq_ok]
    · simp [List.range_succ_eq_map, mvGet, h2, listGet, throw_eq_error, pure_eq_ok]

theorem addLists_ok {l1 l2 : List Entry} (h : Matches l1 l2) : addLists l1 l2 = .ok (sumEntries l1 l2) := by
  induction l1 generalizing l2 with
  | nil => simp [addLists, sumEntries]
  | cons x l1 ih =>
    rcases l2 with _ | ⟨y, l2⟩
    · obtain ⟨h2, -⟩ := h 0 (by simp)
      simp at h2
    · obtain ⟨_, h0⟩ := h 0 (by simp)
      have ht : Matches l1 l2 := by
        intro i hi
        obtain ⟨h2, he⟩ := h (i + 1) (by simpa using hi)
        exact ⟨by simpa using h2, by simpa using he⟩
      have h0' : x.setype = y.setype := h0
      simp only [addLists, if_pos h0', ih ht]
      simp [sumEntries, Except.bind]

theorem addLists_cases (l1 l2 : List Entry) :
    Matches l1 l2 ∨
    (addLists l1 l2 = .error .indexError ∧ l2.length < l1.length ∧
      ∀ i (h : i < l2.length) (h' : i < l1.length), l1[i].setype = l2[i].setype) ∨
    (addLists l1 l2 = .error .assertionError ∧ ∃ (i : ℕ) (h : i < l1.length) (h' : i < l2.length),
      (∀ j (_ : j < i), l1[j].setype = l2[j].setype) ∧ l1[i].setype ≠ l2[i].setype) := by
  induction l1 generalizing l2 with
  | nil => exact Or.inl fun i hi => absurd hi (by simp)
  | cons x l1 ih =>
    rcases l2 with _ | ⟨y, l2⟩
    · exact Or.inr (Or.inl ⟨rfl, by simp, fun i h => absurd h (by simp)⟩)
    · by_cases he : x.setype = y.setype
      · rcases ih l2 with h | ⟨h, hl, hm⟩ | ⟨h, i, h1, h2, hp, hne⟩
        · left
          intro i hi
          rcases i with _ | i
          · exact ⟨by simp, he⟩
          · obtain ⟨h2, h3⟩ := h i (by simpa using hi)
            exact ⟨by simpa using h2, by simpa using h3⟩
        · refine Or.inr (Or.inl ⟨by simp [addLists, he, h, Except.bind], by simpa using hl, ?_⟩)
          intro i h3 h4
          rcases i with _ | i
          · exact he
          · simpa using hm i (by simpa using h3) (by simpa using h4)
        · refine Or.inr (Or.inr ⟨by simp [addLists, he, h, Except.bind], i + 1, by simpa using h1,
            by simpa using h2, ?_, by simpa using hne⟩)
          intro j hj
          rcases j with _ | j
          · exact he
          · simpa using hp j (by omega)
      · exact Or.inr (Or.inr ⟨by simp [addLists, he], 0, by simp, by simp, fun j hj => absurd hj (by omega), he⟩)

/-- the sum built so far: the nodes of `done` carry the sum -/
theorem mvAdd_aux {m1 m2 : Multivalue} (L : List Node) :
    ∀ (res : Multivalue), L.Nodup → (∀ nd ∈ L, nd ∈ m1.nodes) → res.nodes = m1.nodes →
      (∀ nd ∈ L, res.data nd = []) →
      (∀ nd ∈ L, nd ∈ m2.nodes ∧ Matches (m1.data nd) (m2.data nd)) →
      L.foldlM (init := res) (mvAddNode m1 m2) =
        .ok ⟨m1.nodes, fun nd => if nd ∈ L then sumEntries (m1.data nd) (m2.data nd) else res.data nd⟩ := by
  induction L with
  | nil =>
    intro res _ _ hn _ _
    simp [pure_eq_ok, ← hn]
  | cons nd L ih =>
    intro res hnd h1 hn hd ha
    obtain ⟨hnot, hnd'⟩ := List.nodup_cons.1 hnd
    have h1' := h1 nd (by simp)
    obtain ⟨h2, hm⟩ := ha nd (by simp)
    rw [List.foldlM_cons, mvAddNode_eq h1' (by rw [hn]; exact h1'), if_pos h2, addLists_ok hm]
    simp only [Except.bind]
    rw [ok_bind, ih _ hnd' (fun q hq => h1 q (by simp [hq])) (by simpa [mvExtend] using hn) ?_
      (fun q hq => ha q (by simp [hq]))]
    · congr 2
      funext q
      by_cases hq : q = nd
      · subst hq
        simp [hnot, mvExtend, hd]
      · simp [hq, mvExtend]
    · intro q hq
      have : q ≠ nd := fun h => hnot (h ▸ hq)
      simpa [mvExtend, this] using hd q (by simp [hq])

theorem mvAdd_prefix {m1 m2 : Multivalue} (L : List Node) :
    ∀ (res : Multivalue), (∀ nd ∈ L, nd ∈ m1.nodes) → res.nodes = m1.nodes →
      (∀ nd ∈ L, (m1.data nd = [] ∨ nd ∈ m2.nodes) ∧ (nd ∈ m2.nodes → Matches (m1.data nd) (m2.data nd))) →
      ∃ r, L.foldlM (init := res) (mvAddNode m1 m2) = .ok r ∧ r.nodes = m1.nodes := by
  induction L with
  | nil => intro res _ hn _; exact ⟨res, rfl, hn⟩
  | cons nd L ih =>
    intro res h1 hn ha
    have h1' := h1 nd (by simp)
    obtain ⟨h2, hm⟩ := ha nd (by simp)
    rw [List.foldlM_cons, mvAddNode_eq h1' (by rw [hn]; exact h1')]
    by_cases h : nd ∈ m2.nodes
    · rw [if_pos h, addLists_ok (hm h)]
      simp only [Except.bind]
      rw [ok_bind]
      exact ih _ (fun q hq => h1 q (by simp [hq])) (by simpa [mvExtend] using hn) (fun q hq => ha q (by simp [hq]))
    · rw [if_neg h, if_pos (h2.resolve_right h), ok_bind]
      exact ih _ (fun q hq => h1 q (by simp [hq])) hn (fun q hq => ha q (by simp [hq]))

/-- what happens at one node: nothing to object to, or an exception -/
theorem node_trichotomy {m1 m2 : Multivalue} {nd : Node} (h1 : nd ∈ m1.nodes) :
    ((m1.data nd = [] ∨ nd ∈ m2.nodes) ∧ (nd ∈ m2.nodes → Matches (m1.data nd) (m2.data nd))) ∨
    ∃ er, NodeError m1 m2 nd er ∧ ∀ res : Multivalue, nd ∈ res.nodes → mvAddNode m1 m2 res nd = .error er := by
  by_cases h2 : nd ∈ m2.nodes
  · rcases addLists_cases (m1.data nd) (m2.data nd) with h | ⟨h, hl, hm⟩ | ⟨h, i, hi1, hi2, hp, hne⟩
    · exact Or.inl ⟨Or.inr h2, fun _ => h⟩
    · refine Or.inr ⟨_, .short h2 hl hm, fun res hr => ?_⟩
      rw [mvAddNode_eq h1 hr, if_pos h2, h]
      rfl
    · refine Or.inr ⟨_, .label h2 i hi1 hi2 hp hne, fun res hr => ?_⟩
      rw [mvAddNode_eq h1 hr, if_pos h2, h]
      rfl
  · by_cases he : m1.data nd = []
    · exact Or.inl ⟨Or.inl he, fun h => absurd h h2⟩
    · refine Or.inr ⟨_, .unknown he h2, fun res hr => ?_⟩
      rw [mvAddNode_eq h1 hr, if_neg h2, if_neg he]

theorem nodup_eraseDups {α : Type} [BEq α] [LawfulBEq α] (l : List α) : l.eraseDups.Nodup := by
  match l with
  | [] => simp
  | x :: l =>
    rw [List.eraseDups_cons]
    refine List.nodup_cons.2 ⟨?_, nodup_eraseDups _⟩
    simp [List.mem_eraseDups]
termination_by l.length
decreasing_by
  simp only [List.length_cons]
  exact Nat.lt_succ_of_le (List.length_filter_le _ _)

end Pot
