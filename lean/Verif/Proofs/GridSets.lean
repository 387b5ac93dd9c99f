import Verif.Model.Grid
import Verif.Spec.Segments
import Mathlib.Tactic.Linarith

/-! # Membership in the sets built by the grid construction -/

namespace Pot
open Spec

theorem mem_square (lo hi : ℤ) (nd : Node) :
    nd ∈ square lo hi ↔ (lo ≤ nd.1 ∧ nd.1 < hi) ∧ (lo ≤ nd.2 ∧ nd.2 < hi) := by
  unfold square; rw [Finset.mem_product, Finset.mem_Ico, Finset.mem_Ico]

theorem foldl_filter_mem (p : Node → Prop) [DecidablePred p] (l : List Node) (s : Finset Node) (x : Node) :
    x ∈ l.foldl (fun s nd => if p nd then insert nd s else s) s ↔ x ∈ s ∨ (x ∈ l ∧ p x) := by
  induction l generalizing s with
  | nil => simp
  | cons a l ih =>
    rw [List.foldl_cons, ih]
    by_cases h : p a
    · rw [if_pos h, Finset.mem_insert, List.mem_cons]
      constructor
      · rintro ((rfl | h1) | h1)
        · exact Or.inr ⟨Or.inl rfl, h⟩
        · exact Or.inl h1
        · exact Or.inr ⟨Or.inr h1.1, h1.2⟩
      · rintro (h1 | ⟨rfl | h1, h2⟩)
        · exact Or.inl (Or.inr h1)
        · exact Or.inl (Or.inl rfl)
        · exact Or.inr ⟨h1, h2⟩
    · rw [if_neg h, List.mem_cons]
      constructor
      · rintro (h1 | h1)
        · exact Or.inl h1
        · exact Or.inr ⟨Or.inr h1.1, h1.2⟩
      · rintro (h1 | ⟨rfl | h1, h2⟩)
        · exact Or.inl h1
        · exact absurd h2 h
        · exact Or.inr ⟨h1, h2⟩

theorem foldl_union_mem (f : Node → Finset Node) (l : List Node) (s : Finset Node) (x : Node) :
    x ∈ l.foldl (fun s nd => s ∪ f nd) s ↔ x ∈ s ∨ ∃ nd ∈ l, x ∈ f nd := by
  induction l generalizing s with
  | nil => simp
  | cons a l ih =>
    rw [List.foldl_cons, ih, Finset.mem_union]
    simp only [List.mem_cons, exists_eq_or_imp]
    tauto

variable {iter : Iter} (hit : IsIter iter)
include hit

theorem mem_Mplus (N order : ℕ) (inter : Node → Prop) (nd : Node) :
    nd ∈ (constructGrids iter N order inter).Mplus ↔ nd ∈ square 1 N ∧ inter nd := by
  classical
  unfold constructGrids
  simp only
  rw [foldl_filter_mem]
  simp [(hit 0 (square 1 N)).2]

theorem mem_Mminus (N order : ℕ) (inter : Node → Prop) (nd : Node) :
    nd ∈ (constructGrids iter N order inter).Mminus ↔ nd ∈ square 1 N ∧ ¬ inter nd := by
  have h := mem_Mplus hit N order inter nd
  have : (constructGrids iter N order inter).Mminus
      = square 1 N \ (constructGrids iter N order inter).Mplus := rfl
  rw [this, Finset.mem_sdiff, h]; tauto

theorem mem_Kplus (N order : ℕ) (inter : Node → Prop) (nd : Node) :
    nd ∈ (constructGrids iter N order inter).Kplus ↔
      ∃ p ∈ (constructGrids iter N order inter).Mplus, nd ∈ kStencil order p := by
  have : (constructGrids iter N order inter).Kplus
      = (iter 1 (constructGrids iter N order inter).Mplus).foldl
        (fun s nd => s ∪ kStencil order nd) ∅ := rfl
  rw [this, foldl_union_mem]
  simp [(hit 1 _).2]

omit hit in
theorem mem_kStencil (order : ℕ) (p q : Node) :
    q ∈ kStencil order p ↔ q = p ∨ (2 < order ∧ |q.1 - p.1| + |q.2 - p.2| = 1) := by
  obtain ⟨q1, q2⟩ := q
  obtain ⟨p1, p2⟩ := p
  unfold kStencil
  simp only
  split_ifs with h
  · simp only [Finset.mem_union, Finset.mem_insert, Finset.mem_singleton, Prod.mk.injEq, h, true_and]
    constructor
    · rintro (h | h | h | h | h)
      · exact Or.inl h
      all_goals right; obtain ⟨rfl, rfl⟩ := h; simp
    · rintro (h | h)
      · exact Or.inl h
      · right
        rcases abs_cases (q1 - p1) with ⟨h1, h1'⟩ | ⟨h1, h1'⟩ <;>
          rcases abs_cases (q2 - p2) with ⟨h2, h2'⟩ | ⟨h2, h2'⟩ <;> rw [h1, h2] at h <;> omega
  · simp only [Finset.mem_singleton, Prod.mk.injEq]
    constructor
    · exact Or.inl
    · rintro (h' | h')
      · exact h'
      · omega

omit hit in
theorem mem_nStencil (order : ℕ) (p q : Node) : q ∈ nStencil order p ↔ Reach order p q := by
  obtain ⟨q1, q2⟩ := q
  obtain ⟨p1, p2⟩ := p
  unfold nStencil Reach
  simp only [abs_le]
  split_ifs with h
  · simp only [Finset.mem_union, Finset.mem_insert, Finset.mem_singleton, Prod.mk.injEq]
    constructor
    · rintro ((h | h | h | h | h) | h | h | h | h) <;> omega
    · rintro ⟨⟨h1, h2⟩, ⟨h3, h4⟩, -⟩; omega
  · simp only [Finset.mem_insert, Finset.mem_singleton, Prod.mk.injEq]
    constructor
    · rintro (h | h | h | h | h) <;> omega
    · rintro ⟨⟨h1, h2⟩, ⟨h3, h4⟩, h5⟩
      have := h5 (by omega); omega

omit hit in
theorem foldl_nSets (order : ℕ) (g : Grids) (l : List Node) (s : Finset Node × Finset Node) (x : Node) :
    let r := l.foldl (fun s nd =>
      let Nm := nStencil order nd
      if nd ∈ g.Mplus then (s.1 ∪ Nm, s.2) else if nd ∈ g.Mminus then (s.1, s.2 ∪ Nm) else s) s
    (x ∈ r.1 ↔ x ∈ s.1 ∨ ∃ p ∈ l, p ∈ g.Mplus ∧ x ∈ nStencil order p) ∧
    (x ∈ r.2 ↔ x ∈ s.2 ∨ ∃ p ∈ l, p ∉ g.Mplus ∧ p ∈ g.Mminus ∧ x ∈ nStencil order p) := by
  induction l generalizing s with
  | nil => simp
  | cons a l ih =>
    simp only [List.foldl_cons, List.mem_cons, exists_eq_or_imp]
    by_cases h : a ∈ g.Mplus
    · have e := ih (s.1 ∪ nStencil order a, s.2)
      simp only at e
      rw [if_pos h, e.1, e.2, Finset.mem_union, or_assoc]
      simp only [h, not_true, false_and, false_or, true_and, and_self]
    · by_cases h' : a ∈ g.Mminus
      · have e := ih (s.1, s.2 ∪ nStencil order a)
        simp only at e
        rw [if_neg h, if_pos h', e.1, e.2, Finset.mem_union, or_assoc]
        simp only [h, h', not_false_iff, false_and, false_or, true_and, and_self]
      · have e := ih s
        simp only at e
        rw [if_neg h, if_neg h', e.1, e.2]
        simp only [h, h', not_false_iff, false_and, false_or, true_and, and_self]

theorem mem_nSets (N order : ℕ) (inter : Node → Prop) (x : Node) :
    let g := constructGrids iter N order inter
    (x ∈ (nSets iter order g).1 ↔ ∃ p ∈ g.Mplus, Reach order p x) ∧
    (x ∈ (nSets iter order g).2 ↔ ∃ p ∈ g.Mminus, Reach order p x) := by
  intro g
  obtain ⟨h1, h2⟩ := foldl_nSets order g (iter 2 g.M0) (∅, ∅) x
  have hM0 : g.M0 = square 1 N := rfl
  constructor
  · refine h1.trans ?_
    simp only [Finset.notMem_empty, false_or, (hit 2 g.M0).2, mem_nStencil]
    constructor
    · rintro ⟨p, -, hp, hr⟩; exact ⟨p, hp, hr⟩
    · rintro ⟨p, hp, hr⟩
      exact ⟨p, by rw [hM0]; exact ((mem_Mplus hit N order inter p).1 hp).1, hp, hr⟩
  · refine h2.trans ?_
    simp only [Finset.notMem_empty, false_or, (hit 2 g.M0).2, mem_nStencil]
    constructor
    · rintro ⟨p, -, -, hp, hr⟩; exact ⟨p, hp, hr⟩
    · rintro ⟨p, hp, hr⟩
      have := (mem_Mminus hit N order inter p).1 hp
      refine ⟨p, by rw [hM0]; exact this.1, fun h => this.2 ((mem_Mplus hit N order inter p).1 h).2, hp, hr⟩

end Pot
