import Verif.Model.Potential
import Verif.Props.Grid
import Verif.Props.Fourier

/-! # The loops of `get_potential`, and the algebra of difference potentials -/

namespace Pot
open Spec

/-- the index range of an interior array of shape `(n, n)` -/
def InR (n : ℕ) (q : Node) : Prop := 1 ≤ q.1 ∧ q.1 ≤ n ∧ 1 ≤ q.2 ∧ q.2 ≤ n

theorem pyIdx_ok {n : ℕ} {i : ℤ} (h1 : 1 ≤ i) (h2 : i ≤ n) : pyIdx n (i - 1) = .ok ⟨(i - 1).toNat, by omega⟩ := by
  unfold pyIdx; rw [dif_pos ⟨by omega, by omega⟩]

theorem arrGet_ok {n : ℕ} (w : Arr n) {q : Node} (h : InR n q) :
    arrGet w (q.1 - 1) (q.2 - 1) = .ok (node w q.1 q.2) := by
  obtain ⟨h1, h2, h3, h4⟩ := h
  unfold arrGet node
  rw [pyIdx_ok h1 h2, pyIdx_ok h3 h4, dif_pos ⟨h1, h2, h3, h4⟩]; rfl

theorem arrSet_ok {n : ℕ} (w : Arr n) {q : Node} (h : InR n q) (x : ℂ) :
    ∃ w', arrSet w (q.1 - 1) (q.2 - 1) x = .ok w' ∧
      ∀ p : Node, node w' p.1 p.2 = if p = q then x else node w p.1 p.2 := by
  unfold arrSet
  rw [pyIdx_ok h.1 h.2.1, pyIdx_ok h.2.2.1 h.2.2.2]
  refine ⟨_, rfl, ?_⟩
  intro p
  unfold node
  obtain ⟨h1, h2, h3, h4⟩ := h
  by_cases hp : 1 ≤ p.1 ∧ p.1 ≤ n ∧ 1 ≤ p.2 ∧ p.2 ≤ n
  · rw [dif_pos hp, dif_pos hp]
    obtain ⟨p1, p2, p3, p4⟩ := hp
    by_cases hpq : p = q
    · rw [if_pos hpq]; subst hpq; simp
    · rw [if_neg hpq]
      refine if_neg ?_
      rintro ⟨e1, e2⟩
      simp only [Fin.mk.injEq] at e1 e2
      exact hpq (Prod.ext (by omega) (by omega))
  · rw [dif_neg hp, dif_neg hp, if_neg]
    rintro rfl; exact hp ⟨h1, h2, h3, h4⟩

theorem writeGamma_aux {n : ℕ} (ext : List ℂ) (g : List Node) (s : ℕ) (hn : g.Nodup) (hr : ∀ q ∈ g, InR n q)
    (hl : s + g.length ≤ ext.length) (w0 : Arr n) :
    ∃ w : Arr n, (g.zipIdx s).foldlM (fun w p => do
        let x ← vecGet ext p.2
        arrSet w (p.1.1 - 1) (p.1.2 - 1) x) w0 = .ok w ∧
      (∀ l (h : l < g.length), node w (g[l]).1 (g[l]).2 = ext[s + l]'(by omega)) ∧
      ∀ q : Node, q ∉ g → node w q.1 q.2 = node w0 q.1 q.2 := by
  induction g generalizing s w0 with
  | nil => exact ⟨w0, rfl, by simp, fun _ _ => rfl⟩
  | cons x g ih =>
    rw [List.zipIdx_cons, List.foldlM_cons]
    rw [List.length_cons] at hl
    obtain ⟨hx, hn'⟩ := List.nodup_cons.1 hn
    have hget : vecGet ext s = .ok (ext[s]'(by omega)) := by
      unfold vecGet; rw [List.getElem?_eq_getElem (by omega)]
    obtain ⟨w1, e1, h1⟩ := arrSet_ok w0 (hr x (List.mem_cons_self ..)) (ext[s]'(by omega))
    simp only [hget, ok_bind, e1]
    obtain ⟨w, e2, h2, h3⟩ := ih (s + 1) hn' (fun q hq => hr q (List.mem_cons_of_mem _ hq)) (by omega) w1
    refine ⟨w, e2, ?_, ?_⟩
    · intro l hl'
      cases l with
      | zero =>
        simp only [List.getElem_cons_zero, Nat.add_zero]
        rw [h3 x hx, h1, if_pos rfl]
      | succ l =>
        simp only [List.getElem_cons_succ]
        rw [h2 l (by simpa using hl')]
        congr 1; omega
    · intro q hq
      rw [List.mem_cons, not_or] at hq
      rw [h3 q hq.2, h1, if_neg hq.1]

theorem node_zero {n : ℕ} (i j : ℤ) : node (fun _ _ => 0 : Arr n) i j = 0 := by unfold node; simp

theorem writeGamma_ok {n : ℕ} (ext : List ℂ) (g : List Node) (hn : g.Nodup) (hr : ∀ q ∈ g, InR n q)
    (hl : g.length ≤ ext.length) :
    ∃ w : Arr n, writeGamma g ext = .ok w ∧
      (∀ l (h : l < g.length), node w (g[l]).1 (g[l]).2 = ext[l]) ∧ ∀ q : Node, q ∉ g → node w q.1 q.2 = 0 := by
  obtain ⟨w, h1, h2, h3⟩ := writeGamma_aux ext g 0 hn hr (by omega) (fun _ _ => 0)
  refine ⟨w, h1, fun l h => ?_, fun q hq => ?_⟩
  · rw [h2 l h]; congr 1; omega
  · rw [h3 q hq, node_zero]

theorem zeroMinus_ok {n : ℕ} (l : List Node) (hr : ∀ q ∈ l, InR n q) (A : Arr n) :
    ∃ A', zeroMinus l A = .ok A' ∧ ∀ q : Node, node A' q.1 q.2 = if q ∈ l then 0 else node A q.1 q.2 := by
  unfold zeroMinus
  induction l generalizing A with
  | nil => exact ⟨A, rfl, by simp⟩
  | cons x l ih =>
    rw [List.foldlM_cons]
    obtain ⟨A1, e1, h1⟩ := arrSet_ok A (hr x (List.mem_cons_self ..)) 0
    rw [e1, ok_bind]
    obtain ⟨A', e2, h2⟩ := ih (fun q hq => hr q (List.mem_cons_of_mem _ hq)) A1
    refine ⟨A', e2, fun q => ?_⟩
    rw [h2, h1]
    by_cases hq : q = x
    · subst hq; simp
    · by_cases hql : q ∈ l
      · rw [if_pos hql, if_pos (List.mem_cons_of_mem _ hql)]
      · rw [if_neg hql, if_neg hq, if_neg]; simp [hq, hql]

theorem getTrace_ok {n : ℕ} (g : List Node) (hr : ∀ q ∈ g, InR n q) (w : Arr n) :
    getTrace g w = .ok (g.map fun q => node w q.1 q.2) := by
  unfold getTrace
  induction g with
  | nil => rfl
  | cons x g ih =>
    rw [List.mapM_cons, arrGet_ok w (hr x (List.mem_cons_self ..)), ih fun q hq => hr q (List.mem_cons_of_mem _ hq)]
    rfl

/-- the interior array of a function on nodes -/
def ofNode {n : ℕ} (u : ℤ → ℤ → ℂ) : Arr n := fun a b => u ((a : ℕ) + 1) ((b : ℕ) + 1)

theorem node_ofNode {n : ℕ} (u : ℤ → ℤ → ℂ) {q : Node} (h : InR n q) :
    node (ofNode u : Arr n) q.1 q.2 = u q.1 q.2 := by
  unfold node ofNode
  obtain ⟨h1, h2, h3, h4⟩ := h
  rw [dif_pos ⟨h1, h2, h3, h4⟩]
  congr 1
  · show ((q.1 - 1).toNat : ℤ) + 1 = q.1
    omega
  · show ((q.2 - 1).toNat : ℤ) + 1 = q.2
    omega

theorem node_at {n : ℕ} (u : Arr n) (a b : Fin n) : node u ((a : ℕ) + 1) ((b : ℕ) + 1) = u a b :=
  node_of u a b rfl rfl

theorem inR_at {n : ℕ} (a b : Fin n) : InR n (((a : ℕ) : ℤ) + 1, ((b : ℕ) : ℤ) + 1) := by
  refine ⟨?_, ?_, ?_, ?_⟩ <;> simp only <;> omega

theorem arr_ext_node {n : ℕ} {u v : Arr n} (h : ∀ q, InR n q → node u q.1 q.2 = node v q.1 q.2) : u = v := by
  funext a b
  have := h _ (inR_at a b)
  simp only at this
  rwa [node_at, node_at] at this

theorem node_out' {n : ℕ} (u : Arr n) {q : Node} (h : ¬ InR n q) : node u q.1 q.2 = 0 := node_out u h

theorem node_add {n : ℕ} (u v : Arr n) (i j : ℤ) :
    node (fun a b => u a b + v a b) i j = node u i j + node v i j := by
  unfold node; split <;> simp

theorem node_sub {n : ℕ} (u v : Arr n) (i j : ℤ) :
    node (fun a b => u a b - v a b) i j = node u i j - node v i j := by
  unfold node; split <;> simp

theorem node_smul {n : ℕ} (c : ℂ) (u : Arr n) (i j : ℤ) :
    node (fun a b => c * u a b) i j = c * node u i j := by
  unfold node; split <;> simp

theorem Lh_sub (order : ℕ) (h k : ℝ) (u v : ℤ → ℤ → ℂ) (i j : ℤ) :
    Lh order h k (fun p q => u p q - v p q) i j = Lh order h k u i j - Lh order h k v i j := by
  have e : (fun p q => u p q - v p q) = fun p q => u p q + (-1) * v p q := by funext p q; ring
  rw [e, Lh_add, Lh_smul]; ring

/-- what the construction of the grid guarantees, for arrays of shape `(n, n)` -/
structure Core (n order : ℕ) (G : PsGrids) : Prop where
  m0 : ∀ q, (q ∈ G.Mplus ∨ q ∈ G.Mminus) ↔ InR n q
  disj : ∀ q, q ∈ G.Mplus → q ∉ G.Mminus
  np : ∀ q, q ∈ G.Nplus ↔ ∃ p ∈ G.Mplus, Reach order p q
  nm : ∀ q, q ∈ G.Nminus ↔ ∃ p ∈ G.Mminus, Reach order p q
  nodup : G.unionGamma.Nodup
  gam : ∀ q, q ∈ G.unionGamma ↔ q ∈ G.Nplus ∧ q ∈ G.Nminus
  npIn : ∀ q ∈ G.Nplus, InR n q

theorem core_of {iter : Iter} (hit : IsIter iter) {e : Env} {n order : ℕ} (hN : e.N = n + 1) {G : PsGrids}
    (h : psConstructGrids iter e order = .ok G)
    (hm : ∀ p ∈ G.Mplus, 2 ≤ p.1 ∧ p.1 ≤ e.N - 2 ∧ 2 ≤ p.2 ∧ p.2 ≤ e.N - 2) : Core n order G := by
  obtain ⟨hg, h1, h2, h3, h4⟩ := psGrids_sets hit h
  obtain ⟨hin, -⟩ := C11_gamma_in_M0 hit h hm
  obtain ⟨-, c2, c3, c4, -, -⟩ := C09_partition hit e.N order e.interior
  rw [← hg] at c2 c3 c4
  have hM0 : ∀ q : Node, q ∈ G.M0 ↔ InR n q := by
    intro q
    have := c2 q.1 q.2
    rw [hN] at this
    rw [show q = (q.1, q.2) from rfl, this]
    unfold InR; push_cast; simp only [add_sub_cancel_right]
  refine ⟨fun q => ?_, fun q hq => Finset.disjoint_left.1 c3 hq, h1, h2, h3, h4, fun q hq => (hM0 q).1 (hin q hq)⟩
  rw [← hM0, ← c4, Finset.mem_union]

/-- the discrete operator on an interior array, at a node -/
noncomputable abbrev LN {n : ℕ} (order : ℕ) (AD k : ℝ) (u : Arr n) (q : Node) : ℂ :=
  Lh order (AD / (n + 1)) k (node u) q.1 q.2

theorem node_applyL {n : ℕ} (order : ℕ) (AD k : ℝ) (u : Arr n) {q : Node} (h : InR n q) :
    node (applyL (pad u) order AD k) q.1 q.2 = LN order AD k u q := by
  have e : applyL (pad u) order AD k = ofNode fun i j => Lh order (AD / (n + 1)) k (node u) i j := by
    funext a b
    rw [applyL_eq_spec]
    unfold ofNode
    congr 1
    funext i j; rw [fullNode_pad]
  rw [e, node_ofNode _ h]

/-- `P` is the difference potential of the density `w` -/
structure IsPot {n : ℕ} (order : ℕ) (AD k : ℝ) (G : PsGrids) (w P : Arr n) : Prop where
  plus : ∀ q ∈ G.Mplus, LN order AD k P q = 0
  minus : ∀ q ∈ G.Mminus, LN order AD k P q = LN order AD k w q

section
variable {n order : ℕ} {AD k : ℝ} {G : PsGrids}

theorem LN_sub (u v : Arr n) (q : Node) :
    LN order AD k (fun a b => u a b - v a b) q = LN order AD k u q - LN order AD k v q := by
  unfold LN
  rw [← Lh_sub]; congr 1; funext i j; exact node_sub u v i j

theorem LN_add (u v : Arr n) (q : Node) :
    LN order AD k (fun a b => u a b + v a b) q = LN order AD k u q + LN order AD k v q := by
  unfold LN
  rw [← Lh_add]; congr 1; funext i j; exact node_add u v i j

theorem LN_smul (c : ℂ) (u : Arr n) (q : Node) :
    LN order AD k (fun a b => c * u a b) q = c * LN order AD k u q := by
  unfold LN
  rw [← Lh_smul]; congr 1; funext i j; exact node_smul c u i j

theorem LN_inj (ho : order = 2 ∨ order = 4) (hAD : AD ≠ 0) (hz : NoZeroEig n order AD k) {u v : Arr n}
    (h : ∀ q, InR n q → LN order AD k u q = LN order AD k v q) : u = v := by
  apply ((C15_iff ho hAD k).1 hz).1
  apply arr_ext_node
  intro q hq
  simp only
  rw [node_applyL _ _ _ _ hq, node_applyL _ _ _ _ hq, h q hq]

theorem IsPot.unique (ho : order = 2 ∨ order = 4) (hAD : AD ≠ 0) (hz : NoZeroEig n order AD k)
    (hc : Core n order G) {w P P' : Arr n} (h : IsPot order AD k G w P) (h' : IsPot order AD k G w P') : P = P' := by
  apply LN_inj ho hAD hz
  intro q hq
  rcases (hc.m0 q).2 hq with hp | hp
  · rw [h.plus q hp, h'.plus q hp]
  · rw [h.minus q hp, h'.minus q hp]

theorem IsPot.sub {w w' P P' : Arr n} (h : IsPot order AD k G w P) (h' : IsPot order AD k G w' P') :
    IsPot order AD k G (fun a b => w a b - w' a b) (fun a b => P a b - P' a b) := by
  constructor <;> intro q hq <;> rw [LN_sub]
  · rw [h.plus q hq, h'.plus q hq, sub_zero]
  · rw [LN_sub, h.minus q hq, h'.minus q hq]

theorem IsPot.add {w w' P P' : Arr n} (h : IsPot order AD k G w P) (h' : IsPot order AD k G w' P') :
    IsPot order AD k G (fun a b => w a b + w' a b) (fun a b => P a b + P' a b) := by
  constructor <;> intro q hq <;> rw [LN_add]
  · rw [h.plus q hq, h'.plus q hq, add_zero]
  · rw [LN_add, h.minus q hq, h'.minus q hq]

theorem IsPot.smul (c : ℂ) {w P : Arr n} (h : IsPot order AD k G w P) :
    IsPot order AD k G (fun a b => c * w a b) (fun a b => c * P a b) := by
  constructor <;> intro q hq <;> rw [LN_smul]
  · rw [h.plus q hq, mul_zero]
  · rw [LN_smul, h.minus q hq]

theorem IsPot.self {u : Arr n} (h : ∀ q ∈ G.Mplus, LN order AD k u q = 0) : IsPot order AD k G u u :=
  ⟨h, fun _ _ => rfl⟩

/-- densities with the same values on the discrete boundary have the same potential on `Nplus` -/
theorem IsPot.congr (ho : order = 2 ∨ order = 4) (hAD : AD ≠ 0) (hz : NoZeroEig n order AD k)
    (hc : Core n order G) {w w' P P' : Arr n} (h : IsPot order AD k G w P) (h' : IsPot order AD k G w' P')
    (hg : ∀ q ∈ G.unionGamma, node w q.1 q.2 = node w' q.1 q.2) :
    ∀ q ∈ G.Nplus, node P q.1 q.2 = node P' q.1 q.2 := by
  classical
  let D : Arr n := fun a b => w a b - w' a b
  have hD : ∀ q : Node, node D q.1 q.2 = node w q.1 q.2 - node w' q.1 q.2 := fun q => node_sub w w' _ _
  let d2 : Arr n := ofNode fun i j => if (i, j) ∈ G.Nplus then 0 else node D i j
  have hd2 : ∀ q : Node, node d2 q.1 q.2 = if q ∈ G.Nplus then 0 else node D q.1 q.2 := by
    intro q
    by_cases hq : InR n q
    · exact node_ofNode _ hq
    · rw [node_out' _ hq, if_neg fun hh => hq (hc.npIn q hh), node_out' _ hq]
  have hpot : IsPot order AD k G D d2 := by
    constructor
    · intro p hp
      have : LN order AD k d2 p = Lh order (AD / (n + 1)) k (fun _ _ => 0) p.1 p.2 := by
        apply Lh_congr_reach
        intro q hq
        rw [hd2, if_pos ((hc.np q).2 ⟨p, hp, hq⟩)]
      rw [this, Lh_zero]
    · intro p hp
      apply Lh_congr_reach
      intro q hq
      rw [hd2]
      split
      · rename_i hh
        rw [hD, hg q ((hc.gam q).2 ⟨hh, (hc.nm q).2 ⟨p, hp, hq⟩⟩), sub_self]
      · rfl
  have he := IsPot.unique ho hAD hz hc (h.sub h') hpot
  intro q hq
  have h1 : node (fun a b => P a b - P' a b) q.1 q.2 = 0 := by rw [he, hd2, if_pos hq]
  rw [node_sub] at h1
  exact sub_eq_zero.1 h1

theorem solve_spec (ho : order = 2 ∨ order = 4) (hAD : AD ≠ 0) (hz : NoZeroEig n order AD k) (g : Arr n) :
    ∃ s, apSolve (n + 1) order AD k g = .ok s ∧ ∀ q, InR n q → LN order AD k s q = node g q.1 q.2 := by
  obtain ⟨s, hs, he, -⟩ := C14_unique ho hAD k hz g
  refine ⟨s, hs, fun q hq => ?_⟩
  rw [← node_applyL _ _ _ _ hq, he]

/-- `get_potential` succeeds and computes the difference potential of the density equal to `ext` on the discrete
boundary and zero elsewhere. -/
theorem getPotential_ok {iter : Iter} (hit : IsIter iter) {e : Env} (hN : e.N = n + 1)
    (ho : order = 2 ∨ order = 4) (hAD : e.AD ≠ 0) (hz : NoZeroEig n order e.AD k) (hc : Core n order G)
    (ext : List ℂ) (hl : G.unionGamma.length ≤ ext.length) :
    ∃ w P : Arr n, getPotential iter e order k G ext = .ok P ∧ IsPot order e.AD k G w P ∧
      (∀ l (h : l < G.unionGamma.length), node w (G.unionGamma[l]).1 (G.unionGamma[l]).2 = ext[l]) ∧
      ∀ q : Node, q ∉ G.unionGamma → node w q.1 q.2 = 0 := by
  have hgr : ∀ q ∈ G.unionGamma, InR n q := fun q hq => hc.npIn q ((hc.gam q).1 hq).1
  obtain ⟨w, hw, hw1, hw2⟩ := writeGamma_ok (n := n) ext G.unionGamma hc.nodup hgr hl
  obtain ⟨Lw, hL, hL1, -⟩ := C13_apply_L ho hAD k w
  obtain ⟨Z, hZ, hZ1⟩ := zeroMinus_ok (iter 4 G.Mminus)
    (fun q hq => (hc.m0 q).1 (Or.inr (((hit 4 _).2 q).1 hq))) Lw
  obtain ⟨s, hs, hs1⟩ := solve_spec ho hAD hz Z
  refine ⟨w, fun a b => w a b - s a b, ?_, ?_, hw1, hw2⟩
  · unfold getPotential
    rw [hw, ok_bind, hN, hL, ok_bind, hZ, ok_bind, hs, ok_bind]; rfl
  · constructor
    · intro q hq
      have hqr := (hc.m0 q).1 (Or.inl hq)
      rw [LN_sub, hs1 q hqr, hZ1, if_neg fun hh => hc.disj q hq (((hit 4 _).2 q).1 hh), hL1,
        node_applyL _ _ _ _ hqr, sub_self]
    · intro q hq
      have hqr := (hc.m0 q).1 (Or.inr hq)
      rw [LN_sub, hs1 q hqr, hZ1, if_pos (((hit 4 _).2 q).2 hq), sub_zero]

/-- `calc_ap_sol_f` succeeds; its result solves the discrete equation with the averaged source inside and zero
outside. -/
theorem calcApSolF_ok {iter : Iter} (hit : IsIter iter) {e : Env} (hN : e.N = n + 1)
    (ho : order = 2 ∨ order = 4) (hAD : e.AD ≠ 0) (hz : NoZeroEig n order e.AD k) (hc : Core n order G)
    (f : Arr (n + 2)) :
    ∃ s : Arr n, calcApSolF iter e order k G f = .ok s ∧
      (∀ q ∈ G.Mplus, LN order e.AD k s q = B4 (fullNode f) q.1 q.2) ∧
      ∀ q ∈ G.Mminus, LN order e.AD k s q = 0 := by
  obtain ⟨Z, hZ, hZ1⟩ := zeroMinus_ok (iter 5 G.Mminus)
    (fun q hq => (hc.m0 q).1 (Or.inr (((hit 5 _).2 q).1 hq))) (applyB f)
  obtain ⟨s, hs, hs1⟩ := solve_spec ho hAD hz Z
  refine ⟨s, ?_, ?_, ?_⟩
  · unfold calcApSolF
    simp only
    rw [hZ, ok_bind, hN, hs]
  · intro q hq
    have hqr := (hc.m0 q).1 (Or.inl hq)
    rw [hs1 q hqr, hZ1, if_neg fun hh => hc.disj q hq (((hit 5 _).2 q).1 hh)]
    have e : applyB f = ofNode fun i j => B4 (fullNode f) i j := by
      funext a b; rw [applyB_eq_spec]; rfl
    rw [e, node_ofNode _ hqr]
  · intro q hq
    have hqr := (hc.m0 q).1 (Or.inr hq)
    rw [hs1 q hqr, hZ1, if_pos (((hit 5 _).2 q).2 hq)]

end

end Pot
