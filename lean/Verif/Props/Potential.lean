import Verif.Proofs.Potential
import Mathlib.LinearAlgebra.Pi

/-! # Difference potential: C11, C19, C20, C21, C24 -/

namespace Pot
open Spec

/-- A constructed solver: the grid was built, the Helmholtz operator of the auxiliary problem has no zero
eigenvalue, and the interior nodes keep a margin of two to the edge of the auxiliary square (`n = N - 1`). -/
structure Setup (iter : Iter) (e : Env) (n order : ℕ) (k : ℝ) (G : PsGrids) : Prop where
  hit : IsIter iter
  hN : e.N = n + 1
  ho : order = 2 ∨ order = 4
  hAD : e.AD ≠ 0
  hz : NoZeroEig n order e.AD k
  built : psConstructGrids iter e order = .ok G
  margin : ∀ p ∈ G.Mplus, 2 ≤ p.1 ∧ p.1 ≤ e.N - 2 ∧ 2 ≤ p.2 ∧ p.2 ≤ e.N - 2

variable {iter : Iter} {e : Env} {n order : ℕ} {k : ℝ} {G : PsGrids}

theorem Setup.core (S : Setup iter e n order k G) : Core n order G := core_of S.hit S.hN S.built S.margin

theorem Setup.gamR (S : Setup iter e n order k G) : ∀ q ∈ G.unionGamma, InR n q :=
  fun q hq => S.core.npIn q ((S.core.gam q).1 hq).1

theorem Setup.pot (S : Setup iter e n order k G) (ext : List ℂ) (hl : G.unionGamma.length ≤ ext.length) :
    ∃ w P : Arr n, getPotential iter e order k G ext = .ok P ∧ IsPot order e.AD k G w P ∧
      (∀ l (h : l < G.unionGamma.length), node w (G.unionGamma[l]).1 (G.unionGamma[l]).2 = ext[l]) ∧
      ∀ q : Node, q ∉ G.unionGamma → node w q.1 q.2 = 0 :=
  getPotential_ok S.hit S.hN S.ho S.hAD S.hz S.core ext hl

/-- the hypotheses are met by the shipped arc problem on every grid with `N ≥ 16` and `k = 0`, order 4 -/
example {b : Brentq} (hb : BrentqSpec b) (n : ℕ) (hn : 15 ≤ n) :
    ∃ G, Setup (fun _ s => s.toList) (mkEnv b (n + 1) (2 * Real.pi) (Real.pi / 4) 2.3 (arcR 2.3)) n 4 0 G := by
  have hpi := Real.pi_pos
  have hpi' := Real.pi_gt_d2
  obtain ⟨G, hG, -⟩ := C12_arc isIter_toList hb (n + 1) 4 (AD := 2 * Real.pi) (a := Real.pi / 4) (R := 2.3)
    (by positivity) (by positivity) (by linarith) (by norm_num)
  refine ⟨G, isIter_toList, rfl, Or.inr rfl, by show 2 * Real.pi ≠ 0; positivity, ?_, hG, ?_⟩
  · intro ev hev p q
    obtain ⟨ev', hev', -, hneg⟩ := C15_eigenvals (n := n) (order := 4) (Or.inr rfl) (2 * Real.pi) 0
    have : ev = ev' := Except.ok.inj (hev.symm.trans hev')
    rw [this]
    exact (hneg rfl (by positivity) p q).ne
  · intro p hp
    rw [(psGrids_sets isIter_toList hG).1] at hp
    refine C11_margin _ (Nat.succ_pos n) (by show 0 < 2 * Real.pi; positivity) (Rmax := 2.3) (fun _ _ _ => le_rfl)
      (by show 0 < Real.pi / 4; positivity) (by show Real.pi / 4 ≤ 4 * Real.pi; linarith) ?_ p
      ((mem_Mplus isIter_toList _ _ _ _).1 hp).2
    show (2.3:ℝ) < 2 * Real.pi / 2 - 2 * Real.pi / ((n + 1 : ℕ) : ℝ)
    have hN' : (16:ℝ) ≤ ((n + 1 : ℕ) : ℝ) := by exact_mod_cast (by omega : 16 ≤ n + 1)
    have : 2 * Real.pi / ((n + 1 : ℕ) : ℝ) ≤ 2 * Real.pi / 16 := by gcongr
    linarith

/-- **C11** `get_potential` and `get_trace` never raise on a constructed solver, and read and write exactly the
entries of the discrete-boundary nodes. -/
theorem C11_no_index_error (S : Setup iter e n order k G) (ext : List ℂ)
    (hl : G.unionGamma.length ≤ ext.length) :
    (∃ P : Arr n, getPotential iter e order k G ext = .ok P) ∧
    (∀ w : Arr n, getTrace G.unionGamma w = .ok (G.unionGamma.map fun q => node w q.1 q.2)) ∧
    ∃ w : Arr n, writeGamma G.unionGamma ext = .ok w ∧
      (∀ l (h : l < G.unionGamma.length), node w (G.unionGamma[l]).1 (G.unionGamma[l]).2 = ext[l]) ∧
      ∀ q : Node, q ∉ G.unionGamma → node w q.1 q.2 = 0 := by
  obtain ⟨w, P, h1, -⟩ := S.pot ext hl
  exact ⟨⟨P, h1⟩, getTrace_ok _ S.gamR, writeGamma_ok ext _ S.core.nodup S.gamR hl⟩

theorem arrSet_error {m : ℕ} (w : Arr m) (i j : ℤ) (x : ℂ) (er : PyErr) (h : arrSet w i j x = .error er) :
    er = .indexError := by
  have hp : ∀ i er, pyIdx m i = .error er → er = .indexError := by
    intro i er h
    unfold pyIdx at h
    split at h
    · simp at h
    · split at h
      · simp at h
      · simpa using h.symm
  unfold arrSet at h
  rcases h1 : pyIdx m i with er1 | p
  · rw [h1, error_bind] at h; cases h; exact hp _ _ h1
  · rcases h2 : pyIdx m j with er2 | q
    · rw [h1, h2, ok_bind, error_bind] at h; cases h; exact hp _ _ h2
    · rw [h1, h2] at h; simp at h

/-- **C11** (no margin) a discrete-boundary node with index `N` makes `get_potential` raise IndexError whatever the
extension is; one with index 0 is written to the opposite edge of the array. -/
theorem C11_without_margin :
    (∀ (ext : List ℂ) (q : Node), q ∈ G.unionGamma → ((n : ℤ) + 1 ≤ q.1 ∨ (n : ℤ) + 1 ≤ q.2) →
      getPotential (n := n) iter e order k G ext = .error .indexError) ∧
    (∀ (w : Arr n) (j : ℤ) (x : ℂ), 1 ≤ j → j ≤ n → 1 ≤ n →
      ∃ w', arrSet w (0 - 1) (j - 1) x = .ok w' ∧ node w' n j = x) := by
  constructor
  · intro ext q hq hout
    have key : ∀ (g : List Node) (s : ℕ) (w0 : Arr n), q ∈ g →
        (g.zipIdx s).foldlM (fun w p => do
          let x ← vecGet ext p.2
          arrSet w (p.1.1 - 1) (p.1.2 - 1) x) w0 = .error .indexError := by
      intro g
      induction g with
      | nil => intro s w0 h; simp at h
      | cons y g ih =>
        intro s w0 h
        rw [List.zipIdx_cons, List.foldlM_cons]
        simp only
        rcases hv : vecGet ext s with er | x
        · have : er = .indexError := by
            unfold vecGet at hv; split at hv
            · simp at hv
            · simpa using hv.symm
          simp [this]
        · rw [ok_bind]
          rcases ha : arrSet w0 (y.1 - 1) (y.2 - 1) x with er | w1
          · rw [error_bind, arrSet_error _ _ _ _ _ ha]
          · rw [ok_bind]
            rcases List.mem_cons.1 h with rfl | h'
            · exfalso
              have hb : ∀ i : ℤ, (n : ℤ) + 1 ≤ i → pyIdx n (i - 1) = .error .indexError := by
                intro i hi; unfold pyIdx; rw [dif_neg (by omega), dif_neg (by omega)]
              unfold arrSet at ha
              rcases hout with h1 | h1
              · rw [hb _ h1] at ha; simp at ha
              · rcases hpi : pyIdx n (q.1 - 1) with er | p
                · rw [hpi] at ha; simp at ha
                · rw [hpi, ok_bind, hb _ h1] at ha; simp at ha
            · exact ih (s + 1) w1 h'
    unfold getPotential writeGamma
    rw [key _ _ _ hq]; rfl
  · intro w j x h1 h2 hn
    have e1 : pyIdx n (0 - 1) = .ok ⟨n - 1, by omega⟩ := by
      unfold pyIdx; rw [dif_neg (by omega), dif_pos (by omega)]
      congr 2; omega
    unfold arrSet
    rw [e1, pyIdx_ok h1 h2]
    refine ⟨_, rfl, ?_⟩
    unfold node
    rw [dif_pos ⟨by omega, le_rfl, h1, h2⟩]
    refine if_pos ⟨?_, rfl⟩
    ext; simp only; omega

/-- the failure really occurs: the arc of radius 10 in a square of side 4 with `N = 4` builds a grid (no
assertion fires), and then `get_potential` raises IndexError for every extension. -/
theorem C11_witness {b : Brentq} (hb : BrentqSpec b) (iter : Iter) (hit : IsIter iter) (k : ℝ) :
    ∃ G, psConstructGrids iter (mkEnv b 4 4 (Real.pi / 2) 10 (arcR 10)) 4 = .ok G ∧
      ∀ ext, getPotential (n := 3) iter (mkEnv b 4 4 (Real.pi / 2) 10 (arcR 10)) 4 k G ext
        = .error .indexError := by
  have hpi := Real.pi_pos
  obtain ⟨G, hG, -⟩ := C12_arc hit hb 4 4 (AD := 4) (a := Real.pi / 2) (R := 10) (by norm_num)
    (by positivity) (by linarith) (by norm_num)
  refine ⟨G, hG, fun ext => ?_⟩
  obtain ⟨hg, h1, h2, h3, h4⟩ := psGrids_sets hit hG
  have hint : ∀ nd : Node, (mkEnv b 4 4 (Real.pi / 2) 10 (arcR 10)).interior nd ↔
      getCoord 4 4 nd.1 nd.2 ∈ Domain (Real.pi / 2) (arcR 10) := fun nd =>
    C07_is_interior 4 4 (Real.pi / 2) (by positivity) (by linarith) (arcR 10) (by norm_num [arcR]) nd.1 nd.2
  have hdom : ∀ x y : ℝ, (x, y) ∈ Domain (Real.pi / 2) (arcR 10) ↔ _ :=
    arc_domain (a := Real.pi / 2) (R := 10) (by positivity) (by linarith) (by norm_num)
  have c2 : getCoord 4 4 (3 : ℤ) (2 : ℤ) = (1, 0) := by unfold getCoord; norm_num
  have c3 : getCoord 4 4 (3 : ℤ) (3 : ℤ) = (1, 1) := by unfold getCoord; norm_num
  have m2 : ((3, 2) : Node) ∈ G.Mplus := by
    rw [hg]
    refine (mem_Mplus hit _ _ _ _).2 ⟨(mem_square _ _ _).2 (by norm_num [mkEnv]), (hint _).2 ?_⟩
    rw [c2, hdom]; norm_num
  have m3 : ((3, 3) : Node) ∈ G.Mminus := by
    rw [hg]
    refine (mem_Mminus hit _ _ _ _).2 ⟨(mem_square _ _ _).2 (by norm_num [mkEnv]), mt (hint _).1 ?_⟩
    rw [c3, hdom, Real.sin_pi_div_two, Real.cos_pi_div_two]; norm_num
  refine C11_without_margin.1 ext (4, 2) ?_ (Or.inl (by norm_num))
  exact (h4 _).2 ⟨(h1 _).2 ⟨_, m2, by norm_num [Reach]⟩, (h2 _).2 ⟨_, m3, by norm_num [Reach]⟩⟩

/-- **C19** (for any extension vector and any source array) the array returned by `run` satisfies the discrete
equation at every interior node. -/
theorem C19_discrete_equation (S : Setup iter e n order k G) (f : Arr (n + 2)) (ext : List ℂ)
    (hl : G.unionGamma.length ≤ ext.length) :
    ∃ s u : Arr n, calcApSolF iter e order k G f = .ok s ∧ regularPart iter e order k G ext s = .ok u ∧
      ∀ a b : Fin n, ((a : ℤ) + 1, (b : ℤ) + 1) ∈ G.Mplus →
        applyL (pad u) order e.AD k a b = applyB f a b := by
  obtain ⟨s, hs, hs1, -⟩ := calcApSolF_ok S.hit S.hN S.ho S.hAD S.hz S.core f
  obtain ⟨w, P, hP, hpot, -⟩ := S.pot ext hl
  refine ⟨s, _, hs, by unfold regularPart; rw [hP, ok_bind]; rfl, ?_⟩
  intro a b hab
  have h1 := node_applyL order e.AD k (fun a b => P a b + s a b) (inR_at a b)
  rw [node_at] at h1
  rw [h1, LN_add, hpot.plus _ hab, hs1 _ hab, zero_add, applyB_eq_spec]

/-- **C20** `ext ↦ get_trace(get_potential(ext))` is a linear projection. -/
theorem C20_projection (S : Setup iter e n order k G) :
    ∃ T : (Fin G.unionGamma.length → ℂ) →ₗ[ℂ] (Fin G.unionGamma.length → ℂ),
      (∀ v, (getPotential (n := n) iter e order k G (List.ofFn v) >>= getTrace G.unionGamma)
        = .ok (List.ofFn (T v))) ∧
      ∀ v, T (T v) = T v := by
  have hgr := S.gamR
  have hc := S.core
  choose w P hP hpot hw1 hw2 using fun v : Fin G.unionGamma.length → ℂ => S.pot (List.ofFn v) (by simp)
  have hw1' : ∀ v (l : Fin G.unionGamma.length), node (w v) (G.unionGamma[l]).1 (G.unionGamma[l]).2 = v l := by
    intro v l
    have := hw1 v l l.2
    simpa using this
  have hwu : ∀ (v : Fin G.unionGamma.length → ℂ) (u : Arr n),
      (∀ l : Fin G.unionGamma.length, node u (G.unionGamma[l]).1 (G.unionGamma[l]).2 = v l) →
      ∀ q ∈ G.unionGamma, node (w v) q.1 q.2 = node u q.1 q.2 := by
    intro v u hu q hq
    obtain ⟨l, hl, rfl⟩ := List.getElem_of_mem hq
    have a1 := hw1' v ⟨l, hl⟩
    have a2 := hu ⟨l, hl⟩
    simp only [Fin.getElem_fin] at a1 a2
    rw [a1, a2]
  have hadd : ∀ u v, P (u + v) = fun a b => P u a b + P v a b := by
    intro u v
    have : w (u + v) = fun a b => w u a b + w v a b := by
      apply arr_ext_node
      intro q _
      by_cases hq : q ∈ G.unionGamma
      · refine hwu (u + v) _ (fun l => ?_) q hq
        rw [node_add, hw1', hw1']; rfl
      · rw [hw2 _ q hq, node_add, hw2 _ q hq, hw2 _ q hq, add_zero]
    have h2 := hpot (u + v)
    rw [this] at h2
    exact h2.unique S.ho S.hAD S.hz hc ((hpot u).add (hpot v))
  have hsmul : ∀ (c : ℂ) v, P (c • v) = fun a b => c * P v a b := by
    intro c v
    have : w (c • v) = fun a b => c * w v a b := by
      apply arr_ext_node
      intro q _
      by_cases hq : q ∈ G.unionGamma
      · refine hwu (c • v) _ (fun l => ?_) q hq
        rw [node_smul, hw1']; rfl
      · rw [hw2 _ q hq, node_smul, hw2 _ q hq, mul_zero]
    have h2 := hpot (c • v)
    rw [this] at h2
    exact h2.unique S.ho S.hAD S.hz hc ((hpot v).smul c)
  refine ⟨{ toFun := fun v l => node (P v) (G.unionGamma[l]).1 (G.unionGamma[l]).2
            map_add' := fun u v => by funext l; rw [hadd, node_add]; rfl
            map_smul' := fun c v => by funext l; rw [hsmul, node_smul]; rfl }, ?_, ?_⟩
  · intro v
    rw [hP, ok_bind, getTrace_ok _ hgr]
    congr 1
    apply List.ext_getElem
    · simp
    · intro l h1 h2; simp
  · intro v
    funext l
    simp only [LinearMap.coe_mk, AddHom.coe_mk]
    set v' : Fin G.unionGamma.length → ℂ := fun l => node (P v) (G.unionGamma[l]).1 (G.unionGamma[l]).2 with hv'
    have h2 := IsPot.congr S.ho S.hAD S.hz hc (hpot v') (IsPot.self (hpot v).plus)
      (hwu v' (P v) fun l => rfl)
    exact h2 _ ((hc.gam _).1 (List.getElem_mem l.2)).1

/-- **C20** two extensions of the same boundary values: whatever array `w` one starts from, the potential on
`Nplus` depends only on the values of `w` on the discrete boundary. Here `w - solve(χ·L w)` is written out for an
arbitrary array `w`. -/
theorem C20_trace_determines (S : Setup iter e n order k G) (w w' : Arr n)
    (hg : ∀ q ∈ G.unionGamma, node w q.1 q.2 = node w' q.1 q.2) :
    let pot : Arr n → Py (Arr n) := fun w => do
      let Lw ← apApplyL e.N order e.AD k w
      let Lw ← zeroMinus (iter 4 G.Mminus) Lw
      let s ← apSolve e.N order e.AD k Lw
      return fun a b => w a b - s a b
    ∃ P P', pot w = .ok P ∧ pot w' = .ok P' ∧ ∀ q ∈ G.Nplus, node P q.1 q.2 = node P' q.1 q.2 := by
  intro pot
  have hc := S.core
  have key : ∀ w : Arr n, ∃ P, pot w = .ok P ∧ IsPot order e.AD k G w P := by
    intro w
    obtain ⟨Lw, hL, hL1, -⟩ := C13_apply_L S.ho S.hAD k w
    obtain ⟨Z, hZ, hZ1⟩ := zeroMinus_ok (iter 4 G.Mminus)
      (fun q hq => (hc.m0 q).1 (Or.inr (((S.hit 4 _).2 q).1 hq))) Lw
    obtain ⟨s, hs, hs1⟩ := solve_spec S.ho S.hAD S.hz Z
    refine ⟨fun a b => w a b - s a b, ?_, ?_, ?_⟩
    · simp only [pot]
      rw [S.hN, hL, ok_bind, hZ, ok_bind, hs, ok_bind]; rfl
    · intro q hq
      have hqr := (hc.m0 q).1 (Or.inl hq)
      rw [LN_sub, hs1 q hqr, hZ1, if_neg fun hh => hc.disj q hq (((S.hit 4 _).2 q).1 hh), hL1,
        node_applyL _ _ _ _ hqr, sub_self]
    · intro q hq
      have hqr := (hc.m0 q).1 (Or.inr hq)
      rw [LN_sub, hs1 q hqr, hZ1, if_pos (((S.hit 4 _).2 q).2 hq), sub_zero]
  obtain ⟨P, h1, h2⟩ := key w
  obtain ⟨P', h1', h2'⟩ := key w'
  exact ⟨P, P', h1, h1', h2.congr S.ho S.hAD S.hz hc h2' hg⟩

/-- **C21** `ext` is a fixed point of the boundary projection exactly when it is the trace of a grid function
that solves the homogeneous scheme at the interior nodes; the potential is then that grid function on `Nplus`. -/
theorem C21_reproduce (S : Setup iter e n order k G) (ext : List ℂ)
    (hl : ext.length = G.unionGamma.length) :
    ((getPotential (n := n) iter e order k G ext >>= getTrace G.unionGamma) = .ok ext ↔
      ∃ u : ℤ → ℤ → ℂ, (∀ p ∈ G.Mplus, Lh order (e.AD / e.N) k u p.1 p.2 = 0) ∧
        ext = G.unionGamma.map fun q => u q.1 q.2) ∧
    ∀ u : ℤ → ℤ → ℂ, (∀ p ∈ G.Mplus, Lh order (e.AD / e.N) k u p.1 p.2 = 0) →
      ext = (G.unionGamma.map fun q => u q.1 q.2) →
      ∃ P : Arr n, getPotential iter e order k G ext = .ok P ∧ ∀ q ∈ G.Nplus, node P q.1 q.2 = u q.1 q.2 := by
  have hc := S.core
  have hN : (e.N : ℝ) = (n : ℝ) + 1 := by rw [S.hN]; push_cast; rfl
  obtain ⟨w, P, hP, hpot, hw1, hw2⟩ := S.pot ext hl.ge
  have key : ∀ u : ℤ → ℤ → ℂ, (∀ p ∈ G.Mplus, Lh order (e.AD / e.N) k u p.1 p.2 = 0) →
      ext = (G.unionGamma.map fun q => u q.1 q.2) → ∀ q ∈ G.Nplus, node P q.1 q.2 = u q.1 q.2 := by
    intro u hu hext
    have hus : IsPot order e.AD k G (ofNode u) (ofNode u : Arr n) := by
      apply IsPot.self
      intro p hp
      rw [← hu p hp, hN]
      apply Lh_congr_reach
      intro q hq
      exact node_ofNode _ (hc.npIn q ((hc.np q).2 ⟨p, hp, hq⟩))
    intro q hq
    rw [hpot.congr S.ho S.hAD S.hz hc hus ?_ q hq, node_ofNode _ (hc.npIn q hq)]
    intro q hq
    rw [node_ofNode _ (S.gamR q hq)]
    obtain ⟨l, hl', rfl⟩ := List.getElem_of_mem hq
    rw [hw1 l hl']
    subst hext
    rw [List.getElem_map]
  refine ⟨⟨?_, ?_⟩, fun u hu hext => ⟨P, hP, key u hu hext⟩⟩
  · intro h
    rw [hP, ok_bind, getTrace_ok _ S.gamR] at h
    refine ⟨node P, ?_, (Except.ok.inj h).symm⟩
    intro p hp
    rw [hN]; exact hpot.plus p hp
  · rintro ⟨u, hu, hext⟩
    rw [hP, ok_bind, getTrace_ok _ S.gamR, hext]
    congr 1
    apply List.map_congr_left
    intro q hq
    exact key u hu hext q ((hc.gam q).1 hq).1

/-- **C21** uniqueness: a grid function solving the homogeneous scheme at `Mplus` is determined on `Nplus` by its
trace. -/
theorem C21_unique (S : Setup iter e n order k G) (u u' : ℤ → ℤ → ℂ)
    (hu : ∀ p ∈ G.Mplus, Lh order (e.AD / e.N) k u p.1 p.2 = 0)
    (hu' : ∀ p ∈ G.Mplus, Lh order (e.AD / e.N) k u' p.1 p.2 = 0)
    (ht : ∀ q ∈ G.unionGamma, u q.1 q.2 = u' q.1 q.2) : ∀ q ∈ G.Nplus, u q.1 q.2 = u' q.1 q.2 := by
  have e1 : (G.unionGamma.map fun q => u q.1 q.2) = G.unionGamma.map fun q => u' q.1 q.2 :=
    List.map_congr_left ht
  obtain ⟨P, hP, h1⟩ := (C21_reproduce S (G.unionGamma.map fun q => u q.1 q.2) (by simp)).2 u hu rfl
  obtain ⟨P', hP', h2⟩ := (C21_reproduce S (G.unionGamma.map fun q => u q.1 q.2) (by simp)).2 u' hu' e1
  rw [hP] at hP'
  cases hP'
  intro q hq
  rw [← h1 q hq, h2 q hq]

/-- **C24** the iteration orders of the node sets change `union_gamma` only by a permutation, and leave the
potential unchanged when the extension vector is permuted accordingly. -/
theorem C24_order_independent {iter' : Iter} {G' : PsGrids} (S : Setup iter e n order k G)
    (hit' : IsIter iter') (hG' : psConstructGrids iter' e order = .ok G') (val : Node → ℂ) :
    G'.Mplus = G.Mplus ∧ G'.Mminus = G.Mminus ∧ G'.Kplus = G.Kplus ∧ G'.Nplus = G.Nplus ∧ G'.Nminus = G.Nminus ∧
    G'.unionGamma.Perm G.unionGamma ∧
    (∃ P : Arr n, getPotential iter e order k G (G.unionGamma.map val) = .ok P ∧
      getPotential iter' e order k G' (G'.unionGamma.map val) = .ok P) ∧
    ∀ w : Arr n, ∃ t : Node → ℂ, getTrace G.unionGamma w = .ok (G.unionGamma.map t) ∧
      getTrace G'.unionGamma w = .ok (G'.unionGamma.map t) := by
  obtain ⟨g1, g2, g3, g4, g5⟩ := psGrids_sets S.hit S.built
  obtain ⟨g1', g2', g3', g4', g5'⟩ := psGrids_sets hit' hG'
  have hp : G'.Mplus = G.Mplus := by
    ext q; rw [g1, g1', mem_Mplus S.hit, mem_Mplus hit']
  have hm : G'.Mminus = G.Mminus := by
    ext q; rw [g1, g1', mem_Mminus S.hit, mem_Mminus hit']
  have hk : G'.Kplus = G.Kplus := by
    ext q
    have a1 := mem_Kplus S.hit e.N order e.interior q
    have a2 := mem_Kplus hit' e.N order e.interior q
    rw [← g1] at a1; rw [← g1', hp] at a2
    rw [a1, a2]
  have hnp : G'.Nplus = G.Nplus := by ext q; rw [g2, g2', hp]
  have hnm : G'.Nminus = G.Nminus := by ext q; rw [g3, g3', hm]
  have hperm : G'.unionGamma.Perm G.unionGamma :=
    (List.perm_ext_iff_of_nodup g4' g4).2 fun q => by rw [g5, g5', hnp, hnm]
  have S' : Setup iter' e n order k G' :=
    ⟨hit', S.hN, S.ho, S.hAD, S.hz, hG', fun p h => S.margin p (hp ▸ h)⟩
  refine ⟨hp, hm, hk, hnp, hnm, hperm, ?_, ?_⟩
  · obtain ⟨w, P, hP, hpot, hw1, hw2⟩ := S.pot (G.unionGamma.map val) (by simp)
    obtain ⟨w', P', hP', hpot', hw1', hw2'⟩ := S'.pot (G'.unionGamma.map val) (by simp)
    have hw : w' = w := by
      apply arr_ext_node
      intro q _
      by_cases hq : q ∈ G.unionGamma
      · obtain ⟨l, hl, e1⟩ := List.getElem_of_mem hq
        obtain ⟨l', hl', e2⟩ := List.getElem_of_mem (hperm.mem_iff.2 hq)
        have a1 := hw1 l hl
        have a2 := hw1' l' hl'
        rw [List.getElem_map, e1] at a1
        rw [List.getElem_map, e2] at a2
        rw [a1, a2]
      · rw [hw2 q hq, hw2' q fun hh => hq (hperm.mem_iff.1 hh)]
    subst hw
    have hpot2 : IsPot order e.AD k G w' P' := ⟨fun q hq => hpot'.plus q (hp ▸ hq), fun q hq => hpot'.minus q (hm ▸ hq)⟩
    have := hpot.unique S.ho S.hAD S.hz S.core hpot2
    exact ⟨P, hP, by rw [this]; exact hP'⟩
  · intro w
    exact ⟨fun q => node w q.1 q.2, getTrace_ok _ S.gamR w, getTrace_ok _ S'.gamR w⟩

end Pot
