import Verif.Proofs.RunMix
import Verif.Props.Main

/-! # The whole solver is real-linear in the problem data: C92 -/

namespace Pot
open Spec Finset ComplexConjugate Real

theorem mvExtendHomo_src (s : PSolver) (x : Source) (ξ : XiSrc) : mvExtendHomo { s with src := x } ξ = mvExtendHomo s ξ := rfl

theorem getQ_src (n : ℕ) (iter : Iter) (s : PSolver) (x : Source) (i : Fin 2) :
    getQ n iter { s with src := x } i = getQ n iter s i := by
  have : qColumn n iter { s with src := x } i = qColumn n iter s i := by
    funext JJ
    unfold qColumn
    rw [extendBasis_eq, extendBasis_eq, mvExtendHomo_src]
  unfold getQ
  rw [this]

theorem Ready.src {s : PSolver} (R : Ready s) (x : Source) : Ready { s with src := x } := ⟨R.sub, R.coord, R.count⟩

/-- exchanging the two problems -/
def Mix.swap (m : Mix) : Mix := ⟨m.b, m.b', m.a, m.a'⟩

theorem Mix.swap_app (m : Mix) (x y : ℂ) : (Mix.swap m).app x y = m.app y x := by
  simp only [Mix.swap, Mix.app]; ring

theorem _root_.Spec.SrcRel.swap {m : Mix} {x1 x2 x3 : Source} (h : SrcRel m x1 x2 x3) : SrcRel (Mix.swap m) x2 x1 x3 := by
  have e2 : ∀ g1 g2, (Mix.swap m).app2 g1 g2 = m.app2 g2 g1 := fun g1 g2 => by simp only [Mix.app2, Mix.swap_app]
  have e4 : ∀ g1 g2, (Mix.swap m).app4 g1 g2 = m.app4 g2 g1 := fun g1 g2 => by simp only [Mix.app4, e2]
  constructor
  · intro x y; rw [Mix.swap_app]; exact h.f x y
  · intro x y g1 g2 h1 h2; rw [e2]; exact h.grad x y g2 g1 h2 h1
  · intro x y g1 g2 h1 h2; rw [e4]; exact h.hess x y g2 g1 h2 h1
  · intro x y; rw [Mix.swap_app]; exact h.fPolar x y
  · intro x y g1 g2 h1 h2; rw [e2]; exact h.gradPolar x y g2 g1 h2 h1
  · intro x y g1 g2 h1 h2; rw [e4]; exact h.hessPolar x y g2 g1 h2 h1
  · intro x y; rw [Mix.swap_app]; exact h.dFth x y
  · intro x y; rw [Mix.swap_app]; exact h.d2Fth x y
  · intro x y; rw [Mix.swap_app]; exact h.dFr x y
  · intro x y; rw [Mix.swap_app]; exact h.d2Fr x y
  · intro x y; rw [Mix.swap_app]; exact h.d2Frth x y

theorem _root_.Spec.SrcMix.swap {m : Mix} {x1 x2 x3 : Source} (h : SrcMix m x1 x2 x3) : SrcMix (Mix.swap m) x2 x1 x3 :=
  ⟨by rw [h.hom, Bool.and_comm], h.zero2, h.zero1, fun x y => by rw [Mix.swap_app]; exact h.f x y, fun h3 => (h.rel h3).swap⟩

theorem Rel3.swap_LV {m : Mix} {L : ℕ} {y1 y2 y3 : Py (List ℂ)} (h : Rel3 (LV (Mix.swap m) L) y2 y1 y3) :
    Rel3 (LV m L) y1 y2 y3 := by
  intro a1 a2 h1 h2
  obtain ⟨a3, h3, hl⟩ := h a2 a1 h2 h1
  exact ⟨a3, h3, LV.of hl.2.1 hl.1 hl.len fun l _ => by rw [hl.getD, Mix.swap_app]⟩

theorem Rel3.swap_AV {m : Mix} {n : ℕ} {y1 y2 y3 : Py (Arr n)} (h : Rel3 (AV (Mix.swap m)) y2 y1 y3) :
    Rel3 (AV m) y1 y2 y3 := by
  intro a1 a2 h1 h2
  obtain ⟨a3, h3, hl⟩ := h a2 a1 h2 h1
  exact ⟨a3, h3, fun i j => by rw [hl i j, Mix.swap_app]⟩

/-- the combination in which the first problem has no part -/
def Mix.second (m : Mix) : Mix := ⟨0, 0, m.b, m.b'⟩

theorem Mix.second_app (m : Mix) (x y : ℂ) : (Mix.second m).app x y = m.app 0 y := by
  simp [Mix.second, Mix.app]

/-- a homogeneous first problem has no part in the combination -/
theorem _root_.Spec.SrcMix.second {m : Mix} {x1 x2 x3 : Source} (h : SrcMix m x1 x2 x3) (h1 : x1.homogeneous = true)
    (h2 : x2.homogeneous = false) : SrcRel (Mix.second m) x2 x2 x3 := by
  have H := h.rel (by rw [h.hom, h1, h2]; rfl)
  have E1 : effSource x1 = { x1 with
      grad := fun _ _ => .ok (0, 0)
      hess := fun _ _ => .ok ((0, 0), (0, 0))
      fPolar := fun _ _ => 0
      gradPolar := fun _ _ => .ok (0, 0)
      hessPolar := fun _ _ => .ok ((0, 0), (0, 0))
      dFth := fun _ _ => 0
      d2Fth := fun _ _ => 0
      dFr := fun _ _ => 0
      d2Fr := fun _ _ => 0
      d2Frth := fun _ _ => 0 } := by
    unfold effSource; rw [if_pos h1]
  have E2 : effSource x2 = x2 := by unfold effSource; rw [if_neg (by simp [h2])]
  rw [E1, E2] at H
  have e2 : ∀ g1 g2, (Mix.second m).app2 g1 g2 = m.app2 (0, 0) g2 := fun g1 g2 => by simp only [Mix.app2, Mix.second_app]
  have e4 : ∀ g1 g2, (Mix.second m).app4 g1 g2 = m.app4 ((0, 0), (0, 0)) g2 := fun g1 g2 => by simp only [Mix.app4, e2]
  constructor
  · intro x y; rw [Mix.second_app, h.f x y, h.zero1 h1]
  · intro x y g1 g2 _ k2; rw [e2]; exact H.grad x y _ g2 rfl k2
  · intro x y g1 g2 _ k2; rw [e4]; exact H.hess x y _ g2 rfl k2
  · intro x y; rw [Mix.second_app]; exact H.fPolar x y
  · intro x y g1 g2 _ k2; rw [e2]; exact H.gradPolar x y _ g2 rfl k2
  · intro x y g1 g2 _ k2; rw [e4]; exact H.hessPolar x y _ g2 rfl k2
  · intro x y; rw [Mix.second_app]; exact H.dFth x y
  · intro x y; rw [Mix.second_app]; exact H.d2Fth x y
  · intro x y; rw [Mix.second_app]; exact H.dFr x y
  · intro x y; rw [Mix.second_app]; exact H.d2Fr x y
  · intro x y; rw [Mix.second_app]; exact H.d2Frth x y

theorem _root_.Spec.SrcMix.both {m : Mix} {x1 x2 x3 : Source} (h : SrcMix m x1 x2 x3) (h1 : x1.homogeneous = false)
    (h2 : x2.homogeneous = false) : SrcRel m x1 x2 x3 := by
  have H := h.rel (by rw [h.hom, h1, h2]; rfl)
  have E : ∀ x : Source, x.homogeneous = false → effSource x = x := fun x hx => by unfold effSource; rw [if_neg (by simp [hx])]
  rwa [E x1 h1, E x2 h2] at H

section
variable {m : Mix} {s : PSolver} {x1 x2 x3 : Source}

theorem extendInhomoF_raw (R : Ready s) (H : SrcRel m x1 x2 x3) (h1 : x1.homogeneous = false) (h2 : x2.homogeneous = false)
    (h3 : x3.homogeneous = false) :
    Rel3 (LV m s.G.unionGamma.length) (extendInhomoF { s with src := x1 }) (extendInhomoF { s with src := x2 })
      (extendInhomoF { s with src := x3 }) :=
  loop_mix R fun sid et nd _ => doInhomo_mix H s h1 h2 h3 sid et nd

theorem extendInhomoF_first (R : Ready s) (M : SrcMix m x1 x2 x3) (h1 : x1.homogeneous = true) :
    Rel3 (LV m s.G.unionGamma.length) (extendInhomoF { s with src := x1 }) (extendInhomoF { s with src := x2 })
      (extendInhomoF { s with src := x3 }) := by
  have e1 := extendInhomoF_homogeneous (R.src x1) h1
  by_cases h2 : x2.homogeneous = true
  · refine rel_ok e1 (extendInhomoF_homogeneous (R.src x2) h2)
      (extendInhomoF_homogeneous (R.src x3) (by show x3.homogeneous = true; rw [M.hom, h1, h2]; rfl)) ?_
    exact LV.map _ fun _ _ => (Mix.app_zero m).symm
  · have h2' : x2.homogeneous = false := by simpa using h2
    have h3 : x3.homogeneous = false := by rw [M.hom, h2', Bool.and_false]
    intro a1 a2 k1 k2
    obtain ⟨a3, k3, hl⟩ := extendInhomoF_raw R (M.second h1 h2') h2' h2' h3 a2 a2 k2 k2
    rw [e1] at k1
    cases k1
    refine ⟨a3, k3, LV.of (by simp) hl.1 hl.len fun l hll => ?_⟩
    have hll' : l < ((s.G.unionGamma).map fun _ => (0 : ℂ)).length := by simpa using hll
    rw [hl.getD, Mix.second_app, List.getD_eq_getElem _ _ hll', List.getElem_map]

theorem extendInhomoF_mix (R : Ready s) (M : SrcMix m x1 x2 x3) :
    Rel3 (LV m s.G.unionGamma.length) (extendInhomoF { s with src := x1 }) (extendInhomoF { s with src := x2 })
      (extendInhomoF { s with src := x3 }) := by
  by_cases h1 : x1.homogeneous = true
  · exact extendInhomoF_first R M h1
  by_cases h2 : x2.homogeneous = true
  · exact (extendInhomoF_first R M.swap h2).swap_LV
  have h1' : x1.homogeneous = false := by simpa using h1
  have h2' : x2.homogeneous = false := by simpa using h2
  exact extendInhomoF_raw R (M.both h1' h2') h1' h2' (by rw [M.hom, h1', h2']; rfl)

/-- the array of a homogeneous problem is zero -/
theorem setupF_hom {n : ℕ} {iter : Iter} (h1 : x1.homogeneous = true) (hz : ∀ x y, x1.f x y = 0) {A : Arr n}
    (h : setupF iter { s with src := x1 } = .ok A) : ∀ i j, A i j = 0 := by
  unfold setupF extendF at h
  simp only [h1, if_true] at h
  rcases e : (iter 6 s.G.Mplus).foldlM (init := (fun _ _ => 0 : Arr n))
      (fun f nd => arrSet f nd.1 nd.2 (x1.f (s.e.coord nd).1 (s.e.coord nd).2)) with er | B
  · rw [e, error_bind] at h; cases h
  rw [e, ok_bind] at h
  cases h
  obtain ⟨C, hC, hAV⟩ := fold_mix (m := ⟨0, 0, 0, 0⟩) (s1 := x1) (s2 := x1) (s3 := x1) s
    (fun x y => by simp [Mix.app, hz]) (iter 6 s.G.Mplus) (A := (fun _ _ => 0 : Arr n)) (B := fun _ _ => 0)
    (C := fun _ _ => 0) (fun _ _ => by simp [Mix.app]) _ _ e e
  rw [e] at hC
  cases hC
  intro i j
  rw [hAV i j]
  simp [Mix.app]

theorem setupF_first {n : ℕ} {iter : Iter} (M : SrcMix m x1 x2 x3) (h1 : x1.homogeneous = true) :
    Rel3 (AV (n := n) m) (setupF iter { s with src := x1 }) (setupF iter { s with src := x2 })
      (setupF iter { s with src := x3 }) := by
  by_cases h2 : x2.homogeneous = true
  · have h3 : x3.homogeneous = true := by rw [M.hom, h1, h2]; rfl
    unfold setupF
    refine Rel3.bind (fold_mix s M.f _ fun _ _ => (Mix.app_zero m).symm) fun a b c habc => ?_
    unfold extendF
    simp only [h1, h2, h3, if_true]
    exact Rel3.pure habc
  · have h2' : x2.homogeneous = false := by simpa using h2
    have h3 : x3.homogeneous = false := by rw [M.hom, h2', Bool.and_false]
    intro a1 a2 k1 k2
    obtain ⟨a3, k3, hl⟩ := setupF_mix (n := n) (M.second h1 h2') s iter h2' h2' h3 a2 a2 k2 k2
    refine ⟨a3, k3, fun i j => ?_⟩
    rw [hl i j, Mix.second_app, setupF_hom h1 (M.zero1 h1) k1 i j]

theorem setupF_mix' {n : ℕ} {iter : Iter} (M : SrcMix m x1 x2 x3) :
    Rel3 (AV (n := n) m) (setupF iter { s with src := x1 }) (setupF iter { s with src := x2 })
      (setupF iter { s with src := x3 }) := by
  by_cases h1 : x1.homogeneous = true
  · exact setupF_first M h1
  by_cases h2 : x2.homogeneous = true
  · exact (setupF_first M.swap h2).swap_AV
  have h1' : x1.homogeneous = false := by simpa using h1
  have h2' : x2.homogeneous = false := by simpa using h2
  exact setupF_mix (M.both h1' h2') s iter h1' h2' (by rw [M.hom, h1', h2']; rfl)

theorem initApSolF_mix {n : ℕ} {iter : Iter} (S : Setup iter s.e n s.order s.k s.G) (M : SrcMix m x1 x2 x3) :
    Rel3 (AV (n := n) m) (initApSolF n iter { s with src := x1 }) (initApSolF n iter { s with src := x2 })
      (initApSolF n iter { s with src := x3 }) := by
  unfold initApSolF
  exact Rel3.bind (setupF_mix' M) fun f1 f2 f3 hf => ap_mix S hf

theorem getVar_mix {n : ℕ} {iter : Iter} (S : Setup iter s.e n s.order s.k s.G) (R : Ready s) (M : SrcMix m x1 x2 x3)
    {a1 a2 a3 : Arr n} (ha : AV m a1 a2 a3) {L : ℕ} {c1 c2 c3 : List ℂ} (hc : LV m L c1 c2 c3) :
    Rel3 (fun v w z : List (List ℂ) × List ℂ => w.1 = v.1 ∧ z.1 = v.1 ∧ LV m s.G.unionGamma.length v.2 w.2 z.2 ∧
        v.1.length = s.bas.bDesc.length ∧ ∀ col ∈ v.1, col.length = s.G.unionGamma.length ∧ ∀ z ∈ col, conj z = z)
      (getVar iter { s with src := x1 } a1 c1) (getVar iter { s with src := x2 } a2 c2)
      (getVar iter { s with src := x3 } a3 c3) := by
  unfold getVar
  simp only [getQ_src]
  refine Rel3.bind (Rel3.same' _) ?_
  rintro _ _ Q0 ⟨rfl, rfl, hQ0⟩
  refine Rel3.bind (Rel3.same' _) ?_
  rintro _ _ Q1 ⟨rfl, rfl, hQ1⟩
  refine Rel3.bind (extendInhomoF_mix R M) fun f1 f2 f3 hf => ?_
  refine Rel3.bind (pot_mix S hf) fun p1 p2 p3 hp => ?_
  refine Rel3.bind (trace_mix S fun i j => by rw [hp i j, ha i j, Mix.app_add]) fun t1 t2 t3 ht => ?_
  refine Rel3.bind (matVec_mix (fun col hcol => ((getQ_real S R 0 hQ0).2 col hcol).2) hc) fun q1 q2 q3 hq => ?_
  refine Rel3.bind (vecAdd_mix (neg_mix hq) hf) fun r1 r2 r3 hr => ?_
  refine Rel3.bind (vecSub_mix hr ht) fun u1 u2 u3 hu => ?_
  exact Rel3.pure ⟨rfl, rfl, hu, getQ_real S R 1 hQ1⟩

theorem solveVar_mix {n : ℕ} {iter : Iter} (S : Setup iter s.e n s.order s.k s.G) (R : Ready s) (M : SrcMix m x1 x2 x3)
    {lstsq : Lstsq} (hlsq : IsMinLstsq lstsq) {a1 a2 a3 : Arr n} (ha : AV m a1 a2 a3) {L : ℕ} {c1 c2 c3 : List ℂ}
    (hc : LV m L c1 c2 c3) :
    Rel3 (LV m s.bas.bDesc.length) (solveVar lstsq iter { s with src := x1 } a1 c1)
      (solveVar lstsq iter { s with src := x2 } a2 c2) (solveVar lstsq iter { s with src := x3 } a3 c3) := by
  unfold solveVar
  refine Rel3.bind (getVar_mix S R M ha hc) ?_
  rintro ⟨Q, r1⟩ ⟨Q', r2⟩ ⟨Q'', r3⟩ ⟨h1, h2, hl, hQl, hQ⟩
  simp only at h1 h2 hl hQl hQ
  subst h1; subst h2
  refine Rel3.pure ?_
  have g1 : ∀ col ∈ Q'', col.length = r1.length := fun col hcol => (hQ col hcol).1.trans hl.1.symm
  have g2 : ∀ col ∈ Q'', col.length = r2.length := fun col hcol => (hQ col hcol).1.trans hl.2.1.symm
  refine ⟨((hlsq.1 _ _ g1).1).trans hQl, ((hlsq.1 _ _ g2).1).trans hQl, ?_⟩
  show lstsq Q'' r3 = _
  rw [hl.2.2]
  exact lstsq_mix hlsq (hl.2.1.trans hl.1.symm) g1 (fun col hcol => (hQ col hcol).2) m

theorem extendBoundary_mix (R : Ready s) (M : SrcMix m x1 x2 x3) {c1 c2 c3 d1 d2 d3 : List ℂ}
    (hc : LV m s.bas.bDesc.length c1 c2 c3) (hd : LV m s.bas.bDesc.length d1 d2 d3) {f1 f2 : List ℂ}
    (hf1 : extendInhomoF { s with src := x1 } = .ok f1) (hf2 : extendInhomoF { s with src := x2 } = .ok f2) :
    Rel3 (LV m s.G.unionGamma.length) (extendBoundary { s with src := x1 } (.full c1 d1))
      (extendBoundary { s with src := x2 } (.full c2 d2)) (extendBoundary { s with src := x3 } (.full c3 d3)) := by
  obtain ⟨f3, hf3, hf⟩ := extendInhomoF_mix R M f1 f2 hf1 hf2
  obtain ⟨V, hV, -⟩ := extend_closed R
  have v1 : (XiSrc.full c1 d1).Valid s.bas.bDesc := ⟨hc.1.ge, hd.1.ge⟩
  have v2 : (XiSrc.full c2 d2).Valid s.bas.bDesc := ⟨hc.2.1.ge, hd.2.1.ge⟩
  have v3 : (XiSrc.full c3 d3).Valid s.bas.bDesc := ⟨hc.len.ge, hd.len.ge⟩
  obtain ⟨m1, a1, -, b1⟩ := hV _ v1
  obtain ⟨m2, a2, -, b2⟩ := hV _ v2
  obtain ⟨m3, a3, -, b3⟩ := hV _ v3
  obtain ⟨W1, w1, -, t1⟩ := extend_total (R.src x1) hf1 (src := .full c1 d1) a1 b1 (fun _ _ h => by cases h)
  obtain ⟨W2, w2, -, t2⟩ := extend_total (R.src x2) hf2 (src := .full c2 d2) a2 b2 (fun _ _ h => by cases h)
  obtain ⟨W3, w3, -, t3⟩ := extend_total (R.src x3) hf3 (src := .full c3 d3) a3 b3 (fun _ _ h => by cases h)
  have hval : ∀ i JJ, (XiSrc.full c3 d3).val i JJ = m.app ((XiSrc.full c1 d1).val i JJ) ((XiSrc.full c2 d2).val i JJ) := by
    intro i JJ
    unfold XiSrc.val
    simp only []
    split_ifs
    · exact hc.getD JJ
    · exact hd.getD JJ
  obtain ⟨y, hy, hl⟩ := homo_mix R v1 v2 v3 hval _ _ (by rw [a1, ok_bind, b1]) (by rw [a2, ok_bind, b2])
  rw [a3, ok_bind, b3] at hy
  cases hy
  rw [w1, w2, w3] at hf
  have hVm := map_of_LV hl
  have hWm := map_of_LV hf
  refine rel_ok t1 t2 t3 (LV.map _ fun nd hnd => ?_)
  rw [hVm nd hnd, hWm nd hnd, Mix.app_add]

/-- **C92** the whole solver is real-linear: if boundary data and source of a third problem on the same grid are a fixed
real-linear combination of those of two problems the solver can solve, then it solves the third one, and everything it
computes - coefficients, extension, particular solution and solution - is the same combination. -/
theorem C92_mix {n : ℕ} {iter : Iter} (S : Setup iter s.e n s.order s.k s.G) (R : Ready s) (hM : s.G.Mplus ≠ ∅)
    {p q J : ℕ} (hp : 1 ≤ p) (hq : 1 ≤ q) (hpJ : p ≤ J) (hqJ : q ≤ J) (hbas : s.bas = setupBasis p q) {fit : Chebfit}
    (hfit : IsChebfit fit) {lstsq : Lstsq} (hlsq : IsMinLstsq lstsq) (M : SrcMix m x1 x2 x3) {b1 b2 b3 : ℝ → Fin 3 → ℂ}
    (hbc : ∀ t sid, b3 t sid = m.app (b1 t sid) (b2 t sid)) {ap1 ap2 : Arr n} {r1 r2 : RunResult n}
    {ex1 ex2 ex3 : Option (ℝ → ℝ → ℂ)} (hi1 : initApSolF n iter { s with src := x1 } = .ok ap1)
    (hi2 : initApSolF n iter { s with src := x2 } = .ok ap2)
    (hr1 : psRun iter { s with src := x1 } ap1 fit (chebRoots J) b1 lstsq ex1 = .ok r1)
    (hr2 : psRun iter { s with src := x2 } ap2 fit (chebRoots J) b2 lstsq ex2 = .ok r2) :
    ∃ ap3, ∃ r3 : RunResult n, initApSolF n iter { s with src := x3 } = .ok ap3 ∧
      psRun iter { s with src := x3 } ap3 fit (chebRoots J) b3 lstsq ex3 = .ok r3 ∧
      (∀ i j, ap3 i j = m.app (ap1 i j) (ap2 i j)) ∧ (∀ i j, r3.uAct i j = m.app (r1.uAct i j) (r2.uAct i j)) ∧
      r3.c0 = List.zipWith m.app r1.c0 r2.c0 ∧ r3.c1 = List.zipWith m.app r1.c1 r2.c1 ∧
      r3.ext = List.zipWith m.app r1.ext r2.ext := by
  obtain ⟨ap3, hi3, hap⟩ := initApSolF_mix S M ap1 ap2 hi1 hi2
  have hlen : s.bas.bDesc.length = p + 2 * q := by rw [hbas, C40_length]
  have key : ∀ {x : Source} {b : ℝ → Fin 3 → ℂ} {ap : Arr n} {r : RunResult n} {ex : Option (ℝ → ℝ → ℂ)},
      psRun iter { s with src := x } ap fit (chebRoots J) b lstsq ex = .ok r →
      calcC0 s.eps s.e.a s.e.R fit (chebRoots J) s.bas b = .ok r.c0 ∧
      solveVar lstsq iter { s with src := x } ap r.c0 = .ok r.c1 ∧
      extendBoundary { s with src := x } (.full r.c0 r.c1) = .ok r.ext ∧
      regularPart iter s.e s.order s.k s.G r.ext ap = .ok r.uAct := by
    intro x b ap r ex h
    unfold psRun at h
    simp only [] at h
    rcases e1 : calcC0 s.eps s.e.a s.e.R fit (chebRoots J) s.bas b with er | c0
    · rw [e1, error_bind] at h; cases h
    rw [e1, ok_bind] at h
    rcases e2 : solveVar lstsq iter { s with src := x } ap c0 with er | c1
    · rw [e2, error_bind] at h; cases h
    rw [e2, ok_bind] at h
    rcases e3 : extendBoundary { s with src := x } (.full c0 c1) with er | ext
    · rw [e3, error_bind] at h; cases h
    rw [e3, ok_bind] at h
    rcases e4 : regularPart iter s.e s.order s.k s.G ext ap with er | u
    · rw [e4, error_bind] at h; cases h
    rw [e4, ok_bind] at h
    rcases e5 : evalError iter s.e s.G ex u with er | err
    · rw [e5, error_bind] at h; cases h
    rw [e5, ok_bind] at h
    cases h
    exact ⟨rfl, e2, e3, e4⟩
  obtain ⟨k1, k2, k3, k4⟩ := key hr1
  obtain ⟨l1, l2, l3, l4⟩ := key hr2
  have hF : ∀ {x : Source} {ap : Arr n} {c d : List ℂ}, solveVar lstsq iter { s with src := x } ap c = .ok d →
      ∃ f, extendInhomoF { s with src := x } = .ok f := by
    intro x ap c d h
    rcases e : extendInhomoF { s with src := x } with er | f
    · exfalso
      unfold solveVar getVar at h
      rw [e] at h
      rcases q0 : getQ n iter { s with src := x } 0 with er | Q0
      · rw [q0] at h; cases h
      · rcases q1 : getQ n iter { s with src := x } 1 with er | Q1 <;> (rw [q0, q1] at h; cases h)
    · exact ⟨f, rfl⟩
  obtain ⟨f1, hf1⟩ := hF k2
  obtain ⟨f2, hf2⟩ := hF l2
  have hC := calcC0_mix (m := m) (eps := s.eps) (a := s.e.a) (R := s.e.R) hfit hp hq hpJ hqJ hbc
  rw [← hbas, ← hlen] at hC
  obtain ⟨c0, g1, hc0⟩ := hC _ _ k1 l1
  obtain ⟨c1, g2, hc1⟩ := solveVar_mix S R M hlsq hap hc0 _ _ k2 l2
  obtain ⟨ext, g3, hext⟩ := extendBoundary_mix R M hc0 hc1 hf1 hf2 _ _ k3 l3
  have hreg : Rel3 (AV (n := n) m) (regularPart iter s.e s.order s.k s.G r1.ext ap1)
      (regularPart iter s.e s.order s.k s.G r2.ext ap2) (regularPart iter s.e s.order s.k s.G ext ap3) := by
    unfold regularPart
    exact Rel3.bind (pot_mix S hext) fun p1 p2 p3 hp => Rel3.pure fun i j => by rw [hp i j, hap i j, Mix.app_add]
  obtain ⟨u, g4, hu⟩ := hreg _ _ k4 l4
  have herr : ∃ er, evalError iter s.e s.G ex3 u = .ok er := by
    obtain ⟨h1, h2⟩ := C65_eval_error S.hit S.hN S.built u
    rcases ex3 with _ | ex
    · exact ⟨_, h1⟩
    · obtain ⟨m, hm, -⟩ := (h2 ex).2 hM
      exact ⟨_, hm⟩
  obtain ⟨er, g5⟩ := herr
  refine ⟨ap3, ⟨er, u, c0, c1, ext⟩, hi3, ?_, hap, hu, hc0.2.2, hc1.2.2, hext.2.2⟩
  unfold psRun
  show (calcC0 s.eps s.e.a s.e.R fit (chebRoots J) s.bas b3 >>= _) = _
  rw [g1, ok_bind, g2, ok_bind, g3, ok_bind]
  show (regularPart iter s.e s.order s.k s.G ext ap3 >>= _) = _
  rw [g4, ok_bind, g5, ok_bind]
  rfl

end


/-- **C92** superposition: with the data of the third problem `α` times the first plus `β` times the second, so is all the
solver computes -/
theorem C92_superposition {s : PSolver} {x1 x2 x3 : Source} {n : ℕ} {iter : Iter} (S : Setup iter s.e n s.order s.k s.G)
    (R : Ready s) (hM : s.G.Mplus ≠ ∅) {p q J : ℕ} (hp : 1 ≤ p) (hq : 1 ≤ q) (hpJ : p ≤ J) (hqJ : q ≤ J)
    (hbas : s.bas = setupBasis p q) {fit : Chebfit} (hfit : IsChebfit fit) {lstsq : Lstsq} (hlsq : IsMinLstsq lstsq) (α β : ℂ)
    (M : SrcMix ⟨α, 0, β, 0⟩ x1 x2 x3) {b1 b2 b3 : ℝ → Fin 3 → ℂ} (hbc : ∀ t sid, b3 t sid = α * b1 t sid + β * b2 t sid)
    {ap1 ap2 : Arr n} {r1 r2 : RunResult n} {ex1 ex2 ex3 : Option (ℝ → ℝ → ℂ)}
    (hi1 : initApSolF n iter { s with src := x1 } = .ok ap1) (hi2 : initApSolF n iter { s with src := x2 } = .ok ap2)
    (hr1 : psRun iter { s with src := x1 } ap1 fit (chebRoots J) b1 lstsq ex1 = .ok r1)
    (hr2 : psRun iter { s with src := x2 } ap2 fit (chebRoots J) b2 lstsq ex2 = .ok r2) :
    ∃ ap3, ∃ r3 : RunResult n, initApSolF n iter { s with src := x3 } = .ok ap3 ∧
      psRun iter { s with src := x3 } ap3 fit (chebRoots J) b3 lstsq ex3 = .ok r3 ∧
      (∀ i j, r3.uAct i j = α * r1.uAct i j + β * r2.uAct i j) ∧
      r3.c0 = List.zipWith (fun x y => α * x + β * y) r1.c0 r2.c0 ∧
      r3.c1 = List.zipWith (fun x y => α * x + β * y) r1.c1 r2.c1 ∧
      r3.ext = List.zipWith (fun x y => α * x + β * y) r1.ext r2.ext := by
  have e : (Mix.app ⟨α, 0, β, 0⟩) = fun x y => α * x + β * y := by funext x y; simp [Mix.app]
  obtain ⟨ap3, r3, h1, h2, -, h3, h4, h5, h6⟩ := C92_mix (ex3 := ex3) S R hM hp hq hpJ hqJ hbas hfit hlsq M
    (b3 := b3) (fun t sid => by rw [e]; exact hbc t sid) hi1 hi2 hr1 hr2
  rw [e] at h3 h4 h5 h6
  exact ⟨ap3, r3, h1, h2, h3, h4, h5, h6⟩

theorem zipWith_self_conj (L : List ℂ) (h : L = List.zipWith (Mix.app ⟨0, 1, 0, 0⟩) L L) : ∀ z ∈ L, conj z = z := by
  have e : List.zipWith (Mix.app ⟨0, 1, 0, 0⟩) L L = L.map conj := by
    rw [List.zipWith_self]
    exact List.map_congr_left fun z _ => by simp [Mix.app]
  rw [e] at h
  intro z hz
  obtain ⟨i, hi, rfl⟩ := List.mem_iff_getElem.1 hz
  have := congrArg (fun K : List ℂ => K[i]?) h
  simp only [List.getElem?_map, List.getElem?_eq_getElem hi, Option.map_some, Option.some.injEq] at this
  exact this.symm

/-- **C92** a problem with real source and real boundary data has a real numerical solution, with real coefficients, although
everything is computed in complex arithmetic -/
theorem C92_real {s : PSolver} {n : ℕ} {iter : Iter} (S : Setup iter s.e n s.order s.k s.G) (R : Ready s)
    (hM : s.G.Mplus ≠ ∅) {p q J : ℕ} (hp : 1 ≤ p) (hq : 1 ≤ q) (hpJ : p ≤ J) (hqJ : q ≤ J) (hbas : s.bas = setupBasis p q)
    {fit : Chebfit} (hfit : IsChebfit fit) {lstsq : Lstsq} (hlsq : IsMinLstsq lstsq)
    (M : SrcMix ⟨0, 1, 0, 0⟩ s.src s.src s.src) {bc : ℝ → Fin 3 → ℂ} (hbc : ∀ t sid, conj (bc t sid) = bc t sid) {ap : Arr n}
    {r : RunResult n} {ex : Option (ℝ → ℝ → ℂ)} (hi : initApSolF n iter s = .ok ap)
    (hr : psRun iter s ap fit (chebRoots J) bc lstsq ex = .ok r) :
    (∀ i j, (r.uAct i j).im = 0) ∧ (∀ z ∈ r.c0, z.im = 0) ∧ (∀ z ∈ r.c1, z.im = 0) ∧ ∀ z ∈ r.ext, z.im = 0 := by
  obtain ⟨ap3, r3, h1, h2, -, h3, h4, h5, h6⟩ := C92_mix (ex3 := ex) S R hM hp hq hpJ hqJ hbas hfit hlsq M (b1 := bc)
    (b2 := bc) (b3 := bc) (fun t sid => by simp [Mix.app, hbc t sid]) hi hi hr hr
  have h1' : initApSolF n iter s = .ok ap3 := h1
  rw [hi] at h1'
  cases h1'
  have h2' : psRun iter s ap fit (chebRoots J) bc lstsq ex = .ok r3 := h2
  rw [hr] at h2'
  cases h2'
  have hz : ∀ L : List ℂ, L = List.zipWith (Mix.app ⟨0, 1, 0, 0⟩) L L → ∀ z ∈ L, z.im = 0 :=
    fun L hL z hzL => Complex.conj_eq_iff_im.1 (zipWith_self_conj L hL z hzL)
  refine ⟨fun i j => Complex.conj_eq_iff_im.1 ?_, hz _ h4, hz _ h5, hz _ h6⟩
  have := h3 i j
  simp only [Mix.app, zero_mul, zero_add, one_mul, add_zero] at this
  exact this.symm

theorem zipWith_self_zero (L : List ℂ) (h : L = List.zipWith (Mix.app ⟨0, 0, 0, 0⟩) L L) : ∀ z ∈ L, z = 0 := by
  rw [List.zipWith_self] at h
  intro z hz
  rw [h, List.mem_map] at hz
  obtain ⟨w, -, rfl⟩ := hz
  simp [Mix.app]

/-- **C92** zero data give the zero solution, with all coefficients zero: the numerical problem has no null vector that the
solver could return -/
theorem C92_zero {s : PSolver} {n : ℕ} {iter : Iter} (S : Setup iter s.e n s.order s.k s.G) (R : Ready s)
    (hM : s.G.Mplus ≠ ∅) {p q J : ℕ} (hp : 1 ≤ p) (hq : 1 ≤ q) (hpJ : p ≤ J) (hqJ : q ≤ J) (hbas : s.bas = setupBasis p q)
    {fit : Chebfit} (hfit : IsChebfit fit) {lstsq : Lstsq} (hlsq : IsMinLstsq lstsq)
    (hh : s.src.homogeneous = true) (hf : ∀ x y, s.src.f x y = 0) {bc : ℝ → Fin 3 → ℂ} (hbc : ∀ t sid, bc t sid = 0) {ap : Arr n}
    {r : RunResult n} {ex : Option (ℝ → ℝ → ℂ)} (hi : initApSolF n iter s = .ok ap)
    (hr : psRun iter s ap fit (chebRoots J) bc lstsq ex = .ok r) :
    (∀ i j, r.uAct i j = 0) ∧ (∀ z ∈ r.c0, z = 0) ∧ (∀ z ∈ r.c1, z = 0) ∧ ∀ z ∈ r.ext, z = 0 := by
  have M : SrcMix ⟨0, 0, 0, 0⟩ s.src s.src s.src := ⟨by rw [hh]; rfl, fun _ => hf, fun _ => hf,
    fun x y => by simp [Mix.app, hf], fun h => by rw [hh] at h; cases h⟩
  obtain ⟨ap3, r3, h1, h2, -, h3, h4, h5, h6⟩ := C92_mix (ex3 := ex) S R hM hp hq hpJ hqJ hbas hfit hlsq M (b1 := bc)
    (b2 := bc) (b3 := bc) (fun t sid => by simp [Mix.app, hbc t sid]) hi hi hr hr
  have h1' : initApSolF n iter s = .ok ap3 := h1
  rw [hi] at h1'
  cases h1'
  have h2' : psRun iter s ap fit (chebRoots J) bc lstsq ex = .ok r3 := h2
  rw [hr] at h2'
  cases h2'
  refine ⟨fun i j => ?_, zipWith_self_zero _ h4, zipWith_self_zero _ h5, zipWith_self_zero _ h6⟩
  rw [h3 i j]
  simp [Mix.app]

/-! ## Sources given by formulas -/

theorem deriv_mix {m : Mix} {f g : ℝ → ℂ} {t : ℝ} (hf : DifferentiableAt ℝ f t) (hg : DifferentiableAt ℝ g t) :
    deriv (fun x => m.app (f x) (g x)) t = m.app (deriv f t) (deriv g t) := by
  unfold Mix.app
  have hc : ∀ {u : ℝ → ℂ}, DifferentiableAt ℝ u t → HasDerivAt (fun x => conj (u x)) (conj (deriv u t)) t := fun {u} hu =>
    (Complex.conjCLE.toContinuousLinearMap.hasFDerivAt (x := u t)).comp_hasDerivAt t hu.hasDerivAt
  exact ((((hf.hasDerivAt.const_mul m.a).add ((hc hf).const_mul m.a')).add (hg.hasDerivAt.const_mul m.b)).add
    ((hc hg).const_mul m.b')).deriv

section
variable {m : Mix} {f g : ℝ → ℝ → ℂ}

theorem cd_deriv {h : ℝ → ℂ} (hh : ContDiff ℝ 2 h) : Differentiable ℝ (deriv h) := by
  have : ContDiff ℝ (1 + 1) h := by simpa [one_add_one_eq_two] using hh
  exact ((contDiff_succ_iff_deriv.1 this).2.2).differentiable (by norm_num)

theorem cd_left (hf : ContDiff ℝ 2 fun z : ℝ × ℝ => f z.1 z.2) (t : ℝ) : ContDiff ℝ 2 fun ρ => f ρ t :=
  hf.comp (contDiff_id.prodMk contDiff_const)

theorem cd_right (hf : ContDiff ℝ 2 fun z : ℝ × ℝ => f z.1 z.2) (r : ℝ) : ContDiff ℝ 2 fun t => f r t :=
  hf.comp (contDiff_const.prodMk contDiff_id)

theorem spDFr_smooth (hf : ContDiff ℝ 2 fun z : ℝ × ℝ => f z.1 z.2) (r : ℝ) : Differentiable ℝ fun t => spDFr f r t := by
  have h1 : ∀ t, spDFr f r t = fderiv ℝ (fun z : ℝ × ℝ => f z.1 z.2) (r, t) (1, 0) := by
    intro t
    have hd := (hf.differentiable (by norm_num) (r, t)).hasFDerivAt
    have hc : HasDerivAt (fun ρ : ℝ => ((ρ, t) : ℝ × ℝ)) (1, 0) r := (hasDerivAt_id r).prodMk (hasDerivAt_const r t)
    exact (hd.comp_hasDerivAt r hc).deriv
  have h2 : (fun t => spDFr f r t) = fun t => fderiv ℝ (fun z : ℝ × ℝ => f z.1 z.2) (r, t) (1, 0) := funext h1
  rw [h2]
  have h3 : ContDiff ℝ 1 (fderiv ℝ fun z : ℝ × ℝ => f z.1 z.2) := hf.fderiv_right (by norm_num)
  exact ((h3.differentiable (by norm_num)).comp ((differentiable_const r).prodMk differentiable_id)).clm_apply
    (differentiable_const _)

variable (hf : ContDiff ℝ 2 fun z : ℝ × ℝ => f z.1 z.2) (hg : ContDiff ℝ 2 fun z : ℝ × ℝ => g z.1 z.2)
include hf hg

theorem spDFr_mix (r t : ℝ) : spDFr (fun r t => m.app (f r t) (g r t)) r t = m.app (spDFr f r t) (spDFr g r t) :=
  deriv_mix ((cd_left hf t).differentiable (by norm_num) r) ((cd_left hg t).differentiable (by norm_num) r)

theorem spDFth_mix (r t : ℝ) : spDFth (fun r t => m.app (f r t) (g r t)) r t = m.app (spDFth f r t) (spDFth g r t) :=
  deriv_mix ((cd_right hf r).differentiable (by norm_num) t) ((cd_right hg r).differentiable (by norm_num) t)

theorem spD2Fr_mix (r t : ℝ) : spD2Fr (fun r t => m.app (f r t) (g r t)) r t = m.app (spD2Fr f r t) (spD2Fr g r t) := by
  unfold spD2Fr
  rw [show (fun ρ => spDFr (fun r t => m.app (f r t) (g r t)) ρ t) = fun ρ => m.app (spDFr f ρ t) (spDFr g ρ t) from
    funext fun ρ => spDFr_mix hf hg ρ t]
  exact deriv_mix (cd_deriv (cd_left hf t) r) (cd_deriv (cd_left hg t) r)

theorem spD2Fth_mix (r t : ℝ) : spD2Fth (fun r t => m.app (f r t) (g r t)) r t = m.app (spD2Fth f r t) (spD2Fth g r t) := by
  unfold spD2Fth
  rw [show (fun t => spDFth (fun r t => m.app (f r t) (g r t)) r t) = fun t => m.app (spDFth f r t) (spDFth g r t) from
    funext fun t => spDFth_mix hf hg r t]
  exact deriv_mix (cd_deriv (cd_right hf r) t) (cd_deriv (cd_right hg r) t)

theorem spD2Frth_mix (r t : ℝ) :
    spD2Frth (fun r t => m.app (f r t) (g r t)) r t = m.app (spD2Frth f r t) (spD2Frth g r t) := by
  unfold spD2Frth
  rw [show (fun t => spDFr (fun r t => m.app (f r t) (g r t)) r t) = fun t => m.app (spDFr f r t) (spDFr g r t) from
    funext fun t => spDFr_mix hf hg r t]
  exact deriv_mix (spDFr_smooth hf r t) (spDFr_smooth hg r t)

theorem spGradPolar_mix (r t : ℝ) (g1 g2 : ℂ × ℂ) (h1 : spGradPolar f r t = .ok g1) (h2 : spGradPolar g r t = .ok g2) :
    spGradPolar (fun r t => m.app (f r t) (g r t)) r t = .ok (m.app2 g1 g2) := by
  unfold spGradPolar at h1 h2 ⊢
  by_cases hr : r = 0
  · rw [if_pos hr] at h1; cases h1
  · rw [if_neg hr] at h1 h2 ⊢
    cases h1; cases h2
    simp only [spDFr_mix hf hg, spDFth_mix hf hg]
    rw [pure_eq_ok]
    congr 1
    simp only [Mix.app2, Mix.app, map_add, map_sub, map_mul, map_div₀, Complex.conj_ofReal, Prod.mk.injEq]
    constructor <;> ring

theorem spHessPolar_mix (r t : ℝ) (g1 g2 : (ℂ × ℂ) × (ℂ × ℂ)) (h1 : spHessPolar f r t = .ok g1) (h2 : spHessPolar g r t = .ok g2) :
    spHessPolar (fun r t => m.app (f r t) (g r t)) r t = .ok (m.app4 g1 g2) := by
  unfold spHessPolar at h1 h2 ⊢
  by_cases hr : r = 0
  · rw [if_pos hr] at h1; cases h1
  · rw [if_neg hr] at h1 h2 ⊢
    cases h1; cases h2
    simp only [spDFr_mix hf hg, spDFth_mix hf hg, spD2Fr_mix hf hg, spD2Fth_mix hf hg, spD2Frth_mix hf hg]
    rw [pure_eq_ok]
    congr 1
    simp only [Mix.app4, Mix.app2, Mix.app, map_add, map_mul, map_neg, map_pow, map_div₀, Complex.conj_ofReal, Prod.mk.injEq]
    refine ⟨⟨?_, ?_⟩, ?_, ?_⟩ <;> ring

theorem spFPolar_mix (AD r t : ℝ) :
    pyGet (spFPolar AD (fun r t => m.app (f r t) (g r t)) r t) = m.app (pyGet (spFPolar AD f r t)) (pyGet (spFPolar AD g r t)) := by
  unfold spFPolar
  by_cases hr : r = 0
  · simp only [if_pos hr]
    by_cases hc : (cartToPolar (-(AD / 10000)) 0).1 = 0
    · have hz : ∀ F : ℝ → ℝ → ℂ, spHess F (-(AD / 10000)) 0 = .error .nanValue := fun F => by
        unfold spHess spHessPolar; rw [if_pos hc]; rfl
      simp only [hz, error_bind, pyGet, Mix.app_zero]
    · have hG : ∀ F : ℝ → ℝ → ℂ, ∃ G, spGrad F (-(AD / 10000)) 0 = .ok G := fun F => by
        unfold spGrad spGradPolar; rw [if_neg hc]; exact ⟨_, rfl⟩
      have hH : ∀ F : ℝ → ℝ → ℂ, ∃ G, spHess F (-(AD / 10000)) 0 = .ok G := fun F => by
        unfold spHess spHessPolar; rw [if_neg hc]; exact ⟨_, rfl⟩
      obtain ⟨G1, e1⟩ := hG f
      obtain ⟨G2, e2⟩ := hG g
      obtain ⟨H1, k1⟩ := hH f
      obtain ⟨H2, k2⟩ := hH g
      have e3 : spGrad (fun r t => m.app (f r t) (g r t)) (-(AD / 10000)) 0 = _ := spGradPolar_mix hf hg _ _ G1 G2 e1 e2
      have k3 : spHess (fun r t => m.app (f r t) (g r t)) (-(AD / 10000)) 0 = _ := spHessPolar_mix hf hg _ _ H1 H2 k1 k2
      simp only [e1, e2, e3, k1, k2, k3, ok_bind, pure_eq_ok, pyGet]
      simp only [hdot, dot2, Mix.app4, Mix.app2, Mix.app, map_add, map_mul, map_pow, map_div₀, map_one, map_ofNat, Complex.conj_ofReal]
      ring
  · simp only [if_neg hr, pure_eq_ok, pyGet]

theorem spSource_rel (AD : ℝ) :
    SrcRel m (spSource AD f) (spSource AD g) (spSource AD fun r t => m.app (f r t) (g r t)) where
  f _ _ := spFPolar_mix hf hg AD _ _
  grad _ _ g1 g2 h1 h2 := spGradPolar_mix hf hg _ _ g1 g2 h1 h2
  hess _ _ g1 g2 h1 h2 := spHessPolar_mix hf hg _ _ g1 g2 h1 h2
  fPolar _ _ := spFPolar_mix hf hg AD _ _
  gradPolar _ _ g1 g2 h1 h2 := spGradPolar_mix hf hg _ _ g1 g2 h1 h2
  hessPolar _ _ g1 g2 h1 h2 := spHessPolar_mix hf hg _ _ g1 g2 h1 h2
  dFth r t := spDFth_mix hf hg r t
  d2Fth r t := spD2Fth_mix hf hg r t
  dFr r t := spDFr_mix hf hg r t
  d2Fr r t := spD2Fr_mix hf hg r t
  d2Frth r t := spD2Frth_mix hf hg r t

/-- combining formulas combines the sources the solver sees -/
theorem spSource_mix (AD : ℝ) :
    SrcMix m (spSource AD f) (spSource AD g) (spSource AD fun r t => m.app (f r t) (g r t)) :=
  ⟨rfl, (fun h => by cases h), (fun h => by cases h), (spSource_rel hf hg AD).f, fun _ => spSource_rel hf hg AD⟩

end

/-! ## The shipped problems -/

/-- the solver, built for this source and run for these boundary data, returns `res` -/
def Computes (iter : Iter) (b : Brentq) (n order : ℕ) (r : ℝ → ℝ) (k eps : ℝ) (p q J : ℕ) (fit : Chebfit) (lstsq : Lstsq)
    (src : Source) (bc : ℝ → Fin 3 → ℂ) (ex : Option (ℝ → ℝ → ℂ)) (res : RunResult n) : Prop :=
  ∃ s ap, psInit iter (mkEnv b (n + 1) probAD probA probR r) order k eps p q src = .ok s ∧ initApSolF n iter s = .ok ap ∧
    psRun iter s ap fit (chebRoots J) bc lstsq ex = .ok res

/-- **C92** on every boundary of the program, every grid `N ≥ 16`, both schemes and every wavenumber that is not resonant: if
the solver gets through for two problems, it does so for any real-linear combination of them, with the combined result -/
theorem C92_shipped {iter : Iter} (hit : IsIter iter) {b : Brentq} (hb : BrentqSpec b) {n order : ℕ} (hN : 16 ≤ n + 1)
    (ho : order = 2 ∨ order = 4) {name : String} {r : ℝ → ℝ} (h : chooseBoundary name = .ok r) {k eps : ℝ}
    (hz : NoZeroEig n order probAD k) {p q J : ℕ} (hp : 1 ≤ p) (hq : 1 ≤ q) (hpJ : p ≤ J) (hqJ : q ≤ J) {fit : Chebfit}
    (hfit : IsChebfit fit) {lstsq : Lstsq} (hlsq : IsMinLstsq lstsq) {m : Mix} {x1 x2 x3 : Source} (M : SrcMix m x1 x2 x3)
    {b1 b2 b3 : ℝ → Fin 3 → ℂ} (hbc : ∀ t sid, b3 t sid = m.app (b1 t sid) (b2 t sid)) {ex1 ex2 : Option (ℝ → ℝ → ℂ)}
    (ex3 : Option (ℝ → ℝ → ℂ)) {r1 r2 : RunResult n} (h1 : Computes iter b n order r k eps p q J fit lstsq x1 b1 ex1 r1)
    (h2 : Computes iter b n order r k eps p q J fit lstsq x2 b2 ex2 r2) :
    ∃ r3, Computes iter b n order r k eps p q J fit lstsq x3 b3 ex3 r3 ∧
      (∀ i j, r3.uAct i j = m.app (r1.uAct i j) (r2.uAct i j)) ∧ r3.c0 = List.zipWith m.app r1.c0 r2.c0 ∧
      r3.c1 = List.zipWith m.app r1.c1 r2.c1 ∧ r3.ext = List.zipWith m.app r1.ext r2.ext := by
  have hpi := pi_pos
  have T := chooseBoundary_tame h
  have g := T.gentleAt hN
  have hAD : 0 < probAD := by unfold probAD; positivity
  obtain ⟨G, S⟩ := setup_shipped hit hb hN ho h hz
  obtain ⟨s1, ap1, a1, a2, a3⟩ := h1
  obtain ⟨s2, ap2, c1, c2, c3⟩ := h2
  have R := ready_gentle hit hb hAD g T.regular (shipped_sides hN).1 (shipped_sides hN).2.1 (shipped_sides hN).2.2 a1
  rw [psInit_ok S.built] at a1 c1
  cases a1
  cases c1
  have hM : G.Mplus ≠ ∅ := mplus_ne_empty hAD (by omega) g.apos g.aπ (by rw [g.at_two_pi]; exact g.Rpos.le)
    (g.δρ.le.trans (g.lo _ (by linarith [g.aπ]) (by linarith [g.apos]))) S
  obtain ⟨ap3, r3, k1, k2, -, k3, k4, k5, k6⟩ := C92_mix (ex3 := ex3)
    (s := ⟨mkEnv b (n + 1) probAD probA probR r, order, k, eps, setupBasis p q, G,
      buildCache (mkEnv b (n + 1) probAD probA probR r) (G.allGamma 0), x1⟩)
    S R hM hp hq hpJ hqJ rfl hfit hlsq M hbc a2 c2 a3 c3
  exact ⟨r3, ⟨_, ap3, psInit_ok S.built, k1, k2⟩, k3, k4, k5, k6⟩

/-- **C92** nothing is left to assume for sources given by twice differentiable formulas, a rational wavenumber and the circular
or a sine-shaped boundary: the program gets through for both problems and for their combination, and the results are combined
likewise -/
theorem C92_sympy {iter : Iter} (hit : IsIter iter) {b : Brentq} (hb : BrentqSpec b) {n order : ℕ} (hN : 16 ≤ n + 1)
    (ho : order = 2 ∨ order = 4) {name : String} (hname : name ∈ ["arc", "outer-sine", "inner-sine", "sine7"]) {r : ℝ → ℝ}
    (h : chooseBoundary name = .ok r) (k : ℚ) {eps : ℝ} {f g : ℝ → ℝ → ℂ} (hf : ContDiff ℝ 2 fun z : ℝ × ℝ => f z.1 z.2)
    (hg : ContDiff ℝ 2 fun z : ℝ × ℝ => g z.1 z.2) {p q J : ℕ} (hp : 1 ≤ p) (hq : 1 ≤ q) (hpJ : p ≤ J) (hqJ : q ≤ J)
    {fit : Chebfit} (hfit : IsChebfit fit) {lstsq : Lstsq} (hlsq : IsMinLstsq lstsq) (m : Mix) (b1 b2 : ℝ → Fin 3 → ℂ)
    (ex1 ex2 ex3 : Option (ℝ → ℝ → ℂ)) :
    ∃ r1 r2 r3, Computes iter b n order r k eps p q J fit lstsq (spSource probAD f) b1 ex1 r1 ∧
      Computes iter b n order r k eps p q J fit lstsq (spSource probAD g) b2 ex2 r2 ∧
      Computes iter b n order r k eps p q J fit lstsq (spSource probAD fun r t => m.app (f r t) (g r t))
        (fun t sid => m.app (b1 t sid) (b2 t sid)) ex3 r3 ∧
      (∀ i j, r3.uAct i j = m.app (r1.uAct i j) (r2.uAct i j)) ∧ r3.c0 = List.zipWith m.app r1.c0 r2.c0 ∧
      r3.c1 = List.zipWith m.app r1.c1 r2.c1 ∧ r3.ext = List.zipWith m.app r1.ext r2.ext := by
  have key : ∀ (F : ℝ → ℝ → ℂ) (bc : ℝ → Fin 3 → ℂ) (ex : Option (ℝ → ℝ → ℂ)), ∃ res,
      Computes iter b n order r k eps p q J fit lstsq (spSource probAD F) bc ex res := by
    intro F bc ex
    obtain ⟨s, hs, _, -, -, -, ap, res, hap, hrun, -⟩ := C79_sympy hit hb hN ho hname h k (eps := eps) F hp hq hfit hlsq.1
      (chebRoots J) bc ex
    exact ⟨res, s, ap, hs, hap, hrun⟩
  obtain ⟨r1, h1⟩ := key f b1 ex1
  obtain ⟨r2, h2⟩ := key g b2 ex2
  obtain ⟨r3, h3, h4⟩ := C92_shipped hit hb hN ho h (C78_rational n ho k) hp hq hpJ hqJ hfit hlsq (spSource_mix hf hg probAD)
    (b3 := fun t sid => m.app (b1 t sid) (b2 t sid)) (fun _ _ => rfl) ex3 h1 h2
  exact ⟨r1, r2, r3, h1, h2, h3, h4⟩

/-- the contract on `lstsq` is needed: with a column of zeros any second coefficient minimises the residual, and a solver
returning `1` there is not linear -/
example : ∃ lstsq : Lstsq, IsLstsq lstsq ∧ lstsq [[0]] [0] ≠ List.zipWith (Mix.app ⟨0, 0, 0, 0⟩) (lstsq [[0]] [0]) (lstsq [[0]] [0]) := by
  classical
  obtain ⟨l, hl⟩ := exists_isLstsq
  refine ⟨fun A b => if A = [[0]] ∧ b = [0] then [1] else l A b, ?_, by simp [Mix.app]⟩
  intro A b hA
  by_cases hc : A = [[0]] ∧ b = [0]
  · obtain ⟨rfl, rfl⟩ := hc
    simp only [true_and, if_true]
    refine ⟨rfl, fun c hc => ?_⟩
    unfold sysResidual
    refine Finset.sum_le_sum fun i _ => ?_
    refine pow_le_pow_left₀ (norm_nonneg _) (le_of_eq ?_) 2
    rcases i with _ | i <;> simp
  · simp only [if_neg hc]
    exact hl A b hA

/-- non-vacuity: a source that is not real, its conjugate, and data on the boundary called "sine7"; the oracles exist and the
real part of the source times two is the combination -/
example : ∃ r, chooseBoundary "sine7" = .ok r ∧ (∃ fit : Chebfit, IsChebfit fit) ∧ (∃ lstsq : Lstsq, IsMinLstsq lstsq) ∧
    (ContDiff ℝ 2 fun z : ℝ × ℝ => ((z.1 : ℂ) ^ 2 + z.2 * Complex.I)) ∧
    ∀ z : ℂ, (Mix.app ⟨1, 1, 0, 0⟩ z z).im = 0 := by
  refine ⟨_, rfl, exists_chebfit, exists_minLstsq, ?_, fun z => by simp [Mix.app]⟩
  have h1 : ContDiff ℝ 2 fun z : ℝ × ℝ => (z.1 : ℂ) := Complex.ofRealCLM.contDiff.comp contDiff_fst
  have h2 : ContDiff ℝ 2 fun z : ℝ × ℝ => (z.2 : ℂ) := Complex.ofRealCLM.contDiff.comp contDiff_snd
  exact (h1.pow 2).add (h2.mul contDiff_const)

/-- non-vacuity of the three corollaries: the smooth test problem's homogeneous source on the circular boundary -/
example {iter : Iter} (hit : IsIter iter) {b : Brentq} (hb : BrentqSpec b) {src : Source} (hh : src.homogeneous = true)
    (hf : ∀ x y, src.f x y = 0) {fit : Chebfit} (hfit : IsChebfit fit) {lstsq : Lstsq} (hlsq : IsMinLstsq lstsq) :
    ∃ r res, chooseBoundary "arc" = .ok r ∧
      Computes iter b 31 4 r smoothK (1 / 1000) 5 4 1024 fit lstsq src (fun _ _ => 0) none res ∧ ∀ i j, res.uAct i j = 0 := by
  obtain ⟨r, hr⟩ := (C77_names "arc").1 (by decide)
  have hz := (C78_shipped 31 (order := 4) (Or.inr rfl)).1
  obtain ⟨s, hs, f, -, ap, res, hap, hrun, -⟩ := C77_shipped hit hb (n := 31) (order := 4) (by norm_num) (Or.inr rfl) hr
    (k := smoothK) (eps := 1 / 1000) hz hh (p := 5) (q := 4) (by norm_num) (by norm_num) hfit hlsq.1 (chebRoots 1024)
    (fun _ _ => 0) none
  have hc : Computes iter b 31 4 r smoothK (1 / 1000) 5 4 1024 fit lstsq src (fun _ _ => 0) none res := ⟨s, ap, hs, hap, hrun⟩
  obtain ⟨r3, ⟨s3, ap3, e1, e2, e3⟩, h3, -⟩ := C92_shipped hit hb (n := 31) (order := 4) (by norm_num) (Or.inr rfl) hr hz
    (p := 5) (q := 4) (J := 1024) (by norm_num) (by norm_num) (by norm_num) (by norm_num) hfit hlsq (m := ⟨0, 0, 0, 0⟩)
    (x1 := src) (x2 := src) (x3 := src)
    ⟨by rw [hh]; rfl, fun _ => hf, fun _ => hf, fun x y => by simp [Mix.app, hf], fun h => by rw [hh] at h; cases h⟩
    (b1 := fun _ _ => 0) (b2 := fun _ _ => 0) (b3 := fun _ _ => 0) (fun _ _ => by simp [Mix.app]) none hc hc
  rw [hs] at e1
  cases e1
  rw [hap] at e2
  cases e2
  rw [hrun] at e3
  cases e3
  exact ⟨r, res, hr, hc, fun i j => by rw [h3 i j]; simp [Mix.app]⟩

end Pot
