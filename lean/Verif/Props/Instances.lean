import Verif.Props.Exact

/-! # Concrete cases for the theorems of `Props/Extend`, `Props/Run` and `Props/Source`

Their own files come before the facts that build a solver, so the cases that meet their hypotheses are shown here: the solver of the shipped
boundary `sine7` on the 32 by 32 grid with the wave number of the smooth problems, scheme order 4, the source of the constant solution 5, and
the solver of the arc with a quadratic source. -/

namespace Pot
open Real Finset Spec

/-- the solver of the cases below -/
theorem demo_solver {iter : Iter} (hit : IsIter iter) {b : Brentq} (hb : BrentqSpec b) : ∃ (r : ℝ → ℝ) (s : PSolver),
    chooseBoundary "sine7" = .ok r ∧
    psInit iter (mkEnv b (31 + 1) probAD probA probR r) 4 smoothK (1 / 1000) 12 6
      (spSource probAD fun _ _ => 4 * 0 + ((smoothK : ℝ) : ℂ) ^ 2 * 5) = .ok s ∧
    ShippedSolver s b 31 r smoothK (1 / 1000) 12 6 ∧ s.bas.bDesc.length = 24 ∧ s.src.homogeneous = false ∧
    (∃ δ : ℝ → ℝ, Approx iter 31 s (radial 5 0) 0 δ) ∧
    ∀ {fit : Chebfit}, IsChebfit fit → ∃ ap c0 c1, ExactRun iter 31 s r (radial 5 0) fit ap c0 c1 := by
  have hz : NoZeroEig 31 4 probAD smoothK := (C78_shipped 31 (order := 4) (Or.inr rfl)).1
  obtain ⟨r, hr⟩ : ∃ r, chooseBoundary "sine7" = .ok r := ⟨_, rfl⟩
  obtain ⟨G, S⟩ := setup_shipped hit hb (n := 31) (by norm_num) (Or.inr rfl) hr hz
  have hoff := fun i j t h1 h2 => C79_off_grid (name := "sine7") (by decide) hr (31 + 1) i j (t := t) h1 h2
  obtain ⟨h1, δ, -, h2⟩ := approx_exact (α := 5) hr (Or.inr rfl) hit hb (by norm_num) hz hoff (by norm_num) (C95_source (Or.inr rfl))
    (psInit_ok (eps := 1 / 1000) (nc := 12) (nr := 6) S.built)
  exact ⟨r, _, hr, psInit_ok S.built, h1, by rw [h1.bas, C40_length], rfl, ⟨δ, h2⟩, fun hfit => C95_exact hr (Or.inr rfl) hit hb (by norm_num) hz hoff
    (by norm_num) (C95_source (Or.inr rfl)) (by norm_num) (by norm_num) (by norm_num) (by norm_num) (psInit_ok S.built) hfit⟩

/-- C22: the solver is `Ready`; its extension of any two lists of 24 coefficients is the superposition of the 48 basis extensions -/
example : ∃ (s : PSolver) (E : ℕ → Fin 2 → List ℂ), Ready s ∧ s.bas.bDesc.length = 24 ∧ s.G.unionGamma ≠ [] ∧
    ∃ v, extendBoundary s (.full (List.replicate 24 2) (List.replicate 24 3)) true = .ok v ∧ v.length = s.G.unionGamma.length ∧
      ∀ l, l < s.G.unionGamma.length → v.getD l 0 = ∑ JJ ∈ range 24, (2 * (E JJ 0).getD l 0 + 3 * (E JJ 1).getD l 0) := by
  obtain ⟨b, hb⟩ := exists_brentq
  obtain ⟨r, s, -, -, hS, hl, -, ⟨δ, A⟩, -⟩ := demo_solver isIter_toList hb
  obtain ⟨E, -, h⟩ := C22_superposition A.ready
  obtain ⟨v, h1, h2, h3⟩ := h (List.replicate 24 2) (List.replicate 24 3) (by simp [hl]) (by simp [hl])
  refine ⟨s, E, A.ready, hl, gamma_ne_nil A.setup hS.nonempty, v, h1, h2, fun l hl' => ?_⟩
  rw [h3 l hl', hl]
  refine sum_congr rfl fun JJ hJ => ?_
  rw [mem_range] at hJ
  rw [List.getD_replicate _ hJ, List.getD_replicate _ hJ]

/-- C33: both tables of the solver exist, so they are aligned and can be added -/
example : ∃ (s : PSolver) (m m' : Multivalue), s.src.homogeneous = false ∧
    mvExtendHomo s (.full (List.replicate 24 2) (List.replicate 24 3)) = .ok m ∧ mvExtendInhomo s = .ok m' ∧ m.nodes = m'.nodes := by
  obtain ⟨b, hb⟩ := exists_brentq
  obtain ⟨r, s, hr, -, hS, hl, hh, ⟨δ, A⟩, -⟩ := demo_solver isIter_toList hb
  obtain ⟨ε, hε⟩ := exists_nearExact s (.full (List.replicate 24 2) (List.replicate 24 3)) (u := radial 5 0)
    (by rw [radial_eq]; exact_mod_cast quadPoly_contDiff _ _ _ _ _ 6)
    (by rw [hS.env]; exact_mod_cast chooseBoundary_smooth hr 6) (by rw [hS.env]; exact (chooseBoundary_tame hr).regular)
  obtain ⟨m, hm, -⟩ := A.ents _ _ (by simp [hl]) (by simp [hl]) ε hε
  unfold mvExtendBoundary at hm
  rcases h1 : mvExtendHomo s (.full (List.replicate 24 2) (List.replicate 24 3)) with er | m1
  · rw [h1] at hm; cases hm
  rw [h1, ok_bind] at hm
  rcases h2 : mvExtendInhomo s with er | m2
  · rw [h2] at hm
    simp only [hh, Bool.or_false] at hm
    cases hm
  exact ⟨s, m1, m2, hh, h1, h2, (C33_aligned s _ m1 m2 h1 h2).1⟩

/-- C23: the hypotheses of `C23_residual`, `C23_fixed_point` (with an exact solution of the system) and `C23_run` -/
example : ∃ (iter : Iter) (s : PSolver) (extF : List ℂ) (f : Arr 33) (fit : Chebfit) (lstsq : Lstsq) (ap : Arr 31) (c0 c1 : List ℂ)
    (Q1 : List (List ℂ)) (rhs : List ℂ),
    Setup iter s.e 31 s.order s.k s.G ∧ Ready s ∧ s.bas = setupBasis 12 6 ∧ s.G.Mplus ≠ ∅ ∧ extendInhomoF s = .ok extF ∧
    setupF iter s = .ok f ∧ IsChebfit fit ∧ IsLstsq lstsq ∧ initApSolF 31 iter s = .ok ap ∧
    getVar iter s ap c0 = .ok (Q1, rhs) ∧ matVec s.G.unionGamma.length Q1 c1 = .ok rhs ∧
    ∃ ext, ∃ u : Arr 31, extendBoundary s (.full c0 c1) = .ok ext ∧ getTrace s.G.unionGamma u = .ok ext ∧ ∀ z ∈ ext, z = 5 := by
  obtain ⟨b, hb⟩ := exists_brentq
  obtain ⟨fit, hfit⟩ := exists_chebfit
  obtain ⟨lstsq, hlsq⟩ := exists_isLstsq
  obtain ⟨r, s, hr, -, hS, hl, hh, ⟨δ, A⟩, hE⟩ := demo_solver isIter_toList hb
  obtain ⟨ap, c0, c1, E⟩ := hE hfit
  obtain ⟨extF, hF⟩ := A.inhomo
  obtain ⟨f, hf, -⟩ := A.src
  obtain ⟨Q1, rhs, hv, hq⟩ := E.system
  obtain ⟨w, hw1, hw2⟩ := E.sol
  have S : Setup (fun _ s => s.toList) s.e 31 s.order s.k s.G := by rw [A.order]; exact A.setup
  refine ⟨fun _ s => s.toList, s, extF, f, fit, lstsq, ap, c0, c1, Q1, rhs, S, A.ready, hS.bas, hS.nonempty, hF, hf, hfit, hlsq, E.particular, hv, hq,
    _, w, E.ext, ?_, fun z hz => ?_⟩
  · rw [getTrace_ok s.G.unionGamma S.gamR w]
    congr 1
    exact List.map_congr_left fun nd hnd => hw2 nd ((S.core.gam nd).1 hnd).1
  · obtain ⟨nd, -, rfl⟩ := List.mem_map.1 hz
    simp [radial]

/-- C65: the grid of the solver has interior nodes; the error against a wrong answer, off by 2, is 2 -/
example : ∃ (s : PSolver), s.G.Mplus ≠ ∅ ∧ psConstructGrids (fun _ s => s.toList) s.e 4 = .ok s.G ∧
    evalError (n := 31) (fun _ s => s.toList) s.e s.G (some fun _ _ => 5) (fun _ _ => 3) = .ok (some 2) := by
  obtain ⟨b, hb⟩ := exists_brentq
  obtain ⟨r, s, hr, -, hS, hl, hh, ⟨δ, A⟩, hE⟩ := demo_solver isIter_toList hb
  obtain ⟨m, hm, -, x, y, -, he⟩ := ((C65_eval_error isIter_toList A.setup.hN A.setup.built (fun _ _ => 3)).2 fun _ _ => 5).2 hS.nonempty
  refine ⟨s, hS.nonempty, A.setup.built, ?_⟩
  rw [hm, he]
  norm_num

/-- a quadratic source: `1 + x + 2 y + x² + 3 x y + y²`; only the Cartesian methods matter here -/
noncomputable def quadSource : Source where
  homogeneous := false
  f x y := 1 + x + 2 * y + x ^ 2 + 3 * x * y + y ^ 2
  grad x y := .ok (1 + 2 * x + 3 * y, 2 + 3 * x + 2 * y)
  hess _ _ := .ok ((2, 3), (3, 2))
  fPolar _ _ := 0
  gradPolar _ _ := .ok (0, 0)
  hessPolar _ _ := .ok ((0, 0), (0, 0))
  dFth _ _ := 0
  d2Fth _ _ := 0
  dFr _ _ := 0
  d2Fr _ _ := 0
  d2Frth _ _ := 0

theorem quadSource_quadratic : IsQuadratic quadSource :=
  ⟨1, 1, 2, 1, 3, 1, fun x y => ⟨by simp [quadSource], by simp [quadSource], by simp [quadSource]⟩⟩

/-- C25, C26: the solver of the arc (angle `π/2`, 16 by 16 grid, scheme order 4) with that source: every node of `Kplus` outside has its foot
point, the array holds the source at every node of `Kplus`, and the right-hand side is that of the true source -/
example : ∃ s : PSolver, ∃ f : Arr 17, s.G.Mplus ≠ ∅ ∧ psConstructGrids (fun _ s => s.toList) s.e s.order = .ok s.G ∧ s.e.N = 15 + 1 ∧ s.order = 4 ∧
    s.src = quadSource ∧ (∀ q ∈ s.G.Kplus \ s.G.Mplus, ∃ p, extendFPoint s q = .ok (some p) ∧ p ≠ s.e.coord q ∧ p ≠ (0, 0)) ∧
    ((9, 9) : Node) ∈ s.G.Kplus \ s.G.Mplus ∧ setupF (fun _ s => s.toList) s = .ok f ∧
    (∀ q ∈ s.G.Kplus, fullNode f q.1 q.2 = quadSource.f (s.e.coord q).1 (s.e.coord q).2) ∧
    applyB f 8 7 = B4 (fun i j => quadSource.f (s.e.coord (i, j)).1 (s.e.coord (i, j)).2) 9 8 := by
  have hpi := pi_pos
  have hpl := pi_lt_d2
  obtain ⟨b, hb⟩ := exists_brentq
  obtain ⟨G, hG, -⟩ := C12_arc isIter_toList hb 16 4 (AD := 2 * π) (a := π / 2) (R := 2.3) (by positivity)
    (by positivity) (by linarith) (by norm_num)
  obtain ⟨m1, m2, m3, m4, m5⟩ := quarter_nodes hG
  obtain ⟨hg, -⟩ := psGrids_sets isIter_toList hG
  have hs := psInit_ok (k := 1) (eps := 1) (nc := 5) (nr := 5) (src := quadSource) hG
  set s : PSolver := ⟨mkEnv b 16 (2 * π) (π / 2) 2.3 (arcR 2.3), 4, 1, 1, setupBasis 5 5, G,
    buildCache (mkEnv b 16 (2 * π) (π / 2) 2.3 (arcR 2.3)) (G.allGamma 0), quadSource⟩ with hsdef
  have hP : ∀ q ∈ s.G.Kplus \ s.G.Mplus, ∃ p, extendFPoint s q = .ok (some p) ∧ p ≠ s.e.coord q ∧ p ≠ (0, 0) := by
    intro q hq
    refine C26_arc_point isIter_toList hb (by positivity) (by positivity) (by linarith) (by norm_num) ?_ hs ?_ hq
    · have h2 : √2 * √2 = 2 := Real.mul_self_sqrt (by norm_num)
      have h3 : √2 < 1.5 := by rw [Real.sqrt_lt' (by norm_num)]; norm_num
      have h4 : 0 < √2 := by positivity
      rw [show π / 2 / 2 = π / 4 by ring, sin_pi_div_four]
      have e : 2 * π / (16 : ℕ) * √2 * (1 + 1 / (√2 / 2)) = π / 8 * (√2 + 2) := by
        push_cast
        field_simp
        ring
      rw [e]
      nlinarith
    · intro p hp
      obtain ⟨-, -, -, -, c5, -⟩ := C09_partition isIter_toList 16 4 (mkEnv b 16 (2 * π) (π / 2) 2.3 (arcR 2.3)).interior
      have hg' := hg
      change G.toGrids = constructGrids _ 16 4 _ at hg'
      rw [← hg'] at c5
      exact C11_margin (mkEnv b 16 (2 * π) (π / 2) 2.3 (arcR 2.3)) (by show 0 < 16; norm_num) (by show 0 < 2 * π; positivity) (Rmax := 2.3)
        (fun t _ _ => le_rfl) (by show 0 < π / 2; positivity) (by show π / 2 ≤ 4 * π; linarith)
        (by
          show (2.3 : ℝ) < 2 * π / 2 - 2 * π / ((16 : ℕ) : ℝ)
          have := pi_gt_d2
          push_cast
          norm_num at this ⊢
          linarith) p ((c5 p).1 hp).2
  have hP' : ∀ q ∈ s.G.Kplus \ s.G.Mplus, ∃ p, extendFPoint s q = .ok (some p) ∧ p ≠ s.e.coord q := fun q hq => by
    obtain ⟨p, h1, h2, -⟩ := hP q hq
    exact ⟨p, h1, h2⟩
  obtain ⟨f, hf, hv⟩ := C26_quadratic (n := 15) (iter := fun _ s => s.toList) (s := s) isIter_toList rfl hG rfl quadSource_quadratic hP'
  obtain ⟨f', hf', hv'⟩ := C25_true_source (n := 15) (iter := fun _ s => s.toList) (s := s) isIter_toList rfl hG rfl quadSource_quadratic hP'
    (by show 2 < 4; norm_num)
  obtain rfl : f = f' := Except.ok.inj (hf.symm.trans hf')
  refine ⟨s, f, Finset.ne_empty_of_mem m1, hG, rfl, rfl, rfl, hP, ?_, hf, fun q hq => ?_, hv' 8 7 m1⟩
  · obtain ⟨-, -, -, -, -, c6⟩ := C09_partition isIter_toList 16 4 (mkEnv b 16 (2 * π) (π / 2) 2.3 (arcR 2.3)).interior
    change G.toGrids = constructGrids _ 16 4 _ at hg
    rw [← hg] at c6
    exact Finset.mem_sdiff.2 ⟨(c6 _).2 (Or.inr ⟨by norm_num, (9, 8), m1, by norm_num⟩), m5⟩
  · rw [hv q, if_pos hq]

end Pot
