import Verif.Model.Drawing
import Verif.Spec.Figure
import Verif.Props.Main
import Verif.Props.BasisScripts

/-! # Property C106: the figures of the domain -/

namespace Pot
open Real Spec

/-! ## The lines -/

theorem linspace_def (lo hi : ℝ) (n : ℕ) : linspace lo hi (n + 1) = (List.range (n + 1)).map fun i : ℕ => lo + i * ((hi - lo) / n) := by
  unfold linspace
  push_cast
  simp only [add_sub_cancel_right]

theorem map_range_reverse {α : Type} (f : ℕ → α) (n : ℕ) : ((List.range (n + 1)).map f).reverse = (List.range (n + 1)).map fun i => f (n - i) := by
  apply List.ext_getElem (by simp)
  intro i h1 h2
  simp only [List.length_map, List.length_range] at h2
  simp [List.getElem_reverse]

theorem curve_part (a R : ℝ) (r : ℝ → ℝ) : (getBoundarySampleBySid a R r 0 (linspace (a + 1 / 10 ^ 5) (2 * π - 1 / 10 ^ 5) (3 * 100))).map
    (fun p => (p.x, p.y)) = curveLine a r := by
  rw [show 3 * 100 = 299 + 1 from rfl, linspace_def]
  simp [getBoundarySampleBySid, curveLine, sampleAngle, polarPoint, Function.comp_def]

theorem axis_part (a R : ℝ) (r : ℝ → ℝ) : (getBoundarySampleBySid a R r 1 (linspace (1 / 10 ^ 5) R 100).reverse).map
    (fun p => (p.x, p.y)) = axisLine R := by
  rw [show 100 = 99 + 1 from rfl, linspace_def, map_range_reverse]
  simp [getBoundarySampleBySid, axisLine, sampleRadius, Function.comp_def]

theorem ray_part (a R : ℝ) (r : ℝ → ℝ) : (getBoundarySampleBySid a R r 2 (linspace (1 / 10 ^ 5) R 100)).map
    (fun p => (p.x, p.y)) = rayLine a R := by
  rw [show 100 = 99 + 1 from rfl, linspace_def]
  simp [getBoundarySampleBySid, rayLine, sampleRadius, polarPoint, Function.comp_def]

theorem plotGamma_eq (e : Env) : plotGamma e false = [.line (outline e.a e.R e.evalR)] := by
  have h : (getBoundarySample e.a e.R e.evalR 100).map (fun p => (p.x, p.y)) = outline e.a e.R e.evalR := by
    simp only [getBoundarySample, List.map_append]
    rw [curve_part, axis_part, ray_part]
    rfl
  simp only [plotGamma, getBoundarySampleExt, Bool.false_eq_true, if_false, List.take_succ_cons, List.take_zero, List.map_cons, List.map_nil, h]

theorem plotArc_eq (e : Env) : plotArc e = [.line (arcLine e.a e.R)] := by
  unfold plotArc arcLine
  rw [show 512 = 511 + 1 from rfl, linspace_def]
  simp [polarPoint, Function.comp_def]

theorem sid_const (a R : ℝ) (r : ℝ → ℝ) {sid : ℕ} (l : List ℝ) : ∀ p ∈ getBoundarySampleBySid a R r sid l, p.sid = sid := by
  intro p hp
  unfold getBoundarySampleBySid at hp
  split_ifs at hp with h1 h2 h3
  all_goals simp only [List.mem_map, List.not_mem_nil] at hp
  all_goals obtain ⟨x, -, rfl⟩ := hp; rfl

theorem filter_sid (a R : ℝ) (r : ℝ → ℝ) (sid sid' : ℕ) (l : List ℝ) : (getBoundarySampleBySid a R r sid l).filter (fun p => p.sid = sid') =
    if sid = sid' then getBoundarySampleBySid a R r sid l else [] := by
  split_ifs with h
  · rw [List.filter_eq_self]
    intro p hp
    simpa using (sid_const a R r l p hp).trans h
  · rw [List.filter_eq_nil_iff]
    intro p hp
    rw [sid_const a R r l p hp]
    simpa using h

theorem plotGammaSid_eq (e : Env) : plotGammaSid e 0 = [.line (curveLine e.a e.evalR)] ∧ plotGammaSid e 1 = [.line (axisLine e.R)] ∧
    plotGammaSid e 2 = [.line (rayLine e.a e.R)] := by
  simp only [plotGammaSid, getBoundarySample, List.filter_append, filter_sid, List.map_append]
  simp only [if_true, zero_ne_one, one_ne_zero, OfNat.ofNat_ne_zero, OfNat.zero_ne_ofNat, OfNat.ofNat_ne_one, OfNat.one_ne_ofNat, if_false,
    List.map_nil, List.append_nil, List.nil_append]
  rw [curve_part, axis_part, ray_part]
  exact ⟨rfl, rfl, rfl⟩

/-! ## The marks -/

theorem shows_nodes {e : Env} (hAD : e.AD ≠ 0) (hN : e.N ≠ 0) {l : List Node} (hl : l.Nodup) {S : Set (ℤ × ℤ)} (h : ∀ nd, nd ∈ l ↔ nd ∈ S) :
    Shows (nodesToPlottable e l) (nodePts e.AD e.N S) := by
  have hc : ∀ nd, e.coord nd = cartPt e.AD e.N nd.1 nd.2 := fun _ => rfl
  constructor
  · unfold nodesToPlottable
    refine List.Nodup.map (fun p q hpq => ?_) hl
    rw [hc, hc] at hpq
    exact Prod.ext_iff.2 (cartPt_inj hAD (Nat.pos_of_ne_zero hN) hpq)
  · intro p
    simp only [nodesToPlottable, List.mem_map, nodePts, Set.mem_ofPred_eq, h, hc]
    exact ⟨fun ⟨nd, h1, h2⟩ => ⟨nd, h1, h2.symm⟩, fun ⟨nd, h1, h2⟩ => ⟨nd, h1, h2.symm⟩⟩

/-! ## The grids of a constructed solver -/

theorem mainBuild_grid {iter : Iter} {b : Brentq} {pr : RunProblem} {r : ℝ → ℝ} {order n : ℕ} {size : ℤ → ℕ × ℕ} {m : MainSolver}
    (h : mainBuild iter b pr r order size ((n : ℤ) + 1) = .ok m) :
    psConstructGrids iter (mkEnv b (n + 1) probAD probA probR r) order = .ok m.s.G := by
  have h' : mainBuild iter b pr r order size (Int.ofNat (n + 1)) = .ok m := h
  unfold mainBuild at h'
  simp only at h'
  rcases hG : psConstructGrids iter (mkEnv b (n + 1) probAD probA probR r) order with er | G
  · rw [psInit, hG] at h'
    cases h'
  · rw [psInit_ok hG, ok_bind] at h'
    split at h'
    · cases h'
    · rcases hap : initApSolF n iter ⟨mkEnv b (n + 1) probAD probA probR r, order, pr.k, 1 / 1000,
        setupBasis (size (n + 1)).1 (size (n + 1)).2, G, buildCache (mkEnv b (n + 1) probAD probA probR r) (G.allGamma 0),
        pr.src.getD { zeroSource with homogeneous := false }⟩ with er | ap
      · rw [hap] at h'
        cases h'
      · rw [hap] at h'
        cases h'
        rfl

/-- the sets of the grids in the plane -/
structure DomainSets (r : ℝ → ℝ) (N : ℕ) (G : PsGrids) : Prop where
  mplus : ∀ nd, nd ∈ G.Mplus ↔ nd ∈ Interior probAD probA r N
  mminus : ∀ nd, nd ∈ G.Mminus ↔ nd ∈ Exterior probAD probA r N
  kplus : ∀ nd, nd ∈ G.Kplus ↔ nd ∈ besideOrIn (Interior probAD probA r N)
  nplus : ∀ nd, nd ∈ G.Nplus ↔ nd ∈ aroundOrIn (Interior probAD probA r N)
  nminus : ∀ nd, nd ∈ G.Nminus ↔ nd ∈ aroundOrIn (Exterior probAD probA r N)
  gamma : ∀ nd, nd ∈ G.unionGamma ↔ nd ∈ aroundOrIn (Interior probAD probA r N) ∩ aroundOrIn (Exterior probAD probA r N)

theorem domainSets {iter : Iter} (hit : IsIter iter) {b : Brentq} {N : ℕ} {r : ℝ → ℝ} (T : Tame r) {G : PsGrids}
    (hG : psConstructGrids iter (mkEnv b N probAD probA probR r) 4 = .ok G) : DomainSets r N G := by
  obtain ⟨g0, g1, g2, -, g4⟩ := psGrids_sets hit hG
  have hp := shipped_interior hit T hG
  obtain ⟨-, m0, -, -, m1, m2⟩ := C09_partition hit N 4 (mkEnv b N probAD probA probR r).interior
  have e1 : constructGrids iter N 4 (mkEnv b N probAD probA probR r).interior = G.toGrids := g0.symm
  rw [e1] at m0 m1 m2
  have hm : ∀ nd, nd ∈ G.Mminus ↔ nd ∈ Exterior probAD probA r N := by
    intro nd
    have hM : G.Mminus = G.M0 \ G.Mplus := by
      show G.toGrids.Mminus = G.toGrids.M0 \ G.toGrids.Mplus
      rw [g0]; rfl
    rw [hM, Finset.mem_sdiff, hp, show nd = (nd.1, nd.2) from rfl, m0]
    unfold Interior Exterior
    simp only [Set.mem_ofPred_eq]
    constructor
    · rintro ⟨⟨a1, a2, a3, a4⟩, h⟩
      exact ⟨a1, by omega, a3, by omega, fun hd => h ⟨a1, by omega, a3, by omega, hd⟩⟩
    · rintro ⟨a1, a2, a3, a4, h⟩
      exact ⟨⟨a1, by omega, a3, by omega⟩, fun hd => h hd.2.2.2.2⟩
  have hr : ∀ p q : ℤ × ℤ, Reach 4 p q ↔ |q.1 - p.1| ≤ 1 ∧ |q.2 - p.2| ≤ 1 := by
    intro p q
    unfold Reach
    exact ⟨fun h => ⟨h.1, h.2.1⟩, fun h => ⟨h.1, h.2, fun h' => absurd h' (by norm_num)⟩⟩
  have hn : ∀ nd, nd ∈ G.Nplus ↔ nd ∈ aroundOrIn (Interior probAD probA r N) := by
    intro nd
    simp only [g1, hr, hp, aroundOrIn, Set.mem_ofPred_eq]
  have hn' : ∀ nd, nd ∈ G.Nminus ↔ nd ∈ aroundOrIn (Exterior probAD probA r N) := by
    intro nd
    simp only [g2, hr, hm, aroundOrIn, Set.mem_ofPred_eq]
  refine ⟨hp, hm, fun nd => ?_, hn, hn', fun nd => ?_⟩
  · rw [m2]
    simp only [hp, besideOrIn, Set.mem_ofPred_eq]
    constructor
    · rintro (h | ⟨-, h⟩)
      exacts [.inl h, .inr h]
    · rintro (h | h)
      exacts [.inl h, .inr ⟨by norm_num, h⟩]
  · rw [g4, hn, hn', Set.mem_inter_iff]

/-! ## plot_domain.py -/

/-- **C106** plot_domain.py on every shipped boundary and every size `N` for which `get_n_basis` returns, for every hash order: the
program ends without an exception and draws, according to the method,
* `m`: the outline, the grid points of the domain, and the other inner grid points of the square;
* `k`: the outline, the grid points of the domain together with those one step from one of them (and an empty list);
* `int`, `ext`: the outline, the square, the grid points inside (outside), and these together with their eight neighbours;
* `gamma`: the square, the outline, and for each of the three sides the grid points that are around an inside and around an outside
  point and not further than `h√2` from this side;
* `pert`: the arc and the outline; `aux`: the square and the outline. -/
theorem C106_figure {iter : Iter} (hit : IsIter iter) {b : Brentq} (hb : BrentqSpec b) {boundary : String} {r : ℝ → ℝ}
    (hname : chooseBoundary boundary = .ok r) {N : ℕ} (hw : Window N) :
    ∃ fuel0, ∀ fuel, fuel0 ≤ fuel →
      let pic := fun method => plotDomain iter b fuel method boundary N
      let Γ := Drawn.line (outline (π / 4) 2.3 r)
      let In := Interior (2 * π) (π / 4) r N
      let Out := Exterior (2 * π) (π / 4) r N
      let pts := nodePts (2 * π) N
      (∃ P Q, pic "m" = some (.ok [Γ, .marks "$\\mathbb{M}^+$" P, .marks "$\\mathbb{M}^-$" Q]) ∧ Shows P (pts In) ∧ Shows Q (pts Out)) ∧
      (∃ P, pic "k" = some (.ok [Γ, .marks "$\\mathbb{K}^+$" P, .marks "" []]) ∧ Shows P (pts (besideOrIn In))) ∧
      (∃ P Q, pic "int" = some (.ok [Γ, .line (squareLine (2 * π)), .marks "$\\mathbb{M}^+$" P, .marks "$\\mathbb{N}^+$" Q]) ∧
        Shows P (pts In) ∧ Shows Q (pts (aroundOrIn In))) ∧
      (∃ P Q, pic "ext" = some (.ok [Γ, .line (squareLine (2 * π)), .marks "$\\mathbb{M}^-$" P, .marks "$\\mathbb{N}^-$" Q]) ∧
        Shows P (pts Out) ∧ Shows Q (pts (aroundOrIn Out))) ∧
      (∃ P : Fin 3 → List (ℝ × ℝ), pic "gamma" = some (.ok [.line (squareLine (2 * π)), Γ, .marks "$\\gamma_1$" (P 2),
          .marks "$\\gamma_2$" (P 1), .marks "$\\gamma_3$" (P 0)]) ∧
        (∀ sid, Shows (P sid) {p | p ∈ pts (aroundOrIn In ∩ aroundOrIn Out) ∧
          ∃ d, IsDistTo p (Segment (π / 4) 2.3 r sid) d ∧ d ≤ 2 * π / N * √2}) ∧
        ∀ p ∈ pts (aroundOrIn In ∩ aroundOrIn Out), ∃ sid, p ∈ P sid) ∧
      pic "pert" = some (.ok [.line (arcLine (π / 4) 2.3), Γ]) ∧
      pic "aux" = some (.ok [.line (squareLine (2 * π)), Γ]) := by
  have T := chooseBoundary_tame hname
  have h16 : (16 : ℤ) ≤ N := hw.ge
  obtain ⟨fuel0, size, hsize⟩ := ((C59_shipped (N : ℤ)).2.1).2 hw
  refine ⟨fuel0, fun fuel hf => ?_⟩
  have hsz : getNBasis (some smoothSine.nBasis) defaultNBasis fuel N = some size := nBasis_mono hf hsize
  obtain ⟨n, rfl⟩ : ∃ n : ℕ, N = n + 1 := ⟨N - 1, by omega⟩
  obtain ⟨hp, hq⟩ := smooth_sizes hsz
  obtain ⟨fit, hfit⟩ := exists_chebfit
  obtain ⟨lstsq, hlsq⟩ := exists_isLstsq
  obtain ⟨m, -, -, hbuild, -⟩ := smooth_pass hit hb hfit hlsq (order := 4) (.inr rfl) (n := n) (by omega) hname
    (name := "smooth-sine") (ex := sineExpected smoothK) (φ := fun _ _ => 0) (src := zeroSource) (fun _ _ => rfl)
    (.inl ⟨rfl, by decide⟩) (fun _ _ _ => rfl) (fun h => absurd h (by decide)) (nB := smoothNBasis) (m1 := none)
    (size := fun _ => size) hp hq
  have hbuild : mainBuild iter b smoothSine r 4 (fun _ => size) ((n : ℤ) + 1) = .ok m := hbuild
  have hG := mainBuild_grid hbuild
  have he := (mainBuild_parts hbuild).2.1
  have hR : probR = 2.3 := by unfold probR; norm_num
  set e := mkEnv b (n + 1) probAD probA probR r with hedef
  have hpic : ∀ method, plotDomain iter b fuel method boundary ((n + 1 : ℕ) : ℤ) = some (.ok (domainFigure iter e m.s.G method)) := by
    intro method
    unfold plotDomain
    rw [hname]
    simp only [hsz]
    push_cast
    show some ((mainBuild iter b smoothSine r 4 (fun _ => size) ((n : ℤ) + 1)) >>= _) = _
    rw [hbuild, ok_bind, he]
    rfl
  have D := domainSets hit T hG
  have hAD : e.AD ≠ 0 := by show probAD ≠ 0; unfold probAD; positivity
  have hN : e.N ≠ 0 := by show n + 1 ≠ 0; omega
  have hL : plotGamma e false = [.line (outline (π / 4) 2.3 r)] := by
    rw [plotGamma_eq]
    show [Drawn.line (outline probA probR r)] = _
    rw [hR]; rfl
  have hS : plotAux e = [.line (squareLine (2 * π))] := rfl
  have hA : plotArc e = [.line (arcLine (π / 4) 2.3)] := by
    rw [plotArc_eq]
    show [Drawn.line (arcLine probA probR)] = _
    rw [hR]; rfl
  have shows : ∀ (t : ℕ) (s : Finset Node) {S : Set (ℤ × ℤ)}, (∀ nd, nd ∈ s ↔ nd ∈ S) →
      Shows (nodesToPlottable e (iter t s)) (nodePts (2 * π) (n + 1) S) := by
    intro t s S h
    exact shows_nodes hAD hN (hit t s).1 fun nd => ((hit t s).2 nd).trans (h nd)
  simp only [hpic]
  refine ⟨⟨_, _, ?_, shows 20 _ D.mplus, shows 21 _ D.mminus⟩, ⟨_, ?_, shows 22 _ D.kplus⟩, ⟨_, _, ?_, shows 23 _ D.mplus, shows 24 _ D.nplus⟩,
    ⟨_, _, ?_, shows 25 _ D.mminus, shows 26 _ D.nminus⟩,
    ⟨fun sid => nodesToPlottable e (m.s.G.allGamma sid), ?_, fun sid => ?_, fun p hp' => ?_⟩, ?_, ?_⟩
  · simp only [domainFigure, plotAllMK, hL]; rfl
  · simp only [domainFigure, plotAllMK, hL]; rfl
  · simp only [domainFigure, plotIntExt, hL, hS]; rfl
  · simp only [domainFigure, plotIntExt, hL, hS]; rfl
  · simp only [domainFigure, plotGammaNodes, hL, hS]; rfl
  · obtain ⟨G', hG', hd⟩ := C12_shipped hit hb (N := n + 1) (by omega) 4 hname
    obtain rfl : m.s.G = G' := Except.ok.inj (hG.symm.trans hG')
    have ha : 0 < e.a := by show 0 < probA; unfold probA; positivity
    have ha' : e.a < π := by show probA < π; unfold probA; linarith [pi_pos]
    obtain ⟨-, hall⟩ := C12_all_gamma hit (e := e) (by show 0 ≤ probR; rw [hR]; norm_num) ha ha' 4
    obtain ⟨h1, h2, -⟩ := hall _ hG
    have key : ∀ nd, nd ∈ m.s.G.allGamma sid ↔ nd ∈ {nd | nd ∈ m.s.G.unionGamma ∧
        ∃ d, IsDistTo (cartPt (2 * π) (n + 1) nd.1 nd.2) (Segment (π / 4) 2.3 r sid) d ∧ d ≤ 2 * π / ((n + 1 : ℕ) : ℝ) * √2} := by
      intro nd
      rw [Set.mem_ofPred_eq]
      constructor
      · intro h
        have hu := (h1 sid).2 nd h
        obtain ⟨d, d1, d2⟩ := hd sid nd hu
        rw [hR] at d1
        exact ⟨hu, d, d1, d2.1 h⟩
      · rintro ⟨hu, d, d1, d2⟩
        obtain ⟨d', d1', d2'⟩ := hd sid nd hu
        rw [hR] at d1'
        refine d2'.2 (le_trans ?_ d2)
        obtain ⟨q, hq1, hq2⟩ := d1.1
        rw [hq2]
        exact d1'.2 q hq1
    obtain ⟨k1, k2⟩ := shows_nodes hAD hN (h1 sid).1 key
    refine ⟨k1, fun p => (k2 p).trans ?_⟩
    simp only [nodePts, Set.mem_ofPred_eq, D.gamma]
    constructor
    · rintro ⟨nd, ⟨h1, h2⟩, rfl⟩
      exact ⟨⟨nd, h1, rfl⟩, h2⟩
    · rintro ⟨⟨nd, h1, rfl⟩, h2⟩
      exact ⟨nd, ⟨h1, h2⟩, rfl⟩
  · have ha : 0 < e.a := by show 0 < probA; unfold probA; positivity
    have ha' : e.a < π := by show probA < π; unfold probA; linarith [pi_pos]
    obtain ⟨-, hall⟩ := C12_all_gamma hit (e := e) (by show 0 ≤ probR; rw [hR]; norm_num) ha ha' 4
    obtain ⟨-, h2, -⟩ := hall _ hG
    obtain ⟨nd, h3, rfl⟩ := hp'
    obtain ⟨sid, h4⟩ := h2 nd ((D.gamma nd).2 h3)
    exact ⟨sid, List.mem_map.2 ⟨nd, h4, rfl⟩⟩
  · simp only [domainFigure, hL, hA]; rfl
  · simp only [domainFigure, hL, hS]; rfl

/-- **C106** for every other size the program never gets to a figure; a boundary that is not in the table is a `KeyError` -/
theorem C106_endless (iter : Iter) (b : Brentq) (fuel : ℕ) (method : String) {boundary : String} {N : ℤ} :
    (∀ r, chooseBoundary boundary = .ok r → ¬ Window N → plotDomain iter b fuel method boundary N = none) ∧
    (boundary ∉ ["arc", "outer-sine", "inner-sine", "sine7", "cubic"] →
      plotDomain iter b fuel method boundary N = some (.error .keyError)) := by
  constructor
  · intro r hname hw
    unfold plotDomain
    rw [hname]
    have hnone : getNBasis (some smoothSine.nBasis) defaultNBasis fuel N = none := by
      by_contra hne
      obtain ⟨v, hv⟩ := Option.ne_none_iff_exists'.1 hne
      exact hw ((C59_shipped N).2.1.1 ⟨fuel, v, hv⟩)
    simp only [hnone]
    rfl
  · intro h
    unfold plotDomain
    rw [(C77_names boundary).2 h]

/-! ## How well the outline shows the boundary -/

theorem chord_sq (u v s t : ℝ) : dist2 (polarPoint u s) (polarPoint v t) = √((u - v) ^ 2 + 2 * (u * v) * (1 - cos (s - t))) := by
  unfold dist2 polarPoint
  congr 1
  rw [cos_sub]
  linear_combination u ^ 2 * sin_sq_add_cos_sq s + v ^ 2 * sin_sq_add_cos_sq t

theorem chord_le {u v s t c : ℝ} (hu : 0 ≤ u) (hv : 0 ≤ v) (hc : 0 ≤ c) (h : (u - v) ^ 2 + u * v * (s - t) ^ 2 ≤ c ^ 2) :
    dist2 (polarPoint u s) (polarPoint v t) ≤ c := by
  rw [chord_sq]
  apply Real.sqrt_le_iff.2 ⟨hc, le_trans ?_ h⟩
  have := Real.one_sub_sq_div_two_le_cos (x := s - t)
  have huv := mul_nonneg hu hv
  nlinarith

/-- a number between the ends is near one of `n + 1` equispaced ones -/
theorem near_sample {lo hi x : ℝ} {n : ℕ} (hn : 0 < n) (hlt : lo < hi) (h1 : lo ≤ x) (h2 : x ≤ hi) :
    ∃ i : ℕ, i ≤ n ∧ |x - (lo + i * ((hi - lo) / n))| ≤ (hi - lo) / n / 2 := by
  have hn' : (0:ℝ) < n := by exact_mod_cast hn
  set δ := (hi - lo) / n with hδ
  have hδ0 : 0 < δ := div_pos (by linarith) hn'
  have hnδ : n * δ = hi - lo := by rw [hδ]; field_simp
  set y := (x - lo) / δ + 1 / 2 with hy
  have hx : x = lo + (y - 1 / 2) * δ := by rw [hy]; field_simp; ring
  have hy0 : 0 ≤ y := by have : 0 ≤ (x - lo) / δ := div_nonneg (by linarith) hδ0.le; linarith
  have hyn : y ≤ n + 1 / 2 := by
    have : (x - lo) / δ ≤ n := by rw [div_le_iff₀ hδ0]; linarith
    linarith
  have f1 := Nat.floor_le hy0
  have f2 := Nat.lt_floor_add_one y
  refine ⟨⌊y⌋₊, ?_, ?_⟩
  · have : ((⌊y⌋₊ : ℕ) : ℝ) < n + 1 := by linarith
    exact_mod_cast Nat.lt_succ_iff.1 (by exact_mod_cast this)
  · have e : x - (lo + (⌊y⌋₊ : ℝ) * δ) = (y - ⌊y⌋₊ - 1 / 2) * δ := by rw [hx]; ring
    rw [e, abs_mul, abs_of_pos hδ0]
    have : |y - ⌊y⌋₊ - 1 / 2| ≤ 1 / 2 := by rw [abs_le]; constructor <;> linarith
    nlinarith

/-- the samples of a side are nowhere further than 0.0117 apart from a point of it -/
theorem near_radius {t : ℝ} (h1 : 0 ≤ t) (h2 : t ≤ 2.3) : ∃ i ≤ 99, |t - sampleRadius 2.3 i| ≤ 0.0117 := by
  obtain ⟨i, hi, h⟩ := near_sample (lo := 1 / 10 ^ 5) (hi := 2.3) (x := max t (1 / 10 ^ 5)) (n := 99) (by norm_num) (by norm_num)
    (le_max_right _ _) (max_le h2 (by norm_num))
  refine ⟨i, hi, ?_⟩
  unfold sampleRadius
  have h3 : |t - max t (1 / 10 ^ 5)| ≤ 1 / 10 ^ 5 := by
    rcases le_total t (1 / 10 ^ 5) with h4 | h4
    · rw [max_eq_right h4, abs_le]; constructor <;> linarith
    · rw [max_eq_left h4]; norm_num
  push_cast at h
  generalize max t (1 / 10 ^ 5) = m at h h3
  rw [abs_le] at *
  norm_num at h h3 ⊢
  constructor <;> linarith [h.1, h.2, h3.1, h3.2]

/-- the angles of the samples are nowhere further than 0.0093 apart from an angle of the curve -/
theorem near_sampleAngle {t : ℝ} (h1 : π / 4 ≤ t) (h2 : t ≤ 2 * π) : ∃ i ≤ 299, |t - sampleAngle (π / 4) i| ≤ 0.0093 := by
  have p1 := pi_gt_d4
  have p2 := pi_lt_d4
  have hlt : π / 4 + 1 / 10 ^ 5 < 2 * π - 1 / 10 ^ 5 := by norm_num at *; linarith
  obtain ⟨i, hi, h⟩ := near_sample (lo := π / 4 + 1 / 10 ^ 5) (hi := 2 * π - 1 / 10 ^ 5)
    (x := max (min t (2 * π - 1 / 10 ^ 5)) (π / 4 + 1 / 10 ^ 5)) (n := 299) (by norm_num) hlt
    (le_max_right _ _) (max_le (min_le_right _ _) hlt.le)
  refine ⟨i, hi, ?_⟩
  unfold sampleAngle
  have h3 : |t - max (min t (2 * π - 1 / 10 ^ 5)) (π / 4 + 1 / 10 ^ 5)| ≤ 1 / 10 ^ 5 := by
    rcases le_total t (2 * π - 1 / 10 ^ 5) with h4 | h4
    · rw [min_eq_left h4]
      rcases le_total t (π / 4 + 1 / 10 ^ 5) with h5 | h5
      · rw [max_eq_right h5, abs_le]; constructor <;> linarith
      · rw [max_eq_left h5]; norm_num
    · rw [min_eq_right h4, max_eq_left hlt.le, abs_le]; constructor <;> linarith
  push_cast at h
  have hs : (2 * π - 1 / 10 ^ 5 - (π / 4 + 1 / 10 ^ 5)) / 299 / 2 ≤ 0.0092 := by norm_num at *; linarith
  have h := h.trans hs
  generalize max (min t (2 * π - 1 / 10 ^ 5)) (π / 4 + 1 / 10 ^ 5) = m at h h3
  rw [abs_le] at *
  norm_num at h h3 ⊢
  constructor <;> linarith [h.1, h.2, h3.1, h3.2]

theorem sampleAngle_mem {a : ℝ} (ha : a + 2 / 10 ^ 5 ≤ 2 * π) {i : ℕ} (hi : i ≤ 299) :
    a ≤ sampleAngle a i ∧ sampleAngle a i ≤ 2 * π := by
  have hi' : (i : ℝ) ≤ 299 := by exact_mod_cast hi
  have hi0 : (0:ℝ) ≤ i := Nat.cast_nonneg i
  unfold sampleAngle
  set δ := (2 * π - 1 / 10 ^ 5 - (a + 1 / 10 ^ 5)) / 299 with hδ
  have hδ0 : 0 ≤ δ := div_nonneg (by norm_num at *; linarith) (by norm_num)
  have e : 299 * δ = 2 * π - 1 / 10 ^ 5 - (a + 1 / 10 ^ 5) := by rw [hδ]; ring
  have := mul_nonneg hi0 hδ0
  have := mul_le_mul_of_nonneg_right hi' hδ0
  norm_num at *
  constructor <;> linarith

theorem sampleRadius_mem {i : ℕ} (hi : i ≤ 99) : 0 ≤ sampleRadius 2.3 i ∧ sampleRadius 2.3 i ≤ 2.3 := by
  have hi' : (i : ℝ) ≤ 99 := by exact_mod_cast hi
  have hi0 : (0:ℝ) ≤ i := Nat.cast_nonneg i
  unfold sampleRadius
  constructor
  · positivity
  · norm_num; linarith

/-- **C106** on every shipped boundary the 500 points of the outline lie on the boundary of the domain, no point of the boundary is
further than 0.025 from all of them, and the outline stays inside of the square and of the axes from -4 to 4. -/
theorem C106_outline {boundary : String} {r : ℝ → ℝ} (hname : chooseBoundary boundary = .ok r) :
    (outline (π / 4) 2.3 r).length = 500 ∧
    (∀ p ∈ outline (π / 4) 2.3 r, ∃ sid, p ∈ Segment (π / 4) 2.3 r sid) ∧
    (∀ sid, ∀ q ∈ Segment (π / 4) 2.3 r sid, ∃ p ∈ outline (π / 4) 2.3 r, dist2 q p ≤ 0.025) ∧
    (∀ p ∈ outline (π / 4) 2.3 r, |p.1| ≤ 2.45 ∧ |p.2| ≤ 2.45) ∧ (2.45 : ℝ) < 2 * π / 2 ∧ 2 * π / 2 < 4 := by
  have T := chooseBoundary_tame hname
  have p1 := pi_gt_d4
  have p2 := pi_lt_d4
  have hpi := pi_pos
  have hang : π / 4 + 2 / 10 ^ 5 ≤ 2 * π := by norm_num at *; linarith
  have hlo : ∀ t, π / 4 ≤ t → t ≤ 2 * π → 0 ≤ r t := fun t h1 h2 => by
    have := T.lo t (by linarith) (by linarith); norm_num at this; linarith
  have on : ∀ p ∈ outline (π / 4) 2.3 r, ∃ sid, p ∈ Segment (π / 4) 2.3 r sid := by
    intro p hp
    simp only [outline, curveLine, axisLine, rayLine, List.mem_append, List.mem_map, List.mem_range] at hp
    rcases hp with (⟨i, hi, rfl⟩ | ⟨i, hi, rfl⟩) | ⟨i, hi, rfl⟩
    · obtain ⟨h1, h2⟩ := sampleAngle_mem hang (i := i) (by omega)
      exact ⟨0, _, h1, h2, rfl⟩
    · obtain ⟨h1, h2⟩ := sampleRadius_mem (i := 99 - i) (by omega)
      exact ⟨1, _, h1, h2, rfl⟩
    · obtain ⟨h1, h2⟩ := sampleRadius_mem (i := i) (by omega)
      exact ⟨2, _, h1, h2, rfl⟩
  refine ⟨by simp [outline, curveLine, axisLine, rayLine], on, ?_, ?_, by norm_num at *; linarith, by norm_num at *; linarith⟩
  · intro sid q hq
    fin_cases sid
    · obtain ⟨t, h1, h2, rfl⟩ := hq
      obtain ⟨i, hi, hd⟩ := near_sampleAngle h1 h2
      obtain ⟨h3, h4⟩ := sampleAngle_mem hang hi
      refine ⟨polarPoint (r (sampleAngle (π / 4) i)) (sampleAngle (π / 4) i), ?_, ?_⟩
      · simp only [outline, curveLine, List.mem_append, List.mem_map, List.mem_range]
        exact .inl (.inl ⟨i, by omega, rfl⟩)
      · set θ := sampleAngle (π / 4) i
        have hl := T.lipschitz (x := t) (y := θ) (by linarith) (by linarith) (by linarith) (by linarith)
        refine chord_le (hlo t h1 h2) (hlo θ h3 h4) (by norm_num) ?_
        have m1 := T.max t h1 h2
        have m2 := T.max θ h3 h4
        have e1 : (r t - r θ) ^ 2 ≤ (0.29 * 0.0093) ^ 2 := by
          rw [← sq_abs]
          refine pow_le_pow_left₀ (abs_nonneg _) ?_ 2
          rw [abs_sub_comm (r t)]
          rw [abs_sub_comm t] at hd
          exact hl.trans (mul_le_mul_of_nonneg_left hd (by norm_num))
        have e2 : (t - θ) ^ 2 ≤ 0.0093 ^ 2 := by
          rw [← sq_abs]
          exact pow_le_pow_left₀ (abs_nonneg _) hd 2
        have e3 : r t * r θ ≤ 2.45 * 2.45 := mul_le_mul m1 m2 (hlo θ h3 h4) (by norm_num)
        have e4 : r t * r θ * (t - θ) ^ 2 ≤ 2.45 * 2.45 * 0.0093 ^ 2 := mul_le_mul e3 e2 (sq_nonneg _) (by norm_num)
        norm_num at *
        linarith
    · obtain ⟨t, h1, h2, rfl⟩ := hq
      obtain ⟨i, hi, hd⟩ := near_radius h1 h2
      refine ⟨(sampleRadius 2.3 i, 0), ?_, ?_⟩
      · simp only [outline, axisLine, List.mem_append, List.mem_map, List.mem_range]
        exact .inl (.inr ⟨99 - i, by omega, by rw [show 99 - (99 - i) = i by omega]⟩)
      · unfold dist2
        simp only [sub_self, ne_eq, OfNat.ofNat_ne_zero, not_false_eq_true, zero_pow, add_zero]
        rw [Real.sqrt_sq_eq_abs]
        exact hd.trans (by norm_num)
    · obtain ⟨t, h1, h2, rfl⟩ := hq
      obtain ⟨i, hi, hd⟩ := near_radius h1 h2
      refine ⟨polarPoint (sampleRadius 2.3 i) (π / 4), ?_, ?_⟩
      · simp only [outline, rayLine, List.mem_append, List.mem_map, List.mem_range]
        exact .inr ⟨i, by omega, rfl⟩
      · rw [chord_sq]
        simp only [sub_self, cos_zero, mul_zero, add_zero]
        rw [Real.sqrt_sq_eq_abs]
        exact hd.trans (by norm_num)
  · have key : ∀ ρ t : ℝ, 0 ≤ ρ → ρ ≤ 2.45 → |(polarPoint ρ t).1| ≤ 2.45 ∧ |(polarPoint ρ t).2| ≤ 2.45 := by
      intro ρ t h1 h2
      simp only [polarPoint, abs_mul, abs_of_nonneg h1]
      exact ⟨(mul_le_of_le_one_right h1 (abs_cos_le_one t)).trans h2, (mul_le_of_le_one_right h1 (abs_sin_le_one t)).trans h2⟩
    intro p hp
    obtain ⟨sid, hs⟩ := on p hp
    fin_cases sid
    · obtain ⟨t, h1, h2, rfl⟩ := hs
      exact key _ _ (hlo t h1 h2) (T.max t h1 h2)
    · obtain ⟨t, h1, h2, rfl⟩ := hs
      simp only [abs_zero, abs_of_nonneg h1]
      norm_num at *
      linarith
    · obtain ⟨t, h1, h2, rfl⟩ := hs
      exact key _ _ h1 (by norm_num at *; linarith)

/-! ## plot_domain2.py -/

/-- a solver on a domain whose outer curve keeps away from the square is made, unless the assertion of the grid construction fails -/
theorem domainSolver_cases {iter : Iter} (hit : IsIter iter) (b : Brentq) {a : ℝ} (ab : ℝ) {r : ℝ → ℝ} (ha : 0 < a) (haπ : a < π)
    (hmax : ∀ t, a ≤ t → t ≤ 2 * π → r t ≤ 2.45) :
    domainSolver iter b a ab r = .error .assertionError ∨
      domainSolver iter b a ab r = .ok ⟨16, probAD, a, probR, r, getBoundaryCoord b ab r⟩ := by
  set e : Env := ⟨16, probAD, a, probR, r, getBoundaryCoord b ab r⟩ with he
  have hR : (0:ℝ) ≤ e.R := by show 0 ≤ probR; unfold probR; norm_num
  have hpi := pi_pos
  obtain ⟨c1, -⟩ := C12_all_gamma hit (e := e) hR ha haπ 4
  rcases hG : psConstructGrids iter e 4 with er | G
  · left
    rw [c1 er hG] at hG
    unfold domainSolver psInit
    simp only []
    rw [← he, hG]
    rfl
  · right
    have S : Setup iter e 15 4 smoothK G := by
      refine ⟨hit, rfl, .inr rfl, by show probAD ≠ 0; unfold probAD; positivity, (C78_shipped 15 (.inr rfl)).1, hG, fun p hp => ?_⟩
      rw [(psGrids_sets hit hG).1] at hp
      exact C11_margin e (by show 0 < 16; norm_num) (by show 0 < probAD; unfold probAD; positivity) hmax ha
        (by show a ≤ 4 * π; linarith) (shipped_margin (le_refl 16)) p ((mem_Mplus hit _ _ _ _).1 hp).2
    unfold domainSolver
    rw [← he, psInit_ok hG, ok_bind]
    obtain ⟨f, hf, -⟩ := setupF_zero hit S (s := ⟨e, 4, smoothK, 1 / 1000, setupBasis 20 6, G, buildCache e (G.allGamma 0), zeroSource⟩)
      rfl rfl rfl (fun _ _ => rfl)
    obtain ⟨s, hs, -⟩ := calcApSolF_ok hit S.hN S.ho S.hAD S.hz S.core f
    unfold initApSolF
    rw [hf, ok_bind]
    simp only []
    rw [hs, ok_bind, pure_eq_ok]

theorem curvesFigure_cases {iter : Iter} (hit : IsIter iter) (b : Brentq) {a : ℝ} {r0 r1 : ℝ → ℝ} (ha : 0 < a) (haπ : a < π)
    (h0 : ∀ t, a ≤ t → t ≤ 2 * π → r0 t ≤ 2.45) (h1 : ∀ t, a ≤ t → t ≤ 2 * π → r1 t ≤ 2.45) :
    curvesFigure iter b a r0 r1 = .error .assertionError ∨
      curvesFigure iter b a r0 r1 = .ok [.line (arcLine a 2.3), .line (axisLine 2.3), .line (rayLine a 2.3), .line (curveLine a r0),
        .line (curveLine a r1)] := by
  have hR : probR = 2.3 := by unfold probR; norm_num
  unfold curvesFigure
  rcases domainSolver_cases hit b a ha haπ h0 with e0 | e0
  · left; rw [e0]; rfl
  rcases domainSolver_cases hit b probA ha haπ h1 with e1 | e1
  · left; rw [e0, e1]; rfl
  right
  rw [e0, ok_bind, e1, ok_bind, plotArc_eq, (plotGammaSid_eq _).1, (plotGammaSid_eq _).2.1, (plotGammaSid_eq _).2.2, (plotGammaSid_eq _).1, hR]
  rfl

/-- the radius functions of plot_domain2.py stay below 2.45 -/
theorem second_max :
    (∀ t, π / 6 ≤ t → t ≤ 2 * π → innerSineR probR (bet0 "inner-sine") (π / 6) t ≤ 2.45) ∧
    (∀ t, π / 6 ≤ t → t ≤ 2 * π → cubicR probR (bet0 "cubic") probA t ≤ 2.45) ∧
    (∀ t, π / 2 ≤ t → t ≤ 2 * π → outerSineR probR (bet0 "outer-sine") (π / 2) t ≤ 2.45) ∧
    (∀ t, π / 2 ≤ t → t ≤ 2 * π → sine7R probR (bet0 "sine7") probA t ≤ 2.45) := by
  have hpi := pi_pos
  have hR : probR = 2.3 := by unfold probR; norm_num
  refine ⟨fun t h1 h2 => ?_, fun t h1 h2 => ?_, fun t h1 h2 => ?_, fun t h1 h2 => ?_⟩
  · have hs : 0 ≤ sin (bNu (π / 6) * (t - π / 6)) := by
      refine sin_nonneg_of_nonneg_of_le_pi (mul_nonneg ?_ (by linarith)) ?_
      · unfold bNu; exact div_nonneg hpi.le (by linarith)
      · unfold bNu
        rw [div_mul_eq_mul_div, div_le_iff₀ (by linarith)]
        nlinarith
    simp only [innerSineR, bet0, hR]
    norm_num at *
    linarith
  · rcases le_total (π / 4) t with h | h
    · have T := chooseBoundary_tame (name := "cubic") (r := cubicR probR (bet0 "cubic") probA) rfl
      exact T.max t h h2
    · have hC := cubicC_pos
      have hp : (t - probA) * (t - π) * (t - 2 * π) ≤ 0 :=
        mul_nonpos_of_nonneg_of_nonpos (mul_nonneg_of_nonpos_of_nonpos (by unfold probA; linarith) (by linarith)) (by linarith)
      have : bet0 "cubic" / cubicC * ((t - probA) * (t - π) * (t - 2 * π)) ≤ 0 :=
        mul_nonpos_of_nonneg_of_nonpos (div_nonneg (by simp only [bet0]; norm_num) hC.le) hp
      simp only [cubicR, hR]
      norm_num at *
      linarith
  · have := sin_le_one (bNu (π / 2) * (t - π / 2))
    simp only [outerSineR, bet0, hR]
    norm_num at *
    linarith
  · have := sin_le_one (7 * bNu probA * (t - probA))
    simp only [sine7R, bet0, hR]
    norm_num at *
    linarith

/-- **C106** plot_domain2.py, for every hash order: the assertion of the grid construction fails, or the program draws the two
figures, each with an arc, the two sides, a curve made for the angle of the figure, and a curve made for the angle π/4. -/
theorem C106_second {iter : Iter} (hit : IsIter iter) (b : Brentq) :
    let pair := fun a r0 r1 => [Drawn.line (arcLine a 2.3), .line (axisLine 2.3), .line (rayLine a 2.3), .line (curveLine a r0),
      .line (curveLine a r1)]
    plotDomain2 iter b = .error .assertionError ∨
      plotDomain2 iter b = .ok
        [pair (π / 6) (fun t => 2.3 - 0.5 * sin (6 / 11 * (t - π / 6)))
          (fun t => 2.3 + 0.075 / ((91 * √91 - 136) * π ^ 3 / 2916) * (t - π / 4) * (t - π) * (t - 2 * π)),
        pair (π / 2) (fun t => 2.3 + 0.15 * sin (2 / 3 * (t - π / 2))) (fun t => 2.3 + 0.025 * sin (4 * (t - π / 4)))] := by
  intro pair
  have hpi := pi_pos
  have hne := hpi.ne'
  have hR : probR = 2.3 := by unfold probR; norm_num
  obtain ⟨m1, m2, m3, m4⟩ := second_max
  have n1 : bNu (π / 6) = 6 / 11 := by unfold bNu; field_simp; norm_num
  have n2 : bNu (π / 2) = 2 / 3 := by unfold bNu; field_simp; norm_num
  have n3 : bNu (π / 4) = 4 / 7 := by unfold bNu; field_simp; norm_num
  have q1 : innerSineR probR (bet0 "inner-sine") (π / 6) = fun t => 2.3 - 0.5 * sin (6 / 11 * (t - π / 6)) := by
    funext t; simp only [innerSineR, bet0, n1, hR]
  have q2 : cubicR probR (bet0 "cubic") probA = fun t => 2.3 + 0.075 / ((91 * √91 - 136) * π ^ 3 / 2916) * (t - π / 4) * (t - π) * (t - 2 * π) := by
    funext t; simp only [cubicR, cubicC, bet0, hR, probA]
  have q3 : outerSineR probR (bet0 "outer-sine") (π / 2) = fun t => 2.3 + 0.15 * sin (2 / 3 * (t - π / 2)) := by
    funext t; simp only [outerSineR, bet0, n2, hR]
  have q4 : sine7R probR (bet0 "sine7") probA = fun t => 2.3 + 0.025 * sin (4 * (t - π / 4)) := by
    funext t; simp only [sine7R, bet0, hR, probA, n3]; norm_num
  unfold plotDomain2
  rcases curvesFigure_cases hit b (by positivity) (by linarith) m1 m2 with e0 | e0
  · left; rw [e0]; rfl
  rcases curvesFigure_cases hit b (by positivity) (by linarith) m3 m4 with e1 | e1
  · left; rw [e0, e1]; rfl
  right
  rw [e0, ok_bind, e1, ok_bind, pure_eq_ok, q1, q2, q3, q4]

/-- **C106** the curves of plot_domain2.py: the two curves made for the angle of the figure run from the end of the one side to the
end of the other.  The cubic one, made for π/4 and drawn from π/6 on, starts 0.038 inside of the end of the side; the last one, drawn
from π/2 on, ends in both corners but is below the arc where the curve made for π/2 is above it. -/
theorem C106_curves :
    (let r := innerSineR probR (bet0 "inner-sine") (π / 6); r (π / 6) = 2.3 ∧ r (2 * π) = 2.3) ∧
    (let r := outerSineR probR (bet0 "outer-sine") (π / 2); r (π / 2) = 2.3 ∧ r (2 * π) = 2.3) ∧
    (let r := cubicR probR (bet0 "cubic") probA;
      2.3 - r (π / 6) = 27.84375 / (91 * √91 - 136) ∧ 0.038 < 2.3 - r (π / 6) ∧ 2.3 - r (π / 6) < 0.0381 ∧ r (2 * π) = 2.3 ∧
        cubicR probR (bet0 "cubic") (π / 6) (π / 6) = 2.3) ∧
    (let r := sine7R probR (bet0 "sine7") probA;
      r (π / 2) = 2.3 ∧ r (2 * π) = 2.3 ∧ r (5 * π / 8) = 2.275 ∧ 2.3 < sine7R probR (bet0 "sine7") (π / 2) (5 * π / 8)) := by
  have hpi := pi_pos
  have hne := hpi.ne'
  have hR : probR = 2.3 := by unfold probR; norm_num
  have n1 : bNu (π / 6) = 6 / 11 := by unfold bNu; field_simp; norm_num
  have n2 : bNu (π / 2) = 2 / 3 := by unfold bNu; field_simp; norm_num
  have n3 : bNu (π / 4) = 4 / 7 := by unfold bNu; field_simp; norm_num
  have s1 : (9.539:ℝ) < √91 := Real.lt_sqrt_of_sq_lt (by norm_num)
  have s2 : √91 < 9.54 := by rw [Real.sqrt_lt' (by norm_num)]; norm_num
  refine ⟨⟨?_, ?_⟩, ⟨?_, ?_⟩, ?_, ?_, ?_, ?_, ?_⟩
  · simp [innerSineR, hR]
  · simp only [innerSineR, hR, n1]
    rw [show 6 / 11 * (2 * π - π / 6) = π by ring, sin_pi]; ring
  · simp [outerSineR, hR]
  · simp only [outerSineR, hR, n2]
    rw [show 2 / 3 * (2 * π - π / 2) = π by ring, sin_pi]; ring
  · have e : 2.3 - cubicR probR (bet0 "cubic") probA (π / 6) = 27.84375 / (91 * √91 - 136) := by
      have hd : (91 * √91 - 136) ≠ 0 := by linarith
      simp only [cubicR, cubicC, bet0, hR, probA]
      field_simp
      ring
    have hd : (732.04:ℝ) < 91 * √91 - 136 := by norm_num at *; linarith
    have hd' : 91 * √91 - 136 < (732.15:ℝ) := by norm_num at *; linarith
    have hd0 : (0:ℝ) < 91 * √91 - 136 := lt_trans (by norm_num) hd
    refine ⟨e, ?_, ?_, by simp [cubicR, hR], by simp [cubicR, hR]⟩
    · rw [e, lt_div_iff₀ hd0]; norm_num at *; linarith
    · rw [e, div_lt_iff₀ hd0]; norm_num at *; linarith
  · simp only [sine7R, hR, probA, n3]
    rw [show 7 * (4 / 7) * (π / 2 - π / 4) = π by ring, sin_pi]; ring
  · simp only [sine7R, hR, probA, n3]
    rw [show 7 * (4 / 7) * (2 * π - π / 4) = ((7:ℕ) : ℝ) * π by push_cast; ring, sin_nat_mul_pi]; ring
  · simp only [sine7R, hR, probA, n3, bet0]
    rw [show 7 * (4 / 7) * (5 * π / 8 - π / 4) = π / 2 + π by ring, sin_add_pi, sin_pi_div_two]; norm_num
  · simp only [sine7R, hR, n2, bet0]
    have : 0 < sin (7 * (2 / 3) * (5 * π / 8 - π / 2)) := sin_pos_of_pos_of_lt_pi (by linarith) (by linarith)
    norm_num at *
    linarith

/-! ## The hypotheses are met -/

/-- plot_domain.py draws the cubic boundary on the grid with 16 cells -/
example : ∃ (b : Brentq) (fuel : ℕ) (P Q : List (ℝ × ℝ)), plotDomain (fun _ s => s.toList) b fuel "m" "cubic" 16 =
    some (.ok [.line (outline (π / 4) 2.3 (cubicR probR (bet0 "cubic") probA)), .marks "$\\mathbb{M}^+$" P, .marks "$\\mathbb{M}^-$" Q]) := by
  obtain ⟨b, hb⟩ := exists_brentq
  obtain ⟨fuel, h⟩ := C106_figure isIter_toList hb (boundary := "cubic") rfl (N := 16) ⟨0, by norm_num, by norm_num⟩
  obtain ⟨⟨P, Q, h, -⟩, -⟩ := h fuel le_rfl
  exact ⟨b, fuel, P, Q, h⟩

/-- for the size 8 it does not get that far -/
example (b : Brentq) (fuel : ℕ) : plotDomain (fun _ s => s.toList) b fuel "m" "cubic" 8 = none :=
  (C106_endless _ b fuel "m" (boundary := "cubic")).1 _ rfl (by
    rintro ⟨i, h, -⟩
    have : (1:ℤ) ≤ 2 ^ i := one_le_pow₀ (by norm_num)
    omega)

/-- the outline of the domain with the circular arc -/
example : (outline (π / 4) 2.3 (arcR probR)).length = 500 := (C106_outline (boundary := "arc") rfl).1

/-- plot_domain2.py -/
example (b : Brentq) : plotDomain2 (fun _ s => s.toList) b = .error .assertionError ∨ ∃ f g, plotDomain2 (fun _ s => s.toList) b = .ok [f, g] := by
  rcases C106_second isIter_toList b with h | h
  exacts [.inl h, .inr ⟨_, _, h⟩]

end Pot
