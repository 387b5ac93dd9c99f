import Verif.Proofs.ExtendLinear
import Verif.Props.Multivalue
import Verif.Props.Grid
import Verif.Model.Run

/-! # Extension of boundary data: C22, C33 -/

namespace Pot
open Spec Finset Real

/-- **C33** whatever the problem and the boundary data, if both extensions could be computed then they are defined
on the same nodes with the same labels in the same order, and their addition succeeds. -/
theorem C33_aligned (s : PSolver) (src : XiSrc) (m m' : Multivalue) (h : mvExtendHomo s src = .ok m)
    (h' : mvExtendInhomo s = .ok m') :
    m.nodes = m'.nodes ∧ (∀ nd, (m.data nd).map Entry.setype = (m'.data nd).map Entry.setype) ∧
      ∃ r, mvAdd m m' = .ok r := by
  obtain ⟨et, res, hs, rfl⟩ := mvLoop_inv h
  obtain ⟨et', res', hs', rfl⟩ := mvLoop_inv h'
  have hl : ∀ nd, labels s.G et nd = labels s.G et' nd := by
    intro nd
    unfold labels
    refine List.flatMap_congr fun sid _ => List.map_congr_left fun q hq => ?_
    have hq' := List.mem_of_mem_filter hq
    have := Except.ok.inj ((hs sid q hq').2.1.symm.trans (hs' sid q hq').2.1)
    rw [this]
  have hlab : ∀ nd, (items s.G et res nd).map Entry.setype = (items s.G et' res' nd).map Entry.setype := by
    intro nd
    rw [items_labels, items_labels, hl]
  refine ⟨rfl, hlab, ?_⟩
  obtain ⟨r, hr, -⟩ := C34_add ⟨s.G.unionGamma, items s.G et res⟩ ⟨s.G.unionGamma, items s.G et' res'⟩ (by
    intro nd hnd
    refine ⟨hnd, fun i hi => ?_⟩
    have hlen : (items s.G et res nd).length = (items s.G et' res' nd).length := by
      rw [← List.length_map (f := Entry.setype), hlab nd, List.length_map]
    have hi' : i < (items s.G et res nd).length := hi
    refine ⟨by show i < (items s.G et' res' nd).length; omega, ?_⟩
    have h3 := congrArg (fun l => l[i]?) (hlab nd)
    simp only [List.getElem?_map, List.getElem?_eq_getElem hi', List.getElem?_eq_getElem (hlen ▸ hi')] at h3
    simpa using h3)
  exact ⟨r, hr⟩

/-- **C33** so `mv_extend_boundary` only fails when one of the extensions itself fails. -/
theorem C33_no_new_error (s : PSolver) (src : XiSrc) (ho : Bool) (er : PyErr)
    (h : mvExtendBoundary s src ho = .error er) :
    mvExtendHomo s src = .error er ∨ mvExtendInhomo s = .error er := by
  unfold mvExtendBoundary at h
  rcases h1 : mvExtendHomo s src with e1 | m
  · rw [h1, error_bind] at h
    cases h
    exact Or.inl rfl
  · rw [h1, ok_bind] at h
    rcases src with ⟨JJ, i⟩ | ⟨c0, c1⟩
    · simp [pure_eq_ok] at h
    · simp only [Bool.false_or] at h
      split at h
      · simp [pure_eq_ok] at h
      · rcases h2 : mvExtendInhomo s with e2 | m'
        · rw [h2, error_bind] at h
          exact Or.inr (congrArg _ (Except.error.inj h))
        · rw [h2, ok_bind] at h
          obtain ⟨-, -, r, hr⟩ := C33_aligned s _ m m' h1 h2
          rw [hr] at h
          exact absurd h (by simp)

/-- what a constructed solver provides to the extension code -/
structure Ready (s : PSolver) : Prop where
  sub : ∀ sid, ∀ nd ∈ s.G.allGamma sid, nd ∈ s.G.unionGamma
  coord : ∀ nd ∈ s.G.allGamma 0, ∃ c, s.cache nd = some (some c)
  count : ∀ nd ∈ s.G.unionGamma,
    1 ≤ (s.G.allGamma 0).count nd + (s.G.allGamma 1).count nd + (s.G.allGamma 2).count nd ∧
      (s.G.allGamma 0).count nd + (s.G.allGamma 1).count nd + (s.G.allGamma 2).count nd ≤ 2

theorem Ready.hasCoord {s : PSolver} (R : Ready s) {sid : Fin 3} {nd : Node} (h : nd ∈ s.G.allGamma sid) :
    HasCoord s sid nd := by
  rintro rfl
  exact R.coord nd h

theorem getEtype_ok {s : PSolver} {sid : Fin 3} {nd : Node} (h : HasCoord s sid nd) :
    ∃ t, getEtype s.e s.cache sid nd = .ok t := by
  unfold getEtype
  simp only []
  by_cases h0 : sid = 0
  · obtain ⟨c, hc⟩ := h h0
    rw [if_pos h0, hc]
    exact ⟨_, rfl⟩
  · rw [if_neg h0]
    by_cases h1 : sid = 1
    · rw [if_pos h1]; exact ⟨_, rfl⟩
    · rw [if_neg h1, grp_ok, ok_bind]; exact ⟨_, rfl⟩

/-- reducing the result of the loop -/
theorem mvLoop_reduce {s : PSolver} (R : Ready s) {ext : Fin 3 → EType → Node → Py (ℝ × ℂ)}
    {et : Fin 3 → Node → EType} {res : Fin 3 → Node → ℝ × ℂ}
    (h : ∀ sid, ∀ nd ∈ s.G.allGamma sid, nd ∈ s.G.unionGamma ∧ getEtype s.e s.cache sid nd = .ok (et sid nd) ∧
      ext sid (et sid nd) nd = .ok (res sid nd)) :
    mvLoop s ext = .ok ⟨s.G.unionGamma, items s.G et res⟩ ∧
      mvReduce ⟨s.G.unionGamma, items s.G et res⟩ =
        .ok (s.G.unionGamma.map fun nd => mean (items s.G et res nd)) := by
  refine ⟨mvLoop_ok h, (C34_reduce _ _).2 ⟨fun nd hnd => ?_, rfl⟩⟩
  show (items s.G et res nd).length = 1 ∨ (items s.G et res nd).length = 2
  rw [items_length]
  have := R.count nd hnd
  omega

/-- the pairs (segment, node) the loop visits at a node -/
noncomputable def visits (G : PsGrids) (nd : Node) : List (Fin 3 × Node) :=
  ([0, 1, 2] : List (Fin 3)).flatMap fun sid => ((G.allGamma sid).filter fun q => q = nd).map fun q => (sid, q)

theorem mean_items (G : PsGrids) (et : Fin 3 → Node → EType) (res : Fin 3 → Node → ℝ × ℂ) (nd : Node) :
    mean (items G et res nd) = ((visits G nd).map fun p => (res p.1 p.2).2).sum / (visits G nd).length := by
  unfold mean
  congr 2
  · simp [items, visits, Function.comp_def]
  · simp [items, visits]

theorem list_sum_lin {ι : Type} (L : List ι) (J : Finset ℕ) (g : ℕ → ι → ℂ) :
    (L.map fun p => ∑ j ∈ J, g j p).sum = ∑ j ∈ J, (L.map fun p => g j p).sum := by
  induction L with
  | nil => simp
  | cons x L ih => simp [ih, sum_add_distrib]

/-- the extension of any data, in closed form -/
theorem extend_closed {s : PSolver} (R : Ready s) :
    ∃ V : XiSrc → Node → ℂ,
      (∀ src, src.Valid s.bas.bDesc → ∃ m, mvExtendHomo s src = .ok m ∧ m.nodes = s.G.unionGamma ∧
        mvReduce m = .ok (s.G.unionGamma.map (V src))) ∧
      ∀ (c0 c1 : List ℂ) (nd : Node), V (.full c0 c1) nd =
        ∑ JJ ∈ range s.bas.bDesc.length,
          (c0.getD JJ 0 * V (.basis JJ 0) nd + c1.getD JJ 0 * V (.basis JJ 1) nd) := by
  classical
  have het : ∀ (sid : Fin 3) (nd : Node), ∃ t, nd ∈ s.G.allGamma sid → getEtype s.e s.cache sid nd = .ok t := by
    intro sid nd
    by_cases h : nd ∈ s.G.allGamma sid
    · obtain ⟨t, ht⟩ := getEtype_ok (R.hasCoord h)
      exact ⟨t, fun _ => ht⟩
    · exact ⟨.standard, fun h' => absurd h' h⟩
  choose et het using het
  have hphi : ∀ (sid : Fin 3) (nd : Node), ∃ (elen arg : ℝ) (Φ : Tab → ℂ), IsLinearMap ℂ Φ ∧
      (nd ∈ s.G.allGamma sid → ∀ src : XiSrc, src.Valid s.bas.bDesc →
        doExtend s src sid (et sid nd) nd = .ok (elen, Φ (xiTab s src arg sid))) := by
    intro sid nd
    by_cases h : nd ∈ s.G.allGamma sid
    · obtain ⟨elen, arg, Φ, h1, h2⟩ := doExtend_linear s sid (et sid nd) nd (R.hasCoord h)
      exact ⟨elen, arg, Φ, h1, fun _ => h2⟩
    · exact ⟨0, 0, fun _ => 0, (0 : Tab →ₗ[ℂ] ℂ).isLinear, fun h' => absurd h' h⟩
  choose elen arg Φ hlin hdo using hphi
  refine ⟨fun src nd => mean (items s.G et (fun sid q => (elen sid q, Φ sid q (xiTab s src (arg sid q) sid))) nd),
    fun src hv => ?_, fun c0 c1 nd => ?_⟩
  · obtain ⟨h1, h2⟩ := mvLoop_reduce R (ext := doExtend s src) (et := et)
      (res := fun sid q => (elen sid q, Φ sid q (xiTab s src (arg sid q) sid)))
      (fun sid nd hnd => ⟨R.sub sid nd hnd, het sid nd hnd, hdo sid nd hnd src hv⟩)
    exact ⟨_, h1, rfl, h2⟩
  · simp only [mean_items]
    have : ∀ p : Fin 3 × Node, Φ p.1 p.2 (xiTab s (.full c0 c1) (arg p.1 p.2) p.1) =
        ∑ JJ ∈ range s.bas.bDesc.length,
          (c0.getD JJ 0 * Φ p.1 p.2 (xiTab s (.basis JJ 0) (arg p.1 p.2) p.1) +
            c1.getD JJ 0 * Φ p.1 p.2 (xiTab s (.basis JJ 1) (arg p.1 p.2) p.1)) := by
      intro p
      rw [xiTab_full]
      let L := IsLinearMap.mk' _ (hlin p.1 p.2)
      change L _ = ∑ JJ ∈ _, (_ * L _ + _ * L _)
      rw [map_sum]
      refine sum_congr rfl fun JJ _ => ?_
      rw [map_add, map_smul, map_smul, smul_eq_mul, smul_eq_mul]
    simp only [this]
    rw [list_sum_lin, sum_div]
    refine sum_congr rfl fun JJ _ => ?_
    rw [List.sum_map_add, List.sum_map_mul_left, List.sum_map_mul_left]
    ring

/-- **C22** the extension of the full boundary data is the superposition of the extensions of the basis
functions. -/
theorem C22_superposition {s : PSolver} (R : Ready s) :
    ∃ E : ℕ → Fin 2 → List ℂ,
      (∀ JJ, JJ < s.bas.bDesc.length → ∀ i, extendBasis s JJ i = .ok (E JJ i) ∧
        (E JJ i).length = s.G.unionGamma.length) ∧
      ∀ c0 c1 : List ℂ, s.bas.bDesc.length ≤ c0.length → s.bas.bDesc.length ≤ c1.length →
        ∃ v, extendBoundary s (.full c0 c1) true = .ok v ∧ v.length = s.G.unionGamma.length ∧
          ∀ l, l < s.G.unionGamma.length → v.getD l 0 =
            ∑ JJ ∈ range s.bas.bDesc.length,
              (c0.getD JJ 0 * (E JJ 0).getD l 0 + c1.getD JJ 0 * (E JJ 1).getD l 0) := by
  obtain ⟨V, hV, hlin⟩ := extend_closed R
  have hext : ∀ (src : XiSrc) (ho : Bool), (ho = true ∨ ∃ JJ i, src = .basis JJ i) → src.Valid s.bas.bDesc →
      extendBoundary s src ho = .ok (s.G.unionGamma.map (V src)) := by
    intro src ho hcond hv
    obtain ⟨m, h1, -, h2⟩ := hV src hv
    unfold extendBoundary mvExtendBoundary
    rw [h1, ok_bind]
    simp only []
    rw [if_pos]
    · rw [pure_eq_ok, ok_bind, h2]
    · rcases hcond with h | ⟨JJ, i, rfl⟩
      · simp [h]
      · simp
  refine ⟨fun JJ i => s.G.unionGamma.map (V (.basis JJ i)), fun JJ hJ i => ⟨?_, by simp⟩, ?_⟩
  · exact hext _ _ (Or.inr ⟨JJ, i, rfl⟩) hJ
  · intro c0 c1 h0 h1
    refine ⟨_, hext (.full c0 c1) true (Or.inl rfl) ⟨h0, h1⟩, by simp, fun l hl => ?_⟩
    simp only [List.getD_eq_getElem?_getD, List.getElem?_map, List.getElem?_eq_getElem hl, Option.map_some,
      Option.getD_some]
    rw [hlin]
    simp only [List.getD_eq_getElem?_getD]

/-- the extension code is ready on the grid of every circular-arc problem that is fine enough -/
theorem ready_arc {iter : Iter} (hit : IsIter iter) {b : Brentq} (hb : BrentqSpec b) {N order : ℕ}
    {AD a R : ℝ} (hAD : 0 < AD) (ha : 0 < a) (haπ : a < π) (hR : 0 < R)
    (hh : AD / N * √2 * (1 + 1 / sin (a / 2)) < R) {k eps : ℝ} {nc nr : ℕ} {src : Source} {s : PSolver}
    (h : psInit iter (mkEnv b N AD a R (arcR R)) order k eps nc nr src = .ok s) : Ready s := by
  have hpi := pi_pos
  unfold psInit at h
  simp only [] at h
  obtain ⟨G, hG, hd⟩ := C12_arc hit hb N order hAD ha haπ hR
  rw [hG, ok_bind, pure_eq_ok] at h
  cases h
  obtain ⟨hsub, hcov, -⟩ := (C12_all_gamma hit (e := mkEnv b N AD a R (arcR R)) hR.le ha haπ order).2 G hG
  have hsn : 0 < sin (a / 2) := sin_pos_of_pos_of_lt_pi (by linarith) (by linarith)
  have hδ : 0 ≤ AD / N * √2 := by positivity
  have hδR : AD / N * √2 < R := by
    have : AD / N * √2 ≤ AD / N * √2 * (1 + 1 / sin (a / 2)) := by
      refine le_mul_of_one_le_right hδ ?_
      have := div_pos one_pos hsn
      linarith
    linarith
  refine ⟨fun sid => (hsub sid).2, ?_, ?_⟩
  · intro nd hnd
    obtain ⟨q, ⟨t, ht1, ht2, rfl⟩, hq⟩ := C12_outer hb (contDiff_const : ContDiff ℝ 1 (arcR R))
      (fun _ => regular_of_pos (r := arcR R) hR) ha
      (by linarith) rfl rfl hG nd hnd
    obtain ⟨p1, p2, p3, p4⟩ := env_polar (mkEnv b N AD a R (arcR R)) ha (by show a ≤ 4 * π; linarith) nd
    refine ⟨_, (if_pos hnd).trans (congrArg some (C47_arc hb hR ?_ p3 p4.le))⟩
    refine p2.lt_of_ne fun hz => ?_
    have hc : getCoord AD N nd.1 nd.2 = (0, 0) := by
      have : (mkEnv b N AD a R (arcR R)).coord nd = (0, 0) := by rw [← p1, ← hz]; simp [polarPoint]
      exact this
    rw [hc] at hq
    unfold dist2 polarPoint at hq
    simp only at hq
    rw [show (0 - R * cos t) ^ 2 + (0 - R * sin t) ^ 2 = R ^ 2 by
      linear_combination R ^ 2 * sin_sq_add_cos_sq t, Real.sqrt_sq hR.le] at hq
    linarith
  · intro nd hnd
    obtain ⟨sid, hs⟩ := hcov nd hnd
    obtain ⟨sid', hs'⟩ := C35_at_most_two hit hb (contDiff_const : ContDiff ℝ 1 (arcR R))
      (fun _ => regular_of_pos (r := arcR R) hR) ha haπ hR rfl rfl
      (rmin := R) (fun _ _ _ => le_rfl) hh hG nd
    have hc1 : ∀ i, (G.allGamma i).count nd ≤ 1 := fun i => List.nodup_iff_count_le_one.1 (hsub i).1 nd
    have hc0 : (G.allGamma sid').count nd = 0 := List.count_eq_zero.2 hs'
    have hc2 : 1 ≤ (G.allGamma sid).count nd := List.count_pos_iff.2 hs
    have a0 := hc1 0
    have a1 := hc1 1
    have a2 := hc1 2
    constructor
    · show 1 ≤ (G.allGamma 0).count nd + (G.allGamma 1).count nd + (G.allGamma 2).count nd
      fin_cases sid <;> simp only [Fin.zero_eta, Fin.mk_one, Fin.reduceFinMk] at hc2 <;> omega
    · show (G.allGamma 0).count nd + (G.allGamma 1).count nd + (G.allGamma 2).count nd ≤ 2
      fin_cases sid' <;> simp at hc0 <;> omega

end Pot
