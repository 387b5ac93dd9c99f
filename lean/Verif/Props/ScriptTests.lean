import Verif.Model.ScriptTests
import Verif.Props.Residual
import Verif.Props.Convergence
import Mathlib.Data.List.GetD

/-! # The test scripts: C86 (`extend_basis_test.py`), C87 (`extension_test.py`), C88 (`test_extend_f.py`) -/

namespace Pot
open Spec Finset Real

/-! ### C86 -/

/-- one pass of the loop: the two extensions are the same vector -/
theorem extendBasisError_zero {s : PSolver} (R : Ready s) (hne : s.G.unionGamma ≠ []) {JJ : ℕ} (hJ : JJ < s.bas.bDesc.length)
    (index : Fin 2) : extendBasisError s index JJ = .ok 0 := by
  obtain ⟨E, hE, hF⟩ := C22_superposition R
  obtain ⟨h1, l1⟩ := hE JJ hJ index
  set z : List ℂ := List.replicate s.bas.bDesc.length 0 with hz
  have hset : ∀ j, (z.set JJ 1).getD j 0 = if j = JJ then 1 else 0 := by
    intro j
    rw [List.getD_eq_getElem?_getD, List.getElem?_set]
    by_cases hj : JJ = j
    · subst hj
      rw [if_pos rfl, if_pos (by rw [hz, List.length_replicate]; exact hJ), if_pos rfl]
      rfl
    · rw [if_neg hj, if_neg (Ne.symm hj), hz, List.getElem?_replicate]
      split <;> rfl
  have hzero : ∀ j, z.getD j 0 = 0 := by
    intro j
    rw [List.getD_eq_getElem?_getD, hz, List.getElem?_replicate]
    split <;> rfl
  obtain ⟨v, h2, l2, hv⟩ := hF (if index = 0 then z.set JJ 1 else z) (if index = 1 then z.set JJ 1 else z)
    (by split <;> simp [hz]) (by split <;> simp [hz])
  have hEv : v = E JJ index := by
    refine List.ext_getElem (l2.trans l1.symm) fun l hl hl' => ?_
    have := hv l (l2 ▸ hl)
    rw [List.getD_eq_getElem _ _ hl] at this
    rw [this, ← List.getD_eq_getElem _ 0 hl']
    fin_cases index
    · simp only [Fin.zero_eta, if_true, Fin.isValue, zero_ne_one, if_false, hset, hzero, zero_mul, add_zero, ite_mul, one_mul]
      rw [sum_ite_eq' (range _) JJ, if_pos (mem_range.2 hJ)]
    · simp only [Fin.mk_one, if_true, Fin.isValue, one_ne_zero, if_false, hset, hzero, zero_mul, zero_add, ite_mul, one_mul]
      rw [sum_ite_eq' (range _) JJ, if_pos (mem_range.2 hJ)]
  unfold extendBasisError
  rw [h1, ok_bind]
  simp only [← hz]
  rw [h2, ok_bind, hEv]
  simp only [ne_eq, not_true_eq_false, if_false]
  rw [List.zipWith_self]
  obtain ⟨x, t, hxt⟩ := List.exists_cons_of_ne_nil (fun h0 : E JJ index = [] => hne (by
    rw [h0] at l1; exact List.eq_nil_of_length_eq_zero l1.symm))
  rw [hxt, List.map_cons]
  obtain ⟨m, hm, hmem, -⟩ := pyMax_ok ‖x - x‖ (t.map fun x => ‖x - x‖)
  rw [hm]
  congr 1
  rw [List.mem_cons, List.mem_map] at hmem
  rcases hmem with rfl | ⟨y, -, rfl⟩ <;> simp

/-- **C86** with exact arithmetic `extend_basis_test.py` prints the error zero for every basis function and both indices and ends with
SUCCESS. -/
theorem C86_success {s : PSolver} (R : Ready s) (hne : s.G.unionGamma ≠ []) :
    extendBasisTest s = .ok (List.replicate (2 * s.bas.bDesc.length) 0, true) := by
  have key : ∀ L : List (Fin 2 × ℕ), (∀ p ∈ L, p.2 < s.bas.bDesc.length) →
      extendBasisLoop s L = .ok (List.replicate L.length 0, true) := by
    intro L
    induction L with
    | nil => intro _; rfl
    | cons p L ih =>
      intro h
      unfold extendBasisLoop
      rw [extendBasisError_zero R hne (h p (by simp)), ok_bind, if_neg (by norm_num), ih fun q hq => h q (by simp [hq])]
      rfl
  unfold extendBasisTest
  rw [key _ (by
    intro p hp
    obtain ⟨i, -, hp⟩ := List.mem_flatMap.1 hp
    obtain ⟨j, hj, rfl⟩ := List.mem_map.1 hp
    exact List.mem_range.1 hj)]
  congr 3
  simp [two_mul]

/-- **C86** what the script's verdict means, whatever the solver: it ends with SUCCESS exactly if every number is computed and at most
`1e-14`, and then it prints all of them; on FAILURE the last number printed is the first one larger than that. -/
theorem C86_verdict (s : PSolver) (L : List (Fin 2 × ℕ)) (errs : List ℝ) :
    (extendBasisLoop s L = .ok (errs, true) ↔ L.mapM (fun p => extendBasisError s p.1 p.2) = .ok errs ∧ ∀ e ∈ errs, e ≤ 1e-14) ∧
    (extendBasisLoop s L = .ok (errs, false) → ∃ L' p rest e, L = L' ++ p :: rest ∧
      (L' ++ [p]).mapM (fun p => extendBasisError s p.1 p.2) = .ok errs ∧ errs.getLast? = some e ∧ 1e-14 < e) := by
  induction L generalizing errs with
  | nil =>
    constructor
    · simp only [extendBasisLoop, pure_eq_ok, List.mapM_nil, Except.ok.injEq, Prod.mk.injEq, and_true]
      constructor
      · rintro rfl; simp
      · exact fun h => h.1
    · intro h
      simp [extendBasisLoop, pure_eq_ok] at h
  | cons p L ih =>
    rcases he : extendBasisError s p.1 p.2 with er | e
    · constructor
      · unfold extendBasisLoop
        simp [he, List.mapM_cons, error_bind]
      · intro h
        unfold extendBasisLoop at h
        simp [he, error_bind] at h
    · by_cases hgt : e > 1e-14
      · constructor
        · unfold extendBasisLoop
          rw [he, ok_bind, if_pos hgt, List.mapM_cons, he, ok_bind]
          constructor
          · intro h; simp [pure_eq_ok] at h
          · rintro ⟨h, hle⟩
            rcases hm : L.mapM (fun p => extendBasisError s p.1 p.2) with er | es
            · rw [hm, error_bind] at h; cases h
            · rw [hm, ok_bind, pure_eq_ok] at h
              cases h
              exact absurd (hle e (by simp)) (not_le.2 hgt)
        · intro h
          unfold extendBasisLoop at h
          rw [he, ok_bind, if_pos hgt, pure_eq_ok] at h
          cases h
          refine ⟨[], p, L, e, rfl, ?_, rfl, hgt⟩
          simp [List.mapM_cons, he, pure_eq_ok, ok_bind]
      · rcases hr : extendBasisLoop s L with er | ⟨es, b⟩
        · have hno : ∀ es, L.mapM (fun p => extendBasisError s p.1 p.2) = .ok es → (∀ x ∈ es, x ≤ 1e-14) → False := by
            intro es h1 h2
            have := ((ih es).1.2 ⟨h1, h2⟩)
            rw [hr] at this
            cases this
          constructor
          · unfold extendBasisLoop
            rw [he, ok_bind, if_neg hgt, hr, error_bind]
            constructor
            · intro h; cases h
            · rintro ⟨h, hle⟩
              rw [List.mapM_cons, he, ok_bind] at h
              rcases hm : L.mapM (fun p => extendBasisError s p.1 p.2) with er' | es
              · rw [hm, error_bind] at h; cases h
              · rw [hm, ok_bind, pure_eq_ok] at h
                cases h
                exact (hno es hm fun x hx => hle x (by simp [hx])).elim
          · intro h
            unfold extendBasisLoop at h
            rw [he, ok_bind, if_neg hgt, hr, error_bind] at h
            cases h
        · constructor
          · unfold extendBasisLoop
            rw [he, ok_bind, if_neg hgt, hr, ok_bind, pure_eq_ok, List.mapM_cons, he, ok_bind]
            constructor
            · intro h
              cases h
              obtain ⟨h1, h2⟩ := (ih es).1.1 hr
              rw [h1, ok_bind, pure_eq_ok]
              refine ⟨rfl, fun x hx => ?_⟩
              rcases List.mem_cons.1 hx with rfl | hx
              · exact not_lt.1 hgt
              · exact h2 x hx
            · rintro ⟨h, hle⟩
              rcases hm : L.mapM (fun p => extendBasisError s p.1 p.2) with er' | es'
              · rw [hm, error_bind] at h; cases h
              · rw [hm, ok_bind, pure_eq_ok] at h
                cases h
                have := (ih es').1.2 ⟨hm, fun x hx => hle x (by simp [hx])⟩
                rw [hr] at this
                cases this
                rfl
          · intro h
            unfold extendBasisLoop at h
            rw [he, ok_bind, if_neg hgt, hr, ok_bind, pure_eq_ok] at h
            cases h
            obtain ⟨L', q, rest, x, rfl, h2, h3, h4⟩ := (ih es).2 hr
            refine ⟨p :: L', q, rest, x, rfl, ?_, ?_, h4⟩
            · rw [List.cons_append, List.mapM_cons, he, ok_bind, h2, ok_bind, pure_eq_ok]
            · rw [List.getLast?_cons, h3]
              rfl

/-- **C86** so on every shipped boundary, for every problem, wave number, order, number of basis functions and grid with at least 16
cells per side (the script uses 16) -/
theorem C86_shipped {iter : Iter} (hit : IsIter iter) {b : Brentq} (hb : BrentqSpec b) {n order : ℕ} (hN : 16 ≤ n + 1)
    (ho : order = 2 ∨ order = 4) {name : String} {r : ℝ → ℝ} (hname : chooseBoundary name = .ok r) (k eps : ℝ) (p q : ℕ) (source : Source) :
    ∃ s, psInit iter (mkEnv b (n + 1) probAD probA probR r) order k eps p q source = .ok s ∧
      extendBasisTest s = .ok (List.replicate (2 * (p + 2 * q)) 0, true) := by
  have T := chooseBoundary_tame hname
  have hAD : 0 < probAD := by unfold probAD; have := pi_pos; positivity
  obtain ⟨G, S⟩ := setup_shipped hit hb hN ho hname (k := 1) (C78_shipped n ho).2.2.2
  have hs := psInit_ok (k := k) (eps := eps) (nc := p) (nr := q) (src := source) S.built
  have R := ready_gentle hit hb hAD (T.gentleAt hN) T.regular (shipped_sides hN).1 (shipped_sides hN).2.1 (shipped_sides hN).2.2 hs
  refine ⟨_, hs, ?_⟩
  rw [C86_success R (gamma_ne_nil S (mplus_shipped T hN S))]
  show Except.ok (List.replicate (2 * (setupBasis p q).bDesc.length) 0, true) = _
  rw [C40_length]

/-- the script's own run: 16 cells per side, fourth order, the sine boundary, 2 · (7 + 2 · 5) = 34 numbers, all zero -/
example {iter : Iter} (hit : IsIter iter) {b : Brentq} (hb : BrentqSpec b) {r : ℝ → ℝ} (hname : chooseBoundary "outer-sine" = .ok r)
    (source : Source) : ∃ s, psInit iter (mkEnv b 16 probAD probA probR r) 4 smoothK 1 7 5 source = .ok s ∧
      extendBasisTest s = .ok (List.replicate 34 0, true) :=
  C86_shipped hit hb (n := 15) (by norm_num) (Or.inr rfl) hname smoothK 1 7 5 source

/-! ### C87 -/

/-- some entry of the extension is of one of the requested kinds (all of them, if none is requested) -/
def Chosen (s : PSolver) (setypes : Option (List (ℕ × EType))) : Prop :=
  ∃ nd ∈ s.G.unionGamma, ∃ sid et, nd ∈ s.G.allGamma sid ∧ getEtype s.e s.cache sid nd = .ok et ∧
    ∀ l, setypes = some l → (sid.val, et) ∈ l

theorem foldlM_append_ok {α β : Type} {f : α → Py (List β)} {g : α → List β} (L : List α) (h : ∀ x ∈ L, f x = .ok (g x)) (acc : List β) :
    (L.foldlM (init := acc) fun acc x => do
      let d ← f x
      return acc ++ d : Py (List β)) = .ok (acc ++ L.flatMap g) := by
  induction L generalizing acc with
  | nil => simp [pure_eq_ok]
  | cons x L ih =>
    rw [List.foldlM_cons, h x (by simp), ok_bind, pure_eq_ok, ok_bind, ih fun y hy => h y (by simp [hy])]
    simp

theorem checked_iff {setypes : Option (List (ℕ × EType))} {x : Entry} :
    checked setypes x = true ↔ ∀ l, setypes = some l → (x.setype.1.val, x.setype.2) ∈ l := by
  unfold checked
  cases setypes <;> simp

/-- the list of errors of `extension_test.py` -/
theorem extTestErrors_ok {s : PSolver} {m : Multivalue} (hn : m.nodes = s.G.unionGamma) (ex : ℝ → ℝ → ℂ)
    (setypes : Option (List (ℕ × EType))) : ∃ errs, extTestErrors s m ex setypes = .ok errs ∧
      ∀ x, x ∈ errs ↔ ∃ nd ∈ s.G.unionGamma, ∃ y ∈ m.data nd, (∀ l, setypes = some l → (y.setype.1.val, y.setype.2) ∈ l) ∧
        x = ‖ex (s.e.polar nd).1 (s.e.polar nd).2 - y.value‖ := by
  classical
  set g : ℕ → List ℝ := fun l => ((m.data (s.G.unionGamma.getD l (0, 0))).filter (checked setypes)).map
    fun x => ‖ex (s.e.polar (s.G.unionGamma.getD l (0, 0))).1 (s.e.polar (s.G.unionGamma.getD l (0, 0))).2 - x.value‖ with hg
  have key : extTestErrors s m ex setypes = .ok ([] ++ (List.range s.G.unionGamma.length).flatMap g) := by
    rw [← foldlM_append_ok (f := fun l => (do
      let nd ← listGet s.G.unionGamma l
      let data ← mvGet m nd
      return (data.filter (checked setypes)).map fun x => ‖ex (s.e.polar nd).1 (s.e.polar nd).2 - x.value‖ : Py (List ℝ)))]
    · unfold extTestErrors
      congr 1
      funext acc l
      rcases h1 : listGet s.G.unionGamma l with er | nd
      · simp [error_bind]
      · rcases h2 : mvGet m nd with er | data
        · simp [ok_bind, h2, error_bind]
        · simp [ok_bind, h2, pure_eq_ok]
    · intro l hl
      have hl' := List.mem_range.1 hl
      have hU := List.getElem_mem hl'
      rw [listGet_of_lt _ _ hl', ok_bind]
      unfold mvGet
      rw [if_pos (by rw [hn]; exact hU), pure_eq_ok, ok_bind, hg]
      simp only [List.getD_eq_getElem _ _ hl', pure_eq_ok]
  refine ⟨_, key, fun x => ?_⟩
  rw [List.nil_append, List.mem_flatMap]
  constructor
  · rintro ⟨l, hl, hx⟩
    have hl' := List.mem_range.1 hl
    rw [hg] at hx
    simp only [List.getD_eq_getElem _ _ hl'] at hx
    obtain ⟨y, hy, rfl⟩ := List.mem_map.1 hx
    obtain ⟨h1, h2⟩ := List.mem_filter.1 hy
    exact ⟨_, List.getElem_mem hl', y, h1, checked_iff.1 h2, rfl⟩
  · rintro ⟨nd, hnd, y, h1, h2, rfl⟩
    obtain ⟨l, hl, rfl⟩ := List.mem_iff_getElem.1 hnd
    refine ⟨l, List.mem_range.2 hl, ?_⟩
    rw [hg]
    simp only [List.getD_eq_getElem _ _ hl]
    exact List.mem_map.2 ⟨y, List.mem_filter.2 ⟨h1, checked_iff.2 h2⟩, rfl⟩

theorem pyMax_greatest {l : List ℝ} (h : l ≠ []) : ∃ m, pyMax l = .ok m ∧ IsGreatest {x | x ∈ l} m := by
  obtain ⟨x, t, rfl⟩ := List.exists_cons_of_ne_nil h
  obtain ⟨m, h1, h2, h3⟩ := pyMax_ok x t
  exact ⟨m, h1, h2, h3⟩

/-- what `extension_test.py` prints, given the number of basis functions and the exact solution `u` -/
def ExtTestRate (s : PSolver) (r : ℝ → ℝ) (u : ℝ × ℝ → ℂ) (p q : ℕ) (rate : ℝ → ℝ) : Prop :=
  ∀ {fit : Chebfit}, IsChebfit fit → ∀ {M : Fin 3 → Fin 2 → ℝ} {ε : ℝ},
    (∀ sid i, ∀ x ∈ enlarged s.eps probA probR sid, ‖iteratedDeriv (nBasisBySid p q sid) (cauchyData u probA r sid i) x‖ ≤ M sid i) →
    (∀ sid i, dataErr (nBasisBySid p q sid) (M sid i) (halfWidth s.eps probA probR sid) ≤ ε) →
    ∀ {ex : ℝ → ℝ → ℂ}, (∀ ρ th, ex ρ th = u (polarPoint ρ th)) → ∀ setypes : Option (List (ℕ × EType)),
    (¬ Chosen s setypes → extensionTest s fit (chebRoots 1024) (fun x sid => cauchyData u probA r sid 0 x)
      (fun x sid => cauchyData u probA r sid 1 x) ex setypes = .error .valueError) ∧
    (Chosen s setypes → ∃ c0 c1 m e, calcC0 s.eps probA probR fit (chebRoots 1024) s.bas (fun x sid => cauchyData u probA r sid 0 x) = .ok c0 ∧
      calcC1Exact s.eps probA probR fit (chebRoots 1024) s.bas (fun x sid => cauchyData u probA r sid 1 x) = .ok c1 ∧
      mvExtendBoundary s (.full c0 c1) false = .ok m ∧
      extensionTest s fit (chebRoots 1024) (fun x sid => cauchyData u probA r sid 0 x)
        (fun x sid => cauchyData u probA r sid 1 x) ex setypes = .ok e ∧
      IsGreatest {x | ∃ nd ∈ s.G.unionGamma, ∃ y ∈ m.data nd, (∀ l, setypes = some l → (y.setype.1.val, y.setype.2) ∈ l) ∧
        x = ‖u (s.e.coord nd) - y.value‖} e ∧ e ≤ rate ε)

theorem ext_test_rate {iter : Iter} {b : Brentq} {n : ℕ} {name : String} {r : ℝ → ℝ} (hname : chooseBoundary name = .ok r)
    {k eps : ℝ} (heps : 0 < eps) {p q : ℕ} (hp : 4 ≤ p) (hq : 4 ≤ q) (hp' : p ≤ 1024) (hq' : q ≤ 1024) {s : PSolver} {u : ℝ × ℝ → ℂ} {T : ℝ}
    {δ : ℝ → ℝ} (hu : ContDiff ℝ (max p q + 1 : ℕ) u) (hS : ShippedSolver s b n r k eps p q) (A : Approx iter n s u T δ) :
    ExtTestRate s r u p q δ := by
  intro fit hfit M ε hM hε ex hex setypes
  have hpi := pi_pos
  have h3 := pi_gt_three
  have Tm := chooseBoundary_tame hname
  have ea : s.e.a = probA := by rw [hS.env]; rfl
  have eR : s.e.R = probR := by rw [hS.env]; rfl
  have er : s.e.evalR = r := by rw [hS.env]; rfl
  have hbl : s.bas.bDesc.length = p + 2 * q := by rw [hS.bas, C40_length]
  obtain ⟨c0, c1, l0, l1, h0, h1, hnear⟩ := C84_data (s := s) (by rw [hS.eps]; exact heps) (by rw [ea]; unfold probA; linarith)
    (by rw [eR]; unfold probR; norm_num) (by rw [ea, eR, hS.eps]; exact halfWidth_shipped heps) hfit hp hq hp' hq' hS.bas hu
    (by rw [er]; exact chooseBoundary_smooth hname _) (by rw [er]; exact Tm.regular) (M := M) (by rw [ea, eR, er]; exact hM)
    (ε := ε) (by rw [ea, eR]; exact hε)
  rw [er] at h0 h1
  have hsm : ∀ sid, ContDiff ℝ (nBasisBySid p q sid) fun x => cauchyData u s.e.a r sid 0 x := by
    intro sid
    refine (cauchyData_contDiff hu s.e.a (chooseBoundary_smooth hname _) Tm.regular sid 0).of_le ?_
    have : nBasisBySid p q sid ≤ max p q := by unfold nBasisBySid; split <;> omega
    exact_mod_cast this
  obtain ⟨c0', o, al, h0', ht, -⟩ := C83_printed (eps := s.eps) (a := s.e.a) (R := s.e.R) (rb := r) (by rw [hS.eps]; exact heps)
    (by rw [ea]; unfold probA; linarith) (by rw [ea]; unfold probA; norm_num; linarith) (by rw [eR]; unfold probR; norm_num)
    (fun t t1 t2 => by
      have := Tm.lo t (by rw [ea] at t1; unfold probA at t1; linarith) (by linarith)
      norm_num at this; linarith) hfit (by omega) (by omega) hp' hq' hsm
    (M := fun sid => M sid 0) (fun sid => by rw [ea, eR]; exact hM sid 0)
    (B := ∑ sid, |(1 + 4 * (nBasisBySid p q sid : ℝ)) *
      (M sid 0 * halfWidth s.eps s.e.a s.e.R sid ^ nBasisBySid p q sid / (nBasisBySid p q sid).factorial)|) (fun sid =>
      (le_abs_self _).trans (single_le_sum (f := fun sid => |(1 + 4 * (nBasisBySid p q sid : ℝ)) *
      (M sid 0 * halfWidth s.eps s.e.a s.e.R sid ^ nBasisBySid p q sid / (nBasisBySid p q sid).factorial)|)
        (fun _ _ => abs_nonneg _) (mem_univ sid)))
  rw [← hS.bas] at h0' ht
  obtain rfl : c0 = c0' := Except.ok.inj (h0.symm.trans h0')
  obtain ⟨m, hm, E⟩ := A.ents c0 c1 (l0.trans hbl.symm) (l1.trans hbl.symm) ε hnear
  obtain ⟨ext, hred, -⟩ := E.reduce
  obtain ⟨errs, herr, hmem⟩ := extTestErrors_ok E.nodes ex setypes
  have hrun : extensionTest s fit (chebRoots 1024) (fun x sid => cauchyData u probA r sid 0 x)
      (fun x sid => cauchyData u probA r sid 1 x) ex setypes = pyMax (errs.map fun x => |x|) := by
    unfold extensionTest
    rw [er, ← ea, h0, ok_bind, h1, ok_bind, ht, ok_bind, hm, ok_bind, hred, ok_bind, herr, ok_bind]
  have habs : errs.map (fun x => |x|) = errs := by
    conv_rhs => rw [← List.map_id errs]
    refine List.map_congr_left fun x hx => ?_
    obtain ⟨nd, -, y, -, -, rfl⟩ := (hmem x).1 hx
    exact abs_of_nonneg (norm_nonneg _)
  rw [habs] at hrun
  have hval : ∀ nd, ex (s.e.polar nd).1 (s.e.polar nd).2 = u (s.e.coord nd) := fun nd => by
    rw [hex, (env_polar s.e (by rw [ea]; unfold probA; linarith) (by rw [ea]; unfold probA; linarith) nd).1]
  simp only [hval] at hmem
  constructor
  · intro hno
    have : errs = [] := by
      refine List.eq_nil_iff_forall_not_mem.2 fun x hx => hno ?_
      obtain ⟨nd, hnd, y, hy, hc, -⟩ := (hmem x).1 hx
      obtain ⟨g1, g2⟩ := (E.setype nd hnd y.setype).1 ⟨y, hy, rfl⟩
      exact ⟨nd, hnd, y.setype.1, y.setype.2, g1, g2, hc⟩
    rw [hrun, this]
    rfl
  · rintro ⟨nd, hnd, sid, et, g1, g2, hc⟩
    obtain ⟨y, hy, hst⟩ := (E.setype nd hnd (sid, et)).2 ⟨g1, g2⟩
    have hne : errs ≠ [] := List.ne_nil_of_mem ((hmem _).2 ⟨nd, hnd, y, hy, by rw [hst]; exact hc, rfl⟩)
    obtain ⟨e, he1, he2⟩ := pyMax_greatest hne
    have hset : {x | x ∈ errs} = {x | ∃ nd ∈ s.G.unionGamma, ∃ y ∈ m.data nd,
        (∀ l, setypes = some l → (y.setype.1.val, y.setype.2) ∈ l) ∧ x = ‖u (s.e.coord nd) - y.value‖} := Set.ext hmem
    rw [hset] at he2
    refine ⟨c0, c1, m, e, by rw [← ea, ← eR]; exact h0, by rw [← ea, ← eR]; exact h1, hm, hrun.trans he1, he2, ?_⟩
    obtain ⟨nd', hnd', y', hy', -, rfl⟩ := he2.1
    rw [norm_sub_rev]
    exact E.near nd' hnd' y' hy'

/-- without the option `-s` every entry is checked, and there is one -/
theorem C87_all {iter : Iter} {b : Brentq} {n : ℕ} {r : ℝ → ℝ} {k eps : ℝ} {p q : ℕ} {s : PSolver} {u : ℝ × ℝ → ℂ} {T : ℝ} {δ : ℝ → ℝ}
    (hS : ShippedSolver s b n r k eps p q) (A : Approx iter n s u T δ) : Chosen s none := by
  have hne := gamma_ne_nil A.setup hS.nonempty
  obtain ⟨nd, t, hnt⟩ := List.exists_cons_of_ne_nil hne
  have hnd : nd ∈ s.G.unionGamma := by rw [hnt]; simp
  have hc := (A.ready.count nd hnd).1
  have : ∃ sid, nd ∈ s.G.allGamma sid := by
    by_contra hno
    push Not at hno
    rw [List.count_eq_zero.2 (hno 0), List.count_eq_zero.2 (hno 1), List.count_eq_zero.2 (hno 2)] at hc
    omega
  obtain ⟨sid, hs⟩ := this
  obtain ⟨et, het⟩ := getEtype_ok (A.ready.hasCoord hs)
  exact ⟨nd, hnd, sid, et, hs, het, fun l hl => by cases hl⟩

/-- **C87** `extension_test.py` for a homogeneous problem on a shipped boundary: the number printed is the largest error of an entry of the
extension and at most `C (ε + N⁻⁵)`. -/
theorem C87_homogeneous {name : String} {r : ℝ → ℝ} (hname : chooseBoundary name = .ok r) {k : ℝ}
    (hk : k = smoothK ∨ k = ihK ∨ k = quadK ∨ k = 1) {u : ℝ × ℝ → ℂ} {p q : ℕ} (hp : 5 ≤ max p q) (hu : ContDiff ℝ (max p q + 1 : ℕ) u)
    (hpde : HelmholtzPlane k u) :
    ∃ C, 0 ≤ C ∧ ∀ {iter : Iter}, IsIter iter → ∀ {b : Brentq}, BrentqSpec b → ∀ {n : ℕ}, 16 ≤ n + 1 → ∀ {eps : ℝ}, 0 < eps →
      ∀ {source : Source}, source.homogeneous = true → (∀ x y, source.f x y = 0) → 4 ≤ p → 4 ≤ q → p ≤ 1024 → q ≤ 1024 →
      ∀ {s : PSolver}, psInit iter (mkEnv b (n + 1) probAD probA probR r) 4 k eps p q source = .ok s →
      Chosen s none ∧ ExtTestRate s r u p q fun ε => C * (ε + 1 / ((n : ℝ) + 1) ^ 5) := by
  have hu6 : ContDiff ℝ 6 u := hu.of_le (by exact_mod_cast (by omega : 6 ≤ max p q + 1))
  obtain ⟨D, hD, hA⟩ := approx_homogeneous hname hk hu6 hpde
  refine ⟨D, hD, ?_⟩
  intro iter hit b hb n hN eps heps source hh hf0 hp4 hq4 hp' hq' s hs
  obtain ⟨hS, A⟩ := hA hit hb hN heps hh hf0 (by omega) (by omega) hs
  refine ⟨C87_all hS A, ?_⟩
  intro fit hfit M ε hM hε ex hex setypes
  have := ext_test_rate hname heps hp4 hq4 hp' hq' hu hS A hfit hM hε hex setypes
  simpa using this

/-- **C87** the same for an inhomogeneous problem, if no node lies on the curve. -/
theorem C87_inhomogeneous {name : String} {r : ℝ → ℝ} (hname : chooseBoundary name = .ok r) {k : ℝ}
    (hk : k = smoothK ∨ k = ihK ∨ k = quadK ∨ k = 1) {u φ : ℝ × ℝ → ℂ} {p q : ℕ} (hp : 5 ≤ max p q) (hu : ContDiff ℝ (max p q + 1 : ℕ) u)
    (hφ : ContDiff ℝ 3 φ) (hpde : HelmholtzSource k u φ) :
    ∃ C, 0 ≤ C ∧ ∀ {iter : Iter}, IsIter iter → ∀ {b : Brentq}, BrentqSpec b → ∀ {n : ℕ}, 16 ≤ n + 1 →
      (∀ (i j : ℤ) (t : ℝ), probA / 2 ≤ t → t ≤ 2 * π + probA / 2 → getCoord probAD (n + 1) i j ≠ polarPoint (r t) t) →
      ∀ {eps : ℝ}, 0 < eps → ∀ {source : Source} {η : ℝ}, SrcOf source φ η → 4 ≤ p → 4 ≤ q → p ≤ 1024 → q ≤ 1024 →
      ∀ {s : PSolver}, psInit iter (mkEnv b (n + 1) probAD probA probR r) 4 k eps p q source = .ok s →
      Chosen s none ∧ ExtTestRate s r u p q fun ε => C * (ε + 1 / ((n : ℝ) + 1) ^ 5 + η / ((n : ℝ) + 1) ^ 2) := by
  have hu6 : ContDiff ℝ 6 u := hu.of_le (by exact_mod_cast (by omega : 6 ≤ max p q + 1))
  obtain ⟨D, hD, hA⟩ := approx_source hname hk hu6 hφ hpde
  refine ⟨D, hD, ?_⟩
  intro iter hit b hb n hN hoff eps heps source η hsrc hp4 hq4 hp' hq' s hs
  obtain ⟨hS, A⟩ := hA hit hb hN hoff heps hsrc (by omega) (by omega) hs
  exact ⟨C87_all hS A, ext_test_rate hname heps hp4 hq4 hp' hq' hu hS A⟩

/-- **C87** the option `-s`: the nine choices are the nine kinds of extension, each once -/
theorem C87_setypes : ∃ l : List (ℕ × EType), setSetypes (some setypeChoices) = .ok (some l) ∧ l.Nodup ∧
    ∀ (sid : Fin 3) (et : EType), (sid.val, et) ∈ l := by
  refine ⟨[(0, .left), (0, .standard), (0, .right), (1, .left), (1, .standard), (1, .right), (2, .left), (2, .standard), (2, .right)],
    rfl, by decide, ?_⟩
  intro sid et
  fin_cases sid <;> cases et <;> decide

/-- the characters of an item of the option `-s` -/
def setypeChars (sid : Fin 3) (et : EType) : List Char :=
  [match sid with | 0 => '0' | 1 => '1' | 2 => '2', match et with | .left => 'l' | .standard => 's' | .right => 'r']

/-- **C87** which entries the option `-s` selects: all of them when it is not given, otherwise those of the kinds given. -/
theorem C87_selection :
    (∃ t, setSetypes none = .ok t ∧ ∀ x : Entry, checked t x = true) ∧
    ∀ kinds : List (Fin 3 × EType), ∃ t, setSetypes (some (kinds.map fun z => setypeChars z.1 z.2)) = .ok t ∧
      ∀ x : Entry, checked t x = true ↔ x.setype ∈ kinds := by
  refine ⟨⟨none, rfl, fun _ => rfl⟩, fun kinds => ?_⟩
  have hone : ∀ z : Fin 3 × EType, parseSetype (setypeChars z.1 z.2) = .ok (z.1.val, z.2) := by
    rintro ⟨sid, et⟩
    fin_cases sid <;> cases et <;> rfl
  have hm : (kinds.map fun z => setypeChars z.1 z.2).mapM parseSetype = .ok (kinds.map fun z => (z.1.val, z.2)) := by
    induction kinds with
    | nil => rfl
    | cons z l ih => rw [List.map_cons, List.mapM_cons, hone, ok_bind, ih, ok_bind, pure_eq_ok, List.map_cons]
  refine ⟨some (kinds.map fun z => (z.1.val, z.2)), ?_, fun x => ?_⟩
  · show ((kinds.map fun z => setypeChars z.1 z.2).mapM parseSetype >>= fun l => pure (some l)) = _
    rw [hm, ok_bind, pure_eq_ok]
  · simp only [checked, decide_eq_true_eq, List.mem_map, Prod.mk.injEq]
    constructor
    · rintro ⟨⟨a, b⟩, hz, h1, h2⟩
      have : x.setype = (a, b) := Prod.ext (Fin.ext h1.symm) h2.symm
      rw [this]
      exact hz
    · exact fun h => ⟨x.setype, h, rfl, rfl⟩

/-- nothing in C87 is empty: for the plane wave, on every shipped boundary and grid, the run ends and its number obeys the bound -/
example {name : String} {r : ℝ → ℝ} (hname : chooseBoundary name = .ok r) : ∃ C ε : ℝ, ∀ {iter : Iter}, IsIter iter →
    ∀ {b : Brentq}, BrentqSpec b → ∀ {n : ℕ}, 16 ≤ n + 1 → ∀ {source : Source}, source.homogeneous = true →
    (∀ x y, source.f x y = 0) → ∀ {fit : Chebfit}, IsChebfit fit →
    ∃ (s : PSolver) (bc du : ℝ → Fin 3 → ℂ) (e : ℝ),
      extensionTest s fit (chebRoots 1024) bc du (fun ρ th => (eExpected smoothK (polarPoint ρ th).1 (polarPoint ρ th).2).1) none = .ok e ∧
      e ≤ C * (ε + 1 / ((n : ℝ) + 1) ^ 5) := by
  obtain ⟨w1, w2⟩ := planeWave_helmholtz smoothK
  set u : ℝ × ℝ → ℂ := fun q => (eExpected smoothK q.1 q.2).1 with hu
  have hsm : ContDiff ℝ (max 12 12 + 1 : ℕ) u := by
    unfold eExpected at hu
    rw [hu]
    simp only []
    refine Complex.contDiff_exp.comp (contDiff_const.mul ?_)
    have : ContDiff ℝ (max 12 12 + 1 : ℕ) fun q : ℝ × ℝ => 4 / 5 * smoothK * q.1 + 3 / 5 * smoothK * q.2 := by fun_prop
    exact Complex.ofRealCLM.contDiff.comp this
  obtain ⟨C, -, h⟩ := C87_homogeneous hname (Or.inl rfl) (p := 12) (q := 12) (by norm_num) hsm w2
  have hM : ∀ sid i, ∃ M, ∀ x ∈ enlarged 1 probA probR sid, ‖iteratedDeriv (nBasisBySid 12 12 sid) (cauchyData u probA r sid i) x‖ ≤ M := by
    intro sid i
    have hc := cauchyData_contDiff hsm probA (chooseBoundary_smooth hname _) (chooseBoundary_tame hname).regular sid i
    have hcomp : IsCompact (enlarged 1 probA probR sid) := by
      unfold enlarged
      split <;> exact isCompact_Icc
    have hle : nBasisBySid 12 12 sid ≤ max 12 12 := by unfold nBasisBySid; split <;> omega
    exact hcomp.exists_bound_of_continuousOn (hc.continuous_iteratedDeriv _ (by exact_mod_cast hle)).continuousOn
  choose M hM using hM
  refine ⟨C, ∑ sid, ∑ i, |dataErr (nBasisBySid 12 12 sid) (M sid i) (halfWidth 1 probA probR sid)|,
    fun {iter} hit {b} hb {n} hN {source} hh hf0 {fit} hfit => ?_⟩
  obtain ⟨G, S⟩ := setup_shipped hit hb hN (Or.inr rfl) hname (C78_shipped n (order := 4) (Or.inr rfl)).1
  have hs := psInit_ok (k := smoothK) (eps := 1) (nc := 12) (nr := 12) (src := source) S.built
  obtain ⟨hc, hr⟩ := h hit hb hN one_pos hh hf0 (by norm_num) (by norm_num) (by norm_num) (by norm_num) hs
  obtain ⟨-, -, -, e, -, -, -, he, -, hle⟩ := (hr hfit (M := M)
    (ε := ∑ sid, ∑ i, |dataErr (nBasisBySid 12 12 sid) (M sid i) (halfWidth 1 probA probR sid)|) hM (fun sid i => by
      refine (le_abs_self _).trans ?_
      refine (single_le_sum (f := fun i => |dataErr (nBasisBySid 12 12 sid) (M sid i) (halfWidth 1 probA probR sid)|)
        (fun _ _ => abs_nonneg _) (mem_univ i)).trans ?_
      exact single_le_sum (f := fun sid => ∑ i, |dataErr (nBasisBySid 12 12 sid) (M sid i) (halfWidth 1 probA probR sid)|)
        (fun _ _ => sum_nonneg fun _ _ => abs_nonneg _) (mem_univ sid))
    (ex := fun ρ th => (eExpected smoothK (polarPoint ρ th).1 (polarPoint ρ th).2).1) (fun _ _ => rfl) none).2 hc
  exact ⟨_, _, _, e, he, hle⟩

/-! ### C88 -/

theorem arrGet_full {n : ℕ} (f : Arr (n + 2)) {q : Node} (h : InR n q) : arrGet f q.1 q.2 = .ok (fullNode f q.1 q.2) := by
  obtain ⟨h1, h2, h3, h4⟩ := h
  unfold arrGet fullNode pyIdx
  rw [dif_pos ⟨by omega, by push_cast; omega⟩, dif_pos ⟨by omega, by push_cast; omega⟩, dif_pos ⟨by omega, by omega, by omega, by omega⟩]
  rfl

theorem extendFSid_ok {s : PSolver} (R : Ready s) (nd : Node) : ∃ sid, extendFSid s nd = .ok sid := by
  unfold extendFSid
  by_cases h : nd ∈ s.G.allGamma 0
  · obtain ⟨et, het⟩ := getEtype_ok (R.hasCoord h)
    simp only [if_pos h, het, ok_bind, pure_eq_ok]
    split_ifs <;> exact ⟨_, rfl⟩
  · simp only [if_neg h, ok_bind, pure_eq_ok]
    split_ifs <;> exact ⟨_, rfl⟩

/-- some node of `Kplus` is extended from (or lies next to) one of the allowed segments -/
def AllowedNode (s : PSolver) (allowed : List (Fin 3)) : Prop :=
  ∃ nd ∈ s.G.Kplus, ∃ sid ∈ allowed, extendFSid s nd = .ok sid

/-- what `test_extend_f.py` computes from the array `f`: a maximum over the nodes of the allowed segments -/
theorem extendFTest_ok {iter : Iter} (hit : IsIter iter) {n : ℕ} {s : PSolver} (R : Ready s) (hK : ∀ q ∈ s.G.Kplus, InR n q)
    (f : Arr (n + 2)) (allowed : List (Fin 3)) :
    (¬ AllowedNode s allowed → extendFTest iter s f allowed = .error .valueError) ∧
    (AllowedNode s allowed → ∃ e, extendFTest iter s f allowed = .ok e ∧
      IsGreatest {x | ∃ nd ∈ s.G.Kplus, ∃ sid ∈ allowed, extendFSid s nd = .ok sid ∧
        x = ‖s.src.fPolar (s.e.polar nd).1 (s.e.polar nd).2 - fullNode f nd.1 nd.2‖} e) := by
  classical
  choose sd hsd using extendFSid_ok R
  set g : Node → List ℝ := fun nd => if sd nd ∈ allowed then
    [‖s.src.fPolar (s.e.polar nd).1 (s.e.polar nd).2 - fullNode f nd.1 nd.2‖] else [] with hg
  have key : ((iter 10 s.G.Kplus).foldlM (init := []) fun error nd => do
      let sid ← extendFSid s nd
      if sid ∈ allowed then
        let p := s.e.polar nd
        let v ← arrGet f nd.1 nd.2
        return error ++ [‖s.src.fPolar p.1 p.2 - v‖]
      else return error : Py (List ℝ)) = .ok ([] ++ (iter 10 s.G.Kplus).flatMap g) := by
    rw [← foldlM_append_ok (f := fun nd => (do
      let sid ← extendFSid s nd
      if sid ∈ allowed then
        let v ← arrGet f nd.1 nd.2
        return [‖s.src.fPolar (s.e.polar nd).1 (s.e.polar nd).2 - v‖]
      else return [] : Py (List ℝ)))]
    · congr 1
      funext acc nd
      rw [hsd, ok_bind, ok_bind]
      by_cases h : sd nd ∈ allowed
      · simp only [if_pos h]
        rcases arrGet f nd.1 nd.2 with er | v
        · rfl
        · rfl
      · simp only [if_neg h, pure_eq_ok, ok_bind, List.append_nil]
    · intro nd hnd
      rw [hsd, ok_bind, hg]
      by_cases h : sd nd ∈ allowed
      · simp only [if_pos h]
        rw [arrGet_full f (hK nd (((hit _ _).2 nd).1 hnd))]
        rfl
      · simp only [if_neg h, pure_eq_ok]
  have hmem : ∀ x, x ∈ (iter 10 s.G.Kplus).flatMap g ↔ ∃ nd ∈ s.G.Kplus, ∃ sid ∈ allowed, extendFSid s nd = .ok sid ∧
      x = ‖s.src.fPolar (s.e.polar nd).1 (s.e.polar nd).2 - fullNode f nd.1 nd.2‖ := by
    intro x
    rw [List.mem_flatMap]
    constructor
    · rintro ⟨nd, hnd, hx⟩
      rw [hg] at hx
      simp only [] at hx
      split_ifs at hx with h
      · exact ⟨nd, ((hit _ _).2 nd).1 hnd, sd nd, h, hsd nd, List.mem_singleton.1 hx⟩
      · simp at hx
    · rintro ⟨nd, hnd, sid, hs, he, rfl⟩
      obtain rfl : sd nd = sid := Except.ok.inj ((hsd nd).symm.trans he)
      refine ⟨nd, ((hit _ _).2 nd).2 hnd, ?_⟩
      rw [hg]
      simp [hs]
  have habs : ((iter 10 s.G.Kplus).flatMap g).map (fun x => |x|) = (iter 10 s.G.Kplus).flatMap g := by
    conv_rhs => rw [← List.map_id ((iter 10 s.G.Kplus).flatMap g)]
    refine List.map_congr_left fun x hx => ?_
    obtain ⟨nd, -, y, -, -, rfl⟩ := (hmem x).1 hx
    exact abs_of_nonneg (norm_nonneg _)
  have hrun : extendFTest iter s f allowed = pyMax ((iter 10 s.G.Kplus).flatMap g) := by
    unfold extendFTest
    rw [key, ok_bind, List.nil_append, habs]
  constructor
  · intro hno
    have : (iter 10 s.G.Kplus).flatMap g = [] := by
      refine List.eq_nil_iff_forall_not_mem.2 fun x hx => hno ?_
      obtain ⟨nd, hnd, sid, hs, he, -⟩ := (hmem x).1 hx
      exact ⟨nd, hnd, sid, hs, he⟩
    rw [hrun, this]
    rfl
  · rintro ⟨nd, hnd, sid, hs, he⟩
    obtain ⟨e, he1, he2⟩ := pyMax_greatest (List.ne_nil_of_mem ((hmem _).2 ⟨nd, hnd, sid, hs, he, rfl⟩))
    refine ⟨e, hrun.trans he1, ?_⟩
    rwa [show {x | x ∈ (iter 10 s.G.Kplus).flatMap g} = _ from Set.ext hmem] at he2

/-- **C88** `test_extend_f.py` on a shipped boundary, for a smooth source that the problem evaluates exactly: the number printed is the
largest error of the extended source over the nodes of `Kplus` of the allowed segments, and at most `C N⁻³`. -/
theorem C88_source {name : String} {r : ℝ → ℝ} (hname : chooseBoundary name = .ok r) {k : ℝ}
    (hk : k = smoothK ∨ k = ihK ∨ k = quadK ∨ k = 1) {φ : ℝ × ℝ → ℂ} (hφ : ContDiff ℝ 3 φ) :
    ∃ C, 0 ≤ C ∧ ∀ {iter : Iter}, IsIter iter → ∀ {b : Brentq}, BrentqSpec b → ∀ {n : ℕ}, 16 ≤ n + 1 → ∀ {eps : ℝ} {p q : ℕ},
      ∀ {source : Source}, SrcOf source φ 0 → (∀ th, source.fPolar 0 th = φ (0, 0)) →
      ∀ {s : PSolver}, psInit iter (mkEnv b (n + 1) probAD probA probR r) 4 k eps p q source = .ok s →
      AllowedNode s [0, 1, 2] ∧ ∃ f : Arr (n + 2), setupF iter s = .ok f ∧ ∀ allowed,
        (¬ AllowedNode s allowed → extendFTest iter s f allowed = .error .valueError) ∧
        (AllowedNode s allowed → ∃ e, extendFTest iter s f allowed = .ok e ∧
          IsGreatest {x | ∃ nd ∈ s.G.Kplus, ∃ sid ∈ allowed, extendFSid s nd = .ok sid ∧
            x = ‖φ (s.e.coord nd) - fullNode f nd.1 nd.2‖} e ∧ e ≤ C / ((n : ℝ) + 1) ^ 3) := by
  have hpi := pi_pos
  have T := chooseBoundary_tame hname
  have hAD : 0 < probAD := by unfold probAD; positivity
  have hr6 : ContDiff ℝ 6 r := by exact_mod_cast chooseBoundary_smooth hname 6
  obtain ⟨K, L, X, L', B, B'⟩ := exists_srcBounds (u := fun _ => 0) contDiff_const hφ k probA probR hr6 T.regular
  have hL' : 0 ≤ L' := B'.cart.nonneg (by linarith [B.one])
  refine ⟨2 * L' * (probAD * √2) ^ 3, by positivity, ?_⟩
  intro iter hit b hb n hN eps p q source hsrc horig s hs
  have g := T.gentleAt hN
  have hready := ready_gentle hit hb hAD g T.regular (shipped_sides hN).1 (shipped_sides hN).2.1 (shipped_sides hN).2.2 hs
  have hz : NoZeroEig n 4 probAD k := by
    obtain ⟨h1, h2, h3, h4⟩ := C78_shipped n (order := 4) (Or.inr rfl)
    rcases hk with rfl | rfl | rfl | rfl <;> assumption
  obtain ⟨G, S⟩ := setup_shipped hit hb hN (Or.inr rfl) hname hz
  have hMp : G.Mplus ≠ ∅ := mplus_shipped T hN S
  obtain ⟨f, hf, hfz⟩ := C82_source hit hb hN T S hs hφ hsrc B.radius B'
  have hs' := hs
  rw [psInit_ok S.built] at hs'
  cases hs'
  set s : PSolver := ⟨mkEnv b (n + 1) probAD probA probR r, 4, k, eps, setupBasis p q, G,
    buildCache (mkEnv b (n + 1) probAD probA probR r) (G.allGamma 0), source⟩ with hsdef
  have hin : ∀ q ∈ s.G.Kplus, InR n q := by
    intro q hq
    by_cases hm : q ∈ G.Mplus
    · exact (S.core.m0 q).1 (Or.inl hm)
    · exact S.gamR q (kplus_outside hit hAD g.apos g.aπ (by rw [g.at_two_pi]; exact g.Rpos.le) S.built S.margin
        (Finset.mem_sdiff.2 ⟨hq, hm⟩)).2.1
  have hval : ∀ nd, s.src.fPolar (s.e.polar nd).1 (s.e.polar nd).2 = φ (s.e.coord nd) := by
    intro nd
    obtain ⟨p1, p2, -⟩ := env_polar (mkEnv b (n + 1) probAD probA probR r) g.apos (by show probA ≤ 4 * π; linarith [g.aπ]) nd
    change source.fPolar _ _ = φ ((mkEnv b (n + 1) probAD probA probR r).coord nd)
    rw [← p1]
    rcases p2.eq_or_lt with h0 | h0
    · have : (s.e.polar nd).1 = 0 := h0.symm
      rw [this, horig]
      simp [polarPoint]
    · exact (hsrc.polar _ _ h0).f
  refine ⟨?_, f, hf, fun allowed => ?_⟩
  · obtain ⟨nd, hnd⟩ := Finset.nonempty_iff_ne_empty.2 hMp
    obtain ⟨sid, hsid⟩ := extendFSid_ok hready nd
    refine ⟨nd, ?_, sid, by fin_cases sid <;> simp, hsid⟩
    obtain ⟨hg, -⟩ := psGrids_sets hit S.built
    have : nd ∈ G.toGrids.Kplus := by
      rw [hg] at hnd ⊢
      exact (mem_Kplus hit _ _ _ _).2 ⟨nd, hnd, (mem_kStencil _ _ _).2 (Or.inl rfl)⟩
    exact this
  · obtain ⟨t1, t2⟩ := extendFTest_ok hit hready hin f allowed
    refine ⟨t1, fun h => ?_⟩
    obtain ⟨e, e1, e2⟩ := t2 h
    simp only [hval] at e2
    refine ⟨e, e1, e2, ?_⟩
    obtain ⟨nd, hnd, sid, -, -, rfl⟩ := e2.1
    rw [norm_sub_rev]
    refine (hfz nd hnd).trans (le_of_eq ?_)
    rw [add_zero, show probAD / (n + 1 : ℕ) * √2 = probAD * √2 / ((n : ℝ) + 1) by push_cast; ring, div_pow, mul_div_assoc]

/-- **C88** the script itself, `Smooth_YCos` -/
theorem C88_ycos {name : String} {r : ℝ → ℝ} (hname : chooseBoundary name = .ok r) {k : ℝ}
    (hk : k = smoothK ∨ k = ihK ∨ k = quadK ∨ k = 1) :
    ∃ C, 0 ≤ C ∧ ∀ {iter : Iter}, IsIter iter → ∀ {b : Brentq}, BrentqSpec b → ∀ {n : ℕ}, 16 ≤ n + 1 → ∀ {eps : ℝ} {p q : ℕ},
      ∀ {s : PSolver}, psInit iter (mkEnv b (n + 1) probAD probA probR r) 4 k eps p q (spSource probAD (ycosF k)) = .ok s →
      ∃ f : Arr (n + 2), setupF iter s = .ok f ∧ ∃ e, extendFTest iter s f [0, 1, 2] = .ok e ∧
        IsGreatest {x | ∃ nd ∈ s.G.Kplus, x = ‖(((k ^ 2 - 1) * ((s.e.coord nd).2 * cos (s.e.coord nd).1) : ℝ) : ℂ) -
          fullNode f nd.1 nd.2‖} e ∧ e ≤ C / ((n : ℝ) + 1) ^ 3 := by
  have hpi := pi_pos
  have hA : 0 < probAD := by unfold probAD; positivity
  set φ : ℝ × ℝ → ℂ := fun q => (((k ^ 2 - 1) * (q.2 * cos q.1) : ℝ) : ℂ) with hφ
  have cφ : ContDiff ℝ 3 φ := by
    have : ContDiff ℝ 3 fun q : ℝ × ℝ => (k ^ 2 - 1) * (q.2 * cos q.1) := by fun_prop
    exact Complex.ofRealCLM.contDiff.comp this
  obtain ⟨C, hC, h⟩ := C88_source hname hk cφ
  refine ⟨C, hC, ?_⟩
  intro iter hit b hb n hN eps p q s hs
  obtain ⟨L, -, hL⟩ := exists_pd_bound (m := 3) (u := φ) (by exact_mod_cast cφ) 2
  have hf : ∀ r th, ycosF k r th = φ (polarPoint r th) := fun r th => by
    simp only [ycosF, hφ, polarPoint]
    push_cast
    ring
  have hsrc := C82_sympy cφ hf hA (by unfold probAD; linarith [pi_lt_four]) hL
  have hsrc0 : SrcOf (spSource probAD (ycosF k)) φ 0 := by
    refine ⟨hsrc.inhomo, hsrc.cart, ?_, hsrc.polar⟩
    have e : (spSource probAD (ycosF k)).f 0 0 = pyGet (spF probAD (ycosF k) 0 0) := rfl
    rw [e, (C56_ycos k hA).2.1 0 0]
    simp [pyGet, hφ]
  have hor : ∀ th, (spSource probAD (ycosF k)).fPolar 0 th = φ (0, 0) := fun th => by
    have e : (spSource probAD (ycosF k)).fPolar 0 th = pyGet (spFPolar probAD (ycosF k) 0 th) := rfl
    rw [e, (C56_ycos k hA).2.2 0 th]
    simp [pyGet, hφ]
  obtain ⟨ha, f, hf', hall⟩ := h hit hb hN hsrc0 hor hs
  obtain ⟨e, e1, e2, e3⟩ := (hall [0, 1, 2]).2 ha
  refine ⟨f, hf', e, e1, ?_, e3⟩
  have hready := ready_gentle hit hb hA ((chooseBoundary_tame hname).gentleAt hN) (chooseBoundary_tame hname).regular
    (shipped_sides hN).1 (shipped_sides hN).2.1 (shipped_sides hN).2.2 hs
  convert e2 using 1
  ext x
  constructor
  · rintro ⟨nd, hnd, rfl⟩
    obtain ⟨sid, hsid⟩ := extendFSid_ok hready nd
    exact ⟨nd, hnd, sid, by fin_cases sid <;> simp, hsid, rfl⟩
  · rintro ⟨nd, hnd, -, -, -, rfl⟩
    exact ⟨nd, hnd, rfl⟩

/-- nothing in C88 is empty: the script's own boundary, any grid it visits -/
example {r : ℝ → ℝ} (hname : chooseBoundary "outer-sine" = .ok r) : ∃ C : ℝ, ∀ {iter : Iter}, IsIter iter →
    ∀ {b : Brentq}, BrentqSpec b → ∀ {n : ℕ}, 16 ≤ n + 1 → ∃ (s : PSolver) (f : Arr (n + 2)) (e : ℝ),
      s.src = spSource probAD (ycosF smoothK) ∧ setupF iter s = .ok f ∧ extendFTest iter s f [0, 1, 2] = .ok e ∧
      e ≤ C / ((n : ℝ) + 1) ^ 3 := by
  obtain ⟨C, -, h⟩ := C88_ycos hname (k := smoothK) (Or.inl rfl)
  refine ⟨C, fun {iter} hit {b} hb {n} hN => ?_⟩
  obtain ⟨G, S⟩ := setup_shipped hit hb hN (Or.inr rfl) hname (C78_shipped n (order := 4) (Or.inr rfl)).1
  have hs := psInit_ok (k := smoothK) (eps := 1) (nc := 3) (nr := 3) (src := spSource probAD (ycosF smoothK)) S.built
  obtain ⟨f, hf, e, he, -, hle⟩ := h hit hb hN hs
  exact ⟨_, f, e, rfl, hf, he, hle⟩

/-! ### the loop over the grids -/

/-- **C88** the loop of both scripts: if every run succeeds, the rows are the grids `N 2^i ≤ c` in order with their errors, and from the
second on the base-two logarithm of the quotient of consecutive errors -/
theorem C88_loop {run : ℕ → Py ℝ} {err : ℕ → ℝ} (c : ℕ) : ∀ (m N : ℕ), 0 < N → (∀ i < m, N * 2 ^ i ≤ c) → c < N * 2 ^ m →
    (∀ i < m, run (N * 2 ^ i) = .ok (err (N * 2 ^ i))) → ∀ (fuel : ℕ), m < fuel → ∀ prev : Option ℝ,
    ∃ rows, testLoop run c fuel N prev = some (.ok rows) ∧ rows.length = m ∧ ∀ i (h : i < rows.length),
      rows[i] = (N * 2 ^ i, err (N * 2 ^ i), testRate (if i = 0 then prev else some (err (N * 2 ^ (i - 1)))) (err (N * 2 ^ i)))
  | 0, N, hN, _, hc, _, fuel + 1, _, prev => by
    refine ⟨[], ?_, rfl, fun i h => by simp at h⟩
    unfold testLoop
    rw [if_neg (by simpa using hc)]
  | m + 1, N, hN, hle, hc, hrun, fuel + 1, hf, prev => by
    obtain ⟨rows, h1, h2, h3⟩ := C88_loop c m (N * 2) (by omega) (fun i hi => by
      have := hle (i + 1) (by omega)
      rwa [pow_succ', ← mul_assoc] at this) (by rwa [pow_succ', ← mul_assoc] at hc) (fun i hi => by
      have := hrun (i + 1) (by omega)
      rwa [pow_succ', ← mul_assoc] at this) fuel (by omega) (some (err N))
    have h0 := hrun 0 (by omega)
    rw [pow_zero, mul_one] at h0
    refine ⟨(N, err N, testRate prev (err N)) :: rows, ?_, by simp [h2], ?_⟩
    · unfold testLoop
      rw [if_pos (by simpa using hle 0 (by omega)), h0]
      simp only [h1]
    · intro i hi
      rcases i with _ | i
      · simp
      · have hi' : i < rows.length := by simpa using hi
        rw [List.getElem_cons_succ, h3 i hi']
        have e : N * 2 * 2 ^ i = N * 2 ^ (i + 1) := by ring
        rw [e]
        rcases i with _ | i
        · simp
        · simp only [Nat.add_eq_zero_iff, one_ne_zero, and_false, if_false, Nat.add_sub_cancel]
          rw [show N * 2 * 2 ^ i = N * 2 ^ (i + 1) by ring]

/-- the rate a script prints after the error `e` on a grid when the error on the grid before was `prev`: none on the first grid,
otherwise the number of factors two between the two errors, or no number if one of them is zero -/
def _root_.Spec.IsTestRate : Option ℝ → ℝ → Option (Py ℝ) → Prop
  | none, _, ρ => ρ = none
  | some p, e, ρ => (e = 0 ∨ p = 0) ∧ ρ = some (.error .nanValue) ∨ e ≠ 0 ∧ p ≠ 0 ∧ ∃ x, ρ = some (.ok x) ∧ |p| = 2 ^ x * |e|

/-- **C88** the rates -/
theorem C88_rate (prev : Option ℝ) (e : ℝ) : IsTestRate prev e (testRate prev e) := by
  rcases prev with _ | p
  · rfl
  · show _ ∨ _
    by_cases h : e = 0 ∨ p = 0
    · exact Or.inl ⟨h, by simp only [testRate, Option.map_some, if_pos h]; rfl⟩
    · refine Or.inr ⟨fun h' => h (Or.inl h'), fun h' => h (Or.inr h'), logb 2 (p / e), by
        simp only [testRate, Option.map_some, if_neg h]; rfl, ?_⟩
      rw [not_or] at h
      have hpe : p / e ≠ 0 := div_ne_zero h.2 h.1
      rw [← Real.logb_abs, Real.rpow_logb (by norm_num) (by norm_num) (abs_pos.2 hpe), abs_div,
        div_mul_cancel₀ _ (abs_ne_zero.2 h.1)]

/-- an error that falls from 1 to 1/16 gives the rate 4 -/
example (ρ : Option (Py ℝ)) (h : IsTestRate (some 1) (1 / 16) ρ) : ρ = some (.ok 4) := by
  rcases h with ⟨h, -⟩ | ⟨-, -, x, rfl, h⟩
  · norm_num at h
  · have e : (2:ℝ) ^ x = 2 ^ (4:ℝ) := by
      rw [abs_of_pos one_pos, abs_of_pos (by norm_num : (0:ℝ) < 1 / 16)] at h
      have h4 : (2:ℝ) ^ (4:ℝ) = 16 := by norm_num
      rw [h4]; linarith
    have := Real.rpow_right_inj (x := 2) (by norm_num) (by norm_num) |>.1 e
    rw [this]

/-- **C88** the loop stops at the first exception -/
theorem C88_loop_error {run : ℕ → Py ℝ} {c N : ℕ} (h : N ≤ c) {e : PyErr} (he : run N = .error e) (fuel : ℕ) (prev : Option ℝ) :
    testLoop run c (fuel + 1) N prev = some (.error e) := by
  unfold testLoop
  rw [if_pos h, he]

/-- **C88** with the grid size 0 the loop does not end (if the run returns at all) -/
theorem C88_loop_zero {run : ℕ → Py ℝ} {c : ℕ} {x : ℝ} (h : run 0 = .ok x) : ∀ fuel prev, testLoop run c fuel 0 prev = none
  | 0, _ => rfl
  | fuel + 1, prev => by
    unfold testLoop
    rw [if_pos (Nat.zero_le c), h]
    simp only [Nat.zero_mul, C88_loop_zero h fuel]

/-- the grids of `test_extend_f.py` -/
example : (∀ i < 5, 16 * 2 ^ i ≤ 256) ∧ 256 < 16 * 2 ^ 5 := by decide

end Pot
