import Verif.Model.Inhomo
import Verif.Proofs.Multivalue
import Verif.Proofs.Chebyshev
import Mathlib.Algebra.BigOperators.Group.Finset.Basic
import Mathlib.Algebra.Module.LinearMap.Defs

/-! # Lemmas about the extension loops -/

namespace Pot
open Spec Finset

/-! ## The visiting loop -/

/-- the labels the loop gives to a node, segment by segment -/
noncomputable def labels (G : PsGrids) (et : Fin 3 → Node → EType) (nd : Node) : List (Fin 3 × EType) :=
  ([0, 1, 2] : List (Fin 3)).flatMap fun sid => ((G.allGamma sid).filter fun q => q = nd).map fun q => (sid, et sid q)

/-- the items the loop gives to a node -/
noncomputable def items (G : PsGrids) (et : Fin 3 → Node → EType) (res : Fin 3 → Node → ℝ × ℂ) (nd : Node) :
    List Entry :=
  ([0, 1, 2] : List (Fin 3)).flatMap fun sid => ((G.allGamma sid).filter fun q => q = nd).map fun q =>
    ⟨(res sid q).1, (res sid q).2, (sid, et sid q)⟩

theorem items_labels (G : PsGrids) (et : Fin 3 → Node → EType) (res : Fin 3 → Node → ℝ × ℂ) (nd : Node) :
    (items G et res nd).map Entry.setype = labels G et nd := by
  simp [items, labels, Function.comp_def]

theorem items_length (G : PsGrids) (et : Fin 3 → Node → EType) (res : Fin 3 → Node → ℝ × ℂ) (nd : Node) :
    (items G et res nd).length =
      (G.allGamma 0).count nd + (G.allGamma 1).count nd + (G.allGamma 2).count nd := by
  have : ∀ l : List Node, (l.filter fun q => q = nd).length = l.count nd := by
    intro l
    rw [List.count_eq_countP, List.countP_eq_length_filter]
    congr 1
    refine List.filter_congr fun q _ => ?_
    by_cases h : q = nd <;> simp [h]
  simp [items, this]
  omega

theorem mvVisit_fold {s : PSolver} {ext : Fin 3 → EType → Node → Py (ℝ × ℂ)} {sid : Fin 3} {et : Node → EType}
    {res : Node → ℝ × ℂ} (L : List Node) :
    ∀ mv : Multivalue, mv.nodes = s.G.unionGamma →
      (∀ nd ∈ L, nd ∈ s.G.unionGamma ∧ getEtype s.e s.cache sid nd = .ok (et nd) ∧
        ext sid (et nd) nd = .ok (res nd)) →
      L.foldlM (init := mv) (mvVisit s ext sid) =
        .ok ⟨s.G.unionGamma, fun nd => mv.data nd ++
          (L.filter fun q => q = nd).map fun q => ⟨(res q).1, (res q).2, (sid, et q)⟩⟩ := by
  induction L with
  | nil => intro mv hn _; simp [pure_eq_ok, ← hn]
  | cons q L ih =>
    intro mv hn h
    obtain ⟨h1, h2, h3⟩ := h q (by simp)
    rw [List.foldlM_cons]
    have hv : mvVisit s ext sid mv q = .ok (mvExtend mv q [⟨(res q).1, (res q).2, (sid, et q)⟩]) := by
      unfold mvVisit
      rw [h2, ok_bind, h3, ok_bind, mvAppend_eq (by rw [hn]; exact h1)]
    rw [hv, ok_bind, ih _ (by simpa [mvExtend] using hn) (fun nd hnd => h nd (by simp [hnd]))]
    congr 2
    funext nd
    by_cases hq : nd = q
    · subst hq
      simp [mvExtend]
    · have hq' : q ≠ nd := fun h => hq h.symm
      simp [mvExtend, hq, hq']

/-- the loop succeeds when classification and extension succeed at every visited node -/
theorem mvLoop_ok {s : PSolver} {ext : Fin 3 → EType → Node → Py (ℝ × ℂ)} {et : Fin 3 → Node → EType}
    {res : Fin 3 → Node → ℝ × ℂ}
    (h : ∀ sid, ∀ nd ∈ s.G.allGamma sid, nd ∈ s.G.unionGamma ∧ getEtype s.e s.cache sid nd = .ok (et sid nd) ∧
      ext sid (et sid nd) nd = .ok (res sid nd)) :
    mvLoop s ext = .ok ⟨s.G.unionGamma, items s.G et res⟩ := by
  unfold mvLoop
  simp only [List.foldlM_cons, List.foldlM_nil]
  rw [mvVisit_fold (et := et 0) (res := res 0) _ _ rfl (h 0), ok_bind,
    mvVisit_fold (et := et 1) (res := res 1) _ _ rfl (h 1), ok_bind,
    mvVisit_fold (et := et 2) (res := res 2) _ _ rfl (h 2), ok_bind]
  simp only [pure_eq_ok, mvInit]
  congr 2
  funext nd
  simp [items]

theorem mvVisit_inv {s : PSolver} {ext : Fin 3 → EType → Node → Py (ℝ × ℂ)} {sid : Fin 3} (L : List Node) :
    ∀ mv r : Multivalue, mv.nodes = s.G.unionGamma → L.foldlM (init := mv) (mvVisit s ext sid) = .ok r →
      r.nodes = s.G.unionGamma ∧ ∀ nd ∈ L, nd ∈ s.G.unionGamma ∧
        ∃ t, getEtype s.e s.cache sid nd = .ok t ∧ ∃ x, ext sid t nd = .ok x := by
  induction L with
  | nil => intro mv r hn h; simp [pure_eq_ok] at h; subst h; exact ⟨hn, by simp⟩
  | cons q L ih =>
    intro mv r hn h
    rw [List.foldlM_cons] at h
    rcases hv : mvVisit s ext sid mv q with er | mv'
    · rw [hv, error_bind] at h; cases h
    · rw [hv, ok_bind] at h
      unfold mvVisit at hv
      rcases h1 : getEtype s.e s.cache sid q with er | t
      · rw [h1, error_bind] at hv; cases hv
      · rw [h1, ok_bind] at hv
        rcases h2 : ext sid t q with er | x
        · rw [h2, error_bind] at hv; cases hv
        · rw [h2, ok_bind] at hv
          by_cases hq : q ∈ mv.nodes
          · rw [mvAppend_eq hq] at hv
            cases hv
            obtain ⟨hrn, hall⟩ := ih _ r (by simpa [mvExtend] using hn) h
            refine ⟨hrn, fun nd hnd => ?_⟩
            rcases List.mem_cons.1 hnd with rfl | hnd
            · exact ⟨hn ▸ hq, t, h1, x, h2⟩
            · exact hall nd hnd
          · simp [mvAppend, mvGet, hq, throw_eq_error] at hv

/-- and only then -/
theorem mvLoop_inv {s : PSolver} {ext : Fin 3 → EType → Node → Py (ℝ × ℂ)} {m : Multivalue}
    (hm : mvLoop s ext = .ok m) :
    ∃ (et : Fin 3 → Node → EType) (res : Fin 3 → Node → ℝ × ℂ),
      (∀ sid, ∀ nd ∈ s.G.allGamma sid, nd ∈ s.G.unionGamma ∧ getEtype s.e s.cache sid nd = .ok (et sid nd) ∧
        ext sid (et sid nd) nd = .ok (res sid nd)) ∧ m = ⟨s.G.unionGamma, items s.G et res⟩ := by
  classical
  have hall : ∀ sid, ∀ nd ∈ s.G.allGamma sid, nd ∈ s.G.unionGamma ∧
      ∃ t, getEtype s.e s.cache sid nd = .ok t ∧ ∃ x, ext sid t nd = .ok x := by
    unfold mvLoop at hm
    simp only [List.foldlM_cons, List.foldlM_nil] at hm
    rcases h0 : (s.G.allGamma 0).foldlM (init := mvInit s.G.unionGamma) (mvVisit s ext 0) with er | m0
    · rw [h0, error_bind] at hm; cases hm
    · rw [h0, ok_bind] at hm
      obtain ⟨n0, a0⟩ := mvVisit_inv _ _ _ rfl h0
      rcases h1 : (s.G.allGamma 1).foldlM (init := m0) (mvVisit s ext 1) with er | m1
      · rw [h1, error_bind] at hm; cases hm
      · rw [h1, ok_bind] at hm
        obtain ⟨n1, a1⟩ := mvVisit_inv _ _ _ n0 h1
        rcases h2 : (s.G.allGamma 2).foldlM (init := m1) (mvVisit s ext 2) with er | m2
        · rw [h2, error_bind] at hm; cases hm
        · obtain ⟨n2, a2⟩ := mvVisit_inv _ _ _ n1 h2
          intro sid
          fin_cases sid
          · exact a0
          · exact a1
          · exact a2
  let et : Fin 3 → Node → EType := fun sid nd =>
    match getEtype s.e s.cache sid nd with
    | .ok t => t
    | .error _ => .standard
  let res : Fin 3 → Node → ℝ × ℂ := fun sid nd =>
    match ext sid (et sid nd) nd with
    | .ok x => x
    | .error _ => (0, 0)
  have hspec : ∀ sid, ∀ nd ∈ s.G.allGamma sid, nd ∈ s.G.unionGamma ∧
      getEtype s.e s.cache sid nd = .ok (et sid nd) ∧ ext sid (et sid nd) nd = .ok (res sid nd) := by
    intro sid nd hnd
    obtain ⟨hu, t, ht, x, hx⟩ := hall sid nd hnd
    have e1 : et sid nd = t := by simp only [et, ht]
    have e2 : res sid nd = x := by simp only [res, e1, hx]
    exact ⟨hu, by rw [e1, ht], by rw [e1, e2, hx]⟩
  exact ⟨et, res, hspec, Except.ok.inj (hm.symm.trans (mvLoop_ok hspec))⟩

/-! ## The derivative tables -/

/-- derivative of a basis function, as a number -/
noncomputable def bval (s : PSolver) (n JJ : ℕ) (arg : ℝ) (sid : Fin 3) : ℝ :=
  match evalDnB s.eps s.e.a s.e.R s.bas.bDesc n JJ arg sid with
  | .ok x => x
  | .error _ => 0

theorem evalDnB_ok (s : PSolver) {n JJ : ℕ} (hn : n ≤ 5) (hJ : JJ < s.bas.bDesc.length) (arg : ℝ) (sid : Fin 3) :
    evalDnB s.eps s.e.a s.e.R s.bas.bDesc n JJ arg sid = .ok (bval s n JJ arg sid) := by
  have : ∃ x, evalDnB s.eps s.e.a s.e.R s.bas.bDesc n JJ arg sid = .ok x := by
    unfold evalDnB
    rw [List.getElem?_eq_getElem hJ]
    by_cases h : s.bas.bDesc[JJ].sid = sid
    · simp only [h, if_true]
      interval_cases n <;> simp [evalDnT, pure_eq_ok]
    · simp [h, pure_eq_ok]
  obtain ⟨x, hx⟩ := this
  rw [hx]
  unfold bval
  rw [hx]

/-- a data source the derivative loop can read -/
def XiSrc.Valid (src : XiSrc) (B : List BDesc) : Prop :=
  match src with
  | .basis JJ _ => JJ < B.length
  | .full c0 c1 => B.length ≤ c0.length ∧ B.length ≤ c1.length

/-- the coefficient of a basis function in the data -/
def XiSrc.val (src : XiSrc) (index : Fin 2) (JJ : ℕ) : ℂ :=
  match src with
  | .basis JJ0 bi => if JJ = JJ0 ∧ index = bi then 1 else 0
  | .full c0 c1 => (if index = 0 then c0 else c1).getD JJ 0

/-- the derivative of the data, as a number -/
noncomputable def xiTab (s : PSolver) (src : XiSrc) (arg : ℝ) (sid : Fin 3) (t : ℕ × Fin 2) : ℂ :=
  ∑ JJ ∈ range s.bas.bDesc.length, src.val t.2 JJ * (bval s t.1 JJ arg sid : ℂ)

theorem xiDeriv_ok (s : PSolver) {src : XiSrc} (hv : src.Valid s.bas.bDesc) (arg : ℝ) (sid : Fin 3) {n : ℕ}
    (hn : n ≤ 5) (index : Fin 2) : xiDeriv s src arg sid n index = .ok (xiTab s src arg sid (n, index)) := by
  have key : ∀ (L : List ℕ) (z : ℂ), (∀ JJ ∈ L, JJ < s.bas.bDesc.length ∧ src.coef index JJ = .ok (src.val index JJ)) →
      L.foldlM (init := z) (fun deriv JJ => do
        let b ← evalDnB s.eps s.e.a s.e.R s.bas.bDesc n JJ arg sid
        let c ← src.coef index JJ
        return deriv + c * b) =
      (.ok (z + (L.map fun JJ => src.val index JJ * (bval s n JJ arg sid : ℂ)).sum) : Py ℂ) := by
    intro L
    induction L with
    | nil => intro z _; simp [pure_eq_ok]
    | cons J L ih =>
      intro z h
      obtain ⟨h1, h2⟩ := h J (by simp)
      rw [List.foldlM_cons, evalDnB_ok s hn h1, ok_bind, h2, ok_bind, pure_eq_ok, ok_bind,
        ih _ (fun q hq => h q (by simp [hq]))]
      simp [add_assoc]
  unfold xiDeriv xiTab
  rcases src with ⟨JJ, bi⟩ | ⟨c0, c1⟩
  · have hv' : JJ < s.bas.bDesc.length := hv
    rw [key]
    · simp only [XiSrc.jjList, List.map_cons, List.map_nil, List.sum_cons, List.sum_nil, add_zero, zero_add]
      rw [sum_eq_single JJ]
      · intro b _ hb; simp [XiSrc.val, hb]
      · intro h; simp [hv'] at h
    · intro q hq
      simp only [XiSrc.jjList, List.mem_singleton] at hq
      subst hq
      refine ⟨hv', ?_⟩
      by_cases h : index = bi <;> simp [XiSrc.coef, XiSrc.val, h, pure_eq_ok]
  · obtain ⟨hv0, hv1⟩ := hv
    rw [key]
    · simp only [XiSrc.jjList, zero_add]
      rfl
    · intro q hq
      simp only [XiSrc.jjList, List.mem_range] at hq
      refine ⟨hq, ?_⟩
      have : q < (if index = 0 then c0 else c1).length := by split <;> omega
      simp [XiSrc.coef, XiSrc.val, vecGet, List.getElem?_eq_getElem this, List.getD_eq_getElem?_getD]

theorem extCalcXi_ok (s : PSolver) {src : XiSrc} (hv : src.Valid s.bas.bDesc) (types : List (ℕ × Fin 2)) (arg : ℝ)
    (sid : Fin 3) (ht : ∀ t ∈ types, t.1 ≤ 5) :
    extCalcXi s src types arg sid = .ok fun t => if t ∈ types then some (xiTab s src arg sid t) else none := by
  have key : ∀ (L : List (ℕ × Fin 2)) (d : XiDict), (∀ t ∈ L, t.1 ≤ 5) →
      L.foldlM (init := d) (fun d t => do
        let v ← xiDeriv s src arg sid t.1 t.2
        return Function.update d t (some v)) =
      (.ok (fun t => if t ∈ L then some (xiTab s src arg sid t) else d t) : Py XiDict) := by
    intro L
    induction L with
    | nil => intro d _; simp [pure_eq_ok]
    | cons q L ih =>
      intro d h
      rw [List.foldlM_cons, xiDeriv_ok s hv arg sid (h q (by simp)), ok_bind, pure_eq_ok, ok_bind,
        ih _ (fun t ht => h t (by simp [ht]))]
      congr 1
      funext t
      by_cases h1 : t ∈ L
      · simp [h1]
      · by_cases h2 : t = q
        · subst h2; simp [h1]
        · simp [h1, h2]
  unfold extCalcXi
  rw [key types _ ht]

theorem xiGet_some {d : XiDict} {n : ℕ} {i : Fin 2} {z : ℂ} (h : d (n, i) = some z) : xiGet d n i = .ok z := by
  simp [xiGet, h, pure_eq_ok]

/-- the dictionary holds the values of `x` for every derivative of order at most four -/
def Holds (d : XiDict) (x : ℕ × Fin 2 → ℂ) (types : List (ℕ × Fin 2)) : Prop := ∀ t ∈ types, d t = some (x t)

/-- the arguments `extend_radius` passes on -/
noncomputable def radiusArgs (n : ℝ) (x : ℕ × Fin 2 → ℂ) : ArcArgs :=
  { n := n, curv := 0, dCurvS := 0, d2CurvS := 0, xi0 := x (0, 0), xi1 := x (0, 1), dXi0 := x (1, 0),
    dXi1 := x (1, 1), d2Xi0 := x (2, 0), d2Xi1 := x (2, 1), d4Xi0 := x (4, 0) }

theorem extendRadius_ok (s : PSolver) (n : ℝ) {d : XiDict} {x : ℕ × Fin 2 → ℂ} (h : Holds d x radiusTypes) :
    extendRadius s n d = .ok (extendArbitrary s.k (radiusArgs n x)) := by
  unfold extendRadius
  rw [xiGet_some (h (0, 0) (by simp [radiusTypes])), ok_bind, xiGet_some (h (0, 1) (by simp [radiusTypes])), ok_bind,
    xiGet_some (h (1, 0) (by simp [radiusTypes])), ok_bind, xiGet_some (h (1, 1) (by simp [radiusTypes])), ok_bind,
    xiGet_some (h (2, 0) (by simp [radiusTypes])), ok_bind, xiGet_some (h (2, 1) (by simp [radiusTypes])), ok_bind,
    xiGet_some (h (4, 0) (by simp [radiusTypes])), ok_bind]
  rfl

/-- the derivatives `do_extend_0` reads -/
def arcTypes : List (ℕ × Fin 2) := [(0, 0), (0, 1), (1, 0), (1, 1), (2, 0), (2, 1), (3, 0), (4, 0)]

/-- the arguments `do_extend_0` passes on -/
noncomputable def outerArgs (r : ℝ → ℝ) (n th : ℝ) (x : ℕ × Fin 2 → ℂ) : PolarArgs :=
  { n := n, curv := curvTh r th, dCurvTh := dCurvTh r th, d2CurvTh := d2CurvTh r th,
    dThs := dThs r th, d2Ths := d2Ths r th, d3Ths := d3Ths r th, d4Ths := d4Ths r th,
    xi0 := x (0, 0), xi1 := x (0, 1), dXi0 := x (1, 0), dXi1 := x (1, 1), d2Xi0 := x (2, 0), d2Xi1 := x (2, 1),
    d3Xi0 := x (3, 0), d4Xi0 := x (4, 0) }

theorem cacheGet_ok {s : PSolver} {nd : Node} {c : ℝ × ℝ} (h : s.cache nd = some (some c)) :
    cacheGet s nd = .ok c := by simp [cacheGet, h, pure_eq_ok]

theorem doExtend0_ok (s : PSolver) {nd : Node} {c : ℝ × ℝ} (hc : s.cache nd = some (some c)) {d : XiDict}
    {x : ℕ × Fin 2 → ℂ} (h : Holds d x arcTypes) :
    doExtend0 s nd d = .ok (extendPolar s.k (outerArgs s.e.evalR c.1 c.2 x)) := by
  unfold doExtend0
  rw [cacheGet_ok hc, ok_bind]
  simp only []
  rw [xiGet_some (h (0, 0) (by simp [arcTypes])), ok_bind, xiGet_some (h (0, 1) (by simp [arcTypes])), ok_bind,
    xiGet_some (h (1, 0) (by simp [arcTypes])), ok_bind, xiGet_some (h (1, 1) (by simp [arcTypes])), ok_bind,
    xiGet_some (h (2, 0) (by simp [arcTypes])), ok_bind, xiGet_some (h (2, 1) (by simp [arcTypes])), ok_bind,
    xiGet_some (h (3, 0) (by simp [arcTypes])), ok_bind, xiGet_some (h (4, 0) (by simp [arcTypes])), ok_bind]
  rfl

/-- the Taylor-shifted table -/
noncomputable def shiftTab (x : ℕ × Fin 2 → ℂ) (delta : ℝ) (t : ℕ × Fin 2) : ℂ :=
  ∑ j ∈ range (taylorNTerms - t.1), x (t.1 + j, t.2) * ((delta ^ j / (j.factorial : ℝ) : ℝ) : ℂ)

theorem mem_taylorTypes (t : ℕ × Fin 2) : t ∈ taylorTypes ↔ t.1 < 5 := by
  obtain ⟨m, i⟩ := t
  simp only [taylorTypes, taylorNTerms, List.mem_flatMap, List.mem_range, List.mem_cons, List.not_mem_nil, or_false,
    Prod.mk.injEq]
  constructor
  · rintro ⟨a, ha, ⟨rfl, -⟩ | ⟨rfl, -⟩⟩ <;> exact ha
  · intro h
    refine ⟨m, h, ?_⟩
    fin_cases i <;> simp

theorem taylorShift1_ok {d0 : XiDict} {x : ℕ × Fin 2 → ℂ} (h : Holds d0 x taylorTypes) (delta : ℝ) (m : ℕ)
    (i : Fin 2) : taylorShift1 d0 delta m i = .ok (shiftTab x delta (m, i)) := by
  have key : ∀ (len s : ℕ) (z : ℂ), s + len ≤ 5 →
      (List.range' s len).foldlM (init := z) (fun acc l => do
        let fac : ℝ := delta ^ (l - m) / ((l - m).factorial : ℝ)
        let y ← xiGet d0 l i
        return acc + y * fac) =
      (.ok (z + ∑ j ∈ range len, x (s + j, i) *
        ((delta ^ (s + j - m) / ((s + j - m).factorial : ℝ) : ℝ) : ℂ)) : Py ℂ) := by
    intro len
    induction len with
    | zero => intro s z _; simp [pure_eq_ok]
    | succ len ih =>
      intro s z hs
      rw [List.range'_succ, List.foldlM_cons]
      simp only []
      rw [xiGet_some (h (s, i) ((mem_taylorTypes _).2 (by show s < 5; omega))), ok_bind, pure_eq_ok, ok_bind,
        ih (s + 1) _ (by omega), sum_range_succ' _ len]
      congr 1
      rw [add_assoc]
      congr 1
      rw [add_comm]
      congr 1
      refine sum_congr rfl fun j _ => ?_
      rw [show s + 1 + j = s + (j + 1) by omega]
  unfold taylorShift1 shiftTab
  by_cases hm : m ≤ 5
  · rw [key _ _ _ (by simp only [taylorNTerms]; omega), zero_add]
    congr 1
    refine sum_congr rfl fun j _ => ?_
    rw [show m + j - m = j by omega]
  · rw [show taylorNTerms - m = 0 by simp only [taylorNTerms]; omega]
    simp [pure_eq_ok]

theorem taylorShift_ok {d0 : XiDict} {x : ℕ × Fin 2 → ℂ} (h : Holds d0 x taylorTypes) (delta : ℝ) :
    ∃ d, taylorShift d0 delta = .ok d ∧ Holds d (shiftTab x delta) taylorTypes := by
  have key : ∀ (L : List ℕ) (i : Fin 2) (d : XiDict),
      L.foldlM (init := d) (fun d m => do
        let v ← taylorShift1 d0 delta m i
        return Function.update d (m, i) (some v)) =
      (.ok (fun t => if t.1 ∈ L ∧ t.2 = i then some (shiftTab x delta t) else d t) : Py XiDict) := by
    intro L i
    induction L with
    | nil => intro d; simp [pure_eq_ok]
    | cons q L ih =>
      intro d
      rw [List.foldlM_cons, taylorShift1_ok h, ok_bind, pure_eq_ok, ok_bind, ih]
      congr 1
      funext t
      obtain ⟨m, i'⟩ := t
      by_cases h2 : i' = i
      · subst h2
        by_cases h1 : m ∈ L
        · simp [h1]
        · by_cases h3 : m = q
          · subst h3; simp [h1]
          · simp [h1, h3]
      · simp [h2]
  refine ⟨fun t => if t.1 ∈ List.range taylorNTerms ∧ t.2 = 1 then some (shiftTab x delta t)
    else if t.1 ∈ List.range taylorNTerms ∧ t.2 = 0 then some (shiftTab x delta t) else none, ?_, ?_⟩
  · unfold taylorShift
    simp only [List.foldlM_cons, List.foldlM_nil]
    rw [key, ok_bind, key, ok_bind, pure_eq_ok]
  · rintro ⟨m, i⟩ ht
    have hm : m < 5 := (mem_taylorTypes _).1 ht
    have hm' : m ∈ List.range taylorNTerms := by simp only [taylorNTerms, List.mem_range]; exact hm
    fin_cases i <;> simp [hm']

theorem holds_mono {d : XiDict} {x : ℕ × Fin 2 → ℂ} {types types' : List (ℕ × Fin 2)} (h : Holds d x types)
    (hs : ∀ t ∈ types', t ∈ types) : Holds d x types' := fun t ht => h t (hs t ht)

theorem arcTypes_sub : ∀ t ∈ arcTypes, t ∈ taylorTypes := by
  intro t ht
  rw [mem_taylorTypes]
  simp only [arcTypes, List.mem_cons, List.not_mem_nil, or_false] at ht
  rcases ht with rfl | rfl | rfl | rfl | rfl | rfl | rfl | rfl <;> simp

theorem radiusTypes_sub : ∀ t ∈ radiusTypes, t ∈ taylorTypes := by
  intro t ht
  rw [mem_taylorTypes]
  simp only [radiusTypes, List.mem_cons, List.not_mem_nil, or_false] at ht
  rcases ht with rfl | rfl | rfl | rfl | rfl | rfl | rfl <;> simp

theorem extCalc_holds (s : PSolver) {src : XiSrc} (hv : src.Valid s.bas.bDesc) (types : List (ℕ × Fin 2)) (arg : ℝ)
    (sid : Fin 3) (ht : ∀ t ∈ types, t ∈ taylorTypes) :
    ∃ d, extCalcXi s src types arg sid = .ok d ∧ Holds d (xiTab s src arg sid) types := by
  refine ⟨_, extCalcXi_ok s hv types arg sid fun t h => ?_, fun t h => by simp [h]⟩
  have := (mem_taylorTypes t).1 (ht t h)
  omega

theorem doExtendTaylor0_ok (s : PSolver) {src : XiSrc} (hv : src.Valid s.bas.bDesc) {nd : Node} {c : ℝ × ℝ}
    (hc : s.cache nd = some (some c)) (arg delta n : ℝ) :
    doExtendTaylor s src nd arg 0 delta n =
      .ok (|delta| * s.e.R + |c.1|,
        extendPolar s.k (outerArgs s.e.evalR c.1 c.2 (shiftTab (xiTab s src arg 0) delta))) := by
  obtain ⟨d0, h0, hd0⟩ := extCalc_holds s hv taylorTypes arg 0 (fun _ h => h)
  obtain ⟨d, h1, hd⟩ := taylorShift_ok hd0 delta
  unfold doExtendTaylor
  rw [h0, ok_bind, h1, ok_bind, if_pos rfl, doExtend0_ok s hc (holds_mono hd arcTypes_sub), ok_bind,
    cacheGet_ok hc, ok_bind, pure_eq_ok]

theorem doExtendTaylorR_ok (s : PSolver) {src : XiSrc} (hv : src.Valid s.bas.bDesc) (nd : Node) {sid : Fin 3}
    (hs : sid ≠ 0) (arg delta n : ℝ) :
    doExtendTaylor s src nd arg sid delta n =
      .ok (|delta| + |n|, extendArbitrary s.k (radiusArgs n (shiftTab (xiTab s src arg sid) delta))) := by
  obtain ⟨d0, h0, hd0⟩ := extCalc_holds s hv taylorTypes arg sid (fun _ h => h)
  obtain ⟨d, h1, hd⟩ := taylorShift_ok hd0 delta
  unfold doExtendTaylor
  rw [h0, ok_bind, h1, ok_bind, if_neg hs, extendRadius_ok s n (holds_mono hd radiusTypes_sub), ok_bind, pure_eq_ok]

end Pot
