import Verif.Model.ZMethod
import Verif.Spec.Interp
import Verif.Proofs.MapM
import Mathlib.Data.List.GetD
import Mathlib.Data.List.Pairwise
import Mathlib.Tactic.Linarith
import Mathlib.Tactic.Positivity

/-!
# C55: the data handed to the interpolation
-/

namespace Pot
open Spec Real

theorem foldl_skip {α : Type} (P : ℕ → Prop) [DecidablePred P] (g : ℕ → α) : ∀ (l : List ℕ) (acc : List α),
    l.foldl (fun acc m => if P m then acc else acc ++ [g m]) acc = acc ++ (l.filter fun m => ¬ P m).map g
  | [], acc => by simp
  | m :: l, acc => by
    rw [List.foldl_cons, foldl_skip P g l]
    by_cases h : P m
    · rw [if_pos h, List.filter_cons_of_neg (by simpa using h)]
    · rw [if_neg h, List.filter_cons_of_pos (by simpa using h)]
      simp

theorem foldl_push {α : Type} (g : ℕ → α) : ∀ (l : List ℕ) (acc : List α),
    l.foldl (fun acc m => acc ++ [g m]) acc = acc ++ l.map g
  | [], acc => by simp
  | m :: l, acc => by rw [List.foldl_cons, foldl_push g l]; simp

theorem foldlM_row (f : ℕ → Py ℂ) (V : ℕ → ℂ) : ∀ (l : List ℕ) (acc : List ℝ × List ℝ), (∀ j ∈ l, f j = .ok (V j)) →
    l.foldlM (init := acc) (fun acc j => do
      let x ← f j
      return (acc.1 ++ [x.re], acc.2 ++ [x.im])) = (.ok (acc.1 ++ l.map fun j => (V j).re, acc.2 ++ l.map fun j => (V j).im) : Py _)
  | [], acc, _ => by simp
  | j :: l, acc, h => by
    rw [List.foldlM_cons, h j (by simp), ok_bind, pure_eq_ok, ok_bind, foldlM_row f V l _ (fun i hi => h i (by simp [hi]))]
    simp

theorem foldlM_rows (P : ℕ → Prop) [DecidablePred P] (f : ℕ → ℕ → Py ℂ) (V : ℕ → ℕ → ℂ) (cols : List ℕ) :
    ∀ (l : List ℕ) (acc : List ℝ × List ℝ), (∀ m ∈ l, ∀ j ∈ cols, f m j = .ok (V m j)) →
    l.foldlM (init := acc) (fun acc m => if P m then pure acc else cols.foldlM (init := acc) fun acc j => do
      let x ← f m j
      return (acc.1 ++ [x.re], acc.2 ++ [x.im]))
    = (.ok (acc.1 ++ (l.filter fun m => ¬ P m).flatMap fun m => cols.map fun j => (V m j).re,
        acc.2 ++ (l.filter fun m => ¬ P m).flatMap fun m => cols.map fun j => (V m j).im) : Py _)
  | [], acc, _ => by simp
  | m :: l, acc, h => by
    rw [List.foldlM_cons]
    by_cases hP : P m
    · rw [if_pos hP, pure_eq_ok, ok_bind, foldlM_rows P f V cols l _ (fun i hi => h i (by simp [hi])),
        List.filter_cons_of_neg (by simpa using hP)]
    · rw [if_neg hP, foldlM_row (f m) (V m) cols acc (h m (by simp)), ok_bind,
        foldlM_rows P f V cols l _ (fun i hi => h i (by simp [hi])), List.filter_cons_of_pos (by simpa using hP)]
      simp

/-- entry `i * c + j` of a concatenation of lists of length `c` -/
theorem flatMap_getD {α β : Type} (f : α → List β) (c : ℕ) (d : β) (x0 : α) : ∀ (l : List α), (∀ x ∈ l, (f x).length = c) →
    (l.flatMap f).length = l.length * c ∧
      ∀ i < l.length, ∀ j < c, (l.flatMap f).getD (i * c + j) d = (f (l.getD i x0)).getD j d
  | [], _ => by simp
  | x :: l, h => by
    obtain ⟨h1, h2⟩ := flatMap_getD f c d x0 l (fun y hy => h y (by simp [hy]))
    have hx := h x (by simp)
    rw [List.flatMap_cons]
    refine ⟨by rw [List.length_append, h1, hx, List.length_cons]; ring, fun i hi j hj => ?_⟩
    cases i with
    | zero => rw [Nat.zero_mul, Nat.zero_add, List.getD_append _ _ _ _ (by omega)]; rfl
    | succ i =>
      rw [List.getD_append_right _ _ _ _ (by rw [hx]; nlinarith), hx, show (i + 1) * c + j - c = i * c + j by
        rw [Nat.succ_mul]; omega, h2 i (by simpa using hi) j hj]
      rfl

/-- **C55** the lists handed over: the kept radii are those of the grid that are not below `rmin`, in the order of the grid; the
angles are all angles; the value `v[m, l]` for the `i`-th kept circle `m` is at position `i (N + 1) + l` of both value lists. -/
theorem C55_layout (p : PolarFD) (v : List (List ℂ)) (V : ℕ → ℕ → ℂ) (rmin : ℝ) (N : ℕ)
    (hv : ∀ m l, m ≤ N → l ≤ N → rowsGet v m l = .ok (V m l)) :
    ∃ (d : InterpData) (kept : List ℕ), zInterpData p v rmin N = .ok d ∧ kept.Pairwise (· < ·) ∧
      (∀ m, m ∈ kept ↔ m ≤ N ∧ rmin ≤ p.getR m) ∧
      d.rData = kept.map (fun m : ℕ => p.getR m) ∧ d.thData = (List.range (N + 1)).map (fun l : ℕ => p.getTh l) ∧
      d.vReal.length = kept.length * (N + 1) ∧ d.vImag.length = kept.length * (N + 1) ∧
      ∀ i < kept.length, ∀ l ≤ N, d.vReal.getD (i * (N + 1) + l) 0 = (V (kept.getD i 0) l).re ∧
        d.vImag.getD (i * (N + 1) + l) 0 = (V (kept.getD i 0) l).im := by
  have e1 := foldl_skip (fun m : ℕ => p.getR m < rmin) (fun m : ℕ => p.getR m) (List.range (N + 1)) []
  have e2 := foldl_push (fun l : ℕ => p.getTh l) (List.range (N + 1)) []
  have e3 := foldlM_rows (fun m : ℕ => p.getR m < rmin) (rowsGet v) V (List.range (N + 1)) (List.range (N + 1)) ([], [])
    (fun m hm l hl => hv m l (by rw [List.mem_range] at hm; omega) (by rw [List.mem_range] at hl; omega))
  set kept := (List.range (N + 1)).filter fun m : ℕ => ¬ p.getR m < rmin with hk
  have g1 := flatMap_getD (fun m => (List.range (N + 1)).map fun l => (V m l).re) (N + 1) 0 0 kept (by simp)
  have g2 := flatMap_getD (fun m => (List.range (N + 1)).map fun l => (V m l).im) (N + 1) 0 0 kept (by simp)
  refine ⟨⟨kept.map (fun m : ℕ => p.getR m), (List.range (N + 1)).map (fun l : ℕ => p.getTh l),
    kept.flatMap fun m => (List.range (N + 1)).map fun l => (V m l).re,
    kept.flatMap fun m => (List.range (N + 1)).map fun l => (V m l).im⟩, kept, ?_, ?_, ?_, rfl, rfl, g1.1, g2.1, ?_⟩
  · unfold zInterpData
    simp only
    rw [e3, ok_bind, e1, e2]
    rfl
  · exact List.Pairwise.filter _ List.pairwise_lt_range
  · intro m
    simp only [hk, List.mem_filter, List.mem_range, decide_eq_true_eq, not_lt]
    rw [Nat.lt_succ_iff]
  · intro i hi l hl
    refine ⟨?_, ?_⟩
    · rw [g1.2 i hi l (by omega), List.getD_eq_getElem?_getD]
      simp [show l < N + 1 by omega]
    · rw [g2.2 i hi l (by omega), List.getD_eq_getElem?_getD]
      simp [show l < N + 1 by omega]

/-- **C55** with an interpolation that meets its contract, `v_interp` takes the computed values at all kept nodes. -/
theorem C55_interp {interp2d : Interp2d} (hi : IsInterp2d interp2d) (p : PolarFD) (v : List (List ℂ)) (V : ℕ → ℕ → ℂ)
    (boundaryR bet : ℝ) (N : ℕ) (hN : 5 ≤ N) (hr : 0 < p.hr) (hth : 0 < p.hth)
    (hv : ∀ m l, m ≤ N → l ≤ N → rowsGet v m l = .ok (V m l))
    (h6 : zRmin N boundaryR bet ≤ p.getR ((N - 5 : ℕ) : ℝ)) :
    ∃ F, createVInterp interp2d p v boundaryR bet N = .ok F ∧
      ∀ m l : ℕ, m ≤ N → l ≤ N → zRmin N boundaryR bet ≤ p.getR m → F (p.getR m) (p.getTh l) = V m l := by
  obtain ⟨d, kept, hd, hks, hkm, hrd, htd, hl1, hl2, hval⟩ := C55_layout p v V (zRmin N boundaryR bet) N hv
  have hmono : ∀ {x y : ℕ}, x < y → p.getR x < p.getR y := by
    intro x y h
    have : (x : ℝ) < y := by exact_mod_cast h
    unfold PolarFD.getR
    nlinarith
  have hmonot : ∀ {x y : ℕ}, x < y → p.getTh x < p.getTh y := by
    intro x y h
    have : (x : ℝ) < y := by exact_mod_cast h
    unfold PolarFD.getTh
    nlinarith
  have hx : d.rData.Pairwise (· < ·) := by rw [hrd, List.pairwise_map]; exact hks.imp hmono
  have hy : d.thData.Pairwise (· < ·) := by rw [htd, List.pairwise_map]; exact List.pairwise_lt_range.imp hmonot
  have hylen : d.thData.length = N + 1 := by simp [htd]
  have hxlen : d.rData.length = kept.length := by simp [hrd]
  have hk6 : 6 ≤ kept.length := by
    have hsub : List.range' (N - 5) 6 ⊆ kept := by
      intro m hm
      rw [List.mem_range'_1] at hm
      rw [hkm]
      refine ⟨by omega, h6.trans ?_⟩
      rcases Nat.lt_or_ge (N - 5) m with h | h
      · exact (hmono h).le
      · rw [show m = N - 5 by omega]
    have := (List.nodup_range' (s := N - 5) (n := 6)).subperm hsub
    simpa using this.length_le
  obtain ⟨F, hF, hFv⟩ := hi d.rData d.thData d.vReal hx hy (by omega) (by omega) (by rw [hl1, hxlen, hylen])
  obtain ⟨G, hG, hGv⟩ := hi d.rData d.thData d.vImag hx hy (by omega) (by omega) (by rw [hl2, hxlen, hylen])
  refine ⟨fun r th => ⟨F r th, G r th⟩, ?_, fun m l hm hl hmin => ?_⟩
  · unfold createVInterp
    rw [hd, ok_bind, hF, ok_bind, hG, ok_bind]
    rfl
  · obtain ⟨i, hik, hi'⟩ := List.getElem_of_mem ((hkm m).2 ⟨hm, hmin⟩)
    have e1 : d.rData.getD i 0 = p.getR m := by
      rw [hrd, List.getD_eq_getElem?_getD]
      simp [hik, hi']
    have e2 : d.thData.getD l 0 = p.getTh l := by
      rw [htd, List.getD_eq_getElem?_getD]
      simp [show l < N + 1 by omega]
    have ek : kept.getD i 0 = m := by rw [List.getD_eq_getElem?_getD]; simp [hik, hi']
    have a1 := hFv i (by omega) l (by omega)
    have a2 := hGv i (by omega) l (by omega)
    rw [e1, e2, hylen, (hval i hik l hl).1, ek] at a1
    rw [e1, e2, hylen, (hval i hik l hl).2, ek] at a2
    exact Complex.ext a1 a2

/-- **C55** the circles left out: none below 128 cells; with 128 or more exactly those with radius less than two thirds of
`boundary.R - boundary.bet`. -/
theorem C55_rmin (N : ℕ) (boundaryR bet : ℝ) :
    (N < 128 → zRmin N boundaryR bet = 0) ∧ (128 ≤ N → zRmin N boundaryR bet = 2 / 3 * (boundaryR - bet)) := by
  refine ⟨fun h => ?_, fun h => ?_⟩ <;> unfold zRmin
  · rw [if_neg (by omega)]
  · rw [if_pos h]; ring

/-- an interpolation that meets the contract exists: look up the grid point -/
noncomputable def lookupInterp : Interp2d := fun x y z => .ok fun s t => z.getD (x.idxOf s * y.length + y.idxOf t) 0

theorem lookupInterp_spec : IsInterp2d lookupInterp := by
  intro x y z hx hy _ _ _
  refine ⟨_, rfl, fun i hi j hj => ?_⟩
  have nx : x.Nodup := hx.imp (fun h => h.ne)
  have ny : y.Nodup := hy.imp (fun h => h.ne)
  simp only [List.getD_eq_getElem?_getD, List.getElem?_eq_getElem hi, List.getElem?_eq_getElem hj, Option.getD_some,
    nx.idxOf_getElem, ny.idxOf_getElem]

/-- C55: `N = 6`, all circles kept, the array `v[m, l] = m + i l` -/
example : ∃ F, createVInterp lookupInterp ⟨6, π / 4, 4 / 7, 1, 2, 1 / 6, 1⟩
      ((List.range 7).map fun m : ℕ => (List.range 7).map fun l : ℕ => (⟨m, l⟩ : ℂ)) 2 0 6 = .ok F ∧
    F (PolarFD.getR ⟨6, π / 4, 4 / 7, 1, 2, 1 / 6, 1⟩ (2 : ℕ)) (PolarFD.getTh ⟨6, π / 4, 4 / 7, 1, 2, 1 / 6, 1⟩ (3 : ℕ)) = ⟨2, 3⟩ := by
  have h0 : zRmin 6 2 0 = 0 := (C55_rmin 6 2 0).1 (by norm_num)
  obtain ⟨F, hF, hv⟩ := C55_interp lookupInterp_spec ⟨6, π / 4, 4 / 7, 1, 2, 1 / 6, 1⟩
      ((List.range 7).map fun m : ℕ => (List.range 7).map fun l : ℕ => (⟨m, l⟩ : ℂ)) (fun m l => ⟨m, l⟩) 2 0 6 (by norm_num)
      (by norm_num) (by norm_num) (fun m l hm hl => by
        unfold rowsGet
        rw [listGet_of_lt _ _ (by simp; omega), ok_bind, listGet_of_lt _ _ (by simp; omega)]
        simp) (by rw [h0]; unfold PolarFD.getR; norm_num)
  refine ⟨F, hF, ?_⟩
  rw [hv 2 3 (by norm_num) (by norm_num) (by rw [h0]; unfold PolarFD.getR; norm_num)]
  norm_num

end Pot
