import Verif.Model.Unused
import Verif.Props.Drawing
import Verif.Props.Basis

/-! # Property C111: the drawing and printing functions that no program calls -/

namespace Pot
open Real Spec

/-- **C111** the outline with its two continuations: 100 points of the continued curve each, the first over a quarter of the angle
`a` beyond a full turn, the second over a quarter of it before `a`.  If the curve ends at the sides, the continuations start and end
there. -/
theorem C111_extended (e : Env) :
    let t1 := fun i : ℕ => 2 * π + i * (e.a / 4 / 99)
    let t2 := fun i : ℕ => e.a - (99 - i) * (e.a / 4 / 99)
    plotGamma e = [.line (outline e.a e.R e.evalR), .line ((List.range 100).map fun i => polarPoint (e.evalR (t1 i)) (t1 i)),
      .line ((List.range 100).map fun i => polarPoint (e.evalR (t2 i)) (t2 i))] ∧
    t1 0 = 2 * π ∧ t1 99 = 2 * π + e.a / 4 ∧ t2 0 = e.a - e.a / 4 ∧ t2 99 = e.a ∧
    (e.evalR (2 * π) = e.R → polarPoint (e.evalR (t1 0)) (t1 0) = (e.R, 0)) ∧
    (e.evalR e.a = e.R → polarPoint (e.evalR (t2 99)) (t2 99) = polarPoint e.R e.a) := by
  intro t1 t2
  have a1 : t1 0 = 2 * π := by simp [t1]
  have a2 : t2 99 = e.a := by simp [t2]
  refine ⟨?_, a1, by simp only [t1]; push_cast; ring, by simp only [t2]; push_cast; ring, a2, fun h => ?_, fun h => ?_⟩
  · have h0 := plotGamma_eq e
    simp only [plotGamma, getBoundarySampleExt, Bool.false_eq_true, if_false, List.take_succ_cons, List.take_zero, List.map_cons,
      List.map_nil] at h0
    simp only [plotGamma, getBoundarySampleExt, if_true, List.map_cons, List.map_nil]
    simp only [List.cons.injEq, and_true, Drawn.line.injEq] at h0 ⊢
    refine ⟨h0, ?_⟩
    constructor
    · rw [show 100 = 99 + 1 from rfl, linspace_def]
      simp only [getBoundarySampleBySid, if_true, List.map_map]
      apply List.map_congr_left
      intro i _
      have : (2 * π + (i : ℝ) * ((2 * π + e.a / 4 - 2 * π) / (99 : ℕ))) = t1 i := by simp only [t1]; push_cast; ring
      simp only [Function.comp_apply, polarPoint, this]
    · rw [show 100 = 99 + 1 from rfl, linspace_def]
      simp only [getBoundarySampleBySid, if_true, List.map_map]
      apply List.map_congr_left
      intro i _
      have : (e.a - e.a / 4 + (i : ℝ) * ((e.a - (e.a - e.a / 4)) / (99 : ℕ))) = t2 i := by simp only [t2]; push_cast; ring
      simp only [Function.comp_apply, polarPoint, this]
  · rw [a1, h]; simp [polarPoint]
  · rw [a2, h]

/-- **C111** every attribute that a method of the solver reads is one of the solver's, but for the `plot_Gamma` of `color_plot`; the
methods read neither `all_Mplus` nor is there such an attribute. -/
theorem C111_names :
    (∀ x ∈ pizzaReads, x ∈ pizzaNames ∨ x = "plot_Gamma") ∧ "plot_Gamma" ∈ pizzaReads ∧ "plot_Gamma" ∉ pizzaNames ∧
    "all_Mplus" ∉ pizzaReads ∧ "all_Mplus" ∉ pizzaNames ∧ "matrices" ∉ debugNames := by
  decide +kernel

theorem read_plotGamma : readAttr "plot_Gamma" = .error .attributeError := if_neg C111_names.2.2.1
theorem read_allMplus : readAttr "all_Mplus" = .error .attributeError := if_neg C111_names.2.2.2.2.1
theorem read_matrices : readGlobal "matrices" = .error .nameError := if_neg C111_names.2.2.2.2.2

/-- storing a value at each node of a list -/
theorem fill_list (f : Node → Except Ends ℝ) (g : Node → ℝ) : ∀ (l : List Node) (Z : Node → ℝ), (∀ nd ∈ l, f nd = .ok (g nd)) →
    l.foldlM (fun Z nd => (do let z ← f nd; return Function.update Z nd z : Except Ends (Node → ℝ))) Z =
      .ok fun nd => if nd ∈ l then g nd else Z nd
  | [], Z, _ => by simp [pure, Except.pure]
  | nd :: l, Z, h => by
    rw [List.foldlM_cons, h nd (by simp)]
    simp only [bind, Except.bind, pure, Except.pure]
    have := fill_list f g l (Function.update Z nd (g nd)) fun x hx => h x (by simp [hx])
    simp only [bind, Except.bind, pure, Except.pure] at this
    rw [this]
    congr 1
    funext x
    by_cases h1 : x = nd
    · subst h1; simp
    · simp [h1]

/-- **C111** `color_plot` never returns.  Called with the values of a solution it draws nothing and stops with NameError: the module
`matrices` is not imported.  Called without, it stops with the error of NumPy if an expected value cannot be stored as a float;
otherwise it draws the expected values at the inner nodes, 0 elsewhere, over the coordinates of the nodes 1 to N - 1, and
stops with AttributeError. -/
theorem C111_color {iter : Iter} (hit : IsIter iter) (e : Env) (G : PsGrids) (hG : G.Mplus.Nonempty) (toFloat : ℂ → Except Ends ℝ)
    (hf : ∀ z, toFloat z ≠ .error .returns) (index : Node → ℕ) (expected : ℝ → ℝ → ℂ) :
    let run := colorPlot iter e G toFloat index expected
    (∀ u, run (some u) = (none, .nameError)) ∧ (∀ u, (run u).2 ≠ .returns) ∧
    ∀ g : Node → ℝ, (∀ nd ∈ G.Mplus, toFloat (expected (e.coord nd).1 (e.coord nd).2) = .ok (g nd)) →
      ∃ pic, run none = (some pic, .attributeError) ∧ (∀ nd, pic.Z nd = if nd ∈ G.Mplus then g nd else 0) ∧
        pic.axis.length = e.N - 1 ∧ ∀ i (h : i < pic.axis.length), pic.axis[i] = e.AD * ((i + 1 : ℝ) / e.N - 1 / 2) := by
  intro run
  have hsome : ∀ u, run (some u) = (none, .nameError) := by
    intro u
    obtain ⟨x, hx⟩ := hG
    have hx' := ((hit 30 G.Mplus).2 x).2 hx
    simp only [run, colorPlot]
    cases hl : iter 30 G.Mplus with
    | nil => rw [hl] at hx'; simp at hx'
    | cons y l =>
      rw [List.foldlM_cons, read_matrices]
      rfl
  refine ⟨hsome, ?_, ?_⟩
  · rintro (_ | u)
    · simp only [run, colorPlot, read_plotGamma]
      split
      · rename_i er her
        have : ∀ (l : List Node) (Z : Node → ℝ), l.foldlM (fun Z nd =>
            (do let z ← toFloat (expected (e.coord nd).1 (e.coord nd).2); return Function.update Z nd z : Except Ends (Node → ℝ))) Z ≠
              .error .returns := by
          intro l
          induction l with
          | nil => intro Z h; cases h
          | cons nd l ih =>
            intro Z
            rw [List.foldlM_cons]
            cases hz : toFloat (expected (e.coord nd).1 (e.coord nd).2) with
            | error er =>
              intro h
              have h' : (Except.error er : Except Ends (Node → ℝ)) = .error .returns := h
              cases h'
              exact hf _ hz
            | ok z => exact ih _
        intro hr
        subst hr
        exact this _ _ her
      · simp
    · rw [hsome u]; simp
  · intro g hg
    have := fill_list (fun nd => toFloat (expected (e.coord nd).1 (e.coord nd).2)) g (iter 30 G.Mplus) (fun _ => 0)
      fun nd hnd => hg nd (((hit 30 G.Mplus).2 nd).1 hnd)
    simp only [run, colorPlot, read_plotGamma]
    rw [this]
    refine ⟨_, rfl, ?_, by simp, ?_⟩
    · intro nd
      simp only [(hit 30 G.Mplus).2 nd]
    · intro i h
      simp [Env.coord, getCoord]

/-- NumPy that refuses complex numbers: with real expected values all is drawn, with a complex one nothing -/
noncomputable def strictFloat (z : ℂ) : Except Ends ℝ := by
  classical exact if z.im = 0 then .ok z.re else .error .typeError

example (iter : Iter) (hit : IsIter iter) (e : Env) (G : PsGrids) (hG : G.Mplus = {(3, 5), (3, 6)}) (index : Node → ℕ) :
    (∃ pic, colorPlot iter e G strictFloat index (fun x y => ((x * y : ℝ) : ℂ)) none = (some pic, .attributeError) ∧
      pic.Z (3, 5) = (e.coord (3, 5)).1 * (e.coord (3, 5)).2) ∧
    (colorPlot iter e G strictFloat index (fun _ _ => Complex.I) none).2 ≠ .returns := by
  have hf : ∀ z, strictFloat z ≠ .error .returns := by
    intro z
    unfold strictFloat
    split_ifs <;> simp
  have hne : G.Mplus.Nonempty := by rw [hG]; exact ⟨(3, 5), by simp⟩
  constructor
  · obtain ⟨pic, h1, h2, -⟩ := (C111_color hit e G hne strictFloat hf index fun x y => ((x * y : ℝ) : ℂ)).2.2
      (fun nd => (e.coord nd).1 * (e.coord nd).2) fun nd _ => by simp [strictFloat]
    exact ⟨pic, h1, by rw [h2, hG]; simp⟩
  · exact (C111_color hit e G hne strictFloat hf index fun _ _ => Complex.I).2.1 none

/-- **C111** `plot_Mplus` of plot_domain.py draws the continued outline and stops with AttributeError; the two functions of
plot_domain2.py that call `plot_Gamma` without a segment draw nothing and stop with TypeError. -/
theorem C111_marks (e : Env) (sets : ℕ → List Node) (label : ℕ → String) (attr : String) :
    plotMplus e sets = (plotGamma e, .attributeError) ∧ plotMarks2 e label attr sets = ([], .typeError) := by
  constructor
  · simp only [plotMplus, read_allMplus]
  · simp only [plotMarks2, plotGammaCall]

theorem npRint_spec (x : ℝ) : |npRint x - x| ≤ 1 / 2 ∧ ∃ n : ℤ, npRint x = n := by
  have h1 := Int.floor_le x
  have h2 := Int.lt_floor_add_one x
  unfold npRint
  split_ifs with a b c
  · exact ⟨by rw [abs_le]; constructor <;> linarith, _, rfl⟩
  · exact ⟨by rw [abs_le]; constructor <;> linarith, ⌊x⌋ + 1, by push_cast; ring⟩
  · exact ⟨by rw [abs_le]; constructor <;> linarith, _, rfl⟩
  · exact ⟨by rw [abs_le]; constructor <;> linarith, ⌊x⌋ + 1, by push_cast; ring⟩

/-- **C111** `print_c1` prints three lists, with the number and the size of the segment; together they are the real parts of all
coefficients, in their order and each once, to within half a hundredth and with at most two decimals. -/
theorem C111_print (p q : ℕ) (c1 : List ℂ) (hc : c1.length = p + 2 * q) :
    ∃ l0 l1 l2, printC1 (setupBasis p q) c1 = [(0, p, l0), (1, q, l1), (2, q, l2)] ∧ l0.length = p ∧ l1.length = q ∧ l2.length = q ∧
      List.Forall₂ (fun (z : ℂ) (x : ℝ) => |x - z.re| ≤ 1 / 200 ∧ ∃ n : ℤ, x = n / 100) c1 (l0 ++ l1 ++ l2) := by
  have key : ∀ l : List ℂ, List.Forall₂ (fun (z : ℂ) (x : ℝ) => |x - z.re| ≤ 1 / 200 ∧ ∃ n : ℤ, x = n / 100) l (l.map fun z => npRound2 z.re) := by
    intro l
    rw [List.forall₂_map_right_iff, List.forall₂_same]
    intro z _
    obtain ⟨h1, n, h2⟩ := npRint_spec (z.re * 100)
    refine ⟨?_, n, by rw [npRound2, h2]⟩
    rw [npRound2, abs_le] at *
    constructor <;> linarith [h1.1, h1.2]
  refine ⟨(c1.take p).map fun z => npRound2 z.re, ((c1.drop p).take q).map fun z => npRound2 z.re,
    ((c1.drop (p + q)).take q).map fun z => npRound2 z.re, ?_, ?_, ?_, ?_, ?_⟩
  · simp [printC1, (C40_layout p q).1]
  · simp; omega
  · simp; omega
  · simp; omega
  · rw [← List.map_append, ← List.map_append]
    have : c1.take p ++ (c1.drop p).take q ++ (c1.drop (p + q)).take q = c1 := by
      rw [List.take_of_length_le (l := c1.drop (p + q)) (by simp; omega), ← List.drop_drop, List.append_assoc, List.take_append_drop,
        List.take_append_drop]
    rw [this]
    exact key c1

/-- ties go to the even neighbour -/
example : npRound2 0.125 = 0.12 ∧ npRound2 0.375 = 0.38 ∧ npRound2 (-0.126) = -0.13 := by
  have h1 : ⌊(0.125 * 100 : ℝ)⌋ = 12 := by rw [Int.floor_eq_iff]; norm_num
  have h2 : ⌊(0.375 * 100 : ℝ)⌋ = 37 := by rw [Int.floor_eq_iff]; norm_num
  have h3 : ⌊(-0.126 * 100 : ℝ)⌋ = -13 := by rw [Int.floor_eq_iff]; norm_num
  refine ⟨?_, ?_, ?_⟩
  · rw [npRound2, npRint, h1]
    norm_num [show Even (12 : ℤ) from ⟨6, rfl⟩]
  · rw [npRound2, npRint, h2]
    norm_num [show ¬ Even (37 : ℤ) by decide]
  · rw [npRound2, npRint, h3]
    norm_num

/-- three coefficients on the curve, one on each side -/
example : ∃ l0 l1 l2, printC1 (setupBasis 3 1) [1, 2 + Complex.I, 0.126, -1, 5] = [(0, 3, l0), (1, 1, l1), (2, 1, l2)] := by
  obtain ⟨l0, l1, l2, h, -⟩ := C111_print 3 1 [1, 2 + Complex.I, 0.126, -1, 5] rfl
  exact ⟨l0, l1, l2, h⟩

end Pot
