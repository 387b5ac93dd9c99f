import Verif.Model.Ranges
import Verif.Model.Classes
import Verif.Props.Names
import Verif.Proofs.Calls

/-!
# C118: segment numbers, orders and basis indices stay in their ranges

C116 says for which values of a parameter eleven functions read an unbound name.  Here: no call in the repository gives them such a value, so
none of them does; and the assertions `sid == 2` hold.
-/

namespace Spec

/-- the values that arise: 2 and 4 for the order of the scheme; 0, 1, 2 for segments; 1, 2 for radii; 2 for the functions of the
inclined radius; 0, 1 for the two kinds of basis functions, with `None` for "no basis function" where that is possible -/
def orders : List (Option ℕ) := [some 2, some 4]
/-- the segments of the boundary -/
def segments : List (Option ℕ) := [some 0, some 1, some 2]
/-- the two radii -/
def radii : List (Option ℕ) := [some 1, some 2]
/-- Dirichlet and Neumann basis functions -/
def kinds : List (Option ℕ) := [some 0, some 1]

end Spec

namespace Pot
namespace Ranges

open Names (conditional Conditional)

/-- the range of every node -/
def range : Node → List Val
  | .argO | .schemeOrder | .getM | .order => Spec.orders
  | .getSid | .evalDnB => none :: Spec.segments
  | .bDesc | .sampleBySid | .sampleSid | .evalDU | .chebCoef | .evalG | .evalGInv | .evalDGInv | .spanCenter | .xiDerivsInner
  | .xiDerivs | .taylorSid | .fGetSid | .etypeSid | .etype => Spec.segments
  | .radius12r | .radius0lr | .radius => Spec.radii
  | .radiusPoint | .distRadius | .signedDist => [some 2]
  | .biQ | .biBasis | .biLooked | .allMK => Spec.kinds
  | .biBoundary | .biMv | .bi _ _ | .biTaylor | .biXi | .biInner => none :: Spec.kinds
  | .etypeFilter | .colorPlot => []
  | .extendF => [some 0]

/-- all nodes -/
def nodes : List Node := [.argO, .schemeOrder, .getM, .order, .getSid, .bDesc, .sampleBySid, .sampleSid, .evalDU, .chebCoef, .evalG,
  .evalGInv, .evalDGInv, .spanCenter, .evalDnB, .xiDerivsInner, .xiDerivs, .taylorSid, .radius12r, .radius0lr, .radius, .radiusPoint,
  .distRadius, .signedDist, .biQ, .biBasis, .biBoundary, .biMv, .bi 0 0, .bi 0 1, .bi 0 2, .bi 1 0, .bi 1 1, .bi 1 2, .bi 2 0, .bi 2 1,
  .bi 2 2, .biTaylor, .biXi, .biInner, .biLooked, .etypeFilter, .fGetSid, .etypeSid, .etype, .extendF, .allMK, .colorPlot]

theorem mem_nodes (n : Node) : n ∈ nodes := by
  cases n with
  | bi s e => revert s e; decide
  | _ => decide

/-! ## Upper bounds -/

/-- one place, given ranges -/
def closed (r : Node → List Val) (n : Node) : Src → Bool
  | .const _ vs => vs.all fun v => decide (v ∈ r n)
  | .flow _ m => (r m).all fun v => decide (v ∈ r n)
  | .only _ m vs => (r m).all fun v => decide (v ∈ vs → v ∈ r n)
  | .same _ m m' => (r m).all fun v => decide (v ∈ r m' → v ∈ r n)
  | .image _ m f => (r m).all fun v => (f v).all fun w => decide (w ∈ r n)

theorem closed_range : ∀ n ∈ nodes, ((src n).all (closed range n)) = true := by decide +kernel

theorem takes_range {n : Node} {v : Val} (h : Takes n v) : v ∈ range n := by
  have hc : ∀ {n : Node} {s : Src}, s ∈ src n → closed range n s = true := fun {n s} hs =>
    List.all_eq_true.1 (closed_range n (mem_nodes n)) s hs
  induction h with
  | const h1 h2 =>
    have := hc h1
    simp only [closed, List.all_eq_true, decide_eq_true_eq] at this
    exact this _ h2
  | flow h1 _ ih =>
    have := hc h1
    simp only [closed, List.all_eq_true, decide_eq_true_eq] at this
    exact this _ ih
  | only h1 _ h2 ih =>
    have := hc h1
    simp only [closed, List.all_eq_true, decide_eq_true_eq] at this
    exact this _ ih h2
  | same h1 _ _ ih1 ih2 =>
    have := hc h1
    simp only [closed, List.all_eq_true, decide_eq_true_eq] at this
    exact this _ ih1 ih2
  | image h1 _ h2 ih =>
    have := hc h1
    simp only [closed, List.all_eq_true, decide_eq_true_eq] at this
    exact this _ ih _ h2

/-! ## Lower bounds -/

/-- the values one place gives, given values of the nodes -/
def given (r : Node → List Val) : Src → List Val
  | .const _ vs => vs
  | .flow _ m => r m
  | .only _ m vs => (r m).filter fun v => decide (v ∈ vs)
  | .same _ m m' => (r m).filter fun v => decide (v ∈ r m')
  | .image _ m f => (r m).flatMap f

/-- the values after so many steps -/
def after : ℕ → Node → List Val
  | 0, _ => []
  | k + 1, n => (src n).flatMap (given (after k))

theorem after_takes : ∀ (k : ℕ) (n : Node) (v : Val), v ∈ after k n → Takes n v
  | 0, _, _, h => by simp [after] at h
  | k + 1, n, v, h => by
    rw [after, List.mem_flatMap] at h
    obtain ⟨s, hs, hv⟩ := h
    cases s with
    | const p vs => exact .const hs hv
    | flow p m => exact .flow hs (after_takes k m v hv)
    | only p m vs =>
      rw [given, List.mem_filter, decide_eq_true_eq] at hv
      exact .only hs (after_takes k m v hv.1) hv.2
    | same p m m' =>
      rw [given, List.mem_filter, decide_eq_true_eq] at hv
      exact .same hs (after_takes k m v hv.1) (after_takes k m' v hv.2)
    | image p m f =>
      rw [given, List.mem_flatMap] at hv
      obtain ⟨u, hu, hv⟩ := hv
      exact .image hs (after_takes k m u hu) hv

theorem range_after : ∀ n ∈ nodes, ∀ v ∈ range n, v ∈ after 10 n := by decide +kernel

/-- **C118**: the values that each parameter, attribute and result takes are exactly those of its range -/
theorem C118_ranges (n : Node) (v : Val) : Takes n v ↔ v ∈ range n :=
  ⟨takes_range, fun h => after_takes 10 n v (range_after n (mem_nodes n) v h)⟩

/-! ## No call is left out -/

/-- the function whose parameter a node is -/
def fnName : Node → Option String
  | .getM => some "ps/ps.py:18 get_M"
  | .sampleBySid => some "ps/debug.py:43 PsDebug.get_boundary_sample_by_sid"
  | .evalDU => some "problems/smooth.py:33 SmoothProblem.eval_d_u_outwards"
  | .chebCoef => some "ps/basis.py:91 PsBasis.get_chebyshev_coef"
  | .evalG => some "ps/basis.py:68 PsBasis.eval_g"
  | .evalGInv => some "ps/basis.py:72 PsBasis.eval_g_inv"
  | .evalDGInv => some "ps/basis.py:76 PsBasis.eval_d_g_inv_arg"
  | .spanCenter => some "ps/basis.py:53 PsBasis.get_span_center"
  | .evalDnB => some "ps/basis.py:80 PsBasis.eval_dn_B_arg"
  | .xiDerivsInner | .biInner => some "ps/extend.py:88 PsExtend._ext_calc_xi_derivs"
  | .xiDerivs | .biXi => some "ps/extend.py:154 PsExtend.ext_calc_xi_derivs"
  | .taylorSid | .biTaylor => some "ps/extend.py:173 PsExtend.do_extend_taylor"
  | .radius12r => some "ps/inhomo.py:95 PsInhomo._extend_inhomo_12_r"
  | .radius0lr => some "ps/inhomo.py:208 PsInhomo._extend_inhomo_0_lr"
  | .radius => some "ps/inhomo.py:377 PsInhomo._extend_inhomo_radius"
  | .radiusPoint => some "ps/ps.py:79 PizzaSolver.get_radius_point"
  | .distRadius => some "ps/ps.py:96 PizzaSolver.dist_to_radius"
  | .signedDist => some "ps/ps.py:101 PizzaSolver.signed_dist_to_radius"
  | .biQ => some "ps/ps.py:164 PizzaSolver.get_Q"
  | .biBasis => some "ps/basis.py:131 PsBasis.extend_basis"
  | .biBoundary => some "ps/extend.py:428 PsExtend.extend_boundary"
  | .biMv => some "ps/extend.py:368 PsExtend.mv_extend_boundary"
  | .bi 0 0 => some "ps/extend.py:278 PsExtend.do_extend_0_standard"
  | .bi 0 1 => some "ps/extend.py:291 PsExtend.do_extend_0_left"
  | .bi 0 2 => some "ps/extend.py:297 PsExtend.do_extend_0_right"
  | .bi 1 0 => some "ps/extend.py:303 PsExtend.do_extend_1_standard"
  | .bi 1 1 => some "ps/extend.py:315 PsExtend.do_extend_1_left"
  | .bi 1 2 => some "ps/extend.py:320 PsExtend.do_extend_1_right"
  | .bi 2 0 => some "ps/extend.py:326 PsExtend.do_extend_2_standard"
  | .bi 2 1 => some "ps/extend.py:342 PsExtend.do_extend_2_left"
  | .bi 2 2 => some "ps/extend.py:352 PsExtend.do_extend_2_right"
  | .etypeFilter => some "ps/debug.py:103 PsDebug.etype_filter"
  | .etypeSid => some "ps/extend.py:28 PsExtend.get_etype"
  | .allMK => some "scripts/plot_domain.py:83 plot_allMK"
  | .colorPlot => some "ps/debug.py:271 PsDebug.color_plot"
  | .argO | .schemeOrder | .order | .getSid | .bDesc | .sampleSid | .biLooked | .fGetSid | .etype | .extendF => none

/-- **C118**: the places that give a value to a parameter of a function are the calls of that function in the repository, all of them -/
theorem C118_complete : ∀ n : Node, ∀ t, fnOf n = some t →
    ((Calls.fns[t]?).map fun f => f.name) = fnName n ∧
    (src n).map Src.place = ((Calls.calls ++ Calls.misfits).filter fun c => decide (t ∈ c.targets)).map fun c => c.place := by
  have h : ∀ n ∈ nodes, (match fnOf n with
      | none => true
      | some t => decide (((Calls.fns[t]?).map fun f => f.name) = fnName n ∧
        (src n).map Src.place = ((Calls.calls ++ Calls.misfits).filter fun c => Calls.mem t c.targets).map fun c => c.place)) = true := by
    decide +kernel
  intro n t ht
  have := h n (mem_nodes n)
  rw [ht] at this
  simp only [decide_eq_true_eq] at this
  refine ⟨this.1, ?_⟩
  rw [this.2]
  congr 1
  refine List.filter_congr fun c _ => ?_
  rw [Bool.eq_iff_iff, Calls.mem_iff, decide_eq_true_eq]

/-- the calls of a class in the table of C114 -/
def callsOf (cls : String) : List String := (Classes.calls.filter fun c => c.2.1 == cls).map fun c => c.1

/-- **C118**: the orders come from the programs that make a solver, all of them: `solverOrder` has every call of `PizzaSolver`, and its
second places are the places of `schemeOrder`; `ZMethod` is made by runz.py and by interp_test.py (whose options are empty, so it makes
no solver), and `APSolver` by the solver alone. -/
theorem C118_solvers : solverOrder.map Prod.fst = callsOf "PizzaSolver" ∧
    (∀ p, p ∈ solverOrder.map Prod.snd ↔ p ∈ (src .schemeOrder).map Src.place) ∧
    callsOf "ZMethod" = ["runz.py:92", "scripts/zmethod/interp_test.py:31"] ∧
    callsOf "APSolver" = (src .order).map Src.place := by
  have h : solverOrder.map Prod.fst = callsOf "PizzaSolver" ∧
      (∀ p ∈ solverOrder.map Prod.snd, p ∈ (src .schemeOrder).map Src.place) ∧
      (∀ p ∈ (src .schemeOrder).map Src.place, p ∈ solverOrder.map Prod.snd) ∧
      callsOf "ZMethod" = ["runz.py:92", "scripts/zmethod/interp_test.py:31"] ∧
      callsOf "APSolver" = (src .order).map Src.place := by decide +kernel
  exact ⟨h.1, fun p => ⟨h.2.1 p, h.2.2.1 p⟩, h.2.2.2⟩

/-! ## Consequences -/

/-- the parameter on which each of the eleven functions depends -/
def links : List (Conditional × Node) := conditional.zip [.order, .evalDU, .spanCenter, .colorPlot, .biLooked, .taylorSid, .extendF,
  .radius12r, .radius0lr, .radius, .allMK]

/-- **C118**: none of the eleven functions of C116 is given a value outside its `cases`, so no execution of them reads an unbound name;
`color_plot`, which would, is never called. -/
theorem C118_unbound : links.map Prod.fst = conditional ∧
    ∀ l ∈ links, ∀ v, Takes l.2 v → ∃ k, v = some k ∧ k ∈ l.1.f.cases ∧
      ∀ o, l.1.f.Runs l.1.m k (fun x => x ∈ l.1.m.final) o → (∀ x, o ≠ .lostL x) ∧ ∀ x, o ≠ .lostG x := by
  refine ⟨rfl, fun l hl v hv => ?_⟩
  have hc : ∀ l ∈ links, ∀ v ∈ range l.2, ∃ k ∈ l.1.f.cases, v = some k := by decide +kernel
  obtain ⟨k, hk, hvk⟩ := hc l hl v (takes_range hv)
  refine ⟨k, hvk, hk, fun o ho => ?_⟩
  have hm : l.1 ∈ conditional := (List.of_mem_zip (show (l.1, l.2) ∈ _ from hl)).1
  have := ((Names.C116_conditional l.1 hm).2.2.2 k).1
  constructor
  · rintro x rfl
    exact this.1 ⟨_, Or.inl ⟨x, rfl⟩, ho⟩ hk
  · rintro x rfl
    exact this.1 ⟨_, Or.inr ⟨x, rfl⟩, ho⟩ hk

/-- **C118**: the assertions `sid == 2` of `get_radius_point` and `dist_to_radius` hold at every call; `get_M` and `get_etype` never fall
through to `None`; `get_span_center` is called with a segment number even where `get_sid` has returned `None`; nobody calls
`color_plot` or `etype_filter`. -/
theorem C118_asserts {v : Val} : (Takes .radiusPoint v → v = some 2) ∧ (Takes .distRadius v → v = some 2) ∧
    (Takes .getM v → v = some 2 ∨ v = some 4) ∧ (Takes .etypeSid v → v = some 0 ∨ v = some 1 ∨ v = some 2) ∧ ¬ Takes .etype none ∧
    (Takes .spanCenter v → v = some 0 ∨ v = some 1 ∨ v = some 2) ∧ Takes .evalDnB none ∧ ¬ Takes .colorPlot v ∧ ¬ Takes .etypeFilter v := by
  simp only [C118_ranges, range, Spec.orders, Spec.segments, List.mem_cons, List.not_mem_nil, or_false]
  simp

/-- the value 1 gets from `get_var` (ps/ps.py:198) through seven functions to `_ext_calc_xi_derivs` -/
example : Takes .biLooked (some 1) := by
  have h1 : Takes .biQ (some 1) := .const (p := "ps/ps.py:198") (vs := [some 1]) (by simp [src]) (by simp)
  have h2 : Takes .biBasis (some 1) := .flow (p := "ps/ps.py:168") (by simp [src]) h1
  have h3 : Takes .biBoundary (some 1) := .flow (p := "ps/basis.py:135") (by simp [src]) h2
  have h4 : Takes .biMv (some 1) := .flow (p := "ps/extend.py:433") (by simp [src]) h3
  have h5 : Takes (.bi 2 2) (some 1) := .flow (p := "ps/extend.py:412") (by simp [src, mvPlace]) h4
  have h6 : Takes .biTaylor (some 1) := .flow (p := "ps/extend.py:362") (by simp [src]) h5
  have h7 : Takes .biXi (some 1) := .flow (p := "ps/extend.py:194") (by simp [src]) h6
  have h8 : Takes .biInner (some 1) := .flow (p := "ps/extend.py:170") (by simp [src]) h7
  exact .image (p := "ps/extend.py:108") (f := fun v => if v = none then [] else [v]) (by simp [src]) h8 (by simp)

/-- the hypotheses of `C118_unbound` for `_extend_inhomo_12_r` with `radius_sid` 2 -/
example : ∃ l ∈ links, l.1.name = "x1" ∧ Takes l.2 (some 2) :=
  ⟨_, List.mem_of_getElem? (i := 7) rfl, rfl, (C118_ranges _ _).2 (by decide)⟩

end Ranges
end Pot
