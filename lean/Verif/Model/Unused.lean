import Verif.Model.Drawing
import Verif.Model.Basis

/-!
# Model of the drawing and printing functions that no program calls

`PsDebug.color_plot` and `PsDebug.print_c1` (`ps/debug.py`), `plot_Mplus` of `scripts/plot_domain.py`, `plot_Mplus` and `plot_gamma` of
`scripts/plot_domain2.py`.

Left out: colours, kinds of markers, limits and legends, blank lines and the headline of `print_c1`; `plt` does what it is told and
returns.
-/

namespace Pot
open Real

/-- how a call ends -/
inductive Ends where
  | returns
  | nameError
  | attributeError
  | typeError
  deriving DecidableEq, Repr

/-- the attributes of a `PizzaSolver`: the methods and the names assigned to `self` in solver.py:13-152, extend.py:5-173,
ps/basis.py:9-135, ps/grid.py:4-264, ps/extend.py:24-434, ps/inhomo.py:8-456, ps/debug.py:12-301 and ps/ps.py:24-257.  The old code in
ps/grid.py:7-177 is a string and assigns nothing. -/
def pizzaNames : List String :=
  ["AD_len", "Kplus", "M0", "N", "N0", "__init__", "_array_calc_rel_convergence", "calc_rel_convergence", "construct_grids", "eval_error",
    "f", "get_coord", "get_coord_inv", "get_polar", "global_Mminus", "global_Mplus", "k", "problem", "setup_f"] ++
  ["extend_polar", "extend_arbitrary", "inhomo_extend_polar", "inhomo_extend_arbitrary"] ++
  ["B_desc", "N_SEGMENT", "c0", "calc_c0", "chebyshev_roots", "eps", "eval_d_g_inv_arg", "eval_dn_B_arg", "eval_g", "eval_g_inv",
    "extend_basis", "get_chebyshev_coef", "get_span_center", "segment_desc", "setup_basis"] ++
  ["Nminus", "Nplus", "all_gamma", "ps_construct_grids", "union_gamma"] ++
  ["_ext_calc_xi_derivs", "do_extend_0", "do_extend_0_left", "do_extend_0_right", "do_extend_0_standard", "do_extend_1_left",
    "do_extend_1_right", "do_extend_1_standard", "do_extend_2_left", "do_extend_2_right", "do_extend_2_standard", "do_extend_taylor",
    "ext_calc_xi_derivs", "extend_boundary", "extend_radius", "get_etype", "mv_extend_boundary", "taylor_n_terms"] ++
  ["_calc_inhomo_radius", "_extend_f_get_sid", "_extend_inhomo_0_lr", "_extend_inhomo_12_r", "_extend_inhomo_radius",
    "do_extend_inhomo_0_left", "do_extend_inhomo_0_right", "do_extend_inhomo_0_standard", "do_extend_inhomo_1_left",
    "do_extend_inhomo_1_right", "do_extend_inhomo_1_standard", "do_extend_inhomo_2_left", "do_extend_inhomo_2_right",
    "do_extend_inhomo_2_standard", "extend_f", "extend_inhomo_f", "mv_extend_inhomo_f"] ++
  ["Q_residual", "c0_test", "c1", "c1_test", "calc_c1_exact", "color_plot", "etype_filter", "get_boundary_sample",
    "get_boundary_sample_by_sid", "print_c1"] ++
  ["M", "R", "a", "ap_sol_f", "apply_L", "boundary", "boundary_coord_cache", "build_boundary_coord_cache", "calc_ap_sol_f",
    "dist_to_radius", "fake_grid", "get_Q", "get_boundary_coord", "get_potential", "get_radius_point", "get_trace", "get_var",
    "is_interior", "nu", "run", "scheme_order", "signed_dist_to_radius", "solve_ap", "solve_var"]

/-- the attributes that the methods of the same classes read from `self` -/
def pizzaReads : List String :=
  ["AD_len", "B_desc", "Kplus", "M", "M0", "N", "N_SEGMENT", "Nminus", "Nplus", "R", "_array_calc_rel_convergence",
    "_calc_inhomo_radius", "_ext_calc_xi_derivs", "_extend_f_get_sid", "_extend_inhomo_0_lr", "_extend_inhomo_12_r",
    "_extend_inhomo_radius", "a", "all_gamma", "ap_sol_f", "apply_L", "boundary", "boundary_coord_cache",
    "build_boundary_coord_cache", "c0", "c0_test", "c1", "calc_ap_sol_f", "calc_c0", "calc_c1_exact", "chebyshev_roots",
    "construct_grids", "dist_to_radius", "do_extend_0", "do_extend_0_left", "do_extend_0_right", "do_extend_0_standard",
    "do_extend_1_left", "do_extend_1_right", "do_extend_1_standard", "do_extend_2_left", "do_extend_2_right",
    "do_extend_2_standard", "do_extend_inhomo_0_left", "do_extend_inhomo_0_right", "do_extend_inhomo_0_standard",
    "do_extend_inhomo_1_left", "do_extend_inhomo_1_right", "do_extend_inhomo_1_standard", "do_extend_inhomo_2_left",
    "do_extend_inhomo_2_right", "do_extend_inhomo_2_standard", "do_extend_taylor", "eps", "eval_d_g_inv_arg", "eval_dn_B_arg",
    "eval_error", "eval_g", "eval_g_inv", "ext_calc_xi_derivs", "extend_arbitrary", "extend_basis", "extend_boundary", "extend_f",
    "extend_inhomo_f", "extend_polar", "extend_radius", "f", "get_Q", "get_boundary_coord", "get_boundary_sample",
    "get_boundary_sample_by_sid", "get_chebyshev_coef", "get_coord", "get_etype", "get_polar", "get_potential",
    "get_radius_point", "get_span_center", "get_trace", "get_var", "global_Mminus", "global_Mplus", "inhomo_extend_arbitrary",
    "inhomo_extend_polar", "is_interior", "k", "mv_extend_boundary", "mv_extend_inhomo_f", "nu", "plot_Gamma", "problem",
    "ps_construct_grids", "scheme_order", "segment_desc", "setup_basis", "setup_f", "signed_dist_to_radius", "solve_ap",
    "solve_var", "taylor_n_terms", "union_gamma"]

/-- the names of the module `ps.debug`: ps/debug.py:1-12 -/
def debugNames : List String := ["np", "cos", "sin", "scipy", "jv", "it", "Result", "domain_util", "get_chebyshev_roots", "PsDebug"]

/-- reading the attribute of a solver -/
def readAttr (name : String) : Except Ends Unit := if name ∈ pizzaNames then .ok () else .error .attributeError

/-- reading a name of the module `ps.debug` -/
def readGlobal (name : String) : Except Ends Unit := if name ∈ debugNames then .ok () else .error .nameError

/-- what `color_plot` hands to `pcolor`: the coordinates along an axis and the values -/
structure ColorPic where
  axis : List ℝ
  Z : Node → ℝ

/-- ps/debug.py:271-301 `color_plot`: what has been drawn and how the call ends.  `u` is the argument, a flat array; `index` is
`matrices.get_index`, `expected` the exact solution, and `toFloat` what NumPy does on storing a number in an array of floats: it is an
error for some numbers.  `Z` is indexed by the nodes.  Loop 30. -/
noncomputable def colorPlot (iter : Iter) (e : Env) (G : PsGrids) (toFloat : ℂ → Except Ends ℝ) (index : Node → ℕ) (expected : ℝ → ℝ → ℂ)
    (u : Option (ℕ → ℂ)) : Option ColorPic × Ends :=
  let axis := (List.range (e.N - 1)).map fun i : ℕ => (e.coord ((i : ℤ) + 1, 0)).1
  let fill := (iter 30 G.Mplus).foldlM (init := fun _ : Node => (0 : ℝ)) fun Z nd => do
    match u with
    | some u => do
      readGlobal "matrices"
      return Function.update Z nd (u (index nd)).re
    | none => do
      let z ← toFloat (expected (e.coord nd).1 (e.coord nd).2)
      return Function.update Z nd z
  match fill with
  | .error er => (none, er)
  | .ok Z =>
    match readAttr "plot_Gamma" with
    | .error er => (some ⟨axis, Z⟩, er)
    | .ok _ => (some ⟨axis, Z⟩, .returns)

/-- plot_domain.py:64-81 `plot_Mplus`: the marks of the sets of `all_Mplus` if there is such an attribute -/
noncomputable def plotMplus (e : Env) (allMplus : ℕ → List Node) : List Drawn × Ends :=
  match readAttr "all_Mplus" with
  | .error er => (plotGamma e, er)
  | .ok _ => (plotGamma e ++ (List.range 3).map fun sid => .marks s!"Mplus{sid}" (nodesToPlottable e (allMplus sid)), .returns)

/-- plot_domain2.py:30-42, the call of `plot_Gamma` with or without its argument `sid`, which has no default -/
noncomputable def plotGammaCall (e : Env) : Option ℕ → List Drawn × Ends
  | none => ([], .typeError)
  | some sid => (plotGammaSid e sid, .returns)

/-- plot_domain2.py:57-74 and 76-94, `plot_Mplus` and `plot_gamma`: the call of `plot_Gamma` and, if it returns, the marks -/
noncomputable def plotMarks2 (e : Env) (label : ℕ → String) (attr : String) (sets : ℕ → List Node) : List Drawn × Ends :=
  match plotGammaCall e none with
  | (pic, .returns) =>
    match readAttr attr with
    | .error er => (pic, er)
    | .ok _ => (pic ++ (List.range 3).map fun sid => .marks (label sid) (nodesToPlottable e (sets sid)), .returns)
  | r => r

/-- `np.rint`: the nearest integer, the even one of two -/
noncomputable def npRint (x : ℝ) : ℝ :=
  if x - ⌊x⌋ < 1 / 2 then ⌊x⌋ else if 1 / 2 < x - ⌊x⌋ then ⌊x⌋ + 1 else if Even ⌊x⌋ then ⌊x⌋ else ⌊x⌋ + 1

/-- `np.round(x, 2)` of a real number -/
noncomputable def npRound2 (x : ℝ) : ℝ := npRint (x * 100) / 100

/-- ps/debug.py:181-195 `print_c1`: for each segment its number, the size of its basis and the real parts of its coefficients.  The
rounding of a complex number is that of its parts. -/
noncomputable def printC1 (bas : Basis) (c1 : List ℂ) : List (ℕ × ℕ × List ℝ) :=
  (bas.segDesc.foldl (init := (([], 0, 0) : List (ℕ × ℕ × List ℝ) × ℕ × ℕ)) fun st desc =>
    let i := st.2.1
    let sid := st.2.2
    (st.1 ++ [(sid, desc.nBasis, ((c1.drop i).take desc.nBasis).map fun z => npRound2 z.re)], i + desc.nBasis, sid + 1)).1

end Pot
