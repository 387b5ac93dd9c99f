/-
Which attributes the objects of a program have, and which it reads.

Every function of the repository that a solver, a problem, a boundary, the z-method or one of nine programs runs
is reduced to what it does to attributes: reading `o.a`, assigning `o.a`, calling `o.m(...)` or
`super().m(...)`, making an object, and the control flow between those.  The reduction is function by function;
the file and the lines stand beside every body.  Simplifications:

* a test whose value the model does not know may come out either way, and a loop may run any number of
  times.  Known are: `hasattr(o, 'a')`, `p.homogeneous` (a class attribute nobody assigns: `C115_no_shadow`) and
  whether the argument `JJ` of the extension functions is `None`;
* `and`, `or` and conditional expressions are branches; list comprehensions are loops; `continue` and `break` end the current
  round of a loop, after which it may go on or stop; a `return` at the very end of a body is left out;
* a nested function or a `lambda` runs any number of times at the place where it is written; so does a bound
  method that is handed on as a value.  Attributes are only ever added to an object, so what such a function
  finds there it also finds later;
* one object for each role: the solver, its problem, the problem of the z-method, the boundary, the difference potentials'
  auxiliary solver, the multivalued function, the polar solver, the z-method, the result and the dummy problem.  Making a new object of a
  role takes all attributes of the old one away;
* attributes of modules are in `Imports` (C101), attributes of NumPy, SymPy and SciPy objects are not modelled,
  and neither are exceptions other than `AttributeError`: an execution that another exception ends is a part
  of one that is modelled.  The two `try` statements (ps/inhomo.py:59-63, problems/boundary.py:149-155) assign no attributes;
* calls of functions that touch no attributes are left out.
-/
import Verif.Model.Classes

namespace Pot
namespace Attrs

set_option linter.dupNamespace false
set_option linter.style.nameCheck false

/-! ## the names -/

namespace N
abbrev AD_len : ℕ := 0
abbrev B_desc : ℕ := 1
abbrev K : ℕ := 2
abbrev Kplus : ℕ := 3
abbrev M : ℕ := 4
abbrev M0 : ℕ := 5
abbrev N : ℕ := 6
abbrev N0 : ℕ := 7
abbrev N_SEGMENT : ℕ := 8
abbrev Nminus : ℕ := 9
abbrev Nplus : ℕ := 10
abbrev Q_residual : ℕ := 11
abbrev R : ℕ := 12
abbrev R0 : ℕ := 13
abbrev R1 : ℕ := 14
abbrev __add__ : ℕ := 15
abbrev __getitem__ : ℕ := 16
abbrev __init__ : ℕ := 17
abbrev __main__ : ℕ := 18
abbrev _array_calc_rel_convergence : ℕ := 19
abbrev _calc_inhomo_radius : ℕ := 20
abbrev _data : ℕ := 21
abbrev _ext_calc_xi_derivs : ℕ := 22
abbrev _extend_f_get_sid : ℕ := 23
abbrev _extend_inhomo_0_lr : ℕ := 24
abbrev _extend_inhomo_12_r : ℕ := 25
abbrev _extend_inhomo_radius : ℕ := 26
abbrev _fourier : ℕ := 27
abbrev a : ℕ := 28
abbrev a_coef : ℕ := 29
abbrev a_error : ℕ := 30
abbrev acheat : ℕ := 31
abbrev additional_params : ℕ := 32
abbrev all_Mplus : ℕ := 33
abbrev all_gamma : ℕ := 34
abbrev ap_sol_f : ℕ := 35
abbrev apply_L : ℕ := 36
abbrev arc_R : ℕ := 37
abbrev arg_to_polar : ℕ := 38
abbrev arg_to_polar_abs : ℕ := 39
abbrev bet : ℕ := 40
abbrev bet0 : ℕ := 41
abbrev boundary : ℕ := 42
abbrev boundary_coord_cache : ℕ := 43
abbrev build_boundary_coord_cache : ℕ := 44
abbrev build_sympy_subs_dict : ℕ := 45
abbrev c0 : ℕ := 46
abbrev c0_test : ℕ := 47
abbrev c1 : ℕ := 48
abbrev c1_test : ℕ := 49
abbrev calc_N_var : ℕ := 50
abbrev calc_a_coef : ℕ := 51
abbrev calc_ap_sol_f : ℕ := 52
abbrev calc_c0 : ℕ := 53
abbrev calc_c1_exact : ℕ := 54
abbrev calc_eigenvals : ℕ := 55
abbrev calc_rel_convergence : ℕ := 56
abbrev calc_z1_fourier : ℕ := 57
abbrev chebyshev_roots : ℕ := 58
abbrev col_ind : ℕ := 59
abbrev color_plot : ℕ := 60
abbrev construct_grids : ℕ := 61
abbrev copy_local : ℕ := 62
abbrev create_v_interp : ℕ := 63
abbrev data : ℕ := 64
abbrev dist_to_radius : ℕ := 65
abbrev do_algebra : ℕ := 66
abbrev do_diff : ℕ := 67
abbrev do_extend_0 : ℕ := 68
abbrev do_extend_0_left : ℕ := 69
abbrev do_extend_0_right : ℕ := 70
abbrev do_extend_0_standard : ℕ := 71
abbrev do_extend_1_left : ℕ := 72
abbrev do_extend_1_right : ℕ := 73
abbrev do_extend_1_standard : ℕ := 74
abbrev do_extend_2_left : ℕ := 75
abbrev do_extend_2_right : ℕ := 76
abbrev do_extend_2_standard : ℕ := 77
abbrev do_extend_inhomo_0_left : ℕ := 78
abbrev do_extend_inhomo_0_right : ℕ := 79
abbrev do_extend_inhomo_0_standard : ℕ := 80
abbrev do_extend_inhomo_1_left : ℕ := 81
abbrev do_extend_inhomo_1_right : ℕ := 82
abbrev do_extend_inhomo_1_standard : ℕ := 83
abbrev do_extend_inhomo_2_left : ℕ := 84
abbrev do_extend_inhomo_2_right : ℕ := 85
abbrev do_extend_inhomo_2_standard : ℕ := 86
abbrev do_extend_taylor : ℕ := 87
abbrev do_u_BVP : ℕ := 88
abbrev do_z_BVP : ℕ := 89
abbrev eigenvals : ℕ := 90
abbrev eps : ℕ := 91
abbrev error : ℕ := 92
abbrev etype_filter : ℕ := 93
abbrev eval_bc : ℕ := 94
abbrev eval_curv : ℕ := 95
abbrev eval_d2_curv_th : ℕ := 96
abbrev eval_d2_f_r : ℕ := 97
abbrev eval_d2_f_r_th : ℕ := 98
abbrev eval_d2_f_th : ℕ := 99
abbrev eval_d2_r_th : ℕ := 100
abbrev eval_d2_th_s : ℕ := 101
abbrev eval_d3_th_s : ℕ := 102
abbrev eval_d4_th_s : ℕ := 103
abbrev eval_d_curv_th : ℕ := 104
abbrev eval_d_f_r : ℕ := 105
abbrev eval_d_f_th : ℕ := 106
abbrev eval_d_g_inv_arg : ℕ := 107
abbrev eval_d_initial_func : ℕ := 108
abbrev eval_d_r_th : ℕ := 109
abbrev eval_d_th_s : ℕ := 110
abbrev eval_d_u_outwards : ℕ := 111
abbrev eval_d_x_th : ℕ := 112
abbrev eval_d_y_th : ℕ := 113
abbrev eval_dn_B_arg : ℕ := 114
abbrev eval_error : ℕ := 115
abbrev eval_expected : ℕ := 116
abbrev eval_expected__no_w : ℕ := 117
abbrev eval_expected_polar : ℕ := 118
abbrev eval_f : ℕ := 119
abbrev eval_f1 : ℕ := 120
abbrev eval_f_polar : ℕ := 121
abbrev eval_g : ℕ := 122
abbrev eval_g_inv : ℕ := 123
abbrev eval_gq : ℕ := 124
abbrev eval_grad_f : ℕ := 125
abbrev eval_grad_f_polar : ℕ := 126
abbrev eval_hessian_f : ℕ := 127
abbrev eval_hessian_f_polar : ℕ := 128
abbrev eval_initial_func : ℕ := 129
abbrev eval_normal : ℕ := 130
abbrev eval_phi0 : ℕ := 131
abbrev eval_phi1 : ℕ := 132
abbrev eval_phi2 : ℕ := 133
abbrev eval_phi_initial : ℕ := 134
abbrev eval_r : ℕ := 135
abbrev eval_tangent : ℕ := 136
abbrev eval_v : ℕ := 137
abbrev eval_v_asympt : ℕ := 138
abbrev eval_v_series : ℕ := 139
abbrev expected_known : ℕ := 140
abbrev ext_calc_xi_derivs : ℕ := 141
abbrev extend_arbitrary : ℕ := 142
abbrev extend_basis : ℕ := 143
abbrev extend_boundary : ℕ := 144
abbrev extend_f : ℕ := 145
abbrev extend_inhomo_f : ℕ := 146
abbrev extend_polar : ℕ := 147
abbrev extend_radius : ℕ := 148
abbrev f : ℕ := 149
abbrev f_expr : ℕ := 150
abbrev f_polar_lambda : ℕ := 151
abbrev fake_grid : ℕ := 152
abbrev fft_a_coef : ℕ := 153
abbrev fft_b_coef : ℕ := 154
abbrev g : ℕ := 155
abbrev get_Q : ℕ := 156
abbrev get_boundary_coord : ℕ := 157
abbrev get_boundary_sample : ℕ := 158
abbrev get_boundary_sample_by_sid : ℕ := 159
abbrev get_chebyshev_coef : ℕ := 160
abbrev get_coord : ℕ := 161
abbrev get_coord_inv : ℕ := 162
abbrev get_etype : ℕ := 163
abbrev get_expected_a_coef : ℕ := 164
abbrev get_expected_z1_fourier : ℕ := 165
abbrev get_grad : ℕ := 166
abbrev get_index : ℕ := 167
abbrev get_m1 : ℕ := 168
abbrev get_n_basis : ℕ := 169
abbrev get_n_basis_dict : ℕ := 170
abbrev get_polar : ℕ := 171
abbrev get_potential : ℕ := 172
abbrev get_r : ℕ := 173
abbrev get_radius_point : ℕ := 174
abbrev get_span_center : ℕ := 175
abbrev get_th : ℕ := 176
abbrev get_trace : ℕ := 177
abbrev get_v_error : ℕ := 178
abbrev get_var : ℕ := 179
abbrev global_Mminus : ℕ := 180
abbrev global_Mplus : ℕ := 181
abbrev homogeneous : ℕ := 182
abbrev hr : ℕ := 183
abbrev hth : ℕ := 184
abbrev inhomo_extend_arbitrary : ℕ := 185
abbrev inhomo_extend_polar : ℕ := 186
abbrev is_interior : ℕ := 187
abbrev k : ℕ := 188
abbrev kx : ℕ := 189
abbrev ky : ℕ := 190
abbrev lambdify_modules : ℕ := 191
abbrev lkw : ℕ := 192
abbrev m1 : ℕ := 193
abbrev m1_dict : ℕ := 194
abbrev m_max : ℕ := 195
abbrev mv_extend_boundary : ℕ := 196
abbrev mv_extend_inhomo_f : ℕ := 197
abbrev my_print : ℕ := 198
abbrev n_basis_dict : ℕ := 199
abbrev name : ℕ := 200
abbrev new_system : ℕ := 201
abbrev nodes : ℕ := 202
abbrev nodes_to_plottable : ℕ := 203
abbrev nu : ℕ := 204
abbrev options : ℕ := 205
abbrev order : ℕ := 206
abbrev pert_solver : ℕ := 207
abbrev plot_Gamma : ℕ := 208
abbrev plot_Mplus : ℕ := 209
abbrev plot_allMK : ℕ := 210
abbrev plot_arc : ℕ := 211
abbrev plot_aux : ℕ := 212
abbrev plot_gamma : ℕ := 213
abbrev plot_intext : ℕ := 214
abbrev polarfd : ℕ := 215
abbrev print_c1 : ℕ := 216
abbrev print_options : ℕ := 217
abbrev problem : ℕ := 218
abbrev ps_construct_grids : ℕ := 219
abbrev r_expr : ℕ := 220
abbrev r_expr_str : ℕ := 221
abbrev reduce : ℕ := 222
abbrev rhs : ℕ := 223
abbrev row : ℕ := 224
abbrev row_ind : ℕ := 225
abbrev run : ℕ := 226
abbrev run_test : ℕ := 227
abbrev scheme_order : ℕ := 228
abbrev segment_desc : ℕ := 229
abbrev set_bc_arc : ℕ := 230
abbrev set_bc_origin : ℕ := 231
abbrev set_bc_wedge : ℕ := 232
abbrev set_bet : ℕ := 233
abbrev set_boundary : ℕ := 234
abbrev set_fd4 : ℕ := 235
abbrev setup_basis : ℕ := 236
abbrev setup_f : ℕ := 237
abbrev signed_dist_to_radius : ℕ := 238
abbrev solve : ℕ := 239
abbrev solve_ap : ℕ := 240
abbrev solve_var : ℕ := 241
abbrev subs_dict : ℕ := 242
abbrev sympy_subs_dict : ℕ := 243
abbrev taylor_n_terms : ℕ := 244
abbrev to_dst : ℕ := 245
abbrev u : ℕ := 246
abbrev u_act : ℕ := 247
abbrev u_error : ℕ := 248
abbrev union_gamma : ℕ := 249
abbrev v : ℕ := 250
abbrev v_asympt : ℕ := 251
abbrev v_interp : ℕ := 252
abbrev v_series : ℕ := 253
abbrev worker : ℕ := 254
abbrev z1_fourier : ℕ := 255
abbrev z1cheat : ℕ := 256
abbrev zmethod : ℕ := 257
end N

/-- the names in the order of their numbers -/
def names : List String := [
  "AD_len", "B_desc", "K", "Kplus", "M", "M0", "N", "N0", "N_SEGMENT", "Nminus", "Nplus", "Q_residual", "R", "R0", "R1", "__add__",
  "__getitem__", "__init__", "__main__", "_array_calc_rel_convergence", "_calc_inhomo_radius", "_data", "_ext_calc_xi_derivs",
  "_extend_f_get_sid", "_extend_inhomo_0_lr", "_extend_inhomo_12_r", "_extend_inhomo_radius", "_fourier", "a", "a_coef", "a_error", "acheat",
  "additional_params", "all_Mplus", "all_gamma", "ap_sol_f", "apply_L", "arc_R", "arg_to_polar", "arg_to_polar_abs", "bet", "bet0",
  "boundary", "boundary_coord_cache", "build_boundary_coord_cache", "build_sympy_subs_dict", "c0", "c0_test", "c1", "c1_test", "calc_N_var",
  "calc_a_coef", "calc_ap_sol_f", "calc_c0", "calc_c1_exact", "calc_eigenvals", "calc_rel_convergence", "calc_z1_fourier", "chebyshev_roots",
  "col_ind", "color_plot", "construct_grids", "copy_local", "create_v_interp", "data", "dist_to_radius", "do_algebra", "do_diff",
  "do_extend_0", "do_extend_0_left", "do_extend_0_right", "do_extend_0_standard", "do_extend_1_left", "do_extend_1_right",
  "do_extend_1_standard", "do_extend_2_left", "do_extend_2_right", "do_extend_2_standard", "do_extend_inhomo_0_left",
  "do_extend_inhomo_0_right", "do_extend_inhomo_0_standard", "do_extend_inhomo_1_left", "do_extend_inhomo_1_right",
  "do_extend_inhomo_1_standard", "do_extend_inhomo_2_left", "do_extend_inhomo_2_right", "do_extend_inhomo_2_standard", "do_extend_taylor",
  "do_u_BVP", "do_z_BVP", "eigenvals", "eps", "error", "etype_filter", "eval_bc", "eval_curv", "eval_d2_curv_th", "eval_d2_f_r",
  "eval_d2_f_r_th", "eval_d2_f_th", "eval_d2_r_th", "eval_d2_th_s", "eval_d3_th_s", "eval_d4_th_s", "eval_d_curv_th", "eval_d_f_r",
  "eval_d_f_th", "eval_d_g_inv_arg", "eval_d_initial_func", "eval_d_r_th", "eval_d_th_s", "eval_d_u_outwards", "eval_d_x_th", "eval_d_y_th",
  "eval_dn_B_arg", "eval_error", "eval_expected", "eval_expected__no_w", "eval_expected_polar", "eval_f", "eval_f1", "eval_f_polar", "eval_g",
  "eval_g_inv", "eval_gq", "eval_grad_f", "eval_grad_f_polar", "eval_hessian_f", "eval_hessian_f_polar", "eval_initial_func", "eval_normal",
  "eval_phi0", "eval_phi1", "eval_phi2", "eval_phi_initial", "eval_r", "eval_tangent", "eval_v", "eval_v_asympt", "eval_v_series",
  "expected_known", "ext_calc_xi_derivs", "extend_arbitrary", "extend_basis", "extend_boundary", "extend_f", "extend_inhomo_f",
  "extend_polar", "extend_radius", "f", "f_expr", "f_polar_lambda", "fake_grid", "fft_a_coef", "fft_b_coef", "g", "get_Q",
  "get_boundary_coord", "get_boundary_sample", "get_boundary_sample_by_sid", "get_chebyshev_coef", "get_coord", "get_coord_inv", "get_etype",
  "get_expected_a_coef", "get_expected_z1_fourier", "get_grad", "get_index", "get_m1", "get_n_basis", "get_n_basis_dict", "get_polar",
  "get_potential", "get_r", "get_radius_point", "get_span_center", "get_th", "get_trace", "get_v_error", "get_var", "global_Mminus",
  "global_Mplus", "homogeneous", "hr", "hth", "inhomo_extend_arbitrary", "inhomo_extend_polar", "is_interior", "k", "kx", "ky",
  "lambdify_modules", "lkw", "m1", "m1_dict", "m_max", "mv_extend_boundary", "mv_extend_inhomo_f", "my_print", "n_basis_dict", "name",
  "new_system", "nodes", "nodes_to_plottable", "nu", "options", "order", "pert_solver", "plot_Gamma", "plot_Mplus", "plot_allMK", "plot_arc",
  "plot_aux", "plot_gamma", "plot_intext", "polarfd", "print_c1", "print_options", "problem", "ps_construct_grids", "r_expr", "r_expr_str",
  "reduce", "rhs", "row", "row_ind", "run", "run_test", "scheme_order", "segment_desc", "set_bc_arc", "set_bc_origin", "set_bc_wedge",
  "set_bet", "set_boundary", "set_fd4", "setup_basis", "setup_f", "signed_dist_to_radius", "solve", "solve_ap", "solve_var", "subs_dict",
  "sympy_subs_dict", "taylor_n_terms", "to_dst", "u", "u_act", "u_error", "union_gamma", "v", "v_asympt", "v_interp", "v_series", "worker",
  "z1_fourier", "z1cheat", "zmethod"]

/-! ## the classes and the modules -/

/-- the classes of the repository (the order is that of `Classes.repoClasses`) and the modules and programs whose functions touch attributes -/
inductive Owner where
  | SolverExtend | Result | Solver | APSolver | Multivalue | PsBasis | PsGrid | PsExtend | PsInhomo | PsDebug | PizzaSolver | PolarFD | Problem
  | PizzaProblem | SympyProblem | SmoothProblem | Smooth_Sine | Smooth_E | Smooth_YCos | SingularProblem | SingularKnown | Boundary | Arc |
  OuterSine | InnerSine | Sine7 | Cubic | SingIH_Problem | IH_Bessel | IZ_Bessel | IHZ_Bessel_Line | IHZ_Bessel_Quadratic | ZMethod |
  DummySympyProblem | u_BVP
  | m_domain_util | m_abcoef | m_io_util | m_run | m_runz | m_c0_basis | m_optimize_basis | m_extend_basis_test | m_extension_test |
  m_test_extend_f | m_plot_domain | m_plot_domain2
  deriving DecidableEq

/-- the name of a class -/
def className : Owner → String
  | .SolverExtend => "SolverExtend"
  | .Result => "Result"
  | .Solver => "Solver"
  | .APSolver => "APSolver"
  | .Multivalue => "Multivalue"
  | .PsBasis => "PsBasis"
  | .PsGrid => "PsGrid"
  | .PsExtend => "PsExtend"
  | .PsInhomo => "PsInhomo"
  | .PsDebug => "PsDebug"
  | .PizzaSolver => "PizzaSolver"
  | .PolarFD => "PolarFD"
  | .Problem => "Problem"
  | .PizzaProblem => "PizzaProblem"
  | .SympyProblem => "SympyProblem"
  | .SmoothProblem => "SmoothProblem"
  | .Smooth_Sine => "Smooth_Sine"
  | .Smooth_E => "Smooth_E"
  | .Smooth_YCos => "Smooth_YCos"
  | .SingularProblem => "SingularProblem"
  | .SingularKnown => "SingularKnown"
  | .Boundary => "Boundary"
  | .Arc => "Arc"
  | .OuterSine => "OuterSine"
  | .InnerSine => "InnerSine"
  | .Sine7 => "Sine7"
  | .Cubic => "Cubic"
  | .SingIH_Problem => "SingIH_Problem"
  | .IH_Bessel => "IH_Bessel"
  | .IZ_Bessel => "IZ_Bessel"
  | .IHZ_Bessel_Line => "IHZ_Bessel_Line"
  | .IHZ_Bessel_Quadratic => "IHZ_Bessel_Quadratic"
  | .ZMethod => "ZMethod"
  | .DummySympyProblem => "DummySympyProblem"
  | .u_BVP => "u_BVP"
  | _ => ""

/-- the names a class statement defines; the classes of `problem_dict` are given the attribute `name` in problems/__init__.py:34-35 -/
def own : Owner → List ℕ
  | .SolverExtend => [N.extend_polar, N.extend_arbitrary, N.inhomo_extend_polar, N.inhomo_extend_arbitrary]
  | .Result => [N.u_act, N.a_error]
  | .Solver => [N.__init__, N.get_coord, N.get_coord_inv, N.get_polar, N.construct_grids, N.setup_f, N.eval_error, N.calc_rel_convergence,
      N._array_calc_rel_convergence]
  | .APSolver => [N.eigenvals, N.__init__, N.calc_eigenvals, N._fourier, N.solve, N.apply_L]
  | .Multivalue => [N.__init__, N.__getitem__, N.__add__, N.reduce, N.calc_rel_convergence]
  | .PsBasis => [N.N_SEGMENT, N.eps, N.__init__, N.setup_basis, N.get_span_center, N.eval_g, N.eval_g_inv, N.eval_d_g_inv_arg, N.eval_dn_B_arg,
      N.get_chebyshev_coef, N.calc_c0, N.extend_basis]
  | .PsGrid => [N.ps_construct_grids]
  | .PsExtend => [N.taylor_n_terms, N.get_etype, N.extend_radius, N._ext_calc_xi_derivs, N.ext_calc_xi_derivs, N.do_extend_taylor, N.do_extend_0,
      N.do_extend_0_standard, N.do_extend_0_left, N.do_extend_0_right, N.do_extend_1_standard, N.do_extend_1_left, N.do_extend_1_right,
      N.do_extend_2_standard, N.do_extend_2_left, N.do_extend_2_right, N.mv_extend_boundary, N.extend_boundary]
  | .PsInhomo => [N._extend_f_get_sid, N.extend_f, N._extend_inhomo_12_r, N.do_extend_inhomo_0_standard, N._extend_inhomo_0_lr, N.do_extend_inhomo_0_left,
      N.do_extend_inhomo_0_right, N._calc_inhomo_radius, N._extend_inhomo_radius, N.do_extend_inhomo_1_standard, N.do_extend_inhomo_1_left,
      N.do_extend_inhomo_1_right, N.do_extend_inhomo_2_standard, N.do_extend_inhomo_2_left, N.do_extend_inhomo_2_right, N.mv_extend_inhomo_f,
      N.extend_inhomo_f]
  | .PsDebug => [N.get_boundary_sample, N.get_boundary_sample_by_sid, N.calc_c1_exact, N.etype_filter, N.c0_test, N.print_c1, N.c1_test, N.Q_residual,
      N.color_plot]
  | .PizzaSolver => [N.__init__, N.calc_ap_sol_f, N.is_interior, N.get_radius_point, N.dist_to_radius, N.signed_dist_to_radius, N.get_polar,
      N.get_boundary_coord, N.build_boundary_coord_cache, N.get_potential, N.get_trace, N.get_Q, N.get_var, N.solve_var, N.run]
  | .PolarFD => [N.__init__, N.my_print, N.get_r, N.get_th, N.get_index, N.calc_N_var, N.new_system, N.set_bc_origin, N.set_bc_wedge, N.set_bc_arc,
      N.set_fd4, N.copy_local, N.solve, N.calc_rel_convergence]
  | .Problem => [N.homogeneous, N.expected_known, N.zmethod, N.R, N.AD_len, N.__init__, N.eval_expected, N.eval_expected_polar, N.eval_f, N.eval_f_polar]
  | .PizzaProblem => [N.a, N.nu, N.__init__, N.get_n_basis, N.get_n_basis_dict, N.get_m1, N.set_boundary]
  | .SympyProblem => [N.lambdify_modules, N.__init__, N.build_sympy_subs_dict, N.do_diff, N.eval_f_polar, N.eval_grad_f, N.eval_grad_f_polar, N.eval_hessian_f,
      N.eval_hessian_f_polar]
  | .SmoothProblem => [N.expected_known, N.k, N.n_basis_dict, N.eval_bc, N.eval_d_u_outwards]
  | .Smooth_Sine => [N.homogeneous, N.eval_expected, N.get_grad, N.name]
  | .Smooth_E => [N.homogeneous, N.eval_expected, N.get_grad, N.name]
  | .Smooth_YCos => [N.__init__, N.eval_expected, N.get_grad, N.name]
  | .SingularProblem => []
  | .SingularKnown => [N.m_max, N.__init__, N.eval_expected_polar, N.eval_expected__no_w]
  | .Boundary => [N.additional_params, N.__init__, N.set_bet, N.do_algebra, N.eval_tangent, N.eval_normal, N.get_boundary_coord]
  | .Arc => [N.name, N.r_expr_str, N.bet0]
  | .OuterSine => [N.name, N.r_expr_str, N.bet0]
  | .InnerSine => [N.name, N.r_expr_str, N.bet0]
  | .Sine7 => [N.name, N.r_expr_str, N.bet0]
  | .Cubic => [N.name, N.r_expr_str, N.bet0, N.additional_params]
  | .SingIH_Problem => [N.zmethod, N.n_basis_dict, N.m1_dict]
  | .IH_Bessel => [N.k, N.expected_known, N.K, N.__init__, N.eval_v]
  | .IZ_Bessel => [N.eval_phi0, N.eval_phi1, N.eval_phi2, N.eval_expected_polar, N.name]
  | .IHZ_Bessel_Line => [N.eval_phi0, N.eval_phi1, N.eval_phi2, N.name]
  | .IHZ_Bessel_Quadratic => [N.k, N.expected_known, N.__init__, N.eval_v, N.eval_phi0, N.eval_phi1, N.eval_phi2, N.name]
  | .ZMethod => [N.M, N.R0, N.__init__, N.run, N.do_algebra, N.calc_z1_fourier, N.get_expected_z1_fourier, N.do_z_BVP, N.calc_a_coef, N.get_expected_a_coef,
      N.create_v_interp, N.do_u_BVP, N.get_v_error]
  | .DummySympyProblem => [N.__init__]
  | .u_BVP => [N.n_basis_dict, N.__init__, N.eval_bc, N.eval_expected_polar]
  | _ => []

/-- the method resolution order, without `object` -/
def mro : Owner → List Owner
  | .SolverExtend => [.SolverExtend]
  | .Result => [.Result]
  | .Solver => [.Solver, .SolverExtend]
  | .APSolver => [.APSolver]
  | .Multivalue => [.Multivalue]
  | .PsBasis => [.PsBasis]
  | .PsGrid => [.PsGrid]
  | .PsExtend => [.PsExtend]
  | .PsInhomo => [.PsInhomo]
  | .PsDebug => [.PsDebug]
  | .PizzaSolver => [.PizzaSolver, .Solver, .SolverExtend, .PsBasis, .PsGrid, .PsExtend, .PsInhomo, .PsDebug]
  | .PolarFD => [.PolarFD]
  | .Problem => [.Problem]
  | .PizzaProblem => [.PizzaProblem, .Problem]
  | .SympyProblem => [.SympyProblem]
  | .SmoothProblem => [.SmoothProblem, .PizzaProblem, .Problem]
  | .Smooth_Sine => [.Smooth_Sine, .SmoothProblem, .PizzaProblem, .Problem]
  | .Smooth_E => [.Smooth_E, .SmoothProblem, .PizzaProblem, .Problem]
  | .Smooth_YCos => [.Smooth_YCos, .SympyProblem, .SmoothProblem, .PizzaProblem, .Problem]
  | .SingularProblem => [.SingularProblem, .PizzaProblem, .Problem]
  | .SingularKnown => [.SingularKnown, .SingularProblem, .PizzaProblem, .Problem]
  | .Boundary => [.Boundary]
  | .Arc => [.Arc, .Boundary]
  | .OuterSine => [.OuterSine, .Boundary]
  | .InnerSine => [.InnerSine, .Boundary]
  | .Sine7 => [.Sine7, .Boundary]
  | .Cubic => [.Cubic, .Boundary]
  | .SingIH_Problem => [.SingIH_Problem, .PizzaProblem, .Problem]
  | .IH_Bessel => [.IH_Bessel, .SingIH_Problem, .PizzaProblem, .Problem]
  | .IZ_Bessel => [.IZ_Bessel, .IH_Bessel, .SingIH_Problem, .PizzaProblem, .Problem]
  | .IHZ_Bessel_Line => [.IHZ_Bessel_Line, .IH_Bessel, .SingIH_Problem, .PizzaProblem, .Problem]
  | .IHZ_Bessel_Quadratic => [.IHZ_Bessel_Quadratic, .SingIH_Problem, .PizzaProblem, .Problem]
  | .ZMethod => [.ZMethod]
  | .DummySympyProblem => [.DummySympyProblem, .SympyProblem, .PizzaProblem, .Problem]
  | .u_BVP => [.u_BVP, .SympyProblem, .PizzaProblem, .Problem]
  | _ => []
/-- an argument `JJ` of a call: none given, one that is not `None`, or that of the caller (`**kwargs`) -/
inductive Pass where
  | no | yes | same
  deriving DecidableEq

/-- the roles objects play in a program -/
inductive Obj where
  | solver | problem | zproblem | boundary | apsolver | multivalue | polarfd | zmethod | result | dummy
  deriving DecidableEq

/-- what an expression refers to: `self`, the problem the program made, or the object of a role -/
inductive Ref where
  | self | main | of (o : Obj)
  deriving DecidableEq

abbrev self : Ref := .self
abbrev main : Ref := .main
/-- the solver: `PizzaSolver` -/
abbrev S : Ref := .of .solver
/-- the problem of the solver -/
abbrev P : Ref := .of .problem
/-- the boundary -/
abbrev B : Ref := .of .boundary
/-- the auxiliary solver: `APSolver` -/
abbrev A : Ref := .of .apsolver
/-- the multivalued function: `Multivalue` -/
abbrev V : Ref := .of .multivalue
/-- the polar solver: `PolarFD` -/
abbrev F : Ref := .of .polarfd
/-- the z-method: `ZMethod` -/
abbrev Z : Ref := .of .zmethod
/-- the result of a run: `Result` -/
abbrev R : Ref := .of .result
/-- ps/zmethod.py:202-207 -/
abbrev D : Ref := .of .dummy

/-- what a function does to attributes -/
inductive Cmd where
  | skip
  | ret
  | brk
  /-- read `o.a` -/
  | rd (r : Ref) (a : ℕ)
  /-- assign `o.a` -/
  | wr (r : Ref) (a : ℕ)
  /-- call `o.m(...)` -/
  | call (r : Ref) (m : ℕ) (p : Pass)
  /-- call `super().m(...)` in a method of the class `c` -/
  | sup (r : Ref) (c : Owner) (m : ℕ)
  /-- call a function of a module -/
  | fn (c : Owner) (f : ℕ)
  /-- make an object -/
  | new (r : Ref)
  | seq (c d : Cmd)
  /-- one of the two -/
  | alt (c d : Cmd)
  /-- the first if the argument `JJ` is not `None`, else the second -/
  | jj (c d : Cmd)
  /-- the first if `o.homogeneous`, else the second -/
  | flag (r : Ref) (c d : Cmd)
  /-- the first if `hasattr(o, a)`, else the second -/
  | has (r : Ref) (a : ℕ) (c d : Cmd)
  /-- any number of times -/
  | loop (c : Cmd)
  /-- the body of a nested function: `return` only leaves it -/
  | scope (c : Cmd)

/-- one after the other -/
infixr:30 " ;; " => Cmd.seq

/-- a program: the tables of its classes, the class of every role and the problem it made -/
structure World where
  bodies : Owner → List (ℕ × Cmd)
  own : Owner → List ℕ
  mro : Owner → List Owner
  /-- the value of `homogeneous` in the body of a class -/
  homog : Owner → Bool
  cls : Obj → Owner
  main : Obj

namespace World
variable (W : World)

/-- the object an expression refers to in a method of `me` -/
def obj (me : Obj) : Ref → Obj
  | .self => me
  | .main => W.main
  | .of o => o

/-- the class in which `o.a` is found, if it is found in a class: the first of the order that defines the name -/
def owner (o : Obj) (a : ℕ) : Option Owner := (W.mro (W.cls o)).find? fun c => (W.own c).contains a

/-- the class in which `super().a` is found in a method of `c` -/
def next (o : Obj) (c : Owner) (a : ℕ) : Option Owner :=
  (((W.mro (W.cls o)).dropWhile (· ≠ c)).drop 1).find? fun c => (W.own c).contains a

/-- the body of a function; one that is not in the table touches no attributes -/
def body (c : Owner) (m : ℕ) : Cmd := ((W.bodies c).lookup m).getD .skip

/-- the value of `o.homogeneous` -/
def isHomog (o : Obj) : Bool := match W.owner o N.homogeneous with
  | some c => W.homog c
  | none => false

end World

/-- the attributes assigned to the objects themselves -/
abbrev State := Set (Obj × ℕ)

/-- how a function ends: at its end, by `return`, by `break` or `continue`, or with `AttributeError` -/
inductive Out where
  | norm (σ : State)
  | ret (σ : State)
  | brk (σ : State)
  | err (o : Obj) (a : ℕ)

/-- what the caller sees -/
def Out.close : Out → Out
  | .norm σ => .norm σ
  | .ret σ => .norm σ
  | .brk σ => .norm σ
  | .err o a => .err o a

/-- `JJ` in the function called -/
def Pass.val (j : Bool) : Pass → Bool
  | .no => false
  | .yes => true
  | .same => j

/-- `o.a` is found: on the object or in its class -/
def Has (W : World) (σ : State) (o : Obj) (a : ℕ) : Prop := (o, a) ∈ σ ∨ (W.owner o a).isSome

/-- the object `o` without attributes -/
def clear (σ : State) (o : Obj) : State := {x | x ∈ σ ∧ x.1 ≠ o}

/-- `Exec W n me j c σ out`: in a method of `me`, called with `JJ` other than `None` if `j`, the command `c` can take the
attributes `σ` to `out`, calls being nested at most `n` deep.  An `AttributeError` is never caught. -/
inductive Exec (W : World) : ℕ → Obj → Bool → Cmd → State → Out → Prop
  | skip {n me j σ} : Exec W n me j .skip σ (.norm σ)
  | ret {n me j σ} : Exec W n me j .ret σ (.ret σ)
  | brk {n me j σ} : Exec W n me j .brk σ (.brk σ)
  | rd {n me j r a σ} : Has W σ (W.obj me r) a → Exec W n me j (.rd r a) σ (.norm σ)
  | rdErr {n me j r a σ} : ¬Has W σ (W.obj me r) a → Exec W n me j (.rd r a) σ (.err (W.obj me r) a)
  | wr {n me j r a σ} : Exec W n me j (.wr r a) σ (.norm (insert (W.obj me r, a) σ))
  | call {n me j r m p σ c out} : W.owner (W.obj me r) m = some c →
      Exec W n (W.obj me r) (p.val j) (W.body c m) σ out → Exec W (n + 1) me j (.call r m p) σ out.close
  | callOwn {n me j r m p σ} : W.owner (W.obj me r) m = none → (W.obj me r, m) ∈ σ → Exec W n me j (.call r m p) σ (.norm σ)
  | callErr {n me j r m p σ} : ¬Has W σ (W.obj me r) m → Exec W n me j (.call r m p) σ (.err (W.obj me r) m)
  | sup {n me j r c m σ d out} : W.next (W.obj me r) c m = some d →
      Exec W n (W.obj me r) false (W.body d m) σ out → Exec W (n + 1) me j (.sup r c m) σ out.close
  | supObject {n me j r c σ} : W.next (W.obj me r) c N.__init__ = none → Exec W n me j (.sup r c N.__init__) σ (.norm σ)
  | supErr {n me j r c m σ} : m ≠ N.__init__ → W.next (W.obj me r) c m = none → Exec W n me j (.sup r c m) σ (.err (W.obj me r) m)
  | fn {n me j c f σ out} : Exec W n me false (W.body c f) σ out → Exec W (n + 1) me j (.fn c f) σ out.close
  | new {n me j r σ c out} : W.owner (W.obj me r) N.__init__ = some c →
      Exec W n (W.obj me r) false (W.body c N.__init__) (clear σ (W.obj me r)) out → Exec W (n + 1) me j (.new r) σ out.close
  | newObject {n me j r σ} : W.owner (W.obj me r) N.__init__ = none → Exec W n me j (.new r) σ (.norm (clear σ (W.obj me r)))
  | seq {n me j c d σ τ out} : Exec W n me j c σ (.norm τ) → Exec W n me j d τ out → Exec W n me j (.seq c d) σ out
  | seqRet {n me j c d σ τ} : Exec W n me j c σ (.ret τ) → Exec W n me j (.seq c d) σ (.ret τ)
  | seqBrk {n me j c d σ τ} : Exec W n me j c σ (.brk τ) → Exec W n me j (.seq c d) σ (.brk τ)
  | seqErr {n me j c d σ o a} : Exec W n me j c σ (.err o a) → Exec W n me j (.seq c d) σ (.err o a)
  | altL {n me j c d σ out} : Exec W n me j c σ out → Exec W n me j (.alt c d) σ out
  | altR {n me j c d σ out} : Exec W n me j d σ out → Exec W n me j (.alt c d) σ out
  | jj {n me j c d σ out} : Exec W n me j (if j then c else d) σ out → Exec W n me j (.jj c d) σ out
  | flag {n me j r c d σ out} : Exec W n me j (if W.isHomog (W.obj me r) then c else d) σ out → Exec W n me j (.flag r c d) σ out
  | hasT {n me j r a c d σ out} : Has W σ (W.obj me r) a → Exec W n me j c σ out → Exec W n me j (.has r a c d) σ out
  | hasF {n me j r a c d σ out} : ¬Has W σ (W.obj me r) a → Exec W n me j d σ out → Exec W n me j (.has r a c d) σ out
  | loopEnd {n me j c σ} : Exec W n me j (.loop c) σ (.norm σ)
  | loop {n me j c σ τ out} : Exec W n me j c σ (.norm τ) → Exec W n me j (.loop c) τ out → Exec W n me j (.loop c) σ out
  | loopBrk {n me j c σ τ out} : Exec W n me j c σ (.brk τ) → Exec W n me j (.loop c) τ out → Exec W n me j (.loop c) σ out
  | loopRet {n me j c σ τ} : Exec W n me j c σ (.ret τ) → Exec W n me j (.loop c) σ (.ret τ)
  | loopErr {n me j c σ o a} : Exec W n me j c σ (.err o a) → Exec W n me j (.loop c) σ (.err o a)
  | scope {n me j c σ out} : Exec W n me j c σ out → Exec W n me j (.scope c) σ out.close

/-! ## the functions -/

open Cmd

/-- domain_util.py -/
def b_m_domain_util : List (ℕ × Cmd) := [
  -- domain_util.py:36-51
  (N.arg_to_polar_abs, alt (call B N.eval_r .no ;; ret) (alt ret (alt ret skip))),
  -- domain_util.py:53-62
  (N.arg_to_polar, alt (call B N.eval_r .no ;; ret) (alt ret (alt ret skip)))]

/-- fourier.py -/
def b_APSolver : List (ℕ × Cmd) := [
  -- fourier.py:13-17
  (N.__init__, wr A N.N ;; wr A N.order ;; wr A N.AD_len ;; wr A N.k),
  -- fourier.py:19-47
  (N.calc_eigenvals, rd A N.N ;; rd A N.order ;; rd A N.AD_len ;; rd A N.k ;; wr A N.eigenvals ;; loop (loop (rd A N.eigenvals ;; rd A N.eigenvals))),
  -- fourier.py:49-82
  (N._fourier, rd A N.N ;; rd A N.AD_len ;; rd A N.eigenvals ;; alt (call A N.calc_eigenvals .no) skip ;; rd A N.eigenvals),
  -- fourier.py:84-85
  (N.solve, call A N._fourier .no),
  -- fourier.py:87-88
  (N.apply_L, call A N._fourier .no)]

/-- abcoef.py -/
def b_m_abcoef : List (ℕ × Cmd) := [
  -- abcoef.py:11-36
  (N.calc_a_coef, rd main N.k ;; rd main N.R ;; rd main N.a ;; rd main N.nu ;; loop (call B N.eval_r .no))]

/-- io_util.py -/
def b_m_io_util : List (ℕ × Cmd) := [
  -- io_util.py:42-76
  (N.print_options, rd main N.boundary ;; rd main N.name ;; rd B N.name ;; rd main N.k ;; rd main N.R ;; rd main N.a ;; rd B N.bet ;; rd main N.AD_len ;; alt
      skip (call main N.get_m1 .no) ;; has main N.get_n_basis (alt (loop (call main N.get_n_basis .no)) skip) skip)]

/-- solver.py -/
def b_Solver : List (ℕ × Cmd) := [
  -- solver.py:21-26
  (N.__init__, sup S .Solver N.__init__ ;; wr S N.problem ;; rd S N.problem ;; rd P N.k ;; wr S N.k ;; rd S N.problem ;; rd P N.AD_len ;; wr S N.AD_len ;;
      wr S N.N),
  -- solver.py:28-34
  (N.get_coord, rd S N.AD_len ;; rd S N.N ;; rd S N.AD_len ;; rd S N.N),
  -- solver.py:36-42
  (N.get_coord_inv, rd S N.N ;; rd S N.AD_len ;; rd S N.N ;; rd S N.AD_len),
  -- solver.py:44-49
  (N.get_polar, call S N.get_coord .no),
  -- solver.py:51-72
  (N.construct_grids, rd S N.N ;; wr S N.N0 ;; rd S N.N ;; wr S N.M0 ;; wr S N.global_Mplus ;; rd S N.M0 ;; loop (call S N.is_interior .no ;; alt (rd S
      N.global_Mplus) skip) ;; rd S N.M0 ;; rd S N.global_Mplus ;; wr S N.global_Mminus ;; wr S N.Kplus ;; rd S N.global_Mplus ;; loop (rd S
      N.Kplus ;; wr S N.Kplus)),
  -- solver.py:74-90
  (N.setup_f, rd S N.N ;; wr S N.f ;; rd S N.global_Mplus ;; loop (rd S N.problem ;; rd P N.eval_f ;; call S N.get_coord .no ;; call P N.eval_f .no ;; rd
      S N.f) ;; has S N.extend_f (call S N.extend_f .no) skip),
  -- solver.py:92-108
  (N.eval_error, rd S N.problem ;; rd P N.expected_known ;; alt ret skip ;; rd S N.global_Mplus ;; loop (call S N.get_coord .no ;; rd S N.problem ;; call P
      N.eval_expected .no)),
  -- solver.py:110-130
  (N.calc_rel_convergence, alt (call S N._array_calc_rel_convergence .no ;; ret) ret),
  -- solver.py:132-152
  (N._array_calc_rel_convergence, rd S N.N ;; rd S N.global_Mplus)]

/-- extend.py -/
def b_SolverExtend : List (ℕ × Cmd) := [
  -- extend.py:10-57
  (N.extend_polar, call S N.extend_arbitrary .no),
  -- extend.py:60-109
  (N.extend_arbitrary, rd S N.k),
  -- extend.py:111-143
  (N.inhomo_extend_polar, call S N.inhomo_extend_arbitrary .no),
  -- extend.py:145-173
  (N.inhomo_extend_arbitrary, rd S N.k)]

/-- ps/ps.py -/
def b_PizzaSolver : List (ℕ × Cmd) := [
  -- ps/ps.py:27-59
  (N.__init__, sup S .PizzaSolver N.__init__ ;; rd S N.problem ;; rd P N.a ;; wr S N.a ;; rd S N.problem ;; rd P N.nu ;; wr S N.nu ;; rd S N.problem ;; rd
      P N.R ;; wr S N.R ;; rd S N.problem ;; rd P N.boundary ;; wr S N.boundary ;; wr S N.scheme_order ;; wr S N.fake_grid ;; rd S N.scheme_order
      ;; wr S N.M ;; rd S N.M ;; rd S N.problem ;; wr P N.M ;; rd S N.problem ;; rd P N.get_n_basis ;; rd S N.N ;; rd S N.scheme_order ;; call P
      N.get_n_basis .no ;; call S N.setup_basis .no ;; alt (call S N.setup_basis .no) skip ;; wr S N.boundary_coord_cache ;; rd S
      N.ps_construct_grids ;; rd S N.scheme_order ;; call S N.ps_construct_grids .no ;; call S N.build_boundary_coord_cache .no ;; rd S N.N ;; rd
      S N.scheme_order ;; rd S N.AD_len ;; rd S N.k ;; new A ;; loop (call A N.apply_L .no) ;; wr S N.apply_L ;; loop (call A N.solve .no) ;; wr S
      N.solve_ap ;; call S N.calc_ap_sol_f .no),
  -- ps/ps.py:61-72
  (N.calc_ap_sol_f, rd S N.N ;; rd S N.AD_len ;; rd S N.k ;; call S N.setup_f .no ;; rd S N.f ;; rd S N.global_Mminus ;; call S N.solve_ap .no ;; wr S
      N.ap_sol_f),
  -- ps/ps.py:74-77
  (N.is_interior, call S N.get_polar .no ;; rd S N.boundary ;; call B N.eval_r .no ;; alt (rd S N.a) skip),
  -- ps/ps.py:79-94
  (N.get_radius_point, rd S N.a ;; alt ret skip ;; rd S N.a),
  -- ps/ps.py:96-99
  (N.dist_to_radius, call S N.get_radius_point .no),
  -- ps/ps.py:101-108
  (N.signed_dist_to_radius, call S N.dist_to_radius .no ;; call S N.get_radius_point .no),
  -- ps/ps.py:110-115
  (N.get_polar, sup S .PizzaSolver N.get_polar ;; rd S N.a),
  -- ps/ps.py:117-122
  (N.get_boundary_coord, call S N.get_polar .no ;; rd S N.boundary ;; call B N.get_boundary_coord .no),
  -- ps/ps.py:124-131
  (N.build_boundary_coord_cache, wr S N.boundary_coord_cache ;; rd S N.all_gamma ;; loop (call S N.get_boundary_coord .no ;; rd S N.boundary_coord_cache)),
  -- ps/ps.py:134-153
  (N.get_potential, rd S N.N ;; rd S N.union_gamma ;; loop (rd S N.union_gamma) ;; call S N.apply_L .no ;; rd S N.global_Mminus ;; call S N.solve_ap .no),
  -- ps/ps.py:155-162
  (N.get_trace, rd S N.union_gamma ;; rd S N.union_gamma ;; loop (rd S N.union_gamma)),
  -- ps/ps.py:164-175
  (N.get_Q, rd S N.B_desc ;; loop (call S N.extend_basis .no ;; call S N.get_potential .no ;; call S N.get_trace .no)),
  -- ps/ps.py:177-208
  (N.get_var, call S N.get_Q .no ;; call S N.get_Q .no ;; call S N.extend_inhomo_f .no ;; call S N.get_potential .no ;; rd S N.get_trace ;; rd S
      N.ap_sol_f ;; call S N.get_trace .no ;; rd S N.c0),
  -- ps/ps.py:210-215
  (N.solve_var, call S N.get_var .no ;; wr S N.c1),
  -- ps/ps.py:217-257
  (N.run, call S N.calc_c0 .no ;; call S N.c0_test .no ;; call S N.solve_var .no ;; call S N.extend_boundary .no ;; call S N.get_potential .no ;; rd S
      N.ap_sol_f ;; call S N.eval_error .no ;; new R ;; wr R N.error ;; wr R N.u_act)]

/-- ps/zmethod.py -/
def b_ZMethod : List (ℕ × Cmd) := [
  -- ps/zmethod.py:28-29
  (N.__init__, wr Z N.options),
  -- ps/zmethod.py:31-60
  (N.run, rd Z N.options ;; wr Z N.problem ;; rd Z N.options ;; wr Z N.z1cheat ;; rd Z N.options ;; wr Z N.acheat ;; rd Z N.problem ;; rd main
      N.boundary ;; wr Z N.boundary ;; rd Z N.options ;; wr Z N.N ;; wr Z N.a ;; wr Z N.nu ;; rd Z N.problem ;; rd main N.k ;; wr Z N.k ;; rd Z
      N.boundary ;; rd B N.R ;; rd Z N.boundary ;; rd B N.bet ;; wr Z N.arc_R ;; call Z N.do_algebra .no ;; call Z N.calc_z1_fourier .no ;; call Z
      N.do_z_BVP .no ;; call Z N.create_v_interp .no ;; call Z N.calc_a_coef .no ;; call Z N.do_u_BVP .no ;; rd Z N.v ;; call Z N.get_v_error .no
      ;; rd Z N.u ;; rd Z N.u_error ;; rd Z N.polarfd ;; rd Z N.pert_solver),
  -- ps/zmethod.py:62-147
  (N.do_algebra, rd Z N.problem ;; rd main N.g ;; rd Z N.problem ;; rd main N.v_asympt ;; rd Z N.k ;; rd Z N.a ;; rd Z N.nu ;; rd Z N.problem ;; rd main
      N.v_series ;; rd Z N.problem ;; rd main N.v_series ;; rd Z N.R0 ;; rd Z N.a ;; loop (rd Z N.problem ;; call main N.eval_v .no) ;; wr Z
      N.f_expr ;; wr Z N.eval_v_asympt ;; wr Z N.eval_initial_func ;; wr Z N.eval_d_initial_func ;; rd Z N.problem ;; rd main N.v_series ;; wr Z
      N.eval_v_series ;; wr Z N.eval_gq ;; wr Z N.eval_f1),
  -- ps/zmethod.py:157-174
  (N.calc_z1_fourier, call Z N.get_expected_z1_fourier .no ;; rd Z N.z1cheat ;; alt (wr Z N.z1_fourier) (rd Z N.z1_fourier ;; alt skip (rd Z N.eval_initial_func
      ;; rd Z N.eval_d_initial_func ;; rd Z N.eval_f1 ;; rd Z N.a ;; rd Z N.nu ;; rd Z N.k ;; rd Z N.R0 ;; rd Z N.arc_R ;; rd Z N.M ;; wr Z
      N.z1_fourier ;; rd Z N.z1_fourier))),
  -- ps/zmethod.py:177-191
  (N.get_expected_z1_fourier, rd Z N.arc_R ;; loop (scope (rd Z N.problem ;; call main N.eval_v .no ;; call Z N.eval_gq .no ;; ret)) ;; rd Z N.a ;; rd Z N.M),
  -- ps/zmethod.py:193-241
  (N.do_z_BVP, rd Z N.a ;; rd Z N.nu ;; rd Z N.k ;; rd Z N.M ;; rd Z N.N ;; rd Z N.f_expr ;; new D ;; loop (scope (loop (rd Z N.z1_fourier) ;; rd Z
      N.eval_gq ;; rd Z N.arc_R ;; call Z N.eval_gq .no ;; ret)) ;; rd Z N.R0 ;; rd Z N.arc_R ;; new F ;; wr Z N.polarfd ;; rd Z N.acheat ;; alt
      (rd Z N.polarfd ;; rd F N.solve ;; loop (rd Z N.eval_v_series ;; rd Z N.R0 ;; call Z N.eval_v_series .no) ;; rd Z N.problem ;; rd main
      N.eval_phi1 ;; loop (call main N.eval_phi1 .no) ;; rd Z N.problem ;; rd main N.eval_phi2 ;; loop (call main N.eval_phi2 .no) ;; call F
      N.solve .no) skip ;; wr Z N.v ;; loop (loop (rd Z N.polarfd ;; call F N.get_r .no ;; rd Z N.polarfd ;; call F N.get_th .no ;; rd Z N.polarfd
      ;; call F N.get_index .no ;; rd Z N.v))),
  -- ps/zmethod.py:243-273
  (N.calc_a_coef, rd Z N.a ;; rd Z N.nu ;; rd Z N.k ;; rd Z N.arc_R ;; rd Z N.M ;; call Z N.get_expected_a_coef .no ;; rd Z N.acheat ;; alt (wr Z N.a_coef)
      (rd Z N.problem ;; rd main N.eval_phi0 ;; loop (scope (rd Z N.boundary ;; call B N.eval_r .no ;; call main N.eval_phi0 .no ;; call Z
      N.v_interp .no ;; ret)) ;; rd Z N.problem ;; rd Z N.boundary ;; rd Z N.M ;; rd Z N.problem ;; call main N.get_m1 .no ;; fn .m_abcoef
      N.calc_a_coef ;; wr Z N.a_coef ;; rd Z N.boundary ;; rd B N.name ;; alt (rd Z N.a_coef) (rd Z N.problem ;; rd main N.name))),
  -- ps/zmethod.py:275-294
  (N.get_expected_a_coef, rd Z N.problem ;; rd main N.name ;; alt (rd Z N.M ;; ret) skip ;; rd Z N.problem ;; rd main N.R ;; loop (scope (rd Z N.problem ;; call main
      N.eval_phi0 .no ;; rd Z N.problem ;; call main N.eval_v .no ;; ret)) ;; loop (scope (rd Z N.problem ;; call main N.eval_v .no ;; call Z
      N.v_interp .no ;; ret)) ;; rd Z N.a ;; rd Z N.M ;; rd Z N.a ;; rd Z N.M ;; rd Z N.k ;; rd Z N.problem ;; rd main N.R ;; rd Z N.nu),
  -- ps/zmethod.py:296-342
  (N.create_v_interp, rd Z N.N ;; alt (rd Z N.boundary ;; rd B N.R ;; rd Z N.boundary ;; rd B N.bet) skip ;; loop (rd Z N.polarfd ;; call F N.get_r .no ;; alt brk
      skip) ;; loop (rd Z N.polarfd ;; call F N.get_th .no) ;; loop (rd Z N.polarfd ;; call F N.get_r .no ;; alt brk skip ;; loop (rd Z N.polarfd
      ;; call F N.get_th .no ;; rd Z N.v ;; rd Z N.v)) ;; wr Z N.v_interp),
  -- ps/zmethod.py:344-406
  (N.do_u_BVP, rd Z N.a ;; rd Z N.nu ;; rd Z N.k ;; rd Z N.M ;; rd Z N.eval_v_asympt ;; rd Z N.f_expr ;; rd Z N.problem ;; rd main N.eval_phi0 ;; rd Z
      N.problem ;; rd main N.eval_phi1 ;; rd Z N.problem ;; rd main N.eval_phi2 ;; rd Z N.problem ;; rd main N.eval_expected_polar ;; rd Z
      N.a_coef ;; rd Z N.problem ;; rd main N.n_basis_dict ;; rd Z N.problem ;; rd main N.name ;; new P ;; rd Z N.problem ;; rd main N.boundary ;;
      wr P N.boundary ;; rd Z N.options ;; new S ;; wr Z N.pert_solver ;; rd Z N.pert_solver ;; call S N.run .no ;; rd R N.u_act ;; wr Z N.u ;; rd
      R N.error ;; wr Z N.u_error),
  -- ps/zmethod.py:408-424
  (N.get_v_error, rd Z N.N ;; loop (rd Z N.polarfd ;; call F N.get_r .no ;; loop (rd Z N.polarfd ;; call F N.get_th .no ;; rd Z N.problem ;; call main
      N.eval_v .no) ;; rd Z N.v ;; rd Z N.M))]

/-- ps/zmethod.py -/
def b_DummySympyProblem : List (ℕ × Cmd) := [
  -- ps/zmethod.py:203-205
  (N.__init__, wr self N.k ;; sup self .DummySympyProblem N.__init__)]

/-- ps/zmethod.py -/
def b_u_BVP : List (ℕ × Cmd) := [
  -- ps/zmethod.py:367-370
  (N.__init__, wr self N.k ;; wr self N.expected_known ;; sup self .u_BVP N.__init__),
  -- ps/zmethod.py:372-389
  (N.eval_bc, rd self N.boundary ;; fn .m_domain_util N.arg_to_polar ;; alt (call main N.eval_phi0 .no ;; ret) (alt (call main N.eval_phi1 .no ;; ret)
      (alt (call main N.eval_phi2 .no ;; ret) skip))),
  -- ps/zmethod.py:391-392
  (N.eval_expected_polar, call main N.eval_expected_polar .no)]

/-- ps/basis.py -/
def b_PsBasis : List (ℕ × Cmd) := [
  -- ps/basis.py:17-24
  (N.__init__, sup S .PsBasis N.__init__ ;; rd S N.eps ;; wr S N.chebyshev_roots),
  -- ps/basis.py:26-51
  (N.setup_basis, wr S N.segment_desc ;; wr S N.B_desc ;; rd S N.N_SEGMENT ;; loop (rd S N.segment_desc ;; loop (rd S N.B_desc))),
  -- ps/basis.py:53-66
  (N.get_span_center, rd S N.eps ;; alt (rd S N.a ;; rd S N.a) (alt (rd S N.R ;; rd S N.R) skip)),
  -- ps/basis.py:68-70
  (N.eval_g, call S N.get_span_center .no),
  -- ps/basis.py:72-74
  (N.eval_g_inv, call S N.get_span_center .no),
  -- ps/basis.py:76-78
  (N.eval_d_g_inv_arg, call S N.get_span_center .no),
  -- ps/basis.py:80-89
  (N.eval_dn_B_arg, rd S N.B_desc ;; alt (call S N.eval_g_inv .no ;; rd S N.B_desc ;; call S N.eval_d_g_inv_arg .no ;; ret) ret),
  -- ps/basis.py:91-111
  (N.get_chebyshev_coef, rd S N.chebyshev_roots ;; loop (call S N.eval_g .no) ;; rd S N.segment_desc),
  -- ps/basis.py:114-128
  (N.calc_c0, wr S N.c0 ;; loop (rd S N.problem ;; call P N.eval_bc .no) ;; rd S N.c0 ;; call S N.get_chebyshev_coef .no ;; loop (loop (scope (rd S
      N.problem ;; call P N.eval_bc .no ;; ret)) ;; rd S N.c0 ;; call S N.get_chebyshev_coef .no)),
  -- ps/basis.py:131-135
  (N.extend_basis, call S N.extend_boundary .yes)]

/-- ps/grid.py -/
def b_PsGrid : List (ℕ × Cmd) := [
  -- ps/grid.py:179-264
  (N.ps_construct_grids, call S N.construct_grids .no ;; wr S N.Nplus ;; wr S N.Nminus ;; rd S N.M0 ;; loop (rd S N.global_Mplus ;; alt (rd S N.Nplus ;; wr S
      N.Nplus) (rd S N.global_Mminus ;; alt (rd S N.Nminus ;; wr S N.Nminus) skip)) ;; rd S N.Nplus ;; rd S N.Nminus ;; wr S N.union_gamma ;; loop
      (scope (call S N.get_coord .no ;; rd S N.R ;; rd S N.a ;; alt (rd S N.boundary ;; rd B N.get_boundary_coord ;; call S N.get_polar .no ;;
      call B N.get_boundary_coord .no) (alt skip (alt skip (alt skip (alt skip (alt skip (alt (call S N.dist_to_radius .no) skip)))))) ;; ret)) ;;
      wr S N.all_gamma ;; rd S N.union_gamma ;; loop (call S N.get_polar .no ;; loop (call S N.get_etype .no ;; rd S N.AD_len ;; rd S N.N ;; alt
      (rd S N.all_gamma) skip)))]

/-- ps/extend.py -/
def b_PsExtend : List (ℕ × Cmd) := [
  -- ps/extend.py:28-71
  (N.get_etype, rd S N.a ;; rd S N.R ;; call S N.get_coord .no ;; alt (rd S N.boundary_coord_cache ;; alt (rd S N.boundary_coord_cache) (rd S N.boundary ;;
      rd B N.get_boundary_coord ;; call S N.get_polar .no ;; call B N.get_boundary_coord .no ;; alt ret skip) ;; ret) (alt ret (alt (call S
      N.get_radius_point .no ;; ret) skip))),
  -- ps/extend.py:73-86
  (N.extend_radius, call S N.extend_arbitrary .no),
  -- ps/extend.py:88-152
  (N._ext_calc_xi_derivs, jj skip (rd S N.B_desc ;; rd S N.c0 ;; rd S N.c1) ;; loop (loop (call S N.eval_dn_B_arg .no))),
  -- ps/extend.py:154-171
  (N.ext_calc_xi_derivs, call S N._ext_calc_xi_derivs .same),
  -- ps/extend.py:173-237
  (N.do_extend_taylor, rd S N.taylor_n_terms ;; call S N.ext_calc_xi_derivs .same ;; loop (rd S N.taylor_n_terms ;; loop (rd S N.taylor_n_terms)) ;; alt (call S
      N.do_extend_0 .no ;; rd S N.boundary_coord_cache ;; rd S N.R) (alt (call S N.extend_radius .no) skip)),
  -- ps/extend.py:239-261
  (N.do_extend_0, rd S N.boundary_coord_cache ;; rd S N.extend_polar ;; rd S N.boundary ;; call B N.eval_curv .no ;; rd S N.boundary ;; call B
      N.eval_d_curv_th .no ;; rd S N.boundary ;; call B N.eval_d2_curv_th .no ;; rd S N.boundary ;; call B N.eval_d_th_s .no ;; rd S N.boundary ;;
      call B N.eval_d2_th_s .no ;; rd S N.boundary ;; call B N.eval_d3_th_s .no ;; rd S N.boundary ;; call B N.eval_d4_th_s .no ;; call S
      N.extend_polar .no),
  -- ps/extend.py:278-289
  (N.do_extend_0_standard, rd S N.boundary_coord_cache ;; call S N.ext_calc_xi_derivs .same ;; call S N.do_extend_0 .no),
  -- ps/extend.py:291-295
  (N.do_extend_0_left, rd S N.boundary_coord_cache ;; rd S N.do_extend_taylor ;; rd S N.a ;; rd S N.a ;; call S N.do_extend_taylor .same),
  -- ps/extend.py:297-301
  (N.do_extend_0_right, rd S N.boundary_coord_cache ;; call S N.do_extend_taylor .same),
  -- ps/extend.py:303-313
  (N.do_extend_1_standard, call S N.get_coord .no ;; call S N.ext_calc_xi_derivs .same ;; call S N.extend_radius .no),
  -- ps/extend.py:315-318
  (N.do_extend_1_left, call S N.get_coord .no ;; call S N.do_extend_taylor .same),
  -- ps/extend.py:320-324
  (N.do_extend_1_right, call S N.get_coord .no ;; rd S N.R ;; call S N.do_extend_taylor .same),
  -- ps/extend.py:326-340
  (N.do_extend_2_standard, call S N.get_coord .no ;; call S N.get_radius_point .no ;; call S N.ext_calc_xi_derivs .same ;; call S N.signed_dist_to_radius .no ;; call S
      N.extend_radius .no),
  -- ps/extend.py:342-350
  (N.do_extend_2_left, call S N.get_coord .no ;; call S N.get_radius_point .no ;; rd S N.do_extend_taylor ;; call S N.signed_dist_to_radius .no ;; call S
      N.do_extend_taylor .same),
  -- ps/extend.py:352-366
  (N.do_extend_2_right, rd S N.R ;; rd S N.a ;; call S N.get_coord .no ;; call S N.get_radius_point .no ;; rd S N.do_extend_taylor ;; call S N.signed_dist_to_radius
      .no ;; call S N.do_extend_taylor .same),
  -- ps/extend.py:368-426
  (N.mv_extend_boundary, rd S N.R ;; rd S N.problem ;; rd P N.k ;; rd S N.union_gamma ;; new V ;; loop (rd S N.all_gamma ;; loop (call S N.get_etype .no ;; alt (alt
      (call S N.do_extend_0_standard .same) (alt (call S N.do_extend_0_left .same) (alt (call S N.do_extend_0_right .same) skip))) (alt (alt (call
      S N.do_extend_1_standard .same) (alt (call S N.do_extend_1_left .same) (alt (call S N.do_extend_1_right .same) skip))) (alt (alt (call S
      N.do_extend_2_standard .same) (alt (call S N.do_extend_2_left .same) (alt (call S N.do_extend_2_right .same) skip))) skip)) ;; call V
      N.__getitem__ .no)) ;; jj ret (rd S N.problem ;; rd P N.homogeneous ;; flag P ret (alt ret (call S N.mv_extend_inhomo_f .no ;; call V
      N.__add__ .no ;; ret)))),
  -- ps/extend.py:428-434
  (N.extend_boundary, call S N.mv_extend_boundary .same ;; call V N.reduce .no)]

/-- ps/inhomo.py -/
def b_PsInhomo : List (ℕ × Cmd) := [
  -- ps/inhomo.py:10-25
  (N._extend_f_get_sid, rd S N.R ;; rd S N.a ;; call S N.get_polar .no ;; rd S N.all_gamma ;; alt (call S N.get_etype .no) skip ;; alt ret (rd S N.boundary ;; call
      B N.eval_r .no ;; ret)),
  -- ps/inhomo.py:27-93
  (N.extend_f, rd S N.R ;; rd S N.a ;; rd S N.problem ;; rd P N.homogeneous ;; flag P ret skip ;; rd S N.Kplus ;; rd S N.global_Mplus ;; loop (call S
      N.get_coord .no ;; call S N.get_polar .no ;; alt (rd S N.problem ;; call P N.eval_f_polar .no ;; rd S N.f) skip ;; call S
      N._extend_f_get_sid .no ;; call S N.get_etype .no ;; alt skip (alt (call S N.get_radius_point .no) (alt (alt (rd S N.boundary_coord_cache)
      skip ;; alt ret skip ;; rd S N.boundary ;; call B N.eval_r .no) skip)) ;; call P N.eval_grad_f .no ;; call P N.eval_hessian_f .no ;; call P
      N.eval_f .no ;; rd S N.f)),
  -- ps/inhomo.py:95-168
  (N._extend_inhomo_12_r, rd S N.problem ;; rd S N.R ;; rd S N.a ;; call S N.get_coord .no ;; alt skip (alt (call S N.signed_dist_to_radius .no ;; call S
      N.get_radius_point .no) skip) ;; call P N.eval_f .no ;; call P N.eval_grad_f .no ;; call P N.eval_hessian_f .no ;; call S
      N.inhomo_extend_arbitrary .no),
  -- ps/inhomo.py:170-206
  (N.do_extend_inhomo_0_standard, rd S N.boundary_coord_cache ;; rd S N.boundary ;; call B N.eval_r .no ;; rd S N.problem ;; call S N.get_coord .no ;; call P
      N.eval_grad_f_polar .no ;; call P N.eval_hessian_f_polar .no ;; rd S N.inhomo_extend_polar ;; call P N.eval_f_polar .no ;; call P
      N.eval_d_f_th .no ;; call P N.eval_d2_f_th .no ;; call P N.eval_d_f_r .no ;; call P N.eval_d2_f_r .no ;; call P N.eval_d2_f_r_th .no ;; rd S
      N.boundary ;; call B N.eval_d_th_s .no ;; rd S N.boundary ;; call B N.eval_d2_th_s .no ;; rd S N.boundary ;; call B N.eval_d_r_th .no ;; rd
      S N.boundary ;; call B N.eval_d2_r_th .no ;; rd S N.boundary ;; call B N.eval_curv .no ;; call S N.inhomo_extend_polar .no),
  -- ps/inhomo.py:208-318
  (N._extend_inhomo_0_lr, rd S N.problem ;; rd S N.R ;; rd S N.a ;; rd S N.boundary_coord_cache ;; rd S N.boundary ;; call B N.eval_r .no ;; call P N.eval_f_polar .no
      ;; call P N.eval_grad_f_polar .no ;; call P N.eval_hessian_f_polar .no ;; call S N.get_coord .no ;; call S N.get_polar .no ;; rd S
      N.boundary ;; call B N.eval_r .no ;; call P N.eval_d2_f_r_th .no ;; call P N.eval_d2_f_th .no ;; call P N.eval_d_f_th .no ;; call P
      N.eval_d2_f_r .no ;; call P N.eval_d2_f_r_th .no ;; call P N.eval_d_f_r .no ;; rd S N.inhomo_extend_polar ;; call P N.eval_d2_f_th .no ;;
      call P N.eval_d2_f_r .no ;; call P N.eval_d2_f_r_th .no ;; rd S N.boundary ;; call B N.eval_d_th_s .no ;; rd S N.boundary ;; call B
      N.eval_d2_th_s .no ;; rd S N.boundary ;; call B N.eval_d_r_th .no ;; rd S N.boundary ;; call B N.eval_d2_r_th .no ;; rd S N.boundary ;; call
      B N.eval_curv .no ;; call S N.inhomo_extend_polar .no),
  -- ps/inhomo.py:320-321
  (N.do_extend_inhomo_0_left, call S N._extend_inhomo_0_lr .no),
  -- ps/inhomo.py:323-324
  (N.do_extend_inhomo_0_right, call S N._extend_inhomo_0_lr .no),
  -- ps/inhomo.py:326-375
  (N._calc_inhomo_radius, rd S N.problem ;; call P N.eval_f .no ;; alt (rd S N.AD_len ;; rd S N.N ;; call P N.eval_hessian_f .no ;; call P N.eval_grad_f .no) (call P
      N.eval_grad_f .no ;; call P N.eval_hessian_f .no) ;; alt (rd S N.R) skip ;; call S N.inhomo_extend_arbitrary .no),
  -- ps/inhomo.py:377-391
  (N._extend_inhomo_radius, call S N.get_coord .no ;; alt skip (alt (call S N.get_radius_point .no ;; rd S N.a ;; call S N.signed_dist_to_radius .no) skip) ;; call S
      N._calc_inhomo_radius .no),
  -- ps/inhomo.py:393-394
  (N.do_extend_inhomo_1_standard, call S N._extend_inhomo_radius .no),
  -- ps/inhomo.py:396-397
  (N.do_extend_inhomo_1_left, call S N._extend_inhomo_radius .no),
  -- ps/inhomo.py:399-400
  (N.do_extend_inhomo_1_right, call S N._extend_inhomo_12_r .no),
  -- ps/inhomo.py:402-403
  (N.do_extend_inhomo_2_standard, call S N._extend_inhomo_radius .no),
  -- ps/inhomo.py:405-406
  (N.do_extend_inhomo_2_left, call S N._extend_inhomo_radius .no),
  -- ps/inhomo.py:408-409
  (N.do_extend_inhomo_2_right, call S N._extend_inhomo_12_r .no),
  -- ps/inhomo.py:411-453
  (N.mv_extend_inhomo_f, rd S N.problem ;; rd P N.k ;; rd S N.union_gamma ;; new V ;; rd S N.N_SEGMENT ;; loop (rd S N.all_gamma ;; loop (call S N.get_etype .no ;;
      rd S N.problem ;; rd P N.homogeneous ;; flag P skip (alt (alt (call S N.do_extend_inhomo_0_standard .no) (alt (call S
      N.do_extend_inhomo_0_left .no) (alt (call S N.do_extend_inhomo_0_right .no) skip))) (alt (alt (call S N.do_extend_inhomo_1_standard .no)
      (alt (call S N.do_extend_inhomo_1_left .no) (alt (call S N.do_extend_inhomo_1_right .no) skip))) (alt (alt (call S
      N.do_extend_inhomo_2_standard .no) (alt (call S N.do_extend_inhomo_2_left .no) (alt (call S N.do_extend_inhomo_2_right .no) skip))) skip)))
      ;; call V N.__getitem__ .no))),
  -- ps/inhomo.py:455-456
  (N.extend_inhomo_f, call S N.mv_extend_inhomo_f .no ;; call V N.reduce .no)]

/-- ps/debug.py -/
def b_PsDebug : List (ℕ × Cmd) := [
  -- ps/debug.py:20-41
  (N.get_boundary_sample, rd S N.a ;; rd S N.R ;; rd S N.N_SEGMENT ;; loop (call S N.get_boundary_sample_by_sid .no) ;; alt ret skip ;; rd S N.a ;; call S
      N.get_boundary_sample_by_sid .no ;; rd S N.get_boundary_sample_by_sid ;; rd S N.a ;; rd S N.a ;; call S N.get_boundary_sample_by_sid .no),
  -- ps/debug.py:43-86
  (N.get_boundary_sample_by_sid, rd S N.a ;; rd S N.R ;; alt (loop (rd S N.boundary ;; call B N.eval_r .no)) skip),
  -- ps/debug.py:88-101
  (N.calc_c1_exact, wr S N.c1 ;; rd S N.N_SEGMENT ;; loop (loop (scope (rd S N.problem ;; call P N.eval_d_u_outwards .no ;; ret)) ;; rd S N.c1 ;; call S
      N.get_chebyshev_coef .no)),
  -- ps/debug.py:103-109
  (N.etype_filter, loop (call S N.get_etype .no)),
  -- ps/debug.py:111-178
  (N.c0_test, rd S N.k ;; rd S N.a ;; rd S N.nu ;; call S N.get_boundary_sample .no ;; loop (rd S N.a ;; rd S N.problem ;; call P N.eval_bc .no ;; rd S
      N.B_desc ;; loop (rd S N.c0 ;; call S N.eval_dn_B_arg .no)) ;; alt ret skip),
  -- ps/debug.py:181-195
  (N.print_c1, rd S N.segment_desc ;; loop (rd S N.c1)),
  -- ps/debug.py:197-250
  (N.c1_test, call S N.get_boundary_sample .no ;; rd S N.problem ;; has P N.eval_d_u_outwards skip skip ;; loop (has P N.eval_d_u_outwards (rd S N.problem
      ;; call P N.eval_d_u_outwards .no) skip ;; rd S N.a ;; rd S N.B_desc ;; loop (rd S N.c1 ;; call S N.eval_dn_B_arg .no)) ;; has P
      N.eval_d_u_outwards skip skip ;; alt ret skip),
  -- ps/debug.py:252-268
  (N.Q_residual, call S N.calc_c0 .no ;; call S N.calc_c1_exact .no ;; rd S N.union_gamma ;; loop (call S N.get_polar .no) ;; call S N.get_var .no ;; rd S
      N.c1 ;; rd S N.N),
  -- ps/debug.py:271-301
  (N.color_plot, rd S N.N ;; loop (call S N.get_coord .no) ;; rd S N.global_Mplus ;; loop (alt skip (call S N.get_coord .no ;; rd S N.problem ;; call P
      N.eval_expected .no)) ;; call S N.plot_Gamma .no)]

/-- ps/multivalue.py -/
def b_Multivalue : List (ℕ × Cmd) := [
  -- ps/multivalue.py:21-26
  (N.__init__, wr V N.nodes ;; wr V N._data ;; loop (rd V N._data)),
  -- ps/multivalue.py:28-29
  (N.__getitem__, rd V N._data),
  -- ps/multivalue.py:31-62
  (N.__add__, rd V N.nodes ;; new V ;; rd V N._data ;; loop (call V N.__getitem__ .no ;; loop (call V N.__getitem__ .no ;; call V N.__getitem__ .no))),
  -- ps/multivalue.py:64-102
  (N.reduce, rd V N.nodes ;; rd V N.nodes ;; loop (rd V N.nodes ;; rd V N._data)),
  -- ps/multivalue.py:104-149
  (N.calc_rel_convergence, rd V N.nodes ;; loop (alt (loop (call V N.__getitem__ .no ;; loop (call V N.__getitem__ .no ;; alt brk skip))) skip))]

/-- ps/polarfd.py -/
def b_PolarFD : List (ℕ × Cmd) := [
  -- ps/polarfd.py:9-16
  (N.__init__, wr F N.N ;; wr F N.a ;; wr F N.nu ;; wr F N.R0 ;; wr F N.R1 ;; call F N.calc_N_var .no),
  -- ps/polarfd.py:23-24
  (N.get_r, rd F N.R0 ;; rd F N.hr),
  -- ps/polarfd.py:26-27
  (N.get_th, rd F N.a ;; rd F N.hth),
  -- ps/polarfd.py:29-30
  (N.get_index, rd F N.N),
  -- ps/polarfd.py:32-35
  (N.calc_N_var, rd F N.R1 ;; rd F N.R0 ;; rd F N.N ;; wr F N.hr ;; rd F N.a ;; rd F N.N ;; wr F N.hth),
  -- ps/polarfd.py:37-44
  (N.new_system, wr F N.rhs ;; wr F N.row ;; wr F N.data ;; wr F N.row_ind ;; wr F N.col_ind),
  -- ps/polarfd.py:46-60
  (N.set_bc_origin, rd F N.N ;; loop (call F N.get_index .no ;; call F N.get_th .no ;; rd F N.data ;; rd F N.row_ind ;; rd F N.row ;; rd F N.col_ind ;; rd F
      N.rhs ;; call F N.eval_phi_initial .no ;; rd F N.row ;; wr F N.row)),
  -- ps/polarfd.py:62-88
  (N.set_bc_wedge, rd F N.N ;; loop (call F N.get_r .no ;; call F N.get_index .no ;; rd F N.data ;; rd F N.row_ind ;; rd F N.row ;; rd F N.col_ind ;; rd F
      N.rhs ;; call F N.eval_phi2 .no ;; rd F N.row ;; wr F N.row ;; call F N.get_index .no ;; rd F N.data ;; rd F N.row_ind ;; rd F N.row ;; rd F
      N.col_ind ;; rd F N.rhs ;; call F N.eval_phi1 .no ;; rd F N.row ;; wr F N.row)),
  -- ps/polarfd.py:90-102
  (N.set_bc_arc, rd F N.N ;; loop (rd F N.data ;; rd F N.row_ind ;; rd F N.row ;; rd F N.col_ind ;; call F N.get_index .no ;; call F N.get_th .no ;; rd F
      N.rhs ;; call F N.eval_phi0 .no ;; rd F N.row ;; wr F N.row)),
  -- ps/polarfd.py:104-187
  (N.set_fd4, call F N.get_r .no ;; call F N.get_r .no ;; call F N.get_r .no ;; call F N.get_r .no ;; call F N.get_r .no ;; rd F N.hr ;; rd F N.hth ;; rd
      F N.k ;; call F N.get_th .no ;; call F N.eval_f .no ;; call F N.eval_d_f_r .no ;; call F N.eval_d2_f_r .no ;; call F N.eval_d2_f_th .no ;;
      rd F N.rhs ;; call F N.copy_local .no ;; rd F N.row ;; wr F N.row),
  -- ps/polarfd.py:189-196
  (N.copy_local, loop (rd F N.data ;; rd F N.row_ind ;; rd F N.row ;; rd F N.col_ind ;; call F N.get_index .no)),
  -- ps/polarfd.py:198-237
  (N.solve, wr F N.k ;; wr F N.eval_phi_initial ;; wr F N.eval_phi0 ;; wr F N.eval_phi1 ;; wr F N.eval_phi2 ;; wr F N.eval_f ;; wr F N.eval_d_f_r ;; wr
      F N.eval_d2_f_r ;; wr F N.eval_d2_f_th ;; rd F N.N ;; call F N.my_print .no ;; rd F N.my_print ;; rd F N.R0 ;; call F N.my_print .no ;; rd F
      N.my_print ;; rd F N.R1 ;; call F N.my_print .no ;; call F N.new_system .no ;; call F N.set_bc_origin .no ;; call F N.set_bc_wedge .no ;;
      call F N.set_bc_arc .no ;; loop (loop (call F N.set_fd4 .no)) ;; rd F N.row_ind ;; rd F N.col_ind ;; call F N.my_print .no ;; rd F N.data ;;
      rd F N.row_ind ;; rd F N.col_ind ;; rd F N.rhs ;; wr F N.rhs ;; rd F N.rhs),
  -- ps/polarfd.py:239-260
  (N.calc_rel_convergence, rd F N.N)]

/-- problems/boundary.py -/
def b_Boundary : List (ℕ × Cmd) := [
  -- problems/boundary.py:12-30
  (N.__init__, wr B N.a ;; wr B N.R ;; alt (call B N.set_bet .no) (wr B N.bet) ;; rd B N.R ;; rd B N.bet ;; rd B N.a ;; rd B N.a ;; wr B N.subs_dict ;; rd
      B N.subs_dict ;; rd B N.additional_params ;; call B N.do_algebra .no),
  -- problems/boundary.py:32-33
  (N.set_bet, rd B N.bet0 ;; wr B N.bet),
  -- problems/boundary.py:35-107
  (N.do_algebra, rd B N.subs_dict ;; rd B N.r_expr_str ;; wr B N.r_expr ;; wr B N.eval_r ;; wr B N.eval_d_r_th ;; wr B N.eval_d2_r_th ;; wr B N.eval_d_x_th
      ;; wr B N.eval_d_y_th ;; wr B N.eval_d_th_s ;; wr B N.eval_d2_th_s ;; wr B N.eval_d3_th_s ;; wr B N.eval_d4_th_s ;; wr B N.eval_curv ;; wr B
      N.eval_d_curv_th ;; wr B N.eval_d2_curv_th),
  -- problems/boundary.py:109-111
  (N.eval_tangent, call B N.eval_d_x_th .no ;; call B N.eval_d_y_th .no),
  -- problems/boundary.py:113-115
  (N.eval_normal, call B N.eval_tangent .no),
  -- problems/boundary.py:117-169
  (N.get_boundary_coord, loop (scope (call B N.eval_r .no ;; call B N.eval_d_r_th .no ;; ret)) ;; rd B N.a ;; alt (rd B N.a) skip ;; rd B N.a ;; alt (rd B N.a) skip
      ;; alt ret skip ;; call B N.eval_r .no ;; call B N.eval_normal .no)]

/-- problems/problem.py -/
def b_Problem : List (ℕ × Cmd) := [
  -- problems/problem.py:18-24
  (N.eval_expected, rd self N.a ;; call self N.eval_expected_polar .no),
  -- problems/problem.py:26-30
  (N.eval_expected_polar, call self N.eval_expected .no),
  -- problems/problem.py:32-36
  (N.eval_f, rd self N.homogeneous ;; flag self ret skip ;; rd self N.eval_f_polar ;; call self N.eval_f_polar .no),
  -- problems/problem.py:38-44
  (N.eval_f_polar, rd self N.homogeneous ;; flag self ret skip ;; call self N.eval_f .no)]

/-- problems/problem.py -/
def b_PizzaProblem : List (ℕ × Cmd) := [
  -- problems/problem.py:58-70
  (N.get_n_basis, has self N.n_basis_dict (rd self N.n_basis_dict) (call self N.get_n_basis_dict .no)),
  -- problems/problem.py:89-98
  (N.get_m1, has self N.m1 (rd self N.m1 ;; ret) skip ;; rd self N.boundary ;; rd B N.name ;; has self N.m1_dict (rd self N.m1_dict ;; alt (rd self
      N.m1_dict ;; ret) skip) skip),
  -- problems/problem.py:100-101
  (N.set_boundary, wr self N.boundary)]

/-- problems/smooth.py -/
def b_SmoothProblem : List (ℕ × Cmd) := [
  -- problems/smooth.py:26-31
  (N.eval_bc, rd self N.boundary ;; rd self N.a ;; fn .m_domain_util N.arg_to_polar_abs ;; call self N.eval_expected_polar .no),
  -- problems/smooth.py:33-52
  (N.eval_d_u_outwards, rd self N.k ;; rd self N.a ;; rd self N.boundary ;; fn .m_domain_util N.arg_to_polar_abs ;; call self N.get_grad .no ;; alt (rd self
      N.boundary ;; call B N.eval_normal .no) skip)]

/-- problems/smooth.py -/
def b_Smooth_Sine : List (ℕ × Cmd) := [
  -- problems/smooth.py:59-60
  (N.eval_expected, rd self N.k),
  -- problems/smooth.py:62-64
  (N.get_grad, rd self N.k)]

/-- problems/smooth.py -/
def b_Smooth_E : List (ℕ × Cmd) := [
  -- problems/smooth.py:71-77
  (N.eval_expected, rd self N.k ;; wr self N.kx ;; wr self N.ky),
  -- problems/smooth.py:79-84
  (N.get_grad, rd self N.kx ;; rd self N.ky)]

/-- problems/smooth.py -/
def b_Smooth_YCos : List (ℕ × Cmd) := [
  -- problems/smooth.py:94-99
  (N.__init__, sup self .Smooth_YCos N.__init__)]

/-- problems/sing_ihz.py -/
def b_IH_Bessel : List (ℕ × Cmd) := [
  -- problems/sing_ihz.py:100-121
  (N.__init__, rd self N.a ;; rd self N.nu ;; rd self N.k ;; rd self N.K ;; rd self N.R ;; wr self N.v_asympt ;; wr self N.v_series ;; wr self N.g),
  -- problems/sing_ihz.py:123-132
  (N.eval_v, rd self N.a ;; rd self N.nu ;; rd self N.k ;; rd self N.K)]

/-- problems/sing_ihz.py -/
def b_IZ_Bessel : List (ℕ × Cmd) := [
  -- problems/sing_ihz.py:140-142
  (N.eval_phi0, rd self N.boundary ;; call B N.eval_r .no ;; call self N.eval_v .no),
  -- problems/sing_ihz.py:144-148
  (N.eval_phi1, alt (call self N.eval_v .no ;; ret) ret),
  -- problems/sing_ihz.py:153-154
  (N.eval_expected_polar, call self N.eval_v .no)]

/-- problems/sing_ihz.py -/
def b_IHZ_Bessel_Line : List (ℕ × Cmd) := [
  -- problems/sing_ihz.py:159-165
  (N.eval_phi0, rd self N.a ;; rd self N.nu ;; rd self N.k ;; rd self N.boundary ;; call B N.eval_r .no ;; rd self N.K),
  -- problems/sing_ihz.py:167-176
  (N.eval_phi1, rd self N.R ;; rd self N.K ;; rd self N.nu ;; rd self N.k)]

/-- problems/sing_ihz.py -/
def b_IHZ_Bessel_Quadratic : List (ℕ × Cmd) := [
  -- problems/sing_ihz.py:187-210
  (N.__init__, rd self N.a ;; rd self N.nu ;; rd self N.k ;; rd self N.R ;; wr self N.v_asympt ;; wr self N.v_series ;; wr self N.g),
  -- problems/sing_ihz.py:212-223
  (N.eval_v, rd self N.a ;; rd self N.nu ;; rd self N.k),
  -- problems/sing_ihz.py:225-233
  (N.eval_phi0, rd self N.a ;; rd self N.nu ;; rd self N.k ;; rd self N.boundary ;; call B N.eval_r .no),
  -- problems/sing_ihz.py:235-239
  (N.eval_phi1, alt (rd self N.nu ;; rd self N.k ;; ret) ret),
  -- problems/sing_ihz.py:241-245
  (N.eval_phi2, alt (rd self N.nu ;; rd self N.k ;; ret) ret)]

/-- problems/singular.py -/
def b_SingularKnown : List (ℕ × Cmd) := [
  -- problems/singular.py:29-39
  (N.__init__, sup self .SingularKnown N.__init__ ;; wr self N.to_dst ;; rd self N.a ;; rd self N.to_dst ;; rd self N.m_max ;; wr self N.fft_b_coef ;; rd
      self N.fft_b_coef ;; rd self N.k ;; rd self N.R ;; rd self N.nu ;; wr self N.fft_a_coef),
  -- problems/singular.py:42-53
  (N.eval_expected_polar, rd self N.k ;; rd self N.a ;; rd self N.nu ;; rd self N.R ;; call self N.eval_expected__no_w .no ;; rd self N.m_max ;; loop (rd self
      N.fft_a_coef))]

/-- problems/sympy_problem.py -/
def b_SympyProblem : List (ℕ × Cmd) := [
  -- problems/sympy_problem.py:21-42
  (N.__init__, sup self .SympyProblem N.__init__ ;; rd self N.lambdify_modules ;; wr self N.lkw ;; call self N.build_sympy_subs_dict .no ;; rd self
      N.sympy_subs_dict ;; rd self N.lkw ;; wr self N.f_polar_lambda ;; call self N.do_diff .no),
  -- problems/sympy_problem.py:44-49
  (N.build_sympy_subs_dict, rd self N.k ;; rd self N.a ;; rd self N.nu ;; wr self N.sympy_subs_dict),
  -- problems/sympy_problem.py:51-73
  (N.do_diff, rd self N.sympy_subs_dict ;; rd self N.lkw ;; wr self N.eval_d_f_r ;; rd self N.lkw ;; wr self N.eval_d2_f_r ;; rd self N.lkw ;; wr self
      N.eval_d_f_th ;; rd self N.lkw ;; wr self N.eval_d2_f_th ;; rd self N.lkw ;; wr self N.eval_d2_f_r_th),
  -- problems/sympy_problem.py:75-94
  (N.eval_f_polar, alt (rd self N.AD_len ;; call self N.eval_hessian_f .no ;; call self N.eval_grad_f .no ;; call self N.eval_f .no ;; ret) (call self
      N.f_polar_lambda .no ;; ret)),
  -- problems/sympy_problem.py:96-101
  (N.eval_grad_f, rd self N.eval_grad_f_polar ;; call self N.eval_grad_f_polar .no),
  -- problems/sympy_problem.py:103-110
  (N.eval_grad_f_polar, call self N.eval_d_f_r .no ;; call self N.eval_d_f_th .no),
  -- problems/sympy_problem.py:112-117
  (N.eval_hessian_f, rd self N.eval_hessian_f_polar ;; call self N.eval_hessian_f_polar .no),
  -- problems/sympy_problem.py:119-155
  (N.eval_hessian_f_polar, call self N.eval_d_f_r .no ;; call self N.eval_d_f_th .no ;; call self N.eval_d2_f_r .no ;; call self N.eval_d2_f_r_th .no ;; call self
      N.eval_d2_f_th .no)]

/-- run.py -/
def b_m_run : List (ℕ × Cmd) := [
  -- run.py, the statements outside functions
  (N.__main__, new main ;; rd main N.R ;; rd main N.k ;; new B ;; call main N.set_boundary .no ;; fn .m_io_util N.print_options ;; alt (rd main
      N.expected_known) skip ;; loop (new S ;; call S N.run .no ;; alt brk skip ;; rd R N.error ;; alt (rd R N.error) skip ;; rd R N.u_act ;; alt
      (rd R N.error) skip ;; alt (call S N.calc_rel_convergence .no) skip ;; rd R N.error))]

/-- runz.py -/
def b_m_runz : List (ℕ × Cmd) := [
  -- runz.py, the statements outside functions
  (N.__main__, new main ;; rd main N.R ;; rd main N.k ;; new B ;; call main N.set_boundary .no ;; fn .m_io_util N.print_options ;; alt (rd main
      N.expected_known) skip ;; loop (new Z ;; wr Z N.z1_fourier ;; call Z N.run .no ;; alt (call F N.calc_rel_convergence .no) skip ;; alt (call
      S N.calc_rel_convergence .no) skip ;; rd Z N.z1_fourier))]

/-- scripts/c0_basis.py -/
def b_m_c0_basis : List (ℕ × Cmd) := [
  -- scripts/c0_basis.py, the statements outside functions
  (N.__main__, new main ;; rd main N.R ;; new B ;; wr main N.boundary ;; fn .m_io_util N.print_options ;; loop (new S ;; call S N.calc_c0 .no ;; call S
      N.c0_test .no))]

/-- scripts/optimize_basis.py -/
def b_m_optimize_basis : List (ℕ × Cmd) := [
  -- scripts/optimize_basis.py, the statements outside functions
  (N.__main__, new main ;; rd main N.R ;; new B ;; wr main N.boundary ;; fn .m_io_util N.print_options ;; loop (fn .m_optimize_basis N.worker)),
  -- scripts/optimize_basis.py:52-61
  (N.worker, new S ;; call S N.run .no ;; rd R N.error)]

/-- scripts/extend_basis_test.py -/
def b_m_extend_basis_test : List (ℕ × Cmd) := [
  -- scripts/extend_basis_test.py, the statements outside functions
  (N.__main__, new main ;; rd main N.R ;; new B ;; wr main N.boundary ;; fn .m_io_util N.print_options ;; new S ;; loop (rd S N.B_desc ;; loop (call S
      N.extend_basis .no ;; rd S N.B_desc ;; wr S N.c0 ;; rd S N.B_desc ;; wr S N.c1 ;; alt (rd S N.c0) (alt (rd S N.c1) skip) ;; call S
      N.extend_boundary .no)))]

/-- scripts/extension_test.py -/
def b_m_extension_test : List (ℕ × Cmd) := [
  -- scripts/extension_test.py, the statements outside functions
  (N.__main__, alt (new main ;; rd main N.R ;; new B ;; wr main N.boundary ;; fn .m_io_util N.print_options ;; loop (fn .m_extension_test N.run_test)) skip),
  -- scripts/extension_test.py:45-98
  (N.run_test, new S ;; call S N.calc_c0 .no ;; call S N.calc_c1_exact .no ;; call S N.c0_test .no ;; call S N.mv_extend_boundary .no ;; call V N.reduce
      .no ;; rd S N.union_gamma ;; loop (rd S N.union_gamma ;; call S N.get_polar .no ;; call V N.__getitem__ .no))]

/-- scripts/test_extend_f.py -/
def b_m_test_extend_f : List (ℕ × Cmd) := [
  -- scripts/test_extend_f.py, the statements outside functions
  (N.__main__, alt (new main ;; rd main N.R ;; new B ;; wr main N.boundary ;; fn .m_io_util N.print_options ;; loop (fn .m_test_extend_f N.run_test)) skip),
  -- scripts/test_extend_f.py:42-61
  (N.run_test, new S ;; rd S N.Kplus ;; loop (call S N._extend_f_get_sid .no ;; alt (call S N.get_polar .no ;; rd S N.f) skip))]

/-- scripts/plot_domain.py -/
def b_m_plot_domain : List (ℕ × Cmd) := [
  -- scripts/plot_domain.py, the statements outside functions
  (N.__main__, new main ;; rd main N.R ;; new B ;; wr main N.boundary ;; new S ;; alt (fn .m_plot_domain N.plot_aux ;; fn .m_plot_domain N.plot_gamma) (alt
      (fn .m_plot_domain N.plot_arc ;; fn .m_plot_domain N.plot_Gamma) (alt (fn .m_plot_domain N.plot_allMK) (alt (fn .m_plot_domain N.plot_allMK)
      (alt (fn .m_plot_domain N.plot_intext) (alt (fn .m_plot_domain N.plot_intext) (alt (fn .m_plot_domain N.plot_aux ;; fn .m_plot_domain
      N.plot_Gamma) skip))))))),
  -- scripts/plot_domain.py:16-23
  (N.plot_aux, rd S N.AD_len),
  -- scripts/plot_domain.py:25-30
  (N.plot_arc, rd S N.a ;; rd S N.R ;; rd S N.R),
  -- scripts/plot_domain.py:32-48
  (N.plot_Gamma, call S N.get_boundary_sample .no),
  -- scripts/plot_domain.py:50-61
  (N.nodes_to_plottable, loop (call S N.get_coord .no)),
  -- scripts/plot_domain.py:64-81
  (N.plot_Mplus, fn .m_plot_domain N.plot_Gamma ;; loop (rd S N.all_Mplus ;; fn .m_plot_domain N.nodes_to_plottable)),
  -- scripts/plot_domain.py:83-112
  (N.plot_allMK, fn .m_plot_domain N.plot_Gamma ;; alt (rd S N.global_Mplus ;; rd S N.global_Mminus) (alt (rd S N.Kplus) skip) ;; loop (fn .m_plot_domain
      N.nodes_to_plottable)),
  -- scripts/plot_domain.py:114-147
  (N.plot_intext, fn .m_plot_domain N.plot_Gamma ;; fn .m_plot_domain N.plot_aux ;; alt (rd S N.global_Mplus ;; rd S N.Nplus) (rd S N.global_Mminus ;; rd S
      N.Nminus) ;; loop (fn .m_plot_domain N.nodes_to_plottable)),
  -- scripts/plot_domain.py:149-173
  (N.plot_gamma, fn .m_plot_domain N.plot_Gamma ;; loop (rd S N.all_gamma ;; fn .m_plot_domain N.nodes_to_plottable))]

/-- scripts/plot_domain2.py -/
def b_m_plot_domain2 : List (ℕ × Cmd) := [
  -- scripts/plot_domain2.py, the statements outside functions
  (N.__main__, new main ;; loop (rd main N.R ;; new B ;; wr main N.boundary ;; wr main N.a ;; new S ;; fn .m_plot_domain2 N.plot_arc ;; fn .m_plot_domain2
      N.plot_Gamma ;; fn .m_plot_domain2 N.plot_Gamma ;; fn .m_plot_domain2 N.plot_Gamma ;; rd main N.R ;; new B ;; wr main N.boundary ;; new S ;;
      fn .m_plot_domain2 N.plot_Gamma)),
  -- scripts/plot_domain2.py:16-21
  (N.plot_aux, rd S N.AD_len),
  -- scripts/plot_domain2.py:23-28
  (N.plot_arc, rd S N.a ;; rd S N.R ;; rd S N.R),
  -- scripts/plot_domain2.py:30-42
  (N.plot_Gamma, call S N.get_boundary_sample .no),
  -- scripts/plot_domain2.py:44-55
  (N.nodes_to_plottable, loop (call S N.get_coord .no)),
  -- scripts/plot_domain2.py:57-74
  (N.plot_Mplus, fn .m_plot_domain2 N.plot_Gamma ;; loop (rd S N.all_Mplus ;; fn .m_plot_domain2 N.nodes_to_plottable)),
  -- scripts/plot_domain2.py:76-94
  (N.plot_gamma, fn .m_plot_domain2 N.plot_Gamma ;; loop (rd S N.all_gamma ;; fn .m_plot_domain2 N.nodes_to_plottable))]

/-- the bodies of the functions a class or module defines -/
def bodies : Owner → List (ℕ × Cmd)
  | .m_domain_util => b_m_domain_util
  | .APSolver => b_APSolver
  | .m_abcoef => b_m_abcoef
  | .m_io_util => b_m_io_util
  | .Solver => b_Solver
  | .SolverExtend => b_SolverExtend
  | .PizzaSolver => b_PizzaSolver
  | .ZMethod => b_ZMethod
  | .DummySympyProblem => b_DummySympyProblem
  | .u_BVP => b_u_BVP
  | .PsBasis => b_PsBasis
  | .PsGrid => b_PsGrid
  | .PsExtend => b_PsExtend
  | .PsInhomo => b_PsInhomo
  | .PsDebug => b_PsDebug
  | .Multivalue => b_Multivalue
  | .PolarFD => b_PolarFD
  | .Boundary => b_Boundary
  | .Problem => b_Problem
  | .PizzaProblem => b_PizzaProblem
  | .SmoothProblem => b_SmoothProblem
  | .Smooth_Sine => b_Smooth_Sine
  | .Smooth_E => b_Smooth_E
  | .Smooth_YCos => b_Smooth_YCos
  | .IH_Bessel => b_IH_Bessel
  | .IZ_Bessel => b_IZ_Bessel
  | .IHZ_Bessel_Line => b_IHZ_Bessel_Line
  | .IHZ_Bessel_Quadratic => b_IHZ_Bessel_Quadratic
  | .SingularKnown => b_SingularKnown
  | .SympyProblem => b_SympyProblem
  | .m_run => b_m_run
  | .m_runz => b_m_runz
  | .m_c0_basis => b_m_c0_basis
  | .m_optimize_basis => b_m_optimize_basis
  | .m_extend_basis_test => b_m_extend_basis_test
  | .m_extension_test => b_m_extension_test
  | .m_test_extend_f => b_m_test_extend_f
  | .m_plot_domain => b_m_plot_domain
  | .m_plot_domain2 => b_m_plot_domain2
  | _ => []

/-- `homogeneous` in the bodies of the classes: problems/problem.py:8, problems/smooth.py:57, :69 -/
def homogeneousOf : Owner → Bool
  | .Smooth_Sine | .Smooth_E => true
  | _ => false

/-- a program with the classes of its problem and its boundary; in runz.py (`z`) the solver gets a problem of its own, ps/zmethod.py:394 -/
def world (z : Bool) (problem boundary : Owner) : World where
  bodies := bodies
  own := own
  mro := mro
  homog := homogeneousOf
  cls
    | .solver => .PizzaSolver
    | .problem => if z then .u_BVP else problem
    | .zproblem => problem
    | .boundary => boundary
    | .apsolver => .APSolver
    | .multivalue => .Multivalue
    | .polarfd => .PolarFD
    | .zmethod => .ZMethod
    | .result => .Result
    | .dummy => .DummySympyProblem
  main := if z then .zproblem else .problem

/-- the smooth problems: problems/__init__.py:17-19 -/
def smooth : List Owner := [.Smooth_Sine, .Smooth_E, .Smooth_YCos]

/-- the problems of the z-method: problems/__init__.py:30-32 -/
def singular : List Owner := [.IZ_Bessel, .IHZ_Bessel_Line, .IHZ_Bessel_Quadratic]

/-- the boundaries: problems/boundary.py:201-207 -/
def boundaries : List Owner := [.Arc, .OuterSine, .InnerSine, .Sine7, .Cubic]

end Attrs
end Pot
