import Verif.Model.Names

/-!
The functions and modules of the root directory and of ps/, reduced to the names they read and bind (see `Verif.Model.Names`).
Each `Func` lists its local names; in the statements a name is its position in that list, a module-level name its
position in the list `globals` of the module.
-/

namespace Pot.Names

/-- __init__.py:1 -/
def m_init : Module where
  file := "__init__.py"
  globals := []
  init := 0
  locals := []
  funcs := []
  body :=
    .skip
  final := []

/-- abcoef.py:11-36 `calc_a_coef` -/
def f_abcoef_0 : Func where
  name := "calc_a_coef"
  locals := ["problem", "boundary", "eval_bc0", "M", "m1", "k", "R", "a", "nu", "phi0_data", "W", "i", "th", "r",
    "m", "a_coef", "residuals", "rank", "s"]
  params := 5
  cases := [0]
  uses := [0, 1, 3, 4, 5, 7, 8]
  body :=
    .st [] [0] [5] ;; .st [] [0] [6] ;; .st [] [0] [7] ;; .st [] [0] [8] ;; .st [4, 7, 0] [] [9] ;;
    .st [4, 7, 0] [4] [10] ;; .st [1, 7] [] [] ;;
    .loop (.st [] [] [11] ;; .st [8] [11] [12] ;; .st [] [1, 12] [13] ;; .st [] [2, 12, 9, 11] [] ;;
      .st [1] [4] [] ;; .loop (.st [] [] [14] ;; .st [5, 4] [14, 8, 5, 13, 12, 7, 10, 11] [])) ;;
    .st [1] [3, 4] [] ;; .loop (.st [] [] [14] ;; .st [5] [10, 14, 8, 5, 6] []) ;;
    .st [4] [10, 9] [15, 16, 17, 18] ;; .st [] [17, 4] [] ;; .alt .any (.st [3] [] []) .skip ;;
    .st [] [15, 3, 18] [] ;; .ret

/-- abcoef.py:38-39 `a_to_b` -/
def f_abcoef_1 : Func where
  name := "a_to_b"
  locals := ["a_coef", "k", "R", "nu"]
  params := 4
  cases := [0]
  uses := [0, 1, 2, 4, 5, 12]
  body :=
    .st [12] [0, 1, 2, 3] [] ;; .loop (.call 3 [0]) ;; .ret

/-- abcoef.py:41-42 `b_to_a` -/
def f_abcoef_2 : Func where
  name := "b_to_a"
  locals := ["b_coef", "k", "R", "nu"]
  params := 4
  cases := [0]
  uses := [0, 1, 2, 4, 5, 12]
  body :=
    .st [12] [0, 1, 2, 3] [] ;; .loop (.call 3 [0]) ;; .ret

/-- abcoef.py:44-56 `_convert_ab` -/
def f_abcoef_3 : Func where
  name := "_convert_ab"
  locals := ["coef", "coef_type", "k", "R", "nu", "other_coef", "m", "factor"]
  params := 5
  cases := [0]
  uses := [0, 1, 2, 4, 5]
  body :=
    .st [] [1] [] ;; .st [4, 2, 0] [0] [5] ;; .st [1, 2] [0] [] ;;
    .loop (.st [] [] [6] ;; .st [5] [6, 4, 2, 3] [7] ;; .st [] [1] [] ;; .alt .any (.st [] [7] [7]) .skip ;;
      .st [] [0, 6, 7, 5] []) ;;
    .st [] [5] [] ;; .ret

/-- abcoef.py:1-56 -/
def m_abcoef : Module where
  file := "abcoef.py"
  globals := ["complex", "range", "len", "warnings", "np", "jv", "PizzaProblem", "n_nodes", "th_data", "calc_a_coef",
    "a_to_b", "b_to_a", "_convert_ab"]
  init := 3
  locals := []
  funcs := [f_abcoef_0, f_abcoef_1, f_abcoef_2, f_abcoef_3]
  body :=
    .bg [3] ;; .bg [4] ;; .bg [5] ;; .bg [6] ;; .bg [7] ;; .st [4, 6, 7] [] [] ;; .bg [8] ;; .bg [9] ;;
    .bg [10] ;; .bg [11] ;; .bg [12]
  final := [0, 1, 2, 3, 4, 5, 6, 7, 8, 9, 10, 11, 12]

/-- chebyshev.py:9-11 `eval_T` -/
def f_chebyshev_0 : Func where
  name := "eval_T"
  locals := ["J", "t"]
  params := 2
  cases := [0]
  uses := [3, 4]
  body :=
    .st [3, 4] [0, 1] [] ;; .ret

/-- chebyshev.py:13-15 `eval_d_T_t` -/
def f_chebyshev_1 : Func where
  name := "eval_d_T_t"
  locals := ["J", "t"]
  params := 2
  cases := [0]
  uses := [2, 4, 5]
  body :=
    .st [5, 4, 2] [0, 1] [] ;; .ret

/-- chebyshev.py:17-18 `eval_d2_T_t` -/
def f_chebyshev_2 : Func where
  name := "eval_d2_T_t"
  locals := ["J", "t"]
  params := 2
  cases := [0]
  uses := [3, 4, 5]
  body :=
    .st [3, 4, 5] [0, 1] [] ;; .ret

/-- chebyshev.py:20-21 `eval_d3_T_t` -/
def f_chebyshev_3 : Func where
  name := "eval_d3_T_t"
  locals := ["J", "t"]
  params := 2
  cases := [0]
  uses := [3, 4, 5]
  body :=
    .st [5, 4, 3] [0, 1] [] ;; .ret

/-- chebyshev.py:23-24 `eval_d4_T_t` -/
def f_chebyshev_4 : Func where
  name := "eval_d4_T_t"
  locals := ["J", "t"]
  params := 2
  cases := [0]
  uses := [2, 3, 4, 5]
  body :=
    .st [3, 4, 5, 2] [0, 1] [] ;; .ret

/-- chebyshev.py:26-27 `eval_d5_T_t` -/
def f_chebyshev_5 : Func where
  name := "eval_d5_T_t"
  locals := ["J", "t"]
  params := 2
  cases := [0]
  uses := [3, 4, 5]
  body :=
    .st [5, 4, 3] [0, 1] [] ;; .ret

/-- chebyshev.py:34-37 `eval_dn_T_t` -/
def f_chebyshev_6 : Func where
  name := "eval_dn_T_t"
  locals := ["n", "J", "t"]
  params := 3
  cases := [0]
  uses := [12]
  body :=
    .st [12] [0, 1, 2] [] ;; .ret

/-- chebyshev.py:39-41 `get_chebyshev_roots` -/
def f_chebyshev_7 : Func where
  name := "get_chebyshev_roots"
  locals := ["J", "comp41_11.l"]
  params := 1
  cases := [0]
  uses := [0, 1, 3]
  body :=
    .st [0] [0] [] ;; .frame [1] (.loop (.st [] [] [1] ;; .st [3, 1] [1, 0] [])) ;; .ret

/-- chebyshev.py:1-41 -/
def m_chebyshev : Module where
  file := "chebyshev.py"
  globals := ["range", "pi", "sqrt", "cos", "acos", "sin", "eval_T", "eval_d_T_t", "eval_d2_T_t", "eval_d3_T_t",
    "eval_d4_T_t", "eval_d5_T_t", "derivs", "eval_dn_T_t", "get_chebyshev_roots"]
  init := 1
  locals := []
  funcs := [f_chebyshev_0, f_chebyshev_1, f_chebyshev_2, f_chebyshev_3, f_chebyshev_4, f_chebyshev_5,
    f_chebyshev_6, f_chebyshev_7]
  body :=
    .bg [1, 2, 3, 4, 5] ;; .bg [6] ;; .bg [7] ;; .bg [8] ;; .bg [9] ;; .bg [10] ;; .bg [11] ;;
    .st [6, 7, 8, 9, 10, 11] [] [] ;; .loop (.call 0 [0]) ;; .loop (.call 1 [0]) ;; .loop (.call 2 [0]) ;;
    .loop (.call 3 [0]) ;; .loop (.call 4 [0]) ;; .loop (.call 5 [0]) ;; .bg [12] ;; .bg [13] ;; .bg [14]
  final := [0, 1, 2, 3, 4, 5, 6, 7, 8, 9, 10, 11, 12, 13, 14]

/-- domain_util.py:4-13 `cart_to_polar` -/
def f_domain_util_0 : Func where
  name := "cart_to_polar"
  locals := ["x", "y", "r", "th"]
  params := 2
  cases := [0]
  uses := [1, 2]
  body :=
    .st [2] [0, 1] [2, 3] ;; .st [] [3] [] ;;
    .alt .any (.st [] [3] [] ;; .st [1] [] [] ;; .st [] [] [3]) .skip ;; .st [] [2, 3] [] ;; .ret

/-- domain_util.py:15-33 `wrap_func` -/
def f_domain_util_1 : Func where
  name := "wrap_func"
  locals := ["a", "arg", "sid"]
  params := 3
  cases := [0]
  uses := [1]
  body :=
    .st [] [2, 1, 0] [] ;;
    .alt .any
      (.st [] [1] [] ;; .st [1] [] [] ;; .st [] [] [1])
      (.st [] [2, 1] [] ;;
      .alt .any
        (.st [] [1] [1] ;; .st [] [] [2])
        (.st [] [2, 1] [] ;; .alt .any (.st [] [1] [1] ;; .st [] [] [2]) .skip)) ;;
    .st [] [1, 2] [] ;; .ret

/-- domain_util.py:36-51 `arg_to_polar_abs` -/
def f_domain_util_2 : Func where
  name := "arg_to_polar_abs"
  locals := ["boundary", "a", "arg", "sid"]
  params := 4
  cases := [0]
  uses := [1]
  body :=
    .st [] [3] [] ;;
    .alt .any
      (.st [] [0, 2] [] ;; .ret)
      (.st [] [3] [] ;;
      .alt .any
        (.st [] [2] [] ;; .alt .any (.st [1] [2] [] ;; .ret) (.st [1] [2] [] ;; .ret))
        (.st [] [3] [] ;;
        .alt .any (.st [] [2] [] ;; .alt .any (.st [] [2, 1] [] ;; .ret) (.st [1] [2, 1] [] ;; .ret)) .skip))

/-- domain_util.py:53-62 `arg_to_polar` -/
def f_domain_util_3 : Func where
  name := "arg_to_polar"
  locals := ["boundary", "a", "arg", "sid"]
  params := 4
  cases := [0]
  uses := [1]
  body :=
    .st [] [3] [] ;;
    .alt .any
      (.st [] [0, 2] [] ;; .ret)
      (.st [] [3] [] ;;
      .alt .any (.st [1] [2] [] ;; .ret) (.st [] [3] [] ;; .alt .any (.st [] [2, 1] [] ;; .ret) .skip))

/-- domain_util.py:64-76 `get_sid` -/
def f_domain_util_4 : Func where
  name := "get_sid"
  locals := ["a", "th", "tol"]
  params := 2
  cases := [0]
  uses := [0, 1]
  body :=
    .st [] [] [2] ;; .st [1] [1] [] ;;
    .alt .any .ret (.st [] [1, 0] [] ;; .alt .any .ret (.st [0] [1, 0, 2] [] ;; .alt .any .ret .skip))

/-- domain_util.py:1-76 -/
def m_domain_util : Module where
  file := "domain_util.py"
  globals := ["abs", "np", "math", "cart_to_polar", "wrap_func", "arg_to_polar_abs", "arg_to_polar", "get_sid"]
  init := 1
  locals := []
  funcs := [f_domain_util_0, f_domain_util_1, f_domain_util_2, f_domain_util_3, f_domain_util_4]
  body :=
    .bg [1] ;; .bg [2] ;; .bg [3] ;; .bg [4] ;; .bg [5] ;; .bg [6] ;; .bg [7]
  final := [0, 1, 2, 3, 4, 5, 6, 7]

/-- extend.py:10-57 `SolverExtend.extend_polar` -/
def f_extend_0 : Func where
  name := "SolverExtend.extend_polar"
  locals := ["self", "kwargs", "curv", "d_curv_th", "d2_curv_th", "d_th_s", "d2_th_s", "d3_th_s", "d4_th_s",
    "d_xi0_th", "d_xi1_th", "d2_xi0_th", "d2_xi1_th", "d3_xi0_th", "d4_xi0_th", "convert_d", "convert_d.d",
    "convert_d2", "convert_d2.d", "convert_d2.d2", "convert_d4", "convert_d4.d", "convert_d4.d2",
    "convert_d4.d3", "convert_d4.d4"]
  params := 2
  cases := [0]
  uses := []
  body :=
    .st [] [1] [2] ;; .st [] [1] [3] ;; .st [] [1] [4] ;; .st [] [1] [5] ;; .st [] [1] [6] ;; .st [] [1] [7] ;;
    .st [] [1] [8] ;; .st [] [1] [9] ;; .st [] [1] [10] ;; .st [] [1] [11] ;; .st [] [1] [12] ;;
    .st [] [1] [13] ;; .st [] [1] [14] ;; .st [] [] [15] ;; .st [] [] [17] ;; .st [] [] [20] ;;
    .st [] [0, 1, 15, 9, 10, 17, 11, 12, 20, 13, 14, 2, 3, 4] [] ;;
    .loop (.frame [16] (.st [] [] [16] ;; .st [] [16, 5] [] ;; .ret)) ;;
    .loop (.frame [16] (.st [] [] [16] ;; .st [] [16, 5] [] ;; .ret)) ;;
    .loop (.frame [18, 19] (.st [] [] [18, 19] ;; .st [] [19, 5, 18, 6] [] ;; .ret)) ;;
    .loop (.frame [18, 19] (.st [] [] [18, 19] ;; .st [] [19, 5, 18, 6] [] ;; .ret)) ;;
    .loop (.frame [21, 22, 23, 24] (.st [] [] [21, 22, 23, 24] ;; .st [] [5, 24, 6, 23, 22, 7, 8, 21] [] ;; .ret)) ;;
    .loop (.frame [16] (.st [] [] [16] ;; .st [] [16, 5] [] ;; .ret)) ;;
    .loop (.frame [18, 19] (.st [] [] [18, 19] ;; .st [] [19, 5, 18, 6] [] ;; .ret)) ;; .ret

/-- extend.py:60-109 `SolverExtend.extend_arbitrary` -/
def f_extend_1 : Func where
  name := "SolverExtend.extend_arbitrary"
  locals := ["self", "kwargs", "n", "curv", "d_curv_s", "d2_curv_s", "xi0", "xi1", "d_xi0_s", "d_xi1_s", "d2_xi0_s",
    "d2_xi1_s", "d4_xi0_s", "k", "derivs", "d4_v_n2_s2", "v", "l"]
  params := 2
  cases := [0]
  uses := [0, 1, 2]
  body :=
    .st [] [1] [2] ;; .st [] [1] [3] ;; .st [] [1] [4] ;; .st [] [1] [5] ;; .st [] [1] [6] ;; .st [] [1] [7] ;;
    .st [] [1] [8] ;; .st [] [1] [9] ;; .st [] [1] [10] ;; .st [] [1] [11] ;; .st [] [1] [12] ;;
    .st [] [0] [13] ;; .st [] [] [14] ;; .st [] [14, 6] [] ;; .st [] [14, 7] [] ;;
    .st [] [14, 13, 6, 3, 7, 10] [] ;; .st [] [14, 3, 13, 7, 4, 8, 10, 11] [] ;;
    .st [] [5, 7, 13, 10, 12, 4, 9, 3, 11] [15] ;; .st [] [14, 3, 7, 13, 4, 8, 10, 9, 11, 15] [] ;;
    .st [] [] [16] ;; .st [0, 1] [14] [] ;;
    .loop (.st [] [] [17] ;; .st [] [16] [] ;; .st [2] [14, 17, 2] [] ;; .st [] [] [16]) ;; .st [] [16] [] ;;
    .ret

/-- extend.py:111-143 `SolverExtend.inhomo_extend_polar` -/
def f_extend_2 : Func where
  name := "SolverExtend.inhomo_extend_polar"
  locals := ["self", "kwargs", "d_f_th", "d2_f_th", "d_f_r", "d2_f_r", "d2_f_r_th", "d_th_s", "d2_th_s", "d_r_th",
    "d2_r_th", "d_r_s", "d2_r_s", "d2_f_th_s", "d2_f_r_s", "d2_f_s"]
  params := 2
  cases := [0]
  uses := []
  body :=
    .st [] [1] [2] ;; .st [] [1] [3] ;; .st [] [1] [4] ;; .st [] [1] [5] ;; .st [] [1] [6] ;; .st [] [1] [7] ;;
    .st [] [1] [8] ;; .st [] [1] [9] ;; .st [] [1] [10] ;; .st [] [9, 7] [11] ;; .st [] [10, 7, 9, 8] [12] ;;
    .st [] [3, 7, 6, 11] [13] ;; .st [] [6, 7, 5, 11] [14] ;; .st [] [13, 7, 2, 8, 14, 11, 4, 12] [15] ;;
    .st [] [15, 1] [] ;; .st [] [0, 1] [] ;; .ret

/-- extend.py:145-173 `SolverExtend.inhomo_extend_arbitrary` -/
def f_extend_3 : Func where
  name := "SolverExtend.inhomo_extend_arbitrary"
  locals := ["self", "kwargs", "k", "n", "f", "d_f_n", "d2_f_n", "d2_f_s", "curv", "derivs", "v", "l"]
  params := 2
  cases := [0]
  uses := [0, 1, 2]
  body :=
    .st [] [0] [2] ;; .st [] [1] [3] ;; .st [] [1] [4] ;; .st [] [1] [5] ;; .st [] [1] [6] ;; .st [] [1] [7] ;;
    .st [] [1] [8] ;; .st [] [4] [9] ;; .st [] [9, 5, 8] [] ;; .st [] [9, 6, 8, 2, 7] [] ;; .st [] [] [10] ;;
    .st [0, 1] [9] [] ;; .loop (.st [] [] [11] ;; .st [] [10] [] ;; .st [2] [9, 11, 3] [] ;; .st [] [] [10]) ;;
    .st [] [10] [] ;; .ret

/-- extend.py:1-173 -/
def m_extend : Module where
  file := "extend.py"
  globals := ["range", "len", "math", "np", "SolverExtend"]
  init := 2
  locals := ["SolverExtend.extend_arbitrary", "SolverExtend.extend_polar", "SolverExtend.inhomo_extend_arbitrary",
    "SolverExtend.inhomo_extend_polar"]
  funcs := [f_extend_0, f_extend_1, f_extend_2, f_extend_3]
  body :=
    .bg [2] ;; .bg [3] ;;
    .frame [0, 1, 2, 3] (.st [] [] [1] ;; .st [] [] [0] ;; .st [] [] [3] ;; .st [] [] [2]) ;; .bg [4]
  final := [0, 1, 2, 3, 4]

/-- fourier.py:13-17 `APSolver.__init__` -/
def f_fourier_0 : Func where
  name := "APSolver.__init__"
  locals := ["self", "N", "order", "AD_len", "k"]
  params := 5
  cases := [0]
  uses := []
  body :=
    .st [] [1, 0] [] ;; .st [] [2, 0] [] ;; .st [] [3, 0] [] ;; .st [] [4, 0] []

/-- fourier.py:19-47 `APSolver.calc_eigenvals`; the parameter is order -/
def f_fourier_1 : Func where
  name := "APSolver.calc_eigenvals"
  locals := ["self", "N", "order", "AD_len", "k", "h", "h2", "k2", "j", "l", "eigenval"]
  params := 1
  cases := [2, 4]
  uses := [0, 3]
  body :=
    .st [] [0] [1] ;; .st [] [0] [2] ;; .st [] [0] [3] ;; .st [] [0] [4] ;; .st [3] [1, 0] [] ;;
    .st [] [3, 1] [5] ;; .st [] [5] [6] ;; .st [] [4] [7] ;; .st [0] [1] [] ;;
    .loop (.st [] [] [8] ;; .st [0] [8] [] ;;
      .loop (.st [] [] [9] ;; .st [] [2] [] ;; .alt (.on [2]) (.st [3] [7, 8, 1, 9, 6] [10]) .skip ;;
        .st [] [2] [] ;; .alt (.on [4]) (.st [3] [6, 7, 8, 1, 9] [10]) .skip ;; .st [] [10, 0, 8, 9] [] ;;
        .st [] [10, 0, 9, 8] []))

/-- fourier.py:49-82 `APSolver._fourier` -/
def f_fourier_2 : Func where
  name := "APSolver._fourier"
  locals := ["self", "Bf", "solve", "N", "AD_len", "h", "scoef", "i", "j", "fourier_coef_sol", "u_f"]
  params := 3
  cases := [0]
  uses := [0, 1, 3, 4]
  body :=
    .st [] [0] [3] ;; .st [] [0] [4] ;; .st [] [3, 1] [] ;; .st [] [4, 3] [5] ;; .st [] [0] [] ;;
    .alt .any (.st [] [0] []) .skip ;; .st [3, 1] [3] [6] ;; .st [0] [3] [] ;;
    .loop (.st [] [] [7] ;; .st [4] [1, 7, 6] []) ;; .st [0] [3] [] ;;
    .loop (.st [] [] [8] ;; .st [4] [6, 8] []) ;; .st [] [6] [] ;; .st [] [5] [] ;; .st [] [] [6] ;;
    .st [] [2] [] ;; .alt .any (.st [] [6, 0] [9]) (.st [] [6, 0] [9]) ;; .st [3, 1] [3] [10] ;;
    .st [0] [3] [] ;; .loop (.st [] [] [7] ;; .st [4] [9, 7, 10] []) ;; .st [0] [3] [] ;;
    .loop (.st [] [] [8] ;; .st [4] [10, 8] []) ;; .st [] [10] [] ;; .st [] [4] [] ;; .st [] [] [10] ;;
    .st [] [10] [] ;; .ret

/-- fourier.py:84-85 `APSolver.solve` -/
def f_fourier_3 : Func where
  name := "APSolver.solve"
  locals := ["self", "Bf"]
  params := 2
  cases := [0]
  uses := []
  body :=
    .st [] [0, 1] [] ;; .ret

/-- fourier.py:87-88 `APSolver.apply_L` -/
def f_fourier_4 : Func where
  name := "APSolver.apply_L"
  locals := ["self", "v"]
  params := 2
  cases := [0]
  uses := []
  body :=
    .st [] [0, 1] [] ;; .ret

/-- fourier.py:91-96 `arc_dst` -/
def f_fourier_5 : Func where
  name := "arc_dst"
  locals := ["a", "func", "N", "th_data", "discrete_func", "comp95_29.th"]
  params := 3
  cases := [0]
  uses := [3, 4]
  body :=
    .st [3] [0, 2] [3] ;; .st [3] [3] [] ;; .frame [5] (.loop (.st [] [] [5] ;; .st [] [1, 5] [])) ;;
    .st [] [] [4] ;; .st [4] [4, 2] [] ;; .ret

/-- fourier.py:1-96 -/
def m_fourier : Module where
  file := "fourier.py"
  globals := ["range", "complex", "it", "np", "dst", "APSolver", "arc_dst"]
  init := 2
  locals := ["APSolver.__init__", "APSolver._fourier", "APSolver.apply_L", "APSolver.calc_eigenvals",
    "APSolver.eigenvals", "APSolver.solve"]
  funcs := [f_fourier_0, f_fourier_1, f_fourier_2, f_fourier_3, f_fourier_4, f_fourier_5]
  body :=
    .bg [2] ;; .bg [3] ;; .bg [4] ;;
    .frame [0, 1, 2, 3, 4, 5] (.st [] [] [4] ;; .st [] [] [0] ;; .st [] [] [3] ;; .st [] [] [1] ;; .st [] [] [5] ;; .st [] [] [2]) ;;
    .bg [5] ;; .bg [6]
  final := [0, 1, 2, 3, 4, 5, 6]

/-- io_util.py:8-39 `add_arguments` -/
def f_io_util_0 : Func where
  name := "add_arguments"
  locals := ["parser", "args", "problem_choices", "boundary_choices"]
  params := 2
  cases := [0]
  uses := [0, 6]
  body :=
    .st [] [1] [] ;; .alt .any (.st [6] [] [2] ;; .st [] [0, 2] []) .skip ;; .st [] [1] [] ;;
    .alt .any (.st [6] [] [3] ;; .st [] [0, 3] []) .skip ;; .st [] [1] [] ;;
    .alt .any (.st [0] [0] []) .skip ;; .st [] [1] [] ;; .alt .any (.st [0] [0] []) .skip ;; .st [] [1] [] ;;
    .alt .any (.st [0] [0] []) .skip ;; .st [] [1] [] ;; .alt .any (.st [] [0] []) .skip

/-- io_util.py:42-76 `print_options` -/
def f_io_util_1 : Func where
  name := "print_options"
  locals := ["options", "meta_options", "problem", "boundary", "heading_items", "N_list", "N"]
  params := 2
  cases := [0]
  uses := [1, 2, 3, 4, 5, 7]
  body :=
    .st [] [0] [2] ;; .st [] [2] [3] ;; .st [1, 5] [2, 3] [4] ;; .st [] [1] [] ;;
    .alt .any (.st [] [4, 1] []) .skip ;; .st [2] [4] [] ;; .st [] [0] [] ;;
    .alt .any (.st [2] [0] []) .skip ;; .st [2, 7, 3] [2] [] ;; .st [2, 7] [2] [] ;; .st [2, 7] [2] [] ;;
    .st [2, 7] [3] [] ;; .st [2, 7] [2] [] ;; .st [] [0] [] ;; .alt .any (.st [2] [] []) (.st [2] [2] []) ;;
    .st [2] [] [] ;; .st [4] [2, 1] [] ;;
    .alt .any
      (.st [2] [] [] ;; .st [] [1] [5] ;; .st [] [5] [] ;; .loop (.st [] [] [6] ;; .st [2] [6, 2] []) ;;
      .st [2] [] [])
      .skip

/-- io_util.py:1-76 -/
def m_io_util : Module where
  file := "io_util.py"
  globals := ["int", "str", "print", "float", "hasattr", "datetime", "problems", "prec_str", "add_arguments",
    "print_options"]
  init := 5
  locals := []
  funcs := [f_io_util_0, f_io_util_1]
  body :=
    .bg [5] ;; .bg [6] ;; .bg [6] ;; .bg [7] ;; .bg [8] ;; .bg [9]
  final := [0, 1, 2, 3, 4, 5, 6, 7, 8, 9]

/-- linop.py:4-32 `apply_L` -/
def f_linop_0 : Func where
  name := "apply_L"
  locals := ["v", "order", "AD_len", "k", "N", "h", "Lv", "h2", "k2", "m", "n"]
  params := 4
  cases := [0]
  uses := [0, 1, 2, 3]
  body :=
    .st [] [0] [4] ;; .st [] [2, 4] [5] ;; .st [2, 0] [4] [6] ;; .st [] [5] [7] ;; .st [] [3] [8] ;;
    .st [3, 1] [4] [] ;;
    .loop (.st [] [] [9, 10] ;; .st [] [7, 0, 9, 10, 8, 6] [] ;; .st [] [1] [] ;;
      .alt .any (.st [] [7, 0, 9, 10, 8, 6] []) .skip) ;;
    .st [] [6] [] ;; .ret

/-- linop.py:34-51 `apply_B` -/
def f_linop_1 : Func where
  name := "apply_B"
  locals := ["f", "N", "Bf", "i", "j"]
  params := 1
  cases := [0]
  uses := [0, 1, 2, 3]
  body :=
    .st [] [0] [1] ;; .st [2, 0] [1] [2] ;; .st [3, 1] [1] [] ;;
    .loop (.st [] [] [3, 4] ;; .st [] [0, 3, 4, 2] []) ;; .st [] [2] [] ;; .ret

/-- linop.py:1-51 -/
def m_linop : Module where
  file := "linop.py"
  globals := ["complex", "range", "np", "it", "apply_L", "apply_B"]
  init := 2
  locals := []
  funcs := [f_linop_0, f_linop_1]
  body :=
    .bg [2] ;; .bg [3] ;; .bg [4] ;; .bg [5]
  final := [0, 1, 2, 3, 4, 5]

/-- ps/__init__.py:1 -/
def m_ps_init : Module where
  file := "ps/__init__.py"
  globals := []
  init := 0
  locals := []
  funcs := []
  body :=
    .skip
  final := []

/-- ps/basis.py:17-24 `PsBasis.__init__` -/
def f_ps_basis_0 : Func where
  name := "PsBasis.__init__"
  locals := ["self", "args", "kwargs"]
  params := 3
  cases := [0]
  uses := [0, 1, 9]
  body :=
    .st [0] [1, 2] [] ;; .st [] [0] [] ;; .alt .any (.st [1] [] []) .skip ;; .st [9] [0] []

/-- ps/basis.py:26-51 `PsBasis.setup_basis` -/
def f_ps_basis_1 : Func where
  name := "PsBasis.setup_basis"
  locals := ["self", "n_circle", "n_radius", "n_basis_by_sid", "JJ", "sid", "s_desc", "J", "b_desc"]
  params := 3
  cases := [0]
  uses := [2]
  body :=
    .st [] [0] [] ;; .st [] [0] [] ;; .st [] [1, 2] [3] ;; .st [] [] [4] ;; .st [2] [0] [] ;;
    .loop (.st [] [] [5] ;; .st [] [3, 5] [6] ;; .st [] [0, 6] [] ;; .st [2] [6] [] ;;
      .loop (.st [] [] [7] ;; .st [] [] [8] ;; .st [] [7, 8] [] ;; .st [] [5, 8] [] ;; .st [] [0, 8] [] ;;
        .st [] [6, 4] [] ;; .st [] [4] [] ;; .st [] [] [4]))

/-- ps/basis.py:53-66 `PsBasis.get_span_center`; the parameter is sid -/
def f_ps_basis_2 : Func where
  name := "PsBasis.get_span_center"
  locals := ["self", "sid", "eps", "span", "center"]
  params := 2
  cases := [0, 1, 2]
  uses := [5]
  body :=
    .st [] [0] [2] ;; .st [] [1] [] ;;
    .alt (.on [0])
      (.st [5] [0, 2] [3] ;; .st [5] [0] [4])
      (.st [] [1] [] ;; .alt (.on [1, 2]) (.st [] [0, 2] [3] ;; .st [] [0] [4]) .skip) ;;
    .st [] [1] [] ;; .alt (.on [1]) (.st [] [3] [3]) .skip ;; .st [] [3, 4] [] ;; .ret

/-- ps/basis.py:68-70 `PsBasis.eval_g` -/
def f_ps_basis_3 : Func where
  name := "PsBasis.eval_g"
  locals := ["self", "sid", "t", "span", "center"]
  params := 3
  cases := [0]
  uses := []
  body :=
    .st [] [0, 1] [3, 4] ;; .st [] [3, 2, 4] [] ;; .ret

/-- ps/basis.py:72-74 `PsBasis.eval_g_inv` -/
def f_ps_basis_4 : Func where
  name := "PsBasis.eval_g_inv"
  locals := ["self", "sid", "arg", "span", "center"]
  params := 3
  cases := [0]
  uses := []
  body :=
    .st [] [0, 1] [3, 4] ;; .st [] [2, 4, 3] [] ;; .ret

/-- ps/basis.py:76-78 `PsBasis.eval_d_g_inv_arg` -/
def f_ps_basis_5 : Func where
  name := "PsBasis.eval_d_g_inv_arg"
  locals := ["self", "sid", "span", "center"]
  params := 2
  cases := [0]
  uses := []
  body :=
    .st [] [0, 1] [2, 3] ;; .st [] [2] [] ;; .ret

/-- ps/basis.py:80-89 `PsBasis.eval_dn_B_arg` -/
def f_ps_basis_6 : Func where
  name := "PsBasis.eval_dn_B_arg"
  locals := ["self", "n", "JJ", "arg", "sid", "t", "J", "d_g_inv_arg"]
  params := 5
  cases := [0]
  uses := [8]
  body :=
    .st [] [0, 2, 4] [] ;;
    .alt .any
      (.st [] [0, 4, 3] [5] ;; .st [] [0, 2] [6] ;; .st [] [0, 4] [7] ;; .st [8] [7, 1, 6, 5] [] ;; .ret)
      .ret

/-- ps/basis.py:91-111 `PsBasis.get_chebyshev_coef` -/
def f_ps_basis_7 : Func where
  name := "PsBasis.get_chebyshev_coef"
  locals := ["self", "sid", "func", "t_data", "boundary_data", "i", "arg", "n_basis"]
  params := 3
  cases := [0]
  uses := [2, 3, 4, 5]
  body :=
    .st [] [0] [3] ;; .st [5, 3, 4] [3] [4] ;; .st [2, 3] [3] [] ;;
    .loop (.st [] [] [5] ;; .st [] [0, 1, 3, 5] [6] ;; .st [] [2, 6, 4, 5] []) ;; .st [] [0, 1] [7] ;;
    .st [5] [3, 4, 7] [] ;; .ret

/-- ps/basis.py:114-128 `PsBasis.calc_c0` -/
def f_ps_basis_8 : Func where
  name := "PsBasis.calc_c0"
  locals := ["self", "bc", "lambda121_13.th", "sid", "func", "func.arg"]
  params := 1
  cases := [0]
  uses := []
  body :=
    .st [] [0] [] ;; .loop (.frame [2] (.st [] [] [2] ;; .st [] [0, 2] [])) ;; .st [] [] [1] ;;
    .st [] [0, 1] [] ;;
    .loop (.st [] [] [3] ;; .st [] [] [4] ;; .st [] [0, 3, 4] [] ;;
      .loop (.frame [5] (.st [] [] [5] ;; .st [] [0, 5, 3] [] ;; .ret)))

/-- ps/basis.py:131-135 `PsBasis.extend_basis` -/
def f_ps_basis_9 : Func where
  name := "PsBasis.extend_basis"
  locals := ["self", "JJ", "index"]
  params := 3
  cases := [0]
  uses := []
  body :=
    .st [] [0, 1, 2] [] ;; .ret

/-- ps/basis.py:1-135 -/
def m_ps_basis : Module where
  file := "ps/basis.py"
  globals := ["super", "print", "range", "len", "complex", "np", "scipy", "jv", "eval_dn_T_t", "get_chebyshev_roots",
    "abcoef", "domain_util", "PsBasis"]
  init := 5
  locals := ["PsBasis.N_SEGMENT", "PsBasis.__init__", "PsBasis.calc_c0", "PsBasis.eps", "PsBasis.eval_d_g_inv_arg",
    "PsBasis.eval_dn_B_arg", "PsBasis.eval_g", "PsBasis.eval_g_inv", "PsBasis.extend_basis",
    "PsBasis.get_chebyshev_coef", "PsBasis.get_span_center", "PsBasis.setup_basis"]
  funcs := [f_ps_basis_0, f_ps_basis_1, f_ps_basis_2, f_ps_basis_3, f_ps_basis_4, f_ps_basis_5, f_ps_basis_6,
    f_ps_basis_7, f_ps_basis_8, f_ps_basis_9]
  body :=
    .bg [5] ;; .bg [6] ;; .bg [7] ;; .bg [8, 9] ;; .bg [10] ;; .bg [11] ;;
    .frame [0, 1, 2, 3, 4, 5, 6, 7, 8, 9, 10, 11] (.st [] [] [0] ;; .st [] [] [3] ;; .st [] [] [1] ;; .st [] [] [11] ;; .st [] [] [10] ;; .st [] [] [6] ;;
      .st [] [] [7] ;; .st [] [] [4] ;; .st [] [] [5] ;; .st [] [] [9] ;; .st [] [] [2] ;; .st [] [] [8]) ;;
    .bg [12]
  final := [0, 1, 2, 3, 4, 5, 6, 7, 8, 9, 10, 11, 12]

/-- ps/debug.py:20-41 `PsDebug.get_boundary_sample` -/
def f_ps_debug_0 : Func where
  name := "PsDebug.get_boundary_sample"
  locals := ["self", "n", "extended", "ep", "th_data", "r_data", "points", "arg_datas", "sid", "dth", "extension1",
    "extension2"]
  params := 3
  cases := [0]
  uses := [0, 4]
  body :=
    .st [] [] [3] ;; .st [4] [0, 3, 1] [4] ;; .st [4] [3, 0, 1] [5] ;; .st [] [] [6] ;; .st [] [4, 5] [7] ;;
    .st [0] [0] [] ;; .loop (.st [] [] [8] ;; .st [] [6, 0, 8, 7] []) ;; .st [] [2] [] ;;
    .alt .any (.st [] [6] [] ;; .ret) .skip ;; .st [] [0] [9] ;; .st [4] [0, 9, 1] [10] ;;
    .st [4] [0, 9, 1] [11] ;; .st [] [6, 10, 11] [] ;; .ret

/-- ps/debug.py:43-86 `PsDebug.get_boundary_sample_by_sid` -/
def f_ps_debug_1 : Func where
  name := "PsDebug.get_boundary_sample_by_sid"
  locals := ["self", "sid", "arg_data", "a", "R", "points", "i", "th", "r"]
  params := 3
  cases := [0]
  uses := [0, 1, 4]
  body :=
    .st [] [0] [3] ;; .st [] [0] [4] ;; .st [] [] [5] ;; .st [] [1] [] ;;
    .alt .any
      (.st [0, 1] [2] [] ;;
      .loop (.st [] [] [6] ;; .st [] [2, 6] [7] ;; .st [] [0, 7] [8] ;; .st [4] [5, 7, 8, 4, 3, 1] []))
      (.st [] [1] [] ;;
      .alt .any
        (.st [0, 1] [2] [] ;; .loop (.st [] [] [6] ;; .st [] [2, 6] [8] ;; .st [4] [5, 8, 4, 3, 1] []))
        (.st [] [1] [] ;;
        .alt .any
          (.st [0, 1] [2] [] ;; .loop (.st [] [] [6] ;; .st [] [2, 6] [8] ;; .st [4] [5, 8, 3, 4, 1] []))
          .skip)) ;;
    .st [] [5] [] ;; .ret

/-- ps/debug.py:88-101 `PsDebug.calc_c1_exact` -/
def f_ps_debug_2 : Func where
  name := "PsDebug.calc_c1_exact"
  locals := ["self", "sid", "func", "func.arg"]
  params := 1
  cases := [0]
  uses := [0]
  body :=
    .st [] [0] [] ;; .st [0] [0] [] ;;
    .loop (.st [] [] [1] ;; .st [] [] [2] ;; .st [] [0, 1, 2] [] ;;
      .loop (.frame [3] (.st [] [] [3] ;; .st [] [0, 3, 1] [] ;; .ret)))

/-- ps/debug.py:103-109 `PsDebug.etype_filter` -/
def f_ps_debug_3 : Func where
  name := "PsDebug.etype_filter"
  locals := ["self", "sid", "nodes", "etypes", "result", "i", "j"]
  params := 4
  cases := [0]
  uses := []
  body :=
    .st [] [] [4] ;; .st [] [2] [] ;;
    .loop (.st [] [] [5, 6] ;; .st [] [0, 1, 5, 6, 3] [] ;; .alt .any (.st [] [4, 5, 6] []) .skip) ;;
    .st [] [4] [] ;; .ret

/-- ps/debug.py:111-178 `PsDebug.c0_test` -/
def f_ps_debug_4 : Func where
  name := "PsDebug.c0_test"
  locals := ["self", "plot", "k", "a", "nu", "sample", "s_data", "exact_data", "expansion_data", "exact_data_outer",
    "expansion_data_outer", "l", "p", "r", "th", "sid", "arg", "JJ", "plt"]
  params := 2
  cases := [0]
  uses := [0, 1, 2, 4, 11]
  body :=
    .st [] [0] [2] ;; .st [] [0] [3] ;; .st [] [0] [4] ;; .st [] [0] [5] ;; .st [4, 1] [5] [6] ;;
    .st [4, 1] [5] [7] ;; .st [4, 1] [5] [8] ;; .st [] [] [9] ;; .st [] [] [10] ;; .st [0, 1] [5] [] ;;
    .loop (.st [] [] [11] ;; .st [] [5, 11] [12] ;; .st [] [12, 6, 11] [] ;; .st [11] [12] [13, 14] ;;
      .st [11] [0, 14] [15] ;; .st [] [0, 12, 15, 7, 11] [] ;; .st [] [15] [] ;;
      .alt .any (.st [] [14] [16]) (.st [] [13] [16]) ;; .st [0, 1] [0] [] ;;
      .loop (.st [] [] [17] ;; .st [] [0, 17, 16, 15, 8, 11] []) ;; .st [] [15] [] ;;
      .alt .any (.st [] [9, 7, 11] [] ;; .st [] [10, 8, 11] []) .skip) ;;
    .st [4] [9] [9] ;; .st [4] [10] [10] ;; .st [2, 4] [9, 10] [] ;; .st [2, 4] [7, 8] [] ;; .st [] [1] [] ;;
    .alt .any .ret .skip ;; .st [] [] [18] ;; .st [] [18, 6, 7] [] ;; .st [] [18, 6, 8] [] ;; .st [] [18] [] ;;
    .st [] [18] [] ;; .st [] [18] [] ;; .st [] [18] [] ;; .st [] [18] []

/-- ps/debug.py:181-195 `PsDebug.print_c1` -/
def f_ps_debug_5 : Func where
  name := "PsDebug.print_c1"
  locals := ["self", "sid", "i", "desc", "n_basis"]
  params := 1
  cases := [0]
  uses := [2, 4, 7]
  body :=
    .st [] [] [1] ;; .st [] [] [2] ;; .st [2] [] [] ;; .st [2] [] [] ;; .st [] [0] [] ;;
    .loop (.st [] [] [3] ;; .st [] [3] [4] ;; .st [2] [1, 4] [] ;; .st [2, 7, 4] [0, 2, 4] [] ;; .st [2] [] [] ;;
      .st [] [2] [] ;; .st [] [4] [] ;; .st [] [] [2] ;; .st [] [1] [] ;; .st [] [] [1])

/-- ps/debug.py:197-250 `PsDebug.c1_test`; the parameter is do_exact (1 true, 0 false) -/
def f_ps_debug_6 : Func where
  name := "PsDebug.c1_test"
  locals := ["self", "plot", "sample", "do_exact", "s_data", "expansion_data", "exact_data", "l", "p", "r", "th",
    "sid", "arg", "JJ", "plt", "error"]
  params := 2
  cases := [0, 1]
  uses := [0, 1, 2, 3, 4, 11]
  body :=
    .st [] [0] [2] ;; .st [3] [0] [3] ;; .st [4, 1] [2] [4] ;; .st [4, 1] [2] [5] ;; .st [] [3] [] ;;
    .alt (.on [1]) (.st [4, 1] [2] [6]) .skip ;; .st [0, 1] [2] [] ;;
    .loop (.st [] [] [7] ;; .st [] [2, 7] [8] ;; .st [] [8, 4, 7] [] ;; .st [] [3] [] ;;
      .alt (.on [1]) (.st [] [0, 8, 6, 7] []) .skip ;; .st [11] [8] [9, 10] ;; .st [11] [0, 10] [11] ;;
      .st [] [11] [] ;; .alt .any (.st [] [10] [12]) (.st [] [9] [12]) ;; .st [0, 1] [0] [] ;;
      .loop (.st [] [] [13] ;; .st [] [0, 13, 12, 11, 5, 7] [])) ;;
    .st [] [] [14] ;; .st [] [3] [] ;;
    .alt (.on [1]) (.st [4] [6, 5] [15] ;; .st [2] [15] [] ;; .st [] [14, 4, 6] []) .skip ;; .st [] [1] [] ;;
    .alt .any .ret .skip ;; .st [] [14, 4, 5] [] ;; .st [] [14] [] ;; .st [] [14] [] ;; .st [] [14] [] ;;
    .st [] [14] [] ;; .st [] [14] []

/-- ps/debug.py:252-268 `PsDebug.Q_residual` -/
def f_ps_debug_7 : Func where
  name := "PsDebug.Q_residual"
  locals := ["self", "gamma_info", "node", "r", "th", "Q1", "rhs", "residual"]
  params := 1
  cases := [0]
  uses := [2, 4]
  body :=
    .st [] [0] [] ;; .st [] [0] [] ;; .st [] [] [1] ;; .st [] [0] [] ;;
    .loop (.st [] [] [2] ;; .st [] [0, 2] [3, 4] ;; .st [] [1, 2, 3, 4] []) ;; .st [4] [1] [] ;;
    .st [] [0] [5, 6] ;; .st [4] [5, 0, 6] [7] ;; .st [4] [0, 7] [] ;; .st [2] [7] [] ;; .st [2] [] [] ;;
    .st [2, 4] [7] []

/-- ps/debug.py:271-301 `PsDebug.color_plot`; the parameter is 0 if u is None -/
def f_ps_debug_8 : Func where
  name := "PsDebug.color_plot"
  locals := ["self", "u", "N", "x_range", "y_range", "i", "Z", "j", "x", "y", "X", "Y", "plt", "fig", "ax", "p", "cb"]
  params := 2
  cases := [0]
  uses := [0, 4]
  body :=
    .st [] [0] [2] ;; .st [4] [2] [3] ;; .st [4] [2] [4] ;; .st [0] [2] [] ;;
    .loop (.st [] [] [5] ;; .st [] [0, 5, 3, 4] []) ;; .st [4] [2] [6] ;; .st [] [0] [] ;;
    .loop (.st [] [] [5, 7] ;; .st [] [1] [] ;;
      .alt (.no [0]) (.st [14] [1, 2, 5, 7, 6] []) (.st [] [0, 5, 7] [8, 9] ;; .st [] [0, 8, 9, 6, 5, 7] [])) ;;
    .st [4] [3, 4] [10, 11] ;; .st [] [] [12] ;; .st [] [12] [13, 14] ;; .st [4] [14, 10, 11, 6] [15] ;;
    .st [] [14] [] ;; .st [] [13, 15, 14] [16] ;; .st [] [0] [] ;; .st [] [12] []

/-- ps/debug.py:1-301 -/
def m_ps_debug : Module where
  file := "ps/debug.py"
  globals := ["range", "len", "print", "hasattr", "np", "cos", "sin", "scipy", "jv", "it", "Result", "domain_util",
    "get_chebyshev_roots", "PsDebug", "matrices"]
  init := 4
  locals := ["PsDebug.Q_residual", "PsDebug.c0_test", "PsDebug.c1_test", "PsDebug.calc_c1_exact",
    "PsDebug.color_plot", "PsDebug.etype_filter", "PsDebug.get_boundary_sample",
    "PsDebug.get_boundary_sample_by_sid", "PsDebug.print_c1"]
  funcs := [f_ps_debug_0, f_ps_debug_1, f_ps_debug_2, f_ps_debug_3, f_ps_debug_4, f_ps_debug_5, f_ps_debug_6,
    f_ps_debug_7, f_ps_debug_8]
  body :=
    .bg [4] ;; .bg [5, 6] ;; .bg [7] ;; .bg [8] ;; .bg [9] ;; .bg [10] ;; .bg [11] ;; .bg [12] ;;
    .frame [0, 1, 2, 3, 4, 5, 6, 7, 8] (.st [] [] [6] ;; .st [] [] [7] ;; .st [] [] [3] ;; .st [] [] [5] ;; .st [] [] [1] ;; .st [] [] [8] ;;
      .st [] [] [2] ;; .st [] [] [0] ;; .st [] [] [4]) ;;
    .bg [13]
  final := [0, 1, 2, 3, 4, 5, 6, 7, 8, 9, 10, 11, 12, 13]

/-- ps/extend.py:15-21 `get_deriv_name` -/
def f_ps_extend_0 : Func where
  name := "get_deriv_name"
  locals := ["order", "index"]
  params := 2
  cases := [0]
  uses := []
  body :=
    .st [] [0] [] ;;
    .alt .any
      (.st [] [1] [] ;; .ret)
      (.st [] [0] [] ;; .alt .any (.st [] [1] [] ;; .ret) (.st [] [0, 1] [] ;; .ret))

/-- ps/extend.py:28-71 `PsExtend.get_etype` -/
def f_ps_extend_1 : Func where
  name := "PsExtend.get_etype"
  locals := ["self", "sid", "i", "j", "a", "R", "x", "y", "n", "th", "result", "x1", "y1"]
  params := 4
  cases := [0]
  uses := [6, 13]
  body :=
    .st [] [0] [4] ;; .st [] [0] [5] ;; .st [] [0, 2, 3] [6, 7] ;; .st [] [1] [] ;;
    .alt .any
      (.st [] [2, 3, 0] [] ;;
      .alt .any
        (.st [] [0, 2, 3] [8, 9])
        (.st [] [0, 2, 3] [10] ;; .st [] [10] [] ;; .alt .any (.st [13] [] [] ;; .ret) .skip ;;
        .st [] [10] [8, 9]) ;;
      .st [6] [9] [] ;;
      .alt .any
        (.st [13] [] [] ;; .ret)
        (.st [] [9, 4] [] ;; .alt .any (.st [13] [] [] ;; .ret) (.st [13] [] [] ;; .ret)))
      (.st [] [1] [] ;;
      .alt .any
        (.st [] [6] [] ;;
        .alt .any
          (.st [13] [] [] ;; .ret)
          (.st [] [6, 5] [] ;; .alt .any (.st [13] [] [] ;; .ret) (.st [13] [] [] ;; .ret)))
        (.st [] [1] [] ;;
        .alt .any
          (.st [] [0, 6, 7] [11, 12] ;; .st [] [12] [] ;;
          .alt .any
            (.st [13] [] [] ;; .ret)
            (.st [6] [12, 5, 4] [] ;; .alt .any (.st [13] [] [] ;; .ret) (.st [13] [] [] ;; .ret)))
          .skip))

/-- ps/extend.py:73-86 `PsExtend.extend_radius` -/
def f_ps_extend_2 : Func where
  name := "PsExtend.extend_radius"
  locals := ["self", "kwargs"]
  params := 2
  cases := [0]
  uses := []
  body :=
    .st [] [0, 1] [] ;; .ret

/-- ps/extend.py:88-152 `PsExtend._ext_calc_xi_derivs`; the parameter is basis_index -/
def f_ps_extend_3 : Func where
  name := "PsExtend._ext_calc_xi_derivs"
  locals := ["self", "deriv_types", "arg", "sid", "human_readable_keys", "kwargs", "JJ", "basis_index", "JJ_list",
    "c", "other_basis_index", "derivs", "order", "index", "deriv", "dn_B_arg", "key"]
  params := 6
  cases := [0, 1]
  uses := [0, 1, 14]
  body :=
    .st [] [5] [] ;;
    .alt .any
      (.st [] [5] [6] ;; .st [] [5] [7] ;; .st [] [6] [8] ;; .st [] [] [9] ;; .st [] [9, 7, 6] [] ;;
      .st [] [7] [] ;;
      .alt (.on [0]) (.st [] [] [10]) (.st [] [7] [] ;; .alt (.on [1]) (.st [] [] [10]) .skip) ;;
      .st [] [9, 10, 6] [])
      (.st [0, 1] [0] [8] ;; .st [] [0] [9]) ;;
    .st [] [] [11] ;; .st [] [1] [] ;;
    .loop (.st [] [] [12, 13] ;; .st [] [] [14] ;; .st [] [8] [] ;;
      .loop (.st [] [] [6] ;; .st [] [0, 12, 6, 2, 3] [15] ;; .st [] [14] [] ;; .st [] [9, 13, 6, 15] [] ;;
        .st [] [] [14]) ;;
      .st [] [4] [] ;;
      .alt .any (.st [14] [12, 13] [] ;; .loop (.call 0 [0]) ;; .st [] [] [16]) (.st [] [12, 13] [16]) ;;
      .st [] [14, 11, 16] []) ;;
    .st [] [11] [] ;; .ret

/-- ps/extend.py:154-171 `PsExtend.ext_calc_xi_derivs` -/
def f_ps_extend_4 : Func where
  name := "PsExtend.ext_calc_xi_derivs"
  locals := ["self", "deriv_types", "arg", "sid", "human_readable_keys", "kwargs"]
  params := 6
  cases := [0]
  uses := []
  body :=
    .st [] [0, 1, 2, 3, 4, 5] [] ;; .ret

/-- ps/extend.py:173-237 `PsExtend.do_extend_taylor`; the parameter is taylor_sid -/
def f_ps_extend_5 : Func where
  name := "PsExtend.do_extend_taylor"
  locals := ["self", "i", "j", "arg", "taylor_sid", "delta_arg", "n", "kwargs", "deriv_types", "xi_derivs0",
    "xi_derivs", "index", "m", "l", "fac", "key", "order", "deriv_name", "v", "th", "elen"]
  params := 8
  cases := [0, 1, 2]
  uses := [0, 2, 3, 4, 9, 14]
  body :=
    .st [2, 4, 0] [0] [8] ;; .st [] [0, 8, 3, 4, 7] [9] ;; .st [] [] [10] ;;
    .loop (.st [] [] [11] ;; .st [0] [0] [] ;;
      .loop (.st [] [] [12] ;; .st [] [10, 12, 11] [] ;; .st [0] [12, 0] [] ;;
        .loop (.st [] [] [13] ;; .st [9] [5, 13, 12] [14] ;; .st [] [9, 13, 11, 14, 10, 12] []))) ;;
    .st [2] [10] [] ;;
    .loop (.st [] [] [15] ;; .st [] [15] [16, 11] ;; .st [14] [16, 11] [] ;; .loop (.call 0 [0]) ;;
      .st [] [] [17] ;; .st [] [10, 15, 17] [] ;; .st [] [10, 15] []) ;;
    .st [] [4] [] ;;
    .alt (.on [0])
      (.st [] [0, 1, 2, 10] [18] ;; .st [] [0, 1, 2] [6, 19] ;; .st [3] [5, 0, 6] [20])
      (.st [] [4] [] ;; .alt (.on [1, 2]) (.st [] [0, 6, 10] [18] ;; .st [3] [5, 6] [20]) .skip) ;;
    .st [] [20, 18] [] ;; .ret

/-- ps/extend.py:239-261 `PsExtend.do_extend_0` -/
def f_ps_extend_6 : Func where
  name := "PsExtend.do_extend_0"
  locals := ["self", "i", "j", "derivs", "n", "th", "value"]
  params := 4
  cases := [0]
  uses := []
  body :=
    .st [] [0, 1, 2] [4, 5] ;; .st [] [0, 4, 5, 3] [6] ;; .st [] [6] [] ;; .ret

/-- ps/extend.py:278-289 `PsExtend.do_extend_0_standard` -/
def f_ps_extend_7 : Func where
  name := "PsExtend.do_extend_0_standard"
  locals := ["self", "i", "j", "kwargs", "n", "th", "deriv_types", "derivs"]
  params := 4
  cases := [0]
  uses := [3]
  body :=
    .st [] [0, 1, 2] [4, 5] ;; .st [] [] [6] ;; .st [] [0, 6, 5, 3] [7] ;; .st [3] [4, 0, 1, 2, 7] [] ;; .ret

/-- ps/extend.py:291-295 `PsExtend.do_extend_0_left` -/
def f_ps_extend_8 : Func where
  name := "PsExtend.do_extend_0_left"
  locals := ["self", "i", "j", "kwargs", "n", "th0"]
  params := 4
  cases := [0]
  uses := []
  body :=
    .st [] [0, 1, 2] [4, 5] ;; .st [] [0, 1, 2, 5, 3] [] ;; .ret

/-- ps/extend.py:297-301 `PsExtend.do_extend_0_right` -/
def f_ps_extend_9 : Func where
  name := "PsExtend.do_extend_0_right"
  locals := ["self", "i", "j", "kwargs", "n", "th0"]
  params := 4
  cases := [0]
  uses := [6]
  body :=
    .st [] [0, 1, 2] [4, 5] ;; .st [6] [0, 1, 2, 5, 3] [] ;; .ret

/-- ps/extend.py:303-313 `PsExtend.do_extend_1_standard` -/
def f_ps_extend_10 : Func where
  name := "PsExtend.do_extend_1_standard"
  locals := ["self", "i", "j", "kwargs", "x", "y", "deriv_types", "derivs", "value"]
  params := 4
  cases := [0]
  uses := [3]
  body :=
    .st [] [0, 1, 2] [4, 5] ;; .st [] [] [6] ;; .st [] [0, 6, 4, 3] [7] ;; .st [] [0, 5, 7] [8] ;;
    .st [3] [5, 8] [] ;; .ret

/-- ps/extend.py:315-318 `PsExtend.do_extend_1_left` -/
def f_ps_extend_11 : Func where
  name := "PsExtend.do_extend_1_left"
  locals := ["self", "i", "j", "kwargs", "x", "y"]
  params := 4
  cases := [0]
  uses := []
  body :=
    .st [] [0, 1, 2] [4, 5] ;; .st [] [0, 1, 2, 4, 5, 3] [] ;; .ret

/-- ps/extend.py:320-324 `PsExtend.do_extend_1_right` -/
def f_ps_extend_12 : Func where
  name := "PsExtend.do_extend_1_right"
  locals := ["self", "i", "j", "kwargs", "x", "y", "R"]
  params := 4
  cases := [0]
  uses := []
  body :=
    .st [] [0, 1, 2] [4, 5] ;; .st [] [0] [6] ;; .st [] [0, 1, 2, 6, 4, 5, 3] [] ;; .ret

/-- ps/extend.py:326-340 `PsExtend.do_extend_2_standard` -/
def f_ps_extend_13 : Func where
  name := "PsExtend.do_extend_2_standard"
  locals := ["self", "i", "j", "kwargs", "x", "y", "x0", "y0", "param_r", "deriv_types", "derivs", "n", "value"]
  params := 4
  cases := [0]
  uses := [3, 11]
  body :=
    .st [] [0, 1, 2] [4, 5] ;; .st [] [0, 4, 5] [6, 7] ;; .st [11] [6, 7] [8] ;; .st [] [] [9] ;;
    .st [] [0, 9, 8, 3] [10] ;; .st [] [0, 4, 5] [11] ;; .st [] [0, 11, 10] [12] ;; .st [3] [11, 12] [] ;; .ret

/-- ps/extend.py:342-350 `PsExtend.do_extend_2_left` -/
def f_ps_extend_14 : Func where
  name := "PsExtend.do_extend_2_left"
  locals := ["self", "i", "j", "kwargs", "x", "y", "x1", "y1"]
  params := 4
  cases := [0]
  uses := [6]
  body :=
    .st [] [0, 1, 2] [4, 5] ;; .st [] [0, 4, 5] [6, 7] ;; .st [6] [0, 1, 2, 6, 7, 4, 5, 3] [] ;; .ret

/-- ps/extend.py:352-366 `PsExtend.do_extend_2_right` -/
def f_ps_extend_15 : Func where
  name := "PsExtend.do_extend_2_right"
  locals := ["self", "i", "j", "kwargs", "R", "a", "x", "y", "x0", "y0", "x1", "y1"]
  params := 4
  cases := [0]
  uses := [6, 7, 8]
  body :=
    .st [] [0] [4] ;; .st [] [0] [5] ;; .st [] [0, 1, 2] [6, 7] ;; .st [8] [4, 5] [8] ;; .st [7] [4, 5] [9] ;;
    .st [] [0, 6, 7] [10, 11] ;; .st [6] [0, 1, 2, 4, 10, 8, 11, 9, 6, 7, 3] [] ;; .ret

/-- ps/extend.py:368-426 `PsExtend.mv_extend_boundary` -/
def f_ps_extend_16 : Func where
  name := "PsExtend.mv_extend_boundary"
  locals := ["self", "JJ", "basis_index", "homogeneous_only", "R", "k", "mv_ext", "sid", "gamma", "l", "kwargs", "i",
    "j", "etype", "result"]
  params := 4
  cases := [0]
  uses := [0, 1, 12, 13]
  body :=
    .st [] [0] [4] ;; .st [] [0] [5] ;; .st [12] [0] [6] ;; .st [0] [] [] ;;
    .loop (.st [] [] [7] ;; .st [] [0, 7] [8] ;; .st [0, 1] [8] [] ;;
      .loop (.st [] [] [9] ;; .st [] [1, 2] [10] ;; .st [] [8, 9] [11, 12] ;; .st [] [0, 7, 11, 12] [13] ;;
        .st [] [] [14] ;; .st [] [7] [] ;;
        .alt .any
          (.st [13] [13] [] ;;
          .alt .any
            (.st [] [0, 11, 12, 10] [14])
            (.st [13] [13] [] ;;
            .alt .any
              (.st [] [0, 11, 12, 10] [14])
              (.st [13] [13] [] ;; .alt .any (.st [] [0, 11, 12, 10] [14]) .skip)))
          (.st [] [7] [] ;;
          .alt .any
            (.st [13] [13] [] ;;
            .alt .any
              (.st [] [0, 11, 12, 10] [14])
              (.st [13] [13] [] ;;
              .alt .any
                (.st [] [0, 11, 12, 10] [14])
                (.st [13] [13] [] ;; .alt .any (.st [] [0, 11, 12, 10] [14]) .skip)))
            (.st [] [7] [] ;;
            .alt .any
              (.st [13] [13] [] ;;
              .alt .any
                (.st [] [0, 11, 12, 10] [14])
                (.st [13] [13] [] ;;
                .alt .any
                  (.st [] [0, 11, 12, 10] [14])
                  (.st [13] [13] [] ;; .alt .any (.st [] [0, 11, 12, 10] [14]) .skip)))
              .skip)) ;;
        .st [] [7, 13, 14] [] ;; .st [] [6, 11, 12, 14] [])) ;;
    .st [] [1, 0, 3] [] ;; .alt .any (.st [] [6] [] ;; .ret) (.st [] [6, 0] [] ;; .ret)

/-- ps/extend.py:428-434 `PsExtend.extend_boundary` -/
def f_ps_extend_17 : Func where
  name := "PsExtend.extend_boundary"
  locals := ["self", "kwargs", "mv_ext"]
  params := 2
  cases := [0]
  uses := []
  body :=
    .st [] [0, 1] [2] ;; .st [] [2] [] ;; .ret

/-- ps/extend.py:1-434 -/
def m_ps_extend : Module where
  file := "ps/extend.py"
  globals := ["range", "len", "list", "abs", "it", "enum", "np", "sin", "cos", "math", "copy", "cart_to_polar",
    "Multivalue", "EType", "get_deriv_name", "PsExtend"]
  init := 4
  locals := ["PsExtend._ext_calc_xi_derivs", "PsExtend.do_extend_0", "PsExtend.do_extend_0_left",
    "PsExtend.do_extend_0_right", "PsExtend.do_extend_0_standard", "PsExtend.do_extend_1_left",
    "PsExtend.do_extend_1_right", "PsExtend.do_extend_1_standard", "PsExtend.do_extend_2_left",
    "PsExtend.do_extend_2_right", "PsExtend.do_extend_2_standard", "PsExtend.do_extend_taylor",
    "PsExtend.ext_calc_xi_derivs", "PsExtend.extend_boundary", "PsExtend.extend_radius",
    "PsExtend.get_etype", "PsExtend.mv_extend_boundary", "PsExtend.taylor_n_terms"]
  funcs := [f_ps_extend_0, f_ps_extend_1, f_ps_extend_2, f_ps_extend_3, f_ps_extend_4, f_ps_extend_5,
    f_ps_extend_6, f_ps_extend_7, f_ps_extend_8, f_ps_extend_9, f_ps_extend_10, f_ps_extend_11,
    f_ps_extend_12, f_ps_extend_13, f_ps_extend_14, f_ps_extend_15, f_ps_extend_16, f_ps_extend_17]
  body :=
    .bg [4] ;; .bg [5] ;; .bg [6] ;; .bg [7, 8] ;; .bg [9] ;; .bg [10] ;; .bg [11] ;; .bg [12] ;;
    .st [5] [] [] ;; .bg [13] ;; .bg [14] ;;
    .frame [0, 1, 2, 3, 4, 5, 6, 7, 8, 9, 10, 11, 12, 13, 14, 15, 16, 17] (.st [] [] [17] ;; .st [] [] [15] ;; .st [] [] [14] ;; .st [] [] [0] ;; .st [] [] [12] ;;
      .st [] [] [11] ;; .st [] [] [1] ;; .st [] [] [4] ;; .st [] [] [2] ;; .st [] [] [3] ;; .st [] [] [7] ;;
      .st [] [] [5] ;; .st [] [] [6] ;; .st [] [] [10] ;; .st [] [] [8] ;; .st [] [] [9] ;; .st [] [] [16] ;;
      .st [] [] [13]) ;;
    .bg [15]
  final := [0, 1, 2, 3, 4, 5, 6, 7, 8, 9, 10, 11, 12, 13, 14, 15]

/-- ps/grid.py:179-264 `PsGrid.ps_construct_grids` -/
def f_ps_grid_0 : Func where
  name := "PsGrid.ps_construct_grids"
  locals := ["self", "scheme_order", "i", "j", "Nm", "get_dist", "get_dist.node", "get_dist.setype", "get_dist.R",
    "get_dist.a", "get_dist.dformula", "get_dist.dist", "get_dist.n", "get_dist.th", "get_dist.x",
    "get_dist.x0", "get_dist.y", "get_dist.y0", "node", "r", "th", "placed", "sid", "etype", "setype",
    "dist", "get_dist.dformula.x0", "get_dist.dformula.y0", "get_dist.dformula._x", "get_dist.dformula._y",
    "h"]
  params := 2
  cases := [0]
  uses := [0, 1, 2, 3, 4]
  body :=
    .st [] [0, 1] [] ;; .st [0] [0] [] ;; .st [0] [0] [] ;; .st [] [0] [] ;;
    .loop (.st [] [] [2, 3] ;; .st [0] [2, 3] [4] ;; .st [] [1] [] ;;
      .alt .any (.st [] [4] [] ;; .st [0] [2, 3] [] ;; .st [] [] [4]) .skip ;; .st [] [2, 3, 0] [] ;;
      .alt .any (.st [] [4, 0] []) (.st [] [2, 3, 0] [] ;; .alt .any (.st [] [4, 0] []) .skip)) ;;
    .st [1] [0] [] ;; .st [] [] [5] ;; .st [] [0] [] ;; .st [] [0] [] ;;
    .loop (.st [] [] [18] ;; .st [] [0, 18] [19, 20] ;; .st [] [] [21] ;;
      .loop (.st [] [] [22] ;; .st [] [0, 22, 18] [23] ;; .st [] [22, 23] [24] ;; .st [] [5, 18, 24] [] ;;
        .loop (.frame [6, 7, 8, 9, 10, 11, 12, 13, 14, 15, 16, 17] (.st [] [] [6, 7] ;; .st [] [] [10] ;; .st [] [0, 6] [14, 16] ;; .st [] [] [11] ;; .st [] [0] [8] ;;
            .st [] [0] [9] ;; .st [4] [7] [] ;;
            .alt .any
              (.st [] [0, 6] [12, 13] ;; .st [2] [12] [11])
              (.st [4] [7] [] ;;
              .alt .any
                (.st [3] [8, 9] [15, 17] ;; .st [] [10, 15, 17, 14, 16] [] ;;
                .loop (.frame [26, 27, 28, 29] (.st [] [] [26, 27, 28, 29] ;; .st [3] [26, 28, 27, 29] [] ;; .ret)) ;;
                .st [] [] [11])
                (.st [4] [7] [] ;;
                .alt .any
                  (.st [] [8] [15, 17] ;; .st [] [10, 15, 17, 14, 16] [] ;;
                  .loop (.frame [26, 27, 28, 29] (.st [] [] [26, 27, 28, 29] ;; .st [3] [26, 28, 27, 29] [] ;; .ret)) ;;
                  .st [] [] [11])
                  (.st [4] [7] [] ;;
                  .alt .any
                    (.st [2] [16] [11])
                    (.st [4] [7] [] ;;
                    .alt .any
                      (.st [] [] [15, 17] ;; .st [] [10, 15, 17, 14, 16] [] ;;
                      .loop (.frame [26, 27, 28, 29] (.st [] [] [26, 27, 28, 29] ;; .st [3] [26, 28, 27, 29] [] ;; .ret)) ;;
                      .st [] [] [11])
                      (.st [4] [7] [] ;;
                      .alt .any
                        (.st [] [8] [15, 17] ;; .st [] [10, 15, 17, 14, 16] [] ;;
                        .loop (.frame [26, 27, 28, 29] (.st [] [] [26, 27, 28, 29] ;; .st [3] [26, 28, 27, 29] [] ;; .ret)) ;;
                        .st [] [] [11])
                        (.st [4] [7] [] ;;
                        .alt .any
                          (.st [] [0, 14, 16] [11])
                          (.st [4] [7] [] ;;
                          .alt .any
                            (.st [] [] [15, 17] ;; .st [] [10, 15, 17, 14, 16] [] ;;
                            .loop (.frame [26, 27, 28, 29] (.st [] [] [26, 27, 28, 29] ;; .st [3] [26, 28, 27, 29] [] ;; .ret)) ;;
                            .st [] [] [11])
                            (.st [4] [7] [] ;;
                            .alt .any
                              (.st [3] [8, 9] [15, 17] ;; .st [] [10, 15, 17, 14, 16] [] ;;
                              .loop (.frame [26, 27, 28, 29] (.st [] [] [26, 27, 28, 29] ;; .st [3] [26, 28, 27, 29] [] ;; .ret)) ;;
                              .st [] [] [11])
                              .skip)))))))) ;;
            .st [] [11] [] ;; .ret)) ;;
        .st [] [] [25] ;; .st [] [0] [30] ;; .st [3] [25, 30] [] ;;
        .alt .any (.st [] [0, 22, 18] [] ;; .st [] [] [21]) .skip) ;;
      .st [] [21] [])

/-- ps/grid.py:1-264 -/
def m_ps_grid : Module where
  file := "ps/grid.py"
  globals := ["set", "list", "abs", "np", "EType", "PsGrid"]
  init := 3
  locals := ["PsGrid.ps_construct_grids"]
  funcs := [f_ps_grid_0]
  body :=
    .bg [3] ;; .bg [4] ;; .frame [0] (.st [] [] [0]) ;; .bg [5]
  final := [0, 1, 2, 3, 4, 5]

/-- ps/inhomo.py:10-25 `PsInhomo._extend_f_get_sid` -/
def f_ps_inhomo_0 : Func where
  name := "PsInhomo._extend_f_get_sid"
  locals := ["self", "i", "j", "R", "a", "r", "th"]
  params := 3
  cases := [0]
  uses := [5, 9]
  body :=
    .st [] [0] [3] ;; .st [] [0] [4] ;; .st [] [0, 1, 2] [5, 6] ;; .st [9] [1, 2, 0] [] ;;
    .alt .any .ret (.st [] [5, 0, 6] [] ;; .alt .any (.st [5] [6] [] ;; .alt .any .ret .ret) .ret)

/-- ps/inhomo.py:27-93 `PsInhomo.extend_f`; the parameter is 0 if every sid is one of 0, 1, 2 and every etype one of the three members -/
def f_ps_inhomo_1 : Func where
  name := "PsInhomo.extend_f"
  locals := ["self", "R", "a", "p", "cheat", "i", "j", "x", "y", "r", "th", "sid", "etype", "x0", "y0", "n", "th0",
    "r0", "vec", "delta", "derivs", "grad_f", "hessian_f", "v", "l"]
  params := 1
  cases := [0]
  uses := [0, 1, 2, 3, 5, 6, 9]
  body :=
    .st [] [0] [1] ;; .st [] [0] [2] ;; .st [] [0] [3] ;; .st [] [3] [] ;; .alt .any .ret .skip ;;
    .st [] [] [4] ;; .st [] [4] [] ;; .alt .any (.st [0] [] []) .skip ;; .st [] [0] [] ;;
    .loop (.st [] [] [5, 6] ;; .st [] [0, 5, 6] [7, 8] ;; .st [] [0, 5, 6] [9, 10] ;; .st [] [4] [] ;;
      .alt .any (.st [] [0, 9, 10, 5, 6] []) .skip ;; .st [] [0, 5, 6] [11] ;; .st [] [0, 11, 5, 6] [12] ;;
      .st [] [11] [] ;;
      .alt .any
        (.st [] [7] [13] ;; .st [] [] [14])
        (.st [] [11] [] ;;
        .alt .any
          (.st [] [0, 7, 8] [13, 14])
          (.st [] [11] [] ;;
          .alt (.yes [0])
            (.tri (.may ;; .st [] [0, 5, 6] [15, 16] ;; .may) (.st [1] [] [] ;; .st [0] [] [] ;; .ret) ;;
            .st [] [0, 16] [17] ;; .st [9] [12] [] ;;
            .alt .any
              (.st [5] [17, 16] [13] ;; .st [5] [17, 16] [14])
              (.st [9] [12] [] ;;
              .alt .any
                (.st [5] [1, 2] [13] ;; .st [5] [1, 2] [14])
                (.st [9] [12] [] ;; .alt (.yes [0]) (.st [] [1] [13] ;; .st [] [] [14]) .skip)))
            .skip)) ;;
      .st [5] [7, 13, 8, 14] [18] ;; .st [5] [18] [19] ;; .st [] [18] [] ;; .st [] [19] [] ;; .st [] [] [18] ;;
      .st [] [] [20] ;; .st [] [3, 13, 14] [21] ;; .st [] [21, 18, 20] [] ;; .st [] [3, 13, 14] [22] ;;
      .st [] [22, 18, 20] [] ;; .st [] [3, 13, 14] [23] ;; .st [2, 3] [20] [] ;;
      .loop (.st [] [] [24] ;; .st [] [23] [] ;; .st [6] [20, 24, 19] [] ;; .st [] [] [23]) ;;
      .st [] [23, 0, 5, 6] [])

/-- ps/inhomo.py:95-168 `PsInhomo._extend_inhomo_12_r`; the parameter is radius_sid -/
def f_ps_inhomo_2 : Func where
  name := "PsInhomo._extend_inhomo_12_r"
  locals := ["self", "i", "j", "radius_sid", "p", "R", "a", "x2", "y2", "x0", "y0", "x1", "y1", "n", "tangent",
    "delta", "f0", "grad_f0", "hessian_f", "f_derivs", "f", "l", "grad_f", "normal", "d_f_n", "d2_f_n",
    "d2_f_s", "v"]
  params := 4
  cases := [1, 2]
  uses := [2, 3, 4, 5, 6]
  body :=
    .st [] [0] [4] ;; .st [] [0] [5] ;; .st [] [0] [6] ;; .st [] [0, 1, 2] [7, 8] ;; .st [] [3] [] ;;
    .alt (.on [1])
      (.st [] [5] [9, 10] ;; .st [] [7] [11, 12] ;; .st [] [8] [13])
      (.st [] [3] [] ;;
      .alt (.on [2])
        (.st [5] [5, 6] [9] ;; .st [5] [5, 6] [10] ;; .st [] [0, 3, 7, 8] [13] ;; .st [] [0, 3, 7, 8] [11, 12])
        .skip) ;;
    .st [5] [11, 9, 12, 10] [14] ;; .st [5] [14] [15] ;; .st [] [14] [] ;; .st [5] [14] [] ;; .st [] [] [14] ;;
    .st [] [4, 9, 10] [16] ;; .st [] [4, 9, 10] [17] ;; .st [] [4, 9, 10] [18] ;;
    .st [] [16, 17, 14, 18] [19] ;; .st [] [] [20] ;; .st [2, 3] [19] [] ;;
    .loop (.st [] [] [21] ;; .st [] [20] [] ;; .st [6] [19, 21, 15] [] ;; .st [] [] [20]) ;;
    .st [] [17, 18, 14, 15] [22] ;; .st [5] [7, 11, 8, 12] [23] ;; .st [5] [23] [] ;;
    .alt .any (.st [] [23] [] ;; .st [5] [23] [] ;; .st [] [] [23]) .skip ;; .st [] [22, 23] [24] ;;
    .st [] [13] [] ;; .alt .any (.st [] [24] [] ;; .st [] [] [24]) .skip ;; .st [] [18, 23] [25] ;;
    .st [] [18, 14] [26] ;; .st [] [0, 13, 20, 24, 25, 26] [27] ;; .st [4] [15, 13, 27] [] ;; .ret

/-- ps/inhomo.py:170-206 `PsInhomo.do_extend_inhomo_0_standard` -/
def f_ps_inhomo_3 : Func where
  name := "PsInhomo.do_extend_inhomo_0_standard"
  locals := ["self", "i", "j", "n", "th", "r0", "p", "x0", "y0", "x1", "y1", "vec", "d_f_n", "hessian", "d2_f_n", "v"]
  params := 3
  cases := [0]
  uses := [4, 5]
  body :=
    .st [] [0, 1, 2] [3, 4] ;; .st [] [0, 4] [5] ;; .st [] [0] [6] ;; .st [5] [5, 4] [7] ;;
    .st [5] [5, 4] [8] ;; .st [] [0, 1, 2] [9, 10] ;; .st [5] [9, 7, 10, 8] [11] ;; .st [] [11] [] ;;
    .st [5] [11] [] ;; .st [] [] [11] ;; .st [5] [6, 5, 4, 11, 3] [12] ;; .st [] [6, 5, 4] [13] ;;
    .st [] [13, 11] [14] ;; .st [] [0, 3, 6, 5, 4, 12, 14] [15] ;; .st [4] [3, 15] [] ;; .ret

/-- ps/inhomo.py:208-318 `PsInhomo._extend_inhomo_0_lr`; the parameter is radius_sid -/
def f_ps_inhomo_4 : Func where
  name := "PsInhomo._extend_inhomo_0_lr"
  locals := ["self", "i", "j", "radius_sid", "p", "R", "a", "n", "th1", "r1", "th0", "x0", "y0", "x1", "y1", "vec",
    "delta", "f0", "grad_f0", "hessian_f", "hessian_f0", "f_derivs", "f", "l", "grad_f", "x2", "y2", "r2",
    "th2", "normal", "d_f_n", "d2_f_n", "polar_vec", "d_f_th_grad0", "d_f_th", "d_f_r_grad0", "d_f_r", "v"]
  params := 4
  cases := [1, 2]
  uses := [2, 3, 4, 5, 6]
  body :=
    .st [] [0] [4] ;; .st [] [0] [5] ;; .st [] [0] [6] ;; .st [] [0, 1, 2] [7, 8] ;; .st [] [0, 8] [9] ;;
    .st [] [3] [] ;;
    .alt (.on [1]) (.st [5] [] [10]) (.st [] [3] [] ;; .alt (.on [2]) (.st [] [6] [10]) .skip) ;;
    .st [5] [5, 10] [11] ;; .st [5] [5, 10] [12] ;; .st [5] [9, 8] [13] ;; .st [5] [9, 8] [14] ;;
    .st [5] [13, 11, 14, 12] [15] ;; .st [5] [15] [16] ;; .st [] [15] [] ;; .st [5] [15] [] ;;
    .st [] [] [15] ;; .st [] [4, 5, 10] [17] ;; .st [] [4, 5, 10] [18] ;; .st [] [4, 5, 10] [19, 20] ;;
    .st [] [17, 18, 15, 20] [21] ;; .st [] [] [22] ;; .st [2, 3] [21] [] ;;
    .loop (.st [] [] [23] ;; .st [] [22] [] ;; .st [6] [21, 23, 16] [] ;; .st [] [] [22]) ;;
    .st [] [18, 16, 20, 15] [24] ;; .st [] [0, 1, 2] [25, 26] ;; .st [] [0, 1, 2] [27, 28] ;;
    .st [5] [25, 13, 26, 14] [29] ;; .st [] [29] [] ;; .st [5] [29] [] ;; .st [] [] [29] ;;
    .st [] [24, 29] [30] ;; .st [] [27, 0, 28] [] ;; .alt .any (.st [] [30] [] ;; .st [] [] [30]) .skip ;;
    .st [] [19, 29] [31] ;; .st [5] [9, 5, 8, 10] [32] ;; .st [5] [4, 5, 10] [33] ;;
    .st [] [4, 5, 10, 33, 32] [34] ;; .st [5] [4, 5, 10] [35] ;; .st [] [4, 5, 10, 35, 32] [36] ;;
    .st [] [0, 7, 22, 30, 31, 34, 4, 5, 10, 36, 8] [37] ;; .st [4] [16, 7, 37] [] ;; .ret

/-- ps/inhomo.py:320-321 `PsInhomo.do_extend_inhomo_0_left` -/
def f_ps_inhomo_5 : Func where
  name := "PsInhomo.do_extend_inhomo_0_left"
  locals := ["self", "i", "j"]
  params := 3
  cases := [0]
  uses := []
  body :=
    .st [] [0, 1, 2] [] ;; .ret

/-- ps/inhomo.py:323-324 `PsInhomo.do_extend_inhomo_0_right` -/
def f_ps_inhomo_6 : Func where
  name := "PsInhomo.do_extend_inhomo_0_right"
  locals := ["self", "i", "j"]
  params := 3
  cases := [0]
  uses := []
  body :=
    .st [] [0, 1, 2] [] ;; .ret

/-- ps/inhomo.py:326-375 `PsInhomo._calc_inhomo_radius` -/
def f_ps_inhomo_7 : Func where
  name := "PsInhomo._calc_inhomo_radius"
  locals := ["self", "x0", "y0", "x1", "y1", "tan", "n", "p", "f", "h", "hessian_f", "grad_f", "vec", "d_f_n",
    "d2_f_n", "d2_f_s", "elen", "r", "th", "v"]
  params := 7
  cases := [0]
  uses := [4, 5, 7]
  body :=
    .st [] [0] [7] ;; .st [] [7, 1, 2] [8] ;; .st [] [1, 2] [] ;;
    .alt .any
      (.st [] [0] [9] ;; .st [] [7, 9] [10] ;; .st [] [7, 9] [11] ;; .st [] [11] [] ;; .st [] [9, 10] [] ;;
      .st [] [] [11])
      (.st [] [7, 1, 2] [11] ;; .st [] [7, 1, 2] [10]) ;;
    .st [5] [3, 1, 4, 2] [12] ;; .st [5] [12] [] ;;
    .alt .any (.st [] [12] [] ;; .st [5] [12] [] ;; .st [] [] [12]) .skip ;; .st [5] [11, 12, 6] [13] ;;
    .st [] [10, 12] [14] ;; .st [] [10, 5] [15] ;; .st [4] [6] [16] ;; .st [7] [1, 2] [17, 18] ;;
    .st [] [1, 17, 0] [] ;; .alt .any (.st [] [16] [] ;; .st [] [17] [] ;; .st [] [] [16]) .skip ;;
    .st [] [0, 6, 8, 13, 14, 15] [19] ;; .st [] [16, 19] [] ;; .ret

/-- ps/inhomo.py:377-391 `PsInhomo._extend_inhomo_radius`; the parameter is radius_sid -/
def f_ps_inhomo_8 : Func where
  name := "PsInhomo._extend_inhomo_radius"
  locals := ["self", "i", "j", "radius_sid", "x1", "y1", "x0", "y0", "tan", "n", "a"]
  params := 4
  cases := [1, 2]
  uses := [5]
  body :=
    .st [] [0, 1, 2] [4, 5] ;; .st [] [3] [] ;;
    .alt (.on [1])
      (.st [] [4] [6, 7] ;; .st [5] [] [8] ;; .st [] [5] [9])
      (.st [] [3] [] ;;
      .alt (.on [2])
        (.st [] [0, 3, 4, 5] [6, 7] ;; .st [] [0] [10] ;; .st [5] [10] [8] ;; .st [] [0, 3, 4, 5] [9])
        .skip) ;;
    .st [] [0, 6, 7, 4, 5, 8, 9] [] ;; .ret

/-- ps/inhomo.py:393-394 `PsInhomo.do_extend_inhomo_1_standard` -/
def f_ps_inhomo_9 : Func where
  name := "PsInhomo.do_extend_inhomo_1_standard"
  locals := ["self", "i", "j"]
  params := 3
  cases := [0]
  uses := []
  body :=
    .st [] [0, 1, 2] [] ;; .ret

/-- ps/inhomo.py:396-397 `PsInhomo.do_extend_inhomo_1_left` -/
def f_ps_inhomo_10 : Func where
  name := "PsInhomo.do_extend_inhomo_1_left"
  locals := ["self", "i", "j"]
  params := 3
  cases := [0]
  uses := []
  body :=
    .st [] [0, 1, 2] [] ;; .ret

/-- ps/inhomo.py:399-400 `PsInhomo.do_extend_inhomo_1_right` -/
def f_ps_inhomo_11 : Func where
  name := "PsInhomo.do_extend_inhomo_1_right"
  locals := ["self", "i", "j"]
  params := 3
  cases := [0]
  uses := []
  body :=
    .st [] [0, 1, 2] [] ;; .ret

/-- ps/inhomo.py:402-403 `PsInhomo.do_extend_inhomo_2_standard` -/
def f_ps_inhomo_12 : Func where
  name := "PsInhomo.do_extend_inhomo_2_standard"
  locals := ["self", "i", "j"]
  params := 3
  cases := [0]
  uses := []
  body :=
    .st [] [0, 1, 2] [] ;; .ret

/-- ps/inhomo.py:405-406 `PsInhomo.do_extend_inhomo_2_left` -/
def f_ps_inhomo_13 : Func where
  name := "PsInhomo.do_extend_inhomo_2_left"
  locals := ["self", "i", "j"]
  params := 3
  cases := [0]
  uses := []
  body :=
    .st [] [0, 1, 2] [] ;; .ret

/-- ps/inhomo.py:408-409 `PsInhomo.do_extend_inhomo_2_right` -/
def f_ps_inhomo_14 : Func where
  name := "PsInhomo.do_extend_inhomo_2_right"
  locals := ["self", "i", "j"]
  params := 3
  cases := [0]
  uses := []
  body :=
    .st [] [0, 1, 2] [] ;; .ret

/-- ps/inhomo.py:411-453 `PsInhomo.mv_extend_inhomo_f` -/
def f_ps_inhomo_15 : Func where
  name := "PsInhomo.mv_extend_inhomo_f"
  locals := ["self", "k", "mv_ext", "sid", "gamma", "i", "j", "etype", "result"]
  params := 1
  cases := [0]
  uses := [2, 8, 9]
  body :=
    .st [] [0] [1] ;; .st [8] [0] [2] ;; .st [2] [0] [] ;;
    .loop (.st [] [] [3] ;; .st [] [0, 3] [4] ;; .st [] [4] [] ;;
      .loop (.st [] [] [5, 6] ;; .st [] [0, 3, 5, 6] [7] ;; .st [] [] [8] ;; .st [] [0] [] ;;
        .alt .any
          (.st [] [] [8])
          (.st [] [3] [] ;;
          .alt .any
            (.st [9] [7] [] ;;
            .alt .any
              (.st [] [0, 5, 6] [8])
              (.st [9] [7] [] ;;
              .alt .any (.st [] [0, 5, 6] [8]) (.st [9] [7] [] ;; .alt .any (.st [] [0, 5, 6] [8]) .skip)))
            (.st [] [3] [] ;;
            .alt .any
              (.st [9] [7] [] ;;
              .alt .any
                (.st [] [0, 5, 6] [8])
                (.st [9] [7] [] ;;
                .alt .any (.st [] [0, 5, 6] [8]) (.st [9] [7] [] ;; .alt .any (.st [] [0, 5, 6] [8]) .skip)))
              (.st [] [3] [] ;;
              .alt .any
                (.st [9] [7] [] ;;
                .alt .any
                  (.st [] [0, 5, 6] [8])
                  (.st [9] [7] [] ;;
                  .alt .any (.st [] [0, 5, 6] [8]) (.st [9] [7] [] ;; .alt .any (.st [] [0, 5, 6] [8]) .skip)))
                .skip))) ;;
        .st [] [3, 7, 8] [] ;; .st [] [2, 5, 6, 8] [])) ;;
    .st [] [2] [] ;; .ret

/-- ps/inhomo.py:455-456 `PsInhomo.extend_inhomo_f` -/
def f_ps_inhomo_16 : Func where
  name := "PsInhomo.extend_inhomo_f"
  locals := ["self"]
  params := 1
  cases := [0]
  uses := []
  body :=
    .st [] [0] [] ;; .ret

/-- ps/inhomo.py:1-456 -/
def m_ps_inhomo : Module where
  file := "ps/inhomo.py"
  globals := ["print", "KeyError", "range", "len", "abs", "np", "math", "cart_to_polar", "Multivalue", "EType",
    "PsInhomo"]
  init := 5
  locals := ["PsInhomo._calc_inhomo_radius", "PsInhomo._extend_f_get_sid", "PsInhomo._extend_inhomo_0_lr",
    "PsInhomo._extend_inhomo_12_r", "PsInhomo._extend_inhomo_radius", "PsInhomo.do_extend_inhomo_0_left",
    "PsInhomo.do_extend_inhomo_0_right", "PsInhomo.do_extend_inhomo_0_standard",
    "PsInhomo.do_extend_inhomo_1_left", "PsInhomo.do_extend_inhomo_1_right",
    "PsInhomo.do_extend_inhomo_1_standard", "PsInhomo.do_extend_inhomo_2_left",
    "PsInhomo.do_extend_inhomo_2_right", "PsInhomo.do_extend_inhomo_2_standard", "PsInhomo.extend_f",
    "PsInhomo.extend_inhomo_f", "PsInhomo.mv_extend_inhomo_f"]
  funcs := [f_ps_inhomo_0, f_ps_inhomo_1, f_ps_inhomo_2, f_ps_inhomo_3, f_ps_inhomo_4, f_ps_inhomo_5,
    f_ps_inhomo_6, f_ps_inhomo_7, f_ps_inhomo_8, f_ps_inhomo_9, f_ps_inhomo_10, f_ps_inhomo_11,
    f_ps_inhomo_12, f_ps_inhomo_13, f_ps_inhomo_14, f_ps_inhomo_15, f_ps_inhomo_16]
  body :=
    .bg [5] ;; .bg [6] ;; .bg [7] ;; .bg [8] ;; .bg [9] ;;
    .frame [0, 1, 2, 3, 4, 5, 6, 7, 8, 9, 10, 11, 12, 13, 14, 15, 16] (.st [] [] [1] ;; .st [] [] [14] ;; .st [] [] [3] ;; .st [] [] [7] ;; .st [] [] [2] ;; .st [] [] [5] ;;
      .st [] [] [6] ;; .st [] [] [0] ;; .st [] [] [4] ;; .st [] [] [10] ;; .st [] [] [8] ;; .st [] [] [9] ;;
      .st [] [] [13] ;; .st [] [] [11] ;; .st [] [] [12] ;; .st [] [] [16] ;; .st [] [] [15]) ;;
    .bg [10]
  final := [0, 1, 2, 3, 4, 5, 6, 7, 8, 9, 10]

/-- ps/multivalue.py:21-26 `Multivalue.__init__` -/
def f_ps_multivalue_0 : Func where
  name := "Multivalue.__init__"
  locals := ["self", "nodes", "node"]
  params := 2
  cases := [0]
  uses := []
  body :=
    .st [] [1, 0] [] ;; .st [] [0] [] ;; .st [] [1] [] ;; .loop (.st [] [] [2] ;; .st [] [0, 2] [])

/-- ps/multivalue.py:28-29 `Multivalue.__getitem__` -/
def f_ps_multivalue_1 : Func where
  name := "Multivalue.__getitem__"
  locals := ["self", "node"]
  params := 2
  cases := [0]
  uses := []
  body :=
    .st [] [0, 1] [] ;; .ret

/-- ps/multivalue.py:31-62 `Multivalue.__add__` -/
def f_ps_multivalue_2 : Func where
  name := "Multivalue.__add__"
  locals := ["self", "mv2", "result", "node", "i", "dict1", "dict2", "dict_result"]
  params := 2
  cases := [0]
  uses := [0, 1, 2, 3, 4, 5, 6, 7]
  body :=
    .st [7] [0] [] ;; .loop (.call 0 [0]) ;; .loop (.call 1 [0]) ;; .loop (.call 2 [0]) ;;
    .loop (.call 3 [0]) ;; .loop (.call 4 [0]) ;; .st [] [] [2] ;; .st [] [0] [] ;;
    .loop (.st [] [] [3] ;; .st [0, 1] [0, 3] [] ;;
      .loop (.st [] [] [4] ;; .st [] [0, 3, 4] [5] ;; .st [] [1, 3, 4] [6] ;; .st [] [5, 6] [] ;;
        .st [] [5, 6] [7] ;; .st [] [2, 3, 7] [])) ;;
    .st [] [2] [] ;; .ret

/-- ps/multivalue.py:64-102 `Multivalue.reduce` -/
def f_ps_multivalue_3 : Func where
  name := "Multivalue.reduce"
  locals := ["self", "ext", "l", "node", "list_", "value0", "value1"]
  params := 1
  cases := [0]
  uses := [0, 1, 2, 6]
  body :=
    .st [6, 1, 2] [0] [1] ;; .st [0, 1] [0] [] ;;
    .loop (.st [] [] [2] ;; .st [] [0, 2] [3] ;; .st [] [0, 3] [4] ;; .st [1] [4] [] ;;
      .alt .any
        (.st [] [4, 1, 2] [])
        (.st [1] [4] [] ;; .alt .any (.st [] [4] [5] ;; .st [] [4] [6] ;; .st [] [5, 6, 1, 2] []) .skip)) ;;
    .st [] [1] [] ;; .ret

/-- ps/multivalue.py:104-149 `Multivalue.calc_rel_convergence` -/
def f_ps_multivalue_4 : Func where
  name := "Multivalue.calc_rel_convergence"
  locals := ["self", "u1", "u2", "diff12", "diff01", "i", "j", "i1", "j1", "i2", "j2", "l", "dict1", "dict2", "ll",
    "_dict1", "dict0", "_dict0"]
  params := 3
  cases := [0]
  uses := [0, 1, 3, 4, 5, 6]
  body :=
    .st [] [] [3] ;; .st [] [] [4] ;; .st [] [0] [] ;;
    .loop (.st [] [] [5, 6] ;; .st [] [5, 6] [7, 8] ;; .st [] [5, 6] [9, 10] ;; .st [] [5, 6] [] ;;
      .alt .any
        (.st [0, 1] [2, 9, 10] [] ;;
        .loop (.st [] [] [11] ;; .st [] [] [12] ;; .st [] [2, 9, 10, 11] [13] ;; .st [0, 1] [1, 7, 8] [] ;;
          .loop (.st [] [] [14] ;; .st [] [1, 7, 8, 14] [15] ;; .st [] [15, 13] [] ;;
            .alt .any (.st [] [15] [12] ;; .brk) .skip) ;;
          .st [] [12] [] ;; .alt .any (.st [3] [3, 12, 13] []) .skip))
        .skip ;;
      .st [] [5, 6] [] ;;
      .alt .any
        (.st [0, 1] [1, 7, 8] [] ;;
        .loop (.st [] [] [11] ;; .st [] [] [16] ;; .st [] [1, 7, 8, 11] [12] ;; .st [0, 1] [0, 5, 6] [] ;;
          .loop (.st [] [] [14] ;; .st [] [0, 5, 6, 14] [17] ;; .st [] [17, 12] [] ;;
            .alt .any (.st [] [17] [16] ;; .brk) .skip) ;;
          .st [] [16] [] ;; .alt .any (.st [3] [4, 16, 12] []) .skip))
        .skip) ;;
    .st [4, 5] [3] [] ;; .st [4, 5] [4] [] ;; .st [6, 5] [3, 4] [] ;; .ret

/-- ps/multivalue.py:1-149 -/
def m_ps_multivalue : Module where
  file := "ps/multivalue.py"
  globals := ["range", "len", "complex", "abs", "print", "max", "np", "Multivalue"]
  init := 6
  locals := ["Multivalue.__add__", "Multivalue.__getitem__", "Multivalue.__init__",
    "Multivalue.calc_rel_convergence", "Multivalue.reduce"]
  funcs := [f_ps_multivalue_0, f_ps_multivalue_1, f_ps_multivalue_2, f_ps_multivalue_3, f_ps_multivalue_4]
  body :=
    .bg [6] ;;
    .frame [0, 1, 2, 3, 4] (.st [] [] [2] ;; .st [] [] [1] ;; .st [] [] [0] ;; .st [] [] [4] ;; .st [] [] [3]) ;;
    .bg [7]
  final := [0, 1, 2, 3, 4, 5, 6, 7]

/-- ps/ode.py:18-19 `my_print` -/
def f_ps_ode_0 : Func where
  name := "my_print"
  locals := ["s"]
  params := 1
  cases := [0]
  uses := [0]
  body :=
    .st [0] [0] []

/-- ps/ode.py:21-69 `calc_z1_fourier` -/
def f_ps_ode_1 : Func where
  name := "calc_z1_fourier"
  locals := ["initial_func", "d_initial_func", "eval_f1", "a", "nu", "k", "R0", "R", "M", "arc_dst",
    "lambda22_14.func", "r", "d1", "lambda30_17.th", "d2", "lambda31_28.th", "eval_deriv", "eval_deriv.Y",
    "eval_deriv.r", "eval_deriv.derivs", "eval_deriv.f_fourier", "eval_deriv.i", "eval_deriv.m",
    "eval_deriv.z1", "eval_deriv.z2", "initial_fourier", "lambda56_30.th", "d_initial_fourier",
    "lambda57_32.th", "ic", "i", "m", "sol", "eval_deriv.lambda43_28.th"]
  params := 9
  cases := [0]
  uses := [0, 1, 2, 3, 6, 7, 8, 9, 10, 11]
  body :=
    .loop (.frame [10] (.st [] [] [10] ;; .st [6, 7] [3, 10] [])) ;; .st [] [] [9] ;; .st [11] [6] [] ;;
    .loop (.call 0 [0]) ;; .st [11, 8] [] [] ;; .loop (.call 0 [0]) ;; .st [11, 10] [] [] ;;
    .loop (.call 0 [0]) ;; .st [] [7] [11] ;; .st [] [9, 8] [] ;;
    .loop (.frame [13] (.st [] [] [13] ;; .st [] [2, 11, 13] [])) ;; .st [] [] [12] ;; .st [6] [3, 8] [] ;;
    .loop (.frame [15] (.st [] [] [15] ;; .st [] [2, 11, 15] [])) ;; .st [] [] [14] ;;
    .st [11, 2] [12, 14] [] ;; .loop (.call 0 [0]) ;; .bg [13] ;; .st [] [] [16] ;; .st [] [9, 8] [] ;;
    .loop (.frame [26] (.st [] [] [26] ;; .st [] [0, 6, 26] [])) ;; .st [] [] [25] ;; .st [] [9, 8] [] ;;
    .loop (.frame [28] (.st [] [] [28] ;; .st [] [1, 6, 28] [])) ;; .st [] [] [27] ;; .st [2] [8] [29] ;;
    .st [1] [8] [] ;;
    .loop (.st [] [] [30] ;; .st [] [30] [31] ;; .st [] [25, 31, 29, 30] [] ;; .st [] [27, 31, 29, 30] []) ;;
    .st [3, 8, 9, 10] [16, 29, 6, 7] [] ;;
    .loop (.frame [17, 18, 19, 20, 21, 22, 23, 24] (.st [] [] [17, 18] ;; .st [] [18] [] ;; .st [13] [] [] ;; .bg [13] ;; .st [] [9, 8] [] ;;
        .loop (.frame [33] (.st [] [] [33] ;; .st [] [2, 18, 33] [])) ;; .st [] [] [20] ;; .st [2] [8] [19] ;;
        .st [1] [8] [] ;;
        .loop (.st [] [] [21] ;; .st [] [21] [22] ;; .st [] [17, 21] [23] ;; .st [] [17, 21] [24] ;;
          .st [] [24, 19, 21] [] ;; .st [] [24, 18, 5, 22, 4, 23, 20, 19, 21] []) ;;
        .st [2] [19] [] ;; .ret)) ;;
    .st [] [] [32] ;; .st [11, 13] [] [] ;; .loop (.call 0 [0]) ;; .st [] [32] [] ;; .ret

/-- ps/ode.py:1-69 -/
def m_ps_ode : Module where
  file := "ps/ode.py"
  globals := ["print", "range", "np", "odeint", "interp1d", "abcoef", "fourier", "fourier_N", "atol", "rtol",
    "mxstep", "my_print", "calc_z1_fourier", "n_dst"]
  init := 2
  locals := []
  funcs := [f_ps_ode_0, f_ps_ode_1]
  body :=
    .bg [2] ;; .bg [3] ;; .bg [4] ;; .bg [5] ;; .bg [6] ;; .bg [7] ;; .bg [8, 9] ;; .bg [10] ;; .bg [11] ;;
    .bg [12]
  final := [0, 1, 2, 3, 4, 5, 6, 7, 8, 9, 10, 11, 12]

/-- ps/polarfd.py:9-16 `PolarFD.__init__` -/
def f_ps_polarfd_0 : Func where
  name := "PolarFD.__init__"
  locals := ["self", "N", "a", "nu", "R0", "R1"]
  params := 6
  cases := [0]
  uses := []
  body :=
    .st [] [1, 0] [] ;; .st [] [2, 0] [] ;; .st [] [3, 0] [] ;; .st [] [4, 0] [] ;; .st [] [5, 0] [] ;;
    .st [] [0] []

/-- ps/polarfd.py:19-20 `PolarFD.my_print` -/
def f_ps_polarfd_1 : Func where
  name := "PolarFD.my_print"
  locals := ["cls", "x"]
  params := 2
  cases := [0]
  uses := []
  body :=
    .skip

/-- ps/polarfd.py:23-24 `PolarFD.get_r` -/
def f_ps_polarfd_2 : Func where
  name := "PolarFD.get_r"
  locals := ["self", "m"]
  params := 2
  cases := [0]
  uses := []
  body :=
    .st [] [0, 1] [] ;; .ret

/-- ps/polarfd.py:26-27 `PolarFD.get_th` -/
def f_ps_polarfd_3 : Func where
  name := "PolarFD.get_th"
  locals := ["self", "l"]
  params := 2
  cases := [0]
  uses := []
  body :=
    .st [] [0, 1] [] ;; .ret

/-- ps/polarfd.py:29-30 `PolarFD.get_index` -/
def f_ps_polarfd_4 : Func where
  name := "PolarFD.get_index"
  locals := ["self", "m", "l"]
  params := 3
  cases := [0]
  uses := []
  body :=
    .st [] [1, 0, 2] [] ;; .ret

/-- ps/polarfd.py:32-35 `PolarFD.calc_N_var` -/
def f_ps_polarfd_5 : Func where
  name := "PolarFD.calc_N_var"
  locals := ["self"]
  params := 1
  cases := [0]
  uses := [4]
  body :=
    .st [] [0] [] ;; .st [4] [0] []

/-- ps/polarfd.py:37-44 `PolarFD.new_system` -/
def f_ps_polarfd_6 : Func where
  name := "PolarFD.new_system"
  locals := ["self"]
  params := 1
  cases := [0]
  uses := []
  body :=
    .st [] [0] [] ;; .st [] [0] [] ;; .st [] [0] [] ;; .st [] [0] [] ;; .st [] [0] []

/-- ps/polarfd.py:46-60 `PolarFD.set_bc_origin` -/
def f_ps_polarfd_7 : Func where
  name := "PolarFD.set_bc_origin"
  locals := ["self", "N", "l", "i", "th"]
  params := 1
  cases := [0]
  uses := [1]
  body :=
    .st [] [0] [1] ;; .st [1] [1] [] ;;
    .loop (.st [] [] [2] ;; .st [] [0, 2] [3] ;; .st [] [0, 2] [4] ;; .st [] [0] [] ;; .st [] [0] [] ;;
      .st [] [0, 3] [] ;; .st [] [0, 4] [] ;; .st [] [0] [])

/-- ps/polarfd.py:62-88 `PolarFD.set_bc_wedge` -/
def f_ps_polarfd_8 : Func where
  name := "PolarFD.set_bc_wedge"
  locals := ["self", "N", "m", "r", "i"]
  params := 1
  cases := [0]
  uses := [1]
  body :=
    .st [] [0] [1] ;; .st [1] [1] [] ;;
    .loop (.st [] [] [2] ;; .st [] [0, 2] [3] ;; .st [] [0, 2] [4] ;; .st [] [0] [] ;; .st [] [0] [] ;;
      .st [] [0, 4] [] ;; .st [] [0, 3] [] ;; .st [] [0] [] ;; .st [] [0, 2, 1] [4] ;; .st [] [0] [] ;;
      .st [] [0] [] ;; .st [] [0, 4] [] ;; .st [] [0, 3] [] ;; .st [] [0] [])

/-- ps/polarfd.py:90-102 `PolarFD.set_bc_arc` -/
def f_ps_polarfd_9 : Func where
  name := "PolarFD.set_bc_arc"
  locals := ["self", "N", "l", "th"]
  params := 1
  cases := [0]
  uses := [1]
  body :=
    .st [] [0] [1] ;; .st [1] [1] [] ;;
    .loop (.st [] [] [2] ;; .st [] [0] [] ;; .st [] [0] [] ;; .st [] [0, 1, 2] [] ;; .st [] [0, 2] [3] ;;
      .st [] [0, 3] [] ;; .st [] [0] [])

/-- ps/polarfd.py:104-187 `PolarFD.set_fd4` -/
def f_ps_polarfd_10 : Func where
  name := "PolarFD.set_fd4"
  locals := ["self", "m", "l", "r_2", "r_1", "r", "r1", "r2", "hr", "hth", "k", "local", "th", "f", "d_f_r",
    "d2_f_r", "d2_f_th"]
  params := 3
  cases := [0]
  uses := [4]
  body :=
    .st [] [0, 1] [3] ;; .st [] [0, 1] [4] ;; .st [] [0, 1] [5] ;; .st [] [0, 1] [6] ;; .st [] [0, 1] [7] ;;
    .st [] [0] [8] ;; .st [] [0] [9] ;; .st [] [0] [10] ;; .st [4] [] [11] ;; .st [] [8, 9, 5, 3, 4, 11] [] ;;
    .st [] [8, 9, 5, 10, 6, 4, 11] [] ;; .st [] [8, 9, 5, 7, 6, 11] [] ;; .st [] [8, 10, 5, 9, 3, 4, 11] [] ;;
    .st [] [8, 10, 5, 9, 6, 4, 11] [] ;; .st [] [8, 10, 5, 9, 7, 6, 11] [] ;; .st [] [8, 9, 5, 3, 4, 11] [] ;;
    .st [] [8, 9, 5, 10, 6, 4, 11] [] ;; .st [] [8, 9, 5, 7, 6, 11] [] ;; .st [] [0, 2] [12] ;;
    .st [] [0, 5, 12] [13] ;; .st [] [0, 5, 12] [14] ;; .st [] [0, 5, 12] [15] ;; .st [] [0, 5, 12] [16] ;;
    .st [] [0, 15, 8, 16, 9, 14, 5, 13] [] ;; .st [] [0, 1, 2, 11] [] ;; .st [] [0] []

/-- ps/polarfd.py:189-196 `PolarFD.copy_local` -/
def f_ps_polarfd_11 : Func where
  name := "PolarFD.copy_local"
  locals := ["self", "m", "l", "local", "dm", "dl", "m1", "l1"]
  params := 4
  cases := [0]
  uses := [5]
  body :=
    .st [5] [] [] ;;
    .loop (.st [] [] [4, 5] ;; .st [] [1, 4] [6] ;; .st [] [2, 5] [7] ;; .st [] [0, 3, 4, 5] [] ;; .st [] [0] [] ;;
      .st [] [0, 6, 7] [])

/-- ps/polarfd.py:198-237 `PolarFD.solve` -/
def f_ps_polarfd_12 : Func where
  name := "PolarFD.solve"
  locals := ["self", "k", "eval_phi_initial", "eval_phi0", "eval_phi1", "eval_phi2", "eval_f", "eval_d_f_r",
    "eval_d2_f_r", "eval_d2_f_th", "N", "m", "l", "shape", "M"]
  params := 10
  cases := [0]
  uses := [1, 2, 4, 6, 7]
  body :=
    .st [] [1, 0] [] ;; .st [] [2, 0] [] ;; .st [] [3, 0] [] ;; .st [] [4, 0] [] ;; .st [] [5, 0] [] ;;
    .st [] [6, 0] [] ;; .st [] [7, 0] [] ;; .st [] [8, 0] [] ;; .st [] [9, 0] [] ;; .st [] [0] [10] ;;
    .st [] [0, 10] [] ;; .st [] [0] [] ;; .st [] [0] [] ;; .st [] [0] [] ;; .st [] [0] [] ;; .st [] [0] [] ;;
    .st [] [0] [] ;; .st [1] [10] [] ;;
    .loop (.st [] [] [11] ;; .st [1] [10] [] ;; .loop (.st [] [] [12] ;; .st [] [0, 11, 12] [])) ;;
    .st [2] [0] [13] ;; .st [] [0, 13] [] ;; .st [6] [0] [14] ;; .st [4] [0] [] ;; .st [7] [14, 0] [] ;; .ret

/-- ps/polarfd.py:239-260 `PolarFD.calc_rel_convergence` -/
def f_ps_polarfd_13 : Func where
  name := "PolarFD.calc_rel_convergence"
  locals := ["self", "u0", "u1", "u2", "N", "diff12", "diff01", "m", "l", "k0", "k1", "k2"]
  params := 4
  cases := [0]
  uses := [1, 2, 3, 4]
  body :=
    .st [] [0] [4] ;; .st [] [] [5] ;; .st [] [] [6] ;; .st [1] [4] [] ;;
    .loop (.st [] [] [7] ;; .st [1] [4] [] ;;
      .loop (.st [] [] [8] ;; .st [] [7, 8] [9] ;; .st [] [7, 8] [10] ;; .st [] [7, 8] [11] ;; .st [] [7, 8] [] ;;
        .alt .any (.st [3] [5, 2, 10, 3, 11] []) .skip ;; .st [] [7, 8] [] ;;
        .alt .any (.st [3] [6, 1, 9, 2, 10] []) .skip)) ;;
    .st [4, 2] [5, 6] [] ;; .ret

/-- ps/polarfd.py:1-260 -/
def m_ps_polarfd : Module where
  file := "ps/polarfd.py"
  globals := ["classmethod", "range", "max", "abs", "np", "it", "csc_matrix", "spsolve", "PolarFD"]
  init := 4
  locals := ["PolarFD.__init__", "PolarFD.calc_N_var", "PolarFD.calc_rel_convergence", "PolarFD.copy_local",
    "PolarFD.get_index", "PolarFD.get_r", "PolarFD.get_th", "PolarFD.my_print", "PolarFD.new_system",
    "PolarFD.set_bc_arc", "PolarFD.set_bc_origin", "PolarFD.set_bc_wedge", "PolarFD.set_fd4", "PolarFD.solve"]
  funcs := [f_ps_polarfd_0, f_ps_polarfd_1, f_ps_polarfd_2, f_ps_polarfd_3, f_ps_polarfd_4, f_ps_polarfd_5,
    f_ps_polarfd_6, f_ps_polarfd_7, f_ps_polarfd_8, f_ps_polarfd_9, f_ps_polarfd_10, f_ps_polarfd_11,
    f_ps_polarfd_12, f_ps_polarfd_13]
  body :=
    .bg [4] ;; .bg [5] ;; .bg [6] ;; .bg [7] ;;
    .frame [0, 1, 2, 3, 4, 5, 6, 7, 8, 9, 10, 11, 12, 13] (.st [] [] [0] ;; .st [0] [] [7] ;; .st [] [] [5] ;; .st [] [] [6] ;; .st [] [] [4] ;; .st [] [] [1] ;;
      .st [] [] [8] ;; .st [] [] [10] ;; .st [] [] [11] ;; .st [] [] [9] ;; .st [] [] [12] ;; .st [] [] [3] ;;
      .st [] [] [13] ;; .st [] [] [2]) ;;
    .bg [8]
  final := [0, 1, 2, 3, 4, 5, 6, 7, 8]

/-- ps/ps.py:18-22 `get_M` -/
def f_ps_ps_0 : Func where
  name := "get_M"
  locals := ["scheme_order"]
  params := 1
  cases := [0]
  uses := []
  body :=
    .st [] [0] [] ;; .alt .any .ret (.st [] [0] [] ;; .alt .any .ret .skip)

/-- ps/ps.py:27-59 `PizzaSolver.__init__` -/
def f_ps_ps_1 : Func where
  name := "PizzaSolver.__init__"
  locals := ["self", "options", "n_basis_tuple", "apsolver", "lambda56_23.v", "lambda57_24.Bf"]
  params := 2
  cases := [0]
  uses := [0, 13, 20]
  body :=
    .st [0] [1] [] ;; .st [] [0] [] ;; .st [] [0] [] ;; .st [] [0] [] ;; .st [] [0] [] ;; .st [] [1, 0] [] ;;
    .st [] [1, 0] [] ;; .st [20] [0] [] ;; .loop (.call 0 [0]) ;; .st [] [0] [] ;; .st [] [0] [2] ;;
    .st [] [0, 2] [] ;; .st [] [1] [] ;; .alt .any (.st [] [1] [] ;; .st [] [0, 1] []) .skip ;;
    .st [] [0] [] ;; .st [] [0] [] ;; .st [] [0] [] ;; .st [13] [0] [3] ;; .st [] [0] [] ;;
    .loop (.frame [4] (.st [] [] [4] ;; .st [] [3, 4] [])) ;; .st [] [0] [] ;;
    .loop (.frame [5] (.st [] [] [5] ;; .st [] [3, 5] [])) ;; .st [] [0] []

/-- ps/ps.py:61-72 `PizzaSolver.calc_ap_sol_f` -/
def f_ps_ps_2 : Func where
  name := "PizzaSolver.calc_ap_sol_f"
  locals := ["self", "N", "AD_len", "k", "Bf", "i", "j"]
  params := 1
  cases := [0]
  uses := [12]
  body :=
    .st [] [0] [1] ;; .st [] [0] [2] ;; .st [] [0] [3] ;; .st [] [0] [] ;; .st [12] [0] [4] ;; .st [] [0] [] ;;
    .loop (.st [] [] [5, 6] ;; .st [] [4, 5, 6] []) ;; .st [] [0, 4] []

/-- ps/ps.py:74-77 `PizzaSolver.is_interior` -/
def f_ps_ps_3 : Func where
  name := "PizzaSolver.is_interior"
  locals := ["self", "i", "j", "r", "th", "rb"]
  params := 3
  cases := [0]
  uses := [7]
  body :=
    .st [] [0, 1, 2] [3, 4] ;; .st [] [0, 4] [5] ;; .st [7] [3, 5, 4, 0] [] ;; .ret

/-- ps/ps.py:79-94 `PizzaSolver.get_radius_point` -/
def f_ps_ps_4 : Func where
  name := "PizzaSolver.get_radius_point"
  locals := ["self", "sid", "x", "y", "a", "m", "x1", "y1"]
  params := 4
  cases := [0]
  uses := [1, 7]
  body :=
    .st [] [1] [] ;; .st [] [0] [4] ;; .st [7] [4] [] ;; .alt .any (.st [] [3] [] ;; .ret) .skip ;;
    .st [7] [4] [] ;; .alt .any (.st [1] [] []) .skip ;; .st [7] [0] [5] ;; .st [] [2, 5, 3] [6] ;;
    .st [] [5, 6] [7] ;; .st [] [6, 7] [] ;; .ret

/-- ps/ps.py:96-99 `PizzaSolver.dist_to_radius` -/
def f_ps_ps_5 : Func where
  name := "PizzaSolver.dist_to_radius"
  locals := ["self", "sid", "x", "y", "x1", "y1"]
  params := 4
  cases := [0]
  uses := [7]
  body :=
    .st [] [1] [] ;; .st [] [0, 1, 2, 3] [4, 5] ;; .st [7] [4, 2, 5, 3] [] ;; .ret

/-- ps/ps.py:101-108 `PizzaSolver.signed_dist_to_radius` -/
def f_ps_ps_6 : Func where
  name := "PizzaSolver.signed_dist_to_radius"
  locals := ["self", "sid", "x", "y", "unsigned", "x1", "y1"]
  params := 4
  cases := [0]
  uses := []
  body :=
    .st [] [0, 1, 2, 3] [4] ;; .st [] [0, 1, 2, 3] [5, 6] ;; .st [] [2, 5] [] ;;
    .alt .any (.st [] [4] [] ;; .ret) (.st [] [4] [] ;; .ret)

/-- ps/ps.py:110-115 `PizzaSolver.get_polar` -/
def f_ps_ps_7 : Func where
  name := "PizzaSolver.get_polar"
  locals := ["self", "i", "j", "r", "th"]
  params := 3
  cases := [0]
  uses := [0, 7]
  body :=
    .st [0] [1, 2] [3, 4] ;; .st [] [4, 0] [] ;;
    .alt .any (.st [] [4] [] ;; .st [7] [] [] ;; .st [] [] [4]) .skip ;; .st [] [3, 4] [] ;; .ret

/-- ps/ps.py:117-122 `PizzaSolver.get_boundary_coord` -/
def f_ps_ps_8 : Func where
  name := "PizzaSolver.get_boundary_coord"
  locals := ["self", "i", "j", "r1", "th1"]
  params := 3
  cases := [0]
  uses := []
  body :=
    .st [] [0, 1, 2] [3, 4] ;; .st [] [0, 3, 4] [] ;; .ret

/-- ps/ps.py:124-131 `PizzaSolver.build_boundary_coord_cache` -/
def f_ps_ps_9 : Func where
  name := "PizzaSolver.build_boundary_coord_cache"
  locals := ["self", "i", "j"]
  params := 1
  cases := [0]
  uses := []
  body :=
    .st [] [0] [] ;; .st [] [0] [] ;; .loop (.st [] [] [1, 2] ;; .st [] [0, 1, 2] [])

/-- ps/ps.py:134-153 `PizzaSolver.get_potential` -/
def f_ps_ps_10 : Func where
  name := "PizzaSolver.get_potential"
  locals := ["self", "ext", "N", "w", "l", "i", "j", "Lw"]
  params := 2
  cases := [0]
  uses := [2, 3, 4, 7]
  body :=
    .st [] [0] [2] ;; .st [7, 2] [2] [3] ;; .st [3, 4] [0] [] ;;
    .loop (.st [] [] [4] ;; .st [] [0, 4] [5, 6] ;; .st [] [1, 4, 3, 5, 6] []) ;; .st [] [0, 3] [7] ;;
    .st [] [0] [] ;; .loop (.st [] [] [5, 6] ;; .st [] [7, 5, 6] []) ;; .st [] [3, 0, 7] [] ;; .ret

/-- ps/ps.py:155-162 `PizzaSolver.get_trace` -/
def f_ps_ps_11 : Func where
  name := "PizzaSolver.get_trace"
  locals := ["self", "w", "trace", "l", "i", "j"]
  params := 2
  cases := [0]
  uses := [2, 3, 4, 7]
  body :=
    .st [7, 4, 2] [0] [2] ;; .st [3, 4] [0] [] ;;
    .loop (.st [] [] [3] ;; .st [] [0, 3] [4, 5] ;; .st [] [1, 4, 5, 2, 3] []) ;; .st [] [2] [] ;; .ret

/-- ps/ps.py:164-175 `PizzaSolver.get_Q` -/
def f_ps_ps_12 : Func where
  name := "PizzaSolver.get_Q"
  locals := ["self", "index", "columns", "JJ", "ext", "potential", "projection"]
  params := 2
  cases := [0]
  uses := [3, 4, 7]
  body :=
    .st [] [] [2] ;; .st [3, 4] [0] [] ;;
    .loop (.st [] [] [3] ;; .st [] [0, 3, 1] [4] ;; .st [] [0, 4] [5] ;; .st [] [0, 5] [6] ;; .st [] [2, 6, 4] []) ;;
    .st [7] [2] [] ;; .ret

/-- ps/ps.py:177-208 `PizzaSolver.get_var` -/
def f_ps_ps_13 : Func where
  name := "PizzaSolver.get_var"
  locals := ["self", "Q0", "Q1", "ext_f", "proj_f", "term", "rhs"]
  params := 1
  cases := [0]
  uses := []
  body :=
    .st [] [0] [1] ;; .st [] [0] [2] ;; .st [] [0] [3] ;; .st [] [0, 3] [4] ;; .st [] [0, 4] [5] ;;
    .st [] [1, 0, 3, 5] [6] ;; .st [] [2, 6] [] ;; .ret

/-- ps/ps.py:210-215 `PizzaSolver.solve_var` -/
def f_ps_ps_14 : Func where
  name := "PizzaSolver.solve_var"
  locals := ["self", "Q1", "rhs"]
  params := 1
  cases := [0]
  uses := [7]
  body :=
    .st [] [0] [1, 2] ;; .st [7] [1, 2, 0] []

/-- ps/ps.py:217-257 `PizzaSolver.run` -/
def f_ps_ps_15 : Func where
  name := "PizzaSolver.run"
  locals := ["self", "ext", "regular_part", "u_act", "error", "result"]
  params := 1
  cases := [0]
  uses := [11]
  body :=
    .st [] [0] [] ;; .st [] [0] [] ;; .st [] [0] [] ;; .st [] [0] [1] ;; .st [] [0, 1] [2] ;; .st [] [2] [3] ;;
    .st [] [0, 3] [4] ;; .st [11] [] [5] ;; .st [] [4, 5] [] ;; .st [] [3, 5] [] ;; .st [] [5] [] ;; .ret

/-- ps/ps.py:1-257 -/
def m_ps_ps : Module where
  file := "ps/ps.py"
  globals := ["super", "print", "complex", "range", "len", "sys", "math", "np", "scipy", "jv", "Solver", "Result",
    "apply_B", "fourier", "abcoef", "PsBasis", "PsGrid", "PsExtend", "PsInhomo", "PsDebug", "get_M",
    "PizzaSolver"]
  init := 5
  locals := ["PizzaSolver.__init__", "PizzaSolver.build_boundary_coord_cache", "PizzaSolver.calc_ap_sol_f",
    "PizzaSolver.dist_to_radius", "PizzaSolver.get_Q", "PizzaSolver.get_boundary_coord",
    "PizzaSolver.get_polar", "PizzaSolver.get_potential", "PizzaSolver.get_radius_point",
    "PizzaSolver.get_trace", "PizzaSolver.get_var", "PizzaSolver.is_interior", "PizzaSolver.run",
    "PizzaSolver.signed_dist_to_radius", "PizzaSolver.solve_var"]
  funcs := [f_ps_ps_0, f_ps_ps_1, f_ps_ps_2, f_ps_ps_3, f_ps_ps_4, f_ps_ps_5, f_ps_ps_6, f_ps_ps_7, f_ps_ps_8,
    f_ps_ps_9, f_ps_ps_10, f_ps_ps_11, f_ps_ps_12, f_ps_ps_13, f_ps_ps_14, f_ps_ps_15]
  body :=
    .bg [5] ;; .bg [6] ;; .bg [7] ;; .bg [8] ;; .bg [9] ;; .bg [10, 11] ;; .bg [12] ;; .bg [13] ;; .bg [14] ;;
    .bg [15] ;; .bg [16] ;; .bg [17] ;; .bg [18] ;; .bg [19] ;; .bg [20] ;;
    .st [10, 15, 16, 17, 18, 19] [] [] ;;
    .frame [0, 1, 2, 3, 4, 5, 6, 7, 8, 9, 10, 11, 12, 13, 14] (.st [] [] [0] ;; .st [] [] [2] ;; .st [] [] [11] ;; .st [] [] [8] ;; .st [] [] [3] ;; .st [] [] [13] ;;
      .st [] [] [6] ;; .st [] [] [5] ;; .st [] [] [1] ;; .st [] [] [7] ;; .st [] [] [9] ;; .st [] [] [4] ;;
      .st [] [] [10] ;; .st [] [] [14] ;; .st [] [] [12]) ;;
    .bg [21]
  final := [0, 1, 2, 3, 4, 5, 6, 7, 8, 9, 10, 11, 12, 13, 14, 15, 16, 17, 18, 19, 20, 21]

/-- ps/zmethod.py:28-29 `ZMethod.__init__` -/
def f_ps_zmethod_0 : Func where
  name := "ZMethod.__init__"
  locals := ["self", "options"]
  params := 2
  cases := [0]
  uses := []
  body :=
    .st [] [1, 0] []

/-- ps/zmethod.py:31-60 `ZMethod.run` -/
def f_ps_zmethod_1 : Func where
  name := "ZMethod.run"
  locals := ["self", "result"]
  params := 1
  cases := [0]
  uses := [11]
  body :=
    .st [] [0] [] ;; .st [] [0] [] ;; .st [] [0] [] ;; .st [] [0] [] ;; .st [] [0] [] ;; .st [11] [0] [] ;;
    .st [11] [0] [] ;; .st [] [0] [] ;; .st [] [0] [] ;; .st [] [0] [] ;; .st [] [0] [] ;; .st [] [0] [] ;;
    .st [] [0] [] ;; .st [] [0] [] ;; .st [] [0] [] ;; .st [] [0] [1] ;; .st [] [1] [] ;; .ret

/-- ps/zmethod.py:62-147 `ZMethod.do_algebra` -/
def f_ps_zmethod_2 : Func where
  name := "ZMethod.do_algebra"
  locals := ["self", "g", "v_asympt", "diff", "pi", "k", "a", "r", "th", "x", "apply_helmholtz_op",
    "apply_helmholtz_op.u", "apply_helmholtz_op.d_u_r", "f", "f0", "p", "q1", "q2", "q", "f1", "subs_dict",
    "initial_func", "d_initial_func", "lambdify_modules", "my_lambdify", "my_lambdify.expr",
    "my_lambdify.lam", "my_lambdify.newfunc", "v_series_lambda", "my_lambdify.newfunc.r",
    "my_lambdify.newfunc.th", "R0", "v_series_error", "comp118_25.th", "eval_g"]
  params := 1
  cases := [0]
  uses := [0, 5, 6, 12]
  body :=
    .st [] [0] [1] ;; .st [] [0] [2] ;; .st [6] [] [3] ;; .st [6] [] [4] ;; .st [6] [] [5, 6, 7, 8, 9] ;;
    .st [] [] [10] ;; .st [] [10, 2] [] ;;
    .loop (.frame [11, 12] (.st [] [] [11] ;; .st [] [3, 11, 7] [12] ;; .st [] [3, 12, 7, 11, 8, 5] [] ;; .ret)) ;;
    .st [] [] [13] ;; .st [] [10, 1] [] ;;
    .loop (.frame [11, 12] (.st [] [] [11] ;; .st [] [3, 11, 7] [12] ;; .st [] [3, 12, 7, 11, 8, 5] [] ;; .ret)) ;;
    .st [] [] [14] ;; .st [] [9] [15] ;; .st [] [7, 8, 6, 14, 15, 9, 4] [16] ;;
    .st [5] [7, 8, 14, 4, 15, 9, 6] [17] ;; .st [] [16, 17] [18] ;; .st [] [14, 10, 18] [] ;;
    .loop (.frame [11, 12] (.st [] [] [11] ;; .st [] [3, 11, 7] [12] ;; .st [] [3, 12, 7, 11, 8, 5] [] ;; .ret)) ;;
    .st [] [] [19] ;; .st [] [0] [20] ;; .st [] [0, 1, 18] [21] ;; .st [] [3, 21, 7] [22] ;;
    .st [12] [] [23] ;; .st [] [] [24] ;; .st [] [24, 0] [] ;;
    .loop (.frame [25, 26, 27] (.st [] [] [25] ;; .st [6] [7, 8, 25, 20, 23] [26] ;; .st [] [] [27] ;; .st [] [27] [] ;;
        .loop (.frame [29, 30] (.st [] [] [29, 30] ;; .st [] [29] [] ;; .alt .any .ret (.st [] [26, 29, 30] [] ;; .ret))) ;;
        .ret)) ;;
    .st [] [] [28] ;; .st [] [0] [31] ;; .st [5] [0] [] ;;
    .frame [33] (.loop (.st [] [] [33] ;; .st [] [0, 31, 33, 28] [])) ;; .st [] [] [32] ;;
    .st [0, 5] [32] [] ;; .st [] [13, 0] [] ;; .st [] [24, 2, 0] [] ;;
    .loop (.frame [25, 26, 27] (.st [] [] [25] ;; .st [6] [7, 8, 25, 20, 23] [26] ;; .st [] [] [27] ;; .st [] [27] [] ;;
        .loop (.frame [29, 30] (.st [] [] [29, 30] ;; .st [] [29] [] ;; .alt .any .ret (.st [] [26, 29, 30] [] ;; .ret))) ;;
        .ret)) ;;
    .st [] [24, 21, 0] [] ;;
    .loop (.frame [25, 26, 27] (.st [] [] [25] ;; .st [6] [7, 8, 25, 20, 23] [26] ;; .st [] [] [27] ;; .st [] [27] [] ;;
        .loop (.frame [29, 30] (.st [] [] [29, 30] ;; .st [] [29] [] ;; .alt .any .ret (.st [] [26, 29, 30] [] ;; .ret))) ;;
        .ret)) ;;
    .st [] [24, 22, 0] [] ;;
    .loop (.frame [25, 26, 27] (.st [] [] [25] ;; .st [6] [7, 8, 25, 20, 23] [26] ;; .st [] [] [27] ;; .st [] [27] [] ;;
        .loop (.frame [29, 30] (.st [] [] [29, 30] ;; .st [] [29] [] ;; .alt .any .ret (.st [] [26, 29, 30] [] ;; .ret))) ;;
        .ret)) ;;
    .st [] [24, 0] [] ;;
    .loop (.frame [25, 26, 27] (.st [] [] [25] ;; .st [6] [7, 8, 25, 20, 23] [26] ;; .st [] [] [27] ;; .st [] [27] [] ;;
        .loop (.frame [29, 30] (.st [] [] [29, 30] ;; .st [] [29] [] ;; .alt .any .ret (.st [] [26, 29, 30] [] ;; .ret))) ;;
        .ret)) ;;
    .st [] [24, 1] [] ;;
    .loop (.frame [25, 26, 27] (.st [] [] [25] ;; .st [6] [7, 8, 25, 20, 23] [26] ;; .st [] [] [27] ;; .st [] [27] [] ;;
        .loop (.frame [29, 30] (.st [] [] [29, 30] ;; .st [] [29] [] ;; .alt .any .ret (.st [] [26, 29, 30] [] ;; .ret))) ;;
        .ret)) ;;
    .st [] [] [34] ;; .st [] [24, 1, 18, 0] [] ;;
    .loop (.frame [25, 26, 27] (.st [] [] [25] ;; .st [6] [7, 8, 25, 20, 23] [26] ;; .st [] [] [27] ;; .st [] [27] [] ;;
        .loop (.frame [29, 30] (.st [] [] [29, 30] ;; .st [] [29] [] ;; .alt .any .ret (.st [] [26, 29, 30] [] ;; .ret))) ;;
        .ret)) ;;
    .st [] [24, 19, 0] [] ;;
    .loop (.frame [25, 26, 27] (.st [] [] [25] ;; .st [6] [7, 8, 25, 20, 23] [26] ;; .st [] [] [27] ;; .st [] [27] [] ;;
        .loop (.frame [29, 30] (.st [] [] [29, 30] ;; .st [] [29] [] ;; .alt .any .ret (.st [] [26, 29, 30] [] ;; .ret))) ;;
        .ret))

/-- ps/zmethod.py:157-174 `ZMethod.calc_z1_fourier` -/
def f_ps_zmethod_3 : Func where
  name := "ZMethod.calc_z1_fourier"
  locals := ["self", "expected_z1_fourier"]
  params := 1
  cases := [0]
  uses := [0, 5, 14]
  body :=
    .st [] [0] [1] ;; .st [] [0] [] ;;
    .alt .any
      (.st [] [1, 0] [])
      (.st [] [0] [] ;; .alt .any .skip (.st [14] [0] [] ;; .st [0] [] [] ;; .st [0, 5] [0, 1] []))

/-- ps/zmethod.py:177-191 `ZMethod.get_expected_z1_fourier` -/
def f_ps_zmethod_4 : Func where
  name := "ZMethod.get_expected_z1_fourier"
  locals := ["self", "R", "z1_expected", "z1_expected.th"]
  params := 1
  cases := [0]
  uses := [16]
  body :=
    .st [] [0] [1] ;; .st [] [] [2] ;; .st [16] [0, 2] [] ;;
    .loop (.frame [3] (.st [] [] [3] ;; .st [] [0, 1, 3] [] ;; .ret)) ;; .ret

/-- ps/zmethod.py:193-241 `ZMethod.do_z_BVP` -/
def f_ps_zmethod_5 : Func where
  name := "ZMethod.do_z_BVP"
  locals := ["self", "a", "nu", "k", "M", "N", "f_expr", "DummySympyProblem", "DummySympyProblem.__init__",
    "DummySympyProblem.__init__.self", "dummy", "eval_phi0", "eval_phi0.th", "eval_phi0.fourier_series",
    "eval_phi0.m", "zero", "lambda219_19.r", "lambda219_19.th", "z", "lambda222_16.th", "m", "l", "r", "th",
    "index"]
  params := 1
  cases := [0]
  uses := [1, 2, 3, 5, 11, 12, 15]
  body :=
    .st [] [0] [1] ;; .st [] [0] [2] ;; .st [] [0] [3] ;; .st [] [0] [4] ;; .st [] [0] [5] ;; .st [] [0] [6] ;;
    .st [12, 11] [] [] ;;
    .frame [8] (.st [] [] [8] ;; .loop (.frame [9] (.st [] [] [9] ;; .st [] [3, 9] [] ;; .st [1] [6] []))) ;;
    .st [] [] [7] ;; .st [] [7] [10] ;; .st [] [] [11] ;; .st [15] [5, 1, 2, 0] [] ;; .st [] [0] [] ;;
    .alt .any
      (.loop (.frame [16, 17] (.st [] [] [16, 17])) ;; .st [] [] [15] ;; .st [] [0, 3, 11, 15] [] ;;
      .loop (.frame [19] (.st [] [] [19] ;; .st [] [0, 19] [])) ;;
      .loop (.frame [12, 13, 14] (.st [] [] [12] ;; .st [] [] [13] ;; .st [2] [4] [] ;;
          .loop (.st [] [] [14] ;; .st [] [13] [] ;; .st [5] [0, 14, 2, 12, 1] [] ;; .st [] [] [13]) ;;
          .st [] [13, 0, 12] [] ;; .ret)) ;;
      .st [] [] [18])
      (.st [5] [5] [18]) ;;
    .st [5, 3] [5, 0] [] ;; .st [2] [5] [] ;;
    .loop (.st [] [] [20] ;; .st [2] [5] [] ;;
      .loop (.st [] [] [21] ;; .st [] [0, 20] [22] ;; .st [] [0, 21] [23] ;; .st [] [0, 20, 21] [24] ;;
        .st [] [18, 24, 0, 20, 21] []))

/-- ps/zmethod.py:243-273 `ZMethod.calc_a_coef` -/
def f_ps_zmethod_6 : Func where
  name := "ZMethod.calc_a_coef"
  locals := ["self", "a", "nu", "k", "arc_R", "M", "fft_a_coef", "eval_phi0", "eval_bc0", "eval_bc0.th",
    "eval_bc0.r", "a_coef", "singvals", "error"]
  params := 1
  cases := [0]
  uses := [0, 5, 7, 18]
  body :=
    .st [] [0] [1] ;; .st [] [0] [2] ;; .st [] [0] [3] ;; .st [] [0] [4] ;; .st [] [0] [5] ;; .st [] [0] [6] ;;
    .st [] [0] [] ;;
    .alt .any
      (.st [] [6, 0] [])
      (.st [] [0] [7] ;; .st [] [] [8] ;; .st [18] [0, 8] [] ;;
      .loop (.frame [9, 10] (.st [] [] [9] ;; .st [] [0, 9] [10] ;; .st [] [7, 9, 0, 10] [] ;; .ret)) ;;
      .st [] [] [11, 12] ;; .st [] [11, 0] [] ;; .st [5] [] [] ;; .st [] [0] [] ;;
      .alt .any
        (.st [5] [0, 6] [13] ;; .st [0] [13] [] ;; .st [0] [] [])
        (.st [] [0] [] ;; .alt .any (.st [0, 7] [11] [] ;; .st [0] [] []) .skip))

/-- ps/zmethod.py:275-294 `ZMethod.get_expected_a_coef` -/
def f_ps_zmethod_7 : Func where
  name := "ZMethod.get_expected_a_coef"
  locals := ["self", "r", "eval_bc0", "eval_bc0.th", "eval_diff", "eval_diff.th", "interp_error", "b_coef"]
  params := 1
  cases := [0]
  uses := [0, 5, 16, 18]
  body :=
    .st [] [0] [] ;; .alt .any (.st [5] [0] [] ;; .ret) .skip ;; .st [] [0] [1] ;; .st [] [] [2] ;;
    .st [] [] [4] ;; .st [16] [0, 4] [] ;; .loop (.frame [5] (.st [] [] [5] ;; .st [] [0, 1, 5] [] ;; .ret)) ;;
    .st [] [] [6] ;; .st [0] [] [] ;; .st [0] [6] [] ;; .st [0] [] [] ;; .st [16] [0, 2] [] ;;
    .loop (.frame [3] (.st [] [] [3] ;; .st [] [0, 3, 1] [] ;; .ret)) ;; .st [] [] [7] ;; .st [18] [7, 0] [] ;;
    .ret

/-- ps/zmethod.py:296-342 `ZMethod.create_v_interp` -/
def f_ps_zmethod_8 : Func where
  name := "ZMethod.create_v_interp"
  locals := ["self", "N", "r_data", "th_data", "v_real_data", "v_imag_data", "rmin", "m", "r", "l", "th",
    "real_interp", "imag_interp", "interp", "interp.r", "interp.th"]
  params := 1
  cases := [0]
  uses := [2, 3, 8]
  body :=
    .st [] [0] [1] ;; .st [] [] [2] ;; .st [] [] [3] ;; .st [] [] [4] ;; .st [] [] [5] ;; .st [] [1] [] ;;
    .alt .any (.st [] [0] [6]) (.st [] [] [6]) ;; .st [2] [1] [] ;;
    .loop (.st [] [] [7] ;; .st [] [0, 7] [8] ;; .st [] [8, 6] [] ;; .alt .any .cont .skip ;; .st [] [2, 8] []) ;;
    .st [2] [1] [] ;; .loop (.st [] [] [9] ;; .st [] [0, 9] [10] ;; .st [] [3, 10] []) ;; .st [2] [1] [] ;;
    .loop (.st [] [] [7] ;; .st [] [0, 7] [8] ;; .st [] [8, 6] [] ;; .alt .any .cont .skip ;; .st [2] [1] [] ;;
      .loop (.st [] [] [9] ;; .st [] [0, 9] [10] ;; .st [] [4, 0, 7, 9] [] ;; .st [] [5, 0, 7, 9] [])) ;;
    .st [8] [2, 3, 4] [11] ;; .st [8] [2, 3, 5] [12] ;; .st [] [] [13] ;; .st [] [13, 0] [] ;;
    .loop (.frame [14, 15] (.st [] [] [14, 15] ;; .st [3] [11, 14, 15, 12] [] ;; .ret))

/-- ps/zmethod.py:344-406 `ZMethod.do_u_BVP` -/
def f_ps_zmethod_9 : Func where
  name := "ZMethod.do_u_BVP"
  locals := ["self", "a", "nu", "k", "M", "eval_v_asympt", "f_expr", "eval_phi0", "eval_phi1", "eval_phi2",
    "eval_expected_polar", "a_coef", "_n_basis_dict", "expected_known", "u_BVP", "u_BVP.__init__",
    "u_BVP.eval_bc", "u_BVP.eval_expected_polar", "u_BVP.n_basis_dict", "u_BVP.__init__.self",
    "u_BVP.eval_bc.self", "u_BVP.eval_bc.arg", "u_BVP.eval_bc.sid", "u_BVP.eval_bc.bc", "u_BVP.eval_bc.m",
    "u_BVP.eval_bc.r", "u_BVP.eval_bc.th", "u_BVP.eval_expected_polar.self", "u_BVP.eval_expected_polar.r",
    "u_BVP.eval_expected_polar.th", "my_u_BVP", "options", "result"]
  params := 1
  cases := [0]
  uses := [1, 2, 5, 9, 11, 12, 14, 17]
  body :=
    .st [] [0] [1] ;; .st [] [0] [2] ;; .st [] [0] [3] ;; .st [] [0] [4] ;; .st [] [0] [5] ;; .st [] [0] [6] ;;
    .st [] [0] [7] ;; .st [] [0] [8] ;; .st [] [0] [9] ;; .st [] [0] [10] ;; .st [] [0] [11] ;;
    .st [] [0] [12] ;; .st [] [0] [13] ;; .st [12, 11] [] [] ;;
    .frame [15, 16, 17, 18] (.st [] [12] [18] ;; .st [] [] [15] ;;
      .loop (.frame [19] (.st [] [] [19] ;; .st [] [3, 19] [] ;; .st [] [13, 19] [] ;; .st [1] [6] [])) ;;
      .st [] [] [16] ;;
      .loop (.frame [20, 21, 22, 23, 24, 25, 26] (.st [] [] [20, 21, 22] ;; .st [17] [20, 1, 21, 22] [25, 26] ;; .st [] [22] [] ;;
          .alt .any
            (.st [] [7, 26, 5, 25] [23] ;; .st [2] [4] [] ;;
            .loop (.st [] [] [24] ;; .st [] [23] [] ;; .st [9, 5] [11, 24, 2, 3, 25, 26, 1] [] ;; .st [] [] [23]) ;;
            .st [] [23] [] ;; .ret)
            (.st [] [22, 25] [] ;;
            .alt .any
              (.st [5] [8, 25, 5] [] ;; .ret)
              (.st [] [22, 25] [] ;; .alt .any (.st [] [9, 25, 5, 1] [] ;; .ret) .skip)) ;;
          .ret)) ;;
      .st [] [] [17] ;;
      .loop (.frame [27, 28, 29] (.st [] [] [27, 28, 29] ;; .st [] [10, 28, 29, 5] [] ;; .ret))) ;;
    .st [] [] [14] ;; .st [] [14] [30] ;; .st [] [0, 30] [] ;; .st [] [] [31] ;; .st [] [31, 0] [] ;;
    .st [] [30, 31] [] ;; .st [14] [31, 0] [] ;; .st [] [0] [32] ;; .st [] [32, 0] [] ;; .st [] [32, 0] []

/-- ps/zmethod.py:408-424 `ZMethod.get_v_error` -/
def f_ps_zmethod_10 : Func where
  name := "ZMethod.get_v_error"
  locals := ["self", "N", "errors", "m", "r", "expected", "l", "th", "to_dst", "fourier"]
  params := 1
  cases := [0]
  uses := [2, 4, 5, 10]
  body :=
    .st [] [0] [1] ;; .st [] [] [2] ;; .st [2] [1] [] ;;
    .loop (.st [] [] [3] ;; .st [] [0, 3] [4] ;; .st [5] [1] [5] ;; .st [2] [1] [] ;;
      .loop (.st [] [] [6] ;; .st [] [0, 6] [7] ;; .st [] [0, 4, 7, 5, 6] []) ;; .st [] [5, 0, 3, 1] [8] ;;
      .st [10] [8, 0, 1] [9] ;; .st [5] [2, 9] []) ;;
    .st [4] [2] [] ;; .ret

/-- ps/zmethod.py:1-424 -/
def m_ps_zmethod : Module where
  file := "ps/zmethod.py"
  globals := ["print", "super", "range", "complex", "max", "np", "sympy", "scipy", "interp2d", "jv", "dst",
    "PizzaProblem", "SympyProblem", "Arc", "ps", "PolarFD", "arc_dst", "domain_util", "abcoef", "ZMethod"]
  init := 5
  locals := ["ZMethod.M", "ZMethod.R0", "ZMethod.__init__", "ZMethod.calc_a_coef", "ZMethod.calc_z1_fourier",
    "ZMethod.create_v_interp", "ZMethod.do_algebra", "ZMethod.do_u_BVP", "ZMethod.do_z_BVP",
    "ZMethod.get_expected_a_coef", "ZMethod.get_expected_z1_fourier", "ZMethod.get_v_error", "ZMethod.run"]
  funcs := [f_ps_zmethod_0, f_ps_zmethod_1, f_ps_zmethod_2, f_ps_zmethod_3, f_ps_zmethod_4, f_ps_zmethod_5,
    f_ps_zmethod_6, f_ps_zmethod_7, f_ps_zmethod_8, f_ps_zmethod_9, f_ps_zmethod_10]
  body :=
    .bg [5] ;; .bg [6] ;; .bg [7] ;; .bg [8] ;; .bg [9] ;; .bg [10] ;; .bg [11] ;; .bg [12] ;; .bg [13] ;;
    .bg [14] ;; .bg [14] ;; .bg [15] ;; .bg [16] ;; .bg [17] ;; .bg [18] ;;
    .frame [0, 1, 2, 3, 4, 5, 6, 7, 8, 9, 10, 11, 12] (.st [] [] [0] ;; .st [] [] [1] ;; .st [] [] [2] ;; .st [] [] [12] ;; .st [] [] [6] ;; .st [] [] [4] ;;
      .st [] [] [10] ;; .st [] [] [8] ;; .st [] [] [3] ;; .st [] [] [9] ;; .st [] [] [5] ;; .st [] [] [7] ;;
      .st [] [] [11]) ;;
    .bg [19]
  final := [0, 1, 2, 3, 4, 5, 6, 7, 8, 9, 10, 11, 12, 13, 14, 15, 16, 17, 18, 19]

/-- run.py:14-25 `get_N_list` -/
def f_run_0 : Func where
  name := "get_N_list"
  locals := ["N0", "c", "N_list", "N"]
  params := 2
  cases := [0]
  uses := []
  body :=
    .st [] [1] [] ;; .alt .any (.st [] [0] [] ;; .ret) .skip ;; .st [] [] [2] ;; .st [] [0] [3] ;;
    .st [] [3, 1] [] ;; .loop (.st [] [2, 3] [] ;; .st [] [3] [] ;; .st [] [] [3] ;; .st [] [3, 1] []) ;;
    .st [] [2] [] ;; .ret

/-- run.py:1-102 -/
def m_run : Module where
  file := "run.py"
  globals := ["print", "sys", "argparse", "np", "problems", "ps", "io_util", "prec_str", "get_N_list", "parser",
    "arg_list", "args", "problem", "boundary", "N_list", "options", "meta_options", "do_rel_conv", "u2",
    "u1", "u0", "prev_error", "N", "solver", "result", "convergence"]
  init := 1
  locals := []
  funcs := [f_run_0]
  body :=
    .bg [1] ;; .bg [2] ;; .bg [3] ;; .bg [4] ;; .bg [5] ;; .bg [5] ;; .bg [6] ;; .bg [7] ;; .bg [8] ;;
    .st [2] [] [] ;; .bg [9] ;; .st [9] [] [] ;; .bg [9] ;; .bg [10] ;; .st [6, 9, 10] [] [] ;;
    .st [9] [] [] ;; .st [9] [] [] ;; .bg [11] ;; .st [4, 11] [] [] ;; .bg [12] ;; .st [4, 11, 12] [] [] ;;
    .bg [13] ;; .st [12, 13] [] [] ;; .st [8, 11] [] [] ;; .loop (.call 0 [0]) ;; .bg [14] ;;
    .st [12, 11] [] [] ;; .bg [15] ;; .st [14] [] [] ;; .bg [16] ;; .st [6, 15, 16] [] [] ;;
    .st [11, 12] [] [] ;; .bg [17] ;; .bg [18] ;; .bg [19] ;; .bg [20] ;; .bg [21] ;; .st [14] [] [] ;;
    .loop (.bg [22] ;; .st [22, 15] [] [] ;; .st [5, 15] [] [] ;; .bg [23] ;; .st [0, 22] [] [] ;; .st [23] [] [] ;;
      .bg [24] ;; .st [24] [] [] ;; .alt .any .cont .skip ;; .st [24] [] [] ;;
      .alt .any (.st [0, 7, 24] [] []) .skip ;; .st [19] [] [] ;; .bg [18] ;; .st [20] [] [] ;; .bg [19] ;;
      .st [24] [] [] ;; .bg [20] ;; .st [21] [] [] ;;
      .alt .any (.st [3, 21, 24] [] [] ;; .bg [25] ;; .st [0, 7, 25] [] []) .skip ;; .st [17, 18] [] [] ;;
      .alt .any (.st [23, 20, 19, 18] [] [] ;; .bg [25] ;; .st [0, 7, 25] [] []) .skip ;; .st [0] [] [] ;;
      .st [1] [] [] ;; .st [24] [] [] ;; .bg [21])
  final := [0, 1, 2, 3, 4, 5, 6, 7, 8, 9, 10, 11, 12, 13, 14, 15, 16, 17, 18, 19, 20, 21]

/-- runz.py:17-28 `get_N_list` -/
def f_runz_0 : Func where
  name := "get_N_list"
  locals := ["N0", "c", "N_list", "N"]
  params := 2
  cases := [0]
  uses := []
  body :=
    .st [] [1] [] ;; .alt .any (.st [] [0] [] ;; .ret) .skip ;; .st [] [] [2] ;; .st [] [0] [3] ;;
    .st [] [3, 1] [] ;; .loop (.st [] [2, 3] [] ;; .st [] [3] [] ;; .st [] [] [3] ;; .st [] [3, 1] []) ;;
    .st [] [2] [] ;; .ret

/-- runz.py:1-139 -/
def m_runz : Module where
  file := "runz.py"
  globals := ["print", "sys", "argparse", "np", "problems", "ps", "io_util", "prec_str", "get_N_list", "parser",
    "arg_list", "args", "problem", "boundary", "N_list", "options", "meta_options", "do_rel_conv", "u2",
    "u1", "u0", "v2", "v1", "v0", "z1_fourier", "prev_u_error", "prev_v_error", "N", "my_zmethod", "result",
    "polarfd", "pert_solver", "u_error", "v_error", "convergence"]
  init := 1
  locals := []
  funcs := [f_runz_0]
  body :=
    .bg [1] ;; .bg [2] ;; .bg [3] ;; .bg [4] ;; .bg [5] ;; .bg [5] ;; .bg [6] ;; .bg [7] ;; .bg [8] ;;
    .st [2] [] [] ;; .bg [9] ;; .st [9] [] [] ;; .bg [9] ;; .bg [10] ;; .st [6, 9, 10] [] [] ;;
    .st [9] [] [] ;; .st [9] [] [] ;; .st [9] [] [] ;; .bg [11] ;; .st [4, 11] [] [] ;; .bg [12] ;;
    .st [4, 11, 12] [] [] ;; .bg [13] ;; .st [12, 13] [] [] ;; .st [8, 11] [] [] ;; .loop (.call 0 [0]) ;;
    .bg [14] ;; .st [12, 11] [] [] ;; .bg [15] ;; .st [14] [] [] ;; .bg [16] ;; .st [6, 15, 16] [] [] ;;
    .st [11, 12] [] [] ;; .bg [17] ;; .bg [18] ;; .bg [19] ;; .bg [20] ;; .bg [21] ;; .bg [22] ;; .bg [23] ;;
    .bg [24] ;; .bg [25] ;; .bg [26] ;; .st [14] [] [] ;;
    .loop (.bg [27] ;; .st [27, 15] [] [] ;; .st [0, 27] [] [] ;; .st [5, 15] [] [] ;; .bg [28] ;;
      .st [24, 28] [] [] ;; .st [28] [] [] ;; .bg [29] ;; .st [29] [] [] ;; .bg [30] ;; .st [29] [] [] ;;
      .bg [31] ;; .st [29] [] [] ;; .bg [32] ;; .st [29] [] [] ;; .bg [33] ;; .st [22] [] [] ;; .bg [21] ;;
      .st [23] [] [] ;; .bg [22] ;; .st [29] [] [] ;; .bg [23] ;; .st [33] [] [] ;;
      .alt .any (.st [0, 7, 33] [] []) .skip ;; .st [21] [] [] ;;
      .alt .any (.st [30, 23, 22, 21] [] [] ;; .bg [34] ;; .st [0, 7, 34] [] []) .skip ;; .st [26] [] [] ;;
      .alt .any (.st [3, 26, 33] [] [] ;; .bg [34] ;; .st [0, 7, 34] [] []) .skip ;; .st [0] [] [] ;;
      .st [19] [] [] ;; .bg [18] ;; .st [20] [] [] ;; .bg [19] ;; .st [29] [] [] ;; .bg [20] ;;
      .st [32] [] [] ;; .alt .any (.st [0, 7, 32] [] []) .skip ;; .st [18] [] [] ;;
      .alt .any (.st [31, 20, 19, 18] [] [] ;; .bg [34] ;; .st [0, 7, 34] [] []) .skip ;; .st [25] [] [] ;;
      .alt .any (.st [3, 25, 32] [] [] ;; .bg [34] ;; .st [0, 7, 34] [] []) .skip ;; .st [0] [] [] ;;
      .st [1] [] [] ;; .st [28] [] [] ;; .bg [24] ;; .st [32] [] [] ;; .bg [25] ;; .st [33] [] [] ;; .bg [26])
  final := [0, 1, 2, 3, 4, 5, 6, 7, 8, 9, 10, 11, 12, 13, 14, 15, 16, 17, 18, 19, 20, 21, 22, 23, 24, 25, 26]

/-- solver.py:21-26 `Solver.__init__` -/
def f_solver_0 : Func where
  name := "Solver.__init__"
  locals := ["self", "options"]
  params := 2
  cases := [0]
  uses := [0]
  body :=
    .st [0] [] [] ;; .st [] [1, 0] [] ;; .st [] [0] [] ;; .st [] [0] [] ;; .st [] [1, 0] []

/-- solver.py:28-34 `Solver.get_coord` -/
def f_solver_1 : Func where
  name := "Solver.get_coord"
  locals := ["self", "i", "j", "x", "y"]
  params := 3
  cases := [0]
  uses := []
  body :=
    .st [] [0, 1] [3] ;; .st [] [0, 2] [4] ;; .st [] [3, 4] [] ;; .ret

/-- solver.py:36-42 `Solver.get_coord_inv` -/
def f_solver_2 : Func where
  name := "Solver.get_coord_inv"
  locals := ["self", "x", "y", "i", "j"]
  params := 3
  cases := [0]
  uses := []
  body :=
    .st [] [0, 1] [3] ;; .st [] [0, 2] [4] ;; .st [] [3, 4] [] ;; .ret

/-- solver.py:44-49 `Solver.get_polar` -/
def f_solver_3 : Func where
  name := "Solver.get_polar"
  locals := ["self", "i", "j", "x", "y"]
  params := 3
  cases := [0]
  uses := [10]
  body :=
    .st [] [0, 1, 2] [3, 4] ;; .st [10] [3, 4] [] ;; .ret

/-- solver.py:51-72 `Solver.construct_grids` -/
def f_solver_4 : Func where
  name := "Solver.construct_grids"
  locals := ["self", "scheme_order", "i", "j", "Nm"]
  params := 2
  cases := [0]
  uses := [1, 2, 8]
  body :=
    .st [1, 8, 2] [0] [] ;; .st [1, 8, 2] [0] [] ;; .st [1] [0] [] ;; .st [] [0] [] ;;
    .loop (.st [] [] [2, 3] ;; .st [] [0, 2, 3] [] ;; .alt .any (.st [] [0, 2, 3] []) .skip) ;;
    .st [] [0] [] ;; .st [1] [0] [] ;; .st [] [0] [] ;;
    .loop (.st [] [] [2, 3] ;; .st [1] [2, 3] [4] ;; .st [] [1] [] ;;
      .alt .any (.st [] [4] [] ;; .st [1] [2, 3] [] ;; .st [] [] [4]) .skip ;; .st [] [4, 0] [])

/-- solver.py:74-90 `Solver.setup_f` -/
def f_solver_5 : Func where
  name := "Solver.setup_f"
  locals := ["self", "N", "i", "j"]
  params := 1
  cases := [0]
  uses := [3, 4, 9]
  body :=
    .st [] [0] [1] ;; .st [9, 3] [1, 0] [] ;; .st [] [0] [] ;;
    .loop (.st [] [] [2, 3] ;; .st [] [0, 2, 3] []) ;; .st [4] [0] [] ;; .alt .any (.st [] [0] []) .skip

/-- solver.py:92-108 `Solver.eval_error` -/
def f_solver_6 : Func where
  name := "Solver.eval_error"
  locals := ["self", "u_act", "error", "max_error", "i", "j", "x", "y", "diff"]
  params := 2
  cases := [0]
  uses := [5, 6]
  body :=
    .st [] [0] [] ;; .alt .any .ret .skip ;; .st [] [] [2] ;; .st [] [] [3] ;; .st [] [0] [] ;;
    .loop (.st [] [] [4, 5] ;; .st [] [0, 4, 5] [6, 7] ;; .st [5] [0, 6, 7, 1, 4, 5] [8] ;; .st [] [2, 8] []) ;;
    .st [6] [2] [] ;; .ret

/-- solver.py:110-130 `Solver.calc_rel_convergence` -/
def f_solver_7 : Func where
  name := "Solver.calc_rel_convergence"
  locals := ["self", "u0", "u1", "u2"]
  params := 4
  cases := [0]
  uses := [7, 9]
  body :=
    .st [7, 9] [1] [] ;; .alt .any (.st [] [0, 1, 2, 3] [] ;; .ret) (.st [] [1, 2, 3] [] ;; .ret)

/-- solver.py:132-152 `Solver._array_calc_rel_convergence` -/
def f_solver_8 : Func where
  name := "Solver._array_calc_rel_convergence"
  locals := ["self", "u0", "u1", "u2", "N", "diff12", "diff01", "i", "j", "k0", "k1", "k2"]
  params := 4
  cases := [0]
  uses := [5, 6, 9]
  body :=
    .st [] [0] [4] ;; .st [] [] [5] ;; .st [] [] [6] ;; .st [] [0] [] ;;
    .loop (.st [] [] [7, 8] ;; .st [] [7, 8] [9] ;; .st [] [7, 8] [10] ;; .st [] [7, 8] [11] ;; .st [] [7, 8] [] ;;
      .alt .any (.st [5] [5, 2, 10, 3, 11] []) .skip ;; .st [] [7, 8] [] ;;
      .alt .any (.st [5] [6, 1, 9, 2, 10] []) .skip) ;;
    .st [9, 6] [5, 6] [] ;; .ret

/-- solver.py:1-152 -/
def m_solver : Module where
  file := "solver.py"
  globals := ["super", "set", "range", "complex", "hasattr", "abs", "max", "type", "it", "np", "cart_to_polar",
    "SolverExtend", "Result", "Solver"]
  init := 8
  locals := ["Result.a_error", "Result.u_act", "Solver.__init__", "Solver._array_calc_rel_convergence",
    "Solver.calc_rel_convergence", "Solver.construct_grids", "Solver.eval_error", "Solver.get_coord",
    "Solver.get_coord_inv", "Solver.get_polar", "Solver.setup_f"]
  funcs := [f_solver_0, f_solver_1, f_solver_2, f_solver_3, f_solver_4, f_solver_5, f_solver_6, f_solver_7,
    f_solver_8]
  body :=
    .bg [8] ;; .bg [9] ;; .bg [10] ;; .bg [11] ;; .frame [0, 1] (.st [] [] [1] ;; .st [] [] [0]) ;; .bg [12] ;;
    .st [11] [] [] ;;
    .frame [2, 3, 4, 5, 6, 7, 8, 9, 10] (.st [] [] [2] ;; .st [] [] [7] ;; .st [] [] [8] ;; .st [] [] [9] ;; .st [] [] [5] ;; .st [] [] [10] ;;
      .st [] [] [6] ;; .st [] [] [4] ;; .st [] [] [3]) ;;
    .bg [13]
  final := [0, 1, 2, 3, 4, 5, 6, 7, 8, 9, 10, 11, 12, 13]

end Pot.Names
