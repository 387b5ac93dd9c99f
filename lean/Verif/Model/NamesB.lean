import Verif.Model.Names

/-!
The functions and modules of problems/, scripts/ and test/, reduced to the names they read and bind (see `Verif.Model.Names`).
Each `Func` lists its local names; in the statements a name is its position in that list, a module-level name its
position in the list `globals` of the module.
-/

namespace Pot.Names

/-- problems/__init__.py:1-35 -/
def m_problems_init : Module where
  file := "problems/__init__.py"
  globals := ["OrderedDict", "Smooth_Sine", "Smooth_E", "Smooth_YCos", "Trace_Hat", "Trace_Parabola", "Trace_Sine8",
    "Trace_SineRange", "Trace_LineSine", "Shift_Hat", "Shift_Parabola", "Shift_LineSine", "I_Bessel",
    "IZ_Bessel", "IHZ_Bessel_Line", "IHZ_Bessel_Quadratic", "problem_dict", "_name", "_problem"]
  init := 0
  locals := []
  funcs := []
  body :=
    .bg [0] ;; .bg [1, 2, 3] ;; .bg [4, 5, 6, 7, 8] ;; .bg [9, 10, 11] ;; .bg [12] ;; .bg [13, 14, 15] ;;
    .st [0, 1, 2, 3, 6, 7, 4, 5, 8, 9, 10, 11, 12, 13, 14, 15] [] [] ;; .bg [16] ;; .st [16] [] [] ;;
    .loop (.bg [17, 18] ;; .st [17, 18] [] [])
  final := [0, 1, 2, 3, 4, 5, 6, 7, 8, 9, 10, 11, 12, 13, 14, 15, 16]

/-- problems/boundary.py:12-30 `Boundary.__init__` -/
def f_problems_boundary_0 : Func where
  name := "Boundary.__init__"
  locals := ["self", "R", "bet", "k", "a"]
  params := 5
  cases := [0]
  uses := [1]
  body :=
    .st [] [4, 0] [] ;; .st [] [1, 0] [] ;; .st [] [2] [] ;; .alt .any (.st [] [0, 3] []) (.st [] [2, 0] []) ;;
    .st [1] [0] [] ;; .st [] [0] [] ;; .st [] [0] []

/-- problems/boundary.py:32-33 `Boundary.set_bet` -/
def f_problems_boundary_1 : Func where
  name := "Boundary.set_bet"
  locals := ["self", "k"]
  params := 2
  cases := [0]
  uses := []
  body :=
    .st [] [0] []

/-- problems/boundary.py:35-107 `Boundary.do_algebra` -/
def f_problems_boundary_2 : Func where
  name := "Boundary.do_algebra"
  locals := ["self", "R", "th", "a", "nu", "bet", "subs_dict", "r", "d_r_th", "d2_r_th", "x", "y", "d_x_th",
    "d_y_th", "d_s_th", "d2_s_th", "d3_s_th", "d4_s_th", "d_th_s", "d2_th_s", "d3_th_s", "d4_th_s", "curv",
    "d_curv_th", "d2_curv_th"]
  params := 1
  cases := [0]
  uses := [3]
  body :=
    .st [3] [] [1, 2, 3, 4, 5] ;; .st [] [0] [6] ;; .st [3] [0] [7] ;; .st [3] [2, 7, 6, 0] [] ;;
    .st [3] [7, 2] [8] ;; .st [3] [8, 2] [9] ;; .st [3] [7, 2] [10] ;; .st [3] [7, 2] [11] ;;
    .st [3] [10, 2] [12] ;; .st [3] [11, 2] [13] ;; .st [3] [2, 8, 6, 0] [] ;; .st [3] [2, 9, 6, 0] [] ;;
    .st [3] [2, 12, 6, 0] [] ;; .st [3] [2, 13, 6, 0] [] ;; .st [3] [7, 8] [14] ;; .st [3] [14, 2] [15] ;;
    .st [3] [15, 2] [16] ;; .st [3] [16, 2] [17] ;; .st [] [14] [18] ;; .st [] [15, 18] [19] ;;
    .st [] [16, 18, 15, 19] [20] ;; .st [] [17, 18, 16, 19, 15, 20] [21] ;; .st [3] [2, 18, 6, 0] [] ;;
    .st [3] [2, 19, 6, 0] [] ;; .st [3] [2, 20, 6, 0] [] ;; .st [3] [2, 21, 6, 0] [] ;; .st [3] [7, 2] [9] ;;
    .st [] [7, 8, 9] [22] ;; .st [3] [22, 2] [23] ;; .st [3] [23, 2] [24] ;; .st [3] [2, 22, 6, 0] [] ;;
    .st [3] [2, 23, 6, 0] [] ;; .st [3] [2, 24, 6, 0] []

/-- problems/boundary.py:109-111 `Boundary.eval_tangent` -/
def f_problems_boundary_3 : Func where
  name := "Boundary.eval_tangent"
  locals := ["self", "th", "tangent"]
  params := 2
  cases := [0]
  uses := [1]
  body :=
    .st [1] [0, 1] [2] ;; .st [1] [2] [] ;; .ret

/-- problems/boundary.py:113-115 `Boundary.eval_normal` -/
def f_problems_boundary_4 : Func where
  name := "Boundary.eval_normal"
  locals := ["self", "th", "tangent"]
  params := 2
  cases := [0]
  uses := [1]
  body :=
    .st [] [0, 1] [2] ;; .st [1] [2] [] ;; .ret

/-- problems/boundary.py:117-169 `Boundary.get_boundary_coord` -/
def f_problems_boundary_5 : Func where
  name := "Boundary.get_boundary_coord"
  locals := ["self", "r1", "th1", "x1", "y1", "eval_dist_deriv", "eval_dist_deriv.th", "eval_dist_deriv.dr",
    "eval_dist_deriv.r", "eval_dist_deriv.x0", "eval_dist_deriv.y0", "diff", "lbound", "ubound", "th0", "r",
    "x0", "y0", "n", "normal"]
  params := 3
  cases := [0]
  uses := [0, 1, 2]
  body :=
    .st [1] [1, 2] [3] ;; .st [1] [1, 2] [4] ;; .st [] [] [5] ;; .st [1] [] [11] ;; .st [] [2, 11] [12] ;;
    .st [] [12, 0] [] ;; .alt .any (.st [] [0] [12]) .skip ;; .st [] [2, 11] [13] ;; .st [1] [13, 0] [] ;;
    .alt .any (.st [1] [0] [13]) .skip ;;
    .tri (.may ;; .st [2] [5, 12, 13] [] ;;
      .loop (.frame [6, 7, 8, 9, 10] (.st [] [] [6] ;; .may ;; .st [] [0, 6] [8] ;; .may ;; .may ;; .st [] [0, 6] [7] ;; .may ;; .may ;;
          .st [1] [8, 6] [9] ;; .may ;; .may ;; .st [1] [8, 6] [10] ;; .may ;; .may ;;
          .st [1] [3, 9, 7, 6, 8, 4, 10] [] ;; .ret ;; .may)) ;;
      .st [] [] [14] ;; .may) (.st [0] [] [] ;; .ret) ;;
    .st [] [0, 14] [15] ;; .st [1] [15, 14] [16] ;; .st [1] [15, 14] [17] ;; .st [1] [3, 16, 4, 17] [18] ;;
    .st [] [0, 14] [19] ;; .st [1] [19, 3, 16, 4, 17] [] ;; .alt .any (.st [] [18] [18]) .skip ;;
    .st [] [18, 14] [] ;; .ret

/-- problems/boundary.py:1-206 -/
def m_problems_boundary : Module where
  file := "problems/boundary.py"
  globals := ["ValueError", "np", "brentq", "sympy", "PizzaProblem", "Boundary", "Arc", "OuterSine", "InnerSine",
    "Sine7", "cubic_C", "Cubic", "_boundary_cls", "boundaries", "boundary"]
  init := 1
  locals := ["Boundary.__init__", "Boundary.additional_params", "Boundary.do_algebra", "Boundary.eval_normal",
    "Boundary.eval_tangent", "Boundary.get_boundary_coord", "Boundary.set_bet", "Arc.bet0", "Arc.name",
    "Arc.r_expr_str", "OuterSine.bet0", "OuterSine.name", "OuterSine.r_expr_str", "InnerSine.bet0",
    "InnerSine.name", "InnerSine.r_expr_str", "Sine7.bet0", "Sine7.name", "Sine7.r_expr_str",
    "Cubic.additional_params", "Cubic.bet0", "Cubic.name", "Cubic.r_expr_str"]
  funcs := [f_problems_boundary_0, f_problems_boundary_1, f_problems_boundary_2, f_problems_boundary_3,
    f_problems_boundary_4, f_problems_boundary_5]
  body :=
    .bg [1] ;; .bg [2] ;; .bg [3] ;; .bg [4] ;;
    .frame [0, 1, 2, 3, 4, 5, 6] (.st [] [] [1] ;; .st [4] [] [0] ;; .st [] [] [6] ;; .st [] [] [2] ;; .st [] [] [4] ;; .st [] [] [3] ;;
      .st [] [] [5]) ;;
    .bg [5] ;; .st [5] [] [] ;; .frame [7, 8, 9] (.st [] [] [8] ;; .st [] [] [9] ;; .st [] [] [7]) ;;
    .bg [6] ;; .st [5] [] [] ;; .frame [10, 11, 12] (.st [] [] [11] ;; .st [] [] [12] ;; .st [] [] [10]) ;;
    .bg [7] ;; .st [5] [] [] ;; .frame [13, 14, 15] (.st [] [] [14] ;; .st [] [] [15] ;; .st [] [] [13]) ;;
    .bg [8] ;; .st [5] [] [] ;; .frame [16, 17, 18] (.st [] [] [17] ;; .st [] [] [18] ;; .st [] [] [16]) ;;
    .bg [9] ;; .st [1] [] [] ;; .bg [10] ;; .st [5] [] [] ;;
    .frame [19, 20, 21, 22] (.st [] [] [21] ;; .st [] [] [22] ;; .st [] [] [20] ;; .st [10] [] [19]) ;;
    .bg [11] ;; .st [6, 7, 8, 9, 11] [] [] ;; .bg [12] ;; .bg [13] ;; .st [12] [] [] ;;
    .loop (.bg [14] ;; .st [14, 13] [] [])
  final := [0, 1, 2, 3, 4, 5, 6, 7, 8, 9, 10, 11, 12, 13]

/-- problems/functions.py:6-15 `eval_hat_x` -/
def f_problems_functions_0 : Func where
  name := "eval_hat_x"
  locals := ["x", "arg"]
  params := 1
  cases := [0]
  uses := [0, 1]
  body :=
    .st [0] [0] [] ;; .alt .any .ret (.st [] [0] [1] ;; .st [1] [1] [] ;; .ret)

/-- problems/functions.py:17-24 `eval_hat_th` -/
def f_problems_functions_1 : Func where
  name := "eval_hat_th"
  locals := ["th", "a", "x"]
  params := 1
  cases := [0]
  uses := [0, 1, 3, 4]
  body :=
    .st [3] [] [1] ;; .st [1] [0, 1] [2] ;; .st [4] [2] [] ;; .loop (.call 0 [0]) ;; .ret

/-- problems/functions.py:26-27 `eval_parabola` -/
def f_problems_functions_2 : Func where
  name := "eval_parabola"
  locals := ["th", "a"]
  params := 2
  cases := [0]
  uses := [1]
  body :=
    .st [1] [0, 1] [] ;; .ret

/-- problems/functions.py:29-30 `eval_linesine` -/
def f_problems_functions_3 : Func where
  name := "eval_linesine"
  locals := ["th", "k", "R", "a", "nu"]
  params := 5
  cases := [0]
  uses := [1, 2]
  body :=
    .st [2, 1] [4, 1, 2, 0, 3] [] ;; .ret

/-- problems/functions.py:1-30 -/
def m_problems_functions : Module where
  file := "problems/functions.py"
  globals := ["abs", "np", "jv", "PizzaProblem", "eval_hat_x", "eval_hat_th", "eval_parabola", "eval_linesine"]
  init := 1
  locals := []
  funcs := [f_problems_functions_0, f_problems_functions_1, f_problems_functions_2, f_problems_functions_3]
  body :=
    .bg [1] ;; .bg [2] ;; .bg [3] ;; .bg [4] ;; .bg [5] ;; .bg [6] ;; .bg [7]
  final := [0, 1, 2, 3, 4, 5, 6, 7]

/-- problems/problem.py:15-16 `Problem.__init__` -/
def f_problems_problem_0 : Func where
  name := "Problem.__init__"
  locals := ["self", "kwargs"]
  params := 2
  cases := [0]
  uses := []
  body :=
    .skip

/-- problems/problem.py:18-24 `Problem.eval_expected` -/
def f_problems_problem_1 : Func where
  name := "Problem.eval_expected"
  locals := ["self", "x", "y", "kwargs", "r", "th"]
  params := 4
  cases := [0]
  uses := [1, 4]
  body :=
    .st [4] [1, 2] [4, 5] ;; .st [] [5, 0] [] ;;
    .alt .any (.st [] [5] [] ;; .st [1] [] [] ;; .st [] [] [5]) .skip ;; .st [] [0, 4, 5, 3] [] ;; .ret

/-- problems/problem.py:26-30 `Problem.eval_expected_polar` -/
def f_problems_problem_2 : Func where
  name := "Problem.eval_expected_polar"
  locals := ["self", "r", "th", "kwargs", "x", "y"]
  params := 4
  cases := [0]
  uses := [1]
  body :=
    .st [1] [1, 2] [4] ;; .st [1] [1, 2] [5] ;; .st [] [0, 4, 5, 3] [] ;; .ret

/-- problems/problem.py:32-36 `Problem.eval_f` -/
def f_problems_problem_3 : Func where
  name := "Problem.eval_f"
  locals := ["self", "x", "y"]
  params := 3
  cases := [0]
  uses := [4]
  body :=
    .st [] [0] [] ;; .alt .any .ret .skip ;; .st [4] [0, 1, 2] [] ;; .ret

/-- problems/problem.py:38-44 `Problem.eval_f_polar` -/
def f_problems_problem_4 : Func where
  name := "Problem.eval_f_polar"
  locals := ["self", "r", "th", "x", "y"]
  params := 3
  cases := [0]
  uses := [2, 3]
  body :=
    .st [] [0] [] ;; .alt .any .ret .skip ;; .st [2] [1, 2] [3] ;; .st [3] [1, 2] [4] ;; .st [] [0, 3, 4] [] ;;
    .ret

/-- problems/problem.py:55-56 `PizzaProblem.__init__` -/
def f_problems_problem_5 : Func where
  name := "PizzaProblem.__init__"
  locals := ["self", "kwargs"]
  params := 2
  cases := [0]
  uses := []
  body :=
    .skip

/-- problems/problem.py:58-70 `PizzaProblem.get_n_basis` -/
def f_problems_problem_6 : Func where
  name := "PizzaProblem.get_n_basis"
  locals := ["self", "N", "kwargs", "n_basis_dict"]
  params := 3
  cases := [0]
  uses := [0]
  body :=
    .st [0] [0] [] ;; .alt .any (.st [] [0] [3]) (.st [] [0, 2] [3]) ;;
    .loop (.st [] [1, 3] [] ;; .alt .any (.st [] [3, 1] [] ;; .ret) (.st [] [1] [] ;; .st [] [] [1]))

/-- problems/problem.py:72-87 `PizzaProblem.get_n_basis_dict` -/
def f_problems_problem_7 : Func where
  name := "PizzaProblem.get_n_basis_dict"
  locals := ["self", "kwargs"]
  params := 2
  cases := [0]
  uses := []
  body :=
    .ret

/-- problems/problem.py:89-98 `PizzaProblem.get_m1` -/
def f_problems_problem_8 : Func where
  name := "PizzaProblem.get_m1"
  locals := ["self", "bname"]
  params := 1
  cases := [0]
  uses := [0]
  body :=
    .st [0] [0] [] ;; .alt .any (.st [] [0] [] ;; .ret) .skip ;; .st [] [0] [1] ;; .st [0] [0, 1] [] ;;
    .alt .any (.st [] [0, 1] [] ;; .ret) .skip ;; .ret

/-- problems/problem.py:100-101 `PizzaProblem.set_boundary` -/
def f_problems_problem_9 : Func where
  name := "PizzaProblem.set_boundary"
  locals := ["self", "boundary"]
  params := 2
  cases := [0]
  uses := []
  body :=
    .st [] [1, 0] []

/-- problems/problem.py:1-101 -/
def m_problems_problem : Module where
  file := "problems/problem.py"
  globals := ["hasattr", "np", "cos", "sin", "cart_to_polar", "Problem", "_a", "_nu", "PizzaProblem"]
  init := 1
  locals := ["Problem.AD_len", "Problem.R", "Problem.__init__", "Problem.eval_expected",
    "Problem.eval_expected_polar", "Problem.eval_f", "Problem.eval_f_polar", "Problem.expected_known",
    "Problem.homogeneous", "Problem.zmethod", "PizzaProblem.__init__", "PizzaProblem.a",
    "PizzaProblem.get_m1", "PizzaProblem.get_n_basis", "PizzaProblem.get_n_basis_dict", "PizzaProblem.nu",
    "PizzaProblem.set_boundary"]
  funcs := [f_problems_problem_0, f_problems_problem_1, f_problems_problem_2, f_problems_problem_3,
    f_problems_problem_4, f_problems_problem_5, f_problems_problem_6, f_problems_problem_7,
    f_problems_problem_8, f_problems_problem_9]
  body :=
    .bg [1] ;; .bg [2, 3] ;; .bg [4] ;;
    .frame [0, 1, 2, 3, 4, 5, 6, 7, 8, 9] (.st [] [] [8] ;; .st [] [] [7] ;; .st [] [] [9] ;; .st [] [] [1] ;; .st [1] [] [0] ;; .st [] [] [2] ;;
      .st [] [] [3] ;; .st [] [] [4] ;; .st [] [] [5] ;; .st [] [] [6]) ;;
    .bg [5] ;; .st [1] [] [] ;; .bg [6] ;; .st [1, 6] [] [] ;; .bg [7] ;; .st [5] [] [] ;;
    .frame [10, 11, 12, 13, 14, 15, 16] (.st [6] [] [11] ;; .st [7] [] [15] ;; .st [] [] [10] ;; .st [] [] [13] ;; .st [] [] [14] ;;
      .st [] [] [12] ;; .st [] [] [16]) ;;
    .bg [8]
  final := [0, 1, 2, 3, 4, 5, 6, 7, 8]

/-- problems/sing_ihz.py:45-61 `get_tapering_func` -/
def f_problems_sing_ihz_0 : Func where
  name := "get_tapering_func"
  locals := ["R", "r", "x", "p", "r1", "r2"]
  params := 1
  cases := [0]
  uses := [7, 13]
  body :=
    .st [7] [] [1, 2] ;; .st [7] [2] [3] ;; .st [13] [] [4] ;; .st [] [0] [5] ;; .st [] [3, 2, 1, 4, 5] [] ;;
    .ret

/-- problems/sing_ihz.py:79-90 `get_v_asympt0` -/
def f_problems_sing_ihz_1 : Func where
  name := "get_v_asympt0"
  locals := ["K", "k", "nu", "nterms", "v_asympt0", "r", "th", "kr2", "l", "x"]
  params := 4
  cases := [0]
  uses := [1, 3, 5, 7]
  body :=
    .st [] [] [4] ;; .st [7] [] [5, 6] ;; .st [] [1, 5] [7] ;; .st [1] [3] [] ;;
    .loop (.st [] [] [8] ;; .st [] [0, 2, 8] [9] ;; .st [] [4] [] ;; .st [3, 5] [8, 9, 7] [] ;; .st [] [] [4]) ;;
    .st [] [4] [] ;; .st [] [7, 0, 2] [] ;; .st [] [] [4] ;; .st [] [4] [] ;; .ret

/-- problems/sing_ihz.py:100-121 `IH_Bessel.__init__` -/
def f_problems_sing_ihz_2 : Func where
  name := "IH_Bessel.__init__"
  locals := ["self", "kwargs", "a", "nu", "k", "K", "R", "r", "th", "v_asympt01", "phi1"]
  params := 2
  cases := [0]
  uses := [1, 2, 3, 5, 7, 13, 16, 17, 19]
  body :=
    .st [] [0] [2] ;; .st [] [0] [3] ;; .st [] [0] [4] ;; .st [] [0] [5] ;; .st [] [0] [6] ;;
    .st [7] [] [7, 8] ;; .st [19] [5, 4, 3] [] ;; .loop (.call 1 [0]) ;; .st [] [] [9] ;;
    .st [19, 7, 17] [5, 4, 3, 8, 2, 6, 0] [] ;; .loop (.call 1 [0]) ;; .loop (.call 0 [0]) ;;
    .st [19, 7] [5, 4, 3, 8, 2, 0] [] ;; .loop (.call 1 [0]) ;; .st [7] [5, 3, 4, 7] [10] ;; .st [16] [] [] ;;
    .alt .any (.st [] [10] [] ;; .st [7] [7, 6] [] ;; .st [] [] [10]) .skip ;; .st [2] [8, 2, 10, 0] []

/-- problems/sing_ihz.py:123-132 `IH_Bessel.eval_v` -/
def f_problems_sing_ihz_3 : Func where
  name := "IH_Bessel.eval_v"
  locals := ["self", "r", "th", "a", "nu", "k", "K"]
  params := 3
  cases := [0]
  uses := [2, 4]
  body :=
    .st [] [0] [3] ;; .st [] [0] [4] ;; .st [] [0] [5] ;; .st [] [0] [6] ;; .st [4, 2] [6, 4, 5, 1, 2, 3] [] ;;
    .ret

/-- problems/sing_ihz.py:140-142 `IZ_Bessel.eval_phi0` -/
def f_problems_sing_ihz_4 : Func where
  name := "IZ_Bessel.eval_phi0"
  locals := ["self", "th", "r"]
  params := 2
  cases := [0]
  uses := []
  body :=
    .st [] [0, 1] [2] ;; .st [] [0, 2, 1] [] ;; .ret

/-- problems/sing_ihz.py:144-148 `IZ_Bessel.eval_phi1` -/
def f_problems_sing_ihz_5 : Func where
  name := "IZ_Bessel.eval_phi1"
  locals := ["self", "r"]
  params := 2
  cases := [0]
  uses := [2]
  body :=
    .st [] [1] [] ;; .alt .any (.st [2] [0, 1] [] ;; .ret) .ret

/-- problems/sing_ihz.py:150-151 `IZ_Bessel.eval_phi2` -/
def f_problems_sing_ihz_6 : Func where
  name := "IZ_Bessel.eval_phi2"
  locals := ["self", "r"]
  params := 2
  cases := [0]
  uses := []
  body :=
    .ret

/-- problems/sing_ihz.py:153-154 `IZ_Bessel.eval_expected_polar` -/
def f_problems_sing_ihz_7 : Func where
  name := "IZ_Bessel.eval_expected_polar"
  locals := ["self", "r", "th"]
  params := 3
  cases := [0]
  uses := []
  body :=
    .st [] [0, 1, 2] [] ;; .ret

/-- problems/sing_ihz.py:159-165 `IHZ_Bessel_Line.eval_phi0` -/
def f_problems_sing_ihz_8 : Func where
  name := "IHZ_Bessel_Line.eval_phi0"
  locals := ["self", "th", "a", "nu", "k", "r"]
  params := 2
  cases := [0]
  uses := [2, 4]
  body :=
    .st [] [0] [2] ;; .st [] [0] [3] ;; .st [] [0] [4] ;; .st [] [0, 1] [5] ;;
    .st [4, 2] [0, 3, 4, 5, 1, 2] [] ;; .ret

/-- problems/sing_ihz.py:167-176 `IHZ_Bessel_Line.eval_phi1` -/
def f_problems_sing_ihz_9 : Func where
  name := "IHZ_Bessel_Line.eval_phi1"
  locals := ["self", "r", "R", "bc"]
  params := 2
  cases := [0]
  uses := [4, 16]
  body :=
    .st [] [0] [2] ;; .st [4] [0, 1] [3] ;; .st [16] [1, 2] [] ;;
    .alt .any (.st [] [3, 1, 2] [] ;; .ret) (.st [] [1] [] ;; .alt .any (.st [] [3] [] ;; .ret) .ret)

/-- problems/sing_ihz.py:178-179 `IHZ_Bessel_Line.eval_phi2` -/
def f_problems_sing_ihz_10 : Func where
  name := "IHZ_Bessel_Line.eval_phi2"
  locals := ["self", "r"]
  params := 2
  cases := [0]
  uses := []
  body :=
    .ret

/-- problems/sing_ihz.py:187-210 `IHZ_Bessel_Quadratic.__init__` -/
def f_problems_sing_ihz_11 : Func where
  name := "IHZ_Bessel_Quadratic.__init__"
  locals := ["self", "kwargs", "a", "nu", "k", "r", "th", "v_asympt01", "v_asympt03"]
  params := 2
  cases := [0]
  uses := [1, 2, 3, 5, 7, 13, 17, 19]
  body :=
    .st [] [0] [2] ;; .st [] [0] [3] ;; .st [] [0] [4] ;; .st [7] [] [5, 6] ;; .st [19] [4, 3] [] ;;
    .loop (.call 1 [0]) ;; .st [] [] [7] ;; .st [19] [4, 3] [] ;; .loop (.call 1 [0]) ;; .st [] [] [8] ;;
    .st [7, 2, 17] [7, 3, 6, 2, 8, 0] [] ;; .loop (.call 0 [0]) ;; .st [19, 7, 2] [4, 3, 6, 2, 0] [] ;;
    .loop (.call 1 [0]) ;; .loop (.call 1 [0]) ;; .st [2, 7] [6, 2, 3, 4, 5, 0] []

/-- problems/sing_ihz.py:212-223 `IHZ_Bessel_Quadratic.eval_v` -/
def f_problems_sing_ihz_12 : Func where
  name := "IHZ_Bessel_Quadratic.eval_v"
  locals := ["self", "r", "th", "a", "nu", "k"]
  params := 3
  cases := [0]
  uses := [2, 4]
  body :=
    .st [] [0] [3] ;; .st [] [0] [4] ;; .st [] [0] [5] ;; .st [4, 2] [4, 5, 1, 2, 3] [] ;; .ret

/-- problems/sing_ihz.py:225-233 `IHZ_Bessel_Quadratic.eval_phi0` -/
def f_problems_sing_ihz_13 : Func where
  name := "IHZ_Bessel_Quadratic.eval_phi0"
  locals := ["self", "th", "a", "nu", "k", "r", "p", "lambda231_12.th"]
  params := 2
  cases := [0]
  uses := [2, 4]
  body :=
    .st [] [0] [2] ;; .st [] [0] [3] ;; .st [] [0] [4] ;; .st [] [0, 1] [5] ;;
    .loop (.frame [7] (.st [] [] [7] ;; .st [2] [7, 2] [])) ;; .st [] [] [6] ;; .st [4] [3, 4, 5, 6, 1] [] ;;
    .ret

/-- problems/sing_ihz.py:235-239 `IHZ_Bessel_Quadratic.eval_phi1` -/
def f_problems_sing_ihz_14 : Func where
  name := "IHZ_Bessel_Quadratic.eval_phi1"
  locals := ["self", "r"]
  params := 2
  cases := [0]
  uses := [4]
  body :=
    .st [] [1] [] ;; .alt .any (.st [4] [0, 1] [] ;; .ret) .ret

/-- problems/sing_ihz.py:241-245 `IHZ_Bessel_Quadratic.eval_phi2` -/
def f_problems_sing_ihz_15 : Func where
  name := "IHZ_Bessel_Quadratic.eval_phi2"
  locals := ["self", "r"]
  params := 2
  cases := [0]
  uses := [4]
  body :=
    .st [] [1] [] ;; .alt .any (.st [4] [0, 1] [] ;; .ret) .ret

/-- problems/sing_ihz.py:1-245 -/
def m_problems_sing_ihz : Module where
  file := "problems/sing_ihz.py"
  globals := ["print", "range", "np", "factorial", "jv", "gamma", "scipy", "sympy", "domain_util", "functions",
    "SingularKnown", "SympyProblem", "PizzaProblem", "ZMethod", "_n_basis_dict", "_nterms", "alt_phi1_ext",
    "get_tapering_func", "SingIH_Problem", "get_v_asympt0", "IH_Bessel", "IZ_Bessel", "IHZ_Bessel_Line",
    "IHZ_Bessel_Quadratic"]
  init := 2
  locals := ["SingIH_Problem.m1_dict", "SingIH_Problem.n_basis_dict", "SingIH_Problem.zmethod", "IH_Bessel.K",
    "IH_Bessel.__init__", "IH_Bessel.eval_v", "IH_Bessel.expected_known", "IH_Bessel.k",
    "IZ_Bessel.eval_expected_polar", "IZ_Bessel.eval_phi0", "IZ_Bessel.eval_phi1", "IZ_Bessel.eval_phi2",
    "IHZ_Bessel_Line.eval_phi0", "IHZ_Bessel_Line.eval_phi1", "IHZ_Bessel_Line.eval_phi2",
    "IHZ_Bessel_Quadratic.__init__", "IHZ_Bessel_Quadratic.eval_phi0", "IHZ_Bessel_Quadratic.eval_phi1",
    "IHZ_Bessel_Quadratic.eval_phi2", "IHZ_Bessel_Quadratic.eval_v", "IHZ_Bessel_Quadratic.expected_known",
    "IHZ_Bessel_Quadratic.k"]
  funcs := [f_problems_sing_ihz_0, f_problems_sing_ihz_1, f_problems_sing_ihz_2, f_problems_sing_ihz_3,
    f_problems_sing_ihz_4, f_problems_sing_ihz_5, f_problems_sing_ihz_6, f_problems_sing_ihz_7,
    f_problems_sing_ihz_8, f_problems_sing_ihz_9, f_problems_sing_ihz_10, f_problems_sing_ihz_11,
    f_problems_sing_ihz_12, f_problems_sing_ihz_13, f_problems_sing_ihz_14, f_problems_sing_ihz_15]
  body :=
    .bg [2] ;; .bg [3] ;; .bg [4, 5] ;; .bg [6] ;; .bg [7] ;; .bg [8] ;; .bg [9] ;; .bg [10] ;; .bg [11] ;;
    .bg [12] ;; .bg [13] ;; .bg [14] ;; .bg [15] ;; .st [0, 15] [] [] ;; .bg [16] ;; .st [0, 16] [] [] ;;
    .bg [17] ;; .st [12] [] [] ;; .frame [0, 1, 2] (.st [] [] [2] ;; .st [14] [] [1] ;; .st [] [] [0]) ;;
    .bg [18] ;; .st [15] [] [] ;; .bg [19] ;; .st [18] [] [] ;;
    .frame [3, 4, 5, 6, 7] (.st [] [] [7] ;; .st [] [] [6] ;; .st [] [] [3] ;; .st [] [] [4] ;; .st [] [] [5]) ;;
    .bg [20] ;; .st [20] [] [] ;;
    .frame [8, 9, 10, 11] (.st [] [] [9] ;; .st [] [] [10] ;; .st [] [] [11] ;; .st [] [] [8]) ;; .bg [21] ;;
    .st [20] [] [] ;; .frame [12, 13, 14] (.st [] [] [12] ;; .st [] [] [13] ;; .st [] [] [14]) ;; .bg [22] ;;
    .st [18] [] [] ;;
    .frame [15, 16, 17, 18, 19, 20, 21] (.st [] [] [21] ;; .st [] [] [20] ;; .st [] [] [15] ;; .st [] [] [19] ;; .st [] [] [16] ;;
      .st [] [] [17] ;; .st [] [] [18]) ;;
    .bg [23]
  final := [0, 1, 2, 3, 4, 5, 6, 7, 8, 9, 10, 11, 12, 13, 14, 15, 16, 17, 18, 19, 20, 21, 22, 23]

/-- problems/singular.py:29-39 `SingularKnown.__init__` -/
def f_problems_singular_0 : Func where
  name := "SingularKnown.__init__"
  locals := ["self", "kwargs", "lambda35_26.th"]
  params := 2
  cases := [0]
  uses := [0, 7, 8]
  body :=
    .st [0] [1] [] ;; .st [] [1] [] ;;
    .alt .any (.st [] [1, 0] []) (.st [] [0] [] ;; .loop (.frame [2] (.st [] [] [2]))) ;; .st [7] [0] [] ;;
    .st [8] [0] []

/-- problems/singular.py:42-53 `SingularKnown.eval_expected_polar` -/
def f_problems_singular_1 : Func where
  name := "SingularKnown.eval_expected_polar"
  locals := ["self", "r", "th", "k", "a", "nu", "R", "u", "m", "ac"]
  params := 3
  cases := [0]
  uses := [1, 3, 5]
  body :=
    .st [] [0] [3] ;; .st [] [0] [4] ;; .st [] [0] [5] ;; .st [] [0] [6] ;; .st [] [0, 1, 2] [7] ;;
    .st [1] [0] [] ;;
    .loop (.st [] [] [8] ;; .st [] [0, 8] [9] ;; .st [] [7] [] ;; .st [5, 3] [9, 8, 5, 3, 1, 2, 4] [] ;;
      .st [] [] [7]) ;;
    .st [] [7] [] ;; .ret

/-- problems/singular.py:55-60 `SingularKnown.eval_expected__no_w` -/
def f_problems_singular_2 : Func where
  name := "SingularKnown.eval_expected__no_w"
  locals := ["self", "r", "th"]
  params := 3
  cases := [0]
  uses := []
  body :=
    .ret

/-- problems/singular.py:1-60 -/
def m_problems_singular : Module where
  file := "problems/singular.py"
  globals := ["super", "range", "enum", "np", "dst", "jv", "domain_util", "fourier", "abcoef", "PizzaProblem",
    "SingularProblem", "SingularKnown"]
  init := 2
  locals := ["SingularKnown.__init__", "SingularKnown.eval_expected__no_w", "SingularKnown.eval_expected_polar",
    "SingularKnown.m_max"]
  funcs := [f_problems_singular_0, f_problems_singular_1, f_problems_singular_2]
  body :=
    .bg [2] ;; .bg [3] ;; .bg [4] ;; .bg [5] ;; .bg [6] ;; .bg [7] ;; .bg [8] ;; .bg [9] ;; .st [9] [] [] ;;
    .frame [] .skip ;; .bg [10] ;; .st [10] [] [] ;;
    .frame [0, 1, 2, 3] (.st [] [] [3] ;; .st [] [] [0] ;; .st [] [] [2] ;; .st [] [] [1]) ;; .bg [11]
  final := [0, 1, 2, 3, 4, 5, 6, 7, 8, 9, 10, 11]

/-- problems/smooth.py:26-31 `SmoothProblem.eval_bc` -/
def f_problems_smooth_0 : Func where
  name := "SmoothProblem.eval_bc"
  locals := ["self", "arg", "sid", "r", "th"]
  params := 3
  cases := [0]
  uses := [5]
  body :=
    .st [5] [0, 1, 2] [3, 4] ;; .st [] [0, 3, 4] [] ;; .ret

/-- problems/smooth.py:33-52 `SmoothProblem.eval_d_u_outwards`; the parameter is sid -/
def f_problems_smooth_1 : Func where
  name := "SmoothProblem.eval_d_u_outwards"
  locals := ["self", "arg", "sid", "k", "a", "r", "th", "x", "y", "grad", "normal"]
  params := 3
  cases := [0, 1, 2]
  uses := [1, 5]
  body :=
    .st [] [0] [3] ;; .st [] [0] [4] ;; .st [5] [0, 4, 1, 2] [5, 6] ;; .st [1] [5, 6] [7, 8] ;;
    .st [] [0, 7, 8] [9] ;; .st [] [2] [] ;;
    .alt (.on [0])
      (.st [] [0, 6] [10])
      (.st [] [2] [] ;;
      .alt (.on [1]) (.st [] [] [10]) (.st [] [2] [] ;; .alt (.on [2]) (.st [1] [4] [10]) .skip)) ;;
    .st [1] [9, 10] [] ;; .ret

/-- problems/smooth.py:59-60 `Smooth_Sine.eval_expected` -/
def f_problems_smooth_2 : Func where
  name := "Smooth_Sine.eval_expected"
  locals := ["self", "x", "y"]
  params := 3
  cases := [0]
  uses := [1]
  body :=
    .st [1] [0, 1] [] ;; .ret

/-- problems/smooth.py:62-64 `Smooth_Sine.get_grad` -/
def f_problems_smooth_3 : Func where
  name := "Smooth_Sine.get_grad"
  locals := ["self", "x", "y", "k"]
  params := 3
  cases := [0]
  uses := [1]
  body :=
    .st [] [0] [3] ;; .st [1] [3, 1] [] ;; .ret

/-- problems/smooth.py:71-77 `Smooth_E.eval_expected` -/
def f_problems_smooth_4 : Func where
  name := "Smooth_E.eval_expected"
  locals := ["self", "x", "y", "k", "kx", "ky"]
  params := 3
  cases := [0]
  uses := [1]
  body :=
    .st [] [0] [3] ;; .st [] [3, 0] [4] ;; .st [] [3, 0] [5] ;; .st [1] [4, 1, 5, 2] [] ;; .ret

/-- problems/smooth.py:79-84 `Smooth_E.get_grad` -/
def f_problems_smooth_5 : Func where
  name := "Smooth_E.get_grad"
  locals := ["self", "x", "y", "kx", "ky", "u"]
  params := 3
  cases := [0]
  uses := [1]
  body :=
    .st [] [0] [3] ;; .st [] [0] [4] ;; .st [1] [3, 1, 4, 2] [5] ;; .st [] [3, 5, 4] [] ;; .ret

/-- problems/smooth.py:94-99 `Smooth_YCos.__init__` -/
def f_problems_smooth_6 : Func where
  name := "Smooth_YCos.__init__"
  locals := ["self", "kwargs", "k", "r", "th", "sin", "cos"]
  params := 2
  cases := [0]
  uses := [0, 4]
  body :=
    .st [4] [] [2, 3, 4] ;; .st [4] [] [5] ;; .st [4] [] [6] ;; .st [] [2, 3, 5, 4, 6, 1] [] ;; .st [0] [1] []

/-- problems/smooth.py:101-102 `Smooth_YCos.eval_expected` -/
def f_problems_smooth_7 : Func where
  name := "Smooth_YCos.eval_expected"
  locals := ["self", "x", "y"]
  params := 3
  cases := [0]
  uses := [1]
  body :=
    .st [1] [2, 1] [] ;; .ret

/-- problems/smooth.py:104-105 `Smooth_YCos.get_grad` -/
def f_problems_smooth_8 : Func where
  name := "Smooth_YCos.get_grad"
  locals := ["self", "x", "y"]
  params := 3
  cases := [0]
  uses := [1]
  body :=
    .st [1] [2, 1] [] ;; .ret

/-- problems/smooth.py:1-105 -/
def m_problems_smooth : Module where
  file := "problems/smooth.py"
  globals := ["super", "np", "jv", "jvp", "sympy", "domain_util", "PizzaProblem", "SympyProblem", "SmoothProblem",
    "Smooth_Sine", "Smooth_E", "Smooth_YCos"]
  init := 1
  locals := ["SmoothProblem.eval_bc", "SmoothProblem.eval_d_u_outwards", "SmoothProblem.expected_known",
    "SmoothProblem.k", "SmoothProblem.n_basis_dict", "Smooth_Sine.eval_expected", "Smooth_Sine.get_grad",
    "Smooth_Sine.homogeneous", "Smooth_E.eval_expected", "Smooth_E.get_grad", "Smooth_E.homogeneous",
    "Smooth_YCos.__init__", "Smooth_YCos.eval_expected", "Smooth_YCos.get_grad"]
  funcs := [f_problems_smooth_0, f_problems_smooth_1, f_problems_smooth_2, f_problems_smooth_3,
    f_problems_smooth_4, f_problems_smooth_5, f_problems_smooth_6, f_problems_smooth_7,
    f_problems_smooth_8]
  body :=
    .bg [1] ;; .bg [2, 3] ;; .bg [4] ;; .bg [5] ;; .bg [6] ;; .bg [7] ;; .st [6] [] [] ;;
    .frame [0, 1, 2, 3, 4] (.st [] [] [2] ;; .st [] [] [3] ;; .st [] [] [4] ;; .st [] [] [0] ;; .st [] [] [1]) ;;
    .bg [8] ;; .st [8] [] [] ;; .frame [5, 6, 7] (.st [] [] [7] ;; .st [] [] [5] ;; .st [] [] [6]) ;;
    .bg [9] ;; .st [8] [] [] ;; .frame [8, 9, 10] (.st [] [] [10] ;; .st [] [] [8] ;; .st [] [] [9]) ;;
    .bg [10] ;; .st [7, 8] [] [] ;; .frame [11, 12, 13] (.st [] [] [11] ;; .st [] [] [12] ;; .st [] [] [13]) ;;
    .bg [11]
  final := [0, 1, 2, 3, 4, 5, 6, 7, 8, 9, 10, 11]

/-- problems/sympy_problem.py:21-42 `SympyProblem.__init__` -/
def f_problems_sympy_problem_0 : Func where
  name := "SympyProblem.__init__"
  locals := ["self", "kwargs", "f", "r", "th", "args"]
  params := 2
  cases := [0]
  uses := [0, 5, 6]
  body :=
    .st [] [1] [2] ;; .st [0] [1] [] ;; .st [5] [] [3, 4] ;; .st [] [3, 4] [5] ;; .st [] [0] [] ;;
    .st [] [0] [] ;; .st [6] [5, 2, 0] [] ;; .st [] [0, 2] []

/-- problems/sympy_problem.py:44-49 `SympyProblem.build_sympy_subs_dict` -/
def f_problems_sympy_problem_1 : Func where
  name := "SympyProblem.build_sympy_subs_dict"
  locals := ["self"]
  params := 1
  cases := [0]
  uses := []
  body :=
    .st [] [0] []

/-- problems/sympy_problem.py:51-73 `SympyProblem.do_diff` -/
def f_problems_sympy_problem_2 : Func where
  name := "SympyProblem.do_diff"
  locals := ["self", "f", "r", "th", "args", "subs_dict", "d_f_r", "d2_f_r", "d_f_th", "d2_f_th", "d2_f_r_th"]
  params := 2
  cases := [0]
  uses := [5, 6, 7]
  body :=
    .st [5] [] [2, 3] ;; .st [] [2, 3] [4] ;; .st [] [0] [5] ;; .st [7] [1, 2] [6] ;;
    .st [6] [4, 6, 5, 0] [] ;; .st [7] [6, 2] [7] ;; .st [6] [4, 7, 5, 0] [] ;; .st [7] [1, 3] [8] ;;
    .st [6] [4, 8, 5, 0] [] ;; .st [7] [8, 3] [9] ;; .st [6] [4, 9, 5, 0] [] ;; .st [7] [6, 3] [10] ;;
    .st [6] [4, 10, 5, 0] []

/-- problems/sympy_problem.py:75-94 `SympyProblem.eval_f_polar` -/
def f_problems_sympy_problem_3 : Func where
  name := "SympyProblem.eval_f_polar"
  locals := ["self", "r", "th", "h", "hessian_f", "grad_f", "f"]
  params := 3
  cases := [0]
  uses := []
  body :=
    .st [] [1] [] ;;
    .alt .any
      (.st [] [0] [3] ;; .st [] [0, 3] [4] ;; .st [] [0, 3] [5] ;; .st [] [5] [] ;; .st [] [3, 4] [] ;;
      .st [] [] [5] ;; .st [] [0, 3] [6] ;; .st [] [6] [] ;; .st [] [3, 5] [] ;; .st [] [] [6] ;;
      .st [] [6] [] ;; .st [] [3, 4] [] ;; .st [] [] [6] ;; .st [] [6] [] ;; .ret)
      (.st [] [0, 1, 2] [] ;; .ret)

/-- problems/sympy_problem.py:96-101 `SympyProblem.eval_grad_f` -/
def f_problems_sympy_problem_4 : Func where
  name := "SympyProblem.eval_grad_f"
  locals := ["self", "x", "y"]
  params := 3
  cases := [0]
  uses := [3]
  body :=
    .st [3] [0, 1, 2] [] ;; .ret

/-- problems/sympy_problem.py:103-110 `SympyProblem.eval_grad_f_polar` -/
def f_problems_sympy_problem_5 : Func where
  name := "SympyProblem.eval_grad_f_polar"
  locals := ["self", "r", "th", "d_f_r", "d_f_th", "d_f_x", "d_f_y"]
  params := 3
  cases := [0]
  uses := [1]
  body :=
    .st [] [0, 1, 2] [3] ;; .st [] [0, 1, 2] [4] ;; .st [1] [3, 2, 4, 1] [5] ;; .st [1] [3, 2, 4, 1] [6] ;;
    .st [1] [5, 6] [] ;; .ret

/-- problems/sympy_problem.py:112-117 `SympyProblem.eval_hessian_f` -/
def f_problems_sympy_problem_6 : Func where
  name := "SympyProblem.eval_hessian_f"
  locals := ["self", "x", "y"]
  params := 3
  cases := [0]
  uses := [3]
  body :=
    .st [3] [0, 1, 2] [] ;; .ret

/-- problems/sympy_problem.py:119-155 `SympyProblem.eval_hessian_f_polar` -/
def f_problems_sympy_problem_7 : Func where
  name := "SympyProblem.eval_hessian_f_polar"
  locals := ["self", "r", "th", "d_f_r", "d_f_th", "d2_f_r", "d2_f_r_th", "d2_f_th", "d_f_x_r", "d_f_x_th", "d2_f_x",
    "d2_f_x_y", "d_f_y_r", "d_f_y_th", "d2_f_y"]
  params := 3
  cases := [0]
  uses := [1]
  body :=
    .st [] [0, 1, 2] [3] ;; .st [] [0, 1, 2] [4] ;; .st [] [0, 1, 2] [5] ;; .st [] [0, 1, 2] [6] ;;
    .st [] [0, 1, 2] [7] ;; .st [1] [5, 2] [8] ;; .st [] [8] [] ;; .st [1] [6, 2, 1] [] ;; .st [] [] [8] ;;
    .st [] [8] [] ;; .st [1] [4, 2, 1] [] ;; .st [] [] [8] ;; .st [1] [6, 2] [9] ;; .st [] [9] [] ;;
    .st [1] [3, 2] [] ;; .st [] [] [9] ;; .st [] [9] [] ;; .st [1] [7, 2, 1] [] ;; .st [] [] [9] ;;
    .st [] [9] [] ;; .st [1] [4, 2, 1] [] ;; .st [] [] [9] ;; .st [1] [8, 2, 9, 1] [10] ;;
    .st [1] [8, 2, 9, 1] [11] ;; .st [1] [5, 2] [12] ;; .st [] [12] [] ;; .st [1] [6, 2, 1] [] ;;
    .st [] [] [12] ;; .st [] [12] [] ;; .st [1] [4, 2, 1] [] ;; .st [] [] [12] ;; .st [1] [6, 2] [13] ;;
    .st [] [13] [] ;; .st [1] [3, 2] [] ;; .st [] [] [13] ;; .st [] [13] [] ;; .st [1] [7, 2, 1] [] ;;
    .st [] [] [13] ;; .st [] [13] [] ;; .st [1] [4, 2, 1] [] ;; .st [] [] [13] ;;
    .st [1] [12, 2, 13, 1] [14] ;; .st [1] [10, 11, 14] [] ;; .ret

/-- problems/sympy_problem.py:1-155 -/
def m_problems_sympy_problem : Module where
  file := "problems/sympy_problem.py"
  globals := ["super", "np", "scipy", "cart_to_polar", "SympyProblem", "symbols", "lambdify", "diff"]
  init := 1
  locals := ["SympyProblem.__init__", "SympyProblem.build_sympy_subs_dict", "SympyProblem.do_diff",
    "SympyProblem.eval_f_polar", "SympyProblem.eval_grad_f", "SympyProblem.eval_grad_f_polar",
    "SympyProblem.eval_hessian_f", "SympyProblem.eval_hessian_f_polar", "SympyProblem.lambdify_modules"]
  funcs := [f_problems_sympy_problem_0, f_problems_sympy_problem_1, f_problems_sympy_problem_2,
    f_problems_sympy_problem_3, f_problems_sympy_problem_4, f_problems_sympy_problem_5,
    f_problems_sympy_problem_6, f_problems_sympy_problem_7]
  body :=
    .bg [5, 6, 7] ;; .bg [1] ;; .bg [2] ;; .bg [3] ;;
    .frame [0, 1, 2, 3, 4, 5, 6, 7, 8] (.st [2] [] [8] ;; .st [] [] [0] ;; .st [] [] [1] ;; .st [] [] [2] ;; .st [] [] [3] ;; .st [] [] [4] ;;
      .st [] [] [5] ;; .st [] [] [6] ;; .st [] [] [7]) ;;
    .bg [4]
  final := [0, 1, 2, 3, 4, 5, 6, 7]

/-- scripts/abcoef/bet_generate.py:41-43 `eval_phi0` -/
def f_scripts_abcoef_bet_generate_0 : Func where
  name := "eval_phi0"
  locals := ["th", "r"]
  params := 1
  cases := [0]
  uses := [16, 27]
  body :=
    .st [27] [0] [1] ;; .st [16] [1, 0] [] ;; .ret

/-- scripts/abcoef/bet_generate.py:45-68 `test_many` -/
def f_scripts_abcoef_bet_generate_1 : Func where
  name := "test_many"
  locals := ["bet", "max_i", "i", "result_dict", "a_coef", "singular_vals"]
  params := 0
  cases := [0]
  uses := [0, 2, 3, 4, 7, 11, 13, 16, 17, 18, 19, 21, 24]
  body :=
    .st [] [] [0] ;; .st [] [] [1] ;; .st [2] [1] [] ;;
    .loop (.st [] [] [2] ;; .st [] [] [3] ;; .st [] [0, 3] [] ;; .st [17, 21] [0] [] ;; .bg [27] ;;
      .st [27, 16] [] [] ;; .st [18] [] [] ;;
      .alt .any (.st [16] [] [] ;; .bg [18] ;; .st [18, 19] [] []) .skip ;;
      .st [11, 16, 27, 24, 13, 18] [] [] ;; .loop (.call 0 [0]) ;; .st [] [] [4, 5] ;;
      .st [3, 7, 16] [4, 3] [] ;; .st [3] [5, 3] [] ;; .st [] [0] [] ;; .st [] [] [0] ;; .st [19] [3] [] ;;
      .st [0, 4] [2, 1] [])

/-- scripts/abcoef/bet_generate.py:1-76 -/
def m_scripts_abcoef_bet_generate : Module where
  file := "scripts/abcoef/bet_generate.py"
  globals := ["print", "open", "range", "list", "int", "sys", "argparse", "np", "scipy", "io_util", "problems",
    "calc_a_coef", "json", "M", "parser", "args", "problem", "boundary_cls", "m1", "output", "k", "R", "a",
    "nu", "eval_phi0", "test_many", "outfile", "boundary"]
  init := 5
  locals := []
  funcs := [f_scripts_abcoef_bet_generate_0, f_scripts_abcoef_bet_generate_1]
  body :=
    .bg [5] ;; .st [5] [] [] ;; .bg [6] ;; .bg [7] ;; .bg [8] ;; .bg [9] ;; .bg [10] ;; .bg [10] ;; .bg [11] ;;
    .bg [12] ;; .bg [13] ;; .st [6] [] [] ;; .bg [14] ;; .st [9, 14] [] [] ;; .st [14] [] [] ;; .bg [15] ;;
    .st [10, 15] [] [] ;; .bg [16] ;; .st [10, 15] [] [] ;; .bg [17] ;; .bg [18] ;; .bg [19] ;;
    .st [16, 19] [] [] ;; .st [16, 19] [] [] ;; .st [13, 19] [] [] ;; .st [19] [] [] ;; .st [16] [] [] ;;
    .bg [20] ;; .st [16] [] [] ;; .bg [21] ;; .st [16] [] [] ;; .bg [22] ;; .st [16] [] [] ;; .bg [23] ;;
    .bg [24] ;; .bg [25] ;; .st [25] [] [] ;; .loop (.call 1 [0]) ;; .st [0] [] [] ;; .st [1, 5] [] [] ;;
    .bg [26] ;; .st [12, 19, 26] [] [] ;; .st [0] [] []
  final := [0, 1, 2, 3, 4, 5, 6, 7, 8, 9, 10, 11, 12, 13, 14, 15, 16, 17, 18, 19, 20, 21, 22, 23, 24, 25, 26]

/-- scripts/abcoef/bet_plot.py:1-46 -/
def m_scripts_abcoef_bet_plot : Module where
  file := "scripts/abcoef/bet_plot.py"
  globals := ["len", "open", "sys", "np", "plt", "json", "m", "filename", "obj", "bet", "a_error", "last_sing",
    "datum", "color1", "color2", "fs"]
  init := 2
  locals := []
  funcs := []
  body :=
    .bg [2] ;; .bg [3] ;; .bg [4] ;; .bg [5] ;; .bg [6] ;; .st [0, 2] [] [] ;;
    .alt .any (.st [2] [] [] ;; .bg [7]) (.bg [7]) ;; .st [5, 1, 7] [] [] ;; .bg [8] ;; .bg [9] ;; .bg [10] ;;
    .bg [11] ;; .st [8] [] [] ;;
    .loop (.bg [12] ;; .st [9, 12] [] [] ;; .st [10, 12, 6] [] [] ;; .st [11, 12] [] []) ;; .bg [13] ;;
    .bg [14] ;; .st [4, 3, 9, 10, 13, 6] [] [] ;; .st [4, 3, 9, 11, 14] [] [] ;; .st [4] [] [] ;;
    .st [4] [] [] ;; .bg [15] ;; .st [4, 15] [] [] ;; .st [4, 15] [] [] ;; .st [4] [] [] ;; .st [4] [] []
  final := [0, 1, 2, 3, 4, 5, 6, 7, 8, 9, 10, 11, 13, 14, 15]

/-- scripts/abcoef/expansion_error.py:28-35 `b_expan` -/
def f_scripts_abcoef_expansion_error_0 : Func where
  name := "b_expan"
  locals := ["th", "expan", "m", "b"]
  params := 1
  cases := [0]
  uses := [1, 3, 9, 12, 14, 15]
  body :=
    .st [] [] [1] ;; .st [1, 9] [] [] ;;
    .loop (.st [] [] [2] ;; .st [12] [2] [3] ;; .st [] [1] [] ;; .st [3, 15, 14] [3, 2, 0] [] ;; .st [] [] [1]) ;;
    .st [] [1] [] ;; .ret

/-- scripts/abcoef/expansion_error.py:1-60 -/
def m_scripts_abcoef_expansion_error : Module where
  file := "scripts/abcoef/expansion_error.py"
  globals := ["print", "range", "sys", "np", "jv", "plt", "problems", "calc_a_coef", "problem_list", "m_max",
    "b_expan", "problem_name", "problem", "k", "a", "nu", "boundary", "b_error_list", "th"]
  init := 2
  locals := []
  funcs := [f_scripts_abcoef_expansion_error_0]
  body :=
    .bg [2] ;; .st [2] [] [] ;; .bg [3] ;; .bg [4] ;; .bg [5] ;; .bg [6] ;; .bg [6] ;; .bg [7] ;; .bg [8] ;;
    .bg [9] ;; .bg [10] ;; .st [8] [] [] ;;
    .loop (.bg [11] ;; .st [0, 11] [] [] ;; .st [6, 11] [] [] ;; .bg [12] ;; .st [12] [] [] ;; .bg [13] ;;
      .st [12] [] [] ;; .bg [14] ;; .st [12] [] [] ;; .bg [15] ;; .st [6, 12] [] [] ;; .bg [16] ;;
      .st [16, 12] [] [] ;; .bg [17] ;; .st [3, 12] [] [] ;;
      .loop (.bg [18] ;; .st [17, 12, 18, 10] [] [] ;; .loop (.call 0 [0])) ;; .st [0, 3, 17] [] [] ;;
      .st [0] [] [])
  final := [0, 1, 2, 3, 4, 5, 6, 7, 8, 9, 10]

/-- scripts/abcoef/generate_data.py:26-28 `to_basic_list` -/
def f_scripts_abcoef_generate_data_0 : Func where
  name := "to_basic_list"
  locals := ["array"]
  params := 1
  cases := [0]
  uses := [7, 11, 12]
  body :=
    .st [11, 12] [0] [] ;; .st [7, 12] [0] [] ;; .ret

/-- scripts/abcoef/generate_data.py:30-32 `eval_phi0` -/
def f_scripts_abcoef_generate_data_1 : Func where
  name := "eval_phi0"
  locals := ["th", "r"]
  params := 1
  cases := [0]
  uses := [25, 28]
  body :=
    .st [28] [0] [1] ;; .st [25] [1, 0] [] ;; .ret

/-- scripts/abcoef/generate_data.py:1-82 -/
def m_scripts_abcoef_generate_data : Module where
  file := "scripts/abcoef/generate_data.py"
  globals := ["range", "len", "abs", "float", "print", "int", "open", "list", "sys", "json", "it", "np", "scipy",
    "problems", "calc_a_coef", "M", "output", "problem_list", "boundary_list", "m1_list", "n_tests",
    "to_basic_list", "eval_phi0", "n_done", "problem_name", "problem", "problem_results", "boundary_name",
    "boundary", "boundary_results", "max_series_error", "th", "series_error", "min_error7", "m1", "a_coef",
    "singular_vals", "error7", "progress", "outfile"]
  init := 8
  locals := []
  funcs := [f_scripts_abcoef_generate_data_0, f_scripts_abcoef_generate_data_1]
  body :=
    .bg [8] ;; .st [8] [] [] ;; .bg [9] ;; .bg [10] ;; .bg [11] ;; .bg [12] ;; .bg [13] ;; .bg [13] ;;
    .bg [14] ;; .bg [15] ;; .bg [16] ;; .bg [17] ;; .st [13] [] [] ;; .bg [18] ;; .st [0] [] [] ;; .bg [19] ;;
    .st [1, 17, 18, 19] [] [] ;; .bg [20] ;; .bg [21] ;; .bg [22] ;; .bg [23] ;; .st [17] [] [] ;;
    .loop (.bg [24] ;; .st [13, 24] [] [] ;; .bg [25] ;; .st [25] [] [] ;; .bg [26] ;; .st [26, 16, 24] [] [] ;;
      .st [18] [] [] ;;
      .loop (.bg [27] ;; .st [13, 27, 25] [] [] ;; .bg [28] ;; .st [28, 25] [] [] ;; .st [28] [] [] ;; .bg [29] ;;
        .st [29, 26, 27] [] [] ;; .st [28] [] [] ;;
        .alt .any
          (.bg [30] ;; .st [11, 25] [] [] ;;
          .loop (.bg [31] ;; .st [2, 25, 31] [] [] ;; .bg [32] ;; .st [32, 30] [] [] ;;
            .alt .any (.st [32] [] [] ;; .bg [30]) .skip) ;;
          .st [30, 26] [] [])
          .skip ;;
        .st [3] [] [] ;; .bg [33] ;; .st [19] [] [] ;;
        .loop (.bg [34] ;; .st [14, 25, 28, 22, 15, 34] [] [] ;; .loop (.call 1 [0]) ;; .bg [35, 36] ;;
          .st [11, 35, 25, 15] [] [] ;; .bg [37] ;; .st [37, 33] [] [] ;;
          .alt .any
            (.st [37] [] [] ;; .bg [33] ;; .st [34, 29] [] [] ;; .st [21, 35, 29] [] [] ;;
            .loop (.call 0 [0]) ;; .st [21, 25, 15, 29] [] [] ;; .loop (.call 0 [0]) ;;
            .st [21, 35, 25, 15, 29] [] [] ;; .loop (.call 0 [0]) ;; .st [37, 29] [] [])
            .skip ;;
          .st [23] [] [] ;; .bg [23] ;; .st [23, 20] [] [] ;; .bg [38] ;; .st [4, 5, 38] [] []))) ;;
    .st [4] [] [] ;; .st [6, 8] [] [] ;; .bg [39] ;; .st [9, 16, 39] [] [] ;; .st [4] [] []
  final := [0, 1, 2, 3, 4, 5, 6, 7, 8, 9, 10, 11, 12, 13, 14, 15, 16, 17, 18, 19, 20, 21, 22, 23, 39]

/-- scripts/abcoef/generate_data2.py:21-65 `go` -/
def f_scripts_abcoef_generate_data2_0 : Func where
  name := "go"
  locals := ["problem_name", "boundary_name", "output", "to_basic_list", "to_basic_list.array", "eval_phi0",
    "eval_phi0.th", "eval_phi0.r", "problem", "boundary", "m1", "a_coef", "singular_vals", "error",
    "progress", "fname", "outfile"]
  params := 2
  cases := [0]
  uses := [2, 3, 4, 5, 6, 7, 9, 10, 11, 12, 13, 14, 18, 19]
  body :=
    .st [] [] [2] ;; .st [] [] [3] ;; .st [] [] [5] ;; .st [11] [0] [8] ;; .st [11] [1, 8] [9] ;;
    .st [] [9, 8] [] ;; .st [] [0, 8, 1, 9] [2] ;; .st [18] [] [] ;;
    .loop (.st [] [] [10] ;; .st [12, 13] [8, 9, 5, 10] [] ;;
      .loop (.frame [6, 7] (.st [] [] [6] ;; .st [] [9, 6] [7] ;; .st [] [8, 7, 6] [] ;; .ret)) ;;
      .st [] [] [11, 12] ;; .st [13] [11, 8] [13] ;; .st [] [2, 10] [] ;; .st [9] [2, 3, 13] [] ;;
      .loop (.frame [4] (.st [] [] [4] ;; .st [9, 10] [4] [] ;; .st [3, 10] [4] [] ;; .ret)) ;;
      .st [] [2, 3, 12] [] ;;
      .loop (.frame [4] (.st [] [] [4] ;; .st [9, 10] [4] [] ;; .st [3, 10] [4] [] ;; .ret)) ;;
      .st [14] [] [] ;; .bg [14] ;; .st [14, 19] [] [14] ;; .st [2, 4] [14] []) ;;
    .st [] [0, 1, 8] [15] ;; .st [5, 6] [15] [16] ;; .st [7] [2, 16] []

/-- scripts/abcoef/generate_data2.py:1-76 -/
def m_scripts_abcoef_generate_data2 : Module where
  file := "scripts/abcoef/generate_data2.py"
  globals := ["range", "len", "print", "list", "int", "open", "sys", "json", "it", "np", "scipy", "problems",
    "calc_a_coef", "M", "n_done", "go", "_problems", "_boundaries", "m1_list", "n_tests", "problem_name",
    "boundary_name"]
  init := 6
  locals := []
  funcs := [f_scripts_abcoef_generate_data2_0]
  body :=
    .bg [6] ;; .st [6] [] [] ;; .bg [7] ;; .bg [8] ;; .bg [9] ;; .bg [10] ;; .bg [11] ;; .bg [11] ;;
    .bg [12] ;; .bg [6] ;; .bg [13] ;; .bg [14] ;; .bg [15] ;; .bg [16] ;; .bg [17] ;; .st [0] [] [] ;;
    .bg [18] ;; .st [1, 18, 16, 17] [] [] ;; .bg [19] ;; .st [16] [] [] ;;
    .loop (.bg [20] ;; .st [17] [] [] ;; .loop (.bg [21] ;; .st [15, 20, 21] [] [] ;; .loop (.call 0 [0]))) ;;
    .st [2] [] []
  final := [0, 1, 2, 3, 4, 5, 6, 7, 8, 9, 10, 11, 12, 13, 14, 15, 16, 17, 18, 19]

/-- scripts/abcoef/generate_report.py:12-20 `create_header` -/
def f_scripts_abcoef_generate_report_0 : Func where
  name := "create_header"
  locals := ["max_error", "m"]
  params := 1
  cases := [0]
  uses := [4, 8, 17]
  body :=
    .st [17] [] [] ;; .bg [17] ;; .st [4, 8] [] [] ;;
    .loop (.st [] [] [1] ;; .st [17] [] [] ;; .st [] [1] [] ;; .bg [17]) ;; .st [] [0] [] ;;
    .alt .any (.st [17] [] [] ;; .bg [17]) .skip ;; .st [17] [] [] ;; .bg [17]

/-- scripts/abcoef/generate_report.py:22-29 `create_row` -/
def f_scripts_abcoef_generate_report_1 : Func where
  name := "create_row"
  locals := ["label", "array", "num"]
  params := 2
  cases := [0]
  uses := [9, 17]
  body :=
    .st [17] [] [] ;; .st [] [0] [] ;; .bg [17] ;; .st [] [1] [] ;;
    .loop (.st [] [] [2] ;; .st [17] [] [] ;; .st [9] [2] [] ;; .bg [17]) ;; .st [17] [] [] ;; .bg [17]

/-- scripts/abcoef/generate_report.py:1-100 -/
def m_scripts_abcoef_generate_report : Module where
  file := "scripts/abcoef/generate_report.py"
  globals := ["len", "open", "str", "print", "range", "json", "datetime", "sys", "M", "prec_str", "problem_list",
    "boundary_list", "create_header", "create_row", "filename", "all_data", "title", "out", "problem",
    "problem_data", "boundary", "data", "outfile_path", "outfile"]
  init := 5
  locals := []
  funcs := [f_scripts_abcoef_generate_report_0, f_scripts_abcoef_generate_report_1]
  body :=
    .bg [5] ;; .bg [6] ;; .bg [7] ;; .bg [8] ;; .bg [9] ;; .bg [10] ;; .bg [11] ;; .bg [12] ;; .bg [13] ;;
    .st [0, 7] [] [] ;; .alt .any (.st [7] [] [] ;; .bg [14]) (.bg [14]) ;; .st [5, 1, 14] [] [] ;; .bg [15] ;;
    .st [2, 6] [] [] ;; .bg [16] ;; .bg [17] ;; .st [17] [] [] ;; .st [16] [] [] ;; .bg [17] ;;
    .st [17] [] [] ;; .bg [17] ;; .st [17] [] [] ;; .st [16] [] [] ;; .bg [17] ;; .st [10] [] [] ;;
    .loop (.bg [18] ;; .st [15, 18] [] [] ;; .bg [19] ;; .st [17] [] [] ;; .st [18] [] [] ;; .bg [17] ;;
      .st [17] [] [] ;; .st [19] [] [] ;; .bg [17] ;; .st [17] [] [] ;; .st [9, 19] [] [] ;; .bg [17] ;;
      .st [17] [] [] ;; .bg [17] ;; .st [12] [] [] ;; .loop (.call 0 [0]) ;; .st [13, 19] [] [] ;;
      .loop (.call 1 [0]) ;; .st [17] [] [] ;; .bg [17] ;; .st [11] [] [] ;;
      .loop (.bg [20] ;; .st [19, 20] [] [] ;; .bg [21] ;; .st [17] [] [] ;; .st [20] [] [] ;; .bg [17] ;;
        .st [17] [] [] ;; .st [9, 21] [] [] ;; .bg [17] ;; .st [17] [] [] ;; .st [21] [] [] ;; .bg [17] ;;
        .st [17] [] [] ;; .bg [17] ;; .st [12] [] [] ;; .loop (.call 0 [0]) ;; .st [13, 21] [] [] ;;
        .loop (.call 1 [0]) ;; .st [17] [] [] ;; .bg [17])) ;;
    .st [17] [] [] ;; .bg [17] ;; .bg [22] ;; .st [1, 22] [] [] ;; .bg [23] ;; .st [23, 17] [] [] ;;
    .st [3, 22] [] []
  final := [0, 1, 2, 3, 4, 5, 6, 7, 8, 9, 10, 11, 12, 13, 14, 15, 16, 17, 22, 23]

/-- scripts/abcoef/generate_report2.py:1-48 -/
def m_scripts_abcoef_generate_report2 : Module where
  file := "scripts/abcoef/generate_report2.py"
  globals := ["open", "range", "len", "json", "plt", "np", "k", "dms", "data", "dct", "problem", "boundary", "m1",
    "new_error", "singular_vals", "i", "label"]
  init := 3
  locals := []
  funcs := []
  body :=
    .bg [3] ;; .bg [4] ;; .bg [5] ;; .bg [6] ;; .bg [7] ;; .st [7] [] [] ;; .bg [8] ;; .st [8] [] [] ;;
    .loop (.bg [9] ;; .st [9] [] [] ;; .bg [10] ;; .st [9] [] [] ;; .bg [11] ;; .st [3, 0, 10, 11, 6] [] [] ;;
      .bg [8] ;; .st [5, 8] [] [] ;; .bg [12] ;; .bg [13] ;; .bg [14] ;; .st [1, 2, 8] [] [] ;;
      .loop (.bg [15] ;; .st [13, 5, 8, 15] [] [] ;; .st [14, 8, 15] [] []) ;; .st [9, 11] [] [] ;; .bg [16] ;;
      .st [4, 12, 13, 16, 9] [] [] ;; .st [4] [] [] ;; .st [4] [] []) ;;
    .st [4] [] [] ;; .st [4] [] [] ;; .st [4] [] []
  final := [0, 1, 2, 3, 4, 5, 6, 7, 8]

/-- scripts/abcoef/generate_report3.py:1-29 -/
def m_scripts_abcoef_generate_report3 : Module where
  file := "scripts/abcoef/generate_report3.py"
  globals := ["open", "range", "len", "json", "plt", "np", "it", "_problems", "_boundaries", "_k", "problem",
    "boundary", "k", "data", "m1", "new_error", "singular_vals", "i", "label"]
  init := 3
  locals := []
  funcs := []
  body :=
    .bg [3] ;; .bg [4] ;; .bg [5] ;; .bg [6] ;; .bg [7] ;; .bg [8] ;; .bg [9] ;; .st [6, 7, 8, 9] [] [] ;;
    .loop (.bg [10, 11, 12] ;; .st [3, 0, 10, 11, 12] [] [] ;; .bg [13] ;; .st [5, 13] [] [] ;; .bg [14] ;;
      .bg [15] ;; .bg [16] ;; .st [1, 2, 13] [] [] ;;
      .loop (.bg [17] ;; .st [15, 5, 13, 17] [] [] ;; .st [16, 13, 17] [] []) ;; .st [10, 11] [] [] ;;
      .bg [18] ;; .st [4, 14, 15, 18] [] []) ;;
    .st [4] [] [] ;; .st [4] [] [] ;; .st [4] [] [] ;; .st [4] [] []
  final := [0, 1, 2, 3, 4, 5, 6, 7, 8, 9]

/-- scripts/abcoef/generate_report4.py:1-55 -/
def m_scripts_abcoef_generate_report4 : Module where
  file := "scripts/abcoef/generate_report4.py"
  globals := ["len", "range", "open", "json", "plt", "MultipleLocator", "np", "it", "sns", "_problems", "_boundaries",
    "_k", "ncases", "m1_list", "allerror", "n", "problem", "boundary", "k", "data", "m1", "i", "_min",
    "_median", "_max", "minmaxstyle"]
  init := 3
  locals := []
  funcs := []
  body :=
    .bg [3] ;; .bg [4] ;; .bg [5] ;; .bg [6] ;; .bg [7] ;; .bg [8] ;; .st [8] [] [] ;; .bg [9] ;; .bg [10] ;;
    .bg [11] ;; .st [0, 9, 10, 11] [] [] ;; .bg [12] ;; .st [1] [] [] ;; .bg [13] ;;
    .st [6, 12, 0, 13] [] [] ;; .bg [14] ;; .bg [15] ;; .st [7, 9, 10, 11] [] [] ;;
    .loop (.bg [16, 17, 18] ;; .st [3, 2, 16, 17, 18] [] [] ;; .bg [19] ;; .st [6, 19] [] [] ;; .bg [20] ;;
      .st [1, 0, 19] [] [] ;; .loop (.bg [21] ;; .st [6, 19, 21, 14, 15] [] []) ;; .st [15] [] [] ;; .bg [15]) ;;
    .st [14] [] [] ;; .bg [22] ;; .st [6, 14] [] [] ;; .bg [23] ;; .st [14] [] [] ;; .bg [24] ;; .bg [25] ;;
    .st [4, 13, 22, 25] [] [] ;; .st [4, 13, 23] [] [] ;; .st [4, 13, 24, 25] [] [] ;;
    .st [4, 13, 22, 24] [] [] ;; .st [4] [] [] ;; .st [4] [] [] ;; .st [4] [] [] ;; .st [4] [] [] ;;
    .st [4] [] [] ;; .st [8] [] [] ;; .st [4] [] [] ;; .st [4] [] []
  final := [0, 1, 2, 3, 4, 5, 6, 7, 8, 9, 10, 11, 12, 13, 14, 15, 22, 23, 24, 25]

/-- scripts/abcoef/k_test.py:41-42 `eval_phi0` -/
def f_scripts_abcoef_k_test_0 : Func where
  name := "eval_phi0"
  locals := ["r", "th"]
  params := 2
  cases := [0]
  uses := [12]
  body :=
    .st [12] [0, 1] [] ;; .ret

/-- scripts/abcoef/k_test.py:44-48 `print_array` -/
def f_scripts_abcoef_k_test_1 : Func where
  name := "print_array"
  locals := ["array", "x"]
  params := 1
  cases := [0]
  uses := [0, 4, 5]
  body :=
    .st [4, 5] [0] [] ;; .st [5] [0] [] ;; .loop (.st [] [] [1] ;; .st [0] [1] []) ;; .st [0] [] []

/-- scripts/abcoef/k_test.py:50-56 `test_many` -/
def f_scripts_abcoef_k_test_2 : Func where
  name := "test_many"
  locals := ["k", "a_coef"]
  params := 0
  cases := [0]
  uses := [0, 1, 4, 5, 9, 12, 13, 14, 15, 20, 21]
  body :=
    .st [4] [] [] ;;
    .loop (.st [] [] [0] ;; .st [12] [0] [] ;; .st [12] [] [] ;; .st [9, 12, 13, 20, 15, 14] [] [] ;;
      .loop (.call 0 [0]) ;; .st [] [] [1] ;; .st [21, 1, 4, 12] [0, 1] [] ;; .loop (.call 1 [0]))

/-- scripts/abcoef/k_test.py:1-58 -/
def m_scripts_abcoef_k_test : Module where
  file := "scripts/abcoef/k_test.py"
  globals := ["print", "list", "sys", "argparse", "np", "scipy", "io_util", "problems", "ps", "calc_a_coef", "parser",
    "args", "problem", "boundary", "m1", "M", "k", "R", "a", "nu", "eval_phi0", "print_array", "test_many"]
  init := 2
  locals := []
  funcs := [f_scripts_abcoef_k_test_0, f_scripts_abcoef_k_test_1, f_scripts_abcoef_k_test_2]
  body :=
    .bg [2] ;; .st [2] [] [] ;; .bg [3] ;; .bg [4] ;; .bg [5] ;; .bg [6] ;; .bg [7] ;; .bg [7] ;; .bg [8] ;;
    .bg [9] ;; .st [3] [] [] ;; .bg [10] ;; .st [6, 10] [] [] ;; .st [10] [] [] ;; .bg [11] ;;
    .st [7, 11] [] [] ;; .bg [12] ;; .st [7, 11, 12] [] [] ;; .bg [13] ;; .bg [14] ;; .bg [15] ;;
    .st [0, 14] [] [] ;; .st [0, 12] [] [] ;; .st [0] [] [] ;; .st [12] [] [] ;; .bg [16] ;; .st [12] [] [] ;;
    .bg [17] ;; .st [12] [] [] ;; .bg [18] ;; .st [12] [] [] ;; .bg [19] ;; .bg [20] ;; .bg [21] ;; .bg [22] ;;
    .st [22] [] [] ;; .loop (.call 2 [0])
  final := [0, 1, 2, 3, 4, 5, 6, 7, 8, 9, 10, 11, 12, 13, 14, 15, 16, 17, 18, 19, 20, 21, 22]

/-- scripts/abcoef/run_test.py:36-38 `eval_phi0` -/
def f_scripts_abcoef_run_test_0 : Func where
  name := "eval_phi0"
  locals := ["th", "r"]
  params := 1
  cases := [0]
  uses := [12, 13]
  body :=
    .st [13] [0] [1] ;; .st [12] [1, 0] [] ;; .ret

/-- scripts/abcoef/run_test.py:40-44 `print_array` -/
def f_scripts_abcoef_run_test_1 : Func where
  name := "print_array"
  locals := ["array", "x"]
  params := 1
  cases := [0]
  uses := [0, 5, 6]
  body :=
    .st [5, 6] [0] [] ;; .st [6] [0] [] ;; .loop (.st [] [] [1] ;; .st [0] [1] []) ;; .st [0] [] []

/-- scripts/abcoef/run_test.py:46-66 `do_test` -/
def f_scripts_abcoef_run_test_2 : Func where
  name := "do_test"
  locals := ["m1", "a_coef", "errors", "error7"]
  params := 1
  cases := [0]
  uses := [0, 5, 6, 9, 12, 13, 14, 19, 20]
  body :=
    .st [9, 12, 13, 19, 14] [0] [] ;; .loop (.call 0 [0]) ;; .st [] [] [1] ;; .st [5, 12, 14] [1] [2] ;;
    .st [5] [2] [3] ;; .st [0] [] [] ;; .st [20, 12, 14] [] [] ;; .loop (.call 1 [0]) ;; .st [0] [] [] ;;
    .st [0] [] [] ;; .st [20] [1] [] ;; .loop (.call 1 [0]) ;; .st [0] [] [] ;; .st [0] [] [] ;;
    .st [20] [2] [] ;; .loop (.call 1 [0]) ;; .st [0] [] [] ;; .st [0] [3] []

/-- scripts/abcoef/run_test.py:68-88 `test_many` -/
def f_scripts_abcoef_run_test_3 : Func where
  name := "test_many"
  locals := ["m1_list", "min_error7", "m1", "a_coef", "singular_vals", "error7"]
  params := 1
  cases := [0]
  uses := [0, 1, 2, 5, 6, 9, 12, 13, 14, 19, 20]
  body :=
    .st [1] [] [1] ;; .st [] [0] [] ;; .alt .any (.st [2] [] [0]) .skip ;; .st [] [0] [] ;;
    .loop (.st [] [] [2] ;; .st [0] [2] [] ;; .st [9, 12, 13, 19, 14] [2] [] ;; .loop (.call 0 [0]) ;;
      .st [] [] [3, 4] ;; .st [5, 12] [3] [5] ;; .st [0] [] [] ;; .st [20] [3] [] ;; .loop (.call 1 [0]) ;;
      .st [0] [5] [] ;; .st [] [5, 1] [] ;; .alt .any (.st [] [5] [1] ;; .st [0] [] []) (.st [0] [] []))

/-- scripts/abcoef/run_test.py:1-91 -/
def m_scripts_abcoef_run_test : Module where
  file := "scripts/abcoef/run_test.py"
  globals := ["print", "float", "range", "sys", "argparse", "np", "scipy", "io_util", "problems", "calc_a_coef",
    "parser", "args", "problem", "boundary", "M", "k", "R", "a", "nu", "eval_phi0", "print_array",
    "do_test", "test_many"]
  init := 3
  locals := []
  funcs := [f_scripts_abcoef_run_test_0, f_scripts_abcoef_run_test_1, f_scripts_abcoef_run_test_2,
    f_scripts_abcoef_run_test_3]
  body :=
    .bg [3] ;; .st [3] [] [] ;; .bg [4] ;; .bg [5] ;; .bg [6] ;; .bg [7] ;; .bg [8] ;; .bg [8] ;; .bg [9] ;;
    .st [4] [] [] ;; .bg [10] ;; .st [7, 10] [] [] ;; .st [10] [] [] ;; .bg [11] ;; .st [8, 11] [] [] ;;
    .bg [12] ;; .st [8, 11, 12] [] [] ;; .bg [13] ;; .bg [14] ;; .st [0, 12] [] [] ;; .st [0] [] [] ;;
    .st [12] [] [] ;; .bg [15] ;; .st [12] [] [] ;; .bg [16] ;; .st [12] [] [] ;; .bg [17] ;; .st [12] [] [] ;;
    .bg [18] ;; .bg [19] ;; .bg [20] ;; .bg [21] ;; .bg [22] ;; .st [22] [] [] ;; .loop (.call 3 [0])
  final := [0, 1, 2, 3, 4, 5, 6, 7, 8, 9, 10, 11, 12, 13, 14, 15, 16, 17, 18, 19, 20, 21, 22]

/-- scripts/apply_helmholtz.py:6-8 `apply_helmholtz_op` -/
def f_scripts_apply_helmholtz_0 : Func where
  name := "apply_helmholtz_op"
  locals := ["u", "d_u_r"]
  params := 1
  cases := [0]
  uses := [2, 3, 4, 10]
  body :=
    .st [10, 2] [0] [1] ;; .st [10, 2, 3, 4] [1, 0] [] ;; .ret

/-- scripts/apply_helmholtz.py:1-21 -/
def m_scripts_apply_helmholtz : Module where
  file := "scripts/apply_helmholtz.py"
  globals := ["print", "symbols", "r", "th", "k", "x", "y", "apply_helmholtz_op", "u", "sqrt", "diff"]
  init := 1
  locals := []
  funcs := [f_scripts_apply_helmholtz_0]
  body :=
    .bg [1, 9, 10] ;; .st [1] [] [] ;; .bg [2, 3, 4, 5, 6] ;; .bg [7] ;; .st [2] [] [] ;; .bg [8] ;;
    .st [0] [] [] ;; .st [0, 8] [] [] ;; .st [0] [] [] ;; .st [0] [] [] ;; .st [0, 7, 8] [] [] ;;
    .loop (.call 0 [0]) ;; .st [0] [] [] ;; .st [0] [] [] ;; .st [8, 2, 9, 5, 6] [] [] ;; .bg [8] ;;
    .st [0, 10, 8, 5, 6] [] []
  final := [0, 1, 2, 3, 4, 5, 6, 7, 8, 9, 10]

/-- scripts/c0_basis.py:44-45 `my_print` -/
def f_scripts_c0_basis_0 : Func where
  name := "my_print"
  locals := ["t"]
  params := 1
  cases := [0]
  uses := [2]
  body :=
    .st [2] [0] []

/-- scripts/c0_basis.py:1-58 -/
def m_scripts_c0_basis : Module where
  file := "scripts/c0_basis.py"
  globals := ["range", "int", "print", "sys", "argparse", "np", "ps", "io_util", "problems", "copy", "Pool", "parser",
    "args", "problem", "boundary", "options", "meta_options", "my_print", "n_circle", "my_solver"]
  init := 3
  locals := []
  funcs := [f_scripts_c0_basis_0]
  body :=
    .bg [3] ;; .st [3] [] [] ;; .bg [4] ;; .bg [5] ;; .bg [6] ;; .bg [7] ;; .bg [8] ;; .bg [8] ;; .bg [9] ;;
    .bg [10] ;; .st [4] [] [] ;; .bg [11] ;; .st [7, 11] [] [] ;; .st [11] [] [] ;; .bg [12] ;;
    .st [8, 12] [] [] ;; .bg [13] ;; .st [8, 13] [] [] ;; .bg [14] ;; .st [14, 13] [] [] ;;
    .st [13, 12] [] [] ;; .bg [15] ;; .bg [16] ;; .st [7, 15, 16] [] [] ;; .bg [17] ;; .st [0] [] [] ;;
    .loop (.bg [18] ;; .st [18, 15] [] [] ;; .st [1, 18, 15] [] [] ;; .st [6, 15] [] [] ;; .bg [19] ;;
      .st [19] [] [] ;; .st [2, 18] [] [] ;; .st [19] [] [] ;; .st [2] [] [])
  final := [0, 1, 2, 3, 4, 5, 6, 7, 8, 9, 10, 11, 12, 13, 14, 15, 16, 17]

/-- scripts/codegen/chebyshev_derivs.py:1-14 -/
def m_scripts_codegen_chebyshev_derivs : Module where
  file := "scripts/codegen/chebyshev_derivs.py"
  globals := ["range", "print", "symbols", "J", "t", "cos", "acos", "T", "n", "diff", "dn_T_t"]
  init := 2
  locals := []
  funcs := []
  body :=
    .bg [2, 5, 6, 9] ;; .st [2] [] [] ;; .bg [3, 4] ;; .st [5, 3, 6, 4] [] [] ;; .bg [7] ;; .st [0] [] [] ;;
    .loop (.bg [8] ;; .st [9, 7, 4, 8] [] [] ;; .bg [10] ;; .st [1, 8] [] [] ;; .st [1, 10] [] [] ;; .st [1] [] [])
  final := [0, 1, 2, 3, 4, 5, 6, 7, 9]

/-- scripts/codegen/rhs_derivs.py:14-19 `print_code` -/
def f_scripts_codegen_rhs_derivs_0 : Func where
  name := "print_code"
  locals := ["signature", "return_value", "ind"]
  params := 2
  cases := [0]
  uses := [0]
  body :=
    .st [] [] [2] ;; .st [0] [] [] ;; .st [0] [2, 0] [] ;; .st [0] [2] [] ;; .st [0] [2, 1] []

/-- scripts/codegen/rhs_derivs.py:22-31 `find_derivs` -/
def f_scripts_codegen_rhs_derivs_1 : Func where
  name := "find_derivs"
  locals := ["u", "f", "f_polar"]
  params := 1
  cases := [0]
  uses := [0, 1, 3, 4, 5, 6, 7, 8, 11, 12, 13, 14, 15]
  body :=
    .st [8] [0] [] ;; .loop (.call 0 [0]) ;; .st [13, 4, 5, 3] [0] [1] ;; .st [8] [1] [] ;;
    .loop (.call 0 [0]) ;; .st [1, 6, 14, 7, 15] [1] [2] ;; .st [11] [2] [] ;; .loop (.call 3 [0]) ;;
    .st [12] [1] [] ;; .loop (.call 4 [0])

/-- scripts/codegen/rhs_derivs.py:34-40 `find_derivs_polar` -/
def f_scripts_codegen_rhs_derivs_2 : Func where
  name := "find_derivs_polar"
  locals := ["u", "f"]
  params := 1
  cases := [0]
  uses := [0, 3, 6, 7, 8, 11, 13]
  body :=
    .st [8] [0] [] ;; .loop (.call 0 [0]) ;; .st [13, 6, 7, 3] [0] [1] ;; .st [8] [1] [] ;;
    .loop (.call 0 [0]) ;; .st [11] [1] [] ;; .loop (.call 3 [0])

/-- scripts/codegen/rhs_derivs.py:44-51 `find_f_polar_derivs` -/
def f_scripts_codegen_rhs_derivs_3 : Func where
  name := "find_f_polar_derivs"
  locals := ["f_polar"]
  params := 1
  cases := [0]
  uses := [0, 6, 7, 8, 13]
  body :=
    .st [8, 13, 6] [0] [] ;; .loop (.call 0 [0]) ;; .st [8, 13, 6] [0] [] ;; .loop (.call 0 [0]) ;;
    .st [8, 13, 7] [0] [] ;; .loop (.call 0 [0]) ;; .st [8, 13, 7] [0] [] ;; .loop (.call 0 [0]) ;;
    .st [8, 13, 6, 7] [0] [] ;; .loop (.call 0 [0])

/-- scripts/codegen/rhs_derivs.py:54-64 `find_f_total_derivs` -/
def f_scripts_codegen_rhs_derivs_4 : Func where
  name := "find_f_total_derivs"
  locals := ["f", "grad", "grad_np", "hessian", "hessian_np"]
  params := 1
  cases := [0]
  uses := [0, 4, 5, 8, 13]
  body :=
    .st [13, 4, 5] [0] [1] ;; .st [] [1] [2] ;; .st [8] [2] [] ;; .loop (.call 0 [0]) ;;
    .st [13, 4, 5] [0] [3] ;; .st [] [3] [4] ;; .st [8] [4] [] ;; .loop (.call 0 [0])

/-- scripts/codegen/rhs_derivs.py:1-64 -/
def m_scripts_codegen_rhs_derivs : Module where
  file := "scripts/codegen/rhs_derivs.py"
  globals := ["print", "dict", "symbols", "k", "x", "y", "r", "th", "print_code", "find_derivs", "find_derivs_polar",
    "find_f_polar_derivs", "find_f_total_derivs", "diff", "cos", "sin"]
  init := 2
  locals := []
  funcs := [f_scripts_codegen_rhs_derivs_0, f_scripts_codegen_rhs_derivs_1, f_scripts_codegen_rhs_derivs_2,
    f_scripts_codegen_rhs_derivs_3, f_scripts_codegen_rhs_derivs_4]
  body :=
    .bg [2, 13, 14, 15] ;; .st [2] [] [] ;; .bg [3] ;; .st [2] [] [] ;; .bg [4, 5] ;; .st [2] [] [] ;;
    .bg [6, 7] ;; .bg [8] ;; .bg [9] ;; .bg [10] ;; .bg [11] ;; .bg [12]
  final := [0, 1, 2, 3, 4, 5, 6, 7, 8, 9, 10, 11, 12, 13, 14, 15]

/-- scripts/extend_basis_test.py:1-65 -/
def m_scripts_extend_basis_test : Module where
  file := "scripts/extend_basis_test.py"
  globals := ["range", "len", "print", "sys", "np", "argparse", "it", "ps", "plt", "problems", "io_util", "parser",
    "args", "problem", "boundary", "options", "meta_options", "solver", "error", "index", "JJ",
    "ext1_array", "ext2_array", "diff"]
  init := 3
  locals := []
  funcs := []
  body :=
    .bg [3] ;; .st [3] [] [] ;; .bg [4] ;; .bg [5] ;; .bg [6] ;; .bg [7] ;; .bg [8] ;; .bg [9] ;; .bg [10] ;;
    .st [5] [] [] ;; .bg [11] ;; .st [10, 11] [] [] ;; .st [11] [] [] ;; .bg [12] ;; .st [9, 12] [] [] ;;
    .bg [13] ;; .st [9, 12, 13] [] [] ;; .bg [14] ;; .st [14, 13] [] [] ;; .st [13, 14] [] [] ;; .bg [15] ;;
    .bg [16] ;; .st [10, 15, 16] [] [] ;; .st [7, 15] [] [] ;; .bg [17] ;; .bg [18] ;;
    .loop (.bg [19] ;; .st [0, 1, 17] [] [] ;;
      .loop (.bg [20] ;; .st [17, 20, 19] [] [] ;; .bg [21] ;; .st [4, 1, 17] [] [] ;; .st [4, 1, 17] [] [] ;;
        .st [19] [] [] ;;
        .alt .any (.st [17, 20] [] []) (.st [19] [] [] ;; .alt .any (.st [17, 20] [] []) .skip) ;;
        .st [17] [] [] ;; .bg [22] ;; .st [4, 21, 22] [] [] ;; .bg [23] ;; .st [18, 4, 23] [] [] ;;
        .st [2, 19, 20, 18] [] [] ;; .st [18] [] [] ;; .alt .any (.st [2] [] [] ;; .st [3] [] []) .skip)) ;;
    .st [2] [] []
  final := [0, 1, 2, 3, 4, 5, 6, 7, 8, 9, 10, 11, 12, 13, 14, 15, 16, 17, 18]

/-- scripts/extension_test.py:26-43 `set_setypes` -/
def f_scripts_extension_test_0 : Func where
  name := "set_setypes"
  locals := ["etype_dict", "se", "s", "e"]
  params := 0
  cases := [0]
  uses := [1, 3, 12, 24]
  body :=
    .st [24] [] [] ;; .alt .any .ret .skip ;; .st [12] [] [0] ;; .st [3] [] [] ;; .bg [16] ;; .st [24] [] [] ;;
    .loop (.st [] [] [1] ;; .st [1] [1] [2] ;; .st [] [0, 1] [3] ;; .st [16] [2, 3] []) ;; .st [16] [] [] ;;
    .ret

/-- scripts/extension_test.py:45-98 `run_test` -/
def f_scripts_extension_test_1 : Func where
  name := "run_test"
  locals := ["N", "solver", "mv_ext", "reduced_ext", "th_list", "error", "l", "node", "r", "th", "data", "setype",
    "sid", "etype", "exp", "diff"]
  params := 1
  cases := [0]
  uses := [1, 3, 4, 5, 6, 8, 11, 12, 16, 17, 24, 25, 27]
  body :=
    .st [27] [0] [] ;; .st [11, 27] [] [1] ;; .st [16] [] [] ;;
    .alt .any (.st [17] [] [] ;; .loop (.call 0 [0])) .skip ;; .st [] [1] [] ;; .st [] [1] [] ;;
    .st [] [1] [] ;; .st [] [1] [2] ;; .st [] [2] [3] ;; .st [] [] [4] ;; .st [] [] [5] ;; .st [4, 5] [1] [] ;;
    .loop (.st [] [] [6] ;; .st [] [1, 6] [7] ;; .st [] [1, 7] [8, 9] ;; .st [] [2, 7] [] ;;
      .loop (.st [] [] [10] ;; .st [] [10] [11] ;; .st [] [11] [12, 13] ;; .st [16] [11] [] ;;
        .alt .any
          (.st [25] [8, 9] [14] ;; .st [6] [14, 10] [15] ;; .st [] [5, 15] [] ;; .st [] [4, 9] [])
          .skip)) ;;
    .st [8] [5] [] ;; .ret

/-- scripts/extension_test.py:1-156 -/
def m_scripts_extension_test : Module where
  file := "scripts/extension_test.py"
  globals := ["__name__", "int", "print", "set", "range", "len", "abs", "sys", "np", "argparse", "it", "ps", "EType",
    "plt", "problems", "io_util", "setypes", "set_setypes", "run_test", "prec_str", "parser",
    "setype_choices", "s", "e", "args", "problem", "boundary", "options", "meta_options", "N", "prev_error",
    "error", "convergence"]
  init := 7
  locals := []
  funcs := [f_scripts_extension_test_0, f_scripts_extension_test_1]
  body :=
    .bg [7] ;; .st [7] [] [] ;; .bg [8] ;; .bg [9] ;; .bg [10] ;; .bg [11] ;; .bg [12] ;; .bg [13] ;;
    .bg [14] ;; .bg [15] ;; .bg [16] ;; .bg [17] ;; .bg [18] ;; .bg [19] ;; .st [0] [] [] ;;
    .alt .any
      (.st [9] [] [] ;; .bg [20] ;; .st [15, 20] [] [] ;; .st [20, 1] [] [] ;; .bg [21] ;; .st [10] [] [] ;;
      .loop (.bg [22, 23] ;; .st [21, 22, 23] [] []) ;; .st [20, 21] [] [] ;; .st [20] [] [] ;; .bg [24] ;;
      .st [14, 24] [] [] ;; .bg [25] ;; .st [14, 24, 25] [] [] ;; .bg [26] ;; .st [26, 25] [] [] ;;
      .st [25] [] [] ;; .bg [27] ;; .st [27] [] [] ;; .alt .any (.st [2] [] []) .skip ;; .bg [28] ;;
      .st [15, 27, 28] [] [] ;; .st [24] [] [] ;; .bg [29] ;; .bg [30] ;; .st [29, 24] [] [] ;;
      .loop (.st [2, 29] [] [] ;; .st [18, 29] [] [] ;; .loop (.call 1 [0]) ;; .bg [31] ;; .st [2, 19, 31] [] [] ;;
        .st [30] [] [] ;; .alt .any (.st [8, 30, 31] [] [] ;; .bg [32] ;; .st [2, 19, 32] [] []) .skip ;;
        .st [2] [] [] ;; .st [31] [] [] ;; .bg [30] ;; .st [29] [] [] ;; .bg [29] ;; .st [29, 24] [] []))
      .skip
  final := [0, 1, 2, 3, 4, 5, 6, 7, 8, 9, 10, 11, 12, 13, 14, 15, 16, 17, 18, 19]

/-- scripts/multirun.py:20-28 `worker` -/
def f_scripts_multirun_0 : Func where
  name := "worker"
  locals := ["inputs", "problem", "boundary", "filename", "command"]
  params := 1
  cases := [0]
  uses := [0, 3, 6, 10]
  body :=
    .st [] [0] [1, 2] ;; .st [6] [1, 2] [3] ;; .st [10] [1, 2] [4] ;; .st [] [4] [] ;; .st [] [3] [] ;;
    .st [] [] [4] ;; .st [3] [4] [] ;; .st [0] [1, 2] []

/-- scripts/multirun.py:1-39 -/
def m_scripts_multirun : Module where
  file := "scripts/multirun.py"
  globals := ["print", "FileExistsError", "os", "subprocess", "it", "Pool", "OUT_DIR_escape", "OUT_DIR_noescape",
    "problem_list", "boundary_list", "args", "worker", "problem_name", "_dir", "p"]
  init := 2
  locals := []
  funcs := [f_scripts_multirun_0]
  body :=
    .bg [2] ;; .bg [3] ;; .bg [4] ;; .bg [5] ;; .bg [6] ;; .bg [7] ;; .bg [8] ;; .bg [9] ;; .bg [10] ;;
    .bg [11] ;; .st [8] [] [] ;;
    .loop (.bg [12] ;; .st [7, 12] [] [] ;; .bg [13] ;;
      .tri (.may ;; .st [2, 13] [] [] ;; .may ;; .may ;; .st [0, 13] [] [] ;; .may) (.st [1] [] [])) ;;
    .st [5] [] [] ;; .bg [14] ;; .st [14, 11, 4, 8, 9] [] [] ;; .loop (.call 0 [0])
  final := [0, 1, 2, 3, 4, 5, 6, 7, 8, 9, 10, 11, 14]

/-- scripts/optimize_basis.py:49-50 `my_print` -/
def f_scripts_optimize_basis_0 : Func where
  name := "my_print"
  locals := ["t"]
  params := 1
  cases := [0]
  uses := [2]
  body :=
    .st [2] [0] []

/-- scripts/optimize_basis.py:52-61 `worker` -/
def f_scripts_optimize_basis_1 : Func where
  name := "worker"
  locals := ["t", "my_solver", "result"]
  params := 1
  cases := [0]
  uses := [2, 6, 15, 17]
  body :=
    .st [15] [0] [] ;; .st [15] [0] [] ;; .st [6, 15] [] [1] ;; .st [] [1] [2] ;; .st [] [0, 2] [0] ;;
    .st [17] [0] [] ;; .loop (.call 0 [0]) ;; .st [] [0] [] ;; .ret

/-- scripts/optimize_basis.py:1-80 -/
def m_scripts_optimize_basis : Module where
  file := "scripts/optimize_basis.py"
  globals := ["range", "float", "print", "sys", "argparse", "np", "ps", "io_util", "problems", "copy", "Pool",
    "parser", "args", "problem", "boundary", "options", "meta_options", "my_print", "worker", "all_options",
    "n_circle", "n_radius", "p", "results", "min_error", "t", "min_t"]
  init := 3
  locals := []
  funcs := [f_scripts_optimize_basis_0, f_scripts_optimize_basis_1]
  body :=
    .bg [3] ;; .st [3] [] [] ;; .bg [4] ;; .bg [5] ;; .bg [6] ;; .bg [7] ;; .bg [8] ;; .bg [8] ;; .bg [9] ;;
    .bg [10] ;; .st [4] [] [] ;; .bg [11] ;; .st [7, 11] [] [] ;; .st [11] [] [] ;; .bg [12] ;;
    .st [8, 12] [] [] ;; .bg [13] ;; .st [8, 13] [] [] ;; .bg [14] ;; .st [14, 13] [] [] ;;
    .st [13, 12] [] [] ;; .bg [15] ;; .bg [16] ;; .st [7, 15, 16] [] [] ;; .bg [17] ;; .bg [18] ;; .bg [19] ;;
    .st [0] [] [] ;; .loop (.bg [20] ;; .st [0, 20] [] [] ;; .loop (.bg [21] ;; .st [19, 20, 21] [] [])) ;;
    .st [10] [] [] ;; .bg [22] ;; .st [22, 18, 19] [] [] ;; .loop (.call 1 [0]) ;; .bg [23] ;; .st [1] [] [] ;;
    .bg [24] ;; .st [23] [] [] ;;
    .loop (.bg [25] ;; .st [25, 24] [] [] ;;
      .alt .any (.st [25] [] [] ;; .bg [24] ;; .st [25] [] [] ;; .bg [26]) .skip) ;;
    .st [2] [] [] ;; .st [17, 26] [] [] ;; .loop (.call 0 [0])
  final := [0, 1, 2, 3, 4, 5, 6, 7, 8, 9, 10, 11, 12, 13, 14, 15, 16, 17, 18, 19, 22, 23, 24]

/-- scripts/plot_domain.py:16-23 `plot_aux` -/
def f_scripts_plot_domain_0 : Func where
  name := "plot_aux"
  locals := ["options", "s", "x_data", "y_data"]
  params := 1
  cases := [0]
  uses := [5, 24]
  body :=
    .st [24] [] [1] ;; .st [] [1] [2] ;; .st [] [1] [3] ;; .st [5] [2, 3, 0] []

/-- scripts/plot_domain.py:25-30 `plot_arc` -/
def f_scripts_plot_domain_1 : Func where
  name := "plot_arc"
  locals := ["color", "linestyle", "th_data", "x_data", "y_data"]
  params := 2
  cases := [0]
  uses := [4, 5, 24]
  body :=
    .st [4, 24] [] [2] ;; .st [24, 4] [2] [3] ;; .st [24, 4] [2] [4] ;; .st [5] [3, 4, 1, 0] []

/-- scripts/plot_domain.py:32-48 `plot_Gamma` -/
def f_scripts_plot_domain_2 : Func where
  name := "plot_Gamma"
  locals := ["color", "extended", "linestyle", "sample", "n", "Gamma_x_data", "Gamma_y_data", "l", "p"]
  params := 2
  cases := [0]
  uses := [0, 1, 4, 5, 24]
  body :=
    .st [] [] [2] ;; .st [24] [] [] ;;
    .loop (.st [] [] [3] ;; .st [0] [3] [4] ;; .st [4] [4] [5] ;; .st [4] [4] [6] ;; .st [1] [4] [] ;;
      .loop (.st [] [] [7] ;; .st [] [3, 7] [8] ;; .st [] [8, 5, 7] [] ;; .st [] [8, 6, 7] []) ;;
      .st [5] [5, 6, 2, 0] [] ;; .st [] [1] [] ;; .alt .any .brk .skip)

/-- scripts/plot_domain.py:50-61 `nodes_to_plottable` -/
def f_scripts_plot_domain_3 : Func where
  name := "nodes_to_plottable"
  locals := ["nodes", "x_data", "y_data", "l", "i", "j", "x", "y"]
  params := 1
  cases := [0]
  uses := [0, 4, 24]
  body :=
    .st [4, 0] [0] [1] ;; .st [4, 0] [0] [2] ;; .st [] [] [3] ;; .st [] [0] [] ;;
    .loop (.st [] [] [4, 5] ;; .st [24] [4, 5] [6, 7] ;; .st [] [6, 1, 3] [] ;; .st [] [7, 2, 3] [] ;;
      .st [] [3] [] ;; .st [] [] [3]) ;;
    .st [] [1, 2] [] ;; .ret

/-- scripts/plot_domain.py:64-81 `plot_Mplus` -/
def f_scripts_plot_domain_4 : Func where
  name := "plot_Mplus"
  locals := ["colors", "markers", "sid", "Mplus", "x_data", "y_data", "label_text"]
  params := 0
  cases := [0]
  uses := [0, 1, 4, 5, 13, 14, 24]
  body :=
    .st [13] [] [] ;; .loop (.call 2 [0]) ;; .st [] [] [0] ;; .st [] [] [1] ;; .st [1] [] [] ;;
    .loop (.st [] [] [2] ;; .st [24] [2] [3] ;; .st [14] [3] [] ;; .loop (.call 3 [0]) ;; .st [] [] [4, 5] ;;
      .st [] [2] [6] ;; .st [5] [4, 5, 1, 2, 6, 0] []) ;;
    .st [5] [] [] ;; .st [5] [] [] ;; .st [5] [] [] ;; .st [5] [] []

/-- scripts/plot_domain.py:83-112 `plot_allMK`; the parameter is ntype (0 for 'm', 1 for 'k') -/
def f_scripts_plot_domain_5 : Func where
  name := "plot_allMK"
  locals := ["ntype", "colors", "node_choices", "labels", "markers", "zipped", "color", "nodes", "label", "marker",
    "x_data", "y_data"]
  params := 1
  cases := [0, 1]
  uses := [0, 1, 2, 4, 5, 13, 14, 24]
  body :=
    .st [13] [] [] ;; .loop (.call 2 [0]) ;; .st [] [] [1] ;; .st [] [0] [] ;;
    .alt (.on [0])
      (.st [24] [] [2] ;; .st [] [] [3])
      (.st [] [0] [] ;; .alt (.on [1]) (.st [24] [] [2] ;; .st [] [] [3]) .skip) ;;
    .st [] [] [4] ;; .st [2] [1, 2, 3, 4] [5] ;; .st [] [5] [] ;;
    .loop (.st [] [] [6, 7, 8, 9] ;; .st [14] [7] [] ;; .loop (.call 3 [0]) ;; .st [] [] [10, 11] ;;
      .st [5] [10, 11, 9, 8, 6] []) ;;
    .st [5] [] [] ;; .st [5] [] [] ;; .st [5] [] [] ;; .st [5] [] [] ;; .st [5] [] [] ;; .st [5] [] []

/-- scripts/plot_domain.py:114-147 `plot_intext` -/
def f_scripts_plot_domain_6 : Func where
  name := "plot_intext"
  locals := ["interior", "node_choices", "labels", "plotname", "colors", "markers", "mfc", "ms", "zipped", "nodes",
    "label", "color", "marker", "_mfc", "_ms", "x_data", "y_data", "filename"]
  params := 1
  cases := [0]
  uses := [0, 1, 2, 4, 5, 11, 13, 14, 24]
  body :=
    .st [13] [] [] ;; .loop (.call 2 [0]) ;; .st [11] [] [] ;; .loop (.call 0 [0]) ;; .st [] [0] [] ;;
    .alt .any
      (.st [24] [] [1] ;; .st [] [] [2] ;; .st [] [] [3])
      (.st [24] [] [1] ;; .st [] [] [2] ;; .st [] [] [3]) ;;
    .st [] [] [4] ;; .st [] [] [5] ;; .st [] [] [6] ;; .st [] [] [7] ;; .st [2] [1, 2, 4, 5, 6, 7] [8] ;;
    .st [] [8] [] ;;
    .loop (.st [] [] [9, 10, 11, 12, 13, 14] ;; .st [14] [9] [] ;; .loop (.call 3 [0]) ;; .st [] [] [15, 16] ;;
      .st [5] [15, 16, 12, 10, 13, 14, 11] []) ;;
    .st [5] [] [] ;; .st [5] [] [] ;; .st [] [3] [17] ;; .st [5] [17] [] ;; .st [5] [] []

/-- scripts/plot_domain.py:149-173 `plot_gamma` -/
def f_scripts_plot_domain_7 : Func where
  name := "plot_gamma"
  locals := ["colors", "markers", "mfc", "ms", "sidmap", "sid", "gamma", "x_data", "y_data", "label_text"]
  params := 0
  cases := [0]
  uses := [0, 1, 4, 5, 13, 14, 24]
  body :=
    .st [13] [] [] ;; .loop (.call 2 [0]) ;;
    .alt .any
      (.st [] [] [0] ;; .st [] [] [1] ;; .st [] [] [2] ;; .st [] [] [3])
      (.st [] [] [0] ;; .st [] [] [1] ;; .st [] [] [2] ;; .st [] [] [3]) ;;
    .st [] [] [4] ;;
    .loop (.st [] [] [5] ;; .st [24] [5] [6] ;; .st [14] [6] [] ;; .loop (.call 3 [0]) ;; .st [] [] [7, 8] ;;
      .st [] [4, 5] [9] ;; .st [5] [7, 8, 1, 5, 9, 2, 0, 3] [])

/-- scripts/plot_domain.py:1-225 -/
def m_scripts_plot_domain : Module where
  file := "scripts/plot_domain.py"
  globals := ["len", "range", "zip", "sys", "np", "plt", "argparse", "ps", "io_util", "problems", "Smooth_Sine",
    "plot_aux", "plot_arc", "plot_Gamma", "nodes_to_plottable", "plot_Mplus", "plot_allMK", "plot_intext",
    "plot_gamma", "parser", "args", "problem", "boundary", "options", "solver"]
  init := 3
  locals := []
  funcs := [f_scripts_plot_domain_0, f_scripts_plot_domain_1, f_scripts_plot_domain_2, f_scripts_plot_domain_3,
    f_scripts_plot_domain_4, f_scripts_plot_domain_5, f_scripts_plot_domain_6, f_scripts_plot_domain_7]
  body :=
    .bg [3] ;; .st [3] [] [] ;; .bg [4] ;; .bg [5] ;; .bg [6] ;; .bg [7] ;; .bg [8] ;; .bg [9] ;; .bg [10] ;;
    .bg [11] ;; .bg [12] ;; .bg [13] ;; .bg [14] ;; .bg [15] ;; .bg [16] ;; .bg [17] ;; .bg [18] ;;
    .st [6] [] [] ;; .bg [19] ;; .st [19] [] [] ;; .st [8, 19] [] [] ;; .st [19] [] [] ;; .bg [20] ;;
    .st [10] [] [] ;; .bg [21] ;; .st [9, 20, 21] [] [] ;; .bg [22] ;; .st [22, 21] [] [] ;;
    .st [21, 22, 20] [] [] ;; .bg [23] ;; .st [7, 23] [] [] ;; .bg [24] ;; .st [20] [] [] ;;
    .alt .any
      (.st [11] [] [] ;; .loop (.call 0 [0]) ;; .st [18] [] [] ;; .loop (.call 7 [0]) ;; .st [5] [] [] ;;
      .st [5] [] [] ;; .st [5] [] [] ;; .st [5] [] [])
      (.st [20] [] [] ;;
      .alt .any
        (.st [12] [] [] ;; .loop (.call 1 [0]) ;; .st [13] [] [] ;; .loop (.call 2 [0]) ;; .st [5] [] [] ;;
        .st [5] [] [])
        (.st [20] [] [] ;;
        .alt .any
          (.st [16] [] [] ;; .loop (.call 5 [0]))
          (.st [20] [] [] ;;
          .alt .any
            (.st [16] [] [] ;; .loop (.call 5 [1]))
            (.st [20] [] [] ;;
            .alt .any
              (.st [17] [] [] ;; .loop (.call 6 [0]))
              (.st [20] [] [] ;;
              .alt .any
                (.st [17] [] [] ;; .loop (.call 6 [0]))
                (.st [20] [] [] ;;
                .alt .any
                  (.st [11] [] [] ;; .loop (.call 0 [0]) ;; .st [13] [] [] ;; .loop (.call 2 [0]) ;;
                  .st [5] [] [] ;; .st [5] [] [] ;; .st [5] [] [] ;; .st [5] [] [])
                  .skip))))))
  final := [0, 1, 2, 3, 4, 5, 6, 7, 8, 9, 10, 11, 12, 13, 14, 15, 16, 17, 18, 19, 20, 21, 22, 23, 24]

/-- scripts/plot_domain2.py:16-21 `plot_aux` -/
def f_scripts_plot_domain2_0 : Func where
  name := "plot_aux"
  locals := ["s", "x_data", "y_data"]
  params := 0
  cases := [0]
  uses := [4, 26]
  body :=
    .st [26] [] [0] ;; .st [] [0] [1] ;; .st [] [0] [2] ;; .st [4] [1, 2] []

/-- scripts/plot_domain2.py:23-28 `plot_arc` -/
def f_scripts_plot_domain2_1 : Func where
  name := "plot_arc"
  locals := ["color", "linestyle", "linewidth", "th_data", "x_data", "y_data"]
  params := 3
  cases := [0]
  uses := [3, 4, 26]
  body :=
    .st [3, 26] [] [3] ;; .st [26, 3] [3] [4] ;; .st [26, 3] [3] [5] ;; .st [4] [4, 5, 1, 0, 2] []

/-- scripts/plot_domain2.py:30-42 `plot_Gamma` -/
def f_scripts_plot_domain2_2 : Func where
  name := "plot_Gamma"
  locals := ["sid", "color", "marker", "label", "ms", "Gamma_x_data", "Gamma_y_data", "p"]
  params := 5
  cases := [0]
  uses := [4, 26]
  body :=
    .st [] [] [5] ;; .st [] [] [6] ;; .st [26] [] [] ;;
    .loop (.st [] [] [7] ;; .st [] [7, 0] [] ;; .alt .any .cont .skip ;; .st [] [5, 7] [] ;; .st [] [6, 7] []) ;;
    .st [4] [5, 6, 1, 2, 3, 4] []

/-- scripts/plot_domain2.py:44-55 `nodes_to_plottable` -/
def f_scripts_plot_domain2_3 : Func where
  name := "nodes_to_plottable"
  locals := ["nodes", "x_data", "y_data", "l", "i", "j", "x", "y"]
  params := 1
  cases := [0]
  uses := [0, 3, 26]
  body :=
    .st [3, 0] [0] [1] ;; .st [3, 0] [0] [2] ;; .st [] [] [3] ;; .st [] [0] [] ;;
    .loop (.st [] [] [4, 5] ;; .st [26] [4, 5] [6, 7] ;; .st [] [6, 1, 3] [] ;; .st [] [7, 2, 3] [] ;;
      .st [] [3] [] ;; .st [] [] [3]) ;;
    .st [] [1, 2] [] ;; .ret

/-- scripts/plot_domain2.py:57-74 `plot_Mplus` -/
def f_scripts_plot_domain2_4 : Func where
  name := "plot_Mplus"
  locals := ["colors", "markers", "sid", "Mplus", "x_data", "y_data", "label_text"]
  params := 0
  cases := [0]
  uses := [0, 1, 3, 4, 12, 13, 26]
  body :=
    .st [12] [] [] ;; .loop (.call 2 [0]) ;; .st [] [] [0] ;; .st [] [] [1] ;; .st [1] [] [] ;;
    .loop (.st [] [] [2] ;; .st [26] [2] [3] ;; .st [13] [3] [] ;; .loop (.call 3 [0]) ;; .st [] [] [4, 5] ;;
      .st [] [2] [6] ;; .st [4] [4, 5, 1, 2, 6, 0] []) ;;
    .st [4] [] [] ;; .st [4] [] [] ;; .st [4] [] [] ;; .st [4] [] []

/-- scripts/plot_domain2.py:76-94 `plot_gamma` -/
def f_scripts_plot_domain2_5 : Func where
  name := "plot_gamma"
  locals := ["colors", "markers", "sid", "gamma", "x_data", "y_data", "label_text"]
  params := 0
  cases := [0]
  uses := [0, 1, 3, 4, 12, 13, 26]
  body :=
    .st [12] [] [] ;; .loop (.call 2 [0]) ;; .st [] [] [0] ;; .st [] [] [1] ;; .st [1] [] [] ;;
    .loop (.st [] [] [2] ;; .st [26] [2] [3] ;; .st [13] [3] [] ;; .loop (.call 3 [0]) ;; .st [] [] [4, 5] ;;
      .st [] [2] [6] ;; .st [4] [4, 5, 1, 2, 6, 0] []) ;;
    .st [4] [] [] ;; .st [4] [] [] ;; .st [4] [] [] ;; .st [4] [] []

/-- scripts/plot_domain2.py:1-150 -/
def m_scripts_plot_domain2 : Module where
  file := "scripts/plot_domain2.py"
  globals := ["len", "range", "sys", "np", "plt", "argparse", "ps", "io_util", "problems", "Smooth_Sine", "plot_aux",
    "plot_arc", "plot_Gamma", "nodes_to_plottable", "plot_Mplus", "plot_gamma", "problem", "dms", "data",
    "i", "data1", "a", "b0", "b1", "boundary", "options", "solver"]
  init := 2
  locals := []
  funcs := [f_scripts_plot_domain2_0, f_scripts_plot_domain2_1, f_scripts_plot_domain2_2,
    f_scripts_plot_domain2_3, f_scripts_plot_domain2_4, f_scripts_plot_domain2_5]
  body :=
    .bg [2] ;; .st [2] [] [] ;; .bg [3] ;; .bg [4] ;; .bg [5] ;; .bg [6] ;; .bg [7] ;; .bg [8] ;; .bg [9] ;;
    .bg [10] ;; .bg [11] ;; .bg [12] ;; .bg [13] ;; .bg [14] ;; .bg [15] ;; .st [9] [] [] ;; .bg [16] ;;
    .bg [17] ;; .st [3, 17] [] [] ;; .bg [18] ;; .bg [19] ;; .st [18] [] [] ;;
    .loop (.bg [20] ;; .st [20] [] [] ;; .bg [21] ;; .st [20] [] [] ;; .bg [22] ;; .st [20] [] [] ;; .bg [23] ;;
      .st [8, 22, 16, 21] [] [] ;; .bg [24] ;; .st [24, 16] [] [] ;; .st [21, 16] [] [] ;;
      .st [16, 24] [] [] ;; .bg [25] ;; .st [6, 25] [] [] ;; .bg [26] ;; .st [11] [] [] ;;
      .loop (.call 1 [0]) ;; .st [12] [] [] ;; .loop (.call 2 [0]) ;; .st [12] [] [] ;; .loop (.call 2 [0]) ;;
      .st [12, 22] [] [] ;; .loop (.call 2 [0]) ;; .st [8, 23, 16, 25] [] [] ;; .st [25, 16] [] [] ;;
      .st [6, 25] [] [] ;; .bg [26] ;; .st [12, 23] [] [] ;; .loop (.call 2 [0]) ;; .st [4] [] [] ;;
      .st [4] [] [] ;; .st [4] [] [] ;; .st [4, 19] [] [] ;; .st [4] [] [] ;; .st [19] [] [] ;; .bg [19])
  final := [0, 1, 2, 3, 4, 5, 6, 7, 8, 9, 10, 11, 12, 13, 14, 15, 16, 17, 18, 19]

/-- scripts/polarfd/sym.py:4-5 `do_lapacian` -/
def f_scripts_polarfd_sym_0 : Func where
  name := "do_lapacian"
  locals := ["u"]
  params := 1
  cases := [0]
  uses := [8, 9, 10, 25]
  body :=
    .st [25, 9, 10, 8] [0] [] ;; .ret

/-- scripts/polarfd/sym.py:1-36 -/
def m_scripts_polarfd_sym : Module where
  file := "scripts/polarfd/sym.py"
  globals := ["range", "scipy", "do_lapacian", "_k", "pi", "a", "nu", "symbols", "k", "r", "th", "kr2", "v_asympt0",
    "l", "x", "factorial", "gamma", "sympify", "sin", "v_asympt", "f", "modules", "lambdify",
    "eval_v_asympt", "eval_f", "diff", "eval_d_f_r", "eval_d2_f_r", "eval_d2_f_th"]
  init := 1
  locals := []
  funcs := [f_scripts_polarfd_sym_0]
  body :=
    .bg [4, 7, 15, 16, 17, 18, 22, 25] ;; .bg [1] ;; .bg [2] ;; .bg [3] ;; .st [4] [] [] ;; .bg [5] ;;
    .st [4, 5] [] [] ;; .bg [6] ;; .st [7] [] [] ;; .bg [8, 9, 10] ;; .st [8, 9] [] [] ;; .bg [11] ;;
    .bg [12] ;; .st [0] [] [] ;;
    .loop (.bg [13] ;; .st [13] [] [] ;; .bg [14] ;; .st [12] [] [] ;; .st [13, 15, 16, 14, 11] [] [] ;; .bg [12]) ;;
    .st [12] [] [] ;; .st [11, 17] [] [] ;; .bg [12] ;; .st [12, 18, 6, 10, 5] [] [] ;; .bg [19] ;;
    .st [2, 19] [] [] ;; .loop (.call 0 [0]) ;; .bg [20] ;; .st [20, 8, 3] [] [] ;; .bg [20] ;;
    .st [1] [] [] ;; .bg [21] ;; .st [22, 9, 10, 19, 8, 3, 21] [] [] ;; .bg [23] ;;
    .st [22, 9, 10, 20, 21] [] [] ;; .bg [24] ;; .st [22, 9, 10, 25, 20, 21] [] [] ;; .bg [26] ;;
    .st [22, 9, 10, 25, 20, 21] [] [] ;; .bg [27] ;; .st [22, 9, 10, 25, 20, 21] [] [] ;; .bg [28]
  final := [0, 1, 2, 3, 4, 5, 6, 7, 8, 9, 10, 11, 12, 15, 16, 17, 18, 19, 20, 21, 22, 23, 24, 25, 26, 27, 28]

/-- scripts/polarfd/test.py:18-19 `eval_u` -/
def f_scripts_polarfd_test_0 : Func where
  name := "eval_u"
  locals := ["r", "th"]
  params := 2
  cases := [0]
  uses := [3, 4, 6, 12, 13, 14]
  body :=
    .st [4, 14, 12, 3, 13, 6] [0, 1] [] ;; .ret

/-- scripts/polarfd/test.py:21-32 `get_N_list` -/
def f_scripts_polarfd_test_1 : Func where
  name := "get_N_list"
  locals := ["N0", "c", "N_list", "N"]
  params := 2
  cases := [0]
  uses := []
  body :=
    .st [] [1] [] ;; .alt .any (.st [] [0] [] ;; .ret) .skip ;; .st [] [] [2] ;; .st [] [0] [3] ;;
    .st [] [3, 1] [] ;; .loop (.st [] [2, 3] [] ;; .st [] [3] [] ;; .st [] [] [3] ;; .st [] [3, 1] []) ;;
    .st [] [2] [] ;; .ret

/-- scripts/polarfd/test.py:38-39 `eval_phi0` -/
def f_scripts_polarfd_test_2 : Func where
  name := "eval_phi0"
  locals := ["th"]
  params := 1
  cases := [0]
  uses := [3, 4, 6, 12, 13, 14, 15, 18]
  body :=
    .st [15, 18] [0] [] ;; .loop (.call 0 [0]) ;; .ret

/-- scripts/polarfd/test.py:41-42 `eval_phi1` -/
def f_scripts_polarfd_test_3 : Func where
  name := "eval_phi1"
  locals := ["r"]
  params := 1
  cases := [0]
  uses := [3, 4, 6, 12, 13, 14, 15]
  body :=
    .st [15, 3] [0] [] ;; .loop (.call 0 [0]) ;; .ret

/-- scripts/polarfd/test.py:44-45 `eval_phi2` -/
def f_scripts_polarfd_test_4 : Func where
  name := "eval_phi2"
  locals := ["r"]
  params := 1
  cases := [0]
  uses := [3, 4, 6, 12, 13, 14, 15]
  body :=
    .st [15, 13] [0] [] ;; .loop (.call 0 [0]) ;; .ret

/-- scripts/polarfd/test.py:47-54 `convert` -/
def f_scripts_polarfd_test_5 : Func where
  name := "convert"
  locals := ["u", "N", "new", "m", "l"]
  params := 1
  cases := [0]
  uses := [1, 3, 28]
  body :=
    .st [28] [] [1] ;; .st [3] [1] [2] ;; .st [1] [1] [] ;;
    .loop (.st [] [] [3] ;; .st [1] [1] [] ;; .loop (.st [] [] [4] ;; .st [28] [0, 3, 4, 2] [])) ;;
    .st [] [2] [] ;; .ret

/-- scripts/polarfd/test.py:1-95 -/
def m_scripts_polarfd_test : Module where
  file := "scripts/polarfd/test.py"
  globals := ["print", "range", "sys", "np", "jv", "PolarFD", "eval_v_asympt", "eval_f", "eval_d_f_r", "eval_d2_f_r",
    "eval_d2_f_th", "_k", "k", "a", "nu", "eval_u", "get_N_list", "N_list", "R1", "eval_phi0", "eval_phi1",
    "eval_phi2", "convert", "prev_error", "u2", "u1", "u0", "N", "my_polarfd", "u", "exp", "m", "r", "l",
    "th", "error", "convergence"]
  init := 2
  locals := []
  funcs := [f_scripts_polarfd_test_0, f_scripts_polarfd_test_1, f_scripts_polarfd_test_2,
    f_scripts_polarfd_test_3, f_scripts_polarfd_test_4, f_scripts_polarfd_test_5]
  body :=
    .bg [2] ;; .st [2] [] [] ;; .bg [3] ;; .bg [4] ;; .bg [5] ;; .bg [6, 7, 8, 9, 10, 11] ;; .st [11] [] [] ;;
    .bg [12] ;; .st [3] [] [] ;; .bg [13] ;; .st [3, 13] [] [] ;; .bg [14] ;; .bg [15] ;; .bg [16] ;;
    .st [16] [] [] ;; .loop (.call 1 [0]) ;; .bg [17] ;; .bg [18] ;; .bg [19] ;; .bg [20] ;; .bg [21] ;;
    .bg [22] ;; .bg [23] ;; .bg [24] ;; .bg [25] ;; .bg [26] ;; .st [17] [] [] ;;
    .loop (.bg [27] ;; .st [0, 27] [] [] ;; .st [5] [] [] ;; .bg [28] ;;
      .st [28, 27, 12, 13, 14, 18, 19, 20, 21, 7, 8, 9, 10] [] [] ;; .loop (.call 2 [0]) ;;
      .loop (.call 3 [0]) ;; .loop (.call 4 [0]) ;; .bg [29] ;; .st [3, 27] [] [] ;; .bg [30] ;;
      .st [1, 27] [] [] ;;
      .loop (.bg [31] ;; .st [28, 31] [] [] ;; .bg [32] ;; .st [1, 27] [] [] ;;
        .loop (.bg [33] ;; .st [28, 33] [] [] ;; .bg [34] ;; .st [15, 32, 34, 30, 28, 31, 33] [] [] ;;
          .loop (.call 0 [0]))) ;;
      .st [3, 29, 30] [] [] ;; .bg [35] ;; .st [0, 35] [] [] ;; .st [23] [] [] ;;
      .alt .any (.st [3, 23, 35] [] [] ;; .bg [36] ;; .st [0, 36] [] []) .skip ;; .st [25] [] [] ;; .bg [24] ;;
      .st [26] [] [] ;; .bg [25] ;; .st [22, 29] [] [] ;; .loop (.call 5 [0]) ;; .bg [26] ;; .st [24] [] [] ;;
      .alt .any (.st [0, 28, 26, 25, 24] [] []) .skip ;; .st [0] [] [] ;; .st [2] [] [] ;; .st [35] [] [] ;;
      .bg [23])
  final := [0, 1, 2, 3, 4, 5, 6, 7, 8, 9, 10, 11, 12, 13, 14, 15, 16, 17, 18, 19, 20, 21, 22, 23, 24, 25, 26]

/-- scripts/resonance.py:1-38 -/
def m_scripts_resonance : Module where
  file := "scripts/resonance.py"
  globals := ["len", "eval", "range", "print", "np", "it", "sys", "s_str", "pi", "s", "a_cap", "bad_k2", "a", "b", "k2"]
  init := 4
  locals := []
  funcs := []
  body :=
    .bg [4] ;; .bg [5] ;; .bg [6] ;; .st [0, 6] [] [] ;; .alt .any (.st [6] [] [] ;; .bg [7]) (.bg [7]) ;;
    .st [4] [] [] ;; .bg [8] ;; .st [1, 7] [] [] ;; .bg [9] ;; .bg [10] ;; .bg [11] ;; .st [2, 10] [] [] ;;
    .loop (.bg [12] ;; .st [2, 12, 10] [] [] ;;
      .loop (.bg [13] ;; .st [3, 12, 13] [] [] ;; .st [12, 4, 9, 13] [] [] ;; .bg [14] ;; .st [11, 14] [] [])) ;;
    .st [3, 7] [] [] ;; .st [11] [] [] ;; .st [3] [] [] ;; .st [4] [] [] ;; .st [3, 4, 11] [] []
  final := [0, 1, 2, 3, 4, 5, 6, 7, 8, 9, 10, 11]

/-- scripts/test_extend_f.py:42-61 `run_test` -/
def f_scripts_test_extend_f_0 : Func where
  name := "run_test"
  locals := ["N", "solver", "error", "node", "r", "th", "diff"]
  params := 1
  cases := [0]
  uses := [7, 10, 11, 21, 22, 24]
  body :=
    .st [24] [0] [] ;; .st [11, 24] [] [1] ;; .st [] [] [2] ;; .st [] [1] [] ;;
    .loop (.st [] [] [3] ;; .st [21] [1, 3] [] ;;
      .alt .any (.st [] [1, 3] [4, 5] ;; .st [7, 22] [4, 5, 1, 3] [6] ;; .st [] [2, 6] []) .skip) ;;
    .st [10] [2] [] ;; .ret

/-- scripts/test_extend_f.py:1-108 -/
def m_scripts_test_extend_f : Module where
  file := "scripts/test_extend_f.py"
  globals := ["__name__", "list", "map", "str", "range", "int", "print", "abs", "sys", "argparse", "np", "ps",
    "Smooth_YCos", "Arc", "OuterSine", "io_util", "run_test", "prec_str", "parser", "sid_choices", "args",
    "allowed_sid", "problem", "boundary", "options", "meta_options", "N", "c", "prev_error", "error",
    "convergence"]
  init := 8
  locals := []
  funcs := [f_scripts_test_extend_f_0]
  body :=
    .bg [8] ;; .st [8] [] [] ;; .bg [9] ;; .bg [10] ;; .bg [11] ;; .bg [12] ;; .bg [13, 14] ;; .bg [15] ;;
    .bg [16] ;; .bg [17] ;; .st [0] [] [] ;;
    .alt .any
      (.st [9] [] [] ;; .bg [18] ;; .st [1, 2, 3, 4] [] [] ;; .bg [19] ;; .st [18, 19] [] [] ;;
      .st [18] [] [] ;; .bg [20] ;; .st [1, 2, 5, 20] [] [] ;; .bg [21] ;; .st [12] [] [] ;; .bg [22] ;;
      .st [14, 22] [] [] ;; .bg [23] ;; .st [23, 22] [] [] ;; .st [22] [] [] ;; .bg [24] ;; .bg [25] ;;
      .st [15, 24, 25] [] [] ;; .bg [26] ;; .bg [27] ;; .bg [28] ;; .st [26, 27] [] [] ;;
      .loop (.st [6, 26] [] [] ;; .st [16, 26] [] [] ;; .loop (.call 0 [0]) ;; .bg [29] ;; .st [6, 17, 29] [] [] ;;
        .st [28] [] [] ;; .alt .any (.st [10, 28, 29] [] [] ;; .bg [30] ;; .st [6, 17, 30] [] []) .skip ;;
        .st [6] [] [] ;; .st [29] [] [] ;; .bg [28] ;; .st [26] [] [] ;; .bg [26] ;; .st [26, 27] [] []))
      .skip
  final := [0, 1, 2, 3, 4, 5, 6, 7, 8, 9, 10, 11, 12, 13, 14, 15, 16, 17]

/-- scripts/zmethod/interp_test.py:18-19 `eval_v` -/
def f_scripts_zmethod_interp_test_0 : Func where
  name := "eval_v"
  locals := ["r", "th"]
  params := 2
  cases := [0]
  uses := [3]
  body :=
    .st [3] [0, 1] [] ;; .ret

/-- scripts/zmethod/interp_test.py:1-64 -/
def m_scripts_zmethod_interp_test : Module where
  file := "scripts/zmethod/interp_test.py"
  globals := ["range", "print", "sys", "np", "ZMethod", "PolarFD", "a", "nu", "R", "eval_v", "prev_error", "Boundary",
    "boundary", "N", "my_zmethod", "my_polarfd", "v", "m", "r", "l", "th", "v_interp", "N2", "diff",
    "error", "con"]
  init := 2
  locals := []
  funcs := [f_scripts_zmethod_interp_test_0]
  body :=
    .bg [2] ;; .st [2] [] [] ;; .bg [3] ;; .bg [4] ;; .bg [5] ;; .st [3] [] [] ;; .bg [6] ;;
    .st [3, 6] [] [] ;; .bg [7] ;; .bg [8] ;; .bg [9] ;; .bg [10] ;; .frame [] .skip ;; .bg [11] ;;
    .st [11] [] [] ;; .bg [12] ;; .st [8, 12] [] [] ;; .st [12] [] [] ;;
    .loop (.bg [13] ;; .st [4] [] [] ;; .bg [14] ;; .st [13, 14] [] [] ;; .st [12, 14] [] [] ;;
      .st [5, 13, 6, 7, 8] [] [] ;; .bg [15] ;; .st [15, 14] [] [] ;; .st [3, 13] [] [] ;; .bg [16] ;;
      .st [0, 13] [] [] ;;
      .loop (.bg [17] ;; .st [15, 17] [] [] ;; .bg [18] ;; .st [0, 13] [] [] ;;
        .loop (.bg [19] ;; .st [15, 19] [] [] ;; .bg [20] ;; .st [9, 18, 20, 16, 17, 19] [] [] ;;
          .loop (.call 0 [0]))) ;;
      .st [16, 14] [] [] ;; .st [14] [] [] ;; .bg [21] ;; .st [13] [] [] ;; .bg [22] ;; .bg [23] ;;
      .st [3, 8, 22] [] [] ;;
      .loop (.bg [18] ;; .st [3, 6, 22] [] [] ;;
        .loop (.bg [20] ;; .st [23, 21, 18, 20, 9] [] [] ;; .loop (.call 0 [0]))) ;;
      .st [3, 23] [] [] ;; .bg [24] ;; .st [1, 13] [] [] ;; .st [1, 24] [] [] ;; .st [10] [] [] ;;
      .alt .any (.st [3, 10, 24] [] [] ;; .bg [25] ;; .st [1, 25] [] []) .skip ;; .st [1] [] [] ;;
      .st [24] [] [] ;; .bg [10])
  final := [0, 1, 2, 3, 4, 5, 6, 7, 8, 9, 10, 11, 12]

/-- test/__init__.py:1 -/
def m_test_init : Module where
  file := "test/__init__.py"
  globals := []
  init := 0
  locals := []
  funcs := []
  body :=
    .skip
  final := []

/-- test/ps/__init__.py:1 -/
def m_test_ps_init : Module where
  file := "test/ps/__init__.py"
  globals := []
  init := 0
  locals := []
  funcs := []
  body :=
    .skip
  final := []

/-- test/ps/test_multivalue.py:9-28 `is_equal` -/
def f_test_ps_test_multivalue_0 : Func where
  name := "is_equal"
  locals := ["mv1", "mv2", "tol", "node", "i", "dict1", "dict2"]
  params := 2
  cases := [0]
  uses := [0, 1, 2]
  body :=
    .st [] [] [2] ;; .st [] [0, 1] [] ;; .alt .any .ret .skip ;; .st [] [0] [] ;;
    .loop (.st [] [] [3] ;; .st [0, 1] [0, 3] [] ;;
      .loop (.st [] [] [4] ;; .st [] [0, 3, 4] [5] ;; .st [] [1, 3, 4] [6] ;; .st [2] [5, 6, 2] [] ;;
        .alt .any .ret .skip)) ;;
    .ret

/-- test/ps/test_multivalue.py:32-54 `TestMultivalue.setUp` -/
def f_test_ps_test_multivalue_1 : Func where
  name := "TestMultivalue.setUp"
  locals := ["self"]
  params := 1
  cases := [0]
  uses := [6]
  body :=
    .st [] [0] [] ;; .st [6] [0] [] ;; .st [] [0] [] ;; .st [] [0] []

/-- test/ps/test_multivalue.py:56-61 `TestMultivalue.test_getitem` -/
def f_test_ps_test_multivalue_2 : Func where
  name := "TestMultivalue.test_getitem"
  locals := ["self"]
  params := 1
  cases := [0]
  uses := [3]
  body :=
    .st [] [0] [] ;; .st [3] [0] [] ;; .st [] [0] []

/-- test/ps/test_multivalue.py:63-104 `TestMultivalue.test_add` -/
def f_test_ps_test_multivalue_3 : Func where
  name := "TestMultivalue.test_add"
  locals := ["self", "mv2", "expected"]
  params := 1
  cases := [0]
  uses := [0, 1, 2, 6, 7]
  body :=
    .st [6] [0] [1] ;; .st [] [1] [] ;; .st [] [1] [] ;; .st [6] [0] [2] ;; .st [] [2] [] ;; .st [] [2] [] ;;
    .st [7] [0, 2, 1] [] ;; .loop (.call 0 [0]) ;; .st [7] [0, 2, 1] [] ;; .loop (.call 0 [0])

/-- test/ps/test_multivalue.py:106-109 `TestMultivalue.test_reduce_mv1` -/
def f_test_ps_test_multivalue_4 : Func where
  name := "TestMultivalue.test_reduce_mv1"
  locals := ["self", "expected"]
  params := 1
  cases := [0]
  uses := [5]
  body :=
    .st [5] [] [1] ;; .st [5] [0, 1] []

/-- test/ps/test_multivalue.py:111-130 `TestMultivalue.test_reduce0` -/
def f_test_ps_test_multivalue_5 : Func where
  name := "TestMultivalue.test_reduce0"
  locals := ["self", "mv", "reduced_value"]
  params := 1
  cases := [0]
  uses := [6]
  body :=
    .st [6] [] [1] ;; .st [] [1] [] ;; .st [] [1] [2] ;; .st [] [0, 2] []

/-- test/ps/test_multivalue.py:1-130 -/
def m_test_ps_test_multivalue : Module where
  file := "test/ps/test_multivalue.py"
  globals := ["range", "len", "abs", "KeyError", "unittest", "np", "Multivalue", "is_equal", "TestMultivalue"]
  init := 4
  locals := ["TestMultivalue.setUp", "TestMultivalue.test_add", "TestMultivalue.test_getitem",
    "TestMultivalue.test_reduce0", "TestMultivalue.test_reduce_mv1"]
  funcs := [f_test_ps_test_multivalue_0, f_test_ps_test_multivalue_1, f_test_ps_test_multivalue_2,
    f_test_ps_test_multivalue_3, f_test_ps_test_multivalue_4, f_test_ps_test_multivalue_5]
  body :=
    .bg [4] ;; .bg [5] ;; .bg [6] ;; .bg [7] ;; .st [4] [] [] ;;
    .frame [0, 1, 2, 3, 4] (.st [] [] [0] ;; .st [] [] [2] ;; .st [] [] [1] ;; .st [] [] [4] ;; .st [] [] [3]) ;;
    .bg [8]
  final := [0, 1, 2, 3, 4, 5, 6, 7, 8]

end Pot.Names
