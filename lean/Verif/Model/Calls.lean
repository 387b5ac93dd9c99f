import Mathlib.Data.List.Basic

/-!
# The calls of the repository: signatures and arguments

How the interpreter matches the arguments of a call with the parameters of the function, the signatures of all 281 functions and
methods of the repository (nested functions included, each cited with file and line), and the 486 calls in the repository whose function is
one of them.

A function is its parameters in their order (without `self`), the number of those without a default, whether there are `*args` and
`**kwargs`, and the keys that its body reads from its `kwargs` (`kwargs[key]` and `kwargs.pop(key)`).  A call is the place in the source, the function it
is in, the functions it may reach, the number of positional arguments, the keyword arguments, and whether the caller's own `kwargs` are
passed on, less the keys in the last field.

Which functions a call may reach: a name is looked up in the enclosing functions, the module and the imports; `self.m` reaches the methods
`m` of all classes that share a descendant with the class; for other receivers the class is the one of the variable's role (`problem`,
`boundary`, `solver`, `polarfd`, `mv_ext`, …) with all classes of its family.  So a call may have more targets than any one execution has.

Simplifications.  Keyword names are numbers (the namespace `Key` gives the names); `*node`, `*n_basis_tuple` and the like count as two
positional arguments; `**derivs` and `**xi_derivs` (ps/extend.py) have the keys of `get_deriv_name` for the `deriv_types` of
the function; `kwargs['d2_f_s'] = …` (extend.py:142) replaces the key, so it is left out of what is passed on and is added as a keyword.  Left out: calls of
classes and of `super().__init__` (Model/Classes.lean), calls of library functions, of lambdas and of functions stored in attributes or
passed as arguments (Model/FuncVals.lean).
-/

namespace Pot
namespace Calls

/-- a signature -/
structure Sig where
  params : List ℕ
  /-- the first `req` parameters have no default -/
  req : ℕ
  vararg : Bool
  kwarg : Bool

/-- a function: where it is, its signature, and the keys that it reads from its `kwargs` -/
structure Fn where
  name : String
  sig : Sig
  needs : List ℕ

/-- a call: where it is, the function it is in, the functions it may reach, and its arguments -/
structure Call where
  place : String
  caller : Option ℕ
  targets : List ℕ
  npos : ℕ
  kws : List ℕ
  /-- whether the `kwargs` of the caller are passed on -/
  fwd : Bool
  /-- the keys of `kwargs` that are not passed on -/
  drop : List ℕ

/-- why a call ends in `TypeError` -/
inductive ArgErr where
  /-- a keyword is given twice -/
  | duplicate
  /-- a parameter gets a positional and a keyword argument -/
  | multiple (k : ℕ)
  /-- no parameter has this name -/
  | unexpected (k : ℕ)
  /-- there are too many positional arguments -/
  | tooMany
  /-- a parameter without default gets no argument -/
  | missing (p : ℕ)
  deriving DecidableEq

/-- what a call binds: parameters (those that keep their default are left out), `*args` and `**kwargs` -/
structure Frame (V : Type) where
  loc : List (ℕ × V)
  rest : List V
  extra : List (ℕ × V)

variable {V : Type}

/-- the keyword arguments, one after the other -/
def bindKw (s : Sig) : Frame V → List (ℕ × V) → Except ArgErr (Frame V)
  | fr, [] => .ok fr
  | fr, (k, v) :: l =>
    if k ∈ fr.loc.map Prod.fst then .error (.multiple k)
    else if k ∈ s.params then bindKw s { fr with loc := fr.loc ++ [(k, v)] } l
    else if s.kwarg = true then bindKw s { fr with extra := fr.extra ++ [(k, v)] } l
    else .error (.unexpected k)

/-- the checks after the keyword arguments: the number of positional arguments, and the parameters without default -/
def finish (s : Sig) (n : ℕ) (fr : Frame V) : Except ArgErr (Frame V) :=
  if s.params.length < n ∧ s.vararg = false then .error .tooMany
  else match (s.params.take s.req).find? (fun p => decide (p ∉ fr.loc.map Prod.fst)) with
    | some p => .error (.missing p)
    | none => .ok fr

/-- the arguments of a call and the parameters of the function -/
def bind (s : Sig) (args : List V) (kw : List (ℕ × V)) : Except ArgErr (Frame V) :=
  if (kw.map Prod.fst).Nodup then
    match bindKw s ⟨s.params.zip args, args.drop s.params.length, []⟩ kw with
    | .error e => .error e
    | .ok fr => finish s args.length fr
  else .error .duplicate

/-! ## Names of parameters and keys -/

namespace Key
abbrev problem : ℕ := 0
abbrev boundary : ℕ := 1
abbrev eval_bc0 : ℕ := 2
abbrev M : ℕ := 3
abbrev m1 : ℕ := 4
abbrev a_coef : ℕ := 5
abbrev k : ℕ := 6
abbrev R : ℕ := 7
abbrev nu : ℕ := 8
abbrev b_coef : ℕ := 9
abbrev coef : ℕ := 10
abbrev coef_type : ℕ := 11
abbrev J : ℕ := 12
abbrev t : ℕ := 13
abbrev n : ℕ := 14
abbrev x : ℕ := 15
abbrev y : ℕ := 16
abbrev a : ℕ := 17
abbrev arg : ℕ := 18
abbrev sid : ℕ := 19
abbrev th : ℕ := 20
abbrev curv : ℕ := 21
abbrev d_curv_th : ℕ := 22
abbrev d2_curv_th : ℕ := 23
abbrev d_th_s : ℕ := 24
abbrev d2_th_s : ℕ := 25
abbrev d3_th_s : ℕ := 26
abbrev d4_th_s : ℕ := 27
abbrev d_xi0_th : ℕ := 28
abbrev d_xi1_th : ℕ := 29
abbrev d2_xi0_th : ℕ := 30
abbrev d2_xi1_th : ℕ := 31
abbrev d3_xi0_th : ℕ := 32
abbrev d4_xi0_th : ℕ := 33
abbrev xi0 : ℕ := 34
abbrev xi1 : ℕ := 35
abbrev d : ℕ := 36
abbrev d2 : ℕ := 37
abbrev d3 : ℕ := 38
abbrev d4 : ℕ := 39
abbrev d_curv_s : ℕ := 40
abbrev d2_curv_s : ℕ := 41
abbrev d_xi0_s : ℕ := 42
abbrev d_xi1_s : ℕ := 43
abbrev d2_xi0_s : ℕ := 44
abbrev d2_xi1_s : ℕ := 45
abbrev d4_xi0_s : ℕ := 46
abbrev d_f_th : ℕ := 47
abbrev d2_f_th : ℕ := 48
abbrev d_f_r : ℕ := 49
abbrev d2_f_r : ℕ := 50
abbrev d2_f_r_th : ℕ := 51
abbrev d_r_th : ℕ := 52
abbrev d2_r_th : ℕ := 53
abbrev f : ℕ := 54
abbrev d_f_n : ℕ := 55
abbrev d2_f_n : ℕ := 56
abbrev d2_f_s : ℕ := 57
abbrev N : ℕ := 58
abbrev order : ℕ := 59
abbrev AD_len : ℕ := 60
abbrev Bf : ℕ := 61
abbrev solve : ℕ := 62
abbrev v : ℕ := 63
abbrev func : ℕ := 64
abbrev parser : ℕ := 65
abbrev args : ℕ := 66
abbrev options : ℕ := 67
abbrev meta_options : ℕ := 68
abbrev bet : ℕ := 69
abbrev r1 : ℕ := 70
abbrev th1 : ℕ := 71
abbrev r : ℕ := 72
abbrev K : ℕ := 73
abbrev nterms : ℕ := 74
abbrev n_circle : ℕ := 75
abbrev n_radius : ℕ := 76
abbrev JJ : ℕ := 77
abbrev index : ℕ := 78
abbrev extended : ℕ := 79
abbrev arg_data : ℕ := 80
abbrev nodes : ℕ := 81
abbrev etypes : ℕ := 82
abbrev plot : ℕ := 83
abbrev u : ℕ := 84
abbrev i : ℕ := 85
abbrev j : ℕ := 86
abbrev d_xi0_arg : ℕ := 87
abbrev d_xi1_arg : ℕ := 88
abbrev d2_xi0_arg : ℕ := 89
abbrev d2_xi1_arg : ℕ := 90
abbrev d4_xi0_arg : ℕ := 91
abbrev deriv_types : ℕ := 92
abbrev human_readable_keys : ℕ := 93
abbrev basis_index : ℕ := 94
abbrev taylor_sid : ℕ := 95
abbrev delta_arg : ℕ := 96
abbrev derivs : ℕ := 97
abbrev homogeneous_only : ℕ := 98
abbrev scheme_order : ℕ := 99
abbrev node : ℕ := 100
abbrev setype : ℕ := 101
abbrev x0 : ℕ := 102
abbrev y0 : ℕ := 103
abbrev _x : ℕ := 104
abbrev _y : ℕ := 105
abbrev radius_sid : ℕ := 106
abbrev x1 : ℕ := 107
abbrev y1 : ℕ := 108
abbrev tan : ℕ := 109
abbrev mv2 : ℕ := 110
abbrev u1 : ℕ := 111
abbrev u2 : ℕ := 112
abbrev s : ℕ := 113
abbrev initial_func : ℕ := 114
abbrev d_initial_func : ℕ := 115
abbrev eval_f1 : ℕ := 116
abbrev R0 : ℕ := 117
abbrev Y : ℕ := 118
abbrev R1 : ℕ := 119
abbrev m : ℕ := 120
abbrev l : ℕ := 121
abbrev «local» : ℕ := 122
abbrev eval_phi_initial : ℕ := 123
abbrev eval_phi0 : ℕ := 124
abbrev eval_phi1 : ℕ := 125
abbrev eval_phi2 : ℕ := 126
abbrev eval_f : ℕ := 127
abbrev eval_d_f_r : ℕ := 128
abbrev eval_d2_f_r : ℕ := 129
abbrev eval_d2_f_th : ℕ := 130
abbrev u0 : ℕ := 131
abbrev ext : ℕ := 132
abbrev w : ℕ := 133
abbrev expr : ℕ := 134
abbrev N0 : ℕ := 135
abbrev c : ℕ := 136
abbrev array : ℕ := 137
abbrev problem_name : ℕ := 138
abbrev boundary_name : ℕ := 139
abbrev max_error : ℕ := 140
abbrev «label» : ℕ := 141
abbrev m1_list : ℕ := 142
abbrev signature : ℕ := 143
abbrev return_value : ℕ := 144
abbrev f_polar : ℕ := 145
abbrev inputs : ℕ := 146
abbrev color : ℕ := 147
abbrev linestyle : ℕ := 148
abbrev ntype : ℕ := 149
abbrev interior : ℕ := 150
abbrev linewidth : ℕ := 151
abbrev marker : ℕ := 152
abbrev ms : ℕ := 153
abbrev u_act : ℕ := 154
abbrev mv1 : ℕ := 155
abbrev d3_xi0_arg : ℕ := 156
abbrev d3_xi1_arg : ℕ := 157
abbrev d4_xi1_arg : ℕ := 158
end Key

/-- the functions 0 to 49 -/
def fns0 : List Fn := [
  ⟨"abcoef.py:11 calc_a_coef", ⟨[Key.problem, Key.boundary, Key.eval_bc0, Key.M, Key.m1], 5, false, false⟩, []⟩,
  ⟨"abcoef.py:38 a_to_b", ⟨[Key.a_coef, Key.k, Key.R, Key.nu], 4, false, false⟩, []⟩,
  ⟨"abcoef.py:41 b_to_a", ⟨[Key.b_coef, Key.k, Key.R, Key.nu], 4, false, false⟩, []⟩,
  ⟨"abcoef.py:44 _convert_ab", ⟨[Key.coef, Key.coef_type, Key.k, Key.R, Key.nu], 5, false, false⟩, []⟩,
  ⟨"chebyshev.py:9 eval_T", ⟨[Key.J, Key.t], 2, false, false⟩, []⟩,
  ⟨"chebyshev.py:13 eval_d_T_t", ⟨[Key.J, Key.t], 2, false, false⟩, []⟩,
  ⟨"chebyshev.py:17 eval_d2_T_t", ⟨[Key.J, Key.t], 2, false, false⟩, []⟩,
  ⟨"chebyshev.py:20 eval_d3_T_t", ⟨[Key.J, Key.t], 2, false, false⟩, []⟩,
  ⟨"chebyshev.py:23 eval_d4_T_t", ⟨[Key.J, Key.t], 2, false, false⟩, []⟩,
  ⟨"chebyshev.py:26 eval_d5_T_t", ⟨[Key.J, Key.t], 2, false, false⟩, []⟩,
  ⟨"chebyshev.py:34 eval_dn_T_t", ⟨[Key.n, Key.J, Key.t], 3, false, false⟩, []⟩,
  ⟨"chebyshev.py:39 get_chebyshev_roots", ⟨[Key.J], 1, false, false⟩, []⟩,
  ⟨"domain_util.py:4 cart_to_polar", ⟨[Key.x, Key.y], 2, false, false⟩, []⟩,
  ⟨"domain_util.py:15 wrap_func", ⟨[Key.a, Key.arg, Key.sid], 3, false, false⟩, []⟩,
  ⟨"domain_util.py:36 arg_to_polar_abs", ⟨[Key.boundary, Key.a, Key.arg, Key.sid], 4, false, false⟩, []⟩,
  ⟨"domain_util.py:53 arg_to_polar", ⟨[Key.boundary, Key.a, Key.arg, Key.sid], 4, false, false⟩, []⟩,
  ⟨"domain_util.py:64 get_sid", ⟨[Key.a, Key.th], 2, false, false⟩, []⟩,
  ⟨"extend.py:10 SolverExtend.extend_polar", ⟨[], 0, false, true⟩, [Key.curv, Key.d_curv_th, Key.d2_curv_th, Key.d_th_s, Key.d2_th_s, Key.d3_th_s, Key.d4_th_s, Key.d_xi0_th, Key.d_xi1_th, Key.d2_xi0_th, Key.d2_xi1_th, Key.d3_xi0_th, Key.d4_xi0_th, Key.n, Key.xi0, Key.xi1]⟩,
  ⟨"extend.py:31 SolverExtend.extend_polar.convert_d", ⟨[Key.d], 1, false, false⟩, []⟩,
  ⟨"extend.py:34 SolverExtend.extend_polar.convert_d2", ⟨[Key.d, Key.d2], 2, false, false⟩, []⟩,
  ⟨"extend.py:37 SolverExtend.extend_polar.convert_d4", ⟨[Key.d, Key.d2, Key.d3, Key.d4], 4, false, false⟩, []⟩,
  ⟨"extend.py:60 SolverExtend.extend_arbitrary", ⟨[], 0, false, true⟩, [Key.n, Key.curv, Key.d_curv_s, Key.d2_curv_s, Key.xi0, Key.xi1, Key.d_xi0_s, Key.d_xi1_s, Key.d2_xi0_s, Key.d2_xi1_s, Key.d4_xi0_s]⟩,
  ⟨"extend.py:111 SolverExtend.inhomo_extend_polar", ⟨[], 0, false, true⟩, [Key.d_f_th, Key.d2_f_th, Key.d_f_r, Key.d2_f_r, Key.d2_f_r_th, Key.d_th_s, Key.d2_th_s, Key.d_r_th, Key.d2_r_th]⟩,
  ⟨"extend.py:145 SolverExtend.inhomo_extend_arbitrary", ⟨[], 0, false, true⟩, [Key.n, Key.f, Key.d_f_n, Key.d2_f_n, Key.d2_f_s, Key.curv]⟩,
  ⟨"fourier.py:13 APSolver.__init__", ⟨[Key.N, Key.order, Key.AD_len, Key.k], 4, false, false⟩, []⟩,
  ⟨"fourier.py:19 APSolver.calc_eigenvals", ⟨[], 0, false, false⟩, []⟩,
  ⟨"fourier.py:49 APSolver._fourier", ⟨[Key.Bf, Key.solve], 2, false, false⟩, []⟩,
  ⟨"fourier.py:84 APSolver.solve", ⟨[Key.Bf], 1, false, false⟩, []⟩,
  ⟨"fourier.py:87 APSolver.apply_L", ⟨[Key.v], 1, false, false⟩, []⟩,
  ⟨"fourier.py:91 arc_dst", ⟨[Key.a, Key.func, Key.N], 2, false, false⟩, []⟩,
  ⟨"io_util.py:8 add_arguments", ⟨[Key.parser, Key.args], 2, false, false⟩, []⟩,
  ⟨"io_util.py:42 print_options", ⟨[Key.options, Key.meta_options], 1, false, false⟩, []⟩,
  ⟨"linop.py:4 apply_L", ⟨[Key.v, Key.order, Key.AD_len, Key.k], 4, false, false⟩, []⟩,
  ⟨"linop.py:34 apply_B", ⟨[Key.f], 1, false, false⟩, []⟩,
  ⟨"problems/boundary.py:12 Boundary.__init__", ⟨[Key.R, Key.bet, Key.k, Key.a], 1, false, false⟩, []⟩,
  ⟨"problems/boundary.py:32 Boundary.set_bet", ⟨[Key.k], 1, false, false⟩, []⟩,
  ⟨"problems/boundary.py:35 Boundary.do_algebra", ⟨[], 0, false, false⟩, []⟩,
  ⟨"problems/boundary.py:109 Boundary.eval_tangent", ⟨[Key.th], 1, false, false⟩, []⟩,
  ⟨"problems/boundary.py:113 Boundary.eval_normal", ⟨[Key.th], 1, false, false⟩, []⟩,
  ⟨"problems/boundary.py:117 Boundary.get_boundary_coord", ⟨[Key.r1, Key.th1], 2, false, false⟩, []⟩,
  ⟨"problems/boundary.py:126 Boundary.get_boundary_coord.eval_dist_deriv", ⟨[Key.th], 1, false, false⟩, []⟩,
  ⟨"problems/functions.py:6 eval_hat_x", ⟨[Key.x], 1, false, false⟩, []⟩,
  ⟨"problems/functions.py:17 eval_hat_th", ⟨[Key.th], 1, false, false⟩, []⟩,
  ⟨"problems/functions.py:26 eval_parabola", ⟨[Key.th, Key.a], 2, false, false⟩, []⟩,
  ⟨"problems/functions.py:29 eval_linesine", ⟨[Key.th, Key.k, Key.R, Key.a, Key.nu], 5, false, false⟩, []⟩,
  ⟨"problems/problem.py:15 Problem.__init__", ⟨[], 0, false, true⟩, []⟩,
  ⟨"problems/problem.py:18 Problem.eval_expected", ⟨[Key.x, Key.y], 2, false, true⟩, []⟩,
  ⟨"problems/problem.py:26 Problem.eval_expected_polar", ⟨[Key.r, Key.th], 2, false, true⟩, []⟩,
  ⟨"problems/problem.py:32 Problem.eval_f", ⟨[Key.x, Key.y], 2, false, false⟩, []⟩,
  ⟨"problems/problem.py:38 Problem.eval_f_polar", ⟨[Key.r, Key.th], 2, false, false⟩, []⟩]

/-- the functions 50 to 99 -/
def fns1 : List Fn := [
  ⟨"problems/problem.py:55 PizzaProblem.__init__", ⟨[], 0, false, true⟩, []⟩,
  ⟨"problems/problem.py:58 PizzaProblem.get_n_basis", ⟨[Key.N], 1, false, true⟩, []⟩,
  ⟨"problems/problem.py:72 PizzaProblem.get_n_basis_dict", ⟨[], 0, false, true⟩, []⟩,
  ⟨"problems/problem.py:89 PizzaProblem.get_m1", ⟨[], 0, false, false⟩, []⟩,
  ⟨"problems/problem.py:100 PizzaProblem.set_boundary", ⟨[Key.boundary], 1, false, false⟩, []⟩,
  ⟨"problems/sing_ihz.py:45 get_tapering_func", ⟨[Key.R], 1, false, false⟩, []⟩,
  ⟨"problems/sing_ihz.py:79 get_v_asympt0", ⟨[Key.K, Key.k, Key.nu, Key.nterms], 3, false, false⟩, []⟩,
  ⟨"problems/sing_ihz.py:100 IH_Bessel.__init__", ⟨[], 0, false, true⟩, []⟩,
  ⟨"problems/sing_ihz.py:123 IH_Bessel.eval_v", ⟨[Key.r, Key.th], 2, false, false⟩, []⟩,
  ⟨"problems/sing_ihz.py:140 IZ_Bessel.eval_phi0", ⟨[Key.th], 1, false, false⟩, []⟩,
  ⟨"problems/sing_ihz.py:144 IZ_Bessel.eval_phi1", ⟨[Key.r], 1, false, false⟩, []⟩,
  ⟨"problems/sing_ihz.py:150 IZ_Bessel.eval_phi2", ⟨[Key.r], 1, false, false⟩, []⟩,
  ⟨"problems/sing_ihz.py:153 IZ_Bessel.eval_expected_polar", ⟨[Key.r, Key.th], 2, false, false⟩, []⟩,
  ⟨"problems/sing_ihz.py:159 IHZ_Bessel_Line.eval_phi0", ⟨[Key.th], 1, false, false⟩, []⟩,
  ⟨"problems/sing_ihz.py:167 IHZ_Bessel_Line.eval_phi1", ⟨[Key.r], 1, false, false⟩, []⟩,
  ⟨"problems/sing_ihz.py:178 IHZ_Bessel_Line.eval_phi2", ⟨[Key.r], 1, false, false⟩, []⟩,
  ⟨"problems/sing_ihz.py:187 IHZ_Bessel_Quadratic.__init__", ⟨[], 0, false, true⟩, []⟩,
  ⟨"problems/sing_ihz.py:212 IHZ_Bessel_Quadratic.eval_v", ⟨[Key.r, Key.th], 2, false, false⟩, []⟩,
  ⟨"problems/sing_ihz.py:225 IHZ_Bessel_Quadratic.eval_phi0", ⟨[Key.th], 1, false, false⟩, []⟩,
  ⟨"problems/sing_ihz.py:235 IHZ_Bessel_Quadratic.eval_phi1", ⟨[Key.r], 1, false, false⟩, []⟩,
  ⟨"problems/sing_ihz.py:241 IHZ_Bessel_Quadratic.eval_phi2", ⟨[Key.r], 1, false, false⟩, []⟩,
  ⟨"problems/singular.py:29 SingularKnown.__init__", ⟨[], 0, false, true⟩, []⟩,
  ⟨"problems/singular.py:42 SingularKnown.eval_expected_polar", ⟨[Key.r, Key.th], 2, false, false⟩, []⟩,
  ⟨"problems/singular.py:55 SingularKnown.eval_expected__no_w", ⟨[Key.r, Key.th], 2, false, false⟩, []⟩,
  ⟨"problems/smooth.py:26 SmoothProblem.eval_bc", ⟨[Key.arg, Key.sid], 2, false, false⟩, []⟩,
  ⟨"problems/smooth.py:33 SmoothProblem.eval_d_u_outwards", ⟨[Key.arg, Key.sid], 2, false, false⟩, []⟩,
  ⟨"problems/smooth.py:59 Smooth_Sine.eval_expected", ⟨[Key.x, Key.y], 2, false, false⟩, []⟩,
  ⟨"problems/smooth.py:62 Smooth_Sine.get_grad", ⟨[Key.x, Key.y], 2, false, false⟩, []⟩,
  ⟨"problems/smooth.py:71 Smooth_E.eval_expected", ⟨[Key.x, Key.y], 2, false, false⟩, []⟩,
  ⟨"problems/smooth.py:79 Smooth_E.get_grad", ⟨[Key.x, Key.y], 2, false, false⟩, []⟩,
  ⟨"problems/smooth.py:94 Smooth_YCos.__init__", ⟨[], 0, false, true⟩, []⟩,
  ⟨"problems/smooth.py:101 Smooth_YCos.eval_expected", ⟨[Key.x, Key.y], 2, false, false⟩, []⟩,
  ⟨"problems/smooth.py:104 Smooth_YCos.get_grad", ⟨[Key.x, Key.y], 2, false, false⟩, []⟩,
  ⟨"problems/sympy_problem.py:21 SympyProblem.__init__", ⟨[], 0, false, true⟩, []⟩,
  ⟨"problems/sympy_problem.py:44 SympyProblem.build_sympy_subs_dict", ⟨[], 0, false, false⟩, []⟩,
  ⟨"problems/sympy_problem.py:51 SympyProblem.do_diff", ⟨[Key.f], 1, false, false⟩, []⟩,
  ⟨"problems/sympy_problem.py:75 SympyProblem.eval_f_polar", ⟨[Key.r, Key.th], 2, false, false⟩, []⟩,
  ⟨"problems/sympy_problem.py:96 SympyProblem.eval_grad_f", ⟨[Key.x, Key.y], 2, false, false⟩, []⟩,
  ⟨"problems/sympy_problem.py:103 SympyProblem.eval_grad_f_polar", ⟨[Key.r, Key.th], 2, false, false⟩, []⟩,
  ⟨"problems/sympy_problem.py:112 SympyProblem.eval_hessian_f", ⟨[Key.x, Key.y], 2, false, false⟩, []⟩,
  ⟨"problems/sympy_problem.py:119 SympyProblem.eval_hessian_f_polar", ⟨[Key.r, Key.th], 2, false, false⟩, []⟩,
  ⟨"ps/basis.py:17 PsBasis.__init__", ⟨[], 0, true, true⟩, []⟩,
  ⟨"ps/basis.py:26 PsBasis.setup_basis", ⟨[Key.n_circle, Key.n_radius], 2, false, false⟩, []⟩,
  ⟨"ps/basis.py:53 PsBasis.get_span_center", ⟨[Key.sid], 1, false, false⟩, []⟩,
  ⟨"ps/basis.py:68 PsBasis.eval_g", ⟨[Key.sid, Key.t], 2, false, false⟩, []⟩,
  ⟨"ps/basis.py:72 PsBasis.eval_g_inv", ⟨[Key.sid, Key.arg], 2, false, false⟩, []⟩,
  ⟨"ps/basis.py:76 PsBasis.eval_d_g_inv_arg", ⟨[Key.sid], 1, false, false⟩, []⟩,
  ⟨"ps/basis.py:80 PsBasis.eval_dn_B_arg", ⟨[Key.n, Key.JJ, Key.arg, Key.sid], 4, false, false⟩, []⟩,
  ⟨"ps/basis.py:91 PsBasis.get_chebyshev_coef", ⟨[Key.sid, Key.func], 2, false, false⟩, []⟩,
  ⟨"ps/basis.py:114 PsBasis.calc_c0", ⟨[], 0, false, false⟩, []⟩]

/-- the functions 100 to 149 -/
def fns2 : List Fn := [
  ⟨"ps/basis.py:125 PsBasis.calc_c0.func", ⟨[Key.arg], 1, false, false⟩, []⟩,
  ⟨"ps/basis.py:131 PsBasis.extend_basis", ⟨[Key.JJ, Key.index], 2, false, false⟩, []⟩,
  ⟨"ps/debug.py:20 PsDebug.get_boundary_sample", ⟨[Key.n, Key.extended], 0, false, false⟩, []⟩,
  ⟨"ps/debug.py:43 PsDebug.get_boundary_sample_by_sid", ⟨[Key.sid, Key.arg_data], 2, false, false⟩, []⟩,
  ⟨"ps/debug.py:88 PsDebug.calc_c1_exact", ⟨[], 0, false, false⟩, []⟩,
  ⟨"ps/debug.py:98 PsDebug.calc_c1_exact.func", ⟨[Key.arg], 1, false, false⟩, []⟩,
  ⟨"ps/debug.py:103 PsDebug.etype_filter", ⟨[Key.sid, Key.nodes, Key.etypes], 3, false, false⟩, []⟩,
  ⟨"ps/debug.py:111 PsDebug.c0_test", ⟨[Key.plot], 0, false, false⟩, []⟩,
  ⟨"ps/debug.py:181 PsDebug.print_c1", ⟨[], 0, false, false⟩, []⟩,
  ⟨"ps/debug.py:197 PsDebug.c1_test", ⟨[Key.plot], 0, false, false⟩, []⟩,
  ⟨"ps/debug.py:252 PsDebug.Q_residual", ⟨[], 0, false, false⟩, []⟩,
  ⟨"ps/debug.py:271 PsDebug.color_plot", ⟨[Key.u], 0, false, false⟩, []⟩,
  ⟨"ps/extend.py:15 get_deriv_name", ⟨[Key.order, Key.index], 2, false, false⟩, []⟩,
  ⟨"ps/extend.py:28 PsExtend.get_etype", ⟨[Key.sid, Key.i, Key.j], 3, false, false⟩, []⟩,
  ⟨"ps/extend.py:73 PsExtend.extend_radius", ⟨[], 0, false, true⟩, [Key.n, Key.xi0, Key.xi1, Key.d_xi0_arg, Key.d_xi1_arg, Key.d2_xi0_arg, Key.d2_xi1_arg, Key.d4_xi0_arg]⟩,
  ⟨"ps/extend.py:88 PsExtend._ext_calc_xi_derivs", ⟨[Key.deriv_types, Key.arg, Key.sid, Key.human_readable_keys], 3, false, true⟩, [Key.JJ, Key.basis_index]⟩,
  ⟨"ps/extend.py:154 PsExtend.ext_calc_xi_derivs", ⟨[Key.deriv_types, Key.arg, Key.sid, Key.human_readable_keys], 3, false, true⟩, []⟩,
  ⟨"ps/extend.py:173 PsExtend.do_extend_taylor", ⟨[Key.i, Key.j, Key.arg, Key.taylor_sid, Key.delta_arg, Key.n], 5, false, true⟩, []⟩,
  ⟨"ps/extend.py:239 PsExtend.do_extend_0", ⟨[Key.i, Key.j, Key.derivs], 3, false, false⟩, []⟩,
  ⟨"ps/extend.py:278 PsExtend.do_extend_0_standard", ⟨[Key.i, Key.j], 2, false, true⟩, []⟩,
  ⟨"ps/extend.py:291 PsExtend.do_extend_0_left", ⟨[Key.i, Key.j], 2, false, true⟩, []⟩,
  ⟨"ps/extend.py:297 PsExtend.do_extend_0_right", ⟨[Key.i, Key.j], 2, false, true⟩, []⟩,
  ⟨"ps/extend.py:303 PsExtend.do_extend_1_standard", ⟨[Key.i, Key.j], 2, false, true⟩, []⟩,
  ⟨"ps/extend.py:315 PsExtend.do_extend_1_left", ⟨[Key.i, Key.j], 2, false, true⟩, []⟩,
  ⟨"ps/extend.py:320 PsExtend.do_extend_1_right", ⟨[Key.i, Key.j], 2, false, true⟩, []⟩,
  ⟨"ps/extend.py:326 PsExtend.do_extend_2_standard", ⟨[Key.i, Key.j], 2, false, true⟩, []⟩,
  ⟨"ps/extend.py:342 PsExtend.do_extend_2_left", ⟨[Key.i, Key.j], 2, false, true⟩, []⟩,
  ⟨"ps/extend.py:352 PsExtend.do_extend_2_right", ⟨[Key.i, Key.j], 2, false, true⟩, []⟩,
  ⟨"ps/extend.py:368 PsExtend.mv_extend_boundary", ⟨[Key.JJ, Key.basis_index, Key.homogeneous_only], 0, false, false⟩, []⟩,
  ⟨"ps/extend.py:428 PsExtend.extend_boundary", ⟨[], 0, false, true⟩, []⟩,
  ⟨"ps/grid.py:179 PsGrid.ps_construct_grids", ⟨[Key.scheme_order], 1, false, false⟩, []⟩,
  ⟨"ps/grid.py:200 PsGrid.ps_construct_grids.get_dist", ⟨[Key.node, Key.setype], 2, false, false⟩, []⟩,
  ⟨"ps/grid.py:201 PsGrid.ps_construct_grids.get_dist.dformula", ⟨[Key.x0, Key.y0, Key._x, Key._y], 4, false, false⟩, []⟩,
  ⟨"ps/inhomo.py:10 PsInhomo._extend_f_get_sid", ⟨[Key.i, Key.j], 2, false, false⟩, []⟩,
  ⟨"ps/inhomo.py:27 PsInhomo.extend_f", ⟨[], 0, false, false⟩, []⟩,
  ⟨"ps/inhomo.py:95 PsInhomo._extend_inhomo_12_r", ⟨[Key.i, Key.j, Key.radius_sid], 3, false, false⟩, []⟩,
  ⟨"ps/inhomo.py:170 PsInhomo.do_extend_inhomo_0_standard", ⟨[Key.i, Key.j], 2, false, false⟩, []⟩,
  ⟨"ps/inhomo.py:208 PsInhomo._extend_inhomo_0_lr", ⟨[Key.i, Key.j, Key.radius_sid], 3, false, false⟩, []⟩,
  ⟨"ps/inhomo.py:320 PsInhomo.do_extend_inhomo_0_left", ⟨[Key.i, Key.j], 2, false, false⟩, []⟩,
  ⟨"ps/inhomo.py:323 PsInhomo.do_extend_inhomo_0_right", ⟨[Key.i, Key.j], 2, false, false⟩, []⟩,
  ⟨"ps/inhomo.py:326 PsInhomo._calc_inhomo_radius", ⟨[Key.x0, Key.y0, Key.x1, Key.y1, Key.tan, Key.n], 6, false, false⟩, []⟩,
  ⟨"ps/inhomo.py:377 PsInhomo._extend_inhomo_radius", ⟨[Key.i, Key.j, Key.radius_sid], 3, false, false⟩, []⟩,
  ⟨"ps/inhomo.py:393 PsInhomo.do_extend_inhomo_1_standard", ⟨[Key.i, Key.j], 2, false, false⟩, []⟩,
  ⟨"ps/inhomo.py:396 PsInhomo.do_extend_inhomo_1_left", ⟨[Key.i, Key.j], 2, false, false⟩, []⟩,
  ⟨"ps/inhomo.py:399 PsInhomo.do_extend_inhomo_1_right", ⟨[Key.i, Key.j], 2, false, false⟩, []⟩,
  ⟨"ps/inhomo.py:402 PsInhomo.do_extend_inhomo_2_standard", ⟨[Key.i, Key.j], 2, false, false⟩, []⟩,
  ⟨"ps/inhomo.py:405 PsInhomo.do_extend_inhomo_2_left", ⟨[Key.i, Key.j], 2, false, false⟩, []⟩,
  ⟨"ps/inhomo.py:408 PsInhomo.do_extend_inhomo_2_right", ⟨[Key.i, Key.j], 2, false, false⟩, []⟩,
  ⟨"ps/inhomo.py:411 PsInhomo.mv_extend_inhomo_f", ⟨[], 0, false, false⟩, []⟩,
  ⟨"ps/inhomo.py:455 PsInhomo.extend_inhomo_f", ⟨[], 0, false, false⟩, []⟩]

/-- the functions 150 to 199 -/
def fns3 : List Fn := [
  ⟨"ps/multivalue.py:21 Multivalue.__init__", ⟨[Key.nodes], 1, false, false⟩, []⟩,
  ⟨"ps/multivalue.py:28 Multivalue.__getitem__", ⟨[Key.node], 1, false, false⟩, []⟩,
  ⟨"ps/multivalue.py:31 Multivalue.__add__", ⟨[Key.mv2], 1, false, false⟩, []⟩,
  ⟨"ps/multivalue.py:64 Multivalue.reduce", ⟨[], 0, false, false⟩, []⟩,
  ⟨"ps/multivalue.py:104 Multivalue.calc_rel_convergence", ⟨[Key.u1, Key.u2], 2, false, false⟩, []⟩,
  ⟨"ps/ode.py:18 my_print", ⟨[Key.s], 1, false, false⟩, []⟩,
  ⟨"ps/ode.py:21 calc_z1_fourier", ⟨[Key.initial_func, Key.d_initial_func, Key.eval_f1, Key.a, Key.nu, Key.k, Key.R0, Key.R, Key.M], 9, false, false⟩, []⟩,
  ⟨"ps/ode.py:37 calc_z1_fourier.eval_deriv", ⟨[Key.Y, Key.r], 2, false, false⟩, []⟩,
  ⟨"ps/polarfd.py:9 PolarFD.__init__", ⟨[Key.N, Key.a, Key.nu, Key.R0, Key.R1], 5, false, false⟩, []⟩,
  ⟨"ps/polarfd.py:19 PolarFD.my_print", ⟨[Key.x], 1, false, false⟩, []⟩,
  ⟨"ps/polarfd.py:23 PolarFD.get_r", ⟨[Key.m], 1, false, false⟩, []⟩,
  ⟨"ps/polarfd.py:26 PolarFD.get_th", ⟨[Key.l], 1, false, false⟩, []⟩,
  ⟨"ps/polarfd.py:29 PolarFD.get_index", ⟨[Key.m, Key.l], 2, false, false⟩, []⟩,
  ⟨"ps/polarfd.py:32 PolarFD.calc_N_var", ⟨[], 0, false, false⟩, []⟩,
  ⟨"ps/polarfd.py:37 PolarFD.new_system", ⟨[], 0, false, false⟩, []⟩,
  ⟨"ps/polarfd.py:46 PolarFD.set_bc_origin", ⟨[], 0, false, false⟩, []⟩,
  ⟨"ps/polarfd.py:62 PolarFD.set_bc_wedge", ⟨[], 0, false, false⟩, []⟩,
  ⟨"ps/polarfd.py:90 PolarFD.set_bc_arc", ⟨[], 0, false, false⟩, []⟩,
  ⟨"ps/polarfd.py:104 PolarFD.set_fd4", ⟨[Key.m, Key.l], 2, false, false⟩, []⟩,
  ⟨"ps/polarfd.py:189 PolarFD.copy_local", ⟨[Key.m, Key.l, Key.«local»], 3, false, false⟩, []⟩,
  ⟨"ps/polarfd.py:198 PolarFD.solve", ⟨[Key.k, Key.eval_phi_initial, Key.eval_phi0, Key.eval_phi1, Key.eval_phi2, Key.eval_f, Key.eval_d_f_r, Key.eval_d2_f_r, Key.eval_d2_f_th], 9, false, false⟩, []⟩,
  ⟨"ps/polarfd.py:239 PolarFD.calc_rel_convergence", ⟨[Key.u0, Key.u1, Key.u2], 3, false, false⟩, []⟩,
  ⟨"ps/ps.py:18 get_M", ⟨[Key.scheme_order], 1, false, false⟩, []⟩,
  ⟨"ps/ps.py:27 PizzaSolver.__init__", ⟨[Key.options], 1, false, false⟩, []⟩,
  ⟨"ps/ps.py:61 PizzaSolver.calc_ap_sol_f", ⟨[], 0, false, false⟩, []⟩,
  ⟨"ps/ps.py:74 PizzaSolver.is_interior", ⟨[Key.i, Key.j], 2, false, false⟩, []⟩,
  ⟨"ps/ps.py:79 PizzaSolver.get_radius_point", ⟨[Key.sid, Key.x, Key.y], 3, false, false⟩, []⟩,
  ⟨"ps/ps.py:96 PizzaSolver.dist_to_radius", ⟨[Key.sid, Key.x, Key.y], 3, false, false⟩, []⟩,
  ⟨"ps/ps.py:101 PizzaSolver.signed_dist_to_radius", ⟨[Key.sid, Key.x, Key.y], 3, false, false⟩, []⟩,
  ⟨"ps/ps.py:110 PizzaSolver.get_polar", ⟨[Key.i, Key.j], 2, false, false⟩, []⟩,
  ⟨"ps/ps.py:117 PizzaSolver.get_boundary_coord", ⟨[Key.i, Key.j], 2, false, false⟩, []⟩,
  ⟨"ps/ps.py:124 PizzaSolver.build_boundary_coord_cache", ⟨[], 0, false, false⟩, []⟩,
  ⟨"ps/ps.py:134 PizzaSolver.get_potential", ⟨[Key.ext], 1, false, false⟩, []⟩,
  ⟨"ps/ps.py:155 PizzaSolver.get_trace", ⟨[Key.w], 1, false, false⟩, []⟩,
  ⟨"ps/ps.py:164 PizzaSolver.get_Q", ⟨[Key.index], 1, false, false⟩, []⟩,
  ⟨"ps/ps.py:177 PizzaSolver.get_var", ⟨[], 0, false, false⟩, []⟩,
  ⟨"ps/ps.py:210 PizzaSolver.solve_var", ⟨[], 0, false, false⟩, []⟩,
  ⟨"ps/ps.py:217 PizzaSolver.run", ⟨[], 0, false, false⟩, []⟩,
  ⟨"ps/zmethod.py:28 ZMethod.__init__", ⟨[Key.options], 1, false, false⟩, []⟩,
  ⟨"ps/zmethod.py:31 ZMethod.run", ⟨[], 0, false, false⟩, []⟩,
  ⟨"ps/zmethod.py:62 ZMethod.do_algebra", ⟨[], 0, false, false⟩, []⟩,
  ⟨"ps/zmethod.py:70 ZMethod.do_algebra.apply_helmholtz_op", ⟨[Key.u], 1, false, false⟩, []⟩,
  ⟨"ps/zmethod.py:101 ZMethod.do_algebra.my_lambdify", ⟨[Key.expr], 1, false, false⟩, []⟩,
  ⟨"ps/zmethod.py:108 ZMethod.do_algebra.my_lambdify.newfunc", ⟨[Key.r, Key.th], 2, false, false⟩, []⟩,
  ⟨"ps/zmethod.py:157 ZMethod.calc_z1_fourier", ⟨[], 0, false, false⟩, []⟩,
  ⟨"ps/zmethod.py:177 ZMethod.get_expected_z1_fourier", ⟨[], 0, false, false⟩, []⟩,
  ⟨"ps/zmethod.py:187 ZMethod.get_expected_z1_fourier.z1_expected", ⟨[Key.th], 1, false, false⟩, []⟩,
  ⟨"ps/zmethod.py:193 ZMethod.do_z_BVP", ⟨[], 0, false, false⟩, []⟩,
  ⟨"ps/zmethod.py:203 ZMethod.do_z_BVP.DummySympyProblem.__init__", ⟨[], 0, false, false⟩, []⟩,
  ⟨"ps/zmethod.py:209 ZMethod.do_z_BVP.eval_phi0", ⟨[Key.th], 1, false, false⟩, []⟩]

/-- the functions 200 to 249 -/
def fns4 : List Fn := [
  ⟨"ps/zmethod.py:243 ZMethod.calc_a_coef", ⟨[], 0, false, false⟩, []⟩,
  ⟨"ps/zmethod.py:257 ZMethod.calc_a_coef.eval_bc0", ⟨[Key.th], 1, false, false⟩, []⟩,
  ⟨"ps/zmethod.py:275 ZMethod.get_expected_a_coef", ⟨[], 0, false, false⟩, []⟩,
  ⟨"ps/zmethod.py:282 ZMethod.get_expected_a_coef.eval_bc0", ⟨[Key.th], 1, false, false⟩, []⟩,
  ⟨"ps/zmethod.py:285 ZMethod.get_expected_a_coef.eval_diff", ⟨[Key.th], 1, false, false⟩, []⟩,
  ⟨"ps/zmethod.py:296 ZMethod.create_v_interp", ⟨[], 0, false, false⟩, []⟩,
  ⟨"ps/zmethod.py:339 ZMethod.create_v_interp.interp", ⟨[Key.r, Key.th], 2, false, false⟩, []⟩,
  ⟨"ps/zmethod.py:344 ZMethod.do_u_BVP", ⟨[], 0, false, false⟩, []⟩,
  ⟨"ps/zmethod.py:367 ZMethod.do_u_BVP.u_BVP.__init__", ⟨[], 0, false, false⟩, []⟩,
  ⟨"ps/zmethod.py:372 ZMethod.do_u_BVP.u_BVP.eval_bc", ⟨[Key.arg, Key.sid], 2, false, false⟩, []⟩,
  ⟨"ps/zmethod.py:391 ZMethod.do_u_BVP.u_BVP.eval_expected_polar", ⟨[Key.r, Key.th], 2, false, false⟩, []⟩,
  ⟨"ps/zmethod.py:408 ZMethod.get_v_error", ⟨[], 0, false, false⟩, []⟩,
  ⟨"run.py:14 get_N_list", ⟨[Key.N0, Key.c], 2, false, false⟩, []⟩,
  ⟨"runz.py:17 get_N_list", ⟨[Key.N0, Key.c], 2, false, false⟩, []⟩,
  ⟨"scripts/abcoef/bet_generate.py:41 eval_phi0", ⟨[Key.th], 1, false, false⟩, []⟩,
  ⟨"scripts/abcoef/bet_generate.py:45 test_many", ⟨[], 0, false, false⟩, []⟩,
  ⟨"scripts/abcoef/expansion_error.py:28 b_expan", ⟨[Key.th], 1, false, false⟩, []⟩,
  ⟨"scripts/abcoef/generate_data.py:26 to_basic_list", ⟨[Key.array], 1, false, false⟩, []⟩,
  ⟨"scripts/abcoef/generate_data.py:30 eval_phi0", ⟨[Key.th], 1, false, false⟩, []⟩,
  ⟨"scripts/abcoef/generate_data2.py:21 go", ⟨[Key.problem_name, Key.boundary_name], 2, false, false⟩, []⟩,
  ⟨"scripts/abcoef/generate_data2.py:25 go.to_basic_list", ⟨[Key.array], 1, false, false⟩, []⟩,
  ⟨"scripts/abcoef/generate_data2.py:29 go.eval_phi0", ⟨[Key.th], 1, false, false⟩, []⟩,
  ⟨"scripts/abcoef/generate_report.py:12 create_header", ⟨[Key.max_error], 1, false, false⟩, []⟩,
  ⟨"scripts/abcoef/generate_report.py:22 create_row", ⟨[Key.«label», Key.array], 2, false, false⟩, []⟩,
  ⟨"scripts/abcoef/k_test.py:41 eval_phi0", ⟨[Key.r, Key.th], 2, false, false⟩, []⟩,
  ⟨"scripts/abcoef/k_test.py:44 print_array", ⟨[Key.array], 1, false, false⟩, []⟩,
  ⟨"scripts/abcoef/k_test.py:50 test_many", ⟨[], 0, false, false⟩, []⟩,
  ⟨"scripts/abcoef/run_test.py:36 eval_phi0", ⟨[Key.th], 1, false, false⟩, []⟩,
  ⟨"scripts/abcoef/run_test.py:40 print_array", ⟨[Key.array], 1, false, false⟩, []⟩,
  ⟨"scripts/abcoef/run_test.py:46 do_test", ⟨[Key.m1], 1, false, false⟩, []⟩,
  ⟨"scripts/abcoef/run_test.py:68 test_many", ⟨[Key.m1_list], 0, false, false⟩, []⟩,
  ⟨"scripts/apply_helmholtz.py:6 apply_helmholtz_op", ⟨[Key.u], 1, false, false⟩, []⟩,
  ⟨"scripts/c0_basis.py:44 my_print", ⟨[Key.t], 1, false, false⟩, []⟩,
  ⟨"scripts/codegen/rhs_derivs.py:14 print_code", ⟨[Key.signature, Key.return_value], 2, false, false⟩, []⟩,
  ⟨"scripts/codegen/rhs_derivs.py:22 find_derivs", ⟨[Key.u], 1, false, false⟩, []⟩,
  ⟨"scripts/codegen/rhs_derivs.py:34 find_derivs_polar", ⟨[Key.u], 1, false, false⟩, []⟩,
  ⟨"scripts/codegen/rhs_derivs.py:44 find_f_polar_derivs", ⟨[Key.f_polar], 1, false, false⟩, []⟩,
  ⟨"scripts/codegen/rhs_derivs.py:54 find_f_total_derivs", ⟨[Key.f], 1, false, false⟩, []⟩,
  ⟨"scripts/extension_test.py:26 set_setypes", ⟨[], 0, false, false⟩, []⟩,
  ⟨"scripts/extension_test.py:45 run_test", ⟨[Key.N], 1, false, false⟩, []⟩,
  ⟨"scripts/multirun.py:20 worker", ⟨[Key.inputs], 1, false, false⟩, []⟩,
  ⟨"scripts/optimize_basis.py:49 my_print", ⟨[Key.t], 1, false, false⟩, []⟩,
  ⟨"scripts/optimize_basis.py:52 worker", ⟨[Key.t], 1, false, false⟩, []⟩,
  ⟨"scripts/plot_domain.py:16 plot_aux", ⟨[Key.options], 1, false, false⟩, []⟩,
  ⟨"scripts/plot_domain.py:25 plot_arc", ⟨[Key.color, Key.linestyle], 2, false, false⟩, []⟩,
  ⟨"scripts/plot_domain.py:32 plot_Gamma", ⟨[Key.color, Key.extended], 0, false, false⟩, []⟩,
  ⟨"scripts/plot_domain.py:50 nodes_to_plottable", ⟨[Key.nodes], 1, false, false⟩, []⟩,
  ⟨"scripts/plot_domain.py:64 plot_Mplus", ⟨[], 0, false, false⟩, []⟩,
  ⟨"scripts/plot_domain.py:83 plot_allMK", ⟨[Key.ntype], 1, false, false⟩, []⟩,
  ⟨"scripts/plot_domain.py:114 plot_intext", ⟨[Key.interior], 1, false, false⟩, []⟩]

/-- the functions 250 to 280 -/
def fns5 : List Fn := [
  ⟨"scripts/plot_domain.py:149 plot_gamma", ⟨[], 0, false, false⟩, []⟩,
  ⟨"scripts/plot_domain2.py:16 plot_aux", ⟨[], 0, false, false⟩, []⟩,
  ⟨"scripts/plot_domain2.py:23 plot_arc", ⟨[Key.color, Key.linestyle, Key.linewidth], 3, false, false⟩, []⟩,
  ⟨"scripts/plot_domain2.py:30 plot_Gamma", ⟨[Key.sid, Key.color, Key.marker, Key.«label», Key.ms], 1, false, false⟩, []⟩,
  ⟨"scripts/plot_domain2.py:44 nodes_to_plottable", ⟨[Key.nodes], 1, false, false⟩, []⟩,
  ⟨"scripts/plot_domain2.py:57 plot_Mplus", ⟨[], 0, false, false⟩, []⟩,
  ⟨"scripts/plot_domain2.py:76 plot_gamma", ⟨[], 0, false, false⟩, []⟩,
  ⟨"scripts/polarfd/sym.py:4 do_lapacian", ⟨[Key.u], 1, false, false⟩, []⟩,
  ⟨"scripts/polarfd/test.py:18 eval_u", ⟨[Key.r, Key.th], 2, false, false⟩, []⟩,
  ⟨"scripts/polarfd/test.py:21 get_N_list", ⟨[Key.N0, Key.c], 2, false, false⟩, []⟩,
  ⟨"scripts/polarfd/test.py:38 eval_phi0", ⟨[Key.th], 1, false, false⟩, []⟩,
  ⟨"scripts/polarfd/test.py:41 eval_phi1", ⟨[Key.r], 1, false, false⟩, []⟩,
  ⟨"scripts/polarfd/test.py:44 eval_phi2", ⟨[Key.r], 1, false, false⟩, []⟩,
  ⟨"scripts/polarfd/test.py:47 convert", ⟨[Key.u], 1, false, false⟩, []⟩,
  ⟨"scripts/test_extend_f.py:42 run_test", ⟨[Key.N], 1, false, false⟩, []⟩,
  ⟨"scripts/zmethod/interp_test.py:18 eval_v", ⟨[Key.r, Key.th], 2, false, false⟩, []⟩,
  ⟨"solver.py:21 Solver.__init__", ⟨[Key.options], 1, false, false⟩, []⟩,
  ⟨"solver.py:28 Solver.get_coord", ⟨[Key.i, Key.j], 2, false, false⟩, []⟩,
  ⟨"solver.py:36 Solver.get_coord_inv", ⟨[Key.x, Key.y], 2, false, false⟩, []⟩,
  ⟨"solver.py:44 Solver.get_polar", ⟨[Key.i, Key.j], 2, false, false⟩, []⟩,
  ⟨"solver.py:51 Solver.construct_grids", ⟨[Key.scheme_order], 1, false, false⟩, []⟩,
  ⟨"solver.py:74 Solver.setup_f", ⟨[], 0, false, false⟩, []⟩,
  ⟨"solver.py:92 Solver.eval_error", ⟨[Key.u_act], 1, false, false⟩, []⟩,
  ⟨"solver.py:110 Solver.calc_rel_convergence", ⟨[Key.u0, Key.u1, Key.u2], 3, false, false⟩, []⟩,
  ⟨"solver.py:132 Solver._array_calc_rel_convergence", ⟨[Key.u0, Key.u1, Key.u2], 3, false, false⟩, []⟩,
  ⟨"test/ps/test_multivalue.py:9 is_equal", ⟨[Key.mv1, Key.mv2], 2, false, false⟩, []⟩,
  ⟨"test/ps/test_multivalue.py:32 TestMultivalue.setUp", ⟨[], 0, false, false⟩, []⟩,
  ⟨"test/ps/test_multivalue.py:56 TestMultivalue.test_getitem", ⟨[], 0, false, false⟩, []⟩,
  ⟨"test/ps/test_multivalue.py:63 TestMultivalue.test_add", ⟨[], 0, false, false⟩, []⟩,
  ⟨"test/ps/test_multivalue.py:106 TestMultivalue.test_reduce_mv1", ⟨[], 0, false, false⟩, []⟩,
  ⟨"test/ps/test_multivalue.py:111 TestMultivalue.test_reduce0", ⟨[], 0, false, false⟩, []⟩]

/-- the calls 0 to 49 -/
def calls0 : List Call := [
  ⟨"abcoef.py:39", some 1, [3], 5, [], false, []⟩,
  ⟨"abcoef.py:42", some 2, [3], 5, [], false, []⟩,
  ⟨"extend.py:45", some 17, [21], 0, [Key.n, Key.xi0, Key.xi1, Key.d_xi0_s, Key.d_xi1_s, Key.d2_xi0_s, Key.d2_xi1_s, Key.d4_xi0_s, Key.curv, Key.d_curv_s, Key.d2_curv_s], false, []⟩,
  ⟨"extend.py:49", some 17, [18], 1, [], false, []⟩,
  ⟨"extend.py:50", some 17, [18], 1, [], false, []⟩,
  ⟨"extend.py:51", some 17, [19], 2, [], false, []⟩,
  ⟨"extend.py:52", some 17, [19], 2, [], false, []⟩,
  ⟨"extend.py:53", some 17, [20], 4, [], false, []⟩,
  ⟨"extend.py:55", some 17, [18], 1, [], false, []⟩,
  ⟨"extend.py:56", some 17, [19], 2, [], false, []⟩,
  ⟨"extend.py:143", some 22, [23], 0, [Key.d2_f_s], true, [Key.d_f_th, Key.d2_f_th, Key.d_f_r, Key.d2_f_r, Key.d2_f_r_th, Key.d_th_s, Key.d2_th_s, Key.d_r_th, Key.d2_r_th, Key.d2_f_s]⟩,
  ⟨"fourier.py:57", some 26, [25], 0, [], false, []⟩,
  ⟨"fourier.py:85", some 27, [26], 2, [], false, []⟩,
  ⟨"fourier.py:88", some 28, [26], 2, [], false, []⟩,
  ⟨"io_util.py:68", some 31, [53], 0, [], false, []⟩,
  ⟨"io_util.py:75", some 31, [51], 1, [], false, []⟩,
  ⟨"problems/boundary.py:17", some 34, [35], 1, [], false, []⟩,
  ⟨"problems/boundary.py:30", some 34, [36], 0, [], false, []⟩,
  ⟨"problems/boundary.py:114", some 38, [37], 1, [], false, []⟩,
  ⟨"problems/boundary.py:165", some 39, [38], 1, [], false, []⟩,
  ⟨"problems/functions.py:24", some 42, [41], 1, [], false, []⟩,
  ⟨"problems/problem.py:19", some 46, [12], 2, [], false, []⟩,
  ⟨"problems/problem.py:24", some 46, [47, 62, 72, 210], 2, [], true, []⟩,
  ⟨"problems/problem.py:30", some 47, [46, 76, 78, 81], 2, [], true, []⟩,
  ⟨"problems/problem.py:36", some 48, [49, 86], 2, [], false, []⟩,
  ⟨"problems/problem.py:36", some 48, [12], 2, [], false, []⟩,
  ⟨"problems/problem.py:44", some 49, [48], 2, [], false, []⟩,
  ⟨"problems/problem.py:62", some 51, [52], 0, [], true, []⟩,
  ⟨"problems/sing_ihz.py:109", some 57, [56], 3, [], false, []⟩,
  ⟨"problems/sing_ihz.py:112", some 57, [56], 3, [], false, []⟩,
  ⟨"problems/sing_ihz.py:113", some 57, [55], 1, [], false, []⟩,
  ⟨"problems/sing_ihz.py:115", some 57, [56], 3, [Key.nterms], false, []⟩,
  ⟨"problems/sing_ihz.py:142", some 59, [58], 2, [], false, []⟩,
  ⟨"problems/sing_ihz.py:146", some 60, [58], 2, [], false, []⟩,
  ⟨"problems/sing_ihz.py:154", some 62, [58], 2, [], false, []⟩,
  ⟨"problems/sing_ihz.py:194", some 66, [56], 3, [], false, []⟩,
  ⟨"problems/sing_ihz.py:195", some 66, [56], 3, [], false, []⟩,
  ⟨"problems/sing_ihz.py:200", some 66, [55], 1, [], false, []⟩,
  ⟨"problems/sing_ihz.py:203", some 66, [56], 3, [Key.nterms], false, []⟩,
  ⟨"problems/sing_ihz.py:204", some 66, [56], 3, [Key.nterms], false, []⟩,
  ⟨"problems/singular.py:37", some 71, [29], 2, [], false, []⟩,
  ⟨"problems/singular.py:38", some 71, [2], 4, [], false, []⟩,
  ⟨"problems/singular.py:48", some 72, [73], 2, [], false, []⟩,
  ⟨"problems/smooth.py:30", some 74, [14], 4, [], false, []⟩,
  ⟨"problems/smooth.py:31", some 74, [47], 2, [], false, []⟩,
  ⟨"problems/smooth.py:40", some 75, [14], 4, [], false, []⟩,
  ⟨"problems/smooth.py:43", some 75, [77, 79, 82], 2, [], false, []⟩,
  ⟨"problems/smooth.py:46", some 75, [38], 1, [], false, []⟩,
  ⟨"problems/sympy_problem.py:37", some 83, [84], 0, [], false, []⟩,
  ⟨"problems/sympy_problem.py:42", some 83, [85], 1, [], false, []⟩]

/-- the calls 50 to 99 -/
def calls1 : List Call := [
  ⟨"problems/sympy_problem.py:84", some 86, [89], 2, [], false, []⟩,
  ⟨"problems/sympy_problem.py:86", some 86, [87], 2, [], false, []⟩,
  ⟨"problems/sympy_problem.py:89", some 86, [48], 2, [], false, []⟩,
  ⟨"problems/sympy_problem.py:101", some 87, [88], 2, [], false, []⟩,
  ⟨"problems/sympy_problem.py:101", some 87, [12], 2, [], false, []⟩,
  ⟨"problems/sympy_problem.py:117", some 89, [90], 2, [], false, []⟩,
  ⟨"problems/sympy_problem.py:117", some 89, [12], 2, [], false, []⟩,
  ⟨"ps/basis.py:24", some 91, [11], 1, [], false, []⟩,
  ⟨"ps/basis.py:69", some 94, [93], 1, [], false, []⟩,
  ⟨"ps/basis.py:73", some 95, [93], 1, [], false, []⟩,
  ⟨"ps/basis.py:77", some 96, [93], 1, [], false, []⟩,
  ⟨"ps/basis.py:82", some 97, [95], 2, [], false, []⟩,
  ⟨"ps/basis.py:85", some 97, [96], 1, [], false, []⟩,
  ⟨"ps/basis.py:87", some 97, [10], 3, [], false, []⟩,
  ⟨"ps/basis.py:106", some 98, [94], 2, [], false, []⟩,
  ⟨"ps/basis.py:121", some 99, [74, 209], 2, [], false, []⟩,
  ⟨"ps/basis.py:122", some 99, [98], 2, [], false, []⟩,
  ⟨"ps/basis.py:126", some 100, [74, 209], 2, [], false, []⟩,
  ⟨"ps/basis.py:128", some 99, [98], 2, [], false, []⟩,
  ⟨"ps/basis.py:135", some 101, [129], 0, [Key.JJ, Key.basis_index], false, []⟩,
  ⟨"ps/debug.py:30", some 102, [103], 2, [], false, []⟩,
  ⟨"ps/debug.py:36", some 102, [103], 2, [], false, []⟩,
  ⟨"ps/debug.py:38", some 102, [103], 2, [], false, []⟩,
  ⟨"ps/debug.py:99", some 105, [75], 2, [], false, []⟩,
  ⟨"ps/debug.py:101", some 104, [98], 2, [], false, []⟩,
  ⟨"ps/debug.py:106", some 106, [113], 3, [], false, []⟩,
  ⟨"ps/debug.py:120", some 107, [102], 0, [], false, []⟩,
  ⟨"ps/debug.py:133", some 107, [12], 2, [], false, []⟩,
  ⟨"ps/debug.py:134", some 107, [16], 2, [], false, []⟩,
  ⟨"ps/debug.py:136", some 107, [74, 209], 2, [], false, []⟩,
  ⟨"ps/debug.py:146", some 107, [97], 4, [], false, []⟩,
  ⟨"ps/debug.py:203", some 109, [102], 0, [], false, []⟩,
  ⟨"ps/debug.py:218", some 109, [75], 2, [], false, []⟩,
  ⟨"ps/debug.py:220", some 109, [12], 2, [], false, []⟩,
  ⟨"ps/debug.py:221", some 109, [16], 2, [], false, []⟩,
  ⟨"ps/debug.py:231", some 109, [97], 4, [], false, []⟩,
  ⟨"ps/debug.py:253", some 110, [99], 0, [], false, []⟩,
  ⟨"ps/debug.py:254", some 110, [104], 0, [], false, []⟩,
  ⟨"ps/debug.py:258", some 110, [179, 269], 2, [], false, []⟩,
  ⟨"ps/debug.py:262", some 110, [185], 0, [], false, []⟩,
  ⟨"ps/debug.py:278", some 111, [267], 2, [], false, []⟩,
  ⟨"ps/debug.py:285", some 111, [267], 2, [], false, []⟩,
  ⟨"ps/debug.py:286", some 111, [46, 76, 78, 81], 2, [], false, []⟩,
  ⟨"ps/extend.py:32", some 113, [267], 2, [], false, []⟩,
  ⟨"ps/extend.py:39", some 113, [39], 2, [], false, []⟩,
  ⟨"ps/extend.py:40", some 113, [179, 269], 2, [], false, []⟩,
  ⟨"ps/extend.py:65", some 113, [176], 3, [], false, []⟩,
  ⟨"ps/extend.py:74", some 114, [21], 0, [Key.n, Key.curv, Key.d_curv_s, Key.d2_curv_s, Key.xi0, Key.xi1, Key.d_xi0_s, Key.d_xi1_s, Key.d2_xi0_s, Key.d2_xi1_s, Key.d4_xi0_s], false, []⟩,
  ⟨"ps/extend.py:142", some 115, [97], 4, [], false, []⟩,
  ⟨"ps/extend.py:146", some 115, [112], 2, [], false, []⟩]

/-- the calls 100 to 149 -/
def calls2 : List Call := [
  ⟨"ps/extend.py:170", some 116, [115], 3, [Key.human_readable_keys], true, []⟩,
  ⟨"ps/extend.py:194", some 117, [116], 3, [Key.human_readable_keys], true, []⟩,
  ⟨"ps/extend.py:217", some 117, [112], 2, [], false, []⟩,
  ⟨"ps/extend.py:222", some 117, [118], 3, [], false, []⟩,
  ⟨"ps/extend.py:230", some 117, [114], 0, [Key.n, Key.xi0, Key.xi1, Key.d_xi0_arg, Key.d_xi1_arg, Key.d2_xi0_arg, Key.d2_xi1_arg, Key.d3_xi0_arg, Key.d3_xi1_arg, Key.d4_xi0_arg, Key.d4_xi1_arg], false, []⟩,
  ⟨"ps/extend.py:242", some 118, [17], 0, [Key.n, Key.curv, Key.d_curv_th, Key.d2_curv_th, Key.d_th_s, Key.d2_th_s, Key.d3_th_s, Key.d4_th_s, Key.xi0, Key.xi1, Key.d_xi0_th, Key.d_xi1_th, Key.d2_xi0_th, Key.d2_xi1_th, Key.d3_xi0_th, Key.d4_xi0_th], false, []⟩,
  ⟨"ps/extend.py:286", some 119, [116], 3, [], true, []⟩,
  ⟨"ps/extend.py:289", some 119, [118], 3, [], false, []⟩,
  ⟨"ps/extend.py:294", some 120, [117], 2, [Key.arg, Key.taylor_sid, Key.delta_arg], true, []⟩,
  ⟨"ps/extend.py:300", some 121, [117], 2, [Key.arg, Key.taylor_sid, Key.delta_arg], true, []⟩,
  ⟨"ps/extend.py:304", some 122, [267], 2, [], false, []⟩,
  ⟨"ps/extend.py:310", some 122, [116], 3, [], true, []⟩,
  ⟨"ps/extend.py:311", some 122, [114], 0, [Key.n, Key.xi0, Key.xi1, Key.d_xi0_arg, Key.d_xi1_arg, Key.d2_xi0_arg, Key.d2_xi1_arg, Key.d4_xi0_arg], false, []⟩,
  ⟨"ps/extend.py:316", some 123, [267], 2, [], false, []⟩,
  ⟨"ps/extend.py:317", some 123, [117], 2, [Key.arg, Key.taylor_sid, Key.delta_arg, Key.n], true, []⟩,
  ⟨"ps/extend.py:321", some 124, [267], 2, [], false, []⟩,
  ⟨"ps/extend.py:323", some 124, [117], 2, [Key.arg, Key.taylor_sid, Key.delta_arg, Key.n], true, []⟩,
  ⟨"ps/extend.py:327", some 125, [267], 2, [], false, []⟩,
  ⟨"ps/extend.py:328", some 125, [176], 3, [], false, []⟩,
  ⟨"ps/extend.py:330", some 125, [12], 2, [], false, []⟩,
  ⟨"ps/extend.py:335", some 125, [116], 3, [], true, []⟩,
  ⟨"ps/extend.py:336", some 125, [178], 3, [], false, []⟩,
  ⟨"ps/extend.py:338", some 125, [114], 0, [Key.n, Key.xi0, Key.xi1, Key.d_xi0_arg, Key.d_xi1_arg, Key.d2_xi0_arg, Key.d2_xi1_arg, Key.d4_xi0_arg], false, []⟩,
  ⟨"ps/extend.py:343", some 126, [267], 2, [], false, []⟩,
  ⟨"ps/extend.py:344", some 126, [176], 3, [], false, []⟩,
  ⟨"ps/extend.py:346", some 126, [117], 2, [Key.arg, Key.taylor_sid, Key.delta_arg, Key.n], true, []⟩,
  ⟨"ps/extend.py:348", some 126, [178], 3, [], false, []⟩,
  ⟨"ps/extend.py:356", some 127, [267], 2, [], false, []⟩,
  ⟨"ps/extend.py:360", some 127, [176], 3, [], false, []⟩,
  ⟨"ps/extend.py:362", some 127, [117], 2, [Key.arg, Key.taylor_sid, Key.delta_arg, Key.n], true, []⟩,
  ⟨"ps/extend.py:364", some 127, [178], 3, [], false, []⟩,
  ⟨"ps/extend.py:386", some 128, [113], 3, [], false, []⟩,
  ⟨"ps/extend.py:392", some 128, [119], 2, [Key.JJ, Key.basis_index], false, []⟩,
  ⟨"ps/extend.py:394", some 128, [120], 2, [Key.JJ, Key.basis_index], false, []⟩,
  ⟨"ps/extend.py:396", some 128, [121], 2, [Key.JJ, Key.basis_index], false, []⟩,
  ⟨"ps/extend.py:400", some 128, [122], 2, [Key.JJ, Key.basis_index], false, []⟩,
  ⟨"ps/extend.py:402", some 128, [123], 2, [Key.JJ, Key.basis_index], false, []⟩,
  ⟨"ps/extend.py:404", some 128, [124], 2, [Key.JJ, Key.basis_index], false, []⟩,
  ⟨"ps/extend.py:408", some 128, [125], 2, [Key.JJ, Key.basis_index], false, []⟩,
  ⟨"ps/extend.py:410", some 128, [126], 2, [Key.JJ, Key.basis_index], false, []⟩,
  ⟨"ps/extend.py:412", some 128, [127], 2, [Key.JJ, Key.basis_index], false, []⟩,
  ⟨"ps/extend.py:426", some 128, [148], 0, [], false, []⟩,
  ⟨"ps/extend.py:433", some 129, [128], 0, [], true, []⟩,
  ⟨"ps/extend.py:434", some 129, [153], 0, [], false, []⟩,
  ⟨"ps/grid.py:180", some 130, [270], 1, [], false, []⟩,
  ⟨"ps/grid.py:204", some 131, [267], 2, [], false, []⟩,
  ⟨"ps/grid.py:210", some 131, [39], 2, [], false, []⟩,
  ⟨"ps/grid.py:211", some 131, [179, 269], 2, [], false, []⟩,
  ⟨"ps/grid.py:217", some 131, [132], 4, [], false, []⟩,
  ⟨"ps/grid.py:221", some 131, [132], 4, [], false, []⟩]

/-- the calls 150 to 199 -/
def calls3 : List Call := [
  ⟨"ps/grid.py:228", some 131, [132], 4, [], false, []⟩,
  ⟨"ps/grid.py:232", some 131, [132], 4, [], false, []⟩,
  ⟨"ps/grid.py:235", some 131, [177], 3, [], false, []⟩,
  ⟨"ps/grid.py:239", some 131, [132], 4, [], false, []⟩,
  ⟨"ps/grid.py:243", some 131, [132], 4, [], false, []⟩,
  ⟨"ps/grid.py:250", some 130, [179, 269], 2, [], false, []⟩,
  ⟨"ps/grid.py:253", some 130, [113], 3, [], false, []⟩,
  ⟨"ps/grid.py:255", some 130, [131], 2, [], false, []⟩,
  ⟨"ps/inhomo.py:14", some 133, [179, 269], 2, [], false, []⟩,
  ⟨"ps/inhomo.py:17", some 133, [113], 3, [], false, []⟩,
  ⟨"ps/inhomo.py:44", some 134, [267], 2, [], false, []⟩,
  ⟨"ps/inhomo.py:45", some 134, [179, 269], 2, [], false, []⟩,
  ⟨"ps/inhomo.py:48", some 134, [49, 86], 2, [], false, []⟩,
  ⟨"ps/inhomo.py:50", some 134, [133], 2, [], false, []⟩,
  ⟨"ps/inhomo.py:51", some 134, [113], 3, [], false, []⟩,
  ⟨"ps/inhomo.py:57", some 134, [176], 3, [], false, []⟩,
  ⟨"ps/inhomo.py:83", some 134, [87], 2, [], false, []⟩,
  ⟨"ps/inhomo.py:86", some 134, [89], 2, [], false, []⟩,
  ⟨"ps/inhomo.py:89", some 134, [48], 2, [], false, []⟩,
  ⟨"ps/inhomo.py:107", some 135, [267], 2, [], false, []⟩,
  ⟨"ps/inhomo.py:117", some 135, [178], 3, [], false, []⟩,
  ⟨"ps/inhomo.py:119", some 135, [176], 3, [], false, []⟩,
  ⟨"ps/inhomo.py:126", some 135, [48], 2, [], false, []⟩,
  ⟨"ps/inhomo.py:128", some 135, [87], 2, [], false, []⟩,
  ⟨"ps/inhomo.py:129", some 135, [89], 2, [], false, []⟩,
  ⟨"ps/inhomo.py:159", some 135, [23], 0, [Key.n, Key.f, Key.d_f_n, Key.d2_f_n, Key.d2_f_s, Key.curv], false, []⟩,
  ⟨"ps/inhomo.py:179", some 136, [267], 2, [], false, []⟩,
  ⟨"ps/inhomo.py:184", some 136, [88], 2, [], false, []⟩,
  ⟨"ps/inhomo.py:186", some 136, [90], 2, [], false, []⟩,
  ⟨"ps/inhomo.py:189", some 136, [22], 0, [Key.n, Key.f, Key.d_f_n, Key.d2_f_n, Key.d_f_th, Key.d2_f_th, Key.d_f_r, Key.d2_f_r, Key.d2_f_r_th, Key.d_th_s, Key.d2_th_s, Key.d_r_th, Key.d2_r_th, Key.curv], false, []⟩,
  ⟨"ps/inhomo.py:191", some 136, [49, 86], 2, [], false, []⟩,
  ⟨"ps/inhomo.py:246", some 137, [49, 86], 2, [], false, []⟩,
  ⟨"ps/inhomo.py:247", some 137, [88], 2, [], false, []⟩,
  ⟨"ps/inhomo.py:248", some 137, [90], 2, [], false, []⟩,
  ⟨"ps/inhomo.py:264", some 137, [267], 2, [], false, []⟩,
  ⟨"ps/inhomo.py:265", some 137, [179, 269], 2, [], false, []⟩,
  ⟨"ps/inhomo.py:298", some 137, [22], 0, [Key.n, Key.f, Key.d_f_n, Key.d2_f_n, Key.d_f_th, Key.d2_f_th, Key.d_f_r, Key.d2_f_r, Key.d2_f_r_th, Key.d_th_s, Key.d2_th_s, Key.d_r_th, Key.d2_r_th, Key.curv], false, []⟩,
  ⟨"ps/inhomo.py:321", some 138, [137], 3, [], false, []⟩,
  ⟨"ps/inhomo.py:324", some 139, [137], 3, [], false, []⟩,
  ⟨"ps/inhomo.py:328", some 140, [48], 2, [], false, []⟩,
  ⟨"ps/inhomo.py:338", some 140, [89], 2, [], false, []⟩,
  ⟨"ps/inhomo.py:340", some 140, [87], 2, [], false, []⟩,
  ⟨"ps/inhomo.py:343", some 140, [87], 2, [], false, []⟩,
  ⟨"ps/inhomo.py:344", some 140, [89], 2, [], false, []⟩,
  ⟨"ps/inhomo.py:359", some 140, [12], 2, [], false, []⟩,
  ⟨"ps/inhomo.py:363", some 140, [23], 0, [Key.n, Key.f, Key.d_f_n, Key.d2_f_n, Key.d2_f_s, Key.curv], false, []⟩,
  ⟨"ps/inhomo.py:378", some 141, [267], 2, [], false, []⟩,
  ⟨"ps/inhomo.py:385", some 141, [176], 3, [], false, []⟩,
  ⟨"ps/inhomo.py:389", some 141, [178], 3, [], false, []⟩,
  ⟨"ps/inhomo.py:391", some 141, [140], 6, [], false, []⟩]

/-- the calls 200 to 249 -/
def calls4 : List Call := [
  ⟨"ps/inhomo.py:394", some 142, [141], 3, [], false, []⟩,
  ⟨"ps/inhomo.py:397", some 143, [141], 3, [], false, []⟩,
  ⟨"ps/inhomo.py:400", some 144, [135], 3, [], false, []⟩,
  ⟨"ps/inhomo.py:403", some 145, [141], 3, [], false, []⟩,
  ⟨"ps/inhomo.py:406", some 146, [141], 3, [], false, []⟩,
  ⟨"ps/inhomo.py:409", some 147, [135], 3, [], false, []⟩,
  ⟨"ps/inhomo.py:420", some 148, [113], 3, [], false, []⟩,
  ⟨"ps/inhomo.py:428", some 148, [136], 2, [], false, []⟩,
  ⟨"ps/inhomo.py:430", some 148, [138], 2, [], false, []⟩,
  ⟨"ps/inhomo.py:432", some 148, [139], 2, [], false, []⟩,
  ⟨"ps/inhomo.py:436", some 148, [142], 2, [], false, []⟩,
  ⟨"ps/inhomo.py:438", some 148, [143], 2, [], false, []⟩,
  ⟨"ps/inhomo.py:440", some 148, [144], 2, [], false, []⟩,
  ⟨"ps/inhomo.py:444", some 148, [145], 2, [], false, []⟩,
  ⟨"ps/inhomo.py:446", some 148, [146], 2, [], false, []⟩,
  ⟨"ps/inhomo.py:448", some 148, [147], 2, [], false, []⟩,
  ⟨"ps/inhomo.py:456", some 149, [153], 0, [], false, []⟩,
  ⟨"ps/inhomo.py:456", some 149, [148], 0, [], false, []⟩,
  ⟨"ps/ode.py:22", some 156, [29], 2, [Key.N], false, []⟩,
  ⟨"ps/ode.py:24", some 156, [155], 1, [], false, []⟩,
  ⟨"ps/ode.py:25", some 156, [155], 1, [], false, []⟩,
  ⟨"ps/ode.py:26", some 156, [155], 1, [], false, []⟩,
  ⟨"ps/ode.py:31", some 156, [29], 2, [Key.N], false, []⟩,
  ⟨"ps/ode.py:32", some 156, [155], 1, [], false, []⟩,
  ⟨"ps/ode.py:66", some 156, [155], 1, [], false, []⟩,
  ⟨"ps/polarfd.py:16", some 158, [163], 0, [], false, []⟩,
  ⟨"ps/polarfd.py:52", some 165, [162], 2, [], false, []⟩,
  ⟨"ps/polarfd.py:53", some 165, [161], 1, [], false, []⟩,
  ⟨"ps/polarfd.py:71", some 166, [160], 1, [], false, []⟩,
  ⟨"ps/polarfd.py:73", some 166, [162], 2, [], false, []⟩,
  ⟨"ps/polarfd.py:82", some 166, [162], 2, [], false, []⟩,
  ⟨"ps/polarfd.py:97", some 167, [162], 2, [], false, []⟩,
  ⟨"ps/polarfd.py:99", some 167, [161], 1, [], false, []⟩,
  ⟨"ps/polarfd.py:109", some 168, [160], 1, [], false, []⟩,
  ⟨"ps/polarfd.py:110", some 168, [160], 1, [], false, []⟩,
  ⟨"ps/polarfd.py:111", some 168, [160], 1, [], false, []⟩,
  ⟨"ps/polarfd.py:112", some 168, [160], 1, [], false, []⟩,
  ⟨"ps/polarfd.py:113", some 168, [160], 1, [], false, []⟩,
  ⟨"ps/polarfd.py:172", some 168, [161], 1, [], false, []⟩,
  ⟨"ps/polarfd.py:186", some 168, [169], 3, [], false, []⟩,
  ⟨"ps/polarfd.py:196", some 169, [162], 2, [], false, []⟩,
  ⟨"ps/polarfd.py:216", some 170, [159], 1, [], false, []⟩,
  ⟨"ps/polarfd.py:217", some 170, [159], 1, [], false, []⟩,
  ⟨"ps/polarfd.py:218", some 170, [159], 1, [], false, []⟩,
  ⟨"ps/polarfd.py:220", some 170, [164], 0, [], false, []⟩,
  ⟨"ps/polarfd.py:222", some 170, [165], 0, [], false, []⟩,
  ⟨"ps/polarfd.py:223", some 170, [166], 0, [], false, []⟩,
  ⟨"ps/polarfd.py:224", some 170, [167], 0, [], false, []⟩,
  ⟨"ps/polarfd.py:229", some 170, [168], 2, [], false, []⟩,
  ⟨"ps/polarfd.py:232", some 170, [159], 1, [], false, []⟩]

/-- the calls 250 to 299 -/
def calls5 : List Call := [
  ⟨"ps/ps.py:38", some 173, [172], 1, [], false, []⟩,
  ⟨"ps/ps.py:42", some 173, [51], 1, [Key.scheme_order], false, []⟩,
  ⟨"ps/ps.py:44", some 173, [92], 2, [], false, []⟩,
  ⟨"ps/ps.py:49", some 173, [92], 2, [], false, []⟩,
  ⟨"ps/ps.py:52", some 173, [130], 1, [], false, []⟩,
  ⟨"ps/ps.py:53", some 173, [181], 0, [], false, []⟩,
  ⟨"ps/ps.py:56", some 173, [28], 1, [], false, []⟩,
  ⟨"ps/ps.py:57", some 173, [27], 1, [], false, []⟩,
  ⟨"ps/ps.py:59", some 173, [174], 0, [], false, []⟩,
  ⟨"ps/ps.py:66", some 174, [271], 0, [], false, []⟩,
  ⟨"ps/ps.py:67", some 174, [33], 1, [], false, []⟩,
  ⟨"ps/ps.py:75", some 175, [179, 269], 2, [], false, []⟩,
  ⟨"ps/ps.py:98", some 177, [176], 3, [], false, []⟩,
  ⟨"ps/ps.py:102", some 178, [177], 3, [], false, []⟩,
  ⟨"ps/ps.py:104", some 178, [176], 3, [], false, []⟩,
  ⟨"ps/ps.py:111", some 179, [269], 2, [], false, []⟩,
  ⟨"ps/ps.py:121", some 180, [179, 269], 2, [], false, []⟩,
  ⟨"ps/ps.py:122", some 180, [39], 2, [], false, []⟩,
  ⟨"ps/ps.py:131", some 181, [180], 2, [], false, []⟩,
  ⟨"ps/ps.py:168", some 184, [101], 2, [], false, []⟩,
  ⟨"ps/ps.py:170", some 184, [182], 1, [], false, []⟩,
  ⟨"ps/ps.py:171", some 184, [183], 1, [], false, []⟩,
  ⟨"ps/ps.py:188", some 185, [184], 1, [], false, []⟩,
  ⟨"ps/ps.py:198", some 185, [184], 1, [], false, []⟩,
  ⟨"ps/ps.py:201", some 185, [149], 0, [], false, []⟩,
  ⟨"ps/ps.py:202", some 185, [182], 1, [], false, []⟩,
  ⟨"ps/ps.py:204", some 185, [183], 1, [], false, []⟩,
  ⟨"ps/ps.py:214", some 186, [185], 0, [], false, []⟩,
  ⟨"ps/ps.py:232", some 187, [99], 0, [], false, []⟩,
  ⟨"ps/ps.py:239", some 187, [107], 0, [Key.plot], false, []⟩,
  ⟨"ps/ps.py:241", some 187, [186], 0, [], false, []⟩,
  ⟨"ps/ps.py:246", some 187, [129], 0, [], false, []⟩,
  ⟨"ps/ps.py:247", some 187, [182], 1, [], false, []⟩,
  ⟨"ps/ps.py:251", some 187, [272], 1, [], false, []⟩,
  ⟨"ps/zmethod.py:44", some 189, [190], 0, [], false, []⟩,
  ⟨"ps/zmethod.py:45", some 189, [194], 0, [], false, []⟩,
  ⟨"ps/zmethod.py:46", some 189, [197], 0, [], false, []⟩,
  ⟨"ps/zmethod.py:47", some 189, [205], 0, [], false, []⟩,
  ⟨"ps/zmethod.py:48", some 189, [200], 0, [], false, []⟩,
  ⟨"ps/zmethod.py:49", some 189, [207], 0, [], false, []⟩,
  ⟨"ps/zmethod.py:53", some 189, [211], 0, [], false, []⟩,
  ⟨"ps/zmethod.py:74", some 190, [191], 1, [], false, []⟩,
  ⟨"ps/zmethod.py:75", some 190, [191], 1, [], false, []⟩,
  ⟨"ps/zmethod.py:88", some 190, [191], 1, [], false, []⟩,
  ⟨"ps/zmethod.py:116", some 190, [192], 1, [], false, []⟩,
  ⟨"ps/zmethod.py:118", some 190, [58, 67], 2, [], false, []⟩,
  ⟨"ps/zmethod.py:123", some 190, [192], 1, [], false, []⟩,
  ⟨"ps/zmethod.py:125", some 190, [192], 1, [], false, []⟩,
  ⟨"ps/zmethod.py:126", some 190, [192], 1, [], false, []⟩,
  ⟨"ps/zmethod.py:127", some 190, [192], 1, [], false, []⟩]

/-- the calls 300 to 349 -/
def calls6 : List Call := [
  ⟨"ps/zmethod.py:129", some 190, [192], 1, [], false, []⟩,
  ⟨"ps/zmethod.py:130", some 190, [192], 1, [], false, []⟩,
  ⟨"ps/zmethod.py:131", some 190, [192], 1, [], false, []⟩,
  ⟨"ps/zmethod.py:158", some 194, [195], 0, [], false, []⟩,
  ⟨"ps/zmethod.py:166", some 194, [156], 9, [], false, []⟩,
  ⟨"ps/zmethod.py:188", some 196, [58, 67], 2, [], false, []⟩,
  ⟨"ps/zmethod.py:191", some 195, [29], 2, [], false, []⟩,
  ⟨"ps/zmethod.py:221", some 197, [170], 9, [], false, []⟩,
  ⟨"ps/zmethod.py:238", some 197, [160], 1, [], false, []⟩,
  ⟨"ps/zmethod.py:239", some 197, [161], 1, [], false, []⟩,
  ⟨"ps/zmethod.py:240", some 197, [162], 2, [], false, []⟩,
  ⟨"ps/zmethod.py:250", some 200, [202], 0, [], false, []⟩,
  ⟨"ps/zmethod.py:261", some 200, [0], 5, [], false, []⟩,
  ⟨"ps/zmethod.py:262", some 200, [53], 0, [], false, []⟩,
  ⟨"ps/zmethod.py:283", some 203, [59, 63, 68], 1, [], false, []⟩,
  ⟨"ps/zmethod.py:283", some 203, [58, 67], 2, [], false, []⟩,
  ⟨"ps/zmethod.py:286", some 204, [58, 67], 2, [], false, []⟩,
  ⟨"ps/zmethod.py:288", some 202, [29], 2, [], false, []⟩,
  ⟨"ps/zmethod.py:293", some 202, [29], 2, [], false, []⟩,
  ⟨"ps/zmethod.py:294", some 202, [2], 4, [], false, []⟩,
  ⟨"ps/zmethod.py:314", some 205, [160], 1, [], false, []⟩,
  ⟨"ps/zmethod.py:321", some 205, [161], 1, [], false, []⟩,
  ⟨"ps/zmethod.py:325", some 205, [160], 1, [], false, []⟩,
  ⟨"ps/zmethod.py:330", some 205, [161], 1, [], false, []⟩,
  ⟨"ps/zmethod.py:373", some 209, [15], 4, [], false, []⟩,
  ⟨"ps/zmethod.py:404", some 207, [187], 0, [], false, []⟩,
  ⟨"ps/zmethod.py:413", some 211, [160], 1, [], false, []⟩,
  ⟨"ps/zmethod.py:417", some 211, [161], 1, [], false, []⟩,
  ⟨"ps/zmethod.py:418", some 211, [58, 67], 2, [], false, []⟩,
  ⟨"run.py:35", none, [30], 2, [], false, []⟩,
  ⟨"run.py:45", none, [54], 1, [], false, []⟩,
  ⟨"run.py:47", none, [212], 2, [], false, []⟩,
  ⟨"run.py:60", none, [31], 2, [], false, []⟩,
  ⟨"run.py:79", none, [187], 0, [], false, []⟩,
  ⟨"run.py:96", none, [273], 3, [], false, []⟩,
  ⟨"runz.py:38", none, [30], 2, [], false, []⟩,
  ⟨"runz.py:51", none, [54], 1, [], false, []⟩,
  ⟨"runz.py:53", none, [213], 2, [], false, []⟩,
  ⟨"runz.py:67", none, [31], 2, [], false, []⟩,
  ⟨"runz.py:95", none, [189], 0, [], false, []⟩,
  ⟨"runz.py:110", none, [171], 3, [], false, []⟩,
  ⟨"runz.py:127", none, [273], 3, [], false, []⟩,
  ⟨"scripts/abcoef/bet_generate.py:22", none, [30], 2, [], false, []⟩,
  ⟨"scripts/abcoef/bet_generate.py:43", some 214, [47, 62, 72, 210], 2, [], false, []⟩,
  ⟨"scripts/abcoef/bet_generate.py:58", some 215, [53], 0, [], false, []⟩,
  ⟨"scripts/abcoef/bet_generate.py:61", some 215, [0], 5, [], false, []⟩,
  ⟨"scripts/abcoef/bet_generate.py:71", none, [215], 0, [], false, []⟩,
  ⟨"scripts/abcoef/expansion_error.py:51", none, [59, 63, 68], 1, [], false, []⟩,
  ⟨"scripts/abcoef/expansion_error.py:51", none, [216], 1, [], false, []⟩,
  ⟨"scripts/abcoef/generate_data.py:32", some 218, [47, 62, 72, 210], 2, [], false, []⟩]

/-- the calls 350 to 399 -/
def calls7 : List Call := [
  ⟨"scripts/abcoef/generate_data.py:52", none, [74, 209], 2, [], false, []⟩,
  ⟨"scripts/abcoef/generate_data.py:52", none, [59, 63, 68], 1, [], false, []⟩,
  ⟨"scripts/abcoef/generate_data.py:62", none, [0], 5, [], false, []⟩,
  ⟨"scripts/abcoef/generate_data.py:69", none, [217], 1, [], false, []⟩,
  ⟨"scripts/abcoef/generate_data.py:70", none, [217], 1, [], false, []⟩,
  ⟨"scripts/abcoef/generate_data.py:71", none, [217], 1, [], false, []⟩,
  ⟨"scripts/abcoef/generate_data2.py:31", some 221, [47, 62, 72, 210], 2, [], false, []⟩,
  ⟨"scripts/abcoef/generate_data2.py:51", some 219, [0], 5, [], false, []⟩,
  ⟨"scripts/abcoef/generate_data2.py:56", some 219, [220], 1, [], false, []⟩,
  ⟨"scripts/abcoef/generate_data2.py:57", some 219, [220], 1, [], false, []⟩,
  ⟨"scripts/abcoef/generate_data2.py:74", none, [219], 2, [], false, []⟩,
  ⟨"scripts/abcoef/generate_report.py:80", none, [222], 1, [], false, []⟩,
  ⟨"scripts/abcoef/generate_report.py:81", none, [223], 2, [], false, []⟩,
  ⟨"scripts/abcoef/generate_report.py:91", none, [222], 1, [], false, []⟩,
  ⟨"scripts/abcoef/generate_report.py:92", none, [223], 2, [], false, []⟩,
  ⟨"scripts/abcoef/k_test.py:20", none, [30], 2, [], false, []⟩,
  ⟨"scripts/abcoef/k_test.py:42", some 224, [47, 62, 72, 210], 2, [], false, []⟩,
  ⟨"scripts/abcoef/k_test.py:56", some 226, [225], 1, [], false, []⟩,
  ⟨"scripts/abcoef/k_test.py:58", none, [226], 0, [], false, []⟩,
  ⟨"scripts/abcoef/run_test.py:19", none, [30], 2, [], false, []⟩,
  ⟨"scripts/abcoef/run_test.py:47", some 229, [0], 5, [], false, []⟩,
  ⟨"scripts/abcoef/run_test.py:52", some 229, [228], 1, [], false, []⟩,
  ⟨"scripts/abcoef/run_test.py:55", some 229, [228], 1, [], false, []⟩,
  ⟨"scripts/abcoef/run_test.py:58", some 229, [228], 1, [], false, []⟩,
  ⟨"scripts/abcoef/run_test.py:77", some 230, [0], 5, [], false, []⟩,
  ⟨"scripts/abcoef/run_test.py:82", some 230, [228], 1, [], false, []⟩,
  ⟨"scripts/abcoef/run_test.py:91", none, [230], 0, [], false, []⟩,
  ⟨"scripts/apply_helmholtz.py:16", none, [231], 1, [], false, []⟩,
  ⟨"scripts/c0_basis.py:24", none, [30], 2, [], false, []⟩,
  ⟨"scripts/c0_basis.py:42", none, [31], 2, [], false, []⟩,
  ⟨"scripts/c0_basis.py:55", none, [99], 0, [], false, []⟩,
  ⟨"scripts/c0_basis.py:57", none, [107], 0, [Key.plot], false, []⟩,
  ⟨"scripts/codegen/rhs_derivs.py:23", some 234, [233], 2, [], false, []⟩,
  ⟨"scripts/codegen/rhs_derivs.py:26", some 234, [233], 2, [], false, []⟩,
  ⟨"scripts/codegen/rhs_derivs.py:29", some 234, [236], 1, [], false, []⟩,
  ⟨"scripts/codegen/rhs_derivs.py:31", some 234, [237], 1, [], false, []⟩,
  ⟨"scripts/codegen/rhs_derivs.py:35", some 235, [233], 2, [], false, []⟩,
  ⟨"scripts/codegen/rhs_derivs.py:38", some 235, [233], 2, [], false, []⟩,
  ⟨"scripts/codegen/rhs_derivs.py:40", some 235, [236], 1, [], false, []⟩,
  ⟨"scripts/codegen/rhs_derivs.py:45", some 236, [233], 2, [], false, []⟩,
  ⟨"scripts/codegen/rhs_derivs.py:46", some 236, [233], 2, [], false, []⟩,
  ⟨"scripts/codegen/rhs_derivs.py:48", some 236, [233], 2, [], false, []⟩,
  ⟨"scripts/codegen/rhs_derivs.py:49", some 236, [233], 2, [], false, []⟩,
  ⟨"scripts/codegen/rhs_derivs.py:51", some 236, [233], 2, [], false, []⟩,
  ⟨"scripts/codegen/rhs_derivs.py:57", some 237, [233], 2, [], false, []⟩,
  ⟨"scripts/codegen/rhs_derivs.py:64", some 237, [233], 2, [], false, []⟩,
  ⟨"scripts/extend_basis_test.py:24", none, [30], 2, [], false, []⟩,
  ⟨"scripts/extend_basis_test.py:39", none, [31], 2, [], false, []⟩,
  ⟨"scripts/extend_basis_test.py:46", none, [101], 2, [], false, []⟩,
  ⟨"scripts/extend_basis_test.py:56", none, [129], 0, [Key.homogeneous_only], false, []⟩]

/-- the calls 400 to 449 -/
def calls8 : List Call := [
  ⟨"scripts/extension_test.py:50", some 239, [238], 0, [], false, []⟩,
  ⟨"scripts/extension_test.py:52", some 239, [99], 0, [], false, []⟩,
  ⟨"scripts/extension_test.py:53", some 239, [104], 0, [], false, []⟩,
  ⟨"scripts/extension_test.py:55", some 239, [107], 0, [Key.plot], false, []⟩,
  ⟨"scripts/extension_test.py:58", some 239, [128], 0, [], false, []⟩,
  ⟨"scripts/extension_test.py:59", some 239, [153], 0, [], false, []⟩,
  ⟨"scripts/extension_test.py:66", some 239, [179, 269], 2, [], false, []⟩,
  ⟨"scripts/extension_test.py:73", some 239, [47, 62, 72, 210], 2, [], false, []⟩,
  ⟨"scripts/extension_test.py:106", none, [30], 2, [], false, []⟩,
  ⟨"scripts/extension_test.py:138", none, [31], 2, [], false, []⟩,
  ⟨"scripts/extension_test.py:146", none, [239], 1, [], false, []⟩,
  ⟨"scripts/optimize_basis.py:29", none, [30], 2, [], false, []⟩,
  ⟨"scripts/optimize_basis.py:47", none, [31], 2, [], false, []⟩,
  ⟨"scripts/optimize_basis.py:57", some 242, [187], 0, [], false, []⟩,
  ⟨"scripts/optimize_basis.py:59", some 242, [241], 1, [], false, []⟩,
  ⟨"scripts/optimize_basis.py:80", none, [241], 1, [], false, []⟩,
  ⟨"scripts/plot_domain.py:35", some 245, [102], 0, [Key.extended], false, []⟩,
  ⟨"scripts/plot_domain.py:56", some 246, [267], 2, [], false, []⟩,
  ⟨"scripts/plot_domain.py:65", some 247, [245], 0, [], false, []⟩,
  ⟨"scripts/plot_domain.py:72", some 247, [246], 1, [], false, []⟩,
  ⟨"scripts/plot_domain.py:86", some 248, [245], 0, [Key.extended], false, []⟩,
  ⟨"scripts/plot_domain.py:101", some 248, [246], 1, [], false, []⟩,
  ⟨"scripts/plot_domain.py:118", some 249, [245], 0, [Key.extended], false, []⟩,
  ⟨"scripts/plot_domain.py:119", some 249, [243], 0, [Key.options], false, []⟩,
  ⟨"scripts/plot_domain.py:137", some 249, [246], 1, [], false, []⟩,
  ⟨"scripts/plot_domain.py:150", some 250, [245], 0, [Key.extended], false, []⟩,
  ⟨"scripts/plot_domain.py:168", some 250, [246], 1, [], false, []⟩,
  ⟨"scripts/plot_domain.py:184", none, [30], 2, [], false, []⟩,
  ⟨"scripts/plot_domain.py:198", none, [243], 0, [Key.options], false, []⟩,
  ⟨"scripts/plot_domain.py:199", none, [250], 0, [], false, []⟩,
  ⟨"scripts/plot_domain.py:206", none, [244], 0, [Key.color, Key.linestyle], false, []⟩,
  ⟨"scripts/plot_domain.py:207", none, [245], 0, [Key.color, Key.extended], false, []⟩,
  ⟨"scripts/plot_domain.py:211", none, [248], 1, [], false, []⟩,
  ⟨"scripts/plot_domain.py:213", none, [248], 1, [], false, []⟩,
  ⟨"scripts/plot_domain.py:215", none, [249], 1, [], false, []⟩,
  ⟨"scripts/plot_domain.py:217", none, [249], 1, [], false, []⟩,
  ⟨"scripts/plot_domain.py:219", none, [243], 1, [], false, []⟩,
  ⟨"scripts/plot_domain.py:220", none, [245], 0, [Key.color, Key.extended], false, []⟩,
  ⟨"scripts/plot_domain2.py:34", some 253, [102], 0, [], false, []⟩,
  ⟨"scripts/plot_domain2.py:50", some 254, [267], 2, [], false, []⟩,
  ⟨"scripts/plot_domain2.py:65", some 255, [254], 1, [], false, []⟩,
  ⟨"scripts/plot_domain2.py:84", some 256, [254], 1, [], false, []⟩,
  ⟨"scripts/plot_domain2.py:128", none, [252], 0, [Key.color, Key.linestyle, Key.linewidth], false, []⟩,
  ⟨"scripts/plot_domain2.py:129", none, [253], 1, [Key.color], false, []⟩,
  ⟨"scripts/plot_domain2.py:130", none, [253], 1, [Key.color], false, []⟩,
  ⟨"scripts/plot_domain2.py:131", none, [253], 1, [Key.color, Key.marker, Key.«label», Key.ms], false, []⟩,
  ⟨"scripts/plot_domain2.py:138", none, [253], 1, [Key.color, Key.marker, Key.«label», Key.ms], false, []⟩,
  ⟨"scripts/polarfd/sym.py:24", none, [257], 1, [], false, []⟩,
  ⟨"scripts/polarfd/test.py:34", none, [259], 2, [], false, []⟩,
  ⟨"scripts/polarfd/test.py:39", some 260, [258], 2, [], false, []⟩]

/-- the calls 450 to 482 -/
def calls9 : List Call := [
  ⟨"scripts/polarfd/test.py:42", some 261, [258], 2, [], false, []⟩,
  ⟨"scripts/polarfd/test.py:45", some 262, [258], 2, [], false, []⟩,
  ⟨"scripts/polarfd/test.py:52", some 263, [162], 2, [], false, []⟩,
  ⟨"scripts/polarfd/test.py:72", none, [160], 1, [], false, []⟩,
  ⟨"scripts/polarfd/test.py:74", none, [161], 1, [], false, []⟩,
  ⟨"scripts/polarfd/test.py:75", none, [162], 2, [], false, []⟩,
  ⟨"scripts/polarfd/test.py:75", none, [258], 2, [], false, []⟩,
  ⟨"scripts/polarfd/test.py:87", none, [263], 1, [], false, []⟩,
  ⟨"scripts/polarfd/test.py:90", none, [171], 3, [], false, []⟩,
  ⟨"scripts/test_extend_f.py:49", some 264, [133], 2, [], false, []⟩,
  ⟨"scripts/test_extend_f.py:50", some 264, [179, 269], 2, [], false, []⟩,
  ⟨"scripts/test_extend_f.py:51", some 264, [49, 86], 2, [], false, []⟩,
  ⟨"scripts/test_extend_f.py:90", none, [31], 2, [], false, []⟩,
  ⟨"scripts/test_extend_f.py:99", none, [264], 1, [], false, []⟩,
  ⟨"scripts/zmethod/interp_test.py:40", none, [160], 1, [], false, []⟩,
  ⟨"scripts/zmethod/interp_test.py:42", none, [161], 1, [], false, []⟩,
  ⟨"scripts/zmethod/interp_test.py:43", none, [265], 2, [], false, []⟩,
  ⟨"scripts/zmethod/interp_test.py:46", none, [205], 0, [], false, []⟩,
  ⟨"scripts/zmethod/interp_test.py:52", none, [265], 2, [], false, []⟩,
  ⟨"solver.py:48", some 269, [267], 2, [], false, []⟩,
  ⟨"solver.py:49", some 269, [12], 2, [], false, []⟩,
  ⟨"solver.py:60", some 270, [175], 2, [], false, []⟩,
  ⟨"solver.py:87", some 271, [48], 2, [], false, []⟩,
  ⟨"solver.py:87", some 271, [267], 2, [], false, []⟩,
  ⟨"solver.py:90", some 271, [134], 0, [], false, []⟩,
  ⟨"solver.py:104", some 272, [267], 2, [], false, []⟩,
  ⟨"solver.py:105", some 272, [46, 76, 78, 81], 2, [], false, []⟩,
  ⟨"solver.py:126", some 273, [274], 3, [], false, []⟩,
  ⟨"solver.py:130", some 273, [154], 2, [], false, []⟩,
  ⟨"test/ps/test_multivalue.py:101", some 278, [275], 2, [], false, []⟩,
  ⟨"test/ps/test_multivalue.py:104", some 278, [275], 2, [], false, []⟩,
  ⟨"test/ps/test_multivalue.py:109", some 279, [153], 0, [], false, []⟩,
  ⟨"test/ps/test_multivalue.py:129", some 280, [153], 0, [], false, []⟩]


/-! ## The dictionaries of derivatives -/

/-- ps/extend.py:15-21 `get_deriv_name`, the characters of the name; `'{}'.format(n)` of a number is its decimal digits -/
def derivName (order index : ℕ) : List Char :=
  if order = 0 then 'x' :: 'i' :: Nat.toDigits 10 index
  else if order = 1 then 'd' :: '_' :: 'x' :: 'i' :: (Nat.toDigits 10 index ++ ['_', 'a', 'r', 'g'])
  else 'd' :: (Nat.toDigits 10 order ++ '_' :: 'x' :: 'i' :: (Nat.toDigits 10 index ++ ['_', 'a', 'r', 'g']))

/-- the `deriv_types` of `do_extend_0_standard` (ps/extend.py:282-284) -/
def types0 : List (ℕ × ℕ) := [(0, 0), (0, 1), (1, 0), (1, 1), (2, 0), (2, 1), (3, 0), (4, 0)]

/-- the `deriv_types` of `do_extend_1_standard` and `do_extend_2_standard` (ps/extend.py:306-308, 332-334) -/
def types12 : List (ℕ × ℕ) := [(0, 0), (0, 1), (1, 0), (1, 1), (2, 0), (2, 1), (4, 0)]

/-- the `deriv_types` of `do_extend_taylor` (ps/extend.py:193) -/
def typesTaylor : List (ℕ × ℕ) := (List.range 5).flatMap fun m => [(m, 0), (m, 1)]

/-- the dictionary with human readable keys that `_ext_calc_xi_derivs` (ps/extend.py:126-150) and the last loop of `do_extend_taylor`
(ps/extend.py:215-219) leave, for the values `val order index` -/
def derivDict (types : List (ℕ × ℕ)) (val : ℕ → ℕ → V) : List (List Char × V) := types.map fun t => (derivName t.1 t.2, val t.1 t.2)

/-- the keys that `do_extend_0` reads from `derivs` (ps/extend.py:251-258) -/
def reads0 : List String := ["xi0", "xi1", "d_xi0_arg", "d_xi1_arg", "d2_xi0_arg", "d2_xi1_arg", "d3_xi0_arg", "d4_xi0_arg"]

/-- the keys other than `n` that `extend_radius` reads from its `kwargs` (ps/extend.py:79-85) -/
def readsRadius : List String := ["xi0", "xi1", "d_xi0_arg", "d_xi1_arg", "d2_xi0_arg", "d2_xi1_arg", "d4_xi0_arg"]

/-- all functions and methods -/
def fns : List Fn := fns0 ++ fns1 ++ fns2 ++ fns3 ++ fns4 ++ fns5

/-- the calls, except those of `misfits` -/
def calls : List Call := calls0 ++ calls1 ++ calls2 ++ calls3 ++ calls4 ++ calls5 ++ calls6 ++ calls7 ++ calls8 ++ calls9

/-- the calls whose arguments do not fit -/
def misfits : List Call := [
  ⟨"scripts/plot_domain2.py:58", some 255, [253], 0, [], false, []⟩,
  ⟨"scripts/plot_domain2.py:77", some 256, [253], 0, [], false, []⟩,
  ⟨"scripts/polarfd/test.py:67", none, [170], 12, [], false, []⟩]

/-- what the `kwargs` of a caller contribute to a call -/
def passedOn (c : Call) (E : List (ℕ × V)) : List (ℕ × V) := E.filter fun e => decide (e.1 ∉ c.drop)

/-- `Called t E`: some chain of calls leads to a call of function `t` in which its `kwargs` are `E`.  The arguments may have any values. -/
inductive Called : ℕ → List (ℕ × V) → Prop where
  | plain {c : Call} {t : ℕ} {f : Fn} {args : List V} {kw : List (ℕ × V)} {F : Frame V} : c ∈ calls ++ misfits → t ∈ c.targets →
      fns[t]? = some f → c.fwd = false → args.length = c.npos → kw.map Prod.fst = c.kws → bind f.sig args kw = .ok F →
      Called t F.extra
  | forward {c : Call} {g t : ℕ} {f : Fn} {args : List V} {kw E : List (ℕ × V)} {F : Frame V} : c ∈ calls ++ misfits →
      t ∈ c.targets → fns[t]? = some f → c.fwd = true → c.caller = some g → Called g E → args.length = c.npos →
      kw.map Prod.fst = c.kws → bind f.sig args (kw ++ passedOn c E) = .ok F → Called t F.extra

/-- the arguments with which call `c` can be made -/
inductive Made (c : Call) : List V → List (ℕ × V) → Prop where
  | plain {args : List V} {kw : List (ℕ × V)} : c.fwd = false → args.length = c.npos → kw.map Prod.fst = c.kws → Made c args kw
  | forward {g : ℕ} {args : List V} {kw E : List (ℕ × V)} : c.fwd = true → c.caller = some g → Called g E →
      args.length = c.npos → kw.map Prod.fst = c.kws → Made c args (kw ++ passedOn c E)

end Calls
end Pot
