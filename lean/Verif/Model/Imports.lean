import Mathlib.Data.List.Basic

/-!
# The import statements of the repository

What the interpreter does with the top-level `import` and `from … import …` statements of the modules and of the
programs of the repository: `sys.modules`, the search for the file, the execution of the body of a module the first time
it is imported, the names bound so far, and the two errors (no such module, no such name).

Modelled: every `import`, every `from … import …` and every top-level definition or assignment of the 27 modules of
`/repo` (the root, `problems/`, `ps/`), in order, and every top-level import of the 29 programs (`run.py`, `runz.py`, the
unit tests, `scripts/**`), with relative imports resolved.  No function body of the repository contains an import.

Simplified:
* a module outside the repository is one Boolean, `inst` ("is installed"); its body does not import the repository, and
  every name asked of it exists;
* a name of the repository is never shadowed by an installed package;
* top-level statements other than imports and definitions (the two `print` calls of `problems/sing_ihz.py:40` and `:43`,
  the loop of `problems/__init__.py:34-35`, the statements of `scripts/polarfd/sym.py`) do not raise;
* `from package import submodule` does not fall back to importing the submodule: no statement of the repository needs it;
* the effect of `sys.path.append` is the Boolean `root` of a program: whether the directory of the repository is on the
  search path.
-/

namespace Pot
namespace Imports

/-- A dotted module name, `ps.zmethod` is `["ps", "zmethod"]`. -/
abbrev Mod := List String

/-- A top-level statement: `import m`, `from m import names`, or a definition or assignment of names. -/
inductive Stmt where
  | imp (m : Mod)
  | frm (m : Mod) (names : List String)
  | dfn (names : List String)
  deriving DecidableEq

/-- The errors: `notInstalled` and `noFile` are both `ModuleNotFoundError` (the module is outside of the repository, or
its name belongs to the repository and there is no such file), `cannotImport` is `ImportError: cannot import name …`;
`fuel` is not an error of the program, it says that the bound on the depth of nested imports was reached. -/
inductive ImpErr where
  | notInstalled (m : Mod)
  | noFile (m : Mod)
  | cannotImport (m : Mod) (name : String)
  | fuel
  deriving DecidableEq

/-- `sys.modules` and the names bound in the modules so far. -/
structure St where
  loaded : List Mod
  bound : List (Mod × String)
  deriving DecidableEq

instance : DecidableEq (Except ImpErr St) := fun a b =>
  match a, b with
  | .ok x, .ok y => if h : x = y then isTrue (by rw [h]) else isFalse (by intro e; cases e; exact h rfl)
  | .error x, .error y => if h : x = y then isTrue (by rw [h]) else isFalse (by intro e; cases e; exact h rfl)
  | .ok _, .error _ => isFalse (by intro e; cases e)
  | .error _, .ok _ => isFalse (by intro e; cases e)

/-- The files of the repository that the search path shows: the statements of the module, if there is one. -/
abbrev Files := Mod → Option (List Stmt)

/-- One module of an import, its parents being imported: already in `sys.modules`, or a file of the repository, whose
body runs after the module has been entered in `sys.modules` and whose name is bound in the parent afterwards, or a
module from outside. -/
def loadOne (load : Mod → List Stmt → St → Except ImpErr St) (fs : Files) (inst : Mod → Bool) (st : St) (q : Mod) :
    Except ImpErr St :=
  if q ∈ st.loaded then .ok st
  else match fs q with
    | some body =>
      match load q body { st with loaded := q :: st.loaded } with
      | .ok st' => .ok { st' with bound := (q.dropLast, q.getLast?.getD "") :: st'.bound }
      | .error e => .error e
    | none =>
      if (fs (q.take 1)).isSome then .error (.noFile q)
      else if inst q then .ok { st with loaded := q :: st.loaded }
      else .error (.notInstalled q)

/-- The non-empty prefixes of a dotted name, shortest first. -/
def prefixes (m : Mod) : List Mod := (List.range m.length).map fun i => m.take (i + 1)

/-- `import m`: the parents first. -/
def importPath (load : Mod → List Stmt → St → Except ImpErr St) (fs : Files) (inst : Mod → Bool) (m : Mod) (st : St) :
    Except ImpErr St :=
  (prefixes m).foldlM (loadOne load fs inst) st

/-- The first of the names that the module does not have (yet); a module from outside has all of them. -/
def firstUnbound (fs : Files) (st : St) (m : Mod) (names : List String) : Option String :=
  if (fs m).isSome then names.find? fun x => (m, x) ∉ st.bound else none

/-- One top-level statement of the module `cur`. -/
def exec (load : Mod → List Stmt → St → Except ImpErr St) (fs : Files) (inst : Mod → Bool) (cur : Mod) (st : St) :
    Stmt → Except ImpErr St
  | .imp m => match importPath load fs inst m st with
    | .ok st' => .ok { st' with bound := (cur, m.head?.getD "") :: st'.bound }
    | .error e => .error e
  | .frm m names => match importPath load fs inst m st with
    | .ok st' => match firstUnbound fs st' m names with
      | some x => .error (.cannotImport m x)
      | none => .ok { st' with bound := names.map (fun x => (cur, x)) ++ st'.bound }
    | .error e => .error e
  | .dfn names => .ok { st with bound := names.map (fun x => (cur, x)) ++ st.bound }

/-- The body of a module, with a bound on the depth of nested imports. -/
def run (fs : Files) (inst : Mod → Bool) : ℕ → Mod → List Stmt → St → Except ImpErr St
  | 0, _, _, _ => .error .fuel
  | n + 1, cur, ss, st => ss.foldlM (exec (run fs inst n) fs inst cur) st

/-- abcoef.py:1-56 -/
def src_abcoef : List Stmt :=
  [.imp ["warnings"], .imp ["numpy"], .frm ["scipy", "special"] ["jv"], .frm ["problems", "problem"]
    ["PizzaProblem"], .dfn ["n_nodes", "th_data", "calc_a_coef", "a_to_b", "b_to_a", "_convert_ab"]]

/-- chebyshev.py:1-41 -/
def src_chebyshev : List Stmt :=
  [.frm ["numpy"] ["pi", "sqrt", "cos", "arccos", "sin"], .dfn ["eval_T", "eval_d_T_t", "eval_d2_T_t",
    "eval_d3_T_t", "eval_d4_T_t", "eval_d5_T_t", "derivs", "eval_dn_T_t", "get_chebyshev_roots"]]

/-- domain_util.py:1-76 -/
def src_domain_util : List Stmt :=
  [.imp ["numpy"], .imp ["math"], .dfn ["cart_to_polar", "wrap_func", "arg_to_polar_abs", "arg_to_polar",
    "get_sid"]]

/-- extend.py:1-173 -/
def src_extend : List Stmt :=
  [.imp ["math"], .imp ["numpy"], .dfn ["SolverExtend"]]

/-- fourier.py:1-96 -/
def src_fourier : List Stmt :=
  [.imp ["itertools"], .imp ["numpy"], .frm ["scipy", "fftpack"] ["dst"], .dfn ["APSolver", "arc_dst"]]

/-- io_util.py:1-76 -/
def src_io_util : List Stmt :=
  [.imp ["datetime"], .imp ["problems"], .imp ["problems", "boundary"], .dfn ["prec_str", "add_arguments",
    "print_options"]]

/-- linop.py:1-51 -/
def src_linop : List Stmt :=
  [.imp ["numpy"], .imp ["itertools"], .dfn ["apply_L", "apply_B"]]

/-- solver.py:1-152 -/
def src_solver : List Stmt :=
  [.imp ["itertools"], .imp ["numpy"], .frm ["domain_util"] ["cart_to_polar"], .frm ["extend"]
    ["SolverExtend"], .dfn ["Result", "Solver"]]

/-- problems/__init__.py:1-35 -/
def src_problems : List Stmt :=
  [.frm ["collections"] ["OrderedDict"], .frm ["problems", "smooth"] ["Smooth_Sine", "Smooth_E",
    "Smooth_YCos"], .frm ["problems", "sing_h_trace"] ["Trace_Hat", "Trace_Parabola", "Trace_Sine8",
    "Trace_SineRange", "Trace_LineSine"], .frm ["problems", "sing_h_shift"] ["Shift_Hat", "Shift_Parabola",
    "Shift_LineSine"], .frm ["problems", "sing_ih"] ["I_Bessel"], .frm ["problems", "sing_ihz"] ["IZ_Bessel",
    "IHZ_Bessel_Line", "IHZ_Bessel_Quadratic"], .dfn ["problem_dict"]]

/-- problems/boundary.py:1-206 -/
def src_problems_boundary : List Stmt :=
  [.imp ["numpy"], .frm ["scipy", "optimize"] ["brentq"], .imp ["sympy"], .frm ["problems", "problem"]
    ["PizzaProblem"], .dfn ["Boundary", "Arc", "OuterSine", "InnerSine", "Sine7", "cubic_C", "Cubic",
    "_boundary_cls", "boundaries"]]

/-- problems/functions.py:1-30 -/
def src_problems_functions : List Stmt :=
  [.imp ["numpy"], .frm ["scipy", "special"] ["jv"], .frm ["problems", "problem"] ["PizzaProblem"], .dfn
    ["eval_hat_x", "eval_hat_th", "eval_parabola", "eval_linesine"]]

/-- problems/problem.py:1-101 -/
def src_problems_problem : List Stmt :=
  [.imp ["numpy"], .frm ["numpy"] ["cos", "sin"], .frm ["domain_util"] ["cart_to_polar"], .dfn ["Problem",
    "_a", "_nu", "PizzaProblem"]]

/-- problems/sing_ihz.py:1-245 -/
def src_problems_sing_ihz : List Stmt :=
  [.imp ["numpy"], .frm ["math"] ["factorial"], .frm ["scipy", "special"] ["jv", "gamma"], .imp ["scipy"],
    .imp ["sympy"], .imp ["domain_util"], .imp ["problems", "functions"], .frm ["problems", "singular"]
    ["SingularKnown"], .frm ["problems", "sympy_problem"] ["SympyProblem"], .frm ["problems", "problem"]
    ["PizzaProblem"], .frm ["ps", "zmethod"] ["ZMethod"], .dfn ["_n_basis_dict", "_nterms", "alt_phi1_ext",
    "get_tapering_func", "SingIH_Problem", "get_v_asympt0", "IH_Bessel", "IZ_Bessel", "IHZ_Bessel_Line",
    "IHZ_Bessel_Quadratic"]]

/-- problems/singular.py:1-60 -/
def src_problems_singular : List Stmt :=
  [.imp ["enum"], .imp ["numpy"], .frm ["scipy", "fftpack"] ["dst"], .frm ["scipy", "special"] ["jv"], .imp
    ["domain_util"], .imp ["fourier"], .imp ["abcoef"], .frm ["problems", "problem"] ["PizzaProblem"], .dfn
    ["SingularProblem", "SingularKnown"]]

/-- problems/smooth.py:1-105 -/
def src_problems_smooth : List Stmt :=
  [.imp ["numpy"], .frm ["scipy", "special"] ["jv", "jvp"], .imp ["sympy"], .imp ["domain_util"], .frm
    ["problems", "problem"] ["PizzaProblem"], .frm ["problems", "sympy_problem"] ["SympyProblem"], .dfn
    ["SmoothProblem", "Smooth_Sine", "Smooth_E", "Smooth_YCos"]]

/-- problems/sympy_problem.py:1-155 -/
def src_problems_sympy_problem : List Stmt :=
  [.frm ["sympy"] ["*"], .imp ["numpy"], .imp ["scipy", "special"], .frm ["domain_util"] ["cart_to_polar"],
    .dfn ["SympyProblem"]]

/-- ps/__init__.py (an empty file) -/
def src_ps : List Stmt :=
  []

/-- ps/basis.py:1-135 -/
def src_ps_basis : List Stmt :=
  [.imp ["numpy"], .imp ["scipy"], .frm ["scipy", "special"] ["jv"], .frm ["chebyshev"] ["eval_dn_T_t",
    "get_chebyshev_roots"], .imp ["abcoef"], .imp ["domain_util"], .dfn ["PsBasis"]]

/-- ps/debug.py:1-301 -/
def src_ps_debug : List Stmt :=
  [.imp ["numpy"], .frm ["numpy"] ["cos", "sin"], .imp ["scipy"], .frm ["scipy", "special"] ["jv"], .imp
    ["itertools"], .frm ["solver"] ["Result"], .imp ["domain_util"], .frm ["chebyshev"]
    ["get_chebyshev_roots"], .dfn ["PsDebug"]]

/-- ps/extend.py:1-434 -/
def src_ps_extend : List Stmt :=
  [.imp ["itertools"], .imp ["enum"], .imp ["numpy"], .frm ["numpy"] ["sin", "cos"], .imp ["math"], .imp
    ["copy"], .frm ["domain_util"] ["cart_to_polar"], .frm ["ps", "multivalue"] ["Multivalue"], .dfn ["EType",
    "get_deriv_name", "PsExtend"]]

/-- ps/grid.py:1-264 -/
def src_ps_grid : List Stmt :=
  [.imp ["numpy"], .frm ["ps", "extend"] ["EType"], .dfn ["PsGrid"]]

/-- ps/inhomo.py:1-456 -/
def src_ps_inhomo : List Stmt :=
  [.imp ["numpy"], .imp ["math"], .frm ["domain_util"] ["cart_to_polar"], .frm ["ps", "multivalue"]
    ["Multivalue"], .frm ["ps", "extend"] ["EType"], .dfn ["PsInhomo"]]

/-- ps/multivalue.py:1-149 -/
def src_ps_multivalue : List Stmt :=
  [.imp ["numpy"], .dfn ["Multivalue"]]

/-- ps/ode.py:1-69 -/
def src_ps_ode : List Stmt :=
  [.imp ["numpy"], .frm ["scipy", "integrate"] ["odeint"], .frm ["scipy", "interpolate"] ["interp1d"], .imp
    ["abcoef"], .imp ["fourier"], .dfn ["fourier_N", "atol", "rtol", "mxstep", "my_print", "calc_z1_fourier"]]

/-- ps/polarfd.py:1-260 -/
def src_ps_polarfd : List Stmt :=
  [.imp ["numpy"], .imp ["itertools"], .frm ["scipy", "sparse"] ["csc_matrix"], .frm ["scipy", "sparse",
    "linalg"] ["spsolve"], .dfn ["PolarFD"]]

/-- ps/ps.py:1-257 -/
def src_ps_ps : List Stmt :=
  [.imp ["sys"], .imp ["math"], .imp ["numpy"], .imp ["scipy"], .frm ["scipy", "special"] ["jv"], .frm
    ["solver"] ["Solver", "Result"], .frm ["linop"] ["apply_B"], .imp ["fourier"], .imp ["abcoef"], .frm
    ["ps", "basis"] ["PsBasis"], .frm ["ps", "grid"] ["PsGrid"], .frm ["ps", "extend"] ["PsExtend"], .frm
    ["ps", "inhomo"] ["PsInhomo"], .frm ["ps", "debug"] ["PsDebug"], .dfn ["get_M", "PizzaSolver"]]

/-- ps/zmethod.py:1-424 -/
def src_ps_zmethod : List Stmt :=
  [.imp ["numpy"], .imp ["sympy"], .imp ["scipy"], .frm ["scipy", "interpolate"] ["interp2d"], .frm ["scipy",
    "special"] ["jv"], .frm ["scipy", "fftpack"] ["dst"], .frm ["problems", "problem"] ["PizzaProblem"], .frm
    ["problems", "sympy_problem"] ["SympyProblem"], .frm ["problems", "boundary"] ["Arc"], .imp ["ps", "ps"],
    .imp ["ps", "ode"], .frm ["ps", "polarfd"] ["PolarFD"], .frm ["fourier"] ["arc_dst"], .imp
    ["domain_util"], .imp ["abcoef"], .dfn ["ZMethod"]]

/-- run.py:1-102, the imports -/
def prog_run : List Stmt :=
  [.imp ["sys"], .imp ["argparse"], .imp ["numpy"], .imp ["problems"], .imp ["ps", "ps"], .imp ["ps",
    "zmethod"], .imp ["io_util"], .frm ["io_util"] ["prec_str"]]

/-- runz.py:1-139, the imports -/
def prog_runz : List Stmt :=
  [.imp ["sys"], .imp ["argparse"], .imp ["numpy"], .imp ["problems"], .imp ["ps", "ps"], .imp ["ps",
    "zmethod"], .imp ["io_util"], .frm ["io_util"] ["prec_str"]]

/-- test/ps/test_multivalue.py:1-130, the imports -/
def prog_test_ps_test_multivalue : List Stmt :=
  [.imp ["unittest"], .imp ["numpy"], .frm ["ps", "multivalue"] ["Multivalue"]]

/-- scripts/abcoef/bet_generate.py:1-76, the imports -/
def prog_abcoef_bet_generate : List Stmt :=
  [.imp ["sys"], .imp ["argparse"], .imp ["numpy"], .imp ["scipy"], .imp ["io_util"], .imp ["problems"], .imp
    ["problems", "boundary"], .frm ["abcoef"] ["calc_a_coef"], .imp ["json"]]

/-- scripts/abcoef/bet_plot.py:1-46, the imports -/
def prog_abcoef_bet_plot : List Stmt :=
  [.imp ["sys"], .imp ["numpy"], .imp ["matplotlib", "pyplot"], .imp ["json"]]

/-- scripts/abcoef/expansion_error.py:1-60, the imports -/
def prog_abcoef_expansion_error : List Stmt :=
  [.imp ["sys"], .imp ["numpy"], .frm ["scipy", "special"] ["jv"], .imp ["matplotlib", "pyplot"], .imp
    ["problems"], .imp ["problems", "boundary"], .frm ["abcoef"] ["calc_a_coef"]]

/-- scripts/abcoef/generate_data.py:1-82, the imports -/
def prog_abcoef_generate_data : List Stmt :=
  [.imp ["sys"], .imp ["json"], .imp ["itertools"], .imp ["numpy"], .imp ["scipy"], .imp ["problems"], .imp
    ["problems", "boundary"], .frm ["abcoef"] ["calc_a_coef"]]

/-- scripts/abcoef/generate_data2.py:1-76, the imports -/
def prog_abcoef_generate_data2 : List Stmt :=
  [.imp ["sys"], .imp ["json"], .imp ["itertools"], .imp ["numpy"], .imp ["scipy"], .imp ["problems"], .imp
    ["problems", "boundary"], .frm ["abcoef"] ["calc_a_coef"], .imp ["sys"]]

/-- scripts/abcoef/generate_report.py:1-100, the imports -/
def prog_abcoef_generate_report : List Stmt :=
  [.imp ["json"], .imp ["datetime"], .imp ["sys"]]

/-- scripts/abcoef/generate_report2.py:1-48, the imports -/
def prog_abcoef_generate_report2 : List Stmt :=
  [.imp ["json"], .imp ["matplotlib", "pyplot"], .imp ["numpy"]]

/-- scripts/abcoef/generate_report3.py:1-29, the imports -/
def prog_abcoef_generate_report3 : List Stmt :=
  [.imp ["json"], .imp ["matplotlib", "pyplot"], .imp ["numpy"], .imp ["itertools"]]

/-- scripts/abcoef/generate_report4.py:1-55, the imports -/
def prog_abcoef_generate_report4 : List Stmt :=
  [.imp ["json"], .imp ["matplotlib", "pyplot"], .frm ["matplotlib", "ticker"] ["MultipleLocator"], .imp
    ["numpy"], .imp ["itertools"], .imp ["seaborn"]]

/-- scripts/abcoef/k_test.py:1-58, the imports -/
def prog_abcoef_k_test : List Stmt :=
  [.imp ["sys"], .imp ["argparse"], .imp ["numpy"], .imp ["scipy"], .imp ["io_util"], .imp ["problems"], .imp
    ["problems", "boundary"], .imp ["ps", "coordinator"], .frm ["star", "shared"] ["calc_a_coef"]]

/-- scripts/abcoef/run_test.py:1-91, the imports -/
def prog_abcoef_run_test : List Stmt :=
  [.imp ["sys"], .imp ["argparse"], .imp ["numpy"], .imp ["scipy"], .imp ["io_util"], .imp ["problems"], .imp
    ["problems", "boundary"], .frm ["abcoef"] ["calc_a_coef"]]

/-- scripts/apply_helmholtz.py:1-21, the imports -/
def prog_apply_helmholtz : List Stmt :=
  [.frm ["sympy"] ["*"]]

/-- scripts/c0_basis.py:1-58, the imports -/
def prog_c0_basis : List Stmt :=
  [.imp ["sys"], .imp ["argparse"], .imp ["numpy"], .imp ["ps", "ps"], .imp ["io_util"], .imp ["problems"],
    .imp ["problems", "boundary"], .imp ["copy"], .frm ["multiprocessing"] ["Pool"]]

/-- scripts/codegen/chebyshev_derivs.py:1-14, the imports -/
def prog_codegen_chebyshev_derivs : List Stmt :=
  [.frm ["sympy"] ["*"]]

/-- scripts/codegen/rhs_derivs.py:1-64, the imports -/
def prog_codegen_rhs_derivs : List Stmt :=
  [.frm ["sympy"] ["*"]]

/-- scripts/extend_basis_test.py:1-65, the imports -/
def prog_extend_basis_test : List Stmt :=
  [.imp ["sys"], .imp ["numpy"], .imp ["argparse"], .imp ["itertools"], .imp ["ps", "ps"], .imp ["matplotlib",
    "pyplot"], .imp ["problems"], .imp ["io_util"]]

/-- scripts/extension_test.py:1-156, the imports -/
def prog_extension_test : List Stmt :=
  [.imp ["sys"], .imp ["numpy"], .imp ["argparse"], .imp ["itertools"], .imp ["ps", "ps"], .frm ["ps",
    "extend"] ["EType"], .imp ["matplotlib", "pyplot"], .imp ["problems"], .imp ["io_util"]]

/-- scripts/multirun.py:1-39, the imports -/
def prog_multirun : List Stmt :=
  [.imp ["os"], .imp ["subprocess"], .imp ["itertools"], .frm ["multiprocessing"] ["Pool"]]

/-- scripts/optimize_basis.py:1-80, the imports -/
def prog_optimize_basis : List Stmt :=
  [.imp ["sys"], .imp ["argparse"], .imp ["numpy"], .imp ["ps", "ps"], .imp ["io_util"], .imp ["problems"],
    .imp ["problems", "boundary"], .imp ["copy"], .frm ["multiprocessing"] ["Pool"]]

/-- scripts/plot_domain.py:1-225, the imports -/
def prog_plot_domain : List Stmt :=
  [.imp ["sys"], .imp ["numpy"], .imp ["matplotlib", "pyplot"], .imp ["argparse"], .imp ["ps", "ps"], .imp
    ["io_util"], .imp ["problems"], .frm ["problems", "smooth"] ["Smooth_Sine"]]

/-- scripts/plot_domain2.py:1-150, the imports -/
def prog_plot_domain2 : List Stmt :=
  [.imp ["sys"], .imp ["numpy"], .imp ["matplotlib", "pyplot"], .imp ["argparse"], .imp ["ps", "ps"], .imp
    ["io_util"], .imp ["problems"], .frm ["problems", "smooth"] ["Smooth_Sine"]]

/-- scripts/polarfd/sym.py:1-36, the imports -/
def prog_polarfd_sym : List Stmt :=
  [.frm ["sympy"] ["*"], .imp ["scipy", "special"]]

/-- scripts/polarfd/test.py:1-95, the imports -/
def prog_polarfd_test : List Stmt :=
  [.imp ["sys"], .imp ["numpy"], .frm ["scipy", "special"] ["jv"], .frm ["ps", "polarfd"] ["PolarFD"], .frm
    ["scripts", "polarfd", "sym"] ["eval_v_asympt", "eval_f", "eval_d_f_r", "eval_d2_f_r", "eval_d2_f_th",
    "_k"]]

/-- scripts/resonance.py:1-38, the imports -/
def prog_resonance : List Stmt :=
  [.imp ["numpy"], .imp ["itertools"], .imp ["sys"]]

/-- scripts/test_extend_f.py:1-108, the imports -/
def prog_test_extend_f : List Stmt :=
  [.imp ["sys"], .imp ["argparse"], .imp ["numpy"], .imp ["ps", "ps"], .frm ["problems", "smooth"]
    ["Smooth_YCos"], .frm ["problems", "boundary"] ["Arc", "OuterSine"], .imp ["io_util"]]

/-- scripts/zmethod/interp_test.py:1-64, the imports -/
def prog_zmethod_interp_test : List Stmt :=
  [.imp ["sys"], .imp ["numpy"], .frm ["ps", "zmethod"] ["ZMethod"], .frm ["ps", "polarfd"] ["PolarFD"]]

/-- scripts/polarfd/sym.py:1-36, as the module `scripts.polarfd.sym` (scripts/polarfd/test.py:9-10) -/
def src_scripts_polarfd_sym : List Stmt :=
  [.frm ["sympy"] ["*"], .imp ["scipy", "special"], .dfn ["do_lapacian", "_k", "a", "nu", "k", "r", "th", "kr2",
    "v_asympt0", "v_asympt", "f", "modules", "eval_v_asympt", "eval_f", "eval_d_f_r", "eval_d2_f_r",
    "eval_d2_f_th"]]

/-- The modules of the repository.  The directories `scripts` and `scripts/polarfd` have no `__init__.py`: they are
namespace packages with nothing to execute. -/
def repoTable : List (Mod × List Stmt) :=
  [(["abcoef"], src_abcoef), (["chebyshev"], src_chebyshev), (["domain_util"], src_domain_util),
   (["extend"], src_extend), (["fourier"], src_fourier), (["io_util"], src_io_util),
   (["linop"], src_linop), (["solver"], src_solver), (["problems"], src_problems),
   (["problems", "boundary"], src_problems_boundary), (["problems", "functions"], src_problems_functions),
   (["problems", "problem"], src_problems_problem), (["problems", "sing_ihz"], src_problems_sing_ihz),
   (["problems", "singular"], src_problems_singular), (["problems", "smooth"], src_problems_smooth),
   (["problems", "sympy_problem"], src_problems_sympy_problem), (["ps"], src_ps),
   (["ps", "basis"], src_ps_basis), (["ps", "debug"], src_ps_debug), (["ps", "extend"], src_ps_extend),
   (["ps", "grid"], src_ps_grid), (["ps", "inhomo"], src_ps_inhomo),
   (["ps", "multivalue"], src_ps_multivalue), (["ps", "ode"], src_ps_ode),
   (["ps", "polarfd"], src_ps_polarfd), (["ps", "ps"], src_ps_ps), (["ps", "zmethod"], src_ps_zmethod),
   (["scripts"], []), (["scripts", "polarfd"], []),
   (["scripts", "polarfd", "sym"], src_scripts_polarfd_sym)]

/-- The files of the checkout. -/
def repoFiles : Files := fun m => repoTable.lookup m

/-- A program: its imports, and whether the directory of the repository is on the search path (for a script: whether its
`sys.path.append` line leads there). -/
structure Prog where
  file : String
  root : Bool
  imports : List Stmt

/-- What the interpreter finds on the search path of a program. -/
def Prog.files (p : Prog) (fs : Files) : Files := if p.root then fs else fun _ => none

/-- The start of a program, up to and including its last import. -/
def Prog.start (p : Prog) (fs : Files) (inst : Mod → Bool) (fuel : ℕ) : Except ImpErr St :=
  run (p.files fs) inst fuel ["__main__"] p.imports { loaded := [], bound := [] }

/-- The programs of the repository.  `scripts/abcoef/k_test.py:3` appends `/..`, which from `scripts/abcoef` leads to
`scripts` and not to the repository; the programs without a `sys.path` line that lie in a subdirectory do not see the
repository either (and do not import it). -/
def programs : List Prog :=
  [⟨"run.py", true, prog_run⟩,
   ⟨"runz.py", true, prog_runz⟩,
   ⟨"test/ps/test_multivalue.py", true, prog_test_ps_test_multivalue⟩,
   ⟨"scripts/abcoef/bet_generate.py", true, prog_abcoef_bet_generate⟩,
   ⟨"scripts/abcoef/bet_plot.py", false, prog_abcoef_bet_plot⟩,
   ⟨"scripts/abcoef/expansion_error.py", true, prog_abcoef_expansion_error⟩,
   ⟨"scripts/abcoef/generate_data.py", true, prog_abcoef_generate_data⟩,
   ⟨"scripts/abcoef/generate_data2.py", true, prog_abcoef_generate_data2⟩,
   ⟨"scripts/abcoef/generate_report.py", false, prog_abcoef_generate_report⟩,
   ⟨"scripts/abcoef/generate_report2.py", false, prog_abcoef_generate_report2⟩,
   ⟨"scripts/abcoef/generate_report3.py", false, prog_abcoef_generate_report3⟩,
   ⟨"scripts/abcoef/generate_report4.py", false, prog_abcoef_generate_report4⟩,
   ⟨"scripts/abcoef/k_test.py", false, prog_abcoef_k_test⟩,
   ⟨"scripts/abcoef/run_test.py", true, prog_abcoef_run_test⟩,
   ⟨"scripts/apply_helmholtz.py", false, prog_apply_helmholtz⟩,
   ⟨"scripts/c0_basis.py", true, prog_c0_basis⟩,
   ⟨"scripts/codegen/chebyshev_derivs.py", false, prog_codegen_chebyshev_derivs⟩,
   ⟨"scripts/codegen/rhs_derivs.py", false, prog_codegen_rhs_derivs⟩,
   ⟨"scripts/extend_basis_test.py", true, prog_extend_basis_test⟩,
   ⟨"scripts/extension_test.py", true, prog_extension_test⟩,
   ⟨"scripts/multirun.py", false, prog_multirun⟩,
   ⟨"scripts/optimize_basis.py", true, prog_optimize_basis⟩,
   ⟨"scripts/plot_domain.py", true, prog_plot_domain⟩,
   ⟨"scripts/plot_domain2.py", true, prog_plot_domain2⟩,
   ⟨"scripts/polarfd/sym.py", false, prog_polarfd_sym⟩,
   ⟨"scripts/polarfd/test.py", true, prog_polarfd_test⟩,
   ⟨"scripts/resonance.py", false, prog_resonance⟩,
   ⟨"scripts/test_extend_f.py", true, prog_test_extend_f⟩,
   ⟨"scripts/zmethod/interp_test.py", true, prog_zmethod_interp_test⟩]

end Imports
end Pot
