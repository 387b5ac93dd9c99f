import Verif.Model.NamesA
import Verif.Model.NamesB

/-!
All modules of the repository, the built-in names they use, and the functions that read an unbound name for some values of
a parameter.
-/

namespace Pot.Names

/-- the modules of the repository, in the order of their file names -/
def modules : List Module := [m_init, m_abcoef, m_chebyshev, m_domain_util, m_extend, m_fourier, m_io_util, m_linop,
    m_problems_init, m_problems_boundary, m_problems_functions, m_problems_problem,
    m_problems_sing_ihz, m_problems_singular, m_problems_smooth, m_problems_sympy_problem, m_ps_init,
    m_ps_basis, m_ps_debug, m_ps_extend, m_ps_grid, m_ps_inhomo, m_ps_multivalue, m_ps_ode,
    m_ps_polarfd, m_ps_ps, m_ps_zmethod, m_run, m_runz, m_scripts_abcoef_bet_generate,
    m_scripts_abcoef_bet_plot, m_scripts_abcoef_expansion_error, m_scripts_abcoef_generate_data,
    m_scripts_abcoef_generate_data2, m_scripts_abcoef_generate_report,
    m_scripts_abcoef_generate_report2, m_scripts_abcoef_generate_report3,
    m_scripts_abcoef_generate_report4, m_scripts_abcoef_k_test, m_scripts_abcoef_run_test,
    m_scripts_apply_helmholtz, m_scripts_c0_basis, m_scripts_codegen_chebyshev_derivs,
    m_scripts_codegen_rhs_derivs, m_scripts_extend_basis_test, m_scripts_extension_test,
    m_scripts_multirun, m_scripts_optimize_basis, m_scripts_plot_domain, m_scripts_plot_domain2,
    m_scripts_polarfd_sym, m_scripts_polarfd_test, m_scripts_resonance, m_scripts_test_extend_f,
    m_scripts_zmethod_interp_test, m_solver, m_test_init, m_test_ps_init, m_test_ps_test_multivalue]

/-- built-in names of Python, and the two names the interpreter binds in each module, as far as the repository uses them -/
def builtins : List String := ["FileExistsError", "KeyError", "ValueError", "__name__", "abs", "classmethod", "complex", "dict",
    "eval", "float", "hasattr", "int", "len", "list", "map", "max", "open", "print", "range", "set", "str",
    "super", "type", "zip"]

/-- a function that reads an unbound name for some values of its parameter, and that name -/
structure Conditional where
  m : Module
  f : Func
  out : Out
  name : String

/-- fourier.py:19-47, problems/smooth.py:33-52, ps/basis.py:53-66, ps/debug.py:271-301, ps/extend.py:88-146, 173-237,
ps/inhomo.py:27-93, 95-173, 208-312, 377-391, scripts/plot_domain.py:83-112 -/
def conditional : List Conditional := [
  ⟨m_fourier, f_fourier_1, .lostL 10, "eigenval"⟩,
  ⟨m_problems_smooth, f_problems_smooth_1, .lostL 10, "normal"⟩,
  ⟨m_ps_basis, f_ps_basis_2, .lostL 3, "span"⟩,
  ⟨m_ps_debug, f_ps_debug_8, .lostG 14, "matrices"⟩,
  ⟨m_ps_extend, f_ps_extend_3, .lostL 10, "other_basis_index"⟩,
  ⟨m_ps_extend, f_ps_extend_5, .lostL 20, "elen"⟩,
  ⟨m_ps_inhomo, f_ps_inhomo_1, .lostL 13, "x0"⟩,
  ⟨m_ps_inhomo, f_ps_inhomo_2, .lostL 11, "x1"⟩,
  ⟨m_ps_inhomo, f_ps_inhomo_4, .lostL 10, "th0"⟩,
  ⟨m_ps_inhomo, f_ps_inhomo_8, .lostL 6, "x0"⟩,
  ⟨m_scripts_plot_domain, f_scripts_plot_domain_5, .lostL 2, "node_choices"⟩]

end Pot.Names
