import Mathlib.Data.Finset.Basic
import Mathlib.Data.Finset.Insert

/-!
# The classes of the repository

What the interpreter does with the `class` statements of the repository: the method resolution order (C3), the search for an attribute
in the classes of an object, the search that `super()` starts, and the chain of constructors.

Modelled: all 35 classes of the modules, with their bases and the names defined in their bodies, in an order in which every base is
defined before it is used.  Left out: the class of `test/ps/test_multivalue.py` and the class `Boundary` of
`scripts/zmethod/interp_test.py`, which are alone in their programs; metaclasses, `__new__` and descriptors other than methods, which
the repository does not use; the attributes of `object` other than `__init__`; attributes of instances.  The attribute `name` that
`problems/__init__.py:34-35` adds to the classes of the problems later is left out too.
-/

namespace Pot
namespace Classes

/-- a `class` statement: its name, its bases and the names that its body defines -/
structure PyClass where
  name : String
  bases : List String
  own : List String
  deriving DecidableEq

/-- the errors of a `class` statement -/
inductive ClsErr where
  /-- `NameError`: a base is not defined -/
  | nameError (base : String)
  /-- `TypeError`: there is no consistent order of the bases -/
  | typeError
  deriving DecidableEq

/-- the class object of every name defined so far, here its method resolution order -/
abbrev Mros := List (String × List String)

/-- the bases of a class: `object` if there are none -/
def effBases (c : PyClass) : List String := if c.bases = [] then ["object"] else c.bases

/-- the bases of the classes of a table; `object` has none -/
def basesOf (T : List PyClass) (n : String) : Option (List String) :=
  if n = "object" then some [] else (T.find? fun c => c.name == n).map effBases

/-- whether a name is in no tail -/
def goodHead (ls : List (List String)) (h : String) : Bool := ls.all fun l => !(l.tail.contains h)

/-- a list without its head if that is `h` -/
def dropHead (h : String) (l : List String) : List String := if l.head? = some h then l.tail else l

/-- the merge of C3: the first head that is in no tail, taken off all lists, and so on -/
def merge : ℕ → List (List String) → Option (List String)
  | 0, ls => if ls.all List.isEmpty then some [] else none
  | n + 1, ls =>
    if ls.all List.isEmpty then some []
    else match (ls.filterMap List.head?).find? (goodHead ls) with
      | none => none
      | some h => (merge n (ls.map (dropHead h))).map (h :: ·)

/-- the number of elements of all lists -/
def total (ls : List (List String)) : ℕ := (ls.map List.length).sum

/-- the method resolution order of one base -/
def baseMro (env : Mros) (b : String) : Except ClsErr (List String) :=
  match env.lookup b with
  | some l => .ok l
  | none => .error (.nameError b)

/-- the method resolution order of a new class -/
def linearize (env : Mros) (c : PyClass) : Except ClsErr (List String) :=
  match (effBases c).mapM (baseMro env) with
  | .error e => .error e
  | .ok ps =>
    match merge (total (ps ++ [effBases c])) (ps ++ [effBases c]) with
    | some l => .ok (c.name :: l)
    | none => .error .typeError

/-- the `class` statements one after the other -/
def define : Mros → List PyClass → Except ClsErr Mros
  | env, [] => .ok env
  | env, c :: cs =>
    match linearize env c with
    | .error e => .error e
    | .ok l => define ((c.name, l) :: env) cs

/-- what there is before the first `class` statement -/
def builtins : Mros := [("object", ["object"])]

/-- whether the body of a class defines a name; `object` has `__init__` -/
def owns (T : List PyClass) (attr cls : String) : Bool :=
  (cls == "object" && attr == "__init__") || T.any fun c => c.name == cls && c.own.contains attr

/-- the class whose body defines what `obj.attr` is, for an object of the class with this order -/
def owner (T : List PyClass) (mro : List String) (attr : String) : Option String := mro.find? (owns T attr)

/-- the part of the order after a class, where `super()` in a method of that class searches -/
def after (cls : String) : List String → List String
  | [] => []
  | c :: cs => if c = cls then cs else after cls cs

/-- the class whose body defines what `super().attr` is in a method of `cls` -/
def superOwner (T : List PyClass) (mro : List String) (cls attr : String) : Option String := owner T (after cls mro) attr

/-- the arguments of a call without `self`: how many positional ones, and the names of the others -/
structure Args where
  pos : ℕ
  kw : Finset String
  deriving DecidableEq

/-- the errors of the chain of constructors -/
inductive CallErr where
  | typeError
  | keyError
  deriving DecidableEq

/-- a constructor: the parameters without default, those with default, `*args`, `**kwargs`, and the arguments of its
`super().__init__` if it has one -/
structure InitDef where
  required : List String := []
  optional : List String := []
  star : Bool := false
  kwargs : Bool := false
  next : Args → Option (Except CallErr Args) := fun _ => none

/-- whether a call binds -/
def accepts (d : InitDef) (a : Args) : Bool :=
  decide (d.star = true ∨ a.pos ≤ (d.required ++ d.optional).length) &&
  (d.required.drop a.pos).all (fun p => decide (p ∈ a.kw)) &&
  ((d.required ++ d.optional).take a.pos).all (fun p => decide (p ∉ a.kw)) &&
  (d.kwargs || decide (a.kw ⊆ (d.required ++ d.optional).toFinset))

/-- the constructors that run, in the order in which they are entered, and the error if there is one -/
def runInit (defs : String → Option InitDef) : List String → Args → List String × Option CallErr
  | [], _ => ([], none)
  | c :: cs, a =>
    match defs c with
    | none => runInit defs cs a
    | some d =>
      if accepts d a then
        match d.next a with
        | none => ([c], none)
        | some (.error e) => ([c], some e)
        | some (.ok a') => let r := runInit defs cs a'; (c :: r.1, r.2)
      else ([], some .typeError)

/-- problems/problem.py:15 and :55 `__init__(self, **kwargs)` -/
def initProblem : InitDef := { kwargs := true }

/-- problems/sympy_problem.py:21-27: `kwargs.pop('f_expr')` and `super().__init__(**kwargs)` -/
def initSympy : InitDef where
  kwargs := true
  next a := some (if "f_expr" ∈ a.kw then .ok ⟨0, a.kw.erase "f_expr"⟩ else .error .keyError)

/-- the constructors of the repository, with the lines of their first and of their `super()` line -/
def initDefs : String → Option InitDef
  | "object" => some {}
  -- solver.py:21-22
  | "Solver" => some { required := ["options"], next := fun _ => some (.ok ⟨0, ∅⟩) }
  -- fourier.py:13-17
  | "APSolver" => some { required := ["N", "order", "AD_len", "k"] }
  -- ps/multivalue.py:21
  | "Multivalue" => some { required := ["nodes"] }
  -- ps/basis.py:17-18
  | "PsBasis" => some { star := true, kwargs := true, next := fun a => some (.ok a) }
  -- ps/ps.py:27-28
  | "PizzaSolver" => some { required := ["options"], next := fun _ => some (.ok ⟨1, ∅⟩) }
  -- ps/polarfd.py:9
  | "PolarFD" => some { required := ["N", "a", "nu", "R0", "R1"] }
  | "Problem" => some initProblem
  | "PizzaProblem" => some initProblem
  | "SympyProblem" => some initSympy
  -- problems/smooth.py:94-99
  | "Smooth_YCos" => some { kwargs := true, next := fun a => some (.ok ⟨0, insert "f_expr" a.kw⟩) }
  -- problems/singular.py:29-30
  | "SingularKnown" => some { kwargs := true, next := fun a => some (.ok ⟨0, a.kw⟩) }
  -- problems/boundary.py:12
  | "Boundary" => some { required := ["R"], optional := ["bet", "k", "a"] }
  -- problems/sing_ihz.py:100 and :187
  | "IH_Bessel" => some { kwargs := true }
  | "IHZ_Bessel_Quadratic" => some { kwargs := true }
  -- ps/zmethod.py:28-29
  | "ZMethod" => some { required := ["options"] }
  -- ps/zmethod.py:203-205
  | "DummySympyProblem" => some { next := fun _ => some (.ok ⟨0, {"f_expr"}⟩) }
  -- ps/zmethod.py:367-370
  | "u_BVP" => some { next := fun _ => some (.ok ⟨0, {"f_expr"}⟩) }
  | _ => none

/-- the classes of the repository -/
def repoClasses : List PyClass := [
  -- extend.py:5-173
  { name := "SolverExtend", bases := [],
    own := ["extend_polar", "extend_arbitrary", "inhomo_extend_polar", "inhomo_extend_arbitrary"] },
  -- solver.py:8-10
  { name := "Result", bases := [],
    own := ["u_act", "a_error"] },
  -- solver.py:13-152
  { name := "Solver", bases := ["SolverExtend"],
    own := ["__init__", "get_coord", "get_coord_inv", "get_polar", "construct_grids", "setup_f", "eval_error",
        "calc_rel_convergence", "_array_calc_rel_convergence"] },
  -- fourier.py:6-88
  { name := "APSolver", bases := [],
    own := ["eigenvals", "__init__", "calc_eigenvals", "_fourier", "solve", "apply_L"] },
  -- ps/multivalue.py:3-149
  { name := "Multivalue", bases := [],
    own := ["__init__", "__getitem__", "__add__", "reduce", "calc_rel_convergence"] },
  -- ps/basis.py:9-135
  { name := "PsBasis", bases := [],
    own := ["N_SEGMENT", "eps", "__init__", "setup_basis", "get_span_center", "eval_g", "eval_g_inv", "eval_d_g_inv_arg",
        "eval_dn_B_arg", "get_chebyshev_coef", "calc_c0", "extend_basis"] },
  -- ps/grid.py:4-264
  { name := "PsGrid", bases := [],
    own := ["ps_construct_grids"] },
  -- ps/extend.py:24-434
  { name := "PsExtend", bases := [],
    own := ["taylor_n_terms", "get_etype", "extend_radius", "_ext_calc_xi_derivs", "ext_calc_xi_derivs", "do_extend_taylor",
        "do_extend_0", "do_extend_0_standard", "do_extend_0_left", "do_extend_0_right", "do_extend_1_standard",
        "do_extend_1_left", "do_extend_1_right", "do_extend_2_standard", "do_extend_2_left", "do_extend_2_right",
        "mv_extend_boundary", "extend_boundary"] },
  -- ps/inhomo.py:8-456
  { name := "PsInhomo", bases := [],
    own := ["_extend_f_get_sid", "extend_f", "_extend_inhomo_12_r", "do_extend_inhomo_0_standard", "_extend_inhomo_0_lr",
        "do_extend_inhomo_0_left", "do_extend_inhomo_0_right", "_calc_inhomo_radius", "_extend_inhomo_radius",
        "do_extend_inhomo_1_standard", "do_extend_inhomo_1_left", "do_extend_inhomo_1_right", "do_extend_inhomo_2_standard",
        "do_extend_inhomo_2_left", "do_extend_inhomo_2_right", "mv_extend_inhomo_f", "extend_inhomo_f"] },
  -- ps/debug.py:12-301
  { name := "PsDebug", bases := [],
    own := ["get_boundary_sample", "get_boundary_sample_by_sid", "calc_c1_exact", "etype_filter", "c0_test", "print_c1",
        "c1_test", "Q_residual", "color_plot"] },
  -- ps/ps.py:24-257
  { name := "PizzaSolver", bases := ["Solver", "PsBasis", "PsGrid", "PsExtend", "PsInhomo", "PsDebug"],
    own := ["__init__", "calc_ap_sol_f", "is_interior", "get_radius_point", "dist_to_radius", "signed_dist_to_radius",
        "get_polar", "get_boundary_coord", "build_boundary_coord_cache", "get_potential", "get_trace", "get_Q", "get_var",
        "solve_var", "run"] },
  -- ps/polarfd.py:7-260
  { name := "PolarFD", bases := [],
    own := ["__init__", "my_print", "get_r", "get_th", "get_index", "calc_N_var", "new_system", "set_bc_origin",
        "set_bc_wedge", "set_bc_arc", "set_fd4", "copy_local", "solve", "calc_rel_convergence"] },
  -- problems/problem.py:6-44
  { name := "Problem", bases := [],
    own := ["homogeneous", "expected_known", "zmethod", "R", "AD_len", "__init__", "eval_expected", "eval_expected_polar",
        "eval_f", "eval_f_polar"] },
  -- problems/problem.py:50-101
  { name := "PizzaProblem", bases := ["Problem"],
    own := ["a", "nu", "__init__", "get_n_basis", "get_n_basis_dict", "get_m1", "set_boundary"] },
  -- problems/sympy_problem.py:8-155
  { name := "SympyProblem", bases := [],
    own := ["lambdify_modules", "__init__", "build_sympy_subs_dict", "do_diff", "eval_f_polar", "eval_grad_f",
        "eval_grad_f_polar", "eval_hessian_f", "eval_hessian_f_polar"] },
  -- problems/smooth.py:10-52
  { name := "SmoothProblem", bases := ["PizzaProblem"],
    own := ["expected_known", "k", "n_basis_dict", "eval_bc", "eval_d_u_outwards"] },
  -- problems/smooth.py:55-64
  { name := "Smooth_Sine", bases := ["SmoothProblem"],
    own := ["homogeneous", "eval_expected", "get_grad"] },
  -- problems/smooth.py:67-84
  { name := "Smooth_E", bases := ["SmoothProblem"],
    own := ["homogeneous", "eval_expected", "get_grad"] },
  -- problems/smooth.py:87-105
  { name := "Smooth_YCos", bases := ["SympyProblem", "SmoothProblem"],
    own := ["__init__", "eval_expected", "get_grad"] },
  -- problems/singular.py:13-19
  { name := "SingularProblem", bases := ["PizzaProblem"],
    own := [] },
  -- problems/singular.py:22-60
  { name := "SingularKnown", bases := ["SingularProblem"],
    own := ["m_max", "__init__", "eval_expected_polar", "eval_expected__no_w"] },
  -- problems/boundary.py:8-169
  { name := "Boundary", bases := [],
    own := ["additional_params", "__init__", "set_bet", "do_algebra", "eval_tangent", "eval_normal", "get_boundary_coord"] },
  -- problems/boundary.py:171-174
  { name := "Arc", bases := ["Boundary"],
    own := ["name", "r_expr_str", "bet0"] },
  -- problems/boundary.py:176-179
  { name := "OuterSine", bases := ["Boundary"],
    own := ["name", "r_expr_str", "bet0"] },
  -- problems/boundary.py:181-184
  { name := "InnerSine", bases := ["Boundary"],
    own := ["name", "r_expr_str", "bet0"] },
  -- problems/boundary.py:186-189
  { name := "Sine7", bases := ["Boundary"],
    own := ["name", "r_expr_str", "bet0"] },
  -- problems/boundary.py:194-199
  { name := "Cubic", bases := ["Boundary"],
    own := ["name", "r_expr_str", "bet0", "additional_params"] },
  -- problems/sing_ihz.py:63-75
  { name := "SingIH_Problem", bases := ["PizzaProblem"],
    own := ["zmethod", "n_basis_dict", "m1_dict"] },
  -- problems/sing_ihz.py:93-132
  { name := "IH_Bessel", bases := ["SingIH_Problem"],
    own := ["k", "expected_known", "K", "__init__", "eval_v"] },
  -- problems/sing_ihz.py:135-154
  { name := "IZ_Bessel", bases := ["IH_Bessel"],
    own := ["eval_phi0", "eval_phi1", "eval_phi2", "eval_expected_polar"] },
  -- problems/sing_ihz.py:157-179
  { name := "IHZ_Bessel_Line", bases := ["IH_Bessel"],
    own := ["eval_phi0", "eval_phi1", "eval_phi2"] },
  -- problems/sing_ihz.py:182-245
  { name := "IHZ_Bessel_Quadratic", bases := ["SingIH_Problem"],
    own := ["k", "expected_known", "__init__", "eval_v", "eval_phi0", "eval_phi1", "eval_phi2"] },
  -- ps/zmethod.py:23-424
  { name := "ZMethod", bases := [],
    own := ["M", "R0", "__init__", "run", "do_algebra", "calc_z1_fourier", "get_expected_z1_fourier", "do_z_BVP",
        "calc_a_coef", "get_expected_a_coef", "create_v_interp", "do_u_BVP", "get_v_error"] },
  -- ps/zmethod.py:202-205
  { name := "DummySympyProblem", bases := ["SympyProblem", "PizzaProblem"],
    own := ["__init__"] },
  -- ps/zmethod.py:363-392
  { name := "u_BVP", bases := ["SympyProblem", "PizzaProblem"],
    own := ["n_basis_dict", "__init__", "eval_bc", "eval_expected_polar"] }
]

/-- the calls of classes in the repository: the line, the class, the arguments.  Calls through
`boundaries[...]` are listed with one of the five boundaries, and those with the same arguments once; the classes of problems that
`problem_dict` holds are in `problemClasses`, always called without arguments. -/
def calls : List (String × String × Args) := [
  ("ps/extend.py:377", "Multivalue", ⟨1, ∅⟩), ("ps/multivalue.py:43", "Multivalue", ⟨1, ∅⟩), ("ps/inhomo.py:414", "Multivalue", ⟨1, ∅⟩),
  ("test/ps/test_multivalue.py:35", "Multivalue", ⟨1, ∅⟩), ("test/ps/test_multivalue.py:65", "Multivalue", ⟨1, ∅⟩),
  ("test/ps/test_multivalue.py:85", "Multivalue", ⟨1, ∅⟩), ("test/ps/test_multivalue.py:115", "Multivalue", ⟨1, ∅⟩),
  ("ps/zmethod.py:216", "PolarFD", ⟨5, ∅⟩), ("scripts/zmethod/interp_test.py:35", "PolarFD", ⟨4, ∅⟩),
  ("scripts/polarfd/test.py:66", "PolarFD", ⟨0, ∅⟩),
  ("ps/zmethod.py:402", "PizzaSolver", ⟨1, ∅⟩), ("scripts/c0_basis.py:53", "PizzaSolver", ⟨1, ∅⟩),
  ("scripts/test_extend_f.py:44", "PizzaSolver", ⟨1, ∅⟩), ("scripts/plot_domain2.py:126", "PizzaSolver", ⟨1, ∅⟩),
  ("scripts/plot_domain2.py:136", "PizzaSolver", ⟨1, ∅⟩), ("scripts/plot_domain.py:194", "PizzaSolver", ⟨1, ∅⟩),
  ("scripts/optimize_basis.py:55", "PizzaSolver", ⟨1, ∅⟩), ("scripts/extension_test.py:47", "PizzaSolver", ⟨1, ∅⟩),
  ("scripts/extend_basis_test.py:41", "PizzaSolver", ⟨1, ∅⟩), ("run.py:76", "PizzaSolver", ⟨1, ∅⟩),
  ("ps/ps.py:55", "APSolver", ⟨4, ∅⟩), ("ps/ps.py:253", "Result", ⟨0, ∅⟩),
  ("runz.py:92", "ZMethod", ⟨1, ∅⟩), ("scripts/zmethod/interp_test.py:31", "ZMethod", ⟨1, ∅⟩),
  ("run.py:44", "OuterSine", ⟨1, {"k"}⟩), ("runz.py:50", "OuterSine", ⟨1, {"k"}⟩), ("scripts/plot_domain2.py:120", "InnerSine", ⟨1, {"a"}⟩),
  ("scripts/plot_domain2.py:134", "Cubic", ⟨1, ∅⟩), ("scripts/abcoef/expansion_error.py:44", "Arc", ⟨1, ∅⟩),
  ("scripts/abcoef/bet_generate.py:54", "Sine7", ⟨2, ∅⟩), ("scripts/plot_domain2.py:98", "Smooth_Sine", ⟨0, ∅⟩),
  ("scripts/test_extend_f.py:80", "Smooth_YCos", ⟨0, ∅⟩), ("ps/zmethod.py:207", "DummySympyProblem", ⟨0, ∅⟩),
  ("ps/zmethod.py:394", "u_BVP", ⟨0, ∅⟩)]

/-- the classes of `problem_dict` that exist in this checkout: problems/__init__.py:16-32 -/
def problemClasses : List String := ["Smooth_Sine", "Smooth_E", "Smooth_YCos", "IZ_Bessel", "IHZ_Bessel_Line", "IHZ_Bessel_Quadratic"]

/-- the order of every class of the repository -/
def repoMros : Mros := match define builtins repoClasses with
  | .ok M => M
  | .error _ => []

/-- the order of a class of the repository -/
def mroOf (n : String) : List String := (repoMros.lookup n).getD []

end Classes
end Pot
