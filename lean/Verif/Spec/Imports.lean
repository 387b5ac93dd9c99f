import Mathlib.Data.List.Basic

/-! # Which modules a program needs -/

namespace Spec

/-- `q` is needed by something that names the modules `direct`, where `deps m` are the modules named by the file of `m`: it
is one of the named modules, or a package around one of them, or is needed by the file of a module that is needed. -/
inductive Needs (deps : List String → List (List String)) : List (List String) → List String → Prop
  | here {direct : List (List String)} {m q : List String} (h : m ∈ direct) (hq : q <+: m) (hne : q ≠ []) :
      Needs deps direct q
  | there {direct : List (List String)} {m q : List String} (h : Needs deps direct m) (h' : Needs deps (deps m) q) :
      Needs deps direct q

/-- The programs that need the missing file. -/
def stopped : List String :=
  ["run.py", "runz.py", "scripts/abcoef/bet_generate.py", "scripts/abcoef/expansion_error.py",
   "scripts/abcoef/generate_data.py", "scripts/abcoef/generate_data2.py", "scripts/abcoef/run_test.py",
   "scripts/c0_basis.py", "scripts/extend_basis_test.py", "scripts/extension_test.py", "scripts/optimize_basis.py",
   "scripts/plot_domain.py", "scripts/plot_domain2.py", "scripts/test_extend_f.py", "scripts/zmethod/interp_test.py"]

/-- The modules outside the repository that its files and programs name: of the standard library, and of the packages of
requirements.txt:1-4 (numpy, scipy, sympy, matplotlib). -/
def required : List (List String) :=
  [["argparse"], ["collections"], ["copy"], ["datetime"], ["enum"], ["itertools"], ["json"], ["math"],
   ["multiprocessing"], ["os"], ["subprocess"], ["sys"], ["unittest"], ["warnings"],
   ["numpy"], ["scipy"], ["scipy", "fftpack"], ["scipy", "integrate"], ["scipy", "interpolate"], ["scipy", "optimize"],
   ["scipy", "sparse"], ["scipy", "sparse", "linalg"], ["scipy", "special"], ["sympy"],
   ["matplotlib"], ["matplotlib", "pyplot"], ["matplotlib", "ticker"]]

end Spec
