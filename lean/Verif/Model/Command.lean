import Verif.Model.Argparse
import Verif.Model.MainZ

/-!
# Model of `run.py` and `runz.py` from the command line on

`argv` are the strings after the name of the script.
-/

namespace Pot

/-- how a program ends: with the help, with a usage error, or after the lines `lines` with a result or an exception -/
inductive Ended (ε : Type) where
  | help
  | usage
  | ran (lines : List ε) (res : Py Unit)

/-- the record `args` of run.py:40 and runz.py:47, if both positionals are strings; a list cannot be looked up in a dictionary
(`TypeError`) -/
def Namespace.args (ns : Namespace) : Option RunzArgs :=
  match ns.problem, ns.boundary with
  | some (.one p), .one b =>
    some { problem := String.ofList p, boundary := String.ofList b, N := ns.N, c := ns.c, order := ns.o.toNat, r := ns.r,
           acheat := ns.acheat, z1cheat := ns.z1cheat }
  | _, _ => none

/-- what follows `parser.parse_args()`: `main` on the arguments -/
def afterParse {ε : Type} (parsed : Except Exit Namespace) (main : RunzArgs → Option (List ε × Py Unit)) : Option (Ended ε) :=
  match parsed with
  | .error .help => some .help
  | .error .usage => some .usage
  | .ok ns =>
    match ns.args with
    | none => some (.ran [] (.error .typeError))
    | some args => (main args).map fun out => .ran out.1 out.2

/-- run.py as a whole -/
noncomputable def runCommand (int : Str → Option ℤ) (negNum : Str → Bool) (iter : Iter) (b : Brentq) (fit : Chebfit) (lstsq : Lstsq)
    (fuel : ℕ) (argv : List String) : Option (Ended MainEv) :=
  afterParse (parseArgs negNum (runParser int) {} (argv.map String.toList)) fun args => runMain iter b fit lstsq fuel args.toRunArgs

/-- runz.py as a whole -/
noncomputable def runzCommand (int : Str → Option ℤ) (negNum : Str → Bool) (iter : Iter) (lib : ZLib) (fuel : ℕ) (argv : List String) :
    Option (Ended MainZEv) :=
  afterParse (parseArgs negNum (runzParser int) {} (argv.map String.toList)) fun args => runzMain iter lib fuel args

end Pot
