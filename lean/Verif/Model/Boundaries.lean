import Verif.Model.Boundary
import Verif.Model.Problem

/-! # The table of outer boundaries and how `run.py` chooses from it -/

namespace Pot
open Real

/-- problems/boundary.py:32-33 `Boundary.set_bet`: the class attribute `bet0` -/
noncomputable def bet0 : String → ℝ
  | "outer-sine" => 0.15   -- problems/boundary.py:179
  | "inner-sine" => 0.5    -- problems/boundary.py:184
  | "sine7" => 0.025       -- problems/boundary.py:189
  | "cubic" => 0.075       -- problems/boundary.py:198
  | _ => 0                 -- problems/boundary.py:174

/-- problems/boundary.py:171-206: the dictionary `boundaries`, as an association list from the attribute `name` to the function
`eval_r` of an object constructed without an explicit `bet` -/
noncomputable def boundaryTable (R a : ℝ) : List (String × (ℝ → ℝ)) :=
  [("arc", arcR R), ("outer-sine", outerSineR R (bet0 "outer-sine") a), ("inner-sine", innerSineR R (bet0 "inner-sine") a),
   ("sine7", sine7R R (bet0 "sine7") a), ("cubic", cubicR R (bet0 "cubic") a)]

/-- run.py:44 `problems.boundary.boundaries[args.boundary](problem.R, k=problem.k)`: the radius function chosen on the command line;
the default angle is problems/problem.py `PizzaProblem.a` (problems/boundary.py:12). A missing key is a `KeyError`. -/
noncomputable def chooseBoundary (name : String) : Py (ℝ → ℝ) :=
  match (boundaryTable probR probA).lookup name with
  | some r => .ok r
  | none => .error .keyError

end Pot
