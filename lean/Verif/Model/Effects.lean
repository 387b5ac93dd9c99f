/-
What the programs of `Model/Attrs.lean` do to the attributes of objects, event by event.

`Run` is `Exec` of `Model/Attrs.lean` (whose bodies, with file and lines, are those of the repository) that also keeps a list of
what happened: an attribute was looked up, an attribute was assigned, an object was made.  (Where `flag` branches on
`homogeneous`, the lookup stands before it as `rd`.)  Simplifications besides those of `Model/Attrs.lean`: a change in place to a list, an array or a dictionary that an attribute holds (`self.f[i, j] = ...`,
`self.c0.extend(...)`) is a lookup of the attribute.  In the repository such changes are made to attributes of the solvers, the
multivalued functions, `PolarFD` and `ZMethod`, and in `Boundary.__init__` (problems/boundary.py:17-37); none is made to an
attribute of a problem.
-/
import Verif.Model.Attrs

namespace Pot
namespace Attrs

/-- an attribute is looked up, `hasattr` asks for an attribute, an attribute is assigned, an object is made -/
inductive Ev where
  | get (o : Obj) (a : ℕ)
  | test (o : Obj) (a : ℕ)
  | set (o : Obj) (a : ℕ)
  | make (o : Obj)
  deriving DecidableEq

/-- `Run W n me j c σ t out`: `Exec W n me j c σ out`, and `t` is what happened -/
inductive Run (W : World) : ℕ → Obj → Bool → Cmd → State → List Ev → Out → Prop
  | skip {n me j σ} : Run W n me j .skip σ [] (.norm σ)
  | ret {n me j σ} : Run W n me j .ret σ [] (.ret σ)
  | brk {n me j σ} : Run W n me j .brk σ [] (.brk σ)
  | rd {n me j r a σ} : Has W σ (W.obj me r) a → Run W n me j (.rd r a) σ [.get (W.obj me r) a] (.norm σ)
  | rdErr {n me j r a σ} : ¬Has W σ (W.obj me r) a →
      Run W n me j (.rd r a) σ [.get (W.obj me r) a] (.err (W.obj me r) a)
  | wr {n me j r a σ} : Run W n me j (.wr r a) σ [.set (W.obj me r) a] (.norm (insert (W.obj me r, a) σ))
  | call {n me j r m p σ c t out} : W.owner (W.obj me r) m = some c →
      Run W n (W.obj me r) (p.val j) (W.body c m) σ t out →
      Run W (n + 1) me j (.call r m p) σ (.get (W.obj me r) m :: t) out.close
  | callOwn {n me j r m p σ} : W.owner (W.obj me r) m = none → (W.obj me r, m) ∈ σ →
      Run W n me j (.call r m p) σ [.get (W.obj me r) m] (.norm σ)
  | callErr {n me j r m p σ} : ¬Has W σ (W.obj me r) m →
      Run W n me j (.call r m p) σ [.get (W.obj me r) m] (.err (W.obj me r) m)
  | sup {n me j r c m σ d t out} : W.next (W.obj me r) c m = some d →
      Run W n (W.obj me r) false (W.body d m) σ t out → Run W (n + 1) me j (.sup r c m) σ t out.close
  | supObject {n me j r c σ} : W.next (W.obj me r) c N.__init__ = none → Run W n me j (.sup r c N.__init__) σ [] (.norm σ)
  | supErr {n me j r c m σ} : m ≠ N.__init__ → W.next (W.obj me r) c m = none →
      Run W n me j (.sup r c m) σ [] (.err (W.obj me r) m)
  | fn {n me j c f σ t out} : Run W n me false (W.body c f) σ t out → Run W (n + 1) me j (.fn c f) σ t out.close
  | new {n me j r σ c t out} : W.owner (W.obj me r) N.__init__ = some c →
      Run W n (W.obj me r) false (W.body c N.__init__) (clear σ (W.obj me r)) t out →
      Run W (n + 1) me j (.new r) σ (.make (W.obj me r) :: t) out.close
  | newObject {n me j r σ} : W.owner (W.obj me r) N.__init__ = none →
      Run W n me j (.new r) σ [.make (W.obj me r)] (.norm (clear σ (W.obj me r)))
  | seq {n me j c d σ τ t u out} : Run W n me j c σ t (.norm τ) → Run W n me j d τ u out →
      Run W n me j (.seq c d) σ (t ++ u) out
  | seqRet {n me j c d σ τ t} : Run W n me j c σ t (.ret τ) → Run W n me j (.seq c d) σ t (.ret τ)
  | seqBrk {n me j c d σ τ t} : Run W n me j c σ t (.brk τ) → Run W n me j (.seq c d) σ t (.brk τ)
  | seqErr {n me j c d σ o a t} : Run W n me j c σ t (.err o a) → Run W n me j (.seq c d) σ t (.err o a)
  | altL {n me j c d σ t out} : Run W n me j c σ t out → Run W n me j (.alt c d) σ t out
  | altR {n me j c d σ t out} : Run W n me j d σ t out → Run W n me j (.alt c d) σ t out
  | jj {n me j c d σ t out} : Run W n me j (if j then c else d) σ t out → Run W n me j (.jj c d) σ t out
  | flag {n me j r c d σ t out} : Run W n me j (if W.isHomog (W.obj me r) then c else d) σ t out →
      Run W n me j (.flag r c d) σ t out
  | hasT {n me j r a c d σ t out} : Has W σ (W.obj me r) a → Run W n me j c σ t out →
      Run W n me j (.has r a c d) σ (.test (W.obj me r) a :: t) out
  | hasF {n me j r a c d σ t out} : ¬Has W σ (W.obj me r) a → Run W n me j d σ t out →
      Run W n me j (.has r a c d) σ (.test (W.obj me r) a :: t) out
  | loopEnd {n me j c σ} : Run W n me j (.loop c) σ [] (.norm σ)
  | loop {n me j c σ τ t u out} : Run W n me j c σ t (.norm τ) → Run W n me j (.loop c) τ u out →
      Run W n me j (.loop c) σ (t ++ u) out
  | loopBrk {n me j c σ τ t u out} : Run W n me j c σ t (.brk τ) → Run W n me j (.loop c) τ u out →
      Run W n me j (.loop c) σ (t ++ u) out
  | loopRet {n me j c σ τ t} : Run W n me j c σ t (.ret τ) → Run W n me j (.loop c) σ t (.ret τ)
  | loopErr {n me j c σ o a t} : Run W n me j c σ t (.err o a) → Run W n me j (.loop c) σ t (.err o a)
  | scope {n me j c σ t out} : Run W n me j c σ t out → Run W n me j (.scope c) σ t out.close

/-! ## what the programs do once they have a problem and a boundary -/

open Cmd

/-- run.py:62-102, after the options are printed -/
def restRun : Cmd := alt (rd main N.expected_known) skip ;; loop (new S ;; call S N.run .no ;; alt brk skip ;; rd R N.error ;;
  alt (rd R N.error) skip ;; rd R N.u_act ;; alt (rd R N.error) skip ;; alt (call S N.calc_rel_convergence .no) skip ;; rd R N.error)

/-- runz.py:69-139, after the options are printed -/
def restRunz : Cmd := alt (rd main N.expected_known) skip ;; loop (new Z ;; wr Z N.z1_fourier ;; call Z N.run .no ;;
  alt (call F N.calc_rel_convergence .no) skip ;; alt (call S N.calc_rel_convergence .no) skip ;; rd Z N.z1_fourier)

/-- what the programs with one solver at a time do after the boundary is given to the problem -/
def rest : Owner → Cmd
  -- run.py:62-102
  | .m_run => restRun
  -- scripts/c0_basis.py, the statements outside functions
  | .m_c0_basis => loop (new S ;; call S N.calc_c0 .no ;; call S N.c0_test .no)
  -- scripts/optimize_basis.py, the statements outside functions
  | .m_optimize_basis => loop (fn .m_optimize_basis N.worker)
  -- scripts/extend_basis_test.py, the statements outside functions
  | .m_extend_basis_test => new S ;; loop (rd S N.B_desc ;; loop (call S N.extend_basis .no ;; rd S N.B_desc ;; wr S N.c0 ;;
      rd S N.B_desc ;; wr S N.c1 ;; alt (rd S N.c0) (alt (rd S N.c1) skip) ;; call S N.extend_boundary .no))
  -- scripts/extension_test.py, the statements outside functions
  | .m_extension_test => loop (fn .m_extension_test N.run_test)
  -- scripts/test_extend_f.py, the statements outside functions
  | .m_test_extend_f => loop (fn .m_test_extend_f N.run_test)
  | _ => skip

/-- the programs of `rest` -/
def restPrograms : List Owner := [.m_run, .m_c0_basis, .m_optimize_basis, .m_extend_basis_test, .m_extension_test, .m_test_extend_f]

/-- the last thing `c` does is `r` -/
inductive Last (r : Cmd) : Cmd → Prop
  | here : Last r r
  | seq {c d : Cmd} : Last r d → Last r (.seq c d)
  | alt {c : Cmd} : Last r c → Last r (.alt c .skip)

end Attrs
end Pot
