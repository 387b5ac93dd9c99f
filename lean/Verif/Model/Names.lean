import Mathlib.Data.Set.Basic
import Mathlib.Data.List.Basic

/-
Local variables and module-level names of every function and every module of the repository.

Each function is reduced to what decides whether a name is bound when it is read: the names each statement reads, the
names it binds, and the control flow.  Everything else (values, calls into other modules, attributes) is left out.

Simplifications, all of them on the side of more executions:
* a test is undetermined (both branches are executions) unless it is one of the tests listed in `Test.on`, `.yes`, `.no`;
* a loop body runs any number of times, whatever the loop runs over;
* all names of an expression are read, also those behind `and`, `or` and conditional expressions;
* a lambda or a method of a nested class may run any number of times where it is defined, a nested function where its name
  is read (more names are bound later, so that later runs are no worse);
* where the name of a function of the same module is read, the function may be called any number of times; where the name
  of a class of the same module is read, all its methods may be called.
`from sympy import *` binds the names of SymPy the module uses (symbols, diff, lambdify, cos, sin, acos, sqrt, pi,
factorial, gamma, sympify).
-/

namespace Pot.Names

/-- What is known of the test of an `if`, given the value `v` that the activation's parameter has. -/
inductive Test
  /-- nothing: both branches are possible -/
  | any
  /-- the test is `v ∈ vs` -/
  | on (vs : List ℕ)
  /-- the test succeeds if `v ∈ vs`; otherwise both branches are possible -/
  | yes (vs : List ℕ)
  /-- the test fails if `v ∈ vs`; otherwise both branches are possible -/
  | no (vs : List ℕ)
  deriving DecidableEq

/-- the possible results of a test -/
def Test.can (v : ℕ) : Test → Bool → Prop
  | .any, _ => True
  | .on vs, b => b = decide (v ∈ vs)
  | .yes vs, b => v ∈ vs → b = true
  | .no vs, b => v ∈ vs → b = false

/-- Statements, as far as names are concerned.  Names are numbers: module-level names count in the module's list `globals`,
local names in the function's list `locals`. -/
inductive Cmd
  | skip
  /-- read the module-level names `gs` and the local names `ls`, then bind the local names `bs` -/
  | st (gs ls bs : List ℕ)
  /-- bind module-level names -/
  | bg (gs : List ℕ)
  | seq (c d : Cmd)
  | alt (t : Test) (c d : Cmd)
  /-- `for` and `while` -/
  | loop (c : Cmd)
  | ret | brk | cont
  /-- `raise` -/
  | raise
  /-- a point inside `try` at which an exception may be raised -/
  | may
  /-- `try: c  except E: h`; the exception may also be one that the handler does not catch -/
  | tri (c h : Cmd)
  /-- a nested scope with the local names `own` -/
  | frame (own : List ℕ) (c : Cmd)
  /-- a call of function number `f` of the same module, with its parameter one of `vs` -/
  | call (f : ℕ) (vs : List ℕ)
  deriving DecidableEq

/-- one statement after the other -/
scoped infixr:60 " ;; " => Cmd.seq

/-- A function: its parameters are the first `params` of its `locals`; `cases` are the values of the parameter that the
tests look at (`[0]` if none does); `uses` are the module-level names it needs. -/
structure Func where
  name : String
  locals : List String
  params : ℕ
  cases : List ℕ
  uses : List ℕ
  body : Cmd

/-- A module: of its `globals` the first `init` are built-in (or `__name__`, `__file__`); `locals` are the names of the
class scopes and comprehensions of the module's own code. -/
structure Module where
  file : String
  globals : List String
  init : ℕ
  locals : List String
  funcs : List Func
  body : Cmd
  /-- names bound when the module has been executed to its end, whatever its tests gave -/
  final : List ℕ

/-- the bound names -/
structure St where
  g : Set ℕ
  l : Set ℕ

/-- how a statement ends; `lostL x`, `lostG x` are UnboundLocalError and NameError for `x` -/
inductive Out
  | next | ret | brk | cont | exc
  | lostL (x : ℕ) | lostG (x : ℕ)
  deriving DecidableEq

/-- what a caller sees of the end of a nested scope or a call -/
def Out.up : Out → Out
  | .ret => .next
  | .brk => .next
  | .cont => .next
  | o => o

/-- the outcomes that end a loop, and how the loop then ends -/
def Out.ofLoop : Out → Option Out
  | .next => none
  | .cont => none
  | .brk => some .next
  | o => some o

def setOf (l : List ℕ) : Set ℕ := fun x => x ∈ l

/-- executions of a statement in a module with the functions `fs`; `v` is the value of the activation's parameter -/
inductive Exec (fs : List Func) : ℕ → Cmd → St → Out → St → Prop
  | skip {v s} : Exec fs v .skip s .next s
  | st {v gs ls bs s} : (∀ x ∈ gs, x ∈ s.g) → (∀ x ∈ ls, x ∈ s.l) →
      Exec fs v (.st gs ls bs) s .next ⟨s.g, s.l ∪ setOf bs⟩
  | lostG {v gs ls bs s x} : x ∈ gs → x ∉ s.g → Exec fs v (.st gs ls bs) s (.lostG x) s
  | lostL {v gs ls bs s x} : x ∈ ls → x ∉ s.l → Exec fs v (.st gs ls bs) s (.lostL x) s
  | bg {v gs s} : Exec fs v (.bg gs) s .next ⟨s.g ∪ setOf gs, s.l⟩
  | seq {v c d s s' s'' o} : Exec fs v c s .next s' → Exec fs v d s' o s'' → Exec fs v (c ;; d) s o s''
  | stop {v c d s s' o} : Exec fs v c s o s' → o ≠ .next → Exec fs v (c ;; d) s o s'
  | altT {v t c d s s' o} : t.can v true → Exec fs v c s o s' → Exec fs v (.alt t c d) s o s'
  | altF {v t c d s s' o} : t.can v false → Exec fs v d s o s' → Exec fs v (.alt t c d) s o s'
  | done {v c s} : Exec fs v (.loop c) s .next s
  | again {v c s s' s'' o o'} : Exec fs v c s o s' → o.ofLoop = none → Exec fs v (.loop c) s' o' s'' →
      Exec fs v (.loop c) s o' s''
  | leave {v c s s' o o'} : Exec fs v c s o s' → o.ofLoop = some o' → Exec fs v (.loop c) s o' s'
  | ret {v s} : Exec fs v .ret s .ret s
  | brk {v s} : Exec fs v .brk s .brk s
  | cont {v s} : Exec fs v .cont s .cont s
  | raise {v s} : Exec fs v .raise s .exc s
  | mayNot {v s} : Exec fs v .may s .next s
  | may {v s} : Exec fs v .may s .exc s
  | tri {v c h s s' o} : Exec fs v c s o s' → Exec fs v (.tri c h) s o s'
  | handle {v c h s s' s'' o} : Exec fs v c s .exc s' → Exec fs v h s' o s'' → Exec fs v (.tri c h) s o s''
  | frame {v own c s s' o} : Exec fs v c ⟨s.g, s.l \ setOf own⟩ o s' →
      Exec fs v (.frame own c) s o.up ⟨s'.g, s.l⟩
  | call {v f vs s s' o w fn} : fs[f]? = some fn → w ∈ vs →
      Exec fs w fn.body ⟨s.g, setOf (List.range fn.params)⟩ o s' →
      Exec fs v (.call f vs) s o.up ⟨s'.g, s.l⟩

/-- An activation of a function, its parameter having the value `v`, when the module-level names `g` are bound, ends in `o`. -/
def Func.Runs (m : Module) (f : Func) (v : ℕ) (g : Set ℕ) (o : Out) : Prop :=
  ∃ s', Exec m.funcs v f.body ⟨g, setOf (List.range f.params)⟩ o s'

/-- An execution of a module from its beginning ends in `o`, with the module-level names `g` bound. -/
def Module.Runs (m : Module) (o : Out) (g : Set ℕ) : Prop :=
  ∃ l, Exec m.funcs 0 m.body ⟨setOf (List.range m.init), ∅⟩ o ⟨g, l⟩

end Pot.Names
