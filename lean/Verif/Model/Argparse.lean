import Mathlib.Data.Int.Basic
import Mathlib.Data.List.Basic

/-!
# Model of the command line: `argparse` as io_util.py, run.py and runz.py use it

The declarations (which options exist, their `nargs`, `type`, `choices`, defaults) are those of /repo; the algorithm is
`ArgumentParser.parse_args` of the standard library (CPython 3.11, `argparse.py`), method by method, for what these declarations
need: options with `nargs` 0, `None` or `'?'` and positionals with `nargs` `None`; no sub-parsers, no groups, no argument files,
prefix character `-`, abbreviations allowed.  A string is a list of characters.  `help` and `usage` are the two ways in which
`parse_args` ends the program: `-h` prints the help and exits with 0, any error prints the usage and exits with 2; the texts
printed are left out.  Two functions on strings are taken from outside: `int` (`none`: a `ValueError`) and `negNum`, whether
the regular expression for negative numbers matches.
-/

namespace Pot

/-- strings of the command line -/
abbrev Str := List Char

/-- the two ways in which `parse_args` ends the program -/
inductive Exit where
  | help
  | usage
deriving DecidableEq, Repr

/-- `nargs` of an option: 0 (`store_true`, `help`), `None` or `'?'` -/
inductive Nargs where
  | zero
  | one
  | atMostOne
deriving DecidableEq, Repr

/-- an option; `act` is what `take_action` does with its argument strings (`_get_values`, then the action) -/
structure OptAction (σ : Type) where
  names : List Str
  nargs : Nargs
  act : List Str → σ → Except Exit σ

/-- a parser: its options in the order of their declaration, and what `take_action` does for each positional -/
structure Parser (σ : Type) where
  optionals : List (OptAction σ)
  positionals : List (List Str → σ → Except Exit σ)

/-- an option found in a command-line string: the action, its name, and the explicit argument with `sep == '='`
(`_option_string_indices`) -/
structure Found (σ : Type) where
  action : OptAction σ
  name : Str
  explicit : Option (Bool × Str)

/-- a letter of `arg_strings_pattern`: `A`, `-`, or `O` with the option, `none` if there is no such option -/
inductive Tok (σ : Type) where
  | arg
  | dashes
  | opt (f : Option (Found σ))

/-- the string `--` -/
def dd : Str := ['-', '-']

/-- `_option_string_actions` -/
def optionMap {σ : Type} (p : Parser σ) : List (Str × OptAction σ) := p.optionals.flatMap fun o => o.names.map fun n => (n, o)

/-- `_get_option_tuples` -/
def optionTuples {σ : Type} (m : List (Str × OptAction σ)) (s : Str) : List (Found σ) :=
  match s with
  | '-' :: '-' :: _ =>
    let pre := s.takeWhile (· ≠ '=')
    let explicit := match s.dropWhile (· ≠ '=') with
      | [] => none
      | _ :: e => some (true, e)
    m.filterMap fun no => if pre.isPrefixOf no.1 then some ⟨no.2, no.1, explicit⟩ else none
  | _ => m.filterMap fun no =>
      if no.1 = s.take 2 then some ⟨no.2, no.1, some (false, s.drop 2)⟩
      else if s.isPrefixOf no.1 then some ⟨no.2, no.1, none⟩ else none

/-- the part of `_parse_optional` after the exact names and the names before a `=` -/
def parseOther {σ : Type} (negNum : Str → Bool) (m : List (Str × OptAction σ)) (s : Str) : Except Exit (Tok σ) :=
  match optionTuples m s with
  | _ :: _ :: _ => .error .usage
  | [f] => .ok (.opt (some f))
  | [] => if negNum s then .ok .arg else if ' ' ∈ s then .ok .arg else .ok (.opt none)

/-- `_parse_optional`; no option looks like a negative number -/
def parseOptional {σ : Type} (negNum : Str → Bool) (m : List (Str × OptAction σ)) (s : Str) : Except Exit (Tok σ) :=
  match s with
  | [] => .ok .arg
  | c :: rest =>
    if c ≠ '-' then .ok .arg
    else
      match m.lookup s with
      | some o => .ok (.opt (some ⟨o, s, none⟩))
      | none =>
        if rest = [] then .ok .arg
        else
          match s.dropWhile (· ≠ '=') with
          | [] => parseOther negNum m s
          | _ :: e =>
            match m.lookup (s.takeWhile (· ≠ '=')) with
            | some o => .ok (.opt (some ⟨o, s.takeWhile (· ≠ '='), some (true, e)⟩))
            | none => parseOther negNum m s

/-- `_parse_known_args`, the first loop: the pattern beside the strings; after `--` everything is an argument -/
def classify {σ : Type} (negNum : Str → Bool) (m : List (Str × OptAction σ)) : List Str → Except Exit (List (Tok σ × Str))
  | [] => .ok []
  | s :: rest =>
    if s = dd then .ok ((.dashes, s) :: rest.map fun t => (.arg, t))
    else do
      let t ← parseOptional negNum m s
      let ts ← classify negNum m rest
      return (t, s) :: ts

/-- the string of the next token, if it is an argument -/
def nextArg {σ : Type} : List (Tok σ × Str) → Option Str
  | (.arg, s) :: _ => some s
  | _ => none

/-- what `consume_optional` finds: the actions with their argument strings, whether something is left over, and whether the next
token is used -/
structure Bundle (σ : Type) where
  acts : List (OptAction σ × List Str)
  extras : Bool
  usesNext : Bool

/-- the last branch of the loop of `consume_optional`: no explicit argument, so that the arguments are the tokens that follow
(`_match_argument`) -/
def bundleNext {σ : Type} (next : Option Str) (o : OptAction σ) : Except Exit (Bundle σ) :=
  match o.nargs, next with
  | .zero, _ => .ok ⟨[(o, [])], false, false⟩
  | .one, some s => .ok ⟨[(o, [s])], false, true⟩
  | .one, none => .error .usage
  | .atMostOne, some s => .ok ⟨[(o, [s])], false, true⟩
  | .atMostOne, none => .ok ⟨[(o, [])], false, false⟩

/-- the loop of `consume_optional` with the explicit argument `e`; `eq` is `sep == '='` -/
def bundleExplicit {σ : Type} (m : List (Str × OptAction σ)) (next : Option Str) (o : OptAction σ) (name : Str) (eq : Bool) :
    (e : Str) → Except Exit (Bundle σ)
  | [] =>
    match o.nargs with
    | .zero => .error .usage
    | _ => .ok ⟨[(o, [[]])], false, false⟩
  | c :: e =>
    match o.nargs with
    | .zero =>
      if name[1]? = some '-' then .error .usage
      else if eq ∨ c = '-' then .error .usage
      else
        match m.lookup ['-', c] with
        | none => .ok ⟨[(o, [])], true, false⟩
        | some o' =>
          Except.map (fun b => ⟨(o, []) :: b.acts, b.extras, b.usesNext⟩) <|
            match e with
            | [] => bundleNext next o'
            | '=' :: e' => bundleExplicit m next o' ['-', c] true e'
            | e' => bundleExplicit m next o' ['-', c] false e'
    | _ => .ok ⟨[(o, [c :: e])], false, false⟩
termination_by e => e.length

/-- `consume_optional` up to the calls of `take_action` -/
def bundle {σ : Type} (m : List (Str × OptAction σ)) (next : Option Str) (f : Found σ) : Except Exit (Bundle σ) :=
  match f.explicit with
  | none => bundleNext next f.action
  | some (eq, e) => bundleExplicit m next f.action f.name eq e

/-- the calls of `take_action` for a list of options -/
def takeAll {σ : Type} (acts : List (OptAction σ × List Str)) (ns : σ) : Except Exit σ :=
  acts.foldlM (fun ns oa => oa.1.act oa.2 ns) ns

/-- whether the token is the `--` -/
def isDashes {σ : Type} : Tok σ × Str → Bool
  | (.dashes, _) => true
  | _ => false

/-- whether the token is an option -/
def isOpt {σ : Type} : Tok σ × Str → Bool
  | (.opt _, _) => true
  | _ => false

/-- the regular expression `(-*A-*)` at the beginning of the tokens: the strings matched and the rest -/
def matchOne {σ : Type} (toks : List (Tok σ × Str)) : Option (List Str × List (Tok σ × Str)) :=
  match toks.dropWhile isDashes with
  | (.arg, s) :: rest =>
    some ((toks.takeWhile isDashes).map Prod.snd ++ s :: (rest.takeWhile isDashes).map Prod.snd, rest.dropWhile isDashes)
  | _ => none

/-- `consume_positionals`: the longest prefix of the positionals that matches (`_match_arguments_partial`; a longer match extends a
shorter one, because each pattern takes the `--` that follow), and `take_action` for each -/
def consumePositionals {σ : Type} : List (List Str → σ → Except Exit σ) → List (Tok σ × Str) → σ →
    Except Exit (List (List Str → σ → Except Exit σ) × List (Tok σ × Str) × σ)
  | [], toks, ns => .ok ([], toks, ns)
  | p :: ps, toks, ns =>
    match matchOne toks with
    | none => .ok (p :: ps, toks, ns)
    | some (args, rest) => do
      let ns ← p args ns
      consumePositionals ps rest ns

theorem matchOne_length {σ : Type} {toks : List (Tok σ × Str)} {x} (h : matchOne toks = some x) : x.2.length < toks.length := by
  unfold matchOne at h
  split at h
  · rename_i s rest hd
    simp only [Option.some.injEq] at h
    subst h
    have h1 := (List.dropWhile_sublist (isDashes (σ := σ)) (l := toks)).length_le
    have h2 := (List.dropWhile_sublist (isDashes (σ := σ)) (l := rest)).length_le
    rw [hd] at h1
    simp only [List.length_cons] at h1
    simp only
    omega
  · simp at h

/-- `_parse_known_args` after the main loop, then `parse_args`: the positionals after the last option; required arguments; left-over
arguments -/
def finish {σ : Type} (ps : List (List Str → σ → Except Exit σ)) (toks : List (Tok σ × Str)) (ns : σ) (extras : Bool) :
    Except Exit σ := do
  let (ps, toks, ns) ← consumePositionals ps toks ns
  if ps ≠ [] then .error .usage
  else if extras ∨ toks ≠ [] then .error .usage
  else return ns

/-- `_parse_known_args`, one option of the main loop: the new namespace, whether something is left over, and the tokens after the option
and its argument -/
def consumeOptional {σ : Type} (m : List (Str × OptAction σ)) (f : Option (Found σ)) (toks : List (Tok σ × Str)) (ns : σ) :
    Except Exit (σ × Bool × List (Tok σ × Str)) :=
  match f with
  | none => .ok (ns, true, toks)
  | some f => do
    let b ← bundle m (nextArg toks) f
    let ns ← takeAll b.acts ns
    return (ns, b.extras, if b.usesNext then toks.tail else toks)

/-- the option at the head of the tokens, and what follows -/
def headOpt {σ : Type} : List (Tok σ × Str) → Option (Option (Found σ) × List (Tok σ × Str))
  | (.opt f, _) :: rest => some (f, rest)
  | _ => none

/-- `_parse_known_args`, the main loop: positionals and options alternately, until the last option has been passed.  The fuel is the
number of passes; each of them uses a token. -/
def parseLoop {σ : Type} (m : List (Str × OptAction σ)) : ℕ → List (List Str → σ → Except Exit σ) → List (Tok σ × Str) → σ → Bool →
    Except Exit σ
  | 0, ps, toks, ns, extras => finish ps toks ns extras
  | fuel + 1, ps, toks, ns, extras =>
    if toks.any isOpt then
      match headOpt toks with
      | some (f, rest) => do
        let out ← consumeOptional m f rest ns
        parseLoop m fuel ps out.2.2 out.1 (extras || out.2.1)
      | none => do
        let out ← consumePositionals ps toks ns
        if out.2.1.length < toks.length then parseLoop m fuel out.1 out.2.1 out.2.2 extras
        else parseLoop m fuel out.1 (out.2.1.dropWhile fun t => !isOpt t) out.2.2 true
    else finish ps toks ns extras

/-- `parse_args` -/
def parseArgs {σ : Type} (negNum : Str → Bool) (p : Parser σ) (ns : σ) (argv : List Str) : Except Exit σ := do
  let toks ← classify negNum (optionMap p) argv
  parseLoop (optionMap p) toks.length p.positionals toks ns false

/-! ## The declarations of io_util.py, run.py and runz.py -/

/-- the value of a positional: one string, or a list of strings.  `_get_values` removes the first `--` from the argument strings of a
positional and returns a list unless exactly one string is left. -/
inductive PVal where
  | one (s : Str)
  | many (l : List Str)
deriving DecidableEq, Repr

/-- the namespace.  io_util.py:17-20: `boundary` has the default `'arc'`; the other defaults are those of io_util.py:22-40, run.py:37-39
and runz.py:40-45 -/
structure Namespace where
  problem : Option PVal := none
  boundary : PVal := .one ['a', 'r', 'c']
  N : ℤ := 16
  c : Option ℤ := none
  o : ℤ := 4
  r : Bool := false
  acheat : Bool := false
  z1cheat : Bool := false
deriving DecidableEq, Repr

/-- problems/__init__.py:17-33, the names of the problems whose classes exist -/
def problemNames : List String :=
  ["smooth-sine", "smooth-e", "smooth-ycos", "iz-bessel", "ihz-bessel-line", "ihz-bessel-quadratic"]

/-- problems/boundary.py:195-206, the names of the boundaries -/
def boundaryNames : List String := ["arc", "outer-sine", "inner-sine", "sine7", "cubic"]

/-- `_get_values` and `_check_value` for a positional with `choices` -/
def positionalAct (choices : List String) (set : PVal → Namespace → Namespace) (args : List Str) (ns : Namespace) :
    Except Exit Namespace :=
  match args.erase dd with
  | [s] => if s ∈ choices.map String.toList then .ok (set (.one s) ns) else .error .usage
  | l => if ∀ s ∈ l, s ∈ choices.map String.toList then .ok (set (.many l) ns) else .error .usage

/-- `_get_values` and the action for an option with `type=int` and at most one argument string; `const` is the value without argument -/
def intAct (int : Str → Option ℤ) (const : Option ℤ) (ok : ℤ → Bool) (set : ℤ → Namespace → Namespace) (args : List Str)
    (ns : Namespace) : Except Exit Namespace :=
  match args with
  | [] =>
    match const with
    | some n => .ok (set n ns)
    | none => .error .usage
  | s :: _ =>
    match int s with
    | none => .error .usage
    | some n => if ok n then .ok (set n ns) else .error .usage

/-- `-h`, `--help`: the action of every parser -/
def helpOpt : OptAction Namespace := ⟨[['-', 'h'], ['-', '-', 'h', 'e', 'l', 'p']], .zero, fun _ _ => .error .help⟩

/-- io_util.py:22-24 `-N` -/
def optN (int : Str → Option ℤ) : OptAction Namespace :=
  ⟨[['-', 'N']], .one, intAct int none (fun _ => true) fun n ns => { ns with N := n }⟩

/-- io_util.py:26-29 `-c`: `nargs='?'`, `const=128` -/
def optC (int : Str → Option ℤ) : OptAction Namespace :=
  ⟨[['-', 'c']], .atMostOne, intAct int (some 128) (fun _ => true) fun n ns => { ns with c := some n }⟩

/-- io_util.py:31-34 `-o`: `choices=(2, 4)` -/
def optO (int : Str → Option ℤ) : OptAction Namespace :=
  ⟨[['-', 'o']], .one, intAct int none (fun n => n = 2 ∨ n = 4) fun n ns => { ns with o := n }⟩

/-- io_util.py:36-39 `-r` -/
def optR : OptAction Namespace := ⟨[['-', 'r']], .zero, fun _ ns => .ok { ns with r := true }⟩

/-- run.py:37-39, runz.py:40-42 `--acheat` -/
def optAcheat : OptAction Namespace :=
  ⟨[['-', '-', 'a', 'c', 'h', 'e', 'a', 't']], .zero, fun _ ns => .ok { ns with acheat := true }⟩

/-- runz.py:44-45 `--z1cheat` -/
def optZ1cheat : OptAction Namespace :=
  ⟨[['-', '-', 'z', '1', 'c', 'h', 'e', 'a', 't']], .zero, fun _ ns => .ok { ns with z1cheat := true }⟩

/-- io_util.py:8-40 `add_arguments` on a fresh parser: the options and positionals named in `args`, in this order -/
def addArguments (int : Str → Option ℤ) (args : List String) : Parser Namespace where
  optionals := helpOpt :: ((if "N" ∈ args then [optN int] else []) ++ (if "c" ∈ args then [optC int] else []) ++
    (if "o" ∈ args then [optO int] else []) ++ if "r" ∈ args then [optR] else [])
  positionals := (if "problem" ∈ args then [positionalAct problemNames fun v ns => { ns with problem := some v }] else []) ++
    if "boundary" ∈ args then [positionalAct boundaryNames fun v ns => { ns with boundary := v }] else []

/-- run.py:34, runz.py:37 `arg_list`; `add_arguments` ignores `'a'` -/
def argList : List String := ["problem", "boundary", "N", "c", "o", "r", "a"]

/-- run.py:31-39, the parser -/
def runParser (int : Str → Option ℤ) : Parser Namespace :=
  { addArguments int argList with optionals := (addArguments int argList).optionals ++ [optAcheat] }

/-- runz.py:34-45, the parser -/
def runzParser (int : Str → Option ℤ) : Parser Namespace :=
  { addArguments int argList with optionals := (addArguments int argList).optionals ++ [optAcheat, optZ1cheat] }

end Pot
