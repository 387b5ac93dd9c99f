import Mathlib.Data.List.Basic

/-!
# What a POSIX shell does with a simple command

Only commands of words, escaped characters and one output redirection are described; a command with other characters of special meaning has
no meaning here (`plainChar`).
-/

namespace Spec

/-- characters that stand for themselves outside of quotes (POSIX shell, 2.2 Quoting, and the characters of patterns) -/
def plainChar (c : Char) : Bool := c ∉ "|&;<>()$`\\\"' \t\n*?[]#~=%!{}^".toList

/-- a token: a word, or the operator `>` -/
inductive ShTok where
  | word (s : List Char)
  | into
deriving DecidableEq, Repr

/-- splitting into tokens; the second argument is the word that is being read -/
def shLex : List Char → Option (List Char) → Option (List ShTok)
  | [], none => some []
  | [], some w => some [.word w]
  | ['\\'], _ => none
  | '\\' :: c :: t, w => shLex t (some (w.getD [] ++ [c]))
  | ' ' :: t, none => shLex t none
  | ' ' :: t, some w => (shLex t none).map (.word w :: ·)
  | '>' :: t, none => (shLex t none).map (.into :: ·)
  | '>' :: _, some _ => none
  | c :: t, w => if plainChar c then shLex t (some (w.getD [] ++ [c])) else none

/-- a program with its arguments, and the file its output goes to -/
structure ShCommand where
  argv : List (List Char)
  out : List Char
deriving DecidableEq, Repr

/-- words, `>`, one word -/
def shParse : List ShTok → Option ShCommand
  | [.into, .word f] => some ⟨[], f⟩
  | .word w :: t => (shParse t).map fun c => { c with argv := w :: c.argv }
  | _ => none

/-- the command a line stands for -/
def shCommand (line : List Char) : Option ShCommand := (shLex line none).bind shParse

end Spec
