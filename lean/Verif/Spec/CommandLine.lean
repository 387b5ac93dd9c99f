import Mathlib.Data.List.Basic
import Mathlib.Data.Int.Basic

/-!
# Specification: command lines of the two programs

A command line is made of pieces in any order: words, options with an integer, `-c` alone and flags.
-/

namespace Spec

/-- how the integer is written after the option: `-N 16`, `-N16` or `-N=16` -/
inductive Attach where
  | apart
  | joined
  | equals

/-- the pieces of a command line -/
inductive Piece where
  | word (s : List Char)
  /-- `-N`, `-c` or `-o` with the string `v` that stands for the number `n` -/
  | value (o : Char) (a : Attach) (v : List Char) (n : ℤ)
  /-- `-c` without a number -/
  | bareC
  | r
  /-- the first `k` characters of `--acheat` -/
  | acheat (k : ℕ)
  /-- the first `k` characters of `--z1cheat` -/
  | z1cheat (k : ℕ)

/-- the strings of a piece -/
def Piece.strings : Piece → List (List Char)
  | .word s => [s]
  | .value o .apart v _ => [['-', o], v]
  | .value o .joined v _ => ['-' :: o :: v]
  | .value o .equals v _ => ['-' :: o :: '=' :: v]
  | .bareC => [['-', 'c']]
  | .r => [['-', 'r']]
  | .acheat k => [['-', '-', 'a', 'c', 'h', 'e', 'a', 't'].take k]
  | .z1cheat k => [['-', '-', 'z', '1', 'c', 'h', 'e', 'a', 't'].take k]

/-- a piece as the usage message allows it; `int` reads a number, `negNum` recognises negative numbers, `z` is true for `runz.py` -/
def Piece.Valid (int : List Char → Option ℤ) (negNum : List Char → Bool) (z : Bool) : Piece → Prop
  | .word s => s.head? ≠ some '-'
  | .value o a v n => int v = some n ∧ (o = 'N' ∨ o = 'c' ∨ o = 'o' ∧ (n = 2 ∨ n = 4)) ∧
      match a with
      | .apart => v.head? ≠ some '-' ∨ negNum v = true
      | _ => True
  | .bareC => True
  | .r => True
  | .acheat k => 3 ≤ k
  | .z1cheat k => z = true ∧ 3 ≤ k

/-- `-c` alone is not directly followed by a word -/
def NoSwallow : List Piece → Prop
  | [] => True
  | .bareC :: .word _ :: _ => False
  | _ :: rest => NoSwallow rest

/-- the word of a piece -/
def Piece.word? : Piece → Option (List Char)
  | .word s => some s
  | _ => none

/-- the number given for the option `o`; `-c` alone stands for 128 -/
def Piece.num? (o : Char) : Piece → Option ℤ
  | .value o' _ _ n => if o' = o then some n else none
  | .bareC => if o = 'c' then some 128 else none
  | _ => none

/-- the number given last for the option `o` -/
def lastNum (o : Char) (l : List Piece) : Option ℤ := (l.filterMap (Piece.num? o)).getLast?

/-- what is assumed of Python's `int` and of the regular expression for negative numbers: a number does not contain `=` and is not empty;
a negative number consists of `-` and at least one more character, which is not `-` and not a letter, and does not contain `=` -/
structure PyText (int : List Char → Option ℤ) (negNum : List Char → Bool) : Prop where
  empty : int [] = none
  eq : ∀ v, '=' ∈ v → int v = none
  neg : ∀ s, negNum s = true → '=' ∉ s ∧ ∃ c t, s = '-' :: c :: t ∧ c ≠ '-' ∧ c.isAlpha = false

/-- command lines that cannot be accepted because of their first strings, which are not `--` -/
inductive Bad (int : List Char → Option ℤ) (negNum : List Char → Bool) : List (List Char) → Prop
  /-- an option whose first letter is none of `N`, `c`, `o`, `r`, `h`; it does not look like a negative number and has no space -/
  | unknown (c : Char) (t : List Char) (post : List (List Char)) (hc : c ∉ ['-', 'N', 'c', 'o', 'r', 'h']) (hn : negNum ('-' :: c :: t) = false)
      (hs : ' ' ∉ '-' :: c :: t) : Bad int negNum (('-' :: c :: t) :: post)
  /-- a long option that begins with none of the letters of `--acheat`, `--help`, `--z1cheat` -/
  | unknownLong (c : Char) (t : List Char) (post : List (List Char)) (hc : c ∉ ['=', 'a', 'h', 'z']) (hs : ' ' ∉ c :: t) :
      Bad int negNum (('-' :: '-' :: c :: t) :: post)
  /-- `-r=…` -/
  | flagValue (v : List Char) (post : List (List Char)) : Bad int negNum (('-' :: 'r' :: '=' :: v) :: post)
  /-- `--acheat=…`, or an abbreviation with `=` -/
  | longValue (k : ℕ) (hk : 3 ≤ k) (v : List Char) (post : List (List Char)) :
      Bad int negNum ((['-', '-', 'a', 'c', 'h', 'e', 'a', 't'].take k ++ '=' :: v) :: post)
  /-- `-rx…`, where `x` is no option -/
  | cluster (c : Char) (t : List Char) (post : List (List Char)) (hc : c ∉ ['=', 'N', 'c', 'o', 'r', 'h']) :
      Bad int negNum (('-' :: 'r' :: c :: t) :: post)
  /-- `-N` or `-o` at the end, or before `--` -/
  | missing (o : Char) (ho : o = 'N' ∨ o = 'o') (post : List (List Char)) (hp : post = [] ∨ post.head? = some ['-', '-']) :
      Bad int negNum (['-', o] :: post)
  /-- `-N` or `-o` before an option -/
  | missingBefore (o : Char) (ho : o = 'N' ∨ o = 'o') (c : Char) (hc : c ∈ ['N', 'c', 'o', 'r']) (t : List Char) (post : List (List Char)) :
      Bad int negNum (['-', o] :: ('-' :: c :: t) :: post)
  /-- an option with a value that is no number, or is not allowed for `-o`; after `-N` as a string of its own -/
  | apart (o : Char) (ho : o = 'N' ∨ o = 'c' ∨ o = 'o') (v : List Char) (hd : v.head? ≠ some '-') (post : List (List Char))
      (hv : ∀ n, int v = some n → o = 'o' ∧ n ≠ 2 ∧ n ≠ 4) : Bad int negNum (['-', o] :: v :: post)
  /-- as in `-Nx` -/
  | joined (o : Char) (ho : o = 'N' ∨ o = 'c' ∨ o = 'o') (v : List Char) (hd : v.head? ≠ some '=') (h0 : v ≠ []) (post : List (List Char))
      (hv : ∀ n, int v = some n → o = 'o' ∧ n ≠ 2 ∧ n ≠ 4) : Bad int negNum (('-' :: o :: v) :: post)
  /-- as in `-N=x` -/
  | equals (o : Char) (ho : o = 'N' ∨ o = 'c' ∨ o = 'o') (v : List Char) (post : List (List Char))
      (hv : ∀ n, int v = some n → o = 'o' ∧ n ≠ 2 ∧ n ≠ 4) : Bad int negNum (('-' :: o :: '=' :: v) :: post)

end Spec
