import Verif.Model.Argparse
import Verif.Spec.CommandLine
import Mathlib.Data.List.TakeWhile
import Mathlib.Tactic.IntervalCases
import Mathlib.Tactic.Tauto
import Mathlib.Tactic.Ring

/-! # Proofs about the command line -/

namespace Pot
open Spec

/-- the parser of `run.py` or, with `z`, of `runz.py` -/
def cmdParser (z : Bool) (int : Str → Option ℤ) : Parser Namespace := if z then runzParser int else runParser int

theorem inList (s : String) (h : s ∈ argList) {α : Type} (a b : α) : (if s ∈ argList then a else b) = a := if_pos h

/-- the names of the options -/
def cmdMap (z : Bool) (int : Str → Option ℤ) : List (Str × OptAction Namespace) :=
  [(['-', 'h'], helpOpt), (['-', '-', 'h', 'e', 'l', 'p'], helpOpt), (['-', 'N'], optN int), (['-', 'c'], optC int),
   (['-', 'o'], optO int), (['-', 'r'], optR), (['-', '-', 'a', 'c', 'h', 'e', 'a', 't'], optAcheat)] ++
  if z then [(['-', '-', 'z', '1', 'c', 'h', 'e', 'a', 't'], optZ1cheat)] else []

/-- what happens with the two positionals -/
def posP : List Str → Namespace → Except Exit Namespace := positionalAct problemNames fun v ns => { ns with problem := some v }

/-- the second one -/
def posB : List Str → Namespace → Except Exit Namespace := positionalAct boundaryNames fun v ns => { ns with boundary := v }

theorem cmdParser_map (z : Bool) (int : Str → Option ℤ) : optionMap (cmdParser z int) = cmdMap z int := by
  have h : ∀ s ∈ ["problem", "boundary", "N", "c", "o", "r"], s ∈ argList := by
    intro s hs
    simp only [List.mem_cons, List.not_mem_nil, or_false] at hs
    rcases hs with h | h | h | h | h | h <;> subst h <;> simp [argList]
  cases z <;> simp [cmdParser, optionMap, runParser, runzParser, addArguments, argList, cmdMap, helpOpt, optN, optC, optO, optR, optAcheat,
    optZ1cheat]

theorem cmdParser_pos (z : Bool) (int : Str → Option ℤ) : (cmdParser z int).positionals = [posP, posB] := by
  cases z <;> simp [cmdParser, runParser, runzParser, addArguments, argList, posP, posB]

/-- the option with the letter `o` -/
def optFor (int : Str → Option ℤ) (o : Char) : OptAction Namespace :=
  if o = 'N' then optN int else if o = 'c' then optC int else optO int

/-- the tokens of a piece -/
def pieceToks (int : Str → Option ℤ) : Piece → List (Tok Namespace × Str)
  | .word s => [(.arg, s)]
  | .value o .apart v _ => [(.opt (some ⟨optFor int o, ['-', o], none⟩), ['-', o]), (.arg, v)]
  | .value o .joined v _ => [(.opt (some ⟨optFor int o, ['-', o], some (false, v)⟩), '-' :: o :: v)]
  | .value o .equals v _ => [(.opt (some ⟨optFor int o, ['-', o], some (true, v)⟩), '-' :: o :: '=' :: v)]
  | .bareC => [(.opt (some ⟨optC int, ['-', 'c'], none⟩), ['-', 'c'])]
  | .r => [(.opt (some ⟨optR, ['-', 'r'], none⟩), ['-', 'r'])]
  | .acheat k => [(.opt (some ⟨optAcheat, ['-', '-', 'a', 'c', 'h', 'e', 'a', 't'], none⟩),
      ['-', '-', 'a', 'c', 'h', 'e', 'a', 't'].take k)]
  | .z1cheat k => [(.opt (some ⟨optZ1cheat, ['-', '-', 'z', '1', 'c', 'h', 'e', 'a', 't'], none⟩),
      ['-', '-', 'z', '1', 'c', 'h', 'e', 'a', 't'].take k)]

theorem parse_word {m : List (Str × OptAction Namespace)} {negNum : Str → Bool} {s : Str} (h : s.head? ≠ some '-') :
    parseOptional negNum m s = .ok .arg := by
  cases s with
  | nil => rfl
  | cons c t =>
    have hc : c ≠ '-' := by simpa using h
    simp [parseOptional, hc]

theorem parse_letter (z : Bool) (int : Str → Option ℤ) (negNum : Str → Bool) {o : Char} (ho : o = 'N' ∨ o = 'c' ∨ o = 'o') :
    parseOptional negNum (cmdMap z int) ['-', o] = .ok (.opt (some ⟨optFor int o, ['-', o], none⟩)) := by
  rcases ho with rfl | rfl | rfl <;> cases z <;> rfl

theorem parse_neg (z : Bool) (int : Str → Option ℤ) {negNum : Str → Bool} (T : PyText int negNum) {s : Str} (h : negNum s = true) :
    parseOptional negNum (cmdMap z int) s = .ok .arg := by
  obtain ⟨heq, c, t, rfl, hc, hal⟩ := T.neg s h
  have hh : c ≠ 'h' := by rintro rfl; exact absurd hal (by decide)
  have hN : c ≠ 'N' := by rintro rfl; exact absurd hal (by decide)
  have hcc : c ≠ 'c' := by rintro rfl; exact absurd hal (by decide)
  have ho : c ≠ 'o' := by rintro rfl; exact absurd hal (by decide)
  have hr : c ≠ 'r' := by rintro rfl; exact absurd hal (by decide)
  have hl : (cmdMap z int).lookup ('-' :: c :: t) = none := by
    have q : ∀ d : Char, c ≠ d → (c == d) = false := fun d hd => beq_false_of_ne hd
    cases z <;> simp [cmdMap, List.lookup, q _ hc, q _ hh, q _ hN, q _ hcc, q _ ho, q _ hr]
  have hd : ('-' :: c :: t).dropWhile (· ≠ '=') = [] := by
    rw [List.dropWhile_eq_nil_iff]
    intro x hx
    simp only [ne_eq, decide_eq_true_eq]
    rintro rfl
    exact heq hx
  have ht : optionTuples (cmdMap z int) ('-' :: c :: t) = [] := by
    unfold optionTuples
    split
    · rename_i heq2
      simp only [List.cons.injEq, true_and] at heq2
      exact absurd heq2.1 hc
    · cases z <;> simp [cmdMap, Ne.symm hc, Ne.symm hh, Ne.symm hN, Ne.symm hcc, Ne.symm ho, Ne.symm hr, hc, hh, hN, hcc, ho, hr]
  simp only [parseOptional, ne_eq, not_true_eq_false, if_false, hl, List.cons_ne_nil, hd, parseOther, ht, h, if_true]

theorem parse_joined (z : Bool) (int : Str → Option ℤ) (negNum : Str → Bool) {o : Char} (ho : o = 'N' ∨ o = 'c' ∨ o = 'o') {v : Str}
    (hv : v ≠ []) (heq : '=' ∉ v) :
    parseOptional negNum (cmdMap z int) ('-' :: o :: v) = .ok (.opt (some ⟨optFor int o, ['-', o], some (false, v)⟩)) := by
  obtain ⟨a, w, rfl⟩ := List.exists_cons_of_ne_nil hv
  have hd : ('-' :: o :: a :: w).dropWhile (· ≠ '=') = [] := by
    rw [List.dropWhile_eq_nil_iff]
    intro x hx
    simp only [ne_eq, decide_eq_true_eq]
    rintro rfl
    simp only [List.mem_cons] at hx heq
    rcases hx with hx | hx | hx
    · exact absurd hx (by decide)
    · rcases ho with rfl | rfl | rfl <;> exact absurd hx (by decide)
    · exact heq hx
  have hl : (cmdMap z int).lookup ('-' :: o :: a :: w) = none := by
    rcases ho with rfl | rfl | rfl <;> cases z <;> simp [cmdMap, List.lookup]
  have ht : optionTuples (cmdMap z int) ('-' :: o :: a :: w) = [⟨optFor int o, ['-', o], some (false, a :: w)⟩] := by
    rcases ho with rfl | rfl | rfl <;> cases z <;> simp [optionTuples, cmdMap, optFor]
  simp only [parseOptional, ne_eq, not_true_eq_false, if_false, hl, List.cons_ne_nil, hd, parseOther, ht]

theorem parse_equals (z : Bool) (int : Str → Option ℤ) (negNum : Str → Bool) {o : Char} (ho : o = 'N' ∨ o = 'c' ∨ o = 'o') (v : Str) :
    parseOptional negNum (cmdMap z int) ('-' :: o :: '=' :: v) = .ok (.opt (some ⟨optFor int o, ['-', o], some (true, v)⟩)) := by
  have hl : (cmdMap z int).lookup ('-' :: o :: '=' :: v) = none := by
    rcases ho with rfl | rfl | rfl <;> cases z <;> simp [cmdMap, List.lookup]
  rcases ho with rfl | rfl | rfl <;> cases z <;>
    simp [parseOptional, hl] <;> rfl

theorem parse_acheat (z : Bool) (int : Str → Option ℤ) (negNum : Str → Bool) {k : ℕ} (hk : 3 ≤ k) :
    parseOptional negNum (cmdMap z int) (['-', '-', 'a', 'c', 'h', 'e', 'a', 't'].take k) =
      .ok (.opt (some ⟨optAcheat, ['-', '-', 'a', 'c', 'h', 'e', 'a', 't'], none⟩)) := by
  by_cases h8 : 8 ≤ k
  · rw [List.take_of_length_le (by simpa using h8)]
    cases z <;> rfl
  · interval_cases k <;> cases z <;> rfl

theorem parse_z1cheat (int : Str → Option ℤ) (negNum : Str → Bool) {k : ℕ} (hk : 3 ≤ k) :
    parseOptional negNum (cmdMap true int) (['-', '-', 'z', '1', 'c', 'h', 'e', 'a', 't'].take k) =
      .ok (.opt (some ⟨optZ1cheat, ['-', '-', 'z', '1', 'c', 'h', 'e', 'a', 't'], none⟩)) := by
  by_cases h8 : 9 ≤ k
  · rw [List.take_of_length_le (by simpa using h8)]
    rfl
  · interval_cases k <;> rfl

theorem classify_cons {m : List (Str × OptAction Namespace)} {negNum : Str → Bool} {s : Str} {rest : List Str} {t : Tok Namespace} {ts}
    (hs : s ≠ dd) (h : parseOptional negNum m s = .ok t) (hr : classify negNum m rest = .ok ts) :
    classify negNum m (s :: rest) = .ok ((t, s) :: ts) := by
  simp only [classify, if_neg hs, h, hr]
  rfl

/-- the strings of a piece are classified as expected -/
theorem classify_piece (z : Bool) {int : Str → Option ℤ} {negNum : Str → Bool} (T : PyText int negNum) {p : Piece}
    (hp : p.Valid int negNum z) {rest : List Str} {ts} (hr : classify negNum (cmdMap z int) rest = .ok ts) :
    classify negNum (cmdMap z int) (p.strings ++ rest) = .ok (pieceToks int p ++ ts) := by
  have hne : ∀ {s : Str}, s.head? ≠ some '-' → s ≠ dd := by rintro s h rfl; exact h rfl
  cases p with
  | word s => exact classify_cons (hne hp) (parse_word hp) hr
  | value o a v n =>
    obtain ⟨hv, ho, ha⟩ := hp
    have ho : o = 'N' ∨ o = 'c' ∨ o = 'o' := by tauto
    have hv0 : v ≠ [] := by rintro rfl; rw [T.empty] at hv; exact absurd hv (by simp)
    have hve : '=' ∉ v := fun h => by rw [T.eq v h] at hv; exact absurd hv (by simp)
    have hod : ∀ t : Str, '-' :: o :: t ≠ dd := by
      intro t h
      simp only [dd, List.cons.injEq, true_and] at h
      rcases ho with rfl | rfl | rfl <;> exact absurd h.1 (by decide)
    cases a with
    | apart =>
      refine classify_cons (hod []) (parse_letter z int negNum ho) (classify_cons ?_ ?_ hr)
      · rcases ha with h | h
        · exact hne h
        · obtain ⟨-, c, t, rfl, hc, -⟩ := T.neg v h
          intro h
          simp only [dd, List.cons.injEq, true_and] at h
          exact hc h.1
      · rcases ha with h | h
        · exact parse_word h
        · exact parse_neg z int T h
    | joined => exact classify_cons (hod _) (parse_joined z int negNum ho hv0 hve) hr
    | equals => exact classify_cons (hod _) (parse_equals z int negNum ho v) hr
  | bareC => exact classify_cons (by decide) (parse_letter z int negNum (.inr (.inl rfl))) hr
  | r => exact classify_cons (by decide) (by cases z <;> rfl) hr
  | acheat k =>
    refine classify_cons ?_ (parse_acheat z int negNum hp) hr
    intro h
    have := congrArg List.length h
    have hk : 3 ≤ k := hp
    simp only [List.length_take, dd, List.length_cons, List.length_nil] at this
    omega
  | z1cheat k =>
    obtain ⟨rfl, hk⟩ := hp
    refine classify_cons ?_ (parse_z1cheat int negNum hk) hr
    intro h
    have := congrArg List.length h
    simp only [List.length_take, dd, List.length_cons, List.length_nil] at this
    omega

theorem classify_pieces (z : Bool) {int : Str → Option ℤ} {negNum : Str → Bool} (T : PyText int negNum) (l : List Piece)
    (hl : ∀ p ∈ l, p.Valid int negNum z) :
    classify negNum (cmdMap z int) (l.flatMap Piece.strings) = .ok (l.flatMap (pieceToks int)) := by
  induction l with
  | nil => rfl
  | cons p l ih =>
    rw [List.flatMap_cons, List.flatMap_cons]
    exact classify_piece z T (hl p (by simp)) (ih fun q hq => hl q (by simp [hq]))

/-! ## The main loop -/

/-- what an option piece does to the namespace -/
def setPiece : Piece → Namespace → Namespace
  | .word _, ns => ns
  | .value o _ _ n, ns => if o = 'N' then { ns with N := n } else if o = 'c' then { ns with c := some n } else { ns with o := n }
  | .bareC, ns => { ns with c := some 128 }
  | .r, ns => { ns with r := true }
  | .acheat _, ns => { ns with acheat := true }
  | .z1cheat _, ns => { ns with z1cheat := true }

theorem optFor_act {int : Str → Option ℤ} {o : Char} {v : Str} {n : ℤ} (hv : int v = some n)
    (ho : o = 'N' ∨ o = 'c' ∨ o = 'o' ∧ (n = 2 ∨ n = 4)) (a : Attach) (ns : Namespace) :
    (optFor int o).act [v] ns = .ok (setPiece (.value o a v n) ns) := by
  rcases ho with rfl | rfl | ⟨rfl, h⟩
  · simp [optFor, optN, intAct, hv, setPiece]
  · simp [optFor, optC, intAct, hv, setPiece]
  · simp [optFor, optO, intAct, hv, setPiece, h]

theorem optFor_nargs {int : Str → Option ℤ} (o : Char) : (optFor int o).nargs ≠ .zero := by
  unfold optFor
  split_ifs <;> simp [optN, optC, optO]

theorem bundleNext_some {int : Str → Option ℤ} (o : Char) (s : Str) :
    bundleNext (some s) (optFor int o) = .ok ⟨[(optFor int o, [s])], false, true⟩ := by
  unfold optFor
  split_ifs <;> rfl

theorem bundleExplicit_one {m : List (Str × OptAction Namespace)} {next : Option Str} {int : Str → Option ℤ} (o : Char) (name : Str)
    (eq : Bool) (e : Str) : bundleExplicit m next (optFor int o) name eq e = .ok ⟨[(optFor int o, [e])], false, false⟩ := by
  unfold optFor
  split_ifs <;> cases e <;> simp [bundleExplicit, optN, optC, optO]

/-- an option piece at the head of the tokens -/
theorem consume_piece {z : Bool} {int : Str → Option ℤ} {negNum : Str → Bool} {m} {p : Piece} (hp : p.Valid int negNum z)
    (hw : p.word? = none) {rest : List (Tok Namespace × Str)} (hn : (∃ n, p = .bareC ∧ n = nextArg rest) → nextArg rest = none)
    (ns : Namespace) :
    ∃ f s rest0, pieceToks int p ++ rest = (.opt f, s) :: rest0 ∧ consumeOptional m f rest0 ns = .ok (setPiece p ns, false, rest) := by
  cases p with
  | word s => simp [Piece.word?] at hw
  | value o a v n =>
    obtain ⟨hv, ho, ha⟩ := hp
    have hact := fun a => optFor_act hv ho a ns
    cases a with
    | apart =>
      refine ⟨_, _, (.arg, v) :: rest, rfl, ?_⟩
      simp only [consumeOptional, bundle, nextArg]
      rw [bundleNext_some]
      show (takeAll [(optFor int o, [v])] ns >>= _) = _
      simp only [takeAll, List.foldlM_cons, List.foldlM_nil]
      rw [hact .apart]
      rfl
    | joined =>
      refine ⟨_, _, _, rfl, ?_⟩
      simp only [consumeOptional, bundle]
      rw [bundleExplicit_one]
      show (takeAll [(optFor int o, [v])] ns >>= _) = _
      simp only [takeAll, List.foldlM_cons, List.foldlM_nil]
      rw [hact .joined]
      rfl
    | equals =>
      refine ⟨_, _, _, rfl, ?_⟩
      simp only [consumeOptional, bundle]
      rw [bundleExplicit_one]
      show (takeAll [(optFor int o, [v])] ns >>= _) = _
      simp only [takeAll, List.foldlM_cons, List.foldlM_nil]
      rw [hact .equals]
      rfl
  | bareC =>
    refine ⟨_, _, rest, rfl, ?_⟩
    have := hn ⟨_, rfl, rfl⟩
    simp only [consumeOptional, bundle, this]
    rfl
  | r => exact ⟨_, _, _, rfl, rfl⟩
  | acheat k => exact ⟨_, _, _, rfl, rfl⟩
  | z1cheat k => exact ⟨_, _, _, rfl, rfl⟩

theorem pieceToks_opt {int : Str → Option ℤ} {p : Piece} (hw : p.word? = none) (rest : List (Tok Namespace × Str)) :
    ((pieceToks int p ++ rest).any isOpt) = true ∧ nextArg (pieceToks int p ++ rest) = none ∧
      1 ≤ (pieceToks int p).length := by
  cases p with
  | word s => simp [Piece.word?] at hw
  | value o a v n => cases a <;> simp [pieceToks, isOpt, nextArg]
  | _ => simp [pieceToks, isOpt, nextArg]

theorem pieceToks_noDash {int : Str → Option ℤ} (p : Piece) (rest : List (Tok Namespace × Str)) :
    (pieceToks int p ++ rest).dropWhile isDashes = pieceToks int p ++ rest ∧
    (pieceToks int p ++ rest).takeWhile isDashes = [] := by
  cases p with
  | value o a v n => cases a <;> simp [pieceToks, isDashes]
  | _ => simp [pieceToks, isDashes]

/-- what the words do: the first is the problem, the second the boundary -/
def setWord : ℕ → Str → Namespace → Namespace
  | 2, s, ns => { ns with problem := some (.one s) }
  | _, s, ns => { ns with boundary := .one s }

/-- all pieces in turn; `w` words are still expected -/
def setAll : ℕ → List Piece → Namespace → Namespace
  | _, [], ns => ns
  | w, .word s :: l, ns => setAll (w - 1) l (setWord w s ns)
  | w, p :: l, ns => setAll w l (setPiece p ns)

/-- the positionals still expected -/
def posOf : ℕ → List (List Str → Namespace → Except Exit Namespace)
  | 0 => []
  | 1 => [posB]
  | _ => [posP, posB]

/-- the words expected are names -/
def WordsOk : ℕ → List Str → Prop
  | 0, l => l = []
  | 1, l => ∃ b, l = [b] ∧ b ∈ boundaryNames.map String.toList
  | _, l => ∃ p b, l = [p, b] ∧ p ∈ problemNames.map String.toList ∧ b ∈ boundaryNames.map String.toList

theorem posAct_one {choices : List String} {set : PVal → Namespace → Namespace} {s : Str} (hs : s ≠ dd)
    (hc : s ∈ choices.map String.toList) (ns : Namespace) : positionalAct choices set [s] ns = .ok (set (.one s) ns) := by
  have : [s].erase dd = [s] := by
    rw [List.erase_of_not_mem]
    simpa using Ne.symm hs
  simp only [positionalAct, this, if_pos hc]

theorem dropWhile_toks {int : Str → Option ℤ} (l : List Piece) :
    (l.flatMap (pieceToks int)).dropWhile isDashes = l.flatMap (pieceToks int) ∧
    (l.flatMap (pieceToks int)).takeWhile isDashes = [] := by
  cases l with
  | nil => exact ⟨rfl, rfl⟩
  | cons p l => rw [List.flatMap_cons]; exact pieceToks_noDash p _

theorem matchOne_word {int : Str → Option ℤ} (s : Str) (l : List Piece) :
    matchOne ((.arg, s) :: l.flatMap (pieceToks int)) = some ([s], l.flatMap (pieceToks int)) := by
  have h := dropWhile_toks (int := int) l
  simp [matchOne, isDashes, h.1, h.2]

theorem matchOne_opt {int : Str → Option ℤ} {p : Piece} (hw : p.word? = none) (rest : List (Tok Namespace × Str)) :
    matchOne (pieceToks int p ++ rest) = none := by
  have h := pieceToks_noDash (int := int) p rest
  have h2 := (pieceToks_opt (int := int) hw rest).2.1
  unfold matchOne
  rw [h.1]
  split
  · rename_i s r heq
    rw [heq] at h2
    simp [nextArg] at h2
  · rfl

/-- the first positional still expected, on the word `s` -/
theorem consume_word {int : Str → Option ℤ} {w : ℕ} (hw : w = 1 ∨ w = 2) {s : Str} {l : List Piece} (hs : s.head? ≠ some '-')
    (hok : WordsOk w (s :: l.filterMap Piece.word?)) (ns : Namespace) :
    WordsOk (w - 1) (l.filterMap Piece.word?) ∧
    consumePositionals (posOf w) ((.arg, s) :: l.flatMap (pieceToks int)) ns =
      consumePositionals (posOf (w - 1)) (l.flatMap (pieceToks int)) (setWord w s ns) := by
  have hdd : s ≠ dd := by rintro rfl; exact hs rfl
  rcases hw with rfl | rfl
  · obtain ⟨b, hb, hbm⟩ := hok
    simp only [List.cons.injEq] at hb
    obtain ⟨rfl, hb⟩ := hb
    refine ⟨hb, ?_⟩
    simp only [posOf, consumePositionals, matchOne_word, posB]
    rw [posAct_one hdd hbm]
    rfl
  · obtain ⟨p, b, hb, hpm, hbm⟩ := hok
    simp only [List.cons.injEq] at hb
    obtain ⟨rfl, hb⟩ := hb
    refine ⟨⟨b, hb, hbm⟩, ?_⟩
    simp only [posOf]
    rw [consumePositionals]
    simp only [matchOne_word, posP]
    rw [posAct_one hdd hpm]
    rfl

theorem consume_stop {int : Str → Option ℤ} {w : ℕ} {l : List Piece} (hl : ∀ p ∈ l.head?, p.word? = none) (ns : Namespace) :
    consumePositionals (posOf w) (l.flatMap (pieceToks int)) ns = .ok (posOf w, l.flatMap (pieceToks int), ns) := by
  have hm : ∀ ps : List (List Str → Namespace → Except Exit Namespace),
      consumePositionals ps (l.flatMap (pieceToks int)) ns = .ok (ps, l.flatMap (pieceToks int), ns) := by
    intro ps
    cases ps with
    | nil => rfl
    | cons q qs =>
      have : matchOne (l.flatMap (pieceToks int)) = none := by
        cases l with
        | nil => rfl
        | cons p l => rw [List.flatMap_cons]; exact matchOne_opt (hl p (by simp)) _
      simp only [consumePositionals, this]
  exact hm _

/-- all words at the head of the pieces -/
theorem consume_words {int : Str → Option ℤ} : ∀ (l : List Piece) (w : ℕ) (ns : Namespace), w ≤ 2 →
    (∀ p ∈ l, ∀ s, p = .word s → s.head? ≠ some '-') → WordsOk w (l.filterMap Piece.word?) →
    ∃ l' w' ns', w' ≤ 2 ∧ l' <:+ l ∧ (∀ p ∈ l'.head?, p.word? = none) ∧ WordsOk w' (l'.filterMap Piece.word?) ∧
      ((∃ p ∈ l.head?, p.word?.isSome) → l'.length < l.length) ∧ setAll w l ns = setAll w' l' ns' ∧
      (l' = [] → w' = 0) ∧
      consumePositionals (posOf w) (l.flatMap (pieceToks int)) ns = .ok (posOf w', l'.flatMap (pieceToks int), ns') := by
  intro l
  induction l with
  | nil =>
    intro w ns hw2 _ hok
    refine ⟨[], w, ns, hw2, List.suffix_refl _, by simp, hok, by simp, rfl, fun _ => ?_, consume_stop (by simp) ns⟩
    match w, hok with
    | 0, _ => rfl
    | 1, ⟨b, hb, _⟩ => simp at hb
    | (k + 2), ⟨p, b, hb, _⟩ => simp at hb
  | cons p l ih =>
    intro w ns hw2 hs hok
    by_cases hp : p.word? = none
    · exact ⟨p :: l, w, ns, hw2, List.suffix_refl _, by simpa using hp, hok, by simp [hp], rfl, by simp, consume_stop (by simpa using hp) ns⟩
    · obtain ⟨s, rfl⟩ : ∃ s, p = .word s := by
        cases p <;> simp [Piece.word?] at hp ⊢
      have hf : ((Piece.word s :: l).filterMap Piece.word?) = s :: l.filterMap Piece.word? := rfl
      rw [hf] at hok
      have hw : w = 1 ∨ w = 2 := by
        match w, hok with
        | 0, h => simp [WordsOk] at h
        | 1, _ => exact .inl rfl
        | 2, _ => exact .inr rfl
        | (k + 3), _ => omega
      obtain ⟨h1, h2⟩ := consume_word (int := int) hw (hs _ (by simp) s rfl) hok ns
      obtain ⟨l', w', ns', a1, a2, a3, a4, a5, a6, a7, a8⟩ := ih (w - 1) (setWord w s ns) (by omega)
        (fun p hp => hs p (by simp [hp])) h1
      refine ⟨l', w', ns', a1, a2.trans (List.suffix_cons _ _), a3, a4, fun _ => ?_, a6, a7, ?_⟩
      · have := a2.length_le
        simp only [List.length_cons]
        omega
      · rw [List.flatMap_cons]
        exact h2.trans a8

theorem noSwallow_tail {p : Piece} {l : List Piece} (h : NoSwallow (p :: l)) : NoSwallow l := by
  cases p with
  | bareC =>
    cases l with
    | nil => trivial
    | cons q l => cases q <;> first | exact h | exact False.elim h
  | _ => exact h

theorem noSwallow_suffix : ∀ {l l' : List Piece}, l' <:+ l → NoSwallow l → NoSwallow l' := by
  intro l
  induction l with
  | nil => intro l' h1 h2; rw [List.suffix_nil] at h1; subst h1; exact h2
  | cons p l ih =>
    intro l' h1 h2
    rcases List.suffix_cons_iff.1 h1 with rfl | h
    · exact h2
    · exact ih h (noSwallow_tail h2)

theorem toks_length_le {int : Str → Option ℤ} {l l' : List Piece} (h : l' <:+ l) :
    (l'.flatMap (pieceToks int)).length + (l.length - l'.length) ≤ (l.flatMap (pieceToks int)).length := by
  obtain ⟨t, rfl⟩ := h
  have h1 : ∀ t : List Piece, t.length ≤ (t.flatMap (pieceToks int)).length := by
    intro t
    induction t with
    | nil => simp
    | cons p t ih =>
      have : 1 ≤ (pieceToks int p).length := by
        cases p with
        | value o a v n => cases a <;> simp [pieceToks]
        | _ => simp [pieceToks]
      simp only [List.flatMap_cons, List.length_append, List.length_cons]
      omega
  have := h1 t
  simp only [List.flatMap_append, List.length_append]
  omega

theorem loop_pieces {z : Bool} {int : Str → Option ℤ} {negNum : Str → Bool} {m} : ∀ (k : ℕ) (l : List Piece) (w : ℕ) (ns : Namespace)
    (fuel : ℕ), l.length ≤ k → (l.flatMap (pieceToks int)).length ≤ fuel → w ≤ 2 → (∀ p ∈ l, p.Valid int negNum z) → NoSwallow l →
    WordsOk w (l.filterMap Piece.word?) →
    parseLoop m fuel (posOf w) (l.flatMap (pieceToks int)) ns false = .ok (setAll w l ns) := by
  intro k
  induction k with
  | zero =>
    intro l w ns fuel hk hf hw hv hs hok
    have : l = [] := by simpa using hk
    subst this
    obtain ⟨l', w', ns', a1, a2, a3, a4, a5, a6, a7, a8⟩ := consume_words (int := int) [] w ns hw (by simp) hok
    have hl' : l' = [] := by simpa using a2
    subst hl'
    have hw' := a7 rfl
    subst hw'
    have hfin : finish (posOf w) [] ns false = .ok (setAll w [] ns) := by
      have a8' : consumePositionals (posOf w) [] ns = .ok (posOf 0, [], ns') := a8
      simp only [finish, a8']
      rw [a6]
      rfl
    cases fuel with
    | zero => exact hfin
    | succ f => simpa [parseLoop] using hfin
  | succ k ih =>
    intro l w ns fuel hk hf hw hv hs hok
    have hwd : ∀ p ∈ l, ∀ s, p = .word s → s.head? ≠ some '-' := by
      rintro p hp s rfl
      exact hv _ hp
    cases l with
    | nil => exact ih [] w ns fuel (by simp) hf hw hv hs hok
    | cons p l =>
      by_cases hany : ((p :: l).flatMap (pieceToks int)).any isOpt = true
      · -- some option is left
        obtain ⟨fuel, rfl⟩ : ∃ f, fuel = f + 1 := by
          refine ⟨fuel - 1, ?_⟩
          have := toks_length_le (int := int) (List.nil_suffix (l := p :: l))
          simp only [List.flatMap_nil, List.length_nil, List.length_cons] at this
          omega
        by_cases hp : p.word? = none
        · have hn : (∃ n, p = .bareC ∧ n = nextArg (l.flatMap (pieceToks int))) → nextArg (l.flatMap (pieceToks int)) = none := by
            rintro ⟨-, rfl, -⟩
            cases l with
            | nil => rfl
            | cons q l =>
              have hq : q.word? = none := by cases q <;> first | rfl | exact False.elim hs
              rw [List.flatMap_cons]
              exact (pieceToks_opt hq _).2.1
          obtain ⟨f, s, rest0, h1, h2⟩ := consume_piece (m := m) (hv p (by simp)) hp hn ns
          have hl := toks_length_le (int := int) (List.suffix_cons p l)
          have hset : setAll w (p :: l) ns = setAll w l (setPiece p ns) := by
            cases p <;> first | rfl | exact absurd hp (by simp [Piece.word?])
          rw [hset]
          rw [parseLoop, if_pos hany]
          rw [List.flatMap_cons] at hf ⊢
          rw [h1]
          simp only [headOpt]
          rw [h2]
          simp only [List.length_cons] at hl
          have := ih l w (setPiece p ns) fuel (by simpa using hk) (by rw [List.flatMap_cons] at hl; omega) hw (fun q hq => hv q (by simp [hq])) (noSwallow_tail hs) (by
            have : (p :: l).filterMap Piece.word? = l.filterMap Piece.word? := by simp [hp]
            rwa [this] at hok)
          exact this
        · obtain ⟨l', w', ns', a1, a2, a3, a4, a5, a6, a7, a8⟩ := consume_words (int := int) (p :: l) w ns hw hwd hok
          have hlt := a5 ⟨p, by simp, by rw [Option.isSome_iff_ne_none]; exact hp⟩
          have hlen := toks_length_le (int := int) a2
          rw [parseLoop, if_pos hany]
          obtain ⟨s, rfl⟩ : ∃ s, p = .word s := by
            cases p <;> simp [Piece.word?] at hp ⊢
          have hhead : (Piece.word s :: l).flatMap (pieceToks int) = (.arg, s) :: l.flatMap (pieceToks int) := rfl
          rw [hhead] at a8 hlen hf ⊢
          simp only [headOpt]
          rw [a8]
          show (if (l'.flatMap (pieceToks int)).length < _ then _ else _ : Except Exit Namespace) = _
          rw [if_pos (by omega), a6]
          refine ih l' w' ns' fuel (by omega) (by omega) a1 (fun q hq => hv q (a2.subset hq)) (noSwallow_suffix a2 hs) a4
      · -- only words are left
        obtain ⟨l', w', ns', a1, a2, a3, a4, a5, a6, a7, a8⟩ := consume_words (int := int) (p :: l) w ns hw hwd hok
        have hl' : l' = [] := by
          cases l' with
          | nil => rfl
          | cons q l' =>
            refine absurd ?_ hany
            have hq : q.word? = none := a3 q (by simp)
            obtain ⟨t, ht⟩ := a2
            rw [← ht, List.flatMap_append, List.any_append, List.flatMap_cons, (pieceToks_opt hq _).1, Bool.or_true]
        subst hl'
        have hw' := a7 rfl
        subst hw'
        have hfin : finish (posOf w) ((p :: l).flatMap (pieceToks int)) ns false = .ok (setAll w (p :: l) ns) := by
          simp only [finish, a8]
          rw [a6]
          rfl
        cases fuel with
        | zero => exact hfin
        | succ f => rw [parseLoop, if_neg hany]; exact hfin

end Pot
