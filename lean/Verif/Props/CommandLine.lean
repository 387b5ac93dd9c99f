import Verif.Model.Command
import Verif.Proofs.CommandBad
import Verif.Props.MainZ

/-!
# Property C93: the command line

`run.py` and `runz.py` from the strings on the command line on.  `z` is true for `runz.py`.
-/

namespace Pot
open Real Spec
open scoped List

/-! ## The fields of the namespace -/

theorem lastNum_cons (o : Char) (p : Piece) (l : List Piece) (d : Option ℤ) :
    (lastNum o (p :: l)).or d = (lastNum o l).or ((p.num? o).or d) := by
  unfold lastNum
  rw [List.filterMap_cons]
  cases h : p.num? o with
  | none => simp
  | some n =>
    cases h2 : l.filterMap (Piece.num? o) with
    | nil => simp
    | cons a t =>
      obtain ⟨y, hy⟩ : ∃ y, (a :: t).getLast? = some y := ⟨_, List.getLast?_eq_some_getLast (by simp)⟩
      simp only [List.getLast?_cons_cons, hy, Option.some_or]

theorem setAll_fields {int : Str → Option ℤ} {negNum : Str → Bool} {z : Bool} : ∀ (l : List Piece) (w : ℕ) (ns : Namespace),
    (∀ p ∈ l, p.Valid int negNum z) →
    some (setAll w l ns).N = (lastNum 'N' l).or (some ns.N) ∧ (setAll w l ns).c = (lastNum 'c' l).or ns.c ∧
    some (setAll w l ns).o = (lastNum 'o' l).or (some ns.o) ∧ ((setAll w l ns).r = true ↔ ns.r = true ∨ .r ∈ l) ∧
    ((setAll w l ns).acheat = true ↔ ns.acheat = true ∨ ∃ k, .acheat k ∈ l) ∧
    ((setAll w l ns).z1cheat = true ↔ ns.z1cheat = true ∨ ∃ k, .z1cheat k ∈ l) := by
  intro l
  induction l with
  | nil => intro w ns _; simp [setAll, lastNum]
  | cons p l ih =>
    intro w ns hv
    have hv' : ∀ q ∈ l, q.Valid int negNum z := fun q hq => hv q (by simp [hq])
    have hp := hv p (by simp)
    simp only [lastNum_cons]
    cases p with
    | word s =>
      obtain ⟨a1, a2, a3, a4, a5, a6⟩ := ih (w - 1) (setWord w s ns) hv'
      have hw : (setWord w s ns).N = ns.N ∧ (setWord w s ns).c = ns.c ∧ (setWord w s ns).o = ns.o ∧ (setWord w s ns).r = ns.r ∧
          (setWord w s ns).acheat = ns.acheat ∧ (setWord w s ns).z1cheat = ns.z1cheat := by
        unfold setWord; split <;> exact ⟨rfl, rfl, rfl, rfl, rfl, rfl⟩
      obtain ⟨b1, b2, b3, b4, b5, b6⟩ := hw
      rw [b1] at a1; rw [b2] at a2; rw [b3] at a3; rw [b4] at a4; rw [b5] at a5; rw [b6] at a6
      simp only [setAll, Piece.num?, Option.none_or]
      refine ⟨a1, a2, a3, ?_, ?_, ?_⟩ <;> simp [a4, a5, a6]
    | value o a v n =>
      obtain ⟨a1, a2, a3, a4, a5, a6⟩ := ih w (setPiece (.value o a v n) ns) hv'
      have hset : setAll w (Piece.value o a v n :: l) ns = setAll w l (setPiece (.value o a v n) ns) := rfl
      rw [hset]
      obtain ⟨-, ho, -⟩ := hp
      have ho : o = 'N' ∨ o = 'c' ∨ o = 'o' := by tauto
      rcases ho with rfl | rfl | rfl
      · exact ⟨a1, a2, a3, by rw [a4]; simp [setPiece], by rw [a5]; simp [setPiece], by rw [a6]; simp [setPiece]⟩
      · exact ⟨a1, a2, a3, by rw [a4]; simp [setPiece], by rw [a5]; simp [setPiece], by rw [a6]; simp [setPiece]⟩
      · exact ⟨a1, a2, a3, by rw [a4]; simp [setPiece], by rw [a5]; simp [setPiece], by rw [a6]; simp [setPiece]⟩
    | bareC =>
      obtain ⟨a1, a2, a3, a4, a5, a6⟩ := ih w (setPiece .bareC ns) hv'
      have hset : setAll w (Piece.bareC :: l) ns = setAll w l (setPiece .bareC ns) := rfl
      rw [hset]
      exact ⟨a1, a2, a3, by rw [a4]; simp [setPiece], by rw [a5]; simp [setPiece], by rw [a6]; simp [setPiece]⟩
    | r =>
      obtain ⟨a1, a2, a3, a4, a5, a6⟩ := ih w (setPiece .r ns) hv'
      have hset : setAll w (Piece.r :: l) ns = setAll w l (setPiece .r ns) := rfl
      rw [hset]
      exact ⟨a1, a2, a3, by rw [a4]; simp [setPiece], by rw [a5]; simp [setPiece], by rw [a6]; simp [setPiece]⟩
    | acheat k =>
      obtain ⟨a1, a2, a3, a4, a5, a6⟩ := ih w (setPiece (.acheat k) ns) hv'
      have hset : setAll w (Piece.acheat k :: l) ns = setAll w l (setPiece (.acheat k) ns) := rfl
      rw [hset]
      refine ⟨a1, a2, a3, by rw [a4]; simp [setPiece], ?_, by rw [a6]; simp [setPiece]⟩
      rw [a5]
      simp only [setPiece, true_or, true_iff]
      exact .inr ⟨k, by simp⟩
    | z1cheat k =>
      obtain ⟨a1, a2, a3, a4, a5, a6⟩ := ih w (setPiece (.z1cheat k) ns) hv'
      have hset : setAll w (Piece.z1cheat k :: l) ns = setAll w l (setPiece (.z1cheat k) ns) := rfl
      rw [hset]
      refine ⟨a1, a2, a3, by rw [a4]; simp [setPiece], by rw [a5]; simp [setPiece], ?_⟩
      rw [a6]
      simp only [setPiece, true_or, true_iff]
      exact .inr ⟨k, by simp⟩

theorem setPiece_words (p : Piece) (ns : Namespace) : (setPiece p ns).problem = ns.problem ∧ (setPiece p ns).boundary = ns.boundary := by
  cases p with
  | value o a v n => simp only [setPiece]; split_ifs <;> exact ⟨rfl, rfl⟩
  | _ => exact ⟨rfl, rfl⟩

theorem setAll_opt {w : ℕ} {p : Piece} (hp : p.word? = none) (l : List Piece) (ns : Namespace) :
    setAll w (p :: l) ns = setAll w l (setPiece p ns) := by
  cases p <;> first | rfl | simp [Piece.word?] at hp

theorem setAll_words : ∀ (l : List Piece) (w : ℕ) (ns : Namespace),
    (w = 0 → l.filterMap Piece.word? = [] → (setAll w l ns).problem = ns.problem ∧ (setAll w l ns).boundary = ns.boundary) ∧
    (∀ b, w = 1 → l.filterMap Piece.word? = [b] → (setAll w l ns).problem = ns.problem ∧ (setAll w l ns).boundary = .one b) ∧
    ∀ p b, w = 2 → l.filterMap Piece.word? = [p, b] → (setAll w l ns).problem = some (.one p) ∧ (setAll w l ns).boundary = .one b := by
  intro l
  induction l with
  | nil => intro w ns; exact ⟨fun _ _ => ⟨rfl, rfl⟩, fun b _ h => by simp at h, fun p b _ h => by simp at h⟩
  | cons q l ih =>
    intro w ns
    by_cases hq : q.word? = none
    · rw [setAll_opt hq, List.filterMap_cons_none hq]
      obtain ⟨h1, h2⟩ := setPiece_words q ns
      obtain ⟨a1, a2, a3⟩ := ih w (setPiece q ns)
      rw [h1, h2] at a1
      rw [h1] at a2
      exact ⟨a1, a2, a3⟩
    · obtain ⟨s, rfl⟩ : ∃ s, q = .word s := by cases q <;> simp [Piece.word?] at hq ⊢
      have hf : (Piece.word s :: l).filterMap Piece.word? = s :: l.filterMap Piece.word? := rfl
      have hs : setAll w (Piece.word s :: l) ns = setAll (w - 1) l (setWord w s ns) := rfl
      rw [hf, hs]
      obtain ⟨a1, a2, a3⟩ := ih (w - 1) (setWord w s ns)
      refine ⟨fun _ h => by simp at h, ?_, ?_⟩
      · rintro b rfl h
        simp only [List.cons.injEq] at h
        obtain ⟨rfl, h⟩ := h
        exact a1 rfl h
      · rintro p b rfl h
        simp only [List.cons.injEq] at h
        obtain ⟨rfl, h⟩ := h
        exact a2 b rfl h

/-! ## Command lines as the usage message allows them -/

/-- **C93** Any sequence of valid pieces with exactly two words, the name of a problem and the name of a boundary, is accepted, if no
`-c` without number stands directly before a word.  The options count wherever they stand, each with the number given last; without
one, `N` is 16, the order 4, and there is no bound for the grids. -/
theorem C93_line {int : Str → Option ℤ} {negNum : Str → Bool} (T : PyText int negNum) (z : Bool) {l : List Piece}
    (hv : ∀ p ∈ l, p.Valid int negNum z) (hs : NoSwallow l) {p b : String} (hw : l.filterMap Piece.word? = [p.toList, b.toList])
    (hp : p ∈ problemNames) (hb : b ∈ boundaryNames) :
    ∃ ns, parseArgs negNum (cmdParser z int) {} (l.flatMap Piece.strings) = .ok ns ∧
      ns.problem = some (.one p.toList) ∧ ns.boundary = .one b.toList ∧ ns.N = (lastNum 'N' l).getD 16 ∧ ns.c = lastNum 'c' l ∧
      ns.o = (lastNum 'o' l).getD 4 ∧ (ns.r = true ↔ .r ∈ l) ∧ (ns.acheat = true ↔ ∃ k, .acheat k ∈ l) ∧
      (ns.z1cheat = true ↔ ∃ k, .z1cheat k ∈ l) := by
  have hok : WordsOk 2 (l.filterMap Piece.word?) := ⟨_, _, hw, List.mem_map_of_mem hp, List.mem_map_of_mem hb⟩
  have hparse : parseArgs negNum (cmdParser z int) {} (l.flatMap Piece.strings) = .ok (setAll 2 l {}) := by
    unfold parseArgs
    rw [cmdParser_map, cmdParser_pos, classify_pieces z T l hv]
    exact loop_pieces (m := cmdMap z int) l.length l 2 {} _ le_rfl le_rfl le_rfl hv hs hok
  obtain ⟨a1, a2, a3, a4, a5, a6⟩ := setAll_fields l 2 {} hv
  obtain ⟨-, -, b3⟩ := setAll_words l 2 {}
  obtain ⟨b1, b2⟩ := b3 _ _ rfl hw
  refine ⟨_, hparse, b1, b2, ?_, by simpa using a2, ?_, by simpa using a4, by simpa using a5, by simpa using a6⟩
  · cases h : lastNum 'N' l with
    | none => rw [h] at a1; simpa using a1
    | some n => rw [h] at a1; simpa using a1
  · cases h : lastNum 'o' l with
    | none => rw [h] at a3; simpa using a3
    | some n => rw [h] at a3; simpa using a3

/-! ## Arbitrary command lines -/

/-- **C93** What an accepted command line guarantees: the order is 2 or 4; problem and boundary are names from the lists of choices, or
lists of such names, and stand in this order on the command line.  They are names unless `--` stands on the command line. -/
theorem C93_accepted {int : Str → Option ℤ} {negNum : Str → Bool} {z : Bool} {argv : List Str} {ns : Namespace}
    (h : parseArgs negNum (cmdParser z int) {} argv = .ok ns) :
    (ns.o = 2 ∨ ns.o = 4) ∧ ∃ v, ns.problem = some v ∧ (∀ s ∈ v.strs, s ∈ problemNames.map String.toList) ∧
      (∀ s ∈ ns.boundary.strs, s ∈ boundaryNames.map String.toList) ∧ (v.strs ++ ns.boundary.strs) <+ argv ∧
      (['-', '-'] ∉ argv → (∃ p, v = .one p) ∧ ∃ b, ns.boundary = .one b) := by
  unfold parseArgs at h
  rw [cmdParser_map, cmdParser_pos] at h
  cases hc : classify negNum (cmdMap z int) argv with
  | error e => rw [hc] at h; exact absurd h (by simp [bind, Except.bind])
  | ok toks =>
    rw [hc] at h
    obtain ⟨c1, c2, c3⟩ := classify_ok keeps_map argv toks hc
    obtain ⟨ho, v, h1, h2, h3, h4, h5⟩ := parseLoop_ok (m := cmdMap z int) keeps_map toks.length 2 toks {} ns false le_rfl c2 h
    rw [c1] at h4
    exact ⟨ho (.inr rfl), v, h1, h2, h3, h4, fun hd => h5 (c3 hd)⟩

/-- **C93** The default `'arc'` of the positional `boundary` (io_util.py:18) is never used: without `--`, an accepted command line
has at least two strings, and the boundary is one of them. -/
theorem C93_no_default {int : Str → Option ℤ} {negNum : Str → Bool} {z : Bool} {argv : List Str} {ns : Namespace}
    (h : parseArgs negNum (cmdParser z int) {} argv = .ok ns) (hd : ['-', '-'] ∉ argv) :
    ∃ p b, ns.problem = some (.one p) ∧ ns.boundary = .one b ∧ [p, b] <+ argv := by
  obtain ⟨-, v, h1, -, -, h4, h5⟩ := C93_accepted h
  obtain ⟨⟨p, rfl⟩, b, hb⟩ := h5 hd
  refine ⟨p, b, h1, hb, ?_⟩
  rw [hb] at h4
  exact h4

theorem classify_append {negNum : Str → Bool} {m : List (Str × OptAction Namespace)} : ∀ (pre : List Str) (rest : List Str) toks, dd ∉ pre →
    classify negNum m (pre ++ rest) = .ok toks →
    ∃ t1 t2, toks = t1 ++ t2 ∧ classify negNum m rest = .ok t2 := by
  intro pre
  induction pre with
  | nil => intro rest toks _ h; exact ⟨[], toks, rfl, h⟩
  | cons s pre ih =>
    intro rest toks hd h
    simp only [List.mem_cons, not_or] at hd
    rw [List.cons_append, classify, if_neg (Ne.symm hd.1)] at h
    cases hp : parseOptional negNum m s with
    | error e => rw [hp] at h; exact absurd h (by simp [bind, Except.bind])
    | ok t =>
      cases hc : classify negNum m (pre ++ rest) with
      | error e => rw [hp, hc] at h; exact absurd h (by simp [bind, Except.bind])
      | ok ts =>
        rw [hp, hc] at h
        have h : (Except.ok ((t, s) :: ts) : Except Exit _) = .ok toks := h
        simp only [Except.ok.injEq] at h
        subst h
        obtain ⟨t1, t2, rfl, h2⟩ := ih rest ts hd.2 hc
        exact ⟨(t, s) :: t1, t2, rfl, h2⟩

/-- **C93** Command lines that are not accepted, whatever stands before the strings described in `Bad` (without `--`) and after: an unknown
option, a flag with a value, `-N` or `-o` without a value, a value that is no number, or an order other than 2 and 4. -/
theorem C93_rejected {int : Str → Option ℤ} {negNum : Str → Bool} (T : PyText int negNum) (z : Bool) {pre argv : List Str}
    (hd : ['-', '-'] ∉ pre) (hb : Bad int negNum argv) (ns : Namespace) : parseArgs negNum (cmdParser z int) {} (pre ++ argv) ≠ .ok ns := by
  intro h
  unfold parseArgs at h
  rw [cmdParser_map, cmdParser_pos] at h
  cases hc : classify negNum (cmdMap z int) (pre ++ argv) with
  | error e => rw [hc] at h; exact absurd h (by simp [bind, Except.bind])
  | ok toks =>
    rw [hc] at h
    have h : parseLoop (cmdMap z int) toks.length [posP, posB] toks {} false = .ok ns := h
    obtain ⟨-, hg, -⟩ := classify_ok keeps_map _ toks hc
    obtain ⟨t1, t2, rfl, h2⟩ := classify_append pre _ toks hd hc
    obtain ⟨f, s, tail, rfl, hf⟩ := bad_fails z T hb h2
    exact loop_reached (m := cmdMap z int) keeps_map hf _ [posP, posB] t1 {} false
      (by simp only [List.length_append, List.length_cons]; omega) hg ns h

/-- **C93** `-c` without a number directly before a word that is no number, as in `-c smooth-sine arc`: the word is taken for the number,
and the command line is not accepted, whatever stands before (without `--`) and after. -/
theorem C93_swallow {int : Str → Option ℤ} {negNum : Str → Bool} (T : PyText int negNum) (z : Bool) {pre post : List Str} {w : Str}
    (hd : ['-', '-'] ∉ pre) (hw : w.head? ≠ some '-') (hint : int w = none) (ns : Namespace) :
    parseArgs negNum (cmdParser z int) {} (pre ++ ['-', 'c'] :: w :: post) ≠ .ok ns :=
  C93_rejected T z hd (.apart 'c' (.inr (.inl rfl)) w hw post fun n hn => by rw [hint] at hn; simp at hn) ns

/-- **C93** `-h` or `--help` before valid pieces: the help, and nothing else, even if words are missing -/
theorem C93_help {int : Str → Option ℤ} {negNum : Str → Bool} (T : PyText int negNum) (z : Bool) {l : List Piece}
    (hv : ∀ p ∈ l, p.Valid int negNum z) {s : Str} (hs : s = ['-', 'h'] ∨ s = ['-', '-', 'h', 'e', 'l', 'p']) :
    parseArgs negNum (cmdParser z int) {} (s :: l.flatMap Piece.strings) = .error .help := by
  unfold parseArgs
  rw [cmdParser_map, cmdParser_pos]
  have hp : parseOptional negNum (cmdMap z int) s = .ok (.opt (some ⟨helpOpt, s, none⟩)) := by
    rcases hs with rfl | rfl <;> cases z <;> rfl
  have hdd : s ≠ dd := by rcases hs with rfl | rfl <;> decide
  rw [classify_cons hdd hp (classify_pieces z T l hv)]
  show parseLoop (cmdMap z int) ((l.flatMap (pieceToks int)).length + 1) [posP, posB]
    ((.opt (some ⟨helpOpt, s, none⟩), s) :: l.flatMap (pieceToks int)) {} false = _
  rw [parseLoop, if_pos (by simp [isOpt])]
  rfl

/-! ## The programs as a whole -/

theorem names_table : problemNames = problemTable.map Prod.fst ∧ ∀ b, b ∈ boundaryNames ↔ ∃ r, chooseBoundary b = .ok r := by
  refine ⟨rfl, fun b => ⟨fun h => ?_, ?_⟩⟩
  · simp only [boundaryNames, List.mem_cons, List.not_mem_nil, or_false] at h
    rcases h with rfl | rfl | rfl | rfl | rfl <;> exact ⟨_, rfl⟩
  · rintro ⟨r, h⟩
    rcases chooseBoundary_names h with rfl | rfl | rfl | rfl | rfl <;> simp [boundaryNames]

/-- what is left for the programs after an accepted command line -/
structure Accepted (argv : List String) (args : RunzArgs) : Prop where
  problem : args.problem ∈ problemNames
  boundary : args.boundary ∈ boundaryNames
  order : args.order = 2 ∨ args.order = 4
  strings : [args.problem, args.boundary] <+ argv

theorem afterParse_cases {int : Str → Option ℤ} {negNum : Str → Bool} {z : Bool} (argv : List String) {ε : Type} :
    (∃ e : Ended ε, (e = .help ∨ e = .usage ∨ "--" ∈ argv ∧ e = .ran [] (.error .typeError)) ∧
      ∀ main, afterParse (parseArgs negNum (cmdParser z int) {} (argv.map String.toList)) main = some e) ∨
    ∃ args, Accepted argv args ∧ ∀ main : RunzArgs → Option (List ε × Py Unit),
      afterParse (parseArgs negNum (cmdParser z int) {} (argv.map String.toList)) main = (main args).map fun out => .ran out.1 out.2 := by
  cases h : parseArgs negNum (cmdParser z int) {} (argv.map String.toList) with
  | error e =>
    cases e with
    | help => exact .inl ⟨.help, .inl rfl, fun main => rfl⟩
    | usage => exact .inl ⟨.usage, .inr (.inl rfl), fun main => rfl⟩
  | ok ns =>
    obtain ⟨ho, v, h1, h2, h3, h4, h5⟩ := C93_accepted h
    have hdd : "--" ∉ argv → (∃ p, v = .one p) ∧ ∃ b, ns.boundary = .one b := by
      intro hn
      refine h5 fun hm => hn ?_
      obtain ⟨s, hs, he⟩ := List.mem_map.1 hm
      have : s = "--" := String.toList_inj.1 (he.trans (by decide))
      rwa [this] at hs
    cases hargs : ns.args with
    | none =>
      refine .inl ⟨.ran [] (.error .typeError), .inr (.inr ⟨?_, rfl⟩), fun main => by simp only [afterParse, hargs]⟩
      by_contra hn
      obtain ⟨⟨p, rfl⟩, b, hb⟩ := hdd hn
      simp [Namespace.args, h1, hb] at hargs
    | some args =>
      refine .inr ⟨args, ?_, fun main => by simp only [afterParse, hargs]⟩
      unfold Namespace.args at hargs
      split at hargs
      · rename_i p b hp hb
        rw [hp] at h1
        simp only [Option.some.injEq] at h1 hargs
        subst h1
        subst hargs
        rw [hb] at h3 h4
        have hpm := h2 p (by simp [PVal.strs])
        have hbm := h3 b (by simp [PVal.strs])
        obtain ⟨p', hp', rfl⟩ := List.mem_map.1 hpm
        obtain ⟨b', hb', rfl⟩ := List.mem_map.1 hbm
        refine ⟨by simpa using hp', by simpa using hb', ?_, ?_⟩
        · rcases ho with ho | ho <;> simp [ho]
        · have h4 : [p'.toList, b'.toList] <+ argv.map String.toList := h4
          have := h4.map String.ofList
          simpa [List.map_map, Function.comp_def] using this
      · simp at hargs

/-- **C93** Valid pieces with two words: the programs run `main` on these names and on the numbers and flags of the pieces. -/
theorem C93_values {int : Str → Option ℤ} {negNum : Str → Bool} (T : PyText int negNum) (z : Bool) {l : List Piece}
    (hv : ∀ p ∈ l, p.Valid int negNum z) (hs : NoSwallow l) {p b : String} (hw : l.filterMap Piece.word? = [p.toList, b.toList])
    (hp : p ∈ problemNames) (hb : b ∈ boundaryNames) {argv : List String} (ha : argv.map String.toList = l.flatMap Piece.strings) :
    ∃ args : RunzArgs, args.problem = p ∧ args.boundary = b ∧ args.N = (lastNum 'N' l).getD 16 ∧ args.c = lastNum 'c' l ∧
      args.order = ((lastNum 'o' l).getD 4 : ℤ).toNat ∧ (args.r = true ↔ .r ∈ l) ∧ (args.acheat = true ↔ ∃ k, .acheat k ∈ l) ∧
      (args.z1cheat = true ↔ ∃ k, .z1cheat k ∈ l) ∧
      (z = false → ∀ iter b fit lstsq fuel, runCommand int negNum iter b fit lstsq fuel argv =
        (runMain iter b fit lstsq fuel args.toRunArgs).map fun out => .ran out.1 out.2) ∧
      (z = true → ∀ iter lib fuel, runzCommand int negNum iter lib fuel argv =
        (runzMain iter lib fuel args).map fun out => .ran out.1 out.2) := by
  obtain ⟨ns, h, h1, h2, h3, h4, h5, h6, h7, h8⟩ := C93_line T z hv hs hw hp hb
  have hargs : ns.args = some
      { problem := p, boundary := b, N := ns.N, c := ns.c, order := ns.o.toNat, r := ns.r,
        acheat := ns.acheat, z1cheat := ns.z1cheat } := by
    unfold Namespace.args
    rw [h1, h2]
    simp
  refine ⟨{ problem := p, boundary := b, N := ns.N, c := ns.c, order := ns.o.toNat, r := ns.r,
            acheat := ns.acheat, z1cheat := ns.z1cheat }, rfl, rfl, h3, h4, congrArg Int.toNat h5, h6, h7, h8, ?_, ?_⟩
  · rintro rfl iter b fit lstsq fuel
    have h : parseArgs negNum (runParser int) {} (l.flatMap Piece.strings) = .ok ns := h
    unfold runCommand
    rw [ha, h]
    simp only [afterParse, hargs]
  · rintro rfl iter lib fuel
    have h : parseArgs negNum (runzParser int) {} (l.flatMap Piece.strings) = .ok ns := h
    unfold runzCommand
    rw [ha, h]
    simp only [afterParse, hargs]

/-- **C93** Every command line of `run.py`: the program prints the help, or a usage error, or - only if `--` stands on the command line -
ends at once with a TypeError; otherwise problem and boundary are names that stand on the command line, the order is 2 or 4, and the program
goes on as in C89.  In this last case, if `-c` is below `N` it ends without solving anything; otherwise it never ends if `N` is in no window
`[16·2^i, 17·2^i)`, and if it is, it prints all its lines for the three smooth problems, and ends with a RecursionError for the others.
(For `smooth-ycos` on `cubic`, under the condition of C89.) -/
theorem C93_run {int : Str → Option ℤ} {negNum : Str → Bool} {iter : Iter} (hit : IsIter iter) {b : Brentq} (hb : BrentqSpec b) {fit : Chebfit}
    (hfit : IsChebfit fit) {lstsq : Lstsq} (hlsq : IsLstsq lstsq) (argv : List String) :
    (∃ e : Ended MainEv, (e = .help ∨ e = .usage ∨ "--" ∈ argv ∧ e = .ran [] (.error .typeError)) ∧
      ∀ fuel, runCommand int negNum iter b fit lstsq fuel argv = some e) ∨
    ∃ args, Accepted argv args ∧
      (∀ fuel, runCommand int negNum iter b fit lstsq fuel argv =
        (runMain iter b fit lstsq fuel args.toRunArgs).map fun out => .ran out.1 out.2) ∧
      (∀ c, args.c = some c → c < args.N →
        ∃ lines, ∀ fuel, runCommand int negNum iter b fit lstsq (fuel + 1) argv = some (.ran lines (.ok ()))) ∧
      ((∀ c, args.c = some c → args.N ≤ c) → ¬ Window args.N → ∀ fuel, runCommand int negNum iter b fit lstsq fuel argv = none) ∧
      ((∀ c, args.c = some c → args.N ≤ c) → Window args.N →
        (args.problem = "smooth-ycos" → args.boundary = "cubic" → ∀ r, chooseBoundary "cubic" = .ok r → ∀ i : ℕ, OffCurve r (args.N * 2 ^ i)) →
        ∃ lines fuel0, ∀ fuel, fuel0 ≤ fuel → runCommand int negNum iter b fit lstsq fuel argv = some (.ran lines
          (if args.problem ∈ ["smooth-sine", "smooth-e", "smooth-ycos"] then .ok () else .error .recursionError))) := by
  rcases afterParse_cases (int := int) (negNum := negNum) (z := false) (ε := MainEv) argv with ⟨e, he, h⟩ | ⟨args, ha, h⟩
  · exact .inl ⟨e, he, fun fuel => h _⟩
  · have hrun : ∀ fuel, runCommand int negNum iter b fit lstsq fuel argv =
        (runMain iter b fit lstsq fuel args.toRunArgs).map fun out => .ran out.1 out.2 := fun fuel => h _
    obtain ⟨r, hr⟩ := (names_table.2 _).1 ha.boundary
    have hp : ∃ pr, (args.problem, pr) ∈ problemTable := by
      have := ha.problem
      rw [names_table.1] at this
      obtain ⟨⟨p, pr⟩, hm, he⟩ := List.mem_map.1 this
      have he : p = args.problem := he
      exact ⟨pr, he ▸ hm⟩
    obtain ⟨pr, hpr⟩ := hp
    have hlook : ∃ pr', problemTable.lookup args.problem = some pr' := by
      have := ha.problem
      simp only [problemNames, List.mem_cons, List.not_mem_nil, or_false] at this
      rcases this with h | h | h | h | h | h <;> rw [h] <;> exact ⟨_, rfl⟩
    obtain ⟨pr', hlook⟩ := hlook
    refine .inr ⟨args, ha, hrun, fun c hc hlt => ?_, fun hc hw fuel => ?_, fun hc hw hoff => ?_⟩
    · exact ⟨_, fun fuel => by
        rw [hrun, C89_empty iter b fit lstsq fuel (args := args.toRunArgs) hlook hr hc hlt (fun _ => (0, 0))]; rfl⟩
    · rw [hrun, C89_endless iter b fit lstsq fuel (args := args.toRunArgs) hpr hr hw hc]; rfl
    · have hz : ∀ {k : ℝ}, ((args.problem = "iz-bessel" ∨ args.problem = "ihz-bessel-line") ∧ k = 27 / 4 ∨
          args.problem = "ihz-bessel-quadratic" ∧ k = 43 / 4) →
          ∃ lines fuel0, ∀ fuel, fuel0 ≤ fuel → runCommand int negNum iter b fit lstsq fuel argv = some (.ran lines (.error .recursionError)) := by
        intro k hk
        obtain ⟨Ns, size, fuel0, -, hall⟩ := C89_z hit hb fit lstsq (args := args.toRunArgs) ha.order hr hk hw hc
        exact ⟨_, fuel0, fun fuel hf => by rw [hrun, (hall fuel hf).2.2]; rfl⟩
      have hs : ∀ {ex φ}, SmoothCase args.problem ex φ →
          ∃ lines fuel0, ∀ fuel, fuel0 ≤ fuel → runCommand int negNum iter b fit lstsq fuel argv = some (.ran lines (.ok ())) := by
        intro ex φ hcase
        obtain ⟨Ns, size, e, u, rate, fuel0, hall, -⟩ := C89_smooth hit hb hfit hlsq (args := args.toRunArgs) ha.order hr hcase hw
          (fun h1 h2 => hoff h1 h2 r (by rw [← hr]; exact congrArg _ h2.symm))
        exact ⟨_, fuel0, fun fuel hf => by rw [hrun, (hall fuel hf).2.2]; rfl⟩
      have := ha.problem
      simp only [problemNames, List.mem_cons, List.not_mem_nil, or_false] at this
      rcases this with h | h | h | h | h | h
      · rw [if_pos (by rw [h]; decide)]; exact hs (h ▸ SmoothCase.sine)
      · rw [if_pos (by rw [h]; decide)]; exact hs (h ▸ SmoothCase.e)
      · rw [if_pos (by rw [h]; decide)]; exact hs (h ▸ SmoothCase.ycos)
      · rw [if_neg (by rw [h]; decide)]; exact hz (.inl ⟨.inl h, rfl⟩)
      · rw [if_neg (by rw [h]; decide)]; exact hz (.inl ⟨.inr h, rfl⟩)
      · rw [if_neg (by rw [h]; decide)]; exact hz (.inr ⟨h, rfl⟩)

/-- **C93** Every command line of `runz.py`: the help, a usage error, or - only with `--` on the command line - a TypeError at once; otherwise
problem and boundary are names that stand on the command line, the order is 2 or 4, and the program goes on as in C90: nothing is solved if
`-c` is below `N`; otherwise it never ends if `N` is in no window, and if it is, the three smooth problems end with an AttributeError, and the
others print all their lines, if the Bessel functions used as divisors do not vanish (and, for `cubic`, no node lies on the curve). -/
theorem C93_runz {int : Str → Option ℤ} {negNum : Str → Bool} {iter : Iter} (hit : IsIter iter) {lib : ZLib} (hl : GoodLib lib)
    (argv : List String) :
    (∃ e : Ended MainZEv, (e = .help ∨ e = .usage ∨ "--" ∈ argv ∧ e = .ran [] (.error .typeError)) ∧
      ∀ fuel, runzCommand int negNum iter lib fuel argv = some e) ∨
    ∃ args, Accepted argv args ∧
      (∀ fuel, runzCommand int negNum iter lib fuel argv = (runzMain iter lib fuel args).map fun out => .ran out.1 out.2) ∧
      (∀ c, args.c = some c → c < args.N → ∃ lines, ∀ fuel, runzCommand int negNum iter lib (fuel + 1) argv = some (.ran lines (.ok ()))) ∧
      ((∀ c, args.c = some c → args.N ≤ c) → ¬ Window args.N → ∀ fuel, runzCommand int negNum iter lib fuel argv = none) ∧
      ((∀ c, args.c = some c → args.N ≤ c) → Window args.N → args.problem ∈ ["smooth-sine", "smooth-e", "smooth-ycos"] →
        ∃ lines fuel0, ∀ fuel, fuel0 ≤ fuel → runzCommand int negNum iter lib fuel argv = some (.ran lines (.error .attributeError))) ∧
      (Window args.N → args.problem ∉ ["smooth-sine", "smooth-e", "smooth-ycos"] →
        (args.boundary = "cubic" → ∀ r, chooseBoundary "cubic" = .ok r → ∀ i : ℕ, OffCurve r (args.N * 2 ^ i)) →
        (∀ m : ℕ, (if args.acheat then args.problem ≠ "iz-bessel" ∧ 1 ≤ m ∧ m ≤ 7 else 7 < m ∧ m ≤ if args.boundary = "arc" then 7 else 200) →
          lib.jv (m * (4 / 7)) ((if args.problem = "ihz-bessel-quadratic" then 43 / 4 else 27 / 4) * 2.3) ≠ 0) →
        ∃ lines fuel0, ∀ fuel, fuel0 ≤ fuel → runzCommand int negNum iter lib fuel argv = some (.ran lines (.ok ()))) := by
  rcases afterParse_cases (int := int) (negNum := negNum) (z := true) (ε := MainZEv) argv with ⟨e, he, h⟩ | ⟨args, ha, h⟩
  · exact .inl ⟨e, he, fun fuel => h _⟩
  · have hrun : ∀ fuel, runzCommand int negNum iter lib fuel argv =
        (runzMain iter lib fuel args).map fun out => .ran out.1 out.2 := fun fuel => h _
    obtain ⟨r, hr⟩ := (names_table.2 _).1 ha.boundary
    have hp : ∃ pr, (args.problem, pr) ∈ problemTable := by
      have := ha.problem
      rw [names_table.1] at this
      obtain ⟨⟨p, pr⟩, hm, he⟩ := List.mem_map.1 this
      have he : p = args.problem := he
      exact ⟨pr, he ▸ hm⟩
    obtain ⟨pr, hpr⟩ := hp
    have hlook : ∃ pr', problemTable.lookup args.problem = some pr' := by
      have := ha.problem
      simp only [problemNames, List.mem_cons, List.not_mem_nil, or_false] at this
      rcases this with h | h | h | h | h | h <;> rw [h] <;> exact ⟨_, rfl⟩
    obtain ⟨pr', hlook⟩ := hlook
    refine .inr ⟨args, ha, hrun, fun c hc hlt => ?_, fun hc hw fuel => ?_, fun hc hw hs => ?_, fun hw hs hoff hJ => ?_⟩
    · exact ⟨_, fun fuel => by
        rw [hrun, C90_empty iter lib fuel (args := args) hlook hr hc hlt (fun _ => (0, 0))]; rfl⟩
    · rw [hrun, C90_endless iter lib fuel (args := args) hpr hr hw hc]; rfl
    · have hz : (zTable lib.jv).lookup args.problem = none := by
        simp only [List.mem_cons, List.not_mem_nil, or_false] at hs
        rcases hs with h | h | h <;> rw [h] <;> rfl
      obtain ⟨Ns, size, fuel0, hall⟩ := C90_smooth iter lib (args := args) hr hpr hz hw hc
      exact ⟨_, fuel0, fun fuel hf => by rw [hrun, (hall fuel hf).2.2]; rfl⟩
    · have hz : ∃ zp, (zTable lib.jv).lookup args.problem = some zp ∧ (zp.isIz = false → args.problem ≠ "iz-bessel") ∧
          zp.k = if args.problem = "ihz-bessel-quadratic" then 43 / 4 else 27 / 4 := by
        have := ha.problem
        simp only [problemNames, List.mem_cons, List.not_mem_nil, or_false, not_or] at this hs
        rcases this with h | h | h | h | h | h
        · exact absurd h hs.1
        · exact absurd h hs.2.1
        · exact absurd h hs.2.2
        · rw [h]; exact ⟨_, rfl, (fun hf => Bool.noConfusion hf), by rw [if_neg (by decide)]; rfl⟩
        · rw [h]; exact ⟨_, rfl, fun _ => by decide, by rw [if_neg (by decide)]; rfl⟩
        · rw [h]; exact ⟨_, rfl, fun _ => by decide, by rw [if_pos rfl]; rfl⟩
      obtain ⟨zp, hzp, hiz, hk⟩ := hz
      obtain ⟨Ns, size, z1, res, fuel0, hall, -⟩ := C90_z hit hl (args := args) ha.order hr hzp hw
        (fun h2 => hoff h2 r (by rw [← hr]; exact congrArg _ h2.symm)) (fun m hm => by
          rw [hk]
          refine hJ m ?_
          split_ifs at hm ⊢
          · exact ⟨hiz hm.1, hm.2⟩
          · exact hm
          · exact hm)
      exact ⟨_, fuel0, fun fuel hf => by rw [hrun, (hall fuel hf).2.2]; rfl⟩

/-! ## Concrete cases -/

/-- decimal numbers -/
def decimal : Str → Option ℤ
  | '-' :: c :: t => if (c :: t).all Char.isDigit then some (-(c :: t).foldl (fun n d => 10 * n + (d.toNat - 48 : ℤ)) 0) else none
  | c :: t => if (c :: t).all Char.isDigit then some ((c :: t).foldl (fun n d => 10 * n + (d.toNat - 48 : ℤ)) 0) else none
  | [] => none

/-- a minus sign and digits -/
def isNegative : Str → Bool
  | '-' :: c :: t => (c :: t).all Char.isDigit
  | _ => false

theorem decimal_text : PyText decimal isNegative where
  empty := rfl
  eq := by
    intro v hv
    have key : ∀ c t, '=' ∈ c :: t → ((c :: t).all Char.isDigit) = false := by
      intro c t h
      rw [List.all_eq_false]
      exact ⟨'=', h, by decide⟩
    unfold decimal
    split
    · rename_i c t
      rw [key c t (by simpa using hv)]; rfl
    · rename_i c t _
      rw [key c t hv]; rfl
    · rfl
  neg := by
    intro s hs
    unfold isNegative at hs
    split at hs
    · rename_i c t
      rw [List.all_eq_true] at hs
      refine ⟨?_, c, t, rfl, ?_, ?_⟩
      · intro h
        simp only [List.mem_cons] at h
        rcases h with h | h
        · exact absurd h (by decide)
        · exact absurd (hs '=' (by simpa using h)) (by decide)
      · rintro rfl; exact absurd (hs '-' (by simp)) (by decide)
      · have := hs c (by simp)
        simp only [Char.isDigit, ge_iff_le, Bool.and_eq_true, decide_eq_true_eq] at this
        simp only [Char.isAlpha, Char.isUpper, Char.isLower, ge_iff_le, Bool.or_eq_false_iff, Bool.and_eq_false_iff, decide_eq_false_iff_not]
        obtain ⟨h1, h2⟩ := this
        rw [UInt32.le_iff_toNat_le] at h1 h2
        simp only [UInt32.le_iff_toNat_le]
        have e1 : ('9' : Char).val.toNat = 57 := rfl
        have e2 : ('A' : Char).val.toNat = 65 := rfl
        have e3 : ('a' : Char).val.toNat = 97 := rfl
        exact ⟨fun h => by omega, .inl (by omega)⟩
    · cases hs

/-- the strings of a command line -/
def cl (l : List String) : List Str := l.map String.toList

/-- `run.py -N=32 smooth-e -r --ach cubic -o2 -c 128 -c`: the options stand anywhere, the last `-c` counts. -/
example : ∃ ns, parseArgs isNegative (runParser decimal) {} (cl ["-N=32", "smooth-e", "-r", "--ach", "cubic", "-o2", "-c", "64", "-c"]) = .ok ns ∧
    ns.problem = some (.one "smooth-e".toList) ∧ ns.boundary = .one "cubic".toList ∧ ns.N = 32 ∧ ns.c = some 128 ∧ ns.o = 2 ∧ ns.r = true ∧
    ns.acheat = true := by
  obtain ⟨ns, h, h1, h2, h3, h4, h5, h6, h7, -⟩ := C93_line decimal_text false
    (l := [.value 'N' .equals ['3', '2'] 32, .word "smooth-e".toList, .r, .acheat 5, .word "cubic".toList, .value 'o' .joined ['2'] 2,
      .value 'c' .apart ['6', '4'] 64, .bareC]) (p := "smooth-e") (b := "cubic")
    (by
      intro p hp
      simp only [List.mem_cons, List.not_mem_nil, or_false] at hp
      rcases hp with rfl | rfl | rfl | rfl | rfl | rfl | rfl | rfl <;> simp [Piece.Valid] <;> decide)
    (by simp [NoSwallow]) (by decide) (by decide) (by decide)
  exact ⟨ns, h, h1, h2, h3, h4, h5, h6.2 (by simp), h7.2 ⟨5, by simp⟩⟩

/-- `run.py smooth-sine`: the second word is missing, the default is not used. -/
example : parseArgs isNegative (runParser decimal) {} (cl ["smooth-sine"]) = .error .usage := by rfl

/-- `run.py -c smooth-sine arc` is a usage error, `run.py -c -r smooth-sine arc` is not. -/
example (ns : Namespace) : parseArgs isNegative (runParser decimal) {} (cl ["-c", "smooth-sine", "arc"]) ≠ .ok ns :=
  C93_swallow decimal_text false (pre := []) (post := [_]) (by simp) (by decide) (by decide) ns

/-- `run.py smooth-sine arc -r --acheat=1`, `run.py smooth-sine arc -o 3` and `run.py smooth-sine -x arc` are not accepted. -/
example (ns : Namespace) : parseArgs isNegative (runParser decimal) {} (cl ["smooth-sine", "arc", "-r", "--acheat=1"]) ≠ .ok ns ∧
    parseArgs isNegative (runParser decimal) {} (cl ["smooth-sine", "arc", "-o", "3"]) ≠ .ok ns ∧
    parseArgs isNegative (runParser decimal) {} (cl ["smooth-sine", "-x", "arc"]) ≠ .ok ns :=
  ⟨C93_rejected decimal_text false (pre := cl ["smooth-sine", "arc", "-r"]) (by decide) (.longValue 8 (by decide) ['1'] []) ns,
   C93_rejected decimal_text false (pre := cl ["smooth-sine", "arc"]) (by decide) (.apart 'o' (.inr (.inr rfl)) ['3'] (by decide) []
     (by intro n hn; rw [show decimal ['3'] = some 3 from rfl] at hn; simp only [Option.some.injEq] at hn; subst hn; decide)) ns,
   C93_rejected decimal_text false (pre := cl ["smooth-sine"]) (by decide) (.unknown 'x' [] (cl ["arc"]) (by decide) rfl (by decide)) ns⟩

/-- `runz.py iz-bessel arc --z --a`: the options of `runz.py` may be abbreviated. -/
example : ∃ args : RunzArgs, args.problem = "iz-bessel" ∧ args.boundary = "arc" ∧ args.N = 16 ∧ args.acheat = true ∧ args.z1cheat = true ∧
    args.r = false ∧ ∀ iter lib fuel, runzCommand decimal isNegative iter lib fuel ["iz-bessel", "arc", "--z", "--a"] =
      (runzMain iter lib fuel args).map fun out => .ran out.1 out.2 := by
  obtain ⟨args, h1, h2, h3, -, -, h6, h7, h8, -, h10⟩ := C93_values decimal_text true
    (l := [.word "iz-bessel".toList, .word "arc".toList, .z1cheat 3, .acheat 3]) (p := "iz-bessel") (b := "arc")
    (by
      intro p hp
      simp only [List.mem_cons, List.not_mem_nil, or_false] at hp
      rcases hp with rfl | rfl | rfl | rfl <;> simp [Piece.Valid])
    (by simp [NoSwallow]) (by decide) (by decide) (by decide) (argv := ["iz-bessel", "arc", "--z", "--a"]) (by decide)
  exact ⟨args, h1, h2, h3, h7.2 ⟨3, by simp⟩, h8.2 ⟨3, by simp⟩, by
    rw [Bool.eq_false_iff]; intro h; simpa using h6.1 h, h10 rfl⟩

/-- `runz.py --help -N 3` -/
example : parseArgs isNegative (runzParser decimal) {} (cl ["--help", "-N", "3"]) = .error .help :=
  C93_help decimal_text true (l := [.value 'N' .apart ['3'] 3])
    (by intro p hp; simp only [List.mem_singleton] at hp; subst hp; simp [Piece.Valid]; decide) (.inr rfl)

/-- `run.py smooth-sine -- --`: the boundary is the empty list, and the program ends with a TypeError. -/
example (iter : Iter) (b : Brentq) (fit : Chebfit) (lstsq : Lstsq) (fuel : ℕ) :
    runCommand decimal isNegative iter b fit lstsq fuel ["smooth-sine", "--", "--"] = some (.ran [] (.error .typeError)) := by
  have h : parseArgs isNegative (runParser decimal) {} (cl ["smooth-sine", "--", "--"]) =
      .ok { problem := some (.one "smooth-sine".toList), boundary := .many [] } := by rfl
  unfold runCommand
  rw [show List.map String.toList _ = cl ["smooth-sine", "--", "--"] from rfl, h]
  rfl

/-- `run.py smooth-sine arc -N 24` never ends. -/
example (iter : Iter) (b : Brentq) (fit : Chebfit) (lstsq : Lstsq) (fuel : ℕ) :
    runCommand decimal isNegative iter b fit lstsq fuel ["smooth-sine", "arc", "-N", "24"] = none := by
  have h : parseArgs isNegative (runParser decimal) {} (cl ["smooth-sine", "arc", "-N", "24"]) =
      .ok { problem := some (.one "smooth-sine".toList), boundary := .one "arc".toList, N := 24 } := by rfl
  unfold runCommand
  rw [show List.map String.toList _ = cl ["smooth-sine", "arc", "-N", "24"] from rfl, h]
  have := C89_endless iter b fit lstsq fuel (args := { problem := "smooth-sine", boundary := "arc", N := 24 }) (.head _) rfl ?_ (by simp)
  · show Option.map _ (runMain iter b fit lstsq fuel _) = none
    exact Option.map_eq_none_iff.2 this
  · rintro ⟨i, h1, h2⟩
    simp only at h1 h2
    rcases i with _ | i
    · omega
    · rw [pow_succ] at h1
      have : (1 : ℤ) ≤ 2 ^ i := by exact_mod_cast Nat.one_le_two_pow
      omega

end Pot
