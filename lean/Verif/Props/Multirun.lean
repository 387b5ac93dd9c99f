import Verif.Model.Multirun
import Verif.Props.CommandLine

/-!
# C108: the batch of runs
-/

namespace Pot

open Spec

theorem shLex_cons {c : Char} (hc : plainChar c = true) (t : Str) (w : Option Str) : shLex (c :: t) w = shLex t (some (w.getD [] ++ [c])) := by
  have h1 : c ≠ '\\' := by rintro rfl; exact absurd hc (by decide)
  have h2 : c ≠ ' ' := by rintro rfl; exact absurd hc (by decide)
  have h3 : c ≠ '>' := by rintro rfl; exact absurd hc (by decide)
  rw [shLex.eq_def]
  split
  all_goals first
    | (rename_i h; exact absurd (List.cons.inj h).1 (by assumption))
    | (rename_i h; cases h)
    | skip
  rename_i h _ _ _ _
  obtain ⟨rfl, rfl⟩ := List.cons.inj h
  rw [if_pos hc]

theorem shLex_plain (w : Str) : ∀ (u t : Str), w.all plainChar = true → shLex (w ++ t) (some u) = shLex t (some (u ++ w)) := by
  induction w with
  | nil => intro u t _; simp
  | cons c w ih =>
    intro u t h
    rw [List.all_cons, Bool.and_eq_true] at h
    rw [List.cons_append, shLex_cons h.1, ih _ _ h.2]
    simp

theorem shLex_word {w : Str} (hw : w.all plainChar = true) (h0 : w ≠ []) (t : Str) : shLex (w ++ t) none = shLex t (some w) := by
  obtain ⟨c, w, rfl⟩ := List.exists_cons_of_ne_nil h0
  rw [List.all_cons, Bool.and_eq_true] at hw
  rw [List.cons_append, shLex_cons hw.1, shLex_plain _ _ _ hw.2]
  simp

/-- six words, `>`, and a path with one escaped space -/
theorem shCommand_line {w1 w2 w3 w4 w5 w6 d1 d2 : Str} (h1 : w1.all plainChar = true ∧ w1 ≠ []) (h2 : w2.all plainChar = true ∧ w2 ≠ [])
    (h3 : w3.all plainChar = true ∧ w3 ≠ []) (h4 : w4.all plainChar = true ∧ w4 ≠ []) (h5 : w5.all plainChar = true ∧ w5 ≠ [])
    (h6 : w6.all plainChar = true ∧ w6 ≠ []) (g1 : d1.all plainChar = true ∧ d1 ≠ []) (g2 : d2.all plainChar = true) :
    shCommand (w1 ++ ' ' :: (w2 ++ ' ' :: (w3 ++ ' ' :: (w4 ++ ' ' :: (w5 ++ ' ' :: (w6 ++ ' ' :: '>' :: ' ' :: (d1 ++ '\\' :: ' ' :: d2))))))) =
      some { argv := [w1, w2, w3, w4, w5, w6], out := d1 ++ ' ' :: d2 } := by
  have sp : ∀ (w t : Str), shLex (' ' :: t) (some w) = (shLex t none).map (.word w :: ·) := fun w t => by simp [shLex]
  have sn : ∀ t : Str, shLex (' ' :: t) none = shLex t none := fun t => by simp [shLex]
  have gn : ∀ t : Str, shLex ('>' :: t) none = (shLex t none).map (.into :: ·) := fun t => by simp [shLex]
  have es : ∀ (w t : Str), shLex ('\\' :: ' ' :: t) (some w) = shLex t (some (w ++ [' '])) := fun w t => by simp [shLex]
  have ed : shLex d2 (some (d1 ++ [' '])) = some [.word (d1 ++ ' ' :: d2)] := by
    have := shLex_plain d2 (d1 ++ [' ']) [] g2
    rw [List.append_nil] at this
    rw [this]
    simp [shLex]
  unfold shCommand
  rw [shLex_word h1.1 h1.2, sp, shLex_word h2.1 h2.2, sp, shLex_word h3.1 h3.2, sp, shLex_word h4.1 h4.2, sp, shLex_word h5.1 h5.2, sp,
    shLex_word h6.1 h6.2, sp, gn, sn, shLex_word g1.1 g1.2, es, ed]
  rfl

/-- **C108** For all names of characters without special meaning to the shell, the line of the worker starts `runz.py` with the two names
and `-c 1024`, and its output goes to the file of the boundary in the directory that `os.mkdir` was called with for the problem. -/
theorem C108_command {p b : Str} (hp : p.all plainChar = true) (hp0 : p ≠ []) (hb : b.all plainChar = true) (hb0 : b ≠ []) :
    shCommand (multirunLine p b) = some
      { argv := ["python3".toList, "runz.py".toList, p, b, "-c".toList, "1024".toList],
        out := (outDirNoescape ++ p) ++ '/' :: (b ++ ".txt".toList) } := by
  have e1 : "python3 runz.py ".toList = "python3".toList ++ ' ' :: ("runz.py".toList ++ [' ']) := by decide
  have e2 : "-c 1024".toList = "-c".toList ++ ' ' :: "1024".toList := by decide
  have e3 : "/Users/sam/Google\\ Drive/research/output/".toList = "/Users/sam/Google".toList ++ '\\' :: ' ' :: "Drive/research/output/".toList := by
    decide
  have e4 : "/Users/sam/Google Drive/research/output/".toList = "/Users/sam/Google".toList ++ ' ' :: "Drive/research/output/".toList := by decide
  have e5 : " ".toList = [' '] := by decide
  have e6 : " > ".toList = [' ', '>', ' '] := by decide
  have e7 : "/".toList = ['/'] := by decide
  have p1 : "python3".toList.all plainChar = true ∧ "python3".toList ≠ [] := by decide
  have p2 : "runz.py".toList.all plainChar = true ∧ "runz.py".toList ≠ [] := by decide
  have p3 : "-c".toList.all plainChar = true ∧ "-c".toList ≠ [] := by decide
  have p4 : "1024".toList.all plainChar = true ∧ "1024".toList ≠ [] := by decide
  have p5 : "/Users/sam/Google".toList.all plainChar = true ∧ "/Users/sam/Google".toList ≠ [] := by decide
  have p6 : "Drive/research/output/".toList.all plainChar = true := by decide
  have p7 : ".txt".toList.all plainChar = true := by decide
  have p8 : plainChar '/' = true := by decide
  unfold multirunLine outDirEscape multirunArgs outDirNoescape
  simp only [e1, e2, e3, e4, e5, e6, e7]
  generalize "python3".toList = w1 at *
  generalize "runz.py".toList = w2 at *
  generalize "-c".toList = w5 at *
  generalize "1024".toList = w6 at *
  generalize "/Users/sam/Google".toList = d1 at *
  generalize "Drive/research/output/".toList = d2 at *
  generalize ".txt".toList = d3 at *
  have := shCommand_line p1 p2 ⟨hp, hp0⟩ ⟨hb, hb0⟩ p3 p4 p5 (d2 := d2 ++ (p ++ '/' :: (b ++ d3)))
    (by rw [List.all_append, List.all_append, List.all_cons, List.all_append, p6, hp, p8, hb, p7]; rfl)
  simpa only [List.append_assoc, List.cons_append, List.nil_append, List.singleton_append] using this

/-- the directory of a file -/
theorem parentDir_append (d f : Str) (hf : '/' ∉ f) : parentDir (d ++ '/' :: f) = d := by
  unfold parentDir
  have : (d ++ '/' :: f).reverse = f.reverse ++ '/' :: d.reverse := by simp
  rw [this, List.dropWhile_append_of_pos (by
    intro c hc
    have : c ≠ '/' := by rintro rfl; exact hf (List.mem_reverse.1 hc)
    simpa using this)]
  simp

/-- directories stay -/
theorem mkdirLoop_keeps : ∀ (ps : List Str) (fs fs' : FileTree), (mkdirLoop fs ps).2 = some fs' →
    (∀ d ∈ fs.dirs, d ∈ fs'.dirs) ∧ ∀ p ∈ ps, outDirNoescape ++ p ∉ fs.files → outDirNoescape ++ p ∈ fs'.dirs := by
  intro ps
  induction ps with
  | nil => intro fs fs' h; cases h; exact ⟨fun _ h => h, fun _ h => by simp at h⟩
  | cons p t ih =>
    intro fs fs' h
    unfold mkdirLoop mkdir at h
    by_cases h1 : outDirNoescape ++ p ∈ fs.dirs ∨ outDirNoescape ++ p ∈ fs.files
    · rw [if_pos h1] at h
      obtain ⟨k1, k2⟩ := ih fs fs' h
      refine ⟨k1, fun q hq hf => ?_⟩
      rcases List.mem_cons.1 hq with rfl | hq
      · exact k1 _ (h1.resolve_right hf)
      · exact k2 q hq hf
    · rw [if_neg h1] at h
      by_cases h2 : parentDir (outDirNoescape ++ p) ∈ fs.dirs
      · rw [if_pos h2] at h
        obtain ⟨k1, k2⟩ := ih _ fs' h
        refine ⟨fun d hd => k1 d (List.mem_cons_of_mem _ hd), fun q hq hf => ?_⟩
        rcases List.mem_cons.1 hq with rfl | hq
        · exact k1 _ List.mem_cons_self
        · exact k2 q hq hf
      · rw [if_neg h2] at h
        cases h

/-- **C108** For all lists of names without special characters and without `/`: if the program gets to the runs, the shell is given one line
for every pair of a problem and a boundary, in which it finds `runz.py` with this pair, and an output file whose directory exists - unless
another file stands at its place. -/
theorem C108_files {ps bs : List Str} (hp : ∀ p ∈ ps, p.all plainChar = true ∧ p ≠ []) (hb : ∀ b ∈ bs, b.all plainChar = true ∧ b ≠ [] ∧ '/' ∉ b)
    {fs fs' : FileTree} {lines : List Str} (h : (multirun ps bs fs).2 = some (fs', lines)) (hf : ∀ p ∈ ps, outDirNoescape ++ p ∉ fs.files) :
    lines.map shCommand = (ps ×ˢ bs).map (fun x => some
      { argv := ["python3".toList, "runz.py".toList, x.1, x.2, "-c".toList, "1024".toList],
        out := (outDirNoescape ++ x.1) ++ '/' :: (x.2 ++ ".txt".toList) }) ∧
    ∀ l ∈ lines, ∃ c, shCommand l = some c ∧ parentDir c.out ∈ fs'.dirs := by
  unfold multirun at h
  obtain ⟨fs1, h1, h2⟩ := Option.map_eq_some_iff.1 h
  obtain ⟨rfl, rfl⟩ := Prod.mk.inj h2
  constructor
  · rw [List.map_map]
    refine List.map_congr_left fun x hx => ?_
    obtain ⟨hx1, hx2⟩ := List.mem_product.1 hx
    exact C108_command (hp _ hx1).1 (hp _ hx1).2 (hb _ hx2).1 (hb _ hx2).2.1
  · intro l hl
    obtain ⟨x, hx, rfl⟩ := List.mem_map.1 hl
    obtain ⟨hx1, hx2⟩ := List.mem_product.1 hx
    refine ⟨_, C108_command (hp _ hx1).1 (hp _ hx1).2 (hb _ hx2).1 (hb _ hx2).2.1, ?_⟩
    show parentDir ((outDirNoescape ++ x.1) ++ '/' :: (x.2 ++ ".txt".toList)) ∈ _
    rw [parentDir_append _ _ (by
      rw [List.mem_append]
      rintro (h | h)
      · exact (hb _ hx2).2.2 h
      · revert h; decide)]
    exact (mkdirLoop_keeps ps fs fs1 h1).2 _ hx1 (hf _ hx1)

/-- the directory of the shipped problem -/
def multirunDir : Str := "/Users/sam/Google Drive/research/output/ihz-bessel-line".toList

/-- **C108** The shipped lists.  If the directory of the results exists, the five runs are started, one for every shipped boundary, with five
different output files in the directory of the problem, which is made (and named) only if it did not exist.  If neither exists, nothing is
run and nothing is printed. -/
theorem C108_batch (fs : FileTree) :
    (multirunDir ∈ fs.dirs ∨ multirunDir ∈ fs.files → (multirun multirunProblems multirunBoundaries fs).1 = [] ∧
      ∃ lines, (multirun multirunProblems multirunBoundaries fs).2 = some (fs, lines) ∧ lines.length = 5) ∧
    (¬ (multirunDir ∈ fs.dirs ∨ multirunDir ∈ fs.files) → "/Users/sam/Google Drive/research/output".toList ∈ fs.dirs →
      (multirun multirunProblems multirunBoundaries fs).1 = [multirunDir] ∧
      ∃ lines, (multirun multirunProblems multirunBoundaries fs).2 = some ({ fs with dirs := multirunDir :: fs.dirs }, lines) ∧ lines.length = 5) ∧
    (¬ (multirunDir ∈ fs.dirs ∨ multirunDir ∈ fs.files) → "/Users/sam/Google Drive/research/output".toList ∉ fs.dirs →
      multirun multirunProblems multirunBoundaries fs = ([], none)) ∧
    (multirunBoundaries.Perm (boundaryNames.map String.toList)) ∧
    (multirunBoundaries.map fun b => multirunDir ++ '/' :: (b ++ ".txt".toList)).Nodup := by
  have e : outDirNoescape ++ "ihz-bessel-line".toList = multirunDir := by decide
  have e2 : parentDir multirunDir = "/Users/sam/Google Drive/research/output".toList := by decide
  refine ⟨fun h => ?_, fun h h2 => ?_, fun h h2 => ?_, by decide, by decide⟩
  · simp only [multirun, multirunProblems, mkdirLoop, mkdir, e, if_pos h]
    exact ⟨trivial, _, rfl, rfl⟩
  · simp only [multirun, multirunProblems, mkdirLoop, mkdir, e, if_neg h, e2, if_pos h2]
    exact ⟨trivial, _, rfl, rfl⟩
  · simp only [multirun, multirunProblems, mkdirLoop, mkdir, e, if_neg h, e2, if_neg h2]
    rfl

/-- **C108** What each of the five runs does: it solves on the seven grids of 16 to 1024 and prints its report to the end, if the Bessel
functions used as divisors do not vanish, and, for `cubic`, no node lies on the curve; for `arc` nothing is assumed. -/
theorem C108_runs {int : Str → Option ℤ} {negNum : Str → Bool} (T : PyText int negNum) (h1024 : int "1024".toList = some 1024) {iter : Iter}
    (hit : IsIter iter) {lib : ZLib} (hl : GoodLib lib) {b : String} (hb : b ∈ boundaryNames)
    (hoff : b = "cubic" → ∀ r, chooseBoundary "cubic" = .ok r → ∀ i : ℕ, OffCurve r (16 * 2 ^ i))
    (hJ : b ≠ "arc" → ∀ m : ℕ, 8 ≤ m → m ≤ 200 → lib.jv (m * (4 / 7)) (27 / 4 * 2.3) ≠ 0) :
    ∃ (args : RunzArgs) (size : ℤ → ℕ × ℕ) (res : ℤ → ZResult ZU (List (List ℂ))) (fuel0 : ℕ), args.problem = "ihz-bessel-line" ∧
      args.boundary = b ∧ args.order = 4 ∧ args.acheat = false ∧ args.z1cheat = false ∧
      ∀ fuel, fuel0 ≤ fuel → runzCommand int negNum iter lib fuel ["ihz-bessel-line", b, "-c", "1024"] =
        some (.ran ((optionLines args.toRunArgs (27 / 4) (if b = "arc" then 7 else 200) [16, 32, 64, 128, 256, 512, 1024] size).map .opt ++
          (zReport printedV (printedU iter) res [16, 32, 64, 128, 256, 512, 1024]).map .run) (.ok ())) := by
  have hd : b.toList.head? ≠ some '-' := by
    simp only [boundaryNames, List.mem_cons, List.not_mem_nil, or_false] at hb
    rcases hb with rfl | rfl | rfl | rfl | rfl <;> decide
  obtain ⟨args, h1, h2, h3, h4, h5, h6, h7, h8, -, h9⟩ := C93_values T true
    (l := [.word "ihz-bessel-line".toList, .word b.toList, .value 'c' .apart "1024".toList 1024]) (by
      intro p hp
      simp only [List.mem_cons, List.not_mem_nil, or_false] at hp
      rcases hp with rfl | rfl | rfl
      · show _ ≠ _; decide
      · exact hd
      · exact ⟨h1024, .inr (.inl rfl), .inl (by decide)⟩) trivial rfl (p := "ihz-bessel-line") (b := b) (by decide) hb
    (argv := ["ihz-bessel-line", b, "-c", "1024"]) rfl
  have ho : args.order = 4 := h5
  have hN : args.N = 16 := h3
  have hc : args.c = some 1024 := h4
  have hac : args.acheat = false := by
    rw [Bool.eq_false_iff]
    intro h
    obtain ⟨k, hk⟩ := h7.1 h
    simp at hk
  have hzc : args.z1cheat = false := by
    rw [Bool.eq_false_iff]
    intro h
    obtain ⟨k, hk⟩ := h8.1 h
    simp at hk
  obtain ⟨r, hr⟩ := (names_table.2 b).1 hb
  obtain ⟨Ns, size, z1, res, fuel0, hall, -⟩ := C90_z hit hl (args := args) (.inr ho) (r := r) (h2 ▸ hr) (zp := ihzLine lib.jv)
    (by rw [h1]; rfl) (by rw [hN]; exact ⟨0, by norm_num, by norm_num⟩)
    (fun hcub => by
      rw [hN]
      exact hoff (h2 ▸ hcub) r (by rw [← hr, ← h2, hcub]))
    (fun m hm => by
      rw [hac, h2] at hm
      simp only [Bool.false_eq_true, if_false] at hm
      by_cases harc : b = "arc"
      · rw [if_pos harc] at hm; omega
      · rw [if_neg harc] at hm
        exact hJ harc m (by omega) (by omega))
  have hNs : Ns = [16, 32, 64, 128, 256, 512, 1024] := by
    obtain ⟨g1, -, -⟩ := hall (fuel0 + 8) (by omega)
    rw [hN, hc] at g1
    have : getNList (fuel0 + 8) 16 (some 1024) = some [16, 32, 64, 128, 256, 512, 1024] := by
      simp [getNList, nListLoop]
    rw [this] at g1
    exact (Option.some.inj g1).symm
  refine ⟨args, size, res, fuel0, h1, h2, ho, hac, hzc, fun fuel hf => ?_⟩
  rw [h9 rfl, (hall fuel hf).2.2, hNs, h2]
  rfl

/-! ## The hypotheses are met -/

/-- the names of the shipped lists -/
example : (∀ p ∈ multirunProblems, p.all plainChar = true ∧ p ≠ []) ∧ (∀ b ∈ multirunBoundaries, b.all plainChar = true ∧ b ≠ [] ∧ '/' ∉ b) := by
  decide

/-- a computer on which the directory of the results exists and nothing else -/
example : ∃ fs' lines, (multirun multirunProblems multirunBoundaries ⟨["/Users/sam/Google Drive/research/output".toList], []⟩).2 = some (fs', lines) ∧
    lines.length = 5 ∧ multirunDir ∈ fs'.dirs :=
  ⟨_, _, rfl, rfl, by decide⟩

/-- without the backslash the shell would find the file `/Users/sam/Google` and two more words -/
example : shCommand ("python3 runz.py a b > /Users/sam/Google Drive/x.txt".toList) = none := by decide

/-- the arc, with the routines of C90 -/
example {iter : Iter} (hit : IsIter iter) {lib : ZLib} (hl : GoodLib lib) :
    ∃ lines fuel0, ∀ fuel, fuel0 ≤ fuel →
      runzCommand decimal isNegative iter lib fuel ["ihz-bessel-line", "arc", "-c", "1024"] = some (.ran lines (.ok ())) := by
  obtain ⟨_, _, _, fuel0, -, -, -, -, -, h⟩ := C108_runs decimal_text (by decide) hit hl (b := "arc") (by decide) (fun h => absurd h (by decide))
    (fun h => absurd rfl h)
  exact ⟨_, fuel0, h⟩

end Pot
