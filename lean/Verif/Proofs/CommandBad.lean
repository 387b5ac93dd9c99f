import Verif.Proofs.CommandSound

/-! # Proofs about command lines that are not accepted -/

namespace Pot
open Spec

/-- what is shown of each bad beginning: if it can be classified at all, it begins with an option that fails or leaves something over -/
def Fails (m : List (Str × OptAction Namespace)) (toks : List (Tok Namespace × Str)) : Prop :=
  ∃ f s tail, toks = (.opt f, s) :: tail ∧ ∀ ns out, consumeOptional m f tail ns = .ok out → out.2.1 = true

theorem classify_head {negNum : Str → Bool} {m : List (Str × OptAction Namespace)} {s : Str} {rest : List Str} {toks} (hs : s ≠ dd)
    (h : classify negNum m (s :: rest) = .ok toks) :
    ∃ t ts, parseOptional negNum m s = .ok t ∧ classify negNum m rest = .ok ts ∧ toks = (t, s) :: ts := by
  rw [classify, if_neg hs] at h
  cases hp : parseOptional negNum m s with
  | error e => rw [hp] at h; exact absurd h (by simp [bind, Except.bind])
  | ok t =>
    cases hc : classify negNum m rest with
    | error e => rw [hp, hc] at h; exact absurd h (by simp [bind, Except.bind])
    | ok ts =>
      rw [hp, hc] at h
      have h : (Except.ok ((t, s) :: ts) : Except Exit _) = .ok toks := h
      simp only [Except.ok.injEq] at h
      exact ⟨t, ts, rfl, rfl, h.symm⟩

theorem fails_none {m : List (Str × OptAction Namespace)} {s : Str} {tail} : Fails m ((.opt none, s) :: tail) :=
  ⟨none, s, tail, rfl, fun ns out h => by
    simp only [consumeOptional, Except.ok.injEq] at h
    rw [← h]⟩

/-- an option with an action that fails on its argument -/
theorem fails_act {m : List (Str × OptAction Namespace)} {f : Found Namespace} {s : Str} {tail} {b : Bundle Namespace}
    (hb : bundle m (nextArg tail) f = .ok b) (he : b.extras = true ∨ ∀ ns, ∃ e, takeAll b.acts ns = .error e) :
    Fails m ((.opt (some f), s) :: tail) := by
  refine ⟨some f, s, tail, rfl, fun ns out h => ?_⟩
  simp only [consumeOptional] at h
  rw [hb] at h
  have h : (takeAll b.acts ns >>= fun ns => (pure (ns, b.extras, if b.usesNext = true then tail.tail else tail) :
    Except Exit (Namespace × Bool × List (Tok Namespace × Str)))) = .ok out := h
  cases ht : takeAll b.acts ns with
  | error e => rw [ht] at h; exact absurd h (by simp [bind, Except.bind])
  | ok n1 =>
    rw [ht] at h
    have h : (Except.ok (n1, b.extras, if b.usesNext = true then tail.tail else tail) :
      Except Exit (Namespace × Bool × List (Tok Namespace × Str))) = .ok out := h
    simp only [Except.ok.injEq] at h
    rcases he with he | he
    · rw [← h]; exact he
    · obtain ⟨e, he⟩ := he ns
      rw [he] at ht
      exact absurd ht (by simp)

theorem fails_bundle {m : List (Str × OptAction Namespace)} {f : Found Namespace} {s : Str} {tail} {e : Exit}
    (hb : bundle m (nextArg tail) f = .error e) : Fails m ((.opt (some f), s) :: tail) := by
  refine ⟨some f, s, tail, rfl, fun ns out h => ?_⟩
  simp only [consumeOptional] at h
  rw [hb] at h
  exact absurd h (by simp [bind, Except.bind])

theorem optFor_bad {int : Str → Option ℤ} {o : Char} {v : Str} (ho : o = 'N' ∨ o = 'c' ∨ o = 'o')
    (hv : ∀ n, int v = some n → o = 'o' ∧ n ≠ 2 ∧ n ≠ 4) (ns : Namespace) : ∃ e, takeAll [(optFor int o, [v])] ns = .error e := by
  refine ⟨.usage, ?_⟩
  simp only [takeAll, List.foldlM_cons, List.foldlM_nil]
  cases hi : int v with
  | none => rcases ho with rfl | rfl | rfl <;> simp [optFor, optN, optC, optO, intAct, hi, bind, Except.bind]
  | some n =>
    obtain ⟨rfl, h2, h4⟩ := hv n hi
    simp [optFor, optO, intAct, hi, h2, h4, bind, Except.bind]

/-- a string that begins with `-` and a letter other than those of the options -/
theorem parse_unknown (z : Bool) (int : Str → Option ℤ) {negNum : Str → Bool} {c : Char} {t : Str} (hc : c ∉ ['-', 'N', 'c', 'o', 'r', 'h'])
    (hn : negNum ('-' :: c :: t) = false) (hs : ' ' ∉ '-' :: c :: t) :
    parseOptional negNum (cmdMap z int) ('-' :: c :: t) = .ok (.opt none) := by
  simp only [List.mem_cons, List.not_mem_nil, or_false, not_or] at hc
  obtain ⟨h0, h1, h2, h3, h4, h5⟩ := hc
  have q : ∀ d : Char, c ≠ d → (c == d) = false := fun d hd => beq_false_of_ne hd
  have hl : ∀ t, (cmdMap z int).lookup ('-' :: c :: t) = none := by
    intro t
    cases z <;> simp [cmdMap, List.lookup, q _ h0, q _ h1, q _ h2, q _ h3, q _ h4, q _ h5]
  have hl1 : (cmdMap z int).lookup ['-'] = none := by cases z <;> simp [cmdMap, List.lookup]
  have ht : optionTuples (cmdMap z int) ('-' :: c :: t) = [] := by
    unfold optionTuples
    split
    · rename_i heq2
      simp only [List.cons.injEq, true_and] at heq2
      exact absurd heq2.1 h0
    · cases z <;> simp [cmdMap, Ne.symm h0, Ne.symm h1, Ne.symm h2, Ne.symm h3, Ne.symm h4, Ne.symm h5, h0, h1, h2, h3, h4, h5]
  have hother : parseOther negNum (cmdMap z int) ('-' :: c :: t) = .ok (.opt none) := by
    simp [parseOther, ht, hn, -List.mem_cons, hs]
  have htw : (cmdMap z int).lookup (('-' :: c :: t).takeWhile (· ≠ '=')) = none := by
    by_cases hce : c = '='
    · subst hce
      simpa using hl1
    · have : ('-' :: c :: t).takeWhile (· ≠ '=') = '-' :: c :: t.takeWhile (· ≠ '=') := by simp [hce]
      rw [this]
      exact hl _
  simp only [parseOptional, ne_eq, not_true_eq_false, if_false, hl, List.cons_ne_nil]
  split
  · exact hother
  · simp only [ne_eq] at htw
    rw [htw]
    exact hother

theorem parse_unknownLong (z : Bool) {int : Str → Option ℤ} {negNum : Str → Bool} (T : PyText int negNum) {c : Char} {t : Str}
    (hc : c ∉ ['=', 'a', 'h', 'z']) (hs : ' ' ∉ c :: t) :
    parseOptional negNum (cmdMap z int) ('-' :: '-' :: c :: t) = .ok (.opt none) := by
  simp only [List.mem_cons, List.not_mem_nil, or_false, not_or] at hc
  obtain ⟨h0, h1, h2, h3⟩ := hc
  have q : ∀ d : Char, c ≠ d → (c == d) = false := fun d hd => beq_false_of_ne hd
  have hn : negNum ('-' :: '-' :: c :: t) = false := by
    by_contra h
    obtain ⟨-, c', t', he, hd, -⟩ := T.neg _ (by simpa using h)
    simp only [List.cons.injEq, true_and] at he
    exact hd he.1.symm
  have hl : ∀ t, (cmdMap z int).lookup ('-' :: '-' :: c :: t) = none := by
    intro t
    cases z <;> simp [cmdMap, List.lookup, q _ h1, q _ h2, q _ h3]
  have ht : optionTuples (cmdMap z int) ('-' :: '-' :: c :: t) = [] := by
    have hp : ('-' :: '-' :: c :: t).takeWhile (· ≠ '=') = '-' :: '-' :: c :: t.takeWhile (· ≠ '=') := by simp [h0]
    simp only [optionTuples, hp]
    cases z <;> simp [cmdMap, h1, h2, h3]
  have hother : parseOther negNum (cmdMap z int) ('-' :: '-' :: c :: t) = .ok (.opt none) := by
    have hs' : ' ' ∉ '-' :: '-' :: c :: t := by
      intro h
      simp only [List.mem_cons] at h hs
      rcases h with h | h | h
      · exact absurd h (by decide)
      · exact absurd h (by decide)
      · exact hs h
    simp [parseOther, ht, hn, -List.mem_cons, hs']
  have htw : (cmdMap z int).lookup (('-' :: '-' :: c :: t).takeWhile (· ≠ '=')) = none := by
    have : ('-' :: '-' :: c :: t).takeWhile (· ≠ '=') = '-' :: '-' :: c :: t.takeWhile (· ≠ '=') := by simp [h0]
    rw [this]
    exact hl _
  simp only [parseOptional, ne_eq, not_true_eq_false, if_false, hl, List.cons_ne_nil]
  split
  · exact hother
  · simp only [ne_eq] at htw
    rw [htw]
    exact hother

theorem parse_r_equals (z : Bool) (int : Str → Option ℤ) (negNum : Str → Bool) (v : Str) :
    parseOptional negNum (cmdMap z int) ('-' :: 'r' :: '=' :: v) = .ok (.opt (some ⟨optR, ['-', 'r'], some (true, v)⟩)) := by
  have hl : (cmdMap z int).lookup ('-' :: 'r' :: '=' :: v) = none := by
    cases z <;> simp [cmdMap, List.lookup]
  cases z <;> simp [parseOptional, hl] <;> rfl

theorem parse_cluster (z : Bool) (int : Str → Option ℤ) (negNum : Str → Bool) {o : Char} (ho : o ∈ ['N', 'c', 'o', 'r']) {c : Char} {t : Str}
    (hc : c ≠ '=') :
    parseOptional negNum (cmdMap z int) ('-' :: o :: c :: t) =
      .ok (.opt (some ⟨if o = 'r' then optR else optFor int o, ['-', o], some (false, c :: t)⟩)) := by
  simp only [List.mem_cons, List.not_mem_nil, or_false] at ho
  have hoe : o ≠ '=' := by rcases ho with rfl | rfl | rfl | rfl <;> decide
  have hl : ∀ t, (cmdMap z int).lookup ('-' :: o :: c :: t) = none := by
    intro t
    rcases ho with rfl | rfl | rfl | rfl <;> cases z <;> simp [cmdMap, List.lookup]
  have ht : optionTuples (cmdMap z int) ('-' :: o :: c :: t) = [⟨if o = 'r' then optR else optFor int o, ['-', o], some (false, c :: t)⟩] := by
    rcases ho with rfl | rfl | rfl | rfl <;> cases z <;> simp [optionTuples, cmdMap, optFor]
  have hother : parseOther negNum (cmdMap z int) ('-' :: o :: c :: t) =
      .ok (.opt (some ⟨if o = 'r' then optR else optFor int o, ['-', o], some (false, c :: t)⟩)) := by
    simp only [parseOther, ht]
  have htw : (cmdMap z int).lookup (('-' :: o :: c :: t).takeWhile (· ≠ '=')) = none := by
    have : ('-' :: o :: c :: t).takeWhile (· ≠ '=') = '-' :: o :: c :: t.takeWhile (· ≠ '=') := by simp [hc, hoe]
    rw [this]
    exact hl _
  simp only [parseOptional, ne_eq, not_true_eq_false, if_false, hl, List.cons_ne_nil]
  split
  · exact hother
  · simp only [ne_eq] at htw
    rw [htw]
    exact hother

theorem parse_long_equals (z : Bool) (int : Str → Option ℤ) (negNum : Str → Bool) {k : ℕ} (hk : 3 ≤ k) (v : Str) :
    parseOptional negNum (cmdMap z int) (['-', '-', 'a', 'c', 'h', 'e', 'a', 't'].take k ++ '=' :: v) =
      .ok (.opt (some ⟨optAcheat, ['-', '-', 'a', 'c', 'h', 'e', 'a', 't'], some (true, v)⟩)) := by
  have key : ∀ pre : Str, pre ∈ [['-', '-', 'a'], ['-', '-', 'a', 'c'], ['-', '-', 'a', 'c', 'h'], ['-', '-', 'a', 'c', 'h', 'e'],
      ['-', '-', 'a', 'c', 'h', 'e', 'a'], ['-', '-', 'a', 'c', 'h', 'e', 'a', 't']] →
      parseOptional negNum (cmdMap z int) (pre ++ '=' :: v) =
        .ok (.opt (some ⟨optAcheat, ['-', '-', 'a', 'c', 'h', 'e', 'a', 't'], some (true, v)⟩)) := by
    intro pre hpre
    simp only [List.mem_cons, List.not_mem_nil, or_false] at hpre
    rcases hpre with rfl | rfl | rfl | rfl | rfl | rfl <;> simp only [List.cons_append, List.nil_append] <;>
      cases z <;> simp [parseOptional, parseOther, optionTuples, cmdMap, List.lookup]
  by_cases h8 : 8 ≤ k
  · rw [List.take_of_length_le (by simpa using h8)]
    exact key _ (by simp)
  · interval_cases k <;> exact key _ (by simp)

/-- every bad beginning fails -/
theorem bad_fails (z : Bool) {int : Str → Option ℤ} {negNum : Str → Bool} (T : PyText int negNum) {argv : List Str} (h : Bad int negNum argv)
    {toks} (hc : classify negNum (cmdMap z int) argv = .ok toks) : Fails (cmdMap z int) toks := by
  have ne2 : ∀ {c : Char} {t : Str}, c ≠ '-' → '-' :: c :: t ≠ dd := by
    intro c t hc h
    simp only [dd, List.cons.injEq, true_and] at h
    exact hc h.1
  cases h with
  | unknown c t post hcc hn hs =>
    obtain ⟨tk, ts, h1, h2, rfl⟩ := classify_head (ne2 (by rintro rfl; simp at hcc)) hc
    rw [parse_unknown z int hcc hn hs] at h1
    simp only [Except.ok.injEq] at h1
    subst h1
    exact fails_none
  | unknownLong c t post hcc hs =>
    obtain ⟨tk, ts, h1, h2, rfl⟩ := classify_head (by simp [dd]) hc
    rw [parse_unknownLong z T hcc hs] at h1
    simp only [Except.ok.injEq] at h1
    subst h1
    exact fails_none
  | flagValue v post =>
    obtain ⟨tk, ts, h1, h2, rfl⟩ := classify_head (by simp [dd]) hc
    rw [parse_r_equals z int negNum v] at h1
    simp only [Except.ok.injEq] at h1
    subst h1
    refine fails_bundle (e := .usage) ?_
    cases v <;> simp [bundle, bundleExplicit, optR]
  | longValue k hk v post =>
    obtain ⟨tk, ts, h1, h2, rfl⟩ := classify_head (by
      intro h
      have := congrArg List.length h
      simp only [List.length_append, List.length_take, dd, List.length_cons, List.length_nil] at this
      omega) hc
    rw [parse_long_equals z int negNum hk v] at h1
    simp only [Except.ok.injEq] at h1
    subst h1
    refine fails_bundle (e := .usage) ?_
    cases v <;> simp [bundle, bundleExplicit, optAcheat]
  | cluster c t post hcc =>
    simp only [List.mem_cons, List.not_mem_nil, or_false, not_or] at hcc
    obtain ⟨h0, h1', h2', h3', h4', h5'⟩ := hcc
    obtain ⟨tk, ts, h1, h2, rfl⟩ := classify_head (by simp [dd]) hc
    rw [parse_cluster z int negNum (o := 'r') (by simp) h0] at h1
    simp only [Except.ok.injEq, if_true] at h1
    subst h1
    by_cases hd : c = '-'
    · refine fails_bundle (e := .usage) ?_
      simp [bundle, bundleExplicit, optR, hd]
    · have q : ∀ d : Char, c ≠ d → (c == d) = false := fun d hd => beq_false_of_ne hd
      have hl : (cmdMap z int).lookup ['-', c] = none := by
        cases z <;> simp [cmdMap, List.lookup, q _ hd, q _ h1', q _ h2', q _ h3', q _ h4', q _ h5']
      refine fails_act (b := ⟨[(optR, [])], true, false⟩) ?_ (.inl rfl)
      simp [bundle, bundleExplicit, optR, hd, hl]
  | missing o ho post hp =>
    obtain ⟨tk, ts, h1, h2, rfl⟩ := classify_head (ne2 (by rcases ho with rfl | rfl <;> decide)) hc
    rw [parse_letter z int negNum (by tauto)] at h1
    simp only [Except.ok.injEq] at h1
    subst h1
    have hn : nextArg ts = none := by
      rcases hp with rfl | hp
      · simp only [classify, Except.ok.injEq] at h2
        subst h2
        rfl
      · cases post with
        | nil => simp at hp
        | cons s post =>
          simp only [List.head?_cons, Option.some.injEq] at hp
          subst hp
          rw [classify, if_pos (show ['-', '-'] = dd from rfl)] at h2
          simp only [Except.ok.injEq] at h2
          subst h2
          rfl
    refine fails_bundle (e := .usage) ?_
    rcases ho with rfl | rfl <;> simp [bundle, hn, bundleNext, optFor, optN, optO]
  | missingBefore o ho c hcc t post =>
    obtain ⟨tk, ts, h1, h2, rfl⟩ := classify_head (ne2 (by rcases ho with rfl | rfl <;> decide)) hc
    rw [parse_letter z int negNum (by tauto)] at h1
    simp only [Except.ok.injEq] at h1
    subst h1
    obtain ⟨tk, ts, h1, h2, rfl⟩ := classify_head (ne2 (by rintro rfl; simp at hcc)) h2
    have hopt : ∃ f, tk = .opt f := by
      cases t with
      | nil =>
        simp only [List.mem_cons, List.not_mem_nil, or_false] at hcc
        rcases hcc with rfl | rfl | rfl | rfl
        · rw [parse_letter z int negNum (.inl rfl)] at h1; simp only [Except.ok.injEq] at h1; exact ⟨_, h1.symm⟩
        · rw [parse_letter z int negNum (.inr (.inl rfl))] at h1; simp only [Except.ok.injEq] at h1; exact ⟨_, h1.symm⟩
        · rw [parse_letter z int negNum (.inr (.inr rfl))] at h1; simp only [Except.ok.injEq] at h1; exact ⟨_, h1.symm⟩
        · have : parseOptional negNum (cmdMap z int) ['-', 'r'] = .ok (.opt (some ⟨optR, ['-', 'r'], none⟩)) := by cases z <;> rfl
          rw [this] at h1; simp only [Except.ok.injEq] at h1; exact ⟨_, h1.symm⟩
      | cons d t =>
        by_cases hd : d = '='
        · subst hd
          simp only [List.mem_cons, List.not_mem_nil, or_false] at hcc
          rcases hcc with rfl | rfl | rfl | rfl
          · rw [parse_equals z int negNum (.inl rfl)] at h1; simp only [Except.ok.injEq] at h1; exact ⟨_, h1.symm⟩
          · rw [parse_equals z int negNum (.inr (.inl rfl))] at h1; simp only [Except.ok.injEq] at h1; exact ⟨_, h1.symm⟩
          · rw [parse_equals z int negNum (.inr (.inr rfl))] at h1; simp only [Except.ok.injEq] at h1; exact ⟨_, h1.symm⟩
          · rw [parse_r_equals] at h1; simp only [Except.ok.injEq] at h1; exact ⟨_, h1.symm⟩
        · rw [parse_cluster z int negNum hcc hd] at h1; simp only [Except.ok.injEq] at h1; exact ⟨_, h1.symm⟩
    obtain ⟨f, rfl⟩ := hopt
    refine fails_bundle (e := .usage) ?_
    rcases ho with rfl | rfl <;> simp [bundle, nextArg, bundleNext, optFor, optN, optO]
  | apart o ho v hd post hv =>
    obtain ⟨tk, ts, h1, h2, rfl⟩ := classify_head (ne2 (by rcases ho with rfl | rfl | rfl <;> decide)) hc
    rw [parse_letter z int negNum ho] at h1
    simp only [Except.ok.injEq] at h1
    subst h1
    obtain ⟨tk, ts, h1, h2, rfl⟩ := classify_head (by rintro rfl; exact hd rfl) h2
    rw [parse_word hd] at h1
    simp only [Except.ok.injEq] at h1
    subst h1
    exact fails_act (b := ⟨[(optFor int o, [v])], false, true⟩) (by simp only [bundle, nextArg]; exact bundleNext_some o v)
      (.inr (optFor_bad ho hv))
  | joined o ho v hd h0 post hv =>
    obtain ⟨tk, ts, h1, h2, rfl⟩ := classify_head (ne2 (by rcases ho with rfl | rfl | rfl <;> decide)) hc
    cases v with
    | nil => exact absurd rfl h0
    | cons c v =>
      have hce : c ≠ '=' := by simpa using hd
      have hor : o ≠ 'r' := by rcases ho with rfl | rfl | rfl <;> decide
      rw [parse_cluster z int negNum (by rcases ho with rfl | rfl | rfl <;> decide) hce, if_neg hor] at h1
      simp only [Except.ok.injEq] at h1
      subst h1
      exact fails_act (b := ⟨[(optFor int o, [c :: v])], false, false⟩) (by simp only [bundle]; exact bundleExplicit_one o _ _ _)
        (.inr (optFor_bad ho hv))
  | equals o ho v post hv =>
    obtain ⟨tk, ts, h1, h2, rfl⟩ := classify_head (ne2 (by rcases ho with rfl | rfl | rfl <;> decide)) hc
    rw [parse_equals z int negNum ho v] at h1
    simp only [Except.ok.injEq] at h1
    subst h1
    exact fails_act (b := ⟨[(optFor int o, [v])], false, false⟩) (by simp only [bundle]; exact bundleExplicit_one o _ _ _)
      (.inr (optFor_bad ho hv))

end Pot
