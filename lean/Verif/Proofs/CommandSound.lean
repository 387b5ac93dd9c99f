import Verif.Proofs.CommandLine

/-! # Proofs about arbitrary command lines: what a successful parse implies -/

namespace Pot
open Spec
open scoped List

/-- the strings of the value of a positional -/
def PVal.strs : PVal → List Str
  | .one s => [s]
  | .many l => l

/-- neither a `--` among the strings nor the token for it -/
def NoDD (toks : List (Tok Namespace × Str)) : Prop := ∀ t ∈ toks, t.2 ≠ dd ∧ isDashes t = false

/-- an option keeps the positionals and a possible order -/
def Keeps (o : OptAction Namespace) : Prop :=
  ∀ args ns ns', o.act args ns = .ok ns' →
    ns'.problem = ns.problem ∧ ns'.boundary = ns.boundary ∧ (ns.o = 2 ∨ ns.o = 4 → ns'.o = 2 ∨ ns'.o = 4)

theorem intAct_ok {int : Str → Option ℤ} {const : Option ℤ} {ok : ℤ → Bool} {set : ℤ → Namespace → Namespace} {args ns ns'}
    (h : intAct int const ok set args ns = .ok ns') : ∃ n, ns' = set n ns ∧ (ok n = true ∨ const = some n) := by
  unfold intAct at h
  split at h
  · cases const with
    | none => simp at h
    | some n =>
      simp only [Except.ok.injEq] at h
      exact ⟨n, h.symm, .inr rfl⟩
  · split at h
    · simp at h
    · rename_i n _
      split_ifs at h with ho
      simp only [Except.ok.injEq] at h
      exact ⟨n, h.symm, .inl ho⟩

theorem keeps_map {z : Bool} {int : Str → Option ℤ} : ∀ no ∈ cmdMap z int, Keeps no.2 := by
  have hH : Keeps helpOpt := by intro a n n' h; simp [helpOpt] at h
  have hN : Keeps (optN int) := by
    intro a n n' h
    have h : intAct int none (fun _ => true) (fun k ns => { ns with N := k }) a n = .ok n' := h
    obtain ⟨k, rfl, -⟩ := intAct_ok h
    exact ⟨rfl, rfl, id⟩
  have hC : Keeps (optC int) := by
    intro a n n' h
    have h : intAct int (some 128) (fun _ => true) (fun k ns => { ns with c := some k }) a n = .ok n' := h
    obtain ⟨k, rfl, -⟩ := intAct_ok h
    exact ⟨rfl, rfl, id⟩
  have hO : Keeps (optO int) := by
    intro a n n' h
    have h : intAct int none (fun k => k = 2 ∨ k = 4) (fun k ns => { ns with o := k }) a n = .ok n' := h
    obtain ⟨k, rfl, hk⟩ := intAct_ok h
    refine ⟨rfl, rfl, fun _ => ?_⟩
    rcases hk with hk | hk
    · simpa using hk
    · simp at hk
  have hR : Keeps optR := by
    intro a n n' h
    simp only [optR, Except.ok.injEq] at h
    subst h
    exact ⟨rfl, rfl, id⟩
  have hA : Keeps optAcheat := by
    intro a n n' h
    simp only [optAcheat, Except.ok.injEq] at h
    subst h
    exact ⟨rfl, rfl, id⟩
  have hZ : Keeps optZ1cheat := by
    intro a n n' h
    simp only [optZ1cheat, Except.ok.injEq] at h
    subst h
    exact ⟨rfl, rfl, id⟩
  intro no hno
  cases z <;> simp only [cmdMap, List.mem_append, List.mem_cons, List.not_mem_nil, or_false, if_true, Bool.false_eq_true, if_false] at hno
  · rcases hno with rfl | rfl | rfl | rfl | rfl | rfl | rfl <;> assumption
  · rcases hno with (rfl | rfl | rfl | rfl | rfl | rfl | rfl) | rfl <;> assumption

theorem lookup_mem {m : List (Str × OptAction Namespace)} {s : Str} {o : OptAction Namespace} (h : m.lookup s = some o) :
    ∃ no ∈ m, no.2 = o := by
  induction m with
  | nil => simp at h
  | cons a m ih =>
    obtain ⟨k, v⟩ := a
    rw [List.lookup_cons] at h
    split at h
    · simp only [Option.some.injEq] at h
      exact ⟨(k, v), by simp, h⟩
    · obtain ⟨no, h1, h2⟩ := ih h
      exact ⟨no, by simp [h1], h2⟩

/-- the options of the tokens keep the positionals -/
def GoodToks (toks : List (Tok Namespace × Str)) : Prop := ∀ t ∈ toks, ∀ f s, t = (.opt (some f), s) → Keeps f.action

theorem tuples_mem {m : List (Str × OptAction Namespace)} {s : Str} {f : Found Namespace} (h : f ∈ optionTuples m s) :
    ∃ no ∈ m, no.2 = f.action := by
  unfold optionTuples at h
  split at h
  · obtain ⟨no, h1, h2⟩ := List.mem_filterMap.1 h
    split_ifs at h2
    simp only [Option.some.injEq] at h2
    subst h2
    exact ⟨no, h1, rfl⟩
  · obtain ⟨no, h1, h2⟩ := List.mem_filterMap.1 h
    split_ifs at h2 <;>
    · simp only [Option.some.injEq] at h2
      subst h2
      exact ⟨no, h1, rfl⟩

theorem parseOther_ok {negNum : Str → Bool} {m : List (Str × OptAction Namespace)} {s : Str} {t : Tok Namespace}
    (h : parseOther negNum m s = .ok t) : isDashes (t, s) = false ∧ ∀ f, t = .opt (some f) → ∃ no ∈ m, no.2 = f.action := by
  unfold parseOther at h
  split at h
  · simp at h
  · rename_i f hf
    simp only [Except.ok.injEq] at h
    subst h
    refine ⟨rfl, fun f' hf' => ?_⟩
    simp only [Tok.opt.injEq, Option.some.injEq] at hf'
    subst hf'
    exact tuples_mem (s := s) (by rw [hf]; simp)
  · split_ifs at h <;>
    · simp only [Except.ok.injEq] at h
      subst h
      exact ⟨rfl, fun f hf => by simp at hf⟩

theorem parseOptional_ok {negNum : Str → Bool} {m : List (Str × OptAction Namespace)} {s : Str} {t : Tok Namespace}
    (h : parseOptional negNum m s = .ok t) : isDashes (t, s) = false ∧ ∀ f, t = .opt (some f) → ∃ no ∈ m, no.2 = f.action := by
  have arg : ∀ {t : Tok Namespace}, t = .arg → isDashes (t, s) = false ∧ ∀ f, t = .opt (some f) → ∃ no ∈ m, no.2 = f.action := by
    rintro t rfl
    exact ⟨rfl, fun f hf => by simp at hf⟩
  have opt : ∀ {t : Tok Namespace} {f : Found Namespace}, t = .opt (some f) → (∃ no ∈ m, no.2 = f.action) →
      isDashes (t, s) = false ∧ ∀ f, t = .opt (some f) → ∃ no ∈ m, no.2 = f.action := by
    rintro t f rfl hm
    refine ⟨rfl, fun f' hf' => ?_⟩
    simp only [Tok.opt.injEq, Option.some.injEq] at hf'
    subst hf'
    exact hm
  unfold parseOptional at h
  split at h
  · simp only [Except.ok.injEq] at h
    exact arg h.symm
  · rename_i c rest
    by_cases h1 : c ≠ '-'
    · rw [if_pos h1] at h
      simp only [Except.ok.injEq] at h
      exact arg h.symm
    · rw [if_neg h1] at h
      split at h
      · rename_i o ho
        simp only [Except.ok.injEq] at h
        exact opt h.symm (lookup_mem ho)
      · split_ifs at h
        · simp only [Except.ok.injEq] at h
          exact arg h.symm
        · split at h
          · exact parseOther_ok h
          · split at h
            · rename_i o ho
              simp only [Except.ok.injEq] at h
              exact opt h.symm (lookup_mem ho)
            · exact parseOther_ok h

theorem classify_ok {negNum : Str → Bool} {m : List (Str × OptAction Namespace)} (hm : ∀ no ∈ m, Keeps no.2) : ∀ (argv : List Str) toks,
    classify negNum m argv = .ok toks → toks.map Prod.snd = argv ∧ GoodToks toks ∧ (dd ∉ argv → NoDD toks) := by
  intro argv
  induction argv with
  | nil =>
    intro toks h
    simp only [classify, Except.ok.injEq] at h
    subst h
    exact ⟨rfl, by simp [GoodToks], by simp [NoDD]⟩
  | cons s rest ih =>
    intro toks h
    rw [classify] at h
    split_ifs at h with hs
    · simp only [Except.ok.injEq] at h
      subst h
      refine ⟨?_, ?_, ?_⟩
      · rw [List.map_cons, List.map_map]
        simp [Function.comp_def]
      · intro t ht f s' htf
        subst htf
        simp only [List.mem_cons, Prod.mk.injEq, reduceCtorEq, false_and, List.mem_map, exists_false, or_self, and_false] at ht
      · intro h
        exact absurd (by rw [hs]; simp) h
    · cases hp : parseOptional negNum m s with
      | error e => rw [hp] at h; exact absurd h (by simp [bind, Except.bind])
      | ok t =>
        cases hc : classify negNum m rest with
        | error e => rw [hp, hc] at h; exact absurd h (by simp [bind, Except.bind])
        | ok ts =>
          rw [hp, hc] at h
          have h : toks = (t, s) :: ts := by
            have : (Except.ok ((t, s) :: ts) : Except Exit _) = .ok toks := h
            simpa using this.symm
          subst h
          obtain ⟨a1, a2, a3⟩ := ih ts hc
          obtain ⟨b1, b2⟩ := parseOptional_ok hp
          refine ⟨by rw [List.map_cons, a1], ?_, ?_⟩
          · intro t' ht' f s' htf
            rcases List.mem_cons.1 ht' with rfl | ht'
            · simp only [Prod.mk.injEq] at htf
              obtain ⟨no, hno, hf⟩ := b2 f htf.1
              rw [← hf]
              exact hm no hno
            · exact a2 t' ht' f s' htf
          · intro hd t' ht'
            simp only [List.mem_cons, not_or] at hd
            rcases List.mem_cons.1 ht' with rfl | ht'
            · exact ⟨hs, b1⟩
            · exact a3 hd.2 t' ht'

theorem bundleNext_ok {next : Option Str} {o : OptAction Namespace} {b} (h : bundleNext next o = .ok b) :
    (∀ oa ∈ b.acts, oa.1 = o) ∧ (next = none → b.usesNext = false) := by
  unfold bundleNext at h
  split at h <;> simp only [Except.ok.injEq, reduceCtorEq] at h <;> subst h <;> simp

theorem bundleExplicit_ok {m : List (Str × OptAction Namespace)} (hm : ∀ no ∈ m, Keeps no.2) {next : Option Str} :
    ∀ (k : ℕ) (e : Str) (o : OptAction Namespace) (name : Str) (eq : Bool) b, e.length ≤ k → Keeps o →
      bundleExplicit m next o name eq e = .ok b → (∀ oa ∈ b.acts, Keeps oa.1) ∧ (next = none → b.usesNext = false) := by
  intro k
  induction k with
  | zero =>
    intro e o name eq b hk ho h
    have : e = [] := by simpa using hk
    subst this
    rw [bundleExplicit] at h
    split at h
    · simp at h
    · simp only [Except.ok.injEq] at h
      subst h
      simpa using ho
  | succ k ih =>
    intro e o name eq b hk ho h
    cases e with
    | nil =>
      rw [bundleExplicit] at h
      split at h
      · simp at h
      · simp only [Except.ok.injEq] at h
        subst h
        simpa using ho
    | cons c e =>
      rw [bundleExplicit] at h
      split at h
      · split_ifs at h
        split at h
        · simp only [Except.ok.injEq] at h
          subst h
          simpa using ho
        · rename_i o' ho'
          obtain ⟨no, hno, rfl⟩ := lookup_mem ho'
          have hk' : e.length ≤ k := by simpa using hk
          have key : ∀ (r : Except Exit (Bundle Namespace)),
              (∀ b, r = .ok b → (∀ oa ∈ b.acts, Keeps oa.1) ∧ (next = none → b.usesNext = false)) →
              Except.map (fun b => (⟨(o, []) :: b.acts, b.extras, b.usesNext⟩ : Bundle Namespace)) r = .ok b →
              (∀ oa ∈ b.acts, Keeps oa.1) ∧ (next = none → b.usesNext = false) := by
            intro r hr h
            cases r with
            | error e => exact absurd h (by simp [Except.map])
            | ok b' =>
              have : (Except.ok ⟨(o, []) :: b'.acts, b'.extras, b'.usesNext⟩ : Except Exit (Bundle Namespace)) = .ok b := h
              simp only [Except.ok.injEq] at this
              subst this
              obtain ⟨h1, h2⟩ := hr b' rfl
              refine ⟨?_, h2⟩
              intro oa hoa
              rcases List.mem_cons.1 hoa with rfl | hoa
              · exact ho
              · exact h1 oa hoa
          refine key _ ?_ h
          intro b' hb'
          split at hb'
          · obtain ⟨h1, h2⟩ := bundleNext_ok hb'
            exact ⟨fun oa hoa => by rw [h1 oa hoa]; exact hm no hno, h2⟩
          · rename_i e'
            exact ih e' no.2 _ _ b' (by simp only [List.length_cons] at hk'; omega) (hm no hno) hb'
          · exact ih _ no.2 _ _ b' hk' (hm no hno) hb'
      · simp only [Except.ok.injEq] at h
        subst h
        simpa using ho

theorem bundle_ok {m : List (Str × OptAction Namespace)} (hm : ∀ no ∈ m, Keeps no.2) {next : Option Str} {f : Found Namespace}
    (hf : Keeps f.action) {b} (h : bundle m next f = .ok b) :
    (∀ oa ∈ b.acts, Keeps oa.1) ∧ (next = none → b.usesNext = false) := by
  unfold bundle at h
  split at h
  · obtain ⟨h1, h2⟩ := bundleNext_ok h
    exact ⟨fun oa hoa => by rw [h1 oa hoa]; exact hf, h2⟩
  · exact bundleExplicit_ok hm _ _ _ _ _ b le_rfl hf h

theorem takeAll_keeps : ∀ (acts : List (OptAction Namespace × List Str)) (ns ns' : Namespace), (∀ oa ∈ acts, Keeps oa.1) →
    takeAll acts ns = .ok ns' →
    ns'.problem = ns.problem ∧ ns'.boundary = ns.boundary ∧ (ns.o = 2 ∨ ns.o = 4 → ns'.o = 2 ∨ ns'.o = 4) := by
  intro acts
  induction acts with
  | nil =>
    intro ns ns' _ h
    have : (Except.ok ns : Except Exit Namespace) = .ok ns' := h
    simp only [Except.ok.injEq] at this
    subst this
    exact ⟨rfl, rfl, id⟩
  | cons oa acts ih =>
    intro ns ns' hk h
    unfold takeAll at h
    rw [List.foldlM_cons] at h
    cases ha : oa.1.act oa.2 ns with
    | error e => rw [ha] at h; exact absurd h (by simp [bind, Except.bind])
    | ok n1 =>
      rw [ha] at h
      obtain ⟨a1, a2, a3⟩ := hk oa (by simp) _ _ _ ha
      obtain ⟨b1, b2, b3⟩ := ih n1 ns' (fun q hq => hk q (by simp [hq])) h
      exact ⟨b1.trans a1, b2.trans a2, fun h => b3 (a3 h)⟩

theorem consumeOptional_ok {m : List (Str × OptAction Namespace)} (hm : ∀ no ∈ m, Keeps no.2) {f : Option (Found Namespace)}
    {toks : List (Tok Namespace × Str)} (hf : ∀ g, f = some g → Keeps g.action) {ns : Namespace} {out}
    (h : consumeOptional m f toks ns = .ok out) :
    (out.2.2 = toks ∨ out.2.2 = toks.tail ∧ (nextArg toks).isSome) ∧ out.1.problem = ns.problem ∧ out.1.boundary = ns.boundary ∧
      (ns.o = 2 ∨ ns.o = 4 → out.1.o = 2 ∨ out.1.o = 4) := by
  cases f with
  | none =>
    simp only [consumeOptional, Except.ok.injEq] at h
    subst h
    exact ⟨.inl rfl, rfl, rfl, id⟩
  | some g =>
    simp only [consumeOptional] at h
    cases hb : bundle m (nextArg toks) g with
    | error e => rw [hb] at h; exact absurd h (by simp [bind, Except.bind])
    | ok b =>
      obtain ⟨b1, b2⟩ := bundle_ok hm (hf g rfl) hb
      rw [hb] at h
      cases ht : takeAll b.acts ns with
      | error e =>
        have h : (takeAll b.acts ns >>= fun ns => (pure (ns, b.extras, if b.usesNext = true then toks.tail else toks) :
          Except Exit (Namespace × Bool × List (Tok Namespace × Str)))) = .ok out := h
        rw [ht] at h; exact absurd h (by simp [bind, Except.bind])
      | ok n1 =>
        have h : (takeAll b.acts ns >>= fun ns => (pure (ns, b.extras, if b.usesNext = true then toks.tail else toks) :
          Except Exit (Namespace × Bool × List (Tok Namespace × Str)))) = .ok out := h
        rw [ht] at h
        have h : (Except.ok (n1, b.extras, if b.usesNext = true then toks.tail else toks) :
          Except Exit (Namespace × Bool × List (Tok Namespace × Str))) = .ok out := h
        simp only [Except.ok.injEq] at h
        subst h
        refine ⟨?_, takeAll_keeps _ _ _ b1 ht⟩
        simp only
        by_cases hu : b.usesNext = true
        · rw [if_pos hu]
          refine .inr ⟨rfl, ?_⟩
          rw [Option.isSome_iff_ne_none]
          intro hn
          rw [b2 hn] at hu
          simp at hu
        · rw [if_neg hu]; exact .inl rfl

theorem matchOne_ok {toks : List (Tok Namespace × Str)} {args rest} (h : matchOne toks = some (args, rest)) :
    rest <:+ toks ∧ (args ++ rest.map Prod.snd) <+ toks.map Prod.snd ∧ (NoDD toks → ∃ s, args = [s] ∧ s ≠ dd) := by
  unfold matchOne at h
  split at h
  · rename_i s r hd
    simp only [Option.some.injEq, Prod.mk.injEq] at h
    obtain ⟨rfl, rfl⟩ := h
    have e1 : toks = toks.takeWhile isDashes ++ (.arg, s) :: (r.takeWhile isDashes ++ r.dropWhile isDashes) := by
      rw [List.takeWhile_append_dropWhile, ← hd, List.takeWhile_append_dropWhile]
    refine ⟨?_, ?_, ?_⟩
    · refine (List.dropWhile_suffix _).trans ?_
      refine (List.suffix_cons (.arg, s) r).trans ?_
      rw [← hd]
      exact List.dropWhile_suffix _
    · conv_rhs => rw [e1]
      simp only [List.map_append, List.map_cons, List.append_assoc, List.cons_append]
      exact List.Sublist.refl _
    · intro hN
      have t1 : toks.takeWhile isDashes = [] := by
        rw [List.takeWhile_eq_nil_iff]
        intro h0
        have := (hN _ (List.getElem_mem h0)).2
        simpa using this
      have t2 : r.takeWhile isDashes = [] := by
        rw [List.takeWhile_eq_nil_iff]
        intro h0
        have hmem : r[0] ∈ toks := by
          rw [e1, List.takeWhile_append_dropWhile]
          simp
        have := (hN _ hmem).2
        simpa using this
      refine ⟨s, by simp [t1, t2], ?_⟩
      refine (hN (.arg, s) ?_).1
      rw [e1]
      simp
  · simp at h

/-- the value `v` of a positional made from the strings `args` -/
def ValOf (choices : List String) (args : List Str) (v : PVal) : Prop :=
  v.strs = args.erase dd ∧ (∀ s ∈ v.strs, s ∈ choices.map String.toList) ∧ ∀ s, args = [s] → s ≠ dd → v = .one s

theorem positionalAct_ok {choices : List String} {set : PVal → Namespace → Namespace} {args ns ns'}
    (h : positionalAct choices set args ns = .ok ns') : ∃ v, ns' = set v ns ∧ ValOf choices args v := by
  unfold positionalAct at h
  split at h
  · rename_i s hs
    split_ifs at h with hc
    simp only [Except.ok.injEq] at h
    refine ⟨.one s, h.symm, hs.symm, by simpa [PVal.strs] using hc, ?_⟩
    rintro s' rfl hs'
    rw [List.erase_of_not_mem (by simpa using Ne.symm hs')] at hs
    simp only [List.cons.injEq, and_true] at hs
    rw [hs]
  · rename_i hl
    split_ifs at h with hc
    simp only [Except.ok.injEq] at h
    refine ⟨.many (args.erase dd), h.symm, rfl, hc, ?_⟩
    rintro s rfl hs
    rw [List.erase_of_not_mem (by simpa using Ne.symm hs)] at hl
    exact absurd rfl (hl s)

/-- what a successful parse with `w` positionals still expected has done, on strings `strs` -/
def Parsed (w : ℕ) (strs : List Str) (plain : Prop) (ns ns' : Namespace) : Prop :=
  (ns.o = 2 ∨ ns.o = 4 → ns'.o = 2 ∨ ns'.o = 4) ∧
  match w with
  | 0 => ns'.problem = ns.problem ∧ ns'.boundary = ns.boundary
  | 1 => ns'.problem = ns.problem ∧ (∀ s ∈ ns'.boundary.strs, s ∈ boundaryNames.map String.toList) ∧ ns'.boundary.strs <+ strs ∧
      (plain → ∃ s, ns'.boundary = .one s)
  | _ => ∃ v, ns'.problem = some v ∧ (∀ s ∈ v.strs, s ∈ problemNames.map String.toList) ∧
      (∀ s ∈ ns'.boundary.strs, s ∈ boundaryNames.map String.toList) ∧ (v.strs ++ ns'.boundary.strs) <+ strs ∧
      (plain → (∃ s, v = .one s) ∧ ∃ s, ns'.boundary = .one s)

theorem Parsed.mono {w : ℕ} {strs strs' : List Str} {P P' : Prop} {ns n1 ns' : Namespace} (h : Parsed w strs P n1 ns')
    (hs : strs <+ strs') (hP : P' → P) (h1 : n1.problem = ns.problem) (h2 : n1.boundary = ns.boundary)
    (h3 : ns.o = 2 ∨ ns.o = 4 → n1.o = 2 ∨ n1.o = 4) : Parsed w strs' P' ns ns' := by
  obtain ⟨a, b⟩ := h
  refine ⟨fun h => a (h3 h), ?_⟩
  match w, b with
  | 0, ⟨b1, b2⟩ => exact ⟨b1.trans h1, b2.trans h2⟩
  | 1, ⟨b1, b2, b3, b4⟩ => exact ⟨b1.trans h1, b2, b3.trans hs, fun h => b4 (hP h)⟩
  | (_ + 2), ⟨v, b1, b2, b3, b4, b5⟩ => exact ⟨v, b1, b2, b3, b4.trans hs, fun h => b5 (hP h)⟩

theorem noDD_suffix {toks toks' : List (Tok Namespace × Str)} (h : toks' <:+ toks) (hN : NoDD toks) : NoDD toks' :=
  fun t ht => hN t (h.subset ht)

/-- `consume_positionals`, in terms of what happens afterwards -/
theorem consumePositionals_ok {w : ℕ} (hw : w ≤ 2) {toks : List (Tok Namespace × Str)} {ns : Namespace} {out}
    (h : consumePositionals (posOf w) toks ns = .ok out) :
    ∃ w', w' ≤ 2 ∧ out.1 = posOf w' ∧ out.2.1 <:+ toks ∧ ∀ ns', Parsed w' (out.2.1.map Prod.snd) (NoDD out.2.1) out.2.2 ns' →
      Parsed w (toks.map Prod.snd) (NoDD toks) ns ns' := by
  -- with one positional
  have one : ∀ {toks : List (Tok Namespace × Str)} {ns : Namespace} {out}, consumePositionals [posB] toks ns = .ok out →
      ∃ w', w' ≤ 1 ∧ out.1 = posOf w' ∧ out.2.1 <:+ toks ∧ ∀ ns', Parsed w' (out.2.1.map Prod.snd) (NoDD out.2.1) out.2.2 ns' →
        Parsed 1 (toks.map Prod.snd) (NoDD toks) ns ns' := by
    intro toks ns out h
    rw [consumePositionals] at h
    split at h
    · simp only [Except.ok.injEq] at h
      subst h
      exact ⟨1, le_rfl, rfl, List.suffix_refl _, fun ns' h => h⟩
    · rename_i args rest hm
      obtain ⟨m1, m2, m3⟩ := matchOne_ok hm
      cases hp : posB args ns with
      | error e => rw [hp] at h; exact absurd h (by simp [bind, Except.bind])
      | ok n1 =>
        rw [hp] at h
        have h : (Except.ok ([], rest, n1) : Except Exit (List (List Str → Namespace → Except Exit Namespace) ×
          List (Tok Namespace × Str) × Namespace)) = .ok out := h
        simp only [Except.ok.injEq] at h
        subst h
        obtain ⟨v, rfl, v1, v2, v3⟩ := positionalAct_ok hp
        refine ⟨0, by omega, rfl, m1, ?_⟩
        rintro ns' ⟨a, b1, b2⟩
        simp only at b1 b2 a
        refine ⟨a, b1, ?_, ?_, ?_⟩
        · rw [b2]; exact v2
        · rw [b2, v1]
          exact (List.erase_sublist).trans ((List.sublist_append_left _ _).trans m2)
        · intro hN
          obtain ⟨s, rfl, hs⟩ := m3 hN
          exact ⟨s, by rw [b2]; exact v3 s rfl hs⟩
  match w, hw with
  | 0, _ =>
    simp only [posOf, consumePositionals, Except.ok.injEq] at h
    subst h
    exact ⟨0, by omega, rfl, List.suffix_refl _, fun ns' h => h⟩
  | 1, _ =>
    obtain ⟨w', a1, a2, a3, a4⟩ := one h
    exact ⟨w', by omega, a2, a3, a4⟩
  | 2, _ =>
    have h : consumePositionals [posP, posB] toks ns = .ok out := h
    rw [consumePositionals] at h
    split at h
    · simp only [Except.ok.injEq] at h
      subst h
      exact ⟨2, le_rfl, rfl, List.suffix_refl _, fun ns' h => h⟩
    · rename_i args rest hm
      obtain ⟨m1, m2, m3⟩ := matchOne_ok hm
      cases hp : posP args ns with
      | error e => rw [hp] at h; exact absurd h (by simp [bind, Except.bind])
      | ok n1 =>
        rw [hp] at h
        have h : consumePositionals [posB] rest n1 = .ok out := h
        obtain ⟨w', a1, a2, a3, a4⟩ := one h
        obtain ⟨v, rfl, v1, v2, v3⟩ := positionalAct_ok hp
        refine ⟨w', by omega, a2, a3.trans m1, fun ns' hns' => ?_⟩
        obtain ⟨b0, b1, b2, b3, b4⟩ := a4 ns' hns'
        simp only at b0 b1
        refine ⟨b0, v, b1, v2, b2, ?_, ?_⟩
        · rw [v1]
          exact (List.Sublist.append List.erase_sublist b3).trans m2
        · intro hN
          obtain ⟨s, rfl, hs⟩ := m3 hN
          exact ⟨⟨s, v3 s rfl hs⟩, b4 (noDD_suffix m1 hN)⟩

theorem finish_ok {w : ℕ} (hw : w ≤ 2) {toks : List (Tok Namespace × Str)} {ns ns' : Namespace} {ex : Bool}
    (h : finish (posOf w) toks ns ex = .ok ns') : Parsed w (toks.map Prod.snd) (NoDD toks) ns ns' := by
  unfold finish at h
  cases hc : consumePositionals (posOf w) toks ns with
  | error e => rw [hc] at h; exact absurd h (by simp [bind, Except.bind])
  | ok out =>
    rw [hc] at h
    obtain ⟨w', a1, a2, a3, a4⟩ := consumePositionals_ok hw hc
    have h : (if out.1 ≠ [] then (.error .usage : Except Exit Namespace)
      else if (ex = true ∨ out.2.1 ≠ []) then .error .usage else pure out.2.2) = .ok ns' := h
    split_ifs at h with h1 h2
    have h : (Except.ok out.2.2 : Except Exit Namespace) = .ok ns' := h
    simp only [Except.ok.injEq] at h
    subst h
    refine a4 _ ?_
    have hw0 : w' = 0 := by
      rw [a2] at h1
      match w', a1 with
      | 0, _ => rfl
      | 1, _ => simp [posOf] at h1
      | 2, _ => simp [posOf] at h1
    subst hw0
    exact ⟨id, rfl, rfl⟩

theorem headOpt_some {toks : List (Tok Namespace × Str)} {f rest} (h : headOpt toks = some (f, rest)) : ∃ s, toks = (.opt f, s) :: rest := by
  unfold headOpt at h
  split at h
  · rename_i f' s r
    simp only [Option.some.injEq, Prod.mk.injEq] at h
    obtain ⟨rfl, rfl⟩ := h
    exact ⟨s, rfl⟩
  · simp at h

/-- the main loop -/
theorem parseLoop_ok {m : List (Str × OptAction Namespace)} (hm : ∀ no ∈ m, Keeps no.2) : ∀ (fuel w : ℕ) (toks : List (Tok Namespace × Str))
    (ns ns' : Namespace) (ex : Bool), w ≤ 2 → GoodToks toks → parseLoop m fuel (posOf w) toks ns ex = .ok ns' →
    Parsed w (toks.map Prod.snd) (NoDD toks) ns ns' := by
  intro fuel
  induction fuel with
  | zero => intro w toks ns ns' ex hw _ h; exact finish_ok hw h
  | succ fuel ih =>
    intro w toks ns ns' ex hw hg h
    rw [parseLoop] at h
    split_ifs at h with hany
    · split at h
      · rename_i f rest hh
        obtain ⟨s, rfl⟩ := headOpt_some hh
        have hf : ∀ g, f = some g → Keeps g.action := by
          rintro g rfl
          exact hg _ (by simp) g s rfl
        cases hc : consumeOptional m f rest ns with
        | error e => rw [hc] at h; exact absurd h (by simp [bind, Except.bind])
        | ok out =>
          rw [hc] at h
          obtain ⟨c1, c2, c3, c4⟩ := consumeOptional_ok hm hf hc
          have hsuf : out.2.2 <:+ (Tok.opt f, s) :: rest := by
            rcases c1 with c1 | ⟨c1, -⟩ <;> rw [c1]
            · exact List.suffix_cons _ _
            · exact (List.tail_suffix _).trans (List.suffix_cons _ _)
          exact (ih w out.2.2 out.1 ns' _ hw (fun t ht => hg t (hsuf.subset ht)) h).mono (hsuf.sublist.map _) (noDD_suffix hsuf) c2 c3 c4
      · cases hc : consumePositionals (posOf w) toks ns with
        | error e => rw [hc] at h; exact absurd h (by simp [bind, Except.bind])
        | ok out =>
          rw [hc] at h
          obtain ⟨w', a1, a2, a3, a4⟩ := consumePositionals_ok hw hc
          have h : (if out.2.1.length < toks.length then parseLoop m fuel out.1 out.2.1 out.2.2 ex
            else parseLoop m fuel out.1 (out.2.1.dropWhile fun t => !isOpt t) out.2.2 true) = .ok ns' := h
          rw [a2] at h
          refine a4 _ ?_
          split_ifs at h
          · exact ih w' out.2.1 out.2.2 ns' _ a1 (fun t ht => hg t (a3.subset ht)) h
          · have hd := List.dropWhile_suffix (l := out.2.1) fun t => !isOpt t
            exact (ih w' _ out.2.2 ns' _ a1 (fun t ht => hg t (a3.subset (hd.subset ht))) h).mono (hd.sublist.map _) (noDD_suffix hd) rfl rfl id
    · exact finish_ok hw h

/-! ## `-c` before a word -/

theorem matchOne_keep {pre tail : List (Tok Namespace × Str)} {f s args rest} (h : matchOne (pre ++ (.opt f, s) :: tail) = some (args, rest)) :
    ∃ pre', rest = pre' ++ (.opt f, s) :: tail ∧ pre'.length < pre.length := by
  have hdrop : ∀ pre : List (Tok Namespace × Str), ∃ pre', (pre ++ (.opt f, s) :: tail).dropWhile isDashes = pre' ++ (.opt f, s) :: tail ∧
      pre'.length ≤ pre.length := by
    intro pre
    induction pre with
    | nil => exact ⟨[], rfl, le_rfl⟩
    | cons t pre ih =>
      rw [List.cons_append, List.dropWhile_cons]
      split_ifs with ht
      · obtain ⟨p, h1, h2⟩ := ih
        exact ⟨p, h1, by simp only [List.length_cons]; omega⟩
      · exact ⟨t :: pre, rfl, le_rfl⟩
  unfold matchOne at h
  obtain ⟨p1, h1, h1l⟩ := hdrop pre
  rw [h1] at h
  split at h
  · rename_i s' r hd
    simp only [Option.some.injEq, Prod.mk.injEq] at h
    obtain ⟨-, rfl⟩ := h
    cases p1 with
    | nil => simp at hd
    | cons t p1 =>
      simp only [List.cons_append, List.cons.injEq] at hd
      obtain ⟨-, rfl⟩ := hd
      obtain ⟨p2, h2, h2l⟩ := hdrop p1
      refine ⟨p2, h2, ?_⟩
      simp only [List.length_cons] at h1l
      omega
  · simp at h

theorem consumePositionals_keep {f s} {tail : List (Tok Namespace × Str)} : ∀ (ps : List (List Str → Namespace → Except Exit Namespace))
    (pre : List (Tok Namespace × Str)) (ns : Namespace) out, consumePositionals ps (pre ++ (.opt f, s) :: tail) ns = .ok out →
    ∃ pre', out.2.1 = pre' ++ (.opt f, s) :: tail ∧ pre'.length ≤ pre.length := by
  intro ps
  induction ps with
  | nil =>
    intro pre ns out h
    simp only [consumePositionals, Except.ok.injEq] at h
    subst h
    exact ⟨pre, rfl, le_rfl⟩
  | cons p ps ih =>
    intro pre ns out h
    rw [consumePositionals] at h
    split at h
    · simp only [Except.ok.injEq] at h
      subst h
      exact ⟨pre, rfl, le_rfl⟩
    · rename_i args rest hm
      obtain ⟨pre', rfl, hl⟩ := matchOne_keep hm
      cases hp : p args ns with
      | error e => rw [hp] at h; exact absurd h (by simp [bind, Except.bind])
      | ok n1 =>
        rw [hp] at h
        obtain ⟨p2, h1, h2⟩ := ih pre' n1 out h
        exact ⟨p2, h1, by omega⟩

theorem finish_extras {ps : List (List Str → Namespace → Except Exit Namespace)} {toks : List (Tok Namespace × Str)} {ns ns' : Namespace} :
    finish ps toks ns true ≠ .ok ns' := by
  intro h
  unfold finish at h
  cases hc : consumePositionals ps toks ns with
  | error e => rw [hc] at h; exact absurd h (by simp [bind, Except.bind])
  | ok out =>
    rw [hc] at h
    have h : (if out.1 ≠ [] then (.error .usage : Except Exit Namespace)
      else if (true = true ∨ out.2.1 ≠ []) then .error .usage else pure out.2.2) = .ok ns' := h
    split_ifs at h with h1 h2
    · exact h2 (.inl rfl)

/-- once something is left over, the command line is not accepted -/
theorem loop_extras {m : List (Str × OptAction Namespace)} : ∀ (fuel : ℕ) (ps : List (List Str → Namespace → Except Exit Namespace))
    (toks : List (Tok Namespace × Str)) (ns ns' : Namespace), parseLoop m fuel ps toks ns true ≠ .ok ns' := by
  intro fuel
  induction fuel with
  | zero => intro ps toks ns ns'; exact finish_extras
  | succ fuel ih =>
    intro ps toks ns ns' h
    rw [parseLoop] at h
    split_ifs at h with hany
    · split at h
      · rename_i f rest hh
        cases hc : consumeOptional m f rest ns with
        | error e => rw [hc] at h; exact absurd h (by simp [bind, Except.bind])
        | ok out => rw [hc] at h; exact ih _ _ _ _ h
      · cases hc : consumePositionals ps toks ns with
        | error e => rw [hc] at h; exact absurd h (by simp [bind, Except.bind])
        | ok out =>
          rw [hc] at h
          have h : (if out.2.1.length < toks.length then parseLoop m fuel out.1 out.2.1 out.2.2 true
            else parseLoop m fuel out.1 (out.2.1.dropWhile fun t => !isOpt t) out.2.2 true) = .ok ns' := h
          split_ifs at h <;> exact ih _ _ _ _ h
    · exact finish_extras h

/-- an option that fails on the token that follows, or leaves something over, is always reached -/
theorem loop_reached {m : List (Str × OptAction Namespace)} (hm : ∀ no ∈ m, Keeps no.2) {f : Option (Found Namespace)} {s : Str}
    {tail : List (Tok Namespace × Str)} (hbad : ∀ ns out, consumeOptional m f tail ns = .ok out → out.2.1 = true) :
    ∀ (fuel : ℕ) (ps : List (List Str → Namespace → Except Exit Namespace)) (pre : List (Tok Namespace × Str)) (ns : Namespace) (ex : Bool),
      pre.length < fuel → GoodToks (pre ++ (.opt f, s) :: tail) →
      ∀ ns', parseLoop m fuel ps (pre ++ (.opt f, s) :: tail) ns ex ≠ .ok ns' := by
  intro fuel
  induction fuel with
  | zero => intro ps pre ns ex h; omega
  | succ fuel ih =>
    intro ps pre ns ex hl hg ns'
    have hany : (pre ++ (.opt f, s) :: tail).any isOpt = true := by simp [isOpt]
    rw [parseLoop, if_pos hany]
    cases hh : headOpt (pre ++ (.opt f, s) :: tail) with
    | some fr =>
      obtain ⟨g, rest⟩ := fr
      obtain ⟨s', he⟩ := headOpt_some hh
      simp only
      cases pre with
      | nil =>
        simp only [List.nil_append, List.cons.injEq, Prod.mk.injEq, Tok.opt.injEq] at he
        obtain ⟨⟨rfl, rfl⟩, rfl⟩ := he
        cases hc : consumeOptional m f tail ns with
        | error e => simp [bind, Except.bind]
        | ok out =>
          show parseLoop m fuel ps out.2.2 out.1 (ex || out.2.1) ≠ _
          rw [hbad ns out hc, Bool.or_true]
          exact loop_extras _ _ _ _ _
      | cons t pre =>
        simp only [List.cons_append, List.cons.injEq] at he
        obtain ⟨rfl, rfl⟩ := he
        have hf : ∀ g', g = some g' → Keeps g'.action := by
          rintro g' rfl
          exact hg _ (by simp) g' s' rfl
        cases hc : consumeOptional m g (pre ++ (.opt f, s) :: tail) ns with
        | error e => simp [bind, Except.bind]
        | ok out =>
          obtain ⟨c1, -⟩ := consumeOptional_ok hm hf hc
          simp only [List.length_cons] at hl
          have hg' : GoodToks (pre ++ (.opt f, s) :: tail) := fun t ht => hg t (by simp only [List.cons_append, List.mem_cons]; exact .inr ht)
          rcases c1 with c1 | ⟨c1, c2⟩
          · show parseLoop m fuel ps out.2.2 out.1 (ex || out.2.1) ≠ _
            rw [c1]
            exact ih ps pre out.1 (ex || out.2.1) (by omega) hg' ns'
          · cases pre with
            | nil => simp [nextArg] at c2
            | cons t' pre =>
              simp only [List.length_cons] at hl
              show parseLoop m fuel ps out.2.2 out.1 (ex || out.2.1) ≠ _
              rw [c1]
              exact ih ps pre out.1 (ex || out.2.1) (by omega)
                (fun t ht => hg' t (by simp only [List.cons_append, List.mem_cons]; exact .inr ht)) ns'
    | none =>
      simp only
      cases hc : consumePositionals ps (pre ++ (.opt f, s) :: tail) ns with
      | error e => simp [bind, Except.bind]
      | ok out =>
        obtain ⟨pre', h1, h2⟩ := consumePositionals_keep ps pre ns out hc
        have hne : pre ≠ [] := by
          rintro rfl
          simp [headOpt] at hh
        have hpos : 0 < pre.length := List.length_pos_iff.2 hne
        show (if out.2.1.length < (pre ++ (.opt f, s) :: tail).length then parseLoop m fuel out.1 out.2.1 out.2.2 ex
            else parseLoop m fuel out.1 (out.2.1.dropWhile fun t => !isOpt t) out.2.2 true) ≠ .ok ns'
        have hgt : GoodToks ((.opt f, s) :: tail) := fun t ht => hg t (by simp only [List.mem_append]; exact .inr ht)
        have hgp : ∀ {p : List (Tok Namespace × Str)}, p <:+ pre → GoodToks (p ++ (.opt f, s) :: tail) := by
          intro p hp t ht
          rcases List.mem_append.1 ht with ht | ht
          · exact hg t (by simp only [List.mem_append]; exact .inl (hp.subset ht))
          · exact hgt t ht
        have hsuf : out.2.1 <:+ pre ++ (.opt f, s) :: tail → pre' <:+ pre := by
          intro hs
          rw [h1] at hs
          obtain ⟨q, hq⟩ := hs
          rw [← List.append_assoc] at hq
          have := List.append_cancel_right hq
          exact ⟨q, this⟩
        have hps : out.2.1 <:+ pre ++ (.opt f, s) :: tail := by
          -- every step of the positionals leaves a suffix
          clear hbad ih hh hsuf
          have : ∀ (ps : List (List Str → Namespace → Except Exit Namespace)) (toks : List (Tok Namespace × Str)) (ns : Namespace) out,
              consumePositionals ps toks ns = .ok out → out.2.1 <:+ toks := by
            intro ps
            induction ps with
            | nil =>
              intro toks ns out h
              simp only [consumePositionals, Except.ok.injEq] at h
              subst h
              exact List.suffix_refl _
            | cons p ps ih =>
              intro toks ns out h
              rw [consumePositionals] at h
              split at h
              · simp only [Except.ok.injEq] at h
                subst h
                exact List.suffix_refl _
              · rename_i args rest hm
                cases hp : p args ns with
                | error e => rw [hp] at h; exact absurd h (by simp [bind, Except.bind])
                | ok n1 =>
                  rw [hp] at h
                  exact (ih rest n1 out h).trans (matchOne_ok hm).1
          exact this _ _ _ _ hc
        have hpre := hsuf hps
        split_ifs with hlt
        · rw [h1] at hlt ⊢
          simp only [List.length_append, List.length_cons] at hlt
          exact ih out.1 pre' out.2.2 ex (by omega) (hgp hpre) ns'
        · have hpre2 : ∃ p2, (out.2.1.dropWhile fun t => !isOpt t) = p2 ++ (.opt f, s) :: tail ∧ p2 <:+ pre' ∧
              (pre' = pre → p2.length < pre.length) := by
            rw [h1]
            have gen : ∀ q : List (Tok Namespace × Str), ∃ p2, ((q ++ (.opt f, s) :: tail).dropWhile fun t => !isOpt t) =
                p2 ++ (.opt f, s) :: tail ∧ p2 <:+ q := by
              intro q
              induction q with
              | nil => exact ⟨[], by simp [isOpt], List.suffix_refl _⟩
              | cons t q ih =>
                rw [List.cons_append, List.dropWhile_cons]
                split_ifs with ht
                · obtain ⟨p, e1, e2⟩ := ih
                  exact ⟨p, e1, e2.trans (List.suffix_cons _ _)⟩
                · exact ⟨t :: q, rfl, List.suffix_refl _⟩
            obtain ⟨p2, e1, e2⟩ := gen pre'
            refine ⟨p2, e1, e2, ?_⟩
            rintro rfl
            refine lt_of_le_of_ne e2.length_le fun hl2 => ?_
            have heq := e2.eq_of_length hl2
            subst heq
            cases p2 with
            | nil => exact hne rfl
            | cons t p2 =>
              have h3 : isOpt t = true := by
                by_contra hno
                rw [List.cons_append, List.dropWhile_cons, if_pos (by simpa using hno)] at e1
                have := congrArg List.length e1
                have h4 := (List.dropWhile_sublist (fun t => !isOpt t) (l := p2 ++ (.opt f, s) :: tail)).length_le
                simp only [List.length_cons, List.length_append] at this h4
                omega
              obtain ⟨tk, st⟩ := t
              cases tk with
              | opt g => simp [headOpt] at hh
              | arg => simp [isOpt] at h3
              | dashes => simp [isOpt] at h3
          obtain ⟨p2, e1, e2, e3⟩ := hpre2
          rw [e1]
          refine ih out.1 p2 out.2.2 true ?_ (hgp (e2.trans hpre)) ns'
          have := e2.length_le
          by_cases hpp : pre' = pre
          · have := e3 hpp
            omega
          · have h5 : pre'.length < pre.length := lt_of_le_of_ne hpre.length_le fun h => hpp (hpre.eq_of_length h)
            omega

end Pot
