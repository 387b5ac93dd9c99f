/-
A check that no execution of a statement of `Model/Names.lean` reads an unbound name, that it is sound, and a search for
executions that do.
-/
import Verif.Model.Names
import Mathlib.Tactic.Common
import Mathlib.Data.Nat.Bitwise

namespace Pot.Names

/-! ## sets of names as numbers -/

/-- the number of a list of names -/
def mask : List ℕ → ℕ
  | [] => 0
  | x :: l => 2 ^ x ||| mask l

theorem testBit_mask (l : List ℕ) (x : ℕ) : (mask l).testBit x = true ↔ x ∈ l := by
  induction l with
  | nil => simp [mask]
  | cons y l ih =>
    simp only [mask, Nat.testBit_or, Bool.or_eq_true, ih, Nat.testBit_two_pow, decide_eq_true_eq, List.mem_cons]
    exact or_congr_left eq_comm

/-- the names of the number -/
def bits (k : ℕ) : Set ℕ := fun x => k.testBit x = true

theorem bits_or_mask (k : ℕ) (l : List ℕ) : bits (k ||| mask l) = bits k ∪ setOf l := by
  ext x
  change (k ||| mask l).testBit x = true ↔ k.testBit x = true ∨ x ∈ l
  rw [Nat.testBit_or, Bool.or_eq_true, testBit_mask]

theorem bits_mask (l : List ℕ) : bits (mask l) = setOf l := by
  ext x
  exact testBit_mask l x

/-- the names of `k` that are not in `l` -/
def minus (k : ℕ) (l : List ℕ) : ℕ := k ^^^ (k &&& mask l)

theorem testBit_minus (k : ℕ) (l : List ℕ) (x : ℕ) : (minus k l).testBit x = true ↔ k.testBit x = true ∧ x ∉ l := by
  rw [minus, Nat.testBit_xor, Nat.testBit_and, ← testBit_mask l]
  cases k.testBit x <;> cases (mask l).testBit x <;> simp

theorem bits_minus (k : ℕ) (l : List ℕ) : bits (minus k l) = bits k \ setOf l := by
  ext x
  exact testBit_minus k l x

theorem bits_and (a b : ℕ) : bits (a &&& b) = bits a ∩ bits b := by
  ext x
  change (a &&& b).testBit x = true ↔ a.testBit x = true ∧ b.testBit x = true
  rw [Nat.testBit_and, Bool.and_eq_true]

/-! ## executions only bind names -/

theorem exec_mono {fs : List Func} {v : ℕ} {c : Cmd} {s s' : St} {o : Out} (h : Exec fs v c s o s') :
    s.g ⊆ s'.g ∧ s.l ⊆ s'.l := by
  induction h with
  | st => exact ⟨subset_rfl, Set.subset_union_left⟩
  | bg => exact ⟨Set.subset_union_left, subset_rfl⟩
  | seq _ _ h1 h2 => exact ⟨h1.1.trans h2.1, h1.2.trans h2.2⟩
  | again _ _ _ h1 h2 => exact ⟨h1.1.trans h2.1, h1.2.trans h2.2⟩
  | handle _ _ h1 h2 => exact ⟨h1.1.trans h2.1, h1.2.trans h2.2⟩
  | stop _ _ h => exact h
  | altT _ _ h => exact h
  | altF _ _ h => exact h
  | leave _ _ h => exact h
  | tri _ h => exact h
  | frame _ h => exact ⟨h.1, subset_rfl⟩
  | call _ _ _ h => exact ⟨h.1, subset_rfl⟩
  | _ => exact ⟨subset_rfl, subset_rfl⟩

/-! ## the check -/

/-- what is left after two branches: `none` if a branch is rejected, `some none` if neither ends normally -/
def join : Option (Option (ℕ × ℕ)) → Option (Option (ℕ × ℕ)) → Option (Option (ℕ × ℕ))
  | none, _ => none
  | _, none => none
  | some none, r => r
  | r, some none => r
  | some (some a), some (some b) => some (some (a.1 &&& b.1, a.2 &&& b.2))

/-- may the test have this result? -/
def Test.canB (v : ℕ) : Test → Bool → Bool
  | .any, _ => true
  | .on vs, b => b == decide (v ∈ vs)
  | .yes vs, b => !decide (v ∈ vs) || b
  | .no vs, b => !decide (v ∈ vs) || !b

theorem canB_iff (v : ℕ) (t : Test) (b : Bool) : t.canB v b = true ↔ t.can v b := by
  cases t with
  | any => simp [Test.canB, Test.can]
  | on vs => simp [Test.canB, Test.can]
  | yes vs => by_cases hv : v ∈ vs <;> simp [Test.canB, Test.can, hv]
  | no vs => by_cases hv : v ∈ vs <;> simp [Test.canB, Test.can, hv]

/-- `none` if a read of a name that is not certainly bound (and not one of the module-level names `X`) is found; otherwise
the names that are bound for certain when the statement ends normally. -/
def an (X : ℕ) (fs : List Func) (v : ℕ) : Cmd → ℕ × ℕ → Option (Option (ℕ × ℕ))
  | .skip, K => some (some K)
  | .st gs ls bs, K =>
    if gs.all (fun x => K.1.testBit x || X.testBit x) && ls.all (fun x => K.2.testBit x)
    then some (some (K.1, K.2 ||| mask bs)) else none
  | .bg gs, K => some (some (K.1 ||| mask gs, K.2))
  | .seq c d, K =>
    match an X fs v c K with
    | none => none
    | some none => some none
    | some (some K') => an X fs v d K'
  | .alt t c d, K =>
    join (bif t.canB v true then an X fs v c K else some none) (bif t.canB v false then an X fs v d K else some none)
  | .loop c, K => match an X fs v c K with
    | none => none
    | some _ => some (some K)
  | .ret, _ => some none
  | .brk, _ => some none
  | .cont, _ => some none
  | .raise, _ => some none
  | .may, K => some (some K)
  | .tri c h, K => join (an X fs v c K) (an X fs v h K)
  | .frame own c, K => match an X fs v c (K.1, minus K.2 own) with
    | none => none
    | some _ => some (some K)
  | .call f vs, K => match fs[f]? with
    | none => none
    | some fn => if vs.all (fun w => decide (w ∈ fn.cases)) && fn.uses.all (fun x => K.1.testBit x)
      then some (some K) else none

/-- all functions of the list pass the check for their cases -/
def checkFuncs (X : ℕ) (fs : List Func) : Bool :=
  fs.all fun fn => fn.cases.all fun v => (an X fs v fn.body (mask fn.uses, mask (List.range fn.params))).isSome

/-- the names of the number are bound -/
def Sub (K : ℕ × ℕ) (s : St) : Prop := bits K.1 ⊆ s.g ∧ bits K.2 ⊆ s.l

/-- not a read of an unbound name, except of one of `X` -/
def Fine (X : ℕ) (o : Out) : Prop := (∀ x, o = .lostG x → X.testBit x = true) ∧ ∀ x, o ≠ .lostL x

theorem join_some {a b : Option (Option (ℕ × ℕ))} {r} (h : join a b = some r) :
    ∃ p q, a = some p ∧ b = some q ∧ ((∃ k, p = some k) ∨ (∃ k, q = some k) → ∃ k, r = some k ∧
      (∀ k', p = some k' → bits k.1 ⊆ bits k'.1 ∧ bits k.2 ⊆ bits k'.2) ∧
      (∀ k', q = some k' → bits k.1 ⊆ bits k'.1 ∧ bits k.2 ⊆ bits k'.2)) := by
  match a, b, h with
  | some none, some none, h => exact ⟨none, none, rfl, rfl, by simp⟩
  | some none, some (some k), h =>
    refine ⟨none, some k, rfl, rfl, fun _ => ⟨k, ?_, by simp, ?_⟩⟩
    · exact (Option.some.inj h).symm
    · rintro k' hk
      cases hk
      exact ⟨subset_rfl, subset_rfl⟩
  | some (some k), some none, h =>
    refine ⟨some k, none, rfl, rfl, fun _ => ⟨k, ?_, ?_, by simp⟩⟩
    · exact (Option.some.inj h).symm
    · rintro k' hk
      cases hk
      exact ⟨subset_rfl, subset_rfl⟩
  | some (some k), some (some k2), h =>
    refine ⟨some k, some k2, rfl, rfl, fun _ => ⟨(k.1 &&& k2.1, k.2 &&& k2.2), ?_, ?_, ?_⟩⟩
    · exact (Option.some.inj h).symm
    · rintro k' hk
      cases hk
      rw [bits_and, bits_and]
      exact ⟨Set.inter_subset_left, Set.inter_subset_left⟩
    · rintro k' hk
      cases hk
      rw [bits_and, bits_and]
      exact ⟨Set.inter_subset_right, Set.inter_subset_right⟩

theorem fine_up {X : ℕ} {o : Out} (h : Fine X o) : Fine X o.up := by
  cases o <;> first | exact h | exact ⟨by simp [Out.up], by simp [Out.up]⟩

theorem fine_loop {X : ℕ} {o o' : Out} (h : Fine X o) (e : o.ofLoop = some o') : Fine X o' := by
  cases o <;> simp only [Out.ofLoop, Option.some.injEq, reduceCtorEq] at e <;> subst e <;>
    first | exact h | exact ⟨by simp, by simp⟩

theorem sound {X : ℕ} {fs : List Func} (hf : checkFuncs X fs = true) {v : ℕ} {c : Cmd} {s s' : St} {o : Out}
    (h : Exec fs v c s o s') :
    ∀ K r, an X fs v c K = some r → Sub K s → Fine X o ∧ (o = .next → ∃ K', r = some K' ∧ Sub K' s') := by
  induction h with
  | skip =>
    intro K r hr hs
    simp only [an, Option.some.injEq] at hr
    exact ⟨⟨by simp, by simp⟩, fun _ => ⟨K, hr.symm, hs⟩⟩
  | @st v gs ls bs s hg hl =>
    intro K r hr hs
    rw [an] at hr
    split at hr
    · refine ⟨⟨by simp, by simp⟩, fun _ => ⟨_, (Option.some.inj hr).symm, hs.1, ?_⟩⟩
      change bits (K.2 ||| mask bs) ⊆ s.l ∪ setOf bs
      rw [bits_or_mask]
      exact Set.union_subset_union_left _ hs.2
    · simp at hr
  | @lostG v gs ls bs s x hx hn =>
    intro K r hr hs
    rw [an] at hr
    split at hr
    · next hc =>
      refine ⟨⟨?_, by simp⟩, by simp⟩
      intro y hy
      cases hy
      rw [Bool.and_eq_true, List.all_eq_true] at hc
      have := hc.1 x hx
      rw [Bool.or_eq_true] at this
      rcases this with h | h
      · exact absurd (hs.1 h) hn
      · exact h
    · simp at hr
  | @lostL v gs ls bs s x hx hn =>
    intro K r hr hs
    rw [an] at hr
    split at hr
    · next hc =>
      rw [Bool.and_eq_true, List.all_eq_true, List.all_eq_true] at hc
      exact absurd (hs.2 (hc.2 x hx)) hn
    · simp at hr
  | @bg v gs s =>
    intro K r hr hs
    rw [an] at hr
    refine ⟨⟨by simp, by simp⟩, fun _ => ⟨_, (Option.some.inj hr).symm, ?_, hs.2⟩⟩
    change bits (K.1 ||| mask gs) ⊆ s.g ∪ setOf gs
    rw [bits_or_mask]
    exact Set.union_subset_union_left _ hs.1
  | @seq v c d s s1 s2 o _ _ ih1 ih2 =>
    intro K r hr hs
    rw [an] at hr
    split at hr
    · simp at hr
    · next he =>
      obtain ⟨_, h2⟩ := ih1 K _ he hs
      obtain ⟨K', hK, _⟩ := h2 rfl
      simp at hK
    · next K1 he =>
      obtain ⟨_, h2⟩ := ih1 K _ he hs
      obtain ⟨K', hK, hs1⟩ := h2 rfl
      cases hK
      exact ih2 _ r hr hs1
  | @stop v c d s s1 o _ ho ih =>
    intro K r hr hs
    rw [an] at hr
    split at hr
    · simp at hr
    · next he => exact ⟨(ih K _ he hs).1, fun h => absurd h ho⟩
    · next he => exact ⟨(ih K _ he hs).1, fun h => absurd h ho⟩
  | @altT v t c d s s1 o ht _ ih =>
    intro K r hr hs
    rw [an] at hr
    obtain ⟨p, q, hp, hq, hj⟩ := join_some hr
    rw [(canB_iff v t true).2 ht, cond_true] at hp
    obtain ⟨h1, h2⟩ := ih K p hp hs
    refine ⟨h1, fun ho => ?_⟩
    obtain ⟨K', hK, hs'⟩ := h2 ho
    obtain ⟨k, hk, ha, _⟩ := hj (Or.inl ⟨K', hK⟩)
    exact ⟨k, hk, (ha K' hK).1.trans hs'.1, (ha K' hK).2.trans hs'.2⟩
  | @altF v t c d s s1 o ht _ ih =>
    intro K r hr hs
    rw [an] at hr
    obtain ⟨p, q, hp, hq, hj⟩ := join_some hr
    rw [(canB_iff v t false).2 ht, cond_true] at hq
    obtain ⟨h1, h2⟩ := ih K q hq hs
    refine ⟨h1, fun ho => ?_⟩
    obtain ⟨K', hK, hs'⟩ := h2 ho
    obtain ⟨k, hk, _, ha⟩ := hj (Or.inr ⟨K', hK⟩)
    exact ⟨k, hk, (ha K' hK).1.trans hs'.1, (ha K' hK).2.trans hs'.2⟩
  | done =>
    intro K r hr hs
    rw [an] at hr
    split at hr
    · simp at hr
    · exact ⟨⟨by simp, by simp⟩, fun _ => ⟨K, (Option.some.inj hr).symm, hs⟩⟩
  | @again v c s s1 s2 o o' h1 _ _ _ ih2 =>
    intro K r hr hs
    have hm := exec_mono h1
    exact ih2 K r hr ⟨hs.1.trans hm.1, hs.2.trans hm.2⟩
  | @leave v c s s1 o o' h1 ho ih =>
    intro K r hr hs
    have hm := exec_mono h1
    rw [an] at hr
    split at hr
    · simp at hr
    · next he =>
      exact ⟨fine_loop (ih K _ he hs).1 ho,
        fun _ => ⟨K, (Option.some.inj hr).symm, hs.1.trans hm.1, hs.2.trans hm.2⟩⟩
  | ret => exact fun K r _ _ => ⟨⟨by simp, by simp⟩, by simp⟩
  | brk => exact fun K r _ _ => ⟨⟨by simp, by simp⟩, by simp⟩
  | cont => exact fun K r _ _ => ⟨⟨by simp, by simp⟩, by simp⟩
  | raise => exact fun K r _ _ => ⟨⟨by simp, by simp⟩, by simp⟩
  | may => exact fun K r _ _ => ⟨⟨by simp, by simp⟩, by simp⟩
  | mayNot =>
    intro K r hr hs
    simp only [an, Option.some.injEq] at hr
    exact ⟨⟨by simp, by simp⟩, fun _ => ⟨K, hr.symm, hs⟩⟩
  | @tri v c h s s1 o _ ih =>
    intro K r hr hs
    rw [an] at hr
    obtain ⟨p, q, hp, hq, hj⟩ := join_some hr
    obtain ⟨h1, h2⟩ := ih K p hp hs
    refine ⟨h1, fun ho => ?_⟩
    obtain ⟨K', hK, hs'⟩ := h2 ho
    obtain ⟨k, hk, ha, _⟩ := hj (Or.inl ⟨K', hK⟩)
    exact ⟨k, hk, (ha K' hK).1.trans hs'.1, (ha K' hK).2.trans hs'.2⟩
  | @handle v c h s s1 s2 o he _ _ ih =>
    intro K r hr hs
    have hm := exec_mono he
    rw [an] at hr
    obtain ⟨p, q, hp, hq, hj⟩ := join_some hr
    obtain ⟨h1, h2⟩ := ih K q hq ⟨hs.1.trans hm.1, hs.2.trans hm.2⟩
    refine ⟨h1, fun ho => ?_⟩
    obtain ⟨K', hK, hs'⟩ := h2 ho
    obtain ⟨k, hk, _, ha⟩ := hj (Or.inr ⟨K', hK⟩)
    exact ⟨k, hk, (ha K' hK).1.trans hs'.1, (ha K' hK).2.trans hs'.2⟩
  | @frame v own c s s1 o he ih =>
    intro K r hr hs
    have hm := exec_mono he
    rw [an] at hr
    split at hr
    · simp at hr
    · next hc =>
      have hs1 : Sub (K.1, minus K.2 own) ⟨s.g, s.l \ setOf own⟩ := by
        refine ⟨hs.1, ?_⟩
        change bits (minus K.2 own) ⊆ _
        rw [bits_minus]
        exact fun x hx => ⟨hs.2 hx.1, hx.2⟩
      exact ⟨fine_up (ih _ _ hc hs1).1, fun _ => ⟨K, (Option.some.inj hr).symm, hs.1.trans hm.1, hs.2⟩⟩
  | @call v f vs s s1 o w fn hfn hw he ih =>
    intro K r hr hs
    have hm := exec_mono he
    rw [an, hfn] at hr
    simp only at hr
    split at hr
    · next hc =>
      rw [Bool.and_eq_true, List.all_eq_true, List.all_eq_true] at hc
      have hwc : w ∈ fn.cases := of_decide_eq_true (hc.1 w hw)
      have hchk : (an X fs w fn.body (mask fn.uses, mask (List.range fn.params))).isSome = true := by
        unfold checkFuncs at hf
        rw [List.all_eq_true] at hf
        have h1 := hf fn (List.mem_of_getElem? hfn)
        rw [List.all_eq_true] at h1
        exact h1 w hwc
      obtain ⟨r', hr'⟩ := Option.isSome_iff_exists.1 hchk
      have hs1 : Sub (mask fn.uses, mask (List.range fn.params)) ⟨s.g, setOf (List.range fn.params)⟩ := by
        refine ⟨?_, ?_⟩
        · change bits (mask fn.uses) ⊆ s.g
          rw [bits_mask]
          exact fun x hx => hs.1 (hc.2 x hx)
        · change bits (mask _) ⊆ setOf _
          rw [bits_mask]
      exact ⟨fine_up (ih _ _ hr' hs1).1, fun _ => ⟨K, (Option.some.inj hr).symm, hs.1.trans hm.1, hs.2⟩⟩
    · simp at hr

/-- every module-level name the functions need is among `fin` -/
def checkUses (fin : ℕ) (fs : List Func) : Bool := fs.all fun fn => fn.uses.all fun x => fin.testBit x

theorem checkUses_sub {l : List ℕ} {fs : List Func} (h : checkUses (mask l) fs = true) {f : Func} (hf : f ∈ fs) :
    setOf f.uses ⊆ setOf l := by
  unfold checkUses at h
  rw [List.all_eq_true] at h
  have h1 := h f hf
  rw [List.all_eq_true] at h1
  exact fun x hx => (testBit_mask l x).1 (h1 x hx)

/-- the module's own code passes the check and binds the names `final` -/
def checkBody (X : ℕ) (m : Module) : Bool :=
  match an X m.funcs 0 m.body (mask (List.range m.init), 0) with
  | none => false
  | some none => true
  | some (some K) => m.final.all fun x => K.1.testBit x

theorem func_sound {X : ℕ} {m : Module} (hF : checkFuncs X m.funcs = true) {f : Func} (hf : f ∈ m.funcs) {v : ℕ}
    (hv : v ∈ f.cases) {g : Set ℕ} (hg : setOf f.uses ⊆ g) {o : Out} (h : f.Runs m v g o) : Fine X o := by
  obtain ⟨s', h⟩ := h
  have hchk : (an X m.funcs v f.body (mask f.uses, mask (List.range f.params))).isSome = true := by
    have hF' := hF
    unfold checkFuncs at hF'
    rw [List.all_eq_true] at hF'
    have h1 := hF' f hf
    rw [List.all_eq_true] at h1
    exact h1 v hv
  obtain ⟨r, hr⟩ := Option.isSome_iff_exists.1 hchk
  refine (sound hF h _ r hr ⟨?_, ?_⟩).1
  · change bits (mask f.uses) ⊆ g
    rw [bits_mask]
    exact hg
  · change bits (mask _) ⊆ setOf _
    rw [bits_mask]

theorem module_sound {X : ℕ} {m : Module} (hF : checkFuncs X m.funcs = true) (hB : checkBody X m = true) {o : Out}
    {g : Set ℕ} (h : m.Runs o g) : Fine X o ∧ (o = .next → setOf m.final ⊆ g) := by
  obtain ⟨l, h⟩ := h
  have hs : Sub (mask (List.range m.init), 0) ⟨setOf (List.range m.init), ∅⟩ := by
    refine ⟨?_, ?_⟩
    · change bits (mask _) ⊆ setOf _
      rw [bits_mask]
    · intro x hx
      exact absurd (show (0 : ℕ).testBit x = true from hx) (by simp)
  unfold checkBody at hB
  split at hB
  · simp at hB
  · next he =>
    obtain ⟨h1, h2⟩ := sound hF h _ _ he hs
    refine ⟨h1, fun ho => ?_⟩
    obtain ⟨K', hK, _⟩ := h2 ho
    simp at hK
  · next K he =>
    obtain ⟨h1, h2⟩ := sound hF h _ _ he hs
    refine ⟨h1, fun ho => ?_⟩
    obtain ⟨K', hK, hs'⟩ := h2 ho
    cases hK
    rw [List.all_eq_true] at hB
    exact fun x hx => hs'.1 (hB x hx)

/-! ## executions that do read an unbound name -/

/-- the state with exactly these names bound -/
def stOf (K : ℕ × ℕ) : St := ⟨bits K.1, bits K.2⟩

/-- some of the executions of a statement: loops run at most once, no functions are called -/
def reach (v : ℕ) : Cmd → ℕ × ℕ → List (Out × (ℕ × ℕ))
  | .skip, K => [(.next, K)]
  | .st gs ls bs, K =>
    match gs.find? (fun x => !K.1.testBit x) with
    | some x => [(.lostG x, K)]
    | none => match ls.find? (fun x => !K.2.testBit x) with
      | some x => [(.lostL x, K)]
      | none => [(.next, (K.1, K.2 ||| mask bs))]
  | .bg gs, K => [(.next, (K.1 ||| mask gs, K.2))]
  | .seq c d, K => (reach v c K).flatMap fun p => match p with
    | (.next, K') => reach v d K'
    | (o, K') => [(o, K')]
  | .alt t c d, K => (bif t.canB v true then reach v c K else []) ++ (bif t.canB v false then reach v d K else [])
  | .loop c, K => (.next, K) :: (reach v c K).map fun p => ((p.1.ofLoop).getD .next, p.2)
  | .ret, K => [(.ret, K)]
  | .brk, K => [(.brk, K)]
  | .cont, K => [(.cont, K)]
  | .raise, K => [(.exc, K)]
  | .may, K => [(.next, K), (.exc, K)]
  | .tri c h, K => reach v c K ++ (reach v c K).flatMap fun p => match p with
    | (.exc, K') => reach v h K'
    | _ => []
  | .frame own c, K => (reach v c (K.1, minus K.2 own)).map fun p => (p.1.up, (p.2.1, K.2))
  | .call _ _, _ => []

theorem reach_exec (fs : List Func) (v : ℕ) (c : Cmd) :
    ∀ K p, p ∈ reach v c K → Exec fs v c (stOf K) p.1 (stOf p.2) := by
  induction c with
  | skip =>
    intro K p hp
    rw [reach, List.mem_singleton] at hp
    subst hp
    exact .skip
  | st gs ls bs =>
    intro K p hp
    rw [reach] at hp
    split at hp
    · next x hx =>
      rw [List.mem_singleton] at hp
      subst hp
      refine .lostG (List.mem_of_find?_eq_some hx) ?_
      have := List.find?_some hx
      intro h
      rw [show K.1.testBit x = true from h] at this
      simp at this
    · next hg =>
      rw [List.find?_eq_none] at hg
      split at hp
      · next x hx =>
        rw [List.mem_singleton] at hp
        subst hp
        refine .lostL (List.mem_of_find?_eq_some hx) ?_
        have := List.find?_some hx
        intro h
        rw [show K.2.testBit x = true from h] at this
        simp at this
      · next hl =>
        rw [List.find?_eq_none] at hl
        rw [List.mem_singleton] at hp
        subst hp
        have h := @Exec.st fs v gs ls bs (stOf K) (fun x hx => show K.1.testBit x = true by simpa using hg x hx)
          (fun x hx => show K.2.testBit x = true by simpa using hl x hx)
        have e : stOf (K.1, K.2 ||| mask bs) = ⟨(stOf K).g, (stOf K).l ∪ setOf bs⟩ := by
          unfold stOf
          rw [bits_or_mask]
        rw [e]
        exact h
  | bg gs =>
    intro K p hp
    rw [reach, List.mem_singleton] at hp
    subst hp
    have e : stOf (K.1 ||| mask gs, K.2) = ⟨(stOf K).g ∪ setOf gs, (stOf K).l⟩ := by
      unfold stOf
      rw [bits_or_mask]
    rw [e]
    exact .bg
  | seq c d ihc ihd =>
    intro K p hp
    rw [reach, List.mem_flatMap] at hp
    obtain ⟨⟨o, K'⟩, hq, hp⟩ := hp
    have h1 := ihc K _ hq
    cases o with
    | next => exact .seq h1 (ihd K' p hp)
    | _ =>
      rw [List.mem_singleton] at hp
      subst hp
      exact .stop h1 (by simp)
  | alt t c d ihc ihd =>
    intro K p hp
    rw [reach, List.mem_append] at hp
    rcases hp with hp | hp
    · cases hb : t.canB v true with
      | false => rw [hb] at hp; simp at hp
      | true =>
        rw [hb, cond_true] at hp
        exact .altT ((canB_iff v t true).1 hb) (ihc K p hp)
    · cases hb : t.canB v false with
      | false => rw [hb] at hp; simp at hp
      | true =>
        rw [hb, cond_true] at hp
        exact .altF ((canB_iff v t false).1 hb) (ihd K p hp)
  | loop c ih =>
    intro K p hp
    rw [reach, List.mem_cons] at hp
    rcases hp with hp | hp
    · subst hp
      exact .done
    · rw [List.mem_map] at hp
      obtain ⟨q, hq, rfl⟩ := hp
      have h1 := ih K q hq
      cases ho : q.1.ofLoop with
      | none =>
        simp only [Option.getD_none]
        exact .again h1 ho .done
      | some o' =>
        simp only [Option.getD_some]
        exact .leave h1 ho
  | ret =>
    intro K p hp
    rw [reach, List.mem_singleton] at hp
    subst hp
    exact .ret
  | brk =>
    intro K p hp
    rw [reach, List.mem_singleton] at hp
    subst hp
    exact .brk
  | cont =>
    intro K p hp
    rw [reach, List.mem_singleton] at hp
    subst hp
    exact .cont
  | raise =>
    intro K p hp
    rw [reach, List.mem_singleton] at hp
    subst hp
    exact .raise
  | may =>
    intro K p hp
    simp only [reach, List.mem_cons, List.not_mem_nil, or_false] at hp
    rcases hp with rfl | rfl
    · exact .mayNot
    · exact .may
  | tri c h ihc ihh =>
    intro K p hp
    rw [reach, List.mem_append] at hp
    rcases hp with hp | hp
    · exact .tri (ihc K p hp)
    · rw [List.mem_flatMap] at hp
      obtain ⟨⟨o, K'⟩, hq, hp⟩ := hp
      cases o with
      | exc => exact .handle (ihc K _ hq) (ihh K' p hp)
      | _ => simp at hp
  | frame own c ih =>
    intro K p hp
    rw [reach, List.mem_map] at hp
    obtain ⟨q, hq, rfl⟩ := hp
    have h1 := ih _ q hq
    have e : stOf (K.1, minus K.2 own) = ⟨(stOf K).g, (stOf K).l \ setOf own⟩ := by
      unfold stOf
      rw [bits_minus]
    rw [e] at h1
    exact .frame h1
  | call f vs =>
    intro K p hp
    simp [reach] at hp

/-! ## values that no test mentions -/

/-- all values the test mentions are in `cs` -/
def Test.within (cs : List ℕ) : Test → Bool
  | .any => true
  | .on vs => vs.all fun x => decide (x ∈ cs)
  | .yes vs => vs.all fun x => decide (x ∈ cs)
  | .no vs => vs.all fun x => decide (x ∈ cs)

/-- all values the tests mention are in `cs` -/
def Cmd.within (cs : List ℕ) : Cmd → Bool
  | .seq c d => c.within cs && d.within cs
  | .alt t c d => t.within cs && c.within cs && d.within cs
  | .loop c => c.within cs
  | .tri c h => c.within cs && h.within cs
  | .frame _ c => c.within cs
  | _ => true

theorem can_other {cs : List ℕ} {v w : ℕ} (hv : v ∉ cs) (hw : w ∉ cs) {t : Test} {b : Bool}
    (ht : t.within cs = true) (h : t.can v b) : t.can w b := by
  cases t with
  | any => trivial
  | on vs =>
    simp only [Test.within, List.all_eq_true, decide_eq_true_eq] at ht
    have h1 : v ∉ vs := fun h => hv (ht v h)
    have h2 : w ∉ vs := fun h => hw (ht w h)
    simpa [Test.can, h1, h2] using h
  | yes vs =>
    simp only [Test.within, List.all_eq_true, decide_eq_true_eq] at ht
    exact fun h => absurd (ht w h) hw
  | no vs =>
    simp only [Test.within, List.all_eq_true, decide_eq_true_eq] at ht
    exact fun h => absurd (ht w h) hw

theorem exec_other {fs : List Func} {cs : List ℕ} {v w : ℕ} (hv : v ∉ cs) (hw : w ∉ cs) {c : Cmd} {s s' : St} {o : Out}
    (h : Exec fs v c s o s') : c.within cs = true → Exec fs w c s o s' := by
  suffices H : ∀ {u : ℕ} {c : Cmd} {s s' : St} {o : Out}, Exec fs u c s o s' → u = v → c.within cs = true →
      Exec fs w c s o s' from H h rfl
  intro u c s s' o h
  induction h with
  | skip => exact fun _ _ => .skip
  | st h1 h2 => exact fun _ _ => .st h1 h2
  | lostG h1 h2 => exact fun _ _ => .lostG h1 h2
  | lostL h1 h2 => exact fun _ _ => .lostL h1 h2
  | bg => exact fun _ _ => .bg
  | seq _ _ ih1 ih2 =>
    intro hu hc
    rw [Cmd.within, Bool.and_eq_true] at hc
    exact .seq (ih1 hu hc.1) (ih2 hu hc.2)
  | stop _ ho ih =>
    intro hu hc
    rw [Cmd.within, Bool.and_eq_true] at hc
    exact .stop (ih hu hc.1) ho
  | altT ht _ ih =>
    intro hu hc
    subst hu
    rw [Cmd.within, Bool.and_eq_true, Bool.and_eq_true] at hc
    exact .altT (can_other hv hw hc.1.1 ht) (ih rfl hc.1.2)
  | altF ht _ ih =>
    intro hu hc
    subst hu
    rw [Cmd.within, Bool.and_eq_true, Bool.and_eq_true] at hc
    exact .altF (can_other hv hw hc.1.1 ht) (ih rfl hc.2)
  | done => exact fun _ _ => .done
  | again _ ho _ ih1 ih2 => exact fun hu hc => .again (ih1 hu hc) ho (ih2 hu hc)
  | leave _ ho ih => exact fun hu hc => .leave (ih hu hc) ho
  | ret => exact fun _ _ => .ret
  | brk => exact fun _ _ => .brk
  | cont => exact fun _ _ => .cont
  | raise => exact fun _ _ => .raise
  | mayNot => exact fun _ _ => .mayNot
  | may => exact fun _ _ => .may
  | tri _ ih =>
    intro hu hc
    rw [Cmd.within, Bool.and_eq_true] at hc
    exact .tri (ih hu hc.1)
  | handle _ _ ih1 ih2 =>
    intro hu hc
    rw [Cmd.within, Bool.and_eq_true] at hc
    exact .handle (ih1 hu hc.1) (ih2 hu hc.2)
  | frame _ ih => exact fun hu hc => .frame (ih hu hc)
  | call h1 h2 h3 _ => exact fun _ _ => .call h1 h2 h3

/-- does one of the executions of the search end in `o`? -/
def finds (m : Module) (f : Func) (o : Out) : Bool :=
  (reach 1000 f.body (mask m.final, mask (List.range f.params))).any fun p => decide (p.1 = o)

theorem finds_runs {m : Module} {f : Func} {o : Out} (h : finds m f o = true) (hc : f.body.within f.cases = true)
    (h1 : decide (1000 ∈ f.cases) = false) {v : ℕ} (hv : v ∉ f.cases) : f.Runs m v (setOf m.final) o := by
  unfold finds at h
  rw [List.any_eq_true] at h
  obtain ⟨p, hp, ho⟩ := h
  have he := reach_exec m.funcs 1000 f.body _ p hp
  rw [of_decide_eq_true ho] at he
  have e : stOf (mask m.final, mask (List.range f.params)) = ⟨setOf m.final, setOf (List.range f.params)⟩ := by
    unfold stOf
    rw [bits_mask, bits_mask]
  rw [e] at he
  exact ⟨_, exec_other (of_decide_eq_false h1) hv he hc⟩

end Pot.Names
