import Verif.Model.Classes
import Verif.Spec.Classes

/-! # The order of resolution: what the merge of C3 gives -/

namespace Pot
namespace Classes

theorem goodHead_iff {ls : List (List String)} {h : String} : goodHead ls h = true ↔ ∀ l ∈ ls, h ∉ l.tail := by
  simp [goodHead]

theorem not_mem_dropHead {h : String} {l : List String} (hl : h ∉ l.tail) : h ∉ dropHead h l := by
  unfold dropHead
  split_ifs with h1
  · exact hl
  · cases l with
    | nil => simp
    | cons a t =>
      simp only [List.head?_cons, Option.some.injEq] at h1
      simp only [List.tail_cons] at hl
      simp only [List.mem_cons, not_or]
      exact ⟨fun e => h1 e.symm, hl⟩

theorem mem_dropHead {h x : String} {l : List String} (hx : x ≠ h) : x ∈ dropHead h l ↔ x ∈ l := by
  unfold dropHead
  split_ifs with h1
  · cases l with
    | nil => simp
    | cons a t =>
      simp only [List.head?_cons, Option.some.injEq] at h1
      subst h1
      simp [hx]
  · rfl

theorem mem_of_mem_dropHead {h x : String} {l : List String} (hx : x ∈ dropHead h l) : x ∈ l := by
  unfold dropHead at hx
  split_ifs at hx
  · exact List.mem_of_mem_tail hx
  · exact hx

/-- what the merge gives: an order without repetition of exactly the names in the lists, that keeps the order of every list -/
theorem merge_ok : ∀ (n : ℕ) (ls : List (List String)) (l : List String), merge n ls = some l →
    l.Nodup ∧ (∀ x, x ∈ l ↔ ∃ s ∈ ls, x ∈ s) ∧ ∀ s ∈ ls, s.Sublist l := by
  have nil : ∀ ls : List (List String), ls.all List.isEmpty = true →
      ([] : List String).Nodup ∧ (∀ x, x ∈ ([] : List String) ↔ ∃ s ∈ ls, x ∈ s) ∧ ∀ s ∈ ls, s.Sublist [] := by
    intro ls h
    rw [List.all_eq_true] at h
    refine ⟨List.nodup_nil, fun x => ⟨fun hx => by simp at hx, ?_⟩, fun s hs => ?_⟩
    · rintro ⟨s, hs, hx⟩
      have := List.isEmpty_iff.1 (h s hs)
      subst this
      exact hx
    · rw [List.isEmpty_iff.1 (h s hs)]
  intro n
  induction n with
  | zero =>
    intro ls l h
    unfold merge at h
    split_ifs at h with h1
    cases h
    exact nil ls h1
  | succ n ih =>
    intro ls l h
    unfold merge at h
    split_ifs at h with h1
    · cases h
      exact nil ls h1
    · split at h
      · cases h
      · rename_i h' hf
        rw [Option.map_eq_some_iff] at h
        obtain ⟨t, ht, rfl⟩ := h
        obtain ⟨i1, i2, i3⟩ := ih _ t ht
        have hg := goodHead_iff.1 (List.find?_some hf)
        have hm := List.mem_of_find?_eq_some hf
        rw [List.mem_filterMap] at hm
        obtain ⟨s0, hs0, hh0⟩ := hm
        have hs0m : h' ∈ s0 := List.mem_of_mem_head? hh0
        have hnt : h' ∉ t := by
          rw [i2]
          rintro ⟨s, hs, hx⟩
          rw [List.mem_map] at hs
          obtain ⟨s', hs', rfl⟩ := hs
          exact not_mem_dropHead (hg s' hs') hx
        refine ⟨List.nodup_cons.2 ⟨hnt, i1⟩, fun x => ?_, fun s hs => ?_⟩
        · rw [List.mem_cons, i2]
          constructor
          · rintro (rfl | ⟨s, hs, hx⟩)
            · exact ⟨s0, hs0, hs0m⟩
            · rw [List.mem_map] at hs
              obtain ⟨s', hs', rfl⟩ := hs
              exact ⟨s', hs', mem_of_mem_dropHead hx⟩
          · rintro ⟨s, hs, hx⟩
            by_cases hxh : x = h'
            · exact Or.inl hxh
            · exact Or.inr ⟨_, List.mem_map.2 ⟨s, hs, rfl⟩, (mem_dropHead hxh).2 hx⟩
        · have h3 := i3 _ (List.mem_map.2 ⟨s, hs, rfl⟩)
          unfold dropHead at h3
          split_ifs at h3 with h4
          · cases s with
            | nil => simp at h4
            | cons a r =>
              simp only [List.head?_cons, Option.some.injEq] at h4
              subst h4
              exact h3.cons_cons _
          · exact h3.cons _

theorem length_le_total {s : List String} : ∀ {ls : List (List String)}, s ∈ ls → s.length ≤ total ls := by
  intro ls
  induction ls with
  | nil => intro h; simp at h
  | cons s0 ls ih =>
    intro h
    have e : total (s0 :: ls) = s0.length + total ls := by simp [total]
    rw [List.mem_cons] at h
    rcases h with rfl | h
    · omega
    · have := ih h
      omega

theorem total_dropHead (h : String) : ∀ ls : List (List String), total (ls.map (dropHead h)) ≤ total ls := by
  intro ls
  induction ls with
  | nil => simp [total]
  | cons s ls ih =>
    unfold total at *
    simp only [List.map_cons, List.sum_cons, List.map_map] at *
    have : (dropHead h s).length ≤ s.length := by
      unfold dropHead
      split_ifs <;> simp
    exact Nat.add_le_add this ih

theorem total_dropHead_lt {h : String} : ∀ {ls : List (List String)} {s : List String}, s ∈ ls → s.head? = some h →
    total (ls.map (dropHead h)) < total ls := by
  intro ls
  induction ls with
  | nil => intro s hs; simp at hs
  | cons s0 ls ih =>
    intro s hs hh
    have e : total ((s0 :: ls).map (dropHead h)) = (dropHead h s0).length + total (ls.map (dropHead h)) := by simp [total]
    have e' : total (s0 :: ls) = s0.length + total ls := by simp [total]
    rw [e, e']
    rw [List.mem_cons] at hs
    rcases hs with rfl | hs
    · have h1 : (dropHead h s).length < s.length := by
        cases s with
        | nil => simp at hh
        | cons a t =>
          unfold dropHead
          rw [if_pos hh]
          simp
      have := total_dropHead h ls
      omega
    · have h1 : (dropHead h s0).length ≤ s0.length := by
        unfold dropHead
        split_ifs <;> simp
      have := ih hs hh
      omega

/-- if some order without repetition keeps all lists then one of the heads is in no tail -/
theorem exists_goodHead {l : List String} : ∀ {ls : List (List String)}, l.Nodup → (∀ s ∈ ls, s.Sublist l) →
    ls.all List.isEmpty = false → ∃ h ∈ ls.filterMap List.head?, goodHead ls h = true := by
  induction l with
  | nil =>
    intro ls _ hs he
    exfalso
    rw [Bool.eq_false_iff] at he
    apply he
    rw [List.all_eq_true]
    intro s h
    rw [List.isEmpty_iff]
    exact List.sublist_nil.1 (hs s h)
  | cons a l ih =>
    intro ls hn hs he
    rw [List.nodup_cons] at hn
    by_cases ha : ∃ s ∈ ls, s.head? = some a
    · refine ⟨a, List.mem_filterMap.2 ha, goodHead_iff.2 fun s h hm => hn.1 ?_⟩
      have : s.tail.Sublist l := by
        have := (hs s h).tail
        simpa using this
      exact this.subset hm
    · refine ih hn.2 (fun s h => ?_) he
      rcases List.sublist_cons_iff.1 (hs s h) with h1 | ⟨r, hr, _⟩
      · exact h1
      · exact (ha ⟨s, h, by rw [hr]; rfl⟩).elim

theorem dropHead_sublist (h : String) (s : List String) : (dropHead h s).Sublist s := by
  unfold dropHead
  split_ifs
  · exact List.tail_sublist s
  · exact List.Sublist.refl s

/-- the merge fails only if there is no such order -/
theorem merge_complete : ∀ (n : ℕ) (ls : List (List String)), total ls ≤ n → merge n ls = none →
    ¬ ∃ l : List String, l.Nodup ∧ ∀ s ∈ ls, s.Sublist l := by
  intro n
  induction n with
  | zero =>
    intro ls ht h
    unfold merge at h
    split_ifs at h with h1
    exfalso
    apply h1
    rw [List.all_eq_true]
    intro s hs
    have := length_le_total hs
    rw [List.isEmpty_iff, ← List.length_eq_zero_iff]
    omega
  | succ n ih =>
    rintro ls ht h ⟨l, hn, hs⟩
    unfold merge at h
    split_ifs at h with h1
    split at h
    · rename_i hf
      rw [List.find?_eq_none] at hf
      obtain ⟨a, ha, hg⟩ := exists_goodHead hn hs (by simpa using h1)
      exact hf a ha hg
    · rename_i h' hf
      have hm := List.mem_of_find?_eq_some hf
      rw [List.mem_filterMap] at hm
      obtain ⟨s0, hs0, hh0⟩ := hm
      rw [Option.map_eq_none_iff] at h
      have hlt := total_dropHead_lt hs0 hh0
      refine ih _ (by omega) h ⟨l, hn, fun s hsm => ?_⟩
      rw [List.mem_map] at hsm
      obtain ⟨s', hs', rfl⟩ := hsm
      exact (dropHead_sublist _ _).trans (hs s' hs')

/-! ## one class, and a sequence of classes -/

theorem mapM_baseMro {env : Mros} : ∀ {bs : List String} {ps : List (List String)}, bs.mapM (baseMro env) = .ok ps →
    (∀ b ∈ bs, ∃ l ∈ ps, env.lookup b = some l) ∧ ∀ l ∈ ps, ∃ b ∈ bs, env.lookup b = some l := by
  intro bs
  induction bs with
  | nil =>
    intro ps h
    rw [List.mapM_nil] at h
    cases h
    simp
  | cons b bs ih =>
    intro ps h
    rw [List.mapM_cons] at h
    cases hb : env.lookup b with
    | none =>
      simp only [baseMro, hb] at h
      cases h
    | some l =>
      simp only [baseMro, hb] at h
      cases hr : bs.mapM (baseMro env) with
      | error e =>
        rw [hr] at h
        cases h
      | ok ps' =>
        rw [hr] at h
        cases h
        obtain ⟨h1, h2⟩ := ih hr
        constructor
        · intro b' hb'
          rw [List.mem_cons] at hb'
          rcases hb' with rfl | hb'
          · exact ⟨l, by simp, hb⟩
          · obtain ⟨l', hl', e⟩ := h1 b' hb'
            exact ⟨l', by simp [hl'], e⟩
        · intro l' hl'
          rw [List.mem_cons] at hl'
          rcases hl' with rfl | hl'
          · exact ⟨b, by simp, hb⟩
          · obtain ⟨b', hb', e⟩ := h2 l' hl'
            exact ⟨b', by simp [hb'], e⟩

/-- what `linearize` gives -/
theorem linearize_ok {env : Mros} {c : PyClass} {l : List String} (h : linearize env c = .ok l) :
    ∃ t, l = c.name :: t ∧ t.Nodup ∧ (effBases c).Sublist t ∧ (∀ b ∈ effBases c, ∃ lb, env.lookup b = some lb ∧ lb.Sublist t) ∧
      ∀ x, x ∈ t ↔ x ∈ effBases c ∨ ∃ b ∈ effBases c, ∃ lb, env.lookup b = some lb ∧ x ∈ lb := by
  unfold linearize at h
  split at h
  · cases h
  · rename_i ps hps
    obtain ⟨p1, p2⟩ := mapM_baseMro hps
    split at h
    · rename_i t ht
      cases h
      obtain ⟨m1, m2, m3⟩ := merge_ok _ _ _ ht
      refine ⟨t, rfl, m1, m3 _ (by simp), fun b hb => ?_, fun x => ?_⟩
      · obtain ⟨lb, hlb, e⟩ := p1 b hb
        exact ⟨lb, e, m3 _ (by simp [hlb])⟩
      · rw [m2]
        constructor
        · rintro ⟨s, hs, hx⟩
          rw [List.mem_append, List.mem_singleton] at hs
          rcases hs with hs | rfl
          · obtain ⟨b, hb, e⟩ := p2 s hs
            exact Or.inr ⟨b, hb, s, e, hx⟩
          · exact Or.inl hx
        · rintro (hx | ⟨b, hb, lb, e, hx⟩)
          · exact ⟨effBases c, by simp, hx⟩
          · obtain ⟨lb', hlb', e'⟩ := p1 b hb
            rw [e] at e'
            cases e'
            exact ⟨lb, by simp [hlb'], hx⟩
    · cases h

theorem basesOf_mem {T : List PyClass} (hn : (T.map PyClass.name).Nodup) (ho : "object" ∉ T.map PyClass.name) {c : PyClass} (hc : c ∈ T) :
    basesOf T c.name = some (effBases c) := by
  have h0 : c.name ≠ "object" := fun e => ho (List.mem_map.2 ⟨c, hc, e⟩)
  unfold basesOf
  rw [if_neg h0]
  clear h0 ho
  induction T with
  | nil => simp at hc
  | cons d T ih =>
    rw [List.map_cons, List.nodup_cons] at hn
    rw [List.find?_cons]
    rw [List.mem_cons] at hc
    rcases hc with rfl | hc
    · simp
    · have : d.name ≠ c.name := fun e => hn.1 (e ▸ List.mem_map.2 ⟨c, hc, rfl⟩)
      rw [show (d.name == c.name) = false by simpa using this]
      exact ih hn.2 hc

/-- the state between two `class` statements -/
def Inv (T : List PyClass) (env : Mros) : Prop :=
  ∀ n l, env.lookup n = some l → Spec.GoodOrder (basesOf T) (fun x => List.lookup x env) n l ∧ ∀ x ∈ l, (env.lookup x).isSome

theorem lookup_cons_ne {env : Mros} {n m : String} {l : List String} (h : m ≠ n) : List.lookup m ((n, l) :: env) = env.lookup m := by
  rw [List.lookup_cons]
  have : (m == n) = false := by simpa using h
  rw [this]

theorem lookup_cons_self {env : Mros} {n : String} {l : List String} : List.lookup n ((n, l) :: env) = some l := by
  rw [List.lookup_cons]
  simp

/-- one `class` statement keeps it -/
theorem inv_step {T : List PyClass} (hn : (T.map PyClass.name).Nodup) (ho : "object" ∉ T.map PyClass.name) {env : Mros} {c : PyClass}
    (hc : c ∈ T) (hfresh : env.lookup c.name = none) (hI : Inv T env) {l : List String} (hl : linearize env c = .ok l) :
    Inv T ((c.name, l) :: env) := by
  have hb := basesOf_mem hn ho hc
  obtain ⟨t, rfl, t1, t2, t3, t4⟩ := linearize_ok hl
  have hself : ∀ b lb, env.lookup b = some lb → b ∈ lb := by
    intro b lb h
    exact List.mem_of_mem_head? (hI b lb h).1.first
  -- what is in `t` was defined before
  have hdef : ∀ x ∈ t, ∃ b ∈ effBases c, ∃ lb, env.lookup b = some lb ∧ x ∈ lb := by
    intro x hx
    rcases (t4 x).1 hx with hx | hx
    · obtain ⟨lb, e, _⟩ := t3 x hx
      exact ⟨x, hx, lb, e, hself x lb e⟩
    · exact hx
  have hsome : ∀ x ∈ t, (env.lookup x).isSome := by
    intro x hx
    obtain ⟨b, _, lb, e, hm⟩ := hdef x hx
    exact (hI b lb e).2 x hm
  have hct : c.name ∉ t := by
    intro h
    have := hsome _ h
    rw [hfresh] at this
    cases this
  intro n l' h
  by_cases hnc : n = c.name
  · subst hnc
    rw [lookup_cons_self] at h
    cases h
    refine ⟨⟨rfl, List.nodup_cons.2 ⟨hct, t1⟩, fun x => ?_, fun bs hbs => ?_, fun x hx lx hlx => ?_⟩, fun x hx => ?_⟩
    · rw [List.mem_cons]
      constructor
      · rintro (rfl | hx)
        · exact .refl _
        · obtain ⟨b, hbm, lb, e, hm⟩ := hdef x hx
          exact .step hb hbm (((hI b lb e).1.all x).1 hm)
      · intro h
        cases h with
        | refl => exact Or.inl rfl
        | step h hbm hx =>
          rw [hb] at h
          cases h
          obtain ⟨lb, e, hs⟩ := t3 _ hbm
          exact Or.inr (hs.subset (((hI _ lb e).1.all x).2 hx))
    · rw [hb] at hbs
      cases hbs
      exact t2.cons _
    · rw [List.mem_cons] at hx
      rcases hx with rfl | hx
      · rw [lookup_cons_self] at hlx
        cases hlx
        exact List.Sublist.refl _
      · have hxc : x ≠ c.name := fun e => hct (e ▸ hx)
        rw [lookup_cons_ne hxc] at hlx
        obtain ⟨b, hbm, lb, e, hm⟩ := hdef x hx
        obtain ⟨lb', e', hs⟩ := t3 b hbm
        rw [e] at e'
        cases e'
        exact (((hI b lb e).1.inherited x hm lx hlx).trans hs).cons _
    · rw [List.mem_cons] at hx
      rcases hx with rfl | hx
      · rw [lookup_cons_self]
        rfl
      · rw [lookup_cons_ne (show x ≠ c.name from fun e => hct (e ▸ hx))]
        exact hsome x hx
  · rw [lookup_cons_ne hnc] at h
    obtain ⟨g, hs⟩ := hI n l' h
    have hne : ∀ x ∈ l', x ≠ c.name := by
      rintro x hx rfl
      have := hs _ hx
      rw [hfresh] at this
      cases this
    refine ⟨⟨g.first, g.once, g.all, g.local_, fun x hx lx hlx => ?_⟩, fun x hx => ?_⟩
    · rw [lookup_cons_ne (hne x hx)] at hlx
      exact g.inherited x hx lx hlx
    · rw [lookup_cons_ne (hne x hx)]
      exact hs x hx

theorem define_inv {T : List PyClass} (hn : (T.map PyClass.name).Nodup) (ho : "object" ∉ T.map PyClass.name) :
    ∀ (cs : List PyClass) (env : Mros), (cs.map PyClass.name).Nodup → (∀ c ∈ cs, c ∈ T) → (∀ c ∈ cs, env.lookup c.name = none) →
      Inv T env → ∀ M, define env cs = .ok M →
      Inv T M ∧ (∀ n l, env.lookup n = some l → M.lookup n = some l) ∧ ∀ c ∈ cs, (M.lookup c.name).isSome := by
  intro cs
  induction cs with
  | nil =>
    intro env _ _ _ hI M h
    unfold define at h
    cases h
    exact ⟨hI, fun _ _ h => h, by simp⟩
  | cons c cs ih =>
    intro env hnd hT hf hI M h
    unfold define at h
    rw [List.map_cons, List.nodup_cons] at hnd
    split at h
    · cases h
    · rename_i l hl
      have hstep := inv_step hn ho (hT c (by simp)) (hf c (by simp)) hI hl
      obtain ⟨i1, i2, i3⟩ := ih _ hnd.2 (fun d hd => hT d (by simp [hd]))
        (fun d hd => by
          rw [lookup_cons_ne]
          · exact hf d (by simp [hd])
          · intro e
            exact hnd.1 (e ▸ List.mem_map.2 ⟨d, hd, rfl⟩)) hstep M h
      refine ⟨i1, fun n l' hl' => ?_, fun d hd => ?_⟩
      · apply i2
        rw [lookup_cons_ne]
        · exact hl'
        · rintro rfl
          rw [hf c (by simp)] at hl'
          cases hl'
      · rw [List.mem_cons] at hd
        rcases hd with rfl | hd
        · rw [i2 d.name l lookup_cons_self]
          rfl
        · exact i3 d hd

theorem lookup_builtins {n : String} {l : List String} (h : builtins.lookup n = some l) : n = "object" ∧ l = ["object"] := by
  unfold builtins at h
  rw [List.lookup_cons] at h
  by_cases e : n = "object"
  · subst e
    simp only [beq_self_eq_true] at h
    cases h
    exact ⟨rfl, rfl⟩
  · have : (n == "object") = false := by simpa using e
    rw [this] at h
    cases h

theorem inv_builtins (T : List PyClass) : Inv T builtins := by
  intro n l h
  obtain ⟨rfl, rfl⟩ := lookup_builtins h
  have hb : basesOf T "object" = some [] := by unfold basesOf; rw [if_pos rfl]
  refine ⟨⟨rfl, by simp, fun x => ?_, fun bs h => ?_, fun x hx lx h => ?_⟩, fun x hx => ?_⟩
  · rw [List.mem_singleton]
    constructor
    · rintro rfl
      exact .refl _
    · intro h
      cases h with
      | refl => rfl
      | step h hbm hx =>
        rw [hb] at h
        cases h
        simp at hbm
  · rw [hb] at h
    cases h
    exact List.nil_sublist _
  · obtain ⟨rfl, rfl⟩ := lookup_builtins h
    exact List.Sublist.refl _
  · rw [List.mem_singleton] at hx
    subst hx
    rfl

/-! ## lookup -/

/-- `find?` on a list without repetition gives the first: nothing that satisfies `p` stands before it in a sublist -/
theorem find?_first {p : String → Bool} {o x : String} : ∀ {l : List String}, l.Nodup → l.find? p = some o → p x = true →
    [x, o].Sublist l → False := by
  intro l
  induction l with
  | nil => intro _ h; simp at h
  | cons a l ih =>
    intro hn hf hx hs
    rw [List.nodup_cons] at hn
    rw [List.find?_cons] at hf
    cases hpa : p a with
    | true =>
      rw [hpa] at hf
      cases hf
      rcases List.sublist_cons_iff.1 hs with h | ⟨r, hr, h⟩
      · exact hn.1 (h.subset (by simp))
      · cases hr
        exact hn.1 (h.subset (by simp))
    | false =>
      rw [hpa] at hf
      rcases List.sublist_cons_iff.1 hs with h | ⟨r, hr, h⟩
      · exact ih hn.2 hf hx h
      · cases hr
        rw [hpa] at hx
        cases hx

theorem find?_unique {p : String → Bool} {o : String} : ∀ {l : List String}, o ∈ l → p o = true → (∀ x ∈ l, p x = true → x = o) →
    l.find? p = some o := by
  intro l ho hp hu
  cases h : l.find? p with
  | none =>
    rw [List.find?_eq_none] at h
    exact (h o ho hp).elim
  | some x => rw [hu x (List.mem_of_find?_eq_some h) (List.find?_some h)]

/-! ## constructors -/

theorem runInit_skip {defs : String → Option InitDef} {c : String} {cs : List String} {a : Args} (h : defs c = none) :
    runInit defs (c :: cs) a = runInit defs cs a := by
  rw [runInit]
  simp only [h]

theorem runInit_no {defs : String → Option InitDef} {c : String} {cs : List String} {a : Args} {d : InitDef} (h : defs c = some d)
    (ha : accepts d a = false) : runInit defs (c :: cs) a = ([], some .typeError) := by
  rw [runInit]
  simp only [h, ha]
  rfl

theorem runInit_stop {defs : String → Option InitDef} {c : String} {cs : List String} {a : Args} {d : InitDef} (h : defs c = some d)
    (ha : accepts d a = true) (hx : d.next a = none) : runInit defs (c :: cs) a = ([c], none) := by
  rw [runInit]
  simp only [h, ha, hx]
  rfl

theorem runInit_go {defs : String → Option InitDef} {c : String} {cs : List String} {a a' : Args} {d : InitDef} (h : defs c = some d)
    (ha : accepts d a = true) (hx : d.next a = some (.ok a')) {r : List String} {o : Option CallErr} (hr : runInit defs cs a' = (r, o)) :
    runInit defs (c :: cs) a = (c :: r, o) := by
  rw [runInit]
  simp only [h, ha, hx, hr]
  rfl

/-- `__init__(self, **kwargs)` -/
theorem accepts_kwargs {d : InitDef} (h1 : d.required = []) (h2 : d.optional = []) (h3 : d.star = false) (h4 : d.kwargs = true) (p : ℕ)
    (kw : Finset String) : accepts d ⟨p, kw⟩ = decide (p = 0) := by
  simp [accepts, h1, h2, h3, h4]

end Classes
end Pot
