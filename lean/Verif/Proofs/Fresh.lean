/-
Executions of `Model/Effects.lean` and the attributes there at each moment; two states that agree on what `hasattr` asks for have the
same executions, unless an attribute is missing.
-/
import Verif.Proofs.Effects

namespace Pot
namespace Attrs

variable {W : World}

/-- the attributes after an event -/
def Ev.after : Ev → State → State
  | .get _ _, σ | .test _ _, σ => σ
  | .set o a, σ => insert (o, a) σ
  | .make o, σ => clear σ o

/-- the attributes after events -/
def afterAll : List Ev → State → State
  | [], σ => σ
  | e :: t, σ => afterAll t (e.after σ)

theorem afterAll_append (t u : List Ev) (σ : State) : afterAll (t ++ u) σ = afterAll u (afterAll t σ) := by
  induction t generalizing σ with
  | nil => rfl
  | cons e t ih => exact ih _

/-- the attributes at the end -/
def Out.state : Out → Option State
  | .norm τ | .ret τ | .brk τ => some τ
  | .err _ _ => none

theorem Out.state_close (out : Out) : out.close.state = out.state := by
  cases out <;> rfl

theorem Run.after {n : ℕ} {me : Obj} {j : Bool} {c : Cmd} {σ : State} {t : List Ev} {out : Out}
    (h : Run W n me j c σ t out) : ∀ τ, out.state = some τ → τ = afterAll t σ := by
  induction h with
  | skip | ret | brk | rd | callOwn | supObject | loopEnd | wr | newObject =>
    intro τ h
    exact (Option.some.inj h).symm
  | rdErr | callErr | supErr => intro τ h; cases h
  | call _ _ ih | sup _ _ ih | new _ _ ih =>
    intro τ h
    rw [Out.state_close] at h
    exact ih τ h
  | fn _ ih | scope _ ih =>
    intro τ h
    rw [Out.state_close] at h
    exact ih τ h
  | seq _ _ i1 i2 | loop _ _ i1 i2 | loopBrk _ _ i1 i2 =>
    intro τ h
    rw [afterAll_append, ← i1 _ rfl]
    exact i2 τ h
  | seqRet _ ih | seqBrk _ ih | seqErr _ ih | altL _ ih | altR _ ih | jj _ ih | flag _ ih | loopRet _ ih | loopErr _ ih => exact ih
  | hasT _ _ ih | hasF _ _ ih => exact ih

/-- every attribute that is looked up is there -/
def Found (W : World) : List Ev → State → Prop
  | [], _ => True
  | .get o a :: t, σ => Has W σ o a ∧ Found W t σ
  | e :: t, σ => Found W t (e.after σ)

theorem found_append {t u : List Ev} : ∀ {σ : State}, Found W t σ → Found W u (afterAll t σ) → Found W (t ++ u) σ := by
  induction t with
  | nil => exact fun _ h => h
  | cons e t ih =>
    intro σ h1 h2
    cases e with
    | get o a => exact ⟨h1.1, ih h1.2 h2⟩
    | test o a => exact ih (σ := σ) h1 h2
    | set o a => exact ih (σ := insert (o, a) σ) h1 h2
    | make o => exact ih (σ := clear σ o) h1 h2

theorem Run.found {n : ℕ} {me : Obj} {j : Bool} {c : Cmd} {σ : State} {t : List Ev} {out : Out}
    (h : Run W n me j c σ t out) : ∀ τ, out.state = some τ → Found W t σ := by
  induction h with
  | skip | ret | brk | supObject | loopEnd | wr | newObject => intro _ _; trivial
  | rd h => intro _ _; exact ⟨h, trivial⟩
  | callOwn _ h => intro _ _; exact ⟨Or.inl h, trivial⟩
  | rdErr | callErr | supErr => intro τ h; cases h
  | call h _ ih =>
    intro τ h'
    rw [Out.state_close] at h'
    exact ⟨Or.inr (by rw [h]; rfl), ih τ h'⟩
  | sup _ _ ih | new _ _ ih =>
    intro τ h
    rw [Out.state_close] at h
    exact ih τ h
  | fn _ ih | scope _ ih =>
    intro τ h
    rw [Out.state_close] at h
    exact ih τ h
  | seq h1 _ i1 i2 | loop h1 _ i1 i2 | loopBrk h1 _ i1 i2 =>
    intro τ h
    refine found_append (i1 _ rfl) ?_
    rw [← h1.after _ rfl]
    exact i2 τ h
  | seqRet _ ih | seqBrk _ ih | seqErr _ ih | altL _ ih | altR _ ih | jj _ ih | flag _ ih | loopRet _ ih | loopErr _ ih => exact ih
  | hasT _ _ ih | hasF _ _ ih => exact ih

/-! ## two states -/

/-- the states have the same of the attributes `k` -/
def Agree (k : Set (Obj × ℕ)) (σ ρ : State) : Prop := ∀ x ∈ k, x ∈ σ ↔ x ∈ ρ

theorem Agree.insert {k : Set (Obj × ℕ)} {σ ρ : State} (h : Agree k σ ρ) (y : Obj × ℕ) : Agree k (insert y σ) (insert y ρ) :=
  fun x hx => or_congr Iff.rfl (h x hx)

theorem Agree.clear {k : Set (Obj × ℕ)} {σ ρ : State} (h : Agree k σ ρ) (o : Obj) : Agree k (clear σ o) (clear ρ o) :=
  fun x hx => and_congr (h x hx) Iff.rfl

/-- the two ends are of the same kind -/
def Like (k : Set (Obj × ℕ)) : Out → Out → Prop
  | .norm σ, .norm ρ | .ret σ, .ret ρ | .brk σ, .brk ρ => Agree k σ ρ
  | _, _ => False

theorem Like.close {k : Set (Obj × ℕ)} {x y : Out} (h : Like k x y) : Like k x.close y.close := by
  cases x <;> cases y <;> first | exact h | exact h.elim

/-- `hasattr` asks for attributes `k` or those of classes only -/
def Asks (W : World) (k : Set (Obj × ℕ)) (t : List Ev) : Prop := ∀ o a, Ev.test o a ∈ t → (o, a) ∈ k ∨ (W.owner o a).isSome = true

theorem Agree.has {k : Set (Obj × ℕ)} {σ ρ : State} (h : Agree k σ ρ) {o : Obj} {a : ℕ} (hk : (o, a) ∈ k ∨ (W.owner o a).isSome = true) :
    Has W σ o a ↔ Has W ρ o a := by
  rcases hk with hk | hk
  · exact or_congr (h _ hk) Iff.rfl
  · exact ⟨fun _ => Or.inr hk, fun _ => Or.inr hk⟩

theorem Like.norm {k : Set (Obj × ℕ)} {σ : State} {y : Out} (h : Like k (.norm σ) y) : ∃ ρ, y = .norm ρ ∧ Agree k σ ρ := by
  cases y <;> first | exact ⟨_, rfl, h⟩ | exact h.elim

theorem Like.ret {k : Set (Obj × ℕ)} {σ : State} {y : Out} (h : Like k (.ret σ) y) : ∃ ρ, y = .ret ρ ∧ Agree k σ ρ := by
  cases y <;> first | exact ⟨_, rfl, h⟩ | exact h.elim

theorem Like.brk {k : Set (Obj × ℕ)} {σ : State} {y : Out} (h : Like k (.brk σ) y) : ∃ ρ, y = .brk ρ ∧ Agree k σ ρ := by
  cases y <;> first | exact ⟨_, rfl, h⟩ | exact h.elim

theorem Run.mirror {k : Set (Obj × ℕ)} {n : ℕ} {me : Obj} {j : Bool} {c : Cmd} {σ : State} {t : List Ev} {out : Out}
    (h : Run W n me j c σ t out) : Asks W k t → (∃ τ, out.state = some τ) → ∀ ρ, Agree k σ ρ →
      (∃ o a, Exec W n me j c ρ (.err o a)) ∨ ∃ out', Run W n me j c ρ t out' ∧ Like k out out' := by
  induction h with
  | skip => exact fun _ _ ρ hρ => Or.inr ⟨_, .skip, hρ⟩
  | ret => exact fun _ _ ρ hρ => Or.inr ⟨_, .ret, hρ⟩
  | brk => exact fun _ _ ρ hρ => Or.inr ⟨_, .brk, hρ⟩
  | @rd n me j r a σ _ =>
    intro _ _ ρ hρ
    by_cases h : Has W ρ (W.obj me r) a
    · exact Or.inr ⟨_, .rd h, hρ⟩
    · exact Or.inl ⟨_, _, .rdErr h⟩
  | rdErr | callErr | supErr => rintro _ ⟨τ, h⟩; cases h
  | wr => exact fun _ _ ρ hρ => Or.inr ⟨_, .wr, hρ.insert _⟩
  | call h _ ih =>
    rintro ha ⟨τ, hτ⟩ ρ hρ
    rw [Out.state_close] at hτ
    rcases ih (fun o a ht => ha o a (List.mem_cons_of_mem _ ht)) ⟨τ, hτ⟩ ρ hρ with ⟨o, a, he⟩ | ⟨out', h', hl⟩
    · exact Or.inl ⟨o, a, .call h he⟩
    · exact Or.inr ⟨_, .call h h', hl.close⟩
  | @callOwn n me j r m p σ h _ =>
    intro _ _ ρ hρ
    by_cases h' : (W.obj me r, m) ∈ ρ
    · exact Or.inr ⟨_, .callOwn h h', hρ⟩
    · refine Or.inl ⟨_, _, .callErr ?_⟩
      rintro (h1 | h1)
      · exact h' h1
      · rw [h] at h1
        cases h1
  | sup h _ ih =>
    rintro ha ⟨τ, hτ⟩ ρ hρ
    rw [Out.state_close] at hτ
    rcases ih ha ⟨τ, hτ⟩ ρ hρ with ⟨o, a, he⟩ | ⟨out', h', hl⟩
    · exact Or.inl ⟨o, a, .sup h he⟩
    · exact Or.inr ⟨_, .sup h h', hl.close⟩
  | supObject h => exact fun _ _ ρ hρ => Or.inr ⟨_, .supObject h, hρ⟩
  | fn _ ih =>
    rintro ha ⟨τ, hτ⟩ ρ hρ
    rw [Out.state_close] at hτ
    rcases ih ha ⟨τ, hτ⟩ ρ hρ with ⟨o, a, he⟩ | ⟨out', h', hl⟩
    · exact Or.inl ⟨o, a, .fn he⟩
    · exact Or.inr ⟨_, .fn h', hl.close⟩
  | new h _ ih =>
    rintro ha ⟨τ, hτ⟩ ρ hρ
    rw [Out.state_close] at hτ
    rcases ih (fun o a ht => ha o a (List.mem_cons_of_mem _ ht)) ⟨τ, hτ⟩ _ (hρ.clear _) with ⟨o, a, he⟩ | ⟨out', h', hl⟩
    · exact Or.inl ⟨o, a, .new h he⟩
    · exact Or.inr ⟨_, .new h h', hl.close⟩
  | newObject h => exact fun _ _ ρ hρ => Or.inr ⟨_, .newObject h, hρ.clear _⟩
  | seq _ _ i1 i2 =>
    rintro ha hτ ρ hρ
    rcases i1 (fun o a ht => ha o a (List.mem_append_left _ ht)) ⟨_, rfl⟩ ρ hρ with ⟨o, a, he⟩ | ⟨out', h', hl⟩
    · exact Or.inl ⟨o, a, .seqErr he⟩
    · obtain ⟨ρ', rfl, hρ'⟩ := hl.norm
      rcases i2 (fun o a ht => ha o a (List.mem_append_right _ ht)) hτ ρ' hρ' with ⟨o, a, he⟩ | ⟨out', h'', hl⟩
      · exact Or.inl ⟨o, a, .seq h'.exec he⟩
      · exact Or.inr ⟨_, .seq h' h'', hl⟩
  | seqRet _ ih =>
    rintro ha hτ ρ hρ
    rcases ih ha hτ ρ hρ with ⟨o, a, he⟩ | ⟨out', h', hl⟩
    · exact Or.inl ⟨o, a, .seqErr he⟩
    · obtain ⟨ρ', rfl, hρ'⟩ := hl.ret
      exact Or.inr ⟨_, .seqRet h', hρ'⟩
  | seqBrk _ ih =>
    rintro ha hτ ρ hρ
    rcases ih ha hτ ρ hρ with ⟨o, a, he⟩ | ⟨out', h', hl⟩
    · exact Or.inl ⟨o, a, .seqErr he⟩
    · obtain ⟨ρ', rfl, hρ'⟩ := hl.brk
      exact Or.inr ⟨_, .seqBrk h', hρ'⟩
  | seqErr | loopErr => rintro _ ⟨τ, h⟩; cases h
  | altL _ ih =>
    rintro ha hτ ρ hρ
    rcases ih ha hτ ρ hρ with ⟨o, a, he⟩ | ⟨out', h', hl⟩
    · exact Or.inl ⟨o, a, .altL he⟩
    · exact Or.inr ⟨_, .altL h', hl⟩
  | altR _ ih =>
    rintro ha hτ ρ hρ
    rcases ih ha hτ ρ hρ with ⟨o, a, he⟩ | ⟨out', h', hl⟩
    · exact Or.inl ⟨o, a, .altR he⟩
    · exact Or.inr ⟨_, .altR h', hl⟩
  | jj _ ih =>
    rintro ha hτ ρ hρ
    rcases ih ha hτ ρ hρ with ⟨o, a, he⟩ | ⟨out', h', hl⟩
    · exact Or.inl ⟨o, a, .jj he⟩
    · exact Or.inr ⟨_, .jj h', hl⟩
  | flag _ ih =>
    rintro ha hτ ρ hρ
    rcases ih ha hτ ρ hρ with ⟨o, a, he⟩ | ⟨out', h', hl⟩
    · exact Or.inl ⟨o, a, .flag he⟩
    · exact Or.inr ⟨_, .flag h', hl⟩
  | hasT h _ ih =>
    rintro ha hτ ρ hρ
    have h' := (hρ.has (ha _ _ List.mem_cons_self)).1 h
    rcases ih (fun o a ht => ha o a (List.mem_cons_of_mem _ ht)) hτ ρ hρ with ⟨o, a, he⟩ | ⟨out', h'', hl⟩
    · exact Or.inl ⟨o, a, .hasT h' he⟩
    · exact Or.inr ⟨_, .hasT h' h'', hl⟩
  | hasF h _ ih =>
    rintro ha hτ ρ hρ
    have h' := fun x => h ((hρ.has (ha _ _ List.mem_cons_self)).2 x)
    rcases ih (fun o a ht => ha o a (List.mem_cons_of_mem _ ht)) hτ ρ hρ with ⟨o, a, he⟩ | ⟨out', h'', hl⟩
    · exact Or.inl ⟨o, a, .hasF h' he⟩
    · exact Or.inr ⟨_, .hasF h' h'', hl⟩
  | loopEnd => exact fun _ _ ρ hρ => Or.inr ⟨_, .loopEnd, hρ⟩
  | loop _ _ i1 i2 =>
    rintro ha hτ ρ hρ
    rcases i1 (fun o a ht => ha o a (List.mem_append_left _ ht)) ⟨_, rfl⟩ ρ hρ with ⟨o, a, he⟩ | ⟨out', h', hl⟩
    · exact Or.inl ⟨o, a, .loopErr he⟩
    · obtain ⟨ρ', rfl, hρ'⟩ := hl.norm
      rcases i2 (fun o a ht => ha o a (List.mem_append_right _ ht)) hτ ρ' hρ' with ⟨o, a, he⟩ | ⟨out', h'', hl⟩
      · exact Or.inl ⟨o, a, .loop h'.exec he⟩
      · exact Or.inr ⟨_, .loop h' h'', hl⟩
  | loopBrk _ _ i1 i2 =>
    rintro ha hτ ρ hρ
    rcases i1 (fun o a ht => ha o a (List.mem_append_left _ ht)) ⟨_, rfl⟩ ρ hρ with ⟨o, a, he⟩ | ⟨out', h', hl⟩
    · exact Or.inl ⟨o, a, .loopErr he⟩
    · obtain ⟨ρ', rfl, hρ'⟩ := hl.brk
      rcases i2 (fun o a ht => ha o a (List.mem_append_right _ ht)) hτ ρ' hρ' with ⟨o, a, he⟩ | ⟨out', h'', hl⟩
      · exact Or.inl ⟨o, a, .loopBrk h'.exec he⟩
      · exact Or.inr ⟨_, .loopBrk h' h'', hl⟩
  | loopRet _ ih =>
    rintro ha hτ ρ hρ
    rcases ih ha hτ ρ hρ with ⟨o, a, he⟩ | ⟨out', h', hl⟩
    · exact Or.inl ⟨o, a, .loopErr he⟩
    · obtain ⟨ρ', rfl, hρ'⟩ := hl.ret
      exact Or.inr ⟨_, .loopRet h', hρ'⟩
  | scope _ ih =>
    rintro ha ⟨τ, hτ⟩ ρ hρ
    rw [Out.state_close] at hτ
    rcases ih ha ⟨τ, hτ⟩ ρ hρ with ⟨o, a, he⟩ | ⟨out', h', hl⟩
    · exact Or.inl ⟨o, a, .scope he⟩
    · exact Or.inr ⟨_, .scope h', hl.close⟩

/-! ## where an attribute comes from -/

theorem found_at {t₁ : List Ev} {o : Obj} {a : ℕ} {t₂ : List Ev} : ∀ {σ : State}, Found W (t₁ ++ Ev.get o a :: t₂) σ →
    Has W (afterAll t₁ σ) o a := by
  induction t₁ with
  | nil => exact fun h => h.1
  | cons e t ih =>
    intro σ h
    cases e with
    | get _ _ => exact ih (σ := σ) h.2
    | test _ _ => exact ih (σ := σ) h
    | set o a => exact ih (σ := insert (o, a) σ) h
    | make o => exact ih (σ := clear σ o) h

theorem mem_afterAll {x : Obj × ℕ} : ∀ {t : List Ev} {σ : State}, x ∈ afterAll t σ →
    (x ∈ σ ∧ Ev.make x.1 ∉ t) ∨ ∃ u₁ u₂, t = u₁ ++ Ev.set x.1 x.2 :: u₂ ∧ Ev.make x.1 ∉ u₂
  | [], σ, h => Or.inl ⟨h, by simp⟩
  | e :: t, σ, h => by
    rcases mem_afterAll (t := t) (σ := e.after σ) h with ⟨h1, h2⟩ | ⟨u₁, u₂, rfl, h2⟩
    · cases e with
      | get _ _ | test _ _ => exact Or.inl ⟨h1, by simpa using h2⟩
      | set o a =>
        rcases h1 with rfl | h1
        · exact Or.inr ⟨[], t, rfl, h2⟩
        · exact Or.inl ⟨h1, by simpa using h2⟩
      | make o =>
        refine Or.inl ⟨h1.1, fun h => ?_⟩
        rcases List.mem_cons.1 h with h | h
        · exact h1.2 (Ev.make.inj h)
        · exact h2 h
    · exact Or.inr ⟨e :: u₁, u₂, rfl, h2⟩

theorem mem_afterAll_of {x : Obj × ℕ} : ∀ {t : List Ev} {σ : State}, x ∈ σ → Ev.make x.1 ∉ t → x ∈ afterAll t σ
  | [], σ, h, _ => h
  | e :: t, σ, h, h' => by
    refine mem_afterAll_of (t := t) (σ := e.after σ) ?_ (fun hm => h' (List.mem_cons_of_mem _ hm))
    cases e with
    | get _ _ | test _ _ => exact h
    | set o a => exact Or.inr h
    | make o => exact ⟨h, fun he => h' (by rw [he]; exact List.mem_cons_self)⟩

end Attrs
end Pot
