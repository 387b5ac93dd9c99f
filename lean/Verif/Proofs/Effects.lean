/-
Which events the executions of `Model/Effects.lean` can contain: a check over the functions a command can reach, and that it is sound.
-/
import Verif.Model.Effects
import Verif.Proofs.Attrs

namespace Pot
namespace Attrs

variable {W : World}

theorem Run.exec {n : ℕ} {me : Obj} {j : Bool} {c : Cmd} {σ : State} {t : List Ev} {out : Out}
    (h : Run W n me j c σ t out) : Exec W n me j c σ out := by
  induction h with
  | skip => exact .skip
  | ret => exact .ret
  | brk => exact .brk
  | rd h => exact .rd h
  | rdErr h => exact .rdErr h
  | wr => exact .wr
  | call h _ ih => exact .call h ih
  | callOwn h h' => exact .callOwn h h'
  | callErr h => exact .callErr h
  | sup h _ ih => exact .sup h ih
  | supObject h => exact .supObject h
  | supErr h h' => exact .supErr h h'
  | fn _ ih => exact .fn ih
  | new h _ ih => exact .new h ih
  | newObject h => exact .newObject h
  | seq _ _ i1 i2 => exact .seq i1 i2
  | seqRet _ ih => exact .seqRet ih
  | seqBrk _ ih => exact .seqBrk ih
  | seqErr _ ih => exact .seqErr ih
  | altL _ ih => exact .altL ih
  | altR _ ih => exact .altR ih
  | jj _ ih => exact .jj ih
  | flag _ ih => exact .flag ih
  | hasT h _ ih => exact .hasT h ih
  | hasF h _ ih => exact .hasF h ih
  | loopEnd => exact .loopEnd
  | loop _ _ i1 i2 => exact .loop i1 i2
  | loopBrk _ _ i1 i2 => exact .loopBrk i1 i2
  | loopRet _ ih => exact .loopRet ih
  | loopErr _ ih => exact .loopErr ih
  | scope _ ih => exact .scope ih

theorem Exec.run {n : ℕ} {me : Obj} {j : Bool} {c : Cmd} {σ : State} {out : Out}
    (h : Exec W n me j c σ out) : ∃ t, Run W n me j c σ t out := by
  induction h with
  | skip => exact ⟨_, .skip⟩
  | ret => exact ⟨_, .ret⟩
  | brk => exact ⟨_, .brk⟩
  | rd h => exact ⟨_, .rd h⟩
  | rdErr h => exact ⟨_, .rdErr h⟩
  | wr => exact ⟨_, .wr⟩
  | call h _ ih => exact ⟨_, .call h ih.choose_spec⟩
  | callOwn h h' => exact ⟨_, .callOwn h h'⟩
  | callErr h => exact ⟨_, .callErr h⟩
  | sup h _ ih => exact ⟨_, .sup h ih.choose_spec⟩
  | supObject h => exact ⟨_, .supObject h⟩
  | supErr h h' => exact ⟨_, .supErr h h'⟩
  | fn _ ih => exact ⟨_, .fn ih.choose_spec⟩
  | new h _ ih => exact ⟨_, .new h ih.choose_spec⟩
  | newObject h => exact ⟨_, .newObject h⟩
  | seq _ _ i1 i2 => exact ⟨_, .seq i1.choose_spec i2.choose_spec⟩
  | seqRet _ ih => exact ⟨_, .seqRet ih.choose_spec⟩
  | seqBrk _ ih => exact ⟨_, .seqBrk ih.choose_spec⟩
  | seqErr _ ih => exact ⟨_, .seqErr ih.choose_spec⟩
  | altL _ ih => exact ⟨_, .altL ih.choose_spec⟩
  | altR _ ih => exact ⟨_, .altR ih.choose_spec⟩
  | jj _ ih => exact ⟨_, .jj ih.choose_spec⟩
  | flag _ ih => exact ⟨_, .flag ih.choose_spec⟩
  | hasT h _ ih => exact ⟨_, .hasT h ih.choose_spec⟩
  | hasF h _ ih => exact ⟨_, .hasF h ih.choose_spec⟩
  | loopEnd => exact ⟨_, .loopEnd⟩
  | loop _ _ i1 i2 => exact ⟨_, .loop i1.choose_spec i2.choose_spec⟩
  | loopBrk _ _ i1 i2 => exact ⟨_, .loopBrk i1.choose_spec i2.choose_spec⟩
  | loopRet _ ih => exact ⟨_, .loopRet ih.choose_spec⟩
  | loopErr _ ih => exact ⟨_, .loopErr ih.choose_spec⟩
  | scope _ ih => exact ⟨_, .scope ih.choose_spec⟩

/-! ## the check -/

/-- a function that runs for an object -/
structure Node where
  o : Obj
  c : Owner
  m : ℕ
  deriving DecidableEq

theorem Owner.ctorIdx_inj {c c' : Owner} (h : c.ctorIdx = c'.ctorIdx) : c = c' := by
  rw [← Owner.ofNat_ctorIdx c, ← Owner.ofNat_ctorIdx c', h]

/-- the function is one of those in the table, which has a number for every class or module -/
def seen (K : List ℕ) (x : Node) : Bool := (K.getD x.c.ctorIdx 0).testBit (bit x.o x.m)

/-- put the function into the table -/
def mark (K : List ℕ) (x : Node) : List ℕ := K.set x.c.ctorIdx (K.getD x.c.ctorIdx 0 ||| 2 ^ bit x.o x.m)

theorem seen_mark {K : List ℕ} {x y : Node} (h : seen (mark K x) y = true) : y = x ∨ seen K y = true := by
  obtain ⟨o, c, m⟩ := x
  obtain ⟨o', c', m'⟩ := y
  simp only [seen, mark] at h ⊢
  rw [List.getD_eq_getElem?_getD, List.getElem?_set] at h
  split at h
  · rename_i hc
    obtain rfl := Owner.ctorIdx_inj hc
    split at h
    · rw [Option.getD_some, Nat.testBit_or, Bool.or_eq_true, Nat.testBit_two_pow] at h
      rcases h with h | h
      · exact Or.inr h
      · obtain ⟨rfl, rfl⟩ := bit_inj (of_decide_eq_true h)
        exact Or.inl rfl
    · simp at h
  · rw [List.getD_eq_getElem?_getD]
    exact Or.inr h

theorem seen_empty (n : ℕ) (x : Node) : seen (List.replicate n 0) x = false := by
  unfold seen
  rw [List.getD_eq_getElem?_getD, List.getElem?_replicate]
  split <;> simp

/-- what a command does itself, and the functions it calls -/
def acts (W : World) (me : Obj) : Cmd → List (Ev ⊕ Node)
  | .skip | .ret | .brk => []
  | .rd r a => [.inl (.get (W.obj me r) a)]
  | .wr r a => [.inl (.set (W.obj me r) a)]
  | .call r m _ => .inl (.get (W.obj me r) m) :: (match W.owner (W.obj me r) m with
    | some c => [.inr ⟨W.obj me r, c, m⟩]
    | none => [])
  | .sup r c m => match W.next (W.obj me r) c m with
    | some d => [.inr ⟨W.obj me r, d, m⟩]
    | none => []
  | .fn c f => [.inr ⟨me, c, f⟩]
  | .new r => .inl (.make (W.obj me r)) :: (match W.owner (W.obj me r) N.__init__ with
    | some c => [.inr ⟨W.obj me r, c, N.__init__⟩]
    | none => [])
  | .seq c d => acts W me c ++ acts W me d
  | .alt c d => acts W me c ++ acts W me d
  | .jj c d => acts W me c ++ acts W me d
  | .flag _ c d => acts W me c ++ acts W me d
  | .has r a c d => .inl (.test (W.obj me r) a) :: (acts W me c ++ acts W me d)
  | .loop c => acts W me c
  | .scope c => acts W me c

/-- the functions of a list of `acts`, if no event of it is bad -/
def sift (bad : Ev → Bool) : List (Ev ⊕ Node) → Option (List Node)
  | [] => some []
  | .inl e :: l => if bad e then none else sift bad l
  | .inr x :: l => (sift bad l).map (x :: ·)

theorem sift_spec {bad : Ev → Bool} : ∀ {l : List (Ev ⊕ Node)} {k : List Node}, sift bad l = some k →
    (∀ e, Sum.inl e ∈ l → bad e = false) ∧ ∀ x, Sum.inr x ∈ l → x ∈ k
  | [], k, _ => ⟨by simp, by simp⟩
  | .inl e :: l, k, h => by
    rw [sift] at h
    split at h
    · cases h
    · rename_i hb
      obtain ⟨h1, h2⟩ := sift_spec h
      refine ⟨fun e' he => ?_, fun x hx => h2 x (by simpa using hx)⟩
      rcases List.mem_cons.1 he with h | h
      · cases h
        simpa using hb
      · exact h1 e' h
  | .inr x :: l, k, h => by
    rw [sift] at h
    obtain ⟨k', hk, rfl⟩ := Option.map_eq_some_iff.1 h
    obtain ⟨h1, h2⟩ := sift_spec hk
    refine ⟨fun e he => h1 e (by simpa using he), fun y hy => ?_⟩
    rcases List.mem_cons.1 hy with h | h
    · cases h
      exact List.mem_cons_self
    · exact List.mem_cons_of_mem _ (h2 y h)

/-- no function that can be reached from those of the list does anything bad; `K` are those already looked at -/
def clean (W : World) (bad : Ev → Bool) : ℕ → List Node → List ℕ → Bool
  | _, [], _ => true
  | 0, _ :: _, _ => false
  | f + 1, x :: l, K =>
    if seen K x then clean W bad f l K
    else match sift bad (acts W x.o (W.body x.c x.m)) with
      | some k => clean W bad f (k ++ l) (mark K x)
      | none => false

/-- `S` contains every function its functions call, and none of them does anything bad itself; those of `K` are left out -/
def Closed (W : World) (bad : Ev → Bool) (K : List ℕ) (S : Set Node) : Prop :=
  ∀ x ∈ S, ∀ y ∈ acts W x.o (W.body x.c x.m), match y with
    | .inl e => bad e = false
    | .inr x => x ∈ S ∨ seen K x = true

theorem clean_spec {bad : Ev → Bool} : ∀ {f : ℕ} {l : List Node} {K : List ℕ}, clean W bad f l K = true →
    ∃ S : Set Node, (∀ x ∈ l, x ∈ S ∨ seen K x = true) ∧ Closed W bad K S
  | f, [], K, _ => ⟨∅, by simp, fun x hx => absurd hx (by simp)⟩
  | 0, _ :: _, K, h => by simp [clean] at h
  | f + 1, x :: l, K, h => by
    rw [clean] at h
    split at h
    · rename_i hK
      obtain ⟨S, h1, h2⟩ := clean_spec h
      refine ⟨S, fun y hy => ?_, h2⟩
      rcases List.mem_cons.1 hy with rfl | hy
      · exact Or.inr hK
      · exact h1 y hy
    · split at h
      · rename_i k hk
        obtain ⟨S, h1, h2⟩ := clean_spec h
        obtain ⟨h3, h4⟩ := sift_spec hk
        have hin : ∀ y : Node, y ∈ S ∨ seen (mark K x) y = true → y ∈ insert x S ∨ seen K y = true := by
          rintro y (hy | hy)
          · exact Or.inl (Or.inr hy)
          · rcases seen_mark hy with rfl | hy
            · exact Or.inl (Or.inl rfl)
            · exact Or.inr hy
        refine ⟨insert x S, fun y hy => ?_, ?_⟩
        · rcases List.mem_cons.1 hy with rfl | hy
          · exact Or.inl (Or.inl rfl)
          · exact hin y (h1 y (List.mem_append_right _ hy))
        · rintro y (rfl | hy) z hz
          · cases z with
            | inl e => exact h3 e hz
            | inr z => exact hin z (h1 z (List.mem_append_left _ (h4 z hz)))
          · have := h2 y hy z hz
            cases z with
            | inl e => exact this
            | inr z => exact hin z this
      · cases h

/-- a command all whose calls lead into `S` and which does nothing bad itself -/
def Into (W : World) (bad : Ev → Bool) (S : Set Node) (me : Obj) (c : Cmd) : Prop :=
  ∀ y ∈ acts W me c, match y with
    | .inl e => bad e = false
    | .inr x => x ∈ S

theorem run_into {bad : Ev → Bool} {S : Set Node} (hS : ∀ x ∈ S, Into W bad S x.o (W.body x.c x.m)) {n : ℕ} {me : Obj} {j : Bool}
    {c : Cmd} {σ : State} {t : List Ev} {out : Out} (h : Run W n me j c σ t out) :
    Into W bad S me c → ∀ e ∈ t, bad e = false := by
  induction h with
  | skip | ret | brk | supObject | supErr | loopEnd => intro _ e he; cases he
  | rd | rdErr | wr =>
    intro hc e he
    obtain rfl := List.mem_singleton.1 he
    exact hc (.inl _) (by simp [acts])
  | callOwn | callErr | newObject =>
    intro hc e he
    obtain rfl := List.mem_singleton.1 he
    exact hc (.inl _) (by simp [acts])
  | @call n me j r m p σ c t out h _ ih =>
    intro hc e he
    rcases List.mem_cons.1 he with rfl | he
    · exact hc (.inl _) (by simp [acts])
    · exact ih (hS _ (hc (.inr ⟨W.obj me r, c, m⟩) (by simp [acts, h]))) e he
  | @sup n me j r c m σ d t out h _ ih =>
    intro hc e he
    exact ih (hS _ (hc (.inr ⟨W.obj me r, d, m⟩) (by simp [acts, h]))) e he
  | @fn n me j c f σ t out _ ih =>
    intro hc e he
    exact ih (hS _ (hc (.inr ⟨me, c, f⟩) (by simp [acts]))) e he
  | @new n me j r σ c t out h _ ih =>
    intro hc e he
    rcases List.mem_cons.1 he with rfl | he
    · exact hc (.inl _) (by simp [acts])
    · exact ih (hS _ (hc (.inr ⟨W.obj me r, c, N.__init__⟩) (by simp [acts, h]))) e he
  | seq _ _ i1 i2 =>
    intro hc e he
    rcases List.mem_append.1 he with he | he
    · exact i1 (fun y hy => hc y (by simp only [acts, List.mem_append]; exact Or.inl hy)) e he
    · exact i2 (fun y hy => hc y (by simp only [acts, List.mem_append]; exact Or.inr hy)) e he
  | seqRet _ ih | seqBrk _ ih | seqErr _ ih | altL _ ih =>
    intro hc
    exact ih (fun y hy => hc y (by simp only [acts, List.mem_append]; exact Or.inl hy))
  | altR _ ih =>
    intro hc
    exact ih (fun y hy => hc y (by simp only [acts, List.mem_append]; exact Or.inr hy))
  | jj _ ih | flag _ ih =>
    intro hc
    refine ih (fun y hy => hc y ?_)
    simp only [acts, List.mem_append]
    split at hy
    · exact Or.inl hy
    · exact Or.inr hy
  | hasT _ _ ih =>
    intro hc e he
    rcases List.mem_cons.1 he with rfl | he
    · exact hc (.inl _) (by simp [acts])
    · exact ih (fun y hy => hc y (by simp only [acts, List.mem_cons, List.mem_append]; exact Or.inr (Or.inl hy))) e he
  | hasF _ _ ih =>
    intro hc e he
    rcases List.mem_cons.1 he with rfl | he
    · exact hc (.inl _) (by simp [acts])
    · exact ih (fun y hy => hc y (by simp only [acts, List.mem_cons, List.mem_append]; exact Or.inr (Or.inr hy))) e he
  | loop _ _ i1 i2 | loopBrk _ _ i1 i2 =>
    intro hc e he
    rcases List.mem_append.1 he with he | he
    · exact i1 (fun y hy => hc y (by simpa only [acts] using hy)) e he
    · exact i2 hc e he
  | loopRet _ ih | loopErr _ ih | scope _ ih =>
    intro hc
    exact ih (fun y hy => hc y (by simpa only [acts] using hy))

/-- no execution of `c` in a method of `me` does anything bad -/
def never (W : World) (bad : Ev → Bool) (me : Obj) (c : Cmd) : Bool := match sift bad (acts W me c) with
  | some k => clean W bad 20000 k (List.replicate 64 0)
  | none => false

theorem never_sound {bad : Ev → Bool} {me : Obj} {c : Cmd} (h : never W bad me c = true) {n : ℕ} {j : Bool} {σ : State} {t : List Ev}
    {out : Out} (hx : Run W n me j c σ t out) : ∀ e ∈ t, bad e = false := by
  unfold never at h
  split at h
  · rename_i k hk
    obtain ⟨S, h1, h2⟩ := clean_spec h
    obtain ⟨h3, h4⟩ := sift_spec hk
    refine run_into (S := S) (fun x hx y hy => ?_) hx (fun y hy => ?_)
    · have := h2 x hx y hy
      cases y with
      | inl e => exact this
      | inr y => exact this.resolve_right (by rw [seen_empty]; exact Bool.false_ne_true)
    · cases y with
      | inl e => exact h3 e hy
      | inr y => exact (h1 y (h4 y hy)).resolve_right (by rw [seen_empty]; exact Bool.false_ne_true)
  · cases h

end Attrs
end Pot
