/-
A check that no execution of a program of `Model/Attrs.lean` ends in `AttributeError`, and that it is sound.
-/
import Verif.Model.Attrs
import Mathlib.Tactic.Common
import Mathlib.Data.Nat.Bitwise

namespace Pot
namespace Attrs

/-! ## sets of attributes as numbers -/

/-- the number of a role -/
def Obj.code : Obj → ℕ
  | .solver => 0 | .problem => 1 | .zproblem => 2 | .boundary => 3 | .apsolver => 4
  | .multivalue => 5 | .polarfd => 6 | .zmethod => 7 | .result => 8 | .dummy => 9

/-- the bit of an attribute -/
def bit (o : Obj) (a : ℕ) : ℕ := 16 * a + o.code

theorem bit_inj {o o' : Obj} {a a' : ℕ} (h : bit o a = bit o' a') : o = o' ∧ a = a' := by
  unfold bit at h
  have hc : o.code < 16 := by cases o <;> decide
  have hc' : o'.code < 16 := by cases o' <;> decide
  have h1 : o.code = o'.code := by omega
  refine ⟨?_, by omega⟩
  revert h1
  cases o <;> cases o' <;> simp [Obj.code]

/-- the bits of all other roles -/
def keep (o : Obj) : ℕ := (2 ^ (16 * 512) - 1) / (2 ^ 16 - 1) * (2 ^ 16 - 1 - 2 ^ o.code)

theorem keep_low : ∀ o ∈ [Obj.solver, .problem, .zproblem, .boundary, .apsolver, .multivalue, .polarfd, .zmethod, .result, .dummy],
    ∀ a ∈ List.range 512, (keep o).testBit (bit o a) = false := by
  decide +kernel

theorem keep_lt (o : Obj) : keep o < 2 ^ (16 * 512) := by
  cases o <;> decide +kernel

set_option exponentiation.threshold 10000 in
theorem keep_bit (o : Obj) (a : ℕ) : (keep o).testBit (bit o a) = false := by
  by_cases h : a < 512
  · exact keep_low o (by cases o <;> simp) a (List.mem_range.2 h)
  · apply Nat.testBit_lt_two_pow
    refine lt_of_lt_of_le (keep_lt o) (Nat.pow_le_pow_right (by decide) ?_)
    unfold bit
    omega

/-- all attributes of the number are there -/
def Sub (K : ℕ) (σ : State) : Prop := ∀ o a, K.testBit (bit o a) = true → (o, a) ∈ σ

theorem sub_zero (σ : State) : Sub 0 σ := by
  intro o a h
  simp at h

theorem Sub.insert {K : ℕ} {σ : State} (h : Sub K σ) (o : Obj) (a : ℕ) : Sub (K ||| 2 ^ bit o a) (insert (o, a) σ) := by
  intro o' a' h'
  rw [Nat.testBit_or, Bool.or_eq_true] at h'
  rcases h' with h' | h'
  · exact Or.inr (h _ _ h')
  · rw [Nat.testBit_two_pow, decide_eq_true_eq] at h'
    obtain ⟨rfl, rfl⟩ := bit_inj h'
    exact Or.inl rfl

theorem Sub.or_mem {K : ℕ} {σ : State} (h : Sub K σ) {o : Obj} {a : ℕ} (hm : (o, a) ∈ σ) : Sub (K ||| 2 ^ bit o a) σ := by
  have := h.insert o a
  rwa [Set.insert_eq_of_mem hm] at this

theorem Sub.and_left {K L : ℕ} {σ : State} (h : Sub K σ) : Sub (K &&& L) σ := by
  intro o a h'
  rw [Nat.testBit_and, Bool.and_eq_true] at h'
  exact h _ _ h'.1

theorem Sub.and_right {K L : ℕ} {σ : State} (h : Sub L σ) : Sub (K &&& L) σ := by
  intro o a h'
  rw [Nat.testBit_and, Bool.and_eq_true] at h'
  exact h _ _ h'.2

theorem Sub.clear {K : ℕ} {σ : State} (h : Sub K σ) (o : Obj) : Sub (K &&& keep o) (clear σ o) := by
  intro o' a h'
  rw [Nat.testBit_and, Bool.and_eq_true] at h'
  refine ⟨h _ _ h'.1, ?_⟩
  rintro rfl
  have := keep_bit o' a
  rw [h'.2] at this
  exact Bool.noConfusion this

/-! ## the check -/

/-- the attributes certainly there at the end, after `return` and after `break`; `none` if that end is not reached -/
structure Res where
  norm : Option ℕ
  ret : Option ℕ
  brk : Option ℕ

/-- what is certain at one of two ends -/
def meet : Option ℕ → Option ℕ → Option ℕ
  | none, y => y
  | x, none => x
  | some x, some y => some (x &&& y)

/-- the attributes that are there in either case -/
def inter (K : ℕ) : Option ℕ → ℕ
  | none => K
  | some L => K &&& L

def Res.close (F : Res) : Res := ⟨meet F.norm (meet F.ret F.brk), none, none⟩

/-- a call that is being checked: the object, the class, the method, `JJ`, and the attributes certainly there -/
structure Entry where
  o : Obj
  c : Owner
  m : ℕ
  j : Bool
  K : ℕ

def Res.only (K : ℕ) : Res := ⟨some K, none, none⟩

/-- find attributes that every round keeps -/
def fix (g : ℕ → Option Res) : ℕ → ℕ → Option Res
  | 0, _ => none
  | t + 1, K => (g K).bind fun F =>
      let L := inter (inter K F.norm) F.brk
      if L = K then some ⟨some K, F.ret, none⟩ else fix g t L

section
variable (W : World) (rec : Owner → ℕ → Bool)

/-- check the body of a function -/
def enter (run : List Entry → Obj → Bool → Cmd → ℕ → Option Res) (Γ : List Entry) (o : Obj) (c : Owner) (m : ℕ) (j : Bool)
    (K : ℕ) : Option Res :=
  if rec c m then
    match Γ.find? fun e => decide (e.o = o ∧ e.c = c ∧ e.m = m ∧ e.j = j) with
    | some e => if e.K &&& K = e.K then some (.only e.K) else none
    | none => (run (⟨o, c, m, j, K⟩ :: Γ) o j (W.body c m) K).bind fun F =>
        if inter K F.close.norm = K then some F.close else none
  else (run Γ o j (W.body c m) K).map Res.close

/-- check a command: `none` if an attribute is read that is not certainly there -/
def step (run : List Entry → Obj → Bool → Cmd → ℕ → Option Res) (Γ : List Entry) (me : Obj) (j : Bool) : Cmd → ℕ → Option Res
  | .skip, K => some (.only K)
  | .ret, K => some ⟨none, some K, none⟩
  | .brk, K => some ⟨none, none, some K⟩
  | .rd r a, K => if K.testBit (bit (W.obj me r) a) || (W.owner (W.obj me r) a).isSome then some (.only K) else none
  | .wr r a, K => some (.only (K ||| 2 ^ bit (W.obj me r) a))
  | .call r m p, K => match W.owner (W.obj me r) m with
    | some c => enter W rec run Γ (W.obj me r) c m (p.val j) K
    | none => if K.testBit (bit (W.obj me r) m) then some (.only K) else none
  | .sup r c m, K => match W.next (W.obj me r) c m with
    | some d => enter W rec run Γ (W.obj me r) d m false K
    | none => if m = N.__init__ then some (.only K) else none
  | .fn c f, K => enter W rec run Γ me c f false K
  | .new r, K => match W.owner (W.obj me r) N.__init__ with
    | some c => enter W rec run Γ (W.obj me r) c N.__init__ false (K &&& keep (W.obj me r))
    | none => some (.only (K &&& keep (W.obj me r)))
  | .seq c d, K => (step run Γ me j c K).bind fun F => match F.norm with
    | none => some F
    | some L => (step run Γ me j d L).map fun G => ⟨G.norm, meet F.ret G.ret, meet F.brk G.brk⟩
  | .alt c d, K => (step run Γ me j c K).bind fun F => (step run Γ me j d K).map fun G =>
      ⟨meet F.norm G.norm, meet F.ret G.ret, meet F.brk G.brk⟩
  | .jj c d, K => match j with
    | true => step run Γ me j c K
    | false => step run Γ me j d K
  | .flag r c d, K => match W.isHomog (W.obj me r) with
    | true => step run Γ me j c K
    | false => step run Γ me j d K
  | .has r a c d, K => match K.testBit (bit (W.obj me r) a) || (W.owner (W.obj me r) a).isSome with
    | true => step run Γ me j c K
    | false => (step run Γ me j c (K ||| 2 ^ bit (W.obj me r) a)).bind fun F => (step run Γ me j d K).map fun G =>
        ⟨meet F.norm G.norm, meet F.ret G.ret, meet F.brk G.brk⟩
  | .loop c, K => fix (step run Γ me j c) 8 K
  | .scope c, K => (step run Γ me j c K).map Res.close

/-- check a command, following calls `f` deep -/
def an : ℕ → List Entry → Obj → Bool → Cmd → ℕ → Option Res
  | 0 => fun _ _ _ _ _ => none
  | f + 1 => fun Γ me j c K => step W rec (an f) Γ me j c K

/-! ## soundness -/

/-- the end of an execution is as the check says -/
def Good (F : Res) : Out → Prop
  | .norm σ => ∃ K, F.norm = some K ∧ Sub K σ
  | .ret σ => ∃ K, F.ret = some K ∧ Sub K σ
  | .brk σ => ∃ K, F.brk = some K ∧ Sub K σ
  | .err _ _ => False

theorem meet_left {x y : Option ℕ} {K : ℕ} {σ : State} (hx : x = some K) (h : Sub K σ) : ∃ L, meet x y = some L ∧ Sub L σ := by
  subst hx
  cases y with
  | none => exact ⟨K, rfl, h⟩
  | some y => exact ⟨K &&& y, rfl, h.and_left⟩

theorem meet_right {x y : Option ℕ} {K : ℕ} {σ : State} (hy : y = some K) (h : Sub K σ) : ∃ L, meet x y = some L ∧ Sub L σ := by
  subst hy
  cases x with
  | none => exact ⟨K, rfl, h⟩
  | some x => exact ⟨x &&& K, rfl, h.and_right⟩

theorem Good.close {F : Res} {out : Out} (h : Good F out) : Good F.close out.close := by
  cases out with
  | norm σ => obtain ⟨K, h1, h2⟩ := h; exact meet_left h1 h2
  | ret σ =>
      obtain ⟨K, h1, h2⟩ := h
      obtain ⟨L, h3, h4⟩ := meet_left (y := F.brk) h1 h2
      exact meet_right h3 h4
  | brk σ =>
      obtain ⟨K, h1, h2⟩ := h
      obtain ⟨L, h3, h4⟩ := meet_right (x := F.ret) h1 h2
      exact meet_right h3 h4
  | err o a => exact h

theorem Good.left {F G : Res} {out : Out} (h : Good F out) : Good ⟨meet F.norm G.norm, meet F.ret G.ret, meet F.brk G.brk⟩ out := by
  cases out with
  | norm σ => obtain ⟨K, h1, h2⟩ := h; exact meet_left h1 h2
  | ret σ => obtain ⟨K, h1, h2⟩ := h; exact meet_left h1 h2
  | brk σ => obtain ⟨K, h1, h2⟩ := h; exact meet_left h1 h2
  | err o a => exact h

theorem Good.right {F G : Res} {out : Out} (h : Good G out) : Good ⟨meet F.norm G.norm, meet F.ret G.ret, meet F.brk G.brk⟩ out := by
  cases out with
  | norm σ => obtain ⟨K, h1, h2⟩ := h; exact meet_right h1 h2
  | ret σ => obtain ⟨K, h1, h2⟩ := h; exact meet_right h1 h2
  | brk σ => obtain ⟨K, h1, h2⟩ := h; exact meet_right h1 h2
  | err o a => exact h

/-- calls being checked keep their attributes, as far as they are nested less than `n` deep -/
def Valid (Γ : List Entry) (n : ℕ) : Prop := ∀ e ∈ Γ, ∀ n' < n, ∀ σ out, Sub e.K σ →
  Exec W n' e.o e.j (W.body e.c e.m) σ out → Good (.only e.K) out.close

theorem Valid.mono {Γ : List Entry} {n n' : ℕ} (h : Valid W Γ n) (hn : n' ≤ n) : Valid W Γ n' :=
  fun e he k hk => h e he k (lt_of_lt_of_le hk hn)

/-- the statement of soundness for calls nested at most `n` deep -/
def Sound (n : ℕ) : Prop := ∀ me j c σ out, Exec W n me j c σ out → ∀ f Γ K F, Valid W Γ n → an W rec f Γ me j c K = some F →
  Sub K σ → Good F out

theorem inter_sub {K : ℕ} {F : Res} {out : Out} (h : inter K F.norm = K) (hg : Good F out.close) : Good (.only K) out.close := by
  have key : ∀ σ, (∃ L, F.norm = some L ∧ Sub L σ) → Sub K σ := by
    rintro σ ⟨L, h1, h2⟩
    rw [h1] at h
    change K &&& L = K at h
    rw [← h]
    exact h2.and_right
  cases out with
  | norm σ => exact ⟨K, rfl, key σ hg⟩
  | ret σ => exact ⟨K, rfl, key σ hg⟩
  | brk σ => exact ⟨K, rfl, key σ hg⟩
  | err o a => exact hg

theorem enter_sound {n : ℕ} (hS : ∀ n' ≤ n, Sound W rec n') {f : ℕ} {Γ : List Entry} {o : Obj} {c : Owner} {m : ℕ} {j : Bool}
    {K : ℕ} {F : Res} {σ : State} {out : Out} (hΓ : Valid W Γ (n + 1)) (h : enter W rec (an W rec f) Γ o c m j K = some F)
    (hK : Sub K σ) (hx : Exec W n o j (W.body c m) σ out) : Good F out.close := by
  unfold enter at h
  split at h
  · split at h
    · next e he =>
      have hm := List.mem_of_find?_eq_some he
      have hp := List.find?_some he
      simp only [decide_eq_true_eq] at hp
      obtain ⟨h1, h2, h3, h4⟩ := hp
      split at h
      · next hsub =>
        simp only [Option.some.injEq] at h
        subst h
        refine hΓ e hm n (Nat.lt_succ_self n) σ out ?_ (by rw [h1, h2, h3, h4]; exact hx)
        rw [← hsub]
        exact hK.and_right
      · simp at h
    · next he =>
      rw [Option.bind_eq_some_iff] at h
      obtain ⟨G, hG, h⟩ := h
      split at h
      · next hi =>
        simp only [Option.some.injEq] at h
        subst h
        have hV : ∀ k ≤ n, Valid W (⟨o, c, m, j, K⟩ :: Γ) k := by
          intro k
          induction k with
          | zero => intro _ e _ n' hn'; exact absurd hn' (Nat.not_lt_zero _)
          | succ k ih =>
            intro hk e he' n' hn' τ out' hτ hx'
            rcases List.mem_cons.1 he' with rfl | he'
            · have hn2 : n' ≤ k := Nat.lt_succ_iff.1 hn'
              have := hS n' (by omega) _ _ _ _ _ hx' f _ K G ((ih (by omega)).mono W hn2) hG hτ
              exact inter_sub hi this.close
            · exact hΓ e he' n' (by omega) τ out' hτ hx'
        exact (hS n le_rfl _ _ _ _ _ hx f _ K G (hV n le_rfl) hG hK).close
      · simp at h
  · rw [Option.map_eq_some_iff] at h
    obtain ⟨G, hG, rfl⟩ := h
    exact (hS n le_rfl _ _ _ _ _ hx f _ K G (hΓ.mono W (Nat.le_succ n)) hG hK).close

/-- the attributes `fix` ends with -/
theorem fix_spec {g : ℕ → Option Res} : ∀ {t K : ℕ} {F : Res}, fix g t K = some F →
    ∃ L G, (∀ σ, Sub K σ → Sub L σ) ∧ g L = some G ∧ inter (inter L G.norm) G.brk = L ∧ F = ⟨some L, G.ret, none⟩ := by
  intro t
  induction t with
  | zero => intro K F h; simp [fix] at h
  | succ t ih =>
    intro K F h
    rw [fix, Option.bind_eq_some_iff] at h
    obtain ⟨G, hG, h⟩ := h
    dsimp only at h
    split at h
    · next hL =>
      simp only [Option.some.injEq] at h
      exact ⟨K, G, fun _ h => h, hG, hL, h.symm⟩
    · obtain ⟨L, G', h1, h2, h3, h4⟩ := ih h
      refine ⟨L, G', fun σ hσ => h1 σ ?_, h2, h3, h4⟩
      have e1 : ∀ (x : ℕ) (y : Option ℕ), Sub x σ → Sub (inter x y) σ := by
        intro x y hx
        cases y with
        | none => exact hx
        | some y => exact hx.and_left
      exact e1 _ _ (e1 _ _ hσ)

theorem fix_again {g : ℕ → Option Res} {L : ℕ} {G : Res} (h1 : g L = some G) (h2 : inter (inter L G.norm) G.brk = L) :
    fix g 8 L = some ⟨some L, G.ret, none⟩ := by
  rw [fix, h1]
  change (if inter (inter L G.norm) G.brk = L then _ else _) = _
  rw [if_pos h2]

theorem inter_norm {L K : ℕ} {G : Res} {σ : State} (h : inter (inter L G.norm) G.brk = L) (hn : G.norm = some K) (hK : Sub K σ) :
    Sub L σ := by
  rw [hn] at h
  rw [← h]
  cases G.brk with
  | none => exact hK.and_right
  | some y => exact (hK.and_right (K := L)).and_left

theorem inter_brk {L K : ℕ} {G : Res} {σ : State} (h : inter (inter L G.norm) G.brk = L) (hn : G.brk = some K) (hK : Sub K σ) :
    Sub L σ := by
  rw [hn] at h
  rw [← h]
  exact hK.and_right

theorem has_of {K : ℕ} {σ : State} {o : Obj} {a : ℕ} (hK : Sub K σ) (h : (K.testBit (bit o a) || (W.owner o a).isSome) = true) :
    Has W σ o a := by
  rw [Bool.or_eq_true] at h
  rcases h with h | h
  · exact Or.inl (hK _ _ h)
  · exact Or.inr h

theorem sound_aux {n : ℕ} {me : Obj} {j : Bool} {c : Cmd} {σ : State} {out : Out} (hx : Exec W n me j c σ out) :
    (∀ n' < n, Sound W rec n') → ∀ f Γ K F, Valid W Γ n → an W rec f Γ me j c K = some F → Sub K σ → Good F out := by
  induction hx with
  | skip =>
    intro hS f Γ K F hΓ h hK
    cases f with
    | zero => simp [an] at h
    | succ f => simp only [an, step, Option.some.injEq] at h; subst h; exact ⟨K, rfl, hK⟩
  | ret =>
    intro hS f Γ K F hΓ h hK
    cases f with
    | zero => simp [an] at h
    | succ f => simp only [an, step, Option.some.injEq] at h; subst h; exact ⟨K, rfl, hK⟩
  | brk =>
    intro hS f Γ K F hΓ h hK
    cases f with
    | zero => simp [an] at h
    | succ f => simp only [an, step, Option.some.injEq] at h; subst h; exact ⟨K, rfl, hK⟩
  | rd hh =>
    intro hS f Γ K F hΓ h hK
    cases f with
    | zero => simp [an] at h
    | succ f =>
      simp only [an, step] at h
      split at h
      · simp only [Option.some.injEq] at h; subst h; exact ⟨K, rfl, hK⟩
      · simp at h
  | rdErr hh =>
    intro hS f Γ K F hΓ h hK
    cases f with
    | zero => simp [an] at h
    | succ f =>
      simp only [an, step] at h
      split at h
      · next hb => exact absurd (has_of W hK hb) hh
      · simp at h
  | wr =>
    intro hS f Γ K F hΓ h hK
    cases f with
    | zero => simp [an] at h
    | succ f => simp only [an, step, Option.some.injEq] at h; subst h; exact ⟨_, rfl, hK.insert _ _⟩
  | call ho hx _ =>
    intro hS f Γ K F hΓ h hK
    cases f with
    | zero => simp [an] at h
    | succ f =>
      simp only [an, step, ho] at h
      exact enter_sound W rec (fun n' hn' => hS n' (Nat.lt_succ_of_le hn')) hΓ h hK hx
  | callOwn ho hm =>
    intro hS f Γ K F hΓ h hK
    cases f with
    | zero => simp [an] at h
    | succ f =>
      simp only [an, step, ho] at h
      split at h
      · simp only [Option.some.injEq] at h; subst h; exact ⟨K, rfl, hK⟩
      · simp at h
  | @callErr n me j r m p σ hn =>
    intro hS f Γ K F hΓ h hK
    cases f with
    | zero => simp [an] at h
    | succ f =>
      simp only [an, step] at h
      split at h
      · next c hc => exact absurd (Or.inr (by rw [hc]; rfl)) hn
      · split at h
        · next hb => exact absurd (Or.inl (hK _ _ hb)) hn
        · simp at h
  | sup ho hx _ =>
    intro hS f Γ K F hΓ h hK
    cases f with
    | zero => simp [an] at h
    | succ f =>
      simp only [an, step, ho] at h
      exact enter_sound W rec (fun n' hn' => hS n' (Nat.lt_succ_of_le hn')) hΓ h hK hx
  | supObject ho =>
    intro hS f Γ K F hΓ h hK
    cases f with
    | zero => simp [an] at h
    | succ f => simp only [an, step, ho, if_true, Option.some.injEq] at h; subst h; exact ⟨K, rfl, hK⟩
  | supErr hm ho =>
    intro hS f Γ K F hΓ h hK
    cases f with
    | zero => simp [an] at h
    | succ f => simp only [an, step, ho] at h; rw [if_neg hm] at h; simp at h
  | fn hx _ =>
    intro hS f Γ K F hΓ h hK
    cases f with
    | zero => simp [an] at h
    | succ f => exact enter_sound W rec (fun n' hn' => hS n' (Nat.lt_succ_of_le hn')) hΓ h hK hx
  | new ho hx _ =>
    intro hS f Γ K F hΓ h hK
    cases f with
    | zero => simp [an] at h
    | succ f =>
      simp only [an, step, ho] at h
      exact enter_sound W rec (fun n' hn' => hS n' (Nat.lt_succ_of_le hn')) hΓ h (hK.clear _) hx
  | newObject ho =>
    intro hS f Γ K F hΓ h hK
    cases f with
    | zero => simp [an] at h
    | succ f => simp only [an, step, ho, Option.some.injEq] at h; subst h; exact ⟨_, rfl, hK.clear _⟩
  | @seq n me j c d σ τ out _ _ ih1 ih2 =>
    intro hS f Γ K F hΓ h hK
    cases f with
    | zero => simp [an] at h
    | succ f =>
      simp only [an, step] at h
      rw [Option.bind_eq_some_iff] at h
      obtain ⟨G, hG, h⟩ := h
      obtain ⟨L, h1, h2⟩ := ih1 hS (f + 1) Γ K G hΓ hG hK
      rw [h1] at h
      dsimp only at h
      rw [Option.map_eq_some_iff] at h
      obtain ⟨G', hG', rfl⟩ := h
      have := ih2 hS (f + 1) Γ L G' hΓ hG' h2
      cases out with
      | norm τ => exact this
      | ret τ => obtain ⟨M, a, b⟩ := this; exact meet_right a b
      | brk τ => obtain ⟨M, a, b⟩ := this; exact meet_right a b
      | err o a => exact this
  | seqRet _ ih =>
    intro hS f Γ K F hΓ h hK
    cases f with
    | zero => simp [an] at h
    | succ f =>
      simp only [an, step] at h
      rw [Option.bind_eq_some_iff] at h
      obtain ⟨G, hG, h⟩ := h
      obtain ⟨L, h1, h2⟩ := ih hS (f + 1) Γ K G hΓ hG hK
      split at h
      · simp only [Option.some.injEq] at h; subst h; exact ⟨L, h1, h2⟩
      · rw [Option.map_eq_some_iff] at h
        obtain ⟨G', hG', rfl⟩ := h
        exact meet_left h1 h2
  | seqBrk _ ih =>
    intro hS f Γ K F hΓ h hK
    cases f with
    | zero => simp [an] at h
    | succ f =>
      simp only [an, step] at h
      rw [Option.bind_eq_some_iff] at h
      obtain ⟨G, hG, h⟩ := h
      obtain ⟨L, h1, h2⟩ := ih hS (f + 1) Γ K G hΓ hG hK
      split at h
      · simp only [Option.some.injEq] at h; subst h; exact ⟨L, h1, h2⟩
      · rw [Option.map_eq_some_iff] at h
        obtain ⟨G', hG', rfl⟩ := h
        exact meet_left h1 h2
  | seqErr _ ih =>
    intro hS f Γ K F hΓ h hK
    cases f with
    | zero => simp [an] at h
    | succ f =>
      simp only [an, step] at h
      rw [Option.bind_eq_some_iff] at h
      obtain ⟨G, hG, h⟩ := h
      exact (ih hS (f + 1) Γ K G hΓ hG hK).elim
  | altL _ ih =>
    intro hS f Γ K F hΓ h hK
    cases f with
    | zero => simp [an] at h
    | succ f =>
      simp only [an, step] at h
      rw [Option.bind_eq_some_iff] at h
      obtain ⟨G, hG, h⟩ := h
      rw [Option.map_eq_some_iff] at h
      obtain ⟨G', hG', rfl⟩ := h
      exact (ih hS (f + 1) Γ K G hΓ hG hK).left
  | altR _ ih =>
    intro hS f Γ K F hΓ h hK
    cases f with
    | zero => simp [an] at h
    | succ f =>
      simp only [an, step] at h
      rw [Option.bind_eq_some_iff] at h
      obtain ⟨G, hG, h⟩ := h
      rw [Option.map_eq_some_iff] at h
      obtain ⟨G', hG', rfl⟩ := h
      exact (ih hS (f + 1) Γ K G' hΓ hG' hK).right
  | @jj n me j c d σ out _ ih =>
    intro hS f Γ K F hΓ h hK
    cases f with
    | zero => simp [an] at h
    | succ f =>
      refine ih hS (f + 1) Γ K F hΓ ?_ hK
      simp only [an, step] at h ⊢
      cases j <;> exact h
  | @flag n me j r c d σ out _ ih =>
    intro hS f Γ K F hΓ h hK
    cases f with
    | zero => simp [an] at h
    | succ f =>
      refine ih hS (f + 1) Γ K F hΓ ?_ hK
      simp only [an, step] at h ⊢
      split at h
      · next hb => rw [hb]; exact h
      · next hb => rw [hb]; exact h
  | @hasT n me j r a c d σ out hh _ ih =>
    intro hS f Γ K F hΓ h hK
    cases f with
    | zero => simp [an] at h
    | succ f =>
      simp only [an, step] at h
      split at h
      · exact ih hS (f + 1) Γ K F hΓ h hK
      · next hb =>
        rw [Option.bind_eq_some_iff] at h
        obtain ⟨G, hG, h⟩ := h
        rw [Option.map_eq_some_iff] at h
        obtain ⟨G', hG', rfl⟩ := h
        have hm : (W.obj me r, a) ∈ σ := by
          rcases hh with hh | hh
          · exact hh
          · rw [hh, Bool.or_true] at hb
            exact Bool.noConfusion hb
        exact (ih hS (f + 1) Γ _ G hΓ hG (hK.or_mem hm)).left
  | @hasF n me j r a c d σ out hh _ ih =>
    intro hS f Γ K F hΓ h hK
    cases f with
    | zero => simp [an] at h
    | succ f =>
      simp only [an, step] at h
      split at h
      · next hb => exact absurd (has_of W hK hb) hh
      · rw [Option.bind_eq_some_iff] at h
        obtain ⟨G, hG, h⟩ := h
        rw [Option.map_eq_some_iff] at h
        obtain ⟨G', hG', rfl⟩ := h
        exact (ih hS (f + 1) Γ K G' hΓ hG' hK).right
  | loopEnd =>
    intro hS f Γ K F hΓ h hK
    cases f with
    | zero => simp [an] at h
    | succ f =>
      simp only [an, step] at h
      obtain ⟨L, G, h1, h2, h3, rfl⟩ := fix_spec h
      exact ⟨L, rfl, h1 _ hK⟩
  | loop _ _ ih1 ih2 =>
    intro hS f Γ K F hΓ h hK
    cases f with
    | zero => simp [an] at h
    | succ f =>
      simp only [an, step] at h
      obtain ⟨L, G, h1, h2, h3, rfl⟩ := fix_spec h
      obtain ⟨M, h4, h5⟩ := ih1 hS (f + 1) Γ L G hΓ h2 (h1 _ hK)
      exact ih2 hS (f + 1) Γ L _ hΓ (fix_again h2 h3) (inter_norm h3 h4 h5)
  | loopBrk _ _ ih1 ih2 =>
    intro hS f Γ K F hΓ h hK
    cases f with
    | zero => simp [an] at h
    | succ f =>
      simp only [an, step] at h
      obtain ⟨L, G, h1, h2, h3, rfl⟩ := fix_spec h
      obtain ⟨M, h4, h5⟩ := ih1 hS (f + 1) Γ L G hΓ h2 (h1 _ hK)
      exact ih2 hS (f + 1) Γ L _ hΓ (fix_again h2 h3) (inter_brk h3 h4 h5)
  | loopRet _ ih =>
    intro hS f Γ K F hΓ h hK
    cases f with
    | zero => simp [an] at h
    | succ f =>
      simp only [an, step] at h
      obtain ⟨L, G, h1, h2, h3, rfl⟩ := fix_spec h
      exact ih hS (f + 1) Γ L G hΓ h2 (h1 _ hK)
  | loopErr _ ih =>
    intro hS f Γ K F hΓ h hK
    cases f with
    | zero => simp [an] at h
    | succ f =>
      simp only [an, step] at h
      obtain ⟨L, G, h1, h2, h3, rfl⟩ := fix_spec h
      exact ih hS (f + 1) Γ L G hΓ h2 (h1 _ hK)
  | scope _ ih =>
    intro hS f Γ K F hΓ h hK
    cases f with
    | zero => simp [an] at h
    | succ f =>
      simp only [an, step] at h
      rw [Option.map_eq_some_iff] at h
      obtain ⟨G, hG, rfl⟩ := h
      exact (ih hS (f + 1) Γ K G hΓ hG hK).close

theorem sound (n : ℕ) : Sound W rec n := by
  induction n using Nat.strong_induction_on with
  | _ n ih =>
    intro me j c σ out hx
    exact sound_aux W rec hx ih

/-- the check of a program -/
def safe (f : ℕ) (c : Cmd) : Bool := (an W rec f [] W.main false c 0).isSome

/-- a program that passes the check never ends in `AttributeError` -/
theorem safe_sound {f : ℕ} {c : Cmd} (h : safe W rec f c = true) {n : ℕ} {σ : State} {out : Out}
    (hx : Exec W n W.main false c σ out) (o : Obj) (a : ℕ) : out ≠ .err o a := by
  rintro rfl
  obtain ⟨F, hF⟩ := Option.isSome_iff_exists.1 h
  exact sound W rec n _ _ _ _ _ hx f [] 0 F (fun e he => absurd he List.not_mem_nil) hF (sub_zero σ)

end

/-! ## executions -/

/-- how an execution found by `sim` ends -/
inductive SimOut where
  | norm (l : List (Obj × ℕ))
  | ret (l : List (Obj × ℕ))
  | brk (l : List (Obj × ℕ))
  | err (o : Obj) (a : ℕ)
  deriving DecidableEq

def SimOut.close : SimOut → SimOut
  | .norm l => .norm l
  | .ret l => .norm l
  | .brk l => .norm l
  | .err o a => .err o a

/-- the attributes of a list -/
def toState (l : List (Obj × ℕ)) : State := {x | x ∈ l}

def SimOut.out : SimOut → Out
  | .norm l => .norm (toState l)
  | .ret l => .ret (toState l)
  | .brk l => .brk (toState l)
  | .err o a => .err o a

theorem SimOut.out_close (s : SimOut) : s.close.out = s.out.close := by
  cases s <;> rfl

section
variable (W : World) (left : Cmd → Cmd → Bool)

def hasB (l : List (Obj × ℕ)) (o : Obj) (a : ℕ) : Bool := decide ((o, a) ∈ l) || (W.owner o a).isSome

theorem hasB_iff (l : List (Obj × ℕ)) (o : Obj) (a : ℕ) : hasB W l o a = true ↔ Has W (toState l) o a := by
  unfold hasB Has
  rw [Bool.or_eq_true, decide_eq_true_eq]
  rfl

/-- one execution: of two branches the first if `left` says so, every loop once -/
def simStep (run : Obj → Bool → Cmd → List (Obj × ℕ) → Option SimOut) (me : Obj) (j : Bool) : Cmd → List (Obj × ℕ) → Option SimOut
  | .skip, l => some (.norm l)
  | .ret, l => some (.ret l)
  | .brk, l => some (.brk l)
  | .rd r a, l => match hasB W l (W.obj me r) a with
    | true => some (.norm l)
    | false => some (.err (W.obj me r) a)
  | .wr r a, l => some (.norm ((W.obj me r, a) :: l))
  | .call r m p, l => match W.owner (W.obj me r) m with
    | some c => (run (W.obj me r) (p.val j) (W.body c m) l).map SimOut.close
    | none => match decide ((W.obj me r, m) ∈ l) with
      | true => some (.norm l)
      | false => some (.err (W.obj me r) m)
  | .sup r c m, l => match W.next (W.obj me r) c m with
    | some d => (run (W.obj me r) false (W.body d m) l).map SimOut.close
    | none => if m = N.__init__ then some (.norm l) else some (.err (W.obj me r) m)
  | .fn c f, l => (run me false (W.body c f) l).map SimOut.close
  | .new r, l => match W.owner (W.obj me r) N.__init__ with
    | some c => (run (W.obj me r) false (W.body c N.__init__) (l.filter fun x => x.1 ≠ W.obj me r)).map SimOut.close
    | none => some (.norm (l.filter fun x => x.1 ≠ W.obj me r))
  | .seq c d, l => match simStep run me j c l with
    | some (.norm l') => simStep run me j d l'
    | x => x
  | .alt c d, l => match left c d with
    | true => simStep run me j c l
    | false => simStep run me j d l
  | .jj c d, l => match j with
    | true => simStep run me j c l
    | false => simStep run me j d l
  | .flag r c d, l => match W.isHomog (W.obj me r) with
    | true => simStep run me j c l
    | false => simStep run me j d l
  | .has r a c d, l => match hasB W l (W.obj me r) a with
    | true => simStep run me j c l
    | false => simStep run me j d l
  | .loop c, l => match simStep run me j c l with
    | some (.brk l') => some (.norm l')
    | x => x
  | .scope c, l => (simStep run me j c l).map SimOut.close

/-- one execution with calls nested at most `n` deep -/
def sim : ℕ → Obj → Bool → Cmd → List (Obj × ℕ) → Option SimOut
  | 0 => simStep W left fun _ _ _ _ => none
  | n + 1 => simStep W left (sim n)

/-- return early, run the main part of a script, else take the second branch -/
def early : Cmd → Cmd → Bool
  | .ret, _ => true
  | .seq (.new .main) _, _ => true
  | _, _ => false

/-- the execution `sim` finds comes to its end with at least the attributes `l` -/
def ends (n : ℕ) (c : Cmd) (l : List (Obj × ℕ)) : Bool := match sim W left n W.main false c [] with
  | some (.norm m) => l.all fun x => decide (x ∈ m)
  | _ => false

theorem toState_filter (l : List (Obj × ℕ)) (o : Obj) : toState (l.filter fun x => x.1 ≠ o) = clear (toState l) o := by
  ext x
  simp [toState, clear]

theorem toState_cons (l : List (Obj × ℕ)) (x : Obj × ℕ) : toState (x :: l) = insert x (toState l) := by
  ext y
  simp [toState]

/-- calls found by `sim` are calls -/
def Calls (run : Obj → Bool → Cmd → List (Obj × ℕ) → Option SimOut) (n : ℕ) : Prop := ∀ me j c l s, run me j c l = some s →
  ∃ k, n = k + 1 ∧ Exec W k me j c (toState l) s.out

theorem simStep_exec {run : Obj → Bool → Cmd → List (Obj × ℕ) → Option SimOut} {n : ℕ} (hr : Calls W run n) (me : Obj) (j : Bool)
    (c : Cmd) : ∀ (l : List (Obj × ℕ)) (s : SimOut), simStep W left run me j c l = some s → Exec W n me j c (toState l) s.out := by
  induction c with
  | skip => intro l s h; simp only [simStep, Option.some.injEq] at h; subst h; exact .skip
  | ret => intro l s h; simp only [simStep, Option.some.injEq] at h; subst h; exact .ret
  | brk => intro l s h; simp only [simStep, Option.some.injEq] at h; subst h; exact .brk
  | rd r a =>
    intro l s h
    simp only [simStep] at h
    split at h
    · next hb => simp only [Option.some.injEq] at h; subst h; exact .rd ((hasB_iff W _ _ _).1 hb)
    · next hb =>
      simp only [Option.some.injEq] at h; subst h
      exact .rdErr fun hc => by rw [(hasB_iff W _ _ _).2 hc] at hb; exact Bool.noConfusion hb
  | wr r a =>
    intro l s h
    simp only [simStep, Option.some.injEq] at h
    subst h
    change Exec W n me j _ _ (.norm (toState _))
    rw [toState_cons]
    exact .wr
  | call r m p =>
    intro l s h
    simp only [simStep] at h
    split at h
    · next c hc =>
      rw [Option.map_eq_some_iff] at h
      obtain ⟨t, ht, rfl⟩ := h
      obtain ⟨k, rfl, hx⟩ := hr _ _ _ _ _ ht
      rw [SimOut.out_close]
      exact .call hc hx
    · next hc =>
      split at h
      · next hb => simp only [Option.some.injEq] at h; subst h; have hm := of_decide_eq_true hb; exact .callOwn hc hm
      · next hb =>
        simp only [Option.some.injEq] at h; subst h
        refine .callErr ?_
        rintro (h | h)
        · exact of_decide_eq_false hb h
        · rw [hc] at h; exact Bool.noConfusion h
  | sup r c m =>
    intro l s h
    simp only [simStep] at h
    split at h
    · next d hd =>
      rw [Option.map_eq_some_iff] at h
      obtain ⟨t, ht, rfl⟩ := h
      obtain ⟨k, rfl, hx⟩ := hr _ _ _ _ _ ht
      rw [SimOut.out_close]
      exact .sup hd hx
    · next hd =>
      split at h
      · next hm => simp only [Option.some.injEq] at h; subst h; subst hm; exact .supObject hd
      · next hm => simp only [Option.some.injEq] at h; subst h; exact .supErr hm hd
  | fn c f =>
    intro l s h
    simp only [simStep] at h
    rw [Option.map_eq_some_iff] at h
    obtain ⟨t, ht, rfl⟩ := h
    obtain ⟨k, rfl, hx⟩ := hr _ _ _ _ _ ht
    rw [SimOut.out_close]
    exact .fn hx
  | new r =>
    intro l s h
    simp only [simStep] at h
    split at h
    · next c hc =>
      rw [Option.map_eq_some_iff] at h
      obtain ⟨t, ht, rfl⟩ := h
      obtain ⟨k, rfl, hx⟩ := hr _ _ _ _ _ ht
      rw [SimOut.out_close]
      rw [toState_filter] at hx
      exact .new hc hx
    · next hc =>
      simp only [Option.some.injEq] at h
      subst h
      change Exec W n me j _ _ (.norm (toState _))
      rw [toState_filter]
      exact .newObject hc
  | seq c d ih1 ih2 =>
    intro l s h
    simp only [simStep] at h
    cases hc : simStep W left run me j c l with
    | none => rw [hc] at h; simp at h
    | some t =>
      rw [hc] at h
      have hx := ih1 l t hc
      cases t with
      | norm l' => exact .seq hx (ih2 l' s h)
      | ret l' => simp only [Option.some.injEq] at h; subst h; exact .seqRet hx
      | brk l' => simp only [Option.some.injEq] at h; subst h; exact .seqBrk hx
      | err o a => simp only [Option.some.injEq] at h; subst h; exact .seqErr hx
  | alt c d ih1 ih2 =>
    intro l s h
    simp only [simStep] at h
    split at h
    · exact .altL (ih1 l s h)
    · exact .altR (ih2 l s h)
  | jj c d ih1 ih2 =>
    intro l s h
    simp only [simStep] at h
    refine .jj ?_
    cases j with
    | true => exact ih1 l s h
    | false => exact ih2 l s h
  | flag r c d ih1 ih2 =>
    intro l s h
    simp only [simStep] at h
    refine .flag ?_
    split at h
    · next hb => rw [hb]; exact ih1 l s h
    · next hb => rw [hb]; exact ih2 l s h
  | has r a c d ih1 ih2 =>
    intro l s h
    simp only [simStep] at h
    split at h
    · next hb => exact .hasT ((hasB_iff W _ _ _).1 hb) (ih1 l s h)
    · next hb => exact .hasF (fun hc => by rw [(hasB_iff W _ _ _).2 hc] at hb; exact Bool.noConfusion hb) (ih2 l s h)
  | loop c ih =>
    intro l s h
    simp only [simStep] at h
    cases hc : simStep W left run me j c l with
    | none => rw [hc] at h; simp at h
    | some t =>
      rw [hc] at h
      have hx := ih l t hc
      cases t with
      | norm l' => simp only [Option.some.injEq] at h; subst h; exact .loop hx .loopEnd
      | ret l' => simp only [Option.some.injEq] at h; subst h; exact .loopRet hx
      | brk l' => simp only [Option.some.injEq] at h; subst h; exact .loopBrk hx .loopEnd
      | err o a => simp only [Option.some.injEq] at h; subst h; exact .loopErr hx
  | scope c ih =>
    intro l s h
    simp only [simStep] at h
    rw [Option.map_eq_some_iff] at h
    obtain ⟨t, ht, rfl⟩ := h
    rw [SimOut.out_close]
    exact .scope (ih l t ht)

theorem sim_exec : ∀ (n : ℕ) (me : Obj) (j : Bool) (c : Cmd) (l : List (Obj × ℕ)) (s : SimOut), sim W left n me j c l = some s →
    Exec W n me j c (toState l) s.out := by
  intro n
  induction n with
  | zero => intro me j c l s h; exact simStep_exec W left (fun _ _ _ _ _ h => by simp at h) me j c l s h
  | succ n ih => intro me j c l s h; exact simStep_exec W left (fun me j c l s h => ⟨n, rfl, ih me j c l s h⟩) me j c l s h

theorem toState_nil : toState [] = ∅ := by
  ext x
  simp [toState]

theorem exec_of_ends {n : ℕ} {c : Cmd} {l : List (Obj × ℕ)} (h : ends W left n c l = true) :
    ∃ σ, Exec W n W.main false c ∅ (.norm σ) ∧ ∀ x ∈ l, x ∈ σ := by
  unfold ends at h
  split at h
  · next m hm =>
    have := sim_exec W left n _ _ _ _ _ hm
    rw [toState_nil] at this
    refine ⟨_, this, fun x hx => ?_⟩
    have hx' := List.all_eq_true.1 h x hx
    have hm' := of_decide_eq_true hx'
    exact hm'
  · exact Bool.noConfusion h

end

end Attrs
end Pot
