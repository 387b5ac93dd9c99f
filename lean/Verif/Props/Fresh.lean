/-
C121: on every grid of a convergence test the solver starts afresh: each attribute that is looked up is one of the class, of the
problem or the boundary as they were set up, or has been assigned on the same grid.
-/
import Verif.Proofs.Fresh
import Verif.Props.Effects
import Verif.Props.Attrs

namespace Spec

open Pot.Attrs in
/-- wherever `t` looks up an attribute, it is one of `base`, or `t` has assigned it before and has not made the object anew since -/
def Fresh (base : Obj → ℕ → Prop) (t : List Ev) : Prop := ∀ t₁ o a t₂, t = t₁ ++ Ev.get o a :: t₂ →
  base o a ∨ ∃ u₁ u₂, t₁ = u₁ ++ Ev.set o a :: u₂ ∧ Ev.make o ∉ u₂

end Spec

namespace Pot
namespace Attrs

open Spec

/-! ## one grid -/

/-- what run.py (lines 73-102) does for one grid; `continue` ends it -/
def gridRun : Cmd := .new S ;; .call S N.run .no ;; .alt .brk .skip ;; .rd R N.error ;; .alt (.rd R N.error) .skip ;; .rd R N.u_act ;;
  .alt (.rd R N.error) .skip ;; .alt (.call S N.calc_rel_convergence .no) .skip ;; .rd R N.error

/-- what runz.py (lines 88-137) does for one grid -/
def gridRunz : Cmd := .new Z ;; .wr Z N.z1_fourier ;; .call Z N.run .no ;; .alt (.call F N.calc_rel_convergence .no) .skip ;;
  .alt (.call S N.calc_rel_convergence .no) .skip ;; .rd Z N.z1_fourier

/-- The rest of either program is this for one grid after the other. -/
theorem C121_grids : restRun = (.alt (.rd main N.expected_known) .skip ;; .loop gridRun)
    ∧ restRunz = (.alt (.rd main N.expected_known) .skip ;; .loop gridRunz) := ⟨rfl, rfl⟩

/-- making the problem and the boundary and printing the options: run.py:43-60, runz.py:49-67 -/
def setUp : Cmd := .new main ;; .rd main N.R ;; .rd main N.k ;; .new B ;; .call main N.set_boundary .no ;; .fn .m_io_util N.print_options

/-- `First r d e`: the command `e` is `d` and then `r` -/
inductive First (r : Cmd) : Cmd → Cmd → Prop
  | last {c : Cmd} : First r c (.seq c r)
  | seq {c d e : Cmd} : First r d e → First r (.seq c d) (.seq c e)

/-- Both programs start with `setUp` and then do the rest. -/
theorem C121_setUp (z : Bool) (p b : Owner) : First restRun setUp ((world z p b).body .m_run N.__main__)
    ∧ First restRunz setUp ((world z p b).body .m_runz N.__main__) :=
  ⟨.seq (.seq (.seq (.seq (.seq .last)))), .seq (.seq (.seq (.seq (.seq .last))))⟩

/-- the attributes `hasattr` asks for that are not those of classes: problems/problem.py:58-98 -/
def asked : List ℕ := [N.n_basis_dict, N.m1, N.m1_dict]

/-- what earlier grids do not touch: the problem of the program and the boundary but for `left`, and what `hasattr` asks for -/
def kept (m : Obj) (left : List ℕ) : Set (Obj × ℕ) := {x | (x.1 = m ∨ x.1 = .boundary) ∧ x.2 ∉ left ∨ x.2 ∈ asked}

/-- the attributes `σ` at the beginning of a grid, if `β` were those after `setUp` -/
def History (m : Obj) (left : List ℕ) (β σ : State) : Prop := Agree (kept m left) σ β

/-- a state after `setUp`: at least the attributes `ready` are there, and no object but the problem and the boundary has any -/
def SetUp (W : World) (β : State) : Prop := (∀ x ∈ ready W, x ∈ β) ∧ ∀ x ∈ β, x.1 = W.main ∨ x.1 = .boundary

/-- the number of a list of attributes -/
def bits : List (Obj × ℕ) → ℕ
  | [] => 0
  | x :: l => 2 ^ bit x.1 x.2 ||| bits l

theorem bits_sub : ∀ {l : List (Obj × ℕ)} {σ : State}, (∀ x ∈ l, x ∈ σ) → Sub (bits l) σ
  | [], σ, _ => sub_zero σ
  | x :: l, σ, h => by
    intro o a ho
    rw [bits, Nat.testBit_or, Bool.or_eq_true, Nat.testBit_two_pow] at ho
    rcases ho with ho | ho
    · obtain ⟨rfl, rfl⟩ := bit_inj (of_decide_eq_true ho)
      exact h x List.mem_cons_self
    · exact bits_sub (fun y hy => h y (List.mem_cons_of_mem _ hy)) o a ho

/-- what one grid may not do -/
def badGrid (W : World) (left : List ℕ) : Ev → Bool
  | .make o => o == W.main || o == .boundary
  | .set o a => asked.contains a || ((o == W.main || o == .boundary) && !left.contains a)
  | .test o a => !(((o == W.main || o == .boundary) && !left.contains a) || asked.contains a || (W.owner o a).isSome)
  | .get o a => (o == W.main) && left.contains a

/-- the events of setting up concern the problem and the boundary only -/
def badSetUp (W : World) : Ev → Bool
  | .make o | .set o _ => !(o == W.main || o == .boundary)
  | _ => false

/-- `s` is made where the grid begins and nowhere else -/
def makes (s : Obj) : Ev → Bool
  | .make o => o == s
  | _ => false

/-- all that is checked; `s` is the solver a grid begins with, and `d` what follows -/
def gridOk (W : World) (left : List ℕ) (s : Obj) (d : Cmd) : Bool :=
  never W (badGrid W left) W.main (.new (.of s) ;; d)
    && (an W recs 30 [] W.main false (.new (.of s) ;; d) (bits ((ready W).filter fun x => !left.contains x.2))).isSome
    && (ready W).all (fun x => x.1 == W.main || x.1 == .boundary)
    && left.all (fun a => !asked.contains a)
    && never W (makes s) W.main d
    && (match W.owner s N.__init__ with
      | some c => never W (makes s) s (W.body c N.__init__)
      | none => true)
    && never W (badSetUp W) W.main setUp
    && (match an W recs 30 [] W.main false setUp 0 with
      | some F => match F.norm with
        | some K => (ready W).all fun x => K.testBit (bit x.1 x.2)
        | none => false
      | none => false)
    && !(s == W.main || s == .boundary)

/-- what follows the new solver on one grid of run.py -/
def tailRun : Cmd := .call S N.run .no ;; .alt .brk .skip ;; .rd R N.error ;; .alt (.rd R N.error) .skip ;; .rd R N.u_act ;;
  .alt (.rd R N.error) .skip ;; .alt (.call S N.calc_rel_convergence .no) .skip ;; .rd R N.error

/-- what follows the new z-method on one grid of runz.py -/
def tailRunz : Cmd := .wr Z N.z1_fourier ;; .call Z N.run .no ;; .alt (.call F N.calc_rel_convergence .no) .skip ;;
  .alt (.call S N.calc_rel_convergence .no) .skip ;; .rd Z N.z1_fourier

theorem run_ok_sine : ∀ b ∈ boundaries, gridOk (world false .Smooth_Sine b) (leftBehind .Smooth_Sine) .solver tailRun = true := by
  decide +kernel

theorem run_ok_e : ∀ b ∈ boundaries, gridOk (world false .Smooth_E b) (leftBehind .Smooth_E) .solver tailRun = true := by
  decide +kernel

theorem run_ok_ycos : ∀ b ∈ boundaries, gridOk (world false .Smooth_YCos b) (leftBehind .Smooth_YCos) .solver tailRun = true := by
  decide +kernel

theorem run_ok : ∀ p ∈ smooth, ∀ b ∈ boundaries, gridOk (world false p b) (leftBehind p) .solver tailRun = true := by
  intro p hp b hb
  simp only [smooth, List.mem_cons, List.not_mem_nil, or_false] at hp
  rcases hp with rfl | rfl | rfl
  · exact run_ok_sine b hb
  · exact run_ok_e b hb
  · exact run_ok_ycos b hb

theorem runz_ok_iz : ∀ b ∈ boundaries, gridOk (world true .IZ_Bessel b) [] .zmethod tailRunz = true := by
  decide +kernel

theorem runz_ok_line : ∀ b ∈ boundaries, gridOk (world true .IHZ_Bessel_Line b) [] .zmethod tailRunz = true := by
  decide +kernel

theorem runz_ok_quadratic : ∀ b ∈ boundaries, gridOk (world true .IHZ_Bessel_Quadratic b) [] .zmethod tailRunz = true := by
  decide +kernel

theorem runz_ok : ∀ p ∈ singular, ∀ b ∈ boundaries, gridOk (world true p b) [] .zmethod tailRunz = true := by
  intro p hp b hb
  simp only [singular, List.mem_cons, List.not_mem_nil, or_false] at hp
  rcases hp with rfl | rfl | rfl
  · exact runz_ok_iz b hb
  · exact runz_ok_line b hb
  · exact runz_ok_quadratic b hb

/-! ## one grid after another -/

section
variable {W : World} {left : List ℕ} {s : Obj} {d : Cmd} {β σ : State} {n : ℕ} {t : List Ev} {out : Out}

/-- the attributes a grid may use that it has not assigned: of the class, or of the problem and the boundary as set up -/
def Base (W : World) (left : List ℕ) (β : State) (o : Obj) (a : ℕ) : Prop :=
  (W.owner o a).isSome = true ∨ ((o = W.main ∨ o = .boundary) ∧ a ∉ left ∧ (o, a) ∈ β)

structure Ok (W : World) (left : List ℕ) (s : Obj) (d : Cmd) : Prop where
  never : never W (badGrid W left) W.main (.new (.of s) ;; d) = true
  an : (an W recs 30 [] W.main false (.new (.of s) ;; d) (bits ((ready W).filter fun x => !left.contains x.2))).isSome = true
  ready : ∀ x ∈ ready W, x.1 = W.main ∨ x.1 = .boundary
  asked : ∀ a ∈ left, a ∉ asked
  tail : Attrs.never W (makes s) W.main d = true
  init : ∀ c, W.owner s N.__init__ = some c → Attrs.never W (makes s) s (W.body c N.__init__) = true
  setUp : Attrs.never W (badSetUp W) W.main setUp = true
  setUpAn : ∃ F K, Attrs.an W recs 30 [] W.main false Attrs.setUp 0 = some F ∧ F.norm = some K ∧
    ∀ x ∈ Attrs.ready W, K.testBit (bit x.1 x.2) = true
  other : s ≠ W.main ∧ s ≠ .boundary

theorem ok_of (h : gridOk W left s d = true) : Ok W left s d := by
  simp only [gridOk, Bool.and_eq_true, List.all_eq_true, Bool.or_eq_true, beq_iff_eq, Bool.not_eq_true', Bool.or_eq_false_iff,
    beq_eq_false_iff_ne] at h
  obtain ⟨⟨⟨⟨⟨⟨⟨⟨h1, h2⟩, h3⟩, h4⟩, h5⟩, h6⟩, h7⟩, h8⟩, h9⟩ := h
  refine ⟨h1, h2, h3, fun a ha hm => ?_, h5, fun c hc => ?_, h7, ?_, h9⟩
  · have := h4 a ha
    rw [List.contains_iff_mem.2 hm] at this
    cases this
  · rw [hc] at h6
    exact h6
  · split at h8
    · rename_i F hF
      split at h8
      · rename_i K hK
        exact ⟨F, K, hF, hK, List.all_eq_true.1 h8⟩
      · cases h8
    · cases h8

theorem sub_of (hk : Ok W left s d) (hβ : SetUp W β) (hσ : History W.main left β σ) :
    Sub (bits ((ready W).filter fun x => !left.contains x.2)) σ := by
  refine bits_sub fun x hx => ?_
  obtain ⟨h1, h2⟩ := List.mem_filter.1 hx
  refine (hσ x (Or.inl ⟨hk.ready x h1, ?_⟩)).2 (hβ.1 x h1)
  simpa using h2

theorem grid_state (hk : Ok W left s d) (hβ : SetUp W β) (hσ : History W.main left β σ)
    (hx : Exec W n W.main false (.new (.of s) ;; d) σ out) : ∃ τ, out.state = some τ := by
  obtain ⟨F, hF⟩ := Option.isSome_iff_exists.1 hk.an
  have := sound W recs n _ _ _ _ _ hx 30 [] _ F (fun e he => absurd he List.not_mem_nil) hF (sub_of hk hβ hσ)
  cases out with
  | err o a => exact this.elim
  | _ => exact ⟨_, rfl⟩

theorem asks_of (h : ∀ e ∈ t, badGrid W left e = false) : Asks W (kept W.main left) t := by
  intro o a ht
  have := h _ ht
  simp only [badGrid, Bool.not_eq_false', Bool.or_eq_true, Bool.and_eq_true, beq_iff_eq, Bool.not_eq_true', List.contains_eq_mem,
    decide_eq_true_eq, decide_eq_false_iff_not] at this
  rcases this with (⟨h1, h2⟩ | h1) | h1
  · exact Or.inl (Or.inl ⟨h1, h2⟩)
  · exact Or.inl (Or.inr h1)
  · exact Or.inr h1

/-- the same grid after other grids: the same can happen -/
theorem grid_same (hk : Ok W left s d) (hβ : SetUp W β) (hσ : History W.main left β σ) {σ' : State} (hσ' : History W.main left β σ')
    (hx : Run W n W.main false (.new (.of s) ;; d) σ t out) :
    ∃ out', Run W n W.main false (.new (.of s) ;; d) σ' t out' ∧ Like (kept W.main left) out out' := by
  rcases hx.mirror (asks_of (never_sound hk.never hx)) (grid_state hk hβ hσ hx.exec) σ' (fun x hx => (hσ x hx).trans (hσ' x hx).symm) with
    ⟨o, a, he⟩ | h
  · obtain ⟨τ, hτ⟩ := grid_state hk hβ hσ' he
    cases hτ
  · exact h

theorem grid_fresh (hk : Ok W left s d) (hβ : SetUp W β) (hσ : History W.main left β σ)
    (hx : Run W n W.main false (.new (.of s) ;; d) σ t out) : Fresh (Base W left β) t := by
  have hρ : History W.main left β {x | x ∈ β ∧ x ∈ kept W.main left} := fun x hx => ⟨fun h => h.1, fun h => ⟨h, hx⟩⟩
  obtain ⟨out', hx', -⟩ := grid_same hk hβ hσ hρ hx
  obtain ⟨τ, hτ⟩ := grid_state hk hβ hρ hx'.exec
  have hf := hx'.found τ hτ
  rintro t₁ o a t₂ rfl
  rcases found_at hf with h | h
  · rcases mem_afterAll h with ⟨⟨h1, h2⟩, -⟩ | h
    · refine Or.inl (Or.inr ⟨hβ.2 _ h1, ?_, h1⟩)
      rcases h2 with h2 | h2
      · exact h2.2
      · exact fun hl => hk.asked a hl h2
    · exact Or.inr h
  · exact Or.inl (Or.inl h)

theorem grid_history (hk : Ok W left s d) (hβ : SetUp W β) (hσ : History W.main left β σ)
    (hx : Run W n W.main false (.new (.of s) ;; d) σ t out) {τ : State} (hτ : out.state = some τ) : History W.main left β τ := by
  have hn := never_sound hk.never hx
  rw [hx.after τ hτ]
  intro x hxk
  have hset : Ev.set x.1 x.2 ∉ t := by
    refine not_mem_of_bad hn ?_
    simp only [badGrid, Bool.or_eq_true, Bool.and_eq_true, beq_iff_eq, Bool.not_eq_true', List.contains_iff_mem, ← Bool.not_eq_true]
    rcases hxk with h | h
    · exact Or.inr h
    · exact Or.inl h
  refine ⟨fun h => ?_, fun h => ?_⟩
  · rcases mem_afterAll h with ⟨h, -⟩ | ⟨u₁, u₂, rfl, -⟩
    · exact (hσ x hxk).1 h
    · exact absurd (by simp) hset
  · refine mem_afterAll_of ((hσ x hxk).2 h) (not_mem_of_bad hn ?_)
    simpa [badGrid] using hβ.2 x h

/-- the events of a grid: the solver is made at the beginning and not again -/
theorem grid_makes (hk : Ok W left s d) (hx : Run W n W.main false (.new (.of s) ;; d) σ t out) :
    ∃ v, t = .make s :: v ∧ Ev.make s ∉ v := by
  have hnew : ∀ {t : List Ev} {out : Out}, Run W n W.main false (.new (.of s)) σ t out → ∃ v, t = .make s :: v ∧ Ev.make s ∉ v := by
    intro t out h
    cases h with
    | new hc h => exact ⟨_, rfl, not_mem_of_bad (never_sound (hk.init _ hc) h) (by simp [makes])⟩
    | newObject => exact ⟨[], rfl, by simp⟩
  cases hx with
  | seq h1 h2 =>
    obtain ⟨v, rfl, hv⟩ := hnew h1
    refine ⟨_, rfl, fun h => ?_⟩
    rcases List.mem_append.1 h with h | h
    · exact hv h
    · exact not_mem_of_bad (never_sound hk.tail h2) (by simp [makes]) h
  | seqRet h => exact hnew h
  | seqBrk h => exact hnew h
  | seqErr h => exact hnew h

/-- what is said of one grid -/
def GridOf (W : World) (left : List ℕ) (s : Obj) (β : State) (u : List Ev) : Prop :=
  Fresh (Base W left β) u ∧ ∃ v, u = .make s :: v ∧ Ev.make s ∉ v

theorem loop_grids (hk : Ok W left s d) (hβ : SetUp W β) {me : Obj} {j : Bool} {c : Cmd} (hx : Run W n me j c σ t out) :
    me = W.main → j = false → c = .loop (.new (.of s) ;; d) → History W.main left β σ →
      ∃ ts : List (List Ev), t = ts.flatten ∧ ∀ u ∈ ts, GridOf W left s β u := by
  induction hx with
  | loopEnd => exact fun _ _ _ _ => ⟨[], rfl, by simp⟩
  | loop h1 _ _ ih | loopBrk h1 _ _ ih =>
    rintro rfl rfl hc hσ
    cases hc
    obtain ⟨ts, rfl, hts⟩ := ih rfl rfl rfl (grid_history hk hβ hσ h1 rfl)
    refine ⟨_ :: ts, rfl, fun u hu => ?_⟩
    rcases List.mem_cons.1 hu with rfl | hu
    · exact ⟨grid_fresh hk hβ hσ h1, grid_makes hk h1⟩
    · exact hts u hu
  | @loopRet n me j c σ τ t h1 _ =>
    rintro rfl rfl hc hσ
    cases hc
    refine ⟨[t], by simp, fun u hu => ?_⟩
    obtain rfl := List.mem_singleton.1 hu
    exact ⟨grid_fresh hk hβ hσ h1, grid_makes hk h1⟩
  | @loopErr n me j c σ o a t h1 _ =>
    rintro rfl rfl hc hσ
    cases hc
    refine ⟨[t], by simp, fun u hu => ?_⟩
    obtain rfl := List.mem_singleton.1 hu
    exact ⟨grid_fresh hk hβ hσ h1, grid_makes hk h1⟩
  | _ => intro _ _ hc; cases hc

theorem first_run {r c e : Cmd} (h : First r c e) {me : Obj} {j : Bool} : ∀ {σ : State} {t : List Ev} {out : Out},
    Run W n me j e σ t out →
      (∃ t₁ t₂ τ, Run W n me j c σ t₁ (.norm τ) ∧ Run W n me j r τ t₂ out ∧ t = t₁ ++ t₂) ∨ Run W n me j c σ t out := by
  induction h with
  | last =>
    intro σ t out hx
    cases hx with
    | seq h1 h2 => exact Or.inl ⟨_, _, _, h1, h2, rfl⟩
    | seqRet h => exact Or.inr h
    | seqBrk h => exact Or.inr h
    | seqErr h => exact Or.inr h
  | seq _ ih =>
    intro σ t out hx
    cases hx with
    | seq h1 h2 =>
      rcases ih h2 with ⟨t₁, t₂, τ, h3, h4, rfl⟩ | h3
      · exact Or.inl ⟨_, _, τ, .seq h1 h3, h4, (List.append_assoc _ _ _).symm⟩
      · exact Or.inr (.seq h1 h3)
    | seqRet h => exact Or.inr (.seqRet h)
    | seqBrk h => exact Or.inr (.seqBrk h)
    | seqErr h => exact Or.inr (.seqErr h)

theorem setUp_spec (hk : Ok W left s d) {τ : State} (hx : Run W n W.main false setUp ∅ t (.norm τ)) :
    SetUp W τ ∧ (∀ o a, (o, a) ∈ τ → Ev.set o a ∈ t) := by
  have hset : ∀ o a, (o, a) ∈ τ → Ev.set o a ∈ t := fun o a h => (mem_out hx (o, a) h).resolve_left (fun h => h.elim)
  refine ⟨⟨fun x h => ?_, fun x h => ?_⟩, hset⟩
  · obtain ⟨F, K, hF, hK, hb⟩ := hk.setUpAn
    obtain ⟨K', hK', hs⟩ := sound W recs n _ _ _ _ _ hx.exec 30 [] 0 F (fun e he => absurd he List.not_mem_nil) hF (sub_zero _)
    rw [hK] at hK'
    cases hK'
    exact hs x.1 x.2 (hb x h)
  · have := never_sound hk.setUp hx _ (hset x.1 x.2 h)
    simp only [badSetUp, Bool.not_eq_false', Bool.or_eq_true, beq_iff_eq] at this
    exact this

theorem setUp_makes (hk : Ok W left s d) (hx : Run W n W.main false setUp σ t out) : Ev.make s ∉ t := by
  refine not_mem_of_bad (never_sound hk.setUp hx) ?_
  simpa [badSetUp] using hk.other

theorem program_grids (hk : Ok W left s d) {e : Cmd} {q : Owner} (hq : W.body q N.__main__ = e)
    (hf : First (.alt (.rd main N.expected_known) .skip ;; .loop (.new (.of s) ;; d)) setUp e)
    (hx : Run W n W.main false (.fn q N.__main__) ∅ t out) :
    ∃ (t₀ : List Ev) (ts : List (List Ev)), t = t₀ ++ ts.flatten ∧ Ev.make s ∉ t₀
      ∧ ∀ u ∈ ts, (∃ v, u = .make s :: v ∧ Ev.make s ∉ v)
        ∧ Fresh (fun o a => (W.owner o a).isSome = true ∨ ((o = W.main ∨ o = .boundary) ∧ a ∉ left ∧ Ev.set o a ∈ t₀)) u := by
  cases hx with
  | fn hx =>
  rw [hq] at hx
  rcases first_run hf hx with ⟨t₁, t₂, τ, h1, h2, rfl⟩ | h
  · obtain ⟨hβ, hset⟩ := setUp_spec hk h1
    have halt : ∀ {σ : State} {t : List Ev} {out : Out} {n : ℕ}, Run W n W.main false (.alt (.rd main N.expected_known) .skip) σ t out →
        Ev.make s ∉ t ∧ ∀ ρ, out = .norm ρ → ρ = σ := by
      intro σ t out n h
      cases h with
      | altL h => cases h with
        | rd _ => exact ⟨by simp, fun ρ h => (Out.norm.inj h).symm⟩
        | rdErr _ => exact ⟨by simp, fun ρ h => by cases h⟩
      | altR h => cases h with
        | skip => exact ⟨by simp, fun ρ h => (Out.norm.inj h).symm⟩
    cases h2 with
    | seq h3 h4 =>
      obtain ⟨hm, he⟩ := halt h3
      obtain rfl := he _ rfl
      obtain ⟨ts, rfl, hts⟩ := loop_grids hk hβ h4 rfl rfl rfl (fun x _ => Iff.rfl)
      refine ⟨t₁ ++ _, ts, (List.append_assoc _ _ _).symm, fun h => ?_, fun u hu => ⟨(hts u hu).2, fun u₁ o a u₂ hu' => ?_⟩⟩
      · rcases List.mem_append.1 h with h | h
        · exact setUp_makes hk h1 h
        · exact hm h
      · rcases (hts u hu).1 u₁ o a u₂ hu' with (h | ⟨h5, h6, h7⟩) | h
        · exact Or.inl (Or.inl h)
        · exact Or.inl (Or.inr ⟨h5, h6, List.mem_append_left _ (hset o a h7)⟩)
        · exact Or.inr h
    | seqRet h => exact ⟨t₁ ++ t₂, [], by simp, by simpa using ⟨setUp_makes hk h1, (halt h).1⟩, by simp⟩
    | seqBrk h => exact ⟨t₁ ++ t₂, [], by simp, by simpa using ⟨setUp_makes hk h1, (halt h).1⟩, by simp⟩
    | seqErr h => exact ⟨t₁ ++ t₂, [], by simp, by simpa using ⟨setUp_makes hk h1, (halt h).1⟩, by simp⟩
  · exact ⟨t, [], by simp, setUp_makes hk h, by simp⟩

end

/-! ## the programs -/

/-- run.py, with any smooth problem and any boundary, whatever the branches and however many grids: what happens is `t₀`, in which no
solver is made, and then one part for every grid, which begins with making the solver.  In each part every attribute that is looked up
is one of a class, or one that `t₀` assigned to the problem or the boundary (and that is not `M`, `kx` or `ky`), or one that was
assigned in the same part, to the object as it is.  So nothing a grid uses was left behind by the grids before it. -/
theorem C121_run {p b : Owner} (hp : p ∈ smooth) (hb : b ∈ boundaries) {n : ℕ} {t : List Ev} {out : Out}
    (hx : Run (world false p b) n .problem false (.fn .m_run N.__main__) ∅ t out) :
    ∃ (t₀ : List Ev) (ts : List (List Ev)), t = t₀ ++ ts.flatten ∧ Ev.make .solver ∉ t₀
      ∧ ∀ u ∈ ts, (∃ v, u = .make .solver :: v ∧ Ev.make .solver ∉ v)
        ∧ Fresh (fun o a => ((world false p b).owner o a).isSome = true
          ∨ ((o = .problem ∨ o = .boundary) ∧ a ∉ leftBehind p ∧ Ev.set o a ∈ t₀)) u :=
  program_grids (ok_of (run_ok p hp b hb)) rfl (C121_setUp false p b).1 hx

/-- runz.py, with any problem of the z-method and any boundary: likewise, with a new `ZMethod` on every grid.  (The Fourier
coefficients that runz.py:93 hands from one grid to the next are assigned to it on each grid.) -/
theorem C121_runz {p b : Owner} (hp : p ∈ singular) (hb : b ∈ boundaries) {n : ℕ} {t : List Ev} {out : Out}
    (hx : Run (world true p b) n .zproblem false (.fn .m_runz N.__main__) ∅ t out) :
    ∃ (t₀ : List Ev) (ts : List (List Ev)), t = t₀ ++ ts.flatten ∧ Ev.make .zmethod ∉ t₀
      ∧ ∀ u ∈ ts, (∃ v, u = .make .zmethod :: v ∧ Ev.make .zmethod ∉ v)
        ∧ Fresh (fun o a => ((world true p b).owner o a).isSome = true
          ∨ ((o = .zproblem ∨ o = .boundary) ∧ Ev.set o a ∈ t₀)) u := by
  obtain ⟨t₀, ts, h1, h2, h3⟩ := program_grids (ok_of (runz_ok p hp b hb)) rfl (C121_setUp true p b).2 hx
  refine ⟨t₀, ts, h1, h2, fun u hu => ⟨(h3 u hu).1, fun t₁ o a t₂ ht => ?_⟩⟩
  exact ((h3 u hu).2 t₁ o a t₂ ht).imp_left fun h => h.imp_right fun h => ⟨h.1, h.2.2⟩

/-- What can happen on a grid of run.py does not depend on the grids before: from any two states that have the attributes of the same
`setUp`, the same events are possible, and the state after a grid is again of this kind. -/
theorem C121_same {p b : Owner} (hp : p ∈ smooth) (hb : b ∈ boundaries) {β σ σ' : State} (hβ : SetUp (world false p b) β)
    (hσ : History .problem (leftBehind p) β σ) (hσ' : History .problem (leftBehind p) β σ') {n : ℕ} {t : List Ev} {out : Out}
    (hx : Run (world false p b) n .problem false gridRun σ t out) :
    (∃ out', Run (world false p b) n .problem false gridRun σ' t out')
    ∧ ∃ τ, out.state = some τ ∧ History .problem (leftBehind p) β τ := by
  have hk := ok_of (run_ok p hp b hb)
  obtain ⟨out', h, -⟩ := grid_same hk hβ hσ hσ' hx
  obtain ⟨τ, hτ⟩ := grid_state hk hβ hσ hx.exec
  exact ⟨⟨out', h⟩, τ, hτ, grid_history hk hβ hσ hx hτ⟩

/-! ## cases -/

/-- run.py has an execution that comes to its end and solves on a grid. -/
example : ∃ t τ, Run (world false .Smooth_E .Sine7) 30 .problem false (.fn .m_run N.__main__) ∅ t (.norm τ) ∧ Ev.set .solver N.c1 ∈ t := by
  obtain ⟨σ, h, -, h1, -⟩ := C115_runs.1 .Sine7 (by decide) .Smooth_E (by decide)
  obtain ⟨t, ht⟩ := h.run
  exact ⟨t, σ, ht, (mem_out ht (.solver, N.c1) h1).resolve_left (fun h => h.elim)⟩

/-- So has runz.py. -/
example : ∃ t τ, Run (world true .IZ_Bessel .OuterSine) 30 .zproblem false (.fn .m_runz N.__main__) ∅ t (.norm τ) ∧ Ev.set .zmethod N.v ∈ t := by
  obtain ⟨σ, h, -, h1, -⟩ := C115_runs.2.1 .IZ_Bessel (by decide)
  obtain ⟨t, ht⟩ := h.run
  exact ⟨t, σ, ht, (mem_out ht (.zmethod, N.v) h1).resolve_left (fun h => h.elim)⟩

/-- A case for `C121_same`: the first grid, and a later one that finds `M` on the problem and a whole solver. -/
example : let W := world false .Smooth_Sine .Arc
    SetUp W (toState (ready W)) ∧ History .problem [N.M] (toState (ready W)) (toState (ready W))
    ∧ History .problem [N.M] (toState (ready W)) (toState ((.problem, N.M) :: (.solver, N.c0) :: (.solver, N.c1) :: ready W))
    ∧ ∃ t τ, Run W 30 .problem false gridRun (toState (ready W)) t (.norm τ) := by
  refine ⟨⟨fun x h => h, fun x h => (ok_of (run_ok .Smooth_Sine (by decide) .Arc (by decide))).ready x h⟩, fun x _ => Iff.rfl, ?_, ?_⟩
  · intro x hx
    refine ⟨fun h => ?_, fun h => List.mem_cons_of_mem _ (List.mem_cons_of_mem _ (List.mem_cons_of_mem _ h))⟩
    rcases List.mem_cons.1 h with rfl | h
    · exact absurd hx (by simp [kept, asked])
    · rcases List.mem_cons.1 h with rfl | h
      · exact absurd hx (by simp [kept, asked])
      · rcases List.mem_cons.1 h with rfl | h
        · exact absurd hx (by simp [kept, asked])
        · exact h
  · have h : assigns (world false .Smooth_Sine .Arc) gridRun [] = true := by decide +kernel
    obtain ⟨t, τ, h1, -⟩ := run_of_assigns h
    exact ⟨t, τ, h1⟩

/-- The attribute `M` of the problem is what a grid would find of the grids before, if it looked: a solver that read it before assigning
it would not be fresh. -/
example : ¬Fresh (fun _ _ => False) [.make .solver, .get .problem N.M, .set .problem N.M] := by
  intro h
  rcases h [.make .solver] .problem N.M [.set .problem N.M] rfl with h | ⟨u₁, u₂, h, -⟩
  · exact h
  · have : Ev.set .problem N.M ∈ [Ev.make .solver] := by rw [h]; simp
    simp at this

end Attrs
end Pot
