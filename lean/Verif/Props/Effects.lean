/-
C120: once a program has its problem and its boundary, solving on any number of grids leaves both as they were, except for
attributes named here; what is left on the problem is not read by the next solver.
-/
import Verif.Proofs.Effects

namespace Spec

/-- the values of the attributes of objects -/
def Store (V : Type) := Pot.Attrs.Obj → ℕ → Option V

open Pot.Attrs in
/-- one event: a lookup changes nothing, an assignment changes that attribute only, a new object has no attributes -/
def Happens {V : Type} : Ev → Store V → Store V → Prop
  | .get _ _, s, s' | .test _ _, s, s' => s' = s
  | .set o a, s, s' => ∃ v : V, s' = fun o' a' => if o' = o ∧ a' = a then some v else s o' a'
  | .make o, s, s' => s' = fun o' a' => if o' = o then none else s o' a'

/-- the events one after the other -/
def AllHappen {V : Type} : List Pot.Attrs.Ev → Store V → Store V → Prop
  | [], s, s' => s' = s
  | e :: t, s, s' => ∃ s₁, Happens e s s₁ ∧ AllHappen t s₁ s'

end Spec

namespace Pot
namespace Attrs

open Spec

theorem frame {V : Type} {o : Obj} {a : ℕ} : ∀ {t : List Ev} {s s' : Store V}, Ev.set o a ∉ t → Ev.make o ∉ t → AllHappen t s s' →
    s' o a = s o a
  | [], s, s', _, _, h => by rw [show s' = s from h]
  | e :: t, s, s', h1, h2, ⟨s₁, h3, h4⟩ => by
    rw [frame (fun h => h1 (List.mem_cons_of_mem _ h)) (fun h => h2 (List.mem_cons_of_mem _ h)) h4]
    cases e with
    | get _ _ | test _ _ => rw [show s₁ = s from h3]
    | set o' a' =>
      obtain ⟨v, rfl⟩ := h3
      simp only
      rw [if_neg]
      rintro ⟨rfl, rfl⟩
      exact h1 List.mem_cons_self
    | make o' =>
      rw [show s₁ = _ from h3]
      simp only
      rw [if_neg]
      rintro rfl
      exact h2 List.mem_cons_self

/-! ## run.py and the scripts that make one solver after another -/

/-- what may be assigned to a problem after it is made: `M` by the solver (ps/ps.py:39), and `kx`, `ky` by `Smooth_E` itself
(problems/smooth.py:74-75) -/
def leftBehind : Owner → List ℕ
  | .Smooth_E => [N.M, N.kx, N.ky]
  | _ => [N.M]

def badRun (p : Owner) : Ev → Bool
  | .make o => o == .problem || o == .boundary
  | .set .boundary _ => true
  | .set .problem a => !(leftBehind p).contains a
  | .get .problem a | .test .problem a => a == N.M
  | _ => false

/-- any of the commands -/
def anyOf : List Cmd → Cmd
  | [] => .skip
  | c :: l => .alt c (anyOf l)

theorem run_anyOf {W : World} {n : ℕ} {me : Obj} {j : Bool} {c : Cmd} {σ : State} {t : List Ev} {out : Out}
    (h : Run W n me j c σ t out) : ∀ {l : List Cmd}, c ∈ l → Run W n me j (anyOf l) σ t out
  | [], hc => by cases hc
  | d :: l, hc => by
    rcases List.mem_cons.1 hc with rfl | hc
    · exact .altL h
    · exact .altR (run_anyOf h hc)

theorem all_never : ∀ p ∈ smooth, ∀ b ∈ boundaries, never (world false p b) (badRun p) .problem (anyOf (restPrograms.map rest)) = true := by
  decide +kernel

theorem rest_never {q p b : Owner} (hq : q ∈ restPrograms) (hp : p ∈ smooth) (hb : b ∈ boundaries) {n : ℕ} {j : Bool} {σ : State}
    {t : List Ev} {out : Out} (hx : Run (world false p b) n .problem j (rest q) σ t out) : ∀ e ∈ t, badRun p e = false :=
  never_sound (all_never p hp b hb) (run_anyOf hx (List.mem_map_of_mem hq))

theorem not_mem_of_bad {bad : Ev → Bool} {t : List Ev} (h : ∀ e ∈ t, bad e = false) {e : Ev} (he : bad e = true) : e ∉ t := fun hm => by
  rw [h e hm] at he
  cases he

/-- The six programs end with `rest`: run.py and five scripts, with whatever classes. -/
theorem C120_rest (z : Bool) (p b : Owner) : ∀ q ∈ restPrograms, Last (rest q) ((world z p b).body q N.__main__) := by
  intro q hq
  simp only [restPrograms, List.mem_cons, List.not_mem_nil, or_false] at hq
  rcases hq with rfl | rfl | rfl | rfl | rfl | rfl
  · exact .seq (.seq (.seq (.seq (.seq (.seq .here)))))
  · exact .seq (.seq (.seq (.seq (.seq .here))))
  · exact .seq (.seq (.seq (.seq (.seq .here))))
  · exact .seq (.seq (.seq (.seq (.seq .here))))
  · exact .alt (.seq (.seq (.seq (.seq (.seq .here)))))
  · exact .alt (.seq (.seq (.seq (.seq (.seq .here)))))

/-- With any smooth problem and any boundary, on however many grids, with whatever branches and values: after what run.py or one
of the scripts does once it has its problem and its boundary, every attribute of the boundary has the value it had before, and so
has every attribute of the problem other than `M` (and, for `Smooth_E`, `kx` and `ky`).  This holds too when it ends in an error. -/
theorem C120_run {q p b : Owner} (hq : q ∈ restPrograms) (hp : p ∈ smooth) (hb : b ∈ boundaries) {n : ℕ} {j : Bool} {σ : State}
    {t : List Ev} {out : Out} (hx : Run (world false p b) n .problem j (rest q) σ t out) {V : Type} {s s' : Store V}
    (ht : AllHappen t s s') :
    (∀ a, s' .boundary a = s .boundary a) ∧ (∀ a, a ∉ leftBehind p → s' .problem a = s .problem a) := by
  have h := rest_never hq hp hb hx
  refine ⟨fun a => frame (not_mem_of_bad h rfl) (not_mem_of_bad h rfl) ht,
    fun a ha => frame (not_mem_of_bad h ?_) (not_mem_of_bad h rfl) ht⟩
  simpa [badRun] using ha

/-- `M` is left on the problem by every solver and read by none: not by the next solver, nor by the problem, nor by the program. -/
theorem C120_M {q p b : Owner} (hq : q ∈ restPrograms) (hp : p ∈ smooth) (hb : b ∈ boundaries) {n : ℕ} {j : Bool} {σ : State}
    {t : List Ev} {out : Out} (hx : Run (world false p b) n .problem j (rest q) σ t out) : Ev.get .problem N.M ∉ t ∧ Ev.test .problem N.M ∉ t :=
  ⟨not_mem_of_bad (rest_never hq hp hb hx) rfl, not_mem_of_bad (rest_never hq hp hb hx) rfl⟩

/-! ## runz.py -/

def badRunz : Ev → Bool
  | .make o => o == .zproblem || o == .boundary
  | .set .boundary _ => true
  | .set .zproblem _ => true
  | .get .problem a | .test .problem a => a == N.M
  | _ => false

theorem restz_never_iz : ∀ b ∈ boundaries, never (world true .IZ_Bessel b) badRunz .zproblem restRunz = true := by
  decide +kernel

theorem restz_never_line : ∀ b ∈ boundaries, never (world true .IHZ_Bessel_Line b) badRunz .zproblem restRunz = true := by
  decide +kernel

theorem restz_never_quadratic : ∀ b ∈ boundaries, never (world true .IHZ_Bessel_Quadratic b) badRunz .zproblem restRunz = true := by
  decide +kernel

theorem restz_never : ∀ p ∈ singular, ∀ b ∈ boundaries, never (world true p b) badRunz .zproblem restRunz = true := by
  intro p hp b hb
  simp only [singular, List.mem_cons, List.not_mem_nil, or_false] at hp
  rcases hp with rfl | rfl | rfl
  · exact restz_never_iz b hb
  · exact restz_never_line b hb
  · exact restz_never_quadratic b hb

/-- runz.py ends with `restRunz`. -/
theorem C120_restz (z : Bool) (p b : Owner) : Last restRunz ((world z p b).body .m_runz N.__main__) :=
  .seq (.seq (.seq (.seq (.seq (.seq .here)))))

/-- In runz.py the problem of the program keeps every attribute, and so does the boundary: what the solver leaves behind (`M`, the
boundary) it leaves on a problem that the z-method makes anew for every grid, ps/zmethod.py:394.  `M` is not read there either. -/
theorem C120_runz {p b : Owner} (hp : p ∈ singular) (hb : b ∈ boundaries) {n : ℕ} {j : Bool} {σ : State} {t : List Ev} {out : Out}
    (hx : Run (world true p b) n .zproblem j restRunz σ t out) {V : Type} {s s' : Store V} (ht : AllHappen t s s') :
    (∀ a, s' .boundary a = s .boundary a) ∧ (∀ a, s' .zproblem a = s .zproblem a) ∧ Ev.get .problem N.M ∉ t := by
  have h := never_sound (restz_never p hp b hb) hx
  exact ⟨fun a => frame (not_mem_of_bad h rfl) (not_mem_of_bad h rfl) ht,
    fun a => frame (not_mem_of_bad h rfl) (not_mem_of_bad h rfl) ht, not_mem_of_bad h rfl⟩

/-! ## such executions exist, and they do assign what is named -/

/-- `Run` is `Exec` with a record: the executions are the same. -/
theorem C120_same {W : World} {n : ℕ} {me : Obj} {j : Bool} {c : Cmd} {σ : State} {out : Out} :
    Exec W n me j c σ out ↔ ∃ t, Run W n me j c σ t out :=
  ⟨Exec.run, fun ⟨_, h⟩ => h.exec⟩

theorem happens (e : Ev) (s : Store ℕ) : ∃ s', Happens e s s' := by
  cases e with
  | get _ _ | test _ _ => exact ⟨s, rfl⟩
  | set _ _ => exact ⟨_, 0, rfl⟩
  | make _ => exact ⟨_, rfl⟩

theorem allHappen : ∀ (t : List Ev) (s : Store ℕ), ∃ s', AllHappen t s s'
  | [], s => ⟨s, rfl⟩
  | e :: t, s => by
    obtain ⟨s₁, h₁⟩ := happens e s
    obtain ⟨s', h'⟩ := allHappen t s₁
    exact ⟨s', s₁, h₁, h'⟩

/-- `x` is assigned when the execution ends -/
def Out.Has (x : Obj × ℕ) : Out → Prop
  | .norm τ | .ret τ | .brk τ => x ∈ τ
  | .err _ _ => False

/-- the attributes an execution ends with were there before or have been assigned -/
theorem mem_out {W : World} {n : ℕ} {me : Obj} {j : Bool} {c : Cmd} {σ : State} {t : List Ev} {out : Out}
    (h : Run W n me j c σ t out) (x : Obj × ℕ) : out.Has x → x ∈ σ ∨ Ev.set x.1 x.2 ∈ t := by
  have hcl : ∀ {out : Out}, out.close.Has x → out.Has x := by
    intro out h
    cases out <;> exact h
  induction h with
  | skip | ret | brk | rd | callOwn | supObject | loopEnd => exact Or.inl
  | rdErr | callErr | supErr => exact False.elim
  | wr =>
    rintro (rfl | h)
    · exact Or.inr (by simp)
    · exact Or.inl h
  | call _ _ ih => exact fun h => (ih (hcl h)).imp_right (List.mem_cons_of_mem _)
  | sup _ _ ih => exact fun h => ih (hcl h)
  | fn _ ih => exact fun h => ih (hcl h)
  | new _ _ ih =>
    intro h
    rcases ih (hcl h) with h | h
    · exact Or.inl h.1
    · exact Or.inr (List.mem_cons_of_mem _ h)
  | newObject => exact fun h => Or.inl h.1
  | seq _ _ i1 i2 | loop _ _ i1 i2 | loopBrk _ _ i1 i2 =>
    intro h
    rcases i2 h with h | h
    · exact (i1 h).imp_right (List.mem_append_left _)
    · exact Or.inr (List.mem_append_right _ h)
  | seqRet _ ih | seqBrk _ ih | seqErr _ ih | altL _ ih | altR _ ih | jj _ ih | flag _ ih | loopRet _ ih | loopErr _ ih => exact ih
  | hasT _ _ ih | hasF _ _ ih => exact fun h => (ih h).imp_right (List.mem_cons_of_mem _)
  | scope _ ih => exact fun h => ih (hcl h)

/-- the attributes after the problem and the boundary are made and the problem has the boundary -/
def ready (W : World) : List (Obj × ℕ) :=
  match sim W early 30 W.main false (.new main ;; .new B ;; .call main N.set_boundary .no) [] with
  | some (.norm m) => m
  | _ => []

/-- from `ready` the command has an execution that comes to its end and assigns the attributes `l`, which `ready` does not have -/
def assigns (W : World) (c : Cmd) (l : List (Obj × ℕ)) : Bool := match sim W early 30 W.main false c (ready W) with
  | some (.norm m) => l.all fun x => decide (x ∈ m) && !decide (x ∈ ready W)
  | _ => false

theorem run_of_assigns {W : World} {c : Cmd} {l : List (Obj × ℕ)} (h : assigns W c l = true) :
    ∃ t τ, Run W 30 W.main false c (toState (ready W)) t (.norm τ) ∧ ∀ x ∈ l, Ev.set x.1 x.2 ∈ t := by
  unfold assigns at h
  split at h
  · rename_i m hm
    obtain ⟨t, ht⟩ := (sim_exec W early _ _ _ _ _ _ hm).run
    refine ⟨t, _, ht, fun x hx => ?_⟩
    have hx' := List.all_eq_true.1 h x hx
    simp only [Bool.and_eq_true, decide_eq_true_eq, Bool.not_eq_true', decide_eq_false_iff_not] at hx'
    exact (mem_out ht x hx'.1).resolve_left hx'.2
  · cases h

theorem rest_assigns : ∀ p ∈ smooth, ∀ b ∈ boundaries, (ready (world false p b)).contains (.problem, N.boundary) = true
    ∧ assigns (world false p b) restRun ((leftBehind p).map fun a => (Obj.problem, a)) = true := by
  decide +kernel

/-- run.py has, with every smooth problem and every boundary, an execution in which all that `C120_run` leaves open is assigned:
`M`, and with `Smooth_E` also `kx` and `ky`. -/
theorem C120_left {p b : Owner} (hp : p ∈ smooth) (hb : b ∈ boundaries) : ∃ t τ,
    Run (world false p b) 30 .problem false restRun (toState (ready (world false p b))) t (.norm τ)
    ∧ ∀ a ∈ leftBehind p, Ev.set .problem a ∈ t := by
  obtain ⟨t, τ, h1, h2⟩ := run_of_assigns (rest_assigns p hp b hb).2
  exact ⟨t, τ, h1, fun a ha => h2 (.problem, a) (List.mem_map_of_mem ha)⟩

theorem restz_assigns : ∀ p ∈ singular, assigns (world true p .OuterSine) restRunz [(.problem, N.M), (.zmethod, N.v)] = true := by
  decide +kernel

/-- runz.py has executions that come to the end, in which the solver assigns `M` to the problem the z-method made for it. -/
theorem C120_leftz {p : Owner} (hp : p ∈ singular) : ∃ t τ,
    Run (world true p .OuterSine) 30 .zproblem false restRunz (toState (ready (world true p .OuterSine))) t (.norm τ)
    ∧ Ev.set .problem N.M ∈ t := by
  obtain ⟨t, τ, h1, h2⟩ := run_of_assigns (restz_assigns p hp)
  exact ⟨t, τ, h1, h2 (.problem, N.M) (by simp)⟩

/-- A case for `C120_run` and `C120_M`: run.py with `Smooth_E` and the boundary `cubic`, from any values of the attributes. -/
example (s : Store ℕ) : ∃ t τ s', Run (world false .Smooth_E .Cubic) 30 .problem false (rest .m_run)
    (toState (ready (world false .Smooth_E .Cubic))) t (.norm τ) ∧ AllHappen t s s' ∧ Ev.set .problem N.kx ∈ t := by
  obtain ⟨t, τ, h1, h2⟩ := C120_left (p := .Smooth_E) (b := .Cubic) (by decide) (by decide)
  obtain ⟨s', h'⟩ := allHappen t s
  exact ⟨t, τ, s', h1, h', h2 _ (by decide)⟩

/-- A case for `C120_runz`. -/
example (s : Store ℕ) : ∃ t τ s', Run (world true .IZ_Bessel .OuterSine) 30 .zproblem false restRunz
    (toState (ready (world true .IZ_Bessel .OuterSine))) t (.norm τ) ∧ AllHappen t s s' := by
  obtain ⟨t, τ, h1, -⟩ := C120_leftz (p := .IZ_Bessel) (by decide)
  obtain ⟨s', h'⟩ := allHappen t s
  exact ⟨t, τ, s', h1, h'⟩

/-- scripts/plot_domain2.py is not among the programs of `C120_run`: it assigns `a` to the problem, scripts/plot_domain2.py:122. -/
theorem C120_plot_domain2 : ∃ t τ, Run (world false .Smooth_Sine .Arc) 30 .problem false (.fn .m_plot_domain2 N.__main__) ∅ t (.norm τ)
    ∧ Ev.set .problem N.a ∈ t := by
  have h : ends (world false .Smooth_Sine .Arc) early 30 (.fn .m_plot_domain2 N.__main__) [(.problem, N.a)] = true := by
    decide +kernel
  obtain ⟨τ, h1, h2⟩ := exec_of_ends _ _ h
  obtain ⟨t, ht⟩ := h1.run
  exact ⟨t, τ, ht, (mem_out ht (.problem, N.a) (h2 _ (by simp))).resolve_left (fun h => h.elim)⟩

end Attrs
end Pot
