/-
C115: no execution of the programs ends in `AttributeError`, whatever the branches taken and however often the loops run.
-/
import Verif.Proofs.Attrs

namespace Pot
namespace Attrs

/-! ## the tables are those of C114 -/

/-- the classes -/
def classes : List Owner := [.SolverExtend, .Result, .Solver, .APSolver, .Multivalue, .PsBasis, .PsGrid, .PsExtend, .PsInhomo, .PsDebug, .PizzaSolver,
  .PolarFD, .Problem, .PizzaProblem, .SympyProblem, .SmoothProblem, .Smooth_Sine, .Smooth_E, .Smooth_YCos, .SingularProblem, .SingularKnown, .Boundary, .Arc,
  .OuterSine, .InnerSine, .Sine7, .Cubic, .SingIH_Problem, .IH_Bessel, .IZ_Bessel, .IHZ_Bessel_Line, .IHZ_Bessel_Quadratic, .ZMethod, .DummySympyProblem,
  .u_BVP]

/-- The classes, what they define and the orders in which attributes are looked up are those of `Classes.repoClasses`; the
classes of problems have the attribute `name` besides. -/
theorem C115_tables :
    classes.map (fun c => (className c, (own c).map fun a => names.getD a ""))
      = Classes.repoClasses.map (fun c => (c.name, if c.name ∈ Classes.problemClasses then c.own ++ ["name"] else c.own))
    ∧ ∀ c ∈ classes, (mro c).map className ++ ["object"] = Classes.mroOf (className c) := by
  constructor
  · decide +kernel
  · decide +kernel

/-! ## the programs -/

/-- the functions that call each other: problems/problem.py:18-43 -/
def recs (c : Owner) (m : ℕ) : Bool := match c with
  | .Problem => m == N.eval_f || m == N.eval_expected
  | _ => false

/-- the programs for one solver: run.py and scripts -/
def programs : List Owner := [.m_run, .m_c0_basis, .m_optimize_basis, .m_extend_basis_test, .m_test_extend_f, .m_plot_domain, .m_plot_domain2]

theorem programs_safe_sine : ∀ q ∈ programs, ∀ b ∈ boundaries, safe (world false .Smooth_Sine b) recs 30 (.fn q N.__main__) = true := by
  decide +kernel

theorem programs_safe_e : ∀ q ∈ programs, ∀ b ∈ boundaries, safe (world false .Smooth_E b) recs 30 (.fn q N.__main__) = true := by
  decide +kernel

theorem programs_safe_ycos : ∀ q ∈ programs, ∀ b ∈ boundaries, safe (world false .Smooth_YCos b) recs 30 (.fn q N.__main__) = true := by
  decide +kernel

theorem programs_safe : ∀ q ∈ programs, ∀ p ∈ smooth, ∀ b ∈ boundaries,
    safe (world false p b) recs 30 (.fn q N.__main__) = true := by
  intro q hq p hp b hb
  simp only [smooth, List.mem_cons, List.not_mem_nil, or_false] at hp
  rcases hp with rfl | rfl | rfl
  · exact programs_safe_sine q hq b hb
  · exact programs_safe_e q hq b hb
  · exact programs_safe_ycos q hq b hb

theorem runz_safe : ∀ p ∈ singular, ∀ b ∈ boundaries, safe (world true p b) recs 30 (.fn .m_runz N.__main__) = true := by
  decide +kernel

theorem extension_safe : ∀ p ∈ [Owner.Smooth_Sine, .Smooth_YCos], ∀ b ∈ boundaries,
    safe (world false p b) recs 30 (.fn .m_extension_test N.__main__) = true := by
  decide +kernel

/-- run.py and six scripts, with any of the three smooth problems and any of the five boundaries: no execution, from whatever
attributes, with calls nested however deep, ends in `AttributeError`. -/
theorem C115_programs {q p b : Owner} (hq : q ∈ programs) (hp : p ∈ smooth) (hb : b ∈ boundaries) {n : ℕ} {σ : State} {out : Out}
    (hx : Exec (world false p b) n .problem false (.fn q N.__main__) σ out) (o : Obj) (a : ℕ) : out ≠ .err o a :=
  safe_sound _ recs (programs_safe q hq p hp b hb) hx o a

/-- runz.py with any of the three problems of the z-method and any of the five boundaries -/
theorem C115_runz {p b : Owner} (hp : p ∈ singular) (hb : b ∈ boundaries) {n : ℕ} {σ : State} {out : Out}
    (hx : Exec (world true p b) n .zproblem false (.fn .m_runz N.__main__) σ out) (o : Obj) (a : ℕ) : out ≠ .err o a :=
  safe_sound _ recs (runz_safe p hp b hb) hx o a

/-- scripts/extension_test.py with the problems `smooth-sine` and `smooth-ycos`; for `smooth-e` see `C115_get_grad` -/
theorem C115_extension_test {p b : Owner} (hp : p ∈ [Owner.Smooth_Sine, .Smooth_YCos]) (hb : b ∈ boundaries) {n : ℕ} {σ : State}
    {out : Out} (hx : Exec (world false p b) n .problem false (.fn .m_extension_test N.__main__) σ out) (o : Obj) (a : ℕ) :
    out ≠ .err o a :=
  safe_sound _ recs (extension_safe p hp b hb) hx o a

/-! ## such executions exist -/

theorem run_ends : ∀ b ∈ boundaries, ∀ p ∈ smooth, ends (world false p b) early 30 (.fn .m_run N.__main__)
    [(.solver, N.c0), (.solver, N.c1), (.result, N.u_act)] = true := by
  decide +kernel

theorem runz_ends : ∀ p ∈ singular, ends (world true p .OuterSine) early 30 (.fn .m_runz N.__main__)
    [(.solver, N.c1), (.zmethod, N.v), (.zmethod, N.u)] = true := by
  decide +kernel

theorem program_ends : ∀ q ∈ programs ++ [Owner.m_extension_test], ∀ p ∈ smooth,
    ends (world false p .Cubic) early 30 (.fn q N.__main__) [(.solver, N.B_desc), (.boundary, N.bet)] = true := by
  decide +kernel

/-- run.py has an execution that comes to its end, with every smooth problem and every boundary: there it has computed the unknowns
and the solution.  So has runz.py with every problem of the z-method, and so have the other programs with every smooth problem (the
boundary does not matter; here it is `outer-sine` and `cubic`). -/
theorem C115_runs :
    (∀ b ∈ boundaries, ∀ p ∈ smooth, ∃ σ, Exec (world false p b) 30 .problem false (.fn .m_run N.__main__) ∅ (.norm σ)
      ∧ (Obj.solver, N.c0) ∈ σ ∧ (Obj.solver, N.c1) ∈ σ ∧ (Obj.result, N.u_act) ∈ σ)
    ∧ (∀ p ∈ singular, ∃ σ, Exec (world true p .OuterSine) 30 .zproblem false (.fn .m_runz N.__main__) ∅ (.norm σ)
      ∧ (Obj.solver, N.c1) ∈ σ ∧ (Obj.zmethod, N.v) ∈ σ ∧ (Obj.zmethod, N.u) ∈ σ)
    ∧ (∀ q ∈ programs ++ [.m_extension_test], ∀ p ∈ smooth, ∃ σ,
      Exec (world false p .Cubic) 30 .problem false (.fn q N.__main__) ∅ (.norm σ) ∧ (Obj.solver, N.B_desc) ∈ σ) := by
  refine ⟨fun b hb p hp => ?_, fun p hp => ?_, fun q hq p hp => ?_⟩
  · obtain ⟨σ, h1, h2⟩ := exec_of_ends _ _ (run_ends b hb p hp)
    exact ⟨σ, h1, h2 _ (by simp), h2 _ (by simp), h2 _ (by simp)⟩
  · obtain ⟨σ, h1, h2⟩ := exec_of_ends _ _ (runz_ends p hp)
    exact ⟨σ, h1, h2 _ (by simp), h2 _ (by simp), h2 _ (by simp)⟩
  · obtain ⟨σ, h1, h2⟩ := exec_of_ends _ _ (program_ends q hq p hp)
    exact ⟨σ, h1, h2 _ (by simp)⟩

/-! ## where an attribute is missing -/

theorem seq_rd {W : World} {n : ℕ} {me : Obj} {j : Bool} {r : Ref} {a : ℕ} {d : Cmd} {σ : State} {out : Out}
    (hx : Exec W n me j (.seq (.rd r a) d) σ out) :
    (¬Has W σ (W.obj me r) a ∧ out = .err (W.obj me r) a) ∨ (Has W σ (W.obj me r) a ∧ Exec W n me j d σ out) := by
  cases hx with
  | seq h1 h2 => cases h1 with
    | rd h => exact Or.inr ⟨h, h2⟩
  | seqRet h => cases h
  | seqBrk h => cases h
  | seqErr h => cases h with
    | rdErr h => exact Or.inl ⟨h, rfl⟩

theorem not_has {W : World} {σ : State} {o : Obj} {a : ℕ} (h : (o, a) ∉ σ) (h' : W.owner o a = none) : ¬Has W σ o a := by
  rintro (h1 | h1)
  · exact h h1
  · rw [h'] at h1
    exact Bool.noConfusion h1

/-- `Smooth_E.get_grad` (problems/smooth.py:79-84) reads `kx` and `ky`, which only `eval_expected` assigns: called before it, it ends
in `AttributeError` in every execution; called after it, in none. -/
theorem C115_get_grad {b : Owner} (hb : b ∈ boundaries) {n : ℕ} {σ : State} {out : Out} :
    ((Obj.problem, N.kx) ∉ σ → Exec (world false .Smooth_E b) n .problem false (.call P N.get_grad .no) σ out →
      out = .err .problem N.kx)
    ∧ (Exec (world false .Smooth_E b) n .problem false (.call P N.eval_expected .no ;; .call P N.get_grad .no) σ out →
      ∀ o a, out ≠ .err o a) := by
  constructor
  · intro hk hx
    have ho : (world false .Smooth_E b).owner .problem N.get_grad = some .Smooth_E := rfl
    cases hx with
    | call hc hb =>
      have hc' := hc.symm.trans ho
      simp only [Option.some.injEq] at hc'
      subst hc'
      rcases seq_rd hb with ⟨-, h⟩ | ⟨h, -⟩
      · rw [h]
        rfl
      · exact absurd h (not_has hk rfl)
    | callOwn hc _ => exact absurd (hc.symm.trans ho) (by simp)
    | callErr hc => exact absurd (Or.inr (by rw [show (world false .Smooth_E b).owner ((world false .Smooth_E b).obj .problem P) N.get_grad = _ from ho]; rfl)) hc
  · intro hx o a
    have h : ∀ b ∈ boundaries, safe (world false .Smooth_E b) recs 5 (.call P N.eval_expected .no ;; .call P N.get_grad .no) = true := by
      decide +kernel
    exact safe_sound _ recs (h b hb) hx o a

/-- The z-method cannot start on a smooth problem: `do_algebra` (ps/zmethod.py:62-147) reads `problem.g` (line 63), which the smooth
problems do not have. -/
theorem C115_do_algebra {p b : Owner} (hp : p ∈ smooth) {n : ℕ} {me : Obj} {σ : State} {out : Out} (hg : (Obj.zproblem, N.g) ∉ σ)
    (hz : (Obj.zmethod, N.problem) ∈ σ) (hx : Exec (world true p b) n me false (.call Z N.do_algebra .no) σ out) :
    out = .err .zproblem N.g := by
  have ho : (world true p b).owner .zmethod N.do_algebra = some .ZMethod := rfl
  cases hx with
  | call hc hb =>
    have hc' := hc.symm.trans ho
    simp only [Option.some.injEq] at hc'
    subst hc'
    rcases seq_rd hb with ⟨h, -⟩ | ⟨-, h⟩
    · exact absurd (Or.inl hz) h
    · rcases seq_rd h with ⟨-, h⟩ | ⟨h, -⟩
      · rw [h]
        rfl
      · refine absurd h (not_has hg ?_)
        have : ∀ p ∈ smooth, (world true p .Arc).owner .zproblem N.g = none := by decide +kernel
        exact this p hp
  | callOwn hc _ => exact absurd (hc.symm.trans ho) (by simp)
  | callErr hc => exact absurd (Or.inr (by rw [show (world true p b).owner ((world true p b).obj me Z) N.do_algebra = _ from ho]; rfl)) hc

/-- … and runz.py gets there -/
theorem C115_runz_smooth {p b : Owner} (hp : p ∈ smooth) (hb : b ∈ boundaries) :
    Exec (world true p b) 30 .zproblem false (.fn .m_runz N.__main__) ∅ (.err .zproblem N.g) := by
  have h : ∀ b ∈ boundaries, ∀ p ∈ smooth, sim (world true p b) early 30 .zproblem false (.fn .m_runz N.__main__) []
      = some (.err .zproblem N.g) := by decide +kernel
  have := sim_exec _ _ _ _ _ _ _ _ (h b hb p hp)
  rwa [toState_nil] at this

/-- a program that makes a problem, a boundary and a solver, as run.py does, and then runs `c` -/
def start (c : Cmd) : Cmd := .new main ;; .new B ;; .call main N.set_boundary .no ;; .new S ;; c

/-- The order of the calls in `PizzaSolver.run` (ps/ps.py:217-257) is needed: `solve_var` before `calc_c0` ends in `AttributeError` for
`c0`, and so does `extend_boundary`; after `calc_c0` it is `c1` that is missing. -/
theorem C115_order : ∀ p ∈ [Owner.Smooth_Sine, .Smooth_E], ∀ x ∈ [(Cmd.call S N.solve_var .no, N.c0), (.call S N.extend_boundary .no, N.c0),
      (.call S N.calc_c0 .no ;; .call S N.extend_boundary .no, N.c1)],
    Exec (world false p .Arc) 30 .problem false (start x.1) ∅ (.err .solver x.2) := by
  intro p hp x hx
  have h : ∀ p ∈ [Owner.Smooth_Sine, .Smooth_E], ∀ x ∈ [(Cmd.call S N.solve_var .no, N.c0), (.call S N.extend_boundary .no, N.c0),
      (.call S N.calc_c0 .no ;; .call S N.extend_boundary .no, N.c1)],
      sim (world false p .Arc) (fun _ _ => true) 30 .problem false (start x.1) [] = some (.err .solver x.2) := by decide +kernel
  have := sim_exec _ _ _ _ _ _ _ _ (h p hp x hx)
  rwa [toState_nil] at this

/-- … while the order it has needs nothing else: for any of these, no execution ends in `AttributeError` -/
theorem C115_order_run : ∀ p ∈ smooth, ∀ b ∈ boundaries, ∀ n σ out,
    Exec (world false p b) n .problem false (start (.call S N.calc_c0 .no ;; .call S N.solve_var .no ;; .call S N.extend_boundary .no)) σ out →
      ∀ o a, out ≠ .err o a := by
  intro p hp b hb n σ out hx o a
  have h : ∀ p ∈ smooth, ∀ b ∈ boundaries, safe (world false p b) recs 30
      (start (.call S N.calc_c0 .no ;; .call S N.solve_var .no ;; .call S N.extend_boundary .no)) = true := by decide +kernel
  exact safe_sound _ recs (h p hp b hb) hx o a

/-! ## what the model assumes about assignments -/

/-- the attributes a command assigns -/
def writes : Cmd → List (Ref × ℕ)
  | .wr r a => [(r, a)]
  | .seq c d => writes c ++ writes d
  | .alt c d => writes c ++ writes d
  | .jj c d => writes c ++ writes d
  | .flag _ c d => writes c ++ writes d
  | .has _ _ c d => writes c ++ writes d
  | .loop c => writes c
  | .scope c => writes c
  | _ => []

/-- the classes the object of a role may have -/
def roleClasses : Obj → List Owner
  | .solver => [.PizzaSolver]
  | .problem => .u_BVP :: smooth ++ singular
  | .zproblem => smooth ++ singular
  | .boundary => boundaries
  | .apsolver => [.APSolver]
  | .multivalue => [.Multivalue]
  | .polarfd => [.PolarFD]
  | .zmethod => [.ZMethod]
  | .result => [.Result]
  | .dummy => [.DummySympyProblem]

/-- the roles -/
def objs : List Obj := [.solver, .problem, .zproblem, .boundary, .apsolver, .multivalue, .polarfd, .zmethod, .result, .dummy]

/-- in a function of `c`, `r` may refer to an object of the role `o` and the class `k` -/
def refers (c : Owner) (o : Obj) (k : Owner) : Ref → Bool
  | .self => (mro k).contains c
  | .main => decide (o = .problem) || decide (o = .zproblem)
  | .of o' => decide (o = o')

/-- the classes and modules -/
def owners : List Owner := classes ++ [.m_domain_util, .m_abcoef, .m_io_util, .m_run, .m_runz, .m_c0_basis, .m_optimize_basis, .m_extend_basis_test,
  .m_extension_test, .m_test_extend_f, .m_plot_domain, .m_plot_domain2]

/-- No function assigns to an object an attribute whose name is that of a method of its class that touches attributes, and none
assigns `homogeneous`: a method call finds the method of the class, and `o.homogeneous` is the value in the class. -/
theorem C115_no_shadow : (∀ z p b o, p ∈ smooth ++ singular → b ∈ boundaries → (world z p b).cls o ∈ roleClasses o)
    ∧ ∀ c ∈ owners, ∀ mb ∈ bodies c, ∀ ra ∈ writes mb.2, ra.2 ≠ N.homogeneous ∧
      ∀ o ∈ objs, ∀ k ∈ roleClasses o, refers c o k ra.1 = true →
        ∀ d ∈ (mro k).find? (fun c => (own c).contains ra.2), (bodies d).lookup ra.2 = none := by
  constructor
  · intro z p b o hp hb
    cases o with
    | problem =>
      cases z
      · exact List.mem_cons_of_mem _ hp
      · exact List.mem_cons_self
    | zproblem => exact hp
    | boundary => exact hb
    | _ => exact List.mem_singleton.2 rfl
  · decide +kernel

/-! ## examples -/

/-- run.py, the problem `smooth-sine`, the boundary `arc`: there is an execution, and it is not one with `AttributeError` -/
example : ∃ σ, Exec (world false .Smooth_Sine .Arc) 30 .problem false (.fn .m_run N.__main__) ∅ (.norm σ)
    ∧ ∀ o a, Out.norm σ ≠ .err o a := by
  obtain ⟨σ, h, -⟩ := C115_runs.1 .Arc (by decide) .Smooth_Sine (by decide)
  exact ⟨σ, h, C115_programs (q := .m_run) (p := .Smooth_Sine) (b := .Arc) (by decide) (by decide) (by decide) h⟩

/-- runz.py, the problem `iz-bessel`, the boundary `outer-sine` -/
example : ∃ σ, Exec (world true .IZ_Bessel .OuterSine) 30 .zproblem false (.fn .m_runz N.__main__) ∅ (.norm σ) := by
  obtain ⟨σ, h, -⟩ := C115_runs.2.1 .IZ_Bessel (by decide)
  exact ⟨σ, h⟩

/-- scripts/extension_test.py, the problem `smooth-ycos`, the boundary `cubic` -/
example : ∃ σ, Exec (world false .Smooth_YCos .Cubic) 30 .problem false (.fn .m_extension_test N.__main__) ∅ (.norm σ)
    ∧ (Obj.solver, N.B_desc) ∈ σ :=
  C115_runs.2.2 .m_extension_test (by decide) .Smooth_YCos (by decide)

/-- the semantics does raise: a solver that was never made has no `c0` -/
example : Exec (world false .Smooth_Sine .Arc) 0 .problem false (.rd S N.c0) ∅ (.err .solver N.c0) :=
  .rdErr (not_has (W := world false .Smooth_Sine .Arc) (by simp) rfl)

/-- `get_grad` before `eval_expected` -/
example : Exec (world false .Smooth_E .Arc) 1 .problem false (.call P N.get_grad .no) ∅ (.err .problem N.kx) :=
  .call (W := world false .Smooth_E .Arc) (c := .Smooth_E) (out := .err .problem N.kx) rfl
    (.seqErr (.rdErr (not_has (W := world false .Smooth_E .Arc) (by simp) rfl)))

/-- `get_grad` after it -/
example : ∃ σ, Exec (world false .Smooth_E .Arc) 1 .problem false (.call P N.eval_expected .no ;; .call P N.get_grad .no) ∅ (.norm σ) := by
  have h : (sim (world false .Smooth_E .Arc) early 1 .problem false (.call P N.eval_expected .no ;; .call P N.get_grad .no) []).isSome := by decide +kernel
  obtain ⟨s, hs⟩ := Option.isSome_iff_exists.1 h
  have hx := sim_exec _ _ _ _ _ _ _ _ hs
  rw [toState_nil] at hx
  have hg := (C115_get_grad (b := .Arc) (by decide)).2 hx
  revert hx hg
  cases hs
  intro hx _
  exact ⟨_, hx⟩

/-- the hypotheses of `C115_do_algebra` -/
example : (Obj.zproblem, N.g) ∉ ({(Obj.zmethod, N.problem)} : State) ∧ (Obj.zmethod, N.problem) ∈ ({(Obj.zmethod, N.problem)} : State)
    ∧ Exec (world true .Smooth_E .Arc) 1 .zmethod false (.call Z N.do_algebra .no) {(Obj.zmethod, N.problem)} (.err .zproblem N.g) := by
  refine ⟨by simp, rfl, ?_⟩
  refine .call (W := world true .Smooth_E .Arc) (c := .ZMethod) (out := .err .zproblem N.g) rfl ?_
  refine .seq (.rd (Or.inl rfl)) (.seqErr (.rdErr ?_))
  exact not_has (W := world true .Smooth_E .Arc) (by simp) rfl

end Attrs
end Pot
