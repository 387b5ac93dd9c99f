import Verif.Proofs.Classes

/-!
# C114: attributes and constructors are found where they are expected

For every sequence of `class` statements: the order of resolution is right, the definition in a derived class wins, and a `class`
statement fails only if there is no order.  For the repository: the orders, the only two names that two classes of a solver share,
the chain of constructors for all arguments, and the two calls that do not bind.
-/

namespace Pot
namespace Classes

/-- **C114** every class that gets defined has a right order of resolution, whatever the `class` statements are. -/
theorem C114_order {T : List PyClass} (hn : (T.map PyClass.name).Nodup) (ho : "object" ∉ T.map PyClass.name) {M : Mros}
    (h : define builtins T = .ok M) {c : PyClass} (hc : c ∈ T) :
    ∃ l, M.lookup c.name = some l ∧ Spec.GoodOrder (basesOf T) (fun n => M.lookup n) c.name l := by
  obtain ⟨i1, _, i3⟩ := define_inv hn ho T builtins hn (fun _ h => h)
    (fun d hd => by
      cases hl : builtins.lookup d.name with
      | none => rfl
      | some l => exact (ho (List.mem_map.2 ⟨d, hd, (lookup_builtins hl).1⟩)).elim) (inv_builtins T) M h
  obtain ⟨l, hl⟩ := Option.isSome_iff_exists.1 (i3 c hc)
  exact ⟨l, hl, (i1 _ _ hl).1⟩

/-- **C114** a `class` statement whose bases are defined fails exactly if no order without repetition keeps the order of the bases and
those of all bases. -/
theorem C114_typeError (env : Mros) (c : PyClass) (hb : ∀ b ∈ effBases c, (env.lookup b).isSome) :
    linearize env c = .error .typeError ↔
      ¬ ∃ l : List String, l.Nodup ∧ (effBases c).Sublist l ∧ ∀ b ∈ effBases c, ∀ lb, env.lookup b = some lb → lb.Sublist l := by
  cases hl : linearize env c with
  | ok l =>
    obtain ⟨t, -, t1, t2, t3, -⟩ := linearize_ok hl
    refine ⟨fun h => (by cases h), fun h => (h ⟨t, t1, t2, fun b hbm lb e => ?_⟩).elim⟩
    obtain ⟨lb', e', hs⟩ := t3 b hbm
    rw [e] at e'
    cases e'
    exact hs
  | error e =>
    unfold linearize at hl
    split at hl
    · rename_i e' he
      exfalso
      clear hl
      revert hb he
      generalize effBases c = bs
      intro hb he
      induction bs with
      | nil => cases he
      | cons b bs ih =>
        rw [List.mapM_cons] at he
        obtain ⟨lb, hlb⟩ := Option.isSome_iff_exists.1 (hb b (by simp))
        simp only [baseMro, hlb] at he
        cases hr : bs.mapM (baseMro env) with
        | error e2 =>
          rw [hr] at he
          cases he
          exact ih (fun b' hb' => hb b' (by simp [hb'])) hr
        | ok ps =>
          rw [hr] at he
          cases he
    · rename_i ps hps
      obtain ⟨-, p2⟩ := mapM_baseMro hps
      split at hl
      · cases hl
      · rename_i hm
        cases hl
        refine ⟨fun _ => ?_, fun _ => rfl⟩
        rintro ⟨l, l1, l2, l3⟩
        refine merge_complete _ _ le_rfl hm ⟨l, l1, fun s hs => ?_⟩
        rw [List.mem_append, List.mem_singleton] at hs
        rcases hs with hs | rfl
        · obtain ⟨b, hbm, e⟩ := p2 s hs
          exact l3 b hbm s e
        · exact l2

/-- **C114** the definition that is found is not hidden: no other class of the object that defines the name is derived from the class it
is found in. -/
theorem C114_override {T : List PyClass} (hn : (T.map PyClass.name).Nodup) (ho : "object" ∉ T.map PyClass.name) {M : Mros}
    (h : define builtins T = .ok M) {c : String} {l : List String} (hl : M.lookup c = some l) {attr o x : String}
    (hf : owner T l attr = some o) (hx : owns T attr x = true) (hxl : Spec.Ancestor (basesOf T) c x) (hxo : x ≠ o) :
    ¬ Spec.Ancestor (basesOf T) x o := by
  intro ha
  obtain ⟨i1, _, _⟩ := define_inv hn ho T builtins hn (fun _ h => h)
    (fun d hd => by
      cases hl : builtins.lookup d.name with
      | none => rfl
      | some l => exact (ho (List.mem_map.2 ⟨d, hd, (lookup_builtins hl).1⟩)).elim) (inv_builtins T) M h
  obtain ⟨g, hs⟩ := i1 _ _ hl
  have hxm := (g.all x).2 hxl
  obtain ⟨lx, hlx⟩ := Option.isSome_iff_exists.1 (hs x hxm)
  have gx := (i1 _ _ hlx).1
  have hom := (gx.all o).2 ha
  have hfirst := gx.first
  refine find?_first (x := x) g.once hf hx (List.Sublist.trans ?_ (g.inherited x hxm lx hlx))
  cases lx with
  | nil => cases hfirst
  | cons a t =>
    simp only [List.head?_cons, Option.some.injEq] at hfirst
    subst hfirst
    rw [List.mem_cons] at hom
    rcases hom with e | hom
    · exact (hxo e.symm).elim
    · exact (List.singleton_sublist.2 hom).cons_cons _

/-- C114: the classes of the repository satisfy the hypotheses -/
theorem repo_defined : define builtins repoClasses = .ok repoMros ∧ (repoClasses.map PyClass.name).Nodup ∧
    "object" ∉ repoClasses.map PyClass.name := by decide +kernel

/-- **C114** the orders of resolution of the repository's classes that have more than one base above them. -/
theorem C114_repo :
    mroOf "PizzaSolver" = ["PizzaSolver", "Solver", "SolverExtend", "PsBasis", "PsGrid", "PsExtend", "PsInhomo", "PsDebug", "object"] ∧
    mroOf "Smooth_Sine" = ["Smooth_Sine", "SmoothProblem", "PizzaProblem", "Problem", "object"] ∧
    mroOf "Smooth_E" = ["Smooth_E", "SmoothProblem", "PizzaProblem", "Problem", "object"] ∧
    mroOf "Smooth_YCos" = ["Smooth_YCos", "SympyProblem", "SmoothProblem", "PizzaProblem", "Problem", "object"] ∧
    mroOf "SingularKnown" = ["SingularKnown", "SingularProblem", "PizzaProblem", "Problem", "object"] ∧
    mroOf "IZ_Bessel" = ["IZ_Bessel", "IH_Bessel", "SingIH_Problem", "PizzaProblem", "Problem", "object"] ∧
    mroOf "IHZ_Bessel_Line" = ["IHZ_Bessel_Line", "IH_Bessel", "SingIH_Problem", "PizzaProblem", "Problem", "object"] ∧
    mroOf "IHZ_Bessel_Quadratic" = ["IHZ_Bessel_Quadratic", "SingIH_Problem", "PizzaProblem", "Problem", "object"] ∧
    mroOf "DummySympyProblem" = ["DummySympyProblem", "SympyProblem", "PizzaProblem", "Problem", "object"] ∧
    mroOf "u_BVP" = ["u_BVP", "SympyProblem", "PizzaProblem", "Problem", "object"] ∧
    ∀ b ∈ ["Arc", "OuterSine", "InnerSine", "Sine7", "Cubic"], mroOf b = [b, "Boundary", "object"] := by decide +kernel

theorem owns_names {attr cls : String} (h : owns repoClasses attr cls = true) :
    attr ∈ "__init__" :: repoClasses.flatMap PyClass.own := by
  unfold owns at h
  rw [Bool.or_eq_true, Bool.and_eq_true, List.any_eq_true] at h
  rcases h with ⟨_, h⟩ | ⟨c, hc, h⟩
  · rw [List.mem_cons]
    exact Or.inl (by simpa using h)
  · rw [Bool.and_eq_true] at h
    rw [List.mem_cons]
    exact Or.inr (List.mem_flatMap.2 ⟨c, hc, by simpa using h.2⟩)

/-- **C114** no two of the classes of a solver define the same name, except `__init__` and `get_polar`, which only `Solver` and
`PizzaSolver` define. -/
theorem C114_solver_names {attr : String} (h : attr ≠ "__init__") :
    (∀ x ∈ mroOf "PizzaSolver", ∀ y ∈ mroOf "PizzaSolver", owns repoClasses attr x = true → owns repoClasses attr y = true → x = y) ∨
    attr = "get_polar" ∧ (mroOf "PizzaSolver").filter (owns repoClasses attr) = ["PizzaSolver", "Solver"] ∧
      superOwner repoClasses (mroOf "PizzaSolver") "PizzaSolver" attr = some "Solver" := by
  by_cases hm : attr ∈ "__init__" :: repoClasses.flatMap PyClass.own
  · revert h
    revert attr
    decide +kernel
  · left
    intro x _ y _ hx
    exact (hm (owns_names hx)).elim

/-- **C114** the order of the six bases of `PizzaSolver` does not matter for any name but `__init__`: with the bases in another order the
class gets the same definition for every name. -/
theorem C114_solver_order {bs : List String} (hp : bs.Perm ["Solver", "PsBasis", "PsGrid", "PsExtend", "PsInhomo", "PsDebug"])
    {c : PyClass} (hcn : c.name = "PizzaSolver") (hcb : c.bases = bs) {l : List String} (hl : linearize repoMros c = .ok l)
    {attr : String} (ha : attr ≠ "__init__") : owner repoClasses l attr = owner repoClasses (mroOf "PizzaSolver") attr := by
  have hne : bs ≠ [] := by
    rintro rfl
    exact absurd hp.length_eq (by decide)
  have he : effBases c = bs := by
    unfold effBases
    rw [hcb, if_neg hne]
  obtain ⟨t, rfl, t1, -, -, t4⟩ := linearize_ok hl
  rw [hcn]
  have hmem : ∀ x, x ∈ t ↔ x ∈ (mroOf "PizzaSolver").tail := by
    intro x
    rw [t4, he]
    have key : ∀ b, (∃ lb, repoMros.lookup b = some lb ∧ x ∈ lb) ↔ x ∈ mroOf b := by
      intro b
      unfold mroOf
      cases hlb : repoMros.lookup b with
      | none => simp
      | some lb => simp
    have d1 : ∀ b ∈ ["Solver", "PsBasis", "PsGrid", "PsExtend", "PsInhomo", "PsDebug"],
        b ∈ (mroOf "PizzaSolver").tail ∧ ∀ y ∈ mroOf b, y ∈ (mroOf "PizzaSolver").tail := by decide +kernel
    have d2 : ∀ y ∈ (mroOf "PizzaSolver").tail, ∃ b ∈ ["Solver", "PsBasis", "PsGrid", "PsExtend", "PsInhomo", "PsDebug"],
        y ∈ mroOf b := by decide +kernel
    constructor
    · rintro (h | ⟨b, hb, h⟩)
      · exact (d1 x (hp.mem_iff.1 h)).1
      · exact (d1 b (hp.mem_iff.1 hb)).2 x ((key b).1 h)
    · intro h
      obtain ⟨b, hb, h⟩ := d2 x h
      exact Or.inr ⟨b, hp.mem_iff.2 hb, (key b).2 h⟩
  have hmem' : ∀ x, x ∈ "PizzaSolver" :: t ↔ x ∈ mroOf "PizzaSolver" := by
    intro x
    rw [List.mem_cons, hmem, C114_repo.1]
    simp only [List.tail_cons, List.mem_cons]
  rcases C114_solver_names ha with hu | ⟨rfl, -, -⟩
  · unfold owner
    cases hf : (mroOf "PizzaSolver").find? (owns repoClasses attr) with
    | none =>
      rw [List.find?_eq_none] at hf ⊢
      intro x hx
      exact hf x ((hmem' x).1 hx)
    | some o =>
      have ho := List.mem_of_find?_eq_some hf
      have hp' := List.find?_some hf
      exact find?_unique ((hmem' o).2 ho) hp' fun x hx hxp => hu x ((hmem' x).1 hx) o ho hxp hp'
  · have h1 : owns repoClasses "get_polar" "PizzaSolver" = true := by decide +kernel
    rw [C114_repo.1]
    unfold owner
    rw [List.find?_cons, List.find?_cons, h1]

/-- **C114** a solver is constructed from one argument, and then the constructors of `PizzaSolver`, `Solver` and `PsBasis` run, the last
because `Solver` calls `super().__init__()`; any other arguments are a TypeError before anything runs. -/
theorem C114_solver_init (a : Args) : runInit initDefs (mroOf "PizzaSolver") a =
    if a = ⟨1, ∅⟩ ∨ a = ⟨0, {"options"}⟩ then (["PizzaSolver", "Solver", "PsBasis", "object"], none) else ([], some .typeError) := by
  have hchain : ∀ a : Args, runInit initDefs (mroOf "PizzaSolver") a =
      if accepts { required := ["options"] } a = true then (["PizzaSolver", "Solver", "PsBasis", "object"], none)
      else ([], some .typeError) := by
    intro a
    rw [C114_repo.1]
    split_ifs with h
    · exact runInit_go (a' := ⟨1, ∅⟩) (d := { required := ["options"], next := fun _ => some (.ok ⟨1, ∅⟩) }) rfl h rfl (by decide +kernel)
    · refine runInit_no (d := { required := ["options"], next := fun _ => some (.ok ⟨1, ∅⟩) }) rfl ?_
      rw [← Bool.not_eq_true]
      exact h
  rw [hchain]
  congr 1
  rw [eq_iff_iff]
  obtain ⟨p, kw⟩ := a
  simp only [accepts, List.append_nil, Bool.and_eq_true, Bool.or_eq_true, decide_eq_true_eq, List.all_eq_true, Args.mk.injEq,
    Bool.false_eq_true, false_or, List.length_singleton, List.toFinset_cons, List.toFinset_nil, insert_empty_eq]
  constructor
  · rintro ⟨⟨⟨h1, h2⟩, h3⟩, h4⟩
    have h5 := Finset.subset_singleton_iff.1 h4
    rcases Nat.le_one_iff_eq_zero_or_eq_one.1 h1 with rfl | rfl
    · right
      refine ⟨rfl, h5.resolve_left ?_⟩
      rintro rfl
      simpa using h2 "options" (by simp)
    · left
      refine ⟨rfl, h5.resolve_right ?_⟩
      rintro rfl
      simpa using h3 "options" (by simp)
  · rintro (⟨rfl, rfl⟩ | ⟨rfl, rfl⟩) <;> simp

/-- **C114** the problems: with keyword arguments only, whatever they are, exactly these constructors run and none fails; with a
positional argument there is a TypeError. -/
theorem C114_problem_init (p : ℕ) (kw : Finset String) :
    runInit initDefs (mroOf "Smooth_YCos") ⟨p, kw⟩ = (if p = 0 then (["Smooth_YCos", "SympyProblem", "PizzaProblem"], none)
      else ([], some .typeError)) ∧
    (∀ c ∈ ["Smooth_Sine", "Smooth_E"], runInit initDefs (mroOf c) ⟨p, kw⟩ = if p = 0 then (["PizzaProblem"], none)
      else ([], some .typeError)) ∧
    (∀ c ∈ ["IZ_Bessel", "IHZ_Bessel_Line"], runInit initDefs (mroOf c) ⟨p, kw⟩ = if p = 0 then (["IH_Bessel"], none)
      else ([], some .typeError)) ∧
    runInit initDefs (mroOf "IHZ_Bessel_Quadratic") ⟨p, kw⟩ = (if p = 0 then (["IHZ_Bessel_Quadratic"], none)
      else ([], some .typeError)) ∧
    runInit initDefs (mroOf "SingularKnown") ⟨p, kw⟩ = (if p = 0 then (["SingularKnown", "PizzaProblem"], none)
      else ([], some .typeError)) := by
  obtain ⟨-, h1, h2, h3, h4, h5, h6, h7, -⟩ := C114_repo
  by_cases h0 : p = 0
  · subst h0
    simp only [if_true]
    have hP : ∀ (cs : List String) (kw' : Finset String), runInit initDefs ("PizzaProblem" :: cs) ⟨0, kw'⟩ = (["PizzaProblem"], none) :=
      fun cs kw' => runInit_stop rfl (accepts_kwargs rfl rfl rfl rfl 0 kw') rfl
    refine ⟨?_, ?_, ?_, ?_, ?_⟩
    · rw [h3]
      refine runInit_go rfl (accepts_kwargs rfl rfl rfl rfl 0 kw) rfl (runInit_go (d := initSympy) rfl (accepts_kwargs rfl rfl rfl rfl 0 _)
        (a' := ⟨0, (insert "f_expr" kw).erase "f_expr"⟩) ?_ ?_)
      · unfold initSympy
        simp
      · rw [runInit_skip rfl]
        exact hP _ _
    · intro c hc
      simp only [List.mem_cons, List.not_mem_nil, or_false] at hc
      rcases hc with rfl | rfl
      · rw [h1, runInit_skip rfl, runInit_skip rfl]
        exact hP _ _
      · rw [h2, runInit_skip rfl, runInit_skip rfl]
        exact hP _ _
    · intro c hc
      simp only [List.mem_cons, List.not_mem_nil, or_false] at hc
      rcases hc with rfl | rfl
      · rw [h5, runInit_skip rfl]
        exact runInit_stop rfl (accepts_kwargs rfl rfl rfl rfl 0 kw) rfl
      · rw [h6, runInit_skip rfl]
        exact runInit_stop rfl (accepts_kwargs rfl rfl rfl rfl 0 kw) rfl
    · rw [h7]
      exact runInit_stop rfl (accepts_kwargs rfl rfl rfl rfl 0 kw) rfl
    · rw [h4]
      refine runInit_go rfl (accepts_kwargs rfl rfl rfl rfl 0 kw) rfl ?_
      rw [runInit_skip rfl]
      exact hP _ _
  · simp only [if_neg h0]
    have hf : ∀ {d : InitDef}, d.required = [] → d.optional = [] → d.star = false → d.kwargs = true → accepts d ⟨p, kw⟩ = false := by
      intro d e1 e2 e3 e4
      rw [accepts_kwargs e1 e2 e3 e4]
      simpa using h0
    refine ⟨?_, ?_, ?_, ?_, ?_⟩
    · rw [h3]
      exact runInit_no rfl (hf rfl rfl rfl rfl)
    · intro c hc
      simp only [List.mem_cons, List.not_mem_nil, or_false] at hc
      rcases hc with rfl | rfl
      · rw [h1, runInit_skip rfl, runInit_skip rfl]
        exact runInit_no rfl (hf rfl rfl rfl rfl)
      · rw [h2, runInit_skip rfl, runInit_skip rfl]
        exact runInit_no rfl (hf rfl rfl rfl rfl)
    · intro c hc
      simp only [List.mem_cons, List.not_mem_nil, or_false] at hc
      rcases hc with rfl | rfl
      · rw [h5, runInit_skip rfl]
        exact runInit_no rfl (hf rfl rfl rfl rfl)
      · rw [h6, runInit_skip rfl]
        exact runInit_no rfl (hf rfl rfl rfl rfl)
    · rw [h7]
      exact runInit_no rfl (hf rfl rfl rfl rfl)
    · rw [h4]
      exact runInit_no rfl (hf rfl rfl rfl rfl)

/-- **C114** of all calls of classes in the repository exactly the two calls of `PolarFD` in the scripts do not bind: they are a
TypeError. -/
theorem C114_calls : ∀ c ∈ calls, (runInit initDefs (mroOf c.2.1) c.2.2).2 =
    if c.1 = "scripts/zmethod/interp_test.py:35" ∨ c.1 = "scripts/polarfd/test.py:66" then some .typeError else none := by decide +kernel

/-- **C114** which class defines the four evaluations of a problem that call each other by default, and the flag that stops the
evaluation of the source: `Problem` for both of a pair means an endless recursion when it is called (C73). -/
theorem C114_evaluations : (("u_BVP" :: problemClasses).map fun c => (c, ["eval_f", "eval_f_polar", "eval_expected", "eval_expected_polar",
      "homogeneous"].filterMap (owner repoClasses (mroOf c)))) =
    [("u_BVP", ["Problem", "SympyProblem", "Problem", "u_BVP", "Problem"]),
      ("Smooth_Sine", ["Problem", "Problem", "Smooth_Sine", "Problem", "Smooth_Sine"]),
      ("Smooth_E", ["Problem", "Problem", "Smooth_E", "Problem", "Smooth_E"]),
      ("Smooth_YCos", ["Problem", "SympyProblem", "Smooth_YCos", "Problem", "Problem"]),
      ("IZ_Bessel", ["Problem", "Problem", "Problem", "IZ_Bessel", "Problem"]),
      ("IHZ_Bessel_Line", ["Problem", "Problem", "Problem", "Problem", "Problem"]),
      ("IHZ_Bessel_Quadratic", ["Problem", "Problem", "Problem", "Problem", "Problem"])] := by decide +kernel

/-- **C114** the order of the bases of `Smooth_YCos` does matter: with them exchanged its `super().__init__` ends in `PizzaProblem`, the
constructor of `SympyProblem` does not run, and the source is that of `Problem`, which calls itself without end. -/
theorem C114_ycos_order {own : List String} (hown : "eval_f_polar" ∉ own) :
    linearize repoMros ⟨"Smooth_YCos", ["SmoothProblem", "SympyProblem"], own⟩
      = .ok ["Smooth_YCos", "SmoothProblem", "PizzaProblem", "Problem", "SympyProblem", "object"] ∧
    (∀ kw, runInit initDefs ["Smooth_YCos", "SmoothProblem", "PizzaProblem", "Problem", "SympyProblem", "object"] ⟨0, kw⟩
      = (["Smooth_YCos", "PizzaProblem"], none)) ∧
    owner (⟨"Smooth_YCos", ["SmoothProblem", "SympyProblem"], own⟩ :: repoClasses.filter fun c => c.name != "Smooth_YCos")
      ["Smooth_YCos", "SmoothProblem", "PizzaProblem", "Problem", "SympyProblem", "object"] "eval_f_polar" = some "Problem" := by
  have hl : ∀ own own' : List String, linearize repoMros ⟨"Smooth_YCos", ["SmoothProblem", "SympyProblem"], own⟩
      = linearize repoMros ⟨"Smooth_YCos", ["SmoothProblem", "SympyProblem"], own'⟩ := fun _ _ => rfl
  refine ⟨?_, fun kw => ?_, ?_⟩
  · rw [hl own []]
    decide +kernel
  · refine runInit_go rfl (accepts_kwargs rfl rfl rfl rfl 0 kw) rfl ?_
    rw [runInit_skip rfl]
    exact runInit_stop rfl (accepts_kwargs rfl rfl rfl rfl 0 _) rfl
  · have hskip : ∀ (c : PyClass) (T : List PyClass) (x : String), owns (c :: T) "eval_f_polar" x =
        ((c.name == x && c.own.contains "eval_f_polar") || owns T "eval_f_polar" x) := by
      intro c T x
      unfold owns
      rw [List.any_cons]
      cases (x == "object" && "eval_f_polar" == "__init__") <;> simp
    have hc : own.contains "eval_f_polar" = false := by simpa using hown
    have hskip' : ∀ (T : List PyClass), owns (⟨"Smooth_YCos", ["SmoothProblem", "SympyProblem"], own⟩ :: T) "eval_f_polar"
        = owns T "eval_f_polar" := by
      intro T
      funext x
      rw [hskip]
      simp only [hc, Bool.and_false, Bool.false_or]
    unfold owner
    rw [hskip']
    decide +kernel

/-- C114: a `class` statement for which there is no order -/
example : linearize repoMros ⟨"X", ["Problem", "PizzaProblem"], []⟩ = .error .typeError := by decide +kernel

/-- C114: other orders of the bases of the solver that the class statement accepts -/
example : linearize repoMros ⟨"PizzaSolver", ["PsDebug", "PsInhomo", "PsExtend", "PsGrid", "PsBasis", "Solver"], []⟩ =
    .ok ["PizzaSolver", "PsDebug", "PsInhomo", "PsExtend", "PsGrid", "PsBasis", "Solver", "SolverExtend", "object"] := by decide +kernel

/-- C114: `C114_override` for `Smooth_YCos.eval_expected`, which `Problem` defines too -/
example : owner repoClasses (mroOf "Smooth_YCos") "eval_expected" = some "Smooth_YCos" ∧
    owns repoClasses "eval_expected" "Problem" = true ∧ "Problem" ∈ mroOf "Smooth_YCos" := by decide +kernel

end Classes
end Pot
