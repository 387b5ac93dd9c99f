/-
C116: when a name is read before it is bound (UnboundLocalError, NameError), for every function and module of the repository.
-/
import Verif.Model.NamesAll
import Verif.Proofs.Names

namespace Pot.Names

/-- the programs whose functions need names that the program binds only inside `if __name__ == '__main__'`, in a loop or in
another function -/
def programsOnly : List String := ["scripts/abcoef/bet_generate.py", "scripts/abcoef/expansion_error.py",
  "scripts/abcoef/generate_data.py", "scripts/extension_test.py", "scripts/plot_domain2.py", "scripts/polarfd/test.py",
  "scripts/test_extend_f.py"]

/-- scripts/optimize_basis.py:80 reads `min_t` -/
def minT : ℕ := 26

theorem funcs_checked : ∀ m ∈ modules, checkFuncs 0 m.funcs = true := by
  decide +kernel

theorem funcs_checked_minT : checkFuncs (mask [minT]) m_scripts_optimize_basis.funcs = true := by
  decide +kernel

theorem bodies_checked : ∀ m ∈ modules, checkBody 0 m = true ∨
    m.file = "scripts/optimize_basis.py" := by
  decide +kernel

theorem one_optimize : ∀ m ∈ modules, m.file = "scripts/optimize_basis.py" →
    checkBody (mask [minT]) m = true ∧ checkFuncs (mask [minT]) m.funcs = true ∧ m.globals[minT]? = some "min_t" := by
  decide +kernel

theorem uses_checked : ∀ m ∈ modules, checkUses (mask m.final) m.funcs = true ∨ m.file ∈ programsOnly := by
  decide +kernel

/-- What the model covers: the 59 files and their 257 functions and methods; the names taken to be bound from the start are
built-in. -/
theorem C116_tables :
    modules.length = 59 ∧ (modules.map fun m => m.funcs.length).sum = 257 ∧
    (modules.map (·.file)).Nodup ∧
    (∀ m ∈ modules, ∀ x ∈ m.globals.take m.init, x ∈ builtins) ∧
    (∀ m ∈ modules, ∀ f ∈ m.funcs, f.params ≤ f.locals.length ∧ f.cases ≠ []) := by
  decide +kernel

/-- **No function reads a name before it is bound**: in no execution of a function of the repository, whichever way its
tests go and however often its loops run, is a local variable or a module-level name read that is not bound, provided that
the module-level names the function needs are bound and that the parameter the listed tests look at has one of its
`cases` (sid in 0, 1, 2; order 2 or 4; `u=None` in color_plot; …). -/
theorem C116_functions :
    ∀ m ∈ modules, ∀ f ∈ m.funcs, ∀ v ∈ f.cases, ∀ g : Set ℕ, (∀ x ∈ f.uses, x ∈ g) → ∀ o, f.Runs m v g o →
      (∀ x, o ≠ .lostL x) ∧ ∀ x, o ≠ .lostG x := by
  intro m hm f hf v hv g hg o h
  have hF := func_sound (funcs_checked m hm) hf hv (g := g) hg h
  refine ⟨hF.2, fun x hx => ?_⟩
  have := hF.1 x hx
  simp at this

/-- **The modules themselves**: no execution of a module from its beginning (imports having succeeded) reads an unbound name,
in its own code or in the functions it calls meanwhile, except that scripts/optimize_basis.py:80 may read `min_t`; and when
it gets to its end, the names `final` are bound. -/
theorem C116_modules :
    ∀ m ∈ modules, ∀ o g, m.Runs o g →
      (∀ x, o ≠ .lostL x) ∧
      (∀ x, o = .lostG x → m.file = "scripts/optimize_basis.py" ∧ m.globals[x]? = some "min_t") ∧
      (o = .next → ∀ x ∈ m.final, x ∈ g) := by
  intro m hm o g h
  rcases bodies_checked m hm with hb | hb
  · have hF := module_sound (funcs_checked m hm) hb h
    refine ⟨hF.1.2, fun x hx => ?_, fun ho => hF.2 ho⟩
    have := hF.1.1 x hx
    simp at this
  · obtain ⟨h1, h2, h3⟩ := one_optimize m hm hb
    have hF := module_sound h2 h1 h
    refine ⟨hF.1.2, fun x hx => ⟨hb, ?_⟩, fun ho => hF.2 ho⟩
    have hx' := (testBit_mask [minT] x).1 (hF.1.1 x hx)
    rw [List.mem_singleton] at hx'
    rw [hx', h3]

/-- **Functions of imported modules**: once a module has been executed to its end, the module-level names its functions need
are bound, so that by `C116_functions` they read no unbound name when they are called from elsewhere.  This fails for
seven programs, which are not made to be imported. -/
theorem C116_imported :
    (∀ m ∈ modules, m.file ∉ programsOnly → ∀ g, m.Runs .next g → ∀ f ∈ m.funcs, ∀ v ∈ f.cases, ∀ g', g ⊆ g' →
      ∀ o, f.Runs m v g' o → (∀ x, o ≠ .lostL x) ∧ ∀ x, o ≠ .lostG x) ∧
    (∀ m ∈ modules, m.file ∈ programsOnly → ∃ f ∈ m.funcs, ∃ x ∈ f.uses, x ∉ m.final) := by
  refine ⟨?_, by decide +kernel⟩
  intro m hm hp g hg f hf v hv g' hgg o h
  have hu := (uses_checked m hm).resolve_right hp
  exact C116_functions m hm f hf v hv g'
    (fun x hx => hgg ((C116_modules m hm _ g hg).2.2 rfl x (checkUses_sub hu hf hx))) o h

theorem conditional_checked : ∀ c ∈ conditional, finds c.m c.f c.out = true ∧ c.f.body.within c.f.cases = true ∧
    decide (1000 ∈ c.f.cases) = false := by
  decide +kernel

theorem conditional_mem : ∀ c ∈ conditional, c.m ∈ modules ∧ c.f ∈ c.m.funcs := by
  unfold conditional
  simp only [List.forall_mem_cons]
  exact ⟨⟨List.mem_of_getElem? (i := 5) rfl, List.mem_of_getElem? (i := 1) rfl⟩,
    ⟨List.mem_of_getElem? (i := 14) rfl, List.mem_of_getElem? (i := 1) rfl⟩,
    ⟨List.mem_of_getElem? (i := 17) rfl, List.mem_of_getElem? (i := 2) rfl⟩,
    ⟨List.mem_of_getElem? (i := 18) rfl, List.mem_of_getElem? (i := 8) rfl⟩,
    ⟨List.mem_of_getElem? (i := 19) rfl, List.mem_of_getElem? (i := 3) rfl⟩,
    ⟨List.mem_of_getElem? (i := 19) rfl, List.mem_of_getElem? (i := 5) rfl⟩,
    ⟨List.mem_of_getElem? (i := 21) rfl, List.mem_of_getElem? (i := 1) rfl⟩,
    ⟨List.mem_of_getElem? (i := 21) rfl, List.mem_of_getElem? (i := 2) rfl⟩,
    ⟨List.mem_of_getElem? (i := 21) rfl, List.mem_of_getElem? (i := 4) rfl⟩,
    ⟨List.mem_of_getElem? (i := 21) rfl, List.mem_of_getElem? (i := 8) rfl⟩,
    ⟨List.mem_of_getElem? (i := 48) rfl, List.mem_of_getElem? (i := 5) rfl⟩,
    by simp⟩

theorem conditional_names : ∀ c ∈ conditional, (match c.out with
    | .lostL x => c.f.locals[x]?
    | .lostG x => c.m.globals[x]?
    | _ => none) = some c.name := by
  decide +kernel

theorem conditional_uses : ∀ c ∈ conditional, c.m.file ∉ programsOnly := by
  decide +kernel

/-- **Where a name can be unbound, and exactly when**: for the eleven functions of the list `conditional` an execution that
reads an unbound name exists if and only if the parameter is outside its `cases`; the listed name is then the one that is
read. Ten of them are local variables that no branch of an `if`/`elif` chain without `else` assigns
(`calc_eigenvals`, `eval_d_u_outwards`, `get_span_center`, `_ext_calc_xi_derivs`, `do_extend_taylor`, `extend_f`,
`_extend_inhomo_12_r`, `_extend_inhomo_0_lr`, `_extend_inhomo_radius`, `plot_allMK`); the eleventh is `matrices` in
`color_plot`, ps/debug.py:283, a module that ps/debug.py does not import. -/
theorem C116_conditional :
    ∀ c ∈ conditional, c.m ∈ modules ∧ c.f ∈ c.m.funcs ∧
      ((∃ x, c.out = .lostL x ∧ c.f.locals[x]? = some c.name) ∨ ∃ x, c.out = .lostG x ∧ c.m.globals[x]? = some c.name) ∧
      ∀ v, ((∃ o, ((∃ x, o = .lostL x) ∨ ∃ x, o = .lostG x) ∧ c.f.Runs c.m v (fun x => x ∈ c.m.final) o) ↔ v ∉ c.f.cases) ∧
        (v ∉ c.f.cases → c.f.Runs c.m v (fun x => x ∈ c.m.final) c.out) := by
  intro c hc
  obtain ⟨hm, hf⟩ := conditional_mem c hc
  obtain ⟨h1, h2, h3⟩ := conditional_checked c hc
  have hn := conditional_names c hc
  have hout : (∃ x, c.out = .lostL x ∧ c.f.locals[x]? = some c.name) ∨
      ∃ x, c.out = .lostG x ∧ c.m.globals[x]? = some c.name := by
    split at hn
    · next x hx => exact Or.inl ⟨x, hx, hn⟩
    · next x hx => exact Or.inr ⟨x, hx, hn⟩
    · simp at hn
  refine ⟨hm, hf, hout, fun v => ⟨⟨?_, ?_⟩, finds_runs h1 h2 h3⟩⟩
  · rintro ⟨o, ho, hr⟩ hv
    have hu := (uses_checked c.m hm).resolve_right (conditional_uses c hc)
    have hs := C116_functions c.m hm c.f hf v hv _ (fun x hx => checkUses_sub hu hf hx) o hr
    rcases ho with ⟨x, hx⟩ | ⟨x, hx⟩
    · exact hs.1 x hx
    · exact hs.2 x hx
  · intro hv
    refine ⟨c.out, ?_, finds_runs h1 h2 h3 hv⟩
    rcases hout with ⟨x, hx, _⟩ | ⟨x, hx, _⟩
    · exact Or.inl ⟨x, hx⟩
    · exact Or.inr ⟨x, hx⟩

theorem others_checked : ∀ m ∈ modules, ∀ f ∈ m.funcs,
    (m.file, f.name) ∈ conditional.map (fun c => (c.m.file, c.f.name)) ∨
    ((an 0 m.funcs 1000 f.body (mask f.uses, mask (List.range f.params))).isSome = true ∧ f.body.within f.cases = true ∧
      1000 ∉ f.cases) := by
  decide +kernel

/-- **All other functions**: the remaining 246 functions read no unbound name whatever their arguments are. -/
theorem C116_others :
    (∀ m ∈ modules, ∀ f ∈ m.funcs, (m.file, f.name) ∉ conditional.map (fun c => (c.m.file, c.f.name)) →
      ∀ v, ∀ g : Set ℕ, (∀ x ∈ f.uses, x ∈ g) → ∀ o, f.Runs m v g o → (∀ x, o ≠ .lostL x) ∧ ∀ x, o ≠ .lostG x) ∧
    conditional.length = 11 := by
  refine ⟨?_, rfl⟩
  intro m hm f hf hn v g hg o h
  by_cases hv : v ∈ f.cases
  · exact C116_functions m hm f hf v hv g hg o h
  · obtain ⟨h1, h2, h3⟩ := (others_checked m hm f hf).resolve_left hn
    obtain ⟨s', h⟩ := h
    have h' := exec_other hv h3 h h2
    obtain ⟨r, hr⟩ := Option.isSome_iff_exists.1 h1
    have hs : Sub (mask f.uses, mask (List.range f.params)) ⟨g, setOf (List.range f.params)⟩ := by
      refine ⟨?_, ?_⟩
      · change bits (mask f.uses) ⊆ g
        rw [bits_mask]
        exact hg
      · change bits (mask _) ⊆ setOf _
        rw [bits_mask]
    have hF := (sound (funcs_checked m hm) h' _ r hr hs).1
    refine ⟨hF.2, fun x hx => ?_⟩
    have := hF.1 x hx
    simp at this

/-- **scripts/optimize_basis.py:80**: there is an execution that reads `min_t` unbound (no result below infinity). -/
theorem C116_optimize_basis :
    m_scripts_optimize_basis ∈ modules ∧ m_scripts_optimize_basis.globals[minT]? = some "min_t" ∧
    ∃ g, m_scripts_optimize_basis.Runs (.lostG minT) g := by
  refine ⟨List.mem_of_getElem? (i := 47) rfl, by decide +kernel, ?_⟩
  have h : (reach 0 m_scripts_optimize_basis.body (mask (List.range m_scripts_optimize_basis.init), 0)).any
      (fun p => decide (p.1 = .lostG minT)) = true := by decide +kernel
  rw [List.any_eq_true] at h
  obtain ⟨p, hp, ho⟩ := h
  have he := reach_exec m_scripts_optimize_basis.funcs 0 _ _ p hp
  rw [of_decide_eq_true ho] at he
  have e : stOf (mask (List.range m_scripts_optimize_basis.init), 0) =
      ⟨setOf (List.range m_scripts_optimize_basis.init), ∅⟩ := by
    unfold stOf
    rw [bits_mask]
    congr 1
    ext x
    change (0 : ℕ).testBit x = true ↔ False
    simp
  rw [e] at he
  exact ⟨_, _, he⟩

/-! ## the hypotheses are met -/

/-- a function of the search that ends in `o` does run -/
theorem runs_of_reach {m : Module} {f : Func} {v : ℕ} {o : Out}
    (h : (reach v f.body (mask m.final, mask (List.range f.params))).any (fun p => decide (p.1 = o)) = true) :
    f.Runs m v (fun x => x ∈ m.final) o := by
  rw [List.any_eq_true] at h
  obtain ⟨p, hp, ho⟩ := h
  have he := reach_exec m.funcs v f.body _ p hp
  rw [of_decide_eq_true ho] at he
  have e : stOf (mask m.final, mask (List.range f.params)) = ⟨fun x => x ∈ m.final, setOf (List.range f.params)⟩ := by
    unfold stOf
    rw [bits_mask, bits_mask]
    rfl
  rw [e] at he
  exact ⟨_, he⟩

/-- the eleven functions return (or get to their end) for the values in `cases` -/
example : ∀ c ∈ conditional, ∀ v ∈ c.f.cases, ∃ o, (o = .ret ∨ o = .next) ∧ c.f.Runs c.m v (fun x => x ∈ c.m.final) o := by
  intro c hc v hv
  have h : ∀ c ∈ conditional, ∀ v ∈ c.f.cases, ∃ o ∈ [Out.ret, .next],
      (reach v c.f.body (mask c.m.final, mask (List.range c.f.params))).any (fun p => decide (p.1 = o)) = true := by
    decide +kernel
  obtain ⟨o, ho, hr⟩ := h c hc v hv
  refine ⟨o, ?_, runs_of_reach hr⟩
  simpa using ho

/-- and sid = 3 in `get_span_center` is an execution that reads `span` unbound -/
example : f_ps_basis_2.Runs m_ps_basis 3 (fun x => x ∈ m_ps_basis.final) (.lostL 3) :=
  runs_of_reach (by decide +kernel)

/-- ps/basis.py can be executed to its end -/
example : ∃ g, m_ps_basis.Runs .next g := by
  have h : (reach 0 m_ps_basis.body (mask (List.range m_ps_basis.init), 0)).any
      (fun p => decide (p.1 = .next)) = true := by decide +kernel
  rw [List.any_eq_true] at h
  obtain ⟨p, hp, ho⟩ := h
  have he := reach_exec m_ps_basis.funcs 0 _ _ p hp
  rw [of_decide_eq_true ho] at he
  have e : stOf (mask (List.range m_ps_basis.init), 0) = ⟨setOf (List.range m_ps_basis.init), ∅⟩ := by
    unfold stOf
    rw [bits_mask]
    congr 1
    ext x
    change (0 : ℕ).testBit x = true ↔ False
    simp
  rw [e] at he
  exact ⟨_, _, he⟩

end Pot.Names
