import Verif.Proofs.Calls
import Mathlib.Data.List.Nodup

/-!
# C117: arguments fit parameters, and the keys read from `kwargs` are there

A call whose arguments do not fit the parameters of the function ends in `TypeError`; a function that reads a key its `kwargs` do not have
ends in `KeyError`.  The `kwargs` of the extension functions are passed on through several functions, so whether a key is there depends on
the whole chain of calls.
-/

namespace Spec

/-- `n` positional arguments and the keywords `ks` fit a function with parameters `ps`, the first `req` of them without default, with or
without `*args` and `**kwargs`: the positional arguments are not too many; no keyword is repeated; every keyword is the name of a parameter
that no positional argument fills, or no name of a parameter and taken by `**kwargs`; every parameter without default gets an argument -/
structure ArgsFit (ps : List ℕ) (req : ℕ) (vararg kwarg : Bool) (n : ℕ) (ks : List ℕ) : Prop where
  count : vararg = false → n ≤ ps.length
  once : ks.Nodup
  known : ∀ k ∈ ks, (∃ i, n ≤ i ∧ ps[i]? = some k) ∨ (k ∉ ps ∧ kwarg = true)
  full : ∀ i < req, n ≤ i → ∀ p, ps[i]? = some p → p ∈ ks

end Spec

namespace Pot
namespace Calls

variable {V : Type}

theorem fits_iff {s : Sig} {n : ℕ} {ks : List ℕ} :
    Fits s n ks ↔ Spec.ArgsFit s.params s.req s.vararg s.kwarg n ks := by
  have hd : ∀ k, k ∈ s.params.drop n ↔ ∃ i, n ≤ i ∧ s.params[i]? = some k := fun k => by
    rw [List.mem_iff_getElem?]
    constructor
    · rintro ⟨i, hi⟩
      rw [List.getElem?_drop] at hi
      exact ⟨n + i, by omega, hi⟩
    · rintro ⟨i, h1, h2⟩
      exact ⟨i - n, by rw [List.getElem?_drop, show n + (i - n) = i by omega]; exact h2⟩
  have hr : ∀ p, p ∈ (s.params.take s.req).drop n ↔ ∃ i, i < s.req ∧ n ≤ i ∧ s.params[i]? = some p := fun p => by
    rw [List.mem_iff_getElem?]
    constructor
    · rintro ⟨i, hi⟩
      rw [List.getElem?_drop, List.getElem?_take] at hi
      split_ifs at hi with h
      exact ⟨n + i, h, by omega, hi⟩
    · rintro ⟨i, h1, h2, h3⟩
      refine ⟨i - n, ?_⟩
      rw [List.getElem?_drop, show n + (i - n) = i by omega, List.getElem?_take, if_pos h1, h3]
  constructor
  · rintro ⟨h1, h2, h3, h4⟩
    exact ⟨fun h => h1.resolve_right (by rw [h]; exact Bool.noConfusion), h2, fun k hk => (h3 k hk).imp (hd k).1 id,
      fun i hi hn p hp => h4 p ((hr p).2 ⟨i, hi, hn, hp⟩)⟩
  · rintro ⟨h1, h2, h3, h4⟩
    refine ⟨?_, h2, fun k hk => (h3 k hk).imp (hd k).2 id, fun p hp => ?_⟩
    · cases hv : s.vararg with
      | true => exact Or.inr rfl
      | false => exact Or.inl (h1 hv)
    · obtain ⟨i, hi, hn, hp⟩ := (hr p).1 hp
      exact h4 i hi hn p hp

/-- **C117**: for every signature with distinct parameters and all arguments, the interpreter's matching succeeds exactly if the arguments
fit. -/
theorem C117_bind (s : Sig) (hs : s.params.Nodup) (args : List V) (kw : List (ℕ × V)) :
    (∃ F, bind s args kw = .ok F) ↔
      Spec.ArgsFit s.params s.req s.vararg s.kwarg args.length (kw.map Prod.fst) := by
  rw [← fits_iff]
  exact ⟨fun ⟨_, h⟩ => bind_inv hs h, fun h => ⟨_, bind_ok hs h⟩⟩

/-- **C117**: what the parameters get.  The `i`-th positional argument goes to the `i`-th parameter, a keyword argument to the parameter of
that name, positional arguments beyond the parameters to `*args`, and exactly the keyword arguments that name no parameter to `**kwargs`; a
parameter without default gets something, and no parameter gets two things. -/
theorem C117_bind_values (s : Sig) (hs : s.params.Nodup) (args : List V) (kw : List (ℕ × V)) (F : Frame V)
    (h : bind s args kw = .ok F) :
    (∀ p v, (p, v) ∈ F.loc ↔ (∃ i : ℕ, s.params[i]? = some p ∧ args[i]? = some v) ∨ ((p, v) ∈ kw ∧ p ∈ s.params)) ∧
    F.rest = args.drop s.params.length ∧
    (∀ k v, (k, v) ∈ F.extra ↔ (k, v) ∈ kw ∧ k ∉ s.params) ∧
    (∀ i < s.req, ∀ p, s.params[i]? = some p → ∃ v, (p, v) ∈ F.loc) ∧
    (F.loc.map Prod.fst).Nodup ∧ (F.extra.map Prod.fst).Nodup := by
  have hfit := bind_inv hs h
  have hsp := fits_iff.1 hfit
  rw [bind_ok hs hfit] at h
  have hF := Except.ok.inj h
  have hl : ∀ p v, (p, v) ∈ F.loc ↔
      (∃ i : ℕ, s.params[i]? = some p ∧ args[i]? = some v) ∨ ((p, v) ∈ kw ∧ p ∈ s.params) := fun p v => by
    rw [← hF]
    simp only [List.mem_append, named, List.mem_filter, decide_eq_true_eq]
    refine or_congr ?_ Iff.rfl
    rw [List.mem_iff_getElem?]
    refine exists_congr fun i => ?_
    rw [List.getElem?_zip_eq_some]
  refine ⟨hl, by rw [← hF], fun k v => by rw [← hF]; simp [others], ?_, ?_, ?_⟩
  · intro i hi p hp
    by_cases hn : args.length ≤ i
    · have := hsp.full i hi hn p hp
      rw [List.mem_map] at this
      obtain ⟨⟨q, v⟩, h1, h2⟩ := this
      simp only at h2
      subst h2
      exact ⟨v, (hl _ _).2 (Or.inr ⟨h1, List.mem_of_getElem? hp⟩)⟩
    · refine ⟨args[i]'(by omega), (hl _ _).2 (Or.inl ⟨i, hp, ?_⟩)⟩
      rw [List.getElem?_eq_getElem]
  · rw [← hF]
    simp only [List.map_append, zip_fst]
    rw [List.nodup_append]
    refine ⟨hs.sublist (List.take_sublist _ _), filter_fst_nodup _ hfit.nodup, ?_⟩
    rintro a ha b hb rfl
    rw [mem_named_fst] at hb
    rcases hfit.known a hb.1 with h1 | h1
    · exact not_both hs ha h1
    · exact h1.1 hb.2
  · rw [← hF]
    exact filter_fst_nodup _ hfit.nodup

/-- `f(a, b=2, **{'d': 4})` for `def f(a, b, c=0, **kwargs)`, with the names as 0, 1, 2, 3 -/
example : bind ⟨[0, 1, 2], 2, false, true⟩ [10] [(1, 20), (3, 40)] = .ok ⟨[(0, 10), (1, 20)], [], [(3, 40)]⟩ := rfl
/-- `f(a, a=1)`, `f(1, 2, 3, 4)`, `f(1)`, and a keyword that a function without `**kwargs` does not know -/
example : bind ⟨[0, 1, 2], 2, false, true⟩ [10] [(0, 20)] = .error (.multiple 0) ∧
    bind ⟨[0, 1, 2], 2, false, true⟩ [1, 2, 3, 4] [] = .error .tooMany ∧
    bind ⟨[0, 1, 2], 2, false, true⟩ [1] [] = .error (.missing 1) ∧
    bind ⟨[0, 1, 2], 2, false, false⟩ [1, 2] [(3, 40)] = .error (.unexpected 3) ∧
    bind ⟨[0, 1, 2], 2, false, true⟩ [1, 2] [(3, 40), (3, 41)] = .error .duplicate := ⟨rfl, rfl, rfl, rfl, rfl⟩

/-! ## The tables -/

/-- the functions that read keys -/
def readers : ℕ → List Fn → List ℕ
  | _, [] => []
  | i, f :: l => if f.needs.isEmpty then readers (i + 1) l else i :: readers (i + 1) l

theorem mem_readers : ∀ (l : List Fn) (i t : ℕ) (f : Fn), l[t]? = some f → f.needs ≠ [] → i + t ∈ readers i l
  | [], _, _, _, h, _ => by simp at h
  | g :: l, i, 0, f, h, hn => by
    simp only [List.getElem?_cons_zero, Option.some.injEq] at h
    subst h
    rw [readers, if_neg (by simpa using hn)]
    simp
  | g :: l, i, t + 1, f, h, hn => by
    rw [List.getElem?_cons_succ] at h
    have := mem_readers l (i + 1) t f h hn
    rw [show i + (t + 1) = i + 1 + t by omega, readers]
    split_ifs
    · exact this
    · exact List.mem_cons_of_mem _ this

theorem calls_checked : ∀ c ∈ calls, checkCall c = true := by
  have h : (calls.all checkCall) = true := by decide +kernel
  exact fun c hc => List.all_eq_true.1 h c hc

theorem fns_checked : checkFns 0 fns = true := by decide +kernel

/-- the signatures of the functions of the calls that do not fit -/
theorem misfits_refused : ∀ c ∈ misfits, Refused c := by
  have h : ∀ c ∈ misfits, c.fwd = false ∧ ∀ t ∈ c.targets, ∃ f, fns[t]? = some f ∧ ¬ Fits f.sig c.npos c.kws := by
    intro c hc
    simp only [misfits, List.mem_cons, List.not_mem_nil, or_false] at hc
    rcases hc with rfl | rfl | rfl
    · refine ⟨rfl, fun t ht => ?_⟩
      obtain rfl := List.mem_singleton.1 ht
      refine ⟨_, rfl, fun h => ?_⟩
      exact absurd (h.full Key.sid (by decide)) (by decide)
    · refine ⟨rfl, fun t ht => ?_⟩
      obtain rfl := List.mem_singleton.1 ht
      refine ⟨_, rfl, fun h => ?_⟩
      exact absurd (h.full Key.sid (by decide)) (by decide)
    · refine ⟨rfl, fun t ht => ?_⟩
      obtain rfl := List.mem_singleton.1 ht
      refine ⟨_, rfl, fun h => ?_⟩
      exact absurd h.count (by decide)
  intro c hc
  refine ⟨(h c hc).1, fun t ht f hf => ?_⟩
  obtain ⟨f', h1, h2⟩ := (h c hc).2 t ht
  rw [hf] at h1
  rw [Option.some.inj h1]
  exact h2

/-- the sizes of the tables; every call has a target, all targets and callers are functions of the table, and a call passes `kwargs` on only
in a function that has some -/
theorem C117_tables : fns.length = 281 ∧ calls.length = 483 ∧ misfits.length = 3 ∧
    (∀ f ∈ fns, f.sig.params.Nodup ∧ f.sig.req ≤ f.sig.params.length ∧ (f.sig.kwarg = false → f.needs = [])) ∧
    (∀ c ∈ calls ++ misfits, c.targets ≠ [] ∧ (∀ t ∈ c.targets, t < fns.length) ∧
      (∀ g, c.caller = some g → ∃ f, fns[g]? = some f ∧ (c.fwd = true → f.sig.kwarg = true)) ∧
      (c.fwd = true → c.caller ≠ none)) := by
  have hA : fns.length = 281 ∧ calls.length = 483 ∧ misfits.length = 3 := by decide +kernel
  have h1 : (fns.all fun f => nodupB f.sig.params && Nat.ble f.sig.req f.sig.params.length && (f.sig.kwarg || f.needs.isEmpty)) = true := by
    decide +kernel
  have h2 : ((calls ++ misfits).all fun c => !c.targets.isEmpty && c.targets.all (fun t => Nat.blt t 281) &&
      (match c.caller with
        | none => !c.fwd
        | some g => match fns[g]? with
          | none => false
          | some f => !c.fwd || f.sig.kwarg)) = true := by decide +kernel
  refine ⟨hA.1, hA.2.1, hA.2.2, fun f hf => ?_, fun c hc => ?_⟩
  · have := List.all_eq_true.1 h1 f hf
    simp only [Bool.and_eq_true, Bool.or_eq_true, nodupB_iff, List.isEmpty_iff] at this
    exact ⟨this.1.1, Nat.le_of_ble_eq_true this.1.2, fun h => this.2.resolve_left (by rw [h]; exact Bool.noConfusion)⟩
  · have := List.all_eq_true.1 h2 c hc
    simp only [Bool.and_eq_true, List.all_eq_true, Bool.not_eq_true'] at this
    obtain ⟨⟨a1, a2⟩, a3⟩ := this
    refine ⟨fun h => by rw [h] at a1; exact Bool.noConfusion a1, fun t ht => ?_, fun g hg => ?_, fun hf hn => ?_⟩
    · rw [hA.1]
      exact Nat.le_of_ble_eq_true (a2 t ht)
    · rw [hg] at a3
      simp only at a3
      split at a3
      · exact Bool.noConfusion a3
      · rename_i f hf
        refine ⟨f, hf, fun h => ?_⟩
        rw [h] at a3
        simpa using a3
    · rw [hn, hf] at a3
      exact Bool.noConfusion a3

/-- **C117**: every call outside `misfits`, in whatever chain of calls it is made and whatever the values of its arguments, binds its
arguments; so it does not end in `TypeError` on entry. -/
theorem C117_calls {c : Call} (hc : c ∈ calls) {t : ℕ} (ht : t ∈ c.targets) {f : Fn} (hf : fns[t]? = some f)
    {args : List V} {kw : List (ℕ × V)} (h : Made c args kw) :
    Spec.ArgsFit f.sig.params f.sig.req f.sig.vararg f.sig.kwarg args.length (kw.map Prod.fst) ∧
      ∃ F, bind f.sig args kw = .ok F := by
  have hs : f.sig.params.Nodup := (C117_tables.2.2.2.1 f (List.mem_of_getElem? hf)).1
  have := made_fits calls_checked misfits_refused fns_checked hc ht hf h
  exact ⟨fits_iff.1 this, _, bind_ok hs this⟩

/-- **C117**: the calls of `misfits` never bind their arguments, whatever the values: scripts/plot_domain2.py:58 and :77 call `plot_Gamma`
without `sid`, scripts/polarfd/test.py:67 passes too many arguments to `PolarFD.solve`. -/
theorem C117_misfits {c : Call} (hc : c ∈ misfits) {t : ℕ} (ht : t ∈ c.targets) {f : Fn} (hf : fns[t]? = some f)
    {args : List V} {kw : List (ℕ × V)} (h : Made c args kw) :
    (bind f.sig args kw = .error (.missing Key.sid) ∧ (c.place = "scripts/plot_domain2.py:58" ∨ c.place = "scripts/plot_domain2.py:77")) ∨
    (bind f.sig args kw = .error .tooMany ∧ c.place = "scripts/polarfd/test.py:67") := by
  have hfwd := (misfits_refused c hc).1
  cases h with
  | forward h1 => rw [hfwd] at h1; exact Bool.noConfusion h1
  | plain _ h2 h3 =>
    simp only [misfits, List.mem_cons, List.not_mem_nil, or_false] at hc
    rcases hc with rfl | rfl | rfl
    · left
      obtain rfl := List.mem_singleton.1 ht
      have hf := Option.some.inj hf
      subst hf
      obtain rfl := List.map_eq_nil_iff.1 h3
      obtain rfl := List.length_eq_zero_iff.1 h2
      exact ⟨rfl, Or.inl rfl⟩
    · left
      obtain rfl := List.mem_singleton.1 ht
      have hf := Option.some.inj hf
      subst hf
      obtain rfl := List.map_eq_nil_iff.1 h3
      obtain rfl := List.length_eq_zero_iff.1 h2
      exact ⟨rfl, Or.inr rfl⟩
    · right
      obtain rfl := List.mem_singleton.1 ht
      have hf := Option.some.inj hf
      subst hf
      obtain rfl := List.map_eq_nil_iff.1 h3
      refine ⟨?_, rfl⟩
      simp only at h2
      rw [bind, if_pos (by simp)]
      simp only [bindKw]
      rw [finish, if_pos (by rw [h2]; decide)]

/-- **C117**: whenever a chain of calls leads to a function, all keys that the function reads from its `kwargs` are there; so there is no
`KeyError`. -/
theorem C117_kwargs {t : ℕ} {f : Fn} (hf : fns[t]? = some f) {E : List (ℕ × V)} (h : Called t E) :
    ∀ k ∈ f.needs, ∃ v, (k, v) ∈ E := by
  intro k hk
  have hw := called_within calls_checked misfits_refused fns_checked h
  have hc := checkFns_get fns 0 t f fns_checked hf
  rw [checkFn, Bool.and_eq_true, List.all_eq_true] at hc
  have := hc.2 k hk
  rw [mem_iff, Nat.zero_add] at this
  obtain ⟨⟨a, v⟩, h1, h2⟩ := List.mem_map.1 (hw.lower k this)
  simp only at h2
  subst h2
  exact ⟨v, h1⟩

/-! ## The functions that read keys are reached -/

theorem reach_plain (i t : ℕ) {c : Call} {f : Fn} {args : List V} {kw : List (ℕ × V)} {F : Frame V} (hc : calls[i]? = some c)
    (ht : t ∈ c.targets) (hf : fns[t]? = some f) (h1 : c.fwd = false) (h2 : args.length = c.npos) (h3 : kw.map Prod.fst = c.kws)
    (hb : bind f.sig args kw = .ok F) : Called t F.extra :=
  .plain (List.mem_append_left _ (List.mem_of_getElem? hc)) ht hf h1 h2 h3 hb

theorem reach_forward (i g t : ℕ) {c : Call} {f : Fn} {args : List V} {kw E : List (ℕ × V)} {F : Frame V} (hE : Called g E)
    (hc : calls[i]? = some c) (ht : t ∈ c.targets) (hf : fns[t]? = some f) (h1 : c.fwd = true) (hg : c.caller = some g)
    (h2 : args.length = c.npos) (h3 : kw.map Prod.fst = c.kws) (hb : bind f.sig args (kw ++ passedOn c E) = .ok F) :
    Called t F.extra :=
  .forward (List.mem_append_left _ (List.mem_of_getElem? hc)) ht hf h1 hg hE h2 h3 hb

/-- the chain ps/extend.py:412, :362, :194, :170: `do_extend_2_right`, `do_extend_taylor`, `ext_calc_xi_derivs`, `_ext_calc_xi_derivs`; the
`kwargs` of the last have just `JJ` and `basis_index`, with the values of the first call -/
theorem C117_chain (jj ix : V) (x : V) : Called 115 [(Key.JJ, jj), (Key.basis_index, ix)] := by
  have h1 : Called 127 [(Key.JJ, jj), (Key.basis_index, ix)] :=
    reach_plain 140 127 (args := [x, x]) (kw := [(Key.JJ, jj), (Key.basis_index, ix)]) rfl (by simp) rfl rfl rfl rfl rfl
  have h2 : Called 117 [(Key.JJ, jj), (Key.basis_index, ix)] :=
    reach_forward 129 127 117 (args := [x, x]) (kw := [(Key.arg, x), (Key.taylor_sid, x), (Key.delta_arg, x), (Key.n, x)]) h1 rfl
      (by simp) rfl rfl rfl rfl rfl rfl
  have h3 : Called 116 [(Key.JJ, jj), (Key.basis_index, ix)] :=
    reach_forward 101 117 116 (args := [x, x, x]) (kw := [(Key.human_readable_keys, x)]) h2 rfl (by simp) rfl rfl rfl rfl rfl rfl
  exact reach_forward 100 116 115 (args := [x, x, x]) (kw := [(Key.human_readable_keys, x)]) h3 rfl (by simp) rfl rfl rfl rfl rfl rfl

/-- **C117**: each of the six functions that read keys is reached by some chain of calls -/
theorem C117_reached (x : V) : ∀ t f, fns[t]? = some f → f.needs ≠ [] → ∃ E : List (ℕ × V), Called t E := by
  have h17 : ∃ E : List (ℕ × V), Called 17 E := ⟨_, reach_plain 105 17 (args := ([] : List V))
    (kw := [(Key.n, x), (Key.curv, x), (Key.d_curv_th, x), (Key.d2_curv_th, x), (Key.d_th_s, x), (Key.d2_th_s, x), (Key.d3_th_s, x),
      (Key.d4_th_s, x), (Key.xi0, x), (Key.xi1, x), (Key.d_xi0_th, x), (Key.d_xi1_th, x), (Key.d2_xi0_th, x), (Key.d2_xi1_th, x),
      (Key.d3_xi0_th, x), (Key.d4_xi0_th, x)]) rfl (by simp) rfl rfl rfl rfl rfl⟩
  have h21 : ∃ E : List (ℕ × V), Called 21 E := ⟨_, reach_plain 2 21 (args := ([] : List V))
    (kw := [(Key.n, x), (Key.xi0, x), (Key.xi1, x), (Key.d_xi0_s, x), (Key.d_xi1_s, x), (Key.d2_xi0_s, x), (Key.d2_xi1_s, x),
      (Key.d4_xi0_s, x), (Key.curv, x), (Key.d_curv_s, x), (Key.d2_curv_s, x)]) rfl (by simp) rfl rfl rfl rfl rfl⟩
  have h22 : Called 22 [(Key.n, x), (Key.f, x), (Key.d_f_n, x), (Key.d2_f_n, x), (Key.d_f_th, x), (Key.d2_f_th, x), (Key.d_f_r, x),
      (Key.d2_f_r, x), (Key.d2_f_r_th, x), (Key.d_th_s, x), (Key.d2_th_s, x), (Key.d_r_th, x), (Key.d2_r_th, x), (Key.curv, x)] :=
    reach_plain 179 22 (args := ([] : List V)) (kw := [(Key.n, x), (Key.f, x), (Key.d_f_n, x), (Key.d2_f_n, x), (Key.d_f_th, x),
      (Key.d2_f_th, x), (Key.d_f_r, x), (Key.d2_f_r, x), (Key.d2_f_r_th, x), (Key.d_th_s, x), (Key.d2_th_s, x), (Key.d_r_th, x),
      (Key.d2_r_th, x), (Key.curv, x)]) rfl (by simp) rfl rfl rfl rfl rfl
  have h23 : ∃ E : List (ℕ × V), Called 23 E := ⟨_, reach_forward 10 22 23 (args := ([] : List V)) (kw := [(Key.d2_f_s, x)]) h22 rfl
    (by simp) rfl rfl rfl rfl rfl rfl⟩
  have h114 : ∃ E : List (ℕ × V), Called 114 E := ⟨_, reach_plain 104 114 (args := ([] : List V))
    (kw := [(Key.n, x), (Key.xi0, x), (Key.xi1, x), (Key.d_xi0_arg, x), (Key.d_xi1_arg, x), (Key.d2_xi0_arg, x), (Key.d2_xi1_arg, x),
      (Key.d3_xi0_arg, x), (Key.d3_xi1_arg, x), (Key.d4_xi0_arg, x), (Key.d4_xi1_arg, x)]) rfl (by simp) rfl rfl rfl rfl rfl⟩
  have hall : readers 0 fns = [17, 21, 22, 23, 114, 115] := by decide +kernel
  intro t f hf hn
  have := mem_readers fns 0 t f hf hn
  rw [hall, Nat.zero_add] at this
  simp only [List.mem_cons, List.not_mem_nil, or_false] at this
  rcases this with rfl | rfl | rfl | rfl | rfl | rfl
  · exact h17
  · exact h21
  · exact ⟨_, h22⟩
  · exact h23
  · exact h114
  · exact ⟨_, C117_chain x x x⟩

/-- the call ps/extend.py:170 meets the hypotheses of `C117_calls` with the `kwargs` of a chain of three calls -/
example : ∃ c f, c ∈ calls ∧ c.place = "ps/extend.py:170" ∧ 115 ∈ c.targets ∧ fns[115]? = some f ∧
    ∃ args kw, Made (V := ℕ) c args kw ∧ kw.map Prod.fst = [Key.human_readable_keys, Key.JJ, Key.basis_index] := by
  have h1 : Called (V := ℕ) 127 [(Key.JJ, 3), (Key.basis_index, 0)] :=
    reach_plain 140 127 (args := [1, 2]) (kw := [(Key.JJ, 3), (Key.basis_index, 0)]) rfl (by simp) rfl rfl rfl rfl rfl
  have h2 : Called (V := ℕ) 117 [(Key.JJ, 3), (Key.basis_index, 0)] :=
    reach_forward 129 127 117 (args := [1, 2]) (kw := [(Key.arg, 5), (Key.taylor_sid, 2), (Key.delta_arg, 1), (Key.n, 1)]) h1 rfl
      (by simp) rfl rfl rfl rfl rfl rfl
  have h3 : Called (V := ℕ) 116 [(Key.JJ, 3), (Key.basis_index, 0)] :=
    reach_forward 101 117 116 (args := [0, 5, 2]) (kw := [(Key.human_readable_keys, 0)]) h2 rfl (by simp) rfl rfl rfl rfl rfl rfl
  exact ⟨_, _, List.mem_of_getElem? (i := 100) rfl, rfl, by simp, rfl, _, _,
    Made.forward (g := 116) (args := [0, 5, 2]) (kw := [(Key.human_readable_keys, 0)]) rfl rfl h3 rfl rfl, rfl⟩

/-- a call that does not fit: scripts/plot_domain2.py:58 -/
example : ∃ c f, c ∈ misfits ∧ 253 ∈ c.targets ∧ fns[253]? = some f ∧ Made (V := ℕ) c [] [] ∧
    bind f.sig ([] : List ℕ) [] = .error (.missing Key.sid) :=
  ⟨_, _, List.mem_of_getElem? (i := 0) rfl, by simp, rfl, .plain rfl rfl rfl, rfl⟩

/-! ## The dictionaries of derivatives -/

/-- **C117**: the names of derivatives are distinct for all orders and indices, so converting a dictionary to human readable keys loses no
entry -/
theorem C117_deriv_names {a i b j : ℕ} (h : derivName a i = derivName b j) : a = b ∧ i = j := derivName_inj h

example : derivName 2 0 = "d2_xi0_arg".toList ∧ derivName 1 1 = "d_xi1_arg".toList ∧ derivName 0 1 = "xi1".toList ∧
    derivName 11 1 ≠ derivName 1 11 := by decide

/-- **C117**: the keys of the dictionaries of derivatives are distinct, an entry of a dictionary is what was computed for that order and
index, and every key that `do_extend_0` and `extend_radius` read is there, on the boundary itself and after the Taylor expansion -/
theorem C117_derivs (val : ℕ → ℕ → V) :
    (∀ types ∈ [types0, types12, typesTaylor], ((derivDict types val).map Prod.fst).Nodup ∧
      ∀ o i v, (derivName o i, v) ∈ derivDict types val ↔ (o, i) ∈ types ∧ v = val o i) ∧
    (∀ types ∈ [types0, typesTaylor], ∀ k ∈ reads0, ∃ v, (k.toList, v) ∈ derivDict types val) ∧
    (∀ types ∈ [types12, typesTaylor], ∀ k ∈ readsRadius, ∃ v, (k.toList, v) ∈ derivDict types val) := by
  have hm : ∀ (types : List (ℕ × ℕ)) (o i : ℕ), (o, i) ∈ types → ∃ v, (derivName o i, v) ∈ derivDict types val := fun types o i h =>
    ⟨val o i, List.mem_map.2 ⟨(o, i), h, rfl⟩⟩
  have hk : ∀ (types : List (ℕ × ℕ)) (l : List String), (∀ k ∈ l, ∃ t ∈ types, derivName t.1 t.2 = k.toList) →
      ∀ k ∈ l, ∃ v, (k.toList, v) ∈ derivDict types val := fun types l h k hkl => by
    obtain ⟨t, ht, he⟩ := h k hkl
    rw [← he]
    exact hm types t.1 t.2 ht
  refine ⟨fun types ht => ⟨?_, fun o i v => ?_⟩, fun types ht => hk types _ ?_, fun types ht => hk types _ ?_⟩
  · have hn : types.Nodup := by
      have : ∀ types ∈ [types0, types12, typesTaylor], types.Nodup := by decide
      exact this types ht
    rw [derivDict, List.map_map]
    refine List.Nodup.map (fun a b hab => ?_) hn
    have := derivName_inj hab
    exact Prod.ext this.1 this.2
  · rw [derivDict, List.mem_map]
    constructor
    · rintro ⟨t, h1, h2⟩
      obtain ⟨h3, h4⟩ := Prod.mk.inj h2
      obtain ⟨h5, h6⟩ := derivName_inj h3
      subst h5 h6
      exact ⟨h1, h4.symm⟩
    · rintro ⟨h1, rfl⟩
      exact ⟨(o, i), h1, rfl⟩
  · have : ∀ types ∈ [types0, typesTaylor], ∀ k ∈ reads0, ∃ t ∈ types, derivName t.1 t.2 = k.toList := by decide +kernel
    exact this types ht
  · have : ∀ types ∈ [types12, typesTaylor], ∀ k ∈ readsRadius, ∃ t ∈ types, derivName t.1 t.2 = k.toList := by decide +kernel
    exact this types ht

/-- without the fourth derivative `extend_radius` would fail -/
example : ¬ ∀ k ∈ readsRadius, ∃ t ∈ [(0, 0), (0, 1), (1, 0), (1, 1), (2, 0), (2, 1), (3, 0)], derivName t.1 t.2 = k.toList := by
  decide +kernel

end Calls
end Pot
